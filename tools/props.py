#!/usr/bin/env python3
"""Generates /verif/properties.jsonl.  One tuple per property:
(id, title, statement, quantifier, why_tests_cant, anchors)"""
import json, os
P = []
def p(id, title, statement, quantifier, why, *anchors):
    P.append(dict(id=id, title=title, statement=statement, quantifier=quantifier,
                  why_tests_cant=why, anchors=list(anchors)))

# ---------------------------------------------------------------- A. time
p("C01", "Epoch normalisation is exact",
  "Normalising a seven-component date/time succeeds exactly when the (expanded) year, month, day and hour are a legal calendar hour, minutes and seconds are in 0..120, microseconds are in 0..999999 and the resulting instant does not pass the end of year 9999; the result is then the unique legal date/time whose distance from the start of the calendar is day + hours + minutes + seconds + microseconds of the input. Any other input raises ValueError (or OverflowError: past year 9999, or for components outside the C integer range), never a wrong instant.",
  "all integer seven-tuples", "the input space is unbounded and carries propagate through minutes, hours, days, months and leap years",
  "tecs/rinex/common.py:validate_epoch")
p("C02", "Two-digit years: the epoch reader and the file-name reader agree only for 89..99 and 00..68",
  "The epoch reader maps years below 89 to 20xx and 89..99 to 19xx and keeps years >= 100; the file-name reader uses the POSIX window (69..99 -> 19xx). The calendar date obtained from a file name and from the records inside it therefore agree for every two-digit year outside 69..88 and disagree for every year in 69..88.",
  "all two-digit years", "the disagreement only shows on years nobody put in a test file; the claim is about the whole window",
  "tecs/rinex/common.py:validate_epoch", "tecs/rinex/futils.py:get_rinex_date")
p("C03", "Splitting seconds into whole seconds and microseconds",
  "For every non-negative seconds value the split returns the whole seconds and the microseconds of the value rounded to a tenth of a microsecond and then truncated: for values with at most seven decimals the result never rounds up, the microseconds are below one million and the error is less than one microsecond. For finer values the microseconds can be exactly one million (which the date constructor then rejects).",
  "all non-negative rational seconds", "rounding and truncation interact only near the top of each second",
  "tecs/rinex/common.py:sec2sec_ms", "tecs/rinex/v2/o.py:Obs2.read_epoch")
# ---------------------------------------------------------------- B. RINEX 2 observations
p("C04", "RINEX 2 observation fields decode to what was written",
  "A 16-column observation field holding any number of thousandths written as F14.3, followed by a loss-of-lock and a signal-strength column, decodes to exactly that value, indicator and strength (blank indicator columns mean 0); a blank or missing field decodes to 'no value'; removing trailing blanks from the line never changes the result; a field whose first 14 columns are not a number raises RinexError.",
  "all values that fit the columns, all indicator characters, all positions in the line", "all numeric values and all column positions",
  "tecs/rinex/v2/o.py:Obs2._get_val")
p("C05", "RINEX 2 satellite identifiers decode to a canonical three-character name",
  "Any satellite written as system letter (or blank for GPS, any case) plus a one- or two-digit number is read as the upper-case letter (G for blank) followed by the zero-padded number; an empty or non-numeric identifier raises RinexError.",
  "all systems, numbers and columns", "every identifier and every column offset",
  "tecs/rinex/v2/o.py:Obs2._get_prn")
p("C06", "RINEX 2 line layout of a record",
  "For n observation types the reader plans exactly ceil(n/5) lines: every line holds 5 values except possibly the last, no line is empty and the counts add up to n.",
  "every number of observation types", "unbounded n", "tecs/rinex/v2/o.py:Obs2._det_lines_per_rec")
p("C07", "RINEX 2 observation type list",
  "The list of observation types read from a header equals the list written there, nine per line over as many continuation lines as needed, in order and for any number of types; the number of types returned always equals the number announced.",
  "every list of two-character types, every position of the record in the header", "any number of types and continuation lines (boundaries at 9, 10, 18, ...)",
  "tecs/rinex/v2/o.py:Obs2.set_obs_num_types")
p("C08", "RINEX 2 epoch line decodes for any number of satellites",
  "An epoch line announcing n satellites (12 per line over continuation lines) decodes to the written date/time, flag, count and exactly the written satellites in order, and consumes exactly the continuation lines that belong to it.",
  "every legal date/time with 7-digit seconds, flags 0 and 1, every satellite list that fits a three-digit count", "boundaries at 0, 12, 13, 24 ... satellites and column arithmetic",
  "tecs/rinex/v2/o.py:Obs2.read_epoch")
p("C09", "Reading a RINEX 2 body returns exactly what was written",
  "For every observation type list and every sequence of epochs (any satellites, any values, blanks anywhere) written in RINEX 2 layout with trailing blanks stripped, with event blocks in between that leave the header values as they are, reading yields exactly one record per (epoch, satellite), in file order, carrying every value under its own type; nothing is lost, duplicated, reordered or attributed to another satellite, type or epoch.",
  "all type lists, all sequences of epochs, all values", "interaction of continuation lines, line layout and file position over unbounded files",
  "tecs/rinex/v2/o.py:Obs2.read_records")
p("C10", "Repeated RINEX 2 epochs are suppressed, others are not",
  "Records of an epoch whose time equals that of the immediately preceding observation epoch are consumed but not delivered; all other epochs are delivered in full.",
  "all sequences of epochs", "depends on the whole history of the file", "tecs/rinex/v2/o.py:Obs2.read_records")
p("C11", "RINEX 2 event blocks are skipped exactly",
  "An event block (flag 2..9) announcing k lines consumes exactly those k lines and produces no record; the records after it are read as if the block were absent, except that header lines inside flag 3/4 blocks update the header values.",
  "all flags above 1, all block lengths, all block contents", "any later record would be misread by an off-by-one in the skip",
  "tecs/rinex/v2/o.py:Obs2.read_records")
p("C12", "A position announced inside a RINEX 2 file applies only to later records",
  "A reading that starts with the header position accompanies each record with the position in force at its place in the file, through any number of events. Opening a file does not start there: the detection of the interval pre-reads the file and leaves its position and its memory of the last epoch behind, so in a file with fewer than ten spacings all records before the first announced position come with the position at the end of the file, and an initial epoch with the time of the last one is lost (C88 has the case of any length).",
  "all files with header events", "needs an event inside the pre-read window; history-dependent",
  "tecs/rinex/v2/o.py:Obs2.__init__", "tecs/rinex/v2/o.py:Obs2.get_interval")
p("C13", "RINEX 2 read errors never corrupt earlier records",
  "If reading stops with an error, the records delivered before it are exactly those of the file cut before the faulty epoch block, followed only by records of the faulty block's own epoch and satellites (those whose lines precede the fault); appending anything to a file never changes the records already delivered; on a body without flag 3/4 events and without infinite seconds the only error that can surface is RinexError.",
  "all texts used as a body (well formed or not)", "every possible malformed text", "tecs/rinex/v2/o.py:Obs2.read_records", "tecs/rinex/basic.py:Rinex._next_rec")
p("C14", "The RINEX 2 sampling interval is the most frequent epoch spacing",
  "The detected interval is a most frequent non-zero spacing among the first ten spacings of consecutive distinct epochs (the earliest seen among equally frequent ones); a file with fewer than two distinct epochs raises RinexError.",
  "all record sequences", "all multisets of spacings, including ties", "tecs/rinex/v2/o.py:Obs2.get_interval")
p("C15", "The stored sampling interval",
  "For versions 2.10 and later the stored interval is the detected spacing rounded to a millisecond; for version 2.0 it is truncated to whole seconds, so any spacing below one second is stored as 0 (which later divides by zero).",
  "all spacings", "numerical boundary cases over an unbounded range", "tecs/rinex/v2/o.py:Obs2.__init__", "tecs/rinex/header.py:Interval")
p("C16", "The RINEX 2 reader starts right after the header",
  "After construction the reader is positioned on the line following the header whenever the END OF HEADER label starts at column 61; when the label is misplaced the file is read to its end and no record at all is delivered, silently.",
  "all header/body splits", "depends on the position of one line among arbitrarily many", "tecs/rinex/v2/o.py:Obs2.__init__", "tecs/rinex/v2/o.py:Obs2.get_interval")
# ---------------------------------------------------------------- C. RINEX 3 observations
p("C17", "RINEX 3 observation types per system",
  "The types read for every satellite system equal those written, thirteen per line over any number of continuation lines, in order; from version 3.02 on, and only then and only for BeiDou, band 1 is renamed to band 2; a count that differs from the list or a system announced twice is rejected.",
  "all maps from systems to type lists, all versions", "any number of systems, types and continuation lines", "tecs/rinex/header.py:SysNObsTypes", "tecs/rinex/v3/o.py:Obs3._parse_header")
p("C18", "RINEX 3 epoch line",
  "A written epoch line decodes to the same date/time (microsecond truncation), flag and number of satellites; a line whose date is unreadable has no epoch but is not an error; an unreadable flag or count raises RinexError.",
  "all legal date/times, flags 0..9, counts 0..999", "column arithmetic over all values", "tecs/rinex/v3/o.py:Obs3._parse_epoch_record")
p("C19", "RINEX 3 satellite line",
  "A satellite line with m observation fields decodes into exactly m triples, field k being taken from columns 4+16k..19+16k; blank, missing or unreadable values become 0; blanks in the satellite name become 0; a system not announced in the header raises RinexError.",
  "all type counts, all values, all line lengths", "every field position up to any number of types", "tecs/rinex/v3/o.py:Obs3._parse_obs_record", "tecs/rinex/v3/o.py:Obs3._det_data_chunks")
p("C20", "Reading a RINEX 3 body returns exactly what was written",
  "For every type map and every sequence of epochs written in RINEX 3 layout, reading yields exactly one record per (epoch, satellite), in file order, carrying every value under its own type.",
  "all type maps, all sequences of epochs and satellites", "unbounded files", "tecs/rinex/v3/o.py:Obs3.read_records")
p("C21", "Header events in RINEX 3 files",
  "The position announced by the first header event block holds for the records after it. Later blocks change nothing: the lines of earlier blocks are kept and the first one with a position wins, so a second announced position is ignored. A block that repeats an observation type definition ends the reading with an error that is not RinexError.",
  "all files with header events", "needs two events in one file; history-dependent", "tecs/rinex/v3/o.py:Obs3.read_records", "tecs/rinex/v3/o.py:Obs3._handle_event")
p("C22", "Opening a RINEX 3 file terminates iff it has a readable epoch",
  "Interval detection on a RINEX 3 file either returns the (positive) spacing between the first epoch and the first later different one, or raises RinexError; it runs forever exactly when the file contains no readable regular epoch at all (e.g. a header without data).",
  "all files", "non-termination cannot be observed by a test", "tecs/rinex/v3/o.py:Obs3._det_interval", "tecs/rinex/v3/o.py:Obs3._next_epoch")
p("C23", "Header values: first occurrence wins, columns decode exactly",
  "Among several header lines with the same label the first one determines the value, lines with other labels have no influence, and position, time of first observation, interval and version/type decode to the written values.",
  "all headers, all values", "any number and order of header lines", "tecs/rinex/basic.py:ObservationData._parse_header", "tecs/rinex/header.py")
p("C24", "Version dispatch",
  "A file is opened with the reader of exactly the version announced in its first line; versions other than 2.00, 2.10, 2.11, 3.00..3.03 (navigation: also 2.01, 3.04) and unreadable version lines raise RinexError.",
  "all first lines", "all version numbers", "tecs/rinex/__init__.py:obs_file", "tecs/rinex/__init__.py:nav_file")
# ---------------------------------------------------------------- D. navigation files
p("C25", "Orbit lines decode to the written numbers",
  "Each orbit line yields exactly the announced number of values; numbers written with D, d, E or e exponents decode to their value and blank or missing fields to 0; anything else raises RinexError.",
  "all numbers and all lines", "all numeric texts", "tecs/rinex/v2/n.py:Nav2._read_orbits")
p("C26", "Navigation file contents",
  "For every sequence of navigation messages written in RINEX 2 or 3 layout, the loaded table maps (system, satellite, time of day) to the last message written for it whose date equals the file-name date, and contains nothing else.",
  "all message sequences, all systems", "unbounded files; overwriting depends on history", "tecs/rinex/v2/n.py:Nav2._read_message")
p("C27", "No mis-assembled navigation message",
  "Whatever text a navigation file contains, every message in the loaded table has the full number of values of its system and was assembled from consecutive orbit lines following its own epoch line; a message truncated by the start of the next one is never completed with foreign lines: loading raises RinexError unless the polluted message is dropped because of its date.",
  "all texts", "all malformed files", "tecs/rinex/v2/n.py:Nav2._read_message")
p("C28", "RINEX 3 navigation epochs with minute 60 are shifted wrongly",
  "The six-component navigation epoch of RINEX 3 is normalised as if its minutes were seconds: minute values 60..120 move the epoch by minutes-59 seconds past hh:59 instead of by minutes, and seconds of 60 are rejected. All in-range epochs decode exactly.",
  "all six-component epochs", "only visible on out-of-range components", "tecs/rinex/v3/n.py:Nav3._parse_epoch_record", "tecs/rinex/common.py:validate_epoch")
# ---------------------------------------------------------------- E. selection of ephemerides
p("C29", "Ephemeris selection: absence",
  "Selection returns nothing when the system, or the satellite, is absent from the loaded messages; it never returns another satellite's or another system's message.",
  "all tables, systems, satellites and epochs", "all tables", "tecs/rinex/nmutils.py:select_navigation_message")
p("C30", "Ephemeris selection: exact time has priority",
  "If a message exists for exactly the observation's time of day it is returned, with time argument 0 (GLONASS, SBAS) or the second of the week (GPS, Galileo, BeiDou).",
  "all tables and epochs", "all tables", "tecs/rinex/nmutils.py:select_navigation_message")
p("C31", "Ephemeris selection: age limit",
  "When no message has exactly the time of the observation (C30), for GLONASS, SBAS and Galileo a message is returned only if its time differs from the observation by at most 900 s, 256 s and 10800 s respectively; it is the earliest such message of the day, none is returned when there is none, and for GLONASS/SBAS the time argument is observation minus message time. It is not always the closest one (witness).",
  "all tables and epochs", "all tables", "tecs/rinex/nmutils.py:select_navigation_message")
p("C32", "Ephemeris selection for GPS and BeiDou in the processing loop",
  "With the 'first message' option the processing loop uses, for GPS and BeiDou, the earliest message of the day for every observation time without an exact match, however old; without the option the two-hour limit applies.",
  "all tables and epochs", "all tables", "tecs/rinex/nmutils.py:select_navigation_message", "tecs/__main__.py:main")
p("C33", "Second of the week",
  "For any epoch on or after the system's start the computed second of the week is the number of whole seconds since the start modulo 604800, hence in 0..604799 (exact arithmetic).",
  "all epochs", "unbounded range of dates", "tecs/rinex/nmutils.py:get_week_sec")
p("C34", "Galileo second of the week is 13 s behind GPS",
  "For every epoch the Galileo second of the week used for satellite positions equals the GPS one minus 13 s (mod one week), although both system times share the same week boundaries; the BeiDou one equals the GPS one.",
  "all epochs", "all epochs", "tecs/rinex/nmutils.py:select_navigation_message", "tecs/sat/gps.py:epoch_start")
p("C35", "Navigation file search order",
  "Files of the system itself are preferred to mixed files, the priority list is honoured in order, the first found file is the fallback, absence of any file raises NMError, and the returned file contains the system.",
  "all directory contents and priority lists", "all directory contents", "tecs/rinex/nmutils.py:load_navigation_message", "tecs/rinex/nmutils.py:get_prior_file")
p("C36", "Navigation file names",
  "The search pattern accepts a file name iff it is a classic (ssssdddf.yyt) or long name for exactly the requested system, year (two digits in a classic name) and day of year (any case, any suffix), so files of another day or system are never taken.",
  "all file names, systems and dates", "all names", "tecs/rinex/nmutils.py:compose_navigation_re")
# ---------------------------------------------------------------- F. files
p("C37", "Date from a file name",
  "The date taken from a classic or long RINEX file name is the calendar date of the year and day of year in the name (day 366 of a common year is the next January 1st); any other name gives no date.",
  "all file names", "all names, leap years", "tecs/rinex/futils.py:get_rinex_date")
p("C38", "Recognition and decompression of observation files",
  "A name is accepted as an observation file iff it has one of the three documented shapes with an optional .z/.gz suffix; gzip is used iff the name ends in .z/.gz and the Hatanaka decompressor iff the name is of Hatanaka type, provided no directory of the path contains a RINEX mark (.NNo, .NNd, .rnx, .crx); a directory with such a mark can switch the treatment.",
  "all file names", "all names", "tecs/rinex/futils.py:expand_obs", "tecs/rinex/futils.py:_compose_res")
p("C39", "Coordinate files",
  "Every coordinate file with one line per epoch is read back as the map from epoch to position (the last line wins on duplicates), comments and empty lines being ignored; the file looked up for an observation file is its name without the compression suffix plus .xyz. Whatever the name, what is looked up is NAME.xyz in the same directory, where NAME, a part of the last component, has the shape of the name of an observation file.",
  "all coordinate lists and names", "all contents", "tecs/rinex/futils.py:load_xyz_file", "tecs/rinex/futils.py:find_xyz_file")
# ---------------------------------------------------------------- G. labels
p("C40", "Observation label families are disjoint",
  "Every observation code belongs to at most one family, so looking a code up gives a unique family; a code outside all families raises LabelError.",
  "all strings", "all codes", "tecs/rinex/label.py:get_label", "tecs/rinex/label.py:OBS_TYPE_LABELS")
p("C41", "Choice of the observable per family",
  "For every record and every family the value used is that of the alphabetically first code of the family present in the record, and 'none' if there is none; it does not depend on the order in which codes appear.",
  "all records", "all records and orders", "tecs/gtb/tools.py:parse_rec")
p("C42", "Validity mask",
  "Bit k of the validity value is set iff exactly one of 'family k is expected' and 'family k is present' holds; it depends only on the sets of codes; it is 0 iff expected and present families coincide; codes without a bit have no influence; a code outside all families makes the record be skipped.",
  "all code lists", "all subsets", "tecs/validity.py:eval_validity", "tecs/validity.py:set_bits")
# ---------------------------------------------------------------- H. TEC
p("C43", "Code TEC recovers the electron content",
  "If two pseudoranges are the common range plus the dispersive delay 40.308*TEC*1e16/f^2 of their frequency, the computed TEC is exactly TEC, for any range (exact arithmetic); adding a common delay to both changes nothing; swapping the two signals changes nothing.",
  "all ranges, TEC values and distinct positive frequencies", "continuum of inputs", "tecs/gtb/tec.py:compute_via_p", "tecs/gtb/tec.py:tec_factor")
p("C44", "Phase TEC recovers the electron content up to a constant",
  "If the two phases (in cycles) are the common range minus the dispersive delay plus constant ambiguities, the computed value is TEC plus a constant depending only on the ambiguities and frequencies, so TEC differences along an arc are exact.",
  "all ranges, TEC values, ambiguities, frequencies", "continuum of inputs", "tecs/gtb/tec.py:compute_via_l")
p("C45", "Single-frequency TEC recovers the electron content up to a constant",
  "If code and phase on one frequency are range plus/minus the dispersive delay and a constant ambiguity, the computed value is TEC plus a constant depending only on the ambiguity and frequency.",
  "all ranges, TEC values, ambiguities, frequencies", "continuum of inputs", "tecs/gtb/tec.py:compute_via_l1_c1")
p("C46", "A TEC value exists exactly when its inputs do; no division by zero",
  "A TEC value is produced iff both frequencies are defined for the system and both observables are present and non-zero; for every supported system and every GLONASS frequency number no division by zero can occur (the GLONASS frequency ratio is exactly 9/7).",
  "all observables, systems and frequency numbers", "continuum of frequency numbers", "tecs/gtb/tec.py", "tecs/sat/glonass.py:F1", "tecs/__main__.py:main")
p("C47", "Requested TEC columns are computed",
  "In every record each requested TEC column holds the documented combination of the observables of the record and the carriers of its satellite, and is missing exactly when one of them is missing or zero. The only exception is tec.l8c8: this holds if tec.l1c1 or tec.l2c2 is requested too, and otherwise the column is missing in every record.",
  "all column lists", "all subsets of columns", "tecs/gtb/tec.py:compute_on_demand_l1_c1", "tecs/gtb/tec.py:compute_on_demand_p", "tecs/gtb/tec.py:compute_on_demand_l")
# ---------------------------------------------------------------- I. configuration
p("C48", "Configuration files",
  "Every file made of blank lines, comments starting in column one and name = value lines (values without '=' or '#') is read as exactly those settings: the last assignment of a name wins, unknown names and empty values change nothing, spaces around names and values and trailing comments are ignored. Lines without '=' or with two of them, and indented comments, abort with ValueError.",
  "all such files", "any number and order of lines", "tecs/config.py:Configuration.read_cfg")
p("C49", "Omitting navIgnoreAbsence aborts",
  "A configuration file that gives no value to navIgnoreAbsence is never accepted: if it would be accepted with the line navIgnoreAbsence = False added, the program aborts with TypeError (the default is not a string).",
  "all configuration files", "universal over files", "tecs/gtb/config.py:Cfg.read_cfg", "tecs/config.py:Configuration._get_bool")
p("C50", "Output columns",
  "The composed record format contains exactly the requested columns in the requested order separated by single blanks; 'all' means every column in alphabetical order; an unknown column raises CfgError; the Fortran format has as many items as there are columns.",
  "all column lists", "all lists", "tecs/gtb/config.py:Cfg.compose_rec_format")
p("C51", "The Fortran format describes the record",
  "A program that reads any record with the composed Fortran format finds in each item exactly the text of the corresponding column, for every list of columns without site.l, site.b and site.h and numbers that fit their columns. The items of these three claim 23 characters where 17, 16 and 18 are written, so that reading them gives something else.",
  "all columns", "finite table, but all column lists through C50", "tecs/rec.py:Rec", "tecs/gtb/config.py:Cfg.compose_rec_format")
# ---------------------------------------------------------------- J. writer
p("C52", "Output file name and directory",
  "All records of a satellite go to outDir/YYYY/DDD/site/site_SAT_DDD_YY.dat for the common date of the records, different satellites to different files.",
  "all record sequences with a common date", "all histories", "tecs/dio/text.py:Text.write_data")
p("C53", "Output file contents",
  "After any sequence of writes each satellite's file consists of exactly one header followed by exactly the formatted records of that satellite in order; no record is lost or written twice. The header names the columns of the records in their order (a single name is followed by a comma).",
  "all sequences of writes over all satellites", "all interleavings of satellites", "tecs/dio/text.py:Text.write_data", "tecs/dio/text.py:Text.update_satellite", "tecs/dio/text.py:Text.end_up")
p("C54", "Time slot number",
  "The time slot number is the integer nearest to seconds-of-day / interval, ties going down; it is non-decreasing in time, and exact for epochs on the sampling grid.",
  "all times of day and positive intervals", "continuum", "tecs/dio/text.py:Text.write_data")
p("C55", "Missing values are written as zero and nothing else changes",
  "In an output record each missing value is replaced by 0 and every other value is passed unchanged to its own column. Every successful write appends exactly one text ending with a newline; a value that a requested column does not accept (a fraction in an integer column, a text in a number column) is refused: the write fails and no file changes.",
  "all records", "all patterns of missing values", "tecs/dio/text.py:Text.write_data")
p("C56", "Several files of one station and day overwrite each other",
  "When two observation files of one station and day are processed, the output file of every satellite that occurs in both holds in the end only the records of the second file: the names coincide and the second file truncates the output of the first.",
  "all pairs of files of one station and day", "needs multi-file histories", "tecs/dio/text.py:Text.write_data", "tecs/__main__.py:main")
# ---------------------------------------------------------------- K. processing loop
p("C57", "Only admissible records are written",
  "Every written record belongs to a supported system, to the date in the observation file name, has non-negative elevation, has a known position of its satellite or the navIgnoreAbsence option is on, and a GLONASS record always has an ephemeris (hence a frequency).",
  "all record sequences, navigation data, numerical functions and options", "all histories", "tecs/__main__.py:main")
p("C58", "Decimation",
  "With a sampling interval larger than the file interval, the first admissible epoch is kept, consecutive kept epochs are at least the interval apart, every skipped epoch is closer than the interval to the last kept one, and all satellites of a kept epoch are processed.",
  "all epoch sequences", "all histories", "tecs/__main__.py:main")
p("C59", "The satellite position cache is transparent",
  "The records written for a file do not depend on which files were processed before, whenever navIgnoreAbsence is off or no satellite position fails with an arithmetic error. With navIgnoreAbsence and such an error it can fail: the first use skips the record, later uses write it with zeros (an example is given).",
  "all earlier histories of files, all navigation data", "all histories", "tecs/__main__.py:main")
p("C60", "Receiver position used for a record",
  "The position used for and written with a record is the coordinate-file entry of its epoch if there is one and otherwise the header position in force at that record, independent of earlier records.",
  "all record sequences and coordinate files", "all histories", "tecs/__main__.py:main")
p("C61", "navIgnoreAbsence loses the first record of each system",
  "With navIgnoreAbsence, for every system other than GLONASS without a navigation file, exactly the first considered observation of the system is lost; all others give a record, in order, and nothing else is written for the system.",
  "all record sequences", "all histories", "tecs/__main__.py:main")
p("C62", "Errors in one file do not stop the others",
  "A file that cannot be opened with RinexError or UncompressError, has an unsupported system or another time system produces no output and all other files are processed as if it were absent; a read error inside a file keeps the records before it. Other exceptions abort the run, leaving the files processed before untouched.",
  "all lists of files and outcomes", "all histories", "tecs/__main__.py:main")
p("C63", "The processing loop has no missing-key crash",
  "For all inputs the loop never fails on its internal tables: the navigation-file name, satellite position and GLONASS frequency of a record are always present when used, and the output record has exactly as many values as the format definition expects.",
  "all histories", "all histories", "tecs/__main__.py:main")
p("C70", "Contents of a record",
  "In every written record the observable and LLI columns hold the value of the alphabetically first code of their family in the observation, the validity column the validity bits of the observed codes, and each requested TEC column the documented combination with the carrier frequencies of the record's system (GLONASS: with the frequency number of the chosen message).",
  "all files, items, observation types, navigation data and column selections", "all histories", "tecs/__main__.py:main", "tecs/rec.py:Rec", "tecs/gtb/tec.py")
p("C71", "No admissible record is lost or duplicated",
  "Without decimation the records written for a file are exactly those of its admissible items in order, up to the first item of a system without navigation file; after the run the output file of each satellite is one header followed by exactly these records formatted.",
  "all files and item sequences", "all histories and interleavings of satellites", "tecs/__main__.py:main", "tecs/dio/text.py:Text.write_data")
# ---------------------------------------------------------------- L. geometry
p("C64", "Geodetic conversion inverts",
  "Whenever the conversion to longitude, latitude and height returns, the result converts back to the input coordinates within 1e-7 m in each coordinate; for every point at least 100 km from the centre of the Earth and off the polar axis exact geodetic coordinates exist, and the returned longitude is exact, the latitude within 3.2e-12 rad and the height within 1e-6 m of them (real arithmetic).",
  "all points off the polar axis", "continuum", "tecs/sat/common.py:xyz2lbh")
p("C65", "The latitude iteration terminates",
  "For every point off the polar axis and at least 100 km from the centre of the Earth the latitude iteration reaches its threshold after at most 106 passes (8 passes from 6000 km on), and the result does not depend on a bound on the passes (real arithmetic).",
  "all such points", "termination on a continuum", "tecs/sat/common.py:xyz2lbh")
p("C66", "Longitude and azimuth ranges",
  "Longitude and azimuth are always in [0, 360) degrees and have the right direction (sine and cosine proportional to the coordinates); on the polar axis the conversion returns (0,0,0) (real arithmetic).",
  "all points", "continuum", "tecs/sat/common.py:xyz2lbh_deg", "tecs/sat/common.py:compute_el_az")
p("C67", "Elevation",
  "For a satellite less than 90 degrees of arc away the computed elevation is the elevation above the horizon of a spherical Earth; beyond 90 degrees it is not: satellites that are below the horizon get a non-negative elevation; straight overhead, underfoot and at exactly 90 degrees of arc the computation is a ZeroDivisionError (real arithmetic).",
  "all geometries", "continuum", "tecs/sat/common.py:compute_el_az")
p("C68", "GPS, BeiDou and Galileo satellite positions",
  "For GPS, BeiDou and Galileo satellites and eccentricities below 1/2: the time from ephemeris is reduced to within half a week; when the Kepler iteration ends its result solves Kepler's equation exactly and the iterates converge quadratically to the unique solution; the returned position is that of the IS-GPS-200 algorithm except for the orbital radius, which is too large by 2 a e cos E (real arithmetic).",
  "all ephemerides and times", "continuum", "tecs/sat/gps.py:compute_sat_xyz")
p("C69", "GLONASS/SBAS satellite positions",
  "For GLONASS and SBAS satellites the position as a function of the time from the reference time is the broadcast position in metres at the reference time, is continuous, starts with the broadcast velocity and with the acceleration of the equations of motion of the GLONASS ICD, and for short offsets differs from the motion under that acceleration (distance and velocity terms kept at their broadcast values) by at most a constant times the fifth power of the offset; a message at the centre of the Earth is a ZeroDivisionError at any other time; the SBAS and GLONASS functions agree (real arithmetic).",
  "all ephemerides and offsets", "continuum", "tecs/sat/glonass.py:compute_sat_xyz", "tecs/sat/geo.py:compute_sat_xyz")

# ---------------------------------------------------------------- M. the whole run
p("C72", "Input discovery",
  "The files processed are exactly the entries of the observation directories whose name is that of an observation file, in the order of their paths; neither the order in which the operating system lists the entries of the observation directories nor the order in which these directories are given has an effect on the run. (The order in which it lists the navigation directories has.)",
  "all directories, listings and listing orders", "all disk contents", "tecs/__main__.py:main", "tecs/rinex/futils.py:find_files")
p("C73", "From the file on disk to the records",
  "For each processed RINEX 2 or RINEX 3 observation file that is laid out as the standard says, the run writes exactly the records that belong to the epochs, satellites and observations in the text of the file (with the day of its name, its header position or the position of its coordinate file, its system and interval), thinned to the configured sampling interval.",
  "all disks, configurations, standard observation files and positions of the file in the run", "all inputs; spans every parser and the main loop", "tecs/__main__.py:main", "tecs/rinex/__init__.py:obs_file", "tecs/rinex/futils.py:load_xyz_file")

p("C74", "Runs without input",
  "If no file in the observation directories has the name of an observation file the run ends with SystemExit, and if a directory cannot be listed it ends with the error of the first such directory; in both cases no file is touched. A run that ends normally went through all observation files.",
  "all disks and configurations", "all disk contents", "tecs/__main__.py:main")
p("C75", "From the navigation file on disk to the ephemeris",
  "For every processed system, satellite and time: the ephemeris (and time argument) used is that of the message the selection rule picks among the messages of that satellite, for the day of the observation, in the text of the navigation file chosen for the system and the day; of several messages with the same time the last one in the file counts. The system has navigation data exactly if the chosen file has a message of the system for that day. Without a file for the system or a mixed file there is no navigation data. Whatever the navigation files contain, an ephemeris used is one complete message of that satellite in the chosen file.",
  "all disks, configurations, standard navigation files, satellites and times", "all inputs; spans file search, decompression rule, header, message parser and selection", "tecs/rinex/nmutils.py:load_navigation_message", "tecs/rinex/nmutils.py:select_navigation_message", "tecs/rinex/__init__.py:nav_file", "tecs/rinex/nmsg.py")

p("C76", "The comment of an output file",
  "The comment at the beginning of the file of a satellite names the observation file and the navigation file used for its system on that day (None without one), describes the satellite with the GLONASS frequency number of the ephemeris used for its first record or with the SBAS PRN, shows geodetic and cartesian coordinates of one and the same position, and this is the position in the first record whenever the epochs of the observation file do not go back; it is followed by exactly the records of that satellite.",
  "all runs without exception and all satellites with a record", "all inputs and histories", "tecs/__main__.py:main", "tecs/dio/text.py:write_data")

p("C77", "The output files of a whole run",
  "After a run that ends normally, the output file of every satellite with a record in an accepted observation file (with no later observation file of the same station and day) is the comment followed by one line per record, in order, each line being exactly the configured columns separated by blanks. Files at any other path keep their contents, also when the run ends with an exception.",
  "all disks, configurations read from a configuration file, standard observation files", "all inputs; spans configuration, parsers, main loop and writer", "tecs/__main__.py:main", "tecs/dio/text.py:write_data", "tecs/gtb/config.py:compose_rec_format")

p("C78", "Bytes, compression and line ends",
  "An observation file is read the same whether it is stored plain, gzip-packed, Hatanaka-compressed or both: the lines the parser sees are those of the text, for any line end (LF, CR LF, CR) and with every non-ASCII byte dropped. A packed file whose tool cannot be started is left out of the run with an error and does not stop it. Navigation and coordinate files are read the same way, except that a plain one is decoded with the locale's encoding, so that a byte the locale cannot decode ends the run.",
  "all file contents, forms of compression, line ends and tool outputs", "all byte strings and disk states; no sample of files settles it", "tecs/rinex/futils.py:expand_obs", "tecs/rinex/futils.py:expand_nav", "tecs/rinex/futils.py:write_ascii_lines", "tecs/rinex/__init__.py:obs_file")

p("C79", "--save-coordinates",
  "With --save-coordinates a run writes the file coordinates.txt and touches no other file: one line `site; longitude; latitude` for every accepted observation file, in the order of the files; a run that ends with an exception leaves the lines of the files before. The message on errors is printed exactly if a file was left out with an error.",
  "all disks and configurations", "all disk contents and all numbers of files", "tecs/__main__.py:main")

p("C80", "The message on errors",
  "A run that ends normally prints the message on errors exactly if something was wrong with one of its observation files: it could not be read, its times are not GPS times, reading it broke off, or a record was lost to an arithmetic error in the position of the satellite or its direction. Errors in navigation files are never counted. A run that ends with an exception does not print the message.",
  "all disks, configurations, runs", "all inputs and histories, as errors of earlier files change what is computed later", "tecs/__main__.py:main", "tecs/__main__.py:run")

p("C81", "The start of a run",
  "A run uses the directory of its configuration file (./tecs.cfg if none is given) as working directory: relative directories in the configuration refer to it. A run stops without touching any file with --version, if the configuration file cannot be opened or has an error, or if the configuration file is given without a directory (-c my.cfg).",
  "all command lines, configuration files and disks", "all inputs", "tecs/__main__.py:run", "tecs/__main__.py:ARG_PARSER", "tecs/gtb/config.py:read_cfg")

p("C82", "Rounding does not change times, slots and observed values",
  "In double precision: seconds written with up to seven decimals are split into the same seconds and microseconds as in exact arithmetic; a time gets the slot number of exact arithmetic unless it lies exactly half way between two slots (and even then if times and interval are whole seconds); in every column for observed values a value with three decimals is printed as it was written.",
  "all seconds, times of day, intervals of whole microseconds, observed values below 4e12", "rounding errors depend on every bit of the input", "tecs/rinex/common.py:sec2sec_ms", "tecs/rinex/v2/o.py", "tecs/dio/text.py:tsn", "tecs/gtb/config.py")

p("C83", "Rounding errors of TEC",
  "The carrier frequencies are computed without rounding error; TEC of two pseudoranges, of two phases and of a pseudorange and a phase computed in double precision differs from the exact value by less than 1/10000 TECU (the files show three decimals) for ranges up to 50000 km that differ by up to 1000 km.",
  "all systems, pairs of bands, GLONASS frequency numbers, observed values; any square function accurate to one unit in the last place", "rounding errors depend on every bit of the input", "tecs/gtb/tec.py:tec_factor", "tecs/gtb/tec.py:compute_via_p", "tecs/gtb/tec.py:compute_via_l", "tecs/gtb/tec.py:compute_via_l1_c1", "tecs/sat/glonass.py:F1")

p("C84", "Repeated and interrupted runs",
  "What a run writes does not depend on the output files already there. Running the program again over the same input changes nothing but the dates in the first lines of the output files; a run that is stopped at any point, with the files it was writing left in any state, and then repeated leaves what an uninterrupted run leaves.",
  "all disks, configurations, earlier contents of the output directory, crash points and times", "every crash point and every earlier state", "tecs/__main__.py:main", "tecs/dio/text.py:write_data")

p("C85", "The output can be read back",
  "Split at blanks, an output line has the words of exactly the configured columns, in order (dates may have several words). Integer columns read back exactly with int(); decimal columns read with float() differ from the value by at most half a unit of the last decimal, and not at all if the value has no more decimals than the column. So every observable of the observation file (three decimals) and every loss of lock indicator reads back exactly, a missing value reads as 0, and the column hour gives the epoch to the microsecond.",
  "all records, configurations and columns", "all values, including negative ones, ties and values wider than their columns", "tecs/dio/text.py:write_data", "tecs/gtb/config.py:compose_rec_format")

p("C86", "The lines of an output file are in time order",
  "If the observation file lists its epochs in increasing order and no satellite twice in an epoch, an output file never has two lines for the same time: of two lines the later one has the greater value in the column hour, its time slot number is not smaller, and is greater if the times are at least one sampling interval apart.",
  "all runs, files, satellites, pairs of lines", "all files and decimations, and rounding of the printed hours", "tecs/__main__.py:main", "tecs/dio/text.py:tsn", "tecs/dio/text.py:write_data")

p("C87", "A column does not depend on the other columns",
  "Two runs whose configurations differ in recFields only write the same output files with the same number of lines, and the lines have the same texts in every column contained in both configurations (except tec.l8c8, which is computed only if tec.l1c1 or tec.l2c2 is also requested).",
  "all disks, configurations, pairs of column lists", "all pairs of configurations and all inputs", "tecs/__main__.py:main", "tecs/gtb/tec.py", "tecs/gtb/config.py:compose_rec_format")

p("C88", "Positions announced inside a RINEX 2 file, up to the output",
  "A RINEX 2 file whose events (flags 3, 4) announce positions is processed with all its observations. After an announced position all records carry the right position; but the records before the first announced position carry the position in force at the eleventh epoch (the last one of the file, if there are fewer than eleven epochs), not the one of the header. So the positions are all right if none is announced before the eleventh epoch, and wrong in a short file that announces a second position.",
  "all RINEX 2 files with events, runs and configurations", "all placements of events and all lengths of files", "tecs/rinex/v2/o.py:Obs2.read_records", "tecs/rinex/v2/o.py:Obs2.get_interval", "tecs/__main__.py:main")

p("C89", "The second of the week in double precision",
  "The second of the GPS, BeiDou or Galileo week handed to the orbit computation is computed by the program with doubles from the fractional part of the number of weeks. For every epoch of the calendar it differs from the exact number of seconds by at most 1e-11 s per day since the start of the system time (plus 1e-9 s); until 80 000 days after that start (GPS: 2199) by less than a microsecond.",
  "all epochs of the calendar after the start of the system time", "rounding errors of four operations, for all epochs", "tecs/rinex/nmutils.py:get_week_sec")

p("C90", "Files processed together or separately",
  "What the program writes for an observation file does not depend on the other observation files of the run, on the observation directories, on the time of the run, or on what is in the output directory: between two runs that have the file, its navigation files, its coordinate file and the other settings in common the calls of the writer are the same and every output file of its station and day is either written in neither or has the same text but for the date in the first line - provided both runs end normally, no other file has the same station and day, and no satellite position fails with an arithmetic error. Without navIgnoreAbsence the records are the same even with such errors.",
  "any two sets of observation files, directories, output directories and clocks; any file in both; any position in the list",
  "a test runs a few combinations of files; the claim is about every set of other files and every order, and the caches of satellite positions and frequencies are shared by all files",
  "tecs/__main__.py:main", "tecs/rec.py", "tecs/rinex/nmutils.py:load_navigation_message")

p("C91", "Positions announced inside a RINEX 3 file, up to the output",
  "A RINEX 3 observation file whose event blocks contain position lines is opened and processed: header values, interval and all observations are those written, and the records and output files follow from them as for a file without such blocks (C73, C77). Epochs up to the first block with a position have the position of the header. If the first block with a position has flag 4, all epochs behind it have that position; if there is no further announcement, all positions are right; later announcements are ignored. If it has another flag (3, new site occupation), its position is not used before the next non-empty block with flag 4 ends.",
  "all RINEX 3 files (versions 3.00-3.03) with any number of epochs and event blocks, in any order, whose event lines are positions or lines the program does not interpret; all configurations and disks",
  "files with any number of events are possible, and where a position comes into force depends on all earlier blocks",
  "tecs/rinex/v3/o.py:Obs3.read_records", "tecs/rinex/v3/o.py:Obs3._handle_event", "tecs/rinex/v3/o.py:Obs3._parse_header", "tecs/__main__.py:main")

p("C92", "Lines behind an observation file",
  "When lines are added behind an observation file - further observations, the remains of an interrupted transmission, or garbage - what was read from the shorter file is read from the longer one as well: the same header values, the same interval, the same observations in the same order, then possibly more. The records written for the shorter file are written for the longer one, first and in the same order, and every output file written for the shorter file is the beginning of the one written for the longer file, even if the added lines end the program with an exception. (The shorter file has a complete header and at least ten changes of the epoch, one for RINEX 3, so that its interval is settled.)",
  "all observation files, also damaged ones, and all lists of lines behind them; all disks and configurations; all runs with the file anywhere in the list",
  "the lines behind the file are arbitrary, and a RINEX 2 file is read twice (once for the interval), so every line could change what is read before it",
  "tecs/rinex/v2/o.py:Obs2.read_records", "tecs/rinex/v2/o.py:Obs2.get_interval", "tecs/rinex/v3/o.py:Obs3.read_records", "tecs/rinex/v3/o.py:Obs3._det_interval", "tecs/__main__.py:main", "tecs/dio/text.py:write_data")

p("C93", "Output files are not left open",
  "At any moment the files held open for an observation file are those of the satellites for which records have been written, one each, however many records were written. When the observation file has been read to its end - also if it ends with a defect of the RINEX data - every output file written for it is closed, exactly once, and none stays open while the next observation file is processed; a file that is skipped opens and closes none.",
  "all sequences of calls of the writer within a day; all lists of observation files, disks and configurations whose run ends without an exception",
  "the number of satellites, records and files is unbounded; a leak shows only after many files",
  "tecs/dio/text.py:end_up", "tecs/dio/text.py:write_data", "tecs/__main__.py:main")

p("C94", "Kepler's equation in floating point",
  "In floating-point arithmetic the iteration for the eccentric anomaly divides by zero for no eccentricity from 0 to 1/4 and no mean anomaly up to 20 revolutions, and the value it ends with is the solution of Kepler's equation up to 4e-14 rad (about two micrometres in a GNSS orbit). From the fourth pass on every value of the iteration is that accurate, whether the loop has ended or not. The loop ends when the values repeat with period 1 or 2.",
  "all eccentricities 0..1/4, all mean anomalies of absolute value up to 128; all arithmetics with the accuracy of binary64 and all C libraries accurate to a few units in the last place; any number of passes",
  "the loop compares two floating-point numbers for equality, so whether and where it ends depends on the last bits of every intermediate result; tests see a few inputs with one C library",
  "tecs/sat/gps.py:compute_sat_xyz")

p("C95", "Satellite positions in floating point",
  "For broadcast elements of a navigation satellite (GPS, Galileo, BeiDou, with wide margins) and times in the week, the floating-point computation of the position raises no exception, and each coordinate of the position it returns is within 0.1 mm of the exact formulas (those of C68) for the exact solution of Kepler's equation at the time reduced to the week. Without rounding it is the computation of C68.",
  "all elements in the stated ranges, all times of the week; all arithmetics with the accuracy of binary64 and all C libraries accurate to a few units in the last place",
  "about a hundred rounded operations on continuous inputs; cancellation at some input could lose digits that no sample shows",
  "tecs/sat/gps.py:compute_sat_xyz", "tecs/sat/datum.py:mu", "tecs/sat/datum.py:omega")

p("C96", "Geodetic coordinates in floating point",
  "For a point 6000 to 50000 km from the Earth's centre and at least 1 mm off the axis (every station, every satellite), the floating-point conversion to geodetic coordinates raises no exception, ends after at most eight passes, and returns the longitude within 2e-15 rad (modulo whole turns), the latitude within 2e-14 rad and the height within 3 micrometres of the true geodetic coordinates on the ellipsoid; the variant in degrees returns a longitude from 0 to 360 (up to 1e-12) and both angles within 2e-12 degrees.",
  "all points in the stated ranges; all arithmetics with the accuracy of binary64 and all C libraries accurate to a few units in the last place; any number of passes allowed from eight",
  "the loop ends on a threshold comparison of rounded values; near the poles the tangent of the latitude is unbounded and near the date line the longitude wraps",
  "tecs/sat/common.py:xyz2lbh", "tecs/sat/common.py:xyz2lbh_deg", "tecs/sat/datum.py:e")

p("C97", "Positions of GLONASS and SBAS satellites in floating point",
  "For the message of a GLONASS or SBAS satellite (10000 to 50000 km from the Earth's centre, wide margins for velocity and acceleration) and a time within half an hour of it, the floating-point computation of the position raises no exception, and each coordinate is within two micrometres of the exact value of the Nystroem step for the equations of motion with the distance and the velocity of the message (the step of C69).",
  "all positions, velocities and accelerations in the stated ranges, all times up to 1800 s before or after the message; all arithmetics with the accuracy of binary64",
  "about a hundred rounded operations with large cancelling terms on continuous inputs",
  "tecs/sat/glonass.py:compute_sat_xyz", "tecs/sat/geo.py:compute_sat_xyz", "tecs/sat/datum.py:J0sqd")

p("C98", "Elevation and azimuth in floating point",
  "For a station and a satellite 10000 to 50000 km from the Earth's centre whose verticals enclose an arc of less than 90 degrees and more than 1e-5 rad, the floating-point computation of elevation and azimuth raises no exception; the elevation is within 7e-11/sin(arc) degrees of the elevation over a sphere of 6371 km, and for a satellite at a horizontal distance D of 1 m or more the azimuth is from 0 to 360 (up to 1e-12) and within 6e-4/D + 1e-12 degrees (modulo 360) of the direction in the local frame of the station.",
  "all stations and satellites in the stated ranges; all arithmetics with the accuracy of binary64 and all C libraries accurate to a few units in the last place",
  "the code takes the square root of one minus a square and divides by a sine: near the zenith rounding errors are amplified without limit, and whether the argument of the root is negative depends on the last bits",
  "tecs/sat/common.py:compute_el_az", "tecs/sat/datum.py:r_e")

p("C99", "Positions of GLONASS satellites against the motion of the ICD",
  "The position returned for a GLONASS or SBAS message at the time dt is exactly one Nystrom step for the ICD acceleration with the distance and the velocity kept at their broadcast values. So it leaves the motion that starts as broadcast under the full equations of the ICD like dt^3: the difference divided by dt^3/6 tends to the rate at which the acceleration changes through distance and velocity. For a GLONASS satellite (25000 to 26000 km from the centre, radial speed below 20 m/s, at most 4 km/s and 0.8 m/s^2 along each axis) and |dt| up to 15 minutes the difference is (omega*ay*dt^3/3, -omega*ax*dt^3/3, 0) up to 2.5 km*(|dt|/900)^3 per coordinate: the first two coordinates are within 17 km, the third within 2.5 km, in floating point as well, and the error is at least 17.7*|ax| - 2.5 km at 15 minutes.",
  "all messages with a position other than the centre, all motions under the equations of the ICD that start as broadcast, all times within 15 minutes",
  "there is no closed form of the motion to compare with; a test against another integrator covers a few messages and times and bounds nothing in between",
  "tecs/sat/glonass.py:compute_sat_xyz", "tecs/sat/geo.py:compute_sat_xyz", "tecs/sat/datum.py")

p("C100", "RINEX 2 files with epochs in any order",
  "A RINEX 2 observation file whose epochs stand in any order (times repeated or going back, epochs without satellites, receiver positions announced inside) is opened if the observations have at least two different times one after the other and the interval found is not negative; otherwise it is rejected. The interval is the most frequent of the first ten spacings of the epochs with satellites. Every record of the run and every output file is that of the epochs of the file without those that repeat the time of the epoch just before; if the times never go back, these are exactly the first epochs of each time. Apart from that at most the first epoch of the file is lost, and only if it has the time of the epoch the search for the interval stopped behind.",
  "all headers, types, epochs, events and values, any number and order of epochs; all configurations and other files of the run",
  "which epochs count depends on the whole history of the reader, including the reading ahead for the interval",
  "tecs/rinex/v2/o.py:Obs2", "tecs/rinex/__init__.py:obs_file", "tecs/__main__.py:main")

p("C101", "The TEC columns of the output file against the electron content on the way of the signals",
  "Let the codes and phases of an observation file be those of signals that travelled a range rho through tec TECU, written with three decimals as RINEX does. In every line of the output file, the number read back from a requested column of two codes is tec up to (TECU per metre)/1000 + 0.0005, from a column of two phases tec plus the TEC of the ambiguities up to (TECU per metre)*(sum of the wavelengths)/2000 + 0.0005, from a column of phase and code tec plus the TEC of the ambiguity up to (TECU per metre of one frequency)*(1 + wavelength)/2000 + 0.0005; along an arc the difference of two lines is the change of tec. The same with 0.0006 for the arithmetic of doubles. A metre is at most 9.53 TECU for GPS L1/L2, at most 10 for GLONASS.",
  "all ranges, electron contents, ambiguities, systems, frequency numbers up to 100, columns requested, items and lines of a run",
  "the claim relates physical quantities to text in a file through parsing, selection of observables, frequencies, arithmetic and printing, for continuously many inputs",
  "tecs/gtb/tec.py:compute_via_p", "tecs/gtb/tec.py:compute_via_l", "tecs/gtb/tec.py:compute_via_l1_c1", "tecs/__main__.py:main", "tecs/dio/text.py")
p("C102", "Observation files cut short",
  "Keep the first m lines of an observation file and the first j characters of the next line, as an interrupted transmission leaves them. The records delivered are the first records of the whole file, and at most one more, which has the time, the types and (RINEX 2: always; RINEX 3: as far as its three columns have arrived) the satellite of the next record of the whole file, the right values before the value that was cut, and no values behind it; the value that was cut can be read as another number. If the cut is between lines, all records are right: RINEX 2 delivers the satellites all of whose lines have arrived and raises RinexError (also inside an event block), RINEX 3 delivers the satellites that have arrived and ends normally.",
  "all files (well formed, any number of epochs, satellites, types and events other than position events), all m and j",
  "every one of the places where a file can be cut", "tecs/rinex/v2/o.py:Obs2.read_records", "tecs/rinex/v3/o.py:Obs3.read_records", "tecs/rinex/basic.py:Rinex._next_rec")
p("C103", "Every run ends, unless a RINEX 3 file has no dated epoch",
  "A run over observation files whose numbers are finite (no 'inf' or 'nan' in a position line of the header or behind the header) and whose RINEX 3 files have at least one epoch line with a date, with finite coordinate files, ends: normally or with an error. A run that comes to a RINEX 3 file with a proper header whose epoch lines, if there are any, have no date (for example a file that consists of its header) never ends.",
  "all texts of observation, coordinate, navigation and configuration files, well formed or not, all directories, all earlier output files",
  "termination on arbitrary text, through two readers with look-ahead, cannot be observed by running examples",
  "tecs/__main__.py:main", "tecs/rinex/v3/o.py:Obs3._det_interval", "tecs/rinex/v3/o.py:Obs3._next_epoch", "tecs/rinex/v2/o.py:Obs2.get_interval", "tecs/rinex/__init__.py:obs_file")
p("C104", "The computed elevation against the true elevation",
  "For a station at most 10 km above or below the ellipsoid and a satellite at a distance r of 20000 to 50000 km from the Earth's centre, not on the polar axis, whose verticals enclose an arc of less than 90 degrees and more than 1e-5 rad, the elevation computed in floating point (or exact arithmetic) differs from the true elevation of the line of sight over the horizontal plane of the station by at most 3.1e6 m/(r - 6371 km) degrees: 0.23 degrees at 20000 km, 0.16 at a GPS orbit. A satellite standing at least 0.24 degrees above the horizon (and more than 1e-5 rad from the zenith) always gets a non-negative elevation, so the program does not drop it.",
  "all stations, satellites and arithmetics of the accuracy of binary64",
  "the formula of the program is an approximation (spherical Earth, geodetic latitudes used as geocentric); a bound over all geometries is not a matter of examples",
  "tecs/sat/common.py:compute_el_az", "tecs/__main__.py:main")
p("C105", "The geometric columns of the output file against the geometry",
  "In every line of an output file the words of the requested columns are, up to the accuracy stated: site.x/y/z the position of the receiver (1e-12 m); site.l, site.b, site.h its geodetic longitude (2e-12 degrees, modulo 360), latitude (3e-12 degrees) and height (4e-6 m); sat.x/y/z the position of the satellite used, which is the point of the orbit of the ephemeris (GPS, BeiDou, Galileo: 1.1e-4 m of the orbit formula of C68; GLONASS, SBAS: 2.1e-6 m of one Nystrom step of C69); el the true elevation (3.1e6 m/(r - 6371 km) + 6e-6 degrees); az the direction in the local frame (6e-4/D + 6e-6 degrees modulo 360, D the horizontal distance in metres); or, with navIgnoreAbsence and without a satellite position, zeros.",
  "all records, stations up to 10 km of height, satellites, realistic ephemerides, columns requested, arithmetics of the accuracy of binary64",
  "the claim goes from ephemeris and receiver position through floating-point orbit, geodesy and printing to the words of a file, for continuously many inputs",
  "tecs/__main__.py:main", "tecs/sat/common.py:xyz2lbh_deg", "tecs/sat/common.py:compute_el_az", "tecs/sat/gps.py:compute_sat_xyz", "tecs/sat/glonass.py:compute_sat_xyz", "tecs/dio/text.py")

p("C106", "From the directories of a station archive to the numbers in the output files",
  "Let the observation directories hold files with finite numbers (and a dated epoch in each RINEX 3 file), and let one of them be a well-formed RINEX 2 file (epochs in increasing order, or in any order) or RINEX 3 file. The run ends; if it ends without an exception, then for each satellite with records there is the output file at its path: eleven comment lines and one line per record, and in each line the words of the requested columns are the electron content on the way of the signals observed (C101) and the position and direction of station and satellite (C105), with the accuracies stated there.",
  "all disks, configurations read from a file, other files beside, earlier output files, RINEX 2 and RINEX 3 contents, arithmetics of the accuracy of binary64",
  "the claim joins directory listing, parsing, selection, navigation, arithmetic and printing over all contents",
  "tecs/__main__.py:main", "tecs/rinex/__init__.py:obs_file", "tecs/dio/text.py", "tecs/gtb/tec.py:compute_via_p")

p("C107", "A well-formed archive is processed to the end",
  "Let the observation files found be well-formed RINEX 2 or RINEX 3 files with a TIME OF FIRST OBS whose interval is not rounded to nothing, their coordinate files (if any) be well formed, and the navigation files the program would take for their days (there need not be any) be well-formed files of those days; let the stations be without position or on the ground, the eccentricities at most 0.99, and no observed satellite within 1e-5 rad of the zenith. Then the run ends without an uncaught exception, however many files, epochs, satellites and systems there are, whatever columns are requested and whatever the output directory held before (and the output files then hold what C106 says).",
  "all such archives, configurations read from a file, earlier output files, RINEX 2 and 3 contents (with events), arithmetics of the accuracy and the signs of binary64",
  "one uncaught exception stops the whole run; that no record of any well-formed archive can raise one is a statement about all readers, selections and numerical functions together",
  "tecs/__main__.py:main", "tecs/rinex/__init__.py:obs_file", "tecs/sat/common.py:compute_el_az", "tecs/sat/gps.py:compute_sat_xyz", "tecs/sat/glonass.py:compute_sat_xyz")

p("C108", "A run from the command line and the bytes on the disk to the numbers in the output files",
  "Start the program with a configuration file (or without one: ./tecs.cfg) that can be read, in a directory whose archive holds, in bytes, well-formed observation files in the form their names announce (plain, packed, Hatanaka, both) with any of the three line ends, well-formed navigation files (packed or plain) and coordinate files. Then the run ends without an uncaught exception; the message on errors is printed exactly if something was left out of one of the files (its times are not GPS times, or a record was lost to an arithmetic error); and for each observation file whose output is not written again by a later one the output files are there with the lines and the numbers of C106.",
  "all command lines, configuration files, byte contents of such archives (line ends, unfinished last lines, bytes over 127 in observation files), earlier output files, arithmetics of the accuracy of binary64",
  "the claim joins command line, configuration, decoding, parsing, navigation, arithmetic and printing over all contents",
  "tecs/__main__.py:main", "tecs/__main__.py:run", "tecs/rinex/__init__.py:obs_file", "tecs/dio/text.py")

p("C109", "What stops a run",
  "Faults that the main loop does not handle end the whole run with an exception, so that a run that ended normally has met none of them in any observation file: an exception other than those for wrong RINEX files or unpacking when a file is opened, or while its records are read; no TIME OF FIRST OBS in a file of a supported system; a coordinate file that cannot be read; an observation without satellite, satellite number or epoch; an exception other than 'no navigation file' or 'wrong RINEX file' when navigation data are loaded; an exception other than division by zero or overflow from the satellite position or the direction to the satellite; no frequency number in a GLONASS message; no observation types for a system observed. An ephemeris with an eccentricity of 1.001 or more never gives a position: where the iteration for the anomaly ends, the computation raises ValueError.",
  "all lists of observation files, navigation data, numerical functions, configurations, sampling intervals, output directories; all ephemerides and arithmetics of the accuracy of binary64",
  "it is a statement about every history of earlier files and cached positions: a fault may not be hidden by what the tables of the run already hold",
  "tecs/__main__.py:main", "tecs/sat/gps.py:compute_sat_xyz")

p("C110", "Satellites do not influence each other",
  "Without decimation, two observation files of a day with the same observations of a satellite system, and any observations of other systems, give the same records of that system, in any two runs that end normally, with the same configuration, navigation data and coordinate file, whatever else these runs process (where missing navigation data are tolerated: provided the satellite positions of the two files are computed without arithmetic errors). The same holds for one satellite, if navigation data are required or are there for its system (otherwise the first record of the system is lost, C61, and which satellite loses it depends on the others). If the observation files have the same name and interval and their epochs are in order, the output file of the satellite is the same text too. With decimation this fails: an observation of another satellite decides which epochs are used.",
  "all pairs of observation files that agree in the observations of one system or satellite, all runs around them, configurations, navigation data, numerical functions",
  "non-interference is a claim about pairs of runs with arbitrary differing parts; a test shows two",
  "tecs/__main__.py:main")

p("C111", "Navigation files cut short",
  "Let a navigation file end anywhere: of its messages the first lines are kept and of the next line only the first characters. Then either RinexError is raised, which happens only if the cut lies in the first line of a message or in the last line of a message of the day; or the table holds exactly the messages of the day that have completely arrived before the cut; or, if the cut lies in the last line of a message of the day, these and that message, with the values as far as they have arrived (0 for the fields that have not begun; the field with the cut can become another number). For GPS, Galileo and BeiDou the satellite positions computed from such a message are still right, because its last line holds only the transmission time and the fit interval: the program refuses the file, or finds for every satellite of these systems and every time exactly the positions it would find with a file that ends after a message, one that holds the messages that have arrived; for GLONASS the z coordinate can silently become another number.",
  "all navigation files of RINEX 2 and 3 in the written form, all days, all cut points (line and character)",
  "every character of every file is a possible crash point of the program or transfer that produced it; a test cuts at a few",
  "tecs/rinex/v2/n.py:Nav2._read_message", "tecs/rinex/v3/n.py:Nav3", "tecs/sat/gps.py:compute_sat_xyz")

p("C112", "Order and layout of navigation files do not matter",
  "Two sets of navigation files of the same names that, file by file, hold the same messages of the day named (the messages in another order, repeated, written with other blanks, in another RINEX version, with other header lines, provided that messages of a satellite with the same epoch agree) give the same run: the same output files, the same calls of the writer, the same end. Where messages of a satellite with the same epoch differ, the last one counts.",
  "all pairs of archives that differ in such navigation files only, all observation files, configurations, numerical functions, earlier output files",
  "the claim compares two runs for all permutations and layouts of all navigation files; a test shows one pair",
  "tecs/rinex/nmutils.py:select_navigation_message", "tecs/rinex/v2/n.py:Nav2", "tecs/rinex/v3/n.py:Nav3", "tecs/__main__.py:main")

p("C113", "Observation files with the same contents",
  "Write an observation file anew with the same satellite system, time of first observation, site position, observation types and observations (of whole milliseconds) by epoch: with other comments, another order of the header lines, with or without events between the epochs, other receiver clock offsets, other white space behind the lines or another sub-version 2.10/2.11. Then opening the file yields the same, and the whole run is the same: the same output files, the same calls of the writer, the same end.",
  "all pairs of well-formed RINEX 2 files and of RINEX 3 files with the same contents, all archives around them, configurations, numerical functions, earlier output files",
  "a claim about all pairs of texts with the same contents",
  "tecs/rinex/v2/o.py:Obs2", "tecs/rinex/v3/o.py:Obs3", "tecs/rinex/basic.py:ObservationData", "tecs/__main__.py:main")

p("C114", "A coordinate file counts only at the epochs of the records",
  "Add, remove or rewrite coordinate files (comments, spacing, order of the lines, positions for other epochs) so that for each observation file the position given for each epoch with a record of a supported system and of the day of the file is the same as before (or missing, as before). Then the whole run is the same: the same output files, the same calls of the writer, the same end; no coordinate file is taken for an observation or navigation file.",
  "all pairs of archives that differ in well-formed coordinate files only, all observation and navigation files, configurations, numerical functions, earlier output files",
  "non-interference: a claim about pairs of runs with arbitrary differing coordinate files",
  "tecs/__main__.py:main", "tecs/rinex/futils.py:load_xyz_file", "tecs/rinex/futils.py:find_xyz_file")

p("C115", "Layout of the configuration file",
  "Rewrite the configuration file so that the last non-empty value of each of the fourteen settings with an effect stays the same: other comments, blank lines, spaces, another order, values overwritten later, empty values, unknown names, other values of elNanValue and azNanValue. Then the configuration read is the same (or is refused with the same exception), and so is the run from the command line: the same output files, the same message, the same end.",
  "all pairs of configuration files of blank lines, comments and assignments with the same settings, all command lines, archives, numerical functions, earlier output files",
  "a claim about all pairs of texts with the same settings; in particular that two documented defaults are never used",
  "tecs/config.py:Configuration.read_cfg", "tecs/gtb/config.py:Cfg.read_cfg", "tecs/__main__.py:run")

p("C116", "Order of the satellites in an epoch",
  "Rewrite an observation file so that in some epochs the satellites are listed in another order, together with their observations, and nothing else changes: the records of each satellite, and its output file, stay the same, with any sampling interval. This holds when no satellite is listed twice in an epoch, the epochs are in order and not before TIME OF FIRST OBS, both runs end normally, no later file of the run writes to the same output files, and either navigation data are required (navIgnoreAbsence off), or the satellite's system has navigation data and no position raises an arithmetic error. Without navigation data the order decides which satellite loses its first record.",
  "all pairs of RINEX 2 and RINEX 3 observation files that differ in the order of the satellites within the epochs, all archives around them, configurations, sampling intervals, numerical functions, earlier output files, satellites",
  "a claim about all permutations of the satellites of any number of epochs, with decimation state carried from one satellite to the next",
  "tecs/__main__.py:main", "tecs/rinex/v2/o.py:Obs2.read_records", "tecs/rinex/v3/o.py:Obs3.read_records", "tecs/dio/text.py:write_data")

p("C117", "Order of the observation types",
  "Rewrite an observation file so that the header lists the observation types in another order (in RINEX 3: those of some systems) and the fields of the records are moved accordingly: the run is the same - the same output files with the same text, the same calls of the writer, the same end.",
  "all pairs of well-formed RINEX 2 and RINEX 3 observation files that differ in the order of the observation types (epochs in whole milliseconds), all archives around them, configurations, numerical functions, earlier output files",
  "a claim about all permutations of the types; a dependence on the order would only show for particular combinations of codes of one family",
  "tecs/gtb/tools.py:parse_rec", "tecs/validity.py:eval_validity", "tecs/__main__.py:main", "tecs/rinex/v2/o.py:Obs2.read_records", "tecs/rinex/v3/o.py:Obs3.read_records")

p("C118", "Observation types the program has no use for",
  "Add to an observation file, or remove from it, columns of observation types that are neither in a column of the output nor in the validity value (the third frequency; signal strengths and Doppler shifts of frequencies 6, 7, 8; RINEX 2 precise codes P5 to P8), whatever their values, and list the types in any order: the run is the same - the same output files with the same text, the same calls of the writer, the same end. This is not true of the Doppler shifts D1, D2, D5, which are not written but count in the validity value.",
  "all pairs of well-formed RINEX 2 and RINEX 3 observation files with the same observations of the used types (epochs in whole milliseconds, in RINEX 3 the same systems), all archives around them, configurations, numerical functions, earlier output files",
  "non-interference: a claim about all values of the columns and all pairs of files",
  "tecs/gtb/tools.py:parse_rec", "tecs/validity.py:eval_validity", "tecs/rinex/label.py:get_label", "tecs/__main__.py:main")

p("C119", "Satellites of systems the program does not process",
  "Add to an observation file, or remove from it, satellites of systems other than GPS, GLONASS, SBAS, BeiDou and Galileo (QZSS, IRNSS, any other letter), with whatever observations, and in RINEX 3 the types of such systems in the header: the run is the same - the same output files with the same text, the same calls of the writer, the same end.",
  "all pairs of well-formed RINEX 2 and RINEX 3 observation files with the same observations of the five systems (the same epochs, in whole milliseconds), all archives around them, configurations, sampling intervals, numerical functions, earlier output files",
  "non-interference: a claim about all contents of the records that are left out, including their effect on decimation and on the tables kept between records",
  "tecs/__main__.py:main", "tecs/rinex/v2/o.py:Obs2.read_records", "tecs/rinex/v3/o.py:Obs3.read_records")

p("C120", "The digits for the signal strength",
  "Change the signal-strength digits behind the observations of an observation file, write a loss-of-lock digit 0 as a blank or a blank as 0, or change the layout of the numbers: the run is the same - the same output files with the same text, the same calls of the writer, the same end. (The observations S1, S2, S5 are columns of their own and do count.)",
  "all pairs of well-formed RINEX 2 and RINEX 3 observation files with the same values and loss-of-lock digits (epochs in whole milliseconds), all archives around them, configurations, numerical functions, earlier output files",
  "non-interference: a claim about all values of the digits and all pairs of files",
  "tecs/__main__.py:main", "tecs/gtb/tools.py:parse_rec", "tecs/rinex/v2/o.py:Obs2.read_records", "tecs/rinex/v3/o.py:Obs3.read_records")

p("C121", "Epochs of other days",
  "Add, remove or change epochs of an observation file that do not lie on the day in the name of the file (such as midnight of the next day at its end), so that the interval of the file stays: the run is the same - the same output files with the same text, the same calls of the writer, the same end, also with decimation.",
  "all pairs of well-formed RINEX 2 and RINEX 3 observation files with the same name, the same observations on the day of the name and the same interval (epochs in whole milliseconds), all archives around them, configurations, numerical functions, earlier output files",
  "non-interference: a claim about all contents of the other days and all pairs of files",
  "tecs/__main__.py:main", "tecs/rinex/v2/o.py:Obs2.read_records", "tecs/rinex/v3/o.py:Obs3.read_records", "tecs/rinex/futils.py:get_rinex_date")

if __name__ == "__main__":
    out = os.path.join(os.path.dirname(os.path.abspath(__file__)), "..", "properties.jsonl")
    with open(out, "w") as f:
        for r in P:
            f.write(json.dumps(r, ensure_ascii=False) + "\n")
    print(len(P))
