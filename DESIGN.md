# A Lean 4 model of gnss-lab/tec-suite

Pinned source: `/repo` (read as text only, never run).  Model, specifications and proofs: `/verif/lean/Verif`.
Property list: `properties.jsonl` (generated by `tools/props.py`); claims: `MANIFEST.json` (generated by `tools/manifest.py`);
wrong programs tried against the theorems: `seeded/LOG.jsonl`.

## 1. Trusted base

* Lean 4.33.0's kernel.  Every theorem depends on at most the axioms `propext`, `Classical.choice` and `Quot.sound`; there are no
  axioms of our own and nothing rests on compiled evaluation.  (Concrete examples use `decide` / `decide +kernel`, which the kernel evaluates.)
* My reading of the Python source.  The model is a hand translation, function by function and branch by branch; every definition cites
  file and lines and says where it simplifies.
* The Python semantics written down in `Verif/Py/*`:
  `Err` (exceptions as values), `Str` (strings as `List Char`, slices, `strip`, `split`, `splitlines`-free line handling), `Num` (`int()`, `float()`, `round`),
  `Dict` (insertion order, last assignment wins), `Date` (`datetime`, `timedelta`, `strptime` of the formats used), `Re` (a small regular
  expression engine for the literal expressions of the source, ASCII only), `Format` (`str.format` with the specifications used),
  `Bytes` (ASCII/locale decoding, universal newlines).  Python >= 3.7 semantics.  `tools/difftest` compares them with CPython's built-ins on 127500 random inputs (a test, not a proof; no project code is run).
* Statements are read together with `Verif/Spec/*`, which are written from the RINEX standard and the English property and do not call model helpers, except for
  the data types of the interface (records, configuration, `PyErr`).

### Modelled

| source (`/repo/tecs`) | model | remarks |
|---|---|---|
| `rinex/common.py`, `rinex/basic.py`, `gtb/tools.py` | `Model/Common`, `Model/Header` | `validate_epoch`, `sec2sec_ms`, `get_rinex_date`… |
| `rinex/header.py` | `Model/Header` | all label scanners |
| `rinex/v2/o.py` | `Model/Obs2` | header, interval detection, record generator with events, 2.0, 2.10, 2.11, 2.12 |
| `rinex/v3/o.py` | `Model/Obs3` | idem for 3.x; the `while` loop of interval detection has fuel |
| `rinex/v2/n.py`, `rinex/v3/n.py`, `rinex/nmsg.py` | `Model/Nav` | all readers |
| `rinex/__init__.py`, `rinex/futils.py` | `Model/FUtils`, `Model/Program`, `Model/Raw` | dispatch, names, search, coordinate files, decompression |
| `rinex/nmutils.py` | `Model/NmUtils` | loading, table per day, selection |
| `label.py`, `rinex/label.py`, `validity.py` | `Model/Label` | label families, validity mask |
| `gtb/tec.py` | `Model/Tec` | over an arbitrary field |
| `config.py`, `gtb/config.py`, `rec.py` | `Model/Config` | `eval` of literals and `len(strftime)` are parameters |
| `dio/text.py` | `Model/Writer` | formats, comment, operations as a state machine over a file-system map |
| `sat/*.py` | `Model/Geo` | over the reals |
| `__main__.py` | `Model/Main`, `Model/Program`, `Model/Run` | loop body in stages, file loop, whole program, error counter, `--save-coordinates`, command line |

### Not modelled

* Log messages and everything printed, except the message on errors (C80); the log file and the creation of directories; file permissions, disk full, buffering;
  memory.  The file-system map of C53/C77/C79 is about the data files and `coordinates.txt`.
* `gunzip`, `crx2rnx`, the locale's encoding, `repr`/`strftime`/`now`: parameters, universally quantified (C78).  Locale decoding is applied to the whole file at once.
* The disk does not change during a run, except for the files the run writes, and it does not read those.
* Texts of numbers beyond the range of doubles (`float("9e545")` is `inf`; the model keeps the exact value).
* Floating point rounding (except in `Model/Double.lean`: seconds, slots, printing of observed values and TEC in double precision, with unbounded exponents, C82-C83, and in `Model/DoubleGeo.lean`: the satellite positions, geodetic coordinates, elevation and azimuth, C94-C98), overflow, signed zeros, NaN in arithmetic: parsers and bookkeeping use exact rationals plus `inf`/`nan` markers where `float()` can give them, `gtb/tec.py` an arbitrary field,
  the geometry the reals.  In the whole-program model a non-finite observed value puts the run outside the model (`none`), as does an interval detection of a RINEX 3 file
  that does not end within the fuel.  Kepler's iteration over the reals ends only when Newton's method meets the bound exactly as written; termination of the float loop is not
  claimed beyond C94_ends (C68 is about the limit and about any fixed point; C65 proves termination of the latitude iteration).
* In the main loop model the numeric functions (`xyz2lbh`, satellite position, elevation/azimuth) are parameters `Prm`/`Ext`, so that C57-C63, C70-C81 hold for whatever they compute, with
  whatever exceptions; C64-C69 are about the functions themselves.

## 2. Layers and conventions

`Verif.Py` built-ins; `Verif.Model` the code; `Verif.Spec` renderers and declarative specifications; `Verif.Proofs` lemmas; `Verif.Props` property theorems `Cnn_...` with their non-vacuity examples
(`*_example`, `*_hypotheses`, anonymous `example`s).

A file is the list of its lines, each with its newline; a generator is a function producing the list of yielded items *with the object state at each yield* and the
way it stopped (end / exception); a mutable object is a structure threaded through; loops are structural recursion, or fuel together with a theorem that enough fuel exists or that the result does not depend on it.
External things are parameters and universally quantified.

## 3. Properties: what is modelled and how it is proved

Where the English property as a user would expect it is false of the code, the property in the list states the true behaviour, the exact condition is proved, and a witness theorem shows the
failure (section 4).

### A. Time
* C01 `validate_epoch` on integers with a proleptic Gregorian calendar: an iff with an independent "microseconds since 0001-01-01" specification.
* C02 both two-digit windows, agreement and disagreement for all years 0..99.
* C03 `sec2sec_ms` on exact rationals: inequality for every non-negative rational; witness for the carry.

### B. RINEX 2 observation files
* C04-C09 reader functions against an independent renderer (`Spec/Rinex2`), by induction on the lists; C09_file composes header, types, interval and body.
* C10-C13 the record generator as a state machine over lines; induction over blocks; C13 is an invariant for arbitrary text.
* C14-C15 `get_interval` as a function of the sequence of epochs, specification by counting.  C16 the header scan on arbitrary lines.

### C. RINEX 3 observation files, headers
* C17-C20 round trips against `Spec/Rinex3`; C21 "first event wins" and its witness; C22 the interval loop terminates iff an epoch is readable (fuel).
* (C10, C19 and everything that uses `Field`) a value below 1 may be written without the zero before the point (`-.500`), as Fortran writers do.
* C23, C24 label scan, column decoding, finite version tables lifted to all texts. A header line may have words behind the letters of the version (`OBSERVATION DATA    M (MIXED)`), any text behind the interval, F12.6 seconds in version 2.0 and white space after the label; epoch lines may have leading zeros (RINEX 2 observations and navigation).

### D. Navigation files
* C25-C28 `NavigationData.parse` as a fold over the lines; table contents by induction; C27 invariant over arbitrary text: every message in the table is a run of consecutive lines.

### E. Ephemeris selection and files
* C29-C34 pure functions over association lists; declarative (exists/least) specifications, exact rational arithmetic.
* C35 search over directory listings; C36-C38 the literal regular expressions proved equivalent to explicit shapes; C39 coordinate files.

### F. Labels, TEC, configuration, output
* C40-C42 finite tables lifted to all records; C43-C46 algebra over any field of characteristic 0; C47-C51 configuration: written file -> settings -> columns -> format string -> width;
  C52-C56 writer as a state machine over write operations; C55_line and C55_misfit say for which values a record can be written at all.

### G. Main loop and whole program
* C57-C63, C70, C71, C76 invariants of the main loop over arbitrary item streams and caches; C71 is the exact characterisation (the records written are exactly the admissible ones).
* C72-C75 composition from the disk: search, decompression rule, parser, main loop; C77 adds configuration and writer: the text of the output files.
* C84 a simulation of two runs with different earlier output files and clocks; a crash is a run over the first files and items, with arbitrary contents of the files the run writes.
* C85 the words of a line (`Spec/Readback`): splitting at blanks distributes over the columns, `float()` of a fixed-point text, rounding to nearest; uses the line of C77.
* C86 pairs of records of a satellite from `RecordsOf` (C77) by induction, then the words of the lines (C85).
* C87 two derivations of `RecordsOf` side by side; every column of a record is determined by the item (uniqueness of each part of `Gives`), and the text of a column by its value.
* C88 `Track` (body with the positions in force), the states of the reader along the body, the spacings up to a record count its epoch, so that the interval probe stops in the eleventh epoch; then composition as in C73 and C77. `C88_positions` says which records have the right position.
* C78 bytes, line ends and compression.  C79-C81 `--save-coordinates`, error message, start of the program.

### H. Geometry (over the reals, Mathlib)
* C64-C65 geodetic conversion: contraction argument for the latitude iteration, inverse up to the tolerance; C66 ranges; C67 elevation through the spherical triangle;
  C68 Kepler equation (existence, uniqueness, Newton convergence) and the orbit; C69 the Runge-Kutta integrator of the GLONASS equations: limits at the reference time, fourth-order accuracy against the exact motion (expansions with O-terms, existence by Picard-Lindelöf).

* C82-C83 `double` is IEEE round-to-nearest-even on rationals with unbounded exponents; error bound 2^-53, exactness on integers and halves; interval arithmetic by `linarith` for the seconds, the slots
  (the exact quotient is at least 1/(2 i) away from a tie when the interval is `i` microseconds) and a calculus of relative errors for TEC. `** 2` is any function accurate to one unit in the last place.

* C89 the four roundings of `get_week_sec`: the rounded number of weeks stays in its week, then absolute errors.
* C90 the simulation of C59 (two states with different caches, both correct) gives the same calls of the writer for a file; the writer's output is determined by its calls (C53); other files do not touch the output files of the station and day (C77_elsewhere). `Shares` says what the two runs have in common; the rest of the disk is arbitrary.
* C91 `Heard` (the first position in the blocks so far and the position in force) followed through the reader block by block (`blockRun`); opening by `open3` and C22; then composition as in C73 and C77. `C91_positions` and `C91_once` compare with `Track3` (the position announced last).
* C92 `obsFile_tail` (Proofs/Tail): both readers, run over `A ++ more`, yield first what they yield over `A`; the first reading of a RINEX 2 file (for the interval) sees the same epochs in a different state, so its first ten changes are the same. Then the calls of the writer are an extension (`items_append`, `run_adds`), and the output files grow (`C53_grows`). That the longer file is neither a coordinate nor a navigation file of the run is proved from its name (`C36_disjoint`, `xyz_ne`).
* C93 `Writer.endUp` returns the files on which `close` is called; `closedIn`/`closedLoop` (Model/Main) are shadow functions beside `processFile`/`mainLoop`. The invariant of C52/C53 says which satellites have a file; keys of the dictionary are distinct and paths of different satellites differ. Not covered: runs ended by an exception (the interpreter closes the files).
* C94 `Flt` is an arithmetic (a rounding function and the functions of the C library), `Accurate` what is assumed of it: relative error 2^-53 plus an absolute error far above the underflow error, sine and cosine within 2^-52, arctangent within 2^-50 up to whole turns, powers within two units in the last place; `accurate_binary64` shows that
  IEEE 754 binary64 (`rnd`, round-to-nearest-even with subnormal numbers, equal to `double` of C82 on normal numbers: `rnd_rat`) with correctly rounded functions is one. One pass is Newton's method up to 320·2^-53, so the errors obey ε' ≤ ε²/6 + 320·2^-53; where two steps are equally long the error is at most 1.02 times that bound.
* C95 a calculus of absolute errors (`Appr x' x B ε`: |x| ≤ B, |x' - x| ≤ ε; Proofs/Near) and of relative errors for the mean motion (`Rel`, Proofs/Rel) carried through every operation; the true anomaly up to whole turns (`arg_near`), so that the branch cut of `atan2` does not matter. The constants are checked by `norm_num`.
* C96 one pass of the latitude iteration, contracts by 0.00726 towards the fixed point of the exact iteration (C65) up to 4e-15, from any starting value, so after a few passes two successive values agree up to the threshold; longitude up to whole turns by `arg_near_scaled`. `C96_exact`: with exact arithmetic the model is that of C64-C66.
* C97 relative errors (`Rel`) for the distance and the factors μ/r³ and J₂-term/r⁵, absolute errors (`Appr`) with common bounds for the three stages. The comparison is with `nystromStep` (Spec/Motion) for `frozenAcc`, the equations of C69.
* C98 the arc and the elevation are angles of vectors; `quotient_near`: the arctangent of a quotient of two values with errors δ is off by 1.43 δ/length, whatever the quotient is. With s = sin(arc) the error of √(1 - c²) is 1.8e-13/s, which is carried through as a multiple of 1/s. Azimuth up to whole turns by `arg_near_scaled`.
* C99 the step is that of a Nyström method (C69_step); against a motion under the full equations: the difference `e` has `e(0) = e'(0) = 0` and its second derivative vanishes at 0 with the derivative `missedRate`
  (chain rule, `separate`); over 15 minutes explicit Taylor remainders by a fencing theorem (`Proofs/Drift.lean`), the change of attraction with the distance, the quadratic terms and the change of the Coriolis term
  bounded separately. Existence of the motion by Picard-Lindelöf; a circular motion above the equator is an exact solution and meets all hypotheses (C99_example).
* C100 `Any2` is `Moved2` without the conditions on the times; `fresh` (epochs that do not repeat the time just before) and `Left` (what the interval probe leaves) say what the reader does; the probe stops at the first record of an epoch, so the state it leaves is a position and the time of the epoch before; then composition as in C73 and C77. `C100_lost`: apart from repeats at most the first epoch is lost; `C100_ordered`: none if the times do not go back.
* C101 `TecBack` relates the words of an output line to range, TEC and ambiguities of the signals; the error of the observables (three decimals) goes through the TEC formulas of C70 (`code_sky`, `phase_sky`, `single_sky`, over the reals), the error of printing through C85; in double precision with C83.
* C102 the number of lines every reading step consumes is determined by the lines read so far (`readEpoch_consumes`, `readSats_consumes`), so a cut block runs out of lines at a known place; a cut line is `SameLine` with a beginning of the written one, and field `k` of it is complete, cut or empty according to `k` against `j / 16`. RINEX 3 is read line by line.
* C103 `Plain` texts (no `inf`, `nan`) are closed under taking parts, so every number read from them is finite; that goes through the readers as an invariant (remaining lines are lines of the file, position finite, values finite). The only loop of the program whose number of turns is not bounded by the lines of a file is the interval detection of RINEX 3 (C22); it ends if there is a dated epoch line, and monotonicity in the fuel makes the bound uniform.
* C104 the two lines of sight (the true one, and the one between the points of the sphere and of the same vertical that the formula stands for) are 54 km apart at most (`station_near`, `satellite_near`); the angle between two vectors is bounded by the sine (Mathlib's angle triangle inequality), the rest is C98.
* C105 `Computed F P`: what the numerical functions return is the result of Model/DoubleGeo in the arithmetic `F`; then C95-C98, C104 and the word found in a line (C85). `C105_hypotheses`: such functions exist for binary64, and return every result of the code. The receiver position and the ephemerides are the numbers the program holds (the rounding of the decimal text to a double, half a nanometre for a receiver position, is not part of the statement).
* C106 the chain C103 (the run ends) - C77/C100 (records and output files of a RINEX 2/3 file) - C101 and C105 (the words of a line) as one statement about `program`; Spec/EndToEnd has the conclusion. All hypotheses are shown to hold together for the example of C77 with functions that compute in binary64 (`C106_hypotheses`).
* C107 `ObsText` gives, for each of the four kinds of file, that the file is opened and its items are without error (C77, C100, C91); C59-C62 give every cause of an exception that stops the run (`Cause`), and each is excluded: date and interval by `ObsText`, navigation by C26-C34 over `NavText`, and the numerical functions by an analysis of their code in floating point: every square root, arcsine and arccosine of Model/DoubleGeo has an argument inside its domain (`glonass_raises`, `gps_raises`, `lbhDeg_raises`, `look_raises`), which uses the accuracy theorems C94-C98 and that rounding keeps signs (`SignSafe`).
* C108 `ByteArchive` says in bytes what `ObsArchive` and `NavArchive` say in lines; C78 turns the former into the latter, C81 the command line into the configuration and the disk, C80 gives the message on errors, C107 the end and the output files, with one bound on the fuel for all files. Example: the archive of C107 in bytes with Windows line ends in the observation file. (Composing with the bytes showed that the shapes `File2`, `Any2`, `Moved2` had asked for type lines without a newline character, which no file read from bytes has; they now allow white space behind each type line, `TypeText`.)
* C109 `Stops` lists the faults in terms of the input alone (Spec/Stops); the state of the loop is linked to them by the invariants of C57-C63 (a position already in the table was computed without such an exception, a system already loaded was loaded without one), then induction over items and files. C63 is the other direction (every exception has one of the causes of `Cause`, which also lists a wrong format and an interval of zero). The eccentricity: 1 - e ** 2 is negative after rounding. Not an equivalence: with navIgnoreAbsence the geodetic coordinates and the types also matter for satellites without position.
* C110 Both runs are equal to the reference of C57 (`refWrites`); by induction the records of the kept satellites are those of the reference on the kept items alone, because without decimation an item acts on later ones only through 'its system has occurred'. The output file follows with C76 (its comment is determined by the first record). Counterexample for decimation: `C110_decimation`.
* C111 The kept lines are split into the complete messages (as in C26), the complete lines of the cut message and the cut line; the cut line is compared slice by slice with the whole one (`nav2_same`, `epoch3_front`, `orbit_cut`). Positions: the first 24 values are those of the whole message, and `gps.compute_sat_xyz` uses 17 (`gps_prefix`), in real and in floating point arithmetic. Program (`C111_satellite`): the table of the cut file holds, for these systems, the messages of a prefix up to the values not used (`navFileOf_short`), and the selection depends on the epochs only (`chosen_map`); that the position computation, a parameter of the program model, uses the first 24 values is a hypothesis (`UsesFirst24`), true of the modelled `gps.compute_sat_xyz` by `C111_gps`.
* C112 A relation between two states of the main loop in which only the tables of messages differ (`NavSim`) is kept by every step: the choice of a message depends on a table only through what it gives for each satellite and epoch (`select_same_messages`), and C26/C27 give that for both files. `C112_order` shows that a permutation with repetitions is such a change.
* C113 C73 determines the opened file up to the rounding of the interval, which is unique for whole milliseconds; everything else is untouched by the exchange of the file (the lemmas of C92).
* C114 The loop looks positions up by epoch only (`runItems_coord`, induction over the records); names of coordinate files are neither names of observation files nor of navigation files (`coord_not_obs`, `coord_not_nav`), so that the searches are the same; C39 gives the tables of both files.
* C115 The configuration depends on the settings only through fourteen entries (`readCfg_settings`), and C48 gives these for both files.
* C116 The calls of a file are those of the reference reading of `main` (`refWrites`); restricted to one satellite they are a fold over the items with the time of the last kept epoch as its only state (`refSat`), and an epoch changes that state and gives records in the same way in any order (`refSat_epoch`). `C116_open2`, `C116_open3` give the two readings of the files; `C116_run` is for the program.
* C117 A special case of C118: files with the types in another order have the same used types (`used2_of_cols`, `used3_of_cols`).
* C118 The two readings give items with the same values under the used types (`C118_open2`, `C118_open3`); the value of a family depends on the codes of the family only (`parseRec_family`, from C41) and the validity value on the sets of codes with a bit (C42), so every item changes the state of the loop in the same way and the two runs are equal (`C118_run`).
* C119 The loop passes over the items of other systems without a change of its state, also of the decimation (`runItems_ours`), and the remaining items agree (`C119_open2`, `C119_open3`); so the two runs are equal (`C119_run`).
* C120 `parse_rec` commutes with a change of the values (`parseRec_mapVals`); the record is a function of values and loss-of-lock digits (`values_strength`), which agree by `C120_open2`, `C120_open3`; so the two runs are equal (`C120_run`).
* C121 items of another day change neither state nor `last_epoch` (`admit_otherDay`, `runItems_today`); the items of the day agree by `C121_open2`, `C121_open3`; so the two runs are equal (`C121_run`). The interval is a hypothesis: it is taken from the first epochs, whatever their day.

No property is considered inexpressible; what the model does not carry is floating point rounding in C64-C69 (exact arithmetic; for rounding see C94-C98; for C03, C33, C43-C45, C54 see C82, C83 and C89) and the operating system beyond the
disk described above (C38, C53, C56, C78).

## 4. Findings (places where the program does not do what a user would expect)

Each is visible in a theorem; names in brackets.

Rounding
* half way between two slots the slot depends on rounding: at 25 Hz 00:18:08.38 gets slot 27210, exact arithmetic gives 27209 (C82_example).
* the second of the week is not a whole number in floating point: 518430.0000000197 for 518430 (C89_example); fractions of a second of the epoch are dropped (C33).

Time and names
* two-digit years: epoch lines use the pivot 89, file names the pivot 69 (C02); day 366 of a common year in a name rolls over to the next year (C37_day_366); `sec2sec_ms` can give 1000000 microseconds, and
  the epoch is then rejected (C03_carry_witness, C03_carry_rejected).
* classic navigation names work for 1969..2068 only; a long-named navigation file whose data source is not R, S or U is chosen by the search, but its name gives no date and all its messages are ignored (C75_named).
* a directory whose name contains a RINEX mark (such as `x.17d/`) changes the decompression (C38_witness_directory).

RINEX 2
* a position announced in an event inside the file also applies to the first record after a re-opened generator, and the reading of the interval consumes events (C12 witnesses); the records before the first announced position carry the position in force at the eleventh epoch, in a short file the last one (C88).
* misaligned END OF HEADER gives no records at all (C16); interval of 2.0 files truncated, possibly to 0, then tsn divides by zero (C15_witness_zero, C54_zero); the interval may be negative.
* a file cut in the middle of a value: the beginning of the value is taken for the value (123.456 becomes 123.45; C102_witness).
* malformed continuation or header-event lines give IndexError/ValueError, which abort the whole run (C13_witness, C62_abort).

RINEX 3
* only the first position in the event blocks is ever used, because the lines of all blocks are kept and the first one counts; a position in a block with flag 3 waits for the next block with flag 4 (C21, C91).
* a header-only file never ends (C22, C103_hangs); events redefining types raise, later positions are ignored (C21); clock offset read from the wrong column; a data line before any epoch is a TypeError;
  a bad satellite number aborts the run.
* a file cut short is not noticed; cut inside the name of a satellite, `R12` becomes satellite R01 (all values zero), and `R` alone is a ValueError, which ends the run (C102_witness3).

Navigation
* a trailing blank line is a RinexError, a message cut at the end of the file is silently dropped (C27); a GLONASS message cut in its last line is kept with a wrong z coordinate (C111_witness); minutes 60.. are shifted wrongly (C28); selection takes the earliest message in the window, not the nearest (C31_witness);
  GPS and BeiDou use the first message of the day if the time is not met exactly (C32); Galileo weeks are 13 s off (C34); systems J and I raise a bare Exception (C29_unsupported); the choice between equally suitable files depends on the order of the directory
  listing (C72_navigation_order).
* a plain navigation or coordinate file with a byte the locale cannot decode aborts the run, a packed one does not (C78_navigation_encoding); an UncompressError from a navigation file aborts the run.

Labels, TEC, configuration, output
* the family D6 lacks I/Q, so records with such a label are skipped (C40_example); tec.l8c8 is never requested by its own name: requested without tec.l1c1 and tec.l2c2 it is missing in every record (C47_records, C47_l8c8, C47_witness).
* omitting navIgnoreAbsence is a TypeError (C49); `cfg_file` can be set in the file and then changes the directory (C81); `-c my.cfg` fails (C81_stops); site.l/b/h are written 17/16/18 wide but described as F23.12 (C51_site_widths).
* `elNanValue` and `azNanValue` have defaults and can be set, but nothing reads them (C115).
* With navigation data missing and `navIgnoreAbsence`, the order of the satellites in the epoch decides which of them loses its first record (C116).
* Observations of frequencies 6, 7 and 8 are used for TEC but have no bit in the validity value; the Doppler shifts D1, D2, D5 have a bit but are used for nothing (C118).
* several files of one station and day overwrite each other (C56). The line '# Columns:' is `str` of the tuple of columns without brackets and quotes: with a single column it ends in a comma (C53_columns).

Main loop
* with navIgnoreAbsence the first record of each system without navigation data is lost (C61); the satellite position cache carries an arithmetic error of one file into zeros in the next (C59_counterexample);
  a missing TIME OF FIRST OBS aborts the run (C62_example); navigation errors, unsupported systems and unknown labels are not counted as errors (C80); the position from a coordinate file falls back to the header position for unlisted epochs (C60).

Geometry
* `gps.compute_sat_xyz` uses `1 + e cos E` instead of `1 - e cos E`: 531 km at e = 0.01 (C68_example).
* elevation: `atan` on the wrong branch beyond 90 degrees of arc, so that satellites below the horizon get a non-negative elevation (C67_example); zenith, nadir and exactly 90 degrees raise ZeroDivisionError (C67_errors). In floating point the argument of the square root can be negative within about 1e-7 rad of the zenith, then the exception is a ValueError (not proved; C98 covers arcs from 1e-5 rad).
* exceptions other than arithmetic ones in the numerical functions are not caught and stop the run for all remaining files: the ValueError of a square root of a negative number (a satellite within about 1e-8 rad of the zenith in floating point, an ephemeris with eccentricity over 1: `C109_hyperbola`, `C109_perigee`, and `C109_stops` for the run); C107 says that nothing else does. A station without position (zeros) only gives arithmetic errors, which are caught.
* geodetic coordinates on the axis are a ZeroDivisionError and become (0, 0, 0) (C66_axis).
* the GLONASS integrator keeps the Coriolis velocity and the distance constant over a step (C69_motion), so its error grows like the cube of the time: several kilometres 15 minutes from the message, up to 17 (C99_rate, C99_bound, C99_far).
