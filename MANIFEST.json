{
 "claims": [
  {
   "property": "C01",
   "status": "proved",
   "theorems": [
    "Verif.Props.C01_short",
    "Verif.Props.C01_accepted_iff",
    "Verif.Props.C01_accepted",
    "Verif.Props.C01_rejected"
   ],
   "note": ""
  },
  {
   "property": "C02",
   "status": "proved",
   "theorems": [
    "Verif.Props.C02_years",
    "Verif.Props.C02_same_day"
   ],
   "note": ""
  },
  {
   "property": "C03",
   "status": "proved",
   "theorems": [
    "Verif.Props.C03_split",
    "Verif.Props.C03_seven_decimals",
    "Verif.Props.C03_microseconds_exact",
    "Verif.Props.C03_carry_witness",
    "Verif.Props.C03_carry_rejected"
   ],
   "note": ""
  },
  {
   "property": "C04",
   "status": "proved",
   "theorems": [
    "Verif.Props.C04_field",
    "Verif.Props.C04_trailing_blanks",
    "Verif.Props.C04_missing",
    "Verif.Props.C04_text"
   ],
   "note": ""
  },
  {
   "property": "C05",
   "status": "proved",
   "theorems": [
    "Verif.Props.C05_prn",
    "Verif.Props.C05_bad"
   ],
   "note": ""
  },
  {
   "property": "C06",
   "status": "proved",
   "theorems": [
    "Verif.Props.C06_layout",
    "Verif.Props.C06_counts"
   ],
   "note": ""
  },
  {
   "property": "C07",
   "status": "proved",
   "theorems": [
    "Verif.Props.C07_types",
    "Verif.Props.C07_count"
   ],
   "note": ""
  },
  {
   "property": "C08",
   "status": "proved",
   "theorems": [
    "Verif.Props.C08_epoch"
   ],
   "note": ""
  },
  {
   "property": "C09",
   "status": "proved",
   "theorems": [
    "Verif.Props.C09_body",
    "Verif.Props.C09_file"
   ],
   "note": ""
  },
  {
   "property": "C10",
   "status": "proved",
   "theorems": [
    "Verif.Props.C10_repeated",
    "Verif.Props.C11_events"
   ],
   "note": ""
  },
  {
   "property": "C100",
   "status": "proved",
   "theorems": [
    "Verif.Props.C100_open",
    "Verif.Props.C100_too_few",
    "Verif.Props.C100_records",
    "Verif.Props.C100_output",
    "Verif.Props.C100_lost",
    "Verif.Props.C100_ordered",
    "Verif.Props.ProgEx.C100_hypotheses",
    "Verif.Props.ProgEx.C100_ordered_hypotheses",
    "Verif.Props.ProgEx.C100_too_few_hypotheses",
    "Verif.Props.ProgEx.C100_example"
   ],
   "note": ""
  },
  {
   "property": "C101",
   "status": "proved",
   "theorems": [
    "Verif.Props.C101_line",
    "Verif.Props.C101_file",
    "Verif.Props.C101_arc",
    "Verif.Props.C101_tecu",
    "Verif.Props.C101_double_codes",
    "Verif.Props.C101_double_phases",
    "Verif.Props.C101_double_single",
    "Verif.Props.C101_example"
   ],
   "note": ""
  },
  {
   "property": "C102",
   "status": "proved",
   "theorems": [
    "Verif.Props.C102_epoch_lines",
    "Verif.Props.C102_event_lines",
    "Verif.Props.C102_cut",
    "Verif.Props.C102_witness",
    "Verif.Props.C102_epoch_lines3",
    "Verif.Props.C102_cut3",
    "Verif.Props.C102_witness3"
   ],
   "note": ""
  },
  {
   "property": "C103",
   "status": "proved",
   "theorems": [
    "Verif.Props.C103_ends",
    "Verif.Props.C103_hangs",
    "Verif.Props.C103_hypotheses",
    "Verif.Props.C103_hypotheses3",
    "Verif.Props.C103_hangs_example"
   ],
   "note": ""
  },
  {
   "property": "C104",
   "status": "proved",
   "theorems": [
    "Verif.Props.C104_geometry",
    "Verif.Props.C104_elevation",
    "Verif.Props.C104_kept",
    "Verif.Props.C104_exact",
    "Verif.Props.C104_example"
   ],
   "note": ""
  },
  {
   "property": "C105",
   "status": "proved",
   "theorems": [
    "Verif.Props.C105_line",
    "Verif.Props.C105_file",
    "Verif.Props.C105_hypotheses",
    "Verif.Props.C105_example"
   ],
   "note": ""
  },
  {
   "property": "C106",
   "status": "proved",
   "theorems": [
    "Verif.Props.C106_rinex2",
    "Verif.Props.C106_any_order",
    "Verif.Props.C106_rinex3",
    "Verif.Props.C106_functions",
    "Verif.Props.C106_hypotheses"
   ],
   "note": ""
  },
  {
   "property": "C107",
   "status": "proved",
   "theorems": [
    "Verif.Props.C107_ends",
    "Verif.Props.C107_numerics",
    "Verif.Props.C107_run",
    "Verif.Props.C107_rinex2",
    "Verif.Props.C107_any_order",
    "Verif.Props.C107_rinex3",
    "Verif.Props.C107_moved3",
    "Verif.Props.C107_functions",
    "Verif.Props.C107_hypotheses"
   ],
   "note": ""
  },
  {
   "property": "C108",
   "status": "proved",
   "theorems": [
    "Verif.Props.C108_archive",
    "Verif.Props.C108_run",
    "Verif.Props.C108_hypotheses"
   ],
   "note": ""
  },
  {
   "property": "C109",
   "status": "proved",
   "theorems": [
    "Verif.Props.C109_stops",
    "Verif.Props.C109_program",
    "Verif.Props.C109_hyperbola",
    "Verif.Props.C109_no_position",
    "Verif.Props.C109_perigee",
    "Verif.Props.C109_binary64",
    "Verif.Props.C109_example"
   ],
   "note": ""
  },
  {
   "property": "C11",
   "status": "proved",
   "theorems": [
    "Verif.Props.C11_events",
    "Verif.Props.C11_header_events"
   ],
   "note": ""
  },
  {
   "property": "C110",
   "status": "proved",
   "theorems": [
    "Verif.Props.C110_system",
    "Verif.Props.C110_satellite",
    "Verif.Props.C110_file",
    "Verif.Props.C110_example",
    "Verif.Props.C110_decimation"
   ],
   "note": ""
  },
  {
   "property": "C111",
   "status": "proved",
   "theorems": [
    "Verif.Props.C111_cut",
    "Verif.Props.C111_gps",
    "Verif.Props.C111_satellite",
    "Verif.Props.C111_witness",
    "Verif.Props.C111_gps_example",
    "Verif.Props.ProgEx.C111_satellite_example"
   ],
   "note": ""
  },
  {
   "property": "C112",
   "status": "proved",
   "theorems": [
    "Verif.Props.C112_run",
    "Verif.Props.C112_order",
    "Verif.Props.ProgEx.C112_hypotheses",
    "Verif.Props.ProgEx.C112_example"
   ],
   "note": ""
  },
  {
   "property": "C113",
   "status": "proved",
   "theorems": [
    "Verif.Props.C113_run",
    "Verif.Props.C113_open2",
    "Verif.Props.C113_open3",
    "Verif.Props.ProgEx.C113_hypotheses",
    "Verif.Props.ProgEx.C113_example",
    "Verif.Props.ProgEx.C113_hypotheses3"
   ],
   "note": ""
  },
  {
   "property": "C114",
   "status": "proved",
   "theorems": [
    "Verif.Props.C114_run",
    "Verif.Props.C114_layout",
    "Verif.Props.ProgEx.C114_hypotheses",
    "Verif.Props.ProgEx.C114_example"
   ],
   "note": ""
  },
  {
   "property": "C115",
   "status": "proved",
   "theorems": [
    "Verif.Props.C115_run",
    "Verif.Props.C115_read",
    "Verif.Props.ProgEx.C115_hypotheses",
    "Verif.Props.ProgEx.C115_example"
   ],
   "note": ""
  },
  {
   "property": "C116",
   "status": "proved",
   "theorems": [
    "Verif.Props.C116_run",
    "Verif.Props.C116_open2",
    "Verif.Props.C116_open3",
    "Verif.Props.MainEx.C116_witness",
    "Verif.Props.ProgEx.C116_hypotheses",
    "Verif.Props.ProgEx.C116_hypotheses3",
    "Verif.Props.ProgEx.C116_example"
   ],
   "note": ""
  },
  {
   "property": "C117",
   "status": "proved",
   "theorems": [
    "Verif.Props.C117_run",
    "Verif.Props.ProgEx.C117_hypotheses",
    "Verif.Props.ProgEx.C117_hypotheses3",
    "Verif.Props.ProgEx.C117_example"
   ],
   "note": ""
  },
  {
   "property": "C118",
   "status": "proved",
   "theorems": [
    "Verif.Props.C118_run",
    "Verif.Props.C118_open2",
    "Verif.Props.C118_open3",
    "Verif.Props.ProgEx.C118_hypotheses",
    "Verif.Props.MainEx.C118_witness",
    "Verif.Props.ProgEx.C118_hypotheses3"
   ],
   "note": ""
  },
  {
   "property": "C119",
   "status": "proved",
   "theorems": [
    "Verif.Props.C119_run",
    "Verif.Props.C119_open2",
    "Verif.Props.C119_open3",
    "Verif.Props.ProgEx.C119_hypotheses",
    "Verif.Props.ProgEx.C119_example",
    "Verif.Props.ProgEx.C119_hypotheses3"
   ],
   "note": ""
  },
  {
   "property": "C12",
   "status": "proved",
   "theorems": [
    "Verif.Props.C12_positions",
    "Verif.Props.C88_positions",
    "Verif.Props.C88_late",
    "Verif.Props.C12_open_starts_at_the_end",
    "Verif.Props.C12_witness_position",
    "Verif.Props.C12_witness_lost_epoch"
   ],
   "note": ""
  },
  {
   "property": "C120",
   "status": "proved",
   "theorems": [
    "Verif.Props.C120_run",
    "Verif.Props.C120_open2",
    "Verif.Props.C120_open3",
    "Verif.Props.ProgEx.C120_hypotheses",
    "Verif.Props.ProgEx.C120_example",
    "Verif.Props.ProgEx.C120_hypotheses3"
   ],
   "note": ""
  },
  {
   "property": "C121",
   "status": "proved",
   "theorems": [
    "Verif.Props.C121_run",
    "Verif.Props.C121_open2",
    "Verif.Props.C121_open3",
    "Verif.Props.ProgEx.C121_hypotheses",
    "Verif.Props.ProgEx.C121_example",
    "Verif.Props.ProgEx.C121_hypotheses3",
    "Verif.Props.ProgEx.alike3_example"
   ],
   "note": ""
  },
  {
   "property": "C13",
   "status": "proved",
   "theorems": [
    "Verif.Props.C13_prefix",
    "Verif.Props.C13_before_fault",
    "Verif.Props.C13_faulty_block",
    "Verif.Props.C13_only_rinex",
    "Verif.Props.C13_witness",
    "Verif.Props.C13_fault_in_epoch",
    "Verif.Props.C102_epoch_lines"
   ],
   "note": ""
  },
  {
   "property": "C14",
   "status": "proved",
   "theorems": [
    "Verif.Props.C14_interval",
    "Verif.Props.C14_too_short"
   ],
   "note": ""
  },
  {
   "property": "C15",
   "status": "proved",
   "theorems": [
    "Verif.Props.C14_interval",
    "Verif.Props.C15_zero",
    "Verif.Props.C15_milliseconds",
    "Verif.Props.C15_witness_zero"
   ],
   "note": ""
  },
  {
   "property": "C16",
   "status": "proved",
   "theorems": [
    "Verif.Props.C16_after_header",
    "Verif.Props.C16_misplaced",
    "Verif.Props.C16_witness"
   ],
   "note": ""
  },
  {
   "property": "C17",
   "status": "proved",
   "theorems": [
    "Verif.Props.C17_types",
    "Verif.Props.C17_rejected"
   ],
   "note": ""
  },
  {
   "property": "C18",
   "status": "proved",
   "theorems": [
    "Verif.Props.C18_epoch",
    "Verif.Props.C18_unreadable",
    "Verif.Props.C18_bad",
    "Verif.Props.C18_example"
   ],
   "note": ""
  },
  {
   "property": "C19",
   "status": "proved",
   "theorems": [
    "Verif.Props.C19_written",
    "Verif.Props.C19_columns",
    "Verif.Props.C19_unknown",
    "Verif.Props.C19_example"
   ],
   "note": ""
  },
  {
   "property": "C20",
   "status": "proved",
   "theorems": [
    "Verif.Props.C20_body",
    "Verif.Props.C20_file"
   ],
   "note": ""
  },
  {
   "property": "C21",
   "status": "proved",
   "theorems": [
    "Verif.Props.C21_positions",
    "Verif.Props.C21_first",
    "Verif.Props.C21_later_ignored",
    "Verif.Props.C21_redefinition",
    "Verif.Props.C21_witness"
   ],
   "note": ""
  },
  {
   "property": "C22",
   "status": "proved",
   "theorems": [
    "Verif.Props.C22_interval",
    "Verif.Props.C22_diverges_iff",
    "Verif.Props.C22_no_epoch",
    "Verif.Props.C22_header_only",
    "Verif.Props.C22_example"
   ],
   "note": ""
  },
  {
   "property": "C23",
   "status": "proved",
   "theorems": [
    "Verif.Props.C23_header",
    "Verif.Props.C23_first_line"
   ],
   "note": ""
  },
  {
   "property": "C24",
   "status": "proved",
   "theorems": [
    "Verif.Props.C24_obs",
    "Verif.Props.C24_obs_rejected",
    "Verif.Props.C24_nav",
    "Verif.Props.C24_nav_written"
   ],
   "note": ""
  },
  {
   "property": "C25",
   "status": "proved",
   "theorems": [
    "Verif.Props.C25_written",
    "Verif.Props.C25_any",
    "Verif.Props.C25_error",
    "Verif.Props.C25_example"
   ],
   "note": ""
  },
  {
   "property": "C26",
   "status": "proved",
   "theorems": [
    "Verif.Props.C26_table",
    "Verif.Props.C26_other_days",
    "Verif.Props.C26_example"
   ],
   "note": ""
  },
  {
   "property": "C27",
   "status": "proved",
   "theorems": [
    "Verif.Props.C27_assembled",
    "Verif.Props.C27_truncated",
    "Verif.Props.C27_dropped",
    "Verif.Props.C27_stray",
    "Verif.Props.C27_end",
    "Verif.Props.C27_example"
   ],
   "note": ""
  },
  {
   "property": "C28",
   "status": "proved",
   "theorems": [
    "Verif.Props.C28_accepted",
    "Verif.Props.C28_witness",
    "Verif.Props.C28_second"
   ],
   "note": ""
  },
  {
   "property": "C29",
   "status": "proved",
   "theorems": [
    "Verif.Props.C29_absent",
    "Verif.Props.C29_own",
    "Verif.Props.C29_unsupported"
   ],
   "note": ""
  },
  {
   "property": "C30",
   "status": "proved",
   "theorems": [
    "Verif.Props.C30_exact"
   ],
   "note": ""
  },
  {
   "property": "C31",
   "status": "proved",
   "theorems": [
    "Verif.Props.C31_window",
    "Verif.Props.C31_witness_not_closest"
   ],
   "note": ""
  },
  {
   "property": "C32",
   "status": "proved",
   "theorems": [
    "Verif.Props.C32_first",
    "Verif.Props.C31_window"
   ],
   "note": ""
  },
  {
   "property": "C33",
   "status": "proved",
   "theorems": [
    "Verif.Props.C33_week"
   ],
   "note": ""
  },
  {
   "property": "C34",
   "status": "proved",
   "theorems": [
    "Verif.Props.C34_systems"
   ],
   "note": ""
  },
  {
   "property": "C35",
   "status": "proved",
   "theorems": [
    "Verif.Props.C35_choice",
    "Verif.Props.C35_load",
    "Verif.Props.C35_failures"
   ],
   "note": ""
  },
  {
   "property": "C36",
   "status": "proved",
   "theorems": [
    "Verif.Props.C36_names",
    "Verif.Props.C36_exclusive",
    "Verif.Props.C36_disjoint"
   ],
   "note": ""
  },
  {
   "property": "C37",
   "status": "proved",
   "theorems": [
    "Verif.Props.C37_date",
    "Verif.Props.C37_same_year",
    "Verif.Props.C37_day_366",
    "Verif.Props.C37_bad_day",
    "Verif.Props.C37_other_name"
   ],
   "note": ""
  },
  {
   "property": "C38",
   "status": "proved",
   "theorems": [
    "Verif.Props.C38_recognised",
    "Verif.Props.C38_treatment",
    "Verif.Props.C38_witness_directory"
   ],
   "note": "the treatment is proved for directories without a RINEX mark in their name; C38_witness_directory shows it fails otherwise"
  },
  {
   "property": "C39",
   "status": "proved",
   "theorems": [
    "Verif.Props.C39_contents",
    "Verif.Props.C39_leading_blank",
    "Verif.Props.C39_inline_comment",
    "Verif.Props.C39_name",
    "Verif.Props.C39_any"
   ],
   "note": ""
  },
  {
   "property": "C40",
   "status": "proved",
   "theorems": [
    "Verif.Props.C40_disjoint",
    "Verif.Props.C40_members",
    "Verif.Props.C40_lookup",
    "Verif.Props.C40_unknown",
    "Verif.Props.C40_example"
   ],
   "note": ""
  },
  {
   "property": "C41",
   "status": "proved",
   "theorems": [
    "Verif.Props.C41_families",
    "Verif.Props.C41_choice",
    "Verif.Props.C41_order",
    "Verif.Props.C41_example"
   ],
   "note": ""
  },
  {
   "property": "C42",
   "status": "proved",
   "theorems": [
    "Verif.Props.C42_bits",
    "Verif.Props.C42_unknown",
    "Verif.Props.C42_zero",
    "Verif.Props.C42_sets",
    "Verif.Props.C42_example"
   ],
   "note": ""
  },
  {
   "property": "C43",
   "status": "proved",
   "theorems": [
    "Verif.Props.C43_recovers",
    "Verif.Props.C43_common",
    "Verif.Props.C43_swap",
    "Verif.Props.C43_example"
   ],
   "note": ""
  },
  {
   "property": "C44",
   "status": "proved",
   "theorems": [
    "Verif.Props.C44_recovers",
    "Verif.Props.C44_arc",
    "Verif.Props.C43_example"
   ],
   "note": ""
  },
  {
   "property": "C45",
   "status": "proved",
   "theorems": [
    "Verif.Props.C45_recovers",
    "Verif.Props.C45_example"
   ],
   "note": ""
  },
  {
   "property": "C46",
   "status": "proved",
   "theorems": [
    "Verif.Props.C46_code",
    "Verif.Props.C46_phase",
    "Verif.Props.C46_single",
    "Verif.Props.C46_frequencies",
    "Verif.Props.C46_distinct",
    "Verif.Props.C46_glonass",
    "Verif.Props.C46_columns",
    "Verif.Props.C46_example"
   ],
   "note": ""
  },
  {
   "property": "C47",
   "status": "proved",
   "theorems": [
    "Verif.Props.C47_records",
    "Verif.Props.C47_computed",
    "Verif.Props.C47_l8c8",
    "Verif.Props.C47_witness"
   ],
   "note": ""
  },
  {
   "property": "C48",
   "status": "proved",
   "theorems": [
    "Verif.Props.C48_settings",
    "Verif.Props.C48_unreadable",
    "Verif.Props.C48_bad_shapes",
    "Verif.Props.C48_values",
    "Verif.Props.C48_values_example",
    "Verif.Props.C48_lists",
    "Verif.Props.C48_lists_example"
   ],
   "note": ""
  },
  {
   "property": "C49",
   "status": "proved",
   "theorems": [
    "Verif.Props.C49_rejected",
    "Verif.Props.C49_type_error",
    "Verif.Props.C49_example"
   ],
   "note": ""
  },
  {
   "property": "C50",
   "status": "proved",
   "theorems": [
    "Verif.Props.C50_record",
    "Verif.Props.C50_all",
    "Verif.Props.C50_unknown",
    "Verif.Props.C50_example"
   ],
   "note": ""
  },
  {
   "property": "C51",
   "status": "proved",
   "theorems": [
    "Verif.Props.C51_width",
    "Verif.Props.C51_reads",
    "Verif.Props.C51_site",
    "Verif.Props.C51_site_widths",
    "Verif.Props.C51_example"
   ],
   "note": ""
  },
  {
   "property": "C52",
   "status": "proved",
   "theorems": [
    "Verif.Props.C52_path",
    "Verif.Props.C52_distinct",
    "Verif.Props.C56_example"
   ],
   "note": ""
  },
  {
   "property": "C53",
   "status": "proved",
   "theorems": [
    "Verif.Props.C53_contents",
    "Verif.Props.C53_columns",
    "Verif.Props.C53_elsewhere",
    "Verif.Props.C53_abort",
    "Verif.Props.C53_grows",
    "Verif.Props.C56_example"
   ],
   "note": ""
  },
  {
   "property": "C54",
   "status": "proved",
   "theorems": [
    "Verif.Props.C54_slot",
    "Verif.Props.C54_unique",
    "Verif.Props.C54_monotone",
    "Verif.Props.C54_exact",
    "Verif.Props.C54_zero",
    "Verif.Props.C54_example"
   ],
   "note": ""
  },
  {
   "property": "C55",
   "status": "proved",
   "theorems": [
    "Verif.Props.C55_record",
    "Verif.Props.C55_line",
    "Verif.Props.C55_misfit",
    "Verif.Props.C55_example",
    "Verif.Props.C55_misfit_example"
   ],
   "note": ""
  },
  {
   "property": "C56",
   "status": "proved",
   "theorems": [
    "Verif.Props.C56_overwritten",
    "Verif.Props.C56_example"
   ],
   "note": ""
  },
  {
   "property": "C57",
   "status": "proved",
   "theorems": [
    "Verif.Props.C57_records",
    "Verif.Props.C57_admissible",
    "Verif.Props.load_by_date",
    "Verif.Props.MainEx.C57_example"
   ],
   "note": ""
  },
  {
   "property": "C58",
   "status": "proved",
   "theorems": [
    "Verif.Props.C58_decimation",
    "Verif.Props.C58_unique",
    "Verif.Props.C58_spaced",
    "Verif.Props.MainEx.C58_example",
    "Verif.Props.MainEx.C71_hypotheses"
   ],
   "note": ""
  },
  {
   "property": "C59",
   "status": "proved",
   "theorems": [
    "Verif.Props.C59_independent",
    "Verif.Props.C59_records",
    "Verif.Props.MainEx.C59_counterexample",
    "Verif.Props.MainEx.C71_hypotheses"
   ],
   "note": ""
  },
  {
   "property": "C60",
   "status": "proved",
   "theorems": [
    "Verif.Props.C60_position",
    "Verif.Props.C60_direction",
    "Verif.Props.MainEx.C57_example"
   ],
   "note": ""
  },
  {
   "property": "C61",
   "status": "proved",
   "theorems": [
    "Verif.Props.C61_first_lost",
    "Verif.Props.MainEx.C61_example",
    "Verif.Props.MainEx.C61_hypotheses"
   ],
   "note": ""
  },
  {
   "property": "C62",
   "status": "proved",
   "theorems": [
    "Verif.Props.C62_left_out",
    "Verif.Props.C62_read_error",
    "Verif.Props.C62_abort",
    "Verif.Props.MainEx.C62_example"
   ],
   "note": ""
  },
  {
   "property": "C63",
   "status": "proved",
   "theorems": [
    "Verif.Props.C63_causes",
    "Verif.Props.C63_no_abort",
    "Verif.Props.MainEx.C63_example"
   ],
   "note": ""
  },
  {
   "property": "C64",
   "status": "proved",
   "theorems": [
    "Verif.Props.C64_roundtrip",
    "Verif.Props.C64_geodetic",
    "Verif.Props.C64_exists",
    "Verif.Props.C65_example"
   ],
   "note": ""
  },
  {
   "property": "C65",
   "status": "proved",
   "theorems": [
    "Verif.Props.C65_terminates",
    "Verif.Props.C65_unique",
    "Verif.Props.C65_example"
   ],
   "note": ""
  },
  {
   "property": "C66",
   "status": "proved",
   "theorems": [
    "Verif.Props.C66_degrees",
    "Verif.Props.C67_elevation",
    "Verif.Props.C66_axis",
    "Verif.Props.C66_total",
    "Verif.Props.C66_example"
   ],
   "note": ""
  },
  {
   "property": "C67",
   "status": "proved",
   "theorems": [
    "Verif.Props.C67_elevation",
    "Verif.Props.C67_errors",
    "Verif.Props.C67_example"
   ],
   "note": ""
  },
  {
   "property": "C68",
   "status": "proved",
   "theorems": [
    "Verif.Props.C68_kepler",
    "Verif.Props.C68_converges",
    "Verif.Props.C68_position",
    "Verif.Props.C68_systems",
    "Verif.Props.C68_example"
   ],
   "note": ""
  },
  {
   "property": "C69",
   "status": "proved",
   "theorems": [
    "Verif.Props.C69_motion",
    "Verif.Props.C69_step",
    "Verif.Props.C69_order",
    "Verif.Props.C69_motion_exists",
    "Verif.Props.C69_centre",
    "Verif.Props.C69_geo",
    "Verif.Props.C69_systems",
    "Verif.Props.C69_others",
    "Verif.Props.C69_example"
   ],
   "note": ""
  },
  {
   "property": "C70",
   "status": "proved",
   "theorems": [
    "Verif.Props.C70_columns",
    "Verif.Props.MainEx.C71_example"
   ],
   "note": ""
  },
  {
   "property": "C71",
   "status": "proved",
   "theorems": [
    "Verif.Props.C71_exact",
    "Verif.Props.C71_files",
    "Verif.Props.MainEx.C71_example",
    "Verif.Props.MainEx.C71_hypotheses"
   ],
   "note": ""
  },
  {
   "property": "C72",
   "status": "proved",
   "theorems": [
    "Verif.Props.C72_files",
    "Verif.Props.C72_order",
    "Verif.Props.ProgEx.C72_navigation_order",
    "Verif.Props.C72_directories",
    "Verif.Props.ProgEx.C72_directories_hypotheses",
    "Verif.Props.ProgEx.C72_directories_example"
   ],
   "note": ""
  },
  {
   "property": "C73",
   "status": "proved",
   "theorems": [
    "Verif.Props.C73_open2",
    "Verif.Props.C73_open3",
    "Verif.Props.C73_coordinates",
    "Verif.Props.C73_rinex2",
    "Verif.Props.C73_rinex3",
    "Verif.Props.ProgEx.C73_hypotheses",
    "Verif.Props.ProgEx.C73_coord_hypotheses",
    "Verif.Props.ProgEx.C73_hypotheses3",
    "Verif.Props.ProgEx.C73_example3"
   ],
   "note": ""
  },
  {
   "property": "C74",
   "status": "proved",
   "theorems": [
    "Verif.Props.C74_none",
    "Verif.Props.C74_listing",
    "Verif.Props.C74_all",
    "Verif.Props.C74_example"
   ],
   "note": ""
  },
  {
   "property": "C75",
   "status": "proved",
   "theorems": [
    "Verif.Props.C75_message",
    "Verif.Props.C75_written",
    "Verif.Props.C75_available",
    "Verif.Props.C75_none",
    "Verif.Props.C75_named",
    "Verif.Props.C75_source",
    "Verif.Props.ProgEx.C75_hypotheses"
   ],
   "note": ""
  },
  {
   "property": "C76",
   "status": "proved",
   "theorems": [
    "Verif.Props.C76_files",
    "Verif.Props.C76_example",
    "Verif.Props.C76_hypotheses"
   ],
   "note": ""
  },
  {
   "property": "C77",
   "status": "proved",
   "theorems": [
    "Verif.Props.C77_rinex2",
    "Verif.Props.C77_rinex3",
    "Verif.Props.C77_elsewhere",
    "Verif.Props.C77_parameters",
    "Verif.Props.ProgEx.C77_example",
    "Verif.Props.ProgEx.C77_hypotheses"
   ],
   "note": ""
  },
  {
   "property": "C78",
   "status": "proved",
   "theorems": [
    "Verif.Props.C78_lines",
    "Verif.Props.C78_forms",
    "Verif.Props.C78_tools",
    "Verif.Props.C78_navigation",
    "Verif.Props.C78_coordinates",
    "Verif.Props.C78_navigation_encoding",
    "Verif.Props.C78_example"
   ],
   "note": ""
  },
  {
   "property": "C79",
   "status": "proved",
   "theorems": [
    "Verif.Props.C79_coordinates",
    "Verif.Props.ProgEx.C79_example"
   ],
   "note": ""
  },
  {
   "property": "C80",
   "status": "proved",
   "theorems": [
    "Verif.Props.C80_message",
    "Verif.Props.C80_exception",
    "Verif.Props.C80_program",
    "Verif.Props.ProgEx.C80_example",
    "Verif.Props.ProgEx.C80_example_item"
   ],
   "note": ""
  },
  {
   "property": "C81",
   "status": "proved",
   "theorems": [
    "Verif.Props.C81_directory",
    "Verif.Props.C81_stops",
    "Verif.Props.ProgEx.C81_example",
    "Verif.Props.ProgEx.C81_example_bare",
    "Verif.Props.ProgEx.C81_hypotheses"
   ],
   "note": ""
  },
  {
   "property": "C82",
   "status": "proved",
   "theorems": [
    "Verif.Props.C82_seconds",
    "Verif.Props.C82_observed",
    "Verif.Props.C82_slot",
    "Verif.Props.C82_slot_grid",
    "Verif.Props.C82_slot_whole",
    "Verif.Props.C82_example"
   ],
   "note": ""
  },
  {
   "property": "C83",
   "status": "proved",
   "theorems": [
    "Verif.Props.C83_code",
    "Verif.Props.C83_phase",
    "Verif.Props.C83_single",
    "Verif.Props.C83_frequencies",
    "Verif.Props.C83_code_tecu",
    "Verif.Props.C83_phase_tecu",
    "Verif.Props.C83_single_tecu",
    "Verif.Props.C83_example"
   ],
   "note": ""
  },
  {
   "property": "C84",
   "status": "proved",
   "theorems": [
    "Verif.Props.C84_overlay",
    "Verif.Props.C84_rerun",
    "Verif.Props.C84_interrupted",
    "Verif.Props.ProgEx.C84_example"
   ],
   "note": ""
  },
  {
   "property": "C85",
   "status": "proved",
   "theorems": [
    "Verif.Props.C85_words",
    "Verif.Props.C85_readback",
    "Verif.Props.C85_observed",
    "Verif.Props.C85_hour",
    "Verif.Props.C85_file",
    "Verif.Props.ProgEx.C85_example"
   ],
   "note": ""
  },
  {
   "property": "C86",
   "status": "proved",
   "theorems": [
    "Verif.Props.C86_records",
    "Verif.Props.C86_lines",
    "Verif.Props.C86_rinex2",
    "Verif.Props.C86_rinex3",
    "Verif.Props.ProgEx.C86_example"
   ],
   "note": ""
  },
  {
   "property": "C87",
   "status": "proved",
   "theorems": [
    "Verif.Props.C87_records",
    "Verif.Props.C87_files",
    "Verif.Props.ProgEx.C87_example"
   ],
   "note": ""
  },
  {
   "property": "C88",
   "status": "proved",
   "theorems": [
    "Verif.Props.C88_open",
    "Verif.Props.C88_records",
    "Verif.Props.C88_output",
    "Verif.Props.C88_positions",
    "Verif.Props.C88_late",
    "Verif.Props.ProgEx.C88_hypotheses",
    "Verif.Props.ProgEx.C88_example"
   ],
   "note": ""
  },
  {
   "property": "C89",
   "status": "proved",
   "theorems": [
    "Verif.Props.C89_week",
    "Verif.Props.C89_error",
    "Verif.Props.C89_example"
   ],
   "note": ""
  },
  {
   "property": "C90",
   "status": "proved",
   "theorems": [
    "Verif.Props.C90_files",
    "Verif.Props.C90_records",
    "Verif.Props.ProgEx.C90_example"
   ],
   "note": ""
  },
  {
   "property": "C91",
   "status": "proved",
   "theorems": [
    "Verif.Props.C91_open",
    "Verif.Props.C91_records",
    "Verif.Props.C91_output",
    "Verif.Props.C91_positions",
    "Verif.Props.C91_once",
    "Verif.Props.ProgEx.C91_hypotheses",
    "Verif.Props.ProgEx.C91_example"
   ],
   "note": ""
  },
  {
   "property": "C92",
   "status": "proved",
   "theorems": [
    "Verif.Props.C92_any",
    "Verif.Props.C92_open2",
    "Verif.Props.C92_open3",
    "Verif.Props.C92_output",
    "Verif.Props.C53_grows",
    "Verif.Props.C36_disjoint",
    "Verif.Props.ProgEx.C92_example",
    "Verif.Props.ProgEx.C92_hypotheses",
    "Verif.Props.ProgEx.C92_hypotheses3"
   ],
   "note": ""
  },
  {
   "property": "C93",
   "status": "proved",
   "theorems": [
    "Verif.Props.C93_open",
    "Verif.Props.C93_closed",
    "Verif.Props.C93_file",
    "Verif.Props.C93_run",
    "Verif.Props.C93_run_example"
   ],
   "note": ""
  },
  {
   "property": "C94",
   "status": "proved",
   "theorems": [
    "Verif.Props.C94_kepler",
    "Verif.Props.C94_values",
    "Verif.Props.C94_ends",
    "Verif.Props.C94_newton",
    "Verif.Props.C94_example"
   ],
   "note": ""
  },
  {
   "property": "C95",
   "status": "proved",
   "theorems": [
    "Verif.Props.C95_position",
    "Verif.Props.C95_exact",
    "Verif.Props.C95_example"
   ],
   "note": ""
  },
  {
   "property": "C96",
   "status": "proved",
   "theorems": [
    "Verif.Props.C96_geodetic",
    "Verif.Props.C96_degrees",
    "Verif.Props.C96_exact",
    "Verif.Props.C96_example"
   ],
   "note": ""
  },
  {
   "property": "C97",
   "status": "proved",
   "theorems": [
    "Verif.Props.C97_position",
    "Verif.Props.C97_exact",
    "Verif.Props.C97_example"
   ],
   "note": ""
  },
  {
   "property": "C98",
   "status": "proved",
   "theorems": [
    "Verif.Props.C98_look",
    "Verif.Props.C98_exact",
    "Verif.Props.C98_example"
   ],
   "note": ""
  },
  {
   "property": "C99",
   "status": "proved",
   "theorems": [
    "Verif.Props.C99_missed",
    "Verif.Props.C99_rate",
    "Verif.Props.C99_motion_exists",
    "Verif.Props.C69_step",
    "Verif.Props.C99_bound",
    "Verif.Props.C99_within",
    "Verif.Props.C99_far",
    "Verif.Props.C99_double",
    "Verif.Props.C99_example"
   ],
   "note": "finite-time bounds assume a motion that stays within the stated bounds for 15 minutes"
  }
 ]
}