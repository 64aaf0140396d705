#!/usr/bin/env python3
"""Writes /verif/MANIFEST.json."""
import json, os
P = "Verif.Props."
C = []
def c(pid, names, status="proved", note=""):
    C.append({"property": pid, "status": status,
              "theorems": [P + n for n in names.split()], "note": note})

c("C01", "C01_short C01_accepted_iff C01_accepted C01_rejected")
c("C03", "C03_split C03_seven_decimals C03_microseconds_exact C03_carry_witness C03_carry_rejected")
c("C04", "C04_field C04_trailing_blanks C04_missing C04_text")
c("C05", "C05_prn C05_bad")
c("C06", "C06_layout C06_counts")
c("C07", "C07_types C07_count")
c("C08", "C08_epoch")
c("C09", "C09_body C09_file")
c("C10", "C10_repeated C11_events")
c("C11", "C11_events C11_header_events")
c("C12", "C12_positions C88_positions C88_late C12_open_starts_at_the_end C12_witness_position C12_witness_lost_epoch")
c("C13", "C13_prefix C13_before_fault C13_faulty_block C13_only_rinex C13_witness C13_fault_in_epoch C102_epoch_lines")
c("C14", "C14_interval C14_too_short")
c("C15", "C14_interval C15_zero C15_milliseconds C15_witness_zero")
c("C16", "C16_after_header C16_misplaced C16_witness")
c("C23", "C23_header C23_first_line")

c("C17","C17_types C17_rejected")
c("C18","C18_epoch C18_unreadable C18_bad C18_example")
c("C19","C19_written C19_columns C19_unknown C19_example")
c("C20","C20_body C20_file")
c("C21","C21_positions C21_first C21_later_ignored C21_redefinition C21_witness")
c("C22","C22_interval C22_diverges_iff C22_no_epoch C22_header_only C22_example")
c("C02","C02_years C02_same_day")
c("C24","C24_obs C24_obs_rejected C24_nav C24_nav_written")
c("C37","C37_date C37_same_year C37_day_366 C37_bad_day C37_other_name")
c("C38","C38_recognised C38_treatment C38_witness_directory", note="the treatment is proved for directories without a RINEX mark in their name; C38_witness_directory shows it fails otherwise")
c("C39","C39_contents C39_leading_blank C39_inline_comment C39_name C39_any")
c("C29","C29_absent C29_own C29_unsupported")
c("C30","C30_exact")
c("C31","C31_window C31_witness_not_closest")
c("C32","C32_first C31_window")
c("C33","C33_week")
c("C34","C34_systems")
c("C35","C35_choice C35_load C35_failures")
c("C36","C36_names C36_exclusive C36_disjoint")
c("C25","C25_written C25_any C25_error C25_example")
c("C26","C26_table C26_other_days C26_example")
c("C27","C27_assembled C27_truncated C27_dropped C27_stray C27_end C27_example")
c("C28","C28_accepted C28_witness C28_second")
c("C40","C40_disjoint C40_members C40_lookup C40_unknown C40_example")
c("C41","C41_families C41_choice C41_order C41_example")
c("C42","C42_bits C42_unknown C42_zero C42_sets C42_example")
c("C43","C43_recovers C43_common C43_swap C43_example")
c("C44","C44_recovers C44_arc C43_example")
c("C45","C45_recovers C45_example")
c("C46","C46_code C46_phase C46_single C46_frequencies C46_distinct C46_glonass C46_columns C46_example")
c("C47","C47_records C47_computed C47_l8c8 C47_witness")
c("C48","C48_settings C48_unreadable C48_bad_shapes C48_values C48_values_example C48_lists C48_lists_example")
c("C49","C49_rejected C49_type_error C49_example")
c("C50","C50_record C50_all C50_unknown C50_example")
c("C51","C51_width C51_reads C51_site C51_site_widths C51_example")
c("C52","C52_path C52_distinct C56_example")
c("C53","C53_contents C53_columns C53_elsewhere C53_abort C53_grows C56_example")
c("C54","C54_slot C54_unique C54_monotone C54_exact C54_zero C54_example")
c("C55","C55_record C55_line C55_misfit C55_example C55_misfit_example")
c("C56","C56_overwritten C56_example")
c("C57","C57_records C57_admissible load_by_date MainEx.C57_example")
c("C58","C58_decimation C58_unique C58_spaced MainEx.C58_example MainEx.C71_hypotheses")
c("C59","C59_independent C59_records MainEx.C59_counterexample MainEx.C71_hypotheses")
c("C60","C60_position C60_direction MainEx.C57_example")
c("C61","C61_first_lost MainEx.C61_example MainEx.C61_hypotheses")
c("C62","C62_left_out C62_read_error C62_abort MainEx.C62_example")
c("C63","C63_causes C63_no_abort MainEx.C63_example")
c("C70","C70_columns MainEx.C71_example")
c("C71","C71_exact C71_files MainEx.C71_example MainEx.C71_hypotheses")
c("C64","C64_roundtrip C64_geodetic C64_exists C65_example")
c("C65","C65_terminates C65_unique C65_example")
c("C66","C66_degrees C67_elevation C66_axis C66_total C66_example")
c("C67","C67_elevation C67_errors C67_example")
c("C68","C68_kepler C68_converges C68_position C68_systems C68_example")
c("C69","C69_motion C69_step C69_order C69_motion_exists C69_centre C69_geo C69_systems C69_others C69_example")
c("C72","C72_files C72_order ProgEx.C72_navigation_order C72_directories ProgEx.C72_directories_hypotheses ProgEx.C72_directories_example")
c("C73","C73_open2 C73_open3 C73_coordinates C73_rinex2 C73_rinex3 ProgEx.C73_hypotheses ProgEx.C73_coord_hypotheses ProgEx.C73_hypotheses3 ProgEx.C73_example3")
c("C74","C74_none C74_listing C74_all C74_example")
c("C75","C75_message C75_written C75_available C75_none C75_named C75_source ProgEx.C75_hypotheses")
c("C76","C76_files C76_example C76_hypotheses")
c("C77","C77_rinex2 C77_rinex3 C77_elsewhere C77_parameters ProgEx.C77_example ProgEx.C77_hypotheses")
c("C78","C78_lines C78_forms C78_tools C78_navigation C78_coordinates C78_navigation_encoding C78_example")
c("C79","C79_coordinates ProgEx.C79_example")
c("C80","C80_message C80_exception C80_program ProgEx.C80_example ProgEx.C80_example_item")
c("C81","C81_directory C81_stops ProgEx.C81_example ProgEx.C81_example_bare ProgEx.C81_hypotheses")
c("C82","C82_seconds C82_observed C82_slot C82_slot_grid C82_slot_whole C82_example")
c("C83","C83_code C83_phase C83_single C83_frequencies C83_code_tecu C83_phase_tecu C83_single_tecu C83_example")
c("C84","C84_overlay C84_rerun C84_interrupted ProgEx.C84_example")
c("C85","C85_words C85_readback C85_observed C85_hour C85_file ProgEx.C85_example")
c("C86","C86_records C86_lines C86_rinex2 C86_rinex3 ProgEx.C86_example")
c("C87","C87_records C87_files ProgEx.C87_example")
c("C88","C88_open C88_records C88_output C88_positions C88_late ProgEx.C88_hypotheses ProgEx.C88_example")
c("C89","C89_week C89_error C89_example")
c("C90","C90_files C90_records ProgEx.C90_example")
c("C91","C91_open C91_records C91_output C91_positions C91_once ProgEx.C91_hypotheses ProgEx.C91_example")
c("C92","C92_any C92_open2 C92_open3 C92_output C53_grows C36_disjoint ProgEx.C92_example ProgEx.C92_hypotheses ProgEx.C92_hypotheses3")
c("C93","C93_open C93_closed C93_file C93_run C93_run_example")
c("C94","C94_kepler C94_values C94_ends C94_newton C94_example")
c("C95","C95_position C95_exact C95_example")
c("C96","C96_geodetic C96_degrees C96_exact C96_example")
c("C97","C97_position C97_exact C97_example")
c("C98","C98_look C98_exact C98_example")
c("C99","C99_missed C99_rate C99_motion_exists C69_step C99_bound C99_within C99_far C99_double C99_example", note='finite-time bounds assume a motion that stays within the stated bounds for 15 minutes')
c("C100","C100_open C100_too_few C100_records C100_output C100_lost C100_ordered ProgEx.C100_hypotheses ProgEx.C100_ordered_hypotheses ProgEx.C100_too_few_hypotheses ProgEx.C100_example")
c("C101","C101_line C101_file C101_arc C101_tecu C101_double_codes C101_double_phases C101_double_single C101_example")
c("C102","C102_epoch_lines C102_event_lines C102_cut C102_witness C102_epoch_lines3 C102_cut3 C102_witness3")
c("C103","C103_ends C103_hangs C103_hypotheses C103_hypotheses3 C103_hangs_example")
c("C104","C104_geometry C104_elevation C104_kept C104_exact C104_example")
c("C105","C105_line C105_file C105_hypotheses C105_example")
c("C106","C106_rinex2 C106_any_order C106_rinex3 C106_functions C106_hypotheses")
c("C107","C107_ends C107_numerics C107_run C107_rinex2 C107_any_order C107_rinex3 C107_moved3 C107_functions C107_hypotheses")
c("C108","C108_archive C108_run C108_hypotheses")
c("C109","C109_stops C109_program C109_hyperbola C109_no_position C109_perigee C109_binary64 C109_example")
c("C110","C110_system C110_satellite C110_file C110_example C110_decimation")
c("C111","C111_cut C111_gps C111_satellite C111_witness C111_gps_example ProgEx.C111_satellite_example")
c("C112","C112_run C112_order ProgEx.C112_hypotheses ProgEx.C112_example")
c("C113","C113_run C113_open2 C113_open3 ProgEx.C113_hypotheses ProgEx.C113_example ProgEx.C113_hypotheses3")
c("C114","C114_run C114_layout ProgEx.C114_hypotheses ProgEx.C114_example")
c("C115","C115_run C115_read ProgEx.C115_hypotheses ProgEx.C115_example")
c("C116","C116_run C116_open2 C116_open3 MainEx.C116_witness ProgEx.C116_hypotheses ProgEx.C116_hypotheses3 ProgEx.C116_example")
c("C117","C117_run ProgEx.C117_hypotheses ProgEx.C117_hypotheses3 ProgEx.C117_example")
c("C118","C118_run C118_open2 C118_open3 ProgEx.C118_hypotheses MainEx.C118_witness ProgEx.C118_hypotheses3")
c("C119","C119_run C119_open2 C119_open3 ProgEx.C119_hypotheses ProgEx.C119_example ProgEx.C119_hypotheses3")
c("C120","C120_run C120_open2 C120_open3 ProgEx.C120_hypotheses ProgEx.C120_example ProgEx.C120_hypotheses3")
c("C121","C121_run C121_open2 C121_open3 ProgEx.C121_hypotheses ProgEx.C121_example ProgEx.C121_hypotheses3 ProgEx.alike3_example")
# --- end of claims ---
ids = [x["property"] for x in C]
assert len(ids) == len(set(ids)), "duplicate"
C.sort(key=lambda x: x["property"])
out = os.path.join(os.path.dirname(os.path.dirname(os.path.abspath(__file__))), "MANIFEST.json")
json.dump({"claims": C}, open(out, "w"), indent=1)
print(len(C), "claims")
