# Axioms of each theorem

Output of `#print axioms` for every theorem named in `MANIFEST.json`, grouped by the set of axioms. No other axioms are used.

## propext, Classical.choice, Quot.sound

* `Verif.C01_unit_round_trip`
* `Verif.C01_limit`
* `Verif.C02_point`
* `Verif.C02_vec3`
* `Verif.C02_int64_point`
* `Verif.C02_int64_vec3`
* `Verif.C02_int64_limit`
* `Verif.C04_degenerate`
* `Verif.C04_tight`
* `Verif.C04_nonneg`
* `Verif.C05_subsequence`
* `Verif.C05_ends`
* `Verif.C05_left_nonempty`
* `Verif.C05_int64_subsequence`
* `Verif.C05_int64_ends`
* `Verif.C05_int64_left_nonempty`
* `Verif.C06_error_bound`
* `Verif.C06_int64`
* `Verif.C07_result`
* `Verif.C08_subsequence`
* `Verif.C08_int64`
* `Verif.C09_criteria`
* `Verif.C09_long_segment_kept`
* `Verif.C09_int64`
* `Verif.C10_path`
* `Verif.C10_paths`
* `Verif.C10_layer`
* `Verif.C11_round_trip`
* `Verif.C11_path_round_trip`
* `Verif.C11_zero`
* `Verif.C11_zero_paths`
* `Verif.C12_round_trip`
* `Verif.C12_all`
* `Verif.C12_accepts`
* `Verif.C13_accepts`
* `Verif.C13_error`
* `Verif.C13_round_trip`
* `Verif.C14_table`
* `Verif.C14_accepts_only`
* `Verif.C15_round_trip`
* `Verif.C18_refines`
* `Verif.C18_position`
* `Verif.C18_moves`
* `Verif.C19_feed`
* `Verif.C20_total`
* `Verif.C21_count`
* `Verif.C21_no_useless`
* `Verif.C22_accuracy`
* `Verif.C22_machine`
* `Verif.C23_empty`
* `Verif.C23_draw`
* `Verif.C23_lines`
* `Verif.C23_total`
* `Verif.C24_no_crossing`
* `Verif.C24_crossing`
* `Verif.C24_balanced`
* `Verif.C25_monotone`
* `Verif.C25_only_retractions`
* `Verif.flowOf_nonneg`
* `Verif.C26_heights`
* `Verif.C26_skirt`
* `Verif.C26_violation`
* `Verif.C27_verbatim`
* `Verif.C27_changed`
* `Verif.C27_violation`
* `Verif.C27_index`
* `Verif.C27_unclosed`
* `Verif.C27_star`
* `Verif.C28_volume`
* `Verif.C28_zero`
* `Verif.near_flow`
* `Verif.C28_default`
* `Verif.C29_events`
* `Verif.C29_order`
* `Verif.C29_log_faithful`
* `Verif.C30_first_error`
* `Verif.C30_success`
* `Verif.C30_repeatable`
* `Verif.C30_scripts`
* `Verif.C31_sections`
* `Verif.C31_temperatures`
* `Verif.commands_generated`
* `Verif.C32_hotend_off`
* `Verif.C32_bed_off`
* `Verif.C32_comment_leaves_hot`
* `Verif.C33_fan`
* `Verif.C34_no_heated_bed`
* `Verif.C35_replaced`
* `Verif.C35_none_left`
* `Verif.C35_no_new_placeholder`
* `Verif.C36_order`
* `Verif.C36_each_once`
* `Verif.C37_layers`
* `Verif.C38_outlines`
* `Verif.C38_holes`
* `Verif.C38_parent`
* `Verif.C39_count`
* `Verif.C39_distance`
* `Verif.C39_layer`
* `Verif.C39_perimeters`
* `Verif.C42_skirt`
* `Verif.C42_brim`
* `Verif.C43_lines`
* `Verif.C43_fuel`
* `Verif.sortInfill_order`
* `Verif.C44_each_once`
* `Verif.C44_no_zigzag`
* `Verif.C45_nearest`
* `Verif.C45_head_not_used`
* `Verif.C47_faces`
* `Verif.C48_faces`
* `Verif.C49_points`
* `Verif.C49_grid`
* `Verif.C49_separate`
* `Verif.C50_touching`
* `Verif.C50_mutual`
* `Verif.C51_place`
* `Verif.C52_segment`
* `Verif.C53_segments`
* `Verif.C52_int64`
* `Verif.C53_layers`
* `Verif.C54_neighbours`
* `Verif.C56_cycles`
* `Verif.C55_succeeds`
* `Verif.C55_model`
* `Verif.C55_outside`
* `Verif.C55_panics`
* `Verif.C56_outlines`
* `Verif.C56_surface`
* `Verif.C56_tip`
* `Verif.C57_partition`
* `Verif.C58_delivered`
* `Verif.C58_join`
* `Verif.C58_best`
* `Verif.C58_clear`
* `Verif.C60_gap`
* `Verif.C60_succeeds`
* `Verif.C60_witness`
* `Verif.C61_perimeter`
* `Verif.C61_infill`
* `Verif.C61_brim`
* `Verif.C61_detector`
* `Verif.C61_generator`
* `Verif.C61_parts`
* `Verif.C62_infill`
* `Verif.C62_cover`
* `Verif.C63_bottom`
* `Verif.C63_top`
* `Verif.C63_infill`
* `Verif.C64_stops`
* `Verif.C65_clear`
* `Verif.C65_outside`
* `Verif.C65_violated`
* `Verif.C66_disabled`
* `Verif.C67_areas`
* `Verif.C67_zero`
* `Verif.C69_succeeds`
* `Verif.C69_panics`
* `Verif.C70_order`
* `Verif.C70_write`
* `Verif.C70_log_faithful`
* `Verif.C71_written`
* `Verif.C71_frame`
* `Verif.C72_missing`
* `Verif.C72_no_triangles`
* `Verif.C72_parse_error`
* `Verif.C73_point_size`
* `Verif.C73_vec3_size`
* `Verif.C73_limit`
* `Verif.C74_small`
* `Verif.C99_sharp`
* `Verif.C75_false_positives`
* `Verif.C79_builder_no_panic`
* `Verif.C79_succeeds`
* `Verif.C76_infill_speed`
* `Verif.C77_text`
* `Verif.C80_distance`
* `Verif.C80_not_denser`
* `Verif.C80_density`
* `Verif.C80_wide`
* `Verif.C80_negative`
* `Verif.C80_zero_width`
* `Verif.C81_fill`
* `Verif.C81_rotation`
* `Verif.C82_gap`
* `Verif.C82_threshold`
* `Verif.C83_covered`
* `Verif.C83_cancel`
* `Verif.C83_violated`
* `Verif.C84_regions`
* `Verif.C84_difference`
* `Verif.C84_union`
* `Verif.C84_intersection`
* `Verif.C86_detected`
* `Verif.C86_negative`
* `Verif.C87_succeeds`
* `Verif.C88_direction`
* `Verif.C89_accuracy`
* `Verif.C89_order`
* `Verif.C89_exact`
* `Verif.C89_mesh`
* `Verif.C90_succeeds`
* `Verif.C90_gcode`
* `Verif.C91_sliced`
* `Verif.C91_melded_top`
* `Verif.C91_low_center`
* `Verif.C92_refused`
* `Verif.C92_version`
* `Verif.C92_no_path`
* `Verif.C92_success`
* `Verif.C92_status`
* `Verif.C92_failure`
* `Verif.C93_options`
* `Verif.C93_defaults`
* `Verif.C93_refuses`
* `Verif.C93_accepts`
* `Verif.C93_order`
* `Verif.C94_accepts`
* `Verif.C94_round_trip`
* `Verif.C94_near`
* `Verif.C95_default`
* `Verif.C95_temperatures`
* `Verif.C96_test`
* `Verif.C96_retracts`
* `Verif.C96_inside`
* `Verif.C97_top_level`
* `Verif.C98_patterns`
* `Verif.C99_collapse`
* `Verif.C99_rectangle`
* `Verif.C99_written`
* `Verif.C100_drift`
* `Verif.C100_stall`
* `Verif.C100_text`
* `Verif.C100_default_line`
* `Verif.C101_distance`
* `Verif.C101_border`
* `Verif.C102_program`
* `Verif.C102_text`
* `Verif.C103_outlines`
* `Verif.C103_layer`
* `Verif.C103_parts`
* `Verif.C104_simplify`
* `Verif.C104_int64`
* `Verif.C105_covered`
* `Verif.C105_support`
* `Verif.C106_columns`
* `Verif.C106_printed`
* `Verif.C106_overhang`
* `Verif.C106_second`
* `Verif.C106_top`
* `Verif.C107_outer`
* `Verif.C107_first`
* `Verif.C107_clear`
* `Verif.C107_overlap`
* `Verif.C107_split`
* `Verif.C108_optimized`
* `Verif.C108_program`
* `Verif.C108_melding`
* `Verif.C108_rounding`
* `Verif.C109_same`
* `Verif.C109_program`
* `Verif.C109_again`
* `Verif.C109_stray`
* `Verif.C110_files`
* `Verif.C110_export`
* `Verif.C110_gcode`
* `Verif.C111_drawn`
* `Verif.C111_printed`
* `Verif.C111_filled`
* `Verif.C112_only`
* `Verif.C113_simplified`
* `Verif.C113_spike`
* `Verif.C113_inset`
* `Verif.C113_program`
* `Verif.C114_turned`
* `Verif.C114_fill`
* `Verif.C114_walls`
* `Verif.C114_areas`
* `Verif.C114_program`
* `Verif.C115_areas`
* `Verif.C115_program`
* `Verif.C116_speeds`
* `Verif.C117_state`
* `Verif.C117_heated`
* `Verif.C118_fill`
* `Verif.C118_program`
* `Verif.C119_simplify`
* `Verif.C119_int64`
* `Verif.C119_region`
* `Verif.C120_parts`
* `Verif.C120_program`
* `Verif.C121_areas`
* `Verif.C121_program`
* `Verif.C122_layer`
* `Verif.C122_program`
* `Verif.C123_areas`
* `Verif.C123_program`
* `Verif.C124_filament`
* `Verif.C124_program`
* `Verif.C125_layer`
* `Verif.C125_program`
* `Verif.C126_optimize`
* `Verif.C126_segments`
* `Verif.C126_slice`
* `Verif.C126_layers`
* `Verif.C126_limit`
* `Verif.C127_modifiers`
* `Verif.C127_fill`
* `Verif.C127_patterns`
* `Verif.C127_gcode`
* `Verif.C127_program`
* `Verif.C127_limit`
* `Verif.C128_orderly`
* `Verif.C128_program`
* `Verif.C129_climb`
* `Verif.C129_program`
* `Verif.C130_program`
* `Verif.C130_through`
* `Verif.C131_optimized`
* `Verif.C131_program`
* `Verif.C132_program`
* `Verif.C133_manner`
* `Verif.C134_independent`
* `Verif.C134_walls`
* `Verif.C135_grammar`
* `Verif.C135_labels`
* `Verif.C135_gcode`
* `Verif.C136_moved`
* `Verif.C136_turned`
* `Verif.C136_polygons`
* `Verif.C136_printed`
* `Verif.C137_program`
* `Verif.C137_square`
* `Verif.cutsWell_sliced`
* `Verif.square_good`
* `Verif.C138_command`
* `Verif.C138_support`
* `Verif.C138_default`
* `Verif.C139_outlines`
* `Verif.C139_repaired`
* `Verif.C139_lost`
* `Verif.C140_program`
* `Verif.C140_support`
* `Verif.slicedAs_missing`
* `Verif.C141_same`
* `Verif.C141_unread`
* `Verif.C141_unoptimized`
* `Verif.C141_unsliced`
* `Verif.C141_unmodified`
* `Verif.C141_unprepared`
* `Verif.C141_unrendered`
* `Verif.C141_rendered`
* `Verif.C141_zero`
* `Verif.C141_closed`
* `Verif.C141_hole`
* `Verif.C141_main`
* `Verif.C141_unprocessed`
* `Verif.C141_printed`
* `Verif.C141_success`
* `Verif.C142_words`
* `Verif.C142_stop`
* `Verif.C142_complete`
* `Verif.C142_refused`
* `Verif.C142_spelling`
* `Verif.C142_switch`
* `Verif.C142_swallows`
* `Verif.C142_unfinished`
* `Verif.C142_unknown`
* `Verif.C142_path`
* `Verif.C143_depends`
* `Verif.C143_again`
* `Verif.C143_default`
* `Verif.C143_overwritten`
* `Verif.C143_independent`
* `Verif.C144_same`
* `Verif.C144_command`
* `Verif.C145_needed`
* `Verif.C146_outlines`
* `Verif.C146_repaired`
* `Verif.C146_lost`
* `Verif.C147_program`
* `Verif.C147_support`
* `Verif.slicedAs_patches`
* `Verif.patches_holes`
* `Verif.patches_inside`
* `Verif.C148_outlines`
* `Verif.torn_outlines`
* `Verif.torn_polygons`
* `Verif.C149_program`
* `Verif.C149_support`
* `Verif.slicedAs_torn`
* `Verif.C150_command`
* `Verif.C151_accepts`
* `Verif.C151_failed`
* `Verif.C151_finite`
* `Verif.C151_round_trip`
* `Verif.C151_limit`
* `Verif.C152_program`
* `Verif.C152_support`
* `Verif.C153_max`
* `Verif.C153_div`
* `Verif.C153_mul_div`
* `Verif.C154_start`
* `Verif.C154_end`
* `Verif.C154_print`
* `Verif.C154_default_start`
* `Verif.C154_default_end`

## propext

* `Verif.C02_vec3_negative_limit`
* `Verif.C03_result`
* `Verif.C03_frame`
* `Verif.C03_values`
* `Verif.C05_short`
* `Verif.C05_int64_short`
* `Verif.C07_argument_overwritten`
* `Verif.C09_int64_stays`
* `Verif.C12_failed`
* `Verif.C14_error`
* `Verif.C15_empty`
* `Verif.C40_forEach`
* `Verif.C52_int64_limit`
* `Verif.C59_nothing`
* `Verif.C68_parts`
* `Verif.C68_overlap`
* `Verif.C68_perimeters`
* `Verif.C68_brim`
* `Verif.C68_outerBrim`
* `Verif.C68_fullSupport`
* `Verif.C153_back`

## propext, Quot.sound

* `Verif.C03_sequence`
* `Verif.C08_short`
* `Verif.C08_int64_short`
* `Verif.C10_paths_eq`
* `Verif.C10_paths_empty`
* `Verif.C10_limits`
* `Verif.C16_fails`
* `Verif.C16_fail_unchanged`
* `Verif.C16_lines`
* `Verif.C16_rows`
* `Verif.C16_round_trip`
* `Verif.C16_one_line`
* `Verif.C17_blank`
* `Verif.C17_panics_iff`
* `Verif.C17_no_error`
* `Verif.C17_after_set`
* `Verif.C19_selection`
* `Verif.C23_no_retract`
* `Verif.C27_width`
* `Verif.C29_each_once`
* `Verif.C29_arguments`
* `Verif.C29_heights`
* `Verif.C40_toOneDimension`
* `Verif.C40_visits`
* `Verif.C41_path`
* `Verif.C41_paths`
* `Verif.C41_contour`
* `Verif.C43_empty`
* `Verif.C43_endless`
* `Verif.C46_inside`
* `Verif.C46_shortened`
* `Verif.C46_kept`
* `Verif.C46_turned`
* `Verif.C61_internal`
* `Verif.C75_contains_iff`
* `Verif.C87_empty`
* `Verif.C87_meld`
* `Verif.C91_no_gap`
* `Verif.C91_several`
* `Verif.C97_filled`
* `Verif.C141_unnoticed`
* `Verif.C145_result`
* `Verif.C145_nil`
* `Verif.C145_same`
* `Verif.C153_two`
* `Verif.C153_back_int64`

## none

* `Verif.C04_no_panic`
* `Verif.C10_path_empty`
* `Verif.C93_names`
* `Verif.C93_complete`
