{
 "claims": [
  {
   "property": "C01",
   "status": "proved",
   "theorems": [
    "Verif.C01_unit_round_trip",
    "Verif.C01_limit"
   ],
   "note": "IEEE rounding to float64 and float32 modelled exactly; C01_limit shows that the round trip fails for 16777217 µm."
  },
  {
   "property": "C02",
   "status": "proved",
   "theorems": [
    "Verif.C02_point",
    "Verif.C02_vec3",
    "Verif.C02_vec3_negative_limit",
    "Verif.C02_int64_point",
    "Verif.C02_int64_vec3",
    "Verif.C02_int64_limit"
   ],
   "note": "Unbounded integers for all inputs; the int64 theorems give the range without overflow and a counterexample outside."
  },
  {
   "property": "C03",
   "status": "proved",
   "theorems": [
    "Verif.C03_result",
    "Verif.C03_frame",
    "Verif.C03_sequence",
    "Verif.C03_values"
   ],
   "note": "Heap model of the pointer based vectors."
  },
  {
   "property": "C04",
   "status": "proved",
   "theorems": [
    "Verif.C04_no_panic",
    "Verif.C04_degenerate",
    "Verif.C04_tight",
    "Verif.C04_nonneg"
   ],
   "note": ""
  },
  {
   "property": "C05",
   "status": "proved",
   "theorems": [
    "Verif.C05_subsequence",
    "Verif.C05_ends",
    "Verif.C05_short",
    "Verif.C05_left_nonempty",
    "Verif.C05_int64_subsequence",
    "Verif.C05_int64_ends",
    "Verif.C05_int64_short",
    "Verif.C05_int64_left_nonempty"
   ],
   "note": "Proved with unbounded integers and with int64 wrap-around."
  },
  {
   "property": "C06",
   "status": "proved",
   "theorems": [
    "Verif.C06_error_bound",
    "Verif.C06_int64"
   ],
   "note": "C06_int64: with int64 arithmetic for paths with a diameter of at most 55.1089 mm; beyond that see C99."
  },
  {
   "property": "C07",
   "status": "proved",
   "theorems": [
    "Verif.C07_result",
    "Verif.C07_argument_overwritten"
   ],
   "note": "Slice memory model with shared backing arrays."
  },
  {
   "property": "C08",
   "status": "proved",
   "theorems": [
    "Verif.C08_subsequence",
    "Verif.C08_short",
    "Verif.C08_int64",
    "Verif.C08_int64_short"
   ],
   "note": "Proved with unbounded integers and with int64 wrap-around."
  },
  {
   "property": "C09",
   "status": "proved",
   "theorems": [
    "Verif.C09_criteria",
    "Verif.C09_long_segment_kept",
    "Verif.C09_int64",
    "Verif.C09_int64_stays"
   ],
   "note": "C09_int64: with int64 arithmetic for coordinates below 67 m."
  },
  {
   "property": "C10",
   "status": "proved",
   "theorems": [
    "Verif.C10_path",
    "Verif.C10_path_empty",
    "Verif.C10_paths_eq",
    "Verif.C10_paths",
    "Verif.C10_paths_empty",
    "Verif.C10_layer",
    "Verif.C10_limits"
   ],
   "note": ""
  },
  {
   "property": "C11",
   "status": "proved",
   "theorems": [
    "Verif.C11_round_trip",
    "Verif.C11_path_round_trip",
    "Verif.C11_zero",
    "Verif.C11_zero_paths"
   ],
   "note": "math.Sin and math.Cos are parameters assumed accurate to 2^-48; coordinates up to 2^39 µm."
  },
  {
   "property": "C12",
   "status": "proved",
   "theorems": [
    "Verif.C12_round_trip",
    "Verif.C12_all",
    "Verif.C12_accepts",
    "Verif.C12_failed"
   ],
   "note": "strconv.ParseInt modelled with base prefixes and underscores; C12_all characterises all accepted texts."
  },
  {
   "property": "C13",
   "status": "proved",
   "theorems": [
    "Verif.C13_accepts",
    "Verif.C13_error",
    "Verif.C13_round_trip"
   ],
   "note": ""
  },
  {
   "property": "C14",
   "status": "proved",
   "theorems": [
    "Verif.C14_table",
    "Verif.C14_accepts_only",
    "Verif.C14_error"
   ],
   "note": ""
  },
  {
   "property": "C15",
   "status": "proved",
   "theorems": [
    "Verif.C15_round_trip",
    "Verif.C15_empty"
   ],
   "note": "C15_empty shows that the non-emptiness hypothesis is needed."
  },
  {
   "property": "C16",
   "status": "proved",
   "theorems": [
    "Verif.C16_fails",
    "Verif.C16_fail_unchanged",
    "Verif.C16_lines",
    "Verif.C16_rows",
    "Verif.C16_round_trip",
    "Verif.C16_one_line"
   ],
   "note": ""
  },
  {
   "property": "C17",
   "status": "proved",
   "theorems": [
    "Verif.C17_blank",
    "Verif.C17_panics_iff",
    "Verif.C17_no_error",
    "Verif.C17_after_set"
   ],
   "note": ""
  },
  {
   "property": "C18",
   "status": "proved",
   "theorems": [
    "Verif.C18_refines",
    "Verif.C18_position",
    "Verif.C18_moves"
   ],
   "note": "For histories whose custom texts contain no percent sign and no G0/G1 line of their own (Harmless); see C27 for percent signs."
  },
  {
   "property": "C19",
   "status": "proved",
   "theorems": [
    "Verif.C19_feed",
    "Verif.C19_selection"
   ],
   "note": ""
  },
  {
   "property": "C20",
   "status": "proved",
   "theorems": [
    "Verif.C20_total"
   ],
   "note": ""
  },
  {
   "property": "C21",
   "status": "proved",
   "theorems": [
    "Verif.C21_count",
    "Verif.C21_no_useless"
   ],
   "note": ""
  },
  {
   "property": "C22",
   "status": "proved",
   "theorems": [
    "Verif.C22_accuracy",
    "Verif.C22_machine"
   ],
   "note": ""
  },
  {
   "property": "C23",
   "status": "proved",
   "theorems": [
    "Verif.C23_empty",
    "Verif.C23_draw",
    "Verif.C23_lines",
    "Verif.C23_no_retract",
    "Verif.C23_total"
   ],
   "note": ""
  },
  {
   "property": "C24",
   "status": "proved",
   "theorems": [
    "Verif.C24_no_crossing",
    "Verif.C24_crossing",
    "Verif.C24_balanced"
   ],
   "note": ""
  },
  {
   "property": "C25",
   "status": "proved",
   "theorems": [
    "Verif.C25_monotone",
    "Verif.C25_only_retractions",
    "Verif.flowOf_nonneg"
   ],
   "note": ""
  },
  {
   "property": "C26",
   "status": "proved",
   "theorems": [
    "Verif.C26_heights",
    "Verif.C26_skirt",
    "Verif.C26_violation"
   ],
   "note": "The code violates the naive claim (first move at Z0); the exact exception is part of the property and of C26_heights, with a concrete witness in C26_violation."
  },
  {
   "property": "C27",
   "status": "proved",
   "theorems": [
    "Verif.C27_verbatim",
    "Verif.C27_changed",
    "Verif.C27_violation",
    "Verif.C27_width",
    "Verif.C27_index",
    "Verif.C27_unclosed",
    "Verif.C27_star"
   ],
   "note": "The code violates the naive claim for percent signs: C27_changed shows that no line with a percent sign is written unchanged, whatever else is in it; C27_violation is a concrete witness."
  },
  {
   "property": "C28",
   "status": "proved",
   "theorems": [
    "Verif.C28_volume",
    "Verif.C28_zero",
    "Verif.near_flow",
    "Verif.C28_default"
   ],
   "note": "Relative error below 3 ppm for filament diameters up to 1 m."
  },
  {
   "property": "C29",
   "status": "proved",
   "theorems": [
    "Verif.C29_events",
    "Verif.C29_order",
    "Verif.C29_log_faithful",
    "Verif.C29_each_once",
    "Verif.C29_arguments",
    "Verif.C29_heights"
   ],
   "note": ""
  },
  {
   "property": "C30",
   "status": "proved",
   "theorems": [
    "Verif.C30_first_error",
    "Verif.C30_success",
    "Verif.C30_repeatable",
    "Verif.C30_scripts"
   ],
   "note": ""
  },
  {
   "property": "C31",
   "status": "proved",
   "theorems": [
    "Verif.C31_sections",
    "Verif.C31_temperatures",
    "Verif.commands_generated"
   ],
   "note": "For custom G-code without percent signs."
  },
  {
   "property": "C32",
   "status": "proved",
   "theorems": [
    "Verif.C32_hotend_off",
    "Verif.C32_bed_off",
    "Verif.C32_comment_leaves_hot"
   ],
   "note": "The intention is violated for comments which look like a code (C32_comment_leaves_hot)."
  },
  {
   "property": "C33",
   "status": "proved",
   "theorems": [
    "Verif.C33_fan"
   ],
   "note": "For custom G-code without percent signs."
  },
  {
   "property": "C34",
   "status": "proved",
   "theorems": [
    "Verif.C34_no_heated_bed"
   ],
   "note": "The theorem states exactly which bed commands appear; the M140 without heated bed contradicts the intention."
  },
  {
   "property": "C35",
   "status": "proved",
   "theorems": [
    "Verif.C35_replaced",
    "Verif.C35_none_left",
    "Verif.C35_no_new_placeholder"
   ],
   "note": ""
  },
  {
   "property": "C36",
   "status": "proved",
   "theorems": [
    "Verif.C36_order",
    "Verif.C36_each_once"
   ],
   "note": ""
  },
  {
   "property": "C37",
   "status": "proved",
   "theorems": [
    "Verif.C37_layers"
   ],
   "note": ""
  },
  {
   "property": "C38",
   "status": "proved",
   "theorems": [
    "Verif.C38_outlines",
    "Verif.C38_holes",
    "Verif.C38_parent"
   ],
   "note": ""
  },
  {
   "property": "C39",
   "status": "proved",
   "theorems": [
    "Verif.C39_count",
    "Verif.C39_distance",
    "Verif.C39_layer",
    "Verif.C39_perimeters"
   ],
   "note": "The library's offset operation itself is external."
  },
  {
   "property": "C40",
   "status": "proved",
   "theorems": [
    "Verif.C40_toOneDimension",
    "Verif.C40_forEach",
    "Verif.C40_visits"
   ],
   "note": ""
  },
  {
   "property": "C41",
   "status": "proved",
   "theorems": [
    "Verif.C41_path",
    "Verif.C41_paths",
    "Verif.C41_contour"
   ],
   "note": ""
  },
  {
   "property": "C42",
   "status": "proved",
   "theorems": [
    "Verif.C42_skirt",
    "Verif.C42_brim"
   ],
   "note": "Distances are those passed to the library; its offset operation is external."
  },
  {
   "property": "C43",
   "status": "proved",
   "theorems": [
    "Verif.C43_lines",
    "Verif.C43_empty",
    "Verif.C43_endless",
    "Verif.C43_fuel"
   ],
   "note": "The overflow of x at 2^63 is in the model of C127."
  },
  {
   "property": "C44",
   "status": "proved",
   "theorems": [
    "Verif.sortInfill_order",
    "Verif.C44_each_once",
    "Verif.C44_no_zigzag"
   ],
   "note": "For lines with two points and a library which does not fail."
  },
  {
   "property": "C45",
   "status": "proved",
   "theorems": [
    "Verif.C45_nearest",
    "Verif.C45_head_not_used"
   ],
   "note": ""
  },
  {
   "property": "C46",
   "status": "proved",
   "theorems": [
    "Verif.C46_inside",
    "Verif.C46_shortened",
    "Verif.C46_kept",
    "Verif.C46_turned"
   ],
   "note": "C46_turned shows the turned lines."
  },
  {
   "property": "C47",
   "status": "proved",
   "theorems": [
    "Verif.C47_faces"
   ],
   "note": ""
  },
  {
   "property": "C48",
   "status": "proved",
   "theorems": [
    "Verif.C48_faces"
   ],
   "note": ""
  },
  {
   "property": "C49",
   "status": "proved",
   "theorems": [
    "Verif.C48_faces",
    "Verif.C49_points",
    "Verif.C49_grid",
    "Verif.C49_separate"
   ],
   "note": "C48_faces: the point used for a vertex is a function of its coordinates. C49_separate shows the limit at cell borders."
  },
  {
   "property": "C50",
   "status": "proved",
   "theorems": [
    "Verif.C50_touching",
    "Verif.C50_mutual"
   ],
   "note": ""
  },
  {
   "property": "C51",
   "status": "proved",
   "theorems": [
    "Verif.C51_place",
    "Verif.C48_faces"
   ],
   "note": "Coordinates are unbounded integers; C126 for int64."
  },
  {
   "property": "C52",
   "status": "proved",
   "theorems": [
    "Verif.C52_segment",
    "Verif.C53_segments",
    "Verif.C52_int64",
    "Verif.C52_int64_limit"
   ],
   "note": "Coordinates are unbounded integers; C126 for int64."
  },
  {
   "property": "C53",
   "status": "proved",
   "theorems": [
    "Verif.C53_segments",
    "Verif.C53_layers"
   ],
   "note": ""
  },
  {
   "property": "C54",
   "status": "proved",
   "theorems": [
    "Verif.C54_neighbours",
    "Verif.C53_segments",
    "Verif.C56_cycles"
   ],
   "note": ""
  },
  {
   "property": "C55",
   "status": "proved",
   "theorems": [
    "Verif.C55_succeeds",
    "Verif.C55_model",
    "Verif.C55_outside",
    "Verif.C55_panics"
   ],
   "note": "C55_outside and C55_panics prove the failures for other placements and values."
  },
  {
   "property": "C56",
   "status": "proved",
   "theorems": [
    "Verif.C56_cycles",
    "Verif.C56_outlines",
    "Verif.C56_surface",
    "Verif.C56_tip"
   ],
   "note": "For layers without tips and with starts more than twice the meld distance apart; C56_tip shows that the polygons are not closed before joining otherwise."
  },
  {
   "property": "C57",
   "status": "proved",
   "theorems": [
    "Verif.C57_partition",
    "Verif.C58_delivered"
   ],
   "note": ""
  },
  {
   "property": "C58",
   "status": "proved",
   "theorems": [
    "Verif.C58_join",
    "Verif.C58_best",
    "Verif.C58_clear",
    "Verif.C58_delivered"
   ],
   "note": ""
  },
  {
   "property": "C59",
   "status": "proved",
   "theorems": [
    "Verif.C59_nothing"
   ],
   "note": "The intention is violated; the theorem proves that the function changes nothing."
  },
  {
   "property": "C60",
   "status": "proved",
   "theorems": [
    "Verif.C60_gap",
    "Verif.C60_succeeds",
    "Verif.C60_witness"
   ],
   "note": "The intention is violated; C60_gap and C60_witness prove the panic."
  },
  {
   "property": "C61",
   "status": "proved",
   "theorems": [
    "Verif.C61_perimeter",
    "Verif.C61_infill",
    "Verif.C61_internal",
    "Verif.C61_brim",
    "Verif.C61_detector",
    "Verif.C61_generator",
    "Verif.C61_parts"
   ],
   "note": ""
  },
  {
   "property": "C62",
   "status": "proved",
   "theorems": [
    "Verif.C62_infill",
    "Verif.C62_cover"
   ],
   "note": "For clipper libraries with exact regions and layers which have perimeters."
  },
  {
   "property": "C63",
   "status": "proved",
   "theorems": [
    "Verif.C63_bottom",
    "Verif.C63_top",
    "Verif.C63_infill"
   ],
   "note": "For clipper libraries with exact regions."
  },
  {
   "property": "C64",
   "status": "proved",
   "theorems": [
    "Verif.C64_stops"
   ],
   "note": "The intention is violated; the theorem proves the violation for every layer list with a layer without parts."
  },
  {
   "property": "C65",
   "status": "proved",
   "theorems": [
    "Verif.C65_clear",
    "Verif.C65_outside",
    "Verif.C65_violated"
   ],
   "note": "C65_violated proves the violation for close parts."
  },
  {
   "property": "C66",
   "status": "proved",
   "theorems": [
    "Verif.C66_disabled"
   ],
   "note": ""
  },
  {
   "property": "C67",
   "status": "proved",
   "theorems": [
    "Verif.C67_areas",
    "Verif.C67_zero"
   ],
   "note": "For clipper libraries with exact regions which do not fail."
  },
  {
   "property": "C68",
   "status": "proved",
   "theorems": [
    "Verif.C68_parts",
    "Verif.C68_overlap",
    "Verif.C68_perimeters",
    "Verif.C68_brim",
    "Verif.C68_outerBrim",
    "Verif.C68_fullSupport"
   ],
   "note": ""
  },
  {
   "property": "C69",
   "status": "proved",
   "theorems": [
    "Verif.C69_succeeds",
    "Verif.C69_panics"
   ],
   "note": "C69_panics proves the panic for InsetCount = 0."
  },
  {
   "property": "C70",
   "status": "proved",
   "theorems": [
    "Verif.C70_order",
    "Verif.C70_write",
    "Verif.C70_log_faithful"
   ],
   "note": "for arbitrary handlers, with a log of the steps"
  },
  {
   "property": "C71",
   "status": "proved",
   "theorems": [
    "Verif.C71_written",
    "Verif.C71_frame"
   ],
   "note": ""
  },
  {
   "property": "C72",
   "status": "proved",
   "theorems": [
    "Verif.C72_missing",
    "Verif.C72_no_triangles",
    "Verif.C72_parse_error"
   ],
   "note": "the last two are violations of the broader expectation"
  },
  {
   "property": "C73",
   "status": "proved",
   "theorems": [
    "Verif.C73_point_size",
    "Verif.C73_vec3_size",
    "Verif.C73_limit"
   ],
   "note": ""
  },
  {
   "property": "C74",
   "status": "proved",
   "theorems": [
    "Verif.C74_small",
    "Verif.C99_sharp"
   ],
   "note": "The limit is sharp, see C99."
  },
  {
   "property": "C75",
   "status": "proved",
   "theorems": [
    "Verif.C75_contains_iff",
    "Verif.C75_false_positives"
   ],
   "note": "C75_false_positives: comments and longer codes suppress the automatic temperature commands."
  },
  {
   "property": "C79",
   "status": "proved",
   "theorems": [
    "Verif.C79_builder_no_panic",
    "Verif.C79_succeeds"
   ],
   "note": ""
  },
  {
   "property": "C76",
   "status": "proved",
   "theorems": [
    "Verif.C76_infill_speed"
   ],
   "note": "Exact statement of the deviation from the documented speed."
  },
  {
   "property": "C77",
   "status": "proved",
   "theorems": [
    "Verif.C77_text",
    "Verif.C37_layers"
   ],
   "note": "The interpreter starts with unset axes at the begin of the body (the start G-code may move the head; the first move of the body sets all axes)."
  },
  {
   "property": "C80",
   "status": "proved",
   "theorems": [
    "Verif.C80_distance",
    "Verif.C80_not_denser",
    "Verif.C80_density",
    "Verif.C80_wide",
    "Verif.C80_negative",
    "Verif.C80_zero_width"
   ],
   "note": ""
  },
  {
   "property": "C81",
   "status": "proved",
   "theorems": [
    "Verif.C81_fill",
    "Verif.C81_rotation"
   ],
   "note": "Assumption about the library in OpenClipping; sine and cosine are arbitrary functions."
  },
  {
   "property": "C82",
   "status": "proved",
   "theorems": [
    "Verif.C82_gap",
    "Verif.C82_threshold"
   ],
   "note": "The theorems prove the deviation (half of the distance)."
  },
  {
   "property": "C83",
   "status": "proved",
   "theorems": [
    "Verif.C83_covered",
    "Verif.C83_cancel",
    "Verif.C83_violated"
   ],
   "note": "C83_violated proves the violation."
  },
  {
   "property": "C84",
   "status": "proved",
   "theorems": [
    "Verif.C84_regions",
    "Verif.C84_difference",
    "Verif.C84_union",
    "Verif.C84_intersection"
   ],
   "note": ""
  },
  {
   "property": "C86",
   "status": "proved",
   "theorems": [
    "Verif.C86_detected",
    "Verif.C86_negative"
   ],
   "note": ""
  },
  {
   "property": "C87",
   "status": "proved",
   "theorems": [
    "Verif.C87_succeeds",
    "Verif.C87_empty",
    "Verif.C87_meld"
   ],
   "note": "C87_empty and C87_meld prove the panics."
  },
  {
   "property": "C88",
   "status": "proved",
   "theorems": [
    "Verif.C88_direction"
   ],
   "note": ""
  },
  {
   "property": "C89",
   "status": "proved",
   "theorems": [
    "Verif.C89_accuracy",
    "Verif.C89_order",
    "Verif.C89_exact",
    "Verif.C89_mesh"
   ],
   "note": "NaN and infinite coordinates are not modelled"
  },
  {
   "property": "C90",
   "status": "proved",
   "theorems": [
    "Verif.C90_succeeds",
    "Verif.C90_gcode"
   ],
   "note": "hypotheses: NeverFails, OpenClipping, Sensible"
  },
  {
   "property": "C91",
   "status": "proved",
   "theorems": [
    "Verif.C91_no_gap",
    "Verif.C91_several",
    "Verif.C91_sliced",
    "Verif.C91_melded_top",
    "Verif.C91_low_center"
   ],
   "note": "the last two are violations without the hypotheses"
  },
  {
   "property": "C92",
   "status": "proved",
   "theorems": [
    "Verif.C92_refused",
    "Verif.C92_version",
    "Verif.C92_no_path",
    "Verif.C92_success",
    "Verif.C92_status",
    "Verif.C92_failure"
   ],
   "note": "how pflag splits the command line is C142"
  },
  {
   "property": "C93",
   "status": "proved",
   "theorems": [
    "Verif.C93_names",
    "Verif.C93_complete",
    "Verif.C93_options",
    "Verif.C93_defaults",
    "Verif.C93_refuses",
    "Verif.C93_accepts",
    "Verif.C93_order"
   ],
   "note": "values infinity and NaN of lengths are not modelled"
  },
  {
   "property": "C94",
   "status": "proved",
   "theorems": [
    "Verif.C94_accepts",
    "Verif.C94_round_trip",
    "Verif.C94_near"
   ],
   "note": "the texts for infinity and NaN, which Go accepts, are refused by the model; Go stops counting in exponents above 9999, the model does not"
  },
  {
   "property": "C95",
   "status": "proved",
   "theorems": [
    "Verif.C95_default",
    "Verif.C95_temperatures"
   ],
   "note": "hypotheses: NeverFails, OpenClipping"
  },
  {
   "property": "C96",
   "status": "proved",
   "theorems": [
    "Verif.C96_test",
    "Verif.C96_retracts",
    "Verif.C96_inside"
   ],
   "note": "hypothesis CutsLines about the library"
  },
  {
   "property": "C97",
   "status": "proved",
   "theorems": [
    "Verif.C97_top_level",
    "Verif.C97_filled"
   ],
   "note": "hypotheses Exact and Nesting about the library"
  },
  {
   "property": "C98",
   "status": "proved",
   "theorems": [
    "Verif.C98_patterns"
   ],
   "note": ""
  },
  {
   "property": "C99",
   "status": "proved",
   "theorems": [
    "Verif.C99_collapse",
    "Verif.C99_rectangle",
    "Verif.C99_written",
    "Verif.C99_sharp"
   ],
   "note": "A defect of the code."
  },
  {
   "property": "C100",
   "status": "proved",
   "theorems": [
    "Verif.C100_drift",
    "Verif.C100_stall",
    "Verif.C100_text",
    "Verif.C100_default_line"
   ],
   "note": "A defect of the code: C100_stall, C100_text."
  },
  {
   "property": "C101",
   "status": "proved",
   "theorems": [
    "Verif.C101_distance",
    "Verif.C101_border"
   ],
   "note": ""
  },
  {
   "property": "C102",
   "status": "proved",
   "theorems": [
    "Verif.C102_program",
    "Verif.C102_text"
   ],
   "note": "Under the hypotheses StaysInside (results of the clipping library do not leave rectangles, offsets reach at most 1.5 times their distance), OpenClipping, TurnsBack (sine and cosine accurate to 2^-48) and Moderate (sizes of options). A print without layers is empty (first alternative)."
  },
  {
   "property": "C103",
   "status": "proved",
   "theorems": [
    "Verif.C103_outlines",
    "Verif.C103_layer",
    "Verif.C103_parts"
   ],
   "note": "The solid is the optimized model (C48 relates it to the model file). C103_parts names what it assumes of Simplify and of the library at the point in question."
  },
  {
   "property": "C104",
   "status": "proved",
   "theorems": [
    "Verif.C104_simplify",
    "Verif.C104_int64"
   ],
   "note": "A pointwise bound does not hold for paths which run back and forth; the area bound does."
  },
  {
   "property": "C105",
   "status": "proved",
   "theorems": [
    "Verif.C105_covered",
    "Verif.C105_support"
   ],
   "note": "C105_support is the violation (a defect): lines of support end one spacing outside of the model, the areas half a spacing later."
  },
  {
   "property": "C106",
   "status": "proved",
   "theorems": [
    "Verif.C106_columns",
    "Verif.C106_printed",
    "Verif.C106_overhang",
    "Verif.C106_second",
    "Verif.C106_top"
   ],
   "note": "C106_top is a violation: with TopGapLayers 0 support is printed inside the model in the second layer from the top."
  },
  {
   "property": "C107",
   "status": "proved",
   "theorems": [
    "Verif.C107_outer",
    "Verif.C107_first",
    "Verif.C107_clear",
    "Verif.C107_overlap",
    "Verif.C107_split"
   ],
   "note": "C107_overlap and C107_split are violations: support on overlapping brims, no brim around the second piece of a split part."
  },
  {
   "property": "C108",
   "status": "proved",
   "theorems": [
    "Verif.C108_optimized",
    "Verif.C108_program",
    "Verif.C108_melding",
    "Verif.C108_rounding"
   ],
   "note": "C108_melding and C108_rounding prove the limits."
  },
  {
   "property": "C109",
   "status": "proved",
   "theorems": [
    "Verif.C109_same",
    "Verif.C109_program",
    "Verif.C109_again",
    "Verif.C109_stray"
   ],
   "note": "C109_stray proves the limit."
  },
  {
   "property": "C110",
   "status": "proved",
   "theorems": [
    "Verif.C110_files",
    "Verif.C110_export",
    "Verif.C110_gcode"
   ],
   "note": "hypothesis: the STL library reads what it wrote"
  },
  {
   "property": "C111",
   "status": "proved",
   "theorems": [
    "Verif.C111_drawn",
    "Verif.C111_printed",
    "Verif.C111_filled"
   ],
   "note": "Paths are simplified before they are drawn (C05, C06, C74). Coordinates are printed with two decimals (C22). Lines longer than 2^53 µm per axis are left out."
  },
  {
   "property": "C112",
   "status": "proved",
   "theorems": [
    "Verif.C112_only"
   ],
   "note": ""
  },
  {
   "property": "C113",
   "status": "proved",
   "theorems": [
    "Verif.C113_simplified",
    "Verif.C113_spike",
    "Verif.C113_inset",
    "Verif.C113_program"
   ],
   "note": "Hypothesis `InsetsKeep` about the offsets of the library. The restriction to a diameter of 55.1 mm is needed because of the overflow in C74/C99."
  },
  {
   "property": "C114",
   "status": "proved",
   "theorems": [
    "Verif.C114_turned",
    "Verif.C114_fill",
    "Verif.C114_walls",
    "Verif.C114_areas",
    "Verif.C114_program"
   ],
   "note": ""
  },
  {
   "property": "C115",
   "status": "proved",
   "theorems": [
    "Verif.C115_areas",
    "Verif.C115_program"
   ],
   "note": ""
  },
  {
   "property": "C116",
   "status": "proved",
   "theorems": [
    "Verif.C116_speeds"
   ],
   "note": ""
  },
  {
   "property": "C117",
   "status": "proved",
   "theorems": [
    "Verif.C117_state",
    "Verif.C117_heated"
   ],
   "note": ""
  },
  {
   "property": "C118",
   "status": "proved",
   "theorems": [
    "Verif.C118_fill",
    "Verif.C118_program"
   ],
   "note": "Points in the rim of an area (half the extrusion width and 5 µm) are left out; there the walls are printed (C113)."
  },
  {
   "property": "C119",
   "status": "proved",
   "theorems": [
    "Verif.C119_simplify",
    "Verif.C119_int64",
    "Verif.C119_region"
   ],
   "note": "C119_simplify is about Simplify in exact integers, C119_int64 about the 64-bit version for coordinates below 67 m."
  },
  {
   "property": "C120",
   "status": "proved",
   "theorems": [
    "Verif.C120_parts",
    "Verif.C120_program"
   ],
   "note": "The solid is the optimized model (C48 relates it to the model file)."
  },
  {
   "property": "C121",
   "status": "proved",
   "theorems": [
    "Verif.C121_areas",
    "Verif.C121_program"
   ],
   "note": "The solid is the optimized model (C48). The hypothesis that no layer up to n is empty is needed: the modifiers stop at the first layer without walls (C64_stops)."
  },
  {
   "property": "C122",
   "status": "proved",
   "theorems": [
    "Verif.C122_layer",
    "Verif.C122_program"
   ],
   "note": "The wall may be cut off by the travel rules only between polygons: a polygon is always drawn as a whole (C111)."
  },
  {
   "property": "C123",
   "status": "proved",
   "theorems": [
    "Verif.C123_areas",
    "Verif.C123_program"
   ],
   "note": ""
  },
  {
   "property": "C124",
   "status": "proved",
   "theorems": [
    "Verif.C124_filament",
    "Verif.C124_program"
   ],
   "note": ""
  },
  {
   "property": "C125",
   "status": "proved",
   "theorems": [
    "Verif.C125_layer",
    "Verif.C125_program"
   ],
   "note": "assumes RingAround (Spec/Skirt.lean) about the hull and offset of the library for the points of the layer, and ordinary skirt lines (at most 55.1 mm wide, C99, within 1 m)"
  },
  {
   "property": "C126",
   "status": "proved",
   "theorems": [
    "Verif.C126_optimize",
    "Verif.C126_segments",
    "Verif.C126_slice",
    "Verif.C126_layers",
    "Verif.C126_limit"
   ],
   "note": "the numbers of loop rounds and list lengths stay unbounded; C127 covers the rest of the program"
  },
  {
   "property": "C127",
   "status": "proved",
   "theorems": [
    "Verif.C127_modifiers",
    "Verif.C127_fill",
    "Verif.C127_patterns",
    "Verif.C127_gcode",
    "Verif.C127_program",
    "Verif.C127_limit"
   ],
   "note": ""
  },
  {
   "property": "C128",
   "status": "proved",
   "theorems": [
    "Verif.C128_orderly",
    "Verif.C128_program"
   ],
   "note": "hypothesis CutsLines about the library; the requests are exact positions, the text has two decimals (C22)"
  },
  {
   "property": "C129",
   "status": "proved",
   "theorems": [
    "Verif.C129_climb",
    "Verif.C129_program"
   ],
   "note": "the requests are exact, the heights in the text have two decimals (the order is kept, C22)"
  },
  {
   "property": "C130",
   "status": "proved",
   "theorems": [
    "Verif.C130_program",
    "Verif.C130_through"
   ],
   "note": "the library's enlargement is a hypothesis for each outline; the violation is for a library which fulfils it for all rectangles"
  },
  {
   "property": "C131",
   "status": "proved",
   "theorems": [
    "Verif.C131_optimized",
    "Verif.C131_program"
   ],
   "note": "the points next to the surface (a distance given by the length of the shortest segments and the snap distance) are left open, as there the outlines really differ"
  },
  {
   "property": "C132",
   "status": "proved",
   "theorems": [
    "Verif.C132_program"
   ],
   "note": "the last part (nothing printed in the common part) is a violation of what a user expects of overlapping bodies"
  },
  {
   "property": "C133",
   "status": "proved",
   "theorems": [
    "Verif.C133_manner"
   ],
   "note": ""
  },
  {
   "property": "C134",
   "status": "proved",
   "theorems": [
    "Verif.C134_independent",
    "Verif.C134_walls"
   ],
   "note": ""
  },
  {
   "property": "C135",
   "status": "proved",
   "theorems": [
    "Verif.C135_grammar",
    "Verif.C135_labels",
    "Verif.C135_gcode"
   ],
   "note": ""
  },
  {
   "property": "C136",
   "status": "proved",
   "theorems": [
    "Verif.C136_moved",
    "Verif.C136_turned",
    "Verif.C136_polygons",
    "Verif.C136_printed"
   ],
   "note": "The lines of the infill are not covered (only their areas): the pattern is rotated about the origin in floating point numbers and scan lines start at the limits of the model. The real library calculates crossings of lines in floating point numbers at absolute places, so it can deviate by a rounding in rare cases."
  },
  {
   "property": "C137",
   "status": "proved",
   "theorems": [
    "Verif.C137_program",
    "Verif.C137_square",
    "Verif.cutsWell_sliced",
    "Verif.square_good"
   ],
   "note": "Composition of C90, C102, C114, C121, C122 and C129 with hypotheses about the file, the options and the library only; the number of walls of a layer is the only value of the program left in the tolerances. The library of squares is not the real library; it shows that the assumptions are consistent."
  },
  {
   "property": "C138",
   "status": "proved",
   "theorems": [
    "Verif.C138_command",
    "Verif.C138_support",
    "Verif.C138_default"
   ],
   "note": "Composition of C90, C93, C123, C127 and C137. The parts of C138 about the body assume of the planes what C137 assumes. Points within the stated distance of the surface, and the first layer if there is a brim, are not covered by the statement about support."
  },
  {
   "property": "C139",
   "status": "proved",
   "theorems": [
    "Verif.C139_outlines",
    "Verif.C139_repaired",
    "Verif.C139_lost"
   ],
   "note": "The meld distance must be at least 2 um, the join distance at least 2 um and less than 67 m. Layers with several wide gaps are covered by C148; missing triangles side by side in the plane are covered by C146 and C147."
  },
  {
   "property": "C140",
   "status": "proved",
   "theorems": [
    "Verif.C140_program",
    "Verif.C140_support",
    "Verif.slicedAs_missing"
   ],
   "note": "Library assumptions as in C137. Layers with two gaps wider than the join distance, or with one wider than the finish distance (C139_lost), are not covered."
  },
  {
   "property": "C141",
   "status": "proved",
   "theorems": [
    "Verif.C141_same",
    "Verif.C141_unread",
    "Verif.C141_unoptimized",
    "Verif.C141_unsliced",
    "Verif.C141_unmodified",
    "Verif.C141_unprepared",
    "Verif.C141_unrendered",
    "Verif.C141_rendered",
    "Verif.C141_zero",
    "Verif.C141_closed",
    "Verif.C141_hole",
    "Verif.C141_unnoticed",
    "Verif.C141_main",
    "Verif.C141_unprocessed",
    "Verif.C141_printed",
    "Verif.C141_success"
   ],
   "note": "The texts of errors of the operating system and of the time are not those of Go but parameters or short texts. The standard error output is not modelled."
  },
  {
   "property": "C142",
   "status": "proved",
   "theorems": [
    "Verif.C142_words",
    "Verif.C142_stop",
    "Verif.C142_complete",
    "Verif.C142_refused",
    "Verif.C142_spelling",
    "Verif.C142_switch",
    "Verif.C142_swallows",
    "Verif.C142_unfinished",
    "Verif.C142_unknown",
    "Verif.C142_path"
   ],
   "note": "The package pflag (version 1.0.5) is not in the repository; its splitting is modelled from its documented behaviour. Texts of usage and errors are not modelled."
  },
  {
   "property": "C143",
   "status": "proved",
   "theorems": [
    "Verif.C143_depends",
    "Verif.C143_again",
    "Verif.C143_default",
    "Verif.C143_overwritten",
    "Verif.C143_independent"
   ],
   "note": "Files are a map from paths to contents; two paths of the same file (links) are not modelled, and the space for writing does not shrink."
  },
  {
   "property": "C144",
   "status": "proved",
   "theorems": [
    "Verif.C144_same",
    "Verif.C144_command"
   ],
   "note": "The assumptions about the libraries and the sizes are those of C137 to C140 and C127."
  },
  {
   "property": "C145",
   "status": "proved",
   "theorems": [
    "Verif.C145_result",
    "Verif.C145_nil",
    "Verif.C145_same",
    "Verif.C145_needed"
   ],
   "note": ""
  },
  {
   "property": "C146",
   "status": "proved",
   "theorems": [
    "Verif.C146_outlines",
    "Verif.C146_repaired",
    "Verif.C146_lost"
   ],
   "note": "The meld distance must be at least 2 um, the join distance at least 2 um and less than 67 m. Layers with several wide gaps are covered by C148."
  },
  {
   "property": "C147",
   "status": "proved",
   "theorems": [
    "Verif.C147_program",
    "Verif.C147_support",
    "Verif.slicedAs_patches",
    "Verif.patches_holes",
    "Verif.patches_inside"
   ],
   "note": "Library assumptions as in C137. Layers with two gaps wider than the join distance, or with one wider than the finish distance (C146_lost), are not covered; for bodies which are lost, see C149."
  },
  {
   "property": "C148",
   "status": "proved",
   "theorems": [
    "Verif.C148_outlines",
    "Verif.torn_outlines",
    "Verif.torn_polygons"
   ],
   "note": "The meld distance must be at least 2 um, the join distance at least 2 um and less than 67 m. Gaps between finish and join distance, and gaps within 4 um of a snap distance, are not covered."
  },
  {
   "property": "C149",
   "status": "proved",
   "theorems": [
    "Verif.C149_program",
    "Verif.C149_support",
    "Verif.slicedAs_torn"
   ],
   "note": "Library assumptions as in C137."
  },
  {
   "property": "C150",
   "status": "proved",
   "theorems": [
    "Verif.C150_command"
   ],
   "note": "Library assumptions as in C137; sizes as in C127. Words as in C142."
  },
  {
   "property": "C151",
   "status": "proved",
   "theorems": [
    "Verif.C151_accepts",
    "Verif.C151_failed",
    "Verif.C151_finite",
    "Verif.C151_round_trip",
    "Verif.C151_limit"
   ],
   "note": "The rest of the program is modelled for finite lengths only; the words are a syntax error in the model of the flags."
  },
  {
   "property": "C152",
   "status": "proved",
   "theorems": [
    "Verif.C152_program",
    "Verif.C152_support"
   ],
   "note": "Library assumptions as in C137. Layers with gaps between the two distances are not covered."
  },
  {
   "property": "C153",
   "status": "proved",
   "theorems": [
    "Verif.C153_max",
    "Verif.C153_two",
    "Verif.C153_back",
    "Verif.C153_back_int64",
    "Verif.C153_div",
    "Verif.C153_mul_div"
   ],
   "note": "Integers without bounds, except C153_back_int64."
  },
  {
   "property": "C154",
   "status": "proved",
   "theorems": [
    "Verif.C154_start",
    "Verif.C154_end",
    "Verif.C154_print",
    "Verif.C154_default_start",
    "Verif.C154_default_end"
   ],
   "note": "The texts are those in front of and behind the body in C77_text and the theorems about whole programs."
  }
 ]
}