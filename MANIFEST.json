{
 "claims": [
  {
   "property": "C01",
   "status": "proved",
   "theorems": [
    "GCodeUtils.C01_write_load",
    "GCodeUtils.C01_strip_unique"
   ],
   "note": ""
  },
  {
   "property": "C02",
   "status": "proved",
   "theorems": [
    "GCodeUtils.C02_load_write_fixed_point"
   ],
   "note": ""
  },
  {
   "property": "C03",
   "status": "proved",
   "theorems": [
    "GCodeUtils.C03_layers_partition"
   ],
   "note": ""
  },
  {
   "property": "C04",
   "status": "proved",
   "theorems": [
    "GCodeUtils.C04_layers_contiguous"
   ],
   "note": ""
  },
  {
   "property": "C05",
   "status": "proved",
   "theorems": [
    "GCodeUtils.C05_stream_state",
    "GCodeUtils.C05_stream_succeeds",
    "GCodeUtils.C05_stream_fails"
   ],
   "note": ""
  },
  {
   "property": "C06",
   "status": "partial",
   "theorems": [
    "GCodeUtils.C06_refuted",
    "GCodeUtils.C06_append_index_partial"
   ],
   "note": "The code violates the property (C06_refuted: appended lines get 1-based indices). Proved: exactly which entry each appended line gets."
  },
  {
   "property": "C07",
   "status": "proved",
   "theorems": [
    "GCodeUtils.C07_prepend",
    "GCodeUtils.C07_prepend_empty",
    "GCodeUtils.C07_prepend_write",
    "GCodeUtils.C07_C08_reachable"
   ],
   "note": ""
  },
  {
   "property": "C08",
   "status": "proved",
   "theorems": [
    "GCodeUtils.C08_rewrite",
    "GCodeUtils.C08_rewrite_empty",
    "GCodeUtils.C07_C08_reachable"
   ],
   "note": ""
  },
  {
   "property": "C09",
   "status": "proved",
   "theorems": [
    "GCodeUtils.C09_semicolon_line",
    "GCodeUtils.C09_semicolon_load"
   ],
   "note": ""
  },
  {
   "property": "C10",
   "status": "proved",
   "theorems": [
    "GCodeUtils.C10_paren_line",
    "GCodeUtils.C10_paren_load",
    "GCodeUtils.C10_before_command_refuted"
   ],
   "note": "Proved for comments after the command word, as stated. C10_before_command_refuted shows that the condition is needed."
  },
  {
   "property": "C11",
   "status": "proved",
   "theorems": [
    "GCodeUtils.C11_case_line",
    "GCodeUtils.C11_case_load_partial",
    "GCodeUtils.C11_duration_refuted"
   ],
   "note": "Command, coordinates, position and machine state for every line; whole-program theorem for lines without the letter P. C11_duration_refuted records that the duration estimate alone depends on case (dwell P)."
  },
  {
   "property": "C12",
   "status": "proved",
   "theorems": [
    "GCodeUtils.C12_unsplit_parse",
    "GCodeUtils.C12_unsplit_stable"
   ],
   "note": ""
  },
  {
   "property": "C13",
   "status": "proved",
   "theorems": [
    "GCodeUtils.C13_eq_iff",
    "GCodeUtils.C13_refl",
    "GCodeUtils.C13_symm",
    "GCodeUtils.C13_ne"
   ],
   "note": ""
  },
  {
   "property": "C14",
   "status": "partial",
   "theorems": [
    "GCodeUtils.C14_refuted",
    "GCodeUtils.C14_chain_partial"
   ],
   "note": "False of the code (C14_refuted). Proved: drift of a chain of n equal lines is at most n tolerances."
  },
  {
   "property": "C15",
   "status": "partial",
   "theorems": [
    "GCodeUtils.C15_eq_iff_partial",
    "GCodeUtils.C15_same_length_partial",
    "GCodeUtils.C15_both_directions",
    "GCodeUtils.C15_refuted",
    "GCodeUtils.C15_refl"
   ],
   "note": "False of the code (C15_refuted). Proved: the exact condition the code decides, exactness for equal lengths, and exactness when compared in both directions."
  },
  {
   "property": "C16",
   "status": "proved",
   "theorems": [
    "GCodeUtils.C16_comments_ignored",
    "GCodeUtils.C16_layers_ignored"
   ],
   "note": ""
  },
  {
   "property": "C17",
   "status": "proved",
   "theorems": [
    "GCodeUtils.C17_diff_none_iff",
    "GCodeUtils.C17_diff_meaning"
   ],
   "note": ""
  },
  {
   "property": "C18",
   "status": "partial",
   "theorems": [
    "GCodeUtils.C18_all_light_equal",
    "GCodeUtils.C18_refuted"
   ],
   "note": "False of the code (C18_refuted; C18_all_light_equal shows that all loaded light programs compare equal). Nothing positive remains to be proved."
  },
  {
   "property": "C19",
   "status": "partial",
   "theorems": [
    "GCodeUtils.C19_position_partial",
    "GCodeUtils.C19_homing_refuted",
    "GCodeUtils.C19_comment_refuted"
   ],
   "note": "Proved for every program whose commands come before comments and whose G28 lines name no axis or give a nonzero number; C19_homing_refuted and C19_comment_refuted show that the claim is false outside this."
  },
  {
   "property": "C20",
   "status": "proved",
   "theorems": [
    "GCodeUtils.C20_set_position",
    "GCodeUtils.C20_absolute_move"
   ],
   "note": ""
  },
  {
   "property": "C21",
   "status": "proved",
   "theorems": [
    "GCodeUtils.C21_units",
    "GCodeUtils.C21_inch_program"
   ],
   "note": ""
  },
  {
   "property": "C22",
   "status": "partial",
   "theorems": [
    "GCodeUtils.C22_filament_partial",
    "GCodeUtils.C22_refuted"
   ],
   "note": "Proved while the last G92 E word is half the true filament position (in particular G92 E0 at the start) or extrusion is relative. C22_refuted: false for the usual G92 E0 between absolute extrusions."
  },
  {
   "property": "C23",
   "status": "proved",
   "theorems": [
    "GCodeUtils.C23_bounding_box"
   ],
   "note": ""
  },
  {
   "property": "C24",
   "status": "proved",
   "theorems": [
    "GCodeUtils.C24_heights",
    "GCodeUtils.C24_recorded"
   ],
   "note": ""
  },
  {
   "property": "C25",
   "status": "proved",
   "theorems": [
    "GCodeUtils.C25_duration_sum",
    "GCodeUtils.C25_duration_nonneg"
   ],
   "note": ""
  },
  {
   "property": "C26",
   "status": "proved",
   "theorems": [
    "GCodeUtils.C26_errors",
    "GCodeUtils.C26_value_error",
    "GCodeUtils.C26_loads"
   ],
   "note": ""
  },
  {
   "property": "C27",
   "status": "partial",
   "theorems": [
    "GCodeUtils.C27_translation_partial",
    "GCodeUtils.C27_targets_partial",
    "GCodeUtils.C27_written_partial",
    "GCodeUtils.C27_unstated_refuted",
    "GCodeUtils.C27_g92_refuted",
    "GCodeUtils.C27_inch_refuted"
   ],
   "note": "Proved (exactly on argument values, within 0.0005 mm on written texts) for the class of programs described by Spec.TrackSt; C27_unstated_refuted, C27_g92_refuted and C27_inch_refuted show that the claim is false outside it."
  },
  {
   "property": "C28",
   "status": "partial",
   "theorems": [
    "GCodeUtils.C28_refuted",
    "GCodeUtils.C28_z_partial"
   ],
   "note": "False of the code (C28_refuted). Proved for G92 lines that name Z."
  },
  {
   "property": "C29",
   "status": "proved",
   "theorems": [
    "GCodeUtils.C29_scope"
   ],
   "note": ""
  },
  {
   "property": "C30",
   "status": "proved",
   "theorems": [
    "GCodeUtils.C30_compose",
    "GCodeUtils.C30_cancel",
    "GCodeUtils.C30_zero"
   ],
   "note": ""
  },
  {
   "property": "C31",
   "status": "partial",
   "theorems": [
    "GCodeUtils.C31_conversion_partial",
    "GCodeUtils.C31_unstated_refuted",
    "GCodeUtils.C31_return_refuted",
    "GCodeUtils.C31_g90_refuted"
   ],
   "note": "Proved for the class of programs described by Spec.EModeSt; C31_unstated_refuted, C31_return_refuted and C31_g90_refuted show that the claim is false outside it."
  },
  {
   "property": "C32",
   "status": "proved",
   "theorems": [
    "GCodeUtils.C32_scope"
   ],
   "note": ""
  },
  {
   "property": "C33",
   "status": "partial",
   "theorems": [
    "GCodeUtils.C33_idempotent_partial",
    "GCodeUtils.C33_refuted"
   ],
   "note": "Proved for programs that state the extrusion mode before the first E move; C33_refuted shows that the claim is false otherwise."
  },
  {
   "property": "C34",
   "status": "proved",
   "theorems": [
    "GCodeUtils.C34_total",
    "GCodeUtils.C34_written_partial"
   ],
   "note": "C34_total: every program. C34_written_partial adds what a printer does with the texts, for loaded millimetre programs in the class of C31."
  },
  {
   "property": "C35",
   "status": "proved",
   "theorems": [
    "GCodeUtils.C35_splice",
    "GCodeUtils.C35_flat",
    "GCodeUtils.C35_keep"
   ],
   "note": ""
  },
  {
   "property": "C36",
   "status": "proved",
   "theorems": [
    "GCodeUtils.C36_walk",
    "GCodeUtils.C36_record",
    "GCodeUtils.C36_changing",
    "GCodeUtils.C36_lines"
   ],
   "note": ""
  },
  {
   "property": "C37",
   "status": "partial",
   "theorems": [
    "GCodeUtils.C37_refuted",
    "GCodeUtils.C37_partial"
   ],
   "note": "False of the code (C37_refuted). Proved: exactly when the index is right."
  },
  {
   "property": "C38",
   "status": "partial",
   "theorems": [
    "GCodeUtils.C38_refuted",
    "GCodeUtils.C38_count_partial",
    "GCodeUtils.C38_exact_partial",
    "GCodeUtils.C38_restore_partial"
   ],
   "note": "False of the code (C38_refuted). Proved for loaded programs with known heights: exact effect when no two layers look alike (and for all light programs); for all others, only pauses are added, as many as required."
  },
  {
   "property": "C39",
   "status": "partial",
   "theorems": [
    "GCodeUtils.C39_refuted",
    "GCodeUtils.C39_same_line_refuted",
    "GCodeUtils.C39_partial",
    "GCodeUtils.C39_height_first_partial"
   ],
   "note": "False of the code (C39_refuted). Proved: exactly when it raises, and that it does not when the height is given before extrusion starts."
  },
  {
   "property": "C40",
   "status": "proved",
   "theorems": [
    "GCodeUtils.C40_numbers"
   ],
   "note": ""
  },
  {
   "property": "C41",
   "status": "proved",
   "theorems": [
    "GCodeUtils.C41_C42_any"
   ],
   "note": ""
  },
  {
   "property": "C42",
   "status": "proved",
   "theorems": [
    "GCodeUtils.C42_base",
    "GCodeUtils.C41_C42_any",
    "GCodeUtils.C42_removal"
   ],
   "note": ""
  },
  {
   "property": "C43",
   "status": "partial",
   "theorems": [
    "GCodeUtils.C43_refuted",
    "GCodeUtils.C43_range_partial",
    "GCodeUtils.C43_targets_partial"
   ],
   "note": "False of the code (C43_refuted: an out-of-range target between). Proved for start and end temperatures in the safety range (C43_range_partial), and that consecutive inserted lines belong to different targets otherwise."
  },
  {
   "property": "C44",
   "status": "proved",
   "theorems": [
    "GCodeUtils.C44_interpolation",
    "GCodeUtils.C44_program"
   ],
   "note": ""
  },
  {
   "property": "C45",
   "status": "partial",
   "theorems": [
    "GCodeUtils.C45_refuted",
    "GCodeUtils.C45_step_partial"
   ],
   "note": "False of the code for decreasing gradients (C45_refuted). Proved: exact for increasing gradients, at most one step below the end for decreasing ones."
  },
  {
   "property": "C46",
   "status": "partial",
   "theorems": [
    "GCodeUtils.C46_refuted",
    "GCodeUtils.C46_never_refuted"
   ],
   "note": "False of the code (C46_refuted, and C46_never_refuted for every number of steps). Nothing positive remains to be proved."
  },
  {
   "property": "C47",
   "status": "partial",
   "theorems": [
    "GCodeUtils.C47_refuted",
    "GCodeUtils.C47_first_above_partial"
   ],
   "note": "False of the code (C47_refuted). Proved when the first known height is above min_z_change."
  },
  {
   "property": "C48",
   "status": "partial",
   "theorems": [
    "GCodeUtils.C48_continuous",
    "GCodeUtils.C48_step_partial",
    "GCodeUtils.C48_steps_refuted"
   ],
   "note": "Proved for the continuous gradient and for all numbers of steps other than 0 and -1, where C48_steps_refuted shows the division by zero."
  },
  {
   "property": "C49",
   "status": "proved",
   "theorems": [
    "GCodeUtils.C49_any_test",
    "GCodeUtils.C49_C51_C52_replacement",
    "GCodeUtils.C49_reused"
   ],
   "note": ""
  },
  {
   "property": "C50",
   "status": "proved",
   "theorems": [
    "GCodeUtils.C50_other_commands"
   ],
   "note": ""
  },
  {
   "property": "C51",
   "status": "proved",
   "theorems": [
    "GCodeUtils.C49_C51_C52_replacement",
    "GCodeUtils.C51_extruding_moves"
   ],
   "note": ""
  },
  {
   "property": "C52",
   "status": "proved",
   "theorems": [
    "GCodeUtils.C49_C51_C52_replacement",
    "GCodeUtils.C52_direction"
   ],
   "note": ""
  },
  {
   "property": "C53",
   "status": "partial",
   "theorems": [
    "GCodeUtils.C53_refuted",
    "GCodeUtils.C53_absolute_partial",
    "GCodeUtils.C53_relative_partial",
    "GCodeUtils.C53_excess_partial"
   ],
   "note": "False of the code for clockwise arcs with absolute extrusion (C53_refuted; C53_absolute_partial shows that every such arc retracts). Proved: absolute counter-clockwise arcs push forward; relative arcs push at least the sum of the replaced E words, at most pi/2 times it, and at most 4 per cent more if no move turns by more than 50 degrees (C53_excess_partial)."
  },
  {
   "property": "C54",
   "status": "partial",
   "theorems": [
    "GCodeUtils.C54_refuted",
    "GCodeUtils.C54_short_partial",
    "GCodeUtils.C54_refuted_straight",
    "GCodeUtils.C54_refuted_prime",
    "GCodeUtils.C54_refuted_travel",
    "GCodeUtils.C54_safe_partial"
   ],
   "note": "False of the code: a comment before eight extruding moves, nine extruding moves on a slanted line or in one place, ten travel moves on an arc (C54_refuted, C54_refuted_straight, C54_refuted_prime, C54_refuted_travel). Proved for programs without a run of moves long enough to be queued (C54_short_partial) and, with real functions, for programs whose long runs avoid these situations (C54_safe_partial). Floating point overflow is not modelled."
  },
  {
   "property": "C55",
   "status": "partial",
   "theorems": [
    "GCodeUtils.C55_refuted",
    "GCodeUtils.C55_height_partial",
    "GCodeUtils.C55_level_partial"
   ],
   "note": "False of the code (C55_refuted: Z word on a replaced move). Proved, by following two printers through the whole program, when no line has both an E and a Z word, and more generally when runs of extruding moves on an arc stay at their height (C55_level_partial)."
  },
  {
   "property": "C56",
   "status": "partial",
   "theorems": [
    "GCodeUtils.C56_refuted",
    "GCodeUtils.C56_nothing_pending_partial"
   ],
   "note": "False of the code (C56_refuted). Proved when nothing is pending after the first program."
  },
  {
   "property": "C57",
   "status": "proved",
   "theorems": [
    "GCodeUtils.C57_fit",
    "GCodeUtils.C57_degenerate",
    "GCodeUtils.C57_accepted"
   ],
   "note": ""
  },
  {
   "property": "C58",
   "status": "proved",
   "theorems": [
    "GCodeUtils.C58_bound",
    "GCodeUtils.C58_bound_real"
   ],
   "note": "for a move naming one axis the other coordinate of the target is the last one named inside a loop, see C63; square root with relative error eps, exact for C58_bound_real"
  },
  {
   "property": "C59",
   "status": "proved",
   "theorems": [
    "GCodeUtils.C59_scope"
   ],
   "note": ""
  },
  {
   "property": "C60",
   "status": "proved",
   "theorems": [
    "GCodeUtils.C60_words"
   ],
   "note": ""
  },
  {
   "property": "C61",
   "status": "proved",
   "theorems": [
    "GCodeUtils.C61_zero"
   ],
   "note": ""
  },
  {
   "property": "C62",
   "status": "partial",
   "theorems": [
    "GCodeUtils.C62_refuted",
    "GCodeUtils.C62_feed",
    "GCodeUtils.C62_feed_partial"
   ],
   "note": "refuted: F959 or an old loop feed is written when the feed was set outside loops; partial covers feeds set by a loop move"
  },
  {
   "property": "C63",
   "status": "partial",
   "theorems": [
    "GCodeUtils.C63_refuted",
    "GCodeUtils.C63_x_partial",
    "GCodeUtils.C63_y_partial"
   ],
   "note": "refuted for the first one-axis moves after a travel; partial covers moves after a loop move that named the axis"
  },
  {
   "property": "C64",
   "status": "partial",
   "theorems": [
    "GCodeUtils.C64_cura_loaded_partial",
    "GCodeUtils.C64_cura_refuted",
    "GCodeUtils.C64_cura_forward_partial",
    "GCodeUtils.C64_cura_backward_partial",
    "GCodeUtils.C64_cura_whole_partial",
    "GCodeUtils.C64_skeinforge_refuted",
    "GCodeUtils.C64_slic3r_loaded_partial",
    "GCodeUtils.C64_cura_partial",
    "GCodeUtils.C64_slic3r_forward_partial",
    "GCodeUtils.C64_skeinforge_forward_partial",
    "GCodeUtils.C64_backward_partial",
    "GCodeUtils.C64_refuted"
   ],
   "note": "False of the Slic3r filter (C64_refuted: it never ends on a six line program), of the Skeinforge filter (C64_skeinforge_refuted: an edge of one short move) and of the Cura filter (C64_cura_refuted: it never ends on an eight line program, although each step ends). Proved: get_next of the Cura filter always answers; get_next of the Slic3r and Skeinforge filters answers if points lie between the marks. The whole Cura filter ends on programs whose loops begin and end with X/Y moves (C64_cura_whole_partial, C64_cura_loaded_partial). So does the whole Slic3r filter if also points lie between the marks (C64_slic3r_loaded_partial). Missing: a condition under which the whole Skeinforge filter ends."
  },
  {
   "property": "C65",
   "status": "partial",
   "theorems": [
    "GCodeUtils.C65_partial",
    "GCodeUtils.C65_refuted"
   ],
   "note": "False of the code (C65_refuted: a wall of one move at the end of a layer). Proved for programs in which no layer ends with an X/Y move."
  },
  {
   "property": "C66",
   "status": "partial",
   "theorems": [
    "GCodeUtils.C66_annotation",
    "GCodeUtils.C66_printer_partial",
    "GCodeUtils.C66_parse_partial",
    "GCodeUtils.C66_program_partial",
    "GCodeUtils.C66_refuted"
   ],
   "note": "annotation proved in full; a mark behind a comment in nested parentheses turns it into a command (refuted), otherwise the meaning is kept"
  },
  {
   "property": "C67",
   "status": "partial",
   "theorems": [
    "GCodeUtils.C67_bracketed",
    "GCodeUtils.C67_layers_partial",
    "GCodeUtils.C67_layers_refuted"
   ],
   "note": "Every opened loop has a closing mark in its layer (C67_bracketed). That no loop reaches into the next layer is false of the code (C67_layers_refuted) and proved if comments that announce loops are followed by two other lines."
  },
  {
   "property": "C68",
   "status": "proved",
   "theorems": [
    "GCodeUtils.C68_inplace",
    "GCodeUtils.C68_missing",
    "GCodeUtils.C68_stretch"
   ],
   "note": ""
  },
  {
   "property": "C69",
   "status": "partial",
   "theorems": [
    "GCodeUtils.C69_refuted",
    "GCodeUtils.C69_load_partial",
    "GCodeUtils.C69_emptied"
   ],
   "note": "False of the code (C69_refuted; C69_emptied: on every too flat program and with zero steps). Proved: a file that cannot be parsed is kept, other files never change."
  },
  {
   "property": "C70",
   "status": "partial",
   "theorems": [
    "GCodeUtils.C70_identity_partial",
    "GCodeUtils.C70_refuted"
   ],
   "note": "False of the code for programs that extrude before naming a height (C70_refuted). Proved for all others."
  },
  {
   "property": "C71",
   "status": "proved",
   "theorems": [
    "GCodeUtils.C71_space",
    "GCodeUtils.C71_products",
    "GCodeUtils.C71_distance",
    "GCodeUtils.C71_reflect",
    "GCodeUtils.C71_normalize",
    "GCodeUtils.C71_normalize_real",
    "GCodeUtils.C71_bounds",
    "GCodeUtils.C71_inplace",
    "GCodeUtils.C71_equality",
    "GCodeUtils.C71_dropAxis"
   ],
   "note": ""
  },
  {
   "property": "C72",
   "status": "partial",
   "theorems": [
    "GCodeUtils.C72_refuted",
    "GCodeUtils.C72_position_partial"
   ],
   "note": "False of the code after G92 on X or Y (C72_refuted). Proved, by following two printers, for programs without G91 and without G92 on X/Y: within 0.0005 mm at every retained line and every window end."
  },
  {
   "property": "C73",
   "status": "proved",
   "theorems": [
    "GCodeUtils.C73_width"
   ],
   "note": ""
  },
  {
   "property": "C74",
   "status": "partial",
   "theorems": [
    "GCodeUtils.C74_other_file",
    "GCodeUtils.C74_same_file_refuted"
   ],
   "note": "False of the code (C74_same_file_refuted). Proved for every output other than the input, including standard output."
  },
  {
   "property": "C75",
   "status": "partial",
   "theorems": [
    "GCodeUtils.C75_refuted",
    "GCodeUtils.C75_partial",
    "GCodeUtils.C75_plugin_partial"
   ],
   "note": "False of the code for every number of steps and every program that can be parsed (C75_refuted). Proved: the default and --continuous."
  },
  {
   "property": "C76",
   "status": "proved",
   "theorems": [
    "GCodeUtils.C76_unique",
    "GCodeUtils.C76_command",
    "GCodeUtils.C76_arguments",
    "GCodeUtils.C76_letter",
    "GCodeUtils.C76_line",
    "GCodeUtils.C76_number"
   ],
   "note": ""
  },
  {
   "property": "C77",
   "status": "proved",
   "theorems": [
    "GCodeUtils.C77_cura",
    "GCodeUtils.C77_slic3r",
    "GCodeUtils.C77_point"
   ],
   "note": ""
  },
  {
   "property": "C78",
   "status": "proved",
   "theorems": [
    "GCodeUtils.C78_straight"
   ],
   "note": ""
  },
  {
   "property": "C79",
   "status": "partial",
   "theorems": [
    "GCodeUtils.C79_corner_partial",
    "GCodeUtils.C79_short_partial",
    "GCodeUtils.C79_refuted"
   ],
   "note": "False of the code (C79_refuted: an obtuse corner between long edges is pulled inward). Proved for corners of at most ninety degrees with edges at least as long as the stretch distance, and for all corners with edges of at most a third of the cross limit."
  },
  {
   "property": "C80",
   "status": "partial",
   "theorems": [
    "GCodeUtils.C80_slic3r_partial",
    "GCodeUtils.C80_slic3r_refuted",
    "GCodeUtils.C80_cura_refuted"
   ],
   "note": "False of the code for Cura walls (C80_cura_refuted) and for the second Slic3r perimeter of a layer (C80_slic3r_refuted). Proved for Slic3r perimeters at whose start extrusion does not end."
  },
  {
   "property": "C81",
   "status": "partial",
   "theorems": [
    "GCodeUtils.C81_layers_partial",
    "GCodeUtils.C81_apart_partial",
    "GCodeUtils.C81_refuted"
   ],
   "note": "False of the code for heights closer than a hundredth of a millimetre (C81_refuted). Proved for programs whose heights are whole hundredths (recorded heights exact) and for programs whose heights change by at least 0.015 mm at a time (recorded to within 0.005 mm)."
  },
  {
   "property": "C82",
   "status": "partial",
   "theorems": [
    "GCodeUtils.C82_announced_partial",
    "GCodeUtils.C82_refuted_support",
    "GCodeUtils.C82_refuted_last",
    "GCodeUtils.C82_refuted_drift"
   ],
   "note": "False of the code in general: for Cura a support after a wall is displaced (C82_refuted_support) and a wall move that ends a layer is not (C82_refuted_last); for Slic3r a perimeter that ends a layer makes the next layer be displaced (C82_refuted_drift). Proved for layers with known, spaced announcements that do not end with an X/Y move (Cura), layers that do not end inside a perimeter (Slic3r), and all Skeinforge programs."
  },
  {
   "property": "C83",
   "status": "partial",
   "theorems": [
    "GCodeUtils.C83_refuted",
    "GCodeUtils.C83_feed_partial"
   ],
   "note": "False of the code for a printer that has a feed rate before a program without F words (C83_refuted: the arc gets F0.000). Proved for printers without feed rate at the start and for programs with an F word before or at every move with an E word."
  },
  {
   "property": "C84",
   "status": "partial",
   "theorems": [
    "GCodeUtils.C84_refuted_short",
    "GCodeUtils.C84_behind_partial",
    "GCodeUtils.C84_refuted_clockwise",
    "GCodeUtils.C84_refuted_offset",
    "GCodeUtils.C84_count_partial"
   ],
   "note": "False of the code after clockwise arcs (C84_refuted_clockwise) and after G92 with an E other than 0 (C84_refuted_offset). Proved for programs with absolute extrusion that set E only to 0: equality after every retained E word, and an excess of at most one per cent after a window. That the arc may be more than one per cent short is C84_refuted_short; by how much at most, for counter-clockwise arcs with the real functions, is C84_behind_partial."
  },
  {
   "property": "C85",
   "status": "partial",
   "theorems": [
    "GCodeUtils.C85_same_program",
    "GCodeUtils.C85_reports_partial",
    "GCodeUtils.C85_light_partial",
    "GCodeUtils.C85_lines",
    "GCodeUtils.C85_last_refuted",
    "GCodeUtils.C85_failure"
   ],
   "note": "False of the code for the layer of the last line: it is never announced (C85_last_refuted, for every program). Proved: same program, every line, every other layer, also when loading fails."
  },
  {
   "property": "C86",
   "status": "proved",
   "theorems": [
    "GCodeUtils.C86_tower",
    "GCodeUtils.C86_pause"
   ],
   "note": ""
  },
  {
   "property": "C87",
   "status": "partial",
   "theorems": [
    "GCodeUtils.C87_temperature_partial",
    "GCodeUtils.C87_refuted"
   ],
   "note": "False of the code for programs with temperature commands of their own (C87_refuted). Proved for programs without."
  },
  {
   "property": "C88",
   "status": "partial",
   "theorems": [
    "GCodeUtils.C88_commute_partial",
    "GCodeUtils.C88_both_partial",
    "GCodeUtils.C88_refuted"
   ],
   "note": "False of the code for G92 lines without X, Y, Z and E (C88_refuted). Proved for programs without such lines."
  },
  {
   "property": "C89",
   "status": "proved",
   "theorems": [
    "GCodeUtils.C89_load",
    "GCodeUtils.C89_write",
    "GCodeUtils.C89_append"
   ],
   "note": ""
  },
  {
   "property": "C90",
   "status": "partial",
   "theorems": [
    "GCodeUtils.C90_lower_partial",
    "GCodeUtils.C90_upper_partial",
    "GCodeUtils.C90_refuted"
   ],
   "note": "False of the code for relative coordinates, arcs, programs without feed rate, and (from above) after the extruder is reset (C90_refuted). Proved for programs in absolute coordinates with feed rates, without arcs and re-labelling."
  },
  {
   "property": "C91",
   "status": "partial",
   "theorems": [
    "GCodeUtils.C91_filter_partial",
    "GCodeUtils.C91_tool_partial",
    "GCodeUtils.C91_refuted_absolute",
    "GCodeUtils.C91_refuted_axis"
   ],
   "note": "False of the code for moves that name one axis (C91_refuted_axis) and for a filter applied to absolute extrusion (C91_refuted_absolute). Proved for programs in millimetres and absolute coordinates without G92 on X, Y, Z whose X/Y moves (in loops) name both axes, through the whole command line for the extrusion class of C31."
  },
  {
   "property": "C92",
   "status": "partial",
   "theorems": [
    "GCodeUtils.C92_cura_partial",
    "GCodeUtils.C92_slic3r_partial",
    "GCodeUtils.C92_refuted_absolute"
   ],
   "note": "False of the code for Slic3r programs with absolute extrusion: the conversion removes the perimeter comments, and nothing is ever displaced (C92_refuted_absolute, for all such programs). Proved for Cura programs and for Slic3r programs with relative extrusion, within the limits of C82."
  },
  {
   "property": "C93",
   "status": "partial",
   "theorems": [
    "GCodeUtils.C93_translate",
    "GCodeUtils.C93_relative_partial",
    "GCodeUtils.C93_refuted_relative",
    "GCodeUtils.C93_stretch_partial",
    "GCodeUtils.C93_refuted_stretch",
    "GCodeUtils.C93_refuted_arcs"
   ],
   "note": "Proved for translation. False of the code for relative extrusion when the program has an M82 line (C93_refuted_relative; proved to be exactly the programs where it fails), for stretching, where iteration shows the original moves (C93_stretch_partial, C93_refuted_stretch), and for arcs (C93_refuted_arcs)."
  },
  {
   "property": "C94",
   "status": "partial",
   "theorems": [
    "GCodeUtils.C94_mod_partial",
    "GCodeUtils.C94_raises"
   ],
   "note": "Proved for programs in millimetres, with the conditions of C27 (no G92, stated mode) when -x or -y is given and of C31 when -e is given; outside those classes the filters themselves are wrong (C27_*_refuted, C31_*_refuted). Success and failure are characterised for all programs (C94_raises)."
  },
  {
   "property": "C95",
   "status": "partial",
   "theorems": [
    "GCodeUtils.C95_refuted",
    "GCodeUtils.C95_way_partial"
   ],
   "note": "False of the code: a run that first goes one way and then back ends up as an almost full circle (C95_refuted). Proved, with real square root and phase, for runs that go one way round and at most one turn; clockwise moves below a quarter turn."
  },
  {
   "property": "C96",
   "status": "partial",
   "theorems": [
    "GCodeUtils.C96_refuted",
    "GCodeUtils.C96_uneven_refuted",
    "GCodeUtils.C96_path_partial"
   ],
   "note": "False of the code in the sense of the 0.015 mm tolerance: an octagon becomes a circle (C96_refuted), and clockwise steps need not be even (C96_uneven_refuted). Proved, with real square root and phase, with the bound 0.015 mm + r(1 - cos 25 degrees) for counter-clockwise runs and in terms of the largest step for clockwise ones; at most one turn; before rounding of the written numbers."
  },
  {
   "property": "C97",
   "status": "proved",
   "theorems": [
    "GCodeUtils.C97_found",
    "GCodeUtils.C97_last"
   ],
   "note": ""
  },
  {
   "property": "C98",
   "status": "proved",
   "theorems": [
    "GCodeUtils.C98_line",
    "GCodeUtils.C98_load",
    "GCodeUtils.C98_twice_refuted",
    "GCodeUtils.C98_filters_refuted"
   ],
   "note": "Proved for texts that begin with a word, as stated; C98_twice_refuted shows that the condition is needed, C98_filters_refuted that filtered output is numbered in part only."
  },
  {
   "property": "C99",
   "status": "proved",
   "theorems": [
    "GCodeUtils.C99_line",
    "GCodeUtils.C99_load",
    "GCodeUtils.C99_order",
    "GCodeUtils.C99_repeated_refuted",
    "GCodeUtils.C99_inside_refuted"
   ],
   "note": "C99_repeated_refuted and C99_inside_refuted show that the conditions are needed."
  },
  {
   "property": "C100",
   "status": "partial",
   "theorems": [
    "GCodeUtils.C100_radii_partial",
    "GCodeUtils.C100_refuted"
   ],
   "note": "False of the code in the sense of the usual controller rule (radii within 0.005 mm or 0.1 per cent): C100_refuted, a 2 mm arc with radii 2.013 and 1.987. Proved with the bound 0.034 mm that follows from the tolerance of the fit, for absolute programs without G92 on X or Y and arcs that start at a move."
  },
  {
   "property": "C101",
   "status": "partial",
   "theorems": [
    "GCodeUtils.C101_elsewhere_partial",
    "GCodeUtils.C101_one_axis_refuted"
   ],
   "note": "Proved when every X/Y move names both axes. False otherwise: C101_one_axis_refuted, the first wall move with X only is sent to the Y of the origin."
  },
  {
   "property": "C102",
   "status": "proved",
   "theorems": [
    "GCodeUtils.C102_bystanders",
    "GCodeUtils.C102_errors"
   ],
   "note": ""
  },
  {
   "property": "C103",
   "status": "partial",
   "theorems": [
    "GCodeUtils.C103_placed_partial",
    "GCodeUtils.C103_prime_refuted",
    "GCodeUtils.C103_duration_refuted",
    "GCodeUtils.C103_times_partial"
   ],
   "note": "Proved, except for the duration, for programs that go to their place by an absolute move before they extrude and then neither home, nor use arcs or relative coordinates, nor re-label X or Y; limits only if filament is used. False outside: C103_prime_refuted (priming before the first X/Y move puts the origin into the box), C103_duration_refuted (the way from the origin counts). Of the duration it is proved that every line takes the same time at both places, except the first X/Y move and the first linear move after it, and so do all layers after these (C103_times_partial)."
  },
  {
   "property": "C104",
   "status": "proved",
   "theorems": [
    "GCodeUtils.C104_only_drawing",
    "GCodeUtils.C104_unfed"
   ],
   "note": ""
  },
  {
   "property": "C105",
   "status": "partial",
   "theorems": [
    "GCodeUtils.C105_refuted",
    "GCodeUtils.C105_curves_partial"
   ],
   "note": "False in general (C105_refuted: nine extruding half circles whose ends lie on a circle become one arc along that circle); proved for programs in which eight or more extruding moves in a row are never circular, and, by C104, for arcs without E word."
  },
  {
   "property": "C106",
   "status": "partial",
   "theorems": [
    "GCodeUtils.C106_refuted",
    "GCodeUtils.C106_repeat_partial"
   ],
   "note": "False in general (C106_refuted: with equal start and end temperature the second output has no temperature command); proved otherwise up to one line: the second and all later outputs are the first one, or lack a single command for the temperature that was set last."
  },
  {
   "property": "C107",
   "status": "partial",
   "theorems": [
    "GCodeUtils.C107_relative_first_partial",
    "GCodeUtils.C107_refuted",
    "GCodeUtils.C107_correction_refuted",
    "GCodeUtils.C107_arcs_first_partial"
   ],
   "note": "Refuted for optimising after translating (the arc goes to the place before the translation) and for translating an optimised program with a G92 E correction (C107_refuted, C107_correction_refuted). Proved for arc optimisation first, then translation and conversion, for programs in the classes of C27 and C31. Conversion to relative extrusion before arc optimisation: C107_relative_first_partial (windows of extruding moves, every arc pushes forward by what it replaces), programs without M83."
  },
  {
   "property": "C108",
   "status": "partial",
   "theorems": [
    "GCodeUtils.C108_elsewhere_partial",
    "GCodeUtils.C108_refuted"
   ],
   "note": "C108_elsewhere_partial: same outcome and corresponding lines at both places, when a command that is no move (or nothing) precedes the move to the place, and the program neither homes, sets X/Y nor moves relatively afterwards; both programs assumed to load. C108_refuted: without that command the origin is taken for the start of an arc."
  },
  {
   "property": "C109",
   "status": "partial",
   "theorems": [
    "GCodeUtils.C109_refuted",
    "GCodeUtils.C109_same_arcs_partial"
   ],
   "note": "False of the code when the extruder coordinate is reset between moves (C109_refuted: an arc after G92 E0 and a travel move is found only after conversion). Proved for programs with absolute extrusion whose extruder coordinate is not set after the first E word of a move (C109_same_arcs_partial); the converted program may fail with a division by zero where the original does not."
  },
  {
   "property": "C110",
   "status": "partial",
   "theorems": [
    "GCodeUtils.C110_written_partial",
    "GCodeUtils.C110_readable_partial",
    "GCodeUtils.C110_stable_partial",
    "GCodeUtils.C110_refuted"
   ],
   "note": "Refuted for programs in inches, for moves inserted as commands, and for tiny feed rates of opposite sign (C110_refuted). Proved for programs without G20, for every sequence of passes of the four filters: the written text compares equal or its loading divides by zero (C110_written_partial), and it loads when no feed rate and no waiting time is negative (C110_readable_partial)."
  },
  {
   "property": "C111",
   "status": "partial",
   "theorems": [
    "GCodeUtils.C111_translate_partial",
    "GCodeUtils.C111_relative_partial",
    "GCodeUtils.C111_arcs_partial",
    "GCodeUtils.C111_refuted"
   ],
   "note": "False in general for each of the three filters (C111_refuted). Proved for lists of programs of any length: translation, if all but the last have no G92 and all but the first say G90 or G91 before they move; relative extrusion, if all but the first say M82 or M83 and set E before they extrude; arcs, if all but the last end in a command other than a move."
  },
  {
   "property": "C112",
   "status": "partial",
   "theorems": [
    "GCodeUtils.C112_box_partial",
    "GCodeUtils.C112_refuted",
    "GCodeUtils.C112_stale"
   ],
   "note": "Refuted for programs that push filament before the first X/Y move, for traces of filament that vanish in the written text, after a G92 and for programs that do not state their distance mode (C112_refuted). Proved for the others (C112_box_partial); the program in memory keeps the old box (C112_stale)."
  },
  {
   "property": "C113",
   "status": "partial",
   "theorems": [
    "GCodeUtils.C113_report",
    "GCodeUtils.C113_errors",
    "GCodeUtils.C113_extent",
    "GCodeUtils.C113_clock_unique",
    "GCodeUtils.C113_extent_refuted",
    "GCodeUtils.C113_layers_refuted"
   ],
   "note": "The report, its errors and the recoverability of the duration are proved for all files (C113_report, C113_errors, C113_clock_unique). The last sentence is refuted (C113_extent_refuted: limits 0.00 and 0.02 with extent 0.01; C113_layers_refuted: priming before the first height counts as a layer); the printed extent is within a hundredth of the difference of the printed limits (C113_extent)."
  },
  {
   "property": "C114",
   "status": "partial",
   "theorems": [
    "GCodeUtils.C114_analysis_partial",
    "GCodeUtils.C114_reset_refuted",
    "GCodeUtils.C114_mode_refuted",
    "GCodeUtils.C114_arc_refuted"
   ],
   "note": "C114_analysis_partial: converting, writing and reloading succeeds and keeps filament, box, heights, layer height, layers and line counts, and the durations if no arc has an E word, for the stated class. Missing: programs outside the class, where the claim is false: C114_reset_refuted (G92 E0 between extrusions), C114_mode_refuted (G90 after M82), C114_arc_refuted (durations)."
  },
  {
   "property": "C115",
   "status": "proved",
   "theorems": [
    "GCodeUtils.C115_runs",
    "GCodeUtils.C115_order",
    "GCodeUtils.C115_one_run",
    "GCodeUtils.C115_tool"
   ],
   "note": ""
  },
  {
   "property": "C116",
   "status": "partial",
   "theorems": [
    "GCodeUtils.C116_moves_partial",
    "GCodeUtils.C116_one_run_partial",
    "GCodeUtils.C116_text_refuted"
   ],
   "note": "The positions are proved for the stated class of programs (C116_moves_partial) and the equality of the texts for short numbers and amounts that do not cancel (C116_one_run_partial). Missing: programs outside the class, where one run already goes wrong (C27_g92_refuted), and equality of texts in general, which is false: C116_text_refuted (0.0004 twice moves nothing, 0.0008 once moves by 0.001; there and back drops comments)."
  },
  {
   "property": "C117",
   "status": "proved",
   "theorems": [
    "GCodeUtils.C117_load",
    "GCodeUtils.C117_endings",
    "GCodeUtils.C117_filters",
    "GCodeUtils.C117_in_place",
    "GCodeUtils.C117_tempcal_report",
    "GCodeUtils.C117_empty_refuted"
   ],
   "note": ""
  },
  {
   "property": "C118",
   "status": "partial",
   "theorems": [
    "GCodeUtils.C118_profile_partial",
    "GCodeUtils.C118_width_partial",
    "GCodeUtils.C118_python3",
    "GCodeUtils.C118_refuted"
   ],
   "note": "Proved for Python 2, for every decoder and every profile text (C118_profile_partial, C118_width_partial). Under Python 3 the claim is false: every file with a profile comment is rejected (C118_python3, C118_refuted). base64, zlib and float(text) are parameters."
  },
  {
   "property": "C119",
   "status": "partial",
   "theorems": [
    "GCodeUtils.C119_silent",
    "GCodeUtils.C119_arcs",
    "GCodeUtils.C119_stretch",
    "GCodeUtils.C119_tower",
    "GCodeUtils.C119_refuted"
   ],
   "note": "False of the code for translation and conversion (C119_refuted; C119_silent: for every light program). Proved: arc optimisation, stretching and temperature gradients raise, with the exact conditions (C119_arcs, C119_stretch, C119_tower). Pauses in light programs are covered by C38."
  },
  {
   "property": "C120",
   "status": "proved",
   "theorems": [
    "GCodeUtils.C120_layer_height",
    "GCodeUtils.C120_unique",
    "GCodeUtils.C120_even",
    "GCodeUtils.C120_heights",
    "GCodeUtils.C120_near"
   ],
   "note": ""
  },
  {
   "property": "C121",
   "status": "partial",
   "theorems": [
    "GCodeUtils.C121_rising_partial",
    "GCodeUtils.C121_no_estimate_partial",
    "GCodeUtils.C121_refuted"
   ],
   "note": "Proved for programs whose heights change by at least 0.015 mm at a time (C121_rising_partial) and for programs in which no layer height had to be estimated (C121_no_estimate_partial; the last layer may be recorded up to 0.005 mm below the one before). False in general: the spiral of C121_refuted only rises and its layers are recorded at 0.7, 0.6, 0.82 and 0.8 mm, because a height close to the last one is replaced by a multiple of the layer height."
  },
  {
   "property": "C122",
   "status": "proved",
   "theorems": [
    "GCodeUtils.C122_layered",
    "GCodeUtils.C122_complete"
   ],
   "note": ""
  },
  {
   "property": "C123",
   "status": "proved",
   "theorems": [
    "GCodeUtils.C123_heights",
    "GCodeUtils.C123_insert"
   ],
   "note": ""
  },
  {
   "property": "C124",
   "status": "partial",
   "theorems": [
    "GCodeUtils.C124_continues",
    "GCodeUtils.C124_text",
    "GCodeUtils.C124_fresh_partial",
    "GCodeUtils.C124_refuted",
    "GCodeUtils.C124_empty_refuted"
   ],
   "note": "The text is right for every pair of programs (C124_text). The analysis is that of the second program read behind the first one (C124_continues), so the claim is false in general (C124_refuted: filament and box; C124_empty_refuted: an empty second program keeps the analysis of the first). Proved when the first program leaves the machine state and the layer height as they were (C124_fresh_partial)."
  },
  {
   "property": "C125",
   "status": "proved",
   "theorems": [
    "GCodeUtils.C125_follow",
    "GCodeUtils.C125_returned"
   ],
   "note": ""
  },
  {
   "property": "C126",
   "status": "proved",
   "theorems": [
    "GCodeUtils.C126_strength",
    "GCodeUtils.C126_strength_real"
   ],
   "note": ""
  },
  {
   "property": "C127",
   "status": "proved",
   "theorems": [
    "GCodeUtils.C127_layers",
    "GCodeUtils.C127_pieces",
    "GCodeUtils.C127_appended",
    "GCodeUtils.C127_open_refuted"
   ],
   "note": ""
  },
  {
   "property": "C128",
   "status": "partial",
   "theorems": [
    "GCodeUtils.C128_arcs_partial",
    "GCodeUtils.C128_stretch_partial",
    "GCodeUtils.C128_arcs_refuted",
    "GCodeUtils.C128_stretch_refuted"
   ],
   "note": "False of the code in two corners (C128_arcs_refuted: a Z word on a replaced move is lost with its layer; C128_stretch_refuted: a mark behind a nested comment makes it a move). Proved for arcs when runs of extruding moves on an arc stay at their height (rising spirals included), and for stretching without nested comments and with heights of at most three decimals."
  },
  {
   "property": "C129",
   "status": "partial",
   "theorems": [
    "GCodeUtils.C129_written_partial",
    "GCodeUtils.C129_readable_partial",
    "GCodeUtils.C129_refuted"
   ],
   "note": "Refuted for programs with a line that has neither a word nor a comment (C129_refuted). Proved for programs without G20, without nested comments, all of whose lines have a word or a comment: the written text compares equal or its loading divides by zero (C129_written_partial), and it loads when no feed rate and no waiting time is negative (C129_readable_partial)."
  },
  {
   "property": "C130",
   "status": "proved",
   "theorems": [
    "GCodeUtils.C130_total",
    "GCodeUtils.C130_layers",
    "GCodeUtils.C130_refuted",
    "GCodeUtils.C130_relative_refuted"
   ],
   "note": "The expectations named as failing are refuted by C130_refuted (time of its own lines) and C130_relative_refuted (relative coordinates). Loaded with ordinary (not light) lines: light lines do not keep their words."
  },
  {
   "property": "C131",
   "status": "proved",
   "theorems": [
    "GCodeUtils.C131_inches"
   ],
   "note": ""
  },
  {
   "property": "C132",
   "status": "proved",
   "theorems": [
    "GCodeUtils.C132_turned"
   ],
   "note": ""
  },
  {
   "property": "C133",
   "status": "partial",
   "theorems": [
    "GCodeUtils.C133_lines_partial",
    "GCodeUtils.C133_program_partial",
    "GCodeUtils.C133_mirrored_refuted"
   ],
   "note": "Proved for turns by multiples of a right angle over the real numbers, unless a move in a window passes through the fitted centre; the mirror image of an uneven run is refuted (the angle test is one-sided)."
  },
  {
   "property": "C134",
   "status": "proved",
   "theorems": [
    "GCodeUtils.C134_turned"
   ],
   "note": ""
  },
  {
   "property": "C135",
   "status": "proved",
   "theorems": [
    "GCodeUtils.C135_named",
    "GCodeUtils.C135_stdin",
    "GCodeUtils.C135_inplace",
    "GCodeUtils.C135_pipe",
    "GCodeUtils.C135_conventions",
    "GCodeUtils.C135_conventions_tools",
    "GCodeUtils.C135_translation",
    "GCodeUtils.C135_translation_tools",
    "GCodeUtils.C135_cr_refuted"
   ],
   "note": ""
  },
  {
   "property": "C136",
   "status": "partial",
   "theorems": [
    "GCodeUtils.C136_division",
    "GCodeUtils.C136_classic_partial",
    "GCodeUtils.C136_classic_refuted",
    "GCodeUtils.C136_floor",
    "GCodeUtils.C136_reverse",
    "GCodeUtils.C136_inplace",
    "GCodeUtils.C136_normalize",
    "GCodeUtils.C136_equality",
    "GCodeUtils.C136_hash_partial",
    "GCodeUtils.C136_hash_refuted",
    "GCodeUtils.C136_truth_partial",
    "GCodeUtils.C136_truth_refuted",
    "GCodeUtils.C136_attributes",
    "GCodeUtils.C136_kinds"
   ],
   "note": "Proved: division in Python 3 and, in Python 2, with a float divisor or float components; floor division, division by vectors, /=, normalizing, equality and attributes in full; hashes of vectors of the same kinds. False of the code: integer division in Python 2 (C136_classic_refuted), hashes of equal vectors of different kinds (C136_hash_refuted), the truth value in Python 3 (C136_truth_refuted)."
  },
  {
   "property": "C137",
   "status": "partial",
   "theorems": [
    "GCodeUtils.C137_pause_first_partial",
    "GCodeUtils.C137_pause_one_run_partial",
    "GCodeUtils.C137_repeated_refuted",
    "GCodeUtils.C137_runs_partial",
    "GCodeUtils.C137_one_run_partial",
    "GCodeUtils.C137_decimals_refuted",
    "GCodeUtils.C137_pause_refuted",
    "GCodeUtils.C137_order_refuted"
   ],
   "note": "Proved for programs in millimetres whose moves and G92 lines, and the amounts, have at most three decimals (five for E); for the order -e first if no G92 line is bare; for pauses inserted by a first run if the layers differ from each other before and after. False of the code otherwise: longer numbers (C137_decimals_refuted), bare G92 (C137_order_refuted), pauses in a later run (C137_pause_refuted), layers made equal by the conversion (C137_repeated_refuted)."
  },
  {
   "property": "C138",
   "status": "partial",
   "theorems": [
    "GCodeUtils.C138_move_partial",
    "GCodeUtils.C138_convert_partial",
    "GCodeUtils.C138_in_range",
    "GCodeUtils.C138_continuous_partial",
    "GCodeUtils.C138_step_partial",
    "GCodeUtils.C138_reset_refuted",
    "GCodeUtils.C138_decimals_refuted",
    "GCodeUtils.C138_range_refuted",
    "GCodeUtils.C138_layers",
    "GCodeUtils.C138_all_partial"
   ],
   "note": "Proved for programs in millimetres whose moves and G92 lines, and the amounts, have at most three decimals (five for E), for temperatures in the safety range; for the conversion if the extruder is not reset once it has extruded. False of the code otherwise: resets of the extruder (C138_reset_refuted), longer heights (C138_decimals_refuted), temperatures outside the range (C138_range_refuted)."
  },
  {
   "property": "C139",
   "status": "proved",
   "theorems": [
    "GCodeUtils.C139_same_temperatures"
   ],
   "note": ""
  },
  {
   "property": "C140",
   "status": "partial",
   "theorems": [
    "GCodeUtils.C140_moved_partial",
    "GCodeUtils.C140_reset_refuted",
    "GCodeUtils.C140_relative_refuted"
   ],
   "note": "Proved (C140_moved_partial) for programs in absolute millimetres without G92 and without negative feed rates, whose first X/Y move names both axes and whose numbers (and the offsets) have at most three decimals (five for E). False of the code otherwise: after G92 E0 the moves are no longer displaced and the estimate counts a way that is not travelled (C140_reset_refuted); relative moves are left alone but the estimate takes their numbers for coordinates (C140_relative_refuted)."
  },
  {
   "property": "C141",
   "status": "partial",
   "theorems": [
    "GCodeUtils.C141_partial",
    "GCodeUtils.C141_unstated_refuted"
   ],
   "note": "Proved (C141_partial) for programs in which every linear move has a positive feed rate, its own or an earlier one. False of the code otherwise: moves before the first feed rate, or at feed rate 0, take no time at all (C141_unstated_refuted)."
  },
  {
   "property": "C142",
   "status": "proved",
   "theorems": [
    "GCodeUtils.C142_tower",
    "GCodeUtils.C142_pauses"
   ],
   "note": ""
  },
  {
   "property": "C143",
   "status": "partial",
   "theorems": [
    "GCodeUtils.C143_beginning",
    "GCodeUtils.C143_last_layer",
    "GCodeUtils.C143_errors",
    "GCodeUtils.C143_box_partial",
    "GCodeUtils.C143_time_partial",
    "GCodeUtils.C143_height_refuted",
    "GCodeUtils.C143_travel_refuted",
    "GCodeUtils.C143_wait_refuted"
   ],
   "note": "Lines, finished layers, heights, filament and errors are proved for all files (C143_beginning, C143_last_layer, C143_errors); the time for files without negative feed rates and waiting times (C143_time_partial), the box if the beginning extrudes along a move (C143_box_partial). False of the code otherwise: C143_wait_refuted, C143_travel_refuted, and for the greatest height C143_height_refuted (a rise by 0.005 mm counts only at the end of a file)."
  },
  {
   "property": "C144",
   "status": "proved",
   "theorems": [
    "GCodeUtils.C144_options",
    "GCodeUtils.C144_text",
    "GCodeUtils.C144_tower_refuted"
   ],
   "note": "C144_options (lines) and C144_text (texts), for all options. C144_tower_refuted shows that the same is not true of temperature towers."
  },
  {
   "property": "C145",
   "status": "proved",
   "theorems": [
    "GCodeUtils.C145_waits",
    "GCodeUtils.C145_seconds"
   ],
   "note": ""
  },
  {
   "property": "C146",
   "status": "proved",
   "theorems": [
    "GCodeUtils.C146_layers",
    "GCodeUtils.C146_file",
    "GCodeUtils.C146_width_refuted",
    "GCodeUtils.C146_profile_refuted"
   ],
   "note": "Proved with the condition that is stated; C146_width_refuted and C146_profile_refuted show that the conditions are needed."
  },
  {
   "property": "C147",
   "status": "proved",
   "theorems": [
    "GCodeUtils.C147_errors",
    "GCodeUtils.C147_default",
    "GCodeUtils.C147_negative_refuted"
   ],
   "note": "Exact arithmetic; the square root may be any function. C147_negative_refuted shows that the bound on the strength is needed."
  }
 ]
}