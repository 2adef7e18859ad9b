# Formal model of wireddown/gcodeutils in Lean 4

## Layout

* `lean/Verif/Model/*`  – shallow, function-by-function model of the Python code (exceptions are values).
* `lean/Verif/Spec/*`   – small independent specifications: a reference printer, a word grammar, an extruder, plain-list
  descriptions of layers and heights, geometry of loops. They use the data types of the model (lines, programs), not its functions.
* `lean/Verif/Lemmas/*` – helper lemmas (loop invariants, simulation relations).
* `lean/Verif/Props/*`  – the property theorems `Cnn_…`, each with an `example` that a concrete non-trivial case meets its hypotheses,
  and, where the code violates the property as a user would state it, a proved refutation `Cnn_…refuted` with a concrete witness.
  Theorems that cover only part of a property end in `_partial`.
* `properties.jsonl` lists the properties, `MANIFEST.json` the theorems for each, `seeded/LOG.jsonl` the wrong programs the theorems
  were tested against.

## What is modelled

| source | model |
|--------|-------|
| `gcoder.py` 25–150: regular expressions, `split`, `S`, `P`, `find_specific_code` | `Model/Lex` (hand-written scanner for each expression), `Model/Line` |
| `gcoder.py` 45–110, 143–186: lines, comparison, `raw_to_line`, `unsplit`, `parse_coordinates` | `Model/Line`, `Model/Num` |
| `gcoder.py` 188–782: `GCode` (`prepare`, `append`, `prepend_to_layer`, `rewrite_layer`, `_preprocess`, `idxs`, `write`, duration) | `Model/GCode` |
| `gcoder.py` 305–325, 389–400: `append(command, store)`, `prepare` on an object already in use | `Model/Track` |
| `gcoder.py` 188–782: `layer_callback`, `line_callback` | `Model/Callback` (the loop with the calls it makes; callbacks are observers that return normally) |
| `gcoder.py` 783–850: `diff`, `__eq__`, `comment_stripper_generator`; `LightGCode` | `Model/Compare`, `Model/GCode` |
| `filter/filter.py`, `filter/translate.py`, `filter/relative_extrusion.py` | `Model/Filter` |
| `filter/arc_optimizer.py` | `Model/Arc`, `Model/LightFilter` |
| `gcoder.py` `main` (the report) | `Model/Report` |
| `visit/*` | `Model/Visit` |
| `gcode_tempcal.py` | `Model/TempCal` |
| `stretch/stretch.py` | `Model/Stretch`, `Model/Profile` |
| `stretch/vector3.py` | `Model/Vector3` (exact numbers), `Model/Vector3Num` (integers and floats, both versions of the language) |
| `gcode_mod.py`, `gcode_optimize_arcs.py`, `gcode_stretch.py`, `gcode_tempcal.py` (mains), `cura_plugins/*` | `Model/Cli` (order of file operations; contents), `Model/Stdin` (standard input, newline translation) |

Not modelled: logging and progress output, option parsing (only which options reach the functions), the memory sizes printed by `main` of `gcoder.py`,
`setup.py`, `docs/conf.py`, tests, the commented-out code, `m114_exp` (unused),
base64, zlib and Python's `float(text)` in the decoding of Cura profiles (parameters of `parseCuraProfile`; other theorems about
stretching hold for any `ProfileOracle`), object
identity and memory layout.

## Modelling decisions (part of the trusted base)

* **Numbers.** Python floats are exact elements of an arbitrary linearly ordered field `α` with a floor function. Instances: `ℚ`
  (executable examples), `ℝ`. IEEE rounding, overflow, NaN, infinity and negative zero are not modelled.
* **round / %.nf.** `round(x, n)` is parametrised by the tie rule (`RoundMode`), so theorems cover Python 2 (half away from zero) and
  Python 3 (half to even). `%.nf` is half-to-even on the exact value.
* **Square roots.** Duration: `hypot` is a parameter of `Env`; theorems say what they assume of it. Stretch: `sqrt` is a parameter with
  hypothesis `IsSqrt ε sqrt` (relative error `ε`), met by `Real.sqrt` with `ε = 0` and by the rational `rSqrt` with `ε = 10⁻¹²`.
  `ExactSquares` and `ExactEdge` are further hypotheses, both met by `Real.sqrt`.
* **Trigonometry** (arc filter): a parameter `Trig`; geometric theorems are about `realTrig`, the real functions; witnesses use `qTrig`.
* **Loops that may not end** (stretch walks) take a `fuel`; running out is the pseudo-error `.outOfFuel`, never raised by Python.
  Theorems conclude about runs that returned, and C64 says when a step of a walk ends for all large fuels (a walk need not).
* **Text** is `List Char`. `lower`, `upper`, `strip`, digits are the ASCII ones. Regular-expression matching is modelled by a scanner
  with the leftmost, first-alternative, greedy rule; C76 ties the scanner to a declarative grammar (`Spec/Grammar`).
* **Exceptions** are values of `Err`, one constructor for each Python exception class that can occur.
* **Mutable objects.** Methods that mutate return the new value. Filters change `all_layers` (what `write` prints); what they do to
  the line objects shared with `GCode.lines` is modelled separately in `Model/Alias.lean` (C93), per filter. Light lines have only text and command;
  arc optimisation and stretching of light programs have their own definitions (`Model/LightFilter`).
* **Dictionaries** (`layers`) are modelled by the list of layers with their heights.
* **Files** are a map from names to contents; a command is a list of effects on it (open-for-writing truncates).

## Validation of the model

The project's tests come with reference files. The model reproduces all of them: loading, comparison, translation, conversion to
relative extrusion, the four arc files, the pause, and the stretched Skeinforge program of 12,427 lines (every line within the
comparison tolerance of the program itself). `Conform/Tests.lean` has the small ones as kernel-checked examples;
`lake env lean --run Verif/Conform/Run.lean /repo/gcodeutils/tests` runs all of them on the files (about 40 seconds). The only
textual difference in the arc files is `-0.000` for `0.000`, a rounding error of the floats. (In the repository the four arc tests
never run: the decorator they use returns `None`.)

## Proof methods

Loop invariants over folds by induction on the lines (load, analysis, heights, duration, filters); simulation between the code's
tracking and a reference printer (C19–C22, C27, C31, C55, C72); scanner induction (C09–C12, C76); algebra over ordered fields (C14,
C44, C45, C51–C57, C58, C71, C77–C80); walks over marked layers by induction on the distance to the mark (C64, C65, C77);
refutations by kernel evaluation of a concrete program (`decide +kernel`, no compiler trust).

## Trusted base

* The Lean 4.33.0 kernel. No axioms of our own, no `sorry`, no `native_decide`, no `bv_decide`.
* Each property theorem depends on the axioms in the table below: at most `propext` (p), `Classical.choice` (c), `Quot.sound` (q).
* The definitions in `Model/*` being faithful to /repo, under the decisions above; every definition cites its lines.
* The specifications in `Spec/*` saying what the English statements say.

## Properties, theorems and axioms

Status, theorem modules in `Props/`, theorems with their axioms, and what is missing.

| id | property | status | modules | theorems (axioms) | remark |
|----|----|----|----|----|----|
| C01 | Writing a loaded program reproduces it | proved | Load | `C01_write_load` (pq), `C01_strip_unique` (pq) |  |
| C02 | Load / write is a fixed point | proved | Load | `C02_load_write_fixed_point` (pcq) |  |
| C03 | Layers partition the program and the index arrays address it | proved | Load | `C03_layers_partition` (pcq) |  |
| C04 | Layer numbering is contiguous and only the first and last layer can be empty | proved | Load | `C04_layers_contiguous` (pcq) |  |
| C05 | Streaming with append reaches the same machine state as loading | proved | Load | `C05_stream_state` (pq), `C05_stream_succeeds` (pq), `C05_stream_fails` (pq) |  |
| C06 | Appended lines are addressable through the index arrays | partial | Load | `C06_refuted` (pcq), `C06_append_index_partial` (pcq) | The code violates the property (C06_refuted: appended lines get 1-based indices). Proved: exactly which entry each appended line gets. |
| C07 | prepend_to_layer inserts exactly the commands, in order, at the start of the layer | proved | Edit | `C07_prepend` (pcq), `C07_prepend_empty` (pcq), `C07_prepend_write` (pcq), `C07_C08_reachable` (pq) |  |
| C08 | rewrite_layer replaces exactly one layer | proved | Edit | `C08_rewrite` (pcq), `C08_rewrite_empty` (pcq), `C07_C08_reachable` (pq) |  |
| C09 | A trailing ; comment never changes what a line means | proved | Lex | `C09_semicolon_line` (pcq), `C09_semicolon_load` (pcq) |  |
| C10 | A parenthesised comment never changes what a line means | proved | Lex | `C10_paren_line` (pcq), `C10_paren_load` (pcq), `C10_before_command_refuted` (p) | Proved for comments after the command word, as stated. C10_before_command_refuted shows that the condition is needed. |
| C11 | Lower and upper case spell the same program | proved | Lex | `C11_case_line` (pcq), `C11_case_load_partial` (pcq), `C11_duration_refuted` (pcq) | Command, coordinates, position and machine state for every line; whole-program theorem for lines without the letter P. C11_duration_refuted records that the duration estimate alone depends on case (dwell P). |
| C12 | Formatting a line and parsing it back gives an equal line | proved | Format | `C12_unsplit_parse` (pcq), `C12_unsplit_stable` (pcq) |  |
| C13 | Line comparison is reflexive, symmetric and bounded by the tolerance | proved | Format | `C13_eq_iff` (pq), `C13_refl` (pcq), `C13_symm` (pq), `C13_ne` (pq) |  |
| C14 | Line comparison is an equivalence | partial | Format | `C14_refuted` (pcq), `C14_chain_partial` (pcq) | False of the code (C14_refuted). Proved: drift of a chain of n equal lines is at most n tolerances. |
| C15 | Program comparison is exact about length and symmetric | partial | Compare | `C15_eq_iff_partial` (pcq), `C15_same_length_partial` (pcq), `C15_both_directions` (pcq), `C15_refuted` (pcq), `C15_refl` (pcq) | False of the code (C15_refuted). Proved: the exact condition the code decides, exactness for equal lengths, and exactness when compared in both directions. |
| C16 | Program comparison ignores comments and layer boundaries | proved | Compare | `C16_comments_ignored` (pq), `C16_layers_ignored` (pq) |  |
| C17 | diff reports a difference exactly when the programs compare unequal | proved | Compare | `C17_diff_none_iff` (pq), `C17_diff_meaning` (pq) |  |
| C18 | Light programs can be compared | partial | Compare | `C18_all_light_equal` (pcq), `C18_refuted` (pcq) | False of the code (C18_refuted; C18_all_light_equal shows that all loaded light programs compare equal). Nothing positive remains to be proved. |
| C19 | Head position tracking follows the G-code semantics | partial | Machine | `C19_position_partial` (pcq), `C19_homing_refuted` (pcq), `C19_comment_refuted` (pcq) | Proved for every program whose commands come before comments and whose G28 lines name no axis or give a nonzero number; C19_homing_refuted and C19_comment_refuted show that the claim is false outside this. |
| C20 | G92 does not move the head and makes the given coordinate the current one | proved | Machine | `C20_set_position` (pcq), `C20_absolute_move` (pcq) |  |
| C21 | Unit switching scales exactly the coordinates read in inches | proved | Machine | `C21_units` (pcq), `C21_inch_program` (pcq) |  |
| C22 | Filament accounting | partial | Machine | `C22_filament_partial` (pcq), `C22_refuted` (pcq) | Proved while the last G92 E word is half the true filament position (in particular G92 E0 at the start) or extrusion is relative. C22_refuted: false for the usual G92 E0 between absolute extrusions. |
| C23 | The X/Y bounding box is tight | proved | Analysis | `C23_bounding_box` (pq) |  |
| C24 | The Z range covers the printed layers and the bed | proved | Analysis, Height | `C24_heights` (pcq), `C24_recorded` (pcq) |  |
| C25 | Duration estimate never divides by zero and is non-negative for non-negative feed rates | proved | Analysis | `C25_duration_sum` (pq), `C25_duration_nonneg` (pcq) |  |
| C26 | Loading fails only on malformed words | proved | Analysis | `C26_errors` (pq), `C26_value_error` (pcq), `C26_loads` (pcq) |  |
| C27 | Translation moves every absolute move by exactly the requested amount | partial | Filter | `C27_translation_partial` (pq), `C27_targets_partial` (pq), `C27_written_partial` (pcq), `C27_unstated_refuted` (pcq), `C27_g92_refuted` (pcq), `C27_inch_refuted` (pcq) | Proved (exactly on argument values, within 0.0005 mm on written texts) for the class of programs described by Spec.TrackSt; C27_unstated_refuted, C27_g92_refuted and C27_inch_refuted show that the claim is false outside it. |
| C28 | Translation is safe around G92 E0 | partial | Filter | `C28_refuted` (pcq), `C28_z_partial` (pq) | False of the code (C28_refuted). Proved for G92 lines that name Z. |
| C29 | Translation touches only X and Y words of moves and G92 lines | proved | Filter | `C29_scope` (pq) |  |
| C30 | Translations compose and cancel | proved | Filter | `C30_compose` (pq), `C30_cancel` (pq), `C30_zero` (pq) |  |
| C31 | Relative-extrusion conversion preserves the filament pushed by every move | partial | RelExt | `C31_conversion_partial` (pq), `C31_unstated_refuted` (pcq), `C31_return_refuted` (pcq), `C31_g90_refuted` (pcq) | Proved for the class of programs described by Spec.EModeSt; C31_unstated_refuted, C31_return_refuted and C31_g90_refuted show that the claim is false outside it. |
| C32 | The converted program never switches back to absolute extrusion | proved | RelExt | `C32_scope` (pq) |  |
| C33 | Relative-extrusion conversion is idempotent | partial | RelExt | `C33_idempotent_partial` (pq), `C33_refuted` (pcq) | Proved for programs that state the extrusion mode before the first E move; C33_refuted shows that the claim is false otherwise. |
| C34 | Written relative extrusion stays close to the original | proved | RelExt | `C34_total` (pcq), `C34_written_partial` (pcq) | C34_total: every program. C34_written_partial adds what a printer does with the texts, for loaded millimetre programs in the class of C31. |
| C35 | A filter that returns None changes nothing; results are spliced in place | proved | RelExt | `C35_splice` (pq), `C35_flat` (pq), `C35_keep` (pq) |  |
| C36 | The iterator visits every line exactly once, in order | proved | Visit | `C36_walk` (pcq), `C36_record` (pcq), `C36_changing` (pcq), `C36_lines` (pcq) |  |
| C37 | layer_index identifies the layer being visited | partial | Visit | `C37_refuted` (pcq), `C37_partial` (pcq) | False of the code (C37_refuted). Proved: exactly when the index is right. |
| C38 | Pausing at a layer inserts exactly one pause at its start and nothing else | partial | Visit | `C38_refuted` (pcq), `C38_count_partial` (pcq), `C38_exact_partial` (pcq), `C38_restore_partial` (pcq) | False of the code (C38_refuted). Proved for loaded programs with known heights: exact effect when no two layers look alike (and for all light programs); for all others, only pauses are added, as many as required. |
| C39 | Walking a loaded program with PauseAtLayer never raises | partial | Visit | `C39_refuted` (pcq), `C39_same_line_refuted` (pcq), `C39_partial` (pcq), `C39_height_first_partial` (pcq) | False of the code (C39_refuted). Proved: exactly when it raises, and that it does not when the height is given before extrusion starts. |
| C40 | Printed layer numbers follow height | proved | Visit | `C40_numbers` (pcq) |  |
| C41 | Temperature commands stay inside the safety range | proved | TempCal | `C41_C42_any` (pcq) |  |
| C42 | Temperature calibration only inserts lines | proved | Cli, TempCal | `C42_base` (pq), `C41_C42_any` (pcq), `C42_removal` (pcq) |  |
| C43 | No redundant temperature command | partial | TempCal | `C43_refuted` (pcq), `C43_range_partial` (pcq), `C43_targets_partial` (pcq) | False of the code (C43_refuted: an out-of-range target between). Proved for start and end temperatures in the safety range (C43_range_partial), and that consecutive inserted lines belong to different targets otherwise. |
| C44 | Continuous gradient interpolates and stays between start and end | proved | TempCal | `C44_interpolation` (pcq), `C44_program` (pcq) |  |
| C45 | Step gradient stays between start and end | partial | TempCal | `C45_refuted` (pcq), `C45_step_partial` (pcq) | False of the code for decreasing gradients (C45_refuted). Proved: exact for increasing gradients, at most one step below the end for decreasing ones. |
| C46 | Step gradient uses at most steps+1 distinct temperatures | partial | TempCal | `C46_refuted` (pcq), `C46_never_refuted` (pcq) | False of the code (C46_refuted, and C46_never_refuted for every number of steps). Nothing positive remains to be proved. |
| C47 | No temperature change at or below min_z_change | partial | TempCal | `C47_refuted` (pcq), `C47_first_above_partial` (pcq) | False of the code (C47_refuted). Proved when the first known height is above min_z_change. |
| C48 | A too-small model is rejected before anything is written | partial | TempCal | `C48_continuous` (pcq), `C48_step_partial` (pcq), `C48_steps_refuted` (pcq) | Proved for the continuous gradient and for all numbers of steps other than 0 and -1, where C48_steps_refuted shows the division by zero. |
| C49 | Arc optimisation only replaces windows of moves | proved | Arc | `C49_any_test` (pcq), `C49_C51_C52_replacement` (pcq), `C49_reused` (pcq) |  |
| C50 | Commands other than moves survive arc optimisation | proved | Arc | `C50_other_commands` (pcq) |  |
| C51 | A replaced window really lies on the emitted circle | proved | Arc, ArcGeometry | `C49_C51_C52_replacement` (pcq), `C51_extruding_moves` (pcq) |  |
| C52 | The emitted arc ends where the replaced window ended | proved | Arc, ArcGeometry | `C49_C51_C52_replacement` (pcq), `C52_direction` (pcq) |  |
| C53 | An arc pushes forward the filament of its segments | partial | ArcGeometry, ArcRelative | `C53_refuted` (pcq), `C53_absolute_partial` (pcq), `C53_relative_partial` (pcq), `C53_excess_partial` (pcq) | False of the code for clockwise arcs with absolute extrusion (C53_refuted; C53_absolute_partial shows that every such arc retracts). Proved: absolute counter-clockwise arcs push forward; relative arcs push at least the sum of the replaced E words, at most pi/2 times it, and at most 4 per cent more if no move turns by more than 50 degrees (C53_excess_partial). |
| C54 | Arc optimisation never fails on a valid program | partial | Arc, ArcSafe | `C54_refuted` (pcq), `C54_short_partial` (pcq), `C54_refuted_straight` (pcq), `C54_refuted_prime` (pcq), `C54_refuted_travel` (pcq), `C54_safe_partial` (pcq) | False of the code: a comment before eight extruding moves, nine extruding moves on a slanted line or in one place, ten travel moves on an arc (C54_refuted, C54_refuted_straight, C54_refuted_prime, C54_refuted_travel). Proved for programs without a run of moves long enough to be queued (C54_short_partial) and, with real functions, for programs whose long runs avoid these situations (C54_safe_partial). Floating point overflow is not modelled. |
| C55 | Arc optimisation preserves the Z height of every retained move | partial | ArcGeometry, ArcHeight | `C55_refuted` (pcq), `C55_height_partial` (pcq), `C55_level_partial` (pcq) | False of the code (C55_refuted: Z word on a replaced move). Proved, by following two printers through the whole program, when no line has both an E and a Z word, and more generally when runs of extruding moves on an arc stay at their height (C55_level_partial). |
| C56 | An arc filter object can be reused | partial | Arc | `C56_refuted` (pcq), `C56_nothing_pending_partial` (pq) | False of the code (C56_refuted). Proved when nothing is pending after the first program. |
| C57 | Least-squares fit recovers exact circles | proved | ArcGeometry | `C57_fit` (pcq), `C57_degenerate` (pcq), `C57_accepted` (pcq) |  |
| C58 | Stretching moves a point by at most the configured amount | proved | Stretch | `C58_bound` (pcq), `C58_bound_real` (pcq) | for a move naming one axis the other coordinate of the target is the last one named inside a loop, see C63; square root with relative error eps, exact for C58_bound_real |
| C59 | Stretching touches only X/Y-carrying linear moves inside loops | proved | Stretch | `C59_scope` (pcq) |  |
| C60 | Stretched lines keep command and Z, and scale E by a factor in [1-max,1] | proved | Stretch | `C60_words` (pcq) |  |
| C61 | Zero stretch strength is the identity | proved | Stretch | `C61_zero` (pcq) |  |
| C62 | Stretching keeps the feed rate in force | partial | Stretch | `C62_refuted` (pcq), `C62_feed` (pcq), `C62_feed_partial` (pcq) | refuted: F959 or an old loop feed is written when the feed was set outside loops; partial covers feeds set by a loop move |
| C63 | Stretching starts from the real position for one-axis moves | partial | Stretch | `C63_refuted` (pcq), `C63_x_partial` (pcq), `C63_y_partial` (pcq) | refuted for the first one-axis moves after a travel; partial covers moves after a loop move that named the axis |
| C64 | Stretching terminates | partial | CuraEnds, CuraHang, CuraWalk, SkeinHang, SlicEnds, StretchWalk | `C64_cura_loaded_partial` (pcq), `C64_cura_refuted` (pcq), `C64_cura_forward_partial` (pcq), `C64_cura_backward_partial` (pcq), `C64_cura_whole_partial` (pcq), `C64_skeinforge_refuted` (pcq), `C64_slic3r_loaded_partial` (pcq), `C64_cura_partial` (pcq), `C64_slic3r_forward_partial` (pq), `C64_skeinforge_forward_partial` (pq), `C64_backward_partial` (pcq), `C64_refuted` (pcq) | False of the Slic3r filter (C64_refuted: it never ends on a six line program), of the Skeinforge filter (C64_skeinforge_refuted: an edge of one short move) and of the Cura filter (C64_cura_refuted: it never ends on an eight line program, although each step ends). Proved: get_next of the Cura filter always answers; get_next of the Slic3r and Skeinforge filters answers if points lie between the marks. The whole Cura filter ends on programs whose loops begin and end with X/Y moves (C64_cura_whole_partial, C64_cura_loaded_partial). So does the whole Slic3r filter if also points lie between the marks (C64_slic3r_loaded_partial). Missing: a condition under which the whole Skeinforge filter ends. |
| C65 | The Cura walk never leaves the layer | partial | StretchWalk | `C65_partial` (pcq), `C65_refuted` (pcq) | False of the code (C65_refuted: a wall of one move at the end of a layer). Proved for programs in which no layer ends with an X/Y move. |
| C66 | Loop annotation only appends comments | partial | Stretch | `C66_annotation` (pq), `C66_printer_partial` (pcq), `C66_parse_partial` (pcq), `C66_program_partial` (pcq), `C66_refuted` (pcq) | annotation proved in full; a mark behind a comment in nested parentheses turns it into a command (refuted), otherwise the meaning is kept |
| C67 | Cura loops are bracketed and never cross a layer | partial | StretchWalk | `C67_bracketed` (pcq), `C67_layers_partial` (pcq), `C67_layers_refuted` (pcq) | Every opened loop has a closing mark in its layer (C67_bracketed). That no loop reaches into the next layer is false of the code (C67_layers_refuted) and proved if comments that announce loops are followed by two other lines. |
| C68 | In-place arc optimisation and the stretch plugin keep the file if processing fails | proved | Cli | `C68_inplace` (pq), `C68_missing` (p), `C68_stretch` (pq) |  |
| C69 | The temperature plugin keeps the file if processing fails | partial | Cli | `C69_refuted` (pcq), `C69_load_partial` (pq), `C69_emptied` (pcq) | False of the code (C69_refuted; C69_emptied: on every too flat program and with zero steps). Proved: a file that cannot be parsed is kept, other files never change. |
| C70 | gcode_mod without options is the identity | partial | Cli | `C70_identity_partial` (pcq), `C70_refuted` (pcq) | False of the code for programs that extrude before naming a height (C70_refuted). Proved for all others. |
| C71 | Vector3 algebra | proved | Vector3 | `C71_space` (pq), `C71_products` (pcq), `C71_distance` (pcq), `C71_reflect` (pcq), `C71_normalize` (pcq), `C71_normalize_real` (pcq), `C71_bounds` (pq), `C71_inplace` (pcq), `C71_equality` (pcq), `C71_dropAxis` (pq) |  |
| C72 | Arc optimisation leaves the head where the original program leaves it | partial | ArcGeometry | `C72_refuted` (pcq), `C72_position_partial` (pcq) | False of the code after G92 on X or Y (C72_refuted). Proved, by following two printers, for programs without G91 and without G92 on X/Y: within 0.0005 mm at every retained line and every window end. |
| C73 | Stretching uses the edge width the slicer states | proved | Stretch | `C73_width` (pcq) |  |
| C74 | Naming the input file as the output file is safe | partial | Cli | `C74_other_file` (pq), `C74_same_file_refuted` (pq) | False of the code (C74_same_file_refuted). Proved for every output other than the input, including standard output. |
| C75 | --steps sets the number of temperature steps | partial | Cli | `C75_refuted` (pq), `C75_partial` (pq), `C75_plugin_partial` (pq) | False of the code for every number of steps and every program that can be parsed (C75_refuted). Proved: the default and --continuous. |
| C76 | A line is read as its words, numbers and comments | proved | Grammar | `C76_unique` (pcq), `C76_command` (pcq), `C76_arguments` (pcq), `C76_letter` (pcq), `C76_line` (pcq), `C76_number` (pcq) |  |
| C77 | Points of a loop are pushed away from their neighbours along the loop | proved | Neighbour | `C77_cura` (pcq), `C77_slic3r` (pcq), `C77_point` (pcq) |  |
| C78 | Points in the middle of straight edges stay | proved | Shape | `C78_straight` (pcq) |  |
| C79 | Convex corners are never pulled inward | partial | Shape | `C79_corner_partial` (pcq), `C79_short_partial` (pcq), `C79_refuted` (pcq) | False of the code (C79_refuted: an obtuse corner between long edges is pulled inward). Proved for corners of at most ninety degrees with edges at least as long as the stretch distance, and for all corners with edges of at most a third of the cross limit. |
| C80 | Closed loops stay closed | partial | Shape | `C80_slic3r_partial` (pcq), `C80_slic3r_refuted` (pcq), `C80_cura_refuted` (pcq) | False of the code for Cura walls (C80_cura_refuted) and for the second Slic3r perimeter of a layer (C80_slic3r_refuted). Proved for Slic3r perimeters at whose start extrusion does not end. |
| C81 | Layers are the runs of lines at one height | partial | Height | `C81_layers_partial` (pcq), `C81_apart_partial` (pcq), `C81_refuted` (pcq) | False of the code for heights closer than a hundredth of a millimetre (C81_refuted). Proved for programs whose heights are whole hundredths (recorded heights exact) and for programs whose heights change by at least 0.015 mm at a time (recorded to within 0.005 mm). |
| C82 | Exactly the announced loops are displaced | partial | Announce | `C82_announced_partial` (pcq), `C82_refuted_support` (pcq), `C82_refuted_last` (pcq), `C82_refuted_drift` (pcq) | False of the code in general: for Cura a support after a wall is displaced (C82_refuted_support) and a wall move that ends a layer is not (C82_refuted_last); for Slic3r a perimeter that ends a layer makes the next layer be displaced (C82_refuted_drift). Proved for layers with known, spaced announcements that do not end with an X/Y move (Cura), layers that do not end inside a perimeter (Slic3r), and all Skeinforge programs. |
| C83 | Arc optimisation keeps the feed rate | partial | ArcCount | `C83_refuted` (pcq), `C83_feed_partial` (pcq) | False of the code for a printer that has a feed rate before a program without F words (C83_refuted: the arc gets F0.000). Proved for printers without feed rate at the start and for programs with an F word before or at every move with an E word. |
| C84 | Arc optimisation keeps the extruder coordinate | partial | ArcBehind, ArcCount | `C84_refuted_short` (pcq), `C84_behind_partial` (pcq), `C84_refuted_clockwise` (pcq), `C84_refuted_offset` (pcq), `C84_count_partial` (pcq) | False of the code after clockwise arcs (C84_refuted_clockwise) and after G92 with an E other than 0 (C84_refuted_offset). Proved for programs with absolute extrusion that set E only to 0: equality after every retained E word, and an excess of at most one per cent after a window. That the arc may be more than one per cent short is C84_refuted_short; by how much at most, for counter-clockwise arcs with the real functions, is C84_behind_partial. |
| C85 | Loading reports every line and every layer to the callbacks | partial | Callback | `C85_same_program` (pq), `C85_reports_partial` (pcq), `C85_light_partial` (pcq), `C85_lines` (pcq), `C85_last_refuted` (pcq), `C85_failure` (pq) | False of the code for the layer of the last line: it is never announced (C85_last_refuted, for every program). Proved: same program, every line, every other layer, also when loading fails. |
| C86 | Temperature towers and pauses do not change the motion | proved | Heater | `C86_tower` (pcq), `C86_pause` (pcq) |  |
| C87 | Every layer of a tower is printed at the temperature of its height | partial | Heater | `C87_temperature_partial` (pcq), `C87_refuted` (pcq) | False of the code for programs with temperature commands of their own (C87_refuted). Proved for programs without. |
| C88 | Translation and conversion to relative extrusion can be applied in either order | partial | Commute | `C88_commute_partial` (pq), `C88_both_partial` (pq), `C88_refuted` (pcq) | False of the code for G92 lines without X, Y, Z and E (C88_refuted). Proved for programs without such lines. |
| C89 | Light programs carry the same analysis as full programs | proved | Light | `C89_load` (pq), `C89_write` (pq), `C89_append` (pq) |  |
| C90 | The duration estimate is bounded by the path and the speeds | partial | Duration | `C90_lower_partial` (pcq), `C90_upper_partial` (pcq), `C90_refuted` (pcq) | False of the code for relative coordinates, arcs, programs without feed rate, and (from above) after the extruder is reset (C90_refuted). Proved for programs in absolute coordinates with feed rates, without arcs and re-labelling. |
| C91 | A printer following the stretched program stays beside the original and pushes slightly less filament | partial | StretchTrack | `C91_filter_partial` (pcq), `C91_tool_partial` (pcq), `C91_refuted_absolute` (pcq), `C91_refuted_axis` (pcq) | False of the code for moves that name one axis (C91_refuted_axis) and for a filter applied to absolute extrusion (C91_refuted_absolute). Proved for programs in millimetres and absolute coordinates without G92 on X, Y, Z whose X/Y moves (in loops) name both axes, through the whole command line for the extrusion class of C31. |
| C92 | gcode_stretch displaces the loops that the slicer announces | partial | StretchTool | `C92_cura_partial` (pcq), `C92_slic3r_partial` (pcq), `C92_refuted_absolute` (pcq) | False of the code for Slic3r programs with absolute extrusion: the conversion removes the perimeter comments, and nothing is ever displaced (C92_refuted_absolute, for all such programs). Proved for Cura programs and for Slic3r programs with relative extrusion, within the limits of C82. |
| C93 | Iterating over a filtered program gives the lines that are written | partial | Alias | `C93_translate` (pq), `C93_relative_partial` (pq), `C93_refuted_relative` (pcq), `C93_stretch_partial` (pcq), `C93_refuted_stretch` (pcq), `C93_refuted_arcs` (pcq) | Proved for translation. False of the code for relative extrusion when the program has an M82 line (C93_refuted_relative; proved to be exactly the programs where it fails), for stretching, where iteration shows the original moves (C93_stretch_partial, C93_refuted_stretch), and for arcs (C93_refuted_arcs). |
| C94 | gcode_mod: all options together, as a printer sees the output | partial | Mod | `C94_mod_partial` (pcq), `C94_raises` (pcq) | Proved for programs in millimetres, with the conditions of C27 (no G92, stated mode) when -x or -y is given and of C31 when -e is given; outside those classes the filters themselves are wrong (C27_*_refuted, C31_*_refuted). Success and failure are characterised for all programs (C94_raises). |
| C95 | An arc turns the way the replaced moves turn | partial | ArcPath | `C95_refuted` (pcq), `C95_way_partial` (pcq) | False of the code: a run that first goes one way and then back ends up as an almost full circle (C95_refuted). Proved, with real square root and phase, for runs that go one way round and at most one turn; clockwise moves below a quarter turn. |
| C96 | The arc stays beside the moves it replaces | partial | ArcPath | `C96_refuted` (pcq), `C96_uneven_refuted` (pcq), `C96_path_partial` (pcq) | False of the code in the sense of the 0.015 mm tolerance: an octagon becomes a circle (C96_refuted), and clockwise steps need not be even (C96_uneven_refuted). Proved, with real square root and phase, with the bound 0.015 mm + r(1 - cos 25 degrees) for counter-clockwise runs and in terms of the largest step for clockwise ones; at most one turn; before rounding of the written numbers. |
| C97 | A regular run of extruding moves on a circle is replaced by its arc | proved | ArcFound | `C97_found` (pcq), `C97_last` (pcq) |  |
| C98 | Line numbers and checksums never change what a line means | proved | Framing | `C98_line` (pcq), `C98_load` (pcq), `C98_twice_refuted` (p), `C98_filters_refuted` (pcq) | Proved for texts that begin with a word, as stated; C98_twice_refuted shows that the condition is needed, C98_filters_refuted that filtered output is numbered in part only. |
| C99 | Spacing and the order of words never change what a line means | proved | Words | `C99_line` (pcq), `C99_load` (pcq), `C99_order` (pq), `C99_repeated_refuted` (pcq), `C99_inside_refuted` (pcq) | C99_repeated_refuted and C99_inside_refuted show that the conditions are needed. |
| C100 | Generated arcs have matching radii at start and end | partial | ArcRadius | `C100_radii_partial` (pcq), `C100_refuted` (pcq) | False of the code in the sense of the usual controller rule (radii within 0.005 mm or 0.1 per cent): C100_refuted, a 2 mm arc with radii 2.013 and 1.987. Proved with the bound 0.034 mm that follows from the tolerance of the fit, for absolute programs without G92 on X or Y and arcs that start at a move. |
| C101 | Stretching does not depend on where on the bed the object lies | partial | Elsewhere | `C101_elsewhere_partial` (pcq), `C101_one_axis_refuted` (pcq) | Proved when every X/Y move names both axes. False otherwise: C101_one_axis_refuted, the first wall move with X only is sent to the Y of the origin. |
| C102 | Comments, blank lines and commands that are not about motion never change the analysis | proved | Bystander | `C102_bystanders` (pcq), `C102_errors` (pcq) |  |
| C103 | An object at another place of the bed has the same analysis, with its bounding box moved | partial | Placed, PlacedTime | `C103_placed_partial` (pcq), `C103_prime_refuted` (pcq), `C103_duration_refuted` (pcq), `C103_times_partial` (pcq) | Proved, except for the duration, for programs that go to their place by an absolute move before they extrude and then neither home, nor use arcs or relative coordinates, nor re-label X or Y; limits only if filament is used. False outside: C103_prime_refuted (priming before the first X/Y move puts the origin into the box), C103_duration_refuted (the way from the origin counts). Of the duration it is proved that every line takes the same time at both places, except the first X/Y move and the first linear move after it, and so do all layers after these (C103_times_partial). |
| C104 | Comments, travel moves and retractions survive arc optimisation | proved | Survive | `C104_only_drawing` (pcq), `C104_unfed` (pcq) |  |
| C105 | Arcs that are already in the program survive arc optimisation | partial | Survive | `C105_refuted` (pcq), `C105_curves_partial` (pcq) | False in general (C105_refuted: nine extruding half circles whose ends lie on a circle become one arc along that circle); proved for programs in which eight or more extruding moves in a row are never circular, and, by C104, for arcs without E word. |
| C106 | Writing the same temperature tower twice gives the same program | partial | Repeat | `C106_refuted` (pcq), `C106_repeat_partial` (pcq) | False in general (C106_refuted: with equal start and end temperature the second output has no temperature command); proved otherwise up to one line: the second and all later outputs are the first one, or lack a single command for the temperature that was set last. |
| C107 | Filters can be applied one after the other to the same program | partial | ArcRelative, Chain | `C107_relative_first_partial` (pcq), `C107_refuted` (pcq), `C107_correction_refuted` (pcq), `C107_arcs_first_partial` (pq) | Refuted for optimising after translating (the arc goes to the place before the translation) and for translating an optimised program with a G92 E correction (C107_refuted, C107_correction_refuted). Proved for arc optimisation first, then translation and conversion, for programs in the classes of C27 and C31. Conversion to relative extrusion before arc optimisation: C107_relative_first_partial (windows of extruding moves, every arc pushes forward by what it replaces), programs without M83. |
| C108 | Arc optimisation finds the same arcs at another place of the bed | partial | ArcElsewhere | `C108_elsewhere_partial` (pcq), `C108_refuted` (pcq) | C108_elsewhere_partial: same outcome and corresponding lines at both places, when a command that is no move (or nothing) precedes the move to the place, and the program neither homes, sets X/Y nor moves relatively afterwards; both programs assumed to load. C108_refuted: without that command the origin is taken for the start of an arc. |
| C109 | Arcs found do not depend on the extrusion mode | partial | Converted | `C109_refuted` (pcq), `C109_same_arcs_partial` (pcq) | False of the code when the extruder coordinate is reset between moves (C109_refuted: an arc after G92 E0 and a travel move is found only after conversion). Proved for programs with absolute extrusion whose extruder coordinate is not set after the first E word of a move (C109_same_arcs_partial); the converted program may fail with a division by zero where the original does not. |
| C110 | A written program compares equal to the one in memory | partial | Saved | `C110_written_partial` (pcq), `C110_readable_partial` (pcq), `C110_stable_partial` (pcq), `C110_refuted` (pcq) | Refuted for programs in inches, for moves inserted as commands, and for tiny feed rates of opposite sign (C110_refuted). Proved for programs without G20, for every sequence of passes of the four filters: the written text compares equal or its loading divides by zero (C110_written_partial), and it loads when no feed rate and no waiting time is negative (C110_readable_partial). |
| C111 | A filter object can be used for several programs | partial | Reuse | `C111_translate_partial` (pq), `C111_relative_partial` (pq), `C111_arcs_partial` (pq), `C111_refuted` (pcq) | False in general for each of the three filters (C111_refuted). Proved for lists of programs of any length: translation, if all but the last have no G92 and all but the first say G90 or G91 before they move; relative extrusion, if all but the first say M82 or M83 and set E before they extrude; arcs, if all but the last end in a command other than a move. |
| C112 | Bounding box of a translated program | partial | Shown | `C112_box_partial` (pcq), `C112_refuted` (pcq), `C112_stale` (pq) | Refuted for programs that push filament before the first X/Y move, for traces of filament that vanish in the written text, after a G92 and for programs that do not state their distance mode (C112_refuted). Proved for the others (C112_box_partial); the program in memory keeps the old box (C112_stale). |
| C113 | Report about a file | partial | Report | `C113_report` (pcq), `C113_errors` (pq), `C113_extent` (pcq), `C113_clock_unique` (pq), `C113_extent_refuted` (pcq), `C113_layers_refuted` (pcq) | The report, its errors and the recoverability of the duration are proved for all files (C113_report, C113_errors, C113_clock_unique). The last sentence is refuted (C113_extent_refuted: limits 0.00 and 0.02 with extent 0.01; C113_layers_refuted: priming before the first height counts as a layer); the printed extent is within a hundredth of the difference of the printed limits (C113_extent). |
| C114 | Converting to relative extrusion keeps the analysis | partial | Measured | `C114_analysis_partial` (pcq), `C114_reset_refuted` (pcq), `C114_mode_refuted` (pcq), `C114_arc_refuted` (pcq) | C114_analysis_partial: converting, writing and reloading succeeds and keeps filament, box, heights, layer height, layers and line counts, and the durations if no arc has an E word, for the stated class. Missing: programs outside the class, where the claim is false: C114_reset_refuted (G92 E0 between extrusions), C114_mode_refuted (G90 after M82), C114_arc_refuted (durations). |
| C115 | Pauses can be added one run after another | proved | Pauses | `C115_runs` (pcq), `C115_order` (pcq), `C115_one_run` (pcq), `C115_tool` (pcq) |  |
| C116 | Translations made by several runs of the tool add up | partial | Runs | `C116_moves_partial` (pcq), `C116_one_run_partial` (pcq), `C116_text_refuted` (pcq) | The positions are proved for the stated class of programs (C116_moves_partial) and the equality of the texts for short numbers and amounts that do not cancel (C116_one_run_partial). Missing: programs outside the class, where one run already goes wrong (C27_g92_refuted), and equality of texts in general, which is false: C116_text_refuted (0.0004 twice moves nothing, 0.0008 once moves by 0.001; there and back drops comments). |
| C117 | The layout of a file does not matter | proved | Layout | `C117_load` (pq), `C117_endings` (pq), `C117_filters` (pq), `C117_in_place` (pq), `C117_tempcal_report` (pq), `C117_empty_refuted` (pcq) |  |
| C118 | Stretching a Cura file uses the nozzle size of its profile | partial | Profile | `C118_profile_partial` (pcq), `C118_width_partial` (pcq), `C118_python3` (pcq), `C118_refuted` (pcq) | Proved for Python 2, for every decoder and every profile text (C118_profile_partial, C118_width_partial). Under Python 3 the claim is false: every file with a profile comment is rejected (C118_python3, C118_refuted). base64, zlib and float(text) are parameters. |
| C119 | Filters applied to light programs do their work or raise | partial | LightFilter | `C119_silent` (pq), `C119_arcs` (pcq), `C119_stretch` (pq), `C119_tower` (pq), `C119_refuted` (pcq) | False of the code for translation and conversion (C119_refuted; C119_silent: for every light program). Proved: arc optimisation, stretching and temperature gradients raise, with the exact conditions (C119_arcs, C119_stretch, C119_tower). Pauses in light programs are covered by C38. |
| C120 | The layer height of a program is the typical step of its first layers | proved | Spiral | `C120_layer_height` (pcq), `C120_unique` (pq), `C120_even` (pcq), `C120_heights` (pcq), `C120_near` (pcq) |  |
| C121 | A program that only rises has layers of rising heights | partial | Spiral | `C121_rising_partial` (pcq), `C121_no_estimate_partial` (pcq), `C121_refuted` (pcq) | Proved for programs whose heights change by at least 0.015 mm at a time (C121_rising_partial) and for programs in which no layer height had to be estimated (C121_no_estimate_partial; the last layer may be recorded up to 0.005 mm below the one before). False in general: the spiral of C121_refuted only rises and its layers are recorded at 0.7, 0.6, 0.82 and 0.8 mm, because a height close to the last one is replaced by a multiple of the layer height. |
| C122 | The layers of a program are determined by its changes of height, by a stated rule | proved | Spiral | `C122_layered` (pcq), `C122_complete` (pcq) |  |
| C123 | The layers of a program depend only on the heights it goes to | proved | Changes | `C123_heights` (pcq), `C123_insert` (pq) |  |
| C124 | A program object can be prepared again with another program | partial | Prepare | `C124_continues` (pq), `C124_text` (pcq), `C124_fresh_partial` (pq), `C124_refuted` (pcq), `C124_empty_refuted` (pcq) | The text is right for every pair of programs (C124_text). The analysis is that of the second program read behind the first one (C124_continues), so the claim is false in general (C124_refuted: filament and box; C124_empty_refuted: an empty second program keeps the analysis of the first). Proved when the first program leaves the machine state and the layer height as they were (C124_fresh_partial). |
| C125 | Commands can be followed without being stored | proved | Prepare | `C125_follow` (pcq), `C125_returned` (pq) |  |
| C126 | The displacement is proportional to the stretch strength | proved | Strength | `C126_strength` (pcq), `C126_strength_real` (pcq) |  |
| C127 | Arc optimisation works piece by piece, whatever the layers | proved | ArcPieces | `C127_layers` (pq), `C127_pieces` (pq), `C127_appended` (pcq), `C127_open_refuted` (pcq) |  |
| C128 | Arc optimisation and stretching keep the layers of a program | partial | KeptLayers | `C128_arcs_partial` (pcq), `C128_stretch_partial` (pcq), `C128_arcs_refuted` (pcq), `C128_stretch_refuted` (pcq) | False of the code in two corners (C128_arcs_refuted: a Z word on a replaced move is lost with its layer; C128_stretch_refuted: a mark behind a nested comment makes it a move). Proved for arcs when runs of extruding moves on an arc stay at their height (rising spirals included), and for stretching without nested comments and with heights of at most three decimals. |
| C129 | A stretched program that is written compares equal to the one in memory | partial | SavedStretch | `C129_written_partial` (pcq), `C129_readable_partial` (pcq), `C129_refuted` (pcq) | Refuted for programs with a line that has neither a word nor a comment (C129_refuted). Proved for programs without G20, without nested comments, all of whose lines have a word or a comment: the written text compares equal or its loading divides by zero (C129_written_partial), and it loads when no feed rate and no waiting time is negative (C129_readable_partial). |
| C130 | Which lines make up the time of a layer | proved | LayerTime | `C130_total` (pcq), `C130_layers` (pcq), `C130_refuted` (pcq), `C130_relative_refuted` (pcq) | The expectations named as failing are refuted by C130_refuted (time of its own lines) and C130_relative_refuted (relative coordinates). Loaded with ordinary (not light) lines: light lines do not keep their words. |
| C131 | A program in inches has the analysis of the same program in millimetres | proved | Inches | `C131_inches` (pcq) |  |
| C132 | A turned or mirrored program has the turned analysis | proved | Turned | `C132_turned` (pcq) |  |
| C133 | Arc optimisation treats all directions alike | partial | ArcTurned | `C133_lines_partial` (pcq), `C133_program_partial` (pcq), `C133_mirrored_refuted` (pcq) | Proved for turns by multiples of a right angle over the real numbers, unless a move in a window passes through the fitted centre; the mirror image of an uneven run is refuted (the angle test is one-sided). |
| C134 | Stretching treats all directions alike | proved | StretchTurned | `C134_turned` (pcq) |  |
| C135 | Standard input, pipes and line endings | proved | Stdin | `C135_named` (pq), `C135_stdin` (pq), `C135_inplace` (p), `C135_pipe` (pcq), `C135_conventions` (p), `C135_conventions_tools` (pq), `C135_translation` (pq), `C135_translation_tools` (pq), `C135_cr_refuted` (pcq) |  |
| C136 | Vectors of integers and floats in both versions of Python | partial | Vector3Num | `C136_division` (pcq), `C136_classic_partial` (pq), `C136_classic_refuted` (pcq), `C136_floor` (pcq), `C136_reverse` (pcq), `C136_inplace` (pq), `C136_normalize` (pq), `C136_equality` (pq), `C136_hash_partial` (pcq), `C136_hash_refuted` (pq), `C136_truth_partial` (pcq), `C136_truth_refuted` (pq), `C136_attributes` (pq), `C136_kinds` (pq) | Proved: division in Python 3 and, in Python 2, with a float divisor or float components; floor division, division by vectors, /=, normalizing, equality and attributes in full; hashes of vectors of the same kinds. False of the code: integer division in Python 2 (C136_classic_refuted), hashes of equal vectors of different kinds (C136_hash_refuted), the truth value in Python 3 (C136_truth_refuted). |
| C137 | Options in one run or in several | partial | OptionPause, OptionRuns | `C137_pause_first_partial` (pcq), `C137_pause_one_run_partial` (pcq), `C137_repeated_refuted` (pcq), `C137_runs_partial` (pcq), `C137_one_run_partial` (pcq), `C137_decimals_refuted` (pcq), `C137_pause_refuted` (pcq), `C137_order_refuted` (pcq) | Proved for programs in millimetres whose moves and G92 lines, and the amounts, have at most three decimals (five for E); for the order -e first if no G92 line is bare; for pauses inserted by a first run if the layers differ from each other before and after. False of the code otherwise: longer numbers (C137_decimals_refuted), bare G92 (C137_order_refuted), pauses in a later run (C137_pause_refuted), layers made equal by the conversion (C137_repeated_refuted). |
| C138 | Temperature towers of moved and of converted programs | partial | OptionTower, TowerAll | `C138_move_partial` (pcq), `C138_convert_partial` (pcq), `C138_in_range` (pcq), `C138_continuous_partial` (pcq), `C138_step_partial` (pcq), `C138_reset_refuted` (pcq), `C138_decimals_refuted` (pcq), `C138_range_refuted` (pcq), `C138_layers` (pcq), `C138_all_partial` (pcq) | Proved for programs in millimetres whose moves and G92 lines, and the amounts, have at most three decimals (five for E), for temperatures in the safety range; for the conversion if the extruder is not reset once it has extruded. False of the code otherwise: resets of the extruder (C138_reset_refuted), longer heights (C138_decimals_refuted), temperatures outside the range (C138_range_refuted). |
| C139 | The temperatures of a tower depend only on commands, heights and filament | proved | SameTower | `C139_same_temperatures` (pcq) |  |
| C140 | Layers and printing time of a moved file | partial | MovedTime | `C140_moved_partial` (pcq), `C140_reset_refuted` (pcq), `C140_relative_refuted` (pcq) | Proved (C140_moved_partial) for programs in absolute millimetres without G92 and without negative feed rates, whose first X/Y move names both axes and whose numbers (and the offsets) have at most three decimals (five for E). False of the code otherwise: after G92 E0 the moves are no longer displaced and the estimate counts a way that is not travelled (C140_reset_refuted); relative moves are left alone but the estimate takes their numbers for coordinates (C140_relative_refuted). |
| C141 | Higher feed rates never make the estimated time longer | partial | Quicker | `C141_partial` (pcq), `C141_unstated_refuted` (pcq) | Proved (C141_partial) for programs in which every linear move has a positive feed rate, its own or an earlier one. False of the code otherwise: moves before the first feed rate, or at feed rate 0, take no time at all (C141_unstated_refuted). |
| C142 | A tower or pauses do not change the analysis | proved | TowerTime | `C142_tower` (pcq), `C142_pauses` (pcq) |  |
| C143 | The beginning of a program is analysed the same way when the program goes on | partial | Cut | `C143_beginning` (pq), `C143_last_layer` (pq), `C143_errors` (pq), `C143_box_partial` (pq), `C143_time_partial` (pcq), `C143_height_refuted` (pcq), `C143_travel_refuted` (pcq), `C143_wait_refuted` (pcq) | Lines, finished layers, heights, filament and errors are proved for all files (C143_beginning, C143_last_layer, C143_errors); the time for files without negative feed rates and waiting times (C143_time_partial), the box if the beginning extrudes along a move (C143_box_partial). False of the code otherwise: C143_wait_refuted, C143_travel_refuted, and for the greatest height C143_height_refuted (a rise by 0.005 mm counts only at the end of a file). |
| C144 | The output for the beginning of a file is the beginning of the output | proved | CutTool | `C144_options` (pcq), `C144_text` (pcq), `C144_tower_refuted` (pcq) | C144_options (lines) and C144_text (texts), for all options. C144_tower_refuted shows that the same is not true of temperature towers. |
| C145 | Waiting times count in full, wherever they are | proved | Waits | `C145_waits` (pcq), `C145_seconds` (pcq) |  |
| C146 | How a layer is stretched does not depend on the layers above it | proved | LaterLayers | `C146_layers` (pcq), `C146_file` (pcq), `C146_width_refuted` (pcq), `C146_profile_refuted` (pcq) | Proved with the condition that is stated; C146_width_refuted and C146_profile_refuted show that the conditions are needed. |
| C147 | Stretching never divides by zero | proved | StretchErrors | `C147_errors` (pcq), `C147_default` (pcq), `C147_negative_refuted` (pcq) | Exact arithmetic; the square root may be any function. C147_negative_refuted shows that the bound on the strength is needed. |
