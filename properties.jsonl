{"id": "C01", "title": "Writing a loaded program reproduces it", "statement": "If GCode(lines) succeeds, then write() emits exactly the input lines, each stripped of surrounding whitespace and terminated by one newline, with blank lines removed, in the original order; nothing is added, lost, merged or reordered by the split into layers.", "quantifier": "every list of input lines on which loading does not raise", "why_tests_cant": "the layer-splitting loop has unboundedly many Z/extrusion histories; a test sees a few files", "anchors": ["gcodeutils/gcoder.py:GCode.prepare", "gcodeutils/gcoder.py:GCode._preprocess", "gcodeutils/gcoder.py:GCode.write"]}
{"id": "C02", "title": "Load / write is a fixed point", "statement": "Loading the text that write() produced, read back line by line, succeeds and yields a program with the same lines, layers, layer heights, indices, machine state, bounding box and duration; a second load/write cycle changes nothing.", "quantifier": "every list of newline-free input lines, at least one of them not blank, on which loading does not raise", "why_tests_cant": "quantifies over all programs and over the composition of two runs", "anchors": ["gcodeutils/gcoder.py:GCode.prepare", "gcodeutils/gcoder.py:GCode.write"]}
{"id": "C03", "title": "Layers partition the program and the index arrays address it", "statement": "After loading, concatenating all_layers gives lines; layer_idxs and line_idxs have one entry per line; and for each position i, all_layers[layer_idxs[i]][line_idxs[i]] is line i.", "quantifier": "every loadable program and every line position", "why_tests_cant": "an invariant of an unbounded loop with several interacting counters", "anchors": ["gcodeutils/gcoder.py:GCode._preprocess", "gcodeutils/gcoder.py:GCode.idxs", "gcodeutils/gcoder.py:GCode.__len__"]}
{"id": "C04", "title": "Layer numbering is contiguous and only the first and last layer can be empty", "statement": "After loading, layer_idxs is non-decreasing, starts at 0 or 1, increases by at most one from one line to the next, every layer strictly between the first and the append layer holds at least one line, and the last layer (the append layer, number append_layer_id) is empty.", "quantifier": "every loadable program", "why_tests_cant": "inductive invariant over all histories", "anchors": ["gcodeutils/gcoder.py:GCode._preprocess"]}
{"id": "C05", "title": "Streaming with append reaches the same machine state as loading", "statement": "Appending the remaining lines of a program one at a time to a GCode loaded with the first part leaves units, positioning and extrusion modes, tool, position, offsets, feed rate, extruder position, total and maximum extrusion exactly as loading the whole program at once would, and raises exactly when that does for a reason other than the duration estimate.", "quantifier": "every program and every split point", "why_tests_cant": "all splits of all programs", "anchors": ["gcodeutils/gcoder.py:GCode.append", "gcodeutils/gcoder.py:GCode._preprocess"]}
{"id": "C06", "title": "Appended lines are addressable through the index arrays", "statement": "After any sequence of append calls, all_layers[layer_idxs[i]][line_idxs[i]] is still line i for every i.", "quantifier": "every loadable program and every sequence of appended commands", "why_tests_cant": "needs all append histories; (the code violates it: appended lines get 1-based line indices)", "anchors": ["gcodeutils/gcoder.py:GCode.append", "gcodeutils/gcoder.py:GCode.idxs"]}
{"id": "C07", "title": "prepend_to_layer inserts exactly the commands, in order, at the start of the layer", "statement": "On a program whose indices are consistent, prepend_to_layer(commands, k) for a non-empty layer k makes layer k equal to the non-blank stripped commands in the given order followed by its old lines, leaves every other layer unchanged, keeps lines/layers/index arrays consistent, and returns the inserted commands; for a layer without lines it raises ValueError.", "quantifier": "every consistent program, layer and command list", "why_tests_cant": "insertion uses reverse order and shifting indices; correctness is an induction over the command list", "anchors": ["gcodeutils/gcoder.py:GCode.prepend_to_layer"]}
{"id": "C08", "title": "rewrite_layer replaces exactly one layer", "statement": "On a program whose indices are consistent, rewrite_layer(commands, k) for a non-empty layer k makes layer k equal to the non-blank stripped commands in the given order, leaves all other layers unchanged and keeps lines/layers/index arrays consistent.", "quantifier": "every consistent program, layer and command list", "why_tests_cant": "slice surgery on three parallel lists, for all sizes", "anchors": ["gcodeutils/gcoder.py:GCode.rewrite_layer"]}
{"id": "C09", "title": "A trailing ; comment never changes what a line means", "statement": "For a line without parentheses, slashes, stars, newlines or an earlier semicolon, appending ';' and any newline-free text leaves its parsed command and all its coordinates unchanged, provided the line had a command.", "quantifier": "every such line and every comment text", "why_tests_cant": "all strings", "anchors": ["gcodeutils/gcoder.py:gcode_exp", "gcodeutils/gcoder.py:split", "gcodeutils/gcoder.py:parse_coordinates"]}
{"id": "C10", "title": "A parenthesised comment never changes what a line means", "statement": "Inserting '(text)' with no parentheses inside, after the command word, between two complete tokens of a line leaves the command and the coordinates unchanged.", "quantifier": "every line and every comment text", "why_tests_cant": "all strings", "anchors": ["gcodeutils/gcoder.py:gcode_exp", "gcodeutils/gcoder.py:split", "gcodeutils/gcoder.py:parse_coordinates"]}
{"id": "C11", "title": "Lower and upper case spell the same program", "statement": "Changing the ASCII letter case of a line that parses as a command changes neither its command nor its coordinates.", "quantifier": "every line that yields at least one token", "why_tests_cant": "all strings", "anchors": ["gcodeutils/gcoder.py:split"]}
{"id": "C12", "title": "Formatting a line and parsing it back gives an equal line", "statement": "For a G command line, the text produced by unsplit parses back (raw_to_line then parse_coordinates) to the same command, the same set of present arguments, each value off by at most half a unit of the last printed digit (0.0005, or 0.000005 for E), hence to a line that compares equal under ==.", "quantifier": "every G-command word and all argument values", "why_tests_cant": "all real argument values and subsets of arguments", "anchors": ["gcodeutils/gcoder.py:unsplit", "gcodeutils/gcoder.py:split", "gcodeutils/gcoder.py:parse_coordinates", "gcodeutils/gcoder.py:PyLine.__eq__"]}
{"id": "C13", "title": "Line comparison is reflexive, symmetric and bounded by the tolerance", "statement": "line1 == line2 exactly when the commands are the same, the same arguments are present, and every present argument differs by at most EQ_EPSILON; hence == is reflexive and symmetric.", "quantifier": "all pairs of lines", "why_tests_cant": "all numeric values", "anchors": ["gcodeutils/gcoder.py:PyLine.__eq__", "gcodeutils/gcoder.py:PyLine.__ne__"]}
{"id": "C14", "title": "Line comparison is an equivalence", "statement": "If line1 == line2 and line2 == line3 then line1 == line3.", "quantifier": "all triples of lines", "why_tests_cant": "all numeric values; (violated: tolerance is not transitive; two steps stay within twice the tolerance)", "anchors": ["gcodeutils/gcoder.py:PyLine.__eq__"]}
{"id": "C15", "title": "Program comparison is exact about length and symmetric", "statement": "gcode1 == gcode2 exactly when both have the same number of meaningful (command-bearing) lines and these are pairwise equal; in particular == is symmetric.", "quantifier": "all pairs of programs", "why_tests_cant": "all lengths and contents; (violated: zip swallows one surplus line of the left operand)", "anchors": ["gcodeutils/gcoder.py:GCode.__eq__", "gcodeutils/gcoder.py:GCode.comment_stripper_generator"]}
{"id": "C16", "title": "Program comparison ignores comments and layer boundaries", "statement": "Whether gcode1 == gcode2 depends only on the two sequences of command-bearing lines: adding or removing comment-only lines or moving layer boundaries does not change the answer.", "quantifier": "all pairs of programs and all insertions of comment lines", "why_tests_cant": "all programs", "anchors": ["gcodeutils/gcoder.py:GCode.__eq__", "gcodeutils/gcoder.py:GCode.comment_stripper_generator"]}
{"id": "C17", "title": "diff reports a difference exactly when the programs compare unequal", "statement": "gcode1.diff(gcode2) is None iff gcode1 == gcode2, and when it reports 'First difference after n meaningful lines', the first n meaningful lines are pairwise equal and the next pair is not.", "quantifier": "all pairs of programs", "why_tests_cant": "all lengths and contents", "anchors": ["gcodeutils/gcoder.py:GCode.diff", "gcodeutils/gcoder.py:GCode.__eq__"]}
{"id": "C18", "title": "Light programs can be compared", "statement": "LightGCode(a) == LightGCode(b) holds only if the two programs have the same commands.", "quantifier": "all pairs of light programs", "why_tests_cant": "all programs; (violated: the light lines never get a command, so all light programs compare equal)", "anchors": ["gcodeutils/gcoder.py:LightGCode", "gcodeutils/gcoder.py:PyLightLine", "gcodeutils/gcoder.py:GCode._preprocess"]}
{"id": "C19", "title": "Head position tracking follows the G-code semantics", "statement": "After loading any program, current position and coordinate offsets agree with a reference printer: absolute moves go to offset+k, relative moves add, unspecified axes stay, G92 re-labels the current point without moving, G28 resets the homed axes (all if none is named) to home with zero offset.", "quantifier": "every loadable program", "why_tests_cant": "all command histories; (violated for G28 X0: naming an axis with value 0 homes all axes)", "anchors": ["gcodeutils/gcoder.py:GCode._preprocess"]}
{"id": "C20", "title": "G92 does not move the head and makes the given coordinate the current one", "statement": "G92 Xk (Yk, Zk) leaves the machine position unchanged and makes abs_x (abs_y, abs_z) equal k; axes not named keep their abs coordinate; and an absolute move to Xk makes abs_x equal k.", "quantifier": "every machine state and argument values", "why_tests_cant": "all states", "anchors": ["gcodeutils/gcoder.py:GCode._preprocess", "gcodeutils/gcoder.py:GCode.abs_x"]}
{"id": "C21", "title": "Unit switching scales exactly the coordinates read in inches", "statement": "Every coordinate word of a G line read while G20 is active is stored as 25.4 times its value, and after G21 (or initially) as its value; moves in an inch program reach the positions of the same program written in millimetres.", "quantifier": "every program", "why_tests_cant": "all histories of G20/G21", "anchors": ["gcodeutils/gcoder.py:GCode._preprocess", "gcodeutils/gcoder.py:parse_coordinates"]}
{"id": "C22", "title": "Filament accounting", "statement": "total_e is the net filament pushed by the program, max_e is its largest prefix value (at least 0), filament_length equals max_e, and a move is flagged extruding exactly when it pushes filament forward.", "quantifier": "every loadable program", "why_tests_cant": "all histories; (violated after G92 E: the extruder offset is set to the argument itself)", "anchors": ["gcodeutils/gcoder.py:GCode._preprocess"]}
{"id": "C23", "title": "The X/Y bounding box is tight", "statement": "If the program extrudes (filament_length>0) xmin..ymax are exactly the minimum/maximum machine coordinates at the end of its extruding moves (0 if there are none); otherwise exactly those over all its moves (0 if none); width and depth are the differences.", "quantifier": "every loadable program", "why_tests_cant": "all programs", "anchors": ["gcodeutils/gcoder.py:GCode._preprocess"]}
{"id": "C24", "title": "The Z range covers the printed layers and the bed", "statement": "zmin <= 0 <= zmax, every recorded printed height lies in [zmin, zmax], both bounds are 0 or recorded heights, and height = zmax - zmin >= 0. The recorded heights are exactly the heights at which a layer with extrusion ends, each once.", "quantifier": "every loadable program", "why_tests_cant": "all programs", "anchors": ["gcodeutils/gcoder.py:GCode._preprocess"]}
{"id": "C25", "title": "Duration estimate never divides by zero and is non-negative for non-negative feed rates", "statement": "If every F word is non-negative and every dwell is non-negative, the duration pass raises no ZeroDivisionError, every layer duration is >= 0, and the layer durations add up to the total.", "quantifier": "every program", "why_tests_cant": "all feed-rate histories; a negative F can crash it", "anchors": ["gcodeutils/gcoder.py:GCode._preprocess"]}
{"id": "C26", "title": "Loading fails only on malformed words", "statement": "Loading raises nothing but ValueError (a number word without digits, a tool number that is not an integer, a G4 P word without digits) or ZeroDivisionError (opposite feed rates); a program whose number words are all well formed and whose feed rates are non-negative always loads.", "quantifier": "every list of input lines", "why_tests_cant": "all strings", "anchors": ["gcodeutils/gcoder.py:GCode._preprocess", "gcodeutils/gcoder.py:parse_coordinates", "gcodeutils/gcoder.py:find_specific_code"]}
{"id": "C27", "title": "Translation moves every absolute move by exactly the requested amount", "statement": "After filtering with (x, y), the machine executes the same moves with every X target shifted by x and every Y target by y, Z and extrusion unchanged.", "quantifier": "every program and every offset", "why_tests_cant": "all programs; (violated for moves before the first G90/G91, after a G92 that follows a move, and in inch programs)", "anchors": ["gcodeutils/filter/translate.py:GCodeXYTranslateFilter.opcode_filter"]}
{"id": "C28", "title": "Translation is safe around G92 E0", "statement": "A 'G92 E..' extruder reset, which does not touch the X/Y coordinate system, leaves the translation in effect and the X/Y coordinate system alone.", "quantifier": "every program containing G92 without axis words", "why_tests_cant": "all programs; (violated: the filter adds X/Y words and stops translating)", "anchors": ["gcodeutils/filter/translate.py:GCodeXYTranslateFilter.opcode_filter"]}
{"id": "C29", "title": "Translation touches only X and Y words of moves and G92 lines", "statement": "Lines that are neither moves nor G92 come out identical; filtered moves keep command, Z, E, F, I, J and the presence of X and Y; the number of lines in each layer is unchanged.", "quantifier": "every program and offset", "why_tests_cant": "all programs", "anchors": ["gcodeutils/filter/translate.py:GCodeXYTranslateFilter.opcode_filter", "gcodeutils/filter/filter.py:GCodeFilter.parse_layer"]}
{"id": "C30", "title": "Translations compose and cancel", "statement": "On programs without G92, translating by (a,b) and then by (c,d) gives lines with the same argument values as translating by (a+c,b+d); translating by (a,b) then (-a,-b) restores all argument values.", "quantifier": "every G92-free program and all offsets", "why_tests_cant": "all programs and offsets", "anchors": ["gcodeutils/filter/translate.py:GCodeXYTranslateFilter.opcode_filter"]}
{"id": "C31", "title": "Relative-extrusion conversion preserves the filament pushed by every move", "statement": "Executing the converted program pushes, move by move, the same amount of filament as the original.", "quantifier": "every program", "why_tests_cant": "all histories of M82/M83/G92/moves; (violated without an explicit M82/M83 before the first E word and when returning to M82 after relative moves)", "anchors": ["gcodeutils/filter/relative_extrusion.py:GCodeToRelativeExtrusionFilter.opcode_filter"]}
{"id": "C32", "title": "The converted program never switches back to absolute extrusion", "statement": "No line of the converted program has command M82, and all other lines except E moves are unchanged; layers keep their line counts.", "quantifier": "every program", "why_tests_cant": "all programs", "anchors": ["gcodeutils/filter/relative_extrusion.py:GCodeToRelativeExtrusionFilter.opcode_filter"]}
{"id": "C33", "title": "Relative-extrusion conversion is idempotent", "statement": "Converting an already converted program changes nothing.", "quantifier": "every program", "why_tests_cant": "all programs; (violated when the program never states its extrusion mode)", "anchors": ["gcodeutils/filter/relative_extrusion.py:GCodeToRelativeExtrusionFilter.opcode_filter"]}
{"id": "C34", "title": "Written relative extrusion stays close to the original", "statement": "The total of the E words written for n converted moves differs from the exact total by at most n times 0.000005.", "quantifier": "every program and number of moves", "why_tests_cant": "error accumulates over unboundedly many moves", "anchors": ["gcodeutils/filter/relative_extrusion.py:GCodeToRelativeExtrusionFilter.opcode_filter", "gcodeutils/gcoder.py:unsplit"]}
{"id": "C35", "title": "A filter that returns None changes nothing; results are spliced in place", "statement": "parse_layer keeps a line whose filter result is None, replaces it by the one line or by the list of lines returned otherwise, in order, layer by layer; a filter that always returns None leaves the program identical.", "quantifier": "every filter function with state, every program", "why_tests_cant": "all filters and programs", "anchors": ["gcodeutils/filter/filter.py:GCodeFilter.parse_layer", "gcodeutils/filter/filter.py:GCodeFilter.parse_gcode"]}
{"id": "C36", "title": "The iterator visits every line exactly once, in order", "statement": "accept calls will_visit_layer and did_visit_layer once per layer in order, visit_line once per line in program order between them, with line numbers 0,1,2,...; a visitor that does not modify the program leaves it unchanged.", "quantifier": "every program and visitor", "why_tests_cant": "all programs", "anchors": ["gcodeutils/visit/iterator.py:GCodeIterator.accept"]}
{"id": "C37", "title": "layer_index identifies the layer being visited", "statement": "The layer_index passed to the visitor is the position in all_layers of the layer being visited.", "quantifier": "every program and layer", "why_tests_cant": "all programs; (violated: lookup by tolerant equality returns the first look-alike layer)", "anchors": ["gcodeutils/visit/iterator.py:GCodeIterator.accept"]}
{"id": "C38", "title": "Pausing at a layer inserts exactly one pause at its start and nothing else", "statement": "PauseAtLayer([n]) puts one M226 line at the start of each printed layer whose number is n and leaves everything else unchanged; deleting the inserted lines restores the program.", "quantifier": "every loadable program and pause list", "why_tests_cant": "all programs; (violated for look-alike layers)", "anchors": ["gcodeutils/visit/pause_at_layer.py:PauseAtLayer.did_visit_layer", "gcodeutils/visit/iterator.py:GCodeIterator.accept"]}
{"id": "C39", "title": "Walking a loaded program with PauseAtLayer never raises", "statement": "For every loadable program, constructing GCodeIterator and accepting PauseAtLayer does not raise.", "quantifier": "every loadable program and pause list", "why_tests_cant": "all programs; (violated: extruding before any Z word puts None among the heights and the constructor raises TypeError)", "anchors": ["gcodeutils/visit/iterator.py:GCodeIterator.__init__", "gcodeutils/visit/iterator.py:GCodeIterator.accept"]}
{"id": "C40", "title": "Printed layer numbers follow height", "statement": "For printed layers, a layer at greater (rounded) height gets a greater or equal layer number, strictly greater if the rounded heights differ; numbers are in range of the number of recorded heights.", "quantifier": "every program", "why_tests_cant": "all height sets", "anchors": ["gcodeutils/visit/iterator.py:GCodeIterator.__init__", "gcodeutils/visit/iterator.py:GCodeIterator.accept"]}
{"id": "C41", "title": "Temperature commands stay inside the safety range", "statement": "Every M104 command inserted by tempcal requests a temperature between 150.0 and 250.0 degrees, whatever start, end, step and height parameters are given.", "quantifier": "every program and all parameters, for any gradient subclass", "why_tests_cant": "safety property over all inputs", "anchors": ["gcodeutils/gcode_tempcal.py:GCodeTempGradient.generate_temperature_gcode", "gcodeutils/gcode_tempcal.py:GCodeTempGradient.write"]}
{"id": "C42", "title": "Temperature calibration only inserts lines", "statement": "Removing the inserted lines (M104 commands or empty lines) from the output gives exactly the original program; at most one line is inserted per layer, always before the first line of the layer.", "quantifier": "every program and parameters", "why_tests_cant": "all programs", "anchors": ["gcodeutils/gcode_tempcal.py:GCodeTempGradient.write"]}
{"id": "C43", "title": "No redundant temperature command", "statement": "Two consecutive temperature commands in the output always request different temperatures.", "quantifier": "every program and parameters", "why_tests_cant": "all programs", "anchors": ["gcodeutils/gcode_tempcal.py:GCodeTempGradient.write"]}
{"id": "C44", "title": "Continuous gradient interpolates and stays between start and end", "statement": "With the continuous gradient the target temperature is start_temp at the lowest gradient height, end_temp at zmax, and between the two everywhere; it is monotone in height.", "quantifier": "all parameters and heights", "why_tests_cant": "all reals", "anchors": ["gcodeutils/gcode_tempcal.py:GCodeContinuousTempGradient.get_temp_for_current_layer"]}
{"id": "C45", "title": "Step gradient stays between start and end", "statement": "With the step gradient the target temperature lies between min and max of start and end temperature.", "quantifier": "all parameters and heights", "why_tests_cant": "all reals; (violated: decreasing gradients overshoot below end_temp by up to (start-end)/steps)", "anchors": ["gcodeutils/gcode_tempcal.py:GCodeStepTempGradient.get_temp_for_current_layer"]}
{"id": "C46", "title": "Step gradient uses at most steps+1 distinct temperatures", "statement": "The step gradient takes at most steps+1 different target values.", "quantifier": "all parameters and programs", "why_tests_cant": "all programs; (violated: progress is never truncated so the gradient is continuous)", "anchors": ["gcodeutils/gcode_tempcal.py:GCodeStepTempGradient.get_temp_for_current_layer"]}
{"id": "C47", "title": "No temperature change at or below min_z_change", "statement": "No temperature command is inserted before a layer whose first line is at or below min_z_change.", "quantifier": "every program and parameters", "why_tests_cant": "all programs; (violated: the first layer sets the lower bound unconditionally)", "anchors": ["gcodeutils/gcode_tempcal.py:GCodeTempGradient._parse_gcode", "gcodeutils/gcode_tempcal.py:GCodeTempGradient.write"]}
{"id": "C48", "title": "A too-small model is rejected before anything is written", "statement": "If no usable altitude is found or the lowest one is not below zmax, write raises RuntimeError and the output is empty; otherwise it succeeds and never divides by zero.", "quantifier": "every program and parameters", "why_tests_cant": "all programs", "anchors": ["gcodeutils/gcode_tempcal.py:GCodeTempGradient._parse_gcode", "gcodeutils/gcode_tempcal.py:GCodeTempGradient.write", "gcodeutils/gcode_tempcal.py:GCodeContinuousTempGradient._parse_gcode"]}
{"id": "C49", "title": "Arc optimisation only replaces windows of moves", "statement": "The output program is the input program in which disjoint contiguous windows of at least 8 consecutive move or comment lines have been replaced by one G2/G3 line, optionally followed by one G92 line; every other line is kept, in order.", "quantifier": "every program and every outcome of the circle tests", "why_tests_cant": "all programs and all queue histories", "anchors": ["gcodeutils/filter/arc_optimizer.py:GCodeArcOptimizerFilter.opcode_filter", "gcodeutils/filter/arc_optimizer.py:GCodeArcOptimizerFilter.to_gcode", "gcodeutils/filter/arc_optimizer.py:GCodeArcOptimizerFilter.parse_gcode"]}
{"id": "C50", "title": "Commands other than moves survive arc optimisation", "statement": "The subsequence of lines that carry a command other than a G0-G3 move (M codes, tool changes, G92, G28, ...) is the same before and after, except for inserted generated G92 lines; the order relative to retained moves is kept.", "quantifier": "every program", "why_tests_cant": "all programs", "anchors": ["gcodeutils/filter/arc_optimizer.py:GCodeArcOptimizerFilter.opcode_filter"]}
{"id": "C51", "title": "A replaced window really lies on the emitted circle", "statement": "Whenever a window is replaced, every one of its points and its start point is within 0.015 mm of the fitted circle, the radius is at most 200 mm, all replaced moves have the same feed rate and the same Z, they either all or none carry E words, and each extrusion-per-length ratio is within 15% of the average.", "quantifier": "every program", "why_tests_cant": "all geometry", "anchors": ["gcodeutils/filter/arc_optimizer.py:GCodeArcOptimizerFilter.queue_valid", "gcodeutils/filter/arc_optimizer.py:GCodeArcOptimizerFilter.get_circle", "gcodeutils/filter/arc_optimizer.py:GCodeArcOptimizerFilter.to_gcode"]}
{"id": "C52", "title": "The emitted arc ends where the replaced window ended", "statement": "The arc line's X and Y equal the end of the last replaced move rounded to 3 decimals, and its I and J equal the fitted centre minus the start point rounded to 3 decimals; it runs counter-clockwise (G3) iff the measured direction is positive; its feed rate is the window's.", "quantifier": "every program", "why_tests_cant": "all geometry", "anchors": ["gcodeutils/filter/arc_optimizer.py:GCodeArcOptimizerFilter.to_gcode"]}
{"id": "C53", "title": "An arc pushes forward the filament of its segments", "statement": "A generated arc extrudes a positive amount whenever its segments did (at least as much as the segments, since the arc is longer).", "quantifier": "every replaced window", "why_tests_cant": "all geometry; (violated for clockwise arcs in absolute extrusion mode: the signed angle makes the arc retract)", "anchors": ["gcodeutils/filter/arc_optimizer.py:GCodeArcOptimizerFilter.to_gcode"]}
{"id": "C54", "title": "Arc optimisation never fails on a valid program", "statement": "Filtering a loaded program with the arc optimiser does not raise.", "quantifier": "every loadable program", "why_tests_cant": "all programs; (violated: a window of non-extruding moves on a circle raises ZeroDivisionError or TypeError)", "anchors": ["gcodeutils/filter/arc_optimizer.py:GCodeArcOptimizerFilter.to_gcode", "gcodeutils/filter/arc_optimizer.py:GCodeArcOptimizerFilter.get_distances"]}
{"id": "C55", "title": "Arc optimisation preserves the Z height of every retained move", "statement": "After optimisation the printer is at the same Z at every retained line as in the original program.", "quantifier": "every program", "why_tests_cant": "all programs; (violated: a Z word on the first replaced move is dropped)", "anchors": ["gcodeutils/filter/arc_optimizer.py:GCodeArcOptimizerFilter.queue_valid", "gcodeutils/filter/arc_optimizer.py:GCodeArcOptimizerFilter.to_gcode"]}
{"id": "C56", "title": "An arc filter object can be reused", "statement": "Filtering a second program with the same filter object gives the same result as with a fresh one.", "quantifier": "every pair of programs", "why_tests_cant": "all histories; (violated: the pending queue is flushed but not cleared)", "anchors": ["gcodeutils/filter/arc_optimizer.py:GCodeArcOptimizerFilter.parse_gcode"]}
{"id": "C57", "title": "Least-squares fit recovers exact circles", "statement": "If all queued points lie on one circle, the fitted centre is its centre and the fitted radius its radius (whenever the points are not degenerate).", "quantifier": "every list of points on a circle", "why_tests_cant": "all point sets", "anchors": ["gcodeutils/filter/arc_optimizer.py:GCodeArcOptimizerFilter.get_circle_least_squares"]}
{"id": "C58", "title": "Stretching moves a point by at most the configured amount", "statement": "Every stretched move's target is at distance at most edge_width*ratio*strength of its loop type from its original target, before the 3-decimal formatting.", "quantifier": "every program, loop geometry and setting", "why_tests_cant": "all geometry", "anchors": ["gcodeutils/stretch/stretch.py:StretchFilter.get_stretched_line_from_index_location"]}
{"id": "C59", "title": "Stretching touches only X/Y-carrying linear moves inside loops", "statement": "Lines outside loops, non-moves, arcs and moves without X or Y keep their argument values and command; the numbers of layers and of lines per layer are unchanged.", "quantifier": "every annotated program", "why_tests_cant": "all programs", "anchors": ["gcodeutils/stretch/stretch.py:StretchFilter.parse_line", "gcodeutils/stretch/stretch.py:StretchFilter.filter"]}
{"id": "C60", "title": "Stretched lines keep command and Z, and scale E by a factor in [1-max,1]", "statement": "A stretched line has the original command and Z; it has an E word iff the original has, equal to the original E times a factor between 1-max and 1.", "quantifier": "every stretched line", "why_tests_cant": "all geometry", "anchors": ["gcodeutils/stretch/stretch.py:StretchFilter.get_stretched_line_from_index_location"]}
{"id": "C61", "title": "Zero stretch strength is the identity", "statement": "With stretch_strength 0 no line's arguments change.", "quantifier": "every program", "why_tests_cant": "all programs", "anchors": ["gcodeutils/stretch/stretch.py:StretchRepository", "gcodeutils/stretch/stretch.py:StretchFilter.stretch_line"]}
{"id": "C62", "title": "Stretching keeps the feed rate in force", "statement": "A stretched line is executed at the feed rate that was in force for it in the original program.", "quantifier": "every program", "why_tests_cant": "all programs; (violated: F words on lines outside loops or without X/Y are not tracked)", "anchors": ["gcodeutils/stretch/stretch.py:StretchFilter.stretch_line"]}
{"id": "C63", "title": "Stretching starts from the real position for one-axis moves", "statement": "A stretched move that names only one of X and Y keeps the other coordinate within the stretch amount of where the head really was.", "quantifier": "every program", "why_tests_cant": "all programs; (violated: positions reached outside loops are not tracked)", "anchors": ["gcodeutils/stretch/stretch.py:StretchFilter.stretch_line", "gcodeutils/stretch/stretch.py:get_location_from_line"]}
{"id": "C64", "title": "Stretching terminates", "statement": "Stretching a program always ends; in particular walking along a loop from any line ends: get_next returns a line or raises StopIteration.", "quantifier": "every annotated layer, start index and direction", "why_tests_cant": "termination over all layers; (violated: a loop start right before an extrusion-off line makes the forward walk of the Slic3r filter spin forever; a comment before the end of a wall makes that of the Cura filter leave the wall and go around the next loop forever, if that is short; an edge of one short move makes that of the Skeinforge filter go around that move forever)", "anchors": ["gcodeutils/stretch/stretch.py:LineIteratorForwardLegacy.get_next", "gcodeutils/stretch/stretch.py:LineIteratorForward.reset_index_on_limit"]}
{"id": "C65", "title": "The Cura walk never leaves the layer", "statement": "Stretching a Cura program never raises IndexError.", "quantifier": "every Cura layer", "why_tests_cant": "all programs; (violated when a wall type comment is followed by a single move at the end of a layer)", "anchors": ["gcodeutils/stretch/stretch.py:CuraLineIteratorForward.index_setup", "gcodeutils/stretch/stretch.py:CuraStretchFilter.setup_filter"]}
{"id": "C66", "title": "Loop annotation only appends comments", "statement": "Preparing a program for stretching changes no line other than by appending ' ; stretch-...' marker comments, so commands and arguments are untouched and every layer keeps its lines.", "quantifier": "every program", "why_tests_cant": "all programs", "anchors": ["gcodeutils/stretch/stretch.py:Slic3rStretchFilter.setup_filter", "gcodeutils/stretch/stretch.py:CuraStretchFilter.setup_filter", "gcodeutils/stretch/stretch.py:SkeinforgeStretchFilter.setup_filter"]}
{"id": "C67", "title": "Cura loops are bracketed and never cross a layer", "statement": "In every annotated Cura layer each loop that is opened is closed by a stop marker in the same layer, and when the layer ends the filter considers no loop open, so no move of a later layer is displaced as part of an earlier layer's loop.", "quantifier": "every program", "why_tests_cant": "all programs; (second half violated: a line that both starts and stops a loop leaves it open)", "anchors": ["gcodeutils/stretch/stretch.py:CuraStretchFilter.setup_filter", "gcodeutils/stretch/stretch.py:CuraStretchFilter.stop_loop", "gcodeutils/stretch/stretch.py:CuraStretchFilter.new_perimeter"]}
{"id": "C68", "title": "In-place arc optimisation and the stretch plugin keep the file if processing fails", "statement": "If reading, parsing or filtering raises, no file has changed: the user's file still has its original contents. If processing succeeds the file has the result and nothing else has changed. (In-place optimisation with no output file named; naming the input as the output is C74.)", "quantifier": "every program and every failing step", "why_tests_cant": "all crash points", "anchors": ["gcodeutils/gcode_optimize_arcs.py:main", "cura_plugins/stretch_plugin.py"]}
{"id": "C69", "title": "The temperature plugin keeps the file if processing fails", "statement": "If the temperature gradient cannot be computed, the user's file still has its original contents.", "quantifier": "every program", "why_tests_cant": "all crash points; (violated: the file is truncated before the height check)", "anchors": ["cura_plugins/tempcal_plugin.py"]}
{"id": "C70", "title": "gcode_mod without options is the identity", "statement": "Running gcode_mod with none of -x, -y, -e, -p succeeds and writes the stripped, blank-free input.", "quantifier": "every program", "why_tests_cant": "all programs; (violated only by the TypeError of the layer walker)", "anchors": ["gcodeutils/gcode_mod.py:main"]}
{"id": "C71", "title": "Vector3 algebra", "statement": "Addition, negation, subtraction and scaling obey the vector-space laws; cross is orthogonal to both operands and anti-commutative; distanceSquared is the squared magnitude of the difference; reflecting twice in a unit normal is the identity and preserves length; normalizing a non-zero vector gives length one; maximize/minimize are component-wise bounds; in-place operators agree with the pure ones.", "quantifier": "all vectors and scalars", "why_tests_cant": "all reals", "anchors": ["gcodeutils/stretch/vector3.py:Vector3"]}
{"id": "C72", "title": "Arc optimisation leaves the head where the original program leaves it", "statement": "A printer executing the optimised program is within 0.0005 mm in X and in Y of one executing the original, after every retained line and at the end of every replaced window.", "quantifier": "every program", "why_tests_cant": "all programs, positions and modes; (violated after G92 on X or Y and in relative mode: arcs are written in machine coordinates)", "anchors": ["gcodeutils/filter/arc_optimizer.py:GCodeArcOptimizerFilter.to_gcode", "gcodeutils/gcoder.py:GCode._preprocess"]}
{"id": "C73", "title": "Stretching uses the edge width the slicer states", "statement": "All stretch lengths are the configured multiples of one edge width: the one given by the last line of the program that gives one, else 0.4 mm for Slic3r and Cura; a Skeinforge program without a width line is only accepted if it has no loops.", "quantifier": "every program, slicer and setting", "why_tests_cant": "the width line may be anywhere in the program, several may disagree, and the comment may be followed by other text or the filter's own marks", "anchors": ["gcodeutils/stretch/stretch.py:set_edge_width", "gcodeutils/stretch/stretch.py:Slic3rStretchFilter.setup_filter", "gcodeutils/stretch/stretch.py:CuraStretchFilter.setup_filter", "gcodeutils/stretch/stretch.py:SkeinforgeStretchFilter.parse_initialisation_line"]}
{"id": "C74", "title": "Naming the input file as the output file is safe", "statement": "gcode_mod, gcode_stretch, gcode_optimize_arcs and gcode_tempcal write to the output what they compute from the input, whatever file is named as the output, and change no other file; so `gcode_mod a.g a.g` gives what `gcode_mod a.g b.g` gives.", "quantifier": "every input file, output file and program", "why_tests_cant": "depends on when files are truncated, for all pairs of names; (violated: argparse truncates the output before the input is read, so that the file is emptied)", "anchors": ["gcodeutils/gcode_mod.py:main", "gcodeutils/gcode_stretch.py:main", "gcodeutils/gcode_optimize_arcs.py:main", "gcodeutils/gcode_tempcal.py:main"]}
{"id": "C75", "title": "--steps sets the number of temperature steps", "statement": "gcode_tempcal --steps N writes the stepped gradient with N steps; without the option ten steps are used; with --continuous the option has no effect.", "quantifier": "every program, number of steps and pair of temperatures", "why_tests_cant": "all programs; (violated: the option has no type, so that the text is used as a divisor and every run fails)", "anchors": ["gcodeutils/gcode_tempcal.py:main", "gcodeutils/gcode_tempcal.py:GCodeStepTempGradient"]}
{"id": "C76", "title": "A line is read as its words, numbers and comments", "statement": "Every line of text is read in exactly one way: as words (a letter, optionally followed by a number) and comments (from `;` to the end, `/` or `*` up to a newline, or in parentheses without inner parentheses, or the whole line in parentheses). The command is the first word after the line number unless a comment comes first; the arguments of a G command are the numbers of the last word with the letter, in millimetres; a number that float() would reject raises ValueError.", "quantifier": "every text, unit mode and machine state", "why_tests_cant": "all texts: interleavings of comments, words and malformed numbers are unbounded", "anchors": ["gcodeutils/gcoder.py:gcode_exp", "gcodeutils/gcoder.py:split", "gcodeutils/gcoder.py:parse_coordinates", "gcodeutils/gcoder.py:find_specific_code"]}
{"id": "C77", "title": "Points of a loop are pushed away from their neighbours along the loop", "statement": "Each X/Y move of a wall (Cura) or perimeter (Slic3r) is displaced by a push away from the point that lies the stretch distance ahead of it along the loop plus a push away from the point that lies as far behind it, going around the loop across its start; 0.8 times the sum, reduced across long edges to the two neighbours, cut to length 1, times the maximum for the kind of loop. The points considered are exactly the X/Y moves of the same loop in the original program.", "quantifier": "every loaded program with plain texts, every layer, every well-formed loop of any length in it, every point, every setting", "why_tests_cant": "loops of any length; depends on the iterators not leaving the loop and on the order in which lines are rewritten", "anchors": ["gcodeutils/stretch/stretch.py:StretchFilter.get_stretched_line_from_index_location", "gcodeutils/stretch/stretch.py:StretchFilter.get_relative_stretch", "gcodeutils/stretch/stretch.py:StretchFilter.get_cross_limited_stretch", "gcodeutils/stretch/stretch.py:LineIteratorForward", "gcodeutils/stretch/stretch.py:LineIteratorBackward"]}
{"id": "C78", "title": "Points in the middle of straight edges stay", "statement": "A point of a loop whose neighbours ahead lie straight on for at least the stretch distance, and whose neighbours behind lie straight back for at least as much, is written with its own coordinates and its extrusion is not changed.", "quantifier": "every stretched program with plain texts, Cura and Slic3r, every loop and point, any number of intermediate points on the edge, every direction and setting", "why_tests_cant": "any number of collinear points at any spacing and direction", "anchors": ["gcodeutils/stretch/stretch.py:StretchFilter.get_relative_stretch", "gcodeutils/stretch/stretch.py:StretchFilter.get_stretched_line_from_index_location"]}
{"id": "C79", "title": "Convex corners are never pulled inward", "statement": "If the whole loop lies on one side of a line through one of its points, stretching does not move that point towards that side.", "quantifier": "every stretched program with plain texts, Cura and Slic3r, every loop and point, every line through it, every setting", "why_tests_cant": "all shapes of loops; the failing shapes are obtuse corners between long edges, which the sample files do not single out", "anchors": ["gcodeutils/stretch/stretch.py:StretchFilter.get_relative_stretch", "gcodeutils/stretch/stretch.py:StretchFilter.get_cross_limited_stretch"]}
{"id": "C80", "title": "Closed loops stay closed", "statement": "If a loop ends at the point where it begins, then its first and last point are written with the same coordinates after stretching.", "quantifier": "every stretched program with plain texts, Cura and Slic3r, every closed loop, every setting", "why_tests_cant": "all loops and their position in the layer; it holds for the first perimeter of a layer and fails for later ones", "anchors": ["gcodeutils/stretch/stretch.py:StretchFilter.get_stretched_line_from_index_location", "gcodeutils/stretch/stretch.py:LineIteratorForward", "gcodeutils/stretch/stretch.py:LineIteratorBackward", "gcodeutils/stretch/stretch.py:Slic3rStretchFilter"]}
{"id": "C81", "title": "Layers are the runs of lines at one height", "statement": "All lines of a layer leave the head at the same height, which is the height recorded for the layer, and two successive layers have different heights: a new layer begins exactly where the height changes (by a move with a Z word, absolute or relative, or by G92 Z).", "quantifier": "every loadable program", "why_tests_cant": "all sequences of height changes; the code estimates a layer height and merges close heights, so that the answer depends on the whole history", "anchors": ["gcodeutils/gcoder.py:GCode._preprocess", "gcodeutils/gcoder.py:Layer"]}
{"id": "C82", "title": "Exactly the announced loops are displaced", "statement": "With a program of Cura, Slic3r or Skeinforge, the linear X/Y moves that the slicer's comments announce as walls, perimeters, edges or skins are the ones that stretching displaces, each within the maximum for the kind announced (outer, inner, other); every other line (travel, filling, support, comments) keeps its text apart from marks added at its end.", "quantifier": "every stretched program, all three slicers, every layer and line, every setting", "why_tests_cant": "all placements of announcements in all layers: marks are inserted by one pass, with state carried over lines and layers, and interpreted by another", "anchors": ["gcodeutils/stretch/stretch.py:CuraStretchFilter", "gcodeutils/stretch/stretch.py:Slic3rStretchFilter", "gcodeutils/stretch/stretch.py:SkeinforgeStretchFilter", "gcodeutils/stretch/stretch.py:StretchFilter.parse_line"]}
{"id": "C83", "title": "Arc optimisation keeps the feed rate", "statement": "A printer that executes the optimised program runs every retained line, and leaves every replaced stretch, with the same feed rate as a printer that executes the original.", "quantifier": "all programs, all printers (whatever feed rate is in force when the program starts), every prefix of the program", "why_tests_cant": "The feed rate of a line depends on the whole program before it and on the printer's state before the program; an example has one history.", "anchors": ["gcodeutils/filter/arc_optimizer.py:to_gcode", "gcodeutils/gcoder.py:GCode._preprocess"]}
{"id": "C84", "title": "Arc optimisation keeps the extruder coordinate", "statement": "With absolute extrusion, after every retained move with an E word the extruder coordinate of a printer executing the optimised program equals that of a printer executing the original; a replaced stretch leaves it equal or off by at most one per cent of the filament of that stretch, so the next move pushes what the original pushes.", "quantifier": "all programs, every retained line and every replaced window", "why_tests_cant": "The error of one arc shows up in the next move with an E word, which may be anywhere later in the program, after any mix of travel, G92 and mode changes.", "anchors": ["gcodeutils/filter/arc_optimizer.py:to_gcode", "gcodeutils/gcoder.py:GCode._preprocess"]}
{"id": "C85", "title": "Loading reports every line and every layer to the callbacks", "statement": "A program that is loaded with a line callback and a layer callback is the same program as one loaded without. The line callback is called once for every line of the program, in order; the layer callback is called once for every layer, in order, with the number of the layer, after the last line of that layer was reported.", "quantifier": "all programs (heavy and light), all placements of layers, with and without failure while loading", "why_tests_cant": "The calls depend on where layers begin and end in an arbitrary program; a test sees one program.", "anchors": ["gcodeutils/gcoder.py:GCode.prepare", "gcodeutils/gcoder.py:GCode._preprocess"]}
{"id": "C86", "title": "Temperature towers and pauses do not change the motion", "statement": "A printer that executes a program into which a temperature tower or pauses were inserted moves exactly as one that executes the original: same position, extruder coordinate, offsets and modes after every original line.", "quantifier": "all programs, all settings of the tower, all heights or layers of the pause, every printer state at the start, every original line", "why_tests_cant": "The inserted text is formatted from numbers computed along the program and re-read by the printer; all programs, numbers and states matter.", "anchors": ["gcodeutils/gcode_tempcal.py:GCodeStepTempGradient.write", "gcodeutils/gcode_tempcal.py:GCodeContinuousTempGradient", "gcodeutils/visit/pause_at_layer.py:PauseAtLayer"]}
{"id": "C87", "title": "Every layer of a tower is printed at the temperature of its height", "statement": "After the tower was inserted, the temperature the heater was last asked for, at every line of the program whose height lies in the gradient, is the target temperature of that line's height, to a tenth of a degree.", "quantifier": "all programs, all gradients, step-wise and continuous, every line", "why_tests_cant": "The temperature in force at a line is decided by the last of all the temperature commands before it, inserted or original.", "anchors": ["gcodeutils/gcode_tempcal.py:GCodeTempGradient.write", "gcodeutils/gcode_tempcal.py:GCodeStepTempGradient", "gcodeutils/gcode_tempcal.py:GCodeContinuousTempGradient"]}
{"id": "C88", "title": "Translation and conversion to relative extrusion can be applied in either order", "statement": "Translating a program and then converting it to relative extrusion gives the same program, text included, as converting first and translating then; and a printer following the result has its head displaced by the translation and the same filament, feed rate, modes and tool as one following the original, after every line.", "quantifier": "all loaded programs, all displacements, every printer state at the start, every line", "why_tests_cant": "Both filters rewrite the lines the other one reads; that they do not interfere is a statement about every line of every program.", "anchors": ["gcodeutils/filter/translate.py:GCodeXYTranslateFilter", "gcodeutils/filter/relative_extrusion.py:GCodeToRelativeExtrusionFilter", "gcodeutils/gcode_mod.py:main"]}
{"id": "C89", "title": "Light programs carry the same analysis as full programs", "statement": "A program loaded as a light program keeps only the text of its lines; layers, heights, layer and line numbers, durations, bounding box, filament totals and the state for later lines are those of the full program, loading fails for the same reasons, writing gives the same text, and lines appended later continue in the same way.", "quantifier": "all texts, all home positions, all appended commands", "why_tests_cant": "Equality of two analyses of an arbitrary program, in every recorded value.", "anchors": ["gcodeutils/gcoder.py:LightGCode", "gcodeutils/gcoder.py:GCode.prepare", "gcodeutils/gcoder.py:GCode._preprocess", "gcodeutils/gcoder.py:GCode.append"]}
{"id": "C90", "title": "The duration estimate is bounded by the path and the speeds", "statement": "The estimated duration is, up to one second, at least the length of the path of the head at the highest feed rate, and at most twice that length at the lowest feed rate, plus the dwells.", "quantifier": "all programs, all feed rates, all paths", "why_tests_cant": "The estimate is a sum over all moves of a function with several branches (acceleration, change of direction, moves on the spot); the bounds are about every program.", "anchors": ["gcodeutils/gcoder.py:GCode._preprocess", "gcodeutils/gcoder.py:GCode.duration"]}
{"id": "C91", "title": "A printer following the stretched program stays beside the original and pushes slightly less filament", "statement": "Let one printer follow a program and another the output of gcode_stretch (or of a stretch filter applied to a program with relative extrusion), line by line. After every line the second head is at the same height as the first and within the largest stretch distance along X and along Y, and every line pushes at least 1 - d and at most 1 times the filament of the original line, where d is the largest stretch distance.", "quantifier": "every program, slicer, width, stretch strength and number of lines executed", "why_tests_cant": "It relates two executions of arbitrary length; a test compares the text of a few lines, while an error that accumulates or depends on modes shows only when whole programs are executed side by side.", "anchors": ["gcodeutils/stretch/stretch.py:StretchFilter.stretch_line", "gcodeutils/stretch/stretch.py:StretchFilter.get_stretched_line_from_index_location", "gcodeutils/gcode_stretch.py:main", "gcodeutils/filter/relative_extrusion.py:GCodeToRelativeExtrusionFilter"]}
{"id": "C92", "title": "gcode_stretch displaces the loops that the slicer announces", "statement": "In the output of the gcode_stretch command line, every X/Y move that the slicer's comments in the input announce as part of a perimeter, wall or skin is displaced by at most the stretch distance of its kind of loop, and every other line is the line of the program converted to relative extrusion, apart from marks added at its end.", "quantifier": "all Cura and Slic3r programs, all stretch settings, every line", "why_tests_cant": "The tests exercise the conversion and the stretch filters separately; that the conversion keeps what the stretch filter reads is a statement about every line of every program.", "anchors": ["gcodeutils/gcode_stretch.py:main", "gcodeutils/gcode_stretch.py:is_cura_gcode", "gcodeutils/filter/relative_extrusion.py:GCodeToRelativeExtrusionFilter.opcode_filter", "gcodeutils/gcoder.py:unsplit", "gcodeutils/stretch/stretch.py:Slic3rStretchFilter.setup_filter", "gcodeutils/stretch/stretch.py:CuraStretchFilter.setup_filter"]}
{"id": "C93", "title": "Iterating over a filtered program gives the lines that are written", "statement": "After a filter has run on a loaded program, 'for line in gcode' yields the same lines, in the same order, as write prints.", "quantifier": "all loadable programs, each of the four filters, all settings", "why_tests_cant": "The tests look at all_layers or at the written text; agreement with the second list that shares the line objects is a statement about which objects each filter mutates on every program.", "anchors": ["gcodeutils/gcoder.py:GCode.__iter__", "gcodeutils/gcoder.py:GCode.write", "gcodeutils/filter/filter.py:GCodeFilter.parse_layer", "gcodeutils/filter/translate.py:GCodeXYTranslateFilter.opcode_filter", "gcodeutils/filter/relative_extrusion.py:GCodeToRelativeExtrusionFilter.opcode_filter", "gcodeutils/stretch/stretch.py:StretchFilter.filter", "gcodeutils/filter/arc_optimizer.py:GCodeArcOptimizerFilter.opcode_filter"]}
{"id": "C94", "title": "gcode_mod: all options together, as a printer sees the output", "statement": "The command line with any of -x, -y, -e and -p writes a program that prints the original part: the head is displaced by the requested amounts, up to the rounding of the written numbers, the same filament is pushed, and the only other difference is one pause line for each printed layer with the requested number. It raises only if an extruding line comes before any height is known, and then TypeError.", "quantifier": "all loadable programs (in millimetres; without G92 and with a stated distance mode when moved; in the extrusion class of C31 when converted), all combinations of the options and all offsets and layer numbers, after every prefix of the output", "why_tests_cant": "Tests run one option on one small file; that translation, conversion and pauses do not disturb each other, with rounding that stays bounded, is a statement about all programs and all prefixes.", "anchors": ["gcodeutils/gcode_mod.py:main", "gcodeutils/filter/translate.py:GCodeXYTranslateFilter.opcode_filter", "gcodeutils/filter/relative_extrusion.py:GCodeToRelativeExtrusionFilter.opcode_filter", "gcodeutils/visit/pause_at_layer.py:PauseAtLayer.did_visit_layer", "gcodeutils/gcoder.py:GCode.write"]}
{"id": "C95", "title": "An arc turns the way the replaced moves turn", "statement": "When the arc optimiser replaces a run of moves, the generated arc goes round the centre in the direction in which the replaced moves go round it.", "quantifier": "All programs, all replaced runs, all centres and radii.", "why_tests_cant": "The direction is decided from the first and third point only; which runs can deceive it depends on the interplay of the fit, the one-sided evenness check and the queue, for every possible run.", "anchors": ["gcodeutils/filter/arc_optimizer.py:GCodeArcOptimizerFilter.get_circle_least_squares", "gcodeutils/filter/arc_optimizer.py:GCodeArcOptimizerFilter.get_circle_angle_errors", "gcodeutils/filter/arc_optimizer.py:GCodeArcOptimizerFilter.to_gcode"]}
{"id": "C96", "title": "The arc stays beside the moves it replaces", "statement": "Every point of the path of a generated arc lies close (the alignment tolerance, plus the height of the arc over one move) to the path of the replaced moves, and every point of the replaced path close to the arc.", "quantifier": "All programs, all replaced runs, all points of both paths.", "why_tests_cant": "It is about all points of two curves, for all runs; the code only checks the end points of the moves.", "anchors": ["gcodeutils/filter/arc_optimizer.py:GCodeArcOptimizerFilter.get_circle", "gcodeutils/filter/arc_optimizer.py:GCodeArcOptimizerFilter.get_circle_radius_errors", "gcodeutils/filter/arc_optimizer.py:GCodeArcOptimizerFilter.get_circle_angle_errors", "gcodeutils/filter/arc_optimizer.py:GCodeArcOptimizerFilter.to_gcode"]}
{"id": "C97", "title": "A regular run of extruding moves on a circle is replaced by its arc", "statement": "If a program contains at least eight extruding moves that follow one circle (radius at most 200 mm) one way in equal steps, each pushing the same amount of filament at the same feed rate and height, if the run starts after a command that is not a move, at the beginning, or from a travel move, and if a line that is not an extruding move follows, then the optimised program contains, in place of exactly these moves, one arc whose centre is the centre of the circle (and whose direction is that of the moves when each turns by less than 90 degrees). At the very end of a program such a run stays as it is.", "quantifier": "all programs that load and that the optimiser finishes on, all positions of such a run in them, all centres, radii, step lengths, numbers of steps (at least eight) and amounts of filament", "why_tests_cant": "A test shows single circles being found; whether a run is found depends on the window the optimiser has accumulated before it, on the comparison of every prefix with a fitted circle and on rounding of lengths, for every length of run and every program around it.", "anchors": ["gcodeutils/filter/arc_optimizer.py:GCodeArcOptimizerFilter.opcode_filter", "gcodeutils/filter/arc_optimizer.py:GCodeArcOptimizerFilter.queue_valid", "gcodeutils/filter/arc_optimizer.py:GCodeArcOptimizerFilter.get_circle_least_squares", "gcodeutils/filter/arc_optimizer.py:GCodeArcOptimizerFilter.parse_gcode"]}
{"id": "C98", "title": "Line numbers and checksums never change what a line means", "statement": "A program as a host sends it, with `N<digits>` in front of any command lines and `*<digits>` behind them, loads to the same commands, coordinates, positions, layers, heights, durations, indices and machine state as the plain program, texts apart, and loading raises in the same cases. (Filters drop the framing of exactly the lines they rewrite, so their output is numbered in part.)", "quantifier": "all command texts without comments that begin with a word, all line numbers, checksums and blanks around them, all mixtures of framed and plain lines in programs of any length, all machine states, light and full programs", "why_tests_cant": "Tests read a handful of files without line numbers; the claim is about every framing of every line in every program.", "anchors": ["gcodeutils/gcoder.py:split", "gcodeutils/gcoder.py:gcode_exp", "gcodeutils/gcoder.py:GCode._preprocess", "gcodeutils/gcoder.py:find_specific_code"]}
{"id": "C99", "title": "Spacing and the order of words never change what a line means", "statement": "Two lines with the same command word whose further words agree letter by letter (same words under each letter, in the same order) mean the same, whatever the order between different letters and whatever blanks stand between the words: same command, coordinates, positions and machine state, and whole programs that differ in this way load to the same object, texts apart. In particular words with different letters can be written in any order. (Two words with the same letter cannot be exchanged, and a blank between letter and number loses the number.)", "quantifier": "all command words, all lists of words of any length with any Latin letters, all spacings and rearrangements, all programs, all machine states, light and full programs", "why_tests_cant": "There are infinitely many spacings and orders of every line; tests exercise the one a slicer writes.", "anchors": ["gcodeutils/gcoder.py:split", "gcodeutils/gcoder.py:gcode_exp", "gcodeutils/gcoder.py:parse_coordinates", "gcodeutils/gcoder.py:GCode._preprocess"]}
{"id": "C100", "title": "Generated arcs have matching radii at start and end", "statement": "A motion controller that executes the optimised program and stands at the start of a generated arc finds the centre from I and J; the distance of its own place from this centre and the distance of the arc's end from it agree up to the tolerance of the fit (0.034 mm with all roundings), so the arc command is consistent; the radius is at most 200.016 mm.", "quantifier": "all loaded programs in absolute coordinates without G92 on X or Y, every generated arc that starts at a move, both rounding rules, real square root and phase", "why_tests_cant": "The claim is about the numbers written for every fitted point set, after rounding and after earlier arcs have moved the machine off the recorded places.", "anchors": ["gcodeutils/filter/arc_optimizer.py:GCodeArcOptimizerFilter.get_circle", "gcodeutils/filter/arc_optimizer.py:GCodeArcOptimizerFilter.to_gcode", "gcodeutils/filter/arc_optimizer.py:ALIGNMENT_ERROR"]}
{"id": "C101", "title": "Stretching does not depend on where on the bed the object lies", "statement": "Take a program and the same program with every X/Y move shifted by a fixed (dx, dy). Stretching either fails on both with the same error, or gives two programs that again differ only by the shift: the same lines in the same order, the same Z, E and F on every move, and X and Y shifted by (dx, dy) up to the 0.001 mm to which coordinates are written. This holds when every X/Y move names both axes; it is false when the first move of the first wall leaves an axis out, because the missing coordinate is then taken from the origin.", "quantifier": "all pairs of loaded programs that are shifts of each other, all three slicers, all settings, any square root, any distance", "why_tests_cant": "A relation between two runs on unboundedly many programs and all shifts; a test can only compare a few outputs.", "anchors": ["gcodeutils/stretch/stretch.py:StretchFilter.get_relative_stretch", "gcodeutils/stretch/stretch.py:StretchFilter.get_stretched_line_from_index_location", "gcodeutils/stretch/stretch.py:StretchFilter.filter"]}
{"id": "C102", "title": "Comments, blank lines and commands that are not about motion never change the analysis", "statement": "Add to a program that has at least one line any number of blank lines, comment lines and command lines that are neither G nor T commands nor M82/M83, anywhere. If the program loads, the longer one loads as well, and position, offsets, units and modes at the end, home position, layer heights, estimated layer height, filament length, duration, bounding box and dimensions are the same; it has the same number of layers, each with the same height and duration, and each layer and the line list hold the original lines in their order with only the added ones between them. If the program is rejected, the longer one is rejected with the same error. The same holds for light programs.", "quantifier": "all programs, all ways of adding such lines, both light and full loading, all home positions", "why_tests_cant": "The added lines may stand anywhere relative to a layer change, a mode change or a pause; a test tries a handful of places.", "anchors": ["gcodeutils/gcoder.py:GCode._preprocess", "gcodeutils/gcoder.py:GCode.prepare", "gcodeutils/gcoder.py:split", "gcodeutils/gcoder.py:LightGCode"]}
{"id": "C103", "title": "An object at another place of the bed has the same analysis, with its bounding box moved", "statement": "If the X and Y numbers of all moves of a program are increased by dx and dy, the loaded program has the same layers (heights and numbers of lines), layer heights, estimated layer height, filament length, Z range, width, depth, height and duration, and its X and Y limits are those of the original increased by dx and dy.", "quantifier": "all programs, all shifts", "why_tests_cant": "Layer detection, extrusion accounting and bounding box run over the same loop with a dozen state variables; the claim relates two runs for every program and every shift.", "anchors": ["gcodeutils/gcoder.py:GCode._preprocess", "gcodeutils/gcoder.py:GCode.prepare"]}
{"id": "C104", "title": "Comments, travel moves and retractions survive arc optimisation", "statement": "After arc optimisation every comment, every move without E word, every retraction, every push of filament in place and every other command is still in the program, with its text unchanged and in the same order. Only moves that go somewhere while pushing filament forward are ever replaced.", "quantifier": "all programs that load, all mathematical functions with sqrt 0 = 0, all programs on which the optimiser returns", "why_tests_cant": "Whether a line can fall into a replaced window depends on the whole run of moves around it; a test sees one run, and the set of runs is unbounded.", "anchors": ["gcodeutils/filter/arc_optimizer.py:GCodeArcOptimizerFilter.queue_valid", "gcodeutils/filter/arc_optimizer.py:GCodeArcOptimizerFilter.to_gcode", "gcodeutils/filter/arc_optimizer.py:GCodeArcOptimizerFilter.opcode_filter"]}
{"id": "C105", "title": "Arcs that are already in the program survive arc optimisation", "statement": "A G2 or G3 move of the input is still in the output, with its text unchanged; the only other circular moves of the output are generated ones, which can be told by their comment.", "quantifier": "all programs that load and all runs of the optimiser that return", "why_tests_cant": "The filter looks at the end points of moves only; a test would have to hit a run of arcs whose end points lie on a circle to notice that their own shape is thrown away.", "anchors": ["gcodeutils/filter/arc_optimizer.py:GCodeArcOptimizerFilter.opcode_filter", "gcodeutils/filter/arc_optimizer.py:GCodeArcOptimizerFilter.queue_valid", "gcodeutils/gcoder.py:move_gcodes"]}
{"id": "C106", "title": "Writing the same temperature tower twice gives the same program", "statement": "Calling write a second time on the same gradient object (for instance to a second file) prints the same lines as the first call.", "quantifier": "all gcode objects, all temperature functions, all numbers of calls", "why_tests_cant": "The object keeps the base height and the last temperature between calls; whether they matter depends on the heights and temperatures of all layers.", "anchors": ["gcodeutils/gcode_tempcal.py:GCodeTempGradient.write", "gcodeutils/gcode_tempcal.py:GCodeTempGradient._parse_gcode", "gcodeutils/gcode_tempcal.py:GCodeTempGradient.__init__"]}
{"id": "C107", "title": "Filters can be applied one after the other to the same program", "statement": "Arc optimisation, translation and conversion to relative extrusion can be applied to one loaded program in any order; the result is displaced by the requested amount everywhere, arcs included, and pushes the same filament.", "quantifier": "All programs, all translations, all orders of the three filters on one program object.", "why_tests_cant": "Each filter is tested on a freshly loaded program; whether the attributes one filter leaves behind are the ones the next filter reads depends on the program and on the order.", "anchors": ["gcodeutils/filter/translate.py:GCodeXYTranslateFilter.opcode_filter", "gcodeutils/filter/arc_optimizer.py:GCodeArcOptimizerFilter.to_gcode", "gcodeutils/filter/relative_extrusion.py:GCodeToRelativeExtrusionFilter.opcode_filter"]}
{"id": "C108", "title": "Arc optimisation finds the same arcs at another place of the bed", "statement": "If the X and Y of all moves of a program are shifted by the same amounts, arc optimisation replaces the same runs of moves and keeps the same lines; every arc it writes has the same text as at the first place except for its end point, which is shifted by the same amounts up to the rounding to 0.001 mm.", "quantifier": "all programs that load, all shifts, all rounding modes; every line of the two optimised programs; holds when the move to the place follows a command that is no move, refuted otherwise", "why_tests_cant": "The circle is fitted by a least-squares computation in which the position of the object cancels only algebraically, and the queue of the optimiser carries positions from line to line; a test fixes one object at one place and cannot show that no place makes a difference.", "anchors": ["gcodeutils/filter/arc_optimizer.py:GCodeArcOptimizerFilter", "gcodeutils/filter/arc_optimizer.py:GCodeArcOptimizerFilter.get_circle_least_squares", "gcodeutils/filter/arc_optimizer.py:GCodeArcOptimizerFilter.to_gcode", "gcodeutils/gcode_optimize_arcs.py:main"]}
{"id": "C109", "title": "Arcs found do not depend on the extrusion mode", "statement": "Optimising a program for arcs and optimising the same program after conversion to relative extrusion give the same lines and the same arcs (direction, end point, centre, feed rate, number of replaced moves) at the same places; only the amounts of filament in the E words, and corrections of the filament counter, differ; one succeeds if and only if the other does.", "quantifier": "all programs that load, with absolute extrusion; all positions and lengths of runs on an arc", "why_tests_cant": "whether a run is recognised depends on filament differences between neighbouring lines which are computed in two different ways in the two modes, along runs of any length, with comments, resets and travel moves anywhere between; a test compares two outputs for one program", "anchors": ["gcodeutils/filter/arc_optimizer.py:GCodeArcOptimizerFilter.get_distances", "gcodeutils/filter/arc_optimizer.py:GCodeArcOptimizerFilter.to_gcode", "gcodeutils/filter/relative_extrusion.py:GCodeToRelativeExtrusionFilter.opcode_filter", "gcodeutils/gcoder.py:GCode._preprocess"]}
{"id": "C110", "title": "A written program compares equal to the one in memory", "statement": "However a loaded program has been changed by translation, conversion to relative extrusion, pauses and arc optimisation, in any order and any number of times, writing it and loading the written text gives a program that compares equal to the one in memory (in both directions, with no difference reported) and that is written the same way again. (Fails for programs in inches, for moves inserted as commands, and the written text may fail to load when tiny feed rates of opposite sign are rounded.)", "quantifier": "all texts that load, all finite sequences of filter passes with all their parameters, all home positions", "why_tests_cant": "A test compares a few filtered files; that rounding, generated comments, inserted commands and recomputed positions never make memory and file disagree is about all programs and all sequences of filters.", "anchors": ["gcodeutils/gcoder.py:GCode.write", "gcodeutils/gcoder.py:GCode.__eq__", "gcodeutils/gcoder.py:GCode.diff", "gcodeutils/gcoder.py:PyLine.__eq__", "gcodeutils/gcoder.py:unsplit", "gcodeutils/filter/filter.py:GCodeFilter.filter", "gcodeutils/filter/arc_optimizer.py:GCodeArcOptimizerFilter"]}
{"id": "C111", "title": "A filter object can be used for several programs", "statement": "Programs filtered one after the other with the same filter object (translation, relative extrusion, arcs) come out as if each had been filtered with a new object, including which one fails first and how. (Fails: after G92 X0 Y0 the next program is not translated; the next program starts by pulling back the filament of the one before; the last moves of a program are put in front of the next.)", "quantifier": "all lists of programs, all translations, all mathematical functions of the arc optimiser", "why_tests_cant": "What an object remembers from one program to the next depends on both programs; a test of a pair of files shows nothing about other pairs or longer sequences.", "anchors": ["gcodeutils/filter/filter.py:GCodeFilter.filter", "gcodeutils/filter/translate.py:GCodeXYTranslateFilter", "gcodeutils/filter/relative_extrusion.py:GCodeToRelativeExtrusionFilter", "gcodeutils/filter/arc_optimizer.py:GCodeArcOptimizerFilter.parse_gcode"]}
{"id": "C112", "title": "Bounding box of a translated program", "statement": "Loading a program, translating it by (x, y), writing it and loading the written text gives a program whose recorded filament length is that of the original and whose recorded bounding box (xmin, xmax, ymin, ymax) is that of the original displaced by (x, y), up to half a thousandth of a millimetre of output rounding per side, so that width and depth agree within a thousandth. The box recorded by the translated program in memory stays that of the original until it is written and read again.", "quantifier": "all programs, offsets and home positions; proved for millimetre programs that state their distance mode, have no G92, have E words with at most five decimals and push filament only after both axes were named by absolute moves; counterexamples outside each of these conditions", "why_tests_cant": "The box depends on which of arbitrarily many lines extrude after their E words were rounded, on relative and absolute moves in any order and on when each axis was placed; tests compare the texts of a few translated lines and never look at the analysis of the result.", "anchors": ["gcodeutils/gcoder.py:GCode", "gcodeutils/filter/filter.py:GCodeFilter", "gcodeutils/filter/translate.py:GCodeXYTranslateFilter"]}
{"id": "C113", "title": "Report about a file", "statement": "Running gcoder.py on a file that can be loaded prints, after the memory sizes, the range and extent of each axis and the filament used with two decimals, each within half a hundredth of the value computed by the analysis, the number of layers, and the estimated duration in days, hours, minutes and seconds, from which the number of seconds can be recovered; it changes no file. Without an argument it prints the usage; a missing or unreadable file raises the error of opening or loading it. The printed extent is the difference of the printed limits, and the number of layers is the number of heights at which filament is pushed.", "quantifier": "all file contents, arguments and states of the file system; the last sentence holds up to a hundredth for the extents and is refuted for both", "why_tests_cant": "The report formats arbitrary analysed numbers and durations of any length; no test of the project calls it.", "anchors": ["gcodeutils/gcoder.py:main", "gcodeutils/gcoder.py:GCode"]}
{"id": "C114", "title": "Converting to relative extrusion keeps the analysis", "statement": "If a program is loaded, converted to relative extrusion (-e), written and loaded again, the analysis of the second program (filament length, bounding box, heights, layer height, lines per layer, durations) is the analysis of the first.", "quantifier": "all loadable programs, all home positions; for the proved part: millimetre programs in the class for which the conversion works, the extruder coordinate reset only to 0 and before the first extrusion, numbers with no more decimals than are written; durations: no arc with an E word", "why_tests_cant": "the analysis follows the whole history of both programs; the agreement depends on every combination of modes, resets, moves and layer changes before a line", "anchors": ["gcodeutils/filter/relative_extrusion.py:GCodeToRelativeExtrusionFilter", "gcodeutils/gcoder.py:GCode", "gcodeutils/gcoder.py:Line"]}
{"id": "C115", "title": "Pauses can be added one run after another", "statement": "The command line tool takes one layer number per run. Running it (or the pause filter with any list of layers) again and again, each time on the file written by the run before, finally gives the texts of the original program with, in front of each layer, exactly one M226 for each run that asked for that layer's number: earlier pauses do not shift layer numbers, are not lost and do not move. Hence the order of the runs does not matter, and runs asking for different layers give the same file as a single run asking for all of them. (For heavy programs: no two layers look alike and the original has no M226 of its own, cf. C38.)", "quantifier": "all program texts that load with at least one line, all known recorded heights; all finite sequences of runs with any lists of layer numbers; both program classes", "why_tests_cant": "the number of runs, the lists and the programs are unbounded; a test fixes one or two runs on one file", "anchors": ["gcodeutils/visit/pause_at_layer.py:PauseAtLayer", "gcodeutils/visit/iterator.py:GCodeIterator", "gcodeutils/gcoder.py:GCode", "gcodeutils/gcode_mod.py:main"]}
{"id": "C116", "title": "Translations made by several runs of the tool add up", "statement": "Running gcode_mod -x dx -y dy one time after another, each time on its own output, displaces the print by the sum of the amounts: a printer reading the last text is, after any number of lines, where one reading the original is, displaced by the sums on each axis placed since homing, up to 0.0005 mm per run (per run and line with relative moves), and has pushed the same filament up to 0.000005 per run and line. When all numbers and amounts have at most three decimals (five for E) and the amounts never cancel out, the last text is exactly what one run with the sums writes.", "quantifier": "all millimetre programs without G92 that state their distance mode, all finite sequences of -x/-y options for which the runs succeed, all prefixes of the lines", "why_tests_cant": "The number of runs, the amounts and the programs are unbounded; rounding happens in every run, and only an argument about all numbers shows how the errors accumulate.", "anchors": ["gcodeutils/gcode_mod.py:main", "gcodeutils/filter/translate.py:GCodeXYTranslateFilter", "gcodeutils/gcoder.py:GCode.write", "gcodeutils/gcoder.py:unsplit"]}
{"id": "C117", "title": "The layout of a file does not matter", "statement": "Two non-empty files whose lines, cut at newlines, stripped of surrounding blanks and without blank lines, are the same (so with other line endings, indentation, blank lines or a missing final newline) give the same program and the same callbacks when loaded; every command line and plugin produces the same output, the same other files and the same success or error for both, and the tools that rewrite a file leave the same file behind.", "quantifier": "all pairs of such files, all tools, settings and output arguments, including an output that is the input", "why_tests_cant": "line endings, indentation and blank lines combine freely at every line of every file, for every tool", "anchors": ["gcodeutils/gcoder.py:GCode.prepare", "gcodeutils/gcode_mod.py:main", "gcodeutils/gcode_stretch.py:main", "gcodeutils/gcode_optimize_arcs.py:main", "gcodeutils/gcode_tempcal.py:main"]}
{"id": "C118", "title": "Stretching a Cura file uses the nozzle size of its profile", "statement": "For a Cura file the edge width is the value of the first nozzle_size option before the form feed of the last profile comment (options are separated by backspaces), and 0.4 mm when no profile mentions it; a profile without form feed or with an option without equals sign before the nozzle size, or a nozzle size that is not a number, is an error. It holds under Python 2; under Python 3 every file with a profile comment is rejected, because the decoded profile is a bytes object.", "quantifier": "every Cura program, profile text and setting", "why_tests_cant": "profiles hold hundreds of options with free texts; the test files are compared for one profile and one interpreter at a time", "anchors": ["gcodeutils/stretch/stretch.py:CuraStretchFilter.parse_cura_profile", "gcodeutils/stretch/stretch.py:CuraStretchFilter.setup_filter"]}
{"id": "C119", "title": "Filters applied to light programs do their work or raise", "statement": "A filter applied to a program that was loaded as a light program has the effect it has on the full program, or raises an exception. (Violated by translation and conversion to relative extrusion, which report success and change nothing; arc optimisation raises as soon as there are two lines, stretching as soon as there is one, and the temperature gradients always.)", "quantifier": "every program loaded as a light program, every filter, every setting", "why_tests_cant": "all programs; the tests never filter a light program", "anchors": ["gcodeutils/gcoder.py:PyLightLine", "gcodeutils/gcoder.py:LightGCode", "gcodeutils/filter/arc_optimizer.py:GCodeArcOptimizerFilter.opcode_filter", "gcodeutils/filter/translate.py:GCodeXYTranslateFilter", "gcodeutils/stretch/stretch.py:StretchFilter.filter", "gcodeutils/gcode_tempcal.py:GCodeTempGradient._parse_gcode"]}
{"id": "C120", "title": "The layer height of a program is the typical step of its first layers", "statement": "Every loaded program has no estimated layer height as long as each height it leaves is at least 0.01 mm from the height recorded before. At the first height that is closer, est_layer_height becomes the second step from below between the heights recorded so far (in thousandths, zero steps ignored), the only step if there is one, or 0.1 mm if there is none; it is positive and never changes afterwards. Evenly spaced layers give their distance. Each layer is recorded at the height at its end (in hundredths, or as it is for the first and last), or at the multiple of the layer height reached there, so at most 0.005 mm above that height and less than a layer height and 0.005 mm below.", "quantifier": "all programs that load, all layers", "why_tests_cant": "The estimate depends on the whole sequence of heights up to the first close pair, and every layer of every program is bounded; tests see a few slicer outputs.", "anchors": ["gcodeutils/gcoder.py:GCode", "gcodeutils/gcoder.py:GCode._preprocess"]}
{"id": "C121", "title": "A program that only rises has layers of rising heights", "statement": "If the head never goes down in a program, each layer is recorded at a greater height than the layer before.", "quantifier": "all programs that load and never lower Z, all pairs of successive layers", "why_tests_cant": "Holds for usual sliced programs and fails only for spiral prints whose turns straddle multiples of the estimated layer height.", "anchors": ["gcodeutils/gcoder.py:GCode._preprocess"]}
{"id": "C122", "title": "The layers of a program are determined by its changes of height, by a stated rule", "statement": "Loading a program divides its lines into layers, with an empty one behind the last line. A layer after the first begins at a change of height and nowhere else; a change of height does not begin a layer exactly when the height left is to be recorded as the same height as the layer before. A height left is to be recorded as the multiple of the layer height it has reached when it is nearer to the layer before than the layer height (0.01 mm before there is one), and as itself otherwise, in hundredths of a millimetre; the first layer and the last are recorded at the height at their ends as it is. This rule is complete: no other division of the lines with other recorded heights follows it.", "quantifier": "all programs that load with at least one line, all layers, all lines", "why_tests_cant": "The layers depend on the whole history of heights and on the estimate made on the way; that the rule admits no other division is a statement about all divisions.", "anchors": ["gcodeutils/gcoder.py:GCode", "gcodeutils/gcoder.py:GCode._preprocess"]}
{"id": "C123", "title": "The layers of a program depend only on the heights it goes to", "statement": "Two loaded programs that go to the same heights in the same order have the same estimated layer height, the same number of layers and the same recorded heights, and every change of height lies in the layer of the same number in both, whatever else the programs contain: moves, extrusion, comments, pauses, temperatures, other commands. Lines that do not change the height can be added or removed anywhere without changing the heights gone to.", "quantifier": "all pairs of non-empty programs that load, from any home positions", "why_tests_cant": "It relates all pairs of programs; tests compare a few programs with their edited versions.", "anchors": ["gcodeutils/gcoder.py:GCode", "gcodeutils/gcoder.py:GCode._preprocess"]}
{"id": "C124", "title": "A program object can be prepared again with another program", "statement": "Calling prepare on an object that already holds a program gives what a new object prepared with the second program gives: same text, same layers, same analysis.", "quantifier": "all pairs of programs that load", "why_tests_cant": "It relates all pairs of programs through the state the object keeps between the calls.", "anchors": ["gcodeutils/gcoder.py:GCode", "gcodeutils/gcoder.py:GCode.prepare"]}
{"id": "C125", "title": "Commands can be followed without being stored", "statement": "append(command, store=False) follows a command without recording it: after any sequence of stored and unstored commands the machine is where it would be had all of them been in the program, the recorded lines are the stored ones with the analysis they have in that program, exactly the stored commands are written behind the program, and the index arrays grow with them. The call returns nothing for a blank command and otherwise the line that command has in that program, stored or not.", "quantifier": "all programs, all sequences of commands with any choice of which are stored, provided loading everything at once succeeds", "why_tests_cant": "All interleavings of stored and unstored commands of any length.", "anchors": ["gcodeutils/gcoder.py:GCode", "gcodeutils/gcoder.py:GCode.append"]}
{"id": "C126", "title": "The displacement is proportional to the stretch strength", "statement": "Stretching a program with strength s and with strength c*s (c > 0, all other settings equal) fails with the same error or succeeds both times. Every move that is displaced by (dx, dy) in the first result is displaced by c*(dx, dy) in the second, before the coordinates are rounded for writing, its filament is reduced by c times as much, and every other line is the same in both results.", "quantifier": "all programs of the three slicers, all settings, all strengths s and factors c > 0", "why_tests_cant": "relates two runs over every program and every pair of strengths; a test compares a few strengths on one file", "anchors": ["gcodeutils/stretch/stretch.py:StretchRepository", "gcodeutils/stretch/stretch.py:StretchFilter.get_stretched_line_from_index_location", "gcodeutils/stretch/stretch.py:StretchFilter.set_edge_width", "docs/gcode_stretch.rst"]}
{"id": "C127", "title": "Arc optimisation works piece by piece, whatever the layers", "statement": "A command other than a move separates a program into pieces that are optimised independently: the optimised program is the optimised first piece followed by the optimised second piece, and an error of the first piece is the error of the whole. What follows such a command in a file has no influence on what becomes of the lines before it. Layer boundaries play no part: programs with the same lines in different layers are optimised to the same lines.", "quantifier": "all programs, all places of a command other than a move, all divisions into layers, all following texts", "why_tests_cant": "the state of the filter (queued moves, current circle) depends on the whole history of the program; tests look at single arcs", "anchors": ["gcodeutils/filter/arc_optimizer.py:GCodeArcOptimizerFilter", "gcodeutils/filter/filter.py:GCodeFilter"]}
{"id": "C128", "title": "Arc optimisation and stretching keep the layers of a program", "statement": "A program whose arcs have been optimised, or that has been stretched, and that is then written to a file and loaded again, has the same number of layers as the original, at the same heights, with the same changes of height inside each layer and the same estimated layer height.", "quantifier": "all programs in millimetres that load, every slicer style and strength of stretching, every square root and trigonometry of the stated accuracy", "why_tests_cant": "The filters rewrite moves and texts line by line, while the layers are found by a separate pass over all heights with rounding and merging; agreement concerns every program and every sequence of heights.", "anchors": ["gcodeutils/filter/arc_optimizer.py:GCodeArcOptimizerFilter", "gcodeutils/stretch/stretch.py:StretchFilter", "gcodeutils/gcoder.py:GCode"]}
{"id": "C129", "title": "A stretched program that is written compares equal to the one in memory", "statement": "However a loaded program has been changed by stretching, translation, conversion to relative extrusion, pauses and arc optimisation, in any order and any number of times, writing it and loading the written text gives a program that compares equal to the one in memory, in both directions, with no difference reported, and that is written the same way again. (Fails for programs in inches and for programs with a line that has neither a word nor a comment: the mark put behind it makes a comment of it.)", "quantifier": "all texts that load, all finite sequences of passes of the five filters with all their parameters and slicers, all home positions", "why_tests_cant": "The tests compare one stretched file per slicer with a stored file; that marks, rounding and re-parsing never make memory and file disagree is about all programs and all sequences of filters.", "anchors": ["gcodeutils/stretch/stretch.py:StretchFilter.filter", "gcodeutils/gcoder.py:GCode.write", "gcodeutils/gcoder.py:GCode.__eq__", "gcodeutils/gcoder.py:GCode.diff", "gcodeutils/gcoder.py:unsplit"]}
{"id": "C130", "title": "Which lines make up the time of a layer", "statement": "The estimated duration of a loaded program is the sum of the times of its G0, G1 and G4 lines, where a move of length s at speed v, entered at speed v0 (the speed of the move before if the direction stays within a right angle, else 0), takes d/mean(v0,v) + (s-d)/v seconds with d = |v^2-v0^2|/2000 if d <= s, else s/mean(v0,v), and a G4 takes its P word in milliseconds. The duration of a layer runs from the end of the first line of that layer (for the first layer: from the start) to the end of the first line of the next one: so the line that opens a layer is counted in the layer before. (Two expectations fail: that a layer's duration is the time of its own lines, and that the same moves in relative coordinates take the same time.)", "quantifier": "all texts that load, all positions of a layer in the program, all home positions", "why_tests_cant": "No test looks at a layer's duration; which line counts where, and the value for every combination of speeds and lengths, is about all programs.", "anchors": ["gcodeutils/gcoder.py:GCode._preprocess", "gcodeutils/gcoder.py:Layer", "gcodeutils/gcoder.py:GCode.estimate_duration"]}
{"id": "C131", "title": "A program in inches has the analysis of the same program in millimetres", "statement": "Take a program beginning with G20 (inches) and the program beginning with G21 whose other lines are the same with every length, extrusion and feed rate multiplied by 25.4, neither of them switching the unit again. Loading the two either fails with the same exception or gives the same analysis in every respect: filament, bounding box, heights, layers, durations, and line by line the same words in millimetres, the same recorded head positions and the same modes; only the text and the unit differ.", "quantifier": "all pairs of programs related in this way, however their numbers, comments and blank lines are written; normal and light loading, all home positions", "why_tests_cant": "No test loads a program in inches; that every coordinate goes through the conversion exactly once, including in homing, G92 and relative modes, is about all programs.", "anchors": ["gcodeutils/gcoder.py:parse_coordinates", "gcodeutils/gcoder.py:GCode._preprocess"]}
{"id": "C132", "title": "A turned or mirrored program has the turned analysis", "statement": "Turning a program by a multiple of a right angle about the origin, or mirroring it (rewriting its X, Y, I and J words and, for reflections, exchanging G2 and G3, and turning the home position), makes loading raise the same exception or give a program with the same filament length, heights, layers, line indices and durations, whose bounding box, line coordinates, recorded positions and final head position are the turned ones.", "quantifier": "all programs, all eight symmetries of the square, all ways of writing the turned numbers, all home positions, light or full loading, every length function that does not depend on the direction", "why_tests_cant": "a symmetry test compares one program with one turned version; that no axis, sign or letter is treated differently anywhere (limits starting at infinity, G92, G28, relative moves, arcs in the duration estimate) is a statement about all programs and all eight symmetries", "anchors": ["gcodeutils/gcoder.py:GCode._preprocess", "gcodeutils/gcoder.py:GCode.prepare", "gcodeutils/gcoder.py:GCode.estimate_duration"]}
{"id": "C133", "title": "Arc optimisation treats all directions alike", "statement": "Optimising a program that was turned by a multiple of a right angle, or mirrored, gives the turned result: the same exception, or the same lines kept and the same runs of moves replaced, by arcs with the turned end point and centre and the same filament and feed rate.", "quantifier": "all programs, all eight symmetries of the square, both rounding modes", "why_tests_cant": "the circle fit solves for one coordinate first and takes angles on a branch from -pi to pi; that neither shows in the result is an algebraic identity over all point sequences, and the exceptions (mirror images, moves through the fitted centre) are not visible in a sample", "anchors": ["gcodeutils/filter/arc_optimizer.py:GCodeArcOptimizerFilter", "gcodeutils/filter/arc_optimizer.py:GCodeArcOptimizerFilter.get_circle_least_squares"]}
{"id": "C134", "title": "Stretching treats all directions alike", "statement": "If a program is turned on the bed by a multiple of a right angle or mirrored (X, Y, I and J words turned, arc directions exchanged in a mirror image, comments kept), stretching the turned program gives the turned result: every line of the second result has the X and Y of the first one turned, exactly as written, and the same Z, E and F; or both fail with the same exception. This includes moves that leave an axis out.", "quantifier": "all eight symmetries of the square, all pairs of programs that correspond line by line, all three slicer filters, all settings, any square root function", "why_tests_cant": "Displacements are computed from walks in both directions over arbitrarily many neighbouring lines, with limits along and across segments; a sign error in one component shows only for particular directions and shapes.", "anchors": ["gcodeutils/stretch/stretch.py:StretchFilter", "gcodeutils/stretch/stretch.py:get_location_from_line", "gcodeutils/stretch/stretch.py:Slic3rStretchFilter", "gcodeutils/stretch/stretch.py:CuraStretchFilter", "gcodeutils/stretch/stretch.py:SkeinforgeStretchFilter"]}
{"id": "C135", "title": "Standard input, pipes and line endings", "statement": "Every command line does with a program on standard input what it does with the same program in a file that is not its output; with --inplace and standard input no file is touched but the output. Two commands joined by a pipe do what they do one after the other with a file in between, also when the first one fails. With Python 3 (newline translation) programs with Unix, Windows and old Macintosh line endings give identical results; with and without translation (Python 3, Python 2) the result is the same unless a carriage return stands inside a line.", "quantifier": "all programs, command lines and their options, files and worlds; all texts; both ways of reading", "why_tests_cant": "The tests call the filters on files with one kind of line ending; none reads standard input, runs a command line or joins two.", "anchors": ["gcodeutils/gcode_mod.py:main", "gcodeutils/gcode_stretch.py:main", "gcodeutils/gcode_optimize_arcs.py:main", "gcodeutils/gcode_tempcal.py:main", "gcodeutils/gcoder.py:main"]}
{"id": "C136", "title": "Vectors of integers and floats in both versions of Python", "statement": "Dividing a Vector3 by a non-zero number and multiplying by it gives an equal vector, whether the components are integers or floats; // rounds down; k / v and k // v raise exactly if a component is zero; /= and getNormalized agree with / in both versions; equal vectors have equal hashes; exactly the zero vector counts as false; attributes set by name can be read back and leave the others alone.", "quantifier": "all vectors with integer and float components, all numbers, Python 2 and 3", "why_tests_cant": "The tests do not divide, hash or test vectors, and each run sees one version of the language and a few numbers.", "anchors": ["gcodeutils/stretch/vector3.py:Vector3.__div__", "gcodeutils/stretch/vector3.py:Vector3.__truediv__", "gcodeutils/stretch/vector3.py:Vector3.__hash__", "gcodeutils/stretch/vector3.py:Vector3.__nonzero__", "gcodeutils/stretch/vector3.py:Vector3._setAccessibleAttribute"]}
{"id": "C137", "title": "Options in one run or in several", "statement": "Running gcode_mod several times, each time on its own output and each time with any of -x, -y and -e, gives the text that one run applying all these filters would give; in particular -x and -y in one run and -e in another, in either order, give exactly the output of one run with all of them, and so does inserting the pauses (-p) in a run of their own.", "quantifier": "All programs, all sequences of runs and options of any length, all amounts and layers to pause at, all coordinate and extrusion modes, with G92 resets.", "why_tests_cant": "Between two runs every number is rounded, comments disappear and the modes are read back from the text; whether any of this shows in the result depends on every line and every amount.", "anchors": ["gcodeutils/gcode_mod.py:main", "gcodeutils/filter/translate.py:GCodeXYTranslateFilter", "gcodeutils/filter/relative_extrusion.py:GCodeToRelativeExtrusionFilter", "gcodeutils/gcoder.py:GCode", "gcodeutils/visit/pause_at_layer.py:PauseAtLayer"]}
{"id": "C138", "title": "Temperature towers of moved and of converted programs", "statement": "Moving a program (gcode_mod -x, -y) and giving it a temperature gradient (gcode_tempcal) can be done in either order: both orders print exactly the same text, with the temperature commands at the same places. The same holds for converting it to relative extrusion (gcode_mod -e) and giving it the gradient, and for moving and converting it in one run. Which layers a program has, their heights and the height at each line depend only on its commands, its Z words and its E words.", "quantifier": "All programs of any length, all amounts, all temperature rules (continuous, stepwise or any other), all minimum heights.", "why_tests_cant": "The second tool reads back what the first one printed: rounded numbers, dropped comments, inserted lines, layers found again from positions and extrusion. Whether any of it shows depends on every line of the program.", "anchors": ["gcodeutils/gcode_tempcal.py:GCodeTempGradient", "gcodeutils/gcode_tempcal.py:GCodeContinuousTempGradient", "gcodeutils/gcode_tempcal.py:GCodeStepTempGradient", "gcodeutils/filter/translate.py:GCodeXYTranslateFilter", "gcodeutils/filter/relative_extrusion.py:GCodeToRelativeExtrusionFilter", "gcodeutils/gcoder.py:GCode"]}
{"id": "C139", "title": "The temperatures of a tower depend only on commands, heights and filament", "statement": "Two programs whose lines agree in their commands, their Z words and their E words (and in the X and Y words of G28) get the same temperature commands in front of the same lines, whatever their movements in X and Y, their speeds and their comments; or both towers fail with the same error.", "quantifier": "All pairs of programs of any length, all temperature rules, all minimum heights.", "why_tests_cant": "Layers and their heights are found from the state of the machine after every line, which also holds positions, speeds and offsets; whether these leak into the result depends on every line.", "anchors": ["gcodeutils/gcode_tempcal.py:GCodeTempGradient", "gcodeutils/gcoder.py:GCode"]}
{"id": "C140", "title": "Layers and printing time of a moved file", "statement": "A file is moved on the bed with gcode_mod -x -y and the written file is loaded again. Its layers have the same heights and as many lines each, its highest Z is the same, and the estimated time of every line, layer and of the whole is the same, except for the first way to the place and the entry into the linear move after it.", "quantifier": "every program in absolute millimetres without G92 whose first X/Y move names both axes and whose numbers have at most three decimals (five for E), and every pair of offsets with at most three decimals", "why_tests_cant": "It relates two complete analyses (load, filter, write, load) for all programs and offsets; the estimate carries speed, direction and place from line to line, so a difference can appear arbitrarily late.", "anchors": ["gcodeutils/gcode_mod.py:main", "gcodeutils/filter/translate.py:GCodeXYTranslateFilter.opcode_filter", "gcodeutils/gcoder.py:GCode._preprocess", "gcodeutils/gcoder.py:PyLine"]}
{"id": "C141", "title": "Higher feed rates never make the estimated time longer", "statement": "Two programs have the same lines, but the feed rates of linear moves in the second are at least as high. Loaded, both have the same layers, and no line, no layer and not the whole is estimated to take longer in the second.", "quantifier": "All pairs of programs of any length that differ only in feed rates, where every linear move of the slower one has a positive feed rate, its own or an earlier one.", "why_tests_cant": "The estimate has separate formulas for speeding up, slowing down and short moves, whose boundaries depend on the speeds before and after and on the length; a jump at a boundary would show only for particular combinations of feed rates.", "anchors": ["gcodeutils/gcoder.py:GCode._preprocess", "gcodeutils/gcoder.py:GCode.estimate_duration"]}
{"id": "C142", "title": "A tower or pauses do not change the analysis", "statement": "A file with a temperature tower (whatever rule gives the temperatures, and also where a temperature outside the safety range is written as an empty line) can be read again, and the analysis finds in it exactly what it finds in the original file: the final position, the list of heights, the extruded filament, the bounding box, the estimated total time and, layer by layer, height and estimated time; every layer has its original lines, in order, and otherwise only lines that have nothing to do with motion. The same holds for the file that any number of pause runs, each on the output of the one before, finally writes (for heavy programs: no two layers look alike and the original has no M226, cf. C115).", "quantifier": "all program texts and all temperature rules and minimum heights for which the tower tool succeeds; all texts with at least one line and known heights and all finite sequences of pause runs; both program classes for pauses", "why_tests_cant": "programs, temperature rules, layer counts and numbers of runs are unbounded; a test compares two analyses of one file", "anchors": ["gcodeutils/gcode_tempcal.py:GCodeTempGradient", "gcodeutils/visit/pause_at_layer.py:PauseAtLayer", "gcodeutils/gcoder.py:GCode"]}
{"id": "C143", "title": "The beginning of a program is analysed the same way when the program goes on", "statement": "If a file can be read, so can every beginning of it (and if a beginning cannot be read, the whole file fails with the same error). The lines of the beginning, with every position and flag found for them, are the first lines of the whole; all its layers but the last are, with heights, lines and times, the first layers of the whole, and the lines of its last layer are the first lines of the layer with that number; its recorded heights but the last are the first recorded heights of the whole. The whole needs no less filament, takes no less time, is no lower, and its bounding box contains the box of the beginning.", "quantifier": "all files, cut after any number of lines; both program classes", "why_tests_cant": "all files and all places to cut them; a test cuts one file once", "anchors": ["gcodeutils/gcoder.py:GCode", "gcodeutils/gcoder.py:GCode._preprocess"]}
{"id": "C144", "title": "The output for the beginning of a file is the beginning of the output", "statement": "If gcode_mod moves a file, converts it to relative extrusion, or both, then it also does so with every beginning of the file (cut at a line break), and the text it writes for the beginning is, character for character, the beginning of the text it writes for the whole file: what comes later in a file never influences how earlier lines are rewritten. (Temperature towers are different by nature: their temperatures depend on the greatest height.)", "quantifier": "all files for which the run succeeds, all places to cut them at a line break, all amounts and combinations of -x, -y and -e", "why_tests_cant": "all files, cuts and amounts; a test compares two outputs", "anchors": ["gcodeutils/gcode_mod.py:main", "gcodeutils/filter/filter.py:GCodeFilter", "gcodeutils/gcoder.py:GCode"]}
{"id": "C145", "title": "Waiting times count in full, wherever they are", "statement": "If two programs make the same linear moves in the same coordinate modes and differ only in the other lines between them, their estimated durations are the same moving time plus the waits (G4) of each program, in whole seconds. If the estimate is positive, waiting some whole number of seconds more makes it exactly that many seconds longer. Other commands between the moves have no influence.", "quantifier": "all pairs of programs that load and have the same linear moves, whatever other lines stand anywhere between them", "why_tests_cant": "a wait could be lost, or could disturb the speed or position used for the next move, depending on where it stands; a test tries a few places", "anchors": ["gcodeutils/gcoder.py:GCode", "gcodeutils/gcoder.py:GCode._preprocess"]}
{"id": "C146", "title": "How a layer is stretched does not depend on the layers above it", "statement": "If two programs begin with the same layers, no line of the later layers states an edge width, and both can be stretched by the same filter, then the layers they begin with come out identical. In particular all complete layers of the beginning of a file come out as in the whole file. (Without the condition on the edge width this is false. It is also false for the gcode_stretch command when a Cura file is cut before its profile, because the profile decides which filter is used.)", "quantifier": "all pairs of programs with a common beginning in whole layers, all three filters, all settings and decoders; all files cut anywhere", "why_tests_cant": "the filter is one object with state that runs over the whole program, after a first pass over the whole program; a test with one continuation does not exclude an influence of others", "anchors": ["gcodeutils/stretch/stretch.py:StretchFilter.filter", "gcodeutils/stretch/stretch.py:Slic3rStretchFilter.setup_filter", "gcodeutils/stretch/stretch.py:CuraStretchFilter.setup_filter", "gcodeutils/stretch/stretch.py:SkeinforgeStretchFilter.setup_filter", "gcodeutils/gcode_stretch.py"]}
{"id": "C147", "title": "Stretching never divides by zero", "statement": "With positive distances and stretches that are not negative (the default settings with any strength that is not negative) stretching never raises ZeroDivisionError, whatever edge width is stated, zero included, and wherever the points lie, in one place included. It can fail only with ValueError (a width or a word that is no number), with the exception of decoding a Cura profile, with IndexError (Cura programs only) or with AttributeError (Skeinforge programs that state no edge width only), or run forever.", "quantifier": "all programs, all three filters, all settings within these bounds, all stated widths", "why_tests_cant": "the divisors are distances between points met on walks around loops and lengths computed from comments; a test samples a few programs", "anchors": ["gcodeutils/stretch/stretch.py:StretchFilter.get_relative_stretch", "gcodeutils/stretch/stretch.py:StretchFilter.get_cross_limited_stretch", "gcodeutils/stretch/stretch.py:StretchFilter.set_edge_width", "gcodeutils/stretch/stretch.py:StretchFilter.parse_line"]}
