import Verif.Model.Text

/-
  The reference files of the project, gcodeutils/tests/*.gcode (those used in `Conform/Tests`), line by line without line ends.
-/

namespace GCodeUtils.Conform

/-- gcodeutils/tests/simple1.gcode -/
def ref_simple1 : List Str :=
  [c!"G90",
   c!"G0 X0",
   c!"G1 Y1",
   c!"G2 Z2",
   c!"G3 E3"]

/-- gcodeutils/tests/simple1_equivalent.gcode -/
def ref_simple1_equivalent : List Str :=
  [c!"G90",
   c!"G0 X0.00",
   c!"G1 Y1.0000001",
   c!"G2 Z2.",
   c!"G3 E3.0"]

/-- gcodeutils/tests/simple1_slightly_different.gcode -/
def ref_simple1_slightly_different : List Str :=
  [c!"G90",
   c!"G0 X0.01",
   c!"G1 Y1",
   c!"G2 Z2",
   c!"G3 E3"]

/-- gcodeutils/tests/simple2.gcode -/
def ref_simple2 : List Str :=
  [c!"G90",
   c!"G0 X1",
   c!"G1 Y3",
   c!"G2 Z2",
   c!"G3 E3"]

/-- gcodeutils/tests/simple3.gcode -/
def ref_simple3 : List Str :=
  [c!"M82",
   c!"G0 X0 E1",
   c!"G1 Y1 E2",
   c!"G2 Z2 E3",
   c!"G3 X4 E4"]

/-- gcodeutils/tests/simple3-relative.gcode -/
def ref_simple3_relative : List Str :=
  [c!"M83",
   c!"G0 X0 E1",
   c!"G1 Y1 E1",
   c!"G2 Z2 E1",
   c!"G3 X4 E1"]

/-- gcodeutils/tests/empty_for_good.gcode -/
def ref_empty_for_good : List Str :=
  []

/-- gcodeutils/tests/empty_skeinforge_format.gcode -/
def ref_empty_skeinforge_format : List Str :=
  [c!"(<format> skeinforge gcode </format>)",
   c!"(<version> 12.03.14 </version>)",
   c!"(<created> 15.05.26|11:58 </created>)",
   c!"(<extruderInitialization>)"]

/-- gcodeutils/tests/arc_raw_4.gcode -/
def ref_arc_raw_4 : List Str :=
  [c!"G92 E0",
   c!"G1 Z0.350 F6000.000",
   c!"G1 X55.420 Y79.825 F6000.000",
   c!"G1 E2.00000 F900.00000",
   c!"G1 X56.834 Y78.880 E2.04407 F1800.000",
   c!"G1 X57.611 Y78.558 E2.06588",
   c!"G1 X59.072 Y78.267 E2.10448",
   c!"G1 X59.490 Y78.226 E2.11537",
   c!"G1 X185.510 Y78.226 E5.38141",
   c!"G1 X185.928 Y78.267 E5.39229",
   c!"G1 X187.388 Y78.558 E5.43089 F1800.000",
   c!"G1 X188.166 Y78.880 E5.45270",
   c!"G1 X189.580 Y79.824 E5.49678",
   c!"G1 X190.175 Y80.420 E5.51860",
   c!"G1 X191.121 Y81.834 E5.56270",
   c!"G1 X191.443 Y82.613 E5.58454",
   c!"G1 X191.733 Y84.074 E5.62315",
   c!"G1 X191.774 Y84.491 E5.63400",
   c!"G1 X191.774 Y190.509 E8.38167",
   c!"G1 X191.733 Y190.926 E8.39253",
   c!"G1 X191.443 Y192.387 E8.43111",
   c!"G1 X191.121 Y193.166 E8.45296",
   c!"G1 X190.176 Y194.580 E8.49704",
   c!"G1 X189.580 Y195.176 E8.51890",
   c!"G1 X188.166 Y196.121 E8.56298",
   c!"G1 X187.386 Y196.443 E8.58484",
   c!"G1 X185.926 Y196.733 E8.62342",
   c!"G1 X185.509 Y196.774 E8.63427",
   c!"G1 X59.491 Y196.774 E11.90029",
   c!"G1 X59.074 Y196.733 E11.91113",
   c!"G1 X57.613 Y196.443 E11.94974",
   c!"G1 X56.834 Y196.121 E11.97159",
   c!"G1 X55.419 Y195.175 E12.01569",
   c!"G1 X54.824 Y194.580 E12.03751",
   c!"G1 X53.880 Y193.166 E12.08158",
   c!"G1 X53.558 Y192.388 E12.10339",
   c!"G1 X53.267 Y190.928 E12.14199",
   c!"G1 X53.226 Y190.510 E12.15287",
   c!"G1 X53.226 Y84.490 E14.90058",
   c!"G1 X53.267 Y84.072 E14.91146",
   c!"G1 X53.558 Y82.611 E14.95006",
   c!"G1 X53.880 Y81.834 E14.97188",
   c!"G1 X54.825 Y80.420 E15.01595",
   c!"G1 X55.367 Y79.878 E15.03582",
   c!"G1 X55.685 Y80.196 F6000.000",
   c!"G1 X57.047 Y79.279 E15.07837 F1800.000"]

/-- gcodeutils/tests/arc_ref_4.gcode -/
def ref_arc_ref_4 : List Str :=
  [c!"G92 E0",
   c!"G1 Z0.350 F6000.000",
   c!"G1 X55.420 Y79.825 F6000.000",
   c!"G1 E2.00000 F900.00000",
   c!"G1 X56.834 Y78.880 E2.04407 F1800.000",
   c!"G1 X57.611 Y78.558 E2.06588",
   c!"G1 X59.072 Y78.267 E2.10448",
   c!"G1 X59.490 Y78.226 E2.11537",
   c!"G1 X185.510 Y78.226 E5.38141",
   c!"G3 X191.733 Y84.074 E5.62364 F1800.000 I-0.150 J6.409; generated from 8 segments",
   c!"G1 X191.774 Y84.491 E5.63400",
   c!"G1 X191.774 Y190.509 E8.38167",
   c!"G3 X185.926 Y196.733 E8.62391 F1800.000 I-6.407 J-0.148; generated from 8 segments",
   c!"G1 X185.509 Y196.774 E8.63427",
   c!"G1 X59.491 Y196.774 E11.90029",
   c!"G3 X53.267 Y190.928 E12.14248 F1800.000 I0.148 J-6.408; generated from 8 segments",
   c!"G1 X53.226 Y190.510 E12.15287",
   c!"G1 X53.226 Y84.490 E14.90058",
   c!"G1 X53.267 Y84.072 E14.91146",
   c!"G1 X53.558 Y82.611 E14.95006",
   c!"G1 X53.880 Y81.834 E14.97188",
   c!"G1 X54.825 Y80.420 E15.01595",
   c!"G1 X55.367 Y79.878 E15.03582",
   c!"G1 X55.685 Y80.196 F6000.000",
   c!"G1 X57.047 Y79.279 E15.07837 F1800.000"]

/-- gcodeutils/tests/arc_raw_1.gcode -/
def ref_arc_raw_1 : List Str :=
  [c!"M107",
   c!"M190 S125 ; set bed temperature",
   c!"G28 ; home all axes",
   c!"G1 Z5 F5000 ; lift nozzle",
   c!"M109 S270 ; wait for extruder temp to be reached",
   c!"M3001 ; Aktivate Z-Compensation",
   c!"M3004 S0 ; + n-steps bed down // - n-steps bed up!",
   c!"G90 ; use absolute coordinates",
   c!"M82 ; use absolute distances for extrusion",
   c!"G92 E0 ; start line",
   c!"G1 F300 E-0.5",
   c!"G1 X230 Y25 Z0.35 F5000",
   c!"G1 F800 E8",
   c!"G1 X20 E25 F1000",
   c!"M201 X1000 Y1000 Z1000",
   c!"M202 X3000 Y3000 Z1000",
   c!"G21 ; set units to millimeters",
   c!"G90 ; use absolute coordinates",
   c!"M82 ; use absolute distances for extrusion",
   c!"G92 E0",
   c!"G1 E-1.00000 F600.00000",
   c!"G92 E0",
   c!"G1 Z0.350 F6000.000",
   c!"G1 X20 Y20 Z0.0000 E0",
   c!"G1 X80 Y20 Z0.0000 E60",
   c!"G1 X80 Y60 Z0.0000 E100",
   c!"G1 X20 Y60 Z0.0000 E160",
   c!"G1 X20 Y20 Z0.0000 E200",
   c!"G92 E0",
   c!"; begin of test data to be converted into arc",
   c!"M83",
   c!"G0 X100.0000 Y20.0000 Z0  first layer",
   c!"G1 X100.0000 Y60.0000 E1.111111",
   c!"G1 X99.6157 Y63.9018 E0.108908",
   c!"G1 X98.4776 Y67.6537 E0.108908",
   c!"G1 X96.6294 Y71.1114 E0.108908",
   c!"G1 X94.1421 Y74.1421 E0.108908",
   c!"G1 X91.1114 Y76.6294 E0.108908",
   c!"G1 X87.6537 Y78.4776 E0.108908",
   c!"G1 X83.9018 Y79.6157 E0.108908",
   c!"G1 X80.0000 Y80.0000 E0.108908",
   c!"G1 X20.0000 Y80.0000 E1.666667",
   c!"G1 X16.0982 Y79.6157 E0.108908",
   c!"G1 X12.3463 Y78.4776 E0.108908",
   c!"G1 X8.8886 Y76.6294 E0.108908",
   c!"G1 X5.8579 Y74.1421 E0.108908",
   c!"G1 X3.3706 Y71.1114 E0.108908",
   c!"G1 X1.5224 Y67.6537 E0.108908",
   c!"G1 X0.3843 Y63.9018 E0.108908",
   c!"G1 X0.0000 Y60.0000 E0.108908",
   c!"G1 X0.0000 Y20.0000 E1.111111",
   c!"G1 X0.3843 Y16.0982 E0.108908",
   c!"G1 X1.5224 Y12.3463 E0.108908",
   c!"G1 X3.3706 Y8.8886 E0.108908",
   c!"G1 X5.8579 Y5.8579 E0.108908",
   c!"G1 X8.8886 Y3.3706 E0.108908",
   c!"G1 X12.3463 Y1.5224 E0.108908",
   c!"G1 X16.0982 Y0.3843 E0.108908",
   c!"G1 X20.0000 Y0.0000 E0.108908",
   c!"G1 X80.0000 Y0.0000 E1.666667",
   c!"G1 X83.9018 Y0.3843 E0.108908",
   c!"G1 X87.6537 Y1.5224 E0.108908",
   c!"G1 X91.1114 Y3.3706 E0.108908",
   c!"G1 X94.1421 Y5.8579 E0.108908",
   c!"G1 X96.6294 Y8.8886 E0.108908",
   c!"G1 X98.4776 Y12.3463 E0.108908",
   c!"G1 X99.6157 Y16.0982 E0.108908",
   c!"G1 X100.0000 Y20.0000 E0.108908",
   c!"G0 Z1.0000 ; next layer",
   c!"G1 X99.6157 Y16.0982 E0.108908",
   c!"G1 X98.4776 Y12.3463 E0.108908",
   c!"G1 X96.6294 Y8.8886 E0.108908",
   c!"G1 X94.1421 Y5.8579 E0.108908",
   c!"G1 X91.1114 Y3.3706 E0.108908",
   c!"G1 X87.6537 Y1.5224 E0.108908",
   c!"G1 X83.9018 Y0.3843 E0.108908",
   c!"G1 X80.0000 Y0.0000 E0.108908",
   c!"G1 X20.0000 Y0.0000 E1.666667",
   c!"G1 X16.0982 Y0.3843 E0.108908",
   c!"G1 X12.3463 Y1.5224 E0.108908",
   c!"G1 X8.8886 Y3.3706 E0.108908",
   c!"G1 X5.8579 Y5.8579 E0.108908",
   c!"G1 X3.3706 Y8.8886 E0.108908",
   c!"G1 X1.5224 Y12.3463 E0.108908",
   c!"G1 X0.3843 Y16.0982 E0.108908",
   c!"G1 X0.0000 Y20.0000 E0.108908",
   c!"G1 X0.0000 Y60.0000 E1.111111",
   c!"G1 X0.3843 Y63.9018 E0.108908",
   c!"G1 X1.5224 Y67.6537 E0.108908",
   c!"G1 X3.3706 Y71.1114 E0.108908",
   c!"G1 X5.8579 Y74.1421 E0.108908",
   c!"G1 X8.8886 Y76.6294 E0.108908",
   c!"G1 X12.3463 Y78.4776 E0.108908",
   c!"G1 X16.0982 Y79.6157 E0.108908",
   c!"G1 X20.0000 Y80.0000 E0.108908",
   c!"G1 X80.0000 Y80.0000 E1.666667",
   c!"G1 X83.9018 Y79.6157 E0.108908",
   c!"G1 X87.6537 Y78.4776 E0.108908",
   c!"G1 X91.1114 Y76.6294 E0.108908",
   c!"G1 X94.1421 Y74.1421 E0.108908",
   c!"G1 X96.6294 Y71.1114 E0.108908",
   c!"G1 X98.4776 Y67.6537 E0.108908",
   c!"G1 X99.6157 Y63.9018 E0.108908",
   c!"G1 X100.0000 Y60.0000 E0.108908",
   c!"G1 X100.0000 Y20.0000 E1.1111",
   c!"G0 X0 Y0 Z2",
   c!"M82 ; switch back to absolute",
   c!"G92 E0",
   c!"; some real world data to be reduced to 1 arc from 64 segments",
   c!"G1 X59.420 Y190.462 F6000.000",
   c!"G1 X59.663 Y190.337 F6000.000",
   c!"G1 X59.663 Y84.663 E15.29297 F1080.000",
   c!"G1 X185.337 Y84.663 E18.43871",
   c!"G1 X185.337 Y190.337 E21.08384",
   c!"G1 X59.738 Y190.337 E24.22770",
   c!"G1 X67.082 Y94.742 F6000.000",
   c!"G1 X66.669 Y94.681 E24.23817 F900.000",
   c!"G1 X66.263 Y94.579 E24.24864",
   c!"G1 X65.868 Y94.438 E24.25912",
   c!"G1 X65.490 Y94.259 E24.26960",
   c!"G1 X65.132 Y94.044 E24.28006",
   c!"G1 X64.795 Y93.795 E24.29054",
   c!"G1 X64.486 Y93.514 E24.30100",
   c!"G1 X64.205 Y93.204 E24.31147",
   c!"G1 X63.956 Y92.868 E24.32195",
   c!"G1 X63.740 Y92.510 E24.33242",
   c!"G1 X63.561 Y92.131 E24.34290",
   c!"G1 X63.420 Y91.737 E24.35337",
   c!"G1 X63.319 Y91.332 E24.36383",
   c!"G1 X63.257 Y90.918 E24.37430",
   c!"G1 X63.237 Y90.500 E24.38478",
   c!"G1 X63.257 Y90.082 E24.39525",
   c!"G1 X63.319 Y89.668 E24.40572",
   c!"G1 X63.420 Y89.265 E24.41613",
   c!"G1 X63.561 Y88.869 E24.42666",
   c!"G1 X63.740 Y88.490 E24.43713",
   c!"G1 X63.956 Y88.132 E24.44761",
   c!"G1 X64.205 Y87.796 E24.45808",
   c!"G1 X64.486 Y87.486 E24.46855",
   c!"G1 X64.795 Y87.205 E24.47901",
   c!"G1 X65.132 Y86.956 E24.48950",
   c!"G1 X65.490 Y86.741 E24.49995",
   c!"G1 X65.868 Y86.562 E24.51043",
   c!"G1 X66.263 Y86.421 E24.52091",
   c!"G1 X66.669 Y86.319 E24.53139",
   c!"G1 X67.082 Y86.258 E24.54185",
   c!"G1 X67.429 Y86.241 E24.55055 F900.000",
   c!"G1 X67.916 Y86.257 E24.56273",
   c!"G1 X68.331 Y86.319 E24.57325",
   c!"G1 X68.737 Y86.421 E24.58372",
   c!"G1 X69.132 Y86.562 E24.59420",
   c!"G1 X69.510 Y86.741 E24.60468",
   c!"G1 X69.868 Y86.956 E24.61513",
   c!"G1 X70.205 Y87.205 E24.62562",
   c!"G1 X70.514 Y87.486 E24.63608",
   c!"G1 X70.795 Y87.796 E24.64655",
   c!"G1 X71.044 Y88.132 E24.65702",
   c!"G1 X71.260 Y88.490 E24.66750",
   c!"G1 X71.439 Y88.869 E24.67797",
   c!"G1 X71.580 Y89.263 E24.68845",
   c!"G1 X71.681 Y89.668 E24.69891",
   c!"G1 X71.743 Y90.082 E24.70938",
   c!"G1 X71.763 Y90.500 E24.71986",
   c!"G1 X71.743 Y90.918 E24.73033",
   c!"G1 X71.681 Y91.332 E24.74080",
   c!"G1 X71.580 Y91.737 E24.75126",
   c!"G1 X71.439 Y92.131 E24.76174",
   c!"G1 X71.260 Y92.510 E24.77221",
   c!"G1 X71.044 Y92.868 E24.78269",
   c!"G1 X70.795 Y93.204 E24.79316",
   c!"G1 X70.514 Y93.514 E24.80363",
   c!"G1 X70.205 Y93.795 E24.81409",
   c!"G1 X69.868 Y94.044 E24.82458",
   c!"G1 X69.510 Y94.259 E24.83503",
   c!"G1 X69.132 Y94.438 E24.84551",
   c!"G1 X68.737 Y94.579 E24.85599",
   c!"G1 X68.331 Y94.681 E24.86647",
   c!"G1 X67.918 Y94.742 E24.87693",
   c!"G1 X67.500 Y94.763 E24.88740",
   c!"G1 X67.157 Y94.746 E24.89599",
   c!"G1 X66.833 Y95.078 F6000.000",
   c!"G1 X67.060 Y95.192 F6000.000",
   c!"G92 E0",
   c!"M104 S0",
   c!"M140 S0",
   c!"G91",
   c!"G1 E-5 F300",
   c!"M400",
   c!"M3079",
   c!"M400",
   c!"M84",
   c!"M201 X1000 Y1000 Z1000",
   c!"M202 X1000 Y1000 Z1000"]

end GCodeUtils.Conform
