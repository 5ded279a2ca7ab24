import Verif.Tests.Decimal

/-!
# Vector tables of the crate's unit tests: `powi`

Generated by `tools/gen_tests.py` from the `TEST_VECTORS` constants of `/repo/src/float/*.rs`, number by
number.  `d m e` is the decimal literal `m·10^e`, correctly rounded to `f32` as rustc does.
-/

namespace Micromath.Tests
open F32
variable [Cfg]

/-- `/repo/src/float/powi.rs:80-279` -/
def powiVectors0 : List (F32 × F32 × F32) := [
  (-(d 1000000 (-1)), -(d 1280 (-1)), d 0 (-1)),
  (-(d 100 (-1)), -(d 1280 (-1)), d 0 (-1)),
  (-(d 30 (-1)), -(d 1280 (-1)), d 0 (-1)),
  (-(d 20 (-1)), -(d 1280 (-1)), d 2938736 (-45)),
  (-(d 10 (-1)), -(d 1280 (-1)), d 10 (-1)),
  (d 10 (-1), -(d 1280 (-1)), d 10 (-1)),
  (d 20 (-1), -(d 1280 (-1)), d 2938736 (-45)),
  (d 30 (-1), -(d 1280 (-1)), d 0 (-1)),
  (d 100 (-1), -(d 1280 (-1)), d 0 (-1)),
  (d 1000000 (-1), -(d 1280 (-1)), d 0 (-1)),
  (-(d 1000000 (-1)), -(d 1270 (-1)), -(d 0 (-1))),
  (-(d 100 (-1)), -(d 1270 (-1)), -(d 0 (-1))),
  (-(d 30 (-1)), -(d 1270 (-1)), -(d 0 (-1))),
  (-(d 20 (-1)), -(d 1270 (-1)), -(d 5877472 (-45))),
  (-(d 10 (-1)), -(d 1270 (-1)), -(d 10 (-1))),
  (d 10 (-1), -(d 1270 (-1)), d 10 (-1)),
  (d 20 (-1), -(d 1270 (-1)), d 5877472 (-45)),
  (d 30 (-1), -(d 1270 (-1)), d 0 (-1)),
  (d 100 (-1), -(d 1270 (-1)), d 0 (-1)),
  (d 1000000 (-1), -(d 1270 (-1)), d 0 (-1)),
  (-(d 1000000 (-1)), -(d 1260 (-1)), d 0 (-1)),
  (-(d 100 (-1)), -(d 1260 (-1)), d 0 (-1)),
  (-(d 30 (-1)), -(d 1260 (-1)), d 0 (-1)),
  (-(d 20 (-1)), -(d 1260 (-1)), d 11754944 (-45)),
  (-(d 10 (-1)), -(d 1260 (-1)), d 10 (-1)),
  (d 10 (-1), -(d 1260 (-1)), d 10 (-1)),
  (d 20 (-1), -(d 1260 (-1)), d 11754944 (-45)),
  (d 30 (-1), -(d 1260 (-1)), d 0 (-1)),
  (d 100 (-1), -(d 1260 (-1)), d 0 (-1)),
  (d 1000000 (-1), -(d 1260 (-1)), d 0 (-1)),
  (-(d 1000000 (-1)), -(d 1250 (-1)), -(d 0 (-1))),
  (-(d 100 (-1)), -(d 1250 (-1)), -(d 0 (-1))),
  (-(d 30 (-1)), -(d 1250 (-1)), -(d 0 (-1))),
  (-(d 20 (-1)), -(d 1250 (-1)), -(d 23509887 (-45))),
  (-(d 10 (-1)), -(d 1250 (-1)), -(d 10 (-1))),
  (d 10 (-1), -(d 1250 (-1)), d 10 (-1)),
  (d 20 (-1), -(d 1250 (-1)), d 23509887 (-45)),
  (d 30 (-1), -(d 1250 (-1)), d 0 (-1)),
  (d 100 (-1), -(d 1250 (-1)), d 0 (-1)),
  (d 1000000 (-1), -(d 1250 (-1)), d 0 (-1)),
  (-(d 1000000 (-1)), -(d 1240 (-1)), d 0 (-1)),
  (-(d 100 (-1)), -(d 1240 (-1)), d 0 (-1)),
  (-(d 30 (-1)), -(d 1240 (-1)), d 0 (-1)),
  (-(d 20 (-1)), -(d 1240 (-1)), d 47019774 (-45)),
  (-(d 10 (-1)), -(d 1240 (-1)), d 10 (-1)),
  (d 10 (-1), -(d 1240 (-1)), d 10 (-1)),
  (d 20 (-1), -(d 1240 (-1)), d 47019774 (-45)),
  (d 30 (-1), -(d 1240 (-1)), d 0 (-1)),
  (d 100 (-1), -(d 1240 (-1)), d 0 (-1)),
  (d 1000000 (-1), -(d 1240 (-1)), d 0 (-1)),
  (-(d 1000000 (-1)), -(d 1230 (-1)), -(d 0 (-1))),
  (-(d 100 (-1)), -(d 1230 (-1)), -(d 0 (-1))),
  (-(d 30 (-1)), -(d 1230 (-1)), -(d 0 (-1))),
  (-(d 20 (-1)), -(d 1230 (-1)), -(d 9403955 (-44))),
  (-(d 10 (-1)), -(d 1230 (-1)), -(d 10 (-1))),
  (d 10 (-1), -(d 1230 (-1)), d 10 (-1)),
  (d 20 (-1), -(d 1230 (-1)), d 9403955 (-44)),
  (d 30 (-1), -(d 1230 (-1)), d 0 (-1)),
  (d 100 (-1), -(d 1230 (-1)), d 0 (-1)),
  (d 1000000 (-1), -(d 1230 (-1)), d 0 (-1)),
  (-(d 1000000 (-1)), -(d 1220 (-1)), d 0 (-1)),
  (-(d 100 (-1)), -(d 1220 (-1)), d 0 (-1)),
  (-(d 30 (-1)), -(d 1220 (-1)), d 0 (-1)),
  (-(d 20 (-1)), -(d 1220 (-1)), d 1880791 (-43)),
  (-(d 10 (-1)), -(d 1220 (-1)), d 10 (-1)),
  (d 10 (-1), -(d 1220 (-1)), d 10 (-1)),
  (d 20 (-1), -(d 1220 (-1)), d 1880791 (-43)),
  (d 30 (-1), -(d 1220 (-1)), d 0 (-1)),
  (d 100 (-1), -(d 1220 (-1)), d 0 (-1)),
  (d 1000000 (-1), -(d 1220 (-1)), d 0 (-1)),
  (-(d 1000000 (-1)), -(d 1210 (-1)), -(d 0 (-1))),
  (-(d 100 (-1)), -(d 1210 (-1)), -(d 0 (-1))),
  (-(d 30 (-1)), -(d 1210 (-1)), -(d 0 (-1))),
  (-(d 20 (-1)), -(d 1210 (-1)), -(d 3761582 (-43))),
  (-(d 10 (-1)), -(d 1210 (-1)), -(d 10 (-1))),
  (d 10 (-1), -(d 1210 (-1)), d 10 (-1)),
  (d 20 (-1), -(d 1210 (-1)), d 3761582 (-43)),
  (d 30 (-1), -(d 1210 (-1)), d 0 (-1)),
  (d 100 (-1), -(d 1210 (-1)), d 0 (-1)),
  (d 1000000 (-1), -(d 1210 (-1)), d 0 (-1)),
  (-(d 1000000 (-1)), -(d 1200 (-1)), d 0 (-1)),
  (-(d 100 (-1)), -(d 1200 (-1)), d 0 (-1)),
  (-(d 30 (-1)), -(d 1200 (-1)), d 0 (-1)),
  (-(d 20 (-1)), -(d 1200 (-1)), d 7523164 (-43)),
  (-(d 10 (-1)), -(d 1200 (-1)), d 10 (-1)),
  (d 10 (-1), -(d 1200 (-1)), d 10 (-1)),
  (d 20 (-1), -(d 1200 (-1)), d 7523164 (-43)),
  (d 30 (-1), -(d 1200 (-1)), d 0 (-1)),
  (d 100 (-1), -(d 1200 (-1)), d 0 (-1)),
  (d 1000000 (-1), -(d 1200 (-1)), d 0 (-1)),
  (-(d 1000000 (-1)), -(d 1190 (-1)), -(d 0 (-1))),
  (-(d 100 (-1)), -(d 1190 (-1)), -(d 0 (-1))),
  (-(d 30 (-1)), -(d 1190 (-1)), -(d 0 (-1))),
  (-(d 20 (-1)), -(d 1190 (-1)), -(d 15046328 (-43))),
  (-(d 10 (-1)), -(d 1190 (-1)), -(d 10 (-1))),
  (d 10 (-1), -(d 1190 (-1)), d 10 (-1)),
  (d 20 (-1), -(d 1190 (-1)), d 15046328 (-43)),
  (d 30 (-1), -(d 1190 (-1)), d 0 (-1)),
  (d 100 (-1), -(d 1190 (-1)), d 0 (-1)),
  (d 1000000 (-1), -(d 1190 (-1)), d 0 (-1)),
  (-(d 1000000 (-1)), -(d 1180 (-1)), d 0 (-1)),
  (-(d 100 (-1)), -(d 1180 (-1)), d 0 (-1)),
  (-(d 30 (-1)), -(d 1180 (-1)), d 0 (-1)),
  (-(d 20 (-1)), -(d 1180 (-1)), d 30092655 (-43)),
  (-(d 10 (-1)), -(d 1180 (-1)), d 10 (-1)),
  (d 10 (-1), -(d 1180 (-1)), d 10 (-1)),
  (d 20 (-1), -(d 1180 (-1)), d 30092655 (-43)),
  (d 30 (-1), -(d 1180 (-1)), d 0 (-1)),
  (d 100 (-1), -(d 1180 (-1)), d 0 (-1)),
  (d 1000000 (-1), -(d 1180 (-1)), d 0 (-1)),
  (-(d 1000000 (-1)), -(d 1170 (-1)), -(d 0 (-1))),
  (-(d 100 (-1)), -(d 1170 (-1)), -(d 0 (-1))),
  (-(d 30 (-1)), -(d 1170 (-1)), -(d 0 (-1))),
  (-(d 20 (-1)), -(d 1170 (-1)), -(d 6018531 (-42))),
  (-(d 10 (-1)), -(d 1170 (-1)), -(d 10 (-1))),
  (d 10 (-1), -(d 1170 (-1)), d 10 (-1)),
  (d 20 (-1), -(d 1170 (-1)), d 6018531 (-42)),
  (d 30 (-1), -(d 1170 (-1)), d 0 (-1)),
  (d 100 (-1), -(d 1170 (-1)), d 0 (-1)),
  (d 1000000 (-1), -(d 1170 (-1)), d 0 (-1)),
  (-(d 1000000 (-1)), -(d 1160 (-1)), d 0 (-1)),
  (-(d 100 (-1)), -(d 1160 (-1)), d 0 (-1)),
  (-(d 30 (-1)), -(d 1160 (-1)), d 0 (-1)),
  (-(d 20 (-1)), -(d 1160 (-1)), d 12037062 (-42)),
  (-(d 10 (-1)), -(d 1160 (-1)), d 10 (-1)),
  (d 10 (-1), -(d 1160 (-1)), d 10 (-1)),
  (d 20 (-1), -(d 1160 (-1)), d 12037062 (-42)),
  (d 30 (-1), -(d 1160 (-1)), d 0 (-1)),
  (d 100 (-1), -(d 1160 (-1)), d 0 (-1)),
  (d 1000000 (-1), -(d 1160 (-1)), d 0 (-1)),
  (-(d 1000000 (-1)), -(d 1150 (-1)), -(d 0 (-1))),
  (-(d 100 (-1)), -(d 1150 (-1)), -(d 0 (-1))),
  (-(d 30 (-1)), -(d 1150 (-1)), -(d 0 (-1))),
  (-(d 20 (-1)), -(d 1150 (-1)), -(d 24074124 (-42))),
  (-(d 10 (-1)), -(d 1150 (-1)), -(d 10 (-1))),
  (d 10 (-1), -(d 1150 (-1)), d 10 (-1)),
  (d 20 (-1), -(d 1150 (-1)), d 24074124 (-42)),
  (d 30 (-1), -(d 1150 (-1)), d 0 (-1)),
  (d 100 (-1), -(d 1150 (-1)), d 0 (-1)),
  (d 1000000 (-1), -(d 1150 (-1)), d 0 (-1)),
  (-(d 1000000 (-1)), -(d 1140 (-1)), d 0 (-1)),
  (-(d 100 (-1)), -(d 1140 (-1)), d 0 (-1)),
  (-(d 30 (-1)), -(d 1140 (-1)), d 0 (-1)),
  (-(d 20 (-1)), -(d 1140 (-1)), d 4814825 (-41)),
  (-(d 10 (-1)), -(d 1140 (-1)), d 10 (-1)),
  (d 10 (-1), -(d 1140 (-1)), d 10 (-1)),
  (d 20 (-1), -(d 1140 (-1)), d 4814825 (-41)),
  (d 30 (-1), -(d 1140 (-1)), d 0 (-1)),
  (d 100 (-1), -(d 1140 (-1)), d 0 (-1)),
  (d 1000000 (-1), -(d 1140 (-1)), d 0 (-1)),
  (-(d 1000000 (-1)), -(d 1130 (-1)), -(d 0 (-1))),
  (-(d 100 (-1)), -(d 1130 (-1)), -(d 0 (-1))),
  (-(d 30 (-1)), -(d 1130 (-1)), -(d 0 (-1))),
  (-(d 20 (-1)), -(d 1130 (-1)), -(d 962965 (-40))),
  (-(d 10 (-1)), -(d 1130 (-1)), -(d 10 (-1))),
  (d 10 (-1), -(d 1130 (-1)), d 10 (-1)),
  (d 20 (-1), -(d 1130 (-1)), d 962965 (-40)),
  (d 30 (-1), -(d 1130 (-1)), d 0 (-1)),
  (d 100 (-1), -(d 1130 (-1)), d 0 (-1)),
  (d 1000000 (-1), -(d 1130 (-1)), d 0 (-1)),
  (-(d 1000000 (-1)), -(d 1120 (-1)), d 0 (-1)),
  (-(d 100 (-1)), -(d 1120 (-1)), d 0 (-1)),
  (-(d 30 (-1)), -(d 1120 (-1)), d 0 (-1)),
  (-(d 20 (-1)), -(d 1120 (-1)), d 192593 (-39)),
  (-(d 10 (-1)), -(d 1120 (-1)), d 10 (-1)),
  (d 10 (-1), -(d 1120 (-1)), d 10 (-1)),
  (d 20 (-1), -(d 1120 (-1)), d 192593 (-39)),
  (d 30 (-1), -(d 1120 (-1)), d 0 (-1)),
  (d 100 (-1), -(d 1120 (-1)), d 0 (-1)),
  (d 1000000 (-1), -(d 1120 (-1)), d 0 (-1)),
  (-(d 1000000 (-1)), -(d 1110 (-1)), -(d 0 (-1))),
  (-(d 100 (-1)), -(d 1110 (-1)), -(d 0 (-1))),
  (-(d 30 (-1)), -(d 1110 (-1)), -(d 0 (-1))),
  (-(d 20 (-1)), -(d 1110 (-1)), -(d 385186 (-39))),
  (-(d 10 (-1)), -(d 1110 (-1)), -(d 10 (-1))),
  (d 10 (-1), -(d 1110 (-1)), d 10 (-1)),
  (d 20 (-1), -(d 1110 (-1)), d 385186 (-39)),
  (d 30 (-1), -(d 1110 (-1)), d 0 (-1)),
  (d 100 (-1), -(d 1110 (-1)), d 0 (-1)),
  (d 1000000 (-1), -(d 1110 (-1)), d 0 (-1)),
  (-(d 1000000 (-1)), -(d 1100 (-1)), d 0 (-1)),
  (-(d 100 (-1)), -(d 1100 (-1)), d 0 (-1)),
  (-(d 30 (-1)), -(d 1100 (-1)), d 0 (-1)),
  (-(d 20 (-1)), -(d 1100 (-1)), d 770372 (-39)),
  (-(d 10 (-1)), -(d 1100 (-1)), d 10 (-1)),
  (d 10 (-1), -(d 1100 (-1)), d 10 (-1)),
  (d 20 (-1), -(d 1100 (-1)), d 770372 (-39)),
  (d 30 (-1), -(d 1100 (-1)), d 0 (-1)),
  (d 100 (-1), -(d 1100 (-1)), d 0 (-1)),
  (d 1000000 (-1), -(d 1100 (-1)), d 0 (-1)),
  (-(d 1000000 (-1)), -(d 1090 (-1)), -(d 0 (-1))),
  (-(d 100 (-1)), -(d 1090 (-1)), -(d 0 (-1))),
  (-(d 30 (-1)), -(d 1090 (-1)), -(d 0 (-1))),
  (-(d 20 (-1)), -(d 1090 (-1)), -(d 1540744 (-39))),
  (-(d 10 (-1)), -(d 1090 (-1)), -(d 10 (-1))),
  (d 10 (-1), -(d 1090 (-1)), d 10 (-1)),
  (d 20 (-1), -(d 1090 (-1)), d 1540744 (-39)),
  (d 30 (-1), -(d 1090 (-1)), d 0 (-1)),
  (d 100 (-1), -(d 1090 (-1)), d 0 (-1)),
  (d 1000000 (-1), -(d 1090 (-1)), d 0 (-1))]

/-- `/repo/src/float/powi.rs:280-479` -/
def powiVectors1 : List (F32 × F32 × F32) := [
  (-(d 1000000 (-1)), -(d 1080 (-1)), d 0 (-1)),
  (-(d 100 (-1)), -(d 1080 (-1)), d 0 (-1)),
  (-(d 30 (-1)), -(d 1080 (-1)), d 0 (-1)),
  (-(d 20 (-1)), -(d 1080 (-1)), d 3081488 (-39)),
  (-(d 10 (-1)), -(d 1080 (-1)), d 10 (-1)),
  (d 10 (-1), -(d 1080 (-1)), d 10 (-1)),
  (d 20 (-1), -(d 1080 (-1)), d 3081488 (-39)),
  (d 30 (-1), -(d 1080 (-1)), d 0 (-1)),
  (d 100 (-1), -(d 1080 (-1)), d 0 (-1)),
  (d 1000000 (-1), -(d 1080 (-1)), d 0 (-1)),
  (-(d 1000000 (-1)), -(d 1070 (-1)), -(d 0 (-1))),
  (-(d 100 (-1)), -(d 1070 (-1)), -(d 0 (-1))),
  (-(d 30 (-1)), -(d 1070 (-1)), -(d 0 (-1))),
  (-(d 20 (-1)), -(d 1070 (-1)), -(d 6162976 (-39))),
  (-(d 10 (-1)), -(d 1070 (-1)), -(d 10 (-1))),
  (d 10 (-1), -(d 1070 (-1)), d 10 (-1)),
  (d 20 (-1), -(d 1070 (-1)), d 6162976 (-39)),
  (d 30 (-1), -(d 1070 (-1)), d 0 (-1)),
  (d 100 (-1), -(d 1070 (-1)), d 0 (-1)),
  (d 1000000 (-1), -(d 1070 (-1)), d 0 (-1)),
  (-(d 1000000 (-1)), -(d 1060 (-1)), d 0 (-1)),
  (-(d 100 (-1)), -(d 1060 (-1)), d 0 (-1)),
  (-(d 30 (-1)), -(d 1060 (-1)), d 0 (-1)),
  (-(d 20 (-1)), -(d 1060 (-1)), d 12325952 (-39)),
  (-(d 10 (-1)), -(d 1060 (-1)), d 10 (-1)),
  (d 10 (-1), -(d 1060 (-1)), d 10 (-1)),
  (d 20 (-1), -(d 1060 (-1)), d 12325952 (-39)),
  (d 30 (-1), -(d 1060 (-1)), d 0 (-1)),
  (d 100 (-1), -(d 1060 (-1)), d 0 (-1)),
  (d 1000000 (-1), -(d 1060 (-1)), d 0 (-1)),
  (-(d 1000000 (-1)), -(d 1050 (-1)), -(d 0 (-1))),
  (-(d 100 (-1)), -(d 1050 (-1)), -(d 0 (-1))),
  (-(d 30 (-1)), -(d 1050 (-1)), -(d 0 (-1))),
  (-(d 20 (-1)), -(d 1050 (-1)), -(d 24651903 (-39))),
  (-(d 10 (-1)), -(d 1050 (-1)), -(d 10 (-1))),
  (d 10 (-1), -(d 1050 (-1)), d 10 (-1)),
  (d 20 (-1), -(d 1050 (-1)), d 24651903 (-39)),
  (d 30 (-1), -(d 1050 (-1)), d 0 (-1)),
  (d 100 (-1), -(d 1050 (-1)), d 0 (-1)),
  (d 1000000 (-1), -(d 1050 (-1)), d 0 (-1)),
  (-(d 1000000 (-1)), -(d 1040 (-1)), d 0 (-1)),
  (-(d 100 (-1)), -(d 1040 (-1)), d 0 (-1)),
  (-(d 30 (-1)), -(d 1040 (-1)), d 0 (-1)),
  (-(d 20 (-1)), -(d 1040 (-1)), d 49303807 (-39)),
  (-(d 10 (-1)), -(d 1040 (-1)), d 10 (-1)),
  (d 10 (-1), -(d 1040 (-1)), d 10 (-1)),
  (d 20 (-1), -(d 1040 (-1)), d 49303807 (-39)),
  (d 30 (-1), -(d 1040 (-1)), d 0 (-1)),
  (d 100 (-1), -(d 1040 (-1)), d 0 (-1)),
  (d 1000000 (-1), -(d 1040 (-1)), d 0 (-1)),
  (-(d 1000000 (-1)), -(d 1030 (-1)), -(d 0 (-1))),
  (-(d 100 (-1)), -(d 1030 (-1)), -(d 0 (-1))),
  (-(d 30 (-1)), -(d 1030 (-1)), -(d 0 (-1))),
  (-(d 20 (-1)), -(d 1030 (-1)), -(d 98607613 (-39))),
  (-(d 10 (-1)), -(d 1030 (-1)), -(d 10 (-1))),
  (d 10 (-1), -(d 1030 (-1)), d 10 (-1)),
  (d 20 (-1), -(d 1030 (-1)), d 98607613 (-39)),
  (d 30 (-1), -(d 1030 (-1)), d 0 (-1)),
  (d 100 (-1), -(d 1030 (-1)), d 0 (-1)),
  (d 1000000 (-1), -(d 1030 (-1)), d 0 (-1)),
  (-(d 1000000 (-1)), -(d 1020 (-1)), d 0 (-1)),
  (-(d 100 (-1)), -(d 1020 (-1)), d 0 (-1)),
  (-(d 30 (-1)), -(d 1020 (-1)), d 0 (-1)),
  (-(d 20 (-1)), -(d 1020 (-1)), d 19721523 (-38)),
  (-(d 10 (-1)), -(d 1020 (-1)), d 10 (-1)),
  (d 10 (-1), -(d 1020 (-1)), d 10 (-1)),
  (d 20 (-1), -(d 1020 (-1)), d 19721523 (-38)),
  (d 30 (-1), -(d 1020 (-1)), d 0 (-1)),
  (d 100 (-1), -(d 1020 (-1)), d 0 (-1)),
  (d 1000000 (-1), -(d 1020 (-1)), d 0 (-1)),
  (-(d 1000000 (-1)), -(d 1010 (-1)), -(d 0 (-1))),
  (-(d 100 (-1)), -(d 1010 (-1)), -(d 0 (-1))),
  (-(d 30 (-1)), -(d 1010 (-1)), -(d 0 (-1))),
  (-(d 20 (-1)), -(d 1010 (-1)), -(d 39443045 (-38))),
  (-(d 10 (-1)), -(d 1010 (-1)), -(d 10 (-1))),
  (d 10 (-1), -(d 1010 (-1)), d 10 (-1)),
  (d 20 (-1), -(d 1010 (-1)), d 39443045 (-38)),
  (d 30 (-1), -(d 1010 (-1)), d 0 (-1)),
  (d 100 (-1), -(d 1010 (-1)), d 0 (-1)),
  (d 1000000 (-1), -(d 1010 (-1)), d 0 (-1)),
  (-(d 1000000 (-1)), -(d 1000 (-1)), d 0 (-1)),
  (-(d 100 (-1)), -(d 1000 (-1)), d 0 (-1)),
  (-(d 30 (-1)), -(d 1000 (-1)), d 0 (-1)),
  (-(d 20 (-1)), -(d 1000 (-1)), d 7888609 (-37)),
  (-(d 10 (-1)), -(d 1000 (-1)), d 10 (-1)),
  (d 10 (-1), -(d 1000 (-1)), d 10 (-1)),
  (d 20 (-1), -(d 1000 (-1)), d 7888609 (-37)),
  (d 30 (-1), -(d 1000 (-1)), d 0 (-1)),
  (d 100 (-1), -(d 1000 (-1)), d 0 (-1)),
  (d 1000000 (-1), -(d 1000 (-1)), d 0 (-1)),
  (-(d 1000000 (-1)), -(d 990 (-1)), -(d 0 (-1))),
  (-(d 100 (-1)), -(d 990 (-1)), -(d 0 (-1))),
  (-(d 30 (-1)), -(d 990 (-1)), -(d 0 (-1))),
  (-(d 20 (-1)), -(d 990 (-1)), -(d 15777218 (-37))),
  (-(d 10 (-1)), -(d 990 (-1)), -(d 10 (-1))),
  (d 10 (-1), -(d 990 (-1)), d 10 (-1)),
  (d 20 (-1), -(d 990 (-1)), d 15777218 (-37)),
  (d 30 (-1), -(d 990 (-1)), d 0 (-1)),
  (d 100 (-1), -(d 990 (-1)), d 0 (-1)),
  (d 1000000 (-1), -(d 990 (-1)), d 0 (-1)),
  (-(d 1000000 (-1)), -(d 980 (-1)), d 0 (-1)),
  (-(d 100 (-1)), -(d 980 (-1)), d 0 (-1)),
  (-(d 30 (-1)), -(d 980 (-1)), d 0 (-1)),
  (-(d 20 (-1)), -(d 980 (-1)), d 31554436 (-37)),
  (-(d 10 (-1)), -(d 980 (-1)), d 10 (-1)),
  (d 10 (-1), -(d 980 (-1)), d 10 (-1)),
  (d 20 (-1), -(d 980 (-1)), d 31554436 (-37)),
  (d 30 (-1), -(d 980 (-1)), d 0 (-1)),
  (d 100 (-1), -(d 980 (-1)), d 0 (-1)),
  (d 1000000 (-1), -(d 980 (-1)), d 0 (-1)),
  (-(d 1000000 (-1)), -(d 970 (-1)), -(d 0 (-1))),
  (-(d 100 (-1)), -(d 970 (-1)), -(d 0 (-1))),
  (-(d 30 (-1)), -(d 970 (-1)), -(d 0 (-1))),
  (-(d 20 (-1)), -(d 970 (-1)), -(d 63108872 (-37))),
  (-(d 10 (-1)), -(d 970 (-1)), -(d 10 (-1))),
  (d 10 (-1), -(d 970 (-1)), d 10 (-1)),
  (d 20 (-1), -(d 970 (-1)), d 63108872 (-37)),
  (d 30 (-1), -(d 970 (-1)), d 0 (-1)),
  (d 100 (-1), -(d 970 (-1)), d 0 (-1)),
  (d 1000000 (-1), -(d 970 (-1)), d 0 (-1)),
  (-(d 1000000 (-1)), -(d 960 (-1)), d 0 (-1)),
  (-(d 100 (-1)), -(d 960 (-1)), d 0 (-1)),
  (-(d 30 (-1)), -(d 960 (-1)), d 0 (-1)),
  (-(d 20 (-1)), -(d 960 (-1)), d 12621775 (-36)),
  (-(d 10 (-1)), -(d 960 (-1)), d 10 (-1)),
  (d 10 (-1), -(d 960 (-1)), d 10 (-1)),
  (d 20 (-1), -(d 960 (-1)), d 12621775 (-36)),
  (d 30 (-1), -(d 960 (-1)), d 0 (-1)),
  (d 100 (-1), -(d 960 (-1)), d 0 (-1)),
  (d 1000000 (-1), -(d 960 (-1)), d 0 (-1)),
  (-(d 1000000 (-1)), -(d 950 (-1)), -(d 0 (-1))),
  (-(d 100 (-1)), -(d 950 (-1)), -(d 0 (-1))),
  (-(d 30 (-1)), -(d 950 (-1)), -(d 0 (-1))),
  (-(d 20 (-1)), -(d 950 (-1)), -(d 2524355 (-35))),
  (-(d 10 (-1)), -(d 950 (-1)), -(d 10 (-1))),
  (d 10 (-1), -(d 950 (-1)), d 10 (-1)),
  (d 20 (-1), -(d 950 (-1)), d 2524355 (-35)),
  (d 30 (-1), -(d 950 (-1)), d 0 (-1)),
  (d 100 (-1), -(d 950 (-1)), d 0 (-1)),
  (d 1000000 (-1), -(d 950 (-1)), d 0 (-1)),
  (-(d 1000000 (-1)), -(d 940 (-1)), d 0 (-1)),
  (-(d 100 (-1)), -(d 940 (-1)), d 0 (-1)),
  (-(d 30 (-1)), -(d 940 (-1)), d 1 (-45)),
  (-(d 20 (-1)), -(d 940 (-1)), d 504871 (-34)),
  (-(d 10 (-1)), -(d 940 (-1)), d 10 (-1)),
  (d 10 (-1), -(d 940 (-1)), d 10 (-1)),
  (d 20 (-1), -(d 940 (-1)), d 504871 (-34)),
  (d 30 (-1), -(d 940 (-1)), d 1 (-45)),
  (d 100 (-1), -(d 940 (-1)), d 0 (-1)),
  (d 1000000 (-1), -(d 940 (-1)), d 0 (-1)),
  (-(d 1000000 (-1)), -(d 930 (-1)), -(d 0 (-1))),
  (-(d 100 (-1)), -(d 930 (-1)), -(d 0 (-1))),
  (-(d 30 (-1)), -(d 930 (-1)), -(d 4 (-45))),
  (-(d 20 (-1)), -(d 930 (-1)), -(d 1009742 (-34))),
  (-(d 10 (-1)), -(d 930 (-1)), -(d 10 (-1))),
  (d 10 (-1), -(d 930 (-1)), d 10 (-1)),
  (d 20 (-1), -(d 930 (-1)), d 1009742 (-34)),
  (d 30 (-1), -(d 930 (-1)), d 4 (-45)),
  (d 100 (-1), -(d 930 (-1)), d 0 (-1)),
  (d 1000000 (-1), -(d 930 (-1)), d 0 (-1)),
  (-(d 1000000 (-1)), -(d 920 (-1)), d 0 (-1)),
  (-(d 100 (-1)), -(d 920 (-1)), d 0 (-1)),
  (-(d 30 (-1)), -(d 920 (-1)), d 13 (-45)),
  (-(d 20 (-1)), -(d 920 (-1)), d 2019484 (-34)),
  (-(d 10 (-1)), -(d 920 (-1)), d 10 (-1)),
  (d 10 (-1), -(d 920 (-1)), d 10 (-1)),
  (d 20 (-1), -(d 920 (-1)), d 2019484 (-34)),
  (d 30 (-1), -(d 920 (-1)), d 13 (-45)),
  (d 100 (-1), -(d 920 (-1)), d 0 (-1)),
  (d 1000000 (-1), -(d 920 (-1)), d 0 (-1)),
  (-(d 1000000 (-1)), -(d 910 (-1)), -(d 0 (-1))),
  (-(d 100 (-1)), -(d 910 (-1)), -(d 0 (-1))),
  (-(d 30 (-1)), -(d 910 (-1)), -(d 38 (-45))),
  (-(d 20 (-1)), -(d 910 (-1)), -(d 4038968 (-34))),
  (-(d 10 (-1)), -(d 910 (-1)), -(d 10 (-1))),
  (d 10 (-1), -(d 910 (-1)), d 10 (-1)),
  (d 20 (-1), -(d 910 (-1)), d 4038968 (-34)),
  (d 30 (-1), -(d 910 (-1)), d 38 (-45)),
  (d 100 (-1), -(d 910 (-1)), d 0 (-1)),
  (d 1000000 (-1), -(d 910 (-1)), d 0 (-1)),
  (-(d 1000000 (-1)), -(d 900 (-1)), d 0 (-1)),
  (-(d 100 (-1)), -(d 900 (-1)), d 0 (-1)),
  (-(d 30 (-1)), -(d 900 (-1)), d 115 (-45)),
  (-(d 20 (-1)), -(d 900 (-1)), d 8077936 (-34)),
  (-(d 10 (-1)), -(d 900 (-1)), d 10 (-1)),
  (d 10 (-1), -(d 900 (-1)), d 10 (-1)),
  (d 20 (-1), -(d 900 (-1)), d 8077936 (-34)),
  (d 30 (-1), -(d 900 (-1)), d 115 (-45)),
  (d 100 (-1), -(d 900 (-1)), d 0 (-1)),
  (d 1000000 (-1), -(d 900 (-1)), d 0 (-1)),
  (-(d 1000000 (-1)), -(d 890 (-1)), -(d 0 (-1))),
  (-(d 100 (-1)), -(d 890 (-1)), -(d 0 (-1))),
  (-(d 30 (-1)), -(d 890 (-1)), -(d 343 (-45))),
  (-(d 20 (-1)), -(d 890 (-1)), -(d 16155871 (-34))),
  (-(d 10 (-1)), -(d 890 (-1)), -(d 10 (-1))),
  (d 10 (-1), -(d 890 (-1)), d 10 (-1)),
  (d 20 (-1), -(d 890 (-1)), d 16155871 (-34)),
  (d 30 (-1), -(d 890 (-1)), d 343 (-45)),
  (d 100 (-1), -(d 890 (-1)), d 0 (-1)),
  (d 1000000 (-1), -(d 890 (-1)), d 0 (-1))]

/-- `/repo/src/float/powi.rs:480-679` -/
def powiVectors2 : List (F32 × F32 × F32) := [
  (-(d 1000000 (-1)), -(d 880 (-1)), d 0 (-1)),
  (-(d 100 (-1)), -(d 880 (-1)), d 0 (-1)),
  (-(d 30 (-1)), -(d 880 (-1)), d 1031 (-45)),
  (-(d 20 (-1)), -(d 880 (-1)), d 32311743 (-34)),
  (-(d 10 (-1)), -(d 880 (-1)), d 10 (-1)),
  (d 10 (-1), -(d 880 (-1)), d 10 (-1)),
  (d 20 (-1), -(d 880 (-1)), d 32311743 (-34)),
  (d 30 (-1), -(d 880 (-1)), d 1031 (-45)),
  (d 100 (-1), -(d 880 (-1)), d 0 (-1)),
  (d 1000000 (-1), -(d 880 (-1)), d 0 (-1)),
  (-(d 1000000 (-1)), -(d 870 (-1)), -(d 0 (-1))),
  (-(d 100 (-1)), -(d 870 (-1)), -(d 0 (-1))),
  (-(d 30 (-1)), -(d 870 (-1)), -(d 3094 (-45))),
  (-(d 20 (-1)), -(d 870 (-1)), -(d 64623485 (-34))),
  (-(d 10 (-1)), -(d 870 (-1)), -(d 10 (-1))),
  (d 10 (-1), -(d 870 (-1)), d 10 (-1)),
  (d 20 (-1), -(d 870 (-1)), d 64623485 (-34)),
  (d 30 (-1), -(d 870 (-1)), d 3094 (-45)),
  (d 100 (-1), -(d 870 (-1)), d 0 (-1)),
  (d 1000000 (-1), -(d 870 (-1)), d 0 (-1)),
  (-(d 1000000 (-1)), -(d 860 (-1)), d 0 (-1)),
  (-(d 100 (-1)), -(d 860 (-1)), d 0 (-1)),
  (-(d 30 (-1)), -(d 860 (-1)), d 9281 (-45)),
  (-(d 20 (-1)), -(d 860 (-1)), d 12924697 (-33)),
  (-(d 10 (-1)), -(d 860 (-1)), d 10 (-1)),
  (d 10 (-1), -(d 860 (-1)), d 10 (-1)),
  (d 20 (-1), -(d 860 (-1)), d 12924697 (-33)),
  (d 30 (-1), -(d 860 (-1)), d 9281 (-45)),
  (d 100 (-1), -(d 860 (-1)), d 0 (-1)),
  (d 1000000 (-1), -(d 860 (-1)), d 0 (-1)),
  (-(d 1000000 (-1)), -(d 850 (-1)), -(d 0 (-1))),
  (-(d 100 (-1)), -(d 850 (-1)), -(d 0 (-1))),
  (-(d 30 (-1)), -(d 850 (-1)), -(d 27841 (-45))),
  (-(d 20 (-1)), -(d 850 (-1)), -(d 25849394 (-33))),
  (-(d 10 (-1)), -(d 850 (-1)), -(d 10 (-1))),
  (d 10 (-1), -(d 850 (-1)), d 10 (-1)),
  (d 20 (-1), -(d 850 (-1)), d 25849394 (-33)),
  (d 30 (-1), -(d 850 (-1)), d 27841 (-45)),
  (d 100 (-1), -(d 850 (-1)), d 0 (-1)),
  (d 1000000 (-1), -(d 850 (-1)), d 0 (-1)),
  (-(d 1000000 (-1)), -(d 840 (-1)), d 0 (-1)),
  (-(d 100 (-1)), -(d 840 (-1)), d 0 (-1)),
  (-(d 30 (-1)), -(d 840 (-1)), d 83524 (-45)),
  (-(d 20 (-1)), -(d 840 (-1)), d 5169879 (-32)),
  (-(d 10 (-1)), -(d 840 (-1)), d 10 (-1)),
  (d 10 (-1), -(d 840 (-1)), d 10 (-1)),
  (d 20 (-1), -(d 840 (-1)), d 5169879 (-32)),
  (d 30 (-1), -(d 840 (-1)), d 83524 (-45)),
  (d 100 (-1), -(d 840 (-1)), d 0 (-1)),
  (d 1000000 (-1), -(d 840 (-1)), d 0 (-1)),
  (-(d 1000000 (-1)), -(d 830 (-1)), -(d 0 (-1))),
  (-(d 100 (-1)), -(d 830 (-1)), -(d 0 (-1))),
  (-(d 30 (-1)), -(d 830 (-1)), -(d 250575 (-45))),
  (-(d 20 (-1)), -(d 830 (-1)), -(d 10339758 (-32))),
  (-(d 10 (-1)), -(d 830 (-1)), -(d 10 (-1))),
  (d 10 (-1), -(d 830 (-1)), d 10 (-1)),
  (d 20 (-1), -(d 830 (-1)), d 10339758 (-32)),
  (d 30 (-1), -(d 830 (-1)), d 250575 (-45)),
  (d 100 (-1), -(d 830 (-1)), d 0 (-1)),
  (d 1000000 (-1), -(d 830 (-1)), d 0 (-1)),
  (-(d 1000000 (-1)), -(d 820 (-1)), d 0 (-1)),
  (-(d 100 (-1)), -(d 820 (-1)), d 0 (-1)),
  (-(d 30 (-1)), -(d 820 (-1)), d 751722 (-45)),
  (-(d 20 (-1)), -(d 820 (-1)), d 20679515 (-32)),
  (-(d 10 (-1)), -(d 820 (-1)), d 10 (-1)),
  (d 10 (-1), -(d 820 (-1)), d 10 (-1)),
  (d 20 (-1), -(d 820 (-1)), d 20679515 (-32)),
  (d 30 (-1), -(d 820 (-1)), d 751722 (-45)),
  (d 100 (-1), -(d 820 (-1)), d 0 (-1)),
  (d 1000000 (-1), -(d 820 (-1)), d 0 (-1)),
  (-(d 1000000 (-1)), -(d 810 (-1)), -(d 0 (-1))),
  (-(d 100 (-1)), -(d 810 (-1)), -(d 0 (-1))),
  (-(d 30 (-1)), -(d 810 (-1)), -(d 2255166 (-45))),
  (-(d 20 (-1)), -(d 810 (-1)), -(d 4135903 (-31))),
  (-(d 10 (-1)), -(d 810 (-1)), -(d 10 (-1))),
  (d 10 (-1), -(d 810 (-1)), d 10 (-1)),
  (d 20 (-1), -(d 810 (-1)), d 4135903 (-31)),
  (d 30 (-1), -(d 810 (-1)), d 2255166 (-45)),
  (d 100 (-1), -(d 810 (-1)), d 0 (-1)),
  (d 1000000 (-1), -(d 810 (-1)), d 0 (-1)),
  (-(d 1000000 (-1)), -(d 800 (-1)), d 0 (-1)),
  (-(d 100 (-1)), -(d 800 (-1)), d 0 (-1)),
  (-(d 30 (-1)), -(d 800 (-1)), d 6765496 (-45)),
  (-(d 20 (-1)), -(d 800 (-1)), d 8271806 (-31)),
  (-(d 10 (-1)), -(d 800 (-1)), d 10 (-1)),
  (d 10 (-1), -(d 800 (-1)), d 10 (-1)),
  (d 20 (-1), -(d 800 (-1)), d 8271806 (-31)),
  (d 30 (-1), -(d 800 (-1)), d 6765496 (-45)),
  (d 100 (-1), -(d 800 (-1)), d 0 (-1)),
  (d 1000000 (-1), -(d 800 (-1)), d 0 (-1)),
  (-(d 1000000 (-1)), -(d 790 (-1)), -(d 0 (-1))),
  (-(d 100 (-1)), -(d 790 (-1)), -(d 0 (-1))),
  (-(d 30 (-1)), -(d 790 (-1)), -(d 20296487 (-45))),
  (-(d 20 (-1)), -(d 790 (-1)), -(d 16543612 (-31))),
  (-(d 10 (-1)), -(d 790 (-1)), -(d 10 (-1))),
  (d 10 (-1), -(d 790 (-1)), d 10 (-1)),
  (d 20 (-1), -(d 790 (-1)), d 16543612 (-31)),
  (d 30 (-1), -(d 790 (-1)), d 20296487 (-45)),
  (d 100 (-1), -(d 790 (-1)), d 0 (-1)),
  (d 1000000 (-1), -(d 790 (-1)), d 0 (-1)),
  (-(d 1000000 (-1)), -(d 780 (-1)), d 0 (-1)),
  (-(d 100 (-1)), -(d 780 (-1)), d 0 (-1)),
  (-(d 30 (-1)), -(d 780 (-1)), d 6088946 (-44)),
  (-(d 20 (-1)), -(d 780 (-1)), d 33087225 (-31)),
  (-(d 10 (-1)), -(d 780 (-1)), d 10 (-1)),
  (d 10 (-1), -(d 780 (-1)), d 10 (-1)),
  (d 20 (-1), -(d 780 (-1)), d 33087225 (-31)),
  (d 30 (-1), -(d 780 (-1)), d 6088946 (-44)),
  (d 100 (-1), -(d 780 (-1)), d 0 (-1)),
  (d 1000000 (-1), -(d 780 (-1)), d 0 (-1)),
  (-(d 1000000 (-1)), -(d 770 (-1)), -(d 0 (-1))),
  (-(d 100 (-1)), -(d 770 (-1)), -(d 0 (-1))),
  (-(d 30 (-1)), -(d 770 (-1)), -(d 18266838 (-44))),
  (-(d 20 (-1)), -(d 770 (-1)), -(d 6617445 (-30))),
  (-(d 10 (-1)), -(d 770 (-1)), -(d 10 (-1))),
  (d 10 (-1), -(d 770 (-1)), d 10 (-1)),
  (d 20 (-1), -(d 770 (-1)), d 6617445 (-30)),
  (d 30 (-1), -(d 770 (-1)), d 18266838 (-44)),
  (d 100 (-1), -(d 770 (-1)), d 0 (-1)),
  (d 1000000 (-1), -(d 770 (-1)), d 0 (-1)),
  (-(d 1000000 (-1)), -(d 760 (-1)), d 0 (-1)),
  (-(d 100 (-1)), -(d 760 (-1)), d 0 (-1)),
  (-(d 30 (-1)), -(d 760 (-1)), d 54800514 (-44)),
  (-(d 20 (-1)), -(d 760 (-1)), d 1323489 (-29)),
  (-(d 10 (-1)), -(d 760 (-1)), d 10 (-1)),
  (d 10 (-1), -(d 760 (-1)), d 10 (-1)),
  (d 20 (-1), -(d 760 (-1)), d 1323489 (-29)),
  (d 30 (-1), -(d 760 (-1)), d 54800514 (-44)),
  (d 100 (-1), -(d 760 (-1)), d 0 (-1)),
  (d 1000000 (-1), -(d 760 (-1)), d 0 (-1)),
  (-(d 1000000 (-1)), -(d 750 (-1)), -(d 0 (-1))),
  (-(d 100 (-1)), -(d 750 (-1)), -(d 0 (-1))),
  (-(d 30 (-1)), -(d 750 (-1)), -(d 16440154 (-43))),
  (-(d 20 (-1)), -(d 750 (-1)), -(d 2646978 (-29))),
  (-(d 10 (-1)), -(d 750 (-1)), -(d 10 (-1))),
  (d 10 (-1), -(d 750 (-1)), d 10 (-1)),
  (d 20 (-1), -(d 750 (-1)), d 2646978 (-29)),
  (d 30 (-1), -(d 750 (-1)), d 16440154 (-43)),
  (d 100 (-1), -(d 750 (-1)), d 0 (-1)),
  (d 1000000 (-1), -(d 750 (-1)), d 0 (-1)),
  (-(d 1000000 (-1)), -(d 740 (-1)), d 0 (-1)),
  (-(d 100 (-1)), -(d 740 (-1)), d 0 (-1)),
  (-(d 30 (-1)), -(d 740 (-1)), d 49320465 (-43)),
  (-(d 20 (-1)), -(d 740 (-1)), d 5293956 (-29)),
  (-(d 10 (-1)), -(d 740 (-1)), d 10 (-1)),
  (d 10 (-1), -(d 740 (-1)), d 10 (-1)),
  (d 20 (-1), -(d 740 (-1)), d 5293956 (-29)),
  (d 30 (-1), -(d 740 (-1)), d 49320465 (-43)),
  (d 100 (-1), -(d 740 (-1)), d 0 (-1)),
  (d 1000000 (-1), -(d 740 (-1)), d 0 (-1)),
  (-(d 1000000 (-1)), -(d 730 (-1)), -(d 0 (-1))),
  (-(d 100 (-1)), -(d 730 (-1)), -(d 0 (-1))),
  (-(d 30 (-1)), -(d 730 (-1)), -(d 14796139 (-42))),
  (-(d 20 (-1)), -(d 730 (-1)), -(d 10587912 (-29))),
  (-(d 10 (-1)), -(d 730 (-1)), -(d 10 (-1))),
  (d 10 (-1), -(d 730 (-1)), d 10 (-1)),
  (d 20 (-1), -(d 730 (-1)), d 10587912 (-29)),
  (d 30 (-1), -(d 730 (-1)), d 14796139 (-42)),
  (d 100 (-1), -(d 730 (-1)), d 0 (-1)),
  (d 1000000 (-1), -(d 730 (-1)), d 0 (-1)),
  (-(d 1000000 (-1)), -(d 720 (-1)), d 0 (-1)),
  (-(d 100 (-1)), -(d 720 (-1)), d 0 (-1)),
  (-(d 30 (-1)), -(d 720 (-1)), d 44388417 (-42)),
  (-(d 20 (-1)), -(d 720 (-1)), d 21175824 (-29)),
  (-(d 10 (-1)), -(d 720 (-1)), d 10 (-1)),
  (d 10 (-1), -(d 720 (-1)), d 10 (-1)),
  (d 20 (-1), -(d 720 (-1)), d 21175824 (-29)),
  (d 30 (-1), -(d 720 (-1)), d 44388417 (-42)),
  (d 100 (-1), -(d 720 (-1)), d 0 (-1)),
  (d 1000000 (-1), -(d 720 (-1)), d 0 (-1)),
  (-(d 1000000 (-1)), -(d 710 (-1)), -(d 0 (-1))),
  (-(d 100 (-1)), -(d 710 (-1)), -(d 0 (-1))),
  (-(d 30 (-1)), -(d 710 (-1)), -(d 13316525 (-41))),
  (-(d 20 (-1)), -(d 710 (-1)), -(d 42351647 (-29))),
  (-(d 10 (-1)), -(d 710 (-1)), -(d 10 (-1))),
  (d 10 (-1), -(d 710 (-1)), d 10 (-1)),
  (d 20 (-1), -(d 710 (-1)), d 42351647 (-29)),
  (d 30 (-1), -(d 710 (-1)), d 13316525 (-41)),
  (d 100 (-1), -(d 710 (-1)), d 0 (-1)),
  (d 1000000 (-1), -(d 710 (-1)), d 0 (-1)),
  (-(d 1000000 (-1)), -(d 700 (-1)), d 0 (-1)),
  (-(d 100 (-1)), -(d 700 (-1)), d 0 (-1)),
  (-(d 30 (-1)), -(d 700 (-1)), d 39949575 (-41)),
  (-(d 20 (-1)), -(d 700 (-1)), d 84703295 (-29)),
  (-(d 10 (-1)), -(d 700 (-1)), d 10 (-1)),
  (d 10 (-1), -(d 700 (-1)), d 10 (-1)),
  (d 20 (-1), -(d 700 (-1)), d 84703295 (-29)),
  (d 30 (-1), -(d 700 (-1)), d 39949575 (-41)),
  (d 100 (-1), -(d 700 (-1)), d 0 (-1)),
  (d 1000000 (-1), -(d 700 (-1)), d 0 (-1)),
  (-(d 1000000 (-1)), -(d 690 (-1)), -(d 0 (-1))),
  (-(d 100 (-1)), -(d 690 (-1)), -(d 0 (-1))),
  (-(d 30 (-1)), -(d 690 (-1)), -(d 11984873 (-40))),
  (-(d 20 (-1)), -(d 690 (-1)), -(d 16940659 (-28))),
  (-(d 10 (-1)), -(d 690 (-1)), -(d 10 (-1))),
  (d 10 (-1), -(d 690 (-1)), d 10 (-1)),
  (d 20 (-1), -(d 690 (-1)), d 16940659 (-28)),
  (d 30 (-1), -(d 690 (-1)), d 11984873 (-40)),
  (d 100 (-1), -(d 690 (-1)), d 0 (-1)),
  (d 1000000 (-1), -(d 690 (-1)), d 0 (-1))]

/-- `/repo/src/float/powi.rs:680-879` -/
def powiVectors3 : List (F32 × F32 × F32) := [
  (-(d 1000000 (-1)), -(d 680 (-1)), d 0 (-1)),
  (-(d 100 (-1)), -(d 680 (-1)), d 0 (-1)),
  (-(d 30 (-1)), -(d 680 (-1)), d 35954618 (-40)),
  (-(d 20 (-1)), -(d 680 (-1)), d 33881318 (-28)),
  (-(d 10 (-1)), -(d 680 (-1)), d 10 (-1)),
  (d 10 (-1), -(d 680 (-1)), d 10 (-1)),
  (d 20 (-1), -(d 680 (-1)), d 33881318 (-28)),
  (d 30 (-1), -(d 680 (-1)), d 35954618 (-40)),
  (d 100 (-1), -(d 680 (-1)), d 0 (-1)),
  (d 1000000 (-1), -(d 680 (-1)), d 0 (-1)),
  (-(d 1000000 (-1)), -(d 670 (-1)), -(d 0 (-1))),
  (-(d 100 (-1)), -(d 670 (-1)), -(d 0 (-1))),
  (-(d 30 (-1)), -(d 670 (-1)), -(d 107863854 (-40))),
  (-(d 20 (-1)), -(d 670 (-1)), -(d 67762636 (-28))),
  (-(d 10 (-1)), -(d 670 (-1)), -(d 10 (-1))),
  (d 10 (-1), -(d 670 (-1)), d 10 (-1)),
  (d 20 (-1), -(d 670 (-1)), d 67762636 (-28)),
  (d 30 (-1), -(d 670 (-1)), d 107863854 (-40)),
  (d 100 (-1), -(d 670 (-1)), d 0 (-1)),
  (d 1000000 (-1), -(d 670 (-1)), d 0 (-1)),
  (-(d 1000000 (-1)), -(d 660 (-1)), d 0 (-1)),
  (-(d 100 (-1)), -(d 660 (-1)), d 0 (-1)),
  (-(d 30 (-1)), -(d 660 (-1)), d 32359155 (-39)),
  (-(d 20 (-1)), -(d 660 (-1)), d 13552527 (-27)),
  (-(d 10 (-1)), -(d 660 (-1)), d 10 (-1)),
  (d 10 (-1), -(d 660 (-1)), d 10 (-1)),
  (d 20 (-1), -(d 660 (-1)), d 13552527 (-27)),
  (d 30 (-1), -(d 660 (-1)), d 32359155 (-39)),
  (d 100 (-1), -(d 660 (-1)), d 0 (-1)),
  (d 1000000 (-1), -(d 660 (-1)), d 0 (-1)),
  (-(d 1000000 (-1)), -(d 650 (-1)), -(d 0 (-1))),
  (-(d 100 (-1)), -(d 650 (-1)), -(d 0 (-1))),
  (-(d 30 (-1)), -(d 650 (-1)), -(d 97077466 (-39))),
  (-(d 20 (-1)), -(d 650 (-1)), -(d 27105054 (-27))),
  (-(d 10 (-1)), -(d 650 (-1)), -(d 10 (-1))),
  (d 10 (-1), -(d 650 (-1)), d 10 (-1)),
  (d 20 (-1), -(d 650 (-1)), d 27105054 (-27)),
  (d 30 (-1), -(d 650 (-1)), d 97077466 (-39)),
  (d 100 (-1), -(d 650 (-1)), d 0 (-1)),
  (d 1000000 (-1), -(d 650 (-1)), d 0 (-1)),
  (-(d 1000000 (-1)), -(d 640 (-1)), d 0 (-1)),
  (-(d 100 (-1)), -(d 640 (-1)), d 0 (-1)),
  (-(d 30 (-1)), -(d 640 (-1)), d 29123242 (-38)),
  (-(d 20 (-1)), -(d 640 (-1)), d 5421011 (-26)),
  (-(d 10 (-1)), -(d 640 (-1)), d 10 (-1)),
  (d 10 (-1), -(d 640 (-1)), d 10 (-1)),
  (d 20 (-1), -(d 640 (-1)), d 5421011 (-26)),
  (d 30 (-1), -(d 640 (-1)), d 29123242 (-38)),
  (d 100 (-1), -(d 640 (-1)), d 0 (-1)),
  (d 1000000 (-1), -(d 640 (-1)), d 0 (-1)),
  (-(d 1000000 (-1)), -(d 630 (-1)), -(d 0 (-1))),
  (-(d 100 (-1)), -(d 630 (-1)), -(d 0 (-1))),
  (-(d 30 (-1)), -(d 630 (-1)), -(d 8736972 (-37))),
  (-(d 20 (-1)), -(d 630 (-1)), -(d 10842022 (-26))),
  (-(d 10 (-1)), -(d 630 (-1)), -(d 10 (-1))),
  (d 10 (-1), -(d 630 (-1)), d 10 (-1)),
  (d 20 (-1), -(d 630 (-1)), d 10842022 (-26)),
  (d 30 (-1), -(d 630 (-1)), d 8736972 (-37)),
  (d 100 (-1), -(d 630 (-1)), d 0 (-1)),
  (d 1000000 (-1), -(d 630 (-1)), d 0 (-1)),
  (-(d 1000000 (-1)), -(d 620 (-1)), d 0 (-1)),
  (-(d 100 (-1)), -(d 620 (-1)), d 0 (-1)),
  (-(d 30 (-1)), -(d 620 (-1)), d 26210917 (-37)),
  (-(d 20 (-1)), -(d 620 (-1)), d 21684043 (-26)),
  (-(d 10 (-1)), -(d 620 (-1)), d 10 (-1)),
  (d 10 (-1), -(d 620 (-1)), d 10 (-1)),
  (d 20 (-1), -(d 620 (-1)), d 21684043 (-26)),
  (d 30 (-1), -(d 620 (-1)), d 26210917 (-37)),
  (d 100 (-1), -(d 620 (-1)), d 0 (-1)),
  (d 1000000 (-1), -(d 620 (-1)), d 0 (-1)),
  (-(d 1000000 (-1)), -(d 610 (-1)), -(d 0 (-1))),
  (-(d 100 (-1)), -(d 610 (-1)), -(d 0 (-1))),
  (-(d 30 (-1)), -(d 610 (-1)), -(d 7863275 (-36))),
  (-(d 20 (-1)), -(d 610 (-1)), -(d 43368087 (-26))),
  (-(d 10 (-1)), -(d 610 (-1)), -(d 10 (-1))),
  (d 10 (-1), -(d 610 (-1)), d 10 (-1)),
  (d 20 (-1), -(d 610 (-1)), d 43368087 (-26)),
  (d 30 (-1), -(d 610 (-1)), d 7863275 (-36)),
  (d 100 (-1), -(d 610 (-1)), d 0 (-1)),
  (d 1000000 (-1), -(d 610 (-1)), d 0 (-1)),
  (-(d 1000000 (-1)), -(d 600 (-1)), d 0 (-1)),
  (-(d 100 (-1)), -(d 600 (-1)), d 0 (-1)),
  (-(d 30 (-1)), -(d 600 (-1)), d 23589825 (-36)),
  (-(d 20 (-1)), -(d 600 (-1)), d 86736174 (-26)),
  (-(d 10 (-1)), -(d 600 (-1)), d 10 (-1)),
  (d 10 (-1), -(d 600 (-1)), d 10 (-1)),
  (d 20 (-1), -(d 600 (-1)), d 86736174 (-26)),
  (d 30 (-1), -(d 600 (-1)), d 23589825 (-36)),
  (d 100 (-1), -(d 600 (-1)), d 0 (-1)),
  (d 1000000 (-1), -(d 600 (-1)), d 0 (-1)),
  (-(d 1000000 (-1)), -(d 590 (-1)), -(d 0 (-1))),
  (-(d 100 (-1)), -(d 590 (-1)), -(d 0 (-1))),
  (-(d 30 (-1)), -(d 590 (-1)), -(d 70769475 (-36))),
  (-(d 20 (-1)), -(d 590 (-1)), -(d 17347235 (-25))),
  (-(d 10 (-1)), -(d 590 (-1)), -(d 10 (-1))),
  (d 10 (-1), -(d 590 (-1)), d 10 (-1)),
  (d 20 (-1), -(d 590 (-1)), d 17347235 (-25)),
  (d 30 (-1), -(d 590 (-1)), d 70769475 (-36)),
  (d 100 (-1), -(d 590 (-1)), d 0 (-1)),
  (d 1000000 (-1), -(d 590 (-1)), d 0 (-1)),
  (-(d 1000000 (-1)), -(d 580 (-1)), d 0 (-1)),
  (-(d 100 (-1)), -(d 580 (-1)), d 0 (-1)),
  (-(d 30 (-1)), -(d 580 (-1)), d 21230843 (-35)),
  (-(d 20 (-1)), -(d 580 (-1)), d 3469447 (-24)),
  (-(d 10 (-1)), -(d 580 (-1)), d 10 (-1)),
  (d 10 (-1), -(d 580 (-1)), d 10 (-1)),
  (d 20 (-1), -(d 580 (-1)), d 3469447 (-24)),
  (d 30 (-1), -(d 580 (-1)), d 21230843 (-35)),
  (d 100 (-1), -(d 580 (-1)), d 0 (-1)),
  (d 1000000 (-1), -(d 580 (-1)), d 0 (-1)),
  (-(d 1000000 (-1)), -(d 570 (-1)), -(d 0 (-1))),
  (-(d 100 (-1)), -(d 570 (-1)), -(d 0 (-1))),
  (-(d 30 (-1)), -(d 570 (-1)), -(d 63692525 (-35))),
  (-(d 20 (-1)), -(d 570 (-1)), -(d 6938894 (-24))),
  (-(d 10 (-1)), -(d 570 (-1)), -(d 10 (-1))),
  (d 10 (-1), -(d 570 (-1)), d 10 (-1)),
  (d 20 (-1), -(d 570 (-1)), d 6938894 (-24)),
  (d 30 (-1), -(d 570 (-1)), d 63692525 (-35)),
  (d 100 (-1), -(d 570 (-1)), d 0 (-1)),
  (d 1000000 (-1), -(d 570 (-1)), d 0 (-1)),
  (-(d 1000000 (-1)), -(d 560 (-1)), d 0 (-1)),
  (-(d 100 (-1)), -(d 560 (-1)), d 0 (-1)),
  (-(d 30 (-1)), -(d 560 (-1)), d 19107758 (-34)),
  (-(d 20 (-1)), -(d 560 (-1)), d 13877788 (-24)),
  (-(d 10 (-1)), -(d 560 (-1)), d 10 (-1)),
  (d 10 (-1), -(d 560 (-1)), d 10 (-1)),
  (d 20 (-1), -(d 560 (-1)), d 13877788 (-24)),
  (d 30 (-1), -(d 560 (-1)), d 19107758 (-34)),
  (d 100 (-1), -(d 560 (-1)), d 0 (-1)),
  (d 1000000 (-1), -(d 560 (-1)), d 0 (-1)),
  (-(d 1000000 (-1)), -(d 550 (-1)), -(d 0 (-1))),
  (-(d 100 (-1)), -(d 550 (-1)), -(d 0 (-1))),
  (-(d 30 (-1)), -(d 550 (-1)), -(d 57323275 (-34))),
  (-(d 20 (-1)), -(d 550 (-1)), -(d 27755576 (-24))),
  (-(d 10 (-1)), -(d 550 (-1)), -(d 10 (-1))),
  (d 10 (-1), -(d 550 (-1)), d 10 (-1)),
  (d 20 (-1), -(d 550 (-1)), d 27755576 (-24)),
  (d 30 (-1), -(d 550 (-1)), d 57323275 (-34)),
  (d 100 (-1), -(d 550 (-1)), d 0 (-1)),
  (d 1000000 (-1), -(d 550 (-1)), d 0 (-1)),
  (-(d 1000000 (-1)), -(d 540 (-1)), d 0 (-1)),
  (-(d 100 (-1)), -(d 540 (-1)), d 0 (-1)),
  (-(d 30 (-1)), -(d 540 (-1)), d 17196983 (-33)),
  (-(d 20 (-1)), -(d 540 (-1)), d 5551115 (-23)),
  (-(d 10 (-1)), -(d 540 (-1)), d 10 (-1)),
  (d 10 (-1), -(d 540 (-1)), d 10 (-1)),
  (d 20 (-1), -(d 540 (-1)), d 5551115 (-23)),
  (d 30 (-1), -(d 540 (-1)), d 17196983 (-33)),
  (d 100 (-1), -(d 540 (-1)), d 0 (-1)),
  (d 1000000 (-1), -(d 540 (-1)), d 0 (-1)),
  (-(d 1000000 (-1)), -(d 530 (-1)), -(d 0 (-1))),
  (-(d 100 (-1)), -(d 530 (-1)), -(d 0 (-1))),
  (-(d 30 (-1)), -(d 530 (-1)), -(d 5159095 (-32))),
  (-(d 20 (-1)), -(d 530 (-1)), -(d 1110223 (-22))),
  (-(d 10 (-1)), -(d 530 (-1)), -(d 10 (-1))),
  (d 10 (-1), -(d 530 (-1)), d 10 (-1)),
  (d 20 (-1), -(d 530 (-1)), d 1110223 (-22)),
  (d 30 (-1), -(d 530 (-1)), d 5159095 (-32)),
  (d 100 (-1), -(d 530 (-1)), d 0 (-1)),
  (d 1000000 (-1), -(d 530 (-1)), d 0 (-1)),
  (-(d 1000000 (-1)), -(d 520 (-1)), d 0 (-1)),
  (-(d 100 (-1)), -(d 520 (-1)), d 0 (-1)),
  (-(d 30 (-1)), -(d 520 (-1)), d 15477285 (-32)),
  (-(d 20 (-1)), -(d 520 (-1)), d 2220446 (-22)),
  (-(d 10 (-1)), -(d 520 (-1)), d 10 (-1)),
  (d 10 (-1), -(d 520 (-1)), d 10 (-1)),
  (d 20 (-1), -(d 520 (-1)), d 2220446 (-22)),
  (d 30 (-1), -(d 520 (-1)), d 15477285 (-32)),
  (d 100 (-1), -(d 520 (-1)), d 0 (-1)),
  (d 1000000 (-1), -(d 520 (-1)), d 0 (-1)),
  (-(d 1000000 (-1)), -(d 510 (-1)), -(d 0 (-1))),
  (-(d 100 (-1)), -(d 510 (-1)), -(d 0 (-1))),
  (-(d 30 (-1)), -(d 510 (-1)), -(d 4643185 (-31))),
  (-(d 20 (-1)), -(d 510 (-1)), -(d 4440892 (-22))),
  (-(d 10 (-1)), -(d 510 (-1)), -(d 10 (-1))),
  (d 10 (-1), -(d 510 (-1)), d 10 (-1)),
  (d 20 (-1), -(d 510 (-1)), d 4440892 (-22)),
  (d 30 (-1), -(d 510 (-1)), d 4643185 (-31)),
  (d 100 (-1), -(d 510 (-1)), d 0 (-1)),
  (d 1000000 (-1), -(d 510 (-1)), d 0 (-1)),
  (-(d 1000000 (-1)), -(d 500 (-1)), d 0 (-1)),
  (-(d 100 (-1)), -(d 500 (-1)), d 0 (-1)),
  (-(d 30 (-1)), -(d 500 (-1)), d 13929556 (-31)),
  (-(d 20 (-1)), -(d 500 (-1)), d 8881784 (-22)),
  (-(d 10 (-1)), -(d 500 (-1)), d 10 (-1)),
  (d 10 (-1), -(d 500 (-1)), d 10 (-1)),
  (d 20 (-1), -(d 500 (-1)), d 8881784 (-22)),
  (d 30 (-1), -(d 500 (-1)), d 13929556 (-31)),
  (d 100 (-1), -(d 500 (-1)), d 0 (-1)),
  (d 1000000 (-1), -(d 500 (-1)), d 0 (-1)),
  (-(d 1000000 (-1)), -(d 490 (-1)), -(d 0 (-1))),
  (-(d 100 (-1)), -(d 490 (-1)), -(d 0 (-1))),
  (-(d 30 (-1)), -(d 490 (-1)), -(d 41788668 (-31))),
  (-(d 20 (-1)), -(d 490 (-1)), -(d 17763568 (-22))),
  (-(d 10 (-1)), -(d 490 (-1)), -(d 10 (-1))),
  (d 10 (-1), -(d 490 (-1)), d 10 (-1)),
  (d 20 (-1), -(d 490 (-1)), d 17763568 (-22)),
  (d 30 (-1), -(d 490 (-1)), d 41788668 (-31)),
  (d 100 (-1), -(d 490 (-1)), d 0 (-1)),
  (d 1000000 (-1), -(d 490 (-1)), d 0 (-1))]

/-- `/repo/src/float/powi.rs:880-1079` -/
def powiVectors4 : List (F32 × F32 × F32) := [
  (-(d 1000000 (-1)), -(d 480 (-1)), d 0 (-1)),
  (-(d 100 (-1)), -(d 480 (-1)), d 0 (-1)),
  (-(d 30 (-1)), -(d 480 (-1)), d 125366 (-28)),
  (-(d 20 (-1)), -(d 480 (-1)), d 35527137 (-22)),
  (-(d 10 (-1)), -(d 480 (-1)), d 10 (-1)),
  (d 10 (-1), -(d 480 (-1)), d 10 (-1)),
  (d 20 (-1), -(d 480 (-1)), d 35527137 (-22)),
  (d 30 (-1), -(d 480 (-1)), d 125366 (-28)),
  (d 100 (-1), -(d 480 (-1)), d 0 (-1)),
  (d 1000000 (-1), -(d 480 (-1)), d 0 (-1)),
  (-(d 1000000 (-1)), -(d 470 (-1)), -(d 0 (-1))),
  (-(d 100 (-1)), -(d 470 (-1)), -(d 0 (-1))),
  (-(d 30 (-1)), -(d 470 (-1)), -(d 37609802 (-30))),
  (-(d 20 (-1)), -(d 470 (-1)), -(d 71054274 (-22))),
  (-(d 10 (-1)), -(d 470 (-1)), -(d 10 (-1))),
  (d 10 (-1), -(d 470 (-1)), d 10 (-1)),
  (d 20 (-1), -(d 470 (-1)), d 71054274 (-22)),
  (d 30 (-1), -(d 470 (-1)), d 37609802 (-30)),
  (d 100 (-1), -(d 470 (-1)), d 0 (-1)),
  (d 1000000 (-1), -(d 470 (-1)), d 0 (-1)),
  (-(d 1000000 (-1)), -(d 460 (-1)), d 0 (-1)),
  (-(d 100 (-1)), -(d 460 (-1)), d 0 (-1)),
  (-(d 30 (-1)), -(d 460 (-1)), d 1128294 (-28)),
  (-(d 20 (-1)), -(d 460 (-1)), d 14210855 (-21)),
  (-(d 10 (-1)), -(d 460 (-1)), d 10 (-1)),
  (d 10 (-1), -(d 460 (-1)), d 10 (-1)),
  (d 20 (-1), -(d 460 (-1)), d 14210855 (-21)),
  (d 30 (-1), -(d 460 (-1)), d 1128294 (-28)),
  (d 100 (-1), -(d 460 (-1)), d 0 (-1)),
  (d 1000000 (-1), -(d 460 (-1)), d 0 (-1)),
  (-(d 1000000 (-1)), -(d 450 (-1)), -(d 0 (-1))),
  (-(d 100 (-1)), -(d 450 (-1)), -(d 0 (-1))),
  (-(d 30 (-1)), -(d 450 (-1)), -(d 3384882 (-28))),
  (-(d 20 (-1)), -(d 450 (-1)), -(d 2842171 (-20))),
  (-(d 10 (-1)), -(d 450 (-1)), -(d 10 (-1))),
  (d 10 (-1), -(d 450 (-1)), d 10 (-1)),
  (d 20 (-1), -(d 450 (-1)), d 2842171 (-20)),
  (d 30 (-1), -(d 450 (-1)), d 3384882 (-28)),
  (d 100 (-1), -(d 450 (-1)), d 0 (-1)),
  (d 1000000 (-1), -(d 450 (-1)), d 0 (-1)),
  (-(d 1000000 (-1)), -(d 440 (-1)), d 0 (-1)),
  (-(d 100 (-1)), -(d 440 (-1)), d 1 (-44)),
  (-(d 30 (-1)), -(d 440 (-1)), d 10154646 (-28)),
  (-(d 20 (-1)), -(d 440 (-1)), d 5684342 (-20)),
  (-(d 10 (-1)), -(d 440 (-1)), d 10 (-1)),
  (d 10 (-1), -(d 440 (-1)), d 10 (-1)),
  (d 20 (-1), -(d 440 (-1)), d 5684342 (-20)),
  (d 30 (-1), -(d 440 (-1)), d 10154646 (-28)),
  (d 100 (-1), -(d 440 (-1)), d 1 (-44)),
  (d 1000000 (-1), -(d 440 (-1)), d 0 (-1)),
  (-(d 1000000 (-1)), -(d 430 (-1)), -(d 0 (-1))),
  (-(d 100 (-1)), -(d 430 (-1)), -(d 1 (-43))),
  (-(d 30 (-1)), -(d 430 (-1)), -(d 3046394 (-27))),
  (-(d 20 (-1)), -(d 430 (-1)), -(d 11368684 (-20))),
  (-(d 10 (-1)), -(d 430 (-1)), -(d 10 (-1))),
  (d 10 (-1), -(d 430 (-1)), d 10 (-1)),
  (d 20 (-1), -(d 430 (-1)), d 11368684 (-20)),
  (d 30 (-1), -(d 430 (-1)), d 3046394 (-27)),
  (d 100 (-1), -(d 430 (-1)), d 1 (-43)),
  (d 1000000 (-1), -(d 430 (-1)), d 0 (-1)),
  (-(d 1000000 (-1)), -(d 420 (-1)), d 0 (-1)),
  (-(d 100 (-1)), -(d 420 (-1)), d 1 (-42)),
  (-(d 30 (-1)), -(d 420 (-1)), d 9139182 (-27)),
  (-(d 20 (-1)), -(d 420 (-1)), d 22737368 (-20)),
  (-(d 10 (-1)), -(d 420 (-1)), d 10 (-1)),
  (d 10 (-1), -(d 420 (-1)), d 10 (-1)),
  (d 20 (-1), -(d 420 (-1)), d 22737368 (-20)),
  (d 30 (-1), -(d 420 (-1)), d 9139182 (-27)),
  (d 100 (-1), -(d 420 (-1)), d 1 (-42)),
  (d 1000000 (-1), -(d 420 (-1)), d 0 (-1)),
  (-(d 1000000 (-1)), -(d 410 (-1)), -(d 0 (-1))),
  (-(d 100 (-1)), -(d 410 (-1)), -(d 1 (-41))),
  (-(d 30 (-1)), -(d 410 (-1)), -(d 27417544 (-27))),
  (-(d 20 (-1)), -(d 410 (-1)), -(d 45474735 (-20))),
  (-(d 10 (-1)), -(d 410 (-1)), -(d 10 (-1))),
  (d 10 (-1), -(d 410 (-1)), d 10 (-1)),
  (d 20 (-1), -(d 410 (-1)), d 45474735 (-20)),
  (d 30 (-1), -(d 410 (-1)), d 27417544 (-27)),
  (d 100 (-1), -(d 410 (-1)), d 1 (-41)),
  (d 1000000 (-1), -(d 410 (-1)), d 0 (-1)),
  (-(d 1000000 (-1)), -(d 400 (-1)), d 0 (-1)),
  (-(d 100 (-1)), -(d 400 (-1)), d 1 (-40)),
  (-(d 30 (-1)), -(d 400 (-1)), d 82252636 (-27)),
  (-(d 20 (-1)), -(d 400 (-1)), d 9094947 (-19)),
  (-(d 10 (-1)), -(d 400 (-1)), d 10 (-1)),
  (d 10 (-1), -(d 400 (-1)), d 10 (-1)),
  (d 20 (-1), -(d 400 (-1)), d 9094947 (-19)),
  (d 30 (-1), -(d 400 (-1)), d 82252636 (-27)),
  (d 100 (-1), -(d 400 (-1)), d 1 (-40)),
  (d 1000000 (-1), -(d 400 (-1)), d 0 (-1)),
  (-(d 1000000 (-1)), -(d 390 (-1)), -(d 0 (-1))),
  (-(d 100 (-1)), -(d 390 (-1)), -(d 1 (-39))),
  (-(d 30 (-1)), -(d 390 (-1)), -(d 2467579 (-25))),
  (-(d 20 (-1)), -(d 390 (-1)), -(d 18189894 (-19))),
  (-(d 10 (-1)), -(d 390 (-1)), -(d 10 (-1))),
  (d 10 (-1), -(d 390 (-1)), d 10 (-1)),
  (d 20 (-1), -(d 390 (-1)), d 18189894 (-19)),
  (d 30 (-1), -(d 390 (-1)), d 2467579 (-25)),
  (d 100 (-1), -(d 390 (-1)), d 1 (-39)),
  (d 1000000 (-1), -(d 390 (-1)), d 0 (-1)),
  (-(d 1000000 (-1)), -(d 380 (-1)), d 0 (-1)),
  (-(d 100 (-1)), -(d 380 (-1)), d 1 (-38)),
  (-(d 30 (-1)), -(d 380 (-1)), d 7402737 (-25)),
  (-(d 20 (-1)), -(d 380 (-1)), d 3637979 (-18)),
  (-(d 10 (-1)), -(d 380 (-1)), d 10 (-1)),
  (d 10 (-1), -(d 380 (-1)), d 10 (-1)),
  (d 20 (-1), -(d 380 (-1)), d 3637979 (-18)),
  (d 30 (-1), -(d 380 (-1)), d 7402737 (-25)),
  (d 100 (-1), -(d 380 (-1)), d 1 (-38)),
  (d 1000000 (-1), -(d 380 (-1)), d 0 (-1)),
  (-(d 1000000 (-1)), -(d 370 (-1)), -(d 0 (-1))),
  (-(d 100 (-1)), -(d 370 (-1)), -(d 1 (-37))),
  (-(d 30 (-1)), -(d 370 (-1)), -(d 22208211 (-25))),
  (-(d 20 (-1)), -(d 370 (-1)), -(d 7275958 (-18))),
  (-(d 10 (-1)), -(d 370 (-1)), -(d 10 (-1))),
  (d 10 (-1), -(d 370 (-1)), d 10 (-1)),
  (d 20 (-1), -(d 370 (-1)), d 7275958 (-18)),
  (d 30 (-1), -(d 370 (-1)), d 22208211 (-25)),
  (d 100 (-1), -(d 370 (-1)), d 1 (-37)),
  (d 1000000 (-1), -(d 370 (-1)), d 0 (-1)),
  (-(d 1000000 (-1)), -(d 360 (-1)), d 0 (-1)),
  (-(d 100 (-1)), -(d 360 (-1)), d 1 (-36)),
  (-(d 30 (-1)), -(d 360 (-1)), d 66624634 (-25)),
  (-(d 20 (-1)), -(d 360 (-1)), d 14551915 (-18)),
  (-(d 10 (-1)), -(d 360 (-1)), d 10 (-1)),
  (d 10 (-1), -(d 360 (-1)), d 10 (-1)),
  (d 20 (-1), -(d 360 (-1)), d 14551915 (-18)),
  (d 30 (-1), -(d 360 (-1)), d 66624634 (-25)),
  (d 100 (-1), -(d 360 (-1)), d 1 (-36)),
  (d 1000000 (-1), -(d 360 (-1)), d 0 (-1)),
  (-(d 1000000 (-1)), -(d 350 (-1)), -(d 0 (-1))),
  (-(d 100 (-1)), -(d 350 (-1)), -(d 1 (-35))),
  (-(d 30 (-1)), -(d 350 (-1)), -(d 1998739 (-23))),
  (-(d 20 (-1)), -(d 350 (-1)), -(d 2910383 (-17))),
  (-(d 10 (-1)), -(d 350 (-1)), -(d 10 (-1))),
  (d 10 (-1), -(d 350 (-1)), d 10 (-1)),
  (d 20 (-1), -(d 350 (-1)), d 2910383 (-17)),
  (d 30 (-1), -(d 350 (-1)), d 1998739 (-23)),
  (d 100 (-1), -(d 350 (-1)), d 1 (-35)),
  (d 1000000 (-1), -(d 350 (-1)), d 0 (-1)),
  (-(d 1000000 (-1)), -(d 340 (-1)), d 0 (-1)),
  (-(d 100 (-1)), -(d 340 (-1)), d 1 (-34)),
  (-(d 30 (-1)), -(d 340 (-1)), d 5996217 (-23)),
  (-(d 20 (-1)), -(d 340 (-1)), d 5820766 (-17)),
  (-(d 10 (-1)), -(d 340 (-1)), d 10 (-1)),
  (d 10 (-1), -(d 340 (-1)), d 10 (-1)),
  (d 20 (-1), -(d 340 (-1)), d 5820766 (-17)),
  (d 30 (-1), -(d 340 (-1)), d 5996217 (-23)),
  (d 100 (-1), -(d 340 (-1)), d 1 (-34)),
  (d 1000000 (-1), -(d 340 (-1)), d 0 (-1)),
  (-(d 1000000 (-1)), -(d 330 (-1)), -(d 0 (-1))),
  (-(d 100 (-1)), -(d 330 (-1)), -(d 1 (-33))),
  (-(d 30 (-1)), -(d 330 (-1)), -(d 1798865 (-22))),
  (-(d 20 (-1)), -(d 330 (-1)), -(d 11641532 (-17))),
  (-(d 10 (-1)), -(d 330 (-1)), -(d 10 (-1))),
  (d 10 (-1), -(d 330 (-1)), d 10 (-1)),
  (d 20 (-1), -(d 330 (-1)), d 11641532 (-17)),
  (d 30 (-1), -(d 330 (-1)), d 1798865 (-22)),
  (d 100 (-1), -(d 330 (-1)), d 1 (-33)),
  (d 1000000 (-1), -(d 330 (-1)), d 0 (-1)),
  (-(d 1000000 (-1)), -(d 320 (-1)), d 0 (-1)),
  (-(d 100 (-1)), -(d 320 (-1)), d 1 (-32)),
  (-(d 30 (-1)), -(d 320 (-1)), d 5396595 (-22)),
  (-(d 20 (-1)), -(d 320 (-1)), d 23283064 (-17)),
  (-(d 10 (-1)), -(d 320 (-1)), d 10 (-1)),
  (d 10 (-1), -(d 320 (-1)), d 10 (-1)),
  (d 20 (-1), -(d 320 (-1)), d 23283064 (-17)),
  (d 30 (-1), -(d 320 (-1)), d 5396595 (-22)),
  (d 100 (-1), -(d 320 (-1)), d 1 (-32)),
  (d 1000000 (-1), -(d 320 (-1)), d 0 (-1)),
  (-(d 1000000 (-1)), -(d 310 (-1)), -(d 0 (-1))),
  (-(d 100 (-1)), -(d 310 (-1)), -(d 1 (-31))),
  (-(d 30 (-1)), -(d 310 (-1)), -(d 16189785 (-22))),
  (-(d 20 (-1)), -(d 310 (-1)), -(d 4656613 (-16))),
  (-(d 10 (-1)), -(d 310 (-1)), -(d 10 (-1))),
  (d 10 (-1), -(d 310 (-1)), d 10 (-1)),
  (d 20 (-1), -(d 310 (-1)), d 4656613 (-16)),
  (d 30 (-1), -(d 310 (-1)), d 16189785 (-22)),
  (d 100 (-1), -(d 310 (-1)), d 1 (-31)),
  (d 1000000 (-1), -(d 310 (-1)), d 0 (-1)),
  (-(d 1000000 (-1)), -(d 300 (-1)), d 0 (-1)),
  (-(d 100 (-1)), -(d 300 (-1)), d 1 (-30)),
  (-(d 30 (-1)), -(d 300 (-1)), d 48569356 (-22)),
  (-(d 20 (-1)), -(d 300 (-1)), d 9313226 (-16)),
  (-(d 10 (-1)), -(d 300 (-1)), d 10 (-1)),
  (d 10 (-1), -(d 300 (-1)), d 10 (-1)),
  (d 20 (-1), -(d 300 (-1)), d 9313226 (-16)),
  (d 30 (-1), -(d 300 (-1)), d 48569356 (-22)),
  (d 100 (-1), -(d 300 (-1)), d 1 (-30)),
  (d 1000000 (-1), -(d 300 (-1)), d 0 (-1)),
  (-(d 1000000 (-1)), -(d 290 (-1)), -(d 0 (-1))),
  (-(d 100 (-1)), -(d 290 (-1)), -(d 1 (-29))),
  (-(d 30 (-1)), -(d 290 (-1)), -(d 14570806 (-21))),
  (-(d 20 (-1)), -(d 290 (-1)), -(d 18626451 (-16))),
  (-(d 10 (-1)), -(d 290 (-1)), -(d 10 (-1))),
  (d 10 (-1), -(d 290 (-1)), d 10 (-1)),
  (d 20 (-1), -(d 290 (-1)), d 18626451 (-16)),
  (d 30 (-1), -(d 290 (-1)), d 14570806 (-21)),
  (d 100 (-1), -(d 290 (-1)), d 1 (-29)),
  (d 1000000 (-1), -(d 290 (-1)), d 0 (-1))]

/-- `/repo/src/float/powi.rs:1080-1279` -/
def powiVectors5 : List (F32 × F32 × F32) := [
  (-(d 1000000 (-1)), -(d 280 (-1)), d 0 (-1)),
  (-(d 100 (-1)), -(d 280 (-1)), d 1 (-28)),
  (-(d 30 (-1)), -(d 280 (-1)), d 43712423 (-21)),
  (-(d 20 (-1)), -(d 280 (-1)), d 37252903 (-16)),
  (-(d 10 (-1)), -(d 280 (-1)), d 10 (-1)),
  (d 10 (-1), -(d 280 (-1)), d 10 (-1)),
  (d 20 (-1), -(d 280 (-1)), d 37252903 (-16)),
  (d 30 (-1), -(d 280 (-1)), d 43712423 (-21)),
  (d 100 (-1), -(d 280 (-1)), d 1 (-28)),
  (d 1000000 (-1), -(d 280 (-1)), d 0 (-1)),
  (-(d 1000000 (-1)), -(d 270 (-1)), -(d 0 (-1))),
  (-(d 100 (-1)), -(d 270 (-1)), -(d 1 (-27))),
  (-(d 30 (-1)), -(d 270 (-1)), -(d 13113726 (-20))),
  (-(d 20 (-1)), -(d 270 (-1)), -(d 7450581 (-15))),
  (-(d 10 (-1)), -(d 270 (-1)), -(d 10 (-1))),
  (d 10 (-1), -(d 270 (-1)), d 10 (-1)),
  (d 20 (-1), -(d 270 (-1)), d 7450581 (-15)),
  (d 30 (-1), -(d 270 (-1)), d 13113726 (-20)),
  (d 100 (-1), -(d 270 (-1)), d 1 (-27)),
  (d 1000000 (-1), -(d 270 (-1)), d 0 (-1)),
  (-(d 1000000 (-1)), -(d 260 (-1)), d 0 (-1)),
  (-(d 100 (-1)), -(d 260 (-1)), d 1 (-26)),
  (-(d 30 (-1)), -(d 260 (-1)), d 39341178 (-20)),
  (-(d 20 (-1)), -(d 260 (-1)), d 14901161 (-15)),
  (-(d 10 (-1)), -(d 260 (-1)), d 10 (-1)),
  (d 10 (-1), -(d 260 (-1)), d 10 (-1)),
  (d 20 (-1), -(d 260 (-1)), d 14901161 (-15)),
  (d 30 (-1), -(d 260 (-1)), d 39341178 (-20)),
  (d 100 (-1), -(d 260 (-1)), d 1 (-26)),
  (d 1000000 (-1), -(d 260 (-1)), d 0 (-1)),
  (-(d 1000000 (-1)), -(d 250 (-1)), -(d 0 (-1))),
  (-(d 100 (-1)), -(d 250 (-1)), -(d 1 (-25))),
  (-(d 30 (-1)), -(d 250 (-1)), -(d 11802354 (-19))),
  (-(d 20 (-1)), -(d 250 (-1)), -(d 29802322 (-15))),
  (-(d 10 (-1)), -(d 250 (-1)), -(d 10 (-1))),
  (d 10 (-1), -(d 250 (-1)), d 10 (-1)),
  (d 20 (-1), -(d 250 (-1)), d 29802322 (-15)),
  (d 30 (-1), -(d 250 (-1)), d 11802354 (-19)),
  (d 100 (-1), -(d 250 (-1)), d 1 (-25)),
  (d 1000000 (-1), -(d 250 (-1)), d 0 (-1)),
  (-(d 1000000 (-1)), -(d 240 (-1)), d 0 (-1)),
  (-(d 100 (-1)), -(d 240 (-1)), d 1 (-24)),
  (-(d 30 (-1)), -(d 240 (-1)), d 35407061 (-19)),
  (-(d 20 (-1)), -(d 240 (-1)), d 59604645 (-15)),
  (-(d 10 (-1)), -(d 240 (-1)), d 10 (-1)),
  (d 10 (-1), -(d 240 (-1)), d 10 (-1)),
  (d 20 (-1), -(d 240 (-1)), d 59604645 (-15)),
  (d 30 (-1), -(d 240 (-1)), d 35407061 (-19)),
  (d 100 (-1), -(d 240 (-1)), d 1 (-24)),
  (d 1000000 (-1), -(d 240 (-1)), d 0 (-1)),
  (-(d 1000000 (-1)), -(d 230 (-1)), -(d 0 (-1))),
  (-(d 100 (-1)), -(d 230 (-1)), -(d 1 (-23))),
  (-(d 30 (-1)), -(d 230 (-1)), -(d 10622119 (-18))),
  (-(d 20 (-1)), -(d 230 (-1)), -(d 11920929 (-14))),
  (-(d 10 (-1)), -(d 230 (-1)), -(d 10 (-1))),
  (d 10 (-1), -(d 230 (-1)), d 10 (-1)),
  (d 20 (-1), -(d 230 (-1)), d 11920929 (-14)),
  (d 30 (-1), -(d 230 (-1)), d 10622119 (-18)),
  (d 100 (-1), -(d 230 (-1)), d 1 (-23)),
  (d 1000000 (-1), -(d 230 (-1)), d 0 (-1)),
  (-(d 1000000 (-1)), -(d 220 (-1)), d 0 (-1)),
  (-(d 100 (-1)), -(d 220 (-1)), d 1 (-22)),
  (-(d 30 (-1)), -(d 220 (-1)), d 31866357 (-18)),
  (-(d 20 (-1)), -(d 220 (-1)), d 23841858 (-14)),
  (-(d 10 (-1)), -(d 220 (-1)), d 10 (-1)),
  (d 10 (-1), -(d 220 (-1)), d 10 (-1)),
  (d 20 (-1), -(d 220 (-1)), d 23841858 (-14)),
  (d 30 (-1), -(d 220 (-1)), d 31866357 (-18)),
  (d 100 (-1), -(d 220 (-1)), d 1 (-22)),
  (d 1000000 (-1), -(d 220 (-1)), d 0 (-1)),
  (-(d 1000000 (-1)), -(d 210 (-1)), -(d 0 (-1))),
  (-(d 100 (-1)), -(d 210 (-1)), -(d 1 (-21))),
  (-(d 30 (-1)), -(d 210 (-1)), -(d 9559906 (-17))),
  (-(d 20 (-1)), -(d 210 (-1)), -(d 47683716 (-14))),
  (-(d 10 (-1)), -(d 210 (-1)), -(d 10 (-1))),
  (d 10 (-1), -(d 210 (-1)), d 10 (-1)),
  (d 20 (-1), -(d 210 (-1)), d 47683716 (-14)),
  (d 30 (-1), -(d 210 (-1)), d 9559906 (-17)),
  (d 100 (-1), -(d 210 (-1)), d 1 (-21)),
  (d 1000000 (-1), -(d 210 (-1)), d 0 (-1)),
  (-(d 1000000 (-1)), -(d 200 (-1)), d 0 (-1)),
  (-(d 100 (-1)), -(d 200 (-1)), d 1 (-20)),
  (-(d 30 (-1)), -(d 200 (-1)), d 2867972 (-16)),
  (-(d 20 (-1)), -(d 200 (-1)), d 9536743 (-13)),
  (-(d 10 (-1)), -(d 200 (-1)), d 10 (-1)),
  (d 10 (-1), -(d 200 (-1)), d 10 (-1)),
  (d 20 (-1), -(d 200 (-1)), d 9536743 (-13)),
  (d 30 (-1), -(d 200 (-1)), d 2867972 (-16)),
  (d 100 (-1), -(d 200 (-1)), d 1 (-20)),
  (d 1000000 (-1), -(d 200 (-1)), d 0 (-1)),
  (-(d 1000000 (-1)), -(d 190 (-1)), -(d 0 (-1))),
  (-(d 100 (-1)), -(d 190 (-1)), -(d 1 (-19))),
  (-(d 30 (-1)), -(d 190 (-1)), -(d 8603916 (-16))),
  (-(d 20 (-1)), -(d 190 (-1)), -(d 19073486 (-13))),
  (-(d 10 (-1)), -(d 190 (-1)), -(d 10 (-1))),
  (d 10 (-1), -(d 190 (-1)), d 10 (-1)),
  (d 20 (-1), -(d 190 (-1)), d 19073486 (-13)),
  (d 30 (-1), -(d 190 (-1)), d 8603916 (-16)),
  (d 100 (-1), -(d 190 (-1)), d 1 (-19)),
  (d 1000000 (-1), -(d 190 (-1)), d 0 (-1)),
  (-(d 1000000 (-1)), -(d 180 (-1)), d 0 (-1)),
  (-(d 100 (-1)), -(d 180 (-1)), d 1 (-18)),
  (-(d 30 (-1)), -(d 180 (-1)), d 25811748 (-16)),
  (-(d 20 (-1)), -(d 180 (-1)), d 38146973 (-13)),
  (-(d 10 (-1)), -(d 180 (-1)), d 10 (-1)),
  (d 10 (-1), -(d 180 (-1)), d 10 (-1)),
  (d 20 (-1), -(d 180 (-1)), d 38146973 (-13)),
  (d 30 (-1), -(d 180 (-1)), d 25811748 (-16)),
  (d 100 (-1), -(d 180 (-1)), d 1 (-18)),
  (d 1000000 (-1), -(d 180 (-1)), d 0 (-1)),
  (-(d 1000000 (-1)), -(d 170 (-1)), -(d 0 (-1))),
  (-(d 100 (-1)), -(d 170 (-1)), -(d 1 (-17))),
  (-(d 30 (-1)), -(d 170 (-1)), -(d 7743524 (-15))),
  (-(d 20 (-1)), -(d 170 (-1)), -(d 76293945 (-13))),
  (-(d 10 (-1)), -(d 170 (-1)), -(d 10 (-1))),
  (d 10 (-1), -(d 170 (-1)), d 10 (-1)),
  (d 20 (-1), -(d 170 (-1)), d 76293945 (-13)),
  (d 30 (-1), -(d 170 (-1)), d 7743524 (-15)),
  (d 100 (-1), -(d 170 (-1)), d 1 (-17)),
  (d 1000000 (-1), -(d 170 (-1)), d 0 (-1)),
  (-(d 1000000 (-1)), -(d 160 (-1)), d 0 (-1)),
  (-(d 100 (-1)), -(d 160 (-1)), d 1 (-16)),
  (-(d 30 (-1)), -(d 160 (-1)), d 23230573 (-15)),
  (-(d 20 (-1)), -(d 160 (-1)), d 15258789 (-12)),
  (-(d 10 (-1)), -(d 160 (-1)), d 10 (-1)),
  (d 10 (-1), -(d 160 (-1)), d 10 (-1)),
  (d 20 (-1), -(d 160 (-1)), d 15258789 (-12)),
  (d 30 (-1), -(d 160 (-1)), d 23230573 (-15)),
  (d 100 (-1), -(d 160 (-1)), d 1 (-16)),
  (d 1000000 (-1), -(d 160 (-1)), d 0 (-1)),
  (-(d 1000000 (-1)), -(d 150 (-1)), -(d 0 (-1))),
  (-(d 100 (-1)), -(d 150 (-1)), -(d 1 (-15))),
  (-(d 30 (-1)), -(d 150 (-1)), -(d 6969172 (-14))),
  (-(d 20 (-1)), -(d 150 (-1)), -(d 30517578 (-12))),
  (-(d 10 (-1)), -(d 150 (-1)), -(d 10 (-1))),
  (d 10 (-1), -(d 150 (-1)), d 10 (-1)),
  (d 20 (-1), -(d 150 (-1)), d 30517578 (-12)),
  (d 30 (-1), -(d 150 (-1)), d 6969172 (-14)),
  (d 100 (-1), -(d 150 (-1)), d 1 (-15)),
  (d 1000000 (-1), -(d 150 (-1)), d 0 (-1)),
  (-(d 1000000 (-1)), -(d 140 (-1)), d 0 (-1)),
  (-(d 100 (-1)), -(d 140 (-1)), d 1 (-14)),
  (-(d 30 (-1)), -(d 140 (-1)), d 20907515 (-14)),
  (-(d 20 (-1)), -(d 140 (-1)), d 61035156 (-12)),
  (-(d 10 (-1)), -(d 140 (-1)), d 10 (-1)),
  (d 10 (-1), -(d 140 (-1)), d 10 (-1)),
  (d 20 (-1), -(d 140 (-1)), d 61035156 (-12)),
  (d 30 (-1), -(d 140 (-1)), d 20907515 (-14)),
  (d 100 (-1), -(d 140 (-1)), d 1 (-14)),
  (d 1000000 (-1), -(d 140 (-1)), d 0 (-1)),
  (-(d 1000000 (-1)), -(d 130 (-1)), -(d 0 (-1))),
  (-(d 100 (-1)), -(d 130 (-1)), -(d 1 (-13))),
  (-(d 30 (-1)), -(d 130 (-1)), -(d 62722546 (-14))),
  (-(d 20 (-1)), -(d 130 (-1)), -(d 12207031 (-11))),
  (-(d 10 (-1)), -(d 130 (-1)), -(d 10 (-1))),
  (d 10 (-1), -(d 130 (-1)), d 10 (-1)),
  (d 20 (-1), -(d 130 (-1)), d 12207031 (-11)),
  (d 30 (-1), -(d 130 (-1)), d 62722546 (-14)),
  (d 100 (-1), -(d 130 (-1)), d 1 (-13)),
  (d 1000000 (-1), -(d 130 (-1)), d 0 (-1)),
  (-(d 1000000 (-1)), -(d 120 (-1)), d 0 (-1)),
  (-(d 100 (-1)), -(d 120 (-1)), d 1 (-12)),
  (-(d 30 (-1)), -(d 120 (-1)), d 18816764 (-13)),
  (-(d 20 (-1)), -(d 120 (-1)), d 24414063 (-11)),
  (-(d 10 (-1)), -(d 120 (-1)), d 10 (-1)),
  (d 10 (-1), -(d 120 (-1)), d 10 (-1)),
  (d 20 (-1), -(d 120 (-1)), d 24414063 (-11)),
  (d 30 (-1), -(d 120 (-1)), d 18816764 (-13)),
  (d 100 (-1), -(d 120 (-1)), d 1 (-12)),
  (d 1000000 (-1), -(d 120 (-1)), d 0 (-1)),
  (-(d 1000000 (-1)), -(d 110 (-1)), -(d 0 (-1))),
  (-(d 100 (-1)), -(d 110 (-1)), -(d 1 (-11))),
  (-(d 30 (-1)), -(d 110 (-1)), -(d 56450294 (-13))),
  (-(d 20 (-1)), -(d 110 (-1)), -(d 48828125 (-11))),
  (-(d 10 (-1)), -(d 110 (-1)), -(d 10 (-1))),
  (d 10 (-1), -(d 110 (-1)), d 10 (-1)),
  (d 20 (-1), -(d 110 (-1)), d 48828125 (-11)),
  (d 30 (-1), -(d 110 (-1)), d 56450294 (-13)),
  (d 100 (-1), -(d 110 (-1)), d 1 (-11)),
  (d 1000000 (-1), -(d 110 (-1)), d 0 (-1)),
  (-(d 1000000 (-1)), -(d 100 (-1)), d 0 (-1)),
  (-(d 100 (-1)), -(d 100 (-1)), d 1 (-10)),
  (-(d 30 (-1)), -(d 100 (-1)), d 16935088 (-12)),
  (-(d 20 (-1)), -(d 100 (-1)), d 9765625 (-10)),
  (-(d 10 (-1)), -(d 100 (-1)), d 10 (-1)),
  (d 10 (-1), -(d 100 (-1)), d 10 (-1)),
  (d 20 (-1), -(d 100 (-1)), d 9765625 (-10)),
  (d 30 (-1), -(d 100 (-1)), d 16935088 (-12)),
  (d 100 (-1), -(d 100 (-1)), d 1 (-10)),
  (d 1000000 (-1), -(d 100 (-1)), d 0 (-1)),
  (-(d 1000000 (-1)), -(d 90 (-1)), -(d 0 (-1))),
  (-(d 100 (-1)), -(d 90 (-1)), -(d 1 (-9))),
  (-(d 30 (-1)), -(d 90 (-1)), -(d 5080526 (-11))),
  (-(d 20 (-1)), -(d 90 (-1)), -(d 1953125 (-9))),
  (-(d 10 (-1)), -(d 90 (-1)), -(d 10 (-1))),
  (d 10 (-1), -(d 90 (-1)), d 10 (-1)),
  (d 20 (-1), -(d 90 (-1)), d 1953125 (-9)),
  (d 30 (-1), -(d 90 (-1)), d 5080526 (-11)),
  (d 100 (-1), -(d 90 (-1)), d 1 (-9)),
  (d 1000000 (-1), -(d 90 (-1)), d 0 (-1))]

/-- `/repo/src/float/powi.rs:1280-1479` -/
def powiVectors6 : List (F32 × F32 × F32) := [
  (-(d 1000000 (-1)), -(d 80 (-1)), d 1 (-40)),
  (-(d 100 (-1)), -(d 80 (-1)), d 1 (-8)),
  (-(d 30 (-1)), -(d 80 (-1)), d 15241579 (-11)),
  (-(d 20 (-1)), -(d 80 (-1)), d 390625 (-8)),
  (-(d 10 (-1)), -(d 80 (-1)), d 10 (-1)),
  (d 10 (-1), -(d 80 (-1)), d 10 (-1)),
  (d 20 (-1), -(d 80 (-1)), d 390625 (-8)),
  (d 30 (-1), -(d 80 (-1)), d 15241579 (-11)),
  (d 100 (-1), -(d 80 (-1)), d 1 (-8)),
  (d 1000000 (-1), -(d 80 (-1)), d 1 (-40)),
  (-(d 1000000 (-1)), -(d 70 (-1)), -(d 1 (-35))),
  (-(d 100 (-1)), -(d 70 (-1)), -(d 1 (-7))),
  (-(d 30 (-1)), -(d 70 (-1)), -(d 45724737 (-11))),
  (-(d 20 (-1)), -(d 70 (-1)), -(d 78125 (-7))),
  (-(d 10 (-1)), -(d 70 (-1)), -(d 10 (-1))),
  (d 10 (-1), -(d 70 (-1)), d 10 (-1)),
  (d 20 (-1), -(d 70 (-1)), d 78125 (-7)),
  (d 30 (-1), -(d 70 (-1)), d 45724737 (-11)),
  (d 100 (-1), -(d 70 (-1)), d 1 (-7)),
  (d 1000000 (-1), -(d 70 (-1)), d 1 (-35)),
  (-(d 1000000 (-1)), -(d 60 (-1)), d 1 (-30)),
  (-(d 100 (-1)), -(d 60 (-1)), d 1 (-6)),
  (-(d 30 (-1)), -(d 60 (-1)), d 13717421 (-10)),
  (-(d 20 (-1)), -(d 60 (-1)), d 15625 (-6)),
  (-(d 10 (-1)), -(d 60 (-1)), d 10 (-1)),
  (d 10 (-1), -(d 60 (-1)), d 10 (-1)),
  (d 20 (-1), -(d 60 (-1)), d 15625 (-6)),
  (d 30 (-1), -(d 60 (-1)), d 13717421 (-10)),
  (d 100 (-1), -(d 60 (-1)), d 1 (-6)),
  (d 1000000 (-1), -(d 60 (-1)), d 1 (-30)),
  (-(d 1000000 (-1)), -(d 50 (-1)), -(d 1 (-25))),
  (-(d 100 (-1)), -(d 50 (-1)), -(d 1 (-5))),
  (-(d 30 (-1)), -(d 50 (-1)), -(d 4115226 (-9))),
  (-(d 20 (-1)), -(d 50 (-1)), -(d 3125 (-5))),
  (-(d 10 (-1)), -(d 50 (-1)), -(d 10 (-1))),
  (d 10 (-1), -(d 50 (-1)), d 10 (-1)),
  (d 20 (-1), -(d 50 (-1)), d 3125 (-5)),
  (d 30 (-1), -(d 50 (-1)), d 4115226 (-9)),
  (d 100 (-1), -(d 50 (-1)), d 1 (-5)),
  (d 1000000 (-1), -(d 50 (-1)), d 1 (-25)),
  (-(d 1000000 (-1)), -(d 40 (-1)), d 1 (-20)),
  (-(d 100 (-1)), -(d 40 (-1)), d 1 (-4)),
  (-(d 30 (-1)), -(d 40 (-1)), d 12345679 (-9)),
  (-(d 20 (-1)), -(d 40 (-1)), d 625 (-4)),
  (-(d 10 (-1)), -(d 40 (-1)), d 10 (-1)),
  (d 10 (-1), -(d 40 (-1)), d 10 (-1)),
  (d 20 (-1), -(d 40 (-1)), d 625 (-4)),
  (d 30 (-1), -(d 40 (-1)), d 12345679 (-9)),
  (d 100 (-1), -(d 40 (-1)), d 1 (-4)),
  (d 1000000 (-1), -(d 40 (-1)), d 1 (-20)),
  (-(d 1000000 (-1)), -(d 30 (-1)), -(d 1 (-15))),
  (-(d 100 (-1)), -(d 30 (-1)), -(d 1 (-3))),
  (-(d 30 (-1)), -(d 30 (-1)), -(d 37037037 (-9))),
  (-(d 20 (-1)), -(d 30 (-1)), -(d 125 (-3))),
  (-(d 10 (-1)), -(d 30 (-1)), -(d 10 (-1))),
  (d 10 (-1), -(d 30 (-1)), d 10 (-1)),
  (d 20 (-1), -(d 30 (-1)), d 125 (-3)),
  (d 30 (-1), -(d 30 (-1)), d 37037037 (-9)),
  (d 100 (-1), -(d 30 (-1)), d 1 (-3)),
  (d 1000000 (-1), -(d 30 (-1)), d 1 (-15)),
  (-(d 1000000 (-1)), -(d 20 (-1)), d 1 (-10)),
  (-(d 100 (-1)), -(d 20 (-1)), d 1 (-2)),
  (-(d 30 (-1)), -(d 20 (-1)), d 11111111 (-8)),
  (-(d 20 (-1)), -(d 20 (-1)), d 25 (-2)),
  (-(d 10 (-1)), -(d 20 (-1)), d 10 (-1)),
  (d 10 (-1), -(d 20 (-1)), d 10 (-1)),
  (d 20 (-1), -(d 20 (-1)), d 25 (-2)),
  (d 30 (-1), -(d 20 (-1)), d 11111111 (-8)),
  (d 100 (-1), -(d 20 (-1)), d 1 (-2)),
  (d 1000000 (-1), -(d 20 (-1)), d 1 (-10)),
  (-(d 1000000 (-1)), -(d 10 (-1)), -(d 1 (-5))),
  (-(d 100 (-1)), -(d 10 (-1)), -(d 1 (-1))),
  (-(d 30 (-1)), -(d 10 (-1)), -(d 33333334 (-8))),
  (-(d 20 (-1)), -(d 10 (-1)), -(d 5 (-1))),
  (-(d 10 (-1)), -(d 10 (-1)), -(d 10 (-1))),
  (d 10 (-1), -(d 10 (-1)), d 10 (-1)),
  (d 20 (-1), -(d 10 (-1)), d 5 (-1)),
  (d 30 (-1), -(d 10 (-1)), d 33333334 (-8)),
  (d 100 (-1), -(d 10 (-1)), d 1 (-1)),
  (d 1000000 (-1), -(d 10 (-1)), d 1 (-5)),
  (-(d 1000000 (-1)), d 0 (-1), d 10 (-1)),
  (-(d 100 (-1)), d 0 (-1), d 10 (-1)),
  (-(d 30 (-1)), d 0 (-1), d 10 (-1)),
  (-(d 20 (-1)), d 0 (-1), d 10 (-1)),
  (-(d 10 (-1)), d 0 (-1), d 10 (-1)),
  (d 10 (-1), d 0 (-1), d 10 (-1)),
  (d 20 (-1), d 0 (-1), d 10 (-1)),
  (d 30 (-1), d 0 (-1), d 10 (-1)),
  (d 100 (-1), d 0 (-1), d 10 (-1)),
  (d 1000000 (-1), d 0 (-1), d 10 (-1)),
  (-(d 1000000 (-1)), d 10 (-1), -(d 1000000 (-1))),
  (-(d 100 (-1)), d 10 (-1), -(d 100 (-1))),
  (-(d 30 (-1)), d 10 (-1), -(d 30 (-1))),
  (-(d 20 (-1)), d 10 (-1), -(d 20 (-1))),
  (-(d 10 (-1)), d 10 (-1), -(d 10 (-1))),
  (d 10 (-1), d 10 (-1), d 10 (-1)),
  (d 20 (-1), d 10 (-1), d 20 (-1)),
  (d 30 (-1), d 10 (-1), d 30 (-1)),
  (d 100 (-1), d 10 (-1), d 100 (-1)),
  (d 1000000 (-1), d 10 (-1), d 1000000 (-1)),
  (-(d 1000000 (-1)), d 20 (-1), d 100000000000 (-1)),
  (-(d 100 (-1)), d 20 (-1), d 1000 (-1)),
  (-(d 30 (-1)), d 20 (-1), d 90 (-1)),
  (-(d 20 (-1)), d 20 (-1), d 40 (-1)),
  (-(d 10 (-1)), d 20 (-1), d 10 (-1)),
  (d 10 (-1), d 20 (-1), d 10 (-1)),
  (d 20 (-1), d 20 (-1), d 40 (-1)),
  (d 30 (-1), d 20 (-1), d 90 (-1)),
  (d 100 (-1), d 20 (-1), d 1000 (-1)),
  (d 1000000 (-1), d 20 (-1), d 100000000000 (-1)),
  (-(d 1000000 (-1)), d 30 (-1), -(d 10000000000000000 (-1))),
  (-(d 100 (-1)), d 30 (-1), -(d 10000 (-1))),
  (-(d 30 (-1)), d 30 (-1), -(d 270 (-1))),
  (-(d 20 (-1)), d 30 (-1), -(d 80 (-1))),
  (-(d 10 (-1)), d 30 (-1), -(d 10 (-1))),
  (d 10 (-1), d 30 (-1), d 10 (-1)),
  (d 20 (-1), d 30 (-1), d 80 (-1)),
  (d 30 (-1), d 30 (-1), d 270 (-1)),
  (d 100 (-1), d 30 (-1), d 10000 (-1)),
  (d 1000000 (-1), d 30 (-1), d 10000000000000000 (-1)),
  (-(d 1000000 (-1)), d 40 (-1), d 1 20),
  (-(d 100 (-1)), d 40 (-1), d 100000 (-1)),
  (-(d 30 (-1)), d 40 (-1), d 810 (-1)),
  (-(d 20 (-1)), d 40 (-1), d 160 (-1)),
  (-(d 10 (-1)), d 40 (-1), d 10 (-1)),
  (d 10 (-1), d 40 (-1), d 10 (-1)),
  (d 20 (-1), d 40 (-1), d 160 (-1)),
  (d 30 (-1), d 40 (-1), d 810 (-1)),
  (d 100 (-1), d 40 (-1), d 100000 (-1)),
  (d 1000000 (-1), d 40 (-1), d 1 20),
  (-(d 1000000 (-1)), d 50 (-1), -(d 1 25)),
  (-(d 100 (-1)), d 50 (-1), -(d 1000000 (-1))),
  (-(d 30 (-1)), d 50 (-1), -(d 2430 (-1))),
  (-(d 20 (-1)), d 50 (-1), -(d 320 (-1))),
  (-(d 10 (-1)), d 50 (-1), -(d 10 (-1))),
  (d 10 (-1), d 50 (-1), d 10 (-1)),
  (d 20 (-1), d 50 (-1), d 320 (-1)),
  (d 30 (-1), d 50 (-1), d 2430 (-1)),
  (d 100 (-1), d 50 (-1), d 1000000 (-1)),
  (d 1000000 (-1), d 50 (-1), d 1 25),
  (-(d 1000000 (-1)), d 60 (-1), d 1 30),
  (-(d 100 (-1)), d 60 (-1), d 10000000 (-1)),
  (-(d 30 (-1)), d 60 (-1), d 7290 (-1)),
  (-(d 20 (-1)), d 60 (-1), d 640 (-1)),
  (-(d 10 (-1)), d 60 (-1), d 10 (-1)),
  (d 10 (-1), d 60 (-1), d 10 (-1)),
  (d 20 (-1), d 60 (-1), d 640 (-1)),
  (d 30 (-1), d 60 (-1), d 7290 (-1)),
  (d 100 (-1), d 60 (-1), d 10000000 (-1)),
  (d 1000000 (-1), d 60 (-1), d 1 30),
  (-(d 1000000 (-1)), d 70 (-1), -(d 1 35)),
  (-(d 100 (-1)), d 70 (-1), -(d 100000000 (-1))),
  (-(d 30 (-1)), d 70 (-1), -(d 21870 (-1))),
  (-(d 20 (-1)), d 70 (-1), -(d 1280 (-1))),
  (-(d 10 (-1)), d 70 (-1), -(d 10 (-1))),
  (d 10 (-1), d 70 (-1), d 10 (-1)),
  (d 20 (-1), d 70 (-1), d 1280 (-1)),
  (d 30 (-1), d 70 (-1), d 21870 (-1)),
  (d 100 (-1), d 70 (-1), d 100000000 (-1)),
  (d 1000000 (-1), d 70 (-1), d 1 35),
  (-(d 1000000 (-1)), d 80 (-1), INFINITY),
  (-(d 100 (-1)), d 80 (-1), d 1000000000 (-1)),
  (-(d 30 (-1)), d 80 (-1), d 65610 (-1)),
  (-(d 20 (-1)), d 80 (-1), d 2560 (-1)),
  (-(d 10 (-1)), d 80 (-1), d 10 (-1)),
  (d 10 (-1), d 80 (-1), d 10 (-1)),
  (d 20 (-1), d 80 (-1), d 2560 (-1)),
  (d 30 (-1), d 80 (-1), d 65610 (-1)),
  (d 100 (-1), d 80 (-1), d 1000000000 (-1)),
  (d 1000000 (-1), d 80 (-1), INFINITY),
  (-(d 1000000 (-1)), d 90 (-1), -INFINITY),
  (-(d 100 (-1)), d 90 (-1), -(d 10000000000 (-1))),
  (-(d 30 (-1)), d 90 (-1), -(d 196830 (-1))),
  (-(d 20 (-1)), d 90 (-1), -(d 5120 (-1))),
  (-(d 10 (-1)), d 90 (-1), -(d 10 (-1))),
  (d 10 (-1), d 90 (-1), d 10 (-1)),
  (d 20 (-1), d 90 (-1), d 5120 (-1)),
  (d 30 (-1), d 90 (-1), d 196830 (-1)),
  (d 100 (-1), d 90 (-1), d 10000000000 (-1)),
  (d 1000000 (-1), d 90 (-1), INFINITY),
  (-(d 1000000 (-1)), d 100 (-1), INFINITY),
  (-(d 100 (-1)), d 100 (-1), d 100000000000 (-1)),
  (-(d 30 (-1)), d 100 (-1), d 590490 (-1)),
  (-(d 20 (-1)), d 100 (-1), d 10240 (-1)),
  (-(d 10 (-1)), d 100 (-1), d 10 (-1)),
  (d 10 (-1), d 100 (-1), d 10 (-1)),
  (d 20 (-1), d 100 (-1), d 10240 (-1)),
  (d 30 (-1), d 100 (-1), d 590490 (-1)),
  (d 100 (-1), d 100 (-1), d 100000000000 (-1)),
  (d 1000000 (-1), d 100 (-1), INFINITY),
  (-(d 1000000 (-1)), d 110 (-1), -INFINITY),
  (-(d 100 (-1)), d 110 (-1), -(d 1000000000000 (-1))),
  (-(d 30 (-1)), d 110 (-1), -(d 1771470 (-1))),
  (-(d 20 (-1)), d 110 (-1), -(d 20480 (-1))),
  (-(d 10 (-1)), d 110 (-1), -(d 10 (-1))),
  (d 10 (-1), d 110 (-1), d 10 (-1)),
  (d 20 (-1), d 110 (-1), d 20480 (-1)),
  (d 30 (-1), d 110 (-1), d 1771470 (-1)),
  (d 100 (-1), d 110 (-1), d 1000000000000 (-1)),
  (d 1000000 (-1), d 110 (-1), INFINITY)]

/-- `/repo/src/float/powi.rs:1480-1679` -/
def powiVectors7 : List (F32 × F32 × F32) := [
  (-(d 1000000 (-1)), d 120 (-1), INFINITY),
  (-(d 100 (-1)), d 120 (-1), d 10000000000000 (-1)),
  (-(d 30 (-1)), d 120 (-1), d 5314410 (-1)),
  (-(d 20 (-1)), d 120 (-1), d 40960 (-1)),
  (-(d 10 (-1)), d 120 (-1), d 10 (-1)),
  (d 10 (-1), d 120 (-1), d 10 (-1)),
  (d 20 (-1), d 120 (-1), d 40960 (-1)),
  (d 30 (-1), d 120 (-1), d 5314410 (-1)),
  (d 100 (-1), d 120 (-1), d 10000000000000 (-1)),
  (d 1000000 (-1), d 120 (-1), INFINITY),
  (-(d 1000000 (-1)), d 130 (-1), -INFINITY),
  (-(d 100 (-1)), d 130 (-1), -(d 100000000000000 (-1))),
  (-(d 30 (-1)), d 130 (-1), -(d 15943230 (-1))),
  (-(d 20 (-1)), d 130 (-1), -(d 81920 (-1))),
  (-(d 10 (-1)), d 130 (-1), -(d 10 (-1))),
  (d 10 (-1), d 130 (-1), d 10 (-1)),
  (d 20 (-1), d 130 (-1), d 81920 (-1)),
  (d 30 (-1), d 130 (-1), d 15943230 (-1)),
  (d 100 (-1), d 130 (-1), d 100000000000000 (-1)),
  (d 1000000 (-1), d 130 (-1), INFINITY),
  (-(d 1000000 (-1)), d 140 (-1), INFINITY),
  (-(d 100 (-1)), d 140 (-1), d 1000000000000000 (-1)),
  (-(d 30 (-1)), d 140 (-1), d 47829690 (-1)),
  (-(d 20 (-1)), d 140 (-1), d 163840 (-1)),
  (-(d 10 (-1)), d 140 (-1), d 10 (-1)),
  (d 10 (-1), d 140 (-1), d 10 (-1)),
  (d 20 (-1), d 140 (-1), d 163840 (-1)),
  (d 30 (-1), d 140 (-1), d 47829690 (-1)),
  (d 100 (-1), d 140 (-1), d 1000000000000000 (-1)),
  (d 1000000 (-1), d 140 (-1), INFINITY),
  (-(d 1000000 (-1)), d 150 (-1), -INFINITY),
  (-(d 100 (-1)), d 150 (-1), -(d 10000000000000000 (-1))),
  (-(d 30 (-1)), d 150 (-1), -(d 143489070 (-1))),
  (-(d 20 (-1)), d 150 (-1), -(d 327680 (-1))),
  (-(d 10 (-1)), d 150 (-1), -(d 10 (-1))),
  (d 10 (-1), d 150 (-1), d 10 (-1)),
  (d 20 (-1), d 150 (-1), d 327680 (-1)),
  (d 30 (-1), d 150 (-1), d 143489070 (-1)),
  (d 100 (-1), d 150 (-1), d 10000000000000000 (-1)),
  (d 1000000 (-1), d 150 (-1), INFINITY),
  (-(d 1000000 (-1)), d 160 (-1), INFINITY),
  (-(d 100 (-1)), d 160 (-1), d 1 16),
  (-(d 30 (-1)), d 160 (-1), d 430467200 (-1)),
  (-(d 20 (-1)), d 160 (-1), d 655360 (-1)),
  (-(d 10 (-1)), d 160 (-1), d 10 (-1)),
  (d 10 (-1), d 160 (-1), d 10 (-1)),
  (d 20 (-1), d 160 (-1), d 655360 (-1)),
  (d 30 (-1), d 160 (-1), d 430467200 (-1)),
  (d 100 (-1), d 160 (-1), d 1 16),
  (d 1000000 (-1), d 160 (-1), INFINITY),
  (-(d 1000000 (-1)), d 170 (-1), -INFINITY),
  (-(d 100 (-1)), d 170 (-1), -(d 1 17)),
  (-(d 30 (-1)), d 170 (-1), -(d 1291401600 (-1))),
  (-(d 20 (-1)), d 170 (-1), -(d 1310720 (-1))),
  (-(d 10 (-1)), d 170 (-1), -(d 10 (-1))),
  (d 10 (-1), d 170 (-1), d 10 (-1)),
  (d 20 (-1), d 170 (-1), d 1310720 (-1)),
  (d 30 (-1), d 170 (-1), d 1291401600 (-1)),
  (d 100 (-1), d 170 (-1), d 1 17),
  (d 1000000 (-1), d 170 (-1), INFINITY),
  (-(d 1000000 (-1)), d 180 (-1), INFINITY),
  (-(d 100 (-1)), d 180 (-1), d 1 18),
  (-(d 30 (-1)), d 180 (-1), d 3874204800 (-1)),
  (-(d 20 (-1)), d 180 (-1), d 2621440 (-1)),
  (-(d 10 (-1)), d 180 (-1), d 10 (-1)),
  (d 10 (-1), d 180 (-1), d 10 (-1)),
  (d 20 (-1), d 180 (-1), d 2621440 (-1)),
  (d 30 (-1), d 180 (-1), d 3874204800 (-1)),
  (d 100 (-1), d 180 (-1), d 1 18),
  (d 1000000 (-1), d 180 (-1), INFINITY),
  (-(d 1000000 (-1)), d 190 (-1), -INFINITY),
  (-(d 100 (-1)), d 190 (-1), -(d 1 19)),
  (-(d 30 (-1)), d 190 (-1), -(d 11622615000 (-1))),
  (-(d 20 (-1)), d 190 (-1), -(d 5242880 (-1))),
  (-(d 10 (-1)), d 190 (-1), -(d 10 (-1))),
  (d 10 (-1), d 190 (-1), d 10 (-1)),
  (d 20 (-1), d 190 (-1), d 5242880 (-1)),
  (d 30 (-1), d 190 (-1), d 11622615000 (-1)),
  (d 100 (-1), d 190 (-1), d 1 19),
  (d 1000000 (-1), d 190 (-1), INFINITY),
  (-(d 1000000 (-1)), d 200 (-1), INFINITY),
  (-(d 100 (-1)), d 200 (-1), d 1 20),
  (-(d 30 (-1)), d 200 (-1), d 34867845000 (-1)),
  (-(d 20 (-1)), d 200 (-1), d 10485760 (-1)),
  (-(d 10 (-1)), d 200 (-1), d 10 (-1)),
  (d 10 (-1), d 200 (-1), d 10 (-1)),
  (d 20 (-1), d 200 (-1), d 10485760 (-1)),
  (d 30 (-1), d 200 (-1), d 34867845000 (-1)),
  (d 100 (-1), d 200 (-1), d 1 20),
  (d 1000000 (-1), d 200 (-1), INFINITY),
  (-(d 1000000 (-1)), d 210 (-1), -INFINITY),
  (-(d 100 (-1)), d 210 (-1), -(d 1 21)),
  (-(d 30 (-1)), d 210 (-1), -(d 104603540000 (-1))),
  (-(d 20 (-1)), d 210 (-1), -(d 20971520 (-1))),
  (-(d 10 (-1)), d 210 (-1), -(d 10 (-1))),
  (d 10 (-1), d 210 (-1), d 10 (-1)),
  (d 20 (-1), d 210 (-1), d 20971520 (-1)),
  (d 30 (-1), d 210 (-1), d 104603540000 (-1)),
  (d 100 (-1), d 210 (-1), d 1 21),
  (d 1000000 (-1), d 210 (-1), INFINITY),
  (-(d 1000000 (-1)), d 220 (-1), INFINITY),
  (-(d 100 (-1)), d 220 (-1), d 1 22),
  (-(d 30 (-1)), d 220 (-1), d 313810600000 (-1)),
  (-(d 20 (-1)), d 220 (-1), d 41943040 (-1)),
  (-(d 10 (-1)), d 220 (-1), d 10 (-1)),
  (d 10 (-1), d 220 (-1), d 10 (-1)),
  (d 20 (-1), d 220 (-1), d 41943040 (-1)),
  (d 30 (-1), d 220 (-1), d 313810600000 (-1)),
  (d 100 (-1), d 220 (-1), d 1 22),
  (d 1000000 (-1), d 220 (-1), INFINITY),
  (-(d 1000000 (-1)), d 230 (-1), -INFINITY),
  (-(d 100 (-1)), d 230 (-1), -(d 1 23)),
  (-(d 30 (-1)), d 230 (-1), -(d 941431800000 (-1))),
  (-(d 20 (-1)), d 230 (-1), -(d 83886080 (-1))),
  (-(d 10 (-1)), d 230 (-1), -(d 10 (-1))),
  (d 10 (-1), d 230 (-1), d 10 (-1)),
  (d 20 (-1), d 230 (-1), d 83886080 (-1)),
  (d 30 (-1), d 230 (-1), d 941431800000 (-1)),
  (d 100 (-1), d 230 (-1), d 1 23),
  (d 1000000 (-1), d 230 (-1), INFINITY),
  (-(d 1000000 (-1)), d 240 (-1), INFINITY),
  (-(d 100 (-1)), d 240 (-1), d 1 24),
  (-(d 30 (-1)), d 240 (-1), d 2824295200000 (-1)),
  (-(d 20 (-1)), d 240 (-1), d 167772160 (-1)),
  (-(d 10 (-1)), d 240 (-1), d 10 (-1)),
  (d 10 (-1), d 240 (-1), d 10 (-1)),
  (d 20 (-1), d 240 (-1), d 167772160 (-1)),
  (d 30 (-1), d 240 (-1), d 2824295200000 (-1)),
  (d 100 (-1), d 240 (-1), d 1 24),
  (d 1000000 (-1), d 240 (-1), INFINITY),
  (-(d 1000000 (-1)), d 250 (-1), -INFINITY),
  (-(d 100 (-1)), d 250 (-1), -(d 1 25)),
  (-(d 30 (-1)), d 250 (-1), -(d 8472886000000 (-1))),
  (-(d 20 (-1)), d 250 (-1), -(d 335544320 (-1))),
  (-(d 10 (-1)), d 250 (-1), -(d 10 (-1))),
  (d 10 (-1), d 250 (-1), d 10 (-1)),
  (d 20 (-1), d 250 (-1), d 335544320 (-1)),
  (d 30 (-1), d 250 (-1), d 8472886000000 (-1)),
  (d 100 (-1), d 250 (-1), d 1 25),
  (d 1000000 (-1), d 250 (-1), INFINITY),
  (-(d 1000000 (-1)), d 260 (-1), INFINITY),
  (-(d 100 (-1)), d 260 (-1), d 1 26),
  (-(d 30 (-1)), d 260 (-1), d 25418660000000 (-1)),
  (-(d 20 (-1)), d 260 (-1), d 671088640 (-1)),
  (-(d 10 (-1)), d 260 (-1), d 10 (-1)),
  (d 10 (-1), d 260 (-1), d 10 (-1)),
  (d 20 (-1), d 260 (-1), d 671088640 (-1)),
  (d 30 (-1), d 260 (-1), d 25418660000000 (-1)),
  (d 100 (-1), d 260 (-1), d 1 26),
  (d 1000000 (-1), d 260 (-1), INFINITY),
  (-(d 1000000 (-1)), d 270 (-1), -INFINITY),
  (-(d 100 (-1)), d 270 (-1), -(d 1 27)),
  (-(d 30 (-1)), d 270 (-1), -(d 76255975000000 (-1))),
  (-(d 20 (-1)), d 270 (-1), -(d 1342177300 (-1))),
  (-(d 10 (-1)), d 270 (-1), -(d 10 (-1))),
  (d 10 (-1), d 270 (-1), d 10 (-1)),
  (d 20 (-1), d 270 (-1), d 1342177300 (-1)),
  (d 30 (-1), d 270 (-1), d 76255975000000 (-1)),
  (d 100 (-1), d 270 (-1), d 1 27),
  (d 1000000 (-1), d 270 (-1), INFINITY),
  (-(d 1000000 (-1)), d 280 (-1), INFINITY),
  (-(d 100 (-1)), d 280 (-1), d 1 28),
  (-(d 30 (-1)), d 280 (-1), d 228767930000000 (-1)),
  (-(d 20 (-1)), d 280 (-1), d 2684354600 (-1)),
  (-(d 10 (-1)), d 280 (-1), d 10 (-1)),
  (d 10 (-1), d 280 (-1), d 10 (-1)),
  (d 20 (-1), d 280 (-1), d 2684354600 (-1)),
  (d 30 (-1), d 280 (-1), d 228767930000000 (-1)),
  (d 100 (-1), d 280 (-1), d 1 28),
  (d 1000000 (-1), d 280 (-1), INFINITY),
  (-(d 1000000 (-1)), d 290 (-1), -INFINITY),
  (-(d 100 (-1)), d 290 (-1), -(d 1 29)),
  (-(d 30 (-1)), d 290 (-1), -(d 686303770000000 (-1))),
  (-(d 20 (-1)), d 290 (-1), -(d 5368709000 (-1))),
  (-(d 10 (-1)), d 290 (-1), -(d 10 (-1))),
  (d 10 (-1), d 290 (-1), d 10 (-1)),
  (d 20 (-1), d 290 (-1), d 5368709000 (-1)),
  (d 30 (-1), d 290 (-1), d 686303770000000 (-1)),
  (d 100 (-1), d 290 (-1), d 1 29),
  (d 1000000 (-1), d 290 (-1), INFINITY),
  (-(d 1000000 (-1)), d 300 (-1), INFINITY),
  (-(d 100 (-1)), d 300 (-1), d 1 30),
  (-(d 30 (-1)), d 300 (-1), d 2058911400000000 (-1)),
  (-(d 20 (-1)), d 300 (-1), d 10737418000 (-1)),
  (-(d 10 (-1)), d 300 (-1), d 10 (-1)),
  (d 10 (-1), d 300 (-1), d 10 (-1)),
  (d 20 (-1), d 300 (-1), d 10737418000 (-1)),
  (d 30 (-1), d 300 (-1), d 2058911400000000 (-1)),
  (d 100 (-1), d 300 (-1), d 1 30),
  (d 1000000 (-1), d 300 (-1), INFINITY),
  (-(d 1000000 (-1)), d 310 (-1), -INFINITY),
  (-(d 100 (-1)), d 310 (-1), -(d 1 31)),
  (-(d 30 (-1)), d 310 (-1), -(d 6176734000000000 (-1))),
  (-(d 20 (-1)), d 310 (-1), -(d 21474836000 (-1))),
  (-(d 10 (-1)), d 310 (-1), -(d 10 (-1))),
  (d 10 (-1), d 310 (-1), d 10 (-1)),
  (d 20 (-1), d 310 (-1), d 21474836000 (-1)),
  (d 30 (-1), d 310 (-1), d 6176734000000000 (-1)),
  (d 100 (-1), d 310 (-1), d 1 31),
  (d 1000000 (-1), d 310 (-1), INFINITY)]

/-- `/repo/src/float/powi.rs:1680-1879` -/
def powiVectors8 : List (F32 × F32 × F32) := [
  (-(d 1000000 (-1)), d 320 (-1), INFINITY),
  (-(d 100 (-1)), d 320 (-1), d 1 32),
  (-(d 30 (-1)), d 320 (-1), d 18530202000000000 (-1)),
  (-(d 20 (-1)), d 320 (-1), d 42949673000 (-1)),
  (-(d 10 (-1)), d 320 (-1), d 10 (-1)),
  (d 10 (-1), d 320 (-1), d 10 (-1)),
  (d 20 (-1), d 320 (-1), d 42949673000 (-1)),
  (d 30 (-1), d 320 (-1), d 18530202000000000 (-1)),
  (d 100 (-1), d 320 (-1), d 1 32),
  (d 1000000 (-1), d 320 (-1), INFINITY),
  (-(d 1000000 (-1)), d 330 (-1), -INFINITY),
  (-(d 100 (-1)), d 330 (-1), -(d 1 33)),
  (-(d 30 (-1)), d 330 (-1), -(d 55590605000000000 (-1))),
  (-(d 20 (-1)), d 330 (-1), -(d 85899350000 (-1))),
  (-(d 10 (-1)), d 330 (-1), -(d 10 (-1))),
  (d 10 (-1), d 330 (-1), d 10 (-1)),
  (d 20 (-1), d 330 (-1), d 85899350000 (-1)),
  (d 30 (-1), d 330 (-1), d 55590605000000000 (-1)),
  (d 100 (-1), d 330 (-1), d 1 33),
  (d 1000000 (-1), d 330 (-1), INFINITY),
  (-(d 1000000 (-1)), d 340 (-1), INFINITY),
  (-(d 100 (-1)), d 340 (-1), d 1 34),
  (-(d 30 (-1)), d 340 (-1), d 16677182 9),
  (-(d 20 (-1)), d 340 (-1), d 171798700000 (-1)),
  (-(d 10 (-1)), d 340 (-1), d 10 (-1)),
  (d 10 (-1), d 340 (-1), d 10 (-1)),
  (d 20 (-1), d 340 (-1), d 171798700000 (-1)),
  (d 30 (-1), d 340 (-1), d 16677182 9),
  (d 100 (-1), d 340 (-1), d 1 34),
  (d 1000000 (-1), d 340 (-1), INFINITY),
  (-(d 1000000 (-1)), d 350 (-1), -INFINITY),
  (-(d 100 (-1)), d 350 (-1), -(d 1 35)),
  (-(d 30 (-1)), d 350 (-1), -(d 50031546 9)),
  (-(d 20 (-1)), d 350 (-1), -(d 343597400000 (-1))),
  (-(d 10 (-1)), d 350 (-1), -(d 10 (-1))),
  (d 10 (-1), d 350 (-1), d 10 (-1)),
  (d 20 (-1), d 350 (-1), d 343597400000 (-1)),
  (d 30 (-1), d 350 (-1), d 50031546 9),
  (d 100 (-1), d 350 (-1), d 1 35),
  (d 1000000 (-1), d 350 (-1), INFINITY),
  (-(d 1000000 (-1)), d 360 (-1), INFINITY),
  (-(d 100 (-1)), d 360 (-1), d 1 36),
  (-(d 30 (-1)), d 360 (-1), d 15009464 10),
  (-(d 20 (-1)), d 360 (-1), d 687194800000 (-1)),
  (-(d 10 (-1)), d 360 (-1), d 10 (-1)),
  (d 10 (-1), d 360 (-1), d 10 (-1)),
  (d 20 (-1), d 360 (-1), d 687194800000 (-1)),
  (d 30 (-1), d 360 (-1), d 15009464 10),
  (d 100 (-1), d 360 (-1), d 1 36),
  (d 1000000 (-1), d 360 (-1), INFINITY),
  (-(d 1000000 (-1)), d 370 (-1), -INFINITY),
  (-(d 100 (-1)), d 370 (-1), -(d 1 37)),
  (-(d 30 (-1)), d 370 (-1), -(d 4502839 11)),
  (-(d 20 (-1)), d 370 (-1), -(d 1374389500000 (-1))),
  (-(d 10 (-1)), d 370 (-1), -(d 10 (-1))),
  (d 10 (-1), d 370 (-1), d 10 (-1)),
  (d 20 (-1), d 370 (-1), d 1374389500000 (-1)),
  (d 30 (-1), d 370 (-1), d 4502839 11),
  (d 100 (-1), d 370 (-1), d 1 37),
  (d 1000000 (-1), d 370 (-1), INFINITY),
  (-(d 1000000 (-1)), d 380 (-1), INFINITY),
  (-(d 100 (-1)), d 380 (-1), d 1 38),
  (-(d 30 (-1)), d 380 (-1), d 13508517 11),
  (-(d 20 (-1)), d 380 (-1), d 2748779000000 (-1)),
  (-(d 10 (-1)), d 380 (-1), d 10 (-1)),
  (d 10 (-1), d 380 (-1), d 10 (-1)),
  (d 20 (-1), d 380 (-1), d 2748779000000 (-1)),
  (d 30 (-1), d 380 (-1), d 13508517 11),
  (d 100 (-1), d 380 (-1), d 1 38),
  (d 1000000 (-1), d 380 (-1), INFINITY),
  (-(d 1000000 (-1)), d 390 (-1), -INFINITY),
  (-(d 100 (-1)), d 390 (-1), -INFINITY),
  (-(d 30 (-1)), d 390 (-1), -(d 40525552 11)),
  (-(d 20 (-1)), d 390 (-1), -(d 5497558000000 (-1))),
  (-(d 10 (-1)), d 390 (-1), -(d 10 (-1))),
  (d 10 (-1), d 390 (-1), d 10 (-1)),
  (d 20 (-1), d 390 (-1), d 5497558000000 (-1)),
  (d 30 (-1), d 390 (-1), d 40525552 11),
  (d 100 (-1), d 390 (-1), INFINITY),
  (d 1000000 (-1), d 390 (-1), INFINITY),
  (-(d 1000000 (-1)), d 400 (-1), INFINITY),
  (-(d 100 (-1)), d 400 (-1), INFINITY),
  (-(d 30 (-1)), d 400 (-1), d 12157665 12),
  (-(d 20 (-1)), d 400 (-1), d 10995116000000 (-1)),
  (-(d 10 (-1)), d 400 (-1), d 10 (-1)),
  (d 10 (-1), d 400 (-1), d 10 (-1)),
  (d 20 (-1), d 400 (-1), d 10995116000000 (-1)),
  (d 30 (-1), d 400 (-1), d 12157665 12),
  (d 100 (-1), d 400 (-1), INFINITY),
  (d 1000000 (-1), d 400 (-1), INFINITY),
  (-(d 1000000 (-1)), d 410 (-1), -INFINITY),
  (-(d 100 (-1)), d 410 (-1), -INFINITY),
  (-(d 30 (-1)), d 410 (-1), -(d 36472995 12)),
  (-(d 20 (-1)), d 410 (-1), -(d 21990233000000 (-1))),
  (-(d 10 (-1)), d 410 (-1), -(d 10 (-1))),
  (d 10 (-1), d 410 (-1), d 10 (-1)),
  (d 20 (-1), d 410 (-1), d 21990233000000 (-1)),
  (d 30 (-1), d 410 (-1), d 36472995 12),
  (d 100 (-1), d 410 (-1), INFINITY),
  (d 1000000 (-1), d 410 (-1), INFINITY),
  (-(d 1000000 (-1)), d 420 (-1), INFINITY),
  (-(d 100 (-1)), d 420 (-1), INFINITY),
  (-(d 30 (-1)), d 420 (-1), d 10941899 13),
  (-(d 20 (-1)), d 420 (-1), d 43980465000000 (-1)),
  (-(d 10 (-1)), d 420 (-1), d 10 (-1)),
  (d 10 (-1), d 420 (-1), d 10 (-1)),
  (d 20 (-1), d 420 (-1), d 43980465000000 (-1)),
  (d 30 (-1), d 420 (-1), d 10941899 13),
  (d 100 (-1), d 420 (-1), INFINITY),
  (d 1000000 (-1), d 420 (-1), INFINITY),
  (-(d 1000000 (-1)), d 430 (-1), -INFINITY),
  (-(d 100 (-1)), d 430 (-1), -INFINITY),
  (-(d 30 (-1)), d 430 (-1), -(d 32825696 13)),
  (-(d 20 (-1)), d 430 (-1), -(d 87960930000000 (-1))),
  (-(d 10 (-1)), d 430 (-1), -(d 10 (-1))),
  (d 10 (-1), d 430 (-1), d 10 (-1)),
  (d 20 (-1), d 430 (-1), d 87960930000000 (-1)),
  (d 30 (-1), d 430 (-1), d 32825696 13),
  (d 100 (-1), d 430 (-1), INFINITY),
  (d 1000000 (-1), d 430 (-1), INFINITY),
  (-(d 1000000 (-1)), d 440 (-1), INFINITY),
  (-(d 100 (-1)), d 440 (-1), INFINITY),
  (-(d 30 (-1)), d 440 (-1), d 9847709 14),
  (-(d 20 (-1)), d 440 (-1), d 175921860000000 (-1)),
  (-(d 10 (-1)), d 440 (-1), d 10 (-1)),
  (d 10 (-1), d 440 (-1), d 10 (-1)),
  (d 20 (-1), d 440 (-1), d 175921860000000 (-1)),
  (d 30 (-1), d 440 (-1), d 9847709 14),
  (d 100 (-1), d 440 (-1), INFINITY),
  (d 1000000 (-1), d 440 (-1), INFINITY),
  (-(d 1000000 (-1)), d 450 (-1), -INFINITY),
  (-(d 100 (-1)), d 450 (-1), -INFINITY),
  (-(d 30 (-1)), d 450 (-1), -(d 29543127 14)),
  (-(d 20 (-1)), d 450 (-1), -(d 351843720000000 (-1))),
  (-(d 10 (-1)), d 450 (-1), -(d 10 (-1))),
  (d 10 (-1), d 450 (-1), d 10 (-1)),
  (d 20 (-1), d 450 (-1), d 351843720000000 (-1)),
  (d 30 (-1), d 450 (-1), d 29543127 14),
  (d 100 (-1), d 450 (-1), INFINITY),
  (d 1000000 (-1), d 450 (-1), INFINITY),
  (-(d 1000000 (-1)), d 460 (-1), INFINITY),
  (-(d 100 (-1)), d 460 (-1), INFINITY),
  (-(d 30 (-1)), d 460 (-1), d 8862938 15),
  (-(d 20 (-1)), d 460 (-1), d 703687440000000 (-1)),
  (-(d 10 (-1)), d 460 (-1), d 10 (-1)),
  (d 10 (-1), d 460 (-1), d 10 (-1)),
  (d 20 (-1), d 460 (-1), d 703687440000000 (-1)),
  (d 30 (-1), d 460 (-1), d 8862938 15),
  (d 100 (-1), d 460 (-1), INFINITY),
  (d 1000000 (-1), d 460 (-1), INFINITY),
  (-(d 1000000 (-1)), d 470 (-1), -INFINITY),
  (-(d 100 (-1)), d 470 (-1), -INFINITY),
  (-(d 30 (-1)), d 470 (-1), -(d 26588815 15)),
  (-(d 20 (-1)), d 470 (-1), -(d 1407374900000000 (-1))),
  (-(d 10 (-1)), d 470 (-1), -(d 10 (-1))),
  (d 10 (-1), d 470 (-1), d 10 (-1)),
  (d 20 (-1), d 470 (-1), d 1407374900000000 (-1)),
  (d 30 (-1), d 470 (-1), d 26588815 15),
  (d 100 (-1), d 470 (-1), INFINITY),
  (d 1000000 (-1), d 470 (-1), INFINITY),
  (-(d 1000000 (-1)), d 480 (-1), INFINITY),
  (-(d 100 (-1)), d 480 (-1), INFINITY),
  (-(d 30 (-1)), d 480 (-1), d 7976644 16),
  (-(d 20 (-1)), d 480 (-1), d 2814749800000000 (-1)),
  (-(d 10 (-1)), d 480 (-1), d 10 (-1)),
  (d 10 (-1), d 480 (-1), d 10 (-1)),
  (d 20 (-1), d 480 (-1), d 2814749800000000 (-1)),
  (d 30 (-1), d 480 (-1), d 7976644 16),
  (d 100 (-1), d 480 (-1), INFINITY),
  (d 1000000 (-1), d 480 (-1), INFINITY),
  (-(d 1000000 (-1)), d 490 (-1), -INFINITY),
  (-(d 100 (-1)), d 490 (-1), -INFINITY),
  (-(d 30 (-1)), d 490 (-1), -(d 23929932 16)),
  (-(d 20 (-1)), d 490 (-1), -(d 5629499500000000 (-1))),
  (-(d 10 (-1)), d 490 (-1), -(d 10 (-1))),
  (d 10 (-1), d 490 (-1), d 10 (-1)),
  (d 20 (-1), d 490 (-1), d 5629499500000000 (-1)),
  (d 30 (-1), d 490 (-1), d 23929932 16),
  (d 100 (-1), d 490 (-1), INFINITY),
  (d 1000000 (-1), d 490 (-1), INFINITY),
  (-(d 1000000 (-1)), d 500 (-1), INFINITY),
  (-(d 100 (-1)), d 500 (-1), INFINITY),
  (-(d 30 (-1)), d 500 (-1), d 717898 18),
  (-(d 20 (-1)), d 500 (-1), d 11258999000000000 (-1)),
  (-(d 10 (-1)), d 500 (-1), d 10 (-1)),
  (d 10 (-1), d 500 (-1), d 10 (-1)),
  (d 20 (-1), d 500 (-1), d 11258999000000000 (-1)),
  (d 30 (-1), d 500 (-1), d 717898 18),
  (d 100 (-1), d 500 (-1), INFINITY),
  (d 1000000 (-1), d 500 (-1), INFINITY),
  (-(d 1000000 (-1)), d 510 (-1), -INFINITY),
  (-(d 100 (-1)), d 510 (-1), -INFINITY),
  (-(d 30 (-1)), d 510 (-1), -(d 2153694 18)),
  (-(d 20 (-1)), d 510 (-1), -(d 22517998000000000 (-1))),
  (-(d 10 (-1)), d 510 (-1), -(d 10 (-1))),
  (d 10 (-1), d 510 (-1), d 10 (-1)),
  (d 20 (-1), d 510 (-1), d 22517998000000000 (-1)),
  (d 30 (-1), d 510 (-1), d 2153694 18),
  (d 100 (-1), d 510 (-1), INFINITY),
  (d 1000000 (-1), d 510 (-1), INFINITY)]

/-- `/repo/src/float/powi.rs:1880-2079` -/
def powiVectors9 : List (F32 × F32 × F32) := [
  (-(d 1000000 (-1)), d 520 (-1), INFINITY),
  (-(d 100 (-1)), d 520 (-1), INFINITY),
  (-(d 30 (-1)), d 520 (-1), d 64610816 17),
  (-(d 20 (-1)), d 520 (-1), d 45035996000000000 (-1)),
  (-(d 10 (-1)), d 520 (-1), d 10 (-1)),
  (d 10 (-1), d 520 (-1), d 10 (-1)),
  (d 20 (-1), d 520 (-1), d 45035996000000000 (-1)),
  (d 30 (-1), d 520 (-1), d 64610816 17),
  (d 100 (-1), d 520 (-1), INFINITY),
  (d 1000000 (-1), d 520 (-1), INFINITY),
  (-(d 1000000 (-1)), d 530 (-1), -INFINITY),
  (-(d 100 (-1)), d 530 (-1), -INFINITY),
  (-(d 30 (-1)), d 530 (-1), -(d 19383246 18)),
  (-(d 20 (-1)), d 530 (-1), -(d 90071990000000000 (-1))),
  (-(d 10 (-1)), d 530 (-1), -(d 10 (-1))),
  (d 10 (-1), d 530 (-1), d 10 (-1)),
  (d 20 (-1), d 530 (-1), d 90071990000000000 (-1)),
  (d 30 (-1), d 530 (-1), d 19383246 18),
  (d 100 (-1), d 530 (-1), INFINITY),
  (d 1000000 (-1), d 530 (-1), INFINITY),
  (-(d 1000000 (-1)), d 540 (-1), INFINITY),
  (-(d 100 (-1)), d 540 (-1), INFINITY),
  (-(d 30 (-1)), d 540 (-1), d 58149736 18),
  (-(d 20 (-1)), d 540 (-1), d 18014399 9),
  (-(d 10 (-1)), d 540 (-1), d 10 (-1)),
  (d 10 (-1), d 540 (-1), d 10 (-1)),
  (d 20 (-1), d 540 (-1), d 18014399 9),
  (d 30 (-1), d 540 (-1), d 58149736 18),
  (d 100 (-1), d 540 (-1), INFINITY),
  (d 1000000 (-1), d 540 (-1), INFINITY),
  (-(d 1000000 (-1)), d 550 (-1), -INFINITY),
  (-(d 100 (-1)), d 550 (-1), -INFINITY),
  (-(d 30 (-1)), d 550 (-1), -(d 17444922 19)),
  (-(d 20 (-1)), d 550 (-1), -(d 36028797 9)),
  (-(d 10 (-1)), d 550 (-1), -(d 10 (-1))),
  (d 10 (-1), d 550 (-1), d 10 (-1)),
  (d 20 (-1), d 550 (-1), d 36028797 9),
  (d 30 (-1), d 550 (-1), d 17444922 19),
  (d 100 (-1), d 550 (-1), INFINITY),
  (d 1000000 (-1), d 550 (-1), INFINITY),
  (-(d 1000000 (-1)), d 560 (-1), INFINITY),
  (-(d 100 (-1)), d 560 (-1), INFINITY),
  (-(d 30 (-1)), d 560 (-1), d 52334763 19),
  (-(d 20 (-1)), d 560 (-1), d 72057594 9),
  (-(d 10 (-1)), d 560 (-1), d 10 (-1)),
  (d 10 (-1), d 560 (-1), d 10 (-1)),
  (d 20 (-1), d 560 (-1), d 72057594 9),
  (d 30 (-1), d 560 (-1), d 52334763 19),
  (d 100 (-1), d 560 (-1), INFINITY),
  (d 1000000 (-1), d 560 (-1), INFINITY),
  (-(d 1000000 (-1)), d 570 (-1), -INFINITY),
  (-(d 100 (-1)), d 570 (-1), -INFINITY),
  (-(d 30 (-1)), d 570 (-1), -(d 1570043 21)),
  (-(d 20 (-1)), d 570 (-1), -(d 14411519 10)),
  (-(d 10 (-1)), d 570 (-1), -(d 10 (-1))),
  (d 10 (-1), d 570 (-1), d 10 (-1)),
  (d 20 (-1), d 570 (-1), d 14411519 10),
  (d 30 (-1), d 570 (-1), d 1570043 21),
  (d 100 (-1), d 570 (-1), INFINITY),
  (d 1000000 (-1), d 570 (-1), INFINITY),
  (-(d 1000000 (-1)), d 580 (-1), INFINITY),
  (-(d 100 (-1)), d 580 (-1), INFINITY),
  (-(d 30 (-1)), d 580 (-1), d 47101288 20),
  (-(d 20 (-1)), d 580 (-1), d 28823038 10),
  (-(d 10 (-1)), d 580 (-1), d 10 (-1)),
  (d 10 (-1), d 580 (-1), d 10 (-1)),
  (d 20 (-1), d 580 (-1), d 28823038 10),
  (d 30 (-1), d 580 (-1), d 47101288 20),
  (d 100 (-1), d 580 (-1), INFINITY),
  (d 1000000 (-1), d 580 (-1), INFINITY),
  (-(d 1000000 (-1)), d 590 (-1), -INFINITY),
  (-(d 100 (-1)), d 590 (-1), -INFINITY),
  (-(d 30 (-1)), d 590 (-1), -(d 14130387 21)),
  (-(d 20 (-1)), d 590 (-1), -(d 57646075 10)),
  (-(d 10 (-1)), d 590 (-1), -(d 10 (-1))),
  (d 10 (-1), d 590 (-1), d 10 (-1)),
  (d 20 (-1), d 590 (-1), d 57646075 10),
  (d 30 (-1), d 590 (-1), d 14130387 21),
  (d 100 (-1), d 590 (-1), INFINITY),
  (d 1000000 (-1), d 590 (-1), INFINITY),
  (-(d 1000000 (-1)), d 600 (-1), INFINITY),
  (-(d 100 (-1)), d 600 (-1), INFINITY),
  (-(d 30 (-1)), d 600 (-1), d 4239116 22),
  (-(d 20 (-1)), d 600 (-1), d 11529215 11),
  (-(d 10 (-1)), d 600 (-1), d 10 (-1)),
  (d 10 (-1), d 600 (-1), d 10 (-1)),
  (d 20 (-1), d 600 (-1), d 11529215 11),
  (d 30 (-1), d 600 (-1), d 4239116 22),
  (d 100 (-1), d 600 (-1), INFINITY),
  (d 1000000 (-1), d 600 (-1), INFINITY),
  (-(d 1000000 (-1)), d 610 (-1), -INFINITY),
  (-(d 100 (-1)), d 610 (-1), -INFINITY),
  (-(d 30 (-1)), d 610 (-1), -(d 12717347 22)),
  (-(d 20 (-1)), d 610 (-1), -(d 2305843 12)),
  (-(d 10 (-1)), d 610 (-1), -(d 10 (-1))),
  (d 10 (-1), d 610 (-1), d 10 (-1)),
  (d 20 (-1), d 610 (-1), d 2305843 12),
  (d 30 (-1), d 610 (-1), d 12717347 22),
  (d 100 (-1), d 610 (-1), INFINITY),
  (d 1000000 (-1), d 610 (-1), INFINITY),
  (-(d 1000000 (-1)), d 620 (-1), INFINITY),
  (-(d 100 (-1)), d 620 (-1), INFINITY),
  (-(d 30 (-1)), d 620 (-1), d 38152044 22),
  (-(d 20 (-1)), d 620 (-1), d 4611686 12),
  (-(d 10 (-1)), d 620 (-1), d 10 (-1)),
  (d 10 (-1), d 620 (-1), d 10 (-1)),
  (d 20 (-1), d 620 (-1), d 4611686 12),
  (d 30 (-1), d 620 (-1), d 38152044 22),
  (d 100 (-1), d 620 (-1), INFINITY),
  (d 1000000 (-1), d 620 (-1), INFINITY),
  (-(d 1000000 (-1)), d 630 (-1), -INFINITY),
  (-(d 100 (-1)), d 630 (-1), -INFINITY),
  (-(d 30 (-1)), d 630 (-1), -(d 114456125 22)),
  (-(d 20 (-1)), d 630 (-1), -(d 9223372 12)),
  (-(d 10 (-1)), d 630 (-1), -(d 10 (-1))),
  (d 10 (-1), d 630 (-1), d 10 (-1)),
  (d 20 (-1), d 630 (-1), d 9223372 12),
  (d 30 (-1), d 630 (-1), d 114456125 22),
  (d 100 (-1), d 630 (-1), INFINITY),
  (d 1000000 (-1), d 630 (-1), INFINITY),
  (-(d 1000000 (-1)), d 640 (-1), INFINITY),
  (-(d 100 (-1)), d 640 (-1), INFINITY),
  (-(d 30 (-1)), d 640 (-1), d 3433684 24),
  (-(d 20 (-1)), d 640 (-1), d 18446744 12),
  (-(d 10 (-1)), d 640 (-1), d 10 (-1)),
  (d 10 (-1), d 640 (-1), d 10 (-1)),
  (d 20 (-1), d 640 (-1), d 18446744 12),
  (d 30 (-1), d 640 (-1), d 3433684 24),
  (d 100 (-1), d 640 (-1), INFINITY),
  (d 1000000 (-1), d 640 (-1), INFINITY),
  (-(d 1000000 (-1)), d 650 (-1), -INFINITY),
  (-(d 100 (-1)), d 650 (-1), -INFINITY),
  (-(d 30 (-1)), d 650 (-1), -(d 10301051 24)),
  (-(d 20 (-1)), d 650 (-1), -(d 3689349 13)),
  (-(d 10 (-1)), d 650 (-1), -(d 10 (-1))),
  (d 10 (-1), d 650 (-1), d 10 (-1)),
  (d 20 (-1), d 650 (-1), d 3689349 13),
  (d 30 (-1), d 650 (-1), d 10301051 24),
  (d 100 (-1), d 650 (-1), INFINITY),
  (d 1000000 (-1), d 650 (-1), INFINITY),
  (-(d 1000000 (-1)), d 660 (-1), INFINITY),
  (-(d 100 (-1)), d 660 (-1), INFINITY),
  (-(d 30 (-1)), d 660 (-1), d 30903154 24),
  (-(d 20 (-1)), d 660 (-1), d 7378698 13),
  (-(d 10 (-1)), d 660 (-1), d 10 (-1)),
  (d 10 (-1), d 660 (-1), d 10 (-1)),
  (d 20 (-1), d 660 (-1), d 7378698 13),
  (d 30 (-1), d 660 (-1), d 30903154 24),
  (d 100 (-1), d 660 (-1), INFINITY),
  (d 1000000 (-1), d 660 (-1), INFINITY),
  (-(d 1000000 (-1)), d 670 (-1), -INFINITY),
  (-(d 100 (-1)), d 670 (-1), -INFINITY),
  (-(d 30 (-1)), d 670 (-1), -(d 92709465 24)),
  (-(d 20 (-1)), d 670 (-1), -(d 14757395 13)),
  (-(d 10 (-1)), d 670 (-1), -(d 10 (-1))),
  (d 10 (-1), d 670 (-1), d 10 (-1)),
  (d 20 (-1), d 670 (-1), d 14757395 13),
  (d 30 (-1), d 670 (-1), d 92709465 24),
  (d 100 (-1), d 670 (-1), INFINITY),
  (d 1000000 (-1), d 670 (-1), INFINITY),
  (-(d 1000000 (-1)), d 680 (-1), INFINITY),
  (-(d 100 (-1)), d 680 (-1), INFINITY),
  (-(d 30 (-1)), d 680 (-1), d 2781284 26),
  (-(d 20 (-1)), d 680 (-1), d 2951479 14),
  (-(d 10 (-1)), d 680 (-1), d 10 (-1)),
  (d 10 (-1), d 680 (-1), d 10 (-1)),
  (d 20 (-1), d 680 (-1), d 2951479 14),
  (d 30 (-1), d 680 (-1), d 2781284 26),
  (d 100 (-1), d 680 (-1), INFINITY),
  (d 1000000 (-1), d 680 (-1), INFINITY),
  (-(d 1000000 (-1)), d 690 (-1), -INFINITY),
  (-(d 100 (-1)), d 690 (-1), -INFINITY),
  (-(d 30 (-1)), d 690 (-1), -(d 8343852 26)),
  (-(d 20 (-1)), d 690 (-1), -(d 5902958 14)),
  (-(d 10 (-1)), d 690 (-1), -(d 10 (-1))),
  (d 10 (-1), d 690 (-1), d 10 (-1)),
  (d 20 (-1), d 690 (-1), d 5902958 14),
  (d 30 (-1), d 690 (-1), d 8343852 26),
  (d 100 (-1), d 690 (-1), INFINITY),
  (d 1000000 (-1), d 690 (-1), INFINITY),
  (-(d 1000000 (-1)), d 700 (-1), INFINITY),
  (-(d 100 (-1)), d 700 (-1), INFINITY),
  (-(d 30 (-1)), d 700 (-1), d 25031555 26),
  (-(d 20 (-1)), d 700 (-1), d 11805916 14),
  (-(d 10 (-1)), d 700 (-1), d 10 (-1)),
  (d 10 (-1), d 700 (-1), d 10 (-1)),
  (d 20 (-1), d 700 (-1), d 11805916 14),
  (d 30 (-1), d 700 (-1), d 25031555 26),
  (d 100 (-1), d 700 (-1), INFINITY),
  (d 1000000 (-1), d 700 (-1), INFINITY),
  (-(d 1000000 (-1)), d 710 (-1), -INFINITY),
  (-(d 100 (-1)), d 710 (-1), -INFINITY),
  (-(d 30 (-1)), d 710 (-1), -(d 7509466 27)),
  (-(d 20 (-1)), d 710 (-1), -(d 23611832 14)),
  (-(d 10 (-1)), d 710 (-1), -(d 10 (-1))),
  (d 10 (-1), d 710 (-1), d 10 (-1)),
  (d 20 (-1), d 710 (-1), d 23611832 14),
  (d 30 (-1), d 710 (-1), d 7509466 27),
  (d 100 (-1), d 710 (-1), INFINITY),
  (d 1000000 (-1), d 710 (-1), INFINITY)]

/-- `/repo/src/float/powi.rs:2080-2279` -/
def powiVectors10 : List (F32 × F32 × F32) := [
  (-(d 1000000 (-1)), d 720 (-1), INFINITY),
  (-(d 100 (-1)), d 720 (-1), INFINITY),
  (-(d 30 (-1)), d 720 (-1), d 225284 29),
  (-(d 20 (-1)), d 720 (-1), d 47223665 14),
  (-(d 10 (-1)), d 720 (-1), d 10 (-1)),
  (d 10 (-1), d 720 (-1), d 10 (-1)),
  (d 20 (-1), d 720 (-1), d 47223665 14),
  (d 30 (-1), d 720 (-1), d 225284 29),
  (d 100 (-1), d 720 (-1), INFINITY),
  (d 1000000 (-1), d 720 (-1), INFINITY),
  (-(d 1000000 (-1)), d 730 (-1), -INFINITY),
  (-(d 100 (-1)), d 730 (-1), -INFINITY),
  (-(d 30 (-1)), d 730 (-1), -(d 675852 29)),
  (-(d 20 (-1)), d 730 (-1), -(d 9444733 15)),
  (-(d 10 (-1)), d 730 (-1), -(d 10 (-1))),
  (d 10 (-1), d 730 (-1), d 10 (-1)),
  (d 20 (-1), d 730 (-1), d 9444733 15),
  (d 30 (-1), d 730 (-1), d 675852 29),
  (d 100 (-1), d 730 (-1), INFINITY),
  (d 1000000 (-1), d 730 (-1), INFINITY),
  (-(d 1000000 (-1)), d 740 (-1), INFINITY),
  (-(d 100 (-1)), d 740 (-1), INFINITY),
  (-(d 30 (-1)), d 740 (-1), d 2027556 29),
  (-(d 20 (-1)), d 740 (-1), d 18889466 15),
  (-(d 10 (-1)), d 740 (-1), d 10 (-1)),
  (d 10 (-1), d 740 (-1), d 10 (-1)),
  (d 20 (-1), d 740 (-1), d 18889466 15),
  (d 30 (-1), d 740 (-1), d 2027556 29),
  (d 100 (-1), d 740 (-1), INFINITY),
  (d 1000000 (-1), d 740 (-1), INFINITY),
  (-(d 1000000 (-1)), d 750 (-1), -INFINITY),
  (-(d 100 (-1)), d 750 (-1), -INFINITY),
  (-(d 30 (-1)), d 750 (-1), -(d 60826677 28)),
  (-(d 20 (-1)), d 750 (-1), -(d 37778932 15)),
  (-(d 10 (-1)), d 750 (-1), -(d 10 (-1))),
  (d 10 (-1), d 750 (-1), d 10 (-1)),
  (d 20 (-1), d 750 (-1), d 37778932 15),
  (d 30 (-1), d 750 (-1), d 60826677 28),
  (d 100 (-1), d 750 (-1), INFINITY),
  (d 1000000 (-1), d 750 (-1), INFINITY),
  (-(d 1000000 (-1)), d 760 (-1), INFINITY),
  (-(d 100 (-1)), d 760 (-1), INFINITY),
  (-(d 30 (-1)), d 760 (-1), d 18248003 29),
  (-(d 20 (-1)), d 760 (-1), d 75557864 15),
  (-(d 10 (-1)), d 760 (-1), d 10 (-1)),
  (d 10 (-1), d 760 (-1), d 10 (-1)),
  (d 20 (-1), d 760 (-1), d 75557864 15),
  (d 30 (-1), d 760 (-1), d 18248003 29),
  (d 100 (-1), d 760 (-1), INFINITY),
  (d 1000000 (-1), d 760 (-1), INFINITY),
  (-(d 1000000 (-1)), d 770 (-1), -INFINITY),
  (-(d 100 (-1)), d 770 (-1), -INFINITY),
  (-(d 30 (-1)), d 770 (-1), -(d 5474401 30)),
  (-(d 20 (-1)), d 770 (-1), -(d 15111573 16)),
  (-(d 10 (-1)), d 770 (-1), -(d 10 (-1))),
  (d 10 (-1), d 770 (-1), d 10 (-1)),
  (d 20 (-1), d 770 (-1), d 15111573 16),
  (d 30 (-1), d 770 (-1), d 5474401 30),
  (d 100 (-1), d 770 (-1), INFINITY),
  (d 1000000 (-1), d 770 (-1), INFINITY),
  (-(d 1000000 (-1)), d 780 (-1), INFINITY),
  (-(d 100 (-1)), d 780 (-1), INFINITY),
  (-(d 30 (-1)), d 780 (-1), d 16423203 30),
  (-(d 20 (-1)), d 780 (-1), d 30223145 16),
  (-(d 10 (-1)), d 780 (-1), d 10 (-1)),
  (d 10 (-1), d 780 (-1), d 10 (-1)),
  (d 20 (-1), d 780 (-1), d 30223145 16),
  (d 30 (-1), d 780 (-1), d 16423203 30),
  (d 100 (-1), d 780 (-1), INFINITY),
  (d 1000000 (-1), d 780 (-1), INFINITY),
  (-(d 1000000 (-1)), d 790 (-1), -INFINITY),
  (-(d 100 (-1)), d 790 (-1), -INFINITY),
  (-(d 30 (-1)), d 790 (-1), -(d 4926961 31)),
  (-(d 20 (-1)), d 790 (-1), -(d 6044629 17)),
  (-(d 10 (-1)), d 790 (-1), -(d 10 (-1))),
  (d 10 (-1), d 790 (-1), d 10 (-1)),
  (d 20 (-1), d 790 (-1), d 6044629 17),
  (d 30 (-1), d 790 (-1), d 4926961 31),
  (d 100 (-1), d 790 (-1), INFINITY),
  (d 1000000 (-1), d 790 (-1), INFINITY),
  (-(d 1000000 (-1)), d 800 (-1), INFINITY),
  (-(d 100 (-1)), d 800 (-1), INFINITY),
  (-(d 30 (-1)), d 800 (-1), d 14780883 31),
  (-(d 20 (-1)), d 800 (-1), d 12089258 17),
  (-(d 10 (-1)), d 800 (-1), d 10 (-1)),
  (d 10 (-1), d 800 (-1), d 10 (-1)),
  (d 20 (-1), d 800 (-1), d 12089258 17),
  (d 30 (-1), d 800 (-1), d 14780883 31),
  (d 100 (-1), d 800 (-1), INFINITY),
  (d 1000000 (-1), d 800 (-1), INFINITY),
  (-(d 1000000 (-1)), d 810 (-1), -INFINITY),
  (-(d 100 (-1)), d 810 (-1), -INFINITY),
  (-(d 30 (-1)), d 810 (-1), -INFINITY),
  (-(d 20 (-1)), d 810 (-1), -(d 24178516 17)),
  (-(d 10 (-1)), d 810 (-1), -(d 10 (-1))),
  (d 10 (-1), d 810 (-1), d 10 (-1)),
  (d 20 (-1), d 810 (-1), d 24178516 17),
  (d 30 (-1), d 810 (-1), INFINITY),
  (d 100 (-1), d 810 (-1), INFINITY),
  (d 1000000 (-1), d 810 (-1), INFINITY),
  (-(d 1000000 (-1)), d 820 (-1), INFINITY),
  (-(d 100 (-1)), d 820 (-1), INFINITY),
  (-(d 30 (-1)), d 820 (-1), INFINITY),
  (-(d 20 (-1)), d 820 (-1), d 48357033 17),
  (-(d 10 (-1)), d 820 (-1), d 10 (-1)),
  (d 10 (-1), d 820 (-1), d 10 (-1)),
  (d 20 (-1), d 820 (-1), d 48357033 17),
  (d 30 (-1), d 820 (-1), INFINITY),
  (d 100 (-1), d 820 (-1), INFINITY),
  (d 1000000 (-1), d 820 (-1), INFINITY),
  (-(d 1000000 (-1)), d 830 (-1), -INFINITY),
  (-(d 100 (-1)), d 830 (-1), -INFINITY),
  (-(d 30 (-1)), d 830 (-1), -INFINITY),
  (-(d 20 (-1)), d 830 (-1), -(d 9671407 18)),
  (-(d 10 (-1)), d 830 (-1), -(d 10 (-1))),
  (d 10 (-1), d 830 (-1), d 10 (-1)),
  (d 20 (-1), d 830 (-1), d 9671407 18),
  (d 30 (-1), d 830 (-1), INFINITY),
  (d 100 (-1), d 830 (-1), INFINITY),
  (d 1000000 (-1), d 830 (-1), INFINITY),
  (-(d 1000000 (-1)), d 840 (-1), INFINITY),
  (-(d 100 (-1)), d 840 (-1), INFINITY),
  (-(d 30 (-1)), d 840 (-1), INFINITY),
  (-(d 20 (-1)), d 840 (-1), d 19342813 18),
  (-(d 10 (-1)), d 840 (-1), d 10 (-1)),
  (d 10 (-1), d 840 (-1), d 10 (-1)),
  (d 20 (-1), d 840 (-1), d 19342813 18),
  (d 30 (-1), d 840 (-1), INFINITY),
  (d 100 (-1), d 840 (-1), INFINITY),
  (d 1000000 (-1), d 840 (-1), INFINITY),
  (-(d 1000000 (-1)), d 850 (-1), -INFINITY),
  (-(d 100 (-1)), d 850 (-1), -INFINITY),
  (-(d 30 (-1)), d 850 (-1), -INFINITY),
  (-(d 20 (-1)), d 850 (-1), -(d 38685626 18)),
  (-(d 10 (-1)), d 850 (-1), -(d 10 (-1))),
  (d 10 (-1), d 850 (-1), d 10 (-1)),
  (d 20 (-1), d 850 (-1), d 38685626 18),
  (d 30 (-1), d 850 (-1), INFINITY),
  (d 100 (-1), d 850 (-1), INFINITY),
  (d 1000000 (-1), d 850 (-1), INFINITY),
  (-(d 1000000 (-1)), d 860 (-1), INFINITY),
  (-(d 100 (-1)), d 860 (-1), INFINITY),
  (-(d 30 (-1)), d 860 (-1), INFINITY),
  (-(d 20 (-1)), d 860 (-1), d 77371252 18),
  (-(d 10 (-1)), d 860 (-1), d 10 (-1)),
  (d 10 (-1), d 860 (-1), d 10 (-1)),
  (d 20 (-1), d 860 (-1), d 77371252 18),
  (d 30 (-1), d 860 (-1), INFINITY),
  (d 100 (-1), d 860 (-1), INFINITY),
  (d 1000000 (-1), d 860 (-1), INFINITY),
  (-(d 1000000 (-1)), d 870 (-1), -INFINITY),
  (-(d 100 (-1)), d 870 (-1), -INFINITY),
  (-(d 30 (-1)), d 870 (-1), -INFINITY),
  (-(d 20 (-1)), d 870 (-1), -(d 15474251 19)),
  (-(d 10 (-1)), d 870 (-1), -(d 10 (-1))),
  (d 10 (-1), d 870 (-1), d 10 (-1)),
  (d 20 (-1), d 870 (-1), d 15474251 19),
  (d 30 (-1), d 870 (-1), INFINITY),
  (d 100 (-1), d 870 (-1), INFINITY),
  (d 1000000 (-1), d 870 (-1), INFINITY),
  (-(d 1000000 (-1)), d 880 (-1), INFINITY),
  (-(d 100 (-1)), d 880 (-1), INFINITY),
  (-(d 30 (-1)), d 880 (-1), INFINITY),
  (-(d 20 (-1)), d 880 (-1), d 30948501 19),
  (-(d 10 (-1)), d 880 (-1), d 10 (-1)),
  (d 10 (-1), d 880 (-1), d 10 (-1)),
  (d 20 (-1), d 880 (-1), d 30948501 19),
  (d 30 (-1), d 880 (-1), INFINITY),
  (d 100 (-1), d 880 (-1), INFINITY),
  (d 1000000 (-1), d 880 (-1), INFINITY),
  (-(d 1000000 (-1)), d 890 (-1), -INFINITY),
  (-(d 100 (-1)), d 890 (-1), -INFINITY),
  (-(d 30 (-1)), d 890 (-1), -INFINITY),
  (-(d 20 (-1)), d 890 (-1), -(d 61897002 19)),
  (-(d 10 (-1)), d 890 (-1), -(d 10 (-1))),
  (d 10 (-1), d 890 (-1), d 10 (-1)),
  (d 20 (-1), d 890 (-1), d 61897002 19),
  (d 30 (-1), d 890 (-1), INFINITY),
  (d 100 (-1), d 890 (-1), INFINITY),
  (d 1000000 (-1), d 890 (-1), INFINITY),
  (-(d 1000000 (-1)), d 900 (-1), INFINITY),
  (-(d 100 (-1)), d 900 (-1), INFINITY),
  (-(d 30 (-1)), d 900 (-1), INFINITY),
  (-(d 20 (-1)), d 900 (-1), d 12379401 20),
  (-(d 10 (-1)), d 900 (-1), d 10 (-1)),
  (d 10 (-1), d 900 (-1), d 10 (-1)),
  (d 20 (-1), d 900 (-1), d 12379401 20),
  (d 30 (-1), d 900 (-1), INFINITY),
  (d 100 (-1), d 900 (-1), INFINITY),
  (d 1000000 (-1), d 900 (-1), INFINITY),
  (-(d 1000000 (-1)), d 910 (-1), -INFINITY),
  (-(d 100 (-1)), d 910 (-1), -INFINITY),
  (-(d 30 (-1)), d 910 (-1), -INFINITY),
  (-(d 20 (-1)), d 910 (-1), -(d 24758801 20)),
  (-(d 10 (-1)), d 910 (-1), -(d 10 (-1))),
  (d 10 (-1), d 910 (-1), d 10 (-1)),
  (d 20 (-1), d 910 (-1), d 24758801 20),
  (d 30 (-1), d 910 (-1), INFINITY),
  (d 100 (-1), d 910 (-1), INFINITY),
  (d 1000000 (-1), d 910 (-1), INFINITY)]

/-- `/repo/src/float/powi.rs:2280-2479` -/
def powiVectors11 : List (F32 × F32 × F32) := [
  (-(d 1000000 (-1)), d 920 (-1), INFINITY),
  (-(d 100 (-1)), d 920 (-1), INFINITY),
  (-(d 30 (-1)), d 920 (-1), INFINITY),
  (-(d 20 (-1)), d 920 (-1), d 49517602 20),
  (-(d 10 (-1)), d 920 (-1), d 10 (-1)),
  (d 10 (-1), d 920 (-1), d 10 (-1)),
  (d 20 (-1), d 920 (-1), d 49517602 20),
  (d 30 (-1), d 920 (-1), INFINITY),
  (d 100 (-1), d 920 (-1), INFINITY),
  (d 1000000 (-1), d 920 (-1), INFINITY),
  (-(d 1000000 (-1)), d 930 (-1), -INFINITY),
  (-(d 100 (-1)), d 930 (-1), -INFINITY),
  (-(d 30 (-1)), d 930 (-1), -INFINITY),
  (-(d 20 (-1)), d 930 (-1), -(d 99035203 20)),
  (-(d 10 (-1)), d 930 (-1), -(d 10 (-1))),
  (d 10 (-1), d 930 (-1), d 10 (-1)),
  (d 20 (-1), d 930 (-1), d 99035203 20),
  (d 30 (-1), d 930 (-1), INFINITY),
  (d 100 (-1), d 930 (-1), INFINITY),
  (d 1000000 (-1), d 930 (-1), INFINITY),
  (-(d 1000000 (-1)), d 940 (-1), INFINITY),
  (-(d 100 (-1)), d 940 (-1), INFINITY),
  (-(d 30 (-1)), d 940 (-1), INFINITY),
  (-(d 20 (-1)), d 940 (-1), d 19807041 21),
  (-(d 10 (-1)), d 940 (-1), d 10 (-1)),
  (d 10 (-1), d 940 (-1), d 10 (-1)),
  (d 20 (-1), d 940 (-1), d 19807041 21),
  (d 30 (-1), d 940 (-1), INFINITY),
  (d 100 (-1), d 940 (-1), INFINITY),
  (d 1000000 (-1), d 940 (-1), INFINITY),
  (-(d 1000000 (-1)), d 950 (-1), -INFINITY),
  (-(d 100 (-1)), d 950 (-1), -INFINITY),
  (-(d 30 (-1)), d 950 (-1), -INFINITY),
  (-(d 20 (-1)), d 950 (-1), -(d 39614081 21)),
  (-(d 10 (-1)), d 950 (-1), -(d 10 (-1))),
  (d 10 (-1), d 950 (-1), d 10 (-1)),
  (d 20 (-1), d 950 (-1), d 39614081 21),
  (d 30 (-1), d 950 (-1), INFINITY),
  (d 100 (-1), d 950 (-1), INFINITY),
  (d 1000000 (-1), d 950 (-1), INFINITY),
  (-(d 1000000 (-1)), d 960 (-1), INFINITY),
  (-(d 100 (-1)), d 960 (-1), INFINITY),
  (-(d 30 (-1)), d 960 (-1), INFINITY),
  (-(d 20 (-1)), d 960 (-1), d 79228163 21),
  (-(d 10 (-1)), d 960 (-1), d 10 (-1)),
  (d 10 (-1), d 960 (-1), d 10 (-1)),
  (d 20 (-1), d 960 (-1), d 79228163 21),
  (d 30 (-1), d 960 (-1), INFINITY),
  (d 100 (-1), d 960 (-1), INFINITY),
  (d 1000000 (-1), d 960 (-1), INFINITY),
  (-(d 1000000 (-1)), d 970 (-1), -INFINITY),
  (-(d 100 (-1)), d 970 (-1), -INFINITY),
  (-(d 30 (-1)), d 970 (-1), -INFINITY),
  (-(d 20 (-1)), d 970 (-1), -(d 15845633 22)),
  (-(d 10 (-1)), d 970 (-1), -(d 10 (-1))),
  (d 10 (-1), d 970 (-1), d 10 (-1)),
  (d 20 (-1), d 970 (-1), d 15845633 22),
  (d 30 (-1), d 970 (-1), INFINITY),
  (d 100 (-1), d 970 (-1), INFINITY),
  (d 1000000 (-1), d 970 (-1), INFINITY),
  (-(d 1000000 (-1)), d 980 (-1), INFINITY),
  (-(d 100 (-1)), d 980 (-1), INFINITY),
  (-(d 30 (-1)), d 980 (-1), INFINITY),
  (-(d 20 (-1)), d 980 (-1), d 31691265 22),
  (-(d 10 (-1)), d 980 (-1), d 10 (-1)),
  (d 10 (-1), d 980 (-1), d 10 (-1)),
  (d 20 (-1), d 980 (-1), d 31691265 22),
  (d 30 (-1), d 980 (-1), INFINITY),
  (d 100 (-1), d 980 (-1), INFINITY),
  (d 1000000 (-1), d 980 (-1), INFINITY),
  (-(d 1000000 (-1)), d 990 (-1), -INFINITY),
  (-(d 100 (-1)), d 990 (-1), -INFINITY),
  (-(d 30 (-1)), d 990 (-1), -INFINITY),
  (-(d 20 (-1)), d 990 (-1), -(d 6338253 23)),
  (-(d 10 (-1)), d 990 (-1), -(d 10 (-1))),
  (d 10 (-1), d 990 (-1), d 10 (-1)),
  (d 20 (-1), d 990 (-1), d 6338253 23),
  (d 30 (-1), d 990 (-1), INFINITY),
  (d 100 (-1), d 990 (-1), INFINITY),
  (d 1000000 (-1), d 990 (-1), INFINITY),
  (-(d 1000000 (-1)), d 1000 (-1), INFINITY),
  (-(d 100 (-1)), d 1000 (-1), INFINITY),
  (-(d 30 (-1)), d 1000 (-1), INFINITY),
  (-(d 20 (-1)), d 1000 (-1), d 12676506 23),
  (-(d 10 (-1)), d 1000 (-1), d 10 (-1)),
  (d 10 (-1), d 1000 (-1), d 10 (-1)),
  (d 20 (-1), d 1000 (-1), d 12676506 23),
  (d 30 (-1), d 1000 (-1), INFINITY),
  (d 100 (-1), d 1000 (-1), INFINITY),
  (d 1000000 (-1), d 1000 (-1), INFINITY),
  (-(d 1000000 (-1)), d 1010 (-1), -INFINITY),
  (-(d 100 (-1)), d 1010 (-1), -INFINITY),
  (-(d 30 (-1)), d 1010 (-1), -INFINITY),
  (-(d 20 (-1)), d 1010 (-1), -(d 25353012 23)),
  (-(d 10 (-1)), d 1010 (-1), -(d 10 (-1))),
  (d 10 (-1), d 1010 (-1), d 10 (-1)),
  (d 20 (-1), d 1010 (-1), d 25353012 23),
  (d 30 (-1), d 1010 (-1), INFINITY),
  (d 100 (-1), d 1010 (-1), INFINITY),
  (d 1000000 (-1), d 1010 (-1), INFINITY),
  (-(d 1000000 (-1)), d 1020 (-1), INFINITY),
  (-(d 100 (-1)), d 1020 (-1), INFINITY),
  (-(d 30 (-1)), d 1020 (-1), INFINITY),
  (-(d 20 (-1)), d 1020 (-1), d 50706024 23),
  (-(d 10 (-1)), d 1020 (-1), d 10 (-1)),
  (d 10 (-1), d 1020 (-1), d 10 (-1)),
  (d 20 (-1), d 1020 (-1), d 50706024 23),
  (d 30 (-1), d 1020 (-1), INFINITY),
  (d 100 (-1), d 1020 (-1), INFINITY),
  (d 1000000 (-1), d 1020 (-1), INFINITY),
  (-(d 1000000 (-1)), d 1030 (-1), -INFINITY),
  (-(d 100 (-1)), d 1030 (-1), -INFINITY),
  (-(d 30 (-1)), d 1030 (-1), -INFINITY),
  (-(d 20 (-1)), d 1030 (-1), -(d 10141205 24)),
  (-(d 10 (-1)), d 1030 (-1), -(d 10 (-1))),
  (d 10 (-1), d 1030 (-1), d 10 (-1)),
  (d 20 (-1), d 1030 (-1), d 10141205 24),
  (d 30 (-1), d 1030 (-1), INFINITY),
  (d 100 (-1), d 1030 (-1), INFINITY),
  (d 1000000 (-1), d 1030 (-1), INFINITY),
  (-(d 1000000 (-1)), d 1040 (-1), INFINITY),
  (-(d 100 (-1)), d 1040 (-1), INFINITY),
  (-(d 30 (-1)), d 1040 (-1), INFINITY),
  (-(d 20 (-1)), d 1040 (-1), d 2028241 25),
  (-(d 10 (-1)), d 1040 (-1), d 10 (-1)),
  (d 10 (-1), d 1040 (-1), d 10 (-1)),
  (d 20 (-1), d 1040 (-1), d 2028241 25),
  (d 30 (-1), d 1040 (-1), INFINITY),
  (d 100 (-1), d 1040 (-1), INFINITY),
  (d 1000000 (-1), d 1040 (-1), INFINITY),
  (-(d 1000000 (-1)), d 1050 (-1), -INFINITY),
  (-(d 100 (-1)), d 1050 (-1), -INFINITY),
  (-(d 30 (-1)), d 1050 (-1), -INFINITY),
  (-(d 20 (-1)), d 1050 (-1), -(d 4056482 25)),
  (-(d 10 (-1)), d 1050 (-1), -(d 10 (-1))),
  (d 10 (-1), d 1050 (-1), d 10 (-1)),
  (d 20 (-1), d 1050 (-1), d 4056482 25),
  (d 30 (-1), d 1050 (-1), INFINITY),
  (d 100 (-1), d 1050 (-1), INFINITY),
  (d 1000000 (-1), d 1050 (-1), INFINITY),
  (-(d 1000000 (-1)), d 1060 (-1), INFINITY),
  (-(d 100 (-1)), d 1060 (-1), INFINITY),
  (-(d 30 (-1)), d 1060 (-1), INFINITY),
  (-(d 20 (-1)), d 1060 (-1), d 8112964 25),
  (-(d 10 (-1)), d 1060 (-1), d 10 (-1)),
  (d 10 (-1), d 1060 (-1), d 10 (-1)),
  (d 20 (-1), d 1060 (-1), d 8112964 25),
  (d 30 (-1), d 1060 (-1), INFINITY),
  (d 100 (-1), d 1060 (-1), INFINITY),
  (d 1000000 (-1), d 1060 (-1), INFINITY),
  (-(d 1000000 (-1)), d 1070 (-1), -INFINITY),
  (-(d 100 (-1)), d 1070 (-1), -INFINITY),
  (-(d 30 (-1)), d 1070 (-1), -INFINITY),
  (-(d 20 (-1)), d 1070 (-1), -(d 16225928 25)),
  (-(d 10 (-1)), d 1070 (-1), -(d 10 (-1))),
  (d 10 (-1), d 1070 (-1), d 10 (-1)),
  (d 20 (-1), d 1070 (-1), d 16225928 25),
  (d 30 (-1), d 1070 (-1), INFINITY),
  (d 100 (-1), d 1070 (-1), INFINITY),
  (d 1000000 (-1), d 1070 (-1), INFINITY),
  (-(d 1000000 (-1)), d 1080 (-1), INFINITY),
  (-(d 100 (-1)), d 1080 (-1), INFINITY),
  (-(d 30 (-1)), d 1080 (-1), INFINITY),
  (-(d 20 (-1)), d 1080 (-1), d 32451855 25),
  (-(d 10 (-1)), d 1080 (-1), d 10 (-1)),
  (d 10 (-1), d 1080 (-1), d 10 (-1)),
  (d 20 (-1), d 1080 (-1), d 32451855 25),
  (d 30 (-1), d 1080 (-1), INFINITY),
  (d 100 (-1), d 1080 (-1), INFINITY),
  (d 1000000 (-1), d 1080 (-1), INFINITY),
  (-(d 1000000 (-1)), d 1090 (-1), -INFINITY),
  (-(d 100 (-1)), d 1090 (-1), -INFINITY),
  (-(d 30 (-1)), d 1090 (-1), -INFINITY),
  (-(d 20 (-1)), d 1090 (-1), -(d 6490371 26)),
  (-(d 10 (-1)), d 1090 (-1), -(d 10 (-1))),
  (d 10 (-1), d 1090 (-1), d 10 (-1)),
  (d 20 (-1), d 1090 (-1), d 6490371 26),
  (d 30 (-1), d 1090 (-1), INFINITY),
  (d 100 (-1), d 1090 (-1), INFINITY),
  (d 1000000 (-1), d 1090 (-1), INFINITY),
  (-(d 1000000 (-1)), d 1100 (-1), INFINITY),
  (-(d 100 (-1)), d 1100 (-1), INFINITY),
  (-(d 30 (-1)), d 1100 (-1), INFINITY),
  (-(d 20 (-1)), d 1100 (-1), d 12980742 26),
  (-(d 10 (-1)), d 1100 (-1), d 10 (-1)),
  (d 10 (-1), d 1100 (-1), d 10 (-1)),
  (d 20 (-1), d 1100 (-1), d 12980742 26),
  (d 30 (-1), d 1100 (-1), INFINITY),
  (d 100 (-1), d 1100 (-1), INFINITY),
  (d 1000000 (-1), d 1100 (-1), INFINITY),
  (-(d 1000000 (-1)), d 1110 (-1), -INFINITY),
  (-(d 100 (-1)), d 1110 (-1), -INFINITY),
  (-(d 30 (-1)), d 1110 (-1), -INFINITY),
  (-(d 20 (-1)), d 1110 (-1), -(d 25961484 26)),
  (-(d 10 (-1)), d 1110 (-1), -(d 10 (-1))),
  (d 10 (-1), d 1110 (-1), d 10 (-1)),
  (d 20 (-1), d 1110 (-1), d 25961484 26),
  (d 30 (-1), d 1110 (-1), INFINITY),
  (d 100 (-1), d 1110 (-1), INFINITY),
  (d 1000000 (-1), d 1110 (-1), INFINITY)]

/-- `/repo/src/float/powi.rs:2480-2658` -/
def powiVectors12 : List (F32 × F32 × F32) := [
  (-(d 1000000 (-1)), d 1120 (-1), INFINITY),
  (-(d 100 (-1)), d 1120 (-1), INFINITY),
  (-(d 30 (-1)), d 1120 (-1), INFINITY),
  (-(d 20 (-1)), d 1120 (-1), d 5192297 27),
  (-(d 10 (-1)), d 1120 (-1), d 10 (-1)),
  (d 10 (-1), d 1120 (-1), d 10 (-1)),
  (d 20 (-1), d 1120 (-1), d 5192297 27),
  (d 30 (-1), d 1120 (-1), INFINITY),
  (d 100 (-1), d 1120 (-1), INFINITY),
  (d 1000000 (-1), d 1120 (-1), INFINITY),
  (-(d 1000000 (-1)), d 1130 (-1), -INFINITY),
  (-(d 100 (-1)), d 1130 (-1), -INFINITY),
  (-(d 30 (-1)), d 1130 (-1), -INFINITY),
  (-(d 20 (-1)), d 1130 (-1), -(d 10384594 27)),
  (-(d 10 (-1)), d 1130 (-1), -(d 10 (-1))),
  (d 10 (-1), d 1130 (-1), d 10 (-1)),
  (d 20 (-1), d 1130 (-1), d 10384594 27),
  (d 30 (-1), d 1130 (-1), INFINITY),
  (d 100 (-1), d 1130 (-1), INFINITY),
  (d 1000000 (-1), d 1130 (-1), INFINITY),
  (-(d 1000000 (-1)), d 1140 (-1), INFINITY),
  (-(d 100 (-1)), d 1140 (-1), INFINITY),
  (-(d 30 (-1)), d 1140 (-1), INFINITY),
  (-(d 20 (-1)), d 1140 (-1), d 20769187 27),
  (-(d 10 (-1)), d 1140 (-1), d 10 (-1)),
  (d 10 (-1), d 1140 (-1), d 10 (-1)),
  (d 20 (-1), d 1140 (-1), d 20769187 27),
  (d 30 (-1), d 1140 (-1), INFINITY),
  (d 100 (-1), d 1140 (-1), INFINITY),
  (d 1000000 (-1), d 1140 (-1), INFINITY),
  (-(d 1000000 (-1)), d 1150 (-1), -INFINITY),
  (-(d 100 (-1)), d 1150 (-1), -INFINITY),
  (-(d 30 (-1)), d 1150 (-1), -INFINITY),
  (-(d 20 (-1)), d 1150 (-1), -(d 41538375 27)),
  (-(d 10 (-1)), d 1150 (-1), -(d 10 (-1))),
  (d 10 (-1), d 1150 (-1), d 10 (-1)),
  (d 20 (-1), d 1150 (-1), d 41538375 27),
  (d 30 (-1), d 1150 (-1), INFINITY),
  (d 100 (-1), d 1150 (-1), INFINITY),
  (d 1000000 (-1), d 1150 (-1), INFINITY),
  (-(d 1000000 (-1)), d 1160 (-1), INFINITY),
  (-(d 100 (-1)), d 1160 (-1), INFINITY),
  (-(d 30 (-1)), d 1160 (-1), INFINITY),
  (-(d 20 (-1)), d 1160 (-1), d 8307675 28),
  (-(d 10 (-1)), d 1160 (-1), d 10 (-1)),
  (d 10 (-1), d 1160 (-1), d 10 (-1)),
  (d 20 (-1), d 1160 (-1), d 8307675 28),
  (d 30 (-1), d 1160 (-1), INFINITY),
  (d 100 (-1), d 1160 (-1), INFINITY),
  (d 1000000 (-1), d 1160 (-1), INFINITY),
  (-(d 1000000 (-1)), d 1170 (-1), -INFINITY),
  (-(d 100 (-1)), d 1170 (-1), -INFINITY),
  (-(d 30 (-1)), d 1170 (-1), -INFINITY),
  (-(d 20 (-1)), d 1170 (-1), -(d 1661535 29)),
  (-(d 10 (-1)), d 1170 (-1), -(d 10 (-1))),
  (d 10 (-1), d 1170 (-1), d 10 (-1)),
  (d 20 (-1), d 1170 (-1), d 1661535 29),
  (d 30 (-1), d 1170 (-1), INFINITY),
  (d 100 (-1), d 1170 (-1), INFINITY),
  (d 1000000 (-1), d 1170 (-1), INFINITY),
  (-(d 1000000 (-1)), d 1180 (-1), INFINITY),
  (-(d 100 (-1)), d 1180 (-1), INFINITY),
  (-(d 30 (-1)), d 1180 (-1), INFINITY),
  (-(d 20 (-1)), d 1180 (-1), d 332307 30),
  (-(d 10 (-1)), d 1180 (-1), d 10 (-1)),
  (d 10 (-1), d 1180 (-1), d 10 (-1)),
  (d 20 (-1), d 1180 (-1), d 332307 30),
  (d 30 (-1), d 1180 (-1), INFINITY),
  (d 100 (-1), d 1180 (-1), INFINITY),
  (d 1000000 (-1), d 1180 (-1), INFINITY),
  (-(d 1000000 (-1)), d 1190 (-1), -INFINITY),
  (-(d 100 (-1)), d 1190 (-1), -INFINITY),
  (-(d 30 (-1)), d 1190 (-1), -INFINITY),
  (-(d 20 (-1)), d 1190 (-1), -(d 664614 30)),
  (-(d 10 (-1)), d 1190 (-1), -(d 10 (-1))),
  (d 10 (-1), d 1190 (-1), d 10 (-1)),
  (d 20 (-1), d 1190 (-1), d 664614 30),
  (d 30 (-1), d 1190 (-1), INFINITY),
  (d 100 (-1), d 1190 (-1), INFINITY),
  (d 1000000 (-1), d 1190 (-1), INFINITY),
  (-(d 1000000 (-1)), d 1200 (-1), INFINITY),
  (-(d 100 (-1)), d 1200 (-1), INFINITY),
  (-(d 30 (-1)), d 1200 (-1), INFINITY),
  (-(d 20 (-1)), d 1200 (-1), d 1329228 30),
  (-(d 10 (-1)), d 1200 (-1), d 10 (-1)),
  (d 10 (-1), d 1200 (-1), d 10 (-1)),
  (d 20 (-1), d 1200 (-1), d 1329228 30),
  (d 30 (-1), d 1200 (-1), INFINITY),
  (d 100 (-1), d 1200 (-1), INFINITY),
  (d 1000000 (-1), d 1200 (-1), INFINITY),
  (-(d 1000000 (-1)), d 1210 (-1), -INFINITY),
  (-(d 100 (-1)), d 1210 (-1), -INFINITY),
  (-(d 30 (-1)), d 1210 (-1), -INFINITY),
  (-(d 20 (-1)), d 1210 (-1), -(d 2658456 30)),
  (-(d 10 (-1)), d 1210 (-1), -(d 10 (-1))),
  (d 10 (-1), d 1210 (-1), d 10 (-1)),
  (d 20 (-1), d 1210 (-1), d 2658456 30),
  (d 30 (-1), d 1210 (-1), INFINITY),
  (d 100 (-1), d 1210 (-1), INFINITY),
  (d 1000000 (-1), d 1210 (-1), INFINITY),
  (-(d 1000000 (-1)), d 1220 (-1), INFINITY),
  (-(d 100 (-1)), d 1220 (-1), INFINITY),
  (-(d 30 (-1)), d 1220 (-1), INFINITY),
  (-(d 20 (-1)), d 1220 (-1), d 5316912 30),
  (-(d 10 (-1)), d 1220 (-1), d 10 (-1)),
  (d 10 (-1), d 1220 (-1), d 10 (-1)),
  (d 20 (-1), d 1220 (-1), d 5316912 30),
  (d 30 (-1), d 1220 (-1), INFINITY),
  (d 100 (-1), d 1220 (-1), INFINITY),
  (d 1000000 (-1), d 1220 (-1), INFINITY),
  (-(d 1000000 (-1)), d 1230 (-1), -INFINITY),
  (-(d 100 (-1)), d 1230 (-1), -INFINITY),
  (-(d 30 (-1)), d 1230 (-1), -INFINITY),
  (-(d 20 (-1)), d 1230 (-1), -(d 10633824 30)),
  (-(d 10 (-1)), d 1230 (-1), -(d 10 (-1))),
  (d 10 (-1), d 1230 (-1), d 10 (-1)),
  (d 20 (-1), d 1230 (-1), d 10633824 30),
  (d 30 (-1), d 1230 (-1), INFINITY),
  (d 100 (-1), d 1230 (-1), INFINITY),
  (d 1000000 (-1), d 1230 (-1), INFINITY),
  (-(d 1000000 (-1)), d 1240 (-1), INFINITY),
  (-(d 100 (-1)), d 1240 (-1), INFINITY),
  (-(d 30 (-1)), d 1240 (-1), INFINITY),
  (-(d 20 (-1)), d 1240 (-1), d 21267648 30),
  (-(d 10 (-1)), d 1240 (-1), d 10 (-1)),
  (d 10 (-1), d 1240 (-1), d 10 (-1)),
  (d 20 (-1), d 1240 (-1), d 21267648 30),
  (d 30 (-1), d 1240 (-1), INFINITY),
  (d 100 (-1), d 1240 (-1), INFINITY),
  (d 1000000 (-1), d 1240 (-1), INFINITY),
  (-(d 1000000 (-1)), d 1250 (-1), -INFINITY),
  (-(d 100 (-1)), d 1250 (-1), -INFINITY),
  (-(d 30 (-1)), d 1250 (-1), -INFINITY),
  (-(d 20 (-1)), d 1250 (-1), -(d 42535296 30)),
  (-(d 10 (-1)), d 1250 (-1), -(d 10 (-1))),
  (d 10 (-1), d 1250 (-1), d 10 (-1)),
  (d 20 (-1), d 1250 (-1), d 42535296 30),
  (d 30 (-1), d 1250 (-1), INFINITY),
  (d 100 (-1), d 1250 (-1), INFINITY),
  (d 1000000 (-1), d 1250 (-1), INFINITY),
  (-(d 1000000 (-1)), d 1260 (-1), INFINITY),
  (-(d 100 (-1)), d 1260 (-1), INFINITY),
  (-(d 30 (-1)), d 1260 (-1), INFINITY),
  (-(d 20 (-1)), d 1260 (-1), d 8507059 31),
  (-(d 10 (-1)), d 1260 (-1), d 10 (-1)),
  (d 10 (-1), d 1260 (-1), d 10 (-1)),
  (d 20 (-1), d 1260 (-1), d 8507059 31),
  (d 30 (-1), d 1260 (-1), INFINITY),
  (d 100 (-1), d 1260 (-1), INFINITY),
  (d 1000000 (-1), d 1260 (-1), INFINITY),
  (-(d 1000000 (-1)), d 1270 (-1), -INFINITY),
  (-(d 100 (-1)), d 1270 (-1), -INFINITY),
  (-(d 30 (-1)), d 1270 (-1), -INFINITY),
  (-(d 20 (-1)), d 1270 (-1), -(d 17014118 31)),
  (-(d 10 (-1)), d 1270 (-1), -(d 10 (-1))),
  (d 10 (-1), d 1270 (-1), d 10 (-1)),
  (d 20 (-1), d 1270 (-1), d 17014118 31),
  (d 30 (-1), d 1270 (-1), INFINITY),
  (d 100 (-1), d 1270 (-1), INFINITY),
  (d 1000000 (-1), d 1270 (-1), INFINITY),
  (-(d 1000000 (-1)), d 1280 (-1), INFINITY),
  (-(d 100 (-1)), d 1280 (-1), INFINITY),
  (-(d 30 (-1)), d 1280 (-1), INFINITY),
  (-(d 20 (-1)), d 1280 (-1), INFINITY),
  (-(d 10 (-1)), d 1280 (-1), d 10 (-1)),
  (d 10 (-1), d 1280 (-1), d 10 (-1)),
  (d 20 (-1), d 1280 (-1), INFINITY),
  (d 30 (-1), d 1280 (-1), INFINITY),
  (d 100 (-1), d 1280 (-1), INFINITY),
  (d 1000000 (-1), d 1280 (-1), INFINITY),
  (d 0 (-1), d 30 (-1), d 0 (-1)),
  (-(d 0 (-1)), d 30 (-1), d 0 (-1)),
  (d 0 (-1), -(d 30 (-1)), INFINITY),
  (-(d 0 (-1)), -(d 30 (-1)), -INFINITY),
  (-(d 0 (-1)), -(d 20 (-1)), INFINITY),
  (d 75 (-2), -(d 1500 (-1)), d 5505674 12),
  (-(d 75 (-2)), -(d 1500 (-1)), d 5505674 12),
  (d 11 (-1), -(d 1500 (-1)), d 61815274 (-14)),
  (d 11 (-1), d 1500 (-1), d 16177231 (-1))]

end Micromath.Tests
