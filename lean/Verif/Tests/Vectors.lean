import Verif.Tests.Decimal

/-!
# Vector tables of the crate's unit tests

Generated by `tools/gen_tests.py` from the `TEST_VECTORS` constants of `/repo/src/float/*.rs`, number by
number.  `d m e` is the decimal literal `m·10^e`, correctly rounded to `f32` as rustc does.
-/

namespace Micromath.Tests
open F32
variable [Cfg]

/-- `MAX_ERROR_1` of `/repo/src/float/cosh.rs` -/
def cosh_MAX_ERROR_1 : F32 := d 1 (-3)
/-- `MAX_ERROR_2` of `/repo/src/float/cosh.rs` -/
def cosh_MAX_ERROR_2 : F32 := d 2 (-3)
/-- `MAX_ERROR_3` of `/repo/src/float/cosh.rs` -/
def cosh_MAX_ERROR_3 : F32 := d 3 (-3)
/-- `MAX_ERROR_4` of `/repo/src/float/cosh.rs` -/
def cosh_MAX_ERROR_4 : F32 := d 5 (-3)
/-- `MAX_ERROR_5` of `/repo/src/float/cosh.rs` -/
def cosh_MAX_ERROR_5 : F32 := d 2 (-2)
/-- `MAX_ERROR` of `/repo/src/float/cosh.rs` -/
def cosh_MAX_ERROR : F32 := d 92 (-3)

/-- `/repo/src/float/cos.rs:244-291` -/
def cosVectors : List (F32 × F32) := [
  (d 0 (-3), d 1000 (-3)),
  (d 140 (-3), d 990 (-3)),
  (d 279 (-3), d 961 (-3)),
  (d 419 (-3), d 914 (-3)),
  (d 559 (-3), d 848 (-3)),
  (d 698 (-3), d 766 (-3)),
  (d 838 (-3), d 669 (-3)),
  (d 977 (-3), d 559 (-3)),
  (d 1117 (-3), d 438 (-3)),
  (d 1257 (-3), d 309 (-3)),
  (d 1396 (-3), d 174 (-3)),
  (d 1536 (-3), d 35 (-3)),
  (d 1676 (-3), -(d 105 (-3))),
  (d 1815 (-3), -(d 242 (-3))),
  (d 1955 (-3), -(d 375 (-3))),
  (d 2094 (-3), -(d 500 (-3))),
  (d 2234 (-3), -(d 616 (-3))),
  (d 2374 (-3), -(d 719 (-3))),
  (d 2513 (-3), -(d 809 (-3))),
  (d 2653 (-3), -(d 883 (-3))),
  (d 2793 (-3), -(d 940 (-3))),
  (d 2932 (-3), -(d 978 (-3))),
  (d 3072 (-3), -(d 998 (-3))),
  (d 3211 (-3), -(d 998 (-3))),
  (d 3351 (-3), -(d 978 (-3))),
  (d 3491 (-3), -(d 940 (-3))),
  (d 3630 (-3), -(d 883 (-3))),
  (d 3770 (-3), -(d 809 (-3))),
  (d 3910 (-3), -(d 719 (-3))),
  (d 4049 (-3), -(d 616 (-3))),
  (d 4189 (-3), -(d 500 (-3))),
  (d 4328 (-3), -(d 375 (-3))),
  (d 4468 (-3), -(d 242 (-3))),
  (d 4608 (-3), -(d 105 (-3))),
  (d 4747 (-3), d 35 (-3)),
  (d 4887 (-3), d 174 (-3)),
  (d 5027 (-3), d 309 (-3)),
  (d 5166 (-3), d 438 (-3)),
  (d 5306 (-3), d 559 (-3)),
  (d 5445 (-3), d 669 (-3)),
  (d 5585 (-3), d 766 (-3)),
  (d 5725 (-3), d 848 (-3)),
  (d 5864 (-3), d 914 (-3)),
  (d 6004 (-3), d 961 (-3)),
  (d 6144 (-3), d 990 (-3)),
  (d 6283 (-3), d 1000 (-3))]

/-- `/repo/src/float/cosh.rs:31-78` -/
def coshVectors : List (F32 × F32 × F32) := [
  (d 0 (-3), d 1000 (-3), cosh_MAX_ERROR_1),
  (d 140 (-3), d 1010 (-3), cosh_MAX_ERROR_1),
  (d 279 (-3), d 1039 (-3), cosh_MAX_ERROR_1),
  (d 419 (-3), d 1089 (-3), cosh_MAX_ERROR_1),
  (d 559 (-3), d 1160 (-3), cosh_MAX_ERROR_1),
  (d 698 (-3), d 1254 (-3), cosh_MAX_ERROR_1),
  (d 838 (-3), d 1372 (-3), cosh_MAX_ERROR_1),
  (d 977 (-3), d 1516 (-3), cosh_MAX_ERROR_1),
  (d 1117 (-3), d 1691 (-3), cosh_MAX_ERROR_1),
  (d 1257 (-3), d 1900 (-3), cosh_MAX_ERROR_1),
  (d 1396 (-3), d 2143 (-3), cosh_MAX_ERROR_1),
  (d 1536 (-3), d 2431 (-3), cosh_MAX_ERROR_1),
  (d 1676 (-3), d 2766 (-3), cosh_MAX_ERROR_1),
  (d 1815 (-3), d 3152 (-3), cosh_MAX_ERROR_1),
  (d 1955 (-3), d 3603 (-3), cosh_MAX_ERROR_2),
  (d 2094 (-3), d 4120 (-3), cosh_MAX_ERROR_2),
  (d 2234 (-3), d 4722 (-3), cosh_MAX_ERROR_2),
  (d 2374 (-3), d 5417 (-3), cosh_MAX_ERROR_2),
  (d 2513 (-3), d 6211 (-3), cosh_MAX_ERROR_2),
  (d 2653 (-3), d 7134 (-3), cosh_MAX_ERROR_3),
  (d 2793 (-3), d 8196 (-3), cosh_MAX_ERROR_3),
  (d 2932 (-3), d 9409 (-3), cosh_MAX_ERROR_3),
  (d 3072 (-3), d 10816 (-3), cosh_MAX_ERROR_3),
  (d 3211 (-3), d 12422 (-3), cosh_MAX_ERROR_3),
  (d 3351 (-3), d 14283 (-3), cosh_MAX_ERROR_4),
  (d 3491 (-3), d 16425 (-3), cosh_MAX_ERROR_4),
  (d 3630 (-3), d 18870 (-3), cosh_MAX_ERROR_4),
  (d 3770 (-3), d 21702 (-3), cosh_MAX_ERROR_4),
  (d 3910 (-3), d 24959 (-3), cosh_MAX_ERROR_4),
  (d 4049 (-3), d 28679 (-3), cosh_MAX_ERROR_5),
  (d 4189 (-3), d 32986 (-3), cosh_MAX_ERROR_5),
  (d 4328 (-3), d 37903 (-3), cosh_MAX_ERROR_5),
  (d 4468 (-3), d 43597 (-3), cosh_MAX_ERROR_5),
  (d 4608 (-3), d 50147 (-3), cosh_MAX_ERROR_5),
  (d 4747 (-3), d 57623 (-3), cosh_MAX_ERROR),
  (d 4887 (-3), d 66281 (-3), cosh_MAX_ERROR),
  (d 5027 (-3), d 76241 (-3), cosh_MAX_ERROR),
  (d 5166 (-3), d 87609 (-3), cosh_MAX_ERROR),
  (d 5306 (-3), d 100774 (-3), cosh_MAX_ERROR),
  (d 5445 (-3), d 115801 (-3), cosh_MAX_ERROR),
  (d 5585 (-3), d 133202 (-3), cosh_MAX_ERROR),
  (d 5725 (-3), d 153218 (-3), cosh_MAX_ERROR),
  (d 5864 (-3), d 176066 (-3), cosh_MAX_ERROR),
  (d 6004 (-3), d 202524 (-3), cosh_MAX_ERROR),
  (d 6144 (-3), d 232958 (-3), cosh_MAX_ERROR),
  (d 6283 (-3), d 267697 (-3), cosh_MAX_ERROR)]

/-- `/repo/src/float/exp.rs:81-101` -/
def expVectors : List (F32 × F32) := [
  (d 1 (-7), d 10000001 (-7)),
  (d 1 (-6), d 1000001 (-6)),
  (d 1 (-5), d 100001 (-5)),
  (d 1 (-4), d 10001 (-4)),
  (d 1 (-3), d 10010005 (-7)),
  (d 1 (-2), d 10100502 (-7)),
  (d 1 (-1), d 1105171 (-6)),
  (d 10 (-1), d 27182817 (-7)),
  (d 100 (-1), d 22026465 (-3)),
  (-(d 1 (-8)), d 10 (-1)),
  (-(d 1 (-7)), d 9999999 (-7)),
  (-(d 1 (-6)), d 999999 (-6)),
  (-(d 1 (-5)), d 99999 (-5)),
  (-(d 1 (-4)), d 9999 (-4)),
  (-(d 1 (-3)), d 9990005 (-7)),
  (-(d 1 (-2)), d 99004984 (-8)),
  (-(d 1 (-1)), d 9048374 (-7)),
  (-(d 10 (-1)), d 36787945 (-8)),
  (-(d 100 (-1)), d 4539993 (-11))]

/-- `/repo/src/float/ln.rs:63-103` -/
def lnVectors : List (F32 × F32) := [
  (d 1 (-20), -(d 460517 (-4))),
  (d 1 (-19), -(d 43749115 (-6))),
  (d 1 (-18), -(d 41446533 (-6))),
  (d 1 (-17), -(d 39143948 (-6))),
  (d 1 (-16), -(d 36841362 (-6))),
  (d 1 (-15), -(d 34538776 (-6))),
  (d 1 (-14), -(d 3223619 (-5))),
  (d 1 (-13), -(d 29933607 (-6))),
  (d 1 (-12), -(d 27631021 (-6))),
  (d 1 (-11), -(d 25328436 (-6))),
  (d 1 (-10), -(d 2302585 (-5))),
  (d 1 (-9), -(d 20723267 (-6))),
  (d 1 (-8), -(d 18420681 (-6))),
  (d 1 (-7), -(d 16118095 (-6))),
  (d 1 (-6), -(d 13815511 (-6))),
  (d 1 (-5), -(d 11512925 (-6))),
  (d 1 (-4), -(d 92103405 (-7))),
  (d 1 (-3), -(d 69077554 (-7))),
  (d 1 (-2), -(d 46051702 (-7))),
  (d 1 (-1), -(d 23025851 (-7))),
  (d 100 (-1), d 23025851 (-7)),
  (d 1000 (-1), d 46051702 (-7)),
  (d 10000 (-1), d 69077554 (-7)),
  (d 100000 (-1), d 92103405 (-7)),
  (d 1000000 (-1), d 11512925 (-6)),
  (d 10000000 (-1), d 13815511 (-6)),
  (d 100000000 (-1), d 16118095 (-6)),
  (d 1000000000 (-1), d 18420681 (-6)),
  (d 10000000000 (-1), d 20723267 (-6)),
  (d 100000000000 (-1), d 2302585 (-5)),
  (d 1000000000000 (-1), d 25328436 (-6)),
  (d 10000000000000 (-1), d 27631021 (-6)),
  (d 100000000000000 (-1), d 29933607 (-6)),
  (d 1000000000000000 (-1), d 3223619 (-5)),
  (d 10000000000000000 (-1), d 34538776 (-6)),
  (d 1 16, d 36841362 (-6)),
  (d 1 17, d 39143948 (-6)),
  (d 1 18, d 41446533 (-6)),
  (d 1 19, d 43749115 (-6))]

/-- `/repo/src/float/log.rs:19-59` -/
def log3Vectors : List (F32 × F32) := [
  (d 1 (-20), -(d 41918064 (-6))),
  (d 1 (-19), -(d 3982216 (-5))),
  (d 1 (-18), -(d 3772626 (-5))),
  (d 1 (-17), -(d 35630356 (-6))),
  (d 1 (-16), -(d 33534454 (-6))),
  (d 1 (-15), -(d 31438549 (-6))),
  (d 1 (-14), -(d 29342646 (-6))),
  (d 1 (-13), -(d 27246744 (-6))),
  (d 1 (-12), -(d 25150839 (-6))),
  (d 1 (-11), -(d 23054935 (-6))),
  (d 1 (-10), -(d 20959032 (-6))),
  (d 1 (-9), -(d 1886313 (-5))),
  (d 1 (-8), -(d 16767227 (-6))),
  (d 1 (-7), -(d 14671323 (-6))),
  (d 1 (-6), -(d 12575419 (-6))),
  (d 1 (-5), -(d 10479516 (-6))),
  (d 1 (-4), -(d 8383614 (-6))),
  (d 1 (-3), -(d 62877097 (-7))),
  (d 1 (-2), -(d 4191807 (-6))),
  (d 1 (-1), -(d 20959034 (-7))),
  (d 100 (-1), d 20959034 (-7)),
  (d 1000 (-1), d 4191807 (-6)),
  (d 10000 (-1), d 62877097 (-7)),
  (d 100000 (-1), d 8383614 (-6)),
  (d 1000000 (-1), d 10479516 (-6)),
  (d 10000000 (-1), d 12575419 (-6)),
  (d 100000000 (-1), d 14671323 (-6)),
  (d 1000000000 (-1), d 16767227 (-6)),
  (d 10000000000 (-1), d 1886313 (-5)),
  (d 100000000000 (-1), d 20959032 (-6)),
  (d 1000000000000 (-1), d 23054935 (-6)),
  (d 10000000000000 (-1), d 25150839 (-6)),
  (d 100000000000000 (-1), d 27246744 (-6)),
  (d 1000000000000000 (-1), d 29342646 (-6)),
  (d 10000000000000000 (-1), d 31438549 (-6)),
  (d 1 16, d 33534454 (-6)),
  (d 1 17, d 35630356 (-6)),
  (d 1 18, d 3772626 (-5)),
  (d 1 19, d 3982216 (-5))]

/-- `/repo/src/float/log.rs:62-102` -/
def log5_5Vectors : List (F32 × F32) := [
  (d 1 (-20), -(d 27013786 (-6))),
  (d 1 (-19), -(d 25663097 (-6))),
  (d 1 (-18), -(d 24312408 (-6))),
  (d 1 (-17), -(d 2296172 (-5))),
  (d 1 (-16), -(d 2161103 (-5))),
  (d 1 (-15), -(d 2026034 (-5))),
  (d 1 (-14), -(d 1890965 (-5))),
  (d 1 (-13), -(d 17558962 (-6))),
  (d 1 (-12), -(d 16208273 (-6))),
  (d 1 (-11), -(d 14857583 (-6))),
  (d 1 (-10), -(d 13506893 (-6))),
  (d 1 (-9), -(d 12156204 (-6))),
  (d 1 (-8), -(d 10805515 (-6))),
  (d 1 (-7), -(d 9454825 (-6))),
  (d 1 (-6), -(d 8104136 (-6))),
  (d 1 (-5), -(d 67534466 (-7))),
  (d 1 (-4), -(d 54027576 (-7))),
  (d 1 (-3), -(d 4052068 (-6))),
  (d 1 (-2), -(d 27013788 (-7))),
  (d 1 (-1), -(d 13506894 (-7))),
  (d 100 (-1), d 13506894 (-7)),
  (d 1000 (-1), d 27013788 (-7)),
  (d 10000 (-1), d 4052068 (-6)),
  (d 100000 (-1), d 54027576 (-7)),
  (d 1000000 (-1), d 67534466 (-7)),
  (d 10000000 (-1), d 8104136 (-6)),
  (d 100000000 (-1), d 9454825 (-6)),
  (d 1000000000 (-1), d 10805515 (-6)),
  (d 10000000000 (-1), d 12156204 (-6)),
  (d 100000000000 (-1), d 13506893 (-6)),
  (d 1000000000000 (-1), d 14857583 (-6)),
  (d 10000000000000 (-1), d 16208273 (-6)),
  (d 100000000000000 (-1), d 17558962 (-6)),
  (d 1000000000000000 (-1), d 1890965 (-5)),
  (d 10000000000000000 (-1), d 2026034 (-5)),
  (d 1 16, d 2161103 (-5)),
  (d 1 17, d 2296172 (-5)),
  (d 1 18, d 24312408 (-6)),
  (d 1 19, d 25663097 (-6))]

/-- `/repo/src/float/log.rs:105-145` -/
def log12_7Vectors : List (F32 × F32) := [
  (d 1 (-20), -(d 18119164 (-6))),
  (d 1 (-19), -(d 17213205 (-6))),
  (d 1 (-18), -(d 16307247 (-6))),
  (d 1 (-17), -(d 15401289 (-6))),
  (d 1 (-16), -(d 14495331 (-6))),
  (d 1 (-15), -(d 13589373 (-6))),
  (d 1 (-14), -(d 12683414 (-6))),
  (d 1 (-13), -(d 11777456 (-6))),
  (d 1 (-12), -(d 10871498 (-6))),
  (d 1 (-11), -(d 996554 (-5))),
  (d 1 (-10), -(d 9059582 (-6))),
  (d 1 (-9), -(d 8153624 (-6))),
  (d 1 (-8), -(d 72476654 (-7))),
  (d 1 (-7), -(d 6341707 (-6))),
  (d 1 (-6), -(d 5435749 (-6))),
  (d 1 (-5), -(d 4529791 (-6))),
  (d 1 (-4), -(d 36238327 (-7))),
  (d 1 (-3), -(d 27178745 (-7))),
  (d 1 (-2), -(d 18119164 (-7))),
  (d 1 (-1), -(d 9059582 (-7))),
  (d 100 (-1), d 9059582 (-7)),
  (d 1000 (-1), d 18119164 (-7)),
  (d 10000 (-1), d 27178745 (-7)),
  (d 100000 (-1), d 36238327 (-7)),
  (d 1000000 (-1), d 4529791 (-6)),
  (d 10000000 (-1), d 5435749 (-6)),
  (d 100000000 (-1), d 6341707 (-6)),
  (d 1000000000 (-1), d 72476654 (-7)),
  (d 10000000000 (-1), d 8153624 (-6)),
  (d 100000000000 (-1), d 9059582 (-6)),
  (d 1000000000000 (-1), d 996554 (-5)),
  (d 10000000000000 (-1), d 10871498 (-6)),
  (d 100000000000000 (-1), d 11777456 (-6)),
  (d 1000000000000000 (-1), d 12683414 (-6)),
  (d 10000000000000000 (-1), d 13589373 (-6)),
  (d 1 16, d 14495331 (-6)),
  (d 1 17, d 15401289 (-6)),
  (d 1 18, d 16307247 (-6)),
  (d 1 19, d 17213205 (-6))]

/-- `/repo/src/float/log10.rs:19-59` -/
def log10Vectors : List (F32 × F32) := [
  (d 1 (-20), -(d 200 (-1))),
  (d 1 (-19), -(d 190 (-1))),
  (d 1 (-18), -(d 180 (-1))),
  (d 1 (-17), -(d 170 (-1))),
  (d 1 (-16), -(d 160 (-1))),
  (d 1 (-15), -(d 150 (-1))),
  (d 1 (-14), -(d 140 (-1))),
  (d 1 (-13), -(d 130 (-1))),
  (d 1 (-12), -(d 120 (-1))),
  (d 1 (-11), -(d 110 (-1))),
  (d 1 (-10), -(d 100 (-1))),
  (d 1 (-9), -(d 90 (-1))),
  (d 1 (-8), -(d 80 (-1))),
  (d 1 (-7), -(d 70 (-1))),
  (d 1 (-6), -(d 60 (-1))),
  (d 1 (-5), -(d 50 (-1))),
  (d 1 (-4), -(d 40 (-1))),
  (d 1 (-3), -(d 30 (-1))),
  (d 1 (-2), -(d 20 (-1))),
  (d 1 (-1), -(d 10 (-1))),
  (d 100 (-1), d 10 (-1)),
  (d 1000 (-1), d 20 (-1)),
  (d 10000 (-1), d 30 (-1)),
  (d 100000 (-1), d 40 (-1)),
  (d 1000000 (-1), d 50 (-1)),
  (d 10000000 (-1), d 60 (-1)),
  (d 100000000 (-1), d 70 (-1)),
  (d 1000000000 (-1), d 80 (-1)),
  (d 10000000000 (-1), d 90 (-1)),
  (d 100000000000 (-1), d 100 (-1)),
  (d 1000000000000 (-1), d 110 (-1)),
  (d 10000000000000 (-1), d 120 (-1)),
  (d 100000000000000 (-1), d 130 (-1)),
  (d 1000000000000000 (-1), d 140 (-1)),
  (d 10000000000000000 (-1), d 150 (-1)),
  (d 1 16, d 160 (-1)),
  (d 1 17, d 170 (-1)),
  (d 1 18, d 180 (-1)),
  (d 1 19, d 190 (-1))]

/-- `/repo/src/float/log2.rs:20-60` -/
def log2Vectors : List (F32 × F32) := [
  (d 1 (-20), -(d 6643856 (-5))),
  (d 1 (-19), -(d 63116634 (-6))),
  (d 1 (-18), -(d 59794704 (-6))),
  (d 1 (-17), -(d 5647278 (-5))),
  (d 1 (-16), -(d 5315085 (-5))),
  (d 1 (-15), -(d 49828922 (-6))),
  (d 1 (-14), -(d 46506992 (-6))),
  (d 1 (-13), -(d 43185066 (-6))),
  (d 1 (-12), -(d 39863136 (-6))),
  (d 1 (-11), -(d 3654121 (-5))),
  (d 1 (-10), -(d 3321928 (-5))),
  (d 1 (-9), -(d 29897352 (-6))),
  (d 1 (-8), -(d 26575424 (-6))),
  (d 1 (-7), -(d 23253496 (-6))),
  (d 1 (-6), -(d 19931568 (-6))),
  (d 1 (-5), -(d 1660964 (-5))),
  (d 1 (-4), -(d 13287712 (-6))),
  (d 1 (-3), -(d 9965784 (-6))),
  (d 1 (-2), -(d 6643856 (-6))),
  (d 1 (-1), -(d 3321928 (-6))),
  (d 100 (-1), d 3321928 (-6)),
  (d 1000 (-1), d 6643856 (-6)),
  (d 10000 (-1), d 9965784 (-6)),
  (d 100000 (-1), d 13287712 (-6)),
  (d 1000000 (-1), d 1660964 (-5)),
  (d 10000000 (-1), d 19931568 (-6)),
  (d 100000000 (-1), d 23253496 (-6)),
  (d 1000000000 (-1), d 26575424 (-6)),
  (d 10000000000 (-1), d 29897352 (-6)),
  (d 100000000000 (-1), d 3321928 (-5)),
  (d 1000000000000 (-1), d 3654121 (-5)),
  (d 10000000000000 (-1), d 39863136 (-6)),
  (d 100000000000000 (-1), d 43185066 (-6)),
  (d 1000000000000000 (-1), d 46506992 (-6)),
  (d 10000000000000000 (-1), d 49828922 (-6)),
  (d 1 16, d 5315085 (-5)),
  (d 1 17, d 5647278 (-5)),
  (d 1 18, d 59794704 (-6)),
  (d 1 19, d 63116634 (-6))]

/-- `/repo/src/float/powf.rs:31-78` -/
def powf3Vectors : List (F32 × F32) := [
  (-(d 1 (-20)), d 10 (-1)),
  (-(d 1 (-19)), d 10 (-1)),
  (-(d 1 (-18)), d 10 (-1)),
  (-(d 1 (-17)), d 10 (-1)),
  (-(d 1 (-16)), d 9999999999999999 (-16)),
  (-(d 1 (-15)), d 9999999999999989 (-16)),
  (-(d 1 (-14)), d 999999999999989 (-15)),
  (-(d 1 (-13)), d 9999999999998901 (-16)),
  (-(d 1 (-12)), d 9999999999989014 (-16)),
  (-(d 1 (-11)), d 9999999999890139 (-16)),
  (-(d 1 (-10)), d 9999999998901388 (-16)),
  (-(d 1 (-9)), d 9999999989013877 (-16)),
  (-(d 1 (-8)), d 9999999890138772 (-16)),
  (-(d 1 (-7)), d 9999999 (-7)),
  (-(d 1 (-6)), d 9999989 (-7)),
  (-(d 1 (-5)), d 99998903 (-8)),
  (-(d 1 (-4)), d 99989015 (-8)),
  (-(d 1 (-3)), d 99890196 (-8)),
  (-(d 1 (-2)), d 989074 (-6)),
  (-(d 1 (-1)), d 8959585 (-7)),
  (-(d 10 (-1)), d 33333334 (-8)),
  (-(d 100 (-1)), d 16935088 (-12)),
  (-(d 1000 (-1)), d 0 0),
  (-(d 10000 (-1)), d 0 (-1)),
  (d 1 (-20), d 10 (-1)),
  (d 1 (-19), d 10 (-1)),
  (d 1 (-18), d 10 (-1)),
  (d 1 (-17), d 10 (-1)),
  (d 1 (-16), d 10 (-1)),
  (d 1 (-15), d 1000000000000001 (-15)),
  (d 1 (-14), d 10000000000000109 (-16)),
  (d 1 (-13), d 100000000000011 (-14)),
  (d 1 (-12), d 10000000000010987 (-16)),
  (d 1 (-11), d 1000000000010986 (-15)),
  (d 1 (-10), d 10000000001098612 (-16)),
  (d 1 (-9), d 10000000010986123 (-16)),
  (d 1 (-8), d 1000000010986123 (-15)),
  (d 1 (-7), d 10000001 (-7)),
  (d 1 (-6), d 10000011 (-7)),
  (d 1 (-5), d 1000011 (-6)),
  (d 1 (-4), d 10001099 (-7)),
  (d 1 (-3), d 10010992 (-7)),
  (d 1 (-2), d 10110466 (-7)),
  (d 1 (-1), d 11161232 (-7)),
  (d 10 (-1), d 30 (-1)),
  (d 100 (-1), d 590490 (-1))]

/-- `/repo/src/float/powf.rs:81-144` -/
def powf150Vectors : List (F32 × F32) := [
  (-(d 1 (-20)), d 10 (-1)),
  (-(d 1 (-19)), d 10 (-1)),
  (-(d 1 (-18)), d 10 (-1)),
  (-(d 1 (-17)), d 10 (-1)),
  (-(d 1 (-16)), d 9999999999999994 (-16)),
  (-(d 1 (-15)), d 999999999999995 (-15)),
  (-(d 1 (-14)), d 9999999999999499 (-16)),
  (-(d 1 (-13)), d 999999999999499 (-15)),
  (-(d 1 (-12)), d 9999999999949893 (-16)),
  (-(d 1 (-11)), d 9999999999498936 (-16)),
  (-(d 1 (-10)), d 9999999994989365 (-16)),
  (-(d 1 (-9)), d 9999999949893649 (-16)),
  (-(d 1 (-8)), d 99999994 (-8)),
  (-(d 1 (-7)), d 9999995 (-7)),
  (-(d 1 (-6)), d 999995 (-6)),
  (-(d 1 (-5)), d 9999499 (-7)),
  (-(d 1 (-4)), d 9994991 (-7)),
  (-(d 1 (-3)), d 9950019 (-7)),
  (-(d 1 (-2)), d 95112824 (-8)),
  (-(d 1 (-1)), d 6058859 (-7)),
  (-(d 10 (-1)), d 6666667 (-9)),
  (-(d 100 (-1)), d 1734153 (-28)),
  (-(d 1000 (-1)), d 0 0),
  (-(d 10000 (-1)), d 0 (-1)),
  (-(d 100000 (-1)), d 0 (-1)),
  (-(d 1000000 (-1)), d 0 (-1)),
  (-(d 10000000 (-1)), d 0 (-1)),
  (-(d 100000000 (-1)), d 0 (-1)),
  (-(d 1000000000 (-1)), d 0 (-1)),
  (-(d 10000000000 (-1)), d 0 (-1)),
  (-(d 100000000000 (-1)), d 0 (-1)),
  (-(d 1000000000000 (-1)), d 0 (-1)),
  (-(d 10000000000000 (-1)), d 0 (-1)),
  (-(d 100000000000000 (-1)), d 0 (-1)),
  (-(d 1000000000000000 (-1)), d 0 (-1)),
  (-(d 10000000000000000 (-1)), d 0 (-1)),
  (-(d 1 16), d 0 (-1)),
  (-(d 1 17), d 0 (-1)),
  (-(d 1 18), d 0 (-1)),
  (-(d 1 19), d 0 (-1)),
  (d 1 (-20), d 10 (-1)),
  (d 1 (-19), d 10 (-1)),
  (d 1 (-18), d 10 (-1)),
  (d 1 (-17), d 10 (-1)),
  (d 1 (-16), d 10000000000000004 (-16)),
  (d 1 (-15), d 1000000000000005 (-15)),
  (d 1 (-14), d 10000000000000502 (-16)),
  (d 1 (-13), d 10000000000005012 (-16)),
  (d 1 (-12), d 10000000000050107 (-16)),
  (d 1 (-11), d 10000000000501064 (-16)),
  (d 1 (-10), d 10000000005010636 (-16)),
  (d 1 (-9), d 10000000050106352 (-16)),
  (d 1 (-8), d 1000000050106354 (-15)),
  (d 1 (-7), d 10000005 (-7)),
  (d 1 (-6), d 1000005 (-6)),
  (d 1 (-5), d 10000501 (-7)),
  (d 1 (-4), d 10005012 (-7)),
  (d 1 (-3), d 10050232 (-7)),
  (d 1 (-2), d 10513829 (-7)),
  (d 1 (-1), d 16504756 (-7)),
  (d 10 (-1), d 1500 (-1)),
  (d 100 (-1), d 5766504 15)]

/-- `/repo/src/float/powf.rs:147-152` -/
def powfMiscVectors : List (F32 × F32 × F32) := [
  (-(d 5881598 (-7)), d 20 (-1), d 34593195 (-8)),
  (-(d 5881598 (-7)), d 32 (-1), NAN),
  (-(d 5881598 (-7)), d 30 (-1), -(d 20346327 (-8))),
  (-(d 10000000 (-1)), d 40 (-1), d 1 24)]

/-- `/repo/src/float/sin.rs:19-66` -/
def sinVectors : List (F32 × F32) := [
  (d 0 (-3), d 0 (-3)),
  (d 140 (-3), d 139 (-3)),
  (d 279 (-3), d 276 (-3)),
  (d 419 (-3), d 407 (-3)),
  (d 559 (-3), d 530 (-3)),
  (d 698 (-3), d 643 (-3)),
  (d 838 (-3), d 743 (-3)),
  (d 977 (-3), d 829 (-3)),
  (d 1117 (-3), d 899 (-3)),
  (d 1257 (-3), d 951 (-3)),
  (d 1396 (-3), d 985 (-3)),
  (d 1536 (-3), d 999 (-3)),
  (d 1676 (-3), d 995 (-3)),
  (d 1815 (-3), d 970 (-3)),
  (d 1955 (-3), d 927 (-3)),
  (d 2094 (-3), d 866 (-3)),
  (d 2234 (-3), d 788 (-3)),
  (d 2374 (-3), d 695 (-3)),
  (d 2513 (-3), d 588 (-3)),
  (d 2653 (-3), d 469 (-3)),
  (d 2793 (-3), d 342 (-3)),
  (d 2932 (-3), d 208 (-3)),
  (d 3072 (-3), d 70 (-3)),
  (d 3211 (-3), -(d 70 (-3))),
  (d 3351 (-3), -(d 208 (-3))),
  (d 3491 (-3), -(d 342 (-3))),
  (d 3630 (-3), -(d 469 (-3))),
  (d 3770 (-3), -(d 588 (-3))),
  (d 3910 (-3), -(d 695 (-3))),
  (d 4049 (-3), -(d 788 (-3))),
  (d 4189 (-3), -(d 866 (-3))),
  (d 4328 (-3), -(d 927 (-3))),
  (d 4468 (-3), -(d 970 (-3))),
  (d 4608 (-3), -(d 995 (-3))),
  (d 4747 (-3), -(d 999 (-3))),
  (d 4887 (-3), -(d 985 (-3))),
  (d 5027 (-3), -(d 951 (-3))),
  (d 5166 (-3), -(d 899 (-3))),
  (d 5306 (-3), -(d 829 (-3))),
  (d 5445 (-3), -(d 743 (-3))),
  (d 5585 (-3), -(d 643 (-3))),
  (d 5725 (-3), -(d 530 (-3))),
  (d 5864 (-3), -(d 407 (-3))),
  (d 6004 (-3), -(d 276 (-3))),
  (d 6144 (-3), -(d 139 (-3))),
  (d 6283 (-3), d 0 (-3))]

/-- `/repo/src/float/sqrt.rs:28-48` -/
def sqrtVectors : List (F32 × F32) := [
  (d 10 (-1), d 10 (-1)),
  (d 20 (-1), d 1414 (-3)),
  (d 30 (-1), d 1732 (-3)),
  (d 40 (-1), d 20 (-1)),
  (d 50 (-1), d 2236 (-3)),
  (d 100 (-1), d 3162 (-3)),
  (d 1000 (-1), d 100 (-1)),
  (d 2500 (-1), d 15811 (-3)),
  (d 5000 (-1), d 2236 (-2)),
  (d 10000 (-1), d 31622 (-3)),
  (d 25000 (-1), d 500 (-1)),
  (d 50000 (-1), d 70710 (-3)),
  (d 10000000 (-1), d 10000 (-1)),
  (d 25000000 (-1), d 1581138 (-3)),
  (d 50000000 (-1), d 2236067 (-3)),
  (d 100000000 (-1), d 3162277 (-3)),
  (d 250000000 (-1), d 50000 (-1)),
  (d 500000000 (-1), d 7071067 (-3)),
  (d 1000000000 (-1), d 100000 (-1))]

/-- `/repo/src/float/tan.rs:21-68` -/
def tanVectors : List (F32 × F32) := [
  (d 0 (-3), d 0 (-3)),
  (d 140 (-3), d 141 (-3)),
  (d 279 (-3), d 287 (-3)),
  (d 419 (-3), d 445 (-3)),
  (d 559 (-3), d 625 (-3)),
  (d 698 (-3), d 839 (-3)),
  (d 838 (-3), d 1111 (-3)),
  (d 977 (-3), d 1483 (-3)),
  (d 1117 (-3), d 2050 (-3)),
  (d 1257 (-3), d 3078 (-3)),
  (d 1396 (-3), d 5671 (-3)),
  (d 1536 (-3), d 28636 (-3)),
  (d 1676 (-3), -(d 9514 (-3))),
  (d 1815 (-3), -(d 4011 (-3))),
  (d 1955 (-3), -(d 2475 (-3))),
  (d 2094 (-3), -(d 1732 (-3))),
  (d 2234 (-3), -(d 1280 (-3))),
  (d 2374 (-3), -(d 966 (-3))),
  (d 2513 (-3), -(d 727 (-3))),
  (d 2653 (-3), -(d 532 (-3))),
  (d 2793 (-3), -(d 364 (-3))),
  (d 2932 (-3), -(d 213 (-3))),
  (d 3072 (-3), -(d 70 (-3))),
  (d 3211 (-3), d 70 (-3)),
  (d 3351 (-3), d 213 (-3)),
  (d 3491 (-3), d 364 (-3)),
  (d 3630 (-3), d 532 (-3)),
  (d 3770 (-3), d 727 (-3)),
  (d 3910 (-3), d 966 (-3)),
  (d 4049 (-3), d 1280 (-3)),
  (d 4189 (-3), d 1732 (-3)),
  (d 4328 (-3), d 2475 (-3)),
  (d 4468 (-3), d 4011 (-3)),
  (d 4608 (-3), d 9514 (-3)),
  (d 4747 (-3), -(d 28636 (-3))),
  (d 4887 (-3), -(d 5671 (-3))),
  (d 5027 (-3), -(d 3078 (-3))),
  (d 5166 (-3), -(d 2050 (-3))),
  (d 5306 (-3), -(d 1483 (-3))),
  (d 5445 (-3), -(d 1111 (-3))),
  (d 5585 (-3), -(d 839 (-3))),
  (d 5725 (-3), -(d 625 (-3))),
  (d 5864 (-3), -(d 445 (-3))),
  (d 6004 (-3), -(d 287 (-3))),
  (d 6144 (-3), -(d 141 (-3))),
  (d 6283 (-3), d 0 (-3))]

end Micromath.Tests
