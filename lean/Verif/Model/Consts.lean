import Verif.Model.Extras

/-!
# Remaining constants and predicates of `impl F32`, `src/float.rs:77-180`

The constants are those of `core::f32`, given by the same decimal literals as in `core`.
-/

namespace Micromath
namespace F32

/-- `RADIX`: src/float.rs:78. -/
def RADIX : Nat := 2
/-- `MANTISSA_DIGITS`: src/float.rs:81. -/
def MANTISSA_DIGITS : Nat := 24
/-- `DIGITS`: src/float.rs:84. -/
def DIGITS : Nat := 6
/-- `MIN`: src/float.rs:94. -/
def MIN : F32 := -lit (340282347 * 10 ^ 30) 1
/-- `MIN_POSITIVE`: src/float.rs:97. -/
def MIN_POSITIVE : F32 := lit 117549435 (10 ^ 46)
/-- `MAX`: src/float.rs:100. -/
def MAX : F32 := lit (340282347 * 10 ^ 30) 1
/-- `MIN_EXP`: src/float.rs:103. -/
def MIN_EXP : Int := -125
/-- `MAX_EXP`: src/float.rs:106. -/
def MAX_EXP : Int := 128
/-- `MIN_10_EXP`: src/float.rs:109. -/
def MIN_10_EXP : Int := -37
/-- `MAX_10_EXP`: src/float.rs:112. -/
def MAX_10_EXP : Int := 38

end F32
end Micromath
