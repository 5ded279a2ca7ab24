import Verif.Float.Consts
import Verif.Model.Extras
import Verif.KernelRfl

/-!
# Specification vocabulary

Small definitions in which the properties are stated.  They mention only the binary32 encoding
(`Verif/Float/Core`: bit fields and the exact rational value `F32.val`) and ordinary mathematics; none of
the modelled crate functions occurs here.
-/

namespace Micromath.Spec
open F32

/-- `x` is a finite float whose exact value is the rational number `q`. -/
def IsVal (x : F32) (q : ℚ) : Prop := x.isFinite = true ∧ x.val = q

/-- A call returned normally, without panicking and without looping forever. -/
def Returns {α : Type} (r : Res α) : Prop := ∃ a, r = .ok a

/-- A call did not return: it panicked or loops forever. -/
def Fails {α : Type} (r : Res α) : Prop := ∃ e, r = .error e

/-- The number with its fraction discarded. -/
def intPart (q : ℚ) : Int := if 0 ≤ q then ⌊q⌋ else ⌈q⌉

/-- Nearest integer, ties away from zero. -/
def roundHalfAway (q : ℚ) : Int := if 0 ≤ q then ⌊q + 1 / 2⌋ else ⌈q - 1 / 2⌉

/-- Equal as floats, any NaN matching any NaN. -/
def Same (x y : F32) : Prop := (x.isNaN = true ∧ y.isNaN = true) ∨ x.feq y = true

/-- A positive normal finite float. -/
def PosNormal (x : F32) : Prop := x.isFinite = true ∧ (1 : ℚ) / 2 ^ 126 ≤ x.val

end Micromath.Spec
