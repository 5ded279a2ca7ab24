import Verif.Tests.VectorsPowi
import Verif.KernelRfl

/-!
# The crate's unit test of `powi`, run on the model

The 2579 rows of `/repo/src/float/powi.rs`, in thirteen parts, evaluated by the kernel for every `Cfg`.
-/

set_option exponentiation.threshold 1000
set_option maxRecDepth 100000

namespace Micromath.Tests
open F32
variable [Cfg]

/-- `powi.rs`, `calc_relative_error` -/
def powiErr (actual expected : F32) : F32 :=
  if actual.isNaN && expected.isNaN || actual.feq expected then ZERO
  else if !expected.feq posZero then (actual - expected).abs / expected
  else (actual - expected).abs / (expected + d 1 (-20))

/-- One row: `F32(base).powi(power as i32)` does not panic and `relative_error <= MAX_ERROR`. -/
def powiRow (v : F32 × F32 × F32) : Bool :=
  match v.1.powi v.2.1.toI32 with
  | .ok y => (powiErr y v.2.2).le (d 2 (-3))
  | .error _ => false

theorem test_powi0 : powiVectors0.all powiRow = true := by kernel_rfl
theorem test_powi1 : powiVectors1.all powiRow = true := by kernel_rfl
theorem test_powi2 : powiVectors2.all powiRow = true := by kernel_rfl
theorem test_powi3 : powiVectors3.all powiRow = true := by kernel_rfl
theorem test_powi4 : powiVectors4.all powiRow = true := by kernel_rfl
theorem test_powi5 : powiVectors5.all powiRow = true := by kernel_rfl
theorem test_powi6 : powiVectors6.all powiRow = true := by kernel_rfl
theorem test_powi7 : powiVectors7.all powiRow = true := by kernel_rfl
theorem test_powi8 : powiVectors8.all powiRow = true := by kernel_rfl
theorem test_powi9 : powiVectors9.all powiRow = true := by kernel_rfl
theorem test_powi10 : powiVectors10.all powiRow = true := by kernel_rfl
theorem test_powi11 : powiVectors11.all powiRow = true := by kernel_rfl
theorem test_powi12 : powiVectors12.all powiRow = true := by kernel_rfl

/-- `powi.rs`, `sanity_check` -/
theorem test_powi : (powiVectors0 ++ powiVectors1 ++ powiVectors2 ++ powiVectors3 ++ powiVectors4 ++ powiVectors5 ++ powiVectors6 ++ powiVectors7 ++ powiVectors8 ++ powiVectors9 ++ powiVectors10 ++ powiVectors11 ++ powiVectors12).all powiRow = true := by
  simp only [List.all_append, test_powi0, test_powi1, test_powi2, test_powi3, test_powi4, test_powi5, test_powi6, test_powi7, test_powi8, test_powi9, test_powi10, test_powi11, test_powi12, Bool.and_self]

end Micromath.Tests
