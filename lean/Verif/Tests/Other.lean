import Verif.Tests.Decimal
import Verif.Model.Quaternion
import Verif.Model.Statistics
import Verif.Props.AtanAll
import Verif.Props.TrigBig
import Verif.Props.Roots
import Verif.KernelRfl

/-!
# The remaining unit tests of the crate, run on the model

`/repo/src/vector.rs`, `vector/*.rs`, `quaternion.rs`, `statistics/*.rs`, and the NaN tests of `float/*.rs`.

One Rust test, `vector.rs: normalized`, does **not** hold of the model, and should not: see
`test_normalized_library`.
-/

set_option exponentiation.threshold 1000
set_option maxRecDepth 100000

namespace Micromath.Tests
open F32
variable [Cfg]
set_option linter.unusedSectionVars false

/-- Evaluate for both start values of `f32` sums. -/
macro "eval_sum" : tactic =>
  `(tactic| (rename_i c; rcases c with ⟨_, da, _, _, _, _, sz, hs⟩; rcases hs with h | h <;> subst h <;>
    cases da <;> kernel_rfl))

/-! ## NaN tests of `float/*.rs` -/

theorem nan_isNaN : NAN.isNaN = true := Cfg.nanConst_isNaN

/-- `abs.rs`, `nan` -/
theorem test_abs_nan : NAN.abs.isNaN = true := by rw [isNaN_abs]; exact nan_isNaN

/-- `atan.rs`, `nan` -/
theorem test_atan_nan : NAN.atan.isNaN = true := (Props.C100_atan_nan _).2 (Or.inl nan_isNaN)

/-- `tan.rs`, `nan` -/
theorem test_tan_nan : NAN.tan.isNaN = true := (Props.C99_nan nan_isNaN).2.2

/-- `sqrt.rs`, `negative_is_nan` -/
theorem test_sqrt_nan : (-(d 1 0)).sqrt.isNaN = true := by
  have h : (-(d 1 0)).sqrt = NAN := by kernel_rfl
  rw [h]; exact nan_isNaN

/-- `acos.rs`, `sanity_check`, the rows `(2.000, f32::NAN)` and `(-2.000, f32::NAN)` -/
theorem test_acos_nan : (d 2 0).acos.isNaN = true ∧ (-(d 2 0)).acos.isNaN = true := by
  have h : ∀ x : F32, (ONE - x * x).sqrt = NAN → ((ONE - x * x).sqrt / x).atan.isNaN = true := by
    intro x hx
    rw [hx]
    exact (Props.C100_atan_nan _).2 (Or.inl (div_nan (Or.inl nan_isNaN)))
  constructor
  · have e : (d 2 0).acos = ((ONE - d 2 0 * d 2 0).sqrt / d 2 0).atan := by
      unfold F32.acos
      rw [if_pos (by kernel_rfl)]
    rw [e]
    exact h _ (by kernel_rfl)
  · have e : (-(d 2 0)).acos = ((ONE - -(d 2 0) * -(d 2 0)).sqrt / -(d 2 0)).atan + PI := by
      unfold F32.acos
      rw [if_neg (Bool.not_eq_true _ ▸ (by kernel_rfl)), if_neg (Bool.not_eq_true _ ▸ (by kernel_rfl))]
    rw [e]
    exact add_nan (Or.inl (h _ (by kernel_rfl)))

/-- `inv.rs`, `special_floats`, the NaN assertions -/
theorem test_inv_nan : 0x7f000000 < NAN.bits.toNat ∧ NAN.inv.isNaN = true := by
  have hm : infMag < NAN.bits.toNat % 2 ^ 31 := of_decide_eq_true nan_isNaN
  have hi : infMag = 0x7f800000 := rfl
  have hb : 0x7f000000 < NAN.bits.toNat := by omega
  refine ⟨hb, ?_⟩
  have hf : NAN.isInf = false := decide_eq_false (by show ¬ NAN.bits.toNat % 2 ^ 31 = infMag; omega)
  unfold F32.inv
  rw [if_neg (by show ¬ NAN.bits.toNat ≤ 0x7f000000; omega), hf, if_neg (by simp), if_pos nan_isNaN]
  exact nan_isNaN

/-! ## `vector/vector2d.rs`, `vector/vector3d.rs` (the integer tests use `i32`) -/

/-- An `i32` literal. -/
def i (n : Int) : I32 := MInt.wrap n

def v2 (x y : Int) : Vector2d I32 := ⟨i x, i y⟩
def v3 (x y z : Int) : Vector3d I32 := ⟨i x, i y, i z⟩

/-- `vector2d.rs`, `from_tuple`, `from_array` -/
theorem test_v2_conv : (Vector2d.ofTuple (i 1, i 2)).index 0 = .ok (i 1) ∧
    (Vector2d.ofTuple (i 1, i 2)).index 1 = .ok (i 2) ∧ (Vector2d.ofTuple (i 1, i 2)).toTuple = (i 1, i 2) ∧
    (Vector2d.ofArray ![i 1, i 2]).index 0 = .ok (i 1) ∧ (Vector2d.ofArray ![i 1, i 2]).index 1 = .ok (i 2) ∧
    (Vector2d.ofArray ![i 1, i 2]).intoArray 0 = i 1 ∧ (Vector2d.ofArray ![i 1, i 2]).intoArray 1 = i 2 :=
  ⟨rfl, rfl, rfl, rfl, rfl, rfl, rfl⟩

/-- `vector2d.rs`, `cross`, `dot`, `div`, `div_assign` -/
theorem test_v2_ops : (v2 1 2).cross (v2 3 4) = .ok (v3 0 0 (-2)) ∧ (v2 1 2).mulVec (v2 3 4) = .ok (v3 0 0 (-2)) ∧
    (v2 1 2).perpendicularDot (v2 3 4) = .ok (i (-2)) ∧ (v2 1 2).dot (v2 3 4) = .ok (i 11) ∧
    (v2 10 20).divScalar (i 2) = .ok (v2 5 10) ∧ (v2 10 20).divAssign (i 2) = .ok (v2 5 10) :=
  ⟨by kernel_rfl, by kernel_rfl, by kernel_rfl, by kernel_rfl, by kernel_rfl, by kernel_rfl⟩

/-- `vector3d.rs`, `from_tuple`, `from_array` -/
theorem test_v3_conv : (Vector3d.ofTuple (i 1, i 2, i 3)).index 0 = .ok (i 1) ∧
    (Vector3d.ofTuple (i 1, i 2, i 3)).index 1 = .ok (i 2) ∧ (Vector3d.ofTuple (i 1, i 2, i 3)).index 2 = .ok (i 3) ∧
    (Vector3d.ofTuple (i 1, i 2, i 3)).toTuple = (i 1, i 2, i 3) ∧
    (Vector3d.ofArray ![i 1, i 2, i 3]).index 0 = .ok (i 1) ∧ (Vector3d.ofArray ![i 1, i 2, i 3]).index 1 = .ok (i 2) ∧
    (Vector3d.ofArray ![i 1, i 2, i 3]).index 2 = .ok (i 3) ∧ (Vector3d.ofArray ![i 1, i 2, i 3]).intoArray 0 = i 1 ∧
    (Vector3d.ofArray ![i 1, i 2, i 3]).intoArray 1 = i 2 ∧ (Vector3d.ofArray ![i 1, i 2, i 3]).intoArray 2 = i 3 :=
  ⟨rfl, rfl, rfl, rfl, rfl, rfl, rfl, rfl, rfl, rfl⟩

/-- `vector3d.rs`, `cross`, `dot`, `div`, `div_assign` -/
theorem test_v3_ops : (v3 1 2 3).cross (v3 4 5 6) = .ok (v3 (-3) 6 (-3)) ∧
    (v3 1 2 3).mulVec (v3 4 5 6) = .ok (v3 (-3) 6 (-3)) ∧ (v3 1 2 3).dot (v3 4 5 6) = .ok (i 32) ∧
    (v3 10 20 30).divScalar (i 2) = .ok (v3 5 10 15) ∧ (v3 10 20 30).divAssign (i 2) = .ok (v3 5 10 15) :=
  ⟨by kernel_rfl, by kernel_rfl, by kernel_rfl, by kernel_rfl, by kernel_rfl⟩

/-! ## `vector.rs` -/

/-- The vector of the tests in `vector.rs`. -/
def v345 : Vector3d F32 := ⟨d 3 0, d 4 0, d 5 0⟩

/-- A test of a result that may panic: a panic fails the test. -/
def okAnd' {α : Type} (r : Res α) (p : α → Bool) : Bool := match r with
  | .ok y => p y
  | .error _ => false

/-- `vector.rs`, `magnitude_sq` -/
theorem test_magnitude_sq : okAnd' (VectorTrait.magnitudeSq v345)
    (fun y => y.feq (d 3 0 * d 3 0 + d 4 0 * d 4 0 + d 5 0 * d 5 0)) = true := by eval_sum

/-- `vector.rs`, `normalized`, asserts that the magnitude of `(3, 4, 5)` is `7.071068` within `1e-6`.  The
library does not do that: its `magnitude` calls `F32Ext::sqrt`, which returns `7.125` for `50`.  The Rust test
presumably passes because `cargo test` links `std`, whose inherent `f32::sqrt` then shadows the trait method (an
inference from reading; nothing was run).  A library build of this `#![no_std]` crate has no inherent `sqrt` and uses
the approximation, as the model does. -/
theorem test_normalized_library : (VectorTrait.magnitude v345).feq (d 7125 (-3)) = true ∧
    ((VectorTrait.magnitude v345 - d 7071068 (-6)).abs.le (d 1 (-6))) = false := by
  constructor
  · eval_sum
  · eval_sum

/-! ## `quaternion.rs` -/

def q1234 : Quaternion := ⟨d 1 0, d 2 0, d 3 0, d 4 0⟩
def q2468 : Quaternion := ⟨d 2 0, d 4 0, d 6 0, d 8 0⟩

/-- `quaternion.rs`, `conj_test`, `add_assign`, `mul_assign`, `sub_assign`, `mul_quaternion`, `mul_f32` -/
theorem test_quat : (q1234.conj.eq ⟨d 1 0, -(d 2 0), -(d 3 0), -(d 4 0)⟩ && (q1234.addAssign q1234).eq q2468
    && (q1234.mulAssign (d 2 0)).eq q2468 && (q2468.subAssign q1234).eq q1234
    && (q1234.mul ⟨d 4 0, d 3 0, d 2 0, d 1 0⟩).eq ⟨-(d 12 0), d 6 0, d 24 0, d 12 0⟩
    && (Quaternion.f32Mul (d 2 0) q1234).eq q2468
    && ((Quaternion.f32Mul (d 2 0) q1234).mulF32 (d 5 (-1))).eq q1234) = true := by kernel_rfl

/-- `quaternion.rs`, `norm_test` -/
theorem test_quat_norm : (q1234.norm.feq (d 30 0) && okAnd' q1234.norm.invsqrt fun n =>
    ((q1234.mulF32 n).norm - d 1 0).abs.le (d 1 0 * d 5 (-2))) = true := by kernel_rfl

/-- `quaternion.rs`, `from_tuple`, `from_array` -/
theorem test_quat_conv : (Quaternion.ofTuple (d 1 0, d 2 0, d 3 0, d 4 0)).toTuple = (d 1 0, d 2 0, d 3 0, d 4 0) ∧
    ∀ k, (Quaternion.ofArray ![d 1 0, d 2 0, d 3 0, d 4 0]).intoArray k = ![d 1 0, d 2 0, d 3 0, d 4 0] k :=
  ⟨rfl, fun k => by fin_cases k <;> rfl⟩

/-- `quaternion.rs`, `smallest_rot` -/
theorem test_smallest_rot :
    okAnd' (Quaternion.fromTwoVectors (⟨d 0 0, d 0 0, d 1 0⟩ : Vector3d F32) ⟨d 0 0, d 1 0, d 0 0⟩) (fun q =>
      okAnd' ((q.rotate (⟨d 0 0, d 0 0, d 1 0⟩ : Vector3d F32)).sub ⟨d 0 0, d 1 0, d 0 0⟩) (fun w =>
        (VectorTrait.magnitude w).lt (d 1 (-1)))) = true := by eval_sum

/-! ## `statistics/*.rs` -/

def s135 : List F32 := [d 1 0, d 3 0, d 5 0]

/-- `mean.rs`, `variance.rs`, `stddev.rs` -/
theorem test_stats : (okAnd' (Statistics.mean s135) (·.feq (d 3 0)) && okAnd' (Statistics.variance s135) (·.feq (d 4 0))
    && okAnd' (Statistics.stddev s135) (·.feq (d 2 0))) = true := by kernel_rfl

/-- `trim.rs`: `[1, 2, 3, 999, 5].trim_at(1.0)` yields `1, 2, 3, 5` -/
theorem test_trim : okAnd' (Statistics.trimAt [d 1 0, d 2 0, d 3 0, d 999 0, d 5 0] (d 1 0)) (fun it =>
    decide (it.collect 6 = [d 1 0, d 2 0, d 3 0, d 5 0])) = true := by kernel_rfl

end Micromath.Tests
