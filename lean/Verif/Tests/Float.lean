import Verif.Tests.Vectors
import Verif.Model.Extras
import Verif.KernelRfl

/-!
# The crate's unit tests of `F32`, run on the model

Each theorem is one `#[test]` of `/repo/src/float/*.rs`: the same inputs, the same expected values, the same
tolerance, and the comparison itself done in the model's `f32` arithmetic as the Rust test does it.  They are
not properties (a finite table proves nothing about other inputs); they check the *model* against results the
maintainers observed on real hardware.  All of them are evaluated by the kernel, for every `Cfg`.
-/

set_option exponentiation.threshold 1000
set_option maxRecDepth 100000

namespace Micromath.Tests
open F32
variable [Cfg]
set_option linter.unusedSectionVars false

/-- `(actual - expected).abs() <= max_error` -/
def absClose (maxErr actual expected : F32) : Bool := (actual - expected).abs.le maxErr

/-- `actual - expected <= max_error` (several Rust tests forget the `abs`) -/
def diffLe (maxErr actual expected : F32) : Bool := (actual - expected).le maxErr

/-- `(actual - expected).abs() / expected <= max_error` -/
def relClose (maxErr actual expected : F32) : Bool := ((actual - expected).abs / expected).le maxErr

/-- Evaluate for both values of `debug-assertions`. -/
macro "eval_dbg" : tactic =>
  `(tactic| (rename_i c; rcases c with ⟨_, da, _, _, _, _, _, _⟩; cases da <;> kernel_rfl))

/-- A test of a result that may panic: a panic fails the test. -/
def okAnd (r : Res F32) (p : F32 → Bool) : Bool := match r with
  | .ok y => p y
  | .error _ => false

/-- `cos.rs`, `sanity_check` -/
theorem test_cos : (cosVectors.all fun v => absClose (d 2 (-3)) v.1.cos v.2) = true := by kernel_rfl

/-- `sin.rs`, `sanity_check` -/
theorem test_sin : (sinVectors.all fun v => absClose (d 2 (-3)) v.1.sin v.2) = true := by kernel_rfl

/-- `tan.rs`, `sanity_check` -/
theorem test_tan : (tanVectors.all fun v => absClose (d 6 (-1)) v.1.tan v.2) = true := by kernel_rfl

/-- `sqrt.rs`, `sanity_check` -/
theorem test_sqrt : (sqrtVectors.all fun v => diffLe (v.1 * d 5 (-2)) v.1.sqrt v.2) = true := by kernel_rfl

/-- `invsqrt.rs`, `sanity_check` -/
theorem test_invsqrt :
    (sqrtVectors.all fun v => okAnd v.1.invsqrt fun y => diffLe (v.1 * d 5 (-2)) y (one / v.2)) = true := by
  kernel_rfl

/-- `exp.rs`, `sanity_check` -/
theorem test_exp : (expVectors.all fun v => okAnd v.1.exp fun y => relClose (d 1 (-3)) y v.2) = true := by
  eval_dbg

/-- `cosh.rs`, `sanity_check` -/
theorem test_cosh : (coshVectors.all fun v => okAnd v.1.cosh fun y => absClose v.2.2 y v.2.1) = true := by
  eval_dbg

/-- `ln.rs`, `sanity_check` -/
theorem test_ln : (lnVectors.all fun v => relClose (d 1 (-3)) v.1.ln v.2) = true := by kernel_rfl

/-- `log.rs`, `sanity_check`, base 3 -/
theorem test_log3 : (log3Vectors.all fun v => relClose (d 1 (-3)) (v.1.log (d 3 0)) v.2) = true := by kernel_rfl

/-- `log.rs`, `sanity_check`, base 5.5 -/
theorem test_log5_5 : (log5_5Vectors.all fun v => relClose (d 1 (-3)) (v.1.log (d 55 (-1))) v.2) = true := by
  kernel_rfl

/-- `log.rs`, `sanity_check`, base 12.7 -/
theorem test_log12_7 : (log12_7Vectors.all fun v => relClose (d 1 (-3)) (v.1.log (d 127 (-1))) v.2) = true := by
  kernel_rfl

/-- `log2.rs`, `sanity_check` -/
theorem test_log2 : (log2Vectors.all fun v => relClose (d 1 (-3)) v.1.log2 v.2) = true := by kernel_rfl

/-- `log10.rs`, `sanity_check` -/
theorem test_log10 : (log10Vectors.all fun v => relClose (d 1 (-3)) v.1.log10 v.2) = true := by kernel_rfl

/-- `powf.rs`, `calc_relative_error` (first branch: both NaN) -/
def powfErr (actual expected : F32) : F32 :=
  if actual.isNaN && expected.isNaN then ZERO
  else if !expected.feq posZero then (actual - expected) / expected
  else (actual - expected) / (expected + d 1 (-20))

/-- `powf.rs`, `sanity_check`, base 3 -/
theorem test_powf3 : (powf3Vectors.all fun v =>
    okAnd ((d 3 0).powf v.1) fun y => (powfErr y v.2).le (d 2 (-3))) = true := by eval_dbg

/-- `powf.rs`, `sanity_check`, base 150 -/
theorem test_powf150 : (powf150Vectors.all fun v =>
    okAnd ((d 150 0).powf v.1) fun y => (powfErr y v.2).le (d 2 (-3))) = true := by eval_dbg

/-- One row of the last `powf.rs` table. -/
def powfMiscRow (v : F32 × F32 × F32) : Bool :=
  okAnd (v.1.powf v.2.1) fun y => (powfErr y v.2.2).le (d 2 (-3))

/-- `powf.rs`, `sanity_check`, mixed bases: the rows with a numeric result. -/
theorem test_powfMisc : ((powfMiscVectors.filter fun v => !(v.2.1.feq (d 32 (-1)))).all powfMiscRow) = true := by
  eval_dbg

/-- `powf.rs`, `sanity_check`, mixed bases: the row `(-0.5881598, 3.2, f32::NAN)`. -/
theorem test_powfMisc_nan : powfMiscRow (-(d 5881598 (-7)), d 32 (-1), NAN) = true := by
  have h : (-(d 5881598 (-7))).powf (d 32 (-1)) = .ok NAN := by kernel_rfl
  have h2 : (ZERO.le (d 2 (-3))) = true := by kernel_rfl
  simp only [powfMiscRow, h, okAnd, powfErr, NAN, Cfg.nanConst_isNaN, Bool.and_self, if_true, h2]

/-! ## Tests without tables -/

/-- `assert_eq!` on floats -/
abbrev same (x y : F32) : Bool := x.feq y

/-- `abs.rs`, `sanity_check` -/
theorem test_abs : (same ONE.abs (d 1 0) && same ZERO.abs (d 0 0) && same (-(d 1 0)).abs (d 1 0)) = true := by
  kernel_rfl

/-- `ceil.rs`, `sanity_check` -/
theorem test_ceil : ([(-(d 11 (-1)), -(d 1 0)), (-(d 1 (-1)), d 0 0), (d 0 0, d 0 0), (d 1 0, d 1 0),
    (d 11 (-1), d 2 0), (d 29 (-1), d 3 0)].all fun v => same v.1.ceil v.2) = true := by kernel_rfl

/-- `floor.rs`, `sanity_check` -/
theorem test_floor : ([(-(d 11 (-1)), -(d 2 0)), (-(d 1 (-1)), -(d 1 0)), (d 0 0, d 0 0), (d 1 0, d 1 0),
    (d 11 (-1), d 1 0), (d 29 (-1), d 2 0)].all fun v => same v.1.floor v.2) = true := by kernel_rfl

/-- The literal `100_000_000.13425345345` of `copysign.rs`, `fract.rs`, `trunc.rs`. -/
def large : F32 := d 10000000013425345345 (-11)

/-- `trunc.rs`, `sanity_check` -/
theorem test_trunc : ([(-(d 11 (-1)), -(d 1 0)), (-(d 1 (-1)), -(d 0 0)), (d 0 0, d 0 0), (d 1 0, d 1 0),
    (d 11 (-1), d 1 0), (d 29 (-1), d 2 0), (-large, -(d 100000000 0)),
    (large, d 100000000 0)].all fun v => same v.1.trunc v.2) = true := by kernel_rfl

/-- `fract.rs`, `sanity_check` -/
theorem test_fract :
    (same ((d 29 (-1)).fract + d 2 0) (d 29 (-1)) && same ((-(d 11 (-1))).fract - d 1 0) (-(d 11 (-1)))
      && same (-(d 1 (-1))).fract (-(d 1 (-1))) && same (d 0 0).fract (d 0 0)
      && same ((d 1 0).fract + d 1 0) (d 1 0) && same ((d 11 (-1)).fract + d 1 0) (d 11 (-1))
      && same (-large).fract (-(d 0 0)) && same large.fract (d 0 0)) = true := by kernel_rfl

/-- `copysign.rs`, `sanity_check` -/
theorem test_copysign : ([(d 1 0, -(d 1 0), -(d 1 0)), (-(d 1 0), d 1 0, d 1 0), (d 1 0, d 1 0, d 1 0),
    (-(d 1 0), -(d 1 0), -(d 1 0)), (large, -large, -large), (-large, large, large), (large, large, large),
    (-large, -large, -large)].all fun v => same (v.1.copysign v.2.1) v.2.2) = true := by kernel_rfl

/-- `signum.rs`, `sanity_check` -/
theorem test_signum : ([(INFINITY, d 1 0), (d 0 0, d 1 0), (d 1 0, d 1 0), (NEG_INFINITY, -(d 1 0)),
    (-(d 0 0), -(d 1 0)), (-(d 1 0), -(d 1 0))].all fun v => same v.1.signum v.2) = true := by kernel_rfl

/-- `round.rs`, `sanity_check` -/
theorem test_round : ([(d 0 0, d 0 0), (-(d 0 0), -(d 0 0)), (d 49999 (-5), d 0 0), (-(d 49999 (-5)), -(d 0 0)),
    (d 5 (-1), d 1 0), (-(d 5 (-1)), -(d 1 0)), (d 9999499 (-3), d 9999 0), (-(d 9999499 (-3)), -(d 9999 0)),
    (d 99995 (-1), d 10000 0), (-(d 99995 (-1)), -(d 10000 0))].all fun v => same v.1.round v.2) = true := by
  kernel_rfl

/-- `div_euclid.rs`, `sanity_check` -/
theorem test_div_euclid : ([(d 7 0, d 4 0, d 1 0), (-(d 7 0), d 4 0, -(d 2 0)), (d 7 0, -(d 4 0), -(d 1 0)),
    (-(d 7 0), -(d 4 0), d 2 0)].all fun v => same (v.1.divEuclid v.2.1) v.2.2) = true := by kernel_rfl

/-- `rem_euclid.rs`, `sanity_check` -/
theorem test_rem_euclid : ([(d 7 0, d 4 0, d 3 0), (-(d 7 0), d 4 0, d 1 0), (d 7 0, -(d 4 0), d 3 0),
    (-(d 7 0), -(d 4 0), d 1 0)].all fun v => same (v.1.remEuclid v.2.1) v.2.2) = true := by kernel_rfl

/-- `mul_add.rs`, `sanity_check` -/
theorem test_mul_add : (same ((d 0 0).mulAdd (d 0 0) (d 1 0)) (d 1 0)
    && same ((d 1 0).mulAdd (d 2 0) (d 35 (-1))) (d 55 (-1))
    && same ((d 1 0).mulAdd (-(d 1 0)) (d 0 0)) (-(d 1 0))) = true := by kernel_rfl

/-- `hypot.rs`, `sanity_check` -/
theorem test_hypot : ((d 3 0).hypot (d 4 0) - (d 25 0).sqrt).abs.le EPSILON = true := by kernel_rfl

/-- `asin.rs`, `sanity_check` -/
theorem test_asin : okAnd FRAC_PI_2.sin.asin (fun y => (y - FRAC_PI_2).abs.le EPSILON) = true := by kernel_rfl

/-- `exp.rs`, `ln.rs`, `log.rs`, `log2.rs`, `log10.rs`: the assertions before the tables -/
theorem test_exp_ln : (okAnd (-(d 1000000 0)).exp (fun y => same y ZERO) && same ONE.ln ZERO
    && same (ONE.log (d 3 0)) ZERO && same (ONE.log (d 55 (-1))) ZERO && same (ONE.log (d 127 (-1))) ZERO
    && same ONE.log2 ZERO && same ONE.log10 ZERO) = true := by kernel_rfl

/-- `recip.rs`, `sanity_check` -/
theorem test_recip : (same (d 0 0).recip INFINITY && same (-(d 0 0)).recip NEG_INFINITY
    && [(d 1 (-5), d 100000 0), (d 1 0, d 1 0), (d 2 0, d 5 (-1)), (d 25 (-2), d 4 0), (-(d 5 (-1)), -(d 2 0)),
      (PI, d 1 0 / PI)].all fun v => relClose (d 1 (-5)) v.1.recip v.2) = true := by kernel_rfl

/-- `inv.rs`, `sanity_check` -/
theorem test_inv : ((List.range 100).all fun n =>
    diffLe (ofInt n * d 8 (-2)) (ofInt n).inv (one / ofInt n)) = true := by kernel_rfl

/-- `inv.rs`, `special_floats`, except the NaN assertion, and `float.rs`, `inv_trait` -/
theorem test_inv_special : (same (F32.inv ⟨0x7f000001#32⟩) (d 0 0) && same INFINITY.inv (d 0 0)
    && same NEG_INFINITY.inv (-(d 0 0)) && INFINITY.inv.isSignPositive && NEG_INFINITY.inv.isSignNegative
    && same (d 2 0).invNT (d 5 (-1))) = true := by kernel_rfl

/-- `core::f32::consts::FRAC_PI_3`, `FRAC_PI_4`, `FRAC_PI_6` -/
def FRAC_PI_3 : F32 := d 104719755119659774615421446109316763 (-35)
@[inherit_doc FRAC_PI_3] def FRAC_PI_4 : F32 := d 785398163397448309615660845819875721 (-36)
@[inherit_doc FRAC_PI_3] def FRAC_PI_6 : F32 := d 523598775598298873077107230546583814 (-36)

/-- `acos.rs`, `sanity_check`, the rows with a numeric result -/
theorem test_acos : ([(d 1 0, d 0 0), (d 866 (-3), FRAC_PI_6), (d 707 (-3), FRAC_PI_4), (d 5 (-1), FRAC_PI_3),
    (EPSILON, FRAC_PI_2), (d 0 0, FRAC_PI_2), (-EPSILON, FRAC_PI_2), (-(d 5 (-1)), d 2 0 * FRAC_PI_3),
    (-(d 707 (-3)), d 3 0 * FRAC_PI_4), (-(d 866 (-3)), d 5 0 * FRAC_PI_6),
    (-(d 1 0), PI)].all fun v => absClose (d 3 (-2)) v.1.acos v.2) = true := by kernel_rfl

/-- `3.0_f32.sqrt()` of the standard library (correctly rounded) -/
def stdSqrt3 : F32 := ⟨0x3fddb3d7#32⟩

/-- `atan.rs`, `sanity_check` (with the `abs` the Rust test forgets) and `zero` -/
theorem test_atan : (same ZERO.atan ZERO && [(stdSqrt3 / d 3 0, FRAC_PI_6), (d 1 0, FRAC_PI_4),
    (stdSqrt3, FRAC_PI_3), (-stdSqrt3 / d 3 0, -FRAC_PI_6), (-(d 1 0), -FRAC_PI_4),
    (-stdSqrt3, -FRAC_PI_3)].all fun v => absClose (d 3 (-3)) v.1.atan v.2) = true := by kernel_rfl

/-- `atan2.rs`, `sanity_check`; `0x3f7b985f` is `1.5_f32.atan()` and `0x3f8db70d` is `2.0_f32.atan()` of the
standard library -/
theorem test_atan2 : ([(d 0 0, d 1 0, d 0 0), (d 0 0, -(d 1 0), PI), (d 3 0, d 2 0, ⟨0x3f7b985f#32⟩),
    (d 2 0, -(d 1 0), -⟨0x3f8db70d#32⟩ + PI), (-(d 2 0), -(d 1 0), ⟨0x3f8db70d#32⟩ - PI)].all
      fun (v : F32 × F32 × F32) => diffLe (d 3 (-3)) (v.1.atan2 v.2.1) v.2.2) = true := by kernel_rfl

/-- `tan.rs`, `zero` -/
theorem test_tan_zero : same ZERO.tan ZERO = true := by kernel_rfl

end Micromath.Tests
