import Verif.Props.VecNorm
import Verif.Props.Asin
import Verif.Props.TwoVec

/-!
# C98: `asin` just above one, and the pitch of `to_euler` at the poles

Just outside its domain `asin` is not a number near `pi/2` and not NaN: it is near zero.  `to_euler` reaches that range for
quaternions that `normalize` returns.
-/

set_option exponentiation.threshold 1000

namespace Micromath.Props
open F32 Spec

variable [Cfg]

/-- **C98.** For `1 < |x| <= 1.1`, `asin x` returns in every build mode and the result is within `0.00285` of zero. -/
theorem C98_asin_above {x : F32} (fx : x.isFinite = true) (h1 : 1 < |x.val|) (h2 : |x.val| ≤ 1.1) :
    ∃ y, x.asin = .ok y ∧ y.isFinite = true ∧ |y.val| ≤ 0.00285 := by
  have hxx : |x.val * x.val| ≤ 1.21 := by
    rw [abs_mul]
    refine (mul_le_mul h2 h2 (abs_nonneg _) (by norm_num)).trans (by norm_num)
  obtain ⟨f1, v1⟩ := mul_val fx fx (lt_of_le_of_lt hxx (by norm_num [ovf]))
  obtain ⟨-, e1⟩ := mul_err_uf fx fx (lt_of_le_of_lt hxx (by norm_num [ovf]))
  -- the next float above one
  have hb : 1 + 1 / 2 ^ 23 ≤ |x.val| := by
    have hl : (⟨0x3f800001#32⟩ : F32).val = 1 + 1 / 2 ^ 23 := by
      rw [val_of_units (u := (2 ^ 23 + 1) * 2 ^ 126) (by decide +kernel)]; norm_num
    rw [← hl, ← val_abs, ← key_le_iff]
    have : one.key < x.abs.key := key_lt_iff.2 (by rw [val_abs, val_one]; exact h1)
    have h2 : (⟨0x3f800001#32⟩ : F32).key = one.key + 1 := by decide
    omega
  have hr : 1 + 1 / 2 ^ 23 ≤ (x * x).val := by
    rw [v1]
    have : Rep (|x.val|) := by rw [← val_abs]; exact rep_val _
    refine hb.trans (le_RN_of_rep this ?_)
    rw [← abs_mul_abs_self]
    nlinarith
  have hbb : |ONE.val - (x * x).val| ≤ 4 := by
    rw [abs_le] at e1 hxx
    rw [val_ONE, abs_le]
    constructor <;> norm_num at * <;> linarith
  obtain ⟨f2, v2⟩ := sub_val fin_ONE f1 (lt_of_le_of_lt hbb (by norm_num [ovf]))
  have r2 : Rep (-(1 / 2 ^ 23) : ℚ) := by
    have := rep_pow (e := -23) (by norm_num)
    norm_num at this ⊢; exact this.neg
  have w : (ONE - x * x).val ≤ -(1 / 2 ^ 23) := by
    rw [v2, val_ONE]
    exact RN_le_of_rep r2 (by linarith)
  have ws : (ONE - x * x).sign = true := by
    by_contra h
    rw [Bool.not_eq_true] at h
    have := mval_nonneg (ONE - x * x).mag
    rw [val_of_pos h] at w
    norm_num at w
    linarith
  have wm : 0x34000000 ≤ (ONE - x * x).mag := by
    have hm : mval 0x34000000 ≤ mval (ONE - x * x).mag := by
      rw [← abs_val, mval, show magU 0x34000000 = 2 ^ 126 by decide +kernel, abs_of_nonpos (by norm_num at *; linarith)]
      norm_num at *; linarith
    exact mval_le.1 hm
  have hnb : (ONE - x * x).bits.toNat / 2 ≤ 0x5f375a86 := by
    by_contra hn
    have ht := C18_threshold _ f2 (by rw [toBits]; omega)
    obtain ⟨d, hd, -, v3⟩ := sub_err fin_ONE f1 2 (by norm_num) (by norm_num) (hbb.trans (by norm_num))
    rw [v3, val_ONE] at ht
    have hd := abs_le.1 hd
    rw [abs_le] at e1
    have hxx' := abs_le.1 hxx
    norm_num at *
    linarith
  obtain ⟨r, hr', hrb⟩ := invsqrt_ok hnb
  have hlow : 0x74000000 ≤ (ONE - x * x).bits.toNat - 0x40000000 := by
    rw [toNat_eq, ws]; simp; omega
  have rb : r.bits.toNat ≤ 0x05375a86 := by omega
  have rs : r.sign = false := by rw [sign]; simp; omega
  have rm : r.mag = r.bits.toNat := by rw [toNat_eq, rs]; simp
  have fr : r.isFinite = true := by
    rw [isFinite, rm]; have : infMag = 0x7f800000 := by decide
    rw [this]; simp; omega
  have r0 : 0 ≤ r.val := by rw [val_of_pos rs]; exact mval_nonneg _
  have r1 : r.val ≤ 1 / 2 ^ 115 := by
    rw [val_of_pos rs]
    have : mval r.mag ≤ mval 0x05375a86 := mval_le.2 (by rw [rm]; exact rb)
    refine this.trans ?_
    rw [mval, show magU 0x05375a86 = 12016262 * 2 ^ 9 by decide +kernel]
    norm_num
  have hp : |x.val * r.val| ≤ 1 / 2 ^ 114 := by
    rw [abs_mul, abs_of_nonneg r0]
    refine (mul_le_mul h2 r1 r0 (by norm_num)).trans (by norm_num)
  obtain ⟨f3, e3⟩ := mul_err_uf fx fr (lt_of_le_of_lt hp (by norm_num [ovf]))
  have hs : |(x * r).val| ≤ 1 / 2 ^ 100 := by
    have := abs_sub_abs_le_abs_sub (x * r).val (x.val * r.val)
    norm_num at *
    linarith
  obtain ⟨-, -, -, -, fa, -, -, ha⟩ := C38_atan f3 (hs.trans (by norm_num [atanMax]))
  refine ⟨_, by unfold F32.asin; rw [hr', ok_bind], fa, ?_⟩
  have h5 := RealAux.abs_arctan_le ((x * r).val : ℝ)
  have hs' := abs_cast_le hs
  push_cast at hs'
  have h6 := abs_sub_abs_le_abs_sub ((x * r).atan.val : ℝ) (Real.arctan (x * r).val)
  have h7 : |((x * r).atan.val : ℝ)| ≤ 0.00285 := by norm_num at *; linarith
  have e : ((0.00285 : ℚ) : ℝ) = 0.00285 := by norm_num
  rw [← e] at h7
  exact_mod_cast h7

omit [Cfg] in
/-- `1.0000001` and `1.1` (rounded down) meet the hypotheses. -/
example : (⟨0x3f800001#32⟩ : F32).isFinite = true ∧ 1 < |(⟨0x3f800001#32⟩ : F32).val| ∧ |(⟨0x3f800001#32⟩ : F32).val| ≤ 1.1 := by
  rw [val_of_units (u := (2 ^ 23 + 1) * 2 ^ 126) (by decide +kernel)]
  refine ⟨by decide, ?_, ?_⟩ <;> norm_num

/-- **C98.** Whenever the argument that `to_euler` hands to `asin` exceeds one in magnitude, up to `1.1`, the pitch it
returns is within `0.00285` of zero. -/
theorem C98_pitch_zero {q : Quaternion} (f : (lit 2 1 * (q.a * q.c - q.b * q.d)).isFinite = true)
    (h1 : 1 < |(lit 2 1 * (q.a * q.c - q.b * q.d)).val|) (h2 : |(lit 2 1 * (q.a * q.c - q.b * q.d)).val| ≤ 1.1) :
    ∃ R P Y, q.toEuler = .ok (R, P, Y) ∧ |P.val| ≤ 0.00285 := by
  obtain ⟨P, hP, -, hb⟩ := C98_asin_above f h1 h2
  exact ⟨_, P, _, by unfold Quaternion.toEuler; dsimp only; rw [hP, ok_bind], hb⟩

/-- **C98, refutation.** The quaternion `1 + j` is the turn by `pi/2` about `y`, a pitch of `pi/2`; `normalize` followed by
`to_euler` gives a pitch of at most `0.00285`.  So does the float quaternion nearest above its exact unit multiple, whose
exact squared length is within `2^-22` of one. -/
theorem C98_gimbal :
    (∃ r R P Y, Quaternion.normalize ⟨ONE, ZERO, ONE, ZERO⟩ = .ok r ∧ r.toEuler = .ok (R, P, Y) ∧ |P.val| ≤ 0.00285 ∧
      Real.pi / 2 = Real.arcsin (2 * ((1 : ℝ) * 1 - 0 * 0) / ((1 : ℝ) ^ 2 + 0 ^ 2 + 1 ^ 2 + 0 ^ 2))) ∧
    ∃ q : Quaternion, QFinite q ∧ |qlen q - 1| ≤ 1 / 2 ^ 22 ∧ q.a = q.c ∧ q.b = ZERO ∧ q.d = ZERO ∧
      ∃ R P Y, q.toEuler = .ok (R, P, Y) ∧ |P.val| ≤ 0.00285 := by
  constructor
  · have hn : Quaternion.norm ⟨ONE, ZERO, ONE, ZERO⟩ = ⟨0x40000000#32⟩ := eval_eq (by kernel_rfl)
    have hi : F32.invsqrt ⟨0x40000000#32⟩ = .ok ⟨0x3f375a86#32⟩ := eval_ok (by kernel_rfl) (by decide)
    have hs : Quaternion.normalize ⟨ONE, ZERO, ONE, ZERO⟩ = .ok (Quaternion.scale ⟨ONE, ZERO, ONE, ZERO⟩ ⟨0x3f375a86#32⟩) := by
      unfold Quaternion.normalize
      dsimp only
      rw [hn, if_neg (by decide), hi, ok_bind]
    have e : lit 2 1 * (ONE * ⟨0x3f375a86#32⟩ * (ONE * ⟨0x3f375a86#32⟩) - ZERO * ⟨0x3f375a86#32⟩ * (ZERO * ⟨0x3f375a86#32⟩)) =
        (⟨0x3f83528c#32⟩ : F32) := eval_eq (by kernel_rfl)
    have v : (⟨0x3f83528c#32⟩ : F32).val = 8606348 / 2 ^ 23 := by
      rw [val_of_units (u := 8606348 * 2 ^ 126) (by decide +kernel)]; norm_num
    obtain ⟨R, P, Y, h, hP⟩ := C98_pitch_zero (q := Quaternion.scale ⟨ONE, ZERO, ONE, ZERO⟩ ⟨0x3f375a86#32⟩)
      (by simp only [Quaternion.scale, e]; decide) (by simp only [Quaternion.scale, e, v]; norm_num)
      (by simp only [Quaternion.scale, e, v]; norm_num)
    refine ⟨_, R, P, Y, hs, h, hP, ?_⟩
    rw [show 2 * ((1 : ℝ) * 1 - 0 * 0) / ((1 : ℝ) ^ 2 + 0 ^ 2 + 1 ^ 2 + 0 ^ 2) = 1 by norm_num, Real.arcsin_one]
  · refine ⟨⟨⟨0x3f3504f4#32⟩, ZERO, ⟨0x3f3504f4#32⟩, ZERO⟩, ⟨by decide, by decide, by decide, by decide⟩, ?_, rfl, rfl, rfl, ?_⟩
    · have v : (⟨0x3f3504f4#32⟩ : F32).val = 11863284 / 2 ^ 24 := by
        rw [val_of_units (u := 11863284 * 2 ^ 125) (by decide +kernel)]; norm_num
      simp only [qlen, v, val_ZERO]
      norm_num [abs_le]
    · have e : (lit 2 1 * ((⟨0x3f3504f4#32⟩ : F32) * ⟨0x3f3504f4#32⟩ - ZERO * ZERO) : F32) = ⟨0x3f800001#32⟩ := eval_eq (by kernel_rfl)
      have v : (⟨0x3f800001#32⟩ : F32).val = (2 ^ 23 + 1) / 2 ^ 23 := by
        rw [val_of_units (u := (2 ^ 23 + 1) * 2 ^ 126) (by decide +kernel)]; norm_num
      refine C98_pitch_zero ?_ ?_ ?_ <;> simp only [e]
      · decide
      · rw [v]; norm_num
      · rw [v]; norm_num

end Micromath.Props
