import Verif.Props.Atan2
import Verif.Real.Arcsin

/-!
# C100: `atan` on every argument, and where `atan2` loses the angle

Squares of large arguments overflow and products of small ones vanish.
-/

set_option exponentiation.threshold 1000

namespace Micromath.Props
open F32 Spec RealAux

variable [Cfg]

/-- A summand below half a unit in the last place is absorbed. -/
theorem absorb {a b : F32} (fa : a.isFinite = true) (fb : b.isFinite = true) (ha : 2 ^ 127 ≤ a.val) (b0 : 0 ≤ b.val)
    (hb : b.val ≤ 2 ^ 70) : a + b = a ∧ b + a = a := by
  have am := abs_val_le_maxF fa
  rw [abs_of_nonneg (by linarith [show (0 : ℚ) ≤ 2 ^ 127 by norm_num])] at am
  have a0 : 0 < a.val := lt_of_lt_of_le (by norm_num) ha
  have hov : |a.val + b.val| < ovf := by
    rw [abs_of_nonneg (by linarith)]
    refine lt_of_le_of_lt (add_le_add am hb) (by norm_num [maxF, ovf])
  obtain ⟨f, v⟩ := add_val fa fb hov
  have hn : |RN (a.val + b.val) - (a.val + b.val)| ≤ b.val := by
    refine (RN_nearest (rep_val a)).trans (le_of_eq ?_)
    rw [show a.val - (a.val + b.val) = -b.val by ring, abs_neg, abs_of_nonneg b0]
  have hl : a.val ≤ (a + b).val := by rw [v]; exact le_RN_of_rep (rep_val a) (by linarith)
  rw [← v] at hn
  have hn' := (abs_le.1 hn).2
  obtain ⟨z, hz⟩ := val_grid (x := a) (j := 127) (by norm_num) (by rw [abs_of_pos a0]; exact_mod_cast ha)
  obtain ⟨w, hw⟩ := val_grid (x := a + b) (j := 127) (by norm_num) (by
    rw [abs_of_pos (by linarith)]; exact le_trans (by exact_mod_cast ha) hl)
  rw [show (2 : ℚ) ^ ((127 : Int) - 23) = 2 ^ 104 by norm_num] at hz hw
  have e : w = z := by
    have h1 : z ≤ w := by
      rw [hz, hw] at hl
      have := le_of_mul_le_mul_right hl (by norm_num)
      exact_mod_cast this
    have h2 : w < z + 1 := by
      have : (w : ℚ) * 2 ^ 104 < (z + 1) * 2 ^ 104 := by
        rw [← hw, add_mul, ← hz, one_mul]
        refine lt_of_le_of_lt (b := a.val + 2 * 2 ^ 70) (by linarith) ?_
        have : (2 : ℚ) * 2 ^ 70 < 2 ^ 104 := by norm_num
        linarith
      have := lt_of_mul_lt_mul_right this (by norm_num)
      exact_mod_cast this
    omega
  have hv : (a + b).val = a.val := by rw [hw, hz, e]
  have := eq_of_val_ne hv (by rw [hv]; exact a0.ne')
  exact ⟨this, by rw [add_comm_fin fb fa]; exact this⟩

omit [Cfg] in
/-- The largest float below `2^64`. -/
theorem lt_two64 {x : F32} (h : |x.val| < 2 ^ 64) : |x.val| ≤ 2 ^ 64 - 2 ^ 40 := by
  rcases lt_or_ge |x.val| (2 ^ 63) with h1 | h1
  · exact h1.le.trans (by norm_num)
  · obtain ⟨z, hz⟩ := val_grid (x := x) (j := 63) (by norm_num) (by exact_mod_cast h1)
    rw [show (2 : ℚ) ^ ((63 : Int) - 23) = 2 ^ 40 by norm_num] at hz
    rw [hz, abs_mul, abs_of_pos (show (0 : ℚ) < 2 ^ 40 by norm_num), ← Int.cast_abs] at h ⊢
    have h2 : |z| < 2 ^ 24 := by
      have : ((|z| : Int) : ℚ) * 2 ^ 40 < ((2 ^ 24 : Int) : ℚ) * 2 ^ 40 := by refine lt_of_lt_of_le h ?_; norm_num
      have := lt_of_mul_lt_mul_right this (by norm_num)
      exact_mod_cast this
    have h3 : ((|z| : Int) : ℚ) ≤ ((2 ^ 24 - 1 : Int) : ℚ) := by
      have : |z| ≤ 2 ^ 24 - 1 := by omega
      exact_mod_cast this
    refine (mul_le_mul_of_nonneg_right h3 (by norm_num)).trans (le_of_eq ?_)
    norm_num

/-- Between `1.8e19` and `2^64` the result is exactly `FRAC_PI_2` with the sign of the argument. -/
theorem atan_top {x : F32} (hx : x.isFinite = true) (hl : atanMax ≤ |x.val|) (hu : |x.val| < 2 ^ 64) :
    x.atanNorm = one.copysign x ∧ x.atan = FRAC_PI_2.copysign x := by
  have hu' := lt_two64 hu
  have hxn := abs_nonneg x.val
  have hsq : x.val * x.val = |x.val| * |x.val| := (abs_mul_abs_self _).symm
  have sq_u : |x.val| * |x.val| ≤ (2 ^ 64 - 2 ^ 40) * (2 ^ 64 - 2 ^ 40) := mul_le_mul hu' hu' hxn (by norm_num)
  have sq_l : atanMax * atanMax ≤ |x.val| * |x.val| := mul_le_mul hl hl (by norm_num [atanMax]) hxn
  obtain ⟨f2, v2⟩ := mul_val hx hx (by
    rw [abs_mul]
    exact lt_of_le_of_lt sq_u (by norm_num [ovf]))
  rw [hsq] at v2
  have r127 : Rep (2 ^ 127 : ℚ) := by
    have := rep_pow (e := 127) (by norm_num)
    norm_num at this ⊢; exact this
  have n1 : 2 ^ 127 ≤ (x * x).val := by
    rw [v2]; exact le_RN_of_rep r127 (le_trans (by norm_num [atanMax]) sq_l)
  have hbx : |ATAN_B.val * x.val| ≤ 2 ^ 64 := by
    rw [abs_mul, val_ATAN_B, abs_of_nonneg (by norm_num)]
    linarith
  obtain ⟨f1, v1⟩ := mul_val fin_ATAN_B hx (lt_of_le_of_lt hbx (by norm_num [ovf]))
  have r64 : Rep (2 ^ 64 : ℚ) := by
    have := rep_pow (e := 64) (by norm_num)
    norm_num at this ⊢; exact this
  have b1 : (F32.abs (ATAN_B * x)).val ≤ 2 ^ 64 := by rw [val_abs, v1]; exact abs_RN_le_of_rep r64 hbx
  have b0 : 0 ≤ (F32.abs (ATAN_B * x)).val := by rw [val_abs]; exact abs_nonneg _
  have fb : (F32.abs (ATAN_B * x)).isFinite = true := by rw [isFinite_abs]; exact f1
  have e1 := (absorb f2 fb n1 b0 (b1.trans (by norm_num))).2
  have hob : one.val + (F32.abs (ATAN_B * x)).val ≤ 2 ^ 65 := by
    rw [val_one]; refine le_trans (add_le_add_right b1 1) (by norm_num)
  obtain ⟨f3, v3⟩ := add_val fin_one fb (by
    rw [abs_of_nonneg (by rw [val_one]; linarith)]; exact lt_of_le_of_lt hob (by norm_num [ovf]))
  have r65 : Rep (2 ^ 65 : ℚ) := by
    have := rep_pow (e := 65) (by norm_num)
    norm_num at this ⊢; exact this
  have e2 := (absorb f2 f3 n1 (by rw [v3, val_one]; exact RN_nonneg (by linarith)) (by
    rw [v3]; exact (RN_le_of_rep r65 hob).trans (by norm_num))).2
  have n0 : (x * x).val ≠ 0 := by
    have : (0 : ℚ) < 2 ^ 127 := by norm_num
    exact (lt_of_lt_of_le this n1).ne'
  have e3 : (x * x) / (x * x) = one := by
    obtain ⟨f, v⟩ := div_val f2 f2 n0 (by rw [div_self n0]; norm_num [ovf])
    rw [div_self n0, RN_of_rep (by simpa using rep_int (m := 1) (by decide))] at v
    exact eq_of_val_ne (by rw [v, val_one]) (by rw [v]; norm_num)
  have e4 : x.atanNorm = one.copysign x := by
    rw [← or_sign_eq x one (by decide)]
    unfold F32.atanNorm
    simp only [e1, e2, e3]
  refine ⟨e4, ?_⟩
  show FRAC_PI_2 * x.atanNorm = _
  rw [e4]
  have hm : FRAC_PI_2 * one = FRAC_PI_2 :=
    (eval_eq (n := 0x3fc90fdb) (by kernel_rfl)).trans (by decide +kernel)
  have hm' : FRAC_PI_2 * (-one) = -FRAC_PI_2 := by rw [mul_neg_fin fin_FRAC_PI_2 fin_one, hm]
  rw [copysign_eq, copysign_eq]
  cases x.sign
  · rw [show pack false one.mag = one by decide, hm]; decide
  · rw [show pack true one.mag = -one by decide, hm']; decide

/-- **C100.** `atan` of every finite argument below `2^64` in magnitude is odd, keeps the sign, stays within
`±FRAC_PI_2` and has error at most `0.00284`. -/
theorem C100_atan {x : F32} (hx : x.isFinite = true) (hb : |x.val| < 2 ^ 64) :
    (-x).atan = -x.atan ∧ x.atan.isFinite = true ∧ |x.atan.val| ≤ FRAC_PI_2.val ∧ x.atan.sign = x.sign ∧
    |(x.atan.val : ℝ) - Real.arctan x.val| ≤ 0.00284 := by
  rcases le_total |x.val| atanMax with h | h
  · obtain ⟨h1, -, -, -, h2, h3, h4, h5⟩ := C38_atan hx h
    exact ⟨h1, h2, h3, h4, h5⟩
  · have e := (atan_top hx h hb).2
    have e' := (atan_top (x := -x) (by simpa using hx) (by rw [val_neg, abs_neg]; exact h)
      (by rw [val_neg, abs_neg]; exact hb)).2
    have hs : FRAC_PI_2.sign = false := by decide
    have hv := copysign_val (x := x) hs
    have p0 : 0 ≤ FRAC_PI_2.val := by rw [val_FRAC_PI_2]; norm_num
    refine ⟨?_, ?_, ?_, ?_, ?_⟩
    · rw [e, e']
      refine ext_mag_sign ?_ ?_
      · rw [mag_copysign, mag_neg, mag_copysign]
      · rw [sign_copysign, sign_neg, sign_neg, sign_copysign]
    · rw [e, isFinite, mag_copysign]; exact fin_FRAC_PI_2
    · rw [e, hv]
      split
      · rw [abs_neg, abs_of_nonneg p0]
      · rw [abs_of_nonneg p0]
    · rw [e, sign_copysign]
    · have hX : (18 * 10 ^ 18 : ℝ) ≤ ((|x.val| : ℚ) : ℝ) := by
        have : ((atanMax : ℚ) : ℝ) ≤ ((|x.val| : ℚ) : ℝ) := by exact_mod_cast h
        refine le_trans (le_of_eq ?_) this
        norm_num [atanMax]
      have hX0 : (0 : ℝ) < ((|x.val| : ℚ) : ℝ) := lt_of_lt_of_le (by norm_num) hX
      have hmain : |((FRAC_PI_2.val : ℚ) : ℝ) - Real.arctan ((|x.val| : ℚ) : ℝ)| ≤ 0.00284 := by
        have a1 := Real.arctan_lt_pi_div_two ((|x.val| : ℚ) : ℝ)
        have a2 : Real.pi / 2 - 1 / 10 ^ 6 ≤ Real.arctan ((|x.val| : ℚ) : ℝ) := by
          have e0 : Real.arctan ((|x.val| : ℚ) : ℝ) = Real.pi / 2 - Real.arctan (((|x.val| : ℚ) : ℝ)⁻¹) := by
            rw [Real.arctan_inv_of_pos hX0]; ring
          have l : Real.arctan (((|x.val| : ℚ) : ℝ)⁻¹) ≤ (((|x.val| : ℚ) : ℝ)⁻¹) := (le_abs_self _).trans ((abs_arctan_le _).trans (le_of_eq (abs_of_pos (by positivity))))
          have l2 : (((|x.val| : ℚ) : ℝ)⁻¹) ≤ 1 / 10 ^ 6 := by
            rw [inv_le_comm₀ hX0 (by norm_num)]
            refine le_trans ?_ hX
            norm_num
          linarith
        have hpi := Real.pi_gt_d6
        have hpi2 := Real.pi_lt_d6
        rw [val_FRAC_PI_2, abs_le]
        norm_num at *
        constructor <;> linarith
      rw [arctan_abs_sign, e, hv]
      split
      · push_cast
        rw [neg_sub_neg, abs_sub_comm]
        push_cast at hmain
        exact hmain
      · exact hmain

/-- **C100.** Exactly the arguments of magnitude `2^64` and more, the infinities and NaN give NaN. -/
theorem C100_atan_nan (x : F32) :
    x.atan.isNaN = true ↔ x.isNaN = true ∨ x.isInf = true ∨ x.isFinite = true ∧ 2 ^ 64 ≤ |x.val| := by
  constructor
  · intro h
    rcases class_cases x with f | f | f
    · refine Or.inr (Or.inr ⟨f, ?_⟩)
      by_contra hc
      have := not_nan_of_finite (C100_atan f (not_le.1 hc)).2.1
      rw [h] at this; cases this
    · exact Or.inr (Or.inl f)
    · exact Or.inl f
  · rintro (h | h | ⟨f, h⟩)
    · refine mul_nan (Or.inr ?_)
      unfold F32.atanNorm
      dsimp only
      rw [isNaN, mag_or_sign]
      exact div_nan (Or.inl (add_nan (Or.inr (mul_nan (Or.inl h)))))
    · rw [eq_pack_of_inf h]
      cases x.sign
      · exact C39_atan_documented_false.2.1
      · exact C39_atan_documented_false.2.2.1
    · refine C39_atan_documented_false.2.2.2 x f ?_
      rw [← abs_mul_abs_self]
      refine le_trans ?_ (mul_le_mul h h (by norm_num) (abs_nonneg _))
      norm_num [ovf]

/-! ### `atan2` -/

/-- A NaN quotient inside `atan2` comes out. -/
theorem atan2_nan_of_quot {x y : F32} (h : ((F32.abs (ATAN_B * x * y) + y * y) /
      (x * x + F32.abs (ATAN_B * x * y) + (F32.abs (ATAN_B * x * y) + y * y))).isNaN = true) :
    (y.atan2 x).isNaN = true := by
  have hN : (y.atan2Norm x).isNaN = true := by
    unfold F32.atan2Norm
    refine add_nan (Or.inr ?_)
    rw [and_xor, isNaN, mag_or_sign]
    exact h
  unfold F32.atan2
  refine mul_nan (Or.inr ?_)
  split
  · exact sub_nan (Or.inl hN)
  · exact hN

/-- **C100.** NaN in either argument gives NaN. -/
theorem C100_atan2_nan {x y : F32} (h : x.isNaN = true ∨ y.isNaN = true) : (y.atan2 x).isNaN = true := by
  refine atan2_nan_of_quot (div_nan (Or.inl (add_nan (Or.inl ?_))))
  rw [isNaN_abs]
  exact mul_nan (h.imp (fun h => mul_nan (Or.inr h)) id)

/-- The square of a number of magnitude at least `2^64` overflows. -/
theorem sq_overflow {y : F32} (h : y.isInf = true ∨ y.isFinite = true ∧ 2 ^ 64 ≤ |y.val|) : y * y = posInf := by
  rcases h with h | ⟨f, h⟩
  · rw [eq_pack_of_inf h]
    cases y.sign
    · exact eval_eq (n := 0x7f800000) (by kernel_rfl)
    · exact eval_eq (n := 0x7f800000) (by kernel_rfl)
  · rw [mul_ovf f f (by
      rw [abs_mul]
      refine le_trans ?_ (mul_le_mul h h (by norm_num) (abs_nonneg _))
      norm_num [ovf])]
    cases y.sign <;> decide

/-- **C100.** `atan2(y, x)` is NaN for every `y` of magnitude `2^64` or more, infinite or finite, whatever `x`. -/
theorem C100_atan2_huge_y {y : F32} (x : F32) (h : y.isInf = true ∨ y.isFinite = true ∧ 2 ^ 64 ≤ |y.val|) :
    (y.atan2 x).isNaN = true := by
  refine atan2_nan_of_quot ?_
  cases hb : (F32.abs (ATAN_B * x * y)).isNaN
  · rw [sq_overflow h, add_posInf_right hb (sign_abs _)]
    cases hd : (x * x + F32.abs (ATAN_B * x * y)).isNaN
    · have hs : (x * x + F32.abs (ATAN_B * x * y)).sign = false := by
        refine (add_nonneg_sign ?_ (Or.inr (sign_abs _))).resolve_left (by rw [hd]; simp)
        cases hx : x.isNaN
        · exact Or.inr (sq_facts hx).2
        · exact Or.inl (mul_nan (Or.inl hx))
      rw [add_posInf_right hd hs]
      exact inf_div_inf (by decide) (by decide)
    · exact div_nan (Or.inr (add_nan (Or.inl hd)))
  · exact div_nan (Or.inl (add_nan (Or.inl hb)))

/-- **C100.** It is also NaN for every infinite `x`. -/
theorem C100_atan2_inf_x {x : F32} (y : F32) (h : x.isInf = true) : (y.atan2 x).isNaN = true := by
  cases hyN : y.isNaN
  · refine atan2_nan_of_quot ?_
    have e : (ATAN_B * x).isInf = true := by
      rw [eq_pack_of_inf h]
      cases x.sign
      · rw [show ATAN_B * pack false infMag = posInf from eval_eq (n := 0x7f800000) (by kernel_rfl)]; decide
      · rw [show ATAN_B * pack true infMag = negInf from eval_eq (n := 0xff800000) (by kernel_rfl)]; decide
    have e2 : (ATAN_B * x * y).isNaN = true ∨ (ATAN_B * x * y).isInf = true := by
      have hn : (ATAN_B * x).isNaN = false := by simp only [isInf, decide_eq_true_eq] at e; simp [isNaN, e]
      rw [mul_def (ATAN_B * x) y]
      simp only [F32.mul, hn, hyN, e]
      simp only [Bool.or_self, Bool.false_eq_true, if_false, Bool.true_or, if_true]
      split
      · exact Or.inl (Cfg.nanOp_isNaN _ _ _)
      · right; rw [isInf, mag_pack _ infMag_lt]; simp
    rcases e2 with h2 | h2
    · exact div_nan (Or.inl (add_nan (Or.inl (by rw [isNaN_abs]; exact h2))))
    · have ea : F32.abs (ATAN_B * x * y) = posInf := by
        rw [eq_pack_of_inf h2]
        cases (ATAN_B * x * y).sign <;> decide
      have nn : ∀ u : F32, u.isNaN = false → u.sign = false → posInf + u = posInf := by
        intro u hu hs
        have h1 : posInf.isNaN = false := by decide
        have h2 : posInf.isInf = true := by decide
        have h3 : posInf.sign = false := by decide
        rw [add_def]
        simp [addAs, hu, h1, h2, h3, hs]
      rw [ea, nn _ (sq_facts hyN).1 (sq_facts hyN).2, sq_overflow (Or.inl h), nn posInf (by decide) (by decide),
        nn posInf (by decide) (by decide)]
      exact inf_div_inf (by decide) (by decide)
  · exact C100_atan2_nan (Or.inr hyN)

/-- **C100.** `atan2` of two arguments of magnitude at most `2^-75`, zero or not, is NaN. -/
theorem C100_atan2_tiny {x y : F32} (hx : x.isFinite = true) (hy : y.isFinite = true) (bx : |x.val| ≤ 1 / 2 ^ 75)
    (by' : |y.val| ≤ 1 / 2 ^ 75) : (y.atan2 x).isNaN = true := by
  have hRN : ∀ q : ℚ, |q| ≤ 1 / 2 ^ 150 → RN q = 0 := by
    have h0 : RN (1 / 2 ^ 150) = 0 := by
      rw [RN_of_nonneg (by norm_num), rbits_tie (b := 0) (by
        rw [abs_of_pos (by norm_num)]; unfold mval magU; norm_num), if_pos rfl]
      unfold mval magU; norm_num
    intro q hq
    have h1 : RN q ≤ 0 := by rw [← h0]; exact RN_mono ((le_abs_self _).trans hq)
    have h2 : 0 ≤ RN q := by
      have : RN (-q) ≤ 0 := by rw [← h0]; exact RN_mono ((neg_le_abs _).trans hq)
      rw [RN_neg] at this; linarith
    exact le_antisymm h1 h2
  have mz : ∀ u v : F32, u.isFinite = true → v.isFinite = true → |u.val| ≤ 1 / 2 ^ 75 → |v.val| ≤ 1 / 2 ^ 75 →
      IsVal (u * v) 0 := by
    intro u v fu fv hu hv
    have hp : |u.val * v.val| ≤ 1 / 2 ^ 150 := by
      rw [abs_mul]
      refine (mul_le_mul hu hv (abs_nonneg _) (by norm_num)).trans (by norm_num)
    obtain ⟨f, w⟩ := mul_val fu fv (lt_of_le_of_lt hp (by norm_num [ovf]))
    rw [hRN _ hp] at w
    exact ⟨f, w⟩
  have az : ∀ u v : F32, IsVal u 0 → IsVal v 0 → IsVal (u + v) 0 := by
    intro u v hu hv
    have := add_val hu.1 hv.1 (by rw [hu.2, hv.2, add_zero]; norm_num [ovf])
    rw [hu.2, hv.2, add_zero, RN_zero] at this
    exact this
  have hbx : |ATAN_B.val * x.val| ≤ 1 / 2 ^ 75 := by
    rw [abs_mul, val_ATAN_B, abs_of_nonneg (by norm_num)]
    have := abs_nonneg x.val
    linarith
  obtain ⟨f1, v1⟩ := mul_val fin_ATAN_B hx (lt_of_le_of_lt hbx (by norm_num [ovf]))
  have r75 : Rep (1 / 2 ^ 75 : ℚ) := by
    have := rep_pow (e := -75) (by norm_num)
    rwa [zpow_neg, ← one_div] at this
  have b1 := mz _ y f1 hy (by rw [v1]; exact abs_RN_le_of_rep r75 hbx) by'
  have b2 : IsVal (F32.abs (ATAN_B * x * y)) 0 := ⟨by rw [isFinite_abs]; exact b1.1, by rw [val_abs, b1.2, abs_zero]⟩
  have n := az _ _ b2 (mz y y hy hy by' by')
  have d := az _ _ (az _ _ (mz x x hx hx bx bx) b2) n
  exact atan2_nan_of_quot (zero_div_zero (val_eq_zero.1 n.2) (val_eq_zero.1 d.2))

/-- **C100.** For finite `|x| >= 2^64` and `y` with `|y| <= 2^63`, `|x y| <= 2^127`, the square of `x` overflows and the
angle is lost: the result is `0` for positive `x` and `PI` for negative `x`, whatever `y`. -/
theorem C100_atan2_huge_x {x y : F32} (hx : x.isFinite = true) (hy : y.isFinite = true) (bx : 2 ^ 64 ≤ |x.val|)
    (by' : |y.val| ≤ 2 ^ 63) (bxy : |x.val| * |y.val| ≤ 2 ^ 127) :
    (x.sign = false → IsVal (y.atan2 x) 0) ∧ (x.sign = true → y.atan2 x = PI) := by
  have hxo := abs_val_lt_ovf hx
  have hxn := abs_nonneg x.val
  have hyn := abs_nonneg y.val
  have hbx : |ATAN_B.val * x.val| = 10003029 / 16777216 * |x.val| := by
    rw [abs_mul, val_ATAN_B, abs_of_nonneg (by norm_num)]
  obtain ⟨d, hd, f1, v1⟩ := mul_rel fin_ATAN_B hx (by
    rw [hbx]
    refine le_trans (b := 10003029 / 16777216 * 2 ^ 64) (by norm_num) (mul_le_mul_of_nonneg_left bx (by norm_num)))
    (by rw [hbx]; linarith)
  have hd' := abs_le.1 hd
  have v1a : |(ATAN_B * x).val| ≤ 6 / 10 * |x.val| := by
    have hd0 : 0 ≤ 1 + d := by
      have : (1 : ℚ) / 2 ^ 24 ≤ 1 := by norm_num
      linarith
    rw [v1, abs_mul, hbx, abs_of_nonneg hd0]
    have : 1 + d ≤ 1 + 1 / 2 ^ 24 := by linarith
    refine (mul_le_mul_of_nonneg_left this (mul_nonneg (by norm_num) hxn)).trans ?_
    norm_num
    linarith
  have hp : |(ATAN_B * x).val * y.val| ≤ 6 / 10 * 2 ^ 127 := by
    rw [abs_mul]
    refine (mul_le_mul_of_nonneg_right v1a hyn).trans ?_
    rw [mul_assoc]
    exact mul_le_mul_of_nonneg_left bxy (by norm_num)
  obtain ⟨f2, v2⟩ := mul_val f1 hy (lt_of_le_of_lt hp (by norm_num [ovf]))
  have r1 : Rep (5 / 8 * 2 ^ 127 : ℚ) := by
    have := rep_zpow (m := 5) (by norm_num) (e := 124) (by norm_num)
    norm_num at this ⊢; exact this
  have b1 : (F32.abs (ATAN_B * x * y)).val ≤ 5 / 8 * 2 ^ 127 := by
    rw [val_abs, v2]; exact abs_RN_le_of_rep r1 (hp.trans (by norm_num))
  have b0 : 0 ≤ (F32.abs (ATAN_B * x * y)).val := by rw [val_abs]; exact abs_nonneg _
  have fb : (F32.abs (ATAN_B * x * y)).isFinite = true := by rw [isFinite_abs]; exact f2
  have hyy : y.val * y.val ≤ 2 ^ 126 := by
    rw [← abs_mul_abs_self]
    exact (mul_le_mul by' by' hyn (by norm_num)).trans (by norm_num)
  obtain ⟨f3, v3⟩ := mul_val hy hy (by
    rw [abs_of_nonneg (mul_self_nonneg _)]; exact lt_of_le_of_lt hyy (by norm_num [ovf]))
  have r126 : Rep (2 ^ 126 : ℚ) := by
    have := rep_pow (e := 126) (by norm_num)
    norm_num at this ⊢; exact this
  have c1 : (y * y).val ≤ 2 ^ 126 := by rw [v3]; exact RN_le_of_rep r126 hyy
  have c0 : 0 ≤ (y * y).val := by rw [v3]; exact RN_nonneg (mul_self_nonneg _)
  obtain ⟨f4, v4⟩ := add_val fb f3 (by
    rw [abs_of_nonneg (by linarith)]; exact lt_of_le_of_lt (add_le_add b1 c1) (by norm_num [ovf]))
  have nN : (F32.abs (ATAN_B * x * y) + y * y).isNaN = false := not_nan_of_finite f4
  have sN : (F32.abs (ATAN_B * x * y) + y * y).sign = false :=
    (add_nonneg_sign (Or.inr (sign_abs _)) (Or.inr (sq_facts (not_nan_of_finite hy)).2)).resolve_left (by rw [nN]; simp)
  have nn : ∀ u : F32, u.isNaN = false → u.sign = false → posInf + u = posInf := by
    intro u hu hs
    have h1 : posInf.isNaN = false := by decide
    have h2 : posInf.isInf = true := by decide
    have h3 : posInf.sign = false := by decide
    rw [add_def]
    simp [addAs, hu, h1, h2, h3, hs]
  have hq : (F32.abs (ATAN_B * x * y) + y * y) /
      (x * x + F32.abs (ATAN_B * x * y) + (F32.abs (ATAN_B * x * y) + y * y)) = posZero := by
    rw [sq_overflow (Or.inr ⟨hx, bx⟩), nn _ (not_nan_of_finite fb) (sign_abs _), nn _ nN sN]
    have h1 : posInf.isNaN = false := by decide
    have h2 : posInf.isInf = true := by decide
    have h3 : posInf.sign = false := by decide
    rw [div_def]
    simp only [F32.div, nN, h1, h2, h3, sN, not_inf_of_finite f4]
    simp only [Bool.or_self, Bool.false_eq_true, if_false, if_true]
    decide
  have hN : y.atan2Norm x = ofInt (if x.sign then 2 else if y.sign then 4 else 0) +
      posZero.copysign (fromBits (x.toBits ^^^ y.toBits)) := by
    unfold F32.atan2Norm
    have := or_sign_eq (fromBits (x.toBits ^^^ y.toBits)) posZero (by decide)
    rw [← this, ← quadrant]
    show ofInt _ + fromBits ((0x80000000#32 &&& x.toBits) ^^^ (0x80000000#32 &&& y.toBits) ||| _) = _
    rw [and_xor, hq]
    rfl
  have z : ∀ w : F32, w = ⟨0#32⟩ → IsVal w 0 := by
    rintro w rfl
    exact ⟨by decide, by rw [val_of_units (u := 0) (by decide)]; norm_num⟩
  unfold F32.atan2
  rw [hN, copysign_eq, sign_xor]
  have pi : PI = ⟨0x40490fdb#32⟩ := by decide +kernel
  constructor
  · intro h
    rw [h]
    cases y.sign
    · exact z _ (eval_eq (n := 0) (by kernel_rfl))
    · exact z _ (eval_eq (n := 0) (by kernel_rfl))
  · intro h
    rw [h]
    cases y.sign
    · exact (eval_eq (n := 0x40490fdb) (by kernel_rfl)).trans pi.symm
    · exact (eval_eq (n := 0x40490fdb) (by kernel_rfl)).trans pi.symm

/-- The hypotheses of the theorems above: `2^63` for `C100_atan`; `(2^-80, -2^-75)` for `C100_atan2_tiny`; `y = 2^63`,
`x = 2^64` for `C100_atan2_huge_x`, where the true angle is `arctan (1/2)`, more than `0.46`. -/
example : ∃ a b c d : F32, IsVal a (2 ^ 63) ∧ IsVal b (2 ^ 64) ∧ IsVal c (1 / 2 ^ 80) ∧ IsVal d (-(1 / 2 ^ 75)) := by
  refine ⟨⟨0x5f000000#32⟩, ⟨0x5f800000#32⟩, ⟨0x17800000#32⟩, ⟨0x9a000000#32⟩, ⟨by decide, ?_⟩, ⟨by decide, ?_⟩, ⟨by decide, ?_⟩,
    ⟨by decide, ?_⟩⟩
  · rw [val_of_units (u := 2 ^ 212) (by decide +kernel)]; norm_num
  · rw [val_of_units (u := 2 ^ 213) (by decide +kernel)]; norm_num
  · rw [val_of_units (u := 2 ^ 69) (by decide +kernel)]; norm_num
  · rw [val_of_units (u := -2 ^ 74) (by decide +kernel)]; norm_num

end Micromath.Props
