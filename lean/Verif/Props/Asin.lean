import Verif.Real.Arcsin
import Verif.Props.Atan
import Verif.Props.Roots

/-!
# C82, C84: accuracy of `asin` and `acos`
-/

set_option exponentiation.threshold 1000

namespace Micromath.Props
open F32 Spec RealAux

variable [Cfg]

/-- `1 - x*x` for `|x| < 1`: a positive normal number within `2^-24` of the exact value. -/
theorem one_sub_sq_lt {x : F32} (hx : x.isFinite = true) (h1 : |x.val| < 1) :
    (1 : ℚ) / 2 ^ 24 ≤ (ONE - x * x).val ∧ PosNormal (ONE - x * x) ∧
    |(1 - x.val ^ 2) - (ONE - x * x).val| ≤ 1 / 2 ^ 24 := by
  obtain ⟨f, -, h0, hle, -, -, v1, v2⟩ := one_sub_sq hx h1.le
  have hx0 := abs_nonneg x.val
  -- the largest float below one
  have hb : |x.val| ≤ 1 - 1 / 2 ^ 24 := by
    have hl : (⟨0x3f7fffff#32⟩ : F32).val = 1 - 1 / 2 ^ 24 := by
      rw [val_of_units (u := (2 ^ 24 - 1) * 2 ^ 125) (by decide +kernel)]; norm_num
    rw [← hl, ← val_abs, ← key_le_iff]
    have : x.abs.key < one.key := key_lt_iff.2 (by rw [val_abs, val_one]; exact h1)
    have h2 : one.key = (⟨0x3f7fffff#32⟩ : F32).key + 1 := by decide
    omega
  have hsq : x.val * x.val ≤ 1 - 1 / 2 ^ 24 := by
    rw [← abs_mul_abs_self]
    calc |x.val| * |x.val| ≤ (1 - 1 / 2 ^ 24) * 1 := mul_le_mul hb h1.le hx0 (by norm_num)
      _ = _ := by ring
  have hsq0 : 0 ≤ x.val * x.val := mul_self_nonneg _
  have r1 : Rep (1 - 1 / 2 ^ 24 : ℚ) := by
    have := rep_zpow (m := 2 ^ 24 - 1) (by norm_num) (e := -24) (by norm_num)
    norm_num at this ⊢; exact this
  have r2 : Rep (1 / 2 ^ 24 : ℚ) := by
    have := rep_pow (e := -24) (by norm_num)
    norm_num at this ⊢; exact this
  have k1 : RN (x.val * x.val) ≤ 1 - 1 / 2 ^ 24 := RN_le_of_rep r1 hsq
  have k0 : 0 ≤ RN (x.val * x.val) := RN_nonneg hsq0
  have k2 : (1 : ℚ) / 2 ^ 24 ≤ (ONE - x * x).val := by rw [v2]; exact le_RN_of_rep r2 (by linarith)
  refine ⟨k2, ⟨f, le_trans (by norm_num) k2⟩, ?_⟩
  have e1 := RN_err_abs (q := x.val * x.val) (e := 0) (by norm_num) (by
    rw [abs_of_nonneg hsq0]; refine hsq.trans (by norm_num))
  have e2 := RN_err_abs (q := 1 - RN (x.val * x.val)) (e := 0) (by norm_num) (by
    rw [abs_of_nonneg (by linarith [show (0 : ℚ) ≤ 1 / 2 ^ 24 by norm_num])]; norm_num; exact k0)
  rw [← v2] at e2
  rw [abs_le] at *
  norm_num at e1 e2 ⊢
  constructor <;> nlinarith [e1.1, e1.2, e2.1, e2.2]

omit [Cfg] in
/-- A float of magnitude one is `1.0` or `-1.0`. -/
theorem eq_one_of_abs {x : F32} (h : |x.val| = 1) : x = one ∨ x = -one := by
  have hm : x.mag = one.mag := by
    have h2 : |one.val| = 1 := by rw [val_one]; norm_num
    rw [abs_val] at h h2
    exact mval_inj.1 (h.trans h2.symm)
  rcases hs : x.sign with _ | _
  · exact Or.inl (ext_mag_sign hm (by rw [hs]; decide))
  · exact Or.inr (ext_mag_sign (by rw [hm]; decide) (by rw [hs]; decide))

theorem asin_one : one.asin = .ok FRAC_PI_2 := eval_ok (n := 0x3fc90fdb) (by kernel_rfl) (by decide)
theorem asin_neg_one : (-one).asin = .ok (-FRAC_PI_2) := eval_ok (n := 0xbfc90fdb) (by kernel_rfl) (by decide)
theorem acos_one : one.acos = ⟨0x1fb3d15e#32⟩ := eval_eq (by kernel_rfl)
theorem acos_neg_one : (-one).acos = PI := eval_eq (n := 0x40490fdb) (by kernel_rfl)

/-- **C82.** `asin` is within `0.022` of the arcsine on the whole domain. -/
theorem C82_asin {x : F32} (hx : x.isFinite = true) (h1 : |x.val| ≤ 1) :
    ∃ y, x.asin = .ok y ∧ |(y.val : ℝ) - Real.arcsin x.val| ≤ 0.022 := by
  have hpi := Real.pi_gt_d6
  have hpi2 := Real.pi_lt_d6
  obtain ⟨r, hr, fr, r0, r1, f, hb⟩ := asin_arg hx h1
  have ha := (C38_atan f hb).2.2.2.2.2.2.2
  rcases lt_or_eq_of_le h1 with hlt | heq
  · refine ⟨(x * r).atan, by unfold F32.asin; rw [hr, ok_bind], ?_⟩
    obtain ⟨w24, hn, hw⟩ := one_sub_sq_lt hx hlt
    obtain ⟨r', hr', -, b1, b2⟩ := invsqrt_bounds hn
    rw [hr] at hr'
    obtain rfl := Except.ok.inj hr'
    have hwR : |(1 - (x.val : ℝ) ^ 2) - ((ONE - x * x).val : ℝ)| ≤ 1 / 2 ^ 24 := by
      have := abs_cast_le hw; push_cast at this; exact this
    have hltR : |(x.val : ℝ)| < 1 := by exact_mod_cast hlt
    obtain ⟨w, hwd⟩ : ∃ w, w = (ONE - x * x).val := ⟨_, rfl⟩
    rw [← hwd] at hwR b1 b2 w24
    have w0 : 0 < w := lt_of_lt_of_le (by norm_num) w24
    have w0R : 0 < (w : ℝ) := by exact_mod_cast w0
    have k1 := arctan_near_arcsin hltR w0R hwR
    -- the inverse square root
    have hs := Real.sqrt_pos.2 w0R
    have hss := Real.sq_sqrt w0R.le
    have r0R : 0 < (r.val : ℝ) := by exact_mod_cast r0
    have b1R : (0.93 : ℝ) ≤ w * r.val ^ 2 := by
      have : ((0.93 : ℚ) : ℝ) ≤ ((w * r.val ^ 2 : ℚ) : ℝ) := by exact_mod_cast b1
      push_cast at this; norm_num at this ⊢; exact this
    have b2R : w * (r.val : ℝ) ^ 2 ≤ 1.07 := by
      have : ((w * r.val ^ 2 : ℚ) : ℝ) ≤ ((1.07 : ℚ) : ℝ) := by exact_mod_cast b2
      push_cast at this; norm_num at this ⊢; exact this
    have hρ : 0 < (r.val : ℝ) * √(w : ℝ) := by positivity
    have hρ2 : ((r.val : ℝ) * √(w : ℝ)) ^ 2 = w * (r.val : ℝ) ^ 2 := by rw [mul_pow, hss]; ring
    have hρl : 0.9643 ≤ (r.val : ℝ) * √(w : ℝ) := by
      by_contra hcon
      have := pow_lt_pow_left₀ (not_le.1 hcon) hρ.le (n := 2) (by norm_num)
      rw [hρ2] at this
      norm_num at this b1R; linarith
    have hρu : (r.val : ℝ) * √(w : ℝ) ≤ 1.0345 := by
      by_contra hcon
      have := pow_lt_pow_left₀ (not_le.1 hcon) (by norm_num) (n := 2) (by norm_num)
      rw [hρ2] at this
      norm_num at this b2R; linarith
    have k2 := arctan_ratio (b := (x.val : ℝ) / √(w : ℝ)) (c := 0.0183) hρ (by norm_num) (by
      norm_num at hρl hρu ⊢
      nlinarith)
    rw [show (r.val : ℝ) * √(w : ℝ) * ((x.val : ℝ) / √(w : ℝ)) = x.val * r.val by field_simp] at k2
    -- the rounding of the product
    have hr4 : r.val ≤ 4300 := by
      by_contra hcon
      have hcon := not_lt.1 (fun h => hcon (le_of_lt h))
      have : (4300 : ℚ) ^ 2 ≤ r.val ^ 2 := pow_le_pow_left₀ (by norm_num) hcon 2
      have := mul_le_mul w24 this (by norm_num) w0.le
      norm_num at this b2; linarith
    have hov : |x.val * r.val| ≤ 4300 := by
      rw [abs_mul, abs_of_pos r0]
      calc |x.val| * r.val ≤ 1 * 4300 := mul_le_mul h1 hr4 r0.le (by norm_num)
        _ = _ := by norm_num
    obtain ⟨-, v⟩ := mul_val hx fr (lt_of_le_of_lt hov (by unfold ovf; norm_num))
    have e3 : |(x * r).val - x.val * r.val| ≤ 4300 / 2 ^ 24 := by
      rw [v]; exact (RN_err _).trans (max_le (by norm_num) (by gcongr))
    have e3R := abs_cast_le e3
    push_cast at e3R
    have k3 := (arctan_lip ((x * r).val : ℝ) ((x.val : ℝ) * r.val)).trans e3R
    rw [abs_le] at ha k1 k2 k3 ⊢
    norm_num at ha k1 k2 k3 ⊢
    constructor <;> linarith [ha.1, ha.2, k1.1, k1.2, k2.1, k2.2, k3.1, k3.2]
  · -- `|x| = 1`
    rcases eq_one_of_abs heq with rfl | rfl
    · refine ⟨_, asin_one, ?_⟩
      rw [val_one, val_FRAC_PI_2]
      push_cast
      rw [Real.arcsin_one, abs_le]
      norm_num at hpi hpi2 ⊢
      constructor <;> linarith
    · refine ⟨_, asin_neg_one, ?_⟩
      rw [val_neg, val_neg, val_one, val_FRAC_PI_2]
      push_cast
      rw [Real.arcsin_neg_one, abs_le]
      norm_num at hpi hpi2 ⊢
      constructor <;> linarith

/-- The hypotheses of `C82_asin` and `C84_acos` hold for `0.5`. -/
example : (lit 5 10).isFinite = true ∧ (1 : ℚ) / 2 ^ 60 ≤ |(lit 5 10).val| ∧ |(lit 5 10).val| ≤ 1 := by
  have : (lit 5 10).val = 1 / 2 := by rw [val_of_units (u := 2 ^ 148) (by decide +kernel)]; norm_num
  exact ⟨by decide, by rw [this]; norm_num, by rw [this]; norm_num⟩

/-- The arctangent taken by `acos` against the arccosine. -/
theorem acos_core {x : F32} (hx : x.isFinite = true) (h0 : (1 : ℚ) / 2 ^ 60 ≤ |x.val|) (h1 : |x.val| < 1) :
    |Real.arctan ((ONE - x * x).sqrt / x).val - (Real.arccos x.val - if x.val < 0 then Real.pi else 0)| ≤ 0.0299 := by
  obtain ⟨w24, hn, hw⟩ := one_sub_sq_lt hx h1
  obtain ⟨fs, s0, -, -, b1, b2⟩ := C14_sqrt _ hn
  obtain ⟨w, hwd⟩ : ∃ w, w = (ONE - x * x).val := ⟨_, rfl⟩
  have hwR : |(1 - (x.val : ℝ) ^ 2) - (w : ℝ)| ≤ 1 / 2 ^ 24 := by
    have := abs_cast_le hw; push_cast at this; rw [hwd]; exact this
  have hltR : |(x.val : ℝ)| < 1 := by exact_mod_cast h1
  rw [← hwd] at b1 b2 w24
  have w0 : 0 < w := lt_of_lt_of_le (by norm_num) w24
  have w0R : 0 < (w : ℝ) := by exact_mod_cast w0
  have k1 := arctan_near_arcsin hltR w0R hwR
  have hs := Real.sqrt_pos.2 w0R
  generalize (ONE - x * x).sqrt = s at *
  have s0R : 0 < (s.val : ℝ) := by exact_mod_cast s0
  have hx0 : x.val ≠ 0 := fun h => by rw [h, abs_zero] at h0; norm_num at h0
  have hx0R : (x.val : ℝ) ≠ 0 := by exact_mod_cast hx0
  have hsl : (1 : ℚ) / 2 ^ 13 ≤ s.val := by
    have : ((1 / 2 ^ 13 : ℚ) : ℝ) ≤ s.val := by
      refine le_trans ?_ b1
      have : (1 / 2 ^ 12 : ℝ) ≤ √(w : ℝ) := Real.le_sqrt_of_sq_le (by
        have : ((1 / 2 ^ 24 : ℚ) : ℝ) ≤ w := by exact_mod_cast w24
        push_cast at this; norm_num at this ⊢; exact this)
      push_cast
      norm_num at this ⊢
      linarith
    exact_mod_cast this
  have hq1 : (1 : ℚ) / 2 ^ 126 ≤ |s.val / x.val| := by
    rw [abs_div, abs_of_pos s0, le_div_iff₀ (abs_pos.2 hx0)]
    refine le_trans ?_ hsl
    calc (1 : ℚ) / 2 ^ 126 * |x.val| ≤ 1 / 2 ^ 126 * 1 := mul_le_mul_of_nonneg_left h1.le (by norm_num)
      _ ≤ _ := by norm_num
  have hsu : s.val ≤ 2 := by
    have hw2 : √(w : ℝ) ≤ 1.1 := Real.sqrt_le_iff.2 ⟨by norm_num, by
      have := (abs_le.1 hwR).1
      have h3 := sq_nonneg (x.val : ℝ)
      norm_num at this ⊢; linarith⟩
    have : (s.val : ℝ) ≤ ((2 : ℚ) : ℝ) := by push_cast; norm_num at b2 hw2 ⊢; linarith
    exact_mod_cast this
  have hq2 : |s.val / x.val| < ovf := by
    rw [abs_div, abs_of_pos s0, div_lt_iff₀ (abs_pos.2 hx0)]
    refine lt_of_le_of_lt hsu ?_
    have : (1 : ℚ) / 2 ^ 60 * 2 ^ 100 ≤ ovf * |x.val| := by
      rw [mul_comm]; exact mul_le_mul (by unfold ovf; norm_num) h0 (by norm_num) (by unfold ovf; norm_num)
    refine lt_of_lt_of_le ?_ this
    norm_num
  obtain ⟨d, hd, -, vd⟩ := div_rel fs hx hx0 hq1 hq2
  have hdR := abs_cast_le hd
  push_cast at hdR
  have vdR : ((s / x).val : ℝ) = s.val / x.val * (1 + d) := by rw [vd]; push_cast; rfl
  -- the relative error of the argument
  obtain ⟨ρ, hρd⟩ : ∃ ρ, ρ = (s.val : ℝ) / √(w : ℝ) * (1 + d) := ⟨_, rfl⟩
  have ha : ((s / x).val : ℝ) = ρ * (√(w : ℝ) / x.val) := by rw [vdR, hρd]; field_simp
  obtain ⟨d1, d2⟩ := abs_le.1 hdR
  have q1 : 1 - 1 / 2 ^ 22 ≤ (s.val : ℝ) / √(w : ℝ) := by rw [le_div_iff₀ hs]; exact b1
  have q2 : (s.val : ℝ) / √(w : ℝ) ≤ 1.0607 := by rw [div_le_iff₀ hs]; exact b2
  have p1 : 0.9999 ≤ ρ := by
    have := mul_le_mul q1 (show 1 - 1 / 2 ^ 24 ≤ 1 + (d : ℝ) by linarith) (by norm_num) (by positivity)
    rw [← hρd] at this
    norm_num at this ⊢; linarith
  have p2 : ρ ≤ 1.0608 := by
    have := mul_le_mul q2 (show 1 + (d : ℝ) ≤ 1 + 1 / 2 ^ 24 by linarith) (by norm_num at d1 ⊢; linarith) (by norm_num)
    rw [← hρd] at this
    norm_num at this ⊢; linarith
  have k2 := arctan_ratio (b := √(w : ℝ) / x.val) (c := 0.0296) (show 0 < ρ by norm_num at p1; linarith) (by norm_num) (by
    norm_num at p1 p2 ⊢
    nlinarith)
  rw [← ha] at k2
  have e : Real.arctan (√(w : ℝ) / x.val) = Real.pi / 2 - Real.arctan (x.val / √(w : ℝ)) -
      (if x.val < 0 then Real.pi else 0) := by
    have hi : √(w : ℝ) / x.val = ((x.val : ℝ) / √(w : ℝ))⁻¹ := by rw [inv_div]
    rw [hi]
    rcases lt_or_gt_of_ne hx0 with hneg | hpos
    · have : (x.val : ℝ) < 0 := by exact_mod_cast hneg
      rw [Real.arctan_inv_of_neg (div_neg_of_neg_of_pos this hs), if_pos hneg]; ring
    · have : 0 < (x.val : ℝ) := by exact_mod_cast hpos
      rw [Real.arctan_inv_of_pos (div_pos this hs), if_neg (by linarith)]; ring
  rw [e] at k2
  rw [Real.arccos_eq_pi_div_two_sub_arcsin]
  generalize (if x.val < 0 then Real.pi else 0) = P at *
  rw [abs_le] at k1 k2 ⊢
  norm_num at k1 k2 ⊢
  constructor <;> linarith [k1.1, k1.2, k2.1, k2.2]

/-- **C84.** `acos` is within `0.033` of the arccosine for `2^-60 <= |x| <= 1`. -/
theorem C84_acos {x : F32} (hx : x.isFinite = true) (h0 : (1 : ℚ) / 2 ^ 60 ≤ |x.val|) (h1 : |x.val| ≤ 1) :
    |(x.acos.val : ℝ) - Real.arccos x.val| ≤ 0.033 := by
  have hpi := Real.pi_gt_d6
  have hpi2 := Real.pi_lt_d6
  rcases lt_or_eq_of_le h1 with hlt | heq
  · have hc := acos_core hx h0 hlt
    obtain ⟨f, hb, hsg⟩ := acos_arg hx h0 h1
    obtain ⟨-, -, -, -, fa, ha', -, ha⟩ := C38_atan f hb
    have hz : x.val ≠ 0 := fun h => by rw [h, abs_zero] at h0; norm_num at h0
    unfold F32.acos
    rcases lt_or_gt_of_ne hz with hneg | hpos
    · have hgt : ¬ x.gt posZero = true := fun h => by
        have := (gt_iff hx fin_posZero).1 h
        rw [val_posZero] at this; linarith
      have hfe : ¬ x.feq posZero = true := fun h => by
        have := (feq_iff hx fin_posZero).1 h
        rw [val_posZero] at this; linarith
      rw [if_neg hgt, if_neg hfe]
      rw [if_pos hneg] at hc
      obtain ⟨d, hd, -, vd⟩ := add_err fa fin_PI 3 (by norm_num) (by norm_num) (by
        refine (abs_add_le _ _).trans ((add_le_add ha' le_rfl).trans ?_)
        rw [val_FRAC_PI_2, val_PI]; norm_num)
      have hdR := abs_cast_le hd
      push_cast at hdR
      rw [vd, val_PI]
      push_cast
      rw [abs_le] at ha hc hdR ⊢
      norm_num at ha hc hdR hpi hpi2 ⊢
      constructor <;> linarith [ha.1, ha.2, hc.1, hc.2, hdR.1, hdR.2]
    · have hgt : x.gt posZero = true := (gt_iff hx fin_posZero).2 (by rw [val_posZero]; exact hpos)
      rw [if_pos hgt]
      rw [if_neg (by linarith)] at hc
      rw [abs_le] at ha hc ⊢
      norm_num at ha hc ⊢
      constructor <;> linarith [ha.1, ha.2, hc.1, hc.2]
  · rcases eq_one_of_abs heq with rfl | rfl
    · rw [acos_one, val_one]
      push_cast
      rw [Real.arccos_one, sub_zero]
      have h : |(⟨0x1fb3d15e#32⟩ : F32).val| ≤ 1 / 1000 := by
        rw [val_of_units (u := 11784542 * 2 ^ 62) (by decide +kernel)]; norm_num
      have := abs_cast_le h
      push_cast at this
      norm_num at this ⊢; linarith
    · rw [acos_neg_one, val_neg, val_one, val_PI]
      push_cast
      rw [Real.arccos_neg_one, abs_le]
      norm_num at hpi hpi2 ⊢
      constructor <;> linarith

end Micromath.Props
