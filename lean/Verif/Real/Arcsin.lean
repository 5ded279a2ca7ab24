import Mathlib.Analysis.SpecialFunctions.Trigonometric.Arctan
import Mathlib.Analysis.SpecialFunctions.Trigonometric.Bounds
import Mathlib.Tactic.FieldSimp
import Mathlib.Tactic.LinearCombination

/-!
# How perturbations move `arctan`, for `asin` and `acos`
-/

namespace Micromath.RealAux
open Real

theorem abs_arctan_le (t : ℝ) : |arctan t| ≤ |t| := by
  have pos : ∀ u : ℝ, 0 < u → arctan u ≤ u := by
    intro u hu
    have := Real.lt_tan (x := arctan u) (by rwa [← arctan_zero, arctan_lt_arctan_iff]) (arctan_lt_pi_div_two u)
    rw [tan_arctan] at this
    exact this.le
  rcases lt_trichotomy t 0 with h | h | h
  · have := pos (-t) (by linarith)
    rw [arctan_neg] at this
    rw [abs_of_neg h, abs_of_neg (by rwa [← arctan_zero, arctan_lt_arctan_iff])]
    exact this
  · rw [h]; simp
  · rw [abs_of_pos h, abs_of_pos (by rwa [← arctan_zero, arctan_lt_arctan_iff])]
    exact pos t h

theorem arctan_sub_eq {a b : ℝ} (h : 0 ≤ a * b) : arctan a - arctan b = arctan ((a - b) / (1 + a * b)) := by
  have := arctan_add (x := a) (y := -b) (by linarith)
  rw [arctan_neg] at this
  rw [sub_eq_add_neg, this]
  congr 1
  ring

/-- A relative change of the argument by `ρ`. -/
theorem arctan_ratio {b ρ c : ℝ} (hρ : 0 < ρ) (hc : 0 ≤ c) (h : (ρ - 1) ^ 2 ≤ 4 * c ^ 2 * ρ) :
    |arctan (ρ * b) - arctan b| ≤ c := by
  have hb : 0 ≤ ρ * b * b := by nlinarith [mul_self_nonneg b]
  rw [arctan_sub_eq hb]
  refine (abs_arctan_le _).trans ?_
  have hp : 0 < 1 + ρ * b * b := by linarith
  rw [abs_div, abs_of_pos hp, div_le_iff₀ hp]
  refine abs_le_of_sq_le_sq ?_ (by positivity)
  have h1 : (ρ * b - b) ^ 2 ≤ 4 * c ^ 2 * ρ * b ^ 2 := by
    have := mul_le_mul_of_nonneg_right h (sq_nonneg b)
    calc (ρ * b - b) ^ 2 = (ρ - 1) ^ 2 * b ^ 2 := by ring
      _ ≤ _ := this
  have h2 : 0 ≤ c ^ 2 * (1 - ρ * b * b) ^ 2 := by positivity
  nlinarith

/-- An absolute change. -/
theorem arctan_lip (a b : ℝ) : |arctan a - arctan b| ≤ |a - b| := by
  rcases le_total 0 (a * b) with h | h
  · rw [arctan_sub_eq h]
    refine (abs_arctan_le _).trans ?_
    rw [abs_div, abs_of_pos (show 0 < 1 + a * b by linarith)]
    exact div_le_self (abs_nonneg _) (by linarith)
  · have hab : |a - b| = |a| + |b| := by
      rcases le_total 0 a with ha | ha
      · rcases le_total 0 b with hb | hb
        · have : a * b = 0 := le_antisymm h (mul_nonneg ha hb)
          rcases mul_eq_zero.1 this with h0 | h0
          · simp [h0]
          · simp [h0]
        · rw [abs_of_nonneg ha, abs_of_nonpos hb, abs_of_nonneg (by linarith)]; ring
      · rcases le_total 0 b with hb | hb
        · rw [abs_of_nonpos ha, abs_of_nonneg hb, abs_of_nonpos (by linarith)]; ring
        · have : a * b = 0 := le_antisymm h (mul_nonneg_of_nonpos_of_nonpos ha hb)
          rcases mul_eq_zero.1 this with h0 | h0
          · simp [h0]
          · simp [h0]
    rw [hab]
    exact (abs_sub _ _).trans (add_le_add (abs_arctan_le a) (abs_arctan_le b))

theorem sqrt_diff_le {v w e : ℝ} (hv : 0 ≤ v) (hw : 0 ≤ w) (he : 0 ≤ e) (h : |v - w| ≤ e ^ 2) : |√v - √w| ≤ e := by
  refine abs_le_of_sq_le_sq ?_ he
  have h1 := sq_sqrt hv
  have h2 := sq_sqrt hw
  have h3 := sqrt_nonneg v
  have h4 := sqrt_nonneg w
  obtain ⟨h5, h6⟩ := abs_le.1 h
  rcases le_total (√v) (√w) with h7 | h7 <;> nlinarith

/-- `1 - x^2` replaced by `w`, at most `2^-24` away. -/
theorem arctan_near_arcsin {x w : ℝ} (hx : |x| < 1) (hw : 0 < w) (h : |(1 - x ^ 2) - w| ≤ 1 / 2 ^ 24) :
    |arctan (x / √w) - arcsin x| ≤ 0.0003 := by
  obtain ⟨x1, x2⟩ := abs_lt.1 hx
  rw [arcsin_eq_arctan ⟨x1, x2⟩]
  have hv : 0 < 1 - x ^ 2 := by nlinarith
  obtain ⟨v, hvd⟩ : ∃ v, v = 1 - x ^ 2 := ⟨_, rfl⟩
  rw [← hvd] at h hv ⊢
  have sv := sqrt_pos.2 hv
  have sw := sqrt_pos.2 hw
  have e1 : x / √w * (x / √v) = x ^ 2 / (√w * √v) := by field_simp
  rw [arctan_sub_eq (by rw [e1]; positivity)]
  refine (abs_arctan_le _).trans ?_
  have e2 : (x / √w - x / √v) / (1 + x / √w * (x / √v)) = x * (√v - √w) / (√w * √v + x ^ 2) := by
    rw [e1]; field_simp
  rw [e2, abs_div, abs_mul, abs_of_pos (show 0 < √w * √v + x ^ 2 by positivity), div_le_iff₀ (by positivity)]
  have hx0 := abs_nonneg x
  have hxx : x ^ 2 = |x| ^ 2 := (sq_abs x).symm
  rcases le_total 0.9 |x| with h9 | h9
  · have h1 : |√v - √w| ≤ 1 / 2 ^ 12 := sqrt_diff_le hv.le hw.le (by norm_num) (by norm_num at h ⊢; exact h)
    have h2 : |x| * |√v - √w| ≤ |x| * (1 / 2 ^ 12) := mul_le_mul_of_nonneg_left h1 hx0
    have h3 : 0 < √w * √v := by positivity
    rw [hxx]
    norm_num at h2 h9 ⊢
    nlinarith
  · have hv1 : 0.19 ≤ v := by rw [hvd, hxx]; norm_num at h9 ⊢; nlinarith
    obtain ⟨h1, h2⟩ := abs_le.1 h
    have hw1 : 0.16 ≤ w := by norm_num at *; linarith
    have s1 : (0.4 : ℝ) ≤ √v := le_sqrt_of_sq_le (by norm_num at *; linarith)
    have s2 : (0.4 : ℝ) ≤ √w := le_sqrt_of_sq_le (by norm_num at *; linarith)
    have h3 : |√v - √w| ≤ 1 / 2 ^ 24 / 0.8 := by
      rw [le_div_iff₀ (by norm_num)]
      refine le_trans ?_ h
      have : v - w = (√v - √w) * (√v + √w) := by
        have a1 := sq_sqrt hv.le
        have a2 := sq_sqrt hw.le
        linear_combination -a1 + a2
      rw [this, abs_mul, abs_of_pos (show 0 < √v + √w by positivity)]
      refine mul_le_mul_of_nonneg_left ?_ (abs_nonneg _)
      norm_num at *; linarith
    have h4 : |x| * |√v - √w| ≤ 1 * (1 / 2 ^ 24 / 0.8) := mul_le_mul hx.le h3 (abs_nonneg _) (by norm_num)
    have h5 : (0.4 : ℝ) * 0.4 ≤ √w * √v := mul_le_mul s2 s1 (by norm_num) (by positivity)
    have h6 := sq_nonneg x
    norm_num at h4 h5 ⊢
    linarith

end Micromath.RealAux
