import Verif.Real.PolyPos
import Mathlib.Analysis.SpecialFunctions.Trigonometric.ArctanDeriv
import Mathlib.Analysis.SpecialFunctions.Trigonometric.Arctan
import Mathlib.Analysis.Calculus.Deriv.MeanValue
import Mathlib.Analysis.Real.Pi.Bounds
import Mathlib.Algebra.Field.GeomSum
import Mathlib.Tactic.FieldSimp

/-!
# Taylor bounds for `arctan` and the error of its rational approximation

`(B x + x^2) / (1 + 2 B x + x^2)` approximates `(2/π) arctan x`.
-/

namespace Micromath.RealAux
open Real Poly

/-- Taylor polynomial of `arctan` with `n` terms. -/
noncomputable def atanT (n : Nat) (z : ℝ) : ℝ := ∑ k ∈ Finset.range n, (-1) ^ k * z ^ (2 * k + 1) / (2 * k + 1)

theorem atanT_deriv (n : Nat) (z : ℝ) : HasDerivAt (atanT n) (∑ k ∈ Finset.range n, (-z ^ 2) ^ k) z := by
  unfold atanT
  have : ∀ k ∈ Finset.range n, HasDerivAt (fun z : ℝ => (-1) ^ k * z ^ (2 * k + 1) / (2 * k + 1)) ((-z ^ 2) ^ k) z := by
    intro k _
    have h := ((hasDerivAt_pow (2 * k + 1) z).const_mul ((-1 : ℝ) ^ k)).div_const (2 * (k : ℝ) + 1)
    refine h.congr_deriv ?_
    have : (2 * (k : ℝ) + 1) ≠ 0 := by positivity
    push_cast
    rw [neg_pow (z ^ 2), ← pow_mul]
    field_simp
  exact HasDerivAt.fun_sum this

/-- The Taylor polynomials of `arctan` alternate around it on `[0, ∞)`. -/
theorem atanT_alt (n : Nat) {z : ℝ} (hz : 0 ≤ z) : 0 ≤ (-1) ^ n * (arctan z - atanT n z) := by
  have hd : ∀ x : ℝ, HasDerivAt (fun x => (-1) ^ n * (arctan x - atanT n x)) (x ^ (2 * n) / (1 + x ^ 2)) x := by
    intro x
    have h := ((hasDerivAt_arctan x).sub (atanT_deriv n x)).const_mul ((-1 : ℝ) ^ n)
    refine HasDerivAt.congr_deriv (f := fun x => (-1) ^ n * (arctan x - atanT n x)) h ?_
    have h1 : (1 + x ^ 2) ≠ 0 := by positivity
    have hg := geom_sum_eq (x := -x ^ 2) (by nlinarith [sq_nonneg x]) n
    rw [hg, neg_pow (x ^ 2), ← pow_mul]
    have h2 : -x ^ 2 - 1 ≠ 0 := by nlinarith [sq_nonneg x]
    have h3 : ((-1 : ℝ) ^ n) * (-1) ^ n = 1 := by rw [← mul_pow]; simp
    have h4 : (-x ^ 2 - 1) = -(1 + x ^ 2) := by ring
    rw [h4, div_neg]
    field_simp
    linear_combination x ^ (2 * n) * h3
  have hm : MonotoneOn (fun x => (-1) ^ n * (arctan x - atanT n x)) (Set.Ici 0) := by
    apply monotoneOn_of_deriv_nonneg (convex_Ici 0)
    · exact fun x _ => (hd x).continuousAt.continuousWithinAt
    · exact fun x _ => (hd x).differentiableAt.differentiableWithinAt
    · intro x _
      rw [(hd x).deriv, pow_mul]; positivity
  have := hm (Set.mem_Ici.2 le_rfl) (Set.mem_Ici.2 hz) hz
  simpa [atanT] using this

/-- Coefficients of `atanT 6` and `atanT 7`. -/
def T6 : List ℚ := [0, 1, 0, -1/3, 0, 1/5, 0, -1/7, 0, 1/9, 0, -1/11]
def T7 : List ℚ := [0, 1, 0, -1/3, 0, 1/5, 0, -1/7, 0, 1/9, 0, -1/11, 0, 1/13]

theorem arctan_ge_T6 {z : ℝ} (hz : 0 ≤ z) : ev T6 z ≤ arctan z := by
  have := atanT_alt 6 hz
  have e : ev T6 z = atanT 6 z := by
    simp only [ev_cons, ev_nil, T6, atanT, Finset.sum_range_succ, Finset.sum_range_zero]; push_cast; ring
  rw [e]
  have h : (-1 : ℝ) ^ 6 = 1 := by norm_num
  rw [h] at this; linarith

theorem arctan_le_T7 {z : ℝ} (hz : 0 ≤ z) : arctan z ≤ ev T7 z := by
  have := atanT_alt 7 hz
  have e : ev T7 z = atanT 7 z := by
    simp only [ev_cons, ev_nil, T7, atanT, Finset.sum_range_succ, Finset.sum_range_zero]; push_cast; ring
  rw [e]
  have h : (-1 : ℝ) ^ 7 = -1 := by norm_num
  rw [h] at this; linarith

/-- The constant `B` of the approximation (the value of the `f32` literal `0.596227`). -/
def cB : ℚ := 10003029 / 16777216
/-- The value of the `f32` constant `FRAC_PI_2`. -/
def cH : ℚ := 13176795 / 8388608

/-- The approximation of `(2/π) arctan x` for `x >= 0`. -/
noncomputable def gA (x : ℝ) : ℝ := (cB * x + x ^ 2) / (1 + 2 * cB * x + x ^ 2)

theorem gA_den_pos {x : ℝ} (h : 0 ≤ x) : 0 < 1 + 2 * (cB : ℝ) * x + x ^ 2 := by
  have : (0 : ℝ) ≤ cB := by norm_num [cB]
  positivity

theorem atan_small {x : ℝ} (h0 : 0 ≤ x) (h1 : x ≤ 0.42) : |cH * gA x - arctan x| ≤ 0.00283 := by
  have hD := gA_den_pos h0
  have l := arctan_ge_T6 h0
  have u := arctan_le_T7 h0
  have hN : (cH : ℝ) * gA x = cH * (cB * x + x ^ 2) / (1 + 2 * cB * x + x ^ 2) := by rw [gA]; ring
  have p1 := posOn_sound (n := 10) (a := 0) (b := 42 / 100) (x := x)
    (p := padd (pmul [1, 2 * cB, 1] (padd [283 / 100000] T6)) (psmul (-cH) [0, cB, 1])) (by decide +kernel)
    (by simpa using h0) (by push_cast; linarith)
  have p2 := posOn_sound (n := 10) (a := 0) (b := 42 / 100) (x := x)
    (p := padd (pmul [1, 2 * cB, 1] (padd [283 / 100000] (psmul (-1) T7))) (psmul cH [0, cB, 1])) (by decide +kernel)
    (by simpa using h0) (by push_cast; linarith)
  simp only [ev_padd, ev_pmul, ev_psmul, ev_cons, ev_nil] at p1 p2
  push_cast at p1 p2
  rw [hN, abs_le]
  constructor
  · rw [neg_le_sub_iff_le_add, ← sub_le_iff_le_add, le_div_iff₀ hD]
    nlinarith
  · rw [sub_le_iff_le_add, div_le_iff₀ hD]
    nlinarith

theorem arctan_compl {z : ℝ} (h0 : 0 ≤ z) : arctan ((1 - z) / (1 + z)) = π / 4 - arctan z := by
  have h1 : (1 + z) ≠ 0 := by positivity
  have h2 : 1 + z ^ 2 ≠ 0 := by positivity
  have hlt : (1 - z) / (1 + z) * z < 1 := by
    rw [div_mul_eq_mul_div, div_lt_one (by positivity)]; nlinarith [sq_nonneg z]
  have := arctan_add hlt
  have e : ((1 - z) / (1 + z) + z) / (1 - (1 - z) / (1 + z) * z) = 1 := by
    rw [div_eq_one_iff_eq (by linarith)]
    field_simp; ring
  rw [e, arctan_one] at this
  linarith

theorem atan_mid {x : ℝ} (h0 : 0.41 ≤ x) (h1 : x ≤ 1) : |cH * gA x - arctan x| ≤ 0.00283 := by
  obtain ⟨z, hz⟩ : ∃ z, z = (1 - x) / (1 + x) := ⟨_, rfl⟩
  have hxp : (0 : ℝ) < 1 + x := by linarith
  have z0 : 0 ≤ z := by rw [hz]; exact div_nonneg (by linarith) hxp.le
  have z1 : z ≤ 0.42 := by rw [hz, div_le_iff₀ hxp]; linarith
  have hx : x = (1 - z) / (1 + z) := by
    rw [eq_div_iff (by positivity), hz]; field_simp; ring
  have hD := gA_den_pos (x := x) (by linarith)
  have hD' : 0 < (1 + cB : ℝ) + (1 - cB) * z ^ 2 := by
    have : (0 : ℝ) ≤ 1 - cB := by norm_num [cB]
    have : (0 : ℝ) < 1 + cB := by norm_num [cB]
    positivity
  have hg : gA x = ((1 - z) ^ 2 + cB * (1 - z ^ 2)) / (2 * ((1 + cB) + (1 - cB) * z ^ 2)) := by
    have h1z : (1 + z) ≠ 0 := by positivity
    rw [gA, div_eq_div_iff hD.ne' (by positivity)]
    rw [hx]; field_simp; ring
  rw [hx, arctan_compl z0, ← hx, hg]
  have l := arctan_ge_T6 z0
  have u := arctan_le_T7 z0
  have pl := Real.pi_gt_d6
  have pu := Real.pi_lt_d6
  have hN : (cH : ℝ) * (((1 - z) ^ 2 + cB * (1 - z ^ 2)) / (2 * ((1 + cB) + (1 - cB) * z ^ 2))) =
      (cH / 2 * ((1 - z) ^ 2 + cB * (1 - z ^ 2))) / ((1 + cB) + (1 - cB) * z ^ 2) := by field_simp
  have p1 := posOn_sound (n := 10) (a := 0) (b := 42 / 100) (x := z)
    (p := padd (pmul [1 + cB, 0, 1 - cB] (padd [283 / 100000 + 3141592 / 4000000] (psmul (-1) T7)))
      (psmul (-cH / 2) [1 + cB, -2, 1 - cB])) (by decide +kernel)
    (by simpa using z0) (by push_cast; linarith)
  have p2 := posOn_sound (n := 10) (a := 0) (b := 42 / 100) (x := z)
    (p := padd (pmul [1 + cB, 0, 1 - cB] (padd [283 / 100000 - 3141593 / 4000000] T6))
      (psmul (cH / 2) [1 + cB, -2, 1 - cB])) (by decide +kernel)
    (by simpa using z0) (by push_cast; linarith)
  simp only [ev_padd, ev_pmul, ev_psmul, ev_cons, ev_nil] at p1 p2
  push_cast at p1 p2
  rw [hN, abs_le]
  constructor
  · rw [neg_le_sub_iff_le_add, ← sub_le_iff_le_add, le_div_iff₀ hD']
    nlinarith
  · rw [sub_le_iff_le_add, div_le_iff₀ hD']
    nlinarith

/-- The rational approximation is within `0.002831` of `arctan` on all of `[0, ∞)`. -/
theorem atan_approx {x : ℝ} (h0 : 0 ≤ x) : |cH * gA x - arctan x| ≤ 0.002831 := by
  have hle : ∀ y : ℝ, 0 ≤ y → y ≤ 1 → |cH * gA y - arctan y| ≤ 0.00283 := by
    intro y y0 y1
    rcases le_total y 0.42 with h | h
    · exact atan_small y0 h
    · exact atan_mid (by linarith) y1
  rcases le_total x 1 with h | h
  · exact (hle x h0 h).trans (by norm_num)
  · have hx : 0 < x := by linarith
    have hi := hle x⁻¹ (by positivity) (inv_le_one_of_one_le₀ h)
    have hg : gA x⁻¹ = 1 - gA x := by
      have := gA_den_pos h0
      have := gA_den_pos (inv_nonneg.2 h0)
      rw [gA, gA, eq_sub_iff_add_eq, div_add_div _ _ (by positivity) (by positivity), div_eq_one_iff_eq (by positivity)]
      field_simp; ring
    rw [hg, arctan_inv_of_pos hx] at hi
    have pl := Real.pi_gt_d6
    have pu := Real.pi_lt_d6
    have e : (cH : ℝ) = 13176795 / 8388608 := by norm_num [cH]
    rw [abs_le] at hi ⊢
    rw [e] at hi ⊢
    constructor <;> nlinarith [hi.1, hi.2]

theorem gA_nonneg {x : ℝ} (h : 0 ≤ x) : 0 ≤ gA x := by
  have : (0 : ℝ) ≤ cB := by norm_num [cB]
  unfold gA; positivity

theorem gA_le_one {x : ℝ} (h : 0 ≤ x) : gA x ≤ 1 := by
  have : (0 : ℝ) ≤ cB := by norm_num [cB]
  rw [gA, div_le_one (gA_den_pos h)]
  nlinarith [mul_nonneg this h]

end Micromath.RealAux
