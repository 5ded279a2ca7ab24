import Verif.Real.QuatGeom
import Mathlib.Analysis.SpecialFunctions.Trigonometric.Basic
import Mathlib.Tactic.LinearCombination

/-!
# Rodrigues' rotation formula

Pure mathematics over the real quaternions: turning about an axis `n` by the angle `2 phi`.
-/

namespace Micromath.Geom
open _root_.Quaternion

/-- Rodrigues' formula: the vector `v` turned about the axis `n` by `t`, right-handed; `n` of length one. -/
noncomputable def turned (n1 n2 n3 v1 v2 v3 t : ℝ) : ℍ[ℝ] :=
  pure (Real.cos t * v1 + Real.sin t * (n2 * v3 - n3 * v2) + (1 - Real.cos t) * (n1 * v1 + n2 * v2 + n3 * v3) * n1)
    (Real.cos t * v2 + Real.sin t * (n3 * v1 - n1 * v3) + (1 - Real.cos t) * (n1 * v1 + n2 * v2 + n3 * v3) * n2)
    (Real.cos t * v3 + Real.sin t * (n1 * v2 - n2 * v1) + (1 - Real.cos t) * (n1 * v1 + n2 * v2 + n3 * v3) * n3)

/-- The quaternion of a turn. -/
noncomputable def turnQ (n1 n2 n3 t : ℝ) : ℍ[ℝ] := ⟨Real.cos (t / 2), n1 * Real.sin (t / 2), n2 * Real.sin (t / 2), n3 * Real.sin (t / 2)⟩

theorem turnQ_re (n1 n2 n3 t : ℝ) : (turnQ n1 n2 n3 t).re = Real.cos (t / 2) := rfl
theorem turnQ_imI (n1 n2 n3 t : ℝ) : (turnQ n1 n2 n3 t).imI = n1 * Real.sin (t / 2) := rfl
theorem turnQ_imJ (n1 n2 n3 t : ℝ) : (turnQ n1 n2 n3 t).imJ = n2 * Real.sin (t / 2) := rfl
theorem turnQ_imK (n1 n2 n3 t : ℝ) : (turnQ n1 n2 n3 t).imK = n3 * Real.sin (t / 2) := rfl

/-- The sandwich product is the turn, up to the deviation of the squared length of the axis from one. -/
theorem turnQ_sandwich (n1 n2 n3 v1 v2 v3 t : ℝ) :
    turnQ n1 n2 n3 t * pure v1 v2 v3 * star (turnQ n1 n2 n3 t) =
      turned n1 n2 n3 v1 v2 v3 t - ((n1 ^ 2 + n2 ^ 2 + n3 ^ 2 - 1) * Real.sin (t / 2) ^ 2) • pure v1 v2 v3 := by
  have hc : Real.cos t = 2 * Real.cos (t / 2) ^ 2 - 1 := by rw [← Real.cos_two_mul]; congr 1; ring
  have hs : Real.sin t = 2 * Real.sin (t / 2) * Real.cos (t / 2) := by rw [← Real.sin_two_mul]; congr 1; ring
  have h1 := Real.sin_sq_add_cos_sq (t / 2)
  have e1 : Real.cos (t / 2) ^ 2 = 1 - Real.sin (t / 2) ^ 2 := by linarith
  rw [turned, hc, hs]
  obtain ⟨c, hc⟩ : ∃ c, c = Real.cos (t / 2) := ⟨_, rfl⟩
  obtain ⟨s, hs⟩ : ∃ s, s = Real.sin (t / 2) := ⟨_, rfl⟩
  rw [← hc, ← hs] at e1 ⊢
  ext <;>
  · simp only [Quaternion.re_mul, Quaternion.imI_mul, Quaternion.imJ_mul, Quaternion.imK_mul, Quaternion.re_star, Quaternion.imI_star,
      Quaternion.imJ_star, Quaternion.imK_star, Quaternion.re_sub, Quaternion.imI_sub, Quaternion.imJ_sub, Quaternion.imK_sub,
      Quaternion.re_smul, Quaternion.imI_smul, Quaternion.imJ_smul, Quaternion.imK_smul, pure_re, pure_imI, pure_imJ, pure_imK,
      turnQ_re, turnQ_imI, turnQ_imJ, turnQ_imK, smul_eq_mul, ← hc, ← hs]
    ring_nf
    try rw [e1]
    try ring

theorem turnQ_norm {n1 n2 n3 t δ : ℝ} (hn : n1 ^ 2 + n2 ^ 2 + n3 ^ 2 = 1 + δ) : ‖turnQ n1 n2 n3 t‖ ≤ 1 + |δ| := by
  have h1 := Real.sin_sq_add_cos_sq (t / 2)
  have h2 : ‖turnQ n1 n2 n3 t‖ ^ 2 = 1 + δ * Real.sin (t / 2) ^ 2 := by
    rw [norm_sq_eq, turnQ_re, turnQ_imI, turnQ_imJ, turnQ_imK]
    linear_combination h1 + hn * Real.sin (t / 2) ^ 2
  have h3 := le_abs_self δ
  have h4 := abs_nonneg δ
  have h5 := sq_nonneg (Real.sin (t / 2))
  have h6 := sq_nonneg (Real.cos (t / 2))
  refine (sq_le_sq₀ (norm_nonneg _) (by positivity)).1 ?_
  rw [h2]
  nlinarith

/-- A quaternion within `ε` of the one of a turn, about an axis of squared length `1 + δ`, turns every vector up to
`ε (2 + 2|δ| + ε) + |δ|`. -/
theorem turn_near {n1 n2 n3 v1 v2 v3 t δ ε : ℝ} {q : ℍ[ℝ]} (hn : n1 ^ 2 + n2 ^ 2 + n3 ^ 2 = 1 + δ) (hq : ‖q - turnQ n1 n2 n3 t‖ ≤ ε) :
    ‖q * pure v1 v2 v3 * star q - turned n1 n2 n3 v1 v2 v3 t‖ ≤ (ε * (2 + 2 * |δ| + ε) + |δ|) * ‖pure v1 v2 v3‖ := by
  have e0 : 0 ≤ ε := (norm_nonneg _).trans hq
  have hN := turnQ_norm (t := t) hn
  obtain ⟨p, hp⟩ : ∃ p, p = turnQ n1 n2 n3 t := ⟨_, rfl⟩
  obtain ⟨V, hV⟩ : ∃ V, V = pure v1 v2 v3 := ⟨_, rfl⟩
  have hs := turnQ_sandwich n1 n2 n3 v1 v2 v3 t
  rw [← hp, ← hV] at hs
  rw [← hp] at hN hq
  rw [← hV]
  have hqn : ‖q‖ ≤ 1 + |δ| + ε := by
    have := norm_add_le (q - p) p
    rw [sub_add_cancel] at this
    linarith
  have e : q * V * star q - turned n1 n2 n3 v1 v2 v3 t = (q - p) * V * star q + p * V * star (q - p)
      - ((n1 ^ 2 + n2 ^ 2 + n3 ^ 2 - 1) * Real.sin (t / 2) ^ 2) • V := by
    rw [star_sub, ← sub_eq_zero]
    have : turned n1 n2 n3 v1 v2 v3 t = p * V * star p + ((n1 ^ 2 + n2 ^ 2 + n3 ^ 2 - 1) * Real.sin (t / 2) ^ 2) • V := by
      rw [hs]; abel
    rw [this]
    noncomm_ring
  rw [e]
  have hV0 := norm_nonneg V
  refine (norm_sub_le _ _).trans ?_
  have t1 : ‖(q - p) * V * star q‖ ≤ ε * ‖V‖ * (1 + |δ| + ε) := by
    rw [norm_mul, norm_mul, Quaternion.norm_star]
    exact mul_le_mul (mul_le_mul_of_nonneg_right hq hV0) hqn (norm_nonneg _) (by positivity)
  have t2 : ‖p * V * star (q - p)‖ ≤ (1 + |δ|) * ‖V‖ * ε := by
    rw [norm_mul, norm_mul, Quaternion.norm_star]
    exact mul_le_mul (mul_le_mul_of_nonneg_right hN hV0) hq (norm_nonneg _) (by positivity)
  have t3 : ‖((n1 ^ 2 + n2 ^ 2 + n3 ^ 2 - 1) * Real.sin (t / 2) ^ 2) • V‖ ≤ |δ| * ‖V‖ := by
    rw [norm_smul, hn, add_sub_cancel_left, Real.norm_eq_abs, abs_mul, abs_of_nonneg (sq_nonneg (Real.sin (t / 2)))]
    refine mul_le_mul_of_nonneg_right ?_ hV0
    have h5 := sq_nonneg (Real.cos (t / 2))
    have h1 := Real.sin_sq_add_cos_sq (t / 2)
    exact mul_le_of_le_one_right (abs_nonneg _) (by linarith)
  have := norm_add_le ((q - p) * V * star q) (p * V * star (q - p))
  nlinarith

end Micromath.Geom
