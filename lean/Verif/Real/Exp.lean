import Verif.Real.PolyPos
import Mathlib.Analysis.Complex.ExponentialBounds
import Mathlib.Analysis.SpecialFunctions.Log.Basic

/-!
# The degree four Taylor polynomial of `exp` on `|g| ≤ log 2`
-/

namespace Micromath.RealAux
open Real Poly

/-- The nested Taylor polynomial evaluated by `exp_smallx` with four terms. -/
noncomputable def T4 (g : ℝ) : ℝ := 1 + g * (1 + g / 2 * (1 + g / 3 * (1 + g / 4)))

theorem T6_bound {g : ℝ} (h : |g| ≤ 0.69316) :
    |exp g - (1 + g + g ^ 2 / 2 + g ^ 3 / 6 + g ^ 4 / 24 + g ^ 5 / 120 + g ^ 6 / 720)| ≤ 1.8 / 10 ^ 5 := by
  have hb := Real.exp_bound (x := g) (h.trans (by norm_num)) (n := 7) (by norm_num)
  simp only [Finset.sum_range_succ, Finset.sum_range_zero, Nat.factorial] at hb
  norm_num at hb
  have h7 : |g| ^ 7 ≤ 0.69316 ^ 7 := pow_le_pow_left₀ (abs_nonneg g) h 7
  refine hb.trans ?_
  norm_num at h7 ⊢
  linarith

theorem T4_facts {g : ℝ} (h : |g| ≤ 0.69316) :
    |T4 g - exp g| ≤ 0.0025 * exp g ∧ 0.5005 ≤ T4 g ∧ T4 g ≤ 1.9995 := by
  obtain ⟨h1, h2⟩ := abs_le.1 (T6_bound h)
  obtain ⟨g1, g2⟩ := abs_le.1 h
  have lo : (((-69316 / 100000 : ℚ)) : ℝ) ≤ g := by push_cast; norm_num at g1 ⊢; linarith
  have hi : g ≤ ((69316 / 100000 : ℚ) : ℝ) := by push_cast; norm_num at g2 ⊢; linarith
  -- `1.0025 * (T6 - d) - T4`
  have p1 := posOn_sound (n := 10) (a := -69316 / 100000) (b := 69316 / 100000) (x := g)
    (p := [25 / 10000 - 2 / 10 ^ 5, 25 / 10000, 25 / 20000, 25 / 60000, 25 / 240000, 10025 / 1200000, 10025 / 7200000])
    (by decide +kernel) lo hi
  have p2 := posOn_sound (n := 10) (a := -69316 / 100000) (b := 69316 / 100000) (x := g)
    (p := [25 / 10000 - 2 / 10 ^ 5, 25 / 10000, 25 / 20000, 25 / 60000, 25 / 240000, -9975 / 1200000, -9975 / 7200000])
    (by decide +kernel) lo hi
  have p3 := posOn_sound (n := 10) (a := -69316 / 100000) (b := 69316 / 100000) (x := g)
    (p := [1 - 5005 / 10000, 1, 1 / 2, 1 / 6, 1 / 24]) (by decide +kernel) lo hi
  have p4 := posOn_sound (n := 10) (a := -69316 / 100000) (b := 69316 / 100000) (x := g)
    (p := [19995 / 10000 - 1, -1, -1 / 2, -1 / 6, -1 / 24]) (by decide +kernel) lo hi
  simp only [ev_cons, ev_nil] at p1 p2 p3 p4
  push_cast at p1 p2 p3 p4
  unfold T4
  refine ⟨?_, ?_, ?_⟩
  · rw [abs_le]
    norm_num at h1 h2 p1 p2 ⊢
    constructor <;> linarith
  · norm_num at p3 ⊢; linarith
  · norm_num at p4 ⊢; linarith

/-- Scaling and a small error of the exponent. -/
theorem exp_scale {x g P : ℝ} {k : ℤ} (hη : |x - (g + k * log 2)| ≤ 3 / 10 ^ 5) (hP : |P - exp g| ≤ 0.00251 * exp g) :
    |P * 2 ^ k - exp x| ≤ 0.003 * exp x := by
  obtain ⟨η, hηd⟩ : ∃ η, η = x - (g + k * log 2) := ⟨_, rfl⟩
  rw [← hηd] at hη
  have e1 : exp x = exp g * 2 ^ k * exp η := by
    rw [show x = g + k * log 2 + η by rw [hηd]; ring, exp_add, exp_add]
    congr 2
    rw [mul_comm, exp_mul, exp_log (by norm_num)]
    exact rpow_intCast 2 k
  obtain ⟨η1, η2⟩ := abs_le.1 hη
  have l1 : 1 - 3 / 10 ^ 5 ≤ exp η := by have := add_one_le_exp η; linarith
  have l2 : exp η ≤ 1 + 4 / 10 ^ 5 := by
    have h := add_one_le_exp (-η)
    rw [exp_neg] at h
    have hp := exp_pos η
    have : (1 - η) * exp η ≤ 1 := by
      have := mul_le_mul_of_nonneg_right h hp.le
      rw [inv_mul_cancel₀ hp.ne'] at this
      linarith
    norm_num at η2 l1 ⊢
    nlinarith
  have hg := exp_pos g
  have h2 : (0 : ℝ) < 2 ^ k := by positivity
  rw [e1]
  have hA : P * 2 ^ k - exp g * 2 ^ k * exp η = (P - exp g) * 2 ^ k + exp g * 2 ^ k * (1 - exp η) := by ring
  rw [hA]
  have t1 : |(P - exp g) * 2 ^ k| ≤ 0.00251 * exp g * 2 ^ k := by
    rw [abs_mul, abs_of_pos h2]; exact mul_le_mul_of_nonneg_right hP h2.le
  have hG : 0 < exp g * 2 ^ k := by positivity
  have t2 : |exp g * 2 ^ k * (1 - exp η)| ≤ exp g * 2 ^ k * (4 / 10 ^ 5) := by
    rw [abs_mul, abs_of_pos hG]
    refine mul_le_mul_of_nonneg_left ?_ hG.le
    rw [abs_le]; constructor <;> norm_num at l1 l2 ⊢ <;> linarith
  refine (abs_add_le _ _).trans ?_
  have t3 := mul_le_mul_of_nonneg_left l1 hG.le
  norm_num at t1 t2 t3 ⊢
  linarith

end Micromath.RealAux
