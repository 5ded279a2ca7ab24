import Verif.Real.PolyPos
import Mathlib.Analysis.SpecialFunctions.Log.Deriv
import Mathlib.Analysis.Calculus.Deriv.MeanValue
import Mathlib.Analysis.Complex.ExponentialBounds
import Mathlib.Tactic.FieldSimp

/-!
# Bounds for `log` on `[1, 2]` and the error of the polynomial used by `ln`

With `z = (y - 1) / (y + 1)`, `log y = log (1 + z) - log (1 - z) = 2 (z + z^3/3 + ...)`.
-/

namespace Micromath.RealAux
open Real Poly

/-- The first five terms of `log ((1 + z) / (1 - z))`. -/
def L5 : List ℚ := [0, 2, 0, 2/3, 0, 2/5, 0, 2/7, 0, 2/9]
/-- `L5` plus a bound of the remainder on `[0, 1/3]`. -/
def L6 : List ℚ := [0, 2, 0, 2/3, 0, 2/5, 0, 2/7, 0, 2/9, 0, 9/44]

theorem artanh_deriv {z : ℝ} (h0 : 0 ≤ z) (h1 : z < 1) :
    HasDerivAt (fun z => log (1 + z) - log (1 - z)) (2 / (1 - z ^ 2)) z := by
  have a : HasDerivAt (fun z : ℝ => log (1 + z)) (1 / (1 + z)) z :=
    ((hasDerivAt_id z).const_add 1).log (by simp; linarith)
  have b : HasDerivAt (fun z : ℝ => log (1 - z)) (-1 / (1 - z)) z :=
    ((hasDerivAt_id z).const_sub 1).log (by simp; linarith)
  refine (a.sub b).congr_deriv ?_
  have h2 : 1 + z ≠ 0 := by linarith
  have h3 : 1 - z ≠ 0 := by linarith
  have h4 : 1 - z ^ 2 ≠ 0 := by
    have : 1 - z ^ 2 = (1 + z) * (1 - z) := by ring
    rw [this]; exact mul_ne_zero h2 h3
  field_simp
  ring

theorem nonneg_of_deriv_on {f f' : ℝ → ℝ} {b : ℝ} (h : ∀ x, 0 ≤ x → x ≤ b → HasDerivAt f (f' x) x) (h0 : f 0 = 0)
    (hp : ∀ x, 0 ≤ x → x ≤ b → 0 ≤ f' x) {t : ℝ} (ht : 0 ≤ t) (hb : t ≤ b) : 0 ≤ f t := by
  have hm : MonotoneOn f (Set.Icc 0 b) := by
    apply monotoneOn_of_deriv_nonneg (convex_Icc 0 b)
    · exact fun x hx => (h x hx.1 hx.2).continuousAt.continuousWithinAt
    · intro x hx
      have hx := interior_subset hx
      exact (h x hx.1 hx.2).differentiableAt.differentiableWithinAt
    · intro x hx
      have hx := interior_subset hx
      rw [(h x hx.1 hx.2).deriv]
      exact hp x hx.1 hx.2
  have := hm (Set.mem_Icc.2 ⟨le_rfl, ht.trans hb⟩) (Set.mem_Icc.2 ⟨ht, hb⟩) ht
  rwa [h0] at this

theorem L5_deriv (z : ℝ) : HasDerivAt (fun z => ev L5 z) (2 + 2 * z ^ 2 + 2 * z ^ 4 + 2 * z ^ 6 + 2 * z ^ 8) z := by
  have e : (fun z => ev L5 z) = fun z : ℝ => 2 * z + 2 / 3 * z ^ 3 + 2 / 5 * z ^ 5 + 2 / 7 * z ^ 7 + 2 / 9 * z ^ 9 := by
    funext z; simp only [L5, ev_cons, ev_nil]; push_cast; ring
  rw [e]
  have h := (((((hasDerivAt_id z).const_mul 2).add ((hasDerivAt_pow 3 z).const_mul (2 / 3))).add
    ((hasDerivAt_pow 5 z).const_mul (2 / 5))).add ((hasDerivAt_pow 7 z).const_mul (2 / 7))).add
    ((hasDerivAt_pow 9 z).const_mul (2 / 9))
  refine (HasDerivAt.congr_deriv (f := fun z : ℝ => 2 * z + 2 / 3 * z ^ 3 + 2 / 5 * z ^ 5 + 2 / 7 * z ^ 7 + 2 / 9 * z ^ 9) h ?_)
  push_cast
  norm_num
  ring

theorem log_ge_L5 {z : ℝ} (h0 : 0 ≤ z) (h1 : z ≤ 1 / 3) : ev L5 z ≤ log (1 + z) - log (1 - z) := by
  have := nonneg_of_deriv_on (f := fun z => (log (1 + z) - log (1 - z)) - ev L5 z)
    (f' := fun z => 2 / (1 - z ^ 2) - (2 + 2 * z ^ 2 + 2 * z ^ 4 + 2 * z ^ 6 + 2 * z ^ 8)) (b := 1 / 3)
    (fun x hx hx1 => (artanh_deriv hx (by linarith)).sub (L5_deriv x)) (by simp [L5]) ?_ h0 h1
  · linarith
  · intro x hx hx1
    have hp : 0 < 1 - x ^ 2 := by nlinarith
    rw [sub_nonneg, le_div_iff₀ hp]
    have : 0 ≤ x ^ 10 := by positivity
    nlinarith

theorem log_le_L6 {z : ℝ} (h0 : 0 ≤ z) (h1 : z ≤ 1 / 3) : log (1 + z) - log (1 - z) ≤ ev L6 z := by
  have := nonneg_of_deriv_on (f := fun z => (ev L5 z + 9 / 44 * z ^ 11) - (log (1 + z) - log (1 - z)))
    (f' := fun z => (2 + 2 * z ^ 2 + 2 * z ^ 4 + 2 * z ^ 6 + 2 * z ^ 8 + 9 / 44 * (11 * z ^ 10)) - 2 / (1 - z ^ 2)) (b := 1 / 3)
    (fun x hx hx1 => ((L5_deriv x).add ((hasDerivAt_pow 11 x).const_mul (9 / 44))).sub (artanh_deriv hx (by linarith)))
    (by simp [L5]) ?_ h0 h1
  · have e : ev L6 z = ev L5 z + 9 / 44 * z ^ 11 := by
      simp only [L5, L6, ev_cons, ev_nil]; push_cast; ring
    rw [e]; linarith
  · intro x hx hx1
    have hp : 0 < 1 - x ^ 2 := by nlinarith
    rw [sub_nonneg, div_le_iff₀ hp]
    have h2 : 0 ≤ x ^ 10 := by positivity
    have h3 : x ^ 2 ≤ 1 / 9 := by nlinarith
    nlinarith [mul_nonneg h2 (sub_nonneg.2 h3)]

/-- The coefficients of the `ln` polynomial, as the values of the `f32` literals. -/
def lnC : List ℚ := [-(7305613 / 4194304), 11832981 / 4194304, -(12330891 / 8388608), 1875607 / 4194304, -(7592811 / 134217728)]

/-- `(1 - z)^4 lnC((1 + z) / (1 - z))`, as a polynomial in `z`. -/
def lnCz : List ℚ :=
  padd (psmul (-(7305613 / 4194304)) (pmul [1, -2, 1] [1, -2, 1]))
    (padd (psmul (11832981 / 4194304) (pmul [1, 1] (pmul [1, -1] [1, -2, 1])))
      (padd (psmul (-(12330891 / 8388608)) (pmul [1, 2, 1] [1, -2, 1]))
        (padd (psmul (1875607 / 4194304) (pmul [1, -1] (pmul [1, 1] [1, 2, 1])))
          (psmul (-(7592811 / 134217728)) (pmul [1, 2, 1] [1, 2, 1])))))

/-- The polynomial is within `6.2e-5` of `log` on `[1, 2]`. -/
theorem lnC_err {y : ℝ} (h1 : 1 ≤ y) (h2 : y ≤ 2) : |ev lnC y - log y| ≤ 0.000062 := by
  obtain ⟨z, hz⟩ : ∃ z, z = (y - 1) / (y + 1) := ⟨_, rfl⟩
  have hyp : (0 : ℝ) < y + 1 := by linarith
  have z0 : 0 ≤ z := by rw [hz]; exact div_nonneg (by linarith) hyp.le
  have z1 : z ≤ 1 / 3 := by rw [hz, div_le_iff₀ hyp]; linarith
  have hm : (0 : ℝ) < 1 - z := by linarith
  have hy : y = (1 + z) / (1 - z) := by
    rw [eq_div_iff hm.ne', hz]; field_simp; ring
  have hl : log y = log (1 + z) - log (1 - z) := by rw [hy, log_div (by linarith) (by linarith)]
  have hl5 := log_ge_L5 z0 z1
  have hl6 := log_le_L6 z0 z1
  rw [← hl] at hl5 hl6
  have hP : ev lnC y * (1 - z) ^ 4 = ev lnCz z := by
    rw [hy]
    simp only [lnC, lnCz, ev_padd, ev_psmul, ev_pmul, ev_cons, ev_nil]
    push_cast
    field_simp
    ring
  have h4 : (0 : ℝ) < (1 - z) ^ 4 := by positivity
  have p1 := posOn_sound (n := 12) (a := 0) (b := 1 / 3) (x := z)
    (p := padd (pmul (pmul [1, -2, 1] [1, -2, 1]) (padd [62 / 1000000] L5)) (psmul (-1) lnCz)) (by decide +kernel)
    (by simpa using z0) (by push_cast; linarith)
  have p2 := posOn_sound (n := 12) (a := 0) (b := 1 / 3) (x := z)
    (p := padd (pmul (pmul [1, -2, 1] [1, -2, 1]) (padd [62 / 1000000] (psmul (-1) L6))) lnCz) (by decide +kernel)
    (by simpa using z0) (by push_cast; linarith)
  rw [ev_padd, ev_pmul, ev_padd, ev_psmul, ← hP] at p1
  rw [ev_padd, ev_pmul, ev_padd, ev_psmul, ← hP] at p2
  have e4 : ev (pmul [1, -2, 1] [1, -2, 1]) z = (1 - z) ^ 4 := by
    simp only [ev_pmul, ev_cons, ev_nil]; push_cast; ring
  have e0 : ev [(62 / 1000000 : ℚ)] z = 0.000062 := by simp only [ev_cons, ev_nil]; norm_num
  rw [e4, e0] at p1 p2
  push_cast at p1 p2
  have q1 : 0 < (1 - z) ^ 4 * (0.000062 + ev L5 z - ev lnC y) := by linarith
  have q2 : 0 < (1 - z) ^ 4 * (0.000062 - ev L6 z + ev lnC y) := by linarith
  have r1 := (pos_iff_pos_of_mul_pos q1).1 h4
  have r2 := (pos_iff_pos_of_mul_pos q2).1 h4
  rw [abs_le]
  constructor <;> linarith

end Micromath.RealAux
