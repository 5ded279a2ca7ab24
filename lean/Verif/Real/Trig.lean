import Verif.Real.PolyPos
import Mathlib.Analysis.SpecialFunctions.Trigonometric.Deriv
import Mathlib.Analysis.SpecialFunctions.Trigonometric.Bounds
import Mathlib.Analysis.Calculus.Deriv.MeanValue
import Mathlib.Analysis.Real.Pi.Bounds
import Mathlib.Tactic.FieldSimp

/-!
# Taylor bounds for `sin` and `cos` and the error of the parabola approximation used by `cos`
-/

namespace Micromath.RealAux
open Real Poly

/-- Taylor polynomial of `cos` with `n` terms. -/
noncomputable def cosT (n : Nat) (t : ℝ) : ℝ := ∑ k ∈ Finset.range n, (-1) ^ k * t ^ (2 * k) / (2 * k).factorial
/-- Taylor polynomial of `sin` with `n` terms. -/
noncomputable def sinT (n : Nat) (t : ℝ) : ℝ := ∑ k ∈ Finset.range n, (-1) ^ k * t ^ (2 * k + 1) / (2 * k + 1).factorial

theorem sinT_deriv (n : Nat) (t : ℝ) : HasDerivAt (sinT n) (cosT n t) t := by
  unfold sinT cosT
  refine HasDerivAt.fun_sum fun k _ => ?_
  have h := ((hasDerivAt_pow (2 * k + 1) t).const_mul ((-1 : ℝ) ^ k)).div_const ((2 * k + 1).factorial : ℝ)
  refine h.congr_deriv ?_
  have h1 : ((2 * k).factorial : ℝ) ≠ 0 := by positivity
  rw [Nat.factorial_succ]
  push_cast
  have h2 : (2 * (k : ℝ) + 1) ≠ 0 := by positivity
  field_simp

theorem cosT_deriv (n : Nat) (t : ℝ) : HasDerivAt (cosT (n + 1)) (-sinT n t) t := by
  have e : cosT (n + 1) = fun t => (∑ k ∈ Finset.range n, (-1 : ℝ) ^ (k + 1) * t ^ (2 * k + 2) / (2 * k + 2).factorial) + 1 := by
    funext t
    unfold cosT
    rw [Finset.sum_range_succ']
    simp [mul_add]
  rw [e]
  refine HasDerivAt.add_const (c := (1 : ℝ)) ?_
  unfold sinT
  rw [← Finset.sum_neg_distrib]
  refine HasDerivAt.fun_sum fun k _ => ?_
  have h := ((hasDerivAt_pow (2 * k + 2) t).const_mul ((-1 : ℝ) ^ (k + 1))).div_const ((2 * k + 2).factorial : ℝ)
  refine h.congr_deriv ?_
  have h1 : ((2 * k + 1).factorial : ℝ) ≠ 0 := by positivity
  rw [Nat.factorial_succ (2 * k + 1)]
  push_cast
  have h2 : (2 * (k : ℝ) + 1 + 1) ≠ 0 := by positivity
  rw [pow_succ (-1 : ℝ) k]
  field_simp
  ring

theorem nonneg_of_deriv {f f' : ℝ → ℝ} (h : ∀ x, HasDerivAt f (f' x) x) (h0 : f 0 = 0) (hp : ∀ x, 0 ≤ x → 0 ≤ f' x)
    {t : ℝ} (ht : 0 ≤ t) : 0 ≤ f t := by
  have hm : MonotoneOn f (Set.Ici 0) := by
    apply monotoneOn_of_deriv_nonneg (convex_Ici 0)
    · exact fun x _ => (h x).continuousAt.continuousWithinAt
    · exact fun x _ => (h x).differentiableAt.differentiableWithinAt
    · intro x hx
      rw [interior_Ici] at hx
      rw [(h x).deriv]
      exact hp x (le_of_lt hx)
  have := hm (Set.mem_Ici.2 le_rfl) (Set.mem_Ici.2 ht) ht
  rwa [h0] at this

/-- The Taylor polynomials of `sin` and `cos` alternate around them on `[0, ∞)`. -/
theorem trigT_alt (n : Nat) :
    (∀ t : ℝ, 0 ≤ t → 0 ≤ (-1) ^ (n + 1) * (cos t - cosT (n + 1) t)) ∧
    (∀ t : ℝ, 0 ≤ t → 0 ≤ (-1) ^ (n + 1) * (sin t - sinT (n + 1) t)) := by
  induction n with
  | zero =>
    have hc : ∀ t : ℝ, 0 ≤ t → 0 ≤ (-1) ^ (0 + 1) * (cos t - cosT (0 + 1) t) := by
      intro t _
      simp [cosT, cos_le_one t]
    refine ⟨hc, fun t ht => ?_⟩
    refine nonneg_of_deriv (f := fun t => (-1) ^ (0 + 1) * (sin t - sinT (0 + 1) t)) (fun x => ?_) (by simp [sinT]) hc ht
    exact ((hasDerivAt_sin x).sub (sinT_deriv _ x)).const_mul _
  | succ n ih =>
    have hc : ∀ t : ℝ, 0 ≤ t → 0 ≤ (-1) ^ (n + 1 + 1) * (cos t - cosT (n + 1 + 1) t) := by
      intro t ht
      refine nonneg_of_deriv (f := fun t => (-1) ^ (n + 1 + 1) * (cos t - cosT (n + 1 + 1) t)) (fun x => ?_) ?_ ih.2 ht
      · refine (((hasDerivAt_cos x).sub (cosT_deriv (n + 1) x)).const_mul _).congr_deriv ?_
        rw [pow_succ (-1 : ℝ) (n + 1)]; ring
      · simp [cosT, Finset.sum_range_succ']
    refine ⟨hc, fun t ht => ?_⟩
    refine nonneg_of_deriv (f := fun t => (-1) ^ (n + 1 + 1) * (sin t - sinT (n + 1 + 1) t)) (fun x => ?_) (by
      simp [sinT]) hc ht
    exact ((hasDerivAt_sin x).sub (sinT_deriv _ x)).const_mul _

/-- Coefficients of the `cos` Taylor polynomials with 6 and 7 terms, in `t^2`. -/
def C6 : List ℚ := [1, -1/2, 1/24, -1/720, 1/40320, -1/3628800]
def C7 : List ℚ := [1, -1/2, 1/24, -1/720, 1/40320, -1/3628800, 1/479001600]

theorem cos_ge_C6 (t : ℝ) : ev C6 (t ^ 2) ≤ cos t := by
  have h := (trigT_alt 5).1 |t| (abs_nonneg t)
  rw [cos_abs] at h
  have e : cosT 6 |t| = ev C6 (t ^ 2) := by
    simp only [cosT, C6, ev_cons, ev_nil, Finset.sum_range_succ, Finset.sum_range_zero, pow_mul, sq_abs, Nat.factorial]
    push_cast
    ring
  rw [show (5 + 1 : ℕ) = 6 by rfl, e] at h
  norm_num at h
  exact h

theorem cos_le_C7 (t : ℝ) : cos t ≤ ev C7 (t ^ 2) := by
  have h := (trigT_alt 6).1 |t| (abs_nonneg t)
  rw [cos_abs] at h
  have e : cosT 7 |t| = ev C7 (t ^ 2) := by
    simp only [cosT, C7, ev_cons, ev_nil, Finset.sum_range_succ, Finset.sum_range_zero, pow_mul, sq_abs, Nat.factorial]
    push_cast
    ring
  rw [show (6 + 1 : ℕ) = 7 by rfl, e] at h
  norm_num at h
  exact h

/-- `1 - 1.225 w + 0.225 w^2` at `w = c t^2`, `c` a rational close to `4/π^2`, in `t^2`. -/
def G0 : List ℚ := [1, -(1225/1000) * (405284735/1000000000), (225/1000) * (405284735/1000000000) ^ 2]

theorem G_upper {u : ℝ} (h0 : (0 : ℚ) ≤ u) (h1 : u ≤ (2.4676 : ℚ)) : 0 < ev (padd [0.0010905] (padd (psmul (-1) G0) C6)) u :=
  posOn_sound (n := 12) (by decide +kernel) h0 h1

theorem G_lower {u : ℝ} (h0 : (0 : ℚ) ≤ u) (h1 : u ≤ (2.4676 : ℚ)) : 0 < ev (padd [0.0010905] (padd (psmul (-1) C7) G0)) u :=
  posOn_sound (n := 12) (by decide +kernel) h0 h1

/-- The parabola approximation of `-sin (2 π s)`, as computed by `cos` from its reduced argument. -/
noncomputable def cosF (s : ℝ) : ℝ := 16 * s * (|s| - 1 / 2) + 0.225 * (16 * s * (|s| - 1 / 2)) * (|16 * s * (|s| - 1 / 2)| - 1)

theorem cosF_neg (s : ℝ) : cosF (-s) = -cosF s := by
  unfold cosF
  have : 16 * -s * (|s| - 1 / 2) = -(16 * s * (|s| - 1 / 2)) := by ring
  rw [abs_neg, this, abs_neg]
  ring

theorem cosF_in {s : ℝ} (h0 : 0 ≤ s) (h1 : s ≤ 1 / 2) : |cosF s + sin (2 * π * s)| ≤ 0.001092 := by
  have hy : 16 * s * (|s| - 1 / 2) ≤ 0 := by
    rw [abs_of_nonneg h0]
    exact mul_nonpos_of_nonneg_of_nonpos (by linarith) (by linarith)
  obtain ⟨t, ht⟩ : ∃ t, t = 2 * π * (s - 1 / 4) := ⟨_, rfl⟩
  have hs : sin (2 * π * s) = cos t := by
    rw [ht, ← cos_pi_div_two_sub, ← cos_neg]; congr 1; ring
  have hF : cosF s = -(1 - 1.225 * (4 / π ^ 2 * t ^ 2) + 0.225 * (4 / π ^ 2 * t ^ 2) ^ 2) := by
    unfold cosF
    rw [abs_of_nonpos hy, abs_of_nonneg h0, ht]
    have := pi_pos.ne'
    field_simp
    ring
  have hp1 := pi_gt_d20
  have hp2 := pi_lt_d20
  have hpp := pi_pos
  have hu : t ^ 2 ≤ 2.4675 := by
    have h2 : t ^ 2 = π ^ 2 * (2 * (s - 1 / 4)) ^ 2 := by rw [ht]; ring
    have h3 : (2 * (s - 1 / 4)) ^ 2 ≤ 1 / 4 := by nlinarith
    have h4 : π ^ 2 ≤ 9.8697 := by nlinarith
    rw [h2]
    calc π ^ 2 * (2 * (s - 1 / 4)) ^ 2 ≤ 9.8697 * (1 / 4) := mul_le_mul h4 h3 (sq_nonneg _) (by norm_num)
      _ ≤ 2.4675 := by norm_num
  have hu0 : 0 ≤ t ^ 2 := sq_nonneg t
  have hc : |4 / π ^ 2 - 405284735 / 1000000000| ≤ 1 / 10 ^ 8 := by
    have hpi2 : 0 < π ^ 2 := by positivity
    rw [abs_le]
    constructor
    · rw [neg_le_sub_iff_le_add, ← sub_le_iff_le_add, le_div_iff₀ hpi2]; nlinarith
    · rw [sub_le_iff_le_add, div_le_iff₀ hpi2]; nlinarith
  obtain ⟨c, hce⟩ : ∃ c, c = 4 / π ^ 2 := ⟨_, rfl⟩
  obtain ⟨u, hue⟩ : ∃ u, u = t ^ 2 := ⟨_, rfl⟩
  rw [hF, hs, ← hce, ← hue]
  rw [← hce] at hc
  have hCl := cos_ge_C6 t
  have hCu := cos_le_C7 t
  rw [← hue] at hu hu0 hCl hCu
  have g1 := G_upper (u := u) (by exact_mod_cast hu0) (by refine hu.trans ?_; norm_num)
  have g2 := G_lower (u := u) (by exact_mod_cast hu0) (by refine hu.trans ?_; norm_num)
  rw [ev_padd, ev_padd, ev_psmul] at g1 g2
  have e0 : ev [(0.0010905 : ℚ)] u = 0.0010905 := by simp only [ev_cons, ev_nil]; norm_num
  rw [e0] at g1 g2
  have hG : |(1 - 1.225 * (c * u) + 0.225 * (c * u) ^ 2) - ev G0 u| ≤ 1 / 10 ^ 6 := by
    obtain ⟨d, hd⟩ : ∃ d, d = c - 405284735 / 1000000000 := ⟨_, rfl⟩
    rw [← hd] at hc
    have hcd : c = 405284735 / 1000000000 + d := by rw [hd]; ring
    have e : (1 - 1.225 * (c * u) + 0.225 * (c * u) ^ 2) - ev G0 u =
        d * (u * (-1.225 + 0.225 * u * (2 * (405284735 / 1000000000) + d))) := by
      simp only [G0, ev_cons, ev_nil]
      rw [hcd]
      push_cast
      ring
    have hd1 := abs_le.1 hc
    have hb : |u * (-1.225 + 0.225 * u * (2 * (405284735 / 1000000000) + d))| ≤ 10 := by
      have hw : |(-1.225 + 0.225 * u * (2 * (405284735 / 1000000000) + d))| ≤ 2 := by
        rw [abs_le]
        have h1 : 0 ≤ 2 * (405284735 / 1000000000) + d := by norm_num at hd1 ⊢; linarith [hd1.1]
        have h2 : 2 * (405284735 / 1000000000) + d ≤ 1 := by norm_num at hd1 ⊢; linarith [hd1.2]
        have h3 : 0 ≤ u * (2 * (405284735 / 1000000000) + d) := mul_nonneg hu0 h1
        have h4 : u * (2 * (405284735 / 1000000000) + d) ≤ 2.4675 * 1 := mul_le_mul hu h2 h1 (by norm_num)
        constructor <;> norm_num at h3 h4 ⊢ <;> linarith
      rw [abs_mul, abs_of_nonneg hu0]
      calc u * _ ≤ 2.4675 * 2 := mul_le_mul hu hw (abs_nonneg _) (by norm_num)
        _ ≤ 10 := by norm_num
    rw [e, abs_mul]
    calc |d| * _ ≤ 1 / 10 ^ 8 * 10 := mul_le_mul hc hb (abs_nonneg _) (by norm_num)
      _ ≤ 1 / 10 ^ 6 := by norm_num
  have hG' := abs_le.1 hG
  push_cast at g1 g2
  rw [abs_le]
  norm_num at hG' g1 g2 ⊢
  constructor <;> linarith [hG'.1, hG'.2]

theorem cosF_out {s : ℝ} (h0 : 1 / 2 ≤ s) (h1 : s ≤ 1 / 2 + 1 / 10 ^ 4) : |cosF s + sin (2 * π * s)| ≤ 0.001092 := by
  obtain ⟨e, he⟩ : ∃ e, e = s - 1 / 2 := ⟨_, rfl⟩
  have hs : s = 1 / 2 + e := by rw [he]; ring
  have e0 : 0 ≤ e := by linarith
  have e1 : e ≤ 1 / 10 ^ 4 := by linarith
  have hsin : sin (2 * π * s) = -sin (2 * π * e) := by
    rw [hs, show 2 * π * (1 / 2 + e) = 2 * π * e + π by ring, sin_add_pi]
  have hpp := pi_pos
  have hpi : π ≤ 3.1416 := pi_lt_d4.le
  have s0 : 0 ≤ sin (2 * π * e) := sin_nonneg_of_nonneg_of_le_pi (by positivity) (by nlinarith)
  have s1 : sin (2 * π * e) ≤ 2 * π * e := sin_le (by positivity)
  have s2 : 2 * π * e ≤ 7 / 10 ^ 4 := by nlinarith
  have hy0 : 0 ≤ 16 * s * (|s| - 1 / 2) := by
    rw [abs_of_nonneg (by linarith)]
    exact mul_nonneg (by linarith) (by linarith)
  have hy1 : 16 * s * (|s| - 1 / 2) ≤ 9 / 10 ^ 4 := by
    rw [abs_of_nonneg (by linarith), hs]; nlinarith
  have f0 : 0 ≤ cosF s ∧ cosF s ≤ 9 / 10 ^ 4 := by
    unfold cosF
    rw [abs_of_nonneg hy0]
    constructor <;> nlinarith
  rw [hsin, abs_le]
  norm_num at *
  constructor <;> linarith [f0.1, f0.2]

/-- The approximation error of the parabola, on a slightly enlarged period. -/
theorem cosF_approx {s : ℝ} (h : |s| ≤ 1 / 2 + 1 / 10 ^ 4) : |cosF s + sin (2 * π * s)| ≤ 0.001092 := by
  have key : ∀ s : ℝ, 0 ≤ s → s ≤ 1 / 2 + 1 / 10 ^ 4 → |cosF s + sin (2 * π * s)| ≤ 0.001092 := by
    intro s h0 h1
    rcases le_total s (1 / 2) with h | h
    · exact cosF_in h0 h
    · exact cosF_out h h1
  rcases le_total 0 s with h0 | h0
  · rw [abs_of_nonneg h0] at h
    exact key s h0 h
  · rw [abs_of_nonpos h0] at h
    have := key (-s) (by linarith) h
    rw [cosF_neg, mul_neg, sin_neg] at this
    rw [← abs_neg]
    convert this using 2
    ring

/-- The parabola approximation never leaves `[-1, 1]`. -/
theorem cosF_le_one {s : ℝ} (h : |s| ≤ 1 / 2 + 1 / 10 ^ 4) : |cosF s| ≤ 1 := by
  obtain ⟨y, hy⟩ : ∃ y, y = 16 * s * (|s| - 1 / 2) := ⟨_, rfl⟩
  have hs0 := abs_nonneg s
  have ha : |y| ≤ 1 := by
    rw [hy, abs_mul, abs_mul]
    rw [abs_of_pos (show (0 : ℝ) < 16 by norm_num)]
    rcases le_total (|s|) (1 / 2) with h' | h'
    · rw [abs_of_nonpos (show |s| - 1 / 2 ≤ 0 by linarith)]; nlinarith [sq_nonneg (|s| - 1 / 4)]
    · rw [abs_of_nonneg (show 0 ≤ |s| - 1 / 2 by linarith)]; nlinarith
  have e : cosF s = y * (1 + 0.225 * (|y| - 1)) := by unfold cosF; rw [← hy]; ring
  have hy0 := abs_nonneg y
  rw [e, abs_mul, abs_of_nonneg (show 0 ≤ 1 + 0.225 * (|y| - 1) by norm_num; linarith)]
  nlinarith

end Micromath.RealAux
