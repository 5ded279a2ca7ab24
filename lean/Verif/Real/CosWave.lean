import Verif.Real.Trig
import Mathlib.Algebra.Order.Round

/-!
# The wave that `cos` computes

`cosF` of the reduced argument, as an even function of period one: a decreasing function of the distance to the nearest integer.
-/

namespace Micromath.RealAux
open Real

/-- Distance to the nearest integer. -/
noncomputable def dz (t : ℝ) : ℝ := |t - round t|

theorem dz_nonneg (t : ℝ) : 0 ≤ dz t := abs_nonneg _
theorem dz_le_half (t : ℝ) : dz t ≤ 1 / 2 := abs_sub_round t
theorem dz_le (t : ℝ) (n : ℤ) : dz t ≤ |t - n| := round_le t n

theorem dz_of {t : ℝ} {n : ℤ} (h : |t - n| ≤ 1 / 2) : dz t = |t - n| := by
  refine le_antisymm (dz_le t n) ?_
  by_cases hr : round t = n
  · rw [dz, hr]
  · have h1 : (1 : ℝ) ≤ |((round t - n : ℤ) : ℝ)| := by
      have : 1 ≤ |round t - n| := Int.one_le_abs (sub_ne_zero.2 hr)
      exact_mod_cast this
    have h2 : |((round t - n : ℤ) : ℝ)| ≤ |t - round t| + |t - n| := by
      push_cast
      rw [show (round t : ℝ) - n = -(t - round t) + (t - n) by ring]
      refine (abs_add_le _ _).trans ?_
      rw [abs_neg]
    rw [dz]
    linarith

theorem dz_lip (s t : ℝ) : |dz s - dz t| ≤ |s - t| := by
  have key : ∀ s t : ℝ, dz s ≤ dz t + |s - t| := by
    intro s t
    refine (dz_le s (round t)).trans ?_
    rw [dz, show s - round t = (t - round t) + (s - t) by ring]
    exact abs_add_le _ _
  have h1 := key s t
  have h2 := key t s
  rw [abs_sub_comm] at h2
  rw [abs_le]
  constructor <;> linarith

theorem dz_add_int (t : ℝ) (n : ℤ) : dz (t + n) = dz t := by
  rw [dz, dz, round_add_intCast]; push_cast; congr 1; ring

theorem dz_neg (t : ℝ) : dz (-t) = dz t := by
  have h := dz_le_half t
  rw [dz] at h
  rw [dz_of (n := -round t) (by push_cast; rw [neg_sub_neg, abs_sub_comm]; exact h)]
  push_cast
  rw [neg_sub_neg, abs_sub_comm]; rfl

theorem dz_half (t : ℝ) : dz (t + 1 / 2) = 1 / 2 - dz t := by
  have h := dz_le_half t
  rcases le_total 0 (t - round t) with p | p
  · have e : dz t = t - round t := abs_of_nonneg p
    have e2 : t + 1 / 2 - ((round t + 1 : ℤ) : ℝ) = -(1 / 2 - dz t) := by rw [e]; push_cast; ring
    rw [dz_of (n := round t + 1) (by rw [e2, abs_neg, abs_of_nonneg (by linarith)]; linarith [dz_nonneg t]), e2, abs_neg,
      abs_of_nonneg (by linarith)]
  · have e : dz t = -(t - round t) := abs_of_nonpos p
    have e2 : t + 1 / 2 - ((round t : ℤ) : ℝ) = 1 / 2 - dz t := by rw [e]; ring
    rw [dz_of (n := round t) (by rw [e2, abs_of_nonneg (by linarith)]; linarith [dz_nonneg t]), e2, abs_of_nonneg (by linarith)]

/-- `cosF` on `[0, 1/2]`. -/
theorem cosF_q {s : ℝ} (h0 : 0 ≤ s) (h1 : s ≤ 1 / 2) :
    cosF s = -(0.775 * (8 * s - 16 * s ^ 2) + 0.225 * (8 * s - 16 * s ^ 2) ^ 2) := by
  have e : 16 * s * (s - 1 / 2) = -(8 * s - 16 * s ^ 2) := by ring
  have p : 0 ≤ 8 * s - 16 * s ^ 2 := by nlinarith
  unfold cosF
  rw [abs_of_nonneg h0, e, abs_neg, abs_of_nonneg p]
  ring

/-- `cosF` falls on `[0, 1/4]`, at rate 6.25 or less. -/
theorem cosF_step {a b : ℝ} (h0 : 0 ≤ a) (h : a ≤ b) (h1 : b ≤ 1 / 4) : 0 ≤ cosF a - cosF b ∧ cosF a - cosF b ≤ 6.25 * (b - a) := by
  rw [cosF_q h0 (by linarith), cosF_q (h0.trans h) (by linarith)]
  have e : -(0.775 * (8 * a - 16 * a ^ 2) + 0.225 * (8 * a - 16 * a ^ 2) ^ 2) - -(0.775 * (8 * b - 16 * b ^ 2) + 0.225 * (8 * b - 16 * b ^ 2) ^ 2)
      = (b - a) * ((8 - 16 * (a + b)) * (0.775 + 0.225 * (8 * (a + b) - 16 * (a ^ 2 + b ^ 2)))) := by ring
  obtain ⟨σ, hσ⟩ : ∃ σ, σ = a + b := ⟨_, rfl⟩
  have q : 2 * (a ^ 2 + b ^ 2) ≥ σ ^ 2 := by rw [hσ]; nlinarith [sq_nonneg (a - b)]
  have q2 : a ^ 2 + b ^ 2 ≤ σ / 4 := by rw [hσ]; nlinarith
  have s0 : 0 ≤ σ := by linarith
  have s1 : σ ≤ 1 / 2 := by linarith
  rw [e, ← hσ]
  have p1 : 0 ≤ 8 - 16 * σ := by linarith
  have p2 : 0 ≤ 0.775 + 0.225 * (8 * σ - 16 * (a ^ 2 + b ^ 2)) := by norm_num at *; linarith
  have p3 : 0.775 + 0.225 * (8 * σ - 16 * (a ^ 2 + b ^ 2)) ≤ 0.775 + 0.225 * (8 * σ - 8 * σ ^ 2) := by norm_num at *; linarith
  refine ⟨mul_nonneg (by linarith) (mul_nonneg p1 p2), ?_⟩
  rw [mul_comm]
  refine mul_le_mul_of_nonneg_right ((mul_le_mul_of_nonneg_left p3 p1).trans ?_) (by linarith)
  have : (8 - 16 * σ) * (0.775 + 0.225 * (8 * σ - 8 * σ ^ 2)) = 6.25 - (0.05 - 2 * σ + 43.2 * σ ^ 2 - 28.8 * σ ^ 3) := by ring
  rw [this]
  have c : σ ^ 3 ≤ σ ^ 2 / 2 := by nlinarith [sq_nonneg σ]
  nlinarith [sq_nonneg (σ - 1 / 28)]

theorem cosF_anti {a b : ℝ} (h0 : -(1 / 4) ≤ a) (h : a ≤ b) (h1 : b ≤ 1 / 4) : 0 ≤ cosF a - cosF b ∧ cosF a - cosF b ≤ 6.25 * (b - a) := by
  have z : cosF 0 = 0 := by simp [cosF]
  rcases le_total 0 a with p | p
  · exact cosF_step p h h1
  · rcases le_total 0 b with q | q
    · have t1 := cosF_step le_rfl q h1
      have t2 := cosF_step (a := 0) (b := -a) le_rfl (by linarith) (by linarith)
      rw [cosF_neg] at t2
      rw [z] at t1 t2
      constructor <;> linarith [t1.1, t1.2, t2.1, t2.2]
    · have t := cosF_step (a := -b) (b := -a) (by linarith) (by linarith) (by linarith)
      rw [cosF_neg, cosF_neg] at t
      constructor <;> linarith [t.1, t.2]

/-- The wave: even, of period one, falling on `[0, 1/2]`. -/
noncomputable def wave (t : ℝ) : ℝ := cosF (dz t - 1 / 4)

theorem wave_neg (t : ℝ) : wave (-t) = wave t := by rw [wave, dz_neg]; rfl
theorem wave_add_int (t : ℝ) (n : ℤ) : wave (t + n) = wave t := by rw [wave, dz_add_int]; rfl
theorem wave_half (t : ℝ) : wave (t + 1 / 2) = -wave t := by
  rw [wave, wave, dz_half, ← cosF_neg]; congr 1; ring

theorem wave_lip (s t : ℝ) : |wave s - wave t| ≤ 6.25 * |s - t| := by
  have h := dz_lip s t
  have a0 := dz_nonneg s
  have a1 := dz_le_half s
  have b0 := dz_nonneg t
  have b1 := dz_le_half t
  refine le_trans ?_ (mul_le_mul_of_nonneg_left h (by norm_num))
  unfold wave
  rcases le_total (dz s) (dz t) with p | p
  · have := cosF_anti (a := dz s - 1 / 4) (b := dz t - 1 / 4) (by linarith) (by linarith) (by linarith)
    rw [abs_of_nonneg this.1, abs_of_nonpos (by linarith)]
    linarith [this.2]
  · have := cosF_anti (a := dz t - 1 / 4) (b := dz s - 1 / 4) (by linarith) (by linarith) (by linarith)
    rw [abs_sub_comm, abs_of_nonneg this.1, abs_of_nonneg (by linarith)]
    linarith [this.2]

theorem wave_anti {s t : ℝ} (h0 : 0 ≤ s) (h : s ≤ t) (h1 : t ≤ 1 / 2) : wave t ≤ wave s := by
  have e : ∀ u : ℝ, 0 ≤ u → u ≤ 1 / 2 → dz u = u := by
    intro u u0 u1
    rw [dz_of (n := 0) (by simpa [abs_of_nonneg u0] using u1)]
    simp [abs_of_nonneg u0]
  have := cosF_anti (a := s - 1 / 4) (b := t - 1 / 4) (by linarith) (by linarith) (by linarith)
  rw [wave, wave, e s h0 (h.trans h1), e t (h0.trans h) h1]
  linarith [this.1]

theorem cosF_wave_pos {s : ℝ} (h0 : 0 ≤ s) (h1 : s ≤ 1 / 2 + 1 / 10 ^ 4) : |cosF s - wave (s + 1 / 4)| ≤ 2.5 / 10 ^ 7 := by
  rcases le_total s (1 / 4) with p | p
  · have e : dz (s + 1 / 4) = s + 1 / 4 := by
      rw [dz_of (n := 0) (by rw [Int.cast_zero, sub_zero, abs_of_nonneg (by linarith)]; linarith), Int.cast_zero, sub_zero,
        abs_of_nonneg (by linarith)]
    rw [wave, e, add_sub_cancel_right, sub_self, abs_zero]; norm_num
  · have e : dz (s + 1 / 4) = 3 / 4 - s := by
      have : s + 1 / 4 - ((1 : ℤ) : ℝ) = -(3 / 4 - s) := by push_cast; ring
      rw [dz_of (n := 1) (by rw [this, abs_neg, abs_of_nonneg (by linarith)]; linarith), this, abs_neg, abs_of_nonneg (by linarith)]
    rw [wave, e, show 3 / 4 - s - 1 / 4 = 1 / 2 - s by ring]
    rcases le_total s (1 / 2) with q | q
    · rw [cosF_q h0 q, cosF_q (s := 1 / 2 - s) (by linarith) (by linarith)]
      rw [show 8 * (1 / 2 - s) - 16 * (1 / 2 - s) ^ 2 = 8 * s - 16 * s ^ 2 by ring, sub_self, abs_zero]; norm_num
    · obtain ⟨u, hu⟩ : ∃ u, s = 1 / 2 + u := ⟨s - 1 / 2, by ring⟩
      have u0 : 0 ≤ u := by linarith
      have u1 : u ≤ 1 / 10 ^ 4 := by linarith
      rw [hu, show 1 / 2 - (1 / 2 + u) = -u by ring, cosF_neg, cosF_q u0 (by linarith)]
      have e2 : cosF (1 / 2 + u) = 0.775 * (8 * u + 16 * u ^ 2) + 0.225 * (8 * u + 16 * u ^ 2) ^ 2 := by
        have p2 : 0 ≤ 8 * u + 16 * u ^ 2 := by positivity
        have e3 : 16 * (1 / 2 + u) * (1 / 2 + u - 1 / 2) = 8 * u + 16 * u ^ 2 := by ring
        unfold cosF
        rw [abs_of_nonneg (by linarith : 0 ≤ 1 / 2 + u), e3, abs_of_nonneg p2]
        ring
      rw [e2, show 0.775 * (8 * u + 16 * u ^ 2) + 0.225 * (8 * u + 16 * u ^ 2) ^ 2 -
        -(-(0.775 * (8 * u - 16 * u ^ 2) + 0.225 * (8 * u - 16 * u ^ 2) ^ 2)) = 24.8 * u ^ 2 + 115.2 * u ^ 3 by ring]
      have s2 : u ^ 2 ≤ 1 / 10 ^ 8 := by
        have := pow_le_pow_left₀ u0 u1 2
        norm_num at this ⊢
        exact this
      have s3 : u ^ 3 ≤ 1 / 10 ^ 12 := by
        have := pow_le_pow_left₀ u0 u1 3
        norm_num at this ⊢
        exact this
      rw [abs_of_nonneg (by positivity)]
      norm_num at s2 s3 ⊢
      linarith

/-- The reduced argument need not be in `[-1/2, 1/2]` exactly. -/
theorem cosF_wave {s : ℝ} (h : |s| ≤ 1 / 2 + 1 / 10 ^ 4) : |cosF s - wave (s + 1 / 4)| ≤ 2.5 / 10 ^ 7 := by
  rcases le_total 0 s with p | p
  · exact cosF_wave_pos p (by rwa [abs_of_nonneg p] at h)
  · have := cosF_wave_pos (s := -s) (by linarith) (by rwa [abs_of_nonpos p] at h)
    rw [cosF_neg] at this
    have e : wave (-s + 1 / 4) = -wave (s + 1 / 4) := by
      rw [← wave_neg, show -(-s + 1 / 4) = s + 1 / 4 + 1 / 2 + ((-1 : ℤ) : ℝ) by push_cast; ring, wave_add_int, wave_half]
    rw [e, neg_sub_neg, abs_sub_comm] at this
    exact this

end Micromath.RealAux
