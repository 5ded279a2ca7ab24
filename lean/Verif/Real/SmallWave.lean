import Verif.Real.CosWave

/-!
# The wave that `sin` and `cos` compute, near zero
-/

namespace Micromath.RealAux
open Real

theorem wave_sin_pos {t : ℝ} (h0 : 0 ≤ t) (h1 : t ≤ 1 / 4) :
    wave (t - 1 / 4) = 6.2 * t + 2 * t ^ 2 - 57.6 * t ^ 3 + 57.6 * t ^ 4 := by
  have e : dz (t - 1 / 4) = 1 / 4 - t := by
    rw [dz_of (n := 0) (by push_cast; rw [sub_zero, abs_le]; constructor <;> linarith)]
    push_cast
    rw [sub_zero, abs_of_nonpos (by linarith)]; ring
  rw [wave, e, show (1 : ℝ) / 4 - t - 1 / 4 = -t by ring, cosF_neg, cosF_q h0 (by linarith)]
  ring

theorem wave_sin_neg {t : ℝ} (h0 : t ≤ 0) (h1 : -(1 / 4) ≤ t) :
    wave (t - 1 / 4) = 6.2 * t - 2 * t ^ 2 - 57.6 * t ^ 3 - 57.6 * t ^ 4 := by
  have e : dz (t - 1 / 4) = 1 / 4 - t := by
    rw [dz_of (n := 0) (by push_cast; rw [sub_zero, abs_le]; constructor <;> linarith)]
    push_cast
    rw [sub_zero, abs_of_nonpos (by linarith)]; ring
  rw [wave, e, show (1 : ℝ) / 4 - t - 1 / 4 = -t by ring, cosF_q (by linarith) (by linarith)]
  ring

/-- Near zero the computed sine has slope `6.2` per turn, not `2 π`. -/
theorem wave_sin_small {t : ℝ} (h : |t| ≤ 1 / 20) : |wave (t - 1 / 4) - 6.2 * t| ≤ 2 * t ^ 2 := by
  obtain ⟨l, u⟩ := abs_le.1 h
  rcases le_total 0 t with p | p
  · rw [wave_sin_pos p (by linarith), abs_le]
    have q : 0 ≤ t ^ 2 := sq_nonneg t
    have q1 : 0 ≤ t ^ 2 * (1 / 20 - t) := mul_nonneg q (by linarith)
    have q2 : 0 ≤ t ^ 3 * (1 - t) := mul_nonneg (pow_nonneg p 3) (by linarith)
    have q3 : 0 ≤ t ^ 4 := by positivity
    constructor <;> nlinarith
  · rw [wave_sin_neg p (by linarith), abs_le]
    have q : 0 ≤ t ^ 2 := sq_nonneg t
    have q1 : 0 ≤ t ^ 2 * (1 / 20 + t) := mul_nonneg q (by linarith)
    have q2 : 0 ≤ (-t) ^ 3 * (1 + t) := mul_nonneg (pow_nonneg (by linarith) 3) (by linarith)
    have q3 : 0 ≤ t ^ 4 := by positivity
    constructor <;> nlinarith

theorem wave_cos_small {t : ℝ} (h : |t| ≤ 1 / 4) : wave t = 1 - 19.6 * t ^ 2 + 57.6 * t ^ 4 := by
  have e : dz t = |t| := by
    rw [dz_of (n := 0) (by push_cast; rw [sub_zero]; linarith)]
    push_cast
    rw [sub_zero]
  have h0 := abs_nonneg t
  rw [wave, e, show |t| - 1 / 4 = -(1 / 4 - |t|) by ring, cosF_neg, cosF_q (by linarith) (by linarith)]
  have e2 : t ^ 2 = |t| ^ 2 := (sq_abs t).symm
  have e4 : t ^ 4 = |t| ^ 4 := by rw [show t ^ 4 = (t ^ 2) ^ 2 by ring, e2]; ring
  rw [e2, e4]
  ring

end Micromath.RealAux
