import Verif.Real.Rodrigues
import Verif.Real.Arcsin
import Mathlib.Analysis.SpecialFunctions.Complex.Arg
import Mathlib.Analysis.SpecialFunctions.Trigonometric.Bounds
import Mathlib.Analysis.SpecialFunctions.Complex.Arctan

/-!
# Euler angles

Pure mathematics: the quaternion of roll, pitch and yaw, and how the angles move when it is disturbed.
-/

namespace Micromath.Geom
open _root_.Quaternion

/-- Turn by `r` about the `x` axis, then by `p` about the `y` axis, then by `y` about the `z` axis. -/
noncomputable def eulerQ (r p y : ℝ) : ℍ[ℝ] := turnQ 0 0 1 y * turnQ 0 1 0 p * turnQ 1 0 0 r

theorem eulerQ_norm (r p y : ℝ) : ‖eulerQ r p y‖ = 1 := by
  have h : ∀ n1 n2 n3 t : ℝ, n1 ^ 2 + n2 ^ 2 + n3 ^ 2 = 1 → ‖turnQ n1 n2 n3 t‖ = 1 := fun n1 n2 n3 t hn => by
    have h1 := Real.sin_sq_add_cos_sq (t / 2)
    have h2 : ‖turnQ n1 n2 n3 t‖ ^ 2 = 1 := by
      rw [norm_sq_eq, turnQ_re, turnQ_imI, turnQ_imJ, turnQ_imK]
      linear_combination h1 + hn * Real.sin (t / 2) ^ 2
    exact (pow_eq_one_iff_of_nonneg (norm_nonneg _) (by norm_num)).1 h2
  rw [eulerQ, norm_mul, norm_mul, h _ _ _ _ (by norm_num), h _ _ _ _ (by norm_num), h _ _ _ _ (by norm_num)]
  norm_num

theorem eulerQ_angles (r p y : ℝ) {a b c d : ℝ} (ha : a = (eulerQ r p y).re) (hb : b = (eulerQ r p y).imI)
    (hc : c = (eulerQ r p y).imJ) (hd : d = (eulerQ r p y).imK) :
    2 * (a * b + c * d) = Real.sin r * Real.cos p ∧ 1 - 2 * (b ^ 2 + c ^ 2) = Real.cos r * Real.cos p ∧
    2 * (a * c - b * d) = Real.sin p ∧
    2 * (a * d + b * c) = Real.sin y * Real.cos p ∧ 1 - 2 * (c ^ 2 + d ^ 2) = Real.cos y * Real.cos p := by
  simp only [eulerQ, Quaternion.re_mul, Quaternion.imI_mul, Quaternion.imJ_mul, Quaternion.imK_mul, turnQ_re, turnQ_imI, turnQ_imJ,
    turnQ_imK] at ha hb hc hd
  have C : ∀ t : ℝ, Real.cos t = 2 * Real.cos (t / 2) ^ 2 - 1 := fun t => by rw [← Real.cos_two_mul]; congr 1; ring
  have S : ∀ t : ℝ, Real.sin t = 2 * Real.sin (t / 2) * Real.cos (t / 2) := fun t => by rw [← Real.sin_two_mul]; congr 1; ring
  have hr := Real.sin_sq_add_cos_sq (r / 2)
  have hp := Real.sin_sq_add_cos_sq (p / 2)
  have hy := Real.sin_sq_add_cos_sq (y / 2)
  rw [C r, C p, C y, S r, S p, S y, ha, hb, hc, hd]
  generalize Real.sin (r / 2) = sr at *
  generalize Real.sin (p / 2) = sp at *
  generalize Real.sin (y / 2) = sy at *
  generalize Real.cos (r / 2) = cr at *
  generalize Real.cos (p / 2) = cp at *
  generalize Real.cos (y / 2) = cy at *
  refine ⟨?_, ?_, ?_, ?_, ?_⟩
  · linear_combination 2 * sr * cr * ((cp ^ 2 - sp ^ 2) * hy - hp)
  · linear_combination (-(sp ^ 2 + cp ^ 2) * (sy ^ 2 + cy ^ 2) - (cp ^ 2 - sp ^ 2)) * hr +
      (-(sy ^ 2 + cy ^ 2) - (2 * cr ^ 2 - 1)) * hp + (-1 + (cr ^ 2 - sr ^ 2) * (cp ^ 2 - sp ^ 2)) * hy
  · linear_combination 2 * sp * cp * ((sy ^ 2 + cy ^ 2) * hr + hy)
  · linear_combination 2 * sy * cy * ((cp ^ 2 - sp ^ 2) * hr - hp)
  · linear_combination (-(sp ^ 2 + cp ^ 2) * (sr ^ 2 + cr ^ 2) - (cp ^ 2 - sp ^ 2)) * hy +
      (-(sr ^ 2 + cr ^ 2) - (2 * cy ^ 2 - 1)) * hp + (-1 + (cy ^ 2 - sy ^ 2) * (cp ^ 2 - sp ^ 2)) * hr

/-- The argument of a disturbed number: it moves by at most `η / (1 - η)`, up to full turns. -/
theorem arg_near {ρ t x y η : ℝ} (hρ : 0 < ρ) (hη : η ≤ 1 / 2) (hx : |x - ρ * Real.cos t| ≤ η / 2 * ρ) (hy : |y - ρ * Real.sin t| ≤ η / 2 * ρ) :
    ∃ k : ℤ, |Complex.arg ⟨x, y⟩ - (t + 2 * Real.pi * k)| ≤ 2 * η := by
  have η0 : 0 ≤ η := by
    have := (abs_nonneg _).trans hx
    by_contra h
    push Not at h
    have : η / 2 * ρ < 0 := mul_neg_of_neg_of_pos (by linarith) hρ
    linarith
  -- turn back by `t`
  obtain ⟨u, hu⟩ : ∃ u, u = (x * Real.cos t + y * Real.sin t) / ρ := ⟨_, rfl⟩
  obtain ⟨v, hv⟩ : ∃ v, v = (y * Real.cos t - x * Real.sin t) / ρ := ⟨_, rfl⟩
  have h1 := Real.sin_sq_add_cos_sq t
  have c1 := Real.abs_cos_le_one t
  have s1 := Real.abs_sin_le_one t
  have hu1 : |u - 1| ≤ η := by
    have e : u - 1 = ((x - ρ * Real.cos t) * Real.cos t + (y - ρ * Real.sin t) * Real.sin t) / ρ := by
      rw [hu]; field_simp; linear_combination ρ * h1
    rw [e, abs_div, abs_of_pos hρ, div_le_iff₀ hρ]
    refine (abs_add_le _ _).trans ?_
    rw [abs_mul, abs_mul]
    have a1 := mul_le_mul hx c1 (abs_nonneg _) ((abs_nonneg _).trans hx)
    have a2 := mul_le_mul hy s1 (abs_nonneg _) ((abs_nonneg _).trans hy)
    linarith
  have hv1 : |v| ≤ η := by
    have e : v = ((y - ρ * Real.sin t) * Real.cos t - (x - ρ * Real.cos t) * Real.sin t) / ρ := by
      rw [hv]; field_simp; ring
    rw [e, abs_div, abs_of_pos hρ, div_le_iff₀ hρ]
    refine (abs_sub _ _).trans ?_
    rw [abs_mul, abs_mul]
    have a1 := mul_le_mul hx s1 (abs_nonneg _) ((abs_nonneg _).trans hx)
    have a2 := mul_le_mul hy c1 (abs_nonneg _) ((abs_nonneg _).trans hy)
    linarith
  have u0 : 1 / 2 ≤ u := by have := (abs_le.1 hu1).1; linarith
  have u1 : 0 < u := by linarith
  obtain ⟨f, hf⟩ : ∃ f, f = Real.arctan (v / u) := ⟨_, rfl⟩
  have hf1 : |f| ≤ 2 * η := by
    rw [hf]
    refine (RealAux.abs_arctan_le _).trans ?_
    rw [abs_div, abs_of_pos u1, div_le_iff₀ u1]
    nlinarith
  obtain ⟨D, hD⟩ : ∃ D, D = Real.sqrt (1 + (v / u) ^ 2) := ⟨_, rfl⟩
  have D0 : 0 < D := by rw [hD]; positivity
  have cf : Real.cos f = 1 / D := by rw [hf, Real.cos_arctan, hD]
  have sf : Real.sin f = v / u / D := by rw [hf, Real.sin_arctan, hD]
  have e : (⟨x, y⟩ : ℂ) = ((ρ * u * D : ℝ) : ℂ) * (Real.Angle.cos ((t + f : ℝ) : Real.Angle) +
      Real.Angle.sin ((t + f : ℝ) : Real.Angle) * Complex.I) := by
    rw [Real.Angle.cos_coe, Real.Angle.sin_coe, Real.cos_add, Real.sin_add, cf, sf]
    apply Complex.ext
    · simp only [Complex.add_re, Complex.ofReal_re, Complex.mul_re, Complex.I_re, Complex.I_im, Complex.ofReal_im]
      rw [hu, hv]
      have : x * Real.cos t + y * Real.sin t ≠ 0 := by intro h; rw [h, zero_div] at hu; linarith
      field_simp
      linear_combination (-x) * h1
    · simp only [Complex.add_im, Complex.ofReal_re, Complex.mul_im, Complex.I_re, Complex.I_im, Complex.ofReal_im]
      rw [hu, hv]
      have : x * Real.cos t + y * Real.sin t ≠ 0 := by intro h; rw [h, zero_div] at hu; linarith
      field_simp
      linear_combination (-y) * h1
  have e2 := Complex.arg_mul_cos_add_sin_mul_I_coe_angle (r := ρ * u * D) (by positivity) ((t + f : ℝ) : Real.Angle)
  rw [← e, Real.Angle.angle_eq_iff_two_pi_dvd_sub] at e2
  obtain ⟨k, hk⟩ := e2
  refine ⟨k, ?_⟩
  rw [show Complex.arg ⟨x, y⟩ - (t + 2 * Real.pi * k) = f by linarith]
  exact hf1

/-- A disturbed sine: the arcsine moves by at most `κ / cos p` when the sine moves by `κ / 2` and `4 κ ≤ cos² p`. -/
theorem arcsin_near {p s κ : ℝ} (hp : |p| ≤ Real.pi / 2) (hκ : 0 < κ) (hc : 4 * κ ≤ Real.cos p ^ 2) (hs : |s - Real.sin p| ≤ κ / 2) :
    |Real.arcsin s - p| ≤ κ / Real.cos p ∧ |s| ≤ 1 := by
  obtain ⟨p1, p2⟩ := abs_le.1 hp
  obtain ⟨s1, s2⟩ := abs_le.1 hs
  have c0 : 0 ≤ Real.cos p := Real.cos_nonneg_of_mem_Icc ⟨p1, p2⟩
  have c1 := Real.cos_le_one p
  have c2 : 0 < Real.cos p := by
    refine lt_of_le_of_ne c0 fun h => ?_
    rw [← h] at hc; linarith
  obtain ⟨h, hh⟩ : ∃ h, h = κ / Real.cos p := ⟨_, rfl⟩
  have hhc : h * Real.cos p = κ := by rw [hh]; field_simp
  have h0 : 0 < h := by rw [hh]; positivity
  have h4 : h ≤ Real.cos p / 4 := by rw [hh, div_le_iff₀ c2]; nlinarith
  have hsq : h ^ 2 ≤ κ / 4 := by rw [← hhc]; nlinarith
  have g1 : p + h ≤ Real.pi / 2 := by
    have h := Real.sin_le (x := Real.pi / 2 - p) (by linarith)
    rw [Real.sin_pi_div_two_sub] at h
    linarith
  have g2 : -(Real.pi / 2) ≤ p - h := by
    have h := Real.sin_le (x := p + Real.pi / 2) (by linarith)
    rw [Real.sin_add_pi_div_two] at h
    linarith
  have ch := Real.one_sub_sq_div_two_le_cos (x := h)
  have ch1 := Real.cos_le_one h
  have sh := Real.sin_gt_sub_cube (x := h) h0
  have sp := Real.sin_le_one p
  have sm := Real.neg_one_le_sin p
  have m : Real.cos p * (h - h ^ 3 / 6) ≤ Real.cos p * Real.sin h := mul_le_mul_of_nonneg_left sh.le c0
  have m2 : κ * (15 / 16) ≤ Real.cos p * Real.sin h := by
    refine le_trans ?_ m
    have : Real.cos p * (h - h ^ 3 / 6) = κ * (1 - h ^ 2 / 6) := by rw [← hhc]; ring
    rw [this]
    refine mul_le_mul_of_nonneg_left ?_ hκ.le
    nlinarith
  have up : s ≤ Real.sin (p + h) := by
    rw [Real.sin_add]
    nlinarith
  have lo : Real.sin (p - h) ≤ s := by
    rw [Real.sin_sub]
    nlinarith
  refine ⟨?_, abs_le.2 ⟨(Real.neg_one_le_sin _).trans lo, up.trans (Real.sin_le_one _)⟩⟩
  rw [← hh, abs_le]
  constructor
  · have h := Real.arcsin_le_arcsin lo
    rw [Real.arcsin_sin (by linarith) (by linarith)] at h
    linarith
  · have h := Real.arcsin_le_arcsin up
    rw [Real.arcsin_sin (by linarith) (by linarith)] at h
    linarith

/-- How the five expressions of `to_euler` move with the quaternion. -/
theorem quad_near {a b c d a' b' c' d' ε : ℝ} (hQ : a' ^ 2 + b' ^ 2 + c' ^ 2 + d' ^ 2 = 1)
    (he : (a - a') ^ 2 + (b - b') ^ 2 + (c - c') ^ 2 + (d - d') ^ 2 ≤ ε ^ 2) (ε0 : 0 ≤ ε) :
    |2 * (a * b + c * d) - 2 * (a' * b' + c' * d')| ≤ 2 * ε + ε ^ 2 ∧
    |2 * (a * c - b * d) - 2 * (a' * c' - b' * d')| ≤ 2 * ε + ε ^ 2 ∧
    |2 * (b ^ 2 + c ^ 2) - 2 * (b' ^ 2 + c' ^ 2)| ≤ 4 * ε + 2 * ε ^ 2 := by
  obtain ⟨w, hw⟩ : ∃ w, w = a - a' := ⟨_, rfl⟩
  obtain ⟨x, hx⟩ : ∃ x, x = b - b' := ⟨_, rfl⟩
  obtain ⟨y, hy⟩ : ∃ y, y = c - c' := ⟨_, rfl⟩
  obtain ⟨z, hz⟩ : ∃ z, z = d - d' := ⟨_, rfl⟩
  rw [← hw, ← hx, ← hy, ← hz] at he
  rw [show a = a' + w by linarith, show b = b' + x by linarith, show c = c' + y by linarith, show d = d' + z by linarith]
  -- Cauchy-Schwarz
  have cs : ∀ p q r t : ℝ, p ^ 2 + q ^ 2 + r ^ 2 + t ^ 2 ≤ 1 → |p * w + q * x + r * y + t * z| ≤ ε := by
    intro p q r t h1
    refine abs_le_of_sq_le_sq ?_ ε0
    have : (p * w + q * x + r * y + t * z) ^ 2 ≤ (p ^ 2 + q ^ 2 + r ^ 2 + t ^ 2) * (w ^ 2 + x ^ 2 + y ^ 2 + z ^ 2) := by
      nlinarith [sq_nonneg (p * x - q * w), sq_nonneg (p * y - r * w), sq_nonneg (p * z - t * w), sq_nonneg (q * y - r * x),
        sq_nonneg (q * z - t * x), sq_nonneg (r * z - t * y)]
    refine this.trans ?_
    have h2 : 0 ≤ w ^ 2 + x ^ 2 + y ^ 2 + z ^ 2 := by positivity
    nlinarith
  have k1 := abs_le.1 (cs b' a' d' c' (by linarith))
  have k2 := abs_le.1 (cs c' (-d') a' (-b') (by nlinarith))
  have k3 := abs_le.1 (cs 0 b' c' 0 (by nlinarith))
  have n1 : |2 * (w * x + y * z)| ≤ ε ^ 2 := by
    rw [abs_le]; constructor <;> linarith [sq_nonneg (w - x), sq_nonneg (w + x), sq_nonneg (y - z), sq_nonneg (y + z)]
  have n2 : |2 * (w * y - x * z)| ≤ ε ^ 2 := by
    rw [abs_le]; constructor <;> linarith [sq_nonneg (w - y), sq_nonneg (w + y), sq_nonneg (x - z), sq_nonneg (x + z)]
  have n3 : |2 * (x ^ 2 + y ^ 2)| ≤ 2 * ε ^ 2 := by
    rw [abs_le]; constructor <;> linarith [sq_nonneg w, sq_nonneg x, sq_nonneg y, sq_nonneg z]
  rw [abs_le] at n1 n2 n3
  refine ⟨?_, ?_, ?_⟩ <;> rw [abs_le] <;> constructor <;> linarith

end Micromath.Geom
