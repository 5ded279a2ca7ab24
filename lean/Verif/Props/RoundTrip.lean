import Verif.Props.Trig
import Verif.Props.Asin
import Verif.Props.Atan2
import Verif.Props.LogAll
import Verif.Props.Exp
import Verif.Real.Euler

/-!
# C110: identities between functions: `sin^2 + cos^2`, `atan2` of `sin` and `cos`, `asin` of `sin`, `exp` and `ln`
-/

set_option exponentiation.threshold 1000

namespace Micromath.Props
open F32 Spec RealAux

variable [Cfg]

/-- **C110.** The squares of `sin(x)` and `cos(x)` sum to 1 within `0.0057`, for `|x| <= 4096`. -/
theorem C110_pythagoras {x : F32} (hx : x.isFinite = true) (hb : |x.val| ≤ 4096) :
    |x.sin.val ^ 2 + x.cos.val ^ 2 - 1| ≤ 0.0057 := by
  obtain ⟨-, -, hs⟩ := C36_sin hx hb
  obtain ⟨-, -, hc⟩ := C34_cos hx hb
  suffices h : |(x.sin.val : ℝ) ^ 2 + (x.cos.val : ℝ) ^ 2 - 1| ≤ 0.0057 by
    have e : ((|x.sin.val ^ 2 + x.cos.val ^ 2 - 1| : ℚ) : ℝ) ≤ ((0.0057 : ℚ) : ℝ) := by
      push_cast
      refine h.trans (by norm_num)
    exact_mod_cast e
  obtain ⟨d, hd⟩ : ∃ d, d = (x.sin.val : ℝ) - Real.sin x.val := ⟨_, rfl⟩
  obtain ⟨e, he⟩ : ∃ e, e = (x.cos.val : ℝ) - Real.cos x.val := ⟨_, rfl⟩
  rw [← hd] at hs
  rw [← he] at hc
  have e1 : (x.sin.val : ℝ) = Real.sin x.val + d := by rw [hd]; ring
  have e2 : (x.cos.val : ℝ) = Real.cos x.val + e := by rw [he]; ring
  have h1 := Real.sin_sq_add_cos_sq (x.val : ℝ)
  rw [e1, e2]
  generalize Real.sin (x.val : ℝ) = s at *
  generalize Real.cos (x.val : ℝ) = c at *
  obtain ⟨d1, d2⟩ := abs_le.1 hs
  obtain ⟨c1, c2⟩ := abs_le.1 hc
  have hd2 : d ^ 2 ≤ 0.002 ^ 2 := by nlinarith
  have he2 : e ^ 2 ≤ 0.002 ^ 2 := by nlinarith
  have cs : (s * d + c * e) ^ 2 ≤ 0.000008 := by
    have : (s * d + c * e) ^ 2 ≤ (s ^ 2 + c ^ 2) * (d ^ 2 + e ^ 2) := by nlinarith [sq_nonneg (s * e - c * d)]
    rw [h1] at this
    norm_num at *
    linarith
  have hcs : |s * d + c * e| ≤ 0.00283 := abs_le_of_sq_le_sq (cs.trans (by norm_num)) (by norm_num)
  obtain ⟨k1, k2⟩ := abs_le.1 hcs
  rw [show (s + d) ^ 2 + (c + e) ^ 2 - 1 = 2 * (s * d + c * e) + (d ^ 2 + e ^ 2) + (s ^ 2 + c ^ 2 - 1) by ring, h1, sub_self, add_zero, abs_le]
  have := sq_nonneg d
  have := sq_nonneg e
  constructor <;> norm_num at * <;> linarith

/-- **C110.** `atan2(sin t, cos t)` is `t` up to a multiple of `2 pi`, within `0.011`, for `|t| <= 4096`. -/
theorem C110_atan2_sin_cos {t : F32} (ht : t.isFinite = true) (hb : |t.val| ≤ 4096) :
    ∃ k : ℤ, |((t.sin.atan2 t.cos).val : ℝ) - (t.val + 2 * Real.pi * k)| ≤ 0.011 := by
  obtain ⟨fs, bs, hs⟩ := C36_sin ht hb
  obtain ⟨fc, bc, hc⟩ := C34_cos ht hb
  have hp := C110_pythagoras ht hb
  have hM : (1 : ℚ) / 2 ^ 62 ≤ max |t.cos.val| |t.sin.val| := by
    by_contra h
    rw [not_le, max_lt_iff] at h
    have a1 : t.cos.val ^ 2 ≤ (1 / 2 ^ 62) ^ 2 := by rw [← sq_abs]; exact pow_le_pow_left₀ (abs_nonneg _) h.1.le 2
    have a2 : t.sin.val ^ 2 ≤ (1 / 2 ^ 62) ^ 2 := by rw [← sq_abs]; exact pow_le_pow_left₀ (abs_nonneg _) h.2.le 2
    have := (abs_le.1 hp).1
    norm_num at *
    linarith
  obtain ⟨k, hk⟩ := Geom.arg_near (ρ := 1) (t := (t.val : ℝ)) (x := t.cos.val) (y := t.sin.val) (η := 0.004) one_pos (by norm_num)
    (by rw [one_mul]; refine hc.trans (by norm_num)) (by rw [one_mul]; refine hs.trans (by norm_num))
  obtain ⟨k1, k2⟩ := abs_le.1 hk
  rcases C81_atan2_accuracy fc fs (bc.trans (by norm_num)) (bs.trans (by norm_num)) hM with h | ⟨-, -, -, h⟩
  · refine ⟨k, ?_⟩
    obtain ⟨a1, a2⟩ := abs_le.1 h
    rw [abs_le]
    constructor <;> norm_num at * <;> linarith
  · refine ⟨k + 1, ?_⟩
    obtain ⟨a1, a2⟩ := abs_le.1 h
    rw [abs_le]
    push_cast
    constructor <;> norm_num at * <;> linarith

/-- **C110.** `asin(sin x)` is `x` within `0.022 + 0.004 / cos x` for `|x| <= 1.4`. -/
theorem C110_asin_sin {x : F32} (hx : x.isFinite = true) (hb : |x.val| ≤ 1.4) :
    ∃ y, x.sin.asin = .ok y ∧ |(y.val : ℝ) - x.val| ≤ 0.022 + 0.004 / Real.cos x.val := by
  obtain ⟨fs, bs, hs⟩ := C36_sin hx (hb.trans (by norm_num))
  have hbr : |(x.val : ℝ)| ≤ 1.4 := by
    have : ((|x.val| : ℚ) : ℝ) ≤ ((1.4 : ℚ) : ℝ) := by exact_mod_cast hb
    push_cast at this
    exact this.trans (by norm_num)
  have hpi := Real.pi_gt_d2
  have hc : 4 * 0.004 ≤ Real.cos x.val ^ 2 := by
    have h1 : Real.cos 1.4 ≤ Real.cos |(x.val : ℝ)| := Real.cos_le_cos_of_nonneg_of_le_pi (abs_nonneg _) (by linarith) hbr
    rw [Real.cos_abs] at h1
    have h2 : (0.13 : ℝ) ≤ Real.cos 1.4 := by
      have : Real.cos 1.4 = Real.sin (Real.pi / 2 - 1.4) := by rw [Real.sin_pi_div_two_sub]
      rw [this]
      have l := Real.sin_gt_sub_cube (x := Real.pi / 2 - 1.4) (by linarith)
      have hpi2 := Real.pi_lt_d2
      have u : Real.pi / 2 - 1.4 ≤ 0.175 := by linarith
      have u2 : 0.17 ≤ Real.pi / 2 - 1.4 := by linarith
      have : (Real.pi / 2 - 1.4) ^ 3 ≤ 0.175 ^ 3 := pow_le_pow_left₀ (by linarith) u 3
      norm_num at *
      linarith
    have : (0.13 : ℝ) ≤ Real.cos x.val := h2.trans h1
    nlinarith
  obtain ⟨h1, h2⟩ := Geom.arcsin_near (p := (x.val : ℝ)) (s := x.sin.val) (κ := 0.004) (hbr.trans (by linarith)) (by norm_num) hc
    (hs.trans (by norm_num))
  have h2' : |x.sin.val| ≤ 1 := by exact_mod_cast h2
  obtain ⟨y, hy, e⟩ := C82_asin fs h2'
  refine ⟨y, hy, ?_⟩
  calc |(y.val : ℝ) - x.val| = |((y.val : ℝ) - Real.arcsin x.sin.val) + (Real.arcsin x.sin.val - x.val)| := by congr 1; ring
    _ ≤ _ := (abs_add_le _ _).trans (add_le_add e h1)

omit [Cfg] in
theorem exp_small {d : ℝ} (h : |d| ≤ 0.00008) : |Real.exp d - 1| ≤ 0.00009 := by
  have h1 : |d| ≤ 1 := h.trans (by norm_num)
  have := Real.abs_exp_sub_one_sub_id_le h1
  have h2 : d ^ 2 ≤ 0.00008 ^ 2 := by rw [← sq_abs]; exact pow_le_pow_left₀ (abs_nonneg _) h 2
  obtain ⟨a1, a2⟩ := abs_le.1 this
  obtain ⟨b1, b2⟩ := abs_le.1 h
  rw [abs_le]
  constructor <;> norm_num at * <;> linarith

/-- **C110.** `exp(ln(x))` is within `0.31%` of `x` for `1 <= x <= 3e38`. -/
theorem C110_exp_ln {x : F32} (hx : x.isFinite = true) (h1 : 1 ≤ x.val) (h2 : x.val ≤ 3 * 10 ^ 38) :
    ∃ r, x.ln.exp = .ok r ∧ r.isFinite = true ∧ |r.val - x.val| ≤ 0.0031 * x.val := by
  obtain ⟨fl, el⟩ := C29_ln x hx h1
  have h1r : (1 : ℝ) ≤ x.val := by exact_mod_cast h1
  have h2r : (x.val : ℝ) ≤ 3 * 10 ^ 38 := by exact_mod_cast h2
  have l0 : 0 ≤ Real.log x.val := Real.log_nonneg h1r
  have l1 : Real.log x.val ≤ 88.69 := by
    rw [Real.log_le_iff_le_exp (by linarith)]
    refine h2r.trans ?_
    have e1 := Real.exp_one_gt_d9
    have : Real.exp 88.69 = Real.exp 1 ^ 88 * Real.exp 0.69 := by
      rw [← Real.exp_nat_mul, ← Real.exp_add]; norm_num
    rw [this]
    have e2 : (1.99 : ℝ) ≤ Real.exp 0.69 := by
      have := Real.sum_le_exp_of_nonneg (x := 0.69) (by norm_num) 7
      refine le_trans ?_ this
      norm_num [Finset.sum_range_succ, Nat.factorial]
    have e3 : (2.7182818283 : ℝ) ^ 88 ≤ Real.exp 1 ^ 88 := pow_le_pow_left₀ (by norm_num) e1.le 88
    have := mul_le_mul e3 e2 (by norm_num) (by positivity)
    refine le_trans ?_ this
    norm_num
  obtain ⟨a1, a2⟩ := abs_le.1 el
  have hlo : (-87.3 : ℚ) ≤ x.ln.val := by
    have : ((-87.3 : ℚ) : ℝ) ≤ x.ln.val := by push_cast; norm_num at *; linarith
    exact_mod_cast this
  have hhi : x.ln.val ≤ (88.7 : ℚ) := by
    have : (x.ln.val : ℝ) ≤ ((88.7 : ℚ) : ℝ) := by push_cast; norm_num at *; linarith
    exact_mod_cast this
  obtain ⟨r, hr, fr, er⟩ := C28_exp x.ln fl hlo hhi
  refine ⟨r, hr, fr, ?_⟩
  suffices h : |(r.val : ℝ) - x.val| ≤ 0.0031 * x.val by
    have : ((|r.val - x.val| : ℚ) : ℝ) ≤ ((0.0031 * x.val : ℚ) : ℝ) := by push_cast; refine h.trans (by norm_num)
    exact_mod_cast this
  obtain ⟨d, hd⟩ : ∃ d, d = (x.ln.val : ℝ) - Real.log x.val := ⟨_, rfl⟩
  rw [← hd] at el
  have hexp : Real.exp x.ln.val = x.val * Real.exp d := by
    rw [show (x.ln.val : ℝ) = Real.log x.val + d by rw [hd]; ring, Real.exp_add, Real.exp_log (by linarith)]
  rw [hexp] at er
  have hs := exp_small el
  obtain ⟨s1, s2⟩ := abs_le.1 hs
  obtain ⟨c1, c2⟩ := abs_le.1 er
  have X0 : (0 : ℝ) < x.val := by linarith
  have p1 := mul_le_mul_of_nonneg_left s1 X0.le
  have p2 := mul_le_mul_of_nonneg_left s2 X0.le
  rw [abs_le]
  constructor <;> norm_num at * <;> linarith

/-- **C110.** `ln(exp(x))` is within `0.0032` of `x` for `0.0031 <= x <= 88.7`. -/
theorem C110_ln_exp {x : F32} (hx : x.isFinite = true) (h1 : 0.0031 ≤ x.val) (h2 : x.val ≤ 88.7) :
    ∃ r, x.exp = .ok r ∧ r.ln.isFinite = true ∧ |r.ln.val - x.val| ≤ 0.0032 := by
  obtain ⟨r, hr, fr, er⟩ := C28_exp x hx (le_trans (by norm_num) h1) h2
  have h1r : (0.0031 : ℝ) ≤ x.val := by
    have : ((0.0031 : ℚ) : ℝ) ≤ x.val := by exact_mod_cast h1
    refine le_trans (by norm_num) this
  have E1 : 1.0031 ≤ Real.exp x.val := by
    have := Real.add_one_le_exp (x.val : ℝ)
    norm_num at *
    linarith
  obtain ⟨a1, a2⟩ := abs_le.1 er
  have r1 : (1 : ℝ) ≤ r.val := by norm_num at *; linarith
  obtain ⟨fl, el⟩ := C29_ln r fr (by exact_mod_cast r1)
  refine ⟨r, hr, fl, ?_⟩
  suffices h : |(r.ln.val : ℝ) - x.val| ≤ 0.0032 by
    have : ((|r.ln.val - x.val| : ℚ) : ℝ) ≤ ((0.0032 : ℚ) : ℝ) := by push_cast; refine h.trans (by norm_num)
    exact_mod_cast this
  have E0 : 0 < Real.exp x.val := Real.exp_pos _
  have R0 : (0 : ℝ) < r.val := by linarith
  have q : Real.log r.val - x.val = Real.log (r.val / Real.exp x.val) := by
    rw [Real.log_div R0.ne' E0.ne', Real.log_exp]
  have qlo : 0.997 ≤ r.val / Real.exp x.val := by rw [le_div_iff₀ E0]; norm_num at *; linarith
  have qhi : r.val / Real.exp x.val ≤ 1.003 := by rw [div_le_iff₀ E0]; norm_num at *; linarith
  have q0 : 0 < r.val / Real.exp x.val := by positivity
  have l1 : Real.log (r.val / Real.exp x.val) ≤ 0.003 := (Real.log_le_sub_one_of_pos q0).trans (by norm_num at *; linarith)
  have l2 : -0.00302 ≤ Real.log (r.val / Real.exp x.val) := by
    have := Real.one_sub_inv_le_log_of_pos q0
    refine le_trans ?_ this
    have : (r.val / Real.exp x.val)⁻¹ ≤ 0.997⁻¹ := inv_anti₀ (by norm_num) qlo
    norm_num at this ⊢
    linarith
  rw [← q] at l1 l2
  obtain ⟨b1, b2⟩ := abs_le.1 el
  rw [abs_le]
  constructor <;> norm_num at * <;> linarith

/-- `2.0` meets the hypotheses of all five theorems but `C110_asin_sin`, which `1.0` meets. -/
example : (lit 2 1).isFinite = true ∧ |(lit 2 1).val| ≤ 4096 ∧ 1 ≤ (lit 2 1).val ∧ (lit 2 1).val ≤ 88.7 ∧ |one.val| ≤ 1.4 := by
  rw [val_lit_2_1, val_one]
  exact ⟨fin_lit_2_1, by norm_num, by norm_num, by norm_num, by norm_num⟩

end Micromath.Props
