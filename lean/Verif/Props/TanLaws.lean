import Verif.Props.TrigSym
import Verif.Props.Asin

/-!
# C133: `tan` up to its poles, and `tan` and `atan` as inverses
-/

set_option exponentiation.threshold 1000

namespace Micromath.Props
open F32 Spec RealAux
variable [Cfg]

omit [Cfg] in
theorem sin_cos_sum (t : ℝ) : |Real.cos t| + |Real.sin t| ≤ 1.41422 := by
  have h := Real.sin_sq_add_cos_sq t
  rw [← sq_abs (Real.sin t), ← sq_abs (Real.cos t)] at h
  have a := abs_nonneg (Real.cos t)
  have b := abs_nonneg (Real.sin t)
  nlinarith [sq_nonneg (|Real.cos t| - |Real.sin t|)]

omit [Cfg] in
/-- Cross product of the computed and the true direction. -/
theorem tan_cross_err {S C t e : ℝ} (hs : |S - Real.sin t| ≤ e) (hc : |C - Real.cos t| ≤ e) :
    |S * Real.cos t - C * Real.sin t| ≤ 1.41422 * e := by
  have e0 : 0 ≤ e := (abs_nonneg _).trans hs
  have : S * Real.cos t - C * Real.sin t = (S - Real.sin t) * Real.cos t - (C - Real.cos t) * Real.sin t := by ring
  rw [this]
  refine (abs_sub _ _).trans ?_
  rw [abs_mul, abs_mul]
  have h1 := mul_le_mul_of_nonneg_right hs (abs_nonneg (Real.cos t))
  have h2 := mul_le_mul_of_nonneg_right hc (abs_nonneg (Real.sin t))
  have := mul_le_mul_of_nonneg_left (sin_cos_sum t) e0
  linarith

/-- The float quotient against the quotient of the floats. -/
theorem tan_quot {x : F32} (fs : x.sin.isFinite = true) (fc : x.cos.isFinite = true) (bs : |x.sin.val| ≤ 1 + 1 / 2 ^ 20) {k : ℚ}
    (hk : 1 / 1000 ≤ k) (k2 : k ≤ 2) (hc : k ≤ |x.cos.val|) :
    x.tan.isFinite = true ∧ |x.tan.val - x.sin.val / x.cos.val| ≤ 6 / 10 ^ 8 / k := by
  have kp : 0 < k := lt_of_lt_of_le (by norm_num) hk
  have cp : 0 < |x.cos.val| := kp.trans_le hc
  have c0 : x.cos.val ≠ 0 := abs_pos.1 cp
  have hq : |x.sin.val / x.cos.val| ≤ (1 + 1 / 2 ^ 20) / k := by
    rw [abs_div]
    exact div_le_div₀ (by norm_num) bs kp hc
  have hq2 : (1 + 1 / 2 ^ 20) / k ≤ 2000 := by
    rw [div_le_iff₀ kp]; norm_num at hk ⊢; linarith
  obtain ⟨f, v⟩ := div_val fs fc c0 (lt_of_le_of_lt (hq.trans hq2) (by norm_num [ovf]))
  refine ⟨f, ?_⟩
  show |(x.sin / x.cos).val - _| ≤ _
  rw [v]

  refine (RN_err _).trans (max_le ?_ ?_)
  · rw [le_div_iff₀ kp]; norm_num; linarith
  · have := div_le_div_of_nonneg_right hq (show (0 : ℚ) ≤ 2 ^ 24 by norm_num)
    refine this.trans ?_
    rw [div_div, div_le_div_iff₀ (by positivity) kp]
    norm_num
    nlinarith

/-- What both theorems below need to know about `sin` and `cos`. -/
structure Dir (x : F32) (e : ℝ) : Prop where
  fs : x.sin.isFinite = true
  fc : x.cos.isFinite = true
  bs : |x.sin.val| ≤ 1 + 1 / 2 ^ 20
  bc : |x.cos.val| ≤ 1 + 1 / 2 ^ 20
  es : |(x.sin.val : ℝ) - Real.sin x.val| ≤ e
  ec : |(x.cos.val : ℝ) - Real.cos x.val| ≤ e

theorem dir_wide {x : F32} (hx : x.isFinite = true) (hb : |x.val| ≤ 4096) : Dir x 0.002 := by
  obtain ⟨fs, bs, es⟩ := C36_sin hx hb
  obtain ⟨fc, bc, ec⟩ := C34_cos hx hb
  exact ⟨fs, fc, bs, bc, es, ec⟩

theorem dir_near {x : F32} (hx : x.isFinite = true) (hb : |x.val| ≤ 16) : Dir x 0.00111 := by
  obtain ⟨fs, bs, es⟩ := sin_main hx (hb.trans (by norm_num))
  obtain ⟨fc, bc, ec⟩ := cos_main hx (hb.trans (by norm_num))
  have h := abs_cast_le hb
  push_cast at h
  refine ⟨fs, fc, bs, bc, es.trans ?_, ec.trans ?_⟩ <;> norm_num at h ⊢ <;> linarith

theorem cos_lower {x : F32} {e : ℝ} (h : Dir x e) (he : e ≤ 0.002) (hc : 1 / 100 ≤ |Real.cos x.val|) :
    |Real.cos x.val| * (1 - 100 * e) ≤ |(x.cos.val : ℝ)| ∧ (1 : ℚ) / 1000 ≤ |x.cos.val| ∧ |x.cos.val| ≤ 2 := by
  have e0 : 0 ≤ e := (abs_nonneg _).trans h.ec
  have h1 := abs_sub_abs_le_abs_sub (Real.cos x.val) (x.cos.val : ℝ)
  have h2 := h.ec
  rw [abs_sub_comm] at h2
  have h3 : |Real.cos x.val| * (1 - 100 * e) ≤ |(x.cos.val : ℝ)| := by nlinarith
  refine ⟨h3, ?_, h.bc.trans (by norm_num)⟩
  have h4 : ((1 / 1000 : ℚ) : ℝ) ≤ ((|x.cos.val| : ℚ) : ℝ) := by
    push_cast
    norm_num at he hc ⊢
    nlinarith
  exact_mod_cast h4

theorem tan_round {x : F32} {e : ℝ} (h : Dir x e) (he : e ≤ 0.002) (hc : 1 / 100 ≤ |Real.cos x.val|) :
    x.tan.isFinite = true ∧ |(x.tan.val : ℝ) - x.sin.val / x.cos.val| ≤ 7.5 / 10 ^ 8 / |Real.cos x.val| := by
  obtain ⟨l, k1, k2⟩ := cos_lower h he hc
  obtain ⟨f, r⟩ := tan_quot h.fs h.fc h.bs k1 k2 le_rfl
  refine ⟨f, ?_⟩
  have rR := abs_cast_le r
  push_cast at rR
  refine rR.trans ?_
  have cp : 0 < |Real.cos x.val| := lt_of_lt_of_le (by norm_num) hc
  have l' : 0.8 * |Real.cos x.val| ≤ |(x.cos.val : ℝ)| := by norm_num at he l ⊢; nlinarith
  rw [div_le_div_iff₀ (lt_of_lt_of_le (by positivity) l') cp]
  norm_num at l' ⊢
  linarith

theorem tan_err {x : F32} {e : ℝ} (h : Dir x e) (he : e ≤ 0.002) (hc : 1 / 100 ≤ |Real.cos x.val|) :
    x.tan.isFinite = true ∧
      |(x.tan.val : ℝ) - Real.tan x.val| ≤ (1.41422 * e / (1 - 100 * e) + 1 / 10 ^ 7) / Real.cos x.val ^ 2 := by
  have e0 : 0 ≤ e := (abs_nonneg _).trans h.ec
  obtain ⟨l, -, -⟩ := cos_lower h he hc
  obtain ⟨f, r⟩ := tan_round h he hc
  refine ⟨f, ?_⟩
  have cr := tan_cross_err h.es h.ec
  have cp : 0 < |Real.cos x.val| := lt_of_lt_of_le (by norm_num) hc
  have c0 : Real.cos x.val ≠ 0 := abs_pos.1 cp
  have ep : 0 < 1 - 100 * e := by norm_num at he ⊢; linarith
  have Cp : 0 < |(x.cos.val : ℝ)| := lt_of_lt_of_le (by positivity) l
  have C0 : (x.cos.val : ℝ) ≠ 0 := abs_pos.1 Cp
  have hq : |(x.sin.val : ℝ) / x.cos.val - Real.tan x.val| ≤ 1.41422 * e / (1 - 100 * e) / Real.cos x.val ^ 2 := by
    have : (x.sin.val : ℝ) / x.cos.val - Real.tan x.val =
        (x.sin.val * Real.cos x.val - x.cos.val * Real.sin x.val) / (x.cos.val * Real.cos x.val) := by
      rw [Real.tan_eq_sin_div_cos]; field_simp
    rw [this, abs_div, abs_mul, ← sq_abs (Real.cos x.val), div_div]
    refine div_le_div₀ (by positivity) cr (by positivity) ?_
    rw [pow_two, ← mul_assoc]
    refine mul_le_mul_of_nonneg_right ?_ cp.le
    linarith
  have r' : |(x.tan.val : ℝ) - x.sin.val / x.cos.val| ≤ 1 / 10 ^ 7 / Real.cos x.val ^ 2 := by
    refine r.trans ?_
    rw [← sq_abs (Real.cos x.val), div_le_div_iff₀ cp (by positivity)]
    have := Real.abs_cos_le_one (x.val : ℝ)
    generalize |Real.cos x.val| = c at *
    norm_num
    nlinarith
  refine (abs_sub_le _ _ _).trans ((add_le_add r' hq).trans (le_of_eq ?_))
  rw [add_div]; ring

/-- **C133.** The error of `tan` is at most `0.0036 (1 + tan² x)` for `|x| <= 4096` down to `|cos x| = 0.01`, and at most
half of that for `|x| <= 16`. -/
theorem C133_tan {x : F32} (hx : x.isFinite = true) (hb : |x.val| ≤ 4096) (hc : 1 / 100 ≤ |Real.cos x.val|) :
    x.tan.isFinite = true ∧ |(x.tan.val : ℝ) - Real.tan x.val| ≤ 0.0036 * (1 + Real.tan x.val ^ 2) ∧
      (|x.val| ≤ 16 → |(x.tan.val : ℝ) - Real.tan x.val| ≤ 0.0018 * (1 + Real.tan x.val ^ 2)) := by
  have cp : 0 < |Real.cos x.val| := lt_of_lt_of_le (by norm_num) hc
  have c0 : Real.cos x.val ≠ 0 := abs_pos.1 cp
  have hs : 1 + Real.tan x.val ^ 2 = 1 / Real.cos x.val ^ 2 := by
    rw [Real.tan_eq_sin_div_cos]
    field_simp
    linarith [Real.sin_sq_add_cos_sq (x.val : ℝ)]
  have c2 : 0 < Real.cos x.val ^ 2 := by positivity
  obtain ⟨f, h⟩ := tan_err (dir_wide hx hb) le_rfl hc
  refine ⟨f, h.trans ?_, fun hn => (tan_err (dir_near hx hn) (by norm_num) hc).2.trans ?_⟩ <;>
  · rw [hs, mul_one_div]
    gcongr
    norm_num

omit [Cfg] in
theorem near_pos {a b : ℝ} (h : |a - b| < |b|) : 0 < a * b := by
  rcases lt_trichotomy b 0 with hb | hb | hb
  · rw [abs_of_neg hb, abs_lt] at h
    exact mul_pos_of_neg_of_neg (by linarith [h.2]) hb
  · rw [hb, abs_zero] at h; exact absurd (abs_nonneg _) (not_le.2 h)
  · rw [abs_of_pos hb, abs_lt] at h
    exact mul_pos (by linarith [h.1]) hb

/-- **C133.** `tan` has the right sign wherever the true sine and cosine exceed `0.0021` in magnitude. -/
theorem C133_tan_sign {x : F32} (hx : x.isFinite = true) (hb : |x.val| ≤ 4096) (hc : 0.01 ≤ |Real.cos x.val|)
    (hs : 0.0021 ≤ |Real.sin x.val|) : 0 < (x.tan.val : ℝ) * Real.tan x.val := by
  have h := dir_wide hx hb
  have hc' : 1 / 100 ≤ |Real.cos x.val| := by norm_num at hc ⊢; exact hc
  obtain ⟨f, r⟩ := tan_round h le_rfl hc'
  have cp : 0 < |Real.cos x.val| := lt_of_lt_of_le (by norm_num) hc
  have k1 := near_pos (h.es.trans_lt (lt_of_lt_of_le (by norm_num) hs))
  have k2 := near_pos (h.ec.trans_lt (lt_of_lt_of_le (by norm_num) hc))
  have C0 : (x.cos.val : ℝ) ≠ 0 := by intro h0; rw [h0, zero_mul] at k2; exact lt_irrefl _ k2
  have c0 : Real.cos x.val ≠ 0 := abs_pos.1 cp
  have hS : (0.0001 : ℝ) ≤ |(x.sin.val : ℝ)| := by
    have := abs_sub_abs_le_abs_sub (Real.sin x.val) (x.sin.val : ℝ)
    have h' := h.es
    rw [abs_sub_comm] at h'
    norm_num at this h' hs ⊢
    linarith
  have hC : |(x.cos.val : ℝ)| ≤ 2 := by
    have := abs_cast_le (h.bc.trans (show (1 : ℚ) + 1 / 2 ^ 20 ≤ 2 by norm_num))
    push_cast at this; exact this
  have k3 : 0 < (x.tan.val : ℝ) * (x.sin.val / x.cos.val) := by
    refine near_pos (r.trans_lt ?_)
    rw [abs_div, div_lt_div_iff₀ cp (abs_pos.2 C0)]
    have : 0.0001 * 0.01 ≤ |(x.sin.val : ℝ)| * |Real.cos x.val| := mul_le_mul hS hc (by norm_num) (abs_nonneg _)
    norm_num at this hC ⊢
    linarith
  have k4 : 0 < (x.sin.val / x.cos.val : ℝ) * Real.tan x.val := by
    rw [Real.tan_eq_sin_div_cos, div_mul_div_comm]
    exact div_pos k1 k2
  have k5 := mul_pos k3 k4
  have t0 : (x.sin.val / x.cos.val : ℝ) ≠ 0 := by intro h0; rw [h0, mul_zero] at k3; exact lt_irrefl _ k3
  have e : (x.tan.val : ℝ) * (x.sin.val / x.cos.val) * ((x.sin.val / x.cos.val : ℝ) * Real.tan x.val) =
      (x.tan.val * Real.tan x.val) * (x.sin.val / x.cos.val : ℝ) ^ 2 := by ring
  rw [e] at k5
  exact (pos_iff_pos_of_mul_pos k5).2 (by positivity)

omit [Cfg] in
/-- Angle between the computed and the true direction. -/
theorem angle_err {S C t e : ℝ} (ht : |t| < Real.pi / 2) (hC : 0 < C) (hs : |S - Real.sin t| ≤ e) (hc : |C - Real.cos t| ≤ e) (he : e ≤ 0.002) :
    |Real.arctan (S / C) - t| ≤ 1.41422 * e / (1 - 1.41422 * e) := by
  have e0 : 0 ≤ e := (abs_nonneg _).trans hs
  have hct : 0 < Real.cos t := Real.cos_pos_of_mem_Ioo ⟨by linarith [(abs_lt.1 ht).1], (abs_lt.1 ht).2⟩
  have cr := tan_cross_err hs hc
  have dt : 1 - 1.41422 * e ≤ C * Real.cos t + S * Real.sin t := by
    have h1 : C * Real.cos t + S * Real.sin t = 1 + ((C - Real.cos t) * Real.cos t + (S - Real.sin t) * Real.sin t) := by
      have := Real.sin_sq_add_cos_sq t
      linear_combination this
    have h2 : |(C - Real.cos t) * Real.cos t + (S - Real.sin t) * Real.sin t| ≤ 1.41422 * e := by
      refine (abs_add_le _ _).trans ?_
      rw [abs_mul, abs_mul]
      have k1 := mul_le_mul_of_nonneg_right hc (abs_nonneg (Real.cos t))
      have k2 := mul_le_mul_of_nonneg_right hs (abs_nonneg (Real.sin t))
      have := mul_le_mul_of_nonneg_left (sin_cos_sum t) e0
      linarith
    have := (abs_le.1 h2).1
    linarith
  have dp : 0 < 1 - 1.41422 * e := by norm_num at he ⊢; linarith
  obtain ⟨u, hu⟩ : ∃ u, u = Real.arctan (S / C) := ⟨_, rfl⟩
  rw [← hu]
  have u1 : u < Real.pi / 2 := hu ▸ Real.arctan_lt_pi_div_two _
  have u2 : -(Real.pi / 2) < u := hu ▸ Real.neg_pi_div_two_lt_arctan _
  have cu : 0 < Real.cos u := hu ▸ Real.cos_arctan_pos _
  have su : Real.sin u = S / C * Real.cos u := by
    have := Real.tan_arctan (S / C)
    rw [← hu, Real.tan_eq_sin_div_cos, div_eq_iff cu.ne'] at this
    exact this
  have ec : Real.cos (u - t) = Real.cos u / C * (C * Real.cos t + S * Real.sin t) := by
    rw [Real.cos_sub, su]; field_simp
  have es : Real.sin (u - t) = Real.cos u / C * (S * Real.cos t - C * Real.sin t) := by
    rw [Real.sin_sub, su]; field_simp
  have cpos : 0 < Real.cos (u - t) := by rw [ec]; exact mul_pos (div_pos cu hC) (dp.trans_le dt)
  have hw : |u - t| < Real.pi / 2 := by
    by_contra hn
    push Not at hn
    have := Real.cos_nonpos_of_pi_div_two_le_of_le hn (by
      rw [abs_le]; constructor <;> linarith [(abs_lt.1 ht).1, (abs_lt.1 ht).2])
    rw [Real.cos_abs] at this
    linarith
  have h1 := Real.le_tan (abs_nonneg (u - t)) hw
  refine h1.trans ?_
  have h2 : Real.tan |u - t| = |Real.tan (u - t)| := by
    rcases abs_cases (u - t) with ⟨h, h'⟩ | ⟨h, h'⟩
    · rw [h, abs_of_nonneg (Real.tan_nonneg_of_nonneg_of_le_pi_div_two h' (by linarith [(abs_lt.1 hw).2]))]
    · rw [h, Real.tan_neg, abs_of_nonpos (by
        have := Real.tan_nonneg_of_nonneg_of_le_pi_div_two (x := -(u - t)) (by linarith) (by linarith [(abs_lt.1 hw).1])
        rw [Real.tan_neg] at this; linarith)]
  have h3 : Real.tan (u - t) = (S * Real.cos t - C * Real.sin t) / (C * Real.cos t + S * Real.sin t) := by
    rw [Real.tan_eq_sin_div_cos, ec, es, mul_div_mul_left _ _ (div_pos cu hC).ne']
  rw [h2, h3, abs_div, abs_of_pos (dp.trans_le dt)]
  exact div_le_div₀ (by linarith) cr dp dt

/-- **C133.** `atan` undoes `tan` within `0.0045` on the open interval between the poles, down to `cos x = 0.01`. -/
theorem C133_atan_tan {x : F32} (hx : x.isFinite = true) (hb : |(x.val : ℝ)| < Real.pi / 2) (hc : 1 / 100 ≤ Real.cos x.val) :
    x.tan.atan.isFinite = true ∧ |x.tan.atan.val - x.val| ≤ 0.0045 := by
  have hpi := Real.pi_lt_d2
  have hn : |x.val| ≤ 16 := by
    have : ((|x.val| : ℚ) : ℝ) ≤ ((16 : ℚ) : ℝ) := by push_cast; norm_num at hpi; linarith
    exact_mod_cast this
  have h := dir_near hx hn
  have hc' : 1 / 100 ≤ |Real.cos x.val| := by rw [abs_of_pos (lt_of_lt_of_le (by norm_num) hc)]; exact hc
  have cp : 0 < |Real.cos x.val| := lt_of_lt_of_le (by norm_num) hc'
  obtain ⟨f, r⟩ := tan_round h (by norm_num) hc'
  obtain ⟨-, k1, k2⟩ := cos_lower h (by norm_num) hc'
  have Cp : (0 : ℝ) < x.cos.val := by
    have := (abs_le.1 h.ec).1
    norm_num at this hc; linarith
  have ae := angle_err hb Cp h.es h.ec (by norm_num)
  have r7 : |(x.tan.val : ℝ) - x.sin.val / x.cos.val| ≤ 7.5 / 10 ^ 6 := by
    refine r.trans ?_
    rw [div_le_iff₀ cp]; norm_num at hc' ⊢; linarith
  have hS : |(x.sin.val : ℝ)| ≤ 2 := by
    have := abs_cast_le (h.bs.trans (show (1 : ℚ) + 1 / 2 ^ 20 ≤ 2 by norm_num))
    push_cast at this; exact this
  have hC : (0.001 : ℝ) ≤ x.cos.val := by
    have : (((1 / 1000 : ℚ)) : ℝ) ≤ ((|x.cos.val| : ℚ) : ℝ) := by exact_mod_cast k1
    push_cast at this
    rw [abs_of_pos Cp] at this
    norm_num at this ⊢; linarith
  have hT : |x.tan.val| ≤ 3000 := by
    have h1 : |(x.sin.val : ℝ) / x.cos.val| ≤ 2000 := by
      rw [abs_div, abs_of_pos Cp, div_le_iff₀ Cp]
      norm_num at hC ⊢; linarith
    have h2 := abs_sub_abs_le_abs_sub (x.tan.val : ℝ) (x.sin.val / x.cos.val)
    have h3 : ((|x.tan.val| : ℚ) : ℝ) ≤ ((3000 : ℚ) : ℝ) := by
      push_cast; norm_num at r7 h1 h2 ⊢; linarith
    exact_mod_cast h3
  obtain ⟨-, -, -, -, fa, -, -, ea⟩ := C38_atan f (hT.trans (by norm_num [atanMax]))
  refine ⟨fa, ?_⟩
  have lip := (arctan_lip (x.tan.val : ℝ) (x.sin.val / x.cos.val)).trans r7
  have key : |((x.tan.atan.val - x.val : ℚ) : ℝ)| ≤ ((0.0045 : ℚ) : ℝ) := by
    push_cast
    rw [abs_le] at ea lip ae ⊢
    norm_num at ea lip ae ⊢
    constructor <;> linarith [ea.1, ea.2, lip.1, lip.2, ae.1, ae.2]
  exact_mod_cast key

/-- **C133.** `tan` undoes `atan` up to an error of `0.0052 (1 + x²)`, for `|x| <= 20`. -/
theorem C133_tan_atan {x : F32} (hx : x.isFinite = true) (hb : |x.val| ≤ 20) :
    x.atan.tan.isFinite = true ∧ |x.atan.tan.val - x.val| ≤ 0.0052 * (1 + x.val ^ 2) := by
  obtain ⟨-, -, -, -, fa, ba, -, ea⟩ := C38_atan hx (hb.trans (by norm_num [atanMax]))
  have hw : |x.atan.val| ≤ 16 := ba.trans (by have hv : FRAC_PI_2.val = cH := val_FRAC_PI_2
                                              rw [hv]; norm_num [cH])
  obtain ⟨X, hX⟩ : ∃ X : ℝ, X = x.val := ⟨_, rfl⟩
  obtain ⟨w, hw'⟩ : ∃ w : ℝ, w = x.atan.val := ⟨_, rfl⟩
  have hbR := abs_cast_le hb
  push_cast at hbR
  rw [← hX] at hbR
  rw [← hX, ← hw'] at ea
  obtain ⟨v, hv⟩ : ∃ v, v = Real.arctan X := ⟨_, rfl⟩
  rw [← hv] at ea
  have cv : 0 < Real.cos v := hv ▸ Real.cos_arctan_pos X
  have tv : Real.tan v = X := hv ▸ Real.tan_arctan X
  have sec : Real.cos v ^ 2 * (1 + X ^ 2) = 1 := by
    have h1 := Real.sin_sq_add_cos_sq v
    rw [Real.tan_eq_sin_div_cos, div_eq_iff cv.ne'] at tv
    rw [tv] at h1
    linear_combination h1
  have X2 : X ^ 2 ≤ 400 := by
    have := sq_abs X
    nlinarith [abs_nonneg X]
  have cv1 : 0.0499 ≤ Real.cos v := by
    by_contra hn
    push Not at hn
    have : Real.cos v ^ 2 ≤ 0.0499 ^ 2 := by gcongr
    norm_num at this
    nlinarith [sq_nonneg X, sq_nonneg (Real.cos v)]
  have lipc : |Real.cos w - Real.cos v| ≤ 0.00284 := by
    have := Real.abs_cos_sub_cos_le w v
    exact this.trans ea
  have cw : 0.943 * Real.cos v ≤ Real.cos w := by
    have := (abs_le.1 lipc).1
    norm_num at this cv1 ⊢; linarith
  have cwp : 0 < Real.cos w := lt_of_lt_of_le (by positivity) cw
  have hc : 1 / 100 ≤ |Real.cos x.atan.val| := by
    rw [← hw', abs_of_pos cwp]; norm_num at cw cv1 ⊢; linarith
  obtain ⟨f, -, e⟩ := C133_tan fa (hw.trans (by norm_num)) hc
  have e := e hw
  rw [← hw'] at e
  refine ⟨f, ?_⟩
  have secw : 1 + Real.tan w ^ 2 = 1 / Real.cos w ^ 2 := by
    rw [Real.tan_eq_sin_div_cos]
    field_simp
    linarith [Real.sin_sq_add_cos_sq w]
  have isec : 1 + X ^ 2 = 1 / Real.cos v ^ 2 := by
    field_simp; linarith
  have e2 : |Real.tan w - X| ≤ 0.00284 / (Real.cos w * Real.cos v) := by
    rw [← tv, Real.tan_eq_sin_div_cos, Real.tan_eq_sin_div_cos, div_sub_div _ _ cwp.ne' cv.ne', ← Real.sin_sub, abs_div,
      abs_of_pos (mul_pos cwp cv)]
    refine div_le_div_of_nonneg_right ?_ (mul_pos cwp cv).le
    exact Real.abs_sin_le_abs.trans ea
  have e3 : 0.00284 / (Real.cos w * Real.cos v) ≤ 0.00302 * (1 + X ^ 2) := by
    rw [isec, mul_one_div, div_le_div_iff₀ (mul_pos cwp cv) (by positivity), pow_two]
    have := mul_le_mul_of_nonneg_right cw cv.le
    norm_num at this ⊢
    nlinarith [mul_pos cv cv]
  have e4 : 0.0018 * (1 + Real.tan w ^ 2) ≤ 0.00204 * (1 + X ^ 2) := by
    rw [isec, secw, mul_one_div, mul_one_div, div_le_div_iff₀ (by positivity) (by positivity), pow_two, pow_two]
    have := mul_le_mul cw cw (by positivity) cwp.le
    norm_num at this ⊢
    nlinarith [mul_pos cv cv]
  have key : |((x.atan.tan.val - x.val : ℚ) : ℝ)| ≤ ((0.0052 * (1 + x.val ^ 2) : ℚ) : ℝ) := by
    push_cast
    rw [← hX]
    refine (abs_sub_le _ (Real.tan w) _).trans ?_
    have := sq_nonneg X
    norm_num at e e2 e3 e4 ⊢
    linarith
  exact_mod_cast key

/-- **C133.** `tan` is odd up to rounding, relative to its own slope. -/
theorem C133_tan_odd {x : F32} (hx : x.isFinite = true) (hb : |x.val| ≤ 4096) (hc : 1 / 100 ≤ |Real.cos x.val|) :
    |((-x).tan.val : ℝ) + x.tan.val| ≤ (8 / 10 ^ 6 + 6 / 10 ^ 7 * |(x.val : ℝ)|) * (1 + Real.tan x.val ^ 2) := by
  obtain ⟨fn, vn⟩ := neg_facts hx
  have hbn : |(-x).val| ≤ 4096 := by rw [vn, abs_neg]; exact hb
  have h := dir_wide hx hb
  have h' := dir_wide fn hbn
  have ecn : Real.cos ((-x).val : ℝ) = Real.cos x.val := by rw [vn]; push_cast; rw [Real.cos_neg]
  have hcn : 1 / 100 ≤ |Real.cos (-x).val| := by rw [ecn]; exact hc
  have r1 := (tan_round h le_rfl hc).2
  have r2 := (tan_round h' le_rfl hcn).2
  rw [ecn] at r2
  have l1 := (cos_lower h le_rfl hc).1
  have l2 := (cos_lower h' le_rfl hcn).1
  rw [ecn] at l2
  have a := C129_sin_odd hx (hb.trans (by norm_num))
  have b := C129_cos_even hx (hb.trans (by norm_num))
  have bs := abs_cast_le h.bs
  have bc := abs_cast_le h.bc
  push_cast at bs bc
  have cp : 0 < |Real.cos x.val| := lt_of_lt_of_le (by norm_num) hc
  have c0 : Real.cos x.val ≠ 0 := abs_pos.1 cp
  have hs : 1 + Real.tan x.val ^ 2 = 1 / |Real.cos x.val| ^ 2 := by
    rw [sq_abs, Real.tan_eq_sin_div_cos]
    field_simp
    linarith [Real.sin_sq_add_cos_sq (x.val : ℝ)]
  have hc1 := Real.abs_cos_le_one (x.val : ℝ)
  rw [hs]
  generalize |Real.cos x.val| = c at *
  generalize ((-x).tan.val : ℝ) = T' at *
  generalize (x.tan.val : ℝ) = T at *
  generalize ((-x).cos.val : ℝ) = C' at *
  generalize (x.cos.val : ℝ) = C at *
  generalize ((-x).sin.val : ℝ) = S' at *
  generalize (x.sin.val : ℝ) = S at *
  have x0 := abs_nonneg (x.val : ℝ)
  generalize |(x.val : ℝ)| = X at *
  have l1 : 0.8 * c ≤ |C| := by norm_num at l1 ⊢; linarith
  have l2 : 0.8 * c ≤ |C'| := by norm_num at l2 ⊢; linarith
  have C0 : 0 < |C| := lt_of_lt_of_le (by positivity) l1
  have C0' : 0 < |C'| := lt_of_lt_of_le (by positivity) l2
  have hq : |S' / C' + S / C| ≤ (7.3 / 10 ^ 6 + 5.8 / 10 ^ 7 * X) * (1 / c ^ 2) := by
    have e : S' / C' + S / C = ((S' + S) * C + S * (C' - C)) / (C' * C) := by
      field_simp [abs_pos.1 C0, abs_pos.1 C0']; ring
    rw [e, abs_div, abs_mul, mul_one_div, div_le_div_iff₀ (by positivity) (by positivity)]
    have n1 : |(S' + S) * C + S * (C' - C)| ≤ (2.6 / 10 ^ 6 + 2.4 / 10 ^ 7 * X) * (1 + 1 / 2 ^ 20) + (1 + 1 / 2 ^ 20) * (2 / 10 ^ 6 + 1.2 / 10 ^ 7 * X) := by
      refine (abs_add_le _ _).trans ?_
      rw [abs_mul, abs_mul]
      exact add_le_add (mul_le_mul a bc (abs_nonneg _) (by positivity)) (mul_le_mul bs b (abs_nonneg _) (by norm_num))
    have n2 : 0.8 * c * (0.8 * c) ≤ |C'| * |C| := mul_le_mul l2 l1 (by positivity) C0'.le
    have n3 := mul_le_mul_of_nonneg_right n1 (sq_nonneg c)
    have n4 := mul_le_mul_of_nonneg_left n2 (show 0 ≤ 7.3 / 10 ^ 6 + 5.8 / 10 ^ 7 * X by positivity)
    refine n3.trans (le_trans ?_ n4)
    have c2 := sq_nonneg c
    have xc := mul_nonneg x0 c2
    norm_num
    nlinarith
  have hr : 7.5 / 10 ^ 8 / c ≤ 1 / 10 ^ 7 * (1 / c ^ 2) := by
    rw [mul_one_div, div_le_div_iff₀ cp (by positivity)]
    norm_num
    nlinarith
  have e : T' + T = (T' - S' / C') + (T - S / C) + (S' / C' + S / C) := by ring
  rw [e]
  refine (abs_add_three _ _ _).trans ?_
  have i0 : 0 ≤ 1 / c ^ 2 := by positivity
  have xi := mul_nonneg x0 i0
  have hq' : (7.3 / 10 ^ 6 + 5.8 / 10 ^ 7 * X) * (1 / c ^ 2) = 7.3 / 10 ^ 6 * (1 / c ^ 2) + 5.8 / 10 ^ 7 * (X * (1 / c ^ 2)) := by ring
  have hg : (8 / 10 ^ 6 + 6 / 10 ^ 7 * X) * (1 / c ^ 2) = 8 / 10 ^ 6 * (1 / c ^ 2) + 6 / 10 ^ 7 * (X * (1 / c ^ 2)) := by ring
  rw [hq'] at hq
  rw [hg]
  generalize 1 / c ^ 2 = I at *
  generalize X * I = XI at *
  norm_num at hq r1 r2 hr ⊢
  linarith

/-- **C133.** A case: the hypotheses hold at `-1`, where `tan` gives `-1.5582...` and `atan` brings it back to `-0.9976...`. -/
theorem C133_case : (-one).isFinite = true ∧ 1 / 100 ≤ Real.cos ((-one).val : ℝ) ∧ |((-one).val : ℝ)| < Real.pi / 2 ∧
    (-one).tan = (⟨0xbfc77241#32⟩ : F32) ∧ (-one).tan.atan = (⟨0xbf7f600e#32⟩ : F32) := by
  have v : ((-one).val : ℝ) = -1 := by rw [val_neg, val_one]; norm_num
  have t : (-one).tan = (⟨0xbfc77241#32⟩ : F32) := eval_eq (by kernel_rfl)
  refine ⟨by decide, ?_, ?_, t, ?_⟩
  · rw [v, Real.cos_neg]
    have := Real.one_sub_sq_div_two_le_cos (x := 1)
    norm_num at this ⊢; linarith
  · rw [v, abs_neg, abs_one]
    have := Real.pi_gt_d2
    norm_num at this ⊢; linarith
  · rw [t]; exact eval_eq (by kernel_rfl)

end Micromath.Props
