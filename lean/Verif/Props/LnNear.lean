import Verif.Props.Powf

/-!
# C150: logarithms and powers of numbers near one and below one

Below one `ln` takes the reciprocal with the bit trick of `inv`, which is the chord `3 - m` on each binade: just below one the computed
logarithm is twice the true one.
-/

set_option exponentiation.threshold 1000

namespace Micromath.Props
open F32 Spec RealAux

variable [Cfg]

/-- **C150, `inv` exactly.** For a positive normal `x = 2^k m`, `1 ≤ m < 2`, `k ≤ 125`: `inv(x) = 2^(-k-1) (3 - m)`, without any error. -/
theorem C150_inv {x : F32} (hx : x.isFinite = true) {k : ℤ} {m : ℚ} (hk1 : -126 ≤ k) (hk2 : k ≤ 125) (hv : x.val = 2 ^ k * m) (m1 : 1 ≤ m) (m2 : m < 2) :
    IsVal x.inv (2 ^ (-k - 1) * (3 - m)) := by
  have kp : (0 : ℚ) < 2 ^ k := by positivity
  have hn : PosNormal x := ⟨hx, by
    rw [hv]
    have : (2 : ℚ) ^ (-126 : ℤ) ≤ 2 ^ k := zpow_le_zpow_right₀ (by norm_num) hk1
    have h2 : (2 : ℚ) ^ k * 1 ≤ 2 ^ k * m := mul_le_mul_of_nonneg_left m1 kp.le
    norm_num at this h2 ⊢
    linarith⟩
  obtain ⟨e, f, he1, he2, hf, hm, hb, hv2⟩ := posNormal_split hn
  have hfq : (f : ℚ) < 2 ^ 23 := by exact_mod_cast hf
  have hf0 : (0 : ℚ) ≤ f := by positivity
  have hp : (2 : ℚ) ^ ((e : Int) - 127) = 2 ^ 23 * 2 ^ (e - 1) / 2 ^ 149 := by
    rw [eq_div_iff (by positivity), ← zpow_natCast, ← zpow_natCast, ← zpow_natCast, ← zpow_add₀ (by norm_num),
      ← zpow_add₀ (by norm_num)]
    congr 1
    push_cast [he1]
    omega
  have hv3 : x.val = 2 ^ ((e : ℤ) - 127) * (1 + f / 2 ^ 23) := by rw [hv2, hp]; field_simp
  have hke : k = (e : ℤ) - 127 := by
    have a : (2 : ℚ) ^ k * m = 2 ^ ((e : ℤ) - 127) * (1 + f / 2 ^ 23) := by rw [← hv, hv3]
    have g1 : (f : ℚ) / 2 ^ 23 < 1 := by rw [div_lt_one (by positivity)]; exact hfq
    have g0 : (0 : ℚ) ≤ f / 2 ^ 23 := by positivity
    have ep : (0 : ℚ) < 2 ^ ((e : ℤ) - 127) := by positivity
    have u1 : (2 : ℚ) ^ k < 2 ^ ((e : ℤ) - 127 + 1) := by
      rw [zpow_add₀ (by norm_num), zpow_one]
      nlinarith
    have u2 : (2 : ℚ) ^ ((e : ℤ) - 127) < 2 ^ (k + 1) := by
      rw [zpow_add₀ (by norm_num), zpow_one]
      nlinarith
    have w1 := (zpow_lt_zpow_iff_right₀ (by norm_num : (1 : ℚ) < 2)).1 u1
    have w2 := (zpow_lt_zpow_iff_right₀ (by norm_num : (1 : ℚ) < 2)).1 u2
    omega
  have hmf : m = 1 + f / 2 ^ 23 := by
    have := hv.symm.trans hv3
    rw [hke] at this
    exact mul_left_cancel₀ (by positivity) this
  have hi := inv_toNat (x := x) (by omega)
  rw [hb] at hi
  rcases Nat.eq_zero_or_pos f with h0 | h0
  · obtain ⟨h3, h4⟩ := val_of_bits (y := x.inv) (E := 254 - e) (F := 0) (by omega) (by omega) (by omega) (by rw [hi]; omega)
    refine ⟨h3.1, ?_⟩
    rw [h4, hmf, h0, hke]
    have e1 : (2 : ℚ) ^ (254 - e - 1) = 2 ^ (-((e : ℤ) - 127) - 1) * 2 ^ 127 := by
      rw [← zpow_natCast, ← zpow_natCast, ← zpow_add₀ (by norm_num)]; congr 1; omega
    rw [e1]
    generalize (2 : ℚ) ^ (-((e : ℤ) - 127) - 1) = P
    norm_num
    ring
  · obtain ⟨h3, h4⟩ := val_of_bits (y := x.inv) (E := 253 - e) (F := 2 ^ 23 - f) (by omega) (by omega) (by omega) (by rw [hi]; omega)
    refine ⟨h3.1, ?_⟩
    rw [h4, hmf, hke, Nat.cast_sub hf.le]
    have e1 : (2 : ℚ) ^ (253 - e - 1) = 2 ^ (-((e : ℤ) - 127) - 1) * 2 ^ 126 := by
      rw [← zpow_natCast, ← zpow_natCast, ← zpow_add₀ (by norm_num)]; congr 1; omega
    rw [e1]
    generalize (2 : ℚ) ^ (-((e : ℤ) - 127) - 1) = P
    push_cast
    ring

/-- **C150, `ln` below one.** For a positive normal `x = 2^k m < 1`, `1 ≤ m < 2`: `ln(x)` is `log x - log(m (3 - m) / 2)` up to `8e-5`. -/
theorem C150_ln {x : F32} (hx : x.isFinite = true) {k : ℤ} {m : ℚ} (hk1 : -126 ≤ k) (hk2 : k ≤ -1) (hv : x.val = 2 ^ k * m) (m1 : 1 ≤ m) (m2 : m < 2) :
    x.ln.isFinite = true ∧ |(x.ln.val : ℝ) - (Real.log x.val - Real.log (m * (3 - m) / 2))| ≤ 0.00008 := by
  obtain ⟨fi, vi⟩ := C150_inv hx hk1 (by omega) hv m1 m2
  have kp : (0 : ℚ) < 2 ^ k := by positivity
  have k2 : (2 : ℚ) ^ k ≤ 1 / 2 := by
    have : (2 : ℚ) ^ k ≤ 2 ^ (-1 : ℤ) := zpow_le_zpow_right₀ (by norm_num) hk2
    norm_num at this ⊢; exact this
  have x1 : x.val < 1 := by
    rw [hv]
    have : (2 : ℚ) ^ k * m < 2 ^ k * 2 := mul_lt_mul_of_pos_left m2 kp
    linarith
  have x0 : 0 < x.val := by rw [hv]; positivity
  have hn : PosNormal x := ⟨hx, by
    rw [hv]
    have : (2 : ℚ) ^ (-126 : ℤ) ≤ 2 ^ k := zpow_le_zpow_right₀ (by norm_num) hk1
    have h2 : (2 : ℚ) ^ k * 1 ≤ 2 ^ k * m := mul_le_mul_of_nonneg_left m1 kp.le
    norm_num at this h2 ⊢
    linarith⟩
  -- the product of the number and its computed reciprocal
  have hprod : x.val * x.inv.val = m * (3 - m) / 2 := by
    rw [hv, vi, show (-k - 1 : ℤ) = -k + -1 by ring, zpow_add₀ (by norm_num), zpow_neg]
    field_simp
  have hi1 : 1 ≤ x.inv.val := by
    have := (C19_inv x hn (x1.le.trans (by norm_num))).2.1
    by_contra hc
    push Not at hc
    nlinarith
  have hlog : Real.log x.val - Real.log (m * (3 - m) / 2) = -Real.log x.inv.val := by
    have : ((m : ℝ) * (3 - m) / 2) = (x.val : ℝ) * x.inv.val := by
      rw [← Rat.cast_mul, hprod]; push_cast; ring
    rw [this, Real.log_mul (by exact_mod_cast x0.ne') (by exact_mod_cast (by linarith : (0 : ℚ) < x.inv.val).ne')]
    ring
  rw [hlog]
  by_cases hs : (x - ONE).abs.lt EPSILON = true
  · rw [ln_eq, if_pos hs]
    refine ⟨fin_ZERO, ?_⟩
    have near := near_one hx hs
    -- the computed reciprocal of such a number is at most `1 + 2^-22`
    have hk : k = -1 := by
      by_contra hc
      have : (2 : ℚ) ^ k ≤ 2 ^ (-2 : ℤ) := zpow_le_zpow_right₀ (by norm_num) (by omega)
      have h3 : (2 : ℚ) ^ k * m < 2 ^ k * 2 := mul_lt_mul_of_pos_left m2 kp
      rw [hv] at near
      have := (abs_le.1 near).1
      norm_num at *
      linarith
    have hmx : m = 2 * x.val := by rw [hv, hk]; norm_num; ring
    have hiv : x.inv.val = 3 - 2 * x.val := by rw [vi, hk, hmx]; norm_num
    have hir : |x.inv.val - 1| ≤ 2 / 2 ^ 23 := by
      rw [hiv, show 3 - 2 * x.val - 1 = -(2 * (x.val - 1)) by ring, abs_neg, abs_mul, abs_of_pos (by norm_num : (0 : ℚ) < 2)]
      linarith
    have hu : (x.inv.val : ℝ) ≤ 1 + 2 / 2 ^ 23 := by
      have := (Rat.cast_le (K := ℝ)).2 (abs_le.1 hir).2
      push_cast at this; linarith
    have hl : (1 : ℝ) ≤ x.inv.val := by exact_mod_cast hi1
    have a := Real.log_le_sub_one_of_pos (show (0 : ℝ) < x.inv.val by linarith)
    have b := Real.log_nonneg hl
    rw [val_ZERO, Rat.cast_zero, zero_sub, neg_neg, abs_of_nonneg b]
    norm_num at *
    linarith
  · rw [ln_lt_one hx x1 hs]
    obtain ⟨f, e⟩ := lnCore_err (posNormal_of_one_le fi hi1) hi1
    rw [isFinite_neg, val_neg]
    refine ⟨f, ?_⟩
    push_cast
    rw [neg_sub_neg, abs_sub_comm]
    exact e.trans (by norm_num)

/-- **C150, between one half and one.** `ln(x)` is `-log(3 - 2x)` up to `8e-5`. -/
theorem C150_ln_near {x : F32} (hx : x.isFinite = true) (h1 : 1 / 2 ≤ x.val) (h2 : x.val < 1) :
    x.ln.isFinite = true ∧ |(x.ln.val : ℝ) + Real.log (3 - 2 * x.val)| ≤ 0.00008 := by
  obtain ⟨f, e⟩ := C150_ln hx (k := -1) (m := 2 * x.val) (by norm_num) le_rfl (by norm_num; ring) (by linarith) (by linarith)
  refine ⟨f, ?_⟩
  have a1 : (1 / 2 : ℝ) ≤ x.val := by
    have := (Rat.cast_le (K := ℝ)).2 h1
    push_cast at this; exact this
  have a2 : (x.val : ℝ) < 1 := by exact_mod_cast h2
  have hl : Real.log (((2 * x.val : ℚ) : ℝ) * (3 - ((2 * x.val : ℚ) : ℝ)) / 2) = Real.log x.val + Real.log (3 - 2 * x.val) := by
    rw [← Real.log_mul (by linarith) (by linarith)]
    congr 1
    push_cast
    ring
  rw [hl] at e
  rw [show (x.ln.val : ℝ) + Real.log (3 - 2 * x.val) = x.ln.val - (Real.log x.val - (Real.log x.val + Real.log (3 - 2 * x.val))) by ring]
  exact e

omit [Cfg] in
/-- `log(3 - 2x)` is almost `-2 log x` just below one. -/
theorem log_chord {x : ℝ} (h1 : 0.97 ≤ x) (h2 : x ≤ 1) : -1.88 * Real.log x ≤ Real.log (3 - 2 * x) := by
  obtain ⟨d, hd⟩ : ∃ d, d = 1 - x := ⟨_, rfl⟩
  have hx : x = 1 - d := by rw [hd]; ring
  have d0 : 0 ≤ d := by linarith
  have d1 : d ≤ 0.03 := by rw [hd]; norm_num at *; linarith
  -- `-log x ≤ d / x`
  have a : -Real.log x ≤ d / (1 - d) := by
    have p : 0 < x := by norm_num at h1; linarith
    have := Real.log_le_sub_one_of_pos (inv_pos.2 p)
    rw [Real.log_inv] at this
    have e : x⁻¹ - 1 = d / (1 - d) := by rw [← hx, hd]; field_simp
    linarith
  -- `log(1 + 2d) ≥ 2d / (1 + d)`
  have b : 2 * d / (1 + d) ≤ Real.log (3 - 2 * x) := by
    have := Real.le_log_one_add_of_nonneg (x := 2 * d) (by linarith)
    rw [show (3 : ℝ) - 2 * x = 1 + 2 * d by rw [hx]; ring]
    refine le_trans (le_of_eq ?_) this
    rw [div_eq_div_iff (by linarith) (by linarith)]
    ring
  have c : 1.88 * (d / (1 - d)) ≤ 2 * d / (1 + d) := by
    norm_num at d1
    rw [← mul_div_assoc, div_le_div_iff₀ (by linarith) (by linarith)]
    norm_num
    nlinarith
  linarith

/-- **C150, just below one the logarithm is doubled.** For `0.97 ≤ x ≤ 0.999`: `ln(x) ≤ 1.8 log x`. -/
theorem C150_ln_double_false {x : F32} (hx : x.isFinite = true) (h1 : 0.97 ≤ x.val) (h2 : x.val ≤ 0.999) :
    (x.ln.val : ℝ) ≤ 1.8 * Real.log x.val := by
  have a1 : (0.97 : ℝ) ≤ x.val := by
    have := (Rat.cast_le (K := ℝ)).2 h1
    push_cast at this; exact this
  have a2 : (x.val : ℝ) ≤ 0.999 := by
    have := (Rat.cast_le (K := ℝ)).2 h2
    push_cast at this; exact this
  obtain ⟨-, e⟩ := C150_ln_near hx (by norm_num at *; linarith) (by norm_num at *; linarith)
  have c := log_chord a1 (a2.trans (by norm_num))
  have l : Real.log x.val ≤ -0.001 := by
    have := Real.log_le_sub_one_of_pos (show (0 : ℝ) < x.val by norm_num at *; linarith)
    norm_num at *; linarith
  have := (abs_le.1 e).2
  norm_num at *
  linarith

/-- **C150, `powf` between one half and one.** Up to a factor within `[0.9969 e^(-0.00008|n|), 1.0031 e^(0.00008|n|)]`, `powf(x, n)` is
`(3 - 2x)^(-n)`, when that is in the range of normal numbers. -/
theorem C150_powf {x n : F32} (hx : x.isFinite = true) (h1 : 1 / 2 ≤ x.val) (h2 : x.val < 1) (hn : n.isFinite = true)
    (lo : (n.val : ℝ) * Real.log (3 - 2 * x.val) + 0.00008 * |(n.val : ℝ)| ≤ 87.29)
    (hi : -88.69 ≤ (n.val : ℝ) * Real.log (3 - 2 * x.val) - 0.00008 * |(n.val : ℝ)|) :
    ∃ r, x.powf n = .ok r ∧ r.isFinite = true ∧
      0.9969 * Real.exp (-(0.00008 * |(n.val : ℝ)|)) * (3 - 2 * (x.val : ℝ)) ^ (-(n.val : ℝ)) ≤ r.val ∧
      (r.val : ℝ) ≤ 1.0031 * Real.exp (0.00008 * |(n.val : ℝ)|) * (3 - 2 * (x.val : ℝ)) ^ (-(n.val : ℝ)) := by
  obtain ⟨fl, el⟩ := C150_ln_near hx h1 h2
  have a2 : (x.val : ℝ) < 1 := by exact_mod_cast h2
  have hm : |(n.val : ℝ) * (x.ln.val + Real.log (3 - 2 * x.val))| ≤ 0.00008 * |(n.val : ℝ)| := by
    rw [abs_mul, mul_comm]; exact mul_le_mul_of_nonneg_right el (abs_nonneg _)
  rw [mul_add] at hm
  obtain ⟨m1, m2⟩ := abs_le.1 hm
  have q1 : -87.29 ≤ n.val * x.ln.val := by
    have : ((-87.29 : ℚ) : ℝ) ≤ ((n.val * x.ln.val : ℚ) : ℝ) := by push_cast; norm_num at lo m1 m2 ⊢; linarith
    exact_mod_cast this
  have q2 : n.val * x.ln.val ≤ 88.69 := by
    have : ((n.val * x.ln.val : ℚ) : ℝ) ≤ ((88.69 : ℚ) : ℝ) := by push_cast; norm_num at hi m1 m2 ⊢; linarith
    exact_mod_cast this
  obtain ⟨r, hr, fr, r1, r2⟩ := powf_core fl hn q1 q2
  rw [powf_nonneg n hx (by linarith)]
  refine ⟨r, hr, fr, le_trans ?_ r1, r2.trans ?_⟩ <;>
  · rw [Real.rpow_def_of_pos (by linarith), mul_assoc, ← Real.exp_add]
    refine mul_le_mul_of_nonneg_left (Real.exp_le_exp.2 ?_) (by norm_num)
    linarith

/-- **C150, decay is squared.** For `0.97 ≤ x ≤ 0.999` and `n ≥ 0` with `(3 - 2x)^n` in range: `powf(x, n) ≤ 1.0031 x^(1.8 n)`. -/
theorem C150_decay {x n : F32} (hx : x.isFinite = true) (h1 : 0.97 ≤ x.val) (h2 : x.val ≤ 0.999) (hn : n.isFinite = true) (n0 : 0 ≤ n.val)
    (lo : (n.val : ℝ) * Real.log (3 - 2 * x.val) + 0.00008 * |(n.val : ℝ)| ≤ 87.29) :
    ∃ r, x.powf n = .ok r ∧ r.isFinite = true ∧ (r.val : ℝ) ≤ 1.0031 * (x.val : ℝ) ^ (1.8 * (n.val : ℝ)) := by
  have a1 : (0.97 : ℝ) ≤ x.val := by
    have := (Rat.cast_le (K := ℝ)).2 h1
    push_cast at this; exact this
  have a2 : (x.val : ℝ) ≤ 0.999 := by
    have := (Rat.cast_le (K := ℝ)).2 h2
    push_cast at this; exact this
  have n0' : (0 : ℝ) ≤ n.val := by exact_mod_cast n0
  obtain ⟨fl, el⟩ := C150_ln_near hx (by norm_num at *; linarith) (by norm_num at *; linarith)
  have db := C150_ln_double_false hx h1 h2
  have hl : 0 ≤ Real.log (3 - 2 * x.val) := Real.log_nonneg (by norm_num at *; linarith)
  have hln : Real.log (x.val : ℝ) ≤ 0 := Real.log_nonpos (by norm_num at *; linarith) (by norm_num at *; linarith)
  rw [abs_of_nonneg n0'] at lo
  have m1 := mul_le_mul_of_nonneg_left (abs_le.1 el).1 n0'
  have m2 := mul_le_mul_of_nonneg_left db n0'
  have m3 := mul_nonneg n0' (neg_nonneg.2 hln)
  have q1 : -87.29 ≤ n.val * x.ln.val := by
    have : ((-87.29 : ℚ) : ℝ) ≤ ((n.val * x.ln.val : ℚ) : ℝ) := by push_cast; norm_num at lo m1 ⊢; linarith
    exact_mod_cast this
  have q2 : n.val * x.ln.val ≤ 88.69 := by
    have : ((n.val * x.ln.val : ℚ) : ℝ) ≤ ((88.69 : ℚ) : ℝ) := by push_cast; norm_num at m2 ⊢; linarith
    exact_mod_cast this
  obtain ⟨r, hr, fr, -, r2⟩ := powf_core fl hn q1 q2
  rw [powf_nonneg n hx (by norm_num at h1; linarith)]
  refine ⟨r, hr, fr, r2.trans ?_⟩
  rw [Real.rpow_def_of_pos (by norm_num at a1; linarith)]
  refine mul_le_mul_of_nonneg_left (Real.exp_le_exp.2 ?_) (by norm_num)
  linarith

/-- **C150, there and back.** For `1/2 ≤ x < 1`, `exp(ln x)` is `1/(3 - 2x)` up to 0.32 %. -/
theorem C150_exp_ln {x : F32} (hx : x.isFinite = true) (h1 : 1 / 2 ≤ x.val) (h2 : x.val < 1) :
    ∃ r, x.ln.exp = .ok r ∧ r.isFinite = true ∧ |(r.val : ℝ) * (3 - 2 * x.val) - 1| ≤ 0.0032 := by
  obtain ⟨fl, el⟩ := C150_ln_near hx h1 h2
  have a1 : (1 / 2 : ℝ) ≤ x.val := by
    have := (Rat.cast_le (K := ℝ)).2 h1
    push_cast at this; exact this
  have a2 : (x.val : ℝ) < 1 := by exact_mod_cast h2
  have w0 : (0 : ℝ) < 3 - 2 * x.val := by linarith
  have l0 : 0 ≤ Real.log (3 - 2 * x.val) := Real.log_nonneg (by linarith)
  have l1 : Real.log (3 - 2 * x.val) ≤ 1 := by
    have := Real.log_le_sub_one_of_pos w0
    linarith
  obtain ⟨e1, e2⟩ := abs_le.1 el
  have q1 : -87.3 ≤ x.ln.val := by
    have : ((-87.3 : ℚ) : ℝ) ≤ (x.ln.val : ℝ) := by push_cast; norm_num at e1 ⊢; linarith
    exact_mod_cast this
  have q2 : x.ln.val ≤ 88.7 := by
    have : (x.ln.val : ℝ) ≤ ((88.7 : ℚ) : ℝ) := by push_cast; norm_num at e2 ⊢; linarith
    exact_mod_cast this
  obtain ⟨r, hr, fr, er⟩ := C28_exp x.ln fl q1 q2
  refine ⟨r, hr, fr, ?_⟩
  obtain ⟨t, ht⟩ : ∃ t : ℝ, t = x.ln.val + Real.log (3 - 2 * x.val) := ⟨_, rfl⟩
  rw [← ht] at e1 e2
  have hE : Real.exp (x.ln.val : ℝ) * (3 - 2 * x.val) = Real.exp t := by
    rw [ht, Real.exp_add, Real.exp_log w0]
  have t1 : Real.exp t ≤ 1 + 0.000081 := by
    have h3 := Real.add_one_le_exp (-t)
    have hp := Real.exp_pos t
    have : Real.exp t * Real.exp (-t) = 1 := by rw [← Real.exp_add]; simp
    norm_num at e2 ⊢
    nlinarith
  have t2 : 1 - 0.00008 ≤ Real.exp t := by
    have := Real.add_one_le_exp t
    norm_num at e1 ⊢; linarith
  have key := mul_le_mul_of_nonneg_right er w0.le
  rw [mul_assoc, hE] at key
  rw [← abs_of_pos w0, ← abs_mul, sub_mul, hE] at key
  obtain ⟨k1, k2⟩ := abs_le.1 key
  rw [abs_le]
  norm_num at *
  constructor <;> linarith

/-! ### next to one -/

/-- `lnCore` on `[1, 2)` is the polynomial. -/
theorem lnCore_unit {w : F32} (fw : w.isFinite = true) (h1 : 1 ≤ w.val) (h2 : w.val < 2) : |(lnCore w).val - lnPolyQ w.val| ≤ 14 / 10 ^ 7 := by
  obtain ⟨k, hk1, hk2, he, ⟨fd, vd⟩, f, hf, hm⟩ := exponent_mask_val (posNormal_of_one_le fw h1)
  have hfq : (f : ℚ) / 2 ^ 23 < 1 := by rw [div_lt_one (by positivity)]; exact_mod_cast hf
  have hf0 : (0 : ℚ) ≤ f / 2 ^ 23 := by positivity
  have ep : (0 : ℚ) < 2 ^ ((k : ℤ) - 127) := by positivity
  rw [div_eq_iff ep.ne'] at hm
  have hk : (k : ℤ) - 127 = 0 := by
    have u1 : (2 : ℚ) ^ (0 : ℤ) < 2 ^ ((k : ℤ) - 127 + 1) := by
      rw [zpow_add₀ (by norm_num), zpow_one, zpow_zero]; nlinarith
    have u2 : (2 : ℚ) ^ ((k : ℤ) - 127) < 2 ^ (1 : ℤ) := by
      rw [zpow_one]; nlinarith
    have w1 := (zpow_lt_zpow_iff_right₀ (by norm_num : (1 : ℚ) < 2)).1 u1
    have w2 := (zpow_lt_zpow_iff_right₀ (by norm_num : (1 : ℚ) < 2)).1 u2
    omega
  rw [hk, zpow_zero] at vd
  obtain ⟨fq, vq⟩ := div_val fw fd (by rw [vd]; norm_num) (by rw [vd, div_one]; exact abs_val_lt_ovf fw)
  rw [vd, div_one, RN_val] at vq
  obtain ⟨fp, ep'⟩ := lnPoly_err fq (by rw [vq]; exact h1) (by rw [vq]; exact h2.le)
  rw [vq] at ep'
  have hz : ofInt (BitVec.ofInt 32 w.extractExponentValue).toNat * LN_2 = posZero := by
    rw [he, hk]; exact (eval_eq (n := 0) (by kernel_rfl)).trans (by decide)
  have hb := abs_val_lt_ovf fp
  obtain ⟨fs, vs⟩ := add_val fin_posZero fp (by rw [val_posZero, zero_add]; exact hb)
  rw [val_posZero, zero_add, RN_val] at vs
  unfold lnCore
  rw [hz, vs]
  exact ep'

omit [Cfg] in
theorem lnPoly_near {d : ℚ} (h0 : 0 ≤ d) (h1 : d ≤ 1) : |lnPolyQ (1 + d) - (0.0000606 + 0.9965443 * d)| ≤ 0.00000005 + 0.468 * d ^ 2 := by
  have d2 := sq_nonneg d
  have d3 : d ^ 3 ≤ d ^ 2 := by rw [pow_succ]; exact mul_le_of_le_one_right d2 h1
  have d30 : 0 ≤ d ^ 3 := pow_nonneg h0 3
  have d4 : d ^ 4 ≤ d ^ 3 := by rw [pow_succ]; exact mul_le_of_le_one_right d30 h1
  have d40 : 0 ≤ d ^ 4 := pow_nonneg h0 4
  have e : lnPolyQ (1 + d) - (0.0000606 + 0.9965443 * d) = (lnPolyQ 1 - 0.0000606)
      + (11832981 / 4194304 - 2 * (12330891 / 8388608) + 3 * (1875607 / 4194304) - 4 * (7592811 / 134217728) - 0.9965443) * d
      + (-(12330891 / 8388608) + 3 * (1875607 / 4194304) - 6 * (7592811 / 134217728)) * d ^ 2
      + (1875607 / 4194304 - 4 * (7592811 / 134217728)) * d ^ 3 - 7592811 / 134217728 * d ^ 4 := by
    unfold lnPolyQ; ring
  rw [e, lnPolyQ, abs_le]
  norm_num
  constructor <;> linarith

/-- **C150, just above one.** For `1 + 2^-22 ≤ x ≤ 2`: `ln(x)` is `0.0000606 + 0.9965443 (x - 1)` up to `0.0000015 + 0.468 (x - 1)²`. -/
theorem C150_ln_above {x : F32} (hx : x.isFinite = true) (h1 : 1 + 1 / 2 ^ 22 ≤ x.val) (h2 : x.val < 2) :
    |x.ln.val - (0.0000606 + 0.9965443 * (x.val - 1))| ≤ 0.0000015 + 0.468 * (x.val - 1) ^ 2 := by
  have hs : ¬ (x - ONE).abs.lt EPSILON = true := by
    intro hc
    have := (abs_le.1 (near_one hx hc)).2
    norm_num at *; linarith
  have x1 : 1 ≤ x.val := by norm_num at *; linarith
  have hl : x.lt one = false := by
    rw [Bool.eq_false_iff]; intro hc
    rw [lt_iff hx fin_one, val_one] at hc; linarith
  rw [ln_eq, if_neg hs, hl, if_neg (by simp)]
  have a := lnCore_unit hx x1 h2
  have b := lnPoly_near (d := x.val - 1) (by linarith) (by linarith)
  rw [add_sub_cancel] at b
  have t := abs_sub_le (lnCore x).val (lnPolyQ x.val) (0.0000606 + 0.9965443 * (x.val - 1))
  norm_num at *
  linarith

/-- **C150, just below one.** For `1/2 ≤ x ≤ 1 - 2^-22`: `ln(x)` is `-0.0000606 - 1.9930886 (1 - x)` up to `0.0000015 + 1.872 (1 - x)²`. -/
theorem C150_ln_below {x : F32} (hx : x.isFinite = true) (h1 : 1 / 2 < x.val) (h2 : x.val ≤ 1 - 1 / 2 ^ 22) :
    |x.ln.val - (-0.0000606 - 1.9930886 * (1 - x.val))| ≤ 0.0000015 + 1.872 * (1 - x.val) ^ 2 := by
  have hs : ¬ (x - ONE).abs.lt EPSILON = true := by
    intro hc
    have := (abs_le.1 (near_one hx hc)).1
    norm_num at *; linarith
  have x1 : x.val < 1 := by norm_num at *; linarith
  obtain ⟨fi, vi⟩ := C150_inv hx (k := -1) (m := 2 * x.val) (by norm_num) (by norm_num) (by norm_num; ring) (by linarith) (by linarith)
  have hiv : x.inv.val = 3 - 2 * x.val := by rw [vi]; norm_num
  rw [ln_lt_one hx x1 hs, val_neg]
  have a := lnCore_unit fi (by rw [hiv]; linarith) (by rw [hiv]; linarith)
  have b := lnPoly_near (d := x.inv.val - 1) (by rw [hiv]; linarith) (by rw [hiv]; linarith)
  rw [add_sub_cancel] at b
  have t := abs_sub_le (lnCore x.inv).val (lnPolyQ x.inv.val) (0.0000606 + 0.9965443 * (x.inv.val - 1))
  rw [show -(lnCore x.inv).val - (-0.0000606 - 1.9930886 * (1 - x.val)) = -((lnCore x.inv).val - (0.0000606 + 0.9965443 * (x.inv.val - 1))) by
    rw [hiv]; ring, abs_neg]
  have q : (x.inv.val - 1) ^ 2 = 4 * (1 - x.val) ^ 2 := by rw [hiv]; ring
  rw [q] at b
  norm_num at *
  linarith

/-- **C150, the relative error is unbounded next to one.** For `1 + 2^-22 ≤ x ≤ 1 + 2^-17`, `ln(x)` is more than eight times `log x`. -/
theorem C150_ln_jump_false {x : F32} (hx : x.isFinite = true) (h1 : 1 + 1 / 2 ^ 22 ≤ x.val) (h2 : x.val ≤ 1 + 1 / 2 ^ 17) :
    8 * Real.log x.val ≤ x.ln.val := by
  have a := (abs_le.1 (C150_ln_above hx h1 (h2.trans_lt (by norm_num)))).1
  have b : 8 * (x.val - 1) ≤ x.ln.val := by
    have d0 : 0 ≤ x.val - 1 := by norm_num at h1; linarith
    have q : (x.val - 1) ^ 2 ≤ (x.val - 1) * 1 := by rw [sq]; exact mul_le_mul_of_nonneg_left (by norm_num at h2; linarith) d0
    norm_num at *
    linarith
  have bR := (Rat.cast_le (K := ℝ)).2 b
  push_cast at bR
  have x0 : (0 : ℝ) < x.val := by exact_mod_cast (lt_of_lt_of_le (by norm_num) h1)
  have := Real.log_le_sub_one_of_pos x0
  linarith

/-- **C150, a decay factor.** `powf(127/128, 128)` is at most `0.17`, but `(127/128)^128` is above `0.36`. -/
theorem C150_decay_false : ∃ x n r : F32, IsVal x (127 / 128) ∧ IsVal n 128 ∧ x.powf n = .ok r ∧ (r.val : ℝ) ≤ 0.17 ∧ (0.36 : ℝ) ≤ (127 / 128) ^ 128 := by
  have vx : (⟨0x3f7e0000#32⟩ : F32).val = 127 / 128 := by
    rw [val_of_units (u := 127 * 2 ^ 142) (by decide +kernel)]; norm_num
  have vn : (⟨0x43000000#32⟩ : F32).val = 128 := by
    rw [val_of_units (u := 2 ^ 156) (by decide +kernel)]; norm_num
  have hl : Real.log (3 - 2 * ((127 / 128 : ℚ) : ℝ)) ≤ 2 / 128 := by
    have := Real.log_le_sub_one_of_pos (show (0 : ℝ) < 3 - 2 * ((127 / 128 : ℚ) : ℝ) by norm_num)
    refine this.trans (by norm_num)
  obtain ⟨r, hr, fr, hle⟩ := C150_decay (x := ⟨0x3f7e0000#32⟩) (n := ⟨0x43000000#32⟩) (by decide) (by rw [vx]; norm_num) (by rw [vx]; norm_num) (by decide)
    (by rw [vn]; norm_num) (by
      rw [vx, vn]
      push_cast at hl ⊢
      rw [abs_of_pos (by norm_num)]
      norm_num at hl ⊢
      linarith)
  refine ⟨_, _, r, ⟨by decide, vx⟩, ⟨by decide, vn⟩, hr, ?_, by norm_num⟩
  refine hle.trans ?_
  rw [vx, vn]
  have e : ((127 / 128 : ℚ) : ℝ) ^ (1.8 * ((128 : ℚ) : ℝ)) ≤ ((127 / 128 : ℚ) : ℝ) ^ ((230 : ℕ) : ℝ) :=
    Real.rpow_le_rpow_of_exponent_ge (by norm_num) (by norm_num) (by norm_num)
  rw [Real.rpow_natCast] at e
  have e2 : ((127 / 128 : ℚ) : ℝ) ^ 230 ≤ 0.165 := by norm_num
  have := mul_le_mul_of_nonneg_left (e.trans e2) (show (0 : ℝ) ≤ 1.0031 by norm_num)
  refine this.trans (by norm_num)

omit [Cfg] in
/-- `3/4` meets the hypotheses of the theorems on `[1/2, 1)`, `127/128` those on `[0.97, 0.999]`, and `1 + 2^-20` those next to one. -/
theorem C150_case : IsVal ⟨0x3f400000#32⟩ (2 ^ (-1 : ℤ) * (3 / 2)) ∧ IsVal ⟨0x3f7e0000#32⟩ (127 / 128) ∧ IsVal ⟨0x3f800008#32⟩ (1 + 1 / 2 ^ 20) := by
  refine ⟨⟨by decide, ?_⟩, ⟨by decide, ?_⟩, ⟨by decide, ?_⟩⟩
  · rw [val_of_units (u := 3 * 2 ^ 147) (by decide +kernel)]; norm_num
  · rw [val_of_units (u := 127 * 2 ^ 142) (by decide +kernel)]; norm_num
  · rw [val_of_units (u := (2 ^ 20 + 1) * 2 ^ 129) (by decide +kernel)]; norm_num

end Micromath.Props
