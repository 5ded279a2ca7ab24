import Verif.Props.Ln
import Verif.Props.Quat

/-!
# C106: `log2`, `log10` below one, `log` to any base
-/

set_option exponentiation.threshold 1000

namespace Micromath.Props
open F32 Spec RealAux

/-- Error allowed for `ln`: small from one on, large below one, where `inv` enters. -/
noncomputable def errLn (q : ℚ) : ℝ := if 1 ≤ q then 0.0001 else 0.118

/-- Quotient of two perturbed logarithms, rounded twice. -/
theorem log_core {X B lx lb d1 r δx δb : ℝ} (ex : |lx - X| ≤ δx) (eb : |lb - B| ≤ δb) (hm : δb + 1 / 1000 ≤ |B|)
    (hlb : |lb| ≤ 89) (hd1 : |d1| ≤ 1 / 2 ^ 24) (hr : |r - 1 / lb * (1 + d1) * lx| ≤ |1 / lb * (1 + d1) * lx| / 2 ^ 24 + 1 / 2 ^ 150)
    (x1 : δx ≤ 1) (b1 : δb ≤ 1) :
    |r - X / B| ≤ ((δx + 0.00001) + (δb + 0.00002) * |X / B|) / (|B| - δb) := by
  have δx0 : 0 ≤ δx := (abs_nonneg _).trans ex
  have δb0 : 0 ≤ δb := (abs_nonneg _).trans eb
  have hBlb : |B| ≤ |lb| + δb := by
    have := abs_sub_abs_le_abs_sub B lb
    rw [abs_sub_comm] at eb; linarith
  obtain ⟨m, hmd⟩ : ∃ m, m = |B| - δb := ⟨_, rfl⟩
  have m0 : 0 < m := by linarith
  have ml : m ≤ |lb| := by linarith
  have m89 : m ≤ 89 := by linarith
  have B0 : 0 < |B| := by linarith
  have Bne : B ≠ 0 := abs_pos.1 B0
  have lbne : lb ≠ 0 := abs_pos.1 (by linarith)
  obtain ⟨L, hL⟩ : ∃ L, L = X / B := ⟨_, rfl⟩
  obtain ⟨q, hq⟩ : ∃ q, q = lx / lb := ⟨_, rfl⟩
  have e1 : q - L = ((lx - X) + L * (B - lb)) / lb := by
    rw [hq, hL]; field_simp; ring
  have h1 : |q - L| ≤ (δx + δb * |L|) / m := by
    rw [e1, abs_div]
    refine div_le_div₀ (by positivity) ?_ m0 ml
    refine (abs_add_le _ _).trans (add_le_add ex ?_)
    rw [abs_mul, abs_sub_comm B lb, mul_comm]
    exact mul_le_mul_of_nonneg_right eb (abs_nonneg _)
  have e2 : 1 / lb * (1 + d1) * lx = q * (1 + d1) := by rw [hq]; field_simp
  rw [e2] at hr
  have h2 : |r - q| ≤ |q| * (1.3 / 10 ^ 7) + 1 / 2 ^ 150 := by
    have e3 : r - q = (r - q * (1 + d1)) + q * d1 := by ring
    have h3 : |q * d1| ≤ |q| * (1 / 2 ^ 24) := by
      rw [abs_mul]; exact mul_le_mul_of_nonneg_left hd1 (abs_nonneg _)
    have h4 : |q * (1 + d1)| ≤ |q| * (1 + 1 / 2 ^ 24) := by
      rw [abs_mul]
      refine mul_le_mul_of_nonneg_left ((abs_add_le _ _).trans ?_) (abs_nonneg _)
      rw [abs_one]; linarith
    rw [e3]
    refine (abs_add_le _ _).trans ?_
    have := abs_nonneg q
    norm_num at hr h3 h4 ⊢
    linarith
  have hqL : |q| ≤ |L| + |q - L| := by
    have := abs_add_le L (q - L)
    rwa [add_sub_cancel] at this
  have h5 : |r - L| ≤ |r - q| + |q - L| := abs_sub_le _ _ _
  rw [← hL, ← hmd, le_div_iff₀ m0]
  have h1' : |q - L| * m ≤ δx + δb * |L| := (le_div_iff₀ m0).1 h1
  have L0 := abs_nonneg L
  have p1 : |L| * m ≤ |L| * 89 := mul_le_mul_of_nonneg_left m89 L0
  have p2 : δb * |L| ≤ |L| := by nlinarith
  have h6 : |r - L| * m ≤ (|q| * (1.3 / 10 ^ 7) + 1 / 2 ^ 150 + |q - L|) * m :=
    mul_le_mul_of_nonneg_right (by linarith) m0.le
  have h7 : |q| * m ≤ |L| * m + |q - L| * m := by
    rw [← add_mul]; exact mul_le_mul_of_nonneg_right hqL m0.le
  norm_num at h6 ⊢
  nlinarith

variable [Cfg]

/-- `ln` on every positive normal number: one bound. -/
theorem ln_all {x : F32} (hx : PosNormal x) : ∃ δ : ℝ, x.ln.isFinite = true ∧ |(x.ln.val : ℝ) - Real.log x.val| ≤ δ ∧
    δ + 0.00002 ≤ errLn x.val ∧ δ ≤ 1 ∧ 0.00001 ≤ δ := by
  unfold errLn
  split
  · rename_i h
    obtain ⟨f, e⟩ := C29_ln x hx.1 h
    exact ⟨0.00008, f, e, by norm_num, by norm_num, by norm_num⟩
  · rename_i h
    obtain ⟨f, e1, e2⟩ := C30_ln x hx (not_le.1 h)
    refine ⟨0.1179, f, abs_le.2 ⟨by norm_num at e1 ⊢; linarith, by norm_num at e2 ⊢; linarith⟩, by norm_num, by norm_num, by norm_num⟩

omit [Cfg] in
theorem log_normal {x : F32} (hx : PosNormal x) : |Real.log x.val| ≤ 88.8 := by
  have x0 : (0 : ℝ) < x.val := by
    have : 0 < x.val := lt_of_lt_of_le (by positivity) hx.2
    exact_mod_cast this
  have b1 := Real.log_two_gt_d9
  have b2 := Real.log_two_lt_d9
  norm_num at b1 b2
  have h1 : (x.val : ℝ) ≤ 2 ^ 128 := by
    have : x.val ≤ 2 ^ 128 := (le_abs_self _).trans ((abs_val_le_maxF hx.1).trans (by norm_num [maxF]))
    exact_mod_cast this
  have h2 : ((2 : ℝ) ^ 126)⁻¹ ≤ x.val := by
    have := hx.2
    have h3 : (((1 / 2 ^ 126 : ℚ)) : ℝ) ≤ x.val := by exact_mod_cast this
    refine le_trans (le_of_eq ?_) h3
    push_cast; norm_num
  have l1 := Real.log_le_log x0 h1
  have l2 := Real.log_le_log (by positivity) h2
  rw [Real.log_inv, Real.log_pow] at l2
  rw [Real.log_pow] at l1
  rw [abs_le]
  push_cast at l1 l2
  constructor <;> norm_num <;> linarith

/-- **C106, `log` to any base.** For positive normal `x` and `b` with `|log b|` at least `errLn b + 1/1000`, `log(x, b)` is
finite and within `(errLn x + errLn b |log_b x|) / (|log b| - errLn b)` of `log_b x`. -/
theorem C106_log (x b : F32) (hx : PosNormal x) (hb : PosNormal b) (hB : errLn b.val + 1 / 1000 ≤ |Real.log b.val|) :
    (x.log b).isFinite = true ∧
      |((x.log b).val : ℝ) - Real.logb b.val x.val| ≤
        (errLn x.val + errLn b.val * |Real.logb b.val x.val|) / (|Real.log b.val| - errLn b.val) := by
  obtain ⟨δx, fx, ex, hx1, hx2, hx3⟩ := ln_all hx
  obtain ⟨δb, fb, eb, hb1, hb2, hb3⟩ := ln_all hb
  have lX := log_normal hx
  have lB := log_normal hb
  have ub : ∀ {l L δ : ℝ}, |l - L| ≤ δ → δ ≤ 0.12 → |L| ≤ 88.8 → |l| ≤ 89 := by
    intro l L δ h1 h2 h3
    have := abs_add_le (l - L) L
    rw [sub_add_cancel] at this
    norm_num at h2 h3; linarith
  have eu : ∀ q : ℚ, errLn q ≤ 0.118 := by
    intro q; unfold errLn; split <;> norm_num
  have ulx := ub ex (by have := eu x.val; norm_num at this hx1 ⊢; linarith) lX
  have ulb := ub eb (by have := eu b.val; norm_num at this hb1 ⊢; linarith) lB
  have hBd : δb + 1 / 1000 ≤ |Real.log b.val| := by norm_num at hb1; linarith
  have llb : (1 / 1000 : ℝ) ≤ |(b.ln.val : ℝ)| := by
    have := abs_sub_abs_le_abs_sub (Real.log b.val) (b.ln.val : ℝ)
    rw [abs_sub_comm] at this; linarith
  have llbQ : (1 / 1000 : ℚ) ≤ |b.ln.val| := by
    have h : (((1 / 1000 : ℚ)) : ℝ) ≤ ((|b.ln.val| : ℚ) : ℝ) := by push_cast; exact llb
    exact_mod_cast h
  have ulbQ : |b.ln.val| ≤ (89 : ℚ) := by
    have h : ((|b.ln.val| : ℚ) : ℝ) ≤ ((89 : ℚ) : ℝ) := by push_cast; exact ulb
    exact_mod_cast h
  have ulxQ : |x.ln.val| ≤ (89 : ℚ) := by
    have h : ((|x.ln.val| : ℚ) : ℝ) ≤ ((89 : ℚ) : ℝ) := by push_cast; exact ulx
    exact_mod_cast h
  have p0 : 0 < |b.ln.val| := by linarith
  have q1 : |1 / b.ln.val| ≤ 1000 := by
    rw [abs_div, abs_one, div_le_iff₀ p0]; linarith
  have q2 : 1 / 89 ≤ |1 / b.ln.val| := by
    rw [abs_div, abs_one]; exact one_div_le_one_div_of_le p0 ulbQ
  obtain ⟨d1, hd1, f1, v1⟩ := div_rel fin_ONE fb (abs_pos.1 p0) (by
    rw [val_ONE]; exact le_trans (by norm_num) q2) (by
    rw [val_ONE]; exact lt_of_le_of_lt q1 (by unfold ovf; norm_num))
  rw [val_ONE] at v1
  have c1 : |1 + d1| ≤ 2 := (abs_add_le _ _).trans (by rw [abs_one]; norm_num at hd1 ⊢; linarith)
  obtain ⟨f2, e2⟩ := mul_err_uf f1 fx (by
    rw [v1, abs_mul, abs_mul]
    refine lt_of_le_of_lt (mul_le_mul (mul_le_mul q1 c1 (abs_nonneg _) (by norm_num)) ulxQ (abs_nonneg _) (by norm_num)) ?_
    norm_num [ovf])
  refine ⟨f2, ?_⟩
  rw [v1] at e2
  have e2' := abs_cast_le e2
  have hd1' := abs_cast_le hd1
  push_cast at e2' hd1'
  have core := log_core ex eb hBd ulb hd1' e2' hx2 hb2
  rw [Real.logb]
  refine core.trans ?_
  have a0 := abs_nonneg (Real.log x.val / Real.log b.val)
  refine div_le_div₀ (by norm_num at hx1 hb1; nlinarith) ?_ (by linarith) (by norm_num at hb1; linarith)
  refine add_le_add (by norm_num at hx1 ⊢; linarith) (mul_le_mul_of_nonneg_right (by norm_num at hb1 ⊢; linarith) a0)

/-- The hypotheses: logarithm of `1/8` to base `1/2`. -/
example : PosNormal ⟨0x3e000000#32⟩ ∧ PosNormal ⟨0x3f000000#32⟩ ∧
    errLn (⟨0x3f000000#32⟩ : F32).val + 1 / 1000 ≤ |Real.log (⟨0x3f000000#32⟩ : F32).val| := by
  refine ⟨posNormal_iff.2 (by decide), posNormal_iff.2 (by decide), ?_⟩
  have hv : (⟨0x3f000000#32⟩ : F32).val = 1 / 2 := by
    rw [val_of_units (u := 2 ^ 148) (by decide +kernel)]; norm_num
  have b1 := Real.log_two_gt_d9
  rw [hv, errLn, if_neg (by norm_num)]
  push_cast
  rw [show (1 / 2 : ℝ) = 2⁻¹ by norm_num, Real.log_inv, abs_neg, abs_of_pos (by norm_num at b1; linarith)]
  norm_num at b1 ⊢; linarith

/-- A scaled logarithm below one. -/
theorem scaled_ln_lt {x c : F32} (hx : PosNormal x) (h : x.val < 1) (hc : c.isFinite = true) {b : ℝ}
    (e : Int) (he : -125 ≤ e) (he2 : e ≤ 127) (c0 : 0 < c.val) (hce : (89 * c.val : ℚ) ≤ 2 ^ e)
    (hcb : |(c.val : ℝ) - 1 / Real.log b| ≤ 2 / 10 ^ 8) :
    (x.ln * c).isFinite = true ∧
      -0.1179 * (c.val : ℝ) - (89 * (2 / 10 ^ 8) + ((2 ^ (e - 25) : ℚ) : ℝ)) ≤ ((x.ln * c).val : ℝ) - Real.log x.val / Real.log b ∧
      ((x.ln * c).val : ℝ) - Real.log x.val / Real.log b ≤ 0.00008 * (c.val : ℝ) + (89 * (2 / 10 ^ 8) + ((2 ^ (e - 25) : ℚ) : ℝ)) := by
  obtain ⟨f, e1, e2⟩ := C30_ln x hx h
  have lX := log_normal hx
  have hab : |x.ln.val| ≤ (89 : ℚ) := by
    have h : ((|x.ln.val| : ℚ) : ℝ) ≤ ((89 : ℚ) : ℝ) := by
      push_cast
      obtain ⟨l1, l2⟩ := abs_le.1 lX
      norm_num at e1 e2 l1 l2
      rw [abs_le]; constructor <;> linarith
    exact_mod_cast h
  obtain ⟨d, hd, fm, vm⟩ := mul_err f hc e he he2 (by
    rw [abs_mul, abs_of_pos c0]
    exact (mul_le_mul_of_nonneg_right hab c0.le).trans hce)
  refine ⟨fm, ?_⟩
  rw [vm]
  have c0' : (0 : ℝ) < c.val := by exact_mod_cast c0
  have eq : (((x.ln.val * c.val + d : ℚ)) : ℝ) - Real.log x.val / Real.log b =
      ((x.ln.val : ℝ) - Real.log x.val) * c.val + Real.log x.val * ((c.val : ℝ) - 1 / Real.log b) + d := by
    push_cast; ring
  rw [eq]
  have t1 := mul_le_mul_of_nonneg_right e1 c0'.le
  have t1' := mul_le_mul_of_nonneg_right e2 c0'.le
  have t2 : |Real.log x.val * ((c.val : ℝ) - 1 / Real.log b)| ≤ 89 * (2 / 10 ^ 8) := by
    rw [abs_mul]
    exact mul_le_mul (lX.trans (by norm_num)) hcb (abs_nonneg _) (by norm_num)
  obtain ⟨t2l, t2u⟩ := abs_le.1 t2
  obtain ⟨t3l, t3u⟩ := abs_le.1 (abs_cast_le hd)
  constructor <;> linarith

/-- **C106, base 2 below one**: `log2(x)` is too small by up to `0.1702`, never too large by more than `0.00013`. -/
theorem C106_log2 (x : F32) (hx : PosNormal x) (h : x.val < 1) :
    x.log2.isFinite = true ∧ -0.1702 ≤ (x.log2.val : ℝ) - Real.logb 2 x.val ∧
      (x.log2.val : ℝ) - Real.logb 2 x.val ≤ 0.00013 := by
  have b1 := Real.log_two_gt_d9
  have b2 := Real.log_two_lt_d9
  have hp : 0 < Real.log 2 := by norm_num at b1; linarith
  obtain ⟨f, e1, e2⟩ := scaled_ln_lt (b := 2) hx h fin_LOG2_E 8 (by norm_num) (by norm_num) (by rw [val_LOG2_E]; norm_num)
    (by rw [val_LOG2_E]; norm_num) (by
      rw [val_LOG2_E, abs_le]
      push_cast
      constructor
      · rw [neg_le_sub_iff_le_add, div_le_iff₀ hp]; norm_num at b1 b2 ⊢; linarith
      · rw [sub_le_iff_le_add, ← sub_le_iff_le_add', le_div_iff₀ hp]; norm_num at b1 b2 ⊢; linarith)
  refine ⟨f, le_trans ?_ e1, e2.trans ?_⟩ <;> (rw [val_LOG2_E]; push_cast; norm_num)

/-- **C106, base 10 below one**: `log10(x)` is too small by up to `0.0513`, never too large by more than `0.00004`. -/
theorem C106_log10 (x : F32) (hx : PosNormal x) (h : x.val < 1) :
    x.log10.isFinite = true ∧ -0.0513 ≤ (x.log10.val : ℝ) - Real.logb 10 x.val ∧
      (x.log10.val : ℝ) - Real.logb 10 x.val ≤ 0.00004 := by
  obtain ⟨b1, b2⟩ := log_ten_bounds
  have hp : 0 < Real.log 10 := by norm_num at b1; linarith
  obtain ⟨f, e1, e2⟩ := scaled_ln_lt (b := 10) hx h fin_LOG10_E 6 (by norm_num) (by norm_num) (by rw [val_LOG10_E]; norm_num)
    (by rw [val_LOG10_E]; norm_num) (by
      rw [val_LOG10_E, abs_le]
      push_cast
      constructor
      · rw [neg_le_sub_iff_le_add, div_le_iff₀ hp]; norm_num at b1 b2 ⊢; linarith
      · rw [sub_le_iff_le_add, ← sub_le_iff_le_add', le_div_iff₀ hp]; norm_num at b1 b2 ⊢; linarith)
  refine ⟨f, le_trans ?_ e1, e2.trans ?_⟩ <;> (rw [val_LOG10_E]; push_cast; norm_num)

/-- `3/4`, where the bound is nearly attained, meets the hypotheses. -/
example : PosNormal ⟨0x3f400000#32⟩ ∧ (⟨0x3f400000#32⟩ : F32).val < 1 := by
  refine ⟨posNormal_iff.2 (by decide), ?_⟩
  rw [val_of_units (u := 3 * 2 ^ 147) (by decide +kernel)]; norm_num

/-- **C106, base one**: the quotient `1 / ln(1)` is infinite, so `log(x, 1)` is an infinity for every `x` with
`|ln(x)|` a non-zero number, and NaN for `x = 1`. -/
theorem C106_log_base_one (x : F32) :
    (x.ln.isNaN = true → (x.log one).isNaN = true) ∧ (x.ln.isZero = true → (x.log one).isNaN = true) ∧
    (x.ln.isNaN = false → x.ln.isZero = false → x.log one = pack x.ln.sign infMag) := by
  have e : ONE / one.ln = posInf := by
    rw [C29_ln_one]; exact eval_eq (n := 0x7f800000) (by kernel_rfl)
  have e' : x.log one = posInf * x.ln := by
    show (ONE / one.ln) * x.ln = _
    rw [e]
  rw [e']
  refine ⟨fun h => mul_nan (.inr h), fun h => ?_, fun h1 h2 => ?_⟩
  · have hn : x.ln.isNaN = false := by
      rw [isNaN]; simp only [isZero, decide_eq_true_eq] at h; rw [h]; decide
    show (F32.mul posInf x.ln).isNaN = true
    unfold F32.mul
    rw [hn, h, show posInf.isNaN = false by decide, show posInf.isInf = true by decide]
    simp [Cfg.nanOp_isNaN]
  · show F32.mul posInf x.ln = _
    unfold F32.mul
    rw [h1, h2, show posInf.isNaN = false by decide, show posInf.isInf = true by decide,
      show posInf.isZero = false by decide, show posInf.sign = false by decide]
    simp

end Micromath.Props
