import Verif.Real.Log
import Mathlib.Analysis.SpecialFunctions.Log.Base
import Verif.Props.Exp

/-!
# C29 - C32: `ln`, `log`, `log2`, `log10`
-/

set_option exponentiation.threshold 1000

namespace Micromath.Props
open F32 Spec RealAux Poly

variable [Cfg]

/-! ### the polynomial -/

/-- The polynomial of `ln`, exactly. -/
def lnPolyQ (w : ℚ) : ℚ :=
  -(7305613 / 4194304) + (11832981 / 4194304 + (-(12330891 / 8388608) + (1875607 / 4194304 - 7592811 / 134217728 * w) * w) * w) * w

omit [Cfg] in
theorem lnPolyQ_cast (w : ℚ) : ((lnPolyQ w : ℚ) : ℝ) = ev lnC w := by
  unfold lnPolyQ lnC; simp only [ev_cons, ev_nil]; push_cast; ring

/-- `a * w` where `a = A + ea`. -/
theorem horner_mul' {w a : F32} (hw : w.isFinite) (ha : a.isFinite) {A ea B : ℚ} (e : Int) (he : -125 ≤ e)
    (he2 : e ≤ 127) (hv : a.val = A + ea) (hB : |ea| ≤ B) (hc : |w.val| ≤ 2) (h : |A * w.val| + 2 * B ≤ 2 ^ e) :
    ∃ e', |e'| ≤ 2 * B + 2 ^ (e - 25) ∧ (a * w).isFinite = true ∧ (a * w).val = A * w.val + e' := by
  have h2 : |ea * w.val| ≤ 2 * B := by
    rw [mul_comm 2]; exact abs_mul_le_of hB hc
  obtain ⟨d, hd, hf, hv'⟩ := mul_err ha hw e he he2 (by
    rw [hv, add_mul]; exact (abs_add_le _ _).trans (le_trans (by linarith) h))
  refine ⟨ea * w.val + d, ?_, hf, by rw [hv', hv]; ring⟩
  exact (abs_add_le _ _).trans (add_le_add h2 hd)

theorem lnPoly_err {w : F32} (hw : w.isFinite = true) (h1 : 1 ≤ w.val) (h2 : w.val ≤ 2) :
    (lnPoly w).isFinite = true ∧ |(lnPoly w).val - lnPolyQ w.val| ≤ 14 / 10 ^ 7 := by
  have hc : |w.val| ≤ 2 := by rw [abs_of_nonneg (by linarith)]; exact h2
  have a1 : 334 / 1000 ≤ (1875607 / 4194304 - 7592811 / 134217728 * w.val : ℚ) ∧
      (1875607 / 4194304 - 7592811 / 134217728 * w.val : ℚ) ≤ 391 / 1000 := by constructor <;> linarith
  have m1 : 334 / 1000 ≤ (1875607 / 4194304 - 7592811 / 134217728 * w.val : ℚ) * w.val ∧
      (1875607 / 4194304 - 7592811 / 134217728 * w.val : ℚ) * w.val ≤ 782 / 1000 := by
    constructor <;> nlinarith
  obtain ⟨A1, hA1⟩ : ∃ A, A = (1875607 / 4194304 - 7592811 / 134217728 * w.val : ℚ) := ⟨_, rfl⟩
  rw [← hA1] at a1 m1
  obtain ⟨A2, hA2⟩ : ∃ A, A = (-(12330891 / 8388608) + A1 * w.val : ℚ) := ⟨_, rfl⟩
  have a2 : -(1136 / 1000) ≤ A2 ∧ A2 ≤ -(687 / 1000) := by rw [hA2]; constructor <;> linarith
  have m2 : -(2272 / 1000) ≤ A2 * w.val ∧ A2 * w.val ≤ -(687 / 1000) := by constructor <;> nlinarith
  obtain ⟨A3, hA3⟩ : ∃ A, A = (11832981 / 4194304 + A2 * w.val : ℚ) := ⟨_, rfl⟩
  have a3 : 549 / 1000 ≤ A3 ∧ A3 ≤ 2135 / 1000 := by rw [hA3]; constructor <;> linarith
  have m3 : 549 / 1000 ≤ A3 * w.val ∧ A3 * w.val ≤ 4270 / 1000 := by constructor <;> nlinarith
  have hQ : lnPolyQ w.val = -(7305613 / 4194304) + A3 * w.val := by rw [hA3, hA2, hA1]; rfl
  obtain ⟨d0, hd0, f0, v0⟩ := mul_err fin_lit_56570851_1000000000 hw (-2) (by norm_num) (by norm_num) (by
    rw [val_lit_56570851_1000000000, abs_of_nonneg (by linarith)]; norm_num; linarith)
  rw [val_lit_56570851_1000000000] at v0
  norm_num at hd0
  obtain ⟨c1, c2⟩ := abs_le.1 hd0
  obtain ⟨d1, hd1, f1, v1⟩ := sub_err fin_lit_44717955_100000000 f0 (-1) (by norm_num) (by norm_num) (by
    rw [val_lit_44717955_100000000, v0, abs_le]; norm_num; constructor <;> linarith)
  rw [val_lit_44717955_100000000, v0] at v1
  norm_num at hd1
  have v1' : (lit 44717955 100000000 - lit 56570851 1000000000 * w).val = A1 + (d1 - d0) := by rw [v1, hA1]; ring
  have e1 : |d1 - d0| ≤ 23 / 10 ^ 9 := by
    refine (abs_sub _ _).trans ((add_le_add hd1 hd0).trans (by norm_num))
  obtain ⟨d2, hd2, f2, v2⟩ := horner_mul' hw f1 0 (by norm_num) (by norm_num) v1' e1 hc (by
    rw [abs_of_nonneg (by linarith)]; norm_num; linarith)
  have hd2 := hd2.trans (show _ ≤ (76 / 10 ^ 9 : ℚ) by norm_num)
  obtain ⟨d3, hd3, f3, v3⟩ := horner_add (k := -(lit 14699568 10000000)) (by rw [isFinite_neg]; exact fin_lit_14699568_10000000) f2 1
    (by norm_num) (by norm_num) v2 hd2 (by
      obtain ⟨c1, c2⟩ := abs_le.1 hd2
      rw [val_neg, val_lit_14699568_10000000, v2, abs_le]; norm_num at c1 c2 ⊢; constructor <;> linarith)
  rw [val_neg, val_lit_14699568_10000000, ← hA2] at v3
  have hd3 := hd3.trans (show _ ≤ (136 / 10 ^ 9 : ℚ) by norm_num)
  obtain ⟨d4, hd4, f4, v4⟩ := horner_mul' hw f3 2 (by norm_num) (by norm_num) v3 hd3 hc (by
    rw [abs_of_nonpos (by linarith)]; norm_num; linarith)
  have hd4 := hd4.trans (show _ ≤ (392 / 10 ^ 9 : ℚ) by norm_num)
  obtain ⟨d5, hd5, f5, v5⟩ := horner_add fin_lit_28212026_10000000 f4 2
    (by norm_num) (by norm_num) v4 hd4 (by
      obtain ⟨c1, c2⟩ := abs_le.1 hd4
      rw [val_lit_28212026_10000000, v4, abs_le]; norm_num at c1 c2 ⊢; constructor <;> linarith)
  rw [val_lit_28212026_10000000, ← hA3] at v5
  have hd5 := hd5.trans (show _ ≤ (512 / 10 ^ 9 : ℚ) by norm_num)
  obtain ⟨d6, hd6, f6, v6⟩ := horner_mul' hw f5 3 (by norm_num) (by norm_num) v5 hd5 hc (by
    rw [abs_of_nonneg (by linarith)]; norm_num; linarith)
  have hd6 := hd6.trans (show _ ≤ (1263 / 10 ^ 9 : ℚ) by norm_num)
  obtain ⟨d7, hd7, f7, v7⟩ := horner_add (k := -(lit 17417939 10000000)) (by rw [isFinite_neg]; exact fin_lit_17417939_10000000) f6 1
    (by norm_num) (by norm_num) v6 hd6 (by
      obtain ⟨c1, c2⟩ := abs_le.1 hd6
      have hr := lnC_err (y := (w.val : ℝ)) (by exact_mod_cast h1) (by exact_mod_cast h2)
      rw [val_neg, val_lit_17417939_10000000, v6, ← add_assoc, ← hQ]
      have hl0 := Real.log_nonneg (x := (w.val : ℝ)) (by exact_mod_cast h1)
      have hl1 := Real.log_le_sub_one_of_pos (x := (w.val : ℝ)) (by
        have : (0 : ℚ) < w.val := by linarith
        exact_mod_cast this)
      have h2' : (w.val : ℝ) ≤ 2 := by exact_mod_cast h2
      rw [← lnPolyQ_cast] at hr
      obtain ⟨r1, r2⟩ := abs_le.1 hr
      have q1 : -(1 / 10 : ℚ) ≤ lnPolyQ w.val := by
        have : ((-(1 / 10) : ℚ) : ℝ) ≤ (lnPolyQ w.val : ℚ) := by push_cast; norm_num at r1 ⊢; linarith
        exact_mod_cast this
      have q2 : lnPolyQ w.val ≤ (11 / 10 : ℚ) := by
        have : ((lnPolyQ w.val : ℚ) : ℝ) ≤ ((11 / 10 : ℚ) : ℝ) := by push_cast; norm_num at r2 ⊢; linarith
        exact_mod_cast this
      rw [abs_le]; norm_num at c1 c2 q1 q2 ⊢; constructor <;> linarith)
  refine ⟨f7, ?_⟩
  rw [val_neg, val_lit_17417939_10000000, ← hQ] at v7
  show |(-(lit 17417939 10000000) + _ : F32).val - _| ≤ _
  rw [v7, add_sub_cancel_left]
  exact hd7.trans (by norm_num)

/-! ### the part of `ln` for arguments from 1 on -/

/-- `ln` after the special cases. -/
def lnCore (w : F32) : F32 :=
  ofInt (BitVec.ofInt 32 w.extractExponentValue).toNat * LN_2 + lnPoly (w / fromBits (w.toBits &&& EXPONENT_MASK))

theorem ln_eq (x : F32) : x.ln = if (x - ONE).abs.lt EPSILON then ZERO
    else if x.lt one then -(lnCore x.inv) else lnCore x := by
  unfold ln lnCore
  split
  · rfl
  · cases h : x.lt one <;> simp

omit [Cfg] in
theorem toNat_and_exponent (x : F32) : (x.toBits &&& EXPONENT_MASK).toNat = x.mag / 2 ^ 23 * 2 ^ 23 := by
  have h2 : (x.bits &&& EXPONENT_MASK).toNat % 2 ^ 23 = 0 := by
    rw [← toNat_and_mant, BitVec.and_assoc, show EXPONENT_MASK &&& MANTISSA_MASK = 0#32 by decide]; simp
  have h3 : (x.bits &&& EXPONENT_MASK).toNat / 2 ^ 23 = x.mag / 2 ^ 23 := by
    rw [← extractExponentBits_toNat, ← Nat.shiftRight_eq_div_pow, ← BitVec.toNat_ushiftRight]; rfl
  show (x.bits &&& EXPONENT_MASK).toNat = _
  omega

omit [Cfg] in
theorem exponent_mask_val {w : F32} (h : PosNormal w) :
    ∃ k : Nat, 1 ≤ k ∧ k ≤ 254 ∧ w.extractExponentValue = (k : Int) - 127 ∧
      IsVal (fromBits (w.toBits &&& EXPONENT_MASK)) (2 ^ ((k : Int) - 127)) ∧
      ∃ f : Nat, f < 2 ^ 23 ∧ w.val / 2 ^ ((k : Int) - 127) = 1 + f / 2 ^ 23 := by
  obtain ⟨k, f, hk1, hk2, hf, hm, -, hv⟩ := posNormal_split h
  have hk : w.mag / 2 ^ 23 = k := by omega
  have hp : (2 : ℚ) ^ ((k : Int) - 127) = 2 ^ 23 * 2 ^ (k - 1) / 2 ^ 149 := by
    rw [eq_div_iff (by positivity), ← zpow_natCast, ← zpow_natCast, ← zpow_natCast, ← zpow_add₀ (by norm_num),
      ← zpow_add₀ (by norm_num)]
    congr 1
    push_cast [hk1]
    omega
  refine ⟨k, hk1, hk2, by rw [extractExponentValue_eq, hk], ?_, f, hf, ?_⟩
  · obtain ⟨h1, h2⟩ := val_of_bits (y := fromBits (w.toBits &&& EXPONENT_MASK)) (E := k) (F := 0) hk1 hk2 (by norm_num) (by
      rw [fromBits, toNat_and_exponent, hk]; omega)
    refine ⟨h1.1, ?_⟩
    rw [h2, hp]; push_cast; ring
  · rw [hv, hp]
    have : (2 : ℚ) ^ (k - 1) ≠ 0 := by positivity
    field_simp

theorem lnCore_err {w : F32} (h : PosNormal w) (h1 : 1 ≤ w.val) :
    (lnCore w).isFinite = true ∧ |((lnCore w).val : ℝ) - Real.log w.val| ≤ 74 / 10 ^ 6 := by
  obtain ⟨k, hk1, hk2, he, ⟨fd, vd⟩, f, hf, hm⟩ := exponent_mask_val h
  have hfq : (f : ℚ) < 2 ^ 23 := by exact_mod_cast hf
  have hf0 : (0 : ℚ) ≤ f := by positivity
  have hf1 : (f : ℚ) / 2 ^ 23 < 1 := by rw [div_lt_one (by positivity)]; exact hfq
  have hf2 : (0 : ℚ) ≤ (f : ℚ) / 2 ^ 23 := by positivity
  obtain ⟨M, hM⟩ : ∃ M : ℚ, M = 1 + f / 2 ^ 23 := ⟨_, rfl⟩
  have hrep : Rep M := by
    rw [hM]
    refine rep_grid (j := -23) (z := 2 ^ 23 + f) (by norm_num) (by push_cast; norm_num; ring) ?_
    rw [abs_of_nonneg (by linarith)]; norm_num at hf1 ⊢; linarith
  have hM1 : 1 ≤ M := by linarith
  have hM2 : M < 2 := by linarith
  rw [← hM] at hm
  clear hM
  have hp : (0 : ℚ) < 2 ^ ((k : Int) - 127) := by positivity
  -- the exponent is not negative
  have hk : 127 ≤ k := by
    by_contra hc
    have h2 : (2 : ℚ) ^ ((k : Int) - 127) ≤ 2 ^ (-1 : Int) := zpow_le_zpow_right₀ (by norm_num) (by omega)
    rw [div_eq_iff hp.ne'] at hm
    norm_num at h2
    nlinarith
  obtain ⟨E, hE⟩ : ∃ E : Nat, k = E + 127 := ⟨k - 127, by omega⟩
  have hkE : (k : Int) - 127 = (E : Int) := by omega
  rw [hkE] at he vd hm hp
  rw [zpow_natCast] at vd hm hp
  have hE2 : E ≤ 127 := by omega
  -- the exact mantissa
  have fw := h.1
  have hdv := div_val fw fd (by rw [vd]; exact hp.ne') (by
    rw [vd, hm, abs_of_nonneg (by linarith)]; exact lt_trans hM2 (show (2 : ℚ) < ovf by unfold ovf; norm_num))
  rw [vd, hm, RN_of_rep hrep] at hdv
  obtain ⟨fm, vm⟩ := hdv
  obtain ⟨fp, ep⟩ := lnPoly_err fm (by rw [vm]; linarith) (by rw [vm]; linarith)
  -- the exponent as a float
  have hb : (BitVec.ofInt 32 w.extractExponentValue).toNat = E := by
    rw [he, BitVec.ofInt_natCast, BitVec.toNat_ofNat]; omega
  obtain ⟨fe, ve⟩ := ofInt_isVal (n := (E : Int)) (by simp; omega)
  have hEq : (E : ℚ) ≤ 127 := by exact_mod_cast hE2
  have hE0 : (0 : ℚ) ≤ E := by positivity
  push_cast at ve
  obtain ⟨d1, hd1, f1, v1⟩ := mul_err fe fin_LN_2 7 (by norm_num) (by norm_num) (by
    rw [ve, val_LN_2, abs_of_nonneg (by positivity)]; norm_num; linarith)
  rw [ve, val_LN_2] at v1
  norm_num at hd1
  -- bounds of the polynomial
  rw [vm] at ep
  have hm1 : (1 : ℝ) ≤ (M : ℝ) := by
    exact_mod_cast hM1
  have hm2 : (M : ℝ) ≤ 2 := by
    exact_mod_cast hM2.le
  have hr := lnC_err hm1 hm2
  rw [← lnPolyQ_cast] at hr
  have ep' := abs_cast_le ep
  have hP : |((lnPoly (w / fromBits (w.toBits &&& EXPONENT_MASK))).val : ℝ) - Real.log (M : ℝ)| ≤ 0.0000634 := by
    push_cast at ep' hr ⊢
    have := abs_sub_le ((lnPoly (w / fromBits (w.toBits &&& EXPONENT_MASK))).val : ℝ)
      (lnPolyQ M : ℝ) (Real.log (M : ℝ))
    refine this.trans ((add_le_add ep' hr).trans (by norm_num))
  have hl0 := Real.log_nonneg hm1
  have hl1 := Real.log_le_sub_one_of_pos (lt_of_lt_of_le one_pos hm1)
  have hP' := hP
  obtain ⟨L, hL⟩ : ∃ L, L = lnPoly (w / fromBits (w.toBits &&& EXPONENT_MASK)) := ⟨_, rfl⟩
  obtain ⟨p1, p2⟩ := abs_le.1 hP
  have q1 : -(1 / 10 : ℚ) ≤ (lnPoly (w / fromBits (w.toBits &&& EXPONENT_MASK))).val := by
    have : ((-(1 / 10) : ℚ) : ℝ) ≤ ((lnPoly (w / fromBits (w.toBits &&& EXPONENT_MASK))).val : ℝ) := by
      push_cast; norm_num at p1 ⊢; linarith
    exact_mod_cast this
  have q2 : (lnPoly (w / fromBits (w.toBits &&& EXPONENT_MASK))).val ≤ (11 / 10 : ℚ) := by
    have : ((lnPoly (w / fromBits (w.toBits &&& EXPONENT_MASK))).val : ℝ) ≤ ((11 / 10 : ℚ) : ℝ) := by
      push_cast; norm_num at p2 hm2 ⊢; linarith
    exact_mod_cast this
  obtain ⟨c1, c2⟩ := abs_le.1 hd1
  obtain ⟨d2, hd2, f2, v2⟩ := add_err f1 fp 7 (by norm_num) (by norm_num) (by
    rw [v1, abs_le]; norm_num at q1 q2 ⊢; constructor <;> linarith)
  norm_num at hd2
  have hc : lnCore w = ofInt (E : Int) * LN_2 + lnPoly (w / fromBits (w.toBits &&& EXPONENT_MASK)) := by
    unfold lnCore; rw [hb]
  rw [hc]
  refine ⟨f2, ?_⟩
  have hw : w.val = 2 ^ E * M := by rw [← hm]; field_simp
  have hlog : Real.log w.val = E * Real.log 2 + Real.log (M : ℝ) := by
    rw [hw]
    push_cast
    push_cast at hm1
    rw [Real.log_mul (by positivity) (by linarith), Real.log_pow]
  rw [hlog, v2, v1]
  have g1 := Real.log_two_gt_d9
  have g2 := Real.log_two_lt_d9
  have d1' := abs_cast_le hd1
  have d2' := abs_cast_le hd2
  have hER : (E : ℝ) ≤ 127 := by exact_mod_cast hE2
  have hER0 : (0 : ℝ) ≤ E := by positivity
  have k1 : |(E : ℝ) * (1453635 / 2097152 - Real.log 2)| ≤ 127 * (3 / 10 ^ 9) := by
    rw [abs_mul, abs_of_nonneg hER0]
    refine mul_le_mul hER ?_ (abs_nonneg _) (by norm_num)
    rw [abs_le]; norm_num at g1 g2 ⊢; constructor <;> linarith
  have e : ((((E : ℚ) * (1453635 / 2097152) + d1 + (lnPoly (w / fromBits (w.toBits &&& EXPONENT_MASK))).val + d2 : ℚ)) : ℝ) -
      (E * Real.log 2 + Real.log (M : ℝ)) =
      (E : ℝ) * (1453635 / 2097152 - Real.log 2) + ((lnPoly (w / fromBits (w.toBits &&& EXPONENT_MASK))).val -
        Real.log (M : ℝ)) + d1 + d2 := by push_cast; ring
  rw [e]
  refine (abs_add_le _ _).trans ((add_le_add (abs_add_le _ _) le_rfl).trans
      ((add_le_add (add_le_add (abs_add_le _ _) le_rfl) le_rfl).trans ?_))
  push_cast at d1' d2'
  norm_num at k1 hP d1' d2' ⊢
  linarith

/-! ### the shortcut next to 1 -/

omit [Cfg] in
theorem abs_RN_ge_of_rep {q c : ℚ} (hc : Rep c) (h : c ≤ |q|) : c ≤ |RN q| := by
  rw [← RN_abs]; exact le_RN_of_rep hc h

theorem near_one {x : F32} (hx : x.isFinite = true) (h : (x - ONE).abs.lt EPSILON = true) : |x.val - 1| ≤ 1 / 2 ^ 23 := by
  by_contra hc
  push Not at hc
  by_cases hb : |x.val - 1| < ovf
  · obtain ⟨f1, v1⟩ := sub_val hx fin_ONE (by rw [val_ONE]; exact hb)
    rw [val_ONE] at v1
    rw [lt_iff (by rw [isFinite_abs]; exact f1) fin_EPSILON, val_abs, v1, val_EPSILON] at h
    have := abs_RN_ge_of_rep (c := 1 / 2 ^ 23) (q := x.val - 1) (by
      have := rep_pow (e := -23) (by norm_num)
      norm_num at this ⊢; exact this) hc.le
    norm_num at h this
    linarith
  · have := abs_val_le_maxF hx
    have h2 : |x.val - 1| ≤ maxF + 1 := (abs_sub _ _).trans (by rw [abs_one]; linarith)
    have h3 : maxF + 1 < ovf := by norm_num [maxF, ovf]
    linarith

omit [Cfg] in
theorem log_near_one {q : ℚ} (h : |q - 1| ≤ 1 / 2 ^ 23) : |Real.log q| ≤ 1 / 2 ^ 22 := by
  have h' := abs_cast_le h
  push_cast at h'
  norm_num at h'
  obtain ⟨h1, h2⟩ := abs_le.1 h'
  have hq : (0 : ℝ) < q := by linarith
  have u := Real.log_le_sub_one_of_pos hq
  have l := Real.one_sub_inv_le_log_of_pos hq
  have hi : (q : ℝ)⁻¹ ≤ 1 + 1 / 4194304 := by
    rw [inv_le_comm₀ hq (by norm_num)]
    refine le_trans ?_ (show (1 - 1 / 8388608 : ℝ) ≤ q by linarith)
    norm_num
  rw [abs_le]; norm_num; constructor <;> linarith

omit [Cfg] in
theorem posNormal_of_one_le {x : F32} (hx : x.isFinite = true) (h : 1 ≤ x.val) : PosNormal x :=
  ⟨hx, le_trans (by norm_num) h⟩

/-- **C29.** For every finite `x >= 1`, `ln(x)` is finite and within `8e-5` of the real logarithm; `ln(1)` is `+0.0`. -/
theorem C29_ln (x : F32) (hx : x.isFinite = true) (h : 1 ≤ x.val) :
    x.ln.isFinite = true ∧ |(x.ln.val : ℝ) - Real.log x.val| ≤ 0.00008 := by
  rw [ln_eq]
  split
  · rename_i hn
    refine ⟨fin_ZERO, ?_⟩
    have := log_near_one (near_one hx hn)
    rw [val_ZERO, Rat.cast_zero, zero_sub, abs_neg]
    refine this.trans (by norm_num)
  · have hl : x.lt one = false := by
      rw [Bool.eq_false_iff]; intro hc
      rw [lt_iff hx fin_one, val_one] at hc; linarith
    rw [hl, if_neg (by simp)]
    obtain ⟨f, e⟩ := lnCore_err (posNormal_of_one_le hx h) h
    exact ⟨f, e.trans (by norm_num)⟩

/-- **C29, at 1.** -/
theorem C29_ln_one : one.ln = posZero := (eval_eq (n := 0) (by kernel_rfl)).trans (by decide)

/-- `3.0` meets the hypotheses; `ln(3.0)` is `0x3f8c9ec6`. -/
example : (⟨0x40400000#32⟩ : F32).isFinite = true ∧ 1 ≤ (⟨0x40400000#32⟩ : F32).val := by
  refine ⟨by decide, ?_⟩
  rw [val_of_units (u := 3 * 2 ^ 149) (by decide +kernel)]; norm_num

/-! ### arguments below 1 -/

omit [Cfg] in
theorem log_nine_eighths : Real.log (9 / 8) ≤ 0.1178 := by
  have := log_le_L6 (z := 1 / 17) (by norm_num) (by norm_num)
  have e : Real.log (9 / 8) = Real.log (1 + 1 / 17) - Real.log (1 - 1 / 17) := by
    rw [← Real.log_div (by norm_num) (by norm_num)]; norm_num
  rw [e]
  refine this.trans ?_
  simp only [L6, ev_cons, ev_nil]; norm_num

/-- `ln` of a positive number below 1 that is not next to 1. -/
theorem ln_lt_one {x : F32} (hx : x.isFinite = true) (h : x.val < 1) (hn : ¬ (x - ONE).abs.lt EPSILON = true) :
    x.ln = -(lnCore x.inv) := by
  have hl : x.lt one = true := by rw [lt_iff hx fin_one, val_one]; exact h
  rw [ln_eq, if_neg hn, if_pos hl]

/-- **C30.** For every positive normal `x < 1`, `ln(x)` is finite and between `log x - 0.1179` and `log x + 8e-5`. -/
theorem C30_ln (x : F32) (hx : PosNormal x) (h : x.val < 1) :
    x.ln.isFinite = true ∧ -0.1179 ≤ (x.ln.val : ℝ) - Real.log x.val ∧ (x.ln.val : ℝ) - Real.log x.val ≤ 0.00008 := by
  by_cases hn : (x - ONE).abs.lt EPSILON = true
  · rw [ln_eq, if_pos hn]
    refine ⟨fin_ZERO, ?_⟩
    obtain ⟨l, u⟩ := abs_le.1 (log_near_one (near_one hx.1 hn))
    rw [val_ZERO, Rat.cast_zero]
    norm_num at l u ⊢
    constructor <;> linarith
  · have h0 : 0 < x.val := lt_of_lt_of_le (by positivity) hx.2
    rw [ln_lt_one hx.1 h hn]
    obtain ⟨fi, i1, i2⟩ := C19_inv x hx (h.le.trans (by norm_num))
    have hi1 : 1 ≤ x.inv.val := by
      by_contra hc
      push Not at hc
      nlinarith
    obtain ⟨f, e⟩ := lnCore_err (posNormal_of_one_le fi hi1) hi1
    rw [isFinite_neg, val_neg]
    refine ⟨f, ?_⟩
    have h0' : (0 : ℝ) < x.val := by exact_mod_cast h0
    have hi' : (1 : ℝ) ≤ x.inv.val := by exact_mod_cast hi1
    have hl : Real.log ((x.val : ℝ) * x.inv.val) = Real.log x.val + Real.log x.inv.val :=
      Real.log_mul h0'.ne' (by linarith)
    have j1 : (1 : ℝ) ≤ (x.val : ℝ) * x.inv.val := by exact_mod_cast i1
    have j2 : (x.val : ℝ) * x.inv.val ≤ 9 / 8 := by
      have : ((x.val * x.inv.val : ℚ) : ℝ) ≤ ((9 / 8 : ℚ) : ℝ) := by exact_mod_cast i2
      push_cast at this; exact this
    have k1 := Real.log_nonneg j1
    have k2 := (Real.log_le_log (by linarith) j2).trans log_nine_eighths
    obtain ⟨c1, c2⟩ := abs_le.1 e
    push_cast
    norm_num at c1 c2 k2 ⊢
    constructor <;> linarith

/-- **C30, the bound is sharp up to 0.1%**: at `0.75` the error exceeds `0.117`. -/
theorem C30_ln_sharp :
    PosNormal ⟨0x3f400000#32⟩ ∧ IsVal ⟨0x3f400000#32⟩ (3 / 4) ∧
      (ln ⟨0x3f400000#32⟩).isFinite = true ∧ ((ln ⟨0x3f400000#32⟩).val : ℝ) - Real.log (3 / 4) < -0.1177 := by
  have e : ln ⟨0x3f400000#32⟩ = ⟨0xbecf96e8#32⟩ := by
    have i1 : F32.inv ⟨0x3f400000#32⟩ = ⟨0x3fc00000#32⟩ := eval_eq (n := 0x3fc00000) (by kernel_rfl)
    have i2 : (⟨0x3fc00000#32⟩ : F32) / fromBits (toBits ⟨0x3fc00000#32⟩ &&& EXPONENT_MASK) = ⟨0x3fc00000#32⟩ :=
      eval_eq (n := 0x3fc00000) (by kernel_rfl)
    have i3 : lnPoly ⟨0x3fc00000#32⟩ = ⟨0x3ecf96e8#32⟩ := eval_eq (n := 0x3ecf96e8) (by kernel_rfl)
    have i4 : (BitVec.ofInt 32 (extractExponentValue ⟨0x3fc00000#32⟩)).toNat = 0 := by decide +kernel
    have i0 : (⟨0x3f400000#32⟩ : F32) - ONE = ⟨0xbe800000#32⟩ := eval_eq (n := 0xbe800000) (by kernel_rfl)
    rw [ln_eq, i0, if_neg (by decide +kernel), if_pos (by decide +kernel), i1]
    unfold lnCore
    rw [i2, i3, i4]
    exact eval_eq (n := 0xbecf96e8) (by kernel_rfl)
  have hv : (⟨0xbecf96e8#32⟩ : F32).val = -(13604584 / 33554432) := by
    rw [val_of_units (u := -(13604584 * 2 ^ 124)) (by decide +kernel)]; norm_num
  refine ⟨posNormal_iff.2 (by decide), ⟨by decide, ?_⟩, by rw [e]; decide, ?_⟩
  · rw [val_of_units (u := 3 * 2 ^ 147) (by decide +kernel)]; norm_num
  · rw [e, hv]
    have := log_le_L6 (z := 1 / 7) (by norm_num) (by norm_num)
    have e2 : -Real.log (3 / 4) = Real.log (1 + 1 / 7) - Real.log (1 - 1 / 7) := by
      rw [← Real.log_div (by norm_num) (by norm_num), ← Real.log_inv]; norm_num
    rw [← e2] at this
    simp only [L6, ev_cons, ev_nil] at this
    push_cast at this ⊢
    norm_num at this ⊢
    linarith

/-- `0.5` meets the hypotheses of `C30_ln`. -/
example : PosNormal ⟨0x3f000000#32⟩ ∧ (⟨0x3f000000#32⟩ : F32).val < 1 := by
  refine ⟨posNormal_iff.2 (by decide), ?_⟩
  rw [val_of_units (u := 2 ^ 148) (by decide +kernel)]; norm_num

/-! ### special values -/

theorem lnPoly_nan {w : F32} (h : w.isNaN = true) : (lnPoly w).isNaN = true := by
  unfold lnPoly
  exact add_nan (Or.inr (mul_nan (Or.inr h)))

theorem lnCore_nan {w : F32} (h : (w / fromBits (w.toBits &&& EXPONENT_MASK)).isNaN = true) : (lnCore w).isNaN = true := by
  unfold lnCore
  exact add_nan (Or.inr (lnPoly_nan h))

/-- **C31, NaN.** `ln` is NaN on NaN and on everything with a sign bit: negative numbers, `-0.0` and `-inf`. -/
theorem C31_ln_nan (x : F32) (h : x.isNaN = true ∨ x.isSignNegative = true) : x.ln.isNaN = true := by
  by_cases hn : x.isNaN = true
  · have h1 : (x - ONE).abs.lt EPSILON = false := lt_nan_left (by rw [isNaN_abs]; exact sub_nan (Or.inl hn)) _
    have h2 : x.lt one = false := lt_nan_left hn _
    rw [ln_eq, h1, h2, if_neg (by simp), if_neg (by simp)]
    exact lnCore_nan (div_nan (Or.inl hn))
  · have hs : x.isSignNegative = true := by tauto
    have hs' : x.sign = true := hs
    rcases class_cases x with hf | hi | hc
    · have hv : x.val ≤ 0 := by rw [val_of_neg hs']; have := mval_nonneg x.mag; linarith
      have h1 : ¬ (x - ONE).abs.lt EPSILON = true := by
        intro hc
        have := near_one hf hc
        rw [abs_le] at this
        norm_num at this
        linarith [this.1]
      rw [ln_lt_one hf (by linarith) h1, isNaN_neg, (C20_inv_negative x hs).1 hf]
      exact lnCore_nan (zero_div_zero (by decide) (by decide))
    · have e : x = negInf := by rw [eq_pack_of_inf hi, hs']; decide
      subst e
      have h0 : negInf - ONE = negInf := eval_eq (n := 0xff800000) (by kernel_rfl)
      rw [ln_eq, h0, if_neg (by decide), if_pos (by decide), isNaN_neg, (C20_inv_negative _ hs).2 rfl]
      exact lnCore_nan (zero_div_zero (by decide) (by decide))
    · exact absurd hc hn

/-- `-2.0` meets the hypothesis. -/
example : (⟨0xc0000000#32⟩ : F32).isSignNegative = true := by decide

/-- **C31, infinity**: `ln(+inf)` is NaN (and not `+inf` as in the standard library). -/
theorem C31_ln_inf : posInf.ln.isNaN = true := by
  have h0 : posInf - ONE = posInf := eval_eq (n := 0x7f800000) (by kernel_rfl)
  rw [ln_eq, h0, if_neg (by decide), if_neg (by decide)]
  exact lnCore_nan (inf_div_inf (by decide) (by decide))

/-- **C31, zero and subnormals**: `ln(x)` is finite and lies in `[-88.04, -87.33]` for `+0.0` and every positive subnormal. -/
theorem C31_ln_small (x : F32) (hs : x.isSignNegative = false) (h : x.val < 1 / 2 ^ 126) (hx : x.isFinite = true) :
    x.ln.isFinite = true ∧ -88.04 ≤ x.ln.val ∧ x.ln.val ≤ -87.33 := by
  have hs' : x.sign = false := hs
  have hm : x.mag < 2 ^ 23 := by
    by_contra hc
    have := (pow_le_iff (x := x) (k := 1) (by norm_num)).2 (by omega)
    rw [abs_of_nonneg (by rw [val_of_pos hs']; exact mval_nonneg _)] at this
    norm_num at this h
    linarith
  have hv1 : x.val < 1 := h.trans (by norm_num)
  have h1 : ¬ (x - ONE).abs.lt EPSILON = true := by
    intro hc
    have := near_one hx hc
    rw [abs_le] at this
    norm_num at this h
    linarith [this.1]
  rw [ln_lt_one hx hv1 h1, isFinite_neg, val_neg]
  have hb : x.bits.toNat = x.mag := by rw [toNat_eq, hs']; simp
  have hi := inv_toNat (x := x) (by omega)
  have hmag : x.inv.mag = 254 * 2 ^ 23 - x.mag := by rw [F32.mag, hi, hb]; omega
  have hsi : x.inv.sign = false := by rw [sign, hi, hb]; simp; omega
  have hv : x.inv.val = mval (254 * 2 ^ 23 - x.mag) := by rw [val_of_pos hsi, hmag]
  have hP : PosNormal x.inv := posNormal_iff.2 ⟨hsi, by omega, by omega⟩
  have l1 : (2 : ℚ) ^ 126 ≤ x.inv.val := by
    have := mval_le.2 (show 253 * 2 ^ 23 ≤ 254 * 2 ^ 23 - x.mag by omega)
    rw [mval_pow (by norm_num), ← hv] at this
    norm_num at this ⊢; exact this
  have l2 : x.inv.val ≤ 2 ^ 127 := by
    have := mval_le.2 (show 254 * 2 ^ 23 - x.mag ≤ 254 * 2 ^ 23 by omega)
    rw [mval_pow (by norm_num), ← hv] at this
    norm_num at this ⊢; exact this
  obtain ⟨f, e⟩ := lnCore_err hP (le_trans (by norm_num) l1)
  refine ⟨f, ?_⟩
  have r1 : (2 : ℝ) ^ 126 ≤ x.inv.val := by exact_mod_cast l1
  have r2 : (x.inv.val : ℝ) ≤ 2 ^ 127 := by exact_mod_cast l2
  have g1 := Real.log_le_log (by positivity) r1
  have g2 := Real.log_le_log (lt_of_lt_of_le (by positivity) r1) r2
  rw [Real.log_pow] at g1 g2
  push_cast at g1 g2
  have b1 := Real.log_two_gt_d9
  have b2 := Real.log_two_lt_d9
  obtain ⟨e1, e2⟩ := abs_le.1 e
  norm_num at e1 e2 b1 b2
  constructor
  · have : ((-88.04 : ℚ) : ℝ) ≤ ((-(lnCore x.inv).val : ℚ) : ℝ) := by push_cast; norm_num; linarith
    exact_mod_cast this
  · have : ((-(lnCore x.inv).val : ℚ) : ℝ) ≤ ((-87.33 : ℚ) : ℝ) := by push_cast; norm_num; linarith
    exact_mod_cast this

/-- The smallest subnormal meets the hypotheses. -/
example : (⟨1#32⟩ : F32).isSignNegative = false ∧ (⟨1#32⟩ : F32).val < 1 / 2 ^ 126 ∧ (⟨1#32⟩ : F32).isFinite = true := by
  refine ⟨by decide, ?_, by decide⟩
  rw [val_of_units (u := 1) (by decide +kernel)]; norm_num

/-- **C31, the standard library's contract is violated** at `+0.0` and at `+inf`. -/
theorem C31_ln_std_false : posZero.ln ≠ negInf ∧ posInf.ln ≠ posInf := by
  constructor
  · intro h
    have := (C31_ln_small posZero (by decide) (by rw [val_posZero]; norm_num) (by decide)).1
    rw [h] at this
    exact absurd this (by decide)
  · intro h
    have := C31_ln_inf
    rw [h] at this
    exact absurd this (by decide)

/-! ### other bases -/

omit [Cfg] in
theorem log_ten_bounds : 2.302585092 ≤ Real.log 10 ∧ Real.log 10 ≤ 2.302585095 := by
  have b1 := Real.log_two_gt_d9
  have b2 := Real.log_two_lt_d9
  have u := log_le_L6 (z := 1 / 9) (by norm_num) (by norm_num)
  have l := log_ge_L5 (z := 1 / 9) (by norm_num) (by norm_num)
  have e : Real.log (1 + 1 / 9) - Real.log (1 - 1 / 9) = Real.log (5 / 4) := by
    rw [← Real.log_div (by norm_num) (by norm_num)]; norm_num
  have e2 : Real.log 10 = 3 * Real.log 2 + Real.log (5 / 4) := by
    rw [show (10 : ℝ) = 2 ^ 3 * (5 / 4) by norm_num, Real.log_mul (by norm_num) (by norm_num), Real.log_pow]; push_cast; ring
  rw [e] at u l
  simp only [L5, L6, ev_cons, ev_nil] at u l
  push_cast at u l
  norm_num at u l b1 b2 ⊢
  rw [e2]
  constructor <;> linarith

omit [Cfg] in
theorem log_max {q : ℚ} (h0 : 1 ≤ q) (h : q ≤ maxF) : 0 ≤ Real.log q ∧ Real.log q ≤ 128 * Real.log 2 := by
  have h1 : (1 : ℝ) ≤ q := by exact_mod_cast h0
  have h2 : (q : ℝ) ≤ 2 ^ 128 := by
    have : q ≤ 2 ^ 128 := h.trans (by norm_num [maxF])
    exact_mod_cast this
  refine ⟨Real.log_nonneg h1, ?_⟩
  have := Real.log_le_log (by linarith) h2
  rw [Real.log_pow] at this
  exact_mod_cast this

/-- A scaled logarithm: the common part of `log2` and `log10`. -/
theorem scaled_ln {x c : F32} (hx : x.isFinite = true) (h : 1 ≤ x.val) (hc : c.isFinite = true) {b : ℝ}
    (e : Int) (he : -125 ≤ e) (he2 : e ≤ 127) (c0 : 0 < c.val) (hce : (89 * c.val : ℚ) ≤ 2 ^ e)
    (hcb : |(c.val : ℝ) - 1 / Real.log b| ≤ 2 / 10 ^ 8) :
    (x.ln * c).isFinite = true ∧
      |((x.ln * c).val : ℝ) - Real.log x.val / Real.log b| ≤ 0.00008 * (c.val : ℝ) + 89 * (2 / 10 ^ 8) + ((2 ^ (e - 25) : ℚ) : ℝ) := by
  obtain ⟨f, er⟩ := C29_ln x hx h
  have hmx := (le_abs_self _).trans (abs_val_le_maxF hx)
  obtain ⟨l0, l1⟩ := log_max h hmx
  have b2 := Real.log_two_lt_d9
  obtain ⟨e1, e2⟩ := abs_le.1 er
  have hL : Real.log x.val ≤ 88.8 := by norm_num at b2 ⊢; linarith
  have hab : |x.ln.val| ≤ (89 : ℚ) := by
    rw [abs_le]
    constructor
    · have : ((-89 : ℚ) : ℝ) ≤ x.ln.val := by push_cast; norm_num at e1 ⊢; linarith
      exact_mod_cast this
    · have : (x.ln.val : ℝ) ≤ ((89 : ℚ) : ℝ) := by push_cast; norm_num at e2 hL ⊢; linarith
      exact_mod_cast this
  obtain ⟨d, hd, fm, vm⟩ := mul_err f hc e he he2 (by
    rw [abs_mul, abs_of_pos c0]
    exact (mul_le_mul_of_nonneg_right hab c0.le).trans hce)
  refine ⟨fm, ?_⟩
  rw [vm]
  have c0' : (0 : ℝ) < c.val := by exact_mod_cast c0
  have eq : (((x.ln.val * c.val + d : ℚ)) : ℝ) - Real.log x.val / Real.log b =
      ((x.ln.val : ℝ) - Real.log x.val) * c.val + Real.log x.val * ((c.val : ℝ) - 1 / Real.log b) + d := by
    push_cast; ring
  rw [eq]
  have t1 : |((x.ln.val : ℝ) - Real.log x.val) * c.val| ≤ 0.00008 * (c.val : ℝ) := by
    rw [abs_mul, abs_of_pos c0']; exact mul_le_mul_of_nonneg_right er c0'.le
  have t2 : |Real.log x.val * ((c.val : ℝ) - 1 / Real.log b)| ≤ 89 * (2 / 10 ^ 8) := by
    rw [abs_mul, abs_of_nonneg l0]
    exact mul_le_mul (hL.trans (by norm_num)) hcb (abs_nonneg _) (by norm_num)
  have t3 := abs_cast_le hd
  exact (abs_add_le _ _).trans (add_le_add ((abs_add_le _ _).trans (add_le_add t1 t2)) t3)

/-- **C32, base 2.** -/
theorem C32_log2 (x : F32) (hx : x.isFinite = true) (h : 1 ≤ x.val) :
    x.log2.isFinite = true ∧ |(x.log2.val : ℝ) - Real.logb 2 x.val| ≤ 0.00013 := by
  have b1 := Real.log_two_gt_d9
  have b2 := Real.log_two_lt_d9
  have hp : 0 < Real.log 2 := by norm_num at b1; linarith
  obtain ⟨f, e⟩ := scaled_ln (b := 2) hx h fin_LOG2_E 8 (by norm_num) (by norm_num) (by rw [val_LOG2_E]; norm_num)
    (by rw [val_LOG2_E]; norm_num) (by
      rw [val_LOG2_E, abs_le]
      push_cast
      constructor
      · rw [neg_le_sub_iff_le_add, div_le_iff₀ hp]; norm_num at b1 b2 ⊢; linarith
      · rw [sub_le_iff_le_add, ← sub_le_iff_le_add', le_div_iff₀ hp]; norm_num at b1 b2 ⊢; linarith)
  refine ⟨f, e.trans ?_⟩
  rw [val_LOG2_E]; push_cast; norm_num

/-- **C32, base 10.** -/
theorem C32_log10 (x : F32) (hx : x.isFinite = true) (h : 1 ≤ x.val) :
    x.log10.isFinite = true ∧ |(x.log10.val : ℝ) - Real.logb 10 x.val| ≤ 0.00004 := by
  obtain ⟨b1, b2⟩ := log_ten_bounds
  have hp : 0 < Real.log 10 := by norm_num at b1; linarith
  obtain ⟨f, e⟩ := scaled_ln (b := 10) hx h fin_LOG10_E 6 (by norm_num) (by norm_num) (by rw [val_LOG10_E]; norm_num)
    (by rw [val_LOG10_E]; norm_num) (by
      rw [val_LOG10_E, abs_le]
      push_cast
      constructor
      · rw [neg_le_sub_iff_le_add, div_le_iff₀ hp]; norm_num at b1 b2 ⊢; linarith
      · rw [sub_le_iff_le_add, ← sub_le_iff_le_add', le_div_iff₀ hp]; norm_num at b1 b2 ⊢; linarith)
  refine ⟨f, e.trans ?_⟩
  rw [val_LOG10_E]; push_cast; norm_num

/-- **C32, NaN**: for everything with a sign bit and for NaN, the three logarithms are NaN. -/
theorem C32_nan (x b : F32) (h : x.isNaN = true ∨ x.isSignNegative = true) :
    x.log2.isNaN = true ∧ x.log10.isNaN = true ∧ (x.log b).isNaN = true := by
  have := C31_ln_nan x h
  exact ⟨mul_nan (Or.inl this), mul_nan (Or.inl this), mul_nan (Or.inr this)⟩

/-- **C32, arbitrary base.** For finite `b >= 2` and `x >= 1`, `log(x, b)` is within `0.00013 (1 + log_b x)` of `log_b x`. -/
theorem C32_log (x b : F32) (hx : x.isFinite = true) (h : 1 ≤ x.val) (hb : b.isFinite = true) (h2 : 2 ≤ b.val) :
    (x.log b).isFinite = true ∧
      |((x.log b).val : ℝ) - Real.logb b.val x.val| ≤ 0.00013 * (1 + Real.logb b.val x.val) := by
  obtain ⟨fx, ex⟩ := C29_ln x hx h
  obtain ⟨fb, eb⟩ := C29_ln b hb (by linarith)
  obtain ⟨lx0, lx1⟩ := log_max h ((le_abs_self _).trans (abs_val_le_maxF hx))
  obtain ⟨-, lb1⟩ := log_max (by linarith) ((le_abs_self _).trans (abs_val_le_maxF hb))
  have g1 := Real.log_two_gt_d9
  have g2 := Real.log_two_lt_d9
  have h2' : (2 : ℝ) ≤ b.val := by exact_mod_cast h2
  have lb0 := Real.log_le_log (by norm_num) h2'
  obtain ⟨X, hX⟩ : ∃ X, X = Real.log x.val := ⟨_, rfl⟩
  obtain ⟨B, hB⟩ : ∃ B, B = Real.log b.val := ⟨_, rfl⟩
  rw [Real.logb, ← hX, ← hB]
  rw [← hX] at ex lx0 lx1
  rw [← hB] at eb lb1 lb0
  obtain ⟨x1, x2⟩ := abs_le.1 ex
  obtain ⟨b1, b2⟩ := abs_le.1 eb
  norm_num at g1 g2 x1 x2 b1 b2
  have pb1 : (69 / 100 : ℚ) ≤ b.ln.val := by
    have : ((69 / 100 : ℚ) : ℝ) ≤ b.ln.val := by push_cast; norm_num; linarith
    exact_mod_cast this
  have pb2 : b.ln.val ≤ 89 := by
    have : (b.ln.val : ℝ) ≤ ((89 : ℚ) : ℝ) := by push_cast; norm_num; linarith
    exact_mod_cast this
  have px : |x.ln.val| ≤ 89 := by
    rw [abs_le]; constructor
    · have : ((-89 : ℚ) : ℝ) ≤ x.ln.val := by push_cast; norm_num; linarith
      exact_mod_cast this
    · have : (x.ln.val : ℝ) ≤ ((89 : ℚ) : ℝ) := by push_cast; norm_num; linarith
      exact_mod_cast this
  have pb0 : (0 : ℚ) < b.ln.val := by linarith
  have q1 : 1 / b.ln.val ≤ 100 / 69 := by
    rw [div_le_iff₀ pb0]; linarith
  have q2 : 1 / 89 ≤ 1 / b.ln.val := one_div_le_one_div_of_le pb0 pb2
  obtain ⟨d1, hd1, f1, v1⟩ := div_rel fin_ONE fb pb0.ne' (by
    rw [val_ONE, abs_of_pos (by positivity)]; exact le_trans (by norm_num) q2) (by
    rw [val_ONE, abs_of_pos (by positivity)]; exact lt_of_le_of_lt q1 (by unfold ovf; norm_num))
  rw [val_ONE] at v1
  obtain ⟨c1, c2⟩ := abs_le.1 hd1
  have hr : |(ONE / b.ln).val * x.ln.val| ≤ 2 ^ (8 : Int) := by
    rw [v1, abs_mul, abs_of_nonneg (mul_nonneg (by positivity) (by norm_num at c1 ⊢; linarith))]
    have : 1 / b.ln.val * (1 + d1) ≤ 100 / 69 * (1 + 1 / 2 ^ 24) :=
      mul_le_mul q1 (by linarith) (by norm_num at c1 ⊢; linarith) (by norm_num)
    refine (mul_le_mul this px (abs_nonneg _) (by norm_num)).trans (by norm_num)
  obtain ⟨d2, hd2, f2, v2⟩ := mul_err f1 fx 8 (by norm_num) (by norm_num) hr
  refine ⟨f2, ?_⟩
  show |((((ONE / b.ln) * x.ln).val : ℚ) : ℝ) - _| ≤ _
  rw [v2, v1]
  have hd1' := abs_cast_le hd1
  have hd2' := abs_cast_le hd2
  push_cast at hd1' hd2' ⊢
  have B0 : 0 < B := by linarith
  obtain ⟨lx, hlx⟩ : ∃ t : ℝ, t = (x.ln.val : ℝ) := ⟨_, rfl⟩
  obtain ⟨lb, hlb⟩ : ∃ t : ℝ, t = (b.ln.val : ℝ) := ⟨_, rfl⟩
  rw [← hlx, ← hlb]
  rw [← hlx] at ex x1 x2
  rw [← hlb] at eb b1 b2
  have lb0' : 0 < lb := by linarith
  -- `1 / lb = (1 / B) (1 + t)`
  have ht : |B / lb - 1| ≤ 0.000116 := by
    rw [div_sub_one lb0'.ne', abs_div, abs_of_pos lb0', div_le_iff₀ lb0', abs_sub_comm]
    refine eb.trans ?_
    norm_num; linarith
  obtain ⟨t, hteq⟩ : ∃ t, t = B / lb - 1 := ⟨_, rfl⟩
  rw [← hteq] at ht
  have e1 : 1 / lb * (1 + (d1 : ℝ)) * lx + d2 - X / B =
      X / B * (t + (1 + t) * d1) + (1 + t) * (1 + d1) * ((lx - X) / B) + d2 := by
    have : 1 / lb = (1 + t) / B := by rw [hteq]; field_simp; ring
    rw [this]; field_simp; ring
  rw [e1]
  have hXB : 0 ≤ X / B := div_nonneg lx0 B0.le
  have ht1 : |1 + t| ≤ 1.000116 := (abs_add_le _ _).trans (by rw [abs_one]; norm_num at ht ⊢; linarith)
  have hd11 : |1 + (d1 : ℝ)| ≤ 1.0000001 := (abs_add_le _ _).trans (by rw [abs_one]; norm_num at hd1' ⊢; linarith)
  have s1 : |t + (1 + t) * (d1 : ℝ)| ≤ 0.000117 := by
    refine (abs_add_le _ _).trans ?_
    rw [abs_mul]
    have := mul_le_mul ht1 hd1' (abs_nonneg _) (by norm_num)
    norm_num at this ht ⊢; linarith
  have s2 : |(lx - X) / B| ≤ 0.0001155 := by
    rw [abs_div, abs_of_pos B0, div_le_iff₀ B0]
    refine ex.trans ?_
    norm_num; linarith
  have u1 : |X / B * (t + (1 + t) * (d1 : ℝ))| ≤ X / B * 0.000117 := by
    rw [abs_mul, abs_of_nonneg hXB]; exact mul_le_mul_of_nonneg_left s1 hXB
  have u2 : |(1 + t) * (1 + (d1 : ℝ)) * ((lx - X) / B)| ≤ 0.000116 := by
    rw [abs_mul, abs_mul]
    refine (mul_le_mul (mul_le_mul ht1 hd11 (abs_nonneg _) (by norm_num)) s2 (abs_nonneg _) (by norm_num)).trans (by norm_num)
  refine (abs_add_le _ _).trans ((add_le_add (abs_add_le _ _) le_rfl).trans ?_)
  norm_num at u1 u2 hd2' ⊢
  linarith

/-- `x = 1000`, `b = 10` meet the hypotheses. -/
example : (⟨0x447a0000#32⟩ : F32).isFinite = true ∧ 1 ≤ (⟨0x447a0000#32⟩ : F32).val ∧
    (⟨0x41200000#32⟩ : F32).isFinite = true ∧ 2 ≤ (⟨0x41200000#32⟩ : F32).val := by
  refine ⟨by decide, ?_, by decide, ?_⟩
  · rw [val_of_units (u := 1000 * 2 ^ 149) (by decide +kernel)]; norm_num
  · rw [val_of_units (u := 10 * 2 ^ 149) (by decide +kernel)]; norm_num

end Micromath.Props
