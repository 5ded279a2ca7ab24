import Verif.Props.Atan
import Verif.Props.Ln

/-!
# C128: how far `atan`, `asin`, `acos` and `ln` are from being monotone
-/

set_option exponentiation.threshold 1000

namespace Micromath.Props
open F32 Spec RealAux
variable [Cfg]

omit [Cfg] in
theorem gA_mono {x y : ℝ} (h0 : 0 ≤ x) (h : x ≤ y) : gA x ≤ gA y := by
  have y0 : 0 ≤ y := h0.trans h
  have B0 : (0 : ℝ) ≤ cB := by norm_num [cB]
  have d : ∀ z : ℝ, 0 ≤ z → 0 < 1 + 2 * (cB : ℝ) * z + z ^ 2 := by intro z hz; positivity
  rw [gA, gA, div_le_div_iff₀ (d x h0) (d y y0)]
  have : (cB * y + y ^ 2) * (1 + 2 * cB * x + x ^ 2) - (cB * x + x ^ 2) * (1 + 2 * cB * y + y ^ 2) =
      (y - x) * (cB + (x + y) + cB * (x * y)) := by ring
  have p : 0 ≤ (y - x) * (cB + (x + y) + cB * (x * y)) :=
    mul_nonneg (by linarith) (by have := mul_nonneg B0 (mul_nonneg h0 y0); linarith)
  linarith

/-- The rational function behind `atan`, extended to negative arguments. -/
noncomputable def gS (x : ℝ) : ℝ := if 0 ≤ x then gA x else -gA (-x)

omit [Cfg] in
theorem gS_mono {x y : ℝ} (h : x ≤ y) : gS x ≤ gS y := by
  unfold gS
  split_ifs with h1 h2 h2
  · exact gA_mono h1 h
  · exact absurd (h1.trans h) h2
  · push Not at h1
    have := gA_nonneg (x := -x) (by linarith)
    have := gA_nonneg h2
    linarith
  · push Not at h1 h2
    have := gA_mono (x := -y) (y := -x) (by linarith) (by linarith)
    linarith

/-- `atan` against its rational function: only rounding errors. -/
theorem atan_gS {x : F32} (hx : x.isFinite = true) (hb : |x.val| ≤ atanMax) :
    x.atan.isFinite = true ∧ |(x.atan.val : ℝ) - cH * gS x.val| ≤ 76 / 2 ^ 24 := by
  obtain ⟨q, e1, fq, sq, q0, q1, hg, -⟩ := atan_core hx hb
  obtain ⟨fh, h0, h1, he⟩ := half_pi_mul fq q0 q1
  have hf := (C38_atan hx hb).2.2.2.2.1
  refine ⟨hf, ?_⟩
  have fc : (q.copysign x).isFinite = true := by rw [isFinite, mag_copysign]; exact fq
  have hH : (0 : ℝ) ≤ cH ∧ (cH : ℝ) ≤ 1.571 := by constructor <;> norm_num [cH]
  have hm : |((FRAC_PI_2 * q).val : ℝ) - cH * gA ((|x.val| : ℚ) : ℝ)| ≤ 76 / 2 ^ 24 := by
    have h3 : |(cH : ℝ) * q.val - cH * gA ((|x.val| : ℚ) : ℝ)| ≤ 1.571 * (46 / 2 ^ 24) := by
      rw [← mul_sub, abs_mul, abs_of_nonneg hH.1]
      exact mul_le_mul hH.2 hg (abs_nonneg _) (by norm_num)
    refine (abs_sub_le _ _ _).trans ((add_le_add he h3).trans (by norm_num))
  have hat : x.atan = FRAC_PI_2 * (q.copysign x) := by rw [← e1]; rfl
  have hval : x.atan.val = if x.sign then -(FRAC_PI_2 * q).val else (FRAC_PI_2 * q).val := by
    rw [hat, mul_finite_val (by rw [← hat]; exact hf), copysign_val sq, mul_finite_val fh]
    split
    · rw [mul_neg, RN_neg]
    · rfl
  have hgs : gS x.val = if x.sign then -gA ((|x.val| : ℚ) : ℝ) else gA ((|x.val| : ℚ) : ℝ) := by
    have hm0 := mval_nonneg x.mag
    rw [abs_val, val_eq, gS]
    cases x.sign
    · simp only [Bool.false_eq_true, if_false]
      rw [if_pos (by exact_mod_cast hm0)]
    · simp only [if_true]
      push_cast
      rcases eq_or_lt_of_le hm0 with h | h
      · rw [← h]; simp [gA]
      · have h' : (0 : ℝ) < mval x.mag := by exact_mod_cast h
        rw [if_neg (by linarith), neg_neg]
  rw [hval, hgs]
  split
  · push_cast
    push_cast at hm
    rw [mul_neg, neg_sub_neg, abs_sub_comm]
    exact hm
  · exact hm

/-- **C128.** `atan` is monotone up to `1e-5`: a larger argument never lowers the result by more. -/
theorem C128_atan {x y : F32} (hx : x.isFinite = true) (hy : y.isFinite = true) (bx : |x.val| ≤ atanMax) (bY : |y.val| ≤ atanMax)
    (h : x.val ≤ y.val) : x.atan.val ≤ y.atan.val + 1 / 10 ^ 5 := by
  have e1 := (abs_le.1 (atan_gS hx bx).2).2
  have e2 := (abs_le.1 (atan_gS hy bY).2).1
  have hH : (0 : ℝ) ≤ cH := by norm_num [cH]
  have hm := mul_le_mul_of_nonneg_left (gS_mono (x := x.val) (y := y.val) (by exact_mod_cast h)) hH
  have : (x.atan.val : ℝ) ≤ ((y.atan.val + 1 / 10 ^ 5 : ℚ) : ℝ) := by
    push_cast
    norm_num at e1 e2 ⊢
    linarith
  exact_mod_cast this

/-- **C128, not better**: `atan` is not monotone, even on neighbouring numbers. -/
theorem C128_atan_false : ∃ x y : F32, x.lt y = true ∧ y.atan.lt x.atan = true := by
  have h1 : (⟨0x3dbb738a#32⟩ : F32).atan = ⟨0x3db53645#32⟩ := eval_eq (by kernel_rfl)
  have h2 : (⟨0x3dbb738b#32⟩ : F32).atan = ⟨0x3db53641#32⟩ := eval_eq (by kernel_rfl)
  exact ⟨⟨0x3dbb738a#32⟩, ⟨0x3dbb738b#32⟩, by decide, by rw [h1, h2]; decide⟩

/-- `0.1` and `0.2`. -/
example : (lit 1 10).isFinite = true ∧ (lit 2 10).isFinite = true ∧ (lit 1 10).lt (lit 2 10) = true := by decide +kernel

/-! ### `ln` -/

omit [Cfg] in
/-- The polynomial of `ln` grows at rate 0.49 or more on `[1, 2]`. -/
theorem lnPolyQ_mono {x y : ℚ} (h1 : 1 ≤ x) (h : x ≤ y) (h2 : y ≤ 2) : 0.49 * (y - x) ≤ lnPolyQ y - lnPolyQ x := by
  obtain ⟨a, ha⟩ : ∃ a, x = 2 - a := ⟨2 - x, by ring⟩
  obtain ⟨b, hb⟩ : ∃ b, y = 2 - b := ⟨2 - y, by ring⟩
  subst ha hb
  have a0 : 0 ≤ a := by linarith
  have b0 : 0 ≤ b := by linarith
  have a1 : a ≤ 1 := by linarith
  have b1 : b ≤ 1 := by linarith
  have e : lnPolyQ (2 - b) - lnPolyQ (2 - a) = (2 - b - (2 - a)) * (260709 / 524288 + 2425647 / 16777216 * (a + b)
      - 90383 / 16777216 * (a ^ 2 + a * b + b ^ 2) + 7592811 / 134217728 * (a ^ 3 + a ^ 2 * b + a * b ^ 2 + b ^ 3)) := by
    unfold lnPolyQ; ring
  have k1 : a ^ 2 + a * b + b ^ 2 ≤ 3 * (a + b) := by nlinarith
  have k2 : 0 ≤ a ^ 3 + a ^ 2 * b + a * b ^ 2 + b ^ 3 := by positivity
  rw [e, mul_comm]
  refine mul_le_mul_of_nonneg_left ?_ (by linarith)
  linarith

/-- The real function behind `ln` on numbers from 1 on, as a function of the bit pattern. -/
def lnBits (m : Nat) : ℚ := ((m / 2 ^ 23 : Nat) - 127) * (1453635 / 2097152) + lnPolyQ (1 + (m % 2 ^ 23 : Nat) / 2 ^ 23)

theorem lnCore_bits {w : F32} (h : PosNormal w) (h1 : 1 ≤ w.val) :
    (lnCore w).isFinite = true ∧ |(lnCore w).val - lnBits w.mag| ≤ 91 / 10 ^ 7 := by
  obtain ⟨k, hk1, hk2, he, ⟨fd, vd⟩, f, hf, hm⟩ := exponent_mask_val h
  have hkm : w.mag / 2 ^ 23 = k := by
    rw [extractExponentValue_eq] at he
    omega
  have hfm : w.mag % 2 ^ 23 = f := by
    obtain ⟨k', f', g1, g2, g3, g4, -, g5⟩ := posNormal_split h
    have hkk : k' = k := by omega
    subst hkk
    have hp : (2 : ℚ) ^ ((k' : Int) - 127) = 2 ^ 23 * 2 ^ (k' - 1) / 2 ^ 149 := by
      rw [eq_div_iff (by positivity), ← zpow_natCast, ← zpow_natCast, ← zpow_natCast, ← zpow_add₀ (by norm_num),
        ← zpow_add₀ (by norm_num)]
      congr 1
      push_cast [g1]
      omega
    rw [g5, hp] at hm
    have q : (2 : ℚ) ^ (k' - 1) ≠ 0 := by positivity
    field_simp at hm
    have hm' : (2 : ℚ) ^ 23 + (f' : ℚ) = 2 ^ 23 + f := by linarith
    have : f' = f := by exact_mod_cast (add_left_cancel hm')
    omega
  have hfq : (f : ℚ) < 2 ^ 23 := by exact_mod_cast hf
  have hf0 : (0 : ℚ) ≤ f := by positivity
  have hf1 : (f : ℚ) / 2 ^ 23 < 1 := by rw [div_lt_one (by positivity)]; exact hfq
  have hf2 : (0 : ℚ) ≤ (f : ℚ) / 2 ^ 23 := by positivity
  obtain ⟨M, hM⟩ : ∃ M : ℚ, M = 1 + f / 2 ^ 23 := ⟨_, rfl⟩
  have hrep : Rep M := by
    rw [hM]
    refine rep_grid (j := -23) (z := 2 ^ 23 + f) (by norm_num) (by push_cast; norm_num; ring) ?_
    rw [abs_of_nonneg (by linarith)]; norm_num at hf1 ⊢; linarith
  have hM1 : 1 ≤ M := by linarith
  have hM2 : M < 2 := by linarith
  rw [← hM] at hm
  have hp : (0 : ℚ) < 2 ^ ((k : Int) - 127) := by positivity
  -- the exponent is not negative
  have hk : 127 ≤ k := by
    by_contra hc
    have h2 : (2 : ℚ) ^ ((k : Int) - 127) ≤ 2 ^ (-1 : Int) := zpow_le_zpow_right₀ (by norm_num) (by omega)
    rw [div_eq_iff hp.ne'] at hm
    norm_num at h2
    nlinarith
  obtain ⟨E, hE⟩ : ∃ E : Nat, k = E + 127 := ⟨k - 127, by omega⟩
  have hkE : (k : Int) - 127 = (E : Int) := by omega
  rw [hkE] at he vd hm hp
  rw [zpow_natCast] at vd hm hp
  have hE2 : E ≤ 127 := by omega
  -- the exact mantissa
  have fw := h.1
  have hdv := div_val fw fd (by rw [vd]; exact hp.ne') (by
    rw [vd, hm, abs_of_nonneg (by linarith)]; exact lt_trans hM2 (show (2 : ℚ) < ovf by unfold ovf; norm_num))
  rw [vd, hm, RN_of_rep hrep] at hdv
  obtain ⟨fm, vm⟩ := hdv
  obtain ⟨fp, ep⟩ := lnPoly_err fm (by rw [vm]; linarith) (by rw [vm]; linarith)
  -- the exponent as a float
  have hb : (BitVec.ofInt 32 w.extractExponentValue).toNat = E := by
    rw [he, BitVec.ofInt_natCast, BitVec.toNat_ofNat]; omega
  obtain ⟨fe, ve⟩ := ofInt_isVal (n := (E : Int)) (by simp; omega)
  have hEq : (E : ℚ) ≤ 127 := by exact_mod_cast hE2
  have hE0 : (0 : ℚ) ≤ E := by positivity
  push_cast at ve
  obtain ⟨d1, hd1, f1, v1⟩ := mul_err fe fin_LN_2 7 (by norm_num) (by norm_num) (by
    rw [ve, val_LN_2, abs_of_nonneg (by positivity)]; norm_num; linarith)
  rw [ve, val_LN_2] at v1
  norm_num at hd1
  -- bounds of the polynomial
  rw [vm] at ep
  have hm1 : (1 : ℝ) ≤ (M : ℝ) := by
    exact_mod_cast hM1
  have hm2 : (M : ℝ) ≤ 2 := by
    exact_mod_cast hM2.le
  have hr := lnC_err hm1 hm2
  rw [← lnPolyQ_cast] at hr
  have ep' := abs_cast_le ep
  have hP : |((lnPoly (w / fromBits (w.toBits &&& EXPONENT_MASK))).val : ℝ) - Real.log (M : ℝ)| ≤ 0.0000634 := by
    push_cast at ep' hr ⊢
    have := abs_sub_le ((lnPoly (w / fromBits (w.toBits &&& EXPONENT_MASK))).val : ℝ)
      (lnPolyQ M : ℝ) (Real.log (M : ℝ))
    refine this.trans ((add_le_add ep' hr).trans (by norm_num))
  have hl0 := Real.log_nonneg hm1
  have hl1 := Real.log_le_sub_one_of_pos (lt_of_lt_of_le one_pos hm1)
  have hP' := hP
  obtain ⟨L, hL⟩ : ∃ L, L = lnPoly (w / fromBits (w.toBits &&& EXPONENT_MASK)) := ⟨_, rfl⟩
  obtain ⟨p1, p2⟩ := abs_le.1 hP
  have q1 : -(1 / 10 : ℚ) ≤ (lnPoly (w / fromBits (w.toBits &&& EXPONENT_MASK))).val := by
    have : ((-(1 / 10) : ℚ) : ℝ) ≤ ((lnPoly (w / fromBits (w.toBits &&& EXPONENT_MASK))).val : ℝ) := by
      push_cast; norm_num at p1 ⊢; linarith
    exact_mod_cast this
  have q2 : (lnPoly (w / fromBits (w.toBits &&& EXPONENT_MASK))).val ≤ (11 / 10 : ℚ) := by
    have : ((lnPoly (w / fromBits (w.toBits &&& EXPONENT_MASK))).val : ℝ) ≤ ((11 / 10 : ℚ) : ℝ) := by
      push_cast; norm_num at p2 hm2 ⊢; linarith
    exact_mod_cast this
  obtain ⟨c1, c2⟩ := abs_le.1 hd1
  obtain ⟨d2, hd2, f2, v2⟩ := add_err f1 fp 7 (by norm_num) (by norm_num) (by
    rw [v1, abs_le]; norm_num at q1 q2 ⊢; constructor <;> linarith)
  norm_num at hd2
  have hc : lnCore w = ofInt (E : Int) * LN_2 + lnPoly (w / fromBits (w.toBits &&& EXPONENT_MASK)) := by
    unfold lnCore; rw [hb]
  rw [hc]
  refine ⟨f2, ?_⟩
  rw [lnBits, hkm, hfm, ← hM, hE, v2, v1]
  have e : (E : ℚ) * (1453635 / 2097152) + d1 + (lnPoly (w / fromBits (w.toBits &&& EXPONENT_MASK))).val + d2 -
      ((((E + 127 : Nat) : ℚ) - 127) * (1453635 / 2097152) + lnPolyQ M) =
      ((lnPoly (w / fromBits (w.toBits &&& EXPONENT_MASK))).val - lnPolyQ M) + d1 + d2 := by push_cast; ring
  rw [e]
  refine (abs_add_le _ _).trans ((add_le_add (abs_add_le _ _) le_rfl).trans ?_)
  norm_num at ep hd1 hd2 ⊢
  linarith

omit [Cfg] in
theorem lnBits_mono {m n : Nat} (h : m ≤ n) : 0.49 * (((n : ℚ) - m) / 2 ^ 23) ≤ lnBits n - lnBits m := by
  have key : ∀ k : Nat, (k : ℚ) = ((k / 2 ^ 23 : Nat) : ℚ) * 2 ^ 23 + ((k % 2 ^ 23 : Nat) : ℚ) := by
    intro k
    have : k / 2 ^ 23 * 2 ^ 23 + k % 2 ^ 23 = k := by omega
    exact_mod_cast this.symm
  have fr : ∀ k : Nat, (0 : ℚ) ≤ ((k % 2 ^ 23 : Nat) : ℚ) / 2 ^ 23 ∧ ((k % 2 ^ 23 : Nat) : ℚ) / 2 ^ 23 ≤ 1 := by
    intro k
    have : ((k % 2 ^ 23 : Nat) : ℚ) ≤ 2 ^ 23 := by exact_mod_cast (Nat.mod_lt k (by norm_num)).le
    exact ⟨by positivity, by rw [div_le_one (by positivity)]; exact this⟩
  have hq : m / 2 ^ 23 ≤ n / 2 ^ 23 := Nat.div_le_div_right h
  unfold lnBits
  have e : ((n : ℚ) - m) / 2 ^ 23 = ((n / 2 ^ 23 : Nat) : ℚ) - ((m / 2 ^ 23 : Nat) : ℚ)
      + (((n % 2 ^ 23 : Nat) : ℚ) / 2 ^ 23 - ((m % 2 ^ 23 : Nat) : ℚ) / 2 ^ 23) := by
    rw [key n, key m]
    ring
  obtain ⟨p0, p1⟩ := fr m
  obtain ⟨r0, r1⟩ := fr n
  rw [e]
  rcases eq_or_lt_of_le hq with h' | h'
  · have hf : ((m % 2 ^ 23 : Nat) : ℚ) / 2 ^ 23 ≤ ((n % 2 ^ 23 : Nat) : ℚ) / 2 ^ 23 := by
      have : m % 2 ^ 23 ≤ n % 2 ^ 23 := by omega
      gcongr
    have := lnPolyQ_mono (x := 1 + ((m % 2 ^ 23 : Nat) : ℚ) / 2 ^ 23) (y := 1 + ((n % 2 ^ 23 : Nat) : ℚ) / 2 ^ 23)
      (by linarith) (by linarith) (by linarith)
    rw [h']
    linarith
  · have hd : ((m / 2 ^ 23 : Nat) : ℚ) + 1 ≤ ((n / 2 ^ 23 : Nat) : ℚ) := by exact_mod_cast h'
    have t1 := lnPolyQ_mono (x := 1) (y := 1 + ((n % 2 ^ 23 : Nat) : ℚ) / 2 ^ 23) le_rfl (by linarith) (by linarith)
    have t2 := lnPolyQ_mono (x := 1 + ((m % 2 ^ 23 : Nat) : ℚ) / 2 ^ 23) (y := 2) (by linarith) (by linarith) le_rfl
    have t3 : lnPolyQ 2 - lnPolyQ 1 ≤ 1453635 / 2097152 := by norm_num [lnPolyQ]
    linarith

theorem near_one_strict {x : F32} (hx : x.isFinite = true) (h : (x - ONE).abs.lt EPSILON = true) : |x.val - 1| < 1 / 2 ^ 23 := by
  by_contra hc
  push Not at hc
  have h1 := near_one hx h
  obtain ⟨f1, v1⟩ := sub_val hx fin_ONE (by rw [val_ONE]; exact lt_of_le_of_lt h1 (by norm_num [ovf]))
  rw [val_ONE] at v1
  rw [lt_iff (by rw [isFinite_abs]; exact f1) fin_EPSILON, val_abs, v1, val_EPSILON] at h
  have := abs_RN_ge_of_rep (c := 1 / 2 ^ 23) (q := x.val - 1) (by
    have := rep_pow (e := -23) (by norm_num)
    norm_num at this ⊢; exact this) hc
  norm_num at h this
  linarith

/-- The real function behind `ln`, as a function of the bit pattern. -/
def lnT (m : Nat) : ℚ := if 127 * 2 ^ 23 ≤ m then lnBits m else -lnBits (254 * 2 ^ 23 - m)

omit [Cfg] in
theorem lnBits_one : lnBits (127 * 2 ^ 23) = 8133 / 2 ^ 27 := by
  norm_num [lnBits, lnPolyQ]

omit [Cfg] in
theorem lnT_mono {m n : Nat} (h : m ≤ n) : 0.49 * (((n : ℚ) - m) / 2 ^ 23) ≤ lnT n - lnT m := by
  unfold lnT
  split_ifs with h1 h2 h2
  · exact lnBits_mono h
  · have t1 := lnBits_mono h1
    have t2 := lnBits_mono (m := 127 * 2 ^ 23) (n := 254 * 2 ^ 23 - m) (by omega)
    rw [Nat.cast_sub (by omega)] at t2
    rw [lnBits_one] at t1 t2
    push_cast at t1 t2
    norm_num at t1 t2 ⊢
    linarith
  · omega
  · have t := lnBits_mono (m := 254 * 2 ^ 23 - n) (n := 254 * 2 ^ 23 - m) (by omega)
    rw [Nat.cast_sub (by omega), Nat.cast_sub (by omega)] at t
    push_cast at t
    norm_num at t ⊢
    linarith

/-- `ln` of a positive normal number against its real function: only rounding errors, except for the two numbers next to 1 that are
mapped to zero. -/
theorem ln_bits {x : F32} (h : PosNormal x) : x.ln.isFinite = true ∧
    (|x.ln.val - lnT x.mag| ≤ 91 / 10 ^ 7 ∧ (x.mag < 127 * 2 ^ 23 - 1 ∨ 127 * 2 ^ 23 < x.mag) ∨
      x.ln.val = 0 ∧ 127 * 2 ^ 23 - 1 ≤ x.mag ∧ x.mag ≤ 127 * 2 ^ 23) := by
  obtain ⟨hs, m1, m2⟩ := posNormal_mag h
  have hv := val_of_pos hs
  have v0 : mval (127 * 2 ^ 23) = 1 := by rw [mval_pow (by norm_num)]; norm_num
  have v1 : mval (127 * 2 ^ 23 + 1) = 1 + 1 / 2 ^ 23 := by
    rw [mval, show magU (127 * 2 ^ 23 + 1) = (2 ^ 23 + 1) * 2 ^ 126 by decide +kernel]; norm_num
  have v2 : mval (127 * 2 ^ 23 - 2) = 1 - 1 / 2 ^ 23 := by
    rw [mval, show magU (127 * 2 ^ 23 - 2) = (2 ^ 23 - 1) * 2 ^ 126 by decide +kernel]; norm_num
  by_cases hn : (x - ONE).abs.lt EPSILON = true
  · obtain ⟨n1, n2⟩ := abs_lt.1 (near_one_strict h.1 hn)
    rw [hv] at n1 n2
    have k1 : x.mag < 127 * 2 ^ 23 + 1 := by rw [← mval_lt, v1]; linarith
    have k2 : 127 * 2 ^ 23 - 2 < x.mag := by rw [← mval_lt, v2]; linarith
    rw [ln_eq, if_pos hn]
    exact ⟨fin_ZERO, .inr ⟨val_ZERO, by omega, by omega⟩⟩
  · have hm : x.mag < 127 * 2 ^ 23 - 1 ∨ 127 * 2 ^ 23 < x.mag := by
      by_contra hc
      have hx : ∀ b : F32, x.mag = b.mag → b.sign = false → x = b := fun b h1 h2 => ext_mag_sign h1 (hs.trans h2.symm)
      have : x = ⟨0x3f7fffff#32⟩ ∨ x = ⟨0x3f800000#32⟩ := by
        rcases (show x.mag = 127 * 2 ^ 23 - 1 ∨ x.mag = 127 * 2 ^ 23 by omega) with h | h
        · exact .inl (hx _ (h.trans (by decide)) (by decide))
        · exact .inr (hx _ (h.trans (by decide)) (by decide))
      apply hn
      rcases this with rfl | rfl
      · rw [show (⟨0x3f7fffff#32⟩ : F32) - ONE = ⟨0xb3800000#32⟩ from eval_eq (by kernel_rfl)]; decide
      · rw [show (⟨0x3f800000#32⟩ : F32) - ONE = ⟨0#32⟩ from eval_eq (by kernel_rfl)]; decide
    by_cases hl : x.val < 1
    · have hml : x.mag < 127 * 2 ^ 23 := by rw [← mval_lt, v0, ← hv]; exact hl
      obtain ⟨fi, i1, i2⟩ := C19_inv x h (hl.le.trans (by norm_num))
      have h0 : 0 < x.val := lt_of_lt_of_le (by positivity) h.2
      have hi1 : 1 ≤ x.inv.val := by
        by_contra hc
        push Not at hc
        nlinarith
      have hi := posNormal_of_one_le fi hi1
      have hb : x.bits.toNat = x.mag := by rw [toNat_eq, hs]; simp
      have hbi : x.inv.bits.toNat = x.inv.mag := by rw [toNat_eq, (posNormal_mag hi).1]; simp
      have hmi : x.inv.mag = 254 * 2 ^ 23 - x.mag := by
        rw [← hbi, inv_toNat (by omega), hb]; omega
      obtain ⟨f, e⟩ := lnCore_bits hi hi1
      rw [ln_lt_one h.1 hl hn, isFinite_neg, val_neg]
      refine ⟨f, .inl ⟨?_, hm⟩⟩
      rw [lnT, if_neg (by omega), neg_sub_neg, abs_sub_comm, ← hmi]
      exact e
    · push Not at hl
      have hlt : ¬ x.lt one = true := by rw [lt_iff h.1 fin_one, val_one]; linarith
      have hml : 127 * 2 ^ 23 ≤ x.mag := by rw [← mval_le, v0, ← hv]; exact hl
      obtain ⟨f, e⟩ := lnCore_bits h hl
      rw [ln_eq, if_neg hn, if_neg hlt]
      refine ⟨f, .inl ⟨?_, hm⟩⟩
      rw [lnT, if_pos hml]
      exact e

omit [Cfg] in
theorem lnT_out {m : Nat} : (127 * 2 ^ 23 ≤ m → 6 / 10 ^ 5 ≤ lnT m) ∧ (m < 127 * 2 ^ 23 → lnT m ≤ -(6 / 10 ^ 5)) := by
  constructor
  · intro h
    rw [lnT, if_pos h]
    have := lnBits_mono h
    have p : (0 : ℚ) ≤ ((m : ℚ) - ((127 * 2 ^ 23 : Nat) : ℚ)) / 2 ^ 23 := by
      have : ((127 * 2 ^ 23 : Nat) : ℚ) ≤ m := by exact_mod_cast h
      exact div_nonneg (by linarith) (by norm_num)
    rw [lnBits_one] at this
    norm_num at this p ⊢
    linarith
  · intro h
    rw [lnT, if_neg (by omega)]
    have := lnBits_mono (m := 127 * 2 ^ 23) (n := 254 * 2 ^ 23 - m) (by omega)
    have p : (0 : ℚ) ≤ (((254 * 2 ^ 23 - m : Nat) : ℚ) - ((127 * 2 ^ 23 : Nat) : ℚ)) / 2 ^ 23 := by
      have : ((127 * 2 ^ 23 : Nat) : ℚ) ≤ ((254 * 2 ^ 23 - m : Nat) : ℚ) := by exact_mod_cast (by omega : 127 * 2 ^ 23 ≤ 254 * 2 ^ 23 - m)
      exact div_nonneg (by linarith) (by norm_num)
    rw [lnBits_one] at this
    norm_num at this p ⊢
    linarith

theorem ln_gap {x y : F32} (hx : PosNormal x) (hy : PosNormal y) (h : x.mag ≤ y.mag) :
    x.ln.val = 0 ∧ y.ln.val = 0 ∧ y.mag ≤ x.mag + 1 ∨
      min (0.49 * (((y.mag : ℚ) - x.mag) / 2 ^ 23)) (1 / 10 ^ 4) - 182 / 10 ^ 7 ≤ y.ln.val - x.ln.val ∨
      x.ln.val = 0 ∧ 5 / 10 ^ 5 ≤ y.ln.val ∨ y.ln.val = 0 ∧ x.ln.val ≤ -(5 / 10 ^ 5) := by
  have t := lnT_mono h
  rcases (ln_bits hx).2 with ⟨e1, c1⟩ | ⟨z1, c1, d1⟩ <;> rcases (ln_bits hy).2 with ⟨e2, c2⟩ | ⟨z2, c2, d2⟩
  · right; left
    have := (abs_le.1 e1).2
    have := (abs_le.1 e2).1
    have := min_le_left (0.49 * (((y.mag : ℚ) - x.mag) / 2 ^ 23)) (1 / 10 ^ 4)
    linarith
  · right; right; right
    have := lnT_out.2 (show x.mag < 127 * 2 ^ 23 by omega)
    have := (abs_le.1 e1).2
    exact ⟨z2, by norm_num at *; linarith⟩
  · right; right; left
    have := lnT_out.1 (show 127 * 2 ^ 23 ≤ y.mag by omega)
    have := (abs_le.1 e2).1
    exact ⟨z1, by norm_num at *; linarith⟩
  · exact .inl ⟨z1, z2, by omega⟩

omit [Cfg] in
theorem mag_le_of_val {x y : F32} (hx : PosNormal x) (hy : PosNormal y) (h : x.val ≤ y.val) : x.mag ≤ y.mag := by
  rw [val_of_pos (posNormal_mag hx).1, val_of_pos (posNormal_mag hy).1, mval_le] at h
  exact h

/-- **C128.** On positive normal numbers `ln` is monotone up to `2e-5`, also below one where its error is 0.1179. -/
theorem C128_ln {x y : F32} (hx : PosNormal x) (hy : PosNormal y) (h : x.val ≤ y.val) : x.ln.val ≤ y.ln.val + 2 / 10 ^ 5 := by
  have hm := mag_le_of_val hx hy h
  have hq : (0 : ℚ) ≤ ((y.mag : ℚ) - x.mag) / 2 ^ 23 := by
    have : (x.mag : ℚ) ≤ y.mag := by exact_mod_cast hm
    exact div_nonneg (by linarith) (by norm_num)
  rcases ln_gap hx hy hm with ⟨a, b, -⟩ | a | ⟨a, b⟩ | ⟨a, b⟩
  · rw [a, b]; norm_num
  · have : (0 : ℚ) ≤ min (0.49 * (((y.mag : ℚ) - x.mag) / 2 ^ 23)) (1 / 10 ^ 4) := le_min (by linarith) (by norm_num)
    linarith
  · rw [a]; linarith
  · rw [a]; linarith

/-- **C128, strictly**: numbers that are 320 or more places apart in the sequence of floats have logarithms in strict order. -/
theorem C128_ln_strict {x y : F32} (hx : PosNormal x) (hy : PosNormal y) (h : x.toBits.toNat + 320 ≤ y.toBits.toNat) :
    x.ln.lt y.ln = true := by
  have b1 : x.toBits.toNat = x.mag := by rw [toBits, toNat_eq, (posNormal_mag hx).1]; simp
  have b2 : y.toBits.toNat = y.mag := by rw [toBits, toNat_eq, (posNormal_mag hy).1]; simp
  rw [b1, b2] at h
  rw [lt_iff (ln_bits hx).1 (ln_bits hy).1]
  have hq : (x.mag : ℚ) + 320 ≤ y.mag := by exact_mod_cast h
  rcases ln_gap hx hy (by omega) with ⟨a, b, c⟩ | a | ⟨a, b⟩ | ⟨a, b⟩
  · omega
  · have : (183 / 10 ^ 7 : ℚ) ≤ min (0.49 * (((y.mag : ℚ) - x.mag) / 2 ^ 23)) (1 / 10 ^ 4) := by
      refine le_min ?_ (by norm_num)
      have : (320 : ℚ) / 2 ^ 23 ≤ ((y.mag : ℚ) - x.mag) / 2 ^ 23 := by gcongr; linarith
      norm_num at this ⊢
      linarith
    linarith
  · rw [a]; exact lt_of_lt_of_le (by norm_num) b
  · rw [a]; exact lt_of_le_of_lt b (by norm_num)

/-- `0.7` and `0.71`: positive normal numbers more than 320 places apart. -/
example : PosNormal ⟨0x3f333333#32⟩ ∧ PosNormal ⟨0x3f35c28f#32⟩ ∧
    (⟨0x3f333333#32⟩ : F32).toBits.toNat + 320 ≤ (⟨0x3f35c28f#32⟩ : F32).toBits.toNat :=
  ⟨posNormal_iff.2 (by decide), posNormal_iff.2 (by decide), by decide⟩

/-- **C128, not better**: `ln` is not monotone, even on neighbouring numbers. -/
theorem C128_ln_false : ∃ x y : F32, x.lt y = true ∧ y.ln.lt x.ln = true := by
  have h1 : ln ⟨0x3f80002c#32⟩ = ⟨0x388a4000#32⟩ := by
    have i0 : (⟨0x3f80002c#32⟩ : F32) - ONE = ⟨0x36b00000#32⟩ := eval_eq (by kernel_rfl)
    have i2 : (⟨0x3f80002c#32⟩ : F32) / fromBits (toBits ⟨0x3f80002c#32⟩ &&& EXPONENT_MASK) = ⟨0x3f80002c#32⟩ :=
      eval_eq (by kernel_rfl)
    have i3 : lnPoly ⟨0x3f80002c#32⟩ = ⟨0x388a4000#32⟩ := eval_eq (by kernel_rfl)
    have i4 : (BitVec.ofInt 32 (extractExponentValue ⟨0x3f80002c#32⟩)).toNat = 0 := by decide +kernel
    rw [ln_eq, i0, if_neg (by decide +kernel), if_neg (by decide +kernel)]
    unfold lnCore
    rw [i2, i3, i4]
    exact eval_eq (by kernel_rfl)
  have h2 : ln ⟨0x3f80002d#32⟩ = ⟨0x388a0000#32⟩ := by
    have i0 : (⟨0x3f80002d#32⟩ : F32) - ONE = ⟨0x36b40000#32⟩ := eval_eq (by kernel_rfl)
    have i2 : (⟨0x3f80002d#32⟩ : F32) / fromBits (toBits ⟨0x3f80002d#32⟩ &&& EXPONENT_MASK) = ⟨0x3f80002d#32⟩ :=
      eval_eq (by kernel_rfl)
    have i3 : lnPoly ⟨0x3f80002d#32⟩ = ⟨0x388a0000#32⟩ := eval_eq (by kernel_rfl)
    have i4 : (BitVec.ofInt 32 (extractExponentValue ⟨0x3f80002d#32⟩)).toNat = 0 := by decide +kernel
    rw [ln_eq, i0, if_neg (by decide +kernel), if_neg (by decide +kernel)]
    unfold lnCore
    rw [i2, i3, i4]
    exact eval_eq (by kernel_rfl)
  exact ⟨⟨0x3f80002c#32⟩, ⟨0x3f80002d#32⟩, by decide, by rw [h1, h2]; decide⟩

/-! ### `asin` and `acos` -/

/-- `1 - x*x` falls as `|x|` grows. -/
theorem one_sub_sq_anti {x y : F32} (hx : x.isFinite = true) (hy : y.isFinite = true) (h : |x.val| ≤ |y.val|) (h1 : |y.val| ≤ 1) :
    (ONE - y * y).val ≤ (ONE - x * x).val := by
  obtain ⟨-, -, -, -, -, -, -, e1⟩ := one_sub_sq hx (h.trans h1)
  obtain ⟨-, -, -, -, -, -, -, e2⟩ := one_sub_sq hy h1
  rw [e1, e2]
  refine RN_mono (sub_le_sub_left (RN_mono ?_) _)
  rw [← abs_mul_abs_self x.val, ← abs_mul_abs_self y.val]
  exact mul_le_mul h h (abs_nonneg _) (abs_nonneg _)

omit [Cfg] in
theorem bits_le_of_val {x y : F32} (hx : x.sign = false) (hy : y.sign = false) (h : x.val ≤ y.val) : x.bits.toNat ≤ y.bits.toNat := by
  rw [val_of_pos hx, val_of_pos hy, mval_le] at h
  rw [toNat_eq, toNat_eq, hx, hy]
  simpa using h

omit [Cfg] in
theorem val_le_of_bits {x y : F32} (hx : x.sign = false) (hy : y.sign = false) (h : x.bits.toNat ≤ y.bits.toNat) : x.val ≤ y.val := by
  rw [toNat_eq, toNat_eq, hx, hy] at h
  rw [val_of_pos hx, val_of_pos hy, mval_le]
  simpa using h

/-- The argument `asin` hands to `atan` grows with `x`. -/
theorem asin_arg_mono {x y : F32} (hx : x.isFinite = true) (hy : y.isFinite = true) (bx : |x.val| ≤ 1) (bY : |y.val| ≤ 1)
    (h : x.val ≤ y.val) : ∃ r s : F32, (ONE - x * x).invsqrt = .ok r ∧ (ONE - y * y).invsqrt = .ok s ∧
      (x * r).isFinite = true ∧ (y * s).isFinite = true ∧ |(x * r).val| ≤ atanMax ∧ |(y * s).val| ≤ atanMax ∧ (x * r).val ≤ (y * s).val := by
  obtain ⟨r, hr, fr, r0, r1, fxr, bxr⟩ := asin_arg hx bx
  obtain ⟨s, hs, fs, s0, s1, fys, bys⟩ := asin_arg hy bY
  refine ⟨r, s, hr, hs, fxr, fys, bxr, bys, ?_⟩
  rw [mul_finite_val fxr, mul_finite_val fys]
  apply RN_mono
  have anti : ∀ {u v a b : F32}, u.isFinite = true → v.isFinite = true → |u.val| ≤ |v.val| → |v.val| ≤ 1 →
      (ONE - u * u).invsqrt = .ok a → (ONE - v * v).invsqrt = .ok b → a.val ≤ b.val := by
    intro u v a b fu fv huv hv ha hb
    obtain ⟨-, su, -, -, bu, -⟩ := one_sub_sq fu (huv.trans hv)
    obtain ⟨-, sv, -, -, bv, -⟩ := one_sub_sq fv hv
    obtain ⟨a', ha', ea⟩ := invsqrt_ok (x := ONE - u * u) (by omega)
    obtain ⟨b', hb', eb⟩ := invsqrt_ok (x := ONE - v * v) (by omega)
    rw [ha] at ha'; cases ha'
    rw [hb] at hb'; cases hb'
    have := bits_le_of_val sv su (one_sub_sq_anti fu fv huv hv)
    have ga : a.sign = false := by rw [sign, ea]; simp; omega
    have gb : b.sign = false := by rw [sign, eb]; simp; omega
    exact val_le_of_bits ga gb (by omega)
  rcases le_total 0 x.val with p | p
  · have q : 0 ≤ y.val := p.trans h
    have := anti hx hy (by rw [abs_of_nonneg p, abs_of_nonneg q]; exact h) bY hr hs
    exact mul_le_mul h this r0.le q
  · rcases le_total 0 y.val with q | q
    · nlinarith
    · have := anti hy hx (by rw [abs_of_nonpos p, abs_of_nonpos q]; linarith) bx hs hr
      nlinarith

/-- **C128.** On `[-1, 1]` `asin` is monotone up to `1e-5`, although its error is much larger. -/
theorem C128_asin {x y : F32} (hx : x.isFinite = true) (hy : y.isFinite = true) (bx : |x.val| ≤ 1) (bY : |y.val| ≤ 1)
    (h : x.val ≤ y.val) : ∃ a b, x.asin = .ok a ∧ y.asin = .ok b ∧ a.val ≤ b.val + 1 / 10 ^ 5 := by
  obtain ⟨r, s, hr, hs, f1, f2, b1, b2, hm⟩ := asin_arg_mono hx hy bx bY h
  refine ⟨(x * r).atan, (y * s).atan, ?_, ?_, C128_atan f1 f2 b1 b2 hm⟩
  · unfold F32.asin
    rw [hr, ok_bind]
  · unfold F32.asin
    rw [hs, ok_bind]

/-- The ends of the domain. -/
example : ∃ a b, (-one).asin = .ok a ∧ one.asin = .ok b ∧ a.val ≤ b.val + 1 / 10 ^ 5 :=
  C128_asin (by decide) (by decide) (by rw [val_neg, val_one]; norm_num) (by rw [val_one]; norm_num) (by rw [val_neg, val_one]; norm_num)

/-- The square root in `acos` falls as `|x|` grows. -/
theorem sqrt_one_sub_anti {x y : F32} (hx : x.isFinite = true) (hy : y.isFinite = true) (h : |x.val| ≤ |y.val|) (h1 : |y.val| ≤ 1) :
    (ONE - y * y).sqrt.val ≤ (ONE - x * x).sqrt.val := by
  obtain ⟨fu, su, -, -, bu, -⟩ := one_sub_sq hx (h.trans h1)
  obtain ⟨fv, sv, -, -, bv, -⟩ := one_sub_sq hy h1
  have e1 := sqrt_toNat ((ge_zero_iff _).2 ⟨not_nan_of_finite fu, Or.inl su⟩)
  have e2 := sqrt_toNat ((ge_zero_iff _).2 ⟨not_nan_of_finite fv, Or.inl sv⟩)
  have := bits_le_of_val sv su (one_sub_sq_anti hx hy h h1)
  exact val_le_of_bits (by rw [sign, e2]; simp; omega) (by rw [sign, e1]; simp; omega) (by omega)

/-- `acos` away from zero: its argument of `atan`, and its value on the two sides. -/
theorem acos_form {x : F32} (hx : x.isFinite = true) (h0 : (1 : ℚ) / 2 ^ 60 ≤ |x.val|) (h1 : |x.val| ≤ 1) :
    let u := (ONE - x * x).sqrt / x
    u.isFinite = true ∧ |u.val| ≤ atanMax ∧ u.val = RN ((ONE - x * x).sqrt.val / x.val) ∧
      (0 < x.val → x.acos = u.atan ∧ x.acos.val ≤ FRAC_PI_2.val) ∧
      (x.val < 0 → x.acos.isFinite = true ∧ x.acos.val = RN (u.atan.val + PI.val) ∧ u.atan.val ≤ 0 ∧ FRAC_PI_2.val ≤ x.acos.val) := by
  intro u
  obtain ⟨f, hb, hs⟩ := acos_arg hx h0 h1
  obtain ⟨-, -, -, -, fa, ha, hsg, -⟩ := C38_atan f hb
  obtain ⟨fq, p, l⟩ := sqrt_one_sub hx h1
  have hz : x.val ≠ 0 := fun h => by rw [h, abs_zero] at h0; norm_num at h0
  rw [hs] at hsg
  have hx0 : 0 < |x.val| := abs_pos.2 hz
  have hq : |(ONE - x * x).sqrt.val / x.val| ≤ 2 ^ 60 := by
    rw [abs_div, abs_of_pos p, div_le_iff₀ hx0]
    have : (2 : ℚ) ^ 60 * (1 / 2 ^ 60) ≤ 2 ^ 60 * |x.val| := mul_le_mul_of_nonneg_left h0 (by norm_num)
    norm_num at this ⊢
    linarith
  refine ⟨f, hb, (div_val fq hx hz (lt_of_le_of_lt hq (by norm_num [ovf]))).2, fun hv => ?_, fun hv => ?_⟩
  · have e : x.acos = u.atan := by
      unfold F32.acos
      rw [if_pos ((gt_iff hx fin_posZero).2 (by rw [val_posZero]; exact hv))]
    exact ⟨e, by rw [e]; exact (le_abs_self _).trans ha⟩
  · have hgt : ¬ x.gt posZero = true := fun h => by
      have := (gt_iff hx fin_posZero).1 h
      rw [val_posZero] at this; linarith
    have hfe : ¬ x.feq posZero = true := fun h => by
      have := (feq_iff hx fin_posZero).1 h
      rw [val_posZero] at this; linarith
    have hsx : x.sign = true := by
      by_contra hc
      have := val_of_pos (Bool.eq_false_iff.2 hc)
      have := mval_nonneg x.mag
      linarith
    have e : x.acos = u.atan + PI := by unfold F32.acos; rw [if_neg hgt, if_neg hfe]
    have n : u.atan.val ≤ 0 := by
      rw [val_of_neg (hsg.trans hsx)]; have := mval_nonneg u.atan.mag; linarith
    have l2 : -FRAC_PI_2.val ≤ u.atan.val := (abs_le.1 ha).1
    have hp : PI.val - FRAC_PI_2.val = FRAC_PI_2.val := by rw [val_FRAC_PI_2, val_PI]; norm_num
    have pp : 0 < FRAC_PI_2.val := by rw [val_FRAC_PI_2]; norm_num
    obtain ⟨f3, v3⟩ := add_val fa fin_PI (by
      rw [abs_of_nonneg (by linarith)]; exact lt_of_le_of_lt (show _ ≤ PI.val by linarith) (by rw [val_PI]; norm_num [ovf]))
    rw [e]
    exact ⟨f3, v3, n, by rw [v3]; exact le_RN_of_rep (rep_val _) (by linarith)⟩

/-- **C128.** On `[-1, 1]` (zero, or at least `2^-60` in magnitude) `acos` is antitone up to `1.1e-5`. -/
theorem C128_acos {x y : F32} (hx : x.isFinite = true) (hy : y.isFinite = true) (zx : x.val = 0 ∨ (1 : ℚ) / 2 ^ 60 ≤ |x.val|)
    (zy : y.val = 0 ∨ (1 : ℚ) / 2 ^ 60 ≤ |y.val|) (bx : |x.val| ≤ 1) (bY : |y.val| ≤ 1) (h : x.val ≤ y.val) :
    y.acos.val ≤ x.acos.val + 11 / 10 ^ 6 := by
  have zero : ∀ {z : F32}, z.val = 0 → z.acos.val = FRAC_PI_2.val := fun hz => ((C44_acos _).2.2.2 (val_eq_zero.1 hz)).2
  -- at most a right angle from zero on, at least a right angle up to zero
  have up : ∀ {z : F32}, z.isFinite = true → (z.val = 0 ∨ (1 : ℚ) / 2 ^ 60 ≤ |z.val|) → |z.val| ≤ 1 → 0 ≤ z.val → z.acos.val ≤ FRAC_PI_2.val := by
    intro z fz hz bz pz
    rcases eq_or_lt_of_le pz with h | h
    · exact (zero h.symm).le
    · exact ((acos_form fz (hz.resolve_left h.ne') bz).2.2.2.1 h).2
  have dn : ∀ {z : F32}, z.isFinite = true → (z.val = 0 ∨ (1 : ℚ) / 2 ^ 60 ≤ |z.val|) → |z.val| ≤ 1 → z.val ≤ 0 → FRAC_PI_2.val ≤ z.acos.val := by
    intro z fz hz bz pz
    rcases eq_or_lt_of_le pz with h | h
    · exact (zero h).ge
    · exact ((acos_form fz (hz.resolve_left h.ne) bz).2.2.2.2 h).2.2.2
  have mixed : x.val ≤ 0 → 0 ≤ y.val → y.acos.val ≤ x.acos.val + 11 / 10 ^ 6 := fun p q =>
    ((up hy zy bY q).trans (dn hx zx bx p)).trans (by linarith)
  rcases lt_or_ge 0 x.val with p | p
  · have q : 0 < y.val := lt_of_lt_of_le p h
    obtain ⟨f1, b1, v1, e1, -⟩ := acos_form hx (zx.resolve_left p.ne') bx
    obtain ⟨f2, b2, v2, e2, -⟩ := acos_form hy (zy.resolve_left q.ne') bY
    rw [(e1 p).1, (e2 q).1]
    refine (C128_atan f2 f1 b2 b1 ?_).trans (by norm_num)
    rw [v1, v2]
    apply RN_mono
    have hs := sqrt_one_sub_anti hx hy (by rw [abs_of_pos p, abs_of_pos q]; exact h) bY
    exact div_le_div₀ (sqrt_one_sub hx bx).2.1.le hs p h
  · rcases le_or_gt 0 y.val with q | q
    · exact mixed p q
    · have p' : x.val < 0 := lt_of_le_of_lt h q
      obtain ⟨f1, b1, v1, -, e1⟩ := acos_form hx (zx.resolve_left p'.ne) bx
      obtain ⟨f2, b2, v2, -, e2⟩ := acos_form hy (zy.resolve_left q.ne) bY
      obtain ⟨-, r1, n1, l1⟩ := e1 p'
      obtain ⟨-, r2, n2, l2⟩ := e2 q
      have ha := C128_atan f2 f1 b2 b1 (by
        rw [v1, v2]
        apply RN_mono
        have hs := sqrt_one_sub_anti hy hx (by rw [abs_of_neg p', abs_of_neg q]; linarith) bx
        rw [← neg_div_neg_eq (ONE - x * x).sqrt.val, ← neg_div_neg_eq (ONE - y * y).sqrt.val, neg_div, neg_div, neg_le_neg_iff]
        exact div_le_div₀ (sqrt_one_sub hy bY).2.1.le hs (by linarith) (by linarith))
      have er : ∀ {q : ℚ}, |q| ≤ 4 → |RN q - q| ≤ 4 / 2 ^ 24 := by
        intro q hq
        refine (RN_err _).trans (max_le (by norm_num) ?_)
        gcongr
      have hP : (3 : ℚ) ≤ PI.val ∧ PI.val ≤ 3.2 := by rw [val_PI]; constructor <;> norm_num
      have lo : ∀ {u : F32}, u.isFinite = true → |u.val| ≤ atanMax → -1.6 ≤ u.atan.val := by
        intro u fu bu
        have := (abs_le.1 (C38_atan fu bu).2.2.2.2.2.1).1
        rw [val_FRAC_PI_2] at this
        norm_num at this ⊢
        linarith
      have k1 := (abs_le.1 (er (q := ((ONE - x * x).sqrt / x).atan.val + PI.val) (by
        rw [abs_le]; have := lo f1 b1; constructor <;> linarith [hP.1, hP.2]))).1
      have k2 := (abs_le.1 (er (q := ((ONE - y * y).sqrt / y).atan.val + PI.val) (by
        rw [abs_le]; have := lo f2 b2; constructor <;> linarith [hP.1, hP.2]))).2
      rw [r1, r2]
      norm_num at k1 k2 ha ⊢
      linarith

/-- `0.5` and `1.0`. -/
example : one.acos.val ≤ (lit 5 10).acos.val + 11 / 10 ^ 6 := by
  have hv : (lit 5 10).val = 1 / 2 := (val_of_units (u := 2 ^ 148) (by kernel_rfl)).trans (by norm_num)
  exact C128_acos (by decide +kernel) fin_one (.inr (by rw [hv]; norm_num)) (.inr (by rw [val_one]; norm_num)) (by rw [hv]; norm_num)
    (by rw [val_one]; norm_num) (by rw [hv, val_one]; norm_num)

end Micromath.Props
