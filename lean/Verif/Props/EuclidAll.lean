import Verif.Props.Euclid
import Verif.Float.Err
import Verif.Float.Struct

/-!
# C109: `div_euclid` on every pair of arguments; where it disagrees with `rem_euclid`
-/

set_option exponentiation.threshold 1000

namespace Micromath.Props
open F32 Spec

variable [Cfg]

/-- `E` is the Euclidean quotient of `a` by `b`: `0 <= a - b E < |b|`. -/
def IsEuclidQuot (a b : ℚ) (E : Int) : Prop := 0 ≤ a - b * E ∧ a - b * E < |b|

omit [Cfg] in
theorem intPart_neg (q : ℚ) : intPart (-q) = -intPart q := by
  unfold intPart
  rcases lt_trichotomy q 0 with h | h | h
  · rw [if_pos (by linarith), if_neg (by linarith), Int.floor_neg]
  · subst h; simp
  · rw [if_neg (by linarith), if_pos h.le, Int.ceil_neg]

omit [Cfg] in
/-- Rounding moves the integer part by at most one. -/
theorem intPart_RN {q : ℚ} (h : |q| ≤ 2 ^ 24) : |intPart (RN q) - intPart q| ≤ 1 := by
  have key : ∀ q : ℚ, 0 ≤ q → q ≤ 2 ^ 24 → |intPart (RN q) - intPart q| ≤ 1 := by
    intro q h0 h1
    have r0 := RN_nonneg h0
    unfold intPart
    rw [if_pos h0, if_pos r0]
    have e1 := Int.floor_le q
    have e2 := Int.lt_floor_add_one q
    have f0 : 0 ≤ ⌊q⌋ := Int.floor_nonneg.2 h0
    have f1 : ⌊q⌋ ≤ 2 ^ 24 := by
      have : (⌊q⌋ : ℚ) ≤ 2 ^ 24 := e1.trans h1
      exact_mod_cast this
    have l1 : ⌊q⌋ ≤ ⌊RN q⌋ := Int.le_floor.2 (le_RN_of_rep (rep_int (by omega)) e1)
    have l2 : ⌊RN q⌋ ≤ ⌊q⌋ + 1 := by
      by_cases hc : ⌊q⌋ < 2 ^ 24
      · have : RN q ≤ ((⌊q⌋ + 1 : Int) : ℚ) := RN_le_of_rep (rep_int (by omega)) (by push_cast; exact e2.le)
        have := Int.floor_le_floor this
        rwa [Int.floor_intCast] at this
      · have : RN q ≤ ((2 ^ 24 : Int) : ℚ) := RN_le_of_rep (rep_int (by norm_num)) (by push_cast; exact h1)
        have := Int.floor_le_floor this
        rw [Int.floor_intCast] at this
        omega
    rw [abs_le]; omega
  rcases le_total 0 q with h0 | h0
  · exact key q h0 (by rwa [abs_of_nonneg h0] at h)
  · have := key (-q) (by linarith) (by rwa [abs_of_nonpos h0] at h)
    rw [RN_neg, intPart_neg, intPart_neg] at this
    rw [abs_le] at this ⊢; omega

/-- **C109.** For finite `x`, finite non-zero `y` and `|x/y| < 2^24 - 2`, `div_euclid(x, y)` is the Euclidean quotient `E` plus the
change of the integer part of `x/y` under rounding, which is `-1`, `0` or `1`. -/
theorem C109_div_euclid (x y : F32) (hx : x.isFinite = true) (hy : y.isFinite = true) (h0 : y.val ≠ 0)
    (hq : |x.val / y.val| < 2 ^ 24 - 2) :
    ∃ E : Int, IsEuclidQuot x.val y.val E ∧
      IsVal (x.divEuclid y) ((E + (intPart (RN (x.val / y.val)) - intPart (x.val / y.val)) : Int) : ℚ) ∧
      |intPart (RN (x.val / y.val)) - intPart (x.val / y.val)| ≤ 1 := by
  obtain ⟨q, hqe⟩ : ∃ q, q = x.val / y.val := ⟨_, rfl⟩
  rw [← hqe] at hq ⊢
  have hδ := intPart_RN (q := q) (hq.le.trans (by norm_num))
  have hxq : x.val = q * y.val := by rw [hqe]; field_simp
  obtain ⟨d1, d2⟩ := div_val hx hy h0 (by rw [← hqe]; exact hq.trans (by norm_num [ovf]))
  rw [← hqe] at d2
  have hRN : |RN q| ≤ 2 ^ 24 :=
    abs_RN_le_of_rep (by exact_mod_cast rep_pow (e := 24) (by norm_num)) (hq.le.trans (by norm_num))
  obtain ⟨⟨t1, t2⟩, _⟩ := C04_trunc (x / y) (by rw [d2]; exact lt_of_le_of_lt hRN (by norm_num))
  rw [d2] at t2
  obtain ⟨r1, r2, r3⟩ := rem_val hx hy h0
  have hyu : y.units ≠ 0 := by intro h; apply h0; rw [val, h]; simp
  have hqu : q = (x.units : ℚ) / y.units := by rw [hqe, val, val, div_div_div_cancel_right₀ two149_pos.ne']
  have hip : intPart q = x.units.tdiv y.units := by
    rw [hqu]
    have key : ∀ a b : Nat, intPart ((a : ℚ) / b) = (a / b : Nat) := by
      intro a b
      unfold intPart
      rw [if_pos (by positivity)]
      have := Rat.floor_intCast_div_natCast (a : Int) b
      rw [Int.cast_natCast] at this
      rw [this, Int.natCast_div]
    obtain ⟨a, ha⟩ := Int.eq_nat_or_neg x.units
    obtain ⟨b, hb⟩ := Int.eq_nat_or_neg y.units
    rcases ha with ha | ha <;> rcases hb with hb | hb <;> rw [ha, hb] <;> push_cast
    · rw [key, Int.ofNat_tdiv]
    · rw [div_neg, intPart_neg, key, Int.tdiv_neg, Int.ofNat_tdiv]
    · rw [neg_div, intPart_neg, key, Int.neg_tdiv, Int.ofNat_tdiv]
    · rw [neg_div_neg_eq, key, Int.neg_tdiv_neg, Int.ofNat_tdiv]
  have hdm := Int.mul_tdiv_add_tmod x.units y.units
  rw [← hip] at hdm
  have hdmq : x.val = y.val * intPart q + ((x.units.tmod y.units : Int) : ℚ) / 2 ^ 149 := by
    rw [val, val]
    nth_rw 1 [← hdm]
    push_cast; ring
  have hmod : |x.units.tmod y.units| < |y.units| := by
    have h3 : (x.units.tmod y.units).natAbs < y.units.natAbs := by
      rw [Int.natAbs_tmod]; exact Nat.mod_lt _ (Int.natAbs_pos.2 hyu)
    rw [Int.abs_eq_natAbs, Int.abs_eq_natAbs]; exact_mod_cast h3
  have hrv : (x % y).val = ((x.units.tmod y.units : Int) : ℚ) / 2 ^ 149 := by rw [val, r3]
  obtain ⟨r, hr⟩ : ∃ r : ℚ, r = ((x.units.tmod y.units : Int) : ℚ) / 2 ^ 149 := ⟨_, rfl⟩
  have hrlt : |r| < |y.val| := by
    rw [hr, val, abs_div, abs_div]
    refine div_lt_div_of_pos_right ?_ (by norm_num)
    exact_mod_cast hmod
  rw [← hr] at hrv hdmq
  obtain ⟨k, hk⟩ : ∃ k : Int, k = intPart (RN q) := ⟨_, rfl⟩
  rw [← hk] at t2 ⊢ hδ
  have hkb : |k| ≤ 2 ^ 24 - 1 := by
    have : |(intPart q : ℚ)| ≤ |q| := by
      unfold intPart
      split
      · rename_i h
        rw [abs_of_nonneg (by exact_mod_cast Int.floor_nonneg.2 h), abs_of_nonneg h]; exact Int.floor_le q
      · rename_i h
        rw [not_le] at h
        have : ⌈q⌉ ≤ 0 := Int.ceil_le.2 (by simpa using h.le)
        rw [abs_of_nonpos (by exact_mod_cast this), abs_of_neg h]; linarith [Int.le_ceil q]
    have : |(intPart q : ℚ)| < 2 ^ 24 - 2 := lt_of_le_of_lt this hq
    have : |intPart q| < 2 ^ 24 - 2 := by exact_mod_cast this
    rw [abs_le] at hδ ⊢
    rw [abs_lt] at this
    omega
  rw [abs_le] at hkb
  have hge : (x % y).ge ZERO = true ↔ 0 ≤ r := by rw [ge_iff r1 fin_ZERO, val_ZERO, hrv]
  have hgt : y.gt ZERO = true ↔ 0 < y.val := by rw [gt_iff hy fin_ZERO, val_ZERO]
  unfold F32.divEuclid
  dsimp only
  have h2 := abs_lt.1 hrlt
  by_cases hc : 0 ≤ r
  · rw [if_pos (hge.2 hc)]
    refine ⟨intPart q, ⟨by rw [hdmq]; linarith, ?_⟩, ⟨t1, ?_⟩, hδ⟩
    · rw [abs_of_nonneg hc] at hrlt; linarith
    · rw [t2]; congr 1; ring
  · rw [if_neg (fun h => hc (hge.1 h))]
    rw [not_le] at hc
    by_cases hyp : 0 < y.val
    · rw [if_pos (hgt.2 hyp)]
      rw [abs_of_pos hyp] at h2
      refine ⟨intPart q - 1, ⟨?_, ?_⟩, ?_, hδ⟩
      · push_cast; linarith
      · rw [abs_of_pos hyp]; push_cast; linarith
      · have e : (x / y).trunc.val - ONE.val = ((k - 1 : Int) : ℚ) := by rw [t2, val_ONE]; push_cast; ring
        have hb : |((k - 1 : Int) : ℚ)| ≤ 2 ^ 24 := by
          have : |k - 1| ≤ 2 ^ 24 := by rw [abs_le]; omega
          exact_mod_cast this
        have := sub_exact (x := (x / y).trunc) (y := ONE) t1 fin_ONE (by rw [e]; exact hb.trans (by norm_num [maxF]))
          (by rw [e]; exact rep_int (by omega))
        rw [e] at this
        rwa [show intPart q - 1 + (k - intPart q) = k - 1 by ring]
    · rw [if_neg (fun h => hyp (hgt.1 h))]
      have hyn : y.val < 0 := lt_of_le_of_ne (not_lt.1 hyp) h0
      rw [abs_of_neg hyn] at h2
      refine ⟨intPart q + 1, ⟨?_, ?_⟩, ?_, hδ⟩
      · push_cast; linarith
      · rw [abs_of_neg hyn]; push_cast; linarith
      · have e : (x / y).trunc.val + ONE.val = ((k + 1 : Int) : ℚ) := by rw [t2, val_ONE]; push_cast; ring
        have hb : |((k + 1 : Int) : ℚ)| ≤ 2 ^ 24 := by
          have : |k + 1| ≤ 2 ^ 24 := by rw [abs_le]; omega
          exact_mod_cast this
        have := add_exact (x := (x / y).trunc) (y := ONE) t1 fin_ONE (by rw [e]; exact hb.trans (by norm_num [maxF]))
          (by rw [e]; exact rep_int (by omega))
        rw [e] at this
        rwa [show intPart q + 1 + (k - intPart q) = k + 1 by ring]

/-- `-7 / 4`: the quotient is far from an integer, so the correction is zero and the result is `-2`. -/
example : ∃ E : Int, IsEuclidQuot (-7) 4 E ∧ E = -2 ∧ F32.divEuclid ⟨0xc0e00000#32⟩ ⟨0x40800000#32⟩ = ⟨0xc0000000#32⟩ :=
  ⟨-2, ⟨by norm_num, by norm_num⟩, rfl, eval_eq (by kernel_rfl)⟩

/-- **C109, the documented match with `rem_euclid` fails on fractions**: `div_euclid(5.0, 0.1)` is `50`, while the quotient
belonging to `rem_euclid(5.0, 0.1) = 0.09999993` is `49`. -/
theorem C109_div_euclid_false :
    ∃ x y : F32, x.isFinite = true ∧ y.isFinite = true ∧ x.val = 5 ∧ y.val = 13421773 / 2 ^ 27 ∧
      IsVal (x.divEuclid y) 50 ∧ IsEuclidQuot x.val y.val 49 ∧ IsVal (x.remEuclid y) (x.val - y.val * 49) := by
  have hx : (⟨0x40a00000#32⟩ : F32).val = 5 := by
    rw [val_of_units (u := 5 * 2 ^ 149) (by decide +kernel)]; norm_num
  have hy : (⟨0x3dcccccd#32⟩ : F32).val = 13421773 / 2 ^ 27 := by
    rw [val_of_units (u := 13421773 * 2 ^ 122) (by decide +kernel)]; norm_num
  refine ⟨⟨0x40a00000#32⟩, ⟨0x3dcccccd#32⟩, by decide, by decide, hx, hy, ?_, ?_, ?_⟩
  · have e : F32.divEuclid ⟨0x40a00000#32⟩ ⟨0x3dcccccd#32⟩ = ⟨0x42480000#32⟩ := eval_eq (by kernel_rfl)
    rw [e]
    refine ⟨by decide, ?_⟩
    rw [val_of_units (u := 50 * 2 ^ 149) (by decide +kernel)]; norm_num
  · rw [hx, hy]
    constructor
    · norm_num
    · rw [abs_of_pos (by norm_num)]; norm_num
  · have e : F32.remEuclid ⟨0x40a00000#32⟩ ⟨0x3dcccccd#32⟩ = ⟨0x3dccccc3#32⟩ := eval_eq (by kernel_rfl)
    rw [e, hx, hy]
    refine ⟨by decide, ?_⟩
    rw [val_of_units (u := 13421763 * 2 ^ 122) (by decide +kernel)]; norm_num

theorem inf_pm_one {q : F32} (h : q = posInf ∨ q = negInf) : q - ONE = q ∧ q + ONE = q := by
  rcases h with rfl | rfl
  · exact ⟨eval_eq (by kernel_rfl), eval_eq (by kernel_rfl)⟩
  · exact ⟨eval_eq (by kernel_rfl), eval_eq (by kernel_rfl)⟩

theorem rem_isNaN (x m : F32) (h : m.isZero = true ∨ x.isInf = true ∨ x.isNaN = true ∨ m.isNaN = true) : (x % m).isNaN = true := by
  rw [rem_def, F32.rem]
  split
  · exact Cfg.nanOp_isNaN _ _ _
  · rename_i hc
    split
    · exact Cfg.nanOp_isNaN _ _ _
    · rename_i hd
      exfalso
      simp only [Bool.or_eq_true, not_or] at hc hd
      rcases h with h | h | h | h
      · exact hd.2 h
      · exact hd.1 h
      · exact hc.1 h
      · exact hc.2 h

/-- **C109, outside the domain**: if `x` is infinite or NaN, or `y` is zero or NaN, the result is an infinity and never NaN
(violated contract: the standard library returns NaN if either operand is NaN, for `0/0` and for `inf/inf`). If the
quotient `x/y` is not NaN the result is that quotient. -/
theorem C109_div_euclid_special (x y : F32) (h : y.isZero = true ∨ x.isInf = true ∨ x.isNaN = true ∨ y.isNaN = true) :
    (x.divEuclid y = posInf ∨ x.divEuclid y = negInf) ∧ ((x / y).isNaN = false → x.divEuclid y = x / y) := by
  have hr := rem_isNaN x y h
  have hge : (x % y).ge ZERO = false := by rw [F32.ge]; exact le_nan_right hr _
  have hq : ((x / y).trunc = posInf ∨ (x / y).trunc = negInf) ∧ ((x / y).isNaN = false → (x / y).trunc = x / y) := by
    by_cases hn : (x / y).isNaN = true
    · refine ⟨?_, fun h => by rw [hn] at h; simp at h⟩
      rw [(C05_trunc_nan_false _ hn).2]
      cases (x / y).isSignNegative
      · exact Or.inl rfl
      · exact Or.inr rfl
    · have hi : (x / y).isInf = true := by
        rw [Bool.not_eq_true] at hn
        have nx : x.isNaN = false := by
          by_contra hc; rw [div_nan (Or.inl (by simpa using hc))] at hn; simp at hn
        have ny : y.isNaN = false := by
          by_contra hc; rw [div_nan (Or.inr (by simpa using hc))] at hn; simp at hn
        have hp : (pack (x.sign != y.sign) infMag).isInf = true := by
          generalize (x.sign != y.sign) = b; revert b; decide
        rw [div_def] at hn ⊢
        simp only [div, nx, ny] at hn ⊢
        have hnn : ∀ o, (Cfg.nanOp o x y).isNaN = true := fun o => Cfg.nanOp_isNaN _ _ _
        rcases h with h | h | h | h
        · have iy : y.isInf = false := by
            simp only [isZero, isInf, decide_eq_true_eq, decide_eq_false_iff_not] at h ⊢
            rw [h]; decide
          cases hxi : x.isInf <;> cases hxz : x.isZero <;> simp_all
        · cases hyi : y.isInf <;> simp_all
        · rw [h] at nx; simp at nx
        · rw [h] at ny; simp at ny
      have ht := (C05_trunc_large (x / y)).2 hi
      rw [ht]
      refine ⟨?_, fun _ => rfl⟩
      rw [eq_pack_of_inf hi]
      cases (x / y).sign
      · exact Or.inl rfl
      · exact Or.inr rfl
  obtain ⟨e1, e2⟩ := inf_pm_one hq.1
  have e : x.divEuclid y = (x / y).trunc := by
    unfold F32.divEuclid
    dsimp only
    rw [hge]
    simp only [Bool.false_eq_true, if_false]
    split
    · exact e1
    · exact e2
  rw [e]
  exact hq

/-- `div_euclid(0.0, 0.0)` meets the hypothesis. -/
example : posZero.isZero = true ∧ (posZero / posZero).isNaN = true :=
  ⟨by decide, by rw [div_def]; exact Cfg.nanOp_isNaN _ _ _⟩

/-- **C109, quotients from `2^32` on are damaged** (violated contract): `div_euclid(1.25 * 2^33, 1.0)` is `2^33`. -/
theorem C109_div_euclid_large_false :
    F32.divEuclid ⟨0x50200000#32⟩ ONE = ⟨0x50000000#32⟩ ∧ (⟨0x50200000#32⟩ : F32).val = 5 * 2 ^ 31 ∧
      (⟨0x50000000#32⟩ : F32).val = 2 ^ 33 := by
  refine ⟨eval_eq (by kernel_rfl), ?_, ?_⟩
  · rw [val_of_units (u := 5 * 2 ^ 180) (by decide +kernel)]; norm_num
  · rw [val_of_units (u := 2 ^ 182) (by decide +kernel)]; norm_num

end Micromath.Props
