import Verif.Props.TruncFract
import Verif.Float.Nearest
import Mathlib.Data.Rat.Floor

/-!
# C12-C13: `rem_euclid`, `div_euclid`
-/

namespace Micromath.Props
open F32 Spec

/-- The least non-negative remainder of `a` modulo `m ≠ 0`, over the rationals. -/
def leastRem (a m : ℚ) : ℚ := a - |m| * ⌊a / |m|⌋

theorem abs_units (x : F32) : |x.val| = ((x.units.natAbs : Nat) : ℚ) / 2 ^ 149 := by
  rw [val, abs_div, abs_of_pos two149_pos, Nat.cast_natAbs]; push_cast; rfl

theorem leastRem_units (x m : F32) (h0 : m.val ≠ 0) :
    leastRem x.val m.val = ((x.units % m.units : Int) : ℚ) / 2 ^ 149 := by
  have hm : m.units ≠ 0 := by intro h; apply h0; rw [val, h]; simp
  have hm' : (0 : ℚ) < (m.units.natAbs : Nat) := by
    have : 0 < m.units.natAbs := Int.natAbs_pos.2 hm
    exact_mod_cast this
  rw [leastRem, abs_units, val, div_div_div_cancel_right₀ two149_pos.ne', Rat.floor_intCast_div_natCast,
    ← Int.emod_abs, Int.emod_def, Int.natCast_natAbs]
  push_cast
  rw [Nat.cast_natAbs]
  push_cast
  ring

theorem emod_of_tmod (a m : Int) (hm : m ≠ 0) :
    a % m = if 0 ≤ a.tmod m then a.tmod m else a.tmod m + |m| := by
  have h1 := Int.mul_tdiv_add_tmod a m
  have hp : 0 < |m| := abs_pos.2 hm
  have h2 : a % m = a.tmod m % m := by
    conv_lhs => rw [← h1]
    rw [add_comm, Int.add_mul_emod_self_left]
  have h3 : (a.tmod m).natAbs < m.natAbs := by
    rw [Int.natAbs_tmod]; exact Nat.mod_lt _ (Int.natAbs_pos.2 hm)
  have h3 : |a.tmod m| < |m| := by rw [Int.abs_eq_natAbs, Int.abs_eq_natAbs]; exact_mod_cast h3
  rw [abs_lt] at h3
  rw [h2, ← Int.emod_abs]
  split
  · rename_i h; exact Int.emod_eq_of_lt h h3.2
  · rename_i h
    have : a.tmod m % |m| = (a.tmod m + |m|) % |m| := (Int.add_emod_right _ _).symm
    rw [this]; exact Int.emod_eq_of_lt (by linarith) (by linarith)

theorem remEuclid_isVal [Cfg] {x m : F32} (hx : x.isFinite) (hm : m.isFinite) (h0 : m.val ≠ 0) :
    IsVal (x.remEuclid m) (RN (leastRem x.val m.val)) ∧
    (0 ≤ x.units.tmod m.units → (x.remEuclid m).val = leastRem x.val m.val) := by
  obtain ⟨h1, h2, h3⟩ := rem_val hx hm h0
  have hmu : m.units ≠ 0 := by intro h; apply h0; rw [val, h]; simp
  have hL := leastRem_units x m h0
  rw [emod_of_tmod _ _ hmu, ← h3] at hL
  unfold F32.remEuclid
  dsimp only
  have hge : (x % m).ge ZERO = true ↔ 0 ≤ (x % m).units := by
    rw [ge_iff h1 fin_ZERO, val_ZERO, val, le_div_iff₀ two149_pos]
    rw [zero_mul]; exact_mod_cast Iff.rfl
  by_cases hc : 0 ≤ (x % m).units
  · rw [if_pos (hge.2 hc)]
    rw [if_pos hc] at hL
    have : (x % m).val = leastRem x.val m.val := by rw [hL, val]
    exact ⟨⟨h1, by rw [← this, RN_val]⟩, fun _ => this⟩
  · rw [if_neg (by rw [hge]; exact hc)]
    rw [if_neg hc] at hL
    have hsum : (x % m).val + m.abs.val = leastRem x.val m.val := by
      rw [hL, val_abs, abs_units, val]; push_cast; rw [Nat.cast_natAbs]; push_cast; ring
    have h4 : 0 ≤ leastRem x.val m.val ∧ leastRem x.val m.val ≤ |m.val| := by
      have hp : 0 < |m.val| := abs_pos.2 h0
      have e1 := Int.floor_le (x.val / |m.val|)
      have e2 := Int.lt_floor_add_one (x.val / |m.val|)
      rw [le_div_iff₀ hp] at e1
      rw [div_lt_iff₀ hp] at e2
      unfold leastRem
      constructor <;> linarith
    obtain ⟨h5, h6⟩ := add_val (x := x % m) (y := m.abs) h1 (by simpa using hm) (by
      rw [hsum, abs_of_nonneg h4.1]; exact h4.2.trans_lt (abs_val_lt_ovf hm))
    rw [hsum] at h6
    exact ⟨⟨h5, h6⟩, fun h => absurd (h3 ▸ h) hc⟩

/-- **C12.** For finite operands and non-zero modulus, `rem_euclid` is the correctly rounded exact least
non-negative remainder, lies in `[0, |m|]`, and is exact when `x ≥ 0` or that remainder is representable. -/
theorem C12_rem_euclid [Cfg] (x m : F32) (hx : x.isFinite = true) (hm : m.isFinite = true) (h0 : m.val ≠ 0) :
    IsVal (x.remEuclid m) (RN (leastRem x.val m.val)) ∧
    0 ≤ (x.remEuclid m).val ∧ (x.remEuclid m).val ≤ |m.val| ∧
    (0 ≤ x.val ∨ Rep (leastRem x.val m.val) → (x.remEuclid m).val = leastRem x.val m.val) := by
  obtain ⟨h1, h2⟩ := remEuclid_isVal hx hm h0
  have hp : 0 < |m.val| := abs_pos.2 h0
  have e1 := Int.floor_le (x.val / |m.val|)
  have e2 := Int.lt_floor_add_one (x.val / |m.val|)
  rw [le_div_iff₀ hp] at e1
  rw [div_lt_iff₀ hp] at e2
  have h4 : 0 ≤ leastRem x.val m.val ∧ leastRem x.val m.val ≤ |m.val| := by
    unfold leastRem; constructor <;> linarith
  refine ⟨h1, ?_, ?_, ?_⟩
  · rw [h1.2]; exact RN_nonneg h4.1
  · rw [h1.2]; exact RN_le_of_rep (rep_val m).abs h4.2
  · rintro (h | h)
    · refine h2 (Int.tmod_nonneg _ ?_)
      rw [val, le_div_iff₀ two149_pos, zero_mul] at h
      exact_mod_cast h
    · rw [h1.2, RN_of_rep h]

/-- The characterisation of the exact remainder: congruent and in `[0, |m|)`. -/
theorem C12_leastRem_spec (a m : ℚ) (h0 : m ≠ 0) :
    0 ≤ leastRem a m ∧ leastRem a m < |m| ∧ ∃ k : Int, a = m * k + leastRem a m := by
  have hp : 0 < |m| := abs_pos.2 h0
  have e1 := Int.floor_le (a / |m|)
  have e2 := Int.lt_floor_add_one (a / |m|)
  rw [le_div_iff₀ hp] at e1
  rw [div_lt_iff₀ hp] at e2
  unfold leastRem
  refine ⟨by linarith, by linarith, ?_⟩
  rcases abs_choice m with h | h
  · exact ⟨⌊a / |m|⌋, by rw [h]; ring⟩
  · exact ⟨-⌊a / |m|⌋, by rw [h]; push_cast; ring⟩

/-- **C12.** NaN for a zero modulus, an infinite dividend and NaN operands. -/
theorem C12_rem_euclid_nan [Cfg] (x m : F32)
    (h : m.val = 0 ∧ m.isFinite = true ∨ x.isInf = true ∨ x.isNaN = true ∨ m.isNaN = true) :
    (x.remEuclid m).isNaN = true := by
  have hn : (x % m).isNaN = true := by
    rw [rem_def, F32.rem]
    split
    · exact Cfg.nanOp_isNaN _ _ _
    · rename_i hc
      split
      · exact Cfg.nanOp_isNaN _ _ _
      · rename_i hd
        exfalso
        simp only [Bool.or_eq_true, not_or] at hc hd
        rcases h with h | h | h | h
        · exact hd.2 (isZero_iff.2 h.1)
        · exact hd.1 h
        · exact hc.1 h
        · exact hc.2 h
  unfold F32.remEuclid
  dsimp only
  rw [if_neg]
  · exact add_nan (Or.inl hn)
  · rw [F32.ge, le_nan_right hn]; simp

/-- `rem_euclid(-7.0, 4.0) = 1.0`; with a tiny negative dividend the rounded result reaches `|m|`. -/
example [Cfg] : F32.remEuclid ⟨0xc0e00000#32⟩ ⟨0x40800000#32⟩ = one ∧
    F32.remEuclid ⟨0xb0800000#32⟩ ⟨0x40800000#32⟩ = ⟨0x40800000#32⟩ :=
  ⟨eval_eq (by kernel_rfl), eval_eq (by kernel_rfl)⟩
example : (⟨0x40800000#32⟩ : F32).val ≠ 0 := by
  rw [Ne, val_eq_zero]; decide

/-! ### C13 -/

/-- Rounding a quotient of integers below `2^24` cannot reach the next integer. -/
theorem floor_RN_div {p q : Nat} (hp : p < 2 ^ 24) (hq : q < 2 ^ 24) (h0 : 0 < q) :
    ⌊RN ((p : ℚ) / q)⌋ = (p / q : Nat) := by
  have hq0 : (0 : ℚ) < q := by exact_mod_cast h0
  have hw : (0 : ℚ) ≤ (p : ℚ) / q := by positivity
  obtain ⟨n, hn⟩ : ∃ n, n = p / q := ⟨_, rfl⟩
  have hnp : n * q ≤ p := hn ▸ Nat.div_mul_le_self p q
  have hnp2 : p + 1 ≤ (n + 1) * q := by
    have := Nat.lt_div_mul_add h0 (a := p); rw [← hn] at this
    rw [add_mul, one_mul]; omega
  have hn24 : n ≤ p := hn ▸ Nat.div_le_self p q
  rw [← hn, Int.floor_eq_iff]
  have hlow : (n : ℚ) ≤ (p : ℚ) / q := by
    rw [le_div_iff₀ hq0]; exact_mod_cast hnp
  have hup : (p : ℚ) / q ≤ n + 1 - 1 / q := by
    rw [div_le_iff₀ hq0, sub_mul, one_div_mul_cancel hq0.ne']
    have : ((p + 1 : Nat) : ℚ) ≤ (((n + 1) * q : Nat) : ℚ) := by exact_mod_cast hnp2
    push_cast at this; linarith
  refine ⟨?_, ?_⟩
  · have := rep_int (m := n) (by simp; omega)
    exact_mod_cast le_RN_of_rep this (by exact_mod_cast hlow)
  rcases Nat.eq_zero_or_pos n with hz | hz
  · subst n
    have hq24 : (1 : ℚ) / 2 ^ 24 ≤ 1 / q := by
      apply one_div_le_one_div_of_le hq0
      exact_mod_cast hq.le
    have hr : Rep (1 - 1 / 2 ^ 24 : ℚ) := by
      have := rep_zpow (m := 2 ^ 24 - 1) (by norm_num) (e := -24) (by norm_num)
      norm_num at this ⊢; exact this
    rw [hz] at hup ⊢
    push_cast at hup ⊢
    have := RN_le_of_rep hr (q := (p : ℚ) / q) (by linarith)
    have : (0 : ℚ) < 1 / 2 ^ 24 := by norm_num
    linarith
  · obtain ⟨k, hk⟩ : ∃ k, k = n.log2 := ⟨_, rfl⟩
    have hk1 : 2 ^ k ≤ n := hk ▸ Nat.log2_self_le (by omega)
    have hk2 : n < 2 ^ (k + 1) := hk ▸ Nat.lt_log2_self
    have hk24 : k < 24 := (Nat.pow_lt_pow_iff_right (by norm_num)).1 (hk1.trans_lt (by omega) : 2 ^ k < 2 ^ 24)
    obtain ⟨i, hi⟩ : ∃ i, i + k = 23 := ⟨23 - k, by omega⟩
    -- `c` is the float just below `n + 1`
    set g : ℚ := 2 ^ ((k : Int) - 23) with hg
    have hgi : g * 2 ^ i = 1 := by
      rw [hg, ← zpow_natCast, ← zpow_add₀ (by norm_num), show (k : Int) - 23 + i = 0 by omega]; norm_num
    have hgk : g * 2 ^ 24 = 2 * 2 ^ k := by
      have : (2 : ℚ) ^ 24 = 2 ^ i * (2 * 2 ^ k) := by
        rw [← pow_succ', ← pow_add]; congr 1; omega
      rw [this, ← mul_assoc, hgi, one_mul]
    have hg0 : 0 < g := by positivity
    have hc : Rep ((n : ℚ) + 1 - g) := by
      have := rep_zpow (m := (n + 1) * 2 ^ i - 1) (by
        have h1 : (n + 1) * 2 ^ i ≤ 2 ^ (k + 1) * 2 ^ i := Nat.mul_le_mul_right _ hk2
        rw [← pow_add, show k + 1 + i = 24 by omega] at h1
        have h2 : 1 ≤ (n + 1) * 2 ^ i := Nat.mul_pos (by omega) (Nat.two_pow_pos i)
        have h3 : ((n : Int) + 1) * 2 ^ i = (((n + 1) * 2 ^ i : Nat) : Int) := by push_cast; ring
        rw [h3]; omega) (e := (k : Int) - 23) (by omega)
      rw [← hg] at this
      have e : ((((n : Int) + 1) * 2 ^ i - 1 : Int) : ℚ) * g = n + 1 - g := by
        push_cast
        have : ((n : ℚ) + 1) * 2 ^ i * g = n + 1 := by rw [mul_assoc, mul_comm (2 ^ i) g, hgi, mul_one]
        linarith
      rwa [e] at this
    have hqg : g / 2 < 1 / q := by
      rw [lt_div_iff₀ hq0]
      have h1 : 2 ^ k * q ≤ n * q := Nat.mul_le_mul_right _ hk1
      have h2 : ((2 ^ k * q : Nat) : ℚ) < ((2 ^ 24 : Nat) : ℚ) := by
        exact_mod_cast lt_of_le_of_lt (h1.trans hnp) hp
      push_cast at h2
      have h3 : g * 2 ^ 24 * q < 2 * 2 ^ 24 := by
        rw [hgk]; norm_num at h2 ⊢; linarith
      have : g * q < 2 := by
        by_contra hcon
        push Not at hcon
        have : 2 * (2 : ℚ) ^ 24 ≤ g * q * 2 ^ 24 := by
          apply mul_le_mul_of_nonneg_right hcon (by norm_num)
        linarith
      linarith
    by_contra hcon
    push Not at hcon
    push_cast at hcon
    rcases le_or_gt ((p : ℚ) / q) (n + 1 - g) with h | h
    · have := RN_le_of_rep hc h; linarith
    · have := RN_nearest (q := (p : ℚ) / q) hc
      rw [abs_of_nonneg (by linarith), abs_of_nonpos (by linarith)] at this
      linarith

theorem truncQ_RN_div {a b : Int} (ha : |a| < 2 ^ 24) (hb : |b| < 2 ^ 24) (h0 : b ≠ 0) :
    truncQ (RN ((a : ℚ) / b)) = a.tdiv b := by
  have main : ∀ p q : Nat, p < 2 ^ 24 → q < 2 ^ 24 → 0 < q →
      truncQ (RN ((p : ℚ) / q)) = ((p / q : Nat) : Int) := by
    intro p q hp hq h
    rw [truncQ, if_pos (RN_nonneg (by positivity)), floor_RN_div hp hq h]
  have hp : a.natAbs < 2 ^ 24 := by rw [Int.abs_eq_natAbs] at ha; exact_mod_cast ha
  have hq : b.natAbs < 2 ^ 24 := by rw [Int.abs_eq_natAbs] at hb; exact_mod_cast hb
  have hq0 : 0 < b.natAbs := Int.natAbs_pos.2 h0
  have hm := main _ _ hp hq hq0
  obtain ⟨p, hpe⟩ : ∃ p, p = a.natAbs := ⟨_, rfl⟩
  obtain ⟨q, hqe⟩ : ∃ q, q = b.natAbs := ⟨_, rfl⟩
  rw [← hpe, ← hqe] at hm
  have hnat : ((p / q : Nat) : Int) = (p : Int).tdiv q := Int.ofNat_tdiv p q
  rw [hnat] at hm
  rcases Int.natAbs_eq a with h1 | h1 <;> rcases Int.natAbs_eq b with h2 | h2 <;>
    rw [h1, h2, ← hpe, ← hqe] <;> push_cast
  · exact hm
  · rw [div_neg, RN_neg, truncQ_neg, hm, Int.tdiv_neg]
  · rw [neg_div, RN_neg, truncQ_neg, hm, Int.neg_tdiv]
  · rw [neg_div_neg_eq, hm, Int.neg_tdiv_neg]

theorem units_of_int {x : F32} {a : Int} (h : x.val = a) : x.units = a * 2 ^ 149 := by
  rw [val, div_eq_iff two149_pos.ne'] at h
  exact_mod_cast h

/-- **C13.** On integer-valued operands below `2^24`, `div_euclid` and `rem_euclid` are exactly the Euclidean
quotient and remainder. -/
theorem C13_div_rem_euclid [Cfg] (x y : F32) (a b : Int) (hx : IsVal x a) (hy : IsVal y b)
    (ha : |a| < 2 ^ 24) (hb : |b| < 2 ^ 24) (h0 : b ≠ 0) :
    ∃ q r : Int, IsVal (x.divEuclid y) q ∧ IsVal (x.remEuclid y) r ∧ a = b * q + r ∧ 0 ≤ r ∧ r < |b| := by
  have hbq : (b : ℚ) ≠ 0 := by exact_mod_cast h0
  have hy0 : y.val ≠ 0 := by rw [hy.2]; exact hbq
  have ha' : (|a| : ℚ) < 2 ^ 24 := by exact_mod_cast ha
  have hb' : (|b| : ℚ) < 2 ^ 24 := by exact_mod_cast hb
  -- the quotient
  have hb1 : (1 : ℚ) ≤ |b| := by
    have : (1 : Int) ≤ |b| := Int.one_le_abs h0
    exact_mod_cast this
  have hquo : |(a : ℚ) / b| ≤ 2 ^ 24 := by
    rw [abs_div]
    refine (div_le_self (abs_nonneg _) (by simpa using hb1)).trans ?_
    simpa using ha'.le
  obtain ⟨d1, d2⟩ := div_val (x := x) (y := y) hx.1 hy.1 hy0 (by
    rw [hx.2, hy.2]; exact lt_of_le_of_lt hquo (by norm_num [ovf]))
  rw [hx.2, hy.2] at d2
  have hRN : |RN ((a : ℚ) / b)| ≤ 2 ^ 24 :=
    abs_RN_le_of_rep (by exact_mod_cast rep_pow (e := 24) (by norm_num)) hquo
  obtain ⟨⟨t1, t2⟩, _⟩ := C04_trunc (x / y) (by rw [d2]; exact lt_of_le_of_lt hRN (by norm_num))
  have t2 : (x / y).trunc.val = a.tdiv b := by
    rw [t2, d2]; exact_mod_cast truncQ_RN_div ha hb h0
  -- the truncated remainder
  obtain ⟨r1, r2, r3⟩ := rem_val hx.1 hy.1 hy0
  have r4 : (x % y).val = a.tmod b := by
    rw [val, r3, units_of_int hx.2, units_of_int hy.2, mul_comm a, mul_comm b,
      Int.mul_tmod_mul_of_pos _ _ (by positivity)]
    push_cast
    norm_num
  have hdm := Int.mul_tdiv_add_tmod a b
  have hmodlt : |a.tmod b| < |b| := by
    have h3 : (a.tmod b).natAbs < b.natAbs := by
      rw [Int.natAbs_tmod]; exact Nat.mod_lt _ (Int.natAbs_pos.2 h0)
    rw [Int.abs_eq_natAbs, Int.abs_eq_natAbs]; exact_mod_cast h3
  have hdivlt : |a.tdiv b| < 2 ^ 24 := by
    have : (a.tdiv b).natAbs ≤ a.natAbs := by rw [Int.natAbs_tdiv]; exact Nat.div_le_self _ _
    rw [Int.abs_eq_natAbs] at ha ⊢
    exact lt_of_le_of_lt (by exact_mod_cast this) ha
  have hge : (x % y).ge ZERO = true ↔ 0 ≤ a.tmod b := by
    rw [ge_iff r1 fin_ZERO, val_ZERO, r4]; exact_mod_cast Iff.rfl
  have hgt : y.gt ZERO = true ↔ 0 < b := by
    rw [gt_iff hy.1 fin_ZERO, val_ZERO, hy.2]; exact_mod_cast Iff.rfl
  rw [abs_lt] at hmodlt hdivlt
  unfold F32.divEuclid F32.remEuclid
  dsimp only
  by_cases hc : 0 ≤ a.tmod b
  · rw [if_pos (hge.2 hc), if_pos (hge.2 hc)]
    exact ⟨a.tdiv b, a.tmod b, ⟨t1, t2⟩, ⟨r1, r4⟩, hdm.symm, hc, hmodlt.2⟩
  · rw [if_neg (fun h => hc (hge.1 h)), if_neg (fun h => hc (hge.1 h))]
    have hr : IsVal (x % y + y.abs) ((a.tmod b + |b| : Int) : ℚ) := by
      have hs : (x % y).val + y.abs.val = ((a.tmod b + |b| : Int) : ℚ) := by
        rw [r4, val_abs, hy.2]; push_cast; ring
      have hrep : Rep ((a.tmod b + |b| : Int) : ℚ) := rep_int (by omega)
      obtain ⟨e1, e2⟩ := add_val (x := x % y) (y := y.abs) r1 (by simpa using hy.1) (by
        rw [hs]
        have : |a.tmod b + (|b|)| ≤ 2 ^ 24 := by rw [abs_le]; omega
        have : |((a.tmod b + |b| : Int) : ℚ)| ≤ 2 ^ 24 := by exact_mod_cast this
        exact lt_of_le_of_lt this (by norm_num [ovf]))
      exact ⟨e1, by rw [e2, hs, RN_of_rep hrep]⟩
    have hq : ∀ (s : Int), s = 1 ∨ s = -1 → Rep ((a.tdiv b + s : Int) : ℚ) ∧ |((a.tdiv b + s : Int) : ℚ)| < ovf := by
      intro s hs
      have h1 : |a.tdiv b + s| ≤ 2 ^ 24 := by rw [abs_le]; omega
      refine ⟨rep_int (by omega), ?_⟩
      have : |((a.tdiv b + s : Int) : ℚ)| ≤ 2 ^ 24 := by exact_mod_cast h1
      exact lt_of_le_of_lt this (by norm_num [ovf])
    by_cases hpos : 0 < b
    · rw [if_pos (hgt.2 hpos)]
      have e := hq (-1) (Or.inr rfl)
      have es : (x / y).trunc.val - ONE.val = ((a.tdiv b + -1 : Int) : ℚ) := by
        rw [t2, val_ONE]; push_cast; ring
      obtain ⟨f1, f2⟩ := sub_val t1 fin_ONE (by rw [es]; exact e.2)
      refine ⟨a.tdiv b + -1, a.tmod b + |b|, ⟨f1, by rw [f2, es, RN_of_rep e.1]⟩, hr, ?_, by linarith, by omega⟩
      rw [abs_of_pos hpos]; linarith
    · rw [if_neg (fun h => hpos (hgt.1 h))]
      have e := hq 1 (Or.inl rfl)
      have es : (x / y).trunc.val + ONE.val = ((a.tdiv b + 1 : Int) : ℚ) := by
        rw [t2, val_ONE]; push_cast; ring
      obtain ⟨f1, f2⟩ := add_val t1 fin_ONE (by rw [es]; exact e.2)
      refine ⟨a.tdiv b + 1, a.tmod b + |b|, ⟨f1, by rw [f2, es, RN_of_rep e.1]⟩, hr, ?_, by linarith, by omega⟩
      rw [abs_of_nonpos (by omega)]; linarith

/-- `-7 = 4 * (-2) + 1`, `-7 = -4 * 2 + 1`. -/
example [Cfg] : F32.divEuclid ⟨0xc0e00000#32⟩ ⟨0x40800000#32⟩ = ⟨0xc0000000#32⟩ ∧
    F32.divEuclid ⟨0xc0e00000#32⟩ ⟨0xc0800000#32⟩ = ⟨0x40000000#32⟩ :=
  ⟨eval_eq (by kernel_rfl), eval_eq (by kernel_rfl)⟩
example : IsVal ⟨0xc0e00000#32⟩ ((-7 : Int) : ℚ) :=
  ⟨by decide, by rw [val_of_units (u := -7 * 2 ^ 149) (by decide +kernel)]; norm_num⟩

end Micromath.Props
