import Verif.Spec.Basic
import Verif.Float.Nearest

/-!
# C08-C11: `floor`, `ceil`, `round`
-/

namespace Micromath.Props
open F32 Spec

theorem ovf_gt : (2 : ℚ) ^ 32 < ovf := by norm_num [ovf]

theorem truncQ_bounds (q : ℚ) : q - 1 < truncQ q ∧ (truncQ q : ℚ) < q + 1 := by
  unfold truncQ
  split
  · constructor <;> linarith [Int.floor_le q, Int.lt_floor_add_one q]
  · constructor <;> linarith [Int.le_ceil q, Int.ceil_lt_add_one q]

theorem toI32_eq {x : F32} (hx : x.isFinite) (h1 : -2 ^ 31 ≤ x.val) (h2 : x.val < 2 ^ 31) :
    x.toI32 = truncQ x.val := by
  have ha : -2 ^ 31 ≤ truncQ x.val := by
    unfold truncQ
    split
    · rename_i h
      have := Int.floor_nonneg.2 h
      omega
    · have : (-2 ^ 31 : ℚ) ≤ ⌈x.val⌉ := h1.trans (Int.le_ceil _)
      exact_mod_cast this
  have hb : truncQ x.val < 2 ^ 31 := by
    unfold truncQ
    split
    · have : (⌊x.val⌋ : ℚ) < 2 ^ 31 := (Int.floor_le _).trans_lt h2
      exact_mod_cast this
    · rename_i h
      have : ⌈x.val⌉ ≤ 0 := Int.ceil_le.2 (by push_cast; linarith)
      omega
  rw [toI32_finite hx]
  omega

/-- `x as i32 as f32` is exact when it does not saturate. -/
theorem ofInt_toI32 {x : F32} (hx : x.isFinite) (h1 : -2 ^ 31 ≤ x.val) (h2 : x.val < 2 ^ 31) :
    IsVal (ofInt x.toI32) (truncQ x.val) := by
  rw [toI32_eq hx h1 h2]
  have h3 : |((truncQ x.val : Int) : ℚ)| < ovf := by
    refine (abs_truncQ_le _).trans_lt (lt_trans ?_ ovf_gt)
    rw [abs_lt]; constructor <;> linarith
  obtain ⟨h4, h5⟩ := ofInt_val h3
  exact ⟨h4, by rw [h5, RN_of_rep (rep_truncQ_val x)]⟩

theorem floor_isVal [Cfg] {x : F32} (hx : x.isFinite) (h1 : -2 ^ 31 ≤ x.val) (h2 : x.val < 2 ^ 31) :
    IsVal x.floor ⌊x.val⌋ := by
  obtain ⟨h3, h4⟩ := ofInt_toI32 hx h1 h2
  unfold F32.floor
  dsimp only
  by_cases hlt : x.lt (ofInt x.toI32) = true
  · rw [if_pos hlt]
    rw [lt_iff hx h3, h4] at hlt
    have hneg : x.val < 0 := by
      by_contra hc
      rw [not_lt] at hc
      rw [truncQ, if_pos hc] at hlt
      linarith [Int.floor_le x.val]
    have htr : truncQ x.val = ⌈x.val⌉ := by rw [truncQ, if_neg (not_le.2 hneg)]
    have hfl : (⌊x.val⌋ : ℚ) = truncQ x.val - 1 := by
      rw [htr] at hlt ⊢
      have : ⌊x.val⌋ = ⌈x.val⌉ - 1 := by
        rw [Int.floor_eq_iff]; push_cast
        constructor <;> linarith [Int.ceil_lt_add_one x.val]
      rw [this]; push_cast; ring
    have hsmall : |x.val| < 2 ^ 23 := by
      by_contra hc
      obtain ⟨z, hz⟩ := val_int_of_large (not_lt.1 hc)
      rw [hz, truncQ_int] at hlt
      exact lt_irrefl _ hlt
    have hrep : Rep (truncQ x.val - 1 : ℚ) := by
      have := rep_int (m := truncQ x.val - 1) (by
        have h6 := (abs_truncQ_le x.val).trans_lt hsmall
        have h7 : |truncQ x.val| < 2 ^ 23 := by exact_mod_cast h6
        rw [abs_lt] at h7
        omega)
      push_cast at this; exact this
    have hb : |(ofInt x.toI32).val - one.val| < ovf := by
      rw [h4, val_one]
      refine lt_trans ?_ ovf_gt
      have := abs_truncQ_le x.val
      have h8 : |(truncQ x.val : ℚ) - 1| ≤ |(truncQ x.val : ℚ)| + 1 := by
        simpa using abs_sub (truncQ x.val : ℚ) 1
      have : (2 : ℚ) ^ 23 + 1 < 2 ^ 32 := by norm_num
      linarith
    obtain ⟨h6, h7⟩ := sub_val h3 fin_one hb
    refine ⟨h6, ?_⟩
    rw [h7, h4, val_one, RN_of_rep hrep, hfl]
  · rw [if_neg hlt]
    refine ⟨h3, ?_⟩
    rw [h4]
    rw [lt_iff hx h3, h4, not_lt] at hlt
    unfold truncQ at hlt ⊢
    split
    · rfl
    · rename_i h
      rw [if_neg h] at hlt
      have h5 : (⌈x.val⌉ : ℚ) = x.val := le_antisymm hlt (Int.le_ceil _)
      rw [← h5]; simp

/-- **C08.** On `[-2^31, 2^31)`, `floor x` is exactly the greatest integer not above `x`. -/
theorem C08_floor [Cfg] (x : F32) (hx : x.isFinite = true) (h1 : -2 ^ 31 ≤ x.val) (h2 : x.val < 2 ^ 31) :
    ∃ n : Int, IsVal x.floor n ∧ (n : ℚ) ≤ x.val ∧ ∀ m : Int, (m : ℚ) ≤ x.val → m ≤ n :=
  ⟨⌊x.val⌋, floor_isVal hx h1 h2, Int.floor_le _, fun _ h => Int.le_floor.2 h⟩

/-- `floor(-1.5) = -2`. -/
example [Cfg] : F32.floor ⟨0xbfc00000#32⟩ = ⟨0xc0000000#32⟩ := eval_eq (by kernel_rfl)
example : -2 ^ 31 ≤ (⟨0xbfc00000#32⟩ : F32).val ∧ (⟨0xbfc00000#32⟩ : F32).val < 2 ^ 31 := by
  rw [val_of_units (u := -3 * 2 ^ 148) (by decide +kernel)]; norm_num

/-- **C09.** On `(-2^31, 2^31]`, `ceil x` is exactly the least integer not below `x`, and
`ceil x = -floor (-x)` bit for bit for every input. -/
theorem C09_ceil [Cfg] (x : F32) :
    x.ceil = -((-x).floor) ∧
    (x.isFinite = true → -2 ^ 31 < x.val → x.val ≤ 2 ^ 31 →
      ∃ n : Int, IsVal x.ceil n ∧ x.val ≤ n ∧ ∀ m : Int, x.val ≤ m → n ≤ m) := by
  refine ⟨rfl, fun hx h1 h2 => ⟨⌈x.val⌉, ?_, Int.le_ceil _, fun _ h => Int.ceil_le.2 h⟩⟩
  obtain ⟨h3, h4⟩ := floor_isVal (x := -x) (by simpa using hx) (by rw [val_neg]; linarith)
    (by rw [val_neg]; linarith)
  refine ⟨by simpa [F32.ceil] using h3, ?_⟩
  rw [F32.ceil, val_neg, h4, val_neg, Int.floor_neg]
  push_cast; ring

/-- `ceil(-1.5) = -1`, `ceil(0.0) = -0.0`. -/
example [Cfg] : F32.ceil ⟨0xbfc00000#32⟩ = ⟨0xbf800000#32⟩ ∧ F32.ceil posZero = negZero :=
  ⟨eval_eq (by kernel_rfl), eval_eq (by kernel_rfl)⟩

/-! ### C10: outside the `i32` range -/

theorem toI32_sat_hi {x : F32} (hx : x.isFinite) (h : 2 ^ 31 ≤ x.val) : x.toI32 = 2 ^ 31 - 1 := by
  rw [toI32_finite hx]
  have : (2 : Int) ^ 31 ≤ truncQ x.val := by
    rw [truncQ, if_pos (by linarith)]
    exact Int.le_floor.2 (by push_cast; exact h)
  omega

theorem toI32_sat_lo {x : F32} (hx : x.isFinite) (h : x.val ≤ -2 ^ 31) : x.toI32 = -2 ^ 31 := by
  rw [toI32_finite hx]
  have : truncQ x.val ≤ -2 ^ 31 := by
    rw [truncQ, if_neg (by intro h0; linarith)]
    exact Int.ceil_le.2 (by push_cast; exact h)
  omega

theorem ofInt_hi : ofInt (2 ^ 31 - 1) = ⟨0x4f000000#32⟩ := eval_eq (by kernel_rfl)
theorem ofInt_lo : ofInt (-2 ^ 31) = ⟨0xcf000000#32⟩ := eval_eq (by kernel_rfl)
theorem val_4f : IsVal ⟨0x4f000000#32⟩ (2 ^ 31) :=
  ⟨by decide, by rw [val_of_units (u := 2 ^ 31 * 2 ^ 149) (by decide +kernel)]; norm_num⟩
theorem val_cf : IsVal ⟨0xcf000000#32⟩ (-2 ^ 31) :=
  ⟨by decide, by rw [val_of_units (u := -2 ^ 31 * 2 ^ 149) (by decide +kernel)]; norm_num⟩

theorem floor_sat [Cfg] (x : F32) (hx : x.isFinite = true) :
    (2 ^ 31 ≤ x.val → x.floor = ⟨0x4f000000#32⟩) ∧ (x.val ≤ -2 ^ 31 → x.floor = ⟨0xcf000000#32⟩) := by
  constructor
  · intro h
    unfold F32.floor
    dsimp only
    rw [toI32_sat_hi hx h, ofInt_hi, if_neg]
    rw [lt_iff hx val_4f.1, val_4f.2]; linarith
  · intro h
    unfold F32.floor
    dsimp only
    rw [toI32_sat_lo hx h, ofInt_lo]
    split
    · exact eval_eq (by kernel_rfl)
    · rfl

/-- **C10, the claim is false**: `floor`, `ceil` and `round` of `3 * 2^30` (an integer) are `2^31`. -/
theorem C10_saturation_false [Cfg] :
    ¬ (∀ x : F32, x.isFinite = true → 2 ^ 31 ≤ |x.val| → x.floor = x) ∧
    ¬ (∀ x : F32, x.isFinite = true → 2 ^ 31 ≤ |x.val| → x.ceil = x) ∧
    ¬ (∀ x : F32, x.isFinite = true → 2 ^ 31 ≤ |x.val| → x.round = x) := by
  have hv : 2 ^ 31 ≤ |(⟨0x4f400000#32⟩ : F32).val| := by
    rw [val_of_units (u := 3 * 2 ^ 179) (by decide +kernel)]; norm_num
  have hne : (⟨0x4f000000#32⟩ : F32) ≠ ⟨0x4f400000#32⟩ := by decide
  refine ⟨fun h => hne ?_, fun h => hne ?_, fun h => hne ?_⟩
  · rw [← h ⟨0x4f400000#32⟩ (by decide) hv]; exact (eval_eq (by kernel_rfl)).symm
  · rw [← h ⟨0x4f400000#32⟩ (by decide) hv]; exact (eval_eq (by kernel_rfl)).symm
  · rw [← h ⟨0x4f400000#32⟩ (by decide) hv]; exact (eval_eq (by kernel_rfl)).symm

/-- **C10, exact behaviour outside the `i32` range**: all three saturate at `±2^31` (so the claim holds
exactly at `x = ±2^31`), infinities included; NaN gives zero. -/
theorem C10_saturation [Cfg] (x : F32) :
    (x.isFinite = true → 2 ^ 31 ≤ x.val →
      x.floor = ⟨0x4f000000#32⟩ ∧ x.ceil = ⟨0x4f000000#32⟩ ∧ x.round = ⟨0x4f000000#32⟩) ∧
    (x.isFinite = true → x.val ≤ -2 ^ 31 →
      x.floor = ⟨0xcf000000#32⟩ ∧ x.ceil = ⟨0xcf000000#32⟩ ∧ x.round = ⟨0xcf000000#32⟩) ∧
    (x = posInf → x.floor = ⟨0x4f000000#32⟩ ∧ x.ceil = ⟨0x4f000000#32⟩ ∧ x.round = ⟨0x4f000000#32⟩) ∧
    (x = negInf → x.floor = ⟨0xcf000000#32⟩ ∧ x.ceil = ⟨0xcf000000#32⟩ ∧ x.round = ⟨0xcf000000#32⟩) ∧
    (x.isNaN = true → x.floor = posZero ∧ x.ceil = negZero ∧ x.round = posZero) := by
  have ovf40 : (2 : ℚ) ^ 103 < ovf := by norm_num [ovf]
  have neg4f : -(⟨0xcf000000#32⟩ : F32) = ⟨0x4f000000#32⟩ := eval_eq (by kernel_rfl)
  have negcf : -(⟨0x4f000000#32⟩ : F32) = ⟨0xcf000000#32⟩ := eval_eq (by kernel_rfl)
  have hcs : ((lit 1 2).copysign x).isFinite = true ∧ |((lit 1 2).copysign x).val| = 1 / 2 := by
    constructor
    · rw [isFinite_iff, mag_copysign]; exact isFinite_iff.1 fin_lit_1_2
    · rw [abs_val, mag_copysign, ← abs_val, val_lit_1_2, abs_of_pos (by norm_num)]
  have hcs2 : x.sign = false → ((lit 1 2).copysign x).val = 1 / 2 := by
    intro h
    rw [← hcs.2, abs_of_nonneg]
    rw [val_of_pos (by simpa using h)]; exact mval_nonneg _
  have hcs3 : x.sign = true → ((lit 1 2).copysign x).val = -(1 / 2) := by
    intro h
    rw [← hcs.2, abs_of_nonpos, neg_neg]
    rw [val_of_neg (by simpa using h)]; linarith [mval_nonneg ((lit 1 2).copysign x).mag]
  have hmax : maxF + 1 / 2 < ovf := by norm_num [maxF, ovf]
  refine ⟨fun hx h => ⟨(floor_sat x hx).1 h, ?_, ?_⟩, fun hx h => ⟨(floor_sat x hx).2 h, ?_, ?_⟩, ?_, ?_, ?_⟩
  · rw [F32.ceil, (floor_sat (-x) (by simpa using hx)).2 (by rw [val_neg]; linarith), neg4f]
  · have hs := val_pos_sign (x := x) (by linarith)
    have hm := abs_val_le_maxF hx
    rw [abs_of_nonneg (by linarith)] at hm
    have ho : |x.val + ((lit 1 2).copysign x).val| < ovf := by
      rw [hcs2 hs, abs_of_nonneg (by linarith)]; linarith
    obtain ⟨h1, h2⟩ := add_val hx hcs.1 ho
    unfold F32.round
    rw [toI32_sat_hi h1, ofInt_hi]
    rw [h2, hcs2 hs]
    exact le_RN_of_rep (by exact_mod_cast rep_pow (e := 31) (by norm_num)) (by linarith)
  · rw [F32.ceil, (floor_sat (-x) (by simpa using hx)).1 (by rw [val_neg]; linarith), negcf]
  · have hs := val_neg_sign (x := x) (by linarith)
    have hm := abs_val_le_maxF hx
    rw [abs_of_nonpos (by linarith)] at hm
    have ho : |x.val + ((lit 1 2).copysign x).val| < ovf := by
      rw [hcs3 hs, abs_of_nonpos (by linarith)]; linarith
    obtain ⟨h1, h2⟩ := add_val hx hcs.1 ho
    unfold F32.round
    rw [toI32_sat_lo h1, ofInt_lo]
    rw [h2, hcs3 hs]
    exact RN_le_of_rep (by have := (rep_pow (e := 31) (by norm_num)).neg; exact_mod_cast this) (by linarith)
  · rintro rfl; exact ⟨eval_eq (by kernel_rfl), eval_eq (by kernel_rfl), eval_eq (by kernel_rfl)⟩
  · rintro rfl; exact ⟨eval_eq (by kernel_rfl), eval_eq (by kernel_rfl), eval_eq (by kernel_rfl)⟩
  · intro hn
    have hf : ∀ y : F32, y.isNaN = true → y.floor = posZero := by
      intro y hy
      unfold F32.floor
      dsimp only
      rw [lt_nan_left hy, if_neg (by simp), toI32, if_pos hy]
      exact eval_eq (by kernel_rfl)
    refine ⟨hf x hn, ?_, ?_⟩
    · rw [F32.ceil, hf (-x) (by simpa using hn)]; exact eval_eq (by kernel_rfl)
    · unfold F32.round
      rw [toI32, if_pos (add_nan (Or.inl hn))]
      exact eval_eq (by kernel_rfl)

/-! ### C11: `round` -/

theorem mval_nat24 {z : Nat} (h1 : 2 ^ 23 ≤ z) (h2 : z ≤ 2 ^ 24) : mval (149 * 2 ^ 23 + z) = z := by
  rw [mval, magU_combine (Or.inr h1) h2]
  push_cast
  norm_num

/-- The float sum `w + 0.5` has the right integer part, except in two situations. -/
theorem floor_RN_half {b : Nat} (hb : b ≠ 0x3effffff)
    (hodd : ¬ ∃ z : Nat, mval b = z ∧ z % 2 = 1 ∧ 2 ^ 23 < z ∧ z < 2 ^ 24) :
    ⌊RN (mval b + 1 / 2)⌋ = ⌊mval b + 1 / 2⌋ := by
  have hw0 := mval_nonneg b
  have hq0 : 0 ≤ mval b + 1 / 2 := by linarith
  rcases le_or_gt ((2 : ℚ) ^ 24) (mval b) with hA | hA
  · -- large: the sum rounds back to `w`
    have e : ∃ z : Nat, mval b = z * 2 := by
      obtain ⟨z, hz⟩ := mval_grid (b := b) (j := 24) (by norm_num) (by exact_mod_cast hA)
      exact ⟨z, by rw [hz]; norm_num⟩
    have e' : ∃ z : Nat, mval (b + 1) = z * 2 := by
      obtain ⟨z, hz⟩ := mval_grid (b := b + 1) (j := 24) (by norm_num)
        (le_trans (by exact_mod_cast hA) (mval_le.2 (Nat.le_succ b)))
      exact ⟨z, by rw [hz]; norm_num⟩
    obtain ⟨z, hz⟩ := e
    obtain ⟨z', hz'⟩ := e'
    have hlt : mval b < mval (b + 1) := mval_lt.2 (Nat.lt_succ_self b)
    have hzz : z + 1 ≤ z' := by
      rw [hz, hz'] at hlt
      have : (z : ℚ) < z' := by linarith
      exact_mod_cast this
    have hzz' : (z : ℚ) + 1 ≤ z' := by exact_mod_cast hzz
    rw [RN_of_nonneg hq0, rbits_of_lt_mid (b := b) (by rw [abs_of_nonneg hq0]; linarith)
      (by rw [abs_of_nonneg hq0, hz', hz]; linarith)]
    rw [hz, show (z : ℚ) * 2 = ((z * 2 : Nat) : ℚ) by push_cast; ring, Int.floor_natCast,
      Int.floor_natCast_add, show ⌊(1 / 2 : ℚ)⌋ = 0 by norm_num [Int.floor_eq_iff]]
    simp
  rcases le_or_gt ((2 : ℚ) ^ 23) (mval b) with hB | hB
  · -- integers with unit spacing: a tie
    obtain ⟨z, hz⟩ := mval_grid (b := b) (j := 23) (by norm_num) (by exact_mod_cast hB)
    have hz : mval b = z := by rw [hz]; norm_num
    have hz1 : 2 ^ 23 ≤ z := by rw [hz] at hB; exact_mod_cast hB
    have hz2 : z < 2 ^ 24 := by rw [hz] at hA; exact_mod_cast hA
    have hbz : b = 149 * 2 ^ 23 + z := mval_inj.1 (by rw [hz, mval_nat24 hz1 hz2.le])
    have heven : z % 2 = 0 := by
      by_contra h
      exact hodd ⟨z, hz, by omega, by omega, hz2⟩
    have hb1 : mval (b + 1) = z + 1 := by
      rw [hbz, add_assoc, mval_nat24 (by omega) (by omega)]; push_cast; ring
    rw [RN_of_nonneg hq0, rbits_tie (b := b) (by rw [abs_of_nonneg hq0, hb1, hz]; ring),
      if_pos (by omega), hz, Int.floor_natCast, Int.floor_natCast_add,
      show ⌊(1 / 2 : ℚ)⌋ = 0 by norm_num [Int.floor_eq_iff]]
    simp
  · rcases lt_or_ge (mval b) (1 / 2) with hC | hC
    · have e1 : mval 0x3f000000 = 1 / 2 := by
        have := mval_pow (k := 126) (by norm_num)
        rw [show (126 * 2 ^ 23 : Nat) = 0x3f000000 by norm_num] at this
        rw [this]; norm_num
      have e2 : mval 0x3efffffe = 1 / 2 - 1 / 2 ^ 24 := by
        rw [mval, show (0x3efffffe : Nat) = 124 * 2 ^ 23 + (2 ^ 24 - 2) by norm_num,
          magU_combine (Or.inr (by norm_num)) (by norm_num)]
        push_cast; norm_num
      have h3 : b < 0x3f000000 := mval_lt.1 (by rw [e1]; exact hC)
      have h4 : mval b ≤ 1 / 2 - 1 / 2 ^ 24 := by rw [← e2]; exact mval_le.2 (by omega)
      have hr : Rep (1 - 1 / 2 ^ 24 : ℚ) := by
        have := rep_zpow (m := 2 ^ 24 - 1) (by norm_num) (e := -24) (by norm_num)
        norm_num at this ⊢; exact this
      have h5 : RN (mval b + 1 / 2) ≤ 1 - 1 / 2 ^ 24 := RN_le_of_rep hr (by linarith)
      have h6 := RN_nonneg hq0
      rw [Int.floor_eq_zero_iff.2 ⟨h6, by norm_num at h5 ⊢; linarith⟩,
        Int.floor_eq_zero_iff.2 ⟨hq0, by linarith⟩]
    · obtain ⟨n, hn⟩ : ∃ n : Nat, ⌊mval b + 1 / 2⌋ = n := ⟨⌊mval b + 1 / 2⌋.toNat, by
        have := Int.floor_nonneg.2 hq0; omega⟩
      have hn1 : (n : ℚ) ≤ mval b + 1 / 2 := by have := Int.floor_le (mval b + 1 / 2); rw [hn] at this; exact_mod_cast this
      have hn2 : mval b + 1 / 2 < n + 1 := by
        have := Int.lt_floor_add_one (mval b + 1 / 2); rw [hn] at this; exact_mod_cast this
      have hn0 : 1 ≤ n := by
        have : (0 : ℚ) < n := by linarith
        exact_mod_cast this
      have hn3 : n ≤ 2 ^ 23 := by
        have : (n : ℚ) < 2 ^ 23 + 1 := by linarith
        have : n < 2 ^ 23 + 1 := by exact_mod_cast this
        omega
      rw [hn, Int.floor_eq_iff]
      have hlow : (n : ℚ) ≤ RN (mval b + 1 / 2) :=
        le_RN_of_rep (by exact_mod_cast rep_int (m := n) (by simp; omega)) hn1
      refine ⟨by exact_mod_cast hlow, ?_⟩
      push_cast
      obtain ⟨j, hj⟩ : ∃ j, j = n.log2 := ⟨_, rfl⟩
      have hj1 : 2 ^ j ≤ n := hj ▸ Nat.log2_self_le (by omega)
      have hj2 : n < 2 ^ (j + 1) := hj ▸ Nat.lt_log2_self
      have hj3 : j ≤ 23 := by
        by_contra hc
        have : 2 ^ 24 ≤ 2 ^ j := Nat.pow_le_pow_right (by norm_num) (by omega)
        omega
      have hj1q : (2 : ℚ) ^ j ≤ n := by exact_mod_cast hj1
      rcases le_or_gt ((2 : ℚ) ^ j) (mval b) with hD | hD
      · have hj22 : j ≤ 22 := by
          by_contra hc
          have : j = 23 := by omega
          subst this; linarith
        obtain ⟨z, hz⟩ := mval_grid (b := b) (j := j) (by omega) (by rw [zpow_natCast]; exact hD)
        obtain ⟨i, hi⟩ : ∃ i, i + j = 22 := ⟨22 - j, by omega⟩
        have hp : (2 : ℚ) ^ ((j : Int) - 23) * 2 ^ i = 1 / 2 := by
          rw [← zpow_natCast, ← zpow_add₀ (by norm_num), show (j : Int) - 23 + i = -1 by omega]; norm_num
        have hpp : (0 : ℚ) < 2 ^ ((j : Int) - 23) := by positivity
        have hsum : mval b + 1 / 2 = ((z + 2 ^ i : Nat) : ℚ) * 2 ^ ((j : Int) - 23) := by
          rw [hz, ← hp]; push_cast; ring
        have hzb : z + 2 ^ i ≤ 2 ^ 24 := by
          have h7 : ((z + 2 ^ i : Nat) : ℚ) * 2 ^ ((j : Int) - 23) < (2 ^ 24 : ℚ) * 2 ^ ((j : Int) - 23) := by
            rw [← hsum]
            refine hn2.trans_le ?_
            have h8 : ((n : ℚ) + 1) ≤ 2 ^ (j + 1) := by exact_mod_cast hj2
            refine h8.trans_eq ?_
            rw [← zpow_natCast, ← zpow_natCast, ← zpow_add₀ (by norm_num)]
            congr 1; push_cast; ring
          have h9 := lt_of_mul_lt_mul_right h7 hpp.le
          have : z + 2 ^ i < 2 ^ 24 := by exact_mod_cast h9
          omega
        have hrep : Rep (mval b + 1 / 2) := by
          rw [hsum]
          have := rep_zpow (m := ((z + 2 ^ i : Nat) : Int)) (by rw [Int.natAbs_natCast]; exact hzb) (e := (j : Int) - 23) (by omega)
          rw [Int.cast_natCast] at this; exact this
        rw [RN_of_rep hrep]; exact hn2
      · rcases Nat.lt_or_ge j 23 with hj23 | hj23
        · have hrep : Rep ((n : ℚ) + 1 / 2) := by
            have := rep_zpow (m := 2 * n + 1) (by
              have : n < 2 ^ 23 := lt_of_lt_of_le hj2 (Nat.pow_le_pow_right (by norm_num) (by omega))
              omega) (e := -1) (by norm_num)
            have e : ((2 * (n : Int) + 1 : Int) : ℚ) * 2 ^ (-1 : Int) = n + 1 / 2 := by
              push_cast; norm_num; ring
            rwa [e] at this
          have := RN_le_of_rep hrep (q := mval b + 1 / 2) (by linarith)
          linarith
        · have hj23 : j = 23 := by omega
          subst hj23
          have hn23 : n = 2 ^ 23 := by omega
          subst hn23
          push_cast at hn1 hn2 hD ⊢
          obtain ⟨z, hz⟩ := mval_grid (b := b) (j := 22) (by norm_num) (by norm_num at hn1 ⊢; linarith)
          have hz : mval b = z / 2 := by rw [hz]; norm_num; ring
          have hzlt : z < 2 ^ 24 := by
            rw [hz] at hD
            have : (z : ℚ) < 2 ^ 24 := by
              rw [div_lt_iff₀ (by norm_num)] at hD; exact lt_of_lt_of_eq hD (by norm_num)
            exact_mod_cast this
          have hzle : (z : ℚ) ≤ 2 ^ 24 - 1 := by
            have : z + 1 ≤ 2 ^ 24 := hzlt
            have : ((z + 1 : Nat) : ℚ) ≤ ((2 ^ 24 : Nat) : ℚ) := by exact_mod_cast this
            push_cast at this; linarith
          have := RN_le_of_rep (c := 2 ^ 23) (by exact_mod_cast rep_pow (e := 23) (by norm_num))
            (q := mval b + 1 / 2) (by
              rw [hz]
              have e : (2 : ℚ) ^ 24 = 2 * 2 ^ 23 := by norm_num
              linarith)
          norm_num at this ⊢; linarith

/-- `round x` is `±⌊RN(|x| + 1/2)⌋` when the cast does not saturate. -/
theorem round_val [Cfg] {x : F32} (hx : x.isFinite) (h : |x.val| < 2 ^ 31) :
    IsVal x.round (if x.sign then -(⌊RN (|x.val| + 1 / 2)⌋ : ℚ) else ⌊RN (|x.val| + 1 / 2)⌋) := by
  have hcf : ((lit 1 2).copysign x).isFinite = true := by
    rw [isFinite_iff, mag_copysign]; exact isFinite_iff.1 fin_lit_1_2
  have hcv : x.val + ((lit 1 2).copysign x).val = if x.sign then -(|x.val| + 1 / 2) else |x.val| + 1 / 2 := by
    have hl : mval (lit 1 2).mag = 1 / 2 := by rw [← abs_val, val_lit_1_2]; norm_num
    rw [val_eq ((lit 1 2).copysign x), sign_copysign, mag_copysign, hl, abs_val, val_eq]
    cases x.sign <;> simp <;> ring
  have habs : |x.val + ((lit 1 2).copysign x).val| = |x.val| + 1 / 2 := by
    rw [hcv]
    have : 0 ≤ |x.val| + 1 / 2 := by positivity
    cases x.sign
    · simp only [Bool.false_eq_true, if_false]; rw [abs_of_nonneg this]
    · simp only [if_true]; rw [abs_neg, abs_of_nonneg this]
  obtain ⟨h1, h2⟩ := add_val hx hcf (by rw [habs]; exact lt_trans (by linarith) ovf_gt)
  have hRN : (x + (lit 1 2).copysign x).val = if x.sign then -RN (|x.val| + 1 / 2) else RN (|x.val| + 1 / 2) := by
    rw [h2, hcv]; cases x.sign
    · simp
    · simp only [if_true]; rw [RN_neg]
  have hR0 : 0 ≤ RN (|x.val| + 1 / 2) := RN_nonneg (by positivity)
  have hR1 : RN (|x.val| + 1 / 2) < 2 ^ 31 := by
    have e2 : mval 0x4effffff = 2 ^ 31 - 128 := by
      rw [mval, show (0x4effffff : Nat) = 156 * 2 ^ 23 + (2 ^ 24 - 1) by norm_num,
        magU_combine (Or.inr (by norm_num)) (by norm_num)]
      push_cast; norm_num
    have h3 : x.mag < 0x4f000000 := by
      have := (lt_pow_iff (x := x) (k := 158) (by norm_num)).1 (by norm_num; norm_num at h; exact h)
      omega
    have h4 : |x.val| ≤ 2 ^ 31 - 128 := by rw [abs_val, ← e2]; exact mval_le.2 (by omega)
    have h5 := RN_err_abs (q := |x.val| + 1 / 2) (e := 31) (by norm_num) (by
      rw [abs_of_nonneg (by positivity)]; norm_num at h4 ⊢; linarith)
    rw [abs_le] at h5
    norm_num at h5 h4 ⊢; linarith [h5.2]
  have hb : -2 ^ 31 ≤ (x + (lit 1 2).copysign x).val ∧ (x + (lit 1 2).copysign x).val < 2 ^ 31 := by
    rw [hRN]; cases x.sign
    · simp only [Bool.false_eq_true, if_false]; constructor <;> linarith
    · simp only [if_true]; constructor <;> linarith
  have := ofInt_toI32 h1 hb.1 hb.2
  unfold F32.round
  refine ⟨this.1, ?_⟩
  rw [this.2, hRN]
  cases x.sign
  · simp only [Bool.false_eq_true, if_false]; rw [truncQ, if_pos hR0]
  · simp only [if_true]; rw [truncQ_neg, truncQ, if_pos hR0]; push_cast; ring

/-- The two situations in which `round` is off by one. -/
def RoundOff (x : F32) : Prop :=
  |x.val| = 1 / 2 - 1 / 2 ^ 25 ∨ ∃ z : Nat, |x.val| = z ∧ z % 2 = 1 ∧ 2 ^ 23 < z ∧ z < 2 ^ 24

theorem mval_half_pred : mval 0x3effffff = 1 / 2 - 1 / 2 ^ 25 := by
  rw [mval, show (0x3effffff : Nat) = 124 * 2 ^ 23 + (2 ^ 24 - 1) by norm_num,
    magU_combine (Or.inr (by norm_num)) (by norm_num)]
  push_cast; norm_num

/-- **C11, what does hold**: for every finite `|x| < 2^31` outside two explicit families (`|x| = 0.5 - 2^-25`
and odd integers between `2^23` and `2^24`), `round x` is the nearest integer, ties away from zero. -/
theorem C11_round [Cfg] (x : F32) (hx : x.isFinite = true) (h : |x.val| < 2 ^ 31) (hoff : ¬ RoundOff x) :
    IsVal x.round (roundHalfAway x.val) := by
  have h1 := round_val hx h
  have h2 := floor_RN_half (b := x.mag)
    (by intro hc; apply hoff; left; rw [abs_val, hc, mval_half_pred])
    (by intro hc; apply hoff; right; rw [abs_val]; exact hc)
  rw [← abs_val] at h2
  rw [h2] at h1
  refine ⟨h1.1, h1.2.trans ?_⟩
  rw [roundHalfAway]
  by_cases h0 : x.val = 0
  · rw [h0]; simp
    intro _; norm_num
  · cases hs : x.sign
    · have : 0 ≤ x.val := by rw [val_of_pos hs]; exact mval_nonneg _
      simp only [Bool.false_eq_true, if_false]
      rw [if_pos this, abs_of_nonneg this]
    · have h3 : x.val ≤ 0 := by rw [val_of_neg hs]; linarith [mval_nonneg x.mag]
      have h4 : ¬ 0 ≤ x.val := by intro hc; exact h0 (le_antisymm h3 hc)
      simp only [if_true]
      rw [if_neg h4, abs_of_nonpos h3, show -x.val + 1 / 2 = -(x.val - 1 / 2) by ring, Int.floor_neg]
      push_cast; ring

/-- **C11, the exceptions are real**: in both families the result is one further from zero than the nearest
integer (`1` instead of `0`, `z + 1` instead of `z`). -/
theorem C11_round_exceptions [Cfg] (x : F32) (hoff : RoundOff x) :
    |x.round.val - roundHalfAway x.val| = 1 := by
  have hsmall : |x.val| < 2 ^ 24 := by
    rcases hoff with h | ⟨z, hz, _, _, hz2⟩
    · rw [h]; norm_num
    · rw [hz]; exact_mod_cast hz2
  have hx : x.isFinite := by
    rw [isFinite_iff]
    have := (lt_pow_iff (x := x) (k := 151) (by norm_num)).1 (by norm_num; norm_num at hsmall; exact hsmall)
    exact this.trans (by decide)
  have hv := (round_val hx (hsmall.trans (by norm_num))).2
  have key : (⌊RN (|x.val| + 1 / 2)⌋ : ℚ) = ⌊|x.val| + 1 / 2⌋ + 1 := by
    rcases hoff with h | ⟨z, hz, ho, hz1, hz2⟩
    · rw [h]
      have e : (1 / 2 - 1 / 2 ^ 25 + 1 / 2 : ℚ) = 1 - 1 / 2 ^ 25 := by norm_num
      have hr : RN (1 - 1 / 2 ^ 25 : ℚ) = 1 := by
        have m1 : mval 0x3f7fffff = 1 - 1 / 2 ^ 24 := by
          rw [mval, show (0x3f7fffff : Nat) = 125 * 2 ^ 23 + (2 ^ 24 - 1) by norm_num,
            magU_combine (Or.inr (by norm_num)) (by norm_num)]
          push_cast; norm_num
        have m2 : mval 0x3f800000 = 1 := by
          have := mval_pow (k := 127) (by norm_num)
          rw [show (127 * 2 ^ 23 : Nat) = 0x3f800000 by norm_num] at this
          rw [this]; norm_num
        rw [RN_of_nonneg (by norm_num), rbits_tie (b := 0x3f7fffff)
          (by rw [m1, m2, abs_of_nonneg (by norm_num)]; norm_num), if_neg (by norm_num), m2]
      rw [e, hr, show ⌊(1 - 1 / 2 ^ 25 : ℚ)⌋ = 0 by norm_num [Int.floor_eq_iff]]; simp
    · have hbz : mval (149 * 2 ^ 23 + z) = z := mval_nat24 (by omega) (by omega)
      have hbz1 : mval (149 * 2 ^ 23 + z + 1) = z + 1 := by
        rw [add_assoc, mval_nat24 (by omega) (by omega)]; push_cast; ring
      rw [hz, RN_of_nonneg (by positivity), rbits_tie (b := 149 * 2 ^ 23 + z)
        (by rw [hbz, hbz1, abs_of_nonneg (by positivity)]; ring), if_neg (by omega), hbz1,
        Int.floor_natCast_add z (1 / 2 : ℚ), show ⌊(1 / 2 : ℚ)⌋ = 0 by norm_num [Int.floor_eq_iff]]
      rw [show (z : ℚ) + 1 = ((z + 1 : Nat) : ℚ) by push_cast; ring, Int.floor_natCast]; push_cast; ring
  have hne : x.val ≠ 0 := by
    intro h0
    rcases hoff with h | ⟨z, hz, _, hz1, _⟩
    · rw [h0] at h; norm_num at h
    · rw [h0, abs_zero] at hz
      have : z = 0 := by exact_mod_cast hz.symm
      omega
  rw [hv, roundHalfAway, key]
  cases hs : x.sign
  · have : 0 ≤ x.val := by rw [val_of_pos hs]; exact mval_nonneg _
    simp only [Bool.false_eq_true, if_false]
    rw [if_pos this, abs_of_nonneg this]; simp
  · have h3 : x.val ≤ 0 := by rw [val_of_neg hs]; linarith [mval_nonneg x.mag]
    have h4 : ¬ 0 ≤ x.val := by intro hc; exact hne (le_antisymm h3 hc)
    simp only [if_true]
    rw [if_neg h4, abs_of_nonpos h3, show -x.val + 1 / 2 = -(x.val - 1 / 2) by ring, Int.floor_neg]
    push_cast; ring_nf; norm_num

/-- **C11, the claim is false**: `round(0.5 - 2^-25) = 1`. -/
theorem C11_round_false [Cfg] :
    ¬ ∀ x : F32, x.isFinite = true → |x.val| < 2 ^ 31 → IsVal x.round (roundHalfAway x.val) := by
  intro h
  have hv : |(⟨0x3effffff#32⟩ : F32).val| = 1 / 2 - 1 / 2 ^ 25 := by
    rw [abs_val, show (⟨0x3effffff#32⟩ : F32).mag = 0x3effffff by decide, mval_half_pred]
  have h1 := C11_round_exceptions ⟨0x3effffff#32⟩ (Or.inl hv)
  rw [(h ⟨0x3effffff#32⟩ (by decide) (by rw [hv]; norm_num)).2] at h1
  simp at h1

/-- Both families of exceptions are inhabited; ordinary values are not exceptions. -/
example [Cfg] : F32.round ⟨0x3effffff#32⟩ = one ∧ F32.round ⟨0x4b000001#32⟩ = ⟨0x4b000002#32⟩ ∧
    F32.round ⟨0x40200000#32⟩ = ⟨0x40400000#32⟩ :=
  ⟨eval_eq (by kernel_rfl), eval_eq (by kernel_rfl), eval_eq (by kernel_rfl)⟩
example : ¬ RoundOff ⟨0x40200000#32⟩ := by
  have hv : |(⟨0x40200000#32⟩ : F32).val| = 5 / 2 := by
    rw [val_of_units (u := 5 * 2 ^ 148) (by decide +kernel)]; norm_num
  rintro (h | ⟨z, hz, _, h1, h2⟩)
  · rw [hv] at h; norm_num at h
  · rw [hv] at hz
    have : (2 : ℚ) ^ 23 < z := by exact_mod_cast h1
    rw [← hz] at this; norm_num at this

end Micromath.Props
