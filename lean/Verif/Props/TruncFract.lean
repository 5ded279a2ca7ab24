import Verif.Spec.Basic

/-!
# C04-C07: `trunc` and `fract`
-/

namespace Micromath.Props
open F32 Spec

/-- Units of a float with its fraction bits cleared, and of the fraction. -/
theorem magU_clear {m : Nat} (h : 127 ≤ m / 2 ^ 23) :
    magU (m - m % 2 ^ (23 - (m / 2 ^ 23 - 127))) = magU m / 2 ^ 149 * 2 ^ 149 ∧
    magU m % 2 ^ 149 = m % 2 ^ (23 - (m / 2 ^ 23 - 127)) * 2 ^ (m / 2 ^ 23 - 1) := by
  obtain ⟨k, hk⟩ : ∃ k, m / 2 ^ 23 = k + 1 := ⟨m / 2 ^ 23 - 1, by omega⟩
  obtain ⟨r, hr⟩ : ∃ r, r = m % 2 ^ 23 + 2 ^ 23 := ⟨_, rfl⟩
  have hm : m = k * 2 ^ 23 + r := by omega
  have hr1 : 2 ^ 23 ≤ r := by omega
  have hr2 : r < 2 ^ 24 := by omega
  have hU : magU m = r * 2 ^ k := magU_eq_iff_split hm (Or.inr hr1) hr2.le
  rw [hk, show k + 1 - 1 = k by omega, hU]
  rcases le_or_gt 149 k with hk2 | hk2
  · rw [show 23 - (k + 1 - 127) = 0 by omega, pow_zero, Nat.mod_one, Nat.sub_zero, hU]
    have : (2 : Nat) ^ k = 2 ^ (k - 149) * 2 ^ 149 := by rw [← pow_add, Nat.sub_add_cancel hk2]
    rw [this, ← mul_assoc]
    constructor
    · rw [Nat.mul_div_cancel _ (Nat.two_pow_pos 149)]
    · rw [Nat.mul_mod_left, zero_mul]
  · obtain ⟨t, ht⟩ : ∃ t, t = 23 - (k + 1 - 127) := ⟨_, rfl⟩
    have htk : t + k = 149 := by omega
    have ht23 : t ≤ 23 := by omega
    have e23 : (2 : Nat) ^ 23 = 2 ^ (23 - t) * 2 ^ t := by rw [← pow_add, Nat.sub_add_cancel ht23]
    have hmod : m % 2 ^ t = r % 2 ^ t := by
      rw [hm, e23, ← mul_assoc, Nat.mul_add_mod_self_right]
    have e149 : (2 : Nat) ^ 149 = 2 ^ t * 2 ^ k := by rw [← pow_add, htk]
    rw [← ht, hmod, e149, Nat.mul_mod_mul_right, Nat.mul_div_mul_right _ _ (Nat.two_pow_pos k)]
    refine ⟨?_, rfl⟩
    have h1 := Nat.div_add_mod r (2 ^ t)
    have h2 : 2 ^ 23 ≤ r / 2 ^ t * 2 ^ t := by
      have : 2 ^ (23 - t) ≤ r / 2 ^ t := by
        rw [Nat.le_div_iff_mul_le (Nat.two_pow_pos t), ← e23]; exact hr1
      calc 2 ^ 23 = 2 ^ (23 - t) * 2 ^ t := e23
        _ ≤ _ := Nat.mul_le_mul_right _ this
    have h3 : m - r % 2 ^ t = k * 2 ^ 23 + r / 2 ^ t * 2 ^ t := by
      rw [mul_comm] at h1; omega
    have h4 : r / 2 ^ t * 2 ^ t ≤ r := Nat.div_mul_le_self _ _
    rw [h3, magU_combine (Or.inr h2) (by omega), mul_assoc]

theorem mag_small_div {x : F32} (hx : |x.val| < 2 ^ 32) : x.mag / 2 ^ 23 < 159 := by
  have := (lt_pow_iff (x := x) (k := 159) (by norm_num)).1 (by norm_num; exact hx)
  omega

theorem units_pack (s : Bool) {m : Nat} (hm : m < 2 ^ 31) :
    (pack s m).units = if s then -(magU m : Int) else (magU m : Int) := by
  rw [units, sign_pack s hm, mag_pack s hm]

theorem trunc_units {x : F32} (hx : |x.val| < 2 ^ 32) :
    x.trunc.isFinite ∧ x.trunc.sign = x.sign ∧ x.trunc.units = x.units.tdiv (2 ^ 149) * 2 ^ 149 := by
  have h1 := mag_small_div hx
  have hml := mag_lt x
  rw [trunc_eq]
  by_cases h : x.mag / 2 ^ 23 < 127
  · rw [if_pos h]
    refine ⟨by rw [isFinite_iff, mag_pack _ (by norm_num)]; decide, sign_pack _ (by norm_num), ?_⟩
    have h2 : |x.val| < 2 ^ (0 : Int) := by
      simpa using (lt_pow_iff (x := x) (k := 127) (by norm_num)).2 (by omega)
    rw [units_pack _ (by norm_num), units]
    rw [abs_val, mval, div_lt_iff₀ two149_pos] at h2
    have h3 : magU x.mag < 2 ^ 149 := by
      have : (magU x.mag : ℚ) < 2 ^ 149 := by simpa using h2
      exact_mod_cast this
    have h4 : Int.tdiv (magU x.mag : Int) (2 ^ 149) = 0 :=
      Int.tdiv_eq_zero_of_lt (by positivity) (by exact_mod_cast h3)
    cases x.sign
    · simp only [Bool.false_eq_true, if_false]; rw [h4]; simp
    · simp only [if_true]; rw [Int.neg_tdiv, h4]; simp
  · rw [if_neg h]
    have h5 : (x.mag / 2 ^ 23 - 127) % 32 = x.mag / 2 ^ 23 - 127 := Nat.mod_eq_of_lt (by omega)
    rw [h5]
    have hle : x.mag - x.mag % 2 ^ (23 - (x.mag / 2 ^ 23 - 127)) < infMag := by
      have : infMag = 255 * 2 ^ 23 := by decide
      omega
    have hlt : x.mag - x.mag % 2 ^ (23 - (x.mag / 2 ^ 23 - 127)) < 2 ^ 31 := by omega
    refine ⟨by rw [isFinite_iff, mag_pack _ hlt]; exact hle, sign_pack _ hlt, ?_⟩
    rw [units_pack _ hlt, (magU_clear (by omega)).1, units]
    have h4 : Int.tdiv (magU x.mag : Int) (2 ^ 149) = (magU x.mag / 2 ^ 149 : Nat) := by
      have := Int.ofNat_tdiv (magU x.mag) (2 ^ 149)
      rw [this]; push_cast; rfl
    cases x.sign
    · simp only [Bool.false_eq_true, if_false]; rw [h4]; push_cast; rfl
    · simp only [if_true]; rw [Int.neg_tdiv, h4]; push_cast; ring

theorem fract_units {x : F32} (hx : |x.val| < 2 ^ 32) :
    x.fract.isFinite ∧ x.fract.sign = x.sign ∧ x.fract.units = x.units.tmod (2 ^ 149) := by
  have h1 := mag_small_div hx
  have hml := mag_lt x
  have hfin : x.isFinite := by
    rw [isFinite_iff]
    have : infMag = 255 * 2 ^ 23 := by decide
    omega
  have hmodcast : Int.tmod (magU x.mag : Int) (2 ^ 149) = (magU x.mag % 2 ^ 149 : Nat) := by
    have := Int.ofNat_tmod (magU x.mag) (2 ^ 149)
    rw [this]; push_cast; rfl
  rw [fract_eq]
  by_cases h : x.mag / 2 ^ 23 < 127
  · rw [if_pos h]
    refine ⟨hfin, rfl, ?_⟩
    have h2 : |x.val| < 2 ^ (0 : Int) := by
      simpa using (lt_pow_iff (x := x) (k := 127) (by norm_num)).2 (by omega)
    rw [abs_val, mval, div_lt_iff₀ two149_pos] at h2
    have h3 : magU x.mag < 2 ^ 149 := by
      have : (magU x.mag : ℚ) < 2 ^ 149 := by simpa using h2
      exact_mod_cast this
    rw [units]
    rw [Nat.mod_eq_of_lt h3] at hmodcast
    cases x.sign
    · simp only [Bool.false_eq_true, if_false]; rw [hmodcast]
    · simp only [if_true]; rw [Int.neg_tmod, hmodcast]
  · rw [if_neg h]
    have h5 : (x.mag / 2 ^ 23 - 127) % 32 = x.mag / 2 ^ 23 - 127 := Nat.mod_eq_of_lt (by omega)
    have h6 := (magU_clear (m := x.mag) (by omega)).2
    have h7 : magU x.mag % 2 ^ 149 = x.fracField * 2 ^ 126 := by
      rw [h6, fracField, h5, mul_assoc, ← pow_add,
        show x.mag / 2 ^ 23 - 127 + 126 = x.mag / 2 ^ 23 - 1 by omega]
    by_cases hf : x.fracField = 0
    · rw [if_pos hf]
      refine ⟨by rw [isFinite_iff, mag_pack _ (by norm_num)]; decide, sign_pack _ (by norm_num), ?_⟩
      rw [units_pack _ (by norm_num), units]
      rw [h7, hf] at hmodcast
      cases x.sign
      · simp only [Bool.false_eq_true, if_false]; rw [hmodcast]; simp
      · simp only [if_true]; rw [Int.neg_tmod, hmodcast]; simp
    · rw [if_neg hf]
      have hlt := fracField_lt x
      obtain ⟨L, hL⟩ : ∃ L, L = x.fracField.log2 := ⟨_, rfl⟩
      have hL1 : 2 ^ L ≤ x.fracField := hL ▸ Nat.log2_self_le hf
      have hL2 : x.fracField < 2 ^ (L + 1) := hL ▸ Nat.lt_log2_self
      have hL23 : L < 23 := (Nat.pow_lt_pow_iff_right (by norm_num)).1 (hL1.trans_lt hlt)
      rw [← hL]
      have e1 : 2 ^ L * 2 ^ (23 - L) = 2 ^ 23 := by rw [← pow_add, Nat.add_sub_cancel' hL23.le]
      have e2 : 2 ^ (L + 1) * 2 ^ (23 - L) = 2 ^ 24 := by
        rw [← pow_add, show L + 1 + (23 - L) = 24 by omega]
      have g1 : 2 ^ 23 ≤ x.fracField * 2 ^ (23 - L) := e1 ▸ Nat.mul_le_mul_right _ hL1
      have g2 : x.fracField * 2 ^ (23 - L) < 2 ^ 24 :=
        e2 ▸ Nat.mul_lt_mul_of_pos_right hL2 (Nat.two_pow_pos _)
      have hlt2 : (103 + L) * 2 ^ 23 + x.fracField * 2 ^ (23 - L) < infMag := by
        have : infMag = 255 * 2 ^ 23 := by decide
        omega
      have hlt3 : (103 + L) * 2 ^ 23 + x.fracField * 2 ^ (23 - L) < 2 ^ 31 :=
        hlt2.trans (by decide)
      refine ⟨by rw [isFinite_iff, mag_pack _ hlt3]; exact hlt2, sign_pack _ hlt3, ?_⟩
      rw [units_pack _ hlt3, magU_combine (Or.inr g1) g2.le, units, mul_assoc, ← pow_add,
        show 23 - L + (103 + L) = 126 by omega]
      rw [h7] at hmodcast
      cases x.sign
      · simp only [Bool.false_eq_true, if_false]; rw [hmodcast]
      · simp only [if_true]; rw [Int.neg_tmod, hmodcast]

/-- **C04.** Below `2^32` in magnitude, `trunc` is exactly the integer part and keeps the sign bit.
(The model of `trunc` contains no operation that can panic, so the result is a plain value.) -/
theorem C04_trunc (x : F32) (hx : |x.val| < 2 ^ 32) :
    IsVal x.trunc (intPart x.val) ∧ x.trunc.isSignNegative = x.isSignNegative := by
  obtain ⟨h1, h2, h3⟩ := trunc_units hx
  refine ⟨⟨h1, ?_⟩, h2⟩
  rw [val, h3, tdiv_eq_truncQ, ← val]
  push_cast
  norm_num
  rfl

/-- `trunc(-0.3) = -0.0` and `trunc(-3.75) = -3.0`. -/
example : trunc ⟨0xbe99999a#32⟩ = negZero ∧ trunc ⟨0xc0700000#32⟩ = ⟨0xc0400000#32⟩ :=
  ⟨eval_eq (by kernel_rfl), eval_eq (by kernel_rfl)⟩
example : |(⟨0xc0700000#32⟩ : F32).val| < 2 ^ 32 := by
  rw [show (2 : ℚ) ^ 32 = 2 ^ (((159 : Nat) : Int) - 127) by norm_num, lt_pow_iff (by norm_num)]; decide

/-- **C05, the claim is false.**  `trunc(1.25 * 2^33) = 2^33`: the shift amount wraps modulo 32. -/
theorem C05_trunc_large_false :
    ¬ ∀ x : F32, x.isFinite = true → 2 ^ 23 ≤ |x.val| → x.trunc = x := by
  intro h
  have h1 := h ⟨0x50200000#32⟩ (by decide) (by
    have := (pow_le_iff (x := ⟨0x50200000#32⟩) (k := 150) (by norm_num)).2 (by decide)
    simpa using this)
  revert h1; decide +kernel

/-- **C05, what does hold.**  For every float with `2^23 ≤ |x| < 2^32` and for infinities `trunc x = x`. -/
theorem C05_trunc_large (x : F32) :
    (2 ^ 23 ≤ |x.val| → |x.val| < 2 ^ 32 → x.trunc = x) ∧ (x.isInf → x.trunc = x) := by
  constructor
  · intro h1 h2
    have ha := (pow_le_iff (x := x) (k := 150) (by norm_num)).1 (by simpa using h1)
    have hb := mag_small_div h2
    rw [trunc_eq, if_neg (by omega), show 23 - (x.mag / 2 ^ 23 - 127) % 32 = 0 by omega, pow_zero,
      Nat.mod_one, Nat.sub_zero, pack_sign_mag]
  · intro h
    have hm : x.mag = infMag := by simpa [isInf] using h
    rw [trunc_eq, hm, if_neg (by decide), show infMag % 2 ^ (23 - (infMag / 2 ^ 23 - 127) % 32) = 0 by decide,
      Nat.sub_zero, ← hm, pack_sign_mag]

/-- **C05, exact behaviour from `2^32` on**: `trunc` is right iff the wrapped mask happens to hit only zero
bits. -/
theorem C05_trunc_large_iff (x : F32) (h : 2 ^ 32 ≤ |x.val|) :
    x.trunc = x ↔ x.mag % 2 ^ (23 - (x.mag / 2 ^ 23 - 127) % 32) = 0 := by
  have ha := (pow_le_iff (x := x) (k := 159) (by norm_num)).1 (by simpa using h)
  have hml := mag_lt x
  rw [trunc_eq, if_neg (by omega)]
  constructor
  · intro he
    have := congrArg mag he
    rw [mag_pack _ (by omega)] at this
    have h2 := Nat.mod_le x.mag (2 ^ (23 - (x.mag / 2 ^ 23 - 127) % 32))
    omega
  · intro he
    rw [he, Nat.sub_zero, pack_sign_mag]

/-- **C05, the NaN part is false for every NaN**: `trunc(NaN)` is an infinity with NaN's sign bit. -/
theorem C05_trunc_nan_false (x : F32) (h : x.isNaN = true) :
    x.trunc.isNaN = false ∧ x.trunc = if x.isSignNegative then negInf else posInf := by
  have hm : infMag < x.mag := by simpa [isNaN] using h
  have hml := mag_lt x
  have hi : infMag = 255 * 2 ^ 23 := by decide
  have : x.trunc = if x.isSignNegative then negInf else posInf := by
    have h8 : x.mag / 2 ^ 23 = 255 := by omega
    rw [trunc_eq, h8, if_neg (by norm_num), isSignNegative]
    rw [show x.mag - x.mag % 2 ^ (23 - (255 - 127) % 32) = infMag by norm_num; omega]
    cases x.sign <;> rfl
  refine ⟨?_, this⟩
  rw [this]; cases x.isSignNegative <;> decide

example : ∃ x : F32, x.isNaN = true := ⟨⟨0x7fc00000#32⟩, by decide⟩

/-- **C06.** Below `2^32` in magnitude `fract` is exactly `x - trunc x`: same sign bit, magnitude below 1,
exact real identity, and the float sum `trunc x + fract x` gives back `x` bit for bit. -/
theorem C06_fract [Cfg] (x : F32) (hx : |x.val| < 2 ^ 32) :
    IsVal x.fract (x.val - intPart x.val) ∧ x.fract.isSignNegative = x.isSignNegative ∧
    |x.fract.val| < 1 ∧ x.trunc.val + x.fract.val = x.val ∧ x.trunc + x.fract = x ∧
    x.fractR = .ok x.fract := by
  obtain ⟨t1, t2, t3⟩ := trunc_units hx
  obtain ⟨f1, f2, f3⟩ := fract_units hx
  obtain ⟨⟨_, hT⟩, _⟩ := C04_trunc x hx
  have hsum : x.trunc.val + x.fract.val = x.val := by
    rw [units_add_val, t3, f3, val, mul_comm, Int.mul_tdiv_add_tmod]
  have hF : x.fract.val = x.val - intPart x.val := by rw [← hT]; linarith
  have hfin : x.isFinite := by
    rw [isFinite_iff]
    have := mag_small_div hx
    have : infMag = 255 * 2 ^ 23 := by decide
    omega
  refine ⟨⟨f1, hF⟩, f2, ?_, hsum, ?_, fractR_eq x⟩
  · rw [hF, intPart]
    split
    · rw [abs_lt]
      constructor <;> linarith [Int.floor_le x.val, Int.lt_floor_add_one x.val]
    · rw [abs_lt]
      constructor <;> linarith [Int.le_ceil x.val, Int.ceil_lt_add_one x.val]
  · by_cases h0 : x.val = 0
    · rw [add_def, addAs_finite _ t1 f1, hsum, if_pos h0, t2, f2, Bool.and_self]
      have hm := val_eq_zero.1 h0
      rw [← pack_sign_mag x, hm]
      cases x.sign <;> rfl
    · have := add_val t1 f1 (by rw [hsum]; exact abs_val_lt_ovf hfin)
      rw [hsum, RN_val] at this
      exact eq_of_val_ne this.2 (by rw [this.2]; exact h0)

/-- `fract(-3.75) = -0.75`. -/
example : fract ⟨0xc0700000#32⟩ = ⟨0xbf400000#32⟩ := eval_eq (by kernel_rfl)

/-- **C07, the claim is false** for large values and for NaN: `fract(1.25 * 2^33) = 0.5`,
`fract(NaN) = 0.5` for the default NaN pattern. -/
theorem C07_fract_large_false :
    (¬ ∀ x : F32, x.isFinite = true → 2 ^ 23 ≤ |x.val| → x.fract.val = 0) ∧
    (¬ ∀ x : F32, x.isNaN = true → x.fract.isNaN = true) := by
  constructor
  · intro h
    have h1 := h ⟨0x50200000#32⟩ (by decide) (by
      have := (pow_le_iff (x := ⟨0x50200000#32⟩) (k := 150) (by norm_num)).2 (by decide)
      simpa using this)
    rw [val_eq_zero] at h1
    revert h1; decide +kernel
  · intro h
    have h1 := h ⟨0x7fc00000#32⟩ (by decide)
    revert h1; decide +kernel

/-- **C07.** `fract` of *every* NaN is not NaN (and lies below 1 in magnitude). -/
theorem C07_fract_nan_false (x : F32) (h : x.isNaN = true) : x.fract.isNaN = false ∧ x.fract.isFinite = true := by
  have hm : infMag < x.mag := by simpa [isNaN] using h
  have hml := mag_lt x
  have hi : infMag = 255 * 2 ^ 23 := by decide
  have hfin : x.fract.isFinite = true := by
    rw [fract_eq, if_neg (by omega)]
    by_cases hf : x.fracField = 0
    · rw [if_pos hf, isFinite_iff, mag_pack _ (by norm_num)]; decide
    · rw [if_neg hf]
      have hlt := fracField_lt x
      obtain ⟨L, hL⟩ : ∃ L, L = x.fracField.log2 := ⟨_, rfl⟩
      have hL1 : 2 ^ L ≤ x.fracField := hL ▸ Nat.log2_self_le hf
      have hL2 : x.fracField < 2 ^ (L + 1) := hL ▸ Nat.lt_log2_self
      have hL23 : L < 23 := (Nat.pow_lt_pow_iff_right (by norm_num)).1 (hL1.trans_lt hlt)
      rw [← hL]
      have e2 : 2 ^ (L + 1) * 2 ^ (23 - L) = 2 ^ 24 := by
        rw [← pow_add, show L + 1 + (23 - L) = 24 by omega]
      have g2 : x.fracField * 2 ^ (23 - L) < 2 ^ 24 :=
        e2 ▸ Nat.mul_lt_mul_of_pos_right hL2 (Nat.two_pow_pos _)
      have hlt2 : (103 + L) * 2 ^ 23 + x.fracField * 2 ^ (23 - L) < infMag := by omega
      rw [isFinite_iff, mag_pack _ (hlt2.trans (by decide))]; exact hlt2
  exact ⟨not_nan_of_finite hfin, hfin⟩

/-- **C07, what does hold**: `fract x` is a zero with the sign bit of `x` for `2^23 ≤ |x| < 2^32` and for
infinities. -/
theorem C07_fract_large (x : F32) :
    (2 ^ 23 ≤ |x.val| → |x.val| < 2 ^ 32 → x.fract = if x.isSignNegative then negZero else posZero) ∧
    (x.isInf → x.fract = if x.isSignNegative then negZero else posZero) := by
  have key : 127 ≤ x.mag / 2 ^ 23 → x.fracField = 0 →
      x.fract = if x.isSignNegative then negZero else posZero := by
    intro h1 h2
    rw [fract_eq, if_neg (by omega), if_pos h2, isSignNegative]
    cases x.sign <;> rfl
  constructor
  · intro h1 h2
    have ha := (pow_le_iff (x := x) (k := 150) (by norm_num)).1 (by simpa using h1)
    have hb := mag_small_div h2
    refine key (by omega) ?_
    rw [fracField, show 23 - (x.mag / 2 ^ 23 - 127) % 32 = 0 by omega, pow_zero, Nat.mod_one, zero_mul]
  · intro h
    have hm : x.mag = infMag := by simpa [isInf] using h
    refine key (by rw [hm]; decide) ?_
    rw [fracField, hm]; decide

example : fract ⟨0xcb800001#32⟩ = negZero :=
  (C07_fract_large _).1
    (by have := (pow_le_iff (x := ⟨0xcb800001#32⟩) (k := 150) (by norm_num)).2 (by decide); simpa using this)
    (by have := (lt_pow_iff (x := ⟨0xcb800001#32⟩) (k := 159) (by norm_num)).2 (by decide)
        rw [show ((159 : Nat) : Int) - 127 = 32 by norm_num] at this; exact_mod_cast this)

/-! ### `trunc` and `fract` of every finite float -/

/-- Adding `j` to a nonzero exponent field multiplies the value by `2^j`. -/
theorem mval_shift {m : Nat} (j : Nat) (h : 2 ^ 23 ≤ m) : mval (m + j * 2 ^ 23) = mval m * 2 ^ j := by
  obtain ⟨k, r, hm, h1, h2⟩ : ∃ k r, m = k * 2 ^ 23 + r ∧ 2 ^ 23 ≤ r ∧ r < 2 ^ 24 :=
    ⟨m / 2 ^ 23 - 1, m % 2 ^ 23 + 2 ^ 23, by omega, by omega, by omega⟩
  rw [mval, mval, magU_eq_iff_split (show m + j * 2 ^ 23 = (k + j) * 2 ^ 23 + r by omega) (Or.inr h1) h2.le,
    magU_eq_iff_split hm (Or.inr h1) h2.le, pow_add]
  push_cast
  ring

theorem val_pack_shift (s : Bool) {m : Nat} (j : Nat) (h : 2 ^ 23 ≤ m) (hm : m + j * 2 ^ 23 < 2 ^ 31) :
    (pack s (m + j * 2 ^ 23)).val = (pack s m).val * 2 ^ j := by
  cases s
  · rw [val_of_pos (sign_pack _ hm), val_of_pos (sign_pack _ (by omega)), mag_pack _ hm, mag_pack _ (by omega), mval_shift j h]
  · rw [val_of_neg (sign_pack _ hm), val_of_neg (sign_pack _ (by omega)), mag_pack _ hm, mag_pack _ (by omega), mval_shift j h]
    ring

/-- The float `x / 2^(32k)` and how `trunc` and `fract` of `x` are related to those of it. -/
theorem trunc_fract_scaled {x : F32} (hx : x.isFinite = true) (k : Nat) (h1 : 2 ^ (32 * k) ≤ |x.val|) (h2 : |x.val| < 2 ^ (32 * k + 32)) :
    ∃ y : F32, y.val = x.val / 2 ^ (32 * k) ∧ |y.val| < 2 ^ 32 ∧ y.sign = x.sign ∧
      x.trunc.isFinite = true ∧ x.trunc.val = y.trunc.val * 2 ^ (32 * k) ∧ x.trunc.sign = x.sign ∧ x.fract = y.fract := by
  have hi : infMag = 255 * 2 ^ 23 := by decide
  have hfin := isFinite_iff.1 hx
  have m1 := (pow_le_iff (x := x) (k := 127 + 32 * k) (by omega)).1 (by
    rw [show (((127 + 32 * k : Nat) : Int) - 127) = ((32 * k : Nat) : Int) by push_cast; ring, zpow_natCast]; exact h1)
  have m2 := (lt_pow_iff (x := x) (k := 127 + (32 * k + 32)) (by omega)).1 (by
    rw [show (((127 + (32 * k + 32) : Nat) : Int) - 127) = ((32 * k + 32 : Nat) : Int) by push_cast; ring, zpow_natCast]; exact h2)
  obtain ⟨m, hm⟩ : ∃ m, x.mag = m + (32 * k) * 2 ^ 23 := ⟨x.mag - 32 * k * 2 ^ 23, by omega⟩
  have hm31 : m < 2 ^ 31 := by omega
  have e1 : x.mag / 2 ^ 23 - 127 = (m / 2 ^ 23 - 127) + 32 * k := by omega
  have e2 : (x.mag / 2 ^ 23 - 127) % 32 = (m / 2 ^ 23 - 127) % 32 := by omega
  have hms : (pack x.sign m).mag = m := mag_pack _ hm31
  have hss : (pack x.sign m).sign = x.sign := sign_pack _ hm31
  have hle : (23 - (m / 2 ^ 23 - 127) % 32) ≤ 23 := by omega
  have hmod : x.mag % 2 ^ (23 - (m / 2 ^ 23 - 127) % 32) = m % 2 ^ (23 - (m / 2 ^ 23 - 127) % 32) := by
    generalize 23 - (m / 2 ^ 23 - 127) % 32 = t at hle ⊢
    have : (2 : Nat) ^ 23 = 2 ^ (23 - t) * 2 ^ t := by rw [← pow_add, Nat.sub_add_cancel hle]
    rw [hm, this, ← mul_assoc, Nat.add_mul_mod_self_right]
  have hv : (pack x.sign m).val = x.val / 2 ^ (32 * k) := by
    rw [eq_div_iff (by positivity), ← val_pack_shift x.sign (32 * k) (by omega) (by omega), ← hm, pack_sign_mag]
  have hb : m % 2 ^ (23 - (m / 2 ^ 23 - 127) % 32) ≤ m % 2 ^ 23 := by
    generalize 23 - (m / 2 ^ 23 - 127) % 32 = t at hle ⊢
    have : (2 : Nat) ^ 23 = 2 ^ t * 2 ^ (23 - t) := by rw [← pow_add, Nat.add_sub_cancel' hle]
    rw [← Nat.mod_mul_right_mod (m) (2 ^ t) (2 ^ (23 - t)), ← this]
    exact Nat.mod_le _ _
  refine ⟨pack x.sign m, hv, ?_, hss, ?_, ?_, ?_, ?_⟩
  · rw [hv, abs_div, abs_of_pos (by positivity : (0 : ℚ) < 2 ^ (32 * k)), div_lt_iff₀ (by positivity), ← pow_add, add_comm 32]
    exact h2
  · rw [trunc_eq, if_neg (by omega), isFinite_iff, mag_pack _ (by omega)]; omega
  · rw [trunc_eq x, trunc_eq (pack x.sign m), hms, hss, if_neg (by omega), if_neg (by omega), e2, hmod,
      show x.mag - m % 2 ^ (23 - (m / 2 ^ 23 - 127) % 32) = m - m % 2 ^ (23 - (m / 2 ^ 23 - 127) % 32) + 32 * k * 2 ^ 23 by omega,
      val_pack_shift _ _ (by omega) (by omega)]
  · rw [trunc_eq, if_neg (by omega), sign_pack _ (by omega)]
  · have hf : x.fracField = (pack x.sign m).fracField := by
      rw [fracField, fracField, hms, e2, hmod]
    rw [fract_eq x, fract_eq (pack x.sign m), hf, hms, hss, if_neg (show ¬ x.mag / 2 ^ 23 < 127 by omega),
      if_neg (show ¬ m / 2 ^ 23 < 127 by omega)]

/-- **C05, exact value for every finite `|x| >= 1`.** With `2^(32k) <= |x| < 2^(32k+32)`, `trunc` discards the fraction of
`x / 2^(32k)`: it rounds `x` toward zero to a multiple of `2^(32k)` and keeps the sign bit. -/
theorem C05_trunc_exact (x : F32) (k : Nat) (hx : x.isFinite = true) (h1 : 2 ^ (32 * k) ≤ |x.val|) (h2 : |x.val| < 2 ^ (32 * k + 32)) :
    IsVal x.trunc (intPart (x.val / 2 ^ (32 * k)) * 2 ^ (32 * k)) ∧ x.trunc.isSignNegative = x.isSignNegative := by
  obtain ⟨y, hv, hy, -, hf, ht, hs, -⟩ := trunc_fract_scaled hx k h1 h2
  exact ⟨⟨hf, by rw [ht, (C04_trunc y hy).1.2, hv]⟩, hs⟩

/-- **C07, exact value for every finite `|x| >= 1`.** With `2^(32k) <= |x| < 2^(32k+32)`, `fract(x)` is the fraction of
`x / 2^(32k)`, with the sign bit of `x`; for `k = 0` it is the fraction of `x`. -/
theorem C07_fract_exact [Cfg] (x : F32) (k : Nat) (hx : x.isFinite = true) (h1 : 2 ^ (32 * k) ≤ |x.val|) (h2 : |x.val| < 2 ^ (32 * k + 32)) :
    IsVal x.fract (x.val / 2 ^ (32 * k) - intPart (x.val / 2 ^ (32 * k))) ∧ x.fract.isSignNegative = x.isSignNegative := by
  obtain ⟨y, hv, hy, hs, -, -, -, hf⟩ := trunc_fract_scaled hx k h1 h2
  obtain ⟨a, b, -⟩ := C06_fract y hy
  rw [hf, ← hv]
  exact ⟨a, b.trans hs⟩

/-- `1.25 * 2^33` with `k = 1`: `trunc` gives `2^33` and `fract` gives `0.5`. -/
example : 2 ^ (32 * 1) ≤ |(⟨0x50200000#32⟩ : F32).val| ∧ |(⟨0x50200000#32⟩ : F32).val| < 2 ^ (32 * 1 + 32) ∧
    trunc ⟨0x50200000#32⟩ = ⟨0x50000000#32⟩ ∧ fract ⟨0x50200000#32⟩ = ⟨0x3f000000#32⟩ := by
  have hv : (⟨0x50200000#32⟩ : F32).val = 5 * 2 ^ 31 := by
    rw [val_of_units (u := 5 * 2 ^ 180) (by decide +kernel)]; norm_num
  rw [hv]
  exact ⟨by norm_num, by norm_num, eval_eq (by kernel_rfl), eval_eq (by kernel_rfl)⟩

end Micromath.Props
