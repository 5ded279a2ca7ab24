import Verif.Spec.Basic
import Mathlib.Analysis.SpecialFunctions.Pow.NNReal

/-!
# C14-C20: `sqrt`, `invsqrt`, `inv`
-/

set_option exponentiation.threshold 1000

namespace Micromath.Props
open F32 Spec

theorem ge_zero_iff (x : F32) : x.ge ZERO = true ↔
    x.isNaN = false ∧ (x.sign = false ∨ x.mag = 0) := by
  have hz : ZERO.key = 0 := by decide
  have hn : ZERO.isNaN = false := by decide
  rw [F32.ge, F32.le, hz, hn, key]
  cases x.isNaN <;> cases x.sign <;> simp

theorem posNormal_mag {x : F32} (h : PosNormal x) :
    x.sign = false ∧ 2 ^ 23 ≤ x.mag ∧ x.mag < 255 * 2 ^ 23 := by
  have h0 : 0 < x.val := lt_of_lt_of_le (by positivity) h.2
  have hs := val_pos_sign h0
  refine ⟨hs, ?_, isFinite_iff.1 h.1⟩
  have := (pow_le_iff (x := x) (k := 1) (by norm_num)).1 (by
    rw [abs_of_pos h0]; refine le_trans (le_of_eq ?_) h.2; norm_num)
  omega

theorem posNormal_iff {x : F32} :
    PosNormal x ↔ x.sign = false ∧ 2 ^ 23 ≤ x.mag ∧ x.mag < 255 * 2 ^ 23 := by
  refine ⟨posNormal_mag, fun ⟨h1, h2, h3⟩ => ⟨isFinite_iff.2 h3, ?_⟩⟩
  have := (pow_le_iff (x := x) (k := 1) (by norm_num)).2 (by omega)
  rw [abs_of_nonneg (by rw [val_of_pos h1]; exact mval_nonneg _)] at this
  refine le_trans (le_of_eq ?_) this; norm_num

/-- A positive normal number as significand and exponent. -/
theorem posNormal_split {x : F32} (h : PosNormal x) :
    ∃ e f : Nat, 1 ≤ e ∧ e ≤ 254 ∧ f < 2 ^ 23 ∧ x.mag = e * 2 ^ 23 + f ∧ x.bits.toNat = e * 2 ^ 23 + f ∧
      x.val = (2 ^ 23 + f) * 2 ^ (e - 1) / 2 ^ 149 := by
  obtain ⟨hs, h1, h2⟩ := posNormal_mag h
  refine ⟨x.mag / 2 ^ 23, x.mag % 2 ^ 23, by omega, by omega, by omega, by omega, ?_, ?_⟩
  · rw [toNat_eq, hs]; simp; omega
  · rw [val_of_pos hs, mval, magU, if_neg (by omega)]; push_cast; ring

theorem val_of_bits {y : F32} {E F : Nat} (hE : 1 ≤ E) (hE2 : E ≤ 254) (hF : F < 2 ^ 23)
    (h : y.bits.toNat = E * 2 ^ 23 + F) :
    PosNormal y ∧ y.val = (2 ^ 23 + F) * 2 ^ (E - 1) / 2 ^ 149 := by
  have hm : y.mag = E * 2 ^ 23 + F := by rw [mag, h]; omega
  have hs : y.sign = false := by rw [sign, h]; simp; omega
  refine ⟨posNormal_iff.2 ⟨hs, by omega, by omega⟩, ?_⟩
  rw [val_of_pos hs, mval, magU, if_neg (by omega), hm, show (E * 2 ^ 23 + F) % 2 ^ 23 = F by omega,
    show (E * 2 ^ 23 + F) / 2 ^ 23 = E by omega]
  push_cast; ring

/-! ### `sqrt` -/

/-- The `u32` addition in `sqrt` cannot overflow in any build mode: `sqrt` never panics. -/
theorem sqrtR_eq [Cfg] (x : F32) : x.sqrtR = .ok x.sqrt := by
  unfold F32.sqrtR F32.sqrt
  by_cases h : x.ge ZERO = true
  · rw [if_pos h, if_pos h]
    obtain ⟨h1, h2⟩ := (ge_zero_iff x).1 h
    have hn : x.mag ≤ infMag := by simpa [isNaN] using h1
    have hi : infMag = 255 * 2 ^ 23 := by decide
    have hb : x.bits.toNat ≤ 2 ^ 31 := by
      rw [toNat_eq]
      rcases h2 with h2 | h2
      · rw [h2]; simp; omega
      · rw [h2]; split <;> omega
    have : u32chk ((x.toBits.toNat : Int) + 0x3f800000) = .ok (x.toBits + 0x3f800000#32) := by
      unfold u32chk
      rw [if_pos (by unfold toBits; omega)]
      have e : BitVec.ofInt 32 ((x.toBits.toNat : Int) + 0x3f800000) = x.toBits + 0x3f800000#32 := by
        rw [BitVec.ofInt_add, BitVec.ofInt_natCast, BitVec.ofNat_toNat, BitVec.setWidth_eq]
        congr 1
      rw [e]
    rw [this, ok_bind]
  · rw [if_neg h, if_neg h]

theorem sqrt_toNat [Cfg] {x : F32} (h : x.ge ZERO = true) :
    x.sqrt.bits.toNat = (x.bits.toNat + 0x3f800000) / 2 := by
  obtain ⟨h1, h2⟩ := (ge_zero_iff x).1 h
  have hn : x.mag ≤ infMag := by simpa [isNaN] using h1
  have hi : infMag = 255 * 2 ^ 23 := by decide
  have hb : x.bits.toNat ≤ 2 ^ 31 := by
    rw [toNat_eq]
    rcases h2 with h2 | h2
    · rw [h2]; simp; omega
    · rw [h2]; split <;> omega
  unfold F32.sqrt
  rw [if_pos h, fromBits, toBits, BitVec.toNat_ushiftRight, BitVec.toNat_add, Nat.shiftRight_eq_div_pow,
    show (0x3f800000#32).toNat = 0x3f800000 by rfl, Nat.mod_eq_of_lt (by omega), pow_one]

theorem posNormal_ge {x : F32} (h : PosNormal x) : x.ge ZERO = true := by
  obtain ⟨hs, _, h2⟩ := posNormal_mag h
  exact (ge_zero_iff x).2 ⟨not_nan_of_finite h.1, Or.inl hs⟩

theorem sqrt_ineq_even {g r : ℚ} (hg : 0 ≤ g) (hg2 : g ≤ 2 ^ 22) (hr : 0 ≤ r) (hr1 : r ≤ 1) :
    (1 - 1 / 2 ^ 22) * (2 ^ 23 + (2 * g + r)) ≤ (2 ^ 23 + (2 ^ 22 + g)) ^ 2 / 2 ^ 24 ∧
    (2 ^ 23 + (2 ^ 22 + g)) ^ 2 / 2 ^ 24 ≤ 9 / 8 * (2 ^ 23 + (2 * g + r)) := by
  constructor
  · rw [le_div_iff₀ (by norm_num)]
    nlinarith [sq_nonneg (g - 2 ^ 22)]
  · rw [div_le_iff₀ (by norm_num)]
    nlinarith [mul_nonneg hg (sub_nonneg.2 hg2)]

theorem sqrt_ineq_odd {g r : ℚ} (hg : 0 ≤ g) (hg2 : g ≤ 2 ^ 22) (hr : 0 ≤ r) (hr1 : r ≤ 1) :
    (1 - 1 / 2 ^ 22) * (2 ^ 23 + (2 * g + r)) ≤ (2 ^ 23 + g) ^ 2 / 2 ^ 23 ∧
    (2 ^ 23 + g) ^ 2 / 2 ^ 23 ≤ 9 / 8 * (2 ^ 23 + (2 * g + r)) := by
  constructor
  · rw [le_div_iff₀ (by norm_num)]
    nlinarith [sq_nonneg g]
  · rw [div_le_iff₀ (by norm_num)]
    nlinarith [mul_nonneg hg (sub_nonneg.2 hg2)]

theorem sqrt_bounds [Cfg] {x : F32} (h : PosNormal x) :
    PosNormal x.sqrt ∧ (1 - 1 / 2 ^ 22) * x.val ≤ x.sqrt.val ^ 2 ∧ x.sqrt.val ^ 2 ≤ 9 / 8 * x.val := by
  obtain ⟨e, f, he1, he2, hf, hm, hb, hv⟩ := posNormal_split h
  have hs := sqrt_toNat (posNormal_ge h)
  rw [hb] at hs
  obtain ⟨g, r, hgr, hr⟩ : ∃ g r, f = 2 * g + r ∧ r ≤ 1 := ⟨f / 2, f % 2, by omega, by omega⟩
  have hfq : (f : ℚ) = 2 * g + r := by exact_mod_cast hgr
  have hrq : (r : ℚ) ≤ 1 := by exact_mod_cast hr
  have hr0 : (0 : ℚ) ≤ r := by positivity
  have hg0 : (0 : ℚ) ≤ g := by positivity
  have hgq : (g : ℚ) ≤ 2 ^ 22 := by
    have : g ≤ 2 ^ 22 := by omega
    exact_mod_cast this
  have hP' : (0 : ℚ) ≤ 2 ^ (e - 1) / 2 ^ 149 := by positivity
  rcases Nat.even_or_odd' e with ⟨c, hc | hc⟩
  · -- even exponent field
    obtain ⟨h1, h2⟩ := val_of_bits (y := x.sqrt) (E := c + 63) (F := 2 ^ 22 + g) (by omega) (by omega) (by omega)
      (by rw [hs]; omega)
    refine ⟨h1, ?_⟩
    have hp : ((2 : ℚ) ^ (c + 63 - 1)) ^ 2 = 2 ^ (e - 1) * 2 ^ 125 := by
      rw [← pow_mul, ← pow_add]; congr 1; omega
    rw [h2, hv, div_pow, mul_pow, hp, hfq, Nat.cast_add, Nat.cast_pow, Nat.cast_ofNat]
    generalize (2 : ℚ) ^ (e - 1) = P at hP'
    rw [show (2 ^ 23 + (2 ^ 22 + (g : ℚ))) ^ 2 * (P * 2 ^ 125) / (2 ^ 149) ^ 2
      = (2 ^ 23 + (2 ^ 22 + (g : ℚ))) ^ 2 / 2 ^ 24 * (P / 2 ^ 149) by ring]
    rw [show (1 - 1 / 2 ^ 22 : ℚ) * ((2 ^ 23 + (2 * g + r)) * P / 2 ^ 149)
      = (1 - 1 / 2 ^ 22 : ℚ) * (2 ^ 23 + (2 * g + r)) * (P / 2 ^ 149) by ring]
    rw [show (9 / 8 : ℚ) * ((2 ^ 23 + (2 * g + r)) * P / 2 ^ 149)
      = 9 / 8 * (2 ^ 23 + (2 * g + r)) * (P / 2 ^ 149) by ring]
    have := sqrt_ineq_even hg0 hgq hr0 hrq
    exact ⟨mul_le_mul_of_nonneg_right this.1 hP', mul_le_mul_of_nonneg_right this.2 hP'⟩
  · obtain ⟨h1, h2⟩ := val_of_bits (y := x.sqrt) (E := c + 64) (F := g) (by omega) (by omega) (by omega)
      (by rw [hs]; omega)
    refine ⟨h1, ?_⟩
    have hp : ((2 : ℚ) ^ (c + 64 - 1)) ^ 2 = 2 ^ (e - 1) * 2 ^ 126 := by
      rw [← pow_mul, ← pow_add]; congr 1; omega
    rw [h2, hv, div_pow, mul_pow, hp, hfq]
    generalize (2 : ℚ) ^ (e - 1) = P at hP'
    rw [show (2 ^ 23 + (g : ℚ)) ^ 2 * (P * 2 ^ 126) / (2 ^ 149) ^ 2
      = (2 ^ 23 + (g : ℚ)) ^ 2 / 2 ^ 23 * (P / 2 ^ 149) by ring]
    rw [show (1 - 1 / 2 ^ 22 : ℚ) * ((2 ^ 23 + (2 * g + r)) * P / 2 ^ 149)
      = (1 - 1 / 2 ^ 22 : ℚ) * (2 ^ 23 + (2 * g + r)) * (P / 2 ^ 149) by ring]
    rw [show (9 / 8 : ℚ) * ((2 ^ 23 + (2 * g + r)) * P / 2 ^ 149)
      = 9 / 8 * (2 ^ 23 + (2 * g + r)) * (P / 2 ^ 149) by ring]
    have := sqrt_ineq_odd hg0 hgq hr0 hrq
    exact ⟨mul_le_mul_of_nonneg_right this.1 hP', mul_le_mul_of_nonneg_right this.2 hP'⟩

/-- **C14.** On every positive normal number, `sqrt` is finite, positive, and its square is within
`[1 - 2^-22, 9/8]` of the argument; hence it is within `(1 - 2^-22) .. 1.0607` of the true root. -/
theorem C14_sqrt [Cfg] (x : F32) (h : PosNormal x) :
    x.sqrt.isFinite = true ∧ 0 < x.sqrt.val ∧
    (1 - 1 / 2 ^ 22) * x.val ≤ x.sqrt.val ^ 2 ∧ x.sqrt.val ^ 2 ≤ 9 / 8 * x.val ∧
    (1 - 1 / 2 ^ 22 : ℝ) * Real.sqrt x.val ≤ x.sqrt.val ∧ (x.sqrt.val : ℝ) ≤ 1.0607 * Real.sqrt x.val := by
  obtain ⟨h1, h2, h3⟩ := sqrt_bounds h
  have hp : 0 < x.sqrt.val := lt_of_lt_of_le (by positivity) h1.2
  have hx : 0 < x.val := lt_of_lt_of_le (by positivity) h.2
  have hp' : (0 : ℝ) < x.sqrt.val := by exact_mod_cast hp
  have hx' : (0 : ℝ) < x.val := by exact_mod_cast hx
  have h2' : (1 - 1 / 2 ^ 22 : ℝ) * x.val ≤ (x.sqrt.val : ℝ) ^ 2 := by
    have := (Rat.cast_le (K := ℝ)).2 h2; push_cast at this ⊢; exact this
  have h3' : (x.sqrt.val : ℝ) ^ 2 ≤ 9 / 8 * x.val := by
    have := (Rat.cast_le (K := ℝ)).2 h3; push_cast at this; exact this
  refine ⟨h1.1, hp, h2, h3, ?_, ?_⟩
  · refine (sq_le_sq₀ (mul_nonneg (by norm_num) (Real.sqrt_nonneg _)) hp'.le).1 ?_
    rw [mul_pow, Real.sq_sqrt hx'.le]
    refine le_trans ?_ h2'
    apply mul_le_mul_of_nonneg_right _ hx'.le
    norm_num
  · refine (sq_le_sq₀ hp'.le (by positivity)).1 ?_
    rw [mul_pow, Real.sq_sqrt hx'.le]
    refine h3'.trans ?_
    apply mul_le_mul_of_nonneg_right _ hx'.le
    norm_num

example : PosNormal ⟨0x40490fdb#32⟩ := posNormal_iff.2 (by decide)
/-- `sqrt(2.0) = 1.5`. -/
example [Cfg] : F32.sqrt ⟨0x40000000#32⟩ = ⟨0x3fc00000#32⟩ := eval_eq (by kernel_rfl)

/-- **C15.** `sqrt` never panics (the checked form always returns), is NaN exactly on NaN and negative
numbers, and is monotone on sign-positive inputs (infinity included). -/
theorem C15_sqrt [Cfg] (x : F32) :
    x.sqrtR = .ok x.sqrt ∧ (x.sqrt.isNaN = true ↔ x.isNaN = true ∨ x.lt posZero = true) ∧
    ∀ y : F32, x.isSignNegative = false → y.isSignNegative = false → x.le y = true → x.sqrt.le y.sqrt = true := by
  refine ⟨sqrtR_eq x, ?_, ?_⟩
  · have hlt : x.lt posZero = true ↔ x.isNaN = false ∧ x.sign = true ∧ x.mag ≠ 0 := by
      have hz : posZero.key = 0 := by decide
      have hn : posZero.isNaN = false := by decide
      rw [F32.lt, hz, hn, key]
      cases x.isNaN <;> cases x.sign <;> simp <;> omega
    by_cases h : x.ge ZERO = true
    · have h1 := (ge_zero_iff x).1 h
      have h2 := sqrt_toNat h
      have hnn : ¬ (x.isNaN = true ∨ x.lt posZero = true) := by
        rw [hlt]
        rintro (h3 | ⟨h3, h4, h5⟩)
        · simp [h1.1] at h3
        · rcases h1.2 with h6 | h6
          · simp [h4] at h6
          · exact h5 h6
      refine ⟨fun h3 => absurd h3 ?_, fun h3 => absurd h3 hnn⟩
      have hn : x.mag ≤ infMag := by simpa [isNaN] using h1.1
      have hi : infMag = 255 * 2 ^ 23 := by decide
      have hb : x.bits.toNat ≤ 2 ^ 31 := by
        rw [toNat_eq]
        rcases h1.2 with h2 | h2
        · rw [h2]; simp; omega
        · rw [h2]; split <;> omega
      simp only [isNaN, decide_eq_true_eq, mag, h2]
      omega
    · have : x.sqrt = NAN := by unfold F32.sqrt; rw [if_neg h]
      rw [this]
      refine ⟨fun _ => ?_, fun _ => Cfg.nanConst_isNaN⟩
      rw [ge_zero_iff] at h
      rw [hlt]
      cases hn : x.isNaN
      · right
        refine ⟨rfl, ?_, ?_⟩
        · by_contra hc; exact h ⟨hn, Or.inl (by simpa using hc)⟩
        · intro hc; exact h ⟨hn, Or.inr hc⟩
      · left; rfl
  · intro y hx hy hle
    rw [isSignNegative] at hx hy
    simp only [F32.le, Bool.and_eq_true, Bool.not_eq_true', decide_eq_true_eq] at hle
    obtain ⟨⟨n1, n2⟩, hk⟩ := hle
    rw [key, key, hx, hy] at hk
    simp at hk
    have gx := sqrt_toNat ((ge_zero_iff x).2 ⟨n1, Or.inl hx⟩)
    have gy := sqrt_toNat ((ge_zero_iff y).2 ⟨n2, Or.inl hy⟩)
    have m1 : x.mag ≤ infMag := by simpa [isNaN] using n1
    have m2 : y.mag ≤ infMag := by simpa [isNaN] using n2
    have hi : infMag = 255 * 2 ^ 23 := by decide
    rw [toNat_eq x, hx] at gx
    rw [toNat_eq y, hy] at gy
    simp at gx gy
    have hsx : x.sqrt.sign = false := by rw [sign, gx]; simp; omega
    have hsy : y.sqrt.sign = false := by rw [sign, gy]; simp; omega
    have hmx : x.sqrt.mag = (x.mag + 0x3f800000) / 2 := by rw [mag, gx]; omega
    have hmy : y.sqrt.mag = (y.mag + 0x3f800000) / 2 := by rw [mag, gy]; omega
    have hnx : x.sqrt.isNaN = false := by rw [isNaN, hmx]; simp; omega
    have hny : y.sqrt.isNaN = false := by rw [isNaN, hmy]; simp; omega
    simp only [F32.le, hnx, hny, key, hsx, hsy, hmx, hmy]
    simp
    omega

/-- **C16, the claim is false** for all three special inputs: the bit trick has no special cases. -/
theorem C16_sqrt_special_false [Cfg] :
    F32.sqrt posZero = ⟨0x1fc00000#32⟩ ∧ F32.sqrt negZero = ⟨0x5fc00000#32⟩ ∧
    F32.sqrt posInf = ⟨0x5f800000#32⟩ ∧
    ¬ (F32.sqrt posZero).feq posZero = true ∧ ¬ (F32.sqrt negZero).feq posZero = true ∧
    F32.sqrt posInf ≠ posInf := by
  have h1 : F32.sqrt posZero = ⟨0x1fc00000#32⟩ := eval_eq (by kernel_rfl)
  have h2 : F32.sqrt negZero = ⟨0x5fc00000#32⟩ := eval_eq (by kernel_rfl)
  have h3 : F32.sqrt posInf = ⟨0x5f800000#32⟩ := eval_eq (by kernel_rfl)
  refine ⟨h1, h2, h3, ?_, ?_, ?_⟩
  · rw [h1]; decide
  · rw [h2]; decide
  · rw [h3]; decide

/-- **C16, what does hold**: the root of `+0.0` is a positive number below `10^-19`, and the root of every
subnormal is below `2^-63`. -/
theorem C16_sqrt_small [Cfg] (x : F32) (hs : x.isSignNegative = false) (h : x.val < 1 / 2 ^ 126) :
    x.isFinite = true → x.sqrt.isFinite = true ∧ 0 < x.sqrt.val ∧ x.sqrt.val < 1 / 2 ^ 62 := by
  intro hf
  rw [isSignNegative] at hs
  have hm : x.mag < 2 ^ 23 := by
    have := (lt_pow_iff (x := x) (k := 1) (by norm_num)).1 (by
      rw [abs_of_nonneg (by rw [val_of_pos hs]; exact mval_nonneg _)]
      refine lt_of_lt_of_eq h ?_; norm_num)
    omega
  have g := sqrt_toNat ((ge_zero_iff x).2 ⟨not_nan_of_finite hf, Or.inl hs⟩)
  rw [toNat_eq x, hs] at g
  simp at g
  obtain ⟨h1, h2⟩ := val_of_bits (y := x.sqrt) (E := 63) (F := 2 ^ 22 + x.mag / 2) (by omega) (by omega) (by omega)
    (by rw [g]; omega)
  refine ⟨h1.1, lt_of_lt_of_le (by positivity) h1.2, ?_⟩
  have hF : (((2 ^ 22 + x.mag / 2 : Nat)) : ℚ) < 2 ^ 23 := by
    have : 2 ^ 22 + x.mag / 2 < 2 ^ 23 := by omega
    exact_mod_cast this
  rw [h2]
  norm_num at hF ⊢
  linarith

example : (⟨0x00000001#32⟩ : F32).isSignNegative = false ∧ (⟨0x00000001#32⟩ : F32).val < 1 / 2 ^ 126 := by
  refine ⟨by decide, ?_⟩
  rw [val_of_units (u := 1) (by decide +kernel)]; norm_num

/-! ### `invsqrt` -/

theorem invsqrt_ok [Cfg] {x : F32} (h : x.bits.toNat / 2 ≤ 0x5f375a86) :
    ∃ y, x.invsqrt = .ok y ∧ y.bits.toNat = 0x5f375a86 - x.bits.toNat / 2 := by
  have hs : (x.toBits >>> 1).toNat = x.bits.toNat / 2 := by
    rw [BitVec.toNat_ushiftRight, Nat.shiftRight_eq_div_pow, pow_one, toBits]
  refine ⟨fromBits (BitVec.ofNat 32 (0x5f375a86 - x.bits.toNat / 2)), ?_, ?_⟩
  · unfold F32.invsqrt u32chk
    rw [hs, if_pos (by omega),
      show (0x5f375a86 : Int) - (x.bits.toNat / 2 : Nat) = ((0x5f375a86 - x.bits.toNat / 2 : Nat) : Int) by omega,
      BitVec.ofInt_natCast, ok_bind]
  · rw [fromBits, BitVec.toNat_ofNat, Nat.mod_eq_of_lt (by omega)]

/-- **C18.** With overflow checks `invsqrt` panics exactly when `to_bits(x) >> 1` exceeds the magic constant,
i.e. for sign-negative inputs of magnitude at least `0x3e6eb50e`; without overflow checks it never panics. -/
theorem C18_invsqrt_panic [Cfg] (x : F32) :
    (Fails x.invsqrt ↔ Cfg.overflowChecks = true ∧ 0x5f375a86 < x.toBits.toNat / 2) ∧
    (0x5f375a86 < x.toBits.toNat / 2 ↔ x.isSignNegative = true ∧ 0x3e6eb50e ≤ x.mag) := by
  have hs : (x.toBits >>> 1).toNat = x.bits.toNat / 2 := by
    rw [BitVec.toNat_ushiftRight, Nat.shiftRight_eq_div_pow, pow_one, toBits]
  constructor
  · unfold Fails
    rcases Nat.lt_or_ge 0x5f375a86 (x.toBits.toNat / 2) with h | h
    · have h' : (0x5f375a86 : Nat) < x.bits.toNat / 2 := h
      unfold F32.invsqrt u32chk
      rw [hs, if_neg (by omega)]
      cases hc : Cfg.overflowChecks
      · simp
      · simp [h]
    · obtain ⟨y, hy, _⟩ := invsqrt_ok (x := x) h
      rw [hy]
      simp
      intro _; exact h
  · rw [isSignNegative, toBits, toNat_eq]
    have := mag_lt x
    cases x.sign <;> simp <;> omega

/-- The numeric threshold: the first panicking value is `-0.2331...`. -/
theorem C18_threshold (x : F32) (_hx : x.isFinite = true) (h : 0x5f375a86 < x.toBits.toNat / 2) :
    x.val ≤ -(233 / 1000) := by
  obtain ⟨hs, hm⟩ := (by
    rw [toBits, toNat_eq] at h
    have := mag_lt x
    revert h; cases x.sign <;> simp <;> omega : x.sign = true ∧ 0x3e6eb50e ≤ x.mag)
  have h1 : mval 0x3e6eb50e ≤ mval x.mag := mval_le.2 hm
  have h2 : (233 / 1000 : ℚ) ≤ mval 0x3e6eb50e := by
    rw [mval, show magU 0x3e6eb50e = 15643918 * 2 ^ 123 by decide +kernel]; norm_num
  rw [val_of_neg hs]; linarith

example : (0x5f375a86 : Nat) < (⟨0xbf800000#32⟩ : F32).toBits.toNat / 2 := by decide

theorem cubic_upper {a t : ℚ} (ht : 0 ≤ 1 + t) (ha : 0 ≤ a - t / 2) :
    (1 + t) * (a - t / 2) ^ 2 ≤ ((1 + 2 * a) / 3) ^ 3 := by
  nlinarith [mul_nonneg (add_nonneg ht (mul_nonneg (by norm_num : (0:ℚ) ≤ 8) ha)) (sq_nonneg ((1 + t) - (a - t / 2))),
    mul_nonneg ht (sq_nonneg ((1 + t) - (a - t / 2))), mul_nonneg ha (sq_nonneg ((1 + t) - (a - t / 2)))]

/-- Case `e` even, no borrow. -/
theorem invsqrt_ineq1 {t r : ℚ} (ht : 0 ≤ t) (ht2 : t ≤ 2 * 3627654 / 2 ^ 23) (hr : 0 ≤ r) (hr1 : r ≤ 1 / 2 ^ 23) :
    0.93 ≤ (1 + (t + r)) * (1 + 3627654 / 2 ^ 23 - t / 2) ^ 2 / 2 ∧
    (1 + (t + r)) * (1 + 3627654 / 2 ^ 23 - t / 2) ^ 2 / 2 ≤ 1.07 := by
  have h1 := cubic_upper (a := 1 + 3627654 / 2 ^ 23) (t := t) (by linarith) (by linarith)
  have h2 : (1 + 3627654 / 2 ^ 23 - t / 2) ^ 2 ≤ (3 / 2 : ℚ) ^ 2 := by
    apply pow_le_pow_left₀ <;> norm_num at * <;> linarith
  have h3 : 0 ≤ (1 + 3627654 / 2 ^ 23 - t / 2) ^ 2 := sq_nonneg _
  constructor
  · have : 0 ≤ r * (1 + 3627654 / 2 ^ 23 - t / 2) ^ 2 := mul_nonneg hr h3
    norm_num at *
    nlinarith [mul_nonneg (mul_nonneg ht (sub_nonneg.2 ht2)) (sub_nonneg.2 ht2)]
  · have : r * (1 + 3627654 / 2 ^ 23 - t / 2) ^ 2 ≤ 1 / 2 ^ 23 * (3 / 2 : ℚ) ^ 2 :=
      mul_le_mul hr1 h2 h3 (by norm_num)
    norm_num at *
    nlinarith

/-- Case `e` even, with borrow. -/
theorem invsqrt_ineq2 {t r : ℚ} (ht : 2 * 3627654 / 2 ^ 23 ≤ t) (ht2 : t ≤ 1) (hr : 0 ≤ r) (hr1 : r ≤ 1 / 2 ^ 23) :
    0.93 ≤ (1 + (t + r)) * (2 + 3627654 / 2 ^ 23 - t / 2) ^ 2 / 8 ∧
    (1 + (t + r)) * (2 + 3627654 / 2 ^ 23 - t / 2) ^ 2 / 8 ≤ 1.07 := by
  have h1 := cubic_upper (a := 2 + 3627654 / 2 ^ 23) (t := t) (by linarith) (by linarith)
  have h2 : (2 + 3627654 / 2 ^ 23 - t / 2) ^ 2 ≤ (3 : ℚ) ^ 2 := by
    apply pow_le_pow_left₀ <;> norm_num at * <;> linarith
  have h3 : 0 ≤ (2 + 3627654 / 2 ^ 23 - t / 2) ^ 2 := sq_nonneg _
  constructor
  · have : 0 ≤ r * (2 + 3627654 / 2 ^ 23 - t / 2) ^ 2 := mul_nonneg hr h3
    norm_num at *
    nlinarith [mul_nonneg (mul_nonneg (sub_nonneg.2 ht) (sub_nonneg.2 ht2)) (sub_nonneg.2 ht2)]
  · have : r * (2 + 3627654 / 2 ^ 23 - t / 2) ^ 2 ≤ 1 / 2 ^ 23 * (3 : ℚ) ^ 2 :=
      mul_le_mul hr1 h2 h3 (by norm_num)
    norm_num at *
    nlinarith

/-- Case `e` odd. -/
theorem invsqrt_ineq3 {t r : ℚ} (ht : 0 ≤ t) (ht2 : t ≤ 1) (hr : 0 ≤ r) (hr1 : r ≤ 1 / 2 ^ 23) :
    0.93 ≤ (1 + (t + r)) * (3 / 2 + 3627654 / 2 ^ 23 - t / 2) ^ 2 / 4 ∧
    (1 + (t + r)) * (3 / 2 + 3627654 / 2 ^ 23 - t / 2) ^ 2 / 4 ≤ 1.07 := by
  have h1 := cubic_upper (a := 3 / 2 + 3627654 / 2 ^ 23) (t := t) (by linarith) (by linarith)
  have h2 : (3 / 2 + 3627654 / 2 ^ 23 - t / 2) ^ 2 ≤ (3 : ℚ) ^ 2 := by
    apply pow_le_pow_left₀ <;> norm_num at * <;> linarith
  have h3 : 0 ≤ (3 / 2 + 3627654 / 2 ^ 23 - t / 2) ^ 2 := sq_nonneg _
  constructor
  · have : 0 ≤ r * (3 / 2 + 3627654 / 2 ^ 23 - t / 2) ^ 2 := mul_nonneg hr h3
    norm_num at *
    nlinarith [mul_nonneg (mul_nonneg ht (sub_nonneg.2 ht2)) (sub_nonneg.2 ht2)]
  · have : r * (3 / 2 + 3627654 / 2 ^ 23 - t / 2) ^ 2 ≤ 1 / 2 ^ 23 * (3 : ℚ) ^ 2 :=
      mul_le_mul hr1 h2 h3 (by norm_num)
    norm_num at *
    nlinarith

theorem invsqrt_bounds [Cfg] {x : F32} (h : PosNormal x) :
    ∃ y, x.invsqrt = .ok y ∧ PosNormal y ∧ 0.93 ≤ x.val * y.val ^ 2 ∧ x.val * y.val ^ 2 ≤ 1.07 := by
  obtain ⟨e, f, he1, he2, hf, hm, hb, hv⟩ := posNormal_split h
  obtain ⟨y, hy, hyb⟩ := invsqrt_ok (x := x) (by omega)
  refine ⟨y, hy, ?_⟩
  rw [hb] at hyb
  obtain ⟨g, r, hgr, hr⟩ : ∃ g r, f = 2 * g + r ∧ r ≤ 1 := ⟨f / 2, f % 2, by omega, by omega⟩
  have hfq : (f : ℚ) = 2 * g + r := by exact_mod_cast hgr
  have hrq : (r : ℚ) / 2 ^ 23 ≤ 1 / 2 ^ 23 := by
    apply div_le_div_of_nonneg_right _ (by positivity); exact_mod_cast hr
  have hr0 : (0 : ℚ) ≤ r / 2 ^ 23 := by positivity
  have hg0 : (0 : ℚ) ≤ 2 * g / 2 ^ 23 := by positivity
  have hg1 : (2 * g : ℚ) / 2 ^ 23 ≤ 1 := by
    rw [div_le_one (by positivity)]
    have : 2 * g ≤ 2 ^ 23 := by omega
    exact_mod_cast this
  rcases Nat.even_or_odd' e with ⟨c, hc | hc⟩
  · by_cases hk : g ≤ 3627654
    · obtain ⟨h1, h2⟩ := val_of_bits (y := y) (E := 190 - c) (F := 3627654 - g) (by omega) (by omega) (by omega)
        (by rw [hyb]; omega)
      refine ⟨h1, ?_⟩
      have hp : (2 : ℚ) ^ (e - 1) * (2 ^ (190 - c - 1)) ^ 2 = 2 ^ 377 := by
        rw [← pow_mul, ← pow_add]; congr 1; omega
      have hgk : (2 * g : ℚ) / 2 ^ 23 ≤ 2 * 3627654 / 2 ^ 23 := by
        apply div_le_div_of_nonneg_right _ (by positivity)
        have : 2 * g ≤ 2 * 3627654 := by omega
        exact_mod_cast this
      have := invsqrt_ineq1 hg0 hgk hr0 hrq
      have e1 : x.val * y.val ^ 2 = (1 + (2 * g / 2 ^ 23 + r / 2 ^ 23)) * (1 + 3627654 / 2 ^ 23 - 2 * g / 2 ^ 23 / 2) ^ 2 / 2 := by
        rw [hv, h2, hfq, Nat.cast_sub hk, Nat.cast_ofNat]
        rw [show (2 ^ 23 + (2 * (g : ℚ) + r)) * 2 ^ (e - 1) / 2 ^ 149 * ((2 ^ 23 + (3627654 - (g : ℚ))) * 2 ^ (190 - c - 1) / 2 ^ 149) ^ 2
          = (2 ^ 23 + (2 * (g : ℚ) + r)) * (2 ^ 23 + (3627654 - (g : ℚ))) ^ 2 * (2 ^ (e - 1) * (2 ^ (190 - c - 1)) ^ 2) / 2 ^ 447 by ring,
          hp]
        ring
      rw [e1]; exact this
    · obtain ⟨h1, h2⟩ := val_of_bits (y := y) (E := 189 - c) (F := 2 ^ 23 + 3627654 - g) (by omega) (by omega) (by omega)
        (by rw [hyb]; omega)
      refine ⟨h1, ?_⟩
      have hp : (2 : ℚ) ^ (e - 1) * (2 ^ (189 - c - 1)) ^ 2 = 2 ^ 375 := by
        rw [← pow_mul, ← pow_add]; congr 1; omega
      have hgk : (2 * 3627654 / 2 ^ 23 : ℚ) ≤ (2 * g : ℚ) / 2 ^ 23 := by
        apply div_le_div_of_nonneg_right _ (by positivity)
        have : 2 * 3627654 ≤ 2 * g := by omega
        exact_mod_cast this
      have := invsqrt_ineq2 hgk hg1 hr0 hrq
      have e1 : x.val * y.val ^ 2 = (1 + (2 * g / 2 ^ 23 + r / 2 ^ 23)) * (2 + 3627654 / 2 ^ 23 - 2 * g / 2 ^ 23 / 2) ^ 2 / 8 := by
        rw [hv, h2, hfq, Nat.cast_sub (by omega), Nat.cast_add, Nat.cast_pow, Nat.cast_ofNat, Nat.cast_ofNat]
        rw [show (2 ^ 23 + (2 * (g : ℚ) + r)) * 2 ^ (e - 1) / 2 ^ 149 * ((2 ^ 23 + (2 ^ 23 + 3627654 - (g : ℚ))) * 2 ^ (189 - c - 1) / 2 ^ 149) ^ 2
          = (2 ^ 23 + (2 * (g : ℚ) + r)) * (2 ^ 23 + (2 ^ 23 + 3627654 - (g : ℚ))) ^ 2 * (2 ^ (e - 1) * (2 ^ (189 - c - 1)) ^ 2) / 2 ^ 447 by ring,
          hp]
        ring
      rw [e1]; exact this
  · obtain ⟨h1, h2⟩ := val_of_bits (y := y) (E := 189 - c) (F := 2 ^ 22 + 3627654 - g) (by omega) (by omega) (by omega)
      (by rw [hyb]; omega)
    refine ⟨h1, ?_⟩
    have hp : (2 : ℚ) ^ (e - 1) * (2 ^ (189 - c - 1)) ^ 2 = 2 ^ 376 := by
      rw [← pow_mul, ← pow_add]; congr 1; omega
    have := invsqrt_ineq3 hg0 hg1 hr0 hrq
    have e1 : x.val * y.val ^ 2 = (1 + (2 * g / 2 ^ 23 + r / 2 ^ 23)) * (3 / 2 + 3627654 / 2 ^ 23 - 2 * g / 2 ^ 23 / 2) ^ 2 / 4 := by
      rw [hv, h2, hfq, Nat.cast_sub (by omega), Nat.cast_add, Nat.cast_pow, Nat.cast_ofNat, Nat.cast_ofNat]
      rw [show (2 ^ 23 + (2 * (g : ℚ) + r)) * 2 ^ (e - 1) / 2 ^ 149 * ((2 ^ 23 + (2 ^ 22 + 3627654 - (g : ℚ))) * 2 ^ (189 - c - 1) / 2 ^ 149) ^ 2
        = (2 ^ 23 + (2 * (g : ℚ) + r)) * (2 ^ 23 + (2 ^ 22 + 3627654 - (g : ℚ))) ^ 2 * (2 ^ (e - 1) * (2 ^ (189 - c - 1)) ^ 2) / 2 ^ 447 by ring,
        hp]
      ring
    rw [e1]; exact this

/-- **C17.** On every positive normal number `invsqrt` returns (in every build mode) a finite positive `y`
with `0.93 <= x * y^2 <= 1.07`; hence `y` is within 3.6% of `1 / √x`. -/
theorem C17_invsqrt [Cfg] (x : F32) (h : PosNormal x) :
    ∃ y, x.invsqrt = .ok y ∧ y.isFinite = true ∧ 0 < y.val ∧
      0.93 ≤ x.val * y.val ^ 2 ∧ x.val * y.val ^ 2 ≤ 1.07 ∧
      |(y.val : ℝ) - 1 / Real.sqrt x.val| ≤ 0.036 * (1 / Real.sqrt x.val) := by
  obtain ⟨y, hy, h1, h2, h3⟩ := invsqrt_bounds h
  have hp : 0 < y.val := lt_of_lt_of_le (by positivity) h1.2
  have hx : 0 < x.val := lt_of_lt_of_le (by positivity) h.2
  refine ⟨y, hy, h1.1, hp, h2, h3, ?_⟩
  have hp' : (0 : ℝ) < y.val := by exact_mod_cast hp
  have hx' : (0 : ℝ) < x.val := by exact_mod_cast hx
  have hs : 0 < Real.sqrt x.val := Real.sqrt_pos.2 hx'
  have h2' : (0.93 : ℝ) ≤ x.val * y.val ^ 2 := by
    have := (Rat.cast_le (K := ℝ)).2 h2; push_cast at this; norm_num at this ⊢; exact this
  have h3' : (x.val * y.val ^ 2 : ℝ) ≤ 1.07 := by
    have := (Rat.cast_le (K := ℝ)).2 h3; push_cast at this; norm_num at this ⊢; exact this
  set s := Real.sqrt x.val with hsd
  have hss : s ^ 2 = x.val := Real.sq_sqrt hx'.le
  rw [← hss, ← mul_pow] at h2' h3'
  have hsy : 0 < s * y.val := mul_pos hs hp'
  have u1 : s * y.val ≤ 1.036 := by nlinarith
  have u2 : 0.964 ≤ s * y.val := by nlinarith
  have e1 : (y.val : ℝ) = (s * y.val) * (1 / s) := by field_simp
  have hs1 : 0 < 1 / s := by positivity
  rw [abs_le]
  constructor <;> nlinarith

/-- `invsqrt(4.0)` returns a float just below one half. -/
example [Cfg] : (⟨0x40800000#32⟩ : F32).invsqrt = .ok ⟨0x3ef75a86#32⟩ :=
  eval_ok (by kernel_rfl) (by decide)

/-! ### `inv` -/

theorem inv_toNat [Cfg] {x : F32} (h : x.bits.toNat ≤ 0x7f000000) :
    x.inv.bits.toNat = 0x7f000000 - x.bits.toNat := by
  unfold F32.inv
  rw [toBits, if_pos h, fromBits, BitVec.toNat_sub, show (0x7f000000#32).toNat = 0x7f000000 by rfl]
  omega

/-- **C19.** For a positive normal `x` up to `2^126`, `x * inv(x)` lies in `[1, 9/8]` exactly. -/
theorem C19_inv [Cfg] (x : F32) (h : PosNormal x) (h2 : x.val ≤ 2 ^ 126) :
    x.inv.isFinite = true ∧ 1 ≤ x.val * x.inv.val ∧ x.val * x.inv.val ≤ 9 / 8 := by
  obtain ⟨e, f, he1, he2, hf, hm, hb, hv⟩ := posNormal_split h
  have hx : 0 < x.val := lt_of_lt_of_le (by positivity) h.2
  have hle : x.mag ≤ 253 * 2 ^ 23 := by
    by_contra hc
    have := mval_lt.2 (lt_of_not_ge hc)
    rw [mval_pow (by norm_num)] at this
    rw [val_of_pos (posNormal_mag h).1] at h2
    norm_num at this h2
    linarith
  have hi := inv_toNat (x := x) (by omega)
  rw [hb] at hi
  rcases Nat.eq_zero_or_pos f with h0 | h0
  · obtain ⟨h3, h4⟩ := val_of_bits (y := x.inv) (E := 254 - e) (F := 0) (by omega) (by omega) (by omega)
      (by rw [hi]; omega)
    refine ⟨h3.1, ?_⟩
    have hp : (2 : ℚ) ^ (e - 1) * 2 ^ (254 - e - 1) = 2 ^ 252 := by
      rw [← pow_add]; congr 1; omega
    have e1 : x.val * x.inv.val = 1 := by
      rw [hv, h4, h0]
      rw [show ((2 : ℚ) ^ 23 + (0 : Nat)) * 2 ^ (e - 1) / 2 ^ 149 * ((2 ^ 23 + (0 : Nat)) * 2 ^ (254 - e - 1) / 2 ^ 149)
        = 2 ^ 46 * (2 ^ (e - 1) * 2 ^ (254 - e - 1)) / 2 ^ 298 by push_cast; ring, hp]
      norm_num
    rw [e1]; norm_num
  · obtain ⟨h3, h4⟩ := val_of_bits (y := x.inv) (E := 253 - e) (F := 2 ^ 23 - f) (by omega) (by omega) (by omega)
      (by rw [hi]; omega)
    refine ⟨h3.1, ?_⟩
    have hp : (2 : ℚ) ^ (e - 1) * 2 ^ (253 - e - 1) = 2 ^ 251 := by
      rw [← pow_add]; congr 1; omega
    have hfq : (f : ℚ) ≤ 2 ^ 23 := by exact_mod_cast hf.le
    have hf0 : (0 : ℚ) ≤ f := by positivity
    have e1 : x.val * x.inv.val = (2 ^ 23 + f) * (2 * 2 ^ 23 - f) / 2 ^ 47 := by
      rw [hv, h4, Nat.cast_sub hf.le, Nat.cast_pow, Nat.cast_ofNat]
      rw [show ((2 : ℚ) ^ 23 + f) * 2 ^ (e - 1) / 2 ^ 149 * ((2 ^ 23 + (2 ^ 23 - f)) * 2 ^ (253 - e - 1) / 2 ^ 149)
        = (2 ^ 23 + f) * (2 * 2 ^ 23 - f) * (2 ^ (e - 1) * 2 ^ (253 - e - 1)) / 2 ^ 298 by ring, hp]
      ring
    rw [e1, le_div_iff₀ (by positivity), div_le_iff₀ (by positivity)]
    constructor
    · nlinarith [mul_nonneg hf0 (sub_nonneg.2 hfq)]
    · nlinarith [sq_nonneg ((f : ℚ) - 2 ^ 22)]

example : PosNormal ⟨0x40400000#32⟩ ∧ (⟨0x40400000#32⟩ : F32).val ≤ 2 ^ 126 := by
  refine ⟨posNormal_iff.2 (by decide), ?_⟩
  rw [val_of_units (u := 3 * 2 ^ 149) (by decide +kernel)]; norm_num
/-- `inv(3.0) = 0.375`, 12.5% above `1/3`. -/
example [Cfg] : F32.inv ⟨0x40400000#32⟩ = ⟨0x3ec00000#32⟩ := eval_eq (by kernel_rfl)

/-- **C20, exact behaviour on negatives**: `inv` returns `+0.0` for *every* negative finite input and for
`-0.0`, `-0.0` for `-inf`. -/
theorem C20_inv_negative [Cfg] (x : F32) (hs : x.isSignNegative = true) :
    (x.isFinite = true → x.inv = posZero) ∧ (x = negInf → x.inv = negZero) := by
  rw [isSignNegative] at hs
  constructor
  · intro hf
    unfold F32.inv
    rw [toBits, toNat_eq, hs, if_neg (by simp), if_neg (by simp [not_inf_of_finite hf]),
      if_neg (by simp [not_nan_of_finite hf])]
  · rintro rfl
    exact (eval_eq (by kernel_rfl : force (F32.inv negInf).bits.toNat = (0x80000000#32).toNat)).trans (by decide)

/-- **C20, the claim is false**: already at `-1.0` the result is zero instead of `-1`; no relative error below
100% holds on the negative half of the domain. -/
theorem C20_inv_negative_false [Cfg] :
    ¬ ∀ x : F32, x.isFinite = true → x.val ≠ 0 → (1 : ℚ) / 2 ^ 100 ≤ |x.val| → |x.val| ≤ 2 ^ 100 →
      |x.val * x.inv.val - 1| < 1 := by
  intro h
  have hv : (⟨0xbf800000#32⟩ : F32).val = -1 := by
    rw [val_of_units (u := -2 ^ 149) (by decide +kernel)]; norm_num
  have := h ⟨0xbf800000#32⟩ (by decide) (by rw [hv]; norm_num) (by rw [hv]; norm_num) (by rw [hv]; norm_num)
  rw [(C20_inv_negative _ (by decide)).1 (by decide), val_posZero] at this
  norm_num at this

/-- **C20, positive side**: beyond `2^126` the deviation is no longer bounded by 12.5%, and above `2^127` the
result is `+0.0`. -/
theorem C20_inv_large [Cfg] (x : F32) (hf : x.isFinite = true) (h : (2 : ℚ) ^ 127 < x.val) : x.inv = posZero := by
  have hs := val_pos_sign (lt_trans (by positivity) h)
  have hm : 254 * 2 ^ 23 < x.mag := by
    by_contra hc
    have := mval_le.2 (not_lt.1 hc)
    rw [mval_pow (by norm_num)] at this
    rw [val_of_pos hs] at h
    norm_num at this h
    linarith
  unfold F32.inv
  rw [toBits, toNat_eq, hs, if_neg (by simp; omega), if_neg (by simp [not_inf_of_finite hf]),
    if_neg (by simp [not_nan_of_finite hf])]

end Micromath.Props
