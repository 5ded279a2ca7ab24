import Verif.Model.Consts
import Verif.Props.Basics

/-!
# C116: constants and classification
-/

set_option exponentiation.threshold 1000

namespace Micromath.Props
open F32 Spec

/-- **C116.** Every float is exactly one of NaN, infinite, finite; the two sign predicates are complementary on every bit
pattern; `from_bits` and `to_bits` are inverse to each other. -/
theorem C116_class (x : F32) (b : BitVec 32) :
    (x.isFinite = true ↔ x.isNaN = false ∧ x.isInf = false) ∧ (x.isNaN = true → x.isInf = false) ∧
    (x.isSignNegative = true ↔ x.isSignPositive = false) ∧ (x.isSignNegative = true ↔ 2 ^ 31 ≤ x.toBits.toNat) ∧
    (x.isInf = true ↔ x = INFINITY ∨ x = NEG_INFINITY) ∧
    fromBits x.toBits = x ∧ (fromBits b).toBits = b := by
  refine ⟨?_, ?_, ?_, ?_, ?_, rfl, rfl⟩
  · simp [isFinite, isNaN, isInf]; omega
  · simp [isNaN, isInf]; omega
  · simp [isSignNegative, isSignPositive]
  · simp only [isSignNegative, F32.sign, toBits]
    exact decide_eq_true_iff
  · constructor
    · intro h
      rw [eq_pack_of_inf h]
      cases x.sign
      · exact Or.inl rfl
      · exact Or.inr rfl
    · rintro (h | h) <;> rw [h] <;> decide

theorem val_MAX : MAX.isFinite = true ∧ MAX.val = maxF := by
  have h : MAX = ⟨0x7f7fffff#32⟩ := eval_eq (n := 0x7f7fffff) (by kernel_rfl)
  rw [h]
  exact ⟨by decide, by rw [val_of_units (u := 0xffffff * 2 ^ 253) (by decide +kernel)]; norm_num [maxF]⟩

theorem val_MIN_POSITIVE : MIN_POSITIVE.isFinite = true ∧ MIN_POSITIVE.val = 1 / 2 ^ 126 := by
  have h : MIN_POSITIVE = ⟨0x00800000#32⟩ := eval_eq (n := 0x00800000) (by kernel_rfl)
  rw [h]
  exact ⟨by decide, by rw [val_of_units (u := 2 ^ 23) (by decide +kernel)]; norm_num⟩

/-- **C116.** `MIN` and `MAX` are the extreme finite values, in terms of the radix, digits and exponent constants. -/
theorem C116_limits :
    (∀ x : F32, x.isFinite = true ↔ (x.isNaN = false ∧ MIN.le x = true ∧ x.le MAX = true)) ∧
    MAX.val = (1 - 1 / (RADIX : ℚ) ^ MANTISSA_DIGITS) * (RADIX : ℚ) ^ MAX_EXP ∧ MIN = -MAX ∧
    (10 : ℚ) ^ MAX_10_EXP ≤ MAX.val ∧ MAX.val < (10 : ℚ) ^ (MAX_10_EXP + 1) := by
  obtain ⟨f, v⟩ := val_MAX
  have fm : MIN.isFinite = true := by rw [show MIN = -MAX from rfl]; exact (isFinite_neg _).trans f
  have vm : MIN.val = -maxF := by rw [show MIN = -MAX from rfl, val_neg, v]
  refine ⟨fun x => ⟨fun h => ?_, fun ⟨hn, h1, h2⟩ => ?_⟩, ?_, rfl, ?_, ?_⟩
  · have hn := not_nan_of_finite h
    have := abs_le.1 (abs_val_le_maxF h)
    refine ⟨hn, (le_iff fm h).2 ?_, (le_iff h f).2 ?_⟩
    · rw [vm]; exact this.1
    · rw [v]; exact this.2
  · rcases class_cases x with hx | hx | hx
    · exact hx
    · rw [eq_pack_of_inf hx] at h1 h2
      have e1 : MAX = ⟨0x7f7fffff#32⟩ := eval_eq (n := 0x7f7fffff) (by kernel_rfl)
      have e2 : MIN = ⟨0xff7fffff#32⟩ := eval_eq (n := 0xff7fffff) (by kernel_rfl)
      rw [e1] at h2
      rw [e2] at h1
      cases hs : x.sign
      · rw [hs] at h2; exact absurd h2 (by decide)
      · rw [hs] at h1; exact absurd h1 (by decide)
    · rw [hx] at hn; exact absurd hn (by simp)
  · rw [v]; norm_num [maxF, RADIX, MANTISSA_DIGITS, MAX_EXP]
  · rw [v]; norm_num [maxF, MAX_10_EXP]
  · rw [v]; norm_num [maxF, MAX_10_EXP]

/-- **C116.** `MIN_POSITIVE` is the least normal number: below it the distance to the neighbours no longer shrinks. -/
theorem C116_min_positive :
    MIN_POSITIVE.val = (RADIX : ℚ) ^ (MIN_EXP - 1) ∧
    (∀ x : F32, PosNormal x ↔ x.isFinite = true ∧ MIN_POSITIVE.le x = true) ∧
    MIN_POSITIVE.val ≤ (10 : ℚ) ^ MIN_10_EXP ∧ (10 : ℚ) ^ (MIN_10_EXP - 1) < MIN_POSITIVE.val := by
  obtain ⟨f, v⟩ := val_MIN_POSITIVE
  refine ⟨?_, fun x => ?_, ?_, ?_⟩
  · rw [v]; norm_num [RADIX, MIN_EXP]
  · constructor
    · rintro ⟨h1, h2⟩
      exact ⟨h1, (le_iff f h1).2 (by rw [v]; exact h2)⟩
    · rintro ⟨h1, h2⟩
      exact ⟨h1, by rw [← v]; exact (le_iff f h1).1 h2⟩
  · rw [v]; norm_num [MIN_10_EXP]
  · rw [v]; norm_num [MIN_10_EXP]

/-- **C116.** `EPSILON` is the distance from one to the next float. -/
theorem C116_epsilon [Cfg] :
    EPSILON.val = (RADIX : ℚ) ^ (1 - (MANTISSA_DIGITS : Int)) ∧ IsVal (ONE + EPSILON) (1 + EPSILON.val) ∧
    ∀ x : F32, 1 < x.val → 1 + EPSILON.val ≤ x.val := by
  have v : EPSILON.val = 1 / 2 ^ 23 := by
    rw [val_of_units (u := 2 ^ 126) (by decide +kernel)]; norm_num
  have h1 : (⟨0x3f800001#32⟩ : F32).val = 1 + 1 / 2 ^ 23 := by
    rw [val_of_units (u := 2 ^ 149 + 2 ^ 126) (by decide +kernel)]; norm_num
  refine ⟨by rw [v]; norm_num [RADIX, MANTISSA_DIGITS], ?_, fun x hx => ?_⟩
  · have := add_exact (x := ONE) (y := EPSILON) (by decide) (by decide)
      (by rw [v, show ONE.val = 1 from val_one]; norm_num [maxF, abs_le])
      (by rw [v, show ONE.val = 1 from val_one, ← h1]; exact rep_val _)
    rw [show ONE.val = 1 from val_one] at this
    exact this
  · rw [v, ← h1]
    have hs : x.sign = false := val_pos_sign (by linarith)
    rw [val_of_pos hs] at hx ⊢
    rw [← val_one, val_of_pos (x := one) rfl, mval_lt] at hx
    rw [val_of_pos (x := ⟨0x3f800001#32⟩) (by decide), mval_le]
    have a : one.mag = 0x3f800000 := by decide
    have b : (⟨0x3f800001#32⟩ : F32).mag = 0x3f800001 := by decide
    rw [a] at hx
    rw [b]
    exact hx

/-- **C116.** Six decimal digits survive: different multiples `m s`, `n s` with `m, n <= 10^6` of any common unit `s = p/q` in
range, for example of a power of ten, are different floats. Seven digits do not. -/
theorem C116_digits {m n p q : Nat} (hq : 0 < q) (hs : 1 / 2 ^ 149 < (p : ℚ) / q) (ho : 10 ^ DIGITS * ((p : ℚ) / q) < ovf)
    (hm : m ≤ 10 ^ DIGITS) (hn : n ≤ 10 ^ DIGITS) (h : m ≠ n) :
    (lit (m * p) q).val ≠ (lit (n * p) q).val ∧ lit 8589973000 1 = lit 8589974000 1 := by
  refine ⟨?_, eval_eq (by kernel_rfl) |>.trans (eval_eq (n := 0x50000026) (by kernel_rfl)).symm⟩
  obtain ⟨s, hsd⟩ : ∃ s : ℚ, s = (p : ℚ) / q := ⟨_, rfl⟩
  have e : ∀ k : Nat, ((k * p : Nat) : ℚ) / q = k * s := fun k => by rw [hsd]; push_cast; ring
  rw [← hsd] at hs ho
  have s0 : 0 < s := lt_trans (by norm_num) hs
  have hb : ∀ {k : Nat}, k ≤ 10 ^ DIGITS → (k : ℚ) * s ≤ 10 ^ DIGITS * s := fun {k} hk =>
    mul_le_mul_of_nonneg_right (by exact_mod_cast hk) s0.le
  have key : ∀ {k : Nat}, k ≤ 10 ^ DIGITS → |(lit (k * p) q).val - k * s| < s / 2 := by
    intro k hk
    obtain ⟨-, hv⟩ := lit_val (n := k * p) hq (by rw [e]; exact lt_of_le_of_lt (hb hk) ho)
    rw [hv, e]
    refine lt_of_le_of_lt (RN_err _) (max_lt ?_ ?_)
    · norm_num at hs ⊢; linarith
    · have h0 : (0 : ℚ) ≤ k * s := by positivity
      rw [abs_of_nonneg h0]
      have := hb hk
      norm_num [DIGITS] at this ⊢
      linarith
  intro heq
  have a := abs_lt.1 (key hm)
  have b := abs_lt.1 (key hn)
  rw [heq] at a
  rcases Nat.lt_or_gt_of_ne h with h | h
  · have : (m : ℚ) + 1 ≤ n := by exact_mod_cast h
    nlinarith
  · have : (n : ℚ) + 1 ≤ m := by exact_mod_cast h
    nlinarith

/-- The hypotheses hold for tenths of a thousandth. -/
example : (lit (123456 * 1) 10000).val ≠ (lit (123457 * 1) 10000).val :=
  (C116_digits (p := 1) (q := 10000) (by norm_num) (by norm_num) (by norm_num [DIGITS, ovf]) (by norm_num [DIGITS]) (by norm_num [DIGITS])
    (by norm_num)).1

end Micromath.Props
