import Verif.Props.Ln

/-!
# C33, C85 - C88: `powf`
-/

set_option exponentiation.threshold 1000

namespace Micromath.Props
open F32 Spec RealAux

/-! ### `is_integer` and `is_even` -/

/-- `is_integer` on the magnitude bits. -/
theorem isInteger_iff (n : F32) :
    n.isInteger = true ↔ 2 ^ (23 - (max n.extractExponentValue 0).toNat % 32) ∣ n.mag := by
  have h : (oshl n.toBits (max n.extractExponentValue 0).toNat &&& MANTISSA_MASK).toNat =
      n.mag % 2 ^ (23 - (max n.extractExponentValue 0).toNat % 32) * 2 ^ ((max n.extractExponentValue 0).toNat % 32) := by
    rw [toNat_oshl_mant, mul_pow_mod, toBits, toNat_mod_low n (by omega)]
  have h2 : n.isInteger = true ↔ (oshl n.toBits (max n.extractExponentValue 0).toNat &&& MANTISSA_MASK).toNat = 0 := by
    unfold isInteger
    simp only [beq_iff_eq]
    constructor
    · intro e; rw [e]; rfl
    · intro e; exact BitVec.eq_of_toNat_eq e
  rw [h2, h, Nat.dvd_iff_mod_eq_zero, mul_eq_zero]
  constructor
  · rintro (h | h)
    · exact h
    · exact absurd h (by positivity)
  · exact Or.inl

/-- `is_integer` from 1 on: divisibility by the largest power of `2^32` below the number. -/
theorem isInteger_large {n : F32} (k : Nat) (h1 : 2 ^ (32 * k) ≤ |n.val|) (h2 : |n.val| < 2 ^ (32 * k + 32)) (hk : k ≤ 3) :
    n.isInteger = true ↔ ∃ z : ℤ, n.val = z * 2 ^ (32 * k) := by
  have m1 := (pow_le_iff (x := n) (k := 32 * k + 127) (by omega)).1 (by
    refine le_trans (le_of_eq ?_) h1
    rw [show (((32 * k + 127 : Nat) : Int) - 127) = ((32 * k : Nat) : Int) by omega, zpow_natCast])
  have m2 := (lt_pow_iff (x := n) (k := 32 * k + 32 + 127) (by omega)).1 (by
    refine lt_of_lt_of_eq h2 ?_
    rw [show (((32 * k + 32 + 127 : Nat) : Int) - 127) = ((32 * k + 32 : Nat) : Int) by omega, zpow_natCast])
  obtain ⟨E, hE⟩ : ∃ E, E = n.mag / 2 ^ 23 := ⟨_, rfl⟩
  obtain ⟨s, hs⟩ : ∃ s, E = 127 + 32 * k + s := ⟨E - 127 - 32 * k, by omega⟩
  have hs32 : s < 32 := by omega
  have he : (max n.extractExponentValue 0).toNat % 32 = s := by
    rw [extractExponentValue_eq, ← hE]; omega
  rw [isInteger_iff, he]
  obtain ⟨f, hf⟩ : ∃ f, f = n.mag % 2 ^ 23 := ⟨_, rfl⟩
  have hmag : n.mag = E * 2 ^ 23 + f := by omega
  have hv : |n.val| = ((2 ^ 23 + f) * 2 ^ s : Nat) * 2 ^ (32 * k) / 2 ^ 23 := by
    rw [abs_val, mval, magU, if_neg (by omega), ← hE, ← hf, hs]
    have : (2 : ℚ) ^ (127 + 32 * k + s - 1) = 2 ^ 126 * 2 ^ (32 * k) * 2 ^ s := by
      rw [← pow_add, ← pow_add]; congr 1; omega
    push_cast
    rw [this]
    ring
  have hd : 2 ^ (23 - s) ∣ n.mag ↔ 2 ^ 23 ∣ (2 ^ 23 + f) * 2 ^ s := by
    rw [hmag]
    have a : 2 ^ (23 - s) ∣ E * 2 ^ 23 + f ↔ 2 ^ (23 - s) ∣ 2 ^ 23 + f := by
      have d : 2 ^ (23 - s) ∣ 2 ^ 23 := pow_dvd_pow 2 (by omega)
      rw [Nat.dvd_add_right (d.mul_left E), Nat.dvd_add_right d]
    rw [a]
    rcases le_or_gt s 23 with h | h
    · have : 2 ^ 23 = 2 ^ (23 - s) * 2 ^ s := by rw [← pow_add]; congr 1; omega
      conv_rhs => rw [this]
      rw [Nat.mul_dvd_mul_iff_right (by positivity)]
      rw [← this]
    · rw [Nat.sub_eq_zero_of_le h.le, pow_zero]
      exact ⟨fun _ => (pow_dvd_pow 2 h.le).mul_left _, fun _ => one_dvd _⟩
  rw [hd]
  have hp : (2 : ℚ) ^ (32 * k) ≠ 0 := by positivity
  constructor
  · rintro ⟨z, hz⟩
    have hv' : |n.val| = z * 2 ^ (32 * k) := by rw [hv, hz]; push_cast; ring
    rcases abs_choice n.val with h | h
    · exact ⟨z, by rw [← h, hv']; push_cast; ring⟩
    · refine ⟨-z, ?_⟩
      rw [h] at hv'
      push_cast
      linarith
  · rintro ⟨z, hz⟩
    rw [hz, abs_mul, abs_of_pos (by positivity : (0 : ℚ) < 2 ^ (32 * k))] at hv
    have : (((2 ^ 23 + f) * 2 ^ s : Nat) : ℚ) = 2 ^ 23 * |(z : ℚ)| := by
      field_simp at hv
      linarith
    rw [← Int.cast_abs, ← Nat.cast_natAbs] at this
    exact ⟨z.natAbs, by exact_mod_cast this⟩

/-- `is_integer` below 1 accepts exactly the zeros and the powers of two. -/
theorem isInteger_small {n : F32} (h : |n.val| < 1) :
    n.isInteger = true ↔ n.val = 0 ∨ ∃ j : Nat, j ≤ 126 ∧ |n.val| = 1 / 2 ^ j := by
  have m2 := (lt_pow_iff (x := n) (k := 127) (by omega)).1 (by simpa using h)
  have he : (max n.extractExponentValue 0).toNat = 0 := by rw [extractExponentValue_eq]; omega
  rw [isInteger_iff, he, Nat.zero_mod, Nat.sub_zero]
  have hp : ∀ E : Nat, 1 ≤ E → E ≤ 127 → mval (E * 2 ^ 23) = 1 / 2 ^ (127 - E) := by
    intro E h1 h2
    rw [mval_pow h1, show (E : Int) - 127 = -((127 - E : Nat) : Int) by omega, zpow_neg, zpow_natCast, one_div]
  constructor
  · rintro ⟨E, hE⟩
    rcases Nat.eq_zero_or_pos E with h0 | h0
    · left; rw [val_eq_zero, hE, h0, mul_zero]
    · right
      refine ⟨127 - E, by omega, ?_⟩
      rw [abs_val, hE, mul_comm, hp E h0 (by omega)]
  · rintro (h0 | ⟨j, hj, hv⟩)
    · rw [val_eq_zero] at h0; rw [h0]; exact dvd_zero _
    · rw [abs_val, show 1 / (2 : ℚ) ^ j = mval ((127 - j) * 2 ^ 23) by
        rw [hp _ (by omega) (by omega)]; congr 2; omega, mval_inj] at hv
      rw [hv]; exact Dvd.intro_left _ rfl

/-- An integer below `2^32` is recognised. -/
theorem isInteger_of_int {n : F32} {m : ℤ} (h : n.val = m) (h2 : |n.val| < 2 ^ 32) : n.isInteger = true := by
  by_cases h1 : |n.val| < 1
  · rw [isInteger_small h1]; left
    rw [h, ← Int.cast_abs] at h1
    have : |m| < 1 := by exact_mod_cast h1
    have : m = 0 := by rwa [Int.abs_lt_one_iff] at this
    rw [h, this]; simp
  · rw [isInteger_large 0 (by simpa using h1) (by simpa using h2) (by norm_num)]
    exact ⟨m, by rw [h]; simp⟩

/-- `is_even` on integers. -/
theorem isEven_int {n : F32} (hn : n.isFinite = true) {m : ℤ} (h : n.val = m) : n.isEven = true ↔ 2 ∣ m := by
  unfold isEven
  have he := extractExponentValue_eq n
  by_cases h31 : n.extractExponentValue ≥ 31
  · rw [if_pos h31]
    refine ⟨fun _ => ?_, fun _ => rfl⟩
    -- the number is a multiple of 2^8
    have hl : (2 : ℚ) ^ (31 : Int) ≤ |n.val| := by
      have := (pow_le_iff (x := n) (k := 158) (by norm_num)).2 (by omega)
      norm_num at this ⊢; exact this
    obtain ⟨z, hz⟩ := val_grid (x := n) (j := 31) (by norm_num) hl
    rw [h] at hz
    norm_num at hz
    have : m = z * 256 := by exact_mod_cast hz
    omega
  · rw [if_neg h31]
    have hl : |n.val| < 2 ^ 31 := by
      have := (lt_pow_iff (x := n) (k := 158) (by norm_num)).2 (by omega)
      norm_num at this ⊢; exact this
    obtain ⟨l1, l2⟩ := abs_lt.1 hl
    rw [toI32_eq hn (by linarith) l2, h, truncQ_intCast]
    simp only [beq_iff_eq]
    exact Int.dvd_iff_tmod_eq_zero.symm

variable [Cfg]

/-! ### `powf` on a negative base -/

omit [Cfg] in
theorem not_ge_of_neg {x : F32} (hx : x.isFinite = true) (h : x.val < 0) : ¬ x.ge ZERO = true := by
  rw [ge_iff hx fin_ZERO, val_ZERO]; linarith

/-- For a non-negative base `powf` is `exp(n ln x)`. -/
theorem powf_nonneg {x : F32} (n : F32) (hx : x.isFinite = true) (h : 0 ≤ x.val) : x.powf n = (n * x.ln).exp := by
  unfold powf
  rw [if_pos (by rw [ge_iff hx fin_ZERO, val_ZERO]; exact h)]

theorem powf_abs (x n : F32) (hx : x.isFinite = true) : x.abs.powf n = (n * x.withoutSign.ln).exp :=
  powf_nonneg n (by rw [isFinite_abs]; exact hx) (by rw [val_abs]; exact abs_nonneg _)

theorem powf_neg_nan {x n : F32} (hx : x.isFinite = true) (h : x.val < 0) (hn : n.isInteger = false) :
    x.powf n = .ok NAN := by
  unfold powf
  rw [if_neg (not_ge_of_neg hx h), hn]; rfl

theorem powf_neg_even {x n : F32} (hx : x.isFinite = true) (h : x.val < 0) (hi : n.isInteger = true) (he : n.isEven = true) :
    x.powf n = x.abs.powf n := by
  rw [powf_abs x n hx]
  unfold powf
  rw [if_neg (not_ge_of_neg hx h), hi, he]; rfl

theorem powf_neg_odd {x n : F32} (hx : x.isFinite = true) (h : x.val < 0) (hi : n.isInteger = true) (he : n.isEven = false) :
    x.powf n = (x.abs.powf n).map (fun r => -r) := by
  rw [powf_abs x n hx]
  unfold powf
  rw [if_neg (not_ge_of_neg hx h), hi, he]
  simp only [Bool.not_true, Bool.false_eq_true, if_false]
  cases (n * x.withoutSign.ln).exp <;> rfl

/-- **C33, even exponents.** For a negative finite base and an even integer exponent below `2^32` in magnitude, `powf(x, n)` is
exactly `powf(|x|, n)` (same value or same panic). -/
theorem C33_powf_even (x n : F32) (m : ℤ) (hx : x.isFinite = true) (h : x.val < 0) (hn : IsVal n m) (hm : 2 ∣ m)
    (h2 : |m| < 2 ^ 32) : x.powf n = x.abs.powf n :=
  powf_neg_even hx h (isInteger_of_int hn.2 (by rw [hn.2]; exact_mod_cast h2)) ((isEven_int hn.1 hn.2).2 hm)

/-- **C33, odd exponents.** For a negative finite base and an odd integer exponent, `powf(x, n)` is `-powf(|x|, n)`. -/
theorem C33_powf_odd (x n : F32) (m : ℤ) (hx : x.isFinite = true) (h : x.val < 0) (hn : IsVal n m) (hm : ¬ 2 ∣ m) :
    x.powf n = (x.abs.powf n).map (fun r => -r) := by
  have h2 : |n.val| < 2 ^ 32 := by
    by_contra hc
    push Not at hc
    obtain ⟨z, hz⟩ := val_grid (x := n) (j := 32) (by norm_num) (by norm_num at hc ⊢; exact hc)
    rw [hn.2] at hz
    norm_num at hz
    have : m = z * 512 := by exact_mod_cast hz
    omega
  refine powf_neg_odd hx h (isInteger_of_int hn.2 h2) ?_
  rw [Bool.eq_false_iff]
  exact fun hc => hm ((isEven_int hn.1 hn.2).1 hc)

/-- **C33, non-integers.** For a negative finite base and a non-integer exponent, `powf` is NaN, except when
the exponent is `±2^-j`. -/
theorem C33_powf_nan (x n : F32) (hx : x.isFinite = true) (h : x.val < 0) (hn : ∀ m : ℤ, n.val ≠ m)
    (hp : ∀ j : Nat, |n.val| ≠ 1 / 2 ^ j) : ∃ r, x.powf n = .ok r ∧ r.isNaN = true := by
  refine ⟨NAN, powf_neg_nan hx h ?_, Cfg.nanConst_isNaN⟩
  rw [Bool.eq_false_iff]
  intro hc
  by_cases h1 : |n.val| < 1
  · rcases (isInteger_small h1).1 hc with h0 | ⟨j, -, hj⟩
    · exact hn 0 (by rw [h0]; simp)
    · exact hp j hj
  · have h2 : |n.val| < 2 ^ 32 := by
      by_contra hc
      obtain ⟨z, hz⟩ := val_int_of_large (x := n) (by linarith)
      exact hn z hz
    obtain ⟨z, hz⟩ := (isInteger_large 0 (by simpa using h1) (by simpa using h2) (by norm_num)).1 hc
    exact hn z (by simpa using hz)

/-- **C33, the exceptions below 1**: for the exponents `±2^-j`, `1 <= j <= 126`, `powf(x, n)` is `powf(|x|, n)` instead of NaN. -/
theorem C33_powf_fraction (x n : F32) (j : Nat) (hx : x.isFinite = true) (h : x.val < 0) (hn : n.isFinite = true)
    (hj : 1 ≤ j) (hj2 : j ≤ 126) (hv : |n.val| = 1 / 2 ^ j) : x.powf n = x.abs.powf n := by
  have h1 : |n.val| < 1 := by
    rw [hv, div_lt_one (by positivity)]; exact one_lt_pow₀ (by norm_num) (by omega)
  refine powf_neg_even hx h ((isInteger_small h1).2 (Or.inr ⟨j, hj2, hv⟩)) ?_
  unfold isEven
  have m2 := (lt_pow_iff (x := n) (k := 127) (by omega)).1 (by simpa using h1)
  rw [if_neg (by rw [extractExponentValue_eq]; omega)]
  obtain ⟨l1, l2⟩ := abs_lt.1 h1
  rw [toI32_eq hn (by linarith) (by linarith)]
  have : truncQ n.val = 0 := by
    unfold truncQ; split
    · rw [Int.floor_eq_zero_iff]; exact ⟨by assumption, l2⟩
    · rw [Int.ceil_eq_zero_iff]; exact ⟨by linarith, by linarith⟩
  rw [this]; rfl

/-- **C33, large exponents, exactly**: for `2^(32k) <= |n| < 2^(32k+32)`, `k >= 1` (where every float is an even integer), the
result for a negative base is `powf(|x|, n)` if `n` is a multiple of `2^(32k)` and NaN otherwise. -/
theorem C33_powf_large (x n : F32) (k : Nat) (hx : x.isFinite = true) (h : x.val < 0) (hn : n.isFinite = true) (hk : 1 ≤ k)
    (h1 : 2 ^ (32 * k) ≤ |n.val|) (h2 : |n.val| < 2 ^ (32 * k + 32)) :
    ((∃ z : ℤ, n.val = z * 2 ^ (32 * k)) → x.powf n = x.abs.powf n) ∧
      ((¬ ∃ z : ℤ, n.val = z * 2 ^ (32 * k)) → ∃ r, x.powf n = .ok r ∧ r.isNaN = true) := by
  have hk3 : k ≤ 3 := by
    by_contra hc
    have a := h1.trans (abs_val_le_maxF hn)
    have b : (2 : ℚ) ^ 128 ≤ 2 ^ (32 * k) := pow_le_pow_right₀ (by norm_num) (by omega)
    have c : maxF < 2 ^ 128 := by norm_num [maxF]
    linarith
  have hi := isInteger_large k h1 h2 hk3
  constructor
  · intro hz
    refine powf_neg_even hx h (hi.2 hz) ?_
    have m1 := (pow_le_iff (x := n) (k := 159) (by omega)).1 (by
      refine le_trans ?_ h1
      have : (2 : ℚ) ^ 32 ≤ 2 ^ (32 * k) := pow_le_pow_right₀ (by norm_num) (by omega)
      refine le_trans (le_of_eq ?_) this
      norm_num)
    unfold isEven
    rw [if_pos (by rw [extractExponentValue_eq]; omega)]
  · intro hz
    refine ⟨NAN, powf_neg_nan hx h ?_, Cfg.nanConst_isNaN⟩
    rw [Bool.eq_false_iff]
    exact fun hc => hz (hi.1 hc)

/-! ### accuracy -/

/-- `exp(n ln x)` in terms of the exact product. -/
theorem powf_core {x n : F32} (fl : x.ln.isFinite = true) (hn : n.isFinite = true)
    (h1 : -87.29 ≤ n.val * x.ln.val) (h2 : n.val * x.ln.val ≤ 88.69) :
    ∃ r, (n * x.ln).exp = .ok r ∧ r.isFinite = true ∧
      0.9969 * Real.exp ((n.val : ℝ) * x.ln.val) ≤ r.val ∧ (r.val : ℝ) ≤ 1.0031 * Real.exp ((n.val : ℝ) * x.ln.val) := by
  obtain ⟨d, hd, fy, vy⟩ := mul_err hn fl 7 (by norm_num) (by norm_num) (by
    rw [abs_le]; norm_num at h1 h2 ⊢; constructor <;> linarith)
  norm_num at hd
  obtain ⟨c1, c2⟩ := abs_le.1 hd
  obtain ⟨r, hr, fr, er⟩ := C28_exp (n * x.ln) fy (by rw [vy]; norm_num at h1 ⊢; linarith) (by rw [vy]; norm_num at h2 ⊢; linarith)
  refine ⟨r, hr, fr, ?_⟩
  rw [vy] at er
  push_cast at er
  rw [Real.exp_add] at er
  have d' := abs_cast_le hd
  push_cast at d'
  obtain ⟨g1, g2⟩ := abs_le.1 d'
  have ed1 : 1 - 4 / 10 ^ 6 ≤ Real.exp (d : ℝ) := by
    have := Real.add_one_le_exp (d : ℝ)
    norm_num at g1 ⊢; linarith
  have ed2 : Real.exp (d : ℝ) ≤ 1 + 4 / 10 ^ 6 := by
    have h3 := Real.add_one_le_exp (-(d : ℝ))
    have hp := Real.exp_pos (d : ℝ)
    have : Real.exp (d : ℝ) * Real.exp (-(d : ℝ)) = 1 := by rw [← Real.exp_add]; simp
    norm_num at g2 ⊢
    nlinarith
  obtain ⟨P, hP⟩ : ∃ P, P = Real.exp ((n.val : ℝ) * x.ln.val) := ⟨_, rfl⟩
  have hP0 : 0 < P := by rw [hP]; exact Real.exp_pos _
  rw [← hP] at er ⊢
  obtain ⟨e1, e2⟩ := abs_le.1 er
  have m1 := mul_le_mul_of_nonneg_left ed1 hP0.le
  have m2 := mul_le_mul_of_nonneg_left ed2 hP0.le
  norm_num at m1 m2 e1 e2 ⊢
  constructor <;> linarith

/-- The common part of the accuracy theorems: `lo <= n (ln x - log x) <= hi`. -/
theorem powf_accuracy {x n : F32} (hx : x.isFinite = true) (h0 : 0 < x.val) (fl : x.ln.isFinite = true) (hn : n.isFinite = true)
    {lo hi : ℝ} (hlo : lo ≤ (n.val : ℝ) * (x.ln.val - Real.log x.val)) (hhi : (n.val : ℝ) * (x.ln.val - Real.log x.val) ≤ hi)
    (h1 : -87.29 ≤ (n.val : ℝ) * Real.log x.val + lo) (h2 : (n.val : ℝ) * Real.log x.val + hi ≤ 88.69) :
    ∃ r, x.powf n = .ok r ∧ r.isFinite = true ∧
      0.9969 * Real.exp lo * (x.val : ℝ) ^ (n.val : ℝ) ≤ r.val ∧
      (r.val : ℝ) ≤ 1.0031 * Real.exp hi * (x.val : ℝ) ^ (n.val : ℝ) := by
  have q1 : -87.29 ≤ n.val * x.ln.val := by
    have : ((-87.29 : ℚ) : ℝ) ≤ ((n.val * x.ln.val : ℚ) : ℝ) := by push_cast; norm_num at h1 ⊢; linarith
    exact_mod_cast this
  have q2 : n.val * x.ln.val ≤ 88.69 := by
    have : ((n.val * x.ln.val : ℚ) : ℝ) ≤ ((88.69 : ℚ) : ℝ) := by push_cast; norm_num at h2 ⊢; linarith
    exact_mod_cast this
  obtain ⟨r, hr, fr, r1, r2⟩ := powf_core fl hn q1 q2
  rw [powf_nonneg n hx h0.le]
  refine ⟨r, hr, fr, le_trans ?_ r1, r2.trans ?_⟩ <;>
  · rw [Real.rpow_def_of_pos (by exact_mod_cast h0), mul_assoc, ← Real.exp_add]
    refine mul_le_mul_of_nonneg_left (Real.exp_le_exp.2 ?_) (by norm_num)
    linarith

/-- **C85.** For a finite base `x >= 1` and a finite exponent `n` such that `x^n` is in the normal range (with a margin of
`0.00008 |n|` in the logarithm), `powf(x, n)` returns without a panic and is `x^n` up to a factor in
`[0.9969 e^(-0.00008|n|), 1.0031 e^(0.00008|n|)]`. -/
theorem C85_powf_ge_one (x n : F32) (hx : x.isFinite = true) (h : 1 ≤ x.val) (hn : n.isFinite = true)
    (h1 : -87.29 ≤ (n.val : ℝ) * Real.log x.val - 0.00008 * |(n.val : ℝ)|)
    (h2 : (n.val : ℝ) * Real.log x.val + 0.00008 * |(n.val : ℝ)| ≤ 88.69) :
    ∃ r, x.powf n = .ok r ∧ r.isFinite = true ∧
      0.9969 * Real.exp (-(0.00008 * |(n.val : ℝ)|)) * (x.val : ℝ) ^ (n.val : ℝ) ≤ r.val ∧
      (r.val : ℝ) ≤ 1.0031 * Real.exp (0.00008 * |(n.val : ℝ)|) * (x.val : ℝ) ^ (n.val : ℝ) := by
  obtain ⟨fl, el⟩ := C29_ln x hx h
  have hm : |(n.val : ℝ) * (x.ln.val - Real.log x.val)| ≤ 0.00008 * |(n.val : ℝ)| := by
    rw [abs_mul, mul_comm]; exact mul_le_mul_of_nonneg_right el (abs_nonneg _)
  obtain ⟨m1, m2⟩ := abs_le.1 hm
  exact powf_accuracy hx (by linarith) fl hn m1 m2 (by linarith) h2

/-- **C86.** For a normal base in `(0, 1)` and a non-negative exponent: the error of `ln` below 1 costs a factor of up to
`e^(-0.1179 n)`. -/
theorem C86_powf_lt_one (x n : F32) (hx : PosNormal x) (h : x.val < 1) (hn : n.isFinite = true) (h0 : 0 ≤ n.val)
    (h1 : -87.29 ≤ (n.val : ℝ) * Real.log x.val - 0.1179 * (n.val : ℝ)) :
    ∃ r, x.powf n = .ok r ∧ r.isFinite = true ∧
      0.9969 * Real.exp (-(0.1179 * (n.val : ℝ))) * (x.val : ℝ) ^ (n.val : ℝ) ≤ r.val ∧
      (r.val : ℝ) ≤ 1.0031 * Real.exp (0.00008 * (n.val : ℝ)) * (x.val : ℝ) ^ (n.val : ℝ) := by
  obtain ⟨fl, l1, l2⟩ := C30_ln x hx h
  have hx0 : 0 < x.val := lt_of_lt_of_le (by positivity) hx.2
  have n0 : (0 : ℝ) ≤ n.val := by exact_mod_cast h0
  have a1 := mul_le_mul_of_nonneg_left l1 n0
  have a2 := mul_le_mul_of_nonneg_left l2 n0
  have hl : Real.log x.val ≤ 0 := Real.log_nonpos (by exact_mod_cast hx0.le) (by exact_mod_cast h.le)
  have := mul_nonneg n0 (neg_nonneg.2 hl)
  refine powf_accuracy hx.1 hx0 fl hn (by linarith) (by linarith) (by linarith) ?_
  norm_num at h1 ⊢
  linarith

/-- **C86, negative exponents.** -/
theorem C86_powf_lt_one_neg (x n : F32) (hx : PosNormal x) (h : x.val < 1) (hn : n.isFinite = true) (h0 : n.val ≤ 0)
    (h1 : (n.val : ℝ) * Real.log x.val - 0.1179 * (n.val : ℝ) ≤ 88.69) :
    ∃ r, x.powf n = .ok r ∧ r.isFinite = true ∧
      0.9969 * Real.exp (0.00008 * (n.val : ℝ)) * (x.val : ℝ) ^ (n.val : ℝ) ≤ r.val ∧
      (r.val : ℝ) ≤ 1.0031 * Real.exp (-(0.1179 * (n.val : ℝ))) * (x.val : ℝ) ^ (n.val : ℝ) := by
  obtain ⟨fl, l1, l2⟩ := C30_ln x hx h
  have hx0 : 0 < x.val := lt_of_lt_of_le (by positivity) hx.2
  have n0 : (n.val : ℝ) ≤ 0 := by exact_mod_cast h0
  have a1 := mul_le_mul_of_nonpos_left l1 n0
  have a2 := mul_le_mul_of_nonpos_left l2 n0
  have hl : Real.log x.val ≤ 0 := Real.log_nonpos (by exact_mod_cast hx0.le) (by exact_mod_cast h.le)
  have := mul_nonneg_of_nonpos_of_nonpos n0 hl
  refine powf_accuracy hx.1 hx0 fl hn (by linarith) (by linarith) ?_ (by linarith)
  norm_num at h1 ⊢
  linarith

omit [Cfg] in
theorem val_four : (⟨0x40800000#32⟩ : F32).val = 4 := by
  rw [val_of_units (u := 4 * 2 ^ 149) (by decide +kernel)]; norm_num
omit [Cfg] in
theorem val_half : (⟨0x3f000000#32⟩ : F32).val = 1 / 2 := by
  rw [val_of_units (u := 2 ^ 148) (by decide +kernel)]; norm_num

/-- `x = 4`, `n = 0.5` meet the hypotheses of `C85_powf_ge_one`. -/
theorem powf_four_half : ∃ r, powf ⟨0x40800000#32⟩ ⟨0x3f000000#32⟩ = .ok r ∧ r.isFinite = true ∧ 1.9 ≤ r.val ∧ r.val ≤ 2.1 := by
  have hl : Real.log 4 = 2 * Real.log 2 := by
    rw [show (4 : ℝ) = 2 ^ 2 by norm_num, Real.log_pow]; push_cast; ring
  have b1 := Real.log_two_gt_d9
  have b2 := Real.log_two_lt_d9
  obtain ⟨r, hr, fr, r1, r2⟩ := C85_powf_ge_one ⟨0x40800000#32⟩ ⟨0x3f000000#32⟩ (by decide) (by rw [val_four]; norm_num) (by decide)
    (by rw [val_four, val_half]; push_cast; rw [hl, abs_of_pos (by norm_num)]; norm_num at b1 b2 ⊢; linarith)
    (by rw [val_four, val_half]; push_cast; rw [hl, abs_of_pos (by norm_num)]; norm_num at b1 b2 ⊢; linarith)
  refine ⟨r, hr, fr, ?_⟩
  rw [val_four, val_half] at r1 r2
  have hp : (4 : ℝ) ^ ((1 : ℝ) / 2) = 2 := by
    rw [← Real.sqrt_eq_rpow, show (4 : ℝ) = 2 ^ 2 by norm_num, Real.sqrt_sq (by norm_num)]
  push_cast at r1 r2
  rw [hp, abs_of_pos (by norm_num)] at r1 r2
  have e1 := Real.add_one_le_exp (-(0.00008 * ((1 : ℝ) / 2)))
  have e2 : Real.exp (0.00008 * ((1 : ℝ) / 2)) ≤ 1.001 := by
    have := Real.exp_bound_div_one_sub_of_interval (x := 0.00008 * ((1 : ℝ) / 2)) (by norm_num) (by norm_num)
    refine this.trans (by norm_num)
  norm_num at r1 r2 e1 e2
  constructor
  · have : ((1.9 : ℚ) : ℝ) ≤ r.val := by push_cast; norm_num; linarith
    exact_mod_cast this
  · have : (r.val : ℝ) ≤ ((2.1 : ℚ) : ℝ) := by push_cast; norm_num; linarith
    exact_mod_cast this

omit [Cfg] in
theorem val_neg_four : (⟨0xc0800000#32⟩ : F32).val = -4 := by
  rw [val_of_units (u := -(4 * 2 ^ 149)) (by decide +kernel)]; norm_num

/-- **C33, the standard library's contract is violated both ways**: `powf(-4, 0.5)` is about 2 and not NaN, and `powf(-4, n)` is NaN
for the even integer `n = 1.25 * 2^33`. -/
theorem C33_powf_std_false :
    (∃ r, powf ⟨0xc0800000#32⟩ ⟨0x3f000000#32⟩ = .ok r ∧ r.isFinite = true ∧ 1.9 ≤ r.val ∧ r.val ≤ 2.1) ∧
    (IsVal ⟨0x50200000#32⟩ ((5 * 2 ^ 31 : ℤ) : ℚ) ∧ ∃ r, powf ⟨0xc0800000#32⟩ ⟨0x50200000#32⟩ = .ok r ∧ r.isNaN = true) := by
  have hv : (⟨0x50200000#32⟩ : F32).val = ((5 * 2 ^ 31 : ℤ) : ℚ) := by
    rw [val_of_units (u := 5 * 2 ^ 180) (by decide +kernel)]; norm_num
  refine ⟨?_, ⟨by decide, hv⟩, ?_⟩
  · rw [C33_powf_fraction ⟨0xc0800000#32⟩ ⟨0x3f000000#32⟩ 1 (by decide) (by rw [val_neg_four]; norm_num) (by decide) le_rfl
      (by norm_num) (by rw [val_half, abs_of_pos (by norm_num)]; norm_num)]
    exact powf_four_half
  · refine (C33_powf_large ⟨0xc0800000#32⟩ ⟨0x50200000#32⟩ 1 (by decide) (by rw [val_neg_four]; norm_num) (by decide) le_rfl
      (by rw [hv]; norm_num) (by rw [hv]; norm_num)).2 ?_
    rintro ⟨z, hz⟩
    rw [hv] at hz
    have : (5 * 2 ^ 31 : ℤ) = z * 2 ^ 32 := by exact_mod_cast hz
    omega

/-- Non-vacuity of `C33_powf_even`, `C33_powf_odd` and `C33_powf_nan`: base `-4`, exponents `2`, `3` and `1.5`. -/
example : (⟨0xc0800000#32⟩ : F32).val < 0 ∧ IsVal ⟨0x40000000#32⟩ ((2 : ℤ) : ℚ) ∧ IsVal ⟨0x40400000#32⟩ ((3 : ℤ) : ℚ) ∧
    (∀ m : ℤ, (⟨0x3fc00000#32⟩ : F32).val ≠ m) ∧ ∀ j : Nat, |(⟨0x3fc00000#32⟩ : F32).val| ≠ 1 / 2 ^ j := by
  have h15 : (⟨0x3fc00000#32⟩ : F32).val = 3 / 2 := by
    rw [val_of_units (u := 3 * 2 ^ 148) (by decide +kernel)]; norm_num
  refine ⟨by rw [val_neg_four]; norm_num, ⟨by decide, ?_⟩, ⟨by decide, ?_⟩, ?_, ?_⟩
  · rw [val_of_units (u := 2 * 2 ^ 149) (by decide +kernel)]; norm_num
  · rw [val_of_units (u := 3 * 2 ^ 149) (by decide +kernel)]; norm_num
  · intro m hm
    rw [h15] at hm
    have : (3 : ℚ) = 2 * m := by linarith
    have : (3 : ℤ) = 2 * m := by exact_mod_cast this
    omega
  · intro j hj
    rw [h15, abs_of_pos (by norm_num)] at hj
    have : (1 : ℚ) / 2 ^ j ≤ 1 := by rw [div_le_one (by positivity)]; exact one_le_pow₀ (by norm_num)
    linarith

/-! ### special arguments -/

theorem ln_finite {x : F32} (hx : x.isFinite = true) (hs : x.isSignNegative = false) : x.ln.isFinite = true := by
  by_cases h1 : 1 ≤ x.val
  · exact (C29_ln x hx h1).1
  · by_cases h2 : x.val < 1 / 2 ^ 126
    · exact (C31_ln_small x hs h2 hx).1
    · exact (C30_ln x ⟨hx, not_lt.1 h2⟩ (not_le.1 h1)).1

theorem mul_val_zero {a b : F32} (ha : a.isFinite = true) (hb : b.isFinite = true) (h : a.val * b.val = 0) :
    (a * b).isFinite = true ∧ (a * b).val = 0 := by
  obtain ⟨f, v⟩ := mul_val ha hb (by rw [h, abs_zero]; norm_num [ovf])
  exact ⟨f, by rw [v, h, RN_zero]⟩

omit [Cfg] in
theorem signNegative_of_nonneg {x : F32} (hz : x ≠ negZero) (h : 0 ≤ x.val) : x.isSignNegative = false := by
  rcases lt_or_eq_of_le h with h | h
  · exact sign_of_pos h
  · change x.sign = false
    cases hs : x.sign
    · rfl
    · exfalso
      apply hz
      have hm := (val_eq_zero (x := x)).1 h.symm
      rw [← pack_sign_mag x, hs, hm]; decide

omit [Cfg] in
theorem withoutSign_sign (x : F32) : x.withoutSign.isSignNegative = false := sign_abs x

/-- **C87, exponent zero.** `powf(x, ±0)` is `1.0` for every finite `x` other than `-0.0` (see `C87_powf_unbounded`). -/
theorem C87_powf_zero (x n : F32) (hx : x.isFinite = true) (hz : x ≠ negZero) (hn : n.isFinite = true) (h : n.val = 0) :
    x.powf n = .ok one := by
  have key : ∀ y : F32, y.isFinite = true → y.isSignNegative = false → (n * y.ln).exp = .ok one := by
    intro y hy hs
    obtain ⟨f, v⟩ := mul_val_zero hn (ln_finite hy hs) (by rw [h, zero_mul])
    exact C27_exp_zero _ f v
  by_cases h0 : 0 ≤ x.val
  · rw [powf_nonneg n hx h0]
    exact key x hx (signNegative_of_nonneg hz h0)
  · have hneg := not_le.1 h0
    rw [C33_powf_even x n 0 hx hneg ⟨hn, by rw [h]; simp⟩ (by simp) (by norm_num), powf_abs x n hx]
    exact key _ (by rw [← hx]; exact isFinite_abs x) (withoutSign_sign x)

/-- **C87, base one.** `powf(1.0, n)` is `1.0` for every finite `n`. -/
theorem C87_powf_one (n : F32) (hn : n.isFinite = true) : one.powf n = .ok one := by
  rw [powf_nonneg n (by decide) (by rw [val_one]; norm_num), C29_ln_one]
  obtain ⟨f, v⟩ := mul_val_zero hn (b := posZero) (by decide) (by rw [val_posZero, mul_zero])
  exact C27_exp_zero _ f v

/-- **C87, bases `-0.0` and `+inf`.** The exponent does not matter: the result is `+inf` or `0` for every `n`, in particular
`powf(+inf, 0)` and `powf(-0.0, 0)` are not 1. -/
theorem C87_powf_unbounded (x n : F32) (h : x = posInf ∨ x = negZero) : x.powf n = .ok posInf ∨ x.powf n = .ok posZero := by
  have hl : x.ln.isNaN = true := by
    rcases h with rfl | rfl
    · exact C31_ln_inf
    · exact C31_ln_nan _ (Or.inr (by decide))
  have hg : x.ge ZERO = true := by rcases h with rfl | rfl <;> decide
  unfold powf
  rw [if_pos hg]
  exact C27_exp_nan_false _ (mul_nan (Or.inr hl))

/-- **C87, NaN base.** `powf(NaN, n)` is not NaN when `n` is an integer below `2^32` in magnitude: it is an infinity or a zero. -/
theorem C87_powf_nan_base (x n : F32) (m : ℤ) (hx : x.isNaN = true) (hn : IsVal n m) (h2 : |m| < 2 ^ 32) :
    ∃ r, x.powf n = .ok r ∧ (r = posInf ∨ r = negInf ∨ r = posZero ∨ r = negZero) := by
  have hi := isInteger_of_int hn.2 (by rw [hn.2]; exact_mod_cast h2)
  have hl : (n * x.withoutSign.ln).isNaN = true :=
    mul_nan (Or.inr (C31_ln_nan _ (Or.inl (by rw [← hx]; exact isNaN_abs x))))
  have hg : x.ge ZERO = false := by
    change ZERO.le x = false
    simp [le, hx]
  unfold powf
  rw [hg, hi]
  simp only [Bool.not_true, Bool.false_eq_true, if_false]
  rcases C27_exp_nan_false _ hl with h | h <;> rw [h] <;> split
  · exact ⟨_, rfl, Or.inl rfl⟩
  · exact ⟨-posInf, rfl, Or.inr (Or.inl (by decide))⟩
  · exact ⟨_, rfl, Or.inr (Or.inr (Or.inl rfl))⟩
  · exact ⟨-posZero, rfl, Or.inr (Or.inr (Or.inr (by decide)))⟩

/-- **C87, base zero.** `powf(+0.0, n)` is a positive number (std: 0) for `0 < n <= 0.99`, because `ln(0.0)` is finite. -/
theorem C87_powf_zero_base (n : F32) (hn : n.isFinite = true) (h0 : 0 < n.val) (h1 : n.val ≤ 0.99) :
    ∃ r, posZero.powf n = .ok r ∧ r.isFinite = true ∧ 0 < r.val := by
  obtain ⟨fl, l1, l2⟩ := C31_ln_small posZero (by decide) (by rw [val_posZero]; norm_num) (by decide)
  have p1 : n.val * posZero.ln.val ≤ 0 := mul_nonpos_of_nonneg_of_nonpos h0.le (by norm_num at l2 ⊢; linarith)
  have p2 : n.val * -posZero.ln.val ≤ 0.99 * 88.04 := by
    refine mul_le_mul h1 (by linarith) (by norm_num at l2 ⊢; linarith) (by norm_num)
  obtain ⟨r, hr, fr, r1, -⟩ := powf_core (x := posZero) fl hn (by norm_num at p2 ⊢; linarith) (by norm_num at p1 ⊢; linarith)
  rw [powf_nonneg n (by decide) (by rw [val_posZero])]
  refine ⟨r, hr, fr, ?_⟩
  have hp := Real.exp_pos ((n.val : ℝ) * posZero.ln.val)
  have : (0 : ℝ) < r.val := lt_of_lt_of_le (by positivity) r1
  exact_mod_cast this

/-! ### range and panics -/

theorem mul_ge_or_inf {a b : F32} {t : ℚ} (ha : a.isFinite = true) (hb : b.isFinite = true) (ht : Rep t) (h0 : 0 < t)
    (h : t ≤ a.val * b.val) : a * b = posInf ∨ (a * b).isFinite = true ∧ t ≤ (a * b).val := by
  by_cases ho : |a.val * b.val| < ovf
  · obtain ⟨f, v⟩ := mul_val ha hb ho
    exact Or.inr ⟨f, by rw [v]; exact le_RN_of_rep ht h⟩
  · left
    rw [mul_ovf ha hb (not_lt.1 ho)]
    have hs : (a.sign != b.sign) = false := by
      rcases mul_pos_iff.1 (lt_of_lt_of_le h0 h) with ⟨p, q⟩ | ⟨p, q⟩
      · rw [sign_of_pos p, sign_of_pos q]; rfl
      · rw [sign_of_neg p, sign_of_neg q]; rfl
    rw [hs]; rfl

theorem mul_le_or_inf {a b : F32} {t : ℚ} (ha : a.isFinite = true) (hb : b.isFinite = true) (ht : Rep t) (h0 : t < 0)
    (h : a.val * b.val ≤ t) : a * b = negInf ∨ (a * b).isFinite = true ∧ (a * b).val ≤ t := by
  by_cases ho : |a.val * b.val| < ovf
  · obtain ⟨f, v⟩ := mul_val ha hb ho
    exact Or.inr ⟨f, by rw [v]; exact RN_le_of_rep ht h⟩
  · left
    rw [mul_ovf ha hb (not_lt.1 ho)]
    have hs : (a.sign != b.sign) = true := by
      rcases mul_neg_iff.1 (lt_of_le_of_lt h h0) with ⟨p, q⟩ | ⟨p, q⟩
      · rw [sign_of_pos p, sign_of_neg q]; rfl
      · rw [sign_of_neg p, sign_of_pos q]; rfl
    rw [hs]; rfl

omit [Cfg] in
theorem rep_exp_hi : Rep (2929983 / 32768) := rep_grid (z := 2929983) (j := -15) (by norm_num) (by norm_num) (by norm_num)
omit [Cfg] in
theorem rep_neg_89 : Rep (-89) := rep_grid (z := -89) (j := 0) (by norm_num) (by norm_num) (by norm_num)

theorem powf_ge_one_prod {x n : F32} (hx : x.isFinite = true) (h : 1 ≤ x.val) :
    x.ln.isFinite = true ∧
      |((n.val * x.ln.val : ℚ) : ℝ) - (n.val : ℝ) * Real.log x.val| ≤ 0.00008 * |(n.val : ℝ)| := by
  obtain ⟨fl, el⟩ := C29_ln x hx h
  refine ⟨fl, ?_⟩
  push_cast
  rw [← mul_sub, abs_mul, mul_comm]
  exact mul_le_mul_of_nonneg_right el (abs_nonneg _)

/-- **C88, overflow.** For a finite base `x >= 1`: `powf(x, n) = +inf` once `n log x >= 89.416 + 0.00008|n|`. -/
theorem C88_powf_overflow (x n : F32) (hx : x.isFinite = true) (h : 1 ≤ x.val) (hn : n.isFinite = true)
    (h1 : 89.416 + 0.00008 * |(n.val : ℝ)| ≤ (n.val : ℝ) * Real.log x.val) : x.powf n = .ok posInf := by
  obtain ⟨fl, e⟩ := powf_ge_one_prod (n := n) hx h
  obtain ⟨e1, e2⟩ := abs_le.1 e
  have hq : (2929983 / 32768 : ℚ) ≤ n.val * x.ln.val := by
    have : ((2929983 / 32768 : ℚ) : ℝ) ≤ ((n.val * x.ln.val : ℚ) : ℝ) := by
      refine le_trans ?_ (show (n.val : ℝ) * Real.log x.val - 0.00008 * |(n.val : ℝ)| ≤ _ by linarith)
      norm_num at h1 ⊢; linarith
    exact_mod_cast this
  rw [powf_nonneg n hx (by linarith)]
  exact C27_exp_overflow _ (mul_ge_or_inf hn fl rep_exp_hi (by norm_num) hq)

/-- **C88, underflow.** For a finite base `x >= 1`: `powf(x, n) = 0` once `n log x <= -89 - 0.00008|n|`. -/
theorem C88_powf_underflow (x n : F32) (hx : x.isFinite = true) (h : 1 ≤ x.val) (hn : n.isFinite = true)
    (h1 : (n.val : ℝ) * Real.log x.val ≤ -89 - 0.00008 * |(n.val : ℝ)|) : x.powf n = .ok posZero := by
  obtain ⟨fl, e⟩ := powf_ge_one_prod (n := n) hx h
  obtain ⟨e1, e2⟩ := abs_le.1 e
  have hq : n.val * x.ln.val ≤ -89 := by
    have : ((n.val * x.ln.val : ℚ) : ℝ) ≤ ((-89 : ℚ) : ℝ) := by push_cast at e2 ⊢; linarith
    exact_mod_cast this
  rw [powf_nonneg n hx (by linarith)]
  exact C27_exp_underflow _ (mul_le_or_inf hn fl rep_neg_89 (by norm_num) hq)

/-- **C88, panics.** For a finite base `x >= 1`: with debug assertions, `powf(x, n)` panics when `n log x` is between
`88.723 + 0.00008|n|` and `89.4159 - 0.00008|n|`; without, the result there is an infinity or NaN. -/
theorem C88_powf_panic (x n : F32) (hx : x.isFinite = true) (h : 1 ≤ x.val) (hn : n.isFinite = true)
    (h1 : 88.723 + 0.00008 * |(n.val : ℝ)| ≤ (n.val : ℝ) * Real.log x.val)
    (h2 : (n.val : ℝ) * Real.log x.val ≤ 89.4159 - 0.00008 * |(n.val : ℝ)|) :
    (Cfg.debugAssertions = true → x.powf n = .error .assertFailed) ∧
      (Cfg.debugAssertions = false → ∃ r, x.powf n = .ok r ∧ r.isFinite = false) := by
  obtain ⟨fl, e⟩ := powf_ge_one_prod (n := n) hx h
  obtain ⟨e1, e2⟩ := abs_le.1 e
  have q1 : (88.723 : ℚ) ≤ n.val * x.ln.val := by
    have : ((88.723 : ℚ) : ℝ) ≤ ((n.val * x.ln.val : ℚ) : ℝ) := by
      refine le_trans ?_ (show (n.val : ℝ) * Real.log x.val - 0.00008 * |(n.val : ℝ)| ≤ _ by linarith)
      norm_num at h1 ⊢; linarith
    exact_mod_cast this
  have q2 : n.val * x.ln.val ≤ 89.4159 := by
    have : ((n.val * x.ln.val : ℚ) : ℝ) ≤ ((89.4159 : ℚ) : ℝ) := by
      refine le_trans (show _ ≤ (n.val : ℝ) * Real.log x.val + 0.00008 * |(n.val : ℝ)| by linarith) ?_
      norm_num at h2 ⊢; linarith
    exact_mod_cast this
  obtain ⟨d, hd, fy, vy⟩ := mul_err hn fl 7 (by norm_num) (by norm_num) (by
    rw [abs_le]; norm_num at q1 q2 ⊢; constructor <;> linarith)
  norm_num at hd
  obtain ⟨c1, c2⟩ := abs_le.1 hd
  obtain ⟨g1, g2⟩ := C27_exp_gap (n * x.ln) fy (by rw [vy]; norm_num at q1 ⊢; linarith) (by rw [vy]; norm_num at q2 ⊢; linarith)
  rw [powf_nonneg n hx (by linarith)]
  exact ⟨g1, fun hc => by obtain ⟨r, a, b, _⟩ := g2 hc; exact ⟨r, a, b⟩⟩

/-- **C88.** Without debug assertions `powf` never panics, on any inputs. -/
theorem C88_powf_returns (x n : F32) (h : Cfg.debugAssertions = false) : Returns (x.powf n) := by
  have key : ∀ y : F32, ∃ r, y.exp = .ok r := by
    intro y
    cases hy : y.exp with
    | ok r => exact ⟨r, rfl⟩
    | error e => have := ((C27_exp_panics_iff y).1 ⟨e, hy⟩).1; rw [h] at this; cases this
  unfold powf
  split
  · exact key _
  · split
    · exact ⟨_, rfl⟩
    · obtain ⟨r, hr⟩ := key (n * x.withoutSign.ln)
      rw [hr]
      split <;> exact ⟨_, rfl⟩

/-- Non-vacuity of `C86_powf_lt_one` (`0.5^2`), `C88_powf_overflow` (`2^130`) and `C88_powf_underflow` (`2^-130`). -/
example : PosNormal ⟨0x3f000000#32⟩ ∧ (⟨0x3f000000#32⟩ : F32).val < 1 ∧
    (-87.29 : ℝ) ≤ ((⟨0x40000000#32⟩ : F32).val : ℝ) * Real.log ((⟨0x3f000000#32⟩ : F32).val : ℚ) - 0.1179 * ((⟨0x40000000#32⟩ : F32).val : ℝ) ∧
    (89.416 : ℝ) + 0.00008 * |((⟨0x43020000#32⟩ : F32).val : ℝ)| ≤ ((⟨0x43020000#32⟩ : F32).val : ℝ) * Real.log ((⟨0x40000000#32⟩ : F32).val : ℚ) ∧
    ((⟨0xc3020000#32⟩ : F32).val : ℝ) * Real.log ((⟨0x40000000#32⟩ : F32).val : ℚ) ≤ -89 - 0.00008 * |((⟨0xc3020000#32⟩ : F32).val : ℝ)| := by
  have v2 : (⟨0x40000000#32⟩ : F32).val = 2 := by rw [val_of_units (u := 2 * 2 ^ 149) (by decide +kernel)]; norm_num
  have v130 : (⟨0x43020000#32⟩ : F32).val = 130 := by rw [val_of_units (u := 130 * 2 ^ 149) (by decide +kernel)]; norm_num
  have vm : (⟨0xc3020000#32⟩ : F32).val = -130 := by rw [val_of_units (u := -130 * 2 ^ 149) (by decide +kernel)]; norm_num
  have b1 := Real.log_two_gt_d9
  have b2 := Real.log_two_lt_d9
  have hl : Real.log (1 / 2) = -Real.log 2 := by rw [one_div, Real.log_inv]
  rw [val_half, v2, v130, vm]
  refine ⟨⟨by decide, by rw [val_half]; norm_num⟩, by norm_num, ?_, ?_, ?_⟩ <;> push_cast
  · rw [hl]; norm_num at b1 b2 ⊢; linarith
  · rw [abs_of_pos (by norm_num)]; norm_num at b1 b2 ⊢; linarith
  · rw [abs_of_neg (by norm_num)]; norm_num at b1 b2 ⊢; linarith

/-- `powf(2.0, 128.5)` panics with debug assertions; the std result is `+inf`. -/
theorem C88_powf_panic_example (h : Cfg.debugAssertions = true) : powf ⟨0x40000000#32⟩ ⟨0x43008000#32⟩ = .error .assertFailed := by
  have v2 : (⟨0x40000000#32⟩ : F32).val = 2 := by rw [val_of_units (u := 2 * 2 ^ 149) (by decide +kernel)]; norm_num
  have vn : (⟨0x43008000#32⟩ : F32).val = 257 / 2 := by rw [val_of_units (u := 257 * 2 ^ 148) (by decide +kernel)]; norm_num
  have b1 := Real.log_two_gt_d9
  have b2 := Real.log_two_lt_d9
  refine (C88_powf_panic _ _ (by decide) (by rw [v2]; norm_num) (by decide) ?_ ?_).1 h <;> rw [v2, vn] <;> push_cast <;>
    rw [abs_of_pos (by norm_num)] <;> norm_num at b1 b2 ⊢ <;> linarith

end Micromath.Props
