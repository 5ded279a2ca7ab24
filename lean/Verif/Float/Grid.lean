import Verif.Float.Bits

/-!
# The grid of representable numbers: multiples of powers of two, integers, evaluation helpers
-/

namespace Micromath

/-- One natural number coding the outcome of a call (used to evaluate the model in the kernel). -/
def resCode : Res F32 → Nat
  | .ok y => y.bits.toNat
  | .error .overflow => 2 ^ 32
  | .error .divByZero => 2 ^ 32 + 1
  | .error .assertFailed => 2 ^ 32 + 2
  | .error .expectNone => 2 ^ 32 + 3
  | .error .outOfRange => 2 ^ 32 + 4
  | .error .diverges => 2 ^ 32 + 5

/-- The identity, written so that the kernel evaluates its argument to a literal. -/
def force : Nat → Nat
  | 0 => 0
  | n + 1 => n + 1

theorem force_eq (n : Nat) : force n = n := by cases n <;> rfl

theorem eval_ok {r : Res F32} {n : Nat} (h : force (resCode r) = n) (hn : n < 2 ^ 32) :
    r = .ok ⟨BitVec.ofNat 32 n⟩ := by
  rw [force_eq] at h
  cases r with
  | ok y =>
    simp only [resCode] at h
    congr 1
    apply F32.ext_toNat
    rw [BitVec.toNat_ofNat, Nat.mod_eq_of_lt hn, h]
  | error e => cases e <;> simp [resCode] at h <;> omega

theorem eval_overflow {r : Res F32} (h : force (resCode r) = 2 ^ 32) : r = .error .overflow := by
  rw [force_eq] at h
  cases r with
  | ok y => have := y.bits.isLt; simp only [resCode] at h; omega
  | error e => cases e <;> simp [resCode] at h ⊢

theorem eval_assert {r : Res F32} (h : force (resCode r) = 2 ^ 32 + 2) : r = .error .assertFailed := by
  rw [force_eq] at h
  cases r with
  | ok y => have := y.bits.isLt; simp only [resCode] at h; omega
  | error e => cases e <;> simp [resCode] at h ⊢

theorem eval_diverges {r : Res F32} (h : force (resCode r) = 2 ^ 32 + 5) : r = .error .diverges := by
  rw [force_eq] at h
  cases r with
  | ok y => have := y.bits.isLt; simp only [resCode] at h; omega
  | error e => cases e <;> simp [resCode] at h ⊢

namespace F32

theorem eval_eq {x : F32} {n : Nat} (h : force x.bits.toNat = n) : x = ⟨BitVec.ofNat 32 n⟩ := by
  rw [force_eq] at h
  apply ext_toNat
  have := x.bits.isLt
  rw [BitVec.toNat_ofNat, ← h, Nat.mod_eq_of_lt this]

/-- Value of a bit pattern given by its sign and its magnitude in units. -/
theorem val_of_units {x : F32} {u : Int} (h : x.units = u) : x.val = (u : ℚ) / 2 ^ 149 := by
  rw [val, h]

theorem mval_grid {b : Nat} {j : Int} (hj : -126 ≤ j) (h : (2 : ℚ) ^ j ≤ mval b) :
    ∃ z : Nat, mval b = z * 2 ^ (j - 23) := by
  obtain ⟨k, r, hb, hk, hr⟩ := mag_split b
  have hm : magU b = r * 2 ^ k := magU_eq_iff_split hb hk hr.le
  obtain ⟨n, hn⟩ : ∃ n : Nat, j = (n : Int) - 126 := ⟨(j + 126).toNat, by omega⟩
  subst hn
  have h2 : (2 : ℚ) ^ ((n : Int) - 126) = 2 ^ n * 2 ^ 23 / 2 ^ 149 := by
    rw [zpow_sub₀ (by norm_num), zpow_natCast]
    norm_num
    ring
  have h3 : (2 : ℚ) ^ ((n : Int) - 126 - 23) = 2 ^ n / 2 ^ 149 := by
    rw [show (n : Int) - 126 - 23 = n - 149 by ring, zpow_sub₀ (by norm_num), zpow_natCast]
    norm_num
  rw [h2, mval, div_le_div_iff_of_pos_right two149_pos, hm] at h
  have h4 : 2 ^ n * 2 ^ 23 ≤ r * 2 ^ k := by exact_mod_cast h
  have hnk : n ≤ k := by
    by_contra hc
    push Not at hc
    have : 2 ^ n = 2 ^ k * 2 ^ (n - k - 1) * 2 := by
      rw [← pow_add, ← pow_succ]; congr 1; omega
    have h1 : 1 ≤ 2 ^ (n - k - 1) := Nat.one_le_two_pow
    have h5 : 2 ^ k * 2 ≤ 2 ^ n := by rw [this]; nlinarith [Nat.one_le_two_pow (n := k)]
    nlinarith [Nat.one_le_two_pow (n := k)]
  refine ⟨r * 2 ^ (k - n), ?_⟩
  rw [h3, mval, hm]
  have : (2 : ℚ) ^ k = 2 ^ (k - n) * 2 ^ n := by rw [← pow_add]; congr 1; omega
  push_cast
  rw [this]; ring

theorem val_grid {x : F32} {j : Int} (hj : -126 ≤ j) (h : (2 : ℚ) ^ j ≤ |x.val|) :
    ∃ z : Int, x.val = z * 2 ^ (j - 23) := by
  rw [abs_val] at h
  obtain ⟨z, hz⟩ := mval_grid hj h
  rw [val_eq]
  split
  · exact ⟨-z, by rw [hz]; push_cast; ring⟩
  · exact ⟨z, by rw [hz]; push_cast; ring⟩

theorem val_int_of_large {x : F32} (h : (2 : ℚ) ^ 23 ≤ |x.val|) : ∃ z : Int, x.val = z := by
  obtain ⟨z, hz⟩ := val_grid (x := x) (j := 23) (by norm_num) (by exact_mod_cast h)
  exact ⟨z, by simpa using hz⟩

theorem mval_pow {k : Nat} (hk : 1 ≤ k) : mval (k * 2 ^ 23) = 2 ^ ((k : Int) - 127) := by
  have h : magU (k * 2 ^ 23) = 2 ^ 23 * 2 ^ (k - 1) := by
    have := magU_combine (k := k - 1) (r := 2 ^ 23) (Or.inr le_rfl) (by norm_num)
    rw [← this, show (k - 1) * 2 ^ 23 + 2 ^ 23 = k * 2 ^ 23 by omega]
  rw [mval, h, zpow_sub₀ (by norm_num), zpow_natCast]
  have : (2 : ℚ) ^ k = 2 ^ (k - 1) * 2 := by rw [← pow_succ]; congr 1; omega
  rw [this]
  push_cast
  norm_num
  ring

/-- Magnitude comparisons with powers of two are comparisons of bit fields. -/
theorem lt_pow_iff {x : F32} {k : Nat} (hk : 1 ≤ k) : |x.val| < 2 ^ ((k : Int) - 127) ↔ x.mag < k * 2 ^ 23 := by
  rw [abs_val, ← mval_pow hk, mval_lt]
theorem pow_le_iff {x : F32} {k : Nat} (hk : 1 ≤ k) : 2 ^ ((k : Int) - 127) ≤ |x.val| ↔ k * 2 ^ 23 ≤ x.mag := by
  rw [abs_val, ← mval_pow hk, mval_le]

theorem truncQ_neg (q : ℚ) : truncQ (-q) = -truncQ q := by
  unfold truncQ
  rcases lt_trichotomy q 0 with h | h | h
  · rw [if_pos (by linarith), if_neg (by linarith), Int.floor_neg]
  · subst h; simp
  · rw [if_neg (by linarith), if_pos h.le, Int.ceil_neg]

theorem truncQ_int (n : Int) : truncQ (n : ℚ) = n := by unfold truncQ; simp

theorem abs_truncQ_le (q : ℚ) : |(truncQ q : ℚ)| ≤ |q| := by
  unfold truncQ
  split
  · rename_i h
    rw [abs_of_nonneg h, abs_of_nonneg (by exact_mod_cast Int.floor_nonneg.2 h)]
    exact Int.floor_le q
  · rename_i h
    have h : q ≤ 0 := (not_le.1 h).le
    rw [abs_of_nonpos h, abs_of_nonpos (by exact_mod_cast Int.ceil_le.2 (by simpa using h))]
    linarith [Int.le_ceil q]

/-- The integer part of a float is representable. -/
theorem rep_truncQ_val (x : F32) : Rep (truncQ x.val : ℚ) := by
  rcases le_or_gt ((2 : ℚ) ^ 23) |x.val| with h | h
  · obtain ⟨z, hz⟩ := val_int_of_large h
    have := rep_val x
    rw [hz, truncQ_int]; rwa [hz] at this
  · apply rep_int
    have h1 := (abs_truncQ_le x.val).trans_lt h
    have : (((truncQ x.val).natAbs : Nat) : ℚ) < 2 ^ 23 := by rw [Nat.cast_natAbs]; exact_mod_cast h1
    have : (truncQ x.val).natAbs < 2 ^ 23 := by exact_mod_cast this
    omega

end F32
end Micromath
