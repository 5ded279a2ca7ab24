import Verif.Float.Grid

/-!
# `RN` is round-to-nearest, ties-to-even: rational formulation
-/

namespace Micromath.F32

theorem two_mul_abs_units (q : ℚ) (s : Nat) :
    (q.den * s ≤ 2 * (q.num.natAbs * 2 ^ 149) ↔ (s : ℚ) / 2 ^ 149 ≤ 2 * |q|) ∧
    (2 * (q.num.natAbs * 2 ^ 149) ≤ q.den * s ↔ 2 * |q| ≤ (s : ℚ) / 2 ^ 149) := by
  have hq : (0 : ℚ) < q.den := by exact_mod_cast q.den_pos
  rw [abs_eq_num_den]
  constructor
  · rw [mul_div_assoc', div_le_div_iff₀ two149_pos hq]
    rw [show (s : ℚ) * q.den = ((q.den * s : Nat) : ℚ) by push_cast; ring,
      show 2 * (q.num.natAbs : ℚ) * 2 ^ 149 = ((2 * (q.num.natAbs * 2 ^ 149) : Nat) : ℚ) by
        push_cast; ring, Nat.cast_le]
  · rw [mul_div_assoc', div_le_div_iff₀ hq two149_pos]
    rw [show (s : ℚ) * q.den = ((q.den * s : Nat) : ℚ) by push_cast; ring,
      show 2 * (q.num.natAbs : ℚ) * 2 ^ 149 = ((2 * (q.num.natAbs * 2 ^ 149) : Nat) : ℚ) by
        push_cast; ring, Nat.cast_le]

theorem mval_add (a b : Nat) : mval a + mval b = ((magU a + magU b : Nat) : ℚ) / 2 ^ 149 := by
  unfold mval; push_cast; ring

/-- `b` is the nearest magnitude to `|q|`, ties to even. -/
def NearQ (q : ℚ) (b : Nat) : Prop :=
  (∀ c, c + 1 = b → mval c + mval b ≤ 2 * |q| ∧ (mval c + mval b = 2 * |q| → b % 2 = 0)) ∧
  2 * |q| ≤ mval b + mval (b + 1) ∧ (2 * |q| = mval b + mval (b + 1) → b % 2 = 0)

theorem near_iff (q : ℚ) (b : Nat) : Near (q.num.natAbs * 2 ^ 149) q.den b ↔ NearQ q b := by
  have key : ∀ s : Nat, (q.den * s = 2 * (q.num.natAbs * 2 ^ 149) ↔ (s : ℚ) / 2 ^ 149 = 2 * |q|) := by
    intro s
    have := two_mul_abs_units q s
    constructor
    · intro h
      exact le_antisymm (this.1.1 h.le) (this.2.1 h.ge)
    · intro h
      exact le_antisymm (this.1.2 h.le) (this.2.2 h.ge)
  unfold Near NearQ
  simp only [mval_add, (two_mul_abs_units q _).1, (two_mul_abs_units q _).2, key]
  have key2 : ∀ s : Nat, (2 * (q.num.natAbs * 2 ^ 149) = q.den * s ↔ 2 * |q| = (s : ℚ) / 2 ^ 149) := by
    intro s; rw [eq_comm, key, eq_comm]
  rw [key2]

theorem rbits_nearQ (q : ℚ) : NearQ q (rbits q) := (near_iff q _).1 (rbits_near q)

theorem rbits_eq_of_nearQ {q : ℚ} {b : Nat} (h : NearQ q b) : rbits q = b :=
  roundBits_eq_of_near q.den_pos ((near_iff q b).2 h)

theorem rbits_of_lt_mid {q : ℚ} {b : Nat} (h1 : mval b ≤ |q|) (h2 : 2 * |q| < mval b + mval (b + 1)) :
    rbits q = b := by
  apply rbits_eq_of_nearQ
  refine ⟨fun c hc => ?_, h2.le, fun h => absurd h h2.ne⟩
  have : mval c < mval b := mval_lt.2 (by omega)
  exact ⟨by linarith, fun h => by linarith⟩

theorem rbits_of_gt_mid {q : ℚ} {b : Nat} (h1 : |q| ≤ mval (b + 1)) (h2 : mval b + mval (b + 1) < 2 * |q|) :
    rbits q = b + 1 := by
  apply rbits_eq_of_nearQ
  have hs : mval (b + 1) < mval (b + 1 + 1) := mval_lt.2 (by omega)
  refine ⟨fun c hc => ?_, by linarith, fun h => by linarith⟩
  obtain rfl : c = b := by omega
  exact ⟨h2.le, fun h => by linarith⟩

theorem rbits_tie {q : ℚ} {b : Nat} (h : 2 * |q| = mval b + mval (b + 1)) :
    rbits q = if b % 2 = 0 then b else b + 1 := by
  apply rbits_eq_of_nearQ
  split
  · rename_i hb
    refine ⟨fun c hc => ?_, h.le, fun _ => hb⟩
    have : mval c < mval (b + 1) := mval_lt.2 (by omega)
    exact ⟨by linarith, fun h => hb⟩
  · have hs : mval b < mval (b + 1 + 1) := mval_lt.2 (by omega)
    refine ⟨fun c hc => ?_, by linarith, fun h => by linarith⟩
    obtain rfl : c = b := by omega
    exact ⟨h.ge, fun _ => by omega⟩

/-- No representable number is closer to `q` than `RN q`. -/
theorem RN_nearest {q r : ℚ} (hr : Rep r) : |RN q - q| ≤ |r - q| := by
  wlog hq : 0 ≤ q generalizing q r
  · have := this (q := -q) (r := -r) hr.neg (by linarith)
    rw [RN_neg] at this
    rw [show -RN q - -q = -(RN q - q) by ring, show -r - -q = -(r - q) by ring, abs_neg, abs_neg] at this
    exact this
  have hR := RN_of_nonneg hq
  obtain ⟨h1, h2, _⟩ := rbits_nearQ q
  rw [abs_of_nonneg hq] at h1 h2
  -- compare with the magnitude of `r`
  have main : ∀ c : Nat, |RN q - q| ≤ |mval c - q| := by
    intro c
    rw [hR]
    rcases Nat.lt_trichotomy c (rbits q) with h | h | h
    · obtain ⟨d, hd⟩ : ∃ d, d + 1 = rbits q := ⟨rbits q - 1, by omega⟩
      have h3 := (h1 d hd).1
      have h4 : mval c ≤ mval d := mval_le.2 (by omega)
      have h5 : mval d < mval (rbits q) := mval_lt.2 (by omega)
      rw [abs_sub_le_iff]
      have h6 : |mval c - q| = q - mval c := by rw [abs_of_nonpos]; ring; linarith
      rw [h6]; constructor <;> linarith
    · rw [h]
    · have h4 : mval (rbits q + 1) ≤ mval c := mval_le.2 (by omega)
      have h5 : mval (rbits q) < mval (rbits q + 1) := mval_lt.2 (by omega)
      have h6 : |mval c - q| = mval c - q := by rw [abs_of_nonneg]; linarith
      rw [h6, abs_sub_le_iff]; constructor <;> linarith
  obtain ⟨c, hc⟩ := hr
  refine (main c).trans ?_
  rw [← hc]
  have := abs_abs_sub_abs_le_abs_sub r q
  rwa [abs_of_nonneg hq] at this

end Micromath.F32
