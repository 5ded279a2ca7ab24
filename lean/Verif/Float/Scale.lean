import Verif.Float.Struct
import Verif.Float.Err

/-!
Scaling by powers of two: rounding commutes with it in the normal range, and so do the arithmetic operations.
-/

set_option exponentiation.threshold 1000

namespace Micromath.F32

theorem rhe_two (a b : Nat) : rhe (2 * a) (2 * b) = rhe a b := by
  unfold rhe
  rw [Nat.mul_mod_mul_left, Nat.mul_div_mul_left _ _ (by norm_num)]
  split_ifs <;> first | rfl | omega

theorem roundBits_two {u d : Nat} (hd : 0 < d) (h : 2 ^ 23 ≤ u / d) : roundBits (2 * u) d = roundBits u d + 2 ^ 23 := by
  have hl : (2 * u / d).log2 = (u / d).log2 + 1 := by
    have h0 : u / d ≠ 0 := by omega
    have e1 : 2 * (u / d) ≤ 2 * u / d := by
      rw [Nat.le_div_iff_mul_le hd]
      have := Nat.div_mul_le_self u d
      nlinarith
    have e2 : 2 * u / d < 2 * (u / d) + 2 := by
      rw [Nat.div_lt_iff_lt_mul hd]
      have := Nat.lt_div_mul_add (a := u) hd
      nlinarith
    have l1 := Nat.log2_self_le h0
    have l2 := Nat.lt_log2_self (n := u / d)
    refine (Nat.log2_eq_iff (by omega)).2 ⟨?_, ?_⟩
    · rw [pow_succ]; omega
    · rw [pow_succ]; rw [pow_succ] at l2 ⊢; omega
  have h23 : 23 ≤ (u / d).log2 := (Nat.le_log2 (by omega)).2 h
  unfold roundBits
  rw [hl, show (u / d).log2 + 1 - 23 = ((u / d).log2 - 23) + 1 by omega, pow_succ 2 ((u / d).log2 - 23),
    show d * (2 ^ ((u / d).log2 - 23) * 2) = 2 * (d * 2 ^ ((u / d).log2 - 23)) by ring, rhe_two]
  ring

theorem rbits_two {q : ℚ} (h : 1 / 2 ^ 126 ≤ |q|) : rbits (2 * q) = rbits q + 2 ^ 23 := by
  have hd := q.den_pos
  have hdq : (0 : ℚ) < q.den := by exact_mod_cast hd
  have e : rbits (2 * q) = roundBits (2 * (q.num.natAbs * 2 ^ 149)) q.den := by
    apply rbits_eq hd
    rw [abs_mul, abs_of_pos (by norm_num : (0 : ℚ) < 2), abs_eq_num_den, Nat.cast_mul, Nat.cast_mul, Nat.cast_pow, Nat.cast_ofNat]
    ring
  rw [e, roundBits_two hd, rbits]
  rw [Nat.le_div_iff_mul_le hd]
  rw [abs_eq_num_den, le_div_iff₀ hdq, div_mul_eq_mul_div, div_le_iff₀ (by positivity)] at h
  have : ((2 ^ 23 * q.den : Nat) : ℚ) ≤ ((q.num.natAbs * 2 ^ 149 : Nat) : ℚ) := by
    rw [Nat.cast_mul, Nat.cast_mul, Nat.cast_pow, Nat.cast_pow, Nat.cast_ofNat]
    have e : (2 : ℚ) ^ 149 = 2 ^ 126 * 2 ^ 23 := by norm_num
    rw [e]
    have e2 : (0 : ℚ) < 2 ^ 23 := by norm_num
    nlinarith
  exact_mod_cast this

theorem rbits_pow_two (k : Nat) {q : ℚ} (h : 1 / 2 ^ 126 ≤ |q|) : rbits (2 ^ k * q) = rbits q + k * 2 ^ 23 := by
  induction k with
  | zero => simp
  | succ k ih =>
    rw [pow_succ, show (2 : ℚ) ^ k * 2 * q = 2 * (2 ^ k * q) by ring, rbits_two, ih]
    · ring
    · rw [abs_mul, abs_of_pos (by positivity : (0 : ℚ) < 2 ^ k)]
      have : (1 : ℚ) ≤ 2 ^ k := one_le_pow₀ (by norm_num)
      have h0 := abs_nonneg q
      nlinarith

theorem mval_pow_two (k : Nat) {b : Nat} (h : 2 ^ 23 ≤ b) : mval (b + k * 2 ^ 23) = 2 ^ k * mval b := by
  unfold mval magU
  rw [if_neg (by omega), if_neg (by omega), show (b + k * 2 ^ 23) % 2 ^ 23 = b % 2 ^ 23 by omega,
    show (b + k * 2 ^ 23) / 2 ^ 23 - 1 = (b / 2 ^ 23 - 1) + k by omega, pow_add]
  push_cast; ring

theorem rbits_normal {q : ℚ} (h : 1 / 2 ^ 126 ≤ |q|) : 2 ^ 23 ≤ rbits q := by
  have e : mval (2 ^ 23) = 1 / 2 ^ 126 := by
    unfold mval magU; norm_num
  have := rbits_mono (p := mval (2 ^ 23)) (q := q) (by rw [e]; rwa [abs_of_pos (by positivity)])
  rwa [rbits_mval] at this

/-- Rounding commutes with scaling by a power of two, away from the subnormal range. -/
theorem RN_scale (k : Nat) {q : ℚ} (h : 1 / 2 ^ 126 ≤ |q|) : RN (2 ^ k * q) = 2 ^ k * RN q := by
  have hp : (0 : ℚ) < 2 ^ k := by positivity
  have e := mval_pow_two k (rbits_normal h)
  rcases lt_or_ge q 0 with h0 | h0
  · rw [RN_of_neg (mul_neg_of_pos_of_neg hp h0), RN_of_neg h0, rbits_pow_two k h, e]; ring
  · rw [RN_of_nonneg (by positivity), RN_of_nonneg h0, rbits_pow_two k h, e]

/-- `y` is `2^k x`, both finite. -/
structure Sc (k : Nat) (x y : F32) : Prop where
  fx : x.isFinite = true
  fy : y.isFinite = true
  eq : y.val = 2 ^ k * x.val

theorem Sc.rn {k : Nat} {p q : ℚ} (e : q = 2 ^ k * p) (h : p = 0 ∨ 1 / 2 ^ 126 ≤ |p|) : RN q = 2 ^ k * RN p := by
  rcases h with h | h
  · rw [e, h, mul_zero, RN_zero, mul_zero]
  · rw [e, RN_scale k h]

/-- Exponents only matter for overflow. -/
theorem Sc.lt_ovf {k : Nat} {p q : ℚ} (e : q = 2 ^ k * p) (h : |q| < ovf) : |p| < ovf := by
  rw [e, abs_mul, abs_of_pos (by positivity : (0 : ℚ) < 2 ^ k)] at h
  have : (1 : ℚ) ≤ 2 ^ k := one_le_pow₀ (by norm_num)
  have h0 := abs_nonneg p
  nlinarith

/-- A sum of two floats below `2^-125` is exact, so sums are never affected by underflow. -/
theorem Sc.sum_rn {k : Nat} {x y : F32} {q : ℚ}
    (e : q = 2 ^ k * (x.val + y.val)) : RN q = 2 ^ k * RN (x.val + y.val) := by
  rcases le_or_gt (1 / 2 ^ 126) |x.val + y.val| with h | h
  · exact Sc.rn e (Or.inr h)
  · have hu : x.val + y.val = ((x.units + y.units : Int) : ℚ) * 2 ^ (-149 : Int) := by
      unfold val
      rw [zpow_neg, show ((2 : ℚ) ^ (149 : Int)) = 2 ^ 149 by norm_cast, Int.cast_add]; ring
    have hb : |x.val + y.val| ≤ 2 ^ ((-149 : Int) + 24) := by
      refine h.le.trans ?_
      norm_num
    rw [e, RN_of_rep (rep_grid (by norm_num) hu hb)]
    refine RN_of_rep (rep_grid (z := x.units + y.units) (j := -149 + k) (by omega) ?_ ?_)
    · rw [zpow_add₀ (by norm_num), zpow_natCast, hu]; ring
    · rw [show (-149 + (k : Int) + 24) = (-149 + 24) + k by ring, zpow_add₀ (by norm_num), zpow_natCast, abs_mul,
        abs_of_pos (by positivity : (0 : ℚ) < 2 ^ k), mul_comm]
      exact mul_le_mul_of_nonneg_right hb (by positivity)

theorem Sc.neg {k : Nat} {x y : F32} (h : Sc k x y) : Sc k (-x) (-y) :=
  ⟨by simpa using h.fx, by simpa using h.fy, by rw [val_neg, val_neg, h.eq]; ring⟩

variable [Cfg]

theorem Sc.add {k : Nat} {x x' y y' : F32} (hx : Sc k x x') (hy : Sc k y y') (h : |x'.val + y'.val| < ovf) :
    Sc k (x + y) (x' + y') := by
  have e : x'.val + y'.val = 2 ^ k * (x.val + y.val) := by rw [hx.eq, hy.eq]; ring
  obtain ⟨a1, a2⟩ := add_val hx.fx hy.fx (Sc.lt_ovf e h)
  obtain ⟨b1, b2⟩ := add_val hx.fy hy.fy h
  exact ⟨a1, b1, by rw [a2, b2, Sc.sum_rn e]⟩

theorem Sc.sub {k : Nat} {x x' y y' : F32} (hx : Sc k x x') (hy : Sc k y y') (h : |x'.val - y'.val| < ovf) :
    Sc k (x - y) (x' - y') := by
  have e : x'.val - y'.val = 2 ^ k * (x.val - y.val) := by rw [hx.eq, hy.eq]; ring
  obtain ⟨a1, a2⟩ := sub_val hx.fx hy.fx (Sc.lt_ovf e h)
  obtain ⟨b1, b2⟩ := sub_val hx.fy hy.fy h
  refine ⟨a1, b1, ?_⟩
  have := Sc.sum_rn (k := k) (x := x) (y := -y) (q := x'.val - y'.val)
    (by rw [val_neg, e]; ring)
  rw [val_neg, ← sub_eq_add_neg] at this
  rw [a2, b2, this]

theorem Sc.mul {j k : Nat} {x x' y y' : F32} (hx : Sc j x x') (hy : Sc k y y') (h : |x'.val * y'.val| < ovf)
    (hu : x.val * y.val = 0 ∨ 1 / 2 ^ 126 ≤ |x.val * y.val|) : Sc (j + k) (x * y) (x' * y') := by
  have e : x'.val * y'.val = 2 ^ (j + k) * (x.val * y.val) := by rw [hx.eq, hy.eq, pow_add]; ring
  obtain ⟨a1, a2⟩ := mul_val hx.fx hy.fx (Sc.lt_ovf e h)
  obtain ⟨b1, b2⟩ := mul_val hx.fy hy.fy h
  exact ⟨a1, b1, by rw [a2, b2, Sc.rn e hu]⟩

theorem Sc.div {j k : Nat} {x x' y y' : F32} (hx : Sc (k + j) x x') (hy : Sc k y y') (h0 : y.val ≠ 0)
    (h : |x'.val / y'.val| < ovf) (hu : x.val / y.val = 0 ∨ 1 / 2 ^ 126 ≤ |x.val / y.val|) : Sc j (x / y) (x' / y') := by
  have e : x'.val / y'.val = 2 ^ j * (x.val / y.val) := by
    rw [hx.eq, hy.eq, pow_add]
    field_simp
  have h0' : y'.val ≠ 0 := by rw [hy.eq]; positivity
  obtain ⟨a1, a2⟩ := div_val hx.fx hy.fx h0 (Sc.lt_ovf e h)
  obtain ⟨b1, b2⟩ := div_val hx.fy hy.fy h0' h
  exact ⟨a1, b1, by rw [a2, b2, Sc.rn e hu]⟩

omit [Cfg] in
/-- On positive normal numbers scaling adds to the exponent field. -/
theorem Sc.bits {k : Nat} {x y : F32} (h : Sc k x y) (hs : x.sign = false) (hn : 1 / 2 ^ 126 ≤ x.val) :
    y.sign = false ∧ y.mag = x.mag + k * 2 ^ 23 := by
  have hp : (0 : ℚ) < 2 ^ k := by positivity
  have x0 : 0 < x.val := lt_of_lt_of_le (by positivity) hn
  have y0 : 0 < y.val := by rw [h.eq]; positivity
  have ys : y.sign = false := by
    by_contra hc
    rw [Bool.not_eq_false] at hc
    rw [val_of_neg hc] at y0
    have := mval_nonneg y.mag
    linarith
  refine ⟨ys, ?_⟩
  have hm : 2 ^ 23 ≤ x.mag := by
    rw [← mval_le, ← val_of_pos hs]
    refine le_trans (le_of_eq ?_) hn
    unfold mval magU; norm_num
  rw [← mval_inj, mval_pow_two k hm, ← val_of_pos hs, ← val_of_pos ys, h.eq]

end Micromath.F32
