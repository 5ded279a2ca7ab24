import Verif.Float.Round
import Mathlib.Algebra.Order.Field.Rat
import Mathlib.Data.Rat.Lemmas
import Mathlib.Algebra.Order.Group.Abs
import Mathlib.Tactic.FieldSimp
import Mathlib.Tactic.Positivity
import Mathlib.Algebra.Order.Field.Power
import Mathlib.Algebra.Order.AbsoluteValue.Basic

/-!
# Rational values of floats and the rounding function `RN : ℚ → ℚ`

`val x` is the real number a finite float denotes.  `RN` is IEEE round-to-nearest-even with
unbounded exponent range upward (subnormals included); overflow is handled by the operation lemmas.
-/

namespace Micromath.F32

/-- Value of the magnitude bits `b`. -/
def mval (b : Nat) : ℚ := (magU b : ℚ) / 2 ^ 149

/-- Value of a finite float. -/
def val (x : F32) : ℚ := (x.units : ℚ) / 2 ^ 149

/-- Magnitude bits of the float nearest to `|q|`. -/
def rbits (q : ℚ) : Nat := roundBits (q.num.natAbs * 2 ^ 149) q.den

/-- Round to nearest, ties to even. -/
def RN (q : ℚ) : ℚ := if q < 0 then -mval (rbits q) else mval (rbits q)

theorem two149_pos : (0 : ℚ) < 2 ^ 149 := by positivity

theorem mval_nonneg (b : Nat) : 0 ≤ mval b := by unfold mval; positivity
@[simp] theorem mval_zero : mval 0 = 0 := by simp [mval]
theorem mval_lt {a b : Nat} : mval a < mval b ↔ a < b := by
  unfold mval
  rw [div_lt_div_iff_of_pos_right two149_pos, Nat.cast_lt, magU_lt_iff]
theorem mval_le {a b : Nat} : mval a ≤ mval b ↔ a ≤ b := by
  unfold mval
  rw [div_le_div_iff_of_pos_right two149_pos, Nat.cast_le, magU_le_iff]
theorem mval_inj {a b : Nat} : mval a = mval b ↔ a = b := by
  rw [le_antisymm_iff, mval_le, mval_le, ← le_antisymm_iff]

theorem abs_eq_num_den (q : ℚ) : |q| = (q.num.natAbs : ℚ) / q.den := by
  have h : q = (q.num : ℚ) / q.den := (Rat.num_div_den q).symm
  have hd : (0 : ℚ) < q.den := by exact_mod_cast q.den_pos
  conv_lhs => rw [h]
  rw [abs_div, abs_of_pos hd, Nat.cast_natAbs, Int.cast_abs]

/-- `rbits` may be computed from any fraction for `|q|`. -/
theorem rbits_eq {q : ℚ} {u d : Nat} (hd : 0 < d) (h : |q| * 2 ^ 149 = (u : ℚ) / d) :
    rbits q = roundBits u d := by
  apply roundBits_congr q.den_pos hd
  rw [abs_eq_num_den] at h
  have hq : (0 : ℚ) < q.den := by exact_mod_cast q.den_pos
  have hd' : (0 : ℚ) < d := by exact_mod_cast hd
  rw [div_mul_eq_mul_div, div_eq_div_iff hq.ne' hd'.ne'] at h
  exact_mod_cast h

theorem rbits_abs (q : ℚ) : rbits |q| = rbits q := by
  apply rbits_eq q.den_pos
  rw [abs_abs, abs_eq_num_den]; push_cast; ring

theorem rbits_mono {p q : ℚ} (h : |p| ≤ |q|) : rbits p ≤ rbits q := by
  apply roundBits_mono p.den_pos q.den_pos
  rw [abs_eq_num_den, abs_eq_num_den] at h
  have hp : (0 : ℚ) < p.den := by exact_mod_cast p.den_pos
  have hq : (0 : ℚ) < q.den := by exact_mod_cast q.den_pos
  rw [div_le_div_iff₀ hp hq] at h
  have h' : p.num.natAbs * q.den ≤ q.num.natAbs * p.den := by exact_mod_cast h
  nlinarith [Nat.mul_le_mul_right (2 ^ 149) h']

@[simp] theorem rbits_mval (b : Nat) : rbits (mval b) = b := by
  rw [rbits_eq (u := magU b) (d := 1) one_pos, roundBits_magU]
  rw [abs_of_nonneg (mval_nonneg b), mval]; field_simp; simp

@[simp] theorem rbits_zero : rbits 0 = 0 := by
  have := rbits_mval 0; simpa using this

theorem rbits_neg (q : ℚ) : rbits (-q) = rbits q := by
  rw [← rbits_abs, abs_neg, rbits_abs]

@[simp] theorem RN_zero : RN 0 = 0 := by simp [RN]

theorem RN_neg (q : ℚ) : RN (-q) = -RN q := by
  rcases lt_trichotomy q 0 with h | h | h
  · rw [RN, RN, if_neg (by linarith), if_pos h, rbits_neg, neg_neg]
  · subst h; simp
  · rw [RN, RN, if_pos (by linarith), if_neg (by linarith), rbits_neg]

theorem RN_of_nonneg {q : ℚ} (h : 0 ≤ q) : RN q = mval (rbits q) := by
  rw [RN, if_neg (by linarith)]

theorem RN_nonneg {q : ℚ} (h : 0 ≤ q) : 0 ≤ RN q := by
  rw [RN_of_nonneg h]; exact mval_nonneg _

theorem RN_nonpos {q : ℚ} (h : q ≤ 0) : RN q ≤ 0 := by
  have := RN_nonneg (q := -q) (by linarith)
  rw [RN_neg] at this; linarith

theorem abs_RN (q : ℚ) : |RN q| = mval (rbits q) := by
  rw [RN]; split
  · rw [abs_neg, abs_of_nonneg (mval_nonneg _)]
  · rw [abs_of_nonneg (mval_nonneg _)]

theorem RN_abs (q : ℚ) : RN |q| = |RN q| := by
  rw [abs_RN, RN_of_nonneg (abs_nonneg q), rbits_abs]

theorem RN_mono {p q : ℚ} (h : p ≤ q) : RN p ≤ RN q := by
  rcases le_total 0 p with hp | hp
  · rw [RN_of_nonneg hp, RN_of_nonneg (hp.trans h), mval_le]
    exact rbits_mono (by rwa [abs_of_nonneg hp, abs_of_nonneg (hp.trans h)])
  · rcases le_total 0 q with hq | hq
    · exact (RN_nonpos hp).trans (RN_nonneg hq)
    · have : RN (-q) ≤ RN (-p) := by
        rw [RN_of_nonneg (by linarith), RN_of_nonneg (by linarith), mval_le]
        exact rbits_mono (by rw [abs_of_nonneg (by linarith), abs_of_nonneg (by linarith)]; linarith)
      rw [RN_neg, RN_neg] at this; linarith

/-! ## Representable rationals -/

/-- `q` is a (signed) binary32 value if the exponent range is unbounded upward. -/
def Rep (q : ℚ) : Prop := ∃ b, |q| = mval b

theorem Rep.neg {q : ℚ} (h : Rep q) : Rep (-q) := by
  obtain ⟨b, hb⟩ := h; exact ⟨b, by rw [abs_neg, hb]⟩

theorem Rep.abs {q : ℚ} (h : Rep q) : Rep |q| := by
  obtain ⟨b, hb⟩ := h; exact ⟨b, by rw [abs_abs, hb]⟩

theorem rep_mval (b : Nat) : Rep (mval b) := ⟨b, abs_of_nonneg (mval_nonneg b)⟩

theorem rep_RN (q : ℚ) : Rep (RN q) := ⟨rbits q, abs_RN q⟩

theorem RN_mval (b : Nat) : RN (mval b) = mval b := by
  rw [RN_of_nonneg (mval_nonneg b), rbits_mval]

theorem RN_of_rep {q : ℚ} (h : Rep q) : RN q = q := by
  obtain ⟨b, hb⟩ := h
  rcases le_total 0 q with hq | hq
  · rw [abs_of_nonneg hq] at hb; rw [hb, RN_mval]
  · rw [abs_of_nonpos hq] at hb
    have : q = -mval b := by linarith
    rw [this, RN_neg, RN_mval]

/-- `m * 2^e` units with `m ≤ 2^24` is representable. -/
theorem magU_exists {m : Nat} (hm : m ≤ 2 ^ 24) (e : Nat) : ∃ b, magU b = m * 2 ^ e := by
  rcases Nat.eq_zero_or_pos m with h0 | h0
  · exact ⟨0, by simp [h0]⟩
  · -- normalise the significand
    induction e generalizing m with
    | zero => exact ⟨0 * 2 ^ 23 + m, magU_combine (Or.inl rfl) hm⟩
    | succ e ih =>
      rcases Nat.lt_or_ge m (2 ^ 23) with h | h
      · obtain ⟨b, hb⟩ := ih (m := 2 * m) (by omega) (by omega)
        exact ⟨b, by rw [hb, pow_succ]; ring⟩
      · exact ⟨(e + 1) * 2 ^ 23 + m, magU_combine (Or.inr h) hm⟩

theorem rep_units {m : Int} (hm : m.natAbs ≤ 2 ^ 24) (e : Nat) :
    Rep ((m : ℚ) * 2 ^ e / 2 ^ 149) := by
  obtain ⟨b, hb⟩ := magU_exists hm e
  refine ⟨b, ?_⟩
  rw [mval, hb, abs_div, abs_mul, abs_of_pos (by positivity : (0 : ℚ) < 2 ^ e),
    abs_of_pos two149_pos]
  push_cast
  rw [Nat.cast_natAbs, Int.cast_abs]

/-- `m * 2^e` with `|m| ≤ 2^24` and `e ≥ -149` is representable. -/
theorem rep_zpow {m : Int} (hm : m.natAbs ≤ 2 ^ 24) {e : Int} (he : -149 ≤ e) :
    Rep ((m : ℚ) * 2 ^ e) := by
  have h := rep_units hm (e + 149).toNat
  have : (2 : ℚ) ^ (e + 149).toNat / 2 ^ 149 = 2 ^ e := by
    rw [← zpow_natCast, Int.toNat_of_nonneg (by omega), zpow_add₀ (by norm_num)]
    field_simp
  rwa [mul_div_assoc, this] at h

theorem rep_int {m : Int} (hm : m.natAbs ≤ 2 ^ 24) : Rep (m : ℚ) := by
  simpa using rep_zpow hm (e := 0) (by omega)

theorem rep_pow {e : Int} (he : -149 ≤ e) : Rep ((2 : ℚ) ^ e) := by
  simpa using rep_zpow (m := 1) (by norm_num) he

theorem rep_val (x : F32) : Rep x.val := by
  refine ⟨x.mag, ?_⟩
  rw [val, mval, units, abs_div, abs_of_pos two149_pos]
  split <;> simp

theorem RN_val (x : F32) : RN x.val = x.val := RN_of_rep (rep_val x)

theorem RN_le_of_rep {q c : ℚ} (hc : Rep c) (h : q ≤ c) : RN q ≤ c := by
  have := RN_mono h; rwa [RN_of_rep hc] at this

theorem le_RN_of_rep {q c : ℚ} (hc : Rep c) (h : c ≤ q) : c ≤ RN q := by
  have := RN_mono h; rwa [RN_of_rep hc] at this

theorem abs_RN_le_of_rep {q c : ℚ} (hc : Rep c) (h : |q| ≤ c) : |RN q| ≤ c := by
  rw [← RN_abs]; exact RN_le_of_rep hc h

/-! ## Error bounds -/

theorem rbits_near (q : ℚ) : Near (q.num.natAbs * 2 ^ 149) q.den (rbits q) :=
  roundBits_near _ _ q.den_pos

/-- Basic error bound: half a unit of the binade step, which is at most `2^-24` relative. -/
theorem RN_err_scale (q : ℚ) : ∃ k : Nat, |RN q - q| ≤ 2 ^ k / 2 / 2 ^ 149 ∧
    (k = 0 ∨ (2 : ℚ) ^ 23 * 2 ^ k / 2 ^ 149 ≤ |q|) := by
  wlog hq : 0 ≤ q generalizing q
  · obtain ⟨k, h1, h2⟩ := this (-q) (by linarith)
    refine ⟨k, ?_, by rwa [abs_neg] at h2⟩
    rw [RN_neg] at h1
    rwa [show RN q - q = -(-RN q - -q) by ring, abs_neg]
  obtain ⟨k, hb, h1, h2⟩ := roundBits_scale (q.num.natAbs * 2 ^ 149) q.den q.den_pos
  have hD : 0 < q.den * 2 ^ k := Nat.mul_pos q.den_pos (by positivity)
  obtain ⟨s1, s2, -, -⟩ := rhe_spec (q.num.natAbs * 2 ^ 149) (q.den * 2 ^ k) hD
  generalize hr : rhe (q.num.natAbs * 2 ^ 149) (q.den * 2 ^ k) = r at *
  have hm : magU (rbits q) = r * 2 ^ k := magU_eq_iff_split hb (by omega) h2
  have habs : |q| = (q.num.natAbs : ℚ) / q.den := abs_eq_num_den q
  have hd : (0 : ℚ) < q.den := by exact_mod_cast q.den_pos
  have hu : (q.num.natAbs : ℚ) = q * q.den := by
    rw [abs_of_nonneg hq] at habs; field_simp at habs; linarith
  refine ⟨k, ?_, ?_⟩
  · rw [RN_of_nonneg hq, mval, hm]
    have s1' : (q.den : ℚ) * 2 ^ k * (2 * r) ≤ 2 * (q.num.natAbs * 2 ^ 149) + q.den * 2 ^ k := by
      exact_mod_cast s1
    have s2' : (2 : ℚ) * (q.num.natAbs * 2 ^ 149) ≤ q.den * 2 ^ k * (2 * r) + q.den * 2 ^ k := by
      exact_mod_cast s2
    rw [hu] at s1' s2'
    have t1 : (2 : ℚ) ^ k * (2 * r) ≤ 2 * (q * 2 ^ 149) + 2 ^ k := by
      apply le_of_mul_le_mul_left _ hd; linarith
    have t2 : 2 * (q * 2 ^ 149) ≤ (2 : ℚ) ^ k * (2 * r) + 2 ^ k := by
      apply le_of_mul_le_mul_left _ hd; linarith
    push_cast
    have e : (r : ℚ) * 2 ^ k / 2 ^ 149 - q = (r * 2 ^ k - q * 2 ^ 149) / 2 ^ 149 := by
      field_simp
    rw [e, abs_div, abs_of_pos two149_pos, div_le_div_iff_of_pos_right two149_pos, abs_le]
    constructor <;> linarith
  · rcases h1 with h1 | ⟨-, h1⟩
    · exact Or.inl h1
    · right
      have h1' : (q.den : ℚ) * (2 ^ 23 * 2 ^ k) ≤ q.num.natAbs * 2 ^ 149 := by exact_mod_cast h1
      rw [div_le_iff₀ two149_pos, habs, div_mul_eq_mul_div, le_div_iff₀ hd]
      linarith

/-- Standard model of rounding: relative error `2^-24`, absolute error `2^-150` in the subnormals. -/
theorem RN_err (q : ℚ) : |RN q - q| ≤ max (1 / 2 ^ 150) (|q| / 2 ^ 24) := by
  obtain ⟨k, h1, h2⟩ := RN_err_scale q
  rcases h2 with h2 | h2
  · subst h2
    exact le_max_of_le_left (h1.trans (by norm_num))
  · apply le_max_of_le_right (h1.trans _)
    rw [le_div_iff₀ (by positivity)]
    calc (2 : ℚ) ^ k / 2 / 2 ^ 149 * 2 ^ 24 = 2 ^ 23 * 2 ^ k / 2 ^ 149 := by ring
      _ ≤ |q| := h2

/-- Purely relative error in the normal range. -/
theorem RN_err_rel {q : ℚ} (h : 1 / 2 ^ 126 ≤ |q|) : |RN q - q| ≤ |q| / 2 ^ 24 := by
  refine (RN_err q).trans (max_le ?_ le_rfl)
  calc (1 : ℚ) / 2 ^ 150 = 1 / 2 ^ 126 / 2 ^ 24 := by norm_num
    _ ≤ |q| / 2 ^ 24 := by gcongr

/-- Absolute error below a power of two. -/
theorem RN_err_abs {q : ℚ} {e : Int} (he : -125 ≤ e) (h : |q| ≤ 2 ^ e) :
    |RN q - q| ≤ 2 ^ (e - 25) := by
  rcases eq_or_lt_of_le h with h | h
  · have : Rep q := by
      obtain ⟨b, hb⟩ := rep_pow (e := e) (by omega)
      rw [abs_of_pos (by positivity)] at hb
      exact ⟨b, by rw [h, hb]⟩
    rw [RN_of_rep this, sub_self, abs_zero]; positivity
  · obtain ⟨k, h1, h2⟩ := RN_err_scale q
    refine h1.trans ?_
    have hk : ((k : Int) - 150) ≤ e - 25 := by
      rcases h2 with h2 | h2
      · omega
      · have h3 : (2 : ℚ) ^ ((k : Int) - 126) < 2 ^ e := by
          refine lt_of_le_of_lt ?_ h
          refine le_trans (le_of_eq ?_) h2
          rw [zpow_sub₀ (by norm_num), zpow_natCast]
          norm_num
          ring
        have := (zpow_lt_zpow_iff_right₀ (by norm_num : (1 : ℚ) < 2)).1 h3
        omega
    calc (2 : ℚ) ^ k / 2 / 2 ^ 149 = 2 ^ ((k : Int) - 150) := by
          rw [zpow_sub₀ (by norm_num), zpow_natCast]; norm_num; ring
      _ ≤ 2 ^ (e - 25) := zpow_le_zpow_right₀ (by norm_num) hk

/-- Integers (in units) are not affected by underflow: rounding a sum of floats is purely relative. -/
theorem RN_err_units (n : Int) : |RN ((n : ℚ) / 2 ^ 149) - (n : ℚ) / 2 ^ 149|
    ≤ |(n : ℚ) / 2 ^ 149| / 2 ^ 24 := by
  rcases le_or_gt (n.natAbs) (2 ^ 24) with h | h
  · have := RN_of_rep (rep_units h 0)
    rw [pow_zero, mul_one] at this
    rw [this, sub_self, abs_zero]; positivity
  · apply RN_err_rel
    rw [abs_div, abs_of_pos two149_pos]
    have : ((2 : ℚ) ^ 24) ≤ |(n : ℚ)| := by
      rw [← Int.cast_abs, ← Nat.cast_natAbs]; exact_mod_cast h.le
    rw [div_le_div_iff₀ (by positivity) (by positivity)]
    calc (1 : ℚ) * 2 ^ 149 ≤ 2 ^ 24 * 2 ^ 126 := by norm_num
      _ ≤ |(n : ℚ)| * 2 ^ 126 := by gcongr

/-! ## Overflow threshold -/

/-- The largest finite value. -/
def maxF : ℚ := 2 ^ 128 - 2 ^ 104

/-- Exact values of at least this magnitude overflow. -/
def ovf : ℚ := 2 ^ 128 - 2 ^ 103

theorem mval_infMag : mval infMag = 2 ^ 128 := by
  have : magU infMag = 2 ^ 128 * 2 ^ 149 := by decide +kernel
  rw [mval, this]; push_cast; norm_num

theorem mval_maxF : mval (infMag - 1) = maxF := by
  have : magU (infMag - 1) = 16777215 * 2 ^ 104 * 2 ^ 149 := by decide +kernel
  rw [mval, this, maxF]; push_cast; field_simp; norm_num

theorem rbits_lt_inf_iff (q : ℚ) : rbits q < infMag ↔ |q| < ovf := by
  have hn := rbits_near q
  have hd : (0 : ℚ) < q.den := by exact_mod_cast q.den_pos
  have habs : |q| = (q.num.natAbs : ℚ) / q.den := abs_eq_num_den q
  have hpos : 0 < infMag := by decide
  have key : |q| < ovf ↔ 2 * (q.num.natAbs * 2 ^ 149) < q.den * (magU (infMag - 1) + magU (infMag - 1 + 1)) := by
    have hM' : ((magU (infMag - 1) + magU (infMag - 1 + 1) : Nat) : ℚ) = 2 * 2 ^ 149 * ovf := by
      have : magU (infMag - 1) + magU (infMag - 1 + 1) = 2 * 2 ^ 149 * (33554431 * 2 ^ 103) := by
        decide +kernel
      rw [this, ovf]; norm_num
    rw [habs, div_lt_iff₀ hd, ← Nat.cast_lt (α := ℚ)]
    push_cast at hM' ⊢
    rw [hM']
    constructor <;> intro h <;> nlinarith
  rw [key]
  constructor
  · intro h
    have h1 : q.den * (magU (rbits q) + magU (rbits q + 1)) ≤
        q.den * (magU (infMag - 1) + magU (infMag - 1 + 1)) :=
      Nat.mul_le_mul_left _ (Nat.add_le_add (magU_le_iff.2 (by omega)) (magU_le_iff.2 (by omega)))
    rcases eq_or_lt_of_le (hn.2.1.trans h1) with h2 | h2
    · exfalso
      have h3 := hn.2.1
      have e : q.den * (magU (rbits q) + magU (rbits q + 1)) =
        q.den * (magU (infMag - 1) + magU (infMag - 1 + 1)) := by omega
      have par := hn.2.2 (by omega)
      have e2 := Nat.eq_of_mul_eq_mul_left q.den_pos e
      have : rbits q = infMag - 1 := by
        rcases Nat.lt_or_ge (rbits q) (infMag - 1) with h | h
        · have a1 : magU (rbits q) < magU (infMag - 1) := magU_lt_iff.2 h
          have a2 : magU (rbits q + 1) < magU (infMag - 1 + 1) := magU_lt_iff.2 (by omega)
          omega
        · omega
      rw [this] at par
      exact absurd par (by decide)
    · exact h2
  · intro h
    by_contra hge
    obtain ⟨c, hc⟩ : ∃ c, c + 1 = rbits q := ⟨rbits q - 1, by omega⟩
    have h1 := (hn.1 c hc).1
    have h2 : q.den * (magU (infMag - 1) + magU (infMag - 1 + 1)) ≤ q.den * (magU c + magU (rbits q)) :=
      Nat.mul_le_mul_left _ (Nat.add_le_add (magU_le_iff.2 (by omega)) (magU_le_iff.2 (by omega)))
    omega

end Micromath.F32
