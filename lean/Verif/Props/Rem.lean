import Verif.Props.EuclidAll

/-!
# C117: the remainder operator, and `rem_euclid` at its limits
-/

set_option exponentiation.threshold 1000

namespace Micromath.Props
open F32 Spec

variable [Cfg]

omit [Cfg] in
theorem tdiv_intPart {a b : Int} (hb : b ≠ 0) : a.tdiv b = intPart ((a : ℚ) / b) := by
  have hb' : (b : ℚ) ≠ 0 := by exact_mod_cast hb
  obtain ⟨t, ht⟩ : ∃ t, t = a.tdiv b := ⟨_, rfl⟩
  obtain ⟨r, hr⟩ : ∃ r, r = a.tmod b := ⟨_, rfl⟩
  have e : b * t + r = a := by rw [ht, hr]; exact Int.mul_tdiv_add_tmod a b
  have hq : (a : ℚ) / b = t + r / b := by
    rw [← e]; push_cast; field_simp
  have h1 : |(r : ℚ) / b| < 1 := by
    rw [abs_div, div_lt_one (abs_pos.2 hb')]
    have : |r| < |b| := by 
      have h := Nat.mod_lt a.natAbs (Int.natAbs_pos.2 hb)
      rw [← Int.natAbs_tmod, ← hr] at h
      rw [Int.abs_eq_natAbs, Int.abs_eq_natAbs]
      exact_mod_cast h
    exact_mod_cast this
  have hrs : 0 ≤ a → 0 ≤ r := fun h => by rw [hr]; exact Int.tmod_nonneg b h
  have hrn : a ≤ 0 → r ≤ 0 := fun h => by
    have := Int.tmod_nonneg b (a := -a) (by omega)
    rw [Int.neg_tmod, ← hr] at this
    omega
  rw [← ht]
  obtain ⟨l, u⟩ := abs_lt.1 h1
  have same : 0 ≤ (a : ℚ) / b → 0 ≤ (r : ℚ) / b := fun h => by
    rcases le_total 0 a with ha | ha
    · have r0 : (0 : ℚ) ≤ r := by exact_mod_cast hrs ha
      rcases lt_or_gt_of_ne hb with hb0 | hb0
      · have hbq : (b : ℚ) < 0 := by exact_mod_cast hb0
        have haq : (a : ℚ) ≤ 0 := by
          rw [le_div_iff_of_neg hbq] at h; linarith
        have : a ≤ 0 := by exact_mod_cast haq
        have : r = 0 := le_antisymm (hrn this) (hrs ha)
        rw [this]; simp
      · have hbq : (0 : ℚ) < b := by exact_mod_cast hb0
        positivity
    · have r0 : (r : ℚ) ≤ 0 := by exact_mod_cast hrn ha
      rcases lt_or_gt_of_ne hb with hb0 | hb0
      · have hbq : (b : ℚ) < 0 := by exact_mod_cast hb0
        exact div_nonneg_of_nonpos r0 hbq.le
      · have hbq : (0 : ℚ) < b := by exact_mod_cast hb0
        have haq : (0 : ℚ) ≤ a := by
          rw [le_div_iff₀ hbq] at h; linarith
        have : 0 ≤ a := by exact_mod_cast haq
        have : r = 0 := le_antisymm (hrn ha) (hrs this)
        rw [this]; simp
  have same' : ¬0 ≤ (a : ℚ) / b → (r : ℚ) / b ≤ 0 := fun h => by
    rw [not_le] at h
    rcases lt_or_gt_of_ne hb with hb0 | hb0
    · have hbq : (b : ℚ) < 0 := by exact_mod_cast hb0
      have haq : (0 : ℚ) < a := by rw [div_lt_iff_of_neg hbq] at h; linarith
      have r0 : (0 : ℚ) ≤ r := by exact_mod_cast hrs (by exact_mod_cast haq.le)
      exact div_nonpos_of_nonneg_of_nonpos r0 hbq.le
    · have hbq : (0 : ℚ) < b := by exact_mod_cast hb0
      have haq : (a : ℚ) < 0 := by rw [div_lt_iff₀ hbq] at h; linarith
      have r0 : (r : ℚ) ≤ 0 := by exact_mod_cast hrn (by exact_mod_cast haq.le)
      exact div_nonpos_of_nonpos_of_nonneg r0 hbq.le
  unfold intPart
  split
  · rename_i h
    symm
    rw [Int.floor_eq_iff, hq]
    have := same h
    constructor <;> linarith
  · rename_i h
    symm
    rw [Int.ceil_eq_iff, hq]
    have := same' h
    constructor <;> linarith

/-- **C117.** `x % y` of finite floats, `y` not zero, is exactly `x - y * trunc(x / y)`, has the sign of `x` (also when zero)
and is smaller than `y` in magnitude. -/
theorem C117_rem {x y : F32} (hx : x.isFinite = true) (hy : y.isFinite = true) (h0 : y.val ≠ 0) :
    IsVal (x % y) (x.val - y.val * intPart (x.val / y.val)) ∧ (x % y).sign = x.sign ∧ |(x % y).val| < |y.val| ∧
      |(x % y).val| ≤ |x.val| := by
  obtain ⟨f, s, u⟩ := rem_val hx hy h0
  have hb : y.units ≠ 0 := by intro h; apply h0; rw [val, h]; simp
  have hq : x.val / y.val = (x.units : ℚ) / y.units := by
    have : (y.units : ℚ) ≠ 0 := by exact_mod_cast hb
    unfold val; field_simp
  have hv : (x % y).val = x.val - y.val * intPart (x.val / y.val) := by
    rw [hq, ← tdiv_intPart hb, val, u]
    have e := Int.mul_tdiv_add_tmod x.units y.units
    have e' : ((x.units.tmod y.units : Int) : ℚ) = x.units - y.units * (x.units.tdiv y.units : Int) := by
      have : x.units.tmod y.units = x.units - y.units * x.units.tdiv y.units := by omega
      rw [this]; push_cast; ring
    rw [e']
    unfold val
    ring
  refine ⟨⟨f, hv⟩, s, ?_, ?_⟩
  · rw [abs_units, abs_units, u]
    have : (x.units.tmod y.units).natAbs < y.units.natAbs := by
      rw [Int.natAbs_tmod]; exact Nat.mod_lt _ (Int.natAbs_pos.2 hb)
    have h : ((x.units.tmod y.units).natAbs : ℚ) < y.units.natAbs := by exact_mod_cast this
    exact div_lt_div_of_pos_right h (by norm_num)
  · rw [abs_units, abs_units, u]
    have : (x.units.tmod y.units).natAbs ≤ x.units.natAbs := by
      rw [Int.natAbs_tmod]; exact Nat.mod_le _ _
    have h : ((x.units.tmod y.units).natAbs : ℚ) ≤ x.units.natAbs := by exact_mod_cast this
    exact div_le_div_of_nonneg_right h (by norm_num)

/-- **C117.** `%` on the remaining operands: NaN for a zero divisor, an infinite dividend or a NaN; the dividend itself, bit for
bit, for an infinite divisor. -/
theorem C117_rem_special (x y : F32) :
    ((y.isZero = true ∨ x.isInf = true ∨ x.isNaN = true ∨ y.isNaN = true) → (x % y).isNaN = true) ∧
    (x.isFinite = true → y.isInf = true → x % y = x) := by
  refine ⟨rem_isNaN x y, fun hx hy => ?_⟩
  have nz : y.isZero = false := by
    have : y.mag = infMag := by simpa [isInf] using hy
    simp [isZero, this, infMag]
  have ny : y.isNaN = false := by
    have : y.mag = infMag := by simpa [isInf] using hy
    simp [isNaN, this]
  rw [rem_def, F32.rem, not_nan_of_finite hx, ny, not_inf_of_finite hx, nz, hy]
  rfl

/-- **C117.** `%` ignores the sign of the divisor, is odd in the dividend and idempotent, bit for bit. -/
theorem C117_rem_laws {x y : F32} (hx : x.isFinite = true) (hy : y.isFinite = true) (h0 : y.val ≠ 0) :
    x % (-y) = x % y ∧ (-x) % y = -(x % y) ∧ (x % y) % y = x % y := by
  obtain ⟨⟨f, -⟩, s, l, -⟩ := C117_rem hx hy h0
  have hy' : (-y).isFinite = true := (isFinite_neg y).trans hy
  have hx' : (-x).isFinite = true := (isFinite_neg x).trans hx
  have h0' : (-y).val ≠ 0 := by rw [val_neg]; exact neg_ne_zero.2 h0
  have un : ∀ z : F32, (-z).units = -z.units := fun z => by
    have h := val_neg z
    unfold val at h
    have : ((-z).units : ℚ) = -(z.units : ℚ) := by
      field_simp at h; exact h
    exact_mod_cast this
  obtain ⟨-, s0, u0⟩ := rem_val hx hy h0
  obtain ⟨-, s1, u1⟩ := rem_val hx hy' h0'
  obtain ⟨-, s2, u2⟩ := rem_val hx' hy h0
  obtain ⟨-, s3, u3⟩ := rem_val f hy h0
  refine ⟨eq_of_val_sign ?_ (s1.trans s0.symm), eq_of_val_sign ?_ ?_, eq_of_val_sign ?_ s3⟩
  · unfold val; rw [u1, u0, un, Int.tmod_neg]
  · rw [val_neg]; unfold val; rw [u2, u0, un, Int.neg_tmod]; push_cast; ring
  · rw [s2, sign_neg, sign_neg, s0]
  · unfold val
    rw [u3, u0, Int.tmod_tmod]

/-- **C117.** `rem_euclid` ignores the sign of the modulus; with an infinite modulus it is the dividend when that is not
negative and `+inf` (the modulus, not a remainder) otherwise. -/
theorem C117_rem_euclid (x m : F32) (hx : x.isFinite = true) :
    (m.isFinite = true → m.val ≠ 0 → x.remEuclid (-m) = x.remEuclid m) ∧
    (m.isInf = true → x.remEuclid m = if 0 ≤ x.val then x else posInf) := by
  constructor
  · intro hm h0
    have : (-m).abs = m.abs := by
      refine eq_of_val_sign ?_ ?_
      · rw [val_abs, val_abs, val_neg, abs_neg]
      · rw [sign_abs, sign_abs]
    unfold F32.remEuclid
    rw [(C117_rem_laws hx hm h0).1, this]
  · intro hm
    unfold F32.remEuclid
    rw [(C117_rem_special x m).2 hx hm]
    have z : ZERO.isFinite = true := by decide
    have vz : ZERO.val = 0 := val_posZero
    by_cases h : 0 ≤ x.val
    · have : x.ge ZERO = true := (ge_iff hx z).2 (by rw [vz]; exact h)
      simp only [this, if_true, if_pos h]
    · have : x.ge ZERO = false := by
        rw [Bool.eq_false_iff]; intro hc; exact h (by have := (ge_iff hx z).1 hc; rwa [vz] at this)
      simp only [this, if_neg h]
      have ma : m.abs = posInf := by
        rw [eq_pack_of_inf hm]
        cases m.sign <;> decide
      rw [ma]
      have : (x + posInf) = posInf := by
        show F32.addAs .add x posInf = posInf
        rw [F32.addAs, not_nan_of_finite hx, not_inf_of_finite hx]
        rfl
      simpa using this

/-- **C117.** Applying `rem_euclid` again with the same modulus changes nothing, unless the first result was rounded up to the
modulus; then the second application gives zero. -/
theorem C117_rem_euclid_idem {x m : F32} (hx : x.isFinite = true) (hm : m.isFinite = true) (h0 : m.val ≠ 0) :
    ((x.remEuclid m).val < |m.val| → ((x.remEuclid m).remEuclid m).val = (x.remEuclid m).val) ∧
    ((x.remEuclid m).val = |m.val| → ((x.remEuclid m).remEuclid m).val = 0) := by
  obtain ⟨⟨f, -⟩, n, l, -⟩ := C12_rem_euclid x m hx hm h0
  obtain ⟨-, -, -, e⟩ := C12_rem_euclid (x.remEuclid m) m f hm h0
  have hp : 0 < |m.val| := abs_pos.2 h0
  rw [e (Or.inl n), leastRem]
  constructor
  · intro h
    have : ⌊(x.remEuclid m).val / |m.val|⌋ = 0 := by
      rw [Int.floor_eq_zero_iff]
      exact ⟨div_nonneg n hp.le, (div_lt_one hp).2 h⟩
    rw [this]; simp
  · intro h
    rw [h, div_self hp.ne']; simp

/-- `-7.5 % 2 = -1.5`, and the second case of idempotence occurs: `rem_euclid(-2^-30, 1)` is `1`, and again `0`. -/
example : IsVal ((-lit 75 10) % lit 2 1) (-3 / 2) ∧ IsVal (F32.remEuclid ⟨0xb0800000#32⟩ ONE) 1 ∧
    IsVal ((F32.remEuclid ⟨0xb0800000#32⟩ ONE).remEuclid ONE) 0 := by
  have e1 : (-lit 75 10 : F32) % lit 2 1 = ⟨0xbfc00000#32⟩ := eval_eq (n := 0xbfc00000) (by kernel_rfl)
  have e2 : F32.remEuclid ⟨0xb0800000#32⟩ ONE = ⟨0x3f800000#32⟩ := eval_eq (n := 0x3f800000) (by kernel_rfl)
  have e3 : F32.remEuclid ⟨0x3f800000#32⟩ ONE = ⟨0#32⟩ := eval_eq (n := 0) (by kernel_rfl)
  rw [e2, e1, e3]
  refine ⟨⟨by decide, ?_⟩, ⟨by decide, val_one⟩, ⟨by decide, val_posZero⟩⟩
  have : (⟨0xbfc00000#32⟩ : F32) = -⟨0x3fc00000#32⟩ := by decide
  rw [this, val_neg, val_of_units (u := 3 * 2 ^ 148) (by decide +kernel)]
  norm_num

end Micromath.Props
