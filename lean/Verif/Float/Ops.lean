import Verif.Float.Val
import Verif.Model.Float
import Mathlib.Algebra.Order.Floor.Ring
import Mathlib.Data.Rat.Floor

/-!
# Specification lemmas for the primitive operations

Each operation on finite operands returns the correctly rounded exact result (`RN`), or an infinity when
the exact result has magnitude at least `ovf`.
-/

namespace Micromath.F32

/-! ## Bit fields -/

theorem mag_lt (x : F32) : x.mag < 2 ^ 31 := Nat.mod_lt _ (by norm_num)

theorem toNat_eq (x : F32) : x.bits.toNat = x.mag + if x.sign then 2 ^ 31 else 0 := by
  have := x.bits.isLt
  unfold mag sign
  split <;> simp_all <;> omega

theorem ext_mag_sign {x y : F32} (h1 : x.mag = y.mag) (h2 : x.sign = y.sign) : x = y := by
  ext1; apply BitVec.eq_of_toNat_eq; rw [toNat_eq, toNat_eq, h1, h2]

theorem pack_toNat (s : Bool) {m : Nat} (hm : m < 2 ^ 31) :
    (pack s m).bits.toNat = m + if s then 2 ^ 31 else 0 := by
  unfold pack
  rw [BitVec.toNat_ofNat, Nat.mod_eq_of_lt]
  split <;> omega

theorem mag_pack (s : Bool) {m : Nat} (hm : m < 2 ^ 31) : (pack s m).mag = m := by
  unfold mag; rw [pack_toNat s hm]; split <;> omega

theorem sign_pack (s : Bool) {m : Nat} (hm : m < 2 ^ 31) : (pack s m).sign = s := by
  unfold sign; rw [pack_toNat s hm]; cases s
  · simp; omega
  · simp

theorem pack_sign_mag (x : F32) : pack x.sign x.mag = x :=
  ext_mag_sign (mag_pack _ (mag_lt x)) (sign_pack _ (mag_lt x))

theorem mag_neg (x : F32) : (-x).mag = x.mag := by
  show (x.bits ^^^ 0x80000000#32).toNat % 2 ^ 31 = x.bits.toNat % 2 ^ 31
  rw [BitVec.toNat_xor, Nat.xor_mod_two_pow]
  exact Nat.xor_zero _

theorem sign_neg (x : F32) : (-x).sign = !x.sign := by
  show decide (2 ^ 31 ≤ (x.bits ^^^ 0x80000000#32).toNat) = !decide (2 ^ 31 ≤ x.bits.toNat)
  have h1 : decide (2 ^ 31 ≤ (x.bits ^^^ 0x80000000#32).toNat) = (x.bits ^^^ 0x80000000#32).msb := by
    rw [BitVec.msb_eq_decide]
  have h2 : decide (2 ^ 31 ≤ x.bits.toNat) = x.bits.msb := by rw [BitVec.msb_eq_decide]
  rw [h1, h2, BitVec.msb_xor]; rw [show (0x80000000#32).msb = true from rfl, Bool.xor_true]

@[simp] theorem neg_neg' (x : F32) : -(-x) = x :=
  ext_mag_sign (by rw [mag_neg, mag_neg]) (by rw [sign_neg, sign_neg, Bool.not_not])

@[simp] theorem isNaN_neg (x : F32) : (-x).isNaN = x.isNaN := by simp only [isNaN, mag_neg]
@[simp] theorem isInf_neg (x : F32) : (-x).isInf = x.isInf := by simp only [isInf, mag_neg]
@[simp] theorem isFinite_neg (x : F32) : (-x).isFinite = x.isFinite := by simp only [isFinite, mag_neg]
@[simp] theorem isZero_neg (x : F32) : (-x).isZero = x.isZero := by simp only [isZero, mag_neg]

theorem isFinite_iff {x : F32} : x.isFinite = true ↔ x.mag < infMag := by simp [isFinite]

theorem not_nan_of_finite {x : F32} (h : x.isFinite) : x.isNaN = false := by
  rw [isFinite_iff] at h; simp [isNaN]; omega
theorem not_inf_of_finite {x : F32} (h : x.isFinite) : x.isInf = false := by
  rw [isFinite_iff] at h; simp [isInf]; omega
theorem not_finite_of_nan {x : F32} (h : x.isNaN) : x.isFinite = false := by
  simp [isNaN] at h; simp [isFinite]; omega
theorem not_inf_of_nan {x : F32} (h : x.isNaN) : x.isInf = false := by
  simp [isNaN] at h; simp [isInf]; omega
theorem class_cases (x : F32) : x.isFinite ∨ x.isInf ∨ x.isNaN := by
  simp [isFinite, isInf, isNaN]; omega
theorem finite_of {x : F32} (h1 : x.isNaN = false) (h2 : x.isInf = false) : x.isFinite := by
  simp [isNaN] at h1; simp [isInf] at h2; simp [isFinite]; omega

/-! ## Values -/

theorem val_eq (x : F32) : x.val = if x.sign then -mval x.mag else mval x.mag := by
  unfold val units mval
  split <;> simp [neg_div]

theorem val_of_pos {x : F32} (h : x.sign = false) : x.val = mval x.mag := by simp [val_eq, h]
theorem val_of_neg {x : F32} (h : x.sign = true) : x.val = -mval x.mag := by simp [val_eq, h]

theorem abs_val (x : F32) : |x.val| = mval x.mag := by
  rw [val_eq]; split
  · rw [abs_neg, abs_of_nonneg (mval_nonneg _)]
  · rw [abs_of_nonneg (mval_nonneg _)]

@[simp] theorem val_neg (x : F32) : (-x).val = -x.val := by
  rw [val_eq, val_eq, mag_neg, sign_neg]; cases x.sign <;> simp

theorem val_eq_zero {x : F32} : x.val = 0 ↔ x.mag = 0 := by
  rw [← abs_eq_zero, abs_val]
  rw [← mval_zero, mval_inj]

theorem isZero_iff {x : F32} : x.isZero = true ↔ x.val = 0 := by
  rw [val_eq_zero]; simp [isZero]

theorem val_pos_sign {x : F32} (h : 0 < x.val) : x.sign = false := by
  by_contra hs
  rw [Bool.not_eq_false] at hs
  rw [val_of_neg hs] at h
  linarith [mval_nonneg x.mag]

theorem val_neg_sign {x : F32} (h : x.val < 0) : x.sign = true := by
  by_contra hs
  rw [Bool.not_eq_true] at hs
  rw [val_of_pos hs] at h
  linarith [mval_nonneg x.mag]

theorem abs_val_lt_ovf {x : F32} (h : x.isFinite) : |x.val| < ovf := by
  rw [← rbits_lt_inf_iff, ← rbits_abs, abs_val, rbits_mval]; exact isFinite_iff.1 h

theorem abs_val_le_maxF {x : F32} (h : x.isFinite) : |x.val| ≤ maxF := by
  rw [abs_val, ← mval_maxF, mval_le]
  have := isFinite_iff.1 h; omega

/-- A float is determined by its value and sign bit. -/
theorem eq_of_val_sign {x y : F32} (h : x.val = y.val) (hs : x.sign = y.sign) : x = y := by
  apply ext_mag_sign _ hs
  rw [← mval_inj, ← abs_val, ← abs_val, h]

theorem eq_of_val_ne {x y : F32} (h : x.val = y.val) (h0 : x.val ≠ 0) : x = y := by
  apply eq_of_val_sign h
  rcases lt_or_gt_of_ne h0 with h1 | h1
  · rw [val_neg_sign h1, val_neg_sign (h ▸ h1)]
  · rw [val_pos_sign h1, val_pos_sign (h ▸ h1)]

theorem maxF_lt_ovf : maxF < ovf := by norm_num [maxF, ovf]

theorem infMag_lt : infMag < 2 ^ 31 := by decide

/-- The result constructor shared by all operations. -/
theorem pack_rbits (s : Bool) {q : ℚ} (h : |q| < ovf) :
    (pack s (min (rbits q) infMag)).isFinite ∧
    (pack s (min (rbits q) infMag)).val = (if s then -mval (rbits q) else mval (rbits q)) := by
  have h1 := (rbits_lt_inf_iff q).2 h
  have h2 := infMag_lt
  have h3 : min (rbits q) infMag = rbits q := by omega
  rw [h3, isFinite_iff, val_eq, mag_pack _ (by omega), sign_pack _ (by omega)]
  exact ⟨h1, rfl⟩

theorem pack_rbits_inf (s : Bool) {q : ℚ} (h : ovf ≤ |q|) :
    pack s (min (rbits q) infMag) = pack s infMag := by
  have h1 : ¬ rbits q < infMag := by rw [rbits_lt_inf_iff]; linarith
  congr 1; omega

theorem RN_of_neg {q : ℚ} (h : q < 0) : RN q = -mval (rbits q) := by rw [RN, if_pos h]

/-! ## Comparisons -/

theorem key_neg (x : F32) : (-x).key = -x.key := by
  unfold key; rw [mag_neg, sign_neg]; cases x.sign <;> simp

theorem key_lt_iff {x y : F32} : x.key < y.key ↔ x.val < y.val := by
  have hx := mval_nonneg x.mag
  have hy := mval_nonneg y.mag
  have h0 : ∀ b : Nat, mval b = 0 ↔ b = 0 := fun b => by rw [← mval_zero, mval_inj]
  have hxy := @mval_lt x.mag y.mag
  have hyx := @mval_lt y.mag x.mag
  rw [val_eq, val_eq]; unfold key
  cases x.sign <;> cases y.sign <;> simp only [Bool.false_eq_true, if_true, if_false]
  · rw [hxy]; omega
  · constructor <;> intro h
    · omega
    · linarith
  · constructor <;> intro h
    · by_contra hc
      have h1 : mval x.mag = 0 := by linarith
      have h2 : mval y.mag = 0 := by linarith
      rw [h0] at h1 h2; omega
    · by_contra hc
      have h1 : x.mag = 0 := by omega
      have h2 : y.mag = 0 := by omega
      rw [← h0] at h1 h2; linarith
  · rw [neg_lt_neg_iff (a := mval x.mag), hyx]; omega

theorem key_le_iff {x y : F32} : x.key ≤ y.key ↔ x.val ≤ y.val := by
  rw [← not_lt, ← not_lt, key_lt_iff]

theorem key_eq_iff {x y : F32} : x.key = y.key ↔ x.val = y.val := by
  rw [le_antisymm_iff, le_antisymm_iff, key_le_iff, key_le_iff]

theorem lt_iff {x y : F32} (hx : x.isFinite) (hy : y.isFinite) : x.lt y = true ↔ x.val < y.val := by
  simp [lt, not_nan_of_finite hx, not_nan_of_finite hy, key_lt_iff]
theorem le_iff {x y : F32} (hx : x.isFinite) (hy : y.isFinite) : x.le y = true ↔ x.val ≤ y.val := by
  simp [le, not_nan_of_finite hx, not_nan_of_finite hy, key_le_iff]
theorem feq_iff {x y : F32} (hx : x.isFinite) (hy : y.isFinite) : x.feq y = true ↔ x.val = y.val := by
  simp [feq, not_nan_of_finite hx, not_nan_of_finite hy, key_eq_iff]
theorem gt_iff {x y : F32} (hx : x.isFinite) (hy : y.isFinite) : x.gt y = true ↔ y.val < x.val :=
  lt_iff hy hx
theorem ge_iff {x y : F32} (hx : x.isFinite) (hy : y.isFinite) : x.ge y = true ↔ y.val ≤ x.val :=
  le_iff hy hx

theorem lt_nan_left {x : F32} (h : x.isNaN) (y : F32) : x.lt y = false := by simp [lt, h]
theorem lt_nan_right {y : F32} (h : y.isNaN) (x : F32) : x.lt y = false := by simp [lt, h]
theorem le_nan_left {x : F32} (h : x.isNaN) (y : F32) : x.le y = false := by simp [le, h]
theorem le_nan_right {y : F32} (h : y.isNaN) (x : F32) : x.le y = false := by simp [le, h]
theorem feq_nan_left {x : F32} (h : x.isNaN) (y : F32) : x.feq y = false := by simp [feq, h]
theorem feq_nan_right {y : F32} (h : y.isNaN) (x : F32) : x.feq y = false := by simp [feq, h]

/-! ## Arithmetic -/

section
variable [Cfg]

theorem add_def (x y : F32) : x + y = addAs .add x y := rfl
theorem sub_def (x y : F32) : x - y = addAs .sub x (-y) := rfl
theorem mul_def (x y : F32) : x * y = mul x y := rfl
theorem div_def (x y : F32) : x / y = div x y := rfl
theorem rem_def (x y : F32) : x % y = rem x y := rfl

omit [Cfg] in
theorem units_add_val (x y : F32) : x.val + y.val = ((x.units + y.units : Int) : ℚ) / 2 ^ 149 := by
  unfold val; push_cast; ring

/-- Complete description of addition on finite operands. -/
theorem addAs_finite (o : FOp) {x y : F32} (hx : x.isFinite) (hy : y.isFinite) :
    addAs o x y =
      if x.val + y.val = 0 then (if x.sign && y.sign then negZero else posZero)
      else pack (decide (x.val + y.val < 0)) (min (rbits (x.val + y.val)) infMag) := by
  have e1 : x.val + y.val = 0 ↔ x.units + y.units = 0 := by
    rw [units_add_val, div_eq_zero_iff]; norm_num
    norm_cast
  have e2 : x.val + y.val < 0 ↔ x.units + y.units < 0 := by
    rw [units_add_val, div_lt_iff₀ two149_pos, zero_mul]; norm_cast
  have e3 : rbits (x.val + y.val) = roundBits (x.units + y.units).natAbs 1 := by
    apply rbits_eq one_pos
    rw [units_add_val, abs_div, abs_of_pos two149_pos, div_mul_cancel₀ _ two149_pos.ne']
    rw [Nat.cast_natAbs]; push_cast; simp
  simp only [addAs, not_nan_of_finite hx, not_nan_of_finite hy, not_inf_of_finite hx,
    not_inf_of_finite hy, e1, e2, e3, roundMag]
  simp

/-- Sum of finite floats that does not overflow. -/
theorem addAs_val (o : FOp) {x y : F32} (hx : x.isFinite) (hy : y.isFinite)
    (h : |x.val + y.val| < ovf) :
    (addAs o x y).isFinite ∧ (addAs o x y).val = RN (x.val + y.val) := by
  rw [addAs_finite o hx hy]
  split
  · rename_i h0
    rw [h0, RN_zero]
    split <;> exact ⟨by decide, by simp [val, show units negZero = 0 from rfl, show units posZero = 0 from rfl]⟩
  · obtain ⟨h1, h2⟩ := pack_rbits (decide (x.val + y.val < 0)) h
    refine ⟨h1, h2.trans ?_⟩
    rw [RN]; simp

theorem add_val {x y : F32} (hx : x.isFinite) (hy : y.isFinite) (h : |x.val + y.val| < ovf) :
    (x + y).isFinite ∧ (x + y).val = RN (x.val + y.val) := addAs_val _ hx hy h

theorem sub_val {x y : F32} (hx : x.isFinite) (hy : y.isFinite) (h : |x.val - y.val| < ovf) :
    (x - y).isFinite ∧ (x - y).val = RN (x.val - y.val) := by
  have := addAs_val .sub hx (y := -y) (by simpa using hy) (by rw [val_neg, ← sub_eq_add_neg]; exact h)
  rw [val_neg, ← sub_eq_add_neg] at this
  exact this

theorem addAs_ovf (o : FOp) {x y : F32} (hx : x.isFinite) (hy : y.isFinite)
    (h : ovf ≤ |x.val + y.val|) :
    addAs o x y = pack (decide (x.val + y.val < 0)) infMag := by
  rw [addAs_finite o hx hy, if_neg, pack_rbits_inf _ h]
  intro h0
  rw [h0] at h; norm_num [ovf] at h

theorem mul_finite {x y : F32} (hx : x.isFinite) (hy : y.isFinite) :
    x * y = pack (x.sign != y.sign) (min (rbits (x.val * y.val)) infMag) := by
  have e3 : rbits (x.val * y.val) = roundBits (magU x.mag * magU y.mag) (2 ^ 149) := by
    apply rbits_eq (by positivity)
    rw [abs_mul, abs_val, abs_val, mval, mval]
    push_cast; field_simp; norm_num; ring
  simp [mul_def, mul, not_nan_of_finite hx, not_nan_of_finite hy, not_inf_of_finite hx,
    not_inf_of_finite hy, e3, roundMag]

omit [Cfg] in
theorem RN_signed {q : ℚ} {s : Bool} (h1 : q < 0 → s = true) (h2 : 0 < q → s = false) :
    (if s then -mval (rbits q) else mval (rbits q)) = RN q := by
  rcases lt_trichotomy q 0 with h | h | h
  · rw [h1 h, RN_of_neg h]; simp
  · subst h; simp
  · rw [h2 h, RN_of_nonneg h.le]; simp

omit [Cfg] in
theorem sign_mul_facts (x y : F32) :
    (x.val * y.val < 0 → (x.sign != y.sign) = true) ∧ (0 < x.val * y.val → (x.sign != y.sign) = false) := by
  have hx := mval_nonneg x.mag
  have hy := mval_nonneg y.mag
  have hp := mul_nonneg hx hy
  rw [val_eq, val_eq]
  cases x.sign <;> cases y.sign <;> simp <;> nlinarith

theorem mul_val {x y : F32} (hx : x.isFinite) (hy : y.isFinite) (h : |x.val * y.val| < ovf) :
    (x * y).isFinite ∧ (x * y).val = RN (x.val * y.val) := by
  rw [mul_finite hx hy]
  obtain ⟨h1, h2⟩ := pack_rbits (x.sign != y.sign) h
  refine ⟨h1, h2.trans ?_⟩
  obtain ⟨s1, s2⟩ := sign_mul_facts x y
  exact RN_signed s1 s2

theorem mul_ovf {x y : F32} (hx : x.isFinite) (hy : y.isFinite) (h : ovf ≤ |x.val * y.val|) :
    x * y = pack (x.sign != y.sign) infMag := by
  rw [mul_finite hx hy, pack_rbits_inf _ h]

theorem sign_mul_finite {x y : F32} (hx : x.isFinite) (hy : y.isFinite) :
    (x * y).sign = (x.sign != y.sign) := by
  rw [mul_finite hx hy, sign_pack]
  have := infMag_lt; omega

theorem div_finite {x y : F32} (hx : x.isFinite) (hy : y.isFinite) (h0 : y.val ≠ 0) :
    x / y = pack (x.sign != y.sign) (min (rbits (x.val / y.val)) infMag) := by
  have hz : y.isZero = false := by
    rw [Bool.eq_false_iff]; intro h; exact h0 (isZero_iff.1 h)
  have hm : 0 < magU y.mag := magU_pos.2 (Nat.pos_of_ne_zero fun h => h0 (val_eq_zero.2 h))
  have hm' : (0 : ℚ) < magU y.mag := by exact_mod_cast hm
  have e3 : rbits (x.val / y.val) = roundBits (magU x.mag * 2 ^ 149) (magU y.mag) := by
    apply rbits_eq hm
    rw [abs_div, abs_val, abs_val, mval, mval]
    push_cast; field_simp; norm_num
  simp [div_def, div, not_nan_of_finite hx, not_nan_of_finite hy, not_inf_of_finite hx,
    not_inf_of_finite hy, e3, roundMag, hz]

omit [Cfg] in
theorem sign_div_facts (x y : F32) :
    (x.val / y.val < 0 → (x.sign != y.sign) = true) ∧ (0 < x.val / y.val → (x.sign != y.sign) = false) := by
  have hx := mval_nonneg x.mag
  have hy := mval_nonneg y.mag
  have hp := div_nonneg hx hy
  rw [val_eq, val_eq]
  cases x.sign <;> cases y.sign <;> simp [neg_div, div_neg] <;> linarith

theorem div_val {x y : F32} (hx : x.isFinite) (hy : y.isFinite) (h0 : y.val ≠ 0)
    (h : |x.val / y.val| < ovf) :
    (x / y).isFinite ∧ (x / y).val = RN (x.val / y.val) := by
  rw [div_finite hx hy h0]
  obtain ⟨h1, h2⟩ := pack_rbits (x.sign != y.sign) h
  refine ⟨h1, h2.trans ?_⟩
  obtain ⟨s1, s2⟩ := sign_div_facts x y
  exact RN_signed s1 s2

theorem div_ovf {x y : F32} (hx : x.isFinite) (hy : y.isFinite) (h0 : y.val ≠ 0)
    (h : ovf ≤ |x.val / y.val|) : x / y = pack (x.sign != y.sign) infMag := by
  rw [div_finite hx hy h0, pack_rbits_inf _ h]

/-- NaN propagation. -/
theorem addAs_nan (o : FOp) {x y : F32} (h : x.isNaN ∨ y.isNaN) : (addAs o x y).isNaN := by
  have : (x.isNaN || y.isNaN) = true := by simpa using h
  simp only [addAs, this, if_true]; exact Cfg.nanOp_isNaN _ _ _
theorem add_nan {x y : F32} (h : x.isNaN ∨ y.isNaN) : (x + y).isNaN := addAs_nan _ h
theorem sub_nan {x y : F32} (h : x.isNaN ∨ y.isNaN) : (x - y).isNaN :=
  addAs_nan _ (y := -y) (by simpa using h)
theorem mul_nan {x y : F32} (h : x.isNaN ∨ y.isNaN) : (x * y).isNaN := by
  have : (x.isNaN || y.isNaN) = true := by simpa using h
  simp only [mul_def, mul, this, if_true]; exact Cfg.nanOp_isNaN _ _ _
theorem div_nan {x y : F32} (h : x.isNaN ∨ y.isNaN) : (x / y).isNaN := by
  have : (x.isNaN || y.isNaN) = true := by simpa using h
  simp only [div_def, div, this, if_true]; exact Cfg.nanOp_isNaN _ _ _
theorem rem_nan {x y : F32} (h : x.isNaN ∨ y.isNaN) : (x % y).isNaN := by
  have : (x.isNaN || y.isNaN) = true := by simpa using h
  simp only [rem_def, rem, this, if_true]; exact Cfg.nanOp_isNaN _ _ _

/-- Remainder of finite operands: exact, `x - y * trunc (x / y)`, with the sign of `x`. -/
theorem rem_val {x y : F32} (hx : x.isFinite) (hy : y.isFinite) (h0 : y.val ≠ 0) :
    (x % y).isFinite ∧ (x % y).sign = x.sign ∧ (x % y).units = Int.tmod x.units y.units := by
  have hz : y.isZero = false := by
    rw [Bool.eq_false_iff]; intro h; exact h0 (isZero_iff.1 h)
  have hm : 0 < magU y.mag := magU_pos.2 (Nat.pos_of_ne_zero fun h => h0 (val_eq_zero.2 h))
  have hdef : x % y = pack x.sign (roundMag (magU x.mag % magU y.mag) 1) := by
    simp [rem_def, rem, not_nan_of_finite hx, not_nan_of_finite hy, not_inf_of_finite hx,
      not_inf_of_finite hy, hz]
  -- the remainder is representable
  have hrep : ∃ b, magU b = magU x.mag % magU y.mag ∧ b ≤ x.mag := by
    rcases Nat.lt_or_ge x.mag y.mag with h | h
    · exact ⟨x.mag, (Nat.mod_eq_of_lt (magU_lt_iff.2 h)).symm, le_rfl⟩
    · obtain ⟨k, r, hk, hk1, hk2⟩ := mag_split y.mag
      obtain ⟨k', r', hk', hk1', hk2'⟩ := mag_split x.mag
      have hy' := magU_eq_iff_split hk hk1 hk2.le
      have hx' := magU_eq_iff_split hk' hk1' hk2'.le
      have hkk : k ≤ k' := by omega
      have hdvd : magU x.mag % magU y.mag = (r' * 2 ^ (k' - k) % r) * 2 ^ k := by
        rw [hx', hy', show r' * 2 ^ k' = r' * 2 ^ (k' - k) * 2 ^ k by
          rw [mul_assoc, ← pow_add]; congr 2; omega, Nat.mul_mod_mul_right]
      have hrpos : 0 < r := by
        rw [hy'] at hm
        exact Nat.pos_of_mul_pos_right hm
      have hlt := Nat.mod_lt (r' * 2 ^ (k' - k)) hrpos
      obtain ⟨b, hb⟩ := magU_exists (m := r' * 2 ^ (k' - k) % r) (by omega) k
      refine ⟨b, by rw [hb, hdvd], ?_⟩
      rw [← magU_le_iff, hb, ← hdvd]
      exact Nat.mod_le _ _
  obtain ⟨b, hb, hbx⟩ := hrep
  have hxm := isFinite_iff.1 hx
  have hinf := infMag_lt
  have hr : roundMag (magU x.mag % magU y.mag) 1 = b := by
    rw [roundMag, ← hb, roundBits_magU]; omega
  rw [hdef, hr]
  have hmag := mag_pack x.sign (m := b) (by omega)
  have hsgn := sign_pack x.sign (m := b) (by omega)
  refine ⟨by rw [isFinite_iff, hmag]; omega, hsgn, ?_⟩
  unfold units
  rw [hmag, hsgn, hb]
  have : ((magU x.mag : Int)).tmod (magU y.mag) = ((magU x.mag % magU y.mag : Nat) : Int) := rfl
  cases x.sign <;> cases y.sign <;> simp [Int.neg_tmod, Int.tmod_neg, this]

end

/-! ## Casts and literals -/

theorem lit_val {n d : Nat} (hd : 0 < d) (h : (n : ℚ) / d < ovf) :
    (lit n d).isFinite ∧ (lit n d).val = RN ((n : ℚ) / d) := by
  have hn : 0 ≤ (n : ℚ) / d := by positivity
  have e : rbits ((n : ℚ) / d) = roundBits (n * 2 ^ 149) d := by
    apply rbits_eq hd; rw [abs_of_nonneg hn]; push_cast; ring
  have := pack_rbits false (q := (n : ℚ) / d) (by rwa [abs_of_nonneg hn])
  rw [e] at this
  refine ⟨this.1, this.2.trans ?_⟩
  rw [RN_of_nonneg hn, e]; simp

theorem ofInt_val {n : Int} (h : |(n : ℚ)| < ovf) :
    (ofInt n).isFinite ∧ (ofInt n).val = RN n := by
  have e : rbits (n : ℚ) = roundBits (n.natAbs * 2 ^ 149) 1 := by
    apply rbits_eq one_pos
    push_cast; rw [Nat.cast_natAbs]; simp; norm_num
  have := pack_rbits (decide (n < 0)) (q := (n : ℚ)) h
  rw [e] at this
  refine ⟨this.1, this.2.trans ?_⟩
  rw [RN, e]; simp

theorem ofInt_exact {n : Int} (h : n.natAbs ≤ 2 ^ 24) :
    (ofInt n).isFinite ∧ (ofInt n).val = n := by
  have := ofInt_val (n := n) (by
    rw [← Int.cast_abs, ← Nat.cast_natAbs]
    have : (n.natAbs : ℚ) ≤ 2 ^ 24 := by exact_mod_cast h
    refine this.trans_lt (by norm_num [ovf]))
  rwa [RN_of_rep (rep_int h)] at this

/-- Truncation toward zero of a rational. -/
def truncQ (q : ℚ) : Int := if 0 ≤ q then ⌊q⌋ else ⌈q⌉

theorem tdiv_eq_truncQ (n : Int) : n.tdiv (2 ^ 149) = truncQ ((n : ℚ) / 2 ^ 149) := by
  have hpos : (0 : Int) < 2 ^ 149 := by norm_num
  unfold truncQ
  rcases le_or_gt 0 n with h | h
  · rw [if_pos (by positivity), Int.tdiv_eq_ediv_of_nonneg h]
    symm
    have : (n : ℚ) / 2 ^ 149 = (n : ℚ) / ((2 ^ 149 : Nat) : ℚ) := by norm_num
    rw [this, Rat.floor_intCast_div_natCast]; norm_num
  · rw [if_neg (by rw [not_le]; apply div_neg_of_neg_of_pos; exact_mod_cast h; positivity)]
    obtain ⟨m, rfl⟩ : ∃ m, n = -m := ⟨-n, by ring⟩
    have hm : 0 ≤ m := by omega
    rw [Int.neg_tdiv, Int.tdiv_eq_ediv_of_nonneg hm]
    push_cast
    rw [neg_div, Int.ceil_neg]
    have : (m : ℚ) / 2 ^ 149 = (m : ℚ) / ((2 ^ 149 : Nat) : ℚ) := by norm_num
    rw [this, Rat.floor_intCast_div_natCast]; norm_num

theorem toI32_finite {x : F32} (hx : x.isFinite) :
    x.toI32 = max (-2 ^ 31) (min (2 ^ 31 - 1) (truncQ x.val)) := by
  rw [toI32, not_nan_of_finite hx, not_inf_of_finite hx, val, ← tdiv_eq_truncQ]
  simp

end Micromath.F32
