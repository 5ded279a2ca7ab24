import Mathlib.Analysis.SpecialFunctions.Complex.Arg
import Verif.Props.Atan

/-!
# C40, C81: `atan2`
-/

set_option exponentiation.threshold 1000

namespace Micromath.Props
open F32 Spec RealAux

variable [Cfg]

omit [Cfg] in
theorem and_sign_bits (x : F32) : 0x80000000#32 &&& x.toBits = if x.sign then 0x80000000#32 else 0#32 := by
  apply BitVec.eq_of_toNat_eq
  have h := toNat_and_sign x.bits
  have h2 := toNat_div_sign x
  rw [show (0x80000000#32 &&& x.toBits) = x.bits &&& SIGN_MASK by rw [BitVec.and_comm]; rfl, h, h2]
  cases x.sign <;> rfl

omit [Cfg] in
/-- The quadrant offset computed from the two sign bits. -/
theorem quadrant (x y : F32) :
    ((((~~~(0x80000000#32 &&& x.toBits) &&& (0x80000000#32 &&& y.toBits)) >>> 29) |||
      ((0x80000000#32 &&& x.toBits) >>> 30)).toNat : Int) = if x.sign then 2 else if y.sign then 4 else 0 := by
  rw [and_sign_bits, and_sign_bits]
  cases x.sign <;> cases y.sign <;> decide

omit [Cfg] in
theorem sign_xor (x y : F32) : (fromBits (x.toBits ^^^ y.toBits)).sign = (x.sign ^^ y.sign) := by
  have e : ∀ u : F32, u.sign = u.bits.msb := by
    intro u; rw [BitVec.msb_eq_decide]; rfl
  rw [e, e, e]
  exact BitVec.msb_xor

omit [Cfg] in
theorem mulE {X Y : ℚ} (hM : (1 : ℚ) / 2 ^ 62 ≤ max X Y) :
    1 / 2 ^ 124 ≤ X ^ 2 + Y ^ 2 ∧ 1 / 2 ^ 150 * Y ≤ 1 / 2 ^ 24 * (X ^ 2 + Y ^ 2) := by
  obtain ⟨M, hMe⟩ : ∃ M, M = max X Y := ⟨_, rfl⟩
  rw [← hMe] at hM
  have hY' : Y ≤ M := hMe ▸ le_max_right _ _
  have hM2 : M ^ 2 ≤ X ^ 2 + Y ^ 2 := by
    rcases max_choice X Y with h | h <;> rw [h] at hMe <;> rw [hMe] <;> nlinarith [sq_nonneg X, sq_nonneg Y]
  have hm : (1 / 2 ^ 62) * M ≤ M ^ 2 := by nlinarith
  constructor
  · have : (1 : ℚ) / 2 ^ 62 * (1 / 2 ^ 62) ≤ 1 / 2 ^ 62 * M := mul_le_mul_of_nonneg_left hM (by norm_num)
    norm_num at this hm ⊢
    linarith
  · norm_num at hm ⊢
    linarith

/-- The ideal quotient of `atan2_norm`. -/
def gQ (X Y : ℚ) : ℚ := (cB * X * Y + Y ^ 2) / (X ^ 2 + 2 * (cB * X * Y) + Y ^ 2)

/-- The quotient computed by `atan2_norm`: the angle to the `x` axis within the first quadrant, in quarter turns. -/
def qF (x y : F32) : F32 := (F32.abs (ATAN_B * x * y) + y * y) / (x * x + F32.abs (ATAN_B * x * y) + (F32.abs (ATAN_B * x * y) + y * y))

theorem atan2_core_q {x y : F32} (hx : x.isFinite = true) (hy : y.isFinite = true) (bx : |x.val| ≤ 9 * 10 ^ 18)
    (by' : |y.val| ≤ 9 * 10 ^ 18) (hM : (1 : ℚ) / 2 ^ 62 ≤ max |x.val| |y.val|) :
    ∃ q r : F32, q = qF x y ∧ y.atan2Norm x = ofInt (if x.sign then 2 else if y.sign then 4 else 0) + r ∧
      q.isFinite = true ∧ q.sign = false ∧ 0 ≤ q.val ∧ q.val ≤ 1 ∧ |q.val - gQ (|x.val|) (|y.val|)| ≤ 46 / 2 ^ 24 ∧
      r.isFinite = true ∧ (r.val = if x.sign ^^ y.sign then -q.val else q.val) ∧ (y.val = 0 → q.val = 0) := by
  obtain ⟨X, hX⟩ : ∃ X, X = |x.val| := ⟨_, rfl⟩
  obtain ⟨Y, hY⟩ : ∃ Y, Y = |y.val| := ⟨_, rfl⟩
  rw [← hX, ← hY] at hM
  rw [← hX] at bx
  rw [← hY] at by'
  have X0 : 0 ≤ X := hX ▸ abs_nonneg _
  have Y0 : 0 ≤ Y := hY ▸ abs_nonneg _
  obtain ⟨hD1, hD2⟩ := mulE hM
  have hB : ATAN_B.val = cB := val_ATAN_B
  have hB0 : (0 : ℚ) ≤ cB := by norm_num [cB]
  have hB1 : (cB : ℚ) ≤ 1 := by norm_num [cB]
  have hXY : X * Y ≤ 81 * 10 ^ 36 := by nlinarith
  have hXY0 : 0 ≤ X * Y := mul_nonneg X0 Y0
  have hXX : X * X ≤ 81 * 10 ^ 36 := by nlinarith
  have hYY : Y * Y ≤ 81 * 10 ^ 36 := by nlinarith
  have hβ0 : 0 ≤ cB * X * Y := by rw [mul_assoc]; exact mul_nonneg hB0 hXY0
  have hβ1 : cB * X * Y ≤ X * Y := by rw [mul_assoc]; nlinarith
  obtain ⟨D, hD⟩ : ∃ D, D = X ^ 2 + 2 * (cB * X * Y) + Y ^ 2 := ⟨_, rfl⟩
  have hDD : X ^ 2 + Y ^ 2 ≤ D := by rw [hD]; linarith
  have hXD : X ^ 2 ≤ D := by linarith [sq_nonneg Y]
  have hYD : Y ^ 2 ≤ D := by linarith [sq_nonneg X]
  have hD0 : 1 / 2 ^ 124 ≤ D := hD1.trans hDD
  have small : (1 : ℚ) / 2 ^ 150 ≤ 1 / 2 ^ 24 * D := by
    have : (1 : ℚ) / 2 ^ 24 * (1 / 2 ^ 124) ≤ 1 / 2 ^ 24 * D := mul_le_mul_of_nonneg_left hD0 (by norm_num)
    norm_num at this ⊢
    linarith
  have Dp : 0 < D := lt_of_lt_of_le (by norm_num) hD0
  -- the two squares
  have exx : |x.val * x.val| = X ^ 2 := by rw [abs_mul, ← hX]; ring
  have eyy : |y.val * y.val| = Y ^ 2 := by rw [abs_mul, ← hY]; ring
  obtain ⟨fa, va⟩ := mul_val hx hx (by rw [exx]; exact lt_of_le_of_lt (by linarith [pow_two X, pow_two Y]) (show (81 * 10 ^ 36 : ℚ) < ovf by norm_num [ovf]))
  obtain ⟨fc, vc⟩ := mul_val hy hy (by rw [eyy]; exact lt_of_le_of_lt (by linarith [pow_two X, pow_two Y]) (show (81 * 10 ^ 36 : ℚ) < ovf by norm_num [ovf]))
  have ea : |(x * x).val - X ^ 2| ≤ 3 / 2 ^ 24 * D := by
    have : x.val * x.val = X ^ 2 := by rw [← exx, abs_of_nonneg (mul_self_nonneg _)]
    rw [va, this]
    refine (RN_err _).trans (max_le (by linarith) ?_)
    rw [abs_of_nonneg (sq_nonneg _)]; linarith
  have ec : |(y * y).val - Y ^ 2| ≤ 3 / 2 ^ 24 * D := by
    have : y.val * y.val = Y ^ 2 := by rw [← eyy, abs_of_nonneg (mul_self_nonneg _)]
    rw [vc, this]
    refine (RN_err _).trans (max_le (by linarith) ?_)
    rw [abs_of_nonneg (sq_nonneg _)]; linarith
  -- the cross term
  have ebx : |ATAN_B.val * x.val| = cB * X := by rw [abs_mul, hB, abs_of_nonneg hB0, ← hX]
  obtain ⟨f1, v1⟩ := mul_val fin_ATAN_B hx (by
    rw [ebx]; exact lt_of_le_of_lt (show cB * X ≤ 9 * 10 ^ 18 by nlinarith) (by norm_num [ovf]))
  obtain ⟨P, hP⟩ : ∃ P, P = |(ATAN_B * x).val| := ⟨_, rfl⟩
  have P0 : 0 ≤ P := hP ▸ abs_nonneg _
  have eP : |P - cB * X| ≤ 1 / 2 ^ 150 + cB * X / 2 ^ 24 := by
    rw [hP, v1, ← RN_abs, ebx]
    refine (RN_err _).trans (max_le ?_ ?_)
    · have : 0 ≤ cB * X / 2 ^ 24 := div_nonneg (mul_nonneg hB0 X0) (by norm_num)
      linarith
    · rw [abs_of_nonneg (mul_nonneg hB0 X0)]
      linarith [show (0 : ℚ) ≤ 1 / 2 ^ 150 by norm_num]
  have ePY : |P * Y - cB * X * Y| ≤ 1 / 2 ^ 24 * D + cB * X * Y / 2 ^ 24 := by
    have : P * Y - cB * X * Y = (P - cB * X) * Y := by ring
    rw [this, abs_mul, abs_of_nonneg Y0]
    have h1 := mul_le_mul_of_nonneg_right eP Y0
    have h2 : (1 / 2 ^ 150 + cB * X / 2 ^ 24) * Y = 1 / 2 ^ 150 * Y + cB * X * Y / 2 ^ 24 := by ring
    have h3 : (1 : ℚ) / 2 ^ 24 * (X ^ 2 + Y ^ 2) ≤ 1 / 2 ^ 24 * D := mul_le_mul_of_nonneg_left hDD (by norm_num)
    linarith
  have hβD : 2 * (cB * X * Y) ≤ D := by rw [hD]; linarith [sq_nonneg X, sq_nonneg Y]
  have eQ : |P * Y - cB * X * Y| ≤ 3 / 2 / 2 ^ 24 * D := by linarith
  have PY0 : 0 ≤ P * Y := mul_nonneg P0 Y0
  have hDov : D ≤ 34 * 10 ^ 37 := by
    have e1 : X ^ 2 = X * X := pow_two X
    have e2 : Y ^ 2 = Y * Y := pow_two Y
    rw [hD, e1, e2]; linarith
  have PYD : P * Y ≤ D := by
    have := (abs_le.1 eQ).2
    norm_num at this
    linarith
  have ePy : |(ATAN_B * x).val * y.val| = P * Y := by rw [abs_mul, ← hP, ← hY]
  obtain ⟨f2, v2⟩ := mul_val f1 hy (by rw [ePy]; exact lt_of_le_of_lt (PYD.trans hDov) (by norm_num [ovf]))
  have eb : |(F32.abs (ATAN_B * x * y)).val - cB * X * Y| ≤ 3 / 2 ^ 24 * D := by
    rw [val_abs, v2, ← RN_abs, ePy]
    have h1 := RN_err (P * Y)
    have h2 : |RN (P * Y) - P * Y| ≤ 1 / 2 ^ 24 * D := by
      refine h1.trans (max_le small ?_)
      rw [abs_of_nonneg PY0]; linarith
    have := abs_sub_le (RN (P * Y)) (P * Y) (cB * X * Y)
    linarith
  have core := quot_core (a := x * x) (b := F32.abs (ATAN_B * x * y)) (c := y * y) (α := X ^ 2) (β := cB * X * Y)
    (γ := Y ^ 2) fa (by rw [isFinite_abs]; exact f2) fc (sq_facts (not_nan_of_finite hx)).2 (sign_abs _)
    (sq_facts (not_nan_of_finite hy)).2 (sq_nonneg _) hβ0 (sq_nonneg _) (by rw [← hD]; exact Dp)
    (by rw [← hD]; exact hDov) (by rw [← hD]; exact ea) (by rw [← hD]; exact eb) (by rw [← hD]; exact ec)
  obtain ⟨g1, g2, g3, g4, g5, g6⟩ := core
  refine ⟨(F32.abs (ATAN_B * x * y) + y * y) /
    (x * x + F32.abs (ATAN_B * x * y) + (F32.abs (ATAN_B * x * y) + y * y)), F32.copysign
    ((F32.abs (ATAN_B * x * y) + y * y) / (x * x + F32.abs (ATAN_B * x * y) + (F32.abs (ATAN_B * x * y) + y * y)))
    (fromBits (x.toBits ^^^ y.toBits)), rfl, ?_, g1, g2, g3, g4, ?_, ?_, ?_, ?_⟩
  · unfold F32.atan2Norm
    have := or_sign_eq (fromBits (x.toBits ^^^ y.toBits)) _ g2
    rw [← this, ← quadrant]
    show ofInt _ + fromBits ((0x80000000#32 &&& x.toBits) ^^^ (0x80000000#32 &&& y.toBits) ||| _) = _
    rw [and_xor]
    rfl
  · rw [← hX, ← hY]; exact g5
  · rw [isFinite, mag_copysign]; exact g1
  · rw [copysign_val g2, sign_xor]
  · intro h
    exact g6 (by rw [val_abs, v2, h, mul_zero, RN_zero, abs_zero]) (by rw [vc, h, mul_zero, RN_zero])

theorem atan2_core {x y : F32} (hx : x.isFinite = true) (hy : y.isFinite = true) (bx : |x.val| ≤ 9 * 10 ^ 18)
    (by' : |y.val| ≤ 9 * 10 ^ 18) (hM : (1 : ℚ) / 2 ^ 62 ≤ max |x.val| |y.val|) :
    ∃ q r : F32, y.atan2Norm x = ofInt (if x.sign then 2 else if y.sign then 4 else 0) + r ∧
      q.isFinite = true ∧ q.sign = false ∧ 0 ≤ q.val ∧ q.val ≤ 1 ∧ |q.val - gQ (|x.val|) (|y.val|)| ≤ 46 / 2 ^ 24 ∧
      r.isFinite = true ∧ (r.val = if x.sign ^^ y.sign then -q.val else q.val) ∧ (y.val = 0 → q.val = 0) := by
  obtain ⟨q, r, -, h⟩ := atan2_core_q hx hy bx by' hM
  exact ⟨q, r, h⟩

/-- Subtracting 4 from a number in `(2, 4]` is exact. -/
theorem fold_norm {n : F32} (fn : n.isFinite = true) (h2 : n.val ≤ 4) :
    IsVal (if n.gt (lit 2 1) then n - lit 4 1 else n) (if 2 < n.val then n.val - 4 else n.val) := by
  have v4 : IsVal (lit 4 1) 4 := ⟨by decide, by
    have : (lit 4 1).val = 4 := by rw [val_of_units (u := 4 * 2 ^ 149) (by decide +kernel)]; norm_num
    exact this⟩
  have v2 : IsVal (lit 2 1) 2 := ⟨by decide, by
    have : (lit 2 1).val = 2 := by rw [val_of_units (u := 2 * 2 ^ 149) (by decide +kernel)]; norm_num
    exact this⟩
  have hg : n.gt (lit 2 1) = true ↔ 2 < n.val := by rw [gt_iff fn v2.1, v2.2]
  by_cases h : 2 < n.val
  · rw [if_pos (hg.2 h), if_pos h]
    have hr : Rep (n.val - 4) := by
      have := sterbenz (x := n) (y := lit 4 1) (by rw [v4.2]; linarith) (by rw [v4.2]; linarith)
      rwa [v4.2] at this
    obtain ⟨f, v⟩ := sub_val fn v4.1 (by
      rw [v4.2, abs_lt]; constructor <;> norm_num [ovf] <;> linarith)
    rw [v4.2, RN_of_rep hr] at v
    exact ⟨f, v⟩
  · rw [if_neg (fun c => h (hg.1 c)), if_neg h]
    exact ⟨fn, rfl⟩

/-- The four quadrants of the normalised angle, in units of a quarter turn. -/
theorem atan2_quarter_q {x y : F32} (hx : x.isFinite = true) (hy : y.isFinite = true) (bx : |x.val| ≤ 9 * 10 ^ 18)
    (by' : |y.val| ≤ 9 * 10 ^ 18) (hM : (1 : ℚ) / 2 ^ 62 ≤ max |x.val| |y.val|) :
    ∃ (m : F32) (q : ℚ), q = (qF x y).val ∧ y.atan2 x = FRAC_PI_2 * m ∧ m.isFinite = true ∧ 0 ≤ q ∧ q ≤ 1 ∧
      |q - gQ (|x.val|) (|y.val|)| ≤ 46 / 2 ^ 24 ∧
      (x.sign = false → y.sign = false → m.val = q) ∧
      (x.sign = true → y.sign = false → m.val = RN (2 - q)) ∧
      (x.sign = true → y.sign = true → (m.val = RN (2 + q) - 4 ∧ 2 < RN (2 + q)) ∨ (m.val = 2 ∧ RN (2 + q) = 2)) ∧
      (x.sign = false → y.sign = true → m.val = RN (4 - q) - 4) ∧ (y.val = 0 → q = 0) := by
  obtain ⟨q, r, hq, hn, fq, sq, q0, q1, hg, fr, hr, hz⟩ := atan2_core_q hx hy bx by' hM
  have rep2 : Rep (2 : ℚ) := by simpa using rep_int (m := 2) (by decide)
  have rep1 : Rep (1 : ℚ) := by simpa using rep_int (m := 1) (by decide)
  have rep3 : Rep (3 : ℚ) := by simpa using rep_int (m := 3) (by decide)
  have rep4 : Rep (4 : ℚ) := by simpa using rep_int (m := 4) (by decide)
  have hat : y.atan2 x = FRAC_PI_2 * (if (y.atan2Norm x).gt (lit 2 1) then y.atan2Norm x - lit 4 1 else y.atan2Norm x) := by
    unfold F32.atan2
    rw [pi_div_two]
  refine ⟨_, q.val, by rw [hq], hat, ?_⟩
  rw [hn]
  cases hsx : x.sign <;> cases hsy : y.sign <;> rw [hsx, hsy] at hr
  · -- first quadrant
    have k0 : IsVal (ofInt 0) 0 := by simpa using ofInt_isVal (n := 0) (by decide)
    have hrv : r.val = q.val := by simpa using hr
    obtain ⟨f, v⟩ := add_val k0.1 fr (by rw [k0.2, hrv, abs_of_nonneg (by linarith)]; norm_num [ovf]; linarith)
    rw [k0.2, hrv, zero_add, RN_val] at v
    have hng : ¬ (ofInt 0 + r).gt (lit 2 1) = true := by
      have v2 : (lit 2 1).val = 2 := by rw [val_of_units (u := 2 * 2 ^ 149) (by decide +kernel)]; norm_num
      rw [gt_iff f (by decide), v2, v]; linarith
    simp only [Bool.false_eq_true, if_false]
    rw [if_neg hng]
    exact ⟨f, q0, q1, hg, fun _ _ => v, by simp, by simp, by simp, hz⟩
  · have k0 : IsVal (ofInt 4) 4 := by simpa using ofInt_isVal (n := 4) (by decide)
    have hrv : r.val = -q.val := by simpa using hr
    obtain ⟨f, v⟩ := add_val k0.1 fr (by
      rw [k0.2, hrv, abs_of_nonneg (by linarith)]; norm_num [ovf]; linarith)
    rw [k0.2, hrv, ← sub_eq_add_neg] at v
    have l3 : 3 ≤ (ofInt 4 + r).val := by rw [v]; exact le_RN_of_rep rep3 (by linarith)
    have l4 : (ofInt 4 + r).val ≤ 4 := by rw [v]; exact RN_le_of_rep rep4 (by linarith)
    have := fold_norm f l4
    rw [if_pos (show 2 < (ofInt 4 + r).val by linarith)] at this
    simp only [Bool.false_eq_true, if_false, if_true]
    refine ⟨this.1, q0, q1, hg, by simp, by simp, by simp, fun _ _ => ?_, hz⟩
    rw [this.2, v]
  · have k0 : IsVal (ofInt 2) 2 := by simpa using ofInt_isVal (n := 2) (by decide)
    have hrv : r.val = -q.val := by simpa using hr
    obtain ⟨f, v⟩ := add_val k0.1 fr (by
      rw [k0.2, hrv, abs_of_nonneg (by linarith)]; norm_num [ovf]; linarith)
    rw [k0.2, hrv, ← sub_eq_add_neg] at v
    have l1 : 1 ≤ (ofInt 2 + r).val := by rw [v]; exact le_RN_of_rep rep1 (by linarith)
    have l2 : (ofInt 2 + r).val ≤ 2 := by rw [v]; exact RN_le_of_rep rep2 (by linarith)
    have := fold_norm f (by linarith)
    rw [if_neg (show ¬ 2 < (ofInt 2 + r).val by linarith)] at this
    simp only [if_true]
    refine ⟨this.1, q0, q1, hg, by simp, fun _ _ => ?_, by simp, by simp, hz⟩
    rw [this.2, v]
  · have k0 : IsVal (ofInt 2) 2 := by simpa using ofInt_isVal (n := 2) (by decide)
    have hrv : r.val = q.val := by simpa using hr
    obtain ⟨f, v⟩ := add_val k0.1 fr (by
      rw [k0.2, hrv, abs_of_nonneg (by linarith)]; norm_num [ovf]; linarith)
    rw [k0.2, hrv] at v
    have l2 : 2 ≤ (ofInt 2 + r).val := by rw [v]; exact le_RN_of_rep rep2 (by linarith)
    have l3 : (ofInt 2 + r).val ≤ 3 := by rw [v]; exact RN_le_of_rep rep3 (by linarith)
    have := fold_norm f (by linarith)
    simp only [if_true]
    refine ⟨this.1, q0, q1, hg, by simp, by simp, fun _ _ => ?_, by simp, hz⟩
    by_cases h : 2 < (ofInt 2 + r).val
    · rw [if_pos h] at this
      left
      rw [this.2, v]
      exact ⟨rfl, v ▸ h⟩
    · rw [if_neg h] at this
      right
      have e : (ofInt 2 + r).val = 2 := by linarith
      rw [this.2, ← v, e]
      exact ⟨rfl, rfl⟩

@[inherit_doc atan2_quarter_q]
theorem atan2_quarter {x y : F32} (hx : x.isFinite = true) (hy : y.isFinite = true) (bx : |x.val| ≤ 9 * 10 ^ 18)
    (by' : |y.val| ≤ 9 * 10 ^ 18) (hM : (1 : ℚ) / 2 ^ 62 ≤ max |x.val| |y.val|) :
    ∃ (m : F32) (q : ℚ), y.atan2 x = FRAC_PI_2 * m ∧ m.isFinite = true ∧ 0 ≤ q ∧ q ≤ 1 ∧
      |q - gQ (|x.val|) (|y.val|)| ≤ 46 / 2 ^ 24 ∧
      (x.sign = false → y.sign = false → m.val = q) ∧
      (x.sign = true → y.sign = false → m.val = RN (2 - q)) ∧
      (x.sign = true → y.sign = true → (m.val = RN (2 + q) - 4 ∧ 2 < RN (2 + q)) ∨ (m.val = 2 ∧ RN (2 + q) = 2)) ∧
      (x.sign = false → y.sign = true → m.val = RN (4 - q) - 4) ∧ (y.val = 0 → q = 0) := by
  obtain ⟨m, q, -, h⟩ := atan2_quarter_q hx hy bx by' hM
  exact ⟨m, q, h⟩

/-! ### Against the real argument -/

omit [Cfg] in
/-- The angle of a point of the closed first quadrant. -/
noncomputable def theta (X Y : ℚ) : ℝ := if X = 0 then Real.pi / 2 else Real.arctan ((Y : ℝ) / X)

omit [Cfg] in
theorem theta_bounds {X Y : ℚ} (hX : 0 ≤ X) (hY : 0 ≤ Y) : 0 ≤ theta X Y ∧ theta X Y ≤ Real.pi / 2 := by
  unfold theta
  split_ifs
  · exact ⟨by positivity, le_rfl⟩
  · refine ⟨Real.arctan_nonneg.2 (div_nonneg (by exact_mod_cast hY) (by exact_mod_cast hX)), ?_⟩
    exact (Real.arctan_lt_pi_div_two _).le

omit [Cfg] in
theorem gQ_approx {X Y : ℚ} (hX : 0 ≤ X) (hY : 0 ≤ Y) (h0 : 0 < max X Y) :
    |(cH : ℝ) * gQ X Y - theta X Y| ≤ 0.002831 := by
  unfold theta
  split_ifs with h
  · subst h
    have hY0 : Y ≠ 0 := by rintro rfl; simp at h0
    have : gQ 0 Y = 1 := by unfold gQ; field_simp; ring
    rw [this, abs_le]
    have := Real.pi_gt_d6
    have := Real.pi_lt_d6
    norm_num [cH] at *
    constructor <;> linarith
  · have hX0 : (0 : ℝ) < X := by
      have : 0 < X := lt_of_le_of_ne hX (Ne.symm h)
      exact_mod_cast this
    have e : ((gQ X Y : ℚ) : ℝ) = gA ((Y : ℝ) / X) := by
      unfold gQ gA
      push_cast
      have hYr : (0 : ℝ) ≤ Y := by exact_mod_cast hY
      have hB0 : (0 : ℝ) ≤ (cB : ℝ) := by norm_num [cB]
      have d1 : (X : ℝ) ^ 2 + 2 * (cB * X * Y) + Y ^ 2 ≠ 0 := by positivity
      have d2 : 1 + 2 * cB * ((Y : ℝ) / X) + ((Y : ℝ) / X) ^ 2 ≠ 0 := by positivity
      rw [div_eq_div_iff d1 d2]
      field_simp
    rw [e]
    exact atan_approx (div_nonneg (by exact_mod_cast hY) hX0.le)

omit [Cfg] in
/-- The polar form of a point of the closed first quadrant. -/
theorem theta_polar {X Y : ℚ} (hX : 0 ≤ X) (h0 : 0 < max X Y) :
    ∃ R : ℝ, 0 < R ∧ (X : ℝ) = R * Real.cos (theta X Y) ∧ (Y : ℝ) = R * Real.sin (theta X Y) := by
  unfold theta
  split_ifs with h
  · subst h
    have hY0 : 0 < Y := by rcases lt_max_iff.1 h0 with h | h; · exact absurd h (lt_irrefl _)
                           · exact h
    exact ⟨Y, by exact_mod_cast hY0, by simp, by simp⟩
  · have hX0 : (0 : ℝ) < X := by
      have : 0 < X := lt_of_le_of_ne hX (Ne.symm h)
      exact_mod_cast this
    refine ⟨X * √(1 + ((Y : ℝ) / X) ^ 2), by positivity, ?_, ?_⟩
    · rw [Real.cos_arctan]; field_simp
    · rw [Real.sin_arctan]; field_simp

omit [Cfg] in
theorem arg_polar {a b R t : ℝ} (hR : 0 < R) (ha : a = R * Real.cos t) (hb : b = R * Real.sin t)
    (ht : t ∈ Set.Ioc (-Real.pi) Real.pi) : Complex.arg ⟨a, b⟩ = t := by
  have : (⟨a, b⟩ : ℂ) = R * (Complex.cos t + Complex.sin t * Complex.I) := by
    apply Complex.ext
    · simp [ha, Complex.cos_ofReal_re, Complex.sin_ofReal_re, Complex.sin_ofReal_im]
    · simp [hb, Complex.cos_ofReal_im, Complex.sin_ofReal_re]
  rw [this, Complex.arg_mul_cos_add_sin_mul_I hR ht]

/-- Multiplying a number in `[-2, 2]` by `FRAC_PI_2`. -/
theorem quarter_mul {m : F32} (fm : m.isFinite = true) (hm : |m.val| ≤ 2) :
    (FRAC_PI_2 * m).isFinite = true ∧ |(FRAC_PI_2 * m).val| ≤ PI.val ∧
      (|m.val| ≤ 1 → |(FRAC_PI_2 * m).val| ≤ FRAC_PI_2.val) ∧ (1 ≤ |m.val| → FRAC_PI_2.val ≤ |(FRAC_PI_2 * m).val|) ∧
      (0 ≤ m.val → 0 ≤ (FRAC_PI_2 * m).val) ∧ (m.val ≤ 0 → (FRAC_PI_2 * m).val ≤ 0) ∧
      (1 / 2 ^ 22 ≤ m.val → 0 < (FRAC_PI_2 * m).val) ∧ (m.val ≤ -(1 / 2 ^ 22) → (FRAC_PI_2 * m).val < 0) ∧
      (m.val = 2 → (FRAC_PI_2 * m).val = PI.val) ∧ |((FRAC_PI_2 * m).val : ℝ) - cH * m.val| ≤ 4 / 2 ^ 24 := by
  have hv : FRAC_PI_2.val = cH := val_FRAC_PI_2
  have hp : PI.val = 2 * cH := by rw [val_PI]; norm_num [cH]
  have h0 : (0 : ℚ) ≤ cH := by norm_num [cH]
  have h1 : (1 : ℚ) ≤ cH := by norm_num [cH]
  have h2 : (cH : ℚ) ≤ 2 := by norm_num [cH]
  have ha : |FRAC_PI_2.val * m.val| = cH * |m.val| := by rw [abs_mul, hv, abs_of_nonneg h0]
  have hm0 := abs_nonneg m.val
  obtain ⟨f, v⟩ := mul_val fin_FRAC_PI_2 fm (by
    rw [ha]; exact lt_of_le_of_lt (show cH * |m.val| ≤ 4 by nlinarith) (by norm_num [ovf]))
  have r22 : Rep ((1 : ℚ) / 2 ^ 22) := by
    have := rep_pow (e := -22) (by norm_num)
    rwa [zpow_neg, ← one_div] at this
  refine ⟨f, ?_, ?_, ?_, ?_, ?_, ?_, ?_, ?_, ?_⟩ <;> rw [v]
  · exact abs_RN_le_of_rep (rep_val _) (by rw [ha, hp]; nlinarith)
  · intro h
    exact abs_RN_le_of_rep (rep_val _) (by rw [ha, hv]; nlinarith)
  · intro h
    rw [← RN_abs]
    exact le_RN_of_rep (rep_val _) (by rw [ha, hv]; nlinarith)
  · intro h; exact RN_nonneg (by rw [hv]; positivity)
  · intro h; exact RN_nonpos (by rw [hv]; exact mul_nonpos_of_nonneg_of_nonpos h0 h)
  · intro h
    refine lt_of_lt_of_le (by norm_num) (le_RN_of_rep r22 (h.trans ?_))
    rw [hv]
    have : 0 ≤ m.val := le_trans (by norm_num) h
    nlinarith
  · intro h
    refine lt_of_le_of_lt (RN_le_of_rep r22.neg (le_trans ?_ h)) (by norm_num)
    rw [hv]
    have : m.val ≤ 0 := le_trans h (by norm_num)
    nlinarith
  · intro h
    have e : FRAC_PI_2.val * m.val = PI.val := by rw [hv, hp, h]; ring
    rw [e, RN_val]
  · have : |RN (FRAC_PI_2.val * m.val) - cH * m.val| ≤ 4 / 2 ^ 24 := by
      rw [← hv]
      refine (RN_err _).trans (max_le (by norm_num) ?_)
      rw [ha]
      gcongr
      nlinarith
    have := abs_cast_le this
    push_cast at this
    exact this

omit [Cfg] in
/-- A minor component that is not negligible keeps the normalised angle away from zero. -/
theorem gQ_lower {X Y : ℚ} (hX : 0 ≤ X) (hY : 0 ≤ Y) (h0 : 0 < max X Y) (h : X / 2 ^ 17 ≤ Y) : 50 / 2 ^ 24 ≤ gQ X Y := by
  have hY0 : 0 < Y := by
    rcases lt_max_iff.1 h0 with h' | h'
    · have : 0 < X / 2 ^ 17 := by positivity
      linarith
    · exact h'
  have hB : (cB : ℚ) = 10003029 / 16777216 := by norm_num [cB]
  have hXY : 0 ≤ X * Y := mul_nonneg hX hY
  unfold gQ
  rw [le_div_iff₀ (by rw [hB]; positivity), hB]
  have h1 : X * X ≤ 2 ^ 17 * (X * Y) := by
    have := mul_le_mul_of_nonneg_left h hX
    norm_num at this ⊢
    linarith
  norm_num at h1 ⊢
  nlinarith [sq_nonneg Y]

/-- **C40.** For finite `x`, `y` up to `9e18` in magnitude, not both below `2^-62`: `atan2(y, x)` is a finite
number in `[-PI, PI]`, in the half plane given by the sign of `x`, nonnegative when `y` carries no sign and nonpositive
otherwise, except that for negative `x` and negligible negative `y` the result is `+PI`. When `|y| >= 2^-17 |x|` its
sign is that of `y`. For smaller `|y|` the sign is lost, see `C40_atan2_false`. -/
theorem C40_atan2 {x y : F32} (hx : x.isFinite = true) (hy : y.isFinite = true) (bx : |x.val| ≤ 9 * 10 ^ 18)
    (by' : |y.val| ≤ 9 * 10 ^ 18) (hM : (1 : ℚ) / 2 ^ 62 ≤ max |x.val| |y.val|) :
    (y.atan2 x).isFinite = true ∧ |(y.atan2 x).val| ≤ PI.val ∧
    (x.sign = false → |(y.atan2 x).val| ≤ FRAC_PI_2.val) ∧
    (x.sign = true → FRAC_PI_2.val ≤ |(y.atan2 x).val|) ∧
    (y.sign = false → 0 ≤ (y.atan2 x).val) ∧
    (y.sign = true → (y.atan2 x).val ≤ 0 ∨ x.sign = true ∧ (y.atan2 x).val = PI.val) ∧
    (|x.val| / 2 ^ 17 ≤ |y.val| → (y.atan2 x).val ≠ 0 ∧ (y.atan2 x).sign = y.sign) := by
  obtain ⟨m, q, e, fm, q0, q1, hg, c1, c2, c3, c4, -⟩ := atan2_quarter hx hy bx by' hM
  have rep2 : Rep (2 : ℚ) := by simpa using rep_int (m := 2) (by decide)
  have rep1 : Rep (1 : ℚ) := by simpa using rep_int (m := 1) (by decide)
  have rep3 : Rep (3 : ℚ) := by simpa using rep_int (m := 3) (by decide)
  have rep4 : Rep (4 : ℚ) := by simpa using rep_int (m := 4) (by decide)
  have hq : |x.val| / 2 ^ 17 ≤ |y.val| → 1 / 2 ^ 22 ≤ q := by
    intro h
    have h1 := gQ_lower (abs_nonneg _) (abs_nonneg _) (lt_of_lt_of_le (by norm_num) hM) h
    have h2 := (abs_le.1 hg).1
    norm_num at h1 h2 ⊢
    linarith
  have key : |m.val| ≤ 2 ∧ (x.sign = false → |m.val| ≤ 1) ∧ (x.sign = true → 1 ≤ |m.val|) ∧
      (y.sign = false → 0 ≤ m.val) ∧ (y.sign = true → m.val ≤ 0 ∨ x.sign = true ∧ m.val = 2) ∧
      (1 / 2 ^ 22 ≤ q → (y.sign = false → 1 / 2 ^ 22 ≤ m.val) ∧ (y.sign = true → m.val ≤ -(1 / 2 ^ 22))) := by
    have r2 : Rep ((2 : ℚ) + 1 / 2 ^ 22) := rep_grid (z := 2 ^ 23 + 1) (j := -22) (by norm_num) (by norm_num) (by
      rw [abs_of_nonneg (by norm_num)]; norm_num)
    have r4 : Rep ((4 : ℚ) - 1 / 2 ^ 22) := rep_grid (z := 2 ^ 24 - 1) (j := -22) (by norm_num) (by norm_num) (by
      rw [abs_of_nonneg (by norm_num)]; norm_num)
    cases hsx : x.sign <;> cases hsy : y.sign
    · have := c1 hsx hsy
      rw [this, abs_of_nonneg q0]
      exact ⟨by linarith, fun _ => q1, by simp, fun _ => q0, by simp, fun h => ⟨fun _ => h, by simp⟩⟩
    · have := c4 hsx hsy
      have l3 : 3 ≤ RN (4 - q) := le_RN_of_rep rep3 (by linarith)
      have l4 : RN (4 - q) ≤ 4 := RN_le_of_rep rep4 (by linarith)
      rw [this, abs_of_nonpos (by linarith)]
      refine ⟨by linarith, fun _ => by linarith, by simp, by simp, fun _ => Or.inl (by linarith), fun h => ⟨by simp, fun _ => ?_⟩⟩
      have : RN (4 - q) ≤ 4 - 1 / 2 ^ 22 := RN_le_of_rep r4 (by linarith)
      linarith
    · have := c2 hsx hsy
      have l1 : 1 ≤ RN (2 - q) := le_RN_of_rep rep1 (by linarith)
      have l2 : RN (2 - q) ≤ 2 := RN_le_of_rep rep2 (by linarith)
      rw [this, abs_of_nonneg (by linarith)]
      refine ⟨by linarith, by simp, fun _ => by linarith, fun _ => by linarith, by simp, fun h => ⟨fun _ => ?_, by simp⟩⟩
      refine le_trans (by norm_num) l1
    · have l2 : 2 ≤ RN (2 + q) := le_RN_of_rep rep2 (by linarith)
      have l3 : RN (2 + q) ≤ 3 := RN_le_of_rep rep3 (by linarith)
      rcases c3 hsx hsy with ⟨h1, h2⟩ | ⟨h1, h2⟩
      · rw [h1, abs_of_nonpos (by linarith)]
        refine ⟨by linarith, by simp, fun _ => by linarith, by simp, fun _ => Or.inl (by linarith), fun h => ⟨by simp, fun _ => ?_⟩⟩
        have : -(1 : ℚ) ≤ -(1 / 2 ^ 22) := by norm_num
        linarith
      · rw [h1, abs_of_nonneg (by norm_num)]
        refine ⟨le_rfl, by simp, fun _ => by norm_num, by simp, fun _ => Or.inr ⟨rfl, rfl⟩, fun h => ⟨by simp, fun _ => ?_⟩⟩
        have : 2 + 1 / 2 ^ 22 ≤ RN (2 + q) := le_RN_of_rep r2 (by linarith)
        rw [h2] at this
        norm_num at this
  obtain ⟨k1, k2, k3, k4, k5, k6⟩ := key
  obtain ⟨p1, p2, p3, p4, p5, p6, p7, p8, p9, -⟩ := quarter_mul fm k1
  rw [e]
  refine ⟨p1, p2, fun h => p3 (k2 h), fun h => p4 (k3 h), fun h => p5 (k4 h), fun h => ?_, fun h => ?_⟩
  · rcases k5 h with h' | ⟨h', h''⟩
    · exact Or.inl (p6 h')
    · exact Or.inr ⟨h', p9 h''⟩
  · obtain ⟨j1, j2⟩ := k6 (hq h)
    cases hsy : y.sign
    · have := p7 (j1 hsy)
      exact ⟨this.ne', val_pos_sign this⟩
    · have := p8 (j2 hsy)
      exact ⟨this.ne, val_neg_sign this⟩

/-- **C81.** In the same range `atan2(y, x)` is within `0.00284` of the argument of `x + iy`, up to a full turn; the full
turn is only possible when `x` and `y` both carry a sign and `|y| < 2^-17 |x|`. -/
theorem C81_atan2_accuracy {x y : F32} (hx : x.isFinite = true) (hy : y.isFinite = true) (bx : |x.val| ≤ 9 * 10 ^ 18)
    (by' : |y.val| ≤ 9 * 10 ^ 18) (hM : (1 : ℚ) / 2 ^ 62 ≤ max |x.val| |y.val|) :
    |((y.atan2 x).val : ℝ) - Complex.arg ⟨x.val, y.val⟩| ≤ 0.00284 ∨
    (x.sign = true ∧ y.sign = true ∧ |y.val| < |x.val| / 2 ^ 17 ∧
      |((y.atan2 x).val : ℝ) - (Complex.arg ⟨x.val, y.val⟩ + 2 * Real.pi)| ≤ 0.00284) := by
  obtain ⟨m, q, e, fm, q0, q1, hg, c1, c2, c3, c4, hz⟩ := atan2_quarter hx hy bx by' hM
  have rep2 : Rep (2 : ℚ) := by simpa using rep_int (m := 2) (by decide)
  have rep1 : Rep (1 : ℚ) := by simpa using rep_int (m := 1) (by decide)
  have rep3 : Rep (3 : ℚ) := by simpa using rep_int (m := 3) (by decide)
  have rep4 : Rep (4 : ℚ) := by simpa using rep_int (m := 4) (by decide)
  have hM0 : 0 < max |x.val| |y.val| := lt_of_lt_of_le (by norm_num) hM
  obtain ⟨X, hX⟩ : ∃ X, X = |x.val| := ⟨_, rfl⟩
  obtain ⟨Y, hY⟩ : ∃ Y, Y = |y.val| := ⟨_, rfl⟩
  rw [← hX, ← hY] at hM0 hg
  have X0 : 0 ≤ X := hX ▸ abs_nonneg _
  have Y0 : 0 ≤ Y := hY ▸ abs_nonneg _
  have hap := gQ_approx X0 Y0 hM0
  obtain ⟨t0, t1⟩ := theta_bounds X0 Y0
  obtain ⟨R, hR, pX, pY⟩ := theta_polar X0 hM0
  obtain ⟨t, ht⟩ : ∃ t, t = theta X Y := ⟨_, rfl⟩
  rw [← ht] at hap t0 t1 pX pY
  have hpi := Real.pi_pos
  have hc : (cH : ℝ) ≤ 2 := by norm_num [cH]
  have hc0 : (0 : ℝ) ≤ cH := by norm_num [cH]
  have hgr := abs_cast_le hg
  push_cast at hgr
  have hqt : |(cH : ℝ) * q - t| ≤ 0.002831 + 2 * (46 / 2 ^ 24) := by
    have h3 : |(cH : ℝ) * q - cH * gQ X Y| ≤ 2 * (46 / 2 ^ 24) := by
      rw [← mul_sub, abs_mul, abs_of_nonneg hc0]
      exact mul_le_mul hc hgr (abs_nonneg _) (by norm_num)
    have := abs_sub_le ((cH : ℝ) * q) (cH * gQ X Y) t
    linarith
  -- one rounding of the normalised angle
  have rn : ∀ z : ℚ, 0 ≤ z → z ≤ 4 → |((RN z : ℚ) : ℝ) - z| ≤ 4 / 2 ^ 24 := by
    intro z z0 z4
    have : |RN z - z| ≤ 4 / 2 ^ 24 := by
      refine (RN_err z).trans (max_le (by norm_num) ?_)
      rw [abs_of_nonneg z0]; gcongr
    have := abs_cast_le this
    push_cast at this
    exact this
  have hpc : |Real.pi - 2 * cH| ≤ 2 / 10 ^ 6 := by
    have := Real.pi_gt_d6
    have := Real.pi_lt_d6
    rw [abs_le]
    norm_num [cH] at *
    constructor <;> linarith
  -- from the normalised angle to the angle
  have fin : ∀ (z : ℚ) (s : ℝ), |m.val| ≤ 2 → |(m.val : ℝ) - z| ≤ 4 / 2 ^ 24 → |(cH : ℝ) * z - s| ≤ 0.002839 →
      |((y.atan2 x).val : ℝ) - s| ≤ 0.00284 := by
    intro z s hm hz hs
    have h9 := (quarter_mul fm hm).2.2.2.2.2.2.2.2.2
    rw [← e] at h9
    have h3 : |(cH : ℝ) * m.val - cH * z| ≤ 2 * (4 / 2 ^ 24) := by
      rw [← mul_sub, abs_mul, abs_of_nonneg hc0]
      exact mul_le_mul hc hz (abs_nonneg _) (by norm_num)
    have h4 := abs_sub_le ((y.atan2 x).val : ℝ) (cH * m.val) s
    have h5 := abs_sub_le ((cH : ℝ) * m.val) (cH * z) s
    norm_num at *
    linarith
  have hqt' := abs_le.1 hqt
  have hpc' := abs_le.1 hpc
  cases hsx : x.sign <;> cases hsy : y.sign
  · left
    have ex : (x.val : ℝ) = X := by rw [hX, abs_val, val_of_pos hsx]
    have ey : (y.val : ℝ) = Y := by rw [hY, abs_val, val_of_pos hsy]
    rw [ex, ey, arg_polar hR pX pY ⟨by linarith, by linarith⟩]
    have := c1 hsx hsy
    refine fin q t (by rw [this, abs_of_nonneg q0]; linarith) (by rw [this, sub_self, abs_zero]; norm_num) ?_
    norm_num at hqt ⊢
    linarith
  · left
    have ex : (x.val : ℝ) = X := by rw [hX, abs_val, val_of_pos hsx]
    have ey : (y.val : ℝ) = -Y := by rw [hY, abs_val, val_of_neg hsy]; push_cast; ring
    rw [ex, ey, arg_polar (t := -t) hR (by rw [Real.cos_neg]; exact pX) (by rw [Real.sin_neg, pY]; ring)
      ⟨by linarith, by linarith⟩]
    have hm := c4 hsx hsy
    have l3 : 3 ≤ RN (4 - q) := le_RN_of_rep rep3 (by linarith)
    have l4 : RN (4 - q) ≤ 4 := RN_le_of_rep rep4 (by linarith)
    refine fin (-q) (-t) (by rw [hm, abs_of_nonpos (by linarith)]; linarith) ?_ ?_
    · have := rn (4 - q) (by linarith) (by linarith)
      rw [hm]
      push_cast at this ⊢
      rwa [show ((RN (4 - q) : ℚ) : ℝ) - 4 - -(q : ℝ) = (RN (4 - q) : ℚ) - (4 - q) by ring]
    · push_cast
      rw [abs_le]
      norm_num at hqt' ⊢
      constructor <;> linarith [hqt'.1, hqt'.2]
  · left
    have ex : (x.val : ℝ) = -X := by rw [hX, abs_val, val_of_neg hsx]; push_cast; ring
    have ey : (y.val : ℝ) = Y := by rw [hY, abs_val, val_of_pos hsy]
    rw [ex, ey, arg_polar (t := Real.pi - t) hR (by rw [Real.cos_pi_sub, pX]; ring) (by rw [Real.sin_pi_sub, pY])
      ⟨by linarith, by linarith⟩]
    have hm := c2 hsx hsy
    have l1 : 1 ≤ RN (2 - q) := le_RN_of_rep rep1 (by linarith)
    have l2 : RN (2 - q) ≤ 2 := RN_le_of_rep rep2 (by linarith)
    refine fin (2 - q) _ (by rw [hm, abs_of_nonneg (by linarith)]; linarith) ?_ ?_
    · rw [hm]
      exact rn (2 - q) (by linarith) (by linarith)
    · push_cast
      rw [abs_le]
      norm_num at hqt' hpc' ⊢
      constructor <;> linarith [hqt'.1, hqt'.2, hpc'.1, hpc'.2]
  · have ex : (x.val : ℝ) = -X := by rw [hX, abs_val, val_of_neg hsx]; push_cast; ring
    have ey : (y.val : ℝ) = -Y := by rw [hY, abs_val, val_of_neg hsy]; push_cast; ring
    have l2 : 2 ≤ RN (2 + q) := le_RN_of_rep rep2 (by linarith)
    have l3 : RN (2 + q) ≤ 3 := RN_le_of_rep rep3 (by linarith)
    have hr := rn (2 + q) (by linarith) (by linarith)
    push_cast at hr
    by_cases hy0 : Y = 0
    · -- `y` is a negative zero
      have hyv : y.val = 0 := by rw [hY] at hy0; exact abs_eq_zero.1 hy0
      have hXp : 0 < X := by rw [hy0] at hM0; simpa using hM0
      have ht0 : t = 0 := by rw [ht, theta, if_neg hXp.ne', hy0]; simp
      have hqz := hz hyv
      left
      rw [ex, ey, hy0, Rat.cast_zero, neg_zero, arg_polar (t := Real.pi) hR (by
        rw [pX, ht0]; simp) (by simp) ⟨by linarith, le_rfl⟩]
      have h2 : RN (2 + q) = 2 := by rw [hqz, add_zero]; exact RN_of_rep rep2
      have hm : m.val = 2 := by
        rcases c3 hsx hsy with ⟨_, h⟩ | ⟨h, _⟩
        · rw [h2] at h; exact absurd h (lt_irrefl _)
        · exact h
      refine fin 2 _ (by rw [hm]; norm_num) (by rw [hm]; norm_num) ?_
      rw [abs_le]
      norm_num at hpc' ⊢
      constructor <;> linarith [hpc'.1, hpc'.2]
    · have tpos : 0 < t := by
        have hYp : (0 : ℝ) < Y := by
          have : 0 < Y := lt_of_le_of_ne Y0 (Ne.symm hy0)
          exact_mod_cast this
        refine lt_of_le_of_ne t0 ?_
        intro h
        rw [← h] at pY
        simp at pY
        exact hy0 (by exact_mod_cast pY)
      have harg : Complex.arg ⟨x.val, y.val⟩ = t - Real.pi := by
        rw [ex, ey]
        exact arg_polar hR (by rw [Real.cos_sub_pi, pX]; ring) (by rw [Real.sin_sub_pi, pY]; ring)
          ⟨by linarith, by linarith⟩
      rcases c3 hsx hsy with ⟨hm, h2⟩ | ⟨hm, h2⟩
      · left
        rw [harg]
        refine fin (q - 2) _ (by rw [hm, abs_of_nonpos (by linarith)]; linarith) ?_ ?_
        · rw [hm]
          push_cast
          rwa [show ((RN (2 + q) : ℚ) : ℝ) - 4 - ((q : ℝ) - 2) = (RN (2 + q) : ℚ) - (2 + q) by ring]
        · push_cast
          rw [abs_le]
          norm_num at hqt' hpc' ⊢
          constructor <;> linarith [hqt'.1, hqt'.2, hpc'.1, hpc'.2]
      · right
        rw [h2] at hr
        have hr' := abs_le.1 hr
        refine ⟨rfl, rfl, ?_, ?_⟩
        · by_contra hcon
          have h := gQ_lower X0 Y0 hM0 (by rw [hX, hY]; exact not_lt.1 hcon)
          have h2' := (abs_le.1 hg).1
          have hq22 : 1 / 2 ^ 22 ≤ q := by norm_num at h h2' ⊢; linarith
          have r2 : Rep ((2 : ℚ) + 1 / 2 ^ 22) := rep_grid (z := 2 ^ 23 + 1) (j := -22) (by norm_num) (by norm_num) (by
            rw [abs_of_nonneg (by norm_num)]; norm_num)
          have : 2 + 1 / 2 ^ 22 ≤ RN (2 + q) := le_RN_of_rep r2 (by linarith)
          rw [h2] at this
          norm_num at this
        · rw [harg]
          refine fin 2 _ (by rw [hm]; norm_num) (by rw [hm]; norm_num) ?_
          have hq4 : (q : ℝ) ≤ 4 / 2 ^ 24 := by
            have := hr'.1
            push_cast at this
            linarith
          have hqr : (0 : ℝ) ≤ q := by exact_mod_cast q0
          have hcq : (cH : ℝ) * q ≤ 2 * (4 / 2 ^ 24) := mul_le_mul hc hq4 hqr (by norm_num)
          have hcq0 : 0 ≤ (cH : ℝ) * q := mul_nonneg hc0 hqr
          rw [abs_le]
          norm_num at hqt' hpc' hcq ⊢
          constructor <;> linarith [hqt'.1, hqt'.2, hpc'.1, hpc'.2]

/-- **C40, C81**: the hypotheses hold for the point `(-3, 4)`. -/
example : (ofInt (-3)).isFinite = true ∧ |(ofInt (-3)).val| ≤ 9 * 10 ^ 18 ∧ |(ofInt 4).val| ≤ 9 * 10 ^ 18 ∧
    (1 : ℚ) / 2 ^ 62 ≤ max |(ofInt (-3)).val| |(ofInt 4).val| ∧ |(ofInt (-3)).val| / 2 ^ 17 ≤ |(ofInt 4).val| := by
  have h3 := ofInt_isVal (n := -3) (by decide)
  have h4 := ofInt_isVal (n := 4) (by decide)
  rw [h3.2, h4.2]
  refine ⟨h3.1, ?_, ?_, le_max_of_le_right ?_, ?_⟩ <;> norm_num

/-- **C40, refuted** as stated: with `y = -2^-30` the result does not have the sign of `y`, neither for `x = -1`, where it
is `+PI`, nor for `x = 1`, where it is `+0.0`. -/
theorem C40_atan2_false : ∃ y : F32, IsVal y (-(1 / 2 ^ 30)) ∧ y.atan2 (-one) = PI ∧ y.atan2 one = posZero := by
  refine ⟨⟨0xb0800000#32⟩, ⟨by decide, ?_⟩, ?_, ?_⟩
  · rw [val_of_units (u := -2 ^ 119) (by decide +kernel)]; norm_num
  · exact (eval_eq (n := 0x40490fdb) (by kernel_rfl)).trans (by decide +kernel)
  · exact (eval_eq (n := 0) (by kernel_rfl)).trans (by decide +kernel)

end Micromath.Props
