import Mathlib.Data.EReal.Basic
import Verif.Float.Err
import Verif.Float.Struct
import Verif.Model.Component
import Verif.Spec.Basic

/-!
# C46-C50: `mul_add`, `F32Ext`, integer conversions, comparisons, `Sum` and `Product`
-/

set_option exponentiation.threshold 1000

namespace Micromath.Props
open F32 Spec

/-! ### Exact integer arithmetic -/

theorem int_le_maxF {m : Int} (h : m.natAbs ≤ 2 ^ 24) : |(m : ℚ)| ≤ maxF := by
  have h1 : |(m : ℚ)| ≤ 2 ^ 24 := by
    rw [← Int.cast_abs, ← Nat.cast_natAbs]; exact_mod_cast h
  refine le_trans h1 ?_
  norm_num [maxF]

theorem add_int [Cfg] {x y : F32} {a b : Int} (hx : IsVal x a) (hy : IsVal y b) (h : (a + b).natAbs ≤ 2 ^ 24) :
    IsVal (x + y) (a + b : Int) := by
  have e : x.val + y.val = ((a + b : Int) : ℚ) := by rw [hx.2, hy.2]; push_cast; ring
  have := add_exact hx.1 hy.1 (by rw [e]; exact int_le_maxF h) (by rw [e]; exact rep_int h)
  rw [e] at this; exact this

theorem sub_int [Cfg] {x y : F32} {a b : Int} (hx : IsVal x a) (hy : IsVal y b) (h : (a - b).natAbs ≤ 2 ^ 24) :
    IsVal (x - y) (a - b : Int) := by
  have e : x.val - y.val = ((a - b : Int) : ℚ) := by rw [hx.2, hy.2]; push_cast; ring
  have := sub_exact hx.1 hy.1 (by rw [e]; exact int_le_maxF h) (by rw [e]; exact rep_int h)
  rw [e] at this; exact this

theorem mul_int [Cfg] {x y : F32} {a b : Int} (hx : IsVal x a) (hy : IsVal y b) (h : (a * b).natAbs ≤ 2 ^ 24) :
    IsVal (x * y) (a * b : Int) := by
  have e : x.val * y.val = ((a * b : Int) : ℚ) := by rw [hx.2, hy.2]; push_cast; ring
  have := mul_exact hx.1 hy.1 (by rw [e]; exact int_le_maxF h) (by rw [e]; exact rep_int h)
  rw [e] at this; exact this

theorem ofInt_isVal {n : Int} (h : n.natAbs ≤ 2 ^ 24) : IsVal (ofInt n) n := ofInt_exact h

/-! ### C46 -/

/-- **C46.** `mul_add` rounds twice: first the product, then the sum.  The statement only mentions exact values
and the rounding function. -/
theorem C46_mul_add [Cfg] {x a b : F32} (hx : x.isFinite = true) (ha : a.isFinite = true) (hb : b.isFinite = true)
    (h1 : |x.val * a.val| < ovf) (h2 : |RN (x.val * a.val) + b.val| < ovf) :
    IsVal (x.mulAdd a b) (RN (RN (x.val * a.val) + b.val)) := by
  obtain ⟨p1, p2⟩ := mul_val hx ha h1
  rw [← p2] at h2 ⊢
  exact add_val p1 hb h2

/-- **C46.** On integers whose product and sum stay within `2^24` it is exact. -/
theorem C46_mul_add_int [Cfg] {x a b : F32} {i j k : Int} (hx : IsVal x i) (ha : IsVal a j) (hb : IsVal b k)
    (h1 : (i * j).natAbs ≤ 2 ^ 24) (h2 : (i * j + k).natAbs ≤ 2 ^ 24) : IsVal (x.mulAdd a b) (i * j + k : Int) :=
  add_int (mul_int hx ha h1) hb h2

/-- **C46.** It is not fused: at `x = a = 1 + 2^-12`, `b = -(1 + 2^-11)` the exact result `2^-24` is representable,
and a fused operation would return it, but `mul_add` returns zero. -/
theorem C46_mul_add_not_fused [Cfg] : ∃ x a b : F32, x.isFinite = true ∧ a.isFinite = true ∧ b.isFinite = true ∧
    Rep (x.val * a.val + b.val) ∧ x.val * a.val + b.val ≠ 0 ∧ IsVal (x.mulAdd a b) 0 := by
  have hv : (⟨0x3f800800#32⟩ : F32).val = 4097 / 4096 := by
    rw [val_of_units (u := 4097 * 2 ^ 137) (by decide +kernel)]; norm_num
  have hb : (⟨0xbf801000#32⟩ : F32).val = -(2049 / 2048) := by
    rw [val_of_units (u := -2049 * 2 ^ 138) (by decide +kernel)]; norm_num
  have he : (⟨0x3f800800#32⟩ : F32).val * (⟨0x3f800800#32⟩ : F32).val + (⟨0xbf801000#32⟩ : F32).val = 2 ^ (-24 : Int) := by
    rw [hv, hb]; norm_num
  refine ⟨⟨0x3f800800#32⟩, ⟨0x3f800800#32⟩, ⟨0xbf801000#32⟩, by decide, by decide, by decide, ?_, ?_, ?_⟩
  · rw [he]; exact rep_pow (by norm_num)
  · rw [he]; norm_num
  · have : F32.mulAdd ⟨0x3f800800#32⟩ ⟨0x3f800800#32⟩ ⟨0xbf801000#32⟩ = ⟨0x0#32⟩ := eval_eq (by kernel_rfl)
    rw [this]
    exact ⟨by decide, by rw [val_of_units (u := 0) (by decide +kernel)]; norm_num⟩

/-! ### C47 -/

/-- **C47.** Every one-argument `F32Ext` method returns what the `F32` method returns. -/
theorem C47_ext_unary [Cfg] (x : F32) :
    F32Ext.abs x = x.abs ∧ F32Ext.acos x = x.acos ∧ F32Ext.asin x = x.asin ∧ F32Ext.atan x = x.atan ∧
    F32Ext.atanNorm x = x.atanNorm ∧ F32Ext.ceil x = x.ceil ∧ F32Ext.cos x = x.cos ∧ F32Ext.exp x = x.exp ∧
    F32Ext.floor x = x.floor ∧ F32Ext.fract x = x.fract ∧ F32Ext.inv x = x.inv ∧ F32Ext.invsqrt x = x.invsqrt ∧
    F32Ext.ln x = x.ln ∧ F32Ext.log2 x = x.log2 ∧ F32Ext.log10 x = x.log10 ∧ F32Ext.recip x = x.recip ∧
    F32Ext.round x = x.round ∧ F32Ext.signum x = x.signum ∧ F32Ext.sin x = x.sin ∧ F32Ext.sinCos x = x.sinCos ∧
    F32Ext.sqrt x = x.sqrt ∧ F32Ext.tan x = x.tan ∧ F32Ext.trunc x = x.trunc := by
  refine ⟨rfl, rfl, rfl, rfl, rfl, rfl, rfl, rfl, rfl, rfl, rfl, rfl, rfl, rfl, rfl, rfl, rfl, rfl, rfl, rfl, rfl, rfl, rfl⟩

/-- **C47.** Every `F32Ext` method with further arguments returns what the `F32` method returns. -/
theorem C47_ext_more [Cfg] (x y z : F32) (n : Int) :
    F32Ext.atan2 x y = x.atan2 y ∧ F32Ext.atan2Norm x y = x.atan2Norm y ∧ F32Ext.copysign x y = x.copysign y ∧
    F32Ext.divEuclid x y = x.divEuclid y ∧ F32Ext.remEuclid x y = x.remEuclid y ∧ F32Ext.hypot x y = x.hypot y ∧
    F32Ext.log x y = x.log y ∧ F32Ext.mulAdd x y z = x.mulAdd y z ∧ F32Ext.powf x y = x.powf y ∧
    F32Ext.powi x n = x.powi n := by
  refine ⟨rfl, rfl, rfl, rfl, rfl, rfl, rfl, rfl, rfl, rfl⟩

/-! ### C48 -/

theorem toInt_signed_bound {w : Nat} (x : MInt true w) : -2 ^ (w - 1) ≤ x.toInt ∧ x.toInt < 2 ^ (w - 1) := by
  unfold MInt.toInt
  rw [if_pos rfl]
  exact ⟨BitVec.le_toInt _, BitVec.toInt_lt⟩

theorem toInt_unsigned_bound {w : Nat} (x : MInt false w) : 0 ≤ x.toInt ∧ x.toInt < 2 ^ w := by
  unfold MInt.toInt
  rw [if_neg (by simp)]
  have := x.bits.isLt
  refine ⟨by positivity, by exact_mod_cast this⟩

theorem small_signed {w : Nat} (hw : w ≤ 25) (x : MInt true w) : x.toInt.natAbs ≤ 2 ^ 24 := by
  have h := toInt_signed_bound x
  have : (2 : Int) ^ (w - 1) ≤ 2 ^ 24 := pow_le_pow_right₀ (by norm_num) (by omega)
  omega

theorem small_unsigned {w : Nat} (hw : w ≤ 24) (x : MInt false w) : x.toInt.natAbs ≤ 2 ^ 24 := by
  have h := toInt_unsigned_bound x
  have : (2 : Int) ^ w ≤ 2 ^ 24 := pow_le_pow_right₀ (by norm_num) (by omega)
  omega

/-- **C48.** `F32::from` is exact on `i8`, `i16`, `u8` and `u16`. -/
theorem C48_from_int_exact :
    (∀ n : I8, IsVal (IntoF32.into n) n.toInt) ∧ (∀ n : I16, IsVal (IntoF32.into n) n.toInt) ∧
    (∀ n : U8, IsVal (IntoF32.into n) n.toInt) ∧ (∀ n : U16, IsVal (IntoF32.into n) n.toInt) :=
  ⟨fun n => ofInt_isVal (small_signed (by norm_num) n), fun n => ofInt_isVal (small_signed (by norm_num) n),
   fun n => ofInt_isVal (small_unsigned (by norm_num) n), fun n => ofInt_isVal (small_unsigned (by norm_num) n)⟩

theorem lt_of_isVal {x y : F32} {a b : Int} (hx : IsVal x a) (hy : IsVal y b) :
    (x.lt y = true ↔ a < b) ∧ (x.feq y = true ↔ a = b) := by
  rw [lt_iff hx.1 hy.1, feq_iff hx.1 hy.1, hx.2, hy.2]
  exact ⟨Int.cast_lt, Int.cast_inj⟩

/-- **C48.** The conversions preserve and reflect the order and equality. -/
theorem C48_from_int_order :
    (∀ n m : I8, ((IntoF32.into n : F32).lt (IntoF32.into m) = true ↔ n.toInt < m.toInt)) ∧
    (∀ n m : I16, ((IntoF32.into n : F32).lt (IntoF32.into m) = true ↔ n.toInt < m.toInt)) ∧
    (∀ n m : U8, ((IntoF32.into n : F32).lt (IntoF32.into m) = true ↔ n.toInt < m.toInt)) ∧
    (∀ n m : U16, ((IntoF32.into n : F32).lt (IntoF32.into m) = true ↔ n.toInt < m.toInt)) := by
  obtain ⟨h1, h2, h3, h4⟩ := C48_from_int_exact
  exact ⟨fun n m => (lt_of_isVal (h1 n) (h1 m)).1, fun n m => (lt_of_isVal (h2 n) (h2 m)).1,
    fun n m => (lt_of_isVal (h3 n) (h3 m)).1, fun n m => (lt_of_isVal (h4 n) (h4 m)).1⟩

/-- The smallest `i16` converts to `-32768.0`. -/
example : IsVal (IntoF32.into (⟨0x8000#16⟩ : I16)) (-32768 : Int) := C48_from_int_exact.2.1 ⟨0x8000#16⟩

/-! ### C49 -/

/-- The extended real number denoted by a float that is not NaN. -/
noncomputable def ext (x : F32) : EReal :=
  if x.isInf = true then (if x.sign then ⊥ else ⊤) else ((x.val : ℝ) : EReal)

theorem val_inf {x : F32} (h : x.isInf = true) : x.val = if x.sign then -2 ^ 128 else 2 ^ 128 := by
  have hm : x.mag = infMag := by simpa [isInf] using h
  rw [val_eq, hm, mval_infMag]

theorem abs_val_fin_lt {x : F32} (h : x.isFinite = true) : |x.val| < 2 ^ 128 := by
  rw [abs_val, ← mval_infMag, mval_lt]; exact isFinite_iff.1 h

theorem ext_fin {x : F32} (h : x.isFinite = true) : ext x = ((x.val : ℝ) : EReal) := by
  rw [ext, if_neg (by rw [not_inf_of_finite h]; simp)]

theorem ext_lt_iff {x y : F32} (hx : x.isNaN = false) (hy : y.isNaN = false) : ext x < ext y ↔ x.val < y.val := by
  have cx : x.isFinite = true ∨ x.isInf = true := by
    rcases class_cases x with h | h | h
    · exact Or.inl h
    · exact Or.inr h
    · rw [hx] at h; simp at h
  have cy : y.isFinite = true ∨ y.isInf = true := by
    rcases class_cases y with h | h | h
    · exact Or.inl h
    · exact Or.inr h
    · rw [hy] at h; simp at h
  rcases cx with fx | ix <;> rcases cy with fy | iy
  · rw [ext_fin fx, ext_fin fy, EReal.coe_lt_coe_iff, Rat.cast_lt]
  · rw [ext_fin fx, ext, if_pos iy, val_inf iy]
    have := abs_lt.1 (abs_val_fin_lt fx)
    cases y.sign
    · simp only [Bool.false_eq_true, if_false]
      exact iff_of_true (EReal.coe_lt_top _) this.2
    · simp only [if_true]
      exact iff_of_false (by simp) (not_lt.2 this.1.le)
  · rw [ext_fin fy, ext, if_pos ix, val_inf ix]
    have := abs_lt.1 (abs_val_fin_lt fy)
    cases x.sign
    · simp only [Bool.false_eq_true, if_false]
      exact iff_of_false (by simp) (not_lt.2 this.2.le)
    · simp only [if_true]
      exact iff_of_true (EReal.bot_lt_coe _) this.1
  · rw [ext, if_pos ix, ext, if_pos iy, val_inf ix, val_inf iy]
    cases x.sign <;> cases y.sign <;> simp

/-- **C49.** On floats that are not NaN the comparison operators are those of the extended real values. -/
theorem C49_compare {x y : F32} (hx : x.isNaN = false) (hy : y.isNaN = false) :
    (x.lt y = true ↔ ext x < ext y) ∧ (x.le y = true ↔ ext x ≤ ext y) ∧ (x.gt y = true ↔ ext x > ext y) ∧
    (x.ge y = true ↔ ext x ≥ ext y) ∧ (x.feq y = true ↔ ext x = ext y) := by
  have h1 := ext_lt_iff hx hy
  have h2 := ext_lt_iff hy hx
  have e1 : x.lt y = true ↔ ext x < ext y := by
    rw [h1, F32.lt, hx, hy, ← key_lt_iff]; simp
  have e2 : x.gt y = true ↔ ext x > ext y := by
    rw [gt_iff_lt, h2, F32.gt, F32.lt, hx, hy, ← key_lt_iff]; simp
  have e3 : x.le y = true ↔ ext x ≤ ext y := by
    rw [← not_lt, h2, not_lt, F32.le, hx, hy, ← key_le_iff]; simp
  have e4 : x.ge y = true ↔ ext x ≥ ext y := by
    rw [ge_iff_le, ← not_lt, h1, not_lt, F32.ge, F32.le, hx, hy, ← key_le_iff]; simp
  refine ⟨e1, e3, e2, e4, ?_⟩
  have e5 : ext x = ext y ↔ x.val = y.val := by
    rw [le_antisymm_iff, ← not_lt, ← not_lt, h1, h2, not_lt, not_lt, ← le_antisymm_iff]
  rw [e5, F32.feq, hx, hy, ← key_eq_iff]
  simp

/-- **C49.** Every comparison with NaN is false and `partial_cmp` is `None` exactly there. -/
theorem C49_compare_nan {x y : F32} :
    (x.isNaN = true ∨ y.isNaN = true → x.lt y = false ∧ x.le y = false ∧ x.gt y = false ∧ x.ge y = false ∧
      x.feq y = false) ∧
    (x.partialCmp y = none ↔ x.isNaN = true ∨ y.isNaN = true) := by
  constructor
  · rintro (h | h)
    · exact ⟨lt_nan_left h y, le_nan_left h y, lt_nan_right h y, le_nan_right h y, feq_nan_left h y⟩
    · exact ⟨lt_nan_right h x, le_nan_right h x, lt_nan_left h x, le_nan_left h x, feq_nan_right h x⟩
  · unfold partialCmp
    rw [← Bool.or_eq_true]
    split <;> simp_all

/-- **C49.** `partial_cmp` reports the order of the extended real values and agrees with the operators. -/
theorem C49_partial_cmp (x y : F32) :
    (x.partialCmp y = some .lt ↔ x.lt y = true) ∧ (x.partialCmp y = some .eq ↔ x.feq y = true) ∧
    (x.partialCmp y = some .gt ↔ x.gt y = true) := by
  by_cases hn : (x.isNaN || y.isNaN) = true
  · have h' : x.isNaN = true ∨ y.isNaN = true := by simpa using hn
    obtain ⟨a, _, c, _, e⟩ := C49_compare_nan.1 h'
    rw [partialCmp, if_pos hn, a, c, e]; simp
  · have hx : x.isNaN = false := by simp at hn; exact hn.1
    have hy : y.isNaN = false := by simp at hn; exact hn.2
    rw [partialCmp, if_neg hn]
    simp only [F32.lt, F32.gt, F32.feq, hx, hy, Option.some.injEq, Bool.not_false, Bool.true_and, decide_eq_true_eq]
    refine ⟨compare_lt_iff_lt, compare_eq_iff_eq, compare_gt_iff_gt⟩

/-- `-0.0 == 0.0` and `-inf < -1.0 < inf`. -/
example : negZero.feq posZero = true ∧ negInf.lt (⟨0xbf800000#32⟩ : F32) = true ∧
    (⟨0xbf800000#32⟩ : F32).lt posInf = true := by decide

/-! ### C50 -/

/-- **C50.** `Sum` starts from a zero and adds the items from left to right. -/
theorem C50_sum_fold [Cfg] : IsVal (F32.sum []) 0 ∧ ∀ l : List F32, ∀ x, F32.sum (l ++ [x]) = F32.sum l + x := by
  refine ⟨?_, fun l x => by simp [F32.sum]⟩
  rw [F32.sum, List.foldl_nil]
  rcases Cfg.sumZero_spec with h | h <;> rw [h] <;>
    exact ⟨by decide, by rw [val_of_units (u := 0) (by decide +kernel)]; norm_num⟩

/-- **C50.** `Product` starts from one and multiplies the items from left to right. -/
theorem C50_product_fold [Cfg] :
    IsVal (F32.product []) 1 ∧ ∀ l : List F32, ∀ x, F32.product (l ++ [x]) = F32.product l * x :=
  ⟨⟨fin_one, val_one⟩, fun l x => by simp [F32.product]⟩

/-- `l` is a list of floats denoting the integers `zs`. -/
def IsInts (l : List F32) (zs : List Int) : Prop := List.Forall₂ (fun x z => IsVal x (z : Int)) l zs

/-- Every initial segment of `zs` sums, from `s`, to at most `2^24` in absolute value. -/
def PartialSums (s : Int) (zs : List Int) : Prop := ∀ k, (s + (zs.take k).sum).natAbs ≤ 2 ^ 24

theorem foldl_int [Cfg] {l : List F32} {zs : List Int} (h : IsInts l zs) (s : F32) (z : Int) (hs : IsVal s z)
    (hp : PartialSums z zs) : IsVal (l.foldl (· + ·) s) (z + zs.sum : Int) := by
  induction h generalizing s z with
  | nil => simpa using hs
  | @cons x a l zs hx _ ih =>
    rw [List.foldl_cons, List.sum_cons, ← add_assoc]
    apply ih
    · exact add_int hs hx (by have := hp 1; simpa using this)
    · intro k
      have := hp (k + 1)
      simpa [← add_assoc] using this

/-- **C50.** On integer-valued items whose partial sums stay within `2^24`, `Sum` is exact. -/
theorem C50_sum_int [Cfg] {l : List F32} {zs : List Int} (h : IsInts l zs) (hp : PartialSums 0 zs) :
    IsVal (F32.sum l) (zs.sum : Int) := by
  have := foldl_int h (F32.sum []) 0 (by simpa using C50_sum_fold.1) hp
  simpa [F32.sum] using this

/-- **C50.** Hence two orders of the same integers give the same sum, if both stay in range. -/
theorem C50_sum_order [Cfg] {l m : List F32} {zs ys : List Int} (hl : IsInts l zs) (hm : IsInts m ys)
    (hperm : zs.Perm ys) (h1 : PartialSums 0 zs) (h2 : PartialSums 0 ys) : (F32.sum l).feq (F32.sum m) = true := by
  obtain ⟨f1, v1⟩ := C50_sum_int hl h1
  obtain ⟨f2, v2⟩ := C50_sum_int hm h2
  rw [feq_iff f1 f2, v1, v2, hperm.sum_eq]

/-- `3 + (-1) + 2`, in two orders. -/
example [Cfg] : (F32.sum [ofInt 3, ofInt (-1), ofInt 2]).feq (F32.sum [ofInt 2, ofInt 3, ofInt (-1)]) = true := by
  refine C50_sum_order (zs := [3, -1, 2]) (ys := [2, 3, -1]) ?_ ?_ ?_ ?_ ?_
  · exact .cons (ofInt_isVal (by decide)) (.cons (ofInt_isVal (by decide)) (.cons (ofInt_isVal (by decide)) .nil))
  · exact .cons (ofInt_isVal (by decide)) (.cons (ofInt_isVal (by decide)) (.cons (ofInt_isVal (by decide)) .nil))
  · decide
  · intro k
    rcases k with _ | _ | _ | k <;> simp
  · intro k
    rcases k with _ | _ | _ | k <;> simp

end Micromath.Props
