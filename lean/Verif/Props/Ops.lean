import Verif.Model.Ops
import Verif.Props.BitTricks
import Verif.Float.Eqv
import Verif.Float.Err
import Verif.Float.Nearest

/-!
# C118: every form of the arithmetic and comparison operators; C119: algebraic laws of the operators
-/

set_option exponentiation.threshold 1000

namespace Micromath.Props
open F32 Spec

variable [Cfg]

/-- `z` is the float nearest to `q`, the one with an even bit pattern if two are. -/
def NearestEven (z : F32) (q : ℚ) : Prop :=
  z.isFinite = true ∧ ∀ w : F32, w.isFinite = true → |z.val - q| ≤ |w.val - q| ∧
    (w.val ≠ z.val → |w.val - q| = |z.val - q| → z.bits.toNat % 2 = 0)

omit [Cfg] in
theorem bits_parity (z : F32) : z.bits.toNat % 2 = z.mag % 2 := by
  rw [toNat_eq]; split <;> omega

omit [Cfg] in
theorem nearestEven_of_RN {z : F32} {q : ℚ} (hz : z.isFinite = true) (h : z.val = RN q) : NearestEven z q := by
  refine ⟨hz, fun w hw => ⟨by rw [h]; exact RN_nearest (rep_val w), ?_⟩⟩
  rw [bits_parity]
  have key : ∀ (z w : F32) (q : ℚ), 0 ≤ q → z.val = RN q → w.val ≠ z.val → |w.val - q| = |z.val - q| → z.mag % 2 = 0 := by
    intro z w q hq h hne he
    have hzm : z.mag = rbits q := by
      rw [← mval_inj, ← abs_val, h, abs_RN]
    have hb : z.val = mval (rbits q) := by rw [h, RN_of_nonneg hq]
    have near0 : |z.val - q| ≤ q := by
      have := RN_nearest (q := q) (rep_mval 0)
      rw [mval, magU_zero] at this
      rw [h]; simpa [abs_of_nonneg hq] using this
    have hw0 : 0 ≤ w.val := by
      by_contra hc
      push Not at hc
      rw [he.symm.trans (by rw [abs_of_nonpos (by linarith)])] at near0
      linarith
    have hwc : w.val = mval w.mag := by rw [← abs_val, abs_of_nonneg hw0]
    have hmid : w.val + z.val = 2 * q := by
      rcases abs_eq_abs.1 he with h' | h'
      · exact absurd (by linarith) hne
      · linarith
    obtain ⟨n1, n2, n3⟩ := rbits_nearQ q
    rw [abs_of_nonneg hq] at n1 n2 n3
    rw [hzm]
    rcases Nat.lt_trichotomy w.mag (rbits q) with hc | hc | hc
    · obtain ⟨d, hd⟩ : ∃ d, d + 1 = rbits q := ⟨rbits q - 1, by omega⟩
      have h4 : mval w.mag ≤ mval d := mval_le.2 (by omega)
      refine (n1 d hd).2 (le_antisymm (n1 d hd).1 ?_)
      rw [← hb]; linarith
    · exact absurd (by rw [hwc, hc, hb]) hne
    · have h4 : mval (rbits q + 1) ≤ mval w.mag := mval_le.2 (by omega)
      refine n3 (le_antisymm n2 ?_)
      rw [← hb]; linarith
  rcases le_total 0 q with hq | hq
  · exact key z w q hq h
  · intro hne he
    have := key (-z) (-w) (-q) (by linarith) (by rw [val_neg, h, RN_neg])
      (by rw [val_neg, val_neg]; exact fun e => hne (by linarith))
      (by rw [val_neg, val_neg, ← neg_sub', ← neg_sub', abs_neg, abs_neg]; exact he)
    rwa [mag_neg] at this

section
open Newtype

/-- **C118.** All forms of `+` (between `F32` and `f32` in any order, and assigning) give the same bits. -/
theorem C118_add_forms (x y r : Newtype) (h : r.inner = x.inner + y.inner) :
    x.add y = r ∧ x.addF y.toF32 = r ∧ fAdd x.toF32 y = r ∧
      x.addAssign y = r ∧ x.addAssignF y.toF32 = r ∧ ofF32 (fAddAssign x.toF32 y) = r := by
  obtain ⟨x⟩ := x; obtain ⟨y⟩ := y; obtain ⟨r⟩ := r
  obtain rfl : r = _ := h
  exact ⟨rfl, rfl, rfl, rfl, rfl, rfl⟩

/-- **C118.** All forms of `-` (between `F32` and `f32` in any order, and assigning) give the same bits. -/
theorem C118_sub_forms (x y r : Newtype) (h : r.inner = x.inner - y.inner) :
    x.sub y = r ∧ x.subF y.toF32 = r ∧ fSub x.toF32 y = r ∧
      x.subAssign y = r ∧ x.subAssignF y.toF32 = r ∧ ofF32 (fSubAssign x.toF32 y) = r := by
  obtain ⟨x⟩ := x; obtain ⟨y⟩ := y; obtain ⟨r⟩ := r
  obtain rfl : r = _ := h
  exact ⟨rfl, rfl, rfl, rfl, rfl, rfl⟩

/-- **C118.** All forms of `*` (between `F32` and `f32` in any order, and assigning) give the same bits. -/
theorem C118_mul_forms (x y r : Newtype) (h : r.inner = x.inner * y.inner) :
    x.mul y = r ∧ x.mulF y.toF32 = r ∧ fMul x.toF32 y = r ∧
      x.mulAssign y = r ∧ x.mulAssignF y.toF32 = r ∧ ofF32 (fMulAssign x.toF32 y) = r := by
  obtain ⟨x⟩ := x; obtain ⟨y⟩ := y; obtain ⟨r⟩ := r
  obtain rfl : r = _ := h
  exact ⟨rfl, rfl, rfl, rfl, rfl, rfl⟩

/-- **C118.** All forms of `/` (between `F32` and `f32` in any order, and assigning) give the same bits. -/
theorem C118_div_forms (x y r : Newtype) (h : r.inner = x.inner / y.inner) :
    x.div y = r ∧ x.divF y.toF32 = r ∧ fDiv x.toF32 y = r ∧
      x.divAssign y = r ∧ x.divAssignF y.toF32 = r ∧ ofF32 (fDivAssign x.toF32 y) = r := by
  obtain ⟨x⟩ := x; obtain ⟨y⟩ := y; obtain ⟨r⟩ := r
  obtain rfl : r = _ := h
  exact ⟨rfl, rfl, rfl, rfl, rfl, rfl⟩

/-- **C118.** All forms of `%` (between `F32` and `f32` in any order, and assigning) give the same bits. -/
theorem C118_rem_forms (x y r : Newtype) (h : r.inner = x.inner % y.inner) :
    x.rem y = r ∧ x.remF y.toF32 = r ∧ fRem x.toF32 y = r ∧
      x.remAssign y = r ∧ x.remAssignF y.toF32 = r := by
  obtain ⟨x⟩ := x; obtain ⟨y⟩ := y; obtain ⟨r⟩ := r
  obtain rfl : r = _ := h
  exact ⟨rfl, rfl, rfl, rfl, rfl⟩

/-- **C118.** Sums, differences, products and quotients of finite `F32` are the nearest float to the exact result, ties to even,
whenever that result is less than `2^128 - 2^103`. -/
theorem C118_nearest {x y : Newtype} (hx : x.inner.isFinite = true) (hy : y.inner.isFinite = true) :
    (|x.inner.val + y.inner.val| < 2 ^ 128 - 2 ^ 103 → NearestEven (x.add y).inner (x.inner.val + y.inner.val)) ∧
    (|x.inner.val - y.inner.val| < 2 ^ 128 - 2 ^ 103 → NearestEven (x.sub y).inner (x.inner.val - y.inner.val)) ∧
    (|x.inner.val * y.inner.val| < 2 ^ 128 - 2 ^ 103 → NearestEven (x.mul y).inner (x.inner.val * y.inner.val)) ∧
    (y.inner.val ≠ 0 → |x.inner.val / y.inner.val| < 2 ^ 128 - 2 ^ 103 →
      NearestEven (x.div y).inner (x.inner.val / y.inner.val)) := by
  have e : (2 : ℚ) ^ 128 - 2 ^ 103 = ovf := by norm_num [ovf]
  rw [e]
  refine ⟨fun h => ?_, fun h => ?_, fun h => ?_, fun h0 h => ?_⟩
  · obtain ⟨a, b⟩ := add_val hx hy h; exact nearestEven_of_RN a b
  · obtain ⟨a, b⟩ := sub_val hx hy h; exact nearestEven_of_RN a b
  · obtain ⟨a, b⟩ := mul_val hx hy h; exact nearestEven_of_RN a b
  · obtain ⟨a, b⟩ := div_val hx hy h0 h; exact nearestEven_of_RN a b

omit [Cfg] in
/-- **C118.** Negation flips the sign bit and nothing else, also of zeros, infinities and NaN; the conversions between `F32` and
`f32` are inverse to each other; the default is `+0`. -/
theorem C118_neg_from (x : Newtype) (f : F32) :
    (x.neg.inner.mag = x.inner.mag ∧ x.neg.inner.sign = !x.inner.sign) ∧ ofF32 x.toF32 = x ∧ (ofF32 f).toF32 = f ∧
      default.inner.bits = 0 :=
  ⟨⟨mag_neg _, sign_neg _⟩, rfl, rfl, rfl⟩

omit [Cfg] in
/-- **C118.** The comparisons between `F32` and `f32` give the same answers as those between two `F32`: equality is the equality of
numbers and false for NaN. -/
theorem C118_compare (x y : Newtype) :
    x.eqF y.toF32 = x.eq y ∧ fEq x.toF32 y = x.eq y ∧ x.partialCmpF y.toF32 = x.partialCmp y ∧
      fPartialCmp x.toF32 y = x.partialCmp y ∧ (x.eq y = true ↔ x.partialCmp y = some .eq) := by
  refine ⟨rfl, rfl, rfl, rfl, ?_⟩
  unfold Newtype.eq Newtype.partialCmp F32.partialEq F32.partialCmp F32.feq
  cases x.inner.isNaN <;> cases y.inner.isNaN <;> simp

/-- **C118.** `sum` and `product` over `F32` are those over the wrapped floats. -/
theorem C118_sum_product (l : List Newtype) :
    (Newtype.sum l).inner = F32.sum (l.map toF32) ∧ (Newtype.product l).inner = F32.product (l.map toF32) := ⟨rfl, rfl⟩

end

/-- `2^24 + 1` is halfway between two floats; the even one is returned, whichever form is used. -/
example : (Newtype.addF ⟨⟨0x4b800000#32⟩⟩ ONE).inner = ⟨0x4b800000#32⟩ ∧
    Newtype.fAddAssign ⟨0x4b800000#32⟩ ⟨ONE⟩ = ⟨0x4b800000#32⟩ :=
  ⟨eval_eq (n := 0x4b800000) (by kernel_rfl), eval_eq (n := 0x4b800000) (by kernel_rfl)⟩

/-! ### C119 -/

/-- **C119.** Sums and products are commutative, `x - y` is `x + (-y)`, signs come out of products: bit for bit the same or both
NaN, on all operands. `y - x` is `-(x - y)` unless the difference is zero (then both are zero) or NaN (then both are NaN). -/
theorem C119_signs (x y : F32) :
    Eqv (x + y) (y + x) ∧ Eqv (x * y) (y * x) ∧ Eqv (x - y) (x + -y) ∧ Eqv (-x * y) (-(x * y)) ∧ Eqv (x * -y) (-(x * y)) ∧
    (((x - y).isNaN = true ∧ (y - x).isNaN = true) ∨ ((x - y).isZero = true ∧ (y - x).isZero = true) ∨ y - x = -(x - y)) := by
  refine ⟨add_comm_eqv x y, mul_comm_eqv x y, sub_eq_add_neg_eqv x y, neg_mul_eqv x y, mul_neg_eqv x y, ?_⟩
  rcases sub_swap x y with h | ⟨-, -, h1, h2⟩
  · exact Or.inl h
  · right
    rcases h2 with h2 | h2
    · left; rw [isZero, isZero, h1, h2]; simp
    · right; exact h2

omit [Cfg] in
/-- A correctly signed and rounded magnitude is the rounded value, cut off at `2^128` (infinity). -/
theorem pack_clamp {s : Bool} {q : ℚ} (h1 : q < 0 → s = true) (h2 : 0 < q → s = false) :
    (pack s (min (rbits q) infMag)).isNaN = false ∧
    (pack s (min (rbits q) infMag)).val = max (-2 ^ 128) (min (2 ^ 128) (RN q)) := by
  have hi := infMag_lt
  have hm : min (rbits q) infMag < 2 ^ 31 := by omega
  constructor
  · rw [isNaN, mag_pack _ hm]; simp
  rcases lt_or_ge |q| ovf with h | h
  · obtain ⟨f, e⟩ := pack_rbits s h
    have hb := (abs_val_le_maxF f)
    rw [e, RN_signed h1 h2] at hb
    rw [e, RN_signed h1 h2]
    have hM : maxF ≤ 2 ^ 128 := by norm_num [maxF]
    obtain ⟨a, b⟩ := abs_le.1 hb
    rw [min_eq_right (by linarith), max_eq_right (by linarith)]
  · rw [pack_rbits_inf s h, val_eq, mag_pack _ hi, sign_pack _ hi, mval_infMag]
    have hr : infMag ≤ rbits q := by
      by_contra hc; exact absurd ((rbits_lt_inf_iff q).1 (by omega)) (not_lt.2 h)
    have hr' : (2 : ℚ) ^ 128 ≤ mval (rbits q) := by rw [← mval_infMag]; exact mval_le.2 hr
    have o : (0 : ℚ) < ovf := by norm_num [ovf]
    rcases lt_trichotomy q 0 with hq | hq | hq
    · rw [h1 hq, if_pos rfl, RN_of_neg hq, min_eq_right (by linarith), max_eq_left (by linarith)]
    · rw [hq, abs_zero] at h; linarith
    · rw [h2 hq, RN_of_nonneg hq.le, min_eq_left hr', max_eq_right (by norm_num)]; simp

theorem add_clamp (o : FOp) {x y : F32} (hx : x.isFinite = true) (hy : y.isFinite = true) :
    (addAs o x y).isNaN = false ∧ (addAs o x y).val = max (-2 ^ 128) (min (2 ^ 128) (RN (x.val + y.val))) := by
  rw [addAs_finite o hx hy]
  split
  · rename_i h
    rw [h, RN_zero]
    have : ((2 : ℚ) ^ 128) > 0 := by norm_num
    rw [min_eq_right (by linarith), max_eq_right (by linarith)]
    split
    · exact ⟨by decide, val_negZero⟩
    · exact ⟨by decide, val_posZero⟩
  · exact pack_clamp (fun h => by simpa using h) (fun h => by simp [h.le])

theorem sub_clamp {x y : F32} (hx : x.isFinite = true) (hy : y.isFinite = true) :
    (x - y).isNaN = false ∧ (x - y).val = max (-2 ^ 128) (min (2 ^ 128) (RN (x.val - y.val))) := by
  have := add_clamp .sub hx (y := -y) ((isFinite_neg y).trans hy)
  rwa [val_neg, ← sub_eq_add_neg] at this

theorem mul_clamp {x y : F32} (hx : x.isFinite = true) (hy : y.isFinite = true) :
    (x * y).isNaN = false ∧ (x * y).val = max (-2 ^ 128) (min (2 ^ 128) (RN (x.val * y.val))) := by
  rw [mul_finite hx hy]
  exact pack_clamp (sign_mul_facts x y).1 (sign_mul_facts x y).2

theorem div_clamp {x y : F32} (hx : x.isFinite = true) (hy : y.isFinite = true) (h0 : y.val ≠ 0) :
    (x / y).isNaN = false ∧ (x / y).val = max (-2 ^ 128) (min (2 ^ 128) (RN (x.val / y.val))) := by
  rw [div_finite hx hy h0]
  exact pack_clamp (sign_div_facts x y).1 (sign_div_facts x y).2

omit [Cfg] in
theorem le_of_clamp {x y : F32} {p q : ℚ} (hx : x.isNaN = false ∧ x.val = max (-2 ^ 128) (min (2 ^ 128) (RN p)))
    (hy : y.isNaN = false ∧ y.val = max (-2 ^ 128) (min (2 ^ 128) (RN q))) (h : p ≤ q) : x.le y = true := by
  unfold F32.le
  rw [hx.1, hy.1]
  have : x.key ≤ y.key := by
    rw [key_le_iff, hx.2, hy.2]
    exact max_le_max le_rfl (min_le_min le_rfl (RN_mono h))
  simpa using this

/-- **C119.** The operators respect order, overflow to infinity included: for finite `x <= y` and finite `z`, `x + z <= y + z`,
`x - z <= y - z`, `z - y <= z - x`, `x * z <= y * z` for `z >= 0`, `x / z <= y / z` for `z > 0`, and `x * z >= y * z` for
`z <= 0`. -/
theorem C119_order {x y z : F32} (hx : x.isFinite = true) (hy : y.isFinite = true) (hz : z.isFinite = true)
    (h : x.le y = true) :
    (x + z).le (y + z) = true ∧ (x - z).le (y - z) = true ∧ (z - y).le (z - x) = true ∧
    (ZERO.le z = true → (x * z).le (y * z) = true) ∧ (z.le ZERO = true → (y * z).le (x * z) = true) ∧
    (ZERO.lt z = true → (x / z).le (y / z) = true) := by
  have h' := (le_iff hx hy).1 h
  have z0 : ZERO.isFinite = true := by decide
  have vz : ZERO.val = 0 := val_posZero
  refine ⟨le_of_clamp (add_clamp .add hx hz) (add_clamp .add hy hz) (by linarith),
    le_of_clamp (sub_clamp hx hz) (sub_clamp hy hz) (by linarith),
    le_of_clamp (sub_clamp hz hy) (sub_clamp hz hx) (by linarith), fun h0 => ?_, fun h0 => ?_, fun h0 => ?_⟩
  · rw [le_iff z0 hz, vz] at h0
    exact le_of_clamp (mul_clamp hx hz) (mul_clamp hy hz) (mul_le_mul_of_nonneg_right h' h0)
  · rw [le_iff hz z0, vz] at h0
    exact le_of_clamp (mul_clamp hy hz) (mul_clamp hx hz) (mul_le_mul_of_nonpos_right h' h0)
  · rw [lt_iff z0 hz, vz] at h0
    exact le_of_clamp (div_clamp hx hz h0.ne') (div_clamp hy hz h0.ne') (div_le_div_of_nonneg_right h' h0.le)

/-- **C119.** Subtraction of finite floats is exact when they are within a factor two of each other, and never loses the order:
`x - y` is zero iff `x == y`, positive iff `x > y`. -/
theorem C119_sub {x y : F32} (hx : x.isFinite = true) (hy : y.isFinite = true) :
    (x.val ≤ 2 * y.val → y.val ≤ 2 * x.val → IsVal (x - y) (x.val - y.val)) ∧
    ((x - y).isZero = x.feq y) ∧ ((x - y).gt ZERO = x.gt y) ∧ ((x - y).lt ZERO = x.lt y) := by
  have z0 : ZERO.isNaN = false := by decide
  have vz : ZERO.val = 0 := val_posZero
  obtain ⟨n, v⟩ := sub_clamp hx hy
  have two : (1 : ℚ) / 2 ^ 149 ≤ 2 ^ 128 := by norm_num
  have tiny : Rep ((1 : ℚ) / 2 ^ 149) := by
    have := rep_units (m := 1) (by norm_num) 0
    simpa using this
  have un : x.val - y.val = ((x.units - y.units : Int) : ℚ) / 2 ^ 149 := by unfold val; push_cast; ring
  have pos : x.val < y.val → (x - y).val < 0 := fun h => by
    have hu : x.units - y.units ≤ -1 := by
      have : ((x.units - y.units : Int) : ℚ) < 0 := by
        have h' : x.val - y.val < 0 := by linarith
        rw [un, div_lt_iff₀ two149_pos, zero_mul] at h'; exact h'
      have : x.units - y.units < 0 := by exact_mod_cast this
      omega
    have hq : x.val - y.val ≤ -(1 / 2 ^ 149) := by
      rw [un, ← neg_div]
      exact div_le_div_of_nonneg_right (by exact_mod_cast hu) two149_pos.le
    have hr := RN_le_of_rep tiny.neg hq
    rw [v]
    have t : (0 : ℚ) < 1 / 2 ^ 149 := by positivity
    refine max_lt (by norm_num) (lt_of_le_of_lt (min_le_right _ _) (by linarith))
  have neg : y.val < x.val → 0 < (x - y).val := fun h => by
    have hu : 1 ≤ x.units - y.units := by
      have : (0 : ℚ) < ((x.units - y.units : Int) : ℚ) := by
        have h' : 0 < x.val - y.val := by linarith
        rw [un, lt_div_iff₀ two149_pos, zero_mul] at h'; exact h'
      have : 0 < x.units - y.units := by exact_mod_cast this
      omega
    have hq : 1 / 2 ^ 149 ≤ x.val - y.val := by
      rw [un]
      exact div_le_div_of_nonneg_right (by exact_mod_cast hu) two149_pos.le
    have hr := le_RN_of_rep tiny hq
    rw [v]
    have t : (0 : ℚ) < 1 / 2 ^ 149 := by positivity
    exact lt_of_lt_of_le (lt_min (by norm_num) (by linarith)) (le_max_right _ _)
  have zero : x.val = y.val → (x - y).val = 0 := fun h => by
    rw [v, h, sub_self, RN_zero]; norm_num
  have key : ((x - y).val = 0 ↔ x.val = y.val) ∧ (0 < (x - y).val ↔ y.val < x.val) ∧ ((x - y).val < 0 ↔ x.val < y.val) := by
    rcases lt_trichotomy x.val y.val with h | h | h
    · have := pos h; refine ⟨⟨?_, ?_⟩, ⟨?_, ?_⟩, ⟨?_, ?_⟩⟩ <;> intro _ <;> first | assumption | linarith
    · have := zero h; refine ⟨⟨?_, ?_⟩, ⟨?_, ?_⟩, ⟨?_, ?_⟩⟩ <;> intro _ <;> first | assumption | linarith
    · have := neg h; refine ⟨⟨?_, ?_⟩, ⟨?_, ?_⟩, ⟨?_, ?_⟩⟩ <;> intro _ <;> first | assumption | linarith
  refine ⟨fun h1 h2 => ?_, ?_, ?_, ?_⟩
  · refine sub_exact hx hy ?_ (sterbenz h1 h2)
    have hm := abs_le.1 (abs_val_le_maxF hx)
    have hm' := abs_le.1 (abs_val_le_maxF hy)
    rw [abs_le]; constructor <;> linarith
  · rw [Bool.eq_iff_iff, isZero_iff, feq_iff hx hy, key.1]
  · rw [Bool.eq_iff_iff, gt_iff hx hy, ← key.2.1]
    unfold F32.gt F32.lt
    rw [n, z0]
    simp [key_lt_iff, vz]
  · rw [Bool.eq_iff_iff, lt_iff hx hy, ← key.2.2]
    unfold F32.lt
    rw [n, z0]
    simp [key_lt_iff, vz]

/-- **C119.** Neutral elements, bit for bit: `x * 1`, `x / 1`, `x + (-0)` and `x - 0` are `x` for every `x` that is not NaN; `x - x` is
`+0` and `x / x` is `1` for finite (non-zero) `x`. -/
theorem C119_neutral {x : F32} (hx : x.isNaN = false) :
    x * ONE = x ∧ x / ONE = x ∧ x + negZero = x ∧ x - ZERO = x ∧ (x.isFinite = true → x - x = ZERO) ∧
    (x.isFinite = true → x.val ≠ 0 → x / x = ONE) := by
  have o1 : ONE.isFinite = true := by decide
  have v1 : ONE.val = 1 := val_one
  have z1 : negZero.isFinite = true := by decide
  have vz : negZero.val = 0 := val_negZero
  have az : ∀ o, addAs o x negZero = x := fun o => by
    rcases class_cases x with f | f | f
    · rw [addAs_finite o f z1, vz, add_zero]
      split
      · rename_i h
        have e : negZero.sign = true := by decide
        rw [e, Bool.and_true]
        have hm := val_eq_zero.1 h
        cases hs : x.sign
        · exact ext_mag_sign (by rw [hm]; decide) (by rw [hs]; decide)
        · exact ext_mag_sign (by rw [hm]; decide) (by rw [hs]; decide)
      · rename_i h
        have hr : rbits x.val = x.mag := by rw [← mval_inj, ← abs_RN, RN_val, abs_val]
        rw [hr, Nat.min_eq_left (isFinite_iff.1 f).le]
        have hs : decide (x.val < 0) = x.sign := by
          rcases lt_or_gt_of_ne h with h' | h'
          · rw [val_neg_sign h']; simpa using h'
          · rw [val_pos_sign h']; simpa using h'.le
        rw [hs, pack_sign_mag]
    · rw [addAs, hx, f]
      rfl
    · rw [hx] at f; simp at f
  have dv : x / ONE = x := by
    rcases class_cases x with f | f | f
    · have e : ONE.sign = false := by decide
      have hr : rbits x.val = x.mag := by rw [← mval_inj, ← abs_RN, RN_val, abs_val]
      rw [div_finite f o1 (by rw [v1]; norm_num), v1, div_one, hr, Nat.min_eq_left (isFinite_iff.1 f).le, e]
      simp [pack_sign_mag]
    · have e : ONE.sign = false := by decide
      rw [div_def, F32.div, hx, f]
      have : ONE.isNaN = false := by decide
      rw [this]
      have : ONE.isInf = false := by decide
      rw [this, e]
      simp only [Bool.or_self, Bool.false_eq_true, if_false, if_true, Bool.bne_false]
      exact (eq_pack_of_inf f).symm
    · rw [hx] at f; simp at f
  refine ⟨mul_one_nn hx, dv, az _, az _, fun f => ?_, fun f h0 => ?_⟩
  · rw [sub_def, addAs_finite _ f ((isFinite_neg x).trans f), val_neg, add_neg_cancel, if_pos rfl, sign_neg]
    cases x.sign <;> rfl
  · obtain ⟨h1, h2⟩ := div_val f f h0 (by rw [div_self h0]; norm_num [ovf])
    have r1 := RN_of_rep (rep_int (m := 1) (by norm_num))
    rw [Int.cast_one] at r1
    rw [div_self h0, r1] at h2
    exact eq_of_val_ne (by rw [h2, v1]) (by rw [h2]; norm_num)

/-- The hypotheses are met, and overflow keeps the order: `2^127 <= 2^127 * 1.5`, and adding `2^127` gives infinity twice. -/
example : F32.le ⟨0x7f000000#32⟩ ⟨0x7f400000#32⟩ = true ∧ (⟨0x7f000000#32⟩ + ⟨0x7f000000#32⟩ : F32) = posInf ∧
    (⟨0x7f400000#32⟩ + ⟨0x7f000000#32⟩ : F32) = posInf ∧ IsVal (⟨0x3#32⟩ - ⟨0x2#32⟩ : F32) (1 / 2 ^ 149) := by
  refine ⟨by decide, eval_eq (n := 0x7f800000) (by kernel_rfl), eval_eq (n := 0x7f800000) (by kernel_rfl), ?_⟩
  have : (⟨0x3#32⟩ - ⟨0x2#32⟩ : F32) = ⟨0x1#32⟩ := eval_eq (n := 1) (by kernel_rfl)
  rw [this]
  refine ⟨by decide, ?_⟩
  rw [val_of_units (u := 1) (by decide +kernel)]; norm_num

/-- **C119.** Addition is not associative, multiplication does not distribute, and `(x / y) * y` need not be `x`. -/
theorem C119_laws_false : (∃ x y z : F32, ((x + y) + z).feq (x + (y + z)) = false) ∧
    (∃ x y z : F32, (x * (y + z)).feq (x * y + x * z) = false) ∧ (∃ x y : F32, (x / y * y).feq x = false) := by
  refine ⟨⟨⟨0x4b800000#32⟩, ONE, ONE, ?_⟩, ⟨⟨0x3f800001#32⟩, ⟨0x3f800001#32⟩, ⟨0x3f000001#32⟩, ?_⟩, ⟨ONE, ofInt 41, ?_⟩⟩ <;>
    kernel_rfl

end Micromath.Props
