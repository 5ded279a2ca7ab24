import Mathlib.Algebra.Quaternion
import Verif.Float.Eqv
import Verif.Float.Nearest
import Verif.Model.Quaternion
import Verif.Props.Basics
import Verif.Props.Roots

/-!
# C64-C69, C71, C72: quaternions

The reference is Mathlib's quaternion algebra `ℍ[ℤ]` and `ℍ[ℚ]`.
-/

set_option exponentiation.threshold 1000

namespace Micromath.Props
open F32 Spec

/-! ### Specification vocabulary -/

/-- The float quaternion `q` holds exactly the integer quaternion `z`. -/
def IsQ (q : Quaternion) (z : _root_.Quaternion ℤ) : Prop :=
  IsVal q.a z.re ∧ IsVal q.b z.imI ∧ IsVal q.c z.imJ ∧ IsVal q.d z.imK

/-- All components of `z` are at most `n` in magnitude. -/
def QBound (z : _root_.Quaternion ℤ) (n : Nat) : Prop :=
  z.re.natAbs ≤ n ∧ z.imI.natAbs ≤ n ∧ z.imJ.natAbs ≤ n ∧ z.imK.natAbs ≤ n

/-- All components are finite. -/
def QFinite (q : Quaternion) : Prop :=
  q.a.isFinite = true ∧ q.b.isFinite = true ∧ q.c.isFinite = true ∧ q.d.isFinite = true

/-- Exact rational value of a finite quaternion. -/
def qval (q : Quaternion) : _root_.Quaternion ℚ := ⟨q.a.val, q.b.val, q.c.val, q.d.val⟩

/-! ### C64 -/

/-- **C64.** `conj` negates the vector part, is an involution, and has the same norm (NaN matching NaN). -/
theorem C64_conj [Cfg] (q : Quaternion) :
    q.conj.conj = q ∧
    (q.conj.w = q.w ∧ q.conj.x = -q.x ∧ q.conj.y = -q.y ∧ q.conj.z = -q.z) ∧
    (q.conj.norm = q.norm ∨ (q.conj.norm.isNaN = true ∧ q.norm.isNaN = true)) := by
  refine ⟨?_, ⟨rfl, rfl, rfl, rfl⟩, ?_⟩
  · unfold Quaternion.conj
    ext1 <;> simp
  · have : Eqv q.conj.norm q.norm := by
      unfold Quaternion.norm Quaternion.conj
      exact ((Eqv.rfl.add (neg_mul_neg_eqv _ _)).add (neg_mul_neg_eqv _ _)).add (neg_mul_neg_eqv _ _)
    rcases this with h | h
    · exact Or.inr h
    · exact Or.inl h

/-- On exact values `conj` is the conjugation of the quaternion algebra. -/
theorem C64_conj_val (q : Quaternion) : qval q.conj = star (qval q) := by
  refine _root_.Quaternion.ext _ _ ?_ ?_ ?_ ?_
  · rw [_root_.Quaternion.re_star]; rfl
  · rw [_root_.Quaternion.imI_star]; exact val_neg _
  · rw [_root_.Quaternion.imJ_star]; exact val_neg _
  · rw [_root_.Quaternion.imK_star]; exact val_neg _

/-! ### C65 -/

theorem natAbs_mul_le {a b : Int} {m n : Nat} (ha : a.natAbs ≤ m) (hb : b.natAbs ≤ n) : (a * b).natAbs ≤ m * n := by
  rw [Int.natAbs_mul]; exact Nat.mul_le_mul ha hb

section
variable [Cfg]

theorem hamilton4 {x1 x2 x3 x4 y1 y2 y3 y4 : F32} {a1 a2 a3 a4 b1 b2 b3 b4 : Int} {m n : Nat}
    (h1 : IsVal x1 a1) (h2 : IsVal x2 a2) (h3 : IsVal x3 a3) (h4 : IsVal x4 a4)
    (g1 : IsVal y1 b1) (g2 : IsVal y2 b2) (g3 : IsVal y3 b3) (g4 : IsVal y4 b4)
    (c1 : a1.natAbs ≤ m) (c2 : a2.natAbs ≤ m) (c3 : a3.natAbs ≤ m) (c4 : a4.natAbs ≤ m)
    (d1 : b1.natAbs ≤ n) (d2 : b2.natAbs ≤ n) (d3 : b3.natAbs ≤ n) (d4 : b4.natAbs ≤ n) (hmn : 4 * (m * n) ≤ 2 ^ 24) :
    IsVal (x1 * y1 - x2 * y2 - x3 * y3 - x4 * y4) (a1 * b1 - a2 * b2 - a3 * b3 - a4 * b4 : Int) ∧
    IsVal (x1 * y1 + x2 * y2 + x3 * y3 - x4 * y4) (a1 * b1 + a2 * b2 + a3 * b3 - a4 * b4 : Int) ∧
    IsVal (x1 * y1 - x2 * y2 + x3 * y3 + x4 * y4) (a1 * b1 - a2 * b2 + a3 * b3 + a4 * b4 : Int) ∧
    IsVal (x1 * y1 + x2 * y2 - x3 * y3 + x4 * y4) (a1 * b1 + a2 * b2 - a3 * b3 + a4 * b4 : Int) ∧
    IsVal (x1 * y1 + x2 * y2 + x3 * y3 + x4 * y4) (a1 * b1 + a2 * b2 + a3 * b3 + a4 * b4 : Int) := by
  have e1 := natAbs_mul_le c1 d1
  have e2 := natAbs_mul_le c2 d2
  have e3 := natAbs_mul_le c3 d3
  have e4 := natAbs_mul_le c4 d4
  have p1 := mul_int h1 g1 (by omega)
  have p2 := mul_int h2 g2 (by omega)
  have p3 := mul_int h3 g3 (by omega)
  have p4 := mul_int h4 g4 (by omega)
  refine ⟨?_, ?_, ?_, ?_, ?_⟩
  · exact sub_int (sub_int (sub_int p1 p2 (by omega)) p3 (by omega)) p4 (by omega)
  · exact sub_int (add_int (add_int p1 p2 (by omega)) p3 (by omega)) p4 (by omega)
  · exact add_int (add_int (sub_int p1 p2 (by omega)) p3 (by omega)) p4 (by omega)
  · exact add_int (sub_int (add_int p1 p2 (by omega)) p3 (by omega)) p4 (by omega)
  · exact add_int (add_int (add_int p1 p2 (by omega)) p3 (by omega)) p4 (by omega)

/-- **C65.** On integer data whose products stay within `2^24` the product is exactly the product of the quaternion
algebra over `ℤ` (in particular for components up to `2^10`, even `2^11`). -/
theorem C65_mul {q r : Quaternion} {z t : _root_.Quaternion ℤ} {m n : Nat} (hq : IsQ q z) (hr : IsQ r t)
    (bz : QBound z m) (bt : QBound t n) (h : 4 * (m * n) ≤ 2 ^ 24) : IsQ (q.mul r) (z * t) := by
  obtain ⟨q1, q2, q3, q4⟩ := hq
  obtain ⟨r1, r2, r3, r4⟩ := hr
  obtain ⟨z1, z2, z3, z4⟩ := bz
  obtain ⟨t1, t2, t3, t4⟩ := bt
  unfold Quaternion.mul IsQ
  refine ⟨?_, ?_, ?_, ?_⟩
  · rw [_root_.Quaternion.re_mul]
    exact (hamilton4 q1 q2 q3 q4 r1 r2 r3 r4 z1 z2 z3 z4 t1 t2 t3 t4 h).1
  · rw [_root_.Quaternion.imI_mul]
    exact (hamilton4 q1 q2 q3 q4 r2 r1 r4 r3 z1 z2 z3 z4 t2 t1 t4 t3 h).2.1
  · rw [_root_.Quaternion.imJ_mul]
    exact (hamilton4 q1 q2 q3 q4 r3 r4 r1 r2 z1 z2 z3 z4 t3 t4 t1 t2 h).2.2.1
  · rw [_root_.Quaternion.imK_mul]
    exact (hamilton4 q1 q2 q3 q4 r4 r3 r2 r1 z1 z2 z3 z4 t4 t3 t2 t1 h).2.2.2.1

/-- **C65.** On integer data `norm` is exactly the squared norm of the quaternion algebra, and `dot` the inner product. -/
theorem C65_norm {q r : Quaternion} {z t : _root_.Quaternion ℤ} {m n : Nat} (hq : IsQ q z) (hr : IsQ r t)
    (bz : QBound z m) (bt : QBound t n) (h : 4 * (m * n) ≤ 2 ^ 24) (h' : 4 * (m * m) ≤ 2 ^ 24) :
    IsVal q.norm ((_root_.Quaternion.normSq z : ℤ) : ℚ) ∧
    IsVal (q.dot r) (z.re * t.re + z.imI * t.imI + z.imJ * t.imJ + z.imK * t.imK : Int) := by
  obtain ⟨q1, q2, q3, q4⟩ := hq
  obtain ⟨r1, r2, r3, r4⟩ := hr
  obtain ⟨z1, z2, z3, z4⟩ := bz
  obtain ⟨t1, t2, t3, t4⟩ := bt
  constructor
  · rw [_root_.Quaternion.normSq_def', pow_two, pow_two, pow_two, pow_two]
    exact (hamilton4 q1 q2 q3 q4 q1 q2 q3 q4 z1 z2 z3 z4 z1 z2 z3 z4 h').2.2.2.2
  · exact (hamilton4 q1 q2 q3 q4 r1 r2 r3 r4 z1 z2 z3 z4 t1 t2 t3 t4 h).2.2.2.2

omit [Cfg] in
theorem isQ_eq {q r : Quaternion} {z : _root_.Quaternion ℤ} (hq : IsQ q z) (hr : IsQ r z) : q.eq r = true := by
  obtain ⟨q1, q2, q3, q4⟩ := hq
  obtain ⟨r1, r2, r3, r4⟩ := hr
  unfold Quaternion.eq
  rw [(feq_iff q1.1 r1.1).2 (by rw [q1.2, r1.2]), (feq_iff q2.1 r2.1).2 (by rw [q2.2, r2.2]),
    (feq_iff q3.1 r3.1).2 (by rw [q3.2, r3.2]), (feq_iff q4.1 r4.1).2 (by rw [q4.2, r4.2])]
  rfl

omit [Cfg] in
theorem qbound_mul {z t : _root_.Quaternion ℤ} {m n : Nat} (bz : QBound z m) (bt : QBound t n) :
    QBound (z * t) (4 * (m * n)) := by
  obtain ⟨z1, z2, z3, z4⟩ := bz
  obtain ⟨t1, t2, t3, t4⟩ := bt
  unfold QBound
  rw [_root_.Quaternion.re_mul, _root_.Quaternion.imI_mul, _root_.Quaternion.imJ_mul, _root_.Quaternion.imK_mul]
  refine ⟨?_, ?_, ?_, ?_⟩
  · have := natAbs_mul_le z1 t1; have := natAbs_mul_le z2 t2; have := natAbs_mul_le z3 t3; have := natAbs_mul_le z4 t4
    omega
  · have := natAbs_mul_le z1 t2; have := natAbs_mul_le z2 t1; have := natAbs_mul_le z3 t4; have := natAbs_mul_le z4 t3
    omega
  · have := natAbs_mul_le z1 t3; have := natAbs_mul_le z2 t4; have := natAbs_mul_le z3 t1; have := natAbs_mul_le z4 t2
    omega
  · have := natAbs_mul_le z1 t4; have := natAbs_mul_le z2 t3; have := natAbs_mul_le z3 t2; have := natAbs_mul_le z4 t1
    omega

/-- **C65.** Products of integer quaternions associate (`==`) and the norm is multiplicative (`==`), as long as the
intermediate products stay within `2^24`. -/
theorem C65_assoc {q r u : Quaternion} {z t w : _root_.Quaternion ℤ} {k : Nat} (hq : IsQ q z) (hr : IsQ r t) (hu : IsQ u w)
    (bz : QBound z k) (bt : QBound t k) (bw : QBound w k) :
    (16 * k ^ 3 ≤ 2 ^ 24 → ((q.mul r).mul u).eq (q.mul (r.mul u)) = true) ∧
    (64 * k ^ 4 ≤ 2 ^ 24 → (q.mul r).norm.feq (q.norm * r.norm) = true) := by
  constructor
  · intro h
    have hk3 : 4 * (k * k) ≤ 16 * k ^ 3 := by
      rcases Nat.eq_zero_or_pos k with h0 | h0
      · rw [h0]; norm_num
      · have : k * k * 1 ≤ k * k * k := Nat.mul_le_mul_left _ h0
        nlinarith
    have h1 := C65_mul hq hr bz bt (by omega)
    have h2 := C65_mul hr hu bt bw (by omega)
    have h3 := C65_mul h1 hu (qbound_mul bz bt) bw (by nlinarith)
    have h4 := C65_mul hq h2 bz (qbound_mul bt bw) (by nlinarith)
    rw [mul_assoc] at h3
    exact isQ_eq h3 h4
  · intro h
    have hk3 : 4 * (k * k) ≤ 64 * k ^ 4 := by
      rcases Nat.eq_zero_or_pos k with h0 | h0
      · rw [h0]; norm_num
      · have : k * k * 1 ≤ k * k * (k * k) := Nat.mul_le_mul_left _ (Nat.mul_pos h0 h0)
        nlinarith
    have h1 := C65_mul hq hr bz bt (by omega)
    have n1 := (C65_norm h1 h1 (qbound_mul bz bt) (qbound_mul bz bt) (by nlinarith) (by nlinarith)).1
    have n2 := (C65_norm hq hq bz bz (by omega) (by omega)).1
    have n3 := (C65_norm hr hr bt bt (by omega) (by omega)).1
    have e : _root_.Quaternion.normSq (z * t) = _root_.Quaternion.normSq z * _root_.Quaternion.normSq t := map_mul _ _ _
    have hb : (_root_.Quaternion.normSq z * _root_.Quaternion.normSq t).natAbs ≤ 2 ^ 24 := by
      rw [_root_.Quaternion.normSq_def', _root_.Quaternion.normSq_def', pow_two, pow_two, pow_two, pow_two, pow_two,
        pow_two, pow_two, pow_two]
      have b1 : (z.re * z.re + z.imI * z.imI + z.imJ * z.imJ + z.imK * z.imK).natAbs ≤ 4 * (k * k) := by
        have := natAbs_mul_le bz.1 bz.1; have := natAbs_mul_le bz.2.1 bz.2.1
        have := natAbs_mul_le bz.2.2.1 bz.2.2.1; have := natAbs_mul_le bz.2.2.2 bz.2.2.2
        omega
      have b2 : (t.re * t.re + t.imI * t.imI + t.imJ * t.imJ + t.imK * t.imK).natAbs ≤ 4 * (k * k) := by
        have := natAbs_mul_le bt.1 bt.1; have := natAbs_mul_le bt.2.1 bt.2.1
        have := natAbs_mul_le bt.2.2.1 bt.2.2.1; have := natAbs_mul_le bt.2.2.2 bt.2.2.2
        omega
      have := natAbs_mul_le b1 b2
      refine le_trans this ?_
      nlinarith
    have n4 := mul_int n2 n3 hb
    rw [e] at n1
    exact (feq_iff n1.1 n4.1).2 (by rw [n1.2, n4.2])

/-- The unit quaternions as floats. -/
def unitQ (a b c d : Int) : Quaternion := ⟨ofInt a, ofInt b, ofInt c, ofInt d⟩

omit [Cfg] in
theorem unitQ_isQ {a b c d : Int} (ha : a.natAbs ≤ 1) (hb : b.natAbs ≤ 1) (hc : c.natAbs ≤ 1) (hd : d.natAbs ≤ 1) :
    IsQ (unitQ a b c d) ⟨a, b, c, d⟩ ∧ QBound ⟨a, b, c, d⟩ 1 :=
  ⟨⟨ofInt_isVal (by omega), ofInt_isVal (by omega), ofInt_isVal (by omega), ofInt_isVal (by omega)⟩, ha, hb, hc, hd⟩

/-- **C65.** Hamilton's relations `i² = j² = k² = ijk = -1`. -/
theorem C65_hamilton :
    let i := unitQ 0 1 0 0
    let j := unitQ 0 0 1 0
    let k := unitQ 0 0 0 1
    (i.mul i).eq (unitQ (-1) 0 0 0) = true ∧ (j.mul j).eq (unitQ (-1) 0 0 0) = true ∧
    (k.mul k).eq (unitQ (-1) 0 0 0) = true ∧ ((i.mul j).mul k).eq (unitQ (-1) 0 0 0) = true := by
  obtain ⟨i1, i2⟩ := unitQ_isQ (a := 0) (b := 1) (c := 0) (d := 0) (by decide) (by decide) (by decide) (by decide)
  obtain ⟨j1, j2⟩ := unitQ_isQ (a := 0) (b := 0) (c := 1) (d := 0) (by decide) (by decide) (by decide) (by decide)
  obtain ⟨k1, k2⟩ := unitQ_isQ (a := 0) (b := 0) (c := 0) (d := 1) (by decide) (by decide) (by decide) (by decide)
  obtain ⟨m1, m2⟩ := unitQ_isQ (a := -1) (b := 0) (c := 0) (d := 0) (by decide) (by decide) (by decide) (by decide)
  have e1 : (⟨0, 1, 0, 0⟩ * ⟨0, 1, 0, 0⟩ : _root_.Quaternion ℤ) = ⟨-1, 0, 0, 0⟩ := by rfl
  have e2 : (⟨0, 0, 1, 0⟩ * ⟨0, 0, 1, 0⟩ : _root_.Quaternion ℤ) = ⟨-1, 0, 0, 0⟩ := by rfl
  have e3 : (⟨0, 0, 0, 1⟩ * ⟨0, 0, 0, 1⟩ : _root_.Quaternion ℤ) = ⟨-1, 0, 0, 0⟩ := by rfl
  have e4 : (⟨0, 1, 0, 0⟩ * ⟨0, 0, 1, 0⟩ * ⟨0, 0, 0, 1⟩ : _root_.Quaternion ℤ) = ⟨-1, 0, 0, 0⟩ := by rfl
  refine ⟨isQ_eq (e1 ▸ C65_mul i1 i1 i2 i2 (by norm_num)) m1, isQ_eq (e2 ▸ C65_mul j1 j1 j2 j2 (by norm_num)) m1,
    isQ_eq (e3 ▸ C65_mul k1 k1 k2 k2 (by norm_num)) m1, isQ_eq (e4 ▸ ?_) m1⟩
  exact C65_mul (C65_mul i1 j1 i2 j2 (by norm_num)) k1 (qbound_mul i2 j2) k2 (by norm_num)

/-- `(1 + 2i + 3j + 4k)(5 + 6i + 7j + 8k) = -60 + 12i + 30j + 24k`. -/
example : IsQ ((⟨ofInt 1, ofInt 2, ofInt 3, ofInt 4⟩ : Quaternion).mul ⟨ofInt 5, ofInt 6, ofInt 7, ofInt 8⟩)
    ⟨-60, 12, 30, 24⟩ := by
  have e : (⟨1, 2, 3, 4⟩ * ⟨5, 6, 7, 8⟩ : _root_.Quaternion ℤ) = ⟨-60, 12, 30, 24⟩ := by rfl
  rw [← e]
  refine C65_mul (m := 8) (n := 8) ⟨ofInt_isVal ?_, ofInt_isVal ?_, ofInt_isVal ?_, ofInt_isVal ?_⟩
    ⟨ofInt_isVal ?_, ofInt_isVal ?_, ofInt_isVal ?_, ofInt_isVal ?_⟩ ⟨?_, ?_, ?_, ?_⟩ ⟨?_, ?_, ?_, ?_⟩ (by norm_num) <;> decide

/-! ### C66 -/

/-- Rounding error of a product, with underflow. -/
theorem mul_err_uf {x y : F32} (hx : x.isFinite = true) (hy : y.isFinite = true) (h : |x.val * y.val| < ovf) :
    (x * y).isFinite = true ∧ |(x * y).val - x.val * y.val| ≤ |x.val * y.val| / 2 ^ 24 + 1 / 2 ^ 150 := by
  obtain ⟨f, v⟩ := mul_val hx hy h
  refine ⟨f, ?_⟩
  rw [v]
  refine (RN_err _).trans (max_le ?_ ?_)
  · have : 0 ≤ |x.val * y.val| / 2 ^ 24 := by positivity
    linarith
  · have : (0 : ℚ) ≤ 1 / 2 ^ 150 := by positivity
    linarith

/-- One step of a signed sum: `S` is the exact partial sum, `A` its sum of magnitudes. -/
structure Acc (x : F32) (S A E : ℚ) : Prop where
  fin : x.isFinite = true
  err : |x.val - S| ≤ E
  abs : |S| ≤ A

theorem Acc.mul {x y : F32} (hx : x.isFinite = true) (hy : y.isFinite = true) (h : |x.val * y.val| ≤ 2 ^ 125) :
    Acc (x * y) (x.val * y.val) |x.val * y.val| (|x.val * y.val| / 2 ^ 24 + 1 / 2 ^ 150) := by
  obtain ⟨f, e⟩ := mul_err_uf hx hy (lt_of_le_of_lt h (by norm_num [ovf]))
  exact ⟨f, e, le_rfl⟩

theorem Acc.step {x y : F32} {S A E T B F : ℚ} (hx : Acc x S A E) (hy : Acc y T B F) (h : A + B + E + F ≤ 2 ^ 127) :
    Acc (x + y) (S + T) (A + B) (E + F + (A + B + E + F) / 2 ^ 24) ∧
    Acc (x - y) (S - T) (A + B) (E + F + (A + B + E + F) / 2 ^ 24) := by
  have h1 := abs_le.1 hx.err
  have h2 := abs_le.1 hy.err
  have h3 := abs_le.1 hx.abs
  have h4 := abs_le.1 hy.abs
  have ho : (2 : ℚ) ^ 127 < ovf := by norm_num [ovf]
  constructor
  · have hb : |x.val + y.val| ≤ A + B + E + F := by rw [abs_le]; constructor <;> linarith
    obtain ⟨d, hd, hf, hv⟩ := add_rel hx.fin hy.fin (lt_of_le_of_lt (hb.trans h) ho)
    refine ⟨hf, ?_, ?_⟩
    · have hr : |(x.val + y.val) * d| ≤ (A + B + E + F) * (1 / 2 ^ 24) := by
        rw [abs_mul]; exact mul_le_mul hb hd (abs_nonneg _) ((abs_nonneg _).trans hb)
      rw [hv]
      have := abs_le.1 hr
      rw [abs_le]; constructor <;> linarith
    · rw [abs_le]; constructor <;> linarith
  · have hb : |x.val - y.val| ≤ A + B + E + F := by rw [abs_le]; constructor <;> linarith
    obtain ⟨d, hd, hf, hv⟩ := sub_rel hx.fin hy.fin (lt_of_le_of_lt (hb.trans h) ho)
    refine ⟨hf, ?_, ?_⟩
    · have hr : |(x.val - y.val) * d| ≤ (A + B + E + F) * (1 / 2 ^ 24) := by
        rw [abs_mul]; exact mul_le_mul hb hd (abs_nonneg _) ((abs_nonneg _).trans hb)
      rw [hv]
      have := abs_le.1 hr
      rw [abs_le]; constructor <;> linarith
    · rw [abs_le]; constructor <;> linarith

/-- Error of any four-term signed inner product evaluated left to right. -/
theorem four_err {x1 x2 x3 x4 y1 y2 y3 y4 : F32}
    (f1 : x1.isFinite = true) (f2 : x2.isFinite = true) (f3 : x3.isFinite = true) (f4 : x4.isFinite = true)
    (g1 : y1.isFinite = true) (g2 : y2.isFinite = true) (g3 : y3.isFinite = true) (g4 : y4.isFinite = true) {M : ℚ}
    (hM : M = |x1.val * y1.val| + |x2.val * y2.val| + |x3.val * y3.val| + |x4.val * y4.val|) (h : M ≤ 2 ^ 125) :
    let B := 5 / 2 ^ 24 * M + 1 / 2 ^ 147
    let p1 := x1.val * y1.val
    let p2 := x2.val * y2.val
    let p3 := x3.val * y3.val
    let p4 := x4.val * y4.val
    ((x1 * y1 - x2 * y2 - x3 * y3 - x4 * y4).isFinite = true ∧
      |(x1 * y1 - x2 * y2 - x3 * y3 - x4 * y4).val - (p1 - p2 - p3 - p4)| ≤ B) ∧
    ((x1 * y1 + x2 * y2 + x3 * y3 - x4 * y4).isFinite = true ∧
      |(x1 * y1 + x2 * y2 + x3 * y3 - x4 * y4).val - (p1 + p2 + p3 - p4)| ≤ B) ∧
    ((x1 * y1 - x2 * y2 + x3 * y3 + x4 * y4).isFinite = true ∧
      |(x1 * y1 - x2 * y2 + x3 * y3 + x4 * y4).val - (p1 - p2 + p3 + p4)| ≤ B) ∧
    ((x1 * y1 + x2 * y2 - x3 * y3 + x4 * y4).isFinite = true ∧
      |(x1 * y1 + x2 * y2 - x3 * y3 + x4 * y4).val - (p1 + p2 - p3 + p4)| ≤ B) ∧
    ((x1 * y1 + x2 * y2 + x3 * y3 + x4 * y4).isFinite = true ∧
      |(x1 * y1 + x2 * y2 + x3 * y3 + x4 * y4).val - (p1 + p2 + p3 + p4)| ≤ B) := by
  intro B p1 p2 p3 p4
  have b1 := abs_nonneg (x1.val * y1.val)
  have b2 := abs_nonneg (x2.val * y2.val)
  have b3 := abs_nonneg (x3.val * y3.val)
  have b4 := abs_nonneg (x4.val * y4.val)
  have a1 := Acc.mul f1 g1 (by linarith)
  have a2 := Acc.mul f2 g2 (by linarith)
  have a3 := Acc.mul f3 g3 (by linarith)
  have a4 := Acc.mul f4 g4 (by linarith)
  have s12 := Acc.step a1 a2 (by linarith)
  have sp := Acc.step s12.1 a3 (by linarith)
  have sm := Acc.step s12.2 a3 (by linarith)
  refine ⟨⟨(Acc.step sm.2 a4 (by linarith)).2.fin, (Acc.step sm.2 a4 (by linarith)).2.err.trans ?_⟩,
    ⟨(Acc.step sp.1 a4 (by linarith)).2.fin, (Acc.step sp.1 a4 (by linarith)).2.err.trans ?_⟩,
    ⟨(Acc.step sm.1 a4 (by linarith)).1.fin, (Acc.step sm.1 a4 (by linarith)).1.err.trans ?_⟩,
    ⟨(Acc.step sp.2 a4 (by linarith)).1.fin, (Acc.step sp.2 a4 (by linarith)).1.err.trans ?_⟩,
    ⟨(Acc.step sp.1 a4 (by linarith)).1.fin, (Acc.step sp.1 a4 (by linarith)).1.err.trans ?_⟩⟩ <;>
  · simp only [B]
    rw [hM]
    linarith

/-- Sum of the magnitudes of the four products in a component of `q * r`, for each component. -/
def qmag (x y : _root_.Quaternion ℚ) : _root_.Quaternion ℚ :=
  ⟨|x.re * y.re| + |x.imI * y.imI| + |x.imJ * y.imJ| + |x.imK * y.imK|,
   |x.re * y.imI| + |x.imI * y.re| + |x.imJ * y.imK| + |x.imK * y.imJ|,
   |x.re * y.imJ| + |x.imI * y.imK| + |x.imJ * y.re| + |x.imK * y.imI|,
   |x.re * y.imK| + |x.imI * y.imJ| + |x.imJ * y.imI| + |x.imK * y.re|⟩

/-- **C66.** Forward error of the product against the quaternion algebra over `ℚ`, underflow included: each component
is within `5 * 2^-24` times the sum of the magnitudes of its four products, plus `2^-147`. -/
theorem C66_mul_err {q r : Quaternion} (hq : QFinite q) (hr : QFinite r)
    (h : (qmag (qval q) (qval r)).re ≤ 2 ^ 125 ∧ (qmag (qval q) (qval r)).imI ≤ 2 ^ 125 ∧
      (qmag (qval q) (qval r)).imJ ≤ 2 ^ 125 ∧ (qmag (qval q) (qval r)).imK ≤ 2 ^ 125) :
    QFinite (q.mul r) ∧
    |(q.mul r).a.val - (qval q * qval r).re| ≤ 5 / 2 ^ 24 * (qmag (qval q) (qval r)).re + 1 / 2 ^ 147 ∧
    |(q.mul r).b.val - (qval q * qval r).imI| ≤ 5 / 2 ^ 24 * (qmag (qval q) (qval r)).imI + 1 / 2 ^ 147 ∧
    |(q.mul r).c.val - (qval q * qval r).imJ| ≤ 5 / 2 ^ 24 * (qmag (qval q) (qval r)).imJ + 1 / 2 ^ 147 ∧
    |(q.mul r).d.val - (qval q * qval r).imK| ≤ 5 / 2 ^ 24 * (qmag (qval q) (qval r)).imK + 1 / 2 ^ 147 := by
  obtain ⟨q1, q2, q3, q4⟩ := hq
  obtain ⟨r1, r2, r3, r4⟩ := hr
  obtain ⟨h1, h2, h3, h4⟩ := h
  have e1 := (four_err q1 q2 q3 q4 r1 r2 r3 r4 rfl h1).1
  have e2 := (four_err q1 q2 q3 q4 r2 r1 r4 r3 rfl h2).2.1
  have e3 := (four_err q1 q2 q3 q4 r3 r4 r1 r2 rfl h3).2.2.1
  have e4 := (four_err q1 q2 q3 q4 r4 r3 r2 r1 rfl h4).2.2.2.1
  rw [_root_.Quaternion.re_mul, _root_.Quaternion.imI_mul, _root_.Quaternion.imJ_mul, _root_.Quaternion.imK_mul]
  exact ⟨⟨e1.1, e2.1, e3.1, e4.1⟩, e1.2, e2.2, e3.2, e4.2⟩

example : ∃ q r : Quaternion, QFinite q ∧ QFinite r ∧ (qmag (qval q) (qval r)).re ≤ 2 ^ 125 ∧
    (qmag (qval q) (qval r)).imI ≤ 2 ^ 125 ∧ (qmag (qval q) (qval r)).imJ ≤ 2 ^ 125 ∧
    (qmag (qval q) (qval r)).imK ≤ 2 ^ 125 := by
  refine ⟨⟨lit 1 2, lit 25 100, lit 8 1, one⟩, ⟨lit 2 1, lit 5 10, lit 1 2, lit 28 1⟩,
    ⟨by decide +kernel, by decide +kernel, by decide +kernel, by decide +kernel⟩,
    ⟨by decide +kernel, by decide +kernel, by decide +kernel, by decide +kernel⟩, ?_⟩
  simp only [qmag, qval, val_lit_1_2, val_lit_25_100, val_lit_8_1, val_one, val_lit_2_1, val_lit_5_10, val_lit_28_1]
  norm_num

/-- **C66**, for `norm` and `dot`. -/
theorem C66_norm_err {q r : Quaternion} (hq : QFinite q) (hr : QFinite r)
    (h : (qmag (qval q) (qval r)).re ≤ 2 ^ 125) :
    (q.dot r).isFinite = true ∧
    |(q.dot r).val - (q.a.val * r.a.val + q.b.val * r.b.val + q.c.val * r.c.val + q.d.val * r.d.val)|
      ≤ 5 / 2 ^ 24 * (qmag (qval q) (qval r)).re + 1 / 2 ^ 147 := by
  obtain ⟨q1, q2, q3, q4⟩ := hq
  obtain ⟨r1, r2, r3, r4⟩ := hr
  exact (four_err q1 q2 q3 q4 r1 r2 r3 r4 rfl h).2.2.2.2

/-! ### C67 -/

theorem mul_one_isVal {x : F32} (hx : x.isFinite = true) : IsVal (x * one) x.val ∧ IsVal (one * x) x.val := by
  have hm := abs_val_le_maxF hx
  constructor
  · have := mul_exact hx fin_one (by rw [val_one, mul_one]; exact hm) (by rw [val_one, mul_one]; exact rep_val x)
    rwa [val_one, mul_one] at this
  · have := mul_exact fin_one hx (by rw [val_one, one_mul]; exact hm) (by rw [val_one, one_mul]; exact rep_val x)
    rwa [val_one, one_mul] at this

theorem mul_zero_fin {x : F32} (hx : x.isFinite = true) : IsVal (x * posZero) 0 ∧ IsVal (posZero * x) 0 := by
  have hr : Rep 0 := by simpa using rep_int (m := 0) (by decide)
  have hm : |(0 : ℚ)| ≤ maxF := by norm_num [maxF]
  constructor
  · have := mul_exact hx fin_posZero (by rw [val_posZero, mul_zero]; exact hm) (by rw [val_posZero, mul_zero]; exact hr)
    rwa [val_posZero, mul_zero] at this
  · have := mul_exact fin_posZero hx (by rw [val_posZero, zero_mul]; exact hm) (by rw [val_posZero, zero_mul]; exact hr)
    rwa [val_posZero, zero_mul] at this

theorem add_zero_val {x y : F32} {v : ℚ} (hx : IsVal x v) (hy : IsVal y 0) :
    IsVal (x + y) v ∧ IsVal (y + x) v ∧ IsVal (x - y) v := by
  have hm := abs_val_le_maxF hx.1
  have hr := rep_val x
  rw [hx.2] at hm hr
  have e1 : x.val + y.val = v := by rw [hx.2, hy.2, add_zero]
  have e2 : y.val + x.val = v := by rw [hx.2, hy.2, zero_add]
  have e3 : x.val - y.val = v := by rw [hx.2, hy.2, sub_zero]
  have h1 := add_exact hx.1 hy.1 (by rw [e1]; exact hm) (by rw [e1]; exact hr)
  have h2 := add_exact hy.1 hx.1 (by rw [e2]; exact hm) (by rw [e2]; exact hr)
  have h3 := sub_exact hx.1 hy.1 (by rw [e3]; exact hm) (by rw [e3]; exact hr)
  rw [e1] at h1; rw [e2] at h2; rw [e3] at h3
  exact ⟨h1, h2, h3⟩

/-- **C67.** `IDENTITY` is a two-sided unit (`==`) for every finite quaternion. -/
theorem C67_identity {q : Quaternion} (hq : QFinite q) :
    (q.mul Quaternion.IDENTITY).eq q = true ∧ (Quaternion.IDENTITY.mul q).eq q = true := by
  obtain ⟨q1, q2, q3, q4⟩ := hq
  have o1 := mul_one_isVal q1
  have o2 := mul_one_isVal q2
  have o3 := mul_one_isVal q3
  have o4 := mul_one_isVal q4
  have z1 := mul_zero_fin q1
  have z2 := mul_zero_fin q2
  have z3 := mul_zero_fin q3
  have z4 := mul_zero_fin q4
  have eq4 : ∀ r : Quaternion, IsVal r.a q.a.val → IsVal r.b q.b.val → IsVal r.c q.c.val → IsVal r.d q.d.val →
      r.eq q = true := by
    intro r h1 h2 h3 h4
    unfold Quaternion.eq
    rw [(feq_iff h1.1 q1).2 h1.2, (feq_iff h2.1 q2).2 h2.2, (feq_iff h3.1 q3).2 h3.2, (feq_iff h4.1 q4).2 h4.2]
    rfl
  have add0 := @add_zero_val
  constructor
  · refine eq4 _ ?_ ?_ ?_ ?_
    · exact (add_zero_val (add_zero_val (add_zero_val o1.1 z2.1).2.2 z3.1).2.2 z4.1).2.2
    · exact (add_zero_val (add_zero_val (add_zero_val o2.1 z1.1).2.1 z3.1).1 z4.1).2.2
    · exact (add_zero_val (add_zero_val o3.1 (add_zero_val z1.1 z2.1).2.2).2.1 z4.1).1
    · exact (add_zero_val o4.1 (add_zero_val (add_zero_val z1.1 z2.1).1 z3.1).2.2).2.1
  · refine eq4 _ ?_ ?_ ?_ ?_
    · exact (add_zero_val (add_zero_val (add_zero_val o1.2 z2.2).2.2 z3.2).2.2 z4.2).2.2
    · exact (add_zero_val (add_zero_val (add_zero_val o2.2 z1.2).1 z4.2).1 z3.2).2.2
    · exact (add_zero_val (add_zero_val (add_zero_val o3.2 z4.2).2.2 z1.2).1 z2.2).1
    · exact (add_zero_val (add_zero_val (add_zero_val o4.2 z3.2).1 z2.2).2.2 z1.2).1

example : QFinite ⟨lit 1 10, lit 2 10, -(lit 3 10), lit 4 10⟩ :=
  ⟨by decide +kernel, by decide +kernel, by decide +kernel, by decide +kernel⟩

/-! ### C68 -/

theorem add_nonneg_sign {x y : F32} (hx : x.isNaN = true ∨ x.sign = false) (hy : y.isNaN = true ∨ y.sign = false) :
    (x + y).isNaN = true ∨ (x + y).sign = false := by
  by_cases nx : x.isNaN = true
  · exact Or.inl (add_nan (Or.inl nx))
  by_cases ny : y.isNaN = true
  · exact Or.inl (add_nan (Or.inr ny))
  have sx := hx.resolve_left nx
  have sy := hy.resolve_left ny
  right
  rcases class_cases x with fx | ix | h
  · rcases class_cases y with fy | iy | h
    · rw [add_def, addAs_finite _ fx fy]
      split
      · rw [sx, Bool.false_and, if_neg (by simp)]; decide
      · have h0 : 0 ≤ x.val := by rw [val_of_pos sx]; exact mval_nonneg _
        have h1 : 0 ≤ y.val := by rw [val_of_pos sy]; exact mval_nonneg _
        have hd : decide (x.val + y.val < 0) = false := by simp; linarith
        rw [hd, sign_pack _ (by have := infMag_lt; omega)]
    · have := not_inf_of_finite fx
      have nx' : x.isNaN = false := by simpa using nx
      have ny' : y.isNaN = false := by simpa using ny
      rw [add_def]; simp only [addAs, nx', ny', this, iy]; simpa using sy
    · exact absurd h ny
  · have nx' : x.isNaN = false := by simpa using nx
    have ny' : y.isNaN = false := by simpa using ny
    rcases class_cases y with fy | iy | h
    · have := not_inf_of_finite fy
      rw [add_def]; simp only [addAs, nx', ny', this, ix]; simpa using sx
    · rw [add_def]; simp only [addAs, nx', ny', ix, iy, sx, sy]; simpa using sx
    · exact absurd h ny
  · exact absurd h nx

theorem sq_sign (x : F32) : (x * x).isNaN = true ∨ (x * x).sign = false := by
  by_cases h : x.isNaN = true
  · exact Or.inl (mul_nan (Or.inl h))
  · exact Or.inr (sq_facts (by simpa using h)).2

/-- **C68.** `norm` is NaN or at least `+0`; it is `dot` of the quaternion with itself, and `dot` is symmetric
(NaN matching NaN). -/
theorem C68_norm_dot (q r : Quaternion) :
    (q.norm.isNaN = true ∨ (q.norm.isSignNegative = false ∧ q.norm.ge posZero = true)) ∧
    q.norm = q.dot q ∧
    (q.dot r = r.dot q ∨ ((q.dot r).isNaN = true ∧ (r.dot q).isNaN = true)) := by
  refine ⟨?_, rfl, ?_⟩
  · have := add_nonneg_sign (add_nonneg_sign (add_nonneg_sign (sq_sign q.a) (sq_sign q.b)) (sq_sign q.c)) (sq_sign q.d)
    rcases this with h | h
    · exact Or.inl h
    · by_cases hn : q.norm.isNaN = true
      · exact Or.inl hn
      · exact Or.inr ⟨h, (ge_zero_iff _).2 ⟨by simpa using hn, Or.inl h⟩⟩
  · have : Eqv (q.dot r) (r.dot q) :=
      (((mul_comm_eqv _ _).add (mul_comm_eqv _ _)).add (mul_comm_eqv _ _)).add (mul_comm_eqv _ _)
    rcases this with h | h
    · exact Or.inr h
    · exact Or.inl h

/-! ### C69 -/

/-- The square of a float is zero exactly for magnitudes up to `2^-75`. -/
theorem sq_zero_iff {x : F32} (hx : x.isNaN = false) : (x * x).mag = 0 ↔ x.isFinite = true ∧ |x.val| ≤ 1 / 2 ^ 75 := by
  rcases class_cases x with hf | hi | hn
  · have h0 : (x * x).mag = 0 ↔ rbits (x.val * x.val) = 0 := by
      rw [mul_finite hf hf, mag_pack _ (by have := infMag_lt; omega)]
      have : 0 < infMag := by decide
      omega
    rw [h0]
    have e1 : rbits (x.val * x.val) = 0 ↔ RN (x.val * x.val) = 0 := by
      rw [RN_of_nonneg (mul_self_nonneg _), ← mval_zero, mval_inj]
    rw [e1]
    have hz : 1 / 2 ^ 150 = (1 / 2 ^ 75 : ℚ) * (1 / 2 ^ 75) := by norm_num
    constructor
    · intro h
      refine ⟨hf, ?_⟩
      by_contra hc
      push Not at hc
      have h1 : (1 : ℚ) / 2 ^ 150 < x.val * x.val := by
        rw [hz, ← abs_mul_abs_self x.val]
        exact mul_lt_mul'' hc hc (by positivity) (by positivity)
      -- the smallest float is closer to the square than zero is
      have hr : Rep ((2 : ℚ) ^ (-149 : Int)) := rep_pow (by norm_num)
      have := RN_nearest (q := x.val * x.val) hr
      rw [h, zero_sub, abs_neg, abs_of_nonneg (mul_self_nonneg _)] at this
      rcases le_total ((2 : ℚ) ^ (-149 : Int)) (x.val * x.val) with h2 | h2
      · have h3 := le_RN_of_rep hr h2
        rw [h] at h3
        have : (0 : ℚ) < 2 ^ (-149 : Int) := by positivity
        linarith
      · rw [abs_of_nonneg (by linarith)] at this
        have e : (2 : ℚ) ^ (-149 : Int) = 2 * (1 / 2 ^ 150) := by norm_num
        rw [e] at this
        linarith
    · intro h
      have h1 : x.val * x.val ≤ 1 / 2 ^ 150 := by
        rw [hz, ← abs_mul_abs_self x.val]
        exact mul_le_mul h.2 h.2 (by positivity) (by positivity)
      have h2 : RN (1 / 2 ^ 150) = 0 := by
        have : rbits (1 / 2 ^ 150) = 0 := by decide +kernel
        rw [RN_of_nonneg (by positivity), this, mval_zero]
      have h3 := RN_mono h1
      have h4 := RN_nonneg (mul_self_nonneg x.val)
      linarith
  · have hfin := not_finite_of_inf hi
    refine iff_of_false ?_ (fun h => by rw [hfin] at h; simp at h)
    rw [mul_def]
    have hz : x.isZero = false := by
      simp only [isInf, decide_eq_true_eq] at hi
      simp only [isZero, hi]; decide
    simp only [mul, hx, hi, hz]
    simp only [Bool.or_self, Bool.false_eq_true, if_false, if_true]
    rw [mag_pack _ infMag_lt]; decide
  · rw [hn] at hx; cases hx

theorem add_nonneg_zero_iff {x y : F32} (hx : x.isNaN = true ∨ x.sign = false) (hy : y.isNaN = true ∨ y.sign = false) :
    (x + y).mag = 0 ↔ x.mag = 0 ∧ y.mag = 0 := by
  have zf : ∀ u : F32, u.mag = 0 → u.isFinite = true ∧ u.val = 0 := by
    intro u hu
    exact ⟨by rw [isFinite, hu]; decide, val_eq_zero.2 hu⟩
  constructor
  · intro h
    obtain ⟨hf, hv⟩ := zf _ h
    obtain ⟨fx, fy, ho⟩ := add_finite_inv hf
    have sx := hx.resolve_left (by rw [not_nan_of_finite fx]; simp)
    have sy := hy.resolve_left (by rw [not_nan_of_finite fy]; simp)
    have h0 : 0 ≤ x.val := by rw [val_of_pos sx]; exact mval_nonneg _
    have h1 : 0 ≤ y.val := by rw [val_of_pos sy]; exact mval_nonneg _
    have e := add_finite_val hf
    rw [hv] at e
    have l1 := RN_mono (show x.val ≤ x.val + y.val by linarith)
    have l2 := RN_mono (show y.val ≤ x.val + y.val by linarith)
    rw [RN_val, ← e] at l1 l2
    exact ⟨val_eq_zero.1 (le_antisymm l1 h0), val_eq_zero.1 (le_antisymm l2 h1)⟩
  · intro ⟨h1, h2⟩
    obtain ⟨f1, v1⟩ := zf _ h1
    obtain ⟨f2, v2⟩ := zf _ h2
    have := add_val f1 f2 (by rw [v1, v2]; norm_num [ovf])
    rw [v1, v2, add_zero, RN_zero] at this
    exact val_eq_zero.1 this.2

/-- Every component is finite and so small that its square underflows to zero. -/
def QTiny (q : Quaternion) : Prop :=
  QFinite q ∧ |q.a.val| ≤ 1 / 2 ^ 75 ∧ |q.b.val| ≤ 1 / 2 ^ 75 ∧ |q.c.val| ≤ 1 / 2 ^ 75 ∧ |q.d.val| ≤ 1 / 2 ^ 75

omit [Cfg] in
theorem feq_zero_mag (x : F32) : x.feq posZero = true ↔ x.isNaN = false ∧ x.mag = 0 := by
  have hn : posZero.isNaN = false := by decide
  have hk : posZero.key = 0 := by decide
  unfold feq
  rw [hn, hk]
  have : x.key = 0 ↔ x.mag = 0 := by unfold key; split <;> omega
  cases h : x.isNaN <;> simp [this]

/-- The norm compares equal to zero exactly when all components are at most `2^-75`. -/
theorem norm_zero_iff (q : Quaternion) : q.norm.feq posZero = true ↔ QTiny q := by
  have sa := sq_sign q.a
  have sb := sq_sign q.b
  have sc := sq_sign q.c
  have sd := sq_sign q.d
  have nz : ∀ u : F32, u.mag = 0 → u.isNaN = false := by
    intro u hu; rw [isNaN, hu]; decide
  have key : ∀ u : F32, (u * u).mag = 0 ↔ u.isFinite = true ∧ |u.val| ≤ 1 / 2 ^ 75 := by
    intro u
    by_cases hn : u.isNaN = true
    · refine iff_of_false (fun h => ?_) (fun h => ?_)
      · have := nz _ h; rw [mul_nan (Or.inl hn)] at this; cases this
      · rw [not_finite_of_nan hn] at h; simp at h
    · exact sq_zero_iff (by simpa using hn)
  rw [feq_zero_mag]
  unfold Quaternion.norm
  constructor
  · rintro ⟨-, h⟩
    rw [add_nonneg_zero_iff (add_nonneg_sign (add_nonneg_sign sa sb) sc) sd,
      add_nonneg_zero_iff (add_nonneg_sign sa sb) sc, add_nonneg_zero_iff sa sb, key, key, key, key] at h
    exact ⟨⟨h.1.1.1.1, h.1.1.2.1, h.1.2.1, h.2.1⟩, h.1.1.1.2, h.1.1.2.2, h.1.2.2, h.2.2⟩
  · rintro ⟨⟨f1, f2, f3, f4⟩, b1, b2, b3, b4⟩
    have h : (q.a * q.a + q.b * q.b + q.c * q.c + q.d * q.d).mag = 0 := by
      rw [add_nonneg_zero_iff (add_nonneg_sign (add_nonneg_sign sa sb) sc) sd,
        add_nonneg_zero_iff (add_nonneg_sign sa sb) sc, add_nonneg_zero_iff sa sb, key, key, key, key]
      exact ⟨⟨⟨⟨f1, b1⟩, f2, b2⟩, f3, b3⟩, f4, b4⟩
    exact ⟨nz _ h, h⟩

/-- **C69.** `inv` panics exactly when the norm compares equal to `0.0`, that is, when every component is at most
`2^-75` in magnitude (nonzero quaternions included). -/
theorem C69_inv_panic (q : Quaternion) : (Fails q.inv ↔ QTiny q) ∧ (Fails q.inv ↔ q.norm.feq posZero = true) := by
  have h : Fails q.inv ↔ q.norm.feq posZero = true := by
    unfold Quaternion.inv
    by_cases h : q.norm.feq posZero = true
    · simp only [h, if_true]; exact iff_of_true ⟨_, rfl⟩ trivial
    · simp only [h]; refine iff_of_false ?_ (by simp)
      rintro ⟨e, he⟩; cases he
  exact ⟨h.trans (norm_zero_iff q), h⟩

/-- **C69.** `normalize` panics exactly on such quaternions, or with overflow checks when the norm is a NaN with the
sign bit set. -/
theorem C69_normalize_panic (q : Quaternion) :
    Fails q.normalize ↔ QTiny q ∨ (Cfg.overflowChecks = true ∧ q.norm.isNaN = true ∧ q.norm.isSignNegative = true) := by
  by_cases h : q.norm.feq posZero = true
  · refine iff_of_true ?_ (Or.inl ((norm_zero_iff q).1 h))
    unfold Quaternion.normalize
    simp only [h, if_true]; exact ⟨_, rfl⟩
  · have hq : ¬ QTiny q := fun hc => h ((norm_zero_iff q).2 hc)
    have e : Fails q.normalize ↔ Fails q.norm.invsqrt := by
      unfold Quaternion.normalize
      simp only [h]
      rcases hi : q.norm.invsqrt with e | y
      · exact iff_of_true ⟨e, by simp [error_bind]⟩ ⟨e, rfl⟩
      · refine iff_of_false ?_ ?_
        · rintro ⟨e, he⟩; simp [ok_bind] at he
        · rintro ⟨e, he⟩; cases he
    rw [e, (C18_invsqrt_panic _).1, (C18_invsqrt_panic _).2]
    constructor
    · rintro ⟨h1, h2, h3⟩
      right
      rcases (C68_norm_dot q q).1 with hn | hn
      · exact ⟨h1, hn, h2⟩
      · rw [hn.1] at h2; cases h2
    · rintro (h1 | ⟨h1, h2, h3⟩)
      · exact absurd h1 hq
      · refine ⟨h1, h3, ?_⟩
        have : infMag < q.norm.mag := by simpa [isNaN] using h2
        have hi : infMag = 0x7f800000 := by decide
        omega

/-- The zero quaternion is refused, and `(2^-80, 0, 0, 0)` too. -/
example : Fails (Quaternion.inv ⟨posZero, posZero, posZero, posZero⟩) ∧
    Fails (Quaternion.inv ⟨⟨0x17800000#32⟩, posZero, posZero, posZero⟩) ∧
    ¬ Fails (Quaternion.inv ⟨one, posZero, posZero, posZero⟩) := by
  have hz : |posZero.val| ≤ 1 / 2 ^ 75 := by rw [val_posZero]; norm_num
  have ht : (⟨0x17800000#32⟩ : F32).val = 1 / 2 ^ 80 := by
    rw [val_of_units (u := 1 * 2 ^ 69) (by decide +kernel)]; norm_num
  refine ⟨(C69_inv_panic _).1.2 ⟨⟨by decide, by decide, by decide, by decide⟩, hz, hz, hz, hz⟩,
    (C69_inv_panic _).1.2 ⟨⟨by decide, by decide, by decide, by decide⟩, ?_, hz, hz, hz⟩, fun h => ?_⟩
  · show |(⟨0x17800000#32⟩ : F32).val| ≤ 1 / 2 ^ 75
    rw [ht]; norm_num
  · have := ((C69_inv_panic _).1.1 h).2.1
    change |one.val| ≤ 1 / 2 ^ 75 at this
    rw [val_one] at this; norm_num at this

/-! ### C71 -/

/-- An integer vector as a pure quaternion. -/
def pureQ (x y z : Int) : _root_.Quaternion ℤ := ⟨0, x, y, z⟩

/-- The float vector `v` holds exactly the integers `x`, `y`, `z`. -/
def IsV {C : Type} [IntoF32 C] (v : Vector3d C) (x y z : Int) : Prop :=
  IsVal (IntoF32.into v.x) x ∧ IsVal (IntoF32.into v.y) y ∧ IsVal (IntoF32.into v.z) z

omit [Cfg] in
theorem sandwich (t : _root_.Quaternion ℤ) (x y z : Int) :
    let p := t * pureQ x y z * star t
    p.re = 0 ∧
    p.imI = (t.re * t.re + t.imI * t.imI - t.imJ * t.imJ - t.imK * t.imK) * x + (2 * (t.imI * t.imJ - t.re * t.imK)) * y
      + (2 * (t.imI * t.imK + t.re * t.imJ)) * z ∧
    p.imJ = (2 * (t.imI * t.imJ + t.re * t.imK)) * x
      + (t.re * t.re - t.imI * t.imI + t.imJ * t.imJ - t.imK * t.imK) * y + (2 * (t.imJ * t.imK - t.re * t.imI)) * z ∧
    p.imK = (2 * (t.imI * t.imK - t.re * t.imJ)) * x + (2 * (t.imJ * t.imK + t.re * t.imI)) * y
      + (t.re * t.re - t.imI * t.imI - t.imJ * t.imJ + t.imK * t.imK) * z := by
  intro p
  have e1 : (pureQ x y z).re = 0 := rfl
  have e2 : (pureQ x y z).imI = x := rfl
  have e3 : (pureQ x y z).imJ = y := rfl
  have e4 : (pureQ x y z).imK = z := rfl
  refine ⟨?_, ?_, ?_, ?_⟩ <;>
  · simp only [p, _root_.Quaternion.re_mul, _root_.Quaternion.imI_mul, _root_.Quaternion.imJ_mul,
      _root_.Quaternion.imK_mul, _root_.Quaternion.re_star, _root_.Quaternion.imI_star, _root_.Quaternion.imJ_star,
      _root_.Quaternion.imK_star, e1, e2, e3, e4]
    ring

theorem diag4 {a b c d : F32} {i j k l : Int} {n : Nat} (ha : IsVal a i) (hb : IsVal b j) (hc : IsVal c k)
    (hd : IsVal d l) (ba : i.natAbs ≤ n) (bb : j.natAbs ≤ n) (bc : k.natAbs ≤ n) (bd : l.natAbs ≤ n) (hn : 4 * n ≤ 2 ^ 24) :
    (IsVal (a + b - c - d) (i + j - k - l : Int) ∧ (i + j - k - l).natAbs ≤ 4 * n) ∧
    (IsVal (a - b + c - d) (i - j + k - l : Int) ∧ (i - j + k - l).natAbs ≤ 4 * n) ∧
    (IsVal (a - b - c + d) (i - j - k + l : Int) ∧ (i - j - k + l).natAbs ≤ 4 * n) :=
  ⟨⟨sub_int (sub_int (add_int ha hb (by omega)) hc (by omega)) hd (by omega), by omega⟩,
   ⟨sub_int (add_int (sub_int ha hb (by omega)) hc (by omega)) hd (by omega), by omega⟩,
   ⟨add_int (sub_int (sub_int ha hb (by omega)) hc (by omega)) hd (by omega), by omega⟩⟩

theorem off2 {a b : F32} {i j : Int} {n : Nat} (ha : IsVal a i) (hb : IsVal b j) (ba : i.natAbs ≤ n) (bb : j.natAbs ≤ n)
    (hn : 4 * n ≤ 2 ^ 24) :
    (IsVal (lit 2 1 * (a - b)) (2 * (i - j) : Int) ∧ (2 * (i - j)).natAbs ≤ 4 * n) ∧
    (IsVal (lit 2 1 * (a + b)) (2 * (i + j) : Int) ∧ (2 * (i + j)).natAbs ≤ 4 * n) := by
  have two : IsVal (lit 2 1) (2 : Int) := ⟨fin_lit_2_1, by rw [val_lit_2_1]; norm_num⟩
  exact ⟨⟨mul_int two (sub_int ha hb (by omega)) (by omega), by omega⟩,
    ⟨mul_int two (add_int ha hb (by omega)) (by omega), by omega⟩⟩

/-- A row of the rotation matrix applied to the vector. -/
theorem rot_row {v1 v2 v3 r1 r2 r3 : F32} {x y z k1 k2 k3 : Int} {m n : Nat} (h1 : IsVal v1 x) (h2 : IsVal v2 y)
    (h3 : IsVal v3 z) (bx : x.natAbs ≤ n) (by' : y.natAbs ≤ n) (bz : z.natAbs ≤ n)
    (i1 : IsVal r1 k1 ∧ k1.natAbs ≤ 4 * (m * m)) (i2 : IsVal r2 k2 ∧ k2.natAbs ≤ 4 * (m * m))
    (i3 : IsVal r3 k3 ∧ k3.natAbs ≤ 4 * (m * m)) (h : 12 * (m * m * n) ≤ 2 ^ 24) :
    IsVal (r1 * v1 + r2 * v2 + r3 * v3) (k1 * x + k2 * y + k3 * z : Int) := by
  have e1 := natAbs_mul_le i1.2 bx
  have e2 := natAbs_mul_le i2.2 by'
  have e3 := natAbs_mul_le i3.2 bz
  rw [show 4 * (m * m) * n = 4 * (m * m * n) by ring] at e1 e2 e3
  generalize m * m * n = w at *
  have p1 := mul_int i1.1 h1 (by omega)
  have p2 := mul_int i2.1 h2 (by omega)
  have p3 := mul_int i3.1 h3 (by omega)
  exact add_int (add_int p1 p2 (by omega)) p3 (by omega)

/-- **C71.** On integer data within `2^24`, `rotate` is exactly the vector part of `q v q*` in the quaternion algebra
(whose scalar part is zero), and the squared length is multiplied by the squared norm of `q` twice. -/
theorem C71_rotate {C : Type} [IntoF32 C] {q : Quaternion} {t : _root_.Quaternion ℤ} {v : Vector3d C} {x y z : Int}
    {m n : Nat} (hq : IsQ q t) (hv : IsV v x y z) (bt : QBound t m) (bx : x.natAbs ≤ n) (by' : y.natAbs ≤ n)
    (bz : z.natAbs ≤ n) (h : 12 * (m * m * n) ≤ 2 ^ 24) (h' : 4 * (m * m) ≤ 2 ^ 24) :
    let p := t * pureQ x y z * star t
    IsV (q.rotate v) p.imI p.imJ p.imK ∧ p.re = 0 ∧
    p.imI ^ 2 + p.imJ ^ 2 + p.imK ^ 2 = _root_.Quaternion.normSq t ^ 2 * (x ^ 2 + y ^ 2 + z ^ 2) := by
  intro p
  obtain ⟨q1, q2, q3, q4⟩ := hq
  obtain ⟨v1, v2, v3⟩ := hv
  obtain ⟨t1, t2, t3, t4⟩ := bt
  obtain ⟨hre, hI, hJ, hK⟩ := sandwich t x y z
  refine ⟨?_, hre, ?_⟩
  · have naa := natAbs_mul_le t1 t1
    have nbb := natAbs_mul_le t2 t2
    have ncc := natAbs_mul_le t3 t3
    have ndd := natAbs_mul_le t4 t4
    have nbc := natAbs_mul_le t2 t3
    have nad := natAbs_mul_le t1 t4
    have nbd := natAbs_mul_le t2 t4
    have nac := natAbs_mul_le t1 t3
    have ncd := natAbs_mul_le t3 t4
    have nab := natAbs_mul_le t1 t2
    have hm2 : m * m ≤ 2 ^ 24 := le_trans (by omega) h'
    have aa := mul_int q1 q1 (naa.trans hm2)
    have bb := mul_int q2 q2 (nbb.trans hm2)
    have cc := mul_int q3 q3 (ncc.trans hm2)
    have dd := mul_int q4 q4 (ndd.trans hm2)
    have bc := mul_int q2 q3 (nbc.trans hm2)
    have ad := mul_int q1 q4 (nad.trans hm2)
    have bd := mul_int q2 q4 (nbd.trans hm2)
    have ac := mul_int q1 q3 (nac.trans hm2)
    have cd := mul_int q3 q4 (ncd.trans hm2)
    have ab := mul_int q1 q2 (nab.trans hm2)
    have r1 := rot_row v1 v2 v3 bx by' bz (diag4 aa bb cc dd naa nbb ncc ndd h').1 (off2 bc ad nbc nad h').1
      (off2 bd ac nbd nac h').2 h
    have r2 := rot_row v1 v2 v3 bx by' bz (off2 bc ad nbc nad h').2 (diag4 aa bb cc dd naa nbb ncc ndd h').2.1
      (off2 cd ab ncd nab h').1 h
    have r3 := rot_row v1 v2 v3 bx by' bz (off2 bd ac nbd nac h').1 (off2 cd ab ncd nab h').2
      (diag4 aa bb cc dd naa nbb ncc ndd h').2.2 h
    rw [← hI] at r1
    rw [← hJ] at r2
    rw [← hK] at r3
    exact ⟨r1, r2, r3⟩
  · have e1 : _root_.Quaternion.normSq p = _root_.Quaternion.normSq t ^ 2
        * _root_.Quaternion.normSq (pureQ x y z) := by
      simp only [p, map_mul, _root_.Quaternion.normSq_star]; ring
    rw [_root_.Quaternion.normSq_def', hre] at e1
    have e2 : _root_.Quaternion.normSq (pureQ x y z) = x ^ 2 + y ^ 2 + z ^ 2 := by
      rw [_root_.Quaternion.normSq_def']; simp [pureQ]
    rw [e2] at e1
    rw [← e1]; ring

/-- **C71.** `q * v` is `rotate`, and `IDENTITY` rotates integer vectors to themselves. -/
theorem C71_identity {C : Type} [IntoF32 C] (q : Quaternion) (v : Vector3d C) :
    q.mulVec v = q.rotate v ∧
    ∀ x y z : Int, IsV v x y z → x.natAbs ≤ 2 ^ 20 → y.natAbs ≤ 2 ^ 20 → z.natAbs ≤ 2 ^ 20 →
      IsV (Quaternion.IDENTITY.rotate v) x y z := by
  refine ⟨rfl, fun x y z hv bx by' bz => ?_⟩
  have hi : IsQ Quaternion.IDENTITY 1 := by
    refine ⟨⟨fin_one, by rw [_root_.Quaternion.re_one]; exact_mod_cast val_one⟩,
      ⟨fin_posZero, by rw [_root_.Quaternion.imI_one]; exact_mod_cast val_posZero⟩,
      ⟨fin_posZero, by rw [_root_.Quaternion.imJ_one]; exact_mod_cast val_posZero⟩,
      ⟨fin_posZero, by rw [_root_.Quaternion.imK_one]; exact_mod_cast val_posZero⟩⟩
  have := (C71_rotate hi hv (m := 1) (n := 2 ^ 20) (by
    unfold QBound
    rw [_root_.Quaternion.re_one, _root_.Quaternion.imI_one, _root_.Quaternion.imJ_one, _root_.Quaternion.imK_one]
    decide) bx by' bz (by norm_num) (by norm_num)).1
  rw [star_one, one_mul, mul_one] at this
  exact this

/-- `(1 + i) (0, 1, 0) (1 - i) = (0, 0, 2)`. -/
example : IsV (Quaternion.rotate ⟨ofInt 1, ofInt 1, ofInt 0, ofInt 0⟩ (⟨ofInt 0, ofInt 1, ofInt 0⟩ : Vector3d F32)) 0 0 2 := by
  have e : (⟨1, 1, 0, 0⟩ * pureQ 0 1 0 * star ⟨1, 1, 0, 0⟩ : _root_.Quaternion ℤ) = ⟨0, 0, 0, 2⟩ := by rfl
  have := (C71_rotate (q := ⟨ofInt 1, ofInt 1, ofInt 0, ofInt 0⟩) (t := ⟨1, 1, 0, 0⟩)
    (v := (⟨ofInt 0, ofInt 1, ofInt 0⟩ : Vector3d F32)) (x := 0) (y := 1) (z := 0) (m := 1) (n := 1)
    ⟨ofInt_isVal (by decide), ofInt_isVal (by decide), ofInt_isVal (by decide), ofInt_isVal (by decide)⟩
    ⟨ofInt_isVal (by decide), ofInt_isVal (by decide), ofInt_isVal (by decide)⟩
    (by unfold QBound; decide) (by decide) (by decide) (by decide) (by norm_num) (by norm_num)).1
  rw [e] at this
  exact this

/-! ### C72 -/

omit [Cfg] in
/-- **C72.** Constructors, accessors and conversions are mutually inverse and keep the order `w, x, y, z`. -/
theorem C72_conversions (q : Quaternion) (a b c d : F32) :
    (Quaternion.new a b c d).w = a ∧ (Quaternion.new a b c d).x = b ∧ (Quaternion.new a b c d).y = c ∧
      (Quaternion.new a b c d).z = d ∧
    Quaternion.new q.w q.x q.y q.z = q ∧
    Quaternion.ofTuple q.toTuple = q ∧ (Quaternion.ofTuple (a, b, c, d)).toTuple = (a, b, c, d) ∧
    Quaternion.ofTuple (a, b, c, d) = Quaternion.new a b c d ∧
    Quaternion.ofArray q.toArray = q ∧ Quaternion.ofArray q.intoArray = q ∧
    (∀ (f : Fin 4 → F32) (i : Fin 4), (Quaternion.ofArray f).toArray i = f i) ∧
    Quaternion.ofArray ![a, b, c, d] = Quaternion.new a b c d ∧
    Quaternion.default = Quaternion.IDENTITY ∧ Quaternion.IDENTITY = Quaternion.new one posZero posZero posZero := by
  refine ⟨rfl, rfl, rfl, rfl, rfl, rfl, rfl, rfl, rfl, rfl, ?_, rfl, rfl, rfl⟩
  intro f i
  match i with
  | 0 => rfl
  | 1 => rfl
  | 2 => rfl
  | 3 => rfl

/-- **C72.** `From<Vector3d>` is a pure quaternion; the linear operations are componentwise; scalars commute. -/
theorem C72_linear {C : Type} [IntoF32 C] (q r : Quaternion) (k : F32) (v : Vector3d C) :
    IsVal (Quaternion.ofVector3d v).w 0 ∧ (Quaternion.ofVector3d v).x = IntoF32.into v.x ∧
      (Quaternion.ofVector3d v).y = IntoF32.into v.y ∧ (Quaternion.ofVector3d v).z = IntoF32.into v.z ∧
    q.add r = ⟨q.w + r.w, q.x + r.x, q.y + r.y, q.z + r.z⟩ ∧ q.sub r = ⟨q.w - r.w, q.x - r.x, q.y - r.y, q.z - r.z⟩ ∧
    q.scale k = ⟨q.w * k, q.x * k, q.y * k, q.z * k⟩ ∧
    q.addAssign r = q.add r ∧ q.subAssign r = q.sub r ∧ q.mulF32 k = q.scale k ∧ q.mulAssign k = q.scale k ∧
    Quaternion.f32Mul k q = q.mulF32 k :=
  ⟨⟨fin_posZero, val_posZero⟩, rfl, rfl, rfl, rfl, rfl, rfl, rfl, rfl, rfl, rfl, rfl⟩

end
end Micromath.Props
