import Verif.Props.QuatRot

/-!
# C158: the 24 exact rotations: Hurwitz units
-/

set_option exponentiation.threshold 1000

namespace Micromath.Props
open F32 Spec

variable [Cfg]

/-- Twice the components of the 24 Hurwitz units `±1, ±i, ±j, ±k, (±1 ±i ±j ±k)/2`. -/
def hur24 : List (ℤ × ℤ × ℤ × ℤ) :=
  [(2, 0, 0, 0), (-2, 0, 0, 0), (0, 2, 0, 0), (0, -2, 0, 0), (0, 0, 2, 0), (0, 0, -2, 0), (0, 0, 0, 2), (0, 0, 0, -2),
    (1, 1, 1, 1), (1, 1, 1, -1), (1, 1, -1, 1), (1, 1, -1, -1), (1, -1, 1, 1), (1, -1, 1, -1), (1, -1, -1, 1), (1, -1, -1, -1),
    (-1, 1, 1, 1), (-1, 1, 1, -1), (-1, 1, -1, 1), (-1, 1, -1, -1), (-1, -1, 1, 1), (-1, -1, 1, -1), (-1, -1, -1, 1), (-1, -1, -1, -1)]

/-- The components of `q` are halves of the given integers. -/
def IsHalf (q : Quaternion) (p : ℤ × ℤ × ℤ × ℤ) : Prop :=
  IsVal q.a (p.1 / 2) ∧ IsVal q.b (p.2.1 / 2) ∧ IsVal q.c (p.2.2.1 / 2) ∧ IsVal q.d (p.2.2.2 / 2)

/-- One of the 24 units, up to the signs of zeros. -/
def HurwitzUnit (q : Quaternion) : Prop := ∃ p ∈ hur24, IsHalf q p

omit [Cfg] in
theorem hur_le : ∀ p ∈ hur24, |p.1| ≤ 2 ∧ |p.2.1| ≤ 2 ∧ |p.2.2.1| ≤ 2 ∧ |p.2.2.2| ≤ 2 := by decide +kernel

omit [Cfg] in
/-- Twice the product, of twice the factors. -/
theorem hur_mul : ∀ p ∈ hur24, ∀ r ∈ hur24,
    ∃ t ∈ hur24, p.1 * r.1 - p.2.1 * r.2.1 - p.2.2.1 * r.2.2.1 - p.2.2.2 * r.2.2.2 = 2 * t.1 ∧
      p.1 * r.2.1 + p.2.1 * r.1 + p.2.2.1 * r.2.2.2 - p.2.2.2 * r.2.2.1 = 2 * t.2.1 ∧
      p.1 * r.2.2.1 - p.2.1 * r.2.2.2 + p.2.2.1 * r.1 + p.2.2.2 * r.2.1 = 2 * t.2.2.1 ∧
      p.1 * r.2.2.2 + p.2.1 * r.2.2.1 - p.2.2.1 * r.2.1 + p.2.2.2 * r.1 = 2 * t.2.2.2 := by decide +kernel

/-! ### Quarters are exact -/

omit [Cfg] in
theorem rep_quarter {n : ℤ} (h : |n| ≤ 1000) : Rep ((n : ℚ) / 4) ∧ |(n : ℚ) / 4| ≤ maxF := by
  have h' := abs_le.1 h
  constructor
  · have := rep_zpow (m := n) (by norm_num; omega) (e := -2) (by norm_num)
    rwa [show ((2 : ℚ) ^ (-2 : ℤ)) = 1 / 4 by norm_num, mul_one_div] at this
  · have : |(n : ℚ)| ≤ 1000 := by exact_mod_cast h
    rw [abs_div, abs_of_pos (show (0 : ℚ) < 4 by norm_num)]
    refine le_trans ?_ (show (250 : ℚ) ≤ maxF by norm_num [maxF])
    rw [div_le_iff₀ (by norm_num)]; linarith

theorem add_quarter {x y : F32} {a b : ℤ} (hx : IsVal x (a / 4)) (hy : IsVal y (b / 4)) (h : |a + b| ≤ 1000) :
    IsVal (x + y) ((a + b : ℤ) / 4) := by
  have e : x.val + y.val = ((a + b : ℤ) : ℚ) / 4 := by rw [hx.2, hy.2]; push_cast; ring
  obtain ⟨r1, r2⟩ := rep_quarter h
  have := add_exact hx.1 hy.1 (by rw [e]; exact r2) (by rw [e]; exact r1)
  rw [e] at this; exact this

theorem sub_quarter {x y : F32} {a b : ℤ} (hx : IsVal x (a / 4)) (hy : IsVal y (b / 4)) (h : |a - b| ≤ 1000) :
    IsVal (x - y) ((a - b : ℤ) / 4) := by
  have e : x.val - y.val = ((a - b : ℤ) : ℚ) / 4 := by rw [hx.2, hy.2]; push_cast; ring
  obtain ⟨r1, r2⟩ := rep_quarter h
  have := sub_exact hx.1 hy.1 (by rw [e]; exact r2) (by rw [e]; exact r1)
  rw [e] at this; exact this

theorem mul_half {x y : F32} {a b : ℤ} (hx : IsVal x (a / 2)) (hy : IsVal y (b / 2)) (ha : |a| ≤ 2) (hb : |b| ≤ 2) :
    IsVal (x * y) ((a * b : ℤ) / 4) ∧ |a * b| ≤ 4 := by
  have h : |a * b| ≤ 4 := by rw [abs_mul]; nlinarith [abs_nonneg a, abs_nonneg b]
  have e : x.val * y.val = ((a * b : ℤ) : ℚ) / 4 := by rw [hx.2, hy.2]; push_cast; ring
  obtain ⟨r1, r2⟩ := rep_quarter (n := a * b) (by omega)
  have := mul_exact hx.1 hy.1 (by rw [e]; exact r2) (by rw [e]; exact r1)
  rw [e] at this; exact ⟨this, h⟩

/-- **C158.** The product of two Hurwitz units is exactly their product in the algebra, and again a Hurwitz unit. -/
theorem C158_mul {q r : Quaternion} (hq : HurwitzUnit q) (hr : HurwitzUnit r) :
    HurwitzUnit (q.mul r) ∧ qval (q.mul r) = qval q * qval r := by
  obtain ⟨⟨a, b, c, d⟩, hp, q1, q2, q3, q4⟩ := hq
  obtain ⟨⟨a', b', c', d'⟩, hs, r1, r2, r3, r4⟩ := hr
  obtain ⟨l1, l2, l3, l4⟩ := hur_le _ hp
  obtain ⟨k1, k2, k3, k4⟩ := hur_le _ hs
  obtain ⟨t, ht, e1, e2, e3, e4⟩ := hur_mul _ hp _ hs
  dsimp only at *
  have A : IsVal (q.mul r).a ((a * a' - b * b' - c * c' - d * d' : ℤ) / 4) := by
    obtain ⟨p1, m1⟩ := mul_half q1 r1 l1 k1
    obtain ⟨p2, m2⟩ := mul_half q2 r2 l2 k2
    obtain ⟨p3, m3⟩ := mul_half q3 r3 l3 k3
    obtain ⟨p4, m4⟩ := mul_half q4 r4 l4 k4
    rw [abs_le] at m1 m2 m3 m4
    exact sub_quarter (sub_quarter (sub_quarter p1 p2 (by rw [abs_le]; omega)) p3 (by rw [abs_le]; omega)) p4 (by rw [abs_le]; omega)
  have B : IsVal (q.mul r).b ((a * b' + b * a' + c * d' - d * c' : ℤ) / 4) := by
    obtain ⟨p1, m1⟩ := mul_half q1 r2 l1 k2
    obtain ⟨p2, m2⟩ := mul_half q2 r1 l2 k1
    obtain ⟨p3, m3⟩ := mul_half q3 r4 l3 k4
    obtain ⟨p4, m4⟩ := mul_half q4 r3 l4 k3
    rw [abs_le] at m1 m2 m3 m4
    exact sub_quarter (add_quarter (add_quarter p1 p2 (by rw [abs_le]; omega)) p3 (by rw [abs_le]; omega)) p4 (by rw [abs_le]; omega)
  have C : IsVal (q.mul r).c ((a * c' - b * d' + c * a' + d * b' : ℤ) / 4) := by
    obtain ⟨p1, m1⟩ := mul_half q1 r3 l1 k3
    obtain ⟨p2, m2⟩ := mul_half q2 r4 l2 k4
    obtain ⟨p3, m3⟩ := mul_half q3 r1 l3 k1
    obtain ⟨p4, m4⟩ := mul_half q4 r2 l4 k2
    rw [abs_le] at m1 m2 m3 m4
    exact add_quarter (add_quarter (sub_quarter p1 p2 (by rw [abs_le]; omega)) p3 (by rw [abs_le]; omega)) p4 (by rw [abs_le]; omega)
  have D : IsVal (q.mul r).d ((a * d' + b * c' - c * b' + d * a' : ℤ) / 4) := by
    obtain ⟨p1, m1⟩ := mul_half q1 r4 l1 k4
    obtain ⟨p2, m2⟩ := mul_half q2 r3 l2 k3
    obtain ⟨p3, m3⟩ := mul_half q3 r2 l3 k2
    obtain ⟨p4, m4⟩ := mul_half q4 r1 l4 k1
    rw [abs_le] at m1 m2 m3 m4
    exact add_quarter (sub_quarter (add_quarter p1 p2 (by rw [abs_le]; omega)) p3 (by rw [abs_le]; omega)) p4 (by rw [abs_le]; omega)
  constructor
  · have h2 : ∀ z : ℤ, (((2 * z : ℤ) : ℚ) / 4) = z / 2 := by intro z; push_cast; ring
    rw [e1, h2] at A; rw [e2, h2] at B; rw [e3, h2] at C; rw [e4, h2] at D
    exact ⟨t, ht, A, B, C, D⟩
  · ext
    · rw [_root_.Quaternion.re_mul]; show (q.mul r).a.val = q.a.val * r.a.val - q.b.val * r.b.val - q.c.val * r.c.val - q.d.val * r.d.val
      rw [A.2, q1.2, q2.2, q3.2, q4.2, r1.2, r2.2, r3.2, r4.2]; push_cast; ring
    · rw [_root_.Quaternion.imI_mul]; show (q.mul r).b.val = q.a.val * r.b.val + q.b.val * r.a.val + q.c.val * r.d.val - q.d.val * r.c.val
      rw [B.2, q1.2, q2.2, q3.2, q4.2, r1.2, r2.2, r3.2, r4.2]; push_cast; ring
    · rw [_root_.Quaternion.imJ_mul]; show (q.mul r).c.val = q.a.val * r.c.val - q.b.val * r.d.val + q.c.val * r.a.val + q.d.val * r.b.val
      rw [C.2, q1.2, q2.2, q3.2, q4.2, r1.2, r2.2, r3.2, r4.2]; push_cast; ring
    · rw [_root_.Quaternion.imK_mul]; show (q.mul r).d.val = q.a.val * r.d.val + q.b.val * r.c.val - q.c.val * r.b.val + q.d.val * r.a.val
      rw [D.2, q1.2, q2.2, q3.2, q4.2, r1.2, r2.2, r3.2, r4.2]; push_cast; ring

/-- **C158.** So a product of any number of Hurwitz units is exact: no drift, however long the chain. -/
theorem C158_chain (l : List Quaternion) (h : ∀ q ∈ l, HurwitzUnit q) {q : Quaternion} (hq : HurwitzUnit q) :
    HurwitzUnit (l.foldl Quaternion.mul q) ∧ qval (l.foldl Quaternion.mul q) = qval q * (l.map qval).prod := by
  induction l generalizing q with
  | nil => exact ⟨hq, by simp⟩
  | cons r l ih =>
    obtain ⟨a, b⟩ := C158_mul hq (h r (by simp))
    obtain ⟨c, d⟩ := ih (fun q hq => h q (by simp [hq])) a
    exact ⟨c, by rw [List.foldl_cons, d, b, List.map_cons, List.prod_cons, mul_assoc]⟩

omit [Cfg] in
theorem hur_conj : ∀ p ∈ hur24, (p.1, -p.2.1, -p.2.2.1, -p.2.2.2) ∈ hur24 ∧
    p.1 * p.1 + p.2.1 * p.2.1 + p.2.2.1 * p.2.2.1 + p.2.2.2 * p.2.2.2 = 4 := by decide +kernel

/-- **C158.** The conjugate of a Hurwitz unit is exactly its inverse, on both sides. -/
theorem C158_conj {q : Quaternion} (hq : HurwitzUnit q) :
    HurwitzUnit q.conj ∧ qval (q.mul q.conj) = 1 ∧ qval (q.conj.mul q) = 1 := by
  have hc : HurwitzUnit q.conj ∧ qval q * qval q.conj = 1 ∧ qval q.conj * qval q = 1 := by
    obtain ⟨⟨a, b, c, d⟩, hp, q1, q2, q3, q4⟩ := hq
    obtain ⟨h1, h2⟩ := hur_conj _ hp
    dsimp only at *
    have hn : ∀ {x : F32} {z : ℤ}, IsVal x (z / 2) → IsVal (-x) ((-z : ℤ) / 2) := by
      intro x z h
      exact ⟨by simpa using h.1, by rw [val_neg, h.2]; push_cast; ring⟩
    have h2' : ((a : ℚ) * a + b * b + c * c + d * d) = 4 := by exact_mod_cast h2
    refine ⟨⟨_, h1, q1, hn q2, hn q3, hn q4⟩, ?_, ?_⟩
    all_goals
      ext
      · rw [_root_.Quaternion.re_mul]
        simp only [qval, Quaternion.conj, val_neg, q1.2, q2.2, q3.2, q4.2, _root_.Quaternion.re_one]; linarith
      · rw [_root_.Quaternion.imI_mul]
        simp only [qval, Quaternion.conj, val_neg, q1.2, q2.2, q3.2, q4.2, _root_.Quaternion.imI_one]; ring
      · rw [_root_.Quaternion.imJ_mul]
        simp only [qval, Quaternion.conj, val_neg, q1.2, q2.2, q3.2, q4.2, _root_.Quaternion.imJ_one]; ring
      · rw [_root_.Quaternion.imK_mul]
        simp only [qval, Quaternion.conj, val_neg, q1.2, q2.2, q3.2, q4.2, _root_.Quaternion.imK_one]; ring
  exact ⟨hc.1, by rw [(C158_mul hq hc.1).2, hc.2.1], by rw [(C158_mul hc.1 hq).2, hc.2.2]⟩

/-! ### Rotations -/

theorem two_quarter {x : F32} {a : ℤ} (hx : IsVal x (a / 4)) (h : |a| ≤ 100) : IsVal (lit 2 1 * x) ((2 * a : ℤ) / 4) := by
  have e : (lit 2 1).val * x.val = ((2 * a : ℤ) : ℚ) / 4 := by rw [val_lit_2_1, hx.2]; push_cast; ring
  obtain ⟨r1, r2⟩ := rep_quarter (n := 2 * a) (by rw [abs_mul, abs_of_pos (show (0 : ℤ) < 2 by norm_num)]; omega)
  have := mul_exact fin_lit_2_1 hx.1 (by rw [e]; exact r2) (by rw [e]; exact r1)
  rw [e] at this; exact this

/-- A row of four times a signed permutation matrix. -/
def UnitRow (m : ℤ × ℤ × ℤ) : Prop :=
  ((m.1 = 4 ∨ m.1 = -4) ∧ m.2.1 = 0 ∧ m.2.2 = 0) ∨ (m.1 = 0 ∧ (m.2.1 = 4 ∨ m.2.1 = -4) ∧ m.2.2 = 0) ∨
    (m.1 = 0 ∧ m.2.1 = 0 ∧ (m.2.2 = 4 ∨ m.2.2 = -4))

instance (m : ℤ × ℤ × ℤ) : Decidable (UnitRow m) := by unfold UnitRow; infer_instance

omit [Cfg] in
theorem hur_rows : ∀ p ∈ hur24,
    UnitRow (p.1 * p.1 + p.2.1 * p.2.1 - p.2.2.1 * p.2.2.1 - p.2.2.2 * p.2.2.2, 2 * (p.2.1 * p.2.2.1 - p.1 * p.2.2.2),
      2 * (p.2.1 * p.2.2.2 + p.1 * p.2.2.1)) ∧
    UnitRow (2 * (p.2.1 * p.2.2.1 + p.1 * p.2.2.2), p.1 * p.1 - p.2.1 * p.2.1 + p.2.2.1 * p.2.2.1 - p.2.2.2 * p.2.2.2,
      2 * (p.2.2.1 * p.2.2.2 - p.1 * p.2.1)) ∧
    UnitRow (2 * (p.2.1 * p.2.2.2 - p.1 * p.2.2.1), 2 * (p.2.2.1 * p.2.2.2 + p.1 * p.2.1),
      p.1 * p.1 - p.2.1 * p.2.1 - p.2.2.1 * p.2.2.1 + p.2.2.2 * p.2.2.2) := by decide +kernel

theorem unit_mul {e v : F32} {m : ℤ} (he : IsVal e (m / 4)) (hv : v.isFinite = true) (h : m = 0 ∨ m = 4 ∨ m = -4) :
    IsVal (e * v) (m / 4 * v.val) := by
  have hr : Rep ((m : ℚ) / 4 * v.val) ∧ |(m : ℚ) / 4 * v.val| < ovf := by
    have h1 := rep_val v
    have h2 := abs_val_lt_ovf hv
    rcases h with rfl | rfl | rfl
    · simp only [Int.cast_zero, zero_div, zero_mul, abs_zero]
      exact ⟨by simpa using rep_int (m := 0) (by norm_num), by norm_num [ovf]⟩
    · norm_num; exact ⟨h1, h2⟩
    · norm_num; exact ⟨by unfold Rep at *; rwa [abs_neg], h2⟩
  obtain ⟨f, v'⟩ := mul_val he.1 hv (by rw [he.2]; exact hr.2)
  exact ⟨f, by rw [v', he.2, RN_of_rep hr.1]⟩

theorem add_one_zero {x y : F32} {s t : ℚ} (hx : IsVal x s) (hy : IsVal y t) (h : s = 0 ∨ t = 0) : IsVal (x + y) (s + t) := by
  have hr : Rep (s + t) ∧ |s + t| < ovf := by
    rcases h with h | h
    · rw [h, zero_add, ← hy.2]; exact ⟨rep_val y, abs_val_lt_ovf hy.1⟩
    · rw [h, add_zero, ← hx.2]; exact ⟨rep_val x, abs_val_lt_ovf hx.1⟩
  obtain ⟨f, v⟩ := add_val hx.1 hy.1 (by rw [hx.2, hy.2]; exact hr.2)
  exact ⟨f, by rw [v, hx.2, hy.2, RN_of_rep hr.1]⟩

theorem unit_row {e f g x y z : F32} {m : ℤ × ℤ × ℤ} (he : IsVal e (m.1 / 4)) (hf : IsVal f (m.2.1 / 4)) (hg : IsVal g (m.2.2 / 4))
    (hx : x.isFinite = true) (hy : y.isFinite = true) (hz : z.isFinite = true) (h : UnitRow m) :
    IsVal (e * x + f * y + g * z) (m.1 / 4 * x.val + m.2.1 / 4 * y.val + m.2.2 / 4 * z.val) := by
  have h1 := unit_mul he hx (by unfold UnitRow at h; tauto)
  have h2 := unit_mul hf hy (by unfold UnitRow at h; tauto)
  have h3 := unit_mul hg hz (by unfold UnitRow at h; tauto)
  refine add_one_zero (add_one_zero h1 h2 ?_) h3 ?_
  · rcases h with ⟨-, h, -⟩ | ⟨h, -, -⟩ | ⟨h, -, -⟩ <;> simp [h]
  · rcases h with ⟨-, -, h⟩ | ⟨-, -, h⟩ | ⟨h, h', -⟩
    · right; simp [h]
    · right; simp [h]
    · left; simp [h, h']

/-- **C158.** Rotating by a Hurwitz unit is exact for every finite vector, of any size: each component of the result is
exactly that of `q v q*`. -/
theorem C158_rotate {C : Type} [IntoF32 C] {q : Quaternion} (hq : HurwitzUnit q) {v : Vector3d C}
    (fx : (IntoF32.into v.x : F32).isFinite = true) (fy : (IntoF32.into v.y : F32).isFinite = true)
    (fz : (IntoF32.into v.z : F32).isFinite = true) :
    let s := sand q (IntoF32.into v.x : F32).val (IntoF32.into v.y : F32).val (IntoF32.into v.z : F32).val
    IsVal (q.rotate v).x s.imI ∧ IsVal (q.rotate v).y s.imJ ∧ IsVal (q.rotate v).z s.imK := by
  obtain ⟨⟨a, b, c, d⟩, hp, q1, q2, q3, q4⟩ := hq
  obtain ⟨l1, l2, l3, l4⟩ := hur_le _ hp
  obtain ⟨R1, R2, R3⟩ := hur_rows _ hp
  obtain ⟨-, e1, e2, e3⟩ := sand_eq q (IntoF32.into v.x : F32).val (IntoF32.into v.y : F32).val (IntoF32.into v.z : F32).val
  dsimp only at *
  rw [e1, e2, e3, q1.2, q2.2, q3.2, q4.2]
  obtain ⟨aa, maa⟩ := mul_half q1 q1 l1 l1
  obtain ⟨bb, mbb⟩ := mul_half q2 q2 l2 l2
  obtain ⟨cc, mcc⟩ := mul_half q3 q3 l3 l3
  obtain ⟨dd, mdd⟩ := mul_half q4 q4 l4 l4
  obtain ⟨bc, mbc⟩ := mul_half q2 q3 l2 l3
  obtain ⟨bd, mbd⟩ := mul_half q2 q4 l2 l4
  obtain ⟨cd, mcd⟩ := mul_half q3 q4 l3 l4
  obtain ⟨ab, mab⟩ := mul_half q1 q2 l1 l2
  obtain ⟨ac, mac⟩ := mul_half q1 q3 l1 l3
  obtain ⟨ad, mad⟩ := mul_half q1 q4 l1 l4
  rw [abs_le] at maa mbb mcc mdd mbc mbd mcd mab mac mad
  refine ⟨?_, ?_, ?_⟩
  · have := unit_row (sub_quarter (sub_quarter (add_quarter aa bb (by rw [abs_le]; omega)) cc (by rw [abs_le]; omega)) dd (by rw [abs_le]; omega))
      (two_quarter (sub_quarter bc ad (by rw [abs_le]; omega)) (by rw [abs_le]; omega))
      (two_quarter (add_quarter bd ac (by rw [abs_le]; omega)) (by rw [abs_le]; omega)) fx fy fz R1
    refine (congrArg (IsVal _) ?_).mpr this
    push_cast; ring
  · have := unit_row (two_quarter (add_quarter bc ad (by rw [abs_le]; omega)) (by rw [abs_le]; omega))
      (sub_quarter (add_quarter (sub_quarter aa bb (by rw [abs_le]; omega)) cc (by rw [abs_le]; omega)) dd (by rw [abs_le]; omega))
      (two_quarter (sub_quarter cd ab (by rw [abs_le]; omega)) (by rw [abs_le]; omega)) fx fy fz R2
    refine (congrArg (IsVal _) ?_).mpr this
    push_cast; ring
  · have := unit_row (two_quarter (sub_quarter bd ac (by rw [abs_le]; omega)) (by rw [abs_le]; omega))
      (two_quarter (add_quarter cd ab (by rw [abs_le]; omega)) (by rw [abs_le]; omega))
      (add_quarter (sub_quarter (sub_quarter aa bb (by rw [abs_le]; omega)) cc (by rw [abs_le]; omega)) dd (by rw [abs_le]; omega)) fx fy fz R3
    refine (congrArg (IsVal _) ?_).mpr this
    push_cast; ring

/-- **C158.** Hence the rotations compose exactly and the conjugate undoes them exactly, for every finite vector. -/
theorem C158_compose {q r : Quaternion} (hq : HurwitzUnit q) (hr : HurwitzUnit r) {v : Vector3d F32}
    (fx : v.x.isFinite = true) (fy : v.y.isFinite = true) (fz : v.z.isFinite = true) :
    (((q.mul r).rotate v).x.val = (q.rotate (r.rotate v)).x.val ∧ ((q.mul r).rotate v).y.val = (q.rotate (r.rotate v)).y.val ∧
      ((q.mul r).rotate v).z.val = (q.rotate (r.rotate v)).z.val) ∧
    IsVal (q.conj.rotate (q.rotate v)).x v.x.val ∧ IsVal (q.conj.rotate (q.rotate v)).y v.y.val ∧
      IsVal (q.conj.rotate (q.rotate v)).z v.z.val := by
  have pure : ∀ (p : Quaternion) (x y z : ℚ), pureR (sand p x y z).imI (sand p x y z).imJ (sand p x y z).imK = sand p x y z := by
    intro p x y z
    ext <;> simp [pureR, (sand_eq p x y z).1]
  have two : ∀ {p t : Quaternion}, HurwitzUnit p → HurwitzUnit t →
      let s := qval p * qval t * pureR v.x.val v.y.val v.z.val * star (qval p * qval t)
      IsVal (p.rotate (t.rotate v)).x s.imI ∧ IsVal (p.rotate (t.rotate v)).y s.imJ ∧ IsVal (p.rotate (t.rotate v)).z s.imK := by
    intro p t hp ht
    obtain ⟨t1, t2, t3⟩ := C158_rotate ht (v := v) fx fy fz
    obtain ⟨p1, p2, p3⟩ := C158_rotate hp (v := t.rotate v) t1.1 t2.1 t3.1
    have e : sand p (t.rotate v).x.val (t.rotate v).y.val (t.rotate v).z.val =
        qval p * qval t * pureR v.x.val v.y.val v.z.val * star (qval p * qval t) := by
      rw [t1.2, t2.2, t3.2]
      show qval p * pureR (sand t _ _ _).imI _ _ * star (qval p) = _
      rw [pure, sand, star_mul]
      show qval p * (qval t * pureR v.x.val v.y.val v.z.val * star (qval t)) * star (qval p) = _
      simp only [mul_assoc]
    have p1' : IsVal (p.rotate (t.rotate v)).x (sand p (t.rotate v).x.val (t.rotate v).y.val (t.rotate v).z.val).imI := p1
    have p2' : IsVal (p.rotate (t.rotate v)).y (sand p (t.rotate v).x.val (t.rotate v).y.val (t.rotate v).z.val).imJ := p2
    have p3' : IsVal (p.rotate (t.rotate v)).z (sand p (t.rotate v).x.val (t.rotate v).y.val (t.rotate v).z.val).imK := p3
    rw [e] at p1' p2' p3'
    exact ⟨p1', p2', p3'⟩
  obtain ⟨a1, a2, a3⟩ := two hq hr
  obtain ⟨hm, em⟩ := C158_mul hq hr
  obtain ⟨b1, b2, b3⟩ := C158_rotate hm (v := v) fx fy fz
  have eb : sand (q.mul r) v.x.val v.y.val v.z.val = qval q * qval r * pureR v.x.val v.y.val v.z.val * star (qval q * qval r) := by
    rw [sand, em]
  obtain ⟨hc, -, ec⟩ := C158_conj hq
  obtain ⟨c1, c2, c3⟩ := two hc hq
  have ec' : qval q.conj * qval q = 1 := by rw [← (C158_mul hc hq).2]; exact ec
  rw [ec', star_one, one_mul, mul_one] at c1 c2 c3
  refine ⟨⟨?_, ?_, ?_⟩, c1, c2, c3⟩
  · rw [a1.2, ← eb]; exact b1.2
  · rw [a2.2, ← eb]; exact b2.2
  · rw [a3.2, ← eb]; exact b3.2

/-- **C158.** Case: `(1 + i + j + k)/2` moves the axes around, `(x, y, z)` to `(z, x, y)`, for every finite vector; `i` is
the half turn `(x, -y, -z)`. -/
theorem C158_case {v : Vector3d F32} (fx : v.x.isFinite = true) (fy : v.y.isFinite = true) (fz : v.z.isFinite = true) :
    let q : Quaternion := ⟨⟨0x3f000000#32⟩, ⟨0x3f000000#32⟩, ⟨0x3f000000#32⟩, ⟨0x3f000000#32⟩⟩
    let i : Quaternion := ⟨posZero, ⟨0x3f800000#32⟩, posZero, posZero⟩
    HurwitzUnit q ∧ HurwitzUnit i ∧
    (IsVal (q.rotate v).x v.z.val ∧ IsVal (q.rotate v).y v.x.val ∧ IsVal (q.rotate v).z v.y.val) ∧
    (IsVal (i.rotate v).x v.x.val ∧ IsVal (i.rotate v).y (-v.y.val) ∧ IsVal (i.rotate v).z (-v.z.val)) := by
  intro q i
  have h1 : IsVal (⟨0x3f000000#32⟩ : F32) (((1 : ℤ) : ℚ) / 2) :=
    ⟨by decide, by rw [val_of_units (u := 2 ^ 148) (by decide +kernel)]; norm_num⟩
  have h2 : IsVal (⟨0x3f800000#32⟩ : F32) (((2 : ℤ) : ℚ) / 2) :=
    ⟨by decide, by rw [val_of_units (u := 2 ^ 149) (by decide +kernel)]; norm_num⟩
  have h0 : IsVal posZero (((0 : ℤ) : ℚ) / 2) := ⟨by decide, by rw [val_of_units (u := 0) (by decide +kernel)]; norm_num⟩
  have hq : HurwitzUnit q := ⟨(1, 1, 1, 1), by decide, h1, h1, h1, h1⟩
  have hi : HurwitzUnit i := ⟨(0, 2, 0, 0), by decide, h0, h2, h0, h0⟩
  obtain ⟨a1, a2, a3⟩ := C158_rotate hq (v := v) fx fy fz
  obtain ⟨b1, b2, b3⟩ := C158_rotate hi (v := v) fx fy fz
  rw [(sand_eq _ _ _ _).2.1] at a1 b1
  rw [(sand_eq _ _ _ _).2.2.1] at a2 b2
  rw [(sand_eq _ _ _ _).2.2.2] at a3 b3
  simp only [q, i, h1.2, h2.2, h0.2] at a1 a2 a3 b1 b2 b3
  norm_num at a1 a2 a3 b1 b2 b3
  exact ⟨hq, hi, ⟨a1, a2, a3⟩, b1, b2, b3⟩

end Micromath.Props
