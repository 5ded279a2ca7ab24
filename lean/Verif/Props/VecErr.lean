import Verif.Props.Quat
import Verif.Props.Vectors

/-!
# C107: forward errors of `dot`, `cross`, `perpendicular_dot` and `mul_add` on floats
-/

set_option exponentiation.threshold 1000

namespace Micromath.Props
open F32 Spec

variable [Cfg]

/-- Error of a two-term signed inner product. -/
theorem two_err {x1 x2 y1 y2 : F32} (f1 : x1.isFinite = true) (f2 : x2.isFinite = true) (g1 : y1.isFinite = true)
    (g2 : y2.isFinite = true) (h : |x1.val * y1.val| + |x2.val * y2.val| ≤ 2 ^ 125) :
    ((x1 * y1 + x2 * y2).isFinite = true ∧ |(x1 * y1 + x2 * y2).val - (x1.val * y1.val + x2.val * y2.val)| ≤
      3 / 2 ^ 24 * (|x1.val * y1.val| + |x2.val * y2.val|) + 1 / 2 ^ 148) ∧
    ((x1 * y1 - x2 * y2).isFinite = true ∧ |(x1 * y1 - x2 * y2).val - (x1.val * y1.val - x2.val * y2.val)| ≤
      3 / 2 ^ 24 * (|x1.val * y1.val| + |x2.val * y2.val|) + 1 / 2 ^ 148) := by
  have b1 := abs_nonneg (x1.val * y1.val)
  have b2 := abs_nonneg (x2.val * y2.val)
  have a1 := Acc.mul f1 g1 (by linarith)
  have a2 := Acc.mul f2 g2 (by linarith)
  have s := Acc.step a1 a2 (by linarith)
  exact ⟨⟨s.1.fin, s.1.err.trans (by linarith)⟩, ⟨s.2.fin, s.2.err.trans (by linarith)⟩⟩

/-- **C107, 2D `dot` and `perpendicular_dot`**: within `3 * 2^-24` times the sum of the magnitudes of the two products of the
exact value, plus `2^-148` for underflow. -/
theorem C107_dot2 (v w : Vector2d F32) (vx : v.x.isFinite = true) (vy : v.y.isFinite = true) (wx : w.x.isFinite = true)
    (wy : w.y.isFinite = true) :
    (|v.x.val * w.x.val| + |v.y.val * w.y.val| ≤ 2 ^ 125 → ∃ r, v.dot w = .ok r ∧ r.isFinite = true ∧
      |r.val - (v.x.val * w.x.val + v.y.val * w.y.val)| ≤
        3 / 2 ^ 24 * (|v.x.val * w.x.val| + |v.y.val * w.y.val|) + 1 / 2 ^ 148) ∧
    (|v.x.val * w.y.val| + |v.y.val * w.x.val| ≤ 2 ^ 125 → ∃ r, v.perpendicularDot w = .ok r ∧ r.isFinite = true ∧
      |r.val - (v.x.val * w.y.val - v.y.val * w.x.val)| ≤
        3 / 2 ^ 24 * (|v.x.val * w.y.val| + |v.y.val * w.x.val|) + 1 / 2 ^ 148) :=
  ⟨fun h => ⟨v.x * w.x + v.y * w.y, rfl, (two_err vx vy wx wy h).1⟩,
    fun h => ⟨v.x * w.y - v.y * w.x, rfl, (two_err vx vy wy wx h).2⟩⟩

/-- **C107, 3D `dot`.** -/
theorem C107_dot3 (v w : Vector3d F32) (vx : v.x.isFinite = true) (vy : v.y.isFinite = true) (vz : v.z.isFinite = true)
    (wx : w.x.isFinite = true) (wy : w.y.isFinite = true) (wz : w.z.isFinite = true)
    (h : |v.x.val * w.x.val| + |v.y.val * w.y.val| + |v.z.val * w.z.val| ≤ 2 ^ 125) :
    ∃ r, v.dot w = .ok r ∧ r.isFinite = true ∧
      |r.val - (v.x.val * w.x.val + v.y.val * w.y.val + v.z.val * w.z.val)| ≤
        4 / 2 ^ 24 * (|v.x.val * w.x.val| + |v.y.val * w.y.val| + |v.z.val * w.z.val|) + 1 / 2 ^ 147 := by
  refine ⟨v.x * w.x + v.y * w.y + v.z * w.z, rfl, ?_⟩
  have b1 := abs_nonneg (v.x.val * w.x.val)
  have b2 := abs_nonneg (v.y.val * w.y.val)
  have b3 := abs_nonneg (v.z.val * w.z.val)
  have a1 := Acc.mul vx wx (by linarith)
  have a2 := Acc.mul vy wy (by linarith)
  have a3 := Acc.mul vz wz (by linarith)
  have s := (Acc.step (Acc.step a1 a2 (by linarith)).1 a3 (by linarith)).1
  exact ⟨s.fin, s.err.trans (by linarith)⟩

/-- Sums of the magnitudes of the two products in each component of a cross product. -/
def crossMag (v w : Vector3d F32) : ℚ × ℚ × ℚ :=
  (|v.y.val * w.z.val| + |v.z.val * w.y.val|, |v.z.val * w.x.val| + |v.x.val * w.z.val|, |v.x.val * w.y.val| + |v.y.val * w.x.val|)

/-- **C107, `cross`**: each component is within `3 * 2^-24` times the sum of the magnitudes of its two products of the
exact component, plus `2^-148`. -/
theorem C107_cross (v w : Vector3d F32) (vx : v.x.isFinite = true) (vy : v.y.isFinite = true) (vz : v.z.isFinite = true)
    (wx : w.x.isFinite = true) (wy : w.y.isFinite = true) (wz : w.z.isFinite = true)
    (h1 : (crossMag v w).1 ≤ 2 ^ 125) (h2 : (crossMag v w).2.1 ≤ 2 ^ 125) (h3 : (crossMag v w).2.2 ≤ 2 ^ 125) :
    ∃ c, v.cross w = .ok c ∧ c.x.isFinite = true ∧ c.y.isFinite = true ∧ c.z.isFinite = true ∧
      |c.x.val - (v.y.val * w.z.val - v.z.val * w.y.val)| ≤ 3 / 2 ^ 24 * (crossMag v w).1 + 1 / 2 ^ 148 ∧
      |c.y.val - (v.z.val * w.x.val - v.x.val * w.z.val)| ≤ 3 / 2 ^ 24 * (crossMag v w).2.1 + 1 / 2 ^ 148 ∧
      |c.z.val - (v.x.val * w.y.val - v.y.val * w.x.val)| ≤ 3 / 2 ^ 24 * (crossMag v w).2.2 + 1 / 2 ^ 148 := by
  obtain ⟨fx, ex⟩ := (two_err vy vz wz wy h1).2
  obtain ⟨fy, ey⟩ := (two_err vz vx wx wz h2).2
  obtain ⟨fz, ez⟩ := (two_err vx vy wy wx h3).2
  exact ⟨⟨v.y * w.z - v.z * w.y, v.z * w.x - v.x * w.z, v.x * w.y - v.y * w.x⟩, rfl, fx, fy, fz, ex, ey, ez⟩

/-- **C107, the cross product is nearly orthogonal to its operands**: for components at most `M <= 2^62` in magnitude, the
exact inner products of `cross(v, w)` with `v` and with `w` are at most `18 * 2^-24 * M^3 + 3 * 2^-148 * M`. -/
theorem C107_cross_orthogonal (v w : Vector3d F32) (vx : v.x.isFinite = true) (vy : v.y.isFinite = true) (vz : v.z.isFinite = true)
    (wx : w.x.isFinite = true) (wy : w.y.isFinite = true) (wz : w.z.isFinite = true) {M : ℚ} (hM : M ≤ 2 ^ 62)
    (b1 : |v.x.val| ≤ M) (b2 : |v.y.val| ≤ M) (b3 : |v.z.val| ≤ M) (b4 : |w.x.val| ≤ M) (b5 : |w.y.val| ≤ M) (b6 : |w.z.val| ≤ M) :
    ∃ c, v.cross w = .ok c ∧
      |c.x.val * v.x.val + c.y.val * v.y.val + c.z.val * v.z.val| ≤ 18 / 2 ^ 24 * M ^ 3 + 3 / 2 ^ 148 * M ∧
      |c.x.val * w.x.val + c.y.val * w.y.val + c.z.val * w.z.val| ≤ 18 / 2 ^ 24 * M ^ 3 + 3 / 2 ^ 148 * M := by
  have M0 : 0 ≤ M := (abs_nonneg _).trans b1
  have pr : ∀ {a b : ℚ}, |a| ≤ M → |b| ≤ M → |a * b| ≤ M ^ 2 := by
    intro a b ha hb
    rw [abs_mul, sq]; exact mul_le_mul ha hb (abs_nonneg _) M0
  have hM2 : M ^ 2 ≤ 2 ^ 124 := (pow_le_pow_left₀ M0 hM 2).trans (by norm_num)
  have m1 : (crossMag v w).1 ≤ 2 * M ^ 2 := (add_le_add (pr b2 b6) (pr b3 b5)).trans (by linarith)
  have m2 : (crossMag v w).2.1 ≤ 2 * M ^ 2 := (add_le_add (pr b3 b4) (pr b1 b6)).trans (by linarith)
  have m3 : (crossMag v w).2.2 ≤ 2 * M ^ 2 := (add_le_add (pr b1 b5) (pr b2 b4)).trans (by linarith)
  obtain ⟨c, hc, -, -, -, ex, ey, ez⟩ := C107_cross v w vx vy vz wx wy wz (by linarith) (by linarith) (by linarith)
  refine ⟨c, hc, ?_⟩
  have E : ∀ {d m : ℚ}, |d| ≤ 3 / 2 ^ 24 * m + 1 / 2 ^ 148 → m ≤ 2 * M ^ 2 → |d| ≤ 6 / 2 ^ 24 * M ^ 2 + 1 / 2 ^ 148 := by
    intro d m h1 h2; refine h1.trans ?_; linarith
  have tri : ∀ {d1 d2 d3 a b e : ℚ}, |d1| ≤ 6 / 2 ^ 24 * M ^ 2 + 1 / 2 ^ 148 → |d2| ≤ 6 / 2 ^ 24 * M ^ 2 + 1 / 2 ^ 148 →
      |d3| ≤ 6 / 2 ^ 24 * M ^ 2 + 1 / 2 ^ 148 → |a| ≤ M → |b| ≤ M → |e| ≤ M →
      |d1 * a + d2 * b + d3 * e| ≤ 18 / 2 ^ 24 * M ^ 3 + 3 / 2 ^ 148 * M := by
    intro d1 d2 d3 a b e h1 h2 h3 ha hb he
    have t : ∀ {d a : ℚ}, |d| ≤ 6 / 2 ^ 24 * M ^ 2 + 1 / 2 ^ 148 → |a| ≤ M → |d * a| ≤ (6 / 2 ^ 24 * M ^ 2 + 1 / 2 ^ 148) * M := by
      intro d a h h'
      rw [abs_mul]; exact mul_le_mul h h' (abs_nonneg _) ((abs_nonneg _).trans h)
    refine (abs_add_le _ _).trans ((add_le_add ((abs_add_le _ _).trans (add_le_add (t h1 ha) (t h2 hb))) (t h3 he)).trans (le_of_eq ?_))
    ring
  have ex' := E ex m1
  have ey' := E ey m2
  have ez' := E ez m3
  constructor
  · refine le_trans (le_of_eq ?_) (tri ex' ey' ez' b1 b2 b3)
    congr 1; ring
  · refine le_trans (le_of_eq ?_) (tri ex' ey' ez' b4 b5 b6)
    congr 1; ring

/-- All hypotheses met: `(1, 2, 28)` and `(28, 1, 2)` with `M = 28`. -/
example : ∃ c, (⟨one, lit 2 1, lit 28 1⟩ : Vector3d F32).cross ⟨lit 28 1, one, lit 2 1⟩ = .ok c ∧
    |c.x.val * one.val + c.y.val * (lit 2 1).val + c.z.val * (lit 28 1).val| ≤ 18 / 2 ^ 24 * 28 ^ 3 + 3 / 2 ^ 148 * 28 := by
  have h1 : |one.val| ≤ 28 := by rw [val_one]; norm_num
  have h2 : |(lit 2 1).val| ≤ 28 := by rw [val_lit_2_1]; norm_num
  have h3 : |(lit 28 1).val| ≤ 28 := by rw [val_lit_28_1]; norm_num
  obtain ⟨c, hc, h, -⟩ := C107_cross_orthogonal ⟨one, lit 2 1, lit 28 1⟩ ⟨lit 28 1, one, lit 2 1⟩
    (by decide +kernel) (by decide +kernel) (by decide +kernel) (by decide +kernel) (by decide +kernel) (by decide +kernel)
    (M := 28) (by norm_num) h1 h2 h3 h3 h1 h2
  exact ⟨c, hc, h⟩

/-- **C107, `mul_add`**: error of the product-sum, rounded twice. -/
theorem C107_mul_add (x a b : F32) (fx : x.isFinite = true) (fa : a.isFinite = true) (fb : b.isFinite = true)
    (h : |x.val * a.val| + |b.val| ≤ 2 ^ 125) :
    (x.mulAdd a b).isFinite = true ∧
      |(x.mulAdd a b).val - (x.val * a.val + b.val)| ≤ 3 / 2 ^ 24 * |x.val * a.val| + 1 / 2 ^ 24 * |b.val| + 1 / 2 ^ 149 := by
  have b1 := abs_nonneg (x.val * a.val)
  have b2 := abs_nonneg b.val
  have a1 := Acc.mul fx fa (by linarith)
  have a2 : Acc b b.val |b.val| 0 := ⟨fb, by rw [sub_self, abs_zero], le_rfl⟩
  have s := (Acc.step a1 a2 (by linarith)).1
  exact ⟨s.fin, s.err.trans (by linarith)⟩

example : (lit 28 1).isFinite = true ∧ |(lit 28 1).val * (lit 2 1).val| + |one.val| ≤ 2 ^ 125 := by
  refine ⟨fin_lit_28_1, ?_⟩
  rw [val_lit_28_1, val_lit_2_1, val_one]; norm_num

end Micromath.Props
