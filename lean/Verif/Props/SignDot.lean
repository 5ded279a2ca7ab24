import Verif.Props.VecErr

/-!
# C167: the sign of `dot`, `perpendicular_dot` and `cross`
-/

set_option exponentiation.threshold 1000

namespace Micromath.Props
open F32 Spec

variable [Cfg]

/-- A computed value `r` never contradicts the sign of the exact value `e`, and is zero if that is zero. -/
def SignOk (r : F32) (e : ℚ) : Prop :=
  r.isFinite = true ∧ (0 ≤ e → 0 ≤ r.val) ∧ (e ≤ 0 → r.val ≤ 0)

omit [Cfg] in
theorem SignOk.zero {r : F32} {e : ℚ} (h : SignOk r e) (he : e = 0) : r.val = 0 :=
  le_antisymm (h.2.2 he.le) (h.2.1 he.ge)

/-- Sums and differences of two rounded products. -/
theorem sign_two {x1 x2 y1 y2 : F32} (f1 : x1.isFinite = true) (f2 : x2.isFinite = true) (g1 : y1.isFinite = true)
    (g2 : y2.isFinite = true) (h : |x1.val * y1.val| + |x2.val * y2.val| ≤ 2 ^ 125) :
    SignOk (x1 * y1 + x2 * y2) (x1.val * y1.val + x2.val * y2.val) ∧
      SignOk (x1 * y1 - x2 * y2) (x1.val * y1.val - x2.val * y2.val) := by
  have b1 := abs_nonneg (x1.val * y1.val)
  have b2 := abs_nonneg (x2.val * y2.val)
  obtain ⟨p1, v1⟩ := mul_val f1 g1 (lt_of_le_of_lt (show |x1.val * y1.val| ≤ 2 ^ 125 by linarith) (by norm_num [ovf]))
  obtain ⟨p2, v2⟩ := mul_val f2 g2 (lt_of_le_of_lt (show |x2.val * y2.val| ≤ 2 ^ 125 by linarith) (by norm_num [ovf]))
  have r1 : |RN (x1.val * y1.val)| ≤ 2 ^ 126 := by
    have := abs_le.1 (Acc.mul f1 g1 (show |x1.val * y1.val| ≤ 2 ^ 125 by linarith)).err
    rw [v1] at this
    have a := abs_le.1 (le_refl |x1.val * y1.val|)
    generalize x1.val * y1.val = P at *
    generalize x2.val * y2.val = Q at *
    rw [abs_le]; constructor <;> norm_num at this h ⊢ <;> linarith
  have r2 : |RN (x2.val * y2.val)| ≤ 2 ^ 126 := by
    have := abs_le.1 (Acc.mul f2 g2 (show |x2.val * y2.val| ≤ 2 ^ 125 by linarith)).err
    rw [v2] at this
    have a := abs_le.1 (le_refl |x2.val * y2.val|)
    generalize x1.val * y1.val = P at *
    generalize x2.val * y2.val = Q at *
    rw [abs_le]; constructor <;> norm_num at this h ⊢ <;> linarith
  have s1 : |(x1 * y1).val + (x2 * y2).val| < ovf := by
    rw [v1, v2]
    exact lt_of_le_of_lt ((abs_add_le _ _).trans (add_le_add r1 r2)) (by norm_num [ovf])
  have s2 : |(x1 * y1).val - (x2 * y2).val| < ovf := by
    rw [v1, v2]
    exact lt_of_le_of_lt ((abs_sub _ _).trans (add_le_add r1 r2)) (by norm_num [ovf])
  obtain ⟨fa, va⟩ := add_val p1 p2 s1
  obtain ⟨fs, vs⟩ := sub_val p1 p2 s2
  rw [v1, v2] at va vs
  refine ⟨⟨fa, fun e => ?_, fun e => ?_⟩, ⟨fs, fun e => ?_, fun e => ?_⟩⟩
  · rw [va]; apply RN_nonneg
    have := RN_mono (show -(x2.val * y2.val) ≤ x1.val * y1.val by linarith)
    rw [RN_neg] at this; linarith
  · rw [va]; apply RN_nonpos
    have := RN_mono (show x1.val * y1.val ≤ -(x2.val * y2.val) by linarith)
    rw [RN_neg] at this; linarith
  · rw [vs]; apply RN_nonneg
    have := RN_mono (show x2.val * y2.val ≤ x1.val * y1.val by linarith)
    linarith
  · rw [vs]; apply RN_nonpos
    have := RN_mono (show x1.val * y1.val ≤ x2.val * y2.val by linarith)
    linarith

/-- **C167.** In the plane neither `dot` nor `perpendicular_dot` ever has the wrong sign, and both are zero for vectors that are
exactly perpendicular or parallel; underflow included. -/
theorem C167_plane (v w : Vector2d F32) (vx : v.x.isFinite = true) (vy : v.y.isFinite = true) (wx : w.x.isFinite = true)
    (wy : w.y.isFinite = true) :
    (|v.x.val * w.x.val| + |v.y.val * w.y.val| ≤ 2 ^ 125 → ∃ r, v.dot w = .ok r ∧ SignOk r (v.x.val * w.x.val + v.y.val * w.y.val)) ∧
    (|v.x.val * w.y.val| + |v.y.val * w.x.val| ≤ 2 ^ 125 →
      ∃ r, v.perpendicularDot w = .ok r ∧ SignOk r (v.x.val * w.y.val - v.y.val * w.x.val)) :=
  ⟨fun h => ⟨v.x * w.x + v.y * w.y, rfl, (sign_two vx vy wx wy h).1⟩,
    fun h => ⟨v.x * w.y - v.y * w.x, rfl, (sign_two vx vy wy wx h).2⟩⟩

/-- **C167.** No coordinate of `cross` ever has the wrong sign. -/
theorem C167_cross (v w : Vector3d F32) (vx : v.x.isFinite = true) (vy : v.y.isFinite = true) (vz : v.z.isFinite = true)
    (wx : w.x.isFinite = true) (wy : w.y.isFinite = true) (wz : w.z.isFinite = true)
    (h1 : (crossMag v w).1 ≤ 2 ^ 125) (h2 : (crossMag v w).2.1 ≤ 2 ^ 125) (h3 : (crossMag v w).2.2 ≤ 2 ^ 125) :
    ∃ c, v.cross w = .ok c ∧ SignOk c.x (v.y.val * w.z.val - v.z.val * w.y.val) ∧
      SignOk c.y (v.z.val * w.x.val - v.x.val * w.z.val) ∧ SignOk c.z (v.x.val * w.y.val - v.y.val * w.x.val) :=
  ⟨⟨v.y * w.z - v.z * w.y, v.z * w.x - v.x * w.z, v.x * w.y - v.y * w.x⟩, rfl, (sign_two vy vz wz wy h1).2,
    (sign_two vz vx wx wz h2).2, (sign_two vx vy wy wx h3).2⟩

/-- **C167.** `cross` of parallel vectors has the value zero, whatever the rounding of the products. -/
theorem C167_parallel (v w : Vector3d F32) (vx : v.x.isFinite = true) (vy : v.y.isFinite = true) (vz : v.z.isFinite = true)
    (wx : w.x.isFinite = true) (wy : w.y.isFinite = true) (wz : w.z.isFinite = true)
    (h1 : (crossMag v w).1 ≤ 2 ^ 125) (h2 : (crossMag v w).2.1 ≤ 2 ^ 125) (h3 : (crossMag v w).2.2 ≤ 2 ^ 125) {k : ℚ}
    (kx : w.x.val = k * v.x.val) (ky : w.y.val = k * v.y.val) (kz : w.z.val = k * v.z.val) :
    ∃ c, v.cross w = .ok c ∧ c.x.val = 0 ∧ c.y.val = 0 ∧ c.z.val = 0 := by
  obtain ⟨c, e, sx, sy, sz⟩ := C167_cross v w vx vy vz wx wy wz h1 h2 h3
  exact ⟨c, e, sx.zero (by rw [ky, kz]; ring), sy.zero (by rw [kx, kz]; ring), sz.zero (by rw [kx, ky]; ring)⟩

/-- **C167 is false for `dot` in space**: these vectors form an acute angle (`v·w > 1`), and `dot` returns `-4`. -/
theorem C167_dot3_false :
    let v : Vector3d F32 := ⟨⟨0x45800864#32⟩, ⟨0x45800864#32⟩, ⟨0xC60006EE#32⟩⟩
    let w : Vector3d F32 := ⟨⟨0x457FEF3C#32⟩, ⟨0x457FEF3A#32⟩, ⟨0x457FF226#32⟩⟩
    v.dot w = .ok ⟨0xC0800000#32⟩ ∧ (⟨0xC0800000#32⟩ : F32).val = -4 ∧
      1 < v.x.val * w.x.val + v.y.val * w.y.val + v.z.val * w.z.val := by
  intro v w
  refine ⟨?_, by rw [val_of_units (u := -4 * 2 ^ 149) (by decide +kernel)]; norm_num, ?_⟩
  · have h : (⟨0x45800864#32⟩ : F32) * ⟨0x457FEF3C#32⟩ + ⟨0x45800864#32⟩ * ⟨0x457FEF3A#32⟩ + ⟨0xC60006EE#32⟩ * ⟨0x457FF226#32⟩ =
      ⟨0xC0800000#32⟩ := eval_eq (n := 0xC0800000) (by kernel_rfl)
    rw [← h]; rfl
  · simp only [v, w]
    rw [val_of_units (x := ⟨0x45800864#32⟩) (u := 2097689 * 2 ^ 140) (by decide +kernel),
      val_of_units (x := ⟨0x457FEF3C#32⟩) (u := 4193231 * 2 ^ 139) (by decide +kernel),
      val_of_units (x := ⟨0x457FEF3A#32⟩) (u := 8386461 * 2 ^ 138) (by decide +kernel),
      val_of_units (x := ⟨0xC60006EE#32⟩) (u := -4195191 * 2 ^ 140) (by decide +kernel),
      val_of_units (x := ⟨0x457FF226#32⟩) (u := 8386835 * 2 ^ 138) (by decide +kernel)]
    norm_num

/-- C167 applies to `(2, 3)` and `(3, -2)`: they are perpendicular, and `dot` is zero. -/
example : ∃ r, (⟨⟨0x40000000#32⟩, ⟨0x40400000#32⟩⟩ : Vector2d F32).dot ⟨⟨0x40400000#32⟩, ⟨0xC0000000#32⟩⟩ = .ok r ∧ r.val = 0 := by
  have v2 : (⟨0x40000000#32⟩ : F32).val = 2 := by rw [val_of_units (u := 2 * 2 ^ 149) (by decide +kernel)]; norm_num
  have v3 : (⟨0x40400000#32⟩ : F32).val = 3 := by rw [val_of_units (u := 3 * 2 ^ 149) (by decide +kernel)]; norm_num
  have vm : (⟨0xC0000000#32⟩ : F32).val = -2 := by rw [val_of_units (u := -2 * 2 ^ 149) (by decide +kernel)]; norm_num
  obtain ⟨r, e, h⟩ := (C167_plane ⟨⟨0x40000000#32⟩, ⟨0x40400000#32⟩⟩ ⟨⟨0x40400000#32⟩, ⟨0xC0000000#32⟩⟩ (by decide +kernel)
    (by decide +kernel) (by decide +kernel) (by decide +kernel)).1 (by simp only [v2, v3, vm]; norm_num)
  exact ⟨r, e, h.zero (by simp only [v2, v3, vm]; norm_num)⟩

end Micromath.Props
