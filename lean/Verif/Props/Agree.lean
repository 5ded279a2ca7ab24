import Verif.Props.NormOrder
import Verif.Props.VecNorm
import Verif.Props.Sign
import Verif.Props.BitTricks

/-!
# C120: functions that compute the same quantity agree
-/

set_option exponentiation.threshold 1000

namespace Micromath.Props
open F32 Spec

variable [Cfg]

theorem add_zero_nonneg {x : F32} (hx : x.isNaN = true ∨ x.sign = false) : Eqv (x + posZero) x :=
  (add_comm_eqv x posZero).trans (zero_add_nonneg (Or.inl rfl) hx)

theorem sumZero_add {x : F32} (hx : x.isNaN = true ∨ x.sign = false) : Eqv (Cfg.sumZero + x) x :=
  zero_add_nonneg Cfg.sumZero_spec hx

theorem posZero_sq : posZero * posZero = posZero := eval_eq (n := 0) (by kernel_rfl)

/-- **C120.** `hypot(x, y)` is the magnitude of the vector `(x, y)`, which is the magnitude of `(x, y, 0)`, and the square root of
the dot product of the vector with itself: bit for bit, or both NaN. -/
theorem C120_hypot_magnitude (v : Vector2d F32) :
    Eqv (v.x.hypot v.y) (VectorTrait.magnitude v) ∧ Eqv (VectorTrait.magnitude (Vector3d.ofVector2d v)) (VectorTrait.magnitude v) ∧
    ∃ d, v.dot v = .ok d ∧ Eqv (VectorTrait.magnitude v) d.sqrt := by
  have e2 : VectorTrait.magnitude v = ((Cfg.sumZero + v.x * v.x) + v.y * v.y).sqrt := rfl
  have e3 : VectorTrait.magnitude (Vector3d.ofVector2d v) =
      (((Cfg.sumZero + v.x * v.x) + v.y * v.y) + posZero * posZero).sqrt := rfl
  have s : Eqv ((Cfg.sumZero + v.x * v.x) + v.y * v.y) (v.x * v.x + v.y * v.y) := (sumZero_add (sq_sign _)).add Eqv.rfl
  refine ⟨?_, ?_, v.x * v.x + v.y * v.y, rfl, ?_⟩
  · rw [e2]; exact (sqrt_congr s).symm
  · rw [e2, e3, posZero_sq]
    have h1 : (Cfg.sumZero + v.x * v.x).isNaN = true ∨ (Cfg.sumZero + v.x * v.x).sign = false := by
      rcases sq_sign v.x with h | h
      · exact Or.inl (add_nan (Or.inr h))
      · rcases sumZero_add (x := v.x * v.x) (Or.inr h) with h' | h'
        · exact Or.inl h'.1
        · rw [h']; exact Or.inr h
    exact sqrt_congr (add_zero_nonneg (add_nonneg_sign h1 (sq_sign _)))
  · rw [e2]; exact sqrt_congr s

/-- **C120.** The magnitude of `(x, y, z)` is that of the quaternion `xi + yj + zk`, and the square root of the dot product of the
vector with itself. -/
theorem C120_magnitude_quaternion (v : Vector3d F32) :
    Eqv (Quaternion.magnitude ⟨posZero, v.x, v.y, v.z⟩) (VectorTrait.magnitude v) ∧
    ∃ d, v.dot v = .ok d ∧ Eqv (VectorTrait.magnitude v) d.sqrt := by
  have e3 : VectorTrait.magnitude v = (((Cfg.sumZero + v.x * v.x) + v.y * v.y) + v.z * v.z).sqrt := rfl
  have eq : Quaternion.magnitude ⟨posZero, v.x, v.y, v.z⟩ = (((posZero * posZero + v.x * v.x) + v.y * v.y) + v.z * v.z).sqrt := rfl
  have s : Eqv (((Cfg.sumZero + v.x * v.x) + v.y * v.y) + v.z * v.z) (v.x * v.x + v.y * v.y + v.z * v.z) :=
    ((sumZero_add (sq_sign _)).add Eqv.rfl).add Eqv.rfl
  refine ⟨?_, _, rfl, ?_⟩
  · rw [e3, eq, posZero_sq]
    refine (sqrt_congr ?_).trans (sqrt_congr s.symm)
    exact ((zero_add_nonneg (Or.inl rfl) (sq_sign _)).add Eqv.rfl).add Eqv.rfl
  · rw [e3]; exact sqrt_congr s

/-- **C120.** `distance` of float vectors is the magnitude of their difference. -/
theorem C120_distance (v w : Vector2d F32) (v' w' : Vector3d F32) :
    (∃ d, v.sub w = .ok d ∧ VectorTrait.distance v w = VectorTrait.magnitude d) ∧
    (∃ d, v'.sub w' = .ok d ∧ VectorTrait.distance v' w' = VectorTrait.magnitude d) :=
  ⟨⟨_, rfl, rfl⟩, ⟨_, rfl, rfl⟩⟩

/-- **C120.** `magnitude` and `distance` of vectors of any component type are those of the vector of converted components; in
particular they never panic, also where the subtraction of the vectors does. -/
theorem C120_convert {C : Type} [Component C] [IntoF32 C] (v w : Vector2d C) (v' w' : Vector3d C) :
    VectorTrait.magnitude v = VectorTrait.magnitude (⟨IntoF32.into v.x, IntoF32.into v.y⟩ : Vector2d F32) ∧
    VectorTrait.distance v w = VectorTrait.distance (⟨IntoF32.into v.x, IntoF32.into v.y⟩ : Vector2d F32)
      ⟨IntoF32.into w.x, IntoF32.into w.y⟩ ∧
    VectorTrait.magnitude v' = VectorTrait.magnitude (⟨IntoF32.into v'.x, IntoF32.into v'.y, IntoF32.into v'.z⟩ : Vector3d F32) ∧
    VectorTrait.distance v' w' = VectorTrait.distance (⟨IntoF32.into v'.x, IntoF32.into v'.y, IntoF32.into v'.z⟩ : Vector3d F32)
      ⟨IntoF32.into w'.x, IntoF32.into w'.y, IntoF32.into w'.z⟩ := ⟨rfl, rfl, rfl, rfl⟩

/-- **C120.** `abs`, `copysign`, `signum` and negation fit together, bit for bit: `abs(x)` is `x` with the sign of one, the sign of `x`
put on `abs(x)` gives back `x`, the opposite sign gives `-x`, and `signum(x) * abs(x)` is `x` if `x` is not NaN. -/
theorem C120_sign (x : F32) :
    x.copysign ONE = x.abs ∧ x.abs.copysign x = x ∧ x.copysign (-x) = -x ∧ (x.isNaN = false → x.signum * x.abs = x) := by
  refine ⟨ext_mag_sign (by simp) (by simp; decide), ext_mag_sign (by simp) (by simp), ext_mag_sign (by rw [mag_copysign, mag_neg]) (by rw [sign_copysign]), fun h => ?_⟩
  have hm : x.signum = pack x.sign 0x3f800000 := by
    rw [signum, h, if_neg (by simp), copysign_eq]
    congr 1
  have ha : (x.abs).isNaN = false := by simpa using h
  have e := mul_comm_eqv x.signum x.abs
  cases hs : x.sign
  · have h1 : x.signum = ONE := by rw [hm, hs]; decide
    rw [h1] at e ⊢
    have e1 : x.abs * ONE = x.abs := mul_one_nn ha
    rw [e1] at e
    rw [e.symm.eq ha |>.symm]
    exact ext_mag_sign (by simp) (by simp [hs])
  · have h1 : x.signum = -ONE := by rw [hm, hs]; decide
    rw [h1] at e ⊢
    have e2 : Eqv (-ONE * x.abs) (-x.abs) :=
      (neg_mul_eqv ONE x.abs).trans (Eqv.neg ((mul_comm_eqv ONE x.abs).trans (Eqv.of_eq (mul_one_nn ha))))
    rw [e2.symm.eq (by simpa using ha) |>.symm]
    exact ext_mag_sign (by rw [mag_neg, mag_abs]) (by rw [F32.sign_neg, sign_abs, hs]; rfl)

/-- For `u8` with overflow checks, `(1, 0) - (2, 0)` panics; the distance is finite. -/
example (h : Cfg.overflowChecks = true) : Fails (Vector2d.sub ⟨⟨1#8⟩, ⟨0#8⟩⟩ (⟨⟨2#8⟩, ⟨0#8⟩⟩ : Vector2d U8)) ∧
    (VectorTrait.distance (⟨⟨1#8⟩, ⟨0#8⟩⟩ : Vector2d U8) ⟨⟨2#8⟩, ⟨0#8⟩⟩).isFinite = true := by
  constructor
  · have e : (MInt.chk (-1) : Res U8) = .error .overflow := by
      have hr : ¬ MInt.InRange false 8 (-1) := by decide
      rw [MInt.chk, if_neg hr, if_pos h]
    refine ⟨.overflow, ?_⟩
    show (do let x ← (MInt.chk (-1) : Res U8); let y ← (MInt.chk 0 : Res U8); Except.ok (⟨x, y⟩ : Vector2d U8)) = _
    rw [e]; rfl
  · have := (C103_magnitude_range (C := F32) (⟨ofInt 1 - ofInt 2, ofInt 0 - ofInt 0⟩ : Vector2d F32) ⟨ONE, ONE, ONE⟩)
    refine (this.2.2.1 ?_).1
    rw [Bool.eq_false_iff, Ne, this.1]
    rintro ⟨x, hx, hn⟩
    have e1 : (ofInt 1 - ofInt 2 : F32) = ⟨0xbf800000#32⟩ := eval_eq (n := 0xbf800000) (by kernel_rfl)
    have e2 : (ofInt 0 - ofInt 0 : F32) = ⟨0#32⟩ := eval_eq (n := 0) (by kernel_rfl)
    have : floats2 (⟨ofInt 1 - ofInt 2, ofInt 0 - ofInt 0⟩ : Vector2d F32) = [⟨0xbf800000#32⟩, ⟨0#32⟩] := by
      rw [e1, e2]; rfl
    rw [this] at hx
    rcases List.mem_cons.1 hx with hx | hx
    · rw [hx] at hn; exact absurd hn (by decide)
    · rw [List.mem_singleton.1 hx] at hn; exact absurd hn (by decide)

end Micromath.Props
