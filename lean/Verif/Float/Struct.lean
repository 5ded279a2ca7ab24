import Verif.Float.Err

/-!
# Structural facts: when results are finite, commutativity, sign symmetry
-/

namespace Micromath.F32

theorem finite_cases (x : F32) : x.isFinite = true ∨ x.isFinite = false := by cases x.isFinite <;> simp

theorem pack_inf_not_finite (s : Bool) : (pack s infMag).isFinite = false := by
  rw [isFinite, mag_pack _ infMag_lt]; simp

theorem isInf_pack (s : Bool) : (pack s infMag).isInf = true := by
  rw [isInf, mag_pack _ infMag_lt]; simp

theorem not_finite_of_inf {x : F32} (h : x.isInf = true) : x.isFinite = false := by
  simp [isInf] at h; simp [isFinite, h]

theorem eq_pack_of_inf {x : F32} (h : x.isInf = true) : x = pack x.sign infMag := by
  rw [← pack_sign_mag x, sign_pack _ (mag_lt x)]
  congr 1
  simpa [isInf] using h

variable [Cfg]

theorem addAs_finite_inv (o : FOp) {x y : F32} (h : (addAs o x y).isFinite = true) :
    x.isFinite = true ∧ y.isFinite = true := by
  by_cases hn : x.isNaN || y.isNaN
  · rw [addAs, if_pos hn] at h
    rw [not_finite_of_nan (Cfg.nanOp_isNaN _ _ _)] at h
    simp at h
  · have hn' : x.isNaN = false ∧ y.isNaN = false := by simpa using hn
    by_cases hi : x.isInf
    · rw [addAs, if_neg hn, if_pos hi] at h
      split at h
      · rw [not_finite_of_nan (Cfg.nanOp_isNaN _ _ _)] at h; simp at h
      · rw [not_finite_of_inf hi] at h; simp at h
    · by_cases hj : y.isInf
      · rw [addAs, if_neg hn, if_neg hi, if_pos hj, not_finite_of_inf hj] at h; simp at h
      · exact ⟨finite_of hn'.1 (by simpa using hi), finite_of hn'.2 (by simpa using hj)⟩

theorem add_finite_inv {x y : F32} (h : (x + y).isFinite = true) :
    x.isFinite = true ∧ y.isFinite = true ∧ |x.val + y.val| < ovf := by
  obtain ⟨h1, h2⟩ := addAs_finite_inv _ h
  refine ⟨h1, h2, ?_⟩
  by_contra hc
  rw [add_def, addAs_ovf _ h1 h2 (not_lt.1 hc), pack_inf_not_finite] at h
  simp at h

theorem sub_finite_inv {x y : F32} (h : (x - y).isFinite = true) :
    x.isFinite = true ∧ y.isFinite = true ∧ |x.val - y.val| < ovf := by
  obtain ⟨h1, h2⟩ := addAs_finite_inv .sub (x := x) (y := -y) h
  refine ⟨h1, by simpa using h2, ?_⟩
  by_contra hc
  rw [sub_def, addAs_ovf _ h1 h2 (by rw [val_neg, ← sub_eq_add_neg]; exact not_lt.1 hc), pack_inf_not_finite] at h
  simp at h

theorem mul_finite_inv {x y : F32} (h : (x * y).isFinite = true) :
    x.isFinite = true ∧ y.isFinite = true ∧ |x.val * y.val| < ovf := by
  have hn : ¬ (x.isNaN || y.isNaN) = true := by
    intro hn
    rw [not_finite_of_nan (mul_nan (by simpa using hn))] at h; simp at h
  have hi : ¬ (x.isInf || y.isInf) = true := by
    intro hi
    rw [mul_def, mul, if_neg hn, if_pos hi] at h
    split at h
    · rw [not_finite_of_nan (Cfg.nanOp_isNaN _ _ _)] at h; simp at h
    · rw [pack_inf_not_finite] at h; simp at h
  have hn' : x.isNaN = false ∧ y.isNaN = false := by simpa using hn
  have hi' : x.isInf = false ∧ y.isInf = false := by simpa using hi
  have h1 := finite_of hn'.1 hi'.1
  have h2 := finite_of hn'.2 hi'.2
  refine ⟨h1, h2, ?_⟩
  by_contra hc
  rw [mul_ovf h1 h2 (not_lt.1 hc), pack_inf_not_finite] at h
  simp at h

theorem add_comm_nonneg {x y : F32} (hx : x.isNaN = false) (hy : y.isNaN = false) (sx : x.sign = false)
    (sy : y.sign = false) : x + y = y + x := by
  rw [add_def, add_def]
  simp only [addAs, hx, hy, sx, sy, add_comm y.units]
  by_cases h1 : x.isInf = true <;> by_cases h2 : y.isInf = true
  · rw [eq_pack_of_inf h1, eq_pack_of_inf h2, sx, sy]
  · simp [h1, h2]
  · simp [h1, h2]
  · simp [h1, h2]

theorem add_comm_fin {x y : F32} (hx : x.isFinite = true) (hy : y.isFinite = true) : x + y = y + x := by
  rw [add_def, add_def, addAs_finite _ hx hy, addAs_finite _ hy hx, add_comm y.val, Bool.and_comm]

theorem mul_comm_nonNaN {x y : F32} (hx : x.isNaN = false) (hy : y.isNaN = false) (hxy : (x * y).isNaN = false) :
    x * y = y * x := by
  have e : (x.sign != y.sign) = (y.sign != x.sign) := by cases x.sign <;> cases y.sign <;> rfl
  have hn : ¬ (x.isNaN || y.isNaN) = true := by simp [hx, hy]
  have hn' : ¬ (y.isNaN || x.isNaN) = true := by simp [hx, hy]
  rw [mul_def, mul_def, mul, mul, if_neg hn, if_neg hn', Bool.or_comm y.isInf, Bool.or_comm y.isZero, e,
    Nat.mul_comm (magU y.mag)]
  by_cases hi : (x.isInf || y.isInf) = true
  · rw [if_pos hi, if_pos hi]
    by_cases hz : (x.isZero || y.isZero) = true
    · exfalso
      rw [mul_def, mul, if_neg hn, if_pos hi, if_pos hz, Cfg.nanOp_isNaN] at hxy
      simp at hxy
    · rw [if_neg hz, if_neg hz]
  · rw [if_neg hi, if_neg hi]

theorem mul_comm_fin {x y : F32} (hx : x.isFinite = true) (hy : y.isFinite = true) : x * y = y * x := by
  rw [mul_finite hx hy, mul_finite hy hx, mul_comm y.val]
  congr 1
  cases x.sign <;> cases y.sign <;> rfl

/-- A square is never negative and is NaN only for NaN. -/
theorem sq_facts {x : F32} (h : x.isNaN = false) : (x * x).isNaN = false ∧ (x * x).sign = false := by
  rcases class_cases x with hf | hi | hn
  · rw [mul_finite hf hf]
    have hm : min (rbits (x.val * x.val)) infMag < 2 ^ 31 := lt_of_le_of_lt (min_le_right _ _) infMag_lt
    rw [isNaN, mag_pack _ hm, sign_pack _ hm]
    simp
  · have hz : x.isZero = false := by
      simp [isInf] at hi; simp [isZero, hi]; decide
    have e : x * x = pack false infMag := by
      rw [mul_def, mul]; simp [h, hi, hz]
    rw [e, isNaN, mag_pack _ infMag_lt, sign_pack _ infMag_lt]; simp
  · rw [h] at hn; simp at hn

theorem mul_neg_fin {x y : F32} (hx : x.isFinite = true) (hy : y.isFinite = true) : x * -y = -(x * y) := by
  have hy' : (-y).isFinite = true := by simpa using hy
  rw [mul_finite hx hy, mul_finite hx hy', val_neg, mul_neg, rbits_neg, sign_neg]
  have hm : min (rbits (x.val * y.val)) infMag < 2 ^ 31 := lt_of_le_of_lt (min_le_right _ _) infMag_lt
  apply ext_mag_sign
  · rw [mag_neg, mag_pack _ hm, mag_pack _ hm]
  · rw [sign_neg, sign_pack _ hm, sign_pack _ hm]
    cases x.sign <;> cases y.sign <;> rfl

theorem neg_mul_fin {x y : F32} (hx : x.isFinite = true) (hy : y.isFinite = true) : -x * y = -(x * y) := by
  rw [mul_comm_fin (by simpa using hx) hy, mul_neg_fin hy hx, mul_comm_fin hy hx]

theorem add_finite_val {x y : F32} (h : (x + y).isFinite = true) : (x + y).val = RN (x.val + y.val) := by
  obtain ⟨h1, h2, h3⟩ := add_finite_inv h
  exact (add_val h1 h2 h3).2

theorem mul_finite_val {x y : F32} (h : (x * y).isFinite = true) : (x * y).val = RN (x.val * y.val) := by
  obtain ⟨h1, h2, h3⟩ := mul_finite_inv h
  exact (mul_val h1 h2 h3).2

end Micromath.F32
