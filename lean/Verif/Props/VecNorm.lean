import Verif.Props.Vectors
import Verif.Props.Quat
import Verif.Props.Asin

/-!
# Lengths of vectors and quaternions (C62, C63, C70, C73)
-/

set_option exponentiation.threshold 1000

namespace Micromath.Props
open F32 Spec

variable [Cfg]

/-! ### sums of squares -/

theorem acc_sumZero : Acc Cfg.sumZero 0 0 0 := by
  rcases Cfg.sumZero_spec with h | h <;> rw [h]
  · exact ⟨fin_posZero, by rw [val_posZero]; simp, by simp⟩
  · exact ⟨fin_negZero, by rw [val_negZero]; simp, by simp⟩

/-- A float whose value is `Q` up to a relative error of `6 * 2^-24` and `2^-147`. -/
def SumSq (S : F32) (Q : ℚ) : Prop := S.isFinite = true ∧ |S.val - Q| ≤ 6 / 2 ^ 24 * Q + 1 / 2 ^ 147

theorem sumSq2 {x y : F32} (fx : x.isFinite = true) (fy : y.isFinite = true) (h : x.val ^ 2 + y.val ^ 2 ≤ 2 ^ 124) :
    SumSq (F32.sum [x * x, y * y]) (x.val ^ 2 + y.val ^ 2) := by
  have px : |x.val * x.val| = x.val ^ 2 := by rw [abs_mul_self]; ring
  have py : |y.val * y.val| = y.val ^ 2 := by rw [abs_mul_self]; ring
  have nx := sq_nonneg x.val
  have ny := sq_nonneg y.val
  have a1 := Acc.mul fx fx (by rw [px]; linarith)
  have a2 := Acc.mul fy fy (by rw [py]; linarith)
  have s1 := (Acc.step acc_sumZero a1 (by rw [px]; linarith)).1
  have s2 := (Acc.step s1 a2 (by rw [px, py]; linarith)).1
  refine ⟨s2.fin, ?_⟩
  have e := s2.err
  rw [px, py] at e
  rw [show x.val ^ 2 + y.val ^ 2 = 0 + x.val * x.val + y.val * y.val by ring]
  refine e.trans ?_
  linarith

theorem sumSq3 {x y z : F32} (fx : x.isFinite = true) (fy : y.isFinite = true) (fz : z.isFinite = true)
    (h : x.val ^ 2 + y.val ^ 2 + z.val ^ 2 ≤ 2 ^ 124) :
    SumSq (F32.sum [x * x, y * y, z * z]) (x.val ^ 2 + y.val ^ 2 + z.val ^ 2) := by
  have px : |x.val * x.val| = x.val ^ 2 := by rw [abs_mul_self]; ring
  have py : |y.val * y.val| = y.val ^ 2 := by rw [abs_mul_self]; ring
  have pz : |z.val * z.val| = z.val ^ 2 := by rw [abs_mul_self]; ring
  have nx := sq_nonneg x.val
  have ny := sq_nonneg y.val
  have nz := sq_nonneg z.val
  have a1 := Acc.mul fx fx (by rw [px]; linarith)
  have a2 := Acc.mul fy fy (by rw [py]; linarith)
  have a3 := Acc.mul fz fz (by rw [pz]; linarith)
  have s1 := (Acc.step acc_sumZero a1 (by rw [px]; linarith)).1
  have s2 := (Acc.step s1 a2 (by rw [px, py]; linarith)).1
  have s3 := (Acc.step s2 a3 (by rw [px, py, pz]; linarith)).1
  refine ⟨s3.fin, ?_⟩
  have e := s3.err
  rw [px, py, pz] at e
  rw [show x.val ^ 2 + y.val ^ 2 + z.val ^ 2 = 0 + x.val * x.val + y.val * y.val + z.val * z.val by ring]
  refine e.trans ?_
  linarith

theorem norm_sumSq {q : Quaternion} (hq : QFinite q) (h : q.a.val ^ 2 + q.b.val ^ 2 + q.c.val ^ 2 + q.d.val ^ 2 ≤ 2 ^ 124) :
    SumSq q.norm (q.a.val ^ 2 + q.b.val ^ 2 + q.c.val ^ 2 + q.d.val ^ 2) := by
  have hM : (qmag (qval q) (qval q)).re = q.a.val ^ 2 + q.b.val ^ 2 + q.c.val ^ 2 + q.d.val ^ 2 := by
    simp only [qmag, qval, abs_mul_self]
    ring
  obtain ⟨f, e⟩ := C66_norm_err hq hq (by rw [hM]; linarith)
  refine ⟨f, ?_⟩
  rw [hM] at e
  have : 0 ≤ q.a.val ^ 2 + q.b.val ^ 2 + q.c.val ^ 2 + q.d.val ^ 2 := by positivity
  rw [show q.a.val ^ 2 + q.b.val ^ 2 + q.c.val ^ 2 + q.d.val ^ 2
    = q.a.val * q.a.val + q.b.val * q.b.val + q.c.val * q.c.val + q.d.val * q.d.val by ring] at *
  refine le_trans e ?_
  linarith

omit [Cfg] in
/-- A sum of squares in the stated range is a positive normal float with relative error `7 * 2^-24`. -/
theorem SumSq.normal {S : F32} {Q : ℚ} (h : SumSq S Q) (h1 : 1 / 2 ^ 100 ≤ Q) :
    PosNormal S ∧ (1 - 7 / 2 ^ 24) * Q ≤ S.val ∧ S.val ≤ (1 + 7 / 2 ^ 24) * Q := by
  obtain ⟨f, e⟩ := h
  obtain ⟨e1, e2⟩ := abs_le.1 e
  refine ⟨⟨f, ?_⟩, ?_, ?_⟩ <;> norm_num at * <;> linarith

theorem SumSq.sqrt {S : F32} {Q : ℚ} (h : SumSq S Q) (h1 : 1 / 2 ^ 100 ≤ Q) :
    S.sqrt.isFinite = true ∧ 0 < S.sqrt.val ∧ (1 - 1 / 2 ^ 20) * Q ≤ S.sqrt.val ^ 2 ∧
      S.sqrt.val ^ 2 ≤ 9 / 8 * (1 + 1 / 2 ^ 20) * Q := by
  obtain ⟨hp, b1, b2⟩ := h.normal h1
  obtain ⟨f, p, c1, c2, -⟩ := C14_sqrt S hp
  have : 0 < Q := lt_of_lt_of_le (by positivity) h1
  refine ⟨f, p, ?_, ?_⟩ <;> norm_num at * <;> linarith

/-! ### C62 -/

section
variable {C : Type} [Component C] [IntoF32 C]

/-- The exact squared length of a vector. -/
def len2 (v : Vector2d C) : ℚ := (IntoF32.into v.x : F32).val ^ 2 + (IntoF32.into v.y : F32).val ^ 2
def len3 (v : Vector3d C) : ℚ :=
  (IntoF32.into v.x : F32).val ^ 2 + (IntoF32.into v.y : F32).val ^ 2 + (IntoF32.into v.z : F32).val ^ 2

/-- **C62, magnitude in the plane.** If the exact squared length `Q` of a finite vector is within `2^-100 .. 2^124`, the
square of `magnitude` is within `1 - 2^-20 .. 9/8 (1 + 2^-20)` of `Q`. -/
theorem C62_magnitude2 (v : Vector2d C) (fx : (IntoF32.into v.x : F32).isFinite = true) (fy : (IntoF32.into v.y : F32).isFinite = true)
    (h1 : 1 / 2 ^ 100 ≤ len2 v) (h2 : len2 v ≤ 2 ^ 124) :
    (VectorTrait.magnitude v).isFinite = true ∧ 0 < (VectorTrait.magnitude v).val ∧
      (1 - 1 / 2 ^ 20) * len2 v ≤ (VectorTrait.magnitude v).val ^ 2 ∧
      (VectorTrait.magnitude v).val ^ 2 ≤ 9 / 8 * (1 + 1 / 2 ^ 20) * len2 v :=
  (sumSq2 fx fy h2).sqrt h1

/-- **C62, magnitude in space.** -/
theorem C62_magnitude3 (v : Vector3d C) (fx : (IntoF32.into v.x : F32).isFinite = true) (fy : (IntoF32.into v.y : F32).isFinite = true)
    (fz : (IntoF32.into v.z : F32).isFinite = true) (h1 : 1 / 2 ^ 100 ≤ len3 v) (h2 : len3 v ≤ 2 ^ 124) :
    (VectorTrait.magnitude v).isFinite = true ∧ 0 < (VectorTrait.magnitude v).val ∧
      (1 - 1 / 2 ^ 20) * len3 v ≤ (VectorTrait.magnitude v).val ^ 2 ∧
      (VectorTrait.magnitude v).val ^ 2 ≤ 9 / 8 * (1 + 1 / 2 ^ 20) * len3 v :=
  (sumSq3 fx fy fz h2).sqrt h1

/-- Rounding the differences changes the squared distance by a factor within `(1 ± 2^-24)^2`. -/
theorem sq_sub_rel {x y : F32} (fx : x.isFinite = true) (fy : y.isFinite = true) (h : (x.val - y.val) ^ 2 ≤ 2 ^ 123) :
    (x - y).isFinite = true ∧ (1 - 1 / 2 ^ 22) * (x.val - y.val) ^ 2 ≤ (x - y).val ^ 2 ∧
      (x - y).val ^ 2 ≤ (1 + 1 / 2 ^ 22) * (x.val - y.val) ^ 2 := by
  have hb : |x.val - y.val| < ovf := by
    have : |x.val - y.val| ≤ 2 ^ 62 := by
      refine abs_le_of_sq_le_sq (le_trans h ?_) (by norm_num)
      norm_num
    exact lt_of_le_of_lt this (by norm_num [ovf])
  obtain ⟨d, hd, f, v⟩ := sub_rel fx fy hb
  obtain ⟨d1, d2⟩ := abs_le.1 hd
  refine ⟨f, ?_, ?_⟩ <;> rw [v, show ((x.val - y.val) * (1 + d)) ^ 2 = (1 + d) ^ 2 * (x.val - y.val) ^ 2 by ring] <;>
    refine mul_le_mul_of_nonneg_right ?_ (sq_nonneg _) <;> norm_num at d1 d2 ⊢ <;> nlinarith

/-- The exact squared distance. -/
def dist2 (v w : Vector2d C) : ℚ :=
  ((IntoF32.into v.x : F32).val - (IntoF32.into w.x : F32).val) ^ 2 + ((IntoF32.into v.y : F32).val - (IntoF32.into w.y : F32).val) ^ 2
def dist3 (v w : Vector3d C) : ℚ :=
  ((IntoF32.into v.x : F32).val - (IntoF32.into w.x : F32).val) ^ 2 + ((IntoF32.into v.y : F32).val - (IntoF32.into w.y : F32).val) ^ 2 +
    ((IntoF32.into v.z : F32).val - (IntoF32.into w.z : F32).val) ^ 2

theorem distance2_eq (v w : Vector2d C) : VectorTrait.distance v w =
    (F32.sum [((IntoF32.into v.x : F32) - IntoF32.into w.x) * ((IntoF32.into v.x : F32) - IntoF32.into w.x),
      ((IntoF32.into v.y : F32) - IntoF32.into w.y) * ((IntoF32.into v.y : F32) - IntoF32.into w.y)]).sqrt := rfl
theorem distance3_eq (v w : Vector3d C) : VectorTrait.distance v w =
    (F32.sum [((IntoF32.into v.x : F32) - IntoF32.into w.x) * ((IntoF32.into v.x : F32) - IntoF32.into w.x),
      ((IntoF32.into v.y : F32) - IntoF32.into w.y) * ((IntoF32.into v.y : F32) - IntoF32.into w.y),
      ((IntoF32.into v.z : F32) - IntoF32.into w.z) * ((IntoF32.into v.z : F32) - IntoF32.into w.z)]).sqrt := rfl

/-- **C62, distance in the plane.** -/
theorem C62_distance2 (v w : Vector2d C) (fx : (IntoF32.into v.x : F32).isFinite = true) (fy : (IntoF32.into v.y : F32).isFinite = true)
    (gx : (IntoF32.into w.x : F32).isFinite = true) (gy : (IntoF32.into w.y : F32).isFinite = true)
    (h1 : 1 / 2 ^ 99 ≤ dist2 v w) (h2 : dist2 v w ≤ 2 ^ 123) :
    (VectorTrait.distance v w).isFinite = true ∧ 0 < (VectorTrait.distance v w).val ∧
      (1 - 1 / 2 ^ 19) * dist2 v w ≤ (VectorTrait.distance v w).val ^ 2 ∧
      (VectorTrait.distance v w).val ^ 2 ≤ 9 / 8 * (1 + 1 / 2 ^ 19) * dist2 v w := by
  unfold dist2 at *
  obtain ⟨f1, a1, a2⟩ := sq_sub_rel fx gx (by nlinarith [sq_nonneg ((IntoF32.into v.y : F32).val - (IntoF32.into w.y : F32).val)])
  obtain ⟨f2, b1, b2⟩ := sq_sub_rel fy gy (by nlinarith [sq_nonneg ((IntoF32.into v.x : F32).val - (IntoF32.into w.x : F32).val)])
  rw [distance2_eq]
  obtain ⟨f, p, c1, c2⟩ := (sumSq2 f1 f2 (by norm_num at *; linarith)).sqrt (by norm_num at *; linarith)
  refine ⟨f, p, ?_, ?_⟩ <;> norm_num at * <;> linarith

/-- **C62, distance in space.** -/
theorem C62_distance3 (v w : Vector3d C) (fx : (IntoF32.into v.x : F32).isFinite = true) (fy : (IntoF32.into v.y : F32).isFinite = true)
    (fz : (IntoF32.into v.z : F32).isFinite = true)
    (gx : (IntoF32.into w.x : F32).isFinite = true) (gy : (IntoF32.into w.y : F32).isFinite = true) (gz : (IntoF32.into w.z : F32).isFinite = true)
    (h1 : 1 / 2 ^ 99 ≤ dist3 v w) (h2 : dist3 v w ≤ 2 ^ 123) :
    (VectorTrait.distance v w).isFinite = true ∧ 0 < (VectorTrait.distance v w).val ∧
      (1 - 1 / 2 ^ 19) * dist3 v w ≤ (VectorTrait.distance v w).val ^ 2 ∧
      (VectorTrait.distance v w).val ^ 2 ≤ 9 / 8 * (1 + 1 / 2 ^ 19) * dist3 v w := by
  unfold dist3 at *
  have n1 := sq_nonneg ((IntoF32.into v.x : F32).val - (IntoF32.into w.x : F32).val)
  have n2 := sq_nonneg ((IntoF32.into v.y : F32).val - (IntoF32.into w.y : F32).val)
  have n3 := sq_nonneg ((IntoF32.into v.z : F32).val - (IntoF32.into w.z : F32).val)
  obtain ⟨f1, a1, a2⟩ := sq_sub_rel fx gx (by linarith)
  obtain ⟨f2, b1, b2⟩ := sq_sub_rel fy gy (by linarith)
  obtain ⟨f3, e1, e2⟩ := sq_sub_rel fz gz (by linarith)
  rw [distance3_eq]
  obtain ⟨f, p, c1, c2⟩ := (sumSq3 f1 f2 f3 (by norm_num at *; linarith)).sqrt (by norm_num at *; linarith)
  refine ⟨f, p, ?_, ?_⟩ <;> norm_num at * <;> linarith

/-- `(1, 2)` and `(4, -2)` of bytes meet the hypotheses of `C62_distance2`, at squared distance `25`. -/
example : dist2 (⟨MInt.wrap 1, MInt.wrap 2⟩ : Vector2d I8) ⟨MInt.wrap 4, MInt.wrap (-2)⟩ = 25 := by
  have e : ∀ n : Int, n.natAbs ≤ 100 → (IntoF32.into (MInt.wrap n : I8) : F32).val = n := fun n hn => by
    have : (MInt.wrap n : I8).toInt = n := wrap_exact (by decide) (by unfold MInt.InRange; simp; omega)
    show (ofInt (MInt.wrap n : I8).toInt).val = n
    rw [this]; exact (ofInt_exact (by omega)).2
  unfold dist2
  dsimp only
  rw [e 1 (by decide), e 2 (by decide), e 4 (by decide), e (-2) (by decide)]
  norm_num

theorem sqrt_congr {x y : F32} (h : Eqv x y) : Eqv x.sqrt y.sqrt := by
  rcases h with ⟨h1, h2⟩ | h
  · exact Eqv.of_nan ((C15_sqrt x).2.1.2 (Or.inl h1)) ((C15_sqrt y).2.1.2 (Or.inl h2))
  · rw [h]; exact Eqv.rfl

/-- **C62, symmetry.** `distance(a, b)` and `distance(b, a)` are the same float bit for bit, or both NaN, for all vectors. -/
theorem C62_distance_comm (v w : Vector2d C) (v' w' : Vector3d C) :
    Eqv (VectorTrait.distance v w) (VectorTrait.distance w v) ∧ Eqv (VectorTrait.distance v' w') (VectorTrait.distance w' v') := by
  constructor
  · rw [distance2_eq, distance2_eq]
    exact sqrt_congr (Eqv.add (Eqv.add Eqv.rfl (sub_sq_comm _ _)) (sub_sq_comm _ _))
  · rw [distance3_eq, distance3_eq]
    exact sqrt_congr (Eqv.add (Eqv.add (Eqv.add Eqv.rfl (sub_sq_comm _ _)) (sub_sq_comm _ _)) (sub_sq_comm _ _))

end

/-- `distance(a, a)` is the float `sqrt(0.0)`, which is not zero, for every finite `a`. -/
theorem sub_self_sq {x : F32} (fx : x.isFinite = true) : (x - x) * (x - x) = posZero := by
  have h0 : x - x = posZero := by
    rw [sub_def, addAs_finite _ fx (by simpa using fx), val_neg, add_neg_cancel, if_pos rfl, sign_neg]
    simp
  rw [h0]
  exact eval_eq (n := 0) (by kernel_rfl)

theorem zero_add_nonneg {z y : F32} (hz : z = posZero ∨ z = negZero) (hy : y.isNaN = true ∨ y.sign = false) :
    Eqv (z + y) y := by
  by_cases hn : y.isNaN = true
  · exact Eqv.of_nan (add_nan (Or.inr hn)) hn
  have hs := hy.resolve_left hn
  have hz' : z.isFinite = true ∧ z.val = 0 := by
    rcases hz with h | h <;> rw [h]
    · exact ⟨fin_posZero, val_posZero⟩
    · exact ⟨fin_negZero, val_negZero⟩
  rcases class_cases y with hf | hi | h
  · obtain ⟨f, v⟩ := add_val hz'.1 hf (by rw [hz'.2, zero_add]; exact abs_val_lt_ovf hf)
    rw [hz'.2, zero_add, RN_val] at v
    by_cases h0 : y.val = 0
    · have : y = posZero := eq_of_val_sign (by rw [h0, val_posZero]) (by rw [hs]; decide)
      rw [this]
      rcases hz with h | h <;> rw [h] <;> exact Eqv.of_eq (eval_eq (n := 0) (by kernel_rfl))
    · exact Eqv.of_eq (eq_of_val_ne v (by rw [v]; exact h0))
  · have : y = posInf := by
      refine ext_mag_sign ?_ (by rw [hs]; decide)
      simp [isInf] at hi
      rw [hi]; decide
    rw [this]
    rcases hz with h | h <;> rw [h] <;> exact Eqv.of_eq (eval_eq (n := 0x7f800000) (by kernel_rfl))
  · exact absurd h hn

theorem C62_distance_self {C : Type} [Component C] [IntoF32 C] (v : Vector2d C) (w : Vector3d C)
    (fx : (IntoF32.into v.x : F32).isFinite = true) (fy : (IntoF32.into v.y : F32).isFinite = true)
    (gx : (IntoF32.into w.x : F32).isFinite = true) (gy : (IntoF32.into w.y : F32).isFinite = true)
    (gz : (IntoF32.into w.z : F32).isFinite = true) :
    VectorTrait.distance v v = ⟨0x1fc00000#32⟩ ∧ VectorTrait.distance w w = ⟨0x1fc00000#32⟩ := by
  have hz : Cfg.sumZero + posZero = posZero := by
    rcases Cfg.sumZero_spec with h | h <;> rw [h] <;> exact eval_eq (n := 0) (by kernel_rfl)
  have h0 : posZero + posZero = posZero := eval_eq (n := 0) (by kernel_rfl)
  rw [distance2_eq, distance3_eq, sub_self_sq fx, sub_self_sq fy, sub_self_sq gx, sub_self_sq gy, sub_self_sq gz]
  simp only [F32.sum, List.foldl_cons, List.foldl_nil, hz, h0]
  exact ⟨C16_sqrt_special_false.1, C16_sqrt_special_false.1⟩

theorem chk_toInt {s : Bool} {w : Nat} (hw : 0 < w) (x : MInt s w) : MInt.chk x.toInt = .ok x := by
  rw [MInt.chk, if_pos (toInt_inRange hw x), wrap_toInt]

theorem chk_cases {s : Bool} {w : Nat} (v : Int) : (MInt.chk v : Res (MInt s w)) = .error .overflow ∨ ∃ z, (MInt.chk v : Res (MInt s w)) = .ok z := by
  unfold MInt.chk
  split_ifs
  · exact Or.inr ⟨_, rfl⟩
  · exact Or.inl rfl
  · exact Or.inr ⟨_, rfl⟩

/-- **C62.** For integer components `magnitude_sq` is `dot` of the vector with itself, panics included. -/
theorem C62_magnitude_sq_int {s : Bool} {w : Nat} (hw : 0 < w) (v : Vector2d (MInt s w)) (u : Vector3d (MInt s w)) :
    VectorTrait.magnitudeSq v = v.dot v ∧ VectorTrait.magnitudeSq u = u.dot u := by
  have h0 : (@Component.sumStart (MInt s w) ‹Cfg› _).toInt = 0 := wrap_exact hw (by
    unfold MInt.InRange
    split_ifs
    · exact ⟨by simp, by positivity⟩
    · exact ⟨le_rfl, by positivity⟩)
  have ha : ∀ x : MInt s w, @Component.add (MInt s w) ‹Cfg› _ Component.sumStart x = .ok x := fun x => by
    rw [cadd_def, h0, zero_add, chk_toInt hw]
  constructor
  · simp only [VectorTrait.magnitudeSq, items2, List.foldlM_cons, List.foldlM_nil, Vector2d.dot, cmul_def]
    rcases chk_cases (s := s) (w := w) (v.x.toInt * v.x.toInt) with h | ⟨p, h⟩ <;> rw [h]
    · rfl
    rcases chk_cases (s := s) (w := w) (v.y.toInt * v.y.toInt) with h | ⟨q, h⟩ <;> rw [h]
    · simp only [ok_bind, ha]; rfl
    simp only [ok_bind, ha]
    rcases @Component.add (MInt s w) _ _ p q with e | r <;> rfl
  · simp only [VectorTrait.magnitudeSq, items3, List.foldlM_cons, List.foldlM_nil, Vector3d.dot, cmul_def]
    rcases chk_cases (s := s) (w := w) (u.x.toInt * u.x.toInt) with h | ⟨p, h⟩ <;> rw [h]
    · rfl
    rcases chk_cases (s := s) (w := w) (u.y.toInt * u.y.toInt) with h | ⟨q, h⟩ <;> rw [h]
    · simp only [ok_bind, ha]; rfl
    simp only [ok_bind, ha, cadd_def]
    rcases chk_cases (s := s) (w := w) (p.toInt + q.toInt) with h1 | ⟨t, h1⟩ <;>
      rcases chk_cases (s := s) (w := w) (u.z.toInt * u.z.toInt) with h | ⟨r, h⟩ <;> rw [h, h1] <;> try rfl
    simp only [ok_bind]
    rcases (MInt.chk (t.toInt + r.toInt) : Res (MInt s w)) with e | r <;> rfl

/-- **C62.** For float components `magnitude_sq` is `dot` of the vector with itself, bit for bit or both NaN. -/
theorem C62_magnitude_sq_float (v : Vector2d F32) (u : Vector3d F32) :
    (∃ m d, VectorTrait.magnitudeSq v = .ok m ∧ v.dot v = .ok d ∧ Eqv m d) ∧
    (∃ m d, VectorTrait.magnitudeSq u = .ok m ∧ u.dot u = .ok d ∧ Eqv m d) :=
  ⟨⟨_, _, rfl, rfl, Eqv.add (zero_add_nonneg Cfg.sumZero_spec (sq_sign _)) Eqv.rfl⟩,
   ⟨_, _, rfl, rfl, Eqv.add (Eqv.add (zero_add_nonneg Cfg.sumZero_spec (sq_sign _)) Eqv.rfl) Eqv.rfl⟩⟩

/-! ### C63 -/

theorem div_err_uf {x y : F32} (hx : x.isFinite = true) (hy : y.isFinite = true) (h0 : y.val ≠ 0) (h : |x.val / y.val| < ovf) :
    (x / y).isFinite = true ∧ |(x / y).val - x.val / y.val| ≤ |x.val / y.val| / 2 ^ 24 + 1 / 2 ^ 150 := by
  obtain ⟨f, v⟩ := div_val hx hy h0 h
  refine ⟨f, ?_⟩
  rw [v]
  refine (RN_err _).trans (max_le ?_ ?_)
  · have : 0 ≤ |x.val / y.val| / 2 ^ 24 := by positivity
    linarith
  · have : (0 : ℚ) ≤ 1 / 2 ^ 150 := by positivity
    linarith

omit [Cfg] in
theorem sq_near {r t : ℚ} (h : |r - t| ≤ |t| / 2 ^ 24 + 1 / 2 ^ 150) (ht : |t| ≤ 2) :
    |r ^ 2 - t ^ 2| ≤ t ^ 2 / 2 ^ 22 + 1 / 2 ^ 140 := by
  rw [show r ^ 2 - t ^ 2 = (r - t) * (r + t) by ring, abs_mul]
  have h1 : |r + t| ≤ 2 * |t| + (|t| / 2 ^ 24 + 1 / 2 ^ 150) := by
    rw [show r + t = 2 * t + (r - t) by ring]
    refine (abs_add_le _ _).trans ?_
    rw [abs_mul, abs_two]; linarith
  have h2 := mul_le_mul h h1 (abs_nonneg _) (by positivity)
  refine h2.trans ?_
  rw [← sq_abs t]
  have h0 : 0 ≤ |t| := abs_nonneg t
  generalize |t| = a at *
  norm_num at *
  nlinarith

theorem div_pos_sign {x m : F32} (fx : x.isFinite = true) (fm : m.isFinite = true) (pm : 0 < m.val) : (x / m).sign = x.sign := by
  rw [div_finite fx fm pm.ne', sign_pack, val_pos_sign pm]
  · simp
  · have := infMag_lt; omega

/-- One component of `normalized`. -/
theorem norm_comp {x m : F32} {Q : ℚ} (fx : x.isFinite = true) (fm : m.isFinite = true) (pm : 0 < m.val)
    (hx : x.val ^ 2 ≤ Q) (hm : (1 - 1 / 2 ^ 20) * Q ≤ m.val ^ 2) :
    (x / m).isFinite = true ∧ (x / m).sign = x.sign ∧
      |(x / m).val - x.val / m.val| ≤ |x.val / m.val| / 2 ^ 24 + 1 / 2 ^ 150 ∧
      |(x / m).val ^ 2 - x.val ^ 2 / m.val ^ 2| ≤ x.val ^ 2 / m.val ^ 2 / 2 ^ 22 + 1 / 2 ^ 140 := by
  have hb : |x.val / m.val| ≤ 2 := by
    refine abs_le_of_sq_le_sq ?_ (by norm_num)
    rw [div_pow, div_le_iff₀ (by positivity)]
    have := sq_nonneg x.val
    norm_num at hm ⊢
    linarith
  obtain ⟨f, e⟩ := div_err_uf fx fm pm.ne' (lt_of_le_of_lt hb (by norm_num [ovf]))
  refine ⟨f, div_pos_sign fx fm pm, e, ?_⟩
  have := sq_near e hb
  rwa [div_pow] at this

/-- **C63, in the plane.** For finite vectors with exact squared length in `2^-100 .. 2^124`, `normalized` keeps the sign of
each component, divides it by `magnitude` correctly rounded, and gives a vector of exact squared length within
`8/9 - 2^-18 .. 1 + 2^-18`. -/
theorem C63_normalized2 (v : Vector2d F32) (fx : v.x.isFinite = true) (fy : v.y.isFinite = true)
    (h1 : 1 / 2 ^ 100 ≤ v.x.val ^ 2 + v.y.val ^ 2) (h2 : v.x.val ^ 2 + v.y.val ^ 2 ≤ 2 ^ 124) :
    ∃ r, VectorTrait.normalized v = .ok r ∧ r.x.isFinite = true ∧ r.y.isFinite = true ∧ r.x.sign = v.x.sign ∧ r.y.sign = v.y.sign ∧
      |r.x.val - v.x.val / (VectorTrait.magnitude v).val| ≤ |v.x.val / (VectorTrait.magnitude v).val| / 2 ^ 24 + 1 / 2 ^ 150 ∧
      |r.y.val - v.y.val / (VectorTrait.magnitude v).val| ≤ |v.y.val / (VectorTrait.magnitude v).val| / 2 ^ 24 + 1 / 2 ^ 150 ∧
      8 / 9 - 1 / 2 ^ 18 ≤ r.x.val ^ 2 + r.y.val ^ 2 ∧ r.x.val ^ 2 + r.y.val ^ 2 ≤ 1 + 1 / 2 ^ 18 := by
  obtain ⟨fm, pm, m1, m2⟩ := C62_magnitude2 v fx fy h1 h2
  refine ⟨_, (C52_map v ⟨v.x, v.x, v.x⟩ _).1, ?_⟩
  dsimp only
  change (1 - 1 / 2 ^ 20) * (v.x.val ^ 2 + v.y.val ^ 2) ≤ _ at m1
  change _ ≤ 9 / 8 * (1 + 1 / 2 ^ 20) * (v.x.val ^ 2 + v.y.val ^ 2) at m2
  generalize VectorTrait.magnitude v = m at *
  obtain ⟨x1, x2, x3, x4⟩ := norm_comp fx fm pm (le_add_of_nonneg_right (sq_nonneg v.y.val)) m1
  obtain ⟨y1, y2, y3, y4⟩ := norm_comp fy fm pm (le_add_of_nonneg_left (sq_nonneg v.x.val)) m1
  refine ⟨x1, y1, x2, y2, x3, y3, ?_⟩
  have hm : 0 < m.val ^ 2 := by positivity
  have q1 : v.x.val ^ 2 / m.val ^ 2 + v.y.val ^ 2 / m.val ^ 2 ≤ 1 / (1 - 1 / 2 ^ 20) := by
    rw [← add_div, div_le_div_iff₀ hm (by norm_num)]; linarith
  have q2 : 1 / (9 / 8 * (1 + 1 / 2 ^ 20)) ≤ v.x.val ^ 2 / m.val ^ 2 + v.y.val ^ 2 / m.val ^ 2 := by
    rw [← add_div, div_le_div_iff₀ (by norm_num) hm]; linarith
  rw [abs_le] at x4 y4
  constructor <;> norm_num at * <;> linarith

/-- **C63, in space.** -/
theorem C63_normalized3 (v : Vector3d F32) (fx : v.x.isFinite = true) (fy : v.y.isFinite = true) (fz : v.z.isFinite = true)
    (h1 : 1 / 2 ^ 100 ≤ v.x.val ^ 2 + v.y.val ^ 2 + v.z.val ^ 2) (h2 : v.x.val ^ 2 + v.y.val ^ 2 + v.z.val ^ 2 ≤ 2 ^ 124) :
    ∃ r, VectorTrait.normalized v = .ok r ∧ r.x.isFinite = true ∧ r.y.isFinite = true ∧ r.z.isFinite = true ∧
      r.x.sign = v.x.sign ∧ r.y.sign = v.y.sign ∧ r.z.sign = v.z.sign ∧
      |r.x.val - v.x.val / (VectorTrait.magnitude v).val| ≤ |v.x.val / (VectorTrait.magnitude v).val| / 2 ^ 24 + 1 / 2 ^ 150 ∧
      |r.y.val - v.y.val / (VectorTrait.magnitude v).val| ≤ |v.y.val / (VectorTrait.magnitude v).val| / 2 ^ 24 + 1 / 2 ^ 150 ∧
      |r.z.val - v.z.val / (VectorTrait.magnitude v).val| ≤ |v.z.val / (VectorTrait.magnitude v).val| / 2 ^ 24 + 1 / 2 ^ 150 ∧
      8 / 9 - 1 / 2 ^ 18 ≤ r.x.val ^ 2 + r.y.val ^ 2 + r.z.val ^ 2 ∧ r.x.val ^ 2 + r.y.val ^ 2 + r.z.val ^ 2 ≤ 1 + 1 / 2 ^ 18 := by
  obtain ⟨fm, pm, m1, m2⟩ := C62_magnitude3 v fx fy fz h1 h2
  refine ⟨_, (C52_map ⟨v.x, v.x⟩ v _).2, ?_⟩
  dsimp only
  change (1 - 1 / 2 ^ 20) * (v.x.val ^ 2 + v.y.val ^ 2 + v.z.val ^ 2) ≤ _ at m1
  change _ ≤ 9 / 8 * (1 + 1 / 2 ^ 20) * (v.x.val ^ 2 + v.y.val ^ 2 + v.z.val ^ 2) at m2
  generalize VectorTrait.magnitude v = m at *
  have nx := sq_nonneg v.x.val
  have ny := sq_nonneg v.y.val
  have nz := sq_nonneg v.z.val
  obtain ⟨x1, x2, x3, x4⟩ := norm_comp fx fm pm (by linarith) m1
  obtain ⟨y1, y2, y3, y4⟩ := norm_comp fy fm pm (by linarith) m1
  obtain ⟨z1, z2, z3, z4⟩ := norm_comp fz fm pm (by linarith) m1
  refine ⟨x1, y1, z1, x2, y2, z2, x3, y3, z3, ?_⟩
  have hm : 0 < m.val ^ 2 := by positivity
  have q1 : v.x.val ^ 2 / m.val ^ 2 + v.y.val ^ 2 / m.val ^ 2 + v.z.val ^ 2 / m.val ^ 2 ≤ 1 / (1 - 1 / 2 ^ 20) := by
    rw [← add_div, ← add_div, div_le_div_iff₀ hm (by norm_num)]; linarith
  have q2 : 1 / (9 / 8 * (1 + 1 / 2 ^ 20)) ≤ v.x.val ^ 2 / m.val ^ 2 + v.y.val ^ 2 / m.val ^ 2 + v.z.val ^ 2 / m.val ^ 2 := by
    rw [← add_div, ← add_div, div_le_div_iff₀ (by norm_num) hm]; linarith
  rw [abs_le] at x4 y4 z4
  constructor <;> norm_num at * <;> linarith

/-- `(3, 4, 12)` meets the hypotheses, with squared length `169`. -/
example : ∃ v : Vector3d F32, v.x.isFinite = true ∧ v.y.isFinite = true ∧ v.z.isFinite = true ∧
    v.x.val ^ 2 + v.y.val ^ 2 + v.z.val ^ 2 = 169 := by
  refine ⟨⟨ofInt 3, ofInt 4, ofInt 12⟩, (ofInt_exact (by decide)).1, (ofInt_exact (by decide)).1, (ofInt_exact (by decide)).1, ?_⟩
  dsimp only
  rw [(ofInt_exact (n := 3) (by decide)).2, (ofInt_exact (n := 4) (by decide)).2, (ofInt_exact (n := 12) (by decide)).2]
  norm_num

/-- **C63, zero vectors.** `magnitude` of a zero vector is the nonzero float `sqrt(0.0)`, so `normalized` of a zero vector
is that zero vector (signs included) instead of NaN. -/
theorem C63_zero (v : Vector2d F32) (w : Vector3d F32) (hx : IsVal v.x 0) (hy : IsVal v.y 0) (kx : IsVal w.x 0) (ky : IsVal w.y 0)
    (kz : IsVal w.z 0) :
    VectorTrait.magnitude v = ⟨0x1fc00000#32⟩ ∧ VectorTrait.magnitude w = ⟨0x1fc00000#32⟩ ∧
    VectorTrait.normalized v = .ok v ∧ VectorTrait.normalized w = .ok w := by
  have hz : ∀ x : F32, IsVal x 0 → x = posZero ∨ x = negZero := fun x hx => by
    cases hs : x.sign
    · exact Or.inl (eq_of_val_sign (by rw [hx.2, val_posZero]) (by rw [hs]; decide))
    · exact Or.inr (eq_of_val_sign (by rw [hx.2, val_negZero]) (by rw [hs]; decide))
  have hq : ∀ x : F32, IsVal x 0 → x * x = posZero := fun x hx => by
    rcases hz x hx with h | h <;> rw [h] <;> exact eval_eq (n := 0) (by kernel_rfl)
  have hd : ∀ x : F32, IsVal x 0 → x / ⟨0x1fc00000#32⟩ = x := fun x hx => by
    rcases hz x hx with h | h <;> rw [h]
    · exact eval_eq (n := 0) (by kernel_rfl)
    · exact eval_eq (n := 0x80000000) (by kernel_rfl)
  have hs : Cfg.sumZero + posZero = posZero := by
    rcases Cfg.sumZero_spec with h | h <;> rw [h] <;> exact eval_eq (n := 0) (by kernel_rfl)
  have h0 : posZero + posZero = posZero := eval_eq (n := 0) (by kernel_rfl)
  have m2 : VectorTrait.magnitude v = ⟨0x1fc00000#32⟩ := by
    have : VectorTrait.magnitude v = (F32.sum [v.x * v.x, v.y * v.y]).sqrt := rfl
    rw [this, hq _ hx, hq _ hy]
    simp only [F32.sum, List.foldl_cons, List.foldl_nil, hs, h0]
    exact C16_sqrt_special_false.1
  have m3 : VectorTrait.magnitude w = ⟨0x1fc00000#32⟩ := by
    have : VectorTrait.magnitude w = (F32.sum [w.x * w.x, w.y * w.y, w.z * w.z]).sqrt := rfl
    rw [this, hq _ kx, hq _ ky, hq _ kz]
    simp only [F32.sum, List.foldl_cons, List.foldl_nil, hs, h0]
    exact C16_sqrt_special_false.1
  refine ⟨m2, m3, ?_, ?_⟩
  · rw [VectorTrait.normalized, m2, (C52_map v w _).1]
    rw [hd _ hx, hd _ hy]
  · rw [VectorTrait.normalized, m3, (C52_map v w _).2]
    rw [hd _ kx, hd _ ky, hd _ kz]

/-! ### C70 -/

/-- Exact squared length of a quaternion. -/
def qlen (q : Quaternion) : ℚ := q.a.val ^ 2 + q.b.val ^ 2 + q.c.val ^ 2 + q.d.val ^ 2

/-- One component of `normalize`. -/
theorem qnorm_comp {x n : F32} {Q : ℚ} (fx : x.isFinite = true) (fn : n.isFinite = true) (hx : x.val ^ 2 ≤ Q) (hn : Q * n.val ^ 2 ≤ 1.08) :
    (x * n).isFinite = true ∧ |(x * n).val ^ 2 - x.val ^ 2 * n.val ^ 2| ≤ x.val ^ 2 * n.val ^ 2 / 2 ^ 22 + 1 / 2 ^ 140 := by
  have hb : |x.val * n.val| ≤ 2 := by
    refine abs_le_of_sq_le_sq ?_ (by norm_num)
    rw [mul_pow]
    have := mul_le_mul_of_nonneg_right hx (sq_nonneg n.val)
    norm_num at hn ⊢
    linarith
  obtain ⟨f, e⟩ := mul_err_uf fx fn (lt_of_le_of_lt hb (by norm_num [ovf]))
  refine ⟨f, ?_⟩
  have := sq_near e hb
  rwa [mul_pow] at this

/-- **C70, sharper.** For finite quaternions of exact squared length within `2^-100 .. 2^124`, `normalize` returns a finite quaternion
of exact squared length within `0.9298 .. 1.0702`. -/
theorem C70_normalize_len (q : Quaternion) (hq : QFinite q) (h1 : 1 / 2 ^ 100 ≤ qlen q) (h2 : qlen q ≤ 2 ^ 124) :
    ∃ r, q.normalize = .ok r ∧ QFinite r ∧ 0.9298 ≤ qlen r ∧ qlen r ≤ 1.0702 := by
  obtain ⟨hp, s1, s2⟩ := (norm_sumSq hq h2).normal h1
  obtain ⟨n, hn, fn, pn, n1, n2, -⟩ := C17_invsqrt q.norm hp
  have h0 : q.norm.feq posZero = false := by
    rw [Bool.eq_false_iff]
    intro h
    rw [feq_iff hp.1 fin_posZero, val_posZero] at h
    have := hp.2
    rw [h] at this
    norm_num at this
  change (1 - 7 / 2 ^ 24) * qlen q ≤ _ at s1
  change _ ≤ (1 + 7 / 2 ^ 24) * qlen q at s2
  have hQ : 0 < qlen q := lt_of_lt_of_le (by positivity) h1
  have hn2 : 0 < n.val ^ 2 := by positivity
  have t1 := mul_le_mul_of_nonneg_right s1 hn2.le
  have t2 := mul_le_mul_of_nonneg_right s2 hn2.le
  have u1 : qlen q * n.val ^ 2 ≤ 1.0701 := by norm_num at *; linarith
  have u2 : 0.9299 ≤ qlen q * n.val ^ 2 := by norm_num at *; linarith
  have u3 : qlen q * n.val ^ 2 ≤ 1.08 := by norm_num at *; linarith
  have na := sq_nonneg q.a.val
  have nb := sq_nonneg q.b.val
  have nc := sq_nonneg q.c.val
  have nd := sq_nonneg q.d.val
  obtain ⟨fa, ea⟩ := qnorm_comp hq.1 fn (by unfold qlen; linarith) u3
  obtain ⟨fb, eb⟩ := qnorm_comp hq.2.1 fn (by unfold qlen; linarith) u3
  obtain ⟨fc, ec⟩ := qnorm_comp hq.2.2.1 fn (by unfold qlen; linarith) u3
  obtain ⟨fd, ed⟩ := qnorm_comp hq.2.2.2 fn (by unfold qlen; linarith) u3
  refine ⟨q.scale n, ?_, ⟨fa, fb, fc, fd⟩, ?_⟩
  · simp only [Quaternion.normalize, h0, hn]; rfl
  rw [abs_le] at ea eb ec ed
  unfold qlen at u1 u2 ⊢
  simp only [Quaternion.scale] at *
  constructor <;> norm_num at * <;> linarith

/-- **C70.** For finite quaternions of exact squared length within `2^-100 .. 2^124`, `normalize` returns a finite quaternion
of exact squared length within `0.92 .. 1.08`. -/
theorem C70_normalize (q : Quaternion) (hq : QFinite q) (h1 : 1 / 2 ^ 100 ≤ qlen q) (h2 : qlen q ≤ 2 ^ 124) :
    ∃ r, q.normalize = .ok r ∧ QFinite r ∧ 0.92 ≤ qlen r ∧ qlen r ≤ 1.08 := by
  obtain ⟨r, hr, fr, a, b⟩ := C70_normalize_len q hq h1 h2
  exact ⟨r, hr, fr, le_trans (by norm_num) a, b.trans (by norm_num)⟩

/-! ### C73 -/

/-- **C73, exact condition.** `to_euler` panics exactly when its `asin` does. -/
theorem C73_to_euler_panic (q : Quaternion) :
    Fails q.toEuler ↔ Fails (lit 2 1 * (q.a * q.c - q.b * q.d)).asin := by
  simp only [Quaternion.toEuler]
  generalize (lit 2 1 * (q.a * q.c - q.b * q.d)).asin = r
  rcases r with e | p
  · exact iff_of_true ⟨e, rfl⟩ ⟨e, rfl⟩
  · exact iff_of_false (by rintro ⟨e, h⟩; cases h) (by rintro ⟨e, h⟩; cases h)

/-- `asin` does not panic slightly outside its domain. -/
theorem asin_returns {x : F32} (fx : x.isFinite = true) (hx : |x.val| ≤ 1.1) : ¬ Fails x.asin := by
  rw [C43_asin_panic, ← (C18_invsqrt_panic _).2]
  rintro ⟨-, h⟩
  have hxx : |x.val * x.val| ≤ 1.21 := by
    rw [abs_mul]
    refine (mul_le_mul hx hx (abs_nonneg _) (by norm_num)).trans (by norm_num)
  obtain ⟨f1, e1⟩ := mul_err_uf fx fx (lt_of_le_of_lt hxx (by norm_num [ovf]))
  rw [abs_le] at e1 hxx
  have hb : |ONE.val - (x * x).val| ≤ 4 := by
    rw [val_ONE, abs_le]
    have := abs_le.2 hxx
    constructor <;> norm_num at * <;> linarith
  obtain ⟨d, hd, f2, v2⟩ := sub_err fin_ONE f1 2 (by norm_num) (by norm_num) (hb.trans (by norm_num))
  have := C18_threshold _ f2 h
  rw [v2, val_ONE] at this
  have hd := abs_le.1 hd
  have := abs_le.2 hxx
  norm_num at *
  linarith

/-- **C73.** `to_euler` returns in every build mode for finite quaternions of exact squared length at most `1.09`. -/
theorem C73_to_euler_returns (q : Quaternion) (hq : QFinite q) (h : qlen q ≤ 1.09) : Returns q.toEuler := by
  unfold qlen at h
  have na := sq_nonneg q.a.val
  have nb := sq_nonneg q.b.val
  have nc := sq_nonneg q.c.val
  have nd := sq_nonneg q.d.val
  have p1 : |q.a.val * q.c.val| ≤ (q.a.val ^ 2 + q.c.val ^ 2) / 2 := by
    rw [abs_le]; constructor <;> nlinarith [sq_nonneg (q.a.val - q.c.val), sq_nonneg (q.a.val + q.c.val)]
  have p2 : |q.b.val * q.d.val| ≤ (q.b.val ^ 2 + q.d.val ^ 2) / 2 := by
    rw [abs_le]; constructor <;> nlinarith [sq_nonneg (q.b.val - q.d.val), sq_nonneg (q.b.val + q.d.val)]
  have a1 := Acc.mul hq.1 hq.2.2.1 (by norm_num at *; linarith)
  have a2 := Acc.mul hq.2.1 hq.2.2.2 (by norm_num at *; linarith)
  have a3 := (Acc.step a1 a2 (by norm_num at *; linarith)).2
  have e3 := abs_le.1 a3.err
  have b3 := abs_le.1 a3.abs
  have hS : |(q.a * q.c - q.b * q.d).val| ≤ 0.5451 := by
    rw [abs_le]; constructor <;> norm_num at * <;> linarith
  have h2 : (lit 2 1 : F32) = ⟨0x40000000#32⟩ := eval_eq (n := 0x40000000) (by kernel_rfl)
  have f2 : (lit 2 1 : F32).isFinite = true := by rw [h2]; decide
  have v2 : (lit 2 1 : F32).val = 2 := by rw [h2, val_of_units (u := 2 ^ 150) (by decide +kernel)]; norm_num
  have hx : |(lit 2 1 : F32).val * (q.a * q.c - q.b * q.d).val| ≤ 1.0902 := by
    rw [v2, abs_mul, abs_two]; norm_num at *; linarith
  obtain ⟨f, e⟩ := mul_err_uf f2 a3.fin (lt_of_le_of_lt hx (by norm_num [ovf]))
  have hr : ¬ Fails q.toEuler := by
    rw [C73_to_euler_panic]
    refine asin_returns f ?_
    have := abs_sub_abs_le_abs_sub (lit 2 1 * (q.a * q.c - q.b * q.d)).val ((lit 2 1 : F32).val * (q.a * q.c - q.b * q.d).val)
    norm_num at *
    linarith
  rcases h' : q.toEuler with e | r
  · exact absurd ⟨e, h'⟩ hr
  · exact ⟨r, rfl⟩

/-- **C73.** `to_euler` of the result of `normalize` returns in every build mode. -/
theorem C73_to_euler_normalize (q : Quaternion) (hq : QFinite q) (h1 : 1 / 2 ^ 100 ≤ qlen q) (h2 : qlen q ≤ 2 ^ 124) :
    ∃ r, q.normalize = .ok r ∧ Returns r.toEuler := by
  obtain ⟨r, hr, fr, -, hl⟩ := C70_normalize q hq h1 h2
  exact ⟨r, hr, C73_to_euler_returns r fr (by norm_num at *; linarith)⟩

/-- `1 + 2 i - 3 j + 4 k` meets the hypotheses. -/
example : ∃ q : Quaternion, QFinite q ∧ qlen q = 30 := by
  refine ⟨⟨ofInt 1, ofInt 2, ofInt (-3), ofInt 4⟩, ⟨(ofInt_exact (by decide)).1, (ofInt_exact (by decide)).1,
    (ofInt_exact (by decide)).1, (ofInt_exact (by decide)).1⟩, ?_⟩
  unfold qlen
  dsimp only
  rw [(ofInt_exact (n := 1) (by decide)).2, (ofInt_exact (n := 2) (by decide)).2, (ofInt_exact (n := -3) (by decide)).2,
    (ofInt_exact (n := 4) (by decide)).2]
  norm_num

/-- **C73.** Without normalisation it can panic: `1 + j` with overflow checks. -/
theorem C73_to_euler_unnormalized : Cfg.overflowChecks = true → Fails (Quaternion.toEuler ⟨one, posZero, one, posZero⟩) := by
  intro hc
  rw [C73_to_euler_panic]
  have : lit 2 1 * (one * one - posZero * posZero) = ofInt 2 := eval_eq (n := 0x40000000) (by kernel_rfl)
  simp only [this]
  exact C43_asin_outside_false.1 hc

end Micromath.Props
