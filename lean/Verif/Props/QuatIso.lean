import Verif.Props.QuatComp

/-!
# C121: rotations preserve distances, dot products and cross products
-/

set_option exponentiation.threshold 1000

namespace Micromath.Props
open F32 Spec

variable [Cfg] {C D : Type} [IntoF32 C] [IntoF32 D]

omit [Cfg] in
/-- The exact dot product of two vectors. -/
noncomputable def dotR (u : Vector3d C) (v : Vector3d D) : ℝ :=
  (IntoF32.into u.x : F32).val * (IntoF32.into v.x : F32).val + (IntoF32.into u.y : F32).val * (IntoF32.into v.y : F32).val +
    (IntoF32.into u.z : F32).val * (IntoF32.into v.z : F32).val

omit [Cfg] in
/-- The exact cross product of two vectors, as a pure quaternion. -/
noncomputable def crossR (u : Vector3d C) (v : Vector3d D) : _root_.Quaternion ℝ :=
  Geom.pure ((IntoF32.into u.y : F32).val * (IntoF32.into v.z : F32).val - (IntoF32.into u.z : F32).val * (IntoF32.into v.y : F32).val)
    ((IntoF32.into u.z : F32).val * (IntoF32.into v.x : F32).val - (IntoF32.into u.x : F32).val * (IntoF32.into v.z : F32).val)
    ((IntoF32.into u.x : F32).val * (IntoF32.into v.y : F32).val - (IntoF32.into u.y : F32).val * (IntoF32.into v.x : F32).val)

omit [Cfg] in
theorem vreal_mul (u : Vector3d C) (v : Vector3d D) :
    vreal u * vreal v = crossR u v - (dotR u v : _root_.Quaternion ℝ) := by
  refine _root_.Quaternion.ext _ _ ?_ ?_ ?_ ?_
  · rw [_root_.Quaternion.re_mul, _root_.Quaternion.re_sub, _root_.Quaternion.re_coe]
    simp only [vreal, crossR, dotR, Geom.pure_re, Geom.pure_imI, Geom.pure_imJ, Geom.pure_imK]; ring
  · rw [_root_.Quaternion.imI_mul, _root_.Quaternion.imI_sub, _root_.Quaternion.imI_coe]
    simp only [vreal, crossR, Geom.pure_re, Geom.pure_imI, Geom.pure_imJ, Geom.pure_imK]; ring
  · rw [_root_.Quaternion.imJ_mul, _root_.Quaternion.imJ_sub, _root_.Quaternion.imJ_coe]
    simp only [vreal, crossR, Geom.pure_re, Geom.pure_imI, Geom.pure_imJ, Geom.pure_imK]; ring
  · rw [_root_.Quaternion.imK_mul, _root_.Quaternion.imK_sub, _root_.Quaternion.imK_coe]
    simp only [vreal, crossR, Geom.pure_re, Geom.pure_imI, Geom.pure_imJ, Geom.pure_imK]; ring

omit [Cfg] in
/-- Real part and imaginary part of a difference are bounded by its norm. -/
theorem split_norm (p : _root_.Quaternion ℝ) (d : ℝ) (hp : p.re = 0) : ‖p‖ ≤ ‖p - (d : _root_.Quaternion ℝ)‖ ∧ |d| ≤ ‖p - (d : _root_.Quaternion ℝ)‖ := by
  have e : ‖p - (d : _root_.Quaternion ℝ)‖ ^ 2 = ‖p‖ ^ 2 + d ^ 2 := by
    rw [Geom.norm_sq_eq, Geom.norm_sq_eq, _root_.Quaternion.re_sub, _root_.Quaternion.imI_sub, _root_.Quaternion.imJ_sub,
      _root_.Quaternion.imK_sub, _root_.Quaternion.re_coe, _root_.Quaternion.imI_coe, _root_.Quaternion.imJ_coe,
      _root_.Quaternion.imK_coe, hp]
    ring
  constructor
  · refine (sq_le_sq₀ (norm_nonneg _) (norm_nonneg _)).1 ?_
    rw [e]; nlinarith [sq_nonneg d]
  · refine abs_le_of_sq_le_sq ?_ (norm_nonneg _)
    rw [e]; nlinarith [sq_nonneg ‖p‖]

omit [Cfg] in
theorem sand_mul (Q U V : _root_.Quaternion ℝ) {n : ℝ} (hn : ‖Q‖ ^ 2 = n) :
    (Q * U * star Q) * (Q * V * star Q) = n • (Q * (U * V) * star Q) := by
  have hs : star Q * Q = (n : _root_.Quaternion ℝ) := by
    rw [_root_.Quaternion.star_mul_self, _root_.Quaternion.normSq_eq_norm_mul_self, ← hn, sq]
  calc (Q * U * star Q) * (Q * V * star Q) = Q * U * (star Q * Q) * V * star Q := by noncomm_ring
    _ = n • (Q * (U * V) * star Q) := by
      rw [hs, _root_.Quaternion.mul_coe_eq_smul, smul_mul_assoc, smul_mul_assoc, mul_assoc Q U V]

omit [Cfg] in
theorem sand_coe (Q : _root_.Quaternion ℝ) {n : ℝ} (hn : ‖Q‖ ^ 2 = n) (d : ℝ) :
    Q * (d : _root_.Quaternion ℝ) * star Q = ((n * d : ℝ) : _root_.Quaternion ℝ) := by
  rw [_root_.Quaternion.mul_coe_eq_smul, smul_mul_assoc, _root_.Quaternion.self_mul_star,
    _root_.Quaternion.normSq_eq_norm_mul_self, ← sq, hn, ← _root_.Quaternion.coe_smul, smul_eq_mul, mul_comm]

omit [Cfg] in
theorem sand_pure_re (Q : _root_.Quaternion ℝ) {P : _root_.Quaternion ℝ} (hP : P.re = 0) : (Q * P * star Q).re = 0 := by
  simp only [_root_.Quaternion.re_mul, _root_.Quaternion.imI_mul, _root_.Quaternion.imJ_mul, _root_.Quaternion.imK_mul,
    _root_.Quaternion.re_star, _root_.Quaternion.imI_star, _root_.Quaternion.imJ_star, _root_.Quaternion.imK_star, hP]
  ring

/-- The product of two rotated vectors, as quaternions, against the rotated product. -/
theorem rotate_mul_near {q : Quaternion} {u : Vector3d C} {v : Vector3d D} (fq : QFinite q) (fu : VFinite u) (fv : VFinite v)
    (hq : qlen q ≤ 1.1) (hu : len3 u ≤ 2 ^ 236) (hv : len3 v ≤ 2 ^ 236) :
    ‖vreal (q.rotate u) * vreal (q.rotate v) - (qlen q : ℝ) • (qreal q * (vreal u * vreal v) * star (qreal q))‖ ≤
      5.6e-6 * (‖vreal u‖ * ‖vreal v‖) + (‖vreal u‖ + ‖vreal v‖) / 2 ^ 140 + 1 / 2 ^ 280 := by
  have h1 := (rotate_near fq fu (hq.trans (by norm_num)) (hu.trans (by norm_num))).2
  have h2 := (rotate_near fq fv (hq.trans (by norm_num)) (hv.trans (by norm_num))).2
  have hn := qreal_norm q
  have hR := qlen_real hq
  have n0 : (0 : ℝ) ≤ qlen q := by rw [← hn]; positivity
  rw [← sand_mul (qreal q) (vreal u) (vreal v) hn]
  have nS : ∀ X : _root_.Quaternion ℝ, ‖qreal q * X * star (qreal q)‖ ≤ 1.1 * ‖X‖ := fun X => by
    rw [norm_mul, norm_mul, norm_star]
    have : ‖qreal q‖ * ‖X‖ * ‖qreal q‖ = ‖qreal q‖ ^ 2 * ‖X‖ := by ring
    rw [this, hn]
    exact mul_le_mul_of_nonneg_right (by push_cast at hR; exact hR) (norm_nonneg _)
  obtain ⟨A, hA⟩ : ∃ A, A = qreal q * vreal u * star (qreal q) := ⟨_, rfl⟩
  obtain ⟨B, hB⟩ : ∃ B, B = qreal q * vreal v * star (qreal q) := ⟨_, rfl⟩
  have nA := nS (vreal u)
  have nB := nS (vreal v)
  rw [← hA] at h1 nA ⊢
  rw [← hB] at h2 nB ⊢
  have e : vreal (q.rotate u) * vreal (q.rotate v) - A * B =
      A * (vreal (q.rotate v) - B) + (vreal (q.rotate u) - A) * B + (vreal (q.rotate u) - A) * (vreal (q.rotate v) - B) := by
    noncomm_ring
  rw [e]
  refine (norm_add₃_le).trans ?_
  rw [norm_mul, norm_mul, norm_mul]
  have U0 := norm_nonneg (vreal u)
  have V0 := norm_nonneg (vreal v)
  have e0 := norm_nonneg (vreal (q.rotate u) - A)
  have f0 := norm_nonneg (vreal (q.rotate v) - B)
  have A0 := norm_nonneg A
  have B0 := norm_nonneg B
  generalize ‖vreal (q.rotate u) - A‖ = e at *
  generalize ‖vreal (q.rotate v) - B‖ = f at *
  generalize ‖vreal u‖ = U at *
  generalize ‖vreal v‖ = V at *
  generalize ‖A‖ = a at *
  generalize ‖B‖ = b at *
  clear * - h1 h2 nA nB U0 V0 e0 f0 A0 B0
  obtain ⟨t, ht⟩ : ∃ t : ℝ, t = 1 / 2 ^ 141 := ⟨_, rfl⟩
  have t0 : 0 ≤ t := by rw [ht]; positivity
  have h140 : (1 : ℝ) / 2 ^ 140 = 2 * t := by rw [ht]; norm_num
  have h280 : (1 : ℝ) / 2 ^ 280 = 4 * t ^ 2 := by rw [ht]; norm_num
  rw [← ht] at h1 h2
  have k1 : a * f ≤ (1.1 * U) * (2.5e-6 * V + t) := mul_le_mul nA h2 f0 (by positivity)
  have k2 : e * b ≤ (2.5e-6 * U + t) * (1.1 * V) := mul_le_mul h1 nB B0 (by positivity)
  have k3 : e * f ≤ (2.5e-6 * U + t) * (2.5e-6 * V + t) := mul_le_mul h1 h2 f0 (by positivity)
  have e140 : (U + V) / 2 ^ 140 = (U + V) * (2 * t) := by rw [← h140]; ring
  rw [e140, h280]
  have p1 := mul_nonneg U0 V0
  have p2 := mul_nonneg U0 t0
  have p3 := mul_nonneg V0 t0
  norm_num at k1 k2 k3 ⊢
  nlinarith [sq_nonneg t]

/-- **C121.** Rotating two vectors by the same quaternion multiplies their dot product by the fourth power of its length: for a
unit quaternion, lengths and angles are kept. -/
theorem C121_dot {q : Quaternion} {u : Vector3d C} {v : Vector3d D} (fq : QFinite q) (fu : VFinite u) (fv : VFinite v)
    (hq : qlen q ≤ 1.1) (hu : len3 u ≤ 2 ^ 236) (hv : len3 v ≤ 2 ^ 236) :
    |dotR (q.rotate u) (q.rotate v) - (qlen q : ℝ) ^ 2 * dotR u v| ≤
      5.6e-6 * (‖vreal u‖ * ‖vreal v‖) + (‖vreal u‖ + ‖vreal v‖) / 2 ^ 140 + 1 / 2 ^ 280 := by
  refine le_trans ?_ (rotate_mul_near fq fu fv hq hu hv)
  have hn := qreal_norm q
  rw [vreal_mul, vreal_mul, mul_sub, sub_mul, sand_coe _ hn, smul_sub, ← _root_.Quaternion.coe_smul, smul_eq_mul]
  have := (split_norm (crossR (q.rotate u) (q.rotate v) - (qlen q : ℝ) • (qreal q * crossR u v * star (qreal q)))
    (dotR (q.rotate u) (q.rotate v) - (qlen q : ℝ) * (qlen q * dotR u v)) (by
      have z : (crossR u v).re = 0 := Geom.pure_re _ _ _
      have z' : (crossR (q.rotate u) (q.rotate v)).re = 0 := Geom.pure_re _ _ _
      rw [_root_.Quaternion.re_sub, _root_.Quaternion.re_smul, sand_pure_re _ z, z']; simp)).2
  rw [show (qlen q : ℝ) ^ 2 * dotR u v = (qlen q : ℝ) * (qlen q * dotR u v) by ring]
  refine this.trans (le_of_eq (congrArg _ ?_))
  rw [_root_.Quaternion.coe_sub]; abel

/-- **C121.** The cross product of rotated vectors is the rotated cross product, times the squared length of the quaternion: the turn
keeps handedness. -/
theorem C121_cross {q : Quaternion} {u : Vector3d C} {v : Vector3d D} (fq : QFinite q) (fu : VFinite u) (fv : VFinite v)
    (hq : qlen q ≤ 1.1) (hu : len3 u ≤ 2 ^ 236) (hv : len3 v ≤ 2 ^ 236) :
    ‖crossR (q.rotate u) (q.rotate v) - (qlen q : ℝ) • (qreal q * crossR u v * star (qreal q))‖ ≤
      5.6e-6 * (‖vreal u‖ * ‖vreal v‖) + (‖vreal u‖ + ‖vreal v‖) / 2 ^ 140 + 1 / 2 ^ 280 := by
  refine le_trans ?_ (rotate_mul_near fq fu fv hq hu hv)
  have hn := qreal_norm q
  rw [vreal_mul, vreal_mul, mul_sub, sub_mul, sand_coe _ hn, smul_sub, ← _root_.Quaternion.coe_smul, smul_eq_mul]
  have := (split_norm (crossR (q.rotate u) (q.rotate v) - (qlen q : ℝ) • (qreal q * crossR u v * star (qreal q)))
    (dotR (q.rotate u) (q.rotate v) - (qlen q : ℝ) * (qlen q * dotR u v)) (by
      have z : (crossR u v).re = 0 := Geom.pure_re _ _ _
      have z' : (crossR (q.rotate u) (q.rotate v)).re = 0 := Geom.pure_re _ _ _
      rw [_root_.Quaternion.re_sub, _root_.Quaternion.re_smul, sand_pure_re _ z, z']; simp)).1
  refine this.trans (le_of_eq (congrArg _ ?_))
  rw [_root_.Quaternion.coe_sub]; abel

/-- **C121.** The distance of two rotated vectors is their distance, times the squared length of the quaternion. -/
theorem C121_distance {q : Quaternion} {u : Vector3d C} {v : Vector3d D} (fq : QFinite q) (fu : VFinite u) (fv : VFinite v)
    (hq : qlen q ≤ 1.1) (hu : len3 u ≤ 2 ^ 236) (hv : len3 v ≤ 2 ^ 236) :
    |‖vreal (q.rotate u) - vreal (q.rotate v)‖ - (qlen q : ℝ) * ‖vreal u - vreal v‖| ≤
      2.5e-6 * (‖vreal u‖ + ‖vreal v‖) + 1 / 2 ^ 140 := by
  have h1 := (rotate_near fq fu (hq.trans (by norm_num)) (hu.trans (by norm_num))).2
  have h2 := (rotate_near fq fv (hq.trans (by norm_num)) (hv.trans (by norm_num))).2
  have hn := qreal_norm q
  have e : (qlen q : ℝ) * ‖vreal u - vreal v‖ = ‖qreal q * vreal u * star (qreal q) - qreal q * vreal v * star (qreal q)‖ := by
    rw [← sub_mul, ← mul_sub, norm_mul, norm_mul, norm_star, ← hn]; ring
  rw [e]
  refine (abs_norm_sub_norm_le _ _).trans ?_
  have : vreal (q.rotate u) - vreal (q.rotate v) - (qreal q * vreal u * star (qreal q) - qreal q * vreal v * star (qreal q)) =
      (vreal (q.rotate u) - qreal q * vreal u * star (qreal q)) - (vreal (q.rotate v) - qreal q * vreal v * star (qreal q)) := by abel
  rw [this]
  refine (norm_sub_le _ _).trans ?_
  generalize ‖vreal (q.rotate u) - qreal q * vreal u * star (qreal q)‖ = a at *
  generalize ‖vreal (q.rotate v) - qreal q * vreal v * star (qreal q)‖ = b at *
  clear * - h1 h2
  norm_num at *
  linarith

/-- The hypotheses hold for the turn `(3i + 4j) / 5` (components rounded) and the perpendicular vectors `(1, 2, 2)`, `(2, 1, -2)`. -/
example : let q : Quaternion := ⟨posZero, lit 6 10, lit 8 10, posZero⟩
    let u : Vector3d F32 := ⟨ofInt 1, ofInt 2, ofInt 2⟩
    let v : Vector3d F32 := ⟨ofInt 2, ofInt 1, ofInt (-2)⟩
    dotR u v = 0 ∧ |dotR (q.rotate u) (q.rotate v)| ≤ 6e-5 := by
  intro q u v
  have v6 : (lit 6 10 : F32).val = 10066330 / 2 ^ 24 := by
    have := val_of_units (x := lit 6 10) (u := 10066330 * 2 ^ 125) (by decide +kernel)
    rw [this]; norm_num
  have v8 : (lit 8 10 : F32).val = 13421773 / 2 ^ 24 := by
    have := val_of_units (x := lit 8 10) (u := 13421773 * 2 ^ 125) (by decide +kernel)
    rw [this]; norm_num
  have i1 := ofInt_isVal (n := 1) (by norm_num)
  have i2 := ofInt_isVal (n := 2) (by norm_num)
  have i3 := ofInt_isVal (n := -2) (by norm_num)
  have l1 : len3 u = 9 := by
    have : len3 u = (ofInt 1 : F32).val ^ 2 + (ofInt 2 : F32).val ^ 2 + (ofInt 2 : F32).val ^ 2 := rfl
    rw [this, i1.2, i2.2]; norm_num
  have l2 : len3 v = 9 := by
    have : len3 v = (ofInt 2 : F32).val ^ 2 + (ofInt 1 : F32).val ^ 2 + (ofInt (-2) : F32).val ^ 2 := rfl
    rw [this, i1.2, i2.2, i3.2]; norm_num
  have d0 : dotR u v = 0 := by
    have : dotR u v = ((ofInt 1 : F32).val * (ofInt 2 : F32).val + (ofInt 2 : F32).val * (ofInt 1 : F32).val +
      (ofInt 2 : F32).val * (ofInt (-2) : F32).val : ℝ) := rfl
    rw [this, i1.2, i2.2, i3.2]; norm_num
  have n1 : ‖vreal u‖ = 3 := by
    have h := vreal_norm u
    rw [l1] at h
    have : ‖vreal u‖ ^ 2 = 3 ^ 2 := by rw [h]; norm_num
    exact (sq_eq_sq₀ (norm_nonneg _) (by norm_num)).1 this
  have n2 : ‖vreal v‖ = 3 := by
    have h := vreal_norm v
    rw [l2] at h
    have : ‖vreal v‖ ^ 2 = 3 ^ 2 := by rw [h]; norm_num
    exact (sq_eq_sq₀ (norm_nonneg _) (by norm_num)).1 this
  have h := C121_dot (q := q) (u := u) (v := v) ⟨fin_posZero, by decide +kernel, by decide +kernel, fin_posZero⟩ ⟨i1.1, i2.1, i2.1⟩
    ⟨i2.1, i1.1, i3.1⟩ (by simp only [qlen, q, v6, v8, val_posZero]; norm_num) (by rw [l1]; norm_num) (by rw [l2]; norm_num)
  refine ⟨d0, ?_⟩
  rw [d0, mul_zero, sub_zero, n1, n2] at h
  refine h.trans (by norm_num)

end Micromath.Props
