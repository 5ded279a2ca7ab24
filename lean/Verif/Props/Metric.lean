import Verif.Props.NormOrder
import Verif.Props.VecNorm
import Verif.Props.VecErr

/-!
# C135: `distance`, `magnitude`, `hypot` and `dot` as a metric

Order of distances, the triangle inequality and the Cauchy-Schwarz inequality, with the slack left by the 6% error of `sqrt`.
-/

set_option exponentiation.threshold 1000

namespace Micromath.Props
open F32 Spec
variable [Cfg]

/-! ### Order -/

/-- A nonempty sum of squares of numbers has the sign of plus zero. -/
theorem sumSq_sign {l : List F32} (hl : ∀ x ∈ l, x.isNaN = false) (hne : l ≠ []) : (F32.sum (l.map fun x => x * x)).sign = false := by
  have hz : Cfg.sumZero.isNaN = false ∧ Cfg.sumZero.mag = 0 := by
    rcases Cfg.sumZero_spec with h | h <;> rw [h] <;> exact ⟨by decide, by decide⟩
  exact (sumSq_fold l hl Cfg.sumZero hz.1 (.inr hz.2) (by rw [hz.2]; exact Nat.zero_le _)).2.1.resolve_right hne

/-- `sqrt` keeps the order of two sums of squares whose exact values differ relatively by `2^-20`. -/
theorem sqrt_sumSq_le {S T : F32} {P Q : ℚ} (hS : SumSq S P) (hT : SumSq T Q) (sS : S.sign = false) (sT : T.sign = false)
    (h1 : 1 / 2 ^ 100 ≤ Q) (h : P * (1 + 1 / 2 ^ 20) ≤ Q) : S.sqrt.le T.sqrt = true := by
  refine (C15_sqrt S).2.2 T sS sT ?_
  rw [le_iff hS.1 hT.1]
  have e1 := (abs_le.1 hS.2).2
  have e2 := (abs_le.1 hT.2).1
  norm_num at e1 e2 h h1 ⊢
  linarith

omit [Cfg] in
/-- From two sides of a triangle to the third, on squares. -/
theorem triangle_sq {A B S c P Q R : ℚ} (hB : 0 ≤ B) (hS : S ^ 2 ≤ A * B) (hc : 0 ≤ c) (hP : 0 ≤ P) (hQ : 0 ≤ Q)
    (h1 : A ≤ c * P ^ 2) (h2 : B ≤ c * Q ^ 2) (hR : R = A + 2 * S + B) : R ≤ c * (P + Q) ^ 2 := by
  have k : S ^ 2 ≤ (c * (P * Q)) ^ 2 := by
    refine hS.trans ((mul_le_mul h1 h2 hB (by positivity)).trans (le_of_eq (by ring)))
  have := (le_abs_self S).trans (abs_le_of_sq_le_sq k (by positivity))
  rw [hR]
  nlinarith

section
variable {C : Type} [Component C] [IntoF32 C]

/-- **C135, order of distances.** If the exact squared distances from `a` to `b` and from `a'` to `b'` differ relatively by at
least `2^-18`, `distance` puts them in the same order. This holds although `distance` itself is off by up to 6%. -/
theorem C135_distance_order2 {a b a' b' : Vector2d C} (fa : ∀ x ∈ floats2 a, x.isFinite = true) (fb : ∀ x ∈ floats2 b, x.isFinite = true)
    (fa' : ∀ x ∈ floats2 a', x.isFinite = true) (fb' : ∀ x ∈ floats2 b', x.isFinite = true)
    (h1 : 1 / 2 ^ 99 ≤ dist2 a' b') (h2 : dist2 a' b' ≤ 2 ^ 123) (h : dist2 a b * (1 + 1 / 2 ^ 18) ≤ dist2 a' b') :
    (VectorTrait.distance a b).le (VectorTrait.distance a' b') = true := by
  simp only [floats2, List.mem_cons, List.not_mem_nil, or_false, forall_eq_or_imp, forall_eq] at fa fb fa' fb'
  have p : ∀ u v : Vector2d C, 0 ≤ dist2 u v := fun u v => by unfold dist2; positivity
  have side : ∀ {u v : Vector2d C}, ((IntoF32.into u.x : F32).isFinite = true ∧ (IntoF32.into u.y : F32).isFinite = true) →
      ((IntoF32.into v.x : F32).isFinite = true ∧ (IntoF32.into v.y : F32).isFinite = true) → dist2 u v ≤ 2 ^ 123 →
      ∃ S Q, VectorTrait.distance u v = S.sqrt ∧ SumSq S Q ∧ S.sign = false ∧ (1 - 1 / 2 ^ 22) * dist2 u v ≤ Q ∧ Q ≤ (1 + 1 / 2 ^ 22) * dist2 u v := by
    intro u v hu hv hd
    have n1 := sq_nonneg ((IntoF32.into u.x : F32).val - (IntoF32.into v.x : F32).val)
    have n2 := sq_nonneg ((IntoF32.into u.y : F32).val - (IntoF32.into v.y : F32).val)
    unfold dist2 at hd ⊢
    obtain ⟨f1, a1, a2⟩ := sq_sub_rel hu.1 hv.1 (by linarith)
    obtain ⟨f2, b1, b2⟩ := sq_sub_rel hu.2 hv.2 (by linarith)
    refine ⟨_, _, distance2_eq u v, sumSq2 f1 f2 (by norm_num at *; linarith), ?_, by linarith, by linarith⟩
    exact sumSq_sign (l := [_, _]) (by simp [not_nan_of_finite f1, not_nan_of_finite f2]) (by simp)
  have pd := p a b
  obtain ⟨S, P, e1, s1, t1, u1, w1⟩ := side fa fb (by norm_num at h h2 ⊢; linarith)
  obtain ⟨T, Q, e2, s2, t2, u2, w2⟩ := side fa' fb' h2
  rw [e1, e2]
  refine sqrt_sumSq_le s1 s2 t1 t2 ?_ ?_
  · norm_num at u2 h1 ⊢; linarith
  · norm_num at w1 u2 h ⊢; linarith

/-- **C135, order of distances in space.** -/
theorem C135_distance_order3 {a b a' b' : Vector3d C} (fa : ∀ x ∈ floats3 a, x.isFinite = true) (fb : ∀ x ∈ floats3 b, x.isFinite = true)
    (fa' : ∀ x ∈ floats3 a', x.isFinite = true) (fb' : ∀ x ∈ floats3 b', x.isFinite = true)
    (h1 : 1 / 2 ^ 99 ≤ dist3 a' b') (h2 : dist3 a' b' ≤ 2 ^ 123) (h : dist3 a b * (1 + 1 / 2 ^ 18) ≤ dist3 a' b') :
    (VectorTrait.distance a b).le (VectorTrait.distance a' b') = true := by
  simp only [floats3, List.mem_cons, List.not_mem_nil, or_false, forall_eq_or_imp, forall_eq] at fa fb fa' fb'
  have p : ∀ u v : Vector3d C, 0 ≤ dist3 u v := fun u v => by unfold dist3; positivity
  have side : ∀ {u v : Vector3d C}, ((IntoF32.into u.x : F32).isFinite = true ∧ (IntoF32.into u.y : F32).isFinite = true ∧ (IntoF32.into u.z : F32).isFinite = true) →
      ((IntoF32.into v.x : F32).isFinite = true ∧ (IntoF32.into v.y : F32).isFinite = true ∧ (IntoF32.into v.z : F32).isFinite = true) → dist3 u v ≤ 2 ^ 123 →
      ∃ S Q, VectorTrait.distance u v = S.sqrt ∧ SumSq S Q ∧ S.sign = false ∧ (1 - 1 / 2 ^ 22) * dist3 u v ≤ Q ∧ Q ≤ (1 + 1 / 2 ^ 22) * dist3 u v := by
    intro u v hu hv hd
    have n1 := sq_nonneg ((IntoF32.into u.x : F32).val - (IntoF32.into v.x : F32).val)
    have n2 := sq_nonneg ((IntoF32.into u.y : F32).val - (IntoF32.into v.y : F32).val)
    have n3 := sq_nonneg ((IntoF32.into u.z : F32).val - (IntoF32.into v.z : F32).val)
    unfold dist3 at hd ⊢
    obtain ⟨f1, a1, a2⟩ := sq_sub_rel hu.1 hv.1 (by linarith)
    obtain ⟨f2, b1, b2⟩ := sq_sub_rel hu.2.1 hv.2.1 (by linarith)
    obtain ⟨f3, c1, c2⟩ := sq_sub_rel hu.2.2 hv.2.2 (by linarith)
    refine ⟨_, _, distance3_eq u v, sumSq3 f1 f2 f3 (by norm_num at *; linarith), ?_, by linarith, by linarith⟩
    exact sumSq_sign (l := [_, _, _]) (by simp [not_nan_of_finite f1, not_nan_of_finite f2, not_nan_of_finite f3]) (by simp)
  have pd := p a b
  obtain ⟨S, P, e1, s1, t1, u1, w1⟩ := side fa fb (by norm_num at h h2 ⊢; linarith)
  obtain ⟨T, Q, e2, s2, t2, u2, w2⟩ := side fa' fb' h2
  rw [e1, e2]
  refine sqrt_sumSq_le s1 s2 t1 t2 ?_ ?_
  · norm_num at u2 h1 ⊢; linarith
  · norm_num at w1 u2 h ⊢; linarith

/-- **C135, order of magnitudes.** If the exact squared lengths differ relatively by at least `2^-20`, `magnitude` puts the
vectors in the same order. -/
theorem C135_magnitude_order {u v : Vector2d C} {u' v' : Vector3d C} :
    ((∀ x ∈ floats2 u, x.isFinite = true) → (∀ x ∈ floats2 v, x.isFinite = true) → 1 / 2 ^ 100 ≤ len2 v → len2 v ≤ 2 ^ 124 →
      len2 u * (1 + 1 / 2 ^ 20) ≤ len2 v → (VectorTrait.magnitude u).le (VectorTrait.magnitude v) = true) ∧
    ((∀ x ∈ floats3 u', x.isFinite = true) → (∀ x ∈ floats3 v', x.isFinite = true) → 1 / 2 ^ 100 ≤ len3 v' → len3 v' ≤ 2 ^ 124 →
      len3 u' * (1 + 1 / 2 ^ 20) ≤ len3 v' → (VectorTrait.magnitude u').le (VectorTrait.magnitude v') = true) := by
  constructor
  · intro fu fv h1 h2 h
    have p : 0 ≤ len2 u := by unfold len2; positivity
    have su := sumSq_sign (l := floats2 u) (fun x hx => not_nan_of_finite (fu x hx)) (by simp [floats2])
    have sv := sumSq_sign (l := floats2 v) (fun x hx => not_nan_of_finite (fv x hx)) (by simp [floats2])
    rw [magnitude2_eq, magnitude2_eq]
    simp only [floats2, List.mem_cons, List.not_mem_nil, or_false, forall_eq_or_imp, forall_eq] at fu fv
    exact sqrt_sumSq_le (sumSq2 fu.1 fu.2 (by show len2 u ≤ _; norm_num at h h2 ⊢; linarith)) (sumSq2 fv.1 fv.2 h2) su sv h1 h
  · intro fu fv h1 h2 h
    have p : 0 ≤ len3 u' := by unfold len3; positivity
    have su := sumSq_sign (l := floats3 u') (fun x hx => not_nan_of_finite (fu x hx)) (by simp [floats3])
    have sv := sumSq_sign (l := floats3 v') (fun x hx => not_nan_of_finite (fv x hx)) (by simp [floats3])
    rw [magnitude3_eq, magnitude3_eq]
    simp only [floats3, List.mem_cons, List.not_mem_nil, or_false, forall_eq_or_imp, forall_eq] at fu fv
    exact sqrt_sumSq_le (sumSq3 fu.1 fu.2.1 fu.2.2 (by show len3 u' ≤ _; norm_num at h h2 ⊢; linarith))
      (sumSq3 fv.1 fv.2.1 fv.2.2 h2) su sv h1 h

/-! ### The triangle inequality -/

omit [Cfg] in
theorem triangle_close {x y z X Y Z S : ℚ} (hx : 0 < x) (hy : 0 < y) (Y0 : 0 ≤ Y)
    (bx : (1 - 1 / 2 ^ 19) * X ≤ x ^ 2) (bY : (1 - 1 / 2 ^ 19) * Y ≤ y ^ 2) (bz : z ^ 2 ≤ 9 / 8 * (1 + 1 / 2 ^ 19) * Z)
    (hS : S ^ 2 ≤ X * Y) (hZ : Z = X + 2 * S + Y) : z ≤ 1.0607 * (x + y) := by
  have t := triangle_sq (c := 1 / (1 - 1 / 2 ^ 19)) Y0 hS (by norm_num) hx.le hy.le
    (by rw [one_div, inv_mul_eq_div, le_div_iff₀ (by norm_num)]; linarith)
    (by rw [one_div, inv_mul_eq_div, le_div_iff₀ (by norm_num)]; linarith) hZ
  refine le_of_sq_le_sq ?_ (by positivity)
  have q : 0 ≤ (x + y) ^ 2 := by positivity
  rw [mul_pow]
  generalize (x + y) ^ 2 = w at *
  norm_num at t bz ⊢
  linarith

/-- **C135, triangle inequality of `distance` in the plane.** -/
theorem C135_triangle2 {u v w : Vector2d C} (fu : ∀ x ∈ floats2 u, x.isFinite = true) (fv : ∀ x ∈ floats2 v, x.isFinite = true)
    (fw : ∀ x ∈ floats2 w, x.isFinite = true) (h1 : 1 / 2 ^ 99 ≤ dist2 u v) (h1' : dist2 u v ≤ 2 ^ 123)
    (h2 : 1 / 2 ^ 99 ≤ dist2 v w) (h2' : dist2 v w ≤ 2 ^ 123) (h3 : 1 / 2 ^ 99 ≤ dist2 u w) (h3' : dist2 u w ≤ 2 ^ 123) :
    (VectorTrait.distance u w).val ≤ 1.0607 * ((VectorTrait.distance u v).val + (VectorTrait.distance v w).val) := by
  simp only [floats2, List.mem_cons, List.not_mem_nil, or_false, forall_eq_or_imp, forall_eq] at fu fv fw
  obtain ⟨-, p1, a1, -⟩ := C62_distance2 u v fu.1 fu.2 fv.1 fv.2 h1 h1'
  obtain ⟨-, p2, a2, -⟩ := C62_distance2 v w fv.1 fv.2 fw.1 fw.2 h2 h2'
  obtain ⟨-, -, -, a3⟩ := C62_distance2 u w fu.1 fu.2 fw.1 fw.2 h3 h3'
  refine triangle_close (S := ((IntoF32.into u.x : F32).val - (IntoF32.into v.x : F32).val) * ((IntoF32.into v.x : F32).val - (IntoF32.into w.x : F32).val) +
    ((IntoF32.into u.y : F32).val - (IntoF32.into v.y : F32).val) * ((IntoF32.into v.y : F32).val - (IntoF32.into w.y : F32).val))
    p1 p2 (add_nonneg (sq_nonneg _) (sq_nonneg _)) a1 a2 a3 ?_ (by unfold dist2; ring)
  unfold dist2
  generalize (IntoF32.into u.x : F32).val - (IntoF32.into v.x : F32).val = a
  generalize (IntoF32.into u.y : F32).val - (IntoF32.into v.y : F32).val = b
  generalize (IntoF32.into v.x : F32).val - (IntoF32.into w.x : F32).val = c
  generalize (IntoF32.into v.y : F32).val - (IntoF32.into w.y : F32).val = d
  nlinarith [sq_nonneg (a * d - b * c)]

/-- **C135, triangle inequality of `distance` in space.** -/
theorem C135_triangle3 {u v w : Vector3d C} (fu : ∀ x ∈ floats3 u, x.isFinite = true) (fv : ∀ x ∈ floats3 v, x.isFinite = true)
    (fw : ∀ x ∈ floats3 w, x.isFinite = true) (h1 : 1 / 2 ^ 99 ≤ dist3 u v) (h1' : dist3 u v ≤ 2 ^ 123)
    (h2 : 1 / 2 ^ 99 ≤ dist3 v w) (h2' : dist3 v w ≤ 2 ^ 123) (h3 : 1 / 2 ^ 99 ≤ dist3 u w) (h3' : dist3 u w ≤ 2 ^ 123) :
    (VectorTrait.distance u w).val ≤ 1.0607 * ((VectorTrait.distance u v).val + (VectorTrait.distance v w).val) := by
  simp only [floats3, List.mem_cons, List.not_mem_nil, or_false, forall_eq_or_imp, forall_eq] at fu fv fw
  obtain ⟨-, p1, a1, -⟩ := C62_distance3 u v fu.1 fu.2.1 fu.2.2 fv.1 fv.2.1 fv.2.2 h1 h1'
  obtain ⟨-, p2, a2, -⟩ := C62_distance3 v w fv.1 fv.2.1 fv.2.2 fw.1 fw.2.1 fw.2.2 h2 h2'
  obtain ⟨-, -, -, a3⟩ := C62_distance3 u w fu.1 fu.2.1 fu.2.2 fw.1 fw.2.1 fw.2.2 h3 h3'
  refine triangle_close (S := ((IntoF32.into u.x : F32).val - (IntoF32.into v.x : F32).val) * ((IntoF32.into v.x : F32).val - (IntoF32.into w.x : F32).val) +
    ((IntoF32.into u.y : F32).val - (IntoF32.into v.y : F32).val) * ((IntoF32.into v.y : F32).val - (IntoF32.into w.y : F32).val) +
    ((IntoF32.into u.z : F32).val - (IntoF32.into v.z : F32).val) * ((IntoF32.into v.z : F32).val - (IntoF32.into w.z : F32).val))
    p1 p2 (add_nonneg (add_nonneg (sq_nonneg _) (sq_nonneg _)) (sq_nonneg _)) a1 a2 a3 ?_ (by unfold dist3; ring)
  unfold dist3
  generalize (IntoF32.into u.x : F32).val - (IntoF32.into v.x : F32).val = a
  generalize (IntoF32.into u.y : F32).val - (IntoF32.into v.y : F32).val = b
  generalize (IntoF32.into u.z : F32).val - (IntoF32.into v.z : F32).val = b'
  generalize (IntoF32.into v.x : F32).val - (IntoF32.into w.x : F32).val = c
  generalize (IntoF32.into v.y : F32).val - (IntoF32.into w.y : F32).val = d
  generalize (IntoF32.into v.z : F32).val - (IntoF32.into w.z : F32).val = d'
  nlinarith [sq_nonneg (a * d - b * c), sq_nonneg (a * d' - b' * c), sq_nonneg (b * d' - b' * d)]

end

/-! ### Cauchy-Schwarz -/

omit [Cfg] in
theorem cauchy_close {W A B m n : ℚ} (B0 : 0 ≤ B) (m0 : 0 < m) (n0 : 0 < n) (hWW : W ^ 2 ≤ A * B)
    (hm : (1 - 1 / 2 ^ 20) * A ≤ m ^ 2) (hn : (1 - 1 / 2 ^ 20) * B ≤ n ^ 2) : (1 - 1 / 2 ^ 20) * W ≤ m * n := by
  refine le_of_sq_le_sq ?_ (by positivity)
  calc ((1 - 1 / 2 ^ 20) * W) ^ 2 = (1 - 1 / 2 ^ 20) ^ 2 * W ^ 2 := by ring
    _ ≤ (1 - 1 / 2 ^ 20) ^ 2 * (A * B) := mul_le_mul_of_nonneg_left hWW (by norm_num)
    _ = ((1 - 1 / 2 ^ 20) * A) * ((1 - 1 / 2 ^ 20) * B) := by ring
    _ ≤ m ^ 2 * n ^ 2 := mul_le_mul hm hn (mul_nonneg (by norm_num) B0) (by positivity)
    _ = (m * n) ^ 2 := by ring

/-- **C135, Cauchy-Schwarz in the plane.** `|dot(u, v)| <= |u| |v| (1 + 1.2e-6) + 2^-148` with the computed `dot` and
magnitudes, and the same for `perpendicular_dot`. -/
theorem C135_cauchy2 {u v : Vector2d F32} (fu : ∀ x ∈ floats2 u, x.isFinite = true) (fv : ∀ x ∈ floats2 v, x.isFinite = true)
    (h1 : 1 / 2 ^ 100 ≤ len2 u) (h1' : len2 u ≤ 2 ^ 124) (h2 : 1 / 2 ^ 100 ≤ len2 v) (h2' : len2 v ≤ 2 ^ 124) :
    (∃ r, u.dot v = .ok r ∧ r.isFinite = true ∧
      |r.val| ≤ (VectorTrait.magnitude u).val * (VectorTrait.magnitude v).val * (1 + 1.2 / 10 ^ 6) + 1 / 2 ^ 148) ∧
    (∃ r, u.perpendicularDot v = .ok r ∧ r.isFinite = true ∧
      |r.val| ≤ (VectorTrait.magnitude u).val * (VectorTrait.magnitude v).val * (1 + 1.2 / 10 ^ 6) + 1 / 2 ^ 148) := by
  simp only [floats2, List.mem_cons, List.not_mem_nil, or_false, forall_eq_or_imp, forall_eq] at fu fv
  obtain ⟨-, p1, a1, -⟩ := C62_magnitude2 u fu.1 fu.2 h1 h1'
  obtain ⟨-, p2, a2, -⟩ := C62_magnitude2 v fv.1 fv.2 h2 h2'
  obtain ⟨D, E⟩ := C107_dot2 u v fu.1 fu.2 fv.1 fv.2
  have lu : len2 u = u.x.val ^ 2 + u.y.val ^ 2 := rfl
  have lv : len2 v = v.x.val ^ 2 + v.y.val ^ 2 := rfl
  generalize (VectorTrait.magnitude u).val = m at *
  generalize (VectorTrait.magnitude v).val = n at *
  rw [abs_mul, abs_mul] at D E
  have sx := sq_abs u.x.val
  have sy := sq_abs u.y.val
  have tx := sq_abs v.x.val
  have ty := sq_abs v.y.val
  have fin : ∀ {r s W : ℚ}, (1 - 1 / 2 ^ 20) * W ≤ m * n → |s| ≤ W → |r - s| ≤ 3 / 2 ^ 24 * W + 1 / 2 ^ 148 →
      |r| ≤ m * n * (1 + 1.2 / 10 ^ 6) + 1 / 2 ^ 148 := by
    intro r s W hW hs hr
    have := abs_sub_abs_le_abs_sub r s
    norm_num at hW hr ⊢
    have := abs_nonneg s
    linarith
  constructor
  · obtain ⟨r, e, f, g⟩ := D (by
      nlinarith [sq_nonneg (|u.x.val| - |v.x.val|), sq_nonneg (|u.y.val| - |v.y.val|)])
    refine ⟨r, e, f, fin (cauchy_close (by rw [lv]; positivity) p1 p2 ?_ a1 a2) ?_ g⟩
    · rw [lu, lv, ← sx, ← sy, ← tx, ← ty]
      nlinarith [sq_nonneg (|u.x.val| * |v.y.val| - |u.y.val| * |v.x.val|)]
    · refine (abs_add_le _ _).trans (le_of_eq ?_)
      rw [abs_mul, abs_mul]
  · obtain ⟨r, e, f, g⟩ := E (by
      nlinarith [sq_nonneg (|u.x.val| - |v.y.val|), sq_nonneg (|u.y.val| - |v.x.val|)])
    refine ⟨r, e, f, fin (cauchy_close (by rw [lv]; positivity) p1 p2 ?_ a1 a2) ?_ g⟩
    · rw [lu, lv, ← sx, ← sy, ← tx, ← ty]
      nlinarith [sq_nonneg (|u.x.val| * |v.x.val| - |u.y.val| * |v.y.val|)]
    · refine (abs_sub _ _).trans (le_of_eq ?_)
      rw [abs_mul, abs_mul]

/-- **C135, Cauchy-Schwarz in space.** -/
theorem C135_cauchy3 {u v : Vector3d F32} (fu : ∀ x ∈ floats3 u, x.isFinite = true) (fv : ∀ x ∈ floats3 v, x.isFinite = true)
    (h1 : 1 / 2 ^ 100 ≤ len3 u) (h1' : len3 u ≤ 2 ^ 124) (h2 : 1 / 2 ^ 100 ≤ len3 v) (h2' : len3 v ≤ 2 ^ 124) :
    ∃ r, u.dot v = .ok r ∧ r.isFinite = true ∧
      |r.val| ≤ (VectorTrait.magnitude u).val * (VectorTrait.magnitude v).val * (1 + 1.2 / 10 ^ 6) + 1 / 2 ^ 147 := by
  simp only [floats3, List.mem_cons, List.not_mem_nil, or_false, forall_eq_or_imp, forall_eq] at fu fv
  obtain ⟨-, p1, a1, -⟩ := C62_magnitude3 u fu.1 fu.2.1 fu.2.2 h1 h1'
  obtain ⟨-, p2, a2, -⟩ := C62_magnitude3 v fv.1 fv.2.1 fv.2.2 h2 h2'
  have D := C107_dot3 u v fu.1 fu.2.1 fu.2.2 fv.1 fv.2.1 fv.2.2
  have lu : len3 u = u.x.val ^ 2 + u.y.val ^ 2 + u.z.val ^ 2 := rfl
  have lv : len3 v = v.x.val ^ 2 + v.y.val ^ 2 + v.z.val ^ 2 := rfl
  generalize (VectorTrait.magnitude u).val = m at *
  generalize (VectorTrait.magnitude v).val = n at *
  rw [abs_mul, abs_mul, abs_mul] at D
  have sx := sq_abs u.x.val
  have sy := sq_abs u.y.val
  have sz := sq_abs u.z.val
  have tx := sq_abs v.x.val
  have ty := sq_abs v.y.val
  have tz := sq_abs v.z.val
  obtain ⟨r, e, f, g⟩ := D (by
    nlinarith [sq_nonneg (|u.x.val| - |v.x.val|), sq_nonneg (|u.y.val| - |v.y.val|), sq_nonneg (|u.z.val| - |v.z.val|)])
  refine ⟨r, e, f, ?_⟩
  have hW := cauchy_close (W := |u.x.val| * |v.x.val| + |u.y.val| * |v.y.val| + |u.z.val| * |v.z.val|) (A := len3 u) (B := len3 v)
    (by rw [lv]; positivity) p1 p2 (by
      rw [lu, lv, ← sx, ← sy, ← sz, ← tx, ← ty, ← tz]
      nlinarith [sq_nonneg (|u.x.val| * |v.y.val| - |u.y.val| * |v.x.val|), sq_nonneg (|u.x.val| * |v.z.val| - |u.z.val| * |v.x.val|),
        sq_nonneg (|u.y.val| * |v.z.val| - |u.z.val| * |v.y.val|)]) a1 a2
  have hs : |u.x.val * v.x.val + u.y.val * v.y.val + u.z.val * v.z.val| ≤ |u.x.val| * |v.x.val| + |u.y.val| * |v.y.val| + |u.z.val| * |v.z.val| := by
    rw [← abs_mul, ← abs_mul, ← abs_mul]
    exact abs_add_three _ _ _
  generalize |u.x.val| * |v.x.val| + |u.y.val| * |v.y.val| + |u.z.val| * |v.z.val| = W at *
  generalize u.x.val * v.x.val + u.y.val * v.y.val + u.z.val * v.z.val = s at *
  have := abs_sub_abs_le_abs_sub r.val s
  have := abs_nonneg s
  norm_num at hW g ⊢
  linarith

/-! ### `hypot` -/

/-- **C135, `hypot` between the larger leg and the sum of the legs.** For finite legs with exact squared hypotenuse in
`2^-100 .. 2^124`, `hypot` is at least `1 - 2^-20` times the larger leg and at most `1.0607` times the sum of the legs. -/
theorem C135_hypot {x y : F32} (fx : x.isFinite = true) (fy : y.isFinite = true) (h1 : 1 / 2 ^ 100 ≤ x.val ^ 2 + y.val ^ 2)
    (h2 : x.val ^ 2 + y.val ^ 2 ≤ 2 ^ 124) :
    (1 - 1 / 2 ^ 20) * max |x.val| |y.val| ≤ (x.hypot y).val ∧ (x.hypot y).val ≤ 1.0607 * (|x.val| + |y.val|) := by
  have hS : SumSq (x * x + y * y) (x.val ^ 2 + y.val ^ 2) := by
    obtain ⟨⟨f, e⟩, -⟩ := two_err fx fy fx fy (by rw [abs_mul_self, abs_mul_self]; nlinarith)
    rw [abs_mul_self, abs_mul_self] at e
    refine ⟨f, ?_⟩
    rw [sq, sq]
    refine e.trans ?_
    have := mul_self_nonneg x.val
    have := mul_self_nonneg y.val
    norm_num; linarith
  obtain ⟨f, p, a, b⟩ := hS.sqrt h1
  have hh : x.hypot y = (x * x + y * y).sqrt := rfl
  rw [hh]
  generalize (x * x + y * y).sqrt.val = z at *
  have sx := sq_abs x.val
  have sy := sq_abs y.val
  have ax := abs_nonneg x.val
  have ay := abs_nonneg y.val
  rw [← sx, ← sy] at a b
  generalize |x.val| = X at *
  generalize |y.val| = Y at *
  have low : ∀ {w : ℚ}, 0 ≤ w → w ^ 2 ≤ X ^ 2 + Y ^ 2 → (1 - 1 / 2 ^ 20) * w ≤ z := by
    intro w w0 hw
    refine le_of_sq_le_sq ?_ p.le
    have q : 0 ≤ w ^ 2 := by positivity
    rw [mul_pow]
    generalize w ^ 2 = W at *
    norm_num at a ⊢; linarith
  constructor
  · rcases le_total X Y with h | h
    · rw [max_eq_right h]; exact low ay (by nlinarith)
    · rw [max_eq_left h]; exact low ax (by nlinarith)
  · refine le_of_sq_le_sq ?_ (by positivity)
    have q : X ^ 2 + Y ^ 2 ≤ (X + Y) ^ 2 := by nlinarith
    rw [mul_pow]
    generalize (X + Y) ^ 2 = W at *
    generalize X ^ 2 + Y ^ 2 = V at *
    have : 0 ≤ z ^ 2 := by positivity
    norm_num at b ⊢; linarith

/-! ### Concrete cases -/

theorem dist_eval {a b c d : F32} {n : BitVec 32}
    (h : ∀ z : F32, z = posZero ∨ z = negZero → (z + (a - c) * (a - c) + (b - d) * (b - d)).sqrt = ⟨n⟩) :
    VectorTrait.distance (⟨a, b⟩ : Vector2d F32) ⟨c, d⟩ = ⟨n⟩ := by
  rw [distance2_eq]
  exact h _ Cfg.sumZero_spec

theorem dist_a : VectorTrait.distance (⟨⟨0#32⟩, ⟨0#32⟩⟩ : Vector2d F32) ⟨⟨0x3f800000#32⟩, ⟨0x3f800000#32⟩⟩ = ⟨0x3fc00000#32⟩ := by
  refine dist_eval ?_
  rintro z (rfl | rfl) <;> exact eval_eq (by kernel_rfl)

theorem dist_b : VectorTrait.distance (⟨⟨0#32⟩, ⟨0#32⟩⟩ : Vector2d F32) ⟨⟨0x3f350000#32⟩, ⟨0x3f350000#32⟩⟩ = ⟨0x3f7ff900#32⟩ := by
  refine dist_eval ?_
  rintro z (rfl | rfl) <;> exact eval_eq (by kernel_rfl)

theorem dist_c : VectorTrait.distance (⟨⟨0x3f350000#32⟩, ⟨0x3f350000#32⟩⟩ : Vector2d F32) ⟨⟨0x3f800000#32⟩, ⟨0x3f800000#32⟩⟩ = ⟨0x3ed7e400#32⟩ := by
  refine dist_eval ?_
  rintro z (rfl | rfl) <;> exact eval_eq (by kernel_rfl)

omit [Cfg] in
theorem dist_vals : (⟨0x3fc00000#32⟩ : F32).val = 1.5 ∧ (⟨0x3f7ff900#32⟩ : F32).val = 65529 / 65536 ∧ (⟨0x3ed7e400#32⟩ : F32).val = 13817 / 32768 ∧
    (⟨0x3f350000#32⟩ : F32).val = 181 / 256 ∧ (⟨0#32⟩ : F32).val = 0 ∧ (⟨0x3f800000#32⟩ : F32).val = 1 := by
  refine ⟨?_, ?_, ?_, ?_, ?_, ?_⟩
  · rw [val_of_units (u := 3 * 2 ^ 148) (by decide +kernel)]; norm_num
  · rw [val_of_units (u := 65529 * 2 ^ 133) (by decide +kernel)]; norm_num
  · rw [val_of_units (u := 13817 * 2 ^ 134) (by decide +kernel)]; norm_num
  · rw [val_of_units (u := 181 * 2 ^ 141) (by decide +kernel)]; norm_num
  · rw [val_of_units (u := 0) (by decide +kernel)]; norm_num
  · rw [val_of_units (u := 2 ^ 149) (by decide +kernel)]; norm_num

/-- **C135.** The triangle inequality itself fails: from the origin to `(1, 1)` is computed as `1.5`, but through the point
`(181/256, 181/256)` between them the two legs add up to less than `1.43`. -/
theorem C135_triangle_false : ∃ u v w : Vector2d F32,
    (VectorTrait.distance u v).val + (VectorTrait.distance v w).val + 7 / 100 < (VectorTrait.distance u w).val := by
  obtain ⟨h1, h2, h3, -⟩ := dist_vals
  refine ⟨⟨⟨0#32⟩, ⟨0#32⟩⟩, ⟨⟨0x3f350000#32⟩, ⟨0x3f350000#32⟩⟩, ⟨⟨0x3f800000#32⟩, ⟨0x3f800000#32⟩⟩, ?_⟩
  rw [dist_a, dist_b, dist_c, h1, h2, h3]
  norm_num

/-- The same three points meet the hypotheses of the triangle inequality and of the order of distances. -/
theorem C135_case :
    (VectorTrait.distance (⟨⟨0#32⟩, ⟨0#32⟩⟩ : Vector2d F32) ⟨⟨0x3f800000#32⟩, ⟨0x3f800000#32⟩⟩).val ≤
      1.0607 * ((VectorTrait.distance (⟨⟨0#32⟩, ⟨0#32⟩⟩ : Vector2d F32) ⟨⟨0x3f350000#32⟩, ⟨0x3f350000#32⟩⟩).val +
        (VectorTrait.distance (⟨⟨0x3f350000#32⟩, ⟨0x3f350000#32⟩⟩ : Vector2d F32) ⟨⟨0x3f800000#32⟩, ⟨0x3f800000#32⟩⟩).val) ∧
    (VectorTrait.distance (⟨⟨0x3f350000#32⟩, ⟨0x3f350000#32⟩⟩ : Vector2d F32) ⟨⟨0x3f800000#32⟩, ⟨0x3f800000#32⟩⟩).le
      (VectorTrait.distance (⟨⟨0#32⟩, ⟨0#32⟩⟩ : Vector2d F32) ⟨⟨0x3f350000#32⟩, ⟨0x3f350000#32⟩⟩) = true := by
  obtain ⟨-, -, -, vh, v0, v1⟩ := dist_vals
  have d1 : dist2 (⟨⟨0#32⟩, ⟨0#32⟩⟩ : Vector2d F32) ⟨⟨0x3f350000#32⟩, ⟨0x3f350000#32⟩⟩ = 2 * (181 / 256) ^ 2 := by
    show ((⟨0#32⟩ : F32).val - (⟨0x3f350000#32⟩ : F32).val) ^ 2 + ((⟨0#32⟩ : F32).val - (⟨0x3f350000#32⟩ : F32).val) ^ 2 = _
    rw [v0, vh]; norm_num
  have d2 : dist2 (⟨⟨0x3f350000#32⟩, ⟨0x3f350000#32⟩⟩ : Vector2d F32) ⟨⟨0x3f800000#32⟩, ⟨0x3f800000#32⟩⟩ = 2 * (75 / 256) ^ 2 := by
    show ((⟨0x3f350000#32⟩ : F32).val - (⟨0x3f800000#32⟩ : F32).val) ^ 2 + ((⟨0x3f350000#32⟩ : F32).val - (⟨0x3f800000#32⟩ : F32).val) ^ 2 = _
    rw [v1, vh]; norm_num
  have d3 : dist2 (⟨⟨0#32⟩, ⟨0#32⟩⟩ : Vector2d F32) ⟨⟨0x3f800000#32⟩, ⟨0x3f800000#32⟩⟩ = 2 := by
    show ((⟨0#32⟩ : F32).val - (⟨0x3f800000#32⟩ : F32).val) ^ 2 + ((⟨0#32⟩ : F32).val - (⟨0x3f800000#32⟩ : F32).val) ^ 2 = _
    rw [v0, v1]; norm_num
  have f : ∀ a : F32, a.isFinite = true → ∀ x ∈ floats2 (⟨a, a⟩ : Vector2d F32), x.isFinite = true := by
    intro a ha x hx
    have : x = a := by
      rcases List.mem_cons.1 hx with h | h
      · exact h
      · exact List.mem_singleton.1 h
    rw [this]; exact ha
  constructor
  · refine C135_triangle2 (f _ (by decide)) (f _ (by decide)) (f _ (by decide)) ?_ ?_ ?_ ?_ ?_ ?_ <;> first | rw [d1] | rw [d2] | rw [d3]
    all_goals norm_num
  · refine C135_distance_order2 (f _ (by decide)) (f _ (by decide)) (f _ (by decide)) (f _ (by decide)) ?_ ?_ ?_
    · rw [d1]; norm_num
    · rw [d1]; norm_num
    · rw [d1, d2]; norm_num

/-- `hypot(1, 1)`, and the vector `(1, 1)` with itself, meet the hypotheses. -/
example : 1 / 2 ^ 100 ≤ (⟨0x3f800000#32⟩ : F32).val ^ 2 + (⟨0x3f800000#32⟩ : F32).val ^ 2 ∧
    len2 (⟨⟨0x3f800000#32⟩, ⟨0x3f800000#32⟩⟩ : Vector2d F32) = 2 ∧ len3 (⟨⟨0x3f800000#32⟩, ⟨0x3f800000#32⟩, ⟨0#32⟩⟩ : Vector3d F32) = 2 := by
  obtain ⟨-, -, -, -, v0, v1⟩ := dist_vals
  refine ⟨by rw [v1]; norm_num, ?_, ?_⟩
  · show (⟨0x3f800000#32⟩ : F32).val ^ 2 + (⟨0x3f800000#32⟩ : F32).val ^ 2 = 2
    rw [v1]; norm_num
  · show (⟨0x3f800000#32⟩ : F32).val ^ 2 + (⟨0x3f800000#32⟩ : F32).val ^ 2 + (⟨0#32⟩ : F32).val ^ 2 = 2
    rw [v1, v0]; norm_num

end Micromath.Props
