import Verif.Props.AxisAngle

/-!
# C115: composing and undoing rotations
-/

set_option exponentiation.threshold 1000

namespace Micromath.Props
open F32 Spec

variable [Cfg] {C : Type} [IntoF32 C]

omit [Cfg] in
/-- The pure real quaternion of a vector. -/
noncomputable def vreal (v : Vector3d C) : _root_.Quaternion ℝ :=
  Geom.pure (IntoF32.into v.x : F32).val (IntoF32.into v.y : F32).val (IntoF32.into v.z : F32).val

omit [Cfg] in
theorem vreal_norm (v : Vector3d C) : ‖vreal v‖ ^ 2 = len3 v := by
  rw [vreal, Geom.norm_sq_eq, Geom.pure_re, Geom.pure_imI, Geom.pure_imJ, Geom.pure_imK]
  unfold len3
  push_cast
  ring

omit [Cfg] in
theorem norm_le_comps {z : _root_.Quaternion ℝ} {e : ℝ} (e0 : 0 ≤ e) (h0 : |z.re| ≤ e) (h1 : |z.imI| ≤ e) (h2 : |z.imJ| ≤ e) (h3 : |z.imK| ≤ e) :
    ‖z‖ ≤ 2 * e := by
  refine (sq_le_sq₀ (norm_nonneg _) (by positivity)).1 ?_
  rw [Geom.norm_sq_eq]
  have k0 := pow_le_pow_left₀ (abs_nonneg _) h0 2
  have k1 := pow_le_pow_left₀ (abs_nonneg _) h1 2
  have k2 := pow_le_pow_left₀ (abs_nonneg _) h2 2
  have k3 := pow_le_pow_left₀ (abs_nonneg _) h3 2
  rw [sq_abs] at k0 k1 k2 k3
  nlinarith

/-- `rotate` against the exact sandwich product, in norm. -/
theorem rotate_near {q : Quaternion} {w : Vector3d C} (fq : QFinite q) (fw : VFinite w) (hq : qlen q ≤ 1.25) (hw : len3 w ≤ 2 ^ 237) :
    VFinite (q.rotate w) ∧
    ‖vreal (q.rotate w) - qreal q * vreal w * star (qreal q)‖ ≤ 2.5e-6 * ‖vreal w‖ + 1 / 2 ^ 141 := by
  obtain ⟨l, hl⟩ : ∃ l, l = ‖vreal w‖ := ⟨_, rfl⟩
  have nV2 := vreal_norm w
  rw [← hl] at nV2 ⊢
  have hl0 : 0 ≤ l := by rw [hl]; exact norm_nonneg _
  obtain ⟨a, ha⟩ : ∃ a, a = (IntoF32.into w.x : F32).val := ⟨_, rfl⟩
  obtain ⟨b, hb⟩ : ∃ b, b = (IntoF32.into w.y : F32).val := ⟨_, rfl⟩
  obtain ⟨c, hc⟩ : ∃ c, c = (IntoF32.into w.z : F32).val := ⟨_, rfl⟩
  obtain ⟨L, hL⟩ : ∃ L, L = |a| + |b| + |c| := ⟨_, rfl⟩
  have hll : len3 w = a ^ 2 + b ^ 2 + c ^ 2 := by rw [ha, hb, hc]; rfl
  have hL0 : 0 ≤ L := by rw [hL]; positivity
  have hLs : L ^ 2 ≤ 3 * len3 w := by
    rw [hll, hL, ← sq_abs a, ← sq_abs b, ← sq_abs c]
    nlinarith [sq_nonneg (|a| - |b|), sq_nonneg (|b| - |c|), sq_nonneg (|a| - |c|)]
  have hL31 : L ≤ 5 / 2 * 2 ^ 118 := by
    refine abs_le_of_sq_le_sq' ?_ (by norm_num) |>.2
    exact hLs.trans ((mul_le_mul_of_nonneg_left hw (by norm_num)).trans (by norm_num))
  have hQ0 : 0 ≤ qlen q := by unfold qlen; positivity
  obtain ⟨g1, g2, g3, e1, e2, e3⟩ := C90_rotate_err q w fq fw.1 fw.2.1 fw.2.2 (by norm_num at hq ⊢; linarith) ha hb hc hL
    (by norm_num at hL31 ⊢; linarith) (by
      have := mul_le_mul hq hL31 hL0 (by norm_num)
      norm_num at this ⊢; linarith)
  refine ⟨⟨g1, g2, g3⟩, ?_⟩
  have hLR : (L : ℝ) ≤ 1.7321 * l := by
    refine abs_le_of_sq_le_sq' ?_ (by positivity) |>.2
    have := (Rat.cast_le (K := ℝ)).2 hLs
    push_cast at this
    rw [← nV2] at this
    rw [mul_pow]
    nlinarith [sq_nonneg l]
  have hL0' : (0 : ℝ) ≤ L := by exact_mod_cast hL0
  have hqR : (qlen q : ℝ) ≤ 1.25 := by
    have h : ((qlen q : ℚ) : ℝ) ≤ ((1.25 : ℚ) : ℝ) := by exact_mod_cast hq
    push_cast at h; exact h
  obtain ⟨e, he⟩ : ∃ e : ℝ, e = 1.42e-6 * l + 1 / 2 ^ 143 := ⟨_, rfl⟩
  have e0 : 0 ≤ e := by rw [he]; positivity
  have toR : ∀ a b : ℚ, |a - b| ≤ 11 / 2 ^ 24 * (qlen q * L) + (L + 1) / 2 ^ 143 → ((a : ℝ) - b) ^ 2 ≤ e ^ 2 := fun a b hab => by
    have := (Rat.cast_le (K := ℝ)).2 hab
    push_cast at this
    rw [← sq_abs]
    refine pow_le_pow_left₀ (abs_nonneg _) (this.trans ?_) 2
    have h2 := mul_le_mul hqR hLR hL0' (by norm_num)
    rw [he]
    norm_num at h2 hLR ⊢
    linarith
  have k1 := toR _ _ e1
  have k2 := toR _ _ e2
  have k3 := toR _ _ e3
  obtain ⟨t0, t1, t2, t3⟩ := sand_real q a b c 1
  simp only [div_one] at t0 t1 t2 t3
  have hv : vreal w = Geom.pure a b c := by rw [ha, hb, hc]; rfl
  have hv' : vreal (q.rotate w) = Geom.pure (q.rotate w).x.val (q.rotate w).y.val (q.rotate w).z.val := rfl
  rw [hv, hv']
  obtain ⟨S, hS⟩ : ∃ S, S = qreal q * Geom.pure a b c * star (qreal q) := ⟨_, rfl⟩
  rw [← hS] at t0 t1 t2 t3 ⊢
  have near : ‖Geom.pure (q.rotate w).x.val (q.rotate w).y.val (q.rotate w).z.val - S‖ ≤ 1.7321 * e := by
    refine (sq_le_sq₀ (norm_nonneg _) (by positivity)).1 ?_
    rw [Geom.norm_sq_eq]
    simp only [_root_.Quaternion.re_sub, _root_.Quaternion.imI_sub, _root_.Quaternion.imJ_sub, _root_.Quaternion.imK_sub,
      t0, t1, t2, t3, Geom.pure_re, Geom.pure_imI, Geom.pure_imJ, Geom.pure_imK]
    rw [mul_pow]
    nlinarith [sq_nonneg e]
  refine near.trans ?_
  rw [he]
  norm_num
  linarith

/-- The product against the exact Hamilton product, in norm. -/
theorem mul_near {q r : Quaternion} (fq : QFinite q) (fr : QFinite r) (hq : qlen q ≤ 1.1) (hr : qlen r ≤ 1.1) :
    QFinite (q.mul r) ∧ ‖qreal (q.mul r) - qreal q * qreal r‖ ≤ 6.6e-7 := by
  have am : ∀ x y : ℚ, |x * y| ≤ (x ^ 2 + y ^ 2) / 2 := fun x y => by
    rw [abs_le]; constructor <;> nlinarith [sq_nonneg (x - y), sq_nonneg (x + y)]
  have hq' : q.a.val ^ 2 + q.b.val ^ 2 + q.c.val ^ 2 + q.d.val ^ 2 ≤ 1.1 := hq
  have hr' : r.a.val ^ 2 + r.b.val ^ 2 + r.c.val ^ 2 + r.d.val ^ 2 ≤ 1.1 := hr
  have m0 : (qmag (qval q) (qval r)).re ≤ 1.1 := by
    have := am q.a.val r.a.val; have := am q.b.val r.b.val; have := am q.c.val r.c.val; have := am q.d.val r.d.val
    simp only [qmag, qval]; linarith
  have m1 : (qmag (qval q) (qval r)).imI ≤ 1.1 := by
    have := am q.a.val r.b.val; have := am q.b.val r.a.val; have := am q.c.val r.d.val; have := am q.d.val r.c.val
    simp only [qmag, qval]; linarith
  have m2 : (qmag (qval q) (qval r)).imJ ≤ 1.1 := by
    have := am q.a.val r.c.val; have := am q.b.val r.d.val; have := am q.c.val r.a.val; have := am q.d.val r.b.val
    simp only [qmag, qval]; linarith
  have m3 : (qmag (qval q) (qval r)).imK ≤ 1.1 := by
    have := am q.a.val r.d.val; have := am q.b.val r.c.val; have := am q.c.val r.b.val; have := am q.d.val r.a.val
    simp only [qmag, qval]; linarith
  have w : ∀ {x : ℚ}, x ≤ 1.1 → x ≤ 2 ^ 125 := fun h => h.trans (by norm_num)
  obtain ⟨f, k0, k1, k2, k3⟩ := C66_mul_err fq fr ⟨w m0, w m1, w m2, w m3⟩
  refine ⟨f, ?_⟩
  have toR : ∀ {a b m : ℚ}, |a - b| ≤ 5 / 2 ^ 24 * m + 1 / 2 ^ 147 → m ≤ 1.1 → |(a : ℝ) - b| ≤ 3.3e-7 := fun {a b m} h hm => by
    have h1 : |a - b| ≤ 3.3e-7 := by norm_num at h hm ⊢; linarith
    have := (Rat.cast_le (K := ℝ)).2 h1
    push_cast at this
    exact this
  have e0 : (qreal q * qreal r).re = ((qval q * qval r).re : ℝ) := by
    rw [_root_.Quaternion.re_mul, _root_.Quaternion.re_mul]; push_cast; rfl
  have e1 : (qreal q * qreal r).imI = ((qval q * qval r).imI : ℝ) := by
    rw [_root_.Quaternion.imI_mul, _root_.Quaternion.imI_mul]; push_cast; rfl
  have e2 : (qreal q * qreal r).imJ = ((qval q * qval r).imJ : ℝ) := by
    rw [_root_.Quaternion.imJ_mul, _root_.Quaternion.imJ_mul]; push_cast; rfl
  have e3 : (qreal q * qreal r).imK = ((qval q * qval r).imK : ℝ) := by
    rw [_root_.Quaternion.imK_mul, _root_.Quaternion.imK_mul]; push_cast; rfl
  refine (norm_le_comps (e := 3.3e-7) (by norm_num) ?_ ?_ ?_ ?_).trans (by norm_num)
  · rw [_root_.Quaternion.re_sub, e0]; exact toR k0 m0
  · rw [_root_.Quaternion.imI_sub, e1]; exact toR k1 m1
  · rw [_root_.Quaternion.imJ_sub, e2]; exact toR k2 m2
  · rw [_root_.Quaternion.imK_sub, e3]; exact toR k3 m3

omit [Cfg] in
theorem norm_le_of_qlen {q : Quaternion} {a : ℝ} (a0 : 0 ≤ a) (h : (qlen q : ℝ) ≤ a ^ 2) : ‖qreal q‖ ≤ a := by
  refine (sq_le_sq₀ (norm_nonneg _) a0).1 ?_
  rw [qreal_norm]; exact h

omit [Cfg] in
theorem sandwich_sub (P Q V : _root_.Quaternion ℝ) {p q : ℝ} (hp : ‖P‖ ≤ p) (hq : ‖Q‖ ≤ q) {e : ℝ} (he : ‖P - Q‖ ≤ e) :
    ‖P * V * star P - Q * V * star Q‖ ≤ e * (p + q) * ‖V‖ := by
  have e1 : P * V * star P - Q * V * star Q = (P - Q) * V * star P + Q * V * star (P - Q) := by
    rw [star_sub]; noncomm_ring
  have p0 := (norm_nonneg P).trans hp
  have q0 := (norm_nonneg Q).trans hq
  have E0 := (norm_nonneg (P - Q)).trans he
  have V0 := norm_nonneg V
  rw [e1]
  refine (norm_add_le _ _).trans ?_
  rw [norm_mul, norm_mul, norm_mul, norm_mul, norm_star, norm_star]
  have h1 : ‖P - Q‖ * ‖V‖ * ‖P‖ ≤ e * ‖V‖ * p :=
    mul_le_mul (mul_le_mul_of_nonneg_right he V0) hp (norm_nonneg _) (by positivity)
  have h2 : ‖Q‖ * ‖V‖ * ‖P - Q‖ ≤ q * ‖V‖ * e :=
    mul_le_mul (mul_le_mul_of_nonneg_right hq V0) he (norm_nonneg _) (by positivity)
  nlinarith

omit [Cfg] in
theorem qlen_real {q : Quaternion} {b : ℚ} (h : qlen q ≤ b) : (qlen q : ℝ) ≤ b := by exact_mod_cast h

/-- The length of a rotated vector. -/
theorem rotate_norm {q : Quaternion} {w : Vector3d C} (fq : QFinite q) (fw : VFinite w) (hq : qlen q ≤ 1.1) (hw : len3 w ≤ 2 ^ 236) :
    ‖vreal (q.rotate w)‖ ≤ 1.1001 * ‖vreal w‖ + 1 / 2 ^ 141 ∧ len3 (q.rotate w) ≤ 2 ^ 237 := by
  obtain ⟨-, h⟩ := rotate_near fq fw (hq.trans (by norm_num)) (hw.trans (by norm_num))
  have hn : ‖qreal q * vreal w * star (qreal q)‖ ≤ 1.1 * ‖vreal w‖ := by
    rw [norm_mul, norm_mul, norm_star]
    have : ‖qreal q‖ * ‖vreal w‖ * ‖qreal q‖ = ‖qreal q‖ ^ 2 * ‖vreal w‖ := by ring
    rw [this, qreal_norm]
    have hR := qlen_real hq
    push_cast at hR
    exact mul_le_mul_of_nonneg_right hR (norm_nonneg _)
  have h1 := norm_add_le (vreal (q.rotate w) - qreal q * vreal w * star (qreal q)) (qreal q * vreal w * star (qreal q))
  rw [sub_add_cancel] at h1
  have V0 := norm_nonneg (vreal w)
  have main : ‖vreal (q.rotate w)‖ ≤ 1.1001 * ‖vreal w‖ + 1 / 2 ^ 141 := by
    norm_num [-norm_mul] at h hn ⊢; linarith
  refine ⟨main, ?_⟩
  have hw2 : ‖vreal w‖ ≤ 2 ^ 118 := by
    refine (sq_le_sq₀ V0 (by positivity)).1 ?_
    rw [vreal_norm]
    have : ((len3 w : ℚ) : ℝ) ≤ ((2 ^ 236 : ℚ) : ℝ) := by exact_mod_cast hw
    push_cast at this
    exact this.trans (by norm_num)
  have h3 : ‖vreal (q.rotate w)‖ ≤ 1.2 * 2 ^ 118 := by norm_num at main hw2 ⊢; linarith
  have h4 := pow_le_pow_left₀ (norm_nonneg _) h3 2
  rw [vreal_norm] at h4
  have h5 : ((len3 (q.rotate w) : ℚ) : ℝ) ≤ ((2 ^ 237 : ℚ) : ℝ) := by
    push_cast; exact h4.trans (by norm_num)
  exact_mod_cast h5

/-- **C115.** Rotating by a product is rotating by the right factor, then by the left one. -/
theorem C115_compose {q r : Quaternion} {v : Vector3d C} (fq : QFinite q) (fr : QFinite r) (fv : VFinite v)
    (hq : qlen q ≤ 1.1) (hr : qlen r ≤ 1.1) (hv : len3 v ≤ 2 ^ 236) :
    VFinite ((q.mul r).rotate v) ∧ VFinite (q.rotate (r.rotate v)) ∧
    ‖vreal ((q.mul r).rotate v) - vreal (q.rotate (r.rotate v))‖ ≤ 1e-5 * ‖vreal v‖ + 1 / 2 ^ 138 := by
  obtain ⟨fm, hm⟩ := mul_near fq fr hq hr
  obtain ⟨Q, hQ⟩ : ∃ Q, Q = qreal q := ⟨_, rfl⟩
  obtain ⟨R, hR⟩ : ∃ R, R = qreal r := ⟨_, rfl⟩
  obtain ⟨P, hP⟩ : ∃ P, P = qreal (q.mul r) := ⟨_, rfl⟩
  have nQ : ‖Q‖ ^ 2 ≤ 1.1 := by
    rw [hQ, qreal_norm]; have := qlen_real hq; push_cast at this; exact this
  have nR : ‖R‖ ^ 2 ≤ 1.1 := by
    rw [hR, qreal_norm]; have := qlen_real hr; push_cast at this; exact this
  rw [← hQ, ← hR, ← hP] at hm
  have nQR : ‖Q * R‖ ≤ 1.1 := by
    refine (sq_le_sq₀ (norm_nonneg _) (by norm_num)).1 ?_
    rw [norm_mul, mul_pow]
    exact (mul_le_mul nQ nR (sq_nonneg _) (by norm_num)).trans (by norm_num)
  have nP : ‖P‖ ≤ 1.1001 := by
    have := norm_add_le (P - Q * R) (Q * R)
    rw [sub_add_cancel] at this
    norm_num [-norm_mul] at hm nQR ⊢; linarith
  have hp : qlen (q.mul r) ≤ 1.25 := by
    have h1 := pow_le_pow_left₀ (norm_nonneg _) nP 2
    rw [hP, qreal_norm] at h1
    have : ((qlen (q.mul r) : ℚ) : ℝ) ≤ ((1.25 : ℚ) : ℝ) := by push_cast; exact h1.trans (by norm_num)
    exact_mod_cast this
  obtain ⟨f1, h1⟩ := rotate_near fm fv hp (hv.trans (by norm_num))
  obtain ⟨f2, h2⟩ := rotate_near fr fv (hr.trans (by norm_num)) (hv.trans (by norm_num))
  obtain ⟨n2, l2⟩ := rotate_norm fr fv hr hv
  obtain ⟨f3, h3⟩ := rotate_near fq f2 (hq.trans (by norm_num)) l2
  refine ⟨f1, f3, ?_⟩
  rw [← hP] at h1
  rw [← hR] at h2
  rw [← hQ] at h3
  obtain ⟨V, hV⟩ : ∃ V, V = vreal v := ⟨_, rfl⟩
  obtain ⟨W, hW⟩ : ∃ W, W = vreal (r.rotate v) := ⟨_, rfl⟩
  rw [← hV] at h1 h2 n2 ⊢
  rw [← hW] at h2 h3 n2
  have V0 := norm_nonneg V
  have s1 := sandwich_sub P (Q * R) V nP nQR hm
  have s2 : ‖Q * W * star Q - Q * R * V * star (Q * R)‖ ≤ 1.1 * (2.5e-6 * ‖V‖ + 1 / 2 ^ 141) := by
    have e : Q * W * star Q - Q * R * V * star (Q * R) = Q * (W - R * V * star R) * star Q := by
      rw [star_mul]; noncomm_ring
    rw [e, norm_mul, norm_mul, norm_star]
    have e2 : ‖Q‖ * ‖W - R * V * star R‖ * ‖Q‖ = ‖Q‖ ^ 2 * ‖W - R * V * star R‖ := by ring
    rw [e2]
    exact mul_le_mul nQ h2 (norm_nonneg _) (by norm_num)
  obtain ⟨A, hA⟩ : ∃ A, A = vreal ((q.mul r).rotate v) := ⟨_, rfl⟩
  obtain ⟨B, hB⟩ : ∃ B, B = vreal (q.rotate (r.rotate v)) := ⟨_, rfl⟩
  rw [← hA] at h1 ⊢
  rw [← hB] at h3 ⊢
  have e : A - B = (A - P * V * star P) + (P * V * star P - Q * R * V * star (Q * R)) - (Q * W * star Q - Q * R * V * star (Q * R))
      - (B - Q * W * star Q) := by abel
  rw [e]
  have t1 := norm_sub_le ((A - P * V * star P) + (P * V * star P - Q * R * V * star (Q * R)) - (Q * W * star Q - Q * R * V * star (Q * R))) (B - Q * W * star Q)
  have t2 := norm_sub_le ((A - P * V * star P) + (P * V * star P - Q * R * V * star (Q * R))) (Q * W * star Q - Q * R * V * star (Q * R))
  have t3 := norm_add_le (A - P * V * star P) (P * V * star P - Q * R * V * star (Q * R))
  generalize ‖_ - (B - Q * W * star Q)‖ = x1 at *
  generalize ‖_ - (Q * W * star Q - Q * R * V * star (Q * R))‖ = x2 at *
  generalize ‖_ + (P * V * star P - Q * R * V * star (Q * R))‖ = x3 at *
  generalize ‖P * V * star P - Q * R * V * star (Q * R)‖ = x4 at *
  generalize ‖Q * W * star Q - Q * R * V * star (Q * R)‖ = x5 at *
  clear * - t1 t2 t3 h1 h3 s1 s2 n2 V0
  norm_num at h1 h3 s1 s2 n2 ⊢
  linarith

/-- **C115.** Rotating by `q` and then by its conjugate multiplies the vector by the fourth power of the length of `q`. -/
theorem C115_undo {q : Quaternion} {v : Vector3d C} (fq : QFinite q) (fv : VFinite v) (hq : qlen q ≤ 1.1) (hv : len3 v ≤ 2 ^ 236) :
    VFinite (q.conj.rotate (q.rotate v)) ∧ VFinite (q.rotate (q.conj.rotate v)) ∧
    ‖vreal (q.conj.rotate (q.rotate v)) - ((qlen q : ℝ) ^ 2) • vreal v‖ ≤ 6e-6 * ‖vreal v‖ + 1 / 2 ^ 138 ∧
    ‖vreal (q.rotate (q.conj.rotate v)) - ((qlen q : ℝ) ^ 2) • vreal v‖ ≤ 6e-6 * ‖vreal v‖ + 1 / 2 ^ 138 := by
  have key : ∀ {q r : Quaternion} {n : ℝ}, QFinite q → QFinite r → qlen q ≤ 1.1 → qlen r ≤ 1.1 → qreal r = star (qreal q) → ‖qreal q‖ ^ 2 = n →
      VFinite (r.rotate (q.rotate v)) ∧ ‖vreal (r.rotate (q.rotate v)) - (n ^ 2) • vreal v‖ ≤ 6e-6 * ‖vreal v‖ + 1 / 2 ^ 138 := by
    intro q r n fq fr hq hr hqr hn
    obtain ⟨f2, h2⟩ := rotate_near fq fv (hq.trans (by norm_num)) (hv.trans (by norm_num))
    obtain ⟨n2, l2⟩ := rotate_norm fq fv hq hv
    obtain ⟨f3, h3⟩ := rotate_near fr f2 (hr.trans (by norm_num)) l2
    refine ⟨f3, ?_⟩
    rw [hqr, star_star] at h3
    obtain ⟨Q, hQ⟩ : ∃ Q, Q = qreal q := ⟨_, rfl⟩
    obtain ⟨V, hV⟩ : ∃ V, V = vreal v := ⟨_, rfl⟩
    obtain ⟨W, hW⟩ : ∃ W, W = vreal (q.rotate v) := ⟨_, rfl⟩
    obtain ⟨B, hB⟩ : ∃ B, B = vreal (r.rotate (q.rotate v)) := ⟨_, rfl⟩
    have nQ : ‖Q‖ ^ 2 ≤ 1.1 := by
      rw [hQ, qreal_norm]; have := qlen_real hq; push_cast at this; exact this
    rw [← hB, ← hV]
    rw [← hB, ← hW, ← hQ] at h3
    rw [← hW, ← hV, ← hQ] at h2
    rw [← hW, ← hV] at n2
    rw [← hQ] at hn
    have V0 := norm_nonneg V
    have hs : star Q * Q = (n : _root_.Quaternion ℝ) := by
      rw [_root_.Quaternion.star_mul_self, _root_.Quaternion.normSq_eq_norm_mul_self, ← sq, hn]
    have e : star Q * (Q * V * star Q) * Q = (n ^ 2) • V := by
      calc star Q * (Q * V * star Q) * Q = (star Q * Q) * V * (star Q * Q) := by noncomm_ring
        _ = (n : _root_.Quaternion ℝ) * V * (n : _root_.Quaternion ℝ) := by rw [hs]
        _ = (n ^ 2) • V := by
          rw [_root_.Quaternion.coe_mul_eq_smul, _root_.Quaternion.mul_coe_eq_smul, smul_smul, sq]
    have e2 : B - (n ^ 2) • V = (B - star Q * W * Q) + star Q * (W - Q * V * star Q) * Q := by
      rw [← e]; noncomm_ring
    rw [e2]
    refine (norm_add_le _ _).trans ?_
    have s2 : ‖star Q * (W - Q * V * star Q) * Q‖ ≤ 1.1 * (2.5e-6 * ‖V‖ + 1 / 2 ^ 141) := by
      rw [norm_mul, norm_mul, norm_star]
      have e2 : ‖Q‖ * ‖W - Q * V * star Q‖ * ‖Q‖ = ‖Q‖ ^ 2 * ‖W - Q * V * star Q‖ := by ring
      rw [e2]
      exact mul_le_mul nQ h2 (norm_nonneg _) (by norm_num)
    norm_num [-norm_mul] at h3 s2 n2 ⊢
    linarith
  have fc : QFinite q.conj := by
    obtain ⟨a, b, c, d⟩ := fq
    exact ⟨a, by rw [Quaternion.conj]; exact (isFinite_neg _).trans b, by rw [Quaternion.conj]; exact (isFinite_neg _).trans c,
      by rw [Quaternion.conj]; exact (isFinite_neg _).trans d⟩
  have lc : qlen q.conj = qlen q := by
    simp only [qlen, Quaternion.conj, val_neg]; ring
  have sc : qreal q.conj = star (qreal q) := by
    have hneg : ∀ x : F32, (((-x).val : ℚ) : ℝ) = -(x.val : ℝ) := fun x => by rw [val_neg]; push_cast; rfl
    refine _root_.Quaternion.ext _ _ ?_ ?_ ?_ ?_
    · rw [_root_.Quaternion.re_star]; rfl
    · rw [_root_.Quaternion.imI_star]; exact hneg q.b
    · rw [_root_.Quaternion.imJ_star]; exact hneg q.c
    · rw [_root_.Quaternion.imK_star]; exact hneg q.d
  have hn := qreal_norm q
  obtain ⟨a1, a2⟩ := key fq fc hq (by rw [lc]; exact hq) sc hn
  obtain ⟨b1, b2⟩ := key fc fq (by rw [lc]; exact hq) hq (by rw [sc, star_star]) (n := qlen q) (by rw [sc, norm_star]; exact hn)
  exact ⟨a1, b1, a2, b2⟩

/-- The hypotheses hold for the half turns `i` and `(3i + 4j) / 5` (components rounded) and the vector `(1, 2, 3)`. -/
example : let q : Quaternion := ⟨posZero, one, posZero, posZero⟩
    let r : Quaternion := ⟨posZero, lit 6 10, lit 8 10, posZero⟩
    let v : Vector3d F32 := ⟨ofInt 1, ofInt 2, ofInt 3⟩
    ‖vreal ((q.mul r).rotate v) - vreal (q.rotate (r.rotate v))‖ ≤ 1e-5 * ‖vreal v‖ + 1 / 2 ^ 138 := by
  intro q r v
  have v6 : (lit 6 10 : F32).val = 10066330 / 2 ^ 24 := by
    have := val_of_units (x := lit 6 10) (u := 10066330 * 2 ^ 125) (by decide +kernel)
    rw [this]; norm_num
  have v8 : (lit 8 10 : F32).val = 13421773 / 2 ^ 24 := by
    have := val_of_units (x := lit 8 10) (u := 13421773 * 2 ^ 125) (by decide +kernel)
    rw [this]; norm_num
  have i1 := ofInt_isVal (n := 1) (by norm_num)
  have i2 := ofInt_isVal (n := 2) (by norm_num)
  have i3 := ofInt_isVal (n := 3) (by norm_num)
  refine (C115_compose (q := q) (r := r) (v := v) ⟨fin_posZero, fin_one, fin_posZero, fin_posZero⟩
    ⟨fin_posZero, by decide +kernel, by decide +kernel, fin_posZero⟩ ⟨i1.1, i2.1, i3.1⟩ ?_ ?_ ?_).2.2
  · simp only [qlen, q, val_one, val_posZero]; norm_num
  · simp only [qlen, r, v6, v8, val_posZero]; norm_num
  · have : len3 v = (ofInt 1 : F32).val ^ 2 + (ofInt 2 : F32).val ^ 2 + (ofInt 3 : F32).val ^ 2 := rfl
    rw [this, i1.2, i2.2, i3.2]; norm_num

end Micromath.Props
