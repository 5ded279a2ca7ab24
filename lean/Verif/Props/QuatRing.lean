import Verif.Props.QuatComp
import Verif.Props.TwoVecThm

/-!
# C136: the laws of quaternion algebra, up to rounding
-/

set_option exponentiation.threshold 1000

namespace Micromath.Props
open F32 Spec

variable [Cfg]

omit [Cfg] in
theorem cauchy_four (a b c d x y z w : ℚ) :
    (|a * x| + |b * y| + |c * z| + |d * w|) ^ 2 ≤ (a ^ 2 + b ^ 2 + c ^ 2 + d ^ 2) * (x ^ 2 + y ^ 2 + z ^ 2 + w ^ 2) := by
  rw [abs_mul, abs_mul, abs_mul, abs_mul, ← sq_abs a, ← sq_abs b, ← sq_abs c, ← sq_abs d, ← sq_abs x, ← sq_abs y, ← sq_abs z, ← sq_abs w]
  generalize |a| = a
  generalize |b| = b
  generalize |c| = c
  generalize |d| = d
  generalize |x| = x
  generalize |y| = y
  generalize |z| = z
  generalize |w| = w
  have e : (a ^ 2 + b ^ 2 + c ^ 2 + d ^ 2) * (x ^ 2 + y ^ 2 + z ^ 2 + w ^ 2) - (a * x + b * y + c * z + d * w) ^ 2 =
      (a * y - b * x) ^ 2 + (a * z - c * x) ^ 2 + (a * w - d * x) ^ 2 + (b * z - c * y) ^ 2 + (b * w - d * y) ^ 2 + (c * w - d * z) ^ 2 := by ring
  have : 0 ≤ (a * y - b * x) ^ 2 + (a * z - c * x) ^ 2 + (a * w - d * x) ^ 2 + (b * z - c * y) ^ 2 + (b * w - d * y) ^ 2 + (c * w - d * z) ^ 2 := by positivity
  linarith

omit [Cfg] in
theorem qmag_le (q r : Quaternion) :
    (qmag (qval q) (qval r)).re ^ 2 ≤ qlen q * qlen r ∧ (qmag (qval q) (qval r)).imI ^ 2 ≤ qlen q * qlen r ∧
    (qmag (qval q) (qval r)).imJ ^ 2 ≤ qlen q * qlen r ∧ (qmag (qval q) (qval r)).imK ^ 2 ≤ qlen q * qlen r := by
  simp only [qmag, qval, qlen]
  refine ⟨cauchy_four _ _ _ _ _ _ _ _, (cauchy_four _ _ _ _ _ _ _ _).trans (le_of_eq (by ring)),
    (cauchy_four _ _ _ _ _ _ _ _).trans (le_of_eq (by ring)), (cauchy_four _ _ _ _ _ _ _ _).trans (le_of_eq (by ring))⟩

omit [Cfg] in
theorem qreal_mul_comps (q r : Quaternion) :
    (qreal q * qreal r).re = ((qval q * qval r).re : ℝ) ∧ (qreal q * qreal r).imI = ((qval q * qval r).imI : ℝ) ∧
    (qreal q * qreal r).imJ = ((qval q * qval r).imJ : ℝ) ∧ (qreal q * qreal r).imK = ((qval q * qval r).imK : ℝ) := by
  refine ⟨?_, ?_, ?_, ?_⟩
  · rw [_root_.Quaternion.re_mul, _root_.Quaternion.re_mul]; push_cast; rfl
  · rw [_root_.Quaternion.imI_mul, _root_.Quaternion.imI_mul]; push_cast; rfl
  · rw [_root_.Quaternion.imJ_mul, _root_.Quaternion.imJ_mul]; push_cast; rfl
  · rw [_root_.Quaternion.imK_mul, _root_.Quaternion.imK_mul]; push_cast; rfl

/-- **C136, product.** If the product of the lengths is at most `2^124`, the float product is within `6e-7 |q||r| + 2^-146` of
the Hamilton product, in norm. -/
theorem C136_mul {q r : Quaternion} (fq : QFinite q) (fr : QFinite r) (h : ‖qreal q‖ * ‖qreal r‖ ≤ 2 ^ 124) :
    QFinite (q.mul r) ∧ ‖qreal (q.mul r) - qreal q * qreal r‖ ≤ 6e-7 * (‖qreal q‖ * ‖qreal r‖) + 1 / 2 ^ 146 := by
  obtain ⟨N, hN⟩ : ∃ N, N = ‖qreal q‖ * ‖qreal r‖ := ⟨_, rfl⟩
  have N0 : 0 ≤ N := by rw [hN]; positivity
  have hN2 : N ^ 2 = qlen q * qlen r := by rw [hN, mul_pow, qreal_norm, qreal_norm]
  rw [← hN] at h ⊢
  have m : ∀ {x : ℚ}, x ^ 2 ≤ qlen q * qlen r → (x : ℝ) ≤ N := by
    intro x hx
    refine le_of_sq_le_sq ?_ N0
    rw [hN2]; exact_mod_cast hx
  have w : ∀ {x : ℚ}, x ^ 2 ≤ qlen q * qlen r → x ≤ 2 ^ 125 := by
    intro x hx
    have := (m hx).trans h
    have h2 : (x : ℝ) ≤ ((2 ^ 125 : ℚ) : ℝ) := by push_cast; exact this.trans (by norm_num)
    exact_mod_cast h2
  obtain ⟨q0, q1, q2, q3⟩ := qmag_le q r
  obtain ⟨f, k0, k1, k2, k3⟩ := C66_mul_err fq fr ⟨w q0, w q1, w q2, w q3⟩
  refine ⟨f, ?_⟩
  have toR : ∀ {a b x : ℚ}, |a - b| ≤ 5 / 2 ^ 24 * x + 1 / 2 ^ 147 → x ^ 2 ≤ qlen q * qlen r → |(a : ℝ) - b| ≤ 3e-7 * N + 1 / 2 ^ 147 := by
    intro a b x hab hx
    have := (Rat.cast_le (K := ℝ)).2 hab
    push_cast at this
    refine this.trans ?_
    have := m hx
    norm_num at this ⊢; linarith
  obtain ⟨e0, e1, e2, e3⟩ := qreal_mul_comps q r
  refine (norm_le_comps (e := 3e-7 * N + 1 / 2 ^ 147) (by positivity) ?_ ?_ ?_ ?_).trans (by norm_num; linarith)
  · rw [_root_.Quaternion.re_sub, e0]; exact toR k0 q0
  · rw [_root_.Quaternion.imI_sub, e1]; exact toR k1 q1
  · rw [_root_.Quaternion.imJ_sub, e2]; exact toR k2 q2
  · rw [_root_.Quaternion.imK_sub, e3]; exact toR k3 q3

omit [Cfg] in
theorem qreal_conj (q : Quaternion) : qreal q.conj = star (qreal q) := by
  refine _root_.Quaternion.ext _ _ ?_ ?_ ?_ ?_
  · rw [_root_.Quaternion.re_star]; rfl
  · rw [_root_.Quaternion.imI_star]; show ((-q.b).val : ℝ) = -(q.b.val : ℝ); rw [val_neg]; push_cast; rfl
  · rw [_root_.Quaternion.imJ_star]; show ((-q.c).val : ℝ) = -(q.c.val : ℝ); rw [val_neg]; push_cast; rfl
  · rw [_root_.Quaternion.imK_star]; show ((-q.d).val : ℝ) = -(q.d.val : ℝ); rw [val_neg]; push_cast; rfl

omit [Cfg] in
theorem conj_finite {q : Quaternion} (h : QFinite q) : QFinite q.conj := by
  obtain ⟨h1, h2, h3, h4⟩ := h
  exact ⟨h1, by show (-q.b).isFinite = true; rw [isFinite_neg]; exact h2, by show (-q.c).isFinite = true; rw [isFinite_neg]; exact h3,
    by show (-q.d).isFinite = true; rw [isFinite_neg]; exact h4⟩

/-- **C136, conjugate of a product.** `conj(q r)` and `conj(r) conj(q)` agree within `1.2e-6 |q||r| + 2^-145`. -/
theorem C136_conj {q r : Quaternion} (fq : QFinite q) (fr : QFinite r) (h : ‖qreal q‖ * ‖qreal r‖ ≤ 2 ^ 124) :
    ‖qreal (q.mul r).conj - qreal (r.conj.mul q.conj)‖ ≤ 1.2e-6 * (‖qreal q‖ * ‖qreal r‖) + 1 / 2 ^ 145 := by
  obtain ⟨-, e1⟩ := C136_mul fq fr h
  obtain ⟨-, e2⟩ := C136_mul (conj_finite fr) (conj_finite fq) (by
    rw [qreal_conj, qreal_conj, norm_star, norm_star, mul_comm]; exact h)
  rw [qreal_conj r, qreal_conj q, norm_star, norm_star, ← star_mul, mul_comm ‖qreal r‖] at e2
  have e3 : ‖qreal (q.mul r).conj - star (qreal q * qreal r)‖ ≤ 6e-7 * (‖qreal q‖ * ‖qreal r‖) + 1 / 2 ^ 146 := by
    rw [qreal_conj, ← star_sub, norm_star]; exact e1
  rw [norm_sub_rev] at e2
  refine (norm_sub_le_norm_sub_add_norm_sub _ (star (qreal q * qreal r)) _).trans ((add_le_add e3 e2).trans ?_)
  norm_num; linarith

theorem mul_norm_le {q r : Quaternion} (fq : QFinite q) (fr : QFinite r) (h : ‖qreal q‖ * ‖qreal r‖ ≤ 2 ^ 124) :
    ‖qreal (q.mul r)‖ ≤ 1.000001 * (‖qreal q‖ * ‖qreal r‖) + 1 / 2 ^ 146 := by
  obtain ⟨-, e⟩ := C136_mul fq fr h
  have := norm_add_le (qreal (q.mul r) - qreal q * qreal r) (qreal q * qreal r)
  rw [sub_add_cancel, norm_mul] at this
  norm_num at e this ⊢
  have : 0 ≤ ‖qreal q‖ * ‖qreal r‖ := by positivity
  linarith

/-- **C136, associativity.** For lengths at most `2^40`, `(p q) r` and `p (q r)` agree within
`2.5e-6 |p||q||r| + (|p| + |r| + 2) 2^-145`. -/
theorem C136_assoc {p q r : Quaternion} (fp : QFinite p) (fq : QFinite q) (fr : QFinite r)
    (hp : ‖qreal p‖ ≤ 2 ^ 40) (hq : ‖qreal q‖ ≤ 2 ^ 40) (hr : ‖qreal r‖ ≤ 2 ^ 40) :
    ‖qreal ((p.mul q).mul r) - qreal (p.mul (q.mul r))‖ ≤
      2.5e-6 * (‖qreal p‖ * ‖qreal q‖ * ‖qreal r‖) + (‖qreal p‖ + ‖qreal r‖ + 2) / 2 ^ 145 := by
  have p0 := norm_nonneg (qreal p)
  have q0 := norm_nonneg (qreal q)
  have r0 := norm_nonneg (qreal r)
  have b1 : ‖qreal p‖ * ‖qreal q‖ ≤ 2 ^ 80 := (mul_le_mul hp hq q0 (by positivity)).trans (by norm_num)
  have b2 : ‖qreal q‖ * ‖qreal r‖ ≤ 2 ^ 80 := (mul_le_mul hq hr r0 (by positivity)).trans (by norm_num)
  obtain ⟨f1, e1⟩ := C136_mul fp fq (b1.trans (by norm_num))
  obtain ⟨f2, e2⟩ := C136_mul fq fr (b2.trans (by norm_num))
  have n1 := mul_norm_le fp fq (b1.trans (by norm_num))
  have n2 := mul_norm_le fq fr (b2.trans (by norm_num))
  have c1 : ‖qreal (p.mul q)‖ ≤ 2 ^ 79 * 3 := by norm_num at n1 b1 ⊢; linarith
  have c2 : ‖qreal (q.mul r)‖ ≤ 2 ^ 79 * 3 := by norm_num at n2 b2 ⊢; linarith
  obtain ⟨-, e3⟩ := C136_mul f1 fr ((mul_le_mul c1 hr r0 (by positivity)).trans (by norm_num))
  obtain ⟨-, e4⟩ := C136_mul fp f2 ((mul_le_mul hp c2 (norm_nonneg _) (by positivity)).trans (by norm_num))
  have t1 : ‖qreal (p.mul q) * qreal r - qreal p * qreal q * qreal r‖ ≤ (6e-7 * (‖qreal p‖ * ‖qreal q‖) + 1 / 2 ^ 146) * ‖qreal r‖ := by
    rw [← sub_mul, norm_mul]; exact mul_le_mul_of_nonneg_right e1 r0
  have t2 : ‖qreal p * qreal (q.mul r) - qreal p * qreal q * qreal r‖ ≤ ‖qreal p‖ * (6e-7 * (‖qreal q‖ * ‖qreal r‖) + 1 / 2 ^ 146) := by
    rw [mul_assoc, ← mul_sub, norm_mul]; exact mul_le_mul_of_nonneg_left e2 p0
  have s1 := norm_sub_le_norm_sub_add_norm_sub (qreal ((p.mul q).mul r)) (qreal (p.mul q) * qreal r) (qreal p * qreal q * qreal r)
  have s2 := norm_sub_le_norm_sub_add_norm_sub (qreal (p.mul (q.mul r))) (qreal p * qreal (q.mul r)) (qreal p * qreal q * qreal r)
  have s3 := norm_sub_le_norm_sub_add_norm_sub (qreal ((p.mul q).mul r)) (qreal p * qreal q * qreal r) (qreal (p.mul (q.mul r)))
  rw [norm_sub_rev (qreal p * qreal q * qreal r)] at s3
  have m1 := mul_le_mul_of_nonneg_right n1 r0
  have m2 := mul_le_mul_of_nonneg_left n2 p0
  generalize ‖qreal ((p.mul q).mul r) - qreal (p.mul (q.mul r))‖ = X at *
  generalize ‖qreal ((p.mul q).mul r) - qreal p * qreal q * qreal r‖ = Y at *
  generalize ‖qreal (p.mul (q.mul r)) - qreal p * qreal q * qreal r‖ = Z at *
  generalize ‖qreal ((p.mul q).mul r) - qreal (p.mul q) * qreal r‖ = Y1 at *
  generalize ‖qreal (p.mul (q.mul r)) - qreal p * qreal (q.mul r)‖ = Z1 at *
  generalize ‖qreal (p.mul q) * qreal r - qreal p * qreal q * qreal r‖ = Y2 at *
  generalize ‖qreal p * qreal (q.mul r) - qreal p * qreal q * qreal r‖ = Z2 at *
  generalize ‖qreal (p.mul q)‖ * ‖qreal r‖ = U1 at *
  generalize ‖qreal p‖ * ‖qreal (q.mul r)‖ = U2 at *
  obtain ⟨W, hW⟩ : ∃ W, W = ‖qreal p‖ * ‖qreal q‖ * ‖qreal r‖ := ⟨_, rfl⟩
  have W0 : 0 ≤ W := by rw [hW]; positivity
  rw [← hW]
  have g1 : (6e-7 * (‖qreal p‖ * ‖qreal q‖) + 1 / 2 ^ 146) * ‖qreal r‖ = 6e-7 * W + ‖qreal r‖ / 2 ^ 146 := by rw [hW]; ring
  have g2 : ‖qreal p‖ * (6e-7 * (‖qreal q‖ * ‖qreal r‖) + 1 / 2 ^ 146) = 6e-7 * W + ‖qreal p‖ / 2 ^ 146 := by rw [hW]; ring
  have g3 : (1.000001 * (‖qreal p‖ * ‖qreal q‖) + 1 / 2 ^ 146) * ‖qreal r‖ = 1.000001 * W + ‖qreal r‖ / 2 ^ 146 := by rw [hW]; ring
  have g4 : ‖qreal p‖ * (1.000001 * (‖qreal q‖ * ‖qreal r‖) + 1 / 2 ^ 146) = 1.000001 * W + ‖qreal p‖ / 2 ^ 146 := by rw [hW]; ring
  rw [g1] at t1
  rw [g2] at t2
  rw [g3] at m1
  rw [g4] at m2
  generalize ‖qreal p‖ = P at *
  generalize ‖qreal r‖ = R at *
  norm_num at t1 t2 m1 m2 e3 e4 ⊢
  linarith

/-- If the lengths add up to at most `2^120`, `q + r` is within `2^-24 |q + r|` of the exact sum, in norm. -/
theorem add_near {q r : Quaternion} (fq : QFinite q) (fr : QFinite r) (h : ‖qreal q‖ + ‖qreal r‖ ≤ 2 ^ 120) :
    QFinite (q.add r) ∧ ‖qreal (q.add r) - (qreal q + qreal r)‖ ≤ 1 / 2 ^ 24 * ‖qreal q + qreal r‖ := by
  have comp : ∀ {x y : F32}, x.isFinite = true → y.isFinite = true → |(x.val : ℝ) + y.val| ≤ 2 ^ 120 →
      (x + y).isFinite = true ∧ |((x + y).val : ℝ) - (x.val + y.val)| ≤ 1 / 2 ^ 24 * |(x.val : ℝ) + y.val| := by
    intro x y fx fy hb
    have hb' : |x.val + y.val| < ovf := by
      have : ((|x.val + y.val| : ℚ) : ℝ) ≤ ((2 ^ 120 : ℚ) : ℝ) := by push_cast; exact hb
      exact lt_of_le_of_lt (by exact_mod_cast this) (show (2 : ℚ) ^ 120 < ovf by norm_num [ovf])
    obtain ⟨d, hd, f, v⟩ := add_rel fx fy hb'
    refine ⟨f, ?_⟩
    rw [v]
    push_cast
    rw [show ((x.val : ℝ) + y.val) * (1 + d) - (x.val + y.val) = d * (x.val + y.val) by ring, abs_mul]
    refine mul_le_mul_of_nonneg_right ?_ (abs_nonneg _)
    have := (Rat.cast_le (K := ℝ)).2 hd
    push_cast at this
    exact this
  obtain ⟨q1, q2, q3, q4⟩ := fq
  obtain ⟨r1, r2, r3, r4⟩ := fr
  have hS : ‖qreal q + qreal r‖ ≤ 2 ^ 120 := (norm_add_le _ _).trans h
  have ns := Geom.norm_sq_eq (qreal q + qreal r)
  simp only [_root_.Quaternion.re_add, _root_.Quaternion.imI_add, _root_.Quaternion.imJ_add, _root_.Quaternion.imK_add,
    (qreal_proj q).1, (qreal_proj q).2.1, (qreal_proj q).2.2.1, (qreal_proj q).2.2.2,
    (qreal_proj r).1, (qreal_proj r).2.1, (qreal_proj r).2.2.1, (qreal_proj r).2.2.2] at ns
  have N0 := norm_nonneg (qreal q + qreal r)
  have bd : ∀ {t : ℝ}, t ^ 2 ≤ ‖qreal q + qreal r‖ ^ 2 → |t| ≤ 2 ^ 120 := fun ht => (abs_le_of_sq_le_sq ht N0).trans hS
  have n1 := sq_nonneg ((q.a.val : ℝ) + r.a.val)
  have n2 := sq_nonneg ((q.b.val : ℝ) + r.b.val)
  have n3 := sq_nonneg ((q.c.val : ℝ) + r.c.val)
  have n4 := sq_nonneg ((q.d.val : ℝ) + r.d.val)
  obtain ⟨f1, c1⟩ := comp q1 r1 (bd (by rw [ns]; linarith))
  obtain ⟨f2, c2⟩ := comp q2 r2 (bd (by rw [ns]; linarith))
  obtain ⟨f3, c3⟩ := comp q3 r3 (bd (by rw [ns]; linarith))
  obtain ⟨f4, c4⟩ := comp q4 r4 (bd (by rw [ns]; linarith))
  refine ⟨⟨f1, f2, f3, f4⟩, ?_⟩
  have sq : ∀ {t s : ℝ}, |t| ≤ 1 / 2 ^ 24 * |s| → t ^ 2 ≤ (1 / 2 ^ 24) ^ 2 * s ^ 2 := by
    intro t s ht
    rw [← sq_abs t, ← sq_abs s, ← mul_pow]
    exact pow_le_pow_left₀ (abs_nonneg _) ht 2
  refine le_of_sq_le_sq ?_ (by positivity)
  rw [mul_pow, ns, Geom.norm_sq_eq]
  simp only [_root_.Quaternion.re_sub, _root_.Quaternion.imI_sub, _root_.Quaternion.imJ_sub, _root_.Quaternion.imK_sub,
    _root_.Quaternion.re_add, _root_.Quaternion.imI_add, _root_.Quaternion.imJ_add, _root_.Quaternion.imK_add]
  have d1 := sq c1
  have d2 := sq c2
  have d3 := sq c3
  have d4 := sq c4
  refine le_trans (add_le_add (add_le_add (add_le_add d1 d2) d3) d4) (le_of_eq (by ring))

theorem add_norm_le {q r : Quaternion} (fq : QFinite q) (fr : QFinite r) (h : ‖qreal q‖ + ‖qreal r‖ ≤ 2 ^ 120) :
    ‖qreal (q.add r)‖ ≤ 1.0000001 * (‖qreal q‖ + ‖qreal r‖) := by
  obtain ⟨-, e⟩ := add_near fq fr h
  have h1 := norm_add_le (qreal (q.add r) - (qreal q + qreal r)) (qreal q + qreal r)
  rw [sub_add_cancel] at h1
  have h2 := norm_add_le (qreal q) (qreal r)
  have := norm_nonneg (qreal q)
  have := norm_nonneg (qreal r)
  norm_num at e ⊢
  linarith

/-- **C136, distributivity.** If `|p| (|q| + |r|)` and `|q| + |r|` are at most `2^118`, then `p (q + r)` and `p q + p r` agree within
`1.4e-6 |p| (|q| + |r|) + 2^-144`. -/
theorem C136_distrib {p q r : Quaternion} (fp : QFinite p) (fq : QFinite q) (fr : QFinite r)
    (hs : ‖qreal q‖ + ‖qreal r‖ ≤ 2 ^ 118) (h : ‖qreal p‖ * (‖qreal q‖ + ‖qreal r‖) ≤ 2 ^ 118) :
    ‖qreal (p.mul (q.add r)) - qreal ((p.mul q).add (p.mul r))‖ ≤
      1.4e-6 * (‖qreal p‖ * (‖qreal q‖ + ‖qreal r‖)) + 1 / 2 ^ 144 := by
  have p0 := norm_nonneg (qreal p)
  have q0 := norm_nonneg (qreal q)
  have r0 := norm_nonneg (qreal r)
  have bq := mul_nonneg p0 q0
  have br := mul_nonneg p0 r0
  rw [mul_add] at h ⊢
  obtain ⟨f1, e1⟩ := add_near fq fr (hs.trans (by norm_num))
  have n1 := add_norm_le fq fr (hs.trans (by norm_num))
  have n1' := mul_le_mul_of_nonneg_left n1 p0
  have eb : ‖qreal p‖ * (1.0000001 * (‖qreal q‖ + ‖qreal r‖)) = 1.0000001 * (‖qreal p‖ * ‖qreal q‖ + ‖qreal p‖ * ‖qreal r‖) := by ring
  rw [eb] at n1'
  obtain ⟨-, e2⟩ := C136_mul fp f1 (n1'.trans (by norm_num at h ⊢; linarith))
  have h1 : ‖qreal p‖ * ‖qreal q‖ ≤ 2 ^ 124 := by norm_num at h ⊢; linarith
  have h2 : ‖qreal p‖ * ‖qreal r‖ ≤ 2 ^ 124 := by norm_num at h ⊢; linarith
  obtain ⟨f3, e3⟩ := C136_mul fp fq h1
  obtain ⟨f4, e4⟩ := C136_mul fp fr h2
  have n3 := mul_norm_le fp fq h1
  have n4 := mul_norm_le fp fr h2
  obtain ⟨-, e5⟩ := add_near f3 f4 (by norm_num at n3 n4 h ⊢; linarith)
  have n5 := norm_add_le (qreal (p.mul q)) (qreal (p.mul r))
  have t1 : ‖qreal p * qreal (q.add r) - (qreal p * qreal q + qreal p * qreal r)‖ ≤
      1 / 2 ^ 24 * (‖qreal p‖ * ‖qreal q‖ + ‖qreal p‖ * ‖qreal r‖) := by
    rw [← mul_add, ← mul_sub, norm_mul]
    refine (mul_le_mul_of_nonneg_left (e1.trans (mul_le_mul_of_nonneg_left (norm_add_le _ _) (by norm_num))) p0).trans (le_of_eq ?_)
    ring
  have t2 : ‖qreal (p.mul q) + qreal (p.mul r) - (qreal p * qreal q + qreal p * qreal r)‖ ≤ _ :=
    (by rw [add_sub_add_comm] : ‖qreal (p.mul q) + qreal (p.mul r) - (qreal p * qreal q + qreal p * qreal r)‖ =
      ‖(qreal (p.mul q) - qreal p * qreal q) + (qreal (p.mul r) - qreal p * qreal r)‖).le.trans (norm_add_le _ _)
  have s1 := norm_sub_le_norm_sub_add_norm_sub (qreal (p.mul (q.add r))) (qreal p * qreal (q.add r)) (qreal p * qreal q + qreal p * qreal r)
  have s2 := norm_sub_le_norm_sub_add_norm_sub (qreal ((p.mul q).add (p.mul r))) (qreal (p.mul q) + qreal (p.mul r)) (qreal p * qreal q + qreal p * qreal r)
  have s3 := norm_sub_le_norm_sub_add_norm_sub (qreal (p.mul (q.add r))) (qreal p * qreal q + qreal p * qreal r) (qreal ((p.mul q).add (p.mul r)))
  rw [norm_sub_rev (qreal p * qreal q + qreal p * qreal r)] at s3
  generalize ‖qreal (p.mul (q.add r)) - qreal ((p.mul q).add (p.mul r))‖ = X at *
  generalize ‖qreal p‖ * ‖qreal (q.add r)‖ = B1 at *
  generalize ‖qreal p‖ * ‖qreal q‖ = PQ at *
  generalize ‖qreal p‖ * ‖qreal r‖ = PR at *
  norm_num at e2 e3 e4 n3 n4 e5 t1 n1' ⊢
  linarith

/-- The squared norm is within `3e-7 |q|^2 + 2^-147` of the exact value. -/
theorem norm_near {q : Quaternion} (fq : QFinite q) (h : ‖qreal q‖ ^ 2 ≤ 2 ^ 124) :
    q.norm.isFinite = true ∧ |(q.norm.val : ℝ) - ‖qreal q‖ ^ 2| ≤ 3e-7 * ‖qreal q‖ ^ 2 + 1 / 2 ^ 147 := by
  have e : (qmag (qval q) (qval q)).re = qlen q := by
    simp only [qmag, qval, qlen, abs_mul_self]; ring
  have h' : qlen q ≤ 2 ^ 125 := by
    rw [qreal_norm] at h
    have : ((qlen q : ℚ) : ℝ) ≤ ((2 ^ 125 : ℚ) : ℝ) := by push_cast; exact h.trans (by norm_num)
    exact_mod_cast this
  obtain ⟨f, b⟩ := C66_norm_err fq fq (by rw [e]; exact h')
  rw [e] at b
  refine ⟨f, ?_⟩
  have e2 : q.a.val * q.a.val + q.b.val * q.b.val + q.c.val * q.c.val + q.d.val * q.d.val = qlen q := by
    simp only [qlen]; ring
  rw [e2] at b
  have b' := (Rat.cast_le (K := ℝ)).2 b
  push_cast at b'
  rw [qreal_norm]
  have n0 : (0 : ℝ) ≤ qlen q := by rw [← qreal_norm]; positivity
  refine (show |(q.norm.val : ℝ) - qlen q| ≤ _ from b').trans ?_
  norm_num; linarith

/-- **C136, norms multiply.** For lengths at most `2^30`, `norm(p q)` and `norm(p) * norm(q)` agree within
`2.5e-6 |p|^2 |q|^2 + (|p|^2 + |q|^2 + 1) 2^-143`. -/
theorem C136_norm {p q : Quaternion} (fp : QFinite p) (fq : QFinite q) (hp : ‖qreal p‖ ≤ 2 ^ 30) (hq : ‖qreal q‖ ≤ 2 ^ 30) :
    |((p.mul q).norm.val : ℝ) - (p.norm * q.norm).val| ≤
      2.5e-6 * (‖qreal p‖ ^ 2 * ‖qreal q‖ ^ 2) + (‖qreal p‖ ^ 2 + ‖qreal q‖ ^ 2 + 1) / 2 ^ 143 := by
  have p0 := norm_nonneg (qreal p)
  have q0 := norm_nonneg (qreal q)
  have bpq : ‖qreal p‖ * ‖qreal q‖ ≤ 2 ^ 60 := (mul_le_mul hp hq q0 (by positivity)).trans (by norm_num)
  obtain ⟨f1, e1⟩ := C136_mul fp fq (bpq.trans (by norm_num))
  have n1 := mul_norm_le fp fq (bpq.trans (by norm_num))
  have bp2 : ‖qreal p‖ ^ 2 ≤ 2 ^ 60 := (pow_le_pow_left₀ p0 hp 2).trans (by norm_num)
  have bq2 : ‖qreal q‖ ^ 2 ≤ 2 ^ 60 := (pow_le_pow_left₀ q0 hq 2).trans (by norm_num)
  have bm : ‖qreal (p.mul q)‖ ≤ 2 ^ 61 := by norm_num at n1 bpq ⊢; linarith
  have bm2 : ‖qreal (p.mul q)‖ ^ 2 ≤ 2 ^ 124 := (pow_le_pow_left₀ (norm_nonneg _) bm 2).trans (by norm_num)
  obtain ⟨f2, e2⟩ := norm_near f1 bm2
  obtain ⟨f3, e3⟩ := norm_near fp (bp2.trans (by norm_num))
  obtain ⟨f4, e4⟩ := norm_near fq (bq2.trans (by norm_num))
  have lo : ‖qreal p‖ * ‖qreal q‖ - (6e-7 * (‖qreal p‖ * ‖qreal q‖) + 1 / 2 ^ 146) ≤ ‖qreal (p.mul q)‖ := by
    have := norm_sub_le_norm_sub_add_norm_sub (qreal p * qreal q) (qreal (p.mul q)) 0
    rw [sub_zero, sub_zero, norm_sub_rev, norm_mul] at this
    linarith
  have hi : ‖qreal (p.mul q)‖ ≤ ‖qreal p‖ * ‖qreal q‖ + (6e-7 * (‖qreal p‖ * ‖qreal q‖) + 1 / 2 ^ 146) := by
    have := norm_add_le (qreal (p.mul q) - qreal p * qreal q) (qreal p * qreal q)
    rw [sub_add_cancel, norm_mul] at this
    linarith
  have M0 := norm_nonneg (qreal (p.mul q))
  generalize ‖qreal (p.mul q)‖ = M at *
  have N0 : 0 ≤ ‖qreal p‖ * ‖qreal q‖ := by positivity
  have am : 2 * (‖qreal p‖ * ‖qreal q‖) ≤ ‖qreal p‖ ^ 2 + ‖qreal q‖ ^ 2 := by nlinarith [sq_nonneg (‖qreal p‖ - ‖qreal q‖)]
  have e0 : ‖qreal p‖ ^ 2 * ‖qreal q‖ ^ 2 = (‖qreal p‖ * ‖qreal q‖) ^ 2 := by ring
  have A0 : 0 ≤ ‖qreal p‖ ^ 2 := sq_nonneg _
  have B0 : 0 ≤ ‖qreal q‖ ^ 2 := sq_nonneg _
  clear p0 q0 e1 fp fq hp hq
  generalize ‖qreal p‖ ^ 2 = A at *
  generalize ‖qreal q‖ ^ 2 = B at *
  generalize ‖qreal p‖ * ‖qreal q‖ = N at *
  -- the exact product of the two float norms
  have x1 := abs_le.1 e3
  have x2 := abs_le.1 e4
  obtain ⟨a, ha⟩ : ∃ a : ℝ, a = p.norm.val := ⟨_, rfl⟩
  obtain ⟨b, hb⟩ : ∃ b : ℝ, b = q.norm.val := ⟨_, rfl⟩
  rw [← ha] at x1
  rw [← hb] at x2
  have ab : |a * b - A * B| ≤ 6.1e-7 * (A * B) + (A + B + 1) / 2 ^ 146 := by
    obtain ⟨u, hu⟩ : ∃ u, u = a - A := ⟨_, rfl⟩
    obtain ⟨v, hv⟩ : ∃ v, v = b - B := ⟨_, rfl⟩
    have hu' : |u| ≤ 3e-7 * A + 1 / 2 ^ 147 := by rw [hu]; exact abs_le.2 x1
    have hv' : |v| ≤ 3e-7 * B + 1 / 2 ^ 147 := by rw [hv]; exact abs_le.2 x2
    have : a * b - A * B = u * B + A * v + u * v := by rw [hu, hv]; ring
    rw [this]
    refine (abs_add_three _ _ _).trans ?_
    rw [abs_mul, abs_mul, abs_mul, abs_of_nonneg A0, abs_of_nonneg B0]
    have t1 := mul_le_mul_of_nonneg_right hu' B0
    have t2 := mul_le_mul_of_nonneg_left hv' A0
    have t3 := mul_le_mul hu' hv' (abs_nonneg _) (by positivity)
    have AB0 := mul_nonneg A0 B0
    refine (add_le_add (add_le_add t1 t2) t3).trans ?_
    ring_nf
    norm_num
    nlinarith
  have AB : A * B ≤ 2 ^ 120 := (mul_le_mul bp2 bq2 B0 (by positivity)).trans (by norm_num)
  have ovab : |p.norm.val * q.norm.val| < ovf := by
    have : ((|p.norm.val * q.norm.val| : ℚ) : ℝ) ≤ ((2 ^ 121 : ℚ) : ℝ) := by
      push_cast
      rw [← ha, ← hb]
      have := abs_le.1 ab
      refine abs_le.2 ⟨?_, ?_⟩
      · norm_num at this AB bp2 bq2 ⊢; linarith [mul_nonneg A0 B0]
      · norm_num at this AB bp2 bq2 ⊢; linarith
    exact lt_of_le_of_lt (by exact_mod_cast this) (show (2 : ℚ) ^ 121 < ovf by norm_num [ovf])
  obtain ⟨f5, v5⟩ := mul_val f3 f4 ovab
  have e5 : |(p.norm * q.norm).val - p.norm.val * q.norm.val| ≤ 1 / 2 ^ 24 * |p.norm.val * q.norm.val| + 1 / 2 ^ 150 := by
    rw [v5]
    have := abs_nonneg (p.norm.val * q.norm.val)
    exact (RN_err _).trans (max_le (by linarith) (by linarith [show (0 : ℚ) ≤ 1 / 2 ^ 150 by norm_num]))
  have e5' : |((p.norm * q.norm).val : ℝ) - a * b| ≤ 1 / 2 ^ 24 * |a * b| + 1 / 2 ^ 150 := by
    have := (Rat.cast_le (K := ℝ)).2 e5
    push_cast at this
    rw [ha, hb]
    exact this
  have e2' := abs_le.1 e2
  have e5'' := abs_le.1 e5'
  have ab' := abs_le.1 ab
  have abA : |a * b| ≤ 1.1 * (A * B) + (A + B + 1) / 2 ^ 146 := by
    refine abs_le.2 ⟨?_, ?_⟩
    · norm_num at ab' ⊢; linarith [mul_nonneg A0 B0]
    · norm_num at ab' ⊢; linarith [mul_nonneg A0 B0]
  have hM : M ^ 2 ≤ 1.00000121 * N ^ 2 + (A + B + 1) / 2 ^ 145 := by
    have := mul_self_le_mul_self M0 hi
    have e : (N + (6e-7 * N + 1 / 2 ^ 146)) * (N + (6e-7 * N + 1 / 2 ^ 146)) =
      1.0000006 ^ 2 * N ^ 2 + 2 * 1.0000006 / 2 ^ 146 * N + 1 / 2 ^ 292 := by ring
    rw [e] at this
    have h1 : (1.0000006 : ℝ) ^ 2 * N ^ 2 ≤ 1.00000121 * N ^ 2 := mul_le_mul_of_nonneg_right (by norm_num) (sq_nonneg N)
    rw [sq]
    generalize N ^ 2 = N2 at *
    norm_num at this am h1 ⊢
    linarith
  have hM' : 0.99999879 * N ^ 2 - (A + B + 1) / 2 ^ 145 ≤ M ^ 2 := by
    by_cases hz : 0 ≤ N - (6e-7 * N + 1 / 2 ^ 146)
    · have := mul_self_le_mul_self hz lo
      have e : (N - (6e-7 * N + 1 / 2 ^ 146)) * (N - (6e-7 * N + 1 / 2 ^ 146)) =
        0.9999994 ^ 2 * N ^ 2 - 2 * 0.9999994 / 2 ^ 146 * N + 1 / 2 ^ 292 := by ring
      rw [e] at this
      have h1 : (0.99999879 : ℝ) * N ^ 2 ≤ 0.9999994 ^ 2 * N ^ 2 := mul_le_mul_of_nonneg_right (by norm_num) (sq_nonneg N)
      rw [sq M]
      generalize N ^ 2 = N2 at *
      norm_num at this am h1 ⊢
      linarith
    · push Not at hz
      have : N ≤ 1 / 2 ^ 145 := by norm_num at hz ⊢; linarith
      have h3 : N ^ 2 ≤ N * (1 / 2 ^ 145) := by rw [sq]; exact mul_le_mul_of_nonneg_left this N0
      have M2 := sq_nonneg M
      have N2 := sq_nonneg N
      norm_num at h3 am ⊢
      linarith
  rw [e0] at *
  have N2 := sq_nonneg N
  refine abs_le.2 ⟨?_, ?_⟩
  · norm_num at e2' e5'' ab' abA hM hM' ⊢; linarith
  · norm_num at e2' e5'' ab' abA hM hM' ⊢; linarith

theorem sub_neg_eqv (x y : F32) : Eqv (x - -y) (x + y) := by
  have := sub_eq_add_neg_eqv x (-y)
  rwa [neg_neg'] at this

/-- **C136, product with the conjugate, real part.** For every quaternion, with any components, the real parts of `q conj(q)` and
`conj(q) q` are `norm(q)` bit for bit (or all are NaN). -/
theorem C136_conj_re (q : Quaternion) : Eqv (q.mul q.conj).a q.norm ∧ Eqv (q.conj.mul q).a q.norm := by
  constructor
  · exact (Eqv.sub (Eqv.sub (Eqv.sub Eqv.rfl (mul_neg_eqv _ _)) (mul_neg_eqv _ _)) (mul_neg_eqv _ _)).trans
      ((Eqv.sub (Eqv.sub (sub_neg_eqv _ _) Eqv.rfl) Eqv.rfl).trans
      ((Eqv.sub (sub_neg_eqv _ _) Eqv.rfl).trans (sub_neg_eqv _ _)))
  · exact (Eqv.sub (Eqv.sub (Eqv.sub Eqv.rfl (neg_mul_eqv _ _)) (neg_mul_eqv _ _)) (neg_mul_eqv _ _)).trans
      ((Eqv.sub (Eqv.sub (sub_neg_eqv _ _) Eqv.rfl) Eqv.rfl).trans
      ((Eqv.sub (sub_neg_eqv _ _) Eqv.rfl).trans (sub_neg_eqv _ _)))

theorem neg_add_self_zero {x : F32} (fx : x.isFinite = true) : -x + x = posZero := by
  rw [add_comm_fin (by rw [isFinite_neg]; exact fx) fx, ← (sub_eq_add_neg_eqv x x).eq (by rw [sub_self_zero fx]; rfl), sub_self_zero fx]

theorem zero_add_sub_cancel {t : F32} (ft : t.isFinite = true) : posZero + t - t = posZero := by
  by_cases h : t.val = 0
  · have m := val_eq_zero.1 h
    cases hs : t.sign
    · rw [show t = posZero from ext_mag_sign m hs]; rfl
    · rw [show t = negZero from ext_mag_sign m hs]; rfl
  · have e : (posZero + t) = t := by
      have z : (posZero : F32).isFinite = true := rfl
      have zv : (posZero : F32).val = 0 := val_eq_zero.2 rfl
      obtain ⟨f, v⟩ := add_val z ft (by rw [zv, zero_add]; exact abs_val_lt_ovf ft)
      rw [zv, zero_add, RN_of_rep (rep_val t)] at v
      exact eq_of_val_ne v (by rw [v]; exact h)
    rw [e, sub_self_zero ft]

/-- **C136, product with the conjugate, first imaginary part.** When the four products do not overflow, the `i` parts of
`q conj(q)` and `conj(q) q` are exactly `+0`. -/
theorem C136_conj_i {q : Quaternion} (fq : QFinite q) (h1 : (q.a * q.b).isFinite = true) (h2 : (q.c * q.d).isFinite = true) :
    (q.mul q.conj).b = posZero ∧ (q.conj.mul q).b = posZero := by
  obtain ⟨fa, fb, fc, fd⟩ := fq
  have n2 : (-(q.c * q.d)).isFinite = true := by rw [isFinite_neg]; exact h2
  constructor
  · show q.a * -q.b + q.b * q.a + q.c * -q.d - q.d * -q.c = posZero
    rw [mul_neg_fin fa fb, mul_comm_fin fb fa, neg_add_self_zero h1, mul_neg_fin fc fd, mul_neg_fin fd fc, mul_comm_fin fd fc,
      zero_add_sub_cancel n2]
  · show q.a * q.b + -q.b * q.a + -q.c * q.d - -q.d * q.c = posZero
    rw [neg_mul_fin fb fa, mul_comm_fin fb fa, neg_mul_fin fc fd, neg_mul_fin fd fc, mul_comm_fin fd fc,
      ← (sub_eq_add_neg_eqv (q.a * q.b) (q.a * q.b)).eq (by rw [sub_self_zero h1]; rfl), sub_self_zero h1,
      zero_add_sub_cancel n2]

/-- **C136, product with the conjugate, other imaginary parts.** They are within `6e-7 |q|^2 + 2^-146` of zero. -/
theorem C136_conj_jk {q : Quaternion} (fq : QFinite q) (h : ‖qreal q‖ ^ 2 ≤ 2 ^ 124) :
    |((q.mul q.conj).c.val : ℝ)| ≤ 6e-7 * ‖qreal q‖ ^ 2 + 1 / 2 ^ 146 ∧
    |((q.mul q.conj).d.val : ℝ)| ≤ 6e-7 * ‖qreal q‖ ^ 2 + 1 / 2 ^ 146 := by
  have nc : ‖qreal q.conj‖ = ‖qreal q‖ := by rw [qreal_conj, norm_star]
  obtain ⟨-, e⟩ := C136_mul fq (conj_finite fq) (by rw [nc, ← sq]; exact h)
  rw [nc, ← sq, qreal_conj] at e
  have c := Geom.norm_sq_eq (qreal (q.mul q.conj) - qreal q * star (qreal q))
  have hj : (qreal q * star (qreal q)).imJ = 0 := by
    rw [_root_.Quaternion.self_mul_star]; rfl
  have hk : (qreal q * star (qreal q)).imK = 0 := by
    rw [_root_.Quaternion.self_mul_star]; rfl
  rw [_root_.Quaternion.imJ_sub, _root_.Quaternion.imK_sub, hj, hk, sub_zero, sub_zero] at c
  have n0 := norm_nonneg (qreal (q.mul q.conj) - qreal q * star (qreal q))
  have s0 := sq_nonneg (qreal (q.mul q.conj) - qreal q * star (qreal q)).re
  have s1 := sq_nonneg (qreal (q.mul q.conj) - qreal q * star (qreal q)).imI
  have s2 := sq_nonneg (qreal (q.mul q.conj)).imJ
  have s3 := sq_nonneg (qreal (q.mul q.conj)).imK
  have kj : (qreal (q.mul q.conj)).imJ ^ 2 ≤ ‖qreal (q.mul q.conj) - qreal q * star (qreal q)‖ ^ 2 := by rw [c]; linarith
  have kk : (qreal (q.mul q.conj)).imK ^ 2 ≤ ‖qreal (q.mul q.conj) - qreal q * star (qreal q)‖ ^ 2 := by rw [c]; linarith
  exact ⟨(abs_le_of_sq_le_sq kj n0).trans e, (abs_le_of_sq_le_sq kk n0).trans e⟩

/-- **C136, the laws are not exact.** With `q = (1, 2^-15, 1, 2^-15)` the `j` part of `q conj(q)` is `-2^-30`, not zero. -/
theorem C136_conj_false :
    let q : Quaternion := ⟨one, ⟨0x38000000#32⟩, one, ⟨0x38000000#32⟩⟩
    (q.mul q.conj).c = ⟨0xb0800000#32⟩ ∧ (q.mul q.conj).b = posZero := by
  exact ⟨eval_eq (by kernel_rfl), eval_eq (by kernel_rfl)⟩

omit [Cfg] in
/-- **C136, a case.** `p = (1, 2, 3, 4)` and `q = (5, -6, 7, 8)` meet the hypotheses of every law above, and are not trivial:
`|p|^2 = 30` and `|q|^2 = 174`. -/
theorem C136_case :
    let p := unitQ 1 2 3 4
    let q := unitQ 5 (-6) 7 8
    QFinite p ∧ QFinite q ∧ ‖qreal p‖ ^ 2 = 30 ∧ ‖qreal q‖ ^ 2 = 174 ∧ ‖qreal p‖ ≤ 2 ^ 30 ∧ ‖qreal q‖ ≤ 2 ^ 30 := by
  intro p q
  have i1 : IsVal (ofInt 1) (1 : Int) := ofInt_isVal (by decide)
  have i2 : IsVal (ofInt 2) (2 : Int) := ofInt_isVal (by decide)
  have i3 : IsVal (ofInt 3) (3 : Int) := ofInt_isVal (by decide)
  have i4 : IsVal (ofInt 4) (4 : Int) := ofInt_isVal (by decide)
  have i5 : IsVal (ofInt 5) (5 : Int) := ofInt_isVal (by decide)
  have i6 : IsVal (ofInt (-6)) (-6 : Int) := ofInt_isVal (by decide)
  have i7 : IsVal (ofInt 7) (7 : Int) := ofInt_isVal (by decide)
  have i8 : IsVal (ofInt 8) (8 : Int) := ofInt_isVal (by decide)
  have hp : ‖qreal p‖ ^ 2 = 30 := by
    rw [qreal_norm]
    have : qlen p = 30 := by simp only [qlen, p, unitQ, i1.2, i2.2, i3.2, i4.2]; norm_num
    rw [this]; norm_num
  have hq : ‖qreal q‖ ^ 2 = 174 := by
    rw [qreal_norm]
    have : qlen q = 174 := by simp only [qlen, q, unitQ, i5.2, i6.2, i7.2, i8.2]; norm_num
    rw [this]; norm_num
  exact ⟨⟨i1.1, i2.1, i3.1, i4.1⟩, ⟨i5.1, i6.1, i7.1, i8.1⟩, hp, hq,
    le_of_sq_le_sq (by rw [hp]; norm_num) (by norm_num), le_of_sq_le_sq (by rw [hq]; norm_num) (by norm_num)⟩

end Micromath.Props
