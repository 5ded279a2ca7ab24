import Verif.Props.QuatRot
import Verif.Real.QuatGeom

/-!
# C91-C93: `Quaternion::from_two_vectors`
-/

set_option exponentiation.threshold 1000

namespace Micromath.Props
open F32 Spec

variable [Cfg]

/-- Scaling a quaternion by `invsqrt` of its norm. -/
theorem scale_norm {q : Quaternion} (hq : QFinite q) (h1 : 1 / 2 ^ 100 ≤ qlen q) (h2 : qlen q ≤ 2 ^ 124) :
    ∃ n : F32, F32.invsqrt q.norm = .ok n ∧ (0 < n.val ∧ n.isFinite = true ∧ qlen q * n.val ^ 2 ≤ 1.08) ∧ 0.92 ≤ qlen q * n.val ^ 2 ∧ QFinite (q.scale n) ∧
      0.9299 ≤ qlen (q.scale n) ∧ qlen (q.scale n) ≤ 1.0701 ∧
      |(q.scale n).a.val - q.a.val * n.val| ≤ |q.a.val * n.val| / 2 ^ 24 + 1 / 2 ^ 150 ∧
      |(q.scale n).b.val - q.b.val * n.val| ≤ |q.b.val * n.val| / 2 ^ 24 + 1 / 2 ^ 150 ∧
      |(q.scale n).c.val - q.c.val * n.val| ≤ |q.c.val * n.val| / 2 ^ 24 + 1 / 2 ^ 150 ∧
      |(q.scale n).d.val - q.d.val * n.val| ≤ |q.d.val * n.val| / 2 ^ 24 + 1 / 2 ^ 150 := by
  obtain ⟨hp, s1, s2⟩ := (norm_sumSq hq h2).normal h1
  obtain ⟨n, hn, fn, pn, n1, n2, -⟩ := C17_invsqrt q.norm hp
  change (1 - 7 / 2 ^ 24) * qlen q ≤ _ at s1
  change _ ≤ (1 + 7 / 2 ^ 24) * qlen q at s2
  have hQ : 0 < qlen q := lt_of_lt_of_le (by positivity) h1
  have hn2 : 0 < n.val ^ 2 := by positivity
  have t1 := mul_le_mul_of_nonneg_right s1 hn2.le
  have t2 := mul_le_mul_of_nonneg_right s2 hn2.le
  have u1 : qlen q * n.val ^ 2 ≤ 1.07005 := by norm_num at *; linarith
  have u2 : 0.92995 ≤ qlen q * n.val ^ 2 := by norm_num at *; linarith
  have u3 : qlen q * n.val ^ 2 ≤ 1.08 := by norm_num at *; linarith
  have na := sq_nonneg q.a.val
  have nb := sq_nonneg q.b.val
  have nc := sq_nonneg q.c.val
  have nd := sq_nonneg q.d.val
  have bd : ∀ x : F32, x.val ^ 2 ≤ qlen q → |x.val * n.val| < ovf := fun x hx => by
    refine lt_of_le_of_lt (b := 2) ?_ (by norm_num [ovf])
    refine abs_le_of_sq_le_sq ?_ (by norm_num)
    rw [mul_pow]
    have := mul_le_mul_of_nonneg_right hx (sq_nonneg n.val)
    norm_num at u3 ⊢
    linarith
  have la : q.a.val ^ 2 ≤ qlen q := by unfold qlen; linarith
  have lb : q.b.val ^ 2 ≤ qlen q := by unfold qlen; linarith
  have lc : q.c.val ^ 2 ≤ qlen q := by unfold qlen; linarith
  have ld : q.d.val ^ 2 ≤ qlen q := by unfold qlen; linarith
  obtain ⟨fa, ea⟩ := qnorm_comp hq.1 fn la u3
  obtain ⟨fb, eb⟩ := qnorm_comp hq.2.1 fn lb u3
  obtain ⟨fc, ec⟩ := qnorm_comp hq.2.2.1 fn lc u3
  obtain ⟨fd, ed⟩ := qnorm_comp hq.2.2.2 fn ld u3
  refine ⟨n, hn, ⟨pn, fn, u3⟩, by norm_num at u2 ⊢; linarith, ⟨fa, fb, fc, fd⟩, ?_, ?_, (mul_err_uf hq.1 fn (bd _ la)).2, (mul_err_uf hq.2.1 fn (bd _ lb)).2,
    (mul_err_uf hq.2.2.1 fn (bd _ lc)).2, (mul_err_uf hq.2.2.2 fn (bd _ ld)).2⟩ <;>
  · clear t1 t2 s1 s2 n1 n2 h1 h2 bd
    rw [abs_le] at ea eb ec ed
    unfold qlen at u1 u2 ⊢
    simp only [Quaternion.scale] at *
    norm_num at *
    linarith

omit [Cfg] in
/-- Cauchy-Schwarz in the forms needed. -/
theorem cauchy3 {a b c x y z N : ℝ} (hN : 0 ≤ N) (h : N ^ 2 = (a ^ 2 + b ^ 2 + c ^ 2) * (x ^ 2 + y ^ 2 + z ^ 2)) :
    |a * x| + |b * y| + |c * z| ≤ N ∧ |b * z| + |c * y| ≤ N ∧ |c * x| + |a * z| ≤ N ∧ |a * y| + |b * x| ≤ N := by
  simp only [abs_mul]
  rw [← sq_abs a, ← sq_abs b, ← sq_abs c, ← sq_abs x, ← sq_abs y, ← sq_abs z] at h
  generalize |a| = a at *
  generalize |b| = b at *
  generalize |c| = c at *
  generalize |x| = x at *
  generalize |y| = y at *
  generalize |z| = z at *
  refine ⟨?_, ?_, ?_, ?_⟩ <;>
  · refine abs_le_of_sq_le_sq' ?_ hN |>.2
    rw [h]
    linarith [sq_nonneg (a * y - b * x), sq_nonneg (b * z - c * y), sq_nonneg (c * x - a * z), sq_nonneg (a * x - b * y),
      sq_nonneg (b * y - c * z), sq_nonneg (a * x - c * z), sq_nonneg (a * x), sq_nonneg (a * y), sq_nonneg (a * z), sq_nonneg (b * x), sq_nonneg (b * y), sq_nonneg (b * z), sq_nonneg (c * x), sq_nonneg (c * y), sq_nonneg (c * z)]

/-- The two quantities computed first: `n = sqrt((u·u)(v·v))` and `R = n + u·v`. `N` is the exact `|u||v|`, `D` the exact dot
product and `M` the sum of the magnitudes of its terms. -/
theorem real_part {uu vv uv : F32} {Lu Lv D M : ℚ} {N : ℝ} (fu : uu.isFinite = true) (fv : vv.isFinite = true) (fd : uv.isFinite = true)
    (eu : |uu.val - Lu| ≤ 5 / 2 ^ 24 * Lu) (ev : |vv.val - Lv| ≤ 5 / 2 ^ 24 * Lv) (ed : |uv.val - D| ≤ 5 / 2 ^ 24 * M + 1 / 2 ^ 147)
    (lu1 : 1 / 2 ^ 28 ≤ Lu) (lu2 : Lu ≤ 2 ^ 60) (lv1 : 1 / 2 ^ 28 ≤ Lv) (lv2 : Lv ≤ 2 ^ 60) (hN : 0 < N) (hN2 : N ^ 2 = Lu * Lv)
    (hM : (M : ℝ) ≤ N) (hD : |D| ≤ M) :
    let n := F32.sqrt (uu * vv)
    n.isFinite = true ∧ 0 < n.val ∧ (1 - 1 / 2 ^ 19) * N ≤ n.val ∧ (n.val : ℝ) ≤ 1.06071 * N ∧
      (n + uv).isFinite = true ∧ |((n + uv).val : ℝ) - (n.val + D)| ≤ 1 / 2 ^ 21 * N := by
  intro n
  have hLu : 0 < Lu := lt_of_lt_of_le (by positivity) lu1
  have hLv : 0 < Lv := lt_of_lt_of_le (by positivity) lv1
  obtain ⟨eu1, eu2⟩ := abs_le.1 eu
  obtain ⟨ev1, ev2⟩ := abs_le.1 ev
  have pu : 0 < uu.val := by linarith
  have pv : 0 < vv.val := by linarith
  have p1 : (1 - 5 / 2 ^ 24) * Lu * ((1 - 5 / 2 ^ 24) * Lv) ≤ uu.val * vv.val :=
    mul_le_mul (by linarith) (by linarith) (by positivity) pu.le
  have p2 : uu.val * vv.val ≤ (1 + 5 / 2 ^ 24) * Lu * ((1 + 5 / 2 ^ 24) * Lv) :=
    mul_le_mul (by linarith) (by linarith) pv.le (by positivity)
  have q1 : 1 / 2 ^ 28 * (1 / 2 ^ 28) ≤ Lu * Lv := mul_le_mul lu1 lv1 (by positivity) hLu.le
  have q2 : Lu * Lv ≤ 2 ^ 60 * 2 ^ 60 := mul_le_mul lu2 lv2 hLv.le (by positivity)
  have ab : |uu.val * vv.val| = uu.val * vv.val := abs_of_pos (mul_pos pu pv)
  have lo : 1 / 2 ^ 126 ≤ |uu.val * vv.val| := by rw [ab]; norm_num at *; linarith
  have hi : |uu.val * vv.val| < ovf := by
    rw [ab]; refine lt_of_le_of_lt (b := 2 ^ 122) ?_ (by norm_num [ovf]); norm_num at *; linarith
  obtain ⟨d, hd, hf, hv⟩ := mul_rel fu fv lo hi
  obtain ⟨d1, d2⟩ := abs_le.1 hd
  have hp := mul_pos pu pv
  have w1 : (1 - 1 / 2 ^ 20) * (Lu * Lv) ≤ (uu * vv).val := by
    rw [hv]
    have := mul_le_mul p1 (by linarith : (1 - 1 / 2 ^ 24 : ℚ) ≤ 1 + d) (by norm_num) hp.le
    refine le_trans ?_ this
    have : 0 < Lu * Lv := mul_pos hLu hLv
    rw [show (1 - 5 / 2 ^ 24) * Lu * ((1 - 5 / 2 ^ 24) * Lv) * (1 - 1 / 2 ^ 24) = ((1 - 5 / 2 ^ 24) ^ 2 * (1 - 1 / 2 ^ 24)) * (Lu * Lv) by ring]
    exact mul_le_mul_of_nonneg_right (by norm_num) this.le
  have w2 : (uu * vv).val ≤ (1 + 1 / 2 ^ 20) * (Lu * Lv) := by
    rw [hv]
    have := mul_le_mul p2 (by linarith : (1 + d : ℚ) ≤ 1 + 1 / 2 ^ 24) (by linarith) (by positivity)
    refine le_trans this ?_
    have : 0 < Lu * Lv := mul_pos hLu hLv
    rw [show (1 + 5 / 2 ^ 24) * Lu * ((1 + 5 / 2 ^ 24) * Lv) * (1 + 1 / 2 ^ 24) = ((1 + 5 / 2 ^ 24) ^ 2 * (1 + 1 / 2 ^ 24)) * (Lu * Lv) by ring]
    exact mul_le_mul_of_nonneg_right (by norm_num) this.le
  obtain ⟨fn, pn, n1, n2, -⟩ := C14_sqrt (uu * vv) ⟨hf, by norm_num at *; linarith⟩
  have m1 : ((1 - 1 / 2 ^ 19) * N) ^ 2 ≤ (n.val : ℝ) ^ 2 := by
    have : (1 - 1 / 2 ^ 19) ^ 2 * (Lu * Lv) ≤ n.val ^ 2 := by norm_num at *; linarith
    have := (Rat.cast_le (K := ℝ)).2 this
    push_cast at this
    rw [mul_pow, hN2]; exact this
  have m2 : (n.val : ℝ) ^ 2 ≤ (1.06071 * N) ^ 2 := by
    have : n.val ^ 2 ≤ 1.06071 ^ 2 * (Lu * Lv) := by norm_num at *; linarith
    have := (Rat.cast_le (K := ℝ)).2 this
    push_cast at this
    rw [mul_pow, hN2]; exact this
  have pn' : (0 : ℝ) < n.val := by exact_mod_cast pn
  have r1 := (sq_le_sq₀ (mul_nonneg (by norm_num) hN.le) pn'.le).1 m1
  have r2 := (sq_le_sq₀ pn'.le (by positivity)).1 m2
  -- the sum
  have hDN : |(D : ℝ)| ≤ N := by
    have : ((|D| : ℚ) : ℝ) ≤ M := by exact_mod_cast hD
    rw [Rat.cast_abs] at this; linarith
  have edR : |(uv.val : ℝ) - D| ≤ 5 / 2 ^ 24 * N + 1 / 2 ^ 147 := by
    have : ((|uv.val - D| : ℚ) : ℝ) ≤ ((5 / 2 ^ 24 * M + 1 / 2 ^ 147 : ℚ) : ℝ) := by exact_mod_cast ed
    rw [Rat.cast_abs] at this
    push_cast at this
    linarith
  have hNl : (1 : ℝ) / 2 ^ 28 ≤ N := by
    refine (sq_le_sq₀ (by positivity) hN.le).1 ?_
    rw [hN2, pow_two]
    have := (Rat.cast_le (K := ℝ)).2 q1
    push_cast at this; linarith
  have hNu : N ≤ 2 ^ 60 := by
    refine (sq_le_sq₀ hN.le (by positivity)).1 ?_
    rw [hN2, pow_two]
    have := (Rat.cast_le (K := ℝ)).2 q2
    push_cast at this; linarith
  obtain ⟨D1, D2⟩ := abs_le.1 hDN
  obtain ⟨g1, g2⟩ := abs_le.1 edR
  have hb : |(n.val + uv.val : ℝ)| ≤ 2.07 * N := by
    rw [abs_le]; constructor <;> norm_num at * <;> linarith
  have hb2 : |n.val + uv.val| < ovf := by
    have h : |(n.val + uv.val : ℝ)| ≤ 2 ^ 62 := by norm_num at *; linarith
    have h2 : |n.val + uv.val| ≤ 2 ^ 62 := by exact_mod_cast h
    exact lt_of_le_of_lt h2 (by norm_num [ovf])
  obtain ⟨d', hd', hf', hv'⟩ := add_rel fn fd hb2
  refine ⟨fn, pn, r1, r2, hf', ?_⟩
  rw [hv']
  push_cast
  have hd'' : |(d' : ℝ)| ≤ 1 / 2 ^ 24 := by
    have : ((|d'| : ℚ) : ℝ) ≤ ((1 / 2 ^ 24 : ℚ) : ℝ) := by exact_mod_cast hd'
    rw [Rat.cast_abs] at this; push_cast at this; exact this
  have hm : |((n.val : ℝ) + uv.val) * d'| ≤ 2.07 * N * (1 / 2 ^ 24) := by
    rw [abs_mul]; exact mul_le_mul hb hd'' (abs_nonneg _) (by positivity)
  obtain ⟨k1, k2⟩ := abs_le.1 hm
  clear hb m1 m2 n1 n2 hm w1 w2 p1 p2 hv hv' eu1 eu2 ev1 ev2 q1 q2 eu ev
  rw [abs_le]; constructor <;> norm_num at * <;> linarith

section
variable {C : Type} [Component C] [IntoF32 C]

/-- The exact dot product of the converted vectors. -/
def dot3 (u v : Vector3d C) : ℚ :=
  (IntoF32.into u.x : F32).val * (IntoF32.into v.x : F32).val + (IntoF32.into u.y : F32).val * (IntoF32.into v.y : F32).val
    + (IntoF32.into u.z : F32).val * (IntoF32.into v.z : F32).val

/-- Sum of the magnitudes of its terms. -/
def mag3 (u v : Vector3d C) : ℚ :=
  |(IntoF32.into u.x : F32).val * (IntoF32.into v.x : F32).val| + |(IntoF32.into u.y : F32).val * (IntoF32.into v.y : F32).val|
    + |(IntoF32.into u.z : F32).val * (IntoF32.into v.z : F32).val|

/-- The components convert to finite floats. -/
def VFinite (v : Vector3d C) : Prop :=
  (IntoF32.into v.x : F32).isFinite = true ∧ (IntoF32.into v.y : F32).isFinite = true ∧ (IntoF32.into v.z : F32).isFinite = true

/-- Both vectors are finite with squared lengths within `2^-28 .. 2^60`, and the three dot products return nearly correct values. -/
structure Dots (u v : Vector3d C) : Prop where
  fu : VFinite u
  fv : VFinite v
  lu1 : 1 / 2 ^ 28 ≤ len3 u
  lu2 : len3 u ≤ 2 ^ 60
  lv1 : 1 / 2 ^ 28 ≤ len3 v
  lv2 : len3 v ≤ 2 ^ 60
  uu : ∃ d, u.dot u = .ok d ∧ (IntoF32.into d : F32).isFinite = true ∧ |(IntoF32.into d : F32).val - len3 u| ≤ 5 / 2 ^ 24 * len3 u
  vv : ∃ d, v.dot v = .ok d ∧ (IntoF32.into d : F32).isFinite = true ∧ |(IntoF32.into d : F32).val - len3 v| ≤ 5 / 2 ^ 24 * len3 v
  uv : ∃ d, u.dot v = .ok d ∧ (IntoF32.into d : F32).isFinite = true ∧
    |(IntoF32.into d : F32).val - dot3 u v| ≤ 5 / 2 ^ 24 * mag3 u v + 1 / 2 ^ 147

omit [Cfg] [Component C] in
theorem mag3_nonneg (u v : Vector3d C) : 0 ≤ mag3 u v ∧ |dot3 u v| ≤ mag3 u v := by
  unfold mag3 dot3
  refine ⟨by positivity, (abs_add_le _ _).trans ?_⟩
  have := abs_add_le ((IntoF32.into u.x : F32).val * (IntoF32.into v.x : F32).val) ((IntoF32.into u.y : F32).val * (IntoF32.into v.y : F32).val)
  linarith

omit [Component C] in
/-- The cross product computed in floats. -/
theorem cross_err {a b c d : F32} {N : ℝ} (fa : a.isFinite = true) (fb : b.isFinite = true) (fc : c.isFinite = true) (fd : d.isFinite = true)
    (hN : |(a.val : ℝ) * b.val| + |(c.val : ℝ) * d.val| ≤ N) (hN2 : N ≤ 2 ^ 60) :
    (a * b - c * d).isFinite = true ∧ |((a * b - c * d).val : ℝ) - (a.val * b.val - c.val * d.val)| ≤ 3 / 2 ^ 24 * N + 1 / 2 ^ 148 := by
  have hA : |a.val * b.val| + |c.val * d.val| ≤ 2 ^ 60 := by
    have : |(a.val : ℝ) * b.val| + |(c.val : ℝ) * d.val| ≤ 2 ^ 60 := hN.trans hN2
    exact_mod_cast this
  have n1 := abs_nonneg (a.val * b.val)
  have n2 := abs_nonneg (c.val * d.val)
  have a1 := Acc.mul fa fb (by linarith)
  have a2 := Acc.mul fc fd (by linarith)
  have s := (Acc.step a1 a2 (by linarith)).2
  refine ⟨s.fin, ?_⟩
  have e : |(a * b - c * d).val - (a.val * b.val - c.val * d.val)| ≤ 3 / 2 ^ 24 * (|a.val * b.val| + |c.val * d.val|) + 1 / 2 ^ 148 := by
    refine s.err.trans ?_
    linarith
  have : ((|(a * b - c * d).val - (a.val * b.val - c.val * d.val)| : ℚ) : ℝ) ≤
      ((3 / 2 ^ 24 * (|a.val * b.val| + |c.val * d.val|) + 1 / 2 ^ 148 : ℚ) : ℝ) := by exact_mod_cast e
  push_cast at this
  linarith

omit [Cfg] in
theorem lit_tiny : (lit 1 1000000 : F32).isFinite = true ∧ 0.999999 / 10 ^ 6 ≤ (lit 1 1000000 : F32).val ∧ (lit 1 1000000 : F32).val ≤ 1.000001 / 10 ^ 6 := by
  refine ⟨by decide +kernel, ?_⟩
  rw [val_of_units (u := 713623844551252930617557797624665341952) (by decide +kernel)]
  constructor <;> norm_num

/-- The quaternion before normalisation, when the vectors are not found to be opposite. -/
def preQ (u v : Vector3d C) (R : F32) : Quaternion :=
  ⟨R, (IntoF32.into u.y : F32) * IntoF32.into v.z - IntoF32.into u.z * IntoF32.into v.y,
    (IntoF32.into u.z : F32) * IntoF32.into v.x - IntoF32.into u.x * IntoF32.into v.z,
    (IntoF32.into u.x : F32) * IntoF32.into v.y - IntoF32.into u.y * IntoF32.into v.x⟩

/-- The quaternion before normalisation, when the vectors are found to be opposite. -/
def oppQ (u : Vector3d C) : Quaternion :=
  if (IntoF32.into u.x : F32).abs.gt (IntoF32.into u.z : F32).abs then
    ⟨posZero, -IntoF32.into u.y, IntoF32.into u.x, posZero⟩
  else
    ⟨posZero, posZero, -IntoF32.into u.z, IntoF32.into u.y⟩

theorem two_eq {u v : Vector3d C} {uu vv uv : C} (h1 : u.dot u = .ok uu) (h2 : v.dot v = .ok vv) (h3 : u.dot v = .ok uv)
    {n R : F32} (hn : n = F32.sqrt (IntoF32.into uu * IntoF32.into vv)) (hR : R = n + IntoF32.into uv) {q : Quaternion}
    (hq : q = if R.lt (lit 1 1000000 * n) then oppQ u else preQ u v R) :
    Quaternion.fromTwoVectors u v = (do let k ← F32.invsqrt q.norm; .ok (q.scale k)) := by
  subst hn hR hq
  unfold Quaternion.fromTwoVectors
  rw [h1, ok_bind, h2, ok_bind, h3, ok_bind]
  rfl

/-- Everything known about the first half of the computation, in terms of the three dot products. -/
theorem pre_facts' {u v : Vector3d C} (h : Dots u v) {N : ℝ} (hN : 0 < N) (hN2 : N ^ 2 = len3 u * len3 v) :
    ∃ uu vv uv : C, ∃ n R : F32, u.dot u = .ok uu ∧ v.dot v = .ok vv ∧ u.dot v = .ok uv ∧ n = F32.sqrt (IntoF32.into uu * IntoF32.into vv) ∧
      R = n + IntoF32.into uv ∧ (IntoF32.into uu : F32).isFinite = true ∧ (IntoF32.into vv : F32).isFinite = true ∧
      (∀ q : Quaternion, q = (if R.lt (lit 1 1000000 * n) then oppQ u else preQ u v R) →
        Quaternion.fromTwoVectors u v = (do let k ← F32.invsqrt q.norm; .ok (q.scale k))) ∧
      1 / 2 ^ 28 ≤ N ∧ N ≤ 2 ^ 60 ∧ |(dot3 u v : ℝ)| ≤ N ∧
      (1 - 1 / 2 ^ 19) * N ≤ n.val ∧ (n.val : ℝ) ≤ 1.06071 * N ∧
      R.isFinite = true ∧ |(R.val : ℝ) - (n.val + dot3 u v)| ≤ 1 / 2 ^ 21 * N ∧
      (R.lt (lit 1 1000000 * n) = true → (R.val : ℝ) ≤ 1.1 / 10 ^ 6 * N) ∧
      (R.lt (lit 1 1000000 * n) = false → (0.9 : ℝ) / 10 ^ 6 * N ≤ R.val) := by
  obtain ⟨uu, hu, fuu, eu⟩ := h.uu
  obtain ⟨vv, hv, fvv, ev⟩ := h.vv
  obtain ⟨uv, huv, fuv, euv⟩ := h.uv
  have hL : len3 u = (IntoF32.into u.x : F32).val ^ 2 + (IntoF32.into u.y : F32).val ^ 2 + (IntoF32.into u.z : F32).val ^ 2 := rfl
  have hL' : len3 v = (IntoF32.into v.x : F32).val ^ 2 + (IntoF32.into v.y : F32).val ^ 2 + (IntoF32.into v.z : F32).val ^ 2 := rfl
  have hC := cauchy3 (a := ((IntoF32.into u.x : F32).val : ℝ)) (b := ((IntoF32.into u.y : F32).val : ℝ)) (c := ((IntoF32.into u.z : F32).val : ℝ))
    (x := ((IntoF32.into v.x : F32).val : ℝ)) (y := ((IntoF32.into v.y : F32).val : ℝ)) (z := ((IntoF32.into v.z : F32).val : ℝ)) hN.le
    (by rw [hN2, hL, hL']; push_cast; ring)
  have hM : (mag3 u v : ℝ) ≤ N := by
    have := hC.1
    unfold mag3; push_cast; exact this
  obtain ⟨fn, pn, n1, n2, fR, eR⟩ := real_part fuu fvv fuv eu ev euv h.lu1 h.lu2 h.lv1 h.lv2 hN hN2 hM (mag3_nonneg u v).2
  have hNl : (1 : ℝ) / 2 ^ 28 ≤ N := by
    refine (sq_le_sq₀ (by positivity) hN.le).1 ?_
    rw [hN2, pow_two]
    have := (Rat.cast_le (K := ℝ)).2 (mul_le_mul h.lu1 h.lv1 (by positivity) (le_trans (by positivity) h.lu1))
    push_cast at this; linarith
  have hNu : N ≤ 2 ^ 60 := by
    refine (sq_le_sq₀ hN.le (by positivity)).1 ?_
    rw [hN2, pow_two]
    have := (Rat.cast_le (K := ℝ)).2 (mul_le_mul h.lu2 h.lv2 (le_trans (by positivity) h.lv1) (by positivity))
    push_cast at this; linarith
  have hD : |(dot3 u v : ℝ)| ≤ N := by
    have : ((|dot3 u v| : ℚ) : ℝ) ≤ mag3 u v := by exact_mod_cast (mag3_nonneg u v).2
    rw [Rat.cast_abs] at this; linarith
  refine ⟨uu, vv, uv, F32.sqrt (IntoF32.into uu * IntoF32.into vv), _, hu, hv, huv, rfl, rfl, fuu, fvv, fun q hq => two_eq hu hv huv rfl rfl hq, hNl, hNu, hD, n1, n2, fR, eR, ?_⟩
  obtain ⟨fl, l1, l2⟩ := lit_tiny
  generalize F32.sqrt (IntoF32.into uu * IntoF32.into vv) = n at *
  have pn' : (0 : ℝ) < n.val := by exact_mod_cast pn
  have l1' : (0.999999 / 10 ^ 6 : ℝ) ≤ (lit 1 1000000 : F32).val := by
    have := (Rat.cast_le (K := ℝ)).2 l1; push_cast at this; exact this
  have l2' : ((lit 1 1000000 : F32).val : ℝ) ≤ 1.000001 / 10 ^ 6 := by
    have := (Rat.cast_le (K := ℝ)).2 l2; push_cast at this; exact this
  have lp : (0 : ℚ) < (lit 1 1000000 : F32).val := lt_of_lt_of_le (by norm_num) l1
  have hb : |(lit 1 1000000 : F32).val * n.val| ≤ 2 ^ 61 := by
    rw [abs_of_pos (mul_pos lp pn)]
    have : ((lit 1 1000000 : F32).val : ℝ) * n.val ≤ 1 * 2 ^ 61 :=
      mul_le_mul (by norm_num at *; linarith) (by norm_num at *; linarith) pn'.le (by norm_num)
    rw [one_mul] at this
    exact_mod_cast this
  obtain ⟨fp, ep⟩ := mul_err_uf fl fn (lt_of_le_of_lt hb (by norm_num [ovf]))
  rw [abs_of_pos (mul_pos lp pn)] at ep
  have ep' : |((lit 1 1000000 * n : F32).val : ℝ) - (lit 1 1000000 : F32).val * n.val| ≤ (lit 1 1000000 : F32).val * n.val / 2 ^ 24 + 1 / 2 ^ 150 := by
    have := (Rat.cast_le (K := ℝ)).2 ep
    push_cast at this
    exact this
  have m1 := mul_le_mul_of_nonneg_right l1' pn'.le
  have m2 := mul_le_mul_of_nonneg_right l2' pn'.le
  obtain ⟨p1, p2⟩ := abs_le.1 ep'
  constructor
  · intro hl
    rw [lt_iff fR fp] at hl
    have hl' : ((n + IntoF32.into uv).val : ℝ) < (lit 1 1000000 * n : F32).val := by exact_mod_cast hl
    norm_num at p1 p2 m1 m2 n1 n2 hNl ⊢
    linarith
  · intro hl
    rw [Bool.eq_false_iff, Ne, lt_iff fR fp, not_lt] at hl
    have hl' : ((lit 1 1000000 * n : F32).val : ℝ) ≤ ((n + IntoF32.into uv).val : ℝ) := by exact_mod_cast hl
    norm_num at p1 p2 m1 m2 n1 n2 hNl ⊢
    linarith

/-- Everything known about the first half of the computation. -/
theorem pre_facts {u v : Vector3d C} (h : Dots u v) {N : ℝ} (hN : 0 < N) (hN2 : N ^ 2 = len3 u * len3 v) :
    ∃ n R : F32, (∀ q : Quaternion, q = (if R.lt (lit 1 1000000 * n) then oppQ u else preQ u v R) →
        Quaternion.fromTwoVectors u v = (do let k ← F32.invsqrt q.norm; .ok (q.scale k))) ∧
      1 / 2 ^ 28 ≤ N ∧ N ≤ 2 ^ 60 ∧ |(dot3 u v : ℝ)| ≤ N ∧
      (1 - 1 / 2 ^ 19) * N ≤ n.val ∧ (n.val : ℝ) ≤ 1.06071 * N ∧
      R.isFinite = true ∧ |(R.val : ℝ) - (n.val + dot3 u v)| ≤ 1 / 2 ^ 21 * N ∧
      (R.lt (lit 1 1000000 * n) = true → (R.val : ℝ) ≤ 1.1 / 10 ^ 6 * N) ∧
      (R.lt (lit 1 1000000 * n) = false → (0.9 : ℝ) / 10 ^ 6 * N ≤ R.val) := by
  obtain ⟨_, _, _, n, R, -, -, -, -, -, -, -, H⟩ := pre_facts' h hN hN2
  exact ⟨n, R, H⟩

omit [Cfg] [Component C] in
theorem lag (u v : Vector3d C) {N : ℝ} (hN : 0 ≤ N) (hN2 : N ^ 2 = len3 u * len3 v) :
    |((IntoF32.into u.y : F32).val : ℝ) * (IntoF32.into v.z : F32).val| + |((IntoF32.into u.z : F32).val : ℝ) * (IntoF32.into v.y : F32).val| ≤ N ∧
    |((IntoF32.into u.z : F32).val : ℝ) * (IntoF32.into v.x : F32).val| + |((IntoF32.into u.x : F32).val : ℝ) * (IntoF32.into v.z : F32).val| ≤ N ∧
    |((IntoF32.into u.x : F32).val : ℝ) * (IntoF32.into v.y : F32).val| + |((IntoF32.into u.y : F32).val : ℝ) * (IntoF32.into v.x : F32).val| ≤ N := by
  have hL : len3 u = (IntoF32.into u.x : F32).val ^ 2 + (IntoF32.into u.y : F32).val ^ 2 + (IntoF32.into u.z : F32).val ^ 2 := rfl
  have hL' : len3 v = (IntoF32.into v.x : F32).val ^ 2 + (IntoF32.into v.y : F32).val ^ 2 + (IntoF32.into v.z : F32).val ^ 2 := rfl
  have hC := cauchy3 (a := ((IntoF32.into u.x : F32).val : ℝ)) (b := ((IntoF32.into u.y : F32).val : ℝ)) (c := ((IntoF32.into u.z : F32).val : ℝ))
    (x := ((IntoF32.into v.x : F32).val : ℝ)) (y := ((IntoF32.into v.y : F32).val : ℝ)) (z := ((IntoF32.into v.z : F32).val : ℝ)) hN
    (by rw [hN2, hL, hL']; push_cast; ring)
  exact hC.2

omit [Cfg] in
theorem small_of_err {x t N : ℝ} (h : |x - t| ≤ 3 / 2 ^ 24 * N + 1 / 2 ^ 148) (ht : |t| ≤ N) (h28 : 1 / 2 ^ 28 ≤ N) : |x| ≤ 1.01 * N := by
  obtain ⟨a, b⟩ := abs_le.1 h
  obtain ⟨c, d⟩ := abs_le.1 ht
  rw [abs_le]; constructor <;> norm_num at * <;> linarith

omit [Component C] in
/-- The quaternion before normalisation: finite, and its squared length against the exact `N = |u||v|`. -/
theorem preQ_facts {u v : Vector3d C} (fu : VFinite u) (fv : VFinite v) {N : ℝ} (hN2 : N ^ 2 = len3 u * len3 v) (h28 : 1 / 2 ^ 28 ≤ N)
    (h60 : N ≤ 2 ^ 60) {R : F32} (fR : R.isFinite = true) (hR : |(R.val : ℝ)| ≤ 2.07 * N) (hR2 : 0.9 / 10 ^ 6 * N ≤ R.val) :
    QFinite (preQ u v R) ∧ (qlen (preQ u v R) : ℝ) ≤ 8 * N ^ 2 ∧ 1 / 2 ^ 100 ≤ qlen (preQ u v R) ∧ qlen (preQ u v R) ≤ 2 ^ 124 ∧
      |((preQ u v R).b.val : ℝ) - ((IntoF32.into u.y : F32).val * (IntoF32.into v.z : F32).val - (IntoF32.into u.z : F32).val * (IntoF32.into v.y : F32).val)|
        ≤ 3 / 2 ^ 24 * N + 1 / 2 ^ 148 ∧
      |((preQ u v R).c.val : ℝ) - ((IntoF32.into u.z : F32).val * (IntoF32.into v.x : F32).val - (IntoF32.into u.x : F32).val * (IntoF32.into v.z : F32).val)|
        ≤ 3 / 2 ^ 24 * N + 1 / 2 ^ 148 ∧
      |((preQ u v R).d.val : ℝ) - ((IntoF32.into u.x : F32).val * (IntoF32.into v.y : F32).val - (IntoF32.into u.y : F32).val * (IntoF32.into v.x : F32).val)|
        ≤ 3 / 2 ^ 24 * N + 1 / 2 ^ 148 ∧
      |((preQ u v R).b.val : ℝ)| ≤ 1.01 * N ∧ |((preQ u v R).c.val : ℝ)| ≤ 1.01 * N ∧ |((preQ u v R).d.val : ℝ)| ≤ 1.01 * N := by
  have hN : 0 ≤ N := le_trans (by positivity) h28
  obtain ⟨c1, c2, c3⟩ := lag u v hN hN2
  obtain ⟨f1, e1⟩ := cross_err fu.2.1 fv.2.2 fu.2.2 fv.2.1 c1 h60
  obtain ⟨f2, e2⟩ := cross_err fu.2.2 fv.1 fu.1 fv.2.2 c2 h60
  obtain ⟨f3, e3⟩ := cross_err fu.1 fv.2.1 fu.2.1 fv.1 c3 h60
  have b1 := small_of_err e1 ((abs_sub _ _).trans c1) h28
  have b2 := small_of_err e2 ((abs_sub _ _).trans c2) h28
  have b3 := small_of_err e3 ((abs_sub _ _).trans c3) h28
  have q0 := pow_le_pow_left₀ (abs_nonneg _) hR 2
  have q1 := pow_le_pow_left₀ (abs_nonneg _) b1 2
  have q2 := pow_le_pow_left₀ (abs_nonneg _) b2 2
  have q3 := pow_le_pow_left₀ (abs_nonneg _) b3 2
  rw [sq_abs, mul_pow] at q0 q1 q2 q3
  have hq8 : (qlen (preQ u v R) : ℝ) ≤ 8 * N ^ 2 := by
    have hp : 0 ≤ N ^ 2 := sq_nonneg N
    simp only [qlen, preQ]
    push_cast
    norm_num at q0 q1 q2 q3 ⊢
    linarith
  have hlow : ((0.9 / 10 ^ 6 * N) ^ 2 : ℝ) ≤ qlen (preQ u v R) := by
    have := pow_le_pow_left₀ (by positivity) hR2 2
    simp only [qlen, preQ]
    push_cast
    refine this.trans ?_
    have h1 := sq_nonneg ((((IntoF32.into u.y : F32) * IntoF32.into v.z - IntoF32.into u.z * IntoF32.into v.y : F32).val : ℝ))
    have h2 := sq_nonneg ((((IntoF32.into u.z : F32) * IntoF32.into v.x - IntoF32.into u.x * IntoF32.into v.z : F32).val : ℝ))
    have h3 := sq_nonneg ((((IntoF32.into u.x : F32) * IntoF32.into v.y - IntoF32.into u.y * IntoF32.into v.x : F32).val : ℝ))
    linarith
  have hl2 : (1 : ℝ) / 2 ^ 100 ≤ qlen (preQ u v R) := by
    refine le_trans ?_ hlow
    have := pow_le_pow_left₀ (by positivity) h28 2
    rw [mul_pow]
    norm_num at this ⊢
    linarith
  have hh2 : (qlen (preQ u v R) : ℝ) ≤ 2 ^ 124 := by
    refine hq8.trans ?_
    have := pow_le_pow_left₀ hN h60 2
    norm_num at this ⊢
    linarith
  refine ⟨⟨fR, f1, f2, f3⟩, hq8, ?_, ?_, e1, e2, e3, b1, b2, b3⟩
  · have : (((1 / 2 ^ 100 : ℚ) : ℚ) : ℝ) ≤ qlen (preQ u v R) := by push_cast; exact hl2
    exact_mod_cast this
  · exact_mod_cast hh2

omit [Cfg] [Component C] in
theorem oppQ_facts {u : Vector3d C} (fu : VFinite u) : QFinite (oppQ u) ∧ len3 u / 2 ≤ qlen (oppQ u) ∧ qlen (oppQ u) ≤ len3 u ∧
    (oppQ u).a = posZero ∧ (oppQ u).b.val * (IntoF32.into u.x : F32).val + (oppQ u).c.val * (IntoF32.into u.y : F32).val
      + (oppQ u).d.val * (IntoF32.into u.z : F32).val = 0 := by
  have hx := sq_nonneg (IntoF32.into u.x : F32).val
  have hy := sq_nonneg (IntoF32.into u.y : F32).val
  have hz := sq_nonneg (IntoF32.into u.z : F32).val
  have hg : ((IntoF32.into u.x : F32).abs.gt (IntoF32.into u.z : F32).abs = true) ↔ |(IntoF32.into u.z : F32).val| < |(IntoF32.into u.x : F32).val| := by
    unfold gt
    rw [lt_iff (by rw [isFinite_abs]; exact fu.2.2) (by rw [isFinite_abs]; exact fu.1), val_abs, val_abs]
  unfold oppQ
  split
  · rename_i h
    rw [hg] at h
    have h2 := sq_lt_sq.2 h
    refine ⟨⟨fin_posZero, by rw [isFinite_neg]; exact fu.2.1, fu.1, fin_posZero⟩, ?_, ?_, rfl, ?_⟩
    · simp only [qlen, len3, val_neg, val_posZero]; linarith
    · simp only [qlen, len3, val_neg, val_posZero]; linarith
    · simp only [val_neg, val_posZero]; ring
  · rename_i h
    rw [hg, not_lt] at h
    have h2 := sq_le_sq.2 h
    refine ⟨⟨fin_posZero, fin_posZero, by rw [isFinite_neg]; exact fu.2.2, fu.2.1⟩, ?_, ?_, rfl, ?_⟩
    · simp only [qlen, len3, val_neg, val_posZero]; linarith
    · simp only [qlen, len3, val_neg, val_posZero]; linarith
    · simp only [val_neg, val_posZero]; ring

omit [Cfg] [Component C] in
theorem exists_N {u v : Vector3d C} (lu1 : 1 / 2 ^ 28 ≤ len3 u) (lv1 : 1 / 2 ^ 28 ≤ len3 v) :
    ∃ lu lv : ℝ, 0 < lu ∧ 0 < lv ∧ lu ^ 2 = len3 u ∧ lv ^ 2 = len3 v := by
  have hu : (0 : ℝ) < len3 u := by exact_mod_cast lt_of_lt_of_le (by positivity) lu1
  have hv : (0 : ℝ) < len3 v := by exact_mod_cast lt_of_lt_of_le (by positivity) lv1
  exact ⟨Real.sqrt (len3 u), Real.sqrt (len3 v), Real.sqrt_pos.2 hu, Real.sqrt_pos.2 hv, Real.sq_sqrt hu.le, Real.sq_sqrt hv.le⟩

/-- **C91.** `from_two_vectors` returns, in every build mode, a finite quaternion of exact squared length within `0.9299 .. 1.0701`,
whatever the angle between the vectors. -/
theorem C91_unit_dots {u v : Vector3d C} (h : Dots u v) :
    ∃ r, Quaternion.fromTwoVectors u v = .ok r ∧ QFinite r ∧ 0.9299 ≤ qlen r ∧ qlen r ≤ 1.0701 := by
  obtain ⟨lu, lv, plu, plv, hlu, hlv⟩ := exists_N h.lu1 h.lv1
  have hN2 : (lu * lv) ^ 2 = len3 u * len3 v := by rw [mul_pow, hlu, hlv]
  obtain ⟨n, R, hq, h28, h60, hD, n1, n2, fR, eR, k1, k2⟩ := pre_facts h (mul_pos plu plv) hN2
  cases hl : R.lt (lit 1 1000000 * n)
  · have hR2 := k2 hl
    have hRa : |(R.val : ℝ)| ≤ 2.07 * (lu * lv) := by
      obtain ⟨a, b⟩ := abs_le.1 eR
      obtain ⟨c, d⟩ := abs_le.1 hD
      rw [abs_le]; constructor <;> norm_num at a b n1 n2 h28 c d ⊢ <;> linarith
    obtain ⟨fq, -, q1, q2, -⟩ := preQ_facts h.fu h.fv hN2 h28 h60 fR hRa hR2
    obtain ⟨k, hk, -, -, fs, s1, s2, -⟩ := scale_norm fq q1 q2
    refine ⟨_, ?_, fs, s1, s2⟩
    rw [hq _ rfl, hl, if_neg (by simp), hk]
    rfl
  · obtain ⟨fq, q1, q2, -⟩ := oppQ_facts h.fu
    have l1 := h.lu1
    have l2 := h.lu2
    obtain ⟨k, hk, -, -, fs, s1, s2, -⟩ := scale_norm fq (by norm_num at *; linarith) (by norm_num at *; linarith)
    refine ⟨_, ?_, fs, s1, s2⟩
    rw [hq _ rfl, hl, if_pos rfl, hk]
    rfl

omit [Cfg] in
/-- Error of one component after scaling, relative to `K = k N`. -/
theorem comp_err {r q k N t : ℝ} (hk : 0 < k) (hN : 0 < N) (hK : 0.3 ≤ k * N) (hr : |r - q * k| ≤ |q * k| / 2 ^ 24 + 1 / 2 ^ 150)
    (hq : |q| ≤ 2.07 * N) (ht : |q - t| ≤ 3 / 2 ^ 24 * N + 1 / 2 ^ 148) (h28 : 1 / 2 ^ 28 ≤ N) :
    |r / (k * N) - t / N| ≤ 1 / 2 ^ 21 := by
  have hKp : 0 < k * N := mul_pos hk hN
  have e : r / (k * N) - t / N = (r - q * k) / (k * N) + (q - t) / N := by field_simp; ring
  have a1 : |(r - q * k) / (k * N)| ≤ 2.1 / 2 ^ 24 := by
    rw [abs_div, abs_of_pos hKp, div_le_iff₀ hKp]
    refine hr.trans ?_
    have : |q * k| ≤ 2.07 * (k * N) := by
      rw [abs_mul, abs_of_pos hk]
      have := mul_le_mul_of_nonneg_right hq hk.le
      linarith
    norm_num at this hK ⊢
    linarith
  have a2 : |(q - t) / N| ≤ 3.1 / 2 ^ 24 := by
    rw [abs_div, abs_of_pos hN, div_le_iff₀ hN]
    refine ht.trans ?_
    norm_num at h28 ⊢
    linarith
  rw [e]
  refine (abs_add_le _ _).trans ((add_le_add a1 a2).trans (by norm_num))

omit [Cfg] in
theorem norm_of_comp {e : _root_.Quaternion ℝ} (h0 : |e.re| ≤ 1 / 2 ^ 21) (h1 : |e.imI| ≤ 1 / 2 ^ 21) (h2 : |e.imJ| ≤ 1 / 2 ^ 21)
    (h3 : |e.imK| ≤ 1 / 2 ^ 21) : ‖e‖ ≤ 1 / 2 ^ 20 := by
  refine abs_le_of_sq_le_sq' ?_ (by norm_num) |>.2
  rw [Geom.norm_sq_eq]
  have q0 := pow_le_pow_left₀ (abs_nonneg _) h0 2
  have q1 := pow_le_pow_left₀ (abs_nonneg _) h1 2
  have q2 := pow_le_pow_left₀ (abs_nonneg _) h2 2
  have q3 := pow_le_pow_left₀ (abs_nonneg _) h3 2
  rw [sq_abs] at q0 q1 q2 q3
  norm_num at q0 q1 q2 q3 ⊢
  linarith

/-- The real quaternion of a float quaternion. -/
def qreal (q : Quaternion) : _root_.Quaternion ℝ := ⟨q.a.val, q.b.val, q.c.val, q.d.val⟩

omit [Cfg] in
theorem qreal_proj (q : Quaternion) : (qreal q).re = q.a.val ∧ (qreal q).imI = q.b.val ∧ (qreal q).imJ = q.c.val ∧ (qreal q).imK = q.d.val :=
  ⟨rfl, rfl, rfl, rfl⟩

omit [Cfg] in
theorem qreal_norm (q : Quaternion) : ‖qreal q‖ ^ 2 = qlen q := by
  obtain ⟨e0, e1, e2, e3⟩ := qreal_proj q
  rw [Geom.norm_sq_eq, e0, e1, e2, e3, qlen]; push_cast; ring

omit [Cfg] in
/-- The exact sandwich product of the scaled vector, over the reals. -/
theorem sand_real (q : Quaternion) (x y z : ℚ) (l : ℝ) :
    (qreal q * Geom.pure (x / l) (y / l) (z / l) * star (qreal q)).re = 0 ∧
    (qreal q * Geom.pure (x / l) (y / l) (z / l) * star (qreal q)).imI = (sand q x y z).imI / l ∧
    (qreal q * Geom.pure (x / l) (y / l) (z / l) * star (qreal q)).imJ = (sand q x y z).imJ / l ∧
    (qreal q * Geom.pure (x / l) (y / l) (z / l) * star (qreal q)).imK = (sand q x y z).imK / l := by
  obtain ⟨e0, e1, e2, e3⟩ := qreal_proj q
  obtain ⟨-, s1, s2, s3⟩ := sand_eq q x y z
  rw [s1, s2, s3]
  push_cast
  refine ⟨?_, ?_, ?_, ?_⟩ <;>
  · simp only [_root_.Quaternion.re_mul, _root_.Quaternion.imI_mul, _root_.Quaternion.imJ_mul, _root_.Quaternion.imK_mul,
      _root_.Quaternion.re_star, _root_.Quaternion.imI_star, _root_.Quaternion.imJ_star, _root_.Quaternion.imK_star,
      Geom.pure_re, Geom.pure_imI, Geom.pure_imJ, Geom.pure_imK, e0, e1, e2, e3]
    ring

set_option maxHeartbeats 1000000 in
/-- The exact rotation by the result takes the direction of `u` to nearly the direction of `v`. -/
theorem two_exact {u v : Vector3d C} (h : Dots u v) {lu lv c : ℝ} (plu : 0 < lu) (plv : 0 < lv) (hlu : lu ^ 2 = len3 u) (hlv : lv ^ 2 = len3 v)
    (hc : c * (lu * lv) = dot3 u v) (hc9 : -0.9 ≤ c) :
    ∃ r, Quaternion.fromTwoVectors u v = .ok r ∧ QFinite r ∧ 0.9299 ≤ qlen r ∧ qlen r ≤ 1.0701 ∧
      (1 + c) * ‖qreal r * Geom.pure ((IntoF32.into u.x : F32).val / lu) ((IntoF32.into u.y : F32).val / lu) ((IntoF32.into u.z : F32).val / lu) * star (qreal r)
        - Geom.pure ((IntoF32.into v.x : F32).val / lv) ((IntoF32.into v.y : F32).val / lv) ((IntoF32.into v.z : F32).val / lv)‖ ^ 2
        ≤ 0.005 * (1 + c) + 0.0038 * (1 - c) := by
  obtain ⟨N, hNdef⟩ : ∃ N, N = lu * lv := ⟨_, rfl⟩
  have hN2 : N ^ 2 = len3 u * len3 v := by rw [hNdef, mul_pow, hlu, hlv]
  have hN : 0 < N := hNdef ▸ mul_pos plu plv
  rw [← hNdef] at hc
  obtain ⟨n, R, hq, h28, h60, hD, n1, n2, fR, eR, k1, -⟩ := pre_facts h hN hN2
  obtain ⟨a1, a2⟩ := abs_le.1 eR
  obtain ⟨d1, d2⟩ := abs_le.1 hD
  rw [← hc] at a1 a2 d1 d2
  have hc9N := mul_le_mul_of_nonneg_right hc9 hN.le
  have hl : R.lt (lit 1 1000000 * n) = false := by
    rw [Bool.eq_false_iff]
    intro hl
    have := k1 hl
    norm_num at this a1 n1 hc9N
    linarith
  have hRa : |(R.val : ℝ)| ≤ 2.07 * N := by
    rw [abs_le]; constructor <;> norm_num at a1 a2 n1 n2 h28 d1 d2 ⊢ <;> linarith
  have hR2 : 0.9 / 10 ^ 6 * N ≤ R.val := by norm_num at a1 n1 hc9N ⊢; linarith
  obtain ⟨fq, q8, q1, q2, e1, e2, e3, b1, b2, b3⟩ := preQ_facts h.fu h.fv hN2 h28 h60 fR hRa hR2
  obtain ⟨k, hk, ⟨pk, -, -⟩, k92, fs, s1, s2, r0, r1, r2, r3⟩ := scale_norm fq q1 q2
  have pk' : (0 : ℝ) < k.val := by exact_mod_cast pk
  refine ⟨(preQ u v R).scale k, by rw [hq _ rfl, hl, if_neg (by simp), hk]; rfl, fs, s1, s2, ?_⟩
  have toR : ∀ r q : F32, |r.val - q.val * k.val| ≤ |q.val * k.val| / 2 ^ 24 + 1 / 2 ^ 150 →
      |(r.val : ℝ) - q.val * k.val| ≤ |(q.val : ℝ) * k.val| / 2 ^ 24 + 1 / 2 ^ 150 := fun r q hrq => by
    have := (Rat.cast_le (K := ℝ)).2 hrq
    push_cast at this
    exact this
  have hK : 0.3 ≤ k.val * N := by
    have h1 : (0.92 : ℝ) ≤ qlen (preQ u v R) * (k.val : ℝ) ^ 2 := by
      have := (Rat.cast_le (K := ℝ)).2 k92
      push_cast at this; exact this
    have h2 : (0.92 : ℝ) ≤ 8 * N ^ 2 * (k.val : ℝ) ^ 2 := h1.trans (mul_le_mul_of_nonneg_right q8 (sq_nonneg _))
    by_contra hlt
    push Not at hlt
    have := pow_lt_pow_left₀ hlt (mul_pos pk' hN).le (n := 2) (by norm_num)
    rw [mul_pow] at this
    norm_num at this h2
    linarith
  have b1' : |((preQ u v R).b.val : ℝ)| ≤ 2.07 * N := b1.trans (by linarith)
  have b2' : |((preQ u v R).c.val : ℝ)| ≤ 2.07 * N := b2.trans (by linarith)
  have b3' : |((preQ u v R).d.val : ℝ)| ≤ 2.07 * N := b3.trans (by linarith)
  have E0 := comp_err pk' hN hK (toR _ _ r0) hRa (t := R.val) (by
    rw [show ((preQ u v R).a.val : ℝ) = R.val from rfl, sub_self, abs_zero]; positivity) h28
  have E1 := comp_err pk' hN hK (toR _ _ r1) b1' e1 h28
  have E2 := comp_err pk' hN hK (toR _ _ r2) b2' e2 h28
  have E3 := comp_err pk' hN hK (toR _ _ r3) b3' e3 h28
  have hL : (len3 u : ℝ) = (IntoF32.into u.x : F32).val ^ 2 + (IntoF32.into u.y : F32).val ^ 2 + (IntoF32.into u.z : F32).val ^ 2 := by
    rw [len3]; push_cast; ring
  have hL' : (len3 v : ℝ) = (IntoF32.into v.x : F32).val ^ 2 + (IntoF32.into v.y : F32).val ^ 2 + (IntoF32.into v.z : F32).val ^ 2 := by
    rw [len3]; push_cast; ring
  have hdd : (dot3 u v : ℝ) = (IntoF32.into u.x : F32).val * (IntoF32.into v.x : F32).val + (IntoF32.into u.y : F32).val * (IntoF32.into v.y : F32).val
      + (IntoF32.into u.z : F32).val * (IntoF32.into v.z : F32).val := by rw [dot3]; push_cast; ring
  obtain ⟨eta, heta⟩ : ∃ eta : ℝ, eta = R.val / N - 1 - c := ⟨_, rfl⟩
  obtain ⟨p0, p1, p2, p3⟩ := qreal_proj ((preQ u v R).scale k)
  refine Geom.rot_near (eta := eta) (K := k.val * N) (e := (k.val * N)⁻¹ • qreal ((preQ u v R).scale k) - ((eta : _root_.Quaternion ℝ) + 1 -
      Geom.pure ((IntoF32.into v.x : F32).val / lv) ((IntoF32.into v.y : F32).val / lv) ((IntoF32.into v.z : F32).val / lv) *
      Geom.pure ((IntoF32.into u.x : F32).val / lu) ((IntoF32.into u.y : F32).val / lu) ((IntoF32.into u.z : F32).val / lu)))
    ?_ ?_ ?_ hc9 (mul_pos pk' hN).le ?_ ?_ ?_ ?_ ?_ ?_
  · rw [div_pow, div_pow, div_pow, ← add_div, ← add_div, ← hL, hlu, div_self (by rw [← hlu]; positivity)]
  · rw [div_pow, div_pow, div_pow, ← add_div, ← add_div, ← hL', hlv, div_self (by rw [← hlv]; positivity)]
  · have : c = dot3 u v / (lu * lv) := by rw [← hc, hNdef, mul_div_cancel_right₀ _ (mul_pos plu plv).ne']
    rw [this, hdd]
    field_simp
  · rw [add_sub_cancel, smul_smul, mul_inv_cancel₀ (mul_pos pk' hN).ne', one_smul]
  · refine norm_of_comp ?_ ?_ ?_ ?_ <;>
      simp only [_root_.Quaternion.re_sub, _root_.Quaternion.imI_sub, _root_.Quaternion.imJ_sub, _root_.Quaternion.imK_sub,
        _root_.Quaternion.re_add, _root_.Quaternion.imI_add, _root_.Quaternion.imJ_add, _root_.Quaternion.imK_add,
        _root_.Quaternion.re_mul, _root_.Quaternion.imI_mul, _root_.Quaternion.imJ_mul, _root_.Quaternion.imK_mul,
        _root_.Quaternion.re_smul, _root_.Quaternion.imI_smul, _root_.Quaternion.imJ_smul, _root_.Quaternion.imK_smul,
        _root_.Quaternion.re_coe, _root_.Quaternion.imI_coe, _root_.Quaternion.imJ_coe, _root_.Quaternion.imK_coe,
        _root_.Quaternion.re_one, _root_.Quaternion.imI_one, _root_.Quaternion.imJ_one, _root_.Quaternion.imK_one,
        Geom.pure_re, Geom.pure_imI, Geom.pure_imJ, Geom.pure_imK, p0, p1, p2, p3, smul_eq_mul]
    · refine le_of_eq_of_le ?_ E0
      congr 1
      have : c = dot3 u v / (lu * lv) := by rw [← hc, hNdef, mul_div_cancel_right₀ _ (mul_pos plu plv).ne']
      rw [heta, this, hdd, hNdef]
      field_simp
      ring
    · refine le_of_eq_of_le ?_ E1
      congr 1
      rw [hNdef]
      field_simp
      ring
    · refine le_of_eq_of_le ?_ E2
      congr 1
      rw [hNdef]
      field_simp
      ring
    · refine le_of_eq_of_le ?_ E3
      congr 1
      rw [hNdef]
      field_simp
      ring
  · rw [heta]
    have : (1 - 1 / 2 ^ 19 + c - 1 / 2 ^ 21) ≤ R.val / N := by rw [le_div_iff₀ hN]; linarith
    norm_num at this ⊢; linarith
  · rw [heta]
    have : R.val / N ≤ 1.06071 + c + 1 / 2 ^ 21 := by rw [div_le_iff₀ hN]; linarith
    norm_num at this ⊢; linarith
  · rw [qreal_norm]
    have := (Rat.cast_le (K := ℝ)).2 s1
    push_cast at this; exact this
  · rw [qreal_norm]
    have := (Rat.cast_le (K := ℝ)).2 s2
    push_cast at this; exact this

end

end Micromath.Props
