import Verif.Real.SmallWave
import Verif.Props.TrigSym
import Verif.Props.TanLaws
import Verif.Props.Chain
import Verif.Props.Asin

/-!
# C149: small angles

Near zero the computed sine, tangent, arctangent and arcsine are straight lines of the wrong slope.
-/

set_option exponentiation.threshold 1000

namespace Micromath.Props
open F32 Spec RealAux

variable [Cfg]

/-- **C149, `sin`.** For `|x| ≤ 1/4`: `sin x = 0.98676 x` up to `1.6e-6 + 0.051 x²`. -/
theorem C149_sin {x : F32} (hx : x.isFinite = true) (hb : |x.val| ≤ 1 / 4) :
    |(x.sin.val : ℝ) - 0.98676 * x.val| ≤ 1.6 / 10 ^ 6 + 0.051 * (x.val : ℝ) ^ 2 := by
  have h := sin_wave hx (hb.trans (by norm_num))
  have hbR := abs_cast_le hb
  push_cast at hbR
  generalize (x.val : ℝ) = X at *
  generalize (x.sin.val : ℝ) = S at *
  obtain ⟨t, ht⟩ : ∃ t, t = X * (10680707 / 67108864) := ⟨_, rfl⟩
  rw [← ht] at h
  have tb : |t| ≤ 1 / 20 := by
    rw [ht, abs_mul, abs_of_pos (show (0 : ℝ) < 10680707 / 67108864 by norm_num)]
    norm_num at hbR ⊢; linarith
  have w := wave_sin_small tb
  have e1 : |6.2 * t - 0.98676 * X| ≤ 2.7 / 10 ^ 7 := by
    rw [ht, show 6.2 * (X * (10680707 / 67108864)) - 0.98676 * X = X * (6.2 * (10680707 / 67108864) - 0.98676) by ring, abs_mul]
    have : |(6.2 * (10680707 / 67108864) - 0.98676 : ℝ)| ≤ 1.07 / 10 ^ 6 := by rw [abs_le]; norm_num
    calc |X| * |(6.2 * (10680707 / 67108864) - 0.98676 : ℝ)| ≤ 1 / 4 * (1.07 / 10 ^ 6) := mul_le_mul hbR this (abs_nonneg _) (by norm_num)
      _ ≤ _ := by norm_num
  have e2 : 2 * t ^ 2 ≤ 0.051 * X ^ 2 := by
    rw [ht, mul_pow]
    have := sq_nonneg X
    norm_num
    linarith
  have t1 := abs_sub_le S (wave (t - 1 / 4)) (0.98676 * X)
  have t2 := abs_sub_le (wave (t - 1 / 4)) (6.2 * t) (0.98676 * X)
  norm_num at *
  linarith

/-- **C149, `cos`.** For `|x| ≤ 1/4`: `cos x = 1 - 0.4965 x²` up to `1.1e-6 + 0.0024 x²`. -/
theorem C149_cos {x : F32} (hx : x.isFinite = true) (hb : |x.val| ≤ 1 / 4) :
    |(x.cos.val : ℝ) - (1 - 0.4965 * (x.val : ℝ) ^ 2)| ≤ 1.1 / 10 ^ 6 + 0.0024 * (x.val : ℝ) ^ 2 := by
  have h := cos_wave hx (hb.trans (by norm_num))
  have hbR := abs_cast_le hb
  push_cast at hbR
  generalize (x.val : ℝ) = X at *
  generalize (x.cos.val : ℝ) = S at *
  obtain ⟨t, ht⟩ : ∃ t, t = X * (10680707 / 67108864) := ⟨_, rfl⟩
  rw [← ht] at h
  have tb : |t| ≤ 1 / 20 := by
    rw [ht, abs_mul, abs_of_pos (show (0 : ℝ) < 10680707 / 67108864 by norm_num)]
    norm_num at hbR ⊢; linarith
  rw [wave_cos_small (tb.trans (by norm_num))] at h
  have X0 := sq_nonneg X
  have X1 : X ^ 2 ≤ 1 / 16 := by
    rw [← sq_abs]; exact (pow_le_pow_left₀ (abs_nonneg _) hbR 2).trans (by norm_num)
  have e2 : t ^ 2 = X ^ 2 * (10680707 / 67108864) ^ 2 := by rw [ht]; ring
  have e4 : t ^ 4 = X ^ 2 * X ^ 2 * (10680707 / 67108864) ^ 4 := by rw [ht]; ring
  have X2 : X ^ 2 * X ^ 2 ≤ 1 / 16 * X ^ 2 := mul_le_mul_of_nonneg_right X1 X0
  have X3 : 0 ≤ X ^ 2 * X ^ 2 := mul_nonneg X0 X0
  rw [e2, e4] at h
  generalize X ^ 2 * X ^ 2 = Z at *
  generalize X ^ 2 = Y at *
  rw [abs_le] at h ⊢
  norm_num at *
  constructor <;> linarith [h.1, h.2]

omit [Cfg] in
theorem sin_near_self {u : ℝ} (h : |u| ≤ 1) : |u - Real.sin u| ≤ |u| ^ 3 * 0.177 := by
  have b := Real.sin_bound h
  have h0 := abs_nonneg u
  have h5 : |u| ^ 5 ≤ |u| ^ 3 := by
    rw [show |u| ^ 5 = |u| ^ 3 * |u| ^ 2 by ring]
    exact mul_le_of_le_one_right (by positivity) (by nlinarith)
  have t := abs_sub_le u (u - u ^ 3 / 6) (Real.sin u)
  have e : |u - (u - u ^ 3 / 6)| = |u| ^ 3 / 6 := by
    rw [show u - (u - u ^ 3 / 6) = u ^ 3 / 6 by ring, abs_div, abs_pow]; norm_num
  rw [e] at t
  rw [abs_sub_comm] at b
  have h3 : 0 ≤ |u| ^ 3 := by positivity
  norm_num only at *
  linarith

/-- **C149, a consequence.** For `0.001 ≤ |x| ≤ 0.05` the computed sine is at most `0.99` of the true one. -/
theorem C149_sin_short {x : F32} (hx : x.isFinite = true) (h0 : 1 / 1000 ≤ |x.val|) (hb : |x.val| ≤ 1 / 20) :
    |(x.sin.val : ℝ)| ≤ 0.99 * |Real.sin x.val| := by
  have h := C149_sin hx (hb.trans (by norm_num))
  have hbR := abs_cast_le hb
  have h0R := (Rat.cast_le (K := ℝ)).2 h0
  push_cast at hbR h0R
  generalize (x.val : ℝ) = X at *
  generalize (x.sin.val : ℝ) = S at *
  have n := sin_near_self (u := X) (hbR.trans (by norm_num))
  have t1 := abs_sub_abs_le_abs_sub S (0.98676 * X)
  have t2 := abs_sub_abs_le_abs_sub X (Real.sin X)
  rw [abs_mul, abs_of_pos (show (0 : ℝ) < 0.98676 by norm_num)] at t1
  rw [← sq_abs X] at h
  generalize |X| = Y at *
  have y2 : Y ^ 2 ≤ 0.051 * Y - 0.00005 := by norm_num at *; nlinarith
  have y3 : Y ^ 3 ≤ 1 / 400 * Y := by
    rw [show Y ^ 3 = Y * Y ^ 2 by ring, mul_comm]
    refine mul_le_mul_of_nonneg_right (y2.trans ?_) (by linarith)
    norm_num at *; linarith
  norm_num at *
  linarith

/-- **C149, `tan`.** For `|x| ≤ 1/8`: `tan x = 0.98676 x` up to `2e-6 + 0.12 x²`. -/
theorem C149_tan {x : F32} (hx : x.isFinite = true) (hb : |x.val| ≤ 1 / 8) :
    x.tan.isFinite = true ∧ |(x.tan.val : ℝ) - 0.98676 * x.val| ≤ 2 / 10 ^ 6 + 0.12 * (x.val : ℝ) ^ 2 := by
  have d := dir_near hx (hb.trans (by norm_num))
  have hs := C149_sin hx (hb.trans (by norm_num))
  have hc := C149_cos hx (hb.trans (by norm_num))
  have hbR := abs_cast_le hb
  push_cast at hbR
  have X0 := sq_nonneg (x.val : ℝ)
  have X1 : (x.val : ℝ) ^ 2 ≤ 1 / 8 * |(x.val : ℝ)| := by
    rw [← sq_abs, sq]; exact mul_le_mul_of_nonneg_right hbR (abs_nonneg _)
  have c1 : (0.99 : ℝ) ≤ x.cos.val := by
    have := (abs_le.1 hc).1
    norm_num at *; linarith
  have c1Q : (0.99 : ℚ) ≤ |x.cos.val| := by
    refine le_trans ?_ (le_abs_self _)
    have : ((0.99 : ℚ) : ℝ) ≤ (x.cos.val : ℝ) := by push_cast; exact c1
    exact_mod_cast this
  obtain ⟨f, e⟩ := tan_quot d.fs d.fc d.bs (k := 0.99) (by norm_num) (by norm_num) c1Q
  refine ⟨f, ?_⟩
  have eR := abs_cast_le e
  push_cast at eR
  generalize (x.tan.val : ℝ) = T at *
  generalize (x.sin.val : ℝ) = S at *
  generalize (x.cos.val : ℝ) = C at *
  generalize (x.val : ℝ) = X at *
  have cp : 0 < C := by linarith
  have q : |S / C - 0.98676 * X| ≤ 1.8 / 10 ^ 6 + 0.119 * X ^ 2 := by
    rw [show S / C - 0.98676 * X = (S - 0.98676 * X * C) / C by field_simp, abs_div, abs_of_pos cp, div_le_iff₀ cp]
    have e1 : |S - 0.98676 * X * C| ≤ |S - 0.98676 * X| + 0.98676 * (|X| * |C - 1|) := by
      rw [show S - 0.98676 * X * C = (S - 0.98676 * X) + -(0.98676 * X * (C - 1)) by ring]
      refine (abs_add_le _ _).trans ?_
      rw [abs_neg, abs_mul, abs_mul, abs_of_pos (show (0 : ℝ) < 0.98676 by norm_num), mul_assoc]
    have e2 : |C - 1| ≤ 1.1 / 10 ^ 6 + 0.4989 * X ^ 2 := by
      rw [abs_le] at hc ⊢
      norm_num at *
      constructor <;> linarith [hc.1, hc.2]
    have e3 : |X| * |C - 1| ≤ 1 / 8 * (1.1 / 10 ^ 6 + 0.4989 * X ^ 2) := mul_le_mul hbR e2 (abs_nonneg _) (by norm_num)
    have e4 : (1.8 / 10 ^ 6 + 0.119 * X ^ 2) * 0.99 ≤ (1.8 / 10 ^ 6 + 0.119 * X ^ 2) * C :=
      mul_le_mul_of_nonneg_left c1 (by positivity)
    refine le_trans ?_ e4
    norm_num at *
    linarith
  have t := abs_sub_le T (S / C) (0.98676 * X)
  norm_num at *
  linarith

/-! ### Small turns -/

/-- One component of the vector part. -/
theorem axis_comp_e {n s : F32} {S e : ℝ} (fn : n.isFinite = true) (fs : s.isFinite = true) (hn : |n.val| ≤ 3 / 2)
    (bs : |s.val| ≤ 1 + 1 / 2 ^ 20) (hs : |(s.val : ℝ) - S| ≤ e) :
    (n * s).isFinite = true ∧ |((n * s).val : ℝ) - n.val * S| ≤ (e + 6 / 10 ^ 8) * |(n.val : ℝ)| + 1 / 2 ^ 150 := by
  have h3 : |n.val * s.val| ≤ 2 := by
    rw [abs_mul]; exact (mul_le_mul hn bs (abs_nonneg _) (by norm_num)).trans (by norm_num)
  obtain ⟨f, e⟩ := mul_err_uf fn fs (lt_of_le_of_lt h3 (by norm_num [ovf]))
  refine ⟨f, ?_⟩
  have e' := abs_cast_le e
  have bs' := abs_cast_le bs
  push_cast at e' bs'
  have h4 := mul_le_mul_of_nonneg_left hs (abs_nonneg (n.val : ℝ))
  rw [← abs_mul, mul_sub] at h4
  have h5 : |(n.val : ℝ)| * |(s.val : ℝ)| ≤ |(n.val : ℝ)| * (1 + 1 / 2 ^ 20) := mul_le_mul_of_nonneg_left bs' (abs_nonneg _)
  rw [abs_mul] at e'
  have := abs_sub_le ((n * s).val : ℝ) (n.val * s.val) (n.val * S)
  have h6 := abs_nonneg (n.val : ℝ)
  linarith

omit [Cfg] in
/-- The exact half turn of the shortened angle, against the two straight-line values. -/
theorem short_turn {u : ℝ} (h : |u| ≤ 1 / 16) :
    |0.98676 * u - Real.sin (0.98676 * u)| ≤ 0.0107 * u ^ 2 ∧ |1 - 0.4965 * u ^ 2 - Real.cos (0.98676 * u)| ≤ 0.0099 * u ^ 2 := by
  obtain ⟨v, hv⟩ : ∃ v, v = 0.98676 * u := ⟨_, rfl⟩
  have va : |v| = 0.98676 * |u| := by rw [hv, abs_mul, abs_of_pos (show (0 : ℝ) < 0.98676 by norm_num)]
  have u0 := abs_nonneg u
  have v1 : |v| ≤ 1 / 16 := by rw [va]; norm_num at *; linarith
  have q : u ^ 2 = |u| ^ 2 := (sq_abs u).symm
  have a2 : 0 ≤ |u| ^ 2 := by positivity
  have b2 : |u| ^ 2 ≤ 1 / 256 := (pow_le_pow_left₀ u0 h 2).trans (by norm_num)
  have a3 : |u| ^ 2 * |u| ≤ |u| ^ 2 * (1 / 16) := mul_le_mul_of_nonneg_left h a2
  have a4 : |u| ^ 2 * |u| ^ 2 ≤ |u| ^ 2 * (1 / 256) := mul_le_mul_of_nonneg_left b2 a2
  constructor
  · rw [← hv]
    refine (sin_near_self (v1.trans (by norm_num))).trans ?_
    rw [va, q, show (0.98676 * |u|) ^ 3 = 0.98676 ^ 3 * (|u| ^ 2 * |u|) by ring]
    norm_num at *; linarith
  · rw [← hv]
    have b := Real.cos_bound (x := v) (v1.trans (by norm_num))
    rw [va, show (0.98676 * |u|) ^ 4 = 0.98676 ^ 4 * (|u| ^ 2 * |u| ^ 2) by ring, show v ^ 2 = 0.98676 ^ 2 * u ^ 2 by rw [hv]; ring, q] at b
    rw [q]
    generalize |u| ^ 2 * |u| ^ 2 = A at *
    generalize |u| ^ 2 = B at *
    rw [abs_le] at b ⊢
    norm_num at *
    constructor <;> linarith [b.1, b.2]

set_option maxHeartbeats 800000 in
/-- **C149, `axis_angle`.** For `|t| ≤ 1/8`, `axis_angle(n, t)` is within `2.1e-6 + 0.0158 t²` of the exact turn by `0.98676 t`. -/
theorem C149_axis_angle {n : Vector3d F32} {t : F32} (ht : t.isFinite = true) (hb : |t.val| ≤ 1 / 8)
    (fx : n.x.isFinite = true) (fy : n.y.isFinite = true) (fz : n.z.isFinite = true)
    (hn : |n.x.val ^ 2 + n.y.val ^ 2 + n.z.val ^ 2 - 1| ≤ 1 / 1000) :
    QFinite (Quaternion.axisAngle n t) ∧
    ‖qreal (Quaternion.axisAngle n t) - Geom.turnQ n.x.val n.y.val n.z.val (0.98676 * t.val)‖ ≤ 2.1 / 10 ^ 6 + 0.0158 * (t.val : ℝ) ^ 2 := by
  have hb8 : |t.val| ≤ 8192 := hb.trans (by norm_num)
  obtain ⟨fh, bh⟩ := half_theta ht hb8
  have hv := half_theta_val ht hb8
  have hhQ : |(t * lit 5 10).val| ≤ 1 / 4 := by
    have hbR := abs_cast_le hb
    push_cast at hbR
    have : |((t * lit 5 10).val : ℝ)| ≤ 1 / 4 := by
      have := abs_sub_abs_le_abs_sub ((t * lit 5 10).val : ℝ) (t.val / 2)
      rw [abs_div, abs_of_pos (show (0 : ℝ) < 2 by norm_num)] at this
      norm_num at *; linarith
    rw [← Rat.cast_le (K := ℝ)]; push_cast; exact this
  obtain ⟨fs, bs, -⟩ := C36_sin fh bh
  obtain ⟨fc, bc, -⟩ := C34_cos fh bh
  have es := C149_sin fh hhQ
  have ec := C149_cos fh hhQ
  obtain ⟨ea, eb, ec', ed⟩ := C74_axis_angle n t
  have hi : ∀ u : F32, IntoF32.into u = u := fun _ => rfl
  rw [hi, hi] at *
  have hn2 := (abs_le.1 hn).2
  have sx := sq_nonneg n.x.val
  have sy := sq_nonneg n.y.val
  have sz := sq_nonneg n.z.val
  have hx1 : |n.x.val| ≤ 3 / 2 := abs_le_of_sq_le_sq (by norm_num; linarith) (by norm_num)
  have hy1 : |n.y.val| ≤ 3 / 2 := abs_le_of_sq_le_sq (by norm_num; linarith) (by norm_num)
  have hz1 : |n.z.val| ≤ 3 / 2 := abs_le_of_sq_le_sq (by norm_num; linarith) (by norm_num)
  obtain ⟨u, hu⟩ : ∃ u : ℝ, u = t.val / 2 := ⟨_, rfl⟩
  have ub : |u| ≤ 1 / 16 := by
    have hbR := abs_cast_le hb
    push_cast at hbR
    rw [hu, abs_div, abs_of_pos (show (0 : ℝ) < 2 by norm_num)]; linarith
  obtain ⟨ss, sc⟩ := short_turn ub
  have e0 : 0.98676 * (t.val : ℝ) / 2 = 0.98676 * u := by rw [hu]; ring
  rw [← hu] at hv
  have u20 := sq_nonneg u
  have hsq : |((t * lit 5 10).val : ℝ) ^ 2 - u ^ 2| ≤ 1 / 10 ^ 9 := by
    rw [sq_sub_sq, abs_mul, mul_comm]
    have h1 : |((t * lit 5 10).val : ℝ) + u| ≤ 1 := by
      have hq := abs_cast_le hhQ
      push_cast at hq
      refine (abs_add_le _ _).trans ?_
      norm_num at hq ub ⊢; linarith
    calc _ ≤ (1 / 2 ^ 150 : ℝ) * 1 := mul_le_mul hv h1 (abs_nonneg _) (by norm_num)
      _ ≤ _ := by norm_num
  have es' : |((t * lit 5 10).sin.val : ℝ) - Real.sin (0.98676 * u)| ≤ 1.61 / 10 ^ 6 + 0.0617 * u ^ 2 := by
    generalize ((t * lit 5 10).sin.val : ℝ) = S at *
    generalize ((t * lit 5 10).val : ℝ) = H at *
    generalize Real.sin (0.98676 * u) = R at *
    rw [abs_le] at *
    norm_num at *
    constructor <;> linarith
  have ec'' : |((t * lit 5 10).cos.val : ℝ) - Real.cos (0.98676 * u)| ≤ 1.11 / 10 ^ 6 + 0.0124 * u ^ 2 := by
    generalize ((t * lit 5 10).cos.val : ℝ) = S at *
    generalize ((t * lit 5 10).val : ℝ) = H at *
    generalize Real.cos (0.98676 * u) = R at *
    rw [abs_le] at *
    norm_num at *
    constructor <;> linarith
  obtain ⟨g1, k1⟩ := axis_comp_e fx fs hx1 bs es'
  obtain ⟨g2, k2⟩ := axis_comp_e fy fs hy1 bs es'
  obtain ⟨g3, k3⟩ := axis_comp_e fz fs hz1 bs es'
  refine ⟨⟨by rw [ea]; exact fc, by rw [eb]; exact g1, by rw [ec']; exact g2, by rw [ed]; exact g3⟩, ?_⟩
  obtain ⟨E, hE⟩ : ∃ E : ℝ, E = 1.61 / 10 ^ 6 + 0.0617 * u ^ 2 + 6 / 10 ^ 8 := ⟨_, rfl⟩
  rw [← hE] at k1 k2 k3
  have E0 : 0 ≤ E := by rw [hE]; positivity
  have E1 : E ≤ 1 := by
    have : u ^ 2 ≤ 1 / 256 := by rw [← sq_abs]; exact (pow_le_pow_left₀ (abs_nonneg _) ub 2).trans (by norm_num)
    rw [hE]; norm_num at *; linarith
  have sqk : ∀ m e : ℝ, |m| ≤ 3 / 2 → |e| ≤ E * |m| + 1 / 2 ^ 150 → e ^ 2 ≤ E ^ 2 * m ^ 2 + 1 / 10 ^ 15 := by
    intro m e hm he
    have h := pow_le_pow_left₀ (abs_nonneg e) he 2
    rw [sq_abs] at h
    refine h.trans ?_
    rw [add_sq, mul_pow, sq_abs]
    have : E * |m| ≤ 1 * (3 / 2) := mul_le_mul E1 hm (abs_nonneg _) (by norm_num)
    norm_num at *
    linarith
  have hx1' := abs_cast_le hx1
  have hy1' := abs_cast_le hy1
  have hz1' := abs_cast_le hz1
  push_cast at hx1' hy1' hz1'
  have q1 := sqk _ _ hx1' k1
  have q2 := sqk _ _ hy1' k2
  have q3 := sqk _ _ hz1' k3
  have q0 := pow_le_pow_left₀ (abs_nonneg _) ec'' 2
  rw [sq_abs] at q0
  have hnR := (abs_le.1 (abs_cast_le hn)).2
  push_cast at hnR
  have tu : (t.val : ℝ) ^ 2 = 4 * u ^ 2 := by rw [hu]; ring
  rw [tu]
  refine (sq_le_sq₀ (norm_nonneg _) (by positivity)).1 ?_
  obtain ⟨p0, p1, p2, p3⟩ := qreal_proj (Quaternion.axisAngle n t)
  rw [Geom.norm_sq_eq]
  simp only [_root_.Quaternion.re_sub, _root_.Quaternion.imI_sub, _root_.Quaternion.imJ_sub, _root_.Quaternion.imK_sub,
    p0, p1, p2, p3, ea, eb, ec', ed, Geom.turnQ_re, Geom.turnQ_imI, Geom.turnQ_imJ, Geom.turnQ_imK, e0]
  have fin1 : E ^ 2 * ((n.x.val : ℝ) ^ 2 + (n.y.val : ℝ) ^ 2 + (n.z.val : ℝ) ^ 2) ≤ E ^ 2 * 1.001 :=
    mul_le_mul_of_nonneg_left (by norm_num at hnR ⊢; linarith) (sq_nonneg E)
  have fin2 : (1.11 / 10 ^ 6 + 0.0124 * u ^ 2) ^ 2 + (E ^ 2 * 1.001 + 3 / 10 ^ 15) ≤ (2.1 / 10 ^ 6 + 0.0158 * (4 * u ^ 2)) ^ 2 := by
    rw [hE]
    generalize u ^ 2 = B at *
    have : 0 ≤ B ^ 2 := sq_nonneg B
    norm_num
    nlinarith
  rw [mul_add, mul_add] at fin1
  linarith

/-! ### Chains of approximate factors -/

/-- `q` approximates `Q` as the product of `k` factors does, each within `e` and each rounded product within `1e-6`. -/
structure ProdNear (ρ e : ℝ) (k : Nat) (q : Quaternion) (Q : _root_.Quaternion ℝ) : Prop where
  fin : QFinite q
  len : ‖Q‖ ≤ ρ ^ k
  err : ‖qreal q - Q‖ ≤ (ρ + e + 1 / 10 ^ 6) ^ k - ρ ^ k

theorem prod_step {ρ e : ℝ} (ρ1 : 1 ≤ ρ) (e0 : 0 ≤ e) (h4 : ρ + e + 1 / 10 ^ 6 ≤ 1.004) {p : Quaternion} {P : _root_.Quaternion ℝ} (fp : QFinite p)
    (lP : ‖P‖ ≤ ρ) (eP : ‖qreal p - P‖ ≤ e) {k : Nat} (hk : k < 10000) {q : Quaternion} {Q : _root_.Quaternion ℝ} (hq : ProdNear ρ e k q Q) :
    ProdNear ρ e (k + 1) (q.mul p) (Q * P) := by
  obtain ⟨fq, lQ, eQ⟩ := hq
  obtain ⟨a, ha⟩ : ∃ a : ℝ, a = ρ + e + 1 / 10 ^ 6 := ⟨_, rfl⟩
  rw [← ha] at eQ h4
  have ρk : 1 ≤ ρ ^ k := one_le_pow₀ ρ1
  have a1 : ρ ≤ a := by rw [ha]; linarith
  have lA : ‖qreal p‖ ≤ ρ + e := by
    have := norm_le_norm_add_norm_sub' (qreal p) P
    linarith
  have lq : ‖qreal q‖ ≤ a ^ k := by
    have := norm_le_norm_add_norm_sub' (qreal q) Q
    linarith
  have ak : 0 ≤ a ^ k := (norm_nonneg _).trans lq
  have lA' : ‖qreal p‖ ≤ 1.004 := by rw [ha] at h4; norm_num at *; linarith
  obtain ⟨fm, em⟩ := C136_mul fq fp ((mul_le_mul lq lA' (norm_nonneg _) ak).trans (pow_small (by linarith) h4 hk.le))
  refine ⟨fm, ?_, ?_⟩
  · rw [pow_succ]
    exact (norm_mul_le _ _).trans (mul_le_mul lQ lP (norm_nonneg _) (by linarith))
  · rw [← ha]
    have e1 : ‖qreal q * qreal p - Q * P‖ ≤ (a ^ k - ρ ^ k) * (ρ + e) + ρ ^ k * e := by
      rw [show qreal q * qreal p - Q * P = (qreal q - Q) * qreal p + Q * (qreal p - P) by noncomm_ring]
      refine (norm_add_le _ _).trans (add_le_add ?_ ?_)
      · exact (norm_mul_le _ _).trans (mul_le_mul eQ lA (norm_nonneg _) ((norm_nonneg _).trans eQ))
      · exact (norm_mul_le _ _).trans (mul_le_mul lQ eP (norm_nonneg _) (by linarith))
    have tri := norm_sub_le_norm_sub_add_norm_sub (qreal (q.mul p)) (qreal q * qreal p) (Q * P)
    refine tri.trans ?_
    have e2 : (6e-7 : ℝ) * (‖qreal q‖ * ‖qreal p‖) ≤ 6e-7 * (a ^ k * 1.004) :=
      mul_le_mul_of_nonneg_left (mul_le_mul lq lA' (norm_nonneg _) ak) (by norm_num)
    rw [pow_succ, pow_succ]
    have e3 : a ^ k * a - ρ ^ k * ρ = (a ^ k - ρ ^ k) * (ρ + e) + ρ ^ k * e + a ^ k * (1 / 10 ^ 6) := by rw [ha]; ring
    rw [e3]
    have ak1 : 1 ≤ a ^ k := one_le_pow₀ (ρ1.trans a1)
    have e4 : (6e-7 : ℝ) * (a ^ k * 1.004) + 1 / 2 ^ 146 ≤ a ^ k * (1 / 10 ^ 6) := by
      norm_num at ak1 ⊢; linarith
    linarith

omit [Cfg] in
theorem qreal_identity : qreal Quaternion.IDENTITY = 1 := by
  ext <;> simp [qreal, Quaternion.IDENTITY, val_one, val_posZero] <;> rfl

/-- **C149, products of approximate factors.** Multiplying up `N ≤ 10000` finite quaternions, each within `e` of an exact quaternion of
length at most `ρ`, where `1 ≤ ρ` and `ρ + e + 1e-6 ≤ 1.004`, gives a finite quaternion within `(ρ + e + 1e-6)^N - ρ^N` of the exact product. -/
theorem C149_product {ρ e : ℝ} (ρ1 : 1 ≤ ρ) (e0 : 0 ≤ e) (h4 : ρ + e + 1 / 10 ^ 6 ≤ 1.004) (L : List (Quaternion × _root_.Quaternion ℝ))
    (hL : ∀ s ∈ L, QFinite s.1 ∧ ‖s.2‖ ≤ ρ ∧ ‖qreal s.1 - s.2‖ ≤ e) (hN : L.length ≤ 10000) :
    QFinite ((L.map Prod.fst).foldl Quaternion.mul Quaternion.IDENTITY) ∧
      ‖qreal ((L.map Prod.fst).foldl Quaternion.mul Quaternion.IDENTITY) - (L.map Prod.snd).prod‖ ≤ (ρ + e + 1 / 10 ^ 6) ^ L.length - ρ ^ L.length := by
  have key : ProdNear ρ e L.length ((L.map Prod.fst).foldl Quaternion.mul Quaternion.IDENTITY) (L.map Prod.snd).prod := by
    induction L using List.reverseRecOn with
    | nil =>
      refine ⟨⟨fin_one, fin_posZero, fin_posZero, fin_posZero⟩, by simp, ?_⟩
      rw [List.map_nil, List.foldl_nil, List.map_nil, List.prod_nil, qreal_identity]; simp
    | append_singleton l s ih =>
      rw [List.length_append, List.length_singleton] at hN
      rw [List.map_append, List.foldl_append, List.map_append, List.prod_append, List.length_append, List.map_singleton, List.map_singleton,
        List.prod_singleton, List.length_singleton]
      obtain ⟨h1, h2, h3⟩ := hL s (by simp)
      exact prod_step ρ1 e0 h4 h1 h2 h3 (by omega) (ih (fun x hx => hL x (by simp [hx])) (by omega))
  exact ⟨key.fin, key.err⟩

/-- **C149, chains of small turns.** Multiplying up `N ≤ 10000` turns `axis_angle(n, t)` with `|t| ≤ m ≤ 1/8` and axes of squared length within
`d ≤ 1/1000` of one gives the exact product of the turns by `0.98676 t`, up to `(1 + d + 3.1e-6 + 0.0158 m²)^N - (1 + d)^N`. -/
theorem C149_small_turns {d m : ℚ} (d1 : d ≤ 1 / 1000) (d0 : 0 ≤ d) (m1 : m ≤ 1 / 8) (L : List (Vector3d F32 × F32))
    (hL : ∀ s ∈ L, TurnStep d s ∧ |s.2.val| ≤ m) (hN : L.length ≤ 10000) :
    QFinite (L.foldl (fun q s => q.mul (Quaternion.axisAngle s.1 s.2)) Quaternion.IDENTITY) ∧
      ‖qreal (L.foldl (fun q s => q.mul (Quaternion.axisAngle s.1 s.2)) Quaternion.IDENTITY)
        - (L.map fun s => Geom.turnQ s.1.x.val s.1.y.val s.1.z.val (0.98676 * s.2.val)).prod‖
        ≤ (1 + (d : ℝ) + 3.1 / 10 ^ 6 + 0.0158 * (m : ℝ) ^ 2) ^ L.length - (1 + (d : ℝ)) ^ L.length := by
  have d0' : (0 : ℝ) ≤ d := by exact_mod_cast d0
  have d1' := (Rat.cast_le (K := ℝ)).2 d1
  push_cast at d1'
  have hm2 : ∀ t : F32, |t.val| ≤ m → (t.val : ℝ) ^ 2 ≤ (m : ℝ) ^ 2 := by
    intro t ht
    rw [← sq_abs]
    exact pow_le_pow_left₀ (abs_nonneg _) (abs_cast_le ht) 2
  rcases L with _ | ⟨s0, L0⟩
  · refine ⟨⟨fin_one, fin_posZero, fin_posZero, fin_posZero⟩, ?_⟩
    rw [List.foldl_nil, List.map_nil, List.prod_nil, qreal_identity]; simp
  have m0 : 0 ≤ m := (abs_nonneg _).trans (hL s0 (by simp)).2
  have mm : (m : ℝ) ^ 2 ≤ 1 / 64 := by
    have h1 : (0 : ℝ) ≤ m := by exact_mod_cast m0
    have h2 := (Rat.cast_le (K := ℝ)).2 m1
    push_cast at h2
    exact (pow_le_pow_left₀ h1 h2 2).trans (by norm_num)
  generalize s0 :: L0 = L at *
  have key := C149_product (ρ := 1 + d) (e := 2.1 / 10 ^ 6 + 0.0158 * (m : ℝ) ^ 2) (by linarith) (by positivity) (by norm_num at *; linarith)
    (L.map fun s => (Quaternion.axisAngle s.1 s.2, Geom.turnQ s.1.x.val s.1.y.val s.1.z.val (0.98676 * s.2.val))) (fun p hp => by
      obtain ⟨s, hs, rfl⟩ := List.mem_map.1 hp
      obtain ⟨h, hm⟩ := hL s hs
      obtain ⟨f, e⟩ := C149_axis_angle h.ft (hm.trans m1) h.fx h.fy h.fz (h.axis.trans d1)
      refine ⟨f, ?_, ?_⟩
      · refine (Geom.turnQ_norm (δ := (s.1.x.val : ℝ) ^ 2 + (s.1.y.val : ℝ) ^ 2 + (s.1.z.val : ℝ) ^ 2 - 1) (by ring)).trans ?_
        have := (Rat.cast_le (K := ℝ)).2 h.axis
        push_cast at this
        linarith
      · refine e.trans ?_
        have := hm2 _ hm
        norm_num at *; linarith) (by rw [List.length_map]; exact hN)
  rw [List.map_map, List.map_map, List.length_map] at key
  have e1 : ((L.map (Prod.fst ∘ fun s : Vector3d F32 × F32 =>
      (Quaternion.axisAngle s.1 s.2, Geom.turnQ s.1.x.val s.1.y.val s.1.z.val (0.98676 * s.2.val)))).foldl Quaternion.mul Quaternion.IDENTITY)
      = L.foldl (fun q s => q.mul (Quaternion.axisAngle s.1 s.2)) Quaternion.IDENTITY := by
    rw [List.foldl_map]; rfl
  rw [e1] at key
  refine ⟨key.1, key.2.trans (le_of_eq ?_)⟩
  congr 2
  norm_num
  ring

omit [Cfg] in
theorem turnQ_z_pow (a : ℝ) (N : Nat) : Geom.turnQ 0 0 1 a ^ N = Geom.turnQ 0 0 1 (N * a) := by
  induction N with
  | zero =>
    rw [pow_zero]
    ext <;> simp [Geom.turnQ] <;> rfl
  | succ N ih =>
    rw [pow_succ, ih]
    have e : ((N + 1 : ℕ) : ℝ) * a / 2 = N * a / 2 + a / 2 := by push_cast; ring
    ext
    · rw [_root_.Quaternion.re_mul]; simp only [Geom.turnQ, e, Real.cos_add]; ring
    · rw [_root_.Quaternion.imI_mul]; simp only [Geom.turnQ]; ring
    · rw [_root_.Quaternion.imJ_mul]; simp only [Geom.turnQ]; ring
    · rw [_root_.Quaternion.imK_mul]; simp only [Geom.turnQ, e, Real.sin_add]; ring

/-- **C149, integrating a turn rate.** `N` equal updates of angle `t`, `|t| ≤ m ≤ 1/8`, about the third axis end at the turn by
`0.98676 N t`, up to `(1 + 3.1e-6 + 0.0158 m²)^N - 1`. -/
theorem C149_rate {t : F32} {m : ℚ} (ht : t.isFinite = true) (hm : |t.val| ≤ m) (m1 : m ≤ 1 / 8) {N : Nat} (hN : N ≤ 10000) :
    ‖qreal ((List.replicate N ((⟨ZERO, ZERO, ONE⟩ : Vector3d F32), t)).foldl (fun q s => q.mul (Quaternion.axisAngle s.1 s.2)) Quaternion.IDENTITY)
      - Geom.turnQ 0 0 1 (0.98676 * (N * t.val))‖ ≤ (1 + 3.1 / 10 ^ 6 + 0.0158 * (m : ℝ) ^ 2) ^ N - 1 := by
  have h := (C149_small_turns (d := 0) (m := m) (by norm_num) le_rfl m1 (List.replicate N ((⟨ZERO, ZERO, ONE⟩ : Vector3d F32), t)) (fun s hs => by
    obtain ⟨-, rfl⟩ := List.mem_replicate.1 hs
    exact ⟨⟨fin_ZERO, fin_ZERO, fin_ONE, ht, by dsimp only; rw [val_ZERO, val_ONE]; norm_num, hm.trans (m1.trans (by norm_num))⟩, hm⟩)
    (by rw [List.length_replicate]; exact hN)).2
  rw [List.map_replicate, List.prod_replicate, List.length_replicate] at h
  simp only [val_ZERO, val_ONE] at h
  push_cast at h
  rw [turnQ_z_pow] at h
  rw [show 0.98676 * ((N : ℝ) * t.val) = N * (0.98676 * t.val) by ring]
  simpa using h

/-- **C149, the drift.** The update of `1/128` radian, 800 times, about the third axis: the nominal total is `6.25`. The orientation obtained is
at least `0.037` away from the exact turn by `6.25`, and from its negative, as quaternions: it is about `4.7` degrees short. -/
theorem C149_rate_false : ∃ t : F32, IsVal t (1 / 128) ∧ ∀ σ : ℝ, σ = 1 ∨ σ = -1 →
    0.037 ≤ ‖qreal ((List.replicate 800 ((⟨ZERO, ZERO, ONE⟩ : Vector3d F32), t)).foldl (fun q s => q.mul (Quaternion.axisAngle s.1 s.2)) Quaternion.IDENTITY)
      - σ • Geom.turnQ 0 0 1 6.25‖ := by
  refine ⟨⟨0x3c000000#32⟩, ⟨by decide, ?_⟩, ?_⟩
  · rw [val_of_units (u := 2 ^ 142) (by decide +kernel)]; norm_num
  have hv : (⟨0x3c000000#32⟩ : F32).val = 1 / 128 := by rw [val_of_units (u := 2 ^ 142) (by decide +kernel)]; norm_num
  have h := C149_rate (t := ⟨0x3c000000#32⟩) (m := 1 / 128) (by decide) (by rw [hv]; norm_num) (by norm_num) (N := 800) (by norm_num)
  rw [hv] at h
  generalize qreal ((List.replicate 800 ((⟨ZERO, ZERO, ONE⟩ : Vector3d F32), (⟨0x3c000000#32⟩ : F32))).foldl
    (fun q s => q.mul (Quaternion.axisAngle s.1 s.2)) Quaternion.IDENTITY) = q at *
  have hb : (1 + 3.1 / 10 ^ 6 + 0.0158 * ((1 / 128 : ℚ) : ℝ) ^ 2 : ℝ) ^ 800 - 1 ≤ 0.0034 := by
    have e1 : (1 + 3.1 / 10 ^ 6 + 0.0158 * ((1 / 128 : ℚ) : ℝ) ^ 2 : ℝ) ≤ 1 + 4.1 / 10 ^ 6 := by norm_num
    have e2 : (1 + 4.1 / 10 ^ 6 : ℝ) ^ 20 ≤ 1 + 82.1 / 10 ^ 6 := by norm_num
    have e3 : (1 + 82.1 / 10 ^ 6 : ℝ) ^ 40 ≤ 1.0034 := by norm_num
    have e4 := pow_le_pow_left₀ (by positivity) e1 800
    have e5 : (1 + 4.1 / 10 ^ 6 : ℝ) ^ 800 = ((1 + 4.1 / 10 ^ 6) ^ 20) ^ 40 := by rw [← pow_mul]
    have e6 := pow_le_pow_left₀ (by positivity) e2 40
    linarith
  have h2 := h.trans hb
  have ea : (0.98676 : ℝ) * (((800 : ℕ) : ℝ) * ((1 / 128 : ℚ) : ℝ)) = 6.16725 := by norm_num
  rw [ea] at h2
  intro σ hσ
  have far : (0.0405 : ℝ) ≤ ‖Geom.turnQ 0 0 1 6.16725 - σ • Geom.turnQ 0 0 1 6.25‖ := by
    refine (sq_le_sq₀ (by norm_num) (norm_nonneg _)).1 ?_
    rw [Geom.norm_sq_eq]
    simp only [_root_.Quaternion.re_sub, _root_.Quaternion.imI_sub, _root_.Quaternion.imJ_sub, _root_.Quaternion.imK_sub,
      _root_.Quaternion.re_smul, _root_.Quaternion.imI_smul, _root_.Quaternion.imJ_smul, _root_.Quaternion.imK_smul, Geom.turnQ_re, Geom.turnQ_imI,
      Geom.turnQ_imJ, Geom.turnQ_imK, smul_eq_mul]
    obtain ⟨A, hA⟩ : ∃ A : ℝ, A = 6.16725 / 2 := ⟨_, rfl⟩
    obtain ⟨B, hB⟩ : ∃ B : ℝ, B = 6.25 / 2 := ⟨_, rfl⟩
    have e : (Real.cos A - σ * Real.cos B) ^ 2 + (0 * Real.sin A - σ * (0 * Real.sin B)) ^ 2 + (0 * Real.sin A - σ * (0 * Real.sin B)) ^ 2
        + (1 * Real.sin A - σ * (1 * Real.sin B)) ^ 2 = 1 + σ ^ 2 - 2 * σ * Real.cos (B - A) := by
      rw [Real.cos_sub]
      have s1 := Real.sin_sq_add_cos_sq A
      have s2 := Real.sin_sq_add_cos_sq B
      linear_combination s1 + σ ^ 2 * s2
    rw [← hA, ← hB, e, hA, hB, show (6.25 / 2 - 6.16725 / 2 : ℝ) = 0.041375 by norm_num]
    have cb := Real.cos_bound (x := 0.041375) (by rw [abs_of_pos (by norm_num)]; norm_num)
    rw [abs_of_pos (show (0 : ℝ) < 0.041375 by norm_num), abs_le] at cb
    rcases hσ with rfl | rfl
    · norm_num at cb ⊢; linarith [cb.2]
    · norm_num at cb ⊢; linarith [cb.1]
  have tri := norm_sub_le_norm_sub_add_norm_sub (Geom.turnQ 0 0 1 6.16725) q (σ • Geom.turnQ 0 0 1 6.25)
  rw [norm_sub_rev _ q] at tri
  linarith

end Micromath.Props
