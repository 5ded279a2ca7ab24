import Verif.Props.TwoVec
import Verif.Props.Trig
import Verif.Real.Rodrigues

/-!
# C96: `axis_angle` followed by `rotate` is the turn of Rodrigues' formula
-/

set_option exponentiation.threshold 1000

namespace Micromath.Props
open F32 Spec

variable [Cfg]

omit [Cfg] in
theorem RN_half (x : F32) : |RN (x.val * (1 / 2)) - x.val / 2| ≤ 1 / 2 ^ 150 := by
  obtain ⟨k, r, hb, hk, hr⟩ := mag_split x.mag
  have hm : magU x.mag = r * 2 ^ k := magU_eq_iff_split hb hk hr.le
  have hv : |x.val| = (r * 2 ^ k : ℕ) / 2 ^ 149 := by rw [abs_val, mval, hm]
  rcases Nat.eq_zero_or_pos k with h0 | h0
  · rw [mul_one_div]
    refine (RN_err _).trans (max_le le_rfl ?_)
    rw [abs_div, hv, h0]
    have : (r : ℚ) ≤ 2 ^ 24 := by exact_mod_cast hr.le
    push_cast
    rw [mul_one, abs_of_pos (show (0 : ℚ) < 2 by norm_num), div_div, div_div, div_le_div_iff₀ (by norm_num) (by norm_num)]
    linarith
  · have : Rep (x.val * (1 / 2)) := by
      have hr' := rep_units (m := r) (by simpa using hr.le) (k - 1)
      have e : (2 : ℚ) ^ k = 2 ^ (k - 1) * 2 := by rw [← pow_succ]; congr 1; omega
      have e2 : |x.val * (1 / 2)| = ((r : Int) : ℚ) * 2 ^ (k - 1) / 2 ^ 149 := by
        rw [abs_mul, hv]; push_cast; rw [e, abs_of_pos (by norm_num)]; ring
      rcases abs_choice (x.val * (1 / 2)) with h | h
      · rw [← h, e2]; exact hr'
      · rw [show x.val * (1 / 2) = -|x.val * (1 / 2)| by rw [h, neg_neg], e2]; exact hr'.neg
    rw [RN_of_rep this, mul_one_div, sub_self, abs_zero]
    positivity

/-- `theta * 0.5` is half of theta up to `2^-150`. -/
theorem half_theta_val {t : F32} (ht : t.isFinite = true) (hb : |t.val| ≤ 8192) :
    |((t * lit 5 10).val : ℝ) - t.val / 2| ≤ 1 / 2 ^ 150 := by
  obtain ⟨fh, vh⟩ := lit_half'
  have h1 : |t.val * (lit 5 10).val| ≤ 4096 := by
    rw [vh, abs_mul, abs_of_pos (show (0 : ℚ) < 1 / 2 by norm_num)]; linarith
  obtain ⟨f, v⟩ := mul_val ht fh (lt_of_le_of_lt h1 (by unfold ovf; norm_num))
  have := abs_cast_le (RN_half t)
  rw [v, vh]
  push_cast at this ⊢
  exact this

/-- One component of the vector part. -/
theorem axis_comp {n s : F32} {S : ℝ} (fn : n.isFinite = true) (fs : s.isFinite = true) (hn : |n.val| ≤ 3 / 2)
    (bs : |s.val| ≤ 1 + 1 / 2 ^ 20) (hs : |(s.val : ℝ) - S| ≤ 0.0020001) :
    (n * s).isFinite = true ∧ |((n * s).val : ℝ) - n.val * S| ≤ 0.0020002 * |(n.val : ℝ)| + 1 / 2 ^ 150 := by
  have h3 : |n.val * s.val| ≤ 2 := by
    rw [abs_mul]; exact (mul_le_mul hn bs (abs_nonneg _) (by norm_num)).trans (by norm_num)
  obtain ⟨f, e⟩ := mul_err_uf fn fs (lt_of_le_of_lt h3 (by norm_num [ovf]))
  refine ⟨f, ?_⟩
  have e' := abs_cast_le e
  have bs' := abs_cast_le bs
  push_cast at e' bs'
  have h4 : |(n.val : ℝ) * s.val - n.val * S| ≤ |(n.val : ℝ)| * 0.0020001 := by
    rw [← mul_sub, abs_mul]; exact mul_le_mul_of_nonneg_left hs (abs_nonneg _)
  have h5 : |(n.val : ℝ)| * |(s.val : ℝ)| ≤ |(n.val : ℝ)| * (1 + 1 / 2 ^ 20) := mul_le_mul_of_nonneg_left bs' (abs_nonneg _)
  rw [abs_mul] at e'
  have := abs_sub_le ((n * s).val : ℝ) (n.val * s.val) (n.val * S)
  have h6 := abs_nonneg (n.val : ℝ)
  linarith

/-- **C96.** `axis_angle` against the exact quaternion of the turn: for an axis of exact squared length `1 + delta`,
`|delta| <= 0.001`, and `|theta| <= 8192`, the distance of the two quaternions is at most `0.00284`. -/
theorem C96_axis_angle {n : Vector3d F32} {t : F32} (ht : t.isFinite = true) (hb : |t.val| ≤ 8192)
    (fx : n.x.isFinite = true) (fy : n.y.isFinite = true) (fz : n.z.isFinite = true)
    (hn : |n.x.val ^ 2 + n.y.val ^ 2 + n.z.val ^ 2 - 1| ≤ 1 / 1000) :
    QFinite (Quaternion.axisAngle n t) ∧
    ‖qreal (Quaternion.axisAngle n t) - Geom.turnQ n.x.val n.y.val n.z.val t.val‖ ≤ 0.00284 := by
  obtain ⟨fh, bh⟩ := half_theta ht hb
  have hv := half_theta_val ht hb
  obtain ⟨fs, bs, es⟩ := C36_sin fh bh
  obtain ⟨fc, bc, ec⟩ := C34_cos fh bh
  obtain ⟨ea, eb, ec', ed⟩ := C74_axis_angle n t
  have hi : ∀ u : F32, IntoF32.into u = u := fun _ => rfl
  rw [hi, hi] at *
  have hcos : |Real.cos ((t * lit 5 10).val : ℝ) - Real.cos (t.val / 2)| ≤ 1 / 2 ^ 150 :=
    (Real.abs_cos_sub_cos_le _ _).trans hv
  have hsin : |Real.sin ((t * lit 5 10).val : ℝ) - Real.sin (t.val / 2)| ≤ 1 / 2 ^ 150 :=
    (Real.abs_sin_sub_sin_le _ _).trans hv
  have hn2 := (abs_le.1 hn).2
  have sx := sq_nonneg n.x.val
  have sy := sq_nonneg n.y.val
  have sz := sq_nonneg n.z.val
  have hx1 : |n.x.val| ≤ 3 / 2 := abs_le_of_sq_le_sq (by norm_num; linarith) (by norm_num)
  have hy1 : |n.y.val| ≤ 3 / 2 := abs_le_of_sq_le_sq (by norm_num; linarith) (by norm_num)
  have hz1 : |n.z.val| ≤ 3 / 2 := abs_le_of_sq_le_sq (by norm_num; linarith) (by norm_num)
  have es' : |((t * lit 5 10).sin.val : ℝ) - Real.sin (t.val / 2)| ≤ 0.0020001 := by
    have := abs_sub_le ((t * lit 5 10).sin.val : ℝ) (Real.sin ((t * lit 5 10).val : ℝ)) (Real.sin (t.val / 2))
    norm_num at *; linarith
  have ec'' : |((t * lit 5 10).cos.val : ℝ) - Real.cos (t.val / 2)| ≤ 0.0020001 := by
    have := abs_sub_le ((t * lit 5 10).cos.val : ℝ) (Real.cos ((t * lit 5 10).val : ℝ)) (Real.cos (t.val / 2))
    norm_num at *; linarith
  obtain ⟨g1, k1⟩ := axis_comp fx fs hx1 bs es'
  obtain ⟨g2, k2⟩ := axis_comp fy fs hy1 bs es'
  obtain ⟨g3, k3⟩ := axis_comp fz fs hz1 bs es'
  refine ⟨⟨by rw [ea]; exact fc, by rw [eb]; exact g1, by rw [ec']; exact g2, by rw [ed]; exact g3⟩, ?_⟩
  have sqk : ∀ m e : ℝ, |m| ≤ 3 / 2 → |e| ≤ 0.0020002 * |m| + 1 / 2 ^ 150 → e ^ 2 ≤ 0.0020002 ^ 2 * m ^ 2 + 1 / 10 ^ 12 := by
    intro m e hm he
    have h := pow_le_pow_left₀ (abs_nonneg e) he 2
    rw [sq_abs] at h
    refine h.trans ?_
    rw [add_sq, mul_pow, sq_abs]
    norm_num
    linarith
  have hx1' := abs_cast_le hx1
  have hy1' := abs_cast_le hy1
  have hz1' := abs_cast_le hz1
  push_cast at hx1' hy1' hz1'
  have q1 := sqk _ _ hx1' k1
  have q2 := sqk _ _ hy1' k2
  have q3 := sqk _ _ hz1' k3
  have q0 := pow_le_pow_left₀ (abs_nonneg _) ec'' 2
  rw [sq_abs] at q0
  have hnR := (abs_le.1 (abs_cast_le hn)).2
  push_cast at hnR
  refine (sq_le_sq₀ (norm_nonneg _) (by norm_num)).1 ?_
  obtain ⟨p0, p1, p2, p3⟩ := qreal_proj (Quaternion.axisAngle n t)
  rw [Geom.norm_sq_eq]
  simp only [_root_.Quaternion.re_sub, _root_.Quaternion.imI_sub, _root_.Quaternion.imJ_sub, _root_.Quaternion.imK_sub,
    p0, p1, p2, p3, ea, eb, ec', ed, Geom.turnQ_re, Geom.turnQ_imI, Geom.turnQ_imJ, Geom.turnQ_imK]
  norm_num at *
  linarith

set_option maxHeartbeats 1000000 in
/-- **C96.** `rotate(axis_angle(n, theta), w)` is the vector `w` turned about the axis `n` by `theta`, right-handed
(Rodrigues' formula), up to `(0.0058 + |delta|) |w|` where `1 + delta` is the exact squared length of the axis. -/
theorem C96_turn {n : Vector3d F32} {t : F32} {C : Type} [IntoF32 C] {w : Vector3d C} (ht : t.isFinite = true) (hb : |t.val| ≤ 8192)
    (fx : n.x.isFinite = true) (fy : n.y.isFinite = true) (fz : n.z.isFinite = true)
    {δ : ℝ} (hδ : δ = (n.x.val : ℝ) ^ 2 + (n.y.val : ℝ) ^ 2 + (n.z.val : ℝ) ^ 2 - 1)
    (hn : |n.x.val ^ 2 + n.y.val ^ 2 + n.z.val ^ 2 - 1| ≤ 1 / 1000) (fw : VFinite w) (l1 : 1 / 2 ^ 200 ≤ len3 w) (l2 : len3 w ≤ 2 ^ 236)
    {x y z : ℝ} (hx : x = (IntoF32.into w.x : F32).val) (hy : y = (IntoF32.into w.y : F32).val) (hz : z = (IntoF32.into w.z : F32).val)
    {r : Vector3d F32} (hr : r = (Quaternion.axisAngle n t).rotate w) :
    VFinite r ∧
    ‖Geom.pure r.x.val r.y.val r.z.val - Geom.turned n.x.val n.y.val n.z.val x y z t.val‖ ≤ (0.0058 + |δ|) * Real.sqrt (len3 w) := by
  obtain ⟨fq, hq⟩ := C96_axis_angle ht hb fx fy fz hn
  have hnR := abs_cast_le hn
  push_cast at hnR
  rw [← hδ] at hnR
  have hnδ : (n.x.val : ℝ) ^ 2 + (n.y.val : ℝ) ^ 2 + (n.z.val : ℝ) ^ 2 = 1 + δ := by rw [hδ]; ring
  have main := Geom.turn_near (v1 := x) (v2 := y) (v3 := z) hnδ hq
  have hQ := Geom.turnQ_norm (t := (t.val : ℝ)) hnδ
  have nV2 : ‖Geom.pure x y z‖ ^ 2 = len3 w := by
    rw [Geom.norm_sq_eq, Geom.pure_re, Geom.pure_imI, Geom.pure_imJ, Geom.pure_imK, hx, hy, hz]
    unfold len3
    push_cast
    ring
  have nV : ‖Geom.pure x y z‖ = Real.sqrt (len3 w) := by rw [← nV2, Real.sqrt_sq (norm_nonneg _)]
  rw [nV] at main
  obtain ⟨l, hl⟩ : ∃ l, l = Real.sqrt (len3 w) := ⟨_, rfl⟩
  rw [nV, ← hl] at nV2
  rw [← hl] at main ⊢
  have hl0 : 0 ≤ l := by rw [hl]; exact Real.sqrt_nonneg _
  obtain ⟨a, ha⟩ : ∃ a, a = (IntoF32.into w.x : F32).val := ⟨_, rfl⟩
  obtain ⟨b, hb'⟩ : ∃ b, b = (IntoF32.into w.y : F32).val := ⟨_, rfl⟩
  obtain ⟨c, hc⟩ : ∃ c, c = (IntoF32.into w.z : F32).val := ⟨_, rfl⟩
  obtain ⟨L, hL⟩ : ∃ L, L = |a| + |b| + |c| := ⟨_, rfl⟩
  have hll : len3 w = a ^ 2 + b ^ 2 + c ^ 2 := by rw [ha, hb', hc]; rfl
  have hL0 : 0 ≤ L := by rw [hL]; positivity
  have hLs : L ^ 2 ≤ 3 * len3 w := by
    rw [hll, hL, ← sq_abs a, ← sq_abs b, ← sq_abs c]
    nlinarith [sq_nonneg (|a| - |b|), sq_nonneg (|b| - |c|), sq_nonneg (|a| - |c|)]
  have hL31 : L ≤ 2 ^ 119 := by
    refine abs_le_of_sq_le_sq' ?_ (by norm_num) |>.2
    exact hLs.trans ((mul_le_mul_of_nonneg_left l2 (by norm_num)).trans (by norm_num))
  obtain ⟨q, hqq⟩ : ∃ q, q = Quaternion.axisAngle n t := ⟨_, rfl⟩
  rw [← hqq] at fq hq main hr
  have hκ : (qlen q : ℝ) ≤ 1.01 := by
    have e : (qlen q : ℝ) = ‖qreal q‖ ^ 2 := by
      obtain ⟨p0, p1, p2, p3⟩ := qreal_proj q
      rw [Geom.norm_sq_eq, p0, p1, p2, p3]; unfold qlen; push_cast; rfl
    have h1 := norm_add_le (qreal q - Geom.turnQ n.x.val n.y.val n.z.val t.val) (Geom.turnQ n.x.val n.y.val n.z.val t.val)
    rw [sub_add_cancel] at h1
    have h2 : ‖qreal q‖ ≤ 1.004 := by norm_num at *; linarith
    rw [e]
    exact (pow_le_pow_left₀ (norm_nonneg _) h2 2).trans (by norm_num)
  have hκq : qlen q ≤ 1.01 := by
    have h : ((qlen q : ℚ) : ℝ) ≤ ((1.01 : ℚ) : ℝ) := by push_cast; exact hκ
    exact_mod_cast h
  have hQ0 : 0 ≤ qlen q := by unfold qlen; positivity
  obtain ⟨g1, g2, g3, e1, e2, e3⟩ := C90_rotate_err q w fq fw.1 fw.2.1 fw.2.2 (by norm_num at hκq ⊢; linarith) ha hb' hc hL
    (by norm_num at hL31 ⊢; linarith) (by
      have := mul_le_mul hκq hL31 hL0 (by norm_num)
      norm_num at this ⊢; linarith)
  have hLR : (L : ℝ) ≤ 1.74 * l := by
    refine abs_le_of_sq_le_sq' ?_ (by positivity) |>.2
    have := (Rat.cast_le (K := ℝ)).2 hLs
    push_cast at this
    rw [← nV2] at this
    rw [mul_pow]
    nlinarith [sq_nonneg l]
  have hlL : 1 / 2 ^ 100 ≤ l := by
    refine (sq_le_sq₀ (by positivity) hl0).1 ?_
    rw [nV2]
    have := (Rat.cast_le (K := ℝ)).2 l1
    push_cast at this
    refine le_trans (le_of_eq ?_) this
    norm_num
  have hL0' : (0 : ℝ) ≤ L := by exact_mod_cast hL0
  have toR : ∀ a b : ℚ, |a - b| ≤ 11 / 2 ^ 24 * (qlen q * L) + (L + 1) / 2 ^ 143 → ((a : ℝ) - b) ^ 2 ≤ (1.2e-6 * l) ^ 2 := fun a b hab => by
    have := (Rat.cast_le (K := ℝ)).2 hab
    push_cast at this
    rw [← sq_abs]
    refine pow_le_pow_left₀ (abs_nonneg _) (this.trans ?_) 2
    have h2 := mul_le_mul hκ hLR hL0' (by norm_num)
    norm_num at h2 hLR hlL ⊢
    linarith
  rw [← hr] at g1 g2 g3 e1 e2 e3
  have k1 := toR _ _ e1
  have k2 := toR _ _ e2
  have k3 := toR _ _ e3
  refine ⟨⟨g1, g2, g3⟩, ?_⟩
  obtain ⟨t0, t1, t2, t3⟩ := sand_real q a b c 1
  simp only [div_one] at t0 t1 t2 t3
  have hxa : x = a := by rw [hx, ha]
  have hyb : y = b := by rw [hy, hb']
  have hzc : z = c := by rw [hz, hc]
  rw [hxa, hyb, hzc] at main ⊢
  obtain ⟨S, hS⟩ : ∃ S, S = qreal q * Geom.pure a b c * star (qreal q) := ⟨_, rfl⟩
  rw [← hS] at t0 t1 t2 t3 main
  have near : ‖Geom.pure r.x.val r.y.val r.z.val - S‖ ≤ 2.1e-6 * l := by
    refine (sq_le_sq₀ (norm_nonneg _) (by positivity)).1 ?_
    rw [Geom.norm_sq_eq]
    simp only [_root_.Quaternion.re_sub, _root_.Quaternion.imI_sub, _root_.Quaternion.imJ_sub, _root_.Quaternion.imK_sub,
      t0, t1, t2, t3, Geom.pure_re, Geom.pure_imI, Geom.pure_imJ, Geom.pure_imK]
    rw [mul_pow] at k1 k2 k3 ⊢
    norm_num at k1 k2 k3 ⊢
    nlinarith [sq_nonneg l]
  have tri := norm_add_le (Geom.pure r.x.val r.y.val r.z.val - S) (S - Geom.turned n.x.val n.y.val n.z.val a b c t.val)
  rw [sub_add_sub_cancel] at tri
  refine tri.trans ?_
  have hδ0 := abs_nonneg δ
  have : 0 ≤ (1 / 1000 - |δ|) * l := mul_nonneg (by linarith) hl0
  norm_num at main near ⊢
  nlinarith

/-- The hypotheses hold for the `z` axis and the vector `(1, 0, 0)`: for every angle up to `8192` the result is within
`0.0058` of `(cos theta, sin theta, 0)`. -/
example {t : F32} (ht : t.isFinite = true) (hb : |t.val| ≤ 8192) {r : Vector3d F32}
    (hr : r = (Quaternion.axisAngle ⟨posZero, posZero, one⟩ t).rotate (⟨one, posZero, posZero⟩ : Vector3d F32)) :
    ((r.x.val : ℝ) - Real.cos t.val) ^ 2 + ((r.y.val : ℝ) - Real.sin t.val) ^ 2 + (r.z.val : ℝ) ^ 2 ≤ 0.0058 ^ 2 := by
  have h1 : len3 (⟨one, posZero, posZero⟩ : Vector3d F32) = 1 := by
    have e : len3 (⟨one, posZero, posZero⟩ : Vector3d F32) = one.val ^ 2 + posZero.val ^ 2 + posZero.val ^ 2 := rfl
    rw [e, val_one, val_posZero]; norm_num
  have h := (C96_turn (n := ⟨posZero, posZero, one⟩) (w := (⟨one, posZero, posZero⟩ : Vector3d F32)) (δ := 0) (x := 1) (y := 0) (z := 0) ht hb
    fin_posZero fin_posZero fin_one (by simp only [val_one, val_posZero]; norm_num) (by simp only [val_one, val_posZero]; norm_num)
    ⟨fin_one, fin_posZero, fin_posZero⟩ (by rw [h1]; norm_num) (by rw [h1]; norm_num)
    (by change (1 : ℝ) = one.val; rw [val_one]; norm_num) (by change (0 : ℝ) = posZero.val; rw [val_posZero]; norm_num)
    (by change (0 : ℝ) = posZero.val; rw [val_posZero]; norm_num) hr).2
  rw [h1] at h
  have h2 := pow_le_pow_left₀ (norm_nonneg _) h 2
  rw [Geom.norm_sq_eq] at h2
  simp only [_root_.Quaternion.re_sub, _root_.Quaternion.imI_sub, _root_.Quaternion.imJ_sub, _root_.Quaternion.imK_sub, Geom.turned,
    Geom.pure_re, Geom.pure_imI, Geom.pure_imJ, Geom.pure_imK, val_one, val_posZero] at h2
  norm_num at h2 ⊢
  linarith

end Micromath.Props
