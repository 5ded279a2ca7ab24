import Mathlib.Algebra.BigOperators.Group.List.Basic
import Verif.Props.Euler
import Verif.Props.QuatRing
import Verif.Props.FuncEq

/-!
# C145: chains of rotations, and Euler angles built with `axis_angle`
-/

set_option exponentiation.threshold 1000

namespace Micromath.Props
open F32 Spec

variable [Cfg]

/-- An axis and an angle: all finite, the squared length of the axis within `d` of one, the angle at most `8192`. -/
structure TurnStep (d : ℚ) (s : Vector3d F32 × F32) : Prop where
  fx : s.1.x.isFinite = true
  fy : s.1.y.isFinite = true
  fz : s.1.z.isFinite = true
  ft : s.2.isFinite = true
  axis : |s.1.x.val ^ 2 + s.1.y.val ^ 2 + s.1.z.val ^ 2 - 1| ≤ d
  angle : |s.2.val| ≤ 8192

/-- The exact quaternion of an axis and an angle. -/
noncomputable def turnStepQ (s : Vector3d F32 × F32) : _root_.Quaternion ℝ := Geom.turnQ s.1.x.val s.1.y.val s.1.z.val s.2.val

/-- `q` approximates `Q` as the product of `k` turns does. -/
structure ChainNear (ρ : ℝ) (k : Nat) (q : Quaternion) (Q : _root_.Quaternion ℝ) : Prop where
  fin : QFinite q
  len : ‖Q‖ ≤ ρ ^ k
  err : ‖qreal q - Q‖ ≤ (ρ + 0.002842) ^ k - ρ ^ k

theorem step_one {d : ℚ} (d1 : d ≤ 1 / 1000) {s : Vector3d F32 × F32} (h : TurnStep d s) :
    QFinite (Quaternion.axisAngle s.1 s.2) ∧ ‖turnStepQ s‖ ≤ 1 + d ∧ ‖qreal (Quaternion.axisAngle s.1 s.2) - turnStepQ s‖ ≤ 0.00284 := by
  obtain ⟨f, e⟩ := C96_axis_angle h.ft h.angle h.fx h.fy h.fz (h.axis.trans d1)
  refine ⟨f, ?_, e⟩
  refine (Geom.turnQ_norm (δ := (s.1.x.val : ℝ) ^ 2 + (s.1.y.val : ℝ) ^ 2 + (s.1.z.val : ℝ) ^ 2 - 1) (by ring)).trans ?_
  have := (Rat.cast_le (K := ℝ)).2 h.axis
  push_cast at this
  linarith

theorem chain_one {d : ℚ} (d1 : d ≤ 1 / 1000) {s : Vector3d F32 × F32} (h : TurnStep d s) :
    ChainNear (1 + d) 1 (Quaternion.axisAngle s.1 s.2) (turnStepQ s) := by
  obtain ⟨f, n, e⟩ := step_one d1 h
  exact ⟨f, by rw [pow_one]; exact n, by rw [pow_one, pow_one, add_sub_cancel_left]; exact e.trans (by norm_num)⟩

omit [Cfg] in
theorem pow_small {a : ℝ} (h0 : 0 ≤ a) (h1 : a ≤ 1.004) {k : Nat} (hk : k ≤ 10000) : a ^ k * 1.004 ≤ 2 ^ 124 := by
  have e1 : a ^ k ≤ 1.004 ^ k := pow_le_pow_left₀ h0 h1 k
  have e2 : (1.004 : ℝ) ^ k ≤ 1.004 ^ (200 * 50) := pow_le_pow_right₀ (by norm_num) (by omega)
  have e3 : (1.004 : ℝ) ^ 200 ≤ 3 := by norm_num
  have e4 : (1.004 : ℝ) ^ (200 * 50) ≤ 3 ^ 50 := by rw [pow_mul]; exact pow_le_pow_left₀ (by norm_num) e3 50
  have e5 : (3 : ℝ) ^ 50 * 1.004 ≤ 2 ^ 124 := by norm_num
  exact (mul_le_mul_of_nonneg_right (e1.trans (e2.trans e4)) (by norm_num)).trans e5

theorem chain_step {d : ℚ} (d0 : 0 ≤ d) (d1 : d ≤ 1 / 1000) {s : Vector3d F32 × F32} (h : TurnStep d s) {k : Nat} (hk : k < 10000) {q : Quaternion}
    {Q : _root_.Quaternion ℝ} (hq : ChainNear (1 + d) k q Q) : ChainNear (1 + d) (k + 1) (q.mul (Quaternion.axisAngle s.1 s.2)) (Q * turnStepQ s) := by
  obtain ⟨f, n, e⟩ := step_one d1 h
  obtain ⟨fq, lQ, eQ⟩ := hq
  have d0' : (0 : ℝ) ≤ d := by exact_mod_cast d0
  have d1' : (d : ℝ) ≤ 1 / 1000 := by
    have := (Rat.cast_le (K := ℝ)).2 d1
    push_cast at this; exact this
  obtain ⟨ρ, hρ⟩ : ∃ ρ : ℝ, ρ = 1 + d := ⟨_, rfl⟩
  rw [← hρ] at n lQ eQ ⊢
  obtain ⟨a, ha⟩ : ∃ a : ℝ, a = ρ + 0.002842 := ⟨_, rfl⟩
  rw [← ha] at eQ
  have ρ1 : 1 ≤ ρ := by linarith
  have ρk : 1 ≤ ρ ^ k := one_le_pow₀ ρ1
  have a4 : a ≤ 1.004 := by rw [ha, hρ]; norm_num at d1' ⊢; linarith
  have a1 : ρ ≤ a := by rw [ha]; linarith
  have lA : ‖qreal (Quaternion.axisAngle s.1 s.2)‖ ≤ ρ + 0.00284 := by
    have := norm_le_norm_add_norm_sub' (qreal (Quaternion.axisAngle s.1 s.2)) (turnStepQ s)
    linarith
  have lq : ‖qreal q‖ ≤ a ^ k := by
    have := norm_le_norm_add_norm_sub' (qreal q) Q
    linarith
  have ak : 0 ≤ a ^ k := (norm_nonneg _).trans lq
  have lA' : ‖qreal (Quaternion.axisAngle s.1 s.2)‖ ≤ 1.004 := by rw [ha] at a4; linarith
  have lqA : ‖qreal q‖ * ‖qreal (Quaternion.axisAngle s.1 s.2)‖ ≤ a ^ k * (ρ + 0.00284) := mul_le_mul lq lA (norm_nonneg _) ak
  obtain ⟨fm, em⟩ := C136_mul fq f ((mul_le_mul lq lA' (norm_nonneg _) ak).trans (pow_small (by linarith) a4 hk.le))
  refine ⟨fm, ?_, ?_⟩
  · rw [pow_succ]
    exact (norm_mul_le _ _).trans (mul_le_mul lQ n (norm_nonneg _) (by linarith))
  · rw [← ha]
    have e1 : ‖qreal q * qreal (Quaternion.axisAngle s.1 s.2) - Q * turnStepQ s‖ ≤ (a ^ k - ρ ^ k) * (ρ + 0.00284) + ρ ^ k * 0.00284 := by
      rw [show qreal q * qreal (Quaternion.axisAngle s.1 s.2) - Q * turnStepQ s
        = (qreal q - Q) * qreal (Quaternion.axisAngle s.1 s.2) + Q * (qreal (Quaternion.axisAngle s.1 s.2) - turnStepQ s) by noncomm_ring]
      refine (norm_add_le _ _).trans (add_le_add ?_ ?_)
      · exact (norm_mul_le _ _).trans (mul_le_mul eQ lA (norm_nonneg _) ((norm_nonneg _).trans eQ))
      · exact (norm_mul_le _ _).trans (mul_le_mul lQ e (norm_nonneg _) (by linarith))
    have tri := norm_sub_le_norm_sub_add_norm_sub (qreal (q.mul (Quaternion.axisAngle s.1 s.2))) (qreal q * qreal (Quaternion.axisAngle s.1 s.2)) (Q * turnStepQ s)
    refine tri.trans ?_
    have e2 : (6e-7 : ℝ) * (‖qreal q‖ * ‖qreal (Quaternion.axisAngle s.1 s.2)‖) ≤ 6e-7 * (a ^ k * 1.004) :=
      mul_le_mul_of_nonneg_left (mul_le_mul lq lA' (norm_nonneg _) ak) (by norm_num)
    rw [pow_succ, pow_succ]
    have e3 : a ^ k * a - ρ ^ k * ρ = (a ^ k - ρ ^ k) * (ρ + 0.00284) + ρ ^ k * 0.00284 + a ^ k * 0.000002 := by rw [ha]; ring
    rw [e3]
    have ak1 : 1 ≤ a ^ k := one_le_pow₀ (ρ1.trans a1)
    have e4 : (6e-7 : ℝ) * (a ^ k * 1.004) + 1 / 2 ^ 146 ≤ a ^ k * 0.000002 := by
      norm_num at ak1 ⊢; linarith
    linarith

/-- **C145, chains of rotations.** Multiplying up `N ≤ 10000` turns `axis_angle(n, t)`, starting from the identity, with axes of squared
length within `d ≤ 1/1000` of one and angles of at most `8192`, gives a finite quaternion within `(1.002842 + d)^N - (1 + d)^N` of the exact
product of the turns: the error grows linearly with the number of turns. -/
theorem C145_chain {d : ℚ} (d0 : 0 ≤ d) (d1 : d ≤ 1 / 1000) (L : List (Vector3d F32 × F32)) (hL : ∀ s ∈ L, TurnStep d s) (hN : L.length ≤ 10000) :
    QFinite (L.foldl (fun q s => q.mul (Quaternion.axisAngle s.1 s.2)) Quaternion.IDENTITY) ∧
      ‖qreal (L.foldl (fun q s => q.mul (Quaternion.axisAngle s.1 s.2)) Quaternion.IDENTITY) - (L.map turnStepQ).prod‖
        ≤ (1 + (d : ℝ) + 0.002842) ^ L.length - (1 + (d : ℝ)) ^ L.length := by
  have key : ChainNear (1 + d) L.length (L.foldl (fun q s => q.mul (Quaternion.axisAngle s.1 s.2)) Quaternion.IDENTITY) (L.map turnStepQ).prod := by
    induction L using List.reverseRecOn with
    | nil =>
      have e : qreal Quaternion.IDENTITY = 1 := by
        ext <;> simp [qreal, Quaternion.IDENTITY, val_one, val_posZero] <;> rfl
      refine ⟨⟨fin_one, fin_posZero, fin_posZero, fin_posZero⟩, by simp, ?_⟩
      rw [List.foldl_nil, List.map_nil, List.prod_nil, e]; simp
    | append_singleton l s ih =>
      rw [List.length_append, List.length_singleton] at hN
      rw [List.foldl_append, List.map_append, List.prod_append, List.length_append, List.map_singleton, List.prod_singleton, List.length_singleton]
      exact chain_step d0 d1 (hL s (by simp)) (by omega) (ih (fun x hx => hL x (by simp [hx])) (by omega))
  exact ⟨key.fin, key.err⟩

/-- Ten quarter turns about an axis: the product is within `0.0289` of the exact one. -/
example {t : F32} (ft : t.isFinite = true) (ht : |t.val| ≤ 8192) :
    ‖qreal ((List.replicate 10 ((⟨ZERO, ZERO, ONE⟩ : Vector3d F32), t)).foldl (fun q s => q.mul (Quaternion.axisAngle s.1 s.2)) Quaternion.IDENTITY)
      - (Geom.turnQ 0 0 1 t.val) ^ 10‖ ≤ 0.0289 := by
  have h := (C145_chain (d := 0) le_rfl (by norm_num) (List.replicate 10 ((⟨ZERO, ZERO, ONE⟩ : Vector3d F32), t)) (fun s hs => by
    obtain ⟨-, rfl⟩ := List.mem_replicate.1 hs
    exact ⟨fin_ZERO, fin_ZERO, fin_ONE, ft, by dsimp only; rw [val_ZERO, val_ONE]; norm_num, ht⟩) (by simp)).2
  rw [List.map_replicate, List.prod_replicate, List.length_replicate] at h
  have e : turnStepQ ((⟨ZERO, ZERO, ONE⟩ : Vector3d F32), t) = Geom.turnQ 0 0 1 t.val := by
    show Geom.turnQ (ZERO.val : ℝ) ZERO.val ONE.val t.val = _
    rw [val_ZERO, val_ONE]; norm_num
  rw [e] at h
  refine h.trans ?_
  norm_num

/-! ### Euler angles -/

/-- The orientation of roll `r`, pitch `p`, yaw `y`, built with the public operations. -/
def ofEuler (r p y : F32) : Quaternion :=
  ((Quaternion.axisAngle (⟨ZERO, ZERO, ONE⟩ : Vector3d F32) y).mul (Quaternion.axisAngle (⟨ZERO, ONE, ZERO⟩ : Vector3d F32) p)).mul
    (Quaternion.axisAngle (⟨ONE, ZERO, ZERO⟩ : Vector3d F32) r)

/-- **C145, building an orientation.** For angles of at most `8192`, the product is within `0.00856` of the exact quaternion. -/
theorem C145_build {r p y : F32} (fr : r.isFinite = true) (fp : p.isFinite = true) (fy : y.isFinite = true) (br : |r.val| ≤ 8192)
    (bp : |p.val| ≤ 8192) (by' : |y.val| ≤ 8192) :
    QFinite (ofEuler r p y) ∧ ‖qreal (ofEuler r p y) - Geom.eulerQ r.val p.val y.val‖ ≤ 0.00856 := by
  have v0 := val_ZERO
  have v1 := val_ONE
  have d1 : (0 : ℚ) ≤ 1 / 1000 := by norm_num
  have s3 : TurnStep 0 ((⟨ZERO, ZERO, ONE⟩ : Vector3d F32), y) := ⟨fin_ZERO, fin_ZERO, fin_ONE, fy, by dsimp only; rw [v0, v1]; norm_num, by'⟩
  have s2 : TurnStep 0 ((⟨ZERO, ONE, ZERO⟩ : Vector3d F32), p) := ⟨fin_ZERO, fin_ONE, fin_ZERO, fp, by dsimp only; rw [v0, v1]; norm_num, bp⟩
  have s1 : TurnStep 0 ((⟨ONE, ZERO, ZERO⟩ : Vector3d F32), r) := ⟨fin_ONE, fin_ZERO, fin_ZERO, fr, by dsimp only; rw [v0, v1]; norm_num, br⟩
  have h := chain_step le_rfl d1 s1 (by norm_num) (chain_step le_rfl d1 s2 (by norm_num) (chain_one d1 s3))
  refine ⟨h.fin, ?_⟩
  have e : turnStepQ ((⟨ZERO, ZERO, ONE⟩ : Vector3d F32), y) * turnStepQ ((⟨ZERO, ONE, ZERO⟩ : Vector3d F32), p) * turnStepQ ((⟨ONE, ZERO, ZERO⟩ : Vector3d F32), r)
      = Geom.eulerQ r.val p.val y.val := by
    show Geom.turnQ (ZERO.val : ℝ) ZERO.val ONE.val y.val * Geom.turnQ (ZERO.val : ℝ) ONE.val ZERO.val p.val * Geom.turnQ (ONE.val : ℝ) ZERO.val ZERO.val r.val = _
    rw [v0, v1, Geom.eulerQ]; norm_num
  have := h.err
  rw [e] at this
  refine this.trans ?_
  norm_num

/-- **C145, reading it back.** For a pitch of at most `1.18`, `to_euler` of it returns the roll and the yaw up to full turns and
`0.00284 + 0.1439 / cos p`, and the pitch up to `0.022 + 0.036 / cos p`. -/
theorem C145_read_back {r p y : F32} (fr : r.isFinite = true) (fp : p.isFinite = true) (fy : y.isFinite = true) (br : |r.val| ≤ 8192)
    (bp : |p.val| ≤ 1.18) (by' : |y.val| ≤ 8192) :
    ∃ R P Y, (ofEuler r p y).toEuler = .ok (R, P, Y) ∧
      (∃ k : ℤ, |(R.val : ℝ) - (r.val + 2 * Real.pi * k)| ≤ 0.00284 + 0.1439 / Real.cos p.val) ∧
      |(P.val : ℝ) - p.val| ≤ 0.022 + 0.036 / Real.cos p.val ∧
      (∃ k : ℤ, |(Y.val : ℝ) - (y.val + 2 * Real.pi * k)| ≤ 0.00284 + 0.1439 / Real.cos p.val) := by
  obtain ⟨f, e⟩ := C145_build fr fp fy br (bp.trans (by norm_num)) by'
  have hs' := abs_cast_le bp
  push_cast at hs'
  have hpi := Real.pi_gt_d6
  have hc : 0.38 ≤ Real.cos (p.val : ℝ) := by
    rw [← Real.cos_abs, ← Real.sin_pi_div_two_sub]
    have g := Real.sin_gt_sub_cube (x := 0.39) (by norm_num)
    have m := Real.sin_le_sin_of_le_of_le_pi_div_two (x := 0.39) (y := Real.pi / 2 - |(p.val : ℝ)|) (by linarith)
      (by have := abs_nonneg (p.val : ℝ); linarith) (by norm_num at *; linarith)
    norm_num at *
    linarith
  obtain ⟨κ, hκ⟩ : ∃ κ : ℝ, κ = 4.2 * 0.00856 + 1 / 2 ^ 20 := ⟨_, rfl⟩
  obtain ⟨R, P, Y, h, hR, hP, hY, -⟩ := C97_to_euler f e (hs'.trans (by norm_num at *; linarith)) hκ (by rw [hκ]; norm_num at hc ⊢; nlinarith)
  have c0 : 0 < Real.cos (p.val : ℝ) := by linarith
  have k1 : 4 * κ / Real.cos (p.val : ℝ) ≤ 0.1439 / Real.cos p.val := div_le_div_of_nonneg_right (by rw [hκ]; norm_num) c0.le
  have k2 : κ / Real.cos (p.val : ℝ) ≤ 0.036 / Real.cos p.val := div_le_div_of_nonneg_right (by rw [hκ]; norm_num) c0.le
  exact ⟨R, P, Y, h, hR.imp fun k hk => hk.trans (by linarith), hP.trans (by linarith), hY.imp fun k hk => hk.trans (by linarith)⟩

omit [Cfg] in
theorem turnQ_full (n1 n2 n3 t : ℝ) (k : ℤ) : ∃ σ : ℝ, (σ = 1 ∨ σ = -1) ∧ Geom.turnQ n1 n2 n3 (t + 2 * Real.pi * k) = σ • Geom.turnQ n1 n2 n3 t := by
  have e : (t + 2 * Real.pi * k) / 2 = t / 2 + k * Real.pi := by ring
  rcases Int.even_or_odd k with ⟨m, hm⟩ | ⟨m, hm⟩
  · refine ⟨1, Or.inl rfl, ?_⟩
    have e2 : (t + 2 * Real.pi * k) / 2 = t / 2 + m * (2 * Real.pi) := by rw [e, hm]; push_cast; ring
    rw [one_smul]
    ext <;> simp only [Geom.turnQ_re, Geom.turnQ_imI, Geom.turnQ_imJ, Geom.turnQ_imK] <;>
      rw [e2] <;> simp only [Real.cos_add_int_mul_two_pi, Real.sin_add_int_mul_two_pi]
  · refine ⟨-1, Or.inr rfl, ?_⟩
    have e2 : (t + 2 * Real.pi * k) / 2 = t / 2 + Real.pi + m * (2 * Real.pi) := by rw [e, hm]; push_cast; ring
    ext <;> simp only [Geom.turnQ_re, Geom.turnQ_imI, Geom.turnQ_imJ, Geom.turnQ_imK, _root_.Quaternion.re_smul, _root_.Quaternion.imI_smul,
      _root_.Quaternion.imJ_smul, _root_.Quaternion.imK_smul] <;>
      rw [e2] <;> simp only [Real.cos_add_int_mul_two_pi, Real.sin_add_int_mul_two_pi, Real.cos_add_pi, Real.sin_add_pi, smul_eq_mul] <;> ring

omit [Cfg] in
theorem turnQ_half_lip {n1 n2 n3 s t : ℝ} (hn : n1 ^ 2 + n2 ^ 2 + n3 ^ 2 = 1) : ‖Geom.turnQ n1 n2 n3 s - Geom.turnQ n1 n2 n3 t‖ ≤ |s - t| / 2 := by
  refine abs_le_of_sq_le_sq' ?_ (by positivity) |>.2
  rw [Geom.norm_sq_eq]
  simp only [_root_.Quaternion.re_sub, _root_.Quaternion.imI_sub, _root_.Quaternion.imJ_sub, _root_.Quaternion.imK_sub, Geom.turnQ_re, Geom.turnQ_imI,
    Geom.turnQ_imJ, Geom.turnQ_imK]
  have e : (Real.cos (s / 2) - Real.cos (t / 2)) ^ 2 + (Real.sin (s / 2) - Real.sin (t / 2)) ^ 2 = 2 - 2 * Real.cos (s / 2 - t / 2) := by
    rw [Real.cos_sub]; linear_combination Real.sin_sq_add_cos_sq (s / 2) + Real.sin_sq_add_cos_sq (t / 2)
  have b := Real.one_sub_sq_div_two_le_cos (x := s / 2 - t / 2)
  rw [div_pow, sq_abs]
  have e2 : (Real.cos (s / 2) - Real.cos (t / 2)) ^ 2 + (n1 * Real.sin (s / 2) - n1 * Real.sin (t / 2)) ^ 2 + (n2 * Real.sin (s / 2) - n2 * Real.sin (t / 2)) ^ 2
      + (n3 * Real.sin (s / 2) - n3 * Real.sin (t / 2)) ^ 2
      = (Real.cos (s / 2) - Real.cos (t / 2)) ^ 2 + (Real.sin (s / 2) - Real.sin (t / 2)) ^ 2 := by
    linear_combination (Real.sin (s / 2) - Real.sin (t / 2)) ^ 2 * hn
  rw [e2, e]
  nlinarith

omit [Cfg] in
theorem turnQ_unit {n1 n2 n3 t : ℝ} (hn : n1 ^ 2 + n2 ^ 2 + n3 ^ 2 = 1) : ‖Geom.turnQ n1 n2 n3 t‖ ≤ 1 := by
  have := Geom.turnQ_norm (t := t) (δ := 0) (by rw [hn, add_zero])
  simpa using this

omit [Cfg] in
/-- Orientations of nearby Euler angles are near. -/
theorem eulerQ_lip (r p y R P Y : ℝ) : ‖Geom.eulerQ R P Y - Geom.eulerQ r p y‖ ≤ (|R - r| + |P - p| + |Y - y|) / 2 := by
  have u1 : (1 : ℝ) ^ 2 + 0 ^ 2 + 0 ^ 2 = 1 := by norm_num
  have u2 : (0 : ℝ) ^ 2 + 1 ^ 2 + 0 ^ 2 = 1 := by norm_num
  have u3 : (0 : ℝ) ^ 2 + 0 ^ 2 + 1 ^ 2 = 1 := by norm_num
  have gen : ∀ A A' B B' : _root_.Quaternion ℝ, ∀ a b : ℝ, ‖A‖ ≤ 1 → ‖B'‖ ≤ 1 → ‖A - A'‖ ≤ a → ‖B - B'‖ ≤ b → ‖A * B - A' * B'‖ ≤ a + b := by
    intro A A' B B' a b hA hB ha hb
    rw [show A * B - A' * B' = A * (B - B') + (A - A') * B' by noncomm_ring]
    refine (norm_add_le _ _).trans ?_
    have e1 := (norm_mul_le A (B - B')).trans (mul_le_mul hA hb (norm_nonneg _) zero_le_one)
    have e2 := (norm_mul_le (A - A') B').trans (mul_le_mul ha hB (norm_nonneg _) ((norm_nonneg _).trans ha))
    linarith
  unfold Geom.eulerQ
  have n12 : ‖Geom.turnQ 0 0 1 Y * Geom.turnQ 0 1 0 P‖ ≤ 1 :=
    (norm_mul_le _ _).trans (mul_le_one₀ (turnQ_unit u3) (norm_nonneg _) (turnQ_unit u2))
  have := gen _ _ _ _ _ _ n12 (turnQ_unit (t := r) u1) (gen _ _ _ _ _ _ (turnQ_unit (t := Y) u3) (turnQ_unit (t := p) u2)
    (turnQ_half_lip (s := Y) (t := y) u3) (turnQ_half_lip (s := P) (t := p) u2)) (turnQ_half_lip (s := R) (t := r) u1)
  linarith

/-- **C145, reading and rebuilding.** Under the conditions of C97, building the quaternion again from the three angles returned by `to_euler`
gives `q` or `-q`, the same orientation, within `0.0225 + 4.5 κ / cos p + ε`. -/
theorem C145_rebuild {q : Quaternion} (fq : QFinite q) {r p y ε κ : ℝ} (hq : ‖qreal q - Geom.eulerQ r p y‖ ≤ ε)
    (hp : |p| ≤ Real.pi / 2) (hκ : κ = 4.2 * ε + 1 / 2 ^ 20) (hc : 4 * κ ≤ Real.cos p ^ 2) :
    ∃ R P Y, q.toEuler = .ok (R, P, Y) ∧ QFinite (ofEuler R P Y) ∧ ∃ σ : ℝ, (σ = 1 ∨ σ = -1) ∧
      ‖qreal (ofEuler R P Y) - σ • qreal q‖ ≤ 0.0225 + 4.5 * κ / Real.cos p + ε := by
  obtain ⟨R, P, Y, h, ⟨k, hR⟩, hP, ⟨m, hY⟩, ⟨f1, b1⟩, ⟨f2, b2⟩, f3, b3⟩ := C97_to_euler fq hq hp hκ hc
  have c1 : PI.val ≤ 8192 := by rw [val_PI]; norm_num
  have c2 : FRAC_PI_2.val ≤ 8192 := by rw [val_FRAC_PI_2]; norm_num
  obtain ⟨fb, eb⟩ := C145_build f1 f2 f3 (b1.trans c1) (b2.trans c2) (b3.trans c1)
  obtain ⟨σ, hσ, e1⟩ := turnQ_full 1 0 0 r k
  obtain ⟨τ, hτ, e2⟩ := turnQ_full 0 0 1 y m
  have e3 : Geom.eulerQ (r + 2 * Real.pi * k) p (y + 2 * Real.pi * m) = (σ * τ) • Geom.eulerQ r p y := by
    unfold Geom.eulerQ
    rw [e1, e2, smul_mul_assoc, smul_mul_assoc, mul_smul_comm, smul_smul, mul_comm τ σ]
  have lip := eulerQ_lip (r + 2 * Real.pi * k) p (y + 2 * Real.pi * m) R.val P.val Y.val
  rw [e3] at lip
  have hστ : σ * τ = 1 ∨ σ * τ = -1 := by
    rcases hσ with rfl | rfl <;> rcases hτ with rfl | rfl <;> norm_num
  refine ⟨R, P, Y, h, fb, σ * τ, hστ, ?_⟩
  have hs : ‖(σ * τ) • Geom.eulerQ r p y - (σ * τ) • qreal q‖ ≤ ε := by
    rw [← smul_sub, norm_smul, norm_sub_rev]
    have : ‖σ * τ‖ = 1 := by rcases hστ with h | h <;> rw [h] <;> norm_num
    rw [this, one_mul]; exact hq
  have t1 := norm_sub_le_norm_sub_add_norm_sub (qreal (ofEuler R P Y)) (Geom.eulerQ R.val P.val Y.val) ((σ * τ) • qreal q)
  have t2 := norm_sub_le_norm_sub_add_norm_sub (Geom.eulerQ R.val P.val Y.val) ((σ * τ) • Geom.eulerQ r p y) ((σ * τ) • qreal q)
  have e4 : 4.5 * κ / Real.cos p = (4 * κ / Real.cos p + κ / Real.cos p + 4 * κ / Real.cos p) / 2 := by ring
  rw [e4]
  norm_num at t1 t2 lip hR hP hY eb hs ⊢
  linarith

omit [Cfg] in
/-- A point at distance `C` from the origin in polar coordinates. -/
theorem polar_exists {X Z C : ℝ} (hC : 0 ≤ C) (h : X ^ 2 + Z ^ 2 = C ^ 2) : ∃ t, X = C * Real.cos t ∧ Z = C * Real.sin t := by
  have e : ‖(⟨X, Z⟩ : ℂ)‖ = C := by
    rw [← Real.sqrt_sq hC, ← h, Complex.norm_def, Complex.normSq_mk, sq, sq]
  refine ⟨Complex.arg ⟨X, Z⟩, ?_, ?_⟩
  · rw [← e, Complex.norm_mul_cos_arg]
  · rw [← e, Complex.norm_mul_sin_arg]

omit [Cfg] in
/-- **C145, specification**: every unit quaternion is exactly that of some roll, pitch and yaw, with a pitch of at most a right angle. -/
theorem C145_angles_exist {Q : _root_.Quaternion ℝ} (hQ : ‖Q‖ = 1) :
    ∃ r p y, |p| ≤ Real.pi / 2 ∧ Real.sin p = 2 * (Q.re * Q.imJ - Q.imI * Q.imK) ∧ Q = Geom.eulerQ r p y := by
  obtain ⟨a, ha⟩ : ∃ a, a = Q.re := ⟨_, rfl⟩
  obtain ⟨b, hb⟩ : ∃ a, a = Q.imI := ⟨_, rfl⟩
  obtain ⟨c, hc⟩ : ∃ a, a = Q.imJ := ⟨_, rfl⟩
  obtain ⟨d, hd⟩ : ∃ a, a = Q.imK := ⟨_, rfl⟩
  have hN : a ^ 2 + b ^ 2 + c ^ 2 + d ^ 2 = 1 := by
    rw [ha, hb, hc, hd, ← Geom.norm_sq_eq, hQ]; norm_num
  rw [← ha, ← hb, ← hc, ← hd]
  obtain ⟨s, hs⟩ : ∃ s, s = 2 * (a * c - b * d) := ⟨_, rfl⟩
  have key : (1 - 2 * (c ^ 2 + d ^ 2)) ^ 2 + (2 * (a * d + b * c)) ^ 2 = 1 - s ^ 2 := by
    rw [hs]; linear_combination (4 * (c ^ 2 + d ^ 2)) * hN
  have s2 : s ^ 2 ≤ 1 := by nlinarith [sq_nonneg (1 - 2 * (c ^ 2 + d ^ 2)), sq_nonneg (2 * (a * d + b * c))]
  obtain ⟨s3, s4⟩ := abs_le.1 ((sq_le_one_iff_abs_le_one s).1 s2)
  obtain ⟨p, hp⟩ : ∃ p, p = Real.arcsin s := ⟨_, rfl⟩
  have sp : Real.sin p = s := by rw [hp, Real.sin_arcsin s3 s4]
  have hpa : |p| ≤ Real.pi / 2 := by rw [hp]; exact abs_le.2 ⟨Real.neg_pi_div_two_le_arcsin s, Real.arcsin_le_pi_div_two s⟩
  obtain ⟨p1, p2⟩ := abs_le.1 hpa
  have C0 : 0 ≤ Real.cos p := Real.cos_nonneg_of_mem_Icc ⟨p1, p2⟩
  have C2 : Real.cos p ^ 2 = 1 - s ^ 2 := by rw [← sp]; linarith [Real.sin_sq_add_cos_sq p]
  obtain ⟨y, y1, y2⟩ := polar_exists C0 (key.trans C2.symm)
  -- half angles
  have hpi := Real.pi_pos
  obtain ⟨cp, hcp⟩ : ∃ x, x = Real.cos (p / 2) := ⟨_, rfl⟩
  obtain ⟨sq', hsp⟩ : ∃ x, x = Real.sin (p / 2) := ⟨_, rfl⟩
  obtain ⟨cy, hcy⟩ : ∃ x, x = Real.cos (y / 2) := ⟨_, rfl⟩
  obtain ⟨sy, hsy⟩ : ∃ x, x = Real.sin (y / 2) := ⟨_, rfl⟩
  have cp0 : 0 < cp := by rw [hcp]; exact Real.cos_pos_of_mem_Ioo ⟨by linarith, by linarith⟩
  have ip : sq' ^ 2 + cp ^ 2 = 1 := by rw [hcp, hsp]; exact Real.sin_sq_add_cos_sq _
  have iy : sy ^ 2 + cy ^ 2 = 1 := by rw [hcy, hsy]; exact Real.sin_sq_add_cos_sq _
  have e1 : Real.cos p = cp ^ 2 - sq' ^ 2 := by
    rw [show p = 2 * (p / 2) by ring, Real.cos_two_mul, ← hcp]; linarith
  have e2 : s = 2 * sq' * cp := by
    rw [← sp, show p = 2 * (p / 2) by ring, Real.sin_two_mul, ← hcp, ← hsp]
  have e3 : Real.cos y = cy ^ 2 - sy ^ 2 := by
    rw [show y = 2 * (y / 2) by ring, Real.cos_two_mul, ← hcy]; linarith
  have e4 : Real.sin y = 2 * sy * cy := by
    rw [show y = 2 * (y / 2) by ring, Real.sin_two_mul, ← hcy, ← hsy]
  -- undo the yaw
  obtain ⟨a', ha'⟩ : ∃ x, x = cy * a + sy * d := ⟨_, rfl⟩
  obtain ⟨b', hb'⟩ : ∃ x, x = cy * b + sy * c := ⟨_, rfl⟩
  obtain ⟨c', hc'⟩ : ∃ x, x = cy * c - sy * b := ⟨_, rfl⟩
  obtain ⟨d', hd'⟩ : ∃ x, x = cy * d - sy * a := ⟨_, rfl⟩
  have q1 : a' ^ 2 + b' ^ 2 + c' ^ 2 + d' ^ 2 = 1 := by
    rw [ha', hb', hc', hd']; linear_combination (sy ^ 2 + cy ^ 2) * hN + iy
  have X0 : a ^ 2 + b ^ 2 - c ^ 2 - d ^ 2 = Real.cos p * Real.cos y := by rw [← y1]; linear_combination hN
  have q2 : a' * d' + b' * c' = 0 := by
    have : 2 * (a' * d' + b' * c') = 2 * (a * d + b * c) * (cy ^ 2 - sy ^ 2) - (a ^ 2 + b ^ 2 - c ^ 2 - d ^ 2) * (2 * sy * cy) := by
      rw [ha', hb', hc', hd']; ring
    rw [y2, X0, ← e3, ← e4] at this
    linarith
  have q3 : 2 * (a' * c' - b' * d') = s := by
    rw [ha', hb', hc', hd', hs]; linear_combination 2 * (a * c - b * d) * iy
  have q4 : a' ^ 2 + b' ^ 2 - c' ^ 2 - d' ^ 2 = Real.cos p := by
    have : a' ^ 2 + b' ^ 2 - c' ^ 2 - d' ^ 2 = (a ^ 2 + b ^ 2 - c ^ 2 - d ^ 2) * (cy ^ 2 - sy ^ 2) + 2 * (a * d + b * c) * (2 * sy * cy) := by
      rw [ha', hb', hc', hd']; ring
    rw [this, y2, X0, ← e3, ← e4]
    linear_combination Real.cos p * Real.sin_sq_add_cos_sq y
  have q5 : a' ^ 2 + b' ^ 2 = cp ^ 2 := by
    rw [e1] at q4; linarith
  obtain ⟨t, t1, t2⟩ := polar_exists cp0.le q5
  have q6 : c' * cp ^ 2 = a' * (sq' * cp) := by
    rw [← q5]; rw [e2] at q3; linear_combination a' / 2 * q3 + b' * q2
  have q7 : d' * cp ^ 2 = -(b' * (sq' * cp)) := by
    rw [← q5]; rw [e2] at q3; linear_combination a' * q2 - b' / 2 * q3
  have q8 : c' = sq' * Real.cos t := by
    have : c' * cp ^ 2 = sq' * Real.cos t * cp ^ 2 := by rw [q6, t1]; ring
    exact mul_right_cancel₀ (by positivity) this
  have q9 : d' = -(sq' * Real.sin t) := by
    have : d' * cp ^ 2 = -(sq' * Real.sin t) * cp ^ 2 := by rw [q7, t2]; ring
    exact mul_right_cancel₀ (by positivity) this
  refine ⟨2 * t, p, y, hpa, sp.trans hs, ?_⟩
  have ht : 2 * t / 2 = t := by ring
  unfold Geom.eulerQ
  ext <;> simp only [_root_.Quaternion.re_mul, _root_.Quaternion.imI_mul, _root_.Quaternion.imJ_mul, _root_.Quaternion.imK_mul, Geom.turnQ_re, Geom.turnQ_imI,
    Geom.turnQ_imJ, Geom.turnQ_imK, ht, ← hcp, ← hsp, ← hcy, ← hsy, ← ha, ← hb, ← hc, ← hd]
  · linear_combination (-a) * iy + (-cy) * ha' + sy * hd' + cy * t1 - sy * q9
  · linear_combination (-b) * iy + (-cy) * hb' + sy * hc' + cy * t2 - sy * q8
  · linear_combination (-c) * iy + (-cy) * hc' - sy * hb' + cy * q8 + sy * t2
  · linear_combination (-d) * iy + (-cy) * hd' - sy * ha' + cy * q9 + sy * t1

/-- **C145, for every quaternion of nearly unit length.** Let the exact squared length of `q` be within `ε` of one and
`s = 2 (a c - b d) / |q|²` be the sine of its pitch.  If `4 κ + s² ≤ 1`, `κ = 4.2 ε + 2^-20`, then `to_euler` returns, and building the quaternion
again from the three angles gives `q` or `-q` within `0.0225 + 4.5 κ / √(1 - s²) + ε`. -/
theorem C145_rebuild_any {q : Quaternion} (fq : QFinite q) {s ε κ : ℝ} (hl : |(qlen q : ℝ) - 1| ≤ ε)
    (hs : s = 2 * (q.a.val * q.c.val - q.b.val * q.d.val) / qlen q) (hκ : κ = 4.2 * ε + 1 / 2 ^ 20) (hc : 4 * κ + s ^ 2 ≤ 1) :
    ∃ R P Y, q.toEuler = .ok (R, P, Y) ∧ QFinite (ofEuler R P Y) ∧ ∃ σ : ℝ, (σ = 1 ∨ σ = -1) ∧
      ‖qreal (ofEuler R P Y) - σ • qreal q‖ ≤ 0.0225 + 4.5 * κ / Real.sqrt (1 - s ^ 2) + ε := by
  obtain ⟨N, hN⟩ : ∃ N, N = ‖qreal q‖ := ⟨_, rfl⟩
  have N0 : 0 ≤ N := hN ▸ norm_nonneg _
  have N2 : N ^ 2 = qlen q := by rw [hN, qreal_norm]
  have ε0 : 0 ≤ ε := (abs_nonneg _).trans hl
  have ε1 : ε ≤ 0.06 := by
    rw [hκ] at hc
    norm_num at hc ⊢
    nlinarith [sq_nonneg s]
  rw [← N2] at hl hs
  obtain ⟨l1, l2⟩ := abs_le.1 hl
  have Np : 0 < N := by
    rcases N0.lt_or_eq with h | h
    · exact h
    · rw [← h] at l1; norm_num at l1 ε1; linarith
  have hN1 : |N - 1| ≤ ε := by rw [abs_le]; constructor <;> nlinarith
  have u : ‖N⁻¹ • qreal q‖ = 1 := by
    rw [norm_smul, ← hN, norm_inv, Real.norm_of_nonneg N0, inv_mul_cancel₀ Np.ne']
  obtain ⟨r, p, y, hp, sp, e⟩ := C145_angles_exist u
  have hsp : Real.sin p = s := by
    rw [sp, hs]
    obtain ⟨p0, p1, p2, p3⟩ := qreal_proj q
    simp only [_root_.Quaternion.re_smul, _root_.Quaternion.imI_smul, _root_.Quaternion.imJ_smul, _root_.Quaternion.imK_smul, p0, p1, p2, p3, smul_eq_mul]
    field_simp
  have hd : ‖qreal q - Geom.eulerQ r p y‖ ≤ ε := by
    rw [← e, show qreal q - N⁻¹ • qreal q = (1 - N⁻¹) • qreal q by rw [sub_smul, one_smul], norm_smul, ← hN]
    have : ‖1 - N⁻¹‖ * N = |N - 1| := by
      rw [Real.norm_eq_abs, ← abs_of_pos Np, ← abs_mul, abs_of_pos Np]; congr 1; field_simp
    rw [this]; exact hN1
  have cc : Real.cos p ^ 2 = 1 - s ^ 2 := by rw [← hsp]; linarith [Real.sin_sq_add_cos_sq p]
  have c0 : 0 ≤ Real.cos p := Real.cos_nonneg_of_mem_Icc ⟨(abs_le.1 hp).1, (abs_le.1 hp).2⟩
  rw [← cc, Real.sqrt_sq c0]
  exact C145_rebuild fq hd hp hκ (by rw [cc]; linarith)

/-- The quaternion `(1, 1, 1, 1) / 2`: one third of a turn about the diagonal. -/
example : ∃ q : Quaternion, QFinite q ∧ |(qlen q : ℝ) - 1| ≤ 0 ∧ (q.a.val * q.c.val - q.b.val * q.d.val) = 0 ∧ q.b.val ≠ 0 ∧
    ∃ R P Y, q.toEuler = .ok (R, P, Y) ∧ ∃ σ : ℝ, (σ = 1 ∨ σ = -1) ∧ ‖qreal (ofEuler R P Y) - σ • qreal q‖ ≤ 0.023 := by
  have v : (⟨0x3f000000#32⟩ : F32).val = 1 / 2 := by rw [val_of_units (u := 2 ^ 148) (by decide +kernel)]; norm_num
  have f : QFinite ⟨⟨0x3f000000#32⟩, ⟨0x3f000000#32⟩, ⟨0x3f000000#32⟩, ⟨0x3f000000#32⟩⟩ := ⟨by decide, by decide, by decide, by decide⟩
  have l : qlen ⟨⟨0x3f000000#32⟩, ⟨0x3f000000#32⟩, ⟨0x3f000000#32⟩, ⟨0x3f000000#32⟩⟩ = 1 := by unfold qlen; dsimp only; rw [v]; norm_num
  refine ⟨⟨⟨0x3f000000#32⟩, ⟨0x3f000000#32⟩, ⟨0x3f000000#32⟩, ⟨0x3f000000#32⟩⟩, f, by rw [l]; norm_num, by dsimp only; rw [v]; norm_num,
    by dsimp only; rw [v]; norm_num, ?_⟩
  obtain ⟨R, P, Y, h, -, σ, hσ, e⟩ := C145_rebuild_any f (s := 0) (ε := 0) (by rw [l]; norm_num) (by rw [l]; dsimp only; rw [v]; norm_num) rfl (by norm_num)
  refine ⟨R, P, Y, h, σ, hσ, e.trans ?_⟩
  norm_num

/-- The hypotheses of `C145_read_back`: one radian each. -/
example : ∃ R P Y, (ofEuler ONE ONE ONE).toEuler = .ok (R, P, Y) ∧ |(P.val : ℝ) - 1| ≤ 0.022 + 0.036 / Real.cos 1 := by
  obtain ⟨R, P, Y, h, -, h2, -⟩ := C145_read_back (r := ONE) (p := ONE) (y := ONE) fin_ONE fin_ONE fin_ONE (by rw [val_ONE]; norm_num) (by rw [val_ONE]; norm_num)
    (by rw [val_ONE]; norm_num)
  rw [val_ONE] at h2
  exact ⟨R, P, Y, h, by exact_mod_cast h2⟩

end Micromath.Props
