import Verif.Props.NormOrder
import Verif.Props.VecNorm
import Verif.Props.Stats
import Verif.Props.Agree

/-!
# Lengths of all finite vectors, also very short and very long ones (C148)

`sqrt` of a number below the normal range is not small enough, and `sqrt` of an overflowed sum of squares is `2^64`.
The bounds below have no lower limit on the length.
-/

set_option exponentiation.threshold 1000

namespace Micromath.Props
open F32 Spec Statistics

variable [Cfg]

/-- `sqrt` of zero and of the subnormal numbers, exactly. -/
theorem C148_sqrt_subnormal (x : F32) (hs : x.isSignNegative = false) (hm : x.mag < 2 ^ 23) :
    x.sqrt.isFinite = true ∧ x.val = x.mag / 2 ^ 149 ∧ x.sqrt.val = (3 * 2 ^ 22 + (x.mag / 2 : Nat)) / 2 ^ 87 := by
  rw [isSignNegative] at hs
  have hf : x.isFinite = true := by rw [isFinite, decide_eq_true_eq]; unfold infMag; omega
  have g := sqrt_toNat ((ge_zero_iff x).2 ⟨not_nan_of_finite hf, Or.inl hs⟩)
  rw [toNat_eq x, hs] at g
  simp at g
  obtain ⟨h1, h2⟩ := val_of_bits (y := x.sqrt) (E := 63) (F := 2 ^ 22 + x.mag / 2) (by omega) (by omega) (by omega)
    (by rw [g]; omega)
  refine ⟨h1.1, ?_, ?_⟩
  · rw [val_of_pos hs, mval, magU, if_pos (by omega)]
  · rw [h2]; push_cast; norm_num; ring

/-- **C148, `sqrt` on all finite numbers.** Without a lower limit on `x`: `(1 - 2^-22) x ≤ sqrt(x)^2 ≤ 9/8 x + 9 * 2^-130`. -/
theorem C148_sqrt (x : F32) (hf : x.isFinite = true) (hs : x.isSignNegative = false) :
    x.sqrt.isFinite = true ∧ 3 / 2 ^ 65 ≤ x.sqrt.val ∧ (1 - 1 / 2 ^ 22) * x.val ≤ x.sqrt.val ^ 2 ∧
      x.sqrt.val ^ 2 ≤ 9 / 8 * x.val + 9 / 2 ^ 130 := by
  by_cases hm : x.mag < 2 ^ 23
  · obtain ⟨f, v, r⟩ := C148_sqrt_subnormal x hs hm
    refine ⟨f, ?_⟩
    obtain ⟨g, ρ, hg, hρ⟩ : ∃ g ρ, x.mag = 2 * g + ρ ∧ ρ ≤ 1 := ⟨x.mag / 2, x.mag % 2, by omega, by omega⟩
    rw [show x.mag / 2 = g by omega] at r
    rw [hg] at v
    push_cast at v
    have g0 : (0 : ℚ) ≤ g := by positivity
    have r0 : (0 : ℚ) ≤ ρ := by positivity
    have r1 : (ρ : ℚ) ≤ 1 := by exact_mod_cast hρ
    have g1 : (g : ℚ) + 1 ≤ 2 ^ 22 := by
      have : g + 1 ≤ 2 ^ 22 := by omega
      exact_mod_cast this
    rw [v, r]
    generalize (g : ℚ) = g at *
    generalize (ρ : ℚ) = ρ at *
    norm_num at g1 ⊢
    refine ⟨by linarith, ?_, ?_⟩
    · rw [div_pow]
      obtain ⟨k, hk⟩ : ∃ k, g = 4194304 - k := ⟨4194304 - g, by ring⟩
      have k1 : 1 ≤ k := by linarith
      rw [hk]
      norm_num
      nlinarith
    · rw [div_pow]
      norm_num
      nlinarith
  · have hp : PosNormal x := posNormal_iff.2 ⟨by rwa [isSignNegative] at hs, by omega, by
      have : x.mag < infMag := by simpa [isFinite] using hf
      unfold infMag at this; omega⟩
    obtain ⟨a, b, c⟩ := sqrt_bounds hp
    refine ⟨a.1, ?_, b, c.trans (by norm_num)⟩
    have h1 := hp.2
    by_contra hc
    push Not at hc
    have h2 := a.2
    have : x.sqrt.val ^ 2 ≤ (3 / 2 ^ 65) ^ 2 := pow_le_pow_left₀ (le_trans (by positivity) a.2) hc.le 2
    norm_num at this b h1
    linarith

/-- Square roots of computed sums of squares. -/
theorem SumSq.sqrt_all {S : F32} {Q : ℚ} (h : SumSq S Q) (hs : S.isSignNegative = false) (h0 : 0 ≤ Q) :
    S.sqrt.isFinite = true ∧ 3 / 2 ^ 65 ≤ S.sqrt.val ∧ (1 - 1 / 2 ^ 19) * Q ≤ S.sqrt.val ^ 2 ∧
      S.sqrt.val ^ 2 ≤ 9 / 8 * (1 + 1 / 2 ^ 20) * Q + 10 / 2 ^ 130 := by
  obtain ⟨f, e⟩ := h
  obtain ⟨a, b, c, d⟩ := C148_sqrt S f hs
  obtain ⟨e1, e2⟩ := abs_le.1 e
  refine ⟨a, b, ?_, ?_⟩
  · have h9 := pow_le_pow_left₀ (by norm_num) b 2
    rcases le_total Q (1 / 2 ^ 127) with hq | hq
    · norm_num at h9 hq ⊢; linarith
    · norm_num at c e1 hq ⊢; linarith
  · norm_num at d e2 ⊢; linarith

theorem sum_sign {l : List F32} (hl : ∀ x ∈ l, x.isNaN = false) (hne : l ≠ []) :
    (F32.sum (l.map fun x => x * x)).isSignNegative = false := by
  have hz : Cfg.sumZero.isNaN = false ∧ Cfg.sumZero.mag = 0 := by
    rcases Cfg.sumZero_spec with h | h <;> rw [h] <;> exact ⟨by decide, by decide⟩
  obtain ⟨h1, h2, h3, h4⟩ := sumSq_fold l hl Cfg.sumZero hz.1 (.inr hz.2) (by rw [hz.2]; exact Nat.zero_le _)
  exact h2.resolve_right hne

omit [Cfg] in
/-- The same bounds against the real square root. -/
theorem near_root {M Q : ℚ} (hM : 0 ≤ M) (h0 : 0 ≤ Q) (h1 : (1 - 1 / 2 ^ 18) * Q ≤ M ^ 2) (h2 : M ^ 2 ≤ 9 / 8 * (1 + 1 / 2 ^ 18) * Q + 10 / 2 ^ 130) :
    |(M : ℝ) - Real.sqrt Q| ≤ 0.061 * Real.sqrt Q + 1 / 2 ^ 63 := by
  have hQ : (0 : ℝ) ≤ Q := by exact_mod_cast h0
  have hs := Real.sq_sqrt hQ
  have h3 := Real.sqrt_nonneg (Q : ℝ)
  have hM' : (0 : ℝ) ≤ M := by exact_mod_cast hM
  have h1' := (Rat.cast_le (K := ℝ)).2 h1
  have h2' := (Rat.cast_le (K := ℝ)).2 h2
  push_cast at h1' h2'
  rw [← hs] at h1' h2'
  generalize Real.sqrt (Q : ℝ) = s at *
  generalize (M : ℝ) = m at *
  rw [abs_le]
  constructor
  · have : (0.99999 * s) ^ 2 ≤ m ^ 2 := by norm_num at h1' ⊢; nlinarith
    have := (sq_le_sq₀ (by positivity) hM').1 this
    norm_num at this ⊢
    linarith
  · have : m ^ 2 ≤ (1.061 * s + 1 / 2 ^ 63) ^ 2 := by norm_num at h2' ⊢; nlinarith
    have := (sq_le_sq₀ hM' (by positivity)).1 this
    norm_num at this ⊢
    linarith

section
variable {C : Type} [Component C] [IntoF32 C]

/-- **C148, `magnitude` in the plane** for every finite vector of squared length up to `2^124`. -/
theorem C148_magnitude2 (v : Vector2d C) (fx : (IntoF32.into v.x : F32).isFinite = true) (fy : (IntoF32.into v.y : F32).isFinite = true)
    (h2 : len2 v ≤ 2 ^ 124) :
    (VectorTrait.magnitude v).isFinite = true ∧ 3 / 2 ^ 65 ≤ (VectorTrait.magnitude v).val ∧
      (1 - 1 / 2 ^ 19) * len2 v ≤ (VectorTrait.magnitude v).val ^ 2 ∧
      (VectorTrait.magnitude v).val ^ 2 ≤ 9 / 8 * (1 + 1 / 2 ^ 20) * len2 v + 10 / 2 ^ 130 :=
  (sumSq2 fx fy h2).sqrt_all (sum_sign (l := floats2 v) (by simp [floats2, not_nan_of_finite fx, not_nan_of_finite fy]) (by simp [floats2]))
    (by positivity)

/-- **C148, `magnitude` in space.** -/
theorem C148_magnitude3 (v : Vector3d C) (fx : (IntoF32.into v.x : F32).isFinite = true) (fy : (IntoF32.into v.y : F32).isFinite = true)
    (fz : (IntoF32.into v.z : F32).isFinite = true) (h2 : len3 v ≤ 2 ^ 124) :
    (VectorTrait.magnitude v).isFinite = true ∧ 3 / 2 ^ 65 ≤ (VectorTrait.magnitude v).val ∧
      (1 - 1 / 2 ^ 19) * len3 v ≤ (VectorTrait.magnitude v).val ^ 2 ∧
      (VectorTrait.magnitude v).val ^ 2 ≤ 9 / 8 * (1 + 1 / 2 ^ 20) * len3 v + 10 / 2 ^ 130 :=
  (sumSq3 fx fy fz h2).sqrt_all (sum_sign (l := floats3 v)
    (by simp [floats3, not_nan_of_finite fx, not_nan_of_finite fy, not_nan_of_finite fz]) (by simp [floats3]))
    (by positivity)

/-- **C148, `distance` in the plane** for all finite vectors at squared distance up to `2^123`, near or equal ones included. -/
theorem C148_distance2 (v w : Vector2d C) (fx : (IntoF32.into v.x : F32).isFinite = true) (fy : (IntoF32.into v.y : F32).isFinite = true)
    (gx : (IntoF32.into w.x : F32).isFinite = true) (gy : (IntoF32.into w.y : F32).isFinite = true) (h2 : dist2 v w ≤ 2 ^ 123) :
    |((VectorTrait.distance v w).val : ℝ) - Real.sqrt (dist2 v w : ℚ)| ≤ 0.061 * Real.sqrt (dist2 v w : ℚ) + 1 / 2 ^ 63 := by
  have nx := sq_nonneg ((IntoF32.into v.x : F32).val - (IntoF32.into w.x : F32).val)
  have ny := sq_nonneg ((IntoF32.into v.y : F32).val - (IntoF32.into w.y : F32).val)
  have hd : dist2 v w = ((IntoF32.into v.x : F32).val - (IntoF32.into w.x : F32).val) ^ 2 +
    ((IntoF32.into v.y : F32).val - (IntoF32.into w.y : F32).val) ^ 2 := rfl
  rw [distance2_eq]
  rw [hd] at h2 ⊢
  obtain ⟨f1, l1, u1⟩ := sq_sub_rel fx gx (by linarith)
  obtain ⟨f2, l2, u2⟩ := sq_sub_rel fy gy (by linarith)
  generalize (IntoF32.into v.x : F32) - IntoF32.into w.x = p at *
  generalize (IntoF32.into v.y : F32) - IntoF32.into w.y = q at *
  obtain ⟨a, b, c, d⟩ := (sumSq2 f1 f2 (by norm_num at *; linarith)).sqrt_all
    (sum_sign (l := [p, q]) (by simp [not_nan_of_finite f1, not_nan_of_finite f2]) (by simp)) (by positivity)
  refine near_root (le_trans (by norm_num) b) (by positivity) ?_ ?_
  · norm_num at l1 l2 c ⊢; linarith
  · norm_num at u1 u2 d ⊢; linarith

/-- **C148, `distance` in space.** -/
theorem C148_distance3 (v w : Vector3d C) (fx : (IntoF32.into v.x : F32).isFinite = true) (fy : (IntoF32.into v.y : F32).isFinite = true)
    (fz : (IntoF32.into v.z : F32).isFinite = true) (gx : (IntoF32.into w.x : F32).isFinite = true)
    (gy : (IntoF32.into w.y : F32).isFinite = true) (gz : (IntoF32.into w.z : F32).isFinite = true) (h2 : dist3 v w ≤ 2 ^ 123) :
    |((VectorTrait.distance v w).val : ℝ) - Real.sqrt (dist3 v w : ℚ)| ≤ 0.061 * Real.sqrt (dist3 v w : ℚ) + 1 / 2 ^ 63 := by
  have nx := sq_nonneg ((IntoF32.into v.x : F32).val - (IntoF32.into w.x : F32).val)
  have ny := sq_nonneg ((IntoF32.into v.y : F32).val - (IntoF32.into w.y : F32).val)
  have nz := sq_nonneg ((IntoF32.into v.z : F32).val - (IntoF32.into w.z : F32).val)
  have hd : dist3 v w = ((IntoF32.into v.x : F32).val - (IntoF32.into w.x : F32).val) ^ 2 +
    ((IntoF32.into v.y : F32).val - (IntoF32.into w.y : F32).val) ^ 2 + ((IntoF32.into v.z : F32).val - (IntoF32.into w.z : F32).val) ^ 2 := rfl
  rw [distance3_eq]
  rw [hd] at h2 ⊢
  obtain ⟨f1, l1, u1⟩ := sq_sub_rel fx gx (by linarith)
  obtain ⟨f2, l2, u2⟩ := sq_sub_rel fy gy (by linarith)
  obtain ⟨f3, l3, u3⟩ := sq_sub_rel fz gz (by linarith)
  generalize (IntoF32.into v.x : F32) - IntoF32.into w.x = p at *
  generalize (IntoF32.into v.y : F32) - IntoF32.into w.y = q at *
  generalize (IntoF32.into v.z : F32) - IntoF32.into w.z = r at *
  obtain ⟨a, b, c, d⟩ := (sumSq3 f1 f2 f3 (by norm_num at *; linarith)).sqrt_all
    (sum_sign (l := [p, q, r]) (by simp [not_nan_of_finite f1, not_nan_of_finite f2, not_nan_of_finite f3]) (by simp)) (by positivity)
  refine near_root (le_trans (by norm_num) b) (by positivity) ?_ ?_
  · norm_num at l1 l2 l3 c ⊢; linarith
  · norm_num at u1 u2 u3 d ⊢; linarith

end

/-- **C148, `hypot`** for all finite arguments, zero included, with `x^2 + y^2` at most `2^124`. -/
theorem C148_hypot (x y : F32) (fx : x.isFinite = true) (fy : y.isFinite = true) (h2 : x.val ^ 2 + y.val ^ 2 ≤ 2 ^ 124) :
    |((x.hypot y).val : ℝ) - Real.sqrt ((x.val ^ 2 + y.val ^ 2 : ℚ) : ℝ)| ≤ 0.061 * Real.sqrt ((x.val ^ 2 + y.val ^ 2 : ℚ) : ℝ) + 1 / 2 ^ 63 := by
  obtain ⟨fm, pm, m1, m2⟩ := C148_magnitude2 (⟨x, y⟩ : Vector2d F32) fx fy h2
  have hl : len2 (⟨x, y⟩ : Vector2d F32) = x.val ^ 2 + y.val ^ 2 := rfl
  have e : x.hypot y = VectorTrait.magnitude (⟨x, y⟩ : Vector2d F32) := by
    rcases (C120_hypot_magnitude (⟨x, y⟩ : Vector2d F32)).1 with h | h
    · rw [not_nan_of_finite fm] at h; exact absurd h.2 (by simp)
    · exact h
  have n0 : 0 ≤ x.val ^ 2 + y.val ^ 2 := add_nonneg (sq_nonneg _) (sq_nonneg _)
  rw [hl, ← e] at m1 m2
  rw [← e] at pm
  generalize x.val ^ 2 + y.val ^ 2 = Q at *
  generalize x.hypot y = M at *
  refine near_root (le_trans (by norm_num) pm) n0 ?_ ?_
  · norm_num at m1 ⊢; linarith
  · norm_num at m2 ⊢; linarith

/-- **C148, `Quaternion::magnitude`.** -/
theorem C148_quaternion_magnitude (q : Quaternion) (hq : QFinite q) (h2 : qlen q ≤ 2 ^ 124) :
    |(q.magnitude.val : ℝ) - Real.sqrt (qlen q : ℚ)| ≤ 0.061 * Real.sqrt (qlen q : ℚ) + 1 / 2 ^ 63 := by
  have hl : qlen q = q.a.val ^ 2 + q.b.val ^ 2 + q.c.val ^ 2 + q.d.val ^ 2 := rfl
  have n0 : 0 ≤ qlen q := by rw [hl]; positivity
  have hS := norm_sumSq hq (by rw [← hl]; exact h2)
  rw [← hl] at hS
  obtain ⟨fm, pm, m1, m2⟩ := hS.sqrt_all (by
    rcases (C68_norm_dot q q).1 with h | h
    · rw [not_nan_of_finite hS.1] at h; cases h
    · exact h.1) n0
  refine near_root (M := q.magnitude.val) (le_trans (by norm_num) pm) n0 ?_ ?_
  · unfold Quaternion.magnitude; norm_num at m1 ⊢; linarith
  · unfold Quaternion.magnitude; norm_num at m2 ⊢; linarith

/-- **C148, `stddev`** is within 6.1 percent and `2^-63` of the root of the computed variance, for every slice with a finite variance
of positive sign. -/
theorem C148_stddev {T : Type} [IntoF32 T] (l : List T) {v : F32} (hv : variance l = .ok v) (hf : v.isFinite = true)
    (hs : v.isSignNegative = false) :
    ∃ s, stddev l = .ok s ∧ s.isFinite = true ∧ |(s.val : ℝ) - Real.sqrt (v.val : ℚ)| ≤ 0.061 * Real.sqrt (v.val : ℚ) + 1 / 2 ^ 63 := by
  obtain ⟨a, b, c, d⟩ := C148_sqrt v hf hs
  have v0 : 0 ≤ v.val := by rw [isSignNegative] at hs; rw [val_of_pos hs]; exact mval_nonneg _
  refine ⟨_, (C77_stddev l).1 v hv, a, near_root (le_trans (by norm_num) b) v0 ?_ ?_⟩
  · norm_num at c ⊢; linarith
  · norm_num at d ⊢; linarith

/-! ### normalized -/

/-- One component of `normalized`. -/
theorem norm_comp_all {x m : F32} {Q : ℚ} (fx : x.isFinite = true) (fm : m.isFinite = true) (pm : 0 < m.val)
    (hx : x.val ^ 2 ≤ Q) (hm : Q ≤ 2 * m.val ^ 2) :
    (x / m).isFinite = true ∧ |(x / m).val ^ 2 - x.val ^ 2 / m.val ^ 2| ≤ x.val ^ 2 / m.val ^ 2 / 2 ^ 22 + 1 / 2 ^ 140 := by
  have hb : |x.val / m.val| ≤ 2 := by
    refine abs_le_of_sq_le_sq ?_ (by norm_num)
    rw [div_pow, div_le_iff₀ (by positivity)]
    have := sq_nonneg m.val
    norm_num at hm ⊢
    linarith
  obtain ⟨f, e⟩ := div_err_uf fx fm pm.ne' (lt_of_le_of_lt hb (by norm_num [ovf]))
  refine ⟨f, ?_⟩
  have := sq_near e hb
  rwa [div_pow] at this

omit [Cfg] in
/-- From the sum `Z = Q / M^2` of exact squares to the squared length `R` of the result. -/
theorem norm_all {Q M R : ℚ} (h0 : 0 ≤ Q) (hM : 3 / 2 ^ 65 ≤ M) (m1 : (1 - 1 / 2 ^ 19) * Q ≤ M ^ 2)
    (m2 : M ^ 2 ≤ 9 / 8 * (1 + 1 / 2 ^ 20) * Q + 10 / 2 ^ 130) (h : |R - Q / M ^ 2| ≤ Q / M ^ 2 / 2 ^ 22 + 3 / 2 ^ 140) :
    R ≤ 1 + 1 / 2 ^ 18 ∧ R ≤ 2 ^ 130 / 8 * Q + 1 / 2 ^ 138 ∧ (1 - 1 / 2 ^ 19) * Q / (9 / 8 * Q + 10 / 2 ^ 130) - 1 / 2 ^ 138 ≤ R := by
  have hM2 := pow_le_pow_left₀ (by norm_num) hM 2
  have hp : 0 < M ^ 2 := lt_of_lt_of_le (by norm_num) hM2
  have q0 : 0 ≤ Q / M ^ 2 := by positivity
  have q1 : Q / M ^ 2 ≤ 1 / (1 - 1 / 2 ^ 19) := by
    rw [div_le_div_iff₀ hp (by norm_num)]; linarith
  have q2 : Q / M ^ 2 ≤ 2 ^ 130 / 9 * Q := by
    rw [div_le_iff₀ hp]
    have := mul_le_mul_of_nonneg_left hM2 (show (0 : ℚ) ≤ 2 ^ 130 / 9 * Q by positivity)
    refine le_trans (le_of_eq ?_) this
    norm_num; ring
  have q3 : (1 - 1 / 2 ^ 20) * (Q / (9 / 8 * Q + 10 / 2 ^ 130)) ≤ Q / M ^ 2 := by
    rw [← mul_div_assoc, div_le_div_iff₀ (by positivity) hp, mul_comm _ Q, mul_assoc]
    refine mul_le_mul_of_nonneg_left ?_ h0
    norm_num at m2 ⊢
    linarith
  obtain ⟨a, b⟩ := abs_le.1 h
  refine ⟨?_, ?_, ?_⟩
  · norm_num at b q1 ⊢; linarith
  · norm_num at b q2 ⊢; linarith
  · rw [mul_div_assoc]
    have q4 : 0 ≤ Q / (9 / 8 * Q + 10 / 2 ^ 130) := by positivity
    generalize Q / (9 / 8 * Q + 10 / 2 ^ 130) = W at *
    generalize Q / M ^ 2 = Z at *
    norm_num at a q3 ⊢
    linarith

/-- **C148, `normalized` in the plane**, without a lower limit on the length: with `Q` the exact squared length of `v`, the exact
squared length `R` of the result is at most `1 + 2^-18`, at most `2^127 Q` up to `2^-138`, and at least `Q / (9/8 Q + 10 * 2^-130)`
up to a relative error of `2^-19` and `2^-138`. -/
theorem C148_normalized2 (v : Vector2d F32) (fx : v.x.isFinite = true) (fy : v.y.isFinite = true) (h2 : len2 v ≤ 2 ^ 124) :
    ∃ r, VectorTrait.normalized v = .ok r ∧ r.x.isFinite = true ∧ r.y.isFinite = true ∧ len2 r ≤ 1 + 1 / 2 ^ 18 ∧
      len2 r ≤ 2 ^ 130 / 8 * len2 v + 1 / 2 ^ 138 ∧
      (1 - 1 / 2 ^ 19) * len2 v / (9 / 8 * len2 v + 10 / 2 ^ 130) - 1 / 2 ^ 138 ≤ len2 r := by
  obtain ⟨fm, pm, m1, m2⟩ := C148_magnitude2 v fx fy h2
  have hl : len2 v = v.x.val ^ 2 + v.y.val ^ 2 := rfl
  have nx := sq_nonneg v.x.val
  have ny := sq_nonneg v.y.val
  refine ⟨_, (C52_map v ⟨v.x, v.x, v.x⟩ _).1, ?_⟩
  dsimp only
  generalize VectorTrait.magnitude v = m at *
  have pm' : 0 < m.val := lt_of_lt_of_le (by norm_num) pm
  have m1' : len2 v ≤ 2 * m.val ^ 2 := by norm_num at m1 ⊢; linarith
  obtain ⟨x1, x2⟩ := norm_comp_all fx fm pm' (by rw [hl]; linarith) m1'
  obtain ⟨y1, y2⟩ := norm_comp_all fy fm pm' (by rw [hl]; linarith) m1'
  refine ⟨x1, y1, norm_all (by rw [hl]; positivity) pm m1 m2 ?_⟩
  have hr : len2 (⟨v.x / m, v.y / m⟩ : Vector2d F32) = (v.x / m).val ^ 2 + (v.y / m).val ^ 2 := rfl
  rw [hr, hl, add_div]
  refine (le_trans (le_of_eq (by congr 1; ring)) (abs_add_le _ _)).trans ((add_le_add x2 y2).trans ?_)
  norm_num
  linarith

/-- **C148, `normalized` in space.** -/
theorem C148_normalized3 (v : Vector3d F32) (fx : v.x.isFinite = true) (fy : v.y.isFinite = true) (fz : v.z.isFinite = true)
    (h2 : len3 v ≤ 2 ^ 124) :
    ∃ r, VectorTrait.normalized v = .ok r ∧ r.x.isFinite = true ∧ r.y.isFinite = true ∧ r.z.isFinite = true ∧ len3 r ≤ 1 + 1 / 2 ^ 18 ∧
      len3 r ≤ 2 ^ 130 / 8 * len3 v + 1 / 2 ^ 138 ∧
      (1 - 1 / 2 ^ 19) * len3 v / (9 / 8 * len3 v + 10 / 2 ^ 130) - 1 / 2 ^ 138 ≤ len3 r := by
  obtain ⟨fm, pm, m1, m2⟩ := C148_magnitude3 v fx fy fz h2
  have hl : len3 v = v.x.val ^ 2 + v.y.val ^ 2 + v.z.val ^ 2 := rfl
  have nx := sq_nonneg v.x.val
  have ny := sq_nonneg v.y.val
  have nz := sq_nonneg v.z.val
  refine ⟨_, (C52_map ⟨v.x, v.x⟩ v _).2, ?_⟩
  dsimp only
  generalize VectorTrait.magnitude v = m at *
  have pm' : 0 < m.val := lt_of_lt_of_le (by norm_num) pm
  have m1' : len3 v ≤ 2 * m.val ^ 2 := by norm_num at m1 ⊢; linarith
  obtain ⟨x1, x2⟩ := norm_comp_all fx fm pm' (by rw [hl]; linarith) m1'
  obtain ⟨y1, y2⟩ := norm_comp_all fy fm pm' (by rw [hl]; linarith) m1'
  obtain ⟨z1, z2⟩ := norm_comp_all fz fm pm' (by rw [hl]; linarith) m1'
  refine ⟨x1, y1, z1, norm_all (by rw [hl]; positivity) pm m1 m2 ?_⟩
  have hr : len3 (⟨v.x / m, v.y / m, v.z / m⟩ : Vector3d F32) = (v.x / m).val ^ 2 + (v.y / m).val ^ 2 + (v.z / m).val ^ 2 := rfl
  rw [hr, hl, add_div, add_div]
  refine (le_trans (le_of_eq (by congr 1; ring)) (abs_add_three _ _ _)).trans ((add_le_add (add_le_add x2 y2) z2).trans ?_)
  norm_num
  linarith

/-- A vector of length `2^-70`: the bounds give a squared length of at most `2^-13` after `normalized`. -/
example : ∃ v : Vector3d F32, v.x.isFinite = true ∧ v.y.isFinite = true ∧ v.z.isFinite = true ∧ len3 v = 1 / 2 ^ 140 ∧
    2 ^ 130 / 8 * len3 v + 1 / 2 ^ 138 ≤ 1 / 2 ^ 12 := by
  have h : len3 (⟨⟨0x1c800000#32⟩, posZero, posZero⟩ : Vector3d F32) = 1 / 2 ^ 140 := by
    show (⟨0x1c800000#32⟩ : F32).val ^ 2 + posZero.val ^ 2 + posZero.val ^ 2 = _
    rw [val_posZero, val_of_units (u := 2 ^ 79) (by decide +kernel)]; norm_num
  exact ⟨⟨⟨0x1c800000#32⟩, posZero, posZero⟩, by decide, by decide, by decide, h, by rw [h]; norm_num⟩

/-! ### very long vectors -/

omit [Cfg] in
theorem sq_near_huge {r t : ℚ} (h : |r - t| ≤ |t| / 2 ^ 24 + 1 / 2 ^ 150) (ht : |t| ≤ 2 ^ 64) :
    |r ^ 2 - t ^ 2| ≤ t ^ 2 / 2 ^ 22 + 1 / 2 ^ 80 := by
  rw [show r ^ 2 - t ^ 2 = (r - t) * (r + t) by ring, abs_mul]
  have h1 : |r + t| ≤ 2 * |t| + (|t| / 2 ^ 24 + 1 / 2 ^ 150) := by
    rw [show r + t = 2 * t + (r - t) by ring]
    refine (abs_add_le _ _).trans ?_
    rw [abs_mul, abs_two]; linarith
  have h2 := mul_le_mul h h1 (abs_nonneg _) (by positivity)
  refine h2.trans ?_
  rw [← sq_abs t]
  have h0 : 0 ≤ |t| := abs_nonneg t
  generalize |t| = a at *
  norm_num at *
  nlinarith

/-- One component divided by `2^64`. -/
theorem huge_comp {x : F32} (fx : x.isFinite = true) :
    (x / ⟨0x5f800000#32⟩).isFinite = true ∧
      |(x / ⟨0x5f800000#32⟩ : F32).val ^ 2 - x.val ^ 2 / 2 ^ 128| ≤ x.val ^ 2 / 2 ^ 128 / 2 ^ 22 + 1 / 2 ^ 80 := by
  have hv : (⟨0x5f800000#32⟩ : F32).val = 2 ^ 64 := by rw [val_of_units (u := 2 ^ 213) (by decide +kernel)]; norm_num
  have hb : |x.val / (⟨0x5f800000#32⟩ : F32).val| ≤ 2 ^ 64 := by
    rw [hv, abs_div, div_le_iff₀ (by positivity)]
    have := (abs_val_lt_ovf fx).le
    norm_num [ovf] at this ⊢
    linarith
  obtain ⟨f, e⟩ := div_err_uf fx (by decide) (by rw [hv]; norm_num) (lt_of_le_of_lt hb (by norm_num [ovf]))
  refine ⟨f, ?_⟩
  have := sq_near_huge e hb
  rw [div_pow, hv] at this
  norm_num at this ⊢
  exact this

/-- **C148, very long vectors.** If a component of a finite vector is at least `2^64` in magnitude, `normalized` divides by `2^64`,
whatever the length: the squared length of the result is `Q * 2^-128`, up to a relative error of `2^-22` and `2^-78`. -/
theorem C148_huge (v : Vector2d F32) (w : Vector3d F32) :
    (v.x.isFinite = true → v.y.isFinite = true → (2 ^ 64 ≤ |v.x.val| ∨ 2 ^ 64 ≤ |v.y.val|) →
      ∃ r, VectorTrait.normalized v = .ok r ∧ r.x.isFinite = true ∧ r.y.isFinite = true ∧
        |len2 r - len2 v / 2 ^ 128| ≤ len2 v / 2 ^ 128 / 2 ^ 22 + 1 / 2 ^ 78) ∧
    (w.x.isFinite = true → w.y.isFinite = true → w.z.isFinite = true → (2 ^ 64 ≤ |w.x.val| ∨ 2 ^ 64 ≤ |w.y.val| ∨ 2 ^ 64 ≤ |w.z.val|) →
      ∃ r, VectorTrait.normalized w = .ok r ∧ r.x.isFinite = true ∧ r.y.isFinite = true ∧ r.z.isFinite = true ∧
        |len3 r - len3 w / 2 ^ 128| ≤ len3 w / 2 ^ 128 / 2 ^ 22 + 1 / 2 ^ 78) := by
  constructor
  · intro fx fy h
    have hm := (C103_magnitude_extreme v w).1 (by simp [floats2, IntoF32.into, not_nan_of_finite fx, not_nan_of_finite fy])
      (by simpa [floats2, IntoF32.into] using h)
    refine ⟨_, by rw [VectorTrait.normalized, hm, (C52_map v w _).1], ?_⟩
    obtain ⟨x1, x2⟩ := huge_comp fx
    obtain ⟨y1, y2⟩ := huge_comp fy
    refine ⟨x1, y1, ?_⟩
    have hl : len2 v = v.x.val ^ 2 + v.y.val ^ 2 := rfl
    have hr : len2 (⟨v.x / ⟨0x5f800000#32⟩, v.y / ⟨0x5f800000#32⟩⟩ : Vector2d F32) =
      (v.x / ⟨0x5f800000#32⟩ : F32).val ^ 2 + (v.y / ⟨0x5f800000#32⟩ : F32).val ^ 2 := rfl
    rw [hr, hl, add_div]
    refine (le_trans (le_of_eq (by congr 1; ring)) (abs_add_le _ _)).trans ((add_le_add x2 y2).trans ?_)
    norm_num
    linarith
  · intro fx fy fz h
    have hm := (C103_magnitude_extreme v w).2.1
      (by simp [floats3, IntoF32.into, not_nan_of_finite fx, not_nan_of_finite fy, not_nan_of_finite fz])
      (by simpa [floats3, IntoF32.into] using h)
    refine ⟨_, by rw [VectorTrait.normalized, hm, (C52_map v w _).2], ?_⟩
    obtain ⟨x1, x2⟩ := huge_comp fx
    obtain ⟨y1, y2⟩ := huge_comp fy
    obtain ⟨z1, z2⟩ := huge_comp fz
    refine ⟨x1, y1, z1, ?_⟩
    have hl : len3 w = w.x.val ^ 2 + w.y.val ^ 2 + w.z.val ^ 2 := rfl
    have hr : len3 (⟨w.x / ⟨0x5f800000#32⟩, w.y / ⟨0x5f800000#32⟩, w.z / ⟨0x5f800000#32⟩⟩ : Vector3d F32) =
      (w.x / ⟨0x5f800000#32⟩ : F32).val ^ 2 + (w.y / ⟨0x5f800000#32⟩ : F32).val ^ 2 + (w.z / ⟨0x5f800000#32⟩ : F32).val ^ 2 := rfl
    rw [hr, hl, add_div, add_div]
    refine (le_trans (le_of_eq (by congr 1; ring)) (abs_add_three _ _ _)).trans ((add_le_add (add_le_add x2 y2) z2).trans ?_)
    norm_num
    linarith

/-- **C148, finding.** `normalized` of (2^100, 0) is (2^36, 0). -/
theorem C148_huge_false : VectorTrait.normalized (⟨⟨0x71800000#32⟩, posZero⟩ : Vector2d F32) = .ok ⟨⟨0x51800000#32⟩, posZero⟩ ∧
    (⟨0x71800000#32⟩ : F32).val = 2 ^ 100 ∧ (⟨0x51800000#32⟩ : F32).val = 2 ^ 36 := by
  have v1 : (⟨0x71800000#32⟩ : F32).val = 2 ^ 100 := by rw [val_of_units (u := 2 ^ 249) (by decide +kernel)]; norm_num
  have v2 : (⟨0x51800000#32⟩ : F32).val = 2 ^ 36 := by rw [val_of_units (u := 2 ^ 185) (by decide +kernel)]; norm_num
  refine ⟨?_, v1, v2⟩
  have hm := (C103_magnitude_extreme (⟨⟨0x71800000#32⟩, posZero⟩ : Vector2d F32) ⟨one, one, one⟩).1
    (by simp [floats2, IntoF32.into]; decide)
    ⟨⟨0x71800000#32⟩, by simp [floats2, IntoF32.into], by rw [v1]; norm_num⟩
  rw [VectorTrait.normalized, hm, (C52_map _ ⟨one, one, one⟩ _).1]
  have a : (⟨0x71800000#32⟩ : F32) / ⟨0x5f800000#32⟩ = ⟨0x51800000#32⟩ := eval_eq (n := 0x51800000) (by kernel_rfl)
  have b : (posZero : F32) / ⟨0x5f800000#32⟩ = posZero := eval_eq (n := 0) (by kernel_rfl)
  rw [a, b]

/-! ### quaternions -/

/-- `invsqrt` of a positive subnormal number. -/
theorem invsqrt_subnormal {x : F32} (hs : x.isSignNegative = false) (hm : x.mag < 2 ^ 23) :
    ∃ y, x.invsqrt = .ok y ∧ y.isFinite = true ∧ 0 < y.val ∧ 0.93 * 2 ^ 126 ≤ y.val ^ 2 ∧ y.val ^ 2 ≤ 2.06 * 2 ^ 126 ∧ x.val * y.val ^ 2 ≤ 1.07 := by
  rw [isSignNegative] at hs
  have hb : x.bits.toNat = x.mag := by rw [toNat_eq x, hs]; simp
  obtain ⟨y, hy, hyb⟩ := invsqrt_ok (x := x) (by omega)
  have hv : x.val = x.mag / 2 ^ 149 := by rw [val_of_pos hs, mval, magU, if_pos (by omega)]
  obtain ⟨g, ρ, hg, hρ⟩ : ∃ g ρ, x.mag = 2 * g + ρ ∧ ρ ≤ 1 := ⟨x.mag / 2, x.mag % 2, by omega, by omega⟩
  rw [hb, show x.mag / 2 = g by omega] at hyb
  have hvm : x.val ≤ (2 * g + 1) / 2 ^ 149 := by
    rw [hv]
    refine div_le_div_of_nonneg_right ?_ (by positivity)
    have : x.mag ≤ 2 * g + 1 := by omega
    exact_mod_cast this
  have g0 : (0 : ℚ) ≤ g := by positivity
  have g1 : (g : ℚ) + 1 ≤ 2 ^ 22 := by
    have : g + 1 ≤ 2 ^ 22 := by omega
    exact_mod_cast this
  refine ⟨y, hy, ?_⟩
  rcases Nat.lt_or_ge 0x375a86 g with hc | hc
  · obtain ⟨h1, h2⟩ := val_of_bits (y := y) (E := 189) (F := 2 ^ 23 + 0x375a86 - g) (by omega) (by omega) (by omega) (by rw [hyb]; omega)
    have hF : ((2 ^ 23 + 0x375a86 - g : Nat) : ℚ) = 2 ^ 23 + 0x375a86 - g := by
      rw [Nat.cast_sub (by omega)]; push_cast; norm_num
    have hcq : (3627655 : ℚ) ≤ (g : ℚ) := by exact_mod_cast hc
    rw [hF] at h2
    have y0 : 0 < y.val := lt_of_lt_of_le (by positivity) h1.2
    have y1 : 1.9324 * 2 ^ 62 ≤ y.val := by rw [h2]; norm_num at g1 ⊢; linarith
    have y2 : y.val ≤ 2 ^ 63 := by rw [h2]; norm_num; linarith only [hcq]
    have z1 := pow_le_pow_left₀ (by norm_num) y1 2
    have z2 := pow_le_pow_left₀ y0.le y2 2
    refine ⟨h1.1, y0, le_trans (by norm_num) z1, z2.trans (by norm_num), ?_⟩
    have hx : x.val ≤ 1 / 2 ^ 126 := by refine hvm.trans ?_; norm_num at g1 ⊢; linarith
    refine (mul_le_mul hx z2 (by positivity) (by positivity)).trans ?_
    norm_num
  · obtain ⟨h1, h2⟩ := val_of_bits (y := y) (E := 190) (F := 0x375a86 - g) (by omega) (by omega) (by omega) (by rw [hyb]; omega)
    have hF : ((0x375a86 - g : Nat) : ℚ) = 0x375a86 - g := by
      rw [Nat.cast_sub (by omega)]; push_cast; norm_num
    have hcq : (g : ℚ) ≤ 0x375a86 := by exact_mod_cast hc
    rw [hF] at h2
    have y0 : 0 < y.val := lt_of_lt_of_le (by positivity) h1.2
    have y1 : 2 ^ 63 ≤ y.val := by rw [h2]; norm_num at hcq ⊢; linarith
    have y2 : y.val ≤ 1.4325 * 2 ^ 63 := by rw [h2]; norm_num at hcq ⊢; linarith
    have z1 := pow_le_pow_left₀ (by norm_num) y1 2
    have z2 := pow_le_pow_left₀ y0.le y2 2
    refine ⟨h1.1, y0, le_trans (by norm_num) z1, z2.trans (by norm_num), ?_⟩
    refine (mul_le_mul_of_nonneg_right hvm (by positivity)).trans ?_
    obtain ⟨u, hu⟩ : ∃ u, u = (g : ℚ) / 2 ^ 22 := ⟨_, rfl⟩
    have hg' : (g : ℚ) = u * 2 ^ 22 := by rw [hu]; ring
    have hy' : y.val ≤ 2 ^ 63 * (1.4325 - u / 2) := by rw [h2, hg']; norm_num; linarith
    have u0 : 0 ≤ u := by rw [hu]; positivity
    have u1 : u ≤ 0.865 := by rw [hu]; norm_num at hcq ⊢; linarith
    have z3 := pow_le_pow_left₀ y0.le hy' 2
    have k : u * (1.4325 - u / 2) ^ 2 ≤ 0.955 ^ 3 := by
      have := mul_nonneg (sq_nonneg (u - 0.955)) (show (0 : ℚ) ≤ 3 * 0.955 - (u - 0.955) by norm_num at u1 ⊢; linarith)
      norm_num at this ⊢
      nlinarith
    have k2 : (1.4325 - u / 2) ^ 2 ≤ 2.06 := by
      norm_num at u1 ⊢; nlinarith
    calc (2 * (g : ℚ) + 1) / 2 ^ 149 * y.val ^ 2 ≤ (2 * (g : ℚ) + 1) / 2 ^ 149 * (2 ^ 63 * (1.4325 - u / 2)) ^ 2 :=
          mul_le_mul_of_nonneg_left z3 (by positivity)
      _ = u * (1.4325 - u / 2) ^ 2 + (1.4325 - u / 2) ^ 2 / 2 ^ 23 := by rw [hg']; ring
      _ ≤ 1.07 := by norm_num at k k2 ⊢; linarith

/-- **C148, `Quaternion::normalize`**, without a lower limit on the length: if it does not panic (see C69), the exact squared length `R`
of the result is at most `1.0703`, at most `2.07 * 2^126 Q`, and at least `0.92 Q / (Q + 2^-126)`, up to `2^-19`. -/
theorem C148_normalize (q : Quaternion) (hq : QFinite q) (h2 : qlen q ≤ 2 ^ 124) (h0 : q.norm.feq posZero = false) :
    ∃ r, q.normalize = .ok r ∧ QFinite r ∧ qlen r ≤ 1.0703 ∧ qlen r ≤ 2.07 * 2 ^ 126 * qlen q + 1 / 2 ^ 19 ∧
      0.92 * qlen q / (qlen q + 1 / 2 ^ 126) - 1 / 2 ^ 19 ≤ qlen r := by
  have hl : qlen q = q.a.val ^ 2 + q.b.val ^ 2 + q.c.val ^ 2 + q.d.val ^ 2 := rfl
  obtain ⟨fN, eN⟩ := norm_sumSq hq (by rw [← hl]; exact h2)
  rw [← hl] at eN
  have hs : q.norm.isSignNegative = false := by
    rcases (C68_norm_dot q q).1 with h | h
    · rw [not_nan_of_finite fN] at h; cases h
    · exact h.1
  have na := sq_nonneg q.a.val
  have nb := sq_nonneg q.b.val
  have nc := sq_nonneg q.c.val
  have nd := sq_nonneg q.d.val
  have hQ : 0 ≤ qlen q := by rw [hl]; positivity
  obtain ⟨n, hn, fn, n0, n1, n2, n3⟩ : ∃ n, q.norm.invsqrt = .ok n ∧ n.isFinite = true ∧ 0 < n.val ∧
      0.9295 * (1 / (qlen q + 1 / 2 ^ 126)) ≤ n.val ^ 2 ∧ n.val ^ 2 ≤ 2.06 * 2 ^ 126 ∧ q.norm.val * n.val ^ 2 ≤ 1.07 := by
    by_cases hm : q.norm.mag < 2 ^ 23
    · obtain ⟨n, a, b, c, d, e, f⟩ := invsqrt_subnormal hs hm
      refine ⟨n, a, b, c, le_trans ?_ d, e, f⟩
      rw [mul_one_div, div_le_iff₀ (by positivity)]
      norm_num
      linarith
    · have hp : PosNormal q.norm := posNormal_iff.2 ⟨by rwa [isSignNegative] at hs, by omega, by
        have : q.norm.mag < infMag := by simpa [isFinite] using fN
        unfold infMag at this; omega⟩
      obtain ⟨n, a, b, d, e⟩ := invsqrt_bounds hp
      have b0 : 0 < n.val := lt_of_lt_of_le (by positivity) b.2
      have hN := hp.2
      have N0 : 0 < q.norm.val := lt_of_lt_of_le (by positivity) hN
      refine ⟨n, a, b.1, b0, ?_, ?_, e⟩
      · have e2 := (abs_le.1 eN).2
        have : 0.93 * (1 / q.norm.val) ≤ n.val ^ 2 := by rw [mul_one_div, div_le_iff₀ N0]; linarith
        refine le_trans ?_ this
        rw [mul_one_div, mul_one_div, div_le_div_iff₀ (by positivity) N0]
        norm_num at e2 ⊢
        linarith
      · by_contra hc
        push Not at hc
        have := mul_le_mul hN hc.le (by positivity) N0.le
        norm_num at this e
        linarith
  obtain ⟨e1, e2⟩ := abs_le.1 eN
  have sq0 : 0 ≤ n.val ^ 2 := by positivity
  have u1 : qlen q * n.val ^ 2 ≤ 1.0701 := by
    have := mul_le_mul_of_nonneg_right e1 sq0
    norm_num at this n2 n3 ⊢
    linarith
  obtain ⟨fa, ea⟩ := qnorm_comp hq.1 fn (by rw [hl]; linarith) (u1.trans (by norm_num))
  obtain ⟨fb, eb⟩ := qnorm_comp hq.2.1 fn (by rw [hl]; linarith) (u1.trans (by norm_num))
  obtain ⟨fc, ec⟩ := qnorm_comp hq.2.2.1 fn (by rw [hl]; linarith) (u1.trans (by norm_num))
  obtain ⟨fd, ed⟩ := qnorm_comp hq.2.2.2 fn (by rw [hl]; linarith) (u1.trans (by norm_num))
  refine ⟨q.scale n, ?_, ⟨fa, fb, fc, fd⟩, ?_⟩
  · simp only [Quaternion.normalize, h0, hn]; rfl
  have hr : qlen (q.scale n) = (q.a * n).val ^ 2 + (q.b * n).val ^ 2 + (q.c * n).val ^ 2 + (q.d * n).val ^ 2 := rfl
  have hZ : |qlen (q.scale n) - qlen q * n.val ^ 2| ≤ qlen q * n.val ^ 2 / 2 ^ 22 + 4 / 2 ^ 140 := by
    rw [hr, hl]
    rw [abs_le] at ea eb ec ed ⊢
    constructor <;> linarith
  obtain ⟨z1, z2⟩ := abs_le.1 hZ
  have w1 := mul_le_mul_of_nonneg_left n2 hQ
  have w2 := mul_le_mul_of_nonneg_left n1 hQ
  refine ⟨?_, ?_, ?_⟩
  · norm_num at z2 u1 ⊢; linarith
  · norm_num at z2 w1 ⊢; linarith
  · have w3 : qlen q * (0.9295 * (1 / (qlen q + 1 / 2 ^ 126))) = 0.9295 * (qlen q / (qlen q + 1 / 2 ^ 126)) := by ring
    rw [w3] at w2
    rw [mul_div_assoc]
    have w4 : 0 ≤ qlen q / (qlen q + 1 / 2 ^ 126) := by positivity
    generalize qlen q / (qlen q + 1 / 2 ^ 126) = W at *
    generalize qlen q * n.val ^ 2 = Z at *
    norm_num at z1 w2 ⊢
    linarith

/-- A quaternion of length `2^-70` meets the hypotheses; the bounds give a squared length of at most `2^-12`. -/
example : ∃ q : Quaternion, QFinite q ∧ qlen q = 1 / 2 ^ 140 ∧ q.norm.feq posZero = false ∧ 2.07 * 2 ^ 126 * qlen q + 1 / 2 ^ 19 ≤ 1 / 2 ^ 12 := by
  have h : qlen (⟨⟨0x1c800000#32⟩, posZero, posZero, posZero⟩ : Quaternion) = 1 / 2 ^ 140 := by
    show (⟨0x1c800000#32⟩ : F32).val ^ 2 + posZero.val ^ 2 + posZero.val ^ 2 + posZero.val ^ 2 = _
    rw [val_posZero, val_of_units (u := 2 ^ 79) (by decide +kernel)]; norm_num
  have hn : (⟨⟨0x1c800000#32⟩, posZero, posZero, posZero⟩ : Quaternion).norm = ⟨0x00000200#32⟩ := eval_eq (n := 0x200) (by kernel_rfl)
  exact ⟨⟨⟨0x1c800000#32⟩, posZero, posZero, posZero⟩, ⟨by decide, by decide, by decide, by decide⟩, h, by rw [hn]; decide +kernel,
    by rw [h]; norm_num⟩

end Micromath.Props
