import Verif.Props.Lerp

/-!
# C161: exponential smoothing `y = (x - y).mul_add(α, y)` stays in range and converges
-/

set_option exponentiation.threshold 1000

namespace Micromath.Props
open F32 Spec

variable [Cfg]

omit [Cfg] in
/-- The step from `a` towards `b` does not pass `b`. -/
theorem step_le {a b t : ℚ} (hg : ∃ z : ℤ, b - a = z / 2 ^ 149) (hab : a ≤ b) (t0 : 0 ≤ t)
    (t1 : t ≤ 1 - 1 / 2 ^ 22) : RN (RN (b - a) * t) ≤ b - a := by
  have d0 : 0 ≤ b - a := by linarith
  set d := b - a with hd
  have D0 : 0 ≤ RN d := RN_nonneg d0
  by_cases hr : RN d ≤ d
  · have h1 : RN d * t ≤ RN d := mul_le_of_le_one_right D0 (by norm_num at t1; linarith)
    exact (RN_le_of_rep (rep_RN d) h1).trans hr
  · have big : (1 : ℚ) / 2 ^ 125 ≤ d := by
      by_contra hc
      obtain ⟨z, hz⟩ := hg
      refine hr (le_of_eq (RN_of_rep ?_))
      have zb : |z| ≤ 2 ^ 24 := by
        have : |(z : ℚ)| ≤ 2 ^ 24 := by
          have e : (z : ℚ) = d * 2 ^ 149 := by rw [hz]; field_simp
          rw [e, abs_of_nonneg (by positivity)]
          have := mul_le_mul_of_nonneg_right (not_le.1 hc).le (show (0 : ℚ) ≤ 2 ^ 149 by positivity)
          norm_num at this ⊢; exact this
        exact_mod_cast this
      have := rep_units (m := z) (by have := abs_le.1 zb; norm_num at *; omega) 0
      rw [pow_zero, mul_one, ← hz] at this; exact this
    have e1 := rn_err (le_of_eq (abs_of_nonneg d0))
    have e1' := (abs_le.1 e1).2
    have p0 : 0 ≤ RN d * t := mul_nonneg D0 t0
    have p1 : RN d * t ≤ RN d * (1 - 1 / 2 ^ 22) := mul_le_mul_of_nonneg_left t1 D0
    have e2 := rn_err (le_of_eq (abs_of_nonneg p0))
    have e2' := (abs_le.1 e2).2
    norm_num at *
    linarith

omit [Cfg] in
theorem diff_grid (x y : F32) : ∃ z : ℤ, y.val - x.val = z / 2 ^ 149 :=
  ⟨y.units - x.units, by rw [val, val]; push_cast; ring⟩

/-- **C161.** One step of the filter stays between the state and the reading, for a weight up to `1 - 2^-22`. -/
theorem C161_between {y x t : F32} (h : Moderate y x) (ht : t.isFinite = true) (t0 : 0 ≤ t.val) (t1 : t.val ≤ 1 - 1 / 2 ^ 22) :
    (lerp y x t).isFinite = true ∧ min y.val x.val ≤ (lerp y x t).val ∧ (lerp y x t).val ≤ max y.val x.val := by
  have t1' : t.val ≤ 1 := t1.trans (by norm_num)
  obtain ⟨f, v⟩ := lerp_val h ht t0 t1'
  have m := C160_lerp h ht ht t0 le_rfl t1'
  refine ⟨f, ?_⟩
  rcases le_total y.val x.val with hc | hc
  · rw [min_eq_left hc, max_eq_right hc]
    refine ⟨(m.2.1 hc).1, ?_⟩
    rw [v]
    refine RN_le_of_rep (rep_val x) ?_
    have := step_le (diff_grid y x) hc t0 t1
    linarith
  · rw [min_eq_right hc, max_eq_left hc]
    refine ⟨?_, (m.2.2 hc).1⟩
    rw [v]
    refine le_RN_of_rep (rep_val x) ?_
    have := step_le (a := -y.val) (b := -x.val) (by
      obtain ⟨z, hz⟩ := diff_grid x y
      exact ⟨z, by rw [← hz]; ring⟩) (by linarith) t0 t1
    rw [show -x.val - -y.val = -(x.val - y.val) by ring, RN_neg, neg_mul, RN_neg] at this
    linarith

/-- The filter over a list of readings. -/
def smooth (t y : F32) (l : List F32) : F32 := l.foldl (fun y x => lerp y x t) y

/-- **C161.** However many readings there are, the filter never leaves the range of its start and its readings. -/
theorem C161_range {t : F32} (ht : t.isFinite = true) (t0 : 0 ≤ t.val) (t1 : t.val ≤ 1 - 1 / 2 ^ 22) {lo hi : ℚ}
    (hlo : -2 ^ 120 ≤ lo) (hhi : hi ≤ 2 ^ 120) (l : List F32) (hl : ∀ x ∈ l, x.isFinite = true ∧ lo ≤ x.val ∧ x.val ≤ hi)
    {y : F32} (fy : y.isFinite = true) (y1 : lo ≤ y.val) (y2 : y.val ≤ hi) :
    (smooth t y l).isFinite = true ∧ lo ≤ (smooth t y l).val ∧ (smooth t y l).val ≤ hi := by
  induction l generalizing y with
  | nil => exact ⟨fy, y1, y2⟩
  | cons x l ih =>
    obtain ⟨fx, x1, x2⟩ := hl x (by simp)
    obtain ⟨f, a, b⟩ := C161_between (y := y) (x := x) ⟨fy, fx, abs_le.2 ⟨by linarith, by linarith⟩, abs_le.2 ⟨by linarith, by linarith⟩⟩
      ht t0 t1
    exact ih (fun z hz => hl z (by simp [hz])) f ((le_min y1 x1).trans a) (b.trans (max_le y2 x2))

/-- One step with reading `x`: the distance to `x` shrinks by `1 - α`, up to rounding. -/
theorem smooth_step {t x y : F32} (ht : t.isFinite = true) (t0 : 0 ≤ t.val) (t1 : t.val ≤ 1 - 1 / 2 ^ 22) {M : ℚ} (hM : M ≤ 2 ^ 120)
    (fx : x.isFinite = true) (fy : y.isFinite = true) (bx : |x.val| ≤ M) (hy : |y.val| ≤ M) :
    (lerp y x t).isFinite = true ∧ |(lerp y x t).val| ≤ M ∧
      |(lerp y x t).val - x.val| ≤ (1 - t.val) * |y.val - x.val| + (4.8 / 10 ^ 7 * M + 1 / 2 ^ 147) := by
  have q0 : 0 ≤ 1 - t.val := by norm_num at t1; linarith
  have hm : Moderate y x := ⟨fy, fx, hy.trans hM, bx.trans hM⟩
  obtain ⟨f, a, b⟩ := C161_between hm ht t0 t1
  have e := C160_lerp_error hm ht t0 (t1.trans (by norm_num))
  refine ⟨f, ?_, ?_⟩
  · have h1 := abs_le.1 bx
    have h2 := abs_le.1 hy
    exact abs_le.2 ⟨(le_min h2.1 h1.1).trans a, b.trans (max_le h2.2 h1.2)⟩
  · have k : (lerp y x t).val - x.val = ((lerp y x t).val - (y.val + t.val * (x.val - y.val))) + (1 - t.val) * (y.val - x.val) := by
      ring
    rw [k]
    refine (abs_add_le _ _).trans ?_
    rw [abs_mul, abs_of_nonneg q0]
    norm_num at *; linarith

/-- **C161.** With a constant reading `x`, after `n` steps the distance to `x` is at most `(1-α)^n` of the first one plus
`4.8e-7 M / α`, where `M` bounds the data. -/
theorem C161_converge {t x y : F32} (ht : t.isFinite = true) (t0 : 0 < t.val) (t1 : t.val ≤ 1 - 1 / 2 ^ 22) {M : ℚ} (hM : M ≤ 2 ^ 120)
    (fx : x.isFinite = true) (fy : y.isFinite = true) (bx : |x.val| ≤ M) (hy : |y.val| ≤ M) (n : ℕ) :
    |(smooth t y (List.replicate n x)).val - x.val| ≤
      (1 - t.val) ^ n * |y.val - x.val| + (4.8 / 10 ^ 7 * M + 1 / 2 ^ 147) / t.val := by
  have M0 : 0 ≤ M := (abs_nonneg _).trans bx
  have q0 : 0 ≤ 1 - t.val := by norm_num at t1; linarith
  set E := 4.8 / 10 ^ 7 * M + 1 / 2 ^ 147 with hE
  have E0 : 0 ≤ E := by positivity
  have main : ∀ n : ℕ, ∀ y : F32, y.isFinite = true → |y.val| ≤ M → |(smooth t y (List.replicate n x)).val - x.val| ≤
      (1 - t.val) ^ n * |y.val - x.val| + E * (1 - (1 - t.val) ^ n) / t.val := by
    intro n
    induction n with
    | zero => intro y _ _; simp [smooth]
    | succ n ih =>
      intro y fy hy
      obtain ⟨f, b, s⟩ := smooth_step ht t0.le t1 hM fx fy bx hy
      rw [List.replicate_succ]
      refine (ih _ f b).trans ?_
      have := mul_le_mul_of_nonneg_left s (pow_nonneg q0 n)
      refine (add_le_add_left this _).trans (le_of_eq ?_)
      rw [← hE]
      field_simp
      ring
  refine (main n y fy hy).trans ?_
  gcongr
  exact mul_le_of_le_one_right E0 (by have := pow_nonneg q0 n; linarith)

/-- **C161.** The steady error is real: from the float below one the filter with weight `1/4` never reaches the constant
reading one. -/
theorem C161_reaches_false :
    ∃ y : F32, y.isFinite = true ∧ y.val < 1 ∧ ∀ n : ℕ, smooth ⟨0x3e800000#32⟩ y (List.replicate n ⟨0x3f800000#32⟩) = y := by
  refine ⟨⟨0x3f7fffff#32⟩, by decide, ?_, ?_⟩
  · rw [val_of_units (u := 16777215 * 2 ^ 125) (by decide +kernel)]; norm_num
  · have step : lerp (⟨0x3f7fffff#32⟩ : F32) ⟨0x3f800000#32⟩ ⟨0x3e800000#32⟩ = ⟨0x3f7fffff#32⟩ :=
      eval_eq (n := 0x3f7fffff) (by kernel_rfl)
    intro n
    induction n with
    | zero => rfl
    | succ n ih =>
      rw [List.replicate_succ]
      show smooth _ (lerp _ _ _) _ = _
      rw [step]; exact ih

/-- **C161.** The limit on the weight is there for a reason: with weight one a step can pass the reading. -/
theorem C161_overshoot_false : ∃ y x : F32, Moderate y x ∧ x.val < y.val ∧ (lerp y x one).val < x.val := by
  have e : lerp ⟨0x3f070d78#32⟩ ⟨0xbefacf2f#32⟩ one = ⟨0xbefacf30#32⟩ := eval_eq (n := 0xbefacf30) (by kernel_rfl)
  have vy : (⟨0x3f070d78#32⟩ : F32).val = 0x870d78 / 2 ^ 24 := by
    rw [val_of_units (u := 0x870d78 * 2 ^ 125) (by decide +kernel)]; norm_num
  have vx : (⟨0xbefacf2f#32⟩ : F32).val = -(0xfacf2f / 2 ^ 25) := by
    rw [val_of_units (u := -(0xfacf2f * 2 ^ 124)) (by decide +kernel)]; norm_num
  have vz : (⟨0xbefacf30#32⟩ : F32).val = -(0xfacf30 / 2 ^ 25) := by
    rw [val_of_units (u := -(0xfacf30 * 2 ^ 124)) (by decide +kernel)]; norm_num
  refine ⟨⟨0x3f070d78#32⟩, ⟨0xbefacf2f#32⟩, ⟨by decide, by decide, ?_, ?_⟩, ?_, ?_⟩
  · rw [vy, abs_of_nonneg (by norm_num)]; norm_num
  · rw [vx, abs_neg, abs_of_nonneg (by norm_num)]; norm_num
  · rw [vx, vy]; norm_num
  · rw [e, vx, vz]; norm_num

/-- Non-vacuity: weight `1/4`, readings between `-1` and `1`. -/
example (l : List F32) (hl : ∀ x ∈ l, x.isFinite = true ∧ -1 ≤ x.val ∧ x.val ≤ 1) :
    (smooth ⟨0x3e800000#32⟩ ⟨0x3f800000#32⟩ l).isFinite = true ∧ -1 ≤ (smooth ⟨0x3e800000#32⟩ ⟨0x3f800000#32⟩ l).val ∧
      (smooth ⟨0x3e800000#32⟩ ⟨0x3f800000#32⟩ l).val ≤ 1 := by
  have v : (⟨0x3e800000#32⟩ : F32).val = 1 / 4 := by rw [val_of_units (u := 2 ^ 147) (by decide +kernel)]; norm_num
  have w : (⟨0x3f800000#32⟩ : F32).val = 1 := by rw [val_of_units (u := 2 ^ 149) (by decide +kernel)]; norm_num
  exact C161_range (by decide) (by rw [v]; norm_num) (by rw [v]; norm_num) (by norm_num) (by norm_num) l hl (by decide)
    (by rw [w]; norm_num) (by rw [w])

end Micromath.Props
