import Verif.Props.ExpMono
import Verif.Props.EuclidAll
import Verif.Props.NearMono
import Verif.Props.LogAll
import Verif.Props.Powf

/-!
# C134: order of `exp` on all arguments, of `cosh`, `log2`, `log10`, `log` and `powf`
-/

set_option exponentiation.threshold 1000

namespace Micromath.Props
open F32 Spec RealAux
variable [Cfg]

/-! ### The real function behind `exp` -/

omit [Cfg] in
theorem T4Q_slope {g h : ℚ} (hg : |g| ≤ 7 / 10) (hh : |h| ≤ 7 / 10) (hle : g ≤ h) :
    0 ≤ T4Q h - T4Q g ∧ T4Q h - T4Q g ≤ 2.01 * (h - g) := by
  have e : T4Q h - T4Q g = (h - g) * (1 + (g + h) / 2 + (g ^ 2 + g * h + h ^ 2) / 6 + (g + h) * (g ^ 2 + h ^ 2) / 24) := by
    unfold T4Q; ring
  obtain ⟨a1, a2⟩ := abs_le.1 hg
  obtain ⟨b1, b2⟩ := abs_le.1 hh
  have q1 : g ^ 2 ≤ 49 / 100 := by nlinarith
  have q2 : h ^ 2 ≤ 49 / 100 := by nlinarith
  have q3 : 0 ≤ g ^ 2 + g * h + h ^ 2 := by nlinarith [sq_nonneg (g + h), sq_nonneg (g - h)]
  have q4 : g ^ 2 + g * h + h ^ 2 ≤ 147 / 100 := by nlinarith [sq_nonneg (g - h)]
  have s0 : 0 ≤ g ^ 2 + h ^ 2 := by positivity
  have q5 : |(g + h) * (g ^ 2 + h ^ 2)| ≤ 14 / 10 * (98 / 100) := by
    rw [abs_mul, abs_of_nonneg s0]
    exact mul_le_mul (by rw [abs_le]; constructor <;> linarith) (by linarith) s0 (by norm_num)
  obtain ⟨c1, c2⟩ := abs_le.1 q5
  have d : 0 ≤ h - g := by linarith
  rw [e]
  constructor
  · refine mul_nonneg d ?_
    norm_num at c1 ⊢; linarith
  · rw [mul_comm (2.01 : ℚ)]
    refine mul_le_mul_of_nonneg_left ?_ d
    norm_num at c2 ⊢; linarith

/-- `ln 2` as the crate has it. -/
def cL : ℚ := 1453635 / 2097152

/-- The exact function that `exp` computes up to rounding, of the argument in powers of two. -/
def wQ (Y : ℚ) : ℚ := T4Q ((Y - intPart Y) * cL) * 2 ^ intPart Y

omit [Cfg] in
theorem intPart_frac (Y : ℚ) : |Y - intPart Y| ≤ 1 ∧ (0 ≤ Y → 0 ≤ Y - intPart Y) ∧ (Y ≤ 0 → Y - intPart Y ≤ 0) := by
  unfold intPart
  split
  · rename_i h
    have h1 := Int.floor_le Y
    have h2 := Int.lt_floor_add_one Y
    refine ⟨by rw [abs_le]; constructor <;> linarith, fun _ => by linarith, fun h' => ?_⟩
    have : Y = 0 := le_antisymm h' h
    rw [this]; simp
  · rename_i h
    have h1 := Int.le_ceil Y
    have h2 := Int.ceil_lt_add_one Y
    exact ⟨by rw [abs_le]; constructor <;> linarith, fun h' => absurd h' h, fun _ => by linarith⟩

omit [Cfg] in
theorem intPart_mono {X Y : ℚ} (h : X ≤ Y) : intPart X ≤ intPart Y := by
  unfold intPart
  split_ifs with h1 h2 h2
  · exact Int.floor_le_floor h
  · exact absurd (h1.trans h) h2
  · have a : ⌈X⌉ ≤ 0 := Int.ceil_le.2 (by push_cast; linarith)
    exact a.trans (Int.floor_nonneg.2 h2)
  · exact Int.ceil_le_ceil h

omit [Cfg] in
theorem wQ_arg {Y : ℚ} : |(Y - intPart Y) * cL| ≤ cL := by
  have h0 : (0 : ℚ) ≤ cL := by norm_num [cL]
  rw [abs_mul, abs_of_nonneg h0]
  exact mul_le_of_le_one_left h0 (intPart_frac Y).1

omit [Cfg] in
theorem T4Q_range {g : ℚ} (h : |g| ≤ cL) : 1 / 2 ≤ T4Q g ∧ T4Q g ≤ 2 ∧ (0 ≤ g → 1 ≤ T4Q g) ∧ (g ≤ 0 → T4Q g ≤ 1) := by
  have hc : cL ≤ 7 / 10 := by norm_num [cL]
  have hc0 : (0 : ℚ) ≤ cL := by norm_num [cL]
  have hg := h.trans hc
  obtain ⟨a, b⟩ := abs_le.1 h
  have l := (T4Q_slope (g := -cL) (h := g) (by rw [abs_neg, abs_of_nonneg hc0]; exact hc) hg a).1
  have u := (T4Q_slope (g := g) (h := cL) hg (by rw [abs_of_nonneg hc0]; exact hc) b).1
  have l0 : 1 / 2 ≤ T4Q (-cL) := by norm_num [cL, T4Q]
  have u0 : T4Q cL ≤ 2 := by norm_num [cL, T4Q]
  have z : T4Q 0 = 1 := by norm_num [T4Q]
  refine ⟨by linarith, by linarith, fun h' => ?_, fun h' => ?_⟩
  · have := (T4Q_slope (g := 0) (h := g) (by norm_num) hg h').1
    linarith
  · have := (T4Q_slope (g := g) (h := 0) hg (by norm_num) h').1
    linarith

omit [Cfg] in
theorem wQ_pos (Y : ℚ) : 0 < wQ Y := by
  unfold wQ
  have := (T4Q_range (wQ_arg (Y := Y))).1
  exact mul_pos (by linarith) (by positivity)

omit [Cfg] in
theorem wQ_mono {X Y : ℚ} (h : X ≤ Y) : wQ X ≤ wQ Y := by
  have hc : cL ≤ 7 / 10 := by norm_num [cL]
  have hc0 : (0 : ℚ) ≤ cL := by norm_num [cL]
  obtain ⟨-, fx1, fx2⟩ := intPart_frac X
  obtain ⟨-, fy1, fy2⟩ := intPart_frac Y
  have ax := wQ_arg (Y := X)
  have ay := wQ_arg (Y := Y)
  obtain ⟨x1, x2, x3, x4⟩ := T4Q_range ax
  obtain ⟨y1, y2, y3, y4⟩ := T4Q_range ay
  unfold wQ
  rcases eq_or_lt_of_le (intPart_mono h) with he | hlt
  · rw [← he] at ay ⊢
    refine mul_le_mul_of_nonneg_right ?_ (by positivity)
    have := (T4Q_slope (ax.trans hc) (ay.trans hc) (mul_le_mul_of_nonneg_right (by linarith) hc0)).1
    linarith
  · have hp : (2 : ℚ) * 2 ^ intPart X ≤ 2 ^ intPart Y := by
      calc (2 : ℚ) * 2 ^ intPart X = 2 ^ (intPart X + 1) := by rw [zpow_add₀ (by norm_num), zpow_one, mul_comm]
        _ ≤ _ := zpow_le_zpow_right₀ (by norm_num) hlt
    have p0 : (0 : ℚ) < 2 ^ intPart X := by positivity
    have p1 : (0 : ℚ) < 2 ^ intPart Y := by positivity
    rcases le_total 0 X with hX | hX
    · have := y3 (mul_nonneg (fy1 (hX.trans h)) hc0)
      nlinarith
    · have := x4 (mul_nonpos_of_nonpos_of_nonneg (fx2 hX) hc0)
      nlinarith

/-! ### `exp` against it -/

omit [Cfg] in
theorem wQ_near_one {Y : ℚ} (h1 : 1.4426947 ≤ Y) (h2 : Y ≤ 1.4426953) : 2.7182327 ≤ wQ Y ∧ wQ Y ≤ 2.7182354 := by
  have f1 : intPart 1.4426947 = 1 := by
    rw [intPart, if_pos (by norm_num), Int.floor_eq_iff]; norm_num
  have f2 : intPart 1.4426953 = 1 := by
    rw [intPart, if_pos (by norm_num), Int.floor_eq_iff]; norm_num
  have a := wQ_mono h1
  have b := wQ_mono h2
  have a' : 2.7182327 ≤ wQ 1.4426947 := by rw [wQ, f1]; norm_num [T4Q, cL]
  have b' : wQ 1.4426953 ≤ 2.7182354 := by rw [wQ, f2]; norm_num [T4Q, cL]
  exact ⟨a'.trans a, b.trans b'⟩

omit [Cfg] in
theorem wQ_near_neg_one {Y : ℚ} (h1 : -1.4426953 ≤ Y) (h2 : Y ≤ -1.4426947) : 0.36788995 ≤ wQ Y ∧ wQ Y ≤ 0.3678904 := by
  have f1 : intPart (-1.4426947) = -1 := by
    rw [intPart, if_neg (by norm_num), Int.ceil_eq_iff]; norm_num
  have f2 : intPart (-1.4426953) = -1 := by
    rw [intPart, if_neg (by norm_num), Int.ceil_eq_iff]; norm_num
  have a := wQ_mono h1
  have b := wQ_mono h2
  have a' : 0.36788995 ≤ wQ (-1.4426953) := by rw [wQ, f2]; norm_num [T4Q, cL]
  have b' : wQ (-1.4426947) ≤ 0.3678904 := by rw [wQ, f1]; norm_num [T4Q, cL]
  exact ⟨a'.trans a, b.trans b'⟩

theorem exp_wave {x : F32} (hx : x.isFinite = true) (h1 : -87.3 ≤ x.val) (h2 : x.val ≤ 88.7) :
    ∃ r, x.exp = .ok r ∧ r.isFinite = true ∧ |r.val - wQ (RN (x.val * LOG2_E.val))| ≤ 3.2 / 10 ^ 5 * wQ (RN (x.val * LOG2_E.val)) ∧
      ((1 : ℚ) / 2 ^ 23 ≤ |(|x.val| - 1)| → |r.val - wQ (RN (x.val * LOG2_E.val))| ≤ 2.2 / 10 ^ 6 * wQ (RN (x.val * LOG2_E.val))) := by
  have hL : LN_2.val = cL := val_LN_2
  have hq : |x.val * LOG2_E.val| ≤ 2 ^ (7 : Int) := by
    rw [val_LOG2_E, abs_le]; norm_num at h1 h2 ⊢; constructor <;> linarith
  obtain ⟨fy, vy⟩ := mul_val hx fin_LOG2_E (lt_of_le_of_lt hq (by norm_num [ovf]))
  have er := RN_err_abs (by norm_num) hq
  have eY : |RN (x.val * LOG2_E.val) - x.val * (12102203 / 8388608)| ≤ 1 / 2 ^ 18 := by
    have e' : LOG2_E.val = 12102203 / 8388608 := val_LOG2_E
    rw [e'] at er ⊢; norm_num at er ⊢; exact er
  obtain ⟨Y, hY⟩ : ∃ Y, Y = RN (x.val * LOG2_E.val) := ⟨_, rfl⟩
  rw [← hY] at eY vy ⊢
  obtain ⟨y1, y2⟩ := abs_le.1 eY
  have wp := wQ_pos Y
  by_cases hs : expSpecial x
  · -- the shortcuts
    have key : ∀ {r : F32}, x.exp = .ok r → r.isFinite = true → |r.val - wQ Y| ≤ 3.2 / 10 ^ 5 * wQ Y →
        (|(|x.val| - 1)| < 1 / 2 ^ 23 ∨ r.val = wQ Y) → ∃ r, x.exp = .ok r ∧ r.isFinite = true ∧ |r.val - wQ Y| ≤ 3.2 / 10 ^ 5 * wQ Y ∧
        ((1 : ℚ) / 2 ^ 23 ≤ |(|x.val| - 1)| → |r.val - wQ Y| ≤ 2.2 / 10 ^ 6 * wQ Y) := by
      intro r e f a b
      refine ⟨r, e, f, a, fun h => ?_⟩
      rcases b with b | b
      · exact absurd h (not_le.2 b)
      · rw [b, sub_self, abs_zero]; positivity
    rcases expSpecial_val hx hs with ⟨hv, he⟩ | ⟨hv, he⟩ | ⟨hv, he⟩
    · have hw : wQ Y = 1 := by
        rw [hY, hv, zero_mul, RN_zero]; norm_num [wQ, intPart, T4Q]
      have v1 : ONE.val = 1 := val_one
      exact key he fin_one (by rw [hw, v1]; norm_num) (.inr (by rw [hw, v1]))
    · have hv' := abs_lt.1 hv
      have x0 : 0 < x.val := by norm_num at hv'; linarith [hv'.1]
      have er' := RN_err_abs (q := x.val * LOG2_E.val) (e := 1) (by norm_num) (by
        rw [val_LOG2_E, abs_le]; norm_num at hv' ⊢; constructor <;> linarith [hv'.1, hv'.2])
      rw [← hY, val_LOG2_E, abs_le] at er'
      norm_num at er' hv'
      obtain ⟨w1, w2⟩ := wQ_near_one (Y := Y) (by norm_num; linarith [er'.1]) (by norm_num; linarith [er'.2])
      refine key he fin_E ?_ (.inl (by rw [abs_of_pos x0]; exact hv))
      rw [val_E, abs_le]
      norm_num at w1 w2 ⊢
      constructor <;> linarith
    · have hv' := abs_lt.1 hv
      have x0 : x.val < 0 := by norm_num at hv'; linarith [hv'.2]
      have er' := RN_err_abs (q := x.val * LOG2_E.val) (e := 1) (by norm_num) (by
        rw [val_LOG2_E, abs_le]; norm_num at hv' ⊢; constructor <;> linarith [hv'.1, hv'.2])
      rw [← hY, val_LOG2_E, abs_le] at er'
      norm_num at er' hv'
      obtain ⟨w1, w2⟩ := wQ_near_neg_one (Y := Y) (by norm_num; linarith [er'.1]) (by norm_num; linarith [er'.2])
      have hq : ONE / E = ⟨0x3ebc5ab2#32⟩ := eval_eq (n := 0x3ebc5ab2) (by kernel_rfl)
      have hv0 : (⟨0x3ebc5ab2#32⟩ : F32).val = 6171993 / 16777216 := by
        rw [val_of_units (u := 6171993 * 2 ^ 125) (by decide +kernel)]; norm_num
      rw [hq] at he
      refine key he (by decide) ?_ (.inl (by
        rw [abs_of_neg x0, show -x.val - 1 = -(x.val + 1) by ring, abs_neg]; exact hv))
      rw [hv0, abs_le]
      norm_num at w1 w2 ⊢
      constructor <;> linarith
  · obtain ⟨r, G, P, he, ⟨fr, vr⟩, eP, eG, bG⟩ := exp_main hs ⟨fy, vy⟩ (by norm_num at h1 y1; linarith) (by norm_num at h2 y2; linarith)
    have hwP : |P - T4Q ((Y - intPart Y) * cL)| ≤ 1.1 / 10 ^ 6 := by
      rw [hL] at eG
      have b1 : |G| ≤ 7 / 10 := bG.trans (by norm_num)
      have b2 : |(Y - intPart Y) * cL| ≤ 7 / 10 := wQ_arg.trans (by norm_num [cL])
      have lip : |T4Q G - T4Q ((Y - intPart Y) * cL)| ≤ 2.01 * (1 / 2 ^ 25) := by
        rcases le_total G ((Y - intPart Y) * cL) with h | h
        · obtain ⟨u, v⟩ := T4Q_slope b1 b2 h
          rw [abs_sub_comm, abs_of_nonneg u]
          rw [abs_sub_comm, abs_of_nonneg (by linarith)] at eG
          linarith
        · obtain ⟨u, v⟩ := T4Q_slope b2 b1 h
          rw [abs_of_nonneg u]
          rw [abs_of_nonneg (by linarith)] at eG
          linarith
      refine (abs_sub_le _ _ _).trans ((add_le_add eP lip).trans (by norm_num))
    have main : |r.val - wQ Y| ≤ 2.2 / 10 ^ 6 * wQ Y := by
      have p0 : (0 : ℚ) < 2 ^ intPart Y := by positivity
      have l := (T4Q_range (wQ_arg (Y := Y))).1
      unfold wQ
      rw [vr, ← sub_mul, abs_mul, abs_of_pos p0, ← mul_assoc]
      refine mul_le_mul_of_nonneg_right (hwP.trans ?_) p0.le
      norm_num at l ⊢; linarith
    exact ⟨r, he, fr, main.trans (mul_le_mul_of_nonneg_right (by norm_num) wp.le), fun _ => main⟩

/-! ### Order of `exp` -/

/-- **C134, `exp`.** On the whole normal range, `x <= y` gives `exp x <= exp y (1 + 6.5e-5)`; if neither argument is within
`2^-23` of `1` or `-1`, where the shortcuts lie, the excess is at most `4.5e-6`, relatively. -/
theorem C134_exp {x y : F32} (hx : x.isFinite = true) (hy : y.isFinite = true) (h1 : -87.3 ≤ x.val) (h2 : y.val ≤ 88.7)
    (h : x.val ≤ y.val) :
    ∃ r s, x.exp = .ok r ∧ y.exp = .ok s ∧ r.isFinite = true ∧ s.isFinite = true ∧ 0 < s.val ∧ r.val ≤ s.val * (1 + 6.5 / 10 ^ 5) ∧
      ((1 : ℚ) / 2 ^ 23 ≤ |(|x.val| - 1)| → (1 : ℚ) / 2 ^ 23 ≤ |(|y.val| - 1)| → r.val ≤ s.val * (1 + 4.5 / 10 ^ 6)) := by
  obtain ⟨r, e1, f1, a1, b1⟩ := exp_wave hx h1 (h.trans h2)
  obtain ⟨s, e2, f2, a2, b2⟩ := exp_wave hy (h1.trans h) h2
  have m := wQ_mono (RN_mono (mul_le_mul_of_nonneg_right h (show 0 ≤ LOG2_E.val by rw [val_LOG2_E]; norm_num)))
  have p1 := wQ_pos (RN (x.val * LOG2_E.val))
  generalize wQ (RN (x.val * LOG2_E.val)) = u at *
  generalize wQ (RN (y.val * LOG2_E.val)) = v at *
  have a1' := abs_le.1 a1
  have a2' := abs_le.1 a2
  norm_num at a1' a2'
  refine ⟨r, s, e1, e2, f1, f2, by linarith, by norm_num; linarith, fun c1 c2 => ?_⟩
  have b1' := abs_le.1 (b1 c1)
  have b2' := abs_le.1 (b2 c2)
  norm_num at b1' b2' ⊢
  linarith

theorem exp_neg_a : (⟨0xbf23415e#32⟩ : F32).exp = .ok ⟨0x3f077fa6#32⟩ := by
  refine eq_of_okBits ?_
  rename_i i
  obtain ⟨oc, da, nop, hn, nc, hc, sz, hs⟩ := i
  cases da <;> kernel_rfl

theorem exp_neg_b : (⟨0xbf23415d#32⟩ : F32).exp = .ok ⟨0x3f077fa5#32⟩ := by
  refine eq_of_okBits ?_
  rename_i i
  obtain ⟨oc, da, nop, hn, nc, hc, sz, hs⟩ := i
  cases da <;> kernel_rfl

/-- **C134.** The tolerance cannot be dropped: on negative arguments `exp` decreases in places. -/
theorem C134_exp_false : ∃ x y r s : F32, x.lt y = true ∧ y.lt ZERO = true ∧ x.exp = .ok r ∧ y.exp = .ok s ∧ s.lt r = true :=
  ⟨_, _, _, _, by decide, by decide, exp_neg_a, exp_neg_b, by decide⟩

/-! ### Order of `cosh` -/

omit [Cfg] in
theorem wQ_even_mono {X Y : ℚ} (h0 : 0 ≤ X) (h : X ≤ Y) : wQ X + wQ (-X) ≤ wQ Y + wQ (-Y) := by
  have hc : cL ≤ 7 / 10 := by norm_num [cL]
  have hc0 : (0 : ℚ) ≤ cL := by norm_num [cL]
  have even : ∀ {g k : ℚ}, 0 ≤ g → g ≤ k → T4Q g + T4Q (-g) ≤ T4Q k + T4Q (-k) := by
    intro g k a b
    have q : g ^ 2 ≤ k ^ 2 := by nlinarith
    have q' : g ^ 4 ≤ k ^ 4 := by nlinarith [sq_nonneg g, sq_nonneg k]
    unfold T4Q; linarith
  have form : ∀ Z : ℚ, wQ (-Z) = T4Q (-((Z - intPart Z) * cL)) * (2 ^ intPart Z)⁻¹ := by
    intro Z
    have e : intPart (-Z) = -intPart Z := intPart_neg Z
    unfold wQ
    rw [e, zpow_neg]
    push_cast
    congr 2; ring
  have inc : ∀ {g k P : ℚ}, 1 ≤ P → 0 ≤ g → g ≤ k → k ≤ cL → T4Q g * P + T4Q (-g) * P⁻¹ ≤ T4Q k * P + T4Q (-k) * P⁻¹ := by
    intro g k P hP a b c
    have s := (T4Q_slope (g := g) (h := k) (by rw [abs_of_nonneg a]; linarith) (by rw [abs_of_nonneg (a.trans b)]; linarith) b).1
    have t := (T4Q_slope (g := -k) (h := -g) (by rw [abs_neg, abs_of_nonneg (a.trans b)]; linarith)
      (by rw [abs_neg, abs_of_nonneg a]; linarith) (by linarith)).1
    have v := even a b
    have i1 : P⁻¹ ≤ P := (inv_le_one_of_one_le₀ hP).trans hP
    have : (T4Q (-g) - T4Q (-k)) * P⁻¹ ≤ (T4Q k - T4Q g) * P :=
      mul_le_mul (by linarith) i1 (by positivity) s
    linarith
  have i0 : 0 ≤ intPart X := by
    unfold intPart; rw [if_pos h0]; exact Int.floor_nonneg.2 h0
  have P1 : (1 : ℚ) ≤ 2 ^ intPart X := one_le_zpow₀ (by norm_num) i0
  obtain ⟨-, fx, -⟩ := intPart_frac X
  obtain ⟨-, fy, -⟩ := intPart_frac Y
  have gx0 : 0 ≤ (X - intPart X) * cL := mul_nonneg (fx h0) hc0
  have gy0 : 0 ≤ (Y - intPart Y) * cL := mul_nonneg (fy (h0.trans h)) hc0
  have gx1 := (le_abs_self _).trans (wQ_arg (Y := X))
  have gy1 := (le_abs_self _).trans (wQ_arg (Y := Y))
  rw [form X, form Y]
  show T4Q ((X - intPart X) * cL) * 2 ^ intPart X + _ ≤ T4Q ((Y - intPart Y) * cL) * 2 ^ intPart Y + _
  rcases eq_or_lt_of_le (intPart_mono h) with he | hlt
  · rw [← he] at gy0 gy1 ⊢
    exact inc P1 gx0 (mul_le_mul_of_nonneg_right (by linarith) hc0) gy1
  · have l := inc P1 gx0 gx1 le_rfl
    have P2 : (2 : ℚ) * 2 ^ intPart X ≤ 2 ^ intPart Y := by
      calc (2 : ℚ) * 2 ^ intPart X = 2 ^ (intPart X + 1) := by rw [zpow_add₀ (by norm_num), zpow_one, mul_comm]
        _ ≤ _ := zpow_le_zpow_right₀ (by norm_num) hlt
    generalize (2 : ℚ) ^ intPart X = P at *
    generalize (2 : ℚ) ^ intPart Y = Q at *
    have r := inc (P := Q) (by linarith) le_rfl gy0 gy1
    have z : T4Q 0 = 1 := by norm_num [T4Q]
    have z' : T4Q (-0) = 1 := by norm_num [T4Q]
    have t1 : T4Q cL ≤ 1.9986 := by norm_num [T4Q, cL]
    have t2 : T4Q (-cL) ≤ 0.5013 := by norm_num [T4Q, cL]
    rw [z, z'] at r
    have iP : P⁻¹ ≤ 1 := inv_le_one_of_one_le₀ P1
    have iP0 : 0 < P⁻¹ := by positivity
    have sq : Q + Q⁻¹ ≥ 2 * P + P⁻¹ / 2 := by
      have Q0 : 0 < Q := by linarith
      have d : Q + Q⁻¹ - (2 * P + P⁻¹ / 2) = (Q - 2 * P) * (1 - Q⁻¹ * P⁻¹ / 2) := by
        field_simp
        ring
      have iQ : Q⁻¹ ≤ 1 := inv_le_one_of_one_le₀ (by linarith)
      have iQ0 : 0 < Q⁻¹ := by positivity
      have : Q⁻¹ * P⁻¹ ≤ 1 := by nlinarith
      have : 0 ≤ (Q - 2 * P) * (1 - Q⁻¹ * P⁻¹ / 2) := mul_nonneg (by linarith) (by linarith)
      linarith
    norm_num at t1 t2
    nlinarith

theorem cosh_wave {x : F32} (hx : x.isFinite = true) (h1 : |x.val| ≤ 87.3) :
    ∃ r, x.cosh = .ok r ∧ r.isFinite = true ∧
      |r.val - (wQ (RN (|x.val| * LOG2_E.val)) + wQ (-RN (|x.val| * LOG2_E.val))) / 2| ≤
        3.22 / 10 ^ 5 * ((wQ (RN (|x.val| * LOG2_E.val)) + wQ (-RN (|x.val| * LOG2_E.val))) / 2) ∧
      ((1 : ℚ) / 2 ^ 23 ≤ |(|x.val| - 1)| →
        |r.val - (wQ (RN (|x.val| * LOG2_E.val)) + wQ (-RN (|x.val| * LOG2_E.val))) / 2| ≤
          2.4 / 10 ^ 6 * ((wQ (RN (|x.val| * LOG2_E.val)) + wQ (-RN (|x.val| * LOG2_E.val))) / 2)) := by
  obtain ⟨k1, k2⟩ := abs_le.1 h1
  have fn : (-x).isFinite = true := by rw [isFinite_neg]; exact hx
  obtain ⟨a, ea, fa, wa, wa'⟩ := exp_wave hx k1 (k2.trans (by norm_num))
  obtain ⟨b, eb, fb, wb, wb'⟩ := exp_wave fn (by rw [val_neg]; linarith) (by rw [val_neg]; norm_num at k1 ⊢; linarith)
  rw [val_neg, abs_neg, neg_mul, RN_neg] at wb'
  rw [val_neg, neg_mul, RN_neg] at wb
  have sym : wQ (RN (|x.val| * LOG2_E.val)) + wQ (-RN (|x.val| * LOG2_E.val)) =
      wQ (RN (x.val * LOG2_E.val)) + wQ (-RN (x.val * LOG2_E.val)) := by
    rcases le_total 0 x.val with h | h
    · rw [abs_of_nonneg h]
    · rw [abs_of_nonpos h, neg_mul, RN_neg, neg_neg, add_comm]
  have qb : |RN (x.val * LOG2_E.val)| ≤ 126 := by
    refine abs_RN_le_of_rep (by exact_mod_cast rep_int (m := 126) (by norm_num)) ?_
    rw [val_LOG2_E, abs_mul]; norm_num at h1 ⊢; linarith
  rw [sym]
  generalize RN (x.val * LOG2_E.val) = Y at *
  have up : ∀ {Z : ℚ}, |Z| ≤ 126 → wQ Z ≤ 2 ^ 126 := by
    intro Z hZ
    have e : intPart (126 : ℚ) = 126 := by rw [intPart, if_pos (by norm_num)]; exact_mod_cast Int.floor_natCast 126
    have := wQ_mono ((le_abs_self Z).trans hZ)
    refine this.trans ?_
    rw [wQ, e]
    norm_num [T4Q]
  have u1 := up qb
  have u2 := up (Z := -Y) (by rw [abs_neg]; exact qb)
  have p1 := wQ_pos Y
  have p2 := wQ_pos (-Y)
  have low : 2 ≤ wQ Y + wQ (-Y) := by
    have z : wQ 0 = 1 := by norm_num [wQ, intPart, T4Q]
    have := wQ_even_mono le_rfl (abs_nonneg Y)
    rw [neg_zero, z] at this
    rcases abs_cases Y with ⟨e, -⟩ | ⟨e, -⟩
    · rw [e] at this; linarith
    · rw [e, neg_neg] at this; linarith
  generalize wQ Y = u at *
  generalize wQ (-Y) = v at *
  obtain ⟨a1, a2⟩ := abs_le.1 wa
  obtain ⟨b1, b2⟩ := abs_le.1 wb
  have two : (lit 2 1).isFinite = true ∧ (lit 2 1).val = 2 := by
    constructor
    · decide +kernel
    · rw [val_of_units (u := 2 * 2 ^ 149) (by decide +kernel)]; norm_num
  have s0 : 0 < a.val + b.val := by norm_num at a1 b1; linarith
  have hov : |a.val + b.val| < ovf := by
    rw [abs_of_pos s0]
    norm_num at a2 b2
    refine lt_of_le_of_lt (show a.val + b.val ≤ 2 * 1.1 * 2 ^ 126 by norm_num at u1 u2 ⊢; linarith) (by norm_num [ovf])
  obtain ⟨d, hd, fs, vs⟩ := add_rel fa fb hov
  have d' := abs_le.1 hd
  norm_num at d'
  have sv : 1.9 ≤ (a + b).val ∧ (a + b).val ≤ 2.3 * 2 ^ 126 := by
    rw [vs]
    norm_num at a1 a2 b1 b2 u1 u2 ⊢
    constructor <;> nlinarith
  have hq : |(a + b).val / (lit 2 1).val| = (a + b).val / 2 := by
    rw [two.2, abs_of_pos]; norm_num at sv ⊢; linarith
  obtain ⟨d2, hd2, fr, vr⟩ := div_rel fs two.1 (by rw [two.2]; norm_num) (by rw [hq]; norm_num at sv ⊢; linarith)
    (by rw [hq]; refine lt_of_le_of_lt (show (a + b).val / 2 ≤ 1.15 * 2 ^ 126 by norm_num at sv ⊢; linarith) (by norm_num [ovf]))
  have d2' := abs_le.1 hd2
  norm_num at d2'
  have step : ∀ {δ : ℚ}, 0 ≤ δ → δ ≤ 1 / 1000 → |a.val - u| ≤ δ * u → |b.val - v| ≤ δ * v →
      |((a + b) / lit 2 1).val - (u + v) / 2| ≤ (δ + 1.3 / 10 ^ 7) * ((u + v) / 2) := by
    intro δ h0 hδ ha hb
    have ha' := abs_le.1 ha
    have hb' := abs_le.1 hb
    rw [vr, vs, two.2]
    have e : (a.val + b.val) * (1 + d) / 2 * (1 + d2) - (u + v) / 2 =
        ((a.val - u) + (b.val - v)) / 2 + (a.val + b.val) / 2 * (d + d2 + d * d2) := by ring
    have dd : |d + d2 + d * d2| ≤ 1.21 / 10 ^ 7 := by
      have : |d * d2| ≤ 1 / 2 ^ 24 * (1 / 2 ^ 24) := by
        rw [abs_mul]; exact mul_le_mul hd hd2 (abs_nonneg _) (by norm_num)
      have t := abs_le.1 this
      norm_num at t
      rw [abs_le]; norm_num; constructor <;> linarith
    have t1 : |((a.val - u) + (b.val - v)) / 2| ≤ δ * ((u + v) / 2) := by
      rw [abs_le]; constructor <;> linarith
    have t2 : |(a.val + b.val) / 2 * (d + d2 + d * d2)| ≤ (1.01 * ((u + v) / 2)) * (1.21 / 10 ^ 7) := by
      rw [abs_mul, abs_of_pos (by linarith)]
      refine mul_le_mul ?_ dd (abs_nonneg _) (by linarith)
      nlinarith
    rw [e]
    refine (abs_add_le _ _).trans ((add_le_add t1 t2).trans ?_)
    norm_num; linarith
  refine ⟨(a + b) / lit 2 1, by rw [cosh_eq, ea, ok_bind, eb, ok_bind], fr, ?_, fun h => ?_⟩
  · refine (step (δ := 3.2 / 10 ^ 5) (by norm_num) (by norm_num) wa wb).trans (mul_le_mul_of_nonneg_right (by norm_num) (by linarith))
  · refine (step (δ := 2.2 / 10 ^ 6) (by norm_num) (by norm_num) (wa' h) (wb' h)).trans
      (mul_le_mul_of_nonneg_right (by norm_num) (by linarith))

/-- **C134, `cosh`.** For `|x| <= |y| <= 87.3`, `cosh x <= cosh y (1 + 6.5e-5)`; if neither modulus is within `2^-23` of one, the
excess is at most `5e-6`, relatively. -/
theorem C134_cosh {x y : F32} (hx : x.isFinite = true) (hy : y.isFinite = true) (h1 : |y.val| ≤ 87.3) (h : |x.val| ≤ |y.val|) :
    ∃ r s, x.cosh = .ok r ∧ y.cosh = .ok s ∧ r.isFinite = true ∧ s.isFinite = true ∧ 0 < s.val ∧ r.val ≤ s.val * (1 + 6.5 / 10 ^ 5) ∧
      ((1 : ℚ) / 2 ^ 23 ≤ |(|x.val| - 1)| → (1 : ℚ) / 2 ^ 23 ≤ |(|y.val| - 1)| → r.val ≤ s.val * (1 + 5 / 10 ^ 6)) := by
  obtain ⟨r, e1, f1, a1, b1⟩ := cosh_wave hx (h.trans h1)
  obtain ⟨s, e2, f2, a2, b2⟩ := cosh_wave hy h1
  have L0 : 0 ≤ LOG2_E.val := by rw [val_LOG2_E]; norm_num
  have m := wQ_even_mono (RN_nonneg (mul_nonneg (abs_nonneg x.val) L0)) (RN_mono (mul_le_mul_of_nonneg_right h L0))
  have p1 := wQ_pos (RN (|x.val| * LOG2_E.val))
  have p2 := wQ_pos (-RN (|x.val| * LOG2_E.val))
  have p3 := add_pos p1 p2
  generalize wQ (RN (|x.val| * LOG2_E.val)) + wQ (-RN (|x.val| * LOG2_E.val)) = u at *
  generalize wQ (RN (|y.val| * LOG2_E.val)) + wQ (-RN (|y.val| * LOG2_E.val)) = v at *
  have a1' := abs_le.1 a1
  have a2' := abs_le.1 a2
  norm_num at a1' a2'
  refine ⟨r, s, e1, e2, f1, f2, by linarith, by norm_num; linarith, fun c1 c2 => ?_⟩
  have b1' := abs_le.1 (b1 c1)
  have b2' := abs_le.1 (b2 c2)
  norm_num at b1' b2' ⊢
  linarith

theorem exp_pos_a : (⟨0x3f000004#32⟩ : F32).exp = .ok ⟨0x3fd30004#32⟩ := by
  refine eq_of_okBits ?_
  rename_i i
  obtain ⟨oc, da, nop, hn, nc, hc, sz, hs⟩ := i
  cases da <;> kernel_rfl

theorem exp_pos_b : (⟨0x3f000005#32⟩ : F32).exp = .ok ⟨0x3fd30004#32⟩ := by
  refine eq_of_okBits ?_
  rename_i i
  obtain ⟨oc, da, nop, hn, nc, hc, sz, hs⟩ := i
  cases da <;> kernel_rfl

theorem exp_pos_a' : (⟨0xbf000004#32⟩ : F32).exp = .ok ⟨0x3f1b5553#32⟩ := by
  refine eq_of_okBits ?_
  rename_i i
  obtain ⟨oc, da, nop, hn, nc, hc, sz, hs⟩ := i
  cases da <;> kernel_rfl

theorem exp_pos_b' : (⟨0xbf000005#32⟩ : F32).exp = .ok ⟨0x3f1b5552#32⟩ := by
  refine eq_of_okBits ?_
  rename_i i
  obtain ⟨oc, da, nop, hn, nc, hc, sz, hs⟩ := i
  cases da <;> kernel_rfl

theorem cosh_a : (⟨0x3f000004#32⟩ : F32).cosh = .ok ⟨0x3f905557#32⟩ := by
  have h : ((⟨0x3fd30004#32⟩ : F32) + ⟨0x3f1b5553#32⟩) / lit 2 1 = ⟨0x3f905557#32⟩ := eval_eq (by kernel_rfl)
  rw [cosh_eq, exp_pos_a, ok_bind, show -(⟨0x3f000004#32⟩ : F32) = ⟨0xbf000004#32⟩ from by decide, exp_pos_a', ok_bind, h]

theorem cosh_b : (⟨0x3f000005#32⟩ : F32).cosh = .ok ⟨0x3f905556#32⟩ := by
  have h : ((⟨0x3fd30004#32⟩ : F32) + ⟨0x3f1b5552#32⟩) / lit 2 1 = ⟨0x3f905556#32⟩ := eval_eq (by kernel_rfl)
  rw [cosh_eq, exp_pos_b, ok_bind, show -(⟨0x3f000005#32⟩ : F32) = ⟨0xbf000005#32⟩ from by decide, exp_pos_b', ok_bind, h]

/-- **C134.** The tolerance cannot be dropped: `cosh` decreases in places on positive arguments. -/
theorem C134_cosh_false : ∃ x y r s : F32, ZERO.lt x = true ∧ x.lt y = true ∧ x.cosh = .ok r ∧ y.cosh = .ok s ∧ s.lt r = true :=
  ⟨_, _, _, _, by decide, by decide, cosh_a, cosh_b, by decide⟩

/-! ### Order of the logarithms -/

theorem ln_abs_le {x : F32} (hx : PosNormal x) : x.ln.isFinite = true ∧ |x.ln.val| ≤ 89 := by
  obtain ⟨δ, f, e, h1, -⟩ := ln_all hx
  have lX := log_normal hx
  have eu : errLn x.val ≤ 0.118 := by unfold errLn; split <;> norm_num
  refine ⟨f, ?_⟩
  have : |(x.ln.val : ℝ)| ≤ 89 := by
    have := abs_add_le ((x.ln.val : ℝ) - Real.log x.val) (Real.log x.val)
    rw [sub_add_cancel] at this
    norm_num at h1 lX eu; linarith
  exact_mod_cast this

theorem ln_of_gap {x y : F32} (hx : PosNormal x) (hy : PosNormal y) (h : x.toBits.toNat + 320 ≤ y.toBits.toNat) :
    x.ln.val ≤ y.ln.val :=
  ((lt_iff (ln_bits hx).1 (ln_bits hy).1).1 (C128_ln_strict hx hy h)).le

theorem ln_mul_val {x c : F32} (hx : PosNormal x) (hc : c.isFinite = true) (hb : |c.val| ≤ 2 ^ 20) :
    (c * x.ln).isFinite = true ∧ (c * x.ln).val = RN (c.val * x.ln.val) ∧ x.ln * c = c * x.ln := by
  obtain ⟨f, b⟩ := ln_abs_le hx
  obtain ⟨a1, a2⟩ := mul_val hc f (by
    rw [abs_mul]
    exact lt_of_le_of_lt (mul_le_mul hb b (abs_nonneg _) (by norm_num)) (by norm_num [ovf]))
  exact ⟨a1, a2, mul_comm_fin f hc⟩

/-- **C134, `log2`.** For positive normal `x` and `y`: `log2` does not decrease over `320` or more float steps, and for any
`x <= y`, `log2 x <= log2 y + 4.5e-5`. -/
theorem C134_log2 {x y : F32} (hx : PosNormal x) (hy : PosNormal y) :
    (x.toBits.toNat + 320 ≤ y.toBits.toNat → x.log2.le y.log2 = true) ∧
      (x.val ≤ y.val → x.log2.val ≤ y.log2.val + 4.5 / 10 ^ 5) := by
  have hb : |LOG2_E.val| ≤ 2 ^ 20 := by rw [val_LOG2_E]; norm_num
  have L0 : 0 ≤ LOG2_E.val := by rw [val_LOG2_E]; norm_num
  obtain ⟨f1, v1, c1⟩ := ln_mul_val hx fin_LOG2_E hb
  obtain ⟨f2, v2, c2⟩ := ln_mul_val hy fin_LOG2_E hb
  unfold F32.log2
  rw [c1, c2]
  constructor
  · intro h
    rw [le_iff f1 f2, v1, v2]
    exact RN_mono (mul_le_mul_of_nonneg_left (ln_of_gap hx hy h) L0)
  · intro h
    have l := C128_ln hx hy h
    have e : ∀ {z : F32}, PosNormal z → |RN (LOG2_E.val * z.ln.val) - LOG2_E.val * z.ln.val| ≤ 2 ^ ((8 : ℤ) - 25) := fun hz =>
      RN_err_abs (by norm_num) (by
        rw [abs_mul, val_LOG2_E]
        have := (ln_abs_le hz).2
        norm_num; linarith)
    have e1 := abs_le.1 (e hx)
    have e2 := abs_le.1 (e hy)
    rw [v1, v2]
    rw [val_LOG2_E] at *
    norm_num at e1 e2 l ⊢
    linarith

/-- **C134, `log10`.** For positive normal `x` and `y`: `log10` does not decrease over `320` or more float steps, and for any
`x <= y`, `log10 x <= log10 y + 1.3e-5`. -/
theorem C134_log10 {x y : F32} (hx : PosNormal x) (hy : PosNormal y) :
    (x.toBits.toNat + 320 ≤ y.toBits.toNat → x.log10.le y.log10 = true) ∧
      (x.val ≤ y.val → x.log10.val ≤ y.log10.val + 1.3 / 10 ^ 5) := by
  have hb : |LOG10_E.val| ≤ 2 ^ 20 := by rw [val_LOG10_E]; norm_num
  have L0 : 0 ≤ LOG10_E.val := by rw [val_LOG10_E]; norm_num
  obtain ⟨f1, v1, c1⟩ := ln_mul_val hx fin_LOG10_E hb
  obtain ⟨f2, v2, c2⟩ := ln_mul_val hy fin_LOG10_E hb
  unfold F32.log10
  rw [c1, c2]
  constructor
  · intro h
    rw [le_iff f1 f2, v1, v2]
    exact RN_mono (mul_le_mul_of_nonneg_left (ln_of_gap hx hy h) L0)
  · intro h
    have l := C128_ln hx hy h
    have e : ∀ {z : F32}, PosNormal z → |RN (LOG10_E.val * z.ln.val) - LOG10_E.val * z.ln.val| ≤ 2 ^ ((6 : ℤ) - 25) := fun hz =>
      RN_err_abs (by norm_num) (by
        rw [abs_mul, val_LOG10_E]
        have := (ln_abs_le hz).2
        norm_num; linarith)
    have e1 := abs_le.1 (e hx)
    have e2 := abs_le.1 (e hy)
    rw [v1, v2]
    rw [val_LOG10_E] at *
    norm_num at e1 e2 l ⊢
    linarith

theorem ln_ge_of_one_lt {b : F32} (hb : PosNormal b) (h : 1 < b.val) : 5 / 10 ^ 5 ≤ b.ln.val := by
  obtain ⟨hs, m1, m2⟩ := posNormal_mag hb
  have hm : 127 * 2 ^ 23 < b.mag := by
    have v0 : mval (127 * 2 ^ 23) = 1 := by rw [mval_pow (by norm_num)]; norm_num
    rw [val_of_pos hs, ← v0, ← not_le, mval_le, not_le] at h
    exact h
  rcases (ln_bits hb).2 with ⟨e, -⟩ | ⟨-, -, c⟩
  · have t := lnT_mono hm.le
    have q : (0 : ℚ) ≤ (((b.mag : ℚ)) - (127 * 2 ^ 23 : ℕ)) / 2 ^ 23 := by
      have : ((127 * 2 ^ 23 : ℕ) : ℚ) ≤ b.mag := by exact_mod_cast hm.le
      exact div_nonneg (by linarith) (by norm_num)
    rw [show lnT (127 * 2 ^ 23) = 8133 / 2 ^ 27 by rw [lnT, if_pos le_rfl, lnBits_one]] at t
    have e1 := (abs_le.1 e).1
    generalize ((b.mag : ℚ) - (127 * 2 ^ 23 : ℕ)) / 2 ^ 23 = d at t q
    norm_num at e1 t ⊢
    linarith
  · omega

theorem ln_le_of_lt_one {b : F32} (hb : PosNormal b) (h : b.val < 1 - 1 / 2 ^ 24) : b.ln.val ≤ -(5 / 10 ^ 5) := by
  obtain ⟨hs, m1, m2⟩ := posNormal_mag hb
  have hm : b.mag < 127 * 2 ^ 23 - 1 := by
    have v0 : mval (127 * 2 ^ 23 - 1) = 1 - 1 / 2 ^ 24 := by
      rw [mval, show magU (127 * 2 ^ 23 - 1) = (2 ^ 24 - 1) * 2 ^ 125 by decide +kernel]; norm_num
    rw [val_of_pos hs, ← v0, ← not_le, mval_le, not_le] at h
    exact h
  rcases (ln_bits hb).2 with ⟨e, -⟩ | ⟨-, c, -⟩
  · have t := lnBits_mono (m := 127 * 2 ^ 23) (n := 254 * 2 ^ 23 - b.mag) (by omega)
    rw [lnT, if_neg (by omega)] at e
    have q : (0 : ℚ) ≤ (((254 * 2 ^ 23 - b.mag : ℕ) : ℚ) - (127 * 2 ^ 23 : ℕ)) / 2 ^ 23 := by
      have k : 127 * 2 ^ 23 ≤ 254 * 2 ^ 23 - b.mag := by omega
      have : ((127 * 2 ^ 23 : ℕ) : ℚ) ≤ (254 * 2 ^ 23 - b.mag : ℕ) := by exact_mod_cast k
      exact div_nonneg (by linarith) (by norm_num)
    rw [lnBits_one] at t
    have e2 := (abs_le.1 e).2
    generalize (((254 * 2 ^ 23 - b.mag : ℕ) : ℚ) - (127 * 2 ^ 23 : ℕ)) / 2 ^ 23 = d at t q
    generalize lnBits (254 * 2 ^ 23 - b.mag) = k at t e2
    norm_num at e2 t ⊢
    linarith
  · omega

/-- **C134, `log`.** For positive normal `x` and `y` at least `320` float steps apart, `log` to a base above one does not
decrease, and to a base below the last float under one does not increase. -/
theorem C134_log {x y b : F32} (hx : PosNormal x) (hy : PosNormal y) (hb : PosNormal b)
    (h : x.toBits.toNat + 320 ≤ y.toBits.toNat) :
    (1 < b.val → (x.log b).le (y.log b) = true) ∧ (b.val < 1 - 1 / 2 ^ 24 → (y.log b).le (x.log b) = true) := by
  have hl := ln_of_gap hx hy h
  obtain ⟨fb, -⟩ := ln_abs_le hb
  have v1 : ONE.val = 1 := val_one
  have dv : 5 / 10 ^ 5 ≤ |b.ln.val| → (ONE / b.ln).isFinite = true ∧ (ONE / b.ln).val = RN (1 / b.ln.val) ∧ |(ONE / b.ln).val| ≤ 2 ^ 20 := by
    intro k
    have hq : |ONE.val / b.ln.val| ≤ 32768 := by
      rw [v1, abs_div, abs_one, div_le_iff₀ (by linarith)]; norm_num at k ⊢; linarith
    obtain ⟨f, v⟩ : (ONE / b.ln).isFinite = true ∧ (ONE / b.ln).val = RN (ONE.val / b.ln.val) := div_val fin_one fb (by intro h0; rw [h0] at k; norm_num at k) (lt_of_le_of_lt hq (by norm_num [ovf]))
    refine ⟨f, by rw [← v1]; exact v, ?_⟩
    rw [v]
    exact (abs_RN_le_of_rep (by exact_mod_cast rep_int (m := 32768) (by norm_num)) hq).trans (by norm_num)
  constructor
  · intro h1
    have k := ln_ge_of_one_lt hb h1
    obtain ⟨f, v, u⟩ := dv (k.trans (le_abs_self _))
    obtain ⟨g1, w1, -⟩ := ln_mul_val hx f u
    obtain ⟨g2, w2, -⟩ := ln_mul_val hy f u
    unfold F32.log
    rw [le_iff g1 g2, w1, w2]
    refine RN_mono (mul_le_mul_of_nonneg_left hl ?_)
    rw [v]
    exact RN_nonneg (by apply one_div_nonneg.2; linarith)
  · intro h1
    have k := ln_le_of_lt_one hb h1
    obtain ⟨f, v, u⟩ := dv (by rw [abs_of_neg (by linarith)]; linarith)
    obtain ⟨g1, w1, -⟩ := ln_mul_val hx f u
    obtain ⟨g2, w2, -⟩ := ln_mul_val hy f u
    unfold F32.log
    rw [le_iff g2 g1, w1, w2]
    refine RN_mono (mul_le_mul_of_nonpos_left hl ?_)
    rw [v]
    exact RN_nonpos (by apply one_div_nonpos.2; linarith)

/-! ### Order of `powf` -/

theorem powf_of_prod {x y n m : F32} (hx : PosNormal x) (hy : PosNormal y) (hn : n.isFinite = true) (hm : m.isFinite = true)
    (h1 : -87.29 ≤ n.val * x.ln.val) (h2 : m.val * y.ln.val ≤ 88.69) (h : n.val * x.ln.val ≤ m.val * y.ln.val) :
    ∃ r s, x.powf n = .ok r ∧ y.powf m = .ok s ∧ r.isFinite = true ∧ s.isFinite = true ∧ 0 < s.val ∧ r.val ≤ s.val * (1 + 6.5 / 10 ^ 5) := by
  have pos : ∀ {z : F32}, PosNormal z → 0 ≤ z.val := fun hz => le_trans (by norm_num) hz.2
  have b : ∀ {q : ℚ}, -87.29 ≤ q → q ≤ 88.69 → |q| < ovf ∧ -87.3 ≤ RN q ∧ RN q ≤ 88.7 := by
    intro q a c
    have hq : |q| ≤ 2 ^ (7 : ℤ) := by rw [abs_le]; norm_num at a c ⊢; constructor <;> linarith
    have e := abs_le.1 (RN_err_abs (by norm_num) hq)
    norm_num at e a c ⊢
    refine ⟨lt_of_le_of_lt hq (by norm_num [ovf]), by linarith, by linarith⟩
  obtain ⟨o1, l1, -⟩ := b h1 (h.trans h2)
  obtain ⟨o2, -, l2⟩ := b (h1.trans h) h2
  obtain ⟨f1, v1⟩ := mul_val hn (ln_abs_le hx).1 o1
  obtain ⟨f2, v2⟩ := mul_val hm (ln_abs_le hy).1 o2
  obtain ⟨r, s, e1, e2, g1, g2, p, l, -⟩ := C134_exp f1 f2 (by rw [v1]; exact l1) (by rw [v2]; exact l2) (by
    rw [v1, v2]; exact RN_mono h)
  exact ⟨r, s, by rw [powf_nonneg n hx.1 (pos hx)]; exact e1, by rw [powf_nonneg m hy.1 (pos hy)]; exact e2, g1, g2, p, l⟩

/-- **C134, `powf` in the exponent.** For a normal base of at least one, `n <= m` gives `x^n <= x^m (1 + 6.5e-5)`; for a base
below one the order is reversed. The products `n ln(x)` and `m ln(x)` are to lie in `[-87.29, 88.69]`. -/
theorem C134_powf_exponent {x n m : F32} (hx : PosNormal x) (hn : n.isFinite = true) (hm : m.isFinite = true) (h : n.val ≤ m.val)
    (a1 : -87.29 ≤ n.val * x.ln.val) (a2 : n.val * x.ln.val ≤ 88.69) (b1 : -87.29 ≤ m.val * x.ln.val) (b2 : m.val * x.ln.val ≤ 88.69) :
    ∃ r s, x.powf n = .ok r ∧ x.powf m = .ok s ∧ r.isFinite = true ∧ s.isFinite = true ∧ 0 < r.val ∧ 0 < s.val ∧
      (1 ≤ x.val → r.val ≤ s.val * (1 + 6.5 / 10 ^ 5)) ∧ (x.val ≤ 1 → s.val ≤ r.val * (1 + 6.5 / 10 ^ 5)) := by
  have zero : (1 - 1 / 2 ^ 24 ≤ x.val ∧ x.val ≤ 1) → x.ln.val = 0 := by
    rintro ⟨c1, c2⟩
    obtain ⟨hs, -, -⟩ := posNormal_mag hx
    have v0 : mval (127 * 2 ^ 23) = 1 := by rw [mval_pow (by norm_num)]; norm_num
    have v1 : mval (127 * 2 ^ 23 - 1) = 1 - 1 / 2 ^ 24 := by
      rw [mval, show magU (127 * 2 ^ 23 - 1) = (2 ^ 24 - 1) * 2 ^ 125 by decide +kernel]; norm_num
    rw [val_of_pos hs, ← v1, mval_le] at c1
    rw [val_of_pos hs, ← v0, mval_le] at c2
    rcases (ln_bits hx).2 with ⟨-, d | d⟩ | ⟨d, -⟩
    · omega
    · omega
    · exact d
  have up : 1 ≤ x.val → 0 ≤ x.ln.val := by
    intro k
    rcases eq_or_lt_of_le k with k | k
    · rw [zero ⟨by rw [← k]; norm_num, k.ge⟩]
    · exact le_trans (by norm_num) (ln_ge_of_one_lt hx k)
  have dn : x.val ≤ 1 → x.ln.val ≤ 0 := by
    intro k
    rcases le_or_gt (1 - 1 / 2 ^ 24) x.val with c | c
    · rw [zero ⟨c, k⟩]
    · exact (ln_le_of_lt_one hx c).trans (by norm_num)
  obtain ⟨r, -, e1, -, f1, -, -, -⟩ := powf_of_prod hx hx hn hn a1 a2 le_rfl
  obtain ⟨s, -, e2, -, f2, -, -, -⟩ := powf_of_prod hx hx hm hm b1 b2 le_rfl
  have pr : 0 < r.val := by
    obtain ⟨_, r', _, e, _, _, p, _⟩ := powf_of_prod hx hx hn hn a1 a2 le_rfl
    rw [e1] at e; injection e with e; rw [e]; exact p
  have ps : 0 < s.val := by
    obtain ⟨_, r', _, e, _, _, p, _⟩ := powf_of_prod hx hx hm hm b1 b2 le_rfl
    rw [e2] at e; injection e with e; rw [e]; exact p
  refine ⟨r, s, e1, e2, f1, f2, pr, ps, fun k => ?_, fun k => ?_⟩
  · obtain ⟨r', s', g1, g2, -, -, -, l⟩ := powf_of_prod hx hx hn hm a1 b2 (mul_le_mul_of_nonneg_right h (up k))
    rw [e1] at g1; rw [e2] at g2
    injection g1 with g1; injection g2 with g2
    rw [g1, g2]; exact l
  · obtain ⟨r', s', g1, g2, -, -, -, l⟩ := powf_of_prod hx hx hm hn b1 a2 (mul_le_mul_of_nonpos_right h (dn k))
    rw [e2] at g1; rw [e1] at g2
    injection g1 with g1; injection g2 with g2
    rw [g1, g2]; exact l

/-- **C134, `powf` in the base.** For normal bases `x` and `y` at least `320` float steps apart and `n >= 0`,
`x^n <= y^n (1 + 6.5e-5)`, and for `n <= 0` the order is reversed. -/
theorem C134_powf_base {x y n : F32} (hx : PosNormal x) (hy : PosNormal y) (h : x.toBits.toNat + 320 ≤ y.toBits.toNat)
    (hn : n.isFinite = true) (a1 : -87.29 ≤ n.val * x.ln.val) (a2 : n.val * x.ln.val ≤ 88.69)
    (b1 : -87.29 ≤ n.val * y.ln.val) (b2 : n.val * y.ln.val ≤ 88.69) :
    (0 ≤ n.val → ∃ r s, x.powf n = .ok r ∧ y.powf n = .ok s ∧ r.isFinite = true ∧ s.isFinite = true ∧ 0 < s.val ∧
      r.val ≤ s.val * (1 + 6.5 / 10 ^ 5)) ∧
    (n.val ≤ 0 → ∃ r s, x.powf n = .ok r ∧ y.powf n = .ok s ∧ r.isFinite = true ∧ s.isFinite = true ∧ 0 < r.val ∧
      s.val ≤ r.val * (1 + 6.5 / 10 ^ 5)) := by
  have l := ln_of_gap hx hy h
  constructor
  · intro k
    exact powf_of_prod hx hy hn hn a1 b2 (mul_le_mul_of_nonneg_left l k)
  · intro k
    obtain ⟨r, s, e1, e2, f1, f2, p, q⟩ := powf_of_prod hy hx hn hn b1 a2 (mul_le_mul_of_nonpos_left l k)
    exact ⟨s, r, e2, e1, f2, f1, p, q⟩

/-- The bounds at work: `exp(-0.63771623) <= exp(-0.6377162)` up to the tolerance though not exactly, `cosh(-2)` against
`cosh(3)`, and bases `2` and `3` far more than `320` steps apart. -/
theorem C134_case :
    (∃ r s, (⟨0xbf23415e#32⟩ : F32).exp = .ok r ∧ (⟨0xbf23415d#32⟩ : F32).exp = .ok s ∧ s.lt r = true ∧ r.val ≤ s.val * (1 + 4.5 / 10 ^ 6)) ∧
    (∃ r s, (⟨0xc0000000#32⟩ : F32).cosh = .ok r ∧ (⟨0x40400000#32⟩ : F32).cosh = .ok s ∧ r.val ≤ s.val * (1 + 5 / 10 ^ 6)) ∧
    (⟨0x40000000#32⟩ : F32).log2.le (⟨0x40400000#32⟩ : F32).log2 = true ∧
    (⟨0x40000000#32⟩ : F32).log10.le (⟨0x40400000#32⟩ : F32).log10 = true ∧
    ((⟨0x40400000#32⟩ : F32).log (⟨0x3f000000#32⟩ : F32)).le ((⟨0x40000000#32⟩ : F32).log (⟨0x3f000000#32⟩ : F32)) = true := by
  have va : (⟨0xbf23415e#32⟩ : F32).val = -5349551 / 2 ^ 23 := by
    rw [val_of_units (u := -(5349551 * 2 ^ 126)) (by decide +kernel)]; norm_num
  have vb : (⟨0xbf23415d#32⟩ : F32).val = -10699101 / 2 ^ 24 := by
    rw [val_of_units (u := -(10699101 * 2 ^ 125)) (by decide +kernel)]; norm_num
  have vc : (⟨0xc0000000#32⟩ : F32).val = -2 := by
    rw [val_of_units (u := -(2 * 2 ^ 149)) (by decide +kernel)]; norm_num
  have v2 : (⟨0x40000000#32⟩ : F32).val = 2 := by
    rw [val_of_units (u := 2 * 2 ^ 149) (by decide +kernel)]; norm_num
  have vd : (⟨0x40400000#32⟩ : F32).val = 3 := by
    rw [val_of_units (u := 3 * 2 ^ 149) (by decide +kernel)]; norm_num
  have vh : (⟨0x3f000000#32⟩ : F32).val = 1 / 2 := by
    rw [val_of_units (u := 2 ^ 148) (by decide +kernel)]; norm_num
  have p2 : PosNormal ⟨0x40000000#32⟩ := ⟨by decide, by rw [v2]; norm_num⟩
  have p3 : PosNormal ⟨0x40400000#32⟩ := ⟨by decide, by rw [vd]; norm_num⟩
  have ph : PosNormal ⟨0x3f000000#32⟩ := ⟨by decide, by rw [vh]; norm_num⟩
  have gap : (⟨0x40000000#32⟩ : F32).toBits.toNat + 320 ≤ (⟨0x40400000#32⟩ : F32).toBits.toNat := by decide
  refine ⟨?_, ?_, (C134_log2 p2 p3).1 gap, (C134_log10 p2 p3).1 gap, (C134_log p2 p3 ph gap).2 (by rw [vh]; norm_num)⟩
  · obtain ⟨r, s, e1, e2, -, -, -, -, l⟩ := C134_exp (x := ⟨0xbf23415e#32⟩) (y := ⟨0xbf23415d#32⟩) (by decide) (by decide)
      (by rw [va]; norm_num) (by rw [vb]; norm_num) (by rw [va, vb]; norm_num)
    rw [va, vb] at l
    have l' := l (by norm_num [abs_of_neg, abs_of_pos]) (by norm_num [abs_of_neg, abs_of_pos])
    refine ⟨r, s, e1, e2, ?_, l'⟩
    rw [exp_neg_a] at e1; rw [exp_neg_b] at e2
    injection e1 with e1; injection e2 with e2
    subst e1 e2
    decide
  · obtain ⟨r, s, e1, e2, -, -, -, -, l⟩ := C134_cosh (x := ⟨0xc0000000#32⟩) (y := ⟨0x40400000#32⟩) (by decide) (by decide)
      (by rw [vd]; norm_num) (by rw [vc, vd]; norm_num)
    rw [vc, vd] at l
    exact ⟨r, s, e1, e2, l (by norm_num) (by norm_num)⟩

/-- `2^(1/4)`, `2^(1/2)` and `3^(1/2)` meet the hypotheses. -/
theorem C134_powf_case :
    (∃ r s, powf ⟨0x40000000#32⟩ ⟨0x3e800000#32⟩ = .ok r ∧ powf ⟨0x40000000#32⟩ ⟨0x3f000000#32⟩ = .ok s ∧ r.val ≤ s.val * (1 + 6.5 / 10 ^ 5)) ∧
    (∃ r s, powf ⟨0x40000000#32⟩ ⟨0x3f000000#32⟩ = .ok r ∧ powf ⟨0x40400000#32⟩ ⟨0x3f000000#32⟩ = .ok s ∧
      r.val ≤ s.val * (1 + 6.5 / 10 ^ 5)) := by
  have v2 : (⟨0x40000000#32⟩ : F32).val = 2 := by
    rw [val_of_units (u := 2 * 2 ^ 149) (by decide +kernel)]; norm_num
  have vd : (⟨0x40400000#32⟩ : F32).val = 3 := by
    rw [val_of_units (u := 3 * 2 ^ 149) (by decide +kernel)]; norm_num
  have vh : (⟨0x3f000000#32⟩ : F32).val = 1 / 2 := by
    rw [val_of_units (u := 2 ^ 148) (by decide +kernel)]; norm_num
  have vq : (⟨0x3e800000#32⟩ : F32).val = 1 / 4 := by
    rw [val_of_units (u := 2 ^ 147) (by decide +kernel)]; norm_num
  have p2 : PosNormal ⟨0x40000000#32⟩ := ⟨by decide, by rw [v2]; norm_num⟩
  have p3 : PosNormal ⟨0x40400000#32⟩ := ⟨by decide, by rw [vd]; norm_num⟩
  have l2 := abs_le.1 (ln_abs_le p2).2
  have l3 := abs_le.1 (ln_abs_le p3).2
  constructor
  · obtain ⟨r, s, e1, e2, -, -, -, -, l, -⟩ := C134_powf_exponent (n := ⟨0x3e800000#32⟩) (m := ⟨0x3f000000#32⟩) p2 (by decide) (by decide)
      (by rw [vq, vh]; norm_num) (by rw [vq]; norm_num; linarith) (by rw [vq]; norm_num; linarith)
      (by rw [vh]; norm_num; linarith) (by rw [vh]; norm_num; linarith)
    exact ⟨r, s, e1, e2, l (by rw [v2]; norm_num)⟩
  · obtain ⟨r, s, e1, e2, -, -, -, l⟩ := (C134_powf_base (n := ⟨0x3f000000#32⟩) p2 p3 (by decide) (by decide)
      (by rw [vh]; norm_num; linarith) (by rw [vh]; norm_num; linarith)
      (by rw [vh]; norm_num; linarith) (by rw [vh]; norm_num; linarith)).1 (by rw [vh]; norm_num)
    exact ⟨r, s, e1, e2, l⟩

end Micromath.Props
