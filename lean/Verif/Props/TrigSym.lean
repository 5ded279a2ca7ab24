import Verif.Props.Trig
import Verif.Real.CosWave

/-!
# C129: symmetry, period and order of `cos` and `sin` up to rounding

Both functions follow one real wave within rounding: an even function of period one in `x / (2 π)`, falling on half a period.
-/

set_option exponentiation.threshold 1000

namespace Micromath.Props
open F32 Spec RealAux
variable [Cfg]

/-- `cos` follows the wave. -/
theorem cos_wave {x : F32} (hx : x.isFinite = true) (hb : |x.val| ≤ 8200) :
    |(x.cos.val : ℝ) - wave ((x.val : ℝ) * (10680707 / 67108864))| ≤ 1 / 10 ^ 6 + 6 / 10 ^ 8 * |(x.val : ℝ)| := by
  obtain ⟨s, n, hs, fs, sb, se⟩ := cos_reduce hx hb
  have hc : x.cos = (s * (lit 16 1 * (s.abs - lit 5 10))) + lit 225 1000 * (s * (lit 16 1 * (s.abs - lit 5 10))) *
      ((s * (lit 16 1 * (s.abs - lit 5 10))).abs - one) := by
    rw [hs]; unfold F32.cos; rfl
  obtain ⟨-, hr⟩ := cos_poly fs sb
  rw [← hc] at hr
  have hrR := abs_cast_le hr
  have sbR := abs_cast_le sb
  have seR := abs_cast_le se
  push_cast at hrR sbR seR
  rw [cosFQ_cast] at hrR
  have hw := cosF_wave sbR
  have hxn := abs_nonneg (x.val : ℝ)
  generalize (x.cos.val : ℝ) = C at *
  generalize (x.val : ℝ) = X at *
  generalize (s.val : ℝ) = S at *
  have hl := wave_lip (S + 1 / 4) (X * (10680707 / 67108864) + ((-n : ℤ) : ℝ))
  rw [wave_add_int, show S + 1 / 4 - (X * (10680707 / 67108864) + ((-n : ℤ) : ℝ)) = S - (X * (10680707 / 67108864) - n - 1 / 4) by
    push_cast; ring] at hl
  have hl2 := hl.trans (mul_le_mul_of_nonneg_left seR (by norm_num))
  rw [abs_le] at hrR hw hl2 ⊢
  norm_num at hrR hw hl2 ⊢
  constructor <;> linarith [hrR.1, hrR.2, hw.1, hw.2, hl2.1, hl2.2]

/-- `sin` follows the wave a quarter of a period later. -/
theorem sin_wave {x : F32} (hx : x.isFinite = true) (hb : |x.val| ≤ 8192) :
    |(x.sin.val : ℝ) - wave ((x.val : ℝ) * (10680707 / 67108864) - 1 / 4)| ≤ 1.3 / 10 ^ 6 + 1.2 / 10 ^ 7 * |(x.val : ℝ)| := by
  have hu : x.sin = (x - FRAC_PI_2).cos := by unfold F32.sin; rw [pi_div_two]
  rw [hu]
  have hd : |x.val - FRAC_PI_2.val| ≤ |x.val| + 1.5708 := by
    rw [val_FRAC_PI_2]
    refine (abs_sub _ _).trans ?_
    rw [abs_of_pos (show (0 : ℚ) < 13176795 / 8388608 by norm_num)]
    norm_num
  have hd2 : |x.val| + 1.5708 ≤ 8194 := by norm_num; linarith
  obtain ⟨f1, v1⟩ := sub_val hx fin_FRAC_PI_2 (lt_of_le_of_lt (hd.trans hd2) (by unfold ovf; norm_num))
  have e1 : |(x - FRAC_PI_2).val - (x.val - FRAC_PI_2.val)| ≤ (|x.val| + 1.5708) / 2 ^ 24 := by
    rw [v1]
    refine (RN_err _).trans (max_le ?_ (by gcongr))
    have := abs_nonneg x.val
    rw [le_div_iff₀ (by norm_num)]
    refine le_trans ?_ (le_add_of_nonneg_left this)
    norm_num
  have e2 : |(x - FRAC_PI_2).val| ≤ |x.val| + 1.58 := by
    have := abs_sub_abs_le_abs_sub (x - FRAC_PI_2).val (x.val - FRAC_PI_2.val)
    norm_num at *
    linarith
  have c := cos_wave f1 (e2.trans (by norm_num; linarith))
  have e1R := abs_cast_le e1
  have e2R := abs_cast_le e2
  rw [val_FRAC_PI_2] at e1R
  push_cast at e1R e2R
  have hX := abs_nonneg (x.val : ℝ)
  generalize ((x - FRAC_PI_2).cos.val : ℝ) = C at *
  generalize ((x - FRAC_PI_2).val : ℝ) = Y at *
  generalize (x.val : ℝ) = X at *
  have hl := wave_lip (Y * (10680707 / 67108864)) (X * (10680707 / 67108864) - 1 / 4)
  have e3 : |Y * (10680707 / 67108864) - (X * (10680707 / 67108864) - 1 / 4)| ≤
      (10680707 / 67108864) * ((|X| + 1.5708) / 2 ^ 24) + 1.2 / 10 ^ 8 := by
    rw [abs_le] at e1R ⊢
    norm_num at e1R ⊢
    constructor <;> linarith [e1R.1, e1R.2]
  have hl2 := hl.trans (mul_le_mul_of_nonneg_left e3 (by norm_num))
  rw [abs_le] at c hl2 ⊢
  norm_num at c hl2 e2R ⊢
  constructor <;> linarith [c.1, c.2, hl2.1, hl2.2]

omit [Cfg] in
theorem neg_facts {x : F32} (hx : x.isFinite = true) : (-x).isFinite = true ∧ (-x).val = -x.val := by
  exact ⟨by rw [isFinite_neg]; exact hx, val_neg x⟩

/-- **C129.** `cos` is even up to rounding. -/
theorem C129_cos_even {x : F32} (hx : x.isFinite = true) (hb : |x.val| ≤ 8192) :
    |((-x).cos.val : ℝ) - x.cos.val| ≤ 2 / 10 ^ 6 + 1.2 / 10 ^ 7 * |(x.val : ℝ)| := by
  obtain ⟨fn, vn⟩ := neg_facts hx
  have h1 := cos_wave hx (hb.trans (by norm_num))
  have h2 := cos_wave fn (by rw [vn, abs_neg]; exact hb.trans (by norm_num))
  rw [vn] at h2
  push_cast at h2
  rw [neg_mul, wave_neg, abs_neg] at h2
  rw [abs_le] at h1 h2 ⊢
  norm_num at h1 h2 ⊢
  constructor <;> linarith [h1.1, h1.2, h2.1, h2.2]

/-- **C129.** `sin` is odd up to rounding. -/
theorem C129_sin_odd {x : F32} (hx : x.isFinite = true) (hb : |x.val| ≤ 8192) :
    |((-x).sin.val : ℝ) + x.sin.val| ≤ 2.6 / 10 ^ 6 + 2.4 / 10 ^ 7 * |(x.val : ℝ)| := by
  obtain ⟨fn, vn⟩ := neg_facts hx
  have h1 := sin_wave hx hb
  have h2 := sin_wave fn (by rw [vn, abs_neg]; exact hb)
  rw [vn] at h2
  push_cast at h2
  have e : wave (-(x.val : ℝ) * (10680707 / 67108864) - 1 / 4) = -wave ((x.val : ℝ) * (10680707 / 67108864) - 1 / 4) := by
    rw [← wave_neg, ← wave_half]; congr 1; ring
  rw [e, abs_neg] at h2
  rw [abs_le] at h1 h2 ⊢
  norm_num at h1 h2 ⊢
  constructor <;> linarith [h1.1, h1.2, h2.1, h2.2]

/-- **C129.** Continuity and period: arguments that nearly agree modulo `2 π` have nearly the same cosine. -/
theorem C129_cos_period {x y : F32} (hx : x.isFinite = true) (hy : y.isFinite = true) (bx : |x.val| ≤ 8192) (bY : |y.val| ≤ 8192) (n : ℤ) :
    |(x.cos.val : ℝ) - y.cos.val| ≤ |(x.val : ℝ) - y.val - n * (2 * Real.pi)| + 2 / 10 ^ 6 +
      6 / 10 ^ 8 * (|(x.val : ℝ)| + |(y.val : ℝ)|) + 2.6 / 10 ^ 7 * |(n : ℝ)| := by
  have h1 := cos_wave hx (bx.trans (by norm_num))
  have h2 := cos_wave hy (bY.trans (by norm_num))
  generalize (x.cos.val : ℝ) = C at *
  generalize (y.cos.val : ℝ) = D at *
  generalize (x.val : ℝ) = X at *
  generalize (y.val : ℝ) = Y at *
  have hl := wave_lip (X * (10680707 / 67108864)) (Y * (10680707 / 67108864) + n)
  rw [wave_add_int] at hl
  have e : X * (10680707 / 67108864) - (Y * (10680707 / 67108864) + n) =
      (10680707 / 67108864) * (X - Y - n * (2 * Real.pi)) + n * (2 * Real.pi * (10680707 / 67108864) - 1) := by ring
  have e2 : |X * (10680707 / 67108864) - (Y * (10680707 / 67108864) + n)| ≤
      (10680707 / 67108864) * |X - Y - n * (2 * Real.pi)| + |(n : ℝ)| * (4.1 / 10 ^ 8) := by
    rw [e]
    refine (abs_add_le _ _).trans ?_
    rw [abs_mul, abs_mul, abs_of_pos (show (0 : ℝ) < 10680707 / 67108864 by norm_num)]
    have := mul_le_mul_of_nonneg_left two_pi_K (abs_nonneg (n : ℝ))
    linarith
  have hl2 := hl.trans (mul_le_mul_of_nonneg_left e2 (by norm_num))
  have p1 := abs_nonneg (X - Y - n * (2 * Real.pi))
  have p2 := abs_nonneg (n : ℝ)
  rw [abs_le] at h1 h2 hl2 ⊢
  norm_num at h1 h2 hl2 ⊢
  constructor <;> linarith [h1.1, h1.2, h2.1, h2.2, hl2.1, hl2.2]

/-- **C129.** The same for the sine. -/
theorem C129_sin_period {x y : F32} (hx : x.isFinite = true) (hy : y.isFinite = true) (bx : |x.val| ≤ 8192) (bY : |y.val| ≤ 8192) (n : ℤ) :
    |(x.sin.val : ℝ) - y.sin.val| ≤ |(x.val : ℝ) - y.val - n * (2 * Real.pi)| + 2.6 / 10 ^ 6 +
      1.2 / 10 ^ 7 * (|(x.val : ℝ)| + |(y.val : ℝ)|) + 2.6 / 10 ^ 7 * |(n : ℝ)| := by
  have h1 := sin_wave hx bx
  have h2 := sin_wave hy bY
  generalize (x.sin.val : ℝ) = C at *
  generalize (y.sin.val : ℝ) = D at *
  generalize (x.val : ℝ) = X at *
  generalize (y.val : ℝ) = Y at *
  have hl := wave_lip (X * (10680707 / 67108864) - 1 / 4) (Y * (10680707 / 67108864) - 1 / 4 + n)
  rw [wave_add_int] at hl
  have e : X * (10680707 / 67108864) - 1 / 4 - (Y * (10680707 / 67108864) - 1 / 4 + n) =
      (10680707 / 67108864) * (X - Y - n * (2 * Real.pi)) + n * (2 * Real.pi * (10680707 / 67108864) - 1) := by ring
  have e2 : |X * (10680707 / 67108864) - 1 / 4 - (Y * (10680707 / 67108864) - 1 / 4 + n)| ≤
      (10680707 / 67108864) * |X - Y - n * (2 * Real.pi)| + |(n : ℝ)| * (4.1 / 10 ^ 8) := by
    rw [e]
    refine (abs_add_le _ _).trans ?_
    rw [abs_mul, abs_mul, abs_of_pos (show (0 : ℝ) < 10680707 / 67108864 by norm_num)]
    have := mul_le_mul_of_nonneg_left two_pi_K (abs_nonneg (n : ℝ))
    linarith
  have hl2 := hl.trans (mul_le_mul_of_nonneg_left e2 (by norm_num))
  have p1 := abs_nonneg (X - Y - n * (2 * Real.pi))
  have p2 := abs_nonneg (n : ℝ)
  rw [abs_le] at h1 h2 hl2 ⊢
  norm_num at h1 h2 hl2 ⊢
  constructor <;> linarith [h1.1, h1.2, h2.1, h2.2, hl2.1, hl2.2]

/-- **C129.** Half a turn changes the sign, up to rounding. -/
theorem C129_cos_half_turn {x y : F32} (hx : x.isFinite = true) (hy : y.isFinite = true) (bx : |x.val| ≤ 8192) (bY : |y.val| ≤ 8192) :
    |(x.cos.val : ℝ) + y.cos.val| ≤ |(x.val : ℝ) - y.val - Real.pi| + 2.2 / 10 ^ 6 + 6 / 10 ^ 8 * (|(x.val : ℝ)| + |(y.val : ℝ)|) := by
  have h1 := cos_wave hx (bx.trans (by norm_num))
  have h2 := cos_wave hy (bY.trans (by norm_num))
  generalize (x.cos.val : ℝ) = C at *
  generalize (y.cos.val : ℝ) = D at *
  generalize (x.val : ℝ) = X at *
  generalize (y.val : ℝ) = Y at *
  have hl := wave_lip (X * (10680707 / 67108864)) (Y * (10680707 / 67108864) + 1 / 2)
  rw [wave_half] at hl
  have e : X * (10680707 / 67108864) - (Y * (10680707 / 67108864) + 1 / 2) =
      (10680707 / 67108864) * (X - Y - Real.pi) + (2 * Real.pi * (10680707 / 67108864) - 1) / 2 := by ring
  have e2 : |X * (10680707 / 67108864) - (Y * (10680707 / 67108864) + 1 / 2)| ≤
      (10680707 / 67108864) * |X - Y - Real.pi| + (4.1 / 10 ^ 8) / 2 := by
    rw [e]
    refine (abs_add_le _ _).trans ?_
    rw [abs_mul, abs_of_pos (show (0 : ℝ) < 10680707 / 67108864 by norm_num), abs_div, abs_two]
    have := two_pi_K
    linarith
  have hl2 := hl.trans (mul_le_mul_of_nonneg_left e2 (by norm_num))
  have p1 := abs_nonneg (X - Y - Real.pi)
  rw [abs_le] at h1 h2 hl2 ⊢
  norm_num at h1 h2 hl2 ⊢
  constructor <;> linarith [h1.1, h1.2, h2.1, h2.2, hl2.1, hl2.2]

/-- **C129.** `cos` falls on `[0, π]`, up to rounding. -/
theorem C129_cos_anti {x y : F32} (hx : x.isFinite = true) (hy : y.isFinite = true) (h0 : 0 ≤ x.val) (h : x.val ≤ y.val)
    (h1 : (y.val : ℝ) ≤ Real.pi) : y.cos.val ≤ x.cos.val + 3 / 10 ^ 6 := by
  have hpi := Real.pi_gt_d20
  have hpi2 := Real.pi_lt_d20
  have c0 : (0 : ℝ) ≤ x.val := by exact_mod_cast h0
  have c1 : (x.val : ℝ) ≤ y.val := by exact_mod_cast h
  have c2 : y.val ≤ 4 := by
    have : (y.val : ℝ) ≤ 4 := by norm_num at hpi2; linarith
    exact_mod_cast this
  have g1 := cos_wave hx (by rw [abs_of_nonneg h0]; linarith)
  have g2 := cos_wave hy (by rw [abs_of_nonneg (h0.trans h)]; linarith)
  rw [abs_of_nonneg c0] at g1
  rw [abs_of_nonneg (c0.trans c1)] at g2
  have goal : (y.cos.val : ℝ) ≤ x.cos.val + 3 / 10 ^ 6 := by
    have m : wave ((y.val : ℝ) * (10680707 / 67108864)) ≤ wave ((x.val : ℝ) * (10680707 / 67108864)) + 1.6 / 10 ^ 7 := by
      rcases le_total ((y.val : ℝ) * (10680707 / 67108864)) (1 / 2) with p | p
      · have := wave_anti (s := (x.val : ℝ) * (10680707 / 67108864)) (t := (y.val : ℝ) * (10680707 / 67108864))
          (by positivity) (by gcongr) p
        norm_num; linarith
      · have k := abs_le.1 two_pi_K
        have u : (y.val : ℝ) * (10680707 / 67108864) - 1 / 2 ≤ 2.1 / 10 ^ 8 := by
          norm_num at k ⊢
          linarith [k.1, k.2]
        have l := wave_lip ((y.val : ℝ) * (10680707 / 67108864)) (1 / 2)
        rw [abs_of_nonneg (a := (y.val : ℝ) * (10680707 / 67108864) - 1 / 2) (by linarith)] at l
        have l2 := (abs_le.1 l).2
        rcases le_total ((x.val : ℝ) * (10680707 / 67108864)) (1 / 2) with q | q
        · have := wave_anti (s := (x.val : ℝ) * (10680707 / 67108864)) (t := 1 / 2) (by positivity) q le_rfl
          norm_num at l2 u ⊢; linarith
        · have l' := wave_lip ((y.val : ℝ) * (10680707 / 67108864)) ((x.val : ℝ) * (10680707 / 67108864))
          rw [abs_of_nonneg (a := (y.val : ℝ) * (10680707 / 67108864) - (x.val : ℝ) * (10680707 / 67108864)) (by nlinarith)] at l'
          have l3 := (abs_le.1 l').2
          norm_num at l3 u ⊢; linarith
    have a1 := (abs_le.1 g1).1
    have a2 := (abs_le.1 g2).2
    norm_num at hpi2 m a1 a2 ⊢
    linarith
  have : ((y.cos.val : ℚ) : ℝ) ≤ ((x.cos.val + 3 / 10 ^ 6 : ℚ) : ℝ) := by push_cast; exact goal
  exact_mod_cast this

/-- **C129 (refuted).** None of the three laws holds without the tolerance: `cos` is not even (at one), `sin` is not odd, and `cos` rises
between neighbours in `[0, π]`. -/
theorem C129_false :
    (∃ x : F32, x.isFinite = true ∧ |x.val| ≤ 1 ∧ (-x).cos ≠ x.cos) ∧
    (∃ x : F32, x.isFinite = true ∧ |x.val| ≤ 1 ∧ (-x).sin ≠ -x.sin) ∧
    (∃ x y : F32, posZero.lt x = true ∧ x.lt y = true ∧ y.lt one = true ∧ x.cos.lt y.cos = true) := by
  have a1 : (⟨0x3f800000#32⟩ : F32).cos = ⟨0x3f0a5d25#32⟩ := eval_eq (by kernel_rfl)
  have a2 : (-(⟨0x3f800000#32⟩ : F32)).cos = ⟨0x3f0a5d24#32⟩ := eval_eq (by kernel_rfl)
  have b1 : (⟨0x3f064664#32⟩ : F32).sin = ⟨0x3f00340b#32⟩ := eval_eq (by kernel_rfl)
  have b2 : (-(⟨0x3f064664#32⟩ : F32)).sin = ⟨0xbf003404#32⟩ := eval_eq (by kernel_rfl)
  have c1 : (⟨0x3d000022#32⟩ : F32).cos = ⟨0x3f7fe039#32⟩ := eval_eq (by kernel_rfl)
  have c2 : (⟨0x3d000023#32⟩ : F32).cos = ⟨0x3f7fe03b#32⟩ := eval_eq (by kernel_rfl)
  refine ⟨⟨⟨0x3f800000#32⟩, by decide, ?_, by rw [a1, a2]; decide⟩, ⟨⟨0x3f064664#32⟩, by decide, ?_, by rw [b1, b2]; decide⟩,
    ⟨0x3d000022#32⟩, ⟨0x3d000023#32⟩, by decide, by decide, by decide, by rw [c1, c2]; decide⟩
  · rw [val_of_units (u := 2 ^ 149) (by decide +kernel)]; norm_num
  · rw [val_of_units (u := 0x864664 * 2 ^ 125) (by decide +kernel)]; norm_num

/-- The hypotheses hold at one and at two. -/
example : let x : F32 := ofInt 1; let y : F32 := ofInt 2
    x.isFinite = true ∧ y.isFinite = true ∧ |x.val| ≤ 8192 ∧ |y.val| ≤ 8192 ∧ 0 ≤ x.val ∧ x.val ≤ y.val ∧ (y.val : ℝ) ≤ Real.pi := by
  intro x y
  obtain ⟨f1, v1⟩ : IsVal x 1 := by simpa using ofInt_isVal (n := 1) (by norm_num)
  obtain ⟨f2, v2⟩ : IsVal y 2 := by simpa using ofInt_isVal (n := 2) (by norm_num)
  refine ⟨f1, f2, ?_⟩
  rw [v1, v2]
  refine ⟨by norm_num, by norm_num, by norm_num, by norm_num, ?_⟩
  have := Real.pi_gt_three
  push_cast
  linarith

end Micromath.Props
