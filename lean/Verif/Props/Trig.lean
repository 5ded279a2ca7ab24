import Verif.Real.Trig
import Verif.Props.Atan
import Verif.Props.Rounding

/-!
# C34-C37: `cos`, `sin`, `tan`
-/

set_option exponentiation.threshold 1000

namespace Micromath.Props
open F32 Spec RealAux

variable [Cfg]

/-- The constant `FRAC_1_PI / 2.0` by which `cos` multiplies. -/
theorem cos_K : IsVal (FRAC_1_PI / lit 2 1) (10680707 / 67108864) := by
  have : FRAC_1_PI / lit 2 1 = ⟨0x3e22f983#32⟩ := eval_eq (by kernel_rfl)
  rw [this]
  refine ⟨by decide, ?_⟩
  rw [val_of_units (u := 10680707 * 2 ^ 123) (by decide +kernel)]; norm_num

omit [Cfg] in
theorem lit_quarter : IsVal (lit 25 100) (1 / 4) := ⟨by decide, by
  rw [val_of_units (u := 2 ^ 147) (by decide +kernel)]; norm_num⟩
omit [Cfg] in
theorem lit_sixteen : IsVal (lit 16 1) 16 := ⟨by decide, by
  rw [val_of_units (u := 2 ^ 153) (by decide +kernel)]; norm_num⟩
omit [Cfg] in
theorem lit_half' : IsVal (lit 5 10) (1 / 2) := ⟨by decide, by
  rw [val_of_units (u := 2 ^ 148) (by decide +kernel)]; norm_num⟩
omit [Cfg] in
theorem lit_225 : IsVal (lit 225 1000) (15099494 / 67108864) := ⟨by decide, by
  rw [val_of_units (u := 15099494 * 2 ^ 123) (by decide +kernel)]; norm_num⟩

omit [Cfg] in
/-- Multiplying by a power of two keeps a number representable (overflow aside). -/
theorem rep_scale {q : ℚ} (h : Rep q) (k : Nat) : Rep (2 ^ k * q) := by
  obtain ⟨b, hb⟩ := h
  have key : ∃ b', magU b' = magU b * 2 ^ k := by
    unfold magU
    split
    · exact magU_exists (by omega) k
    · obtain ⟨b', hb'⟩ := magU_exists (m := b % 2 ^ 23 + 2 ^ 23) (by omega) (b / 2 ^ 23 - 1 + k)
      refine ⟨b', ?_⟩
      have : magU b' = _ := hb'
      unfold magU at this
      rw [this, pow_add]; ring
  obtain ⟨b', hb'⟩ := key
  refine ⟨b', ?_⟩
  rw [abs_mul, hb, mval, mval, hb', abs_of_pos (by positivity : (0 : ℚ) < 2 ^ k)]
  push_cast; ring

/-- Argument reduction of `cos`. -/
theorem cos_reduce {x : F32} (hx : x.isFinite = true) (hb : |x.val| ≤ 8200) :
    ∃ (s : F32) (n : Int), s = x * (FRAC_1_PI / lit 2 1) -
        (lit 25 100 + (x * (FRAC_1_PI / lit 2 1) + lit 25 100).floor) ∧
      s.isFinite = true ∧ |s.val| ≤ 1 / 2 + 1 / 10 ^ 4 ∧
      |s.val - (x.val * (10680707 / 67108864) - n - 1 / 4)| ≤
        |x.val| * (10680707 / 67108864) / 2 ^ 24 + 4 / 10 ^ 8 := by
  obtain ⟨fK, vK⟩ := cos_K
  have hxa := abs_nonneg x.val
  obtain ⟨f1, v1⟩ := mul_val hx fK (by
    rw [vK, abs_mul, abs_of_pos (show (0 : ℚ) < 10680707 / 67108864 by norm_num)]
    refine lt_of_le_of_lt (mul_le_mul_of_nonneg_right hb (by norm_num)) (by unfold ovf; norm_num))
  obtain ⟨x1, hx1⟩ : ∃ x1, x1 = x * (FRAC_1_PI / lit 2 1) := ⟨_, rfl⟩
  rw [← hx1] at f1 v1 ⊢
  rw [vK] at v1
  have hp : |x.val * (10680707 / 67108864)| = |x.val| * (10680707 / 67108864) := by
    rw [abs_mul, abs_of_pos (show (0 : ℚ) < 10680707 / 67108864 by norm_num)]
  have e1 : |x1.val - x.val * (10680707 / 67108864)| ≤ |x.val| * (10680707 / 67108864) / 2 ^ 24 + 1 / 2 ^ 150 := by
    rw [v1]
    refine (RN_err _).trans ?_
    rw [hp]
    have h0 : 0 ≤ |x.val| * (10680707 / 67108864) / 2 ^ 24 := div_nonneg (mul_nonneg hxa (by norm_num)) (by norm_num)
    exact max_le (le_add_of_nonneg_left h0) (le_add_of_nonneg_right (by norm_num))
  have hx1b : |x1.val| ≤ 1306 := by
    have h1 : |x1.val| ≤ |x.val| * (10680707 / 67108864) + (|x.val| * (10680707 / 67108864) / 2 ^ 24 + 1 / 2 ^ 150) := by
      have := abs_sub_abs_le_abs_sub x1.val (x.val * (10680707 / 67108864))
      rw [hp] at this
      linarith
    have h2 : |x.val| * (10680707 / 67108864) ≤ 8200 * (10680707 / 67108864) :=
      mul_le_mul_of_nonneg_right hb (by norm_num)
    norm_num at h1 h2 ⊢
    linarith
  obtain ⟨f4, v4⟩ := lit_quarter
  have hx2 : |x1.val + 1 / 4| ≤ 1307 := by
    have := abs_add_le x1.val (1 / 4)
    rw [abs_of_pos (show (0 : ℚ) < 1 / 4 by norm_num)] at this
    linarith
  obtain ⟨f2, v2⟩ := add_val f1 f4 (by rw [v4]; exact lt_of_le_of_lt hx2 (by norm_num [ovf]))
  rw [v4] at v2
  have e2 : |(x1 + lit 25 100).val - (x1.val + 1 / 4)| ≤ 1307 / 2 ^ 24 := by
    rw [v2]
    refine (RN_err _).trans (max_le (by norm_num) ?_)
    gcongr
  have hr2 : |(x1 + lit 25 100).val| ≤ 1308 := by
    have := abs_sub_abs_le_abs_sub (x1 + lit 25 100).val (x1.val + 1 / 4)
    have h3 : (1307 : ℚ) / 2 ^ 24 ≤ 1 := by norm_num
    linarith
  obtain ⟨l2, u2⟩ := abs_le.1 hr2
  obtain ⟨f3, v3⟩ := floor_isVal f2 (by norm_num; linarith) (by norm_num; linarith)
  obtain ⟨n, hn⟩ : ∃ n, n = ⌊(x1 + lit 25 100).val⌋ := ⟨_, rfl⟩
  rw [← hn] at v3
  have n1 : (n : ℚ) ≤ (x1 + lit 25 100).val := hn ▸ Int.floor_le _
  have n2 : (x1 + lit 25 100).val < n + 1 := hn ▸ Int.lt_floor_add_one _
  have hn1 : |(n : ℚ)| ≤ 1309 := by rw [abs_le]; constructor <;> linarith
  obtain ⟨f5, v5⟩ := add_exact f4 f3 (by
    rw [v4, v3]
    have := abs_add_le (1 / 4) (n : ℚ)
    refine this.trans (le_trans (add_le_add (le_of_eq (abs_of_pos (by norm_num))) hn1) (by norm_num [maxF]))) (by
    rw [v4, v3]
    refine rep_grid (z := 4 * n + 1) (j := -2) (by norm_num) (by push_cast; ring) ?_
    have := abs_add_le (1 / 4) (n : ℚ)
    refine this.trans (le_trans (add_le_add (le_of_eq (abs_of_pos (by norm_num))) hn1) (by norm_num)))
  rw [v4, v3] at v5
  have e2' := abs_le.1 e2
  have hdl : |x1.val - (1 / 4 + n)| ≤ 1 / 2 + 1307 / 2 ^ 24 := by
    rw [abs_le]; constructor <;> linarith [e2'.1, e2'.2]
  obtain ⟨d, hd, f6, v6⟩ := sub_err f1 f5 0 (by norm_num) (by norm_num) (by
    rw [v5]; refine hdl.trans (by norm_num))
  rw [v5] at v6
  have hd' : |d| ≤ 1 / 2 ^ 25 := by
    refine hd.trans (le_of_eq (by norm_num))
  refine ⟨_, n, rfl, f6, ?_, ?_⟩
  · rw [v6]
    have := abs_add_le (x1.val - (1 / 4 + (n : ℚ))) d
    refine this.trans ((add_le_add hdl hd').trans (by norm_num))
  · rw [v6]
    have e : x1.val - (1 / 4 + (n : ℚ)) + d - (x.val * (10680707 / 67108864) - n - 1 / 4) =
        (x1.val - x.val * (10680707 / 67108864)) + d := by ring
    rw [e]
    refine (abs_add_le _ _).trans ((add_le_add e1 hd').trans ?_)
    have : (1 : ℚ) / 2 ^ 150 + 1 / 2 ^ 25 ≤ 4 / 10 ^ 8 := by norm_num
    linarith

/-- The rational version of `cosF`. -/
def cosFQ (s : ℚ) : ℚ := 16 * s * (|s| - 1 / 2) + 225 / 1000 * (16 * s * (|s| - 1 / 2)) * (|16 * s * (|s| - 1 / 2)| - 1)

omit [Cfg] in
theorem cosFQ_cast (s : ℚ) : ((cosFQ s : ℚ) : ℝ) = cosF s := by
  unfold cosFQ cosF; push_cast; norm_num

/-- Rounding errors of the polynomial part of `cos`. -/
theorem cos_poly {s : F32} (hs : s.isFinite = true) (hb : |s.val| ≤ 1 / 2 + 1 / 10 ^ 4) :
    let y := s * (lit 16 1 * (s.abs - lit 5 10))
    let r := y + lit 225 1000 * y * (y.abs - one)
    r.isFinite = true ∧ |r.val - cosFQ s.val| ≤ 5 / 10 ^ 7 := by
  intro y r
  obtain ⟨f16, v16⟩ := lit_sixteen
  obtain ⟨fh, vh⟩ := lit_half'
  obtain ⟨fc, vc⟩ := lit_225
  have fa : s.abs.isFinite = true := by rw [isFinite_abs]; exact hs
  obtain ⟨S, hS⟩ : ∃ S, S = s.val := ⟨_, rfl⟩
  rw [← hS] at hb ⊢
  have hS0 := abs_nonneg S
  have hbb : |(|S|) - 1 / 2| ≤ 1 / 2 := by rw [abs_le]; constructor <;> linarith
  -- `|s| - 0.5`
  obtain ⟨d1, hd1, f1, v1⟩ := sub_rel fa fh (by
    rw [val_abs, vh, ← hS]; exact lt_of_le_of_lt hbb (by norm_num [ovf]))
  rw [val_abs, vh, ← hS] at v1
  have h1d : |1 + d1| ≤ 1 + 1 / 2 ^ 24 := by
    refine (abs_add_le _ _).trans ?_
    rw [abs_one]; linarith
  have hb1 : |(s.abs - lit 5 10).val| ≤ 1 := by
    rw [v1, abs_mul]
    refine (mul_le_mul hbb h1d (abs_nonneg _) (by norm_num)).trans (by norm_num)
  -- times 16 is exact
  have r16 : Rep (16 * (s.abs - lit 5 10).val) := by
    have := rep_scale (rep_val (s.abs - lit 5 10)) 4
    norm_num at this; exact this
  obtain ⟨f2, v2⟩ := mul_exact f16 f1 (by
    rw [v16, abs_mul, abs_of_pos (show (0 : ℚ) < 16 by norm_num)]
    refine le_trans (mul_le_mul_of_nonneg_left hb1 (by norm_num)) (by norm_num [maxF])) (by rw [v16]; exact r16)
  rw [v16, v1] at v2
  obtain ⟨Y, hY⟩ : ∃ Y, Y = 16 * S * (|S| - 1 / 2) := ⟨_, rfl⟩
  have hYb : |Y| ≤ 1 := by
    rw [hY, abs_mul, abs_mul, abs_of_pos (show (0 : ℚ) < 16 by norm_num)]
    rcases le_total (|S|) (1 / 2) with h' | h'
    · rw [abs_of_nonpos (show |S| - 1 / 2 ≤ 0 by linarith)]; nlinarith [sq_nonneg (|S| - 1 / 4)]
    · rw [abs_of_nonneg (show 0 ≤ |S| - 1 / 2 by linarith)]; nlinarith
  have eY : S * (lit 16 1 * (s.abs - lit 5 10)).val = Y * (1 + d1) := by rw [v2, hY]; ring
  have hYd : |Y * (1 + d1)| ≤ 1 + 1 / 2 ^ 24 := by
    rw [abs_mul]
    calc |Y| * |1 + d1| ≤ 1 * (1 + 1 / 2 ^ 24) := mul_le_mul hYb h1d (abs_nonneg _) (by norm_num)
      _ = _ := by ring
  obtain ⟨f3, v3⟩ := mul_val hs f2 (by rw [← hS, eY]; exact lt_of_le_of_lt hYd (by norm_num [ovf]))
  rw [← hS, eY] at v3
  have e3 : |y.val - Y| ≤ 21 / 10 / 2 ^ 24 := by
    have h := RN_err (Y * (1 + d1))
    have h' : |RN (Y * (1 + d1)) - Y * (1 + d1)| ≤ (1 + 1 / 2 ^ 24) / 2 ^ 24 :=
      h.trans (max_le (by norm_num) (by gcongr))
    have h2 : |Y * (1 + d1) - Y| ≤ 1 / 2 ^ 24 := by
      rw [show Y * (1 + d1) - Y = Y * d1 by ring, abs_mul]
      calc |Y| * |d1| ≤ 1 * (1 / 2 ^ 24) := mul_le_mul hYb hd1 (abs_nonneg _) (by norm_num)
        _ = _ := by ring
    show |(s * (lit 16 1 * (s.abs - lit 5 10))).val - Y| ≤ _
    rw [v3]
    refine (abs_sub_le _ (Y * (1 + d1)) _).trans ((add_le_add h' h2).trans (by norm_num))
  have fy : y.isFinite = true := f3
  have hy1 : |y.val| ≤ 1 + 1 / 2 ^ 22 := by
    have := abs_sub_abs_le_abs_sub y.val Y
    have h2 : (21 : ℚ) / 10 / 2 ^ 24 ≤ 1 / 2 ^ 22 := by norm_num
    linarith
  -- `0.225 * y`
  obtain ⟨d4, hd4, f4, v4⟩ := mul_err fc fy (-2) (by norm_num) (by norm_num) (by
    rw [vc, abs_mul, abs_of_pos (show (0 : ℚ) < 15099494 / 67108864 by norm_num)]
    refine (mul_le_mul_of_nonneg_left hy1 (by norm_num)).trans (by norm_num))
  rw [vc] at v4
  -- `|y| - 1`
  have fya : y.abs.isFinite = true := by rw [isFinite_abs]; exact fy
  obtain ⟨d5, hd5, f5, v5⟩ := sub_err fya fin_one 0 (by norm_num) (by norm_num) (by
    rw [val_abs, val_one, abs_le]
    have := abs_nonneg y.val
    norm_num at hy1; constructor <;> linarith)
  rw [val_abs, val_one] at v5
  norm_num at hd4 hd5
  have b4 : |(lit 225 1000 * y).val| ≤ 1 / 4 := by
    rw [v4]
    refine (abs_add_le _ _).trans ?_
    rw [abs_mul, abs_of_pos (show (0 : ℚ) < 15099494 / 67108864 by norm_num)]
    have := mul_le_mul_of_nonneg_left hy1 (show (0 : ℚ) ≤ 15099494 / 67108864 by norm_num)
    norm_num at this ⊢
    linarith
  have b5 : |(y.abs - one).val| ≤ 1 + 1 / 2 ^ 20 := by
    rw [v5]
    refine (abs_add_le _ _).trans ?_
    have : |(|y.val|) - 1| ≤ 1 := by
      rw [abs_le]
      have := abs_nonneg y.val
      norm_num at hy1; constructor <;> linarith
    norm_num at this ⊢
    linarith
  have b45 : |(lit 225 1000 * y).val * (y.abs - one).val| ≤ 1 / 4 * (1 + 1 / 2 ^ 20) := by
    rw [abs_mul]; exact mul_le_mul b4 b5 (abs_nonneg _) (by norm_num)
  obtain ⟨d6, hd6, f6, v6⟩ := mul_err f4 f5 (-1) (by norm_num) (by norm_num) (b45.trans (by norm_num))
  norm_num at hd6
  have b6 : |(lit 225 1000 * y * (y.abs - one)).val| ≤ 1 / 2 := by
    rw [v6]
    refine (abs_add_le _ _).trans ?_
    norm_num at b45 ⊢
    linarith
  obtain ⟨d7, hd7, f7, v7⟩ := add_err fy f6 1 (by norm_num) (by norm_num) (by
    refine (abs_add_le _ _).trans ?_
    norm_num at hy1 b6 ⊢
    linarith)
  norm_num at hd7
  refine ⟨f7, ?_⟩
  show |(y + lit 225 1000 * y * (y.abs - one)).val - cosFQ S| ≤ _
  rw [v7, v6, v4, v5]
  unfold cosFQ
  rw [← hY]
  generalize y.val = u at *
  have hu0 := abs_nonneg u
  have hY0 := abs_nonneg Y
  have hw : |(|u|) - 1| ≤ 1 := by
    rw [abs_le]; norm_num at hy1; constructor <;> linarith
  have hdif : |(|u|) - (|Y|)| ≤ 21 / 10 / 2 ^ 24 := (abs_abs_sub_abs_le u Y).trans e3
  have hc4 : |15099494 / 67108864 * u + d4| ≤ 1 / 4 := by rw [v4] at b4; exact b4
  have E : u + ((15099494 / 67108864 * u + d4) * (|u| - 1 + d5) + d6) + d7 -
      (Y + 225 / 1000 * Y * (|Y| - 1)) =
      (u - Y) * (775 / 1000) + 225 / 1000 * ((u - Y) * |u|) + 225 / 1000 * (Y * (|u| - |Y|)) +
      (15099494 / 67108864 - 225 / 1000) * u * (|u| - 1) + d4 * (|u| - 1) +
      (15099494 / 67108864 * u + d4) * d5 + d6 + d7 := by ring
  rw [E]
  have t1 : |(u - Y) * (775 / 1000)| ≤ 21 / 10 / 2 ^ 24 * (775 / 1000) := by
    rw [abs_mul]; exact mul_le_mul e3 (by norm_num) (abs_nonneg _) (by norm_num)
  have t2 : |225 / 1000 * ((u - Y) * |u|)| ≤ 225 / 1000 * (21 / 10 / 2 ^ 24 * (1 + 1 / 2 ^ 22)) := by
    rw [abs_mul, abs_mul, abs_abs, abs_of_pos (show (0 : ℚ) < 225 / 1000 by norm_num)]
    exact mul_le_mul_of_nonneg_left (mul_le_mul e3 hy1 hu0 (by norm_num)) (by norm_num)
  have t3 : |225 / 1000 * (Y * (|u| - |Y|))| ≤ 225 / 1000 * (1 * (21 / 10 / 2 ^ 24)) := by
    rw [abs_mul, abs_mul, abs_of_pos (show (0 : ℚ) < 225 / 1000 by norm_num)]
    exact mul_le_mul_of_nonneg_left (mul_le_mul hYb hdif (abs_nonneg _) (by norm_num)) (by norm_num)
  have t4 : |(15099494 / 67108864 - 225 / 1000) * u * (|u| - 1)| ≤ 6 / 10 ^ 9 * (1 + 1 / 2 ^ 22) * 1 := by
    rw [abs_mul, abs_mul]
    exact mul_le_mul (mul_le_mul (by norm_num [abs_le]) hy1 hu0 (by norm_num)) hw (abs_nonneg _) (by norm_num)
  have t5 : |d4 * (|u| - 1)| ≤ 1 / 134217728 * 1 := by
    rw [abs_mul]; exact mul_le_mul hd4 hw (abs_nonneg _) (by norm_num)
  have t6 : |(15099494 / 67108864 * u + d4) * d5| ≤ 1 / 4 * (1 / 33554432) := by
    rw [abs_mul]; exact mul_le_mul hc4 hd5 (abs_nonneg _) (by norm_num)
  refine (abs_add_le _ _).trans ?_
  refine (add_le_add (abs_add_le _ _) le_rfl).trans ?_
  refine (add_le_add (add_le_add (abs_add_le _ _) le_rfl) le_rfl).trans ?_
  refine (add_le_add (add_le_add (add_le_add (abs_add_le _ _) le_rfl) le_rfl) le_rfl).trans ?_
  refine (add_le_add (add_le_add (add_le_add (add_le_add (abs_add_le _ _) le_rfl) le_rfl) le_rfl) le_rfl).trans ?_
  refine (add_le_add (add_le_add (add_le_add (add_le_add (add_le_add (abs_add_le _ _) le_rfl) le_rfl) le_rfl) le_rfl) le_rfl).trans ?_
  refine (add_le_add (add_le_add (add_le_add (add_le_add (add_le_add (add_le_add (abs_add_le _ _) le_rfl) le_rfl) le_rfl) le_rfl) le_rfl) le_rfl).trans ?_
  norm_num at t1 t2 t3 t4 t5 t6 hd6 hd7 ⊢
  linarith

omit [Cfg] in
/-- The two constants of the argument reduction against `1 / (2 * pi)`. -/
theorem two_pi_K : |2 * Real.pi * (10680707 / 67108864) - 1| ≤ 4.1 / 10 ^ 8 := by
  have h1 := Real.pi_gt_d20
  have h2 := Real.pi_lt_d20
  rw [abs_le]; constructor <;> norm_num at h1 h2 ⊢ <;> linarith

/-- Range and accuracy of `cos` from its reduced argument. -/
theorem cos_of_reduced {x s : F32} {n : Int} (hs : s = x * (FRAC_1_PI / lit 2 1) -
        (lit 25 100 + (x * (FRAC_1_PI / lit 2 1) + lit 25 100).floor))
    (fs : s.isFinite = true) (sb : |s.val| ≤ 1 / 2 + 1 / 10 ^ 4)
    (se : |s.val - (x.val * (10680707 / 67108864) - n - 1 / 4)| ≤ |x.val| * (10680707 / 67108864) / 2 ^ 24 + 4 / 10 ^ 8) :
    x.cos.isFinite = true ∧ |x.cos.val| ≤ 1 + 1 / 2 ^ 20 ∧
    |(x.cos.val : ℝ) - Real.cos x.val| ≤ 0.0011 + 1.01 / 10 ^ 7 * |(x.val : ℝ)| := by
  have hc : x.cos = (s * (lit 16 1 * (s.abs - lit 5 10))) + lit 225 1000 * (s * (lit 16 1 * (s.abs - lit 5 10))) *
      ((s * (lit 16 1 * (s.abs - lit 5 10))).abs - one) := by
    rw [hs]; unfold F32.cos; rfl
  obtain ⟨fr, hr⟩ := cos_poly fs sb
  rw [← hc] at fr hr
  have sbR := abs_cast_le sb
  push_cast at sbR
  have h1 : |(cosFQ s.val : ℝ)| ≤ 1 := by rw [cosFQ_cast]; exact cosF_le_one sbR
  have h1' : |cosFQ s.val| ≤ 1 := by exact_mod_cast h1
  refine ⟨fr, ?_, ?_⟩
  · have := abs_sub_abs_le_abs_sub x.cos.val (cosFQ s.val)
    have h2 : (5 : ℚ) / 10 ^ 7 ≤ 1 / 2 ^ 20 := by norm_num
    linarith
  · have hrR := abs_cast_le hr
    push_cast at hrR
    rw [cosFQ_cast] at hrR
    have ha := cosF_approx sbR
    have seR := abs_cast_le se
    push_cast at seR
    have hxn := abs_nonneg (x.val : ℝ)
    generalize (x.cos.val : ℝ) = C at *
    generalize (x.val : ℝ) = X at *
    generalize (s.val : ℝ) = S at *
    have e1 : Real.sin (X - Real.pi / 2 - n * (2 * Real.pi)) = -Real.cos X := by
      rw [Real.sin_sub_int_mul_two_pi, Real.sin_sub_pi_div_two]
    have e2 := Real.abs_sin_sub_sin_le (2 * Real.pi * S) (X - Real.pi / 2 - n * (2 * Real.pi))
    rw [e1] at e2
    have hpi := Real.pi_gt_d4
    have hpi2 := Real.pi_lt_d4
    have e3 : |2 * Real.pi * S - (X - Real.pi / 2 - n * (2 * Real.pi))| ≤
        1.007 / 10 ^ 7 * |X| + 3 / 10 ^ 7 := by
      have : 2 * Real.pi * S - (X - Real.pi / 2 - n * (2 * Real.pi)) =
          2 * Real.pi * (S - (X * (10680707 / 67108864) - n - 1 / 4)) +
          X * (2 * Real.pi * (10680707 / 67108864) - 1) := by ring
      rw [this]
      refine (abs_add_le _ _).trans ?_
      rw [abs_mul, abs_mul X, abs_of_pos (show 0 < 2 * Real.pi by positivity)]
      have t1 := mul_le_mul_of_nonneg_left seR (show 0 ≤ 2 * Real.pi by positivity)
      have t2 := mul_le_mul_of_nonneg_left two_pi_K hxn
      have t3 : 2 * Real.pi * (|X| * (10680707 / 67108864) / 2 ^ 24 + 4 / 10 ^ 8) ≤
          (2 * 3.1416) * (|X| * (10680707 / 67108864) / 2 ^ 24 + 4 / 10 ^ 8) := by
        refine mul_le_mul_of_nonneg_right (by linarith) (by positivity)
      norm_num at t1 t2 t3 ⊢
      linarith
    have e4 := e2.trans e3
    rw [abs_le] at ha hrR e4 ⊢
    norm_num at ha hrR e4 ⊢
    constructor <;> linarith [e4.1, e4.2, ha.1, ha.2, hrR.1, hrR.2]

/-- Range and accuracy of `cos` with the dependence on `|x|` explicit. -/
theorem cos_main {x : F32} (hx : x.isFinite = true) (hb : |x.val| ≤ 8200) :
    x.cos.isFinite = true ∧ |x.cos.val| ≤ 1 + 1 / 2 ^ 20 ∧
    |(x.cos.val : ℝ) - Real.cos x.val| ≤ 0.0011 + 1.01 / 10 ^ 7 * |(x.val : ℝ)| := by
  obtain ⟨s, n, hs, fs, sb, se⟩ := cos_reduce hx hb
  exact cos_of_reduced hs fs sb se

/-- **C34.** On `|x| <= 4096` the result of `cos` has error at most `0.002` and magnitude at most `1 + 2^-20`. -/
theorem C34_cos {x : F32} (hx : x.isFinite = true) (hb : |x.val| ≤ 4096) :
    x.cos.isFinite = true ∧ |x.cos.val| ≤ 1 + 1 / 2 ^ 20 ∧ |(x.cos.val : ℝ) - Real.cos x.val| ≤ 0.002 := by
  obtain ⟨h1, h2, h3⟩ := cos_main hx (hb.trans (by norm_num))
  refine ⟨h1, h2, h3.trans ?_⟩
  have := abs_cast_le hb
  push_cast at this
  norm_num at this ⊢
  linarith

/-- The hypotheses of `C34_cos` hold for `1000.0`. -/
example : (ofInt 1000).isFinite = true ∧ |(ofInt 1000).val| ≤ 4096 := by
  obtain ⟨h1, h2⟩ := ofInt_isVal (n := 1000) (by decide)
  exact ⟨h1, by rw [h2]; norm_num⟩

/-- Accuracy of `cos` with the error growing linearly in `|x|`. -/
theorem C34_cos_error {x : F32} (hx : x.isFinite = true) (hb : |x.val| ≤ 8192) :
    |(x.cos.val : ℝ) - Real.cos x.val| ≤ 0.0011 + 1.01 / 10 ^ 7 * |(x.val : ℝ)| :=
  (cos_main hx (hb.trans (by norm_num))).2.2

/-! ### C35 -/

theorem cos_1e30 : (ofInt (10 ^ 30)).cos = ⟨0x7f800000#32⟩ := eval_eq (by kernel_rfl)
theorem sin_1e30 : (ofInt (10 ^ 30)).sin = ⟨0x7f800000#32⟩ := eval_eq (by kernel_rfl)

/-- **C35 (refuted).** The documented error bound of `cos` and `sin` does not hold for every finite input:
at `1e30` both results are infinite. -/
theorem C35_cos_all_false :
    (¬ ∀ x : F32, x.isFinite = true → x.cos.isFinite = true ∧ |(x.cos.val : ℝ) - Real.cos x.val| ≤ 0.002) ∧
    (¬ ∀ x : F32, x.isFinite = true → x.sin.isFinite = true ∧ |(x.sin.val : ℝ) - Real.sin x.val| ≤ 0.002) := by
  have f : (ofInt (10 ^ 30)).isFinite = true := by decide +kernel
  constructor
  · intro h
    have := (h _ f).1
    rw [cos_1e30] at this
    exact absurd this (by decide)
  · intro h
    have := (h _ f).1
    rw [sin_1e30] at this
    exact absurd this (by decide)

/-! ### C36 -/

/-- `sin` with the dependence on `|x|` explicit. -/
theorem sin_main {x : F32} (hx : x.isFinite = true) (hb : |x.val| ≤ 8192) :
    x.sin.isFinite = true ∧ |x.sin.val| ≤ 1 + 1 / 2 ^ 20 ∧
    |(x.sin.val : ℝ) - Real.sin x.val| ≤ 0.001101 + 1.62 / 10 ^ 7 * |(x.val : ℝ)| := by
  have hu : x.sin = (x - FRAC_PI_2).cos := by unfold F32.sin; rw [pi_div_two]
  rw [hu]
  have hd : |x.val - FRAC_PI_2.val| ≤ |x.val| + 1.5708 := by
    rw [val_FRAC_PI_2]
    refine (abs_sub _ _).trans ?_
    rw [abs_of_pos (show (0 : ℚ) < 13176795 / 8388608 by norm_num)]
    norm_num
  have hd2 : |x.val| + 1.5708 ≤ 8194 := by norm_num; linarith
  obtain ⟨f1, v1⟩ := sub_val hx fin_FRAC_PI_2 (lt_of_le_of_lt (hd.trans hd2) (by unfold ovf; norm_num))
  have e1 : |(x - FRAC_PI_2).val - (x.val - FRAC_PI_2.val)| ≤ (|x.val| + 1.5708) / 2 ^ 24 := by
    rw [v1]
    refine (RN_err _).trans (max_le ?_ (by gcongr))
    have := abs_nonneg x.val
    rw [le_div_iff₀ (by norm_num)]
    refine le_trans ?_ (le_add_of_nonneg_left this)
    norm_num
  have e2 : |(x - FRAC_PI_2).val| ≤ |x.val| + 1.58 := by
    have := abs_sub_abs_le_abs_sub (x - FRAC_PI_2).val (x.val - FRAC_PI_2.val)
    norm_num at *
    linarith
  obtain ⟨c1, c2, c3⟩ := cos_main f1 (e2.trans (by norm_num; linarith))
  refine ⟨c1, c2, ?_⟩
  have e1R := abs_cast_le e1
  have e2R := abs_cast_le e2
  rw [val_FRAC_PI_2] at e1R
  push_cast at e1R e2R
  generalize ((x - FRAC_PI_2).cos.val : ℝ) = C at *
  generalize ((x - FRAC_PI_2).val : ℝ) = Y at *
  have hX := abs_nonneg (x.val : ℝ)
  generalize (x.val : ℝ) = X at *
  have hpi := Real.pi_gt_d20
  have hpi2 := Real.pi_lt_d20
  have e3 : |Y - (X - Real.pi / 2)| ≤ (|X| + 1.5708) / 2 ^ 24 + 1 / 10 ^ 7 := by
    rw [abs_le] at *
    norm_num at *
    constructor <;> linarith [e1R.1, e1R.2]
  have e4 := Real.abs_cos_sub_cos_le Y (X - Real.pi / 2)
  rw [Real.cos_sub_pi_div_two] at e4
  have e5 := e4.trans e3
  refine (abs_sub_le C (Real.cos Y) _).trans ?_
  norm_num at c3 e5 e2R ⊢
  linarith

/-- **C36.** On `|x| <= 4096` the error of `sin` is at most `0.002`; `sin_cos` returns exactly `sin` and `cos`. -/
theorem C36_sin {x : F32} (hx : x.isFinite = true) (hb : |x.val| ≤ 4096) :
    x.sin.isFinite = true ∧ |x.sin.val| ≤ 1 + 1 / 2 ^ 20 ∧ |(x.sin.val : ℝ) - Real.sin x.val| ≤ 0.002 := by
  obtain ⟨h1, h2, h3⟩ := sin_main hx (hb.trans (by norm_num))
  refine ⟨h1, h2, h3.trans ?_⟩
  have := abs_cast_le hb
  push_cast at this
  norm_num at this ⊢
  linarith

theorem C36_sin_cos (x : F32) : x.sinCos = (x.sin, x.cos) ∧ F32Ext.sinCos x = (F32Ext.sin x, F32Ext.cos x) ∧
    F32Ext.sinCos x = x.sinCos := ⟨rfl, rfl, rfl⟩

example : (ofInt (-3000)).isFinite = true ∧ |(ofInt (-3000)).val| ≤ 4096 := by
  obtain ⟨h1, h2⟩ := ofInt_isVal (n := -3000) (by decide)
  exact ⟨h1, by rw [h2]; norm_num [abs_le]⟩

/-! ### C37 -/

omit [Cfg] in
/-- Error of a quotient of two approximations. -/
theorem quot_err {s c S C : ℝ} (hs : |s - S| ≤ 0.002) (hc : |c - C| ≤ 0.002) (hS : |S| ≤ 1)
    (h : 1 / 15 ≤ |C|) : |s / c - S / C| ≤ 0.5 := by
  have hc0 : 1 / 15 - 0.002 ≤ |c| := by
    have := abs_sub_abs_le_abs_sub C c
    rw [abs_sub_comm] at hc
    linarith
  have c0 : c ≠ 0 := by intro h0; rw [h0, abs_zero] at hc0; norm_num at hc0
  have C0 : C ≠ 0 := by intro h0; rw [h0, abs_zero] at h; norm_num at h
  have e : s / c - S / C = ((s - S) * C - S * (c - C)) / (c * C) := by field_simp; ring
  rw [e, abs_div, abs_mul, div_le_iff₀ (by positivity)]
  have h1 : |(s - S) * C - S * (c - C)| ≤ 0.002 * |C| + 1 * 0.002 := by
    refine (abs_sub _ _).trans ?_
    rw [abs_mul, abs_mul]
    exact add_le_add (mul_le_mul_of_nonneg_right hs (abs_nonneg _)) (mul_le_mul hS hc (abs_nonneg _) (by norm_num))
  have h2 : (1 / 15 - 0.002) * |C| ≤ |c| * |C| := mul_le_mul_of_nonneg_right hc0 (abs_nonneg _)
  norm_num at h1 h2 h ⊢
  linarith

/-- **C37.** `tan` is the float quotient of `sin` and `cos`.  The documented bound `0.6` holds for
`|x| <= 4096` away from the poles (`|cos x| >= 1/15`). -/
theorem C37_tan {x : F32} (hx : x.isFinite = true) (hb : |x.val| ≤ 4096)
    (hc : 1 / 15 ≤ |Real.cos x.val|) :
    x.tan.isFinite = true ∧ |(x.tan.val : ℝ) - Real.tan x.val| ≤ 0.6 := by
  obtain ⟨fs, bs, es⟩ := C36_sin hx hb
  obtain ⟨fc, bc, ec⟩ := C34_cos hx hb
  have hq := quot_err es ec (Real.abs_sin_le_one _) hc
  have hcl : (1 : ℝ) / 16 ≤ |(x.cos.val : ℝ)| := by
    have := abs_sub_abs_le_abs_sub (Real.cos x.val) (x.cos.val : ℝ)
    rw [abs_sub_comm] at ec
    norm_num at *
    linarith
  have hcl' : (1 : ℚ) / 16 ≤ |x.cos.val| := by
    have : ((1 / 16 : ℚ) : ℝ) ≤ ((|x.cos.val| : ℚ) : ℝ) := by push_cast; exact hcl
    exact_mod_cast this
  have c0 : x.cos.val ≠ 0 := by intro h0; rw [h0, abs_zero] at hcl'; norm_num at hcl'
  have hqb : |x.sin.val / x.cos.val| ≤ 2 ^ (5 : Int) := by
    rw [abs_div, div_le_iff₀ (by positivity)]
    norm_num at bs hcl' ⊢
    linarith
  obtain ⟨d, hd, fd, vd⟩ := div_err fs fc c0 5 (by norm_num) (by norm_num) hqb
  refine ⟨fd, ?_⟩
  have hdR := abs_cast_le hd
  push_cast at hdR
  show |(((x.sin / x.cos).val : ℚ) : ℝ) - _| ≤ _
  rw [vd, Real.tan_eq_sin_div_cos]
  push_cast
  rw [add_sub_right_comm]
  refine (abs_add_le _ _).trans ?_
  norm_num at hdR hq ⊢
  linarith

theorem C37_tan_def (x : F32) : x.tan = x.sin / x.cos ∧ F32Ext.tan x = F32Ext.sin x / F32Ext.cos x := ⟨rfl, rfl⟩

theorem tan_half_pi : FRAC_PI_2.tan = ⟨0x7f800000#32⟩ := eval_eq (by kernel_rfl)

/-- **C37 (documented bound refuted).** `tan` of the float nearest to `pi/2` is `+inf`,
while the true tangent is finite and negative. -/
theorem C37_tan_documented_false :
    ¬ (∀ x : F32, |x.val| ≤ 2 → x.isFinite = true → x.tan.isFinite = true ∧ |(x.tan.val : ℝ) - Real.tan x.val| ≤ 0.6) ∧
    FRAC_PI_2.tan = INFINITY ∧ Real.tan FRAC_PI_2.val < 0 := by
  refine ⟨?_, ?_, ?_⟩
  · intro h
    have := (h FRAC_PI_2 (by rw [val_FRAC_PI_2]; norm_num) fin_FRAC_PI_2).1
    rw [tan_half_pi] at this
    exact absurd this (by decide)
  · rw [tan_half_pi]; decide
  · rw [val_FRAC_PI_2]
    have hpi := Real.pi_gt_d20
    have hpi2 := Real.pi_lt_d20
    rw [Real.tan_eq_sin_div_cos]
    refine div_neg_of_pos_of_neg ?_ ?_
    · exact Real.sin_pos_of_pos_of_lt_pi (by norm_num) (by norm_num at *; linarith)
    · exact Real.cos_neg_of_pi_div_two_lt_of_lt (by norm_num at *; linarith) (by norm_num at *; linarith)

/-- The hypotheses of `C37_tan` hold for `0.0`, and for `1.0`. -/
example : one.isFinite = true ∧ |one.val| ≤ 4096 ∧ 1 / 15 ≤ |Real.cos one.val| := by
  refine ⟨fin_one, by rw [val_one]; norm_num, ?_⟩
  rw [val_one]
  have := Real.cos_one_pos
  have h := Real.one_sub_sq_div_two_le_cos (x := 1)
  norm_num at h ⊢
  rw [abs_of_pos this]; linarith

/-! ### C83 -/

/-- Adding at most a quarter to a float of magnitude at least `2^24` changes nothing. -/
theorem add_quarter_large {x c : F32} (hx : x.isFinite = true) (hc : c.isFinite = true) (h : 2 ^ 24 ≤ |x.val|)
    (hb : |x.val| ≤ 2 ^ 31) (hd : |c.val| ≤ 1 / 4) : (x + c).isFinite = true ∧ (x + c).val = x.val := by
  have hov : |x.val + c.val| < ovf := by
    refine lt_of_le_of_lt (abs_add_le _ _) (lt_of_le_of_lt (add_le_add hb hd) (by unfold ovf; norm_num))
  obtain ⟨f, v⟩ := add_val hx hc hov
  refine ⟨f, ?_⟩
  have hn : |RN (x.val + c.val) - (x.val + c.val)| ≤ |x.val - (x.val + c.val)| := RN_nearest (rep_val x)
  rw [← v] at hn
  rw [show x.val - (x.val + c.val) = -c.val by ring, abs_neg] at hn
  have h1 : |(x + c).val - x.val| ≤ 1 / 2 := by
    have := abs_sub_le (x + c).val (x.val + c.val) x.val
    rw [show x.val + c.val - x.val = c.val by ring] at this
    linarith
  obtain ⟨a, ha⟩ := val_int_of_large (x := x) (le_trans (by norm_num) h)
  obtain ⟨b, hb⟩ := val_int_of_large (x := x + c) (by
    have := abs_sub_abs_le_abs_sub x.val (x + c).val
    rw [abs_sub_comm] at h1
    norm_num at h ⊢
    linarith)
  rw [ha, hb] at h1 ⊢
  have h2 : |b - a| < 1 := by
    have : ((|b - a| : Int) : ℚ) < 1 := by push_cast; linarith
    exact_mod_cast this
  rw [Int.abs_lt_one_iff] at h2
  rw [show b = a by omega]

theorem cos_poly_zero : (∀ s : F32, s = ⟨0#32⟩ →
      IsVal (s * (lit 16 1 * (s.abs - lit 5 10)) + lit 225 1000 * (s * (lit 16 1 * (s.abs - lit 5 10))) *
        ((s * (lit 16 1 * (s.abs - lit 5 10))).abs - one)) 0) ∧
    (∀ s : F32, s = ⟨0x80000000#32⟩ →
      IsVal (s * (lit 16 1 * (s.abs - lit 5 10)) + lit 225 1000 * (s * (lit 16 1 * (s.abs - lit 5 10))) *
        ((s * (lit 16 1 * (s.abs - lit 5 10))).abs - one)) 0) := by
  have z : ∀ w : F32, w = ⟨0#32⟩ → IsVal w 0 := by
    rintro w rfl
    exact ⟨by decide, by rw [val_of_units (u := 0) (by decide)]; norm_num⟩
  constructor
  · rintro s rfl; exact z _ (eval_eq (by kernel_rfl))
  · rintro s rfl; exact z _ (eval_eq (by kernel_rfl))

/-- **C83.** From `2^27` to `2^33` in magnitude, `cos` ignores its argument: the result is always zero. -/
theorem C83_cos_large {x : F32} (hx : x.isFinite = true) (hl : 2 ^ 27 ≤ |x.val|) (hu : |x.val| ≤ 2 ^ 33) :
    IsVal x.cos 0 := by
  obtain ⟨fK, vK⟩ := cos_K
  have hp : |x.val * (10680707 / 67108864)| = |x.val| * (10680707 / 67108864) := by
    rw [abs_mul, abs_of_pos (show (0 : ℚ) < 10680707 / 67108864 by norm_num)]
  have pl : 2 ^ 24 ≤ |x.val * (10680707 / 67108864)| := by rw [hp]; norm_num at hl ⊢; linarith
  have pu : |x.val * (10680707 / 67108864)| ≤ 2 ^ 30 * 3 / 2 := by rw [hp]; norm_num at hu ⊢; linarith
  obtain ⟨f1, v1⟩ := mul_val hx fK (by rw [vK]; exact lt_of_le_of_lt pu (by unfold ovf; norm_num))
  rw [vK] at v1
  unfold F32.cos
  generalize x * (FRAC_1_PI / lit 2 1) = x1 at *
  have l1 : 2 ^ 24 ≤ |x1.val| := by
    rw [v1, ← RN_abs]; exact le_RN_of_rep (by
      have := rep_int (m := 2 ^ 24) (by norm_num)
      push_cast at this; exact this) pl
  have u1 : |x1.val| ≤ 2 ^ 30 * 3 / 2 := by
    rw [v1]; exact abs_RN_le_of_rep (by
      have := rep_zpow (m := 3) (by norm_num) (e := 29) (by norm_num)
      norm_num at this ⊢; exact this) pu
  have u2 : |x1.val| ≤ 2 ^ 31 := u1.trans (by norm_num)
  obtain ⟨f4, v4⟩ := lit_quarter
  obtain ⟨f2, v2⟩ := add_quarter_large f1 f4 l1 u2 (by rw [v4]; norm_num)
  obtain ⟨l3, u3⟩ := abs_le.1 u1
  obtain ⟨f3, v3⟩ := floor_isVal f2 (by rw [v2]; norm_num at l3 ⊢; linarith) (by rw [v2]; norm_num at u3 ⊢; linarith)
  rw [v2] at v3
  obtain ⟨a, ha⟩ := val_int_of_large (x := x1) (le_trans (by norm_num) l1)
  rw [ha, Int.floor_intCast, ← ha] at v3
  obtain ⟨f5, v5⟩ := add_quarter_large f3 f4 (by rw [v3]; exact l1) (by rw [v3]; exact u2) (by rw [v4]; norm_num)
  rw [add_comm_fin f3 f4] at f5 v5
  rw [v3] at v5
  obtain ⟨f6, v6⟩ := sub_exact f1 f5 (by rw [v5, sub_self, abs_zero]; unfold maxF; norm_num)
    (by rw [v5, sub_self]; exact ⟨0, by rw [abs_zero]; unfold mval magU; norm_num⟩)
  rw [v5, sub_self] at v6
  have hm := val_eq_zero.1 v6
  show IsVal ((x1 - (lit 25 100 + (x1 + lit 25 100).floor)) * (lit 16 1 * ((x1 - (lit 25 100 + (x1 + lit 25 100).floor)).abs - lit 5 10)) +
    lit 225 1000 * ((x1 - (lit 25 100 + (x1 + lit 25 100).floor)) * (lit 16 1 * ((x1 - (lit 25 100 + (x1 + lit 25 100).floor)).abs - lit 5 10))) *
        (((x1 - (lit 25 100 + (x1 + lit 25 100).floor)) * (lit 16 1 * ((x1 - (lit 25 100 + (x1 + lit 25 100).floor)).abs - lit 5 10))).abs - one)) 0
  generalize x1 - (lit 25 100 + (x1 + lit 25 100).floor) = s at hm ⊢
  have hz : s = ⟨0#32⟩ ∨ s = ⟨0x80000000#32⟩ := by
    rcases hsg : s.sign with _ | _
    · exact Or.inl (ext_mag_sign (by rw [hm]; decide) (by rw [hsg]; decide))
    · exact Or.inr (ext_mag_sign (by rw [hm]; decide) (by rw [hsg]; decide))
  rcases hz with h | h
  · exact cos_poly_zero.1 s h
  · exact cos_poly_zero.2 s h

/-- `sin` is constant on the same range. -/
theorem C83_sin_large {x : F32} (hx : x.isFinite = true) (hl : 2 ^ 27 + 2 ≤ |x.val|) (hu : |x.val| ≤ 2 ^ 33 - 2) :
    IsVal x.sin 0 := by
  have hs : x.sin = (x - FRAC_PI_2).cos := by unfold F32.sin; rw [pi_div_two]
  rw [hs]
  have hp : |FRAC_PI_2.val| ≤ 2 := by rw [val_FRAC_PI_2]; norm_num
  have h1 : 2 ^ 27 ≤ |x.val - FRAC_PI_2.val| := by
    have := abs_sub_abs_le_abs_sub x.val FRAC_PI_2.val
    linarith
  have h2 : |x.val - FRAC_PI_2.val| ≤ 2 ^ 33 := by
    have := abs_sub x.val FRAC_PI_2.val
    linarith
  obtain ⟨f1, v1⟩ := sub_val hx fin_FRAC_PI_2 (lt_of_le_of_lt h2 (by unfold ovf; norm_num))
  refine C83_cos_large f1 ?_ ?_
  · rw [v1, ← RN_abs]
    refine le_RN_of_rep ?_ h1
    have := rep_pow (e := 27) (by norm_num)
    norm_num at this ⊢; exact this
  · rw [v1]
    refine abs_RN_le_of_rep ?_ h2
    have := rep_pow (e := 33) (by norm_num)
    norm_num at this ⊢; exact this

/-- The hypotheses of `C83_cos_large` and `C83_sin_large` hold for `1e9`. -/
example : (ofInt (10 ^ 9)).isFinite = true ∧ 2 ^ 27 + 2 ≤ |(ofInt (10 ^ 9)).val| ∧ |(ofInt (10 ^ 9)).val| ≤ 2 ^ 33 - 2 := by
  have h : (ofInt (10 ^ 9)).val = 10 ^ 9 := by
    rw [val_of_units (u := 10 ^ 9 * 2 ^ 149) (by decide +kernel)]; norm_num
  exact ⟨by decide +kernel, by rw [h]; norm_num, by rw [h]; norm_num⟩

/-! ### C74 -/

omit [Cfg] in
/-- Squares of two approximations of cosine and sine. -/
theorem circle_err {s c S C : ℝ} (hs : |s - S| ≤ 0.002) (hc : |c - C| ≤ 0.002) (h : S ^ 2 + C ^ 2 = 1) :
    |c ^ 2 + s ^ 2 - 1| ≤ 0.00801 := by
  have hS : |S| ≤ 1 := by rw [← sq_le_one_iff_abs_le_one]; nlinarith [sq_nonneg C]
  have hC : |C| ≤ 1 := by rw [← sq_le_one_iff_abs_le_one]; nlinarith [sq_nonneg S]
  have key : ∀ a A : ℝ, |a - A| ≤ 0.002 → |A| ≤ 1 → |a ^ 2 - A ^ 2| ≤ 0.002 * 2.002 := by
    intro a A h1 h2
    rw [sq_sub_sq, abs_mul, mul_comm]
    refine mul_le_mul h1 ?_ (abs_nonneg _) (by norm_num)
    have h3 : a + A = (a - A) + 2 * A := by ring
    rw [h3]
    refine (abs_add_le _ _).trans ?_
    rw [abs_mul, abs_of_pos (show (0 : ℝ) < 2 by norm_num)]
    norm_num at h1 ⊢
    linarith
  have e : c ^ 2 + s ^ 2 - 1 = (c ^ 2 - C ^ 2) + (s ^ 2 - S ^ 2) := by rw [← h]; ring
  rw [e]
  refine (abs_add_le _ _).trans ?_
  have k1 := key c C hc hC
  have k2 := key s S hs hS
  norm_num at k1 k2 ⊢
  linarith

/-- `theta * 0.5` does not leave the range of `C34_cos`. -/
theorem half_theta {t : F32} (ht : t.isFinite = true) (hb : |t.val| ≤ 8192) :
    (t * lit 5 10).isFinite = true ∧ |(t * lit 5 10).val| ≤ 4096 := by
  obtain ⟨fh, vh⟩ := lit_half'
  have h1 : |t.val * (lit 5 10).val| ≤ 4096 := by
    rw [vh, abs_mul, abs_of_pos (show (0 : ℚ) < 1 / 2 by norm_num)]; linarith
  obtain ⟨f, v⟩ := mul_val ht fh (lt_of_le_of_lt h1 (by unfold ovf; norm_num))
  refine ⟨f, ?_⟩
  rw [v]
  refine abs_RN_le_of_rep ?_ h1
  have := rep_int (m := 4096) (by norm_num)
  push_cast at this; exact this

/-- **C74.** Layout of `axis_angle`: the scalar part is the crate's cosine of the half angle, the vector part the
axis (converted to `f32`) times the crate's sine of the half angle. -/
theorem C74_axis_angle {C : Type} [IntoF32 C] (v : Vector3d C) (theta : C) :
    (Quaternion.axisAngle v theta).a = (IntoF32.into theta * lit 5 10).cos ∧
    (Quaternion.axisAngle v theta).b = IntoF32.into v.x * (IntoF32.into theta * lit 5 10).sin ∧
    (Quaternion.axisAngle v theta).c = IntoF32.into v.y * (IntoF32.into theta * lit 5 10).sin ∧
    (Quaternion.axisAngle v theta).d = IntoF32.into v.z * (IntoF32.into theta * lit 5 10).sin := ⟨rfl, rfl, rfl, rfl⟩

/-- One component of the vector part, squared, up to rounding. -/
theorem comp_sq {v s : F32} (hv : v.isFinite = true) (hs : s.isFinite = true) (h1 : |v.val| ≤ 3 / 2)
    (h2 : |s.val| ≤ 1 + 1 / 2 ^ 20) :
    (v * s).isFinite = true ∧ |(v * s).val ^ 2 - v.val ^ 2 * s.val ^ 2| ≤ 3 / 10 ^ 7 := by
  have h3 : |v.val * s.val| ≤ 3 / 2 * (1 + 1 / 2 ^ 20) := by
    rw [abs_mul]; exact mul_le_mul h1 h2 (abs_nonneg _) (by norm_num)
  obtain ⟨d, hd, f, e⟩ := mul_err hv hs 1 (by norm_num) (by norm_num) (h3.trans (by norm_num))
  refine ⟨f, ?_⟩
  rw [e, show (v.val * s.val + d) ^ 2 - v.val ^ 2 * s.val ^ 2 = d * (2 * (v.val * s.val) + d) by ring, abs_mul]
  have h4 : |2 * (v.val * s.val) + d| ≤ 4 := by
    refine (abs_add_le _ _).trans ?_
    rw [abs_mul 2, abs_of_pos (show (0 : ℚ) < 2 by norm_num)]
    norm_num at h3 hd ⊢
    linarith
  calc |d| * _ ≤ 2 ^ ((1 : Int) - 25) * 4 := mul_le_mul hd h4 (abs_nonneg _) (by norm_num)
    _ ≤ _ := by norm_num

omit [Cfg] in
/-- The distance of a length from one is at most that of its square. -/
theorem sqrt_sub_one {N e : ℝ} (hN : 0 ≤ N) (h : |N - 1| ≤ e) : |Real.sqrt N - 1| ≤ e := by
  refine le_trans ?_ h
  have h1 := Real.sq_sqrt hN
  have h2 := Real.sqrt_nonneg N
  rw [show N - 1 = (Real.sqrt N - 1) * (Real.sqrt N + 1) by nlinarith, abs_mul,
    abs_of_nonneg (show 0 ≤ Real.sqrt N + 1 by linarith)]
  exact le_mul_of_one_le_right (abs_nonneg _) (by linarith)

/-- **C74 (squared norm).** For an axis of exact squared length `1 + delta` with `|delta| <= 1`, the exact squared length of the quaternion
is within `0.009 + 1.01 * |delta|` of one, for `|theta| <= 8192`. -/
theorem C74_axis_angle_sq {v : Vector3d F32} {t : F32} (ht : t.isFinite = true) (hb : |t.val| ≤ 8192)
    (fx : v.x.isFinite = true) (fy : v.y.isFinite = true) (fz : v.z.isFinite = true)
    (hv : |v.x.val ^ 2 + v.y.val ^ 2 + v.z.val ^ 2 - 1| ≤ 1) :
    |((Quaternion.axisAngle v t).a.val : ℝ) ^ 2 + ((Quaternion.axisAngle v t).b.val : ℝ) ^ 2 +
      ((Quaternion.axisAngle v t).c.val : ℝ) ^ 2 + ((Quaternion.axisAngle v t).d.val : ℝ) ^ 2 - 1| ≤
      0.009 + 1.01 * |(v.x.val : ℝ) ^ 2 + (v.y.val : ℝ) ^ 2 + (v.z.val : ℝ) ^ 2 - 1| := by
  obtain ⟨ea, eb, ec, ed⟩ := C74_axis_angle v t
  rw [ea, eb, ec, ed]
  have hi : ∀ u : F32, IntoF32.into u = u := fun _ => rfl
  rw [hi, hi, hi, hi]
  obtain ⟨fh, bh⟩ := half_theta ht hb
  obtain ⟨fs, bs, es⟩ := C36_sin fh bh
  obtain ⟨fc, bc, ec'⟩ := C34_cos fh bh
  generalize (t * lit 5 10).cos = c at *
  generalize (t * lit 5 10).sin = s at *
  have hsum := (abs_le.1 hv).2
  have sx := sq_nonneg v.x.val
  have sy := sq_nonneg v.y.val
  have sz := sq_nonneg v.z.val
  have hx1 : |v.x.val| ≤ 3 / 2 := abs_le_of_sq_le_sq (by norm_num; linarith) (by norm_num)
  have hy1 : |v.y.val| ≤ 3 / 2 := abs_le_of_sq_le_sq (by norm_num; linarith) (by norm_num)
  have hz1 : |v.z.val| ≤ 3 / 2 := abs_le_of_sq_le_sq (by norm_num; linarith) (by norm_num)
  have qx := abs_cast_le (comp_sq fx fs hx1 bs).2
  have qy := abs_cast_le (comp_sq fy fs hy1 bs).2
  have qz := abs_cast_le (comp_sq fz fs hz1 bs).2
  have bsR := abs_cast_le bs
  push_cast at qx qy qz bsR
  have hcirc := circle_err es ec' (Real.sin_sq_add_cos_sq _)
  generalize ((v.x * s).val : ℝ) = X at *
  generalize ((v.y * s).val : ℝ) = Y at *
  generalize ((v.z * s).val : ℝ) = Z at *
  generalize (v.x.val : ℝ) = x at *
  generalize (v.y.val : ℝ) = y at *
  generalize (v.z.val : ℝ) = z at *
  generalize (s.val : ℝ) = S at *
  generalize (c.val : ℝ) = C at *
  have e : C ^ 2 + X ^ 2 + Y ^ 2 + Z ^ 2 - 1 = (C ^ 2 + S ^ 2 - 1) + (x ^ 2 + y ^ 2 + z ^ 2 - 1) * S ^ 2 +
      (X ^ 2 - x ^ 2 * S ^ 2) + (Y ^ 2 - y ^ 2 * S ^ 2) + (Z ^ 2 - z ^ 2 * S ^ 2) := by ring
  have hS2 : S ^ 2 ≤ 1.01 := by
    have h2 := pow_le_pow_left₀ (abs_nonneg S) bsR 2
    rw [sq_abs] at h2
    exact h2.trans (by norm_num)
  have hm : |(x ^ 2 + y ^ 2 + z ^ 2 - 1) * S ^ 2| ≤ 1.01 * |x ^ 2 + y ^ 2 + z ^ 2 - 1| := by
    rw [abs_mul, mul_comm, abs_of_nonneg (sq_nonneg S)]
    exact mul_le_mul_of_nonneg_right hS2 (abs_nonneg _)
  rw [e]
  refine (abs_add_le _ _).trans ?_
  refine (add_le_add (abs_add_le _ _) le_rfl).trans ?_
  refine (add_le_add (add_le_add (abs_add_le _ _) le_rfl) le_rfl).trans ?_
  refine (add_le_add (add_le_add (add_le_add (abs_add_le _ _) le_rfl) le_rfl) le_rfl).trans ?_
  norm_num at qx qy qz hcirc hm ⊢
  linarith

/-- **C74 (norm).** For an axis of exact squared length `1 + delta` with `|delta| <= 1`, the exact length of the quaternion
is within `0.009 + 1.01 * |delta|` of one, for `|theta| <= 8192`. -/
theorem C74_axis_angle_norm {v : Vector3d F32} {t : F32} (ht : t.isFinite = true) (hb : |t.val| ≤ 8192)
    (fx : v.x.isFinite = true) (fy : v.y.isFinite = true) (fz : v.z.isFinite = true)
    (hv : |v.x.val ^ 2 + v.y.val ^ 2 + v.z.val ^ 2 - 1| ≤ 1) :
    |Real.sqrt (((Quaternion.axisAngle v t).a.val : ℝ) ^ 2 + ((Quaternion.axisAngle v t).b.val : ℝ) ^ 2 +
      ((Quaternion.axisAngle v t).c.val : ℝ) ^ 2 + ((Quaternion.axisAngle v t).d.val : ℝ) ^ 2) - 1| ≤
      0.009 + 1.01 * |(v.x.val : ℝ) ^ 2 + (v.y.val : ℝ) ^ 2 + (v.z.val : ℝ) ^ 2 - 1| := by
  exact sqrt_sub_one (by positivity) (C74_axis_angle_sq ht hb fx fy fz hv)

/-- For the coordinate axes the exact length is within `0.01` of one. -/
theorem C74_axis_angle_unit {t : F32} (ht : t.isFinite = true) (hb : |t.val| ≤ 8192) (v : Vector3d F32)
    (hv : v = ⟨one, posZero, posZero⟩ ∨ v = ⟨posZero, one, posZero⟩ ∨ v = ⟨posZero, posZero, one⟩) :
    |Real.sqrt (((Quaternion.axisAngle v t).a.val : ℝ) ^ 2 + ((Quaternion.axisAngle v t).b.val : ℝ) ^ 2 +
      ((Quaternion.axisAngle v t).c.val : ℝ) ^ 2 + ((Quaternion.axisAngle v t).d.val : ℝ) ^ 2) - 1| ≤ 0.01 := by
  have z0 : posZero.val = 0 := by rw [val_of_units (u := 0) (by decide)]; norm_num
  have h : v.x.isFinite = true ∧ v.y.isFinite = true ∧ v.z.isFinite = true ∧
      v.x.val ^ 2 + v.y.val ^ 2 + v.z.val ^ 2 - 1 = 0 := by
    rcases hv with rfl | rfl | rfl <;> refine ⟨by decide, by decide, by decide, ?_⟩ <;>
      simp only [val_one, z0] <;> norm_num
  obtain ⟨h1, h2, h3, h4⟩ := h
  refine (C74_axis_angle_norm ht hb h1 h2 h3 (by rw [h4]; norm_num)).trans ?_
  have h5 : (v.x.val : ℝ) ^ 2 + (v.y.val : ℝ) ^ 2 + (v.z.val : ℝ) ^ 2 - 1 = 0 := by exact_mod_cast h4
  rw [h5]; norm_num

example : one.isFinite = true ∧ |one.val| ≤ 8192 := ⟨fin_one, by rw [val_one]; norm_num⟩

end Micromath.Props
