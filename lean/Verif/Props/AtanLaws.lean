import Verif.Props.Atan2
import Verif.Props.Asin
import Verif.Props.NearMono
import Verif.Props.PowiLaws

/-!
# C132: complement and reflection laws of the inverse functions
-/

set_option exponentiation.threshold 1000

namespace Micromath.Props
open F32 Spec RealAux
variable [Cfg]

/-! ### `acos` -/

/-- **C132.** The reflection of `acos` is exact: `acos(-x)` is the float `PI - acos(x)`, bit for bit. -/
theorem C132_acos {x : F32} (hx : x.isFinite = true) (h0 : (1 : ℚ) / 2 ^ 60 ≤ x.val) (h1 : x.val ≤ 1) :
    (-x).acos = PI - x.acos := by
  have xp : 0 < x.val := lt_of_lt_of_le (by norm_num) h0
  have hx' : (-x).isFinite = true := by rwa [isFinite_neg]
  have ha : |x.val| = x.val := abs_of_pos xp
  obtain ⟨f, hb, -⟩ := acos_arg hx (by rwa [ha]) (by rwa [ha])
  have g1 : x.gt posZero = true := by rw [gt_iff hx (by decide), show posZero.val = 0 from val_eq_zero.2 (by decide)]; exact xp
  have g2 : ¬ (-x).gt posZero = true := by
    rw [gt_iff hx' (by decide), val_neg, show posZero.val = 0 from val_eq_zero.2 (by decide)]; linarith
  have g3 : ¬ (-x).feq posZero = true := by
    rw [feq_iff hx' (by decide), val_neg, show posZero.val = 0 from val_eq_zero.2 (by decide)]
    intro h; linarith
  have hsq : -x * -x = x * x := by rw [mul_neg_fin hx' hx, neg_mul_fin hx hx, neg_neg']
  have hd : (ONE - x * x).sqrt / -x = -((ONE - x * x).sqrt / x) := by
    have e := (div_neg_eqv (ONE - x * x).sqrt x).symm
    refine (e.eq ?_).symm
    exact not_nan_of_finite (by rwa [isFinite_neg])
  have e1 : x.acos = ((ONE - x * x).sqrt / x).atan := by rw [F32.acos, if_pos g1]
  have e2 : (-x).acos = -((ONE - x * x).sqrt / x).atan + PI := by
    rw [F32.acos, if_neg g2, if_neg g3, hsq, hd, (C38_atan f hb).1]
  have fa : (-x).acos.isFinite = true := ((C44_acos (-x)).2.2.1 hx' (by rw [val_neg, abs_neg, ha]; exact h0) (by rw [val_neg, abs_neg, ha]; exact h1)).1
  have e : Eqv (-x).acos (PI - x.acos) := by
    rw [e2, e1]
    exact (add_comm_eqv _ _).trans (sub_eq_add_neg_eqv _ _).symm
  exact e.eq (not_nan_of_finite fa)

/-- **C132.** `asin` and `acos` of one argument add up to a right angle within `0.055`. -/
theorem C132_asin_acos {x : F32} (hx : x.isFinite = true) (h0 : (1 : ℚ) / 2 ^ 60 ≤ |x.val|) (h1 : |x.val| ≤ 1) :
    ∃ a, x.asin = .ok a ∧ |((a.val + x.acos.val : ℚ) : ℝ) - Real.pi / 2| ≤ 0.055 := by
  obtain ⟨a, ha, e⟩ := C82_asin hx h1
  have e' := C84_acos hx h0 h1
  refine ⟨a, ha, ?_⟩
  rw [abs_le] at e e' ⊢
  have : Real.arccos (x.val : ℝ) = Real.pi / 2 - Real.arcsin x.val := rfl
  push_cast
  constructor <;> linarith [e.1, e.2, e'.1, e'.2]

/-! ### `atan` -/

omit [Cfg] in
theorem gA_inv {x : ℝ} (hx : 0 < x) : gA x + gA x⁻¹ = 1 := by
  have h1 := gA_den_pos hx.le
  have h2 := gA_den_pos (inv_nonneg.2 hx.le)
  rw [gA, gA, div_add_div _ _ h1.ne' h2.ne', div_eq_one_iff_eq (mul_pos h1 h2).ne']
  field_simp
  ring

omit [Cfg] in
/-- A relative change of the argument moves the rational function by at most as much. -/
theorem gA_rel {x y d : ℝ} (hx : 0 < x) (hxy : x ≤ y) (hd : y - x ≤ x * d) (d0 : 0 ≤ d) : gA y - gA x ≤ d := by
  have hy : 0 < y := hx.trans_le hxy
  have h1 := gA_den_pos hx.le
  have h2 := gA_den_pos hy.le
  have B0 : (0 : ℝ) ≤ cB := by norm_num [cB]
  rw [gA, gA, div_sub_div _ _ h2.ne' h1.ne', div_le_iff₀ (mul_pos h2 h1)]
  have e : (cB * y + y ^ 2) * (1 + 2 * cB * x + x ^ 2) - (1 + 2 * cB * y + y ^ 2) * (cB * x + x ^ 2) =
      (y - x) * (cB + (x + y) + cB * (x * y)) := by ring
  rw [e]
  have hN : 0 ≤ cB + (x + y) + cB * (x * y) := by positivity
  refine (mul_le_mul_of_nonneg_right hd hN).trans ?_
  rw [mul_comm x d, mul_assoc]
  refine mul_le_mul_of_nonneg_left ?_ d0
  have k1 : x * x ≤ x * y := by nlinarith
  have k2 : 2 * (x * y) ≤ x ^ 2 + y ^ 2 := by nlinarith [sq_nonneg (x - y)]
  have k3 : 0 ≤ (cB : ℝ) * x := by positivity
  have k4 : 0 ≤ (cB : ℝ) * x ^ 2 * y := by positivity
  have k5 : 0 ≤ 1 + 2 * cB * y + 4 * cB ^ 2 * (x * y) + 2 * cB * (y ^ 2 * x) + x ^ 2 * y ^ 2 := by positivity
  have ex : (1 + 2 * cB * y + y ^ 2) * (1 + 2 * cB * x + x ^ 2) = (1 + 2 * cB * y + 4 * cB ^ 2 * (x * y) + 2 * cB * (y ^ 2 * x) + x ^ 2 * y ^ 2)
    + 2 * (cB * x) + 2 * (cB * x ^ 2 * y) + x ^ 2 + y ^ 2 := by ring
  have el : x * (cB + (x + y) + cB * (x * y)) = cB * x + x * x + x * y + cB * x ^ 2 * y := by ring
  rw [ex, el]
  linarith

/-- **C132.** `atan` of a number and of its reciprocal add up to `FRAC_PI_2` within `1e-5`. -/
theorem C132_atan_inv {x : F32} (hx : x.isFinite = true) (h0 : (1 : ℚ) / 2 ^ 60 ≤ x.val) (h1 : x.val ≤ 2 ^ 60) :
    |x.atan.val + (one / x).atan.val - FRAC_PI_2.val| ≤ 1 / 10 ^ 5 := by
  have xp : 0 < x.val := lt_of_lt_of_le (by norm_num) h0
  have v1 : one.val = 1 := val_one
  have hq0 : 0 < one.val / x.val := by rw [v1]; positivity
  have hql : 1 / 2 ^ 60 ≤ one.val / x.val := by
    rw [v1]; exact one_div_le_one_div_of_le xp h1
  have hqh : one.val / x.val ≤ 2 ^ 60 := by
    rw [v1, div_le_iff₀ xp]
    have := mul_le_mul_of_nonneg_left h0 (show (0 : ℚ) ≤ 2 ^ 60 by norm_num)
    norm_num at this ⊢; linarith
  obtain ⟨d, hd, fy, vy⟩ := div_rel fin_one hx xp.ne' (by
    rw [abs_of_pos hq0]; exact le_trans (by norm_num) hql) (by
    rw [abs_of_pos hq0]; exact lt_of_le_of_lt hqh (by norm_num [ovf]))
  obtain ⟨y, hy⟩ : ∃ y, y = one / x := ⟨_, rfl⟩
  rw [← hy] at fy vy ⊢
  rw [v1] at vy hq0 hql hqh
  rw [abs_le] at hd
  have d1 : 1 - 1 / 2 ^ 24 ≤ 1 + d := by linarith [hd.1]
  have yp : 0 < y.val := by rw [vy]; exact mul_pos hq0 (by norm_num at d1 ⊢; linarith)
  have yle : y.val ≤ 2 * 2 ^ 60 := by
    rw [vy]
    have : 1 / x.val * (1 + d) ≤ 2 ^ 60 * 2 :=
      mul_le_mul hqh (by have := hd.2; norm_num at this; linarith) (by norm_num at d1 ⊢; linarith) (by norm_num)
    linarith
  obtain ⟨-, ex⟩ := atan_gS hx (by rw [abs_of_pos xp]; exact h1.trans (by norm_num [atanMax]))
  obtain ⟨-, ey⟩ := atan_gS fy (by rw [abs_of_pos yp]; exact yle.trans (by norm_num [atanMax]))
  have xr : (0 : ℝ) < x.val := by exact_mod_cast xp
  have yr : (0 : ℝ) < y.val := by exact_mod_cast yp
  rw [gS, if_pos xr.le] at ex
  rw [gS, if_pos yr.le] at ey
  have vr : (y.val : ℝ) = (x.val : ℝ)⁻¹ * (1 + d) := by rw [vy]; push_cast; ring
  have dr1 : -(1 / 2 ^ 24 : ℝ) ≤ d := by have := (Rat.cast_le (K := ℝ)).2 hd.1; push_cast at this; exact this
  have dr2 : (d : ℝ) ≤ 1 / 2 ^ 24 := by have := (Rat.cast_le (K := ℝ)).2 hd.2; push_cast at this; exact this
  have ir : (0 : ℝ) < (x.val : ℝ)⁻¹ := inv_pos.2 xr
  have hdiff : |gA y.val - gA (x.val : ℝ)⁻¹| ≤ 1 / 2 ^ 23 := by
    rcases le_total 0 (d : ℝ) with h | h
    · have a := gA_rel ir (y := y.val) (d := d) (by rw [vr]; nlinarith) (by rw [vr]; nlinarith) h
      have b := gA_mono ir.le (y := (y.val : ℝ)) (by rw [vr]; nlinarith)
      rw [abs_of_nonneg (by linarith)]
      refine a.trans (dr2.trans (by norm_num))
    · have b := gA_mono yr.le (y := (x.val : ℝ)⁻¹) (by rw [vr]; nlinarith)
      have a := gA_rel yr (y := (x.val : ℝ)⁻¹) (d := 1 / 2 ^ 23) (by rw [vr]; nlinarith) (by
        rw [vr]
        have : (x.val : ℝ)⁻¹ - (x.val : ℝ)⁻¹ * (1 + d) = (x.val : ℝ)⁻¹ * (-d) := by ring
        rw [this, mul_assoc]
        refine mul_le_mul_of_nonneg_left ?_ ir.le
        norm_num at dr1 dr2 ⊢
        linarith) (by norm_num)
      rw [abs_of_nonpos (by linarith)]
      linarith
  have hg := gA_inv xr
  have hH : (0 : ℝ) ≤ cH ∧ (cH : ℝ) ≤ 1.571 := by constructor <;> norm_num [cH]
  have hH' : |(cH : ℝ) * (gA y.val - gA (x.val : ℝ)⁻¹)| ≤ 1.571 / 2 ^ 23 := by
    rw [abs_mul, abs_of_nonneg hH.1]
    calc (cH : ℝ) * |gA y.val - gA (x.val : ℝ)⁻¹| ≤ 1.571 * (1 / 2 ^ 23) :=
          mul_le_mul hH.2 hdiff (abs_nonneg _) (by norm_num)
      _ = _ := by ring
  have key : |((x.atan.val + y.atan.val - FRAC_PI_2.val : ℚ) : ℝ)| ≤ ((1 / 10 ^ 5 : ℚ) : ℝ) := by
    have hv : FRAC_PI_2.val = cH := val_FRAC_PI_2
    rw [hv]
    push_cast
    rw [abs_le] at ex ey hH' ⊢
    have e3 : (cH : ℝ) * gA x.val + cH * gA (x.val : ℝ)⁻¹ = cH := by rw [← mul_add, hg, mul_one]
    rw [mul_sub] at hH'
    norm_num at ex ey hH' ⊢
    constructor <;> linarith [ex.1, ex.2, ey.1, ey.2, hH'.1, hH'.2]
  exact_mod_cast key

/-! ### `atan2` -/

theorem qF_neg {x y : F32} (hx : x.isFinite = true) (hy : y.isFinite = true) (bx : |x.val| ≤ 9 * 10 ^ 18) :
    qF (-x) y = qF x y ∧ qF x (-y) = qF x y := by
  have hx' : (-x).isFinite = true := by rwa [isFinite_neg]
  have hy' : (-y).isFinite = true := by rwa [isFinite_neg]
  have hb : (ATAN_B * x).isFinite = true := by
    have hB0 : (0 : ℚ) ≤ cB := by norm_num [cB]
    have hB1 : (cB : ℚ) ≤ 1 := by norm_num [cB]
    have hB : ATAN_B.val = cB := val_ATAN_B
    refine (mul_val fin_ATAN_B hx ?_).1
    rw [abs_mul, hB, abs_of_nonneg hB0]
    refine lt_of_le_of_lt (show cB * |x.val| ≤ 9 * 10 ^ 18 from ?_) (by norm_num [ovf])
    have := abs_nonneg x.val
    nlinarith
  have sx : -x * -x = x * x := by rw [mul_neg_fin hx' hx, neg_mul_fin hx hx, neg_neg']
  have sy : -y * -y = y * y := by rw [mul_neg_fin hy' hy, neg_mul_fin hy hy, neg_neg']
  have an : ∀ a : F32, F32.abs (-a) = F32.abs a := fun a => by rw [F32.abs_eq, mag_neg, ← F32.abs_eq]
  constructor
  · rw [qF, qF, sx, mul_neg_fin fin_ATAN_B hx, neg_mul_fin hb hy, an]
  · rw [qF, qF, sy, mul_neg_fin hb hy, an]

/-- **C132.** The reflections of `atan2`, for `x` and `y` with clear sign bits: negating `x` mirrors the angle at the right
angle, negating `y` negates it, and negating both turns it by `-PI`, each within `1e-6`. The last one may instead give
`PI`; that happens only when the angle itself is at most `1e-6`. -/
theorem C132_atan2_reflect {x y : F32} (hx : x.isFinite = true) (hy : y.isFinite = true) (bx : |x.val| ≤ 9 * 10 ^ 18)
    (by' : |y.val| ≤ 9 * 10 ^ 18) (hM : (1 : ℚ) / 2 ^ 62 ≤ max |x.val| |y.val|) (sx : x.sign = false) (sy : y.sign = false) :
    |(y.atan2 (-x)).val - (PI.val - (y.atan2 x).val)| ≤ 1 / 10 ^ 6 ∧
    |((-y).atan2 x).val + (y.atan2 x).val| ≤ 1 / 10 ^ 6 ∧
    (|((-y).atan2 (-x)).val - ((y.atan2 x).val - PI.val)| ≤ 1 / 10 ^ 6 ∨
      ((-y).atan2 (-x)).val = PI.val ∧ 0 ≤ (y.atan2 x).val ∧ (y.atan2 x).val ≤ 1 / 10 ^ 6) := by
  have hx' : (-x).isFinite = true := by rwa [isFinite_neg]
  have hy' : (-y).isFinite = true := by rwa [isFinite_neg]
  have ax : |(-x).val| = |x.val| := by rw [val_neg, abs_neg]
  have ay : |(-y).val| = |y.val| := by rw [val_neg, abs_neg]
  have bx2 := ax.le.trans bx
  have by2 := ay.le.trans by'
  have hM2 : (1 : ℚ) / 2 ^ 62 ≤ max |(-x).val| |y.val| := by rw [ax]; exact hM
  have hM3 : (1 : ℚ) / 2 ^ 62 ≤ max |(-x).val| |(-y).val| := by rw [ax, ay]; exact hM
  have hM4 : (1 : ℚ) / 2 ^ 62 ≤ max |x.val| |(-y).val| := by rw [ay]; exact hM
  have sx' : (-x).sign = true := by rw [sign_neg, sx]; rfl
  have sy' : (-y).sign = true := by rw [sign_neg, sy]; rfl
  obtain ⟨m1, q, hq, e1, f1, q0, q1, -, c1, -⟩ := atan2_quarter_q hx hy bx by' hM
  obtain ⟨m2, q2, hq2, e2, f2, -, -, -, -, c2, -⟩ := atan2_quarter_q hx' hy bx2 by' hM2
  obtain ⟨m3, q3, hq3, e3, f3, -, -, -, -, -, c3, -⟩ := atan2_quarter_q hx' hy' bx2 by2 hM3
  obtain ⟨m4, q4, hq4, e4, f4, -, -, -, -, -, -, c4, -⟩ := atan2_quarter_q hx hy' bx by2 hM4
  have k2 : q2 = q := by rw [hq2, hq, (qF_neg hx hy bx).1]
  have k3 : q3 = q := by rw [hq3, hq, (qF_neg hx hy' bx).1, (qF_neg hx hy bx).2]
  have k4 : q4 = q := by rw [hq4, hq, (qF_neg hx hy bx).2]
  rw [k2] at c2
  rw [k3] at c3
  rw [k4] at c4
  have c1 := c1 sx sy
  have c2 := c2 sx' sy
  have c3 := c3 sx' sy'
  have c4 := c4 sx sy'
  have hp : PI.val = 2 * cH := by rw [val_PI]; norm_num [cH]
  have hH0 : (0 : ℚ) ≤ cH := by norm_num [cH]
  have hH1 : (cH : ℚ) ≤ 1.571 := by norm_num [cH]
  -- rounding of the quarter count, then of the product
  have big : ∀ {m : F32} {M : ℚ}, m.isFinite = true → |m.val| ≤ 2 → |m.val - M| ≤ 2 / 2 ^ 24 →
      |(FRAC_PI_2 * m).val - cH * M| ≤ 8 / 2 ^ 24 := by
    intro m M fm bm hm
    have a := (quarter_mul fm bm).2.2.2.2.2.2.2.2.2
    have a' : |(FRAC_PI_2 * m).val - cH * m.val| ≤ 4 / 2 ^ 24 := by
      have : |(((FRAC_PI_2 * m).val - cH * m.val : ℚ) : ℝ)| ≤ ((4 / 2 ^ 24 : ℚ) : ℝ) := by push_cast; exact a
      exact_mod_cast this
    have b : |cH * m.val - cH * M| ≤ 1.571 * (2 / 2 ^ 24) := by
      rw [← mul_sub, abs_mul, abs_of_nonneg hH0]
      exact mul_le_mul hH1 hm (abs_nonneg _) (by norm_num)
    refine (abs_sub_le _ _ _).trans ((add_le_add a' b).trans (by norm_num))
  have rn : ∀ {t : ℚ}, 0 ≤ t → t ≤ 4 → |RN t - t| ≤ 2 / 2 ^ 24 := by
    intro t t0 t4
    have := RN_err_abs (q := t) (e := 2) (by norm_num) (by rw [abs_of_nonneg t0]; exact_mod_cast t4)
    refine this.trans (by norm_num)
  have rep1 : Rep (1 : ℚ) := by simpa using rep_int (m := 1) (by decide)
  have rep2 : Rep (2 : ℚ) := by simpa using rep_int (m := 2) (by decide)
  have rep3 : Rep (3 : ℚ) := by simpa using rep_int (m := 3) (by decide)
  have rep4 : Rep (4 : ℚ) := by simpa using rep_int (m := 4) (by decide)
  have A1 : |(y.atan2 x).val - cH * q| ≤ 4 / 2 ^ 24 := by
    have a := (quarter_mul f1 (by rw [c1, abs_of_nonneg q0]; linarith)).2.2.2.2.2.2.2.2.2
    rw [c1] at a
    have : |(((FRAC_PI_2 * m1).val - cH * q : ℚ) : ℝ)| ≤ ((4 / 2 ^ 24 : ℚ) : ℝ) := by push_cast; exact a
    rw [e1]
    exact_mod_cast this
  have A2 : |(y.atan2 (-x)).val - cH * (2 - q)| ≤ 8 / 2 ^ 24 := by
    rw [e2]
    have l1 : 1 ≤ RN (2 - q) := le_RN_of_rep rep1 (by linarith)
    have l2 : RN (2 - q) ≤ 2 := RN_le_of_rep rep2 (by linarith)
    refine big f2 ?_ ?_
    · rw [c2, abs_of_nonneg (by linarith)]; exact l2
    · rw [c2]; exact rn (by linarith) (by linarith)
  have A4 : |((-y).atan2 x).val - cH * (-q)| ≤ 8 / 2 ^ 24 := by
    rw [e4]
    have l1 : 3 ≤ RN (4 - q) := le_RN_of_rep rep3 (by linarith)
    have l2 : RN (4 - q) ≤ 4 := RN_le_of_rep rep4 (by linarith)
    refine big f4 ?_ ?_
    · rw [c4, abs_le]; constructor <;> linarith
    · rw [c4, show RN (4 - q) - 4 - -q = RN (4 - q) - (4 - q) by ring]; exact rn (by linarith) (by linarith)
  have A10 : 0 ≤ (y.atan2 x).val := by
    rw [e1]
    exact (quarter_mul f1 (by rw [c1, abs_of_nonneg q0]; linarith)).2.2.2.2.1 (by rw [c1]; exact q0)
  rw [abs_le] at A1 A2 A4
  refine ⟨?_, ?_, ?_⟩
  · rw [hp, abs_le]
    norm_num at A1 A2 ⊢
    constructor <;> linarith [A1.1, A1.2, A2.1, A2.2]
  · rw [abs_le]
    norm_num at A1 A4 ⊢
    constructor <;> linarith [A1.1, A1.2, A4.1, A4.2]
  · rcases c3 with ⟨c3, h⟩ | ⟨c3, h⟩
    · left
      have A3 : |((-y).atan2 (-x)).val - cH * (q - 2)| ≤ 8 / 2 ^ 24 := by
        rw [e3]
        have l2 : RN (2 + q) ≤ 3 := RN_le_of_rep rep3 (by linarith)
        refine big f3 ?_ ?_
        · rw [c3, abs_le]; constructor <;> linarith
        · rw [c3, show RN (2 + q) - 4 - (q - 2) = RN (2 + q) - (2 + q) by ring]; exact rn (by linarith) (by linarith)
      rw [abs_le] at A3
      rw [hp, abs_le]
      norm_num at A1 A3 ⊢
      constructor <;> linarith [A1.1, A1.2, A3.1, A3.2]
    · right
      refine ⟨?_, A10, ?_⟩
      · rw [e3]
        exact (quarter_mul f3 (by rw [c3]; norm_num)).2.2.2.2.2.2.2.2.1 c3
      · have hr := rn (t := 2 + q) (by linarith) (by linarith)
        rw [h, abs_le] at hr
        have hq2 : q ≤ 2 / 2 ^ 24 := by linarith [hr.1]
        have : cH * q ≤ 1.571 * (2 / 2 ^ 24) := mul_le_mul hH1 hq2 q0 (by norm_num)
        norm_num at this A1 ⊢
        linarith [A1.2]

omit [Cfg] in
theorem gQ_swap {X Y : ℚ} (hX : 0 ≤ X) (hY : 0 ≤ Y) (h : 0 < max X Y) : gQ X Y + gQ Y X = 1 := by
  have hB0 : (0 : ℚ) ≤ cB := by norm_num [cB]
  have hd : 0 < X ^ 2 + 2 * (cB * X * Y) + Y ^ 2 := by
    have : 0 ≤ cB * X * Y := by positivity
    rcases lt_max_iff.1 h with h | h
    · have := pow_pos h 2; nlinarith [sq_nonneg Y]
    · have := pow_pos h 2; nlinarith [sq_nonneg X]
  have e : Y ^ 2 + 2 * (cB * Y * X) + X ^ 2 = X ^ 2 + 2 * (cB * X * Y) + Y ^ 2 := by ring
  rw [gQ, gQ, e, ← add_div, div_eq_one_iff_eq hd.ne']
  ring

/-- **C132.** Exchanging the coordinates of a point of the first quadrant mirrors its angle at the diagonal, within `1e-5`. -/
theorem C132_atan2_swap {x y : F32} (hx : x.isFinite = true) (hy : y.isFinite = true) (bx : |x.val| ≤ 9 * 10 ^ 18)
    (by' : |y.val| ≤ 9 * 10 ^ 18) (hM : (1 : ℚ) / 2 ^ 62 ≤ max |x.val| |y.val|) (sx : x.sign = false) (sy : y.sign = false) :
    |(y.atan2 x).val + (x.atan2 y).val - FRAC_PI_2.val| ≤ 1 / 10 ^ 5 := by
  obtain ⟨m1, q, -, e1, f1, q0, q1, g1, c1, -⟩ := atan2_quarter_q hx hy bx by' hM
  obtain ⟨m2, p, -, e2, f2, p0, p1, g2, c2, -⟩ := atan2_quarter_q hy hx by' bx (by rwa [max_comm])
  have c1 := c1 sx sy
  have c2 := c2 sy sx
  have hH0 : (0 : ℚ) ≤ cH := by norm_num [cH]
  have hH1 : (cH : ℚ) ≤ 1.571 := by norm_num [cH]
  have hv : FRAC_PI_2.val = cH := val_FRAC_PI_2
  have one' : ∀ {m : F32} {q g : ℚ}, m.isFinite = true → m.val = q → 0 ≤ q → q ≤ 1 → |q - g| ≤ 46 / 2 ^ 24 →
      |(FRAC_PI_2 * m).val - cH * g| ≤ 76.5 / 2 ^ 24 := by
    intro m q g fm c q0 q1 hg
    have a := (quarter_mul fm (by rw [c, abs_of_nonneg q0]; linarith)).2.2.2.2.2.2.2.2.2
    rw [c] at a
    have a' : |(FRAC_PI_2 * m).val - cH * q| ≤ 4 / 2 ^ 24 := by
      have : |(((FRAC_PI_2 * m).val - cH * q : ℚ) : ℝ)| ≤ ((4 / 2 ^ 24 : ℚ) : ℝ) := by push_cast; exact a
      exact_mod_cast this
    have b : |cH * q - cH * g| ≤ 1.571 * (46 / 2 ^ 24) := by
      rw [← mul_sub, abs_mul, abs_of_nonneg hH0]
      exact mul_le_mul hH1 hg (abs_nonneg _) (by norm_num)
    refine (abs_sub_le _ _ _).trans ((add_le_add a' b).trans (by norm_num))
  have A1 := one' f1 c1 q0 q1 g1
  have A2 := one' f2 c2 p0 p1 g2
  rw [← e1] at A1
  rw [← e2] at A2
  have hs := gQ_swap (abs_nonneg x.val) (abs_nonneg y.val) (lt_of_lt_of_le (by norm_num) hM)
  have hs' : cH * gQ |x.val| |y.val| + cH * gQ |y.val| |x.val| = cH := by rw [← mul_add, hs, mul_one]
  rw [abs_le] at A1 A2
  rw [hv, abs_le]
  norm_num at A1 A2 ⊢
  constructor <;> linarith [A1.1, A1.2, A2.1, A2.2]

/-- **C132.** Both alternatives of the last reflection happen: the point `(-1, -1)` is at `PI/4 - PI`, the point
`(-1, -2^-30)` at `PI`. -/
theorem C132_case : (-one).atan2 (-one) = (⟨0xc016cbe4#32⟩ : F32) ∧ one.atan2 one = (⟨0x3f490fdb#32⟩ : F32) ∧
    (⟨0xb0800000#32⟩ : F32).atan2 (-one) = PI ∧ (-one).acos = PI := by
  refine ⟨?_, ?_, ?_, ?_⟩
  · exact (eval_eq (n := 0xc016cbe4) (by kernel_rfl)).trans (by decide +kernel)
  · exact eval_eq (n := 0x3f490fdb) (by kernel_rfl)
  · exact (eval_eq (n := 0x40490fdb) (by kernel_rfl)).trans (by decide +kernel)
  · exact (eval_eq (n := 0x40490fdb) (by kernel_rfl)).trans (by decide +kernel)

end Micromath.Props
