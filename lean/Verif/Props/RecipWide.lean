import Verif.Props.BitTricks

/-!
# The polynomial of `recip` over the whole range of its seed (for C122)
-/

set_option exponentiation.threshold 1000

namespace Micromath.Props
open F32 Spec

variable [Cfg]

/-- The polynomial of `recip` on the whole of `[0, 1.04]`: with `s = 1 - w` it is `1 + s + ... + s^7` up to rounding. -/
theorem recipPoly_wide {w : F32} (hf : w.isFinite = true) (hl : 0 ≤ w.val) (hu : w.val ≤ 1.04) :
    (recipPoly w).isFinite = true ∧
    |(recipPoly w).val - (1 + (1 - w.val) + (1 - w.val) ^ 2 + (1 - w.val) ^ 3 + (1 - w.val) ^ 4 + (1 - w.val) ^ 5 +
      (1 - w.val) ^ 6 + (1 - w.val) ^ 7)| ≤ 1.9 / 10 ^ 5 := by
  obtain ⟨s, hs⟩ : ∃ s : ℚ, w.val = 1 - s := ⟨1 - w.val, by ring⟩
  rw [show 1 - w.val = s by rw [hs]; ring]
  norm_num at hu
  have s1 : -(1 / 25) ≤ s := by linarith
  have s1' : s ≤ 1 := by linarith
  have pw : ∀ n : Nat, -(1 / 25) ≤ s ^ (n + 1) ∧ s ^ (n + 1) ≤ 1 := fun n => by
    rcases le_total 0 s with h0 | h0
    · exact ⟨le_trans (by norm_num) (pow_nonneg h0 _), pow_le_one₀ h0 s1'⟩
    · have h1 : |s| ≤ 1 / 25 := abs_le.2 ⟨s1, by linarith⟩
      have h2 : |s ^ (n + 1)| ≤ 1 / 25 := by
        rw [abs_pow, pow_succ]
        calc |s| ^ n * |s| ≤ 1 * (1 / 25) :=
              mul_le_mul (pow_le_one₀ (abs_nonneg _) (by linarith)) h1 (abs_nonneg _) (by norm_num)
          _ = _ := by norm_num
      have h3 := abs_le.1 h2
      exact ⟨h3.1, by linarith [h3.2]⟩
  obtain ⟨s2, s2'⟩ : -(1 / 25) ≤ s ^ 2 ∧ s ^ 2 ≤ 1 := pw 1
  obtain ⟨s3, s3'⟩ : -(1 / 25) ≤ s ^ 3 ∧ s ^ 3 ≤ 1 := pw 2
  obtain ⟨s4, s4'⟩ : -(1 / 25) ≤ s ^ 4 ∧ s ^ 4 ≤ 1 := pw 3
  obtain ⟨s5, s5'⟩ : -(1 / 25) ≤ s ^ 5 ∧ s ^ 5 ≤ 1 := pw 4
  obtain ⟨s6, s6'⟩ : -(1 / 25) ≤ s ^ 6 ∧ s ^ 6 ≤ 1 := pw 5
  obtain ⟨s7, s7'⟩ : -(1 / 25) ≤ s ^ 7 ∧ s ^ 7 ≤ 1 := pw 6
  have hwc : |w.val| ≤ 26 / 25 := abs_le.2 ⟨by linarith, by linarith⟩
  have as1 : |s| ≤ 1 := abs_le.2 ⟨by linarith, s1'⟩
  have small : ∀ B : ℚ, B ≤ 80 / 2 ^ 22 → ∀ e : ℚ, |e| ≤ B →
      -(2 / 100000) ≤ e ∧ e ≤ 2 / 100000 ∧ -(2 / 100000) ≤ s * e ∧ s * e ≤ 2 / 100000 := by
    intro B hB e he
    have h1 := he.trans hB
    have h2 := abs_le.1 h1
    have h3 := abs_le.1 (abs_mul_le_of as1 h1)
    norm_num at h2 h3 ⊢
    refine ⟨?_, ?_, ?_, ?_⟩ <;> linarith [h2.1, h2.2, h3.1, h3.2]
  have n28 : (-(lit 28 1)).isFinite = true := by simpa using fin_lit_28_1
  have n70 : (-(lit 70 1)).isFinite = true := by simpa using fin_lit_70_1
  have v28 : (-(lit 28 1)).val = -28 := by rw [val_neg, val_lit_28_1]
  have v70 : (-(lit 70 1)).val = -70 := by rw [val_neg, val_lit_70_1]
  obtain ⟨d1, hd1, f1, v1⟩ := sub_err fin_lit_8_1 hf 3 (by norm_num) (by norm_num) (by
    rw [val_lit_8_1, hs, abs_le]; norm_num; constructor <;> linarith only [s1, s1'])
  rw [val_lit_8_1, hs] at v1
  replace hd1 : |d1| ≤ 1 / 2 ^ 22 := hd1.trans (by norm_num)
  have w1 : (lit 8 1 - w).val = ((7) + (1) * s ^ 1) + d1 := by rw [v1]; ring
  obtain ⟨lo2, hi2, slo2, shi2⟩ := small _ (show (1 / 2 ^ 22 : ℚ) ≤ 80 / 2 ^ 22 by norm_num) _ hd1
  obtain ⟨e2, h2, f2, v2⟩ := horner_mul hf f1 3 (by norm_num) (by norm_num) w1 hd1 hwc (by
    rw [w1, hs, abs_le]; norm_num; constructor <;> linarith only [s1, s1', s2, s2', s3, s3', s4, s4', s5, s5', s6, s6', s7, s7', lo2, hi2, slo2, shi2])
  rw [hs] at v2
  have x2 : (w * (lit 8 1 - w)).val = ((7) + (-6) * s ^ 1 + (-1) * s ^ 2) + e2 := by rw [v2]; ring
  replace h2 : |e2| ≤ 51 / 25 / 2 ^ 22 := h2.trans (by norm_num)
  obtain ⟨alo2, ahi2, -, -⟩ := small _ (show (51 / 25 / 2 ^ 22 : ℚ) ≤ 80 / 2 ^ 22 by norm_num) _ h2
  obtain ⟨a2, ha2, fa2, va2⟩ := horner_add n28 f2 5 (by norm_num) (by norm_num) x2 h2 (by
    rw [x2, v28, abs_le]; norm_num; constructor <;> linarith only [s1, s1', s2, s2', s3, s3', s4, s4', s5, s5', s6, s6', s7, s7', alo2, ahi2])
  rw [v28] at va2
  have y2 : (-(lit 28 1) + w * (lit 8 1 - w)).val = ((-21) + (-6) * s ^ 1 + (-1) * s ^ 2) + a2 := by rw [va2]; ring
  replace ha2 : |a2| ≤ 151 / 25 / 2 ^ 22 := ha2.trans (by norm_num)
  obtain ⟨lo3, hi3, slo3, shi3⟩ := small _ (show (151 / 25 / 2 ^ 22 : ℚ) ≤ 80 / 2 ^ 22 by norm_num) _ ha2
  obtain ⟨e3, h3, f3, v3⟩ := horner_mul hf fa2 5 (by norm_num) (by norm_num) y2 ha2 hwc (by
    rw [y2, hs, abs_le]; norm_num; constructor <;> linarith only [s1, s1', s2, s2', s3, s3', s4, s4', s5, s5', s6, s6', s7, s7', lo3, hi3, slo3, shi3])
  rw [hs] at v3
  have x3 : (w * (-(lit 28 1) + w * (lit 8 1 - w))).val = ((-21) + (15) * s ^ 1 + (5) * s ^ 2 + (1) * s ^ 3) + e3 := by rw [v3]; ring
  replace h3 : |e3| ≤ 6426 / 625 / 2 ^ 22 := h3.trans (by norm_num)
  obtain ⟨alo3, ahi3, -, -⟩ := small _ (show (6426 / 625 / 2 ^ 22 : ℚ) ≤ 80 / 2 ^ 22 by norm_num) _ h3
  obtain ⟨a3, ha3, fa3, va3⟩ := horner_add fin_lit_56_1 f3 6 (by norm_num) (by norm_num) x3 h3 (by
    rw [x3, val_lit_56_1, abs_le]; norm_num; constructor <;> linarith only [s1, s1', s2, s2', s3, s3', s4, s4', s5, s5', s6, s6', s7, s7', alo3, ahi3])
  rw [val_lit_56_1] at va3
  have y3 : (lit 56 1 + w * (-(lit 28 1) + w * (lit 8 1 - w))).val = ((35) + (15) * s ^ 1 + (5) * s ^ 2 + (1) * s ^ 3) + a3 := by rw [va3]; ring
  replace ha3 : |a3| ≤ 11426 / 625 / 2 ^ 22 := ha3.trans (by norm_num)
  obtain ⟨lo4, hi4, slo4, shi4⟩ := small _ (show (11426 / 625 / 2 ^ 22 : ℚ) ≤ 80 / 2 ^ 22 by norm_num) _ ha3
  obtain ⟨e4, h4, f4, v4⟩ := horner_mul hf fa3 6 (by norm_num) (by norm_num) y3 ha3 hwc (by
    rw [y3, hs, abs_le]; norm_num; constructor <;> linarith only [s1, s1', s2, s2', s3, s3', s4, s4', s5, s5', s6, s6', s7, s7', lo4, hi4, slo4, shi4])
  rw [hs] at v4
  have x4 : (w * (lit 56 1 + w * (-(lit 28 1) + w * (lit 8 1 - w)))).val = ((35) + (-20) * s ^ 1 + (-10) * s ^ 2 + (-4) * s ^ 3 + (-1) * s ^ 4) + e4 := by rw [v4]; ring
  replace h4 : |e4| ≤ 422076 / 15625 / 2 ^ 22 := h4.trans (by norm_num)
  obtain ⟨alo4, ahi4, -, -⟩ := small _ (show (422076 / 15625 / 2 ^ 22 : ℚ) ≤ 80 / 2 ^ 22 by norm_num) _ h4
  obtain ⟨a4, ha4, fa4, va4⟩ := horner_add n70 f4 7 (by norm_num) (by norm_num) x4 h4 (by
    rw [x4, v70, abs_le]; norm_num; constructor <;> linarith only [s1, s1', s2, s2', s3, s3', s4, s4', s5, s5', s6, s6', s7, s7', alo4, ahi4])
  rw [v70] at va4
  have y4 : (-(lit 70 1) + w * (lit 56 1 + w * (-(lit 28 1) + w * (lit 8 1 - w)))).val = ((-35) + (-20) * s ^ 1 + (-10) * s ^ 2 + (-4) * s ^ 3 + (-1) * s ^ 4) + a4 := by rw [va4]; ring
  replace ha4 : |a4| ≤ 672076 / 15625 / 2 ^ 22 := ha4.trans (by norm_num)
  obtain ⟨lo5, hi5, slo5, shi5⟩ := small _ (show (672076 / 15625 / 2 ^ 22 : ℚ) ≤ 80 / 2 ^ 22 by norm_num) _ ha4
  obtain ⟨e5, h5, f5, v5⟩ := horner_mul hf fa4 6 (by norm_num) (by norm_num) y4 ha4 hwc (by
    rw [y4, hs, abs_le]; norm_num; constructor <;> linarith only [s1, s1', s2, s2', s3, s3', s4, s4', s5, s5', s6, s6', s7, s7', lo5, hi5, slo5, shi5])
  rw [hs] at v5
  have x5 : (w * (-(lit 70 1) + w * (lit 56 1 + w * (-(lit 28 1) + w * (lit 8 1 - w))))).val = ((-35) + (15) * s ^ 1 + (10) * s ^ 2 + (6) * s ^ 3 + (3) * s ^ 4 + (1) * s ^ 5) + e5 := by rw [v5]; ring
  replace h5 : |e5| ≤ 20598976 / 390625 / 2 ^ 22 := h5.trans (by norm_num)
  obtain ⟨alo5, ahi5, -, -⟩ := small _ (show (20598976 / 390625 / 2 ^ 22 : ℚ) ≤ 80 / 2 ^ 22 by norm_num) _ h5
  obtain ⟨a5, ha5, fa5, va5⟩ := horner_add fin_lit_56_1 f5 6 (by norm_num) (by norm_num) x5 h5 (by
    rw [x5, val_lit_56_1, abs_le]; norm_num; constructor <;> linarith only [s1, s1', s2, s2', s3, s3', s4, s4', s5, s5', s6, s6', s7, s7', alo5, ahi5])
  rw [val_lit_56_1] at va5
  have y5 : (lit 56 1 + w * (-(lit 70 1) + w * (lit 56 1 + w * (-(lit 28 1) + w * (lit 8 1 - w))))).val = ((21) + (15) * s ^ 1 + (10) * s ^ 2 + (6) * s ^ 3 + (3) * s ^ 4 + (1) * s ^ 5) + a5 := by rw [va5]; ring
  replace ha5 : |a5| ≤ 23723976 / 390625 / 2 ^ 22 := ha5.trans (by norm_num)
  obtain ⟨lo6, hi6, slo6, shi6⟩ := small _ (show (23723976 / 390625 / 2 ^ 22 : ℚ) ≤ 80 / 2 ^ 22 by norm_num) _ ha5
  obtain ⟨e6, h6, f6, v6⟩ := horner_mul hf fa5 5 (by norm_num) (by norm_num) y5 ha5 hwc (by
    rw [y5, hs, abs_le]; norm_num; constructor <;> linarith only [s1, s1', s2, s2', s3, s3', s4, s4', s5, s5', s6, s6', s7, s7', lo6, hi6, slo6, shi6])
  rw [hs] at v6
  have x6 : (w * (lit 56 1 + w * (-(lit 70 1) + w * (lit 56 1 + w * (-(lit 28 1) + w * (lit 8 1 - w)))))).val = ((21) + (-6) * s ^ 1 + (-5) * s ^ 2 + (-4) * s ^ 3 + (-3) * s ^ 4 + (-2) * s ^ 5 + (-1) * s ^ 6) + e6 := by rw [v6]; ring
  replace h6 : |e6| ≤ 655885876 / 9765625 / 2 ^ 22 := h6.trans (by norm_num)
  obtain ⟨alo6, ahi6, -, -⟩ := small _ (show (655885876 / 9765625 / 2 ^ 22 : ℚ) ≤ 80 / 2 ^ 22 by norm_num) _ h6
  obtain ⟨a6, ha6, fa6, va6⟩ := horner_add n28 f6 5 (by norm_num) (by norm_num) x6 h6 (by
    rw [x6, v28, abs_le]; norm_num; constructor <;> linarith only [s1, s1', s2, s2', s3, s3', s4, s4', s5, s5', s6, s6', s7, s7', alo6, ahi6])
  rw [v28] at va6
  have y6 : (-(lit 28 1) + w * (lit 56 1 + w * (-(lit 70 1) + w * (lit 56 1 + w * (-(lit 28 1) + w * (lit 8 1 - w)))))).val = ((-7) + (-6) * s ^ 1 + (-5) * s ^ 2 + (-4) * s ^ 3 + (-3) * s ^ 4 + (-2) * s ^ 5 + (-1) * s ^ 6) + a6 := by rw [va6]; ring
  replace ha6 : |a6| ≤ 694948376 / 9765625 / 2 ^ 22 := ha6.trans (by norm_num)
  obtain ⟨lo7, hi7, slo7, shi7⟩ := small _ (show (694948376 / 9765625 / 2 ^ 22 : ℚ) ≤ 80 / 2 ^ 22 by norm_num) _ ha6
  obtain ⟨e7, h7, f7, v7⟩ := horner_mul hf fa6 3 (by norm_num) (by norm_num) y6 ha6 hwc (by
    rw [y6, hs, abs_le]; norm_num; constructor <;> linarith only [s1, s1', s2, s2', s3, s3', s4, s4', s5, s5', s6, s6', s7, s7', lo7, hi7, slo7, shi7])
  rw [hs] at v7
  have x7 : (w * (-(lit 28 1) + w * (lit 56 1 + w * (-(lit 70 1) + w * (lit 56 1 + w * (-(lit 28 1) + w * (lit 8 1 - w))))))).val = ((-7) + (1) * s ^ 1 + (1) * s ^ 2 + (1) * s ^ 3 + (1) * s ^ 4 + (1) * s ^ 5 + (1) * s ^ 6 + (1) * s ^ 7) + e7 := by rw [v7]; ring
  replace h7 : |e7| ≤ 18312798401 / 244140625 / 2 ^ 22 := h7.trans (by norm_num)
  obtain ⟨alo7, ahi7, -, -⟩ := small _ (show (18312798401 / 244140625 / 2 ^ 22 : ℚ) ≤ 80 / 2 ^ 22 by norm_num) _ h7
  obtain ⟨a7, ha7, fa7, va7⟩ := horner_add fin_lit_8_1 f7 4 (by norm_num) (by norm_num) x7 h7 (by
    rw [x7, val_lit_8_1, abs_le]; norm_num; constructor <;> linarith only [s1, s1', s2, s2', s3, s3', s4, s4', s5, s5', s6, s6', s7, s7', alo7, ahi7])
  rw [val_lit_8_1] at va7
  have y7 : (lit 8 1 + w * (-(lit 28 1) + w * (lit 56 1 + w * (-(lit 70 1) + w * (lit 56 1 + w * (-(lit 28 1) + w * (lit 8 1 - w))))))).val = ((1) + (1) * s ^ 1 + (1) * s ^ 2 + (1) * s ^ 3 + (1) * s ^ 4 + (1) * s ^ 5 + (1) * s ^ 6 + (1) * s ^ 7) + a7 := by rw [va7]; ring
  replace ha7 : |a7| ≤ 18801079651 / 244140625 / 2 ^ 22 := ha7.trans (by norm_num)
  refine ⟨fa7, ?_⟩
  show |(lit 8 1 + w * (-(lit 28 1) + w * (lit 56 1 + w * (-(lit 70 1) + w * (lit 56 1 + w * (-(lit 28 1) + w * (lit 8 1 - w))))))).val - _| ≤ _
  rw [y7]
  refine le_trans (le_of_eq (congrArg _ ?_)) (ha7.trans (by norm_num))
  ring

end Micromath.Props
