import Verif.Props.Roots
import Verif.Float.Struct

/-!
# C21, C22: `recip`, `hypot`
-/

set_option exponentiation.threshold 1000

namespace Micromath.Props
open F32 Spec

/-! ### The seed -/

theorem recip_seed {x : F32} (h : PosNormal x) (hu : x.val ≤ 2 ^ 125) :
    PosNormal (fromBits (0x7EF127EA#32 - x.toBits)) ∧
    0.942014 ≤ x.val * (fromBits (0x7EF127EA#32 - x.toBits)).val ∧
    x.val * (fromBits (0x7EF127EA#32 - x.toBits)).val ≤ 1.0398 := by
  obtain ⟨e, f, he1, he2, hf, hm, hb, hv⟩ := posNormal_split h
  have hs := (posNormal_mag h).1
  have hle : x.mag ≤ 252 * 2 ^ 23 := by
    by_contra hc
    have := mval_lt.2 (lt_of_not_ge hc)
    rw [mval_pow (by norm_num)] at this
    rw [val_of_pos hs] at hu
    norm_num at this hu
    linarith
  have hf0 : (0 : ℚ) ≤ f / 2 ^ 23 := by positivity
  have hf1 : (f : ℚ) / 2 ^ 23 ≤ 1 := by
    rw [div_le_one (by positivity)]; exact_mod_cast hf.le
  have hb2 : (fromBits (0x7EF127EA#32 - x.toBits)).bits.toNat = 0x7EF127EA - (e * 2 ^ 23 + f) := by
    have h0 : (0x7EF127EA#32).toNat = 0x7EF127EA := by decide
    show (0x7EF127EA#32 - x.bits).toNat = _
    rw [BitVec.toNat_sub, h0, hb]
    omega
  generalize fromBits (0x7EF127EA#32 - x.toBits) = y at hb2
  by_cases hk : f ≤ 7415786
  · obtain ⟨h1, h2⟩ := val_of_bits (y := y) (E := 253 - e) (F := 7415786 - f) (by omega) (by omega) (by omega)
      (by rw [hb2]; omega)
    refine ⟨h1, ?_⟩
    have hp : (2 : ℚ) ^ (e - 1) * 2 ^ (253 - e - 1) = 2 ^ 251 := by
      rw [← pow_add]; congr 1; omega
    have hfk : (f : ℚ) / 2 ^ 23 ≤ 7415786 / 2 ^ 23 := by
      apply div_le_div_of_nonneg_right _ (by positivity); exact_mod_cast hk
    have e1 : x.val * y.val = (1 + f / 2 ^ 23) * (1 + 7415786 / 2 ^ 23 - f / 2 ^ 23) / 2 := by
      rw [hv, h2, Nat.cast_sub hk, Nat.cast_ofNat]
      rw [show ((2 : ℚ) ^ 23 + f) * 2 ^ (e - 1) / 2 ^ 149 * ((2 ^ 23 + (7415786 - f)) * 2 ^ (253 - e - 1) / 2 ^ 149)
        = (2 ^ 23 + f) * (2 ^ 23 + (7415786 - f)) * (2 ^ (e - 1) * 2 ^ (253 - e - 1)) / 2 ^ 298 by ring, hp]
      ring
    rw [e1]
    generalize (f : ℚ) / 2 ^ 23 = t at *
    constructor
    · nlinarith [mul_nonneg hf0 (sub_nonneg.2 hfk)]
    · nlinarith [sq_nonneg (t - 7415786 / 2 ^ 24)]
  · obtain ⟨h1, h2⟩ := val_of_bits (y := y) (E := 252 - e) (F := 2 ^ 23 + 7415786 - f) (by omega) (by omega)
      (by omega) (by rw [hb2]; omega)
    refine ⟨h1, ?_⟩
    have hp : (2 : ℚ) ^ (e - 1) * 2 ^ (252 - e - 1) = 2 ^ 250 := by
      rw [← pow_add]; congr 1; omega
    have hfk : 7415786 / 2 ^ 23 ≤ (f : ℚ) / 2 ^ 23 := by
      apply div_le_div_of_nonneg_right _ (by positivity); exact_mod_cast (not_le.1 hk).le
    have e1 : x.val * y.val = (1 + f / 2 ^ 23) * (2 + 7415786 / 2 ^ 23 - f / 2 ^ 23) / 4 := by
      rw [hv, h2, Nat.cast_sub (by omega), Nat.cast_add, Nat.cast_pow, Nat.cast_ofNat, Nat.cast_ofNat]
      rw [show ((2 : ℚ) ^ 23 + f) * 2 ^ (e - 1) / 2 ^ 149 * ((2 ^ 23 + (2 ^ 23 + 7415786 - f)) * 2 ^ (252 - e - 1) / 2 ^ 149)
        = (2 ^ 23 + f) * (2 ^ 23 + (2 ^ 23 + 7415786 - f)) * (2 ^ (e - 1) * 2 ^ (252 - e - 1)) / 2 ^ 298 by ring, hp]
      ring
    rw [e1]
    generalize (f : ℚ) / 2 ^ 23 = t at *
    constructor
    · nlinarith [mul_nonneg (sub_nonneg.2 hfk) (sub_nonneg.2 hf1)]
    · nlinarith [sq_nonneg (t - 7415786 / 2 ^ 24)]

/-! ### The polynomial -/

/-- The polynomial of `recip`, evaluated as the code does. -/
def recipPoly [Cfg] (w : F32) : F32 :=
  lit 8 1 + w * (-(lit 28 1) + w * (lit 56 1 + w * (-(lit 70 1) + w * (lit 56 1
    + w * (-(lit 28 1) + w * (lit 8 1 - w))))))

theorem abs_mul_le_of {a b A B : ℚ} (ha : |a| ≤ A) (hb : |b| ≤ B) : |a * b| ≤ A * B := by
  rw [abs_mul]; exact mul_le_mul ha hb (abs_nonneg _) ((abs_nonneg _).trans ha)

/-- Error of one multiplication step: `w * a` where `a = A + ea`. -/
theorem horner_mul [Cfg] {w a : F32} (hw : w.isFinite) (ha : a.isFinite) {A ea B c : ℚ} (e : Int) (he : -125 ≤ e)
    (he2 : e ≤ 127) (hv : a.val = A + ea) (hB : |ea| ≤ B) (hc : |w.val| ≤ c) (h : |w.val * a.val| ≤ 2 ^ e) :
    ∃ e', |e'| ≤ c * B + 2 ^ (e - 25) ∧ (w * a).isFinite = true ∧ (w * a).val = w.val * A + e' := by
  obtain ⟨d, hd, hf, hv'⟩ := mul_err hw ha e he he2 h
  refine ⟨w.val * ea + d, ?_, hf, by rw [hv', hv]; ring⟩
  exact (abs_add_le _ _).trans (add_le_add (abs_mul_le_of hc hB) hd)

/-- Error of one addition step: `k + p` where `p = P + e`. -/
theorem horner_add [Cfg] {k p : F32} (hk : k.isFinite) (hp : p.isFinite) {P ep B : ℚ} (e : Int) (he : -125 ≤ e)
    (he2 : e ≤ 127) (hv : p.val = P + ep) (hB : |ep| ≤ B) (h : |k.val + p.val| ≤ 2 ^ e) :
    ∃ e', |e'| ≤ B + 2 ^ (e - 25) ∧ (k + p).isFinite = true ∧ (k + p).val = k.val + P + e' := by
  obtain ⟨d, hd, hf, hv'⟩ := add_err hk hp e he he2 h
  refine ⟨ep + d, ?_, hf, by rw [hv', hv]; ring⟩
  exact (abs_add_le _ _).trans (add_le_add hB hd)

theorem recipPoly_err [Cfg] {w : F32} (hf : w.isFinite = true) {c : ℚ} (hc1 : 1 ≤ c) (hc2 : c ≤ 1.04)
    (hl : 0.942 ≤ w.val) (hu : w.val ≤ c) :
    (recipPoly w).isFinite = true ∧
    |w.val * (recipPoly w).val - 1| ≤
      c * (c ^ 6 + 5 * c ^ 5 + 12 * c ^ 4 + 8 * c ^ 3 + 8 * c ^ 2 + 4 * c + 1) / 2 ^ 22 + 1 / 10 ^ 9 ∧
    0.95 ≤ (recipPoly w).val ∧ (recipPoly w).val ≤ 1.07 := by
  obtain ⟨t, ht⟩ : ∃ t : ℚ, w.val = 1 + t := ⟨w.val - 1, by ring⟩
  norm_num at hc2 hl
  have t1 : -(58 / 1000) ≤ t := by linarith
  have t2 : t ≤ 4 / 100 := by linarith
  have s2 : t ^ 2 ≤ 34 / 10000 := by nlinarith
  have s20 : 0 ≤ t ^ 2 := sq_nonneg t
  have at1 : |t| ≤ 58 / 1000 := abs_le.2 ⟨t1, by linarith⟩
  have pw : ∀ n : Nat, |t ^ n| ≤ (58 / 1000) ^ n := fun n => by
    rw [abs_pow]; exact pow_le_pow_left₀ (abs_nonneg _) at1 n
  obtain ⟨s3, s3'⟩ := abs_le.1 (pw 3)
  obtain ⟨s4, s4'⟩ := abs_le.1 (pw 4)
  obtain ⟨s5, s5'⟩ := abs_le.1 (pw 5)
  obtain ⟨s6, s6'⟩ := abs_le.1 (pw 6)
  obtain ⟨s7, s7'⟩ := abs_le.1 (pw 7)
  obtain ⟨s8, s8'⟩ := abs_le.1 (pw 8)
  norm_num at s3 s3' s4 s4' s5 s5' s6 s6' s7 s7' s8 s8'
  have hwc : |w.val| ≤ c := abs_le.2 ⟨by linarith, hu⟩
  have c0 : 0 ≤ c := by linarith
  have small : ∀ B : ℚ, B ≤ 50 / 2 ^ 22 → ∀ e : ℚ, |e| ≤ B →
      -(2 / 100000) ≤ e ∧ e ≤ 2 / 100000 ∧ -(2 / 100000) ≤ t * e ∧ t * e ≤ 2 / 100000 := by
    intro B hB e he
    have h1 := he.trans hB
    have h2 := abs_le.1 h1
    have h3 := abs_le.1 (abs_mul_le_of at1 h1)
    norm_num at h2 h3 ⊢
    refine ⟨?_, ?_, ?_, ?_⟩ <;> linarith [h2.1, h2.2, h3.1, h3.2]
  have n28 : (-(lit 28 1)).isFinite = true := by simpa using fin_lit_28_1
  have n70 : (-(lit 70 1)).isFinite = true := by simpa using fin_lit_70_1
  have v28 : (-(lit 28 1)).val = -28 := by rw [val_neg, val_lit_28_1]
  have v70 : (-(lit 70 1)).val = -70 := by rw [val_neg, val_lit_70_1]
  have cc : ∀ B : ℚ, 0 ≤ B → c * B ≤ 26 / 25 * B := fun B hB => mul_le_mul_of_nonneg_right hc2 hB
  obtain ⟨d1, hd1, f1, v1⟩ := sub_err fin_lit_8_1 hf 3 (by norm_num) (by norm_num) (by
    rw [val_lit_8_1, ht, abs_le]; norm_num; constructor <;> linarith only [t1, t2])
  rw [val_lit_8_1, ht] at v1
  norm_num at hd1
  have w1 : (lit 8 1 - w).val = ((7) + (-1) * t ^ 1) + d1 := by rw [v1]; ring
  have q1 : (1 / 4194304 : ℚ) ≤ 50 / 2 ^ 22 := by norm_num
  obtain ⟨lo2, hi2, tlo2, thi2⟩ := small _ q1 _ hd1
  obtain ⟨e2, h2, f2, v2⟩ := horner_mul hf f1 3 (by norm_num) (by norm_num) w1 hd1 hwc (by
    rw [w1, ht, abs_le]; norm_num; constructor <;> linarith only [t1, t2, s2, s20, s3, s3', s4, s4', s5, s5', s6, s6', s7, s7', lo2, hi2, tlo2, thi2])
  norm_num at h2
  rw [ht] at v2
  have w2 : (w * (lit 8 1 - w)).val = ((7) + (6) * t ^ 1 + (-1) * t ^ 2) + e2 := by rw [v2]; ring
  replace h2 : |e2| ≤ (c * (1 / 4194304) + 1 / 4194304) := by refine h2.trans (le_of_eq ?_); ring
  have m2 := cc _ (show (0 : ℚ) ≤ (1 / 4194304) by positivity)
  have r2 : (c * (1 / 4194304) + 1 / 4194304) ≤ 51 / 25 / 2 ^ 22 := by norm_num at m2 ⊢; linarith only [m2]
  have q2 : (c * (1 / 4194304) + 1 / 4194304) ≤ 50 / 2 ^ 22 := r2.trans (by norm_num)
  obtain ⟨slo2, shi2, stlo2, sthi2⟩ := small _ q2 _ h2
  obtain ⟨a2, ha2, fa2, va2⟩ := horner_add n28 f2 5 (by norm_num) (by norm_num) w2 h2 (by
    rw [w2, v28, abs_le]; norm_num; constructor <;> linarith only [t1, t2, s2, s20, s3, s3', s4, s4', s5, s5', s6, s6', s7, s7', slo2, shi2, stlo2, sthi2])
  rw [v28] at va2
  norm_num at ha2
  have wa2 : (-(lit 28 1) + w * (lit 8 1 - w)).val = ((-21) + (6) * t ^ 1 + (-1) * t ^ 2) + a2 := by rw [va2]; ring
  replace ha2 : |a2| ≤ ((c * (1 / 4194304) + 1 / 4194304) + 1 / 1048576) := by refine ha2.trans (le_of_eq ?_); ring
  have g2 : ((c * (1 / 4194304) + 1 / 4194304) + 1 / 1048576) ≤ 151 / 25 / 2 ^ 22 := by norm_num at r2 ⊢; linarith only [r2]
  have qa2 : ((c * (1 / 4194304) + 1 / 4194304) + 1 / 1048576) ≤ 50 / 2 ^ 22 := g2.trans (by norm_num)
  obtain ⟨lo3, hi3, tlo3, thi3⟩ := small _ qa2 _ ha2
  obtain ⟨e3, h3, f3, v3⟩ := horner_mul hf fa2 5 (by norm_num) (by norm_num) wa2 ha2 hwc (by
    rw [wa2, ht, abs_le]; norm_num; constructor <;> linarith only [t1, t2, s2, s20, s3, s3', s4, s4', s5, s5', s6, s6', s7, s7', lo3, hi3, tlo3, thi3])
  norm_num at h3
  rw [ht] at v3
  have w3 : (w * (-(lit 28 1) + w * (lit 8 1 - w))).val = ((-21) + (-15) * t ^ 1 + (5) * t ^ 2 + (-1) * t ^ 3) + e3 := by rw [v3]; ring
  replace h3 : |e3| ≤ (c * ((c * (1 / 4194304) + 1 / 4194304) + 1 / 1048576) + 1 / 1048576) := by refine h3.trans (le_of_eq ?_); ring
  have m3 := cc _ (show (0 : ℚ) ≤ ((c * (1 / 4194304) + 1 / 4194304) + 1 / 1048576) by positivity)
  have r3 : (c * ((c * (1 / 4194304) + 1 / 4194304) + 1 / 1048576) + 1 / 1048576) ≤ 6426 / 625 / 2 ^ 22 := by
    norm_num at m3 g2 ⊢; linarith only [m3, g2]
  have q3 : (c * ((c * (1 / 4194304) + 1 / 4194304) + 1 / 1048576) + 1 / 1048576) ≤ 50 / 2 ^ 22 := r3.trans (by norm_num)
  obtain ⟨slo3, shi3, stlo3, sthi3⟩ := small _ q3 _ h3
  obtain ⟨a3, ha3, fa3, va3⟩ := horner_add fin_lit_56_1 f3 6 (by norm_num) (by norm_num) w3 h3 (by
    rw [w3, val_lit_56_1, abs_le]; norm_num; constructor <;> linarith only [t1, t2, s2, s20, s3, s3', s4, s4', s5, s5', s6, s6', s7, s7', slo3, shi3, stlo3, sthi3])
  rw [val_lit_56_1] at va3
  norm_num at ha3
  have wa3 : (lit 56 1 + w * (-(lit 28 1) + w * (lit 8 1 - w))).val = ((35) + (-15) * t ^ 1 + (5) * t ^ 2 + (-1) * t ^ 3) + a3 := by rw [va3]; ring
  replace ha3 : |a3| ≤ ((c * ((c * (1 / 4194304) + 1 / 4194304) + 1 / 1048576) + 1 / 1048576) + 1 / 524288) := by refine ha3.trans (le_of_eq ?_); ring
  have g3 : ((c * ((c * (1 / 4194304) + 1 / 4194304) + 1 / 1048576) + 1 / 1048576) + 1 / 524288) ≤ 11426 / 625 / 2 ^ 22 := by norm_num at r3 ⊢; linarith only [r3]
  have qa3 : ((c * ((c * (1 / 4194304) + 1 / 4194304) + 1 / 1048576) + 1 / 1048576) + 1 / 524288) ≤ 50 / 2 ^ 22 := g3.trans (by norm_num)
  obtain ⟨lo4, hi4, tlo4, thi4⟩ := small _ qa3 _ ha3
  obtain ⟨e4, h4, f4, v4⟩ := horner_mul hf fa3 6 (by norm_num) (by norm_num) wa3 ha3 hwc (by
    rw [wa3, ht, abs_le]; norm_num; constructor <;> linarith only [t1, t2, s2, s20, s3, s3', s4, s4', s5, s5', s6, s6', s7, s7', lo4, hi4, tlo4, thi4])
  norm_num at h4
  rw [ht] at v4
  have w4 : (w * (lit 56 1 + w * (-(lit 28 1) + w * (lit 8 1 - w)))).val = ((35) + (20) * t ^ 1 + (-10) * t ^ 2 + (4) * t ^ 3 + (-1) * t ^ 4) + e4 := by rw [v4]; ring
  replace h4 : |e4| ≤ (c * ((c * ((c * (1 / 4194304) + 1 / 4194304) + 1 / 1048576) + 1 / 1048576) + 1 / 524288) + 1 / 524288) := by refine h4.trans (le_of_eq ?_); ring
  have m4 := cc _ (show (0 : ℚ) ≤ ((c * ((c * (1 / 4194304) + 1 / 4194304) + 1 / 1048576) + 1 / 1048576) + 1 / 524288) by positivity)
  have r4 : (c * ((c * ((c * (1 / 4194304) + 1 / 4194304) + 1 / 1048576) + 1 / 1048576) + 1 / 524288) + 1 / 524288) ≤ 422076 / 15625 / 2 ^ 22 := by
    norm_num at m4 g3 ⊢; linarith only [m4, g3]
  have q4 : (c * ((c * ((c * (1 / 4194304) + 1 / 4194304) + 1 / 1048576) + 1 / 1048576) + 1 / 524288) + 1 / 524288) ≤ 50 / 2 ^ 22 := r4.trans (by norm_num)
  obtain ⟨slo4, shi4, stlo4, sthi4⟩ := small _ q4 _ h4
  obtain ⟨fa4, va4⟩ := add_int_exact f4 n70 (n := -70) 5 (by norm_num) (by norm_num)
    (by rw [v70]; norm_num) (by rw [w4]; refine le_trans ?_ (le_abs_self _); norm_num; linarith only [t1, t2, s2, s20, s3, s3', s4, s4', s5, s5', s6, s6', s7, s7', slo4, shi4, stlo4, sthi4]) (by
    rw [w4, v70, abs_le]; norm_num; constructor <;> linarith only [t1, t2, s2, s20, s3, s3', s4, s4', s5, s5', s6, s6', s7, s7', slo4, shi4, stlo4, sthi4])
  rw [v70, w4] at va4
  have wa4 : (-(lit 70 1) + w * (lit 56 1 + w * (-(lit 28 1) + w * (lit 8 1 - w)))).val = ((-35) + (20) * t ^ 1 + (-10) * t ^ 2 + (4) * t ^ 3 + (-1) * t ^ 4) + e4 := by rw [va4]; ring
  have g4 := r4
  have qa4 : (c * ((c * ((c * (1 / 4194304) + 1 / 4194304) + 1 / 1048576) + 1 / 1048576) + 1 / 524288) + 1 / 524288) ≤ 50 / 2 ^ 22 := g4.trans (by norm_num)
  obtain ⟨lo5, hi5, tlo5, thi5⟩ := small _ qa4 _ h4
  obtain ⟨e5, h5, f5, v5⟩ := horner_mul hf fa4 6 (by norm_num) (by norm_num) wa4 h4 hwc (by
    rw [wa4, ht, abs_le]; norm_num; constructor <;> linarith only [t1, t2, s2, s20, s3, s3', s4, s4', s5, s5', s6, s6', s7, s7', lo5, hi5, tlo5, thi5])
  norm_num at h5
  rw [ht] at v5
  have w5 : (w * (-(lit 70 1) + w * (lit 56 1 + w * (-(lit 28 1) + w * (lit 8 1 - w))))).val = ((-35) + (-15) * t ^ 1 + (10) * t ^ 2 + (-6) * t ^ 3 + (3) * t ^ 4 + (-1) * t ^ 5) + e5 := by rw [v5]; ring
  replace h5 : |e5| ≤ (c * (c * ((c * ((c * (1 / 4194304) + 1 / 4194304) + 1 / 1048576) + 1 / 1048576) + 1 / 524288) + 1 / 524288) + 1 / 524288) := by refine h5.trans (le_of_eq ?_); ring
  have m5 := cc _ (show (0 : ℚ) ≤ (c * ((c * ((c * (1 / 4194304) + 1 / 4194304) + 1 / 1048576) + 1 / 1048576) + 1 / 524288) + 1 / 524288) by positivity)
  have r5 : (c * (c * ((c * ((c * (1 / 4194304) + 1 / 4194304) + 1 / 1048576) + 1 / 1048576) + 1 / 524288) + 1 / 524288) + 1 / 524288) ≤ 14098976 / 390625 / 2 ^ 22 := by
    norm_num at m5 g4 ⊢; linarith only [m5, g4]
  have q5 : (c * (c * ((c * ((c * (1 / 4194304) + 1 / 4194304) + 1 / 1048576) + 1 / 1048576) + 1 / 524288) + 1 / 524288) + 1 / 524288) ≤ 50 / 2 ^ 22 := r5.trans (by norm_num)
  obtain ⟨slo5, shi5, stlo5, sthi5⟩ := small _ q5 _ h5
  obtain ⟨fa5, va5⟩ := add_int_exact f5 fin_lit_56_1 (n := 56) 5 (by norm_num) (by norm_num)
    (by rw [val_lit_56_1]; norm_num) (by rw [w5]; refine le_trans ?_ (neg_le_abs _); norm_num; linarith only [t1, t2, s2, s20, s3, s3', s4, s4', s5, s5', s6, s6', s7, s7', slo5, shi5, stlo5, sthi5]) (by
    rw [w5, val_lit_56_1, abs_le]; norm_num; constructor <;> linarith only [t1, t2, s2, s20, s3, s3', s4, s4', s5, s5', s6, s6', s7, s7', slo5, shi5, stlo5, sthi5])
  rw [val_lit_56_1, w5] at va5
  have wa5 : (lit 56 1 + w * (-(lit 70 1) + w * (lit 56 1 + w * (-(lit 28 1) + w * (lit 8 1 - w))))).val = ((21) + (-15) * t ^ 1 + (10) * t ^ 2 + (-6) * t ^ 3 + (3) * t ^ 4 + (-1) * t ^ 5) + e5 := by rw [va5]; ring
  have g5 := r5
  have qa5 : (c * (c * ((c * ((c * (1 / 4194304) + 1 / 4194304) + 1 / 1048576) + 1 / 1048576) + 1 / 524288) + 1 / 524288) + 1 / 524288) ≤ 50 / 2 ^ 22 := g5.trans (by norm_num)
  obtain ⟨lo6, hi6, tlo6, thi6⟩ := small _ qa5 _ h5
  obtain ⟨e6, h6, f6, v6⟩ := horner_mul hf fa5 5 (by norm_num) (by norm_num) wa5 h5 hwc (by
    rw [wa5, ht, abs_le]; norm_num; constructor <;> linarith only [t1, t2, s2, s20, s3, s3', s4, s4', s5, s5', s6, s6', s7, s7', lo6, hi6, tlo6, thi6])
  norm_num at h6
  rw [ht] at v6
  have w6 : (w * (lit 56 1 + w * (-(lit 70 1) + w * (lit 56 1 + w * (-(lit 28 1) + w * (lit 8 1 - w)))))).val = ((21) + (6) * t ^ 1 + (-5) * t ^ 2 + (4) * t ^ 3 + (-3) * t ^ 4 + (2) * t ^ 5 + (-1) * t ^ 6) + e6 := by rw [v6]; ring
  replace h6 : |e6| ≤ (c * (c * (c * ((c * ((c * (1 / 4194304) + 1 / 4194304) + 1 / 1048576) + 1 / 1048576) + 1 / 524288) + 1 / 524288) + 1 / 524288) + 1 / 1048576) := by refine h6.trans (le_of_eq ?_); ring
  have m6 := cc _ (show (0 : ℚ) ≤ (c * (c * ((c * ((c * (1 / 4194304) + 1 / 4194304) + 1 / 1048576) + 1 / 1048576) + 1 / 524288) + 1 / 524288) + 1 / 524288) by positivity)
  have r6 : (c * (c * (c * ((c * ((c * (1 / 4194304) + 1 / 4194304) + 1 / 1048576) + 1 / 1048576) + 1 / 524288) + 1 / 524288) + 1 / 524288) + 1 / 1048576) ≤ 405635876 / 9765625 / 2 ^ 22 := by
    norm_num at m6 g5 ⊢; linarith only [m6, g5]
  have q6 : (c * (c * (c * ((c * ((c * (1 / 4194304) + 1 / 4194304) + 1 / 1048576) + 1 / 1048576) + 1 / 524288) + 1 / 524288) + 1 / 524288) + 1 / 1048576) ≤ 50 / 2 ^ 22 := r6.trans (by norm_num)
  obtain ⟨slo6, shi6, stlo6, sthi6⟩ := small _ q6 _ h6
  obtain ⟨fa6, va6⟩ := add_int_exact f6 n28 (n := -28) 4 (by norm_num) (by norm_num)
    (by rw [v28]; norm_num) (by rw [w6]; refine le_trans ?_ (le_abs_self _); norm_num; linarith only [t1, t2, s2, s20, s3, s3', s4, s4', s5, s5', s6, s6', s7, s7', slo6, shi6, stlo6, sthi6]) (by
    rw [w6, v28, abs_le]; norm_num; constructor <;> linarith only [t1, t2, s2, s20, s3, s3', s4, s4', s5, s5', s6, s6', s7, s7', slo6, shi6, stlo6, sthi6])
  rw [v28, w6] at va6
  have wa6 : (-(lit 28 1) + w * (lit 56 1 + w * (-(lit 70 1) + w * (lit 56 1 + w * (-(lit 28 1) + w * (lit 8 1 - w)))))).val = ((-7) + (6) * t ^ 1 + (-5) * t ^ 2 + (4) * t ^ 3 + (-3) * t ^ 4 + (2) * t ^ 5 + (-1) * t ^ 6) + e6 := by rw [va6]; ring
  have g6 := r6
  have qa6 : (c * (c * (c * ((c * ((c * (1 / 4194304) + 1 / 4194304) + 1 / 1048576) + 1 / 1048576) + 1 / 524288) + 1 / 524288) + 1 / 524288) + 1 / 1048576) ≤ 50 / 2 ^ 22 := g6.trans (by norm_num)
  obtain ⟨lo7, hi7, tlo7, thi7⟩ := small _ qa6 _ h6
  obtain ⟨e7, h7, f7, v7⟩ := horner_mul hf fa6 3 (by norm_num) (by norm_num) wa6 h6 hwc (by
    rw [wa6, ht, abs_le]; norm_num; constructor <;> linarith only [t1, t2, s2, s20, s3, s3', s4, s4', s5, s5', s6, s6', s7, s7', lo7, hi7, tlo7, thi7])
  norm_num at h7
  rw [ht] at v7
  have w7 : (w * (-(lit 28 1) + w * (lit 56 1 + w * (-(lit 70 1) + w * (lit 56 1 + w * (-(lit 28 1) + w * (lit 8 1 - w))))))).val = ((-7) + (-1) * t ^ 1 + (1) * t ^ 2 + (-1) * t ^ 3 + (1) * t ^ 4 + (-1) * t ^ 5 + (1) * t ^ 6 + (-1) * t ^ 7) + e7 := by rw [v7]; ring
  replace h7 : |e7| ≤ (c * (c * (c * (c * ((c * ((c * (1 / 4194304) + 1 / 4194304) + 1 / 1048576) + 1 / 1048576) + 1 / 524288) + 1 / 524288) + 1 / 524288) + 1 / 1048576) + 1 / 4194304) := by refine h7.trans (le_of_eq ?_); ring
  have m7 := cc _ (show (0 : ℚ) ≤ (c * (c * (c * ((c * ((c * (1 / 4194304) + 1 / 4194304) + 1 / 1048576) + 1 / 1048576) + 1 / 524288) + 1 / 524288) + 1 / 524288) + 1 / 1048576) by positivity)
  have r7 : (c * (c * (c * (c * ((c * ((c * (1 / 4194304) + 1 / 4194304) + 1 / 1048576) + 1 / 1048576) + 1 / 524288) + 1 / 524288) + 1 / 524288) + 1 / 1048576) + 1 / 4194304) ≤ 10790673401 / 244140625 / 2 ^ 22 := by
    norm_num at m7 g6 ⊢; linarith only [m7, g6]
  have q7 : (c * (c * (c * (c * ((c * ((c * (1 / 4194304) + 1 / 4194304) + 1 / 1048576) + 1 / 1048576) + 1 / 524288) + 1 / 524288) + 1 / 524288) + 1 / 1048576) + 1 / 4194304) ≤ 50 / 2 ^ 22 := r7.trans (by norm_num)
  obtain ⟨slo7, shi7, stlo7, sthi7⟩ := small _ q7 _ h7
  obtain ⟨fa7, va7⟩ := add_int_exact f7 fin_lit_8_1 (n := 8) 2 (by norm_num) (by norm_num)
    (by rw [val_lit_8_1]; norm_num) (by rw [w7]; refine le_trans ?_ (neg_le_abs _); norm_num; linarith only [t1, t2, s2, s20, s3, s3', s4, s4', s5, s5', s6, s6', s7, s7', slo7, shi7, stlo7, sthi7]) (by
    rw [w7, val_lit_8_1, abs_le]; norm_num; constructor <;> linarith only [t1, t2, s2, s20, s3, s3', s4, s4', s5, s5', s6, s6', s7, s7', slo7, shi7, stlo7, sthi7])
  rw [val_lit_8_1, w7] at va7
  have wa7 : (lit 8 1 + w * (-(lit 28 1) + w * (lit 56 1 + w * (-(lit 70 1) + w * (lit 56 1 + w * (-(lit 28 1) + w * (lit 8 1 - w))))))).val = ((1) + (-1) * t ^ 1 + (1) * t ^ 2 + (-1) * t ^ 3 + (1) * t ^ 4 + (-1) * t ^ 5 + (1) * t ^ 6 + (-1) * t ^ 7) + e7 := by rw [va7]; ring
  have g7 := r7
  have qa7 : (c * (c * (c * (c * ((c * ((c * (1 / 4194304) + 1 / 4194304) + 1 / 1048576) + 1 / 1048576) + 1 / 524288) + 1 / 524288) + 1 / 524288) + 1 / 1048576) + 1 / 4194304) ≤ 50 / 2 ^ 22 := g7.trans (by norm_num)
  refine ⟨fa7, ?_, ?_, ?_⟩
  · show |w.val * (lit 8 1 + w * (-(lit 28 1) + w * (lit 56 1 + w * (-(lit 70 1) + w * (lit 56 1 + w * (-(lit 28 1) + w * (lit 8 1 - w))))))).val - 1| ≤ _
    rw [ht, wa7]
    have e1 : (1 + t) * (((1) + (-1) * t ^ 1 + (1) * t ^ 2 + (-1) * t ^ 3 + (1) * t ^ 4 + (-1) * t ^ 5 + (1) * t ^ 6 + (-1) * t ^ 7) + e7) - 1 = -t ^ 8 + (1 + t) * e7 := by ring
    rw [e1]
    refine (abs_add_le _ _).trans ?_
    have x1 : |-t ^ 8| ≤ 1 / 10 ^ 9 := by
      rw [abs_neg]; refine (pw 8).trans ?_; norm_num
    have x2 : |(1 + t) * e7| ≤ c * _ := abs_mul_le_of (ht ▸ hwc) h7
    have x3 : c * (c * (c * (c * (c * ((c * ((c * (1 / 4194304) + 1 / 4194304) + 1 / 1048576) + 1 / 1048576) + 1 / 524288) + 1 / 524288) + 1 / 524288) + 1 / 1048576) + 1 / 4194304) = c * (c ^ 6 + 5 * c ^ 5 + 12 * c ^ 4 + 8 * c ^ 3 + 8 * c ^ 2 + 4 * c + 1) / 2 ^ 22 := by ring
    rw [← x3]
    linarith only [x1, x2]
  · show _ ≤ (lit 8 1 + w * (-(lit 28 1) + w * (lit 56 1 + w * (-(lit 70 1) + w * (lit 56 1 + w * (-(lit 28 1) + w * (lit 8 1 - w))))))).val
    rw [wa7]; norm_num; linarith only [t1, t2, s2, s20, s3, s3', s4, s4', s5, s5', s6, s6', s7, s7', slo7, shi7, stlo7, sthi7]
  · show (lit 8 1 + w * (-(lit 28 1) + w * (lit 56 1 + w * (-(lit 70 1) + w * (lit 56 1 + w * (-(lit 28 1) + w * (lit 8 1 - w))))))).val ≤ _
    rw [wa7]; norm_num; linarith only [t1, t2, s2, s20, s3, s3', s4, s4', s5, s5', s6, s6', s7, s7', slo7, shi7, stlo7, sthi7]

/-! ### Multiplication by `1.0` and `-1.0` -/

theorem mul_one_fin [Cfg] {x : F32} (h : x.isFinite = true) : x * one = x := by
  have hm : |x.val * one.val| < ovf := by rw [val_one, mul_one]; exact abs_val_lt_ovf h
  refine eq_of_val_sign ?_ ?_
  · rw [(mul_val h fin_one hm).2, val_one, mul_one, RN_val]
  · rw [sign_mul_finite h fin_one, show one.sign = false by decide]; simp

theorem mul_neg_one_fin [Cfg] {x : F32} (h : x.isFinite = true) : x * -one = -x := by
  have h1 : (-one).isFinite = true := by simpa using fin_one
  have hm : |x.val * (-one).val| < ovf := by
    rw [val_neg, val_one, mul_neg, mul_one, abs_neg]; exact abs_val_lt_ovf h
  refine eq_of_val_sign ?_ ?_
  · rw [(mul_val h h1 hm).2, val_neg, val_one, mul_neg, mul_one, RN_neg, RN_val, val_neg]
  · rw [sign_mul_finite h h1, sign_neg, sign_neg, show one.sign = false by decide]; simp

/-- `recip` on a positive normal number in the working range. -/
theorem recip_pos [Cfg] {x : F32} (h : PosNormal x) (hl : 1 / 2 ^ 126 ≤ x.val) (hu : x.val ≤ 2 ^ 125) :
    ∃ w v : F32, v = fromBits (0x7EF127EA#32 - x.toBits) ∧ w = x * v ∧ w.isFinite = true ∧ 0.942 ≤ w.val ∧ w.val ≤ 1.04 ∧ x.recip = v * recipPoly w ∧
      v.isFinite = true ∧ (∃ d, |d| ≤ 1 / 2 ^ 24 ∧ w.val = x.val * v.val * (1 + d)) ∧
      (x.recip).isFinite = true ∧
      (∃ d, |d| ≤ 1 / 2 ^ 24 ∧ x.recip.val = v.val * (recipPoly w).val * (1 + d)) := by
  have hx0 : 0 < x.val := lt_of_lt_of_le (by positivity) hl
  obtain ⟨s1, s2, s3⟩ := recip_seed h hu
  have hlt : x.lt ZERO = false := by
    rw [Bool.eq_false_iff]; intro hc
    rw [lt_iff h.1 fin_ZERO, val_ZERO] at hc
    linarith
  have e0 : x.recip = (fromBits (0x7EF127EA#32 - x.toBits) *
      recipPoly (x * fromBits (0x7EF127EA#32 - x.toBits))) * one := by
    unfold F32.recip recipPoly
    rw [hlt]
    simp only [Bool.false_eq_true, if_false, mul_one_fin h.1]
  obtain ⟨v, hv⟩ : ∃ v, v = fromBits (0x7EF127EA#32 - x.toBits) := ⟨_, rfl⟩
  rw [← hv] at s1 s2 s3 e0
  norm_num at s2 s3
  have p1 : 0 < x.val * v.val := by linarith
  obtain ⟨d, hd, fw, vw⟩ := mul_rel h.1 s1.1
    (by rw [abs_of_pos p1]; norm_num; linarith) (by rw [abs_of_pos p1]; norm_num [ovf]; linarith)
  have hd' := abs_le.1 hd
  norm_num at hd'
  have wl : 0.942 ≤ (x * v).val := by rw [vw]; norm_num; nlinarith [hd'.1, hd'.2]
  have wu : (x * v).val ≤ 1.04 := by rw [vw]; norm_num; nlinarith [hd'.1, hd'.2]
  obtain ⟨pf, -, pl, pu⟩ := recipPoly_err (c := 1.04) fw (by norm_num) le_rfl wl wu
  norm_num at pl pu
  have v0 : 0 < v.val := lt_of_lt_of_le (by positivity) s1.2
  have vu : v.val ≤ 3 / 2 * 2 ^ 126 := by
    by_contra hc
    push Not at hc
    have : (1 / 2 ^ 126 : ℚ) * (3 / 2 * 2 ^ 126) < x.val * v.val := mul_lt_mul' hl hc (by positivity) hx0
    norm_num at this; linarith
  have vl : 9 / 10 / 2 ^ 125 ≤ v.val := by
    by_contra hc
    push Not at hc
    have : x.val * v.val < 2 ^ 125 * (9 / 10 / 2 ^ 125) := mul_lt_mul' hu hc v0.le (by positivity)
    norm_num at this; linarith
  have q1 : 0 < v.val * (recipPoly (x * v)).val := mul_pos v0 (by linarith)
  have q2 : v.val * (recipPoly (x * v)).val ≤ 3 / 2 * 2 ^ 126 * (107 / 100) :=
    mul_le_mul vu pu (by linarith) (by positivity)
  have q3 : 9 / 10 / 2 ^ 125 * (19 / 20) ≤ v.val * (recipPoly (x * v)).val :=
    mul_le_mul vl pl (by norm_num) v0.le
  obtain ⟨d', hd2, fr, vr⟩ := mul_rel s1.1 pf (by
    rw [abs_of_pos q1]; refine le_trans ?_ q3; norm_num) (by
    rw [abs_of_pos q1]; refine lt_of_le_of_lt q2 ?_; norm_num [ovf])
  rw [mul_one_fin fr] at e0
  exact ⟨x * v, v, hv, rfl, fw, wl, wu, e0, s1.1, ⟨d, hd, vw⟩, e0 ▸ fr, ⟨d', hd2, e0 ▸ vr⟩⟩

/-- From a bound on the polynomial to a bound on the result. -/
theorem recip_combine {x v w p r d d' ε : ℚ} (hd : |d| ≤ 1 / 2 ^ 24) (hd' : |d'| ≤ 1 / 2 ^ 24)
    (hw : w = x * v * (1 + d)) (hr : r = v * p * (1 + d')) (hε : |w * p - 1| ≤ ε) (hε1 : ε ≤ 1 / 100) :
    |x * r - 1| ≤ ε + 1.3 / 10 ^ 7 := by
  have h1 := abs_le.1 hd
  have h2 := abs_le.1 hd'
  have h3 := abs_le.1 hε
  have hpos : 0 < 1 + d := by norm_num at h1; linarith [h1.1]
  have key : (x * r) * (1 + d) = (w * p) * (1 + d') := by rw [hr, hw]; ring
  set y := x * r with hy
  set z := w * p with hz
  have e1 : y = z * ((1 + d') / (1 + d)) := by field_simp; linarith
  obtain ⟨g, hg⟩ : ∃ g, (1 + d') / (1 + d) = 1 + g := ⟨(1 + d') / (1 + d) - 1, by ring⟩
  have g1 : g * (1 + d) = d' - d := by field_simp at hg; linarith
  have ag : |g| ≤ 1.25 / 10 ^ 7 := by
    have ag1 : |g| * (1 - 1 / 2 ^ 24) ≤ 2 / 2 ^ 24 := by
      calc |g| * (1 - 1 / 2 ^ 24) ≤ |g| * (1 + d) := by
            apply mul_le_mul_of_nonneg_left _ (abs_nonneg g); linarith [h1.1]
        _ = |g * (1 + d)| := by rw [abs_mul, abs_of_pos hpos]
        _ = |d' - d| := by rw [g1]
        _ ≤ 2 / 2 ^ 24 := by
            refine (abs_sub _ _).trans ?_; linarith
    norm_num at ag1 ⊢; linarith
  rw [e1, hg]
  have : z * (1 + g) - 1 = (z - 1) + z * g := by ring
  rw [this]
  refine (abs_add_le _ _).trans ?_
  have zb : |z| ≤ 1.01 := by rw [abs_le]; norm_num; constructor <;> linarith [h3.1, h3.2]
  have := abs_mul_le_of zb ag
  norm_num at this ⊢; linarith

theorem recip_neg_eq [Cfg] {x : F32} (h : PosNormal x) (hl : 1 / 2 ^ 126 ≤ x.val) (hu : x.val ≤ 2 ^ 125) :
    (-x).recip = -x.recip := by
  have hx0 : 0 < x.val := lt_of_lt_of_le (by positivity) hl
  have hn : (-x).isFinite = true := by simpa using h.1
  have hlt : x.lt ZERO = false := by
    rw [Bool.eq_false_iff]; intro hc
    rw [lt_iff h.1 fin_ZERO, val_ZERO] at hc
    linarith
  have hlt' : (-x).lt ZERO = true := by
    rw [lt_iff hn fin_ZERO, val_ZERO, val_neg]; linarith
  obtain ⟨w, v, hv, hw, -, -, -, e, -, -, fr, -⟩ := recip_pos h hl hu
  have e1 : (-x).recip = (v * recipPoly w) * -one := by
    rw [hw, hv]
    unfold F32.recip recipPoly
    rw [hlt']
    simp only [if_true, mul_neg_one_fin hn, neg_neg']
  rw [e1, ← e, mul_neg_one_fin fr]

/-- From the positive half to the whole range, by oddness. -/
theorem recip_range [Cfg] {ε : ℚ}
    (H : ∀ x : F32, PosNormal x → 1 / 2 ^ 126 ≤ x.val → x.val ≤ 2 ^ 125 → |x.val * x.recip.val - 1| ≤ ε)
    {x : F32} (hx : x.isFinite = true) (hl : 1 / 2 ^ 126 ≤ |x.val|) (hu : |x.val| ≤ 2 ^ 125) :
    x.recip.isFinite = true ∧ |x.val * x.recip.val - 1| ≤ ε ∧ (-x).recip = -x.recip := by
  rcases le_or_gt 0 x.val with h0 | h0
  · rw [abs_of_nonneg h0] at hl hu
    have hp : PosNormal x := ⟨hx, le_trans (by norm_num) hl⟩
    obtain ⟨w, v, -, -, -, -, -, -, -, -, fr, -⟩ := recip_pos hp hl hu
    exact ⟨fr, H x hp hl hu, recip_neg_eq hp hl hu⟩
  · rw [abs_of_neg h0, ← val_neg] at hl hu
    have hp : PosNormal (-x) := ⟨by simpa using hx, le_trans (by norm_num) hl⟩
    obtain ⟨w, v, -, -, -, -, -, -, -, -, fr, -⟩ := recip_pos hp hl hu
    have e := recip_neg_eq hp hl hu
    rw [neg_neg'] at e
    have h1 := H _ hp hl hu
    refine ⟨by rw [e, isFinite_neg]; exact fr, ?_, by rw [e, neg_neg']⟩
    rw [e, val_neg]
    rw [val_neg] at h1
    convert h1 using 2
    ring

/-- **C21.** For `2^-126 <= |x| <= 2^125`, `recip(x)` is finite, within
relative error `1.2e-5` of `1/x`, and odd. -/
theorem C21_recip [Cfg] (x : F32) (hx : x.isFinite = true) (hl : 1 / 2 ^ 126 ≤ |x.val|)
    (hu : |x.val| ≤ 2 ^ 125) :
    x.recip.isFinite = true ∧ |x.val * x.recip.val - 1| ≤ 1.2 / 10 ^ 5 ∧ (-x).recip = -x.recip := by
  refine recip_range ?_ hx hl hu
  intro x hp hl hu
  obtain ⟨w, v, -, -, fw, wl, wu, -, -, ⟨d, hd, vw⟩, -, ⟨d', hd', vr⟩⟩ := recip_pos hp hl hu
  obtain ⟨-, h2, -, -⟩ := recipPoly_err (c := 1.04) fw (by norm_num) le_rfl wl wu
  refine (recip_combine hd hd' vw vr h2 (by norm_num)).trans (by norm_num)

example : (⟨0xc0490fdb#32⟩ : F32).isFinite = true ∧ 1 / 2 ^ 126 ≤ |(⟨0xc0490fdb#32⟩ : F32).val| ∧
    |(⟨0xc0490fdb#32⟩ : F32).val| ≤ 2 ^ 125 := by
  refine ⟨by decide, ?_⟩
  rw [val_of_units (u := -13176795 * 2 ^ 127) (by decide +kernel)]; norm_num

/-- `recip` of the zeros is the infinity of the same sign. -/
theorem C21_recip_zero [Cfg] : posZero.recip = posInf ∧ negZero.recip = negInf :=
  ⟨eval_eq (by kernel_rfl), eval_eq (by kernel_rfl)⟩

/-! ### `hypot` -/

theorem hypot_comm [Cfg] {x y : F32} (hx : x.isNaN = false) (hy : y.isNaN = false) : x.hypot y = y.hypot x := by
  unfold F32.hypot
  obtain ⟨a1, a2⟩ := sq_facts hx
  obtain ⟨b1, b2⟩ := sq_facts hy
  rw [add_comm_nonneg a1 b1 a2 b2]

/-- A finite product of a float with itself, zero or in the normal range. -/
theorem sq_rel [Cfg] {x : F32} (hf : (x * x).isFinite = true) (hn : x.val = 0 ∨ 1 / 2 ^ 126 ≤ x.val ^ 2) :
    ∃ d, |d| ≤ 1 / 2 ^ 24 ∧ (x * x).val = x.val ^ 2 * (1 + d) ∧ (x.val = 0 ∨ 1 / 2 ^ 126 ≤ (x * x).val) := by
  obtain ⟨h1, -, h3⟩ := mul_finite_inv hf
  have hv := mul_finite_val hf
  rcases hn with hn | hn
  · refine ⟨0, by norm_num, ?_, Or.inl hn⟩
    rw [hv, hn]; simp [RN]
  · have e : x.val * x.val = x.val ^ 2 := by ring
    obtain ⟨d, hd, -, h5⟩ := mul_rel h1 h1 (by rw [e, abs_of_nonneg (sq_nonneg _)]; exact hn) h3
    refine ⟨d, hd, by rw [h5, e], Or.inr ?_⟩
    rw [hv, e]
    refine le_RN_of_rep ?_ hn
    have := rep_pow (e := -126) (by norm_num)
    norm_num at this ⊢; exact this

/-- **C22.** `hypot` never panics (its only partial ingredient is `sqrt`, see C15), is symmetric in its
non-NaN arguments, and if the sum of the squares does not overflow and neither square is subnormal, the square
of the result is within `(1 - 2^-20) .. 9/8 (1 + 2^-20)` of `x^2 + y^2`. -/
theorem C22_hypot [Cfg] (x y : F32) :
    (x * x + y * y).sqrtR = .ok (x.hypot y) ∧
    (x.isNaN = false → y.isNaN = false → x.hypot y = y.hypot x) ∧
    ((x * x + y * y).isFinite = true → (x.val = 0 ∨ 1 / 2 ^ 126 ≤ x.val ^ 2) →
      (y.val = 0 ∨ 1 / 2 ^ 126 ≤ y.val ^ 2) → (x.val ≠ 0 ∨ y.val ≠ 0) →
      (x.hypot y).isFinite = true ∧ 0 < (x.hypot y).val ∧
      (1 - 1 / 2 ^ 20) * (x.val ^ 2 + y.val ^ 2) ≤ (x.hypot y).val ^ 2 ∧
      (x.hypot y).val ^ 2 ≤ 9 / 8 * (1 + 1 / 2 ^ 20) * (x.val ^ 2 + y.val ^ 2)) := by
  refine ⟨sqrtR_eq _, hypot_comm, ?_⟩
  intro hf hx hy h0
  obtain ⟨fx, fy, hs⟩ := add_finite_inv hf
  obtain ⟨d1, hd1, v1, n1⟩ := sq_rel fx hx
  obtain ⟨d2, hd2, v2, n2⟩ := sq_rel fy hy
  obtain ⟨d3, hd3, -, v3⟩ := add_rel fx fy hs
  have hsv := add_finite_val hf
  have a1 := abs_le.1 hd1
  have a2 := abs_le.1 hd2
  have a3 := abs_le.1 hd3
  norm_num at a1 a2 a3
  have p1 : 0 ≤ (x * x).val := by
    rw [v1]; exact mul_nonneg (sq_nonneg _) (by linarith [a1.1])
  have p2 : 0 ≤ (y * y).val := by
    rw [v2]; exact mul_nonneg (sq_nonneg _) (by linarith [a2.1])
  have big : 1 / 2 ^ 126 ≤ (x * x).val + (y * y).val := by
    rcases h0 with h0 | h0
    · have := n1.resolve_left h0; linarith
    · have := n2.resolve_left h0; linarith
  have hp : PosNormal (x * x + y * y) := by
    refine ⟨hf, ?_⟩
    rw [hsv]
    refine le_RN_of_rep ?_ big
    have := rep_pow (e := -126) (by norm_num)
    norm_num at this ⊢; exact this
  obtain ⟨q1, q2, q3⟩ := sqrt_bounds hp
  refine ⟨q1.1, lt_of_lt_of_le (by positivity) q1.2, ?_, ?_⟩
  · refine le_trans ?_ q2
    rw [v3, v1, v2]
    have x2 := sq_nonneg x.val
    have y2 := sq_nonneg y.val
    have m1 : x.val ^ 2 * (1 - 1 / 2 ^ 24) ≤ x.val ^ 2 * (1 + d1) :=
      mul_le_mul_of_nonneg_left (by norm_num; linarith [a1.1]) x2
    have m2 : y.val ^ 2 * (1 - 1 / 2 ^ 24) ≤ y.val ^ 2 * (1 + d2) :=
      mul_le_mul_of_nonneg_left (by norm_num; linarith [a2.1]) y2
    have m3 : (x.val ^ 2 + y.val ^ 2) * (1 - 1 / 2 ^ 24) * (1 - 1 / 2 ^ 24) ≤
        (x.val ^ 2 * (1 + d1) + y.val ^ 2 * (1 + d2)) * (1 + d3) := by
      apply mul_le_mul (by linarith) (by norm_num; linarith [a3.1]) (by norm_num)
      rw [← v1, ← v2]; linarith
    have m4 := mul_le_mul_of_nonneg_left m3 (by norm_num : (0 : ℚ) ≤ 1 - 1 / 2 ^ 22)
    refine le_trans ?_ m4
    have : 0 ≤ x.val ^ 2 + y.val ^ 2 := by linarith
    norm_num; linarith
  · refine le_trans q3 ?_
    rw [v3, v1, v2]
    have x2 := sq_nonneg x.val
    have y2 := sq_nonneg y.val
    have m1 : x.val ^ 2 * (1 + d1) ≤ x.val ^ 2 * (1 + 1 / 2 ^ 24) :=
      mul_le_mul_of_nonneg_left (by norm_num; linarith [a1.2]) x2
    have m2 : y.val ^ 2 * (1 + d2) ≤ y.val ^ 2 * (1 + 1 / 2 ^ 24) :=
      mul_le_mul_of_nonneg_left (by norm_num; linarith [a2.2]) y2
    have m3 : (x.val ^ 2 * (1 + d1) + y.val ^ 2 * (1 + d2)) * (1 + d3) ≤
        (x.val ^ 2 + y.val ^ 2) * (1 + 1 / 2 ^ 24) * (1 + 1 / 2 ^ 24) := by
      apply mul_le_mul (by linarith) (by norm_num; linarith [a3.2]) (by linarith [a3.1]) (by positivity)
    have m4 := mul_le_mul_of_nonneg_left m3 (by norm_num : (0 : ℚ) ≤ 9 / 8)
    refine m4.trans ?_
    have : 0 ≤ x.val ^ 2 + y.val ^ 2 := by linarith
    norm_num; linarith

/-- `hypot(3, 4)`: the hypotheses hold. -/
example [Cfg] : (⟨0x40400000#32⟩ * ⟨0x40400000#32⟩ + ⟨0x40800000#32⟩ * ⟨0x40800000#32⟩ : F32).isFinite = true ∧
    1 / 2 ^ 126 ≤ (⟨0x40400000#32⟩ : F32).val ^ 2 ∧ 1 / 2 ^ 126 ≤ (⟨0x40800000#32⟩ : F32).val ^ 2 := by
  refine ⟨?_, ?_, ?_⟩
  · rw [show (⟨0x40400000#32⟩ * ⟨0x40400000#32⟩ + ⟨0x40800000#32⟩ * ⟨0x40800000#32⟩ : F32) = ⟨0x41c80000#32⟩ from
      eval_eq (by kernel_rfl)]; decide
  · rw [val_of_units (u := 3 * 2 ^ 149) (by decide +kernel)]; norm_num
  · rw [val_of_units (u := 4 * 2 ^ 149) (by decide +kernel)]; norm_num

end Micromath.Props
