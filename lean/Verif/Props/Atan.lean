import Verif.Real.Arctan
import Verif.Props.Stats

/-!
# C38-C44: inverse trigonometric functions
-/

set_option exponentiation.threshold 1000

namespace Micromath.Props
open F32 Spec RealAux

/-! ### The quotient shared by `atan_norm` and `atan2_norm` -/

theorem quot_pure {N D n d e1 e2 : ℚ} (hN : 0 ≤ N) (hND : N ≤ D) (hD : 0 < D) (hn : |n - N| ≤ e1 * D)
    (hd : |d - D| ≤ e2 * D) (he2 : e2 ≤ 1 / 2) : 0 < d ∧ |n / d - N / D| ≤ 2 * (e1 + e2) := by
  have hd0 : D / 2 ≤ d := by
    have := (abs_le.1 hd).1
    nlinarith
  have hdp : 0 < d := by linarith
  refine ⟨hdp, ?_⟩
  have e : n / d - N / D = ((n - N) * D - N * (d - D)) / (d * D) := by field_simp; ring
  rw [e, abs_div, abs_of_pos (mul_pos hdp hD), div_le_iff₀ (mul_pos hdp hD)]
  have h1 : |(n - N) * D - N * (d - D)| ≤ e1 * D * D + D * (e2 * D) := by
    calc |(n - N) * D - N * (d - D)| ≤ |(n - N) * D| + |N * (d - D)| := abs_sub _ _
      _ = |n - N| * D + N * |d - D| := by rw [abs_mul, abs_mul, abs_of_pos hD, abs_of_nonneg hN]
      _ ≤ _ := add_le_add (mul_le_mul_of_nonneg_right hn hD.le)
          (mul_le_mul hND hd (abs_nonneg _) hD.le)
  have h2 : 0 ≤ e1 + e2 := by
    have a1 := abs_nonneg (n - N)
    have a2 := abs_nonneg (d - D)
    have : 0 ≤ (e1 + e2) * D := by linarith
    exact nonneg_of_mul_nonneg_left this hD
  nlinarith [mul_nonneg h2 hD.le, mul_nonneg (mul_nonneg h2 hD.le) (sub_nonneg.2 hd0)]

theorem abs_cast_le {a b : ℚ} (h : |a| ≤ b) : |(a : ℝ)| ≤ (b : ℝ) := by exact_mod_cast h

/-- One rounding on top of an error that is relative to `D`. -/
theorem rel_step {S D t d e : ℚ} (h : |t - S| ≤ e * D) (hS : 0 ≤ S) (hSD : S ≤ D) (hd : |d| ≤ 1 / 2 ^ 24) :
    |t * (1 + d) - S| ≤ (e + (1 + e) / 2 ^ 24) * D := by
  have e1 : t * (1 + d) - S = (t - S) + t * d := by ring
  have ht : |t| ≤ (1 + e) * D := by
    have : |t| ≤ |t - S| + |S| := by
      have := abs_add_le (t - S) S
      rwa [sub_add_cancel] at this
    rw [abs_of_nonneg hS] at this
    linarith
  have htd : |t * d| ≤ (1 + e) * D * (1 / 2 ^ 24) := by
    rw [abs_mul]
    exact mul_le_mul ht hd (abs_nonneg _) (le_trans (abs_nonneg _) ht)
  rw [e1]
  refine (abs_add_le _ _).trans ((add_le_add h htd).trans (le_of_eq (by ring)))

variable [Cfg]

/-- Correctly rounded division of nonnegative numbers with `n <= d`. -/
theorem div_unit {n d : F32} (fn : n.isFinite = true) (fd : d.isFinite = true) (n0 : 0 ≤ n.val) (d0 : 0 < d.val)
    (h : n.val ≤ d.val) (sn : n.sign = false) :
    (n / d).isFinite = true ∧ (n / d).sign = false ∧ 0 ≤ (n / d).val ∧ (n / d).val ≤ 1 ∧
      |(n / d).val - n.val / d.val| ≤ 1 / 2 ^ 24 ∧ (n.val = 0 → (n / d).val = 0) := by
  have q0 : 0 ≤ n.val / d.val := div_nonneg n0 d0.le
  have q1 : n.val / d.val ≤ 1 := (div_le_one d0).2 h
  obtain ⟨f, v⟩ := div_val fn fd d0.ne' (by rw [abs_of_nonneg q0]; exact lt_of_le_of_lt q1 (by norm_num [ovf]))
  refine ⟨f, ?_, ?_, ?_, ?_, fun h => by rw [v, h, zero_div, RN_zero]⟩
  · rw [div_finite fn fd d0.ne', sign_pack _ (by have := infMag_lt; omega), sn, val_pos_sign d0]; rfl
  · rw [v]; exact RN_nonneg q0
  · rw [v]; exact RN_le_of_rep (by simpa using rep_int (m := 1) (by decide)) q1
  · rw [v]
    refine (RN_err _).trans (max_le (by norm_num) ?_)
    rw [abs_of_nonneg q0]; gcongr

/-- `n = b + c`, `q = n / ((a + b) + n)` in floating point, against `(β + γ) / (α + 2β + γ)`. -/
theorem quot_core {a b c : F32} {α β γ : ℚ} (fa : a.isFinite = true) (fb : b.isFinite = true) (fc : c.isFinite = true)
    (sa : a.sign = false) (sb : b.sign = false) (sc : c.sign = false) (hα : 0 ≤ α) (hβ : 0 ≤ β) (hγ : 0 ≤ γ)
    (hD : 0 < α + 2 * β + γ) (hov : α + 2 * β + γ ≤ 34 * 10 ^ 37)
    (ea : |a.val - α| ≤ 3 / 2 ^ 24 * (α + 2 * β + γ)) (eb : |b.val - β| ≤ 3 / 2 ^ 24 * (α + 2 * β + γ))
    (ec : |c.val - γ| ≤ 3 / 2 ^ 24 * (α + 2 * β + γ)) :
    let q := (b + c) / (a + b + (b + c))
    q.isFinite = true ∧ q.sign = false ∧ 0 ≤ q.val ∧ q.val ≤ 1 ∧
      |q.val - (β + γ) / (α + 2 * β + γ)| ≤ 46 / 2 ^ 24 ∧ (b.val = 0 → c.val = 0 → q.val = 0) := by
  intro q
  obtain ⟨D, hDe⟩ : ∃ D, D = α + 2 * β + γ := ⟨_, rfl⟩
  rw [← hDe] at hD hov ea eb ec ⊢
  have a0 : 0 ≤ a.val := by rw [val_of_pos sa]; exact mval_nonneg _
  have b0 : 0 ≤ b.val := by rw [val_of_pos sb]; exact mval_nonneg _
  have c0 : 0 ≤ c.val := by rw [val_of_pos sc]; exact mval_nonneg _
  have hao := abs_le.1 ea
  have hbo := abs_le.1 eb
  have hco := abs_le.1 ec
  have bd : ∀ t S e : ℚ, 0 ≤ t → |t - S| ≤ e * D → S ≤ D → e ≤ 20 / 2 ^ 24 → |t| < ovf := by
    intro t S e t0 h hS he
    rw [abs_of_nonneg t0]
    have h1 := (abs_le.1 h).2
    have h2 : e * D ≤ 20 / 2 ^ 24 * D := mul_le_mul_of_nonneg_right he hD.le
    refine lt_of_le_of_lt (show t ≤ (1 + 20 / 2 ^ 24) * D by linarith)
      (lt_of_le_of_lt (mul_le_mul_of_nonneg_left hov (by norm_num)) (by norm_num [ovf]))
  have ebc : |b.val + c.val - (β + γ)| ≤ 6 / 2 ^ 24 * D := by
    rw [abs_le]; constructor <;> linarith [hbo.1, hbo.2, hco.1, hco.2]
  have eab : |a.val + b.val - (α + β)| ≤ 6 / 2 ^ 24 * D := by
    rw [abs_le]; constructor <;> linarith [hbo.1, hbo.2, hao.1, hao.2]
  obtain ⟨d1, hd1, f1, v1⟩ := add_rel fb fc (bd _ _ _ (by linarith) ebc (by linarith) (by norm_num))
  obtain ⟨d2, hd2, f2, v2⟩ := add_rel fa fb (bd _ _ _ (by linarith) eab (by linarith) (by norm_num))
  -- n and s against their ideals
  have en := rel_step ebc (by linarith) (by linarith) hd1
  have es := rel_step eab (by linarith) (by linarith) hd2
  rw [← v1] at en
  rw [← v2] at es
  have p1 : ∀ d : ℚ, |d| ≤ 1 / 2 ^ 24 → 0 ≤ 1 + d := by
    intro d hd
    have := (abs_le.1 hd).1
    have : (1 : ℚ) / 2 ^ 24 ≤ 1 := by norm_num
    linarith
  have n0 : 0 ≤ (b + c).val := by rw [v1]; exact mul_nonneg (by linarith) (p1 _ hd1)
  have s0 : 0 ≤ (a + b).val := by rw [v2]; exact mul_nonneg (by linarith) (p1 _ hd2)
  have esn : |(a + b).val + (b + c).val - D| ≤ (2 * (6 / 2 ^ 24 + (1 + 6 / 2 ^ 24) / 2 ^ 24)) * D := by
    have h1 := abs_le.1 en
    have h2 := abs_le.1 es
    rw [abs_le, hDe]; rw [hDe] at h1 h2; constructor <;> linarith [h1.1, h1.2, h2.1, h2.2]
  have hbd := bd _ _ _ (by linarith) esn le_rfl (by norm_num)
  obtain ⟨d3, hd3, f3, v3⟩ := add_rel f2 f1 hbd
  have ed := rel_step esn hD.le le_rfl hd3
  rw [← v3] at ed
  have hnd : (b + c).val ≤ (a + b + (b + c)).val := by
    rw [(add_val f2 f1 hbd).2]
    exact le_RN_of_rep (rep_val _) (by linarith)
  obtain ⟨hd0, hq⟩ := quot_pure (N := β + γ) (by linarith) (by linarith) hD en ed (by norm_num)
  have sn : (b + c).sign = false := (add_nonneg_sign (Or.inr sb) (Or.inr sc)).resolve_left (by
    rw [not_nan_of_finite f1]; simp)
  obtain ⟨g1, g2, g3, g4, g5, g6⟩ := div_unit f1 f3 n0 hd0 hnd sn
  refine ⟨g1, g2, g3, g4, ?_, fun h1 h2 => g6 (by rw [v1, h1, h2, add_zero, zero_mul])⟩
  have := abs_sub_le ((b + c) / (a + b + (b + c))).val ((b + c).val / (a + b + (b + c)).val) ((β + γ) / D)
  refine this.trans ((add_le_add g5 hq).trans (by norm_num))

/-! ### C38 -/

omit [Cfg] in
/-- Replacing the sign bit of a nonnegative number by or-ing. -/
theorem or_sign_eq (x q : F32) (hq : q.sign = false) :
    fromBits ((0x80000000#32 &&& x.toBits) ||| q.toBits) = q.copysign x := by
  have h1 : q.toBits = q.toBits &&& ~~~SIGN_MASK := by
    have := abs_eq q
    have e : pack false q.mag = q := by rw [← hq]; exact pack_sign_mag q
    rw [e] at this
    have := congrArg F32.bits this
    exact this.symm
  unfold F32.copysign
  rw [← h1]
  show fromBits _ = fromBits _
  rw [BitVec.or_comm, BitVec.and_comm]; rfl

/-- The largest argument for which the square in `atan_norm` is proved not to overflow. -/
abbrev atanMax : ℚ := 18 * 10 ^ 18

theorem atan_core {x : F32} (hx : x.isFinite = true) (hb : |x.val| ≤ atanMax) :
    ∃ q : F32, x.atanNorm = q.copysign x ∧ q.isFinite = true ∧ q.sign = false ∧ 0 ≤ q.val ∧ q.val ≤ 1 ∧
      |(q.val : ℝ) - gA ((|x.val| : ℚ) : ℝ)| ≤ 46 / 2 ^ 24 ∧ (-x).atanNorm = q.copysign (-x) := by
  have hB : ATAN_B.val = cB := val_ATAN_B
  have hB0 : (0 : ℚ) ≤ cB := by norm_num [cB]
  have hB1 : (cB : ℚ) ≤ 1 := by norm_num [cB]
  have hx0 := abs_nonneg x.val
  have hbx : |ATAN_B.val * x.val| ≤ 18 * 10 ^ 18 := by
    rw [abs_mul, hB, abs_of_nonneg hB0]; unfold atanMax at hb; nlinarith
  have hxx : |x.val * x.val| ≤ 18 * 10 ^ 18 * (18 * 10 ^ 18) := by
    rw [abs_mul]; exact mul_le_mul hb hb hx0 (by norm_num)
  obtain ⟨f1, v1⟩ := mul_val fin_ATAN_B hx (lt_of_le_of_lt hbx (by norm_num [ovf]))
  obtain ⟨f2, v2⟩ := mul_val hx hx (lt_of_le_of_lt hxx (by norm_num [ovf]))
  have hD1 : 1 ≤ 1 + 2 * (cB * |x.val|) + |x.val| ^ 2 := by nlinarith [mul_nonneg hB0 hx0]
  have small : (1 : ℚ) / 2 ^ 150 ≤ 1 / 2 ^ 24 := by norm_num
  have eb : |(F32.abs (ATAN_B * x)).val - (cB * |x.val|)| ≤ 3 / 2 ^ 24 * (1 + 2 * (cB * |x.val|) + |x.val| ^ 2) := by
    rw [val_abs, v1, ← RN_abs, abs_mul, hB, abs_of_nonneg hB0]
    refine (RN_err _).trans (max_le ?_ ?_)
    · linarith
    · rw [abs_of_nonneg (mul_nonneg hB0 hx0)]
      nlinarith [mul_nonneg hB0 hx0, sq_nonneg |x.val|]
  have ec : |(x * x).val - |x.val| ^ 2| ≤ 3 / 2 ^ 24 * (1 + 2 * (cB * |x.val|) + |x.val| ^ 2) := by
    have e : |x.val| ^ 2 = x.val * x.val := by rw [sq_abs]; ring
    rw [v2, ← e]
    refine (RN_err _).trans (max_le ?_ ?_)
    · linarith
    · rw [abs_of_nonneg (sq_nonneg _)]
      nlinarith [mul_nonneg hB0 hx0, sq_nonneg |x.val|]
  have hov : 1 + 2 * (cB * |x.val|) + |x.val| ^ 2 ≤ 34 * 10 ^ 37 := by
    unfold atanMax at hb
    have : |x.val| ^ 2 ≤ (18 * 10 ^ 18) ^ 2 := pow_le_pow_left₀ hx0 hb 2
    have : cB * |x.val| ≤ 1 * (18 * 10 ^ 18) := mul_le_mul hB1 hb hx0 (by norm_num)
    linarith
  have core := quot_core (a := one) (b := F32.abs (ATAN_B * x)) (c := x * x) (α := 1) (β := cB * |x.val|)
    (γ := |x.val| ^ 2) fin_one (by rw [isFinite_abs]; exact f1) f2 (by decide) (sign_abs _)
    (sq_facts (not_nan_of_finite hx)).2 (by norm_num) (mul_nonneg hB0 hx0) (sq_nonneg _) (by linarith) hov
    (by rw [val_one, sub_self, abs_zero]; exact mul_nonneg (by norm_num) (by linarith)) eb ec
  obtain ⟨g1, g2, g3, g4, g5, -⟩ := core
  refine ⟨_, or_sign_eq x _ g2, g1, g2, g3, g4, ?_, ?_⟩
  · have : ((((F32.abs (ATAN_B * x) + x * x) / (one + F32.abs (ATAN_B * x) + (F32.abs (ATAN_B * x) + x * x))).val
        - (cB * |x.val| + |x.val| ^ 2) / (1 + 2 * (cB * |x.val|) + |x.val| ^ 2) : ℚ) : ℝ) =
      (((F32.abs (ATAN_B * x) + x * x) / (one + F32.abs (ATAN_B * x) + (F32.abs (ATAN_B * x) + x * x))).val : ℝ)
        - gA ((|x.val| : ℚ) : ℝ) := by
      rw [gA]; push_cast; ring_nf
    rw [← this]
    have := abs_cast_le g5
    push_cast at this ⊢
    exact this
  · have hn : (-x) * (-x) = x * x := by
      rw [mul_neg_fin (by simpa using hx) hx, neg_mul_fin hx hx, neg_neg']
    have ha : F32.abs (ATAN_B * -x) = F32.abs (ATAN_B * x) := by
      rw [mul_neg_fin fin_ATAN_B hx, F32.abs_eq, F32.abs_eq, mag_neg]
    have := or_sign_eq (-x) _ g2
    rw [← this]
    unfold F32.atanNorm
    simp only [hn, ha]

omit [Cfg] in
theorem copysign_val {q x : F32} (s0 : q.sign = false) :
    (q.copysign x).val = if x.sign then -q.val else q.val := by
  rw [val_eq, mag_copysign, sign_copysign, val_of_pos s0]

omit [Cfg] in
theorem arctan_abs_sign (x : F32) :
    Real.arctan ((x.val : ℚ) : ℝ) = if x.sign then -Real.arctan ((|x.val| : ℚ) : ℝ) else Real.arctan ((|x.val| : ℚ) : ℝ) := by
  rw [abs_val, val_eq]
  cases x.sign
  · simp
  · simp [Real.arctan_neg]

/-- Multiplying a number in `[0, 1]` by `FRAC_PI_2`. -/
theorem half_pi_mul {q : F32} (fq : q.isFinite = true) (q0 : 0 ≤ q.val) (q1 : q.val ≤ 1) :
    (FRAC_PI_2 * q).isFinite = true ∧ 0 ≤ (FRAC_PI_2 * q).val ∧ (FRAC_PI_2 * q).val ≤ FRAC_PI_2.val ∧
      |((FRAC_PI_2 * q).val : ℝ) - cH * q.val| ≤ 2 / 2 ^ 24 := by
  have hv : FRAC_PI_2.val = cH := val_FRAC_PI_2
  have h0 : (0 : ℚ) ≤ cH := by norm_num [cH]
  have h2 : (cH : ℚ) ≤ 2 := by norm_num [cH]
  have hm : FRAC_PI_2.val * q.val ≤ FRAC_PI_2.val := by rw [hv]; nlinarith
  have hm0 : 0 ≤ FRAC_PI_2.val * q.val := by rw [hv]; positivity
  obtain ⟨f, v⟩ := mul_val fin_FRAC_PI_2 fq (by
    rw [abs_of_nonneg hm0]; refine lt_of_le_of_lt hm (by rw [hv]; norm_num [cH, ovf]))
  refine ⟨f, by rw [v]; exact RN_nonneg hm0, by rw [v]; exact RN_le_of_rep (rep_val _) hm, ?_⟩
  have : |RN (FRAC_PI_2.val * q.val) - cH * q.val| ≤ 2 / 2 ^ 24 := by
    rw [← hv]
    refine (RN_err _).trans (max_le (by norm_num) ?_)
    rw [abs_of_nonneg hm0, hv]
    gcongr
    nlinarith
  rw [v]
  have := abs_cast_le this
  push_cast at this
  exact this

/-- **C38.** `atan` is odd, `|atan_norm| <= 1`, and `atan` is within `0.00284` of `arctan`, for `|x| <= 1.8e19`
(which covers `2^63`). -/
theorem C38_atan {x : F32} (hx : x.isFinite = true) (hb : |x.val| ≤ atanMax) :
    (-x).atan = -x.atan ∧ (-x).atanNorm = -x.atanNorm ∧
    x.atanNorm.isFinite = true ∧ |x.atanNorm.val| ≤ 1 ∧ x.atan.isFinite = true ∧ |x.atan.val| ≤ FRAC_PI_2.val ∧
    x.atan.sign = x.sign ∧
    |(x.atan.val : ℝ) - Real.arctan x.val| ≤ 0.00284 := by
  obtain ⟨q, e1, fq, sq, q0, q1, hg, e2⟩ := atan_core hx hb
  obtain ⟨fh, h0, h1, he⟩ := half_pi_mul fq q0 q1
  have fc : ∀ y : F32, (q.copysign y).isFinite = true := by
    intro y; rw [isFinite, mag_copysign]; exact fq
  have hneg : q.copysign (-x) = -(q.copysign x) := by
    refine ext_mag_sign ?_ ?_
    · rw [mag_copysign, mag_neg, mag_copysign]
    · rw [sign_copysign, sign_neg, sign_neg, sign_copysign]
  have hat : x.atan = (FRAC_PI_2 * q).copysign x := by
    show FRAC_PI_2 * x.atanNorm = _
    rw [e1, copysign_eq q, copysign_eq (FRAC_PI_2 * q)]
    cases hs : x.sign
    · have e : pack false q.mag = q := by rw [← sq]; exact pack_sign_mag q
      have hps : (FRAC_PI_2 * q).sign = false := by
        rw [sign_mul_finite fin_FRAC_PI_2 fq, sq]; decide
      rw [e, ← hps, pack_sign_mag]
    · have e : pack true q.mag = -q := by
        refine ext_mag_sign ?_ ?_
        · rw [mag_pack _ (mag_lt q), mag_neg]
        · rw [sign_pack _ (mag_lt q), sign_neg, sq]; rfl
      rw [e, mul_neg_fin fin_FRAC_PI_2 fq]
      refine ext_mag_sign ?_ ?_
      · rw [mag_pack _ (mag_lt _), mag_neg]
      · rw [sign_pack _ (mag_lt _), sign_neg, sign_mul_finite fin_FRAC_PI_2 fq, sq]; decide
  have hps : (FRAC_PI_2 * q).sign = false := by
    rw [sign_mul_finite fin_FRAC_PI_2 fq, sq]; decide
  refine ⟨?_, ?_, ?_, ?_, ?_, ?_, ?_, ?_⟩
  · show FRAC_PI_2 * (-x).atanNorm = -(FRAC_PI_2 * x.atanNorm)
    rw [e2, e1, hneg, mul_neg_fin fin_FRAC_PI_2 (fc _)]
  · rw [e2, e1, hneg]
  · rw [e1]; exact fc _
  · rw [e1, copysign_val sq]
    split
    · rw [abs_neg, abs_of_nonneg q0]; exact q1
    · rw [abs_of_nonneg q0]; exact q1
  · rw [hat, isFinite, mag_copysign]; exact fh
  · rw [hat, copysign_val hps]
    split
    · rw [abs_neg, abs_of_nonneg h0]; exact h1
    · rw [abs_of_nonneg h0]; exact h1
  · rw [hat, sign_copysign]
  · have hmain : |((FRAC_PI_2 * q).val : ℝ) - Real.arctan ((|x.val| : ℚ) : ℝ)| ≤ 0.00284 := by
      have ha := atan_approx (x := ((|x.val| : ℚ) : ℝ)) (by exact_mod_cast abs_nonneg x.val)
      have hc : (cH : ℝ) ≤ 2 := by norm_num [cH]
      have hc0 : (0 : ℝ) ≤ cH := by norm_num [cH]
      have h3 : |(cH : ℝ) * q.val - cH * gA ((|x.val| : ℚ) : ℝ)| ≤ 2 * (46 / 2 ^ 24) := by
        rw [← mul_sub, abs_mul, abs_of_nonneg hc0]
        exact mul_le_mul hc hg (abs_nonneg _) (by norm_num)
      have t1 := abs_sub_le ((FRAC_PI_2 * q).val : ℝ) (cH * q.val) (Real.arctan ((|x.val| : ℚ) : ℝ))
      have t2 := abs_sub_le ((cH : ℝ) * q.val) (cH * gA ((|x.val| : ℚ) : ℝ)) (Real.arctan ((|x.val| : ℚ) : ℝ))
      have : (2 : ℝ) / 2 ^ 24 + (2 * (46 / 2 ^ 24) + 0.002831) ≤ 0.00284 := by norm_num
      linarith
    rw [arctan_abs_sign, hat, copysign_val hps]
    split
    · push_cast
      rw [neg_sub_neg, abs_sub_comm]
      push_cast at hmain
      exact hmain
    · exact hmain

/-- The hypotheses of `C38_atan` hold for `10.0`. -/
example : (ofInt 10).isFinite = true ∧ |(ofInt 10).val| ≤ atanMax := by
  obtain ⟨h1, h2⟩ := ofInt_isVal (n := 10) (by decide)
  exact ⟨h1, by rw [h2]; norm_num [atanMax]⟩

/-! ### C39 -/

omit [Cfg] in
theorem mag_or_sign (w b : BitVec 32) : (fromBits ((0x80000000#32 &&& w) ||| b)).mag = (fromBits b).mag := by
  have : (fromBits ((0x80000000#32 &&& w) ||| b)).abs = (fromBits b).abs := by
    unfold F32.abs fromBits toBits
    congr 1
    ext i hi
    simp only [BitVec.getElem_and, BitVec.getElem_or, BitVec.getElem_not, SIGN_MASK]
    cases (0x80000000#32)[i] <;> simp
  rw [← mag_abs, this, mag_abs]

omit [Cfg] in
theorem and_xor (m a b : BitVec 32) : (m &&& a) ^^^ (m &&& b) = m &&& (a ^^^ b) := by
  ext i hi
  simp only [BitVec.getElem_and, BitVec.getElem_xor]
  cases m[i] <;> simp

theorem inf_div_inf {x y : F32} (hx : x.isInf = true) (hy : y.isInf = true) : (x / y).isNaN = true := by
  have n1 : x.isNaN = false := by simp only [isInf, decide_eq_true_eq] at hx; simp [isNaN, hx]
  have n2 : y.isNaN = false := by simp only [isInf, decide_eq_true_eq] at hy; simp [isNaN, hy]
  rw [div_def]
  simp only [div, n1, n2, hx, hy]
  exact Cfg.nanOp_isNaN _ _ _

theorem add_posInf_right {x : F32} (hn : x.isNaN = false) (hs : x.sign = false) : x + posInf = posInf := by
  have h1 : posInf.isNaN = false := by decide
  have h2 : posInf.isInf = true := by decide
  have h3 : posInf.sign = false := by decide
  rw [add_def]
  simp only [addAs, hn, h1, h2, h3, hs]
  cases hi : x.isInf
  · simp
  · rw [eq_pack_of_inf hi, hs]; simp; decide

theorem add_fin_not_nan {x y : F32} (hx : x.isFinite = true) (hy : y.isFinite = true) : (x + y).isNaN = false := by
  rw [add_def, addAs_finite .add hx hy]
  split_ifs
  · decide
  · decide
  · rw [isNaN, mag_pack _ (by have := infMag_lt; omega)]
    simp

theorem atan_nan_of_sq_inf {x : F32} (h : x * x = posInf) (hn : (ATAN_B * x).isNaN = false) : x.atan.isNaN = true := by
  have h0 : F32.abs (ATAN_B * x) + x * x = posInf := by
    rw [h]; exact add_posInf_right (by rw [isNaN_abs]; exact hn) (sign_abs _)
  have hs : (one + F32.abs (ATAN_B * x)).isNaN = false ∧ (one + F32.abs (ATAN_B * x)).sign = false := by
    have h1 := add_nonneg_sign (x := one) (y := F32.abs (ATAN_B * x)) (Or.inr (by decide)) (Or.inr (sign_abs _))
    have h2 : (one + F32.abs (ATAN_B * x)).isNaN = false := by
      have a1 : one.isNaN = false := by decide
      have a2 : one.isInf = false := by decide
      have a3 : (F32.abs (ATAN_B * x)).isNaN = false := by rw [isNaN_abs]; exact hn
      rcases class_cases (F32.abs (ATAN_B * x)) with c | c | c
      · exact add_fin_not_nan fin_one c
      · rw [add_def]
        simp only [addAs, a1, a2, a3, c]; simpa using a3
      · rw [a3] at c; cases c
    exact ⟨h2, h1.resolve_left (by rw [h2]; simp)⟩
  have hd : one + F32.abs (ATAN_B * x) + posInf = posInf := add_posInf_right hs.1 hs.2
  have hq : (posInf / posInf).isNaN = true := inf_div_inf (by decide) (by decide)
  refine mul_nan (Or.inr ?_)
  show (F32.atanNorm x).isNaN = true
  unfold F32.atanNorm
  simp only [h0, hd]
  rw [isNaN, mag_or_sign]
  exact hq

/-- **C39, refuted**: the error at `10.0` exceeds the documented `0.002`; infinities and every finite number whose
square overflows give NaN. -/
theorem C39_atan_documented_false :
    (IsVal (ofInt 10) 10 ∧ (ofInt 10).atan.isFinite = true ∧ 0.0028 < |((ofInt 10).atan.val : ℝ) - Real.arctan 10|) ∧
    posInf.atan.isNaN = true ∧ negInf.atan.isNaN = true ∧
    (∀ x : F32, x.isFinite = true → ovf ≤ x.val * x.val → x.atan.isNaN = true) := by
  refine ⟨⟨by simpa using ofInt_isVal (n := 10) (by decide), ?_⟩, ?_, ?_, ?_⟩
  · have e : (ofInt 10).atan = ⟨0x3fbcaa66#32⟩ := eval_eq (by kernel_rfl)
    rw [e]
    refine ⟨by decide, ?_⟩
    rw [val_of_units (u := 6182195 * 2 ^ 127) (by decide +kernel)]
    have h1 : Real.arctan 10 = Real.pi / 2 - Real.arctan (1 / 10) := by
      have := Real.arctan_inv_of_pos (x := 1 / 10) (by norm_num)
      rw [← this]; norm_num
    have h2 := arctan_ge_T6 (z := 1 / 10) (by norm_num)
    have h3 := Real.pi_lt_d6
    rw [h1, lt_abs]
    left
    simp only [T6, Poly.ev_cons, Poly.ev_nil] at h2
    push_cast at h2 ⊢
    norm_num at h2 ⊢
    linarith
  · exact atan_nan_of_sq_inf (eval_eq (by kernel_rfl)) (by
      rw [show ATAN_B * posInf = posInf from eval_eq (by kernel_rfl)]; decide)
  · exact atan_nan_of_sq_inf (eval_eq (by kernel_rfl)) (by
      rw [show ATAN_B * negInf = negInf from eval_eq (by kernel_rfl)]; decide)
  · intro x hx h
    refine atan_nan_of_sq_inf ?_ ?_
    · have h0 := mul_self_nonneg x.val
      rw [mul_ovf hx hx (by rw [abs_of_nonneg h0]; exact h)]
      cases x.sign <;> decide
    · have hm : |ATAN_B.val * x.val| < ovf := by
        have := abs_val_lt_ovf hx
        rw [abs_mul, val_ATAN_B, abs_of_nonneg (by norm_num)]
        have := abs_nonneg x.val
        linarith
      exact not_nan_of_finite (mul_val fin_ATAN_B hx hm).1

/-! ### C41 -/

/-- **C41, refuted**: `atan2(0, 0)` is NaN for all four sign combinations, not `0`. -/
theorem C41_atan2_zero_false (x y : F32) (hx : x.mag = 0) (hy : y.mag = 0) : (y.atan2 x).isNaN = true := by
  have z0 : ∀ u : F32, u.mag = 0 → IsVal u 0 := fun u hu => ⟨by rw [isFinite, hu]; decide, val_eq_zero.2 hu⟩
  have mz : ∀ u v : F32, IsVal u 0 → v.isFinite = true → (u * v).mag = 0 ∧ (v * u).mag = 0 := by
    intro u v hu hv
    constructor
    · have := mul_val hu.1 hv (by rw [hu.2, zero_mul]; norm_num [ovf])
      rw [hu.2, zero_mul, RN_zero] at this
      exact val_eq_zero.1 this.2
    · have := mul_val hv hu.1 (by rw [hu.2, mul_zero]; norm_num [ovf])
      rw [hu.2, mul_zero, RN_zero] at this
      exact val_eq_zero.1 this.2
  have az : ∀ u v : F32, IsVal u 0 → IsVal v 0 → IsVal (u + v) 0 := by
    intro u v hu hv
    have := add_val hu.1 hv.1 (by rw [hu.2, hv.2, add_zero]; norm_num [ovf])
    rw [hu.2, hv.2, add_zero, RN_zero] at this
    exact this
  have vx := z0 x hx
  have vy := z0 y hy
  have b1 := z0 _ (mz x ATAN_B vx fin_ATAN_B).2
  have b2 : IsVal (F32.abs (ATAN_B * x * y)) 0 := z0 _ (by rw [mag_abs]; exact (mz y _ vy b1.1).2)
  have n := az _ _ b2 (z0 _ (mz y y vy vy.1).1)
  have d := az _ _ (az _ _ (z0 _ (mz x x vx vx.1).1) b2) n
  have hq := zero_div_zero (val_eq_zero.1 n.2) (val_eq_zero.1 d.2)
  have hN : (y.atan2Norm x).isNaN = true := by
    unfold F32.atan2Norm
    refine add_nan (Or.inr ?_)
    rw [and_xor, isNaN, mag_or_sign]
    exact hq
  unfold F32.atan2
  refine mul_nan (Or.inr ?_)
  split
  · exact sub_nan (Or.inl hN)
  · exact hN

/-! ### C42, C43 -/

/-- `1 - x*x` for `|x| <= 1`: between `0` and `1`, without sign bit. -/
theorem one_sub_sq {x : F32} (hx : x.isFinite = true) (h1 : |x.val| ≤ 1) :
    (ONE - x * x).isFinite = true ∧ (ONE - x * x).sign = false ∧ 0 ≤ (ONE - x * x).val ∧ (ONE - x * x).val ≤ 1 ∧
      (ONE - x * x).bits.toNat ≤ 0x3f800000 ∧ (x * x).isFinite = true ∧ (x * x).val = RN (x.val * x.val) ∧
      (ONE - x * x).val = RN (1 - RN (x.val * x.val)) := by
  have r1 : Rep (1 : ℚ) := by simpa using rep_int (m := 1) (by decide)
  have hxx : x.val * x.val ≤ 1 := by
    have := abs_le.1 h1
    nlinarith [this.1, this.2]
  have hx0 := mul_self_nonneg x.val
  obtain ⟨f1, v1⟩ := mul_val hx hx (by rw [abs_of_nonneg hx0]; exact lt_of_le_of_lt hxx (by norm_num [ovf]))
  have a1 : 0 ≤ (x * x).val := by rw [v1]; exact RN_nonneg hx0
  have a2 : (x * x).val ≤ 1 := by rw [v1]; exact RN_le_of_rep r1 hxx
  have hO : ONE.val = 1 := val_one
  have e : ONE.val - (x * x).val = 1 - (x * x).val := by rw [hO]
  obtain ⟨f2, v2⟩ := sub_val (x := ONE) fin_one f1 (by
    rw [e, abs_of_nonneg (by linarith)]; exact lt_of_le_of_lt (show _ ≤ (1 : ℚ) by linarith) (by norm_num [ovf]))
  rw [e] at v2
  have b0 : 0 ≤ (ONE - x * x).val := by rw [v2]; exact RN_nonneg (by linarith)
  have b1 : (ONE - x * x).val ≤ 1 := by rw [v2]; exact RN_le_of_rep r1 (by linarith)
  have sg : (ONE - x * x).sign = false := by
    rw [sub_def, addAs_finite .sub (x := ONE) fin_one (by simpa using f1), val_neg, ← sub_eq_add_neg, e]
    have : ONE.sign = false := by decide
    rw [this]
    split_ifs
    · simp_all
    · decide
    · rw [sign_pack _ (by have := infMag_lt; omega)]
      simp; linarith
  refine ⟨f2, sg, b0, b1, ?_, f1, v1, by rw [v2, v1]⟩
  have hm : (ONE - x * x).mag ≤ 0x3f800000 := by
    by_contra hc
    have := (key_lt_iff (x := one) (y := ONE - x * x)).1 (by
      rw [key, key, sg]
      have h1 : one.sign = false := by decide
      have h2 : one.mag = 0x3f800000 := by decide
      rw [h1, h2]; simp; omega)
    rw [val_one] at this
    linarith
  rw [toNat_eq, sg]; simpa using hm

/-- `x * invsqrt(1 - x*x)` for `|x| <= 1` stays in the range of `C38_atan`. -/
theorem asin_arg {x : F32} (hx : x.isFinite = true) (h1 : |x.val| ≤ 1) :
    ∃ r : F32, (ONE - x * x).invsqrt = .ok r ∧ r.isFinite = true ∧ 0 < r.val ∧ r.val ≤ 14 * 10 ^ 18 ∧
      (x * r).isFinite = true ∧ |(x * r).val| ≤ atanMax := by
  obtain ⟨f, sg, h0, h1', hb, -⟩ := one_sub_sq hx h1
  obtain ⟨r, hr, br⟩ := invsqrt_ok (x := ONE - x * x) (by omega)
  have hm : r.mag = 0x5f375a86 - (ONE - x * x).bits.toNat / 2 := by rw [mag, br]; omega
  have hs : r.sign = false := by rw [sign, br]; simp; omega
  have fr : r.isFinite = true := by
    rw [isFinite, hm]; have : infMag = 0x7f800000 := by decide
    rw [this]; simp; omega
  have hv : r.val ≤ (⟨0x5f375a86#32⟩ : F32).val := by
    rw [← key_le_iff, key, key, hs, hm]
    have a1 : (⟨0x5f375a86#32⟩ : F32).sign = false := by decide
    have a2 : (⟨0x5f375a86#32⟩ : F32).mag = 0x5f375a86 := by decide
    rw [a1, a2]; simp
  have hc : (⟨0x5f375a86#32⟩ : F32).val ≤ 14 * 10 ^ 18 := by
    rw [val_of_units (u := 12016262 * 2 ^ 189) (by decide +kernel)]; norm_num
  have r0 : 0 < r.val := by
    have h : 0 ≤ r.val := by rw [val_of_pos hs]; exact mval_nonneg _
    refine lt_of_le_of_ne h (fun he => ?_)
    have := val_eq_zero.1 he.symm
    omega
  have hxr : |x.val * r.val| ≤ 14 * 10 ^ 18 := by
    rw [abs_mul, abs_of_pos r0]
    nlinarith [abs_nonneg x.val]
  obtain ⟨f2, v2⟩ := mul_val hx fr (lt_of_le_of_lt hxr (by norm_num [ovf]))
  refine ⟨r, hr, fr, r0, hv.trans hc, f2, ?_⟩
  have he := RN_err (x.val * r.val)
  have hmx : max (1 / 2 ^ 150) (|x.val * r.val| / 2 ^ 24) ≤ (10 : ℚ) ^ 18 := max_le (by norm_num) (by
    rw [div_le_iff₀ (by norm_num)]; refine hxr.trans (by norm_num))
  have := abs_sub_abs_le_abs_sub (RN (x.val * r.val)) (x.val * r.val)
  rw [v2]; unfold atanMax
  linarith

/-- **C42.** On `[-1, 1]` `asin` returns in every build mode, its result is finite, within `±FRAC_PI_2`, and odd. -/
theorem C42_asin {x : F32} (hx : x.isFinite = true) (h1 : |x.val| ≤ 1) :
    ∃ y, x.asin = .ok y ∧ y.isFinite = true ∧ |y.val| ≤ FRAC_PI_2.val ∧ (-x).asin = .ok (-y) := by
  obtain ⟨r, hr, fr, r0, r1, f, hb⟩ := asin_arg hx h1
  have h := C38_atan f hb
  refine ⟨(x * r).atan, ?_, h.2.2.2.2.1, h.2.2.2.2.2.1, ?_⟩
  · unfold F32.asin
    rw [hr, ok_bind]
  · have hn : (-x) * (-x) = x * x := by
      rw [mul_neg_fin (by simpa using hx) hx, neg_mul_fin hx hx, neg_neg']
    unfold F32.asin
    rw [hn, hr, ok_bind, neg_mul_fin hx fr, h.1]

/-- **C42** at `x = 1`: the hypotheses hold at the end of the domain. -/
example : one.isFinite = true ∧ |one.val| ≤ 1 := ⟨fin_one, by rw [val_one]; norm_num⟩

/-- **C43.** The exact panic condition of `asin`. -/
theorem C43_asin_panic (x : F32) :
    Fails x.asin ↔ Cfg.overflowChecks = true ∧ (ONE - x * x).isSignNegative = true ∧ 0x3e6eb50e ≤ (ONE - x * x).mag := by
  obtain ⟨h1, h2⟩ := C18_invsqrt_panic (ONE - x * x)
  rw [← h2, ← h1]
  unfold F32.asin
  rcases (ONE - x * x).invsqrt with e | r
  · exact iff_of_true ⟨e, rfl⟩ ⟨e, rfl⟩
  · refine iff_of_false ?_ ?_ <;> (rintro ⟨e, he⟩; cases he)

/-- **C43, refuted**: `asin(2.0)` panics when overflow checks are on, and `asin(1.1)` is a finite number (about
`1e-39`) instead of NaN in every build mode. -/
theorem C43_asin_outside_false :
    (Cfg.overflowChecks = true → Fails (ofInt 2).asin) ∧
    ∃ x y : F32, x.gt one = true ∧ x.asin = .ok y ∧ y.isFinite = true := by
  constructor
  · intro hc
    rw [C43_asin_panic]
    have : ONE - ofInt 2 * ofInt 2 = ⟨0xc0400000#32⟩ := eval_eq (by kernel_rfl)
    rw [this]
    exact ⟨hc, by decide, by decide⟩
  · exact ⟨⟨0x3f8ccccd#32⟩, ⟨0xc30e9#32⟩, by decide, eval_ok (by kernel_rfl) (by decide), by decide⟩

/-! ### C44 -/

theorem sqrt_one_sub {x : F32} (hx : x.isFinite = true) (h1 : |x.val| ≤ 1) :
    (ONE - x * x).sqrt.isFinite = true ∧ 0 < (ONE - x * x).sqrt.val ∧ (ONE - x * x).sqrt.val ≤ 1 := by
  obtain ⟨f, sg, h0, h1', hb, -⟩ := one_sub_sq hx h1
  have hge : (ONE - x * x).ge ZERO = true := (ge_zero_iff _).2 ⟨not_nan_of_finite f, Or.inl sg⟩
  have hn := sqrt_toNat hge
  have hm : (ONE - x * x).sqrt.mag = ((ONE - x * x).bits.toNat + 0x3f800000) / 2 := by rw [mag, hn]; omega
  have hs : (ONE - x * x).sqrt.sign = false := by rw [sign, hn]; simp; omega
  refine ⟨?_, ?_, ?_⟩
  · rw [isFinite, hm]; have : infMag = 0x7f800000 := by decide
    rw [this]; simp; omega
  · have h : 0 ≤ (ONE - x * x).sqrt.val := by rw [val_of_pos hs]; exact mval_nonneg _
    refine lt_of_le_of_ne h (fun he => ?_)
    have := val_eq_zero.1 he.symm
    omega
  · rw [← val_one, ← key_le_iff, key, key, hs, hm]
    have a1 : one.sign = false := by decide
    have a2 : one.mag = 0x3f800000 := by decide
    rw [a1, a2]; simp; omega

/-- The argument handed to `atan` by `acos`. -/
theorem acos_arg {x : F32} (hx : x.isFinite = true) (h0 : (1 : ℚ) / 2 ^ 60 ≤ |x.val|) (h1 : |x.val| ≤ 1) :
    ((ONE - x * x).sqrt / x).isFinite = true ∧ |((ONE - x * x).sqrt / x).val| ≤ atanMax ∧
      ((ONE - x * x).sqrt / x).sign = x.sign := by
  obtain ⟨f, p, l⟩ := sqrt_one_sub hx h1
  have hx0 : 0 < |x.val| := lt_of_lt_of_le (by norm_num) h0
  have hxn : x.val ≠ 0 := abs_pos.1 hx0
  have hq : |(ONE - x * x).sqrt.val / x.val| ≤ 2 ^ 60 := by
    rw [abs_div, abs_of_pos p, div_le_iff₀ hx0]
    have : (2 : ℚ) ^ 60 * (1 / 2 ^ 60) ≤ 2 ^ 60 * |x.val| := mul_le_mul_of_nonneg_left h0 (by norm_num)
    norm_num at this ⊢
    linarith
  obtain ⟨f2, v2⟩ := div_val f hx hxn (lt_of_le_of_lt hq (by norm_num [ovf]))
  refine ⟨f2, ?_, ?_⟩
  · rw [v2, ← RN_abs]
    have r : Rep ((2 : ℚ) ^ 60) := by
      have := rep_pow (e := 60) (by norm_num)
      exact_mod_cast this
    refine (RN_le_of_rep r hq).trans (by norm_num [atanMax])
  · rw [div_finite f hx hxn, sign_pack _ (by have := infMag_lt; omega), val_pos_sign p]
    cases x.sign <;> rfl

theorem pi_div_two : PI / lit 2 1 = FRAC_PI_2 := (eval_eq (n := 0x3fc90fdb) (by kernel_rfl)).trans (by decide +kernel)

theorem one_sub_inf : ONE - posInf = negInf := eval_eq (by kernel_rfl)

/-- **C44.** `acos` (which cannot panic: it is a total function of the model) is NaN for `|x| > 1` and for NaN, and lies
in `[0, PI]` for `2^-60 <= |x| <= 1` and for both zeros. -/
theorem C44_acos (x : F32) :
    (x.isNaN = true → x.acos.isNaN = true) ∧
    ((x.abs).gt one = true → x.acos.isNaN = true) ∧
    (x.isFinite = true → (1 : ℚ) / 2 ^ 60 ≤ |x.val| → |x.val| ≤ 1 →
      x.acos.isFinite = true ∧ 0 ≤ x.acos.val ∧ x.acos.val ≤ PI.val) ∧
    (x.mag = 0 → IsVal x.acos FRAC_PI_2.val) := by
  have atanN : ∀ u : F32, u.isNaN = true → u.atan.isNaN = true := by
    intro u hu
    refine mul_nan (Or.inr ?_)
    unfold F32.atanNorm
    rw [isNaN, mag_or_sign]
    exact div_nan (Or.inl (add_nan (Or.inr (mul_nan (Or.inl hu)))))
  have acosN : x.feq posZero = false → (ONE - x * x).sqrt.isNaN = true → x.acos.isNaN = true := by
    intro hz hs
    unfold F32.acos
    have h := atanN _ (div_nan (y := x) (Or.inl hs))
    have hz' : ¬ x.feq posZero = true := by rw [hz]; exact Bool.false_ne_true
    rw [if_neg hz']
    by_cases hg : x.gt posZero = true
    · rw [if_pos hg]; exact h
    · rw [if_neg hg]; exact add_nan (Or.inl h)
  have sq : ∀ u : F32, (u.isNaN = true ∨ u.lt posZero = true) → u.sqrt.isNaN = true := fun u => ((C15_sqrt u).2.1).2
  refine ⟨?_, ?_, ?_, ?_⟩
  · intro hn
    refine acosN (feq_nan_left hn _) (sq _ (Or.inl ?_))
    exact sub_nan (Or.inr (mul_nan (Or.inl hn)))
  · intro hg
    have hk : one.key < x.abs.key ∧ x.isNaN = false := by
      simp only [gt, lt, Bool.and_eq_true, Bool.not_eq_true', decide_eq_true_eq, isNaN_abs] at hg
      exact ⟨hg.2, hg.1.2⟩
    have hv : 1 < |x.val| := by
      have := key_lt_iff.1 hk.1
      rwa [val_one, val_abs] at this
    have hfz : x.feq posZero = false := by
      rcases hc : x.feq posZero with _ | _
      · rfl
      · have := ((feq_zero_mag x).1 hc).2
        rw [val_eq_zero.2 this, abs_zero] at hv
        linarith
    have hinf : x * x = posInf → x.acos.isNaN = true := by
      intro h
      refine acosN hfz (sq _ (Or.inr ?_))
      rw [h, one_sub_inf]
      decide
    rcases class_cases x with hf | hi | hn
    · have hsq : |x.val * x.val| = |x.val| * |x.val| := abs_mul _ _
      rcases lt_or_ge (|x.val * x.val|) ovf with ho | ho
      · obtain ⟨f1, v1⟩ := mul_val hf hf ho
        have h1 : |x.val| ≤ (x * x).val := by
          rw [v1]
          refine le_RN_of_rep (rep_val x).abs ?_
          have : x.val * x.val = |x.val| * |x.val| := (abs_mul_abs_self _).symm
          rw [this]; nlinarith
        have hO : ONE.val = 1 := val_one
        have hmx := abs_val_lt_ovf f1
        obtain ⟨d, hd, f2, v2⟩ := sub_rel (x := ONE) fin_one f1 (by
          rw [hO, abs_sub_comm, abs_of_nonneg (by linarith)]
          rw [abs_of_nonneg (by linarith)] at hmx
          linarith)
        refine acosN hfz (sq _ (Or.inr ((lt_iff f2 fin_posZero).2 ?_)))
        rw [v2, val_posZero, hO]
        have := (abs_le.1 hd).1
        have h2 : (1 : ℚ) / 2 ^ 24 < 1 := by norm_num
        exact mul_neg_of_neg_of_pos (by linarith) (by linarith)
      · refine hinf ?_
        rw [mul_ovf hf hf ho]
        cases x.sign <;> decide
    · refine hinf ?_
      have hn := hk.2
      have hz : x.isZero = false := by
        simp only [isInf, decide_eq_true_eq] at hi; simp only [isZero, hi]; decide
      rw [mul_def]
      simp only [mul, hn, hi, hz]
      cases x.sign <;> rfl
    · rw [hk.2] at hn; cases hn
  · intro hx h0 h1
    obtain ⟨f, hb, hs⟩ := acos_arg hx h0 h1
    obtain ⟨-, -, -, -, fa, ha, hsg, -⟩ := C38_atan f hb
    rw [hs] at hsg
    have hz : x.val ≠ 0 := fun h => by rw [h, abs_zero] at h0; norm_num at h0
    have hp2 : FRAC_PI_2.val ≤ PI.val := by rw [val_FRAC_PI_2, val_PI]; norm_num
    unfold F32.acos
    cases hsx : x.sign
    · have hv : 0 < x.val := lt_of_le_of_ne (by rw [val_of_pos hsx]; exact mval_nonneg _) hz.symm
      have hgt : x.gt posZero = true := (gt_iff hx fin_posZero).2 (by rw [val_posZero]; exact hv)
      rw [if_pos hgt]
      rw [hsx] at hsg
      have h0' : 0 ≤ (((ONE - x * x).sqrt / x).atan).val := by rw [val_of_pos hsg]; exact mval_nonneg _
      rw [abs_of_nonneg h0'] at ha
      exact ⟨fa, h0', ha.trans hp2⟩
    · have hv : x.val < 0 := lt_of_le_of_ne (by rw [val_of_neg hsx]; have := mval_nonneg x.mag; linarith) hz
      have hgt : ¬ x.gt posZero = true := fun h => by
        have := (gt_iff hx fin_posZero).1 h
        rw [val_posZero] at this; linarith
      have hfe : ¬ x.feq posZero = true := fun h => by
        have := (feq_iff hx fin_posZero).1 h
        rw [val_posZero] at this; linarith
      rw [if_neg hgt, if_neg hfe]
      rw [hsx] at hsg
      have h0' : (((ONE - x * x).sqrt / x).atan).val ≤ 0 := by
        rw [val_of_neg hsg]; have := mval_nonneg (((ONE - x * x).sqrt / x).atan).mag; linarith
      rw [abs_of_nonpos h0'] at ha
      have hlo : 0 ≤ (((ONE - x * x).sqrt / x).atan).val + PI.val := by linarith
      have hhi : (((ONE - x * x).sqrt / x).atan).val + PI.val ≤ PI.val := by linarith
      obtain ⟨f3, v3⟩ := add_val fa fin_PI (by
        rw [abs_of_nonneg hlo]; exact lt_of_le_of_lt hhi (by rw [val_PI]; norm_num [ovf]))
      exact ⟨f3, by rw [v3]; exact RN_nonneg hlo, by rw [v3]; exact RN_le_of_rep (rep_val _) hhi⟩
  · intro hm
    have hn : x.isNaN = false := by rw [isNaN, hm]; decide
    have hgt : x.gt posZero = false := by
      have hk : x.key = 0 := by rw [key, hm]; simp
      have hz : posZero.key = 0 := by decide
      simp [gt, lt, hk, hz]
    have hfe : x.feq posZero = true := (feq_zero_mag x).2 ⟨hn, hm⟩
    unfold F32.acos
    have hgt' : ¬ x.gt posZero = true := by rw [hgt]; exact Bool.false_ne_true
    rw [if_neg hgt', if_pos hfe, pi_div_two]
    exact ⟨fin_FRAC_PI_2, rfl⟩

end Micromath.Props
