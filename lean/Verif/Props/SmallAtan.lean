import Verif.Props.SmallTurn

/-!
# C149: `atan` and `asin` of small numbers
-/

set_option exponentiation.threshold 1000

namespace Micromath.Props
open F32 Spec RealAux

variable [Cfg]

omit [Cfg] in
theorem rn_rel {v : ℚ} (h : 1 / 2 ^ 126 ≤ v) : v * (1 - 1 / 2 ^ 24) ≤ RN v ∧ RN v ≤ v * (1 + 1 / 2 ^ 24) := by
  have v0 : 0 < v := lt_of_lt_of_le (by norm_num) h
  have e := RN_err v
  rw [abs_of_pos v0, max_eq_right (by norm_num at *; linarith), abs_le] at e
  constructor <;> linarith [e.1, e.2]

/-- The quotient inside `atan_norm`, for a small argument, with relative accuracy. -/
theorem atan_quot_rel {x : F32} (hx : x.isFinite = true) {X : ℚ} (hX : X = |x.val|) (h0 : 1 / 2 ^ 60 ≤ X) (h1 : X ≤ 1 / 4) :
    ∃ N D q : ℚ, 0 ≤ D ∧ 0 ≤ N ∧ |x.atanNorm.val| = q ∧ x.atanNorm.isFinite = true ∧ q ≤ 1 ∧
      (cB * X + X ^ 2) * (1 - 1 / 2 ^ 24) ^ 2 ≤ N ∧ N ≤ (cB * X + X ^ 2) * (1 + 1 / 2 ^ 24) ^ 2 ∧
      (1 + 2 * cB * X + X ^ 2) * (1 - 1 / 2 ^ 24) ^ 3 ≤ D ∧ D ≤ (1 + 2 * cB * X + X ^ 2) * (1 + 1 / 2 ^ 24) ^ 3 ∧
      N / D * (1 - 1 / 2 ^ 24) ≤ q ∧ q ≤ N / D * (1 + 1 / 2 ^ 24) := by
  have hB : ATAN_B.val = cB := val_ATAN_B
  have hBv : cB = 10003029 / 16777216 := rfl
  have X0 : 0 < X := lt_of_lt_of_le (by norm_num) h0
  have hbx : |ATAN_B.val * x.val| = cB * X := by rw [abs_mul, hB, ← hX, abs_of_pos (by norm_num [cB])]
  have hxx : x.val * x.val = X ^ 2 := by rw [hX, sq_abs]; ring
  have bX : 1 / 2 ^ 62 ≤ cB * X := by rw [hBv]; norm_num at *; linarith
  have bX1 : cB * X ≤ 1 / 4 := by rw [hBv]; norm_num at *; linarith
  have X2 : 1 / 2 ^ 120 ≤ X ^ 2 := by
    have := pow_le_pow_left₀ (by norm_num) h0 2
    refine le_trans (by norm_num) this
  have X21 : X ^ 2 ≤ 1 / 16 := (pow_le_pow_left₀ X0.le h1 2).trans (by norm_num)
  obtain ⟨f1, v1⟩ := mul_val fin_ATAN_B hx (by rw [hbx]; exact lt_of_le_of_lt bX1 (by norm_num [ovf]))
  obtain ⟨f2, v2⟩ := mul_val hx hx (by rw [hxx, abs_of_nonneg (sq_nonneg _)]; exact lt_of_le_of_lt X21 (by norm_num [ovf]))
  rw [hxx] at v2
  have vb : (F32.abs (ATAN_B * x)).val = RN (cB * X) := by rw [val_abs, v1, ← RN_abs, hbx]
  have fb : (F32.abs (ATAN_B * x)).isFinite = true := by rw [isFinite_abs]; exact f1
  obtain ⟨b1, b2⟩ := rn_rel (v := cB * X) (le_trans (by norm_num) bX)
  obtain ⟨c1, c2⟩ := rn_rel (v := X ^ 2) (le_trans (by norm_num) X2)
  rw [← vb] at b1 b2
  rw [← v2] at c1 c2
  have hq : x.atanNorm = fromBits ((0x80000000#32 &&& x.toBits) |||
      ((F32.abs (ATAN_B * x) + x * x) / (one + F32.abs (ATAN_B * x) + (F32.abs (ATAN_B * x) + x * x))).toBits) := rfl
  generalize F32.abs (ATAN_B * x) = b at *
  generalize x * x = c at *
  have hm : x.atanNorm.mag = ((b + c) / (one + b + (b + c))).mag := by rw [hq, mag_or_sign]; rfl
  have hav : |x.atanNorm.val| = |((b + c) / (one + b + (b + c))).val| := by rw [abs_val, abs_val, hm]
  have haf : x.atanNorm.isFinite = ((b + c) / (one + b + (b + c))).isFinite := by rw [isFinite, isFinite, hm]
  clear hq v1 vb v2 hm
  have B0 : 1 / 2 ^ 63 ≤ b.val := by norm_num at *; linarith
  have B1 : b.val ≤ 1 / 3 := by norm_num at *; linarith
  have C0 : 0 ≤ c.val := by norm_num at *; linarith
  have C1 : c.val ≤ 1 / 15 := by norm_num at *; linarith
  obtain ⟨fn, vn⟩ := add_val fb f2 (by rw [abs_of_nonneg (by norm_num at *; linarith)]; exact lt_of_le_of_lt (show _ ≤ (1 : ℚ) by linarith) (by norm_num [ovf]))
  obtain ⟨n1, n2⟩ := rn_rel (v := b.val + c.val) (by norm_num at *; linarith)
  rw [← vn] at n1 n2
  generalize b + c = n at *
  have N0 : 0 < n.val := by norm_num at *; linarith
  have N1 : n.val ≤ 1 / 2 := by norm_num at *; linarith
  obtain ⟨fs, vs⟩ := add_val fin_one fb (by
    rw [val_one, abs_of_nonneg (by norm_num at *; linarith)]; exact lt_of_le_of_lt (show _ ≤ (2 : ℚ) by linarith) (by norm_num [ovf]))
  rw [val_one] at vs
  obtain ⟨s1, s2⟩ := rn_rel (v := 1 + b.val) (by norm_num at *; linarith)
  rw [← vs] at s1 s2
  generalize one + b = s at *
  have S0 : 3 / 4 ≤ s.val := by norm_num at *; linarith
  have S1 : s.val ≤ 2 := by norm_num at *; linarith
  obtain ⟨fD, vD⟩ := add_val fs fn (by
    rw [abs_of_nonneg (by norm_num at *; linarith)]; exact lt_of_le_of_lt (show _ ≤ (3 : ℚ) by linarith) (by norm_num [ovf]))
  obtain ⟨D1, D2⟩ := rn_rel (v := s.val + n.val) (by norm_num at *; linarith)
  rw [← vD] at D1 D2
  generalize s + n = D at *
  have D0 : 0 < D.val := by norm_num at *; linarith
  have ND : n.val ≤ D.val := by norm_num at *; linarith
  have hq1 : n.val / D.val ≤ 1 := (div_le_one D0).2 ND
  have hD3 : D.val ≤ 3 := by norm_num at *; linarith
  have hq0 : 1 / 2 ^ 126 ≤ n.val / D.val := by
    rw [le_div_iff₀ D0]
    norm_num at *; linarith
  obtain ⟨fq, vq⟩ := div_val fn fD D0.ne' (by rw [abs_of_pos (div_pos N0 D0)]; exact lt_of_le_of_lt hq1 (by norm_num [ovf]))
  obtain ⟨q1, q2⟩ := rn_rel hq0
  have r1 : Rep (1 : ℚ) := by simpa using rep_int (m := 1) (by decide)
  have q3 : RN (n.val / D.val) ≤ 1 := RN_le_of_rep r1 hq1
  have q4 : 0 ≤ RN (n.val / D.val) := RN_nonneg (div_pos N0 D0).le
  rw [vq, abs_of_nonneg q4] at hav
  rw [fq] at haf
  obtain ⟨L, hL⟩ : ∃ L : ℚ, L = 1 - 1 / 2 ^ 24 := ⟨_, rfl⟩
  obtain ⟨U, hU⟩ : ∃ U : ℚ, U = 1 + 1 / 2 ^ 24 := ⟨_, rfl⟩
  rw [← hL, ← hU]
  rw [← hL] at b1 c1 n1 s1 D1 q1
  rw [← hU] at b2 c2 n2 s2 D2 q2
  have L0 : 0 < L := by rw [hL]; norm_num
  have L1 : L ≤ 1 := by rw [hL]; norm_num
  have U1 : 1 ≤ U := by rw [hU]; norm_num
  have nl : (cB * X + X ^ 2) * L ^ 2 ≤ n.val := by
    refine le_trans (le_of_eq ?_) ((mul_le_mul_of_nonneg_right (add_le_add b1 c1) L0.le).trans n1); ring
  have nu : n.val ≤ (cB * X + X ^ 2) * U ^ 2 := by
    refine (n2.trans (mul_le_mul_of_nonneg_right (add_le_add b2 c2) (by linarith))).trans (le_of_eq ?_); ring
  have sl : (1 + cB * X) * L ^ 2 ≤ s.val := by
    refine le_trans (le_of_eq ?_) ((mul_le_mul_of_nonneg_right (add_le_add L1 b1) L0.le).trans s1); ring
  have su : s.val ≤ (1 + cB * X) * U ^ 2 := by
    refine (s2.trans (mul_le_mul_of_nonneg_right (add_le_add U1 b2) (by linarith))).trans (le_of_eq ?_); ring
  refine ⟨n.val, D.val, _, D0.le, N0.le, hav, haf, q3, nl, nu, ?_, ?_, q1, q2⟩
  · refine le_trans (le_of_eq ?_) ((mul_le_mul_of_nonneg_right (add_le_add sl nl) L0.le).trans D1); ring
  · refine (D2.trans (mul_le_mul_of_nonneg_right (add_le_add su nu) (by linarith))).trans (le_of_eq ?_); ring

theorem abs_pi_mul {q : F32} (fq : q.isFinite = true) (h0 : 1 / 2 ^ 100 ≤ |q.val|) (h1 : |q.val| ≤ 1) :
    (FRAC_PI_2 * q).isFinite = true ∧ cH * |q.val| * (1 - 1 / 2 ^ 24) ≤ |(FRAC_PI_2 * q).val| ∧ |(FRAC_PI_2 * q).val| ≤ cH * |q.val| * (1 + 1 / 2 ^ 24) := by
  have hv : FRAC_PI_2.val = cH := val_FRAC_PI_2
  have hH : cH = 13176795 / 8388608 := rfl
  have e : |FRAC_PI_2.val * q.val| = cH * |q.val| := by rw [abs_mul, hv, abs_of_pos (by norm_num [cH])]
  obtain ⟨f, v⟩ := mul_val fin_FRAC_PI_2 fq (by rw [e]; exact lt_of_le_of_lt (show _ ≤ (2 : ℚ) by rw [hH]; norm_num at *; linarith) (by norm_num [ovf]))
  refine ⟨f, ?_⟩
  rw [v, ← RN_abs, e]
  exact rn_rel (by rw [hH]; norm_num at *; linarith)

/-- **C149, `atan`.** For `2^-60 ≤ |x| ≤ 1/4`: `|atan x|` lies between `0.93654 |x|` and `0.93656 |x| + 0.455 x²`. -/
theorem C149_atan {x : F32} (hx : x.isFinite = true) (h0 : 1 / 2 ^ 60 ≤ |x.val|) (h1 : |x.val| ≤ 1 / 4) :
    x.atan.isFinite = true ∧ 0.93654 * |x.val| ≤ |x.atan.val| ∧ |x.atan.val| ≤ 0.93656 * |x.val| + 0.455 * |x.val| ^ 2 := by
  obtain ⟨X, hX⟩ : ∃ X, X = |x.val| := ⟨_, rfl⟩
  rw [← hX] at h0 h1 ⊢
  obtain ⟨N, D, q, D0, N0, hq, fq, q1, nl, nu, dl, du, ql, qu⟩ := atan_quot_rel hx hX h0 h1
  obtain ⟨ε, hε⟩ : ∃ ε : ℚ, ε = 1 / 2 ^ 24 := ⟨_, rfl⟩
  have X0 : 0 < X := lt_of_lt_of_le (by norm_num) h0
  have hBv : cB = 10003029 / 16777216 := rfl
  have T0 : 0 < 1 + 2 * cB * X + X ^ 2 := by rw [hBv]; positivity
  obtain ⟨T, hT⟩ : ∃ T, T = 1 + 2 * cB * X + X ^ 2 := ⟨_, rfl⟩
  obtain ⟨M, hM⟩ : ∃ M, M = cB * X + X ^ 2 := ⟨_, rfl⟩
  have M0 : 0 < M := by rw [hM, hBv]; positivity
  rw [← hT] at T0 dl du
  rw [← hM] at nl nu
  have Dp : 0 < D := lt_of_lt_of_le (mul_pos T0 (by norm_num)) dl
  -- the quotient
  have up : N / D ≤ M / T * (1 + 3.1 / 10 ^ 7) := by
    rw [div_le_iff₀ Dp]
    have a1 : M / T * (1 + 3.1 / 10 ^ 7) * (T * (1 - 1 / 2 ^ 24) ^ 3) ≤ M / T * (1 + 3.1 / 10 ^ 7) * D :=
      mul_le_mul_of_nonneg_left dl (by positivity)
    refine le_trans (nu.trans ?_) a1
    rw [show M / T * (1 + 3.1 / 10 ^ 7) * (T * (1 - 1 / 2 ^ 24) ^ 3) = M * ((1 + 3.1 / 10 ^ 7) * (1 - 1 / 2 ^ 24) ^ 3) by field_simp]
    exact mul_le_mul_of_nonneg_left (by norm_num) M0.le
  have lo : M / T * (1 - 3.1 / 10 ^ 7) ≤ N / D := by
    rw [le_div_iff₀ Dp]
    have a1 : M / T * (1 - 3.1 / 10 ^ 7) * D ≤ M / T * (1 - 3.1 / 10 ^ 7) * (T * (1 + 1 / 2 ^ 24) ^ 3) :=
      mul_le_mul_of_nonneg_left du (by norm_num; positivity)
    refine le_trans a1 (le_trans ?_ nl)
    rw [show M / T * (1 - 3.1 / 10 ^ 7) * (T * (1 + 1 / 2 ^ 24) ^ 3) = M * ((1 - 3.1 / 10 ^ 7) * (1 + 1 / 2 ^ 24) ^ 3) by field_simp]
    exact mul_le_mul_of_nonneg_left (by norm_num) M0.le
  have MTu : M / T ≤ cB * X + 0.2891 * X ^ 2 := by
    rw [div_le_iff₀ T0, hM, hT, hBv]
    have p2 := sq_nonneg X
    have p3 : 0 ≤ X ^ 3 := pow_nonneg X0.le 3
    have p4 : 0 ≤ X ^ 4 := pow_nonneg X0.le 4
    ring_nf
    linarith
  have MTl : cB * X ≤ M / T := by
    rw [le_div_iff₀ T0, hM, hT, hBv]
    have p2 := sq_nonneg X
    have p3 : X ^ 3 ≤ 1 / 4 * X ^ 2 := by rw [pow_succ, mul_comm]; exact mul_le_mul_of_nonneg_right h1 p2
    ring_nf
    linarith
  rw [hBv] at MTu MTl
  have X2 := sq_nonneg X
  have qlo : 0.596226 * X ≤ q := by
    norm_num at *
    linarith
  have qup : q ≤ 0.596228 * X + 0.28911 * X ^ 2 := by
    norm_num at *
    linarith
  have qlo2 : 1 / 2 ^ 100 ≤ |x.atanNorm.val| := by rw [hq]; norm_num at *; linarith
  obtain ⟨f, l, u⟩ := abs_pi_mul fq qlo2 (by rw [hq]; exact q1)
  refine ⟨f, ?_, ?_⟩
  · show _ ≤ |(FRAC_PI_2 * x.atanNorm).val|
    refine le_trans ?_ l
    rw [hq, cH]
    norm_num at *
    linarith
  · show |(FRAC_PI_2 * x.atanNorm).val| ≤ _
    refine u.trans ?_
    rw [hq, cH]
    norm_num at *
    linarith

/-- `invsqrt(1 - x*x)` for a small `x`. -/
theorem asin_root {x : F32} (hx : x.isFinite = true) (h1 : |x.val| ≤ 1 / 16) :
    ∃ r : F32, (ONE - x * x).invsqrt = .ok r ∧ r.isFinite = true ∧ 0.9662 ≤ r.val ∧ r.val ≤ 0.9682 := by
  obtain ⟨f, sg, -, -, hb, -, -, hv⟩ := one_sub_sq hx (h1.trans (by norm_num))
  have hxx : x.val * x.val ≤ 1 / 256 := by
    rw [← abs_mul_abs_self]
    exact (mul_le_mul h1 h1 (abs_nonneg _) (by norm_num)).trans (by norm_num)
  have ra : Rep (1 / 256 : ℚ) := rep_grid (z := 1) (j := -8) (by norm_num) (by norm_num) (by norm_num)
  have rb : Rep (255 / 256 : ℚ) := rep_grid (z := 255) (j := -8) (by norm_num) (by norm_num) (by norm_num)
  have hlo : 255 / 256 ≤ (ONE - x * x).val := by
    rw [hv]
    exact le_RN_of_rep rb (by linarith [RN_le_of_rep ra hxx])
  have hlb : 0x3f7f0000 ≤ (ONE - x * x).bits.toNat := by
    have hw : (⟨0x3f7f0000#32⟩ : F32).val = 255 / 256 := by
      rw [val_of_units (u := 255 * 2 ^ 141) (by decide +kernel)]; norm_num
    rw [← hw, ← key_le_iff, key, key, sg] at hlo
    have a1 : (⟨0x3f7f0000#32⟩ : F32).sign = false := by decide
    have a2 : (⟨0x3f7f0000#32⟩ : F32).mag = 0x3f7f0000 := by decide
    rw [a1, a2] at hlo
    rw [toNat_eq, sg]; simp at hlo ⊢; omega
  obtain ⟨r, hr, br⟩ := invsqrt_ok (x := ONE - x * x) (by omega)
  have hm : r.mag = 0x5f375a86 - (ONE - x * x).bits.toNat / 2 := by rw [mag, br]; omega
  have hs : r.sign = false := by rw [sign, br]; simp; omega
  have fr : r.isFinite = true := by
    rw [isFinite, hm]; have : infMag = 0x7f800000 := by decide
    rw [this]; simp; omega
  have hv1 : (⟨0x3f775a86#32⟩ : F32).val ≤ r.val := by
    rw [← key_le_iff, key, key, hs, hm]
    have a1 : (⟨0x3f775a86#32⟩ : F32).sign = false := by decide
    have a2 : (⟨0x3f775a86#32⟩ : F32).mag = 0x3f775a86 := by decide
    rw [a1, a2]; simp; omega
  have hv2 : r.val ≤ (⟨0x3f77da86#32⟩ : F32).val := by
    rw [← key_le_iff, key, key, hs, hm]
    have a1 : (⟨0x3f77da86#32⟩ : F32).sign = false := by decide
    have a2 : (⟨0x3f77da86#32⟩ : F32).mag = 0x3f77da86 := by decide
    rw [a1, a2]; simp; omega
  rw [val_of_units (u := 16210566 * 2 ^ 125) (by decide +kernel)] at hv1
  rw [val_of_units (x := ⟨0x3f77da86#32⟩) (u := 16243334 * 2 ^ 125) (by decide +kernel)] at hv2
  exact ⟨r, hr, fr, by norm_num at *; linarith, by norm_num at *; linarith⟩

/-- **C149, `asin`.** For `2^-50 ≤ |x| ≤ 1/16`, `asin x` returns, and its magnitude lies between `0.9048 |x|` and `0.9069 |x| + 0.43 x²`. -/
theorem C149_asin {x : F32} (hx : x.isFinite = true) (h0 : 1 / 2 ^ 50 ≤ |x.val|) (h1 : |x.val| ≤ 1 / 16) :
    ∃ y, x.asin = .ok y ∧ y.isFinite = true ∧ 0.9048 * |x.val| ≤ |y.val| ∧ |y.val| ≤ 0.9069 * |x.val| + 0.43 * |x.val| ^ 2 := by
  obtain ⟨r, hr, fr, r0, r1⟩ := asin_root hx h1
  have rp : 0 < r.val := lt_of_lt_of_le (by norm_num) r0
  have e : |x.val * r.val| = |x.val| * r.val := by rw [abs_mul, abs_of_pos rp]
  obtain ⟨X, hX⟩ : ∃ X, X = |x.val| := ⟨_, rfl⟩
  rw [← hX] at h0 h1 e ⊢
  have X0 : 0 < X := lt_of_lt_of_le (by norm_num) h0
  have p1 : X * 0.9662 ≤ X * r.val := mul_le_mul_of_nonneg_left r0 X0.le
  have p2 : X * r.val ≤ X * 0.9682 := mul_le_mul_of_nonneg_left r1 X0.le
  obtain ⟨f, v⟩ := mul_val hx fr (by rw [e]; exact lt_of_le_of_lt (show _ ≤ (1 : ℚ) by norm_num at *; linarith) (by norm_num [ovf]))
  have av : |(x * r).val| = RN (X * r.val) := by rw [v, ← RN_abs, e]
  obtain ⟨m1, m2⟩ := rn_rel (v := X * r.val) (by norm_num at *; linarith)
  rw [← av] at m1 m2
  have u1 : 0.96619 * X ≤ |(x * r).val| := by norm_num at *; linarith
  have u2 : |(x * r).val| ≤ 0.96821 * X := by norm_num at *; linarith
  obtain ⟨fa, l, u⟩ := C149_atan f (by norm_num at *; linarith) (by norm_num at *; linarith)
  refine ⟨(x * r).atan, by unfold F32.asin; rw [hr, ok_bind], fa, ?_, ?_⟩
  · norm_num at *; linarith
  · have q : |(x * r).val| ^ 2 ≤ 0.96821 ^ 2 * X ^ 2 := by rw [← mul_pow]; exact pow_le_pow_left₀ (abs_nonneg _) u2 2
    have X2 := sq_nonneg X
    norm_num at *
    linarith

/-- **C149, a consequence.** For `2^-50 ≤ |x| ≤ 1/100`: `|atan x|` is at most `0.942 |x|`, and `|asin x|` at most `0.912 |x|`. -/
theorem C149_inverse_short {x : F32} (hx : x.isFinite = true) (h0 : 1 / 2 ^ 50 ≤ |x.val|) (h1 : |x.val| ≤ 1 / 100) :
    |x.atan.val| ≤ 0.942 * |x.val| ∧ ∃ y, x.asin = .ok y ∧ |y.val| ≤ 0.912 * |x.val| := by
  obtain ⟨-, -, u⟩ := C149_atan hx (le_trans (by norm_num) h0) (h1.trans (by norm_num))
  obtain ⟨y, hy, -, -, v⟩ := C149_asin hx h0 (h1.trans (by norm_num))
  have q : |x.val| ^ 2 ≤ 1 / 100 * |x.val| := by rw [sq]; exact mul_le_mul_of_nonneg_right h1 (abs_nonneg _)
  have := abs_nonneg x.val
  refine ⟨?_, y, hy, ?_⟩ <;> norm_num at * <;> linarith

/-- **C149, there and back.** For `0.001 ≤ |x| ≤ 0.01`, `asin(sin x)` is between `0.89` and `0.91` of `x`: the round trip loses about a tenth. -/
theorem C149_asin_sin {x : F32} (hx : x.isFinite = true) (h0 : 1 / 1000 ≤ |x.val|) (h1 : |x.val| ≤ 1 / 100) :
    ∃ y, x.sin.asin = .ok y ∧ 0.89 * |x.val| ≤ |y.val| ∧ |y.val| ≤ 0.91 * |x.val| := by
  have hs := C149_sin hx (h1.trans (by norm_num))
  have d := dir_near hx (h1.trans (by norm_num))
  have X2 : (x.val : ℝ) ^ 2 ≤ 1 / 100 * |(x.val : ℝ)| := by
    have := abs_cast_le h1
    push_cast at this
    rw [← sq_abs, sq]; exact mul_le_mul_of_nonneg_right this (abs_nonneg _)
  have h0R := (Rat.cast_le (K := ℝ)).2 h0
  have h1R := abs_cast_le h1
  push_cast at h0R h1R
  have s1 : |(x.sin.val : ℝ)| ≤ 0.98887 * |(x.val : ℝ)| := by
    have := abs_sub_abs_le_abs_sub (x.sin.val : ℝ) (0.98676 * x.val)
    rw [abs_mul, abs_of_pos (show (0 : ℝ) < 0.98676 by norm_num)] at this
    norm_num at *; linarith
  have s2 : 0.9846 * |(x.val : ℝ)| ≤ |(x.sin.val : ℝ)| := by
    have := abs_sub_abs_le_abs_sub (0.98676 * (x.val : ℝ)) x.sin.val
    rw [abs_mul, abs_of_pos (show (0 : ℝ) < 0.98676 by norm_num), abs_sub_comm] at this
    norm_num at *; linarith
  have t1 : |x.sin.val| ≤ 0.98887 * |x.val| := by
    rw [← Rat.cast_le (K := ℝ)]; push_cast; exact s1
  have t2 : 0.9846 * |x.val| ≤ |x.sin.val| := by
    rw [← Rat.cast_le (K := ℝ)]; push_cast; exact s2
  obtain ⟨y, hy, -, l, u⟩ := C149_asin d.fs (by norm_num at *; linarith) (by norm_num at *; linarith)
  have q : |x.sin.val| ^ 2 ≤ 1 / 100 * |x.sin.val| := by
    rw [sq]; exact mul_le_mul_of_nonneg_right (by norm_num at *; linarith) (abs_nonneg _)
  refine ⟨y, hy, ?_, ?_⟩ <;> norm_num at * <;> linarith

omit [Cfg] in
/-- The hypotheses of the theorems of C149 hold for `1/128`. -/
theorem C149_case : (⟨0x3c000000#32⟩ : F32).isFinite = true ∧ |(⟨0x3c000000#32⟩ : F32).val| = 1 / 128 := by
  refine ⟨by decide, ?_⟩
  rw [val_of_units (u := 2 ^ 142) (by decide +kernel), abs_of_pos (by norm_num)]; norm_num

end Micromath.Props
