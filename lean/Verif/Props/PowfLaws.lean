import Verif.Props.FuncEq
import Verif.Props.Powf
import Verif.Props.Powi
import Verif.Props.ExpMono

/-!
# C138: laws of exponents for `powf`, and its agreement with `powi`, `sqrt`, `*` and the logarithms
-/

set_option exponentiation.threshold 1000

namespace Micromath.Props
open F32 Spec

variable [Cfg]

/-- `powf(x, n)` against the exponential of `n` times the computed logarithm of `x`. -/
theorem powf_exp_ln {x n : F32} (hx : x.isFinite = true) (h0 : 0 < x.val) (hn : n.isFinite = true) (h1 : -87.29 ≤ n.val * x.ln.val)
    (h2 : n.val * x.ln.val ≤ 88.69) :
    ∃ r, x.powf n = .ok r ∧ r.isFinite = true ∧
      0.9969 * Real.exp ((n.val : ℝ) * x.ln.val) ≤ r.val ∧ (r.val : ℝ) ≤ 1.0031 * Real.exp ((n.val : ℝ) * x.ln.val) := by
  have fl : x.ln.isFinite = true := ln_finite hx (signNegative_of_nonneg (by rintro rfl; rw [val_negZero] at h0; exact lt_irrefl _ h0) h0.le)
  rw [powf_nonneg n hx h0.le]
  exact powf_core fl hn h1 h2

/-- **C138, adding exponents.** `powf(x, a) * powf(x, b)` and `powf(x, a + b)` agree within 0.94%, for every positive base, as long
as the three exponents times `ln(x)` are in the range of `exp`. -/
theorem C138_add {x a b s : F32} (hx : x.isFinite = true) (h0 : 0 < x.val) (ha : a.isFinite = true) (hb : b.isFinite = true)
    (hs : IsVal s (a.val + b.val)) (a1 : -87.29 ≤ a.val * x.ln.val) (a2 : a.val * x.ln.val ≤ 88.69)
    (b1 : -87.29 ≤ b.val * x.ln.val) (b2 : b.val * x.ln.val ≤ 88.69)
    (s1 : -87.29 ≤ s.val * x.ln.val) (s2 : s.val * x.ln.val ≤ 88.69) :
    ∃ p q r, x.powf a = .ok p ∧ x.powf b = .ok q ∧ x.powf s = .ok r ∧ |r.val - p.val * q.val| ≤ 0.0094 * (p.val * q.val) := by
  obtain ⟨p, ep, -, p1, p2⟩ := powf_exp_ln hx h0 ha a1 a2
  obtain ⟨q, eq, -, q1, q2⟩ := powf_exp_ln hx h0 hb b1 b2
  obtain ⟨r, er, -, r1, r2⟩ := powf_exp_ln hx h0 hs.1 s1 s2
  refine ⟨p, q, r, ep, eq, er, ?_⟩
  rw [hs.2] at r1 r2
  push_cast at r1 r2
  rw [add_mul, Real.exp_add] at r1 r2
  suffices h : |(r.val : ℝ) - p.val * q.val| ≤ 0.0094 * (p.val * q.val) by
    have : ((|r.val - p.val * q.val| : ℚ) : ℝ) ≤ ((0.0094 * (p.val * q.val) : ℚ) : ℝ) := by
      push_cast; refine h.trans (by norm_num)
    exact_mod_cast this
  have X0 := Real.exp_pos ((a.val : ℝ) * x.ln.val)
  have Y0 := Real.exp_pos ((b.val : ℝ) * x.ln.val)
  generalize Real.exp ((a.val : ℝ) * x.ln.val) = X at *
  generalize Real.exp ((b.val : ℝ) * x.ln.val) = Y at *
  have P0 : 0 < X * Y := mul_pos X0 Y0
  have l : 0.9969 ^ 2 * (X * Y) ≤ p.val * q.val := by
    calc (0.9969 : ℝ) ^ 2 * (X * Y) = (0.9969 * X) * (0.9969 * Y) := by ring
      _ ≤ p.val * q.val := mul_le_mul p1 q1 (by positivity) (le_trans (by positivity) p1)
  have u : (p.val : ℝ) * q.val ≤ 1.0031 ^ 2 * (X * Y) := by
    calc (p.val : ℝ) * q.val ≤ (1.0031 * X) * (1.0031 * Y) := mul_le_mul p2 q2 (le_trans (by positivity) q1) (by positivity)
      _ = _ := by ring
  generalize X * Y = P at *
  generalize (p.val : ℝ) * q.val = Q at *
  rw [abs_le]
  norm_num at l u r1 r2 ⊢
  constructor <;> linarith

/-- **C138, negated exponents.** `powf(x, a) * powf(x, -a)` is within 0.0063 of one. -/
theorem C138_neg {x a : F32} (hx : x.isFinite = true) (h0 : 0 < x.val) (ha : a.isFinite = true) (h : |a.val * x.ln.val| ≤ 87.29) :
    ∃ p q, x.powf a = .ok p ∧ x.powf (-a) = .ok q ∧ |p.val * q.val - 1| ≤ 0.0063 := by
  have h' := abs_le.1 h
  norm_num at h'
  obtain ⟨p, ep, -, p1, p2⟩ := powf_exp_ln hx h0 ha (by norm_num; linarith [h'.1]) (by norm_num; linarith [h'.2])
  obtain ⟨q, eq, -, q1, q2⟩ := powf_exp_ln (n := -a) hx h0 (by rw [isFinite_neg]; exact ha)
    (by rw [val_neg]; norm_num; linarith [h'.2]) (by rw [val_neg]; norm_num; linarith [h'.1])
  refine ⟨p, q, ep, eq, ?_⟩
  suffices h : |(p.val : ℝ) * q.val - 1| ≤ 0.0063 by
    have : ((|p.val * q.val - 1| : ℚ) : ℝ) ≤ ((0.0063 : ℚ) : ℝ) := by
      push_cast; refine h.trans (by norm_num)
    exact_mod_cast this
  rw [val_neg] at q1 q2
  push_cast at q1 q2
  rw [neg_mul] at q1 q2
  have e : Real.exp ((a.val : ℝ) * x.ln.val) * Real.exp (-((a.val : ℝ) * x.ln.val)) = 1 := by rw [← Real.exp_add]; simp
  have X0 := Real.exp_pos ((a.val : ℝ) * x.ln.val)
  have Y0 := Real.exp_pos (-((a.val : ℝ) * x.ln.val))
  generalize Real.exp ((a.val : ℝ) * x.ln.val) = X at *
  generalize Real.exp (-((a.val : ℝ) * x.ln.val)) = Y at *
  have l : 0.9969 ^ 2 * (X * Y) ≤ p.val * q.val := by
    calc (0.9969 : ℝ) ^ 2 * (X * Y) = (0.9969 * X) * (0.9969 * Y) := by ring
      _ ≤ p.val * q.val := mul_le_mul p1 q1 (by positivity) (le_trans (by positivity) p1)
  have u : (p.val : ℝ) * q.val ≤ 1.0031 ^ 2 * (X * Y) := by
    calc (p.val : ℝ) * q.val ≤ (1.0031 * X) * (1.0031 * Y) := mul_le_mul p2 q2 (le_trans (by positivity) q1) (by positivity)
      _ = _ := by ring
  rw [e] at l u
  rw [abs_le]
  norm_num at l u ⊢
  constructor <;> linarith

omit [Cfg] in
theorem exp_bounds {t : ℝ} (h : |t| ≤ 1) : 1 + t - t ^ 2 ≤ Real.exp t ∧ Real.exp t ≤ 1 + t + t ^ 2 := by
  have := abs_le.1 (Real.abs_exp_sub_one_sub_id_le h)
  constructor <;> linarith [this.1, this.2]

/-- **C138, product of bases.** For `x, y >= 1` and `|a| <= 10`, `powf(x, a) * powf(y, a)` and `powf(x * y, a)` agree within 1.2%. -/
theorem C138_mul {x y a : F32} (hx : x.isFinite = true) (hy : y.isFinite = true) (x1 : 1 ≤ x.val) (y1 : 1 ≤ y.val)
    (hp : (x * y).isFinite = true) (ha : a.isFinite = true) (hab : |a.val| ≤ 10) (h : |a.val| * (x.ln.val + y.ln.val) ≤ 87) :
    ∃ p q r, x.powf a = .ok p ∧ y.powf a = .ok q ∧ (x * y).powf a = .ok r ∧ |r.val - p.val * q.val| ≤ 0.012 * (p.val * q.val) := by
  have hl := abs_le.1 (C123_ln_mul hx hy x1 y1 hp)
  have lo : ∀ {z : F32}, z.isFinite = true → 1 ≤ z.val → -0.00008 ≤ z.ln.val := by
    intro z hz h1
    have e := (abs_le.1 (C29_ln z hz h1).2).1
    have h0 := Real.log_nonneg (show (1 : ℝ) ≤ z.val by exact_mod_cast h1)
    have : ((-0.00008 : ℚ) : ℝ) ≤ ((z.ln.val : ℚ) : ℝ) := by push_cast; norm_num at e ⊢; linarith
    exact_mod_cast this
  have p1 : 1 ≤ (x * y).val := by
    have ho : |x.val * y.val| < ovf := by
      by_contra hc
      rw [mul_ovf hx hy (not_lt.1 hc), isFinite_iff, mag_pack _ infMag_lt] at hp
      exact lt_irrefl _ hp
    rw [(mul_val hx hy ho).2]
    exact le_RN_of_rep (by simpa using rep_int (m := 1) (by decide)) (by nlinarith)
  have lx := lo hx x1
  have ly := lo hy y1
  have lz := lo hp p1
  have a0 := abs_nonneg a.val
  have rng : ∀ {L : ℚ}, -0.00008 ≤ L → L ≤ x.ln.val + y.ln.val + 0.00025 → -87.29 ≤ a.val * L ∧ a.val * L ≤ 88.69 := by
    intro L h1 h2
    have k1 : |a.val| * L ≤ 87.01 := by
      have := mul_le_mul_of_nonneg_left h2 a0
      rw [mul_add] at this
      norm_num at this ⊢
      linarith
    have k2 : -87.01 ≤ |a.val| * L := by
      have := mul_le_mul_of_nonneg_left h1 a0
      norm_num at this ⊢
      linarith
    have k3 : |a.val * L| ≤ 87.01 := by
      rcases abs_cases a.val with ⟨e, -⟩ | ⟨e, -⟩
      · rw [e] at k1 k2; exact abs_le.2 ⟨k2, k1⟩
      · rw [e] at k1 k2; exact abs_le.2 ⟨by linarith, by linarith⟩
    have k4 := abs_le.1 k3
    norm_num at k4 ⊢
    constructor <;> linarith [k4.1, k4.2]
  norm_num at hl lx ly lz
  obtain ⟨i1, i2⟩ := rng (L := x.ln.val) (by norm_num; linarith) (by norm_num; linarith)
  obtain ⟨i3, i4⟩ := rng (L := y.ln.val) (by norm_num; linarith) (by norm_num; linarith)
  obtain ⟨i5, i6⟩ := rng (L := (x * y).ln.val) (by norm_num; linarith) (by norm_num; linarith [hl.2])
  obtain ⟨p, ep, -, p1, p2⟩ := powf_exp_ln hx (by linarith) ha i1 i2
  obtain ⟨q, eq, -, q1, q2⟩ := powf_exp_ln hy (by linarith) ha i3 i4
  obtain ⟨r, er, -, r1, r2⟩ := powf_exp_ln hp (by linarith) ha i5 i6
  refine ⟨p, q, r, ep, eq, er, ?_⟩
  obtain ⟨d, hd⟩ : ∃ d, d = a.val * ((x * y).ln.val - (x.ln.val + y.ln.val)) := ⟨_, rfl⟩
  have hd1 : |d| ≤ 0.0025 := by
    rw [hd, abs_mul]
    calc |a.val| * |(x * y).ln.val - (x.ln.val + y.ln.val)| ≤ 10 * 0.00025 :=
          mul_le_mul hab (C123_ln_mul hx hy x1 y1 hp) (abs_nonneg _) (by norm_num)
      _ = 0.0025 := by norm_num
  have hdr : |(d : ℝ)| ≤ 0.0025 := by
    have := (Rat.cast_le (K := ℝ)).2 hd1
    push_cast at this
    refine this.trans (by norm_num)
  have e : Real.exp ((a.val : ℝ) * (x * y).ln.val) = Real.exp ((a.val : ℝ) * x.ln.val) * Real.exp ((a.val : ℝ) * y.ln.val) * Real.exp d := by
    rw [← Real.exp_add, ← Real.exp_add, hd]; congr 1; push_cast; ring
  rw [e] at r1 r2
  obtain ⟨D1, D2⟩ := exp_bounds (hdr.trans (by norm_num))
  suffices h : |(r.val : ℝ) - p.val * q.val| ≤ 0.012 * (p.val * q.val) by
    have : ((|r.val - p.val * q.val| : ℚ) : ℝ) ≤ ((0.012 * (p.val * q.val) : ℚ) : ℝ) := by
      push_cast; refine h.trans (by norm_num)
    exact_mod_cast this
  have hdd := abs_le.1 hdr
  have hd2 : (d : ℝ) ^ 2 ≤ 0.0025 ^ 2 := by rw [← sq_abs]; exact pow_le_pow_left₀ (abs_nonneg _) hdr 2
  have X0 := Real.exp_pos ((a.val : ℝ) * x.ln.val)
  have Y0 := Real.exp_pos ((a.val : ℝ) * y.ln.val)
  generalize Real.exp ((a.val : ℝ) * x.ln.val) = X at *
  generalize Real.exp ((a.val : ℝ) * y.ln.val) = Y at *
  generalize Real.exp (d : ℝ) = D at *
  have P0 : 0 < X * Y := mul_pos X0 Y0
  have l : 0.9969 ^ 2 * (X * Y) ≤ p.val * q.val := by
    calc (0.9969 : ℝ) ^ 2 * (X * Y) = (0.9969 * X) * (0.9969 * Y) := by ring
      _ ≤ p.val * q.val := mul_le_mul p1 q1 (by positivity) (le_trans (by positivity) p1)
  have u : (p.val : ℝ) * q.val ≤ 1.0031 ^ 2 * (X * Y) := by
    calc (p.val : ℝ) * q.val ≤ (1.0031 * X) * (1.0031 * Y) := mul_le_mul p2 q2 (le_trans (by positivity) q1) (by positivity)
      _ = _ := by ring
  have Q1 := mul_le_mul_of_nonneg_left (show 0.99749 ≤ D by norm_num at hdd hd2 ⊢; linarith [hdd.1]) P0.le
  have Q2 := mul_le_mul_of_nonneg_left (show D ≤ 1.00251 by norm_num at hdd hd2 ⊢; linarith [hdd.2]) P0.le
  generalize X * Y = P at *
  generalize (p.val : ℝ) * q.val = Q at *
  rw [abs_le]
  norm_num at l u r1 r2 Q1 Q2 ⊢
  constructor <;> linarith

/-- **C138, powers of powers: the logarithm.** When `powf(x, a) >= 1`, its computed logarithm is within 0.0033 of `a` times the
computed logarithm of `x`. -/
theorem C138_ln {x a : F32} (hx : x.isFinite = true) (h0 : 0 < x.val) (ha : a.isFinite = true) (a1 : -87.29 ≤ a.val * x.ln.val)
    (a2 : a.val * x.ln.val ≤ 88.69) {p : F32} (ep : x.powf a = .ok p) (p1 : 1 ≤ p.val) :
    p.ln.isFinite = true ∧ |p.ln.val - a.val * x.ln.val| ≤ 0.0033 := by
  obtain ⟨p', ep', fp, l, u⟩ := powf_exp_ln hx h0 ha a1 a2
  rw [ep] at ep'
  cases ep'
  obtain ⟨f, e⟩ := C29_ln p fp p1
  refine ⟨f, ?_⟩
  suffices h : |(p.ln.val : ℝ) - a.val * x.ln.val| ≤ 0.0033 by
    have : ((|p.ln.val - a.val * x.ln.val| : ℚ) : ℝ) ≤ ((0.0033 : ℚ) : ℝ) := by
      push_cast; refine h.trans (by norm_num)
    exact_mod_cast this
  have pp : (0 : ℝ) < p.val := by have : (0 : ℚ) < p.val := by linarith
                                  exact_mod_cast this
  have c1 := Real.log_le_log (by positivity) l
  have c2 := Real.log_le_log pp u
  rw [Real.log_mul (by norm_num) (Real.exp_pos _).ne', Real.log_exp] at c1 c2
  have g1 : Real.log 1.0031 ≤ 0.0031 := by have := Real.log_le_sub_one_of_pos (x := 1.0031) (by norm_num); linarith
  have g2 : -0.00312 ≤ Real.log 0.9969 := by
    have := Real.one_sub_inv_le_log_of_pos (x := 0.9969) (by norm_num)
    refine le_trans ?_ this
    norm_num
  have e' := abs_le.1 e
  rw [abs_le]
  norm_num at e' g1 g2 c1 c2 ⊢
  constructor <;> linarith [e'.1, e'.2]

/-- **C138, powers of powers.** When `powf(x, a) >= 1` and `|b| <= 10`, `powf(powf(x, a), b)` and `powf(x, a * b)` agree within 4.1%. -/
theorem C138_pow {x a b c : F32} (hx : x.isFinite = true) (h0 : 0 < x.val) (ha : a.isFinite = true) (hb : b.isFinite = true)
    (hc : IsVal c (a.val * b.val)) (hb10 : |b.val| ≤ 10) (a1 : -87.29 ≤ a.val * x.ln.val) (a2 : a.val * x.ln.val ≤ 88.69)
    (c1 : |c.val * x.ln.val| ≤ 87) {p : F32} (ep : x.powf a = .ok p) (p1 : 1 ≤ p.val) :
    ∃ q r, p.powf b = .ok q ∧ x.powf c = .ok r ∧ |q.val - r.val| ≤ 0.041 * r.val := by
  obtain ⟨-, e⟩ := C138_ln hx h0 ha a1 a2 ep p1
  have fp : p.isFinite = true := by
    obtain ⟨p', ep', fp, -, -⟩ := powf_exp_ln hx h0 ha a1 a2
    rw [ep] at ep'; cases ep'; exact fp
  obtain ⟨d, hd⟩ : ∃ d, d = b.val * (p.ln.val - a.val * x.ln.val) := ⟨_, rfl⟩
  have hd1 : |d| ≤ 0.033 := by
    rw [hd, abs_mul]
    calc |b.val| * |p.ln.val - a.val * x.ln.val| ≤ 10 * 0.0033 := mul_le_mul hb10 e (abs_nonneg _) (by norm_num)
      _ = 0.033 := by norm_num
  have eb : b.val * p.ln.val = c.val * x.ln.val + d := by rw [hd, hc.2]; ring
  have k1 := abs_le.1 c1
  have k2 := abs_le.1 hd1
  norm_num at k1 k2
  obtain ⟨q, eq, -, q1, q2⟩ := powf_exp_ln fp (by linarith) hb (by rw [eb]; norm_num; linarith [k1.1, k2.1])
    (by rw [eb]; norm_num; linarith [k1.2, k2.2])
  obtain ⟨r, er, -, r1, r2⟩ := powf_exp_ln hx h0 hc.1 (by norm_num; linarith [k1.1]) (by norm_num; linarith [k1.2])
  refine ⟨q, r, eq, er, ?_⟩
  suffices h : |(q.val : ℝ) - r.val| ≤ 0.041 * r.val by
    have : ((|q.val - r.val| : ℚ) : ℝ) ≤ ((0.041 * r.val : ℚ) : ℝ) := by
      push_cast; refine h.trans (by norm_num)
    exact_mod_cast this
  have e2 : Real.exp ((b.val : ℝ) * p.ln.val) = Real.exp ((c.val : ℝ) * x.ln.val) * Real.exp d := by
    rw [← Real.exp_add]; congr 1; exact_mod_cast eb
  rw [e2] at q1 q2
  have hdr : |(d : ℝ)| ≤ 0.033 := by
    have := (Rat.cast_le (K := ℝ)).2 hd1
    push_cast at this
    refine this.trans (by norm_num)
  obtain ⟨D1, D2⟩ := exp_bounds (hdr.trans (by norm_num))
  have hdd := abs_le.1 hdr
  have hd2 : (d : ℝ) ^ 2 ≤ 0.033 ^ 2 := by rw [← sq_abs]; exact pow_le_pow_left₀ (abs_nonneg _) hdr 2
  have X0 := Real.exp_pos ((c.val : ℝ) * x.ln.val)
  generalize Real.exp ((c.val : ℝ) * x.ln.val) = X at *
  generalize Real.exp (d : ℝ) = D at *
  have Q1 := mul_le_mul_of_nonneg_left (show 0.965 ≤ D by norm_num at hdd hd2 ⊢; linarith [hdd.1]) X0.le
  have Q2 := mul_le_mul_of_nonneg_left (show D ≤ 1.0342 by norm_num at hdd hd2 ⊢; linarith [hdd.2]) X0.le
  rw [abs_le]
  norm_num at r1 r2 q1 q2 Q1 Q2 ⊢
  constructor <;> linarith

/-- Against the real power, for small exponents. -/
theorem powf_near {x n : F32} (hx : x.isFinite = true) (h : 1 ≤ x.val) (hn : n.isFinite = true) (hn1 : |n.val| ≤ 128)
    (h1 : |(n.val : ℝ) * Real.log x.val| ≤ 87.2) :
    ∃ r, x.powf n = .ok r ∧ r.isFinite = true ∧
      |(r.val : ℝ) - (x.val : ℝ) ^ (n.val : ℝ)| ≤ (0.0031 + 0.00009 * |(n.val : ℝ)|) * (x.val : ℝ) ^ (n.val : ℝ) := by
  have nr : |(n.val : ℝ)| ≤ 128 := by
    have := (Rat.cast_le (K := ℝ)).2 hn1
    push_cast at this
    exact this
  have k := abs_le.1 h1
  norm_num at k
  obtain ⟨r, er, fr, l, u⟩ := C85_powf_ge_one x n hx h hn (by norm_num; linarith [k.1]) (by norm_num; linarith [k.2])
  refine ⟨r, er, fr, ?_⟩
  have a0 := abs_nonneg (n.val : ℝ)
  have x0 : (0 : ℝ) < x.val := by exact_mod_cast lt_of_lt_of_le one_pos h
  have X0 : (0 : ℝ) < (x.val : ℝ) ^ (n.val : ℝ) := Real.rpow_pos_of_pos x0 _
  generalize (x.val : ℝ) ^ (n.val : ℝ) = X at *
  generalize |(n.val : ℝ)| = N at *
  obtain ⟨t, ht⟩ : ∃ t, t = 0.00008 * N := ⟨_, rfl⟩
  have t0 : 0 ≤ t := by rw [ht]; positivity
  have t1 : t ≤ 0.01024 := by rw [ht]; norm_num; linarith
  rw [← ht] at l u
  obtain ⟨-, D2⟩ := exp_bounds (t := t) (by rw [abs_of_nonneg t0]; linarith)
  obtain ⟨D1, -⟩ := exp_bounds (t := -t) (by rw [abs_neg, abs_of_nonneg t0]; linarith)
  have tt : t ^ 2 ≤ 0.01024 * t := by rw [sq]; exact mul_le_mul_of_nonneg_right t1 t0
  have w1 : 1.0031 * Real.exp t ≤ 1.0031 + 1.12 * t := by norm_num at t1 D2 tt ⊢; linarith
  have w2 : 0.9969 - 1.12 * t ≤ 0.9969 * Real.exp (-t) := by
    rw [neg_sq] at D1
    norm_num at t1 D1 tt ⊢; linarith
  have w3 := mul_le_mul_of_nonneg_right w1 X0.le
  have w4 := mul_le_mul_of_nonneg_right w2 X0.le
  have e3 : (0.0031 + 0.00009 * N) * X = 0.0031 * X + 1.125 * (t * X) := by rw [ht]; ring
  have e4 : (1.0031 + 1.12 * t) * X = 1.0031 * X + 1.12 * (t * X) := by ring
  have e5 : (0.9969 - 1.12 * t) * X = 0.9969 * X - 1.12 * (t * X) := by ring
  rw [e3]
  rw [e4] at w3
  rw [e5] at w4
  have tX : 0 ≤ t * X := by positivity
  rw [abs_le]
  norm_num at w3 w4 l u ⊢
  constructor <;> linarith

omit [Cfg] in
theorem log_abs_le {x : F32} (hx : x.isFinite = true) (h : 1 ≤ x.val) : 0 ≤ Real.log x.val ∧ Real.log x.val ≤ 88.8 := by
  have h1 : (1 : ℝ) ≤ x.val := by exact_mod_cast h
  refine ⟨Real.log_nonneg h1, ?_⟩
  have h2 : (x.val : ℝ) ≤ 2 ^ 128 := by
    have a := (le_abs_self x.val).trans (abs_val_lt_ovf hx).le
    have b : x.val ≤ 2 ^ 128 := a.trans (by rw [ovf]; norm_num)
    have c := (Rat.cast_le (K := ℝ)).2 b
    push_cast at c
    exact c
  have h3 := Real.log_le_log (by linarith) h2
  rw [Real.log_pow] at h3
  have b2 := Real.log_two_lt_d9
  push_cast at h3
  norm_num at h3 b2 ⊢
  linarith

/-- **C138, the first power.** `powf(x, 1)` is within 0.32% of `x`, for every `x` from 1 up to 2^125. -/
theorem C138_one {x n : F32} (hx : x.isFinite = true) (h : 1 ≤ x.val) (hu : x.val ≤ 2 ^ 125) (hn : IsVal n 1) :
    ∃ r, x.powf n = .ok r ∧ |r.val - x.val| ≤ 0.0032 * x.val := by
  have h1 : (1 : ℝ) ≤ x.val := by exact_mod_cast h
  have h2 : (x.val : ℝ) ≤ 2 ^ 125 := by
    have c := (Rat.cast_le (K := ℝ)).2 hu
    push_cast at c
    exact c
  have h3 := Real.log_le_log (by linarith) h2
  rw [Real.log_pow] at h3
  have b2 := Real.log_two_lt_d9
  have h0 := Real.log_nonneg h1
  push_cast at h3
  obtain ⟨r, er, -, e⟩ := powf_near hx h hn.1 (by rw [hn.2]; norm_num) (by
    rw [hn.2, Rat.cast_one, one_mul, abs_of_nonneg h0]
    norm_num at h3 b2 ⊢
    linarith)
  refine ⟨r, er, ?_⟩
  rw [hn.2, Rat.cast_one, Real.rpow_one, abs_one] at e
  have : ((|r.val - x.val| : ℚ) : ℝ) ≤ ((0.0032 * x.val : ℚ) : ℝ) := by
    push_cast; refine e.trans ?_; norm_num; linarith
  exact_mod_cast this

/-- **C138, the second power.** `powf(x, 2)` is within 0.33% of the product `x * x`, for every `x` from 1 up to 2^62. -/
theorem C138_square {x n : F32} (hx : x.isFinite = true) (h : 1 ≤ x.val) (hu : x.val ≤ 2 ^ 62) (hn : IsVal n 2) :
    ∃ r, x.powf n = .ok r ∧ |r.val - (x * x).val| ≤ 0.0033 * (x * x).val := by
  have h1 : (1 : ℝ) ≤ x.val := by exact_mod_cast h
  have h2 : (x.val : ℝ) ≤ 2 ^ 62 := by
    have c := (Rat.cast_le (K := ℝ)).2 hu
    push_cast at c
    exact c
  have h3 := Real.log_le_log (by linarith) h2
  rw [Real.log_pow] at h3
  have b2 := Real.log_two_lt_d9
  have h0 := Real.log_nonneg h1
  push_cast at h3
  obtain ⟨r, er, -, e⟩ := powf_near hx h hn.1 (by rw [hn.2]; norm_num) (by
    rw [hn.2, abs_of_nonneg (by push_cast; positivity)]
    push_cast
    norm_num at h3 b2 ⊢
    linarith)
  refine ⟨r, er, ?_⟩
  rw [hn.2] at e
  push_cast at e
  rw [Real.rpow_ofNat, abs_of_nonneg (show (0 : ℝ) ≤ 2 by norm_num)] at e
  have e' : |r.val - x.val ^ 2| ≤ 0.00328 * x.val ^ 2 := by
    have : ((|r.val - x.val ^ 2| : ℚ) : ℝ) ≤ ((0.00328 * x.val ^ 2 : ℚ) : ℝ) := by
      push_cast; refine e.trans (le_of_eq ?_); norm_num
    exact_mod_cast this
  have sq1 : 1 ≤ x.val ^ 2 := by nlinarith
  have sq2 : x.val ^ 2 ≤ 2 ^ 124 := by
    calc x.val ^ 2 ≤ (2 ^ 62) ^ 2 := pow_le_pow_left₀ (by linarith) hu 2
      _ = 2 ^ 124 := by norm_num
  have m := (mul_val hx hx (by rw [← sq, abs_of_nonneg (by linarith), ovf]; exact lt_of_le_of_lt sq2 (by norm_num))).2
  have g := RN_err (x.val * x.val)
  rw [← m, ← sq] at g
  generalize (x * x).val = M at *
  generalize x.val ^ 2 = S at *
  rw [abs_of_nonneg (show 0 ≤ S by linarith), max_eq_right (by norm_num at sq1 ⊢; linarith)] at g
  have g' := abs_le.1 g
  have e'' := abs_le.1 e'
  rw [abs_le]
  norm_num at g' e'' ⊢
  constructor <;> linarith [g'.1, g'.2, e''.1, e''.2]

/-- **C138, one half.** `powf(x, 0.5)` is within 6.1% of `sqrt(x)`, for every finite `x >= 1`; the gap is that of `sqrt`. -/
theorem C138_sqrt {x n : F32} (hx : x.isFinite = true) (h : 1 ≤ x.val) (hn : IsVal n (1 / 2)) :
    ∃ r, x.powf n = .ok r ∧ |r.val - x.sqrt.val| ≤ 0.061 * x.sqrt.val := by
  obtain ⟨l0, l1⟩ := log_abs_le hx h
  obtain ⟨r, er, -, e⟩ := powf_near hx h hn.1 (by rw [hn.2]; norm_num) (by
    rw [hn.2, abs_of_nonneg (by push_cast; positivity)]
    push_cast
    norm_num at l1 ⊢
    linarith)
  refine ⟨r, er, ?_⟩
  rw [hn.2] at e
  push_cast at e
  rw [← Real.sqrt_eq_rpow, abs_of_nonneg (show (0 : ℝ) ≤ 1 / 2 by norm_num)] at e
  obtain ⟨-, -, -, -, s1, s2⟩ := C14_sqrt x ⟨hx, le_trans (by norm_num) h⟩
  have e' := abs_le.1 e
  have S0 : 0 ≤ √(x.val : ℝ) := Real.sqrt_nonneg _
  suffices hh : |(r.val : ℝ) - x.sqrt.val| ≤ 0.061 * x.sqrt.val by
    have : ((|r.val - x.sqrt.val| : ℚ) : ℝ) ≤ ((0.061 * x.sqrt.val : ℚ) : ℝ) := by
      push_cast; refine hh.trans (by norm_num)
    exact_mod_cast this
  generalize √(x.val : ℝ) = S at *
  rw [abs_le]
  norm_num at s1 s2 e' ⊢
  constructor <;> linarith [e'.1, e'.2]

/-- **C138, minus one half.** `powf(x, -0.5)` is within 4.1% of `invsqrt(x)`, for every finite `x >= 1`. -/
theorem C138_invsqrt {x n : F32} (hx : x.isFinite = true) (h : 1 ≤ x.val) (hn : IsVal n (-(1 / 2))) :
    ∃ r s, x.powf n = .ok r ∧ x.invsqrt = .ok s ∧ |r.val - s.val| ≤ 0.041 * s.val := by
  obtain ⟨l0, l1⟩ := log_abs_le hx h
  obtain ⟨r, er, -, e⟩ := powf_near hx h hn.1 (by rw [hn.2]; norm_num) (by
    rw [hn.2, Rat.cast_neg, neg_mul, abs_neg, abs_of_nonneg (by push_cast; positivity)]
    push_cast
    norm_num at l1 ⊢
    linarith)
  obtain ⟨s, es, -, -, -, -, e2⟩ := C17_invsqrt x ⟨hx, le_trans (by norm_num) h⟩
  refine ⟨r, s, er, es, ?_⟩
  have x0 : (0 : ℝ) ≤ x.val := by exact_mod_cast le_trans zero_le_one h
  rw [hn.2] at e
  push_cast at e
  rw [Real.rpow_neg x0, ← Real.sqrt_eq_rpow, abs_neg, abs_of_nonneg (show (0 : ℝ) ≤ 1 / 2 by norm_num), ← one_div] at e
  have e' := abs_le.1 e
  have e3 := abs_le.1 e2
  have S0 : 0 ≤ 1 / √(x.val : ℝ) := div_nonneg zero_le_one (Real.sqrt_nonneg _)
  suffices hh : |(r.val : ℝ) - s.val| ≤ 0.041 * s.val by
    have : ((|r.val - s.val| : ℚ) : ℝ) ≤ ((0.041 * s.val : ℚ) : ℝ) := by
      push_cast; refine hh.trans (by norm_num)
    exact_mod_cast this
  generalize 1 / √(x.val : ℝ) = S at *
  rw [abs_le]
  norm_num at e3 e' ⊢
  constructor <;> linarith [e'.1, e'.2, e3.1, e3.2]

/-- The integer power within 0.32% plus 0.009% per unit of exponent, for bases at least one. -/
theorem powf_int {x n : F32} {m : ℤ} (hx : x.isFinite = true) (h : 1 ≤ x.val) (hn : IsVal n m) (hm : |m| ≤ 100)
    (hl : |(m : ℝ) * Real.log x.val| ≤ 86.6) :
    ∃ r, x.powf n = .ok r ∧ r.isFinite = true ∧ |r.val - x.val ^ m| ≤ (0.0031 + 0.00009 * |(m : ℚ)|) * x.val ^ m := by
  have hm' : |(m : ℚ)| ≤ 100 := by exact_mod_cast hm
  obtain ⟨r, er, fr, e⟩ := powf_near hx h hn.1 (by rw [hn.2]; linarith) (by
    rw [hn.2, Rat.cast_intCast]
    refine hl.trans (by norm_num))
  refine ⟨r, er, fr, ?_⟩
  rw [hn.2, Rat.cast_intCast, Real.rpow_intCast] at e
  have : ((|r.val - x.val ^ m| : ℚ) : ℝ) ≤ (((0.0031 + 0.00009 * |(m : ℚ)|) * x.val ^ m : ℚ) : ℝ) := by
    push_cast; refine e.trans (le_of_eq ?_); norm_num
  exact_mod_cast this

/-- **C138, `powf` and `powi`.** For a base with `|x| >= 1`, negative ones included, and an integer exponent `1 <= |m| <= 100`,
`powf(x, m)` and `powi(x, m)` both succeed and differ by at most 0.32% plus 0.01% per unit of exponent of `|x^m|`, as long as
`|x^m|` is between `e^-86.6` and `e^86.6`. -/
theorem C138_powi {x n : F32} {m : ℤ} (hx : x.isFinite = true) (h : 1 ≤ |x.val|) (hn : IsVal n m) (m0 : m ≠ 0) (hm : |m| ≤ 100)
    (hl : |(m : ℝ) * Real.log x.val| ≤ 86.6) :
    ∃ r s, x.powf n = .ok r ∧ x.powi m = .ok s ∧ |r.val - s.val| ≤ (0.0032 + 0.0001 * |(m : ℚ)|) * |x.val ^ m| := by
  have A : ∃ r, x.powf n = .ok r ∧ |r.val - x.val ^ m| ≤ (0.0031 + 0.00009 * |(m : ℚ)|) * |x.val ^ m| := by
    rcases le_or_gt 0 x.val with hs | hs
    · rw [abs_of_nonneg hs] at h
      obtain ⟨r, er, -, e⟩ := powf_int hx h hn hm hl
      refine ⟨r, er, ?_⟩
      rw [abs_of_pos (zpow_pos (show 0 < x.val by linarith) m)]
      exact e
    · have fa : x.abs.isFinite = true := by rw [isFinite_abs]; exact hx
      have va : x.abs.val = -x.val := by rw [val_abs, abs_of_neg hs]
      obtain ⟨r, er, -, e⟩ := powf_int (x := x.abs) fa (by rw [val_abs]; exact h) hn hm (by
        rw [va, Rat.cast_neg, Real.log_neg_eq_log]; exact hl)
      rw [va] at e
      by_cases hd : 2 ∣ m
      · refine ⟨r, by rw [C33_powf_even x n m hx hs hn hd (lt_of_le_of_lt hm (by norm_num))]; exact er, ?_⟩
        have ev : Even m := even_iff_two_dvd.2 hd
        rw [ev.neg_zpow] at e
        rw [abs_of_pos (ev.zpow_pos hs.ne)]
        exact e
      · refine ⟨-r, by rw [C33_powf_odd x n m hx hs hn hd, er]; rfl, ?_⟩
        have od : Odd m := Int.not_even_iff_odd.1 (fun hc => hd (even_iff_two_dvd.1 hc))
        rw [od.neg_zpow] at e
        have ng : x.val ^ m < 0 := od.zpow_neg hs
        rw [abs_of_neg ng, val_neg, ← abs_neg]
        convert e using 2
        ring
  obtain ⟨r, er, e⟩ := A
  have x0 : x.val ≠ 0 := by intro hc; rw [hc, abs_zero] at h; norm_num at h
  have lx : Real.log |(x.val : ℝ)| = Real.log x.val := Real.log_abs _
  have ex : |(x.val : ℝ)| ^ m = Real.exp ((m : ℝ) * Real.log x.val) := by
    rw [← lx, mul_comm, ← Real.rpow_def_of_pos (abs_pos.2 (by exact_mod_cast x0)), Real.rpow_intCast]
  have hl' := abs_le.1 hl
  have b1 := Real.log_two_gt_d9
  have u : |x.val ^ m| ≤ 2 ^ 127 := by
    have : ((|x.val ^ m| : ℚ) : ℝ) ≤ ((2 ^ 127 : ℚ) : ℝ) := by
      push_cast
      rw [abs_zpow, ex, ← Real.exp_log (show (0 : ℝ) < 2 ^ 127 by positivity), Real.log_pow]
      refine Real.exp_le_exp.2 (hl'.2.trans ?_)
      push_cast
      norm_num at b1 ⊢
      linarith
    exact_mod_cast this
  have l : 1 / 2 ^ 125 ≤ |x.val ^ m| := by
    have : ((1 / 2 ^ 125 : ℚ) : ℝ) ≤ ((|x.val ^ m| : ℚ) : ℝ) := by
      push_cast
      rw [abs_zpow, ex, ← Real.exp_log (show (0 : ℝ) < 1 / 2 ^ 125 by positivity), one_div, Real.log_inv, Real.log_pow]
      refine Real.exp_le_exp.2 (le_trans ?_ hl'.1)
      push_cast
      norm_num at b1 ⊢
      linarith
    exact_mod_cast this
  obtain ⟨s, es, -, e2⟩ := C24_powi hx (by linarith) m0 (lt_of_le_of_lt hm (by norm_num)) l u
  refine ⟨r, s, er, es, ?_⟩
  have k : ((1 + 1 / 2 ^ 24 : ℚ)) ^ (2 * m.natAbs) - 1 ≤ 0.000001 * |(m : ℚ)| := by
    have km : ((m.natAbs : ℕ) : ℚ) = |(m : ℚ)| := by
      rw [← Int.cast_abs, ← Int.natCast_natAbs]; rfl
    have hk : m.natAbs ≤ 100 := by
      have : ((m.natAbs : ℕ) : ℤ) ≤ 100 := by rw [Int.natCast_natAbs]; exact hm
      exact_mod_cast this
    rw [← km]
    generalize m.natAbs = k at *
    have : ∀ j : ℕ, j ≤ 100 → ((1 + 1 / 2 ^ 24 : ℚ)) ^ (2 * j) ≤ 1 + 0.000001 * j := by
      intro j
      induction j with
      | zero => intro _; norm_num
      | succ j ih =>
        intro hj
        have := ih (by omega)
        have hj' : (j : ℚ) ≤ 100 := by exact_mod_cast (by omega : j ≤ 100)
        have j0 : (0 : ℚ) ≤ j := Nat.cast_nonneg _
        rw [show 2 * (j + 1) = 2 * j + 2 by ring, pow_add]
        refine (mul_le_mul_of_nonneg_right this (by positivity)).trans ?_
        push_cast
        norm_num
        linarith
    linarith [this k hk]
  have X0 := abs_nonneg (x.val ^ m)
  have N0 := abs_nonneg (m : ℚ)
  have k2 := mul_le_mul_of_nonneg_right k X0
  generalize ((1 + 1 / 2 ^ 24 : ℚ)) ^ (2 * m.natAbs) = K at *
  have e3 : |r.val - s.val| ≤ |r.val - x.val ^ m| + |s.val - x.val ^ m| := by
    rw [show r.val - s.val = (r.val - x.val ^ m) - (s.val - x.val ^ m) by ring]
    exact abs_sub _ _
  have NX := mul_nonneg N0 X0
  generalize |x.val ^ m| = X at *
  generalize |(m : ℚ)| = N at *
  norm_num at e e2 e3 k2 ⊢
  linarith

/-- A base raised to an approximate logarithm: the shared bound. -/
theorem powf_logb {b l x : F32} {B : ℝ} (hb : b.isFinite = true) (b1 : 1 ≤ b.val) (hB : (b.val : ℝ) = B) (lB0 : 0 < Real.log B)
    (hl : l.isFinite = true) (h : 1 ≤ x.val) (hu : x.val ≤ 2 ^ 125) {d : ℝ} (hd : |(l.val : ℝ) - Real.logb B x.val| * Real.log B ≤ d)
    (d1 : d ≤ 0.0001) (hl1 : |l.val| ≤ 128) :
    ∃ r, b.powf l = .ok r ∧ r.isFinite = true ∧
      |(r.val : ℝ) - x.val| ≤ (0.0031 + 0.0001 * |(l.val : ℝ)| + 0.000102) * x.val := by
  have h1 : (1 : ℝ) ≤ x.val := by exact_mod_cast h
  have h2 : (x.val : ℝ) ≤ 2 ^ 125 := by
    have c := (Rat.cast_le (K := ℝ)).2 hu
    push_cast at c
    exact c
  have h3 := Real.log_le_log (by linarith) h2
  rw [Real.log_pow] at h3
  have b2 := Real.log_two_lt_d9
  have h0 := Real.log_nonneg h1
  push_cast at h3
  obtain ⟨t, ht⟩ : ∃ t, t = ((l.val : ℝ) - Real.logb B x.val) * Real.log B := ⟨_, rfl⟩
  have t1 : |t| ≤ 0.0001 := by rw [ht, abs_mul, abs_of_pos lB0]; exact hd.trans d1
  have e1 : (l.val : ℝ) * Real.log B = Real.log x.val + t := by
    rw [ht, sub_mul, Real.logb, div_mul_cancel₀ _ lB0.ne']; ring
  have t2 := abs_le.1 t1
  obtain ⟨r, er, fr, e⟩ := powf_near (x := b) hb b1 hl hl1 (by
    rw [hB, e1, abs_le]
    norm_num at h3 b2 t2 ⊢
    constructor <;> linarith [t2.1, t2.2])
  refine ⟨r, er, fr, ?_⟩
  have B0 : 0 < B := by rw [← hB]; exact_mod_cast lt_of_lt_of_le one_pos b1
  have ex : (b.val : ℝ) ^ (l.val : ℝ) = x.val * Real.exp t := by
    rw [hB, Real.rpow_def_of_pos B0, mul_comm, e1, Real.exp_add, Real.exp_log (by linarith)]
  rw [ex] at e
  obtain ⟨D1, D2⟩ := exp_bounds (t := t) (t1.trans (by norm_num))
  have tt : t ^ 2 ≤ 0.0001 ^ 2 := by rw [← sq_abs]; exact pow_le_pow_left₀ (abs_nonneg _) t1 2
  have m1 : |(l.val : ℝ)| ≤ 128 := by
    have := (Rat.cast_le (K := ℝ)).2 hl1
    push_cast at this
    exact this
  have m0 := abs_nonneg (l.val : ℝ)
  generalize |(l.val : ℝ)| = N at *
  have E1 : |Real.exp t - 1| ≤ 0.0001001 := by
    rw [abs_le]; norm_num at t2 tt D1 D2 ⊢; constructor <;> linarith [t2.1, t2.2]
  have E2 : Real.exp t ≤ 1.0001001 := by have := (abs_le.1 E1).2; norm_num at this ⊢; linarith
  have X0 : (0 : ℝ) < x.val := by linarith
  generalize Real.exp t = D at *
  generalize (x.val : ℝ) = X at *
  have e2 : |(r.val : ℝ) - X| ≤ |(r.val : ℝ) - X * D| + X * |D - 1| := by
    rw [show (r.val : ℝ) - X = (r.val - X * D) + X * (D - 1) by ring]
    refine (abs_add_le _ _).trans (le_of_eq ?_)
    rw [abs_mul, abs_of_pos X0]
  have e3 : X * |D - 1| ≤ X * 0.0001001 := mul_le_mul_of_nonneg_left E1 X0.le
  have c0 : 0 ≤ 0.0031 + 0.00009 * N := by positivity
  have e4 : (0.0031 + 0.00009 * N) * (X * D) ≤ (0.0031 + 0.00009 * N) * (X * 1.0001001) :=
    mul_le_mul_of_nonneg_left (mul_le_mul_of_nonneg_left E2 X0.le) c0
  have NX : 0 ≤ N * X := by positivity
  norm_num at e e2 e3 e4 ⊢
  linarith

/-- **C138, `powf(2, log2(x))`.** Raising two to the base two logarithm gives back `x` within 1.6%, for `1 <= x <= 2^125`. -/
theorem C138_log2 {x b : F32} (hx : x.isFinite = true) (h : 1 ≤ x.val) (hu : x.val ≤ 2 ^ 125) (hb : IsVal b 2) :
    ∃ r, b.powf x.log2 = .ok r ∧ |r.val - x.val| ≤ 0.016 * x.val := by
  obtain ⟨fl, el⟩ := C32_log2 x hx h
  have g1 := Real.log_two_gt_d9
  have g2 := Real.log_two_lt_d9
  have G2 := g2.le
  have h1 : (1 : ℝ) ≤ x.val := by exact_mod_cast h
  have h2 : (x.val : ℝ) ≤ 2 ^ 125 := by
    have c := (Rat.cast_le (K := ℝ)).2 hu
    push_cast at c
    exact c
  have h3 : Real.logb 2 x.val ≤ 125 := by
    rw [Real.logb_le_iff_le_rpow (by norm_num) (by linarith)]
    exact_mod_cast h2
  have h4 : 0 ≤ Real.logb 2 x.val := Real.logb_nonneg (by norm_num) h1
  have e' := abs_le.1 el
  norm_num at e'
  have lr : |(x.log2.val : ℝ)| ≤ 126 := by rw [abs_le]; constructor <;> linarith [e'.1, e'.2]
  have lq : |x.log2.val| ≤ 128 := by
    have : ((|x.log2.val| : ℚ) : ℝ) ≤ ((128 : ℚ) : ℝ) := by push_cast; linarith
    exact_mod_cast this
  obtain ⟨r, er, -, e⟩ := powf_logb (b := b) (l := x.log2) (x := x) (B := 2) (d := 0.0001) hb.1 (by rw [hb.2]; norm_num)
    (by rw [hb.2]; norm_num) (by norm_num at g1; linarith) fl h hu (by
      refine (mul_le_mul el G2 (by norm_num at g1; linarith) (by norm_num)).trans (by norm_num)) le_rfl lq
  refine ⟨r, er, ?_⟩
  have : ((|r.val - x.val| : ℚ) : ℝ) ≤ ((0.016 * x.val : ℚ) : ℝ) := by
    push_cast
    refine e.trans ?_
    have : (0.0031 + 0.0001 * |(x.log2.val : ℝ)| + 0.000102) ≤ 0.016 := by norm_num; linarith
    refine (mul_le_mul_of_nonneg_right this (by linarith)).trans (le_of_eq (by norm_num))
  exact_mod_cast this

/-- **C138, `powf(10, log10(x))`.** Raising ten to the base ten logarithm gives back `x` within 0.71%, for `1 <= x <= 2^125`. -/
theorem C138_log10 {x b : F32} (hx : x.isFinite = true) (h : 1 ≤ x.val) (hu : x.val ≤ 2 ^ 125) (hb : IsVal b 10) :
    ∃ r, b.powf x.log10 = .ok r ∧ |r.val - x.val| ≤ 0.0071 * x.val := by
  obtain ⟨fl, el⟩ := C32_log10 x hx h
  obtain ⟨g1, G2⟩ := log_ten_bounds
  have h1 : (1 : ℝ) ≤ x.val := by exact_mod_cast h
  have h2 : (x.val : ℝ) ≤ 2 ^ 125 := by
    have c := (Rat.cast_le (K := ℝ)).2 hu
    push_cast at c
    exact c
  have h3 : Real.logb 10 x.val ≤ 38 := by
    rw [Real.logb_le_iff_le_rpow (by norm_num) (by linarith)]
    refine h2.trans ?_
    have : (10 : ℝ) ^ (38 : ℝ) = 10 ^ 38 := by exact_mod_cast Real.rpow_natCast 10 38
    rw [this]
    norm_num
  have h4 : 0 ≤ Real.logb 10 x.val := Real.logb_nonneg (by norm_num) h1
  have e' := abs_le.1 el
  norm_num at e'
  have lr : |(x.log10.val : ℝ)| ≤ 38.1 := by rw [abs_le]; norm_num; constructor <;> linarith [e'.1, e'.2]
  have lq : |x.log10.val| ≤ 128 := by
    have : ((|x.log10.val| : ℚ) : ℝ) ≤ ((128 : ℚ) : ℝ) := by push_cast; norm_num at lr; linarith
    exact_mod_cast this
  obtain ⟨r, er, -, e⟩ := powf_logb (b := b) (l := x.log10) (x := x) (B := 10) (d := 0.0001) hb.1 (by rw [hb.2]; norm_num)
    (by rw [hb.2]; norm_num) (by norm_num at g1; linarith) fl h hu (by
      refine (mul_le_mul el G2 (by norm_num at g1; linarith) (by norm_num)).trans (by norm_num)) le_rfl lq
  refine ⟨r, er, ?_⟩
  have : ((|r.val - x.val| : ℚ) : ℝ) ≤ ((0.0071 * x.val : ℚ) : ℝ) := by
    push_cast
    refine e.trans ?_
    have : (0.0031 + 0.0001 * |(x.log10.val : ℝ)| + 0.000102) ≤ 0.0071 := by norm_num at lr ⊢; linarith
    refine (mul_le_mul_of_nonneg_right this (by linarith)).trans (le_of_eq (by norm_num))
  exact_mod_cast this

/-! ### computed powers -/

theorem powf_3_2 : powf ⟨0x40400000#32⟩ ⟨0x40000000#32⟩ = .ok ⟨0x410ffebf#32⟩ := by
  refine eq_of_okBits ?_
  rename_i i
  obtain ⟨oc, da, nop, hn, nc, hc, sz, hs⟩ := i
  cases da <;> kernel_rfl

theorem powf_3_3 : powf ⟨0x40400000#32⟩ ⟨0x40400000#32⟩ = .ok ⟨0x41d7f17a#32⟩ := by
  refine eq_of_okBits ?_
  rename_i i
  obtain ⟨oc, da, nop, hn, nc, hc, sz, hs⟩ := i
  cases da <;> kernel_rfl

theorem powf_3_5 : powf ⟨0x40400000#32⟩ ⟨0x40a00000#32⟩ = .ok ⟨0x4372d9be#32⟩ := by
  refine eq_of_okBits ?_
  rename_i i
  obtain ⟨oc, da, nop, hn, nc, hc, sz, hs⟩ := i
  cases da <;> kernel_rfl

theorem powf_m3_3 : powf ⟨0xc0400000#32⟩ ⟨0x40400000#32⟩ = .ok ⟨0xc1d7f17a#32⟩ := by
  refine eq_of_okBits ?_
  rename_i i
  obtain ⟨oc, da, nop, hn, nc, hc, sz, hs⟩ := i
  cases da <;> kernel_rfl

theorem powf_2_log : powf ⟨0x40000000#32⟩ (log2 ⟨0x41200000#32⟩) = .ok ⟨0x412009de#32⟩ := by
  refine eq_of_okBits ?_
  rename_i i
  obtain ⟨oc, da, nop, hn, nc, hc, sz, hs⟩ := i
  cases da <;> kernel_rfl

/-- **C138, none of the laws is exact.** `powf(3, 2)` is not 9; `powf(3, 2) * powf(3, 3)`, computed in `f32`, is not `powf(3, 5)`;
`powf(-3, 3)` is not `powi(-3, 3) = -27`; `powf(2, log2(10))` is not 10. -/
theorem C138_false : powf ⟨0x40400000#32⟩ ⟨0x40000000#32⟩ ≠ .ok ⟨0x41100000#32⟩ ∧
    (∃ p q, powf ⟨0x40400000#32⟩ ⟨0x40000000#32⟩ = .ok p ∧ powf ⟨0x40400000#32⟩ ⟨0x40400000#32⟩ = .ok q ∧
      powf ⟨0x40400000#32⟩ ⟨0x40a00000#32⟩ ≠ .ok (p * q)) ∧
    powf ⟨0xc0400000#32⟩ ⟨0x40400000#32⟩ ≠ powi ⟨0xc0400000#32⟩ 3 ∧
    powf ⟨0x40000000#32⟩ (log2 ⟨0x41200000#32⟩) ≠ .ok ⟨0x41200000#32⟩ := by
  have e : powi ⟨0xc0400000#32⟩ 3 = .ok ⟨0xc1d80000#32⟩ := by
    refine eq_of_okBits ?_
    rename_i i
    obtain ⟨oc, da, nop, hn, nc, hc, sz, hs⟩ := i
    cases oc <;> kernel_rfl
  refine ⟨?_, ⟨_, _, powf_3_2, powf_3_3, ?_⟩, ?_, ?_⟩
  · rw [powf_3_2]
    intro hc
    injection hc with hc
    injection hc with hc
    exact absurd hc (by decide)
  · have m : (⟨0x410ffebf#32⟩ * ⟨0x41d7f17a#32⟩ : F32) = ⟨0x4372ed8c#32⟩ := eval_eq (by kernel_rfl)
    rw [powf_3_5, m]
    intro hc
    injection hc with hc
    injection hc with hc
    exact absurd hc (by decide)
  · rw [powf_m3_3, e]
    intro hc
    injection hc with hc
    injection hc with hc
    exact absurd hc (by decide)
  · rw [powf_2_log]
    intro hc
    injection hc with hc
    injection hc with hc
    exact absurd hc (by decide)

/-- **C138, a case.** Base 3: the hypotheses of the laws are met, and `powf(3, 2) * powf(3, 3)` is within 0.94% of `powf(3, 5)`. -/
theorem C138_case : ∃ p q r, powf ⟨0x40400000#32⟩ ⟨0x40000000#32⟩ = .ok p ∧ powf ⟨0x40400000#32⟩ ⟨0x40400000#32⟩ = .ok q ∧
    powf ⟨0x40400000#32⟩ ⟨0x40a00000#32⟩ = .ok r ∧ |r.val - p.val * q.val| ≤ 0.0094 * (p.val * q.val) := by
  have v3 : (⟨0x40400000#32⟩ : F32).val = 3 := by rw [val_of_units (u := 3 * 2 ^ 149) (by decide)]; norm_num
  have v2 : (⟨0x40000000#32⟩ : F32).val = 2 := by rw [val_of_units (u := 2 * 2 ^ 149) (by decide)]; norm_num
  have v5 : (⟨0x40a00000#32⟩ : F32).val = 5 := by rw [val_of_units (u := 5 * 2 ^ 149) (by decide)]; norm_num
  have el := abs_le.1 (C29_ln ⟨0x40400000#32⟩ (by decide) (by rw [v3]; norm_num)).2
  have l0 : 0 ≤ Real.log 3 := Real.log_nonneg (by norm_num)
  have l3 : Real.log 3 ≤ 2 := by have := Real.log_le_sub_one_of_pos (show (0 : ℝ) < 3 by norm_num); norm_num at this; exact this
  rw [v3] at el
  push_cast at el
  norm_num at el
  have L0 : -1 ≤ (⟨0x40400000#32⟩ : F32).ln.val := by
    have : ((-1 : ℚ) : ℝ) ≤ ((⟨0x40400000#32⟩ : F32).ln.val : ℝ) := by push_cast; linarith [el.1]
    exact_mod_cast this
  have L1 : (⟨0x40400000#32⟩ : F32).ln.val ≤ 3 := by
    have : ((⟨0x40400000#32⟩ : F32).ln.val : ℝ) ≤ ((3 : ℚ) : ℝ) := by push_cast; linarith [el.2]
    exact_mod_cast this
  refine C138_add (by decide) (by rw [v3]; norm_num) (by decide) (by decide) ⟨by decide, by rw [v5, v2, v3]; norm_num⟩ ?_ ?_ ?_ ?_ ?_ ?_
  all_goals first | rw [v2] | (rw [v5]) | (rw [v3])
  all_goals (norm_num; linarith)

end Micromath.Props
