import Verif.Props.RoundTrip
import Verif.Props.AxisAngle
import Verif.Props.QuatComp

/-!
# C123, C124: functional equations of `exp`, `ln`, `cos`, `sin`; turns about one axis add up
-/

set_option exponentiation.threshold 1000

namespace Micromath.Props
open F32 Spec RealAux

variable [Cfg]

/-- **C123.** `exp(x + y)` is within `0.92%` of `exp(x) exp(y)` where all three are in the working range of `exp`. The sum
is the one of `f32`. -/
theorem C123_exp_add {x y : F32} (hx : x.isFinite = true) (hy : y.isFinite = true)
    (x1 : -87.3 ≤ x.val) (x2 : x.val ≤ 88.7) (y1 : -87.3 ≤ y.val) (y2 : y.val ≤ 88.7)
    (s1 : -87.29 ≤ x.val + y.val) (s2 : x.val + y.val ≤ 88.69) :
    ∃ a b r, x.exp = .ok a ∧ y.exp = .ok b ∧ (x + y).exp = .ok r ∧
      |r.val - a.val * b.val| ≤ 0.0092 * (a.val * b.val) := by
  obtain ⟨a, ea, -, ha⟩ := C28_exp x hx x1 x2
  obtain ⟨b, eb, -, hb⟩ := C28_exp y hy y1 y2
  norm_num at s1 s2
  obtain ⟨d, hd, fs, vs⟩ := add_err hx hy 7 (by norm_num) (by norm_num) (by
    rw [abs_le]; norm_num; constructor <;> linarith)
  replace hd : |d| ≤ 1 / 2 ^ 18 := hd.trans (by norm_num)
  have hd' := abs_le.1 hd
  norm_num at hd'
  obtain ⟨r, er, -, hr⟩ := C28_exp (x + y) fs (by rw [vs]; norm_num; linarith [hd'.1]) (by rw [vs]; norm_num; linarith [hd'.2])
  refine ⟨a, b, r, ea, eb, er, ?_⟩
  suffices h : |(r.val : ℝ) - a.val * b.val| ≤ 0.0092 * (a.val * b.val) by
    have : ((|r.val - a.val * b.val| : ℚ) : ℝ) ≤ ((0.0092 * (a.val * b.val) : ℚ) : ℝ) := by
      push_cast; refine h.trans (by norm_num)
    exact_mod_cast this
  have hdr := abs_cast_le hd
  push_cast at hdr
  have e1 : Real.exp ((x + y).val : ℚ) = Real.exp x.val * Real.exp y.val * Real.exp d := by
    rw [vs]; push_cast; rw [Real.exp_add, Real.exp_add]
  rw [e1] at hr
  have hds := abs_le.1 (Real.abs_exp_sub_one_le (x := (d : ℝ)) (hdr.trans (by norm_num)))
  have hdd : |(d : ℝ)| ≤ 1 / 262144 := hdr.trans (by norm_num)
  have ha' := abs_le.1 ha
  have hb' := abs_le.1 hb
  have hr' := abs_le.1 hr
  have X0 := Real.exp_pos (x.val : ℝ)
  have Y0 := Real.exp_pos (y.val : ℝ)
  have P0 := mul_pos X0 Y0
  generalize Real.exp (x.val : ℝ) = X at *
  generalize Real.exp (y.val : ℝ) = Y at *
  generalize Real.exp (d : ℝ) = D at *
  generalize (a.val : ℝ) = A at *
  generalize (b.val : ℝ) = B at *
  generalize (r.val : ℝ) = R at *
  norm_num at ha' hb' hr'
  have D1 : 1 - 1 / 131072 ≤ D := by linarith [hds.1]
  have D2 : D ≤ 1 + 1 / 131072 := by linarith [hds.2]
  have A1 : 0.997 * X ≤ A := by norm_num; linarith [ha'.1]
  have A2 : A ≤ 1.003 * X := by norm_num; linarith [ha'.2]
  have B1 : 0.997 * Y ≤ B := by norm_num; linarith [hb'.1]
  have B2 : B ≤ 1.003 * Y := by norm_num; linarith [hb'.2]
  have AB1 : 0.997 ^ 2 * (X * Y) ≤ A * B := by
    calc 0.997 ^ 2 * (X * Y) = (0.997 * X) * (0.997 * Y) := by ring
      _ ≤ A * B := mul_le_mul A1 B1 (by positivity) (le_trans (by positivity) A1)
  have AB2 : A * B ≤ 1.003 ^ 2 * (X * Y) := by
    calc A * B ≤ (1.003 * X) * (1.003 * Y) := mul_le_mul A2 B2 (le_trans (by positivity) B1) (by positivity)
      _ = _ := by ring
  have Q1 := mul_le_mul_of_nonneg_left D1 P0.le
  have Q2 := mul_le_mul_of_nonneg_left D2 P0.le
  generalize X * Y = P at *
  generalize A * B = Q at *
  rw [abs_le]
  norm_num at AB1 AB2 ⊢
  constructor <;> linarith [hr'.1, hr'.2]

/-- `2.0` and `-3.0` meet the hypotheses. -/
example : (-87.29 : ℚ) ≤ (ofInt 2).val + (ofInt (-3)).val ∧ (ofInt 2).val + (ofInt (-3)).val ≤ 88.69 := by
  rw [(ofInt_isVal (n := 2) (by decide)).2, (ofInt_isVal (n := -3) (by decide)).2]; norm_num

/-- **C123.** `exp(x) exp(-x)` is within `0.61%` of 1 for `|x| <= 87.3`. -/
theorem C123_exp_neg {x : F32} (hx : x.isFinite = true) (h : |x.val| ≤ 87.3) :
    ∃ a b, x.exp = .ok a ∧ (-x).exp = .ok b ∧ |a.val * b.val - 1| ≤ 0.0061 := by
  have h' := abs_le.1 h
  norm_num at h'
  obtain ⟨a, ea, -, ha⟩ := C28_exp x hx (by norm_num; linarith [h'.1]) (by norm_num; linarith [h'.2])
  obtain ⟨b, eb, -, hb⟩ := C28_exp (-x) (by rw [isFinite_neg]; exact hx) (by rw [val_neg]; norm_num; linarith [h'.2])
    (by rw [val_neg]; norm_num; linarith [h'.1])
  refine ⟨a, b, ea, eb, ?_⟩
  suffices h : |(a.val : ℝ) * b.val - 1| ≤ 0.0061 by
    have : ((|a.val * b.val - 1| : ℚ) : ℝ) ≤ ((0.0061 : ℚ) : ℝ) := by push_cast; refine h.trans (by norm_num)
    exact_mod_cast this
  have hxy : Real.exp (x.val : ℝ) * Real.exp ((-x).val : ℝ) = 1 := by
    rw [val_neg]; push_cast; rw [← Real.exp_add, add_neg_cancel, Real.exp_zero]
  have ha' := abs_le.1 ha
  have hb' := abs_le.1 hb
  have X0 := Real.exp_pos (x.val : ℝ)
  have Y0 := Real.exp_pos ((-x).val : ℝ)
  generalize Real.exp (x.val : ℝ) = X at *
  generalize Real.exp ((-x).val : ℝ) = Y at *
  generalize (a.val : ℝ) = A at *
  generalize (b.val : ℝ) = B at *
  norm_num at ha' hb'
  have A1 : 0.997 * X ≤ A := by norm_num; linarith [ha'.1]
  have A2 : A ≤ 1.003 * X := by norm_num; linarith [ha'.2]
  have B1 : 0.997 * Y ≤ B := by norm_num; linarith [hb'.1]
  have B2 : B ≤ 1.003 * Y := by norm_num; linarith [hb'.2]
  have AB1 : 0.997 ^ 2 * (X * Y) ≤ A * B := by
    calc 0.997 ^ 2 * (X * Y) = (0.997 * X) * (0.997 * Y) := by ring
      _ ≤ A * B := mul_le_mul A1 B1 (by positivity) (le_trans (by positivity) A1)
  have AB2 : A * B ≤ 1.003 ^ 2 * (X * Y) := by
    calc A * B ≤ (1.003 * X) * (1.003 * Y) := mul_le_mul A2 B2 (le_trans (by positivity) B1) (by positivity)
      _ = _ := by ring
  rw [hxy] at AB1 AB2
  rw [abs_le]
  norm_num at AB1 AB2 ⊢
  constructor <;> linarith

omit [Cfg] in
/-- The hypothesis of `C123_exp_neg` at 42. -/
example : (ofInt 42).isFinite = true ∧ |(ofInt 42).val| ≤ 87.3 := by
  rw [(ofInt_isVal (n := 42) (by decide)).2]; exact ⟨by decide, by norm_num⟩

/-- **C123.** `ln(x y)` is within `0.00025` of `ln(x) + ln(y)` for `x, y >= 1` whose product does not overflow. -/
theorem C123_ln_mul {x y : F32} (hx : x.isFinite = true) (hy : y.isFinite = true) (x1 : 1 ≤ x.val) (y1 : 1 ≤ y.val)
    (hp : (x * y).isFinite = true) :
    |(x * y).ln.val - (x.ln.val + y.ln.val)| ≤ 0.00025 := by
  have x0 : 0 < x.val := by linarith
  have y0 : 0 < y.val := by linarith
  have p1 : 1 ≤ x.val * y.val := by nlinarith
  have ho : |x.val * y.val| < ovf := by
    by_contra hc
    rw [mul_ovf hx hy (not_lt.1 hc), isFinite_iff, mag_pack _ infMag_lt] at hp
    omega
  obtain ⟨d, hd, -, vp⟩ := mul_rel hx hy (by rw [abs_of_pos (by linarith)]; exact le_trans (by norm_num) p1) ho
  have q1 : 1 ≤ (x * y).val := by
    rw [(mul_val hx hy ho).2]
    have := RN_mono p1
    have r1 : RN 1 = 1 := by rw [← val_one, RN_val]
    linarith
  obtain ⟨-, lx⟩ := C29_ln x hx x1
  obtain ⟨-, ly⟩ := C29_ln y hy y1
  obtain ⟨-, lp⟩ := C29_ln (x * y) hp q1
  suffices h : |((x * y).ln.val : ℝ) - (x.ln.val + y.ln.val)| ≤ 0.00025 by
    have : ((|(x * y).ln.val - (x.ln.val + y.ln.val)| : ℚ) : ℝ) ≤ ((0.00025 : ℚ) : ℝ) := by
      push_cast; refine h.trans (by norm_num)
    exact_mod_cast this
  have hdr := abs_cast_le hd
  push_cast at hdr
  have hdr' := abs_le.1 hdr
  norm_num at hdr'
  have x0r : (0 : ℝ) < x.val := by exact_mod_cast x0
  have y0r : (0 : ℝ) < y.val := by exact_mod_cast y0
  have e1 : Real.log ((x * y).val : ℚ) = Real.log x.val + Real.log y.val + Real.log (1 + d) := by
    rw [vp]; push_cast
    rw [Real.log_mul (by positivity) (by linarith [hdr'.1]), Real.log_mul x0r.ne' y0r.ne']
  rw [e1] at lp
  have l1 : Real.log (1 + d) ≤ d := by
    have := Real.log_le_sub_one_of_pos (x := 1 + (d : ℝ)) (by linarith [hdr'.1]); linarith
  have l2 : -(1 / 1000000) ≤ Real.log (1 + d) := by
    have := Real.one_sub_inv_le_log_of_pos (x := 1 + (d : ℝ)) (by linarith [hdr'.1])
    have h2 : (1 + (d : ℝ))⁻¹ ≤ 1 + 1 / 1000000 := by
      rw [inv_le_comm₀ (by linarith [hdr'.1]) (by norm_num)]
      refine le_trans ?_ (show (1 : ℝ) - 1 / 16777216 ≤ 1 + d by linarith [hdr'.1])
      norm_num
    linarith
  have lx' := abs_le.1 lx
  have ly' := abs_le.1 ly
  have lp' := abs_le.1 lp
  rw [abs_le]
  norm_num at lx' ly' lp' ⊢
  constructor <;> linarith [lx'.1, lx'.2, ly'.1, ly'.2, lp'.1, lp'.2, hdr'.2]

omit [Cfg] in
/-- The hypotheses of `C123_ln_mul` at 3 and 5. -/
example : 1 ≤ (ofInt 3).val ∧ 1 ≤ (ofInt 5).val := by
  rw [(ofInt_isVal (n := 3) (by decide)).2, (ofInt_isVal (n := 5) (by decide)).2]; norm_num

/-- The product of 3 and 5 is finite. -/
example : (ofInt 3 * ofInt 5).isFinite = true :=
  (mul_val (ofInt_isVal (n := 3) (by decide)).1 (ofInt_isVal (n := 5) (by decide)).1 (by
    rw [(ofInt_isVal (n := 3) (by decide)).2, (ofInt_isVal (n := 5) (by decide)).2, ovf]; norm_num)).1

omit [Cfg] in
/-- Error of a product of two approximations. -/
theorem prod_err {a b A B e : ℝ} (ha : |a - A| ≤ e) (hb : |b - B| ≤ e) (hA : |A| ≤ 1) (hB : |B| ≤ 1) :
    |a * b - A * B| ≤ 2 * e + e ^ 2 := by
  have e0 : 0 ≤ e := (abs_nonneg _).trans ha
  have : a * b - A * B = (a - A) * (b - B) + (a - A) * B + A * (b - B) := by ring
  rw [this]
  have h1 : |(a - A) * (b - B)| ≤ e * e := by rw [abs_mul]; exact mul_le_mul ha hb (abs_nonneg _) e0
  have h2 : |(a - A) * B| ≤ e * 1 := by rw [abs_mul]; exact mul_le_mul ha hB (abs_nonneg _) e0
  have h3 : |A * (b - B)| ≤ 1 * e := by rw [abs_mul]; exact mul_le_mul hA hb (abs_nonneg _) (by norm_num)
  have := abs_add_le ((a - A) * (b - B) + (a - A) * B) (A * (b - B))
  have := abs_add_le ((a - A) * (b - B)) ((a - A) * B)
  nlinarith

/-- **C123.** Addition theorems: for `|x|, |y| <= 2048` the results of `cos` and `sin` at the `f32` sum `x + y` are within
`0.0102` of `cos x cos y - sin x sin y` and `sin x cos y + cos x sin y`. -/
theorem C123_cos_sin_add {x y : F32} (hx : x.isFinite = true) (hy : y.isFinite = true) (bx : |x.val| ≤ 2048)
    (by' : |y.val| ≤ 2048) :
    |(x + y).cos.val - (x.cos.val * y.cos.val - x.sin.val * y.sin.val)| ≤ 0.0102 ∧
    |(x + y).sin.val - (x.sin.val * y.cos.val + x.cos.val * y.sin.val)| ≤ 0.0102 := by
  have bs : |x.val + y.val| ≤ 4096 := (abs_add_le _ _).trans (by linarith)
  obtain ⟨d, hd, fs, vs⟩ := add_err hx hy 12 (by norm_num) (by norm_num) (bs.trans (by norm_num))
  replace hd : |d| ≤ 1 / 2 ^ 13 := hd.trans (by norm_num)
  have bs' : |(x + y).val| ≤ 4096 := by
    rw [(add_val hx hy (lt_of_le_of_lt bs (by rw [ovf]; norm_num))).2]
    exact abs_RN_le_of_rep (by simpa using rep_int (m := 4096) (by decide)) bs
  obtain ⟨-, -, cx⟩ := C34_cos hx (bx.trans (by norm_num))
  obtain ⟨-, -, cy⟩ := C34_cos hy (by'.trans (by norm_num))
  obtain ⟨-, -, cs⟩ := C34_cos fs bs'
  obtain ⟨-, -, sx⟩ := C36_sin hx (bx.trans (by norm_num))
  obtain ⟨-, -, sy⟩ := C36_sin hy (by'.trans (by norm_num))
  obtain ⟨-, -, ss⟩ := C36_sin fs bs'
  have hdr := abs_cast_le hd
  push_cast at hdr
  have dist : ((x + y).val : ℝ) - (x.val + y.val) = d := by rw [vs]; push_cast; ring
  have lc : |Real.cos ((x + y).val : ℚ) - Real.cos (x.val + y.val)| ≤ 1 / 2 ^ 13 := by
    refine le_trans ?_ hdr
    rw [← dist]; exact Real.abs_cos_sub_cos_le _ _
  have ls : |Real.sin ((x + y).val : ℚ) - Real.sin (x.val + y.val)| ≤ 1 / 2 ^ 13 := by
    refine le_trans ?_ hdr
    rw [← dist]; exact Real.abs_sin_sub_sin_le _ _
  rw [Real.cos_add] at lc
  rw [Real.sin_add] at ls
  have p1 := abs_le.1 (prod_err cx cy (Real.abs_cos_le_one _) (Real.abs_cos_le_one _))
  have p2 := abs_le.1 (prod_err sx sy (Real.abs_sin_le_one _) (Real.abs_sin_le_one _))
  have p3 := abs_le.1 (prod_err sx cy (Real.abs_sin_le_one _) (Real.abs_cos_le_one _))
  have p4 := abs_le.1 (prod_err cx sy (Real.abs_cos_le_one _) (Real.abs_sin_le_one _))
  have lc' := abs_le.1 lc
  have ls' := abs_le.1 ls
  have cs' := abs_le.1 cs
  have ss' := abs_le.1 ss
  constructor
  · suffices h : |((x + y).cos.val : ℝ) - (x.cos.val * y.cos.val - x.sin.val * y.sin.val)| ≤ 0.0102 by
      have : ((|(x + y).cos.val - (x.cos.val * y.cos.val - x.sin.val * y.sin.val)| : ℚ) : ℝ) ≤ ((0.0102 : ℚ) : ℝ) := by
        push_cast; refine h.trans (by norm_num)
      exact_mod_cast this
    clear * - p1 p2 lc' cs'
    rw [abs_le]
    norm_num at p1 p2 lc' cs' ⊢
    constructor <;> linarith [p1.1, p1.2, p2.1, p2.2, lc'.1, lc'.2, cs'.1, cs'.2]
  · suffices h : |((x + y).sin.val : ℝ) - (x.sin.val * y.cos.val + x.cos.val * y.sin.val)| ≤ 0.0102 by
      have : ((|(x + y).sin.val - (x.sin.val * y.cos.val + x.cos.val * y.sin.val)| : ℚ) : ℝ) ≤ ((0.0102 : ℚ) : ℝ) := by
        push_cast; refine h.trans (by norm_num)
      exact_mod_cast this
    clear * - p3 p4 ls' ss'
    rw [abs_le]
    norm_num at p3 p4 ls' ss' ⊢
    constructor <;> linarith [p3.1, p3.2, p4.1, p4.2, ls'.1, ls'.2, ss'.1, ss'.2]

omit [Cfg] in
/-- The hypotheses of `C123_cos_sin_add` at 2000 and -7. -/
example : |(ofInt 2000).val| ≤ 2048 ∧ |(ofInt (-7)).val| ≤ 2048 := by
  rw [(ofInt_isVal (n := 2000) (by decide)).2, (ofInt_isVal (n := -7) (by decide)).2]; norm_num

/-- **C123.** `cos` and `sin` are even, odd, periodic and continuous up to `0.004`: for `|x|, |y| <= 4096` and any integer
`k`. -/
theorem C123_cos_sin_period {x y : F32} (hx : x.isFinite = true) (hy : y.isFinite = true) (bx : |x.val| ≤ 4096)
    (by' : |y.val| ≤ 4096) (k : ℤ) :
    |(x.cos.val : ℝ) - y.cos.val| ≤ 0.004 + |(x.val : ℝ) - y.val - k * (2 * Real.pi)| ∧
    |(x.sin.val : ℝ) - y.sin.val| ≤ 0.004 + |(x.val : ℝ) - y.val - k * (2 * Real.pi)| ∧
    |(x.cos.val : ℝ) - y.cos.val| ≤ 0.004 + |(x.val : ℝ) + y.val - k * (2 * Real.pi)| ∧
    |(x.sin.val : ℝ) + y.sin.val| ≤ 0.004 + |(x.val : ℝ) + y.val - k * (2 * Real.pi)| := by
  obtain ⟨-, -, cx⟩ := C34_cos hx bx
  obtain ⟨-, -, cy⟩ := C34_cos hy by'
  obtain ⟨-, -, sx⟩ := C36_sin hx bx
  obtain ⟨-, -, sy⟩ := C36_sin hy by'
  have a1 : |Real.cos x.val - Real.cos y.val| ≤ |(x.val : ℝ) - y.val - k * (2 * Real.pi)| := by
    have := Real.abs_cos_sub_cos_le (x.val : ℝ) (y.val + k * (2 * Real.pi))
    rwa [Real.cos_add_int_mul_two_pi, ← sub_sub] at this
  have a2 : |Real.sin x.val - Real.sin y.val| ≤ |(x.val : ℝ) - y.val - k * (2 * Real.pi)| := by
    have := Real.abs_sin_sub_sin_le (x.val : ℝ) (y.val + k * (2 * Real.pi))
    rwa [Real.sin_add_int_mul_two_pi, ← sub_sub] at this
  have a3 : |Real.cos x.val - Real.cos y.val| ≤ |(x.val : ℝ) + y.val - k * (2 * Real.pi)| := by
    have := Real.abs_cos_sub_cos_le (x.val : ℝ) (-y.val + k * (2 * Real.pi))
    rwa [Real.cos_add_int_mul_two_pi, Real.cos_neg, ← sub_sub, sub_neg_eq_add] at this
  have a4 : |Real.sin x.val + Real.sin y.val| ≤ |(x.val : ℝ) + y.val - k * (2 * Real.pi)| := by
    have := Real.abs_sin_sub_sin_le (x.val : ℝ) (-y.val + k * (2 * Real.pi))
    rwa [Real.sin_add_int_mul_two_pi, Real.sin_neg, ← sub_sub, sub_neg_eq_add, sub_neg_eq_add] at this
  have cx' := abs_le.1 cx
  have cy' := abs_le.1 cy
  have sx' := abs_le.1 sx
  have sy' := abs_le.1 sy
  have a1' := abs_le.1 a1
  have a2' := abs_le.1 a2
  have a3' := abs_le.1 a3
  have a4' := abs_le.1 a4
  norm_num at cx' cy' sx' sy'
  refine ⟨?_, ?_, ?_, ?_⟩ <;> rw [abs_le] <;> norm_num <;> constructor <;>
    linarith [cx'.1, cx'.2, cy'.1, cy'.2, sx'.1, sx'.2, sy'.1, sy'.2, a1'.1, a1'.2, a2'.1, a2'.2, a3'.1, a3'.2, a4'.1, a4'.2]

/-- At `x = y = 22` and `k = 7`: 22 is close to `7 * pi`, so `sin 22` is close to 0. -/
example : |((ofInt 22).sin.val : ℝ) + (ofInt 22).sin.val| ≤ 0.004 + |((ofInt 22).val : ℝ) + (ofInt 22).val - (7 : ℤ) * (2 * Real.pi)| := by
  have h := ofInt_isVal (n := 22) (by decide)
  exact (C123_cos_sin_period h.1 h.1 (by rw [h.2]; norm_num) (by rw [h.2]; norm_num) 7).2.2.2

/-! ### Turns about one axis -/

open _root_.Quaternion in
omit [Cfg] in
/-- Exact turns about one axis add up, up to the deviation of the axis from unit length. -/
theorem turnQ_mul {n1 n2 n3 s t δ : ℝ} (hn : n1 ^ 2 + n2 ^ 2 + n3 ^ 2 = 1 + δ) :
    ‖Geom.turnQ n1 n2 n3 s * Geom.turnQ n1 n2 n3 t - Geom.turnQ n1 n2 n3 (s + t)‖ ≤ |δ| := by
  have e : Geom.turnQ n1 n2 n3 s * Geom.turnQ n1 n2 n3 t - Geom.turnQ n1 n2 n3 (s + t) =
      ((-(δ * (Real.sin (s / 2) * Real.sin (t / 2))) : ℝ) : ℍ[ℝ]) := by
    have hc := Real.cos_add (s / 2) (t / 2)
    have hs := Real.sin_add (s / 2) (t / 2)
    rw [← add_div] at hc hs
    refine _root_.Quaternion.ext _ _ ?_ ?_ ?_ ?_
    · simp only [re_sub, re_mul, Geom.turnQ_re, Geom.turnQ_imI, Geom.turnQ_imJ, Geom.turnQ_imK, re_coe, hc]
      linear_combination (-(Real.sin (s / 2) * Real.sin (t / 2))) * hn
    · simp only [imI_sub, imI_mul, Geom.turnQ_re, Geom.turnQ_imI, Geom.turnQ_imJ, Geom.turnQ_imK, imI_coe, hs]
      ring
    · simp only [imJ_sub, imJ_mul, Geom.turnQ_re, Geom.turnQ_imI, Geom.turnQ_imJ, Geom.turnQ_imK, imJ_coe, hs]
      ring
    · simp only [imK_sub, imK_mul, Geom.turnQ_re, Geom.turnQ_imI, Geom.turnQ_imJ, Geom.turnQ_imK, imK_coe, hs]
      ring
  rw [e, norm_coe, Real.norm_eq_abs, abs_neg, abs_mul, abs_mul]
  have h1 : |Real.sin (s / 2)| * |Real.sin (t / 2)| ≤ 1 * 1 :=
    mul_le_mul (Real.abs_sin_le_one _) (Real.abs_sin_le_one _) (abs_nonneg _) (by norm_num)
  nlinarith [abs_nonneg δ]

omit [Cfg] in
/-- Close angles give close turns. -/
theorem turnQ_lip {n1 n2 n3 s t δ : ℝ} (hn : n1 ^ 2 + n2 ^ 2 + n3 ^ 2 = 1 + δ) (hδ : |δ| ≤ 1) :
    ‖Geom.turnQ n1 n2 n3 s - Geom.turnQ n1 n2 n3 t‖ ≤ |s - t| := by
  have hc := abs_le.1 (Real.abs_cos_sub_cos_le (s / 2) (t / 2))
  have h0 := abs_nonneg (s - t)
  have hc1 : (Real.cos (s / 2) - Real.cos (t / 2)) ^ 2 + (Real.sin (s / 2) - Real.sin (t / 2)) ^ 2 ≤ (s / 2 - t / 2) ^ 2 := by
    have e : (Real.cos (s / 2) - Real.cos (t / 2)) ^ 2 + (Real.sin (s / 2) - Real.sin (t / 2)) ^ 2
        = 2 - 2 * Real.cos (s / 2 - t / 2) := by
      rw [Real.cos_sub]
      have := Real.sin_sq_add_cos_sq (s / 2)
      have := Real.sin_sq_add_cos_sq (t / 2)
      linarith
    rw [e]
    have := Real.one_sub_sq_div_two_le_cos (x := s / 2 - t / 2)
    linarith
  have h2 : ‖Geom.turnQ n1 n2 n3 s - Geom.turnQ n1 n2 n3 t‖ ^ 2 ≤ |s - t| ^ 2 := by
    rw [Geom.norm_sq_eq, _root_.Quaternion.re_sub, _root_.Quaternion.imI_sub, _root_.Quaternion.imJ_sub,
      _root_.Quaternion.imK_sub, Geom.turnQ_re, Geom.turnQ_imI, Geom.turnQ_imJ, Geom.turnQ_imK,
      Geom.turnQ_re, Geom.turnQ_imI, Geom.turnQ_imJ, Geom.turnQ_imK, sq_abs]
    have e : (n1 * Real.sin (s / 2) - n1 * Real.sin (t / 2)) ^ 2 + (n2 * Real.sin (s / 2) - n2 * Real.sin (t / 2)) ^ 2 +
        (n3 * Real.sin (s / 2) - n3 * Real.sin (t / 2)) ^ 2 = (1 + δ) * (Real.sin (s / 2) - Real.sin (t / 2)) ^ 2 := by
      rw [← hn]; ring
    have hd := (abs_le.1 hδ).2
    have q1 := sq_nonneg (Real.cos (s / 2) - Real.cos (t / 2))
    have q2 := sq_nonneg (Real.sin (s / 2) - Real.sin (t / 2))
    have q3 : (1 + δ) * (Real.sin (s / 2) - Real.sin (t / 2)) ^ 2 ≤ 2 * (Real.sin (s / 2) - Real.sin (t / 2)) ^ 2 :=
      mul_le_mul_of_nonneg_right (by linarith) q2
    nlinarith
  exact le_of_sq_le_sq h2 h0

/-- **C124.** Turns about one axis add up: for an axis of exact squared length `1 + delta`, `|delta| <= 0.001`, and angles
with `|s|, |t| <= 4096`, the product of `axis_angle(n, s)` and `axis_angle(n, t)` is within `0.0091 + |delta|` of
`axis_angle(n, s + t)`, where `s + t` is the `f32` sum. -/
theorem C124_axis_angle_add {n : Vector3d F32} {s t : F32} (hs : s.isFinite = true) (ht : t.isFinite = true)
    (bs : |s.val| ≤ 4096) (bt : |t.val| ≤ 4096)
    (fx : n.x.isFinite = true) (fy : n.y.isFinite = true) (fz : n.z.isFinite = true)
    {δ : ℝ} (hδ : δ = (n.x.val : ℝ) ^ 2 + (n.y.val : ℝ) ^ 2 + (n.z.val : ℝ) ^ 2 - 1)
    (hn : |n.x.val ^ 2 + n.y.val ^ 2 + n.z.val ^ 2 - 1| ≤ 1 / 1000) :
    QFinite ((Quaternion.axisAngle n s).mul (Quaternion.axisAngle n t)) ∧
    ‖qreal ((Quaternion.axisAngle n s).mul (Quaternion.axisAngle n t)) - qreal (Quaternion.axisAngle n (s + t))‖ ≤
      0.0091 + |δ| := by
  have bsum : |s.val + t.val| ≤ 8192 := (abs_add_le _ _).trans (by linarith)
  obtain ⟨d, hd, fst, vst⟩ := add_err hs ht 13 (by norm_num) (by norm_num) (bsum.trans (by norm_num))
  replace hd : |d| ≤ 1 / 2 ^ 12 := hd.trans (by norm_num)
  have hdr := abs_cast_le hd
  push_cast at hdr
  have bst : |(s + t).val| ≤ 8192 := by
    rw [(add_val hs ht (lt_of_le_of_lt bsum (by rw [ovf]; norm_num))).2]
    exact abs_RN_le_of_rep (by simpa using rep_int (m := 8192) (by decide)) bsum
  obtain ⟨f1, h1⟩ := C96_axis_angle hs (bs.trans (by norm_num)) fx fy fz hn
  obtain ⟨f2, h2⟩ := C96_axis_angle ht (bt.trans (by norm_num)) fx fy fz hn
  obtain ⟨f3, h3⟩ := C96_axis_angle fst bst fx fy fz hn
  have hnR := abs_cast_le hn
  push_cast at hnR
  rw [← hδ] at hnR
  have hnδ : (n.x.val : ℝ) ^ 2 + (n.y.val : ℝ) ^ 2 + (n.z.val : ℝ) ^ 2 = 1 + δ := by rw [hδ]; ring
  have t1 := Geom.turnQ_norm (t := (s.val : ℝ)) hnδ
  have t2 := Geom.turnQ_norm (t := (t.val : ℝ)) hnδ
  have tm := turnQ_mul (s := (s.val : ℝ)) (t := (t.val : ℝ)) hnδ
  have tl := turnQ_lip (s := (s.val : ℝ) + t.val) (t := ((s + t).val : ℝ)) hnδ (hnR.trans (by norm_num))
  have dist : ((s.val : ℝ) + t.val) - ((s + t).val : ℝ) = -d := by rw [vst]; push_cast; ring
  rw [dist, abs_neg] at tl
  have n1 : ‖qreal (Quaternion.axisAngle n s)‖ ≤ 1.00384 := by
    have := norm_le_norm_add_norm_sub' (qreal (Quaternion.axisAngle n s)) (Geom.turnQ n.x.val n.y.val n.z.val s.val)
    norm_num at this h1 hnR ⊢; linarith
  have n2 : ‖qreal (Quaternion.axisAngle n t)‖ ≤ 1.00384 := by
    have := norm_le_norm_add_norm_sub' (qreal (Quaternion.axisAngle n t)) (Geom.turnQ n.x.val n.y.val n.z.val t.val)
    norm_num at this h2 hnR ⊢; linarith
  have ql : ∀ q : Quaternion, ‖qreal q‖ ≤ 1.00384 → qlen q ≤ 1.1 := by
    intro q hq
    have e := (qreal_norm q).symm
    have : ((qlen q : ℚ) : ℝ) ≤ ((1.1 : ℚ) : ℝ) := by
      rw [e]
      calc ‖qreal q‖ ^ 2 ≤ 1.00384 ^ 2 := pow_le_pow_left₀ (norm_nonneg _) hq 2
        _ ≤ _ := by norm_num
    exact_mod_cast this
  obtain ⟨fm, hm⟩ := mul_near f1 f2 (ql _ n1) (ql _ n2)
  refine ⟨fm, ?_⟩
  generalize qreal ((Quaternion.axisAngle n s).mul (Quaternion.axisAngle n t)) = M at *
  generalize qreal (Quaternion.axisAngle n (s + t)) = R at *
  generalize qreal (Quaternion.axisAngle n s) = A at *
  generalize qreal (Quaternion.axisAngle n t) = B at *
  generalize Geom.turnQ n.x.val n.y.val n.z.val (s.val : ℝ) = S at *
  generalize Geom.turnQ n.x.val n.y.val n.z.val (t.val : ℝ) = T at *
  generalize Geom.turnQ n.x.val n.y.val n.z.val ((s + t).val : ℚ) = U at *
  generalize Geom.turnQ n.x.val n.y.val n.z.val ((s.val : ℝ) + t.val) = V at *
  have e : M - R = (M - A * B) + (A - S) * B + S * (B - T) + (S * T - V) + (V - U) - (R - U) := by noncomm_ring
  have q1 : ‖(A - S) * B‖ ≤ 0.00284 * 1.00384 := (norm_mul_le _ _).trans (mul_le_mul h1 n2 (norm_nonneg _) (by norm_num))
  have q2 : ‖S * (B - T)‖ ≤ (1 + |δ|) * 0.00284 :=
    (norm_mul_le _ _).trans (mul_le_mul t1 h2 (norm_nonneg _) (by linarith [abs_nonneg δ]))
  have key : ‖M - R‖ ≤ ‖M - A * B‖ + ‖(A - S) * B‖ + ‖S * (B - T)‖ + ‖S * T - V‖ + ‖V - U‖ + ‖R - U‖ := by
    rw [e]
    refine (norm_sub_le _ _).trans (add_le_add ?_ le_rfl)
    refine (norm_add_le _ _).trans (add_le_add ?_ le_rfl)
    refine (norm_add_le _ _).trans (add_le_add ?_ le_rfl)
    refine (norm_add_le _ _).trans (add_le_add ?_ le_rfl)
    exact norm_add_le _ _
  generalize ‖M - R‖ = k0 at *
  generalize ‖M - A * B‖ = k1 at *
  generalize ‖(A - S) * B‖ = k2 at *
  generalize ‖S * (B - T)‖ = k3 at *
  generalize ‖S * T - V‖ = k4 at *
  generalize ‖V - U‖ = k5 at *
  generalize ‖R - U‖ = k6 at *
  clear * - key q1 q2 hm tm tl hdr h3 hnR
  have tl' := tl.trans hdr
  norm_num at q1 q2 hm tl' h3 hnR ⊢
  nlinarith

omit [Cfg] in
/-- The hypotheses of `C124_axis_angle_add` at the axis `z` and the angles 100 and -3. -/
example : |(ofInt 100).val| ≤ 4096 ∧ |(ofInt (-3)).val| ≤ 4096 ∧
    |(ofInt 0).val ^ 2 + (ofInt 0).val ^ 2 + (ofInt 1).val ^ 2 - 1| ≤ 1 / 1000 := by
  rw [(ofInt_isVal (n := 100) (by decide)).2, (ofInt_isVal (n := -3) (by decide)).2, (ofInt_isVal (n := 0) (by decide)).2,
    (ofInt_isVal (n := 1) (by decide)).2]; norm_num

end Micromath.Props
