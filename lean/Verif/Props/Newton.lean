import Verif.Props.Roots
import Verif.Float.Err
import Verif.Props.Basics

/-!
# C164: refining `sqrt`, `invsqrt` and `inv` by Newton's method
-/

set_option exponentiation.threshold 1000

namespace Micromath.Props
open F32 Spec

variable [Cfg]

/-- `0.5`, `1.5` and `2.0`. -/
def halfF : F32 := ⟨0x3f000000#32⟩
@[inherit_doc halfF] def threeHalves : F32 := ⟨0x3fc00000#32⟩
@[inherit_doc halfF] def twoF : F32 := ⟨0x40000000#32⟩

/-- `(s + x / s) * 0.5`. -/
def heronStep (x s : F32) : F32 := (s + x / s) * halfF

/-- `y * (1.5 - 0.5 * x * y * y)`. -/
def refineInvsqrt (x y : F32) : F32 := y * (threeHalves - halfF * x * y * y)

/-- `y * (2.0 - x * y)`. -/
def refineInv (x y : F32) : F32 := y * (twoF - x * y)

omit [Cfg] in
theorem halfF_val : IsVal halfF (1 / 2) := ⟨by decide, by rw [val_of_units (u := 2 ^ 148) (by decide +kernel)]; norm_num⟩
omit [Cfg] in
theorem threeHalves_val : IsVal threeHalves (3 / 2) :=
  ⟨by decide, by rw [val_of_units (u := 3 * 2 ^ 148) (by decide +kernel)]; norm_num⟩
omit [Cfg] in
theorem twoF_val : IsVal twoF 2 := ⟨by decide, by rw [val_of_units (u := 2 ^ 150) (by decide +kernel)]; norm_num⟩

omit [Cfg] in
/-- Multiplying by `1 + d`. -/
theorem newton_near {a d B : ℝ} (hd : |d| ≤ 1 / 2 ^ 24) (ha : |a| ≤ B) : |a * (1 + d) - a| ≤ B / 2 ^ 24 := by
  rw [show a * (1 + d) - a = a * d by ring, abs_mul]
  have := mul_le_mul ha hd (abs_nonneg _) ((abs_nonneg _).trans ha)
  linarith

omit [Cfg] in
theorem newton_cast {d : ℚ} (h : |d| ≤ 1 / 2 ^ 24) : |(d : ℝ)| ≤ 1 / 2 ^ 24 := by
  have := (Rat.cast_le (K := ℝ)).2 h; push_cast at this; exact this

omit [Cfg] in
theorem heron_exact {r ε : ℝ} (h : |r - 1| ≤ ε) (e1 : ε ≤ 0.07) : |(r + 1 / r) / 2 - 1| ≤ 0.538 * ε ^ 2 := by
  obtain ⟨h1, h2⟩ := abs_le.1 h
  have r0 : 0.93 ≤ r := by linarith
  have rp : 0 < r := by linarith
  have e0 : 0 ≤ ε := (abs_nonneg _).trans h
  have sq : (r - 1) ^ 2 ≤ ε ^ 2 := by rw [← sq_abs (r - 1)]; exact pow_le_pow_left₀ (abs_nonneg _) h 2
  rw [show (r + 1 / r) / 2 - 1 = (r - 1) ^ 2 / (2 * r) by field_simp; ring, abs_of_nonneg (by positivity), div_le_iff₀ (by positivity)]
  have : 0.538 * ε ^ 2 * (2 * 0.93) ≤ 0.538 * ε ^ 2 * (2 * r) := by gcongr
  have := sq_nonneg ε
  linarith

/-- **C164.** One step of Heron's method from an `s` within `ε ≤ 0.07` of the root. -/
theorem C164_heron {x s : F32} {ε : ℝ} (hx : PosNormal x) (fs : s.isFinite = true) (e1 : ε ≤ 0.07)
    (h : |(s.val : ℝ) - √(x.val : ℝ)| ≤ ε * √(x.val : ℝ)) :
    (heronStep x s).isFinite = true ∧ |((heronStep x s).val : ℝ) - √(x.val : ℝ)| ≤ (0.538 * ε ^ 2 + 1.6 / 10 ^ 7) * √(x.val : ℝ) := by
  obtain ⟨fx, hx1⟩ := hx
  have hx2 := (abs_lt.1 (abs_val_lt_ovf fx)).2
  have x1 : (1 : ℝ) / 2 ^ 126 ≤ x.val := by have := (Rat.cast_le (K := ℝ)).2 hx1; push_cast at this; exact this
  have x2 : (x.val : ℝ) ≤ 2 ^ 128 := by
    have := (Rat.cast_lt (K := ℝ)).2 hx2; norm_num [ovf] at this ⊢; linarith
  have X0 : (0 : ℝ) < x.val := lt_of_lt_of_le (by positivity) x1
  set R := √(x.val : ℝ) with hR
  have RR : R * R = x.val := Real.mul_self_sqrt X0.le
  have R1 : (1 : ℝ) / 2 ^ 63 ≤ R := Real.le_sqrt_of_sq_le (by linarith)
  have R2 : R ≤ 2 ^ 64 := Real.sqrt_le_iff.2 ⟨by positivity, by linarith⟩
  have R0 : 0 < R := lt_of_lt_of_le (by positivity) R1
  obtain ⟨r, hr⟩ : ∃ r, (s.val : ℝ) = R * r := ⟨s.val / R, by field_simp⟩
  have hr1 : |r - 1| ≤ ε := by
    rw [hr, show R * r - R = (r - 1) * R by ring, abs_mul, abs_of_pos R0] at h
    exact le_of_mul_le_mul_right h R0
  have ex := heron_exact hr1 e1
  obtain ⟨l1, l2⟩ := abs_le.1 hr1
  have r1 : 0.93 ≤ r := by linarith
  have r2 : r ≤ 1.07 := by linarith
  have rp : 0 < r := by linarith
  have S0 : (0 : ℝ) < s.val := by rw [hr]; positivity
  have u1 : 1 / r ≤ 1.0753 := by rw [div_le_iff₀ rp]; linarith
  have u0 : 0.93 ≤ 1 / r := by rw [le_div_iff₀ rp]; linarith
  have q : ((x.val / s.val : ℚ) : ℝ) = R * (1 / r) := by push_cast; rw [hr, ← RR]; field_simp
  have q1 : 0.93 * R ≤ ((x.val / s.val : ℚ) : ℝ) := by rw [q, mul_comm]; gcongr
  have q2 : ((x.val / s.val : ℚ) : ℝ) ≤ 1.0753 * R := by rw [q, mul_comm]; gcongr
  have S0' : 0 < s.val := by exact_mod_cast S0
  have b1 : 1 / 2 ^ 126 ≤ x.val / s.val := by
    have : ((1 / 2 ^ 126 : ℚ) : ℝ) ≤ ((x.val / s.val : ℚ) : ℝ) := by refine le_trans ?_ q1; push_cast; linarith
    exact_mod_cast this
  have b2 : x.val / s.val ≤ 2 ^ 66 := by
    have : ((x.val / s.val : ℚ) : ℝ) ≤ ((2 ^ 66 : ℚ) : ℝ) := by refine q2.trans ?_; push_cast; linarith
    exact_mod_cast this
  have Q0 : 0 < x.val / s.val := lt_of_lt_of_le (by positivity) b1
  obtain ⟨d1, hd1, f1, v1⟩ := div_rel fx fs S0'.ne' (by rwa [abs_of_pos Q0]) (by
    rw [abs_of_pos Q0]; exact lt_of_le_of_lt b2 (by norm_num [ovf]))
  have D1 := newton_cast hd1
  have w1 : ((x / s).val : ℝ) = R * (1 / r * (1 + d1)) := by rw [v1, Rat.cast_mul, q]; push_cast; ring
  have n1 := newton_near D1 (show |1 / r| ≤ 1.0753 by rw [abs_of_pos (by positivity)]; exact u1)
  obtain ⟨m1, m2⟩ := abs_le.1 n1
  have sm : ((s.val + (x / s).val : ℚ) : ℝ) = R * (r + 1 / r * (1 + d1)) := by push_cast; rw [w1, hr]; ring
  set A := r + 1 / r * (1 + d1) with hA
  obtain ⟨g1, g2⟩ := abs_le.1 ex
  have ee : ε ^ 2 ≤ 0.0049 := by
    have e0 : 0 ≤ ε := (abs_nonneg _).trans hr1
    calc ε ^ 2 ≤ 0.07 ^ 2 := pow_le_pow_left₀ e0 e1 2
      _ = 0.0049 := by norm_num
  have A1 : 1.9 ≤ A := by linarith
  have A2 : A ≤ 2.006 := by linarith
  have c2 : s.val + (x / s).val ≤ 2 ^ 66 := by
    have : ((s.val + (x / s).val : ℚ) : ℝ) ≤ ((2 ^ 66 : ℚ) : ℝ) := by
      rw [sm]; have := mul_le_mul R2 A2 (by linarith) (by positivity); push_cast; linarith
    exact_mod_cast this
  have c1 : 1 / 2 ^ 63 ≤ s.val + (x / s).val := by
    have : ((1 / 2 ^ 63 : ℚ) : ℝ) ≤ ((s.val + (x / s).val : ℚ) : ℝ) := by
      rw [sm]; have := mul_le_mul R1 A1 (by norm_num) R0.le; push_cast; linarith
    exact_mod_cast this
  have C0 : 0 < s.val + (x / s).val := lt_of_lt_of_le (by positivity) c1
  obtain ⟨d2, hd2, f2, v2⟩ := add_rel fs f1 (by rw [abs_of_pos C0]; exact lt_of_le_of_lt c2 (by norm_num [ovf]))
  have D2 := newton_cast hd2
  have w2 : ((s + x / s).val : ℝ) = R * (A * (1 + d2)) := by rw [v2, Rat.cast_mul, sm]; push_cast; ring
  have n2 := newton_near D2 (show |A| ≤ 2.006 by rw [abs_of_pos (by linarith)]; exact A2)
  obtain ⟨m3, m4⟩ := abs_le.1 n2
  set B := A * (1 + d2) with hB
  have B1 : 1.8 ≤ B := by linarith
  have B2 : B ≤ 2.007 := by linarith
  have p1 : ((s + x / s).val * halfF.val : ℚ) = (s + x / s).val / 2 := by rw [halfF_val.2]; ring
  have hb : (((s + x / s).val / 2 : ℚ) : ℝ) = R * B / 2 := by push_cast; rw [w2]
  have k1 : 1 / 2 ^ 126 ≤ (s + x / s).val * halfF.val := by
    rw [p1]
    have : ((1 / 2 ^ 126 : ℚ) : ℝ) ≤ (((s + x / s).val / 2 : ℚ) : ℝ) := by
      rw [hb]; have := mul_le_mul R1 B1 (by norm_num) R0.le; push_cast; linarith
    exact_mod_cast this
  have k2 : (s + x / s).val * halfF.val ≤ 2 ^ 66 := by
    rw [p1]
    have : (((s + x / s).val / 2 : ℚ) : ℝ) ≤ ((2 ^ 66 : ℚ) : ℝ) := by
      rw [hb]; have := mul_le_mul R2 B2 (by linarith) (by positivity); push_cast; linarith
    exact_mod_cast this
  have K0 : 0 < (s + x / s).val * halfF.val := lt_of_lt_of_le (by positivity) k1
  obtain ⟨d3, hd3, f3, v3⟩ := mul_rel f2 halfF_val.1 (by rwa [abs_of_pos K0]) (by
    rw [abs_of_pos K0]; exact lt_of_le_of_lt k2 (by norm_num [ovf]))
  have D3 := newton_cast hd3
  refine ⟨f3, ?_⟩
  show |(((s + x / s) * halfF).val : ℝ) - R| ≤ _
  have w3 : (((s + x / s) * halfF).val : ℝ) = R * (B / 2 * (1 + d3)) := by
    rw [v3, p1, Rat.cast_mul, hb]; push_cast; ring
  have n3 := newton_near D3 (show |B / 2| ≤ 1.0035 by rw [abs_of_pos (by linarith)]; linarith)
  obtain ⟨m5, m6⟩ := abs_le.1 n3
  rw [w3, show R * (B / 2 * (1 + d3)) - R = (B / 2 * (1 + d3) - 1) * R by ring, abs_mul, abs_of_pos R0]
  refine mul_le_mul_of_nonneg_right (abs_le.2 ⟨?_, ?_⟩) R0.le <;>
  · linarith

/-- **C164.** `sqrt` refined: one step of Heron's method gives the root within `0.2` percent, two steps within `2.4e-6`, three
within `1.7e-7`. -/
theorem C164_sqrt {x : F32} (hx : PosNormal x) :
    |((heronStep x x.sqrt).val : ℝ) - √(x.val : ℝ)| ≤ 0.002 * √(x.val : ℝ) ∧
    |((heronStep x (heronStep x x.sqrt)).val : ℝ) - √(x.val : ℝ)| ≤ 2.4 / 10 ^ 6 * √(x.val : ℝ) ∧
    |((heronStep x (heronStep x (heronStep x x.sqrt))).val : ℝ) - √(x.val : ℝ)| ≤ 1.7 / 10 ^ 7 * √(x.val : ℝ) := by
  obtain ⟨f, -, -, -, l, u⟩ := C14_sqrt x hx
  have R0 := Real.sqrt_nonneg (x.val : ℝ)
  have weak : ∀ {a b c : ℝ}, |a| ≤ b * √(x.val : ℝ) → b ≤ c → |a| ≤ c * √(x.val : ℝ) :=
    fun h hb => h.trans (mul_le_mul_of_nonneg_right hb R0)
  have h0 : |(x.sqrt.val : ℝ) - √(x.val : ℝ)| ≤ 0.0607 * √(x.val : ℝ) := abs_le.2 ⟨by linarith, by linarith⟩
  obtain ⟨f1, h1⟩ := C164_heron hx f (by norm_num) h0
  have h1' := weak h1 (c := 0.002) (by norm_num)
  obtain ⟨f2, h2⟩ := C164_heron hx f1 (by norm_num) h1'
  have h2' := weak h2 (c := 2.4 / 10 ^ 6) (by norm_num)
  obtain ⟨f3, h3⟩ := C164_heron hx f2 (by norm_num) h2'
  exact ⟨h1', h2', weak h3 (by norm_num)⟩

omit [Cfg] in
theorem newton_inv_exact {r ε : ℝ} (h : |r - 1| ≤ ε) : |r * (2 - r) - 1| ≤ ε ^ 2 := by
  rw [show r * (2 - r) - 1 = -(r - 1) ^ 2 by ring, abs_neg, abs_of_nonneg (sq_nonneg _), ← sq_abs (r - 1)]
  exact pow_le_pow_left₀ (abs_nonneg _) h 2

/-- **C164.** One step of Newton's method from a `y` within `ε ≤ 0.13` of the inverse. -/
theorem C164_newton_inv {x y : F32} {ε : ℝ} (fx : x.isFinite = true) (x1 : 1 / 2 ^ 120 ≤ x.val) (x2 : x.val ≤ 2 ^ 120)
    (fy : y.isFinite = true) (e1 : ε ≤ 0.13) (h : |(x.val * y.val : ℝ) - 1| ≤ ε) :
    (refineInv x y).isFinite = true ∧ |(x.val * (refineInv x y).val : ℝ) - 1| ≤ ε ^ 2 + 2.2 / 10 ^ 7 := by
  have X0 : 0 < x.val := lt_of_lt_of_le (by positivity) x1
  have X0' : (0 : ℝ) < x.val := by exact_mod_cast X0
  have X1 : (1 : ℝ) / 2 ^ 120 ≤ x.val := by have := (Rat.cast_le (K := ℝ)).2 x1; push_cast at this; exact this
  have X2 : (x.val : ℝ) ≤ 2 ^ 120 := by have := (Rat.cast_le (K := ℝ)).2 x2; push_cast at this; exact this
  obtain ⟨r, hr⟩ : ∃ r : ℝ, r = x.val * y.val := ⟨_, rfl⟩
  rw [← hr] at h
  have ex := newton_inv_exact h
  have e0 : 0 ≤ ε := (abs_nonneg _).trans h
  obtain ⟨l1, l2⟩ := abs_le.1 h
  have r1 : 0.87 ≤ r := by linarith
  have r2 : r ≤ 1.13 := by linarith
  have q : ((x.val * y.val : ℚ) : ℝ) = r := by push_cast; exact hr.symm
  have b1 : (0.87 : ℚ) ≤ x.val * y.val := by
    have : ((0.87 : ℚ) : ℝ) ≤ ((x.val * y.val : ℚ) : ℝ) := by rw [q]; push_cast; linarith
    exact_mod_cast this
  have b2 : x.val * y.val ≤ (1.13 : ℚ) := by
    have : ((x.val * y.val : ℚ) : ℝ) ≤ ((1.13 : ℚ) : ℝ) := by rw [q]; push_cast; linarith
    exact_mod_cast this
  have Q0 : 0 < x.val * y.val := by linarith
  have Y0 : 0 < y.val := pos_of_mul_pos_right Q0 X0.le
  obtain ⟨d1, hd1, f1, v1⟩ := mul_rel fx fy (by rw [abs_of_pos Q0]; refine le_trans ?_ b1; norm_num)
    (by rw [abs_of_pos Q0]; refine lt_of_le_of_lt b2 ?_; norm_num [ovf])
  have D1 := newton_cast hd1
  have w1 : ((x * y).val : ℝ) = r * (1 + d1) := by rw [v1, Rat.cast_mul, q]; push_cast; ring
  have n1 := newton_near D1 (show |r| ≤ 1.13 by rw [abs_of_pos (by linarith)]; exact r2)
  obtain ⟨m1, m2⟩ := abs_le.1 n1
  set P := r * (1 + d1) with hP
  have sm : ((twoF.val - (x * y).val : ℚ) : ℝ) = 2 - P := by rw [Rat.cast_sub, w1, twoF_val.2]; norm_num
  have c1 : (0.86 : ℚ) ≤ twoF.val - (x * y).val := by
    have : ((0.86 : ℚ) : ℝ) ≤ ((twoF.val - (x * y).val : ℚ) : ℝ) := by rw [sm]; push_cast; linarith
    exact_mod_cast this
  have c2 : twoF.val - (x * y).val ≤ (1.14 : ℚ) := by
    have : ((twoF.val - (x * y).val : ℚ) : ℝ) ≤ ((1.14 : ℚ) : ℝ) := by rw [sm]; push_cast; linarith
    exact_mod_cast this
  obtain ⟨d2, hd2, f2, v2⟩ := sub_rel twoF_val.1 f1 (by
    rw [abs_of_pos (by linarith)]; refine lt_of_le_of_lt c2 ?_; norm_num [ovf])
  have D2 := newton_cast hd2
  have w2 : ((twoF - x * y).val : ℝ) = (2 - P) * (1 + d2) := by rw [v2, Rat.cast_mul, sm]; push_cast; ring
  have n2 := newton_near D2 (show |2 - P| ≤ 1.14 by rw [abs_le]; constructor <;> (linarith))
  obtain ⟨m3, m4⟩ := abs_le.1 n2
  set T := (2 - P) * (1 + d2) with hT
  have T1 : 0.8 ≤ T := by linarith
  have T2 : T ≤ 1.2 := by linarith
  have yv : (y.val : ℝ) = r / x.val := by rw [hr]; field_simp
  have g1 : (1 / 2 ^ 126 : ℚ) ≤ y.val * (twoF - x * y).val := by
    have : ((1 / 2 ^ 126 : ℚ) : ℝ) ≤ ((y.val * (twoF - x * y).val : ℚ) : ℝ) := by
      rw [Rat.cast_mul, w2, yv, div_mul_eq_mul_div, le_div_iff₀ X0']
      have := mul_le_mul r1 T1 (by norm_num) (by linarith)
      push_cast; linarith
    exact_mod_cast this
  have g2 : y.val * (twoF - x * y).val ≤ 2 ^ 122 := by
    have : ((y.val * (twoF - x * y).val : ℚ) : ℝ) ≤ ((2 ^ 122 : ℚ) : ℝ) := by
      rw [Rat.cast_mul, w2, yv, div_mul_eq_mul_div, div_le_iff₀ X0']
      have := mul_le_mul r2 T2 (by linarith) (by norm_num)
      push_cast; linarith
    exact_mod_cast this
  have G0 : 0 < y.val * (twoF - x * y).val := lt_of_lt_of_le (by positivity) g1
  obtain ⟨d3, hd3, f3, v3⟩ := mul_rel fy f2 (by rwa [abs_of_pos G0]) (by
    rw [abs_of_pos G0]; exact lt_of_le_of_lt g2 (by norm_num [ovf]))
  have D3 := newton_cast hd3
  refine ⟨f3, ?_⟩
  show |(x.val * (y * (twoF - x * y)).val : ℝ) - 1| ≤ _
  have w3 : (x.val * (y * (twoF - x * y)).val : ℝ) = r * T * (1 + d3) := by
    rw [v3, Rat.cast_mul, Rat.cast_mul, w2, hr]; push_cast; ring
  rw [w3]
  obtain ⟨x1, x2⟩ := abs_le.1 ex
  have ee : ε ^ 2 ≤ 0.0169 := by
    calc ε ^ 2 ≤ 0.13 ^ 2 := pow_le_pow_left₀ e0 e1 2
      _ = 0.0169 := by norm_num
  -- `T` against `2 - r`
  have t1 : |T - (2 - r)| ≤ 2.28 / 2 ^ 24 := by
    rw [abs_le]; constructor <;> (linarith)
  have t2 : |r * T - r * (2 - r)| ≤ 2.58 / 2 ^ 24 := by
    rw [← mul_sub, abs_mul, abs_of_pos (by linarith)]
    have := mul_le_mul r2 t1 (abs_nonneg _) (by norm_num)
    linarith
  obtain ⟨t3, t4⟩ := abs_le.1 t2
  have n3 := newton_near D3 (show |r * T| ≤ 1.02 by rw [abs_le]; constructor <;> (linarith))
  obtain ⟨m5, m6⟩ := abs_le.1 n3
  rw [abs_le]
  constructor <;> (linarith)

/-- **C164.** `inv` refined: one step gives the inverse within `1.57` percent, two steps within `2.5e-4`, three within `2.9e-7`. -/
theorem C164_inv {x : F32} (fx : x.isFinite = true) (x1 : 1 / 2 ^ 120 ≤ x.val) (x2 : x.val ≤ 2 ^ 120) :
    |(x.val * (refineInv x x.inv).val : ℝ) - 1| ≤ 0.0157 ∧
    |(x.val * (refineInv x (refineInv x x.inv)).val : ℝ) - 1| ≤ 0.00025 ∧
    |(x.val * (refineInv x (refineInv x (refineInv x x.inv))).val : ℝ) - 1| ≤ 2.9 / 10 ^ 7 := by
  obtain ⟨f, l, u⟩ := C19_inv x ⟨fx, le_trans (by norm_num) x1⟩ (x2.trans (by norm_num))
  have h0 : |(x.val * x.inv.val : ℝ) - 1| ≤ 0.125 := by
    have l' := (Rat.cast_le (K := ℝ)).2 l
    have u' := (Rat.cast_le (K := ℝ)).2 u
    push_cast at l' u'
    exact abs_le.2 ⟨by linarith, by linarith⟩
  obtain ⟨f1, h1⟩ := C164_newton_inv fx x1 x2 f (by norm_num) h0
  have h1' : _ ≤ (0.0157 : ℝ) := h1.trans (by norm_num)
  obtain ⟨f2, h2⟩ := C164_newton_inv fx x1 x2 f1 (by norm_num) h1'
  have h2' : _ ≤ (0.00025 : ℝ) := h2.trans (by norm_num)
  obtain ⟨f3, h3⟩ := C164_newton_inv fx x1 x2 f2 (by norm_num) h2'
  exact ⟨h1', h2', h3.trans (by norm_num)⟩

omit [Cfg] in
theorem newton_invsqrt_exact {r ε : ℝ} (h : |r - 1| ≤ ε) (e1 : ε ≤ 0.04) : |r * (3 / 2 - r ^ 2 / 2) - 1| ≤ 1.52 * ε ^ 2 := by
  obtain ⟨h1, h2⟩ := abs_le.1 h
  have sq : (r - 1) ^ 2 ≤ ε ^ 2 := by rw [← sq_abs (r - 1)]; exact pow_le_pow_left₀ (abs_nonneg _) h 2
  rw [show r * (3 / 2 - r ^ 2 / 2) - 1 = -((r - 1) ^ 2 * (3 / 2 + (r - 1) / 2)) by ring, abs_neg,
    abs_of_nonneg (mul_nonneg (sq_nonneg _) (by linarith)), mul_comm]
  exact mul_le_mul (by linarith) sq (sq_nonneg _) (by norm_num)

omit [Cfg] in
theorem newton_le {a b : ℚ} (h : (a : ℝ) ≤ (b : ℝ)) : a ≤ b := by exact_mod_cast h

omit [Cfg] in
/-- The roundings up to `0.5 * x * y * y`. -/
theorem invsqrt_alg1 {r d1 d2 d3 : ℝ} (r1 : 0.96 ≤ r) (r2 : r ≤ 1.04) (D1 : |d1| ≤ 1 / 2 ^ 24) (D2 : |d2| ≤ 1 / 2 ^ 24) (D3 : |d3| ≤ 1 / 2 ^ 24) :
    (0.47 ≤ r / 2 * (1 + d1) ∧ r / 2 * (1 + d1) ≤ 0.53) ∧
    (0.4 ≤ r * (r / 2 * (1 + d1) * (1 + d2)) ∧ r * (r / 2 * (1 + d1) * (1 + d2)) ≤ 0.57) ∧
    |r * (r / 2 * (1 + d1) * (1 + d2)) * (1 + d3) - r ^ 2 / 2| ≤ 1.68 / 2 ^ 24 := by
  obtain ⟨m1, m2⟩ := abs_le.1 (newton_near D1 (show |r / 2| ≤ 0.52 by rw [abs_of_pos (by linarith)]; linarith))
  generalize r / 2 * (1 + d1) = P at *
  have P1 : 0.47 ≤ P := by linarith
  have P2 : P ≤ 0.53 := by linarith
  obtain ⟨m3, m4⟩ := abs_le.1 (newton_near D2 (show |P| ≤ 0.53 by rw [abs_of_pos (by linarith)]; exact P2))
  generalize P * (1 + d2) = Q at *
  have rQ1 := mul_le_mul r1 (show 0.46 ≤ Q by linarith) (by norm_num) (by linarith)
  have rQ2 := mul_le_mul r2 (show Q ≤ 0.54 by linarith) (by linarith) (by norm_num)
  obtain ⟨m5, m6⟩ := abs_le.1 (newton_near D3 (show |r * Q| ≤ 0.57 by rw [abs_of_pos (by linarith)]; linarith))
  have k1 : |Q - r / 2| ≤ 1.05 / 2 ^ 24 := abs_le.2 ⟨by linarith, by linarith⟩
  have k2 : |r * (Q - r / 2)| ≤ 1.04 * (1.05 / 2 ^ 24) := by
    rw [abs_mul, abs_of_pos (show 0 < r by linarith)]; exact mul_le_mul r2 k1 (abs_nonneg _) (by norm_num)
  obtain ⟨k3, k4⟩ := abs_le.1 k2
  exact ⟨⟨P1, P2⟩, ⟨by linarith, by linarith⟩, abs_le.2 ⟨by linarith, by linarith⟩⟩

omit [Cfg] in
/-- The last two roundings. -/
theorem invsqrt_alg2 {r ε V d4 d5 : ℝ} (h : |r - 1| ≤ ε) (e1 : ε ≤ 0.04) (hV : |V - r ^ 2 / 2| ≤ 1.68 / 2 ^ 24) (D4 : |d4| ≤ 1 / 2 ^ 24)
    (D5 : |d5| ≤ 1 / 2 ^ 24) :
    (0.9 ≤ 3 / 2 - V ∧ 3 / 2 - V ≤ 1.1) ∧ (0.99 ≤ r * ((3 / 2 - V) * (1 + d4)) ∧ r * ((3 / 2 - V) * (1 + d4)) ≤ 1.01) ∧
    |r * ((3 / 2 - V) * (1 + d4)) * (1 + d5) - 1| ≤ 1.52 * ε ^ 2 + 2.6 / 10 ^ 7 := by
  obtain ⟨z1, z2⟩ := abs_le.1 (newton_invsqrt_exact h e1)
  obtain ⟨l1, l2⟩ := abs_le.1 h
  obtain ⟨v1, v2⟩ := abs_le.1 hV
  have r1 : 0.96 ≤ r := by linarith
  have r2 : r ≤ 1.04 := by linarith
  have e0 : 0 ≤ ε := (abs_nonneg _).trans h
  have ee : ε ^ 2 ≤ 0.0016 := by
    calc ε ^ 2 ≤ 0.04 ^ 2 := pow_le_pow_left₀ e0 e1 2
      _ = 0.0016 := by norm_num
  have s1 : 0.9216 ≤ r ^ 2 := by have := pow_le_pow_left₀ (by norm_num) r1 2; norm_num at this ⊢; linarith
  have s2 : r ^ 2 ≤ 1.0816 := by have := pow_le_pow_left₀ (by linarith) r2 2; norm_num at this ⊢; linarith
  have W1 : 0.9 ≤ 3 / 2 - V := by linarith
  have W2 : 3 / 2 - V ≤ 1.06 := by linarith
  obtain ⟨m7, m8⟩ := abs_le.1 (newton_near D4 (show |3 / 2 - V| ≤ 1.06 by rw [abs_of_pos (by linarith)]; exact W2))
  generalize (3 / 2 - V) * (1 + d4) = T at *
  have t1 : |T - (3 / 2 - r ^ 2 / 2)| ≤ 2.74 / 2 ^ 24 := abs_le.2 ⟨by linarith, by linarith⟩
  have t2 : |r * T - r * (3 / 2 - r ^ 2 / 2)| ≤ 1.04 * (2.74 / 2 ^ 24) := by
    rw [← mul_sub, abs_mul, abs_of_pos (show 0 < r by linarith)]
    exact mul_le_mul r2 t1 (abs_nonneg _) (by norm_num)
  obtain ⟨t3, t4⟩ := abs_le.1 t2
  have rT1 : 0.99 ≤ r * T := by linarith
  have rT2 : r * T ≤ 1.01 := by linarith
  obtain ⟨m9, m10⟩ := abs_le.1 (newton_near D5 (show |r * T| ≤ 1.01 by rw [abs_of_pos (by linarith)]; exact rT2))
  exact ⟨⟨W1, by linarith⟩, ⟨rT1, rT2⟩, abs_le.2 ⟨by linarith, by linarith⟩⟩

/-- **C164.** One step of Newton's method from a `y` within `ε ≤ 0.04` of the inverse root. -/
theorem C164_newton_invsqrt {x y : F32} {ε : ℝ} (fx : x.isFinite = true) (x1 : 1 / 2 ^ 120 ≤ x.val) (x2 : x.val ≤ 2 ^ 120)
    (fy : y.isFinite = true) (e1 : ε ≤ 0.04) (h : |(y.val : ℝ) - 1 / √(x.val : ℝ)| ≤ ε * (1 / √(x.val : ℝ))) :
    (refineInvsqrt x y).isFinite = true ∧
      |((refineInvsqrt x y).val : ℝ) - 1 / √(x.val : ℝ)| ≤ (1.52 * ε ^ 2 + 2.6 / 10 ^ 7) * (1 / √(x.val : ℝ)) := by
  have X0 : 0 < x.val := lt_of_lt_of_le (by positivity) x1
  have X0' : (0 : ℝ) < x.val := by exact_mod_cast X0
  have X1 : (1 : ℝ) / 2 ^ 120 ≤ x.val := by have := (Rat.cast_le (K := ℝ)).2 x1; push_cast at this; exact this
  have X2 : (x.val : ℝ) ≤ 2 ^ 120 := by have := (Rat.cast_le (K := ℝ)).2 x2; push_cast at this; exact this
  have RR : √(x.val : ℝ) * √(x.val : ℝ) = x.val := Real.mul_self_sqrt X0'.le
  have R1 : (1 : ℝ) / 2 ^ 60 ≤ √(x.val : ℝ) := Real.le_sqrt_of_sq_le (by linarith)
  have R2 : √(x.val : ℝ) ≤ 2 ^ 60 := Real.sqrt_le_iff.2 ⟨by positivity, by linarith⟩
  generalize √(x.val : ℝ) = R at *
  have R0 : 0 < R := lt_of_lt_of_le (by positivity) R1
  obtain ⟨r, hr⟩ : ∃ r, (y.val : ℝ) = r / R := ⟨y.val * R, by field_simp⟩
  have iR : 0 < 1 / R := by positivity
  have hr1 : |r - 1| ≤ ε := by
    rw [hr, show r / R - 1 / R = (r - 1) * (1 / R) by ring, abs_mul, abs_of_pos iR] at h
    exact le_of_mul_le_mul_right h iR
  obtain ⟨l1, l2⟩ := abs_le.1 hr1
  have r1 : 0.96 ≤ r := by linarith
  have r2 : r ≤ 1.04 := by linarith
  clear l1 l2 h
  -- `0.5 * x`
  have p1 : halfF.val * x.val = x.val / 2 := by rw [halfF_val.2]; ring
  obtain ⟨d1, hd1, f1, v1⟩ := mul_rel halfF_val.1 fx
    (by rw [p1, abs_of_pos (by linarith)]; refine le_trans ?_ (div_le_div_of_nonneg_right x1 (by norm_num)); norm_num)
    (by rw [p1, abs_of_pos (by linarith)]; refine lt_of_le_of_lt (div_le_div_of_nonneg_right x2 (by norm_num)) ?_; norm_num [ovf])
  have w1 : ((halfF * x).val : ℝ) = R * R / 2 * (1 + d1) := by rw [v1, p1, RR]; push_cast; ring
  have D1 := newton_cast hd1
  clear X1 X2 x1 x2 v1 p1 hd1
  -- `0.5 * x * y`
  have s2 : (((halfF * x).val * y.val : ℚ) : ℝ) = R * (r / 2 * (1 + d1)) := by rw [Rat.cast_mul, w1, hr]; field_simp
  obtain ⟨⟨P1, P2⟩, -⟩ := invsqrt_alg1 r1 r2 D1 D1 D1
  have b1 : (1 / 2 ^ 126 : ℚ) ≤ (halfF * x).val * y.val := newton_le (by
    rw [s2]; have := mul_le_mul R1 P1 (by norm_num) R0.le; push_cast; linarith)
  have b2 : (halfF * x).val * y.val ≤ (2 ^ 60 : ℚ) := newton_le (by
    rw [s2]; have := mul_le_mul R2 P2 (by linarith) (by positivity); push_cast; linarith)
  have B0 : 0 < (halfF * x).val * y.val := lt_of_lt_of_le (by positivity) b1
  obtain ⟨d2, hd2, f2, v2⟩ := mul_rel f1 fy (by rwa [abs_of_pos B0]) (by
    rw [abs_of_pos B0]; exact lt_of_le_of_lt b2 (by norm_num [ovf]))
  have D2 := newton_cast hd2
  have w2 : ((halfF * x * y).val : ℝ) = R * (r / 2 * (1 + d1) * (1 + d2)) := by rw [v2, Rat.cast_mul, s2]; push_cast; ring
  clear b1 b2 B0 v2 hd2 w1 P1 P2 s2 RR
  -- `0.5 * x * y * y`
  have s3 : (((halfF * x * y).val * y.val : ℚ) : ℝ) = r * (r / 2 * (1 + d1) * (1 + d2)) := by rw [Rat.cast_mul, w2, hr]; field_simp
  obtain ⟨-, ⟨Q1, Q2⟩, -⟩ := invsqrt_alg1 r1 r2 D1 D2 D2
  have c1 : (0.4 : ℚ) ≤ (halfF * x * y).val * y.val := newton_le (by rw [s3]; push_cast; linarith)
  have c2 : (halfF * x * y).val * y.val ≤ (0.6 : ℚ) := newton_le (by rw [s3]; push_cast; linarith)
  obtain ⟨d3, hd3, f3, v3⟩ := mul_rel f2 fy (by rw [abs_of_pos (by linarith)]; refine le_trans ?_ c1; norm_num) (by
    rw [abs_of_pos (by linarith)]; refine lt_of_le_of_lt c2 ?_; norm_num [ovf])
  have D3 := newton_cast hd3
  have w3 : ((halfF * x * y * y).val : ℝ) = r * (r / 2 * (1 + d1) * (1 + d2)) * (1 + d3) := by
    rw [v3, Rat.cast_mul, s3]; push_cast; ring
  obtain ⟨-, -, hV⟩ := invsqrt_alg1 r1 r2 D1 D2 D3
  generalize r * (r / 2 * (1 + d1) * (1 + d2)) * (1 + (d3 : ℝ)) = V at *
  clear c1 c2 v3 hd3 w2 Q1 Q2 s3
  -- `1.5 - ...`
  have s4 : ((threeHalves.val - (halfF * x * y * y).val : ℚ) : ℝ) = 3 / 2 - V := by rw [Rat.cast_sub, w3, threeHalves_val.2]; norm_num
  obtain ⟨⟨W1, W2⟩, -⟩ := invsqrt_alg2 hr1 e1 hV D1 D1
  have g1 : (0.8 : ℚ) ≤ threeHalves.val - (halfF * x * y * y).val := newton_le (by rw [s4]; push_cast; linarith)
  have g2 : threeHalves.val - (halfF * x * y * y).val ≤ (1.2 : ℚ) := newton_le (by rw [s4]; push_cast; linarith)
  obtain ⟨d4, hd4, f4, v4⟩ := sub_rel threeHalves_val.1 f3 (by
    rw [abs_of_pos (by linarith)]; refine lt_of_le_of_lt g2 ?_; norm_num [ovf])
  have D4 := newton_cast hd4
  have w4 : ((threeHalves - halfF * x * y * y).val : ℝ) = (3 / 2 - V) * (1 + d4) := by rw [v4, Rat.cast_mul, s4]; push_cast; ring
  clear g1 g2 v4 hd4 w3 W1 W2 s4
  -- the product
  obtain ⟨-, ⟨T1, T2⟩, -⟩ := invsqrt_alg2 hr1 e1 hV D4 D4
  have s5 : ((y.val * (threeHalves - halfF * x * y * y).val : ℚ) : ℝ) = r * ((3 / 2 - V) * (1 + d4)) / R := by
    rw [Rat.cast_mul, w4, hr]; ring
  have h1 : (1 / 2 ^ 126 : ℚ) ≤ y.val * (threeHalves - halfF * x * y * y).val := newton_le (by
    rw [s5, le_div_iff₀ R0]; push_cast; linarith)
  have h2 : y.val * (threeHalves - halfF * x * y * y).val ≤ (2 ^ 62 : ℚ) := newton_le (by
    rw [s5, div_le_iff₀ R0]; push_cast; linarith)
  have H0 : 0 < y.val * (threeHalves - halfF * x * y * y).val := lt_of_lt_of_le (by positivity) h1
  obtain ⟨d5, hd5, f5, v5⟩ := mul_rel fy f4 (by rwa [abs_of_pos H0]) (by
    rw [abs_of_pos H0]; exact lt_of_le_of_lt h2 (by norm_num [ovf]))
  obtain ⟨-, -, fin⟩ := invsqrt_alg2 hr1 e1 hV D4 (newton_cast hd5)
  refine ⟨f5, ?_⟩
  show |((y * (threeHalves - halfF * x * y * y)).val : ℝ) - 1 / R| ≤ _
  rw [v5, Rat.cast_mul, s5, show r * ((3 / 2 - V) * (1 + (d4 : ℝ))) / R * ((1 + d5 : ℚ) : ℝ) - 1 / R =
    (r * ((3 / 2 - V) * (1 + d4)) * (1 + d5) - 1) * (1 / R) by push_cast; ring, abs_mul, abs_of_pos iR]
  exact mul_le_mul_of_nonneg_right fin iR.le

/-- **C164.** `invsqrt` refined: one step gives the inverse root within `0.2` percent, two steps within `6.4e-6`, three within
`2.7e-7`. -/
theorem C164_invsqrt {x : F32} (fx : x.isFinite = true) (x1 : 1 / 2 ^ 120 ≤ x.val) (x2 : x.val ≤ 2 ^ 120) :
    ∃ y, x.invsqrt = .ok y ∧
      |((refineInvsqrt x y).val : ℝ) - 1 / √(x.val : ℝ)| ≤ 0.002 * (1 / √(x.val : ℝ)) ∧
      |((refineInvsqrt x (refineInvsqrt x y)).val : ℝ) - 1 / √(x.val : ℝ)| ≤ 6.4 / 10 ^ 6 * (1 / √(x.val : ℝ)) ∧
      |((refineInvsqrt x (refineInvsqrt x (refineInvsqrt x y))).val : ℝ) - 1 / √(x.val : ℝ)| ≤ 2.7 / 10 ^ 7 * (1 / √(x.val : ℝ)) := by
  obtain ⟨y, hy, f, -, -, -, h0⟩ := C17_invsqrt x ⟨fx, le_trans (by norm_num) x1⟩
  have R0 : 0 ≤ 1 / √(x.val : ℝ) := by positivity
  have weak : ∀ {a b c : ℝ}, |a| ≤ b * (1 / √(x.val : ℝ)) → b ≤ c → |a| ≤ c * (1 / √(x.val : ℝ)) :=
    fun h hb => h.trans (mul_le_mul_of_nonneg_right hb R0)
  obtain ⟨f1, h1⟩ := C164_newton_invsqrt fx x1 x2 f (by norm_num) h0
  have h1' := weak h1 (c := 0.002) (by norm_num)
  obtain ⟨f2, h2⟩ := C164_newton_invsqrt fx x1 x2 f1 (by norm_num) h1'
  have h2' := weak h2 (c := 6.4 / 10 ^ 6) (by norm_num)
  obtain ⟨f3, h3⟩ := C164_newton_invsqrt fx x1 x2 f2 (by norm_num) h2'
  exact ⟨y, hy, h1', h2', weak h3 (by norm_num)⟩

/-- Non-vacuity: the root and the inverse of two. -/
example : |((heronStep (ofInt 2) (heronStep (ofInt 2) (ofInt 2).sqrt)).val : ℝ) - √2| ≤ 2.4 / 10 ^ 6 * √2 ∧
    |(2 * (refineInv (ofInt 2) (ofInt 2).inv).val : ℝ) - 1| ≤ 0.0157 := by
  obtain ⟨f, v⟩ := ofInt_isVal (n := 2) (by decide)
  have h1 := (C164_sqrt (x := ofInt 2) ⟨f, by rw [v]; norm_num⟩).2.1
  have h2 := (C164_inv (x := ofInt 2) f (by rw [v]; norm_num) (by rw [v]; norm_num)).1
  rw [v] at h1 h2
  push_cast at h1 h2
  exact ⟨h1, h2⟩

end Micromath.Props
