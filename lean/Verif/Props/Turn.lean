import Verif.Props.RoundTrip
import Verif.Props.Lerp

/-!
# C163: turning a point of the plane with `sin_cos`
-/

set_option exponentiation.threshold 1000

namespace Micromath.Props
open F32 Spec

variable [Cfg]

/-- `let (s, c) = t.sin_cos(); (x * c - y * s, x * s + y * c)`. -/
def turn (t : F32) (p : F32 × F32) : F32 × F32 :=
  let (s, c) := t.sinCos
  (p.1 * c - p.2 * s, p.1 * s + p.2 * c)

/-- The squared distance from the origin, exactly. -/
def sqr (p : F32 × F32) : ℚ := p.1.val ^ 2 + p.2.val ^ 2

/-- A sum of two products. -/
theorem two_products {x y c s : F32} (fx : x.isFinite = true) (fy : y.isFinite = true) (fc : c.isFinite = true) (fs : s.isFinite = true)
    (bx : |x.val| ≤ 2 ^ 120) (hy : |y.val| ≤ 2 ^ 120) (bc : |c.val| ≤ 1 + 1 / 2 ^ 20) (bs : |s.val| ≤ 1 + 1 / 2 ^ 20) :
    ((x * c + y * s).isFinite = true ∧
      |(x * c + y * s).val - (x.val * c.val + y.val * s.val)| ≤ 1.21 / 10 ^ 7 * (|x.val| + |y.val|) + 1 / 2 ^ 148) ∧
    ((x * c - y * s).isFinite = true ∧
      |(x * c - y * s).val - (x.val * c.val - y.val * s.val)| ≤ 1.21 / 10 ^ 7 * (|x.val| + |y.val|) + 1 / 2 ^ 148) := by
  have X0 := abs_nonneg x.val
  have Y0 := abs_nonneg y.val
  have p1 : |x.val * c.val| ≤ |x.val| * (1 + 1 / 2 ^ 20) := by rw [abs_mul]; exact mul_le_mul_of_nonneg_left bc X0
  have p2 : |y.val * s.val| ≤ |y.val| * (1 + 1 / 2 ^ 20) := by rw [abs_mul]; exact mul_le_mul_of_nonneg_left bs Y0
  obtain ⟨f1, v1⟩ := mul_val fx fc (lt_of_le_of_lt p1 (by norm_num [ovf] at *; linarith))
  obtain ⟨f2, v2⟩ := mul_val fy fs (lt_of_le_of_lt p2 (by norm_num [ovf] at *; linarith))
  have e1 := rn_err p1
  have e2 := rn_err p2
  rw [← v1] at e1
  rw [← v2] at e2
  have q1 : |(x * c).val| ≤ |x.val| * (1 + 1 / 2 ^ 19) + 1 / 2 ^ 150 := by
    have := abs_add_le ((x * c).val - x.val * c.val) (x.val * c.val)
    rw [sub_add_cancel] at this; norm_num at *; linarith [abs_nonneg x.val]
  have q2 : |(y * s).val| ≤ |y.val| * (1 + 1 / 2 ^ 19) + 1 / 2 ^ 150 := by
    have := abs_add_le ((y * s).val - y.val * s.val) (y.val * s.val)
    rw [sub_add_cancel] at this; norm_num at *; linarith [abs_nonneg y.val]
  have b1 : |(x * c).val + (y * s).val| ≤ (|x.val| + |y.val|) * (1 + 1 / 2 ^ 19) + 1 / 2 ^ 149 :=
    (abs_add_le _ _).trans (by norm_num at *; linarith)
  have b2 : |(x * c).val - (y * s).val| ≤ (|x.val| + |y.val|) * (1 + 1 / 2 ^ 19) + 1 / 2 ^ 149 :=
    (abs_sub _ _).trans (by norm_num at *; linarith)
  have o : (|x.val| + |y.val|) * (1 + 1 / 2 ^ 19) + 1 / 2 ^ 149 < ovf := by norm_num [ovf] at *; linarith
  obtain ⟨f3, v3⟩ := add_val f1 f2 (lt_of_le_of_lt b1 o)
  obtain ⟨f4, v4⟩ := sub_val f1 f2 (lt_of_le_of_lt b2 o)
  have e3 := rn_err b1
  have e4 := rn_err b2
  rw [← v3] at e3
  rw [← v4] at e4
  rw [abs_le] at e1 e2 e3 e4
  obtain ⟨_, _⟩ := e1
  obtain ⟨_, _⟩ := e2
  obtain ⟨_, _⟩ := e3
  obtain ⟨_, _⟩ := e4
  refine ⟨⟨f3, abs_le.2 ⟨?_, ?_⟩⟩, ⟨f4, abs_le.2 ⟨?_, ?_⟩⟩⟩ <;>
  · norm_num at *; linarith

/-- **C163.** For an angle up to `4096` the turned point is finite and within `0.00201 (|x| + |y|) + 2^-148` of the exact one. -/
theorem C163_turn {t : F32} {p : F32 × F32} (ft : t.isFinite = true) (bt : |t.val| ≤ 4096) (fx : p.1.isFinite = true)
    (fy : p.2.isFinite = true) (bx : |p.1.val| ≤ 2 ^ 120) (hy : |p.2.val| ≤ 2 ^ 120) :
    (turn t p).1.isFinite = true ∧ (turn t p).2.isFinite = true ∧
    |((turn t p).1.val : ℝ) - (p.1.val * Real.cos t.val - p.2.val * Real.sin t.val)| ≤
      0.00201 * (|(p.1.val : ℝ)| + |(p.2.val : ℝ)|) + 1 / 2 ^ 148 ∧
    |((turn t p).2.val : ℝ) - (p.1.val * Real.sin t.val + p.2.val * Real.cos t.val)| ≤
      0.00201 * (|(p.1.val : ℝ)| + |(p.2.val : ℝ)|) + 1 / 2 ^ 148 := by
  obtain ⟨fc, bc, ec⟩ := C34_cos ft bt
  obtain ⟨fs, bs, es⟩ := C36_sin ft bt
  obtain ⟨-, f1, e1⟩ := two_products fx fy fc fs bx hy bc bs
  obtain ⟨⟨f2, e2⟩, -⟩ := two_products fx fy fs fc bx hy bs bc
  refine ⟨f1, f2, ?_, ?_⟩
  · have e1' := (Rat.cast_le (K := ℝ)).2 e1
    push_cast at e1'
    show |((p.1 * t.cos - p.2 * t.sin).val : ℝ) - _| ≤ _
    rw [show ((p.1 * t.cos - p.2 * t.sin).val : ℝ) - (p.1.val * Real.cos t.val - p.2.val * Real.sin t.val) =
      (((p.1 * t.cos - p.2 * t.sin).val : ℝ) - (p.1.val * t.cos.val - p.2.val * t.sin.val)) +
      (p.1.val * (t.cos.val - Real.cos t.val) - p.2.val * (t.sin.val - Real.sin t.val)) by ring]
    refine (abs_add_le _ _).trans ((add_le_add e1' (abs_sub _ _)).trans ?_)
    rw [abs_mul, abs_mul]
    have := mul_le_mul_of_nonneg_left ec (abs_nonneg (p.1.val : ℝ))
    have := mul_le_mul_of_nonneg_left es (abs_nonneg (p.2.val : ℝ))
    have := abs_nonneg (p.1.val : ℝ)
    have := abs_nonneg (p.2.val : ℝ)
    linarith
  · have e2' := (Rat.cast_le (K := ℝ)).2 e2
    push_cast at e2'
    show |((p.1 * t.sin + p.2 * t.cos).val : ℝ) - _| ≤ _
    rw [show ((p.1 * t.sin + p.2 * t.cos).val : ℝ) - (p.1.val * Real.sin t.val + p.2.val * Real.cos t.val) =
      (((p.1 * t.sin + p.2 * t.cos).val : ℝ) - (p.1.val * t.sin.val + p.2.val * t.cos.val)) +
      (p.1.val * (t.sin.val - Real.sin t.val) + p.2.val * (t.cos.val - Real.cos t.val)) by ring]
    refine (abs_add_le _ _).trans ((add_le_add e2' (abs_add_le _ _)).trans ?_)
    rw [abs_mul, abs_mul]
    have := mul_le_mul_of_nonneg_left es (abs_nonneg (p.1.val : ℝ))
    have := mul_le_mul_of_nonneg_left ec (abs_nonneg (p.2.val : ℝ))
    have := abs_nonneg (p.1.val : ℝ)
    have := abs_nonneg (p.2.val : ℝ)
    linarith

omit [Cfg] in
/-- A disturbed square. -/
theorem sq_disturbed {u v m : ℚ} (h : |u - v| ≤ 1.22 / 10 ^ 7 * m) (hv : |v| ≤ 1.00001 * m) : |u ^ 2 - v ^ 2| ≤ 2.45 / 10 ^ 7 * m ^ 2 := by
  have m0 : 0 ≤ m := by have := (abs_nonneg _).trans hv; linarith
  rw [show u ^ 2 - v ^ 2 = (u - v) * ((u - v) + 2 * v) by ring, abs_mul]
  have h2 : |(u - v) + 2 * v| ≤ 1.22 / 10 ^ 7 * m + 2 * (1.00001 * m) := by
    refine (abs_add_le _ _).trans (add_le_add h ?_)
    rw [abs_mul, abs_of_pos (by norm_num : (0 : ℚ) < 2)]; linarith
  refine (mul_le_mul h h2 (abs_nonneg _) (by positivity)).trans ?_
  nlinarith [sq_nonneg m]

/-- **C163.** Up to `1e-6` the squared distance from the origin is multiplied by `sin(t)^2 + cos(t)^2`, as computed. -/
theorem C163_factor {t : F32} {p : F32 × F32} (ft : t.isFinite = true) (bt : |t.val| ≤ 4096) (fx : p.1.isFinite = true)
    (fy : p.2.isFinite = true) (q1 : 1 / 2 ^ 200 ≤ sqr p) (q2 : sqr p ≤ 2 ^ 200) :
    |sqr (turn t p) - (t.sin.val ^ 2 + t.cos.val ^ 2) * sqr p| ≤ 1 / 10 ^ 6 * sqr p := by
  obtain ⟨fc, bc, -⟩ := C34_cos ft bt
  obtain ⟨fs, bs, -⟩ := C36_sin ft bt
  have X0 := abs_nonneg p.1.val
  have Y0 := abs_nonneg p.2.val
  have sx := sq_abs p.1.val
  have sy := sq_abs p.2.val
  unfold sqr at q1 q2
  have bx : |p.1.val| ≤ 2 ^ 100 := by
    exact abs_le_of_sq_le_sq (by nlinarith [sq_nonneg p.2.val]) (by norm_num)
  have hy : |p.2.val| ≤ 2 ^ 100 := by
    exact abs_le_of_sq_le_sq (by nlinarith [sq_nonneg p.1.val]) (by norm_num)
  obtain ⟨-, f1, e1⟩ := two_products fx fy fc fs (bx.trans (by norm_num)) (hy.trans (by norm_num)) bc bs
  obtain ⟨⟨f2, e2⟩, -⟩ := two_products fx fy fs fc (bx.trans (by norm_num)) (hy.trans (by norm_num)) bs bc
  set m := |p.1.val| + |p.2.val| with hm
  have m1 : 1 / 2 ^ 100 ≤ m := by
    by_contra hc
    push Not at hc
    have : m ^ 2 < (1 / 2 ^ 100) ^ 2 := pow_lt_pow_left₀ hc (by positivity) (by norm_num)
    have : |p.1.val| ^ 2 + |p.2.val| ^ 2 ≤ m ^ 2 := by rw [hm]; nlinarith
    norm_num at *; linarith
  have m2 : m ^ 2 ≤ 2 * sqr p := by
    unfold sqr; rw [← sx, ← sy, hm]; nlinarith [sq_nonneg (|p.1.val| - |p.2.val|)]
  have z1 : |p.1.val * t.cos.val - p.2.val * t.sin.val| ≤ 1.00001 * m := by
    refine (abs_sub _ _).trans ?_
    rw [abs_mul, abs_mul]
    have := mul_le_mul_of_nonneg_left bc X0
    have := mul_le_mul_of_nonneg_left bs Y0
    norm_num at *; linarith
  have z2 : |p.1.val * t.sin.val + p.2.val * t.cos.val| ≤ 1.00001 * m := by
    refine (abs_add_le _ _).trans ?_
    rw [abs_mul, abs_mul]
    have := mul_le_mul_of_nonneg_left bs X0
    have := mul_le_mul_of_nonneg_left bc Y0
    norm_num at *; linarith
  have d1 := sq_disturbed (e1.trans (by norm_num at *; linarith)) z1
  have d2 := sq_disturbed (e2.trans (by norm_num at *; linarith)) z2
  rw [show sqr (turn t p) - (t.sin.val ^ 2 + t.cos.val ^ 2) * sqr p =
    ((p.1 * t.cos - p.2 * t.sin).val ^ 2 - (p.1.val * t.cos.val - p.2.val * t.sin.val) ^ 2) +
    ((p.1 * t.sin + p.2 * t.cos).val ^ 2 - (p.1.val * t.sin.val + p.2.val * t.cos.val) ^ 2) by
      show (p.1 * t.cos - p.2 * t.sin).val ^ 2 + (p.1 * t.sin + p.2 * t.cos).val ^ 2 - _ * (p.1.val ^ 2 + p.2.val ^ 2) = _
      ring]
  refine (abs_add_le _ _).trans ?_
  have := sq_nonneg m
  linarith

/-- **C163.** So one turn changes the squared distance by at most `0.571` percent. -/
theorem C163_length {t : F32} {p : F32 × F32} (ft : t.isFinite = true) (bt : |t.val| ≤ 4096) (fx : p.1.isFinite = true)
    (fy : p.2.isFinite = true) (q1 : 1 / 2 ^ 200 ≤ sqr p) (q2 : sqr p ≤ 2 ^ 200) : |sqr (turn t p) - sqr p| ≤ 0.00571 * sqr p := by
  have h1 := C163_factor ft bt fx fy q1 q2
  have h2 := C110_pythagoras ft bt
  have q0 : 0 ≤ sqr p := le_trans (by norm_num) q1
  rw [show sqr (turn t p) - sqr p = (sqr (turn t p) - (t.sin.val ^ 2 + t.cos.val ^ 2) * sqr p) +
    (t.sin.val ^ 2 + t.cos.val ^ 2 - 1) * sqr p by ring]
  refine (abs_add_le _ _).trans ?_
  rw [abs_mul, abs_of_nonneg q0]
  have := mul_le_mul_of_nonneg_right h2 q0
  norm_num at *; linarith

/-- **C163.** A point turned again and again by the same angle: with `a ≤ sin(t)^2 + cos(t)^2 - 1e-6` and
`sin(t)^2 + cos(t)^2 + 1e-6 ≤ b` its squared distance after `n` turns is between `a^n` and `b^n` times the first one. -/
theorem C163_chain {t : F32} (ft : t.isFinite = true) (bt : |t.val| ≤ 4096) {a b : ℚ} (a0 : 0 ≤ a) (a1 : a ≤ t.sin.val ^ 2 + t.cos.val ^ 2 - 1 / 10 ^ 6)
    (b1 : t.sin.val ^ 2 + t.cos.val ^ 2 + 1 / 10 ^ 6 ≤ b) {p : F32 × F32} (fx : p.1.isFinite = true) (fy : p.2.isFinite = true) (n : ℕ)
    (q1 : ∀ k ≤ n, 1 / 2 ^ 200 ≤ a ^ k * sqr p) (q2 : ∀ k ≤ n, b ^ k * sqr p ≤ 2 ^ 200) :
    ((turn t)^[n] p).1.isFinite = true ∧ ((turn t)^[n] p).2.isFinite = true ∧
      a ^ n * sqr p ≤ sqr ((turn t)^[n] p) ∧ sqr ((turn t)^[n] p) ≤ b ^ n * sqr p := by
  induction n with
  | zero => exact ⟨fx, fy, by simp, by simp⟩
  | succ n ih =>
    obtain ⟨f1, f2, l, u⟩ := ih (fun k hk => q1 k (by omega)) (fun k hk => q2 k (by omega))
    rw [Function.iterate_succ_apply']
    have r1 := (q1 n (by omega)).trans l
    have r2 := u.trans (q2 n (by omega))
    set r := (turn t)^[n] p with hr
    have h := abs_le.1 (C163_factor ft bt f1 f2 r1 r2)
    have r0 : 0 ≤ sqr r := le_trans (by norm_num) r1
    obtain ⟨fc, bc, -⟩ := C34_cos ft bt
    obtain ⟨fs, bs, -⟩ := C36_sin ft bt
    have hb : |r.1.val| ≤ 2 ^ 120 ∧ |r.2.val| ≤ 2 ^ 120 := by
      unfold sqr at r2
      exact ⟨abs_le_of_sq_le_sq (by nlinarith [sq_nonneg r.2.val]) (by norm_num),
        abs_le_of_sq_le_sq (by nlinarith [sq_nonneg r.1.val]) (by norm_num)⟩
    obtain ⟨g1, g2, -⟩ := C163_turn ft bt f1 f2 hb.1 hb.2
    refine ⟨g1, g2, ?_, ?_⟩
    · have k1 := mul_le_mul_of_nonneg_right a1 r0
      have k2 := mul_le_mul_of_nonneg_left l a0
      rw [pow_succ]; linarith
    · have k1 := mul_le_mul_of_nonneg_right b1 r0
      have b0 : 0 ≤ b := le_trans (by positivity) b1
      have k2 := mul_le_mul_of_nonneg_left u b0
      rw [pow_succ]; linarith

/-- **C163.** Finding: eight hundred turns by `FRAC_PI_4`, a hundred full turns, at least double the distance of `(1, 0)` from the
origin. -/
theorem C163_drift_false : 4 ≤ sqr ((turn ⟨0x3f490fdb#32⟩)^[800] (⟨0x3f800000#32⟩, ⟨0#32⟩)) := by
  have vt : (⟨0x3f490fdb#32⟩ : F32).val = 0xc90fdb / 2 ^ 24 := by
    rw [val_of_units (u := 0xc90fdb * 2 ^ 125) (by decide +kernel)]; norm_num
  have es : (⟨0x3f490fdb#32⟩ : F32).sin = ⟨0x3f353333#32⟩ := eval_eq (n := 0x3f353333) (by kernel_rfl)
  have ec : (⟨0x3f490fdb#32⟩ : F32).cos = ⟨0x3f353333#32⟩ := eval_eq (n := 0x3f353333) (by kernel_rfl)
  have vs : (⟨0x3f353333#32⟩ : F32).val = 0xb53333 / 2 ^ 24 := by
    rw [val_of_units (u := 0xb53333 * 2 ^ 125) (by decide +kernel)]; norm_num
  have v1 : (⟨0x3f800000#32⟩ : F32).val = 1 := by rw [val_of_units (u := 2 ^ 149) (by decide +kernel)]; norm_num
  have v0 : (⟨0#32⟩ : F32).val = 0 := by rw [val_of_units (u := 0) (by decide +kernel)]; norm_num
  have q : sqr ((⟨0x3f800000#32⟩ : F32), (⟨0#32⟩ : F32)) = 1 := by unfold sqr; rw [v1, v0]; norm_num
  have h := C163_chain (t := ⟨0x3f490fdb#32⟩) (a := 1.0019) (b := 1.002) (p := (⟨0x3f800000#32⟩, ⟨0#32⟩)) (by decide)
    (by rw [vt, abs_of_nonneg (by norm_num)]; norm_num) (by norm_num) (by rw [es, ec, vs]; norm_num) (by rw [es, ec, vs]; norm_num)
    (by decide) (by decide) 800 (fun k _ => ?_) (fun k hk => ?_)
  · refine le_trans ?_ h.2.2.1
    rw [q, mul_one]
    have : (2 : ℚ) ≤ 1.0019 ^ 400 := by norm_num
    calc (4 : ℚ) = 2 ^ 2 := by norm_num
      _ ≤ (1.0019 ^ 400) ^ 2 := pow_le_pow_left₀ (by norm_num) this 2
      _ = 1.0019 ^ 800 := by rw [← pow_mul]
  · rw [q, mul_one]
    exact le_trans (by norm_num) (one_le_pow₀ (by norm_num))
  · rw [q, mul_one]
    refine (pow_le_pow_right₀ (by norm_num) hk).trans ?_
    have : (1.002 : ℚ) ^ 100 ≤ 2 := by norm_num
    calc (1.002 : ℚ) ^ 800 = (1.002 ^ 100) ^ 8 := by rw [← pow_mul]
      _ ≤ 2 ^ 8 := pow_le_pow_left₀ (by norm_num) this 8
      _ ≤ 2 ^ 200 := by norm_num

/-- Non-vacuity: the point `(3, 4)` turned by one radian. -/
example : |sqr (turn (ofInt 1) (ofInt 3, ofInt 4)) - 25| ≤ 0.15 := by
  obtain ⟨f1, v1⟩ := ofInt_isVal (n := 1) (by decide)
  obtain ⟨f3, v3⟩ := ofInt_isVal (n := 3) (by decide)
  obtain ⟨f4, v4⟩ := ofInt_isVal (n := 4) (by decide)
  have q : sqr (ofInt 3, ofInt 4) = 25 := by unfold sqr; rw [v3, v4]; norm_num
  have := C163_length (t := ofInt 1) (p := (ofInt 3, ofInt 4)) f1 (by rw [v1]; norm_num) f3 f4 (by rw [q]; norm_num) (by rw [q]; norm_num)
  rw [q] at this
  exact this.trans (by norm_num)

end Micromath.Props
