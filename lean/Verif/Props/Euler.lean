import Verif.Props.AxisAngle
import Verif.Props.Asin
import Verif.Props.Atan2
import Verif.Real.Euler

/-!
# C97: `to_euler` recovers roll, pitch and yaw

The quaternion of a roll `r` about `x`, then a pitch `p` about `y`, then a yaw `y` about `z` is `Geom.eulerQ r p y`.  For a
quaternion within `ε` of it, and away from the poles, `to_euler` returns the three angles, the first and the last up to
full turns.
-/

set_option exponentiation.threshold 1000

namespace Micromath.Props
open F32 Spec

variable [Cfg]

omit [Cfg] in
theorem lit_two' : (lit 2 1 : F32).isFinite = true ∧ (lit 2 1 : F32).val = 2 := by
  have h2 : (lit 2 1 : F32) = ⟨0x40000000#32⟩ := eval_eq (n := 0x40000000) (by kernel_rfl)
  exact ⟨by rw [h2]; decide, by rw [h2, val_of_units (u := 2 ^ 150) (by decide +kernel)]; norm_num⟩

/-- `2 * (x y ± z w)`, for a sum of the two products' magnitudes of at most `1.13`. -/
theorem two_mul_err {x y z w : F32} (fx : x.isFinite = true) (fy : y.isFinite = true) (fz : z.isFinite = true) (fw : w.isFinite = true)
    {P : ℚ} (hP : |x.val * y.val| + |z.val * w.val| ≤ P) (hP1 : P ≤ 1.13) :
    ((lit 2 1 * (x * y + z * w)).isFinite = true ∧ |(lit 2 1 * (x * y + z * w)).val - 2 * (x.val * y.val + z.val * w.val)| ≤ 6.01 * P / 2 ^ 24 + 1 / 2 ^ 140) ∧
    ((lit 2 1 * (x * y - z * w)).isFinite = true ∧ |(lit 2 1 * (x * y - z * w)).val - 2 * (x.val * y.val - z.val * w.val)| ≤ 6.01 * P / 2 ^ 24 + 1 / 2 ^ 140) := by
  obtain ⟨f2, v2⟩ := lit_two'
  have n1 := abs_nonneg (x.val * y.val)
  have n2 := abs_nonneg (z.val * w.val)
  have hP2 : P ≤ 2 := hP1.trans (by norm_num)
  have a1 := Acc.mul fx fy (le_trans (b := 2) (by linarith) (by norm_num))
  have a2 := Acc.mul fz fw (le_trans (b := 2) (by linarith) (by norm_num))
  generalize |x.val * y.val| = p at *
  generalize |z.val * w.val| = q at *
  generalize x.val * y.val = X at *
  generalize z.val * w.val = Z at *
  have key : ∀ {s : F32} {S : ℚ}, Acc s S (p + q) (p / 2 ^ 24 + 1 / 2 ^ 150 + (q / 2 ^ 24 + 1 / 2 ^ 150) +
      (p + q + (p / 2 ^ 24 + 1 / 2 ^ 150) + (q / 2 ^ 24 + 1 / 2 ^ 150)) / 2 ^ 24) →
      (lit 2 1 * s).isFinite = true ∧ |(lit 2 1 * s).val - 2 * S| ≤ 6.01 * P / 2 ^ 24 + 1 / 2 ^ 140 := by
    intro s S hs
    have hs1 := hs.err
    have hs2 := hs.abs
    have hb : |s.val| ≤ (p + q) * (1 + 3 / 2 ^ 24) + 1 / 2 ^ 145 := by
      have := abs_sub_abs_le_abs_sub s.val S
      norm_num at *
      linarith
    have hb2 : |(lit 2 1 : F32).val * s.val| ≤ 4 := by
      rw [v2, abs_mul, abs_two]; norm_num at *; linarith
    obtain ⟨f, e⟩ := mul_err_uf f2 hs.fin (lt_of_le_of_lt hb2 (by norm_num [ovf]))
    refine ⟨f, ?_⟩
    rw [v2, abs_mul, abs_two] at e
    have e' := abs_le.1 e
    have hs' := abs_le.1 hs1
    rw [abs_le]
    constructor <;> norm_num at * <;> linarith
  have hsum : p + q + (p / 2 ^ 24 + 1 / 2 ^ 150) + (q / 2 ^ 24 + 1 / 2 ^ 150) ≤ 2 ^ 127 := by
    norm_num at *; linarith
  exact ⟨key (Acc.step a1 a2 hsum).1, key (Acc.step a1 a2 hsum).2⟩

/-- `1 - 2 * (x y + z w)`. -/
theorem one_sub_two_mul_err {x z : F32} (fx : x.isFinite = true) (fz : z.isFinite = true) (hP : x.val ^ 2 + z.val ^ 2 ≤ 1.13) :
    (one - lit 2 1 * (x * x + z * z)).isFinite = true ∧
    |(one - lit 2 1 * (x * x + z * z)).val - (1 - 2 * (x.val ^ 2 + z.val ^ 2))| ≤ 1 / 2 ^ 20 := by
  have s1 := sq_nonneg x.val
  have s2 := sq_nonneg z.val
  have e1 : |x.val * x.val| = x.val ^ 2 := by rw [← sq, abs_of_nonneg s1]
  have e2 : |z.val * z.val| = z.val ^ 2 := by rw [← sq, abs_of_nonneg s2]
  obtain ⟨⟨f, e⟩, -⟩ := two_mul_err fx fx fz fz (P := x.val ^ 2 + z.val ^ 2) (by rw [e1, e2]) hP
  have hone : (one : F32) = ONE := rfl
  rw [hone]
  rw [← sq, ← sq] at e
  have e' := abs_le.1 e
  have hb : |ONE.val - (lit 2 1 * (x * x + z * z)).val| ≤ 4 := by
    rw [val_ONE, abs_le]; constructor <;> norm_num at * <;> linarith
  obtain ⟨d, hd, f2, h2⟩ := sub_err fin_ONE f 2 (by norm_num) (by norm_num) (hb.trans (by norm_num))
  refine ⟨f2, ?_⟩
  rw [h2, val_ONE]
  have hd' := abs_le.1 hd
  rw [abs_le]
  constructor <;> norm_num at * <;> linarith

/-- `atan2` of disturbed coordinates. -/
theorem atan2_near {x y : F32} (fx : x.isFinite = true) (fy : y.isFinite = true) {ρ t κ : ℝ} (h1 : ρ ≤ 1) (hκ : 1 / 2 ^ 20 ≤ κ)
    (hρ : 4 * κ ≤ ρ) (hx : |(x.val : ℝ) - ρ * Real.cos t| ≤ κ) (hy : |(y.val : ℝ) - ρ * Real.sin t| ≤ κ) :
    (y.atan2 x).isFinite = true ∧ |(y.atan2 x).val| ≤ PI.val ∧
      ∃ k : ℤ, |((y.atan2 x).val : ℝ) - (t + 2 * Real.pi * k)| ≤ 0.00284 + 4 * κ / ρ := by
  have ρ0 : 0 < ρ := by norm_num at hκ; linarith
  have c1 := Real.abs_cos_le_one t
  have s1 := Real.abs_sin_le_one t
  have big : ∀ (z : F32) (u : ℝ), |u| ≤ 1 → |(z.val : ℝ) - ρ * u| ≤ κ → |z.val| ≤ 9 * 10 ^ 18 := by
    intro z u hu hz
    have h2 : |ρ * u| ≤ 1 := by
      rw [abs_mul, abs_of_pos ρ0]
      exact mul_le_one₀ h1 (abs_nonneg _) hu
    have h3 := abs_sub_abs_le_abs_sub (z.val : ℝ) (ρ * u)
    have h4 : |(z.val : ℝ)| ≤ 2 := by linarith
    have h5 : |z.val| ≤ 2 := by exact_mod_cast h4
    exact h5.trans (by norm_num)
  have hM : (1 : ℚ) / 2 ^ 62 ≤ max |x.val| |y.val| := by
    by_contra hn
    rw [not_le, max_lt_iff] at hn
    have hx' : |(x.val : ℝ)| ≤ κ := by
      have := abs_cast_le hn.1.le
      push_cast at this
      exact this.trans (le_trans (by norm_num) hκ)
    have hy' : |(y.val : ℝ)| ≤ κ := by
      have := abs_cast_le hn.2.le
      push_cast at this
      exact this.trans (le_trans (by norm_num) hκ)
    have k1 : |ρ * Real.cos t| ≤ 2 * κ := by
      have := abs_sub_abs_le_abs_sub (ρ * Real.cos t) (x.val : ℝ)
      rw [abs_sub_comm] at hx
      linarith
    have k2 : |ρ * Real.sin t| ≤ 2 * κ := by
      have := abs_sub_abs_le_abs_sub (ρ * Real.sin t) (y.val : ℝ)
      rw [abs_sub_comm] at hy
      linarith
    have q1 := pow_le_pow_left₀ (abs_nonneg _) k1 2
    have q2 := pow_le_pow_left₀ (abs_nonneg _) k2 2
    rw [sq_abs] at q1 q2
    have q3 : ρ ^ 2 ≤ 8 * κ ^ 2 := by
      have : ρ ^ 2 = (ρ * Real.cos t) ^ 2 + (ρ * Real.sin t) ^ 2 := by
        linear_combination (-ρ ^ 2) * Real.sin_sq_add_cos_sq t
      linarith
    have κ0 : 0 < κ := lt_of_lt_of_le (by norm_num) hκ
    nlinarith
  refine ⟨(C40_atan2 fx fy (big x _ c1 hx) (big y _ s1 hy) hM).1, (C40_atan2 fx fy (big x _ c1 hx) (big y _ s1 hy) hM).2.1, ?_⟩
  obtain ⟨k, hk⟩ := Geom.arg_near (η := 2 * κ / ρ) ρ0 (by rw [div_le_iff₀ ρ0]; linarith)
    (show |(x.val : ℝ) - ρ * Real.cos t| ≤ 2 * κ / ρ / 2 * ρ by rw [show 2 * κ / ρ / 2 * ρ = κ by field_simp]; exact hx)
    (show |(y.val : ℝ) - ρ * Real.sin t| ≤ 2 * κ / ρ / 2 * ρ by rw [show 2 * κ / ρ / 2 * ρ = κ by field_simp]; exact hy)
  rw [show 2 * (2 * κ / ρ) = 4 * κ / ρ by ring] at hk
  rcases C81_atan2_accuracy fx fy (big x _ c1 hx) (big y _ s1 hy) hM with h | ⟨-, -, -, h⟩
  · refine ⟨k, ?_⟩
    have := abs_sub_le ((y.atan2 x).val : ℝ) (Complex.arg ⟨x.val, y.val⟩) (t + 2 * Real.pi * k)
    linarith
  · refine ⟨k + 1, ?_⟩
    have := abs_sub_le ((y.atan2 x).val : ℝ) (Complex.arg ⟨x.val, y.val⟩ + 2 * Real.pi) (t + 2 * Real.pi * (k + 1 : ℤ))
    have e : Complex.arg ⟨x.val, y.val⟩ + 2 * Real.pi - (t + 2 * Real.pi * (k + 1 : ℤ)) = Complex.arg ⟨x.val, y.val⟩ - (t + 2 * Real.pi * k) := by
      push_cast; ring
    rw [e] at this
    linarith

set_option maxHeartbeats 1000000 in
/-- **C97.** For a finite quaternion at distance at most `ε` from that of roll `r`, pitch `p` and yaw `y`, with `4 κ <= cos² p`
where `κ = 4.2 ε + 2^-20`, `to_euler` returns; its pitch is within `0.022 + κ / cos p` of `p`, and its roll and yaw are
within `0.00284 + 4 κ / cos p` of `r` and `y` up to full turns.  All three are finite; the pitch lies in `[-π/2, π/2]` and the
roll and the yaw in `[-π, π]`, for the constants of the crate. -/
theorem C97_to_euler {q : Quaternion} (fq : QFinite q) {r p y ε κ : ℝ} (hq : ‖qreal q - Geom.eulerQ r p y‖ ≤ ε)
    (hp : |p| ≤ Real.pi / 2) (hκ : κ = 4.2 * ε + 1 / 2 ^ 20) (hc : 4 * κ ≤ Real.cos p ^ 2) :
    ∃ R P Y, q.toEuler = .ok (R, P, Y) ∧
      (∃ k : ℤ, |(R.val : ℝ) - (r + 2 * Real.pi * k)| ≤ 0.00284 + 4 * κ / Real.cos p) ∧
      |(P.val : ℝ) - p| ≤ 0.022 + κ / Real.cos p ∧
      (∃ k : ℤ, |(Y.val : ℝ) - (y + 2 * Real.pi * k)| ≤ 0.00284 + 4 * κ / Real.cos p) ∧
      (R.isFinite = true ∧ |R.val| ≤ PI.val) ∧ (P.isFinite = true ∧ |P.val| ≤ FRAC_PI_2.val) ∧ (Y.isFinite = true ∧ |Y.val| ≤ PI.val) := by
  have ε0 : 0 ≤ ε := (norm_nonneg _).trans hq
  have hp' := abs_le.1 hp
  have c0 : 0 ≤ Real.cos p := Real.cos_nonneg_of_mem_Icc ⟨hp'.1, hp'.2⟩
  have c1 := Real.cos_le_one p
  have cc : Real.cos p ^ 2 ≤ Real.cos p := by nlinarith
  have hε : ε ≤ 0.06 := by
    have : 4 * κ ≤ 1 := by linarith
    rw [hκ] at this
    norm_num at this ⊢
    linarith
  obtain ⟨i1, i2, i3, i4, i5⟩ := Geom.eulerQ_angles r p y rfl rfl rfl rfl
  have hN : (Geom.eulerQ r p y).re ^ 2 + (Geom.eulerQ r p y).imI ^ 2 + (Geom.eulerQ r p y).imJ ^ 2 + (Geom.eulerQ r p y).imK ^ 2 = 1 := by
    rw [← Geom.norm_sq_eq, Geom.eulerQ_norm]; norm_num
  have hD := pow_le_pow_left₀ (norm_nonneg _) hq 2
  obtain ⟨p0, p1, p2, p3⟩ := qreal_proj q
  rw [Geom.norm_sq_eq] at hD
  simp only [_root_.Quaternion.re_sub, _root_.Quaternion.imI_sub, _root_.Quaternion.imJ_sub, _root_.Quaternion.imK_sub, p0, p1, p2, p3] at hD
  -- the length of `q`
  have hl : ‖qreal q‖ ≤ 1.06 := by
    have := norm_le_norm_add_norm_sub' (qreal q) (Geom.eulerQ r p y)
    rw [Geom.eulerQ_norm] at this
    norm_num at *
    linarith
  have hl2 : (qlen q : ℝ) ≤ 1.13 := by
    rw [← qreal_norm]
    exact (pow_le_pow_left₀ (norm_nonneg _) hl 2).trans (by norm_num)
  have hl3 : qlen q ≤ 1.13 := by
    have e : ((1.13 : ℚ) : ℝ) = 1.13 := by norm_num
    rw [← e] at hl2
    exact_mod_cast hl2
  rw [qlen] at hl3
  have na := sq_nonneg q.a.val
  have nb := sq_nonneg q.b.val
  have nc := sq_nonneg q.c.val
  have nd := sq_nonneg q.d.val
  have am : ∀ u v : ℚ, |u * v| ≤ (u ^ 2 + v ^ 2) / 2 := fun u v => by
    rw [abs_le]; constructor <;> nlinarith [sq_nonneg (u - v), sq_nonneg (u + v)]
  obtain ⟨fa, fb, fc, fd⟩ := fq
  have P1 : (1.13 : ℚ) / 2 ≤ 1.13 := by norm_num
  obtain ⟨⟨fA, eA⟩, -⟩ := two_mul_err fa fb fc fd (P := 1.13 / 2) (by have := am q.a.val q.b.val; have := am q.c.val q.d.val; linarith) P1
  obtain ⟨-, fP, eP⟩ := two_mul_err fa fc fb fd (P := 1.13 / 2) (by have := am q.a.val q.c.val; have := am q.b.val q.d.val; linarith) P1
  obtain ⟨⟨fC, eC⟩, -⟩ := two_mul_err fa fd fb fc (P := 1.13 / 2) (by have := am q.a.val q.d.val; have := am q.b.val q.c.val; linarith) P1
  obtain ⟨fB, eB⟩ := one_sub_two_mul_err fb fc (by linarith)
  obtain ⟨fE, eE⟩ := one_sub_two_mul_err fc fd (by linarith)
  have eA := abs_cast_le eA
  have eP := abs_cast_le eP
  have eC := abs_cast_le eC
  have eB := abs_cast_le eB
  have eE := abs_cast_le eE
  push_cast at eA eP eC eB eE
  generalize (Geom.eulerQ r p y).re = a' at *
  generalize (Geom.eulerQ r p y).imI = b' at *
  generalize (Geom.eulerQ r p y).imJ = c' at *
  generalize (Geom.eulerQ r p y).imK = d' at *
  obtain ⟨dA, dP, dB⟩ := Geom.quad_near hN hD ε0
  obtain ⟨dC, -, -⟩ := Geom.quad_near (a := q.a.val) (b := q.d.val) (c := q.b.val) (d := q.c.val)
    (a' := a') (b' := d') (c' := b') (d' := c') (ε := ε) (by linarith) (by linarith) ε0
  obtain ⟨-, -, dE⟩ := Geom.quad_near (a := q.a.val) (b := q.c.val) (c := q.d.val) (d := q.b.val)
    (a' := a') (b' := c') (c' := d') (d' := b') (ε := ε) (by linarith) (by linarith) ε0
  have ε2 : ε ^ 2 ≤ 0.06 * ε := by rw [sq]; exact mul_le_mul_of_nonneg_right hε ε0
  have κ1 : 1 / 2 ^ 20 ≤ κ := by rw [hκ]; linarith
  have tA : |((lit 2 1 * (q.a * q.b + q.c * q.d)).val : ℝ) - Real.cos p * Real.sin r| ≤ κ := by
    rw [mul_comm, ← i1, hκ]
    rw [abs_le] at *
    constructor <;> norm_num at * <;> linarith
  have tB : |((one - lit 2 1 * (q.b * q.b + q.c * q.c)).val : ℝ) - Real.cos p * Real.cos r| ≤ κ := by
    rw [mul_comm, ← i2, hκ]
    rw [abs_le] at *
    constructor <;> norm_num at * <;> linarith
  have tC : |((lit 2 1 * (q.a * q.d + q.b * q.c)).val : ℝ) - Real.cos p * Real.sin y| ≤ κ := by
    rw [mul_comm, ← i4, hκ]
    rw [abs_le] at *
    constructor <;> norm_num at * <;> linarith
  have tE : |((one - lit 2 1 * (q.c * q.c + q.d * q.d)).val : ℝ) - Real.cos p * Real.cos y| ≤ κ := by
    rw [mul_comm, ← i5, hκ]
    rw [abs_le] at *
    constructor <;> norm_num at * <;> linarith
  have tP : |((lit 2 1 * (q.a * q.c - q.b * q.d)).val : ℝ) - Real.sin p| ≤ κ / 2 := by
    rw [← i3, hκ]
    rw [abs_le] at *
    constructor <;> norm_num at * <;> linarith
  obtain ⟨g1, g2⟩ := Geom.arcsin_near hp (lt_of_lt_of_le (by norm_num) κ1) hc tP
  obtain ⟨P, hP, hPe⟩ := C82_asin fP (by exact_mod_cast g2)
  obtain ⟨P', hP', fP', bP', -⟩ := C42_asin fP (by exact_mod_cast g2)
  have eP' : P' = P := by rw [hP] at hP'; cases hP'; rfl
  subst eP'
  obtain ⟨r1, r2, r3⟩ := atan2_near fB fA c1 κ1 (hc.trans cc) tB tA
  obtain ⟨y1, y2, y3⟩ := atan2_near fE fC c1 κ1 (hc.trans cc) tE tC
  refine ⟨_, P', _, by unfold Quaternion.toEuler; dsimp only; rw [hP, ok_bind], r3, ?_, y3, ⟨r1, r2⟩, ⟨fP', bP'⟩, y1, y2⟩
  have := abs_sub_le (P'.val : ℝ) (Real.arcsin (lit 2 1 * (q.a * q.c - q.b * q.d)).val) p
  linarith

omit [Cfg] in
/-- The quaternion `(1/2, 1/2, 1/2, 1/2)` is exactly that of roll `pi/2`, pitch `0`, yaw `pi/2`. -/
example : ∃ q : Quaternion, QFinite q ∧ ‖qreal q - Geom.eulerQ (Real.pi / 2) 0 (Real.pi / 2)‖ ≤ 0 ∧
    |(0 : ℝ)| ≤ Real.pi / 2 ∧ 4 * (4.2 * 0 + 1 / 2 ^ 20) ≤ Real.cos 0 ^ 2 := by
  refine ⟨⟨⟨0x3f000000#32⟩, ⟨0x3f000000#32⟩, ⟨0x3f000000#32⟩, ⟨0x3f000000#32⟩⟩, ⟨by decide, by decide, by decide, by decide⟩, ?_,
    by rw [abs_zero]; positivity, by rw [Real.cos_zero]; norm_num⟩
  have v : (⟨0x3f000000#32⟩ : F32).val = 1 / 2 := by rw [val_of_units (u := 2 ^ 148) (by decide +kernel)]; norm_num
  have e : Real.pi / 2 / 2 = Real.pi / 4 := by ring
  have h2 : Real.sqrt 2 * Real.sqrt 2 = 2 := Real.mul_self_sqrt (by norm_num)
  rw [norm_le_zero_iff, sub_eq_zero]
  ext <;> simp only [qreal, v, Geom.eulerQ, _root_.Quaternion.re_mul, _root_.Quaternion.imI_mul, _root_.Quaternion.imJ_mul,
    _root_.Quaternion.imK_mul, Geom.turnQ_re, Geom.turnQ_imI, Geom.turnQ_imJ, Geom.turnQ_imK, e, Real.cos_pi_div_four,
    Real.sin_pi_div_four, zero_div, Real.cos_zero, Real.sin_zero] <;> push_cast <;> linarith

/-- **C97, end to end.** Turning by `theta` about `x`, `|theta| <= 8192`: the roll read back is `theta` up to full turns and
`0.0506`, the pitch and the yaw are zero up to `0.034` and `0.0506`.  The same about `z` for the yaw, and about `y` for the
pitch when `|theta| <= 1.345`. -/
theorem C97_axis_roundtrip {t : F32} (ht : t.isFinite = true) (hb : |t.val| ≤ 8192) :
    (∃ R P Y, (Quaternion.axisAngle ⟨ONE, ZERO, ZERO⟩ t).toEuler = .ok (R, P, Y) ∧
      (∃ k : ℤ, |(R.val : ℝ) - (t.val + 2 * Real.pi * k)| ≤ 0.0506) ∧ |(P.val : ℝ)| ≤ 0.034 ∧
      ∃ k : ℤ, |(Y.val : ℝ) - 2 * Real.pi * k| ≤ 0.0506) ∧
    (∃ R P Y, (Quaternion.axisAngle ⟨ZERO, ZERO, ONE⟩ t).toEuler = .ok (R, P, Y) ∧
      (∃ k : ℤ, |(Y.val : ℝ) - (t.val + 2 * Real.pi * k)| ≤ 0.0506) ∧ |(P.val : ℝ)| ≤ 0.034 ∧
      ∃ k : ℤ, |(R.val : ℝ) - 2 * Real.pi * k| ≤ 0.0506) ∧
    (|t.val| ≤ 1.345 → ∃ R P Y, (Quaternion.axisAngle ⟨ZERO, ONE, ZERO⟩ t).toEuler = .ok (R, P, Y) ∧
      |(P.val : ℝ) - t.val| ≤ 0.077 ∧
      (∃ k : ℤ, |(R.val : ℝ) - 2 * Real.pi * k| ≤ 0.222) ∧ ∃ k : ℤ, |(Y.val : ℝ) - 2 * Real.pi * k| ≤ 0.222) := by
  have v0 : ZERO.val = 0 := val_ZERO
  have v1 := val_ONE
  have f0 : ZERO.isFinite = true := fin_ZERO
  have f1 := fin_ONE
  have t0 : Geom.turnQ 0 0 1 0 = 1 := by
    ext <;> simp [Geom.turnQ_re, Geom.turnQ_imI, Geom.turnQ_imJ, Geom.turnQ_imK] <;> rfl
  have t1 : Geom.turnQ 0 1 0 0 = 1 := by
    ext <;> simp [Geom.turnQ_re, Geom.turnQ_imI, Geom.turnQ_imJ, Geom.turnQ_imK] <;> rfl
  have t2 : Geom.turnQ 1 0 0 0 = 1 := by
    ext <;> simp [Geom.turnQ_re, Geom.turnQ_imI, Geom.turnQ_imJ, Geom.turnQ_imK] <;> rfl
  have hpi := Real.pi_gt_d6
  obtain ⟨κ, hκ⟩ : ∃ κ : ℝ, κ = 4.2 * 0.00284 + 1 / 2 ^ 20 := ⟨_, rfl⟩
  refine ⟨?_, ?_, ?_⟩
  · obtain ⟨fq, hq⟩ := C96_axis_angle (n := ⟨ONE, ZERO, ZERO⟩) ht hb f1 f0 f0 (by dsimp only; rw [v0, v1]; norm_num)
    dsimp only at hq
    rw [v0, v1] at hq
    push_cast at hq
    have e : Geom.turnQ 1 0 0 t.val = Geom.eulerQ t.val 0 0 := by rw [Geom.eulerQ, t0, t1, one_mul, one_mul]
    rw [e] at hq
    obtain ⟨R, P, Y, h, hR, hP, hY, -⟩ := C97_to_euler fq hq (by rw [abs_zero]; linarith) hκ (by rw [Real.cos_zero, hκ]; norm_num)
    have b : 4 * κ / Real.cos 0 ≤ 0.04772 := by rw [Real.cos_zero, hκ]; norm_num
    have b' : κ / Real.cos 0 ≤ 0.012 := by rw [Real.cos_zero, hκ]; norm_num
    refine ⟨R, P, Y, h, hR.imp fun k hk => hk.trans (by linarith), ?_, hY.imp fun k hk => ?_⟩
    · rw [sub_zero] at hP; linarith
    · rw [zero_add] at hk; linarith
  · obtain ⟨fq, hq⟩ := C96_axis_angle (n := ⟨ZERO, ZERO, ONE⟩) ht hb f0 f0 f1 (by dsimp only; rw [v0, v1]; norm_num)
    dsimp only at hq
    rw [v0, v1] at hq
    push_cast at hq
    have e : Geom.turnQ 0 0 1 t.val = Geom.eulerQ 0 0 t.val := by rw [Geom.eulerQ, t2, t1, mul_one, mul_one]
    rw [e] at hq
    obtain ⟨R, P, Y, h, hR, hP, hY, -⟩ := C97_to_euler fq hq (by rw [abs_zero]; linarith) hκ (by rw [Real.cos_zero, hκ]; norm_num)
    have b : 4 * κ / Real.cos 0 ≤ 0.04772 := by rw [Real.cos_zero, hκ]; norm_num
    have b' : κ / Real.cos 0 ≤ 0.012 := by rw [Real.cos_zero, hκ]; norm_num
    refine ⟨R, P, Y, h, hY.imp fun k hk => hk.trans (by linarith), ?_, hR.imp fun k hk => ?_⟩
    · rw [sub_zero] at hP; linarith
    · rw [zero_add] at hk; linarith
  · intro hs
    have hs' := abs_cast_le hs
    push_cast at hs'
    have hc : 0.2185 ≤ Real.cos (t.val : ℝ) := by
      rw [← Real.cos_abs, ← Real.sin_pi_div_two_sub]
      have g := Real.sin_gt_sub_cube (x := 0.2257) (by norm_num)
      have m := Real.sin_le_sin_of_le_of_le_pi_div_two (x := 0.2257) (y := Real.pi / 2 - |(t.val : ℝ)|) (by linarith)
        (by have := abs_nonneg (t.val : ℝ); linarith) (by norm_num at *; linarith)
      norm_num at *
      linarith
    obtain ⟨fq, hq⟩ := C96_axis_angle (n := ⟨ZERO, ONE, ZERO⟩) ht hb f0 f1 f0 (by dsimp only; rw [v0, v1]; norm_num)
    dsimp only at hq
    rw [v0, v1] at hq
    push_cast at hq
    have e : Geom.turnQ 0 1 0 t.val = Geom.eulerQ 0 t.val 0 := by rw [Geom.eulerQ, t0, t2, mul_one, one_mul]
    rw [e] at hq
    obtain ⟨R, P, Y, h, hR, hP, hY, -⟩ := C97_to_euler fq hq (by linarith) hκ (by rw [hκ]; nlinarith)
    have b : 4 * κ / Real.cos (t.val : ℝ) ≤ 0.2185 := by rw [div_le_iff₀ (by linarith), hκ]; nlinarith
    have b' : κ / Real.cos (t.val : ℝ) ≤ 0.055 := by rw [div_le_iff₀ (by linarith), hκ]; nlinarith
    refine ⟨R, P, Y, h, hP.trans (by linarith), hR.imp fun k hk => ?_, hY.imp fun k hk => ?_⟩
    · rw [zero_add] at hk; linarith
    · rw [zero_add] at hk; linarith

end Micromath.Props
