import Verif.Props.RoundTrip
import Verif.Props.Metric
import Verif.Props.VecErr

/-!
# C141: angles between vectors, polar coordinates
-/

set_option exponentiation.threshold 1000
set_option maxHeartbeats 400000

namespace Micromath.Props
open F32 Spec

variable [Cfg]

/-- `atan2` of a disturbed point. -/
theorem atan2_disturbed {X Y : F32} {N α δ : ℝ} (hX : X.isFinite = true) (hY : Y.isFinite = true) (h1 : 1 / 2 ^ 61 ≤ N) (h2 : N ≤ 2 ^ 62)
    (hδ : δ ≤ 1 / 2 ^ 8) (ex : |(X.val : ℝ) - N * Real.cos α| ≤ δ * N) (ey : |(Y.val : ℝ) - N * Real.sin α| ≤ δ * N) :
    (Y.atan2 X).isFinite = true ∧ |(Y.atan2 X).val| ≤ PI.val ∧ (Y.sign = false → 0 ≤ (Y.atan2 X).val) ∧
    ∃ k : ℤ, |((Y.atan2 X).val : ℝ) - (α + 2 * Real.pi * k)| ≤ 0.00284 + 4 * δ := by
  have N0 : 0 < N := lt_of_lt_of_le (by norm_num) h1
  have c1 := Real.abs_cos_le_one α
  have s1 := Real.abs_sin_le_one α
  have top : ∀ z w : ℝ, |w| ≤ 1 → |z - N * w| ≤ δ * N → |z| ≤ 9 * 10 ^ 18 := by
    intro z w hw hz
    have e : |N * w| ≤ N := by rw [abs_mul, abs_of_pos N0]; nlinarith
    have := abs_sub_abs_le_abs_sub z (N * w)
    have : δ * N ≤ 1 / 2 ^ 8 * N := by nlinarith
    norm_num at *
    linarith
  have bX : |X.val| ≤ 9 * 10 ^ 18 := by
    have := top _ _ c1 ex
    exact_mod_cast this
  have bY : |Y.val| ≤ 9 * 10 ^ 18 := by
    have := top _ _ s1 ey
    exact_mod_cast this
  have hM : (1 : ℚ) / 2 ^ 62 ≤ max |X.val| |Y.val| := by
    by_contra h
    rw [not_le, max_lt_iff] at h
    have hx : |(X.val : ℝ)| < 1 / 2 ^ 62 := by
      have := (Rat.cast_lt (K := ℝ)).2 h.1
      push_cast at this; exact this
    have hy : |(Y.val : ℝ)| < 1 / 2 ^ 62 := by
      have := (Rat.cast_lt (K := ℝ)).2 h.2
      push_cast at this; exact this
    have low : ∀ z w : ℝ, |z - N * w| ≤ δ * N → |z| < 1 / 2 ^ 62 → |N * w| ≤ 0.51 * N := by
      intro z w hz hl
      have := abs_sub_abs_le_abs_sub (N * w) z
      rw [abs_sub_comm] at this
      have : δ * N ≤ 1 / 2 ^ 8 * N := by nlinarith
      norm_num at *
      linarith
    have a1 := low _ _ ex hx
    have a2 := low _ _ ey hy
    have q1 : (N * Real.cos α) ^ 2 ≤ (0.51 * N) ^ 2 := by rw [← sq_abs]; exact pow_le_pow_left₀ (abs_nonneg _) a1 2
    have q2 : (N * Real.sin α) ^ 2 ≤ (0.51 * N) ^ 2 := by rw [← sq_abs]; exact pow_le_pow_left₀ (abs_nonneg _) a2 2
    have := Real.sin_sq_add_cos_sq α
    have e : (N * Real.cos α) ^ 2 + (N * Real.sin α) ^ 2 = N ^ 2 := by linear_combination N ^ 2 * this
    have := pow_pos N0 2
    rw [mul_pow] at q1 q2
    rw [mul_pow, mul_pow] at e
    norm_num at *
    nlinarith
  obtain ⟨k, hk⟩ := Geom.arg_near (ρ := N) (t := α) (x := X.val) (y := Y.val) (η := 2 * δ) N0 (by norm_num at hδ ⊢; linarith)
    (by rw [mul_div_cancel_left₀ δ two_ne_zero]; exact ex) (by rw [mul_div_cancel_left₀ δ two_ne_zero]; exact ey)
  obtain ⟨k1, k2⟩ := abs_le.1 hk
  obtain ⟨g1, g2, -, -, g3, -⟩ := C40_atan2 hX hY bX bY hM
  refine ⟨g1, g2, g3, ?_⟩
  rcases C81_atan2_accuracy hX hY bX bY hM with h | ⟨-, -, -, h⟩
  · refine ⟨k, ?_⟩
    obtain ⟨a1, a2⟩ := abs_le.1 h
    rw [abs_le]
    constructor <;> linarith
  · refine ⟨k + 1, ?_⟩
    obtain ⟨a1, a2⟩ := abs_le.1 h
    rw [abs_le]
    push_cast
    constructor <;> linarith

omit [Cfg] in
theorem abs_prod_le (a b : ℝ) : |Real.cos a * Real.cos b| + |Real.sin a * Real.sin b| ≤ 1 ∧ |Real.cos a * Real.sin b| + |Real.sin a * Real.cos b| ≤ 1 := by
  have h1 := Real.sin_sq_add_cos_sq a
  have h2 := Real.sin_sq_add_cos_sq b
  rw [← sq_abs (Real.sin a), ← sq_abs (Real.cos a)] at h1
  rw [← sq_abs (Real.sin b), ← sq_abs (Real.cos b)] at h2
  simp only [abs_mul]
  constructor
  · nlinarith [sq_nonneg (|Real.cos a| - |Real.cos b|), sq_nonneg (|Real.sin a| - |Real.sin b|)]
  · nlinarith [sq_nonneg (|Real.cos a| - |Real.sin b|), sq_nonneg (|Real.sin a| - |Real.cos b|)]

/-- **C141, the signed angle between vectors of the plane.** If `u` has length `ρ` and polar angle `a`, and `v` length `σ` and polar angle `b`,
`atan2(u.perpendicular_dot(v), u.dot(v))` is `b - a` up to full turns, within `0.00285`, for lengths between `2^-30` and `2^31`. -/
theorem C141_angle2 {u v : Vector2d F32} {ρ σ a b : ℝ} (fu : ∀ x ∈ floats2 u, x.isFinite = true) (fv : ∀ x ∈ floats2 v, x.isFinite = true)
    (ux : (u.x.val : ℝ) = ρ * Real.cos a) (uy : (u.y.val : ℝ) = ρ * Real.sin a) (vx : (v.x.val : ℝ) = σ * Real.cos b)
    (vy : (v.y.val : ℝ) = σ * Real.sin b) (r1 : 1 / 2 ^ 30 ≤ ρ) (r2 : ρ ≤ 2 ^ 31) (s1 : 1 / 2 ^ 30 ≤ σ) (s2 : σ ≤ 2 ^ 31) :
    ∃ p d : F32, u.perpendicularDot v = .ok p ∧ u.dot v = .ok d ∧
      ∃ k : ℤ, |((p.atan2 d).val : ℝ) - (b - a + 2 * Real.pi * k)| ≤ 0.00285 := by
  simp only [floats2, List.mem_cons, List.not_mem_nil, or_false, forall_eq_or_imp, forall_eq] at fu fv
  have ρ0 : 0 < ρ := lt_of_lt_of_le (by norm_num) r1
  have σ0 : 0 < σ := lt_of_lt_of_le (by norm_num) s1
  have N1 : 1 / 2 ^ 60 ≤ ρ * σ := by
    calc (1 : ℝ) / 2 ^ 60 = 1 / 2 ^ 30 * (1 / 2 ^ 30) := by norm_num
      _ ≤ ρ * σ := mul_le_mul r1 s1 (by norm_num) ρ0.le
  have N2 : ρ * σ ≤ 2 ^ 62 := by
    calc ρ * σ ≤ 2 ^ 31 * 2 ^ 31 := mul_le_mul r2 s2 σ0.le (by norm_num)
      _ = 2 ^ 62 := by norm_num
  obtain ⟨p1, p2⟩ := abs_prod_le a b
  have N0 : 0 < ρ * σ := mul_pos ρ0 σ0
  have q1 : |(u.x.val : ℝ) * v.x.val| + |(u.y.val : ℝ) * v.y.val| ≤ ρ * σ := by
    rw [ux, uy, vx, vy, show ρ * Real.cos a * (σ * Real.cos b) = ρ * σ * (Real.cos a * Real.cos b) by ring,
      show ρ * Real.sin a * (σ * Real.sin b) = ρ * σ * (Real.sin a * Real.sin b) by ring, abs_mul (ρ * σ), abs_mul (ρ * σ), abs_of_pos N0, ← mul_add]
    nlinarith
  have q2 : |(u.x.val : ℝ) * v.y.val| + |(u.y.val : ℝ) * v.x.val| ≤ ρ * σ := by
    rw [ux, uy, vx, vy, show ρ * Real.cos a * (σ * Real.sin b) = ρ * σ * (Real.cos a * Real.sin b) by ring,
      show ρ * Real.sin a * (σ * Real.cos b) = ρ * σ * (Real.sin a * Real.cos b) by ring, abs_mul (ρ * σ), abs_mul (ρ * σ), abs_of_pos N0, ← mul_add]
    nlinarith
  have l1 : |u.x.val * v.x.val| + |u.y.val * v.y.val| ≤ 2 ^ 125 := by
    have : |(u.x.val : ℝ) * v.x.val| + |(u.y.val : ℝ) * v.y.val| ≤ 2 ^ 125 := q1.trans (N2.trans (by norm_num))
    exact_mod_cast this
  have l2 : |u.x.val * v.y.val| + |u.y.val * v.x.val| ≤ 2 ^ 125 := by
    have : |(u.x.val : ℝ) * v.y.val| + |(u.y.val : ℝ) * v.x.val| ≤ 2 ^ 125 := q2.trans (N2.trans (by norm_num))
    exact_mod_cast this
  obtain ⟨h1, h2⟩ := C107_dot2 u v fu.1 fu.2 fv.1 fv.2
  obtain ⟨d, hd, fd, ed⟩ := h1 l1
  obtain ⟨p, hp, fp, ep⟩ := h2 l2
  refine ⟨p, d, hp, hd, ?_⟩
  have ed' : |(d.val : ℝ) - (u.x.val * v.x.val + u.y.val * v.y.val)| ≤ 3 / 2 ^ 24 * (|(u.x.val : ℝ) * v.x.val| + |(u.y.val : ℝ) * v.y.val|) + 1 / 2 ^ 148 := by
    have := (Rat.cast_le (K := ℝ)).2 ed
    push_cast at this; exact this
  have ep' : |(p.val : ℝ) - (u.x.val * v.y.val - u.y.val * v.x.val)| ≤ 3 / 2 ^ 24 * (|(u.x.val : ℝ) * v.y.val| + |(u.y.val : ℝ) * v.x.val|) + 1 / 2 ^ 148 := by
    have := (Rat.cast_le (K := ℝ)).2 ep
    push_cast at this; exact this
  rw [show (u.x.val : ℝ) * v.x.val + u.y.val * v.y.val = ρ * σ * Real.cos (b - a) by rw [ux, uy, vx, vy, Real.cos_sub]; ring] at ed'
  rw [show (u.x.val : ℝ) * v.y.val - u.y.val * v.x.val = ρ * σ * Real.sin (b - a) by rw [ux, uy, vx, vy, Real.sin_sub]; ring] at ep'
  have tiny : (1 : ℝ) / 2 ^ 148 ≤ 1 / 2 ^ 24 * (ρ * σ) := by
    norm_num at N1 ⊢; linarith
  obtain ⟨-, -, -, k, hk⟩ := atan2_disturbed (N := ρ * σ) (α := b - a) (δ := 1 / 2 ^ 22) fd fp (le_trans (by norm_num) N1) N2 (by norm_num)
    (ed'.trans (by norm_num at q1 tiny ⊢; linarith)) (ep'.trans (by norm_num at q2 tiny ⊢; linarith))
  exact ⟨k, hk.trans (by norm_num)⟩

/-! ### Polar coordinates -/

/-- `hypot` against the real length. -/
theorem hypot_real {x y : F32} {ρ : ℝ} (fx : x.isFinite = true) (fy : y.isFinite = true) (e : (x.val : ℝ) ^ 2 + (y.val : ℝ) ^ 2 = ρ ^ 2)
    (r1 : 1 / 2 ^ 50 ≤ ρ) (r2 : ρ ≤ 2 ^ 62) :
    (x.hypot y).isFinite = true ∧ (1 - 1 / 2 ^ 20) * ρ ≤ (x.hypot y).val ∧ ((x.hypot y).val : ℝ) ≤ 1.0607 * ρ := by
  have ρ0 : 0 < ρ := lt_of_lt_of_le (by norm_num) r1
  have h1 : 1 / 2 ^ 100 ≤ x.val ^ 2 + y.val ^ 2 := by
    have : (1 : ℝ) / 2 ^ 100 ≤ (x.val : ℝ) ^ 2 + (y.val : ℝ) ^ 2 := by
      rw [e]
      calc (1 : ℝ) / 2 ^ 100 = (1 / 2 ^ 50) ^ 2 := by norm_num
        _ ≤ ρ ^ 2 := pow_le_pow_left₀ (by norm_num) r1 2
    have h : ((1 / 2 ^ 100 : ℚ) : ℝ) ≤ ((x.val ^ 2 + y.val ^ 2 : ℚ) : ℝ) := by push_cast; exact this
    exact (Rat.cast_le (K := ℝ)).1 h
  have h2 : x.val ^ 2 + y.val ^ 2 ≤ 2 ^ 124 := by
    have : (x.val : ℝ) ^ 2 + (y.val : ℝ) ^ 2 ≤ 2 ^ 124 := by
      rw [e]
      calc ρ ^ 2 ≤ (2 ^ 62) ^ 2 := pow_le_pow_left₀ ρ0.le r2 2
        _ = 2 ^ 124 := by norm_num
    exact_mod_cast this
  have hS : SumSq (x * x + y * y) (x.val ^ 2 + y.val ^ 2) := by
    obtain ⟨⟨f, e⟩, -⟩ := two_err fx fy fx fy (by rw [abs_mul_self, abs_mul_self]; nlinarith)
    rw [abs_mul_self, abs_mul_self] at e
    refine ⟨f, ?_⟩
    rw [sq, sq]
    refine e.trans ?_
    have := mul_self_nonneg x.val
    have := mul_self_nonneg y.val
    norm_num; linarith
  obtain ⟨f, p, a, b⟩ := hS.sqrt h1
  have hh : x.hypot y = (x * x + y * y).sqrt := rfl
  rw [hh]
  refine ⟨f, ?_⟩
  have a' := (Rat.cast_le (K := ℝ)).2 a
  have b' := (Rat.cast_le (K := ℝ)).2 b
  have p' : (0 : ℝ) < (x * x + y * y).sqrt.val := by exact_mod_cast p
  push_cast at a' b'
  rw [e] at a' b'
  generalize ((x * x + y * y).sqrt.val : ℝ) = z at *
  have q := pow_pos ρ0 2
  constructor
  · refine le_of_sq_le_sq ?_ p'.le
    rw [mul_pow]
    norm_num at a' ⊢; linarith
  · refine le_of_sq_le_sq ?_ (by positivity)
    rw [mul_pow]
    norm_num at b' ⊢; linarith

/-- A product of a radius with a cosine or a sine that is off by at most `ε`. -/
theorem radius_mul {r c : F32} {w ε : ℝ} (fr : r.isFinite = true) (fc : c.isFinite = true) (r1 : 1 / 2 ^ 60 ≤ (r.val : ℝ)) (r2 : (r.val : ℝ) ≤ 2 ^ 100)
    (bc : |c.val| ≤ 1 + 1 / 2 ^ 20) (e : |(c.val : ℝ) - w| ≤ ε) :
    (r * c).isFinite = true ∧ |((r * c).val : ℝ) - r.val * w| ≤ (ε + 1 / 2 ^ 20) * r.val := by
  have r0 : (0 : ℝ) < r.val := lt_of_lt_of_le (by norm_num) r1
  have r0' : 0 < r.val := by exact_mod_cast r0
  have r2' : r.val ≤ 2 ^ 100 := by exact_mod_cast r2
  have hb : |r.val * c.val| ≤ (1 + 1 / 2 ^ 20) * r.val := by rw [abs_mul, abs_of_pos r0']; nlinarith
  obtain ⟨f, h⟩ := mul_err_uf fr fc (lt_of_le_of_lt hb (by unfold ovf; norm_num at r2' ⊢; linarith))
  refine ⟨f, ?_⟩
  have h' := (Rat.cast_le (K := ℝ)).2 h
  have hb' := (Rat.cast_le (K := ℝ)).2 hb
  push_cast at h' hb'
  have e2 : |(r.val : ℝ) * c.val - r.val * w| ≤ ε * r.val := by
    rw [← mul_sub, abs_mul, abs_of_pos r0]; nlinarith
  have := abs_sub_le ((r * c).val : ℝ) (r.val * c.val) (r.val * w)
  norm_num at h' hb' r1 this e2 ⊢
  linarith

/-- **C141, from polar coordinates and back.** For a radius in `2^-49 .. 2^60` and an angle of magnitude at most `4096`, the point
`(r cos t, r sin t)` is within `0.00201 r` of the exact one in each coordinate, its `hypot` is between `0.997` and `1.064` times the radius,
and its `atan2` is the angle up to full turns, within `0.011`. -/
theorem C141_from_polar {r t : F32} (fr : r.isFinite = true) (ft : t.isFinite = true) (r1 : 1 / 2 ^ 49 ≤ r.val) (r2 : r.val ≤ 2 ^ 60)
    (bt : |t.val| ≤ 4096) :
    |((r * t.cos).val : ℝ) - r.val * Real.cos t.val| ≤ 0.00201 * r.val ∧
    |((r * t.sin).val : ℝ) - r.val * Real.sin t.val| ≤ 0.00201 * r.val ∧
    0.997 * r.val ≤ ((r * t.cos).hypot (r * t.sin)).val ∧ ((r * t.cos).hypot (r * t.sin)).val ≤ 1.064 * r.val ∧
    ∃ k : ℤ, |(((r * t.sin).atan2 (r * t.cos)).val : ℝ) - (t.val + 2 * Real.pi * k)| ≤ 0.011 := by
  obtain ⟨fc, bc, ec⟩ := C34_cos ft bt
  obtain ⟨fs, bs, es⟩ := C36_sin ft bt
  have r1' := (Rat.cast_le (K := ℝ)).2 r1
  have r2' := (Rat.cast_le (K := ℝ)).2 r2
  push_cast at r1' r2'
  have r0 : (0 : ℝ) < r.val := lt_of_lt_of_le (by norm_num) r1'
  obtain ⟨fX, eX⟩ := radius_mul fr fc (le_trans (by norm_num) r1') (r2'.trans (by norm_num)) bc ec
  obtain ⟨fY, eY⟩ := radius_mul fr fs (le_trans (by norm_num) r1') (r2'.trans (by norm_num)) bs es
  replace eX : |((r * t.cos).val : ℝ) - r.val * Real.cos t.val| ≤ 0.00201 * r.val := eX.trans (by nlinarith)
  replace eY : |((r * t.sin).val : ℝ) - r.val * Real.sin t.val| ≤ 0.00201 * r.val := eY.trans (by nlinarith)
  refine ⟨eX, eY, ?_⟩
  obtain ⟨-, -, -, hk⟩ := atan2_disturbed fX fY (le_trans (by norm_num) r1') (r2'.trans (by norm_num)) (by norm_num) eX eY
  rw [← and_assoc]
  refine ⟨?_, hk.imp fun k h => h.trans (by norm_num)⟩
  have hS : ∃ ρ : ℝ, ((r * t.cos).val : ℝ) ^ 2 + ((r * t.sin).val : ℝ) ^ 2 = ρ ^ 2 ∧ 0.9971 * r.val ≤ ρ ∧ ρ ≤ 1.0029 * r.val := by
    refine ⟨√(((r * t.cos).val : ℝ) ^ 2 + ((r * t.sin).val : ℝ) ^ 2), (Real.sq_sqrt (by positivity)).symm, ?_⟩
    obtain ⟨d, hd⟩ : ∃ d, d = ((r * t.cos).val : ℝ) - r.val * Real.cos t.val := ⟨_, rfl⟩
    obtain ⟨f, hf⟩ : ∃ f, f = ((r * t.sin).val : ℝ) - r.val * Real.sin t.val := ⟨_, rfl⟩
    rw [← hd] at eX
    rw [← hf] at eY
    rw [show ((r * t.cos).val : ℝ) = r.val * Real.cos t.val + d by rw [hd]; ring,
      show ((r * t.sin).val : ℝ) = r.val * Real.sin t.val + f by rw [hf]; ring]
    have hsc := Real.sin_sq_add_cos_sq (t.val : ℝ)
    generalize (r.val : ℝ) = R at *
    generalize Real.cos (t.val : ℝ) = c at *
    generalize Real.sin (t.val : ℝ) = s at *
    have d2 : d ^ 2 ≤ (0.00201 * R) ^ 2 := by rw [← sq_abs d]; exact pow_le_pow_left₀ (abs_nonneg _) eX 2
    have f2 : f ^ 2 ≤ (0.00201 * R) ^ 2 := by rw [← sq_abs f]; exact pow_le_pow_left₀ (abs_nonneg _) eY 2
    have cs : (c * d + s * f) ^ 2 ≤ (0.002843 * R) ^ 2 := by
      have : (c * d + s * f) ^ 2 + (c * f - s * d) ^ 2 = d ^ 2 + f ^ 2 := by linear_combination (d ^ 2 + f ^ 2) * hsc
      nlinarith [sq_nonneg (c * f - s * d), sq_nonneg R]
    have cs' := abs_le_of_sq_le_sq' cs (by positivity)
    have q := pow_pos r0 2
    have ex : (R * c + d) ^ 2 + (R * s + f) ^ 2 = R ^ 2 + 2 * R * (c * d + s * f) + d ^ 2 + f ^ 2 := by linear_combination R ^ 2 * hsc
    rw [ex]
    constructor
    · refine Real.le_sqrt_of_sq_le ?_
      nlinarith [sq_nonneg d, sq_nonneg f]
    · rw [Real.sqrt_le_left (by positivity)]
      nlinarith
  obtain ⟨ρ, hρ, ρ1, ρ2⟩ := hS
  obtain ⟨-, a, b⟩ := hypot_real fX fY hρ (by norm_num at *; linarith) (by norm_num at *; linarith)
  constructor
  · have : (0.997 : ℝ) * r.val ≤ ((r * t.cos).hypot (r * t.sin)).val := by norm_num at *; linarith
    have h : ((0.997 * r.val : ℚ) : ℝ) ≤ (((r * t.cos).hypot (r * t.sin)).val : ℝ) := by push_cast; norm_num at *; linarith
    exact (Rat.cast_le (K := ℝ)).1 h
  · have : (((r * t.cos).hypot (r * t.sin)).val : ℝ) ≤ 1.064 * r.val := by norm_num at *; linarith
    have h : (((r * t.cos).hypot (r * t.sin)).val : ℝ) ≤ ((1.064 * r.val : ℚ) : ℝ) := by push_cast; norm_num at *; linarith
    exact (Rat.cast_le (K := ℝ)).1 h

/-- **C141, to polar coordinates and back.** For a finite point at distance `ρ` in `2^-50 .. 2^60` and polar angle `α`, `hypot` is within
`-2^-20 .. 6.07%` of `ρ`, `atan2` within `0.00284` of `α` up to full turns, and the point rebuilt from both is within `0.067 ρ` of the
original in each coordinate. -/
theorem C141_to_polar {x y : F32} {ρ α : ℝ} (fx : x.isFinite = true) (fy : y.isFinite = true) (ex : (x.val : ℝ) = ρ * Real.cos α)
    (ey : (y.val : ℝ) = ρ * Real.sin α) (r1 : 1 / 2 ^ 50 ≤ ρ) (r2 : ρ ≤ 2 ^ 60) :
    (1 - 1 / 2 ^ 20) * ρ ≤ (x.hypot y).val ∧ ((x.hypot y).val : ℝ) ≤ 1.0607 * ρ ∧
    (∃ k : ℤ, |((y.atan2 x).val : ℝ) - (α + 2 * Real.pi * k)| ≤ 0.00284) ∧
    |(((x.hypot y) * (y.atan2 x).cos).val : ℝ) - x.val| ≤ 0.067 * ρ ∧ |(((x.hypot y) * (y.atan2 x).sin).val : ℝ) - y.val| ≤ 0.067 * ρ := by
  have ρ0 : 0 < ρ := lt_of_lt_of_le (by norm_num) r1
  have hsc := Real.sin_sq_add_cos_sq α
  obtain ⟨fr, a, b⟩ := hypot_real (ρ := ρ) fx fy (by rw [ex, ey]; linear_combination ρ ^ 2 * hsc) r1 (r2.trans (by norm_num))
  obtain ⟨ft, bt, -, k, hk⟩ := atan2_disturbed (N := ρ) (α := α) (δ := 0) fx fy (le_trans (by norm_num) r1) (r2.trans (by norm_num)) (by norm_num)
    (by rw [ex]; simp) (by rw [ey]; simp)
  rw [mul_zero, add_zero] at hk
  refine ⟨a, b, ⟨k, hk⟩, ?_⟩
  replace bt : |(y.atan2 x).val| ≤ 4096 := bt.trans (by rw [val_PI]; norm_num)
  obtain ⟨fc, bc, ec⟩ := C34_cos ft bt
  obtain ⟨fs, bs, es⟩ := C36_sin ft bt
  generalize y.atan2 x = t at *
  have cc : |(t.cos.val : ℝ) - Real.cos α| ≤ 0.00484 := by
    have h1 := abs_sub_le (t.cos.val : ℝ) (Real.cos t.val) (Real.cos α)
    have h2 : |Real.cos t.val - Real.cos α| ≤ 0.00284 := by
      rw [← Real.cos_add_int_mul_two_pi α k, show (k : ℝ) * (2 * Real.pi) = 2 * Real.pi * k by ring]
      exact (Real.abs_cos_sub_cos_le _ _).trans hk
    norm_num at *; linarith
  have ss : |(t.sin.val : ℝ) - Real.sin α| ≤ 0.00484 := by
    have h1 := abs_sub_le (t.sin.val : ℝ) (Real.sin t.val) (Real.sin α)
    have h2 : |Real.sin t.val - Real.sin α| ≤ 0.00284 := by
      rw [← Real.sin_add_int_mul_two_pi α k, show (k : ℝ) * (2 * Real.pi) = 2 * Real.pi * k by ring]
      exact (Real.abs_sin_sub_sin_le _ _).trans hk
    norm_num at *; linarith
  have g1 : 1 / 2 ^ 60 ≤ ((x.hypot y).val : ℝ) := by norm_num at *; linarith
  have g2 : ((x.hypot y).val : ℝ) ≤ 2 ^ 100 := by norm_num at *; linarith
  have X := (radius_mul fr fc g1 g2 bc cc).2
  have Y := (radius_mul fr fs g1 g2 bs ss).2
  generalize x.hypot y = r at *
  have c1 := Real.abs_cos_le_one α
  have s1 := Real.abs_sin_le_one α
  have fin : ∀ z w : ℝ, |w| ≤ 1 → |z - r.val * w| ≤ (0.00484 + 1 / 2 ^ 20) * r.val → |z - ρ * w| ≤ 0.067 * ρ := by
    intro z w hw hz
    have h1 := abs_sub_le z (r.val * w) (ρ * w)
    have h2 : |(r.val : ℝ) * w - ρ * w| ≤ 0.0607 * ρ := by
      rw [← sub_mul, abs_mul]
      have : |(r.val : ℝ) - ρ| ≤ 0.0607 * ρ := by rw [abs_le]; constructor <;> norm_num at * <;> linarith
      nlinarith [abs_nonneg w, abs_nonneg ((r.val : ℝ) - ρ)]
    norm_num at *; linarith
  rw [ex, ey]
  exact ⟨fin _ _ c1 X, fin _ _ s1 Y⟩

/-! ### The angle between vectors of space -/

omit [Cfg] in
/-- Stretching the second coordinate of a point turns it only a little. -/
theorem stretch_turn (θ : ℝ) {e : ℝ} (h1 : -(1 / 2 ^ 19) ≤ e) (h2 : e ≤ 0.0607) :
    ∃ R θ' : ℝ, 0.99 ≤ R ∧ R ≤ 1.07 ∧ R * Real.cos θ' = Real.cos θ ∧ R * Real.sin θ' = (1 + e) * Real.sin θ ∧ |θ' - θ| ≤ 0.0305 := by
  have hsc := Real.sin_sq_add_cos_sq θ
  obtain ⟨w, hw⟩ : ∃ w, w = e * Real.sin θ * Real.cos θ / (1 + e * Real.sin θ ^ 2) := ⟨_, rfl⟩
  have s2 : Real.sin θ ^ 2 ≤ 1 := by nlinarith [sq_nonneg (Real.cos θ)]
  have s0 := sq_nonneg (Real.sin θ)
  have D1 : 1 - 1 / 2 ^ 19 ≤ 1 + e * Real.sin θ ^ 2 := by norm_num at h1 ⊢; nlinarith
  have D2 : 1 + e * Real.sin θ ^ 2 ≤ 1.0607 := by norm_num at h2 ⊢; nlinarith
  have D0 : 0 < 1 + e * Real.sin θ ^ 2 := lt_of_lt_of_le (by norm_num) D1
  have sc : |Real.sin θ * Real.cos θ| ≤ 1 / 2 := by
    rw [abs_le]
    constructor <;> nlinarith [sq_nonneg (Real.sin θ - Real.cos θ), sq_nonneg (Real.sin θ + Real.cos θ)]
  have e1 : |e| ≤ 0.0607 := by rw [abs_le]; constructor <;> norm_num at * <;> linarith
  have wb : |w| ≤ 0.0304 := by
    rw [hw, abs_div, abs_of_pos D0, div_le_iff₀ D0, mul_assoc, abs_mul]
    have : |e| * |Real.sin θ * Real.cos θ| ≤ 0.0607 * (1 / 2) := mul_le_mul e1 sc (abs_nonneg _) (by norm_num)
    norm_num at *; linarith
  have hq : 0 < 1 + w ^ 2 := by positivity
  have sq0 : 0 < √(1 + w ^ 2) := Real.sqrt_pos.2 hq
  have hD : w * (1 + e * Real.sin θ ^ 2) = e * Real.sin θ * Real.cos θ := by rw [hw]; field_simp
  have w2 : w ^ 2 ≤ 0.0304 ^ 2 := by rw [← sq_abs]; exact pow_le_pow_left₀ (abs_nonneg _) wb 2
  have q1 : 1 ≤ √(1 + w ^ 2) := Real.one_le_sqrt.2 (by nlinarith [sq_nonneg w])
  have q2 : √(1 + w ^ 2) ≤ 1.0005 := by
    rw [Real.sqrt_le_left (by norm_num)]
    norm_num at *; linarith
  refine ⟨(1 + e * Real.sin θ ^ 2) * √(1 + w ^ 2), θ + Real.arctan w, ?_, ?_, ?_, ?_, ?_⟩
  · norm_num at D1 ⊢; nlinarith
  · norm_num at D2 q2 ⊢; nlinarith
  · rw [Real.cos_add, Real.cos_arctan, Real.sin_arctan]
    field_simp
    linear_combination e * Real.cos θ * hsc * 0 - Real.sin θ * hD + 0 * hsc
  · rw [Real.sin_add, Real.cos_arctan, Real.sin_arctan]
    field_simp
    linear_combination Real.cos θ * hD + e * Real.sin θ * hsc
  · rw [add_sub_cancel_left]
    exact (RealAux.abs_arctan_le _).trans (wb.trans (by norm_num))

omit [Cfg] in
/-- A length after a disturbance. -/
theorem len_near {x y z a b c δ A B : ℝ} (hA : 0 ≤ A) (hB : 0 ≤ B) (eA : x ^ 2 + y ^ 2 + z ^ 2 = A ^ 2) (eB : a ^ 2 + b ^ 2 + c ^ 2 = B ^ 2)
    (h1 : |x - a| ≤ δ) (h2 : |y - b| ≤ δ) (h3 : |z - c| ≤ δ) : |A - B| ≤ 1.7321 * δ := by
  have δ0 : 0 ≤ δ := (abs_nonneg _).trans h1
  have i : x * a + y * b + z * c ≤ A * B := by
    refine (le_abs_self _).trans (abs_le_of_sq_le_sq ?_ (mul_nonneg hA hB))
    rw [mul_pow, ← eA, ← eB]
    nlinarith [sq_nonneg (x * b - y * a), sq_nonneg (x * c - z * a), sq_nonneg (y * c - z * b)]
  refine abs_le_of_sq_le_sq ?_ (by positivity)
  have k1 := sq_le_sq' (abs_le.1 h1).1 (abs_le.1 h1).2
  have k2 := sq_le_sq' (abs_le.1 h2).1 (abs_le.1 h2).2
  have k3 := sq_le_sq' (abs_le.1 h3).1 (abs_le.1 h3).2
  have e : (A - B) ^ 2 ≤ (x - a) ^ 2 + (y - b) ^ 2 + (z - c) ^ 2 := by nlinarith
  rw [mul_pow]
  have := sq_nonneg δ
  norm_num
  linarith

omit [Cfg] in
theorem abs_cauchy2 {a b c d P : ℝ} (hP : 0 ≤ P) (h : (a ^ 2 + b ^ 2) * (c ^ 2 + d ^ 2) ≤ P ^ 2) : |a * c| + |b * d| ≤ P := by
  refine le_of_sq_le_sq (le_trans ?_ h) hP
  rw [abs_mul, abs_mul, ← sq_abs a, ← sq_abs b, ← sq_abs c, ← sq_abs d]
  nlinarith [sq_nonneg (|a| * |d| - |b| * |c|)]

omit [Cfg] in
theorem abs_cauchy3 {a b c x y z P : ℝ} (hP : 0 ≤ P) (h : (a ^ 2 + b ^ 2 + c ^ 2) * (x ^ 2 + y ^ 2 + z ^ 2) ≤ P ^ 2) :
    |a * x| + |b * y| + |c * z| ≤ P := by
  refine le_of_sq_le_sq (le_trans ?_ h) hP
  rw [abs_mul, abs_mul, abs_mul, ← sq_abs a, ← sq_abs b, ← sq_abs c, ← sq_abs x, ← sq_abs y, ← sq_abs z]
  nlinarith [sq_nonneg (|a| * |y| - |b| * |x|), sq_nonneg (|a| * |z| - |c| * |x|), sq_nonneg (|b| * |z| - |c| * |y|)]

/-- The magnitude of a vector whose components are all tiny. -/
theorem magnitude_tiny {c : Vector3d F32} (fc : ∀ x ∈ floats3 c, x.isFinite = true) (h : ∀ x ∈ floats3 c, |x.val| ≤ 1 / 2 ^ 50) :
    (VectorTrait.magnitude c).isFinite = true ∧ (VectorTrait.magnitude c).val ≤ 1 / 2 ^ 49 := by
  have fg : (⟨0x26800000#32⟩ : F32).isFinite = true := by decide
  have vg : (⟨0x26800000#32⟩ : F32).val = 1 / 2 ^ 50 := by rw [val_of_units (u := 2 ^ 99) (by decide +kernel)]; norm_num
  have le : ∀ x ∈ floats3 c, x.abs.le (⟨0x26800000#32⟩ : F32).abs = true := by
    intro x hx
    rw [le_iff (by rw [isFinite_abs]; exact fc x hx) (by rw [isFinite_abs]; exact fg), val_abs, val_abs, vg]
    exact (h x hx).trans (le_abs_self _)
  have hl : len3 (⟨⟨0x26800000#32⟩, ⟨0x26800000#32⟩, ⟨0x26800000#32⟩⟩ : Vector3d F32) = 3 / 2 ^ 100 := by
    show (⟨0x26800000#32⟩ : F32).val ^ 2 + (⟨0x26800000#32⟩ : F32).val ^ 2 + (⟨0x26800000#32⟩ : F32).val ^ 2 = _
    rw [vg]; norm_num
  obtain ⟨fm, m0, -, m2⟩ := C62_magnitude3 (⟨⟨0x26800000#32⟩, ⟨0x26800000#32⟩, ⟨0x26800000#32⟩⟩ : Vector3d F32) fg fg fg
    (by rw [hl]; norm_num) (by rw [hl]; norm_num)
  rw [hl] at m2
  have hm := (C103_magnitude_monotone (⟨one, one⟩ : Vector2d F32) ⟨one, one⟩ c ⟨⟨0x26800000#32⟩, ⟨0x26800000#32⟩, ⟨0x26800000#32⟩⟩).2
    (le _ (by simp [floats3])) (le _ (by simp [floats3])) (le _ (by simp [floats3]))
  have nn : (VectorTrait.magnitude c).isNaN = false := (nan_of_le hm).1
  have fin := ((C103_magnitude_range (⟨one, one⟩ : Vector2d F32) c).2.2.2 nn).1
  refine ⟨fin, ((le_iff fin fm).1 hm).trans (le_of_sq_le_sq (m2.trans ?_) (by norm_num))⟩
  norm_num

/-- The magnitude of a vector of length `A` near `B` is a multiple of `B`, up to a share of a larger `N`. -/
theorem magnitude_stretch {c : Vector3d F32} {N A B : ℝ} (fx : c.x.isFinite = true) (fy : c.y.isFinite = true) (fz : c.z.isFinite = true)
    (N1 : 1 / 2 ^ 25 ≤ N) (N2 : N ≤ 2 ^ 60) (sN : 0 ≤ B) (sN1 : B ≤ N) (A0 : 0 ≤ A)
    (eA : (c.x.val : ℝ) ^ 2 + (c.y.val : ℝ) ^ 2 + (c.z.val : ℝ) ^ 2 = A ^ 2) (AB : |A - B| ≤ 1.7321 * (1 / 2 ^ 22 * N)) :
    ∃ e : ℝ, (VectorTrait.magnitude c).isFinite = true ∧ -(1 / 2 ^ 19) ≤ e ∧ e ≤ 0.0607 ∧
      |((VectorTrait.magnitude c).val : ℝ) - (1 + e) * B| ≤ 1 / 2 ^ 20 * N := by
  obtain ⟨AB1, AB2⟩ := abs_le.1 AB
  have hlen : (len3 c : ℝ) = A ^ 2 := by rw [← eA]; unfold len3; push_cast; rfl
  rcases le_or_gt (1 / 2 ^ 100) (len3 c) with hl | hl
  · have up : len3 c ≤ 2 ^ 124 := by
      have h : (len3 c : ℝ) ≤ ((2 ^ 124 : ℚ) : ℝ) := by
        rw [hlen]; push_cast
        calc A ^ 2 ≤ (2 ^ 62) ^ 2 := pow_le_pow_left₀ A0 (by norm_num at N2 AB2 ⊢; linarith) 2
          _ = 2 ^ 124 := by norm_num
      exact (Rat.cast_le (K := ℝ)).1 h
    obtain ⟨fm, m0, m1, m2⟩ := C62_magnitude3 c fx fy fz hl up
    replace m1 := (Rat.cast_le (K := ℝ)).2 m1
    replace m2 := (Rat.cast_le (K := ℝ)).2 m2
    have m0' : (0 : ℝ) < (VectorTrait.magnitude c).val := by exact_mod_cast m0
    push_cast at m1 m2
    rw [hlen] at m1 m2
    have Ap : 0 < A := by
      rcases A0.lt_or_eq with h | h
      · exact h
      · rw [← h] at m2; nlinarith
    generalize ((VectorTrait.magnitude c).val : ℝ) = m at *
    have l1 : (1 - 1 / 2 ^ 20) * A ≤ m := by
      refine le_of_sq_le_sq ?_ m0'.le
      rw [mul_pow]
      have := sq_nonneg A
      norm_num at m1 ⊢; linarith
    have l2 : m ≤ 1.0607 * A := by
      refine le_of_sq_le_sq ?_ (by positivity)
      rw [mul_pow]
      have := sq_nonneg A
      norm_num at m2 ⊢; linarith
    have k1 : (1 - 1 / 2 ^ 20) ≤ m / A := (le_div_iff₀ Ap).2 l1
    have k2 : m / A ≤ 1.0607 := (div_le_iff₀ Ap).2 l2
    refine ⟨m / A - 1, fm, by norm_num at k1 ⊢; linarith, by norm_num at k2 ⊢; linarith, ?_⟩
    have e : m - (1 + (m / A - 1)) * B = m / A * (A - B) := by field_simp; ring
    rw [e, abs_mul, abs_of_pos (by positivity)]
    have := mul_le_mul k2 AB (abs_nonneg _) (by norm_num)
    norm_num at this ⊢; linarith
  · have hc : ∀ x ∈ floats3 c, |x.val| ≤ 1 / 2 ^ 50 := by
      have q : ∀ {a b c : ℚ}, a ^ 2 + b ^ 2 + c ^ 2 < 1 / 2 ^ 100 → |a| ≤ 1 / 2 ^ 50 := by
        intro a b c h
        refine abs_le_of_sq_le_sq ?_ (by norm_num)
        have := sq_nonneg b
        have := sq_nonneg c
        norm_num at h ⊢; linarith
      have hl' : c.x.val ^ 2 + c.y.val ^ 2 + c.z.val ^ 2 < 1 / 2 ^ 100 := hl
      intro x hx
      simp only [floats3, List.mem_cons, List.not_mem_nil, or_false] at hx
      rcases hx with rfl | rfl | rfl
      · exact q hl'
      · exact q (b := c.x.val) (c := c.z.val) (show c.y.val ^ 2 + _ + _ < _ by linarith)
      · exact q (b := c.x.val) (c := c.y.val) (show c.z.val ^ 2 + _ + _ < _ by linarith)
    have hfc : ∀ x ∈ floats3 c, x.isFinite = true := by
      intro x hx
      simp only [floats3, List.mem_cons, List.not_mem_nil, or_false] at hx
      rcases hx with rfl | rfl | rfl
      · exact fx
      · exact fy
      · exact fz
    obtain ⟨fm, mt⟩ := magnitude_tiny hfc hc
    have mp := ((C103_magnitude_range (⟨one, one⟩ : Vector2d F32) c).2.2.2 (not_nan_of_finite fm)).2.1
    replace mt := (Rat.cast_le (K := ℝ)).2 mt
    replace mp := (Rat.cast_le (K := ℝ)).2 mp
    push_cast at mt mp
    have hA : A ≤ 1 / 2 ^ 50 := by
      refine le_of_sq_le_sq ?_ (by norm_num)
      have h := (Rat.cast_lt (K := ℝ)).2 hl
      push_cast at h
      rw [hlen] at h
      norm_num at h ⊢; linarith
    refine ⟨0, fm, by norm_num, by norm_num, ?_⟩
    rw [abs_le]
    constructor <;> norm_num at mt mp hA AB1 AB2 N1 ⊢ <;> linarith

omit [Cfg] in
theorem no_full_turn {t θ θ' : ℝ} {k : ℤ} (b0 : 0 ≤ t) (bt : t ≤ 3.15) (t0 : 0 ≤ θ) (t1 : θ ≤ Real.pi)
    (hk : |t - (θ' + 2 * Real.pi * k)| ≤ 0.00284 + 4 * (1 / 2 ^ 19)) (ht : |θ' - θ| ≤ 0.0305) : |t - θ| ≤ 0.034 := by
  have p3 := Real.pi_gt_three
  obtain ⟨k1, k2⟩ := abs_le.1 hk
  obtain ⟨g1, g2⟩ := abs_le.1 ht
  have kz : k = 0 := by
    have h1 : (k : ℝ) < 1 := by
      by_contra h
      rw [not_lt] at h
      have : 2 * Real.pi * 1 ≤ 2 * Real.pi * k := mul_le_mul_of_nonneg_left h (by positivity)
      norm_num at k1 k2 g1 g2 bt; linarith
    have h2 : (-1 : ℝ) < k := by
      by_contra h
      rw [not_lt] at h
      have : 2 * Real.pi * k ≤ 2 * Real.pi * (-1) := mul_le_mul_of_nonneg_left h (by positivity)
      norm_num at k1 k2 g1 g2 bt; linarith
    have h1' : k < 1 := by exact_mod_cast h1
    have h2' : -1 < k := by exact_mod_cast h2
    omega
  rw [kz] at k1 k2
  rw [abs_le]
  push_cast at k1 k2
  constructor <;> norm_num at k1 k2 g1 g2 ⊢ <;> linarith

/-- The last steps of `C141_angle3`: the magnitude of the product and the arctangent. -/
theorem angle3_tail {c : Vector3d F32} {d : F32} {N A θ : ℝ} (fd : d.isFinite = true) (fx : c.x.isFinite = true) (fy : c.y.isFinite = true)
    (fz : c.z.isFinite = true) (N1 : 1 / 2 ^ 25 ≤ N) (N2 : N ≤ 2 ^ 60) (t0 : 0 ≤ θ) (t1 : θ ≤ Real.pi)
    (dd : |(d.val : ℝ) - N * Real.cos θ| ≤ 1 / 2 ^ 20 * N) (A0 : 0 ≤ A)
    (eA : (c.x.val : ℝ) ^ 2 + (c.y.val : ℝ) ^ 2 + (c.z.val : ℝ) ^ 2 = A ^ 2) (AB : |A - N * Real.sin θ| ≤ 1.7321 * (1 / 2 ^ 22 * N)) :
    |(((VectorTrait.magnitude c).atan2 d).val : ℝ) - θ| ≤ 0.034 := by
  have N0 : 0 < N := lt_of_lt_of_le (by norm_num) N1
  have s0 : 0 ≤ Real.sin θ := Real.sin_nonneg_of_nonneg_of_le_pi t0 t1
  obtain ⟨e, m0, e1, e2, hm⟩ : ∃ e : ℝ, (VectorTrait.magnitude c).isFinite = true ∧ -(1 / 2 ^ 19) ≤ e ∧ e ≤ 0.0607 ∧
      |((VectorTrait.magnitude c).val : ℝ) - (1 + e) * (N * Real.sin θ)| ≤ 1 / 2 ^ 20 * N := by
    exact magnitude_stretch fx fy fz N1 N2 (mul_nonneg N0.le s0) (by nlinarith [Real.sin_le_one θ]) A0 eA AB
  obtain ⟨R, θ', R1, R2, hc, hs, ht⟩ := stretch_turn θ e1 e2
  have mp := (C103_magnitude_range (⟨one, one⟩ : Vector2d F32) c).2.2.2 (not_nan_of_finite m0)
  have hR : 1 / 2 ^ 20 * N ≤ 1 / 2 ^ 19 * (N * R) := by norm_num at R1 ⊢; nlinarith
  obtain ⟨-, b1, b2, k, hk⟩ := atan2_disturbed (N := N * R) (α := θ') (δ := 1 / 2 ^ 19) fd m0 (by norm_num at N1 R1 ⊢; nlinarith)
    (by norm_num at N2 R2 ⊢; nlinarith) (by norm_num) (by rw [mul_assoc, hc]; exact dd.trans hR)
    (by rw [mul_assoc, hs, show N * ((1 + e) * Real.sin θ) = (1 + e) * (N * Real.sin θ) by ring]; exact hm.trans hR)
  have hsg : (VectorTrait.magnitude c).sign = false := by
    by_contra h
    have h1 := mp.2.1
    rw [val_of_neg (by simpa using h)] at h1
    have := mval_nonneg (VectorTrait.magnitude c).mag
    norm_num at h1; linarith
  have b0 : (0 : ℝ) ≤ ((VectorTrait.magnitude c).atan2 d).val := by exact_mod_cast b2 hsg
  have bt : (((VectorTrait.magnitude c).atan2 d).val : ℝ) ≤ 3.15 := by
    have h := (Rat.cast_le (K := ℝ)).2 ((le_abs_self _).trans b1)
    rw [val_PI] at h
    push_cast at h
    norm_num at h ⊢; linarith
  exact no_full_turn b0 bt t0 t1 hk ht

/-- **C141, the angle between vectors of space.** Let `u`, `v` have lengths `ρ`, `σ` and let `θ` in `[0, pi]` be the angle between them
(`u·v = ρ σ cos θ`). For `ρ σ` in `2^-25 .. 2^60`, `atan2(u.cross(v).magnitude(), u.dot(v))` is `θ` within `0.034`. -/
theorem C141_angle3 {u v : Vector3d F32} {ρ σ θ : ℝ} (fu : ∀ x ∈ floats3 u, x.isFinite = true) (fv : ∀ x ∈ floats3 v, x.isFinite = true)
    (eρ : (u.x.val : ℝ) ^ 2 + (u.y.val : ℝ) ^ 2 + (u.z.val : ℝ) ^ 2 = ρ ^ 2)
    (eσ : (v.x.val : ℝ) ^ 2 + (v.y.val : ℝ) ^ 2 + (v.z.val : ℝ) ^ 2 = σ ^ 2) (t0 : 0 ≤ θ) (t1 : θ ≤ Real.pi)
    (hd : (u.x.val : ℝ) * v.x.val + u.y.val * v.y.val + u.z.val * v.z.val = ρ * σ * Real.cos θ)
    (N1 : 1 / 2 ^ 25 ≤ ρ * σ) (N2 : ρ * σ ≤ 2 ^ 60) :
    ∃ (c : Vector3d F32) (d : F32), u.cross v = .ok c ∧ u.dot v = .ok d ∧ |(((VectorTrait.magnitude c).atan2 d).val : ℝ) - θ| ≤ 0.034 := by
  simp only [floats3, List.mem_cons, List.not_mem_nil, or_false, forall_eq_or_imp, forall_eq] at fu fv
  obtain ⟨ux, uy, uz⟩ := fu
  obtain ⟨vx, vy, vz⟩ := fv
  obtain ⟨N, hN⟩ : ∃ N, N = ρ * σ := ⟨_, rfl⟩
  have hN2 : ρ ^ 2 * σ ^ 2 = N ^ 2 := by rw [hN]; ring
  rw [← hN] at hd N1 N2
  have N0 : 0 < N := lt_of_lt_of_le (by norm_num) N1
  have s0 : 0 ≤ Real.sin θ := Real.sin_nonneg_of_nonneg_of_le_pi t0 t1
  have hsc := Real.sin_sq_add_cos_sq θ
  rw [← eρ, ← eσ] at hN2
  have dotb : |(u.x.val : ℝ) * v.x.val| + |(u.y.val : ℝ) * v.y.val| + |(u.z.val : ℝ) * v.z.val| ≤ N := abs_cauchy3 N0.le hN2.le
  have sx := sq_nonneg (u.x.val : ℝ)
  have sy := sq_nonneg (u.y.val : ℝ)
  have sz := sq_nonneg (u.z.val : ℝ)
  have qx := sq_nonneg (v.x.val : ℝ)
  have qy := sq_nonneg (v.y.val : ℝ)
  have qz := sq_nonneg (v.z.val : ℝ)
  have c1b : |(u.y.val : ℝ) * v.z.val| + |(u.z.val : ℝ) * v.y.val| ≤ N :=
    abs_cauchy2 N0.le (le_trans (mul_le_mul (by linarith only [sx, sy, sz]) (by linarith only [qx, qy, qz]) (by linarith only [qx, qy, qz]) (by linarith only [sx, sy, sz])) hN2.le)
  have c2b : |(u.z.val : ℝ) * v.x.val| + |(u.x.val : ℝ) * v.z.val| ≤ N :=
    abs_cauchy2 N0.le (le_trans (mul_le_mul (by linarith only [sx, sy, sz]) (by linarith only [qx, qy, qz]) (by linarith only [qx, qy, qz]) (by linarith only [sx, sy, sz])) hN2.le)
  have c3b : |(u.x.val : ℝ) * v.y.val| + |(u.y.val : ℝ) * v.x.val| ≤ N :=
    abs_cauchy2 N0.le (le_trans (mul_le_mul (by linarith only [sx, sy, sz]) (by linarith only [qx, qy, qz]) (by linarith only [qx, qy, qz]) (by linarith only [sx, sy, sz])) hN2.le)
  have big : N ≤ 2 ^ 125 := N2.trans (by norm_num)
  obtain ⟨d, ed, fd, dd⟩ := C107_dot3 u v ux uy uz vx vy vz (by have := dotb.trans big; exact_mod_cast this)
  obtain ⟨c, ec, fx, fy, fz, x1, x2, x3⟩ := C107_cross u v ux uy uz vx vy vz (by have := c1b.trans big; unfold crossMag; exact_mod_cast this)
    (by have := c2b.trans big; unfold crossMag; exact_mod_cast this) (by have := c3b.trans big; unfold crossMag; exact_mod_cast this)
  refine ⟨c, d, ec, ed, ?_⟩
  replace dd := (Rat.cast_le (K := ℝ)).2 dd
  replace x1 := (Rat.cast_le (K := ℝ)).2 x1
  replace x2 := (Rat.cast_le (K := ℝ)).2 x2
  replace x3 := (Rat.cast_le (K := ℝ)).2 x3
  unfold crossMag at x1 x2 x3
  push_cast at dd x1 x2 x3
  have tiny : (1 : ℝ) / 2 ^ 147 ≤ 1 / 2 ^ 30 * N := by norm_num at N1 ⊢; linarith only [N1]
  have tiny' : (1 : ℝ) / 2 ^ 148 ≤ 1 / 2 ^ 30 * N := by norm_num at N1 ⊢; linarith only [N1]
  rw [hd] at dd
  replace dd : |(d.val : ℝ) - N * Real.cos θ| ≤ 1 / 2 ^ 20 * N := dd.trans (by norm_num at tiny dotb ⊢; linarith only [tiny, dotb])
  obtain ⟨δ, hδ⟩ : ∃ δ : ℝ, δ = 1 / 2 ^ 22 * N := ⟨_, rfl⟩
  replace x1 := x1.trans (show _ ≤ δ by rw [hδ]; norm_num at tiny' c1b ⊢; linarith only [tiny', c1b])
  replace x2 := x2.trans (show _ ≤ δ by rw [hδ]; norm_num at tiny' c2b ⊢; linarith only [tiny', c2b])
  replace x3 := x3.trans (show _ ≤ δ by rw [hδ]; norm_num at tiny' c3b ⊢; linarith only [tiny', c3b])
  obtain ⟨A, A0, eA⟩ : ∃ A : ℝ, 0 ≤ A ∧ (c.x.val : ℝ) ^ 2 + (c.y.val : ℝ) ^ 2 + (c.z.val : ℝ) ^ 2 = A ^ 2 :=
    ⟨√((c.x.val : ℝ) ^ 2 + (c.y.val : ℝ) ^ 2 + (c.z.val : ℝ) ^ 2), Real.sqrt_nonneg _, (Real.sq_sqrt (by positivity)).symm⟩
  have AB := len_near A0 (mul_nonneg N0.le s0) eA (show
      ((u.y.val : ℝ) * v.z.val - u.z.val * v.y.val) ^ 2 + ((u.z.val : ℝ) * v.x.val - u.x.val * v.z.val) ^ 2 +
        ((u.x.val : ℝ) * v.y.val - u.y.val * v.x.val) ^ 2 = (N * Real.sin θ) ^ 2 by
    linear_combination hN2 - N ^ 2 * hsc - ((u.x.val : ℝ) * v.x.val + u.y.val * v.y.val + u.z.val * v.z.val + N * Real.cos θ) * hd) x1 x2 x3
  exact angle3_tail fd fx fy fz N1 N2 t0 t1 dd A0 eA (hδ ▸ AB)

/-! ### Concrete cases -/

/-- Vectors meeting the hypotheses: `(3, 4)` and `(-4, 3)`, a quarter of a turn apart, of length `5`; `(1, 2, 2)` and `(2, 1, -2)`,
orthogonal, of length `3`. -/
theorem C141_case :
    (∃ p d : F32, (⟨ofInt 3, ofInt 4⟩ : Vector2d F32).perpendicularDot ⟨ofInt (-4), ofInt 3⟩ = .ok p ∧
      (⟨ofInt 3, ofInt 4⟩ : Vector2d F32).dot ⟨ofInt (-4), ofInt 3⟩ = .ok d ∧
      ∃ k : ℤ, |((p.atan2 d).val : ℝ) - (Real.pi / 2 + 2 * Real.pi * k)| ≤ 0.00285) ∧
    (∃ (c : Vector3d F32) (d : F32), (⟨ofInt 1, ofInt 2, ofInt 2⟩ : Vector3d F32).cross ⟨ofInt 2, ofInt 1, ofInt (-2)⟩ = .ok c ∧
      (⟨ofInt 1, ofInt 2, ofInt 2⟩ : Vector3d F32).dot ⟨ofInt 2, ofInt 1, ofInt (-2)⟩ = .ok d ∧
      |(((VectorTrait.magnitude c).atan2 d).val : ℝ) - Real.pi / 2| ≤ 0.034) ∧
    (∃ k : ℤ, |(((ofInt 2 * (ofInt 1).sin).atan2 (ofInt 2 * (ofInt 1).cos)).val : ℝ) - (1 + 2 * Real.pi * k)| ≤ 0.011) ∧
    |((((ofInt 3).hypot (ofInt 4)) * ((ofInt 4).atan2 (ofInt 3)).cos).val : ℝ) - 3| ≤ 0.335 := by
  obtain ⟨f3, v3⟩ := ofInt_isVal (n := 3) (by decide)
  obtain ⟨f4, v4⟩ := ofInt_isVal (n := 4) (by decide)
  obtain ⟨g4, w4⟩ := ofInt_isVal (n := -4) (by decide)
  obtain ⟨f1, v1⟩ := ofInt_isVal (n := 1) (by decide)
  obtain ⟨f2, v2⟩ := ofInt_isVal (n := 2) (by decide)
  obtain ⟨g2, w2⟩ := ofInt_isVal (n := -2) (by decide)
  have hc : Real.cos (Real.arccos (3 / 5)) = 3 / 5 := Real.cos_arccos (by norm_num) (by norm_num)
  have hs : Real.sin (Real.arccos (3 / 5)) = 4 / 5 := by
    rw [Real.sin_arccos, show (1 : ℝ) - (3 / 5) ^ 2 = (4 / 5) ^ 2 by norm_num, Real.sqrt_sq (by norm_num)]
  refine ⟨?_, ?_, ?_, ?_⟩
  · obtain ⟨p, d, hp, hd, k, hk⟩ := C141_angle2 (u := ⟨ofInt 3, ofInt 4⟩) (v := ⟨ofInt (-4), ofInt 3⟩) (ρ := 5) (σ := 5)
      (a := Real.arccos (3 / 5)) (b := Real.arccos (3 / 5) + Real.pi / 2)
      (by intro x hx; simp only [floats2, List.mem_cons, List.not_mem_nil, or_false] at hx; rcases hx with rfl | rfl; exacts [f3, f4])
      (by intro x hx; simp only [floats2, List.mem_cons, List.not_mem_nil, or_false] at hx; rcases hx with rfl | rfl; exacts [g4, f3])
      (by rw [hc]; dsimp only; rw [v3]; norm_num) (by rw [hs]; dsimp only; rw [v4]; norm_num)
      (by rw [Real.cos_add_pi_div_two, hs]; dsimp only; rw [w4]; norm_num) (by rw [Real.sin_add_pi_div_two, hc]; dsimp only; rw [v3]; norm_num)
      (by norm_num) (by norm_num) (by norm_num) (by norm_num)
    refine ⟨p, d, hp, hd, k, ?_⟩
    rwa [add_sub_cancel_left] at hk
  · refine C141_angle3 (ρ := 3) (σ := 3) ?_ ?_ ?_ ?_ ?_ ?_ ?_ (by norm_num) (by norm_num)
    · intro x hx; simp only [floats3, List.mem_cons, List.not_mem_nil, or_false] at hx; rcases hx with rfl | rfl | rfl; exacts [f1, f2, f2]
    · intro x hx; simp only [floats3, List.mem_cons, List.not_mem_nil, or_false] at hx; rcases hx with rfl | rfl | rfl; exacts [f2, f1, g2]
    · dsimp only; rw [v1, v2]; norm_num
    · dsimp only; rw [v1, v2, w2]; norm_num
    · positivity
    · linarith [Real.pi_pos]
    · dsimp only; rw [v1, v2, w2, Real.cos_pi_div_two]; norm_num
  · obtain ⟨-, -, -, -, k, hk⟩ := C141_from_polar f2 f1 (by rw [v2]; norm_num) (by rw [v2]; norm_num) (by rw [v1]; norm_num)
    rw [v1] at hk
    exact ⟨k, by simpa using hk⟩
  · have h := (C141_to_polar (ρ := 5) (α := Real.arccos (3 / 5)) f3 f4 (by rw [hc, v3]; norm_num) (by rw [hs, v4]; norm_num) (by norm_num)
      (by norm_num)).2.2.2.1
    rw [v3] at h
    norm_num at h ⊢
    exact h

end Micromath.Props
