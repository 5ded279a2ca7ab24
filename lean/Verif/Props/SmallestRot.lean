import Mathlib.Analysis.SpecialFunctions.Trigonometric.Arctan
import Mathlib.Analysis.SpecialFunctions.Trigonometric.Inverse
import Mathlib.Analysis.InnerProductSpace.PiL2
import Verif.Real.Arcsin
import Verif.Props.TwoVecThm

/-!
# C144: `from_two_vectors` is the smallest rotation

`src/quaternion.rs:63`: "the quaternion that represents the smallest rotation between two vectors".  The smallest
rotation that takes the direction of `u` to that of `v` turns by the angle between them about an axis orthogonal to both.
-/

set_option exponentiation.threshold 1000

namespace Micromath.Props
open F32 Spec

/-- **C144, specification**: a unit quaternion `w + xi + yj + zk` that takes the unit vector `u` to a vector at cosine `c` from it
has `w² ≤ (1 + c) / 2`: it turns by at least the angle between them.  (The three coordinates are those of the sandwich product.) -/
theorem C144_least {w x y z a b d c : ℝ} (hq : w ^ 2 + x ^ 2 + y ^ 2 + z ^ 2 = 1) (hu : a ^ 2 + b ^ 2 + d ^ 2 = 1)
    (hc : a * ((w ^ 2 + x ^ 2 - y ^ 2 - z ^ 2) * a + 2 * (x * y - w * z) * b + 2 * (x * z + w * y) * d)
      + b * (2 * (x * y + w * z) * a + (w ^ 2 - x ^ 2 + y ^ 2 - z ^ 2) * b + 2 * (y * z - w * x) * d)
      + d * (2 * (x * z - w * y) * a + 2 * (y * z + w * x) * b + (w ^ 2 - x ^ 2 - y ^ 2 + z ^ 2) * d) = c) :
    w ^ 2 ≤ (1 + c) / 2 := by
  have e : c = (2 * w ^ 2 - (w ^ 2 + x ^ 2 + y ^ 2 + z ^ 2)) * (a ^ 2 + b ^ 2 + d ^ 2) + 2 * (x * a + y * b + z * d) ^ 2 := by
    rw [← hc]; ring
  rw [hq, hu] at e
  nlinarith [sq_nonneg (x * a + y * b + z * d)]

variable [Cfg]

section
variable {C : Type} [Component C] [IntoF32 C]

set_option maxHeartbeats 1000000 in
/-- The result is a multiple `K` of `(κ + c, û × v̂)` up to `2^-21` per component. -/
theorem two_shape {u v : Vector3d C} (h : Dots u v) {lu lv c : ℝ} (plu : 0 < lu) (plv : 0 < lv) (hlu : lu ^ 2 = len3 u) (hlv : lv ^ 2 = len3 v)
    (hc : c * (lu * lv) = dot3 u v) (hc9 : -0.9 ≤ c) :
    ∃ r K κ, Quaternion.fromTwoVectors u v = .ok r ∧ QFinite r ∧ 0.9299 ≤ qlen r ∧ qlen r ≤ 1.0701 ∧ (0 : ℝ) < K ∧
      1 - 1 / 2 ^ 18 ≤ κ ∧ κ ≤ 1.06072 ∧ |(r.a.val : ℝ) / K - (κ + c)| ≤ 1 / 2 ^ 21 ∧
      |(r.b.val : ℝ) / K - ((IntoF32.into u.y : F32).val / lu * ((IntoF32.into v.z : F32).val / lv) - (IntoF32.into u.z : F32).val / lu * ((IntoF32.into v.y : F32).val / lv))| ≤ 1 / 2 ^ 21 ∧
      |(r.c.val : ℝ) / K - ((IntoF32.into u.z : F32).val / lu * ((IntoF32.into v.x : F32).val / lv) - (IntoF32.into u.x : F32).val / lu * ((IntoF32.into v.z : F32).val / lv))| ≤ 1 / 2 ^ 21 ∧
      |(r.d.val : ℝ) / K - ((IntoF32.into u.x : F32).val / lu * ((IntoF32.into v.y : F32).val / lv) - (IntoF32.into u.y : F32).val / lu * ((IntoF32.into v.x : F32).val / lv))| ≤ 1 / 2 ^ 21 := by
  obtain ⟨N, hNdef⟩ : ∃ N, N = lu * lv := ⟨_, rfl⟩
  have hN2 : N ^ 2 = len3 u * len3 v := by rw [hNdef, mul_pow, hlu, hlv]
  have hN : 0 < N := hNdef ▸ mul_pos plu plv
  rw [← hNdef] at hc
  obtain ⟨n, R, hq, h28, h60, hD, n1, n2, fR, eR, k1, -⟩ := pre_facts h hN hN2
  obtain ⟨a1, a2⟩ := abs_le.1 eR
  obtain ⟨d1, d2⟩ := abs_le.1 hD
  rw [← hc] at a1 a2 d1 d2
  have hc9N := mul_le_mul_of_nonneg_right hc9 hN.le
  have hl : R.lt (lit 1 1000000 * n) = false := by
    rw [Bool.eq_false_iff]
    intro hl
    have := k1 hl
    norm_num at this a1 n1 hc9N
    linarith
  have hRa : |(R.val : ℝ)| ≤ 2.07 * N := by
    rw [abs_le]; constructor <;> norm_num at a1 a2 n1 n2 h28 d1 d2 ⊢ <;> linarith
  have hR2 : 0.9 / 10 ^ 6 * N ≤ R.val := by norm_num at a1 n1 hc9N ⊢; linarith
  obtain ⟨fq, q8, q1, q2, e1, e2, e3, b1, b2, b3⟩ := preQ_facts h.fu h.fv hN2 h28 h60 fR hRa hR2
  obtain ⟨k, hk, ⟨pk, -, -⟩, k92, fs, s1, s2, r0, r1, r2, r3⟩ := scale_norm fq q1 q2
  have pk' : (0 : ℝ) < k.val := by exact_mod_cast pk
  have toR : ∀ r q : F32, |r.val - q.val * k.val| ≤ |q.val * k.val| / 2 ^ 24 + 1 / 2 ^ 150 →
      |(r.val : ℝ) - q.val * k.val| ≤ |(q.val : ℝ) * k.val| / 2 ^ 24 + 1 / 2 ^ 150 := fun r q hrq => by
    have := (Rat.cast_le (K := ℝ)).2 hrq
    push_cast at this
    exact this
  have hK : 0.3 ≤ k.val * N := by
    have h1 : (0.92 : ℝ) ≤ qlen (preQ u v R) * (k.val : ℝ) ^ 2 := by
      have := (Rat.cast_le (K := ℝ)).2 k92
      push_cast at this; exact this
    have h2 : (0.92 : ℝ) ≤ 8 * N ^ 2 * (k.val : ℝ) ^ 2 := h1.trans (mul_le_mul_of_nonneg_right q8 (sq_nonneg _))
    by_contra hlt
    push Not at hlt
    have := pow_lt_pow_left₀ hlt (mul_pos pk' hN).le (n := 2) (by norm_num)
    rw [mul_pow] at this
    norm_num at this h2
    linarith
  have b1' : |((preQ u v R).b.val : ℝ)| ≤ 2.07 * N := b1.trans (by linarith)
  have b2' : |((preQ u v R).c.val : ℝ)| ≤ 2.07 * N := b2.trans (by linarith)
  have b3' : |((preQ u v R).d.val : ℝ)| ≤ 2.07 * N := b3.trans (by linarith)
  have E0 := comp_err pk' hN hK (toR _ _ r0) hRa (t := R.val) (by
    rw [show ((preQ u v R).a.val : ℝ) = R.val from rfl, sub_self, abs_zero]; positivity) h28
  have E1 := comp_err pk' hN hK (toR _ _ r1) b1' e1 h28
  have E2 := comp_err pk' hN hK (toR _ _ r2) b2' e2 h28
  have E3 := comp_err pk' hN hK (toR _ _ r3) b3' e3 h28
  refine ⟨(preQ u v R).scale k, k.val * N, R.val / N - c, by rw [hq _ rfl, hl, if_neg (by simp), hk]; rfl, fs, s1, s2,
    mul_pos pk' hN, ?_, ?_, ?_, ?_, ?_, ?_⟩
  · have : (1 - 1 / 2 ^ 19 + c - 1 / 2 ^ 21) ≤ R.val / N := by rw [le_div_iff₀ hN]; linarith
    norm_num at this ⊢; linarith
  · have : R.val / N ≤ 1.06071 + c + 1 / 2 ^ 21 := by rw [div_le_iff₀ hN]; linarith
    norm_num at this ⊢; linarith
  · rw [sub_add_cancel]; exact E0
  · refine le_of_eq_of_le ?_ E1
    rw [hNdef]; congr 1; field_simp
  · refine le_of_eq_of_le ?_ E2
    rw [hNdef]; congr 1; field_simp
  · refine le_of_eq_of_le ?_ E3
    rw [hNdef]; congr 1; field_simp

omit [Cfg] [Component C] [IntoF32 C] in
/-- The tangent of half an angle whose cosine is at least `-0.9`. -/
theorem tan_half {θ : ℝ} (h0 : 0 ≤ θ) (hp : θ ≤ Real.pi) (hc9 : -0.9 ≤ Real.cos θ) :
    0 ≤ Real.tan (θ / 2) ∧ Real.tan (θ / 2) ≤ 4.36 ∧ Real.tan (θ / 2) * (1 + Real.cos θ) = Real.sin θ ∧
      Real.tan (θ / 2) * Real.sin θ = 1 - Real.cos θ ∧ Real.arctan (Real.tan (θ / 2)) = θ / 2 := by
  obtain ⟨t, rfl⟩ : ∃ t, θ = 2 * t := ⟨θ / 2, by ring⟩
  rw [show 2 * t / 2 = t by ring]
  have hpi := Real.pi_pos
  have ht : t ≠ Real.pi / 2 := by
    rintro rfl
    rw [show 2 * (Real.pi / 2) = Real.pi by ring, Real.cos_pi] at hc9
    norm_num at hc9
  have ht' : t < Real.pi / 2 := lt_of_le_of_ne (by linarith) ht
  have hcos : 0 < Real.cos t := Real.cos_pos_of_mem_Ioo ⟨by linarith, ht'⟩
  have hsin : 0 ≤ Real.sin t := Real.sin_nonneg_of_nonneg_of_le_pi (by linarith) (by linarith)
  have e := Real.sin_sq_add_cos_sq t
  have ec : Real.cos (2 * t) = 2 * Real.cos t ^ 2 - 1 := Real.cos_two_mul t
  have es : Real.sin (2 * t) = 2 * Real.sin t * Real.cos t := Real.sin_two_mul t
  rw [Real.tan_eq_sin_div_cos] 
  refine ⟨div_nonneg hsin hcos.le, ?_, ?_, ?_, ?_⟩
  · rw [div_le_iff₀ hcos]
    refine abs_le_of_sq_le_sq' ?_ (by positivity) |>.2
    rw [mul_pow]
    norm_num at hc9 ⊢
    nlinarith only [e, ec, hc9]
  · rw [ec, es]; field_simp; ring
  · rw [ec, es]; field_simp; linear_combination 2 * e
  · rw [← Real.tan_eq_sin_div_cos]
    exact Real.arctan_tan (by linarith) ht'

omit [Cfg] [Component C] [IntoF32 C] in
/-- Half the angle of the turn, from nearly exact components `A`, `S` of `(κ + cos θ, sin θ)`. -/
theorem half_turn {θ κ A S : ℝ} (h0 : 0 ≤ θ) (hp : θ ≤ Real.pi) (hc9 : -0.9 ≤ Real.cos θ) (k1 : 1 - 1 / 2 ^ 18 ≤ κ) (k2 : κ ≤ 1.06072)
    (hA : |A - (κ + Real.cos θ)| ≤ 1 / 2 ^ 21) (hS : |S - Real.sin θ| ≤ 1 / 2 ^ 20) :
    θ - 0.06 * Real.tan (θ / 2) - 0.0005 ≤ 2 * Real.arctan (S / A) ∧ 2 * Real.arctan (S / A) ≤ θ + 0.0005 := by
  obtain ⟨y0, y1, e1, e2, ea⟩ := tan_half h0 hp hc9
  generalize Real.tan (θ / 2) = y at *
  have hs1 := Real.sin_nonneg_of_nonneg_of_le_pi h0 hp
  have hc1 := Real.cos_le_one θ
  generalize Real.cos θ = c at *
  generalize Real.sin θ = s at *
  obtain ⟨a1, a2⟩ := abs_le.1 hA
  obtain ⟨s1, s2⟩ := abs_le.1 hS
  have A1 : 1 + c - 1 / 2 ^ 18 - 1 / 2 ^ 21 ≤ A := by linarith
  have A2 : A ≤ 1.06072 + c + 1 / 2 ^ 21 := by linarith
  have A0 : 0.0999 ≤ A := by norm_num at A1 hc9 ⊢; linarith
  have Ap : 0 < A := by linarith
  have lip : ∀ a b e : ℝ, |a - b| ≤ e → |Real.arctan a - Real.arctan b| ≤ e := fun a b e h => (RealAux.arctan_lip a b).trans h
  constructor
  · obtain ⟨z, hz⟩ : ∃ z, z = s / (1.06072 + c) := ⟨_, rfl⟩
    have dp : 0 < 1.06072 + c := by norm_num at hc9 ⊢; linarith
    have hzs : z * (1.06072 + c) = s := by rw [hz, div_mul_cancel₀ _ dp.ne']
    have z0 : 0 ≤ z := hz ▸ div_nonneg hs1 dp.le
    have zy : z ≤ y := by
      rw [hz, div_le_iff₀ dp, ← e1]
      exact mul_le_mul_of_nonneg_left (by norm_num) y0
    have f1 : z - 0.00025 ≤ S / A := by
      rw [le_div_iff₀ Ap]
      have := mul_le_mul_of_nonneg_left A2 z0
      norm_num at this s1 A0 hzs ⊢
      nlinarith only [this, s1, A0, hzs, zy, y1]
    have f2 : Real.arctan z - 0.00025 ≤ Real.arctan (S / A) := by
      have g1 := Real.arctan_strictMono.monotone f1
      have g2 := (abs_le.1 (lip z (z - 0.00025) 0.00025 (by rw [sub_sub_cancel, abs_of_pos (by norm_num)]))).2
      linarith
    have f3 : Real.arctan y - Real.arctan z ≤ 0.03 * y := by
      rw [RealAux.arctan_sub_eq (mul_nonneg y0 z0)]
      have hd : 0 < 1 + y * z := by nlinarith only [mul_nonneg y0 z0]
      refine (le_abs_self _).trans ((RealAux.abs_arctan_le _).trans ?_)
      rw [abs_of_nonneg (div_nonneg (by linarith) hd.le), div_le_iff₀ hd]
      refine le_of_mul_le_mul_right ?_ dp
      have g1 : (y - z) * (1.06072 + c) = 0.06072 * y := by
        linear_combination e1 - hzs
      have g2 : 0.03 * y * (1 + y * z) * (1.06072 + c) = 0.03 * y * 2.06072 := by
        linear_combination 0.03 * y * y * hzs + 0.03 * y * e2
      rw [g1, g2]
      norm_num; linarith
    rw [ea] at f3
    norm_num at f2 f3 ⊢; linarith
  · have f1 : S / A ≤ y + 0.00025 := by
      rw [div_le_iff₀ Ap]
      have := mul_le_mul_of_nonneg_left A1 (show 0 ≤ y + 0.00025 by positivity)
      norm_num at this s2 hc9 y1 ⊢
      nlinarith only [this, s2, hc9, e1, y1, y0]
    have f2 : Real.arctan (S / A) ≤ Real.arctan y + 0.00025 := by
      have g1 := Real.arctan_strictMono.monotone f1
      have g2 := (abs_le.1 (lip (y + 0.00025) y 0.00025 (by rw [add_sub_cancel_left, abs_of_pos (by norm_num)]))).2
      linarith
    rw [ea] at f2
    norm_num at f2 ⊢; linarith

omit [Cfg] [Component C] [IntoF32 C] in
/-- Lengths of vectors whose components differ by at most `2^-21`. -/
theorem len_close {a b c x y z : ℝ} (h1 : |a - x| ≤ 1 / 2 ^ 21) (h2 : |b - y| ≤ 1 / 2 ^ 21) (h3 : |c - z| ≤ 1 / 2 ^ 21) :
    |Real.sqrt (a ^ 2 + b ^ 2 + c ^ 2) - Real.sqrt (x ^ 2 + y ^ 2 + z ^ 2)| ≤ 1 / 2 ^ 20 := by
  have e : ∀ p q r : ℝ, Real.sqrt (p ^ 2 + q ^ 2 + r ^ 2) = ‖(!₂[p, q, r] : EuclideanSpace ℝ (Fin 3))‖ := fun p q r => by
    rw [EuclideanSpace.norm_eq, Fin.sum_univ_three]
    simp
  rw [e, e]
  refine (abs_norm_sub_norm_le _ _).trans ?_
  have : (!₂[a, b, c] - !₂[x, y, z] : EuclideanSpace ℝ (Fin 3)) = !₂[a - x, b - y, c - z] := by
    ext i; fin_cases i <;> simp
  rw [this, ← e]
  rw [Real.sqrt_le_left (by positivity)]
  have g : ∀ t : ℝ, |t| ≤ 1 / 2 ^ 21 → t ^ 2 ≤ (1 / 2 ^ 21) ^ 2 := fun t ht => by
    rw [← sq_abs]; exact pow_le_pow_left₀ (abs_nonneg _) ht 2
  have := g _ h1
  have := g _ h2
  have := g _ h3
  norm_num at *
  linarith

omit [Cfg] [Component C] [IntoF32 C] in
/-- A vector close to one orthogonal to a unit vector. -/
theorem orth_near {a b c x y z p q r K : ℝ} (hK : 0 < K) (hK2 : K ≤ 10.4) (h1 : |a / K - x| ≤ 1 / 2 ^ 21) (h2 : |b / K - y| ≤ 1 / 2 ^ 21)
    (h3 : |c / K - z| ≤ 1 / 2 ^ 21) (hu : p ^ 2 + q ^ 2 + r ^ 2 = 1) (ho : x * p + y * q + z * r = 0) :
    |a * p + b * q + c * r| ≤ 1 / 100000 := by
  have e : a * p + b * q + c * r = K * ((a / K - x) * p + (b / K - y) * q + (c / K - z) * r) := by
    have : a * p + b * q + c * r = K * (a / K * p + b / K * q + c / K * r) := by field_simp
    rw [this]; linear_combination K * ho
  have t : |(a / K - x) * p + (b / K - y) * q + (c / K - z) * r| ≤ 1 / 2 ^ 21 * (|p| + |q| + |r|) := by
    refine (abs_add_three _ _ _).trans ?_
    rw [abs_mul, abs_mul, abs_mul]
    have := mul_le_mul_of_nonneg_right h1 (abs_nonneg p)
    have := mul_le_mul_of_nonneg_right h2 (abs_nonneg q)
    have := mul_le_mul_of_nonneg_right h3 (abs_nonneg r)
    linarith
  have l : |p| + |q| + |r| ≤ 1.74 := by
    refine abs_le_of_sq_le_sq' ?_ (by norm_num) |>.2
    rw [← sq_abs p, ← sq_abs q, ← sq_abs r] at hu
    norm_num
    nlinarith only [hu, sq_nonneg (|p| - |q|), sq_nonneg (|q| - |r|), sq_nonneg (|p| - |r|)]
  rw [e, abs_mul, abs_of_pos hK]
  refine (mul_le_mul hK2 t (abs_nonneg _) (by norm_num)).trans ?_
  norm_num at l ⊢
  linarith

set_option maxHeartbeats 1000000 in
/-- The smallest rotation, from nearly correct dot products. -/
theorem smallest_dots {u v : Vector3d C} (h : Dots u v) {lu lv θ : ℝ} (plu : 0 < lu) (plv : 0 < lv) (hlu : lu ^ 2 = len3 u) (hlv : lv ^ 2 = len3 v)
    (h0 : 0 ≤ θ) (hp : θ ≤ Real.pi) (hc : Real.cos θ * (lu * lv) = dot3 u v) (hc9 : -0.9 ≤ Real.cos θ) :
    ∃ r, Quaternion.fromTwoVectors u v = .ok r ∧ 0 < r.a.val ∧
      |(r.b.val : ℝ) * ((IntoF32.into u.x : F32).val / lu) + r.c.val * ((IntoF32.into u.y : F32).val / lu) + r.d.val * ((IntoF32.into u.z : F32).val / lu)| ≤ 1 / 100000 ∧
      |(r.b.val : ℝ) * ((IntoF32.into v.x : F32).val / lv) + r.c.val * ((IntoF32.into v.y : F32).val / lv) + r.d.val * ((IntoF32.into v.z : F32).val / lv)| ≤ 1 / 100000 ∧
      θ - 0.06 * Real.tan (θ / 2) - 0.0005 ≤ 2 * Real.arctan (Real.sqrt ((r.b.val : ℝ) ^ 2 + r.c.val ^ 2 + r.d.val ^ 2) / r.a.val) ∧
      2 * Real.arctan (Real.sqrt ((r.b.val : ℝ) ^ 2 + r.c.val ^ 2 + r.d.val ^ 2) / r.a.val) ≤ θ + 0.0005 := by
  obtain ⟨r, K, κ, hr, fr, q1, q2, hK, k1, k2, ha, hb, hc', hd⟩ := two_shape h plu plv hlu hlv hc hc9
  obtain ⟨x, hx⟩ : ∃ x : ℝ, x = (IntoF32.into u.x : F32).val / lu := ⟨_, rfl⟩
  obtain ⟨y, hy⟩ : ∃ x : ℝ, x = (IntoF32.into u.y : F32).val / lu := ⟨_, rfl⟩
  obtain ⟨z, hz⟩ : ∃ x : ℝ, x = (IntoF32.into u.z : F32).val / lu := ⟨_, rfl⟩
  obtain ⟨X, hX⟩ : ∃ x : ℝ, x = (IntoF32.into v.x : F32).val / lv := ⟨_, rfl⟩
  obtain ⟨Y, hY⟩ : ∃ x : ℝ, x = (IntoF32.into v.y : F32).val / lv := ⟨_, rfl⟩
  obtain ⟨Z, hZ⟩ : ∃ x : ℝ, x = (IntoF32.into v.z : F32).val / lv := ⟨_, rfl⟩
  have nu : x ^ 2 + y ^ 2 + z ^ 2 = 1 := by
    rw [hx, hy, hz]
    have : lu ^ 2 = ((IntoF32.into u.x : F32).val : ℝ) ^ 2 + ((IntoF32.into u.y : F32).val : ℝ) ^ 2 + ((IntoF32.into u.z : F32).val : ℝ) ^ 2 := by
      rw [hlu]; unfold len3; push_cast; rfl
    field_simp
    linarith
  have nv : X ^ 2 + Y ^ 2 + Z ^ 2 = 1 := by
    rw [hX, hY, hZ]
    have : lv ^ 2 = ((IntoF32.into v.x : F32).val : ℝ) ^ 2 + ((IntoF32.into v.y : F32).val : ℝ) ^ 2 + ((IntoF32.into v.z : F32).val : ℝ) ^ 2 := by
      rw [hlv]; unfold len3; push_cast; rfl
    field_simp
    linarith
  have nc : x * X + y * Y + z * Z = Real.cos θ := by
    rw [hx, hy, hz, hX, hY, hZ]
    have : Real.cos θ * (lu * lv) = ((IntoF32.into u.x : F32).val : ℝ) * (IntoF32.into v.x : F32).val + ((IntoF32.into u.y : F32).val : ℝ) * (IntoF32.into v.y : F32).val
        + ((IntoF32.into u.z : F32).val : ℝ) * (IntoF32.into v.z : F32).val := by
      rw [hc]; unfold dot3; push_cast; rfl
    field_simp
    linarith
  rw [← hx, ← hy, ← hz, ← hX, ← hY, ← hZ]
  rw [← hy, ← hz, ← hY, ← hZ] at hb
  rw [← hx, ← hz, ← hX, ← hZ] at hc'
  rw [← hx, ← hy, ← hX, ← hY] at hd
  clear hx hy hz hX hY hZ
  have hAK : 0.0999 ≤ (r.a.val : ℝ) / K := by
    have := (abs_le.1 ha).1
    norm_num at this k1 hc9 ⊢
    linarith
  have hA0 : 0 < (r.a.val : ℝ) := by
    have := (le_div_iff₀ hK).1 hAK
    linarith [mul_pos (show (0 : ℝ) < 0.0999 by norm_num) hK]
  have hK2 : K ≤ 10.4 := by
    have g1 := (le_div_iff₀ hK).1 hAK
    have g2 : (qlen r : ℝ) ≤ 1.0701 := by
      have := (Rat.cast_le (K := ℝ)).2 q2
      push_cast at this; exact this
    have g3 : (r.a.val : ℝ) ^ 2 ≤ 1.0701 := by
      refine le_trans ?_ g2
      unfold qlen; push_cast
      nlinarith only [sq_nonneg (r.b.val : ℝ), sq_nonneg (r.c.val : ℝ), sq_nonneg (r.d.val : ℝ)]
    have g4 : (r.a.val : ℝ) ≤ 1.035 := abs_le_of_sq_le_sq' (g3.trans (by norm_num)) (by norm_num) |>.2
    norm_num at g1 g4 ⊢
    linarith
  have hS := len_close hb hc' hd
  have eS : Real.sqrt (((r.b.val : ℝ) / K) ^ 2 + (r.c.val / K) ^ 2 + (r.d.val / K) ^ 2)
      = Real.sqrt ((r.b.val : ℝ) ^ 2 + r.c.val ^ 2 + r.d.val ^ 2) / K := by
    rw [show ((r.b.val : ℝ) / K) ^ 2 + (r.c.val / K) ^ 2 + (r.d.val / K) ^ 2 = ((r.b.val : ℝ) ^ 2 + r.c.val ^ 2 + r.d.val ^ 2) / K ^ 2 by
      field_simp, Real.sqrt_div' _ (by positivity), Real.sqrt_sq hK.le]
  have eT : Real.sqrt ((y * Z - z * Y) ^ 2 + (z * X - x * Z) ^ 2 + (x * Y - y * X) ^ 2) = Real.sin θ := by
    rw [show (y * Z - z * Y) ^ 2 + (z * X - x * Z) ^ 2 + (x * Y - y * X) ^ 2
      = (x ^ 2 + y ^ 2 + z ^ 2) * (X ^ 2 + Y ^ 2 + Z ^ 2) - (x * X + y * Y + z * Z) ^ 2 by ring, nu, nv, nc, one_mul,
      ← Real.sin_sq, Real.sqrt_sq (Real.sin_nonneg_of_nonneg_of_le_pi h0 hp)]
  rw [eS, eT] at hS
  have hT := half_turn h0 hp hc9 k1 k2 ha hS
  rw [div_div_div_cancel_right₀ hK.ne'] at hT
  exact ⟨r, hr, by exact_mod_cast hA0, orth_near hK hK2 hb hc' hd nu (by ring), orth_near hK hK2 hb hc' hd nv (by ring), hT⟩

end

/-- **C144.** For two vectors at most 154 degrees apart (cosine at least `-0.9`), the quaternion returned has a positive real part,
its axis is orthogonal to both within `10^-5`, and the angle `2 * atan(|imaginary part| / real part)` it turns by does not exceed the angle
`θ` between the vectors by more than `0.0005` and falls short of it by at most `0.06 * tan (θ/2) + 0.0005`. -/
theorem C144_smallest (u v : Vector3d F32) (fu : VFinite u) (fv : VFinite v) (lu1 : 1 / 2 ^ 28 ≤ len3 u) (lu2 : len3 u ≤ 2 ^ 60)
    (lv1 : 1 / 2 ^ 28 ≤ len3 v) (lv2 : len3 v ≤ 2 ^ 60) {lu lv θ : ℝ} (hlu : lu = Real.sqrt (len3 u)) (hlv : lv = Real.sqrt (len3 v))
    (hθ : θ = Real.arccos (dot3 u v / (lu * lv))) (hc9 : -0.9 * (lu * lv) ≤ dot3 u v) :
    ∃ r, Quaternion.fromTwoVectors u v = .ok r ∧ 0 < r.a.val ∧
      |(r.b.val : ℝ) * (u.x.val / lu) + r.c.val * (u.y.val / lu) + r.d.val * (u.z.val / lu)| ≤ 1 / 100000 ∧
      |(r.b.val : ℝ) * (v.x.val / lv) + r.c.val * (v.y.val / lv) + r.d.val * (v.z.val / lv)| ≤ 1 / 100000 ∧
      θ - 0.06 * Real.tan (θ / 2) - 0.0005 ≤ 2 * Real.arctan (Real.sqrt ((r.b.val : ℝ) ^ 2 + r.c.val ^ 2 + r.d.val ^ 2) / r.a.val) ∧
      2 * Real.arctan (Real.sqrt ((r.b.val : ℝ) ^ 2 + r.c.val ^ 2 + r.d.val ^ 2) / r.a.val) ≤ θ + 0.0005 := by
  have hu : (0 : ℝ) < len3 u := by exact_mod_cast lt_of_lt_of_le (by positivity) lu1
  have hv : (0 : ℝ) < len3 v := by exact_mod_cast lt_of_lt_of_le (by positivity) lv1
  have plu : 0 < lu := hlu ▸ Real.sqrt_pos.2 hu
  have plv : 0 < lv := hlv ▸ Real.sqrt_pos.2 hv
  have hp := mul_pos plu plv
  have c1 : (dot3 u v : ℝ) ^ 2 ≤ (lu * lv) ^ 2 := by
    rw [mul_pow, hlu, hlv, Real.sq_sqrt hu.le, Real.sq_sqrt hv.le]
    have : dot3 u v ^ 2 ≤ len3 u * len3 v := by
      unfold dot3 len3
      generalize (IntoF32.into u.x : F32).val = a
      generalize (IntoF32.into u.y : F32).val = b
      generalize (IntoF32.into u.z : F32).val = c
      generalize (IntoF32.into v.x : F32).val = x
      generalize (IntoF32.into v.y : F32).val = y
      generalize (IntoF32.into v.z : F32).val = z
      nlinarith only [sq_nonneg (a * y - b * x), sq_nonneg (b * z - c * y), sq_nonneg (c * x - a * z)]
    exact_mod_cast this
  obtain ⟨d1, d2⟩ := abs_le_of_sq_le_sq' c1 hp.le
  have ec : Real.cos θ = dot3 u v / (lu * lv) := by
    rw [hθ, Real.cos_arccos (by rw [le_div_iff₀ hp]; linarith) (by rw [div_le_iff₀ hp]; linarith)]
  exact smallest_dots (dots_f32 fu fv lu1 lu2 lv1 lv2) plu plv (by rw [hlu, Real.sq_sqrt hu.le]) (by rw [hlv, Real.sq_sqrt hv.le])
    (hθ ▸ Real.arccos_nonneg _) (hθ ▸ Real.arccos_le_pi _) (by rw [ec, div_mul_cancel₀ _ hp.ne'])
    (by rw [ec, le_div_iff₀ hp]; exact hc9)

/-- Two unit axes: a quarter turn is found within `0.0605`. -/
example : ∃ r, Quaternion.fromTwoVectors (⟨one, posZero, posZero⟩ : Vector3d F32) ⟨posZero, one, posZero⟩ = .ok r ∧
    |2 * Real.arctan (Real.sqrt ((r.b.val : ℝ) ^ 2 + r.c.val ^ 2 + r.d.val ^ 2) / r.a.val) - Real.pi / 2| ≤ 0.0605 := by
  have l1 : len3 (⟨one, posZero, posZero⟩ : Vector3d F32) = 1 := by
    show one.val ^ 2 + posZero.val ^ 2 + posZero.val ^ 2 = 1
    rw [val_one, val_posZero]; norm_num
  have l2 : len3 (⟨posZero, one, posZero⟩ : Vector3d F32) = 1 := by
    show posZero.val ^ 2 + one.val ^ 2 + posZero.val ^ 2 = 1
    rw [val_one, val_posZero]; norm_num
  have l3 : dot3 (⟨one, posZero, posZero⟩ : Vector3d F32) ⟨posZero, one, posZero⟩ = 0 := by
    show one.val * posZero.val + posZero.val * one.val + posZero.val * posZero.val = 0
    rw [val_posZero]; norm_num
  obtain ⟨r, hr, -, -, -, h1, h2⟩ := C144_smallest ⟨one, posZero, posZero⟩ ⟨posZero, one, posZero⟩ ⟨fin_one, fin_posZero, fin_posZero⟩
    ⟨fin_posZero, fin_one, fin_posZero⟩ (by rw [l1]; norm_num) (by rw [l1]; norm_num) (by rw [l2]; norm_num) (by rw [l2]; norm_num) rfl rfl rfl
    (by rw [l1, l2, l3]; norm_num)
  refine ⟨r, hr, ?_⟩
  rw [l3, Rat.cast_zero, zero_div, Real.arccos_zero, show Real.pi / 2 / 2 = Real.pi / 4 by ring, Real.tan_pi_div_four] at h1
  rw [l3, Rat.cast_zero, zero_div, Real.arccos_zero] at h2
  rw [abs_le]
  constructor <;> norm_num at h1 h2 ⊢ <;> linarith

end Micromath.Props
