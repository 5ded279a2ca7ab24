import Verif.Props.VecErr
import Verif.Props.NormOrder

/-!
# C142: laws of vector algebra up to rounding

Errors are propagated by the relation `Near`: the float `x` approximates the number `q`, which is at most `β M^i` in magnitude, within
`ε 2^-24 M^i`, where `M` bounds the components and `i` is the degree of the expression.
-/

set_option exponentiation.threshold 1000

namespace Micromath.Props
open F32 Spec

variable [Cfg]

/-- `x` approximates `q`. -/
structure Near (M : ℚ) (i : ℕ) (β ε : ℚ) (x : F32) (q : ℚ) : Prop where
  fin : x.isFinite = true
  bound : |q| ≤ β * M ^ i
  err : |x.val - q| ≤ ε / 2 ^ 24 * M ^ i

/-- The scale of the components. -/
structure Scale (M : ℚ) : Prop where
  low : 1 / 2 ^ 30 ≤ M
  high : M ≤ 2 ^ 30

section
variable {M : ℚ} (hM : Scale M)
include hM

omit [Cfg] in
theorem Scale.pow {i : ℕ} (hi : i ≤ 4) : 1 / 2 ^ 120 ≤ M ^ i ∧ M ^ i ≤ 2 ^ 120 := by
  have M0 : 0 < M := lt_of_lt_of_le (by norm_num) hM.low
  constructor
  · rcases le_total M 1 with h | h
    · calc (1 : ℚ) / 2 ^ 120 = (1 / 2 ^ 30) ^ 4 := by norm_num
        _ ≤ M ^ 4 := pow_le_pow_left₀ (by norm_num) hM.low 4
        _ ≤ M ^ i := pow_le_pow_of_le_one M0.le h hi
    · exact le_trans (by norm_num) (one_le_pow₀ h)
  · calc M ^ i ≤ (2 ^ 30) ^ i := pow_le_pow_left₀ M0.le hM.high i
      _ ≤ (2 ^ 30) ^ 4 := pow_le_pow_right₀ (by norm_num) hi
      _ = 2 ^ 120 := by norm_num

omit [Cfg] in
/-- One rounding. -/
theorem near_round {i : ℕ} (hi : i ≤ 4) {β ε S q s : ℚ} {x : F32} (f : x.isFinite = true) (v : x.val = RN s)
    (hq : |q| ≤ β * M ^ i) (hs : |s| ≤ S * M ^ i) {η : ℚ} (hsq : |s - q| ≤ η / 2 ^ 24 * M ^ i) (h : η + S + 1 / 64 ≤ ε) : Near M i β ε x q := by
  obtain ⟨p1, p2⟩ := hM.pow hi
  refine ⟨f, hq, ?_⟩
  rw [v]
  have h1 := RN_err s
  have h2 : max (1 / 2 ^ 150) (|s| / 2 ^ 24) ≤ |s| / 2 ^ 24 + 1 / 2 ^ 150 := by
    refine max_le ?_ ?_
    · have : 0 ≤ |s| / 2 ^ 24 := by positivity
      linarith
    · have : (0 : ℚ) ≤ 1 / 2 ^ 150 := by positivity
      linarith
  have h3 := abs_sub_le (RN s) s q
  generalize M ^ i = P at *
  have P0 : 0 < P := lt_of_lt_of_le (by norm_num) p1
  have h4 : (η + S + 1 / 64) * P ≤ ε * P := mul_le_mul_of_nonneg_right h P0.le
  have h5 : (1 : ℚ) / 2 ^ 150 ≤ 1 / 64 / 2 ^ 24 * P := by
    calc (1 : ℚ) / 2 ^ 150 = 1 / 64 / 2 ^ 24 * (1 / 2 ^ 120) := by norm_num
      _ ≤ _ := mul_le_mul_of_nonneg_left p1 (by norm_num)
  have h6 : |s| / 2 ^ 24 ≤ S * P / 2 ^ 24 := div_le_div_of_nonneg_right hs (by norm_num)
  calc |RN s - q| ≤ (|s| / 2 ^ 24 + 1 / 2 ^ 150) + η / 2 ^ 24 * P := by linarith
    _ ≤ (η + S + 1 / 64) * P / 2 ^ 24 := by linarith
    _ ≤ ε * P / 2 ^ 24 := div_le_div_of_nonneg_right h4 (by norm_num)
    _ = ε / 2 ^ 24 * P := by ring

omit [Cfg] in
theorem ovf_of_scale {i : ℕ} (hi : i ≤ 4) {S s : ℚ} (hs : |s| ≤ S * M ^ i) (h : S ≤ 64) : |s| < ovf := by
  obtain ⟨p1, p2⟩ := hM.pow hi
  have P0 : 0 < M ^ i := lt_of_lt_of_le (by norm_num) p1
  calc |s| ≤ S * M ^ i := hs
    _ ≤ 64 * M ^ i := mul_le_mul_of_nonneg_right h P0.le
    _ ≤ 64 * 2 ^ 120 := mul_le_mul_of_nonneg_left p2 (by norm_num)
    _ < ovf := by unfold ovf; norm_num

variable {i j : ℕ} {β γ ε ζ b e q r : ℚ} {x y : F32}

theorem Near.add (hx : Near M i β ε x q) (hy : Near M i γ ζ y r) (hi : i ≤ 4) (hS : β + γ + (ε + ζ) / 2 ^ 24 ≤ 64)
    (hb : β + γ = b) (he : ε + ζ + (β + γ + (ε + ζ) / 2 ^ 24) + 1 / 64 ≤ e) : Near M i b e (x + y) (q + r) := by
  have e1 : |x.val + y.val - (q + r)| ≤ (ε + ζ) / 2 ^ 24 * M ^ i := by
    rw [show x.val + y.val - (q + r) = (x.val - q) + (y.val - r) by ring]
    refine (abs_add_le _ _).trans ((add_le_add hx.err hy.err).trans (le_of_eq ?_))
    ring
  have e2 : |q + r| ≤ b * M ^ i := by
    rw [← hb, add_mul]; exact (abs_add_le _ _).trans (add_le_add hx.bound hy.bound)
  have e3 : |x.val + y.val| ≤ (β + γ + (ε + ζ) / 2 ^ 24) * M ^ i := by
    have := abs_sub_abs_le_abs_sub (x.val + y.val) (q + r)
    rw [add_mul, hb]; linarith
  obtain ⟨f, v⟩ := add_val hx.fin hy.fin (ovf_of_scale hM hi e3 hS)
  exact near_round hM hi f v e2 e3 e1 he

theorem Near.sub (hx : Near M i β ε x q) (hy : Near M i γ ζ y r) (hi : i ≤ 4) (hS : β + γ + (ε + ζ) / 2 ^ 24 ≤ 64)
    (hb : β + γ = b) (he : ε + ζ + (β + γ + (ε + ζ) / 2 ^ 24) + 1 / 64 ≤ e) : Near M i b e (x - y) (q - r) := by
  have e1 : |x.val - y.val - (q - r)| ≤ (ε + ζ) / 2 ^ 24 * M ^ i := by
    rw [show x.val - y.val - (q - r) = (x.val - q) - (y.val - r) by ring]
    refine (abs_sub _ _).trans ((add_le_add hx.err hy.err).trans (le_of_eq ?_))
    ring
  have e2 : |q - r| ≤ b * M ^ i := by
    rw [← hb, add_mul]; exact (abs_sub _ _).trans (add_le_add hx.bound hy.bound)
  have e3 : |x.val - y.val| ≤ (β + γ + (ε + ζ) / 2 ^ 24) * M ^ i := by
    have := abs_sub_abs_le_abs_sub (x.val - y.val) (q - r)
    rw [add_mul, hb]; linarith
  obtain ⟨f, v⟩ := sub_val hx.fin hy.fin (ovf_of_scale hM hi e3 hS)
  exact near_round hM hi f v e2 e3 e1 he

theorem Near.mul (hx : Near M i β ε x q) (hy : Near M j γ ζ y r) (hi : i + j ≤ 4)
    (hS : β * γ + (β * ζ + γ * ε + ε * ζ / 2 ^ 24) / 2 ^ 24 ≤ 64) (hb : β * γ = b)
    (he : (β * ζ + γ * ε + ε * ζ / 2 ^ 24) + (β * γ + (β * ζ + γ * ε + ε * ζ / 2 ^ 24) / 2 ^ 24) + 1 / 64 ≤ e) :
    Near M (i + j) b e (x * y) (q * r) := by
  have e2 : |q * r| ≤ b * M ^ (i + j) := by
    rw [abs_mul, ← hb, pow_add]
    calc |q| * |r| ≤ (β * M ^ i) * (γ * M ^ j) := mul_le_mul hx.bound hy.bound (abs_nonneg _) ((abs_nonneg _).trans hx.bound)
      _ = _ := by ring
  have e1 : |x.val * y.val - q * r| ≤ (β * ζ + γ * ε + ε * ζ / 2 ^ 24) / 2 ^ 24 * M ^ (i + j) := by
    rw [show x.val * y.val - q * r = q * (y.val - r) + r * (x.val - q) + (x.val - q) * (y.val - r) by ring]
    refine (abs_add_le _ _).trans ((add_le_add (abs_add_le _ _) le_rfl).trans ?_)
    rw [abs_mul, abs_mul, abs_mul]
    have h1 := mul_le_mul hx.bound hy.err (abs_nonneg _) ((abs_nonneg _).trans hx.bound)
    have h2 := mul_le_mul hy.bound hx.err (abs_nonneg _) ((abs_nonneg _).trans hy.bound)
    have h3 := mul_le_mul hx.err hy.err (abs_nonneg _) ((abs_nonneg _).trans hx.err)
    refine (add_le_add (add_le_add h1 h2) h3).trans (le_of_eq ?_)
    rw [pow_add]; ring
  have e3 : |x.val * y.val| ≤ (β * γ + (β * ζ + γ * ε + ε * ζ / 2 ^ 24) / 2 ^ 24) * M ^ (i + j) := by
    have := abs_sub_abs_le_abs_sub (x.val * y.val) (q * r)
    rw [add_mul, hb]; linarith
  obtain ⟨f, v⟩ := mul_val hx.fin hy.fin (ovf_of_scale hM hi e3 hS)
  exact near_round hM hi f v e2 e3 e1 he

omit hM [Cfg] in
/-- Two approximations of the same number. -/
theorem Near.close (hx : Near M i β ε x q) (hy : Near M i γ ζ y r) (h : q = r) (he : ε + ζ ≤ e) (hP : 0 ≤ M) :
    |x.val - y.val| ≤ e / 2 ^ 24 * M ^ i := by
  subst h
  have := abs_sub_le x.val q y.val
  have h1 := hx.err
  have h2 := hy.err
  rw [abs_sub_comm] at h2
  have h3 : (ε + ζ) / 2 ^ 24 * M ^ i ≤ e / 2 ^ 24 * M ^ i := mul_le_mul_of_nonneg_right (div_le_div_of_nonneg_right he (by norm_num)) (pow_nonneg hP i)
  calc |x.val - y.val| ≤ ε / 2 ^ 24 * M ^ i + ζ / 2 ^ 24 * M ^ i := by linarith
    _ = (ε + ζ) / 2 ^ 24 * M ^ i := by ring
    _ ≤ _ := h3

end

/-- A vector of space near an exact one. -/
structure Near3 (M : ℚ) (i : ℕ) (β ε : ℚ) (v : Vector3d F32) (a b c : ℚ) : Prop where
  x : Near M i β ε v.x a
  y : Near M i β ε v.y b
  z : Near M i β ε v.z c

/-- A vector with finite components of magnitude at most `M`. -/
def Box3 (M : ℚ) (v : Vector3d F32) : Prop := ∀ x ∈ floats3 v, x.isFinite = true ∧ |x.val| ≤ M

/-- A vector of the plane with finite components of magnitude at most `M`. -/
def Box2 (M : ℚ) (v : Vector2d F32) : Prop := ∀ x ∈ floats2 v, x.isFinite = true ∧ |x.val| ≤ M

/-- Componentwise within `e`. -/
def Close3 (v w : Vector3d F32) (e : ℚ) : Prop := |v.x.val - w.x.val| ≤ e ∧ |v.y.val - w.y.val| ≤ e ∧ |v.z.val - w.z.val| ≤ e

omit [Cfg] in
theorem near_self {M : ℚ} {x : F32} (h : x.isFinite = true ∧ |x.val| ≤ M) : Near M 1 1 0 x x.val :=
  ⟨h.1, by rw [pow_one, one_mul]; exact h.2, by simp⟩

omit [Cfg] in
theorem Box3.near {M : ℚ} {v : Vector3d F32} (h : Box3 M v) : Near3 M 1 1 0 v v.x.val v.y.val v.z.val :=
  ⟨near_self (h _ (by simp [floats3, IntoF32.into])), near_self (h _ (by simp [floats3, IntoF32.into])), near_self (h _ (by simp [floats3, IntoF32.into]))⟩

section
variable {M : ℚ} (hM : Scale M) {i j : ℕ} {β γ ε ζ a b c a' b' c' : ℚ} {u v : Vector3d F32}
include hM

theorem Near3.add (e : ℚ) (hu : Near3 M i β ε u a b c) (hv : Near3 M i γ ζ v a' b' c') (hi : i ≤ 4) (hS : β + γ + (ε + ζ) / 2 ^ 24 ≤ 64)
    (he : ε + ζ + (β + γ + (ε + ζ) / 2 ^ 24) + 1 / 64 ≤ e) :
    ∃ w, u.add v = .ok w ∧ Near3 M i (β + γ) e w (a + a') (b + b') (c + c') :=
  ⟨⟨u.x + v.x, u.y + v.y, u.z + v.z⟩, rfl, hu.x.add hM hv.x hi hS rfl he, hu.y.add hM hv.y hi hS rfl he, hu.z.add hM hv.z hi hS rfl he⟩

theorem Near3.sub (e : ℚ) (hu : Near3 M i β ε u a b c) (hv : Near3 M i γ ζ v a' b' c') (hi : i ≤ 4) (hS : β + γ + (ε + ζ) / 2 ^ 24 ≤ 64)
    (he : ε + ζ + (β + γ + (ε + ζ) / 2 ^ 24) + 1 / 64 ≤ e) :
    ∃ w, u.sub v = .ok w ∧ Near3 M i (β + γ) e w (a - a') (b - b') (c - c') :=
  ⟨⟨u.x - v.x, u.y - v.y, u.z - v.z⟩, rfl, hu.x.sub hM hv.x hi hS rfl he, hu.y.sub hM hv.y hi hS rfl he, hu.z.sub hM hv.z hi hS rfl he⟩

theorem Near3.scale {s : F32} {t : ℚ} (e : ℚ) (hu : Near3 M i β ε u a b c) (hs : Near M j γ ζ s t) (hi : i + j ≤ 4)
    (hS : β * γ + (β * ζ + γ * ε + ε * ζ / 2 ^ 24) / 2 ^ 24 ≤ 64)
    (he : (β * ζ + γ * ε + ε * ζ / 2 ^ 24) + (β * γ + (β * ζ + γ * ε + ε * ζ / 2 ^ 24) / 2 ^ 24) + 1 / 64 ≤ e) :
    ∃ w, u.mulScalar s = .ok w ∧ Near3 M (i + j) (β * γ) e w (a * t) (b * t) (c * t) :=
  ⟨⟨u.x * s, u.y * s, u.z * s⟩, rfl, hu.x.mul hM hs hi hS rfl he, hu.y.mul hM hs hi hS rfl he, hu.z.mul hM hs hi hS rfl he⟩

/-- `f` bounds the error of a product of components, `e` the error of a component of the result. -/
theorem Near3.cross (f e : ℚ) (hu : Near3 M i β ε u a b c) (hv : Near3 M j γ ζ v a' b' c') (hi : i + j ≤ 4)
    (hS : β * γ + (β * ζ + γ * ε + ε * ζ / 2 ^ 24) / 2 ^ 24 ≤ 64)
    (hf : (β * ζ + γ * ε + ε * ζ / 2 ^ 24) + (β * γ + (β * ζ + γ * ε + ε * ζ / 2 ^ 24) / 2 ^ 24) + 1 / 64 ≤ f)
    (hS' : β * γ + β * γ + (f + f) / 2 ^ 24 ≤ 64) (he : f + f + (β * γ + β * γ + (f + f) / 2 ^ 24) + 1 / 64 ≤ e) :
    ∃ w, u.cross v = .ok w ∧ Near3 M (i + j) (β * γ + β * γ) e w (b * c' - c * b') (c * a' - a * c') (a * b' - b * a') := by
  refine ⟨⟨u.y * v.z - u.z * v.y, u.z * v.x - u.x * v.z, u.x * v.y - u.y * v.x⟩, rfl, ?_, ?_, ?_⟩
  · exact (hu.y.mul hM hv.z hi hS rfl hf).sub hM (hu.z.mul hM hv.y hi hS rfl hf) hi hS' rfl he
  · exact (hu.z.mul hM hv.x hi hS rfl hf).sub hM (hu.x.mul hM hv.z hi hS rfl hf) hi hS' rfl he
  · exact (hu.x.mul hM hv.y hi hS rfl hf).sub hM (hu.y.mul hM hv.x hi hS rfl hf) hi hS' rfl he

/-- `f` bounds the error of a product of components, `g` that of the sum of two, `e` that of the result. -/
theorem Near3.dot (f g e : ℚ) (hu : Near3 M i β ε u a b c) (hv : Near3 M j γ ζ v a' b' c') (hi : i + j ≤ 4)
    (hS : β * γ + (β * ζ + γ * ε + ε * ζ / 2 ^ 24) / 2 ^ 24 ≤ 64)
    (hf : (β * ζ + γ * ε + ε * ζ / 2 ^ 24) + (β * γ + (β * ζ + γ * ε + ε * ζ / 2 ^ 24) / 2 ^ 24) + 1 / 64 ≤ f)
    (hS' : β * γ + β * γ + (f + f) / 2 ^ 24 ≤ 64) (hg : f + f + (β * γ + β * γ + (f + f) / 2 ^ 24) + 1 / 64 ≤ g)
    (hS'' : β * γ + β * γ + β * γ + (g + f) / 2 ^ 24 ≤ 64) (he : g + f + (β * γ + β * γ + β * γ + (g + f) / 2 ^ 24) + 1 / 64 ≤ e) :
    ∃ w, u.dot v = .ok w ∧ Near M (i + j) (β * γ + β * γ + β * γ) e w (a * a' + b * b' + c * c') :=
  ⟨u.x * v.x + u.y * v.y + u.z * v.z, rfl,
    ((hu.x.mul hM hv.x hi hS rfl hf).add hM (hu.y.mul hM hv.y hi hS rfl hf) hi hS' rfl hg).add hM (hu.z.mul hM hv.z hi hS rfl hf) hi hS'' rfl he⟩

omit hM [Cfg] in
theorem Near3.close {e : ℚ} (hu : Near3 M i β ε u a b c) (hv : Near3 M i γ ζ v a' b' c') (h1 : a = a') (h2 : b = b') (h3 : c = c')
    (he : ε + ζ ≤ e) (hP : 0 ≤ M) : Close3 u v (e / 2 ^ 24 * M ^ i) :=
  ⟨hu.x.close hv.x h1 he hP, hu.y.close hv.y h2 he hP, hu.z.close hv.z h3 he hP⟩

end

variable {M : ℚ} {u v w t : Vector3d F32}

omit [Cfg] in
theorem Scale.nonneg (hM : Scale M) : 0 ≤ M := le_trans (by norm_num) hM.low

/-- **C142, products distribute over sums** up to rounding: `u × (v + w)` against `u × v + u × w` and `u · (v + w)` against
`u · v + u · w`, for components of magnitude at most `M`. -/
theorem C142_distrib (hM : Scale M) (hu : Box3 M u) (hv : Box3 M v) (hw : Box3 M w) :
    ∃ s, v.add w = .ok s ∧
    (∃ a b c d, u.cross s = .ok a ∧ u.cross v = .ok b ∧ u.cross w = .ok c ∧ b.add c = .ok d ∧ Close3 a d (25 / 2 ^ 24 * M ^ 2)) ∧
    (∃ a b c, u.dot s = .ok a ∧ u.dot v = .ok b ∧ u.dot w = .ok c ∧ |a.val - (b + c).val| ≤ 45 / 2 ^ 24 * M ^ 2) := by
  obtain ⟨s, es, ns⟩ := hv.near.add hM 2.02 hw.near (by norm_num) (by norm_num) (by norm_num)
  refine ⟨s, es, ?_, ?_⟩
  · obtain ⟨a, ea, na⟩ := hu.near.cross hM 4.04 12.1 ns (by norm_num) (by norm_num) (by norm_num) (by norm_num) (by norm_num)
    obtain ⟨b, eb, nb⟩ := hu.near.cross hM 1.02 4.06 hv.near (by norm_num) (by norm_num) (by norm_num) (by norm_num) (by norm_num)
    obtain ⟨c, ec, nc⟩ := hu.near.cross hM 1.02 4.06 hw.near (by norm_num) (by norm_num) (by norm_num) (by norm_num) (by norm_num)
    obtain ⟨d, ed, nd⟩ := nb.add hM 12.2 nc (by norm_num) (by norm_num) (by norm_num)
    exact ⟨a, b, c, d, ea, eb, ec, ed, na.close nd (by ring) (by ring) (by ring) (by norm_num) hM.nonneg⟩
  · obtain ⟨a, ea, na⟩ := hu.near.dot hM 4.04 12.1 22.2 ns (by norm_num) (by norm_num) (by norm_num) (by norm_num) (by norm_num) (by norm_num) (by norm_num)
    obtain ⟨b, eb, nb⟩ := hu.near.dot hM 1.02 4.06 8.1 hv.near (by norm_num) (by norm_num) (by norm_num) (by norm_num) (by norm_num) (by norm_num) (by norm_num)
    obtain ⟨c, ec, nc⟩ := hu.near.dot hM 1.02 4.06 8.1 hw.near (by norm_num) (by norm_num) (by norm_num) (by norm_num) (by norm_num) (by norm_num) (by norm_num)
    have nd := nb.add hM nc (e := 22.3) (by norm_num) (by norm_num) rfl (by norm_num)
    exact ⟨a, b, c, ea, eb, ec, na.close nd (by ring) (by norm_num) hM.nonneg⟩

/-- **C142, the scalar triple product is cyclic**: `u · (v × w)`, `v · (w × u)` and `(u × v) · w` agree up to rounding. -/
theorem C142_triple (hM : Scale M) (hu : Box3 M u) (hv : Box3 M v) (hw : Box3 M w) :
    ∃ vw wu uv a b c, v.cross w = .ok vw ∧ w.cross u = .ok wu ∧ u.cross v = .ok uv ∧
      u.dot vw = .ok a ∧ v.dot wu = .ok b ∧ uv.dot w = .ok c ∧
      |a.val - b.val| ≤ 57 / 2 ^ 24 * M ^ 3 ∧ |a.val - c.val| ≤ 57 / 2 ^ 24 * M ^ 3 := by
  obtain ⟨vw, e1, n1⟩ := hv.near.cross hM 1.02 4.06 hw.near (by norm_num) (by norm_num) (by norm_num) (by norm_num) (by norm_num)
  obtain ⟨wu, e2, n2⟩ := hw.near.cross hM 1.02 4.06 hu.near (by norm_num) (by norm_num) (by norm_num) (by norm_num) (by norm_num)
  obtain ⟨uv, e3, n3⟩ := hu.near.cross hM 1.02 4.06 hv.near (by norm_num) (by norm_num) (by norm_num) (by norm_num) (by norm_num)
  obtain ⟨a, ea, na⟩ := hu.near.dot hM 6.08 16.2 28.4 n1 (by norm_num) (by norm_num) (by norm_num) (by norm_num) (by norm_num) (by norm_num) (by norm_num)
  obtain ⟨b, eb, nb⟩ := hv.near.dot hM 6.08 16.2 28.4 n2 (by norm_num) (by norm_num) (by norm_num) (by norm_num) (by norm_num) (by norm_num) (by norm_num)
  obtain ⟨c, ec, nc⟩ := n3.dot hM 6.08 16.2 28.4 hw.near (by norm_num) (by norm_num) (by norm_num) (by norm_num) (by norm_num) (by norm_num) (by norm_num)
  exact ⟨vw, wu, uv, a, b, c, e1, e2, e3, ea, eb, ec, na.close nb (by ring) (by norm_num) hM.nonneg, na.close nc (by ring) (by norm_num) hM.nonneg⟩

/-- **C142, the vector triple product**: `u × (v × w)` against `v (u · w) - w (u · v)`. -/
theorem C142_bac_cab (hM : Scale M) (hu : Box3 M u) (hv : Box3 M v) (hw : Box3 M w) :
    ∃ vw l p q b c r, v.cross w = .ok vw ∧ u.cross vw = .ok l ∧ u.dot w = .ok p ∧ u.dot v = .ok q ∧
      v.mulScalar p = .ok b ∧ w.mulScalar q = .ok c ∧ b.sub c = .ok r ∧ Close3 l r (45 / 2 ^ 24 * M ^ 3) := by
  obtain ⟨vw, e1, n1⟩ := hv.near.cross hM 1.02 4.06 hw.near (by norm_num) (by norm_num) (by norm_num) (by norm_num) (by norm_num)
  obtain ⟨l, e2, n2⟩ := hu.near.cross hM 6.08 16.2 n1 (by norm_num) (by norm_num) (by norm_num) (by norm_num) (by norm_num)
  obtain ⟨p, ep, np⟩ := hu.near.dot hM 1.02 4.06 8.1 hw.near (by norm_num) (by norm_num) (by norm_num) (by norm_num) (by norm_num) (by norm_num) (by norm_num)
  obtain ⟨q, eq, nq⟩ := hu.near.dot hM 1.02 4.06 8.1 hv.near (by norm_num) (by norm_num) (by norm_num) (by norm_num) (by norm_num) (by norm_num) (by norm_num)
  obtain ⟨b, eb, nb⟩ := hv.near.scale hM 11.2 np (by norm_num) (by norm_num) (by norm_num)
  obtain ⟨c, ec, nc⟩ := hw.near.scale hM 11.2 nq (by norm_num) (by norm_num) (by norm_num)
  obtain ⟨r, er, nr⟩ := nb.sub hM 28.5 nc (by norm_num) (by norm_num) (by norm_num)
  exact ⟨vw, l, p, q, b, c, r, e1, e2, ep, eq, eb, ec, er, n2.close nr (by ring) (by ring) (by ring) (by norm_num) hM.nonneg⟩

/-- **C142, the Jacobi identity**: `u × (v × w) + v × (w × u) + w × (u × v)` is zero up to rounding. -/
theorem C142_jacobi (hM : Scale M) (hu : Box3 M u) (hv : Box3 M v) (hw : Box3 M w) :
    ∃ vw wu uv a b c d r, v.cross w = .ok vw ∧ w.cross u = .ok wu ∧ u.cross v = .ok uv ∧ u.cross vw = .ok a ∧ v.cross wu = .ok b ∧
      w.cross uv = .ok c ∧ a.add b = .ok d ∧ d.add c = .ok r ∧ ∀ x ∈ floats3 r, x.isFinite = true ∧ |x.val| ≤ 69 / 2 ^ 24 * M ^ 3 := by
  obtain ⟨vw, e1, n1⟩ := hv.near.cross hM 1.02 4.06 hw.near (by norm_num) (by norm_num) (by norm_num) (by norm_num) (by norm_num)
  obtain ⟨wu, e2, n2⟩ := hw.near.cross hM 1.02 4.06 hu.near (by norm_num) (by norm_num) (by norm_num) (by norm_num) (by norm_num)
  obtain ⟨uv, e3, n3⟩ := hu.near.cross hM 1.02 4.06 hv.near (by norm_num) (by norm_num) (by norm_num) (by norm_num) (by norm_num)
  obtain ⟨a, ea, na⟩ := hu.near.cross hM 6.08 16.2 n1 (by norm_num) (by norm_num) (by norm_num) (by norm_num) (by norm_num)
  obtain ⟨b, eb, nb⟩ := hv.near.cross hM 6.08 16.2 n2 (by norm_num) (by norm_num) (by norm_num) (by norm_num) (by norm_num)
  obtain ⟨c, ec, nc⟩ := hw.near.cross hM 6.08 16.2 n3 (by norm_num) (by norm_num) (by norm_num) (by norm_num) (by norm_num)
  obtain ⟨d, ed, nd⟩ := na.add hM 40.5 nb (by norm_num) (by norm_num) (by norm_num)
  obtain ⟨r, er, nr⟩ := nd.add hM 68.8 nc (by norm_num) (by norm_num) (by norm_num)
  refine ⟨vw, wu, uv, a, b, c, d, r, e1, e2, e3, ea, eb, ec, ed, er, ?_⟩
  have P := pow_nonneg hM.nonneg 3
  have z : ∀ {x : F32} {q : ℚ}, Near M (1 + (1 + 1)) (1 * (1 * 1 + 1 * 1) + 1 * (1 * 1 + 1 * 1) + (1 * (1 * 1 + 1 * 1) + 1 * (1 * 1 + 1 * 1)) +
      (1 * (1 * 1 + 1 * 1) + 1 * (1 * 1 + 1 * 1))) 68.8 x q → q = 0 → x.isFinite = true ∧ |x.val| ≤ 69 / 2 ^ 24 * M ^ 3 := by
    intro x q h hq
    refine ⟨h.fin, ?_⟩
    have := h.err
    rw [hq, sub_zero] at this
    exact this.trans (mul_le_mul_of_nonneg_right (by norm_num) P)
  intro x hx
  simp only [floats3, List.mem_cons, List.not_mem_nil, or_false] at hx
  rcases hx with rfl | rfl | rfl
  · exact z nr.x (by ring)
  · exact z nr.y (by ring)
  · exact z nr.z (by ring)

/-- **C142, the identity of Binet and Cauchy**: `(u × v) · (w × t)` against `(u · w) (v · t) - (u · t) (v · w)`. -/
theorem C142_binet_cauchy (hM : Scale M) (hu : Box3 M u) (hv : Box3 M v) (hw : Box3 M w) (ht : Box3 M t) :
    ∃ uv wt l uw vt ut vw, u.cross v = .ok uv ∧ w.cross t = .ok wt ∧ uv.dot wt = .ok l ∧ u.dot w = .ok uw ∧ v.dot t = .ok vt ∧
      u.dot t = .ok ut ∧ v.dot w = .ok vw ∧ |l.val - (uw * vt - ut * vw).val| ≤ 215 / 2 ^ 24 * M ^ 4 := by
  have D : ∀ {p q : Vector3d F32}, Box3 M p → Box3 M q → ∃ r, p.dot q = .ok r ∧
      Near M (1 + 1) (1 * 1 + 1 * 1 + 1 * 1) 8.1 r (p.x.val * q.x.val + p.y.val * q.y.val + p.z.val * q.z.val) := fun hp hq =>
    hp.near.dot hM 1.02 4.06 8.1 hq.near (by norm_num) (by norm_num) (by norm_num) (by norm_num) (by norm_num) (by norm_num) (by norm_num)
  obtain ⟨uv, e1, n1⟩ := hu.near.cross hM 1.02 4.06 hv.near (by norm_num) (by norm_num) (by norm_num) (by norm_num) (by norm_num)
  obtain ⟨wt, e2, n2⟩ := hw.near.cross hM 1.02 4.06 ht.near (by norm_num) (by norm_num) (by norm_num) (by norm_num) (by norm_num)
  obtain ⟨l, el, nl⟩ := n1.dot hM 20.3 48.7 81.1 n2 (by norm_num) (by norm_num) (by norm_num) (by norm_num) (by norm_num) (by norm_num) (by norm_num)
  obtain ⟨uw, ea, na⟩ := D hu hw
  obtain ⟨vt, eb, nb⟩ := D hv ht
  obtain ⟨ut, ec, nc⟩ := D hu ht
  obtain ⟨vw, ed, nd⟩ := D hv hw
  have p1 := na.mul hM nb (e := 57.7) (by norm_num) (by norm_num) rfl (by norm_num)
  have p2 := nc.mul hM nd (e := 57.7) (by norm_num) (by norm_num) rfl (by norm_num)
  have pd := p1.sub hM p2 (e := 133.5) (by norm_num) (by norm_num) rfl (by norm_num)
  exact ⟨uv, wt, l, uw, vt, ut, vw, e1, e2, el, ea, eb, ec, ed, nl.close pd (by ring) (by norm_num) hM.nonneg⟩

/-- **C142, Lagrange's identity**: `|u × v|^2 + (u · v)^2` against `|u|^2 |v|^2`, squared lengths computed by `dot`. -/
theorem C142_lagrange (hM : Scale M) (hu : Box3 M u) (hv : Box3 M v) :
    ∃ uv l d a b, u.cross v = .ok uv ∧ uv.dot uv = .ok l ∧ u.dot v = .ok d ∧ u.dot u = .ok a ∧ v.dot v = .ok b ∧
      |(l + d * d).val - (a * b).val| ≤ 219 / 2 ^ 24 * M ^ 4 := by
  have D : ∀ {p q : Vector3d F32}, Box3 M p → Box3 M q → ∃ r, p.dot q = .ok r ∧
      Near M (1 + 1) (1 * 1 + 1 * 1 + 1 * 1) 8.1 r (p.x.val * q.x.val + p.y.val * q.y.val + p.z.val * q.z.val) := fun hp hq =>
    hp.near.dot hM 1.02 4.06 8.1 hq.near (by norm_num) (by norm_num) (by norm_num) (by norm_num) (by norm_num) (by norm_num) (by norm_num)
  obtain ⟨uv, e1, n1⟩ := hu.near.cross hM 1.02 4.06 hv.near (by norm_num) (by norm_num) (by norm_num) (by norm_num) (by norm_num)
  obtain ⟨l, el, nl⟩ := n1.dot hM 20.3 48.7 81.1 n1 (by norm_num) (by norm_num) (by norm_num) (by norm_num) (by norm_num) (by norm_num) (by norm_num)
  obtain ⟨d, ed, nd⟩ := D hu hv
  obtain ⟨a, ea, na⟩ := D hu hu
  obtain ⟨b, eb, nb⟩ := D hv hv
  have p1 := nd.mul hM nd (e := 57.7) (by norm_num) (by norm_num) rfl (by norm_num)
  have p2 := na.mul hM nb (e := 57.7) (by norm_num) (by norm_num) rfl (by norm_num)
  have ps := nl.add hM p1 (e := 160) (by norm_num) (by norm_num) rfl (by norm_num)
  exact ⟨uv, l, d, a, b, e1, el, ed, ea, eb, ps.close p2 (by ring) (by norm_num) hM.nonneg⟩

/-- **C142, the parallelogram law**: `|u + v|^2 + |u - v|^2` against twice `|u|^2 + |v|^2`. -/
theorem C142_parallelogram (hM : Scale M) (hu : Box3 M u) (hv : Box3 M v) :
    ∃ s d ss dd a b, u.add v = .ok s ∧ u.sub v = .ok d ∧ s.dot s = .ok ss ∧ d.dot d = .ok dd ∧ u.dot u = .ok a ∧ v.dot v = .ok b ∧
      |(ss + dd).val - ((a + b) + (a + b)).val| ≤ 195 / 2 ^ 24 * M ^ 2 := by
  obtain ⟨s, e1, n1⟩ := hu.near.add hM 2.02 hv.near (by norm_num) (by norm_num) (by norm_num)
  obtain ⟨d, e2, n2⟩ := hu.near.sub hM 2.02 hv.near (by norm_num) (by norm_num) (by norm_num)
  obtain ⟨ss, e3, n3⟩ := n1.dot hM 12.1 32.3 56.5 n1 (by norm_num) (by norm_num) (by norm_num) (by norm_num) (by norm_num) (by norm_num) (by norm_num)
  obtain ⟨dd, e4, n4⟩ := n2.dot hM 12.1 32.3 56.5 n2 (by norm_num) (by norm_num) (by norm_num) (by norm_num) (by norm_num) (by norm_num) (by norm_num)
  obtain ⟨a, e5, n5⟩ := hu.near.dot hM 1.02 4.06 8.1 hu.near (by norm_num) (by norm_num) (by norm_num) (by norm_num) (by norm_num) (by norm_num) (by norm_num)
  obtain ⟨b, e6, n6⟩ := hv.near.dot hM 1.02 4.06 8.1 hv.near (by norm_num) (by norm_num) (by norm_num) (by norm_num) (by norm_num) (by norm_num) (by norm_num)
  have l := n3.add hM n4 (e := 137.1) (by norm_num) (by norm_num) rfl (by norm_num)
  have ab := n5.add hM n6 (e := 22.3) (by norm_num) (by norm_num) rfl (by norm_num)
  have r := ab.add hM ab (e := 56.7) (by norm_num) (by norm_num) rfl (by norm_num)
  exact ⟨s, d, ss, dd, a, b, e1, e2, e3, e4, e5, e6, l.close r (by ring) (by norm_num) hM.nonneg⟩

/-- **C142, sums and multiples of vectors**: `(u + v) + w` against `u + (v + w)`, and for a float `k` of magnitude at most `M`, `k (u + v)`
against `k u + k v`. -/
theorem C142_linear (hM : Scale M) (hu : Box3 M u) (hv : Box3 M v) (hw : Box3 M w) {k : F32} (hk : k.isFinite = true ∧ |k.val| ≤ M) :
    ∃ s, u.add v = .ok s ∧
    (∃ a b c, s.add w = .ok a ∧ v.add w = .ok b ∧ u.add b = .ok c ∧ Close3 a c (11 / 2 ^ 24 * M)) ∧
    (∃ a b c d, s.mulScalar k = .ok a ∧ u.mulScalar k = .ok b ∧ v.mulScalar k = .ok c ∧ b.add c = .ok d ∧ Close3 a d (9 / 2 ^ 24 * M ^ 2)) := by
  obtain ⟨s, e1, n1⟩ := hu.near.add hM 2.02 hv.near (by norm_num) (by norm_num) (by norm_num)
  refine ⟨s, e1, ?_, ?_⟩
  · obtain ⟨a, ea, na⟩ := n1.add hM 5.1 hw.near (by norm_num) (by norm_num) (by norm_num)
    obtain ⟨b, eb, nb⟩ := hv.near.add hM 2.02 hw.near (by norm_num) (by norm_num) (by norm_num)
    obtain ⟨c, ec, nc⟩ := hu.near.add hM 5.1 nb (by norm_num) (by norm_num) (by norm_num)
    have h := na.close nc (e := 11) (by ring) (by ring) (by ring) (by norm_num) hM.nonneg
    rw [pow_one] at h
    exact ⟨a, b, c, ea, eb, ec, h⟩
  · obtain ⟨a, ea, na⟩ := n1.scale hM 4.04 (near_self hk) (by norm_num) (by norm_num) (by norm_num)
    obtain ⟨b, eb, nb⟩ := hu.near.scale hM 1.02 (near_self hk) (by norm_num) (by norm_num) (by norm_num)
    obtain ⟨c, ec, nc⟩ := hv.near.scale hM 1.02 (near_self hk) (by norm_num) (by norm_num) (by norm_num)
    obtain ⟨d, ed, nd⟩ := nb.add hM 4.1 nc (by norm_num) (by norm_num) (by norm_num)
    exact ⟨a, b, c, d, ea, eb, ec, ed, na.close nd (by ring) (by ring) (by ring) (by norm_num) hM.nonneg⟩

/-! ### The plane -/

/-- A vector of the plane near an exact one. -/
structure Near2 (M : ℚ) (i : ℕ) (β ε : ℚ) (v : Vector2d F32) (a b : ℚ) : Prop where
  x : Near M i β ε v.x a
  y : Near M i β ε v.y b

omit [Cfg] in
theorem Box2.near {v : Vector2d F32} (h : Box2 M v) : Near2 M 1 1 0 v v.x.val v.y.val :=
  ⟨near_self (h _ (by simp [floats2, IntoF32.into])), near_self (h _ (by simp [floats2, IntoF32.into]))⟩

theorem Near2.products {i j : ℕ} {β γ ε ζ a b a' b' : ℚ} {u v : Vector2d F32} (hM : Scale M) (f e : ℚ) (hu : Near2 M i β ε u a b)
    (hv : Near2 M j γ ζ v a' b') (hi : i + j ≤ 4) (hS : β * γ + (β * ζ + γ * ε + ε * ζ / 2 ^ 24) / 2 ^ 24 ≤ 64)
    (hf : (β * ζ + γ * ε + ε * ζ / 2 ^ 24) + (β * γ + (β * ζ + γ * ε + ε * ζ / 2 ^ 24) / 2 ^ 24) + 1 / 64 ≤ f)
    (hS' : β * γ + β * γ + (f + f) / 2 ^ 24 ≤ 64) (he : f + f + (β * γ + β * γ + (f + f) / 2 ^ 24) + 1 / 64 ≤ e) :
    ∃ d p, u.dot v = .ok d ∧ u.perpendicularDot v = .ok p ∧ Near M (i + j) (β * γ + β * γ) e d (a * a' + b * b') ∧
      Near M (i + j) (β * γ + β * γ) e p (a * b' - b * a') :=
  ⟨u.x * v.x + u.y * v.y, u.x * v.y - u.y * v.x, rfl, rfl,
    (hu.x.mul hM hv.x hi hS rfl hf).add hM (hu.y.mul hM hv.y hi hS rfl hf) hi hS' rfl he,
    (hu.x.mul hM hv.y hi hS rfl hf).sub hM (hu.y.mul hM hv.x hi hS rfl hf) hi hS' rfl he⟩

/-- **C142, the plane**: `dot` and `perpendicular_dot` distribute over sums, and the squares of both add up to the product of the squared
lengths (as cosine and sine do), up to rounding. -/
theorem C142_plane {u v w : Vector2d F32} (hM : Scale M) (hu : Box2 M u) (hv : Box2 M v) (hw : Box2 M w) :
    ∃ s d p d' p' D P, v.add w = .ok s ∧ u.dot v = .ok d ∧ u.perpendicularDot v = .ok p ∧ u.dot w = .ok d' ∧ u.perpendicularDot w = .ok p' ∧
      u.dot s = .ok D ∧ u.perpendicularDot s = .ok P ∧
      |D.val - (d + d').val| ≤ 25 / 2 ^ 24 * M ^ 2 ∧ |P.val - (p + p').val| ≤ 25 / 2 ^ 24 * M ^ 2 ∧
      ∃ a b, u.dot u = .ok a ∧ v.dot v = .ok b ∧ |(d * d + p * p).val - (a * b).val| ≤ 69 / 2 ^ 24 * M ^ 4 := by
  have ns : Near2 M 1 (1 + 1) 2.02 ⟨v.x + w.x, v.y + w.y⟩ (v.x.val + w.x.val) (v.y.val + w.y.val) :=
    ⟨hv.near.x.add hM hw.near.x (by norm_num) (by norm_num) rfl (by norm_num), hv.near.y.add hM hw.near.y (by norm_num) (by norm_num) rfl (by norm_num)⟩
  obtain ⟨d, p, e1, e2, n1, n2⟩ := hu.near.products hM 1.02 4.06 hv.near (by norm_num) (by norm_num) (by norm_num) (by norm_num) (by norm_num)
  obtain ⟨d', p', e3, e4, n3, n4⟩ := hu.near.products hM 1.02 4.06 hw.near (by norm_num) (by norm_num) (by norm_num) (by norm_num) (by norm_num)
  obtain ⟨D, P, e5, e6, n5, n6⟩ := hu.near.products hM 4.04 12.1 ns (by norm_num) (by norm_num) (by norm_num) (by norm_num) (by norm_num)
  obtain ⟨a, -, e7, -, n7, -⟩ := hu.near.products hM 1.02 4.06 hu.near (by norm_num) (by norm_num) (by norm_num) (by norm_num) (by norm_num)
  obtain ⟨b, -, e8, -, n8, -⟩ := hv.near.products hM 1.02 4.06 hv.near (by norm_num) (by norm_num) (by norm_num) (by norm_num) (by norm_num)
  have t1 := n1.add hM n3 (e := 12.2) (by norm_num) (by norm_num) rfl (by norm_num)
  have t2 := n2.add hM n4 (e := 12.2) (by norm_num) (by norm_num) rfl (by norm_num)
  have q1 := n1.mul hM n1 (e := 20.3) (by norm_num) (by norm_num) rfl (by norm_num)
  have q2 := n2.mul hM n2 (e := 20.3) (by norm_num) (by norm_num) rfl (by norm_num)
  have q := q1.add hM q2 (e := 48.7) (by norm_num) (by norm_num) rfl (by norm_num)
  have r := n7.mul hM n8 (e := 20.3) (by norm_num) (by norm_num) rfl (by norm_num)
  exact ⟨⟨v.x + w.x, v.y + w.y⟩, d, p, d', p', D, P, rfl, e1, e2, e3, e4, e5, e6, n5.close t1 (by ring) (by norm_num) hM.nonneg,
    n6.close t2 (by ring) (by norm_num) hM.nonneg, a, b, e7, e8, q.close r (by ring) (by norm_num) hM.nonneg⟩

/-- The hypotheses hold for `M = 3`, the vectors `(1, -2, 3)`, `(2, 3, -1)` of space and `(1, -2)`, `(2, 3)` of the plane; the cross
product of the former is `(-7, 7, 7)`. -/
theorem C142_case : Scale 3 ∧ Box3 3 ⟨ofInt 1, ofInt (-2), ofInt 3⟩ ∧ Box3 3 ⟨ofInt 2, ofInt 3, ofInt (-1)⟩ ∧
    Box2 3 ⟨ofInt 1, ofInt (-2)⟩ ∧ Box2 3 ⟨ofInt 2, ofInt 3⟩ ∧
    ∃ l, (⟨ofInt 1, ofInt (-2), ofInt 3⟩ : Vector3d F32).cross ⟨ofInt 2, ofInt 3, ofInt (-1)⟩ = .ok l ∧
      l = ⟨ofInt (-7), ofInt 7, ofInt 7⟩ := by
  have b : ∀ n : ℤ, n.natAbs ≤ 3 → (ofInt n).isFinite = true ∧ |(ofInt n).val| ≤ 3 := by
    intro n hn
    obtain ⟨f, v⟩ := ofInt_isVal (n := n) (by omega)
    refine ⟨f, ?_⟩
    rw [v, abs_le]
    constructor
    · have : -3 ≤ n := by omega
      exact_mod_cast this
    · have : n ≤ 3 := by omega
      exact_mod_cast this
  refine ⟨⟨by norm_num, by norm_num⟩, ?_, ?_, ?_, ?_, _, rfl, ?_⟩
  · intro x hx
    simp only [floats3, List.mem_cons, List.not_mem_nil, or_false] at hx
    rcases hx with rfl | rfl | rfl <;> exact b _ (by decide)
  · intro x hx
    simp only [floats3, List.mem_cons, List.not_mem_nil, or_false] at hx
    rcases hx with rfl | rfl | rfl <;> exact b _ (by decide)
  · intro x hx
    simp only [floats2, List.mem_cons, List.not_mem_nil, or_false] at hx
    rcases hx with rfl | rfl <;> exact b _ (by decide)
  · intro x hx
    simp only [floats2, List.mem_cons, List.not_mem_nil, or_false] at hx
    rcases hx with rfl | rfl <;> exact b _ (by decide)
  · congr 1 <;> exact eval_eq (by kernel_rfl)

end Micromath.Props
