import Verif.Props.QuatRing
import Verif.Props.Recip

/-!
# C147: normalizing again

`normalized` of vectors divides by `sqrt`, which is exact at one and touches the root there, so calling it again converges
quadratically to unit length.  `normalize` of quaternions multiplies by `invsqrt`, which is not exact at one: calling it
again converges to the squared length `15643916 / 2^24 = 0.93245`, and this is the length of every orientation that is kept
normalized in a loop.
-/

set_option exponentiation.threshold 1000

namespace Micromath.Props
open F32 Spec

variable [Cfg]

/-! ## `sqrt` and `invsqrt` near one -/

omit [Cfg] in
theorem exp_near_one {x : F32} {e f : Nat} (hf : f < 2 ^ 23) (hv : x.val = (2 ^ 23 + f) * 2 ^ (e - 1) / 2 ^ 149)
    (h1 : 1 / 2 ≤ x.val) (h2 : x.val < 2) : (0 : ℚ) ≤ f ∧ (f : ℚ) ≤ 2 ^ 23 - 1 ∧ 126 ≤ e ∧ e ≤ 127 := by
  have f0 : (0 : ℚ) ≤ f := by positivity
  have f1 : (f : ℚ) ≤ 2 ^ 23 - 1 := by
    have : f + 1 ≤ 2 ^ 23 := by omega
    have : ((f + 1 : Nat) : ℚ) ≤ ((2 ^ 23 : Nat) : ℚ) := by exact_mod_cast this
    push_cast at this; linarith
  have e1 : 126 ≤ e := by
    by_contra hc
    have : (2 : ℚ) ^ (e - 1) ≤ 2 ^ 124 := pow_le_pow_right₀ (by norm_num) (by omega)
    rw [hv, le_div_iff₀ (by norm_num)] at h1
    have := mul_le_mul_of_nonneg_left this (show (0 : ℚ) ≤ 2 ^ 23 + f by positivity)
    norm_num at this h1
    linarith
  have e2 : e ≤ 127 := by
    by_contra hc
    have : (2 : ℚ) ^ 127 ≤ 2 ^ (e - 1) := pow_le_pow_right₀ (by norm_num) (by omega)
    rw [hv, div_lt_iff₀ (by norm_num)] at h2
    have := mul_le_mul_of_nonneg_left this (show (0 : ℚ) ≤ 2 ^ 23 + f by positivity)
    norm_num at this h2
    linarith
  exact ⟨f0, f1, e1, e2⟩

theorem sqrt_near_one {x : F32} (h : PosNormal x) (h1 : 1 / 2 ≤ x.val) (h2 : x.val < 2) :
    x.sqrt.isFinite = true ∧ (1 + x.val) / 2 - 1 / 2 ^ 24 ≤ x.sqrt.val ∧ x.sqrt.val ≤ (1 + x.val) / 2 := by
  obtain ⟨e, f, he1, he2, hf, hm, hb, hv⟩ := posNormal_split h
  have hs := sqrt_toNat (posNormal_ge h)
  rw [hb] at hs
  obtain ⟨f0, f1, e1, e2⟩ := exp_near_one hf hv h1 h2
  obtain ⟨g, r, hgr, hr⟩ : ∃ g r, f = 2 * g + r ∧ r ≤ 1 := ⟨f / 2, f % 2, by omega, by omega⟩
  have hfq : (f : ℚ) = 2 * g + r := by exact_mod_cast hgr
  have r0 : (0 : ℚ) ≤ r := by positivity
  have r1 : (r : ℚ) ≤ 1 := by exact_mod_cast hr
  have : e = 126 ∨ e = 127 := by omega
  rcases this with rfl | rfl
  · obtain ⟨a, b⟩ := val_of_bits (y := x.sqrt) (E := 126) (F := 2 ^ 22 + g) (by omega) (by omega) (by omega) (by rw [hs]; omega)
    refine ⟨a.1, ?_⟩
    rw [b, hv, hfq]
    push_cast
    norm_num
    constructor <;> linarith
  · obtain ⟨a, b⟩ := val_of_bits (y := x.sqrt) (E := 127) (F := g) (by omega) (by omega) (by omega) (by rw [hs]; omega)
    refine ⟨a.1, ?_⟩
    rw [b, hv, hfq]
    norm_num
    constructor <;> linarith

/-- The squared length at which `invsqrt` returns one. -/
def xstar : ℚ := 15643916 / 2 ^ 24

theorem invsqrt_near_one {x : F32} (h : PosNormal x) (h1 : 1 / 2 ≤ x.val) (h2 : x.val < 2) :
    ∃ y, x.invsqrt = .ok y ∧ y.isFinite = true ∧
      (x.val ≤ xstar → |y.val - (1 - (x.val - xstar))| ≤ 1 / 2 ^ 23) ∧
      (xstar ≤ x.val → x.val < 1 → |y.val - (1 - (x.val - xstar) / 2)| ≤ 1 / 2 ^ 23) ∧
      (1 ≤ x.val → |y.val - ((1 + xstar) / 2 - (x.val - 1) / 4)| ≤ 1 / 2 ^ 23) := by
  obtain ⟨e, f, he1, he2, hf, hm, hb, hv⟩ := posNormal_split h
  obtain ⟨y, hy, hyb⟩ := invsqrt_ok (x := x) (by omega)
  refine ⟨y, hy, ?_⟩
  rw [hb] at hyb
  obtain ⟨f0, f1, e1, e2⟩ := exp_near_one hf hv h1 h2
  obtain ⟨g, r, hgr, hr⟩ : ∃ g r, f = 2 * g + r ∧ r ≤ 1 := ⟨f / 2, f % 2, by omega, by omega⟩
  have hfq : (f : ℚ) = 2 * g + r := by exact_mod_cast hgr
  have r0 : (0 : ℚ) ≤ r := by positivity
  have r1 : (r : ℚ) ≤ 1 := by exact_mod_cast hr
  have : e = 126 ∨ e = 127 := by omega
  rcases this with rfl | rfl
  · have hx : x.val = 1 / 2 + (2 * g + r) / 2 ^ 24 := by rw [hv, hfq]; norm_num; ring
    by_cases hk : g ≤ 3627654
    · obtain ⟨a, b⟩ := val_of_bits (y := y) (E := 127) (F := 3627654 - g) (by omega) (by omega) (by omega) (by rw [hyb]; omega)
      have hy' : y.val = 1 + (3627654 - g) / 2 ^ 23 := by rw [b, Nat.cast_sub hk]; norm_num; ring
      refine ⟨a.1, fun _ => ?_, fun hc _ => ?_, fun hc => ?_⟩
      · rw [hy', hx, xstar, abs_le]; norm_num; constructor <;> linarith
      · have hg : g = 3627654 := by
          by_contra hne
          have : ((g + 1 : Nat) : ℚ) ≤ 3627654 := by
            have : g + 1 ≤ 3627654 := by omega
            exact_mod_cast this
          push_cast at this
          rw [hx, xstar] at hc
          norm_num at hc
          linarith
        rw [hy', hx, xstar, hg, abs_le]; norm_num; constructor <;> linarith
      · exfalso
        have : (g : ℚ) ≤ 3627654 := by exact_mod_cast hk
        rw [hx] at hc
        norm_num at hc
        linarith
    · obtain ⟨a, b⟩ := val_of_bits (y := y) (E := 126) (F := 2 ^ 23 + 3627654 - g) (by omega) (by omega) (by omega) (by rw [hyb]; omega)
      have hy' : y.val = 1 + (3627654 - g) / 2 ^ 24 := by
        rw [b, Nat.cast_sub (by omega), Nat.cast_add, Nat.cast_pow, Nat.cast_ofNat, Nat.cast_ofNat]; norm_num; ring
      refine ⟨a.1, fun hc => ?_, fun _ _ => ?_, fun hc => ?_⟩
      · exfalso
        have : ((3627654 + 1 : Nat) : ℚ) ≤ g := by exact_mod_cast not_le.1 hk
        push_cast at this
        rw [hx, xstar] at hc
        norm_num at hc
        linarith
      · rw [hy', hx, xstar, abs_le]; norm_num; constructor <;> linarith
      · exfalso
        rw [hx] at hc
        rw [hfq] at f1
        norm_num at hc
        linarith
  · have hx : x.val = 1 + (2 * g + r) / 2 ^ 23 := by rw [hv, hfq]; norm_num; ring
    obtain ⟨a, b⟩ := val_of_bits (y := y) (E := 126) (F := 2 ^ 22 + 3627654 - g) (by omega) (by omega) (by omega) (by rw [hyb]; omega)
    have hy' : y.val = 3 / 4 + (3627654 - g) / 2 ^ 24 := by
      rw [b, Nat.cast_sub (by omega), Nat.cast_add, Nat.cast_pow, Nat.cast_ofNat, Nat.cast_ofNat]; norm_num; ring
    have hg0 : (0 : ℚ) ≤ g := by positivity
    refine ⟨a.1, fun hc => ?_, fun _ hc => ?_, fun _ => ?_⟩
    · exfalso
      rw [hx, xstar] at hc
      norm_num at hc
      linarith
    · exfalso
      rw [hx] at hc
      norm_num at hc
      linarith
    · rw [hy', hx, xstar, abs_le]; norm_num; constructor <;> linarith

/-! ## Vectors -/

omit [Cfg] in
/-- `X / ((1 + X) / 2)^2 = 1 - ((1 - X) / (1 + X))^2`, with errors. -/
theorem heron {X N M : ℚ} (h1 : 0.88 ≤ X) (h2 : X ≤ 1.01) (n1 : (1 - 7 / 2 ^ 24) * X ≤ N) (n2 : N ≤ (1 + 7 / 2 ^ 24) * X)
    (m1 : (1 + N) / 2 - 1 / 2 ^ 24 ≤ M) (m2 : M ≤ (1 + N) / 2) :
    0 < M ∧ |X / M ^ 2 - (1 - ((1 - X) / (1 + X)) ^ 2)| ≤ 12 / 2 ^ 24 ∧ X / M ^ 2 ≤ 1 + 1 / 2 ^ 20 := by
  have a1 : (1 + X) / 2 - 5 / 2 ^ 24 ≤ M := by norm_num at *; linarith
  have a2 : M ≤ (1 + X) / 2 + 4 / 2 ^ 24 := by norm_num at *; linarith
  have e : 1 - ((1 - X) / (1 + X)) ^ 2 = X / ((1 + X) / 2) ^ 2 := by
    have : (1 + X) ≠ 0 := by linarith
    field_simp
    ring
  have t0 := sq_nonneg ((1 - X) / (1 + X))
  obtain ⟨c, hc⟩ : ∃ c, c = (1 + X) / 2 := ⟨_, rfl⟩
  rw [← hc] at a1 a2 e
  have c1 : 0.94 ≤ c := by rw [hc]; norm_num at *; linarith
  have M0 : 0.9 ≤ M := by norm_num at *; linarith
  have b1 : c ^ 2 * (1 - 11 / 2 ^ 24) ≤ M ^ 2 := by
    refine le_trans ?_ (pow_le_pow_left₀ (by norm_num at *; linarith) a1 2)
    norm_num at *; nlinarith
  have b2 : M ^ 2 ≤ c ^ 2 * (1 + 9 / 2 ^ 24) := by
    refine (pow_le_pow_left₀ (by linarith) a2 2).trans ?_
    norm_num at *; nlinarith
  have M2 : 0 < M ^ 2 := by positivity
  have C2 : 0 < c ^ 2 := by positivity
  have p0 : 0 ≤ X / M ^ 2 := by positivity
  have hp : X / M ^ 2 * M ^ 2 = X := div_mul_cancel₀ _ M2.ne'
  have hq : X / c ^ 2 * c ^ 2 = X := div_mul_cancel₀ _ C2.ne'
  rw [e]
  rw [← e] at hq
  generalize X / M ^ 2 = p at *
  have q1 : 1 - ((1 - X) / (1 + X)) ^ 2 ≤ 1 := by linarith
  rw [← e]
  generalize 1 - ((1 - X) / (1 + X)) ^ 2 = q at *
  have k1 : p * (1 - 11 / 2 ^ 24) ≤ q := by
    refine le_of_mul_le_mul_right ?_ C2
    rw [hq, ← hp]
    have := mul_le_mul_of_nonneg_left b1 p0
    linarith
  have k2 : q ≤ p * (1 + 9 / 2 ^ 24) := by
    refine le_of_mul_le_mul_right ?_ C2
    rw [hq, ← hp]
    have := mul_le_mul_of_nonneg_left b2 p0
    linarith
  refine ⟨by linarith, ?_, ?_⟩
  · rw [abs_le]; norm_num at k1 k2 ⊢; constructor <;> linarith
  · norm_num at k1 k2 ⊢; linarith

omit [Cfg] in
theorem heron_step {X Y D : ℚ} (hD : D ≤ 0.2) (h : |1 - X| ≤ D) (hY : |Y - (1 - ((1 - X) / (1 + X)) ^ 2)| ≤ 17 / 2 ^ 24) :
    |1 - Y| ≤ (D / (2 - D)) ^ 2 + 17 / 2 ^ 24 := by
  have t0 := sq_nonneg ((1 - X) / (1 + X))
  have t1 : ((1 - X) / (1 + X)) ^ 2 ≤ (D / (2 - D)) ^ 2 := by
    have h' := abs_le.1 h
    norm_num at hD
    rw [← sq_abs, abs_div, abs_of_pos (show 0 < 1 + X by linarith)]
    refine pow_le_pow_left₀ (div_nonneg (abs_nonneg _) (by linarith)) ?_ 2
    exact div_le_div₀ ((abs_nonneg _).trans h) h (by linarith) (by linarith)
  have := abs_le.1 hY
  rw [abs_le]
  constructor <;> norm_num at * <;> linarith

/-- Calling a function again and again. -/
def again {α : Type} (f : α → Res α) : Nat → α → Res α
  | 0, a => .ok a
  | k + 1, a => again f k a >>= f

/-- One call in the plane, for vectors of nearly unit length. -/
theorem renorm2 (v : Vector2d F32) (fx : v.x.isFinite = true) (fy : v.y.isFinite = true) (h1 : 0.88 ≤ len2 v) (h2 : len2 v ≤ 1.01) :
    ∃ r, VectorTrait.normalized v = .ok r ∧ r.x.isFinite = true ∧ r.y.isFinite = true ∧
      |len2 r - (1 - ((1 - len2 v) / (1 + len2 v)) ^ 2)| ≤ 17 / 2 ^ 24 := by
  have hl : len2 v = v.x.val ^ 2 + v.y.val ^ 2 := rfl
  obtain ⟨hp, s1, s2⟩ := (sumSq2 fx fy (by rw [← hl]; norm_num at h2 ⊢; linarith)).normal (by rw [← hl]; norm_num at h1 ⊢; linarith)
  rw [← hl] at s1 s2
  obtain ⟨fm, m1, m2⟩ := sqrt_near_one hp (by norm_num at h1 s1 ⊢; linarith) (by norm_num at h2 s2 ⊢; linarith)
  obtain ⟨m0, e1, e2⟩ := heron h1 h2 s1 s2 m1 m2
  refine ⟨_, (C52_map v ⟨v.x, v.x, v.x⟩ _).1, ?_⟩
  have hm : VectorTrait.magnitude v = (F32.sum [v.x * v.x, v.y * v.y]).sqrt := rfl
  rw [← hm] at fm m1 m2 m0 e1 e2
  have hk : (1 - 1 / 2 ^ 20) * len2 v ≤ (VectorTrait.magnitude v).val ^ 2 := by
    rw [div_le_iff₀ (by positivity)] at e2
    norm_num at e2 ⊢
    linarith
  dsimp only
  rw [hl] at hk
  generalize VectorTrait.magnitude v = m at *
  obtain ⟨x1, -, -, x4⟩ := norm_comp fx fm m0 (le_add_of_nonneg_right (sq_nonneg v.y.val)) hk
  obtain ⟨y1, -, -, y4⟩ := norm_comp fy fm m0 (le_add_of_nonneg_left (sq_nonneg v.x.val)) hk
  refine ⟨x1, y1, ?_⟩
  show |(v.x / m).val ^ 2 + (v.y / m).val ^ 2 - _| ≤ _
  have e3 : len2 v / m.val ^ 2 = v.x.val ^ 2 / m.val ^ 2 + v.y.val ^ 2 / m.val ^ 2 := by rw [hl, add_div]
  rw [e3] at e1 e2
  rw [abs_le] at x4 y4 e1 ⊢
  generalize 1 - ((1 - len2 v) / (1 + len2 v)) ^ 2 = z at *
  constructor <;> norm_num at x4 y4 e1 e2 ⊢ <;> linarith

/-- One call in space. -/
theorem renorm3 (v : Vector3d F32) (fx : v.x.isFinite = true) (fy : v.y.isFinite = true) (fz : v.z.isFinite = true)
    (h1 : 0.88 ≤ len3 v) (h2 : len3 v ≤ 1.01) :
    ∃ r, VectorTrait.normalized v = .ok r ∧ r.x.isFinite = true ∧ r.y.isFinite = true ∧ r.z.isFinite = true ∧
      |len3 r - (1 - ((1 - len3 v) / (1 + len3 v)) ^ 2)| ≤ 17 / 2 ^ 24 := by
  have hl : len3 v = v.x.val ^ 2 + v.y.val ^ 2 + v.z.val ^ 2 := rfl
  obtain ⟨hp, s1, s2⟩ := (sumSq3 fx fy fz (by rw [← hl]; norm_num at h2 ⊢; linarith)).normal (by rw [← hl]; norm_num at h1 ⊢; linarith)
  rw [← hl] at s1 s2
  obtain ⟨fm, m1, m2⟩ := sqrt_near_one hp (by norm_num at h1 s1 ⊢; linarith) (by norm_num at h2 s2 ⊢; linarith)
  obtain ⟨m0, e1, e2⟩ := heron h1 h2 s1 s2 m1 m2
  refine ⟨_, (C52_map ⟨v.x, v.x⟩ v _).2, ?_⟩
  have hm : VectorTrait.magnitude v = (F32.sum [v.x * v.x, v.y * v.y, v.z * v.z]).sqrt := rfl
  rw [← hm] at fm m1 m2 m0 e1 e2
  have hk : (1 - 1 / 2 ^ 20) * len3 v ≤ (VectorTrait.magnitude v).val ^ 2 := by
    rw [div_le_iff₀ (by positivity)] at e2
    norm_num at e2 ⊢
    linarith
  dsimp only
  rw [hl] at hk
  generalize VectorTrait.magnitude v = m at *
  have nx := sq_nonneg v.x.val
  have ny := sq_nonneg v.y.val
  have nz := sq_nonneg v.z.val
  obtain ⟨x1, -, -, x4⟩ := norm_comp fx fm m0 (by linarith) hk
  obtain ⟨y1, -, -, y4⟩ := norm_comp fy fm m0 (by linarith) hk
  obtain ⟨z1, -, -, z4⟩ := norm_comp fz fm m0 (by linarith) hk
  refine ⟨x1, y1, z1, ?_⟩
  show |(v.x / m).val ^ 2 + (v.y / m).val ^ 2 + (v.z / m).val ^ 2 - _| ≤ _
  have e3 : len3 v / m.val ^ 2 = v.x.val ^ 2 / m.val ^ 2 + v.y.val ^ 2 / m.val ^ 2 + v.z.val ^ 2 / m.val ^ 2 := by rw [hl, add_div, add_div]
  rw [e3] at e1 e2
  rw [abs_le] at x4 y4 z4 e1 ⊢
  generalize 1 - ((1 - len3 v) / (1 + len3 v)) ^ 2 = z at *
  constructor <;> norm_num at x4 y4 z4 e1 e2 ⊢ <;> linarith

/-- How far the squared length can be from one after `k` calls. -/
def renormBound : Nat → ℚ
  | 0 | 1 => 0.1112
  | 2 => 0.0035
  | 3 => 4.2e-6
  | _ => 1.1e-6

omit [Cfg] in
theorem renormBound_tail (k : Nat) : renormBound (k + 4) = 1.1e-6 := rfl

omit [Cfg] in
theorem renormBound_step (k : Nat) : (renormBound (k + 1) / (2 - renormBound (k + 1))) ^ 2 + 17 / 2 ^ 24 ≤ renormBound (k + 2) := by
  match k with
  | 0 => norm_num [renormBound]
  | 1 => norm_num [renormBound]
  | 2 => norm_num [renormBound]
  | k + 3 => rw [show k + 3 + 1 = k + 4 from rfl, show k + 3 + 2 = (k + 1) + 4 from rfl, renormBound_tail, renormBound_tail]; norm_num

omit [Cfg] in
theorem renormBound_le (k : Nat) : renormBound k ≤ 0.1112 := by
  match k with
  | 0 | 1 | 2 | 3 => norm_num [renormBound]
  | k + 4 => rw [renormBound_tail]; norm_num

omit [Cfg] in
theorem renormBound_near (k : Nat) {X : ℚ} (h : |1 - X| ≤ renormBound (k + 1)) (hu : k = 0 → X ≤ 1 + 1 / 2 ^ 18) : 0.88 ≤ X ∧ X ≤ 1.01 := by
  have h' := abs_le.1 (h.trans (renormBound_le _))
  match k with
  | 0 => have := hu rfl; norm_num at *; constructor <;> linarith
  | 1 => have := abs_le.1 h; norm_num [renormBound] at *; constructor <;> linarith
  | 2 => have := abs_le.1 h; norm_num [renormBound] at *; constructor <;> linarith
  | k + 3 => rw [show k + 3 + 1 = k + 4 from rfl, renormBound_tail] at h; have := abs_le.1 h; norm_num at *; constructor <;> linarith

/-- **C147, vectors in the plane.** Each further call of `normalized` squares the deviation from unit length: the squared length
is within 0.1112, 0.0035, 4.2e-6 of one after one, two, three calls and within 1.1e-6 from the fourth call on. -/
theorem C147_vector2 (v : Vector2d F32) (fx : v.x.isFinite = true) (fy : v.y.isFinite = true)
    (h1 : 1 / 2 ^ 100 ≤ len2 v) (h2 : len2 v ≤ 2 ^ 124) (k : Nat) :
    ∃ r, again VectorTrait.normalized (k + 1) v = .ok r ∧ r.x.isFinite = true ∧ r.y.isFinite = true ∧ |1 - len2 r| ≤ renormBound (k + 1) := by
  suffices h : ∃ r, again VectorTrait.normalized (k + 1) v = .ok r ∧ r.x.isFinite = true ∧ r.y.isFinite = true ∧
      |1 - len2 r| ≤ renormBound (k + 1) ∧ (k = 0 → len2 r ≤ 1 + 1 / 2 ^ 18) by
    obtain ⟨r, a, b, c, d, -⟩ := h; exact ⟨r, a, b, c, d⟩
  induction k with
  | zero =>
    obtain ⟨r, hr, a, b, -, -, -, -, l1, l2⟩ := C63_normalized2 v fx fy h1 h2
    refine ⟨r, hr, a, b, ?_, fun _ => l2⟩
    change 8 / 9 - 1 / 2 ^ 18 ≤ len2 r at l1
    change len2 r ≤ 1 + 1 / 2 ^ 18 at l2
    rw [abs_le]; norm_num [renormBound] at l1 l2 ⊢; constructor <;> linarith
  | succ k ih =>
    obtain ⟨w, hw, a, b, hd, hu⟩ := ih
    obtain ⟨n1, n2⟩ := renormBound_near k hd hu
    obtain ⟨r, hr, a', b', e⟩ := renorm2 w a b n1 n2
    have hb : renormBound (k + 1) ≤ 0.2 := (renormBound_le _).trans (by norm_num)
    refine ⟨r, ?_, a', b', (heron_step hb hd e).trans (renormBound_step k), by simp⟩
    rw [again, hw]; exact hr

/-- **C147, vectors in space.** -/
theorem C147_vector3 (v : Vector3d F32) (fx : v.x.isFinite = true) (fy : v.y.isFinite = true) (fz : v.z.isFinite = true)
    (h1 : 1 / 2 ^ 100 ≤ len3 v) (h2 : len3 v ≤ 2 ^ 124) (k : Nat) :
    ∃ r, again VectorTrait.normalized (k + 1) v = .ok r ∧ r.x.isFinite = true ∧ r.y.isFinite = true ∧ r.z.isFinite = true ∧
      |1 - len3 r| ≤ renormBound (k + 1) := by
  suffices h : ∃ r, again VectorTrait.normalized (k + 1) v = .ok r ∧ r.x.isFinite = true ∧ r.y.isFinite = true ∧ r.z.isFinite = true ∧
      |1 - len3 r| ≤ renormBound (k + 1) ∧ (k = 0 → len3 r ≤ 1 + 1 / 2 ^ 18) by
    obtain ⟨r, a, b, c, d, e, -⟩ := h; exact ⟨r, a, b, c, d, e⟩
  induction k with
  | zero =>
    obtain ⟨r, hr, a, b, c, -, -, -, -, -, -, l1, l2⟩ := C63_normalized3 v fx fy fz h1 h2
    refine ⟨r, hr, a, b, c, ?_, fun _ => l2⟩
    change 8 / 9 - 1 / 2 ^ 18 ≤ len3 r at l1
    change len3 r ≤ 1 + 1 / 2 ^ 18 at l2
    rw [abs_le]; norm_num [renormBound] at l1 l2 ⊢; constructor <;> linarith
  | succ k ih =>
    obtain ⟨w, hw, a, b, c, hd, hu⟩ := ih
    obtain ⟨n1, n2⟩ := renormBound_near k hd hu
    obtain ⟨r, hr, a', b', c', e⟩ := renorm3 w a b c n1 n2
    have hb : renormBound (k + 1) ≤ 0.2 := (renormBound_le _).trans (by norm_num)
    refine ⟨r, ?_, a', b', c', (heron_step hb hd e).trans (renormBound_step k), by simp⟩
    rw [again, hw]; exact hr

/-! ## Quaternions -/

/-- The vector (3, -4, 12) meets the hypotheses. -/
example : ∃ v : Vector3d F32, v.x.isFinite = true ∧ v.y.isFinite = true ∧ v.z.isFinite = true ∧ 1 / 2 ^ 100 ≤ len3 v ∧ len3 v ≤ 2 ^ 124 ∧ len3 v = 169 := by
  refine ⟨⟨ofInt 3, ofInt (-4), ofInt 12⟩, (ofInt_exact (by decide)).1, (ofInt_exact (by decide)).1, (ofInt_exact (by decide)).1, ?_⟩
  have h : len3 (⟨ofInt 3, ofInt (-4), ofInt 12⟩ : Vector3d F32) = 169 := by
    show (ofInt 3).val ^ 2 + (ofInt (-4)).val ^ 2 + (ofInt 12).val ^ 2 = 169
    rw [(ofInt_exact (by decide)).2, (ofInt_exact (by decide)).2, (ofInt_exact (by decide)).2]; norm_num
  rw [h]; norm_num

omit [Cfg] in
/-- `N y^2` for `y = invsqrt(N)`, on the three pieces. -/
theorem renorm_pieces {N y : ℚ} :
    (0.91 ≤ N → N ≤ xstar → |y - (1 - (N - xstar))| ≤ 1 / 2 ^ 23 →
      xstar - 1 / 2 ^ 21 ≤ N * y ^ 2 ∧ N * y ^ 2 ≤ xstar + 0.87 * (xstar - N) + 1 / 2 ^ 21) ∧
    (xstar ≤ N → N ≤ 1 → |y - (1 - (N - xstar) / 2)| ≤ 1 / 2 ^ 23 →
      xstar - 1 / 2 ^ 21 ≤ N * y ^ 2 ∧ N * y ^ 2 ≤ xstar + 0.07 * (N - xstar) + 1 / 2 ^ 21) ∧
    (1 ≤ N → N ≤ 1.09 → |y - ((1 + xstar) / 2 - (N - 1) / 4)| ≤ 1 / 2 ^ 23 → xstar ≤ N * y ^ 2 ∧ N * y ^ 2 ≤ 0.9708) := by
  have key : ∀ {N y c : ℚ}, 0 ≤ N → N ≤ 1.09 → 0.9 ≤ c → c ≤ 1.03 → |y - c| ≤ 1 / 2 ^ 23 →
      N * c ^ 2 - 1 / 2 ^ 21 ≤ N * y ^ 2 ∧ N * y ^ 2 ≤ N * c ^ 2 + 1 / 2 ^ 21 := by
    intro N y c n0 n1 c0 c1 h
    have e : N * y ^ 2 = N * c ^ 2 + N * ((y - c) * (2 * c + (y - c))) := by ring
    have h1 : |N * ((y - c) * (2 * c + (y - c)))| ≤ 1.09 * (1 / 2 ^ 23 * 2.07) := by
      rw [abs_mul, abs_of_nonneg n0]
      refine mul_le_mul n1 ?_ (abs_nonneg _) (by norm_num)
      rw [abs_mul]
      refine mul_le_mul h ?_ (abs_nonneg _) (by norm_num)
      have := abs_le.1 h
      rw [abs_le]; norm_num at *; constructor <;> linarith
    rw [e]
    have := abs_le.1 h1
    norm_num at this ⊢
    constructor <;> linarith
  have hs : xstar = 15643916 / 2 ^ 24 := rfl
  norm_num at hs
  refine ⟨fun a b h => ?_, fun a b h => ?_, fun a b h => ?_⟩
  · obtain ⟨k1, k2⟩ := key (N := N) (by norm_num at a; linarith) (by rw [hs] at b; norm_num; linarith)
      (by rw [hs] at b ⊢; norm_num; linarith) (by rw [hs] at b ⊢; norm_num at a ⊢; linarith) h
    obtain ⟨d, hd⟩ : ∃ d, d = xstar - N := ⟨_, rfl⟩
    have hN : N = xstar - d := by linarith
    have d0 : 0 ≤ d := by linarith
    have d1 : d ≤ 0.0225 := by rw [hd, hs]; norm_num at a ⊢; linarith
    have e : N * (1 - (N - xstar)) ^ 2 = xstar + (2 * xstar - 1) * d + d ^ 2 * (xstar - 2) - d ^ 3 := by rw [hN]; ring
    rw [← hd]
    rw [e] at k1 k2
    rw [hs] at k1 k2 ⊢
    have d3 : 0 ≤ d ^ 3 := by positivity
    have d2 : 0 ≤ d ^ 2 := by positivity
    have d4 : d ^ 2 ≤ 0.0225 * d := by nlinarith
    have d5 : d ^ 3 ≤ 0.0225 * d := by nlinarith
    norm_num at k1 k2 d4 d5 ⊢
    constructor <;> linarith
  · obtain ⟨k1, k2⟩ := key (N := N) (by rw [hs] at a; linarith) (by norm_num; linarith)
      (by rw [hs]; norm_num; linarith) (by norm_num; linarith) h
    obtain ⟨d, hd⟩ : ∃ d, d = N - xstar := ⟨_, rfl⟩
    have hN : N = xstar + d := by linarith
    have d0 : 0 ≤ d := by linarith
    have d1 : d ≤ 0.0676 := by rw [hd, hs]; norm_num; linarith
    have e : N * (1 - (N - xstar) / 2) ^ 2 = xstar + (1 - xstar) * d + d ^ 2 * (xstar / 4 - 1) + d ^ 3 / 4 := by rw [hN]; ring
    rw [← hd]
    rw [e] at k1 k2
    rw [hs] at k1 k2 ⊢
    have d3 : 0 ≤ d ^ 3 := by positivity
    have d2 : 0 ≤ d ^ 2 := by positivity
    have d4 : d ^ 2 ≤ 0.0676 * d := by nlinarith
    have d5 : d ^ 3 ≤ 0.0676 * d ^ 2 := by nlinarith
    norm_num at k1 k2 d4 d5 ⊢
    constructor <;> linarith
  · obtain ⟨k1, k2⟩ := key (N := N) (by linarith) b (by rw [hs]; norm_num at b ⊢; linarith) (by rw [hs]; norm_num at b ⊢; linarith) h
    obtain ⟨d, hd⟩ : ∃ d, d = N - 1 := ⟨_, rfl⟩
    have hN : N = 1 + d := by linarith
    have d0 : 0 ≤ d := by linarith
    have d1 : d ≤ 0.09 := by rw [hd]; norm_num at b ⊢; linarith
    rw [hs] at k1 k2 ⊢
    rw [hN] at k1 k2 ⊢
    norm_num at k1 k2 d1 ⊢
    have d2 : 0 ≤ d ^ 2 := by positivity
    have d3 : 0 ≤ d ^ 3 := by positivity
    have d4 : d ^ 2 ≤ 0.09 * d := by norm_num; nlinarith
    have d5 : d ^ 3 ≤ 0.09 * d ^ 2 := by norm_num; nlinarith
    norm_num at d4 d5
    constructor <;> nlinarith

/-- One call of `normalize` on a quaternion of nearly unit length: the new squared length is `N y^2` for the computed norm `N`. -/
theorem qrenorm (q : Quaternion) (hq : QFinite q) (h1 : 0.914 ≤ qlen q) (h2 : qlen q ≤ 1.087) :
    ∃ r, ∃ N y : ℚ, q.normalize = .ok r ∧ QFinite r ∧ |N - qlen q| ≤ 1 / 2 ^ 21 ∧ |qlen r - N * y ^ 2| ≤ 1 / 2 ^ 20 ∧
      (N ≤ xstar → |y - (1 - (N - xstar))| ≤ 1 / 2 ^ 23) ∧
      (xstar ≤ N → N < 1 → |y - (1 - (N - xstar) / 2)| ≤ 1 / 2 ^ 23) ∧
      (1 ≤ N → |y - ((1 + xstar) / 2 - (N - 1) / 4)| ≤ 1 / 2 ^ 23) := by
  have hl : qlen q = q.a.val ^ 2 + q.b.val ^ 2 + q.c.val ^ 2 + q.d.val ^ 2 := rfl
  obtain ⟨hp, s1, s2⟩ := (norm_sumSq hq (by rw [← hl]; norm_num at h2 ⊢; linarith)).normal (by rw [← hl]; norm_num at h1 ⊢; linarith)
  rw [← hl] at s1 s2
  obtain ⟨n, hn, fn, p1, p2, p3⟩ := invsqrt_near_one hp (by norm_num at h1 s1 ⊢; linarith) (by norm_num at h2 s2 ⊢; linarith)
  obtain ⟨n', hn', -, pn, b1, b2, -⟩ := C17_invsqrt q.norm hp
  rw [hn] at hn'
  obtain rfl := Except.ok.inj hn'
  have h0 : q.norm.feq posZero = false := by
    rw [Bool.eq_false_iff]
    intro h
    rw [feq_iff hp.1 fin_posZero, val_posZero] at h
    have := hp.2
    rw [h] at this
    norm_num at this
  have hn2 : 0 < n.val ^ 2 := by positivity
  have t1 := mul_le_mul_of_nonneg_right s1 hn2.le
  have t2 := mul_le_mul_of_nonneg_right s2 hn2.le
  have u1 : qlen q * n.val ^ 2 ≤ 1.0701 := by norm_num at t1 b2 ⊢; linarith
  have u3 : qlen q * n.val ^ 2 ≤ 1.08 := by norm_num at u1 ⊢; linarith
  have na := sq_nonneg q.a.val
  have nb := sq_nonneg q.b.val
  have nc := sq_nonneg q.c.val
  have nd := sq_nonneg q.d.val
  obtain ⟨fa, ea⟩ := qnorm_comp hq.1 fn (by rw [hl]; linarith) u3
  obtain ⟨fb, eb⟩ := qnorm_comp hq.2.1 fn (by rw [hl]; linarith) u3
  obtain ⟨fc, ec⟩ := qnorm_comp hq.2.2.1 fn (by rw [hl]; linarith) u3
  obtain ⟨fd, ed⟩ := qnorm_comp hq.2.2.2 fn (by rw [hl]; linarith) u3
  refine ⟨q.scale n, q.norm.val, n.val, ?_, ⟨fa, fb, fc, fd⟩, ?_, ?_, p1, p2, p3⟩
  · simp only [Quaternion.normalize, h0, hn]; rfl
  · rw [abs_le]; norm_num at s1 s2 h2 ⊢; constructor <;> linarith
  · have hr : qlen (q.scale n) = (q.a * n).val ^ 2 + (q.b * n).val ^ 2 + (q.c * n).val ^ 2 + (q.d * n).val ^ 2 := rfl
    have e3 : qlen q * n.val ^ 2 = q.a.val ^ 2 * n.val ^ 2 + q.b.val ^ 2 * n.val ^ 2 + q.c.val ^ 2 * n.val ^ 2 + q.d.val ^ 2 * n.val ^ 2 := by
      rw [hl]; ring
    rw [hr]
    rw [mul_assoc] at t1 t2
    generalize qlen q * n.val ^ 2 = Z at *
    rw [abs_le] at ea eb ec ed ⊢
    norm_num at ea eb ec ed e3 u1 t1 t2 b2 ⊢
    constructor <;> linarith

/-- The squared length after one more call. -/
theorem qrenorm_step (q : Quaternion) (hq : QFinite q) :
    (0.9141 ≤ qlen q → qlen q ≤ 1.0869 → ∃ r, q.normalize = .ok r ∧ QFinite r ∧ xstar - 1 / 2 ^ 19 ≤ qlen r ∧ qlen r ≤ 0.971) ∧
    (∀ d, 0 ≤ d → d ≤ 0.06 → ∀ e, 0 ≤ e → e ≤ 0.0105 → xstar - e ≤ qlen q → qlen q ≤ xstar + d → ∀ B, 0.07 * d ≤ B → 0.87 * e ≤ B →
      ∃ r, q.normalize = .ok r ∧ QFinite r ∧ xstar - 1 / 2 ^ 19 ≤ qlen r ∧ qlen r ≤ xstar + B + 1 / 2 ^ 19) := by
  have hs : xstar = 15643916 / 2 ^ 24 := rfl
  norm_num at hs
  constructor
  · intro h1 h2
    obtain ⟨r, N, y, hr, fr, hN, hy, p1, p2, p3⟩ := qrenorm q hq (by norm_num at h1 ⊢; linarith) (by norm_num at h2 ⊢; linarith)
    refine ⟨r, hr, fr, ?_⟩
    obtain ⟨k1, k2, k3⟩ := @renorm_pieces N y
    have hN' := abs_le.1 hN
    have hy' := abs_le.1 hy
    rcases le_total N xstar with hc | hc
    · obtain ⟨a, b⟩ := k1 (by norm_num at h1 hN' ⊢; linarith) hc (p1 hc)
      rw [hs] at a b hc ⊢
      norm_num at a b h1 hN' hy' ⊢
      constructor <;> linarith
    · rcases lt_or_ge N 1 with hd | hd
      · obtain ⟨a, b⟩ := k2 hc hd.le (p2 hc hd)
        rw [hs] at a b hc ⊢
        norm_num at a b h1 hN' hy' ⊢
        constructor <;> linarith
      · obtain ⟨a, b⟩ := k3 hd (by norm_num at h2 hN' ⊢; linarith) (p3 hd)
        rw [hs] at a hc ⊢
        norm_num at a b h1 hN' hy' ⊢
        constructor <;> linarith
  · intro d d0 d1 e e0 e1 h1 h2 B B1 B2
    obtain ⟨r, N, y, hr, fr, hN, hy, p1, p2, p3⟩ := qrenorm q hq (by rw [hs] at h1; norm_num at h1 e1 ⊢; linarith)
      (by rw [hs] at h2; norm_num at h2 d1 ⊢; linarith)
    refine ⟨r, hr, fr, ?_⟩
    obtain ⟨k1, k2, k3⟩ := @renorm_pieces N y
    have hN' := abs_le.1 hN
    have hy' := abs_le.1 hy
    rcases le_total N xstar with hc | hc
    · obtain ⟨a, b⟩ := k1 (by rw [hs] at h1; norm_num at h1 e1 hN' ⊢; linarith) hc (p1 hc)
      norm_num at a b h1 hN' hy' B1 B2 ⊢
      constructor <;> linarith
    · have hd : N < 1 := by rw [hs] at h2; norm_num at h2 d1 hN' ⊢; linarith
      obtain ⟨a, b⟩ := k2 hc hd.le (p2 hc hd)
      norm_num at a b h1 hN' hy' B1 B2 ⊢
      constructor <;> linarith

/-- How far the squared length can be above `xstar` after `k` calls. -/
def qrenormBound : Nat → ℚ
  | 0 | 1 | 2 => 0.0386
  | 3 => 0.00271
  | 4 => 0.0002
  | 5 => 1.8e-5
  | _ => 4e-6

omit [Cfg] in
theorem qrenormBound_tail (k : Nat) : qrenormBound (k + 6) = 4e-6 := rfl

omit [Cfg] in
theorem qrenormBound_step (k : Nat) : 0 ≤ qrenormBound (k + 2) ∧ qrenormBound (k + 2) ≤ 0.06 ∧
    0.07 * qrenormBound (k + 2) + 1 / 2 ^ 19 ≤ qrenormBound (k + 3) ∧ 0.87 * (1 / 2 ^ 19) + 1 / 2 ^ 19 ≤ qrenormBound (k + 3) := by
  match k with
  | 0 | 1 | 2 | 3 => norm_num [qrenormBound]
  | k + 4 => rw [show k + 4 + 2 = k + 6 from rfl, show k + 4 + 3 = (k + 1) + 6 from rfl, qrenormBound_tail, qrenormBound_tail]; norm_num

/-- **C147, quaternions.** Calling `normalize` again and again converges to the squared length `xstar = 0.93245`, not to one:
it is at most 0.0386, 0.00271, 0.0002, 1.8e-5 above this value after two to five calls, at most 4e-6 from the sixth call on,
and never more than 2^-19 below it. -/
theorem C147_quaternion (q : Quaternion) (hq : QFinite q) (h1 : 1 / 2 ^ 100 ≤ qlen q) (h2 : qlen q ≤ 2 ^ 124) (k : Nat) :
    ∃ r, again Quaternion.normalize (k + 2) q = .ok r ∧ QFinite r ∧ xstar - 1 / 2 ^ 19 ≤ qlen r ∧ qlen r ≤ xstar + qrenormBound (k + 2) := by
  induction k with
  | zero =>
    obtain ⟨p, hp, fp, l1, l2⟩ := C70_normalize q hq h1 h2
    obtain ⟨r, hr, fr, a, b⟩ := (qrenorm_step p fp).1 (by norm_num at l1 ⊢; linarith) (by norm_num at l2 ⊢; linarith)
    refine ⟨r, ?_, fr, a, ?_⟩
    · simp only [again, ok_bind, hp, hr]
    · refine b.trans ?_
      norm_num [qrenormBound, xstar]
  | succ k ih =>
    obtain ⟨p, hp, fp, l1, l2⟩ := ih
    obtain ⟨b1, b2, b3, b4⟩ := qrenormBound_step k
    obtain ⟨r, hr, fr, a, b⟩ := (qrenorm_step p fp).2 _ b1 b2 (1 / 2 ^ 19) (by norm_num) (by norm_num) l1 l2
      (qrenormBound (k + 3) - 1 / 2 ^ 19) (by linarith) (by linarith)
    refine ⟨r, ?_, fr, a, by rw [show k + 1 + 2 = k + 3 from rfl]; linarith⟩
    rw [show k + 1 + 2 = (k + 2) + 1 from rfl, again, hp]
    exact hr

/-! ## An orientation updated in a loop -/

/-- The length of a product. -/
theorem mul_len {q d : Quaternion} (fq : QFinite q) (fd : QFinite d) (h1 : 1 / 2 ^ 99 ≤ qlen q) (h2 : qlen q ≤ 2 ^ 120)
    (d1 : 0.9909 ≤ qlen d) (d2 : qlen d ≤ 1.0091) :
    QFinite (q.mul d) ∧ |qlen (q.mul d) - qlen q * qlen d| ≤ 1.3e-6 * (qlen q * qlen d) := by
  obtain ⟨P, hP⟩ : ∃ P, P = ‖qreal q‖ * ‖qreal d‖ := ⟨_, rfl⟩
  have P0 : 0 ≤ P := by rw [hP]; positivity
  have P2 : P ^ 2 = ((qlen q * qlen d : ℚ) : ℝ) := by rw [hP, mul_pow, qreal_norm, qreal_norm]; push_cast; ring
  have z1 : 1 / 2 ^ 100 ≤ qlen q * qlen d := by
    refine le_trans ?_ (mul_le_mul h1 d1 (by norm_num) (le_trans (by norm_num) h1))
    norm_num
  have z2 : qlen q * qlen d ≤ 2 ^ 122 := by
    refine (mul_le_mul h2 d2 (le_trans (by norm_num) d1) (by norm_num)).trans ?_
    norm_num
  have z1' := (Rat.cast_le (K := ℝ)).2 z1
  have z2' := (Rat.cast_le (K := ℝ)).2 z2
  rw [← P2] at z1' z2'
  push_cast at z1' z2'
  have P1 : 1 / 2 ^ 50 ≤ P := by
    refine (sq_le_sq₀ (by positivity) P0).1 ?_
    refine le_trans (le_of_eq ?_) z1'
    norm_num
  have P3 : P ≤ 2 ^ 61 := by
    refine (sq_le_sq₀ P0 (by positivity)).1 ?_
    refine z2'.trans (le_of_eq ?_)
    norm_num
  obtain ⟨f, e⟩ := C136_mul fq fd (by rw [← hP]; refine P3.trans ?_; norm_num)
  refine ⟨f, ?_⟩
  rw [← hP] at e
  have hn : ‖qreal q * qreal d‖ = P := by rw [norm_mul, hP]
  have e1 : |‖qreal (q.mul d)‖ - P| ≤ 6.1e-7 * P := by
    rw [← hn]
    refine (abs_norm_sub_norm_le _ _).trans (e.trans ?_)
    rw [hn]
    norm_num at P1 ⊢
    linarith
  have e2 : |‖qreal (q.mul d)‖ ^ 2 - P ^ 2| ≤ 1.3e-6 * P ^ 2 := by
    have e3 := abs_le.1 e1
    obtain ⟨w, hw⟩ : ∃ w, w = ‖qreal (q.mul d)‖ := ⟨_, rfl⟩
    rw [← hw] at e3 ⊢
    have w1 : (1 - 6.1e-7) * P ≤ w := by linarith
    have w2 : w ≤ (1 + 6.1e-7) * P := by linarith
    have k1 := pow_le_pow_left₀ (mul_nonneg (by norm_num) P0) w1 2
    have k2 := pow_le_pow_left₀ (by rw [hw]; positivity) w2 2
    rw [mul_pow] at k1 k2
    have := sq_nonneg P
    rw [abs_le]
    norm_num at k1 k2 ⊢
    constructor <;> linarith
  rw [qreal_norm, P2] at e2
  have : ((|qlen (q.mul d) - qlen q * qlen d| : ℚ) : ℝ) ≤ ((1.3e-6 * (qlen q * qlen d) : ℚ) : ℝ) := by
    push_cast at e2 ⊢; exact e2
  exact Rat.cast_le.1 this

/-- One update of an orientation `q` by a small turn `d`, as in a loop that integrates a gyroscope. -/
def update (q d : Quaternion) : Res Quaternion := (q.mul d).normalize

theorem update_first {q d : Quaternion} (fq : QFinite q) (fd : QFinite d) (h1 : 1 / 2 ^ 99 ≤ qlen q) (h2 : qlen q ≤ 2 ^ 120)
    (d1 : 0.9909 ≤ qlen d) (d2 : qlen d ≤ 1.0091) : ∃ r, update q d = .ok r ∧ QFinite r ∧ 0.9298 ≤ qlen r ∧ qlen r ≤ 1.0702 := by
  obtain ⟨f, e⟩ := mul_len fq fd h1 h2 d1 d2
  have e' := abs_le.1 e
  have z1 : 1 / 2 ^ 99 * 0.9909 ≤ qlen q * qlen d := mul_le_mul h1 d1 (by norm_num) (le_trans (by norm_num) h1)
  have z2 : qlen q * qlen d ≤ 2 ^ 120 * 1.0091 := mul_le_mul h2 d2 (le_trans (by norm_num) d1) (by norm_num)
  exact C70_normalize_len _ f (by norm_num at z1 e' ⊢; linarith) (by norm_num at z2 e' ⊢; linarith)

theorem update_second {q d : Quaternion} (fq : QFinite q) (fd : QFinite d) (h1 : 0.9298 ≤ qlen q) (h2 : qlen q ≤ 1.0702)
    (d1 : 0.9909 ≤ qlen d) (d2 : qlen d ≤ 1.0091) : ∃ r, update q d = .ok r ∧ QFinite r ∧ xstar - 1 / 2 ^ 19 ≤ qlen r ∧ qlen r ≤ 0.971 := by
  obtain ⟨f, e⟩ := mul_len fq fd (le_trans (by norm_num) h1) (h2.trans (by norm_num)) d1 d2
  have e' := abs_le.1 e
  have z1 : 0.9298 * 0.9909 ≤ qlen q * qlen d := mul_le_mul h1 d1 (by norm_num) (le_trans (by norm_num) h1)
  have z2 : qlen q * qlen d ≤ 1.0702 * 1.0091 := mul_le_mul h2 d2 (le_trans (by norm_num) d1) (by norm_num)
  exact (qrenorm_step _ f).1 (by norm_num at z1 e' ⊢; linarith) (by norm_num at z2 e' ⊢; linarith)

theorem update_third {q d : Quaternion} (fq : QFinite q) (fd : QFinite d) (h1 : xstar - 1 / 2 ^ 19 ≤ qlen q) (h2 : qlen q ≤ 0.971)
    (d1 : 0.9909 ≤ qlen d) (d2 : qlen d ≤ 1.0091) : ∃ r, update q d = .ok r ∧ QFinite r ∧ xstar - 1 / 2 ^ 19 ≤ qlen r ∧ qlen r ≤ xstar + 0.0074 := by
  have hs : xstar - 1 / 2 ^ 19 = 15643916 / 2 ^ 24 - 1 / 2 ^ 19 := rfl
  have h1' : 0.93244 ≤ qlen q := le_trans (by rw [hs]; norm_num) h1
  have hs' : xstar = 15643916 / 2 ^ 24 := rfl
  norm_num at hs'
  obtain ⟨f, e⟩ := mul_len fq fd (le_trans (by norm_num) h1') (h2.trans (by norm_num)) d1 d2
  have e' := abs_le.1 e
  have z1 : 0.93244 * 0.9909 ≤ qlen q * qlen d := mul_le_mul h1' d1 (by norm_num) (le_trans (by norm_num) h1')
  have z2 : qlen q * qlen d ≤ 0.971 * 1.0091 := mul_le_mul h2 d2 (le_trans (by norm_num) d1) (by norm_num)
  obtain ⟨r, hr, fr, a, b⟩ := (qrenorm_step _ f).2 0.0474 (by norm_num) (by norm_num) 0.0085 (by norm_num) (by norm_num)
    (by rw [hs']; norm_num at z1 e' ⊢; linarith) (by rw [hs']; norm_num at z2 e' ⊢; linarith) 0.007397 (by norm_num) (by norm_num)
  exact ⟨r, hr, fr, a, b.trans (by norm_num; linarith)⟩

/-- **C147, orientation in a loop.** Whatever the start, after three or more updates `q = (q * d).normalize()` by turns of squared
length within 0.0091 of one, the squared length of `q` is within `0.93244 .. 0.93985`. -/
theorem C147_loop (ds : List Quaternion) (hd : ∀ d ∈ ds, QFinite d ∧ 0.9909 ≤ qlen d ∧ qlen d ≤ 1.0091) (h3 : 3 ≤ ds.length)
    (q : Quaternion) (fq : QFinite q) (h1 : 1 / 2 ^ 99 ≤ qlen q) (h2 : qlen q ≤ 2 ^ 120) :
    ∃ r, ds.foldlM update q = .ok r ∧ QFinite r ∧ xstar - 1 / 2 ^ 19 ≤ qlen r ∧ qlen r ≤ xstar + 0.0074 := by
  have steady : ∀ (l : List Quaternion), (∀ d ∈ l, QFinite d ∧ 0.9909 ≤ qlen d ∧ qlen d ≤ 1.0091) → ∀ q, QFinite q →
      xstar - 1 / 2 ^ 19 ≤ qlen q → qlen q ≤ xstar + 0.0074 →
      ∃ r, l.foldlM update q = .ok r ∧ QFinite r ∧ xstar - 1 / 2 ^ 19 ≤ qlen r ∧ qlen r ≤ xstar + 0.0074 := by
    intro l
    induction l with
    | nil => intro _ q fq h1 h2; exact ⟨q, rfl, fq, h1, h2⟩
    | cons d l ih =>
      intro hd q fq h1 h2
      obtain ⟨a, b, c⟩ := hd d (by simp)
      obtain ⟨p, hp, fp, l1, l2⟩ := update_third fq a h1 (h2.trans (by norm_num [xstar])) b c
      obtain ⟨r, hr⟩ := ih (fun x hx => hd x (by simp [hx])) p fp l1 l2
      refine ⟨r, ?_, hr.2⟩
      rw [List.foldlM_cons, hp, ok_bind]; exact hr.1
  match ds, h3 with
  | a :: b :: c :: l, _ =>
    obtain ⟨a1, a2, a3⟩ := hd a (by simp)
    obtain ⟨b1, b2, b3⟩ := hd b (by simp)
    obtain ⟨c1, c2, c3⟩ := hd c (by simp)
    obtain ⟨p, hp, fp, p1, p2⟩ := update_first fq a1 h1 h2 a2 a3
    obtain ⟨s, hs, fs, s1, s2⟩ := update_second fp b1 p1 p2 b2 b3
    obtain ⟨t, ht, ft, t1, t2⟩ := update_third fs c1 s1 s2 c2 c3
    obtain ⟨r, hr⟩ := steady l (fun x hx => hd x (by simp [hx])) t ft t1 t2
    refine ⟨r, ?_, hr.2⟩
    simp only [List.foldlM_cons, hp, hs, ht, ok_bind]; exact hr.1

/-- **C147, gyroscope loop.** In particular for turns made by `axis_angle` from axes of squared length within `1e-5` of one and
angles up to 8192: after three or more updates the squared length is within `0.93244 .. 0.93985`. -/
theorem C147_gyro (l : List (Vector3d F32 × F32)) (h3 : 3 ≤ l.length)
    (hl : ∀ a ∈ l, a.2.isFinite = true ∧ |a.2.val| ≤ 8192 ∧ a.1.x.isFinite = true ∧ a.1.y.isFinite = true ∧ a.1.z.isFinite = true ∧
      |a.1.x.val ^ 2 + a.1.y.val ^ 2 + a.1.z.val ^ 2 - 1| ≤ 1e-5)
    (q : Quaternion) (fq : QFinite q) (h1 : 1 / 2 ^ 99 ≤ qlen q) (h2 : qlen q ≤ 2 ^ 120) :
    ∃ r, l.foldlM (fun q a => (q.mul (Quaternion.axisAngle a.1 a.2)).normalize) q = .ok r ∧ QFinite r ∧
      xstar - 1 / 2 ^ 19 ≤ qlen r ∧ qlen r ≤ xstar + 0.0074 := by
  obtain ⟨r, hr⟩ := C147_loop (l.map fun a => Quaternion.axisAngle a.1 a.2) (by
    intro d hd
    obtain ⟨⟨v, t⟩, ha, rfl⟩ := List.mem_map.1 hd
    obtain ⟨ft, bt, fx, fy, fz, hv⟩ := hl _ ha
    refine ⟨(C96_axis_angle ft bt fx fy fz (hv.trans (by norm_num))).1, ?_⟩
    have hq := C74_axis_angle_sq ft bt fx fy fz (hv.trans (by norm_num))
    have hv' := (Rat.cast_le (K := ℝ)).2 hv
    push_cast at hv'
    have h5 : |((qlen (Quaternion.axisAngle v t) : ℚ) : ℝ) - 1| ≤ 0.0091 := by
      unfold qlen; push_cast
      refine hq.trans ?_
      norm_num at hv' ⊢
      linarith
    have h6 : |qlen (Quaternion.axisAngle v t) - 1| ≤ 0.0091 := by
      have : ((|qlen (Quaternion.axisAngle v t) - 1| : ℚ) : ℝ) ≤ ((0.0091 : ℚ) : ℝ) := by push_cast; exact h5
      exact Rat.cast_le.1 this
    have h7 := abs_le.1 h6
    norm_num at h7 ⊢
    constructor <;> linarith) (by simpa using h3) q fq h1 h2
  refine ⟨r, ?_, hr.2⟩
  rw [← hr.1, List.foldlM_map]
  rfl

example : ∃ l : List (Vector3d F32 × F32), 3 ≤ l.length ∧ ∀ a ∈ l, a.2.isFinite = true ∧ |a.2.val| ≤ 8192 ∧ a.1.x.isFinite = true ∧
    a.1.y.isFinite = true ∧ a.1.z.isFinite = true ∧ |a.1.x.val ^ 2 + a.1.y.val ^ 2 + a.1.z.val ^ 2 - 1| ≤ 1e-5 := by
  refine ⟨[(⟨one, posZero, posZero⟩, one), (⟨posZero, one, posZero⟩, one), (⟨posZero, posZero, one⟩, one)], by simp, ?_⟩
  intro a ha
  simp only [List.mem_cons, List.not_mem_nil, or_false] at ha
  rcases ha with rfl | rfl | rfl <;> refine ⟨fin_one, by rw [val_one]; norm_num, by decide, by decide, by decide, ?_⟩ <;>
    simp only [val_one, val_posZero] <;> norm_num

/-- The identity, a usual start, meets the hypotheses. -/
example : QFinite Quaternion.IDENTITY ∧ 1 / 2 ^ 99 ≤ qlen Quaternion.IDENTITY ∧ qlen Quaternion.IDENTITY ≤ 2 ^ 120 := by
  have h : qlen Quaternion.IDENTITY = 1 := by simp only [qlen, Quaternion.IDENTITY, val_one, val_posZero]; norm_num
  refine ⟨⟨by decide, by decide, by decide, by decide⟩, ?_⟩
  rw [h]; norm_num

/-- **C147.** Rotating by such an orientation multiplies squared lengths by a factor within `0.869 .. 0.884`: every vector is
shrunk by 5.9 to 6.8 percent. -/
theorem C147_shrink {C : Type} [IntoF32 C] (q : Quaternion) (v : Vector3d C) (hq : QFinite q)
    (fx : (IntoF32.into v.x : F32).isFinite = true) (fy : (IntoF32.into v.y : F32).isFinite = true) (fz : (IntoF32.into v.z : F32).isFinite = true)
    (h1 : xstar - 1 / 2 ^ 19 ≤ qlen q) (h2 : qlen q ≤ xstar + 0.0074) (l1 : 1 / 2 ^ 200 ≤ len3 v) (l2 : len3 v ≤ 2 ^ 236) :
    0.869 * len3 v ≤ len3 (q.rotate v) ∧ len3 (q.rotate v) ≤ 0.884 * len3 v := by
  have k1 : 0.93244 ≤ qlen q := le_trans (by norm_num [xstar]) h1
  have k2 : qlen q ≤ 0.93986 := h2.trans (by norm_num [xstar])
  have h := abs_le.1 (C90_rotate_scale q v hq fx fy fz (by norm_num at k1 ⊢; linarith) (by norm_num at k2 ⊢; linarith) l1 l2)
  have l0 : 0 ≤ len3 v := le_trans (by positivity) l1
  have q1 : 0.8694 * len3 v ≤ qlen q ^ 2 * len3 v := mul_le_mul_of_nonneg_right (by norm_num at k1 k2 ⊢; nlinarith) l0
  have q2 : qlen q ^ 2 * len3 v ≤ 0.8834 * len3 v := mul_le_mul_of_nonneg_right (by norm_num at k1 k2 ⊢; nlinarith) l0
  norm_num at h q1 q2 ⊢
  constructor <;> linarith

/-- **C147.** Where `normalize` changes nothing: the computed norm has the bits `0x3f6eb50c` or `0x3f6eb50d`. -/
theorem C147_fixed (q : Quaternion) (hq : QFinite q) (h : q.norm = ⟨0x3f6eb50c#32⟩ ∨ q.norm = ⟨0x3f6eb50d#32⟩) : q.normalize = .ok q := by
  have key : ∀ x : F32, x.feq posZero = false → x.invsqrt = .ok one → q.norm = x → q.normalize = .ok q := by
    intro x h1 h2 h3
    rw [Quaternion.normalize, h3, h1, h2]
    show Except.ok (q.scale one) = _
    simp only [Quaternion.scale, mul_one_fin hq.1, mul_one_fin hq.2.1, mul_one_fin hq.2.2.1, mul_one_fin hq.2.2.2]
  rcases h with h | h
  · exact key _ (by decide +kernel) ((eval_ok (n := 0x3f800000) (by kernel_rfl) (by norm_num)).trans rfl) h
  · exact key _ (by decide +kernel) ((eval_ok (n := 0x3f800000) (by kernel_rfl) (by norm_num)).trans rfl) h

/-- A quaternion that `normalize` leaves unchanged; its length is 0.9656. -/
example : (⟨⟨0x3f7733d3#32⟩, posZero, posZero, posZero⟩ : Quaternion).norm = ⟨0x3f6eb50c#32⟩ :=
  eval_eq (n := 0x3f6eb50c) (by kernel_rfl)

/-- **C147, finding.** Normalizing the identity, a quaternion of length one, shrinks it to `0.966`. -/
theorem C147_identity : Quaternion.IDENTITY.normalize = .ok ⟨⟨0x3f775a86#32⟩, posZero, posZero, posZero⟩ := by
  have h1 : Quaternion.IDENTITY.norm = one := eval_eq (n := 0x3f800000) (by kernel_rfl)
  have h2 : one.feq posZero = false := by decide +kernel
  have h3 : one.invsqrt = .ok ⟨0x3f775a86#32⟩ := eval_ok (n := 0x3f775a86) (by kernel_rfl) (by norm_num)
  rw [Quaternion.normalize, h1, h2, h3]
  simp only [Quaternion.scale, Quaternion.IDENTITY]
  have a : (one : F32) * ⟨0x3f775a86#32⟩ = ⟨0x3f775a86#32⟩ := eval_eq (n := 0x3f775a86) (by kernel_rfl)
  have b : (posZero : F32) * ⟨0x3f775a86#32⟩ = posZero := eval_eq (n := 0) (by kernel_rfl)
  show Except.ok _ = _
  rw [a, b]

end Micromath.Props
