import Verif.Props.QuatRot
import Verif.Props.VecErr
import Verif.Props.VecNorm

/-!
# C166: mirroring a vector at a plane, `v - n * (2.0 * v.dot(n))`
-/

set_option exponentiation.threshold 1000

namespace Micromath.Props
open F32 Spec

variable [Cfg]

/-- `v - n * (v.dot(n) * 2.0)`. -/
def reflect (v n : Vector3d F32) : Res (Vector3d F32) := do
  let d ← v.dot n
  let s ← n.mulScalar (d * ⟨0x40000000#32⟩)
  v.sub s

omit [Cfg] in
theorem two_isVal : (⟨0x40000000#32⟩ : F32).isFinite = true ∧ (⟨0x40000000#32⟩ : F32).val = 2 :=
  ⟨by decide +kernel, by rw [val_of_units (u := 2 * 2 ^ 149) (by decide +kernel)]; norm_num⟩

/-- One coordinate of the mirrored vector. -/
theorem reflect_coord {d x n : F32} {D m : ℚ} (fx : x.isFinite = true) (fn : n.isFinite = true) (fd : d.isFinite = true)
    (n1 : |n.val| ≤ 1 + 1 / 2 ^ 17) (xm : |x.val| ≤ m) (hm : m ≤ 2 ^ 120) (Dm : |D| ≤ (1 + 1 / 2 ^ 17) * m)
    (hd : |d.val - D| ≤ 4 / 2 ^ 24 * ((1 + 1 / 2 ^ 17) * m) + 1 / 2 ^ 147) :
    (x - n * (d * ⟨0x40000000#32⟩)).isFinite = true ∧
      |(x - n * (d * ⟨0x40000000#32⟩)).val - (x.val - 2 * D * n.val)| ≤ 16 / 2 ^ 24 * m + 1 / 2 ^ 144 := by
  obtain ⟨f2, v2⟩ := two_isVal
  have m0 : 0 ≤ m := (abs_nonneg _).trans xm
  have n0 := abs_nonneg n.val
  have a0 : Acc d D ((1 + 1 / 2 ^ 17) * m) (4 / 2 ^ 24 * ((1 + 1 / 2 ^ 17) * m) + 1 / 2 ^ 147) := ⟨fd, hd, Dm⟩
  have a1 := a0.mulE f2 (by rw [v2, abs_of_pos (show (0 : ℚ) < 2 by norm_num)]; norm_num at hm ⊢; linarith)
  rw [v2, abs_of_pos (show (0 : ℚ) < 2 by norm_num)] at a1
  have a1' : Acc (d * ⟨0x40000000#32⟩) (D * 2) (20001 / 10000 * m) (10001 / 1000 / 2 ^ 24 * m + 1 / 2 ^ 145) :=
    a1.weaken (by norm_num; linarith) (by norm_num; linarith)
  have hE : (0 : ℚ) ≤ 10001 / 1000 / 2 ^ 24 * m + 1 / 2 ^ 145 := by positivity
  have e2 : (20001 / 10000 * m + (10001 / 1000 / 2 ^ 24 * m + 1 / 2 ^ 145)) * |n.val| ≤
      (20001 / 10000 * m + (10001 / 1000 / 2 ^ 24 * m + 1 / 2 ^ 145)) * (1 + 1 / 2 ^ 17) := mul_le_mul_of_nonneg_left n1 (by positivity)
  have a2 := a1'.mulE fn (e2.trans (by norm_num at hm ⊢; linarith))
  have e1 : (10001 / 1000 / 2 ^ 24 * m + 1 / 2 ^ 145) * |n.val| ≤ (10001 / 1000 / 2 ^ 24 * m + 1 / 2 ^ 145) * (1 + 1 / 2 ^ 17) :=
    mul_le_mul_of_nonneg_left n1 hE
  have e3 : 20001 / 10000 * m * |n.val| ≤ 20001 / 10000 * m * (1 + 1 / 2 ^ 17) := mul_le_mul_of_nonneg_left n1 (by positivity)
  have a2' : Acc (d * ⟨0x40000000#32⟩ * n) (D * 2 * n.val) (20002 / 10000 * m) (12005 / 1000 / 2 ^ 24 * m + 1 / 2 ^ 145 + 1 / 2 ^ 149) :=
    a2.weaken (e3.trans (by norm_num; linarith)) (by norm_num at e1 e2 ⊢; linarith)
  have ax : Acc x x.val m 0 := ⟨fx, by simp, xm⟩
  have a3 := (ax.step a2' (by norm_num at hm ⊢; linarith)).2
  rw [mul_comm_fin fn a1.fin]
  refine ⟨a3.fin, ?_⟩
  have := a3.err
  rw [show x.val - 2 * D * n.val = x.val - D * 2 * n.val by ring]
  refine this.trans ?_
  norm_num; linarith

theorem reflect_eq {v n : Vector3d F32} {d : F32} (h : v.dot n = .ok d) :
    reflect v n = .ok ⟨v.x - n.x * (d * ⟨0x40000000#32⟩), v.y - n.y * (d * ⟨0x40000000#32⟩), v.z - n.z * (d * ⟨0x40000000#32⟩)⟩ := by
  rw [reflect, h]; rfl

/-- **C166.** With a normal whose coordinates are at most `1 + 2^-17` (as `normalized` gives them), each coordinate of the mirrored vector is within `2^-20` of the sum
of the coordinates' sizes from `v - 2 (v·n) n` (plus an underflow term); nothing overflows up to `2^120`. -/
theorem C166_error (v n : Vector3d F32) {m D : ℚ} (em : m = |v.x.val| + |v.y.val| + |v.z.val|)
    (eD : D = v.x.val * n.x.val + v.y.val * n.y.val + v.z.val * n.z.val)
    (vx : v.x.isFinite = true) (vy : v.y.isFinite = true) (vz : v.z.isFinite = true)
    (nx : n.x.isFinite = true) (ny : n.y.isFinite = true) (nz : n.z.isFinite = true) (bx : |n.x.val| ≤ 1 + 1 / 2 ^ 17)
    (by' : |n.y.val| ≤ 1 + 1 / 2 ^ 17) (bz : |n.z.val| ≤ 1 + 1 / 2 ^ 17) (hm : m ≤ 2 ^ 120) :
    ∃ r, reflect v n = .ok r ∧ r.x.isFinite = true ∧ r.y.isFinite = true ∧ r.z.isFinite = true ∧
      |r.x.val - (v.x.val - 2 * D * n.x.val)| ≤ 16 / 2 ^ 24 * m + 1 / 2 ^ 144 ∧
      |r.y.val - (v.y.val - 2 * D * n.y.val)| ≤ 16 / 2 ^ 24 * m + 1 / 2 ^ 144 ∧
      |r.z.val - (v.z.val - 2 * D * n.z.val)| ≤ 16 / 2 ^ 24 * m + 1 / 2 ^ 144 := by
  have h : ∀ a b : ℚ, |b| ≤ 1 + 1 / 2 ^ 17 → |a * b| ≤ |a| * (1 + 1 / 2 ^ 17) := fun a b hb => by
    rw [abs_mul]; exact mul_le_mul_of_nonneg_left hb (abs_nonneg _)
  have hs : |v.x.val * n.x.val| + |v.y.val * n.y.val| + |v.z.val * n.z.val| ≤ (1 + 1 / 2 ^ 17) * m := by
    have := add_le_add (add_le_add (h v.x.val _ bx) (h v.y.val _ by')) (h v.z.val _ bz)
    rw [em]; refine this.trans (le_of_eq (by ring))
  obtain ⟨d, ed, fd, hd⟩ := C107_dot3 v n vx vy vz nx ny nz (hs.trans (by norm_num at hm ⊢; linarith))
  have Dm : |D| ≤ (1 + 1 / 2 ^ 17) * m := by rw [eD]; exact (abs_add_three _ _ _).trans hs
  have hd' : |d.val - D| ≤ 4 / 2 ^ 24 * ((1 + 1 / 2 ^ 17) * m) + 1 / 2 ^ 147 := by
    rw [eD]
    exact hd.trans (add_le_add (mul_le_mul_of_nonneg_left hs (by norm_num)) le_rfl)
  have x0 := abs_nonneg v.x.val
  have y0 := abs_nonneg v.y.val
  have z0 := abs_nonneg v.z.val
  have cx := reflect_coord vx nx fd bx (m := m) (by rw [em]; linarith) hm Dm hd'
  have cy := reflect_coord vy ny fd by' (m := m) (by rw [em]; linarith) hm Dm hd'
  have cz := reflect_coord vz nz fd bz (m := m) (by rw [em]; linarith) hm Dm hd'
  exact ⟨_, reflect_eq ed, cx.1, cy.1, cz.1, cx.2, cy.2, cz.2⟩

omit [Cfg] in
/-- **C166.** How the exact formula changes the squared length when the normal `n` has squared length `N`: it loses
`4 (v·n)² (1 - N)`, nothing only for unit normals or vectors in the plane. -/
theorem C166_length (x y z a b c : ℚ) :
    let D := x * a + y * b + z * c
    (x - 2 * D * a) ^ 2 + (y - 2 * D * b) ^ 2 + (z - 2 * D * c) ^ 2 =
      x ^ 2 + y ^ 2 + z ^ 2 - 4 * D ^ 2 * (1 - (a ^ 2 + b ^ 2 + c ^ 2)) := by
  intro D
  simp only [D]; ring

omit [Cfg] in
/-- **C166.** So with a normal of squared length `N ≤ 1` the exact formula never lengthens a vector, and keeps at least the share
`|1 - 2 N|` of its length. With the `8/9` that C63 allows for `normalized` that is `7/9`. -/
theorem C166_bounce {x y z a b c : ℚ} (h : a ^ 2 + b ^ 2 + c ^ 2 ≤ 1) :
    let D := x * a + y * b + z * c
    (1 - 2 * (a ^ 2 + b ^ 2 + c ^ 2)) ^ 2 * (x ^ 2 + y ^ 2 + z ^ 2) ≤
        (x - 2 * D * a) ^ 2 + (y - 2 * D * b) ^ 2 + (z - 2 * D * c) ^ 2 ∧
      (x - 2 * D * a) ^ 2 + (y - 2 * D * b) ^ 2 + (z - 2 * D * c) ^ 2 ≤ x ^ 2 + y ^ 2 + z ^ 2 := by
  intro D
  rw [show (x - 2 * D * a) ^ 2 + (y - 2 * D * b) ^ 2 + (z - 2 * D * c) ^ 2 = _ from C166_length x y z a b c]
  have cs : 0 ≤ (a ^ 2 + b ^ 2 + c ^ 2) * (x ^ 2 + y ^ 2 + z ^ 2) - (x * a + y * b + z * c) ^ 2 := by
    have : (a ^ 2 + b ^ 2 + c ^ 2) * (x ^ 2 + y ^ 2 + z ^ 2) - (x * a + y * b + z * c) ^ 2 =
        (x * b - y * a) ^ 2 + (x * c - z * a) ^ 2 + (y * c - z * b) ^ 2 := by ring
    rw [this]; positivity
  have k : 0 ≤ 1 - (a ^ 2 + b ^ 2 + c ^ 2) := by linarith
  have p1 := mul_nonneg k cs
  have p2 := mul_nonneg k (sq_nonneg (x * a + y * b + z * c))
  constructor <;> linarith

/-- `v` mirrored at the plane with normal `w.normalized()`. -/
def bounce (v w : Vector3d F32) : Res (Vector3d F32) := do
  let n ← VectorTrait.normalized w
  reflect v n

theorem reflect_eq' (v n : Vector3d F32) : reflect v n =
    .ok ⟨v.x - n.x * ((v.x * n.x + v.y * n.y + v.z * n.z) * ⟨0x40000000#32⟩),
      v.y - n.y * ((v.x * n.x + v.y * n.y + v.z * n.z) * ⟨0x40000000#32⟩),
      v.z - n.z * ((v.x * n.x + v.y * n.y + v.z * n.z) * ⟨0x40000000#32⟩)⟩ := reflect_eq rfl

theorem bounce_eq {v w n : Vector3d F32} (h : VectorTrait.normalized w = .ok n) : bounce v w = reflect v n := by
  rw [bounce, h]; rfl

/-- **C166.** Mirroring at a plane given by a normal of any length: `normalized` gives some `n` with squared length between
`8/9 - 2^-18` and `1 + 2^-18`, and the result is near `v - 2 (v·n) n`. -/
theorem C166_normalized (v w : Vector3d F32) {m : ℚ} (em : m = |v.x.val| + |v.y.val| + |v.z.val|)
    (vx : v.x.isFinite = true) (vy : v.y.isFinite = true) (vz : v.z.isFinite = true)
    (wx : w.x.isFinite = true) (wy : w.y.isFinite = true) (wz : w.z.isFinite = true) (hm : m ≤ 2 ^ 120)
    (h1 : 1 / 2 ^ 100 ≤ w.x.val ^ 2 + w.y.val ^ 2 + w.z.val ^ 2) (h2 : w.x.val ^ 2 + w.y.val ^ 2 + w.z.val ^ 2 ≤ 2 ^ 124) :
    ∃ n r D, VectorTrait.normalized w = .ok n ∧ bounce v w = .ok r ∧
      8 / 9 - 1 / 2 ^ 18 ≤ n.x.val ^ 2 + n.y.val ^ 2 + n.z.val ^ 2 ∧ n.x.val ^ 2 + n.y.val ^ 2 + n.z.val ^ 2 ≤ 1 + 1 / 2 ^ 18 ∧
      D = v.x.val * n.x.val + v.y.val * n.y.val + v.z.val * n.z.val ∧
      |r.x.val - (v.x.val - 2 * D * n.x.val)| ≤ 16 / 2 ^ 24 * m + 1 / 2 ^ 144 ∧
      |r.y.val - (v.y.val - 2 * D * n.y.val)| ≤ 16 / 2 ^ 24 * m + 1 / 2 ^ 144 ∧
      |r.z.val - (v.z.val - 2 * D * n.z.val)| ≤ 16 / 2 ^ 24 * m + 1 / 2 ^ 144 := by
  obtain ⟨n, hn, nx, ny, nz, -, -, -, -, -, -, l1, l2⟩ := C63_normalized3 w wx wy wz h1 h2
  have k : ∀ a : ℚ, a ^ 2 ≤ 1 + 1 / 2 ^ 18 → |a| ≤ 1 + 1 / 2 ^ 17 := fun a ha =>
    abs_le_of_sq_le_sq (ha.trans (by norm_num)) (by norm_num)
  have sx := sq_nonneg n.x.val
  have sy := sq_nonneg n.y.val
  have sz := sq_nonneg n.z.val
  obtain ⟨r, hr, -, -, -, ex, ey, ez⟩ := C166_error v n em rfl vx vy vz nx ny nz (k _ (by linarith)) (k _ (by linarith))
    (k _ (by linarith)) hm
  exact ⟨n, r, _, hn, (bounce_eq hn).trans hr, l1, l2, rfl, ex, ey, ez⟩

/-- **C166, "mirroring keeps the length" is false with `normalized`**: `(1, 1, 0)` hits the plane with normal
`(1, 1, 0).normalized()` head on and comes back with less than `77.8` percent of its length. -/
theorem C166_bounce_false : ∃ r, bounce ⟨⟨0x3F800000#32⟩, ⟨0x3F800000#32⟩, ⟨0#32⟩⟩ ⟨⟨0x3F800000#32⟩, ⟨0x3F800000#32⟩, ⟨0#32⟩⟩ = .ok r ∧
    r.x.val ^ 2 + r.y.val ^ 2 + r.z.val ^ 2 < (778 / 1000) ^ 2 * (1 ^ 2 + 1 ^ 2 + 0 ^ 2) := by
  have hm : VectorTrait.magnitude (⟨⟨0x3F800000#32⟩, ⟨0x3F800000#32⟩, ⟨0#32⟩⟩ : Vector3d F32) = ⟨0x3FC00000#32⟩ := by
    show F32.sqrt (Cfg.sumZero + _ + _ + _) = _
    rcases Cfg.sumZero_spec with h | h <;> rw [h] <;> exact eval_eq (n := 0x3FC00000) (by kernel_rfl)
  have hn : VectorTrait.normalized (⟨⟨0x3F800000#32⟩, ⟨0x3F800000#32⟩, ⟨0#32⟩⟩ : Vector3d F32) =
      .ok ⟨⟨0x3F2AAAAB#32⟩, ⟨0x3F2AAAAB#32⟩, ⟨0#32⟩⟩ := by
    refine ((C52_map (⟨⟨0#32⟩, ⟨0#32⟩⟩ : Vector2d F32) _ _).2).trans ?_
    rw [hm]
    have h1 : (⟨0x3F800000#32⟩ : F32) / ⟨0x3FC00000#32⟩ = ⟨0x3F2AAAAB#32⟩ := eval_eq (n := 0x3F2AAAAB) (by kernel_rfl)
    have h0 : (⟨0#32⟩ : F32) / ⟨0x3FC00000#32⟩ = ⟨0#32⟩ := eval_eq (n := 0) (by kernel_rfl)
    simp only [h1, h0]
  refine ⟨⟨⟨0xBF471C74#32⟩, ⟨0xBF471C74#32⟩, ⟨0#32⟩⟩, ?_, ?_⟩
  · rw [bounce_eq hn]
    have h1 : (⟨0x3F800000#32⟩ : F32) - ⟨0x3F2AAAAB#32⟩ * ((⟨0x3F800000#32⟩ * ⟨0x3F2AAAAB#32⟩ + ⟨0x3F800000#32⟩ * ⟨0x3F2AAAAB#32⟩ +
      ⟨0#32⟩ * ⟨0#32⟩) * ⟨0x40000000#32⟩) = ⟨0xBF471C74#32⟩ := eval_eq (n := 0xBF471C74) (by kernel_rfl)
    have h0 : (⟨0#32⟩ : F32) - ⟨0#32⟩ * ((⟨0x3F800000#32⟩ * ⟨0x3F2AAAAB#32⟩ + ⟨0x3F800000#32⟩ * ⟨0x3F2AAAAB#32⟩ +
      ⟨0#32⟩ * ⟨0#32⟩) * ⟨0x40000000#32⟩) = ⟨0#32⟩ := eval_eq (n := 0) (by kernel_rfl)
    refine (reflect_eq' _ _).trans ?_
    simp only [h1, h0]
  · rw [val_of_units (x := ⟨0xBF471C74#32⟩) (u := -(0x471C74 + 0x800000 * 0 + 0x800000) * 2 ^ 125) (by decide +kernel),
      val_of_units (x := ⟨0#32⟩) (u := 0) (by decide +kernel)]
    norm_num

/-- C166_error applies to `v = (1, 2, 3)` and the normal `(0, 0, 1)`. -/
example : ∃ r, reflect ⟨⟨0x3F800000#32⟩, ⟨0x40000000#32⟩, ⟨0x40400000#32⟩⟩ ⟨⟨0#32⟩, ⟨0#32⟩, ⟨0x3F800000#32⟩⟩ = .ok r ∧
    |r.z.val - (-3)| ≤ 1 / 2 ^ 16 := by
  have v0 : (⟨0#32⟩ : F32).val = 0 := by rw [val_of_units (u := 0) (by decide +kernel)]; norm_num
  have v1 : (⟨0x3F800000#32⟩ : F32).val = 1 := by rw [val_of_units (u := 2 ^ 149) (by decide +kernel)]; norm_num
  have v3 : (⟨0x40400000#32⟩ : F32).val = 3 := by rw [val_of_units (u := 3 * 2 ^ 149) (by decide +kernel)]; norm_num
  obtain ⟨r, e, -, -, -, -, -, h⟩ := C166_error ⟨⟨0x3F800000#32⟩, ⟨0x40000000#32⟩, ⟨0x40400000#32⟩⟩
    ⟨⟨0#32⟩, ⟨0#32⟩, ⟨0x3F800000#32⟩⟩ (m := 6) (D := 3) (by simp only [v1, two_isVal.2, v3]; norm_num)
    (by simp only [v0, v1, v3]; norm_num) (by decide +kernel) (by decide +kernel) (by decide +kernel) (by decide +kernel)
    (by decide +kernel) (by decide +kernel) (by simp only [v0]; norm_num) (by simp only [v0]; norm_num)
    (by simp only [v1]; norm_num) (by norm_num)
  refine ⟨r, e, ?_⟩
  simp only [v1, v3] at h
  rw [show (3 : ℚ) - 2 * 3 * 1 = -3 by norm_num] at h
  exact h.trans (by norm_num)

end Micromath.Props
