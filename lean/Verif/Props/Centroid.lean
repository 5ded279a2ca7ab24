import Verif.Props.StatsErr
import Verif.Props.Vectors
import Verif.Props.Trig

/-!
# C159: sums and centroids of float vectors; midpoints
-/

set_option exponentiation.threshold 1000

namespace Micromath.Props
open F32 Spec Statistics

variable [Cfg]

/-- `(Σ v) / n` as it is written with `Sum` and `Div`. -/
def centroid3 (l : List (Vector3d F32)) : Res (Vector3d F32) := do
  let s ← Vector3d.sum l
  s.divScalar (ofInt l.length)

/-- The same for 2-vectors. -/
def centroid2 (l : List (Vector2d F32)) : Res (Vector2d F32) := do
  let s ← Vector2d.sum l
  s.divScalar (ofInt l.length)

/-- **C159.** The sum of float vectors is the sum of each coordinate, from zero, in order, and cannot fail. -/
theorem C159_sum (l : List (Vector3d F32)) (m : List (Vector2d F32)) :
    Vector3d.sum l = .ok ⟨(l.map Vector3d.x).foldl (· + ·) posZero, (l.map Vector3d.y).foldl (· + ·) posZero,
      (l.map Vector3d.z).foldl (· + ·) posZero⟩ ∧
    Vector2d.sum m = .ok ⟨(m.map Vector2d.x).foldl (· + ·) posZero, (m.map Vector2d.y).foldl (· + ·) posZero⟩ := by
  have h3 : ∀ (l : List (Vector3d F32)) (a : Vector3d F32), l.foldlM Vector3d.add a =
      (.ok ⟨(l.map Vector3d.x).foldl (· + ·) a.x, (l.map Vector3d.y).foldl (· + ·) a.y, (l.map Vector3d.z).foldl (· + ·) a.z⟩ : Res _) := by
    intro l
    induction l with
    | nil => intro a; rfl
    | cons v l ih => intro a; exact ih ⟨a.x + v.x, a.y + v.y, a.z + v.z⟩
  have h2 : ∀ (l : List (Vector2d F32)) (a : Vector2d F32), l.foldlM Vector2d.add a =
      (.ok ⟨(l.map Vector2d.x).foldl (· + ·) a.x, (l.map Vector2d.y).foldl (· + ·) a.y⟩ : Res _) := by
    intro l
    induction l with
    | nil => intro a; rfl
    | cons v l ih => intro a; exact ih ⟨a.x + v.x, a.y + v.y⟩
  exact ⟨h3 l _, h2 m _⟩

/-- **C159.** The centroid of a list of points is, bit for bit, the `mean` of each coordinate. -/
theorem C159_centroid (l : List (Vector3d F32)) (hl : l.length < 2 ^ 31) (m : List (Vector2d F32)) (hm : m.length < 2 ^ 31) :
    (∃ x y z, mean (l.map Vector3d.x) = .ok x ∧ mean (l.map Vector3d.y) = .ok y ∧ mean (l.map Vector3d.z) = .ok z ∧
      centroid3 l = .ok ⟨x, y, z⟩) ∧
    (∃ x y, mean (m.map Vector2d.x) = .ok x ∧ mean (m.map Vector2d.y) = .ok y ∧ centroid2 m = .ok ⟨x, y⟩) := by
  obtain ⟨h3, h2⟩ := C159_sum l m
  constructor
  · refine ⟨_, _, _, C75_mean _ (by simpa using hl), C75_mean _ (by simpa using hl), C75_mean _ (by simpa using hl), ?_⟩
    rw [centroid3, h3]
    simp only [List.length_map]
    rfl
  · refine ⟨_, _, C75_mean _ (by simpa using hm), C75_mean _ (by simpa using hm), ?_⟩
    rw [centroid2, h2]
    simp only [List.length_map]
    rfl

/-- **C159.** So the centroid is within the error of `mean` (C94) of the exact centroid in each coordinate. -/
theorem C159_error {l : List (Vector3d F32)} (h0 : l ≠ []) (hn : l.length ≤ 2 ^ 23)
    (fx : AllFinite (l.map Vector3d.x)) (fy : AllFinite (l.map Vector3d.y)) (fz : AllFinite (l.map Vector3d.z)) {A : ℚ} (hA : A ≤ 2 ^ 126)
    (ax : qabs ((l.map Vector3d.x).map val) ≤ A) (ay : qabs ((l.map Vector3d.y).map val) ≤ A) (az : qabs ((l.map Vector3d.z).map val) ≤ A) :
    ∃ c, centroid3 l = .ok c ∧ (c.x.isFinite = true ∧ c.y.isFinite = true ∧ c.z.isFinite = true) ∧
      |c.x.val - qmean ((l.map Vector3d.x).map val)| ≤ ((1 + 1 / 2 ^ 24) ^ (l.length + 1) - 1) * (A / l.length) + 1 / 2 ^ 150 ∧
      |c.y.val - qmean ((l.map Vector3d.y).map val)| ≤ ((1 + 1 / 2 ^ 24) ^ (l.length + 1) - 1) * (A / l.length) + 1 / 2 ^ 150 ∧
      |c.z.val - qmean ((l.map Vector3d.z).map val)| ≤ ((1 + 1 / 2 ^ 24) ^ (l.length + 1) - 1) * (A / l.length) + 1 / 2 ^ 150 := by
  obtain ⟨x, y, z, ex, ey, ez, hc⟩ := (C159_centroid l (by omega) [] (by norm_num)).1
  have g : (0 : ℚ) ≤ (1 + 1 / 2 ^ 24) ^ (l.length + 1) - 1 := sub_nonneg.2 (one_le_pow₀ (by norm_num))
  have one : ∀ (f : Vector3d F32 → F32) (m : F32), mean (l.map f) = .ok m → AllFinite (l.map f) → qabs ((l.map f).map val) ≤ A →
      m.isFinite = true ∧ |m.val - qmean ((l.map f).map val)| ≤ ((1 + 1 / 2 ^ 24) ^ (l.length + 1) - 1) * (A / l.length) + 1 / 2 ^ 150 := by
    intro f m e hf ha
    obtain ⟨m', e', f', b⟩ := C94_mean (l.map f) hf (by simpa using h0) (by simpa using hn) (ha.trans hA)
    rw [e] at e'
    cases e'
    rw [List.length_map] at b
    exact ⟨f', b.trans (by gcongr)⟩
  obtain ⟨x1, x2⟩ := one _ _ ex fx ax
  obtain ⟨y1, y2⟩ := one _ _ ey fy ay
  obtain ⟨z1, z2⟩ := one _ _ ez fz az
  exact ⟨_, hc, ⟨x1, y1, z1⟩, x2, y2, z2⟩

/-- **C159.** The midpoint of two floats, `(x + y) / 2`, lies between them, unless the sum overflows; it is exact up to the
rounding of the sum, apart from underflow. -/
theorem C159_midpoint {x y h : F32} (hx : x.isFinite = true) (hy : y.isFinite = true) (hh : IsVal h 2)
    (ho : |x.val + y.val| < ovf) (hxy : x.val ≤ y.val) :
    ((x + y) / h).isFinite = true ∧ x.val ≤ ((x + y) / h).val ∧ ((x + y) / h).val ≤ y.val ∧
    ((x + y) / h).val = RN (RN (x.val + y.val) / 2) := by
  obtain ⟨f1, v1⟩ := add_val hx hy ho
  have h0 : h.val ≠ 0 := by rw [hh.2]; norm_num
  obtain ⟨f2, v2⟩ := div_val f1 hh.1 h0 (by
    rw [hh.2, abs_div]
    refine lt_of_le_of_lt (div_le_self (abs_nonneg _) (by norm_num)) (abs_val_lt_ovf f1))
  rw [v1, hh.2] at v2
  have dbl : ∀ z : F32, Rep (2 * z.val) := fun z => by simpa using rep_scale (rep_val z) 1
  refine ⟨f2, ?_, ?_, v2⟩
  · rw [v2]
    refine le_RN_of_rep (rep_val x) ?_
    have := le_RN_of_rep (dbl x) (by linarith : 2 * x.val ≤ x.val + y.val)
    linarith
  · rw [v2]
    refine RN_le_of_rep (rep_val y) ?_
    have := RN_le_of_rep (dbl y) (by linarith : x.val + y.val ≤ 2 * y.val)
    linarith

/-- The hypotheses hold for `3` and `8`; the result is `5.5`. -/
example : ((ofInt 3 + ofInt 8) / ofInt 2).val = 11 / 2 := by
  have h3 := ofInt_isVal (n := 3) (by decide)
  have h8 := ofInt_isVal (n := 8) (by decide)
  have h2 := ofInt_isVal (n := 2) (by decide)
  rw [(C159_midpoint h3.1 h8.1 (h := ofInt 2) (by exact_mod_cast h2) (by rw [h3.2, h8.2]; norm_num [ovf]) (by rw [h3.2, h8.2]; norm_num)).2.2.2,
    h3.2, h8.2, RN_of_rep (q := ((3 : ℤ) : ℚ) + ((8 : ℤ) : ℚ)) (by have := rep_int (m := 11) (by norm_num); norm_num at this ⊢; exact this)]
  refine (RN_of_rep ?_).trans (by norm_num)
  have := rep_zpow (m := 11) (by norm_num) (e := -1) (by norm_num)
  norm_num at this ⊢; exact this

/-- **C159.** The midpoint of two points is in the box they span: here for points ordered in each coordinate. -/
theorem C159_box {u v : Vector3d F32} {h : F32} (hu : u.x.isFinite = true ∧ u.y.isFinite = true ∧ u.z.isFinite = true)
    (hv : v.x.isFinite = true ∧ v.y.isFinite = true ∧ v.z.isFinite = true) (hh : IsVal h 2)
    (ho : |u.x.val + v.x.val| < ovf ∧ |u.y.val + v.y.val| < ovf ∧ |u.z.val + v.z.val| < ovf)
    (hl : u.x.val ≤ v.x.val ∧ u.y.val ≤ v.y.val ∧ u.z.val ≤ v.z.val) :
    ∃ c, (do let s ← u.add v; s.divScalar h) = .ok c ∧ (u.x.val ≤ c.x.val ∧ c.x.val ≤ v.x.val) ∧
      (u.y.val ≤ c.y.val ∧ c.y.val ≤ v.y.val) ∧ (u.z.val ≤ c.z.val ∧ c.z.val ≤ v.z.val) := by
  obtain ⟨-, a1, a2, -⟩ := C159_midpoint hu.1 hv.1 hh ho.1 hl.1
  obtain ⟨-, b1, b2, -⟩ := C159_midpoint hu.2.1 hv.2.1 hh ho.2.1 hl.2.1
  obtain ⟨-, c1, c2, -⟩ := C159_midpoint hu.2.2 hv.2.2 hh ho.2.2 hl.2.2
  exact ⟨⟨(u.x + v.x) / h, (u.y + v.y) / h, (u.z + v.z) / h⟩, rfl, ⟨a1, a2⟩, ⟨b1, b2⟩, c1, c2⟩

/-- Case: the centroid of three points with integer coordinates. -/
example : centroid2 [⟨ofInt 1, ofInt 2⟩, ⟨ofInt 3, ofInt 4⟩, ⟨ofInt 5, ofInt 9⟩] = .ok ⟨ofInt 3, ofInt 5⟩ := by
  rw [centroid2, (C159_sum [] _).2]
  show (Except.ok _ : Res (Vector2d F32)) = _
  congr 2
  · exact (eval_eq (n := 0x40400000) (by kernel_rfl)).trans (eval_eq (n := 0x40400000) (by kernel_rfl)).symm
  · exact (eval_eq (n := 0x40a00000) (by kernel_rfl)).trans (eval_eq (n := 0x40a00000) (by kernel_rfl)).symm

end Micromath.Props
