import Verif.Props.Vectors
import Mathlib.Data.ZMod.Basic
import Mathlib.Tactic.Ring

/-!
# C152: the laws of vector algebra for vectors of machine integers

For every signed or unsigned width and both build modes. Two expressions that are equal over the integers give the same vector whenever both return,
also when intermediate results overflow; without overflow checks both always return.
-/

namespace Micromath.Props
open Spec

section
variable [Cfg] {s : Bool} {w : Nat}

/-- Two computations follow the same law: when both return, they return the same, and without overflow checks both return. -/
def Law {α : Type} (l r : Res α) : Prop :=
  (∀ x y, l = .ok x → r = .ok y → x = y) ∧ (Cfg.overflowChecks = false → ∃ z, l = .ok z ∧ r = .ok z)

/-- The computation returns. -/
def Total {α : Type} (r : Res α) : Prop := ∃ z, r = .ok z

omit [Cfg] in
theorem bind_eq_ok {α β : Type} {r : Res α} {f : α → Res β} {z : β} : (r >>= f) = .ok z ↔ ∃ y, r = .ok y ∧ f y = .ok z := by
  rcases r with e | y <;> simp [Bind.bind, Except.bind]

omit [Cfg] in
theorem total_bind {α β : Type} {r : Res α} {f : α → Res β} (h : Total r) (hf : ∀ y, Total (f y)) : Total (r >>= f) := by
  obtain ⟨y, rfl⟩ := h
  exact hf y

theorem law_mk {α : Type} {l r : Res α} (h : ∀ x y, l = .ok x → r = .ok y → x = y) (hl : Cfg.overflowChecks = false → Total l)
    (hr : Cfg.overflowChecks = false → Total r) : Law l r :=
  ⟨h, fun hc => by
    obtain ⟨x, hx⟩ := hl hc
    obtain ⟨y, hy⟩ := hr hc
    exact ⟨x, hx, by rw [hy, h x y hx hy]⟩⟩

/-- The residue of a machine integer modulo `2^w`. -/
def res (x : MInt s w) : ZMod (2 ^ w) := (x.toInt : ZMod (2 ^ w))

omit [Cfg] in
theorem res_inj {x y : MInt s w} (h : res x = res y) : x = y := by
  have h1 : x.toInt ≡ y.toInt [ZMOD ((2 ^ w : ℕ) : ℤ)] := (ZMod.intCast_eq_intCast_iff _ _ _).1 h
  rw [← wrap_toInt x, ← wrap_toInt y, wrap_eq_iff]
  push_cast at h1
  exact h1

theorem res_chk {v : Int} {z : MInt s w} (h : MInt.chk v = .ok z) : res z = (v : ZMod (2 ^ w)) := by
  rw [chk_ok h]
  refine (ZMod.intCast_eq_intCast_iff _ _ _).2 ?_
  push_cast
  exact wrap_mod v

theorem total_chk (hw : 0 < w) (hc : Cfg.overflowChecks = false) (v : Int) : Total (MInt.chk v : Res (MInt s w)) := ⟨_, (chk_spec hw v).2.2 hc⟩

/-- The operators of the components. -/
abbrev iadd (x y : MInt s w) : Res (MInt s w) := @Component.add (MInt s w) ‹Cfg› _ x y
@[inherit_doc iadd] abbrev isub (x y : MInt s w) : Res (MInt s w) := @Component.sub (MInt s w) ‹Cfg› _ x y
@[inherit_doc iadd] abbrev imul (x y : MInt s w) : Res (MInt s w) := @Component.mul (MInt s w) ‹Cfg› _ x y

theorem cadd_ok {x y z : MInt s w} (h : iadd x y = .ok z) : res z = res x + res y := by
  rw [iadd, cadd_def] at h; rw [res_chk h]; push_cast; rfl
theorem csub_ok {x y z : MInt s w} (h : isub x y = .ok z) : res z = res x - res y := by
  rw [isub, csub_def] at h; rw [res_chk h]; push_cast; rfl
theorem cmul_ok {x y z : MInt s w} (h : imul x y = .ok z) : res z = res x * res y := by
  rw [imul, cmul_def] at h; rw [res_chk h]; push_cast; rfl

theorem total_cadd (hw : 0 < w) (hc : Cfg.overflowChecks = false) (x y : MInt s w) : Total (iadd x y) := total_chk hw hc _
theorem total_csub (hw : 0 < w) (hc : Cfg.overflowChecks = false) (x y : MInt s w) : Total (isub x y) := total_chk hw hc _
theorem total_cmul (hw : 0 < w) (hc : Cfg.overflowChecks = false) (x y : MInt s w) : Total (imul x y) := total_chk hw hc _

section
variable (hw : 0 < w) (hc : Cfg.overflowChecks = false)
include hw hc

theorem total_add3 (a b : Vector3d (MInt s w)) : Total (a.add b) :=
  total_bind (total_cadd hw hc _ _) fun _ => total_bind (total_cadd hw hc _ _) fun _ => total_bind (total_cadd hw hc _ _) fun _ => ⟨_, rfl⟩
theorem total_sub3 (a b : Vector3d (MInt s w)) : Total (a.sub b) :=
  total_bind (total_csub hw hc _ _) fun _ => total_bind (total_csub hw hc _ _) fun _ => total_bind (total_csub hw hc _ _) fun _ => ⟨_, rfl⟩
theorem total_mul3 (a : Vector3d (MInt s w)) (k : MInt s w) : Total (a.mulScalar k) :=
  total_bind (total_cmul hw hc _ _) fun _ => total_bind (total_cmul hw hc _ _) fun _ => total_bind (total_cmul hw hc _ _) fun _ => ⟨_, rfl⟩
theorem total_dot3 (a b : Vector3d (MInt s w)) : Total (a.dot b) :=
  total_bind (total_cmul hw hc _ _) fun _ => total_bind (total_cmul hw hc _ _) fun _ => total_bind (total_cadd hw hc _ _) fun _ =>
    total_bind (total_cmul hw hc _ _) fun _ => total_cadd hw hc _ _
theorem total_cross3 (a b : Vector3d (MInt s w)) : Total (a.cross b) :=
  total_bind (total_cmul hw hc _ _) fun _ => total_bind (total_cmul hw hc _ _) fun _ => total_bind (total_csub hw hc _ _) fun _ =>
    total_bind (total_cmul hw hc _ _) fun _ => total_bind (total_cmul hw hc _ _) fun _ => total_bind (total_csub hw hc _ _) fun _ =>
    total_bind (total_cmul hw hc _ _) fun _ => total_bind (total_cmul hw hc _ _) fun _ => total_bind (total_csub hw hc _ _) fun _ => ⟨_, rfl⟩
theorem total_add2 (a b : Vector2d (MInt s w)) : Total (a.add b) :=
  total_bind (total_cadd hw hc _ _) fun _ => total_bind (total_cadd hw hc _ _) fun _ => ⟨_, rfl⟩
theorem total_sub2 (a b : Vector2d (MInt s w)) : Total (a.sub b) :=
  total_bind (total_csub hw hc _ _) fun _ => total_bind (total_csub hw hc _ _) fun _ => ⟨_, rfl⟩
theorem total_mul2 (a : Vector2d (MInt s w)) (k : MInt s w) : Total (a.mulScalar k) :=
  total_bind (total_cmul hw hc _ _) fun _ => total_bind (total_cmul hw hc _ _) fun _ => ⟨_, rfl⟩
theorem total_dot2 (a b : Vector2d (MInt s w)) : Total (a.dot b) :=
  total_bind (total_cmul hw hc _ _) fun _ => total_bind (total_cmul hw hc _ _) fun _ => total_cadd hw hc _ _
theorem total_perp2 (a b : Vector2d (MInt s w)) : Total (a.perpendicularDot b) :=
  total_bind (total_cmul hw hc _ _) fun _ => total_bind (total_cmul hw hc _ _) fun _ => total_csub hw hc _ _

end

/-- Close a goal `Total _` in a build without overflow checks. -/
macro "returns" : tactic => `(tactic| (
  repeat' first
    | with_reducible exact total_add3 (by assumption) (by assumption) _ _
    | with_reducible exact total_sub3 (by assumption) (by assumption) _ _
    | with_reducible exact total_mul3 (by assumption) (by assumption) _ _
    | with_reducible exact total_dot3 (by assumption) (by assumption) _ _
    | with_reducible exact total_cross3 (by assumption) (by assumption) _ _
    | with_reducible exact total_add2 (by assumption) (by assumption) _ _
    | with_reducible exact total_sub2 (by assumption) (by assumption) _ _
    | with_reducible exact total_mul2 (by assumption) (by assumption) _ _
    | with_reducible exact total_dot2 (by assumption) (by assumption) _ _
    | with_reducible exact total_perp2 (by assumption) (by assumption) _ _
    | with_reducible exact total_cadd (by assumption) (by assumption) _ _
    | with_reducible exact total_csub (by assumption) (by assumption) _ _
    | with_reducible exact total_cmul (by assumption) (by assumption) _ _
    | refine total_bind ?_ (fun _ => ?_)))

theorem add3_ok {a b c : Vector3d (MInt s w)} (h : a.add b = .ok c) : res c.x = res a.x + res b.x ∧ res c.y = res a.y + res b.y ∧ res c.z = res a.z + res b.z := by
  obtain ⟨h1, h2, h3⟩ := ((C54_vector3 a b a.x).1.1 c).1 h
  exact ⟨cadd_ok h1, cadd_ok h2, cadd_ok h3⟩
theorem sub3_ok {a b c : Vector3d (MInt s w)} (h : a.sub b = .ok c) : res c.x = res a.x - res b.x ∧ res c.y = res a.y - res b.y ∧ res c.z = res a.z - res b.z := by
  obtain ⟨h1, h2, h3⟩ := ((C54_vector3 a b a.x).2.1.1 c).1 h
  exact ⟨csub_ok h1, csub_ok h2, csub_ok h3⟩
theorem mul3_ok {a c : Vector3d (MInt s w)} {k : MInt s w} (h : a.mulScalar k = .ok c) :
    res c.x = res a.x * res k ∧ res c.y = res a.y * res k ∧ res c.z = res a.z * res k := by
  obtain ⟨h1, h2, h3⟩ := ((C54_vector3 a a k).2.2.1.1 c).1 h
  exact ⟨cmul_ok h1, cmul_ok h2, cmul_ok h3⟩
theorem dot3_ok {a b : Vector3d (MInt s w)} {d : MInt s w} (h : a.dot b = .ok d) : res d = res a.x * res b.x + res a.y * res b.y + res a.z * res b.z := by
  simp only [Vector3d.dot, bind_eq_ok] at h
  obtain ⟨p, hp, q, hq, t, ht, r, hr, hd⟩ := h
  rw [cadd_ok hd, cadd_ok ht, cmul_ok hp, cmul_ok hq, cmul_ok hr]
theorem cross3_ok {a b c : Vector3d (MInt s w)} (h : a.cross b = .ok c) : res c.x = res a.y * res b.z - res a.z * res b.y ∧
    res c.y = res a.z * res b.x - res a.x * res b.z ∧ res c.z = res a.x * res b.y - res a.y * res b.x := by
  simp only [Vector3d.cross, bind_eq_ok] at h
  obtain ⟨x1, h1, x2, h2, x, hx, y1, h3, y2, h4, y, hy, z1, h5, z2, h6, z, hz, hc⟩ := h
  cases hc
  exact ⟨by rw [csub_ok hx, cmul_ok h1, cmul_ok h2], by rw [csub_ok hy, cmul_ok h3, cmul_ok h4], by rw [csub_ok hz, cmul_ok h5, cmul_ok h6]⟩
theorem add2_ok {a b c : Vector2d (MInt s w)} (h : a.add b = .ok c) : res c.x = res a.x + res b.x ∧ res c.y = res a.y + res b.y := by
  obtain ⟨h1, h2⟩ := ((C54_vector2 a b a.x).1.1 c).1 h
  exact ⟨cadd_ok h1, cadd_ok h2⟩
theorem sub2_ok {a b c : Vector2d (MInt s w)} (h : a.sub b = .ok c) : res c.x = res a.x - res b.x ∧ res c.y = res a.y - res b.y := by
  obtain ⟨h1, h2⟩ := ((C54_vector2 a b a.x).2.1.1 c).1 h
  exact ⟨csub_ok h1, csub_ok h2⟩
theorem mul2_ok {a c : Vector2d (MInt s w)} {k : MInt s w} (h : a.mulScalar k = .ok c) : res c.x = res a.x * res k ∧ res c.y = res a.y * res k := by
  obtain ⟨h1, h2⟩ := ((C54_vector2 a a k).2.2.1.1 c).1 h
  exact ⟨cmul_ok h1, cmul_ok h2⟩
theorem dot2_ok {a b : Vector2d (MInt s w)} {d : MInt s w} (h : a.dot b = .ok d) : res d = res a.x * res b.x + res a.y * res b.y := by
  simp only [Vector2d.dot, bind_eq_ok] at h
  obtain ⟨p, hp, q, hq, hd⟩ := h
  rw [cadd_ok hd, cmul_ok hp, cmul_ok hq]
theorem perp2_ok {a b : Vector2d (MInt s w)} {d : MInt s w} (h : a.perpendicularDot b = .ok d) : res d = res a.x * res b.y - res a.y * res b.x := by
  simp only [Vector2d.perpendicularDot, bind_eq_ok] at h
  obtain ⟨p, hp, q, hq, hd⟩ := h
  rw [csub_ok hd, cmul_ok hp, cmul_ok hq]

omit [Cfg] in
theorem ext3 {a b : Vector3d (MInt s w)} (h1 : res a.x = res b.x) (h2 : res a.y = res b.y) (h3 : res a.z = res b.z) : a = b := by
  obtain ⟨a1, a2, a3⟩ := a
  obtain ⟨b1, b2, b3⟩ := b
  rw [show a1 = b1 from res_inj h1, show a2 = b2 from res_inj h2, show a3 = b3 from res_inj h3]
omit [Cfg] in
theorem ext2 {a b : Vector2d (MInt s w)} (h1 : res a.x = res b.x) (h2 : res a.y = res b.y) : a = b := by
  obtain ⟨a1, a2⟩ := a
  obtain ⟨b1, b2⟩ := b
  rw [show a1 = b1 from res_inj h1, show a2 = b2 from res_inj h2]

/-- **C152, sums in space.** `(a + b) + c = a + (b + c)`, `a + b = b + a`, `(a + b) - b = a`, `(a - b) + b = a`. -/
theorem C152_add (hw : 0 < w) (a b c : Vector3d (MInt s w)) :
    Law (do let p ← a.add b; p.add c) (do let q ← b.add c; a.add q) ∧ a.add b = b.add a ∧
    Law (do let p ← a.add b; p.sub b) (.ok a) ∧ Law (do let p ← a.sub b; p.add b) (.ok a) := by
  refine ⟨law_mk (fun x y hx hy => ?_) (fun hc => by returns) (fun hc => by returns), ?_,
    law_mk (fun x y hx hy => ?_) (fun hc => by returns) (fun _ => ⟨_, rfl⟩), law_mk (fun x y hx hy => ?_) (fun hc => by returns) (fun _ => ⟨_, rfl⟩)⟩
  · simp only [bind_eq_ok] at hx hy
    obtain ⟨p, hp, hx⟩ := hx
    obtain ⟨q, hq, hy⟩ := hy
    apply ext3 <;> simp only [add3_ok hx, add3_ok hy, add3_ok hp, add3_ok hq] <;> ring
  · simp only [Vector3d.add, cadd_def, add_comm]
  · simp only [bind_eq_ok] at hx
    obtain ⟨p, hp, hx⟩ := hx
    cases hy
    apply ext3 <;> simp only [sub3_ok hx, add3_ok hp] <;> ring
  · simp only [bind_eq_ok] at hx
    obtain ⟨p, hp, hx⟩ := hx
    cases hy
    apply ext3 <;> simp only [add3_ok hx, sub3_ok hp] <;> ring

/-- **C152, multiples in space.** `(a + b) k = a k + b k`, `(a - b) k = a k - b k`, `(a k) m = a (k m)`. -/
theorem C152_scalar (hw : 0 < w) (a b : Vector3d (MInt s w)) (k m : MInt s w) :
    Law (do let p ← a.add b; p.mulScalar k) (do let p ← a.mulScalar k; let q ← b.mulScalar k; p.add q) ∧
    Law (do let p ← a.sub b; p.mulScalar k) (do let p ← a.mulScalar k; let q ← b.mulScalar k; p.sub q) ∧
    Law (do let p ← a.mulScalar k; p.mulScalar m) (do let n ← imul k m; a.mulScalar n) := by
  refine ⟨law_mk (fun x y hx hy => ?_) (fun hc => by returns) (fun hc => by returns), law_mk (fun x y hx hy => ?_) (fun hc => by returns) (fun hc => by returns),
    law_mk (fun x y hx hy => ?_) (fun hc => by returns) (fun hc => by returns)⟩
  · simp only [bind_eq_ok] at hx hy
    obtain ⟨p, hp, hx⟩ := hx
    obtain ⟨q, hq, r, hr, hy⟩ := hy
    apply ext3 <;> simp only [mul3_ok hx, add3_ok hp, add3_ok hy, mul3_ok hq, mul3_ok hr] <;> ring
  · simp only [bind_eq_ok] at hx hy
    obtain ⟨p, hp, hx⟩ := hx
    obtain ⟨q, hq, r, hr, hy⟩ := hy
    apply ext3 <;> simp only [mul3_ok hx, sub3_ok hp, sub3_ok hy, mul3_ok hq, mul3_ok hr] <;> ring
  · simp only [bind_eq_ok] at hx hy
    obtain ⟨p, hp, hx⟩ := hx
    obtain ⟨q, hq, hy⟩ := hy
    apply ext3 <;> simp only [mul3_ok hx, mul3_ok hp, mul3_ok hy, cmul_ok hq] <;> ring

/-- **C152, dot in space.** `(a + b) · c = a · c + b · c` and `(a k) · b = (a · b) k`. -/
theorem C152_dot (hw : 0 < w) (a b c : Vector3d (MInt s w)) (k : MInt s w) :
    Law (do let p ← a.add b; p.dot c) (do let p ← a.dot c; let q ← b.dot c; iadd p q) ∧
    Law (do let p ← a.mulScalar k; p.dot b) (do let p ← a.dot b; imul p k) := by
  refine ⟨law_mk (fun x y hx hy => res_inj ?_) (fun hc => by returns) (fun hc => by returns),
    law_mk (fun x y hx hy => res_inj ?_) (fun hc => by returns) (fun hc => by returns)⟩
  · simp only [bind_eq_ok] at hx hy
    obtain ⟨p, hp, hx⟩ := hx
    obtain ⟨q, hq, r, hr, hy⟩ := hy
    simp only [dot3_ok hx, add3_ok hp, cadd_ok hy, dot3_ok hq, dot3_ok hr]; ring
  · simp only [bind_eq_ok] at hx hy
    obtain ⟨p, hp, hx⟩ := hx
    obtain ⟨q, hq, hy⟩ := hy
    simp only [dot3_ok hx, mul3_ok hp, cmul_ok hy, dot3_ok hq]; ring

/-- **C152, cross.** `a × (b + c) = a × b + a × c`, `a × b + b × a = 0`, `a · (a × b) = 0`, `a · (b × c) = b · (c × a)`. -/
theorem C152_cross (hw : 0 < w) (a b c : Vector3d (MInt s w)) {o : MInt s w} (ho : o.toInt = 0) :
    Law (do let p ← b.add c; a.cross p) (do let p ← a.cross b; let q ← a.cross c; p.add q) ∧
    Law (do let p ← a.cross b; let q ← b.cross a; p.add q) (.ok ⟨o, o, o⟩) ∧
    Law (do let p ← a.cross b; a.dot p) (.ok o) ∧
    Law (do let p ← b.cross c; a.dot p) (do let p ← c.cross a; b.dot p) := by
  have h0 : res o = 0 := by rw [res, ho]; exact Int.cast_zero
  refine ⟨law_mk (fun x y hx hy => ?_) (fun hc => by returns) (fun hc => by returns), law_mk (fun x y hx hy => ?_) (fun hc => by returns) (fun _ => ⟨_, rfl⟩),
    law_mk (fun x y hx hy => res_inj ?_) (fun hc => by returns) (fun _ => ⟨_, rfl⟩), law_mk (fun x y hx hy => res_inj ?_) (fun hc => by returns) (fun hc => by returns)⟩
  · simp only [bind_eq_ok] at hx hy
    obtain ⟨p, hp, hx⟩ := hx
    obtain ⟨q, hq, r, hr, hy⟩ := hy
    apply ext3 <;> simp only [cross3_ok hx, add3_ok hp, add3_ok hy, cross3_ok hq, cross3_ok hr] <;> ring
  · simp only [bind_eq_ok] at hx
    obtain ⟨p, hp, q, hq, hx⟩ := hx
    cases hy
    apply ext3 <;> simp only [add3_ok hx, cross3_ok hp, cross3_ok hq, h0] <;> ring
  · simp only [bind_eq_ok] at hx
    obtain ⟨p, hp, hx⟩ := hx
    cases hy
    simp only [dot3_ok hx, cross3_ok hp, h0]; ring
  · simp only [bind_eq_ok] at hx hy
    obtain ⟨p, hp, hx⟩ := hx
    obtain ⟨q, hq, hy⟩ := hy
    simp only [dot3_ok hx, cross3_ok hp, dot3_ok hy, cross3_ok hq]; ring

/-- **C152, triple products.** `a × (b × c) = b (a · c) - c (a · b)`, and `(a × b) · (c × d) = (a · c)(b · d) - (a · d)(b · c)`. -/
theorem C152_triple (hw : 0 < w) (a b c d : Vector3d (MInt s w)) :
    Law (do let p ← b.cross c; a.cross p) (do let m ← a.dot c; let n ← a.dot b; let p ← b.mulScalar m; let q ← c.mulScalar n; p.sub q) ∧
    Law (do let p ← a.cross b; let q ← c.cross d; p.dot q)
      (do let k ← a.dot c; let l ← b.dot d; let m ← a.dot d; let n ← b.dot c; let p ← imul k l; let q ← imul m n; isub p q) := by
  refine ⟨law_mk (fun x y hx hy => ?_) (fun hc => by returns) (fun hc => by returns), law_mk (fun x y hx hy => res_inj ?_) (fun hc => by returns) (fun hc => by returns)⟩
  · simp only [bind_eq_ok] at hx hy
    obtain ⟨p, hp, hx⟩ := hx
    obtain ⟨m, hm, n, hn, q, hq, r, hr, hy⟩ := hy
    apply ext3 <;> simp only [cross3_ok hx, cross3_ok hp, sub3_ok hy, mul3_ok hq, mul3_ok hr, dot3_ok hm, dot3_ok hn] <;> ring
  · simp only [bind_eq_ok] at hx hy
    obtain ⟨p, hp, q, hq, hx⟩ := hx
    obtain ⟨k, hk, l, hl, m, hm, n, hn, t, ht, u, hu, hy⟩ := hy
    simp only [dot3_ok hx, cross3_ok hp, cross3_ok hq, csub_ok hy, cmul_ok ht, cmul_ok hu, dot3_ok hk, dot3_ok hl, dot3_ok hm, dot3_ok hn]; ring

/-- **C152, Jacobi.** `a × (b × c) + b × (c × a) + c × (a × b) = 0`. -/
theorem C152_jacobi (hw : 0 < w) (a b c : Vector3d (MInt s w)) {o : MInt s w} (ho : o.toInt = 0) :
    Law (do let p ← b.cross c; let p' ← a.cross p; let q ← c.cross a; let q' ← b.cross q; let r ← a.cross b; let r' ← c.cross r; let t ← p'.add q'; t.add r')
      (.ok ⟨o, o, o⟩) := by
  have h0 : res o = 0 := by rw [res, ho]; exact Int.cast_zero
  refine law_mk (fun x y hx hy => ?_) (fun hc => by returns) (fun _ => ⟨_, rfl⟩)
  simp only [bind_eq_ok] at hx
  obtain ⟨p, hp, p', hp', q, hq, q', hq', r, hr, r', hr', t, ht, hx⟩ := hx
  cases hy
  apply ext3 <;> simp only [add3_ok hx, add3_ok ht, cross3_ok hp', cross3_ok hq', cross3_ok hr', cross3_ok hp, cross3_ok hq, cross3_ok hr, h0] <;> ring

/-- **C152, in the plane.** Sums associate, `(a + b) - b = a`, multiples distribute, `dot` and `perpendicular_dot` distribute over sums, and
`dot² + perpendicular_dot² = (a · a)(b · b)`. -/
theorem C152_plane (hw : 0 < w) (a b c : Vector2d (MInt s w)) (k : MInt s w) :
    Law (do let p ← a.add b; p.add c) (do let q ← b.add c; a.add q) ∧
    Law (do let p ← a.add b; p.sub b) (.ok a) ∧
    Law (do let p ← a.add b; p.mulScalar k) (do let p ← a.mulScalar k; let q ← b.mulScalar k; p.add q) ∧
    Law (do let p ← a.add b; p.dot c) (do let p ← a.dot c; let q ← b.dot c; iadd p q) ∧
    Law (do let p ← a.add b; p.perpendicularDot c) (do let p ← a.perpendicularDot c; let q ← b.perpendicularDot c; iadd p q) ∧
    Law (do let p ← a.dot b; let q ← a.perpendicularDot b; let m ← imul p p; let n ← imul q q; iadd m n)
      (do let p ← a.dot a; let q ← b.dot b; imul p q) := by
  refine ⟨law_mk (fun x y hx hy => ?_) (fun hc => by returns) (fun hc => by returns), law_mk (fun x y hx hy => ?_) (fun hc => by returns) (fun _ => ⟨_, rfl⟩),
    law_mk (fun x y hx hy => ?_) (fun hc => by returns) (fun hc => by returns), law_mk (fun x y hx hy => res_inj ?_) (fun hc => by returns) (fun hc => by returns),
    law_mk (fun x y hx hy => res_inj ?_) (fun hc => by returns) (fun hc => by returns), law_mk (fun x y hx hy => res_inj ?_) (fun hc => by returns) (fun hc => by returns)⟩
  · simp only [bind_eq_ok] at hx hy
    obtain ⟨p, hp, hx⟩ := hx
    obtain ⟨q, hq, hy⟩ := hy
    apply ext2 <;> simp only [add2_ok hx, add2_ok hy, add2_ok hp, add2_ok hq] <;> ring
  · simp only [bind_eq_ok] at hx
    obtain ⟨p, hp, hx⟩ := hx
    cases hy
    apply ext2 <;> simp only [sub2_ok hx, add2_ok hp] <;> ring
  · simp only [bind_eq_ok] at hx hy
    obtain ⟨p, hp, hx⟩ := hx
    obtain ⟨q, hq, r, hr, hy⟩ := hy
    apply ext2 <;> simp only [mul2_ok hx, add2_ok hp, add2_ok hy, mul2_ok hq, mul2_ok hr] <;> ring
  · simp only [bind_eq_ok] at hx hy
    obtain ⟨p, hp, hx⟩ := hx
    obtain ⟨q, hq, r, hr, hy⟩ := hy
    simp only [dot2_ok hx, add2_ok hp, cadd_ok hy, dot2_ok hq, dot2_ok hr]; ring
  · simp only [bind_eq_ok] at hx hy
    obtain ⟨p, hp, hx⟩ := hx
    obtain ⟨q, hq, r, hr, hy⟩ := hy
    simp only [perp2_ok hx, add2_ok hp, cadd_ok hy, perp2_ok hq, perp2_ok hr]; ring
  · simp only [bind_eq_ok] at hx hy
    obtain ⟨p, hp, q, hq, m, hm, n, hn, hx⟩ := hx
    obtain ⟨t, ht, r, hr, hy⟩ := hy
    simp only [cadd_ok hx, cmul_ok hm, cmul_ok hn, dot2_ok hp, perp2_ok hq, cmul_ok hy, dot2_ok ht, dot2_ok hr]; ring

theorem fold3_ok (l : List (Vector3d (MInt s w))) (v c : Vector3d (MInt s w)) (h : l.foldlM Vector3d.add v = .ok c) :
    res c.x = res v.x + (l.map fun u => res u.x).sum ∧ res c.y = res v.y + (l.map fun u => res u.y).sum ∧ res c.z = res v.z + (l.map fun u => res u.z).sum := by
  induction l generalizing v with
  | nil => cases h; simp
  | cons u l ih =>
    rw [List.foldlM_cons, bind_eq_ok] at h
    obtain ⟨p, hp, h⟩ := h
    obtain ⟨h1, h2, h3⟩ := ih p h
    simp only [h1, h2, h3, add3_ok hp, List.map_cons, List.sum_cons]
    refine ⟨?_, ?_, ?_⟩ <;> ring

theorem total_fold3 (hw : 0 < w) (hc : Cfg.overflowChecks = false) (l : List (Vector3d (MInt s w))) (v : Vector3d (MInt s w)) : Total (l.foldlM Vector3d.add v) := by
  induction l generalizing v with
  | nil => exact ⟨_, rfl⟩
  | cons u l ih => rw [List.foldlM_cons]; exact total_bind (total_add3 hw hc _ _) ih

/-- **C152, sums of lists.** The sum of two joined lists is the sum of the sums, and the sum does not depend on the order. -/
theorem C152_sum (hw : 0 < w) (l m : List (Vector3d (MInt s w))) :
    Law (Vector3d.sum (l ++ m)) (do let p ← Vector3d.sum l; let q ← Vector3d.sum m; p.add q) ∧ (l.Perm m → Law (Vector3d.sum l) (Vector3d.sum m)) := by
  have h0 : res (@Component.default (MInt s w) ‹Cfg› _) = 0 := by
    refine ((ZMod.intCast_eq_intCast_iff _ 0 _).2 ?_).trans Int.cast_zero
    push_cast
    exact wrap_mod 0
  constructor
  · refine law_mk (fun x y hx hy => ?_) (fun hc => total_fold3 hw hc _ _)
      (fun hc => total_bind (total_fold3 hw hc _ _) fun _ => total_bind (total_fold3 hw hc _ _) fun _ => total_add3 hw hc _ _)
    simp only [bind_eq_ok] at hy
    obtain ⟨p, hp, q, hq, hy⟩ := hy
    apply ext3 <;> simp only [add3_ok hy, fold3_ok _ _ _ hx, fold3_ok _ _ _ hp, fold3_ok _ _ _ hq, Vector3d.default, h0, List.map_append, List.sum_append] <;> ring
  · intro hlm
    refine law_mk (fun x y hx hy => ?_) (fun hc => total_fold3 hw hc _ _) (fun hc => total_fold3 hw hc _ _)
    apply ext3 <;> simp only [fold3_ok _ _ _ hx, fold3_ok _ _ _ hy] <;> rw [(hlm.map _).sum_eq]

/-- **C152, panics depend on the order.** With overflow checks, `(a + b) - b` panics for the `i8` vectors `a = b = (100, 0, 0)` although `a + (b - b)` returns `a`. -/
theorem C152_order_false (hc : Cfg.overflowChecks = true) : ∃ a b : Vector3d I8, Fails (do let p ← a.add b; p.sub b) ∧ (do let q ← b.sub b; a.add q) = .ok a := by
  refine ⟨⟨⟨100#8⟩, ⟨0#8⟩, ⟨0#8⟩⟩, ⟨⟨100#8⟩, ⟨0#8⟩, ⟨0#8⟩⟩, ?_, ?_⟩
  · have h : (MInt.chk ((⟨100#8⟩ : I8).toInt + (⟨100#8⟩ : I8).toInt) : Res I8) = .error .overflow := (chk_spec (by norm_num) _).2.1 (by decide) hc
    refine ⟨.overflow, ?_⟩
    simp only [Vector3d.add]
    rw [cadd_def, h]; rfl
  · have e : ∀ v : Int, MInt.InRange true 8 v → (MInt.chk v : Res I8) = .ok (MInt.wrap v) := fun v hv => by rw [MInt.chk, if_pos hv]
    simp only [Vector3d.add, Vector3d.sub, csub_def, cadd_def]
    rw [e _ (by decide), ok_bind, e _ (by decide), ok_bind, ok_bind, ok_bind, e _ (by decide), ok_bind, e _ (by decide), ok_bind, ok_bind]
    decide

/-- Without overflow checks, `(200, 7) + (100, 250) - (100, 250)` in `u8` passes through `(44, 1)` and returns `(200, 7)`. -/
theorem C152_case (hc : Cfg.overflowChecks = false) :
    ∃ p, Vector2d.add (⟨⟨200#8⟩, ⟨7#8⟩⟩ : Vector2d U8) ⟨⟨100#8⟩, ⟨250#8⟩⟩ = .ok p ∧ p.x.toInt = 44 ∧ p.y.toInt = 1 ∧ p.sub ⟨⟨100#8⟩, ⟨250#8⟩⟩ = .ok ⟨⟨200#8⟩, ⟨7#8⟩⟩ := by
  have e : ∀ v : Int, (MInt.chk v : Res U8) = .ok (MInt.wrap v) := fun v => (chk_spec (by norm_num) v).2.2 hc
  refine ⟨⟨MInt.wrap 300, MInt.wrap 257⟩, ?_, by decide, by decide, ?_⟩
  · simp only [Vector2d.add, cadd_def, e]; rfl
  · simp only [Vector2d.sub, csub_def, e, ok_bind]; decide

end

end Micromath.Props
