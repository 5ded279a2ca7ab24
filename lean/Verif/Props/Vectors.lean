import Mathlib.Tactic.FinCases
import Verif.Float.Eqv
import Verif.Model.Quaternion
import Verif.Props.Basics
import Verif.Props.MachineInt

/-!
# C51-C61: vectors
-/

namespace Micromath.Props
open F32 Spec

/-! ### C51: access -/

section
variable [Cfg] {C : Type} [Component C]

/-- **C51.** `get` returns the component at the index, and `None` from `AXES` on. -/
theorem C51_get (v : Vector2d C) (u : Vector3d C) (i : Nat) :
    VectorTrait.get v i = [v.x, v.y][i]? ∧ VectorTrait.get u i = [u.x, u.y, u.z][i]? ∧
    ((VectorTrait.get v i).isSome = true ↔ i < VectorTrait.axes (Vector2d C)) ∧
    ((VectorTrait.get u i).isSome = true ↔ i < VectorTrait.axes (Vector3d C)) := by
  have h2 : VectorTrait.get v i = [v.x, v.y][i]? := by rcases i with _ | _ | i <;> rfl
  have h3 : VectorTrait.get u i = [u.x, u.y, u.z][i]? := by rcases i with _ | _ | _ | i <;> rfl
  refine ⟨h2, h3, ?_, ?_⟩
  · rw [h2]; simp [VectorTrait.axes]
  · rw [h3]; simp [VectorTrait.axes]

omit [Cfg] [Component C] in
/-- **C51.** Indexing returns the same component, and panics exactly for indices from `AXES` on. -/
theorem C51_index (v : Vector2d C) (u : Vector3d C) (i : Nat) :
    (∀ c, v.index i = .ok c ↔ [v.x, v.y][i]? = some c) ∧ (v.index i = .error .outOfRange ↔ 2 ≤ i) ∧
    (∀ c, u.index i = .ok c ↔ [u.x, u.y, u.z][i]? = some c) ∧ (u.index i = .error .outOfRange ↔ 3 ≤ i) := by
  refine ⟨?_, ?_, ?_, ?_⟩
  · intro c; rcases i with _ | _ | i <;> simp [Vector2d.index]
  · rcases i with _ | _ | i <;> simp [Vector2d.index]
  · intro c; rcases i with _ | _ | _ | i <;> simp [Vector3d.index]
  · rcases i with _ | _ | _ | i <;> simp [Vector3d.index]

omit [Component C] in
theorem advance_none {V : Type} [VectorTrait V C] (it : Iter V) (h : VectorTrait.get it.vector it.position = none) (n : Nat) :
    it.advance n = it ∧ (it.advance n).next.1 = none := by
  have hnext : it.next = (none, it) := by simp [Iter.next, h]
  induction n with
  | zero => exact ⟨rfl, by rw [Iter.advance, hnext]⟩
  | succ k ih => rw [Iter.advance, hnext]; exact ih

theorem calls2 (v : Vector2d C) (i : Nat) : (VectorTrait.iter v).calls i = [v.x, v.y][i]? := by
  rcases i with _ | _ | i
  · rfl
  · rfl
  · have := (advance_none (V := Vector2d C) ⟨v, 2⟩ rfl i).2
    exact this

theorem calls3 (u : Vector3d C) (i : Nat) : (VectorTrait.iter u).calls i = [u.x, u.y, u.z][i]? := by
  rcases i with _ | _ | _ | i
  · rfl
  · rfl
  · rfl
  · have := (advance_none (V := Vector3d C) ⟨u, 3⟩ rfl i).2
    exact this

/-- **C51.** The `i`-th call of `next()` on `iter()` returns the `i`-th component; from `AXES` on every call
returns `None`. -/
theorem C51_iter (v : Vector2d C) (u : Vector3d C) (i : Nat) :
    (VectorTrait.iter v).calls i = [v.x, v.y][i]? ∧ (VectorTrait.iter u).calls i = [u.x, u.y, u.z][i]? :=
  ⟨calls2 v i, calls3 u i⟩

theorem items2 (v : Vector2d C) : VectorTrait.items v = [v.x, v.y] := rfl
theorem items3 (u : Vector3d C) : VectorTrait.items u = [u.x, u.y, u.z] := rfl

/-- **C51.** Collecting `iter()` gives the components in order. -/
theorem C51_collect (v : Vector2d C) (u : Vector3d C) :
    VectorTrait.items v = [v.x, v.y] ∧ VectorTrait.items u = [u.x, u.y, u.z] := ⟨rfl, rfl⟩

/-- Ten calls on a concrete vector. -/
example : (VectorTrait.iter (⟨⟨3#8⟩, ⟨5#8⟩⟩ : Vector2d U8)).calls 1 = some ⟨5#8⟩ ∧
    (VectorTrait.iter (⟨⟨3#8⟩, ⟨5#8⟩⟩ : Vector2d U8)).calls 9 = none := by
  rw [calls2, calls2]; exact ⟨rfl, rfl⟩

/-! ### C52: construction from sequences -/

/-- **C52.** `from_slice` succeeds exactly on slices of length `AXES` and lists the components in order. -/
theorem C52_from_slice (l : List C) :
    (∀ v : Vector2d C, VectorTrait.fromSlice l = .ok v ↔ l = [v.x, v.y]) ∧
    (∀ u : Vector3d C, VectorTrait.fromSlice l = .ok u ↔ l = [u.x, u.y, u.z]) ∧
    (Fails (VectorTrait.fromSlice l : Res (Vector2d C)) ↔ l.length ≠ 2) ∧
    (Fails (VectorTrait.fromSlice l : Res (Vector3d C)) ↔ l.length ≠ 3) := by
  refine ⟨?_, ?_, ?_, ?_⟩
  · rintro ⟨x, y⟩
    rcases l with _ | ⟨a, _ | ⟨b, _ | ⟨c, l⟩⟩⟩ <;>
      simp [VectorTrait.fromSlice, VectorTrait.fromIter, Vector2d.fromIter, expect, Bind.bind, Except.bind]
  · rintro ⟨x, y, z⟩
    rcases l with _ | ⟨a, _ | ⟨b, _ | ⟨c, _ | ⟨d, l⟩⟩⟩⟩ <;>
      simp [VectorTrait.fromSlice, VectorTrait.fromIter, Vector3d.fromIter, expect, Bind.bind, Except.bind]
  · rcases l with _ | ⟨a, _ | ⟨b, _ | ⟨c, l⟩⟩⟩ <;>
      simp [Fails, VectorTrait.fromSlice, VectorTrait.fromIter, Vector2d.fromIter, expect, Bind.bind, Except.bind]
  · rcases l with _ | ⟨a, _ | ⟨b, _ | ⟨c, _ | ⟨d, l⟩⟩⟩⟩ <;>
      simp [Fails, VectorTrait.fromSlice, VectorTrait.fromIter, Vector3d.fromIter, expect, Bind.bind, Except.bind]

/-- **C52.** Rebuilding a vector from its own iterator, or mapping the identity over it, gives it back. -/
theorem C52_from_iter_iter (v : Vector2d C) (u : Vector3d C) :
    VectorTrait.fromIter (VectorTrait.iter v).calls = .ok v ∧ VectorTrait.fromIter (VectorTrait.iter u).calls = .ok u ∧
    VectorTrait.map v id = .ok v ∧ VectorTrait.map u id = .ok u := ⟨rfl, rfl, rfl, rfl⟩

/-- **C52.** `map f` applies `f` to each component. -/
theorem C52_map (v : Vector2d C) (u : Vector3d C) (f : C → C) :
    VectorTrait.map v f = .ok ⟨f v.x, f v.y⟩ ∧ VectorTrait.map u f = .ok ⟨f u.x, f u.y, f u.z⟩ := ⟨rfl, rfl⟩

/-! ### C53: tuples and arrays -/

omit [Cfg] [Component C] in
/-- **C53.** Conversions to and from tuples and arrays are mutually inverse and keep the order `x, y, z`. -/
theorem C53_conversions (v : Vector2d C) (u : Vector3d C) (t : C × C) (t3 : C × C × C) (a : Fin 2 → C) (a3 : Fin 3 → C) :
    Vector2d.ofTuple v.toTuple = v ∧ (Vector2d.ofTuple t).toTuple = t ∧
    Vector2d.ofArray v.intoArray = v ∧ (Vector2d.ofArray a).intoArray = a ∧
    Vector3d.ofTuple u.toTuple = u ∧ (Vector3d.ofTuple t3).toTuple = t3 ∧
    Vector3d.ofArray u.intoArray = u ∧ (Vector3d.ofArray a3).intoArray = a3 ∧
    List.ofFn v.toArray = [v.x, v.y] ∧ List.ofFn u.toArray = [u.x, u.y, u.z] := by
  refine ⟨rfl, rfl, rfl, ?_, rfl, rfl, rfl, ?_, rfl, rfl⟩
  · funext i; fin_cases i <;> rfl
  · funext i; fin_cases i <;> rfl

/-! ### C54: componentwise arithmetic -/

/-- How a two-component operation must behave. -/
def Comp2 (r : Res (Vector2d C)) (rx ry : Res C) : Prop :=
  (∀ c, r = .ok c ↔ rx = .ok c.x ∧ ry = .ok c.y) ∧ (Fails r ↔ Fails rx ∨ Fails ry)

/-- How a three-component operation must behave. -/
def Comp3 (r : Res (Vector3d C)) (rx ry rz : Res C) : Prop :=
  (∀ c, r = .ok c ↔ rx = .ok c.x ∧ ry = .ok c.y ∧ rz = .ok c.z) ∧ (Fails r ↔ Fails rx ∨ Fails ry ∨ Fails rz)

omit [Cfg] [Component C] in
theorem comp2_mk (rx ry : Res C) :
    Comp2 (do let x ← rx; let y ← ry; .ok ⟨x, y⟩) rx ry := by
  constructor
  · rintro ⟨cx, cy⟩
    rcases rx with e | x <;> rcases ry with e' | y <;> simp [Bind.bind, Except.bind]
  · rcases rx with e | x <;> rcases ry with e' | y <;> simp [Fails, Bind.bind, Except.bind]

omit [Cfg] [Component C] in
theorem comp3_mk (rx ry rz : Res C) :
    Comp3 (do let x ← rx; let y ← ry; let z ← rz; .ok ⟨x, y, z⟩) rx ry rz := by
  constructor
  · rintro ⟨cx, cy, cz⟩
    rcases rx with e | x <;> rcases ry with e' | y <;> rcases rz with e'' | z <;> simp [Bind.bind, Except.bind]
  · rcases rx with e | x <;> rcases ry with e' | y <;> rcases rz with e'' | z <;> simp [Fails, Bind.bind, Except.bind]

/-- **C54.** 2-vector arithmetic acts componentwise and panics iff a component operation panics; `DivAssign`
agrees with `Div`. -/
theorem C54_vector2 (a b : Vector2d C) (k : C) :
    Comp2 (a.add b) (Component.add a.x b.x) (Component.add a.y b.y) ∧
    Comp2 (a.sub b) (Component.sub a.x b.x) (Component.sub a.y b.y) ∧
    Comp2 (a.mulScalar k) (Component.mul a.x k) (Component.mul a.y k) ∧
    Comp2 (a.divScalar k) (Component.div a.x k) (Component.div a.y k) ∧
    a.divAssign k = a.divScalar k :=
  ⟨comp2_mk _ _, comp2_mk _ _, comp2_mk _ _, comp2_mk _ _, rfl⟩

/-- **C54.** The same for 3-vectors. -/
theorem C54_vector3 (a b : Vector3d C) (k : C) :
    Comp3 (a.add b) (Component.add a.x b.x) (Component.add a.y b.y) (Component.add a.z b.z) ∧
    Comp3 (a.sub b) (Component.sub a.x b.x) (Component.sub a.y b.y) (Component.sub a.z b.z) ∧
    Comp3 (a.mulScalar k) (Component.mul a.x k) (Component.mul a.y k) (Component.mul a.z k) ∧
    Comp3 (a.divScalar k) (Component.div a.x k) (Component.div a.y k) (Component.div a.z k) ∧
    a.divAssign k = a.divScalar k :=
  ⟨comp3_mk _ _ _, comp3_mk _ _ _, comp3_mk _ _ _, comp3_mk _ _ _, rfl⟩

end

/-- **C54.** On integer components: an in-range result is exact; out of range the operation panics with
overflow checks and wraps without; division panics exactly on zero and on `MIN / -1` and truncates otherwise. -/
theorem C54_int_component [Cfg] {s : Bool} {w : Nat} (hw : 0 < w) (x y : MInt s w) :
    (∀ op : Res (MInt s w) × Int, op ∈ [(@Component.add (MInt s w) ‹Cfg› _ x y, x.toInt + y.toInt), (@Component.sub (MInt s w) ‹Cfg› _ x y, x.toInt - y.toInt),
        (@Component.mul (MInt s w) ‹Cfg› _ x y, x.toInt * y.toInt)] →
      (MInt.InRange s w op.2 → ∃ z, op.1 = .ok z ∧ z.toInt = op.2) ∧
      (¬ MInt.InRange s w op.2 → Cfg.overflowChecks = true → op.1 = .error .overflow) ∧
      (Cfg.overflowChecks = false → ∃ z, op.1 = .ok z ∧ z.toInt ≡ op.2 [ZMOD 2 ^ w])) ∧
    (Fails (@Component.div (MInt s w) ‹Cfg› _ x y) ↔ y.toInt = 0 ∨ (s = true ∧ x.toInt = -2 ^ (w - 1) ∧ y.toInt = -1)) ∧
    (∀ z, @Component.div (MInt s w) ‹Cfg› _ x y = .ok z → z.toInt = x.toInt.tdiv y.toInt) := by
  have key : ∀ v : Int, (MInt.InRange s w v → ∃ z : MInt s w, MInt.chk v = .ok z ∧ z.toInt = v) ∧
      (¬ MInt.InRange s w v → Cfg.overflowChecks = true → (MInt.chk v : Res (MInt s w)) = .error .overflow) ∧
      (Cfg.overflowChecks = false → ∃ z : MInt s w, MInt.chk v = .ok z ∧ z.toInt ≡ v [ZMOD 2 ^ w]) := by
    intro v
    obtain ⟨h1, h2, h3⟩ := chk_spec (s := s) hw v
    exact ⟨h1, h2, fun hc => ⟨_, h3 hc, wrap_mod v⟩⟩
  refine ⟨?_, div_fails_iff hw x y, fun z => div_ok hw⟩
  intro op hop
  simp only [List.mem_cons, List.not_mem_nil, or_false] at hop
  rcases hop with h | h | h <;> subst h <;> exact key _

/-- Adding `i8` vectors with overflow checks: `(100, 0) + (100, 0)` panics. -/
example [Cfg] (hc : Cfg.overflowChecks = true) :
    Fails (Vector2d.add (⟨⟨100#8⟩, ⟨0#8⟩⟩ : Vector2d I8) ⟨⟨100#8⟩, ⟨0#8⟩⟩) := by
  refine (C54_vector2 _ _ (⟨0#8⟩ : I8)).1.2.2 (Or.inl ⟨.overflow, ?_⟩)
  exact ((C54_int_component (s := true) (w := 8) (by norm_num) ⟨100#8⟩ ⟨100#8⟩).1 _ (List.mem_cons_self ..)).2.1
    (by show ¬ MInt.InRange true 8 ((⟨100#8⟩ : I8).toInt + (⟨100#8⟩ : I8).toInt); decide) hc

/-! ### C55 -/

/-- **C55.** `s * v` is `v * s`, including panics, for every component type. -/
theorem C55_scalar_comm [Cfg] {C : Type} [Component C] (k : C) (v : Vector2d C) (u : Vector3d C) :
    Vector2d.scalarMul k v = v.mulScalar k ∧ Vector3d.scalarMul k u = u.mulScalar k := ⟨rfl, rfl⟩

/-! ### C56: integer dot product -/

section
variable [Cfg] {s : Bool} {w : Nat}

/-- **C56.** If no product and no partial sum leaves the range, `dot` is the exact inner product. -/
theorem C56_dot_exact (hw : 0 < w) (a b : Vector2d (MInt s w)) (u v : Vector3d (MInt s w)) :
    (MInt.InRange s w (a.x.toInt * b.x.toInt) → MInt.InRange s w (a.y.toInt * b.y.toInt) →
      MInt.InRange s w (a.x.toInt * b.x.toInt + a.y.toInt * b.y.toInt) →
      ∃ d, a.dot b = .ok d ∧ d.toInt = a.x.toInt * b.x.toInt + a.y.toInt * b.y.toInt) ∧
    (MInt.InRange s w (u.x.toInt * v.x.toInt) → MInt.InRange s w (u.y.toInt * v.y.toInt) →
      MInt.InRange s w (u.z.toInt * v.z.toInt) → MInt.InRange s w (u.x.toInt * v.x.toInt + u.y.toInt * v.y.toInt) →
      MInt.InRange s w (u.x.toInt * v.x.toInt + u.y.toInt * v.y.toInt + u.z.toInt * v.z.toInt) →
      ∃ d, u.dot v = .ok d ∧ d.toInt = u.x.toInt * v.x.toInt + u.y.toInt * v.y.toInt + u.z.toInt * v.z.toInt) := by
  constructor
  · intro h1 h2 h3
    obtain ⟨p, hp, vp⟩ := (chk_spec (s := s) hw _).1 h1
    obtain ⟨q, hq, vq⟩ := (chk_spec (s := s) hw _).1 h2
    obtain ⟨r, hr, vr⟩ := (chk_spec (s := s) hw _).1 h3
    refine ⟨r, ?_, vr⟩
    unfold Vector2d.dot
    rw [cmul_def, cmul_def, hp, ok_bind, hq, ok_bind, cadd_def, vp, vq, hr]
  · intro h1 h2 h3 h4 h5
    obtain ⟨p, hp, vp⟩ := (chk_spec (s := s) hw _).1 h1
    obtain ⟨q, hq, vq⟩ := (chk_spec (s := s) hw _).1 h2
    obtain ⟨r, hr, vr⟩ := (chk_spec (s := s) hw _).1 h3
    obtain ⟨t, ht, vt⟩ := (chk_spec (s := s) hw _).1 h4
    obtain ⟨d, hd, vd⟩ := (chk_spec (s := s) hw _).1 h5
    refine ⟨d, ?_, vd⟩
    unfold Vector3d.dot
    rw [cmul_def, cmul_def, cmul_def, hp, ok_bind, hq, ok_bind, cadd_def, vp, vq, ht, ok_bind, hr, ok_bind, cadd_def,
      vt, vr, hd]

/-- **C56.** With overflow checks, whatever `dot` returns is the exact inner product. -/
theorem C56_dot_checked (hw : 0 < w) (hc : Cfg.overflowChecks = true) {a b : Vector2d (MInt s w)}
    {u v : Vector3d (MInt s w)} {d : MInt s w} :
    (a.dot b = .ok d → d.toInt = a.x.toInt * b.x.toInt + a.y.toInt * b.y.toInt) ∧
    (u.dot v = .ok d → d.toInt = u.x.toInt * v.x.toInt + u.y.toInt * v.y.toInt + u.z.toInt * v.z.toInt) := by
  constructor
  · intro h
    unfold Vector2d.dot at h
    rw [cmul_def, cmul_def] at h
    rcases e1 : (MInt.chk (a.x.toInt * b.x.toInt) : Res (MInt s w)) with _ | p
    · rw [e1, error_bind] at h; cases h
    rcases e2 : (MInt.chk (a.y.toInt * b.y.toInt) : Res (MInt s w)) with _ | q
    · rw [e1, ok_bind, e2, error_bind] at h; cases h
    rw [e1, ok_bind, e2, ok_bind, cadd_def] at h
    rw [chk_ok_checked hw hc h, chk_ok_checked hw hc e1, chk_ok_checked hw hc e2]
  · intro h
    unfold Vector3d.dot at h
    rw [cmul_def, cmul_def, cmul_def] at h
    rcases e1 : (MInt.chk (u.x.toInt * v.x.toInt) : Res (MInt s w)) with _ | p
    · rw [e1, error_bind] at h; cases h
    rcases e2 : (MInt.chk (u.y.toInt * v.y.toInt) : Res (MInt s w)) with _ | q
    · rw [e1, ok_bind, e2, error_bind] at h; cases h
    rw [e1, ok_bind, e2, ok_bind, cadd_def] at h
    rcases e3 : (MInt.chk (p.toInt + q.toInt) : Res (MInt s w)) with _ | t
    · rw [e3, error_bind] at h; cases h
    rcases e4 : (MInt.chk (u.z.toInt * v.z.toInt) : Res (MInt s w)) with _ | r
    · rw [e3, ok_bind, e4, error_bind] at h; cases h
    rw [e3, ok_bind, e4, ok_bind, cadd_def] at h
    rw [chk_ok_checked hw hc h, chk_ok_checked hw hc e3, chk_ok_checked hw hc e4, chk_ok_checked hw hc e1,
      chk_ok_checked hw hc e2]

/-- **C56.** Without overflow checks `dot` always returns, and is the inner product modulo `2^w`. -/
theorem C56_dot_wrapping (hw : 0 < w) (hc : Cfg.overflowChecks = false) (a b : Vector2d (MInt s w))
    (u v : Vector3d (MInt s w)) :
    (∃ d, a.dot b = .ok d ∧ d.toInt ≡ a.x.toInt * b.x.toInt + a.y.toInt * b.y.toInt [ZMOD 2 ^ w]) ∧
    (∃ d, u.dot v = .ok d ∧
      d.toInt ≡ u.x.toInt * v.x.toInt + u.y.toInt * v.y.toInt + u.z.toInt * v.z.toInt [ZMOD 2 ^ w]) := by
  constructor
  · unfold Vector2d.dot
    rw [cmul_def, cmul_def, (chk_spec hw _).2.2 hc, ok_bind, (chk_spec hw _).2.2 hc, ok_bind, cadd_def,
      (chk_spec hw _).2.2 hc]
    exact ⟨_, rfl, (wrap_mod _).trans ((wrap_mod _).add (wrap_mod _))⟩
  · unfold Vector3d.dot
    rw [cmul_def, cmul_def, cmul_def, (chk_spec hw _).2.2 hc, ok_bind, (chk_spec hw _).2.2 hc, ok_bind, cadd_def,
      (chk_spec hw _).2.2 hc, ok_bind, (chk_spec hw _).2.2 hc, ok_bind, cadd_def, (chk_spec hw _).2.2 hc]
    exact ⟨_, rfl, (wrap_mod _).trans (((wrap_mod _).trans ((wrap_mod _).add (wrap_mod _))).add (wrap_mod _))⟩

/-- **C56.** `dot` is symmetric in every build, panics included. -/
theorem C56_dot_comm (a b : Vector2d (MInt s w)) (u v : Vector3d (MInt s w)) :
    a.dot b = b.dot a ∧ u.dot v = v.dot u := by
  unfold Vector2d.dot Vector3d.dot
  constructor
  · rw [cmul_comm a.x, cmul_comm a.y]
  · rw [cmul_comm u.x, cmul_comm u.y, cmul_comm u.z]

/-- `(3, 4) . (3, 4) = 25` in `i8`. -/
example : ∃ d : I8, Vector2d.dot ⟨⟨3#8⟩, ⟨4#8⟩⟩ ⟨⟨3#8⟩, ⟨4#8⟩⟩ = .ok d ∧ d.toInt = 25 :=
  (C56_dot_exact (by norm_num) _ _ ⟨⟨0#8⟩, ⟨0#8⟩, ⟨0#8⟩⟩ ⟨⟨0#8⟩, ⟨0#8⟩, ⟨0#8⟩⟩).1 (by decide) (by decide) (by decide)

/-! ### C57: integer cross product -/

/-- No intermediate of the cross product leaves the range of the type. -/
def CrossInRange (a b : Vector3d (MInt s w)) : Prop :=
  MInt.InRange s w (a.y.toInt * b.z.toInt) ∧ MInt.InRange s w (a.z.toInt * b.y.toInt) ∧
  MInt.InRange s w (a.z.toInt * b.x.toInt) ∧ MInt.InRange s w (a.x.toInt * b.z.toInt) ∧
  MInt.InRange s w (a.x.toInt * b.y.toInt) ∧ MInt.InRange s w (a.y.toInt * b.x.toInt) ∧
  MInt.InRange s w (a.y.toInt * b.z.toInt - a.z.toInt * b.y.toInt) ∧
  MInt.InRange s w (a.z.toInt * b.x.toInt - a.x.toInt * b.z.toInt) ∧
  MInt.InRange s w (a.x.toInt * b.y.toInt - a.y.toInt * b.x.toInt)

/-- **C57.** If no intermediate overflows, `cross` is the determinant formula. -/
theorem C57_cross_exact (hw : 0 < w) {a b : Vector3d (MInt s w)} (h : CrossInRange a b) :
    ∃ c, a.cross b = .ok c ∧ c.x.toInt = a.y.toInt * b.z.toInt - a.z.toInt * b.y.toInt ∧
      c.y.toInt = a.z.toInt * b.x.toInt - a.x.toInt * b.z.toInt ∧
      c.z.toInt = a.x.toInt * b.y.toInt - a.y.toInt * b.x.toInt := by
  obtain ⟨h1, h2, h3, h4, h5, h6, h7, h8, h9⟩ := h
  obtain ⟨p1, e1, v1⟩ := (chk_spec (s := s) hw _).1 h1
  obtain ⟨p2, e2, v2⟩ := (chk_spec (s := s) hw _).1 h2
  obtain ⟨p3, e3, v3⟩ := (chk_spec (s := s) hw _).1 h3
  obtain ⟨p4, e4, v4⟩ := (chk_spec (s := s) hw _).1 h4
  obtain ⟨p5, e5, v5⟩ := (chk_spec (s := s) hw _).1 h5
  obtain ⟨p6, e6, v6⟩ := (chk_spec (s := s) hw _).1 h6
  obtain ⟨p7, e7, v7⟩ := (chk_spec (s := s) hw _).1 h7
  obtain ⟨p8, e8, v8⟩ := (chk_spec (s := s) hw _).1 h8
  obtain ⟨p9, e9, v9⟩ := (chk_spec (s := s) hw _).1 h9
  refine ⟨⟨p7, p8, p9⟩, ?_, v7, v8, v9⟩
  unfold Vector3d.cross
  simp only [cmul_def, csub_def, e1, e2, e3, e4, e5, e6, v1, v2, v3, v4, v5, v6, e7, e8, e9, ok_bind]

/-- With overflow checks, a returned cross product had no overflow. -/
theorem C57_cross_checked (hw : 0 < w) (hc : Cfg.overflowChecks = true) {a b c : Vector3d (MInt s w)}
    (h : a.cross b = .ok c) : CrossInRange a b := by
  have key : ∀ v : Int, (∃ z : MInt s w, MInt.chk v = .ok z ∧ z.toInt = v ∧ MInt.InRange s w v) ∨
      (MInt.chk v : Res (MInt s w)) = .error .overflow := by
    intro v
    by_cases hr : MInt.InRange s w v
    · obtain ⟨z, hz, hv⟩ := (chk_spec (s := s) hw v).1 hr; exact Or.inl ⟨z, hz, hv, hr⟩
    · exact Or.inr ((chk_spec hw v).2.1 hr hc)
  unfold Vector3d.cross at h
  simp only [cmul_def, csub_def] at h
  rcases key (a.y.toInt * b.z.toInt) with ⟨p1, e1, v1, h1⟩ | e
  swap; · rw [e, error_bind] at h; cases h
  rcases key (a.z.toInt * b.y.toInt) with ⟨p2, e2, v2, h2⟩ | e
  swap; · rw [e1, ok_bind, e, error_bind] at h; cases h
  rw [e1, ok_bind, e2, ok_bind, v1, v2] at h
  rcases key (a.y.toInt * b.z.toInt - a.z.toInt * b.y.toInt) with ⟨p7, e7, v7, h7⟩ | e
  swap; · rw [e, error_bind] at h; cases h
  rw [e7, ok_bind] at h
  rcases key (a.z.toInt * b.x.toInt) with ⟨p3, e3, v3, h3⟩ | e
  swap; · rw [e, error_bind] at h; cases h
  rcases key (a.x.toInt * b.z.toInt) with ⟨p4, e4, v4, h4⟩ | e
  swap; · rw [e3, ok_bind, e, error_bind] at h; cases h
  rw [e3, ok_bind, e4, ok_bind, v3, v4] at h
  rcases key (a.z.toInt * b.x.toInt - a.x.toInt * b.z.toInt) with ⟨p8, e8, v8, h8⟩ | e
  swap; · rw [e, error_bind] at h; cases h
  rw [e8, ok_bind] at h
  rcases key (a.x.toInt * b.y.toInt) with ⟨p5, e5, v5, h5⟩ | e
  swap; · rw [e, error_bind] at h; cases h
  rcases key (a.y.toInt * b.x.toInt) with ⟨p6, e6, v6, h6⟩ | e
  swap; · rw [e5, ok_bind, e, error_bind] at h; cases h
  rw [e5, ok_bind, e6, ok_bind, v5, v6] at h
  rcases key (a.x.toInt * b.y.toInt - a.y.toInt * b.x.toInt) with ⟨p9, e9, v9, h9⟩ | e
  swap; · rw [e, error_bind] at h; cases h
  exact ⟨h1, h2, h3, h4, h5, h6, h7, h8, h9⟩

/-- **C57.** Laws of the cross product on the exact values, when no intermediate overflows: antisymmetry,
orthogonality to both operands, and the Lagrange identity. -/
theorem C57_cross_laws (hw : 0 < w) {a b : Vector3d (MInt s w)} (h : CrossInRange a b) (h' : CrossInRange b a) :
    ∃ c d, a.cross b = .ok c ∧ b.cross a = .ok d ∧
      (c.x.toInt = -d.x.toInt ∧ c.y.toInt = -d.y.toInt ∧ c.z.toInt = -d.z.toInt) ∧
      a.x.toInt * c.x.toInt + a.y.toInt * c.y.toInt + a.z.toInt * c.z.toInt = 0 ∧
      b.x.toInt * c.x.toInt + b.y.toInt * c.y.toInt + b.z.toInt * c.z.toInt = 0 ∧
      (c.x.toInt ^ 2 + c.y.toInt ^ 2 + c.z.toInt ^ 2)
        + (a.x.toInt * b.x.toInt + a.y.toInt * b.y.toInt + a.z.toInt * b.z.toInt) ^ 2
        = (a.x.toInt ^ 2 + a.y.toInt ^ 2 + a.z.toInt ^ 2) * (b.x.toInt ^ 2 + b.y.toInt ^ 2 + b.z.toInt ^ 2) := by
  obtain ⟨c, hc, c1, c2, c3⟩ := C57_cross_exact hw h
  obtain ⟨d, hd, d1, d2, d3⟩ := C57_cross_exact hw h'
  refine ⟨c, d, hc, hd, ⟨?_, ?_, ?_⟩, ?_, ?_, ?_⟩
  · rw [c1, d1]; ring
  · rw [c2, d2]; ring
  · rw [c3, d3]; ring
  · rw [c1, c2, c3]; ring
  · rw [c1, c2, c3]; ring
  · rw [c1, c2, c3]; ring

/-- **C57.** `a x a` is the zero vector whenever its products do not overflow. -/
theorem C57_cross_self (hw : 0 < w) {a c : Vector3d (MInt s w)} (h : a.cross a = .ok c) :
    c.x.toInt = 0 ∧ c.y.toInt = 0 ∧ c.z.toInt = 0 := by
  have h0 : ∀ p q : MInt s w, p.toInt = q.toInt → ∀ r : MInt s w, MInt.chk (p.toInt - q.toInt) = .ok r → r.toInt = 0 := by
    intro p q hpq r hr
    rw [chk_ok hr, hpq, sub_self]
    apply wrap_exact hw
    unfold MInt.InRange
    split
    · constructor <;> simp
    · constructor <;> simp
  unfold Vector3d.cross at h
  simp only [cmul_def, csub_def, mul_comm a.z.toInt, mul_comm a.y.toInt a.x.toInt] at h
  rcases e1 : (MInt.chk (a.y.toInt * a.z.toInt) : Res (MInt s w)) with _ | p
  · rw [e1, error_bind] at h; cases h
  rw [e1, ok_bind, ok_bind] at h
  rcases e2 : (MInt.chk (p.toInt - p.toInt) : Res (MInt s w)) with _ | x
  · rw [e2, error_bind] at h; cases h
  rw [e2, ok_bind] at h
  rcases e3 : (MInt.chk (a.x.toInt * a.z.toInt) : Res (MInt s w)) with _ | q
  · rw [e3, error_bind] at h; cases h
  rw [e3, ok_bind, ok_bind] at h
  rcases e4 : (MInt.chk (q.toInt - q.toInt) : Res (MInt s w)) with _ | y
  · rw [e4, error_bind] at h; cases h
  rw [e4, ok_bind] at h
  rcases e5 : (MInt.chk (a.x.toInt * a.y.toInt) : Res (MInt s w)) with _ | r
  · rw [e5, error_bind] at h; cases h
  rw [e5, ok_bind, ok_bind] at h
  rcases e6 : (MInt.chk (r.toInt - r.toInt) : Res (MInt s w)) with _ | z
  · rw [e6, error_bind] at h; cases h
  rw [e6, ok_bind] at h
  cases h
  exact ⟨h0 p p rfl x e2, h0 q q rfl y e4, h0 r r rfl z e6⟩

/-- **C57.** The `*` operator between vectors is the cross product, for every component type. -/
theorem C57_mul_is_cross {C : Type} [Component C] (a b : Vector3d C) (u v : Vector2d C) :
    a.mulVec b = a.cross b ∧ u.mulVec v = u.cross v := ⟨rfl, rfl⟩

/-- `(1,2,3) x (4,5,6) = (-3,6,-3)` in `i8`. -/
example : ∃ c : Vector3d I8, Vector3d.cross ⟨⟨1#8⟩, ⟨2#8⟩, ⟨3#8⟩⟩ ⟨⟨4#8⟩, ⟨5#8⟩, ⟨6#8⟩⟩ = .ok c ∧
    c.x.toInt = -3 ∧ c.y.toInt = 6 ∧ c.z.toInt = -3 :=
  C57_cross_exact (by norm_num) (by unfold CrossInRange; decide)

end

/-! ### C58: float cross product -/

/-- **C58.** Each component of `a x b` equals (`==`) the negated component of `b x a`, unless it is NaN; and the
NaN components are the same in both. -/
theorem C58_cross_anticomm [Cfg] (a b : Vector3d F32) :
    ∃ c d, a.cross b = .ok c ∧ b.cross a = .ok d ∧ Same c.x (-d.x) ∧ Same c.y (-d.y) ∧ Same c.z (-d.z) := by
  have key : ∀ p q p' q' : F32, Same (p * q - p' * q') (-(q' * p' - q * p)) := by
    intro p q p' q'
    have h1 : Eqv (q' * p' - q * p) (p' * q' - p * q) := (mul_comm_eqv _ _).sub (mul_comm_eqv _ _)
    rcases sub_swap (p * q) (p' * q') with ⟨n1, n2⟩ | ⟨n1, n2, m, hz⟩
    · left
      refine ⟨n1, ?_⟩
      have := h1.isNaN_eq
      rw [n2] at this; simpa using this
    · right
      rw [h1.eq (by rw [h1.isNaN_eq, n2])]
      have hv : (p * q - p' * q').val = (-(p' * q' - p * q)).val := by
        rcases hz with hz | hz
        · rw [val_neg, val_eq_zero.2 hz, val_eq_zero.2 (by rw [m, hz])]; simp
        · rw [hz, neg_neg']
      simp only [F32.feq, n1, isNaN_neg, n2, key_eq_iff.2 hv]; simp
  exact ⟨_, _, rfl, rfl, key _ _ _ _, key _ _ _ _, key _ _ _ _⟩

/-! ### C59: perpendicular dot product -/

/-- **C59.** Over integers: `perpendicular_dot` panics iff the 2D `cross` does, and otherwise is its `z`
component; the other two components are zero. -/
theorem C59_perp_int [Cfg] {s : Bool} {w : Nat} (hw : 0 < w) (a b : Vector2d (MInt s w)) :
    a.cross b = (do let z ← a.perpendicularDot b; .ok ⟨MInt.wrap 0, MInt.wrap 0, z⟩) ∧
      (MInt.wrap 0 : MInt s w).toInt = 0 := by
  have hr : MInt.InRange s w 0 := by unfold MInt.InRange; split <;> simp
  have h0 : (MInt.wrap 0 : MInt s w).toInt = 0 := wrap_exact hw hr
  have c0 : (MInt.chk 0 : Res (MInt s w)) = .ok (MInt.wrap 0) := by rw [MInt.chk, if_pos hr]
  refine ⟨?_, h0⟩
  unfold Vector2d.cross Vector3d.cross Vector2d.perpendicularDot
  have hd : @Component.default (MInt s w) ‹Cfg› _ = MInt.wrap 0 := rfl
  simp only [Vector3d.ofVector2d, hd, cmul_def, csub_def, h0, mul_zero, zero_mul, c0, ok_bind, sub_self]
  rcases (MInt.chk (a.x.toInt * b.y.toInt) : Res (MInt s w)) with e | p
  · rw [error_bind, error_bind]; rfl
  rw [ok_bind, ok_bind]
  rcases (MInt.chk (a.y.toInt * b.x.toInt) : Res (MInt s w)) with e | q
  · rw [error_bind, error_bind]; rfl
  rw [ok_bind, ok_bind]

/-- **C59.** Over floats: `perpendicular_dot` is the `z` component of the 2D `cross` bit for bit, and for finite
vectors the other two components are zero. -/
theorem C59_perp_float [Cfg] (a b : Vector2d F32) :
    ∃ c, a.cross b = .ok c ∧ a.perpendicularDot b = .ok c.z ∧
      (a.x.isFinite = true → a.y.isFinite = true → b.x.isFinite = true → b.y.isFinite = true →
        IsVal c.x 0 ∧ IsVal c.y 0) := by
  refine ⟨_, rfl, rfl, ?_⟩
  have hz : IsVal posZero 0 := ⟨by decide, by rw [val_of_units (u := 0) (by decide +kernel)]; norm_num⟩
  have ho : (0 : ℚ) < ovf := by norm_num [ovf]
  have m1 : ∀ x : F32, x.isFinite = true → IsVal (x * posZero) 0 ∧ IsVal (posZero * x) 0 := by
    intro x hx
    obtain ⟨f1, v1⟩ := mul_val hx hz.1 (by rw [hz.2]; simpa using ho)
    obtain ⟨f2, v2⟩ := mul_val hz.1 hx (by rw [hz.2]; simpa using ho)
    exact ⟨⟨f1, by rw [v1, hz.2, mul_zero, RN_zero]⟩, ⟨f2, by rw [v2, hz.2, zero_mul, RN_zero]⟩⟩
  have s1 : ∀ x y : F32, IsVal x 0 → IsVal y 0 → IsVal (x - y) 0 := by
    intro x y hx hy
    obtain ⟨f, v⟩ := sub_val hx.1 hy.1 (by rw [hx.2, hy.2]; simpa using ho)
    exact ⟨f, by rw [v, hx.2, hy.2, sub_zero, RN_zero]⟩
  intro fax fay fbx fby
  exact ⟨s1 _ _ (m1 _ fay).1 (m1 _ fby).2, s1 _ _ (m1 _ fbx).2 (m1 _ fax).1⟩

/-! ### C60: sums of vectors -/

/-- **C60.** The sum of 2-vectors is the pair of left-to-right component sums from the default, panicking iff one of
them panics. -/
theorem C60_sum2 [Cfg] {C : Type} [Component C] (l : List (Vector2d C)) :
    Comp2 (Vector2d.sum l) (l.foldlM (fun acc v => Component.add acc v.x) Component.default)
      (l.foldlM (fun acc v => Component.add acc v.y) Component.default) := by
  unfold Vector2d.sum Vector2d.default
  generalize (Component.default : C) = d
  suffices h : ∀ (l : List (Vector2d C)) (p q : C), Comp2 (l.foldlM Vector2d.add ⟨p, q⟩)
      (l.foldlM (fun acc v => Component.add acc v.x) p) (l.foldlM (fun acc v => Component.add acc v.y) q) from h l d d
  intro l
  induction l with
  | nil =>
    intro p q
    constructor
    · rintro ⟨cx, cy⟩; simp [pure, Except.pure]
    · simp [Fails, pure, Except.pure]
  | cons v l ih =>
    intro p q
    rw [List.foldlM_cons, List.foldlM_cons, List.foldlM_cons, Vector2d.add]
    rcases hx : Component.add p v.x with e | x
    · constructor
      · rintro ⟨cx, cy⟩
        simp [Bind.bind, Except.bind]
      · simp [Fails, Bind.bind, Except.bind]
    · rcases hy : Component.add q v.y with e | y
      · constructor
        · rintro ⟨cx, cy⟩
          simp [Bind.bind, Except.bind]
        · simp [Fails, Bind.bind, Except.bind]
      · exact ih x y

/-- **C60.** The same for 3-vectors. -/
theorem C60_sum3 [Cfg] {C : Type} [Component C] (l : List (Vector3d C)) :
    Comp3 (Vector3d.sum l) (l.foldlM (fun acc v => Component.add acc v.x) Component.default)
      (l.foldlM (fun acc v => Component.add acc v.y) Component.default)
      (l.foldlM (fun acc v => Component.add acc v.z) Component.default) := by
  unfold Vector3d.sum Vector3d.default
  generalize (Component.default : C) = d
  suffices h : ∀ (l : List (Vector3d C)) (p q r : C), Comp3 (l.foldlM Vector3d.add ⟨p, q, r⟩)
      (l.foldlM (fun acc v => Component.add acc v.x) p) (l.foldlM (fun acc v => Component.add acc v.y) q)
      (l.foldlM (fun acc v => Component.add acc v.z) r) from h l d d d
  intro l
  induction l with
  | nil =>
    intro p q r
    constructor
    · rintro ⟨cx, cy, cz⟩; simp [pure, Except.pure]
    · simp [Fails, pure, Except.pure]
  | cons v l ih =>
    intro p q r
    rw [List.foldlM_cons, List.foldlM_cons, List.foldlM_cons, List.foldlM_cons, Vector3d.add]
    rcases hx : Component.add p v.x with e | x
    · constructor
      · rintro ⟨cx, cy, cz⟩
        simp [Bind.bind, Except.bind]
      · simp [Fails, Bind.bind, Except.bind]
    · rcases hy : Component.add q v.y with e | y
      · constructor
        · rintro ⟨cx, cy, cz⟩
          simp [Bind.bind, Except.bind]
        · simp [Fails, Bind.bind, Except.bind]
      · rcases hz : Component.add r v.z with e | z
        · constructor
          · rintro ⟨cx, cy, cz⟩
            simp [Bind.bind, Except.bind]
          · simp [Fails, Bind.bind, Except.bind]
        · exact ih x y z

theorem foldlM_wrap [Cfg] {s : Bool} {w : Nat} (hw : 0 < w) (hc : Cfg.overflowChecks = false) {V : Type} (f : V → MInt s w)
    (l : List V) (d : Int) :
    l.foldlM (fun acc v => (MInt.chk (acc.toInt + (f v).toInt) : Res (MInt s w))) (MInt.wrap d)
      = .ok (MInt.wrap (d + (l.map (fun v => (f v).toInt)).sum)) := by
  induction l generalizing d with
  | nil => simp; rfl
  | cons v l ih =>
    rw [List.foldlM_cons, (chk_spec hw _).2.2 hc, ok_bind]
    have : (MInt.wrap ((MInt.wrap d : MInt s w).toInt + (f v).toInt) : MInt s w) = MInt.wrap (d + (f v).toInt) := by
      rw [wrap_eq_iff]; exact (wrap_mod d).add_right _
    rw [this, ih, List.map_cons, List.sum_cons, ← add_assoc]

/-- **C60.** Without overflow checks an integer vector sum always returns, is the componentwise sum modulo `2^w`,
and does not depend on the order of the items. -/
theorem C60_sum_order [Cfg] {s : Bool} {w : Nat} (hw : 0 < w) (hc : Cfg.overflowChecks = false)
    (l l' : List (Vector2d (MInt s w))) (m m' : List (Vector3d (MInt s w))) (hl : l.Perm l') (hm : m.Perm m') :
    (∃ c, Vector2d.sum l = .ok c ∧ Vector2d.sum l' = .ok c ∧
      c.x.toInt ≡ (l.map (·.x.toInt)).sum [ZMOD 2 ^ w] ∧ c.y.toInt ≡ (l.map (·.y.toInt)).sum [ZMOD 2 ^ w]) ∧
    (∃ c, Vector3d.sum m = .ok c ∧ Vector3d.sum m' = .ok c ∧
      c.x.toInt ≡ (m.map (·.x.toInt)).sum [ZMOD 2 ^ w] ∧ c.y.toInt ≡ (m.map (·.y.toInt)).sum [ZMOD 2 ^ w] ∧
      c.z.toInt ≡ (m.map (·.z.toInt)).sum [ZMOD 2 ^ w]) := by
  have f2 : ∀ (l : List (Vector2d (MInt s w))), Vector2d.sum l =
      .ok ⟨MInt.wrap ((l.map (·.x.toInt)).sum), MInt.wrap ((l.map (·.y.toInt)).sum)⟩ := by
    intro l
    refine (C60_sum2 l).1 _ |>.2 ⟨?_, ?_⟩
    · have := foldlM_wrap (s := s) hw hc (fun v : Vector2d (MInt s w) => v.x) l 0
      rw [zero_add] at this; exact this
    · have := foldlM_wrap (s := s) hw hc (fun v : Vector2d (MInt s w) => v.y) l 0
      rw [zero_add] at this; exact this
  have f3 : ∀ (l : List (Vector3d (MInt s w))), Vector3d.sum l =
      .ok ⟨MInt.wrap ((l.map (·.x.toInt)).sum), MInt.wrap ((l.map (·.y.toInt)).sum), MInt.wrap ((l.map (·.z.toInt)).sum)⟩ := by
    intro l
    refine (C60_sum3 l).1 _ |>.2 ⟨?_, ?_, ?_⟩
    · have := foldlM_wrap (s := s) hw hc (fun v : Vector3d (MInt s w) => v.x) l 0
      rw [zero_add] at this; exact this
    · have := foldlM_wrap (s := s) hw hc (fun v : Vector3d (MInt s w) => v.y) l 0
      rw [zero_add] at this; exact this
    · have := foldlM_wrap (s := s) hw hc (fun v : Vector3d (MInt s w) => v.z) l 0
      rw [zero_add] at this; exact this
  constructor
  · refine ⟨_, f2 l, ?_, wrap_mod _, wrap_mod _⟩
    rw [f2 l', (hl.map (·.x.toInt)).sum_eq, (hl.map (·.y.toInt)).sum_eq]
  · refine ⟨_, f3 m, ?_, wrap_mod _, wrap_mod _, wrap_mod _⟩
    rw [f3 m', (hm.map (·.x.toInt)).sum_eq, (hm.map (·.y.toInt)).sum_eq, (hm.map (·.z.toInt)).sum_eq]

/-! ### C61: conversions between vector types -/

/-- **C61.** Converting `I8xN`, `I16xN`, `U8xN`, `U16xN` to `F32xN` keeps every component exactly. -/
theorem C61_to_float :
    (∀ v : Vector2d I8, IsVal v.toF32x2.x v.x.toInt ∧ IsVal v.toF32x2.y v.y.toInt) ∧
    (∀ v : Vector2d I16, IsVal v.toF32x2.x v.x.toInt ∧ IsVal v.toF32x2.y v.y.toInt) ∧
    (∀ v : Vector2d U8, IsVal v.toF32x2.x v.x.toInt ∧ IsVal v.toF32x2.y v.y.toInt) ∧
    (∀ v : Vector2d U16, IsVal v.toF32x2.x v.x.toInt ∧ IsVal v.toF32x2.y v.y.toInt) ∧
    (∀ v : Vector3d I8, IsVal v.toF32x3.x v.x.toInt ∧ IsVal v.toF32x3.y v.y.toInt ∧ IsVal v.toF32x3.z v.z.toInt) ∧
    (∀ v : Vector3d I16, IsVal v.toF32x3.x v.x.toInt ∧ IsVal v.toF32x3.y v.y.toInt ∧ IsVal v.toF32x3.z v.z.toInt) ∧
    (∀ v : Vector3d U8, IsVal v.toF32x3.x v.x.toInt ∧ IsVal v.toF32x3.y v.y.toInt ∧ IsVal v.toF32x3.z v.z.toInt) ∧
    (∀ v : Vector3d U16, IsVal v.toF32x3.x v.x.toInt ∧ IsVal v.toF32x3.y v.y.toInt ∧ IsVal v.toF32x3.z v.z.toInt) := by
  obtain ⟨h1, h2, h3, h4⟩ := C48_from_int_exact
  exact ⟨fun v => ⟨h1 _, h1 _⟩, fun v => ⟨h2 _, h2 _⟩, fun v => ⟨h3 _, h3 _⟩, fun v => ⟨h4 _, h4 _⟩,
    fun v => ⟨h1 _, h1 _, h1 _⟩, fun v => ⟨h2 _, h2 _, h2 _⟩, fun v => ⟨h3 _, h3 _, h3 _⟩, fun v => ⟨h4 _, h4 _, h4 _⟩⟩

/-- **C61.** `Vector3d::from(Vector2d)` keeps `x` and `y` and sets `z` to zero. -/
theorem C61_from_2d [Cfg] {s : Bool} {w : Nat} (hw : 0 < w) (v : Vector2d (MInt s w)) (f : Vector2d F32) :
    ((Vector3d.ofVector2d v).x = v.x ∧ (Vector3d.ofVector2d v).y = v.y ∧ (Vector3d.ofVector2d v).z.toInt = 0) ∧
    ((Vector3d.ofVector2d f).x = f.x ∧ (Vector3d.ofVector2d f).y = f.y ∧ IsVal (Vector3d.ofVector2d f).z 0) := by
  refine ⟨⟨rfl, rfl, ?_⟩, rfl, rfl, ?_⟩
  · apply wrap_exact hw
    unfold MInt.InRange; split <;> simp
  · exact ⟨by show posZero.isFinite = true; decide, by
      show posZero.val = 0
      rw [val_of_units (u := 0) (by decide +kernel)]; norm_num⟩

end Micromath.Props
