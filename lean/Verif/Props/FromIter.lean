import Verif.Props.Vectors

/-!
# C52: which iterators make `from_iter` panic, and how
-/

namespace Micromath.Props
open F32 Spec

variable [Cfg] {C : Type} [Component C]

/-- **C52.** `from_iter` on any iterator, also one that yields items again after `None`: it succeeds exactly if the first `AXES` calls
of `next` give the components and the call after them gives `None`; it fails in `expect` exactly if one of the first `AXES` calls
gives `None`; it fails in `assert!` exactly if there is one item too many. -/
theorem C52_from_iter (it : Calls C) :
    (∀ v : Vector2d C, VectorTrait.fromIter it = .ok v ↔ it 0 = some v.x ∧ it 1 = some v.y ∧ it 2 = none) ∧
    ((VectorTrait.fromIter it : Res (Vector2d C)) = .error .expectNone ↔ it 0 = none ∨ it 1 = none) ∧
    ((VectorTrait.fromIter it : Res (Vector2d C)) = .error .assertFailed ↔ ∀ i ≤ 2, it i ≠ none) ∧
    (∀ u : Vector3d C, VectorTrait.fromIter it = .ok u ↔ it 0 = some u.x ∧ it 1 = some u.y ∧ it 2 = some u.z ∧ it 3 = none) ∧
    ((VectorTrait.fromIter it : Res (Vector3d C)) = .error .expectNone ↔ it 0 = none ∨ it 1 = none ∨ it 2 = none) ∧
    ((VectorTrait.fromIter it : Res (Vector3d C)) = .error .assertFailed ↔ ∀ i ≤ 3, it i ≠ none) := by
  have q2 : (∀ i ≤ 2, it i ≠ none) ↔ it 0 ≠ none ∧ it 1 ≠ none ∧ it 2 ≠ none :=
    ⟨fun h => ⟨h 0 (by omega), h 1 (by omega), h 2 (by omega)⟩, fun ⟨a, b, c⟩ i hi => by
      interval_cases i <;> assumption⟩
  have q3 : (∀ i ≤ 3, it i ≠ none) ↔ it 0 ≠ none ∧ it 1 ≠ none ∧ it 2 ≠ none ∧ it 3 ≠ none :=
    ⟨fun h => ⟨h 0 (by omega), h 1 (by omega), h 2 (by omega), h 3 (by omega)⟩, fun ⟨a, b, c, d⟩ i hi => by
      interval_cases i <;> assumption⟩
  rw [q2, q3]
  refine ⟨?_, ?_, ?_, ?_, ?_, ?_⟩
  · rintro ⟨x, y⟩
    rcases h0 : it 0 with _ | a <;> rcases h1 : it 1 with _ | b <;> rcases h2 : it 2 with _ | c <;>
      simp [VectorTrait.fromIter, Vector2d.fromIter, expect, Bind.bind, Except.bind, h0, h1, h2]
  · rcases h0 : it 0 with _ | a <;> rcases h1 : it 1 with _ | b <;> rcases h2 : it 2 with _ | c <;>
      simp [VectorTrait.fromIter, Vector2d.fromIter, expect, Bind.bind, Except.bind, h0, h1, h2]
  · rcases h0 : it 0 with _ | a <;> rcases h1 : it 1 with _ | b <;> rcases h2 : it 2 with _ | c <;>
      simp [VectorTrait.fromIter, Vector2d.fromIter, expect, Bind.bind, Except.bind, h0, h1, h2]
  · rintro ⟨x, y, z⟩
    rcases h0 : it 0 with _ | a <;> rcases h1 : it 1 with _ | b <;> rcases h2 : it 2 with _ | c <;>
      rcases h3 : it 3 with _ | d <;>
      simp [VectorTrait.fromIter, Vector3d.fromIter, expect, Bind.bind, Except.bind, h0, h1, h2, h3]
  · rcases h0 : it 0 with _ | a <;> rcases h1 : it 1 with _ | b <;> rcases h2 : it 2 with _ | c <;>
      rcases h3 : it 3 with _ | d <;>
      simp [VectorTrait.fromIter, Vector3d.fromIter, expect, Bind.bind, Except.bind, h0, h1, h2, h3]
  · rcases h0 : it 0 with _ | a <;> rcases h1 : it 1 with _ | b <;> rcases h2 : it 2 with _ | c <;>
      rcases h3 : it 3 with _ | d <;>
      simp [VectorTrait.fromIter, Vector3d.fromIter, expect, Bind.bind, Except.bind, h0, h1, h2, h3]

/-- A slice of one item fails in `expect`, one of four items in `assert!`. -/
example : (VectorTrait.fromSlice [⟨3#8⟩] : Res (Vector2d U8)) = .error .expectNone ∧
    (VectorTrait.fromSlice [⟨1#8⟩, ⟨2#8⟩, ⟨3#8⟩, ⟨4#8⟩] : Res (Vector3d U8)) = .error .assertFailed :=
  ⟨(C52_from_iter _).2.1.2 (.inr rfl), (C52_from_iter _).2.2.2.2.2.2 (fun i hi => by interval_cases i <;> simp)⟩

end Micromath.Props
