import Verif.Model.Component

/-!
# Model of `src/vector.rs` and `src/vector/*.rs`
-/

namespace Micromath

/-- `Vector2d`: src/vector/vector2d.rs:44-50. -/
@[ext] structure Vector2d (C : Type) where
  x : C
  y : C
deriving DecidableEq

/-- `Vector3d`: src/vector/vector3d.rs:43-52. -/
@[ext] structure Vector3d (C : Type) where
  x : C
  y : C
  z : C
deriving DecidableEq

/-- An arbitrary iterator, described by what its `i`-th `next()` call returns (not necessarily fused). -/
abbrev Calls (C : Type) := Nat → Option C

/-- `Option::expect`. -/
def expect {C : Type} : Option C → Res C
  | some c => .ok c
  | none => .error .expectNone

/-- Required items of `trait Vector`: src/vector.rs:25-36. -/
class VectorTrait (V : Type) (C : outParam Type) [Cfg] where
  /-- `AXES`: src/vector.rs:30 -/
  axes : Nat
  /-- `get`: src/vector.rs:33 -/
  get : V → Nat → Option C
  /-- `dot`: src/vector.rs:36 -/
  dot : V → V → Res C
  /-- `FromIterator`: supertrait, src/vector.rs:25 -/
  fromIter : Calls C → Res V

/-- `Iter`: src/vector/iter.rs:8-21. -/
structure Iter (V : Type) where
  vector : V
  position : Nat

section
variable [Cfg] {V C : Type} [VectorTrait V C]

/-- `Iter::new`: src/vector/iter.rs:29-35; `Vector::iter`: src/vector.rs:46-48. -/
def VectorTrait.iter (v : V) : Iter V := ⟨v, 0⟩

/-- `Iter::next`: src/vector/iter.rs:45-53.  (`position` stays at most `AXES`, so `+= 1` cannot overflow.) -/
def Iter.next (it : Iter V) : Option C × Iter V :=
  let item := VectorTrait.get it.vector it.position
  if item.isSome then (item, { it with position := it.position + 1 }) else (item, it)

/-- The state after `n` calls of `next`. -/
def Iter.advance (it : Iter V) : Nat → Iter V
  | 0 => it
  | n + 1 => Iter.advance it.next.2 n

/-- The iterator as the sequence of results of its `next` calls. -/
def Iter.calls (it : Iter V) : Calls C := fun i => (it.advance i).next.1

/-- All items of an iterator: call `next` until it returns `None`, at most `fuel` times. -/
def Iter.collect : Nat → Iter V → List C
  | 0, _ => []
  | fuel + 1, it =>
    match it.next with
    | (some c, it') => c :: Iter.collect fuel it'
    | (none, _) => []

/-- Items of `v.iter()`, as consumed by the iterator adaptors in src/vector.rs
(`AXES + 1` calls reach the first `None`). -/
def VectorTrait.items (v : V) : List C := (VectorTrait.iter v).collect (VectorTrait.axes V + 1)

/-- `from_slice`: src/vector.rs:41-43. -/
def VectorTrait.fromSlice (slice : List C) : Res V := VectorTrait.fromIter (fun i => slice[i]?)

/-- `distance`: src/vector.rs:51-61 (`sqrt` is `F32Ext::sqrt`). -/
def VectorTrait.distance [IntoF32 C] (self rhs : V) : F32 :=
  let differences := ((VectorTrait.items self).zip (VectorTrait.items rhs)).map
    (fun (ab : C × C) => IntoF32.into ab.1 - IntoF32.into ab.2)
  F32Ext.sqrt (F32.sum (differences.map (fun n => n * n)))

/-- `magnitude_sq`: src/vector.rs:64-69. -/
def VectorTrait.magnitudeSq [Component C] (self : V) : Res C :=
  (VectorTrait.items self).foldlM
    (fun acc n => do let sq ← Component.mul n n; Component.add acc sq) Component.sumStart

/-- `magnitude`: src/vector.rs:72-83. -/
def VectorTrait.magnitude [IntoF32 C] (self : V) : F32 :=
  F32Ext.sqrt (F32.sum ((VectorTrait.items self).map
    (fun (n : C) => let n := IntoF32.into n; n * n)))

/-- `map`: src/vector.rs:97-102. -/
def VectorTrait.map (self : V) (f : C → C) : Res V :=
  VectorTrait.fromIter (fun i => ((VectorTrait.iter self).calls i).map f)

end

/-- `normalized`: src/vector.rs:86-93 (`C: Into<f32> + From<f32>` holds for `f32` and `F32` only). -/
def VectorTrait.normalized [Cfg] {V : Type} [VectorTrait V F32] (self : V) : Res V :=
  let norm := VectorTrait.magnitude self
  VectorTrait.map self (fun n => n / norm)

/-! ## `src/vector/vector2d.rs` -/

namespace Vector2d
variable [Cfg] {C : Type}

/-- `to_array`: src/vector/vector2d.rs:58-60 (an array `[C; n]` is modelled as a function on `Fin n`). -/
def toArray (v : Vector2d C) : Fin 2 → C
  | 0 => v.x
  | 1 => v.y

/-- `dot`: src/vector/vector2d.rs:63-65. -/
def dot [Component C] (self rhs : Vector2d C) : Res C := do
  let a ← Component.mul self.x rhs.x
  let b ← Component.mul self.y rhs.y
  Component.add a b

/-- `perpendicular_dot`: src/vector/vector2d.rs:75-77. -/
def perpendicularDot [Component C] (self rhs : Vector2d C) : Res C := do
  let a ← Component.mul self.x rhs.y
  let b ← Component.mul self.y rhs.x
  Component.sub a b

/-- `from_iter`: src/vector/vector2d.rs:92-107. -/
def fromIter (it : Calls C) : Res (Vector2d C) := do
  let x ← expect (it 0)
  let y ← expect (it 1)
  if (it 2).isNone then .ok ⟨x, y⟩ else .error .assertFailed

/-- `get`: src/vector/vector2d.rs:116-122. -/
def get (self : Vector2d C) (index : Nat) : Option C :=
  match index with
  | 0 => some self.x
  | 1 => some self.y
  | _ => none

/-- `impl Vector for Vector2d`: src/vector/vector2d.rs:110-127. -/
instance [Component C] : VectorTrait (Vector2d C) C where
  axes := 2
  get := get
  dot := dot
  fromIter := fromIter

/-- `From<(C, C)>`: src/vector/vector2d.rs:133-138. -/
def ofTuple (t : C × C) : Vector2d C := ⟨t.1, t.2⟩
/-- `From<Vector2d<C>> for (C, C)`: src/vector/vector2d.rs:145-147. -/
def toTuple (v : Vector2d C) : C × C := (v.x, v.y)
/-- `From<[C; 2]>`: src/vector/vector2d.rs:154-159. -/
def ofArray (a : Fin 2 → C) : Vector2d C := ⟨a 0, a 1⟩
/-- `From<Vector2d<C>> for [C; 2]`: src/vector/vector2d.rs:166-168. -/
def intoArray (v : Vector2d C) : Fin 2 → C := v.toArray

/-- `Index`: src/vector/vector2d.rs:177-183. -/
def index (self : Vector2d C) (i : Nat) : Res C :=
  match i with
  | 0 => .ok self.x
  | 1 => .ok self.y
  | _ => .error .outOfRange

variable [Component C]

/-- `Default` (derived): src/vector/vector2d.rs:43. -/
def default : Vector2d C := ⟨Component.default, Component.default⟩
/-- `PartialEq` (derived): src/vector/vector2d.rs:43. -/
def eq (self rhs : Vector2d C) : Bool := Component.eq self.x rhs.x && Component.eq self.y rhs.y

/-- `Add`: src/vector/vector2d.rs:192-197 (and `AddAssign`: 204-206). -/
def add (self rhs : Vector2d C) : Res (Vector2d C) := do
  let x ← Component.add self.x rhs.x
  let y ← Component.add self.y rhs.y
  .ok ⟨x, y⟩

/-- `Sub`: src/vector/vector2d.rs:215-220 (and `SubAssign`: 227-229). -/
def sub (self rhs : Vector2d C) : Res (Vector2d C) := do
  let x ← Component.sub self.x rhs.x
  let y ← Component.sub self.y rhs.y
  .ok ⟨x, y⟩

/-- `Mul<C>`: src/vector/vector2d.rs:238-243 (and `MulAssign`: 261-263). -/
def mulScalar (self : Vector2d C) (rhs : C) : Res (Vector2d C) := do
  let x ← Component.mul self.x rhs
  let y ← Component.mul self.y rhs
  .ok ⟨x, y⟩

/-- `Mul<Vector2d<C>> for C`: src/vector/commutative.rs:4-10. -/
def scalarMul (self : C) (rhs : Vector2d C) : Res (Vector2d C) := rhs.mulScalar self

/-- `Div<C>`: src/vector/vector2d.rs:272-277. -/
def divScalar (self : Vector2d C) (rhs : C) : Res (Vector2d C) := do
  let x ← Component.div self.x rhs
  let y ← Component.div self.y rhs
  .ok ⟨x, y⟩

/-- `DivAssign<C>`: src/vector/vector2d.rs:284-287. -/
def divAssign (self : Vector2d C) (rhs : C) : Res (Vector2d C) := do
  let x ← Component.div self.x rhs
  let self := { self with x := x }
  let y ← Component.div self.y rhs
  .ok { self with y := y }

/-- `Sum`: src/vector/vector2d.rs:308-310 (and by reference: 331-333). -/
def sum (l : List (Vector2d C)) : Res (Vector2d C) := l.foldlM add default

omit [Cfg] [Component C]

/-- `From<I8x2> / From<I16x2> / From<U8x2> / From<U16x2> for F32x2`: src/vector/vector2d.rs:336-370. -/
def toF32x2 [IntoF32 C] (v : Vector2d C) : Vector2d F32 := ⟨IntoF32.into v.x, IntoF32.into v.y⟩

end Vector2d

/-! ## `src/vector/vector3d.rs` -/

namespace Vector3d
variable [Cfg] {C : Type}

/-- `to_array`: src/vector/vector3d.rs:60-62. -/
def toArray (v : Vector3d C) : Fin 3 → C
  | 0 => v.x
  | 1 => v.y
  | 2 => v.z

/-- `dot`: src/vector/vector3d.rs:65-67, and the trait method: 117-119. -/
def dot [Component C] (self rhs : Vector3d C) : Res C := do
  let a ← Component.mul self.x rhs.x
  let b ← Component.mul self.y rhs.y
  let ab ← Component.add a b
  let c ← Component.mul self.z rhs.z
  Component.add ab c

/-- `cross`: src/vector/vector3d.rs:70-76. -/
def cross [Component C] (self rhs : Vector3d C) : Res (Vector3d C) := do
  let x1 ← Component.mul self.y rhs.z
  let x2 ← Component.mul self.z rhs.y
  let x ← Component.sub x1 x2
  let y1 ← Component.mul self.z rhs.x
  let y2 ← Component.mul self.x rhs.z
  let y ← Component.sub y1 y2
  let z1 ← Component.mul self.x rhs.y
  let z2 ← Component.mul self.y rhs.x
  let z ← Component.sub z1 z2
  .ok ⟨x, y, z⟩

/-- `Mul for Vector3d`: src/vector/vector3d.rs:251-253. -/
def mulVec [Component C] (self rhs : Vector3d C) : Res (Vector3d C) := self.cross rhs

/-- `from_iter`: src/vector/vector3d.rs:83-99. -/
def fromIter (it : Calls C) : Res (Vector3d C) := do
  let x ← expect (it 0)
  let y ← expect (it 1)
  let z ← expect (it 2)
  if (it 3).isNone then .ok ⟨x, y, z⟩ else .error .assertFailed

/-- `get`: src/vector/vector3d.rs:108-115. -/
def get (self : Vector3d C) (index : Nat) : Option C :=
  match index with
  | 0 => some self.x
  | 1 => some self.y
  | 2 => some self.z
  | _ => none

/-- `impl Vector for Vector3d`: src/vector/vector3d.rs:102-120. -/
instance [Component C] : VectorTrait (Vector3d C) C where
  axes := 3
  get := get
  dot := dot
  fromIter := fromIter

/-- `From<Vector2d<C>>`: src/vector/vector3d.rs:126-133. -/
def ofVector2d [Component C] (v : Vector2d C) : Vector3d C := ⟨v.x, v.y, Component.default⟩
/-- `From<(C, C, C)>`: src/vector/vector3d.rs:140-146. -/
def ofTuple (t : C × C × C) : Vector3d C := ⟨t.1, t.2.1, t.2.2⟩
/-- `From<Vector3d<C>> for (C, C, C)`: src/vector/vector3d.rs:153-155. -/
def toTuple (v : Vector3d C) : C × C × C := (v.x, v.y, v.z)
/-- `From<[C; 3]>`: src/vector/vector3d.rs:162-168. -/
def ofArray (a : Fin 3 → C) : Vector3d C := ⟨a 0, a 1, a 2⟩
/-- `From<Vector3d<C>> for [C; 3]`: src/vector/vector3d.rs:175-177. -/
def intoArray (v : Vector3d C) : Fin 3 → C := v.toArray

/-- `Index`: src/vector/vector3d.rs:186-193. -/
def index (self : Vector3d C) (i : Nat) : Res C :=
  match i with
  | 0 => .ok self.x
  | 1 => .ok self.y
  | 2 => .ok self.z
  | _ => .error .outOfRange

variable [Component C]

/-- `Default` (derived): src/vector/vector3d.rs:42. -/
def default : Vector3d C := ⟨Component.default, Component.default, Component.default⟩
/-- `PartialEq` (derived): src/vector/vector3d.rs:42. -/
def eq (self rhs : Vector3d C) : Bool :=
  Component.eq self.x rhs.x && Component.eq self.y rhs.y && Component.eq self.z rhs.z

/-- `Add`: src/vector/vector3d.rs:202-208 (and `AddAssign`: 215-217). -/
def add (self rhs : Vector3d C) : Res (Vector3d C) := do
  let x ← Component.add self.x rhs.x
  let y ← Component.add self.y rhs.y
  let z ← Component.add self.z rhs.z
  .ok ⟨x, y, z⟩

/-- `Sub`: src/vector/vector3d.rs:226-232 (and `SubAssign`: 239-241). -/
def sub (self rhs : Vector3d C) : Res (Vector3d C) := do
  let x ← Component.sub self.x rhs.x
  let y ← Component.sub self.y rhs.y
  let z ← Component.sub self.z rhs.z
  .ok ⟨x, y, z⟩

/-- `Mul<C>`: src/vector/vector3d.rs:263-269 (and `MulAssign`: 276-278). -/
def mulScalar (self : Vector3d C) (rhs : C) : Res (Vector3d C) := do
  let x ← Component.mul self.x rhs
  let y ← Component.mul self.y rhs
  let z ← Component.mul self.z rhs
  .ok ⟨x, y, z⟩

/-- `Mul<Vector3d<C>> for C`: src/vector/commutative.rs:4-10. -/
def scalarMul (self : C) (rhs : Vector3d C) : Res (Vector3d C) := rhs.mulScalar self

/-- `Div<C>`: src/vector/vector3d.rs:287-293. -/
def divScalar (self : Vector3d C) (rhs : C) : Res (Vector3d C) := do
  let x ← Component.div self.x rhs
  let y ← Component.div self.y rhs
  let z ← Component.div self.z rhs
  .ok ⟨x, y, z⟩

/-- `DivAssign<C>`: src/vector/vector3d.rs:300-304. -/
def divAssign (self : Vector3d C) (rhs : C) : Res (Vector3d C) := do
  let x ← Component.div self.x rhs
  let self := { self with x := x }
  let y ← Component.div self.y rhs
  let self := { self with y := y }
  let z ← Component.div self.z rhs
  .ok { self with z := z }

/-- `Sum`: src/vector/vector3d.rs:326-328 (and by reference: 350-352). -/
def sum (l : List (Vector3d C)) : Res (Vector3d C) := l.foldlM add default

omit [Cfg] [Component C]

/-- `From<I8x3> / From<I16x3> / From<U8x3> / From<U16x3> for F32x3`: src/vector/vector3d.rs:355-393. -/
def toF32x3 [IntoF32 C] (v : Vector3d C) : Vector3d F32 :=
  ⟨IntoF32.into v.x, IntoF32.into v.y, IntoF32.into v.z⟩

end Vector3d

/-- `Vector2d::cross`: src/vector/vector2d.rs:83-85. -/
def Vector2d.cross [Cfg] {C : Type} [Component C] (self rhs : Vector2d C) : Res (Vector3d C) :=
  (Vector3d.ofVector2d self).cross (Vector3d.ofVector2d rhs)

/-- `Mul<Vector2d<C>> for Vector2d`: src/vector/vector2d.rs:252-254. -/
def Vector2d.mulVec [Cfg] {C : Type} [Component C] (self rhs : Vector2d C) : Res (Vector3d C) := self.cross rhs

end Micromath
