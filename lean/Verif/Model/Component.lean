import Verif.Model.Extras

/-!
# Machine integers and the `Component` trait (`src/vector/component.rs`)
-/

namespace Micromath

/-- A Rust integer type: `MInt true 8 = i8`, ..., `MInt false 32 = u32`. -/
@[ext] structure MInt (signed : Bool) (w : Nat) where
  bits : BitVec w
deriving DecidableEq

namespace MInt
variable {s : Bool} {w : Nat}

/-- Mathematical value. -/
def toInt (x : MInt s w) : Int := if s then x.bits.toInt else x.bits.toNat

/-- Values representable in the type. -/
def InRange (s : Bool) (w : Nat) (v : Int) : Prop :=
  if s then -2 ^ (w - 1) ≤ v ∧ v < 2 ^ (w - 1) else 0 ≤ v ∧ v < 2 ^ w

instance (v : Int) : Decidable (InRange s w v) := by unfold InRange; infer_instance

/-- Two's complement truncation of `v`. -/
def wrap (v : Int) : MInt s w := ⟨BitVec.ofInt w v⟩

/-- Result of `+`, `-`, `*`: exact if representable, else panic or wrap depending on the build. -/
def chk [Cfg] (v : Int) : Res (MInt s w) :=
  if InRange s w v then .ok (wrap v)
  else if Cfg.overflowChecks then .error .overflow else .ok (wrap v)

/-- Rust integer division: truncates; division by zero and `MIN / -1` always panic. -/
def div (x y : MInt s w) : Res (MInt s w) :=
  if y.toInt = 0 then .error .divByZero
  else if InRange s w (x.toInt.tdiv y.toInt) then .ok (wrap (x.toInt.tdiv y.toInt))
  else .error .overflow

end MInt

/-- `i8`, `i16`, `i32`, `u8`, `u16`, `u32`. -/
abbrev I8 := MInt true 8
@[inherit_doc I8] abbrev I16 := MInt true 16
@[inherit_doc I8] abbrev I32 := MInt true 32
@[inherit_doc I8] abbrev U8 := MInt false 8
@[inherit_doc I8] abbrev U16 := MInt false 16
@[inherit_doc I8] abbrev U32 := MInt false 32

/-- `trait Component`: src/vector/component.rs:20-34.  The arithmetic may panic, hence `Res`.
`sumStart` is the start value of `core::iter::Sum` for the type (used by `magnitude_sq`). -/
class Component (C : Type) [Cfg] where
  add : C → C → Res C
  sub : C → C → Res C
  mul : C → C → Res C
  div : C → C → Res C
  default : C
  eq : C → C → Bool
  sumStart : C

/-- `impl Component for i8 .. u32`: src/vector/component.rs:36-41. -/
instance [Cfg] (s : Bool) (w : Nat) : Component (MInt s w) where
  add x y := MInt.chk (x.toInt + y.toInt)
  sub x y := MInt.chk (x.toInt - y.toInt)
  mul x y := MInt.chk (x.toInt * y.toInt)
  div x y := x.div y
  default := MInt.wrap 0
  eq x y := decide (x = y)
  sumStart := MInt.wrap 0

/-- `impl Component for f32` and `for F32`: src/vector/component.rs:42-43.  Float arithmetic never panics;
`Default` is `0.0`. -/
instance [Cfg] : Component F32 where
  add x y := .ok (x + y)
  sub x y := .ok (x - y)
  mul x y := .ok (x * y)
  div x y := .ok (x / y)
  default := F32.posZero
  eq x y := x.feq y
  sumStart := Cfg.sumZero

/-- `Into<f32>` for a component type. -/
class IntoF32 (C : Type) where
  into : C → F32

/-- `f32: From<i8>` etc. (core) and `F32: From<i8>` etc.: src/float.rs:355-381. -/
instance : IntoF32 I8 := ⟨fun x => F32.ofInt x.toInt⟩
@[inherit_doc instIntoF32I8] instance : IntoF32 I16 := ⟨fun x => F32.ofInt x.toInt⟩
@[inherit_doc instIntoF32I8] instance : IntoF32 U8 := ⟨fun x => F32.ofInt x.toInt⟩
@[inherit_doc instIntoF32I8] instance : IntoF32 U16 := ⟨fun x => F32.ofInt x.toInt⟩
/-- `f32: Into<f32>` (reflexive) and `From<F32> for f32`: src/float.rs:348-353. -/
instance : IntoF32 F32 := ⟨id⟩

end Micromath
