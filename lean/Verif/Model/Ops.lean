import Verif.Model.Extras

/-!
# Model of the operator impls of `src/float.rs`, with the newtype kept apart from `f32`

Elsewhere in the model the newtype `F32` and the primitive `f32` are one type. Here they are two: `F32` stands for the primitive
`f32` and `Newtype` for `pub struct F32(pub f32)` (src/float.rs:67-68), so that each impl is written down as it stands.
`&mut self` operators return the new value of `*self`.
-/

namespace Micromath

/-- `pub struct F32(pub f32)`: src/float.rs:68. -/
@[ext] structure Newtype where
  /-- `self.0` -/
  inner : F32
deriving DecidableEq

namespace Newtype
open F32
variable [Cfg]

/-- `impl Add for F32`: src/float.rs:238-245. -/
def add (x y : Newtype) : Newtype := ⟨x.inner + y.inner⟩
/-- `impl Add<f32> for F32`: src/float.rs:247-254. -/
def addF (x : Newtype) (y : F32) : Newtype := ⟨x.inner + y⟩
/-- `impl Add<F32> for f32`: src/float.rs:256-263. -/
def fAdd (x : F32) (y : Newtype) : Newtype := ⟨x + y.inner⟩
/-- `impl AddAssign for F32`: src/float.rs:265-270. -/
def addAssign (x y : Newtype) : Newtype := { x with inner := x.inner + y.inner }
/-- `impl AddAssign<f32> for F32`: src/float.rs:272-277. -/
def addAssignF (x : Newtype) (y : F32) : Newtype := { x with inner := x.inner + y }
/-- `impl AddAssign<F32> for f32`: src/float.rs:279-284. -/
def fAddAssign (x : F32) (y : Newtype) : F32 := x + y.inner
/-- `impl Sub for F32`: src/float.rs:531-538. -/
def sub (x y : Newtype) : Newtype := ⟨x.inner - y.inner⟩
/-- `impl Sub<f32> for F32`: src/float.rs:540-547. -/
def subF (x : Newtype) (y : F32) : Newtype := ⟨x.inner - y⟩
/-- `impl Sub<F32> for f32`: src/float.rs:549-556. -/
def fSub (x : F32) (y : Newtype) : Newtype := ⟨x - y.inner⟩
/-- `impl SubAssign for F32`: src/float.rs:558-563. -/
def subAssign (x y : Newtype) : Newtype := { x with inner := x.inner - y.inner }
/-- `impl SubAssign<f32> for F32`: src/float.rs:565-570. -/
def subAssignF (x : Newtype) (y : F32) : Newtype := { x with inner := x.inner - y }
/-- `impl SubAssign<F32> for f32`: src/float.rs:572-577. -/
def fSubAssign (x : F32) (y : Newtype) : F32 := x - y.inner
/-- `impl Mul for F32`: src/float.rs:399-406. -/
def mul (x y : Newtype) : Newtype := ⟨x.inner * y.inner⟩
/-- `impl Mul<f32> for F32`: src/float.rs:408-415. -/
def mulF (x : Newtype) (y : F32) : Newtype := ⟨x.inner * y⟩
/-- `impl Mul<F32> for f32`: src/float.rs:417-424. -/
def fMul (x : F32) (y : Newtype) : Newtype := ⟨x * y.inner⟩
/-- `impl MulAssign for F32`: src/float.rs:426-431. -/
def mulAssign (x y : Newtype) : Newtype := { x with inner := x.inner * y.inner }
/-- `impl MulAssign<f32> for F32`: src/float.rs:433-438. -/
def mulAssignF (x : Newtype) (y : F32) : Newtype := { x with inner := x.inner * y }
/-- `impl MulAssign<F32> for f32`: src/float.rs:440-445. -/
def fMulAssign (x : F32) (y : Newtype) : F32 := x * y.inner
/-- `impl Div for F32`: src/float.rs:293-300. -/
def div (x y : Newtype) : Newtype := ⟨x.inner / y.inner⟩
/-- `impl Div<f32> for F32`: src/float.rs:302-309. -/
def divF (x : Newtype) (y : F32) : Newtype := ⟨x.inner / y⟩
/-- `impl Div<F32> for f32`: src/float.rs:311-318. -/
def fDiv (x : F32) (y : Newtype) : Newtype := ⟨x / y.inner⟩
/-- `impl DivAssign for F32`: src/float.rs:320-325. -/
def divAssign (x y : Newtype) : Newtype := { x with inner := x.inner / y.inner }
/-- `impl DivAssign<f32> for F32`: src/float.rs:327-332. -/
def divAssignF (x : Newtype) (y : F32) : Newtype := { x with inner := x.inner / y }
/-- `impl DivAssign<F32> for f32`: src/float.rs:334-339. -/
def fDivAssign (x : F32) (y : Newtype) : F32 := x / y.inner
/-- `impl Rem for F32`: src/float.rs:490-497. -/
def rem (x y : Newtype) : Newtype := ⟨x.inner % y.inner⟩
/-- `impl Rem<f32> for F32`: src/float.rs:499-506. -/
def remF (x : Newtype) (y : F32) : Newtype := ⟨x.inner % y⟩
/-- `impl Rem<F32> for f32`: src/float.rs:508-515. -/
def fRem (x : F32) (y : Newtype) : Newtype := ⟨x % y.inner⟩
/-- `impl RemAssign for F32`: src/float.rs:517-522. -/
def remAssign (x y : Newtype) : Newtype := { x with inner := x.inner % y.inner }
/-- `impl RemAssign<f32> for F32`: src/float.rs:524-529. -/
def remAssignF (x : Newtype) (y : F32) : Newtype := { x with inner := x.inner % y }
/-- `impl Sum for F32`: src/float.rs:579-587. -/
def sum (l : List Newtype) : Newtype := ⟨F32.sum (l.map Newtype.inner)⟩
/-- `impl Product for F32`: src/float.rs:480-488. -/
def product (l : List Newtype) : Newtype := ⟨F32.product (l.map Newtype.inner)⟩
omit [Cfg]
/-- `impl Neg for F32`: src/float.rs:447-454. -/
def neg (x : Newtype) : Newtype := ⟨-x.inner⟩
/-- `impl From<f32> for F32`: src/float.rs:341-346. -/
def ofF32 (x : F32) : Newtype := ⟨x⟩
/-- `impl From<F32> for f32`: src/float.rs:348-353. -/
def toF32 (x : Newtype) : F32 := x.inner
/-- derived `PartialEq`: src/float.rs:67. -/
def eq (x y : Newtype) : Bool := x.inner.partialEq y.inner
/-- `impl PartialEq<f32> for F32`: src/float.rs:456-460. -/
def eqF (x : Newtype) (y : F32) : Bool := x.inner.partialEq y
/-- `impl PartialEq<F32> for f32`: src/float.rs:462-466. -/
def fEq (x : F32) (y : Newtype) : Bool := x.partialEq y.inner
/-- derived `PartialOrd`: src/float.rs:67. -/
def partialCmp (x y : Newtype) : Option Ordering := x.inner.partialCmp y.inner
/-- `impl PartialOrd<f32> for F32`: src/float.rs:468-472. -/
def partialCmpF (x : Newtype) (y : F32) : Option Ordering := x.inner.partialCmp y
/-- `impl PartialOrd<F32> for f32`: src/float.rs:474-478. -/
def fPartialCmp (x : F32) (y : Newtype) : Option Ordering := x.partialCmp y.inner
/-- derived `Default`: src/float.rs:67 (`f32::default()` is `0.0`). -/
def default : Newtype := ⟨posZero⟩
end Newtype
end Micromath
