import Verif.Model.Float

/-!
# Model of the remaining trait impls of `src/float.rs` and of `src/f32ext.rs`

`F32` is a newtype around `f32`; both are modelled by `F32`, so wrapping and unwrapping (`F32(x)`, `.0`,
`From<f32> for F32`, `From<F32> for f32`: src/float.rs:341-353) are the identity.
Not modelled: `Debug`/`Display`/`LowerExp`/`UpperExp`/`defmt` formatting and `Num::from_str_radix`.
-/

namespace Micromath
namespace F32
variable [Cfg]

/-- `impl Sum for F32`: src/float.rs:579-587 (forwards to `f32::sum`, a left fold). -/
def sum (l : List F32) : F32 := l.foldl (· + ·) Cfg.sumZero

/-- `impl Product for F32`: src/float.rs:480-488 (forwards to `f32::product`, a left fold from `1.0`). -/
def product (l : List F32) : F32 := l.foldl (· * ·) one

omit [Cfg]

/-- `f32::partial_cmp`, to which `PartialOrd` (derived, and src/float.rs:468-478) forwards. -/
def partialCmp (x y : F32) : Option Ordering :=
  if x.isNaN || y.isNaN then none else some (compare x.key y.key)

/-- `PartialEq::eq` (derived, and src/float.rs:456-466). -/
def partialEq (x y : F32) : Bool := x.feq y

/-- `impl Zero for F32`: src/float.rs:598-606. -/
def zeroNT : F32 := ZERO
/-- `Zero::is_zero`: src/float.rs:603-605. -/
def isZeroNT (x : F32) : Bool := ZERO.partialEq x
/-- `impl One for F32`: src/float.rs:610-618. -/
def oneNT : F32 := ONE
/-- `One::is_one`: src/float.rs:615-617. -/
def isOneNT (x : F32) : Bool := ONE.partialEq x
/-- `impl Inv for F32`: src/float.rs:632-638. -/
def invNT [Cfg] (x : F32) : F32 := x.inv

end F32

/-! `impl F32Ext for f32`: src/f32ext.rs:114-279.  Every method wraps, calls the `F32` method, unwraps. -/
namespace F32Ext
open F32
variable [Cfg]

/-- src/f32ext.rs:116-118 -/
def abs (x : F32) : F32 := F32.abs x
/-- src/f32ext.rs:121-123 -/
def acos (x : F32) : F32 := F32.acos x
/-- src/f32ext.rs:126-128 -/
def asin (x : F32) : Res F32 := F32.asin x
/-- src/f32ext.rs:131-133 -/
def atan (x : F32) : F32 := F32.atan x
/-- src/f32ext.rs:136-138 -/
def atanNorm (x : F32) : F32 := F32.atanNorm x
/-- src/f32ext.rs:141-143 -/
def atan2 (x other : F32) : F32 := F32.atan2 x other
/-- src/f32ext.rs:146-148 -/
def atan2Norm (x other : F32) : F32 := F32.atan2Norm x other
/-- src/f32ext.rs:151-153 -/
def ceil (x : F32) : F32 := F32.ceil x
/-- src/f32ext.rs:156-158 -/
def copysign (x sgn : F32) : F32 := F32.copysign x sgn
/-- src/f32ext.rs:161-163 -/
def cos (x : F32) : F32 := F32.cos x
/-- src/f32ext.rs:166-168 -/
def divEuclid (x other : F32) : F32 := F32.divEuclid x other
/-- src/f32ext.rs:171-173 -/
def exp (x : F32) : Res F32 := F32.exp x
/-- src/f32ext.rs:176-178 -/
def floor (x : F32) : F32 := F32.floor x
/-- src/f32ext.rs:181-183 -/
def fract (x : F32) : F32 := F32.fract x
/-- src/f32ext.rs:186-188 -/
def hypot (x other : F32) : F32 := F32.hypot x other
/-- src/f32ext.rs:191-193 -/
def inv (x : F32) : F32 := F32.inv x
/-- src/f32ext.rs:196-198 -/
def invsqrt (x : F32) : Res F32 := F32.invsqrt x
/-- src/f32ext.rs:201-203 -/
def ln (x : F32) : F32 := F32.ln x
/-- src/f32ext.rs:206-208 -/
def log (x base : F32) : F32 := F32.log x base
/-- src/f32ext.rs:211-213 -/
def log2 (x : F32) : F32 := F32.log2 x
/-- src/f32ext.rs:216-218 -/
def log10 (x : F32) : F32 := F32.log10 x
/-- src/f32ext.rs:221-223 -/
def mulAdd (x a b : F32) : F32 := F32.mulAdd x a b
/-- src/f32ext.rs:226-228 -/
def powf (x n : F32) : Res F32 := F32.powf x n
/-- src/f32ext.rs:231-233 -/
def powi (x : F32) (n : Int) : Res F32 := F32.powi x n
/-- src/f32ext.rs:236-238 -/
def recip (x : F32) : F32 := F32.recip x
/-- src/f32ext.rs:241-243 -/
def remEuclid (x other : F32) : F32 := F32.remEuclid x other
/-- src/f32ext.rs:246-248 -/
def round (x : F32) : F32 := F32.round x
/-- src/f32ext.rs:251-253 -/
def signum (x : F32) : F32 := F32.signum x
/-- src/f32ext.rs:256-258 -/
def sin (x : F32) : F32 := F32.sin x
/-- src/f32ext.rs:261-263 (does not call `F32::sin_cos`) -/
def sinCos (x : F32) : F32 × F32 := (F32.sin x, F32.cos x)
/-- src/f32ext.rs:266-268 -/
def sqrt (x : F32) : F32 := F32.sqrt x
/-- src/f32ext.rs:271-273 -/
def tan (x : F32) : F32 := F32.tan x
/-- src/f32ext.rs:276-278 -/
def trunc (x : F32) : F32 := F32.trunc x

end F32Ext
end Micromath
