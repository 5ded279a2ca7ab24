import Verif.Model.Ops

/-!
# Model of the formatting and parsing of `F32` (src/float.rs)

The text of an `f32` and the parsing of text are code of the standard library. They are parameters here (`StdText`), so every theorem
holds for any behaviour of the standard library. What the crate adds is modelled: which trait of `f32` is called, with which options.
A formatter is what it appends to its sink; errors of the sink are not modelled.
-/

namespace Micromath

/-- `core::fmt::Formatter`'s options, e.g. `{:>+08.3}`. -/
structure FmtOpts where
  fill : Char := ' '
  align : Option Bool := none
  signPlus : Bool := false
  alternate : Bool := false
  zeroPad : Bool := false
  width : Option Nat := none
  precision : Option Nat := none
deriving DecidableEq

/-- The traits of `core::fmt` that `f32` implements. -/
inductive FmtTrait
  | display | lowerExp | upperExp | debug
deriving DecidableEq

/-- Kinds of `core::num::ParseFloatError`. -/
inductive ParseErr
  | empty | invalid
deriving DecidableEq

/-- The standard library's (and, for `parseRadix`, num-traits') behaviour on `f32`. -/
class StdText where
  fmt : FmtTrait → FmtOpts → F32 → String
  parse : String → Except ParseErr F32
  parseRadix : String → Nat → Except ParseErr F32

namespace Newtype
variable [StdText]

/-- `Display for F32`: src/float.rs:286-291. `write!(fmt, "{}", ..)` formats with fresh options and ignores those of `fmt`. -/
def display (_o : FmtOpts) (x : Newtype) : String := StdText.fmt .display {} x.inner

/-- `LowerExp for F32`: src/float.rs:392-397. -/
def lowerExp (_o : FmtOpts) (x : Newtype) : String := StdText.fmt .lowerExp {} x.inner

/-- `UpperExp for F32`: src/float.rs:589-594. -/
def upperExp (_o : FmtOpts) (x : Newtype) : String := StdText.fmt .upperExp {} x.inner

/-- `Debug for F32` (derived): src/float.rs:67. Without `#`, `debug_tuple` writes the name and passes the options to the field. -/
def debug (o : FmtOpts) (x : Newtype) : String := "F32(" ++ StdText.fmt .debug o x.inner ++ ")"

/-- `FromStr for F32`: src/float.rs:383-390. -/
def fromStr (s : String) : Except ParseErr Newtype := (StdText.parse s).map Newtype.mk

/-- `Num::from_str_radix`: src/float.rs:622-628. -/
def fromStrRadix (s : String) (radix : Nat) : Except ParseErr Newtype := (StdText.parseRadix s radix).map Newtype.mk

/-- `x.to_string()` (the standard library's blanket implementation: `Display` with default options). -/
def toText (x : Newtype) : String := x.display {}

end Newtype

end Micromath
