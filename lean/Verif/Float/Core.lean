/-!
# Executable model of IEEE-754 binary32 (`f32`) and of the Rust primitives the crate uses

This file models no line of `/repo` by itself: it is the meaning of the primitive operations that the Rust
sources use (`+ - * / %`, comparisons, `as` casts, `to_bits`/`from_bits`, literals).  Every finite `f32`
is an integer multiple of `2^-149` (a *unit*), so magnitudes are naturals and all arithmetic is
"exact, then round to nearest, ties to even".
-/

namespace Micromath

/-- Abnormal outcomes of a Rust call.  `diverges` is non-termination; the rest are panics. -/
inductive Fault where
  | overflow      -- "attempt to ... with overflow" (only when `overflow-checks` is on, or MIN / -1)
  | divByZero     -- integer division by zero
  | assertFailed  -- `assert!`, `assert_ne!`, `debug_assert!`
  | expectNone    -- `Option::expect` on `None`
  | outOfRange    -- explicit `panic!("index out of range")`
  | diverges      -- infinite loop
deriving DecidableEq, Repr

/-- Outcome of a call that may panic. -/
abbrev Res (α : Type) := Except Fault α

@[simp] theorem ok_bind {α β : Type} (a : α) (f : α → Res β) : ((Except.ok a : Res α) >>= f) = f a := rfl
@[simp] theorem error_bind {α β : Type} (e : Fault) (f : α → Res β) :
    ((Except.error e : Res α) >>= f) = Except.error e := rfl

/-- A binary32 value, given by its bit pattern. -/
@[ext] structure F32 where
  bits : BitVec 32
deriving DecidableEq

instance : Repr F32 := ⟨fun x _ => "0x" ++ x.bits.toHex⟩

/-- The primitive operations that can create a NaN. -/
inductive FOp where
  | add | sub | mul | div | rem
deriving DecidableEq

namespace F32

/-- The low 31 bits: exponent and mantissa fields as one natural number. -/
def mag (x : F32) : Nat := x.bits.toNat % 2 ^ 31

/-- Sign bit. -/
def sign (x : F32) : Bool := decide (2 ^ 31 ≤ x.bits.toNat)

/-- Magnitude bits of infinity. -/
def infMag : Nat := 0x7f800000

/-- `f32::is_nan`. -/
def isNaN (x : F32) : Bool := decide (infMag < x.mag)
/-- `f32::is_infinite`. -/
def isInf (x : F32) : Bool := decide (x.mag = infMag)
/-- `f32::is_finite`. -/
def isFinite (x : F32) : Bool := decide (x.mag < infMag)
/-- Is `+0.0` or `-0.0`. -/
def isZero (x : F32) : Bool := decide (x.mag = 0)

/-- Assemble sign and magnitude bits. -/
def pack (s : Bool) (m : Nat) : F32 := ⟨BitVec.ofNat 32 (m + if s then 2 ^ 31 else 0)⟩

def posZero : F32 := ⟨0x00000000#32⟩
def negZero : F32 := ⟨0x80000000#32⟩
def one : F32 := ⟨0x3f800000#32⟩
def posInf : F32 := ⟨0x7f800000#32⟩
def negInf : F32 := ⟨0xff800000#32⟩

/-- Magnitude, in units of `2^-149`, of the finite float with magnitude bits `b`. -/
def magU (b : Nat) : Nat :=
  if b < 2 ^ 23 then b else (b % 2 ^ 23 + 2 ^ 23) * 2 ^ (b / 2 ^ 23 - 1)

/-- Signed value in units of `2^-149` (meaningful for finite `x`). -/
def units (x : F32) : Int := if x.sign then -(magU x.mag : Int) else (magU x.mag : Int)

/-- Round the rational `a / b` to the nearest integer, ties to even. -/
def rhe (a b : Nat) : Nat :=
  if 2 * (a % b) < b then a / b
  else if b < 2 * (a % b) then a / b + 1
  else if a / b % 2 = 0 then a / b else a / b + 1

/-- Magnitude bits (with unbounded exponent) of `u / d` units, rounded to nearest, ties to even. -/
def roundBits (u d : Nat) : Nat :=
  ((u / d).log2 - 23) * 2 ^ 23 + rhe u (d * 2 ^ ((u / d).log2 - 23))

/-- `roundBits` with overflow to infinity. -/
def roundMag (u d : Nat) : Nat := min (roundBits u d) infMag

end F32

/-- Everything the Rust reference leaves to the platform or to build flags.  Theorems quantify over it. -/
class Cfg where
  /-- `-C overflow-checks`: integer overflow panics instead of wrapping. -/
  overflowChecks : Bool
  /-- `-C debug-assertions`: `debug_assert!` is active. -/
  debugAssertions : Bool
  /-- Bit pattern of the NaN that a primitive operation returns for given operands. -/
  nanOp : FOp → F32 → F32 → F32
  nanOp_isNaN : ∀ o x y, (nanOp o x y).isNaN = true
  /-- Bit pattern of `f32::NAN`. -/
  nanConst : F32
  nanConst_isNaN : nanConst.isNaN = true
  /-- Start value of `<f32 as Sum>::sum`: `0.0` in older, `-0.0` in newer Rust. -/
  sumZero : F32
  sumZero_spec : sumZero = F32.posZero ∨ sumZero = F32.negZero

namespace F32
variable [Cfg]

/-- Rust `-x` (flips the sign bit, for NaN too). -/
def neg (x : F32) : F32 := ⟨x.bits ^^^ 0x80000000#32⟩

/-- Addition; `o` only selects the NaN pattern. -/
def addAs (o : FOp) (x y : F32) : F32 :=
  if x.isNaN || y.isNaN then Cfg.nanOp o x y
  else if x.isInf then (if y.isInf && x.sign != y.sign then Cfg.nanOp o x y else x)
  else if y.isInf then y
  else if x.units + y.units = 0 then (if x.sign && y.sign then negZero else posZero)
  else pack (decide (x.units + y.units < 0)) (roundMag (x.units + y.units).natAbs 1)

/-- Rust `x + y`. -/
def add (x y : F32) : F32 := addAs .add x y
/-- Rust `x - y`. -/
def sub (x y : F32) : F32 := addAs .sub x (neg y)

/-- Rust `x * y`. -/
def mul (x y : F32) : F32 :=
  if x.isNaN || y.isNaN then Cfg.nanOp .mul x y
  else if x.isInf || y.isInf then
    (if x.isZero || y.isZero then Cfg.nanOp .mul x y else pack (x.sign != y.sign) infMag)
  else pack (x.sign != y.sign) (roundMag (magU x.mag * magU y.mag) (2 ^ 149))

/-- Rust `x / y`. -/
def div (x y : F32) : F32 :=
  if x.isNaN || y.isNaN then Cfg.nanOp .div x y
  else if x.isInf then (if y.isInf then Cfg.nanOp .div x y else pack (x.sign != y.sign) infMag)
  else if y.isInf then pack (x.sign != y.sign) 0
  else if y.isZero then (if x.isZero then Cfg.nanOp .div x y else pack (x.sign != y.sign) infMag)
  else pack (x.sign != y.sign) (roundMag (magU x.mag * 2 ^ 149) (magU y.mag))

/-- Rust `x % y` (C `fmod`): exact, sign of `x`. -/
def rem (x y : F32) : F32 :=
  if x.isNaN || y.isNaN then Cfg.nanOp .rem x y
  else if x.isInf || y.isZero then Cfg.nanOp .rem x y
  else if y.isInf then x
  else pack x.sign (roundMag (magU x.mag % magU y.mag) 1)

omit [Cfg]

/-- Order key of a non-NaN float: signed magnitude bits (both zeros map to 0). -/
def key (x : F32) : Int := if x.sign then -(x.mag : Int) else (x.mag : Int)

/-- Rust `x < y`. -/
def lt (x y : F32) : Bool := !x.isNaN && !y.isNaN && decide (x.key < y.key)
/-- Rust `x <= y`. -/
def le (x y : F32) : Bool := !x.isNaN && !y.isNaN && decide (x.key ≤ y.key)
/-- Rust `x == y`. -/
def feq (x y : F32) : Bool := !x.isNaN && !y.isNaN && decide (x.key = y.key)
/-- Rust `x > y`. -/
def gt (x y : F32) : Bool := lt y x
/-- Rust `x >= y`. -/
def ge (x y : F32) : Bool := le y x

/-- Rust `x as i32`: truncate toward zero, saturate, NaN gives 0. -/
def toI32 (x : F32) : Int :=
  if x.isNaN then 0
  else if x.isInf then (if x.sign then -2 ^ 31 else 2 ^ 31 - 1)
  else max (-2 ^ 31) (min (2 ^ 31 - 1) (x.units.tdiv (2 ^ 149)))

/-- Rust integer `as f32` / `f32::from(int)`: round to nearest even. -/
def ofInt (n : Int) : F32 := pack (decide (n < 0)) (roundMag (n.natAbs * 2 ^ 149) 1)

/-- A non-negative decimal literal `num / den` as `f32` (correctly rounded, as rustc does). -/
def lit (num den : Nat) : F32 := pack false (roundMag (num * 2 ^ 149) den)

end F32

/-! ## Integer primitives -/

/-- An `i32` result `v`: in range, or a panic with overflow checks, or wrapped without. -/
def i32chk [Cfg] (v : Int) : Res Int :=
  if -2 ^ 31 ≤ v ∧ v < 2 ^ 31 then .ok v
  else if Cfg.overflowChecks then .error .overflow else .ok (Int.bmod v (2 ^ 32))

/-- A `u32` result `v` (an integer): in range, or a panic with overflow checks, or wrapped without. -/
def u32chk [Cfg] (v : Int) : Res (BitVec 32) :=
  if 0 ≤ v ∧ v < 2 ^ 32 then .ok (BitVec.ofInt 32 v)
  else if Cfg.overflowChecks then .error .overflow else .ok (BitVec.ofInt 32 v)

/-- `u32::overflowing_shl(n).0`: the shift amount is taken modulo 32. -/
def oshl (x : BitVec 32) (n : Nat) : BitVec 32 := x <<< (n % 32)
/-- `u32::overflowing_shr(n).0`. -/
def oshr (x : BitVec 32) (n : Nat) : BitVec 32 := x >>> (n % 32)
/-- `u32::leading_zeros`. -/
def clz32 (x : BitVec 32) : Nat := if x.toNat = 0 then 32 else 31 - x.toNat.log2

end Micromath
