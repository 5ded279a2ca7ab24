import Verif.Float.Core

/-!
# Model of `src/float.rs` and `src/float/*.rs`

One definition per Rust function, in the order of the sources.  `F32(f32)` and `f32` are both
modelled by `F32` (the newtype has no run-time content; every operator impl in
`src/float.rs:238-587` forwards to the primitive operator on the wrapped `f32`).
-/

namespace Micromath

namespace F32
variable [Cfg]

/-! ## Operators: `src/float.rs:238-587` (all forward to the primitive `f32` operator) -/

/-- `Add`: src/float.rs:238-284 (and `AddAssign`). -/
instance : Add F32 := ⟨add⟩
/-- `Sub`: src/float.rs:531-577 (and `SubAssign`). -/
instance : Sub F32 := ⟨sub⟩
/-- `Mul`: src/float.rs:399-445 (and `MulAssign`). -/
instance : Mul F32 := ⟨mul⟩
/-- `Div`: src/float.rs:293-339 (and `DivAssign`). -/
instance : Div F32 := ⟨div⟩
/-- `Rem`: src/float.rs:490-529 (and `RemAssign`). -/
instance : Mod F32 := ⟨rem⟩
omit [Cfg] in
/-- `Neg`: src/float.rs:447-454. -/
instance : Neg F32 := ⟨neg⟩

/-! ## Constants -/
omit [Cfg]

/-- `SIGN_MASK`: src/float.rs:48-49. -/
def SIGN_MASK : BitVec 32 := 0b10000000000000000000000000000000#32
/-- `EXPONENT_MASK`: src/float.rs:51-52. -/
def EXPONENT_MASK : BitVec 32 := 0b01111111100000000000000000000000#32
/-- `MANTISSA_MASK`: src/float.rs:54-55. -/
def MANTISSA_MASK : BitVec 32 := 0b00000000011111111111111111111111#32
/-- `EXPONENT_BIAS`: src/float.rs:57-58. -/
def EXPONENT_BIAS : Nat := 127
/-- `MANTISSA_BITS`: src/float.rs:60-63. -/
def MANTISSA_BITS : Nat := 23

/-- `core::f32::consts::PI`. -/
def PI : F32 := lit 314159265358979323846264338327950288 (10 ^ 35)
/-- `core::f32::consts::FRAC_PI_2`. -/
def FRAC_PI_2 : F32 := lit 157079632679489661923132169163975144 (10 ^ 35)
/-- `core::f32::consts::FRAC_1_PI`. -/
def FRAC_1_PI : F32 := lit 318309886183790671537767526745028724 (10 ^ 36)
/-- `core::f32::consts::LN_2`. -/
def LN_2 : F32 := lit 693147180559945309417232121458176568 (10 ^ 36)
/-- `core::f32::consts::LOG2_E`. -/
def LOG2_E : F32 := lit 144269504088896340735992468100189214 (10 ^ 35)
/-- `core::f32::consts::LOG10_E`. -/
def LOG10_E : F32 := lit 434294481903251827651128918916605082 (10 ^ 36)
/-- `core::f32::consts::E`. -/
def E : F32 := lit 271828182845904523536028747135266250 (10 ^ 35)
/-- `f32::EPSILON` (`2^-23`). -/
def EPSILON : F32 := ⟨0x34000000#32⟩
/-- `f32::INFINITY` / `F32::INFINITY`: src/float.rs:118. -/
def INFINITY : F32 := posInf
/-- `F32::NEG_INFINITY`: src/float.rs:121. -/
def NEG_INFINITY : F32 := negInf
/-- `F32::ZERO`: src/float.rs:71-72. -/
def ZERO : F32 := posZero
/-- `F32::ONE`: src/float.rs:74-75. -/
def ONE : F32 := one

variable [Cfg]
/-- `F32::NAN`: src/float.rs:115. -/
def NAN : F32 := Cfg.nanConst
omit [Cfg]

/-! ## Bit helpers of `src/float.rs` -/

/-- `to_bits`: src/float.rs:163-165. -/
def toBits (x : F32) : BitVec 32 := x.bits
/-- `from_bits`: src/float.rs:177-179. -/
def fromBits (b : BitVec 32) : F32 := ⟨b⟩
/-- `is_sign_positive`: src/float.rs:145-147. -/
def isSignPositive (x : F32) : Bool := !x.sign
/-- `is_sign_negative`: src/float.rs:152-154. -/
def isSignNegative (x : F32) : Bool := x.sign

/-- `extract_exponent_bits`: src/float.rs:182-186. -/
def extractExponentBits (x : F32) : BitVec 32 := oshr (x.toBits &&& EXPONENT_MASK) MANTISSA_BITS

/-- `extract_exponent_value`: src/float.rs:189-191.  The `i32` subtraction cannot overflow
(the result is in `-127..=128`), so it is not wrapped in `i32chk`. -/
def extractExponentValue (x : F32) : Int := (x.extractExponentBits.toInt) - (EXPONENT_BIAS : Int)

/-- `without_sign`: src/float.rs:194-196. -/
def withoutSign (x : F32) : F32 := fromBits (x.toBits &&& ~~~SIGN_MASK)

/-- `set_exponent`: src/float.rs:199-207.  The `debug_assert!` is active iff `debugAssertions`. -/
def setExponent [Cfg] (x : F32) (exponent : Int) : Res F32 := do
  if Cfg.debugAssertions && !decide (exponent ≤ 127 ∧ exponent ≥ -128) then
    .error .assertFailed
  else
    let withoutExponent := x.toBits &&& ~~~EXPONENT_MASK
    let e ← i32chk (exponent + (EXPONENT_BIAS : Int))
    let onlyExponent := oshl (BitVec.ofInt 32 e) MANTISSA_BITS
    .ok (fromBits (withoutExponent ||| onlyExponent))

/-- `is_integer`: src/float.rs:210-224. -/
def isInteger (x : F32) : Bool :=
  let exponent := x.extractExponentValue
  let selfBits := x.toBits
  let exponentClamped := (max exponent 0).toNat
  let fractionalPart := oshl selfBits exponentClamped &&& MANTISSA_MASK
  fractionalPart == 0

/-- `is_even`: src/float.rs:227-235. -/
def isEven (x : F32) : Bool :=
  if x.extractExponentValue ≥ 31 then true else x.toI32.tmod 2 == 0

/-! ## `src/float/*.rs` -/

/-- `abs`: src/float/abs.rs:11-13. -/
def abs (x : F32) : F32 := fromBits (x.toBits &&& ~~~SIGN_MASK)

/-- `copysign`: src/float/copysign.rs:8-13. -/
def copysign (x sgn : F32) : F32 :=
  let sourceBits := sgn.toBits
  let sourceSign := sourceBits &&& SIGN_MASK
  let signlessDestinationBits := x.toBits &&& ~~~SIGN_MASK
  fromBits (signlessDestinationBits ||| sourceSign)

/-- `signum`: src/float/signum.rs:11-17. -/
def signum [Cfg] (x : F32) : F32 := if x.isNaN then NAN else one.copysign x

/-- `trunc`: src/float/trunc.rs:7-29. -/
def trunc (x : F32) : F32 :=
  let xBits := x.toBits
  let exponent := x.extractExponentValue
  if exponent < 0 then ZERO.copysign x
  else
    let exponentClamped := (max exponent 0).toNat
    let fractionalPart := oshl xBits exponentClamped &&& MANTISSA_MASK
    if fractionalPart == 0 then x
    else
      let fractionalMask := oshr fractionalPart exponentClamped
      fromBits (xBits &&& ~~~fractionalMask)

/-- `fract`: src/float/fract.rs:8-39, with the checked `u32` arithmetic of lines 29 and 34 explicit. -/
def fractR [Cfg] (x : F32) : Res F32 := do
  let xBits := x.toBits
  let exponent := x.extractExponentValue
  if exponent < 0 then .ok x
  else
    let fractionalPart := oshl xBits exponent.toNat &&& MANTISSA_MASK
    if fractionalPart == 0 then .ok (posZero.copysign x)
    else
      let s ← u32chk ((clz32 fractionalPart : Int) - (32 - (MANTISSA_BITS : Int)))
      let exponentShift ← u32chk ((s.toNat : Int) + 1)
      let fractionalNormalized := oshl fractionalPart exponentShift.toNat &&& MANTISSA_MASK
      let e ← u32chk ((EXPONENT_BIAS : Int) - exponentShift.toNat)
      let newExponentBits := oshl e MANTISSA_BITS
      .ok ((fromBits (fractionalNormalized ||| newExponentBits)).copysign x)

/-- `fract` (same code) without the overflow bookkeeping; `fractR_eq` proves that `fractR` always
returns exactly this, so callers are modelled with it. -/
def fract (x : F32) : F32 :=
  let xBits := x.toBits
  let exponent := x.extractExponentValue
  if exponent < 0 then x
  else
    let fractionalPart := oshl xBits exponent.toNat &&& MANTISSA_MASK
    if fractionalPart == 0 then posZero.copysign x
    else
      let exponentShift := clz32 fractionalPart - (32 - MANTISSA_BITS) + 1
      let fractionalNormalized := oshl fractionalPart exponentShift &&& MANTISSA_MASK
      let newExponentBits := oshl (BitVec.ofNat 32 (EXPONENT_BIAS - exponentShift)) MANTISSA_BITS
      (fromBits (fractionalNormalized ||| newExponentBits)).copysign x

section
variable [Cfg]

/-- `floor`: src/float/floor.rs:7-15. -/
def floor (x : F32) : F32 :=
  let res := ofInt x.toI32
  if x.lt res then res - one else res

/-- `ceil`: src/float/ceil.rs:7-9. -/
def ceil (x : F32) : F32 := -((-x).floor)

/-- `round`: src/float/round.rs:7-9. -/
def round (x : F32) : F32 := ofInt (x + (lit 1 2).copysign x).toI32

/-- `rem_euclid`: src/float/rem_euclid.rs:7-15. -/
def remEuclid (x rhs : F32) : F32 :=
  let r := x % rhs
  if r.ge ZERO then r else r + rhs.abs

/-- `div_euclid`: src/float/div_euclid.rs:7-17. -/
def divEuclid (x rhs : F32) : F32 :=
  let q := (x / rhs).trunc
  if (x % rhs).ge ZERO then q
  else if rhs.gt ZERO then q - ONE
  else q + ONE

/-- `mul_add`: src/float/mul_add.rs:7-9. -/
def mulAdd (x a b : F32) : F32 := x * a + b

/-- `sqrt`: src/float/sqrt.rs:11-17, with the checked `u32` addition of line 13 explicit. -/
def sqrtR (x : F32) : Res F32 := do
  if x.ge ZERO then
    let s ← u32chk ((x.toBits.toNat : Int) + 0x3f800000)
    .ok (fromBits (s >>> 1))
  else .ok NAN

/-- `sqrt` (same code) without the overflow bookkeeping; `sqrtR_eq` proves that `sqrtR` always returns
exactly this, so callers are modelled with it. -/
def sqrt (x : F32) : F32 :=
  if x.ge ZERO then fromBits ((x.toBits + 0x3f800000#32) >>> 1) else NAN

/-- `invsqrt`: src/float/invsqrt.rs:9-11; the `u32` subtraction is overflow-checked. -/
def invsqrt (x : F32) : Res F32 := do
  let b ← u32chk ((0x5f375a86 : Int) - ((x.toBits >>> 1).toNat : Int))
  .ok (fromBits b)

/-- `inv`: src/float/inv.rs:12-36. -/
def inv (x : F32) : F32 :=
  if x.toBits.toNat ≤ 0x7f000000 then fromBits (0x7f000000#32 - x.toBits)
  else if x.isInf then (if x.isSignPositive then posZero else negZero)
  else if x.isNaN then NAN
  else posZero

/-- `recip`: src/float/recip.rs:7-22. -/
def recip (x : F32) : F32 :=
  let sx := if x.lt ZERO then -one else one
  let x := x * sx
  let v := fromBits (0x7EF127EA#32 - x.toBits)
  let w := x * v
  let v := v * (lit 8 1 + w * (-(lit 28 1) + w * (lit 56 1 + w * (-(lit 70 1) + w * (lit 56 1
    + w * (-(lit 28 1) + w * (lit 8 1 - w)))))))
  v * sx

/-- `hypot`: src/float/hypot.rs:7-9. -/
def hypot (x rhs : F32) : F32 := (x * x + rhs * rhs).sqrt

/-- Constant `B` of src/float/atan.rs:22 and src/float/atan2.rs:25. -/
def ATAN_B : F32 := lit 596227 1000000

/-- `atan_norm`: src/float/atan.rs:20-34. -/
def atanNorm (x : F32) : F32 :=
  let uxS := 0x80000000#32 &&& x.toBits
  let bxA := (ATAN_B * x).abs
  let n := bxA + x * x
  let atan1q := n / (one + bxA + n)
  fromBits (uxS ||| atan1q.toBits)

/-- `atan`: src/float/atan.rs:14-16. -/
def atan (x : F32) : F32 := FRAC_PI_2 * x.atanNorm

/-- `atan2_norm`: src/float/atan2.rs:23-45 (`self` is `y`, `rhs` is `x`). -/
def atan2Norm (y x : F32) : F32 :=
  let uxS := 0x80000000#32 &&& x.toBits
  let uyS := 0x80000000#32 &&& y.toBits
  let q := ofInt (((~~~uxS &&& uyS) >>> 29) ||| (uxS >>> 30)).toNat
  let bxyA := (ATAN_B * x * y).abs
  let n := bxyA + y * y
  let atan1q := n / (x * x + bxyA + n)
  let uatan2q := (uxS ^^^ uyS) ||| atan1q.toBits
  q + fromBits uatan2q

/-- `atan2`: src/float/atan2.rs:16-19. -/
def atan2 (y x : F32) : F32 :=
  let n := y.atan2Norm x
  PI / lit 2 1 * (if n.gt (lit 2 1) then n - lit 4 1 else n)

/-- `asin`: src/float/asin.rs:10-12. -/
def asin (x : F32) : Res F32 := do
  let r ← (ONE - x * x).invsqrt
  .ok (x * r).atan

/-- `acos`: src/float/acos.rs:11-19. -/
def acos (x : F32) : F32 :=
  if x.gt posZero then ((ONE - x * x).sqrt / x).atan
  else if x.feq posZero then PI / lit 2 1
  else ((ONE - x * x).sqrt / x).atan + PI

/-- `cos`: src/float/cos.rs:226-233. -/
def cos (x : F32) : F32 :=
  let x := x * (FRAC_1_PI / lit 2 1)
  let x := x - (lit 25 100 + (x + lit 25 100).floor)
  let x := x * (lit 16 1 * (x.abs - lit 5 10))
  let x := x + lit 225 1000 * x * (x.abs - one)
  x

/-- `sin`: src/float/sin.rs:8-10. -/
def sin (x : F32) : F32 := (x - PI / lit 2 1).cos

/-- `sin_cos`: src/float/sin_cos.rs:8-10. -/
def sinCos (x : F32) : F32 × F32 := (x.sin, x.cos)

/-- `tan`: src/float/tan.rs:7-9. -/
def tan (x : F32) : F32 := x.sin / x.cos

/-- `exp_smallx`: src/float/exp.rs:63-71; `for i in (1..=iter).rev()`. -/
def expSmallx (x : F32) (iter : Nat) : F32 :=
  ((List.range iter).reverse).foldl
    (fun total (i : Nat) => one + (x / ofInt ((i : Int) + 1)) * total) one

/-- `exp_ln2_approx`: src/float/exp.rs:16-54. -/
def expLn2Approx (x : F32) (partialIter : Nat) : Res F32 :=
  if x.feq ZERO then .ok ONE
  else if (x - ONE).abs.lt EPSILON then .ok E
  else if (x - (-ONE)).abs.lt EPSILON then .ok (ONE / E)
  else
    let xLn2recip := x * LOG2_E
    let xFract := xLn2recip.fract
    let xTrunc := xLn2recip.trunc
    let xFract := xFract * LN_2
    let fractExp := xFract.expSmallx partialIter
    -- `saturating_add`
    let fractExponent := max (-2 ^ 31) (min (2 ^ 31 - 1) (fractExp.extractExponentValue + xTrunc.toI32))
    if fractExponent < -(EXPONENT_BIAS : Int) then .ok ZERO
    else if fractExponent > (EXPONENT_BIAS : Int) + 1 then .ok INFINITY
    else fractExp.setExponent fractExponent

/-- `exp`: src/float/exp.rs:11-13. -/
def exp (x : F32) : Res F32 := x.expLn2Approx 4

/-- `cosh`: src/float/cosh.rs:11-15. -/
def cosh (x : F32) : Res F32 := do
  let expX ← x.exp
  let expNegX ← (-x).exp
  .ok ((expX + expNegX) / lit 2 1)

/-- The polynomial of src/float/ln.rs:39-43. -/
def lnPoly (x : F32) : F32 :=
  -(lit 17417939 10000000) + (lit 28212026 10000000 + (-(lit 14699568 10000000)
    + (lit 44717955 100000000 - lit 56570851 1000000000 * x) * x) * x) * x

/-- `ln`: src/float/ln.rs:16-53. -/
def ln (x : F32) : F32 :=
  if (x - ONE).abs.lt EPSILON then ZERO
  else
    let xLessThan1 := x.lt one
    let xWorking := if xLessThan1 then x.inv else x
    let base2Exponent : BitVec 32 := BitVec.ofInt 32 xWorking.extractExponentValue
    let divisor := fromBits (xWorking.toBits &&& EXPONENT_MASK)
    let xWorking := xWorking / divisor
    let ln1to2Polynomial := lnPoly xWorking
    let result := ofInt base2Exponent.toNat * LN_2 + ln1to2Polynomial
    if xLessThan1 then -result else result

/-- `log`: src/float/log.rs:7-9. -/
def log (x base : F32) : F32 := (ONE / base.ln) * x.ln
/-- `log2`: src/float/log2.rs:8-10. -/
def log2 (x : F32) : F32 := x.ln * LOG2_E
/-- `log10`: src/float/log10.rs:8-10. -/
def log10 (x : F32) : F32 := x.ln * LOG10_E

/-- `powf`: src/float/powf.rs:7-20. -/
def powf (x n : F32) : Res F32 :=
  if x.ge ZERO then (n * x.ln).exp
  else if !n.isInteger then .ok NAN
  else if n.isEven then (n * x.withoutSign.ln).exp
  else do
    let r ← (n * x.withoutSign.ln).exp
    .ok (-r)

/-- The loop of `powi`, src/float/powi.rs:55-67, with a step bound; `none` means "still looping".
`absN` is an `i32`: `& 1` is its parity and `>>= 1` is the arithmetic shift (floor division by 2). -/
def powiLoop : Nat → Int → F32 → F32 → Option F32
  | 0, _, _, _ => none
  | fuel + 1, absN, base, result =>
    let result := if absN % 2 = 1 then result * base else result
    let absN := absN / 2
    if absN = 0 then some result
    else powiLoop fuel absN (base * base) result

/-- `powi`: src/float/powi.rs:13-68.  32 steps decide the loop (`powiLoop_none_forever`,
`powiLoop_terminates`): it either has returned by then or never returns. -/
def powi (x : F32) (n : Int) : Res F32 := do
  let absN ← i32chk (if n < 0 then -n else n)
  let base := if n < 0 then one / x else x
  if n = 0 then .ok ONE
  else if x.feq ZERO && decide (n > 0) then .ok x
  else
    let loop : Res F32 :=
      match powiLoop 32 absN base one with
      | some r => .ok r
      | none => .error .diverges
    if !((lit 5 10).le x.abs && x.abs.lt (lit 2 1)) then
      let approxFinalExponent ← i32chk (x.extractExponentValue * n)
      let maxRepresentableExponent := 127
      let minRepresentableExponent := -126 - (MANTISSA_BITS : Int)
      if approxFinalExponent > maxRepresentableExponent
          || (x.feq ZERO && decide (approxFinalExponent < 0)) then
        if x.isSignPositive || decide (n % 2 = 0) then .ok INFINITY else .ok NEG_INFINITY
      else if approxFinalExponent < minRepresentableExponent then .ok ZERO
      else loop
    else loop

end

end F32
end Micromath
