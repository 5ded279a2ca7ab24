import Verif.Model.Float

/-!
# Decimal literals for the translated unit tests
-/

namespace Micromath.Tests
open F32

/-- The decimal literal `m·10^e`, correctly rounded to `f32` as rustc does. -/
def d (m : Nat) : Int → F32
  | .ofNat e => lit (m * 10 ^ e) 1
  | .negSucc e => lit m (10 ^ (e + 1))

end Micromath.Tests
