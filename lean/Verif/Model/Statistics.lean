import Verif.Model.Component

/-!
# Model of `src/statistics/*.rs`

A slice or an exhausted iterator is the list of its items (length below `2^63`; the conversions of the
length and of the counter to `f32` are modelled for every length).
-/

namespace Micromath.Statistics
open F32
variable [Cfg]

/-- The loop of `mean`, src/statistics/mean.rs:17-23: the `i32` counter is overflow-checked. -/
def meanLoop : List F32 → Int → F32 → Res (Int × F32)
  | [], numItems, sum => .ok (numItems, sum)
  | item :: rest, numItems, sum => do
    let numItems ← i32chk (numItems + 1)
    meanLoop rest numItems (sum + item)

/-- `mean`: src/statistics/mean.rs:16-26. -/
def mean (l : List F32) : Res F32 := do
  let (numItems, sum) ← meanLoop l 0 posZero
  .ok (sum / ofInt numItems)

/-- Sum of squared deviations from `m`: src/statistics/variance.rs:21-26. -/
def sqDev (m : F32) (l : List F32) : F32 :=
  l.foldl (fun sum item => let n := item - m; sum + n * n) posZero

/-- `variance`: src/statistics/variance.rs:19-29. -/
def variance {T : Type} [IntoF32 T] (l : List T) : Res F32 := do
  let m ← mean (l.map IntoF32.into)
  .ok (sqDev m (l.map IntoF32.into) / (ofInt l.length - one))

/-- `stddev`: src/statistics/stddev.rs:21-23. -/
def stddev {T : Type} [IntoF32 T] (l : List T) : Res F32 := do
  let v ← variance l
  .ok (F32Ext.sqrt v)

/-- `DEFAULT_THRESHOLD`: src/statistics/trim.rs:10. -/
def DEFAULT_THRESHOLD : F32 := lit 2 1

/-- `trim::Iter`: src/statistics/trim.rs:41-53. -/
structure TrimIter (N : Type) where
  input : List N
  mean : F32
  stddev : F32
  threshold : F32

/-- `Iter::new`: src/statistics/trim.rs:64-84. -/
def TrimIter.new {N : Type} [IntoF32 N] (input : List N) (threshold : F32) : Res (TrimIter N) := do
  let len := ofInt input.length
  let m ← Statistics.mean (input.map IntoF32.into)
  let sum := (input.map IntoF32.into).foldl (fun sum n => let n := n - m; sum + n * n) posZero
  let var := sum / (len - one)
  .ok { input := input, mean := m, stddev := F32Ext.sqrt var, threshold := threshold }

/-- The loop of `Iter::next`, src/statistics/trim.rs:95-104, on the remaining input. -/
def TrimIter.nextLoop {N : Type} [IntoF32 N] (it : TrimIter N) : List N → Option N × TrimIter N
  | [] => (none, { it with input := [] })
  | n :: rest =>
    let distance := F32Ext.abs (IntoF32.into n - it.mean)
    if (distance / it.stddev).lt it.threshold then (some n, { it with input := rest })
    else it.nextLoop rest

/-- `Iter::next`: src/statistics/trim.rs:94-105. -/
def TrimIter.next {N : Type} [IntoF32 N] (it : TrimIter N) : Option N × TrimIter N :=
  it.nextLoop it.input

/-- `trim_at`: src/statistics/trim.rs:34-36. -/
def trimAt {N : Type} [IntoF32 N] (input : List N) (threshold : F32) : Res (TrimIter N) :=
  TrimIter.new input threshold

/-- `trim`: src/statistics/trim.rs:19-21. -/
def trim {N : Type} [IntoF32 N] (input : List N) : Res (TrimIter N) := trimAt input DEFAULT_THRESHOLD

/-- Everything the iterator yields: call `next` until `None`, at most `fuel` times. -/
def TrimIter.collect {N : Type} [IntoF32 N] : Nat → TrimIter N → List N
  | 0, _ => []
  | fuel + 1, it =>
    match it.next with
    | (some n, it') => n :: TrimIter.collect fuel it'
    | (none, _) => []

end Micromath.Statistics
