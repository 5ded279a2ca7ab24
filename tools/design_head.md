# Formal model of tarcieri/micromath in Lean 4

## Approach

The crate is pure arithmetic, so the model is a set of total computable functions on an
**exact bit-level model of IEEE-754 binary32**:

* `F32` is a structure holding a 32-bit pattern (`BitVec 32`). Every finite float is an integer
  multiple of 2^-149, so its magnitude is a natural number of "units" (`magU`), and every arithmetic
  operation is "compute exactly with integers/rationals, then round to nearest, ties to even".
  The rounding function is executable and is *proved* to be nearest/ties-to-even (`Verif/Float/Nearest`),
  monotone, exact on representable values and to have the standard error bounds (`Verif/Float`).
* Everything Rust leaves open is a parameter (class `Cfg`) that all theorems quantify over: the bit pattern of
  NaNs produced by arithmetic, the pattern of `f32::NAN`, the zero that `f32: Sum` starts from, whether
  `overflow-checks` is on, and whether `debug_assertions` are on.
* A panic is a value: functions whose Rust text contains an operation that can panic (checked
  integer arithmetic, `expect`, `assert!`, `debug_assert!`, indexing, integer division) return
  `Res α = Except Fault α`, and "never panics" is a theorem, not an assumption. Non-termination of the `powi` loop
  is also a value (`Fault.diverges`).
* Bit manipulations are modelled literally on `BitVec 32` (`overflowing_shl` shifts modulo 32, etc.).
* Vectors are generic over a `Component` class with panicking arithmetic; instances: the six integer types
  (one generic `MInt signed width`) and `f32`.
* Accuracy claims compare the exact rational value `F32.val` of the result with Mathlib's `Real.sqrt`,
  `Real.cos`, `Real.arctan`, `Real.exp`, `Real.log`, `Complex.arg`, ...

## Layout

| module | content |
|---|---|
| `Verif/Float/Core` | binary32 model: encoding, rounding, + - * / %, comparisons, casts, `Cfg`, `Fault` |
| `Verif/Float/*` | theory of the binary32 model (rounding correct, monotone, error bounds, exactness) |
| `Verif/Model/*` | the crate, function by function, each definition citing file and lines |
| `Verif/Spec/Basic` | the small vocabulary in which properties are stated; mentions no crate function |
| `Verif/Real/*` | real analysis: polynomial positivity by kernel computation, bounds for log, exp, cos, arctan, arcsin |
| `Verif/Props/*` | the property theorems, with non-vacuity examples |
| `Verif/Tests/*` | the crate's own unit tests, translated and evaluated on the model (no properties; model validation) |
| `Verif/KernelRfl` | `kernel_rfl`: closes `a = b` by `Eq.refl`, checked by the kernel only |

## Trusted base

1. **Lean's kernel** (4.33.0), including its GMP-accelerated `Nat` arithmetic, which `decide +kernel` and `kernel_rfl`
   rely on. No `native_decide`, no `bv_decide`, no `sorry`/`admit`, no axiom declared in this project.
2. **Axioms.** Every theorem listed in `MANIFEST.json` depends on a subset of Lean's three standard axioms `propext`,
   `Classical.choice` and `Quot.sound` (checked with `#print axioms` on all of them). Those that need fewer:
@@AX@@
   * all others: all three.
3. **The hand translation** of the Rust source into `Verif/Model` (the code is not compiled or run here). Every
   definition cites the lines it models.
4. **The statement that Rust's `f32` is the model of `Verif/Float/Core`**: +, -, *, / round to nearest even with gradual
   underflow, `%` is exact, `as i32`/`as f32` casts saturate/round, comparisons are IEEE, negation flips the sign bit
   (also of NaN), and arithmetic NaN results have an unspecified pattern chosen by `Cfg.nanOp`, which may depend on the
   operation and the operand patterns but not on anything else. No flush-to-zero, no extended precision (x87), no fused
   contraction.

### What is modelled

* `src/float.rs` and every file of `src/float/`: all public functions and the helpers they use, constants as bit patterns.
* Operators, `From`/`Into`, `PartialEq`, `PartialOrd`, `Sum`, `Product` of `F32`, and the `num-traits` impls
  `Zero`, `One`, `Inv` (`Verif/Model/Extras`). `F32` and `f32` are the same type in the model: the newtype has no content.
  Only in `Verif/Model/Ops` are they kept apart, to write down the operator impls between them one by one.
* `src/f32ext.rs`: every method of `F32Ext`.
* `src/vector.rs` and `src/vector/*`: both vector types, the trait methods, iterators, conversions, operators.
* `src/quaternion.rs`: everything, including `from_two_vectors`, `to_euler`, `rotate`, `axis_angle`.
* `src/statistics/*`: `Mean`, `Variance`, `StdDev`, `Trim` with its iterator.

### What is not modelled, and simplifications

* The text of an `f32` and the parsing of text: `Display`, `LowerExp`, `UpperExp`, `Debug`, `FromStr` and `Num::from_str_radix` of `F32` are modelled over an arbitrary standard library (C140). Errors of the sink, `{:#?}`, derived `Debug` of the other types, `defmt` and documentation are not modelled.
* `std`/`num-traits` code other than the impls above; `num_traits::Float` is not implemented by the crate.
* Iterators are sequences of `next()` results (`Calls`), not necessarily fused; slices are lists of any length.
* Mutation (`op-assign`, iterator state) is modelled as a function from old to new value.
* `trunc`, `sqrt`, `inv`, `fract` use wrapping or shift operations; the model has both the literal form with checked integer
  arithmetic (suffix `R`) and the total function used by callers, and the two are proved equal.
* Stack, memory and time are not modelled. `usize` conversions of slice lengths are modelled for all lengths.

### Validation of the model against the crate's unit tests

The code cannot be run here, but its unit tests record results that its authors assert. All of them are translated
in `Verif/Tests` (tables copied number by number by `tools/gen_tests.py`, tolerances and comparisons as in Rust) and
evaluated on the model by the kernel, for every `Cfg`: the 2579 rows of `powi`, the tables of the other functions, and
the assertions on vectors, quaternions and statistics. All hold, with one exception:

* `vector.rs: normalized` asserts that the magnitude of (3, 4, 5) is 7.071068 within 1e-6. In the model it is 7.125
  (`test_normalized_library`). `magnitude` is written `….sum::<f32>().sqrt()`. In a library build of this `#![no_std]`
  crate, `f32` has no inherent `sqrt`, so the call is `F32Ext::sqrt`, the approximation of `sqrt.rs`. The
  likely reason the Rust test passes, inferred from reading and not checked by running anything, is that under
  `cargo test` the harness links `std`, whose inherent `f32::sqrt` takes precedence over the trait method; the test
  would then exercise a different function from the one users get. The model follows the library build. The same
  would apply to the `sqrt` in `distance`, `stddev` and `trim` (their tests give the same result either way).

## Plan per property

| ids | modelled | proof method |
|---|---|---|
@@ROWS@@

A property that turned out to be false as documented was restated as the exact behaviour together with a proved
counterexample to the documented contract (theorem names ending in `_false`).

## Properties, status and theorems

All theorem names are in the namespace `Micromath.Props`. Details are in `MANIFEST.json`.

| id | property | status | theorems |
|---|---|---|---|
@@DET@@

## Mutation testing

`seeded/LOG.jsonl` records edits of the model that imitate realistic bugs, made in a scratch copy, and the theorems that
stopped checking.
