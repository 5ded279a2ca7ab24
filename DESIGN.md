# Formal model of tarcieri/micromath in Lean 4

## Approach

The crate is pure arithmetic, so the model is a set of total computable functions on an
**exact bit-level model of IEEE-754 binary32**:

* `F32` is a structure holding a 32-bit pattern (`BitVec 32`). Every finite float is an integer
  multiple of 2^-149, so its magnitude is a natural number of "units" (`magU`), and every arithmetic
  operation is "compute exactly with integers/rationals, then round to nearest, ties to even".
  The rounding function is executable and is *proved* to be nearest/ties-to-even (`Verif/Float/Nearest`),
  monotone, exact on representable values and to have the standard error bounds (`Verif/Float`).
* Everything Rust leaves open is a parameter (class `Cfg`) that all theorems quantify over: the bit pattern of
  NaNs produced by arithmetic, the pattern of `f32::NAN`, the zero that `f32: Sum` starts from, whether
  `overflow-checks` is on, and whether `debug_assertions` are on.
* A panic is a value: functions whose Rust text contains an operation that can panic (checked
  integer arithmetic, `expect`, `assert!`, `debug_assert!`, indexing, integer division) return
  `Res α = Except Fault α`, and "never panics" is a theorem, not an assumption. Non-termination of the `powi` loop
  is also a value (`Fault.diverges`).
* Bit manipulations are modelled literally on `BitVec 32` (`overflowing_shl` shifts modulo 32, etc.).
* Vectors are generic over a `Component` class with panicking arithmetic; instances: the six integer types
  (one generic `MInt signed width`) and `f32`.
* Accuracy claims compare the exact rational value `F32.val` of the result with Mathlib's `Real.sqrt`,
  `Real.cos`, `Real.arctan`, `Real.exp`, `Real.log`, `Complex.arg`, ...

## Layout

| module | content |
|---|---|
| `Verif/Float/Core` | binary32 model: encoding, rounding, + - * / %, comparisons, casts, `Cfg`, `Fault` |
| `Verif/Float/*` | theory of the binary32 model (rounding correct, monotone, error bounds, exactness) |
| `Verif/Model/*` | the crate, function by function, each definition citing file and lines |
| `Verif/Spec/Basic` | the small vocabulary in which properties are stated; mentions no crate function |
| `Verif/Real/*` | real analysis: polynomial positivity by kernel computation, bounds for log, exp, cos, arctan, arcsin |
| `Verif/Props/*` | the property theorems, with non-vacuity examples |
| `Verif/Tests/*` | the crate's own unit tests, translated and evaluated on the model (no properties; model validation) |
| `Verif/KernelRfl` | `kernel_rfl`: closes `a = b` by `Eq.refl`, checked by the kernel only |

## Trusted base

1. **Lean's kernel** (4.33.0), including its GMP-accelerated `Nat` arithmetic, which `decide +kernel` and `kernel_rfl`
   rely on. No `native_decide`, no `bv_decide`, no `sorry`/`admit`, no axiom declared in this project.
2. **Axioms.** Every theorem listed in `MANIFEST.json` depends on a subset of Lean's three standard axioms `propext`,
   `Classical.choice` and `Quot.sound` (checked with `#print axioms` on all of them). Those that need fewer:
   * no axiom: `C51_collect`, `C52_from_iter_iter`, `C52_map`, `C55_scalar_comm`, `C57_mul_is_cross`,
     `C118_add_forms`, `C118_mul_forms`, `C118_div_forms`, `C118_rem_forms`, `C118_sum_product`, `C119_laws_false`,
     `C140_injective`;
   * `propext` only: `C16_sqrt_special_false`, `C49_compare_nan`, `C51_get`, `C51_iter`, `C56_dot_comm`,
     `C72_conversions`, `C131_num_inv`, `C140_options`, `C140_parse`, `C140_round_trip`, `C153_case`, `C154_sharp`;
   * `propext` and `Quot.sound` only: `C20_inv_negative`, `C21_recip_zero`, `C23_powi_one_nan`, `C29_ln_one`,
     `C31_ln_inf`, `C36_sin_cos`, `C37_tan_def`, `C47_ext_unary`, `C47_ext_more`, `C52_from_iter`, `C54_vector2`,
     `C54_vector3`, `C60_sum2`, `C60_sum3`, `C73_to_euler_panic`, `C74_axis_angle`, `C77_stddev`, `C80_trim_stats`,
     `C92_opposite_missed`, `C99_inf`, `C99_nan`, `C106_log_base_one`, `C117_rem_special`, `C118_sub_forms`,
     `C118_neg_from`, `C120_distance`, `C120_convert`, `C126_mean_range_false`, `C128_atan_false`, `C128_ln_false`,
     `C130_signs_false`, `C130_square_false`, `C131_vector_int`, `C131_vector_f32`, `C131_case`, `C132_case`,
     `C134_exp_false`, `C134_cosh_false`, `C136_conj_false`, `C138_false`, `C139_false`, `C157_recover_sharp`,
     `C159_sum`, `C160_end_false`;
   * all others: all three.
3. **The hand translation** of the Rust source into `Verif/Model` (the code is not compiled or run here). Every
   definition cites the lines it models.
4. **The statement that Rust's `f32` is the model of `Verif/Float/Core`**: +, -, *, / round to nearest even with gradual
   underflow, `%` is exact, `as i32`/`as f32` casts saturate/round, comparisons are IEEE, negation flips the sign bit
   (also of NaN), and arithmetic NaN results have an unspecified pattern chosen by `Cfg.nanOp`, which may depend on the
   operation and the operand patterns but not on anything else. No flush-to-zero, no extended precision (x87), no fused
   contraction.

### What is modelled

* `src/float.rs` and every file of `src/float/`: all public functions and the helpers they use, constants as bit patterns.
* Operators, `From`/`Into`, `PartialEq`, `PartialOrd`, `Sum`, `Product` of `F32`, and the `num-traits` impls
  `Zero`, `One`, `Inv` (`Verif/Model/Extras`). `F32` and `f32` are the same type in the model: the newtype has no content.
  Only in `Verif/Model/Ops` are they kept apart, to write down the operator impls between them one by one.
* `src/f32ext.rs`: every method of `F32Ext`.
* `src/vector.rs` and `src/vector/*`: both vector types, the trait methods, iterators, conversions, operators.
* `src/quaternion.rs`: everything, including `from_two_vectors`, `to_euler`, `rotate`, `axis_angle`.
* `src/statistics/*`: `Mean`, `Variance`, `StdDev`, `Trim` with its iterator.

### What is not modelled, and simplifications

* The text of an `f32` and the parsing of text: `Display`, `LowerExp`, `UpperExp`, `Debug`, `FromStr` and `Num::from_str_radix` of `F32` are modelled over an arbitrary standard library (C140). Errors of the sink, `{:#?}`, derived `Debug` of the other types, `defmt` and documentation are not modelled.
* `std`/`num-traits` code other than the impls above; `num_traits::Float` is not implemented by the crate.
* Iterators are sequences of `next()` results (`Calls`), not necessarily fused; slices are lists of any length.
* Mutation (`op-assign`, iterator state) is modelled as a function from old to new value.
* `trunc`, `sqrt`, `inv`, `fract` use wrapping or shift operations; the model has both the literal form with checked integer
  arithmetic (suffix `R`) and the total function used by callers, and the two are proved equal.
* Stack, memory and time are not modelled. `usize` conversions of slice lengths are modelled for all lengths.

### Validation of the model against the crate's unit tests

The code cannot be run here, but its unit tests record results that its authors assert. All of them are translated
in `Verif/Tests` (tables copied number by number by `tools/gen_tests.py`, tolerances and comparisons as in Rust) and
evaluated on the model by the kernel, for every `Cfg`: the 2579 rows of `powi`, the tables of the other functions, and
the assertions on vectors, quaternions and statistics. All hold, with one exception:

* `vector.rs: normalized` asserts that the magnitude of (3, 4, 5) is 7.071068 within 1e-6. In the model it is 7.125
  (`test_normalized_library`). `magnitude` is written `….sum::<f32>().sqrt()`. In a library build of this `#![no_std]`
  crate, `f32` has no inherent `sqrt`, so the call is `F32Ext::sqrt`, the approximation of `sqrt.rs`. The
  likely reason the Rust test passes, inferred from reading and not checked by running anything, is that under
  `cargo test` the harness links `std`, whose inherent `f32::sqrt` takes precedence over the trait method; the test
  would then exercise a different function from the one users get. The model follows the library build. The same
  would apply to the `sqrt` in `distance`, `stddev` and `trim` (their tests give the same result either way).

## Plan per property

| ids | modelled | proof method |
|---|---|---|
| C01-C03 | `abs`, `copysign`, `signum` on bits | field arithmetic on sign and magnitude bits |
| C04-C07 | `trunc`, `fract` with shift amounts modulo 32 | field arithmetic; values above 2^32 by scaling with 2^(32k) |
| C08-C11 | `floor`, `ceil`, `round` via the saturating `as i32` | integer floor characterisation of the cast; rounding of x+0.5 analysed on ties |
| C12-C13 | `%`, `rem_euclid`, `div_euclid` | exact integer remainder; monotone rounding |
| C14-C20 | `sqrt`, `invsqrt`, `inv` | the bit tricks as piecewise linear functions; integer inequalities on mantissas |
| C21 | `recip` | error propagation through the Horner form, scaling by powers of two |
| C22 | `hypot` | rounding error + C14 |
| C23-C26 | `powi`, loop with fuel equal to the bit length (divergence is a value) | induction on the bits of n |
| C27-C28,C45 | `exp`, `cosh`, `set_exponent` with its `debug_assert!` | range reduction, Taylor remainder in `Real.exp`, threshold analysis on neighbouring floats |
| C29-C32 | `ln`, `log2`, `log10`, `log` | minimax polynomial against `Real.log` through artanh series; `inv` error for x < 1 |
| C33,C85-C88 | `powf`, `is_integer`, `is_even` | field arithmetic for the classification; C28 + C29/C30 for accuracy |
| C34-C37,C83 | `cos`, `sin`, `tan`, `sin_cos` | range reduction error + polynomial bound for `Real.cos` |
| C38-C41,C81 | `atan`, `atan_norm`, `atan2`, `atan2_norm` | symmetry by bits; `Real.arctan` bound by polynomial positivity |
| C42-C44,C82,C84 | `asin`, `acos` | range, panic and accuracy from C14, C17, C38 |
| C46-C50 | `mul_add`, `F32Ext`, `From`, comparisons, `Sum`, `Product` | computation, exactness lemma, induction over lists |
| C51-C63 | `Vector2d`, `Vector3d`, `Iter`, `Vector` | case analysis, induction over iterators, ring identities |
| C64-C74 | `Quaternion` | exactness lemma, error propagation, ring identities |
| C75-C80 | `Mean`, `Variance`, `StdDev`, `Trim` | induction over lists |
| C89-C93 | `Quaternion::inv`, `rotate`, `from_two_vectors` | error propagation against Mathlib quaternions over the reals; Lagrange identity for the cross product |
| C94-C95 | `mean`, `variance`, `stddev` accuracy | running error bound of the folds, by induction over the list; decomposition of squared deviations at the exact mean |
| C96-C98 | `axis_angle`, `to_euler`, `asin` above one | quaternion of a turn and of Euler angles over the reals, perturbation of arg and arcsin; integer arithmetic of `invsqrt` on negative arguments |
| C99 | `cos`, `sin` on every argument | ties of the additions of a quarter resolved on the grid of halves; lower bounds on magnitudes carried through products and sums that may overflow (`Float/Big.lean`) |
| C100 | `atan`, `atan2` on every argument | squares overflow to infinity and the quotient becomes NaN; absorption of the smaller summand |
| C101 | `floor`, `ceil`, `round`, `trunc` | closed form of each result on every float including the saturated range, then monotonicity of integer parts and of rounding |
| C102 | `exp` | each operation is a monotone function of its rational argument; integer part and fraction compared lexicographically; the shortcut points compared with their neighbours |
| C103 | `hypot`, `magnitude` | closed form on magnitude bits: rounded square, rounded sum, halving of the bit pattern, each monotone |
| C104 | `sqrt`, `inv`, `invsqrt` | exponent and fraction fields; the defect is a perfect square minus a multiple of a power of two |
| C105 | `recip` | the seed of the iteration is a NaN or a large negative number when the subtraction wraps |
| C106 | `log2`, `log10`, `log` | C29, C30 divided by one another; two roundings |
| C107 | `dot`, `perpendicular_dot`, `cross`, `mul_add` | accumulated error of a sum of products (`Acc`, C70); orthogonality from the exact identity |
| C108 | `trim_at`, `trim`, `variance`, `stddev`, `mean` | Chebyshev on the computed squares: each removed item contributes at least the threshold squared to the rounded sum; lower error bounds of the sum, the division and the square root |
| C109 | `div_euclid`, `%`, `trunc` | sign cases of the remainder; rounding moves the integer part by at most one; special values through C05 |
| C110 | `sin`, `cos`, `atan2`, `asin`, `exp`, `ln` | C34, C36, C81, C28, C29 composed; Cauchy-Schwarz for the first |
| C111 | `sqrt`, `invsqrt`, `inv`, `recip` | scaling adds to the exponent field; for `recip` the seed scales exactly, the product with the seed is the same float |
| C112 | `hypot`, `magnitude`, `normalized`, `atan2` | rounding commutes with scaling in the normal range (`RN_scale`); sums of floats never lose to underflow; quotients of equally scaled numbers coincide |
| C113 | `mean`, `variance`, `stddev`, `trim_at` | the relation `Sc k` is carried through the loops; C78 for `trim_at` |
| C114 | `Quaternion::norm`, `magnitude`, `normalize`, `inv` | the relation `Sc k` through the sum of squares; C111 for the root and the reciprocal; C19 bounds the reciprocal away from underflow |
| C115 | `Quaternion::rotate`, `mul`, `conj` | C66 and C90 turned into norm bounds over real quaternions; triangle inequality in the normed algebra |
| C116 | constants and predicates of `impl F32` | evaluation of the literals; neighbouring bit patterns; rounding error below half a unit for the digits |
| C117 | `Rem for F32`, `F32::rem_euclid` | integer `tmod` in units of 2^-149 against the rational integer part; C12 for the second application |
| C118 | operator impls of `F32` with the newtype kept apart from `f32` | unfolding; `RN_nearest` and the tie rule of `rbits` |
| C119 | `+ - * /` and comparisons | results as rounded values cut off at 2^128, which is monotone; Sterbenz; gradual underflow |
| C120 | `hypot`, `magnitude`, `distance`, `Quaternion::magnitude`, `abs`, `copysign`, `signum` | both sides are the same sequence of operations up to adding a zero; NaN-insensitive congruence `Eqv` |
| C121 | `Quaternion::rotate` | C115's norm bound; the product of pure quaternions carries dot and cross product together |
| C122 | `recip` | Horner error bound of the polynomial over [0, 1.04]; monotone geometric sum; the 64 arguments around the boundary are evaluated by the kernel |
| C123 | `exp`, `ln`, `cos`, `sin` | the accuracy theorems C28, C30, C34, C36 combined with the real functional equations and the error of the f32 sum or product |
| C124 | `axis_angle`, quaternion product | C96's accuracy; the real product of two turns about one axis; norm of the product error |
| C125 | `from_two_vectors` | differences swap exactly (`sub_swap`), so both norms are the same float; every operation before the normalisation commutes with powers of two |
| C126 | `mean`, `variance` | monotone rounding, induction on the list; exact bounds n a and n b are representable; ties to even in [2^24, 2^25) for the bytes |
| C127 | `mean`, `variance`, `stddev`, `trim_at` | NaN or infinity is an invariant of the sums; an infinite item minus an infinite mean is NaN |
| C128 | `atan`, `asin`, `acos`, `ln` | each result is within a few roundings of a monotone real function; for `ln` the slope per float beats the rounding after 320 floats |
| C129 | `cos`, `sin` | both follow one real wave (even, period one, falling on half a period, Lipschitz) within rounding |
| C130 | `powi` | congruence of the loop up to NaN and sign; the loop as a monotone map on magnitudes that stays on one side of one; exact exponent arithmetic for powers of two |
| C131 | `PartialEq` of `F32`, vectors, quaternions; `Zero`, `One`, `Inv` | `==` floats differ at most in the sign of zero; the two zeros by evaluation, arithmetic by cases on a zero operand |
| C132 | `acos`, `asin`, `atan`, `atan2` | exact sign symmetry of the quotients; the rational functions satisfy the complement laws exactly, so only roundings remain |
| C133 | `tan`, `atan` | quotient of the bounded `sin` and `cos` errors; Lipschitz bound of `arctan`, and the mean value of `tan` through the addition formula |
| C134 | `exp`, `cosh`, `log2`, `log10`, `log`, `powf` | `exp` is within a relative error of an exact piecewise function that is monotone across the pieces, with monotone even part; roundings are monotone, so the logarithms inherit the order of `ln` |
| C135 | `distance`, `magnitude`, `hypot`, `dot`, `perpendicular_dot` | `sqrt` is monotone on floats, so order needs only the rounding of the sum of squares; triangle and Cauchy-Schwarz inequalities on squares, without roots |
| C136 | `Quaternion` `mul`, `add`, `conj`, `norm` | componentwise error bound and Cauchy-Schwarz give a norm bound against Mathlib's quaternions, where the laws are exact; triangle inequality. The product with the conjugate by sign symmetry of the float operations |
| C137 | `mean`, `variance`, `stddev`, `trim` | a simulation between the two runs, with relation `x' == -x`; exact mean and variance are invariant, and the proved error bounds transfer; integer folds are exact |
| C138 | `powf`, `powi`, `sqrt`, `invsqrt`, `ln`, `log2`, `log10` | every result is a proved factor times an exact exponential of the computed logarithm, so exponent laws are those of the real exponential; logarithm and `powi` errors from C29, C32, C123 and C24 |
| C139 | every function that depends on the configuration | a relational proof over two configurations: congruence of each primitive operation under 'same bits or both NaN', comparisons and conversions agree on related values, results of checked arithmetic agree when both return; lifted through vectors, quaternions, statistics and the trimming iterator |
| C140 | `Display`, `LowerExp`, `UpperExp`, `Debug`, `FromStr`, `from_str_radix` of `F32`, over an arbitrary standard library | unfolding; a toy standard library that honours precision and round-trips shows the hypotheses can be met and the options are lost |
| C141 | `dot`, `perpendicular_dot`, `cross`, `magnitude`, `hypot`, `atan2`, `sin`, `cos` | the computed pair is a small disturbance of `N (cos, sin)` of the exact angle; the argument moves little (C81 and a lemma on complex arguments). In space the 6% error of `magnitude` is a stretch of one coordinate, which turns the point by at most 0.0305 |
| C142 | `add`, `sub`, `mul` by a scalar, `dot`, `cross`, `perpendicular_dot` of f32 vectors | a compositional error analysis: each float is near an exact number, with a bound and an error that are multiples of a power of M; rules for +, - and *; both sides of a law approximate the same number, by ring |
| C143 | `sqrt`, `invsqrt`, `inv` | `inv`: closed form of the deviation and of its sum. `sqrt`, `invsqrt`: the square of the ratio is a rational function of the fraction; it is compared with its values at the middles of 256 or 2048 blocks, whose sum the kernel evaluates |
| C144 | `from_two_vectors` | the result is a multiple of `(κ + cos θ, û × v̂)` with `κ` within 1 .. 1.0607 up to 2^-21 per component (from the analysis of C91); the axis is then nearly orthogonal to both, and the angle follows from the addition theorem of `arctan` |
| C145 | `axis_angle`, `*`, `to_euler` | induction over the list of turns with the error bound of one turn (C96) and of one product (C136); C97 for `to_euler`; turns depend on the angle with Lipschitz constant 1/2 and change sign after a full turn; the Euler angles of a unit quaternion are constructed explicitly |
| C146 | `trim`, `trim_at` | Samuelson's inequality (Cauchy-Schwarz on lists) and the exact statistics of a constant with one exception; the computed mean and standard deviation are within 1.2 % and 6.12 % of a standard deviation by C95 and C77; the test of one item by monotonicity of rounding; the findings by kernel evaluation |
| C147 | `normalized`, `normalize`, `*`, `rotate` | near one, `sqrt` is linear and `invsqrt` is piecewise linear in the bits; the division by `sqrt` is a step of Heron's iteration, so the deviation is squared; the product with `invsqrt` is a map with fixed point `xstar` and slope at most 0.07 above it; induction over the calls or the list of turns with C136 for the products |
| C148 | `sqrt`, `hypot`, `magnitude`, `distance`, `normalized`, `normalize`, `stddev` | the bit tricks below the normal range as linear functions of the bits; the absolute error of the computed sum of squares is far below the square of the smallest value of `sqrt`; the product of `invsqrt` with a subnormal by the inequality of the means; the finding by kernel evaluation |
| C149 | `sin`, `cos`, `tan`, `atan`, `asin`, `axis_angle`, `*` | near zero the computed wave is an explicit polynomial of degree four; the rounded quotient of `atan` with relative errors; `invsqrt` near one from its bits; induction over the list of factors with C136 for the products; the finding from the chain bound and the distance of two exact turns |
| C150 | `ln`, `inv`, `exp`, `powf` | the bit trick of `inv` is linear on each binade, so `ln` below one is minus the core logarithm of an explicit number; the polynomial of `ln` is expanded around one; the concavity of the logarithm gives the factor 1.8; the power from the bound of C28 for `exp` |
| C151 | `mean`, `variance` | the exact laws of pooled means and variances, with the error bounds of C94 and C95 for the three calls; 2^24 + 1 rounds to 2^24, so by monotone rounding no running sum of items up to one passes 2^24; scaling by a power of two |
| C152 | `Add`, `Sub`, `Mul`, `dot`, `cross`, `perpendicular_dot`, `Sum` of integer vectors | every operation that returns is exact modulo 2^w, so both sides are compared in the ring of residues modulo 2^w, where the laws are polynomial identities; residues determine the machine integer |
| C153 | `Div`, `Mul`, `Sum` of integer vectors | componentwise truncated division of exact values; a product that did not overflow with factor -1 is not the smallest value; induction over the list with exact sums in checked builds |
| C154 | `magnitude`, `distance` on integers | sums of squares of integers up to 2^23 are exact; between two integers a < b there is the float a + 1/2, so their bit patterns differ by at least two and stay apart when sqrt halves them |
| C155 | `mean`, `variance`, `stddev` on integers | the mean and all squared deviations are integers below 2^24, so only the last division rounds; in general the lower bound of C95 with (x-m)^2 + (y-m)^2 >= (x-y)^2 / 2 |
| C156 | `rem_euclid`, then `cos` and `sin` | the least remainder over the rationals is periodic and C12 gives the result as its rounding; x - TAU k differs from x - 2 pi k by |k| times the error of TAU; on integers the Euclidean remainder, with exact sums and products of residues |
| C157 | `round` with `*` and `/` | two roundings of relative error 2^-24 move an integer below 2^22 by less than 1/2 - 2^-25, where C11 gives the integer; scaling by a power of two is exact, so the order law and the exceptions of round carry over to the step |
| C158 | `Mul`, `conj`, `rotate` of quaternions | products and sums of halves are multiples of 1/4 and exact; closure and the rows of the rotation matrices by evaluation over the 24 units; each row has one entry 1 or -1, so no sum rounds; composition from the algebra of exact quaternions |
| C159 | `Sum`, `Div` of float vectors, `mean` | induction over the list with any start; C94 for each coordinate; RN is monotone and fixes 2x, 2y, x and y |
| C160 | `mul_add` with `-` | `mul_add` rounds the product and the sum; RN is monotone and fixes floats, so each step keeps the order; errors of three roundings added up |
| C161 | `mul_add` with `-`, folded over a list | a difference of floats that is not exact is at least 2^-125, so two relative errors are smaller than the slack 2^-22 of the weight; induction over the readings; the recurrence e <- (1-t) e + E from C160; failures by evaluation and induction |
| C162 | `mul_add` folded over a list | one step multiplies the relative error of the polynomial of absolute values by (1+2^-24)^2; induction over the coefficients; RN is monotone; integers within 2^24 do not round |
| C163 | `sin_cos`, `*`, `+`, `-` | errors of three roundings; X^2 + Y^2 = (s^2 + c^2)(x^2 + y^2) exactly, disturbed by rounding; C34, C36 and C110 for the angle; induction over the turns; sin and cos of FRAC_PI_4 by evaluation |
| C164 | `sqrt`, `invsqrt`, `inv` with `+ - * /` | the exact steps square the relative error; every operation stays in the normal range, so each rounding is a factor 1 + d; C14, C17 and C19 for the start |
| C165 | `hypot` folded over a list | bounds of one hypot on squares; induction over the coordinates with a lower bound that stays above underflow; the finding by twenty evaluations |
| C166 | `Vector3d` `dot`, `*`, `-`; `normalized` | accumulated rounding errors of dot, two products and a difference; the length by ring and Cauchy-Schwarz; the finding by evaluation |
| C167 | `Vector2d` `dot`, `perpendicular_dot`; `Vector3d` `cross`, `dot` | rounding is monotone and odd, so comparing two rounded products cannot reverse their order; the finding by evaluation |

A property that turned out to be false as documented was restated as the exact behaviour together with a proved
counterexample to the documented contract (theorem names ending in `_false`).

## Properties, status and theorems

All theorem names are in the namespace `Micromath.Props`. Details are in `MANIFEST.json`.

| id | property | status | theorems |
|---|---|---|---|
| C01 | abs clears exactly the sign bit | proved | `C01_abs_bits`, `C01_abs` |
| C02 | copysign takes magnitude from one and sign from the other | proved | `C02_copysign_bits`, `C02_copysign` |
| C03 | signum is exactly +-1 or NaN | proved | `C03_signum` |
| C04 | trunc rounds toward zero below 2^32 | proved | `C04_trunc` |
| C05 | trunc of every float from 2^23 on; NaN is lost and large values are damaged (violated contract) | proved | `C05_trunc_large`, `C05_trunc_exact`, `C05_trunc_large_iff`, `C05_trunc_large_false`, `C05_trunc_nan_false` |
| C06 | fract is exactly x - trunc(x) below 2^32 | proved | `C06_fract` |
| C07 | fract of every float from 2^23 on; NaN is lost and large integers get a fraction (violated contract) | proved | `C07_fract_large`, `C07_fract_exact`, `C07_fract_large_false`, `C07_fract_nan_false` |
| C08 | floor is the greatest integer not above x, in i32 range | proved | `C08_floor` |
| C09 | ceil is the least integer not below x, in i32 range | proved | `C09_ceil` |
| C10 | floor, ceil and round saturate at +-2^31 (violated contract) | proved | `C10_saturation`, `C10_saturation_false` |
| C11 | round is nearest integer, ties away from zero, with exactly two families of exceptions | proved | `C11_round`, `C11_round_exceptions`, `C11_round_false` |
| C12 | rem_euclid range and congruence | proved | `C12_rem_euclid`, `C12_leastRem_spec`, `C12_rem_euclid_nan` |
| C13 | div_euclid and rem_euclid satisfy the division identity on integers | proved | `C13_div_rem_euclid` |
| C14 | sqrt relative error on positive normal numbers | proved | `C14_sqrt` |
| C15 | sqrt never panics, is monotone and returns NaN exactly on negatives and NaN | proved | `C15_sqrt`, `sqrtR_eq` |
| C16 | sqrt of zeros and infinity violates the std contract | proved | `C16_sqrt_special_false`, `C16_sqrt_small` |
| C17 | invsqrt relative error on positive normal numbers | proved | `C17_invsqrt` |
| C18 | invsqrt panics exactly on large-magnitude sign-negative inputs when overflow checks are on | proved | `C18_invsqrt_panic`, `C18_threshold` |
| C19 | inv relative error on positive numbers | proved | `C19_inv` |
| C20 | inv does not approximate 1/x for negative inputs | proved | `C20_inv_negative_false`, `C20_inv_negative`, `C20_inv_large` |
| C21 | recip relative error | proved | `C21_recip`, `C21_recip_zero` |
| C22 | hypot accuracy, symmetry and panic freedom | proved | `C22_hypot` |
| C23 | powi(x,0) = 1 and powi(x,1) = x | proved | `C23_powi_zero_one`, `C23_powi_one_nan` |
| C24 | powi relative error when no early exit and no overflow or underflow | proved | `C24_powi`, `C24_powi_small` |
| C25 | powi panics exactly on i32 overflow, and can loop forever without overflow checks | proved | `C25_powi_panic_iff`, `C25_powi_min_diverges`, `C25_powi_terminates_false` |
| C26 | powi early exit: sound for |x| >= 2, premature for |x| < 1/2 | proved | `C26_powi_exit`, `C26_powi_exit_small`, `C26_powi_exit_false`, `C26_powi_wrap_false` |
| C27 | exp special values; where it panics; NaN is lost (violated std contract) | proved | `C27_exp_zero`, `C27_exp_overflow`, `C27_exp_underflow`, `C27_exp_tiny`, `C27_exp_gap`, `C27_exp_panics_iff`, `C27_exp_never_panics_false`, `C27_exp_nan_false`, `C27_exp_nonneg` |
| C28 | exp relative error | proved | `C28_exp` |
| C29 | ln on x >= 1 | proved | `C29_ln`, `C29_ln_one` |
| C30 | ln on (0,1) | proved | `C30_ln`, `C30_ln_sharp` |
| C31 | ln of non-positive, infinite and NaN inputs (std contract violated at 0 and +inf) | proved | `C31_ln_nan`, `C31_ln_small`, `C31_ln_inf`, `C31_ln_std_false` |
| C32 | log2, log10 and log are scaled ln | proved | `C32_log2`, `C32_log10`, `C32_log`, `C32_nan` |
| C33 | powf on negative bases: classification of the exponent, exact, and where it violates the std contract | proved | `C33_powf_even`, `C33_powf_odd`, `C33_powf_nan`, `C33_powf_fraction`, `C33_powf_large`, `C33_powf_std_false` |
| C34 | cos stays in [-1,1] up to rounding and has error at most 0.002 | proved | `C34_cos`, `C34_cos_error` |
| C35 | cos/sin error bound fails for large inputs | proved | `C35_cos_all_false` |
| C36 | sin error at most 0.002 on |x| <= 4096 and sin_cos agrees with sin and cos | proved | `C36_sin`, `C36_sin_cos` |
| C37 | tan is sin/cos; the documented bound 0.6 holds away from the poles only | proved | `C37_tan_def`, `C37_tan`, `C37_tan_documented_false` |
| C38 | atan is odd, bounded and accurate where x*x does not overflow | proved | `C38_atan` |
| C39 | atan exceeds its documented error bound 0.002 | proved | `C39_atan_documented_false`, `C38_atan` |
| C40 | atan2 lands in the right quadrant, except for negligible negative y | proved | `C40_atan2`, `C40_atan2_false` |
| C41 | atan2(0,0) is not always 0 | proved | `C41_atan2_zero_false` |
| C42 | asin never panics on its domain and stays within [-pi/2, pi/2] | proved | `C42_asin` |
| C43 | asin outside the domain can panic or return a finite value | proved | `C43_asin_panic`, `C43_asin_outside_false` |
| C44 | acos range and domain | proved | `C44_acos` |
| C45 | cosh is even and accurate | proved | `C45_cosh`, `C45_cosh_even`, `C45_cosh_panics_iff` |
| C46 | mul_add is the twice-rounded product-sum | proved | `C46_mul_add`, `C46_mul_add_int`, `C46_mul_add_not_fused` |
| C47 | F32Ext methods agree with F32 methods | proved | `C47_ext_unary`, `C47_ext_more` |
| C48 | integer-to-F32 conversions are exact and order preserving | proved | `C48_from_int_exact`, `C48_from_int_order` |
| C49 | comparison operators agree with real-number order and NaN is unordered | proved | `C49_compare`, `C49_compare_nan`, `C49_partial_cmp` |
| C50 | F32 Sum and Product are left folds | proved | `C50_sum_fold`, `C50_product_fold`, `C50_sum_int`, `C50_sum_order` |
| C51 | Vector get, Index and iter agree and Index panics exactly out of range | proved | `C51_get`, `C51_index`, `C51_iter`, `C51_collect` |
| C52 | from_iter/from_slice accept exactly AXES items | proved | `C52_from_slice`, `C52_from_iter`, `C52_from_iter_iter`, `C52_map` |
| C53 | tuple and array conversions round-trip | proved | `C53_conversions` |
| C54 | vector arithmetic is componentwise, with the assign forms identical | proved | `C54_vector2`, `C54_vector3`, `C54_int_component` |
| C55 | scalar times vector equals vector times scalar | proved | `C55_scalar_comm` |
| C56 | integer dot product is exact, symmetric, bilinear absent overflow | proved | `C56_dot_exact`, `C56_dot_checked`, `C56_dot_wrapping`, `C56_dot_comm` |
| C57 | cross product laws on integer vectors | proved | `C57_cross_exact`, `C57_cross_checked`, `C57_cross_laws`, `C57_cross_self`, `C57_mul_is_cross` |
| C58 | float cross product is anticommutative up to sign of zero | proved | `C58_cross_anticomm` |
| C59 | perpendicular_dot is the z component of the 2D cross | proved | `C59_perp_int`, `C59_perp_float` |
| C60 | Sum of vectors is the componentwise left fold | proved | `C60_sum2`, `C60_sum3`, `C60_sum_order` |
| C61 | vector conversions are lossless | proved | `C61_to_float`, `C61_from_2d` |
| C62 | magnitude, distance and magnitude_sq | proved | `C62_magnitude2`, `C62_magnitude3`, `C62_distance2`, `C62_distance3`, `C62_distance_comm`, `C62_distance_self`, `C62_magnitude_sq_int`, `C62_magnitude_sq_float` |
| C63 | normalized points the same way | proved | `C63_normalized2`, `C63_normalized3`, `C63_zero` |
| C64 | quaternion conj laws | proved | `C64_conj`, `C64_conj_val` |
| C65 | quaternion product is the Hamilton product on exactly representable data | proved | `C65_mul`, `C65_norm`, `C65_assoc`, `C65_hamilton`, `C67_identity` |
| C66 | quaternion product forward error | proved | `C66_mul_err`, `C66_norm_err` |
| C67 | IDENTITY is a two-sided unit for all finite quaternions | proved | `C67_identity` |
| C68 | norm and dot | proved | `C68_norm_dot` |
| C69 | quaternion inv and normalize panic exactly on zero norm (modulo invsqrt overflow checks) | proved | `C69_inv_panic`, `C69_normalize_panic` |
| C70 | normalize yields near-unit norm | proved | `C70_normalize`, `C70_normalize_len` |
| C71 | rotate equals the sandwich product | proved | `C71_rotate`, `C71_identity` |
| C72 | quaternion conversions and accessors | proved | `C72_conversions`, `C72_linear` |
| C73 | to_euler: where it panics | proved | `C73_to_euler_panic`, `C73_to_euler_returns`, `C73_to_euler_normalize`, `C73_to_euler_unnormalized` |
| C74 | axis_angle layout | proved | `C74_axis_angle`, `C74_axis_angle_norm`, `C74_axis_angle_unit`, `C74_axis_angle_sq` |
| C75 | mean is the left-fold sum divided by the count | proved | `C75_mean`, `C75_mean_panic`, `C75_mean_empty`, `C75_mean_int`, `C75_mean_order`, `C75_mean_int_false` |
| C76 | variance is never negative | proved | `C76_variance_nonneg`, `C76_variance_one`, `C76_variance_empty`, `C76_variance_panic` |
| C77 | stddev is sqrt of variance and within 6.1% of the root | proved | `C77_stddev`, `C77_stddev_bounds`, `C77_stddev_empty`, `C76_variance_panic` |
| C78 | trim yields a subsequence, selected pointwise, monotone in the threshold | proved | `C78_trim_filter`, `C78_trim_mono`, `C78_trim_none`, `C78_trim_fused`, `C78_trim_default` |
| C79 | trim on degenerate inputs | proved | `C79_trim_short`, `C79_trim_const`, `C79_trim_const_false` |
| C80 | trim uses the same mean, variance and stddev as the public traits | proved | `C80_trim_stats` |
| C81 | atan2 accuracy against the complex argument | proved | `C81_atan2_accuracy` |
| C82 | asin accuracy | proved | `C82_asin` |
| C83 | cos and sin ignore their argument for large inputs | proved | `C83_cos_large`, `C83_sin_large` |
| C84 | acos accuracy | proved | `C84_acos` |
| C85 | powf accuracy for bases >= 1 | proved | `C85_powf_ge_one` |
| C86 | powf accuracy for bases below 1 | proved | `C86_powf_lt_one`, `C86_powf_lt_one_neg` |
| C87 | powf special values; where the std contract is violated | proved | `C87_powf_zero`, `C87_powf_one`, `C87_powf_unbounded`, `C87_powf_nan_base`, `C87_powf_zero_base` |
| C88 | powf overflow, underflow and panics | proved | `C88_powf_overflow`, `C88_powf_underflow`, `C88_powf_panic`, `C88_powf_panic_example`, `C88_powf_returns` |
| C89 | Quaternion inverse: accuracy | proved | `C89_inv`, `C89_inv_mul` |
| C90 | rotate: error against the exact sandwich product; length | proved | `C90_rotate_err`, `C90_rotate_length`, `C90_rotate_scale` |
| C91 | from_two_vectors rotates u towards v | proved | `C91_unit`, `C91_turns`, `C91_right_angle`, `C91_turns_int` |
| C92 | from_two_vectors: equal, opposite and zero vectors | proved | `C92_same`, `C92_opposite`, `C92_opposite_missed`, `C92_zero` |
| C93 | from_two_vectors: panics | proved | `C93_f32`, `C93_unchecked`, `C93_int` |
| C94 | Sum and mean: error against the exact mean | proved | `C94_sum`, `C94_mean` |
| C95 | variance and stddev: error against the exact sample variance | proved | `C95_variance`, `C95_variance_abs`, `C95_variance_bytes`, `C95_stddev_bytes` |
| C96 | axis_angle followed by rotate is the turn of Rodrigues' formula | proved | `C96_axis_angle`, `C96_turn` |
| C97 | to_euler recovers roll, pitch and yaw | proved | `C97_to_euler`, `C97_axis_roundtrip` |
| C98 | asin just above one, and the pitch of to_euler at the poles | proved | `C98_asin_above`, `C98_pitch_zero`, `C98_gimbal` |
| C99 | cos and sin over the whole of f32 | proved | `C99_cos`, `C99_cos_out`, `C99_cos_zero`, `C99_cos_huge`, `C99_sin`, `C99_sin_out`, `C99_sin_huge`, `C99_inf`, `C99_nan` |
| C100 | atan and atan2 on every argument | proved | `C100_atan`, `C100_atan_nan`, `C100_atan2_nan`, `C100_atan2_huge_y`, `C100_atan2_inf_x`, `C100_atan2_tiny`, `C100_atan2_huge_x` |
| C101 | order and projection laws of floor, ceil, round and trunc | proved | `C101_monotone`, `C101_trunc_monotone`, `C101_idempotent`, `C101_round_idempotent`, `C101_order` |
| C102 | where exp is monotone | proved | `C102_exp_monotone`, `C102_exp_dip`, `C102_exp_ge_one`, `C102_exp_le_one` |
| C103 | range and monotonicity of hypot and the magnitudes | proved | `C103_hypot_range`, `C103_hypot_monotone`, `C103_hypot_huge`, `C103_hypot_tiny`, `C103_magnitude_range`, `C103_magnitude_monotone`, `C103_magnitude_extreme`, `C103_quaternion_magnitude` |
| C104 | where sqrt and inv are exact; order laws of inv and invsqrt | proved | `C104_sqrt_exact`, `C104_inv_involution`, `C104_inv_exact`, `C104_invsqrt_antitone` |
| C105 | recip outside its working range: NaN and wrong-signed infinities (violated contract) | proved | `C105_recip_odd`, `C105_recip_large`, `C105_recip_contract_false` |
| C106 | log2 and log10 below one; log to any base | proved | `C106_log`, `C106_log2`, `C106_log10`, `C106_log_base_one` |
| C107 | rounding error of dot, perpendicular_dot, cross and mul_add | proved | `C107_dot2`, `C107_dot3`, `C107_cross`, `C107_cross_orthogonal`, `C107_mul_add` |
| C108 | trim and trim_at remove a bounded fraction of the data (Chebyshev) | proved | `C108_trim_count`, `C108_trim_default` |
| C109 | div_euclid for all finite quotients, and on special values (violated contract) | proved | `C109_div_euclid`, `C109_div_euclid_false`, `C109_div_euclid_special`, `C109_div_euclid_large_false` |
| C110 | identities between functions: Pythagoras, atan2 of sin and cos, asin of sin, exp and ln | proved | `C110_pythagoras`, `C110_atan2_sin_cos`, `C110_asin_sin`, `C110_exp_ln`, `C110_ln_exp` |
| C111 | sqrt, invsqrt, inv and recip commute exactly with scaling by powers of two | proved | `C111_sqrt`, `C111_invsqrt`, `C111_inv`, `C111_recip` |
| C112 | hypot and magnitude are homogeneous, normalized and atan2 do not depend on the scale | proved | `C112_hypot`, `C112_magnitude`, `C112_normalized`, `C112_atan2` |
| C113 | mean, variance, stddev and trim under scaling of the data by a power of two | proved | `C113_mean`, `C113_variance`, `C113_trim` |
| C114 | quaternion norm, magnitude, normalize and inv under scaling by a power of two | proved | `C114_norm`, `C114_normalize`, `C114_inv` |
| C115 | rotations compose and are undone by the conjugate | proved | `C115_compose`, `C115_undo` |
| C116 | constants and classification of F32 | proved | `C116_class`, `C116_limits`, `C116_min_positive`, `C116_epsilon`, `C116_digits` |
| C117 | the remainder operator, and rem_euclid at its limits | proved | `C117_rem`, `C117_rem_special`, `C117_rem_laws`, `C117_rem_euclid`, `C117_rem_euclid_idem` |
| C118 | all forms of the F32 operators | proved | `C118_add_forms`, `C118_sub_forms`, `C118_mul_forms`, `C118_div_forms`, `C118_rem_forms`, `C118_nearest`, `C118_neg_from`, `C118_compare`, `C118_sum_product` |
| C119 | algebraic and order laws of the F32 operators | proved | `C119_signs`, `C119_order`, `C119_sub`, `C119_neutral`, `C119_laws_false` |
| C120 | functions that compute the same quantity agree bit for bit | proved | `C120_hypot_magnitude`, `C120_magnitude_quaternion`, `C120_distance`, `C120_convert`, `C120_sign` |
| C121 | rotations preserve distances, dot products and cross products | proved | `C121_dot`, `C121_cross`, `C121_distance` |
| C122 | which arguments recip maps to numbers, and its accuracy at the ends of its range | proved | `C122_recip_class`, `C122_recip_accuracy` |
| C123 | functional equations of exp, ln, cos and sin across calls | proved | `C123_exp_add`, `C123_exp_neg`, `C123_ln_mul`, `C123_cos_sin_add`, `C123_cos_sin_period` |
| C124 | rotations about one axis add their angles | proved | `C124_axis_angle_add` |
| C125 | from_two_vectors: exchanging the vectors inverts the rotation, and lengths do not matter | proved | `C125_swap`, `C125_swap_int`, `C125_scale` |
| C126 | order laws of mean, and where the mean leaves the range of the data | proved | `C126_mean_mono`, `C126_mean_between`, `C126_mean_range_false`, `C126_mean_bytes_false` |
| C127 | infinities and NaN among the data, and overflow of the sum | proved | `C127_mean_nan`, `C127_mean_inf`, `C127_variance_nan`, `C127_variance_nan_iff`, `C127_trim_nonfinite`, `C127_overflow` |
| C128 | order of atan, asin, acos and ln up to a tolerance | proved | `C128_atan`, `C128_atan_false`, `C128_ln`, `C128_ln_strict`, `C128_ln_false`, `C128_asin`, `C128_acos` |
| C129 | symmetry, period and order of cos and sin up to rounding | proved | `C129_cos_even`, `C129_sin_odd`, `C129_cos_period`, `C129_sin_period`, `C129_cos_half_turn`, `C129_cos_anti`, `C129_false` |
| C130 | parity, order, exact values and special values of powi | proved | `C130_even`, `C130_odd`, `C130_signs_false`, `C130_minus_one`, `C130_square`, `C130_square_false`, `C130_mono`, `C130_anti`, `C130_one`, `C130_minus_one_pow`, `C130_range`, `C130_nonfinite`, `C130_zero_neg`, `C130_two_pow`, `C130_recip` |
| C131 | what == guarantees for floats, vectors, quaternions and the num-traits identities | proved | `C131_float_eq`, `C131_respects`, `C131_respects_false`, `C131_arith`, `C131_vector_int`, `C131_vector_f32`, `C131_vector2_ops`, `C131_vector3_ops`, `C131_quaternion_ops`, `C131_case`, `C131_num_traits`, `C131_num_inv` |
| C132 | complement and reflection laws of atan, atan2, acos and asin | proved | `C132_acos`, `C132_asin_acos`, `C132_atan_inv`, `C132_atan2_reflect`, `C132_atan2_swap`, `C132_case` |
| C133 | accuracy, sign, symmetry of tan and its round trips with atan | proved | `C133_tan`, `C133_tan_sign`, `C133_atan_tan`, `C133_tan_atan`, `C133_tan_odd`, `C133_case` |
| C134 | order of exp on all arguments, of cosh, log2, log10, log and powf | proved | `C134_exp`, `C134_exp_false`, `C134_cosh`, `C134_cosh_false`, `C134_log2`, `C134_log10`, `C134_log`, `C134_powf_exponent`, `C134_powf_base`, `C134_case`, `C134_powf_case` |
| C135 | distance, magnitude, hypot and dot as a metric: order, triangle inequality, Cauchy-Schwarz | proved | `C135_distance_order2`, `C135_distance_order3`, `C135_magnitude_order`, `C135_triangle2`, `C135_triangle3`, `C135_triangle_false`, `C135_cauchy2`, `C135_cauchy3`, `C135_hypot`, `C135_case` |
| C136 | the laws of quaternion algebra up to rounding | proved | `C136_mul`, `C136_assoc`, `C136_conj`, `C136_distrib`, `C136_norm`, `C136_conj_re`, `C136_conj_i`, `C136_conj_jk`, `C136_conj_false`, `C136_case` |
| C137 | mean, variance, stddev and trim under negation, reordering, shifting and repetition of the data | proved | `C137_mean_neg`, `C137_variance_neg`, `C137_trim_neg`, `C137_trim_perm`, `C137_mean_perm`, `C137_variance_perm`, `C137_perm_int`, `C137_mean_perm_false`, `C137_mean_shift`, `C137_variance_shift`, `C137_mean_twice`, `C137_case` |
| C138 | laws of exponents for powf, and its agreement with powi, *, sqrt, invsqrt and the logarithms | proved | `C138_add`, `C138_neg`, `C138_mul`, `C138_ln`, `C138_pow`, `C138_one`, `C138_square`, `C138_sqrt`, `C138_invsqrt`, `C138_powi`, `C138_log2`, `C138_log10`, `C138_false`, `C138_case` |
| C139 | what the platform and the build flags can change | proved | `C139_pure`, `C139_checked`, `C139_quat`, `C139_unit`, `C139_vec_f32`, `C139_vec_int`, `C139_stats`, `C139_release`, `C139_false`, `C139_case` |
| C140 | formatting ignores the options of the caller; parsing and round trips are those of f32 | proved | `C140_options`, `C140_parse`, `C140_round_trip`, `C140_injective`, `C140_false`, `C140_case` |
| C141 | angles between vectors and polar coordinates | proved | `C141_angle2`, `C141_angle3`, `C141_from_polar`, `C141_to_polar`, `C141_case` |
| C142 | laws of vector algebra for f32 vectors up to rounding | proved | `C142_distrib`, `C142_triple`, `C142_bac_cab`, `C142_jacobi`, `C142_binet_cauchy`, `C142_lagrange`, `C142_parallelogram`, `C142_linear`, `C142_plane`, `C142_case` |
| C143 | the documented average deviations of sqrt, invsqrt and inv | proved | `C143_binade`, `C143_inv`, `C143_sqrt`, `C143_invsqrt`, `C143_overall` |
| C144 | from_two_vectors is the smallest rotation between the vectors | proved | `C144_least`, `C144_smallest` |
| C145 | chains of rotations, and Euler angles through axis_angle and back | proved | `C145_chain`, `C145_build`, `C145_read_back`, `C145_angles_exist`, `C145_rebuild`, `C145_rebuild_any` |
| C146 | which outliers trim can remove | proved | `C146_keep`, `C146_five`, `C146_lone`, `C146_seven`, `C146_six`, `C146_five_false` |
| C147 | repeated normalization and orientations updated in a loop | proved | `C147_vector2`, `C147_vector3`, `C147_quaternion`, `C147_loop`, `C147_gyro`, `C147_shrink`, `C147_fixed`, `C147_identity` |
| C148 | lengths of very short and very long vectors | proved | `C148_sqrt_subnormal`, `C148_sqrt`, `C148_magnitude2`, `C148_magnitude3`, `C148_distance2`, `C148_distance3`, `C148_hypot`, `C148_quaternion_magnitude`, `C148_stddev`, `C148_normalized2`, `C148_normalized3`, `C148_huge`, `C148_huge_false`, `C148_normalize` |
| C149 | small angles: slopes near zero, and chains of small turns | proved | `C149_sin`, `C149_cos`, `C149_sin_short`, `C149_tan`, `C149_axis_angle`, `C149_product`, `C149_small_turns`, `C149_rate`, `C149_rate_false`, `C149_atan`, `C149_asin`, `C149_inverse_short`, `C149_asin_sin`, `C149_case` |
| C150 | logarithms and powers below and next to one | proved | `C150_inv`, `C150_ln`, `C150_ln_near`, `C150_exp_ln`, `C150_ln_above`, `C150_ln_below`, `C150_ln_double_false`, `C150_ln_jump_false`, `C150_powf`, `C150_decay`, `C150_decay_false`, `C150_case` |
| C151 | statistics of joined data, and sums that stop growing | proved | `C151_mean`, `C151_variance`, `C151_sum_bound`, `C151_sum_stops`, `C151_mean_bound`, `C151_ones_false`, `C151_case` |
| C152 | laws of vector algebra for integer vectors, overflow included | proved | `C152_add`, `C152_scalar`, `C152_dot`, `C152_cross`, `C152_triple`, `C152_jacobi`, `C152_plane`, `C152_sum`, `C152_order_false`, `C152_case` |
| C153 | division of integer vectors, and means of integer readings | proved | `C153_div_panics`, `C153_div`, `C153_mul_div`, `C153_mul_div_false`, `C153_div_div`, `C153_mean`, `C153_case` |
| C154 | lengths and distances of vectors of integers are compared exactly | proved | `C154_magnitude2`, `C154_magnitude3`, `C154_distance2`, `C154_distance3`, `C154_bytes`, `C154_exact`, `C154_sharp`, `C154_i16_false`, `C154_case` |
| C155 | variance of integer readings: exact cases, and when it is zero | proved | `C155_variance`, `C155_same`, `C155_shift`, `C155_positive`, `C155_zero_iff`, `C155_case` |
| C156 | wrapping with rem_euclid: angles, headings, clock arithmetic | proved | `C156_periodic`, `C156_idempotent`, `C156_idempotent_false`, `C156_wrap`, `C156_cos_sin`, `C156_emod`, `C156_clock`, `C156_modmul`, `C156_heading` |
| C157 | quantization with round: fixed-point steps and back | proved | `C157_near`, `C157_recover`, `C157_recover_sharp`, `C157_step`, `C157_step_fixed`, `C157_step_monotone` |
| C158 | the 24 exact rotations (Hurwitz units) | proved | `C158_mul`, `C158_chain`, `C158_conj`, `C158_rotate`, `C158_compose`, `C158_case` |
| C159 | sums, centroids and midpoints of float vectors | proved | `C159_sum`, `C159_centroid`, `C159_error`, `C159_midpoint`, `C159_box` |
| C160 | linear interpolation with mul_add | proved | `C160_lerp`, `C160_end`, `C160_end_near`, `C160_end_false`, `C160_lerp_error`, `C160_mix` |
| C161 | exponential smoothing with mul_add | proved | `C161_between`, `C161_range`, `C161_converge`, `C161_reaches_false`, `C161_overshoot_false` |
| C162 | polynomials by Horner's rule with mul_add | proved | `C162_error`, `C162_mono`, `C162_int` |
| C163 | turning points of the plane with sin_cos | proved | `C163_turn`, `C163_factor`, `C163_length`, `C163_chain`, `C163_drift_false` |
| C164 | Newton steps after sqrt, invsqrt and inv | proved | `C164_heron`, `C164_sqrt`, `C164_newton_inv`, `C164_inv`, `C164_newton_invsqrt`, `C164_invsqrt` |
| C165 | lengths in many dimensions by folding hypot | proved | `C165_fold`, `C165_nested`, `C165_zeros_false` |
| C166 | mirroring a vector at a plane | proved | `C166_error`, `C166_normalized`, `C166_length`, `C166_bounce`, `C166_bounce_false` |
| C167 | the sign of dot, perpendicular_dot and cross | proved | `C167_plane`, `C167_cross`, `C167_parallel`, `C167_dot3_false` |

## Mutation testing

`seeded/LOG.jsonl` records edits of the model that imitate realistic bugs, made in a scratch copy, and the theorems that
stopped checking.
