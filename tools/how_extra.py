how['C89-C93']=("`Quaternion::inv`, `rotate`, `from_two_vectors`","error propagation against Mathlib quaternions over the reals; Lagrange identity for the cross product")
how['C94-C95']=("`mean`, `variance`, `stddev` accuracy","running error bound of the folds, by induction over the list; decomposition of squared deviations at the exact mean")
how['C96-C98']=("`axis_angle`, `to_euler`, `asin` above one","quaternion of a turn and of Euler angles over the reals, perturbation of arg and arcsin; integer arithmetic of `invsqrt` on negative arguments")
how['C99']=("`cos`, `sin` on every argument","ties of the additions of a quarter resolved on the grid of halves; lower bounds on magnitudes carried through products and sums that may overflow (`Float/Big.lean`)")
how['C100']=("`atan`, `atan2` on every argument","squares overflow to infinity and the quotient becomes NaN; absorption of the smaller summand")
how['C101']=("`floor`, `ceil`, `round`, `trunc`","closed form of each result on every float including the saturated range, then monotonicity of integer parts and of rounding")
how['C102']=("`exp`","each operation is a monotone function of its rational argument; integer part and fraction compared lexicographically; the shortcut points compared with their neighbours")
how['C103']=("`hypot`, `magnitude`","closed form on magnitude bits: rounded square, rounded sum, halving of the bit pattern, each monotone")
how['C104']=("`sqrt`, `inv`, `invsqrt`","exponent and fraction fields; the defect is a perfect square minus a multiple of a power of two")
how['C105']=("`recip`","the seed of the iteration is a NaN or a large negative number when the subtraction wraps")
how['C106']=("`log2`, `log10`, `log`","C29, C30 divided by one another; two roundings")
how['C107']=("`dot`, `perpendicular_dot`, `cross`, `mul_add`","accumulated error of a sum of products (`Acc`, C70); orthogonality from the exact identity")
how['C108']=("`trim_at`, `trim`, `variance`, `stddev`, `mean`","Chebyshev on the computed squares: each removed item contributes at least the threshold squared to the rounded sum; lower error bounds of the sum, the division and the square root")
how['C109']=("`div_euclid`, `%`, `trunc`","sign cases of the remainder; rounding moves the integer part by at most one; special values through C05")
how['C110']=("`sin`, `cos`, `atan2`, `asin`, `exp`, `ln`","C34, C36, C81, C28, C29 composed; Cauchy-Schwarz for the first")
how['C111']=("`sqrt`, `invsqrt`, `inv`, `recip`","scaling adds to the exponent field; for `recip` the seed scales exactly, the product with the seed is the same float")
how['C112']=("`hypot`, `magnitude`, `normalized`, `atan2`","rounding commutes with scaling in the normal range (`RN_scale`); sums of floats never lose to underflow; quotients of equally scaled numbers coincide")
how['C113']=("`mean`, `variance`, `stddev`, `trim_at`","the relation `Sc k` is carried through the loops; C78 for `trim_at`")
how['C114']=("`Quaternion::norm`, `magnitude`, `normalize`, `inv`","the relation `Sc k` through the sum of squares; C111 for the root and the reciprocal; C19 bounds the reciprocal away from underflow")
how['C115']=("`Quaternion::rotate`, `mul`, `conj`","C66 and C90 turned into norm bounds over real quaternions; triangle inequality in the normed algebra")
how['C116']=("constants and predicates of `impl F32`","evaluation of the literals; neighbouring bit patterns; rounding error below half a unit for the digits")
how['C117']=("`Rem for F32`, `F32::rem_euclid`","integer `tmod` in units of 2^-149 against the rational integer part; C12 for the second application")
how['C118']=("operator impls of `F32` with the newtype kept apart from `f32`","unfolding; `RN_nearest` and the tie rule of `rbits`")
how['C119']=("`+ - * /` and comparisons","results as rounded values cut off at 2^128, which is monotone; Sterbenz; gradual underflow")
how['C120']=("`hypot`, `magnitude`, `distance`, `Quaternion::magnitude`, `abs`, `copysign`, `signum`","both sides are the same sequence of operations up to adding a zero; NaN-insensitive congruence `Eqv`")
how['C121']=("`Quaternion::rotate`","C115's norm bound; the product of pure quaternions carries dot and cross product together")
how['C122']=("`recip`","Horner error bound of the polynomial over [0, 1.04]; monotone geometric sum; the 64 arguments around the boundary are evaluated by the kernel")
how['C123']=("`exp`, `ln`, `cos`, `sin`","the accuracy theorems C28, C30, C34, C36 combined with the real functional equations and the error of the f32 sum or product")
how['C124']=("`axis_angle`, quaternion product","C96's accuracy; the real product of two turns about one axis; norm of the product error")
how['C125']=("`from_two_vectors`","differences swap exactly (`sub_swap`), so both norms are the same float; every operation before the normalisation commutes with powers of two")
how['C126']=("`mean`, `variance`","monotone rounding, induction on the list; exact bounds n a and n b are representable; ties to even in [2^24, 2^25) for the bytes")
how['C127']=("`mean`, `variance`, `stddev`, `trim_at`","NaN or infinity is an invariant of the sums; an infinite item minus an infinite mean is NaN")
how['C128']=("`atan`, `asin`, `acos`, `ln`","each result is within a few roundings of a monotone real function; for `ln` the slope per float beats the rounding after 320 floats")
how['C129']=("`cos`, `sin`","both follow one real wave (even, period one, falling on half a period, Lipschitz) within rounding")
how['C130']=("`powi`","congruence of the loop up to NaN and sign; the loop as a monotone map on magnitudes that stays on one side of one; exact exponent arithmetic for powers of two")
how['C131']=("`PartialEq` of `F32`, vectors, quaternions; `Zero`, `One`, `Inv`","`==` floats differ at most in the sign of zero; the two zeros by evaluation, arithmetic by cases on a zero operand")
how['C132']=("`acos`, `asin`, `atan`, `atan2`","exact sign symmetry of the quotients; the rational functions satisfy the complement laws exactly, so only roundings remain")
how['C133']=("`tan`, `atan`","quotient of the bounded `sin` and `cos` errors; Lipschitz bound of `arctan`, and the mean value of `tan` through the addition formula")
how['C134']=("`exp`, `cosh`, `log2`, `log10`, `log`, `powf`","`exp` is within a relative error of an exact piecewise function that is monotone across the pieces, with monotone even part; roundings are monotone, so the logarithms inherit the order of `ln`")
how['C135']=("`distance`, `magnitude`, `hypot`, `dot`, `perpendicular_dot`","`sqrt` is monotone on floats, so order needs only the rounding of the sum of squares; triangle and Cauchy-Schwarz inequalities on squares, without roots")
how['C136']=("`Quaternion` `mul`, `add`, `conj`, `norm`","componentwise error bound and Cauchy-Schwarz give a norm bound against Mathlib's quaternions, where the laws are exact; triangle inequality. The product with the conjugate by sign symmetry of the float operations")
how['C137']=("`mean`, `variance`, `stddev`, `trim`","a simulation between the two runs, with relation `x' == -x`; exact mean and variance are invariant, and the proved error bounds transfer; integer folds are exact")
how['C138']=("`powf`, `powi`, `sqrt`, `invsqrt`, `ln`, `log2`, `log10`","every result is a proved factor times an exact exponential of the computed logarithm, so exponent laws are those of the real exponential; logarithm and `powi` errors from C29, C32, C123 and C24")
how['C139']=("every function that depends on the configuration","a relational proof over two configurations: congruence of each primitive operation under 'same bits or both NaN', comparisons and conversions agree on related values, results of checked arithmetic agree when both return; lifted through vectors, quaternions, statistics and the trimming iterator")
how['C140']=("`Display`, `LowerExp`, `UpperExp`, `Debug`, `FromStr`, `from_str_radix` of `F32`, over an arbitrary standard library","unfolding; a toy standard library that honours precision and round-trips shows the hypotheses can be met and the options are lost")
how['C141']=("`dot`, `perpendicular_dot`, `cross`, `magnitude`, `hypot`, `atan2`, `sin`, `cos`","the computed pair is a small disturbance of `N (cos, sin)` of the exact angle; the argument moves little (C81 and a lemma on complex arguments). In space the 6% error of `magnitude` is a stretch of one coordinate, which turns the point by at most 0.0305")
how['C142']=("`add`, `sub`, `mul` by a scalar, `dot`, `cross`, `perpendicular_dot` of f32 vectors","a compositional error analysis: each float is near an exact number, with a bound and an error that are multiples of a power of M; rules for +, - and *; both sides of a law approximate the same number, by ring")
how['C143']=("`sqrt`, `invsqrt`, `inv`","`inv`: closed form of the deviation and of its sum. `sqrt`, `invsqrt`: the square of the ratio is a rational function of the fraction; it is compared with its values at the middles of 256 or 2048 blocks, whose sum the kernel evaluates")
how['C144']=("`from_two_vectors`","the result is a multiple of `(κ + cos θ, û × v̂)` with `κ` within 1 .. 1.0607 up to 2^-21 per component (from the analysis of C91); the axis is then nearly orthogonal to both, and the angle follows from the addition theorem of `arctan`")
how['C145']=("`axis_angle`, `*`, `to_euler`","induction over the list of turns with the error bound of one turn (C96) and of one product (C136); C97 for `to_euler`; turns depend on the angle with Lipschitz constant 1/2 and change sign after a full turn; the Euler angles of a unit quaternion are constructed explicitly")
how['C146']=("`trim`, `trim_at`","Samuelson's inequality (Cauchy-Schwarz on lists) and the exact statistics of a constant with one exception; the computed mean and standard deviation are within 1.2 % and 6.12 % of a standard deviation by C95 and C77; the test of one item by monotonicity of rounding; the findings by kernel evaluation")
how["C147"]=("`normalized`, `normalize`, `*`, `rotate`","near one, `sqrt` is linear and `invsqrt` is piecewise linear in the bits; the division by `sqrt` is a step of Heron's iteration, so the deviation is squared; the product with `invsqrt` is a map with fixed point `xstar` and slope at most 0.07 above it; induction over the calls or the list of turns with C136 for the products")
how["C148"]=("`sqrt`, `hypot`, `magnitude`, `distance`, `normalized`, `normalize`, `stddev`","the bit tricks below the normal range as linear functions of the bits; the absolute error of the computed sum of squares is far below the square of the smallest value of `sqrt`; the product of `invsqrt` with a subnormal by the inequality of the means; the finding by kernel evaluation")
how["C149"]=("`sin`, `cos`, `tan`, `atan`, `asin`, `axis_angle`, `*`","near zero the computed wave is an explicit polynomial of degree four; the rounded quotient of `atan` with relative errors; `invsqrt` near one from its bits; induction over the list of factors with C136 for the products; the finding from the chain bound and the distance of two exact turns")
how["C150"]=("`ln`, `inv`, `exp`, `powf`","the bit trick of `inv` is linear on each binade, so `ln` below one is minus the core logarithm of an explicit number; the polynomial of `ln` is expanded around one; the concavity of the logarithm gives the factor 1.8; the power from the bound of C28 for `exp`")
how["C151"]=("`mean`, `variance`","the exact laws of pooled means and variances, with the error bounds of C94 and C95 for the three calls; 2^24 + 1 rounds to 2^24, so by monotone rounding no running sum of items up to one passes 2^24; scaling by a power of two")
how["C152"]=("`Add`, `Sub`, `Mul`, `dot`, `cross`, `perpendicular_dot`, `Sum` of integer vectors","every operation that returns is exact modulo 2^w, so both sides are compared in the ring of residues modulo 2^w, where the laws are polynomial identities; residues determine the machine integer")
how["C153"]=("`Div`, `Mul`, `Sum` of integer vectors","componentwise truncated division of exact values; a product that did not overflow with factor -1 is not the smallest value; induction over the list with exact sums in checked builds")
how["C154"]=("`magnitude`, `distance` on integers","sums of squares of integers up to 2^23 are exact; between two integers a < b there is the float a + 1/2, so their bit patterns differ by at least two and stay apart when sqrt halves them")
how["C155"]=("`mean`, `variance`, `stddev` on integers","the mean and all squared deviations are integers below 2^24, so only the last division rounds; in general the lower bound of C95 with (x-m)^2 + (y-m)^2 >= (x-y)^2 / 2")
how["C156"]=("`rem_euclid`, then `cos` and `sin`","the least remainder over the rationals is periodic and C12 gives the result as its rounding; x - TAU k differs from x - 2 pi k by |k| times the error of TAU; on integers the Euclidean remainder, with exact sums and products of residues")
how["C157"]=("`round` with `*` and `/`","two roundings of relative error 2^-24 move an integer below 2^22 by less than 1/2 - 2^-25, where C11 gives the integer; scaling by a power of two is exact, so the order law and the exceptions of round carry over to the step")
how["C158"]=("`Mul`, `conj`, `rotate` of quaternions","products and sums of halves are multiples of 1/4 and exact; closure and the rows of the rotation matrices by evaluation over the 24 units; each row has one entry 1 or -1, so no sum rounds; composition from the algebra of exact quaternions")
how["C159"]=("`Sum`, `Div` of float vectors, `mean`","induction over the list with any start; C94 for each coordinate; RN is monotone and fixes 2x, 2y, x and y")
how["C160"]=("`mul_add` with `-`","`mul_add` rounds the product and the sum; RN is monotone and fixes floats, so each step keeps the order; errors of three roundings added up")
how["C161"]=("`mul_add` with `-`, folded over a list","a difference of floats that is not exact is at least 2^-125, so two relative errors are smaller than the slack 2^-22 of the weight; induction over the readings; the recurrence e <- (1-t) e + E from C160; failures by evaluation and induction")
how["C162"]=("`mul_add` folded over a list","one step multiplies the relative error of the polynomial of absolute values by (1+2^-24)^2; induction over the coefficients; RN is monotone; integers within 2^24 do not round")
how["C163"]=("`sin_cos`, `*`, `+`, `-`","errors of three roundings; X^2 + Y^2 = (s^2 + c^2)(x^2 + y^2) exactly, disturbed by rounding; C34, C36 and C110 for the angle; induction over the turns; sin and cos of FRAC_PI_4 by evaluation")
how["C164"]=("`sqrt`, `invsqrt`, `inv` with `+ - * /`","the exact steps square the relative error; every operation stays in the normal range, so each rounding is a factor 1 + d; C14, C17 and C19 for the start")
how["C165"]=("`hypot` folded over a list","bounds of one hypot on squares; induction over the coordinates with a lower bound that stays above underflow; the finding by twenty evaluations")
how["C166"]=("`Vector3d` `dot`, `*`, `-`; `normalized`","accumulated rounding errors of dot, two products and a difference; the length by ring and Cauchy-Schwarz; the finding by evaluation")
how["C167"]=("`Vector2d` `dot`, `perpendicular_dot`; `Vector3d` `cross`, `dot`","rounding is monotone and odd, so comparing two rounded products cannot reverse their order; the finding by evaluation")
