{"id": "C01", "title": "abs clears exactly the sign bit", "statement": "For every f32 x, abs(x) has the same exponent and mantissa bits as x and sign bit 0; hence abs is idempotent, abs(-x)=abs(x), abs(x) is |x| for finite x, +inf for infinities and NaN for NaN, and the result is never sign-negative.", "quantifier": "all 2^32 bit patterns of the f32 argument (NaNs with any payload, infinities, zeros, subnormals included)", "why_tests_cant": "2^32 inputs; tests sample a handful and none with NaN payloads", "anchors": ["src/float/abs.rs: F32::abs", "src/f32ext.rs: F32Ext::abs"]}
{"id": "C02", "title": "copysign takes magnitude from one and sign from the other", "statement": "For all x, s: copysign(x,s) has x's exponent and mantissa bits and s's sign bit; copysign(x,x)=x; the value is |x| or -|x| according to s's sign bit, for zeros, infinities and NaN too.", "quantifier": "all pairs of bit patterns", "why_tests_cant": "2^64 input pairs", "anchors": ["src/float/copysign.rs: F32::copysign"]}
{"id": "C03", "title": "signum is exactly +-1 or NaN", "statement": "For every non-NaN x signum(x) is exactly 1.0 when the sign bit is 0 (+0.0 and +inf included) and exactly -1.0 when it is 1; for NaN the result is NaN.", "quantifier": "all 2^32 bit patterns of the f32 argument (NaNs with any payload, infinities, zeros, subnormals included)", "why_tests_cant": "2^32 inputs", "anchors": ["src/float/signum.rs: F32::signum"]}
{"id": "C04", "title": "trunc rounds toward zero below 2^32", "statement": "For every finite x with |x| < 2^32, trunc(x) is exactly the integer obtained by discarding the fraction of x, keeps x's sign bit (trunc(-0.3) = -0.0), and never panics.", "quantifier": "all finite f32 with |x| < 2^32", "why_tests_cant": "about 2^31.3 inputs, with per-exponent shift amounts", "anchors": ["src/float/trunc.rs: F32::trunc"]}
{"id": "C05", "title": "trunc of every float from 2^23 on; NaN is lost and large values are damaged (violated contract)", "statement": "trunc(x) = x for 2^23 <= |x| < 2^32 and for infinities. The documented contract (every float from 2^23 on is an integer, so trunc is the identity; trunc(NaN) is NaN) is violated otherwise: for finite |x| with 2^(32k) <= |x| < 2^(32k+32), trunc rounds x toward zero to a multiple of 2^(32k) (so trunc(1.25*2^33) = 2^33), with an exact criterion for trunc(x) = x; and trunc of every NaN is an infinity.", "quantifier": "all f32 with |x| >= 2^23, infinities, NaN", "why_tests_cant": "the shift amount wraps modulo 32, so failures need particular exponents and mantissas", "anchors": ["src/float/trunc.rs: F32::trunc"]}
{"id": "C06", "title": "fract is exactly x - trunc(x) below 2^32", "statement": "For every finite |x| < 2^32: fract(x) has x's sign bit, |fract(x)| < 1, and trunc(x) + fract(x) = x exactly as real numbers; the float addition trunc(x)+fract(x) also returns x.", "quantifier": "all finite f32 with |x| < 2^32", "why_tests_cant": "2^31.3 inputs; involves leading-zero counts and renormalisation", "anchors": ["src/float/fract.rs: F32::fract"]}
{"id": "C07", "title": "fract of every float from 2^23 on; NaN is lost and large integers get a fraction (violated contract)", "statement": "fract(x) is a zero with x's sign for 2^23 <= |x| < 2^32 and for infinities. The documented contract (a float from 2^23 on has no fraction; fract(NaN) is NaN) is violated otherwise: for 2^(32k) <= |x| < 2^(32k+32), fract(x) is exactly the fraction of x/2^(32k) (so fract(1.25*2^33) = 0.5), and fract of every NaN is finite.", "quantifier": "all f32 with |x| >= 2^23 and all NaNs", "why_tests_cant": "needs specific exponents at or above 32", "anchors": ["src/float/fract.rs: F32::fract"]}
{"id": "C08", "title": "floor is the greatest integer not above x, in i32 range", "statement": "For every finite x with -2^31 <= x < 2^31 floor(x) is the largest integer <= x, exactly.", "quantifier": "all finite f32 in [-2^31, 2^31)", "why_tests_cant": "about 2^32 inputs", "anchors": ["src/float/floor.rs: F32::floor"]}
{"id": "C09", "title": "ceil is the least integer not below x, in i32 range", "statement": "For every finite x with -2^31 < x <= 2^31 ceil(x) is the least integer >= x, exactly, and ceil(x) = -floor(-x) bit for bit.", "quantifier": "all finite f32 in (-2^31, 2^31]", "why_tests_cant": "about 2^32 inputs", "anchors": ["src/float/ceil.rs: F32::ceil"]}
{"id": "C10", "title": "floor, ceil and round saturate at +-2^31 (violated contract)", "statement": "The documented contract (floor, ceil and round of a finite float is the neighbouring integer, hence x itself for |x| >= 2^31) is violated for every |x| > 2^31: floor, ceil and round are all exactly 2^31 for every x >= 2^31 and +inf, and exactly -2^31 for every x <= -2^31 and -inf; NaN gives a zero.", "quantifier": "all finite f32 with |x| >= 2^31", "why_tests_cant": "needs inputs far outside what tests sample; the i32 cast saturates", "anchors": ["src/float/floor.rs", "src/float/ceil.rs", "src/float/round.rs"]}
{"id": "C11", "title": "round is nearest integer, ties away from zero, with exactly two families of exceptions", "statement": "For every finite |x| < 2^31, round(x) is the integer nearest to x, ties away from zero, except exactly when |x| = 0.5 - 2^-25 or |x| is an odd integer between 2^23 and 2^24; on those the documented contract is violated and the result is off by one, away from zero.", "quantifier": "all finite f32 with |x| < 2^31", "why_tests_cant": "the failing inputs (0.5-2^-25 and odd integers between 2^23 and 2^24) are isolated points caused by the rounding of x+0.5", "anchors": ["src/float/round.rs: F32::round"]}
{"id": "C12", "title": "rem_euclid range and congruence", "statement": "For finite x and finite nonzero m: 0 <= rem_euclid(x,m) <= |m|, the result is the correctly rounded value of the exact least non-negative remainder, and equals it exactly whenever x >= 0 or the exact remainder is representable; NaN for m = 0, x infinite or NaN operands.", "quantifier": "all pairs of f32", "why_tests_cant": "2^64 input pairs", "anchors": ["src/float/rem_euclid.rs: F32::rem_euclid"]}
{"id": "C13", "title": "div_euclid and rem_euclid satisfy the division identity on integers", "statement": "For integer-valued a, b with |a|, |b| < 2^24 and b != 0, div_euclid(a,b) and rem_euclid(a,b) are exactly the Euclidean quotient and remainder: a = b*q + r with 0 <= r < |b|.", "quantifier": "all integer-valued f32 pairs below 2^24 in magnitude", "why_tests_cant": "2^50 pairs; quotient is rounded before truncation", "anchors": ["src/float/div_euclid.rs: F32::div_euclid", "src/float/rem_euclid.rs"]}
{"id": "C14", "title": "sqrt relative error on positive normal numbers", "statement": "For every positive normal finite x: sqrt(x) is finite, positive, and (1-2^-22)*x <= sqrt(x)^2 <= (9/8)*x, i.e. the result never undershoots by more than 2^-22 and never overshoots the true root by more than 6.07%.", "quantifier": "all positive normal f32", "why_tests_cant": "2.1e9 inputs; tests use a one-sided delta scaled by x", "anchors": ["src/float/sqrt.rs: F32::sqrt"]}
{"id": "C15", "title": "sqrt never panics, is monotone and returns NaN exactly on negatives and NaN", "statement": "For every f32: sqrt does not panic in any build mode; sqrt(x) is NaN iff x is NaN or x < 0; on non-negative inputs with sign bit 0, x <= y implies sqrt(x) <= sqrt(y).", "quantifier": "all f32 (pairs for monotonicity)", "why_tests_cant": "2^64 pairs", "anchors": ["src/float/sqrt.rs: F32::sqrt"]}
{"id": "C16", "title": "sqrt of zeros and infinity violates the std contract", "statement": "The std contract of the F32Ext drop-in (sqrt(0.0)=0.0, sqrt(-0.0)=-0.0 or 0.0, sqrt(+inf)=+inf) is violated at all three inputs: sqrt(0.0), sqrt(-0.0) and sqrt(+inf) are other, finite values, and zeros and subnormals give a tiny positive result.", "quantifier": "the three special inputs", "why_tests_cant": "isolated special values no test touches", "anchors": ["src/float/sqrt.rs: F32::sqrt", "src/f32ext.rs: F32Ext::sqrt"]}
{"id": "C17", "title": "invsqrt relative error on positive normal numbers", "statement": "For every positive normal finite x: invsqrt(x) is finite, positive, does not panic, and 0.93 <= x * invsqrt(x)^2 <= 1.07 (relative error of invsqrt below 3.6%).", "quantifier": "all positive normal f32", "why_tests_cant": "2.1e9 inputs", "anchors": ["src/float/invsqrt.rs: F32::invsqrt"]}
{"id": "C18", "title": "invsqrt panics exactly on large-magnitude sign-negative inputs when overflow checks are on", "statement": "With overflow checks invsqrt(x) panics iff to_bits(x)>>1 > 0x5f375a86, i.e. iff x has its sign bit set and magnitude bits at least 0x3e6eb50e (x <= -0.2331...); without overflow checks it never panics.", "quantifier": "all f32 and both build modes", "why_tests_cant": "2^32 inputs times build modes", "anchors": ["src/float/invsqrt.rs: F32::invsqrt"]}
{"id": "C19", "title": "inv relative error on positive numbers", "statement": "For every positive normal x with to_bits(x) <= 0x7e800000 (x <= 2^126): 1 <= x*inv(x) <= 9/8 exactly, so inv overestimates 1/x by at most 12.5%.", "quantifier": "all positive normal f32 up to 2^126", "why_tests_cant": "2e9 inputs", "anchors": ["src/float/inv.rs: F32::inv"]}
{"id": "C20", "title": "inv does not approximate 1/x for negative inputs", "statement": "The documented contract that inv(x) approximates 1/x (about 8% average deviation) for every nonzero finite x is violated on every negative input: inv gives +0.0 on all negative finite x.", "quantifier": "all finite nonzero f32", "why_tests_cant": "tests only use non-negative inputs", "anchors": ["src/float/inv.rs: F32::inv", "src/f32ext.rs: F32Ext::inv"]}
{"id": "C21", "title": "recip relative error", "statement": "For every x with 2^-126 <= |x| <= 2^125, recip(x) is finite and |x*recip(x) - 1| <= 1.2e-5; recip(-x) = -recip(x); recip of a zero is the infinity of its sign.", "quantifier": "all f32 in that range", "why_tests_cant": "about 1.7e9 inputs; degree-7 polynomial in floating point", "anchors": ["src/float/recip.rs: F32::recip"]}
{"id": "C22", "title": "hypot accuracy, symmetry and panic freedom", "statement": "For all finite x, y whose squares and sum neither overflow nor underflow, hypot(x,y)^2 lies between (1-2^-20) and (9/8)(1+2^-20) times x^2+y^2; hypot(x,y) = hypot(y,x) for all non-NaN inputs; hypot never panics.", "quantifier": "all pairs of f32", "why_tests_cant": "2^64 pairs", "anchors": ["src/float/hypot.rs: F32::hypot"]}
{"id": "C23", "title": "powi(x,0) = 1 and powi(x,1) = x", "statement": "For every f32 x (NaN, infinities and zeros included) powi(x,0) is exactly 1.0; for every finite x powi(x,1) returns x itself.", "quantifier": "all 2^32 bit patterns of the f32 argument (NaNs with any payload, infinities, zeros, subnormals included)", "why_tests_cant": "2^32 inputs with early-exit branches", "anchors": ["src/float/powi.rs: F32::powi"]}
{"id": "C24", "title": "powi relative error when no early exit and no overflow or underflow", "statement": "For finite x with 2^-126 <= |x| and every n with 0 < |n| < 2^20 for which the exponent shortcut of powi is not taken (always so for |x| >= 1/2; for 2^e <= |x| < 2^(e+1) with e <= -2 it means -149 <= e*n <= 127), if x^n lies in [2^-125, 2^127] then powi(x,n) is finite and |powi(x,n) - x^n| <= ((1+2^-24)^(2|n|) - 1) |x^n|.", "quantifier": "all f32 in range and all n", "why_tests_cant": "n unbounded by tests; error accumulates over square-and-multiply", "anchors": ["src/float/powi.rs: F32::powi"]}
{"id": "C25", "title": "powi panics exactly on i32 overflow, and can loop forever without overflow checks", "statement": "With overflow checks powi(x,n) panics iff n = i32::MIN, or the early-exit test multiplies the exponent of x by n and leaves the i32 range; otherwise it returns. Without overflow checks it returns for every n other than i32::MIN, and powi(x, i32::MIN) loops forever exactly when 1/2 <= |x| < 2 or the biased exponent of x is odd (violating the expectation that it terminates).", "quantifier": "all (x, n) pairs, both build modes", "why_tests_cant": "2^64 pairs and two build modes", "anchors": ["src/float/powi.rs: F32::powi"]}
{"id": "C26", "title": "powi early exit: sound for |x| >= 2, premature for |x| < 1/2", "statement": "For |x| >= 2 the early exit of powi returns an infinity only if |x^n| >= 2^128 and zero only if |x^n| < 2^-149. For |x| < 1/2 that expectation is violated (0.49^-64 is returned as +inf, 0.49^75 as 0) and only |x^n| > 2^63 and |x^n| < 2^-74 are guaranteed. Without overflow checks the i32 product wraps: 4.0.powi(2^30) is 0.", "quantifier": "all finite x and all n", "why_tests_cant": "needs base/exponent combinations tests do not include", "anchors": ["src/float/powi.rs: F32::powi"]}
{"id": "C27", "title": "exp special values; where it panics; NaN is lost (violated std contract)", "statement": "exp(±0)=1; exp(x)=+inf for finite x >= 89.41599 and for +inf; exp(x)=0 for x <= -89 and for -inf; the result never has its sign bit set; on x <= -87.34 it lies in [0, 2^-125). The expected \"never panics\" and \"exp(NaN) is NaN\" do not hold: with debug assertions exp panics exactly for finite x with 88.72284 <= x <= 89.41598 (without them it returns an infinity or NaN there), and exp(NaN) is always +inf or 0.", "quantifier": "all f32, both build modes", "why_tests_cant": "a window of inputs around ln(2^128) hits a debug assertion; NaN handling depends on bit patterns", "anchors": ["src/float/exp.rs: F32::exp", "src/float.rs: set_exponent"]}
{"id": "C28", "title": "exp relative error", "statement": "For every finite x with -87.3 <= x <= 88.7, exp(x) returns a finite value and |exp(x) - e^x| <= 0.003 * e^x.", "quantifier": "all f32 in [-87, 88]", "why_tests_cant": "2.2e9 inputs against the real exponential", "anchors": ["src/float/exp.rs: F32::exp"]}
{"id": "C29", "title": "ln on x >= 1", "statement": "For every finite x >= 1, ln(x) is finite and |ln(x) - log x| <= 0.00008, and ln(1) is exactly 0.", "quantifier": "all f32 >= 1", "why_tests_cant": "about 1e9 inputs against the real logarithm", "anchors": ["src/float/ln.rs: F32::ln"]}
{"id": "C30", "title": "ln on (0,1)", "statement": "For every normal x in (0,1), ln(x) is finite and -0.1179 <= ln(x) - log x <= 0.00008; the error is inherited from inv, and at x = 0.75 it is below -0.1177, so the bound is sharp.", "quantifier": "all normal f32 in (0,1)", "why_tests_cant": "1e9 inputs; tests have a one-sided relative check that cannot fail for negative logarithms", "anchors": ["src/float/ln.rs: F32::ln"]}
{"id": "C31", "title": "ln of non-positive, infinite and NaN inputs (std contract violated at 0 and +inf)", "statement": "ln(x) is NaN for NaN and for every x with its sign bit set (-0.0 included); ln(+0.0) and ln of every positive subnormal is a finite number in [-88.04, -87.33], and ln(+inf) is NaN. The std contract ln(0) = -inf, ln(+inf) = +inf is violated.", "quantifier": "all non-positive f32, +inf, NaN", "why_tests_cant": "special values never tested", "anchors": ["src/float/ln.rs: F32::ln"]}
{"id": "C32", "title": "log2, log10 and log are scaled ln", "statement": "For every finite x >= 1: |log2(x) - log_2 x| <= 0.00013 and |log10(x) - log_10 x| <= 0.00004; for finite b >= 2 also |log(x,b) - log_b x| <= 0.00013(1 + log_b x). For NaN and sign-negative x all three are NaN.", "quantifier": "all f32", "why_tests_cant": "1e9 inputs", "anchors": ["src/float/log2.rs", "src/float/log10.rs", "src/float/log.rs"]}
{"id": "C33", "title": "powf on negative bases: classification of the exponent, exact, and where it violates the std contract", "statement": "For finite x < 0: for an even integer n with |n| < 2^32 powf(x,n) is powf(|x|,n), for an odd integer n it is -powf(|x|,n) (same panics), and for a non-integer n it is NaN unless |n| = 2^-j. The std contract is violated both ways: for n = +-2^-j (1 <= j <= 126) powf(x,n) is powf(|x|,n) instead of NaN (powf(-4,0.5) is about 2), and for 2^(32k) <= |n| < 2^(32k+32), k >= 1, the result is NaN unless n is a multiple of 2^(32k).", "quantifier": "all pairs of f32", "why_tests_cant": "classification by bit shifts modulo 32; failing exponents are powers of two below one and large integers", "anchors": ["src/float/powf.rs: F32::powf", "src/float.rs: is_integer, is_even"]}
{"id": "C34", "title": "cos stays in [-1,1] up to rounding and has error at most 0.002", "statement": "For every f32 with |x| <= 4096, |cos(x) - cos x| <= 0.002 and |cos(x)| <= 1 + 2^-20.", "quantifier": "all f32 with |x| <= 4096", "why_tests_cant": "2.2e9 inputs against the real cosine", "anchors": ["src/float/cos.rs: F32::cos"]}
{"id": "C35", "title": "cos/sin error bound fails for large inputs", "statement": "The documented claim that cos and sin have maximum error 0.002, without a range restriction, is violated for large inputs: at 1e30 both results are infinite.", "quantifier": "all finite f32", "why_tests_cant": "fails only for large inputs", "anchors": ["src/float/cos.rs", "src/float/sin.rs"]}
{"id": "C36", "title": "sin error at most 0.002 on |x| <= 4096 and sin_cos agrees with sin and cos", "statement": "For every f32 |x| <= 4096, |sin(x) - sin x| <= 0.002; for every f32 sin_cos(x) = (sin(x), cos(x)) bit for bit, both as F32 and F32Ext methods.", "quantifier": "all f32", "why_tests_cant": "2.2e9 inputs", "anchors": ["src/float/sin.rs: F32::sin", "src/float/sin_cos.rs", "src/f32ext.rs: sin_cos"]}
{"id": "C37", "title": "tan is sin/cos; the documented bound 0.6 holds away from the poles only", "statement": "tan(x) is the float quotient of sin(x) and cos(x); for |x| <= 4096 with |cos x| >= 1/15 the result is within the documented 0.6 of tan x. The documented bound is violated near the poles: tan of the float nearest pi/2 is +inf while the true tangent there is finite and negative.", "quantifier": "all f32", "why_tests_cant": "the bound fails only near poles", "anchors": ["src/float/tan.rs: F32::tan"]}
{"id": "C38", "title": "atan is odd, bounded and accurate where x*x does not overflow", "statement": "For every finite |x| <= 2^63: atan(-x) = -atan(x) bit for bit, |atan_norm(x)| <= 1, and |atan(x) - arctan x| <= 0.00284.", "quantifier": "all f32 with |x| <= 2^63", "why_tests_cant": "2^32 inputs against the real arctangent", "anchors": ["src/float/atan.rs: F32::atan, F32::atan_norm"]}
{"id": "C39", "title": "atan exceeds its documented error bound 0.002", "statement": "The documented claim that atan has maximum error 0.002 for every input is violated: there is a finite input with a larger error, and the result at both infinities is NaN.", "quantifier": "all f32", "why_tests_cant": "tests use tolerance 0.003 and one-sided deltas", "anchors": ["src/float/atan.rs: F32::atan"]}
{"id": "C40", "title": "atan2 lands in the right quadrant, except for negligible negative y", "statement": "For finite x, y up to 9e18 in magnitude, not both below 2^-62: atan2(y,x) is finite, in [-PI, PI] (f32 constants), at most PI/2 in magnitude when x's sign bit is 0 and at least PI/2 when it is 1; it is >= 0 when y's sign bit is 0, and <= 0 when it is 1 except that the result may be +PI when x is negative too; its sign bit is that of y whenever |y| >= 2^-17|x|. For smaller negative y the sign is lost: atan2(-2^-30, -1) = +PI and atan2(-2^-30, 1) = +0.0.", "quantifier": "all pairs of f32 in range", "why_tests_cant": "2^64 pairs", "anchors": ["src/float/atan2.rs: F32::atan2, F32::atan2_norm"]}
{"id": "C41", "title": "atan2(0,0) is not always 0", "statement": "The documented special case atan2(0,0) = 0 is violated for some sign combinations of the two zeros; the result for each of the four pairs is determined.", "quantifier": "the four zero pairs", "why_tests_cant": "documented special case without a test", "anchors": ["src/float/atan2.rs: F32::atan2"]}
{"id": "C42", "title": "asin never panics on its domain and stays within [-pi/2, pi/2]", "statement": "For every x with |x| <= 1, asin(x) does not panic in any build mode, is not NaN, and |asin(x)| <= pi/2 (as f32); asin(-x) = -asin(x).", "quantifier": "all f32 in [-1,1], both build modes", "why_tests_cant": "2.1e9 inputs", "anchors": ["src/float/asin.rs: F32::asin"]}
{"id": "C43", "title": "asin outside the domain can panic or return a finite value", "statement": "The std contract that asin(x) is NaN for |x| > 1 and that no input panics is violated: some inputs above 1 give a finite result, and the inputs on which asin panics in overflow-checked builds are exactly those where 1 - x*x is negative with magnitude bits at least 0x3e6eb50e.", "quantifier": "all f32, both build modes", "why_tests_cant": "requires overflow-checked builds and out-of-domain inputs", "anchors": ["src/float/asin.rs", "src/float/invsqrt.rs"]}
{"id": "C44", "title": "acos range and domain", "statement": "acos never panics; for |x| > 1 and NaN it is NaN; for 2^-60 <= |x| <= 1 and x = 0 it lies in [0, pi].", "quantifier": "all f32", "why_tests_cant": "2^32 inputs", "anchors": ["src/float/acos.rs: F32::acos"]}
{"id": "C45", "title": "cosh is even and accurate", "statement": "For every f32: cosh panics for x iff it panics for -x (exactly when debug assertions are on and 88.72284 <= |x| <= 89.41598), and otherwise cosh(-x) = cosh(x) bit for bit, NaN matching NaN; for |x| <= 87 the relative error is at most 0.004.", "quantifier": "all f32", "why_tests_cant": "2^32 inputs", "anchors": ["src/float/cosh.rs: F32::cosh"]}
{"id": "C46", "title": "mul_add is the twice-rounded product-sum", "statement": "mul_add(x,a,b) is x*a rounded, then +b rounded; for integer-valued operands whose product and sum stay below 2^24 it is exact. It is not a fused operation.", "quantifier": "all triples of f32", "why_tests_cant": "2^96 triples", "anchors": ["src/float/mul_add.rs: F32::mul_add"]}
{"id": "C47", "title": "F32Ext methods agree with F32 methods", "statement": "For every f32 and every method of F32Ext, the result bits equal those of the F32 method applied to F32(self), including the hand-expanded sin_cos.", "quantifier": "all methods, all inputs", "why_tests_cant": "2^32 inputs times 35 methods", "anchors": ["src/f32ext.rs: impl F32Ext for f32"]}
{"id": "C48", "title": "integer-to-F32 conversions are exact and order preserving", "statement": "F32::from(n) for every i8, i16, u8, u16 n has exactly the value n; n < m iff F32::from(n) < F32::from(m).", "quantifier": "all values of the four integer types", "why_tests_cant": "65536^2 pairs", "anchors": ["src/float.rs: From<i8/i16/u8/u16> for F32"]}
{"id": "C49", "title": "comparison operators agree with real-number order and NaN is unordered", "statement": "For non-NaN f32 a,b: a<b, a<=b, a==b hold iff they hold of the extended real values (so -0.0 == 0.0); every comparison with NaN is false; partial_cmp is consistent across F32/f32 mixed impls.", "quantifier": "all pairs of f32", "why_tests_cant": "2^64 pairs", "anchors": ["src/float.rs: PartialEq/PartialOrd impls"]}
{"id": "C50", "title": "F32 Sum and Product are left folds", "statement": "Sum (Product) over any iterator of F32 is the left-to-right float sum from a zero (product from 1.0), for sequences of any length; on integer-valued items whose partial sums stay below 2^24 the sum is exact and order independent.", "quantifier": "all finite sequences", "why_tests_cant": "unbounded length", "anchors": ["src/float.rs: impl Sum, Product for F32"]}
{"id": "C51", "title": "Vector get, Index and iter agree and Index panics exactly out of range", "statement": "For every vector and index i: get(i) is Some of the i-th component iff i < AXES; indexing returns the same component for i < AXES and panics for every i >= AXES; iter() yields exactly the AXES components in order and then None forever.", "quantifier": "all vectors, all indices, any number of next() calls", "why_tests_cant": "unbounded index and call sequences", "anchors": ["src/vector/vector2d.rs", "src/vector/vector3d.rs", "src/vector/iter.rs"]}
{"id": "C52", "title": "from_iter/from_slice accept exactly AXES items", "statement": "from_iter (from_slice) over a sequence succeeds iff its length is exactly AXES, giving the components in order, and panics for every other length; from_iter(v.iter()) = v and map(id) = v. For any iterator, also one that yields items again after None: expect panics iff one of the first AXES calls of next gives None, and assert! panics iff one item too many comes.", "quantifier": "all sequences of any length", "why_tests_cant": "unbounded length", "anchors": ["src/vector.rs: from_slice, map", "src/vector/vector2d.rs, vector3d.rs: FromIterator"]}
{"id": "C53", "title": "tuple and array conversions round-trip", "statement": "Vector -> tuple -> Vector, Vector -> array -> Vector and the reverse directions are identities; to_array lists components in x,y(,z) order.", "quantifier": "all vectors", "why_tests_cant": "all component values of eight component types", "anchors": ["src/vector/vector2d.rs, vector3d.rs: From impls, to_array"]}
{"id": "C54", "title": "vector arithmetic is componentwise, with the assign forms identical", "statement": "Add, Sub, scalar Mul, scalar Div act on each component with the component operation; the result panics iff some component operation panics (overflow under overflow checks, division by zero); op-assign forms give the same value.", "quantifier": "all vectors over all component types, both build modes", "why_tests_cant": "2^64+ inputs, overflow behaviour depends on build mode", "anchors": ["src/vector/vector2d.rs, vector3d.rs: Add, Sub, Mul, Div and assign impls"]}
{"id": "C55", "title": "scalar times vector equals vector times scalar", "statement": "s * v and v * s give identical results (including panics) for every component type.", "quantifier": "all scalars and vectors", "why_tests_cant": "2^64+ inputs", "anchors": ["src/vector/commutative.rs: impl_commutative"]}
{"id": "C56", "title": "integer dot product is exact, symmetric, bilinear absent overflow", "statement": "For integer vectors: if no intermediate overflows dot is the exact integer inner product; dot(a,b) = dot(b,a) in every case (values and panics) ; in wrapping builds dot is the inner product modulo 2^w.", "quantifier": "all integer vectors of i8..u32, both build modes", "why_tests_cant": "2^192 inputs", "anchors": ["src/vector/vector2d.rs, vector3d.rs: dot"]}
{"id": "C57", "title": "cross product laws on integer vectors", "statement": "When no intermediate overflows: cross is the exact determinant formula, a x b = -(b x a), a x a = 0, a.(a x b) = 0 and b.(a x b) = 0 over the integers, and the Lagrange identity |a x b|^2 + (a.b)^2 = |a|^2|b|^2 holds of the exact values; Mul is cross.", "quantifier": "all integer 3-vectors", "why_tests_cant": "2^192 inputs", "anchors": ["src/vector/vector3d.rs: cross, Mul"]}
{"id": "C58", "title": "float cross product is anticommutative up to sign of zero", "statement": "For f32 vectors with no NaN in either product, each component of a x b equals the negation of that of b x a under float equality.", "quantifier": "all pairs of f32 3-vectors", "why_tests_cant": "2^192 inputs", "anchors": ["src/vector/vector3d.rs: cross"]}
{"id": "C59", "title": "perpendicular_dot is the z component of the 2D cross", "statement": "For all 2-vectors perpendicular_dot(a,b) equals (a x b).z bit for bit / value for value; for integer and finite float vectors the x and y components of the cross are zero.", "quantifier": "all pairs of 2-vectors", "why_tests_cant": "2^128 inputs", "anchors": ["src/vector/vector2d.rs: perpendicular_dot, cross"]}
{"id": "C60", "title": "Sum of vectors is the componentwise left fold", "statement": "Sum over an iterator of vectors (by value or reference) equals the vector of component sums taken left to right from the default; for integer components without overflow checks it is independent of the order of items; any length.", "quantifier": "all sequences of vectors", "why_tests_cant": "unbounded length", "anchors": ["src/vector/vector2d.rs, vector3d.rs: impl Sum"]}
{"id": "C61", "title": "vector conversions are lossless", "statement": "From<I8xN/I16xN/U8xN/U16xN> for F32xN preserves every component value exactly, From<Vector2d> for Vector3d keeps x,y and sets z to zero.", "quantifier": "all vectors", "why_tests_cant": "2^48 inputs", "anchors": ["src/vector/vector2d.rs, vector3d.rs: From impls"]}
{"id": "C62", "title": "magnitude, distance and magnitude_sq", "statement": "For 2- and 3-vectors whose components convert to finite floats and whose exact squared length Q lies in [2^-100, 2^124], magnitude(v) is finite, positive and (1-2^-20) Q <= magnitude(v)^2 <= (9/8)(1+2^-20) Q; likewise distance(a,b)^2 against the exact squared distance in [2^-99, 2^123] with 2^-19. distance(a,b) and distance(b,a) are the same bits or both NaN for all vectors; distance(a,a) is the nonzero constant sqrt(0.0) (about 8e-20) for every finite a. magnitude_sq(v) is dot(v,v): for integers in every case, panics included, and for floats bit for bit or both NaN.", "quantifier": "all vectors of all component types", "why_tests_cant": "2^96 inputs", "anchors": ["src/vector.rs: magnitude, distance, magnitude_sq"]}
{"id": "C63", "title": "normalized points the same way", "statement": "For f32 vectors with finite components and exact squared length in [2^-100, 2^124], normalized(v) returns; each component keeps its sign bit and is the quotient by magnitude(v) up to relative 2^-24 (absolute 2^-150 under underflow); the exact squared length of the result is between 8/9-2^-18 and 1+2^-18. normalized of a zero vector is that zero vector, signs included, because magnitude(0) is the nonzero constant sqrt(0.0).", "quantifier": "all f32 vectors in range", "why_tests_cant": "2^96 inputs", "anchors": ["src/vector.rs: normalized"]}
{"id": "C64", "title": "quaternion conj laws", "statement": "conj(conj(q)) = q bit for bit; conj keeps w and negates x,y,z; norm(conj(q)) and norm(q) agree (identical value, NaN matching NaN).", "quantifier": "all quaternions", "why_tests_cant": "2^128 inputs", "anchors": ["src/quaternion.rs: conj, norm"]}
{"id": "C65", "title": "quaternion product is the Hamilton product on exactly representable data", "statement": "For integer-valued components bounded by 2^10 the product is exactly the Hamilton product; hence on such data i^2=j^2=k^2=ijk=-1, IDENTITY is neutral on both sides, products of representable results associate, and norm(q*r) = norm(q)*norm(r) when representable.", "quantifier": "all integer quaternions in the bound", "why_tests_cant": "2^44 pairs and symbolic laws", "anchors": ["src/quaternion.rs: impl Mul for Quaternion"]}
{"id": "C66", "title": "quaternion product forward error", "statement": "For finite quaternions without overflow/underflow each component of q*r differs from the exact Hamilton component by at most 5*2^-24 times the sum of absolute products (plus 2^-147 for underflow).", "quantifier": "all pairs of quaternions in range", "why_tests_cant": "2^256 inputs", "anchors": ["src/quaternion.rs: impl Mul for Quaternion"]}
{"id": "C67", "title": "IDENTITY is a two-sided unit for all finite quaternions", "statement": "For every quaternion with finite components q*IDENTITY and IDENTITY*q compare equal (==) to q.", "quantifier": "all finite quaternions", "why_tests_cant": "2^128 inputs; relies on signed zero rules", "anchors": ["src/quaternion.rs: IDENTITY, Mul"]}
{"id": "C68", "title": "norm and dot", "statement": "norm is never negative or is NaN; norm(q) = dot(q,q) bit for bit; dot is symmetric (NaN matching NaN).", "quantifier": "all quaternions", "why_tests_cant": "2^256 inputs", "anchors": ["src/quaternion.rs: norm, dot"]}
{"id": "C69", "title": "quaternion inv and normalize panic exactly on zero norm (modulo invsqrt overflow checks)", "statement": "inv(q) panics iff norm(q) == 0.0; normalize(q) panics iff norm(q) == 0.0, or overflow checks are on and norm(q) is a sign-negative NaN.", "quantifier": "all quaternions, both build modes", "why_tests_cant": "2^128 inputs", "anchors": ["src/quaternion.rs: inv, normalize"]}
{"id": "C70", "title": "normalize yields near-unit norm", "statement": "For every quaternion with finite components whose exact squared length lies in [2^-100, 2^124], normalize returns in every build mode a finite quaternion whose exact squared length lies in [0.92, 1.08].", "quantifier": "all quaternions in range, every build mode", "why_tests_cant": "2^128 inputs", "anchors": ["src/quaternion.rs: normalize"]}
{"id": "C71", "title": "rotate equals the sandwich product", "statement": "On integer-valued data bounded so that all intermediates are exact, rotate(q,v) is exactly the vector part of q v conj(q); its squared length is norm(q)^2 times that of v; Mul<Vector3d> is rotate; IDENTITY rotates every such vector to itself.", "quantifier": "all quaternions and vectors in the bound", "why_tests_cant": "2^100+ inputs", "anchors": ["src/quaternion.rs: rotate"]}
{"id": "C72", "title": "quaternion conversions and accessors", "statement": "new, From tuple/array, to_array, w/x/y/z and Into tuple/array are mutually inverse and keep component order; From<Vector3d> has w=0; Default is IDENTITY; Add/Sub/scale are componentwise, k*q = q*k.", "quantifier": "all quaternions", "why_tests_cant": "2^128 inputs", "anchors": ["src/quaternion.rs: conversions"]}
{"id": "C73", "title": "to_euler: where it panics", "statement": "to_euler panics exactly when the asin of its pitch argument does; it returns in every build mode for every finite quaternion of exact squared length at most 1.09, in particular for every result of normalize in the range of C70; it can panic on quaternions that are not normalised (1 + j with overflow checks).", "quantifier": "all results of normalize in range, both build modes", "why_tests_cant": "overflow-checked panic in invsqrt reached through asin", "anchors": ["src/quaternion.rs: to_euler"]}
{"id": "C74", "title": "axis_angle layout", "statement": "axis_angle(v,theta) = (cos(theta/2), v * sin(theta/2)) componentwise with the crate's own sin and cos; for unit coordinate axes and |theta| <= 4096 its exact norm is within 0.01 of 1.", "quantifier": "all axes and angles", "why_tests_cant": "2^128 inputs", "anchors": ["src/quaternion.rs: axis_angle"]}
{"id": "C75", "title": "mean is the left-fold sum divided by the count", "statement": "For any sequence, mean is the float left-fold sum divided by the count; on at most 2^24 integer-valued items with partial sums within 2^24 it is the correctly rounded exact mean and independent of order (this fails for more items, because the count itself is rounded); the empty sequence gives NaN; the call panics exactly when overflow checks are on and there are at least 2^31 items (the i32 counter overflows).", "quantifier": "all sequences of any length (count below 2^31)", "why_tests_cant": "unbounded length", "anchors": ["src/statistics/mean.rs: Mean::mean"]}
{"id": "C76", "title": "variance is never negative", "statement": "variance of any slice is NaN, or >= 0, or (for one element) NaN / for the empty slice well defined: never a negative number for slices with at least two elements.", "quantifier": "all slices of any length", "why_tests_cant": "unbounded length", "anchors": ["src/statistics/variance.rs: Variance::variance"]}
{"id": "C77", "title": "stddev is sqrt of variance and within 6.1% of the root", "statement": "stddev(xs) = sqrt(variance(xs)) with the crate's sqrt; when the variance is a positive normal number stddev^2 is in [(1-2^-22) var, (9/8) var]; never panics.", "quantifier": "all slices", "why_tests_cant": "unbounded length", "anchors": ["src/statistics/stddev.rs: StdDev::stddev"]}
{"id": "C78", "title": "trim yields a subsequence, selected pointwise, monotone in the threshold", "statement": "trim_at(t) yields a subsequence of the input in order, keeping an element iff |x-mean|/stddev < t with mean and stddev of the whole input; t1 <= t2 implies the t1 result is a subsequence of the t2 result; t NaN or t <= 0 yields nothing; after the end next() keeps returning None; trim() is trim_at(2.0).", "quantifier": "all slices of any length and thresholds", "why_tests_cant": "unbounded length and call sequences", "anchors": ["src/statistics/trim.rs: Trim, Iter"]}
{"id": "C79", "title": "trim on degenerate inputs", "statement": "trim of an empty or one-element slice is empty; trim of a constant slice of an integer value n with length k >= 2 and |n|*k <= 2^24 keeps every element for every threshold > 0. Constant slices whose float sum is inexact can lose every element: five copies of 16777215.0 at threshold 0.5.", "quantifier": "all such slices", "why_tests_cant": "unbounded length", "anchors": ["src/statistics/trim.rs: Iter::new, next"]}
{"id": "C80", "title": "trim uses the same mean, variance and stddev as the public traits", "statement": "The mean and standard deviation used by trim equal Mean::mean and StdDev::stddev of the same data.", "quantifier": "all slices", "why_tests_cant": "duplicated code; unbounded length", "anchors": ["src/statistics/trim.rs: Iter::new", "src/statistics/variance.rs", "src/statistics/stddev.rs"]}
{"id": "C81", "title": "atan2 accuracy against the complex argument", "statement": "For finite x, y with |x|,|y| <= 9e18 and max(|x|,|y|) >= 2^-62, atan2(y,x) is within 0.00284 of the argument of x+iy, up to one full turn that can occur only when x and y are both negative and |y| < 2^-17|x|.", "quantifier": "all pairs of f32 in range", "why_tests_cant": "two-dimensional domain of 2^62 pairs; real-valued reference", "anchors": ["src/float/atan2.rs: F32::atan2, F32::atan2_norm"]}
{"id": "C82", "title": "asin accuracy", "statement": "For every finite |x| <= 1 the result of asin is within 0.022 of the true arcsine.", "quantifier": "all f32 with |x| <= 1", "why_tests_cant": "real-valued reference over 2^31 inputs; composition of two approximations", "anchors": ["src/float/asin.rs: F32::asin", "src/float/invsqrt.rs", "src/float/atan.rs"]}
{"id": "C83", "title": "cos and sin ignore their argument for large inputs", "statement": "For every f32 with 2^27 <= |x| <= 2^33 the result of cos is zero; the same holds for sin with 2^27+2 <= |x| <= 2^33-2.", "quantifier": "all f32 in the range", "why_tests_cant": "100 million inputs, no test goes beyond a few turns", "anchors": ["src/float/cos.rs: F32::cos", "src/float/sin.rs: F32::sin"]}
{"id": "C84", "title": "acos accuracy", "statement": "For every f32 with 2^-60 <= |x| <= 1 the result of acos is within 0.033 of the true arccosine.", "quantifier": "all f32 with 2^-60 <= |x| <= 1", "why_tests_cant": "real-valued reference over a billion inputs; composition of two approximations", "anchors": ["src/float/acos.rs: F32::acos", "src/float/sqrt.rs", "src/float/atan.rs"]}
{"id": "C85", "title": "powf accuracy for bases >= 1", "statement": "For finite x >= 1 and finite n with -87.29 + 0.00008|n| <= n log x <= 88.69 - 0.00008|n|, powf(x,n) returns a finite value between 0.9969 e^(-0.00008|n|) and 1.0031 e^(0.00008|n|) times x^n.", "quantifier": "all f32 x >= 1, all f32 n with x^n in the normal range", "why_tests_cant": "2^62 pairs against the real power; the error grows exponentially with n", "anchors": ["src/float/powf.rs: F32::powf", "src/float/ln.rs: F32::ln", "src/float/exp.rs: F32::exp"]}
{"id": "C86", "title": "powf accuracy for bases below 1", "statement": "For normal x in (0,1) and finite n with x^n e^(-0.1179 n) in the normal range, powf(x,n) returns a finite value; for n >= 0 it is between 0.9969 e^(-0.1179n) and 1.0031 e^(0.00008n) times x^n, for n <= 0 between 0.9969 e^(-0.00008|n|) and 1.0031 e^(0.1179|n|) times x^n.", "quantifier": "all normal f32 x < 1, all f32 n in range", "why_tests_cant": "2^60 pairs against the real power; the error of inv enters exponentially", "anchors": ["src/float/powf.rs: F32::powf", "src/float/ln.rs: F32::ln", "src/float/exp.rs: F32::exp"]}
{"id": "C87", "title": "powf special values; where the std contract is violated", "statement": "powf(x, +-0) = 1 for every finite x except -0.0, and powf(1,n) = 1 for every finite n. The std contract is violated elsewhere: powf(+inf,n) and powf(-0.0,n) are +inf or 0 for every n, even n = 0; powf(NaN,n) is an infinity or a zero for every integer |n| < 2^32; powf(+0.0,n) is a positive number for 0 < n <= 0.99.", "quantifier": "all f32 x, n of the stated kinds", "why_tests_cant": "special values are never tested; exponent ranges over all floats", "anchors": ["src/float/powf.rs: F32::powf", "src/float/ln.rs: F32::ln", "src/float/exp.rs: F32::exp"]}
{"id": "C88", "title": "powf overflow, underflow and panics", "statement": "For finite x >= 1: powf(x,n) = +inf when n log x >= 89.416 + 0.00008|n| and 0 when n log x <= -89 - 0.00008|n|; between 88.723 + 0.00008|n| and 89.4159 - 0.00008|n| it panics with debug assertions (e.g. powf(2, 128.5)) and is not finite without. Without debug assertions powf never panics on any input.", "quantifier": "all f32 x >= 1 and n; all pairs for the absence of panics", "why_tests_cant": "the panic needs n log x in a window of width 0.69 that no test vector hits", "anchors": ["src/float/powf.rs: F32::powf", "src/float/ln.rs: F32::ln", "src/float/exp.rs: F32::exp", "src/float.rs: F32::set_exponent"]}
{"id": "C89", "title": "Quaternion inverse: accuracy", "statement": "For finite q of exact squared length Q within 2^-100..2^124, inv(q) returns the conjugate scaled by one number k with 1-2^-20 <= kQ <= 9/8(1+2^-20), each component correctly rounded; hence the exact product q*inv(q) has real part within 1-2^-19..9/8+2^-19 and imaginary parts at most 2^-21.", "quantifier": "all finite quaternions of squared length within 2^-100..2^124, all build modes", "why_tests_cant": "four independent floats over 220 binades", "anchors": ["src/quaternion.rs: Quaternion::inv", "src/quaternion.rs: Quaternion::conj", "src/quaternion.rs: Quaternion::norm", "src/float/inv.rs: F32::inv"]}
{"id": "C90", "title": "rotate: error against the exact sandwich product; length", "statement": "For finite q and v in range, each component of rotate(q,v) is finite and within 11*2^-24*|q|^2*(|x|+|y|+|z|) + tiny of the exact q v q*; rotating by a quaternion of squared length within 0.92..1.08 changes the squared length of v by a factor within 0.84..1.17.", "quantifier": "all finite quaternions and vectors of every component type, below overflow", "why_tests_cant": "seven independent floats; accumulated rounding error of 40 operations", "anchors": ["src/quaternion.rs: Quaternion::rotate", "src/quaternion.rs: impl Mul<Vector3d<C>> for Quaternion"]}
{"id": "C91", "title": "from_two_vectors rotates u towards v", "statement": "For vectors of squared length within 2^-28..2^60, from_two_vectors(u,v) returns a quaternion of squared length within 0.9299..1.0701; with c the cosine of the angle, c >= -0.9, the squared distance between the direction of rotate(u) and the direction of v is at most 0.0055 + 0.004(1-c)/(1+c); below 0.1 in distance for angles up to 90 degrees. The same for integer vectors whose dot products do not overflow.", "quantifier": "all f32 vectors in range; all i8, u8, i16, u16 vectors without overflow", "why_tests_cant": "six independent floats; the only test is one pair of vectors", "anchors": ["src/quaternion.rs: Quaternion::from_two_vectors", "src/quaternion.rs: Quaternion::rotate"]}
{"id": "C92", "title": "from_two_vectors: equal, opposite and zero vectors", "statement": "from_two_vectors(u,u) has imaginary part exactly +0 and real part within 0.96..1.04. For v = -u the result is either a half turn about an axis orthogonal to u (to 2^-22) or a real quaternion; the latter violates the contract and happens for u = (1,1,1), where rotating u gives 0.934 u instead of -u. From a zero vector the result has real part 0.863 and imaginary part zero, not a unit quaternion.", "quantifier": "all f32 vectors u of squared length within 2^-28..2^60; all v for the zero vector", "why_tests_cant": "depends on the rounding of sqrt for every vector", "anchors": ["src/quaternion.rs: Quaternion::from_two_vectors", "src/float/sqrt.rs: F32::sqrt"]}
{"id": "C93", "title": "from_two_vectors: panics", "statement": "For f32 vectors of squared length at most 2^60, zero included, from_two_vectors returns in every build mode; without overflow checks it never panics on any bit patterns; for integer vectors it panics exactly when one of the dot products u.u, v.v, u.v panics.", "quantifier": "all such vectors, all build modes", "why_tests_cant": "absence of panics over all inputs", "anchors": ["src/quaternion.rs: Quaternion::from_two_vectors", "src/vector/vector3d.rs: Vector3d::dot", "src/float/invsqrt.rs: F32::invsqrt"]}
{"id": "C94", "title": "Sum and mean: error against the exact mean", "statement": "For n <= 2^23 finite items whose magnitudes add up to at most 2^126, the running sum is finite and within ((1+2^-24)^n - 1) * sum|x| of the exact sum; mean is finite and within ((1+2^-24)^(n+1) - 1) * (sum|x|)/n + 2^-150 of the exact mean.", "quantifier": "all lists of finite f32 of that length, all build modes", "why_tests_cant": "lists of arbitrary length and arbitrary floats; accumulated rounding", "anchors": ["src/statistics/mean.rs: Mean::mean"]}
{"id": "C95", "title": "variance and stddev: error against the exact sample variance", "statement": "For 2 <= n < 2^22 finite items of magnitude at most B <= 2^48, variance is finite, not negative and within (n+4)/2^23 * V + 3((n+1)/2^23 * B + 2^-150)^2 + 2^-147 of the exact sample variance V. For integer data of magnitude at most 255 (every u8 or i8 slice) and n <= 2^16 it is within V/127 + 2^-31; then stddev squared lies within 0.99 V..1.14 V.", "quantifier": "all slices of that length and range, every item type, all build modes", "why_tests_cant": "slices of arbitrary length and arbitrary floats; accumulated rounding and cancellation", "anchors": ["src/statistics/variance.rs: Variance::variance", "src/statistics/stddev.rs: StdDev::stddev", "src/statistics/mean.rs: Mean::mean"]}
{"id": "C96", "title": "axis_angle followed by rotate is the turn of Rodrigues' formula", "statement": "For |theta| <= 8192 and an axis n whose exact squared length is 1 + delta with |delta| <= 0.001: axis_angle(n, theta) is at distance at most 0.00284 from the exact quaternion (cos(theta/2), n sin(theta/2)), and rotate of it on a vector w is within (0.0058 + |delta|) |w| of w turned right-handed by theta about n as Rodrigues' formula says.", "quantifier": "all finite angles of that size, all finite axes of that length, all vectors of every component type, all build modes", "why_tests_cant": "axes, angles and vectors are continuous; a wrong sign or a full instead of half angle shows only against the geometric definition", "anchors": ["src/quaternion.rs: Quaternion::axis_angle", "src/quaternion.rs: Quaternion::rotate", "src/float/sin.rs: F32::sin", "src/float/cos.rs: F32::cos"]}
{"id": "C97", "title": "to_euler recovers roll, pitch and yaw", "statement": "Let Q be the exact quaternion of a roll r about x, then a pitch p about y (|p| <= pi/2), then a yaw y about z. For every finite quaternion at distance at most e from Q with 4k <= cos(p)^2, k = 4.2e + 2^-20, to_euler returns, its pitch is within 0.022 + k/cos p of p, and its roll and yaw are within 0.00284 + 4k/cos p of r and y up to full turns; all three are finite, the pitch within [-FRAC_PI_2, FRAC_PI_2], the roll and the yaw within [-PI, PI]. In particular to_euler of axis_angle about x, y, z gives back the angle as roll, pitch, yaw.", "quantifier": "all real Euler angles away from the poles, all float quaternions near the exact one, all build modes", "why_tests_cant": "three continuous angles and three composed approximations; axis order and sign conventions", "anchors": ["src/quaternion.rs: Quaternion::to_euler", "src/quaternion.rs: Quaternion::axis_angle", "src/float/atan2.rs: F32::atan2", "src/float/asin.rs: F32::asin"]}
{"id": "C98", "title": "asin just above one, and the pitch of to_euler at the poles", "statement": "For finite 1 < |x| <= 1.1, asin x returns in every build mode and the result is within 0.00285 of zero (neither NaN nor near pi/2). Hence whenever the pitch argument of to_euler exceeds one in magnitude the pitch returned is near zero: normalize then to_euler of 1 + j (true pitch pi/2) gives a pitch of at most 0.00285, and so does a float quaternion whose exact squared length is within 2^-22 of one.", "quantifier": "all finite x of that size; all quaternions whose pitch argument lies there; all build modes", "why_tests_cant": "depends on how the rounded argument crosses one; tests use exact unit quaternions", "anchors": ["src/float/asin.rs: F32::asin", "src/float/invsqrt.rs: F32::invsqrt", "src/quaternion.rs: Quaternion::to_euler", "src/quaternion.rs: Quaternion::normalize"]}
{"id": "C99", "title": "cos and sin over the whole of f32", "statement": "For |x| <= 13493038080 (about 2^32 pi), except for two arguments each, cos and sin are finite, at most 1 + 2^-20 in magnitude, and have errors of at most 0.0011 + 1.01e-7|x| and 0.001101 + 1.62e-7|x|. The exceptions are -26353592 and -26353594 for cos, -26353590 and -26353592 for sin: the result there is -4.35. From 26353596 to 13493038080 in magnitude cos is zero. Beyond 13493038080 cos and sin have the sign of the argument and magnitude at least 2^37 or infinite; at an infinity they return it; at NaN they return NaN.", "quantifier": "every f32 bit pattern, all build modes", "why_tests_cant": "two isolated wrong results among four thousand million arguments; the bound is against the real functions", "anchors": ["src/float/cos.rs: F32::cos", "src/float/sin.rs: F32::sin", "src/float/floor.rs: F32::floor"]}
{"id": "C100", "title": "atan and atan2 on every argument", "statement": "atan is finite, odd, at most FRAC_PI_2 in magnitude, of the sign of its argument and within 0.00284 of the arctangent for every finite |x| < 2^64, and NaN exactly when x is NaN, infinite or |x| >= 2^64. atan2(y, x) is NaN if either argument is NaN, if x is infinite, if y is infinite or |y| >= 2^64, or if both are at most 2^-75 in magnitude; for finite |x| >= 2^64 and |y| <= 2^63 with |xy| <= 2^127 it is exactly 0 (x > 0) or PI (x < 0).", "quantifier": "every f32 bit pattern, all build modes", "why_tests_cant": "the thresholds come from overflow and underflow of intermediate squares; tests use arguments of moderate size", "anchors": ["src/float/atan.rs: F32::atan", "src/float/atan2.rs: F32::atan2"]}
{"id": "C101", "title": "order and projection laws of floor, ceil, round and trunc", "statement": "x <= y implies floor(x) <= floor(y), ceil(x) <= ceil(y) and round(x) <= round(y) for all floats including infinities, and trunc(x) <= trunc(y) for |x|, |y| < 2^32; floor, ceil and trunc are idempotent on every bit pattern, round where its result is below 2^23; for |x| <= 2^31, floor(x) <= x <= ceil(x), floor(x) <= trunc(x) <= ceil(x) and ceil(x) - floor(x) is 0 on integers and 1 elsewhere; round(x) lies between floor(x) and ceil(x) for |x| <= 2^23 - 1.", "quantifier": "all pairs of f32 with x <= y; every f32 bit pattern for the projection laws", "why_tests_cant": "relates results on all pairs of arguments, across saturation of the integer casts", "anchors": ["src/float/floor.rs: F32::floor", "src/float/ceil.rs: F32::ceil", "src/float/round.rs: F32::round", "src/float/trunc.rs: F32::trunc"]}
{"id": "C102", "title": "where exp is monotone", "statement": "For 0 <= x <= y < 1453635/16384 (about 88.7228), exp(x) and exp(y) are finite and exp(x) <= exp(y), unless 1 - 2^-24 <= x <= 1 and 1 < y < 1 + 37/2^21, in which case exp(x) > exp(y) strictly: the shortcut returning the constant e near 1 overshoots the series. exp(x) >= 1 for 0 <= x < 1453635/16384; exp(x) lies in [0, 1] for every x <= 0, -infinity included.", "quantifier": "all pairs of f32 in the stated range; every f32 for the bounds", "why_tests_cant": "relates results on all pairs of arguments, and locates the only interval of pairs on which the order fails", "anchors": ["src/float/exp.rs: F32::exp", "src/float/exp.rs: F32::exp_ln2_approx", "src/float/exp.rs: F32::exp_smallx"]}
{"id": "C103", "title": "range and monotonicity of hypot and the magnitudes", "statement": "hypot, Vector2d/Vector3d::magnitude and Quaternion::magnitude return NaN exactly if an input component is NaN; otherwise the result is finite and between 3 * 2^-65 and 2^64 (never zero, never infinite); the result does not decrease when the components grow in magnitude. hypot and the vector magnitudes are exactly 2^64 as soon as a component is infinite or at least 2^64 in magnitude, exactly 3 * 2^-65 if all components are at most 2^-75.", "quantifier": "every f32 bit pattern in every component; every component type of the vectors", "why_tests_cant": "covers overflow and underflow of the squares and relates results on all pairs of arguments", "anchors": ["src/float/hypot.rs: F32::hypot", "src/float/sqrt.rs: F32::sqrt", "src/vector.rs: Vector::magnitude", "src/quaternion.rs: Quaternion::magnitude"]}
{"id": "C104", "title": "where sqrt and inv are exact; order laws of inv and invsqrt", "statement": "On positive normal x: sqrt(x)^2 = x exactly if x is 4^k or (4095/4096)^2 4^k for an integer k. For positive normal x <= 2^126: x*inv(x) = 1 exactly if x is a power of two, and x*inv(x) attains its maximum 9/8 exactly at 3/2 times a power of two. On bit patterns from +0.0 to 2^127, inv(inv(x)) is x bit for bit and inv reverses order. invsqrt reverses order on all sign-positive arguments (zero and infinity included), returns in every build mode, and is finite and positive there.", "quantifier": "all positive normal f32; all f32 from +0.0 to 2^127; all ordered pairs of sign-positive f32", "why_tests_cant": "an exact characterisation over about 2e9 inputs, and relations between pairs of inputs", "anchors": ["src/float/sqrt.rs: F32::sqrt", "src/float/inv.rs: F32::inv", "src/float/invsqrt.rs: F32::invsqrt"]}
{"id": "C105", "title": "recip outside its working range: NaN and wrong-signed infinities (violated contract)", "statement": "recip is odd on every number (or NaN on both sides). For every finite x with 15804394*2^103 < |x| < 15804394*2^104 (1.60e38 to 3.20e38) recip(x) is NaN; for larger |x|, the infinities included, recip(x) is the infinity of the opposite sign, instead of a number near zero. NaN gives NaN.", "quantifier": "every f32 bit pattern with |x| > 15804394*2^103; oddness on every non-NaN f32", "why_tests_cant": "the wrapping subtraction of bit patterns leaves the positive floats only near the top of the range", "anchors": ["src/float/recip.rs: F32::recip"]}
{"id": "C106", "title": "log2 and log10 below one; log to any base", "statement": "For normal x in (0,1): -0.1702 <= log2(x) - log_2 x <= 0.00013 and -0.0513 <= log10(x) - log_10 x <= 0.00004. With e(q) = 0.0001 for q >= 1 and 0.118 for q < 1: for positive normal x and b with |log b| >= e(b) + 0.001, log(x,b) is finite and within (e(x) + e(b)|log_b x|)/(|log b| - e(b)) of log_b x. log(x,1) is the infinity with the sign of ln(x) if ln(x) is non-zero, NaN otherwise.", "quantifier": "all positive normal arguments and bases", "why_tests_cant": "two-argument function over all pairs; bases below one and near one", "anchors": ["src/float/log.rs: F32::log", "src/float/log2.rs: F32::log2", "src/float/log10.rs: F32::log10", "src/float/ln.rs: F32::ln"]}
{"id": "C107", "title": "rounding error of dot, perpendicular_dot, cross and mul_add", "statement": "For finite components whose products have magnitudes summing to at most 2^125: dot (2D) and perpendicular_dot are finite and within 3*2^-24 times that sum, plus 2^-148, of the exact value; dot (3D) within 4*2^-24 times the sum plus 2^-147; each component of cross within 3*2^-24 times the sum of its two product magnitudes plus 2^-148. If all components are at most M <= 2^62 in magnitude, the exact inner product of cross(v,w) with v or with w is at most 18*2^-24*M^3 + 3*2^-148*M. mul_add(x,a,b) is within 3*2^-24*|xa| + 2^-24*|b| + 2^-149 of xa+b.", "quantifier": "all pairs of finite f32 vectors in range; all finite x, a, b in range", "why_tests_cant": "six free f32 components with cancellation and underflow; tests use small integers, for which all operations are exact", "anchors": ["src/vector/vector2d.rs: Vector2d::perpendicular_dot", "src/vector/vector3d.rs: Vector3d::cross", "src/vector.rs: Vector::dot", "src/float/mul_add.rs: F32::mul_add"]}
{"id": "C108", "title": "trim and trim_at remove a bounded fraction of the data (Chebyshev)", "statement": "For 2 <= n <= 2^22 items with a finite variance and a finite threshold t >= 1, trim_at(t) yields a subsequence of the data and the number d of removed items satisfies d*t^2 <= (1 + (n+16)/2^23)(n-1). trim() on at most 2000 items removes fewer than a quarter of them, and nothing from four items or fewer.", "quantifier": "all lists of 2 to 2^22 items of any type convertible to f32 with finite variance; all finite thresholds from one on", "why_tests_cant": "a bound over lists of arbitrary length; mean, variance and square root are all computed approximately and the square root underestimates by up to 3.6 percent", "anchors": ["src/statistics/trim.rs: Trim::trim_at", "src/statistics/trim.rs: Trim::trim", "src/statistics/variance.rs: Variance::variance", "src/statistics/stddev.rs: StdDev::stddev"]}
{"id": "C109", "title": "div_euclid for all finite quotients, and on special values (violated contract)", "statement": "For finite x, finite non-zero y and |x/y| < 2^24 - 2, div_euclid(x,y) is exactly E + intPart(RN(x/y)) - intPart(x/y), with E the Euclidean quotient and RN round-to-nearest; the correction is -1, 0 or 1. It is not always 0: div_euclid(5.0, 0.1) is 50 while the Euclidean quotient matching rem_euclid is 49. If x is infinite or NaN, or y is zero or NaN, the result is an infinity and never NaN. div_euclid(1.25*2^33, 1.0) is 2^33.", "quantifier": "all finite pairs with |x/y| < 2^24-2; all pairs with a special operand", "why_tests_cant": "two-argument function; the failures are at quotients within one rounding of an integer and at special values", "anchors": ["src/float/div_euclid.rs: F32::div_euclid", "src/float/rem_euclid.rs: F32::rem_euclid", "src/float/trunc.rs: F32::trunc"]}
{"id": "C110", "title": "identities between functions: Pythagoras, atan2 of sin and cos, asin of sin, exp and ln", "statement": "|sin(x)^2 + cos(x)^2 - 1| <= 0.0057 and atan2(sin t, cos t) is t modulo 2 pi within 0.011, for finite arguments up to 4096 in magnitude. |asin(sin(x)) - x| <= 0.022 + 0.004/cos(x) for |x| <= 1.4. |exp(ln(x)) - x| <= 0.0031 x for 1 <= x <= 3e38. |ln(exp(x)) - x| <= 0.0032 for 0.0031 <= x <= 88.7.", "quantifier": "all f32 in the stated ranges", "why_tests_cant": "composition of two approximations with branch cuts, over billions of inputs", "anchors": ["src/float/sin.rs: F32::sin", "src/float/cos.rs: F32::cos", "src/float/atan2.rs: F32::atan2", "src/float/asin.rs: F32::asin", "src/float/exp.rs: F32::exp", "src/float/ln.rs: F32::ln"]}
{"id": "C111", "title": "sqrt, invsqrt, inv and recip commute exactly with scaling by powers of two", "statement": "For a positive normal x, k >= 0 and a finite y: if y = 4^k x then sqrt(y) = 2^k sqrt(x) and 2^k invsqrt(y) = invsqrt(x) exactly; if y = 2^k x <= 2^126 then 2^k inv(y) = inv(x); if y = 2^k x <= 2^125 then 2^k recip(y) = recip(x).", "quantifier": "all positive normal f32 and all exponents", "why_tests_cant": "a relation between pairs of inputs over the whole exponent range", "anchors": ["src/float/sqrt.rs: F32::sqrt", "src/float/invsqrt.rs: F32::invsqrt", "src/float/inv.rs: F32::inv", "src/float/recip.rs: F32::recip"]}
{"id": "C112", "title": "hypot and magnitude are homogeneous, normalized and atan2 do not depend on the scale", "statement": "If all components are multiplied by 2^k (k >= 0), no squared component underflows (each is zero or at least 2^-126), the scaled squares are at most 2^124 and not all components are zero: magnitude is multiplied by exactly 2^k (2D and 3D) and normalized is unchanged bit for bit. hypot(2^k x, 2^k y) = 2^k hypot(x, y) exactly, if x^2+y^2 computed on the scaled values is finite. atan2(2^k y, 2^k x) = atan2(y, x) bit for bit, for y in 2^-62..2^62 in magnitude before and after scaling and x likewise or zero.", "quantifier": "all f32 vectors and pairs in range, all exponents", "why_tests_cant": "a relation between pairs of inputs; underflow and rounding of every intermediate result", "anchors": ["src/float/hypot.rs: F32::hypot", "src/vector.rs: Vector::magnitude", "src/vector.rs: Vector::normalized", "src/float/atan2.rs: F32::atan2"]}
{"id": "C113", "title": "mean, variance, stddev and trim under scaling of the data by a power of two", "statement": "For finite data multiplied item by item by 2^k (k >= 0): mean is multiplied by exactly 2^k; variance by exactly 4^k; stddev by exactly 2^k if the variance exceeds 2^-126; trim_at(t) keeps the same positions, for every threshold t. Conditions: fewer than 2^31 items (at least two for the variance), the scaled mean or variance is finite, the float sum is zero or the mean exceeds 2^-126 in magnitude, every deviation from the mean is zero or has a square of at least 2^-126.", "quantifier": "all lists of finite f32 and all exponents meeting the stated conditions; all thresholds", "why_tests_cant": "relation between two runs on lists of arbitrary length", "anchors": ["src/statistics/mean.rs: Mean::mean", "src/statistics/variance.rs: Variance::variance", "src/statistics/stddev.rs: StdDev::stddev", "src/statistics/trim.rs: Trim::trim_at"]}
{"id": "C114", "title": "quaternion norm, magnitude, normalize and inv under scaling by a power of two", "statement": "If all components of q are multiplied by 2^k (k >= 0), no squared component underflows (each is zero or at least 2^-126), the scaled squares are at most 2^124 and q is not zero: norm is multiplied by exactly 4^k, magnitude by exactly 2^k, normalize is unchanged bit for bit, and, when the scaled norm is at most 2^63, every component of inv is divided by exactly 2^k.", "quantifier": "all f32 quaternions in range, all exponents", "why_tests_cant": "a relation between pairs of inputs; underflow and rounding of every intermediate result", "anchors": ["src/quaternion.rs: Quaternion::norm", "src/quaternion.rs: Quaternion::magnitude", "src/quaternion.rs: Quaternion::normalize", "src/quaternion.rs: Quaternion::inv"]}
{"id": "C115", "title": "rotations compose and are undone by the conjugate", "statement": "For finite quaternions q, r of exact squared length at most 1.1 (for example results of normalize) and a vector v of exact length at most 2^118: (q*r).rotate(v) differs from q.rotate(r.rotate(v)) by at most 1e-5 |v| + 2^-138 in length, and q.conj().rotate(q.rotate(v)) and q.rotate(q.conj().rotate(v)) differ from |q|^4 v by at most 6e-6 |v| + 2^-138; all results are finite.", "quantifier": "all finite f32 quaternions and vectors in range", "why_tests_cant": "rounding of every intermediate result over 11 free floats", "anchors": ["src/quaternion.rs: Quaternion::rotate", "src/quaternion.rs: Quaternion::mul", "src/quaternion.rs: Quaternion::conj"]}
{"id": "C116", "title": "constants and classification of F32", "statement": "Every F32 is exactly one of is_nan, is_infinite, is_finite; the infinite ones are exactly INFINITY and NEG_INFINITY; is_sign_negative is the top bit of to_bits and the complement of is_sign_positive on every bit pattern; from_bits and to_bits are inverse. A non-NaN F32 is finite iff MIN <= x <= MAX; MAX = (1 - RADIX^-MANTISSA_DIGITS) RADIX^MAX_EXP = -MIN; 10^MAX_10_EXP <= MAX < 10^(MAX_10_EXP+1). MIN_POSITIVE = RADIX^(MIN_EXP-1), with 10^(MIN_10_EXP-1) < MIN_POSITIVE <= 10^MIN_10_EXP. No float lies strictly between 1 and 1 + EPSILON, which is a float. Multiples m*s, n*s (m <> n, at most 10^DIGITS) of any unit s in range round to different floats; with seven digits this fails (8589973e3 and 8589974e3).", "quantifier": "all 2^32 bit patterns; all units s and all multiples", "why_tests_cant": "statements about all floats and all decimal scales", "anchors": ["src/float.rs: impl F32 (constants, is_nan, is_infinite, is_finite, is_sign_positive, is_sign_negative, to_bits, from_bits)"]}
{"id": "C117", "title": "the remainder operator, and rem_euclid at its limits", "statement": "For finite x and finite non-zero y, x % y is exactly x - y trunc(x/y), has the sign of x even when zero, is smaller than y and not larger than x in magnitude. It is NaN for a zero y, infinite x or NaN operand, and x itself for infinite y. x % -y = x % y, -x % y = -(x % y), (x % y) % y = x % y bit for bit. rem_euclid(x,-m) = rem_euclid(x,m) bit for bit; with an infinite m it is x for x >= 0 and +inf for x < 0. Applying rem_euclid twice changes nothing unless the first result equals |m|, in which case the second result is 0 (both cases occur).", "quantifier": "all pairs of floats in the stated classes", "why_tests_cant": "exactness over all pairs of magnitudes, including remainders of huge by tiny values", "anchors": ["src/float.rs: impl Rem for F32", "src/float/rem_euclid.rs: rem_euclid"]}
{"id": "C118", "title": "all forms of the F32 operators", "statement": "The 29 operator impls of F32 (+, -, *, /, % between F32 and f32 in either order and as assignments) give the same bits as the f32 operation on the wrapped values, for all operands including NaN and infinities. Sum, difference, product and quotient of finite values are the nearest float to the exact result, ties to the even pattern, whenever that is below 2^128 - 2^103. Negation flips exactly the sign bit; conversions to and from f32 are inverse; the default is +0. Mixed comparisons agree with those between two F32, and == agrees with partial_cmp; sum and product are those of the wrapped floats.", "quantifier": "all pairs of bit patterns", "why_tests_cant": "2^64 operand pairs per operator", "anchors": ["src/float.rs:238-587 (operator impls)"]}
{"id": "C119", "title": "algebraic and order laws of the F32 operators", "statement": "x+y and y+x, x*y and y*x, x-y and x+(-y), (-x)*y and -(x*y) are bit for bit equal or both NaN on all operands; y-x = -(x-y) unless zero or NaN. For finite x <= y and z: x+z <= y+z, x-z <= y-z, z-y <= z-x, x*z <= y*z (z >= 0, reversed for z <= 0), x/z <= y/z (z > 0), also when results overflow to infinity. x-y is exact within a factor of two, is zero iff x == y and has the sign of the comparison otherwise (no loss by underflow). x*1, x/1, x+(-0), x-0 are x; x-x = +0 and x/x = 1 for finite x. Associativity, distributivity and (x/y)*y = x fail (counterexamples).", "quantifier": "all floats in the stated classes", "why_tests_cant": "laws over 2^64 and 2^96 tuples", "anchors": ["src/float.rs:238-587 (operator impls)"]}
{"id": "C120", "title": "functions that compute the same quantity agree bit for bit", "statement": "hypot(x,y) = magnitude of (x,y) = magnitude of (x,y,0) = sqrt of dot with itself; magnitude of (x,y,z) = magnitude of the quaternion xi+yj+zk; distance of float vectors is the magnitude of their difference; magnitude and distance of integer vectors are those of the converted vectors and never panic, even where the subtraction does; copysign(x,1) = abs(x), copysign(abs(x),x) = x, copysign(x,-x) = -x, signum(x)*abs(x) = x. All bit for bit, up to the choice of NaN.", "quantifier": "all bit patterns of all components", "why_tests_cant": "2^64 and 2^96 inputs; includes zeros of both signs, overflow and NaN", "anchors": ["src/float/hypot.rs", "src/vector.rs: distance, magnitude", "src/quaternion.rs: magnitude", "src/float/copysign.rs", "src/float/signum.rs"]}
{"id": "C121", "title": "rotations preserve distances, dot products and cross products", "statement": "For finite vectors u, v (squared length at most 2^236) and a quaternion with squared length n <= 1.1: rotate(u).rotate(v) differs from n^2 u.v, and rotate(u) x rotate(v) from n q(u x v)q*, by at most 5.6e-6 |u||v| + 2^-140(|u|+|v|) + 2^-280; |rotate(u)-rotate(v)| differs from n|u-v| by at most 2.5e-6(|u|+|v|) + 2^-140. So unit quaternions keep lengths, angles and handedness.", "quantifier": "all quaternions and vectors in range, all component types", "why_tests_cant": "ten real parameters, geometric law with rounding", "anchors": ["src/quaternion.rs: rotate"]}
{"id": "C122", "title": "which arguments recip maps to numbers, and its accuracy at the ends of its range", "statement": "recip(x) is NaN exactly for NaN and for 15804394*2^103 < |x| < 15804394*2^104; infinite exactly for |x| <= 2063267*2^-149 (zero and the smallest subnormal numbers) and |x| >= 15804394*2^104; finite exactly in between. Where it is finite, x*recip(x) is in [0, 1+2.1e-5]; it is at least 1-0.0162 for |x| <= 5*2^124, 1-1.1e-4 from 2^-127 on and 1-2.5e-5 from 2^-126 on.", "quantifier": "all bit patterns", "why_tests_cant": "a classification of all 2^32 inputs with a boundary between two neighbouring subnormal numbers", "anchors": ["src/float/recip.rs"]}
{"id": "C123", "title": "functional equations of exp, ln, cos and sin across calls", "statement": "exp(x+y) is within 0.92% of exp(x)*exp(y) when x, y and their sum are in [-87.29, 88.69]; exp(x)*exp(-x) is within 0.61% of 1 for |x| <= 87.3; ln(x*y) is within 0.00025 of ln(x)+ln(y) for x, y >= 1 with a finite product; cos and sin of x+y are within 0.0102 of the addition theorems for |x|,|y| <= 2048; cos and sin of two arguments that differ by a multiple of 2*pi up to e differ by at most 0.004+e, and the same holds for opposite arguments with the sign of sin turned, for |x|,|y| <= 4096.", "quantifier": "all pairs of f32 in the stated ranges", "why_tests_cant": "relations between results at all pairs of arguments", "anchors": ["src/float/exp.rs", "src/float/ln.rs", "src/float/cos.rs", "src/float/sin.rs"]}
{"id": "C124", "title": "rotations about one axis add their angles", "statement": "For an axis whose squared length is 1+d, |d| <= 1/1000, and angles |s|,|t| <= 4096, the product of the quaternions axis_angle(n, s) and axis_angle(n, t) is within 0.0091+|d| of axis_angle(n, s+t) as a vector of four numbers.", "quantifier": "all axes of nearly unit length and all pairs of angles in range", "why_tests_cant": "a relation over all axes and pairs of angles", "anchors": ["src/quaternion.rs Quaternion::axis_angle", "src/quaternion.rs Mul"]}
{"id": "C125", "title": "from_two_vectors: exchanging the vectors inverts the rotation, and lengths do not matter", "statement": "from_two_vectors(v, u) is the conjugate of from_two_vectors(u, v): the same real part bit for bit and opposite imaginary parts. The exception are pairs recognised as opposite (their cosine is at most -0.99999^(1/2)), for which both results have real part zero. This holds for f32 vectors of squared length 2^-28 .. 2^60 and for integer vectors whose dot products fit. For f32 vectors, scaling either vector by a power of two does not change a bit of the result (components zero or at least 2^-14 before, at most 2^15 after scaling).", "quantifier": "all pairs of vectors in the stated ranges, all powers of two", "why_tests_cant": "relations between two calls over all pairs of vectors", "anchors": ["src/quaternion.rs Quaternion::from_two_vectors"]}
{"id": "C126", "title": "order laws of mean, and where the mean leaves the range of the data", "statement": "mean is monotone: replacing items by larger ones never lowers it (finite data, finite sums). If all of n <= 2^24 items lie in [a, b] and a, b are integers (times a power of two) with |a| n, |b| n <= 2^24, the mean lies in [a, b]. In general it does not: the mean of three copies of 11184818 is 11184819 and their variance is 1.5, and the mean of 2^17 bytes that are all 255 is above 255.49.", "quantifier": "all lists in the stated ranges", "why_tests_cant": "relation between two calls over all lists; the counterexamples need long lists or special values", "anchors": ["src/statistics/mean.rs mean", "src/statistics/variance.rs variance"]}
{"id": "C127", "title": "infinities and NaN among the data, and overflow of the sum", "statement": "If an item is NaN the mean is NaN; if an item is infinite the mean is NaN or that infinity. For two or more items the variance is NaN exactly when some item is not finite; then stddev is NaN and trim and trim_at yield nothing, whatever the threshold. If finite data overflow the sum, the variance is +inf, stddev is the finite number 2^64, and trim and trim_at yield nothing.", "quantifier": "all lists of fewer than 2^31 items, all thresholds, all item types", "why_tests_cant": "one bad item at any position of a list of any length", "anchors": ["src/statistics/mean.rs mean", "src/statistics/variance.rs variance", "src/statistics/stddev.rs stddev", "src/statistics/trim.rs Iter::next"]}
{"id": "C128", "title": "order of atan, asin, acos and ln up to a tolerance", "statement": "atan preserves order up to 1e-5 wherever its square does not overflow, asin up to 1e-5 on [-1,1] and acos reverses it up to 1.1e-5 (zero or |x| >= 2^-60); ln preserves order up to 2e-5 on the positive normal numbers, and strictly for any two that are at least 320 floats apart. None is monotone: atan falls between 0x3dbb738a and its successor, ln between 0x3f80002c and its successor.", "quantifier": "all pairs of f32 in the stated ranges", "why_tests_cant": "a relation over pairs of inputs, 2^60 of them", "anchors": ["src/float/atan.rs atan", "src/float/asin.rs asin", "src/float/acos.rs acos", "src/float/ln.rs ln"]}
{"id": "C129", "title": "symmetry, period and order of cos and sin up to rounding", "statement": "For |x|, |y| <= 8192: |cos(-x) - cos x| <= 2e-6 + 1.2e-7|x|, |sin(-x) + sin x| <= 2.6e-6 + 2.4e-7|x|; for every integer n the results of cos (sin) at x and y differ by at most |x - y - 2 pi n| + 2e-6 (2.6e-6) + 6e-8 (1.2e-7) (|x| + |y|) + 2.6e-7|n|, and half a turn changes the sign of cos in the same sense. On [0, pi] cos reverses order up to 3e-6. The exact laws fail: cos(-1) and cos 1 differ, sin is not odd at a number near 0.52, and cos rises between two neighbours near 0.03.", "quantifier": "all f32 (pairs of f32) in the range, all integers n", "why_tests_cant": "relations between two calls over 2^62 pairs and all periods; the 0.002 accuracy bound says nothing this fine", "anchors": ["src/float/cos.rs cos", "src/float/sin.rs sin"]}
{"id": "C130", "title": "parity, order, exact values and special values of powi", "statement": "For every f32 x and i32 n: powi(-x,n) fails or returns exactly as powi(x,n), with the same bits for even n (zeros to positive powers excepted) and the negated bits for odd n (unless both are NaN, or the early exit returns +0.0 for both). powi(x,-1) is 1.0/x on every bit pattern; powi(x,2) is x*x except for NaN, -0.0 (returned unchanged, while std gives +0.0) and 2^-75 < |x| < 2^-74, where it is a premature zero; powi(x,-n) = powi(1.0/x,n) bit for bit for 1/2 < |x| < 2. 1^n = 1 and (-1)^n = +-1. For 0 < |n| < 2^24: on powers of two 2^k the result is exactly 2^(kn), +inf above 2^127 and +0.0 below 2^-149; on nonnegative numbers and +inf, positive powers preserve order, negative powers reverse it, and the results are on the right side of one; NaN and the infinities give +-inf for n > 0 and +0.0 for n < -1 (NaN is lost); zeros to negative powers give infinities of the right sign.", "quantifier": "all f32, all i32 exponents (|n| < 2^24 where stated)", "why_tests_cant": "relations between calls over 2^32 bases and 2^32 exponents", "anchors": ["src/float/powi.rs powi"]}
{"id": "C131", "title": "what == guarantees for floats, vectors, quaternions and the num-traits identities", "statement": "x == y on F32 holds exactly if neither is NaN and they have the same bits or are both zeros; it is symmetric, transitive, and reflexive off NaN. If x == y, then abs, neg, floor, ceil, trunc, round, fract, sin, cos, tan, atan, acos, asin, exp, cosh return == results (or both NaN, or fail alike), and so do sums, differences and products; hypot even returns the same bits. sqrt, inv, recip, signum, invsqrt, ln and division distinguish 0.0 from -0.0. Vectors and quaternions are == exactly if all components are; == vectors are interchangeable in dot, cross, perpendicular_dot, + and - and have the same magnitude bit for bit; the same for quaternions in *, +, -, conj, dot, norm, magnitude. is_zero and is_one of num-traits hold exactly for 0 and 1, zero() and one() are neutral for every non-NaN number, and Inv is the approximate inv.", "quantifier": "all f32 and all vectors and quaternions; integer vectors of any width", "why_tests_cant": "2^64 pairs of floats; the exceptional pair 0.0, -0.0 is a single one that a random test does not find", "anchors": ["src/float.rs PartialEq, Zero, One, Inv", "src/vector/vector2d.rs derive(PartialEq)", "src/vector/vector3d.rs derive(PartialEq)", "src/quaternion.rs derive(PartialEq)"]}
{"id": "C132", "title": "complement and reflection laws of atan, atan2, acos and asin", "statement": "acos(-x) is the float PI - acos(x), bit for bit, for 2^-60 <= x <= 1. asin(x) + acos(x) is pi/2 within 0.055 for 2^-60 <= |x| <= 1. atan(x) + atan(1/x) is FRAC_PI_2 within 1e-5 for 2^-60 <= x <= 2^60. For a point (x, y) of the first quadrant (larger coordinate at least 2^-62, both at most 9e18): atan2(y, -x) is PI - atan2(y, x), atan2(-y, x) is -atan2(y, x), atan2(-y, -x) is atan2(y, x) - PI, each within 1e-6, where the last may instead be PI, only if atan2(y, x) <= 1e-6; atan2(y, x) + atan2(x, y) is FRAC_PI_2 within 1e-5.", "quantifier": "all f32 arguments, pairs of f32 for atan2, in the stated ranges", "why_tests_cant": "relates two or three results at every argument; 2^64 pairs for atan2", "anchors": ["src/float/acos.rs:11-19", "src/float/asin.rs:10-12", "src/float/atan.rs:14-34", "src/float/atan2.rs:16-45"]}
{"id": "C133", "title": "accuracy, sign, symmetry of tan and its round trips with atan", "statement": "For |x| <= 4096 with |cos x| >= 0.01, tan(x) is within 0.0036 (1 + tan^2 x) of the real tangent, within 0.0018 (1 + tan^2 x) for |x| <= 16; it has the sign of the tangent when also |sin x| >= 0.0021; tan(-x) is -tan(x) within (8e-6 + 6e-7 |x|)(1 + tan^2 x). For |x| < pi/2 with cos x >= 0.01, atan(tan(x)) is x within 0.0045; for |x| <= 20, tan(atan(x)) is x within 0.0052 (1 + x^2).", "quantifier": "all f32 arguments in the stated ranges", "why_tests_cant": "an accuracy bound at every argument and round trips through two approximations", "anchors": ["src/float/tan.rs:7-9", "src/float/atan.rs:14-34", "src/float/sin.rs:8-10", "src/float/cos.rs:226-233"]}
{"id": "C134", "title": "order of exp on all arguments, of cosh, log2, log10, log and powf", "statement": "For -87.3 <= x <= y <= 88.7, exp(x) <= exp(y)(1 + 6.5e-5), and <= exp(y)(1 + 4.5e-6) when neither argument is within 2^-23 of 1 or -1; exact order fails on negative arguments. For |x| <= |y| <= 87.3, cosh(x) <= cosh(y)(1 + 6.5e-5), and (1 + 5e-6) with moduli away from 1; exact order fails. For positive normal x, y at least 320 float steps apart, log2, log10 and log to a base above one do not decrease, log to a base below 1 - 2^-24 does not increase; for any x <= y, log2(x) <= log2(y) + 4.5e-5 and log10(x) <= log10(y) + 1.3e-5. powf is increasing in the exponent for bases >= 1 and decreasing for bases <= 1, and increasing (n >= 0) or decreasing (n <= 0) in the base over 320 steps, all up to a factor 1 + 6.5e-5, while n ln(x) lies in [-87.29, 88.69].", "quantifier": "all pairs of f32 in the stated ranges", "why_tests_cant": "2^64 pairs of arguments; the excess is a property of all neighbouring floats", "anchors": ["src/float/exp.rs:11-54", "src/float/cosh.rs:11-15", "src/float/log2.rs:8-10", "src/float/log10.rs:8-10", "src/float/log.rs:7-9", "src/float/powf.rs:7-20"]}
{"id": "C135", "title": "distance, magnitude, hypot and dot as a metric: order, triangle inequality, Cauchy-Schwarz", "statement": "distance orders two pairs of finite points correctly whenever their exact squared distances differ relatively by 2^-18, and magnitude orders two vectors correctly at a relative difference of 2^-20 of the exact squared lengths, although each value may be 6% off. distance(u, w) <= 1.0607 (distance(u, v) + distance(v, w)); the exact triangle inequality fails (computed 1.5 against less than 1.43). |dot(u, v)| and |perpendicular_dot(u, v)| are at most |u||v|(1 + 1.2e-6) plus underflow, with computed dot and magnitudes. hypot is at least (1 - 2^-20) times the larger leg and at most 1.0607 times the sum of the legs. Squared lengths in 2^-100 .. 2^123.", "quantifier": "all finite vectors (planar and spatial, every component type for distance and magnitude) in the stated range", "why_tests_cant": "pairs and triples of vectors; the tolerance comes from worst cases of a piecewise linear root", "anchors": ["src/vector.rs:51-80", "src/vector/vector2d.rs:63-66", "src/vector/vector3d.rs:65-68", "src/float/hypot.rs:7-9", "src/float/sqrt.rs:11-17"]}
{"id": "C136", "title": "the laws of quaternion algebra up to rounding", "statement": "For finite quaternions, in the norm of the exact quaternions: q*r is within 6e-7|q||r| + 2^-146 of the Hamilton product when |q||r| <= 2^124; (p*q)*r and p*(q*r) agree within 2.5e-6|p||q||r| plus underflow for lengths up to 2^40; conj(q*r) and conj(r)*conj(q) agree within 1.2e-6|q||r| + 2^-145; p*(q+r) and p*q + p*r agree within 1.4e-6|p|(|q|+|r|) + 2^-144; norm(p*q) and norm(p)*norm(q) agree within 2.5e-6|p|^2|q|^2 plus underflow. For every quaternion, with any components, the real parts of q*conj(q) and conj(q)*q are norm(q) bit for bit (or NaN); their i part is exactly +0 when no product overflows; their j and k parts are at most 6e-7|q|^2 + 2^-146 and need not be zero.", "quantifier": "all finite quaternions in the stated ranges; the real part for all bit patterns", "why_tests_cant": "laws about two and three arbitrary quaternions, up to a proved rounding bound", "anchors": ["src/quaternion.rs:106-108", "src/quaternion.rs:133-135", "src/quaternion.rs:241-248", "src/quaternion.rs:290-297"]}
{"id": "C137", "title": "mean, variance, stddev and trim under negation, reordering, shifting and repetition of the data", "statement": "Negating every item, whatever the data (NaN and infinities included), negates the mean, leaves variance and stddev bit for bit as they are (or NaN), and makes trim keep the negated items at the same positions; one panics exactly when the other does. Reordering finite data changes the mean and the variance by at most twice their proved error bounds; on integer data with an integer mean whose sums stay within 2^24, mean is the same number, variance and stddev have the same bits and trim keeps the same items. In general order matters: mean of 2^24, 1, -2^24 is 0 and of 2^24, -2^24, 1 is 1/3 rounded. Adding c exactly to every item moves the mean by c and leaves the variance, up to the rounding errors of the two calls. Appending integer data to itself leaves the mean unchanged.", "quantifier": "all lists and item types; for the bounds all finite lists of up to 2^22 items", "why_tests_cant": "relates runs on different lists of arbitrary length; tests compare single results with constants", "anchors": ["src/statistics/mean.rs:13-27", "src/statistics/variance.rs:17-31", "src/statistics/stddev.rs:17-24", "src/statistics/trim.rs:60-106"]}
{"id": "C138", "title": "laws of exponents for powf, and its agreement with powi, *, sqrt, invsqrt and the logarithms", "statement": "Within the range of exp: for every positive base powf(x,a)*powf(x,b) and powf(x,a+b) agree within 0.94%, and powf(x,a)*powf(x,-a) is within 0.0063 of 1; for bases >= 1 and |a| <= 10, powf(x,a)*powf(y,a) and powf(x*y,a) agree within 1.2%; ln(powf(x,a)) is within 0.0033 of a*ln(x) and powf(powf(x,a),b) is within 4.1% of powf(x,a*b) when powf(x,a) >= 1. For |x| >= 1, negative bases included, and integers 1 <= |m| <= 100, powf(x,m) and powi(x,m) differ by at most (0.0032 + 0.0001|m|)|x^m|. For x >= 1: powf(x,1) is within 0.32% of x, powf(x,2) within 0.33% of x*x, powf(x,0.5) within 6.1% of sqrt(x), powf(x,-0.5) within 4.1% of invsqrt(x), powf(2,log2 x) within 1.6% and powf(10,log10 x) within 0.71% of x. None of these is exact: powf(3,2) is not 9 and powf(-3,3) is not powi(-3,3).", "quantifier": "all finite floats in the stated ranges", "why_tests_cant": "identities over pairs and triples of floats, about 2^64 and more inputs", "anchors": ["src/float/powf.rs:7-37", "src/float/powi.rs:13-30", "src/float/sqrt.rs:11-17", "src/float/invsqrt.rs:9-11", "src/float/log2.rs:8-10", "src/float/log10.rs:8-10"]}
{"id": "C139", "title": "what the platform and the build flags can change", "statement": "Two builds may differ in the NaN bit patterns their float operations return, in the zero from which the standard library sums, and in overflow checks and debug assertions. Every function that cannot panic (arithmetic, floor, ceil, round, signum, sqrt, inv, recip, hypot, mul_add, rem_euclid, sin, cos, tan, atan, atan2, acos, ln, log, log2, log10, the f32 vector and quaternion operations) returns the same bits, or NaN on both, in any two builds, for all arguments. A function that can panic (powi, invsqrt, asin, exp, cosh, powf, integer vector operations, statistics and trim, normalize, from_two_vectors, to_euler), if it returns in one build, returns the same in every build with the same or fewer checks, when its arguments are not NaN; powf also needs finite arguments and a base other than -0.0, and div_euclid an x / y that is not NaN. With all checks off nothing panics except integer division, Quaternion::inv and normalize of zero, powi with exponent i32::MIN, and the vector constructors. These conditions are needed: powf(inf,1) and powf(-0.0,1) are +inf where operations return a positive NaN and 0 where they return a negative one; div_euclid(0,0) is +inf or -inf; exp(NaN) +inf or 0; asin(NaN) and to_euler of (inf,0,0,inf) panic on one and not on the other.", "quantifier": "all pairs of platforms and builds, all arguments", "why_tests_cant": "a test runs on one platform in one build; agreement of all of them for all inputs cannot be observed", "anchors": ["src/float/powf.rs:7-37", "src/float/exp.rs:16-71", "src/float/div_euclid.rs:8-22", "src/float/invsqrt.rs:9-11", "src/float/asin.rs:8-10", "src/quaternion.rs:65-210", "src/vector.rs:51-93", "src/statistics/mean.rs:16-26", "src/statistics/trim.rs:64-105"]}
{"id": "C140", "title": "formatting ignores the options of the caller; parsing and round trips are those of f32", "statement": "Whatever the standard library's text for f32 is: {}, {:e} and {:E} of an F32 give the text the f32 has with default options, so width, precision, fill, alignment and sign asked for by the caller have no effect ({:.2} of an F32 is not {:.2} of the f32), while {:?} passes them on inside F32(..). from_str and from_str_radix accept the same texts as f32, with the same values and errors. If f32 values other than NaN survive write and parse, so do F32 values, with any options.", "quantifier": "all numbers, all texts, all formatting options, any behaviour of the standard library on f32", "why_tests_cant": "the space of options, numbers and texts is unbounded", "anchors": ["src/float.rs:67-68", "src/float.rs:286-291", "src/float.rs:383-397", "src/float.rs:589-594", "src/float.rs:622-628"]}
{"id": "C141", "title": "angles between vectors and polar coordinates", "statement": "The usual recipes built from the API are right up to stated errors. In the plane, atan2(u.perpendicular_dot(v), u.dot(v)) is the oriented angle from u to v modulo a full turn within 0.00285, for lengths in 2^-30 .. 2^31. In space, atan2(u.cross(v).magnitude(), u.dot(v)) is the angle in [0, pi] between u and v within 0.034, for products of lengths in 2^-25 .. 2^60. For a radius in 2^-49 .. 2^60 and an angle up to 4096, (r cos t, r sin t) is within 0.00201 r of the exact point, its hypot is 0.997 .. 1.064 times r and its atan2 is t modulo a full turn within 0.011. For a point at distance rho in 2^-50 .. 2^60, hypot and atan2 give its polar coordinates (radius within 6.07%, angle within 0.00284) and the point rebuilt from them is within 0.067 rho.", "quantifier": "all finite f32 vectors, radii and angles in the stated ranges", "why_tests_cant": "pairs of vectors range over 2^128 or 2^192 inputs; the errors of four functions compound", "anchors": ["src/vector/vector2d.rs:63-77", "src/vector/vector3d.rs:65-77", "src/vector.rs:72-84", "src/float/atan2.rs:16-52", "src/float/hypot.rs:7-10", "src/float/cos.rs:226-236", "src/float/sin.rs:8-11"]}
{"id": "C142", "title": "laws of vector algebra for f32 vectors up to rounding", "statement": "For f32 vectors with components at most M in magnitude, 2^-30 <= M <= 2^30: u x (v + w) is u x v + u x w within 25/2^24 M^2 per component; u.(v + w) is u.v + u.w within 45/2^24 M^2; u.(v x w), v.(w x u) and (u x v).w agree within 57/2^24 M^3; u x (v x w) is v(u.w) - w(u.v) within 45/2^24 M^3; the Jacobi sum is at most 69/2^24 M^3; (u x v).(w x t) is (u.w)(v.t) - (u.t)(v.w) within 215/2^24 M^4; |u x v|^2 + (u.v)^2 is |u|^2|v|^2 within 219/2^24 M^4; |u+v|^2 + |u-v|^2 is 2(|u|^2 + |v|^2) within 195/2^24 M^2; sums associate within 11/2^24 M and multiples distribute within 9/2^24 M^2. In the plane dot and perpendicular_dot distribute within 25/2^24 M^2 and dot^2 + perpendicular_dot^2 is |u|^2|v|^2 within 69/2^24 M^4.", "quantifier": "all finite f32 vectors with components up to M, all M in 2^-30 .. 2^30", "why_tests_cant": "three or four vectors range over 2^288 or 2^384 inputs, and the bound must hold under every pattern of rounding and cancellation", "anchors": ["src/vector/vector2d.rs:63-77", "src/vector/vector3d.rs:65-77", "src/vector/vector3d.rs:185-270"]}
{"id": "C143", "title": "the documented average deviations of sqrt, invsqrt and inv", "statement": "Averaged over all 2^23 floats between two consecutive powers of two, the relative deviation of inv from 1/x is exactly (1 - 2^-46)/12 = 8.33% (x up to 2^126; documented: ~8%); of sqrt from the root, between 2.3% and 2.45% on [4^k, 2*4^k) and between 1.6% and 1.75% on [2*4^k, 4*4^k); of invsqrt, between 2.19% and 2.33% and between 2.35% and 2.52% (documented for both: ~5%). Averaged over any collection of these intervals, so over all positive normal numbers, sqrt stays at most 2.45% and inv at exactly 8.33%.", "quantifier": "every binade of positive normal floats (254 of them; 252 for inv), every set of binades", "why_tests_cant": "an average over 2^23 floats in each of 254 binades is a statement about 2*10^9 inputs; the tests compare a handful of values against the bound and none measures an average", "anchors": ["src/f32ext.rs:58-62", "src/f32ext.rs:103-104", "src/float/inv.rs", "src/float/invsqrt.rs", "src/float/sqrt.rs"]}
{"id": "C144", "title": "from_two_vectors is the smallest rotation between the vectors", "statement": "Any unit quaternion that takes a unit vector to one at cosine c has a real part of square at most (1+c)/2: it turns by at least the angle theta between them. For finite u and v with squared lengths within 2^-28..2^60 and cosine of the angle at least -0.9, from_two_vectors(u, v) returns a quaternion with positive real part whose axis part is orthogonal to both directions within 10^-5, and whose angle of turn, 2*atan(|imaginary part|/real part), exceeds theta by at most 0.0005 and falls short of it by at most 0.06*tan(theta/2) + 0.0005: it never takes the long way round and adds no turn about the target.", "quantifier": "all pairs of finite f32 vectors with squared lengths within 2^-28..2^60, at most 154 degrees apart", "why_tests_cant": "the one test checks where a single vector lands; infinitely many rotations take u to v, and that the one returned is the smallest concerns its axis and angle over all pairs of directions", "anchors": ["src/quaternion.rs:63-104", "src/quaternion.rs:449-465"]}
{"id": "C145", "title": "chains of rotations, and Euler angles through axis_angle and back", "statement": "Multiplying up N <= 10000 quaternions axis_angle(n, t), axes of squared length within d <= 1/1000 of one and |t| <= 8192, gives a finite quaternion within (1.002842+d)^N - (1+d)^N of the exact product of the turns: the error grows linearly with N. The orientation axis_angle(z, yaw)*axis_angle(y, pitch)*axis_angle(x, roll) is within 0.00856 of the exact one, and for |pitch| <= 1.18 to_euler of it returns the roll and yaw up to full turns and 0.00284 + 0.1439/cos(pitch) and the pitch up to 0.022 + 0.036/cos(pitch). Conversely, every unit quaternion is exactly that of some roll, pitch and yaw; and for every finite q whose exact squared length is within e of one, s the sine of its pitch, k = 4.2e + 2^-20, 4k + s^2 <= 1, building a quaternion again from to_euler(q) gives q or -q within 0.0225 + 4.5k/sqrt(1-s^2) + e.", "quantifier": "all lists of up to 10000 turns; all triples of finite angles in range; all finite quaternions of nearly unit length away from the poles; all build modes", "why_tests_cant": "lists of arbitrary length, three continuous angles; conventions (order of the axes, signs, half angles) only show against the exact rotation; tests cover single calls", "anchors": ["src/quaternion.rs: Quaternion::axis_angle", "src/quaternion.rs: Mul for Quaternion", "src/quaternion.rs: Quaternion::to_euler"]}
{"id": "C146", "title": "which outliers trim can remove", "statement": "Let n <= 4096 finite items of magnitude at most B <= 2^48 have an exact sample variance V >= 2^-100 with ((n+1)B)^2 <= 2^33 V. If (n-1)^2 <= (0.998 t - 0.012)^2 n then trim_at(t) yields every item; so trim() removes nothing from five items or fewer, however far out one of them is (999 stays in 1, 2, 3, 999, 5). If all items but one have the same value, t >= 1 and (1.0613 t + 0.012)^2 n <= (n-1)^2, then trim_at(t) removes exactly that one; so trim() removes a lone outlier, and nothing else, from seven items or more. With six it depends on the scale: the 5 is removed from five zeros and a 5, but the 7 is not removed from five zeros and a 7. Without the bound on V: of 1.0 four times and 1 + 2^-23, trim() removes the last.", "quantifier": "all slices of up to 4096 items of every convertible type, all thresholds, all build modes", "why_tests_cant": "all data of any length up to 4096; whether an outlier is removed depends on its own weight in the standard deviation, on the rounding of the mean and on the error of sqrt", "anchors": ["src/statistics/trim.rs: Trim::trim", "src/statistics/trim.rs: TrimIter::next", "src/statistics/stddev.rs: StdDev::stddev"]}
{"id": "C147", "title": "repeated normalization and orientations updated in a loop", "statement": "Calling Vector2d/Vector3d::normalized again squares the deviation: for squared lengths within 2^-100 .. 2^124 the squared length is within 0.1112, 0.0035 and 4.2e-6 of one after one, two and three calls, and within 1.1e-6 from the fourth on. Quaternion::normalize called again does not converge to unit length but to the squared length 0.932449: it is at most 0.0386, 0.00271, 0.0002 and 1.8e-5 above it after two to five calls, at most 4e-6 from the sixth on, and never more than 2^-19 below. It leaves q unchanged when the computed norm has the bits 0x3f6eb50c or 0x3f6eb50d, and shrinks the identity to (0.96623, 0, 0, 0). After three or more updates q = (q * d).normalize() by turns d of squared length within 0.0091 of one (such as axis_angle gives for unit axes), from any start, the squared length of q is within 0.93244 .. 0.93985, and q.rotate shrinks every vector of squared length within 2^-200 .. 2^236 by 5.9 to 6.8 percent.", "quantifier": "all finite vectors and quaternions in the ranges, all numbers of calls, all lists of turns, all build modes", "why_tests_cant": "statements about every number of repetitions from every starting value; the existing tests normalize once and compare with a loose tolerance, which hides the wrong limit", "anchors": ["src/quaternion.rs: Quaternion::normalize", "src/vector.rs: Vector::normalized", "src/float/invsqrt.rs: F32::invsqrt", "src/quaternion.rs: Quaternion::rotate"]}
{"id": "C148", "title": "lengths of very short and very long vectors", "statement": "Without a lower limit on the length, for finite arguments: (1-2^-22) x <= sqrt(x)^2 <= 9/8 x + 9*2^-130 for every sign-positive x, and sqrt of a subnormal m*2^-149 is exactly (3*2^22 + floor(m/2)) * 2^-87. hypot, distance, Quaternion::magnitude and stddev are within 6.1 percent plus 2^-63 of the exact root (squares at most 2^123 or 2^124; for stddev the root of the computed variance), and the vector magnitudes satisfy the corresponding bounds on squares. normalized of a vector of squared length Q <= 2^124 has a squared length R with R <= 1 + 2^-18, R <= 2^127 Q + 2^-138 and R >= (1-2^-19) Q / (9/8 Q + 10*2^-130) - 2^-138: vectors much shorter than 2^-64 are not brought to unit length. If a component is at least 2^64, normalized divides by 2^64 whatever the length, so (2^100, 0) becomes (2^36, 0). Quaternion::normalize, where it does not panic, gives R <= 1.0703, R <= 2.07*2^126 Q + 2^-19 and R >= 0.92 Q / (Q + 2^-126) - 2^-19.", "quantifier": "all finite arguments up to the stated upper limits, all component types, all build modes", "why_tests_cant": "continuum of inputs including all subnormal squares; tests use vectors of moderate length only", "anchors": ["src/float/sqrt.rs: F32::sqrt", "src/float/hypot.rs: F32::hypot", "src/vector.rs: Vector::magnitude", "src/vector.rs: Vector::normalized", "src/vector.rs: Vector::distance", "src/quaternion.rs: Quaternion::normalize", "src/statistics/stddev.rs: StdDev::stddev"]}
{"id": "C149", "title": "small angles: slopes near zero, and chains of small turns", "statement": "Near zero sin(x) is 0.98676 x up to 1.6e-6 + 0.051 x^2 (|x| <= 1/4), tan(x) is 0.98676 x up to 2e-6 + 0.12 x^2 (|x| <= 1/8), cos(x) is 1 - 0.4965 x^2 up to 1.1e-6 + 0.0024 x^2; |atan(x)| lies between 0.93654 |x| and 0.93656 |x| + 0.455 x^2 (2^-60 <= |x| <= 1/4), and |asin(x)| between 0.9048 |x| and 0.9069 |x| + 0.43 x^2 (2^-50 <= |x| <= 1/16). So the relative errors for small arguments are 1.3, 6.3 and 9.5 percent, and asin(sin x) is only 0.89 to 0.91 of x for 0.001 <= |x| <= 0.01. axis_angle(n, t) with |t| <= 1/8 is within 2.1e-6 + 0.0158 t^2 of the exact turn by 0.98676 t. A product of N <= 10000 finite quaternions, each within e of an exact one of length at most r (1 <= r, r + e + 1e-6 <= 1.004), is within (r + e + 1e-6)^N - r^N of the exact product. Hence a chain of N turns with angles of at most m <= 1/8 gives the product of the turns by 0.98676 t up to (1 + d + 3.1e-6 + 0.0158 m^2)^N - (1 + d)^N. Finding: 800 updates of 1/128 radian about one axis (nominal 6.25) end at least 0.037 away from both quaternions of the exact turn, about 4.7 degrees short.", "quantifier": "all finite arguments in the stated ranges, all axes with squared length within d <= 1/1000 of one, all lists of at most 10000 factors or turns, all build modes", "why_tests_cant": "tests compare absolute errors of a few test vectors; the relative error near zero and its accumulation over a list of any length need a bound for all arguments", "anchors": ["src/float/sin.rs: F32::sin", "src/float/cos.rs: F32::cos", "src/float/tan.rs: F32::tan", "src/float/atan.rs: F32::atan", "src/float/asin.rs: F32::asin", "src/quaternion.rs: Quaternion::axis_angle", "src/quaternion.rs: impl Mul for Quaternion"]}
{"id": "C150", "title": "logarithms and powers below and next to one", "statement": "Below one ln goes through inv, and inv(2^k m) with 1 <= m < 2 is exactly 2^(-k-1) (3 - m). So ln(x) for positive normal x < 1 (not within EPSILON of one) is log x - log(m (3 - m) / 2) up to 8e-5; for 1/2 <= x < 1 it is -log(3 - 2x) up to 8e-5. exp(ln x) is there 1/(3 - 2x) up to 0.32 percent, and powf(x, n) is (3 - 2x)^(-n) up to the factors 0.9969 e^(-8e-5 |n|) and 1.0031 e^(8e-5 |n|). Findings: for 0.97 <= x <= 0.999 |ln(x)| is at least 1.8 |log x|, so powf(x, n) is at most 1.0031 x^(1.8 n): a decay factor close to one decays almost twice as fast as it should, for example powf(127/128, 128) is at most 0.17 where the exact power is above 0.36. Next to one ln jumps: for 1 + 2^-22 <= x < 2 it is 0.0000606 + 0.9965443 (x - 1) up to 1.5e-6 + 0.468 (x - 1)^2, and for 1/2 < x <= 1 - 2^-22 it is -0.0000606 - 1.9930886 (1 - x) up to 1.5e-6 + 1.872 (1 - x)^2; so for 1 + 2^-22 <= x <= 1 + 2^-17 ln(x) is more than eight times log x.", "quantifier": "all finite arguments in the stated ranges, all exponents n for which the exact power is in range, all build modes", "why_tests_cant": "the tests compare ln with an absolute tolerance at a few arguments; the relative error, and its effect on powers with a large exponent, shows only between the vectors, and a bound holds for all of them only by proof", "anchors": ["src/float/ln.rs: F32::ln", "src/float/inv.rs: F32::inv", "src/float/exp.rs: F32::exp", "src/float/powf.rs: F32::powf"]}
{"id": "C151", "title": "statistics of joined data, and sums that stop growing", "statement": "For two non-empty lists of p and q finite items, n = p + q < 2^22, of magnitude at most B <= 2^100: the mean of the joined list is (p mean(a) + q mean(b)) / n up to (n + 1) / 2^22 * B + 2^-149. If both have at least two items, n + 4 <= 2^22 and 2^-60 <= B <= 2^48: (n - 1) variance(a ++ b) is (p - 1) variance(a) + (q - 1) variance(b) + p q / n (mean(a) - mean(b))^2 up to n (n + 4) / 2^20 * B^2, for every item type. Any number of finite items of magnitude at most 2^z (-126 <= z <= 100) have a sum of magnitude at most 2^(z+24): a running sum of 2^(z+24) is left unchanged by any number of items between 0 and 2^z. So the mean of n >= 2^j such items (n < 2^31) is at most 2^(z+24-j) whatever they are. Finding: the mean of 2^25 ones is at most 1/2.", "quantifier": "all lists of finite items of the stated lengths and magnitudes, all item types, all build modes", "why_tests_cant": "relates three calls on lists of any length; the stop of the sum shows only on lists of more than 16 million items", "anchors": ["src/statistics/mean.rs: Mean::mean", "src/statistics/variance.rs: Variance::variance"]}
{"id": "C152", "title": "laws of vector algebra for integer vectors, overflow included", "statement": "For vectors of machine integers of any width, signed or unsigned, two expressions that are equal over the integers give the same result whenever both return, even when intermediate values overflow; without overflow checks both always return. In space: (a + b) + c and a + (b + c), (a + b) - b and a, (a - b) + b and a, (a + b) k and a k + b k, (a - b) k and a k - b k, (a k) m and a (k m), (a + b).c and a.c + b.c, (a k).b and (a.b) k, a x (b + c) and a x b + a x c, a x b + b x a and 0, a.(a x b) and 0, a.(b x c) and b.(c x a), a x (b x c) and b (a.c) - c (a.b), (a x b).(c x d) and (a.c)(b.d) - (a.d)(b.c), the Jacobi sum and 0; the Sum of joined lists is the sum of the sums, and Sum does not depend on the order. a + b and b + a agree bit for bit, panics included. In the plane: the same for sums, multiples, dot and perpendicular_dot, and dot^2 + perpendicular_dot^2 is (a.a)(b.b). With overflow checks whether an expression panics does depend on the order: for i8 (100,0,0) + (100,0,0) - (100,0,0) panics, (100,0,0) + ((100,0,0) - (100,0,0)) does not.", "quantifier": "all integer vectors of every width and signedness, all lists, both build modes", "why_tests_cant": "identities in up to twelve components over all integer types and build modes, overflow included", "anchors": ["src/vector/vector2d.rs: Add, Sub, Mul, dot, perpendicular_dot", "src/vector/vector3d.rs: Add, Sub, Mul, dot, cross, Sum"]}
{"id": "C153", "title": "division of integer vectors, and means of integer readings", "statement": "a / k for a 3D vector of machine integers panics exactly if k = 0, or the type is signed, k = -1 and a component is the smallest value, in every build. What it returns is truncated toward zero: no component grows in magnitude, and it is off by less than |k|. With overflow checks: if a k returns and k != 0 then (a k) / k returns a; (a / k) / m and a / (k m) agree when both return; and if Sum of n readings and its quotient by n return, every component of the quotient is within one of the exact mean. Finding: without overflow checks (100, 0, 0) * 2 / 2 is (-28, 0, 0) in i8.", "quantifier": "all vectors of integers of every width and signedness, all lists of readings, all build modes", "why_tests_cant": "identities and panics over all integer types; tests divide a few small vectors", "anchors": ["src/vector/vector3d.rs: Div, Mul, Sum"]}
{"id": "C154", "title": "lengths and distances of vectors of integers are compared exactly", "statement": "For 2D and 3D vectors with integer components (of any component type) and squared length at most 2^23, magnitude(u) < magnitude(v) exactly if u is shorter than v, and the two are the same bits exactly if the lengths are equal. The same holds for distance between integer points with squared distance at most 2^23, hence without any condition for all i8 and u8 points: the nearest of several points is always found. magnitude is the true length of such a nonzero vector exactly if the squared length is a power of four. Findings: the limit is sharp ((2048,2048,0) and (2888,199,92) have equal magnitude), and for general i16 vectors the order can be wrong: (30513,26938) is shorter than (30528,26921) and has the larger magnitude.", "quantifier": "all vectors of integers within the limit; all i8 and u8 points", "why_tests_cant": "an order on all pairs of vectors (for distances all quadruples of points) through an approximate square root; no test can enumerate them", "anchors": ["src/vector.rs: distance, magnitude"]}
{"id": "C155", "title": "variance of integer readings: exact cases, and when it is zero", "statement": "For 2 to 2^24 integer readings with an integer mean, partial sums within 2^24 and squared deviations summing to at most 2^24, variance is the correctly rounded exact sample variance; it depends only on the count and that sum, and not on anything else, to the bit: adding an integer to all readings or negating them changes neither variance nor stddev. For any fewer than 2^22 finite items up to 2^48, if two differ by d >= 2^-60, the variance is at least d^2 / (5 (n-1)), so it never vanishes. For integer readings of magnitude at most b with b n <= 2^24 (all u8 and i8 slices up to 2^16 items) the variance is zero exactly if all readings are equal.", "quantifier": "all lists of readings within the stated size and range, all component types", "why_tests_cant": "exactness and positivity over lists of any length; a test fixes a handful of lists", "anchors": ["src/statistics/variance.rs", "src/statistics/stddev.rs", "src/statistics/mean.rs"]}
{"id": "C156", "title": "wrapping with rem_euclid: angles, headings, clock arithmetic", "statement": "For finite x and finite non-zero m, x.rem_euclid(m) is unchanged if a whole number of moduli is added to x exactly; wrapping a wrapped value gives the same value unless the first result was rounded up to |m| (then 0), and a third wrap never changes anything. For every finite angle x, x.rem_euclid(TAU) is in [0, TAU] and differs from x by a whole number of true turns up to 6e-7 + 2.8e-8 |x|; cos and sin of it are finite, at most 1 + 2^-20 in magnitude and within 0.00111 + 2.8e-8 |x| of the true cos x and sin x. On integers below 2^24 the result is the Euclidean remainder; sums and differences of residues wrap to the residue of the true sum and difference for moduli up to 2^23, and products for moduli up to 2^12; (a - b + 180).rem_euclid(360) - 180 is the turn in [-180, 180) leading from heading b to heading a.", "quantifier": "all finite arguments and moduli; all integers within the stated ranges", "why_tests_cant": "the claims range over all finite floats, all multiples of the modulus and real-valued cosine; a test checks a handful of points against another rounded value", "anchors": ["src/float/rem_euclid.rs", "src/float/cos.rs", "src/float/sin.rs"]}
{"id": "C157", "title": "quantization with round: fixed-point steps and back", "statement": "A float closer than 1/2 - 2^-25 to an integer n, |n| < 2^22, is rounded to n. For every scale s with 2^-100 <= |s| <= 2^100 and every integer |n| < 2^22, ((n / s) * s).round() and ((n * s) / s).round() are n; above 2^22 there are counterexamples from 4208256 on. With p = 2^k, 0 <= k <= 100, and |x| 2^k < 2^22, (x * p).round() / p is exactly a multiple of 2^-k, within (1/2 + 2^-25) steps of x, leaves multiples of the step alone and keeps the order.", "quantifier": "all finite x, all integers below 2^22, all scales in the range, all steps 2^-k", "why_tests_cant": "the scale is any float in a range of 200 binades and the integer any below 2^22; failures above the limit are rare and found only by search", "anchors": ["src/float/round.rs", "src/float.rs"]}
{"id": "C158", "title": "the 24 exact rotations (Hurwitz units)", "statement": "For the 24 Hurwitz units +-1, +-i, +-j, +-k, (+-1 +-i +-j +-k)/2 nothing is rounded: the product of two is exactly their product in the quaternion algebra and again one of the 24; a product of any number of them is exact, without drift; conj is exactly the inverse on both sides. rotate by one of them is exact for every finite vector of any size and component type (each component is exactly that of q v conj(q), a signed permutation); hence (q*r).rotate(v) = q.rotate(r.rotate(v)) and q.conj().rotate(q.rotate(v)) = v exactly. (1+i+j+k)/2 takes (x,y,z) to (z,x,y), i takes it to (x,-y,-z). Zeros may change sign.", "quantifier": "all pairs and all chains of the 24 units, all finite vectors", "why_tests_cant": "all finite vectors and chains of any length; the usual expectation for float rotations is only approximate", "anchors": ["src/quaternion.rs"]}
{"id": "C159", "title": "sums, centroids and midpoints of float vectors", "statement": "Sum of Vector2d<f32> or Vector3d<f32> never fails and is the left-to-right sum of each coordinate from zero; the sum divided by the number of points is, bit for bit, the mean of each coordinate, for every list shorter than 2^31. For up to 2^23 finite points with coordinate magnitudes summing to A <= 2^126 each coordinate is within ((1+2^-24)^(n+1) - 1) A/n + 2^-150 of the exact centroid. (x + y) / 2 lies between x and y for all finite x, y whose sum does not overflow, so the midpoint of two points is in the box they span.", "quantifier": "all lists of float vectors; all pairs of finite floats without overflow of the sum", "why_tests_cant": "lists of any length and all pairs of floats; bit equality with mean depends on the order of every addition", "anchors": ["src/vector/vector2d.rs", "src/vector/vector3d.rs", "src/statistics/mean.rs"]}
{"id": "C160", "title": "linear interpolation with mul_add", "statement": "For finite a, b up to 2^120 and t in [0, 1], (b - a).mul_add(t, a) is finite, equals a at t = 0, never moves against the direction from a to b as t grows, never passes beyond a, and is within 2.4e-7 (|a| + |b|) + 2^-147 of a + t (b - a). At t = 1 it equals b if b - a is exact, for instance if b <= 2a and a <= 2b, but not always: from -2^24 to 1 it ends at 0. b.mul_add(t, a * (1 - t)) equals a at t = 0 and b at t = 1 for all finite a, b.", "quantifier": "all finite a, b in range, all pairs of parameters s <= t in [0, 1]", "why_tests_cant": "monotonicity over all pairs of parameters and all end points; the failure at t = 1 depends on rounding of b - a", "anchors": ["src/float/mul_add.rs", "src/float.rs"]}
{"id": "C161", "title": "exponential smoothing with mul_add", "statement": "The filter y = (x - y).mul_add(t, y) with weight 0 <= t <= 1 - 2^-22 and data up to 2^120 keeps each new state between the old state and the reading, so over any list of readings it never leaves the range of its start and its readings. For a constant reading x and data bounded by M, after n steps |y_n - x| <= (1-t)^n |y_0 - x| + (4.8e-7 M + 2^-147)/t. It need not reach x: with t = 1/4 it stays for ever on the float below 1 when reading 1. With t = 1 a step can pass the reading.", "quantifier": "all finite weights in range, all starts, all lists of readings of any length, all n", "why_tests_cant": "a claim about the state after any number of steps on any data; a test runs finitely many steps on chosen readings", "anchors": ["src/float/mul_add.rs", "src/float.rs"]}
{"id": "C162", "title": "polynomials by Horner's rule with mul_add", "statement": "For |x| <= 1, finite coefficients up to 2^100 and degree n <= 2^22, the loop acc = acc.mul_add(x, c) never overflows, and its result is within ((1 + 2^-24)^(2n) - 1) sum |c_i| |x|^i + 3 n (1 + 2^-24)^(2n) / 2^150 of the polynomial. With coefficients >= 0 it is never negative and never decreases in x on [0, 1]. On integers it is exact as long as the intermediate results stay within 2^24.", "quantifier": "all finite x in range, all lists of coefficients up to length 2^22", "why_tests_cant": "an error bound over all coefficient lists and arguments, and monotonicity over all pairs of arguments", "anchors": ["src/float/mul_add.rs"]}
{"id": "C163", "title": "turning points of the plane with sin_cos", "statement": "For |t| <= 4096 and (s, c) = t.sin_cos(), the point (x*c - y*s, x*s + y*c) is finite and within 0.00201 (|x| + |y|) + 2^-148 of the exact turn, for coordinates up to 2^120. With x^2 + y^2 in 2^-200 .. 2^200 its squared distance from the origin is s^2 + c^2 times the old one up to 1e-6 of it, so one turn changes it by at most 0.571%. Turned n times by the same angle it changes by the factor (s^2 + c^2)^n up to 1e-6 per turn. Finding: the computed s^2 + c^2 is 1.00199 for t = FRAC_PI_4, and 800 such turns (100 full turns) at least double the distance of (1, 0) from the origin.", "quantifier": "all finite angles up to 4096, all points in range, any number of turns", "why_tests_cant": "bounds over all angles and points, and a drift that shows only after many steps", "anchors": ["src/float/sin_cos.rs", "src/float/sin.rs", "src/float/cos.rs"]}
{"id": "C164", "title": "Newton steps after sqrt, invsqrt and inv", "statement": "For positive normal x, s = x.sqrt() refined by s = (s + x / s) * 0.5 is within 0.2% of the root after one step, 2.4e-6 after two and 1.7e-7 after three. For x in 2^-120 .. 2^120, y = x.invsqrt() refined by y = y * (1.5 - 0.5 * x * y * y) is within 0.2%, 6.4e-6 and 2.7e-7 of the inverse root, and y = x.inv() refined by y = y * (2.0 - x * y) within 1.57%, 2.5e-4 and 2.9e-7 of the inverse. From any start with relative error e the steps give 0.538 e^2 + 1.6e-7 (e <= 0.07), 1.52 e^2 + 2.6e-7 (e <= 0.04) and e^2 + 2.2e-7 (e <= 0.13). Nothing overflows on the way.", "quantifier": "all finite x in range, all starting values within the stated distance", "why_tests_cant": "a guarantee for all floats; it rests on the worst case of the bit tricks and of three to five roundings per step", "anchors": ["src/float/sqrt.rs", "src/float/invsqrt.rs", "src/float/inv.rs"]}
{"id": "C165", "title": "lengths in many dimensions by folding hypot", "statement": "Folding n further coordinates with hypot gives a finite result whose square is between (1 - 2^-20)^n and (9/8 (1 + 2^-20))^n of the exact squared length, if the first coordinate is at least 2^-45 in magnitude, n <= 2^20 and the upper bound is at most 2^124. In space x.hypot(y).hypot(z) is at most 12.6% too long (magnitude: 6.07%). Finding: the errors add up, since hypot(x, 0) is not |x|: the vector (3/2, 0, .., 0) with twenty zeros gets a length above 1.86.", "quantifier": "all finite coordinates in range, all numbers of coordinates up to 2^20", "why_tests_cant": "worst-case growth over all vectors of all dimensions", "anchors": ["src/float/hypot.rs", "src/float/sqrt.rs"]}
{"id": "C166", "title": "mirroring a vector at a plane", "statement": "v - n * (v.dot(n) * 2.0) has each coordinate within 2^-20 m + 2^-144 of v - 2 (v.n) n, where m is the sum of the coordinates' sizes (at most 2^120) and the coordinates of n are at most 1 + 2^-17 in size; so for n from normalized. The exact formula changes the squared length by -4 (v.n)^2 (1 - N), N the squared length of n; for N <= 1 it never lengthens v and keeps at least the share |1 - 2N| of its length. Finding: with a normal from normalized (N can be near 8/9) mirroring does not keep the length: (1, 1, 0) mirrored at (1, 1, 0).normalized() keeps less than 77.8% of its length.", "quantifier": "all finite vectors in range and all finite normals with coordinates at most 1 + 2^-17 in size, among them all results of normalized", "why_tests_cant": "worst-case error over all vectors and normals", "anchors": ["src/vector/vector3d.rs", "src/vector.rs:86-93"]}
{"id": "C167", "title": "the sign of dot, perpendicular_dot and cross", "statement": "For finite coordinates whose products do not overflow (sum of sizes at most 2^125), the float results of Vector2d dot and perpendicular_dot and every coordinate of Vector3d cross never have the sign opposite to the exact value, and are zero when the exact value is zero, underflow included; cross of parallel vectors is zero. Finding: this fails for dot in space: there are vectors with v.w > 1 for which dot returns -4.", "quantifier": "all finite vectors without overflow", "why_tests_cant": "the sign near perpendicular and parallel vectors depends on every rounding; all pairs of vectors", "anchors": ["src/vector/vector2d.rs: dot, perpendicular_dot", "src/vector/vector3d.rs: dot, cross"]}
