{
 "claims": [
  {
   "property": "C01",
   "status": "proved",
   "theorems": [
    "Micromath.Props.C01_abs_bits",
    "Micromath.Props.C01_abs"
   ],
   "note": "All bit patterns."
  },
  {
   "property": "C02",
   "status": "proved",
   "theorems": [
    "Micromath.Props.C02_copysign_bits",
    "Micromath.Props.C02_copysign"
   ],
   "note": "All pairs of bit patterns."
  },
  {
   "property": "C03",
   "status": "proved",
   "theorems": [
    "Micromath.Props.C03_signum"
   ],
   "note": "All bit patterns, every Cfg."
  },
  {
   "property": "C04",
   "status": "proved",
   "theorems": [
    "Micromath.Props.C04_trunc"
   ],
   "note": "All floats below 2^32 in magnitude. trunc contains no operation that can panic, so it is modelled as a total function."
  },
  {
   "property": "C05",
   "status": "proved",
   "theorems": [
    "Micromath.Props.C05_trunc_large",
    "Micromath.Props.C05_trunc_exact",
    "Micromath.Props.C05_trunc_large_iff",
    "Micromath.Props.C05_trunc_large_false",
    "Micromath.Props.C05_trunc_nan_false"
   ],
   "note": "All floats. The exact value is given for every finite |x| >= 1; the violations are proved with witnesses."
  },
  {
   "property": "C06",
   "status": "proved",
   "theorems": [
    "Micromath.Props.C06_fract"
   ],
   "note": "All floats below 2^32 in magnitude, including the bit-exact float sum and absence of integer overflow in every build mode."
  },
  {
   "property": "C07",
   "status": "proved",
   "theorems": [
    "Micromath.Props.C07_fract_large",
    "Micromath.Props.C07_fract_exact",
    "Micromath.Props.C07_fract_large_false",
    "Micromath.Props.C07_fract_nan_false"
   ],
   "note": "All floats of magnitude >= 1 and NaN; below 2^32 see C06."
  },
  {
   "property": "C08",
   "status": "proved",
   "theorems": [
    "Micromath.Props.C08_floor"
   ],
   "note": ""
  },
  {
   "property": "C09",
   "status": "proved",
   "theorems": [
    "Micromath.Props.C09_ceil"
   ],
   "note": ""
  },
  {
   "property": "C10",
   "status": "proved",
   "theorems": [
    "Micromath.Props.C10_saturation",
    "Micromath.Props.C10_saturation_false"
   ],
   "note": "Exact value of all three functions for all out-of-range inputs, infinities and NaN."
  },
  {
   "property": "C11",
   "status": "proved",
   "theorems": [
    "Micromath.Props.C11_round",
    "Micromath.Props.C11_round_exceptions",
    "Micromath.Props.C11_round_false"
   ],
   "note": "All finite floats below 2^31; the exceptions are characterised exactly."
  },
  {
   "property": "C12",
   "status": "proved",
   "theorems": [
    "Micromath.Props.C12_rem_euclid",
    "Micromath.Props.C12_leastRem_spec",
    "Micromath.Props.C12_rem_euclid_nan"
   ],
   "note": ""
  },
  {
   "property": "C13",
   "status": "proved",
   "theorems": [
    "Micromath.Props.C13_div_rem_euclid"
   ],
   "note": ""
  },
  {
   "property": "C14",
   "status": "proved",
   "theorems": [
    "Micromath.Props.C14_sqrt"
   ],
   "note": "Rational two-sided bound on the square and real-number bound on the root, all positive normals."
  },
  {
   "property": "C15",
   "status": "proved",
   "theorems": [
    "Micromath.Props.C15_sqrt",
    "Micromath.Props.sqrtR_eq"
   ],
   "note": "No panic, exact NaN set, monotone on sign-positive inputs (infinity included)."
  },
  {
   "property": "C16",
   "status": "proved",
   "theorems": [
    "Micromath.Props.C16_sqrt_special_false",
    "Micromath.Props.C16_sqrt_small"
   ],
   "note": "The claimed contract is false; the negation is proved for all three special inputs, with the exact results. C16_sqrt_small bounds the result on zero and subnormals."
  },
  {
   "property": "C17",
   "status": "proved",
   "theorems": [
    "Micromath.Props.C17_invsqrt"
   ],
   "note": "All positive normals, both build modes; relative error 3.6% also stated over the reals."
  },
  {
   "property": "C18",
   "status": "proved",
   "theorems": [
    "Micromath.Props.C18_invsqrt_panic",
    "Micromath.Props.C18_threshold"
   ],
   "note": "Exact panic set, as bit condition and as numeric threshold."
  },
  {
   "property": "C19",
   "status": "proved",
   "theorems": [
    "Micromath.Props.C19_inv"
   ],
   "note": "Exact rational bounds."
  },
  {
   "property": "C20",
   "status": "proved",
   "theorems": [
    "Micromath.Props.C20_inv_negative_false",
    "Micromath.Props.C20_inv_negative",
    "Micromath.Props.C20_inv_large"
   ],
   "note": "The claim is false: every negative finite input gives +0.0; the negation and the exact behaviour are proved."
  },
  {
   "property": "C21",
   "status": "proved",
   "theorems": [
    "Micromath.Props.C21_recip",
    "Micromath.Props.C21_recip_zero"
   ],
   "note": "Relative error 1.2e-5 on [2^-126, 2^125] in magnitude; beyond that see C105."
  },
  {
   "property": "C22",
   "status": "proved",
   "theorems": [
    "Micromath.Props.C22_hypot"
   ],
   "note": "Symmetry, no panic, two-sided bound."
  },
  {
   "property": "C23",
   "status": "proved",
   "theorems": [
    "Micromath.Props.C23_powi_zero_one",
    "Micromath.Props.C23_powi_one_nan"
   ],
   "note": "powi(x,1) on NaN is +inf (C23_powi_one_nan); finite and infinite arguments return x."
  },
  {
   "property": "C24",
   "status": "proved",
   "theorems": [
    "Micromath.Props.C24_powi",
    "Micromath.Props.C24_powi_small"
   ],
   "note": "Positive and negative n; intermediate powers are in range automatically."
  },
  {
   "property": "C25",
   "status": "proved",
   "theorems": [
    "Micromath.Props.C25_powi_panic_iff",
    "Micromath.Props.C25_powi_min_diverges",
    "Micromath.Props.C25_powi_terminates_false"
   ],
   "note": "All x and all i32 n, in both build modes; divergence is a value of the model."
  },
  {
   "property": "C26",
   "status": "proved",
   "theorems": [
    "Micromath.Props.C26_powi_exit",
    "Micromath.Props.C26_powi_exit_small",
    "Micromath.Props.C26_powi_exit_false",
    "Micromath.Props.C26_powi_wrap_false"
   ],
   "note": "All finite nonzero x outside [1/2, 2) and all n whose exponent product fits i32."
  },
  {
   "property": "C27",
   "status": "proved",
   "theorems": [
    "Micromath.Props.C27_exp_zero",
    "Micromath.Props.C27_exp_overflow",
    "Micromath.Props.C27_exp_underflow",
    "Micromath.Props.C27_exp_tiny",
    "Micromath.Props.C27_exp_gap",
    "Micromath.Props.C27_exp_panics_iff",
    "Micromath.Props.C27_exp_never_panics_false",
    "Micromath.Props.C27_exp_nan_false",
    "Micromath.Props.C27_exp_nonneg"
   ],
   "note": "All special values, the exact set of panicking inputs, and the refutation of the two expected facts that fail."
  },
  {
   "property": "C28",
   "status": "proved",
   "theorems": [
    "Micromath.Props.C28_exp"
   ],
   "note": ""
  },
  {
   "property": "C29",
   "status": "proved",
   "theorems": [
    "Micromath.Props.C29_ln",
    "Micromath.Props.C29_ln_one"
   ],
   "note": "All finite floats >= 1."
  },
  {
   "property": "C30",
   "status": "proved",
   "theorems": [
    "Micromath.Props.C30_ln",
    "Micromath.Props.C30_ln_sharp"
   ],
   "note": "All normal floats in (0,1)."
  },
  {
   "property": "C31",
   "status": "proved",
   "theorems": [
    "Micromath.Props.C31_ln_nan",
    "Micromath.Props.C31_ln_small",
    "Micromath.Props.C31_ln_inf",
    "Micromath.Props.C31_ln_std_false"
   ],
   "note": "All sign-negative floats, NaNs, zeros, subnormals and infinities."
  },
  {
   "property": "C32",
   "status": "proved",
   "theorems": [
    "Micromath.Props.C32_log2",
    "Micromath.Props.C32_log10",
    "Micromath.Props.C32_log",
    "Micromath.Props.C32_nan"
   ],
   "note": "All finite x >= 1, all finite bases >= 2."
  },
  {
   "property": "C33",
   "status": "proved",
   "theorems": [
    "Micromath.Props.C33_powf_even",
    "Micromath.Props.C33_powf_odd",
    "Micromath.Props.C33_powf_nan",
    "Micromath.Props.C33_powf_fraction",
    "Micromath.Props.C33_powf_large",
    "Micromath.Props.C33_powf_std_false"
   ],
   "note": "All finite negative bases and all finite exponents except |n| = 2^-j with j > 126."
  },
  {
   "property": "C34",
   "status": "proved",
   "theorems": [
    "Micromath.Props.C34_cos",
    "Micromath.Props.C34_cos_error"
   ],
   "note": "C34_cos_error gives the explicit dependence of the error on |x| up to 8192."
  },
  {
   "property": "C35",
   "status": "proved",
   "theorems": [
    "Micromath.Props.C35_cos_all_false"
   ],
   "note": "The documented unrestricted bound is refuted; C34, C36 give the true bound on |x| <= 4096."
  },
  {
   "property": "C36",
   "status": "proved",
   "theorems": [
    "Micromath.Props.C36_sin",
    "Micromath.Props.C36_sin_cos"
   ],
   "note": ""
  },
  {
   "property": "C37",
   "status": "proved",
   "theorems": [
    "Micromath.Props.C37_tan_def",
    "Micromath.Props.C37_tan",
    "Micromath.Props.C37_tan_documented_false"
   ],
   "note": "All |x| <= 4096 with |cos x| >= 1/15."
  },
  {
   "property": "C38",
   "status": "proved",
   "theorems": [
    "Micromath.Props.C38_atan"
   ],
   "note": "Proved for |x| <= 1.8e19, which contains the claimed range 2^63. The reference is Mathlib's Real.arctan."
  },
  {
   "property": "C39",
   "status": "proved",
   "theorems": [
    "Micromath.Props.C39_atan_documented_false",
    "Micromath.Props.C38_atan"
   ],
   "note": "The documented bound is false: at the finite input 10 the error exceeds 0.002, and at both infinities the result is NaN. The negation is proved; C38 gives the true bound."
  },
  {
   "property": "C40",
   "status": "proved",
   "theorems": [
    "Micromath.Props.C40_atan2",
    "Micromath.Props.C40_atan2_false"
   ],
   "note": "All finite pairs in the stated range."
  },
  {
   "property": "C41",
   "status": "proved",
   "theorems": [
    "Micromath.Props.C41_atan2_zero_false"
   ],
   "note": "The documented contract is false: the negation is proved, with the result for all four zero pairs."
  },
  {
   "property": "C42",
   "status": "proved",
   "theorems": [
    "Micromath.Props.C42_asin"
   ],
   "note": "All inputs in [-1, 1], both build modes."
  },
  {
   "property": "C43",
   "status": "proved",
   "theorems": [
    "Micromath.Props.C43_asin_panic",
    "Micromath.Props.C43_asin_outside_false"
   ],
   "note": "The claim is false: asin(2.0) panics with overflow checks and asin(1.1) is finite; the negation and the set of panicking inputs are proved."
  },
  {
   "property": "C44",
   "status": "proved",
   "theorems": [
    "Micromath.Props.C44_acos"
   ],
   "note": ""
  },
  {
   "property": "C45",
   "status": "proved",
   "theorems": [
    "Micromath.Props.C45_cosh",
    "Micromath.Props.C45_cosh_even",
    "Micromath.Props.C45_cosh_panics_iff"
   ],
   "note": ""
  },
  {
   "property": "C46",
   "status": "proved",
   "theorems": [
    "Micromath.Props.C46_mul_add",
    "Micromath.Props.C46_mul_add_int",
    "Micromath.Props.C46_mul_add_not_fused"
   ],
   "note": "Two roundings, exactness on integers, and a witness that it is not fused."
  },
  {
   "property": "C47",
   "status": "proved",
   "theorems": [
    "Micromath.Props.C47_ext_unary",
    "Micromath.Props.C47_ext_more"
   ],
   "note": "All methods of the trait, including the hand-expanded sin_cos."
  },
  {
   "property": "C48",
   "status": "proved",
   "theorems": [
    "Micromath.Props.C48_from_int_exact",
    "Micromath.Props.C48_from_int_order"
   ],
   "note": ""
  },
  {
   "property": "C49",
   "status": "proved",
   "theorems": [
    "Micromath.Props.C49_compare",
    "Micromath.Props.C49_compare_nan",
    "Micromath.Props.C49_partial_cmp"
   ],
   "note": "Stated over EReal values, which are computed independently of the comparison code."
  },
  {
   "property": "C50",
   "status": "proved",
   "theorems": [
    "Micromath.Props.C50_sum_fold",
    "Micromath.Props.C50_product_fold",
    "Micromath.Props.C50_sum_int",
    "Micromath.Props.C50_sum_order"
   ],
   "note": "The zero a float sum starts from may be +0.0 or -0.0, depending on the standard library version; both are covered."
  },
  {
   "property": "C51",
   "status": "proved",
   "theorems": [
    "Micromath.Props.C51_get",
    "Micromath.Props.C51_index",
    "Micromath.Props.C51_iter",
    "Micromath.Props.C51_collect"
   ],
   "note": ""
  },
  {
   "property": "C52",
   "status": "proved",
   "theorems": [
    "Micromath.Props.C52_from_slice",
    "Micromath.Props.C52_from_iter",
    "Micromath.Props.C52_from_iter_iter",
    "Micromath.Props.C52_map"
   ],
   "note": ""
  },
  {
   "property": "C53",
   "status": "proved",
   "theorems": [
    "Micromath.Props.C53_conversions"
   ],
   "note": ""
  },
  {
   "property": "C54",
   "status": "proved",
   "theorems": [
    "Micromath.Props.C54_vector2",
    "Micromath.Props.C54_vector3",
    "Micromath.Props.C54_int_component"
   ],
   "note": "Componentwise for every component type, plus the outcome of each integer component operation in both build modes."
  },
  {
   "property": "C55",
   "status": "proved",
   "theorems": [
    "Micromath.Props.C55_scalar_comm"
   ],
   "note": ""
  },
  {
   "property": "C56",
   "status": "proved",
   "theorems": [
    "Micromath.Props.C56_dot_exact",
    "Micromath.Props.C56_dot_checked",
    "Micromath.Props.C56_dot_wrapping",
    "Micromath.Props.C56_dot_comm"
   ],
   "note": ""
  },
  {
   "property": "C57",
   "status": "proved",
   "theorems": [
    "Micromath.Props.C57_cross_exact",
    "Micromath.Props.C57_cross_checked",
    "Micromath.Props.C57_cross_laws",
    "Micromath.Props.C57_cross_self",
    "Micromath.Props.C57_mul_is_cross"
   ],
   "note": ""
  },
  {
   "property": "C58",
   "status": "proved",
   "theorems": [
    "Micromath.Props.C58_cross_anticomm"
   ],
   "note": "Stronger than stated: components that are NaN are NaN in both products."
  },
  {
   "property": "C59",
   "status": "proved",
   "theorems": [
    "Micromath.Props.C59_perp_int",
    "Micromath.Props.C59_perp_float"
   ],
   "note": ""
  },
  {
   "property": "C60",
   "status": "proved",
   "theorems": [
    "Micromath.Props.C60_sum2",
    "Micromath.Props.C60_sum3",
    "Micromath.Props.C60_sum_order"
   ],
   "note": ""
  },
  {
   "property": "C61",
   "status": "proved",
   "theorems": [
    "Micromath.Props.C61_to_float",
    "Micromath.Props.C61_from_2d"
   ],
   "note": ""
  },
  {
   "property": "C62",
   "status": "proved",
   "theorems": [
    "Micromath.Props.C62_magnitude2",
    "Micromath.Props.C62_magnitude3",
    "Micromath.Props.C62_distance2",
    "Micromath.Props.C62_distance3",
    "Micromath.Props.C62_distance_comm",
    "Micromath.Props.C62_distance_self",
    "Micromath.Props.C62_magnitude_sq_int",
    "Micromath.Props.C62_magnitude_sq_float"
   ],
   "note": "Forward error of the left-to-right sum of squares composed with the sqrt bound C14; symmetry because negation commutes with rounding."
  },
  {
   "property": "C63",
   "status": "proved",
   "theorems": [
    "Micromath.Props.C63_normalized2",
    "Micromath.Props.C63_normalized3",
    "Micromath.Props.C63_zero"
   ],
   "note": "Both dimensions; all finite vectors in the stated range, and all signed zero vectors."
  },
  {
   "property": "C64",
   "status": "proved",
   "theorems": [
    "Micromath.Props.C64_conj",
    "Micromath.Props.C64_conj_val"
   ],
   "note": ""
  },
  {
   "property": "C65",
   "status": "proved",
   "theorems": [
    "Micromath.Props.C65_mul",
    "Micromath.Props.C65_norm",
    "Micromath.Props.C65_assoc",
    "Micromath.Props.C65_hamilton",
    "Micromath.Props.C67_identity"
   ],
   "note": "Exact products are stated against Mathlib's quaternions over the integers, with any component bounds m, n such that 4mn <= 2^24 (2^10 is the case m = n = 2^10, excluded only where three factors are needed)."
  },
  {
   "property": "C66",
   "status": "proved",
   "theorems": [
    "Micromath.Props.C66_mul_err",
    "Micromath.Props.C66_norm_err"
   ],
   "note": ""
  },
  {
   "property": "C67",
   "status": "proved",
   "theorems": [
    "Micromath.Props.C67_identity"
   ],
   "note": ""
  },
  {
   "property": "C68",
   "status": "proved",
   "theorems": [
    "Micromath.Props.C68_norm_dot"
   ],
   "note": ""
  },
  {
   "property": "C69",
   "status": "proved",
   "theorems": [
    "Micromath.Props.C69_inv_panic",
    "Micromath.Props.C69_normalize_panic"
   ],
   "note": "The zero-norm condition is characterised on the components: all finite and of magnitude at most 2^-75, so nonzero quaternions can panic."
  },
  {
   "property": "C70",
   "status": "proved",
   "theorems": [
    "Micromath.Props.C70_normalize",
    "Micromath.Props.C70_normalize_len"
   ],
   "note": "C66 (norm error) with C17 (invsqrt error) and rounding of the scaling."
  },
  {
   "property": "C71",
   "status": "proved",
   "theorems": [
    "Micromath.Props.C71_rotate",
    "Micromath.Props.C71_identity"
   ],
   "note": ""
  },
  {
   "property": "C72",
   "status": "proved",
   "theorems": [
    "Micromath.Props.C72_conversions",
    "Micromath.Props.C72_linear"
   ],
   "note": ""
  },
  {
   "property": "C73",
   "status": "proved",
   "theorems": [
    "Micromath.Props.C73_to_euler_panic",
    "Micromath.Props.C73_to_euler_returns",
    "Micromath.Props.C73_to_euler_normalize",
    "Micromath.Props.C73_to_euler_unnormalized"
   ],
   "note": "The pitch argument is at most the squared length, and asin tolerates arguments up to 1.1."
  },
  {
   "property": "C74",
   "status": "proved",
   "theorems": [
    "Micromath.Props.C74_axis_angle",
    "Micromath.Props.C74_axis_angle_norm",
    "Micromath.Props.C74_axis_angle_unit",
    "Micromath.Props.C74_axis_angle_sq"
   ],
   "note": ""
  },
  {
   "property": "C75",
   "status": "proved",
   "theorems": [
    "Micromath.Props.C75_mean",
    "Micromath.Props.C75_mean_panic",
    "Micromath.Props.C75_mean_empty",
    "Micromath.Props.C75_mean_int",
    "Micromath.Props.C75_mean_order",
    "Micromath.Props.C75_mean_int_false"
   ],
   "note": "Any length; exactness up to 2^24 items, refuted beyond."
  },
  {
   "property": "C76",
   "status": "proved",
   "theorems": [
    "Micromath.Props.C76_variance_nonneg",
    "Micromath.Props.C76_variance_one",
    "Micromath.Props.C76_variance_empty",
    "Micromath.Props.C76_variance_panic"
   ],
   "note": ""
  },
  {
   "property": "C77",
   "status": "proved",
   "theorems": [
    "Micromath.Props.C77_stddev",
    "Micromath.Props.C77_stddev_bounds",
    "Micromath.Props.C77_stddev_empty",
    "Micromath.Props.C76_variance_panic"
   ],
   "note": "It panics only when the i32 item counter of mean overflows under overflow checks (2^31 items or more)."
  },
  {
   "property": "C78",
   "status": "proved",
   "theorems": [
    "Micromath.Props.C78_trim_filter",
    "Micromath.Props.C78_trim_mono",
    "Micromath.Props.C78_trim_none",
    "Micromath.Props.C78_trim_fused",
    "Micromath.Props.C78_trim_default"
   ],
   "note": ""
  },
  {
   "property": "C79",
   "status": "proved",
   "theorems": [
    "Micromath.Props.C79_trim_short",
    "Micromath.Props.C79_trim_const",
    "Micromath.Props.C79_trim_const_false"
   ],
   "note": "All element types with an integer value; all thresholds."
  },
  {
   "property": "C80",
   "status": "proved",
   "theorems": [
    "Micromath.Props.C80_trim_stats"
   ],
   "note": ""
  },
  {
   "property": "C81",
   "status": "proved",
   "theorems": [
    "Micromath.Props.C81_atan2_accuracy"
   ],
   "note": "The reference is Mathlib's Complex.arg."
  },
  {
   "property": "C82",
   "status": "proved",
   "theorems": [
    "Micromath.Props.C82_asin"
   ],
   "note": ""
  },
  {
   "property": "C83",
   "status": "proved",
   "theorems": [
    "Micromath.Props.C83_cos_large",
    "Micromath.Props.C83_sin_large"
   ],
   "note": ""
  },
  {
   "property": "C84",
   "status": "proved",
   "theorems": [
    "Micromath.Props.C84_acos"
   ],
   "note": ""
  },
  {
   "property": "C85",
   "status": "proved",
   "theorems": [
    "Micromath.Props.C85_powf_ge_one"
   ],
   "note": "All such pairs, every build mode."
  },
  {
   "property": "C86",
   "status": "proved",
   "theorems": [
    "Micromath.Props.C86_powf_lt_one",
    "Micromath.Props.C86_powf_lt_one_neg"
   ],
   "note": "All such pairs."
  },
  {
   "property": "C87",
   "status": "proved",
   "theorems": [
    "Micromath.Props.C87_powf_zero",
    "Micromath.Props.C87_powf_one",
    "Micromath.Props.C87_powf_unbounded",
    "Micromath.Props.C87_powf_nan_base",
    "Micromath.Props.C87_powf_zero_base"
   ],
   "note": "All bit patterns of the stated kinds, every Cfg."
  },
  {
   "property": "C88",
   "status": "proved",
   "theorems": [
    "Micromath.Props.C88_powf_overflow",
    "Micromath.Props.C88_powf_underflow",
    "Micromath.Props.C88_powf_panic",
    "Micromath.Props.C88_powf_panic_example",
    "Micromath.Props.C88_powf_returns"
   ],
   "note": "All such pairs."
  },
  {
   "property": "C89",
   "status": "proved",
   "theorems": [
    "Micromath.Props.C89_inv",
    "Micromath.Props.C89_inv_mul"
   ],
   "note": ""
  },
  {
   "property": "C90",
   "status": "proved",
   "theorems": [
    "Micromath.Props.C90_rotate_err",
    "Micromath.Props.C90_rotate_length",
    "Micromath.Props.C90_rotate_scale"
   ],
   "note": ""
  },
  {
   "property": "C91",
   "status": "proved",
   "theorems": [
    "Micromath.Props.C91_unit",
    "Micromath.Props.C91_turns",
    "Micromath.Props.C91_right_angle",
    "Micromath.Props.C91_turns_int"
   ],
   "note": ""
  },
  {
   "property": "C92",
   "status": "proved",
   "theorems": [
    "Micromath.Props.C92_same",
    "Micromath.Props.C92_opposite",
    "Micromath.Props.C92_opposite_missed",
    "Micromath.Props.C92_zero"
   ],
   "note": "The contract violation for opposite vectors is proved by evaluation at (1,1,1)."
  },
  {
   "property": "C93",
   "status": "proved",
   "theorems": [
    "Micromath.Props.C93_f32",
    "Micromath.Props.C93_unchecked",
    "Micromath.Props.C93_int"
   ],
   "note": ""
  },
  {
   "property": "C94",
   "status": "proved",
   "theorems": [
    "Micromath.Props.C94_sum",
    "Micromath.Props.C94_mean"
   ],
   "note": ""
  },
  {
   "property": "C95",
   "status": "proved",
   "theorems": [
    "Micromath.Props.C95_variance",
    "Micromath.Props.C95_variance_abs",
    "Micromath.Props.C95_variance_bytes",
    "Micromath.Props.C95_stddev_bytes"
   ],
   "note": ""
  },
  {
   "property": "C96",
   "status": "proved",
   "theorems": [
    "Micromath.Props.C96_axis_angle",
    "Micromath.Props.C96_turn"
   ],
   "note": ""
  },
  {
   "property": "C97",
   "status": "proved",
   "theorems": [
    "Micromath.Props.C97_to_euler",
    "Micromath.Props.C97_axis_roundtrip"
   ],
   "note": "The condition on cos p is needed: see C98 for the poles."
  },
  {
   "property": "C98",
   "status": "proved",
   "theorems": [
    "Micromath.Props.C98_asin_above",
    "Micromath.Props.C98_pitch_zero",
    "Micromath.Props.C98_gimbal"
   ],
   "note": "States the actual behaviour; the natural reading (pitch near pi/2) is false."
  },
  {
   "property": "C99",
   "status": "proved",
   "theorems": [
    "Micromath.Props.C99_cos",
    "Micromath.Props.C99_cos_out",
    "Micromath.Props.C99_cos_zero",
    "Micromath.Props.C99_cos_huge",
    "Micromath.Props.C99_sin",
    "Micromath.Props.C99_sin_out",
    "Micromath.Props.C99_sin_huge",
    "Micromath.Props.C99_inf",
    "Micromath.Props.C99_nan"
   ],
   "note": "States the actual behaviour; the documented bound (error 0.002 everywhere) is false, see C35."
  },
  {
   "property": "C100",
   "status": "proved",
   "theorems": [
    "Micromath.Props.C100_atan",
    "Micromath.Props.C100_atan_nan",
    "Micromath.Props.C100_atan2_nan",
    "Micromath.Props.C100_atan2_huge_y",
    "Micromath.Props.C100_atan2_inf_x",
    "Micromath.Props.C100_atan2_tiny",
    "Micromath.Props.C100_atan2_huge_x"
   ],
   "note": "States the actual behaviour: the limits pi/2 at infinity and the atan2 values at zero and infinity that libm defines are not met."
  },
  {
   "property": "C101",
   "status": "proved",
   "theorems": [
    "Micromath.Props.C101_monotone",
    "Micromath.Props.C101_trunc_monotone",
    "Micromath.Props.C101_idempotent",
    "Micromath.Props.C101_round_idempotent",
    "Micromath.Props.C101_order"
   ],
   "note": ""
  },
  {
   "property": "C102",
   "status": "proved",
   "theorems": [
    "Micromath.Props.C102_exp_monotone",
    "Micromath.Props.C102_exp_dip",
    "Micromath.Props.C102_exp_ge_one",
    "Micromath.Props.C102_exp_le_one"
   ],
   "note": ""
  },
  {
   "property": "C103",
   "status": "proved",
   "theorems": [
    "Micromath.Props.C103_hypot_range",
    "Micromath.Props.C103_hypot_monotone",
    "Micromath.Props.C103_hypot_huge",
    "Micromath.Props.C103_hypot_tiny",
    "Micromath.Props.C103_magnitude_range",
    "Micromath.Props.C103_magnitude_monotone",
    "Micromath.Props.C103_magnitude_extreme",
    "Micromath.Props.C103_quaternion_magnitude"
   ],
   "note": ""
  },
  {
   "property": "C104",
   "status": "proved",
   "theorems": [
    "Micromath.Props.C104_sqrt_exact",
    "Micromath.Props.C104_inv_involution",
    "Micromath.Props.C104_inv_exact",
    "Micromath.Props.C104_invsqrt_antitone"
   ],
   "note": ""
  },
  {
   "property": "C105",
   "status": "proved",
   "theorems": [
    "Micromath.Props.C105_recip_odd",
    "Micromath.Props.C105_recip_large",
    "Micromath.Props.C105_recip_contract_false"
   ],
   "note": ""
  },
  {
   "property": "C106",
   "status": "proved",
   "theorems": [
    "Micromath.Props.C106_log",
    "Micromath.Props.C106_log2",
    "Micromath.Props.C106_log10",
    "Micromath.Props.C106_log_base_one"
   ],
   "note": ""
  },
  {
   "property": "C107",
   "status": "proved",
   "theorems": [
    "Micromath.Props.C107_dot2",
    "Micromath.Props.C107_dot3",
    "Micromath.Props.C107_cross",
    "Micromath.Props.C107_cross_orthogonal",
    "Micromath.Props.C107_mul_add"
   ],
   "note": ""
  },
  {
   "property": "C108",
   "status": "proved",
   "theorems": [
    "Micromath.Props.C108_trim_count",
    "Micromath.Props.C108_trim_default"
   ],
   "note": ""
  },
  {
   "property": "C109",
   "status": "proved",
   "theorems": [
    "Micromath.Props.C109_div_euclid",
    "Micromath.Props.C109_div_euclid_false",
    "Micromath.Props.C109_div_euclid_special",
    "Micromath.Props.C109_div_euclid_large_false"
   ],
   "note": ""
  },
  {
   "property": "C110",
   "status": "proved",
   "theorems": [
    "Micromath.Props.C110_pythagoras",
    "Micromath.Props.C110_atan2_sin_cos",
    "Micromath.Props.C110_asin_sin",
    "Micromath.Props.C110_exp_ln",
    "Micromath.Props.C110_ln_exp"
   ],
   "note": ""
  },
  {
   "property": "C111",
   "status": "proved",
   "theorems": [
    "Micromath.Props.C111_sqrt",
    "Micromath.Props.C111_invsqrt",
    "Micromath.Props.C111_inv",
    "Micromath.Props.C111_recip"
   ],
   "note": ""
  },
  {
   "property": "C112",
   "status": "proved",
   "theorems": [
    "Micromath.Props.C112_hypot",
    "Micromath.Props.C112_magnitude",
    "Micromath.Props.C112_normalized",
    "Micromath.Props.C112_atan2"
   ],
   "note": ""
  },
  {
   "property": "C113",
   "status": "proved",
   "theorems": [
    "Micromath.Props.C113_mean",
    "Micromath.Props.C113_variance",
    "Micromath.Props.C113_trim"
   ],
   "note": ""
  },
  {
   "property": "C114",
   "status": "proved",
   "theorems": [
    "Micromath.Props.C114_norm",
    "Micromath.Props.C114_normalize",
    "Micromath.Props.C114_inv"
   ],
   "note": ""
  },
  {
   "property": "C115",
   "status": "proved",
   "theorems": [
    "Micromath.Props.C115_compose",
    "Micromath.Props.C115_undo"
   ],
   "note": ""
  },
  {
   "property": "C116",
   "status": "proved",
   "theorems": [
    "Micromath.Props.C116_class",
    "Micromath.Props.C116_limits",
    "Micromath.Props.C116_min_positive",
    "Micromath.Props.C116_epsilon",
    "Micromath.Props.C116_digits"
   ],
   "note": ""
  },
  {
   "property": "C117",
   "status": "proved",
   "theorems": [
    "Micromath.Props.C117_rem",
    "Micromath.Props.C117_rem_special",
    "Micromath.Props.C117_rem_laws",
    "Micromath.Props.C117_rem_euclid",
    "Micromath.Props.C117_rem_euclid_idem"
   ],
   "note": ""
  },
  {
   "property": "C118",
   "status": "proved",
   "theorems": [
    "Micromath.Props.C118_add_forms",
    "Micromath.Props.C118_sub_forms",
    "Micromath.Props.C118_mul_forms",
    "Micromath.Props.C118_div_forms",
    "Micromath.Props.C118_rem_forms",
    "Micromath.Props.C118_nearest",
    "Micromath.Props.C118_neg_from",
    "Micromath.Props.C118_compare",
    "Micromath.Props.C118_sum_product"
   ],
   "note": "Here the newtype is a type of its own (Model/Ops.lean)."
  },
  {
   "property": "C119",
   "status": "proved",
   "theorems": [
    "Micromath.Props.C119_signs",
    "Micromath.Props.C119_order",
    "Micromath.Props.C119_sub",
    "Micromath.Props.C119_neutral",
    "Micromath.Props.C119_laws_false"
   ],
   "note": ""
  },
  {
   "property": "C120",
   "status": "proved",
   "theorems": [
    "Micromath.Props.C120_hypot_magnitude",
    "Micromath.Props.C120_magnitude_quaternion",
    "Micromath.Props.C120_distance",
    "Micromath.Props.C120_convert",
    "Micromath.Props.C120_sign"
   ],
   "note": ""
  },
  {
   "property": "C121",
   "status": "proved",
   "theorems": [
    "Micromath.Props.C121_dot",
    "Micromath.Props.C121_cross",
    "Micromath.Props.C121_distance"
   ],
   "note": ""
  },
  {
   "property": "C122",
   "status": "proved",
   "theorems": [
    "Micromath.Props.C122_recip_class",
    "Micromath.Props.C122_recip_accuracy"
   ],
   "note": ""
  },
  {
   "property": "C123",
   "status": "proved",
   "theorems": [
    "Micromath.Props.C123_exp_add",
    "Micromath.Props.C123_exp_neg",
    "Micromath.Props.C123_ln_mul",
    "Micromath.Props.C123_cos_sin_add",
    "Micromath.Props.C123_cos_sin_period"
   ],
   "note": ""
  },
  {
   "property": "C124",
   "status": "proved",
   "theorems": [
    "Micromath.Props.C124_axis_angle_add"
   ],
   "note": ""
  },
  {
   "property": "C125",
   "status": "proved",
   "theorems": [
    "Micromath.Props.C125_swap",
    "Micromath.Props.C125_swap_int",
    "Micromath.Props.C125_scale"
   ],
   "note": ""
  },
  {
   "property": "C126",
   "status": "proved",
   "theorems": [
    "Micromath.Props.C126_mean_mono",
    "Micromath.Props.C126_mean_between",
    "Micromath.Props.C126_mean_range_false",
    "Micromath.Props.C126_mean_bytes_false"
   ],
   "note": "The claim that a mean lies between the smallest and the largest item is false in general; it is proved on short bounds and refuted outside."
  },
  {
   "property": "C127",
   "status": "proved",
   "theorems": [
    "Micromath.Props.C127_mean_nan",
    "Micromath.Props.C127_mean_inf",
    "Micromath.Props.C127_variance_nan",
    "Micromath.Props.C127_variance_nan_iff",
    "Micromath.Props.C127_trim_nonfinite",
    "Micromath.Props.C127_overflow"
   ],
   "note": ""
  },
  {
   "property": "C128",
   "status": "proved",
   "theorems": [
    "Micromath.Props.C128_atan",
    "Micromath.Props.C128_atan_false",
    "Micromath.Props.C128_ln",
    "Micromath.Props.C128_ln_strict",
    "Micromath.Props.C128_ln_false",
    "Micromath.Props.C128_asin",
    "Micromath.Props.C128_acos"
   ],
   "note": "The exact monotonicity a user would expect is refuted; the proved form has a tolerance, or a minimum distance."
  },
  {
   "property": "C129",
   "status": "proved",
   "theorems": [
    "Micromath.Props.C129_cos_even",
    "Micromath.Props.C129_sin_odd",
    "Micromath.Props.C129_cos_period",
    "Micromath.Props.C129_sin_period",
    "Micromath.Props.C129_cos_half_turn",
    "Micromath.Props.C129_cos_anti",
    "Micromath.Props.C129_false"
   ],
   "note": "The exact laws are refuted by evaluated counterexamples."
  },
  {
   "property": "C130",
   "status": "proved",
   "theorems": [
    "Micromath.Props.C130_even",
    "Micromath.Props.C130_odd",
    "Micromath.Props.C130_signs_false",
    "Micromath.Props.C130_minus_one",
    "Micromath.Props.C130_square",
    "Micromath.Props.C130_square_false",
    "Micromath.Props.C130_mono",
    "Micromath.Props.C130_anti",
    "Micromath.Props.C130_one",
    "Micromath.Props.C130_minus_one_pow",
    "Micromath.Props.C130_range",
    "Micromath.Props.C130_nonfinite",
    "Micromath.Props.C130_zero_neg",
    "Micromath.Props.C130_two_pow",
    "Micromath.Props.C130_recip"
   ],
   "note": "The sign rules of std are refuted where the early exit or the zero shortcut drops or keeps the sign."
  },
  {
   "property": "C131",
   "status": "proved",
   "theorems": [
    "Micromath.Props.C131_float_eq",
    "Micromath.Props.C131_respects",
    "Micromath.Props.C131_respects_false",
    "Micromath.Props.C131_arith",
    "Micromath.Props.C131_vector_int",
    "Micromath.Props.C131_vector_f32",
    "Micromath.Props.C131_vector2_ops",
    "Micromath.Props.C131_vector3_ops",
    "Micromath.Props.C131_quaternion_ops",
    "Micromath.Props.C131_case",
    "Micromath.Props.C131_num_traits",
    "Micromath.Props.C131_num_inv"
   ],
   "note": ""
  },
  {
   "property": "C132",
   "status": "proved",
   "theorems": [
    "Micromath.Props.C132_acos",
    "Micromath.Props.C132_asin_acos",
    "Micromath.Props.C132_atan_inv",
    "Micromath.Props.C132_atan2_reflect",
    "Micromath.Props.C132_atan2_swap",
    "Micromath.Props.C132_case"
   ],
   "note": ""
  },
  {
   "property": "C133",
   "status": "proved",
   "theorems": [
    "Micromath.Props.C133_tan",
    "Micromath.Props.C133_tan_sign",
    "Micromath.Props.C133_atan_tan",
    "Micromath.Props.C133_tan_atan",
    "Micromath.Props.C133_tan_odd",
    "Micromath.Props.C133_case"
   ],
   "note": ""
  },
  {
   "property": "C134",
   "status": "proved",
   "theorems": [
    "Micromath.Props.C134_exp",
    "Micromath.Props.C134_exp_false",
    "Micromath.Props.C134_cosh",
    "Micromath.Props.C134_cosh_false",
    "Micromath.Props.C134_log2",
    "Micromath.Props.C134_log10",
    "Micromath.Props.C134_log",
    "Micromath.Props.C134_powf_exponent",
    "Micromath.Props.C134_powf_base",
    "Micromath.Props.C134_case",
    "Micromath.Props.C134_powf_case"
   ],
   "note": ""
  },
  {
   "property": "C135",
   "status": "proved",
   "theorems": [
    "Micromath.Props.C135_distance_order2",
    "Micromath.Props.C135_distance_order3",
    "Micromath.Props.C135_magnitude_order",
    "Micromath.Props.C135_triangle2",
    "Micromath.Props.C135_triangle3",
    "Micromath.Props.C135_triangle_false",
    "Micromath.Props.C135_cauchy2",
    "Micromath.Props.C135_cauchy3",
    "Micromath.Props.C135_hypot",
    "Micromath.Props.C135_case"
   ],
   "note": ""
  },
  {
   "property": "C136",
   "status": "proved",
   "theorems": [
    "Micromath.Props.C136_mul",
    "Micromath.Props.C136_assoc",
    "Micromath.Props.C136_conj",
    "Micromath.Props.C136_distrib",
    "Micromath.Props.C136_norm",
    "Micromath.Props.C136_conj_re",
    "Micromath.Props.C136_conj_i",
    "Micromath.Props.C136_conj_jk",
    "Micromath.Props.C136_conj_false",
    "Micromath.Props.C136_case"
   ],
   "note": ""
  },
  {
   "property": "C137",
   "status": "proved",
   "theorems": [
    "Micromath.Props.C137_mean_neg",
    "Micromath.Props.C137_variance_neg",
    "Micromath.Props.C137_trim_neg",
    "Micromath.Props.C137_trim_perm",
    "Micromath.Props.C137_mean_perm",
    "Micromath.Props.C137_variance_perm",
    "Micromath.Props.C137_perm_int",
    "Micromath.Props.C137_mean_perm_false",
    "Micromath.Props.C137_mean_shift",
    "Micromath.Props.C137_variance_shift",
    "Micromath.Props.C137_mean_twice",
    "Micromath.Props.C137_case"
   ],
   "note": ""
  },
  {
   "property": "C138",
   "status": "proved",
   "theorems": [
    "Micromath.Props.C138_add",
    "Micromath.Props.C138_neg",
    "Micromath.Props.C138_mul",
    "Micromath.Props.C138_ln",
    "Micromath.Props.C138_pow",
    "Micromath.Props.C138_one",
    "Micromath.Props.C138_square",
    "Micromath.Props.C138_sqrt",
    "Micromath.Props.C138_invsqrt",
    "Micromath.Props.C138_powi",
    "Micromath.Props.C138_log2",
    "Micromath.Props.C138_log10",
    "Micromath.Props.C138_false",
    "Micromath.Props.C138_case"
   ],
   "note": ""
  },
  {
   "property": "C139",
   "status": "proved",
   "theorems": [
    "Micromath.Props.C139_pure",
    "Micromath.Props.C139_checked",
    "Micromath.Props.C139_quat",
    "Micromath.Props.C139_unit",
    "Micromath.Props.C139_vec_f32",
    "Micromath.Props.C139_vec_int",
    "Micromath.Props.C139_stats",
    "Micromath.Props.C139_release",
    "Micromath.Props.C139_false",
    "Micromath.Props.C139_case"
   ],
   "note": ""
  },
  {
   "property": "C140",
   "status": "proved",
   "theorems": [
    "Micromath.Props.C140_options",
    "Micromath.Props.C140_parse",
    "Micromath.Props.C140_round_trip",
    "Micromath.Props.C140_injective",
    "Micromath.Props.C140_false",
    "Micromath.Props.C140_case"
   ],
   "note": "The text of an f32 and the parser of the standard library are parameters of the model, not modelled themselves."
  },
  {
   "property": "C141",
   "status": "proved",
   "theorems": [
    "Micromath.Props.C141_angle2",
    "Micromath.Props.C141_angle3",
    "Micromath.Props.C141_from_polar",
    "Micromath.Props.C141_to_polar",
    "Micromath.Props.C141_case"
   ],
   "note": ""
  },
  {
   "property": "C142",
   "status": "proved",
   "theorems": [
    "Micromath.Props.C142_distrib",
    "Micromath.Props.C142_triple",
    "Micromath.Props.C142_bac_cab",
    "Micromath.Props.C142_jacobi",
    "Micromath.Props.C142_binet_cauchy",
    "Micromath.Props.C142_lagrange",
    "Micromath.Props.C142_parallelogram",
    "Micromath.Props.C142_linear",
    "Micromath.Props.C142_plane",
    "Micromath.Props.C142_case"
   ],
   "note": ""
  },
  {
   "property": "C143",
   "status": "proved",
   "theorems": [
    "Micromath.Props.C143_binade",
    "Micromath.Props.C143_inv",
    "Micromath.Props.C143_sqrt",
    "Micromath.Props.C143_invsqrt",
    "Micromath.Props.C143_overall"
   ],
   "note": ""
  },
  {
   "property": "C144",
   "status": "proved",
   "theorems": [
    "Micromath.Props.C144_least",
    "Micromath.Props.C144_smallest"
   ],
   "note": ""
  },
  {
   "property": "C145",
   "status": "proved",
   "theorems": [
    "Micromath.Props.C145_chain",
    "Micromath.Props.C145_build",
    "Micromath.Props.C145_read_back",
    "Micromath.Props.C145_angles_exist",
    "Micromath.Props.C145_rebuild",
    "Micromath.Props.C145_rebuild_any"
   ],
   "note": ""
  },
  {
   "property": "C146",
   "status": "proved",
   "theorems": [
    "Micromath.Props.C146_keep",
    "Micromath.Props.C146_five",
    "Micromath.Props.C146_lone",
    "Micromath.Props.C146_seven",
    "Micromath.Props.C146_six",
    "Micromath.Props.C146_five_false"
   ],
   "note": "The hypotheses on the data are the structure Spread."
  },
  {
   "property": "C147",
   "status": "proved",
   "theorems": [
    "Micromath.Props.C147_vector2",
    "Micromath.Props.C147_vector3",
    "Micromath.Props.C147_quaternion",
    "Micromath.Props.C147_loop",
    "Micromath.Props.C147_gyro",
    "Micromath.Props.C147_shrink",
    "Micromath.Props.C147_fixed",
    "Micromath.Props.C147_identity"
   ],
   "note": "The limit 0.932449 is xstar = 15643916 / 2^24, where the value of invsqrt is one."
  },
  {
   "property": "C148",
   "status": "proved",
   "theorems": [
    "Micromath.Props.C148_sqrt_subnormal",
    "Micromath.Props.C148_sqrt",
    "Micromath.Props.C148_magnitude2",
    "Micromath.Props.C148_magnitude3",
    "Micromath.Props.C148_distance2",
    "Micromath.Props.C148_distance3",
    "Micromath.Props.C148_hypot",
    "Micromath.Props.C148_quaternion_magnitude",
    "Micromath.Props.C148_stddev",
    "Micromath.Props.C148_normalized2",
    "Micromath.Props.C148_normalized3",
    "Micromath.Props.C148_huge",
    "Micromath.Props.C148_huge_false",
    "Micromath.Props.C148_normalize"
   ],
   "note": ""
  },
  {
   "property": "C149",
   "status": "proved",
   "theorems": [
    "Micromath.Props.C149_sin",
    "Micromath.Props.C149_cos",
    "Micromath.Props.C149_sin_short",
    "Micromath.Props.C149_tan",
    "Micromath.Props.C149_axis_angle",
    "Micromath.Props.C149_product",
    "Micromath.Props.C149_small_turns",
    "Micromath.Props.C149_rate",
    "Micromath.Props.C149_rate_false",
    "Micromath.Props.C149_atan",
    "Micromath.Props.C149_asin",
    "Micromath.Props.C149_inverse_short",
    "Micromath.Props.C149_asin_sin",
    "Micromath.Props.C149_case"
   ],
   "note": ""
  },
  {
   "property": "C150",
   "status": "proved",
   "theorems": [
    "Micromath.Props.C150_inv",
    "Micromath.Props.C150_ln",
    "Micromath.Props.C150_ln_near",
    "Micromath.Props.C150_exp_ln",
    "Micromath.Props.C150_ln_above",
    "Micromath.Props.C150_ln_below",
    "Micromath.Props.C150_ln_double_false",
    "Micromath.Props.C150_ln_jump_false",
    "Micromath.Props.C150_powf",
    "Micromath.Props.C150_decay",
    "Micromath.Props.C150_decay_false",
    "Micromath.Props.C150_case"
   ],
   "note": ""
  },
  {
   "property": "C151",
   "status": "proved",
   "theorems": [
    "Micromath.Props.C151_mean",
    "Micromath.Props.C151_variance",
    "Micromath.Props.C151_sum_bound",
    "Micromath.Props.C151_sum_stops",
    "Micromath.Props.C151_mean_bound",
    "Micromath.Props.C151_ones_false",
    "Micromath.Props.C151_case"
   ],
   "note": ""
  },
  {
   "property": "C152",
   "status": "proved",
   "theorems": [
    "Micromath.Props.C152_add",
    "Micromath.Props.C152_scalar",
    "Micromath.Props.C152_dot",
    "Micromath.Props.C152_cross",
    "Micromath.Props.C152_triple",
    "Micromath.Props.C152_jacobi",
    "Micromath.Props.C152_plane",
    "Micromath.Props.C152_sum",
    "Micromath.Props.C152_order_false",
    "Micromath.Props.C152_case"
   ],
   "note": ""
  },
  {
   "property": "C153",
   "status": "proved",
   "theorems": [
    "Micromath.Props.C153_div_panics",
    "Micromath.Props.C153_div",
    "Micromath.Props.C153_mul_div",
    "Micromath.Props.C153_mul_div_false",
    "Micromath.Props.C153_div_div",
    "Micromath.Props.C153_mean",
    "Micromath.Props.C153_case"
   ],
   "note": ""
  },
  {
   "property": "C154",
   "status": "proved",
   "theorems": [
    "Micromath.Props.C154_magnitude2",
    "Micromath.Props.C154_magnitude3",
    "Micromath.Props.C154_distance2",
    "Micromath.Props.C154_distance3",
    "Micromath.Props.C154_bytes",
    "Micromath.Props.C154_exact",
    "Micromath.Props.C154_sharp",
    "Micromath.Props.C154_i16_false",
    "Micromath.Props.C154_case"
   ],
   "note": ""
  },
  {
   "property": "C155",
   "status": "proved",
   "theorems": [
    "Micromath.Props.C155_variance",
    "Micromath.Props.C155_same",
    "Micromath.Props.C155_shift",
    "Micromath.Props.C155_positive",
    "Micromath.Props.C155_zero_iff",
    "Micromath.Props.C155_case"
   ],
   "note": ""
  },
  {
   "property": "C156",
   "status": "proved",
   "theorems": [
    "Micromath.Props.C156_periodic",
    "Micromath.Props.C156_idempotent",
    "Micromath.Props.C156_idempotent_false",
    "Micromath.Props.C156_wrap",
    "Micromath.Props.C156_cos_sin",
    "Micromath.Props.C156_emod",
    "Micromath.Props.C156_clock",
    "Micromath.Props.C156_modmul",
    "Micromath.Props.C156_heading"
   ],
   "note": ""
  },
  {
   "property": "C157",
   "status": "proved",
   "theorems": [
    "Micromath.Props.C157_near",
    "Micromath.Props.C157_recover",
    "Micromath.Props.C157_recover_sharp",
    "Micromath.Props.C157_step",
    "Micromath.Props.C157_step_fixed",
    "Micromath.Props.C157_step_monotone"
   ],
   "note": ""
  },
  {
   "property": "C158",
   "status": "proved",
   "theorems": [
    "Micromath.Props.C158_mul",
    "Micromath.Props.C158_chain",
    "Micromath.Props.C158_conj",
    "Micromath.Props.C158_rotate",
    "Micromath.Props.C158_compose",
    "Micromath.Props.C158_case"
   ],
   "note": ""
  },
  {
   "property": "C159",
   "status": "proved",
   "theorems": [
    "Micromath.Props.C159_sum",
    "Micromath.Props.C159_centroid",
    "Micromath.Props.C159_error",
    "Micromath.Props.C159_midpoint",
    "Micromath.Props.C159_box"
   ],
   "note": ""
  },
  {
   "property": "C160",
   "status": "proved",
   "theorems": [
    "Micromath.Props.C160_lerp",
    "Micromath.Props.C160_end",
    "Micromath.Props.C160_end_near",
    "Micromath.Props.C160_end_false",
    "Micromath.Props.C160_lerp_error",
    "Micromath.Props.C160_mix"
   ],
   "note": ""
  },
  {
   "property": "C161",
   "status": "proved",
   "theorems": [
    "Micromath.Props.C161_between",
    "Micromath.Props.C161_range",
    "Micromath.Props.C161_converge",
    "Micromath.Props.C161_reaches_false",
    "Micromath.Props.C161_overshoot_false"
   ],
   "note": ""
  },
  {
   "property": "C162",
   "status": "proved",
   "theorems": [
    "Micromath.Props.C162_error",
    "Micromath.Props.C162_mono",
    "Micromath.Props.C162_int"
   ],
   "note": ""
  },
  {
   "property": "C163",
   "status": "proved",
   "theorems": [
    "Micromath.Props.C163_turn",
    "Micromath.Props.C163_factor",
    "Micromath.Props.C163_length",
    "Micromath.Props.C163_chain",
    "Micromath.Props.C163_drift_false"
   ],
   "note": ""
  },
  {
   "property": "C164",
   "status": "proved",
   "theorems": [
    "Micromath.Props.C164_heron",
    "Micromath.Props.C164_sqrt",
    "Micromath.Props.C164_newton_inv",
    "Micromath.Props.C164_inv",
    "Micromath.Props.C164_newton_invsqrt",
    "Micromath.Props.C164_invsqrt"
   ],
   "note": ""
  },
  {
   "property": "C165",
   "status": "proved",
   "theorems": [
    "Micromath.Props.C165_fold",
    "Micromath.Props.C165_nested",
    "Micromath.Props.C165_zeros_false"
   ],
   "note": ""
  },
  {
   "property": "C166",
   "status": "proved",
   "theorems": [
    "Micromath.Props.C166_error",
    "Micromath.Props.C166_normalized",
    "Micromath.Props.C166_length",
    "Micromath.Props.C166_bounce",
    "Micromath.Props.C166_bounce_false"
   ],
   "note": ""
  },
  {
   "property": "C167",
   "status": "proved",
   "theorems": [
    "Micromath.Props.C167_plane",
    "Micromath.Props.C167_cross",
    "Micromath.Props.C167_parallel",
    "Micromath.Props.C167_dot3_false"
   ],
   "note": ""
  }
 ]
}
