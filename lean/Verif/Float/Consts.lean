import Verif.Float.Grid

/-!
# Exact values of the constants and literals used by the crate
-/

namespace Micromath.F32

theorem fin_one : one.isFinite = true := by decide +kernel
theorem val_one : one.val = 1 := by
  rw [val_of_units (u := 1 * 2 ^ 149) (by decide +kernel)]; norm_num
theorem fin_posZero : posZero.isFinite = true := by decide +kernel
theorem val_posZero : posZero.val = 0 := by
  rw [val_of_units (u := 0) (by decide +kernel)]; norm_num
theorem fin_negZero : negZero.isFinite = true := by decide +kernel
theorem val_negZero : negZero.val = 0 := by
  rw [val_of_units (u := 0) (by decide +kernel)]; norm_num
theorem fin_ONE : ONE.isFinite = true := by decide +kernel
theorem val_ONE : ONE.val = 1 := by
  rw [val_of_units (u := 1 * 2 ^ 149) (by decide +kernel)]; norm_num
theorem fin_ZERO : ZERO.isFinite = true := by decide +kernel
theorem val_ZERO : ZERO.val = 0 := by
  rw [val_of_units (u := 0) (by decide +kernel)]; norm_num
theorem fin_lit_1_2 : (lit 1 2).isFinite = true := by decide +kernel
theorem val_lit_1_2 : (lit 1 2).val = 1 / 2 := by
  rw [val_of_units (u := 1 * 2 ^ 148) (by decide +kernel)]; norm_num
theorem fin_lit_2_1 : (lit 2 1).isFinite = true := by decide +kernel
theorem val_lit_2_1 : (lit 2 1).val = 2 := by
  rw [val_of_units (u := 1 * 2 ^ 150) (by decide +kernel)]; norm_num
theorem fin_lit_4_1 : (lit 4 1).isFinite = true := by decide +kernel
theorem val_lit_4_1 : (lit 4 1).val = 4 := by
  rw [val_of_units (u := 1 * 2 ^ 151) (by decide +kernel)]; norm_num
theorem fin_lit_8_1 : (lit 8 1).isFinite = true := by decide +kernel
theorem val_lit_8_1 : (lit 8 1).val = 8 := by
  rw [val_of_units (u := 1 * 2 ^ 152) (by decide +kernel)]; norm_num
theorem fin_lit_28_1 : (lit 28 1).isFinite = true := by decide +kernel
theorem val_lit_28_1 : (lit 28 1).val = 28 := by
  rw [val_of_units (u := 7 * 2 ^ 151) (by decide +kernel)]; norm_num
theorem fin_lit_56_1 : (lit 56 1).isFinite = true := by decide +kernel
theorem val_lit_56_1 : (lit 56 1).val = 56 := by
  rw [val_of_units (u := 7 * 2 ^ 152) (by decide +kernel)]; norm_num
theorem fin_lit_70_1 : (lit 70 1).isFinite = true := by decide +kernel
theorem val_lit_70_1 : (lit 70 1).val = 70 := by
  rw [val_of_units (u := 35 * 2 ^ 150) (by decide +kernel)]; norm_num
theorem fin_lit_16_1 : (lit 16 1).isFinite = true := by decide +kernel
theorem val_lit_16_1 : (lit 16 1).val = 16 := by
  rw [val_of_units (u := 1 * 2 ^ 153) (by decide +kernel)]; norm_num
theorem fin_lit_25_100 : (lit 25 100).isFinite = true := by decide +kernel
theorem val_lit_25_100 : (lit 25 100).val = 1 / 4 := by
  rw [val_of_units (u := 1 * 2 ^ 147) (by decide +kernel)]; norm_num
theorem fin_lit_5_10 : (lit 5 10).isFinite = true := by decide +kernel
theorem val_lit_5_10 : (lit 5 10).val = 1 / 2 := by
  rw [val_of_units (u := 1 * 2 ^ 148) (by decide +kernel)]; norm_num
theorem fin_lit_225_1000 : (lit 225 1000).isFinite = true := by decide +kernel
theorem val_lit_225_1000 : (lit 225 1000).val = 7549747 / 33554432 := by
  rw [val_of_units (u := 7549747 * 2 ^ 124) (by decide +kernel)]; norm_num
theorem fin_lit_1_1000000 : (lit 1 1000000).isFinite = true := by decide +kernel
theorem val_lit_1_1000000 : (lit 1 1000000).val = 8796093 / 8796093022208 := by
  rw [val_of_units (u := 8796093 * 2 ^ 106) (by decide +kernel)]; norm_num
theorem fin_lit_17417939_10000000 : (lit 17417939 10000000).isFinite = true := by decide +kernel
theorem val_lit_17417939_10000000 : (lit 17417939 10000000).val = 7305613 / 4194304 := by
  rw [val_of_units (u := 7305613 * 2 ^ 127) (by decide +kernel)]; norm_num
theorem fin_lit_28212026_10000000 : (lit 28212026 10000000).isFinite = true := by decide +kernel
theorem val_lit_28212026_10000000 : (lit 28212026 10000000).val = 11832981 / 4194304 := by
  rw [val_of_units (u := 11832981 * 2 ^ 127) (by decide +kernel)]; norm_num
theorem fin_lit_14699568_10000000 : (lit 14699568 10000000).isFinite = true := by decide +kernel
theorem val_lit_14699568_10000000 : (lit 14699568 10000000).val = 12330891 / 8388608 := by
  rw [val_of_units (u := 12330891 * 2 ^ 126) (by decide +kernel)]; norm_num
theorem fin_lit_44717955_100000000 : (lit 44717955 100000000).isFinite = true := by decide +kernel
theorem val_lit_44717955_100000000 : (lit 44717955 100000000).val = 1875607 / 4194304 := by
  rw [val_of_units (u := 1875607 * 2 ^ 127) (by decide +kernel)]; norm_num
theorem fin_lit_56570851_1000000000 : (lit 56570851 1000000000).isFinite = true := by decide +kernel
theorem val_lit_56570851_1000000000 : (lit 56570851 1000000000).val = 7592811 / 134217728 := by
  rw [val_of_units (u := 7592811 * 2 ^ 122) (by decide +kernel)]; norm_num
theorem fin_PI : PI.isFinite = true := by decide +kernel
theorem val_PI : PI.val = 13176795 / 4194304 := by
  rw [val_of_units (u := 13176795 * 2 ^ 127) (by decide +kernel)]; norm_num
theorem fin_FRAC_PI_2 : FRAC_PI_2.isFinite = true := by decide +kernel
theorem val_FRAC_PI_2 : FRAC_PI_2.val = 13176795 / 8388608 := by
  rw [val_of_units (u := 13176795 * 2 ^ 126) (by decide +kernel)]; norm_num
theorem fin_FRAC_1_PI : FRAC_1_PI.isFinite = true := by decide +kernel
theorem val_FRAC_1_PI : FRAC_1_PI.val = 10680707 / 33554432 := by
  rw [val_of_units (u := 10680707 * 2 ^ 124) (by decide +kernel)]; norm_num
theorem fin_LN_2 : LN_2.isFinite = true := by decide +kernel
theorem val_LN_2 : LN_2.val = 1453635 / 2097152 := by
  rw [val_of_units (u := 1453635 * 2 ^ 128) (by decide +kernel)]; norm_num
theorem fin_LOG2_E : LOG2_E.isFinite = true := by decide +kernel
theorem val_LOG2_E : LOG2_E.val = 12102203 / 8388608 := by
  rw [val_of_units (u := 12102203 * 2 ^ 126) (by decide +kernel)]; norm_num
theorem fin_LOG10_E : LOG10_E.isFinite = true := by decide +kernel
theorem val_LOG10_E : LOG10_E.val = 14572505 / 33554432 := by
  rw [val_of_units (u := 14572505 * 2 ^ 124) (by decide +kernel)]; norm_num
theorem fin_E : E.isFinite = true := by decide +kernel
theorem val_E : E.val = 2850325 / 1048576 := by
  rw [val_of_units (u := 2850325 * 2 ^ 129) (by decide +kernel)]; norm_num
theorem fin_ATAN_B : ATAN_B.isFinite = true := by decide +kernel
theorem val_ATAN_B : ATAN_B.val = 10003029 / 16777216 := by
  rw [val_of_units (u := 10003029 * 2 ^ 125) (by decide +kernel)]; norm_num
theorem fin_EPSILON : EPSILON.isFinite = true := by decide +kernel
theorem val_EPSILON : EPSILON.val = 1 / 8388608 := by
  rw [val_of_units (u := 1 * 2 ^ 126) (by decide +kernel)]; norm_num

end Micromath.F32
