import Verif.Float.Grid

/-!
# Rounding error of single operations, in a form suited to forward error analysis

Every lemma returns the result as exact result plus (or times) a named, bounded perturbation.
-/

namespace Micromath.F32
variable [Cfg]

omit [Cfg] in
theorem zpow_lt_ovf {e : Int} (he : e ≤ 127) : (2 : ℚ) ^ e < ovf := by
  refine lt_of_le_of_lt (zpow_le_zpow_right₀ (by norm_num) he) ?_
  norm_num [ovf]

theorem add_err {x y : F32} (hx : x.isFinite) (hy : y.isFinite) (e : Int) (he : -125 ≤ e) (he2 : e ≤ 127)
    (h : |x.val + y.val| ≤ 2 ^ e) :
    ∃ d, |d| ≤ 2 ^ (e - 25) ∧ (x + y).isFinite = true ∧ (x + y).val = x.val + y.val + d := by
  obtain ⟨h1, h2⟩ := add_val hx hy (lt_of_le_of_lt h (zpow_lt_ovf he2))
  exact ⟨_, RN_err_abs he h, h1, by rw [h2]; ring⟩

theorem sub_err {x y : F32} (hx : x.isFinite) (hy : y.isFinite) (e : Int) (he : -125 ≤ e) (he2 : e ≤ 127)
    (h : |x.val - y.val| ≤ 2 ^ e) :
    ∃ d, |d| ≤ 2 ^ (e - 25) ∧ (x - y).isFinite = true ∧ (x - y).val = x.val - y.val + d := by
  obtain ⟨h1, h2⟩ := sub_val hx hy (lt_of_le_of_lt h (zpow_lt_ovf he2))
  exact ⟨_, RN_err_abs he h, h1, by rw [h2]; ring⟩

theorem mul_err {x y : F32} (hx : x.isFinite) (hy : y.isFinite) (e : Int) (he : -125 ≤ e) (he2 : e ≤ 127)
    (h : |x.val * y.val| ≤ 2 ^ e) :
    ∃ d, |d| ≤ 2 ^ (e - 25) ∧ (x * y).isFinite = true ∧ (x * y).val = x.val * y.val + d := by
  obtain ⟨h1, h2⟩ := mul_val hx hy (lt_of_le_of_lt h (zpow_lt_ovf he2))
  exact ⟨_, RN_err_abs he h, h1, by rw [h2]; ring⟩

theorem div_err {x y : F32} (hx : x.isFinite) (hy : y.isFinite) (h0 : y.val ≠ 0) (e : Int) (he : -125 ≤ e)
    (he2 : e ≤ 127) (h : |x.val / y.val| ≤ 2 ^ e) :
    ∃ d, |d| ≤ 2 ^ (e - 25) ∧ (x / y).isFinite = true ∧ (x / y).val = x.val / y.val + d := by
  obtain ⟨h1, h2⟩ := div_val hx hy h0 (lt_of_le_of_lt h (zpow_lt_ovf he2))
  exact ⟨_, RN_err_abs he h, h1, by rw [h2]; ring⟩

omit [Cfg] in
/-- Relative form of a rounding error. -/
theorem rel_of_err {q r : ℚ} (h : |r - q| ≤ |q| / 2 ^ 24) : ∃ d, |d| ≤ 1 / 2 ^ 24 ∧ r = q * (1 + d) := by
  rcases eq_or_ne q 0 with h0 | h0
  · subst h0
    refine ⟨0, by norm_num, ?_⟩
    rw [abs_zero, zero_div] at h
    have := abs_eq_zero.1 (le_antisymm h (abs_nonneg _))
    linarith
  · refine ⟨(r - q) / q, ?_, by field_simp; ring⟩
    rw [abs_div, div_le_iff₀ (abs_pos.2 h0)]
    linarith

theorem add_rel {x y : F32} (hx : x.isFinite) (hy : y.isFinite) (h : |x.val + y.val| < ovf) :
    ∃ d, |d| ≤ 1 / 2 ^ 24 ∧ (x + y).isFinite = true ∧ (x + y).val = (x.val + y.val) * (1 + d) := by
  obtain ⟨h1, h2⟩ := add_val hx hy h
  have := RN_err_units (x.units + y.units)
  rw [← units_add_val] at this
  obtain ⟨d, hd, he⟩ := rel_of_err this
  exact ⟨d, hd, h1, by rw [h2, he]⟩

theorem sub_rel {x y : F32} (hx : x.isFinite) (hy : y.isFinite) (h : |x.val - y.val| < ovf) :
    ∃ d, |d| ≤ 1 / 2 ^ 24 ∧ (x - y).isFinite = true ∧ (x - y).val = (x.val - y.val) * (1 + d) := by
  obtain ⟨h1, h2⟩ := sub_val hx hy h
  have := RN_err_units (x.units + (-y).units)
  rw [← units_add_val, val_neg, ← sub_eq_add_neg] at this
  obtain ⟨d, hd, he⟩ := rel_of_err this
  exact ⟨d, hd, h1, by rw [h2, he]⟩

theorem mul_rel {x y : F32} (hx : x.isFinite) (hy : y.isFinite) (hl : 1 / 2 ^ 126 ≤ |x.val * y.val|)
    (h : |x.val * y.val| < ovf) :
    ∃ d, |d| ≤ 1 / 2 ^ 24 ∧ (x * y).isFinite = true ∧ (x * y).val = x.val * y.val * (1 + d) := by
  obtain ⟨h1, h2⟩ := mul_val hx hy h
  obtain ⟨d, hd, he⟩ := rel_of_err (RN_err_rel hl)
  exact ⟨d, hd, h1, by rw [h2, he]⟩

theorem div_rel {x y : F32} (hx : x.isFinite) (hy : y.isFinite) (h0 : y.val ≠ 0)
    (hl : 1 / 2 ^ 126 ≤ |x.val / y.val|) (h : |x.val / y.val| < ovf) :
    ∃ d, |d| ≤ 1 / 2 ^ 24 ∧ (x / y).isFinite = true ∧ (x / y).val = x.val / y.val * (1 + d) := by
  obtain ⟨h1, h2⟩ := div_val hx hy h0 h
  obtain ⟨d, hd, he⟩ := rel_of_err (RN_err_rel hl)
  exact ⟨d, hd, h1, by rw [h2, he]⟩

omit [Cfg] in
theorem rep_lt_ovf_of_le {q : ℚ} (h : |q| ≤ maxF) : |q| < ovf := lt_of_le_of_lt h maxF_lt_ovf

theorem add_exact {x y : F32} (hx : x.isFinite) (hy : y.isFinite) (h : |x.val + y.val| ≤ maxF)
    (hr : Rep (x.val + y.val)) : (x + y).isFinite = true ∧ (x + y).val = x.val + y.val := by
  obtain ⟨h1, h2⟩ := add_val hx hy (rep_lt_ovf_of_le h)
  exact ⟨h1, by rw [h2, RN_of_rep hr]⟩

theorem sub_exact {x y : F32} (hx : x.isFinite) (hy : y.isFinite) (h : |x.val - y.val| ≤ maxF)
    (hr : Rep (x.val - y.val)) : (x - y).isFinite = true ∧ (x - y).val = x.val - y.val := by
  obtain ⟨h1, h2⟩ := sub_val hx hy (rep_lt_ovf_of_le h)
  exact ⟨h1, by rw [h2, RN_of_rep hr]⟩

theorem mul_exact {x y : F32} (hx : x.isFinite) (hy : y.isFinite) (h : |x.val * y.val| ≤ maxF)
    (hr : Rep (x.val * y.val)) : (x * y).isFinite = true ∧ (x * y).val = x.val * y.val := by
  obtain ⟨h1, h2⟩ := mul_val hx hy (rep_lt_ovf_of_le h)
  exact ⟨h1, by rw [h2, RN_of_rep hr]⟩

omit [Cfg] in
theorem magU_dvd {a b k r : Nat} (hb : b = k * 2 ^ 23 + r) (hr : k = 0 ∨ 2 ^ 23 ≤ r) (h : b ≤ a) :
    2 ^ k ∣ magU a := by
  obtain ⟨k', r', ha, h1, h2⟩ := mag_split a
  rw [magU_eq_iff_split ha h1 h2.le]
  apply Dvd.dvd.mul_left
  apply pow_dvd_pow
  by_contra hc
  omega

omit [Cfg] in
/-- Sterbenz: the difference of two nonnegative floats within a factor of two of each other is exact. -/
theorem sterbenz {x y : F32} (h1 : x.val ≤ 2 * y.val) (h2 : y.val ≤ 2 * x.val) : Rep (x.val - y.val) := by
  wlog hxy : x.val ≤ y.val generalizing x y
  · have := this (x := y) (y := x) h2 h1 (le_of_not_ge hxy)
    have h3 := this.neg
    rwa [neg_sub] at h3
  have hx0 : 0 ≤ x.val := by linarith
  have hy0 : 0 ≤ y.val := by linarith
  have ex : x.val = mval x.mag := by rw [← abs_val, abs_of_nonneg hx0]
  have ey : y.val = mval y.mag := by rw [← abs_val, abs_of_nonneg hy0]
  have hm : x.mag ≤ y.mag := by rw [ex, ey] at hxy; exact mval_le.1 hxy
  obtain ⟨k, r, hb, hr, hr2⟩ := mag_split x.mag
  obtain ⟨c, hc⟩ := magU_dvd hb hr hm
  have hu := magU_eq_iff_split hb hr hr2.le
  have h2' : magU y.mag ≤ 2 * magU x.mag := by
    rw [ex, ey, mval, mval, mul_div_assoc', div_le_div_iff_of_pos_right two149_pos] at h2
    exact_mod_cast h2
  have hcr : c ≤ 2 * r := by
    rw [hc, hu] at h2'
    have : 2 ^ k * c ≤ 2 ^ k * (2 * r) := by linarith
    exact Nat.le_of_mul_le_mul_left this (by positivity)
  have hrc : r ≤ c := by
    have h3 : magU x.mag ≤ magU y.mag := magU_le_iff.2 hm
    rw [hc, hu, mul_comm] at h3
    exact Nat.le_of_mul_le_mul_left h3 (by positivity)
  have := rep_units (m := (r : Int) - c) (by omega) k
  rw [ex, ey, mval, mval, hc, hu]
  convert this using 1
  push_cast; ring

omit [Cfg] in
/-- A multiple of `2^j` of magnitude at most `2^(j+24)` is representable. -/
theorem rep_grid {q : ℚ} {z j : Int} (hj : -149 ≤ j) (h : q = z * 2 ^ j) (hb : |q| ≤ 2 ^ (j + 24)) : Rep q := by
  rw [h]
  refine rep_zpow ?_ hj
  rw [h, abs_mul, abs_of_pos (by positivity : (0 : ℚ) < 2 ^ j), zpow_add₀ (by norm_num), mul_comm] at hb
  have h2 := le_of_mul_le_mul_left hb (by positivity)
  rw [← Int.cast_abs] at h2
  have h3 : |z| ≤ 2 ^ 24 := by exact_mod_cast h2
  rw [abs_le] at h3
  omega

/-- Adding an integer constant to a float at least `2^k` in magnitude is exact when the sum stays below
`2^(k+1)`. -/
theorem add_int_exact {x c : F32} (hx : x.isFinite) (hc : c.isFinite) {n : Int} (k : Int) (hk : -126 ≤ k)
    (hk2 : k ≤ 23) (hn : c.val = n) (hl : 2 ^ k ≤ |x.val|) (hu : |c.val + x.val| ≤ 2 ^ (k + 1)) :
    (c + x).isFinite = true ∧ (c + x).val = c.val + x.val := by
  obtain ⟨z, hz⟩ := val_grid hk hl
  have hp : (2 : ℚ) ^ (23 - k) * 2 ^ (k - 23) = 1 := by
    rw [← zpow_add₀ (by norm_num), show (23 - k + (k - 23) : Int) = 0 by ring, zpow_zero]
  obtain ⟨m, hm⟩ : ∃ m : Nat, 23 - k = m := ⟨(23 - k).toNat, by omega⟩
  rw [hm, zpow_natCast] at hp
  apply add_exact hc hx
  · refine hu.trans ?_
    refine (zpow_le_zpow_right₀ (by norm_num) (by omega : k + 1 ≤ 24)).trans ?_
    norm_num [maxF]
  · refine rep_grid (z := n * 2 ^ m + z) (j := k - 23) (by omega) ?_ ?_
    · rw [hz, hn]; push_cast; rw [add_mul, mul_assoc, hp, mul_one]
    · rw [show k - 23 + 24 = k + 1 by ring]; exact hu

end Micromath.F32
