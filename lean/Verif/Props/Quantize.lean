import Verif.Props.RoundOrder
import Verif.Props.Trig

/-!
# C157: quantization with `round`: fixed-point steps and back
-/

set_option exponentiation.threshold 1000

namespace Micromath.Props
open F32 Spec

variable [Cfg]

omit [Cfg] in
theorem roundHalfAway_near {q : ℚ} {n : ℤ} (h : |q - n| < 1 / 2) : roundHalfAway q = n := by
  obtain ⟨h1, h2⟩ := abs_lt.1 h
  unfold roundHalfAway
  split
  · exact Int.floor_eq_iff.2 ⟨by linarith, by linarith⟩
  · exact Int.ceil_eq_iff.2 ⟨by linarith, by linarith⟩

/-- **C157.** A float closer to the integer `n` than `1/2 - 2^-25` is rounded to `n`, for `|n| < 2^22`. -/
theorem C157_near {x : F32} {n : ℤ} (hx : x.isFinite = true) (hn : |n| < 2 ^ 22) (h : |x.val - n| < 1 / 2 - 1 / 2 ^ 25) :
    IsVal x.round n := by
  have hn' := abs_lt.1 (show |(n : ℚ)| < 2 ^ 22 by exact_mod_cast hn)
  have h' := abs_lt.1 h
  norm_num at hn' h'
  have hb : |x.val| < 2 ^ 22 + 1 := by rw [abs_lt]; constructor <;> norm_num <;> linarith
  rw [← roundHalfAway_near (lt_trans h (by norm_num))]
  refine C11_round x hx (hb.trans (by norm_num)) ?_
  rintro (h1 | ⟨z, h1, -, h2, -⟩)
  · norm_num at h1
    rcases lt_trichotomy n 0 with hc | hc | hc
    · have : (n : ℚ) ≤ -1 := by exact_mod_cast (show n ≤ -1 by omega)
      have := (abs_le.1 h1.le).1
      linarith
    · rw [hc] at h; norm_num [h1] at h
    · have : (1 : ℚ) ≤ n := by exact_mod_cast (show 1 ≤ n by omega)
      have := (abs_le.1 h1.le).2
      linarith
  · rw [h1] at hb
    have : (2 : ℚ) ^ 23 < z := by exact_mod_cast h2
    norm_num at this hb; linarith

/-- The hypotheses hold for `-41.75` and `-42`. -/
example : IsVal (⟨0xc2270000#32⟩ : F32).round (-42 : ℤ) := by
  have v : (⟨0xc2270000#32⟩ : F32).val = -167 / 4 := by
    rw [val_of_units (u := -167 * 2 ^ 147) (by decide +kernel)]; norm_num
  exact C157_near (by decide) (by norm_num) (by rw [v]; norm_num [abs_lt])

omit [Cfg] in
theorem RN_rel_err {q : ℚ} (h : 1 / 2 ^ 126 ≤ |q|) : |RN q - q| ≤ |q| / 2 ^ 24 :=
  (RN_err q).trans (max_le (by rw [le_div_iff₀ (by positivity)]; refine le_trans ?_ h; norm_num) le_rfl)

omit [Cfg] in
/-- Two roundings of relative size `2^-24` about an integer below `2^22` stay on the integer. -/
theorem twice_near {n : ℤ} (hn : |n| < 2 ^ 22) {u v : ℚ} (h1 : |u - n| ≤ |(n : ℚ)| / 2 ^ 24) (h2 : |v - u| ≤ |u| / 2 ^ 24) :
    |v - n| < 1 / 2 - 1 / 2 ^ 25 := by
  have hn' : |(n : ℚ)| ≤ 2 ^ 22 - 1 := by exact_mod_cast (show |n| ≤ 2 ^ 22 - 1 by omega)
  have h3 : |u| ≤ |(n : ℚ)| + |(n : ℚ)| / 2 ^ 24 := by
    have := abs_add_le (u - n) (n : ℚ)
    rw [sub_add_cancel] at this; linarith
  have := abs_sub_le v u n
  norm_num at *; linarith

/-- **C157.** Fixed point and back: an integer below `2^22` divided by any scale and multiplied by it again, or the other way
round, is the integer after `round`. -/
theorem C157_recover {x s : F32} {n : ℤ} (hx : IsVal x n) (hn : |n| < 2 ^ 22) (hs : s.isFinite = true)
    (l : 1 / 2 ^ 100 ≤ |s.val|) (u : |s.val| ≤ 2 ^ 100) :
    IsVal ((x / s) * s).round n ∧ IsVal ((x * s) / s).round n := by
  have sp : 0 < |s.val| := lt_of_lt_of_le (by norm_num) l
  have s0 : s.val ≠ 0 := abs_pos.1 sp
  have hn' : |(n : ℚ)| < 2 ^ 22 := by exact_mod_cast hn
  rcases eq_or_ne n 0 with h0 | h0
  · subst h0
    have r0 : RN 0 = 0 := RN_of_rep (by simpa using rep_int (m := 0) (by norm_num))
    have o0 : |(0 : ℚ)| < ovf := by norm_num [ovf]
    have v0 : x.val = 0 := by rw [hx.2]; simp
    constructor
    · obtain ⟨f1, v1⟩ := div_val hx.1 hs s0 (by rw [v0, zero_div]; exact o0)
      rw [v0, zero_div, r0] at v1
      obtain ⟨f2, v2⟩ := mul_val f1 hs (by rw [v1, zero_mul]; exact o0)
      rw [v1, zero_mul, r0] at v2
      exact C157_near f2 hn (by rw [v2]; norm_num)
    · obtain ⟨f1, v1⟩ := mul_val hx.1 hs (by rw [v0, zero_mul]; exact o0)
      rw [v0, zero_mul, r0] at v1
      obtain ⟨f2, v2⟩ := div_val f1 hs s0 (by rw [v1, zero_div]; exact o0)
      rw [v1, zero_div, r0] at v2
      exact C157_near f2 hn (by rw [v2]; norm_num)
  have n1 : (1 : ℚ) ≤ |(n : ℚ)| := by exact_mod_cast Int.one_le_abs h0
  have key : ∀ w : ℚ, |w - n| ≤ |(n : ℚ)| / 2 ^ 24 → |w| < ovf ∧ 1 / 2 ^ 126 ≤ |w| := by
    intro w hw
    have a := abs_sub_abs_le_abs_sub w n
    have b := abs_sub_abs_le_abs_sub (n : ℚ) w
    rw [abs_sub_comm] at b
    norm_num [ovf] at *
    constructor <;> linarith
  constructor
  · have q1 : |x.val / s.val| = |(n : ℚ)| / |s.val| := by rw [hx.2, abs_div]
    have q2 : |(n : ℚ)| / |s.val| ≤ 2 ^ 122 := by
      rw [div_le_iff₀ sp]; calc |(n : ℚ)| ≤ 2 ^ 22 := hn'.le
        _ = 2 ^ 122 * (1 / 2 ^ 100) := by norm_num
        _ ≤ _ := by gcongr
    have q3 : 1 / 2 ^ 126 ≤ |(n : ℚ)| / |s.val| := by
      rw [le_div_iff₀ sp]; refine le_trans ?_ n1
      calc 1 / 2 ^ 126 * |s.val| ≤ 1 / 2 ^ 126 * 2 ^ 100 := by gcongr
        _ ≤ 1 := by norm_num
    obtain ⟨f1, v1⟩ := div_val hx.1 hs s0 (by rw [q1]; exact q2.trans_lt (by norm_num [ovf]))
    have e1 := RN_rel_err (q := x.val / s.val) (by rw [q1]; exact q3)
    rw [← v1, q1] at e1
    have e2 : |(x / s).val * s.val - n| ≤ |(n : ℚ)| / 2 ^ 24 := by
      have : (x / s).val * s.val - n = ((x / s).val - x.val / s.val) * s.val := by rw [hx.2]; field_simp
      rw [this, abs_mul]
      calc _ ≤ |(n : ℚ)| / |s.val| / 2 ^ 24 * |s.val| := by gcongr
        _ = _ := by field_simp
    obtain ⟨k1, k2⟩ := key _ e2
    obtain ⟨f2, v2⟩ := mul_val f1 hs k1
    have e3 := RN_rel_err k2
    rw [← v2] at e3
    exact C157_near f2 hn (twice_near hn e2 e3)
  · have q1 : |x.val * s.val| = |(n : ℚ)| * |s.val| := by rw [hx.2, abs_mul]
    have q2 : |(n : ℚ)| * |s.val| ≤ 2 ^ 122 := by
      calc |(n : ℚ)| * |s.val| ≤ 2 ^ 22 * 2 ^ 100 := by gcongr
        _ = _ := by norm_num
    have q3 : 1 / 2 ^ 126 ≤ |(n : ℚ)| * |s.val| := by
      calc (1 : ℚ) / 2 ^ 126 ≤ 1 * (1 / 2 ^ 100) := by norm_num
        _ ≤ _ := by gcongr
    obtain ⟨f1, v1⟩ := mul_val hx.1 hs (by rw [q1]; exact q2.trans_lt (by norm_num [ovf]))
    have e1 := RN_rel_err (q := x.val * s.val) (by rw [q1]; exact q3)
    rw [← v1, q1] at e1
    have e2 : |(x * s).val / s.val - n| ≤ |(n : ℚ)| / 2 ^ 24 := by
      have : (x * s).val / s.val - n = ((x * s).val - x.val * s.val) / s.val := by rw [hx.2]; field_simp
      rw [this, abs_div, div_le_iff₀ sp]
      refine e1.trans (le_of_eq (by ring))
    obtain ⟨k1, k2⟩ := key _ e2
    obtain ⟨f2, v2⟩ := div_val f1 hs s0 k1
    have e3 := RN_rel_err k2
    rw [← v2] at e3
    exact C157_near f2 hn (twice_near hn e2 e3)

/-- `-1234567 / 1000.0 * 1000.0` rounds to `-1234567`. -/
example : IsVal ((ofInt (-1234567) / ofInt 1000) * ofInt 1000).round (-1234567 : ℤ) := by
  obtain ⟨f, v⟩ := ofInt_isVal (n := 1000) (by decide)
  exact (C157_recover (ofInt_isVal (n := -1234567) (by decide)) (by norm_num) f (by rw [v]; norm_num [abs_of_pos])
    (by rw [v]; norm_num [abs_of_pos])).1

/-- **C157.** The limit `2^22 = 4194304` is nearly sharp: `4219968 / 8419069 * 8419069` rounds to `4219969` and
`4208256 * 511 / 511` to `4208257`. -/
theorem C157_recover_sharp :
    ((⟨0x4a80c880#32⟩ : F32) / (⟨0x4b0076fd#32⟩ : F32) * (⟨0x4b0076fd#32⟩ : F32)).round = (⟨0x4a80c882#32⟩ : F32) ∧
    ((⟨0x4a806d00#32⟩ : F32) * (⟨0x43ff8000#32⟩ : F32) / (⟨0x43ff8000#32⟩ : F32)).round = (⟨0x4a806d02#32⟩ : F32) :=
  ⟨eval_eq (n := 0x4a80c882) (by kernel_rfl), eval_eq (n := 0x4a806d02) (by kernel_rfl)⟩

/-! ### Steps of `2^-k` -/

/-- The nearest multiple of `1/p`, as it is usually written. -/
def quantize (x p : F32) : F32 := (x * p).round / p

/-- `quantize` with a power of two, in exact terms. -/
theorem quantize_exact {x p : F32} {k : ℕ} (hx : x.isFinite = true) (hp : IsVal p ((2 : ℚ) ^ k)) (hk : k ≤ 100)
    (hb : |x.val * 2 ^ k| < 2 ^ 22) :
    (x * p).isFinite = true ∧ (x * p).val = x.val * 2 ^ k ∧ ∃ n : ℤ, |n| ≤ 2 ^ 22 ∧ IsVal (x * p).round n ∧
      IsVal (quantize x p) (n / 2 ^ k) ∧ |(n : ℚ) - x.val * 2 ^ k| ≤ 1 / 2 + 1 / 2 ^ 25 := by
  have pk : (0 : ℚ) < 2 ^ k := by positivity
  obtain ⟨f1, v1⟩ := mul_exact hx hp.1 (by rw [hp.2]; exact hb.le.trans (by norm_num [maxF]))
    (by rw [hp.2, mul_comm]; exact rep_scale (rep_val x) k)
  rw [hp.2] at v1
  have hr : ∃ n : ℤ, IsVal (x * p).round n ∧ |(n : ℚ) - x.val * 2 ^ k| ≤ 1 / 2 + 1 / 2 ^ 25 := by
    by_cases ho : RoundOff (x * p)
    · obtain ⟨g1, g2⟩ := round_total (not_nan_of_finite f1)
      refine ⟨_, ⟨g1, g2⟩, ?_⟩
      have hm : |(x * p).val| = 1 / 2 - 1 / 2 ^ 25 := by
        rcases ho with h | ⟨z, h1, -, h2, -⟩
        · exact h
        · exfalso
          rw [v1] at h1; rw [h1] at hb
          have : (2 : ℚ) ^ 23 < z := by exact_mod_cast h2
          norm_num at this hb; linarith
      have hz : roundHalfAway (x * p).val = 0 := roundHalfAway_near (by
        simp only [Int.cast_zero, sub_zero]; rw [hm]; norm_num)
      have h1 := C11_round_exceptions (x * p) ho
      rw [hz, g2, Int.cast_zero, sub_zero] at h1
      have h2 : |(if (x * p).sign = true then -rmag |(x * p).val| else rmag |(x * p).val|)| = 1 := by exact_mod_cast h1
      have h3 := rmag_nonneg (abs_nonneg (x * p).val)
      have h4 : rmag |(x * p).val| = 1 := by
        split at h2
        · rw [abs_neg, abs_of_nonneg h3] at h2; exact h2
        · rw [abs_of_nonneg h3] at h2; exact h2
      rw [h4, ← v1]
      split
      · rename_i hs
        have : (x * p).val ≤ 0 := by
          by_contra hc
          rw [val_pos_sign (not_le.1 hc)] at hs; simp at hs
        rw [abs_of_nonpos this] at hm
        rw [abs_le]; push_cast; norm_num at *; constructor <;> linarith
      · rename_i hs
        have : 0 ≤ (x * p).val := by
          by_contra hc
          exact hs (val_neg_sign (not_le.1 hc))
        rw [abs_of_nonneg this] at hm
        rw [abs_le]; push_cast; norm_num at *; constructor <;> linarith
    · refine ⟨_, C11_round _ f1 (by rw [v1]; exact hb.trans (by norm_num)) ho, ?_⟩
      rw [v1]
      unfold roundHalfAway
      split
      · have a := Int.floor_le (x.val * 2 ^ k + 1 / 2)
        have b := Int.lt_floor_add_one (x.val * 2 ^ k + 1 / 2)
        rw [abs_le]; norm_num; constructor <;> linarith
      · have a := Int.le_ceil (x.val * 2 ^ k - 1 / 2)
        have b := Int.ceil_lt_add_one (x.val * 2 ^ k - 1 / 2)
        rw [abs_le]; norm_num; constructor <;> linarith
  obtain ⟨n, hn, he⟩ := hr
  have nb : |n| ≤ 2 ^ 22 := by
    have h1 := abs_le.1 he
    have h2 := abs_lt.1 hb
    norm_num at h1 h2
    rw [abs_le]
    constructor
    · have : (-(2 ^ 22 + 1) : ℚ) < n := by norm_num; linarith
      have : (-(2 ^ 22 + 1) : ℤ) < n := by exact_mod_cast this
      omega
    · have : (n : ℚ) < 2 ^ 22 + 1 := by norm_num; linarith
      have : n < 2 ^ 22 + 1 := by exact_mod_cast this
      omega
  have nbq : |(n : ℚ)| ≤ 2 ^ 22 := by exact_mod_cast nb
  refine ⟨f1, v1, n, nb, hn, ?_, he⟩
  have d : |(x * p).round.val / p.val| ≤ 2 ^ 22 := by
    rw [hn.2, hp.2, abs_div, abs_of_pos pk]
    exact (div_le_self (abs_nonneg _) (one_le_pow₀ (by norm_num))).trans nbq
  obtain ⟨f2, v2⟩ := div_val hn.1 hp.1 (by rw [hp.2]; exact pk.ne') (lt_of_le_of_lt d (by norm_num [ovf]))
  refine ⟨f2, v2.trans ?_⟩
  rw [hn.2, hp.2]
  refine RN_of_rep (rep_grid (z := n) (j := -(k : ℤ)) (by omega) (by rw [zpow_neg, zpow_natCast, div_eq_mul_inv]) ?_)
  rw [abs_div, abs_of_pos pk, div_le_iff₀ pk, zpow_add₀ (by norm_num), zpow_neg, zpow_natCast]
  rw [show ((2 : ℚ) ^ k)⁻¹ * 2 ^ (24 : ℤ) * 2 ^ k = 2 ^ (24 : ℤ) by field_simp]
  refine nbq.trans (by norm_num)

/-- **C157.** Rounding to steps of `2^-k`: the result is exactly a multiple of the step and off by at most half a step (and
`2^-25` of a step). -/
theorem C157_step {x p : F32} {k : ℕ} (hx : x.isFinite = true) (hp : IsVal p ((2 : ℚ) ^ k)) (hk : k ≤ 100)
    (hb : |x.val * 2 ^ k| < 2 ^ 22) :
    ∃ n : ℤ, IsVal (quantize x p) (n / 2 ^ k) ∧ |(quantize x p).val - x.val| ≤ (1 / 2 + 1 / 2 ^ 25) / 2 ^ k := by
  obtain ⟨-, -, n, -, -, h, e⟩ := quantize_exact hx hp hk hb
  refine ⟨n, h, ?_⟩
  have pk : (0 : ℚ) < 2 ^ k := by positivity
  rw [h.2, show (n : ℚ) / 2 ^ k - x.val = (n - x.val * 2 ^ k) / 2 ^ k by field_simp, abs_div, abs_of_pos pk]
  gcongr

/-- **C157.** A multiple of the step is left alone, so rounding to steps twice is rounding once. -/
theorem C157_step_fixed {x p : F32} {k : ℕ} {n : ℤ} (hx : IsVal x (n / 2 ^ k)) (hp : IsVal p ((2 : ℚ) ^ k)) (hk : k ≤ 100)
    (hn : |n| < 2 ^ 22) : IsVal (quantize x p) x.val := by
  have pk : (0 : ℚ) < 2 ^ k := by positivity
  have e : x.val * 2 ^ k = n := by rw [hx.2]; field_simp
  obtain ⟨f, v, m, -, hm, h, -⟩ := quantize_exact hx.1 hp hk (by rw [e]; exact_mod_cast hn)
  have h1 := C157_near (n := n) f hn (by rw [v, e, sub_self]; norm_num)
  have h2 : (m : ℚ) = n := hm.2.symm.trans h1.2
  rw [hx.2, ← h2]; exact h

/-- **C157.** Rounding to steps keeps the order. -/
theorem C157_step_monotone {x y p : F32} {k : ℕ} (hx : x.isFinite = true) (hy : y.isFinite = true)
    (hp : IsVal p ((2 : ℚ) ^ k)) (hk : k ≤ 100) (hbx : |x.val * 2 ^ k| < 2 ^ 22) (hby : |y.val * 2 ^ k| < 2 ^ 22)
    (h : x.val ≤ y.val) : (quantize x p).val ≤ (quantize y p).val := by
  have pk : (0 : ℚ) < 2 ^ k := by positivity
  obtain ⟨fx, vx, n, -, hn, qx, -⟩ := quantize_exact hx hp hk hbx
  obtain ⟨fy, vy, m, -, hm, qy, -⟩ := quantize_exact hy hp hk hby
  have := (C101_monotone ((le_iff fx fy).2 (by rw [vx, vy]; gcongr))).2.2
  rw [le_iff hn.1 hm.1, hn.2, hm.2] at this
  rw [qx.2, qy.2]; gcongr

/-- `0.3` to steps of `1/8`: the hypotheses hold, and the result is `1/4`. -/
example : ∃ p : F32, IsVal p ((2 : ℚ) ^ 3) ∧ |(⟨0x3e99999a#32⟩ : F32).val * 2 ^ 3| < 2 ^ 22 ∧
    quantize ⟨0x3e99999a#32⟩ p = ⟨0x3e800000#32⟩ := by
  have v : (⟨0x3e99999a#32⟩ : F32).val = 5033165 / 16777216 := by
    rw [val_of_units (u := 5033165 * 2 ^ 125) (by decide +kernel)]; norm_num
  obtain ⟨f, w⟩ := ofInt_isVal (n := 8) (by decide)
  exact ⟨ofInt 8, ⟨f, by rw [w]; norm_num⟩, by rw [v]; norm_num [abs_of_pos], eval_eq (n := 0x3e800000) (by kernel_rfl)⟩

end Micromath.Props
