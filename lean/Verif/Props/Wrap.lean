import Verif.Props.Euclid
import Verif.Props.Trig

/-!
# C156: wrapping with `rem_euclid` (angles, headings, clock arithmetic)
-/

set_option exponentiation.threshold 1000

namespace Micromath.Props
open F32 Spec RealAux

variable [Cfg]

omit [Cfg] in
theorem leastRem_add_mul (a m : ℚ) (h0 : m ≠ 0) (k : ℤ) : leastRem (a + m * k) m = leastRem a m := by
  have hp : |m| ≠ 0 := abs_ne_zero.2 h0
  unfold leastRem
  rcases abs_choice m with h | h
  · rw [show (a + m * k) / |m| = a / |m| + (k : ℤ) by rw [add_div, h, mul_div_cancel_left₀ _ (h ▸ hp)], Int.floor_add_intCast, h]
    push_cast; ring
  · rw [show (a + m * k) / |m| = a / |m| + ((-k : ℤ) : ℚ) by push_cast; rw [add_div, h]; field_simp, Int.floor_add_intCast, h]
    push_cast; ring

omit [Cfg] in
theorem leastRem_of_lt {a m : ℚ} (h1 : 0 ≤ a) (h2 : a < |m|) : leastRem a m = a := by
  have hp : 0 < |m| := h1.trans_lt h2
  have : ⌊a / |m|⌋ = 0 := Int.floor_eq_zero_iff.2 ⟨by positivity, by rwa [div_lt_one hp]⟩
  unfold leastRem; rw [this]; simp

/-- **C156.** `rem_euclid` depends only on the class of its argument: adding a whole number of moduli changes nothing. -/
theorem C156_periodic {x y m : F32} (hx : x.isFinite = true) (hy : y.isFinite = true) (hm : m.isFinite = true)
    (h0 : m.val ≠ 0) (k : ℤ) (h : y.val = x.val + m.val * k) : (y.remEuclid m).val = (x.remEuclid m).val := by
  rw [(C12_rem_euclid y m hy hm h0).1.2, (C12_rem_euclid x m hx hm h0).1.2, h, leastRem_add_mul _ _ h0]

/-- **C156.** Wrapping a wrapped value changes nothing, unless the first result was rounded up to the modulus itself; then
the second is zero. A third wrap never changes anything. -/
theorem C156_idempotent {x m : F32} (hx : x.isFinite = true) (hm : m.isFinite = true) (h0 : m.val ≠ 0) :
    ((x.remEuclid m).val < |m.val| → IsVal ((x.remEuclid m).remEuclid m) (x.remEuclid m).val) ∧
    ((x.remEuclid m).val = |m.val| → IsVal ((x.remEuclid m).remEuclid m) 0) ∧
    IsVal (((x.remEuclid m).remEuclid m).remEuclid m) ((x.remEuclid m).remEuclid m).val := by
  obtain ⟨⟨f1, -⟩, n1, u1, -⟩ := C12_rem_euclid x m hx hm h0
  obtain ⟨⟨f2, -⟩, n2, -, e2⟩ := C12_rem_euclid (x.remEuclid m) m f1 hm h0
  obtain ⟨⟨f3, -⟩, -, -, e3⟩ := C12_rem_euclid ((x.remEuclid m).remEuclid m) m f2 hm h0
  have e2' := e2 (Or.inl n1)
  have l2 : ((x.remEuclid m).remEuclid m).val < |m.val| := by rw [e2']; exact (C12_leastRem_spec _ _ h0).2.1
  refine ⟨fun h => ⟨f2, by rw [e2', leastRem_of_lt n1 h]⟩, fun h => ⟨f2, ?_⟩, f3, by rw [e3 (Or.inl n2), leastRem_of_lt n2 l2]⟩
  rw [e2', h]
  unfold leastRem
  rw [div_self (abs_ne_zero.2 h0)]; simp

/-- **C156.** The exception is real: `(-2^-149).rem_euclid(1.0)` is `1.0`, and wrapping that gives `0.0`. -/
theorem C156_idempotent_false :
    (⟨0x80000001#32⟩ : F32).remEuclid ⟨0x3f800000#32⟩ = ⟨0x3f800000#32⟩ ∧
    IsVal ((⟨0x3f800000#32⟩ : F32).remEuclid ⟨0x3f800000#32⟩) 0 := by
  have v1 : (⟨0x3f800000#32⟩ : F32).val = 1 := by rw [val_of_units (u := 2 ^ 149) (by decide +kernel)]; norm_num
  have h1 : (⟨0x80000001#32⟩ : F32).remEuclid ⟨0x3f800000#32⟩ = ⟨0x3f800000#32⟩ := eval_eq (n := 0x3f800000) (by kernel_rfl)
  refine ⟨h1, ?_⟩
  have := (C156_idempotent (x := ⟨0x80000001#32⟩) (m := ⟨0x3f800000#32⟩) (by decide) (by decide) (by rw [v1]; norm_num)).2.1
  rw [h1, v1] at this
  exact this (by norm_num)

/-! ### Angles -/

/-- The `f32` nearest to a full turn, `core::f32::consts::TAU`. -/
def tau : F32 := ⟨0x40c90fdb#32⟩

omit [Cfg] in
theorem tau_val : tau.isFinite = true ∧ tau.val = 13176795 / 2097152 := by
  refine ⟨by decide, ?_⟩
  unfold tau
  rw [val_of_units (u := 13176795 * 2 ^ 128) (by decide +kernel)]; norm_num

omit [Cfg] in
theorem tau_err : |((13176795 / 2097152 : ℝ)) - 2 * Real.pi| ≤ 1.749 / 10 ^ 7 := by
  have h1 := Real.pi_gt_d20
  have h2 := Real.pi_lt_d20
  rw [abs_le]; norm_num at h1 h2 ⊢; constructor <;> linarith

/-- **C156.** Wrapping an angle into a turn: the result is between `0` and `TAU`, and off by a whole number of true turns up
to `6e-7` plus `2.8e-8` of the angle, whatever its size. -/
theorem C156_wrap {x : F32} (hx : x.isFinite = true) :
    (x.remEuclid tau).isFinite = true ∧ 0 ≤ (x.remEuclid tau).val ∧ (x.remEuclid tau).val ≤ 13176795 / 2097152 ∧
    ∃ k : ℤ, |((x.remEuclid tau).val : ℝ) - x.val + k * (2 * Real.pi)| ≤ 6 / 10 ^ 7 + 2.8 / 10 ^ 8 * |(x.val : ℝ)| := by
  obtain ⟨ft, vt⟩ := tau_val
  have h0 : tau.val ≠ 0 := by rw [vt]; norm_num
  obtain ⟨⟨f, v⟩, h1, h2, -⟩ := C12_rem_euclid x tau hx ft h0
  obtain ⟨a1, a2, k, hk⟩ := C12_leastRem_spec x.val tau.val h0
  rw [vt, abs_of_pos (by norm_num)] at h2 a2
  rw [vt] at v a1 hk
  refine ⟨f, h1, h2, k, ?_⟩
  set ρ := leastRem x.val (13176795 / 2097152) with hρ
  have e1 : |RN ρ - ρ| ≤ 3.76 / 10 ^ 7 := by
    refine (RN_err ρ).trans (max_le (by norm_num) ?_)
    rw [abs_of_nonneg a1]; norm_num; linarith
  have e1' := abs_cast_le e1
  have hkb : |(k : ℚ)| ≤ |x.val| / 6.2831 + 1 := by
    have : (k : ℚ) = (x.val - ρ) / (13176795 / 2097152) := by rw [eq_div_iff (by norm_num)]; linarith
    rw [this, abs_div, abs_of_pos (show (0 : ℚ) < 13176795 / 2097152 by norm_num)]
    have : |x.val - ρ| ≤ |x.val| + ρ := (abs_sub _ _).trans (by rw [abs_of_nonneg a1])
    have := abs_nonneg x.val
    rw [div_le_iff₀ (by norm_num)]
    norm_num
    linarith
  have hkb' := abs_cast_le hkb
  push_cast at hkb' e1'
  have e2 : ((x.remEuclid tau).val : ℝ) - x.val + k * (2 * Real.pi) =
      ((RN ρ : ℚ) - (ρ : ℝ)) - k * ((13176795 / 2097152 : ℝ) - 2 * Real.pi) := by
    have : (x.val : ℝ) = (13176795 / 2097152 : ℝ) * k + ρ := by
      have := congrArg (fun q : ℚ => (q : ℝ)) hk
      push_cast at this; exact this
    rw [v, this]; ring
  rw [e2]
  refine (abs_sub _ _).trans ?_
  rw [abs_mul]
  have := mul_le_mul hkb' tau_err (abs_nonneg _) (by positivity)
  norm_num at *
  linarith [abs_nonneg (x.val : ℝ)]

/-- **C156.** With wrapping first, `cos` and `sin` stay in range for every finite angle, where the direct calls reach infinity,
and the error bound grows with a quarter of the rate of the one for direct calls (C99). -/
theorem C156_cos_sin {x : F32} (hx : x.isFinite = true) :
    ((x.remEuclid tau).cos.isFinite = true ∧ |(x.remEuclid tau).cos.val| ≤ 1 + 1 / 2 ^ 20 ∧
      |((x.remEuclid tau).cos.val : ℝ) - Real.cos x.val| ≤ 0.00111 + 2.8 / 10 ^ 8 * |(x.val : ℝ)|) ∧
    ((x.remEuclid tau).sin.isFinite = true ∧ |(x.remEuclid tau).sin.val| ≤ 1 + 1 / 2 ^ 20 ∧
      |((x.remEuclid tau).sin.val : ℝ) - Real.sin x.val| ≤ 0.00111 + 2.8 / 10 ^ 8 * |(x.val : ℝ)|) := by
  obtain ⟨f, h1, h2, k, hk⟩ := C156_wrap hx
  have hb : |(x.remEuclid tau).val| ≤ 6.2832 := by rw [abs_of_nonneg h1]; norm_num; linarith
  have hb' := abs_cast_le hb
  push_cast at hb'
  obtain ⟨c1, c2, c3⟩ := cos_main f (hb.trans (by norm_num))
  obtain ⟨s1, s2, s3⟩ := sin_main f (hb.trans (by norm_num))
  set r := x.remEuclid tau
  have pc := Real.abs_cos_sub_cos_le (r.val + k * (2 * Real.pi)) (x.val : ℝ)
  have ps := Real.abs_sin_sub_sin_le (r.val + k * (2 * Real.pi)) (x.val : ℝ)
  rw [Real.cos_add_int_mul_two_pi] at pc
  rw [Real.sin_add_int_mul_two_pi] at ps
  rw [show (r.val : ℝ) + k * (2 * Real.pi) - x.val = r.val - x.val + k * (2 * Real.pi) by ring] at pc ps
  refine ⟨⟨c1, c2, ?_⟩, s1, s2, ?_⟩
  · refine (abs_sub_le _ (Real.cos r.val) _).trans ?_
    norm_num at *; linarith
  · refine (abs_sub_le _ (Real.sin r.val) _).trans ?_
    norm_num at *; linarith

/-- The hypothesis holds for `1e6`. -/
example : (ofInt 1000000).isFinite = true ∧ (ofInt 1000000).val = 1000000 := by
  obtain ⟨h1, h2⟩ := ofInt_isVal (n := 1000000) (by decide)
  exact ⟨h1, by rw [h2]; norm_num⟩

/-! ### Integers -/

/-- **C156.** On integers below `2^24` the result is the Euclidean remainder `a % n`. -/
theorem C156_emod {x n : F32} {a m : ℤ} (hx : IsVal x a) (hn : IsVal n m) (ha : |a| < 2 ^ 24) (hm : |m| < 2 ^ 24)
    (h0 : m ≠ 0) : IsVal (x.remEuclid n) (a % m : ℤ) := by
  obtain ⟨q, r, -, hr, e, r0, r1⟩ := C13_div_rem_euclid x n a m hx hn ha hm h0
  have : a % m = r := by
    rw [e, add_comm, Int.add_mul_emod_self_left]
    rw [← Int.emod_abs]
    exact Int.emod_eq_of_lt r0 r1
  rw [this]; exact hr

omit [Cfg] in
theorem emod_small {a m : ℤ} (h0 : m ≠ 0) : 0 ≤ a % m ∧ a % m < |m| :=
  ⟨Int.emod_nonneg _ h0, Int.emod_lt_abs _ h0⟩

/-- **C156.** Clock arithmetic: adding and subtracting residues and wrapping again gives the residue of the true sum and
difference, for moduli up to `2^23`. -/
theorem C156_clock {x y n : F32} {a b m : ℤ} (hx : IsVal x a) (hy : IsVal y b) (hn : IsVal n m)
    (ha : |a| < 2 ^ 24) (hb : |b| < 2 ^ 24) (hm : |m| ≤ 2 ^ 23) (h0 : m ≠ 0) :
    IsVal ((x.remEuclid n + y.remEuclid n).remEuclid n) ((a + b) % m : ℤ) ∧
    IsVal ((x.remEuclid n - y.remEuclid n).remEuclid n) ((a - b) % m : ℤ) := by
  have hm' : |m| < 2 ^ 24 := by linarith [show (2 : ℤ) ^ 23 < 2 ^ 24 by norm_num]
  have p := C156_emod hx hn ha hm' h0
  have q := C156_emod hy hn hb hm' h0
  obtain ⟨a0, a1⟩ := emod_small (a := a) h0
  obtain ⟨b0, b1⟩ := emod_small (a := b) h0
  norm_num at hm hm'
  constructor
  · have s := add_int p q (by norm_num; omega)
    have := C156_emod s hn (by rw [abs_lt]; norm_num; omega) (by norm_num; exact hm') h0
    rwa [← Int.add_emod] at this
  · have s := sub_int p q (by norm_num; omega)
    have := C156_emod s hn (by rw [abs_lt]; norm_num; omega) (by norm_num; exact hm') h0
    rwa [← Int.sub_emod] at this

/-- **C156.** Modular multiplication: for moduli up to `2^12` the product of the residues, wrapped, is the residue of the
true product, although the product itself may be far beyond the exact range of `f32`. -/
theorem C156_modmul {x y n : F32} {a b m : ℤ} (hx : IsVal x a) (hy : IsVal y b) (hn : IsVal n m)
    (ha : |a| < 2 ^ 24) (hb : |b| < 2 ^ 24) (hm : |m| ≤ 2 ^ 12) (h0 : m ≠ 0) :
    IsVal ((x.remEuclid n * y.remEuclid n).remEuclid n) (a * b % m : ℤ) := by
  have hm' : |m| < 2 ^ 24 := by linarith [show (2 : ℤ) ^ 12 < 2 ^ 24 by norm_num]
  have p := C156_emod hx hn ha hm' h0
  have q := C156_emod hy hn hb hm' h0
  obtain ⟨a0, a1⟩ := emod_small (a := a) h0
  obtain ⟨b0, b1⟩ := emod_small (a := b) h0
  norm_num at hm hm'
  have u : a % m * (b % m) ≤ 4095 * 4095 := mul_le_mul (by omega) (by omega) b0 (by norm_num)
  have l : 0 ≤ a % m * (b % m) := mul_nonneg a0 b0
  have s := mul_int p q (by norm_num; omega)
  have := C156_emod s hn (by rw [abs_lt]; norm_num; omega) (by norm_num; exact hm') h0
  rwa [← Int.mul_emod] at this

/-- **C156.** The usual expression for the shortest turn from heading `b` to heading `a`, in whole degrees,
`(a - b + 180).rem_euclid(360) - 180`: it is from `-180` to `179` and leads from `b` to `a`. -/
theorem C156_heading {x y h t : F32} {a b : ℤ} (hx : IsVal x a) (hy : IsVal y b) (hh : IsVal h 180) (ht : IsVal t 360)
    (hd : |a - b| ≤ 2 ^ 24 - 181) :
    ∃ d : ℤ, IsVal ((x - y + h).remEuclid t - h) d ∧ -180 ≤ d ∧ d < 180 ∧ (360 : ℤ) ∣ a - (b + d) := by
  have hd' := abs_le.1 hd
  norm_num at hd'
  have hh' : IsVal h ((180 : ℤ) : ℚ) := by exact_mod_cast hh
  have ht' : IsVal t ((360 : ℤ) : ℚ) := by exact_mod_cast ht
  have s := add_int (sub_int hx hy (by norm_num; omega)) hh' (by norm_num; omega)
  have r := C156_emod s ht' (by rw [abs_lt]; norm_num; omega) (by norm_num) (by norm_num)
  have w := sub_int r hh' (by norm_num; omega)
  exact ⟨_, w, by omega, by omega, by omega⟩

/-- Cases: `(-7).rem_euclid(5)` is `3`; `12345678 * 7654321` is `47` modulo `257`; turning from `350` degrees to `10` is `20`. -/
example : IsVal ((ofInt (-7)).remEuclid (ofInt 5)) (3 : ℤ) ∧
    IsVal (((ofInt 12345678).remEuclid (ofInt 257) * (ofInt 7654321).remEuclid (ofInt 257)).remEuclid (ofInt 257))
      (47 : ℤ) ∧
    ∃ d : ℤ, IsVal ((ofInt 10 - ofInt 350 + ofInt 180).remEuclid (ofInt 360) - ofInt 180) d ∧ d = 20 := by
  refine ⟨C156_emod (ofInt_isVal (n := -7) (by decide)) (ofInt_isVal (n := 5) (by decide)) (by norm_num) (by norm_num) (by norm_num),
    C156_modmul (ofInt_isVal (by decide)) (ofInt_isVal (by decide)) (ofInt_isVal (by decide)) (by norm_num) (by norm_num)
      (by norm_num) (by norm_num), ?_⟩
  obtain ⟨d, h, l, u, k⟩ := C156_heading (ofInt_isVal (n := 10) (by decide)) (ofInt_isVal (n := 350) (by decide))
    (by exact_mod_cast ofInt_isVal (n := 180) (by decide)) (by exact_mod_cast ofInt_isVal (n := 360) (by decide)) (by norm_num)
  exact ⟨d, h, by omega⟩

end Micromath.Props
