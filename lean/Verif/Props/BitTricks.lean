import Verif.Props.Recip
import Verif.Float.Big

/-!
# C104, C105: where `sqrt`, `inv` are exact, order laws of `inv` and `invsqrt`; `recip` outside its working range
-/

set_option exponentiation.threshold 1000

namespace Micromath.Props
open F32 Spec

variable [Cfg]

/-! ### `sqrt` -/

/-- The square of `sqrt(x)` against `x`, on the significand: with `f = 2 g + r` the fraction field. -/
theorem sqrt_exact_fields {x : F32} {e f : Nat} (he1 : 1 ≤ e) (he2 : e ≤ 254) (hf : f < 2 ^ 23)
    (hb : x.bits.toNat = e * 2 ^ 23 + f) (h : PosNormal x) :
    (x.sqrt.val ^ 2 = x.val ↔ (e % 2 = 1 ∧ f = 0) ∨ (e % 2 = 0 ∧ f = 2 ^ 23 - 2 ^ 13 + 1)) := by
  have hv := (val_of_bits (y := x) he1 he2 hf hb).2
  have hs := sqrt_toNat (posNormal_ge h)
  rw [hb] at hs
  obtain ⟨g, r, hgr, hr⟩ : ∃ g r, f = 2 * g + r ∧ r ≤ 1 := ⟨f / 2, f % 2, by omega, by omega⟩
  have hfq : (f : ℚ) = 2 * g + r := by exact_mod_cast hgr
  have hP' : (0 : ℚ) < 2 ^ (e - 1) / 2 ^ 149 := by positivity
  rcases Nat.even_or_odd' e with ⟨c, hc | hc⟩
  · obtain ⟨h1, h2⟩ := val_of_bits (y := x.sqrt) (E := c + 63) (F := 2 ^ 22 + g) (by omega) (by omega) (by omega)
      (by rw [hs]; omega)
    have hp : ((2 : ℚ) ^ (c + 63 - 1)) ^ 2 = 2 ^ (e - 1) * 2 ^ 125 := by
      rw [← pow_mul, ← pow_add]; congr 1; omega
    rw [h2, hv, div_pow, mul_pow, hp, hfq, Nat.cast_add, Nat.cast_pow, Nat.cast_ofNat]
    generalize (2 : ℚ) ^ (e - 1) = P at hP'
    rw [show (2 ^ 23 + (2 ^ 22 + (g : ℚ))) ^ 2 * (P * 2 ^ 125) / (2 ^ 149) ^ 2
      = (2 ^ 23 + (2 ^ 22 + (g : ℚ))) ^ 2 / 2 ^ 24 * (P / 2 ^ 149) by ring,
      show (2 ^ 23 + (2 * (g : ℚ) + r)) * P / 2 ^ 149 = (2 ^ 23 + (2 * g + r)) * (P / 2 ^ 149) by ring,
      mul_left_inj' hP'.ne', div_eq_iff (by norm_num)]
    have key : ((2 ^ 23 + (2 ^ 22 + (g : ℚ))) ^ 2 = (2 ^ 23 + (2 * g + r)) * 2 ^ 24) ↔
        ((2 ^ 22 - g : Nat) : ℚ) ^ 2 = 2 ^ 24 * r := by
      rw [Nat.cast_sub (by omega)]; push_cast
      constructor <;> intro hh <;> linarith
    rw [key]
    have key2 : ((2 ^ 22 - g : Nat) : ℚ) ^ 2 = 2 ^ 24 * r ↔ (2 ^ 22 - g : Nat) ^ 2 = 2 ^ 24 * r := by
      exact_mod_cast Iff.rfl
    rw [key2]
    constructor
    · intro hh
      right
      refine ⟨by omega, ?_⟩
      rcases Nat.le_one_iff_eq_zero_or_eq_one.1 hr with rfl | rfl
      · have : 2 ^ 22 - g = 0 := by simpa using hh
        omega
      · have : 2 ^ 22 - g = 2 ^ 12 := by
          have h3 : (2 ^ 22 - g) ^ 2 = (2 ^ 12) ^ 2 := by rw [hh]; norm_num
          exact Nat.pow_left_injective (n := 2) (by norm_num) h3
        omega
    · rintro (⟨h3, -⟩ | ⟨-, h3⟩)
      · omega
      · have hr1 : r = 1 := by omega
        have hg1 : 2 ^ 22 - g = 2 ^ 12 := by omega
        rw [hr1, hg1]; norm_num
  · obtain ⟨h1, h2⟩ := val_of_bits (y := x.sqrt) (E := c + 64) (F := g) (by omega) (by omega) (by omega)
      (by rw [hs]; omega)
    have hp : ((2 : ℚ) ^ (c + 64 - 1)) ^ 2 = 2 ^ (e - 1) * 2 ^ 126 := by
      rw [← pow_mul, ← pow_add]; congr 1; omega
    rw [h2, hv, div_pow, mul_pow, hp, hfq]
    generalize (2 : ℚ) ^ (e - 1) = P at hP'
    rw [show (2 ^ 23 + (g : ℚ)) ^ 2 * (P * 2 ^ 126) / (2 ^ 149) ^ 2
      = (2 ^ 23 + (g : ℚ)) ^ 2 / 2 ^ 23 * (P / 2 ^ 149) by ring,
      show (2 ^ 23 + (2 * (g : ℚ) + r)) * P / 2 ^ 149 = (2 ^ 23 + (2 * g + r)) * (P / 2 ^ 149) by ring,
      mul_left_inj' hP'.ne', div_eq_iff (by norm_num)]
    have key : ((2 ^ 23 + (g : ℚ)) ^ 2 = (2 ^ 23 + (2 * g + r)) * 2 ^ 23) ↔ g ^ 2 = 2 ^ 23 * r := by
      rw [← Nat.cast_inj (R := ℚ)]; push_cast
      constructor <;> intro hh <;> linarith
    rw [key]
    constructor
    · intro hh
      left
      refine ⟨by omega, ?_⟩
      rcases Nat.le_one_iff_eq_zero_or_eq_one.1 hr with rfl | rfl
      · have : g = 0 := by simpa using hh
        omega
      · exfalso
        have l1 : 2896 < g := by
          by_contra hc
          have : g ^ 2 ≤ 2896 ^ 2 := Nat.pow_le_pow_left (not_lt.1 hc) 2
          omega
        have : 2897 ^ 2 ≤ g ^ 2 := Nat.pow_le_pow_left l1 2
        omega
    · rintro (⟨-, h3⟩ | ⟨h3, -⟩)
      · have hr1 : r = 0 := by omega
        have hg1 : g = 0 := by omega
        rw [hr1, hg1]; norm_num
      · omega

omit [Cfg] in
/-- A positive normal number determines its exponent and fraction fields. -/
theorem fields_inj {x : F32} (h : PosNormal x) {e f E F : Nat} (hf : f < 2 ^ 23) (hm : x.mag = e * 2 ^ 23 + f)
    (h1 : 1 ≤ E) (h2 : E ≤ 254) (h3 : F < 2 ^ 23) (h4 : x.val = (2 ^ 23 + F) * 2 ^ (E - 1) / 2 ^ 149) : e = E ∧ f = F := by
  have hb' : (pack false (E * 2 ^ 23 + F)).bits.toNat = E * 2 ^ 23 + F := by
    rw [toNat_eq, mag_pack _ (by omega), sign_pack _ (by omega)]; simp
  have h5 := (val_of_bits h1 h2 h3 hb').2
  have h6 : x = pack false (E * 2 ^ 23 + F) := by
    refine eq_of_val_ne (by rw [h5, h4]) ?_
    have : 0 < x.val := lt_of_lt_of_le (by positivity) h.2
    exact this.ne'
  have h7 : x.mag = E * 2 ^ 23 + F := by rw [h6, mag_pack _ (by omega)]
  omega

omit [Cfg] in
/-- The fields of `c * 2^k` for `c = 1 + F/2^23`. -/
theorem fields_zpow {x : F32} (h : PosNormal x) {e f F : Nat} (hf : f < 2 ^ 23) (hm : x.mag = e * 2 ^ 23 + f)
    (he1 : 1 ≤ e) (he2 : e ≤ 254) (hF : F < 2 ^ 23) (hv : x.val = (2 ^ 23 + f) * 2 ^ (e - 1) / 2 ^ 149) :
    f = F ↔ ∃ k : ℤ, x.val = (1 + F / 2 ^ 23) * 2 ^ k := by
  constructor
  · rintro rfl
    refine ⟨(e : ℤ) - 127, ?_⟩
    rw [show (e : ℤ) - 127 = (e - 1 : Nat) + (23 : ℤ) - 149 by omega, zpow_sub₀ (by norm_num), zpow_add₀ (by norm_num),
      zpow_natCast, hv]
    norm_num; ring
  · rintro ⟨k, hk⟩
    have c1 : (1 : ℚ) ≤ 1 + F / 2 ^ 23 := by
      have : (0 : ℚ) ≤ F / 2 ^ 23 := by positivity
      linarith
    have c2 : (1 + F / 2 ^ 23 : ℚ) < 2 := by
      have : (F : ℚ) / 2 ^ 23 < 1 := by rw [div_lt_one (by positivity)]; exact_mod_cast hF
      linarith
    have hlo := h.2
    have hhi : x.val < 2 ^ 128 := lt_trans (lt_of_le_of_lt (le_abs_self _) (abs_val_lt_ovf h.1)) (by norm_num [ovf])
    rw [hk] at hlo hhi
    have hp : (0 : ℚ) < 2 ^ k := by positivity
    have k1 : -126 ≤ k := by
      by_contra hc
      have : (2 : ℚ) ^ k ≤ 2 ^ (-127 : ℤ) := zpow_le_zpow_right₀ (by norm_num) (by omega)
      norm_num at this hlo
      nlinarith
    have k2 : k ≤ 127 := by
      by_contra hc
      have : (2 : ℚ) ^ (128 : ℤ) ≤ 2 ^ k := zpow_le_zpow_right₀ (by norm_num) (by omega)
      norm_num at this hhi
      nlinarith
    refine (fields_inj h (E := (k + 127).toNat) hf hm (by omega) (by omega) hF ?_).2
    obtain ⟨n, hn⟩ : ∃ n : Nat, k = (n : ℤ) + 23 - 149 := ⟨(k + 126).toNat, by omega⟩
    rw [show (k + 127).toNat - 1 = n by omega, hk, hn, zpow_sub₀ (by norm_num), zpow_add₀ (by norm_num), zpow_natCast]
    norm_num; ring

/-- **C104, where `sqrt` is exact**: on positive normal numbers, exactly at the powers of four and at
`(4095/4096)^2` times a power of four. -/
theorem C104_sqrt_exact (x : F32) (h : PosNormal x) :
    x.sqrt.val ^ 2 = x.val ↔ ∃ k : ℤ, x.val = 4 ^ k ∨ x.val = (4095 / 4096) ^ 2 * 4 ^ k := by
  obtain ⟨e, f, he1, he2, hf, hm, hb, hv⟩ := posNormal_split h
  have hs := (posNormal_mag h).1
  rw [sqrt_exact_fields he1 he2 hf hb h]
  have z4 : ∀ k : ℤ, (4 : ℚ) ^ k = 2 ^ (2 * k) := fun k => by rw [zpow_mul]; norm_num
  constructor
  · rintro (⟨h1, rfl⟩ | ⟨h1, rfl⟩)
    · refine ⟨((e : ℤ) - 127) / 2, .inl ?_⟩
      rw [z4, show 2 * (((e : ℤ) - 127) / 2) = (e - 1 : Nat) + (23 : ℤ) - 149 by omega,
        zpow_sub₀ (by norm_num), zpow_add₀ (by norm_num), zpow_natCast, hv]
      norm_num; ring
    · refine ⟨((e : ℤ) - 126) / 2, .inr ?_⟩
      rw [z4, show 2 * (((e : ℤ) - 126) / 2) = (e - 1 : Nat) + (24 : ℤ) - 149 by omega,
        zpow_sub₀ (by norm_num), zpow_add₀ (by norm_num), zpow_natCast, hv]
      norm_num; ring
  · have inj : ∀ {E F : Nat} (_ : 1 ≤ E) (_ : E ≤ 254) (_ : F < 2 ^ 23),
        x.val = (2 ^ 23 + F) * 2 ^ (E - 1) / 2 ^ 149 → e = E ∧ f = F := fun h1 h2 h3 h4 => fields_inj h hf hm h1 h2 h3 h4
    have hlo := h.2
    have hhi : x.val < 2 ^ 128 := lt_trans (lt_of_le_of_lt (le_abs_self _) (abs_val_lt_ovf h.1)) (by norm_num [ovf])
    rintro ⟨k, hk | hk⟩
    · have k1 : -63 ≤ k := by
        by_contra hc
        have : (4 : ℚ) ^ k ≤ 4 ^ (-64 : ℤ) := zpow_le_zpow_right₀ (by norm_num) (by omega)
        rw [← hk] at this
        have := hlo.trans this
        norm_num at this
      have k2 : k ≤ 63 := by
        by_contra hc
        have : (4 : ℚ) ^ (64 : ℤ) ≤ 4 ^ k := zpow_le_zpow_right₀ (by norm_num) (by omega)
        rw [← hk] at this
        have := lt_of_le_of_lt this hhi
        norm_num at this
      obtain ⟨h1, h2⟩ := inj (E := (2 * k + 127).toNat) (F := 0) (by omega) (by omega) (by norm_num) (by
        rw [hk, z4, show 2 * k = ((2 * k + 127).toNat - 1 : Nat) + (23 : ℤ) - 149 by omega,
          zpow_sub₀ (by norm_num), zpow_add₀ (by norm_num), zpow_natCast]
        rw [show ((((2 * k + 127).toNat - 1 : Nat) + (23 : ℤ) - 149 + 127).toNat - 1 : Nat) = (2 * k + 127).toNat - 1 by omega]
        norm_num; ring)
      left; omega
    · have k1 : -62 ≤ k := by
        by_contra hc
        have : (4 : ℚ) ^ k ≤ 4 ^ (-63 : ℤ) := zpow_le_zpow_right₀ (by norm_num) (by omega)
        have h3 := hlo
        rw [hk] at h3
        norm_num at this h3
        linarith
      have k2 : k ≤ 64 := by
        by_contra hc
        have : (4 : ℚ) ^ (65 : ℤ) ≤ 4 ^ k := zpow_le_zpow_right₀ (by norm_num) (by omega)
        have h3 := hhi
        rw [hk] at h3
        norm_num at this h3
        linarith
      obtain ⟨h1, h2⟩ := inj (E := (2 * k + 126).toNat) (F := 2 ^ 23 - 2 ^ 13 + 1) (by omega) (by omega) (by norm_num) (by
        rw [hk, z4, show 2 * k = ((2 * k + 126).toNat - 1 : Nat) + (24 : ℤ) - 149 by omega,
          zpow_sub₀ (by norm_num), zpow_add₀ (by norm_num), zpow_natCast]
        rw [show ((((2 * k + 126).toNat - 1 : Nat) + (24 : ℤ) - 149 + 126).toNat - 1 : Nat) = (2 * k + 126).toNat - 1 by omega]
        norm_num; ring)
      right; omega

/-- Both cases occur: `4.0`, and `(4095/4096)^2`. -/
example : F32.sqrt ⟨0x40800000#32⟩ = ⟨0x40000000#32⟩ ∧ F32.sqrt ⟨0x3f7fe001#32⟩ = ⟨0x3f7ff000#32⟩ ∧
    PosNormal ⟨0x3f7fe001#32⟩ ∧ (⟨0x3f7fe001#32⟩ : F32).val = (4095 / 4096) ^ 2 ∧
    (⟨0x3f7ff000#32⟩ : F32).val = 4095 / 4096 := by
  refine ⟨eval_eq (by kernel_rfl), eval_eq (by kernel_rfl), posNormal_iff.2 (by decide), ?_, ?_⟩
  · rw [val_of_units (u := 16769025 * 2 ^ 125) (by decide +kernel)]; norm_num
  · rw [val_of_units (u := 16773120 * 2 ^ 125) (by decide +kernel)]; norm_num

/-! ### `inv` -/

/-- **C104, `inv` is an involution**, bit for bit, on every number from `+0.0` to `2^127`, and reverses order there. -/
theorem C104_inv_involution (x y : F32) (h : x.toBits.toNat ≤ 0x7f000000) (hy : y.toBits.toNat ≤ 0x7f000000) :
    x.inv.inv = x ∧ (x.le y = true ↔ y.inv.le x.inv = true) := by
  have key : ∀ x : F32, x.toBits.toNat ≤ 0x7f000000 → x.isNaN = false ∧ x.key = x.bits.toNat := by
    intro x h
    have h' : x.bits.toNat ≤ 0x7f000000 := h
    have hs : x.sign = false := by rw [sign]; simp; omega
    have hm : x.mag = x.bits.toNat := by rw [mag]; omega
    have hi : infMag = 255 * 2 ^ 23 := by decide
    refine ⟨by rw [isNaN, hm]; simp only [decide_eq_false_iff_not]; omega, by rw [F32.key, hs, hm]; simp⟩
  have h1 := inv_toNat (x := x) h
  have h2 := inv_toNat (x := y) hy
  have h' : x.bits.toNat ≤ 0x7f000000 := h
  have hy' : y.bits.toNat ≤ 0x7f000000 := hy
  constructor
  · have h3 := inv_toNat (x := x.inv) (by omega)
    have : x.inv.inv.bits = x.bits := BitVec.eq_of_toNat_eq (by omega)
    cases hx : x.inv.inv; cases x; simp_all
  · obtain ⟨n1, k1⟩ := key x h
    obtain ⟨n2, k2⟩ := key y hy
    obtain ⟨n3, k3⟩ := key x.inv (by rw [toBits]; omega)
    obtain ⟨n4, k4⟩ := key y.inv (by rw [toBits]; omega)
    simp only [F32.le, n1, n2, n3, n4, k1, k2, k3, k4, h1, h2]
    simp
    omega

/-- `3.0`, whose `inv` is `0.375`. -/
example : (⟨0x40400000#32⟩ : F32).toBits.toNat ≤ 0x7f000000 ∧ F32.inv ⟨0x40400000#32⟩ = ⟨0x3ec00000#32⟩ :=
  ⟨by decide, eval_eq (by kernel_rfl)⟩

/-- **C104, where `inv` is exact**: on positive normal numbers up to `2^126`, `x * inv(x) = 1` exactly at the powers of
two, and `x * inv(x) = 9/8`, the largest possible value, exactly at three halves of the powers of two. -/
theorem C104_inv_exact (x : F32) (h : PosNormal x) (h2 : x.val ≤ 2 ^ 126) :
    (x.val * x.inv.val = 1 ↔ ∃ k : ℤ, x.val = 2 ^ k) ∧ (x.val * x.inv.val = 9 / 8 ↔ ∃ k : ℤ, x.val = 3 / 2 * 2 ^ k) := by
  obtain ⟨e, f, he1, he2, hf, hm, hb, hv⟩ := posNormal_split h
  have hle : x.mag ≤ 253 * 2 ^ 23 := by
    by_contra hc
    have := mval_lt.2 (lt_of_not_ge hc)
    rw [mval_pow (by norm_num)] at this
    rw [val_of_pos (posNormal_mag h).1] at h2
    norm_num at this h2
    linarith
  have hi := inv_toNat (x := x) (by omega)
  rw [hb] at hi
  have e1 : x.val * x.inv.val = (2 ^ 23 + f) * (2 * 2 ^ 23 - f) / 2 ^ 47 := by
    rcases Nat.eq_zero_or_pos f with h0 | h0
    · obtain ⟨-, h4⟩ := val_of_bits (y := x.inv) (E := 254 - e) (F := 0) (by omega) (by omega) (by omega)
        (by rw [hi]; omega)
      have hp : (2 : ℚ) ^ (e - 1) * 2 ^ (254 - e - 1) = 2 ^ 252 := by
        rw [← pow_add]; congr 1; omega
      rw [hv, h4, h0]
      rw [show ((2 : ℚ) ^ 23 + (0 : Nat)) * 2 ^ (e - 1) / 2 ^ 149 * ((2 ^ 23 + (0 : Nat)) * 2 ^ (254 - e - 1) / 2 ^ 149)
        = 2 ^ 46 * (2 ^ (e - 1) * 2 ^ (254 - e - 1)) / 2 ^ 298 by push_cast; ring, hp]
      norm_num
    · obtain ⟨-, h4⟩ := val_of_bits (y := x.inv) (E := 253 - e) (F := 2 ^ 23 - f) (by omega) (by omega) (by omega)
        (by rw [hi]; omega)
      have hp : (2 : ℚ) ^ (e - 1) * 2 ^ (253 - e - 1) = 2 ^ 251 := by
        rw [← pow_add]; congr 1; omega
      rw [hv, h4, Nat.cast_sub hf.le, Nat.cast_pow, Nat.cast_ofNat]
      rw [show ((2 : ℚ) ^ 23 + f) * 2 ^ (e - 1) / 2 ^ 149 * ((2 ^ 23 + (2 ^ 23 - f)) * 2 ^ (253 - e - 1) / 2 ^ 149)
        = (2 ^ 23 + f) * (2 * 2 ^ 23 - f) * (2 ^ (e - 1) * 2 ^ (253 - e - 1)) / 2 ^ 298 by ring, hp]
      ring
  have hfq : (f : ℚ) < 2 ^ 23 := by exact_mod_cast hf
  have f1 := fields_zpow h (F := 0) hf hm he1 he2 (by norm_num) hv
  have f2 := fields_zpow h (F := 2 ^ 22) hf hm he1 he2 (by norm_num) hv
  norm_num at f1 f2
  rw [e1, div_eq_iff (by norm_num), div_eq_iff (by norm_num)]
  constructor
  · rw [← f1]
    constructor
    · intro hh
      have h3 : (f : ℚ) * (2 ^ 23 - f) = 0 := by linarith
      rcases mul_eq_zero.1 h3 with h4 | h4
      · exact_mod_cast h4
      · linarith
    · rintro rfl; norm_num
  · rw [← f2]
    constructor
    · intro hh
      have h3 : ((f : ℚ) - 2 ^ 22) ^ 2 = 0 := by linarith
      have h4 : (f : ℚ) = 2 ^ 22 := by
        have := pow_eq_zero_iff (two_ne_zero) |>.1 h3
        linarith
      have h5 : f = 2 ^ 22 := by exact_mod_cast h4
      rw [h5]; norm_num
    · rintro rfl; norm_num

example : PosNormal ⟨0x40400000#32⟩ ∧ (⟨0x40400000#32⟩ : F32).val = 3 / 2 * 2 ^ (1 : ℤ) := by
  refine ⟨posNormal_iff.2 (by decide), ?_⟩
  rw [val_of_units (u := 3 * 2 ^ 149) (by decide +kernel)]; norm_num

/-! ### `invsqrt` -/

/-- **C104, `invsqrt` reverses order** on all sign-positive arguments, `+0.0` and `+inf` included; it is finite and
positive there, `invsqrt(+0.0)` being its largest value. -/
theorem C104_invsqrt_antitone (x y : F32) (hx : x.isSignNegative = false) (hy : y.isSignNegative = false)
    (h : x.le y = true) :
    ∃ a b, x.invsqrt = .ok a ∧ y.invsqrt = .ok b ∧ a.isFinite = true ∧ b.isFinite = true ∧ 0 < b.val ∧ b.val ≤ a.val ∧
      a.le ⟨0x5f375a86#32⟩ = true := by
  simp only [F32.le, Bool.and_eq_true, Bool.not_eq_true', decide_eq_true_eq] at h
  obtain ⟨⟨n1, n2⟩, hk⟩ := h
  rw [isSignNegative] at hx hy
  rw [F32.key, F32.key, hx, hy] at hk
  simp only [Bool.false_eq_true, if_false, Nat.cast_le] at hk
  have hi : infMag = 255 * 2 ^ 23 := by decide
  have m1 : x.mag ≤ infMag := by simpa [isNaN] using n1
  have m2 : y.mag ≤ infMag := by simpa [isNaN] using n2
  have bx : x.bits.toNat = x.mag := by rw [toNat_eq, hx]; simp
  have bz : y.bits.toNat = y.mag := by rw [toNat_eq, hy]; simp
  obtain ⟨a, ha, ta⟩ := invsqrt_ok (x := x) (by omega)
  obtain ⟨b, hb, tb⟩ := invsqrt_ok (x := y) (by omega)
  have sa : a.sign = false := by rw [sign, ta]; simp; omega
  have sb : b.sign = false := by rw [sign, tb]; simp; omega
  have ma : a.mag = 0x5f375a86 - x.mag / 2 := by rw [mag, ta]; omega
  have mb : b.mag = 0x5f375a86 - y.mag / 2 := by rw [mag, tb]; omega
  have fa : a.isFinite = true := isFinite_iff.2 (by omega)
  have fb : b.isFinite = true := isFinite_iff.2 (by omega)
  refine ⟨a, b, ha, hb, fa, fb, ?_, ?_, ?_⟩
  · rw [val_of_pos sb]
    have : mval 0 < mval b.mag := mval_lt.2 (by omega)
    rwa [show mval 0 = 0 by simp [mval, magU]] at this
  · rw [val_of_pos sb, val_of_pos sa]; exact mval_le.2 (by omega)
  · rw [le_iff fa (by decide), val_of_pos sa, val_of_pos (by decide)]
    exact mval_le.2 (by rw [show (⟨0x5f375a86#32⟩ : F32).mag = 0x5f375a86 by decide]; omega)

example : (⟨0x3f800000#32⟩ : F32).le posInf = true ∧ posInf.isSignNegative = false ∧
    posInf.invsqrt = .ok ⟨0x1f775a86#32⟩ ∧ posZero.invsqrt = .ok ⟨0x5f375a86#32⟩ :=
  ⟨by decide, by decide, eval_ok (by kernel_rfl) (by decide), eval_ok (by kernel_rfl) (by decide)⟩

/-! ### `recip` -/

/-- A product of numbers, one infinite or both large, is infinite. -/
theorem mul_huge {x y : F32} (hx : x.isNaN = false) (hy : y.isNaN = false) (h1 : 2 ^ 64 ≤ mval x.mag) (h2 : 2 ^ 64 ≤ mval y.mag) :
    x * y = pack (x.sign != y.sign) infMag := by
  have nz : ∀ {u : F32}, 2 ^ 64 ≤ mval u.mag → u.isZero = false := by
    intro u hv
    rw [Bool.eq_false_iff]; intro hz
    simp [isZero] at hz
    rw [hz, mval_zero] at hv
    norm_num at hv
  by_cases hi : x.isInf = true ∨ y.isInf = true
  · show F32.mul x y = _
    unfold F32.mul
    rw [hx, hy, nz h1, nz h2]
    rcases hi with h | h <;> simp [h]
  · simp only [not_or, Bool.not_eq_true] at hi
    refine mul_ovf (finite_of hx hi.1) (finite_of hy hi.2) ?_
    rw [abs_mul, abs_val, abs_val]
    refine le_trans ?_ (mul_le_mul h1 h2 (by positivity) (mval_nonneg _))
    norm_num [ovf]

/-- Multiplying by one. -/
theorem mul_one_nn {x : F32} (h : x.isNaN = false) : x * one = x := by
  rcases class_cases x with f | f | f
  · exact mul_one_fin f
  · rw [eq_pack_of_inf f]
    cases x.sign
    · exact eval_eq (x := pack false infMag * one) (n := 0x7f800000) (by kernel_rfl)
    · exact eval_eq (x := pack true infMag * one) (n := 0xff800000) (by kernel_rfl)
  · rw [f] at h; cases h

/-- Multiplying by minus one. -/
theorem mul_neg_one_nn {x : F32} (h : x.isNaN = false) : x * -one = -x := by
  rcases class_cases x with f | f | f
  · exact mul_neg_one_fin f
  · rw [eq_pack_of_inf f]
    cases x.sign
    · exact eval_eq (x := pack false infMag * -one) (n := 0xff800000) (by kernel_rfl)
    · exact eval_eq (x := pack true infMag * -one) (n := 0x7f800000) (by kernel_rfl)
  · rw [f] at h; cases h

omit [Cfg] in
theorem lt_zero_iff {x : F32} (h : x.isNaN = false) : x.lt ZERO = true ↔ x.sign = true ∧ x.mag ≠ 0 := by
  rw [F32.lt, h, show ZERO.isNaN = false by decide, show ZERO.key = 0 by decide, F32.key]
  cases x.sign <;> simp
  omega

/-- `recip` on a sign-positive number. -/
theorem recip_pos_eq {x : F32} (h : x.isNaN = false) (hs : x.sign = false) :
    x.recip = (fromBits (0x7EF127EA#32 - x.toBits) * recipPoly (x * fromBits (0x7EF127EA#32 - x.toBits))) * one := by
  have hlt : x.lt ZERO = false := by
    rw [Bool.eq_false_iff, Ne, lt_zero_iff h, hs]; simp
  unfold F32.recip recipPoly
  rw [hlt]
  simp only [Bool.false_eq_true, if_false, mul_one_nn h]

/-- `recip` on a negative number. -/
theorem recip_neg_form {x : F32} (h : x.isNaN = false) (hs : x.sign = false) (h0 : x.mag ≠ 0) :
    (-x).recip = (fromBits (0x7EF127EA#32 - x.toBits) * recipPoly (x * fromBits (0x7EF127EA#32 - x.toBits))) * -one := by
  have hn : (-x).isNaN = false := by rw [isNaN_neg]; exact h
  have hlt : (-x).lt ZERO = true := by
    rw [lt_zero_iff hn, sign_neg, mag_neg, hs]; simpa using h0
  unfold F32.recip recipPoly
  rw [hlt]
  simp only [if_true, mul_neg_one_nn hn, neg_neg']

/-- **C105, `recip` is odd**: on every number, negation of the argument negates the result, or both results are NaN. -/
theorem C105_recip_odd (x : F32) (h : x.isNaN = false) :
    ((-x).recip.isNaN = true ∧ x.recip.isNaN = true) ∨ (-x).recip = -x.recip := by
  have key : ∀ x : F32, x.isNaN = false → x.sign = false →
      ((-x).recip.isNaN = true ∧ x.recip.isNaN = true) ∨ (-x).recip = -x.recip := by
    intro x h hs
    by_cases h0 : x.mag = 0
    · have : x = posZero := ext_mag_sign (by rw [h0]; rfl) (by rw [hs]; rfl)
      right
      obtain ⟨h1, h2⟩ := C21_recip_zero
      rw [this, show -posZero = negZero by decide, h1, h2]
      decide
    · rw [recip_pos_eq h hs, recip_neg_form h hs h0]
      generalize fromBits (0x7EF127EA#32 - x.toBits) * recipPoly (x * fromBits (0x7EF127EA#32 - x.toBits)) = r
      cases hr : r.isNaN
      · right; rw [mul_one_nn hr, mul_neg_one_nn hr]
      · left; exact ⟨mul_nan (.inl hr), mul_nan (.inl hr)⟩
  cases hs : x.sign
  · exact key x h hs
  · rcases key (-x) (by rw [isNaN_neg]; exact h) (by rw [sign_neg, hs]; rfl) with ⟨h1, h2⟩ | h1
    · rw [neg_neg'] at h1; exact .inl ⟨h2, h1⟩
    · rw [neg_neg'] at h1; right; rw [h1, neg_neg']

/-- **C105, `recip` turns finite numbers into NaN**: for every finite `x` with
`15804394 * 2^103 < |x| < 15804394 * 2^104` (`1.60e38` to `3.20e38`) the result is NaN; for larger finite `x` and for
the infinities it is the infinity of the *opposite* sign, where `1/x` is nearly zero. A NaN argument gives NaN. -/
theorem C105_recip_large (x : F32) :
    (x.isNaN = true → x.recip.isNaN = true) ∧
    (15804394 * 2 ^ 103 < |x.val| → |x.val| < 15804394 * 2 ^ 104 → x.recip.isNaN = true) ∧
    (x.isNaN = false → 15804394 * 2 ^ 104 ≤ x.val → x.recip = negInf) ∧
    (x.isNaN = false → x.val ≤ -(15804394 * 2 ^ 104) → x.recip = posInf) := by
  have mv1 : mval 0x7EF127EA = 15804394 * 2 ^ 103 := by
    rw [mval, show magU 0x7EF127EA = 15804394 * 2 ^ 252 by decide +kernel]; norm_num
  have mv2 : mval 0x7f7127ea = 15804394 * 2 ^ 104 := by
    rw [mval, show magU 0x7f7127ea = 15804394 * 2 ^ 253 by decide +kernel]; norm_num
  have hi : infMag = 255 * 2 ^ 23 := by decide
  have nanv : ∀ x : F32, x.isNaN = false → x.sign = false → 15804394 * 2 ^ 103 < |x.val| → |x.val| < 15804394 * 2 ^ 104 →
      (fromBits (0x7EF127EA#32 - x.toBits)).isNaN = true := by
    intro x _ hs h1 h2
    rw [abs_val, ← mv1, mval_lt] at h1
    rw [abs_val, ← mv2, mval_lt] at h2
    have hb : x.bits.toNat = x.mag := by rw [toNat_eq, hs]; simp
    have hb2 : (fromBits (0x7EF127EA#32 - x.toBits)).bits.toNat = 2 ^ 32 + 0x7EF127EA - x.mag := by
      have h0 : (0x7EF127EA#32).toNat = 0x7EF127EA := by decide
      show (0x7EF127EA#32 - x.bits).toNat = _
      rw [BitVec.toNat_sub, h0, hb]
      omega
    rw [isNaN, mag, hb2]
    simp only [decide_eq_true_eq]
    omega
  have infv : ∀ x : F32, x.isNaN = false → x.sign = false → 15804394 * 2 ^ 104 ≤ mval x.mag →
      fromBits (0x7EF127EA#32 - x.toBits) * recipPoly (x * fromBits (0x7EF127EA#32 - x.toBits)) = negInf := by
    intro x h hs h2
    have h2' := h2
    rw [← mv2, mval_le] at h2
    have hn : x.mag ≤ infMag := by simpa [isNaN] using h
    have hb : x.bits.toNat = x.mag := by rw [toNat_eq, hs]; simp
    have hb2 : (fromBits (0x7EF127EA#32 - x.toBits)).bits.toNat = 2 ^ 32 + 0x7EF127EA - x.mag := by
      have h0 : (0x7EF127EA#32).toNat = 0x7EF127EA := by decide
      show (0x7EF127EA#32 - x.bits).toNat = _
      rw [BitVec.toNat_sub, h0, hb]
      omega
    generalize fromBits (0x7EF127EA#32 - x.toBits) = v at hb2
    have sv : v.sign = true := by rw [sign, hb2]; simp; omega
    have mv : v.mag = 2 ^ 31 + 0x7EF127EA - x.mag := by rw [mag, hb2]; omega
    have nv : v.isNaN = false := by rw [isNaN, mv]; simp only [decide_eq_false_iff_not]; omega
    have lv : (2 : ℚ) ^ 64 ≤ mval v.mag := by
      have h3 : (0x7f000000 : Nat) ≤ v.mag := by omega
      refine le_trans ?_ (mval_le.2 h3)
      rw [show (0x7f000000 : Nat) = 254 * 2 ^ 23 by norm_num, mval_pow (by norm_num)]
      norm_num
    rw [mul_huge h nv (le_trans (by norm_num) h2') lv, hs, sv]
    have hp : recipPoly (pack (false != true) infMag) = posInf := eval_eq (by kernel_rfl)
    rw [hp, mul_huge nv (by decide) lv (by
      rw [show posInf.mag = infMag by decide, mval_infMag]; norm_num), sv]
    decide
  refine ⟨fun h => ?_, fun h1 h2 => ?_, fun h h2 => ?_, fun h h2 => ?_⟩
  · have hlt : x.lt ZERO = false := by rw [F32.lt, h]; simp
    unfold F32.recip
    rw [hlt]
    simp only [Bool.false_eq_true, if_false]
    refine mul_nan (.inl (mul_nan (.inr (add_nan (.inr (mul_nan (.inl (mul_nan (.inl (mul_nan (.inl h)))))))))))
  · have hn : x.isNaN = false := by
      rw [abs_val, ← mv2, mval_lt] at h2
      rw [isNaN]; simp only [decide_eq_false_iff_not]; omega
    have hm0 : x.mag ≠ 0 := by
      intro h0
      rw [abs_val, h0, mval_zero] at h1; norm_num at h1
    cases hs : x.sign
    · rw [recip_pos_eq hn hs]
      exact mul_nan (.inl (mul_nan (.inl (nanv x hn hs h1 h2))))
    · have e := recip_neg_form (x := -x) (by rw [isNaN_neg]; exact hn) (by rw [sign_neg, hs]; rfl) (by rwa [mag_neg])
      rw [neg_neg'] at e
      rw [e]
      exact mul_nan (.inl (mul_nan (.inl (nanv (-x) (by rw [isNaN_neg]; exact hn) (by rw [sign_neg, hs]; rfl)
        (by rw [val_neg, abs_neg]; exact h1) (by rw [val_neg, abs_neg]; exact h2)))))
  · have hs : x.sign = false := val_pos_sign (lt_of_lt_of_le (by positivity) h2)
    rw [val_of_pos hs] at h2
    rw [recip_pos_eq h hs, infv x h hs h2, mul_one_nn (by decide)]
  · have hs : x.sign = true := by
      by_contra hc
      rw [val_of_pos (by simpa using hc)] at h2
      have := mval_nonneg x.mag
      norm_num at h2; linarith
    rw [val_of_neg hs] at h2
    have h3 : 15804394 * 2 ^ 104 ≤ mval (-x).mag := by rw [mag_neg]; linarith
    have hm0 : (-x).mag ≠ 0 := by
      intro h0
      rw [h0, mval_zero] at h3; norm_num at h3
    have e := recip_neg_form (x := -x) (by rw [isNaN_neg]; exact h) (by rw [sign_neg, hs]; rfl) hm0
    rw [neg_neg', infv (-x) (by rw [isNaN_neg]; exact h) (by rw [sign_neg, hs]; rfl) h3, mul_neg_one_nn (by decide)] at e
    rw [e]; decide

/-- `recip(2e38)` is NaN. -/
example : 15804394 * 2 ^ 103 < |(⟨0x7f167699#32⟩ : F32).val| ∧ |(⟨0x7f167699#32⟩ : F32).val| < 15804394 * 2 ^ 104 := by
  rw [val_of_units (u := 9860761 * 2 ^ 253) (by decide +kernel)]; norm_num

/-- **C105, the contract is violated**: `recip` of infinity is not zero, and `recip` of some finite non-zero number is
NaN. -/
theorem C105_recip_contract_false :
    ¬ posInf.recip.feq posZero = true ∧ ¬ ∀ x : F32, x.isFinite = true → x.val ≠ 0 → x.recip.isNaN = false := by
  constructor
  · rw [(C105_recip_large posInf).2.2.1 (by decide) (by
      rw [val_of_pos (by decide), show posInf.mag = infMag by decide, mval_infMag]; norm_num)]
    decide
  · intro h
    have hv : (⟨0x7f167699#32⟩ : F32).val = 9860761 * 2 ^ 104 := by
      rw [val_of_units (u := 9860761 * 2 ^ 253) (by decide +kernel)]; norm_num
    have h1 := h ⟨0x7f167699#32⟩ (by decide) (by rw [hv]; norm_num)
    rw [(C105_recip_large ⟨0x7f167699#32⟩).2.1 (by rw [hv]; norm_num) (by rw [hv]; norm_num)] at h1
    cases h1

end Micromath.Props
