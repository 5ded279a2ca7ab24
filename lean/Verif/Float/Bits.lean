import Verif.Float.Ops
import Mathlib.Tactic.IntervalCases

/-!
# Arithmetic reading of the bit manipulations in `src/float*.rs`
-/

namespace Micromath.F32

theorem toNat_and_low (b : BitVec 32) : (b &&& ~~~SIGN_MASK).toNat = b.toNat % 2 ^ 31 := by
  rw [BitVec.toNat_and, show (~~~SIGN_MASK).toNat = 2 ^ 31 - 1 by decide, Nat.and_two_pow_sub_one_eq_mod]

theorem toNat_and_mant (b : BitVec 32) : (b &&& MANTISSA_MASK).toNat = b.toNat % 2 ^ 23 := by
  rw [BitVec.toNat_and, show (MANTISSA_MASK).toNat = 2 ^ 23 - 1 by decide, Nat.and_two_pow_sub_one_eq_mod]

theorem toNat_and_sign (b : BitVec 32) : (b &&& SIGN_MASK).toNat = b.toNat / 2 ^ 31 * 2 ^ 31 := by
  have h := b.isLt
  have : b &&& SIGN_MASK = (b >>> 31) <<< 31 := by
    ext i hi
    simp only [BitVec.getElem_and, BitVec.getElem_shiftLeft, SIGN_MASK]
    interval_cases i <;> simp
  rw [this, BitVec.toNat_shiftLeft, BitVec.toNat_ushiftRight, Nat.shiftLeft_eq, Nat.shiftRight_eq_div_pow]
  omega

theorem toNat_div_sign (x : F32) : x.bits.toNat / 2 ^ 31 = if x.sign then 1 else 0 := by
  have := mag_lt x
  rw [toNat_eq]; split <;> omega

theorem mag_ofNat {n : Nat} (h : n < 2 ^ 32) : mag ⟨BitVec.ofNat 32 n⟩ = n % 2 ^ 31 := by
  unfold mag; rw [BitVec.toNat_ofNat, Nat.mod_eq_of_lt h]

theorem mag_mk (b : BitVec 32) : mag ⟨b⟩ = b.toNat % 2 ^ 31 := rfl
theorem sign_mk (b : BitVec 32) : sign ⟨b⟩ = decide (2 ^ 31 ≤ b.toNat) := rfl

/-- Two floats with the same `toNat` are equal. -/
theorem ext_toNat {x y : F32} (h : x.bits.toNat = y.bits.toNat) : x = y := by
  ext1; exact BitVec.eq_of_toNat_eq h

theorem eq_pack_of_toNat {x : F32} {s : Bool} {m : Nat} (hm : m < 2 ^ 31)
    (h : x.bits.toNat = m + if s then 2 ^ 31 else 0) : x = pack s m := by
  apply ext_toNat; rw [h, pack_toNat s hm]

/-! ## `abs`, `copysign` -/

theorem abs_eq (x : F32) : x.abs = pack false x.mag := by
  apply eq_pack_of_toNat (mag_lt x)
  show (x.bits &&& ~~~SIGN_MASK).toNat = _
  rw [toNat_and_low]; simp [mag]

theorem withoutSign_eq (x : F32) : x.withoutSign = pack false x.mag := abs_eq x

@[simp] theorem mag_abs (x : F32) : x.abs.mag = x.mag := by rw [abs_eq, mag_pack _ (mag_lt x)]
@[simp] theorem sign_abs (x : F32) : x.abs.sign = false := by rw [abs_eq, sign_pack _ (mag_lt x)]

theorem copysign_eq (x s : F32) : x.copysign s = pack s.sign x.mag := by
  apply eq_pack_of_toNat (mag_lt x)
  show ((x.bits &&& ~~~SIGN_MASK) ||| (s.bits &&& SIGN_MASK)).toNat = _
  rw [BitVec.toNat_or, toNat_and_low, toNat_and_sign, toNat_div_sign]
  have h := mag_lt x
  show x.mag ||| _ = _
  cases s.sign
  · simp
  · have := Nat.two_pow_add_eq_or_of_lt h 1
    simp only [if_true, one_mul]
    rw [Nat.or_comm]; rw [mul_one] at this; omega

@[simp] theorem mag_copysign (x s : F32) : (x.copysign s).mag = x.mag := by
  rw [copysign_eq, mag_pack _ (mag_lt x)]
@[simp] theorem sign_copysign (x s : F32) : (x.copysign s).sign = s.sign := by
  rw [copysign_eq, sign_pack _ (mag_lt x)]

theorem val_abs (x : F32) : x.abs.val = |x.val| := by
  rw [abs_val, val_of_pos (sign_abs x), mag_abs]

@[simp] theorem isFinite_abs (x : F32) : x.abs.isFinite = x.isFinite := by simp [isFinite]
@[simp] theorem isNaN_abs (x : F32) : x.abs.isNaN = x.isNaN := by simp [isNaN]
@[simp] theorem isInf_abs (x : F32) : x.abs.isInf = x.isInf := by simp [isInf]

/-! ## Exponent -/

theorem extractExponentBits_toNat (x : F32) : x.extractExponentBits.toNat = x.mag / 2 ^ 23 := by
  have h1 : x.extractExponentBits = (x.bits >>> 23) &&& 0xff#32 := by
    show (x.bits &&& EXPONENT_MASK) >>> 23 = _
    rw [BitVec.ushiftRight_and_distrib]; rfl
  rw [h1, BitVec.toNat_and, BitVec.toNat_ushiftRight, Nat.shiftRight_eq_div_pow,
    show (0xff#32).toNat = 2 ^ 8 - 1 by decide, Nat.and_two_pow_sub_one_eq_mod]
  unfold mag; omega

theorem extractExponentValue_eq (x : F32) : x.extractExponentValue = (x.mag / 2 ^ 23 : Nat) - 127 := by
  have h := extractExponentBits_toNat x
  have h2 : x.extractExponentBits.toInt = (x.extractExponentBits.toNat : Int) := by
    rw [BitVec.toInt_eq_toNat_of_lt]
    have := mag_lt x; omega
  unfold extractExponentValue
  rw [h2, h]; rfl

/-! ## `trunc` -/

theorem toNat_oshl_mant (b : BitVec 32) (e : Nat) :
    (oshl b e &&& MANTISSA_MASK).toNat = b.toNat * 2 ^ (e % 32) % 2 ^ 23 := by
  rw [toNat_and_mant, oshl, BitVec.toNat_shiftLeft, Nat.shiftLeft_eq]
  omega

theorem mul_pow_mod (a s : Nat) : a * 2 ^ s % 2 ^ 23 = a % 2 ^ (23 - s) * 2 ^ s := by
  rcases Nat.lt_or_ge s 23 with h | h
  · rw [show 2 ^ 23 = 2 ^ (23 - s) * 2 ^ s by rw [← pow_add]; congr 1; omega, Nat.mul_mod_mul_right]
  · rw [Nat.sub_eq_zero_of_le h, pow_zero, Nat.mod_one, zero_mul]
    apply Nat.mod_eq_zero_of_dvd
    exact Dvd.dvd.mul_left (pow_dvd_pow 2 h) a

theorem and_not_low (b : BitVec 32) (k : Nat) (hk : k ≤ 31) :
    (b &&& ~~~(BitVec.ofNat 32 (b.toNat % 2 ^ k))).toNat = b.toNat - b.toNat % 2 ^ k := by
  have h1 : BitVec.ofNat 32 (b.toNat % 2 ^ k) = b &&& BitVec.ofNat 32 (2 ^ k - 1) := by
    have hlt := b.isLt
    have h2k : 2 ^ k ≤ 2 ^ 31 := Nat.pow_le_pow_right (by norm_num) hk
    apply BitVec.eq_of_toNat_eq
    rw [BitVec.toNat_and, BitVec.toNat_ofNat, BitVec.toNat_ofNat,
      Nat.mod_eq_of_lt (a := 2 ^ k - 1) (by omega), Nat.and_two_pow_sub_one_eq_mod]
    exact Nat.mod_eq_of_lt (lt_of_le_of_lt (Nat.mod_le _ _) hlt)
  have h2 : b &&& ~~~(b &&& BitVec.ofNat 32 (2 ^ k - 1)) = (b >>> k) <<< k := by
    ext i hi
    have hb : (BitVec.ofNat 32 (2 ^ k - 1))[i] = decide (i < k) := by
      rw [← BitVec.getLsbD_eq_getElem, BitVec.getLsbD_ofNat, Nat.testBit_two_pow_sub_one]
      simp [hi]
    simp only [BitVec.getElem_and, BitVec.getElem_not, BitVec.getElem_shiftLeft, hb]
    rcases Nat.lt_or_ge i k with h | h
    · simp [h]
    · have : ¬ i < k := by omega
      simp [this, BitVec.getLsbD_eq_getElem, hi, h]
  rw [h1, h2, BitVec.toNat_shiftLeft, BitVec.toNat_ushiftRight, Nat.shiftLeft_eq,
    Nat.shiftRight_eq_div_pow, Nat.mod_eq_of_lt]
  · have := Nat.div_add_mod b.toNat (2 ^ k)
    have h3 : b.toNat / 2 ^ k * 2 ^ k = 2 ^ k * (b.toNat / 2 ^ k) := Nat.mul_comm _ _
    omega
  · exact lt_of_le_of_lt (Nat.div_mul_le_self _ _) b.isLt

theorem toNat_mod_low (x : F32) {k : Nat} (hk : k ≤ 31) : x.bits.toNat % 2 ^ k = x.mag % 2 ^ k := by
  unfold mag
  rw [Nat.mod_mod_of_dvd _ (pow_dvd_pow 2 hk)]

/-- `trunc` in terms of the magnitude bits; `s` is the wrapped shift amount. -/
theorem trunc_eq (x : F32) : x.trunc =
    if x.mag / 2 ^ 23 < 127 then pack x.sign 0
    else pack x.sign (x.mag - x.mag % 2 ^ (23 - (x.mag / 2 ^ 23 - 127) % 32)) := by
  have he := extractExponentValue_eq x
  have hm := mag_lt x
  unfold trunc
  simp only [he]
  by_cases hlt : x.mag / 2 ^ 23 < 127
  · rw [if_pos hlt, if_pos (show ((x.mag / 2 ^ 23 : Nat) : Int) - 127 < 0 by omega), copysign_eq]; rfl
  · rw [if_neg hlt, if_neg (show ¬ ((x.mag / 2 ^ 23 : Nat) : Int) - 127 < 0 by omega)]
    have h1 : (max (((x.mag / 2 ^ 23 : Nat) : Int) - 127) 0).toNat = x.mag / 2 ^ 23 - 127 := by omega
    rw [h1]
    generalize hE : x.mag / 2 ^ 23 - 127 = E
    have hfp := toNat_oshl_mant x.bits E
    rw [mul_pow_mod] at hfp
    generalize hs : E % 32 = s at hfp
    have hs32 : s < 32 := hs ▸ Nat.mod_lt _ (by norm_num)
    rw [toNat_mod_low x (by omega : 23 - s ≤ 31)] at hfp
    split
    · rename_i h0
      have h0' : (oshl x.bits E &&& MANTISSA_MASK).toNat = 0 := by
        have := eq_of_beq h0
        show (oshl x.toBits E &&& MANTISSA_MASK).toNat = 0
        rw [this]; rfl
      rw [hfp] at h0'
      have : x.mag % 2 ^ (23 - s) = 0 := by
        rcases Nat.mul_eq_zero.1 h0' with h | h
        · exact h
        · exact absurd h (by positivity)
      rw [this, Nat.sub_zero, pack_sign_mag]
    · apply eq_pack_of_toNat (by omega)
      have hmask : oshr (oshl x.toBits E &&& MANTISSA_MASK) E = BitVec.ofNat 32 (x.bits.toNat % 2 ^ (23 - s)) := by
        apply BitVec.eq_of_toNat_eq
        rw [oshr, hs, BitVec.toNat_ushiftRight, Nat.shiftRight_eq_div_pow]
        show (oshl x.bits E &&& MANTISSA_MASK).toNat / 2 ^ s = _
        rw [hfp, Nat.mul_div_cancel _ (by positivity), BitVec.toNat_ofNat,
          toNat_mod_low x (by omega : 23 - s ≤ 31)]
        exact (Nat.mod_eq_of_lt (lt_of_le_of_lt (Nat.mod_le _ _) (by omega))).symm
      show (x.bits &&& ~~~(oshr (oshl x.toBits E &&& MANTISSA_MASK) E)).toNat = _
      rw [hmask, and_not_low _ _ (by omega), toNat_mod_low x (by omega : 23 - s ≤ 31), toNat_eq]
      have := Nat.mod_le x.mag (2 ^ (23 - s))
      omega

/-! ## `fract` -/

theorem clz32_pos {b : BitVec 32} (h : b.toNat ≠ 0) : clz32 b = 31 - b.toNat.log2 := by
  simp [clz32, h]

/-- The bits assembled by `fract` for a nonzero fraction field `f < 2^23`. -/
theorem fract_assemble {f : BitVec 32} (h0 : f.toNat ≠ 0) (h1 : f.toNat < 2 ^ 23) :
    ((oshl f (clz32 f - (32 - 23) + 1) &&& MANTISSA_MASK) |||
      oshl (BitVec.ofNat 32 (127 - (clz32 f - (32 - 23) + 1))) 23).toNat
      = (103 + f.toNat.log2) * 2 ^ 23 + f.toNat * 2 ^ (23 - f.toNat.log2) := by
  have hL : f.toNat.log2 < 23 := (Nat.log2_lt h0).2 h1
  have hlo : 2 ^ f.toNat.log2 ≤ f.toNat := Nat.log2_self_le h0
  have hhi : f.toNat < 2 ^ (f.toNat.log2 + 1) := Nat.lt_log2_self
  have hc := clz32_pos h0
  generalize f.toNat.log2 = L at *
  have hsh : clz32 f - (32 - 23) + 1 = 23 - L := by omega
  rw [hsh, BitVec.toNat_or, toNat_oshl_mant, Nat.mod_eq_of_lt (by omega : 23 - L < 32)]
  have hr1 : 2 ^ 23 ≤ f.toNat * 2 ^ (23 - L) := by
    calc 2 ^ 23 = 2 ^ L * 2 ^ (23 - L) := by rw [← pow_add]; congr 1; omega
      _ ≤ _ := Nat.mul_le_mul_right _ hlo
  have hr2 : f.toNat * 2 ^ (23 - L) < 2 ^ 24 := by
    calc f.toNat * 2 ^ (23 - L) < 2 ^ (L + 1) * 2 ^ (23 - L) := Nat.mul_lt_mul_of_pos_right hhi (by positivity)
      _ = 2 ^ 24 := by rw [← pow_add]; congr 1; omega
  generalize f.toNat * 2 ^ (23 - L) = r at *
  have e2 : (oshl (BitVec.ofNat 32 (127 - (23 - L))) 23).toNat = 2 ^ 23 * (104 + L) := by
    rw [oshl, BitVec.toNat_shiftLeft, BitVec.toNat_ofNat, Nat.shiftLeft_eq, show 23 % 32 = 23 from rfl]
    omega
  rw [e2, Nat.or_comm, ← Nat.two_pow_add_eq_or_of_lt (Nat.mod_lt _ (by norm_num))]
  omega

/-- The fraction field `fract` extracts. -/
def fracField (x : F32) : Nat :=
  x.mag % 2 ^ (23 - (x.mag / 2 ^ 23 - 127) % 32) * 2 ^ ((x.mag / 2 ^ 23 - 127) % 32)

theorem fracField_lt (x : F32) : x.fracField < 2 ^ 23 := by
  unfold fracField
  rw [← mul_pow_mod]; exact Nat.mod_lt _ (by norm_num)

theorem fracField_toNat (x : F32) : (oshl x.bits (x.mag / 2 ^ 23 - 127) &&& MANTISSA_MASK).toNat = x.fracField := by
  rw [toNat_oshl_mant, mul_pow_mod, toNat_mod_low x (by omega)]; rfl

/-- `fract` in terms of the magnitude bits. -/
theorem fract_eq (x : F32) : x.fract =
    if x.mag / 2 ^ 23 < 127 then x
    else if x.fracField = 0 then pack x.sign 0
    else pack x.sign ((103 + x.fracField.log2) * 2 ^ 23 + x.fracField * 2 ^ (23 - x.fracField.log2)) := by
  have he := extractExponentValue_eq x
  unfold fract
  simp only [he]
  by_cases hlt : x.mag / 2 ^ 23 < 127
  · rw [if_pos hlt, if_pos (show ((x.mag / 2 ^ 23 : Nat) : Int) - 127 < 0 by omega)]
  · rw [if_neg hlt, if_neg (show ¬ ((x.mag / 2 ^ 23 : Nat) : Int) - 127 < 0 by omega)]
    have h1 : (((x.mag / 2 ^ 23 : Nat) : Int) - 127).toNat = x.mag / 2 ^ 23 - 127 := by omega
    rw [h1]
    have hff := fracField_toNat x
    change (oshl x.toBits (x.mag / 2 ^ 23 - 127) &&& MANTISSA_MASK).toNat = _ at hff
    generalize oshl x.toBits (x.mag / 2 ^ 23 - 127) &&& MANTISSA_MASK = f at *
    by_cases h0 : f = 0#32
    · have : x.fracField = 0 := by rw [← hff, h0]; rfl
      rw [if_pos (by simp [h0]), if_pos this, copysign_eq]; rfl
    · have h0' : f.toNat ≠ 0 := fun h => h0 (BitVec.eq_of_toNat_eq (by rw [h]; rfl))
      rw [if_neg (by simpa using h0), if_neg (by omega), copysign_eq]
      refine congrArg (pack x.sign) ?_
      rw [← hff]
      have hA := fract_assemble h0' (by rw [hff]; exact fracField_lt x)
      unfold mag
      refine (congrArg (· % 2 ^ 31) hA).trans ?_
      have hL : f.toNat.log2 < 23 := (Nat.log2_lt h0').2 (by rw [hff]; exact fracField_lt x)
      have hhi : f.toNat < 2 ^ (f.toNat.log2 + 1) := Nat.lt_log2_self
      have hr2 : f.toNat * 2 ^ (23 - f.toNat.log2) < 2 ^ 24 := by
        calc f.toNat * 2 ^ (23 - f.toNat.log2) < 2 ^ (f.toNat.log2 + 1) * 2 ^ (23 - f.toNat.log2) :=
              Nat.mul_lt_mul_of_pos_right hhi (by positivity)
          _ = 2 ^ 24 := by rw [← pow_add]; congr 1; omega
      exact Nat.mod_eq_of_lt (by omega)

/-- The overflow-checked arithmetic inside `fract` never overflows. -/
theorem fractR_eq [Cfg] (x : F32) : x.fractR = .ok x.fract := by
  have he := extractExponentValue_eq x
  unfold fractR fract
  simp only [he]
  by_cases hlt : ((x.mag / 2 ^ 23 : Nat) : Int) - 127 < 0
  · rw [if_pos hlt, if_pos hlt]
  · rw [if_neg hlt, if_neg hlt]
    have h1 : (((x.mag / 2 ^ 23 : Nat) : Int) - 127).toNat = x.mag / 2 ^ 23 - 127 := by omega
    rw [h1]
    have hff := fracField_toNat x
    change (oshl x.toBits (x.mag / 2 ^ 23 - 127) &&& MANTISSA_MASK).toNat = _ at hff
    have hlt := fracField_lt x
    generalize oshl x.toBits (x.mag / 2 ^ 23 - 127) &&& MANTISSA_MASK = f at *
    by_cases h0 : (f == 0) = true
    · rw [if_pos h0, if_pos h0]
    · rw [if_neg h0, if_neg h0]
      have h0' : f.toNat ≠ 0 := fun h => h0 (by rw [beq_iff_eq]; exact BitVec.eq_of_toNat_eq (by rw [h]; rfl))
      have hL : f.toNat.log2 < 23 := (Nat.log2_lt h0').2 (by omega)
      have hc := clz32_pos h0'
      have a1 : u32chk (((clz32 f : Nat) : Int) - (32 - ((MANTISSA_BITS : Nat) : Int))) =
          .ok (BitVec.ofNat 32 (clz32 f - (32 - MANTISSA_BITS))) := by
        have e : (((clz32 f : Nat) : Int) - (32 - ((MANTISSA_BITS : Nat) : Int))) = ((clz32 f - (32 - MANTISSA_BITS) : Nat) : Int) := by
          unfold MANTISSA_BITS; omega
        rw [u32chk, if_pos (by rw [e]; unfold MANTISSA_BITS; omega), e, BitVec.ofInt_natCast]
      have n1 : (BitVec.ofNat 32 (clz32 f - (32 - MANTISSA_BITS))).toNat = clz32 f - (32 - MANTISSA_BITS) := by
        rw [BitVec.toNat_ofNat]; unfold MANTISSA_BITS; omega
      have a2 : u32chk (((clz32 f - (32 - MANTISSA_BITS) : Nat) : Int) + 1) =
          .ok (BitVec.ofNat 32 (clz32 f - (32 - MANTISSA_BITS) + 1)) := by
        have e : (((clz32 f - (32 - MANTISSA_BITS) : Nat) : Int) + 1) =
            ((clz32 f - (32 - MANTISSA_BITS) + 1 : Nat) : Int) := (Nat.cast_succ _).symm
        rw [e, u32chk, if_pos (by unfold MANTISSA_BITS; omega), BitVec.ofInt_natCast]
      have n2 : (BitVec.ofNat 32 (clz32 f - (32 - MANTISSA_BITS) + 1)).toNat = clz32 f - (32 - MANTISSA_BITS) + 1 := by
        rw [BitVec.toNat_ofNat]; unfold MANTISSA_BITS; omega
      have a3 : u32chk (((EXPONENT_BIAS : Nat) : Int) - ((clz32 f - (32 - MANTISSA_BITS) + 1 : Nat) : Int)) =
          .ok (BitVec.ofNat 32 (EXPONENT_BIAS - (clz32 f - (32 - MANTISSA_BITS) + 1))) := by
        have e : (((EXPONENT_BIAS : Nat) : Int) - ((clz32 f - (32 - MANTISSA_BITS) + 1 : Nat) : Int)) =
            ((EXPONENT_BIAS - (clz32 f - (32 - MANTISSA_BITS) + 1) : Nat) : Int) := by
          unfold MANTISSA_BITS EXPONENT_BIAS; omega
        rw [u32chk, if_pos (by rw [e]; unfold MANTISSA_BITS EXPONENT_BIAS; omega), e, BitVec.ofInt_natCast]
      rw [a1, ok_bind, n1, a2, ok_bind, n2, a3, ok_bind]

end Micromath.F32
