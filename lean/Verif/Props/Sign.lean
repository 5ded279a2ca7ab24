import Verif.Spec.Basic

/-!
# C01-C03: `abs`, `copysign`, `signum`
-/

namespace Micromath.Props
open F32 Spec

/-- **C01.** `abs` keeps the low 31 bits and clears the sign bit, for every bit pattern. -/
theorem C01_abs_bits (x : F32) : x.abs.toBits.toNat = x.toBits.toNat % 2 ^ 31 := by
  rw [abs_eq, toBits, pack_toNat _ (mag_lt x)]; simp [mag, toBits]

/-- **C01.** Consequences: idempotent, even, exact absolute value, infinities, NaN, never sign-negative. -/
theorem C01_abs (x : F32) :
    x.abs.abs = x.abs ∧ (-x).abs = x.abs ∧ x.abs.isSignNegative = false ∧
    (x.isFinite → IsVal x.abs |x.val|) ∧ (x.isInf → x.abs = posInf) ∧ (x.isNaN → x.abs.isNaN) := by
  refine ⟨?_, ?_, ?_, ?_, ?_, ?_⟩
  · rw [abs_eq x.abs, mag_abs, ← abs_eq]
  · rw [abs_eq, mag_neg, ← abs_eq]
  · simp [isSignNegative]
  · intro h; exact ⟨by simpa using h, val_abs x⟩
  · intro h
    rw [abs_eq]
    have : x.mag = infMag := by simpa [isInf] using h
    rw [this]; rfl
  · intro h; simpa using h

/-- Non-trivial instances: a negative number, a NaN with the sign bit set. -/
example : F32.abs ⟨0xc0490fdb#32⟩ = ⟨0x40490fdb#32⟩ ∧ F32.abs ⟨0xffc00001#32⟩ = ⟨0x7fc00001#32⟩ :=
  ⟨eval_eq (by kernel_rfl), eval_eq (by kernel_rfl)⟩
example : IsVal (F32.abs ⟨0xc0000000#32⟩) |(⟨0xc0000000#32⟩ : F32).val| :=
  (C01_abs _).2.2.2.1 (by decide)

/-- **C02.** `copysign` takes the low 31 bits of `x` and the sign bit of `s`. -/
theorem C02_copysign_bits (x s : F32) :
    (x.copysign s).toBits.toNat = x.toBits.toNat % 2 ^ 31 + s.toBits.toNat / 2 ^ 31 * 2 ^ 31 := by
  rw [copysign_eq, toBits, pack_toNat _ (mag_lt x), toBits, toBits, toNat_div_sign]
  simp only [mag]
  cases s.sign <;> simp

/-- **C02.** Consequences for every pair of bit patterns. -/
theorem C02_copysign (x s : F32) :
    x.copysign x = x ∧ (x.copysign s).isSignNegative = s.isSignNegative ∧
    (x.isFinite → IsVal (x.copysign s) (if s.isSignNegative then -|x.val| else |x.val|)) ∧
    (x.isInf → x.copysign s = if s.isSignNegative then negInf else posInf) ∧
    (x.isNaN → (x.copysign s).isNaN) := by
  refine ⟨?_, ?_, ?_, ?_, ?_⟩
  · exact ext_mag_sign (by simp) (by simp)
  · simp [isSignNegative]
  · intro h
    refine ⟨by simpa [isFinite] using h, ?_⟩
    rw [val_eq, mag_copysign, sign_copysign, abs_val, isSignNegative]
  · intro h
    have hm : x.mag = infMag := by simpa [isInf] using h
    rw [copysign_eq, hm, isSignNegative]
    cases s.sign <;> rfl
  · intro h; simpa [isNaN] using h

example : copysign ⟨0x3f800000#32⟩ ⟨0x80000000#32⟩ = ⟨0xbf800000#32⟩ ∧
    copysign ⟨0xffc00000#32⟩ ⟨0x00000000#32⟩ = ⟨0x7fc00000#32⟩ :=
  ⟨eval_eq (by kernel_rfl), eval_eq (by kernel_rfl)⟩

/-- **C03.** `signum` is exactly `1.0` / `-1.0` by the sign bit, and NaN on NaN. -/
theorem C03_signum [Cfg] (x : F32) :
    (x.isNaN = false → x.toBits.toNat < 2 ^ 31 → x.signum = one ∧ IsVal x.signum 1) ∧
    (x.isNaN = false → 2 ^ 31 ≤ x.toBits.toNat → x.signum = ⟨0xbf800000#32⟩ ∧ IsVal x.signum (-1)) ∧
    (x.isNaN = true → x.signum.isNaN = true) := by
  have h1 : IsVal one 1 := ⟨by decide, by rw [val]; norm_num [show one.units = 2 ^ 149 by decide +kernel]⟩
  have h2 : IsVal ⟨0xbf800000#32⟩ (-1) :=
    ⟨by decide, by rw [val]; norm_num [show (⟨0xbf800000#32⟩ : F32).units = -2 ^ 149 by decide +kernel]⟩
  refine ⟨fun hn hs => ?_, fun hn hs => ?_, fun hn => ?_⟩
  · have : x.signum = one := by
      rw [signum, hn, if_neg (by simp), copysign_eq,
        show x.sign = false by simpa [sign, toBits] using hs]
      rfl
    exact ⟨this, this ▸ h1⟩
  · have : x.signum = ⟨0xbf800000#32⟩ := by
      rw [signum, hn, if_neg (by simp), copysign_eq,
        show x.sign = true by simpa [sign, toBits] using hs]
      rfl
    exact ⟨this, this ▸ h2⟩
  · rw [signum, hn, if_pos rfl]; exact Cfg.nanConst_isNaN

example [Cfg] : signum ⟨0x80000000#32⟩ = ⟨0xbf800000#32⟩ := ((C03_signum _).2.1 (by decide) (by decide)).1
example [Cfg] : (signum ⟨0x7fc00000#32⟩).isNaN = true := (C03_signum _).2.2 (by decide)

end Micromath.Props
