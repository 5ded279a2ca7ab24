import Verif.Real.Exp
import Verif.Props.TruncFract
import Verif.Props.Rounding
import Verif.Props.Recip
import Verif.Props.Powi
import Verif.Props.Atan

/-!
# C27, C28: `exp`
-/

set_option exponentiation.threshold 1000

namespace Micromath.Props
open F32 Spec RealAux

/-! ### `set_exponent` -/

theorem oshl_23 {n : Nat} (hn : n < 256) : (oshl (BitVec.ofInt 32 (n : Int)) MANTISSA_BITS).toNat = n * 2 ^ 23 := by
  have h1 : BitVec.ofInt 32 (n : Int) = BitVec.ofNat 32 n := by simp
  have h2 : MANTISSA_BITS % 32 = 23 := by decide
  unfold oshl
  rw [h1, h2, BitVec.toNat_shiftLeft, BitVec.toNat_ofNat, Nat.shiftLeft_eq]
  omega

theorem setExponent_bits (x : F32) {n : Nat} (hn : n < 256) :
    fromBits ((x.toBits &&& ~~~EXPONENT_MASK) ||| oshl (BitVec.ofInt 32 (n : Int)) MANTISSA_BITS) =
      pack x.sign (n * 2 ^ 23 + x.mag % 2 ^ 23) := by
  have hm : x.mag % 2 ^ 23 < 2 ^ 23 := Nat.mod_lt _ (by norm_num)
  refine eq_pack_of_toNat (by omega) ?_
  have hmask : ~~~EXPONENT_MASK = SIGN_MASK ||| MANTISSA_MASK := by decide
  show ((x.bits &&& ~~~EXPONENT_MASK) ||| _).toNat = _
  rw [hmask, BitVec.and_or_distrib_left, BitVec.or_assoc, BitVec.toNat_or, BitVec.toNat_or, toNat_and_sign,
    toNat_div_sign, toNat_and_mant, toNat_mod_low x (by norm_num), oshl_23 hn]
  have h1 : x.mag % 2 ^ 23 ||| n * 2 ^ 23 = n * 2 ^ 23 + x.mag % 2 ^ 23 := by
    rw [Nat.or_comm, ← Nat.shiftLeft_eq, Nat.shiftLeft_add_eq_or_of_lt hm]
  rw [h1]
  cases x.sign
  · simp
  · have h3 : n * 2 ^ 23 + x.mag % 2 ^ 23 < 2 ^ 31 := by omega
    have := Nat.shiftLeft_add_eq_or_of_lt h3 1
    rw [Nat.shiftLeft_eq] at this
    simp only [if_true, one_mul] at this ⊢
    rw [← this]; omega

/-- `set_exponent` for exponents that the assertion admits. -/
theorem setExponent_ok [Cfg] (x : F32) {e : Int} (h1 : -127 ≤ e) (h2 : e ≤ 127) :
    x.setExponent e = .ok (pack x.sign ((e + 127).toNat * 2 ^ 23 + x.mag % 2 ^ 23)) := by
  unfold setExponent
  have hb : ((EXPONENT_BIAS : Nat) : Int) = 127 := by decide
  rw [if_neg (by simp; intro; omega)]
  have hc : i32chk (e + (EXPONENT_BIAS : Int)) = .ok (e + 127) := by
    rw [hb]; unfold i32chk; rw [if_pos (by omega)]
  rw [hc, ok_bind, ← setExponent_bits x (n := (e + 127).toNat) (by omega), Int.toNat_of_nonneg (by omega)]

/-- With exponent 128 the debug assertion fails; without it the result is an infinity or NaN. -/
theorem setExponent_128 [Cfg] (x : F32) :
    x.setExponent 128 = if Cfg.debugAssertions = true then .error .assertFailed
      else .ok (pack x.sign (255 * 2 ^ 23 + x.mag % 2 ^ 23)) := by
  unfold setExponent
  cases Cfg.debugAssertions
  · rw [if_neg (by simp), if_neg (by simp)]
    have hc : i32chk (128 + (EXPONENT_BIAS : Int)) = .ok 255 := by
      have hb : ((EXPONENT_BIAS : Nat) : Int) = 127 := by decide
      rw [hb]; unfold i32chk; rw [if_pos (by omega)]; rfl
    rw [hc, ok_bind, ← setExponent_bits x (n := 255) (by omega)]; rfl
  · rfl

/-- The value after `set_exponent`, for a normal number and a normal result. -/
theorem pack_exponent_val {x : F32} {e : Int} (hs : x.sign = false) (hx : 1 ≤ x.mag / 2 ^ 23) (h1 : -126 ≤ e) (h2 : e ≤ 127) :
    IsVal (pack x.sign ((e + 127).toNat * 2 ^ 23 + x.mag % 2 ^ 23))
      (x.val * 2 ^ (e - ((x.mag / 2 ^ 23 : Nat) - 127))) := by
  have hm : x.mag % 2 ^ 23 < 2 ^ 23 := Nat.mod_lt _ (by norm_num)
  obtain ⟨k, hk⟩ : ∃ k : Nat, e + 127 = k ∧ 1 ≤ k ∧ k ≤ 254 := ⟨(e + 127).toNat, by omega, by omega, by omega⟩
  have hk' : (e + 127).toNat = k := by omega
  rw [hk']
  have hlt : k * 2 ^ 23 + x.mag % 2 ^ 23 < 2 ^ 31 := by omega
  have mv : ∀ j r : Nat, 1 ≤ j → r < 2 ^ 23 → mval (j * 2 ^ 23 + r) = ((r : ℚ) + 2 ^ 23) * 2 ^ ((j : Int) - 150) := by
    intro j r hj hr
    unfold mval magU
    rw [if_neg (by omega), show (j * 2 ^ 23 + r) % 2 ^ 23 = r by omega, show (j * 2 ^ 23 + r) / 2 ^ 23 = j by omega]
    push_cast
    rw [mul_div_assoc]
    congr 1
    rw [div_eq_iff (by positivity), ← zpow_natCast, ← zpow_natCast, ← zpow_add₀ (by norm_num)]
    congr 1
    omega
  refine ⟨?_, ?_⟩
  · rw [isFinite_iff, mag_pack _ hlt]
    have : infMag = 255 * 2 ^ 23 := by decide
    omega
  · rw [val_of_pos (by rw [sign_pack _ hlt, hs]), mag_pack _ hlt, mv k _ hk.2.1 hm, val_of_pos hs]
    have hxm : x.mag = x.mag / 2 ^ 23 * 2 ^ 23 + x.mag % 2 ^ 23 := by omega
    conv_rhs => rw [hxm, mv _ _ hx hm]
    rw [mul_assoc, ← zpow_add₀ (by norm_num)]
    congr 2
    omega

/-! ### the Taylor polynomial -/

variable [Cfg]

theorem expSmallx_four (g : F32) : g.expSmallx 4 =
    one + (g / ofInt 1) * (one + (g / ofInt 2) * (one + (g / ofInt 3) * (one + (g / ofInt 4) * one))) := rfl

/-- One step of the evaluation. -/
theorem exp_step {g t n : F32} {A N : ℚ} (hg : g.isFinite = true) (hgb : |g.val| ≤ 7 / 10) (hn : IsVal n N)
    (hN : 1 ≤ N) (ht : t.isFinite = true) (hA : |A| ≤ 3 / 2) (hv : |t.val - A| ≤ 1 / 10 ^ 6) :
    (one + (g / n) * t).isFinite = true ∧ |(one + (g / n) * t).val - (1 + g.val / N * A)| ≤ 1 / 10 ^ 6 ∧
      |1 + g.val / N * A| ≤ 1 + 7 / 10 / N * |A| ∧
      (0 ≤ g.val → 0 ≤ t.val → 1 ≤ (one + (g / n) * t).val) := by
  obtain ⟨fn, vn⟩ := hn
  have hq : |g.val / N| ≤ 7 / 10 := by
    rw [abs_div, abs_of_pos (by linarith : 0 < N)]
    exact (div_le_self (abs_nonneg _) hN).trans hgb
  obtain ⟨d1, hd1, f1, v1⟩ := div_err hg fn (by rw [vn]; linarith) 0 (by norm_num) (by norm_num) (by
    rw [vn]; exact hq.trans (by norm_num))
  rw [vn] at v1
  norm_num at hd1
  have htb : |t.val| ≤ 3 / 2 + 1 / 10 ^ 6 := by
    have := abs_sub_abs_le_abs_sub t.val A; linarith
  have hqd : |g.val / N + d1| ≤ 7 / 10 + 1 / 10 ^ 6 := by
    refine (abs_add_le _ _).trans (add_le_add hq (hd1.trans (by norm_num)))
  have hp : |(g.val / N + d1) * t.val| ≤ (7 / 10 + 1 / 10 ^ 6) * (3 / 2 + 1 / 10 ^ 6) := by
    rw [abs_mul]; exact mul_le_mul hqd htb (abs_nonneg _) (by norm_num)
  obtain ⟨d2, hd2, f2, v2⟩ := mul_err f1 ht 1 (by norm_num) (by norm_num) (by
    rw [v1]; exact hp.trans (by norm_num))
  rw [v1] at v2
  norm_num at hd2
  obtain ⟨d3, hd3, f3, v3⟩ := add_err fin_one f2 2 (by norm_num) (by norm_num) (by
    rw [val_one, v2]
    refine (abs_add_le _ _).trans ?_
    have := abs_add_le ((g.val / N + d1) * t.val) d2
    norm_num at hp this ⊢
    linarith)
  rw [val_one, v2] at v3
  norm_num at hd3
  refine ⟨f3, ?_, ?_, ?_⟩
  · rw [v3, show 1 + ((g.val / N + d1) * t.val + d2) + d3 - (1 + g.val / N * A) =
      g.val / N * (t.val - A) + d1 * t.val + d2 + d3 by ring]
    have t1 : |g.val / N * (t.val - A)| ≤ 7 / 10 * (1 / 10 ^ 6) := by
      rw [abs_mul]; exact mul_le_mul hq hv (abs_nonneg _) (by norm_num)
    have t2 : |d1 * t.val| ≤ 1 / 33554432 * (3 / 2 + 1 / 10 ^ 6) := by
      rw [abs_mul]; exact mul_le_mul hd1 htb (abs_nonneg _) (by norm_num)
    refine (abs_add_le _ _).trans ((add_le_add (abs_add_le _ _) le_rfl).trans
      ((add_le_add (add_le_add (abs_add_le _ _) le_rfl) le_rfl).trans ?_))
    norm_num at t1 t2 ⊢
    linarith
  · refine (abs_add_le _ _).trans ?_
    rw [abs_one, abs_mul]
    have hq' : |g.val / N| ≤ 7 / 10 / N := by
      rw [abs_div, abs_of_pos (by linarith : 0 < N)]
      exact div_le_div_of_nonneg_right hgb (by linarith)
    have := mul_le_mul_of_nonneg_right hq' (abs_nonneg A)
    linarith
  · intro hg0 ht0
    have b1 : |g.val / n.val| < ovf := by
      rw [vn]; exact lt_of_le_of_lt hq (by unfold ovf; norm_num)
    have q1 := (div_val hg fn (by rw [vn]; linarith) b1).2
    have n1 : 0 ≤ (g / n).val := by
      rw [q1]; exact RN_nonneg (div_nonneg hg0 (by rw [vn]; linarith))
    have b2 : |(g / n).val * t.val| < ovf := by
      rw [v1]; exact lt_of_le_of_lt hp (by unfold ovf; norm_num)
    have q2 := (mul_val f1 ht b2).2
    have n2 : 0 ≤ ((g / n) * t).val := by rw [q2]; exact RN_nonneg (mul_nonneg n1 ht0)
    have b3 : |one.val + ((g / n) * t).val| < ovf := by
      rw [val_one, v2]
      refine lt_of_le_of_lt (b := 4) ?_ (by unfold ovf; norm_num)
      refine (abs_add_le _ _).trans ?_
      have := abs_add_le ((g.val / N + d1) * t.val) d2
      norm_num at hp this ⊢
      linarith
    have q3 := (add_val fin_one f2 b3).2
    rw [q3, val_one]
    exact le_RN_of_rep (by simpa using rep_int (m := 1) (by norm_num)) (by linarith)

/-- The rational version of `T4`. -/
def T4Q (g : ℚ) : ℚ := 1 + g * (1 + g / 2 * (1 + g / 3 * (1 + g / 4)))

omit [Cfg] in
theorem T4Q_cast (g : ℚ) : ((T4Q g : ℚ) : ℝ) = T4 g := by unfold T4Q T4; push_cast; rfl

/-- `exp_smallx` with four terms on `|g| <= 0.69315`. -/
theorem expSmallx_err {g : F32} (hg : g.isFinite = true) (hgb : |g.val| ≤ 69315 / 100000) :
    (g.expSmallx 4).isFinite = true ∧ |(g.expSmallx 4).val - T4Q g.val| ≤ 1 / 10 ^ 6 ∧
      (0 ≤ g.val → 1 ≤ (g.expSmallx 4).val) := by
  have hgb' : |g.val| ≤ 7 / 10 := hgb.trans (by norm_num)
  have i1 : IsVal (ofInt 1) 1 := by simpa using ofInt_isVal (n := 1) (by decide)
  have i2 : IsVal (ofInt 2) 2 := by simpa using ofInt_isVal (n := 2) (by decide)
  have i3 : IsVal (ofInt 3) 3 := by simpa using ofInt_isVal (n := 3) (by decide)
  have i4 : IsVal (ofInt 4) 4 := by simpa using ofInt_isVal (n := 4) (by decide)
  rw [expSmallx_four]
  obtain ⟨f1, e1, b1, p1⟩ := exp_step (A := 1) hg hgb' i4 (by norm_num) fin_one (by norm_num) (by rw [val_one]; norm_num)
  rw [abs_one] at b1
  norm_num only at b1
  obtain ⟨f2, e2, b2, p2⟩ := exp_step hg hgb' i3 (by norm_num) f1 (b1.trans (by norm_num)) e1
  have b2' := b2.trans (add_le_add_right (mul_le_mul_of_nonneg_left b1 (by norm_num)) 1)
  norm_num only at b2'
  obtain ⟨f3, e3, b3, p3⟩ := exp_step hg hgb' i2 (by norm_num) f2 (b2'.trans (by norm_num)) e2
  have b3' := b3.trans (add_le_add_right (mul_le_mul_of_nonneg_left b2' (by norm_num)) 1)
  norm_num only at b3'
  obtain ⟨f4, e4, -, p4⟩ := exp_step hg hgb' i1 (by norm_num) f3 (b3'.trans (by norm_num)) e3
  refine ⟨f4, ?_, ?_⟩
  · unfold T4Q
    rwa [div_one, mul_one] at e4
  · intro h0
    have := p1 h0 (by rw [val_one]; norm_num)
    have := p2 h0 (by linarith)
    have := p3 h0 (by linarith)
    exact p4 h0 (by linarith)

/-! ### range reduction -/

omit [Cfg] in
/-- From `2^32` on, and for infinities and NaN, `trunc(x) as i32` saturates. -/
theorem trunc_toI32_sat {x : F32} (h : 159 * 2 ^ 23 ≤ x.mag) :
    x.trunc.toI32 = if x.sign then -2 ^ 31 else 2 ^ 31 - 1 := by
  have hml := mag_lt x
  have hi : infMag = 255 * 2 ^ 23 := by decide
  have hj : 2 ^ (23 - (x.mag / 2 ^ 23 - 127) % 32) ≤ 2 ^ 23 := Nat.pow_le_pow_right (by norm_num) (by omega)
  have hd : 2 ^ (23 - (x.mag / 2 ^ 23 - 127) % 32) ∣ 2 ^ 23 := pow_dvd_pow 2 (by omega)
  obtain ⟨m, hm, hmx, hm255⟩ : ∃ m, x.trunc = pack x.sign m ∧ m < 2 ^ 31 ∧ 159 * 2 ^ 23 ≤ m ∧ (m / 2 ^ 23 = 255 → m = infMag) := by
    refine ⟨_, by rw [trunc_eq, if_neg (by omega)], by omega, ?_, ?_⟩
    · have h1 : 2 ^ (23 - (x.mag / 2 ^ 23 - 127) % 32) ∣ 159 * 2 ^ 23 := hd.mul_left 159
      have h2 := Nat.div_mul_cancel h1
      have h3 := Nat.div_add_mod x.mag (2 ^ (23 - (x.mag / 2 ^ 23 - 127) % 32))
      have h4 := Nat.div_le_div_right (c := 2 ^ (23 - (x.mag / 2 ^ 23 - 127) % 32)) h
      have h5 := Nat.mul_le_mul_right (2 ^ (23 - (x.mag / 2 ^ 23 - 127) % 32)) h4
      rw [mul_comm] at h3
      omega
    · intro h1
      have h8 : x.mag / 2 ^ 23 = 255 := by omega
      rw [h8] at h1 ⊢
      norm_num at h1 ⊢
      omega
  have hmm := mag_pack x.sign hmx
  have hms := sign_pack x.sign hmx
  by_cases hf : m < infMag
  · have hfin : (pack x.sign m).isFinite = true := by rw [isFinite_iff, hmm]; exact hf
    have hv : (2 : ℚ) ^ 32 ≤ mval m := by
      have := (mval_le (a := 159 * 2 ^ 23) (b := m)).2 hm255.1
      rw [mval_pow (k := 159) (by norm_num)] at this
      norm_num at this ⊢; exact this
    rw [hm]
    cases hs : x.sign
    · rw [toI32_sat_hi (hs ▸ hfin)]
      · rfl
      · rw [val_of_pos (by rw [hs] at hms; exact hms)]
        rw [hs] at hmm
        rw [hmm]; exact le_trans (by norm_num) hv
    · rw [toI32_sat_lo (hs ▸ hfin)]
      · rfl
      · rw [val_eq]
        rw [hs] at hmm hms
        rw [hms, hmm, if_pos rfl]
        have : (2 : ℚ) ^ 31 ≤ 2 ^ 32 := by norm_num
        linarith
  · have hme : m = infMag := hm255.2 (by omega)
    rw [hm, hme]
    cases x.sign <;> decide +kernel

/-- The saturating exponent arithmetic of `exp`. -/
def expTail (P : F32) (t : Int) : Res F32 :=
  if max (-2 ^ 31) (min (2 ^ 31 - 1) (P.extractExponentValue + t)) < -127 then .ok ZERO
  else if max (-2 ^ 31) (min (2 ^ 31 - 1) (P.extractExponentValue + t)) > 128 then .ok INFINITY
  else P.setExponent (max (-2 ^ 31) (min (2 ^ 31 - 1) (P.extractExponentValue + t)))

/-- The arguments for which `exp` takes a shortcut. -/
def expSpecial (x : F32) : Prop :=
  x.feq ZERO = true ∨ (x - ONE).abs.lt EPSILON = true ∨ (x - (-ONE)).abs.lt EPSILON = true

theorem exp_general {x : F32} (h : ¬ expSpecial x) :
    x.exp = expTail (((x * LOG2_E).fract * LN_2).expSmallx 4) (x * LOG2_E).trunc.toI32 := by
  unfold expSpecial at h
  push Not at h
  unfold exp expLn2Approx
  rw [if_neg h.1, if_neg h.2.1, if_neg h.2.2]
  rfl

omit [Cfg] in
theorem extractExponentValue_range (x : F32) : -127 ≤ x.extractExponentValue ∧ x.extractExponentValue ≤ 128 := by
  have := mag_lt x
  rw [extractExponentValue_eq]; omega

theorem expTail_hi {P : F32} {t : Int} (ht : 256 ≤ t) (ht2 : t < 2 ^ 31) : expTail P t = .ok INFINITY := by
  have := extractExponentValue_range P
  unfold expTail
  rw [if_neg (by omega), if_pos (by omega)]

theorem expTail_lo {P : F32} {t : Int} (ht : t ≤ -256) (ht2 : -2 ^ 31 ≤ t) : expTail P t = .ok ZERO := by
  have := extractExponentValue_range P
  unfold expTail
  rw [if_pos (by omega)]

omit [Cfg] in
theorem truncQ_intCast (n : Int) : truncQ (n : ℚ) = n := by unfold truncQ; split <;> simp

omit [Cfg] in
theorem abs_intPart_le (Y : ℚ) : |((intPart Y : ℤ) : ℚ)| ≤ |Y| := by
  unfold intPart; split
  · rename_i h0
    rw [abs_of_nonneg h0, abs_of_nonneg (by exact_mod_cast Int.floor_nonneg.2 h0)]; exact Int.floor_le Y
  · rename_i h0
    have h0' : Y ≤ 0 := by linarith
    rw [abs_of_nonpos h0', abs_of_nonpos (by exact_mod_cast Int.ceil_le.2 (by exact_mod_cast h0'))]
    have := Int.le_ceil Y; linarith

/-- The reduction of `exp` for a moderate argument. -/
theorem exp_reduce {x : F32} {Y : ℚ} (hs : ¬ expSpecial x) (hy : IsVal (x * LOG2_E) Y) (hY : |Y| < 2 ^ 31) :
    ∃ P : F32, ∃ G : ℚ, x.exp = expTail P (intPart Y) ∧ P.isFinite = true ∧ P.sign = false ∧
      |P.val - T4Q G| ≤ 1 / 10 ^ 6 ∧ |G - (Y - intPart Y) * LN_2.val| ≤ 1 / 2 ^ 25 ∧ |G| ≤ 69315 / 100000 ∧
      1 / 2 ≤ P.val ∧ P.val < 2 ∧ (0 ≤ Y → 1 ≤ P.val) := by
  obtain ⟨fy, vy⟩ := hy
  have hY32 : |(x * LOG2_E).val| < 2 ^ 32 := by rw [vy]; exact hY.trans (by norm_num)
  obtain ⟨⟨ft, vt⟩, -⟩ := C04_trunc _ hY32
  obtain ⟨⟨ff, vf⟩, -, hf1, -⟩ := C06_fract _ hY32
  rw [vy] at vt vf
  have hfr : |Y - intPart Y| < 1 := by rw [← vf]; exact hf1
  have hk : (x * LOG2_E).trunc.toI32 = intPart Y := by
    have hb := abs_intPart_le Y
    obtain ⟨c1, c2⟩ := abs_lt.1 (lt_of_le_of_lt hb hY)
    rw [toI32_eq ft (by rw [vt]; linarith) (by rw [vt]; exact c2), vt, truncQ_intCast]
  have hL : LN_2.val = 1453635 / 2097152 := val_LN_2
  have hgL : |(Y - intPart Y) * LN_2.val| ≤ 1453635 / 2097152 := by
    rw [abs_mul, hL, abs_of_pos (show (0 : ℚ) < 1453635 / 2097152 by norm_num)]
    have := mul_le_mul_of_nonneg_right hfr.le (show (0 : ℚ) ≤ 1453635 / 2097152 by norm_num)
    linarith
  obtain ⟨d, hd, fg, vg⟩ := mul_err ff fin_LN_2 0 (by norm_num) (by norm_num) (by
    rw [vf]; exact hgL.trans (by norm_num))
  rw [vf] at vg
  norm_num at hd
  have hG : |((x * LOG2_E).fract * LN_2).val| ≤ 69315 / 100000 := by
    rw [vg]
    refine (abs_add_le _ _).trans ((add_le_add hgL hd).trans (by norm_num))
  obtain ⟨fP, eP, gP⟩ := expSmallx_err fg hG
  have hT := T4_facts (g := (((x * LOG2_E).fract * LN_2).val : ℝ)) (by
    have := abs_cast_le hG
    push_cast at this
    norm_num at this ⊢; linarith)
  rw [← T4Q_cast] at hT
  obtain ⟨-, t1, t2⟩ := hT
  have t1' : (5005 / 10000 : ℚ) ≤ T4Q ((x * LOG2_E).fract * LN_2).val := by
    have : ((5005 / 10000 : ℚ) : ℝ) ≤ (T4Q ((x * LOG2_E).fract * LN_2).val : ℚ) := by push_cast; norm_num at t1 ⊢; linarith
    exact_mod_cast this
  have t2' : T4Q ((x * LOG2_E).fract * LN_2).val ≤ (19995 / 10000 : ℚ) := by
    have : ((T4Q ((x * LOG2_E).fract * LN_2).val : ℚ) : ℝ) ≤ (19995 / 10000 : ℚ) := by push_cast; norm_num at t2 ⊢; linarith
    exact_mod_cast this
  obtain ⟨e1, e2⟩ := abs_le.1 eP
  norm_num at e1 e2 t1' t2'
  have hp1 : 1 / 2 ≤ (((x * LOG2_E).fract * LN_2).expSmallx 4).val := by linarith
  refine ⟨_, _, (exp_general hs).trans (by rw [hk]), fP, ?_, eP, ?_, hG, hp1, by linarith, ?_⟩
  · by_contra hc
    have := val_of_neg (x := ((x * LOG2_E).fract * LN_2).expSmallx 4) (by simpa using hc)
    have := mval_nonneg (((x * LOG2_E).fract * LN_2).expSmallx 4).mag
    linarith
  · rw [vg, add_sub_cancel_left]; exact hd.trans (by norm_num)
  · intro h0
    refine gP ?_
    have hi : 0 ≤ Y - intPart Y := by
      unfold intPart; rw [if_pos h0]; have := Int.floor_le Y; linarith
    have b : |((x * LOG2_E).fract).val * LN_2.val| < ovf := by
      rw [vf]; exact lt_of_le_of_lt hgL (by unfold ovf; norm_num)
    rw [(mul_val ff fin_LN_2 b).2, vf]
    exact RN_nonneg (mul_nonneg hi (by rw [hL]; norm_num))

/-! ### the saturated ranges -/

omit [Cfg] in
theorem intPart_le {q : ℚ} {n : Int} (h : q ≤ n) : intPart q ≤ n := by
  unfold intPart
  split
  · rename_i h0
    exact_mod_cast (Int.floor_le q).trans h
  · exact Int.ceil_le.2 h

omit [Cfg] in
theorem le_intPart {q : ℚ} {n : Int} (hn : 0 ≤ n) (h : (n : ℚ) ≤ q) : n ≤ intPart q := by
  have hn' : (0 : ℚ) ≤ n := by exact_mod_cast hn
  unfold intPart
  rw [if_pos (hn'.trans h)]
  exact Int.le_floor.2 h

omit [Cfg] in
/-- `trunc(y) as i32` for a large `y`, infinite and NaN included. -/
theorem trunc_toI32_large {y : F32} (h : 135 * 2 ^ 23 ≤ y.mag) :
    (y.sign = false → 256 ≤ y.trunc.toI32 ∧ y.trunc.toI32 < 2 ^ 31) ∧
      (y.sign = true → y.trunc.toI32 ≤ -256 ∧ -2 ^ 31 ≤ y.trunc.toI32) := by
  by_cases h2 : 159 * 2 ^ 23 ≤ y.mag
  · rw [trunc_toI32_sat h2]
    constructor <;> intro hs <;> rw [hs] <;> norm_num
  · have hb : |y.val| < 2 ^ 32 := by
      have := (lt_pow_iff (x := y) (k := 159) (by norm_num)).2 (by omega)
      norm_num at this ⊢; exact this
    have ha : 256 ≤ |y.val| := by
      have := (pow_le_iff (x := y) (k := 135) (by norm_num)).2 h
      norm_num at this; exact this
    obtain ⟨⟨ft, vt⟩, -⟩ := C04_trunc _ hb
    rw [toI32_finite ft, vt, truncQ_intCast]
    constructor
    · intro hs
      have h0 : y.val = |y.val| := by rw [abs_val, val_of_pos hs]
      have := le_intPart (q := y.val) (n := 256) (by norm_num) (by rw [h0]; exact_mod_cast ha)
      omega
    · intro hs
      have h0 : y.val = -|y.val| := by rw [abs_val, val_of_neg hs]
      have := intPart_le (q := y.val) (n := -256) (by rw [h0]; push_cast; linarith)
      omega

/-- `x * LOG2_E` for large `x`. -/
theorem mul_log2e_large {x : F32} (hx : x.isNaN = false) (h : 135 * 2 ^ 23 ≤ x.mag) :
    (x * LOG2_E).sign = x.sign ∧ 135 * 2 ^ 23 ≤ (x * LOG2_E).mag := by
  have hLs : LOG2_E.sign = false := by decide +kernel
  have hi : infMag = 255 * 2 ^ 23 := by decide
  by_cases hf : x.isFinite = true
  · refine ⟨by rw [sign_mul_finite hf fin_LOG2_E, hLs]; simp, ?_⟩
    by_cases ho : |x.val * LOG2_E.val| < ovf
    · obtain ⟨f, v⟩ := mul_val hf fin_LOG2_E ho
      rw [← pow_le_iff (by norm_num), v, ← RN_abs]
      refine le_RN_of_rep (rep_pow (by norm_num)) ?_
      rw [abs_mul, val_LOG2_E, abs_of_pos (show (0 : ℚ) < 12102203 / 8388608 by norm_num)]
      have := (pow_le_iff (x := x) (by norm_num)).2 h
      refine this.trans ?_
      have := abs_nonneg x.val
      linarith
    · rw [mul_ovf hf fin_LOG2_E (not_lt.1 ho), mag_pack _ infMag_lt]; omega
  · have hm : x.mag = infMag := by
      have h1 : ¬ x.mag < infMag := fun hc => hf (isFinite_iff.2 hc)
      have h2 : ¬ infMag < x.mag := fun hc => by simp [isNaN, hc] at hx
      omega
    have : x = pack x.sign infMag := by rw [← hm, pack_sign_mag]
    rw [this]
    cases x.sign
    · rw [show pack false infMag * LOG2_E = ⟨0x7f800000#32⟩ from eval_eq (n := 0x7f800000) (by kernel_rfl)]; decide
    · rw [show pack true infMag * LOG2_E = ⟨0xff800000#32⟩ from eval_eq (n := 0xff800000) (by kernel_rfl)]; decide

/-! ### the shortcuts -/

/-- What the shortcuts mean. -/
theorem expSpecial_val {x : F32} (hx : x.isFinite = true) (h : expSpecial x) :
    (x.val = 0 ∧ x.exp = .ok ONE) ∨ (|x.val - 1| < 1 / 2 ^ 23 ∧ x.exp = .ok E) ∨
      (|x.val + 1| < 1 / 2 ^ 23 ∧ x.exp = .ok (ONE / E)) := by
  have key : ∀ c : F32, c.isFinite = true → |c.val| = 1 → (x - c).abs.lt EPSILON = true → |x.val - c.val| < 1 / 2 ^ 23 := by
    intro c hc hc1 hlt
    by_contra hge
    rw [not_lt] at hge
    by_cases ho : |x.val - c.val| < ovf
    · obtain ⟨f, v⟩ := sub_val hx hc ho
      rw [lt_iff (by simpa using f) fin_EPSILON, val_abs, v, ← RN_abs, val_EPSILON] at hlt
      have := le_RN_of_rep (c := 1 / 2 ^ 23) (q := |x.val - c.val|) (by
        have := rep_pow (e := -23) (by norm_num); norm_num at this ⊢; exact this) hge
      norm_num at this hlt
      linarith
    · have h1 := abs_val_le_maxF hx
      have h2 : |x.val - c.val| ≤ |x.val| + |c.val| := abs_sub _ _
      have : (1 : ℚ) + maxF < ovf := by unfold maxF ovf; norm_num
      rw [hc1] at h2
      linarith
  unfold exp expLn2Approx
  by_cases h0 : x.feq ZERO = true
  · exact .inl ⟨by have := (feq_iff hx (by decide)).1 h0; rw [this]; exact val_posZero, if_pos h0⟩
  rw [if_neg h0]
  by_cases h1 : (x - ONE).abs.lt EPSILON = true
  · refine .inr (.inl ⟨?_, if_pos h1⟩)
    have := key ONE fin_one (by rw [show ONE.val = 1 from val_one, abs_one]) h1
    rwa [show ONE.val = 1 from val_one] at this
  rw [if_neg h1]
  by_cases h2 : (x - (-ONE)).abs.lt EPSILON = true
  · refine .inr (.inr ⟨?_, if_pos h2⟩)
    have := key (-ONE) (by decide) (by rw [val_neg, show ONE.val = 1 from val_one, abs_neg, abs_one]) h2
    rwa [val_neg, show ONE.val = 1 from val_one, sub_neg_eq_add] at this
  · exact absurd h (by unfold expSpecial; tauto)

/-! ### theorems -/

omit [Cfg] in
theorem intPart_zero_le_lt {Y : ℚ} {n : Int} (h0 : 0 ≤ Y) (h : Y < n) : intPart Y < n := by
  unfold intPart; rw [if_pos h0]; exact Int.floor_lt.2 h

omit [Cfg] in
theorem lt_intPart {Y : ℚ} {n : Int} (h0 : Y ≤ 0) (h : n < Y) : n < intPart Y := by
  unfold intPart
  split
  · rename_i h1
    have : Y = 0 := le_antisymm h0 h1
    subst this
    rw [Int.floor_zero]; exact_mod_cast h
  · exact Int.lt_ceil.2 h

omit [Cfg] in
/-- The exponent of the polynomial. -/
theorem exp_poly_exponent {P : F32} (h1 : 1 / 2 ≤ P.val) (h2 : P.val < 2) :
    1 ≤ P.mag / 2 ^ 23 ∧ (P.extractExponentValue = 0 ∧ 1 ≤ P.val ∨ P.extractExponentValue = -1 ∧ P.val < 1) := by
  have ha : |P.val| = P.val := abs_of_nonneg (by linarith)
  have h3 : (1 : ℚ) / 2 ^ 126 ≤ |P.val| := by rw [ha]; refine le_trans ?_ h1; norm_num
  refine ⟨(exp_field h3).1, ?_⟩
  rw [extractExponentValue_eq]
  rcases le_or_gt 1 P.val with h | h
  · left; exact ⟨exp_field_eq (by norm_num) (by rw [ha]; simpa using h) (by rw [ha]; simpa using h2), h⟩
  · right; exact ⟨exp_field_eq (by norm_num) (by rw [ha]; norm_num at h1 ⊢; exact h1) (by rw [ha]; simpa using h), h⟩

/-- `exp` of a number for which the result is a normal float. -/
theorem exp_main {x : F32} {Y : ℚ} (hs : ¬ expSpecial x) (hy : IsVal (x * LOG2_E) Y) (h1 : -126 < Y) (h2 : Y < 128) :
    ∃ r : F32, ∃ G P : ℚ, x.exp = .ok r ∧ IsVal r (P * 2 ^ intPart Y) ∧ |P - T4Q G| ≤ 1 / 10 ^ 6 ∧
      |G - (Y - intPart Y) * LN_2.val| ≤ 1 / 2 ^ 25 ∧ |G| ≤ 69315 / 100000 := by
  obtain ⟨P, G, e, fP, sP, eP, eG, bG, p1, p2, p3⟩ := exp_reduce hs hy (by rw [abs_lt]; constructor <;> linarith)
  obtain ⟨m1, hee⟩ := exp_poly_exponent p1 p2
  have hk : -126 ≤ P.extractExponentValue + intPart Y ∧ P.extractExponentValue + intPart Y ≤ 127 := by
    rcases le_or_gt 0 Y with h0 | h0
    · have a1 := le_intPart (q := Y) (n := 0) le_rfl (by exact_mod_cast h0)
      have a2 := intPart_zero_le_lt (n := 128) h0 (by exact_mod_cast h2)
      rcases hee with ⟨q, -⟩ | ⟨q, q2⟩
      · omega
      · exact absurd (p3 h0) (not_le.2 q2)
    · have a1 := lt_intPart (n := -126) h0.le (by push_cast; exact h1)
      have a2 := intPart_le (q := Y) (n := 0) (by push_cast; linarith)
      omega
  have he : max (-2 ^ 31) (min (2 ^ 31 - 1) (P.extractExponentValue + intPart Y)) = P.extractExponentValue + intPart Y := by
    omega
  refine ⟨pack P.sign ((P.extractExponentValue + intPart Y + 127).toNat * 2 ^ 23 + P.mag % 2 ^ 23), G, P.val, ?_, ?_,
    eP, eG, bG⟩
  · rw [e, expTail, he, if_neg (by omega), if_neg (by omega), setExponent_ok P (by omega) hk.2]
  · have h := pack_exponent_val (x := P) (e := P.extractExponentValue + intPart Y) sP m1 hk.1 hk.2
    rwa [← extractExponentValue_eq, add_sub_cancel_left] at h

/-- **C28.** `exp` has relative error at most 0.003 wherever its result is a normal float. -/
theorem C28_exp (x : F32) (hx : x.isFinite = true) (h1 : -87.3 ≤ x.val) (h2 : x.val ≤ 88.7) :
    ∃ r, x.exp = .ok r ∧ r.isFinite = true ∧ |(r.val : ℝ) - Real.exp x.val| ≤ 0.003 * Real.exp x.val := by
  have hl1 := Real.log_two_gt_d9
  have hl2 := Real.log_two_lt_d9
  by_cases hs : expSpecial x
  · have e1 := Real.exp_one_gt_d9
    have e2 := Real.exp_one_lt_d9
    rcases expSpecial_val hx hs with ⟨hv, he⟩ | ⟨hv, he⟩ | ⟨hv, he⟩
    · refine ⟨_, he, fin_one, ?_⟩
      rw [hv, show ONE.val = 1 from val_one]; norm_num
    · refine ⟨_, he, fin_E, ?_⟩
      have hv' := abs_cast_le hv.le
      push_cast at hv'
      have := exp_scale (x := x.val) (g := 1) (P := (E.val : ℝ)) (k := 0) (by
        norm_num at hv' ⊢; linarith) (by
        rw [val_E, abs_le]; push_cast; constructor <;> linarith)
      simpa using this
    · have hq : ONE / E = ⟨0x3ebc5ab2#32⟩ := eval_eq (n := 0x3ebc5ab2) (by kernel_rfl)
      rw [hq] at he
      have hv0 : (⟨0x3ebc5ab2#32⟩ : F32).val = 6171993 / 16777216 := by
        rw [val_of_units (u := 6171993 * 2 ^ 125) (by decide +kernel)]; norm_num
      refine ⟨_, he, by decide, ?_⟩
      have hv' := abs_cast_le hv.le
      push_cast at hv'
      have hem : Real.exp (-1) * Real.exp 1 = 1 := by rw [← Real.exp_add]; simp
      have hep := Real.exp_pos (-1)
      have l1 : 0.36787 ≤ Real.exp (-1) := by nlinarith
      have l2 : Real.exp (-1) ≤ 0.36788 := by nlinarith
      have := exp_scale (x := x.val) (g := -1) (P := ((6171993 / 16777216 : ℚ) : ℝ)) (k := 0) (by
        norm_num at hv' ⊢; linarith) (by
        rw [abs_le]; push_cast; constructor <;> norm_num at l1 l2 ⊢ <;> linarith)
      rw [hv0]
      simpa using this
  · obtain ⟨d, hd, fy, vy⟩ := mul_err hx fin_LOG2_E 7 (by norm_num) (by norm_num) (by
      rw [val_LOG2_E, abs_le]; norm_num at h1 h2 ⊢; constructor <;> linarith)
    rw [val_LOG2_E] at vy
    norm_num at hd h1 h2
    obtain ⟨hd1, hd2⟩ := abs_le.1 hd
    obtain ⟨r, G, P, he, ⟨fr, vr⟩, eP, eG, bG⟩ := exp_main hs ⟨fy, vy⟩ (by linarith) (by linarith)
    refine ⟨r, he, fr, ?_⟩
    rw [vr]
    push_cast
    obtain ⟨k, hk⟩ : ∃ k, k = intPart (x.val * (12102203 / 8388608) + d) := ⟨_, rfl⟩
    rw [← hk] at eG ⊢
    have bG' : |(G : ℝ)| ≤ 0.69316 := by
      have := abs_cast_le bG; push_cast at this; norm_num at this ⊢; linarith
    obtain ⟨t1, t2, t3⟩ := T4_facts bG'
    have eP' := abs_cast_le eP
    push_cast at eP'
    rw [T4Q_cast] at eP'
    have eG' := abs_cast_le eG
    rw [val_LN_2] at eG'
    push_cast at eG'
    refine exp_scale (g := G) ?_ ?_
    · have hkb : |(k : ℝ)| ≤ 129 := by
        have := (abs_intPart_le (x.val * (12102203 / 8388608) + d)).trans (show _ ≤ (129 : ℚ) by
          rw [abs_le]; constructor <;> linarith)
        rw [← hk] at this
        have := abs_cast_le this
        push_cast at this; exact this
      have hd' := abs_cast_le hd
      push_cast at hd'
      obtain ⟨d', hd'e⟩ : ∃ d' : ℝ, d' = d := ⟨_, rfl⟩
      obtain ⟨x', hx'e⟩ : ∃ x' : ℝ, x' = x.val := ⟨_, rfl⟩
      have hx1 : |x'| ≤ 89 := by
        rw [hx'e]
        have := abs_cast_le (a := x.val) (b := 89) (by rw [abs_le]; constructor <;> linarith)
        push_cast at this; exact this
      rw [← hx'e, ← hd'e] at eG'
      rw [← hd'e] at hd'
      rw [← hx'e]
      rw [show x' - (G + k * Real.log 2) = x' * (1 - 12102203 / 8388608 * (1453635 / 2097152)) - d' * (1453635 / 2097152)
        - (G - (x' * (12102203 / 8388608) + d' - k) * (1453635 / 2097152)) - k * (Real.log 2 - 1453635 / 2097152) by ring]
      have m1 : |x' * (1 - 12102203 / 8388608 * (1453635 / 2097152))| ≤ 89 * (2 / 10 ^ 8) := by
        rw [abs_mul]; exact mul_le_mul hx1 (by rw [abs_le]; constructor <;> norm_num) (abs_nonneg _) (by norm_num)
      have m2 : |d' * (1453635 / 2097152)| ≤ 1 / 262144 * 1 := by
        rw [abs_mul]; exact mul_le_mul hd' (by rw [abs_le]; constructor <;> norm_num) (abs_nonneg _) (by norm_num)
      have m3 : |k * (Real.log 2 - 1453635 / 2097152)| ≤ 129 * (1 / 10 ^ 8) := by
        rw [abs_mul]
        exact mul_le_mul hkb (by rw [abs_le]; constructor <;> norm_num at hl1 hl2 ⊢ <;> linarith) (abs_nonneg _) (by norm_num)
      refine (abs_sub _ _).trans ((add_le_add (abs_sub _ _) le_rfl).trans
        ((add_le_add (add_le_add (abs_sub _ _) le_rfl) le_rfl).trans ?_))
      norm_num at m1 m2 m3 eG' ⊢
      linarith
    · have hp := Real.exp_pos (G : ℝ)
      rw [show (P : ℝ) - Real.exp G = (P - T4 G) + (T4 G - Real.exp G) by ring]
      refine (abs_add_le _ _).trans ?_
      have := (abs_le.1 t1).2
      norm_num at eP' t1 t2 this ⊢
      linarith

/-- `C28_exp` applies at 10: the result is within 0.3% of `e^10`. -/
example : ∃ r, (ofInt 10).exp = .ok r ∧ r.isFinite = true ∧ |(r.val : ℝ) - Real.exp 10| ≤ 0.003 * Real.exp 10 := by
  obtain ⟨f, v⟩ := ofInt_isVal (n := 10) (by decide)
  have h := C28_exp (ofInt 10) f (by rw [v]; norm_num) (by rw [v]; norm_num)
  rw [v] at h
  simpa using h

omit [Cfg] in
/-- A float below a positive float is at most its predecessor. -/
theorem val_le_pred {x c p : F32} (hc : c.sign = false) (hp : p.sign = false) (hm : c.mag = p.mag + 1) (h : x.val < c.val) :
    x.val ≤ p.val := by
  have h0 := mval_nonneg p.mag
  rw [val_of_pos hp]
  rw [val_of_pos hc, hm] at h
  cases hs : x.sign
  · rw [val_of_pos hs] at h ⊢
    rw [mval_lt] at h
    rw [mval_le]; omega
  · rw [val_of_neg hs]
    have := mval_nonneg x.mag
    linarith

/-- `x * LOG2_E` on either side of a threshold. -/
theorem mul_log2e_threshold {x c p cy py : F32} {t : ℚ} (hc : c.sign = false) (hp : p.sign = false)
    (hm : c.mag = p.mag + 1) (fc : c.isFinite = true) (fp : p.isFinite = true) (cb : |c.val| ≤ 256) (pb : |p.val| ≤ 256)
    (ec : c * LOG2_E = cy) (ep : p * LOG2_E = py) (vc : cy.val = t) (vp : py.val < t) :
    c.val ≤ x.val ↔ t ≤ RN (x.val * LOG2_E.val) := by
  have hL : (0 : ℚ) ≤ LOG2_E.val := by rw [val_LOG2_E]; norm_num
  have hov : ∀ q : ℚ, |q| ≤ 256 → |q * LOG2_E.val| < ovf := by
    intro q hq
    rw [abs_mul, val_LOG2_E, abs_of_pos (show (0 : ℚ) < 12102203 / 8388608 by norm_num)]
    refine lt_of_le_of_lt (mul_le_mul_of_nonneg_right hq (by norm_num)) (by unfold ovf; norm_num)
  have v1 := (mul_val fc fin_LOG2_E (hov _ cb)).2
  have v2 := (mul_val fp fin_LOG2_E (hov _ pb)).2
  rw [ec, vc] at v1
  rw [ep] at v2
  constructor
  · intro h
    rw [v1]; exact RN_mono (mul_le_mul_of_nonneg_right h hL)
  · intro h
    by_contra hlt
    have := RN_mono (mul_le_mul_of_nonneg_right (val_le_pred hc hp hm (not_le.1 hlt)) hL)
    rw [← v2] at this
    linarith

theorem exp_threshold_128 (x : F32) : 1453635 / 16384 ≤ x.val ↔ 128 ≤ RN (x.val * LOG2_E.val) := by
  have vc : (⟨0x42b17218#32⟩ : F32).val = 1453635 / 16384 := by
    rw [val_of_units (u := 1453635 * 2 ^ 135) (by decide +kernel)]; norm_num
  have vp : (⟨0x42b17217#32⟩ : F32).val = 11629079 / 131072 := by
    rw [val_of_units (u := 11629079 * 2 ^ 132) (by decide +kernel)]; norm_num
  have vcy : (⟨0x43000000#32⟩ : F32).val = 128 := by
    rw [val_of_units (u := 128 * 2 ^ 149) (by decide +kernel)]; norm_num
  have vpy : (⟨0x42fffffe#32⟩ : F32).val = 8388607 / 65536 := by
    rw [val_of_units (u := 8388607 * 2 ^ 133) (by decide +kernel)]; norm_num
  rw [← vc]
  exact mul_log2e_threshold (p := ⟨0x42b17217#32⟩) (by decide) (by decide) (by decide) (by decide) (by decide)
    (by rw [vc, abs_of_pos] <;> norm_num) (by rw [vp, abs_of_pos] <;> norm_num)
    (eval_eq (n := 0x43000000) (by kernel_rfl)) (eval_eq (n := 0x42fffffe) (by kernel_rfl)) vcy (by rw [vpy]; norm_num)

theorem exp_threshold_129 (x : F32) : 2929983 / 32768 ≤ x.val ↔ 129 ≤ RN (x.val * LOG2_E.val) := by
  have vc : (⟨0x42b2d4fc#32⟩ : F32).val = 2929983 / 32768 := by
    rw [val_of_units (u := 2929983 * 2 ^ 134) (by decide +kernel)]; norm_num
  have vp : (⟨0x42b2d4fb#32⟩ : F32).val = 11719931 / 131072 := by
    rw [val_of_units (u := 11719931 * 2 ^ 132) (by decide +kernel)]; norm_num
  have vcy : (⟨0x43010000#32⟩ : F32).val = 129 := by
    rw [val_of_units (u := 129 * 2 ^ 149) (by decide +kernel)]; norm_num
  have vpy : (⟨0x4300ffff#32⟩ : F32).val = 8454143 / 65536 := by
    rw [val_of_units (u := 8454143 * 2 ^ 133) (by decide +kernel)]; norm_num
  rw [← vc]
  exact mul_log2e_threshold (p := ⟨0x42b2d4fb#32⟩) (by decide) (by decide) (by decide) (by decide) (by decide)
    (by rw [vc, abs_of_pos] <;> norm_num) (by rw [vp, abs_of_pos] <;> norm_num)
    (eval_eq (n := 0x43010000) (by kernel_rfl)) (eval_eq (n := 0x4300ffff) (by kernel_rfl)) vcy (by rw [vpy]; norm_num)

/-- Infinities and NaN take no shortcut. -/
theorem not_expSpecial_of_not_finite {x : F32} (hx : x.isFinite = false) : ¬ expSpecial x := by
  unfold expSpecial
  by_cases hn : x.isNaN = true
  · have h1 : (x - ONE).isNaN = true := sub_nan (.inl hn)
    have h2 : (x - (-ONE)).isNaN = true := sub_nan (.inl hn)
    rw [feq_nan_left hn, lt_nan_left (by simpa using h1), lt_nan_left (by simpa using h2)]
    simp
  · have hm : x.mag = infMag := by
      have h1 : ¬ x.mag < infMag := fun hc => by rw [isFinite_iff.2 hc] at hx; cases hx
      have h2 : ¬ infMag < x.mag := fun hc => hn (by simp [isNaN, hc])
      omega
    have : x = pack x.sign infMag := by rw [← hm, pack_sign_mag]
    rw [this]
    cases x.sign
    · rw [show pack false infMag - ONE = ⟨0x7f800000#32⟩ from eval_eq (n := 0x7f800000) (by kernel_rfl),
        show pack false infMag - (-ONE) = ⟨0x7f800000#32⟩ from eval_eq (n := 0x7f800000) (by kernel_rfl)]
      decide
    · rw [show pack true infMag - ONE = ⟨0xff800000#32⟩ from eval_eq (n := 0xff800000) (by kernel_rfl),
        show pack true infMag - (-ONE) = ⟨0xff800000#32⟩ from eval_eq (n := 0xff800000) (by kernel_rfl)]
      decide

/-- **C27.** `exp(±0) = 1`. -/
theorem C27_exp_zero (x : F32) (hx : x.isFinite = true) (h : x.val = 0) : x.exp = .ok one := by
  have h1 : x.feq ZERO = true := (feq_iff hx (by decide)).2 (by rw [h]; exact val_posZero.symm)
  unfold exp expLn2Approx
  rw [if_pos h1]; rfl

/-- Large arguments are saturated whatever the polynomial gives. -/
theorem exp_huge {x : F32} (hx : x.isNaN = false) (h : 135 * 2 ^ 23 ≤ x.mag) :
    x.exp = .ok (if x.sign then posZero else posInf) := by
  have hns : ¬ expSpecial x := by
    by_cases hf : x.isFinite = true
    · intro hs
      have h1 := (pow_le_iff (x := x) (k := 135) (by norm_num)).2 h
      have h2 : |x.val| < 2 := by
        rcases expSpecial_val hf hs with ⟨h3, -⟩ | ⟨h3, -⟩ | ⟨h3, -⟩
        · rw [h3]; norm_num
        · rw [abs_lt] at h3 ⊢; norm_num at h3 ⊢; constructor <;> linarith [h3.1, h3.2]
        · rw [abs_lt] at h3 ⊢; norm_num at h3 ⊢; constructor <;> linarith [h3.1, h3.2]
      norm_num at h1; linarith
    · exact not_expSpecial_of_not_finite (by simpa using hf)
  obtain ⟨s, m⟩ := mul_log2e_large hx h
  have ht := trunc_toI32_large m
  rw [s] at ht
  rw [exp_general hns]
  cases hs : x.sign
  · exact expTail_hi (ht.1 hs).1 (ht.1 hs).2
  · exact expTail_lo (ht.2 hs).1 (ht.2 hs).2

/-- `exp` for moderate arguments without a shortcut. -/
theorem exp_mid {x : F32} (hx : x.isFinite = true) (hm : x.mag < 135 * 2 ^ 23) (hs : ¬ expSpecial x) :
    ∃ P : F32, ∃ Y : ℚ, Y = RN (x.val * LOG2_E.val) ∧ x.exp = expTail P (intPart Y) ∧ P.sign = false ∧ |Y| < 512 ∧
      (P.extractExponentValue = 0 ∨ P.extractExponentValue = -1 ∧ Y < 0) := by
  have hb : |x.val| < 256 := by
    have := (lt_pow_iff (x := x) (k := 135) (by norm_num)).2 hm
    norm_num at this; exact this
  have hq : |x.val * LOG2_E.val| ≤ 511 := by
    rw [abs_mul, val_LOG2_E, abs_of_pos (show (0 : ℚ) < 12102203 / 8388608 by norm_num)]
    have := mul_le_mul_of_nonneg_right hb.le (show (0 : ℚ) ≤ 12102203 / 8388608 by norm_num)
    linarith
  have hy := mul_val hx fin_LOG2_E (lt_of_le_of_lt hq (by unfold ovf; norm_num))
  have hY : |RN (x.val * LOG2_E.val)| < 512 := by
    refine lt_of_le_of_lt (abs_RN_le_of_rep (c := 511) ?_ hq) (by norm_num)
    simpa using rep_int (m := 511) (by norm_num)
  obtain ⟨P, G, e, fP, sP, eP, eG, bG, p1, p2, p3⟩ := exp_reduce hs hy (hY.trans (by norm_num))
  refine ⟨P, _, rfl, e, sP, hY, ?_⟩
  obtain ⟨-, h | ⟨h, h'⟩⟩ := exp_poly_exponent p1 p2
  · exact .inl h.1
  · refine .inr ⟨h, ?_⟩
    by_contra h0
    have := p3 (not_lt.1 h0)
    linarith

omit [Cfg] in
theorem abs_intPart_lt {Y : ℚ} (h : |Y| < 512) : -512 < intPart Y ∧ intPart Y < 512 := by
  have := lt_of_le_of_lt (abs_intPart_le Y) h
  rw [abs_lt] at this
  exact ⟨by exact_mod_cast this.1, by exact_mod_cast this.2⟩

/-- Every call of `exp` on a finite float without a shortcut: the three outcomes. -/
theorem exp_mid_cases {x : F32} (hx : x.isFinite = true) (hm : x.mag < 135 * 2 ^ 23) (hs : ¬ expSpecial x) :
    ∃ P : F32, ∃ Y : ℚ, Y = RN (x.val * LOG2_E.val) ∧ P.sign = false ∧
      ((Y ≤ -127 ∧ x.exp = .ok ZERO) ∨
       (-128 < Y ∧ Y < 128 ∧ ∃ n : Nat, n ≤ 254 ∧ (Y ≤ -127 → n = 0) ∧ (Y ≤ -126 → n ≤ 1) ∧
          x.exp = .ok (pack false (n * 2 ^ 23 + P.mag % 2 ^ 23))) ∨
       (128 ≤ Y ∧ Y < 129 ∧ x.exp = P.setExponent 128) ∨ (129 ≤ Y ∧ x.exp = .ok INFINITY)) := by
  obtain ⟨P, Y, hY, e, sP, bY, hP⟩ := exp_mid hx hm hs
  refine ⟨P, Y, hY, sP, ?_⟩
  obtain ⟨k1, k2⟩ := abs_intPart_lt bY
  have hcl : max (-2 ^ 31) (min (2 ^ 31 - 1) (P.extractExponentValue + intPart Y)) = P.extractExponentValue + intPart Y := by
    have := extractExponentValue_range P; omega
  rw [expTail, hcl] at e
  rcases le_or_gt 0 Y with h0 | h0
  · have hP0 : P.extractExponentValue = 0 := by
      rcases hP with h | ⟨-, h⟩
      · exact h
      · linarith
    rw [hP0, zero_add] at e
    have a1 := le_intPart (q := Y) (n := 0) le_rfl (by exact_mod_cast h0)
    rw [if_neg (by omega)] at e
    by_cases h1 : Y < 128
    · have a2 := intPart_zero_le_lt (n := 128) h0 (by exact_mod_cast h1)
      refine .inr (.inl ⟨by linarith, h1, (intPart Y + 127).toNat, by omega, fun h => by linarith, fun h => by linarith, ?_⟩)
      rw [e, if_neg (by omega), setExponent_ok P (by omega) (by omega), sP]
    · have a2 := le_intPart (q := Y) (n := 128) (by norm_num) (by push_cast; linarith)
      by_cases h2 : Y < 129
      · have a3 := intPart_zero_le_lt (n := 129) h0 (by exact_mod_cast h2)
        refine .inr (.inr (.inl ⟨not_lt.1 h1, h2, ?_⟩))
        rw [e, if_neg (by omega), show intPart Y = 128 by omega]
      · have a3 := le_intPart (q := Y) (n := 129) (by norm_num) (by push_cast; linarith)
        exact .inr (.inr (.inr ⟨not_lt.1 h2, by rw [e, if_pos (by omega)]⟩))
  · have a1 := intPart_le (q := Y) (n := 0) (by push_cast; linarith)
    by_cases hlt : P.extractExponentValue + intPart Y < -127
    · rw [if_pos hlt] at e
      refine .inl ⟨?_, e⟩
      by_contra hc
      have := lt_intPart (n := -127) h0.le (by push_cast; exact not_le.1 hc)
      omega
    · rw [if_neg hlt, if_neg (by omega), setExponent_ok P (by omega) (by omega), sP] at e
      refine .inr (.inl ⟨?_, by linarith, (P.extractExponentValue + intPart Y + 127).toNat, by omega, ?_, ?_, e⟩)
      · by_contra hc
        have := intPart_le (q := Y) (n := -128) (by push_cast; linarith)
        omega
      · intro h
        have := intPart_le (q := Y) (n := -127) (by push_cast; linarith)
        omega
      · intro h
        have := intPart_le (q := Y) (n := -126) (by push_cast; linarith)
        omega

/-- A float outside `[-2, 2]` takes no shortcut. -/
theorem not_expSpecial_of_two {x : F32} (hx : x.isFinite = true) (h : 2 ≤ |x.val|) : ¬ expSpecial x := by
  intro hs
  have h2 : |x.val| < 2 := by
    rcases expSpecial_val hx hs with ⟨h3, -⟩ | ⟨h3, -⟩ | ⟨h3, -⟩
    · rw [h3]; norm_num
    · rw [abs_lt] at h3 ⊢; norm_num at h3 ⊢; constructor <;> linarith [h3.1, h3.2]
    · rw [abs_lt] at h3 ⊢; norm_num at h3 ⊢; constructor <;> linarith [h3.1, h3.2]
  linarith

omit [Cfg] in
theorem not_finite_eq {x : F32} (hx : x.isFinite = false) (hn : x.isNaN = false) : x = if x.sign then negInf else posInf := by
  have hm : x.mag = infMag := by
    have h1 : ¬ x.mag < infMag := fun hc => by rw [isFinite_iff.2 hc] at hx; cases hx
    have h2 : ¬ infMag < x.mag := fun hc => by simp [isNaN, hc] at hn
    omega
  have : x = pack x.sign infMag := by rw [← hm, pack_sign_mag]
  conv_lhs => rw [this]
  cases x.sign <;> rfl

omit [Cfg] in
theorem sign_of_pos {x : F32} (h : 0 < x.val) : x.sign = false := by
  cases hs : x.sign
  · rfl
  · rw [val_of_neg hs] at h; have := mval_nonneg x.mag; linarith

omit [Cfg] in
theorem sign_of_neg {x : F32} (h : x.val < 0) : x.sign = true := by
  cases hs : x.sign
  · rw [val_of_pos hs] at h; have := mval_nonneg x.mag; linarith
  · rfl

/-- **C27.** `exp(x) = +inf` from 89.41599 on, and for `+inf`. -/
theorem C27_exp_overflow (x : F32) (h : x = posInf ∨ x.isFinite = true ∧ 2929983 / 32768 ≤ x.val) : x.exp = .ok posInf := by
  rcases h with h | ⟨hx, h⟩
  · subst h; exact exp_huge (by decide) (by decide)
  · by_cases hm : 135 * 2 ^ 23 ≤ x.mag
    · rw [exp_huge (not_nan_of_finite hx) hm, sign_of_pos (by linarith)]; rfl
    · have h2 : 2 ≤ |x.val| := by rw [abs_of_pos (by linarith)]; linarith
      obtain ⟨P, Y, hY, -, hc⟩ := exp_mid_cases hx (by omega) (not_expSpecial_of_two hx h2)
      have hy := (exp_threshold_129 x).1 h
      rw [← hY] at hy
      rcases hc with ⟨c, -⟩ | ⟨-, c, -⟩ | ⟨-, c, -⟩ | ⟨-, e⟩
      · linarith
      · linarith
      · linarith
      · exact e

/-- **C27.** `exp(x) = 0` up to -89, and for `-inf`. -/
theorem C27_exp_underflow (x : F32) (h : x = negInf ∨ x.isFinite = true ∧ x.val ≤ -89) : x.exp = .ok posZero := by
  rcases h with h | ⟨hx, h⟩
  · subst h; exact exp_huge (by decide) (by decide)
  · by_cases hm : 135 * 2 ^ 23 ≤ x.mag
    · rw [exp_huge (not_nan_of_finite hx) hm, sign_of_neg (by linarith)]; rfl
    · have h2 : 2 ≤ |x.val| := by rw [abs_of_neg (by linarith)]; linarith
      obtain ⟨P, Y, hY, -, hc⟩ := exp_mid_cases hx (by omega) (not_expSpecial_of_two hx h2)
      have hy : Y ≤ -128 := by
        rw [hY]
        refine RN_le_of_rep (by simpa using rep_int (m := -128) (by norm_num)) ?_
        rw [val_LOG2_E]; linarith
      rcases hc with ⟨-, e⟩ | ⟨c, -⟩ | ⟨c, -⟩ | ⟨c, -⟩
      · exact e
      all_goals linarith

/-- **C27.** Between -89 and -87.34 the result is not accurate any more, but it is a finite number in `[0, 2^-125)`. -/
theorem C27_exp_tiny (x : F32) (hx : x.isFinite = true) (h : x.val ≤ -87.34) :
    ∃ r, x.exp = .ok r ∧ r.isFinite = true ∧ 0 ≤ r.val ∧ r.val < 1 / 2 ^ 125 := by
  norm_num only at h
  by_cases hm : 135 * 2 ^ 23 ≤ x.mag
  · rw [exp_huge (not_nan_of_finite hx) hm, sign_of_neg (by linarith)]
    exact ⟨posZero, rfl, by decide, by rw [val_posZero], by rw [val_posZero]; norm_num⟩
  · have h2 : 2 ≤ |x.val| := by rw [abs_of_neg (by linarith)]; linarith
    obtain ⟨P, Y, hY, -, hc⟩ := exp_mid_cases hx (by omega) (not_expSpecial_of_two hx h2)
    have hy : Y ≤ -126 := by
      rw [hY]
      refine RN_le_of_rep (by simpa using rep_int (m := -126) (by norm_num)) ?_
      rw [val_LOG2_E]; linarith
    rcases hc with ⟨-, e⟩ | ⟨-, -, n, -, -, hn, e⟩ | ⟨c, -⟩ | ⟨c, -⟩
    · exact ⟨_, e, by decide, val_posZero.ge, by rw [show ZERO.val = 0 from val_posZero]; norm_num⟩
    · have hr : P.mag % 2 ^ 23 < 2 ^ 23 := Nat.mod_lt _ (by norm_num)
      have hn1 := hn hy
      have hlt : n * 2 ^ 23 + P.mag % 2 ^ 23 < 2 ^ 31 := by omega
      have hi : infMag = 255 * 2 ^ 23 := by decide
      refine ⟨_, e, by rw [isFinite_iff, mag_pack _ hlt]; omega, ?_, ?_⟩
      · rw [val_of_pos (sign_pack _ hlt)]; exact mval_nonneg _
      · have := (lt_pow_iff (x := pack false (n * 2 ^ 23 + P.mag % 2 ^ 23)) (k := 2) (by norm_num)).2 (by
          rw [mag_pack _ hlt]; omega)
        refine lt_of_le_of_lt (le_abs_self _) (lt_of_lt_of_eq this (by norm_num))
    all_goals linarith

/-- **C27.** In the gap just below 89.41599 the assertion in `set_exponent` fails; without debug assertions the result
is an infinity or NaN. -/
theorem C27_exp_gap (x : F32) (hx : x.isFinite = true) (h1 : 1453635 / 16384 ≤ x.val) (h2 : x.val < 2929983 / 32768) :
    (Cfg.debugAssertions = true → x.exp = .error .assertFailed) ∧
      (Cfg.debugAssertions = false → ∃ r, x.exp = .ok r ∧ r.isFinite = false ∧ r.isSignNegative = false) := by
  have hm : ¬ 135 * 2 ^ 23 ≤ x.mag := by
    rw [← pow_le_iff (by norm_num), abs_of_pos (by linarith)]; norm_num; linarith
  have h3 : 2 ≤ |x.val| := by rw [abs_of_pos (by linarith)]; linarith
  obtain ⟨P, Y, hY, sP, hc⟩ := exp_mid_cases hx (by omega) (not_expSpecial_of_two hx h3)
  have hy1 := (exp_threshold_128 x).1 h1
  have hy2 := mt (exp_threshold_129 x).2 (not_le.2 h2)
  rw [← hY] at hy1 hy2
  rcases hc with ⟨c, -⟩ | ⟨-, c, -⟩ | ⟨-, -, e⟩ | ⟨c, -⟩
  · linarith
  · linarith
  · rw [e, setExponent_128]
    constructor
    · intro hd; rw [if_pos hd]
    · intro hd
      rw [if_neg (by rw [hd]; simp)]
      have hr : P.mag % 2 ^ 23 < 2 ^ 23 := Nat.mod_lt _ (by norm_num)
      have hi : infMag = 255 * 2 ^ 23 := by decide
      have hlt : 255 * 2 ^ 23 + P.mag % 2 ^ 23 < 2 ^ 31 := by omega
      refine ⟨_, rfl, ?_, ?_⟩
      · rw [isFinite, mag_pack _ hlt]; simp; omega
      · rw [isSignNegative, sign_pack _ hlt, sP]
  · linarith

/-- **C27, the NaN part is false for every NaN**: `exp(NaN)` is `+inf` or zero, depending on the sign of the NaN that
the multiplication produces. -/
theorem C27_exp_nan_false (x : F32) (h : x.isNaN = true) : x.exp = .ok posInf ∨ x.exp = .ok posZero := by
  have hf : x.isFinite = false := by
    by_contra hc; rw [Bool.not_eq_false] at hc; rw [not_nan_of_finite hc] at h; cases h
  have hm : infMag < (x * LOG2_E).mag := by simpa [isNaN] using mul_nan (y := LOG2_E) (.inl h)
  have hi : infMag = 255 * 2 ^ 23 := by decide
  have ht := trunc_toI32_large (y := x * LOG2_E) (by omega)
  rw [exp_general (not_expSpecial_of_not_finite hf)]
  cases hs : (x * LOG2_E).sign
  · exact .inl (expTail_hi (ht.1 hs).1 (ht.1 hs).2)
  · exact .inr (expTail_lo (ht.2 hs).1 (ht.2 hs).2)

/-- **C27, exactly when `exp` panics**: with debug assertions, between 88.72284 and 89.41598. -/
theorem C27_exp_panics_iff (x : F32) :
    Fails x.exp ↔ Cfg.debugAssertions = true ∧ x.isFinite = true ∧ 1453635 / 16384 ≤ x.val ∧ x.val < 2929983 / 32768 := by
  constructor
  · rintro ⟨f, hf⟩
    by_cases hn : x.isNaN = true
    · rcases C27_exp_nan_false x hn with e | e <;> rw [e] at hf <;> cases hf
    rw [Bool.not_eq_true] at hn
    by_cases hm : 135 * 2 ^ 23 ≤ x.mag
    · rw [exp_huge hn hm] at hf; cases hf
    have hi : infMag = 255 * 2 ^ 23 := by decide
    have hx : x.isFinite = true := isFinite_iff.2 (by omega)
    by_cases hs : expSpecial x
    · rcases expSpecial_val hx hs with ⟨-, e⟩ | ⟨-, e⟩ | ⟨-, e⟩ <;> rw [e] at hf <;> cases hf
    obtain ⟨P, Y, hY, -, hc⟩ := exp_mid_cases hx (by omega) hs
    rcases hc with ⟨-, e⟩ | ⟨-, -, n, -, -, -, e⟩ | ⟨c1, c2, e⟩ | ⟨-, e⟩
    · rw [e] at hf; cases hf
    · rw [e] at hf; cases hf
    · rw [e, setExponent_128] at hf
      refine ⟨?_, hx, (exp_threshold_128 x).2 (by rw [← hY]; exact c1), ?_⟩
      · by_contra hd
        rw [if_neg hd] at hf; cases hf
      · by_contra hc
        have := (exp_threshold_129 x).1 (not_lt.1 hc)
        rw [← hY] at this
        linarith
    · rw [e] at hf; cases hf
  · rintro ⟨hd, hx, h1, h2⟩
    exact ⟨_, (C27_exp_gap x hx h1 h2).1 hd⟩

/-- **C27, "never panics" is false** in builds with debug assertions: `exp(89.0)`. -/
theorem C27_exp_never_panics_false (h : Cfg.debugAssertions = true) : ¬ ∀ x : F32, Returns x.exp := by
  intro hall
  obtain ⟨f, v⟩ := ofInt_isVal (n := 89) (by decide)
  obtain ⟨r, hr⟩ := hall (ofInt 89)
  obtain ⟨e, he⟩ := (C27_exp_panics_iff (ofInt 89)).2 ⟨h, f, by rw [v]; norm_num, by rw [v]; norm_num⟩
  rw [hr] at he; cases he

/-- **C27.** Whenever `exp` returns, the result has the sign bit clear. -/
theorem C27_exp_nonneg (x r : F32) (h : x.exp = .ok r) : r.isSignNegative = false := by
  have hi : infMag = 255 * 2 ^ 23 := by decide
  by_cases hn : x.isNaN = true
  · rcases C27_exp_nan_false x hn with e | e <;> rw [e] at h <;> rw [← Except.ok.inj h] <;> decide
  rw [Bool.not_eq_true] at hn
  by_cases hm : 135 * 2 ^ 23 ≤ x.mag
  · rw [exp_huge hn hm] at h; cases h; cases x.sign <;> decide
  have hx : x.isFinite = true := isFinite_iff.2 (by omega)
  by_cases hs : expSpecial x
  · rcases expSpecial_val hx hs with ⟨-, e⟩ | ⟨-, e⟩ | ⟨-, e⟩ <;> rw [e] at h <;> rw [← Except.ok.inj h]
    · decide
    · decide +kernel
    · rw [show ONE / E = ⟨0x3ebc5ab2#32⟩ from eval_eq (n := 0x3ebc5ab2) (by kernel_rfl)]; decide
  obtain ⟨P, Y, hY, sP, hc⟩ := exp_mid_cases hx (by omega) hs
  have hr : P.mag % 2 ^ 23 < 2 ^ 23 := Nat.mod_lt _ (by norm_num)
  rcases hc with ⟨-, e⟩ | ⟨-, -, n, hn', -, -, e⟩ | ⟨c1, c2, e⟩ | ⟨-, e⟩
  · rw [e] at h; cases h; decide
  · rw [e] at h; cases h
    rw [isSignNegative, sign_pack _ (by omega)]
  · rw [e, setExponent_128] at h
    by_cases hd : Cfg.debugAssertions = true
    · rw [if_pos hd] at h; cases h
    · rw [if_neg hd] at h; cases h
      rw [isSignNegative, sign_pack _ (by omega), sP]
  · rw [e] at h; cases h; decide

/-- The ranges are inhabited. -/
example : (ofInt 100).exp = .ok posInf := by
  obtain ⟨f, v⟩ := ofInt_isVal (n := 100) (by decide)
  exact C27_exp_overflow _ (.inr ⟨f, by rw [v]; norm_num⟩)

example : (ofInt (-1000)).exp = .ok posZero := by
  obtain ⟨f, v⟩ := ofInt_isVal (n := -1000) (by norm_num)
  exact C27_exp_underflow _ (.inr ⟨f, by rw [v]; norm_num⟩)

example : ∃ r, (ofInt (-88)).exp = .ok r ∧ r.isFinite = true ∧ 0 ≤ r.val ∧ r.val < 1 / 2 ^ 125 := by
  obtain ⟨f, v⟩ := ofInt_isVal (n := -88) (by decide)
  exact C27_exp_tiny _ f (by rw [v]; norm_num)

/-! ### `cosh` -/

/-- `cosh` fails exactly when one of the two calls of `exp` does. -/
theorem cosh_eq (x : F32) : x.cosh = (x.exp >>= fun a => (-x).exp >>= fun b => .ok ((a + b) / lit 2 1)) := rfl

/-- **C45.** `cosh` panics exactly for `88.72284 <= |x| <= 89.41598` in builds with debug assertions. -/
theorem C45_cosh_panics_iff (x : F32) :
    Fails x.cosh ↔
      Cfg.debugAssertions = true ∧ x.isFinite = true ∧ 1453635 / 16384 ≤ |x.val| ∧ |x.val| < 2929983 / 32768 := by
  have h1 := C27_exp_panics_iff x
  have h2 := C27_exp_panics_iff (-x)
  rw [val_neg, isFinite_neg] at h2
  rw [cosh_eq]
  have key : Fails (x.exp >>= fun a => (-x).exp >>= fun b => (.ok ((a + b) / lit 2 1) : Res F32)) ↔
      Fails x.exp ∨ Fails (-x).exp := by
    unfold Fails
    cases x.exp <;> cases (-x).exp <;> simp
  rw [key, h1, h2]
  constructor
  · rintro (⟨a, b, c, d⟩ | ⟨a, b, c, d⟩)
    · rw [abs_of_pos (by linarith)]; exact ⟨a, b, c, d⟩
    · rw [abs_of_neg (by linarith)]; exact ⟨a, b, c, d⟩
  · rintro ⟨a, b, c, d⟩
    rcases abs_choice x.val with h | h <;> rw [h] at c d
    · exact .inl ⟨a, b, c, d⟩
    · exact .inr ⟨a, b, c, d⟩

/-- **C45.** `cosh` is even. -/
theorem C45_cosh_even (x : F32) :
    (Fails x.cosh ↔ Fails (-x).cosh) ∧
      ∀ a b, x.cosh = .ok a → (-x).cosh = .ok b → a = b ∨ a.isNaN = true ∧ b.isNaN = true := by
  refine ⟨by rw [C45_cosh_panics_iff, C45_cosh_panics_iff, val_neg, isFinite_neg, abs_neg], ?_⟩
  intro a b ha hb
  rw [cosh_eq] at ha hb
  rw [neg_neg'] at hb
  cases h1 : x.exp with
  | error e => rw [h1] at ha; cases ha
  | ok p =>
    cases h2 : (-x).exp with
    | error e => rw [h1, h2] at ha; cases ha
    | ok q =>
      rw [h1, h2] at ha hb
      simp only [ok_bind] at ha hb
      cases ha; cases hb
      exact ((add_comm_eqv p q).div .rfl).symm.symm.elim .inr .inl

/-- **C45.** The relative error of `cosh` is at most 0.004 for `|x| <= 87`. -/
theorem C45_cosh (x : F32) (hx : x.isFinite = true) (h : |x.val| ≤ 87) :
    ∃ r, x.cosh = .ok r ∧ r.isFinite = true ∧ |(r.val : ℝ) - Real.cosh x.val| ≤ 0.004 * Real.cosh x.val := by
  obtain ⟨hl, hu⟩ := abs_le.1 h
  obtain ⟨p, hp, fp, vp⟩ := C28_exp x hx (by norm_num; linarith) (by norm_num; linarith)
  obtain ⟨q, hq, fq, vq⟩ := C28_exp (-x) (by simpa using hx) (by rw [val_neg]; norm_num; linarith) (by
    rw [val_neg]; norm_num; linarith)
  rw [val_neg] at vq
  push_cast at vq
  have hc : Real.exp x.val + Real.exp (-x.val) = 2 * Real.cosh x.val := by rw [Real.cosh_eq]; ring
  have hc1 : 1 ≤ Real.cosh (x.val : ℝ) := by
    have := Real.add_one_le_exp (x.val : ℝ)
    have := Real.add_one_le_exp (-(x.val : ℝ))
    linarith
  have hub : ∀ t : ℝ, t ≤ 87 → Real.exp t ≤ 2 ^ 126 := by
    intro t ht
    have := Real.log_two_gt_d9
    calc Real.exp t ≤ Real.exp (126 * Real.log 2) := Real.exp_le_exp.2 (by norm_num at this ⊢; linarith)
      _ = 2 ^ 126 := by rw [mul_comm, Real.exp_mul, Real.exp_log (by norm_num)]; norm_num
  have hl' : (-87 : ℝ) ≤ x.val := by exact_mod_cast hl
  have hu' : (x.val : ℝ) ≤ 87 := by exact_mod_cast hu
  have u1 := hub _ hu'
  have u2 := hub (-x.val) (by linarith)
  obtain ⟨S, hS⟩ : ∃ S : ℝ, S = p.val + q.val := ⟨_, rfl⟩
  have hSe : |S - 2 * Real.cosh x.val| ≤ 0.003 * (2 * Real.cosh x.val) := by
    rw [hS, ← hc, show (p.val : ℝ) + q.val - (Real.exp x.val + Real.exp (-x.val)) =
      (p.val - Real.exp x.val) + (q.val - Real.exp (-x.val)) by ring]
    refine (abs_add_le _ _).trans ?_
    linarith
  have hcu : 2 * Real.cosh (x.val : ℝ) ≤ 2 ^ 127 := by
    rw [← hc]; norm_num at u1 u2 ⊢; linarith
  obtain ⟨s1, s2⟩ := abs_le.1 hSe
  have hSq : ((p.val + q.val : ℚ) : ℝ) = S := by rw [hS]; push_cast; rfl
  have b1 : (1 : ℚ) ≤ p.val + q.val := by
    have : ((1 : ℚ) : ℝ) ≤ ((p.val + q.val : ℚ) : ℝ) := by
      rw [hSq]; push_cast; norm_num at s1 ⊢; linarith
    exact_mod_cast this
  have b2 : p.val + q.val ≤ (1.003 : ℚ) * 2 ^ 127 := by
    have : ((p.val + q.val : ℚ) : ℝ) ≤ (((1.003 : ℚ) * 2 ^ 127 : ℚ) : ℝ) := by
      rw [hSq]; push_cast; norm_num at s2 hcu ⊢; linarith
    exact_mod_cast this
  obtain ⟨d1, hd1, f1, v1⟩ := add_rel fp fq (by
    rw [abs_of_pos (by linarith)]
    refine lt_of_le_of_lt b2 (by unfold ovf; norm_num))
  have f2 : (lit 2 1).isFinite = true := by decide
  have v2 : (lit 2 1).val = 2 := by rw [val_of_units (u := 2 * 2 ^ 149) (by decide +kernel)]; norm_num
  obtain ⟨d1a, d1b⟩ := abs_le.1 hd1
  norm_num at d1a d1b
  have hT1 : (1 / 2 : ℚ) ≤ (p.val + q.val) * (1 + d1) := by nlinarith
  have hT2 : (p.val + q.val) * (1 + d1) ≤ 1.004 * 2 ^ 127 := by
    have := mul_le_mul b2 (show 1 + d1 ≤ 1 + 1 / 16777216 by linarith) (by linarith) (by norm_num)
    exact this.trans (by norm_num)
  have e0 : 0 < (p.val + q.val) * (1 + d1) / 2 := by linarith
  obtain ⟨d2, hd2, f3, v3⟩ := div_rel f1 f2 (by rw [v2]; norm_num) (by
    rw [v1, v2, abs_of_pos e0]
    have : (1 : ℚ) / 2 ^ 126 ≤ 1 / 4 := by norm_num
    linarith) (by
    rw [v1, v2, abs_of_pos e0]
    refine lt_of_le_of_lt (b := 1.004 * 2 ^ 127 / 2) (by linarith) (by unfold ovf; norm_num))
  rw [v1, v2] at v3
  refine ⟨_, by rw [cosh_eq, hp, ok_bind, hq, ok_bind], f3, ?_⟩
  rw [v3]
  push_cast
  have hd1' := abs_cast_le hd1
  have hd2' := abs_cast_le hd2
  push_cast at hd1' hd2'
  rw [← hS]
  obtain ⟨D, hD, hDe⟩ : ∃ D : ℝ, |D| ≤ 1 / 10 ^ 6 ∧ S * (1 + d1) / 2 * (1 + d2) = S / 2 * (1 + D) := by
    refine ⟨d1 + d2 + d1 * d2, ?_, by ring⟩
    have : |(d1 : ℝ) * d2| ≤ 1 / 2 ^ 24 * (1 / 2 ^ 24) := by
      rw [abs_mul]; exact mul_le_mul hd1' hd2' (abs_nonneg _) (by norm_num)
    refine (abs_add_le _ _).trans ((add_le_add (abs_add_le _ _) this).trans ?_)
    norm_num at hd1' hd2' ⊢; linarith
  rw [hDe, show S / 2 * (1 + D) - Real.cosh x.val = (S - 2 * Real.cosh x.val) / 2 + S / 2 * D by ring]
  have hSb : |S / 2| ≤ 2 * Real.cosh x.val := by
    rw [abs_le]; norm_num at s1 s2 ⊢; constructor <;> linarith
  have t1 : |S / 2 * D| ≤ 2 * Real.cosh x.val * (1 / 10 ^ 6) := by
    rw [abs_mul]; exact mul_le_mul hSb hD (abs_nonneg _) (by linarith)
  refine (abs_add_le _ _).trans ?_
  rw [abs_div, abs_of_pos (show (0 : ℝ) < 2 by norm_num)]
  norm_num at hSe t1 ⊢
  linarith

/-- `cosh(3)` is within 0.4%. -/
example : ∃ r, (ofInt 3).cosh = .ok r ∧ r.isFinite = true ∧ |(r.val : ℝ) - Real.cosh 3| ≤ 0.004 * Real.cosh 3 := by
  obtain ⟨f, v⟩ := ofInt_isVal (n := 3) (by norm_num)
  have h := C45_cosh (ofInt 3) f (by rw [v]; norm_num)
  rw [v] at h
  simpa using h

end Micromath.Props
