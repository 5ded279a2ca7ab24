import Verif.Props.Recip

/-!
# C23-C26: `powi`
-/

set_option exponentiation.threshold 1000

namespace Micromath.Props
open F32 Spec

/-! ### The loop -/

/-- From a nonnegative `i32` the loop returns within 32 iterations. -/
theorem powiLoop_terminates [Cfg] (fuel : Nat) (m : Int) (b r : F32) (h0 : 0 ≤ m) (h : m < 2 ^ (fuel + 1)) :
    ∃ y, powiLoop (fuel + 1) m b r = some y := by
  induction fuel generalizing m b r with
  | zero =>
    refine ⟨if m % 2 = 1 then r * b else r, ?_⟩
    rw [powiLoop, if_pos (by omega : m / 2 = 0)]
  | succ k ih =>
    rw [powiLoop]
    by_cases hz : m / 2 = 0
    · exact ⟨_, by rw [if_pos hz]⟩
    · rw [if_neg hz]
      apply ih
      · omega
      · rw [pow_succ] at h; omega

/-- From a negative `i32` the loop never returns: the arithmetic shift never reaches zero. -/
theorem powiLoop_none_forever [Cfg] (fuel : Nat) (m : Int) (b r : F32) (h0 : m < 0) :
    powiLoop fuel m b r = none := by
  induction fuel generalizing m b r with
  | zero => rfl
  | succ k ih =>
    rw [powiLoop, if_neg (by omega : ¬ m / 2 = 0)]
    exact ih _ _ _ (by omega)

/-- More steps do not change a result that is already there. -/
theorem powiLoop_mono [Cfg] (fuel k : Nat) (m : Int) (b r y : F32) (h : powiLoop fuel m b r = some y) :
    powiLoop (fuel + k) m b r = some y := by
  induction fuel generalizing m b r with
  | zero => simp [powiLoop] at h
  | succ j ih =>
    rw [show j + 1 + k = j + k + 1 by omega, powiLoop]
    rw [powiLoop] at h
    by_cases hz : m / 2 = 0
    · rw [if_pos hz] at h ⊢; exact h
    · rw [if_neg hz] at h ⊢; exact ih _ _ _ h

/-! ### The early-exit window -/

/-- The test `(0.5..2.0).contains(&|x|)`. -/
theorem near_iff (x : F32) : ((lit 5 10).le x.abs && x.abs.lt (lit 2 1)) = true ↔
    x.isFinite = true ∧ 1 / 2 ≤ |x.val| ∧ |x.val| < 2 := by
  rw [Bool.and_eq_true]
  constructor
  · intro ⟨h1, h2⟩
    have hn : x.abs.isNaN = false := by
      by_contra hc
      rw [le_nan_right (by simpa using hc)] at h1; simp at h1
    have hm : x.mag < 128 * 2 ^ 23 := by
      simp only [F32.lt, key, sign_abs, mag_abs, show (lit 2 1).sign = false by decide +kernel,
        show (lit 2 1).mag = 128 * 2 ^ 23 by decide +kernel, Bool.and_eq_true, decide_eq_true_eq] at h2
      have := h2.2
      simp at this; omega
    have hf : x.isFinite = true := isFinite_iff.2 (by
      have : infMag = 255 * 2 ^ 23 := by decide
      omega)
    have hfa : x.abs.isFinite = true := by rw [isFinite, mag_abs]; exact hf
    have va : x.abs.val = |x.val| := by rw [abs_val, val_of_pos (sign_abs x), mag_abs]
    rw [le_iff fin_lit_5_10 hfa, val_lit_5_10, va] at h1
    rw [lt_iff hfa fin_lit_2_1, val_lit_2_1, va] at h2
    exact ⟨hf, h1, h2⟩
  · intro ⟨hf, h1, h2⟩
    have hfa : x.abs.isFinite = true := by rw [isFinite, mag_abs]; exact hf
    have va : x.abs.val = |x.val| := by rw [abs_val, val_of_pos (sign_abs x), mag_abs]
    rw [le_iff fin_lit_5_10 hfa, val_lit_5_10, va, lt_iff hfa fin_lit_2_1, val_lit_2_1, va]
    exact ⟨h1, h2⟩

/-- The loop as called by `powi`. -/
def powiRun [Cfg] (x : F32) (n absN : Int) : Res F32 :=
  match powiLoop 32 absN (if n < 0 then one / x else x) one with
  | some r => .ok r
  | none => .error .diverges

theorem powiRun_ok [Cfg] (x : F32) (n absN : Int) (h0 : 0 ≤ absN) (h : absN < 2 ^ 31) :
    ∃ y, powiRun x n absN = .ok y ∧ powiLoop 32 absN (if n < 0 then one / x else x) one = some y := by
  obtain ⟨y, hy⟩ := powiLoop_terminates 31 absN (if n < 0 then one / x else x) one h0 (by
    refine lt_trans h ?_; norm_num)
  exact ⟨y, by rw [powiRun, hy], hy⟩

/-- Everything after the computation of `abs_n`. -/
def powiTail [Cfg] (x : F32) (n absN : Int) : Res F32 :=
  if n = 0 then .ok ONE
  else if x.feq ZERO = true ∧ n > 0 then .ok x
  else if x.isFinite = true ∧ 1 / 2 ≤ |x.val| ∧ |x.val| < 2 then powiRun x n absN
  else i32chk (((x.mag / 2 ^ 23 : Nat) - 127) * n) >>= fun a =>
    if a > 127 ∨ (x.feq ZERO = true ∧ a < 0) then
      (if x.sign = false ∨ n % 2 = 0 then .ok posInf else .ok negInf)
    else if a < -149 then .ok posZero
    else powiRun x n absN

theorem powi_tail [Cfg] (x : F32) (n : Int) :
    x.powi n = i32chk (if n < 0 then -n else n) >>= fun absN => powiTail x n absN := by
  unfold F32.powi
  congr 1
  funext absN
  unfold powiTail
  by_cases h0 : n = 0
  · rw [if_pos h0, if_pos h0]
  · rw [if_neg h0, if_neg h0]
    by_cases hz : x.feq ZERO = true ∧ n > 0
    · rw [if_pos hz]; simp [hz.1, hz.2]
    · have hz' : ¬ (x.feq ZERO && decide (n > 0)) = true := by simpa using hz
      rw [if_neg hz, if_neg hz']
      by_cases hnr : x.isFinite = true ∧ 1 / 2 ≤ |x.val| ∧ |x.val| < 2
      · have : ¬ (!((lit 5 10).le x.abs && x.abs.lt (lit 2 1))) = true := by
          rw [(near_iff x).2 hnr]; simp
        rw [if_pos hnr, if_neg this]; rfl
      · have : ((lit 5 10).le x.abs && x.abs.lt (lit 2 1)) = false := by
          rw [Bool.eq_false_iff]; intro hc; exact hnr ((near_iff x).1 hc)
        rw [if_neg hnr, this, if_pos (show (!false) = true by rfl), extractExponentValue_eq]
        congr 1
        funext a
        have e1 : (decide (a > 127) || (x.feq ZERO && decide (a < 0))) = true ↔
            (a > 127 ∨ (x.feq ZERO = true ∧ a < 0)) := by simp
        have e2 : (x.isSignPositive || decide (n % 2 = 0)) = true ↔ (x.sign = false ∨ n % 2 = 0) := by
          simp [isSignPositive]
        simp only [e1, e2]
        rfl

/-- `powi` for every exponent except `i32::MIN`. -/
theorem powi_eq [Cfg] (x : F32) (n : Int) (h1 : -2 ^ 31 < n) (h2 : n < 2 ^ 31) :
    x.powi n = powiTail x n (Int.natAbs n) := by
  have ha : i32chk (if n < 0 then -n else n) = .ok (Int.natAbs n : Int) := by
    rw [show (if n < 0 then -n else n) = (Int.natAbs n : Int) by split <;> omega, i32chk, if_pos (by omega)]
  rw [powi_tail, ha, ok_bind]

/-- `powi` at `i32::MIN`. -/
theorem powi_min [Cfg] (x : F32) :
    x.powi (-2 ^ 31) = if Cfg.overflowChecks = true then .error .overflow else powiTail x (-2 ^ 31) (-2 ^ 31) := by
  have ha : i32chk (if (-2 ^ 31 : Int) < 0 then -(-2 ^ 31) else -2 ^ 31) =
      if Cfg.overflowChecks = true then .error .overflow else .ok (-2 ^ 31) := by
    rw [if_pos (by norm_num), i32chk, if_neg (by norm_num)]
    rfl
  rw [powi_tail, ha]
  split
  · rw [error_bind]
  · rw [ok_bind]

theorem powiRun_min [Cfg] (x : F32) (n : Int) : powiRun x n (-2 ^ 31) = .error .diverges := by
  rw [powiRun, powiLoop_none_forever _ _ _ _ (by norm_num)]

/-! ### C23 -/

theorem feq_zero_iff (x : F32) : x.feq ZERO = true ↔ x.isFinite = true ∧ x.val = 0 := by
  by_cases hf : x.isFinite = true
  · rw [feq_iff hf fin_ZERO, val_ZERO]; simp [hf]
  · have hz : ZERO.key = 0 := by decide
    have hi : infMag = 255 * 2 ^ 23 := by decide
    have hm : ¬ x.mag < infMag := fun h => hf (isFinite_iff.2 h)
    constructor
    · intro h
      rw [F32.feq, hz, Bool.and_eq_true, decide_eq_true_eq, key] at h
      have := h.2
      split at this <;> omega
    · intro h; exact absurd h.1 hf

theorem one_mul_fin [Cfg] {x : F32} (h : x.isFinite = true) : one * x = x := by
  rw [mul_comm_fin fin_one h, mul_one_fin h]

/-- **C23.** `powi(x, 0) = 1.0` for every bit pattern, and `powi(x, 1) = x` for every finite `x` (and also for
the infinities). -/
theorem C23_powi_zero_one [Cfg] (x : F32) :
    x.powi 0 = .ok one ∧ (x.isFinite = true → x.powi 1 = .ok x) ∧ (x.isInf = true → x.powi 1 = .ok x) := by
  have hi : infMag = 255 * 2 ^ 23 := by decide
  refine ⟨?_, ?_, ?_⟩
  · rw [powi_eq x 0 (by norm_num) (by norm_num), powiTail, if_pos rfl]; rfl
  · intro hf
    have hrun : powiRun x 1 (Int.natAbs 1) = .ok x := by
      have : powiLoop 32 (Int.natAbs 1) (if (1 : Int) < 0 then one / x else x) one = some (one * x) := by
        rw [if_neg (by norm_num)]; rfl
      rw [powiRun, this, one_mul_fin hf]
    rw [powi_eq x 1 (by norm_num) (by norm_num), powiTail, if_neg (by norm_num), hrun]
    by_cases hz : x.feq ZERO = true ∧ (1 : Int) > 0
    · rw [if_pos hz]
    · rw [if_neg hz]
      have hz' : ¬ x.feq ZERO = true := fun h => hz ⟨h, by norm_num⟩
      split
      · rfl
      · have hm := isFinite_iff.1 hf
        rw [i32chk, if_pos (by omega), ok_bind, if_neg (by
          rintro (h | h)
          · omega
          · exact hz' h.1), if_neg (by omega)]
  · intro hinf
    have hm : x.mag = infMag := by simpa [isInf] using hinf
    have hf : ¬ x.isFinite = true := by rw [not_finite_of_inf hinf]; simp
    rw [powi_eq x 1 (by norm_num) (by norm_num), powiTail, if_neg (by norm_num), if_neg (by
      rw [feq_zero_iff]; intro h; exact hf h.1.1), if_neg (fun h => hf h.1), hm, hi, i32chk, if_pos (by norm_num), ok_bind,
      if_pos (by norm_num)]
    rw [eq_pack_of_inf hinf]
    cases x.sign
    · rw [sign_pack _ infMag_lt]; rfl
    · rw [sign_pack _ infMag_lt]; rfl

/-- On NaN, `powi(x, 1)` is infinity, not NaN. -/
theorem C23_powi_one_nan [Cfg] : (⟨0x7fc00000#32⟩ : F32).powi 1 = .ok posInf :=
  eval_ok (by kernel_rfl) (by decide)

/-! ### C24 -/

/-- `y` is the number `q` after at most `k` relative roundings. -/
def Ap (y : F32) (q : ℚ) (k : Nat) : Prop :=
  y.isFinite = true ∧ ∃ c, (1 - 1 / 2 ^ 24 : ℚ) ^ k ≤ c ∧ c ≤ (1 + 1 / 2 ^ 24) ^ k ∧ y.val = q * c

theorem pow_bounds {k : Nat} (hk : k ≤ 2 ^ 21) :
    (7 / 8 : ℚ) ≤ (1 - 1 / 2 ^ 24) ^ k ∧ (1 + 1 / 2 ^ 24 : ℚ) ^ k ≤ 8 / 7 := by
  have h1 : (7 / 8 : ℚ) ≤ (1 - 1 / 2 ^ 24) ^ k := by
    have := one_add_mul_le_pow (a := (-(1 / 2 ^ 24) : ℚ)) (by norm_num) k
    have hk' : (k : ℚ) ≤ 2 ^ 21 := by exact_mod_cast hk
    rw [← sub_eq_add_neg] at this
    linarith
  refine ⟨h1, ?_⟩
  have h2 : (1 - 1 / 2 ^ 24 : ℚ) ^ k * (1 + 1 / 2 ^ 24) ^ k ≤ 1 := by
    rw [← mul_pow]; exact pow_le_one₀ (by norm_num) (by norm_num)
  have h3 : (0 : ℚ) ≤ (1 + 1 / 2 ^ 24) ^ k := by positivity
  nlinarith

theorem Ap.mono {y : F32} {q : ℚ} {k l : Nat} (h : Ap y q k) (hkl : k ≤ l) : Ap y q l := by
  obtain ⟨hf, c, h1, h2, h3⟩ := h
  exact ⟨hf, c, le_trans (pow_le_pow_of_le_one (by norm_num) (by norm_num) hkl) h1,
    le_trans h2 (pow_le_pow_right₀ (by norm_num) hkl), h3⟩

theorem Ap.mul [Cfg] {y z : F32} {p q : ℚ} {k l : Nat} (hy : Ap y p k) (hz : Ap z q l) (hkl : k + l ≤ 2 ^ 21)
    (h1 : 1 / 2 ^ 125 ≤ |p * q|) (h2 : |p * q| ≤ 2 ^ 127) : Ap (y * z) (p * q) (k + l + 1) := by
  obtain ⟨hfy, c, c1, c2, hvy⟩ := hy
  obtain ⟨hfz, d, d1, d2, hvz⟩ := hz
  have p1 : (0 : ℚ) < (1 - 1 / 2 ^ 24) ^ k := by apply pow_pos; norm_num
  have p2 : (0 : ℚ) < (1 - 1 / 2 ^ 24) ^ l := by apply pow_pos; norm_num
  have hc : 0 < c := lt_of_lt_of_le p1 c1
  have hd : 0 < d := lt_of_lt_of_le p2 d1
  have b1 : (1 - 1 / 2 ^ 24 : ℚ) ^ (k + l) ≤ c * d := by
    rw [pow_add]; exact mul_le_mul c1 d1 p2.le hc.le
  have b2 : c * d ≤ (1 + 1 / 2 ^ 24 : ℚ) ^ (k + l) := by
    rw [pow_add]; exact mul_le_mul c2 d2 hd.le (by positivity)
  obtain ⟨B1, B2⟩ := pow_bounds hkl
  have hv : y.val * z.val = p * q * (c * d) := by rw [hvy, hvz]; ring
  have ha : |y.val * z.val| = |p * q| * (c * d) := by
    rw [hv, abs_mul (p * q), abs_of_pos (mul_pos hc hd)]
  have l1 : (1 : ℚ) / 2 ^ 126 ≤ |y.val * z.val| := by
    rw [ha]
    have : (1 / 2 ^ 125 : ℚ) * (7 / 8) ≤ |p * q| * (c * d) :=
      mul_le_mul h1 (le_trans B1 b1) (by norm_num) (abs_nonneg _)
    refine le_trans ?_ this
    norm_num
  have l2 : |y.val * z.val| < ovf := by
    rw [ha]
    have : |p * q| * (c * d) ≤ 2 ^ 127 * (8 / 7) :=
      mul_le_mul h2 (le_trans b2 B2) (mul_pos hc hd).le (by norm_num)
    refine lt_of_le_of_lt this ?_
    norm_num [ovf]
  obtain ⟨e, he, hf, hv2⟩ := mul_rel hfy hfz l1 l2
  rw [abs_le] at he
  refine ⟨hf, c * d * (1 + e), ?_, ?_, by rw [hv2, hv]; ring⟩
  · rw [pow_succ]
    exact mul_le_mul b1 (by linarith) (by norm_num) (mul_pos hc hd).le
  · rw [pow_succ]
    exact mul_le_mul b2 (by linarith) (by linarith) (by positivity)

/-- Powers between `1` and `b^N` lie between `1` and `|b^N|`. -/
theorem pow_between {b : ℚ} {N j : Nat} (hj : j ≤ N) (h1 : 1 / 2 ^ 125 ≤ |b ^ N|) (h2 : |b ^ N| ≤ 2 ^ 127) :
    1 / 2 ^ 125 ≤ |b ^ j| ∧ |b ^ j| ≤ 2 ^ 127 := by
  rw [abs_pow] at *
  rcases le_total |b| 1 with h | h
  · exact ⟨le_trans h1 (pow_le_pow_of_le_one (abs_nonneg _) h hj),
      le_trans (pow_le_one₀ (abs_nonneg _) h) (by norm_num)⟩
  · exact ⟨le_trans (by norm_num) (one_le_pow₀ h), le_trans (pow_le_pow_right₀ h hj) h2⟩

theorem powiLoop_ap [Cfg] (fuel : Nat) (b : ℚ) (c N i j m : Nat) (base r : F32) (hm : 0 < m) (hf : m < 2 ^ (fuel + 1))
    (hc : 0 < c) (hj : 0 < j) (hN : N = i + j * m) (hcN : c * N ≤ 2 ^ 21) (h1 : 1 / 2 ^ 125 ≤ |b ^ N|)
    (h2 : |b ^ N| ≤ 2 ^ 127) (hb : Ap base (b ^ j) (c * j - 1)) (hr : Ap r (b ^ i) (c * i)) :
    ∃ y, powiLoop (fuel + 1) m base r = some y ∧ Ap y (b ^ N) (c * N) := by
  induction fuel generalizing i j m base r with
  | zero =>
    have hm1 : m = 1 := by omega
    subst hm1
    refine ⟨r * base, by rfl, ?_⟩
    rw [mul_one] at hN
    have hcj : 0 < c * j := Nat.mul_pos hc hj
    have hcN' : c * N = c * i + c * j := by rw [hN, mul_add]
    have := hr.mul hb (by omega) (by rw [← pow_add, ← hN]; exact h1) (by rw [← pow_add, ← hN]; exact h2)
    rw [← pow_add, ← hN, show c * i + (c * j - 1) + 1 = c * N by omega] at this
    exact this
  | succ k ih =>
    have hcj : 0 < c * j := Nat.mul_pos hc hj
    have hmN : j * m ≤ N := by omega
    rw [powiLoop]
    -- the new accumulator
    have hr' : Ap (if (m : Int) % 2 = 1 then r * base else r) (b ^ (i + j * (m % 2))) (c * (i + j * (m % 2))) := by
      rcases Nat.mod_two_eq_zero_or_one m with h | h
      · rw [if_neg (by omega), h, mul_zero, add_zero]; exact hr
      · rw [if_pos (by omega), h, mul_one]
        have hle : i + j ≤ N := by
          have : j * 1 ≤ j * m := Nat.mul_le_mul_left j hm
          omega
        have hle' : c * i + c * j ≤ c * N := by rw [← mul_add]; exact Nat.mul_le_mul_left c hle
        obtain ⟨q1, q2⟩ := pow_between hle h1 h2
        have := hr.mul hb (by omega) (by rw [← pow_add]; exact q1) (by rw [← pow_add]; exact q2)
        rw [← pow_add, show c * i + (c * j - 1) + 1 = c * (i + j) by rw [mul_add]; omega] at this
        exact this
    by_cases hz : (m : Int) / 2 = 0
    · have hm1 : m = 1 := by omega
      subst hm1
      refine ⟨_, by rw [if_pos hz], ?_⟩
      rw [show (1 : Nat) % 2 = 1 by rfl, ← hN] at hr'
      exact hr'
    · rw [if_neg hz]
      have hdm : m = 2 * (m / 2) + m % 2 := by omega
      have hN' : N = i + j * (m % 2) + 2 * j * (m / 2) := by
        have : j * m = j * (2 * (m / 2) + m % 2) := by rw [← hdm]
        rw [hN, this]; ring
      have hle : j + j ≤ N := by
        have : j * 2 ≤ j * m := Nat.mul_le_mul_left j (by omega)
        omega
      have hle' : c * j + c * j ≤ c * N := by rw [← mul_add]; exact Nat.mul_le_mul_left c hle
      obtain ⟨q1, q2⟩ := pow_between hle h1 h2
      have hb' := hb.mul hb (by omega) (by rw [← pow_add]; exact q1) (by rw [← pow_add]; exact q2)
      rw [← pow_add, show j + j = 2 * j by omega, show c * j - 1 + (c * j - 1) + 1 = c * (2 * j) - 1 by
        rw [show c * (2 * j) = c * j + c * j by ring]; omega] at hb'
      have := ih (i + j * (m % 2)) (2 * j) (m / 2) (base * base) _ (by omega) (by rw [pow_succ] at hf; omega) (by omega)
        hN' hb' hr'
      rw [show ((m / 2 : Nat) : Int) = (m : Int) / 2 by omega] at this
      exact this

theorem Ap.final {y : F32} {q : ℚ} {k : Nat} (h : Ap y q k) :
    |y.val - q| ≤ ((1 + 1 / 2 ^ 24) ^ k - 1) * |q| := by
  obtain ⟨_, c, h1, h2, h3⟩ := h
  have l1 := one_add_mul_le_pow (a := (-(1 / 2 ^ 24) : ℚ)) (by norm_num) k
  have l2 := one_add_mul_le_pow (a := (1 / 2 ^ 24 : ℚ)) (by norm_num) k
  rw [← sub_eq_add_neg] at l1
  rw [h3, show q * c - q = (c - 1) * q by ring, abs_mul]
  apply mul_le_mul_of_nonneg_right _ (abs_nonneg _)
  rw [abs_le]
  constructor <;> linarith

/-- The loop of `powi` on a finite nonzero `x`. -/
theorem powiRun_err [Cfg] {x : F32} {n : Int} (hx : x.isFinite = true) (hx0 : x.val ≠ 0) (hn : n ≠ 0) (hn2 : |n| < 2 ^ 20)
    (h1 : 1 / 2 ^ 125 ≤ |x.val ^ n|) (h2 : |x.val ^ n| ≤ 2 ^ 127) :
    ∃ y, powiRun x n (Int.natAbs n) = .ok y ∧ Ap y (x.val ^ n) (2 * n.natAbs) := by
  have hna : n.natAbs < 2 ^ 20 := by
    have := Int.natCast_natAbs n; omega
  have hn0 : 0 < n.natAbs := Int.natAbs_pos.2 hn
  have hone : ∀ b : ℚ, ∀ c : Nat, Ap one (b ^ 0) (c * 0) := fun b c => ⟨fin_one, 1, by simp, by simp, by rw [val_one]; simp⟩
  rcases lt_or_gt_of_ne hn with hneg | hpos
  · have hxn : x.val ^ n = (1 / x.val) ^ n.natAbs := by
      rw [one_div, inv_pow, ← zpow_natCast, ← zpow_neg]
      congr 1; omega
    rw [hxn] at h1 h2 ⊢
    obtain ⟨q1, q2⟩ := pow_between (show 1 ≤ n.natAbs by omega) h1 h2
    rw [pow_one] at q1 q2
    obtain ⟨d, hd, hf, hv⟩ := div_rel fin_one hx hx0 (by
      rw [val_one]; refine le_trans ?_ q1; norm_num) (by
      rw [val_one]; refine lt_of_le_of_lt q2 ?_; norm_num [ovf])
    rw [abs_le] at hd
    have hb : Ap (one / x) ((1 / x.val) ^ 1) (2 * 1 - 1) := by
      refine ⟨hf, 1 + d, ?_, ?_, ?_⟩
      · norm_num at hd ⊢; linarith
      · norm_num at hd ⊢; linarith
      · rw [hv, val_one, pow_one]
    obtain ⟨y, hy, ha⟩ := powiLoop_ap 31 (1 / x.val) 2 n.natAbs 0 1 n.natAbs (one / x) one hn0 (by omega) (by norm_num)
      (by norm_num) (by omega) (by omega) h1 h2 hb (hone _ _)
    exact ⟨y, by rw [powiRun, if_pos hneg, hy], ha⟩
  · have hxn : x.val ^ n = x.val ^ n.natAbs := by
      rw [← zpow_natCast]; congr 1; omega
    rw [hxn] at h1 h2 ⊢
    have hb : Ap x (x.val ^ 1) (1 * 1 - 1) := ⟨hx, 1, by simp, by simp, by simp⟩
    obtain ⟨y, hy, ha⟩ := powiLoop_ap 31 x.val 1 n.natAbs 0 1 n.natAbs x one hn0 (by omega) (by norm_num)
      (by norm_num) (by omega) (by omega) h1 h2 hb (hone _ _)
    exact ⟨y, by rw [powiRun, if_neg (by omega), hy], ha.mono (by omega)⟩

/-- Size of a float against its exponent field. -/
theorem exp_field {x : F32} (h : 1 / 2 ^ 126 ≤ |x.val|) :
    1 ≤ x.mag / 2 ^ 23 ∧ (2 : ℚ) ^ (((x.mag / 2 ^ 23 : Nat) : Int) - 127) ≤ |x.val| := by
  have h1 : 1 ≤ x.mag / 2 ^ 23 := by
    have := (pow_le_iff (x := x) (k := 1) le_rfl).1 (by norm_num at h ⊢; exact h)
    omega
  exact ⟨h1, (pow_le_iff h1).2 (by omega)⟩

theorem exp_field_lt (x : F32) : |x.val| < (2 : ℚ) ^ (((x.mag / 2 ^ 23 : Nat) : Int) - 127 + 1) := by
  have := (lt_pow_iff (x := x) (k := x.mag / 2 ^ 23 + 1) (by omega)).2 (by omega)
  rw [show ((x.mag / 2 ^ 23 : Nat) : Int) - 127 + 1 = ((x.mag / 2 ^ 23 + 1 : Nat) : Int) - 127 by push_cast; ring]
  exact this

/-- The exponent field of a float with `2^e ≤ |x| < 2^(e+1)`. -/
theorem exp_field_eq {x : F32} {e : Int} (he : -126 ≤ e) (h1 : (2 : ℚ) ^ e ≤ |x.val|) (h2 : |x.val| < 2 ^ (e + 1)) :
    ((x.mag / 2 ^ 23 : Nat) : Int) - 127 = e := by
  have h3 : (1 : ℚ) / 2 ^ 126 ≤ |x.val| := by
    refine le_trans ?_ h1
    rw [show (1 : ℚ) / 2 ^ 126 = 2 ^ (-126 : Int) by norm_num]
    exact zpow_le_zpow_right₀ (by norm_num) he
  have a1 := (exp_field h3).2
  have a2 := exp_field_lt x
  have b1 := (zpow_lt_zpow_iff_right₀ (by norm_num : (1 : ℚ) < 2)).1 (lt_of_le_of_lt a1 h2)
  have b2 := (zpow_lt_zpow_iff_right₀ (by norm_num : (1 : ℚ) < 2)).1 (lt_of_le_of_lt h1 a2)
  omega

/-- **C24.** For a finite `x` with `|x| ≥ 1/2` and an exponent `0 < |n| < 2^20` such that `x^n` stays in the
normal range, `powi` returns `x^n` up to `2|n|` relative roundings.  This covers the window `0.5 ≤ |x| < 2`
of the property, and negative exponents and larger bases as well. -/
theorem C24_powi [Cfg] {x : F32} {n : Int} (hx : x.isFinite = true) (hlo : 1 / 2 ≤ |x.val|) (hn : n ≠ 0)
    (hn2 : |n| < 2 ^ 20) (h1 : 1 / 2 ^ 125 ≤ |x.val ^ n|) (h2 : |x.val ^ n| ≤ 2 ^ 127) :
    ∃ y, x.powi n = .ok y ∧ y.isFinite = true ∧
      |y.val - x.val ^ n| ≤ ((1 + 1 / 2 ^ 24) ^ (2 * n.natAbs) - 1) * |x.val ^ n| := by
  have hx0 : x.val ≠ 0 := by
    intro h; rw [h, abs_zero] at hlo; norm_num at hlo
  obtain ⟨y, hy, ha⟩ := powiRun_err hx hx0 hn hn2 h1 h2
  refine ⟨y, ?_, ha.1, ha.final⟩
  have hnb := abs_lt.1 hn2
  rw [powi_eq x n (by omega) (by omega), powiTail, if_neg hn, if_neg (by
    rw [feq_zero_iff]; intro h; exact hx0 h.1.2)]
  by_cases hnear : x.isFinite = true ∧ 1 / 2 ≤ |x.val| ∧ |x.val| < 2
  · rw [if_pos hnear, hy]
  · rw [if_neg hnear]
    have h2x : 2 ≤ |x.val| := by
      by_contra hc; exact hnear ⟨hx, hlo, lt_of_not_ge hc⟩
    obtain ⟨e1, e2⟩ := exp_field (x := x) (le_trans (by norm_num) h2x)
    have e3 := exp_field_lt x
    have hm := isFinite_iff.1 hx
    have hi : infMag = 255 * 2 ^ 23 := by decide
    obtain ⟨e, he⟩ : ∃ e : Int, e = ((x.mag / 2 ^ 23 : Nat) : Int) - 127 := ⟨_, rfl⟩
    rw [← he] at e2 e3 ⊢
    have he0 : 0 ≤ e := by
      have := (zpow_lt_zpow_iff_right₀ (by norm_num : (1 : ℚ) < 2)).1 (lt_of_le_of_lt (show (2 : ℚ) ^ (0 : Int) ≤ |x.val| by
        norm_num; linarith) e3)
      omega
    have he1 : e ≤ 127 := by omega
    have hu : e * n ≤ 127 := by
      rcases lt_or_gt_of_ne hn with hneg | hpos
      · nlinarith
      · have : ((2 : ℚ) ^ e) ^ n ≤ |x.val| ^ n := zpow_le_zpow_left₀ hpos.le (by positivity) e2
        rw [← zpow_mul, ← abs_zpow] at this
        have := le_trans this h2
        rw [← zpow_natCast] at this
        have := (zpow_le_zpow_iff_right₀ (by norm_num : (1 : ℚ) < 2)).1 this
        exact_mod_cast this
    have hl : -149 ≤ e * n := by
      rcases lt_or_gt_of_ne hn with hneg | hpos
      · have : |x.val| ^ n ≤ ((2 : ℚ) ^ e) ^ n := by
          have := zpow_le_zpow_left₀ (n := -n) (by omega) (by positivity) e2
          rw [zpow_neg, zpow_neg] at this
          exact (inv_le_inv₀ (by positivity) (by positivity)).1 this
        rw [← zpow_mul, ← abs_zpow] at this
        have := le_trans h1 this
        rw [show (1 : ℚ) / 2 ^ 125 = 2 ^ (-125 : Int) by norm_num] at this
        have := (zpow_le_zpow_iff_right₀ (by norm_num : (1 : ℚ) < 2)).1 this
        omega
      · nlinarith
    rw [i32chk, if_pos (by omega), ok_bind, if_neg (by
      rintro (h | h)
      · omega
      · rw [feq_zero_iff] at h; exact hx0 h.1.2), if_neg (by omega), hy]

/-- **C24, bases below one half.** With `2^e <= |x| < 2^(e+1)`, `e <= -2`, the same error bound holds as long as the early exit is
not taken, that is for `-149 <= e * n <= 127`; outside that window `powi` returns zero or an infinity
(`C26_powi_exit_small`). -/
theorem C24_powi_small [Cfg] {x : F32} {n e : Int} (hx : x.isFinite = true) (he : -126 ≤ e) (he2 : e ≤ -2) (l1 : (2 : ℚ) ^ e ≤ |x.val|)
    (l2 : |x.val| < 2 ^ (e + 1)) (hn : n ≠ 0) (w1 : -149 ≤ e * n) (w2 : e * n ≤ 127) (h1 : 1 / 2 ^ 125 ≤ |x.val ^ n|) (h2 : |x.val ^ n| ≤ 2 ^ 127) :
    ∃ y, x.powi n = .ok y ∧ y.isFinite = true ∧
      |y.val - x.val ^ n| ≤ ((1 + 1 / 2 ^ 24) ^ (2 * n.natAbs) - 1) * |x.val ^ n| := by
  have hx0 : x.val ≠ 0 := by
    intro h; rw [h, abs_zero] at l1
    have : (0 : ℚ) < 2 ^ e := by positivity
    linarith
  have hnb : -64 ≤ n ∧ n ≤ 75 := by constructor <;> nlinarith
  obtain ⟨y, hy, ha⟩ := powiRun_err hx hx0 hn (by rw [abs_lt]; omega) h1 h2
  refine ⟨y, ?_, ha.1, ha.final⟩
  have hhalf : |x.val| < 1 / 2 := by
    refine lt_of_lt_of_le l2 ?_
    rw [show (1 / 2 : ℚ) = 2 ^ (-1 : Int) by norm_num]
    exact zpow_le_zpow_right₀ (by norm_num) (by omega)
  rw [powi_eq x n (by omega) (by omega), powiTail, if_neg hn, if_neg (by
    rw [feq_zero_iff]; intro h; exact hx0 h.1.2), if_neg (fun h => absurd h.2.1 (not_le.2 hhalf)), exp_field_eq he l1 l2, i32chk,
    if_pos (by omega), ok_bind, if_neg (by
      rintro (h | h)
      · omega
      · rw [feq_zero_iff] at h; exact hx0 h.1.2), if_neg (by omega), hy]

/-- `0.3` to the power `-40`: `e = -2` and `e * n = 80`. -/
example : (⟨0x3e99999a#32⟩ : F32).isFinite = true ∧ (2 : ℚ) ^ (-2 : Int) ≤ |(⟨0x3e99999a#32⟩ : F32).val| ∧
    |(⟨0x3e99999a#32⟩ : F32).val| < 2 ^ ((-2 : Int) + 1) ∧ |(⟨0x3e99999a#32⟩ : F32).val ^ (-40 : Int)| ≤ 2 ^ 127 := by
  have hv : (⟨0x3e99999a#32⟩ : F32).val = 10066330 / 2 ^ 25 := by
    rw [val_of_units (u := 10066330 * 2 ^ 124) (by decide +kernel)]; norm_num
  rw [hv]
  refine ⟨by decide, by norm_num [abs_of_pos], by norm_num [abs_of_pos], by norm_num [abs_of_pos]⟩

/-- 1.5 to the power 20 is covered by `C24_powi`. -/
example [Cfg] : ∃ y, (⟨0x3fc00000#32⟩ : F32).powi 20 = .ok y ∧ y.isFinite = true ∧
    |y.val - (3 / 2) ^ 20| ≤ ((1 + 1 / 2 ^ 24) ^ 40 - 1) * (3 / 2) ^ 20 := by
  have hv : (⟨0x3fc00000#32⟩ : F32).val = 3 / 2 := by
    rw [val_of_units (u := 3 * 2 ^ 148) (by decide +kernel)]; norm_num
  have := C24_powi (x := ⟨0x3fc00000#32⟩) (n := 20) (by decide) (by rw [hv]; norm_num) (by norm_num) (by norm_num)
    (by rw [hv]; norm_num) (by rw [hv]; norm_num)
  rw [hv] at this
  obtain ⟨y, h1, h2, h3⟩ := this
  refine ⟨y, h1, h2, ?_⟩
  rw [abs_of_pos (a := ((3 : ℚ) / 2) ^ (20 : Int)) (by positivity)] at h3
  exact_mod_cast h3

/-! ### C25 -/

/-- The exponent computation of the early-exit test leaves the `i32` range (or the exponent is `i32::MIN`).
The factor is the biased exponent field minus 127. -/
def PowiOverflow (x : F32) (n : Int) : Prop :=
  n = -2 ^ 31 ∨ (n ≠ 0 ∧ ¬ (IsVal x 0 ∧ n > 0) ∧ ¬ (x.isFinite = true ∧ 1 / 2 ≤ |x.val| ∧ |x.val| < 2) ∧
    ¬ (-2 ^ 31 ≤ ((x.bits.toNat / 2 ^ 23 % 256 : Nat) - 127 : Int) * n ∧
      ((x.bits.toNat / 2 ^ 23 % 256 : Nat) - 127 : Int) * n < 2 ^ 31))

theorem powiTail_ok [Cfg] (x : F32) (n : Int) (h1 : -2 ^ 31 < n) (h2 : n < 2 ^ 31)
    (h : Cfg.overflowChecks = false ∨ ¬ PowiOverflow x n) : ∃ y, powiTail x n n.natAbs = .ok y := by
  obtain ⟨z, hz, _⟩ := powiRun_ok x n n.natAbs (by omega) (by omega)
  unfold powiTail
  by_cases c0 : n = 0
  · exact ⟨_, by rw [if_pos c0]⟩
  rw [if_neg c0]
  by_cases c1 : x.feq ZERO = true ∧ n > 0
  · exact ⟨_, by rw [if_pos c1]⟩
  rw [if_neg c1]
  by_cases c2 : x.isFinite = true ∧ 1 / 2 ≤ |x.val| ∧ |x.val| < 2
  · exact ⟨_, by rw [if_pos c2, hz]⟩
  rw [if_neg c2, hz]
  have hfld : x.mag / 2 ^ 23 = x.bits.toNat / 2 ^ 23 % 256 := by
    unfold mag; omega
  have : ∃ a, i32chk (((x.mag / 2 ^ 23 : Nat) - 127) * n) = .ok a := by
    rw [i32chk]
    split
    · exact ⟨_, rfl⟩
    · rename_i hr
      rcases h with h | h
      · exact ⟨_, by rw [if_neg (by rw [h]; simp)]⟩
      · exact absurd (Or.inr ⟨c0, by rwa [IsVal, ← feq_zero_iff], c2, by rw [← hfld]; exact hr⟩) h
  obtain ⟨a, ha⟩ := this
  rw [ha, ok_bind]
  split
  · split <;> exact ⟨_, rfl⟩
  · split <;> exact ⟨_, rfl⟩

theorem powiTail_overflow [Cfg] (x : F32) (n : Int) (h1 : -2 ^ 31 < n) (hc : Cfg.overflowChecks = true)
    (h : PowiOverflow x n) : powiTail x n n.natAbs = .error .overflow := by
  rcases h with h | ⟨c0, c1, c2, c3⟩
  · omega
  have hfld : x.mag / 2 ^ 23 = x.bits.toNat / 2 ^ 23 % 256 := by
    unfold mag; omega
  rw [powiTail, if_neg c0, if_neg (by rwa [feq_zero_iff]), if_neg c2, hfld, i32chk, if_neg c3, if_pos hc, error_bind]

/-- **C25.** With overflow checks, `powi` panics exactly in the overflow cases and otherwise returns; without
overflow checks it returns for every `n` except possibly `i32::MIN`. -/
theorem C25_powi_panic_iff [Cfg] (x : F32) (n : Int) (h1 : -2 ^ 31 ≤ n) (h2 : n < 2 ^ 31) :
    (Cfg.overflowChecks = true → (x.powi n = .error .overflow ↔ PowiOverflow x n)) ∧
    (¬ PowiOverflow x n → ∃ y, x.powi n = .ok y) ∧
    (Cfg.overflowChecks = false → n ≠ -2 ^ 31 → ∃ y, x.powi n = .ok y) := by
  have key : ¬ PowiOverflow x n → ∃ y, x.powi n = .ok y := by
    intro h
    have hn : n ≠ -2 ^ 31 := fun e => h (Or.inl e)
    rw [powi_eq x n (by omega) h2]
    exact powiTail_ok x n (by omega) h2 (Or.inr h)
  refine ⟨?_, key, ?_⟩
  · intro hc
    constructor
    · intro h
      by_contra hno
      obtain ⟨y, hy⟩ := key hno
      rw [hy] at h; cases h
    · intro h
      by_cases hn : n = -2 ^ 31
      · rw [hn, powi_min, if_pos hc]
      · rw [powi_eq x n (by omega) h2]
        exact powiTail_overflow x n (by omega) hc h
  · intro hc hn
    rw [powi_eq x n (by omega) h2]
    exact powiTail_ok x n (by omega) h2 (Or.inl hc)

/-- Without overflow checks, `powi(x, i32::MIN)` loops forever exactly when the early exit is not taken. -/
theorem C25_powi_min_diverges [Cfg] (x : F32) (hc : Cfg.overflowChecks = false) :
    x.powi (-2 ^ 31) = .error .diverges ↔
      (x.isFinite = true ∧ 1 / 2 ≤ |x.val| ∧ |x.val| < 2) ∨ x.bits.toNat / 2 ^ 23 % 2 = 1 := by
  have hfld : x.mag / 2 ^ 23 % 2 = x.bits.toNat / 2 ^ 23 % 2 := by
    unfold mag; omega
  rw [powi_min, if_neg (by rw [hc]; simp), powiTail, if_neg (by norm_num), if_neg (by norm_num), powiRun_min]
  by_cases c2 : x.isFinite = true ∧ 1 / 2 ≤ |x.val| ∧ |x.val| < 2
  · rw [if_pos c2]; exact iff_of_true rfl (Or.inl c2)
  rw [if_neg c2, ← hfld]
  have hm := mag_lt x
  rcases Nat.mod_two_eq_zero_or_one (x.mag / 2 ^ 23) with he | ho
  · -- odd unbiased exponent: the wrapped product is `i32::MIN`
    have ha : ∃ a : Int, i32chk (((x.mag / 2 ^ 23 : Nat) - 127) * (-2 ^ 31)) = .ok a ∧ a < -149 := by
      refine ⟨-2 ^ 31, ?_, by norm_num⟩
      rw [i32chk]
      split
      · congr 1; omega
      · rw [if_neg (by rw [hc]; simp)]
        congr 1
        rw [Int.bmod_def]
        omega
    obtain ⟨a, ha, hal⟩ := ha
    rw [ha, ok_bind, he]
    have hno : ¬ ((x.isFinite = true ∧ 1 / 2 ≤ |x.val| ∧ |x.val| < 2) ∨ 0 = 1) := by
      rintro (h | h)
      · exact c2 h
      · omega
    rw [if_pos hal]
    refine iff_of_false ?_ hno
    split
    · split <;> simp
    · simp
  · have ha : i32chk (((x.mag / 2 ^ 23 : Nat) - 127) * (-2 ^ 31)) = .ok 0 := by
      rw [i32chk]
      split
      · congr 1; omega
      · rw [if_neg (by rw [hc]; simp)]
        congr 1
        rw [Int.bmod_def]
        omega
    rw [ha, ok_bind, ho]
    simp

/-- The claim that `powi` always terminates is false without overflow checks: `1.0.powi(i32::MIN)` loops. -/
theorem C25_powi_terminates_false [Cfg] (hc : Cfg.overflowChecks = false) :
    ¬ ∀ x : F32, ∀ n : Int, -2 ^ 31 ≤ n → n < 2 ^ 31 → x.powi n ≠ .error .diverges := by
  intro h
  refine h one (-2 ^ 31) le_rfl (by norm_num) ((C25_powi_min_diverges one hc).2 (Or.inl ⟨fin_one, ?_⟩))
  rw [val_one]; norm_num

/-! ### C26 -/

/-- The early exit is sound for `|x| ≥ 2`: with `2^e ≤ |x| < 2^(e+1)`, `e ≥ 1`, and `e * n` inside `i32`,
it returns an infinity only if `|x^n| ≥ 2^128` and zero only if `|x^n| < 2^-149`.  For `|x| < 1/2` only the weaker bounds hold
(`C26_powi_exit_small`), and the claim of the property is false (`C26_powi_exit_false`). -/
theorem C26_powi_exit [Cfg] {x : F32} {n e : Int} (_hx : x.isFinite = true) (he : 1 ≤ e)
    (h1 : (2 : ℚ) ^ e ≤ |x.val|) (h2 : |x.val| < 2 ^ (e + 1)) (hn1 : -2 ^ 31 < n) (hn2 : n < 2 ^ 31)
    (hr1 : -2 ^ 31 ≤ e * n) (hr2 : e * n < 2 ^ 31) :
    (127 < e * n → x.powi n = .ok (if x.sign = false ∨ n % 2 = 0 then posInf else negInf) ∧ 2 ^ 128 ≤ |x.val ^ n|) ∧
    (e * n < -149 → x.powi n = .ok posZero ∧ |x.val ^ n| < 1 / 2 ^ 149) := by
  have hfe := exp_field_eq (by omega) h1 h2
  have h2x : 2 ≤ |x.val| := by
    refine le_trans ?_ h1
    calc (2 : ℚ) = 2 ^ (1 : Int) := by norm_num
      _ ≤ 2 ^ e := zpow_le_zpow_right₀ (by norm_num) he
  have hz : ¬ x.feq ZERO = true := by
    rw [feq_zero_iff]; intro h; rw [h.2, abs_zero] at h2x; norm_num at h2x
  have hnn : ¬ (x.isFinite = true ∧ 1 / 2 ≤ |x.val| ∧ |x.val| < 2) := fun h => absurd h.2.2 (not_lt.2 h2x)
  have h0 : 0 < |x.val| := by linarith
  constructor
  · intro h
    have hn0 : 0 < n := by by_contra hc; nlinarith
    constructor
    · rw [powi_eq x n hn1 hn2, powiTail, if_neg (by omega), if_neg (fun h => hz h.1), if_neg hnn, hfe, i32chk,
        if_pos ⟨hr1, hr2⟩, ok_bind, if_pos (Or.inl h)]
      split <;> rfl
    · have : ((2 : ℚ) ^ e) ^ n ≤ |x.val| ^ n := zpow_le_zpow_left₀ hn0.le (by positivity) h1
      rw [← zpow_mul, ← abs_zpow] at this
      refine le_trans ?_ this
      rw [← zpow_natCast]
      exact zpow_le_zpow_right₀ (by norm_num) (by push_cast; omega)
  · intro h
    have hn0 : n < 0 := by by_contra hc; nlinarith
    constructor
    · rw [powi_eq x n hn1 hn2, powiTail, if_neg (by omega), if_neg (fun h => hz h.1), if_neg hnn, hfe, i32chk,
        if_pos ⟨hr1, hr2⟩, ok_bind, if_neg (by
          rintro (h' | h')
          · omega
          · exact hz h'.1), if_pos h]
    · have : |x.val| ^ n ≤ ((2 : ℚ) ^ e) ^ n := by
        have := zpow_le_zpow_left₀ (n := -n) (by omega) (by positivity) h1
        rw [zpow_neg, zpow_neg] at this
        exact (inv_le_inv₀ (by positivity) (by positivity)).1 this
      rw [← zpow_mul, ← abs_zpow] at this
      refine lt_of_le_of_lt this ?_
      rw [show (1 : ℚ) / 2 ^ 149 = 2 ^ (-149 : Int) by norm_num]
      exact zpow_lt_zpow_right₀ (by norm_num) h

/-- The early exit for `0 < |x| < 1/2`: it triggers too early, but a zero still means `|x^n| < 2^-74` and
an infinity `|x^n| > 2^63`.  `e` is the exponent field minus 127. -/
theorem C26_powi_exit_small [Cfg] {x : F32} {n e : Int} (_hx : x.isFinite = true) (hx0 : x.val ≠ 0)
    (hs : |x.val| < 1 / 2) (he : e = (x.bits.toNat / 2 ^ 23 % 256 : Nat) - 127) (hn1 : -2 ^ 31 < n) (hn2 : n < 2 ^ 31)
    (hr1 : -2 ^ 31 ≤ e * n) (hr2 : e * n < 2 ^ 31) :
    (127 < e * n → x.powi n = .ok (if x.sign = false ∨ n % 2 = 0 then posInf else negInf) ∧ 2 ^ 63 < |x.val ^ n|) ∧
    (e * n < -149 → x.powi n = .ok posZero ∧ |x.val ^ n| < 1 / 2 ^ 74) := by
  have hfld : x.mag / 2 ^ 23 = x.bits.toNat / 2 ^ 23 % 256 := by
    unfold mag; omega
  rw [← hfld] at he
  have hz : ¬ x.feq ZERO = true := by
    rw [feq_zero_iff]; intro h; exact hx0 h.2
  have hnn : ¬ (x.isFinite = true ∧ 1 / 2 ≤ |x.val| ∧ |x.val| < 2) := fun h => absurd h.2.1 (not_le.2 hs)
  have h0 : 0 < |x.val| := abs_pos.2 hx0
  have hlt := exp_field_lt x
  rw [← he] at hlt
  have he2 : e ≤ -2 := by
    have := (lt_pow_iff (x := x) (k := 126) (by norm_num)).1 (by norm_num; linarith)
    omega
  constructor
  · intro h
    have hn0 : n < 0 := by by_contra hc; nlinarith
    constructor
    · rw [powi_eq x n hn1 hn2, powiTail, if_neg (by omega), if_neg (fun h => hz h.1), if_neg hnn, ← he, i32chk,
        if_pos ⟨hr1, hr2⟩, ok_bind, if_pos (Or.inl h)]
      split <;> rfl
    · have : ((2 : ℚ) ^ (e + 1)) ^ n < |x.val| ^ n := by
        have := zpow_lt_zpow_left₀ (n := -n) (by omega) (by positivity) hlt
        rw [zpow_neg, zpow_neg] at this
        exact (inv_lt_inv₀ (by positivity) (by positivity)).1 this
      rw [← zpow_mul, ← abs_zpow] at this
      refine lt_of_le_of_lt ?_ this
      rw [← zpow_natCast]
      exact zpow_le_zpow_right₀ (by norm_num) (by push_cast; nlinarith)
  · intro h
    have hn0 : 0 < n := by by_contra hc; nlinarith
    constructor
    · rw [powi_eq x n hn1 hn2, powiTail, if_neg (by omega), if_neg (fun h => hz h.1), if_neg hnn, ← he, i32chk,
        if_pos ⟨hr1, hr2⟩, ok_bind, if_neg (by
          rintro (h' | h')
          · omega
          · exact hz h'.1), if_pos h]
    · have : |x.val| ^ n < ((2 : ℚ) ^ (e + 1)) ^ n := zpow_lt_zpow_left₀ hn0 (by positivity) hlt
      rw [← zpow_mul, ← abs_zpow] at this
      refine lt_of_lt_of_le this ?_
      rw [show (1 : ℚ) / 2 ^ 74 = 2 ^ (-74 : Int) by norm_num]
      exact zpow_le_zpow_right₀ (by norm_num) (by nlinarith)

/-- The claim of the property is false below `1/2`: `0.49.powi(-64)` is `+inf` although the true power is below
`2^66`, and `0.49.powi(75)` is `0.0` although the true power exceeds `2^-78`. -/
theorem C26_powi_exit_false [Cfg] :
    (F32.powi ⟨0x3efae148#32⟩ (-64) = .ok posInf ∧ |(⟨0x3efae148#32⟩ : F32).val ^ (-64 : Int)| < 2 ^ 66) ∧
    (F32.powi ⟨0x3efae148#32⟩ 75 = .ok posZero ∧ 1 / 2 ^ 78 < |(⟨0x3efae148#32⟩ : F32).val ^ (75 : Int)|) := by
  have hv : (⟨0x3efae148#32⟩ : F32).val = 16441672 / 2 ^ 25 := by
    rw [val_of_units (u := 16441672 * 2 ^ 124) (by decide +kernel)]; norm_num
  refine ⟨⟨eval_ok (by kernel_rfl) (by decide), ?_⟩, ⟨eval_ok (by kernel_rfl) (by decide), ?_⟩⟩
  · rw [hv]; norm_num [abs_of_pos]
  · rw [hv]; norm_num [abs_of_pos]

/-- In a build without overflow checks the exponent product wraps: `4.0.powi(2^30)` is `0.0`. -/
theorem C26_powi_wrap_false [Cfg] (hc : Cfg.overflowChecks = false) :
    F32.powi ⟨0x40800000#32⟩ (2 ^ 30) = .ok posZero := by
  have hm : (⟨0x40800000#32⟩ : F32).mag = 0x40800000 := by decide
  have hv : (⟨0x40800000#32⟩ : F32).val = 4 := by
    rw [val_of_units (u := 2 ^ 151) (by decide +kernel)]; norm_num
  have hz : ¬ (⟨0x40800000#32⟩ : F32).feq ZERO = true := by decide
  rw [powi_eq _ _ (by norm_num) (by norm_num), powiTail, if_neg (by norm_num), if_neg (fun h => hz h.1), if_neg (by
    rw [hv]; norm_num), hm, i32chk, if_neg (by norm_num), if_neg (by rw [hc]; simp), ok_bind, if_neg (by
      rintro (h | h)
      · revert h; decide
      · exact hz h.1), if_pos (by decide)]

/-- Nonvacuity of `C26_powi_exit`: `3.0.powi(128)` and `3.0.powi(-150)`. -/
example [Cfg] : F32.powi ⟨0x40400000#32⟩ 128 = .ok posInf ∧ F32.powi ⟨0x40400000#32⟩ (-150) = .ok posZero := by
  have hv : (⟨0x40400000#32⟩ : F32).val = 3 := by
    rw [val_of_units (u := 3 * 2 ^ 149) (by decide +kernel)]; norm_num
  constructor
  · have := ((C26_powi_exit (x := ⟨0x40400000#32⟩) (n := 128) (e := 1) (by decide) le_rfl (by rw [hv]; norm_num)
      (by rw [hv]; norm_num) (by norm_num) (by norm_num) (by norm_num) (by norm_num)).1 (by norm_num)).1
    rw [if_pos (by decide)] at this; exact this
  · exact ((C26_powi_exit (x := ⟨0x40400000#32⟩) (n := -150) (e := 1) (by decide) le_rfl (by rw [hv]; norm_num)
      (by rw [hv]; norm_num) (by norm_num) (by norm_num) (by norm_num) (by norm_num)).2 (by norm_num)).1

end Micromath.Props
