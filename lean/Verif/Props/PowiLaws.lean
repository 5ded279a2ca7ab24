import Verif.Props.Powi
import Verif.Props.BitTricks
import Verif.Props.NormOrder

/-!
# C130: parity, order and exact values of `powi`
-/

set_option exponentiation.threshold 1000

namespace Micromath.Props
open F32 Spec
variable [Cfg]

/-! ### parity -/

/-- Two results agree: the same fault, or values in the relation. -/
def ResRel (R : F32 → F32 → Prop) (p q : Res F32) : Prop :=
  (∃ a b, p = .ok a ∧ q = .ok b ∧ R a b) ∨ ∃ e, p = .error e ∧ q = .error e

omit [Cfg] in
theorem eqv_neg_neg {a b : F32} (h : Eqv a (-b)) : Eqv (-a) b := by
  have := h.neg
  rwa [neg_neg'] at this

theorem loop_step (k : Nat) (m : Int) (b r : F32) : powiLoop (k + 1) m b r =
    if m / 2 = 0 then some (if m % 2 = 1 then r * b else r) else powiLoop k (m / 2) (b * b) (if m % 2 = 1 then r * b else r) := rfl

theorem one_mul_eqv (x : F32) : Eqv (one * x) x := by
  by_cases h : x.isNaN = true
  · exact .of_nan (mul_nan (.inr h)) h
  · refine (mul_comm_eqv _ _).trans (.of_eq (mul_one_nn (by simpa using h)))

theorem loop_eqv (fuel : Nat) (m : Int) {b b' r r' : F32} (hb : Eqv b' b) (hr : Eqv r' r) :
    (∃ y y', powiLoop fuel m b r = some y ∧ powiLoop fuel m b' r' = some y' ∧ Eqv y' y) ∨
      (powiLoop fuel m b r = none ∧ powiLoop fuel m b' r' = none) := by
  induction fuel generalizing m b b' r r' with
  | zero => exact .inr ⟨rfl, rfl⟩
  | succ k ih =>
    have h2 : Eqv (if m % 2 = 1 then r' * b' else r') (if m % 2 = 1 then r * b else r) := by
      split
      · exact hr.mul hb
      · exact hr
    rw [loop_step, loop_step]
    by_cases hz : m / 2 = 0
    · rw [if_pos hz, if_pos hz]; exact .inl ⟨_, _, rfl, rfl, h2⟩
    · rw [if_neg hz, if_neg hz]; exact ih _ (hb.mul hb) h2

theorem loop_eqv_neg (fuel : Nat) (m : Int) {b b' r r' : F32} (hb : Eqv b' b) (hr : Eqv r' (-r)) :
    (∃ y y', powiLoop fuel m b r = some y ∧ powiLoop fuel m b' r' = some y' ∧ Eqv y' (-y)) ∨
      (powiLoop fuel m b r = none ∧ powiLoop fuel m b' r' = none) := by
  induction fuel generalizing m b b' r r' with
  | zero => exact .inr ⟨rfl, rfl⟩
  | succ k ih =>
    have h2 : Eqv (if m % 2 = 1 then r' * b' else r') (-(if m % 2 = 1 then r * b else r)) := by
      split
      · exact (hr.mul hb).trans (neg_mul_eqv _ _)
      · exact hr
    rw [loop_step, loop_step]
    by_cases hz : m / 2 = 0
    · rw [if_pos hz, if_pos hz]; exact .inl ⟨_, _, rfl, rfl, h2⟩
    · rw [if_neg hz, if_neg hz]; exact ih _ (hb.mul hb) h2

theorem div_neg_eqv (x y : F32) : Eqv (x / -y) (-(x / y)) := by
  by_cases hx : x.isNaN = true
  · exact .of_nan (div_nan (Or.inl hx)) (by simpa using div_nan (y := y) (Or.inl hx))
  by_cases hy : y.isNaN = true
  · exact .of_nan (div_nan (Or.inr (by simpa using hy))) (by simpa using div_nan (x := x) (Or.inr hy))
  have hn : ¬ (x.isNaN || y.isNaN) = true := by simp [hx, hy]
  have hn' : ¬ (x.isNaN || (-y).isNaN) = true := by simpa using hn
  have e : (x.sign != !y.sign) = !(x.sign != y.sign) := by cases x.sign <;> cases y.sign <;> rfl
  have hi : (-y).isInf = y.isInf := by rw [isInf, isInf, mag_neg]
  have nn : ∀ a b, Eqv (Cfg.nanOp .div x a) (-(Cfg.nanOp .div x b)) := fun a b =>
    .of_nan (Cfg.nanOp_isNaN _ _ _) (by simpa using Cfg.nanOp_isNaN _ _ _)
  rw [div_def, div_def, F32.div, F32.div, if_neg hn, if_neg hn', isZero_neg, hi, sign_neg, mag_neg, e]
  split
  · split
    · exact nn _ _
    · exact .of_eq (neg_pack _ infMag_lt).symm
  · split
    · exact .of_eq (neg_pack _ (by norm_num)).symm
    · split
      · split
        · exact nn _ _
        · exact .of_eq (neg_pack _ infMag_lt).symm
      · exact .of_eq (neg_pack _ (roundMag_lt _ _)).symm

/-- The loop at `-x`. -/
theorem run_neg (x : F32) (n m : Int) (hp : m % 2 = n % 2) :
    ResRel (fun a b => Eqv a (if n % 2 = 0 then b else -b)) (powiRun (-x) n m) (powiRun x n m) := by
  have hb : Eqv (if n < 0 then one / -x else -x) (-(if n < 0 then one / x else x)) := by
    split
    · exact div_neg_eqv _ x
    · exact .rfl
  unfold powiRun
  generalize (if n < 0 then one / -x else -x) = b' at *
  generalize (if n < 0 then one / x else x) = b at *
  have hbb : Eqv (b' * b') (b * b) := (hb.mul hb).trans (neg_mul_neg_eqv _ _)
  rw [loop_step 31 m b one, loop_step 31 m b' one, hp]
  by_cases he : n % 2 = 0
  · have h1 : ¬ n % 2 = 1 := by omega
    simp only [he, if_true, show ¬ ((0 : Int) = 1) by norm_num, if_false]
    by_cases hz : m / 2 = 0
    · rw [if_pos hz, if_pos hz]; exact .inl ⟨_, _, rfl, rfl, .rfl⟩
    · rw [if_neg hz, if_neg hz]
      rcases loop_eqv 31 (m / 2) hbb (.rfl (x := one)) with ⟨y, y', e1, e2, e3⟩ | ⟨e1, e2⟩
      · rw [e1, e2]; exact .inl ⟨_, _, rfl, rfl, e3⟩
      · rw [e1, e2]; exact .inr ⟨_, rfl, rfl⟩
  · have h1 : n % 2 = 1 := by omega
    simp only [h1, if_true, show ¬ ((1 : Int) = 0) by norm_num, if_false]
    have hr : Eqv (one * b') (-(one * b)) := ((Eqv.rfl (x := one)).mul hb).trans (mul_neg_eqv _ _)
    by_cases hz : m / 2 = 0
    · rw [if_pos hz, if_pos hz]; exact .inl ⟨_, _, rfl, rfl, hr⟩
    · rw [if_neg hz, if_neg hz]
      rcases loop_eqv_neg 31 (m / 2) hbb hr with ⟨y, y', e1, e2, e3⟩ | ⟨e1, e2⟩
      · rw [e1, e2]; exact .inl ⟨_, _, rfl, rfl, e3⟩
      · rw [e1, e2]; exact .inr ⟨_, rfl, rfl⟩

omit [Cfg] in
theorem ResRel.refl_ok {R : F32 → F32 → Prop} {a b : F32} (h : R a b) : ResRel R (.ok a) (.ok b) := .inl ⟨a, b, rfl, rfl, h⟩

omit [Cfg] in
theorem ResRel.mono {R S : F32 → F32 → Prop} (h : ∀ a b, R a b → S a b) {p q : Res F32} (hr : ResRel R p q) : ResRel S p q := by
  rcases hr with ⟨a, b, e1, e2, e3⟩ | e
  · exact .inl ⟨a, b, e1, e2, h _ _ e3⟩
  · exact .inr e

omit [Cfg] in
theorem feq_zero_neg (x : F32) : (-x).feq ZERO = true ↔ x.feq ZERO = true := by
  rw [feq_zero_iff, feq_zero_iff, isFinite_neg, val_neg, neg_eq_zero]

/-- Results at `-x` and at `x`. -/
def NegRel (n : Int) (a b : F32) : Prop := Eqv a (if n % 2 = 0 then b else -b) ∨ (a = posZero ∧ b = posZero)

theorem tail_neg (x : F32) (n m : Int) (hp : m % 2 = n % 2) (hz : ¬ (x.feq ZERO = true ∧ n > 0)) :
    ResRel (NegRel n) (powiTail (-x) n m) (powiTail x n m) := by
  unfold powiTail
  rw [isFinite_neg, val_neg, abs_neg, mag_neg, sign_neg]
  simp only [feq_zero_neg]
  have hrun := (run_neg x n m hp).mono (S := NegRel n)
    (fun a b h => .inl h)
  by_cases h0 : n = 0
  · rw [if_pos h0, if_pos h0]
    exact .refl_ok (.inl (by rw [if_pos (by omega)]; exact .rfl))
  rw [if_neg h0, if_neg h0, if_neg hz, if_neg hz]
  split
  · exact hrun
  · rcases i32chk (((x.mag / 2 ^ 23 : Nat) - 127) * n) with e | a
    · exact .inr ⟨e, rfl, rfl⟩
    · rw [ok_bind, ok_bind]
      split
      · by_cases he : n % 2 = 0
        · rw [if_pos (.inr he), if_pos (.inr he)]
          exact .refl_ok (.inl (by rw [if_pos he]; exact .rfl))
        · cases x.sign
          · rw [if_neg (by simp [he]), if_pos (.inl rfl)]
            exact .refl_ok (.inl (by rw [if_neg he]; exact .of_eq (by decide)))
          · rw [if_pos (.inl rfl), if_neg (by simp [he])]
            exact .refl_ok (.inl (by rw [if_neg he]; exact .of_eq (by decide)))
      · split
        · exact .refl_ok (.inr ⟨rfl, rfl⟩)
        · exact hrun

theorem powi_neg (x : F32) (n : Int) (h1 : -2 ^ 31 ≤ n) (h2 : n < 2 ^ 31) (hz : ¬ (x.feq ZERO = true ∧ n > 0)) :
    ResRel (NegRel n) ((-x).powi n) (x.powi n) := by
  by_cases hm : n = -2 ^ 31
  · rw [hm, powi_min, powi_min]
    split
    · exact .inr ⟨_, rfl, rfl⟩
    · have := tail_neg x (-2 ^ 31) (-2 ^ 31) rfl (by rw [← hm]; exact hz)
      exact this
  · rw [powi_eq _ _ (by omega) h2, powi_eq _ _ (by omega) h2]
    exact tail_neg x n n.natAbs (by omega) hz

/-- **C130.** Even powers: `powi(-x, n)` and `powi(x, n)` fail alike or return the same bits (or are both NaN), for every `f32` and every
even `i32`, except zeros to positive powers. -/
theorem C130_even (x : F32) (n : Int) (h1 : -2 ^ 31 ≤ n) (h2 : n < 2 ^ 31) (he : n % 2 = 0) (hz : ¬ (IsVal x 0 ∧ n > 0)) :
    (∃ a b, (-x).powi n = .ok a ∧ x.powi n = .ok b ∧ (a = b ∨ (a.isNaN = true ∧ b.isNaN = true))) ∨
      ∃ e, (-x).powi n = .error e ∧ x.powi n = .error e := by
  rcases powi_neg x n h1 h2 (by rwa [IsVal, ← feq_zero_iff] at hz) with ⟨a, b, e1, e2, e3⟩ | e
  · refine .inl ⟨a, b, e1, e2, ?_⟩
    rw [NegRel, if_pos he] at e3
    rcases e3 with h | h
    · rcases h with h | h
      · exact .inr h
      · exact .inl h
    · exact .inl (h.1.trans h.2.symm)
  · exact .inr e

/-- **C130.** Odd powers: `powi(-x, n)` is `-powi(x, n)` bit for bit (or both are NaN, or both are `+0.0`: the early exit drops the sign),
and they fail alike, for every `f32` and every odd `i32`; zeros included, since they are returned unchanged. -/
theorem C130_odd (x : F32) (n : Int) (h1 : -2 ^ 31 ≤ n) (h2 : n < 2 ^ 31) (ho : n % 2 = 1) :
    (∃ a b, (-x).powi n = .ok a ∧ x.powi n = .ok b ∧ (a = -b ∨ (a.isNaN = true ∧ b.isNaN = true) ∨ (a = posZero ∧ b = posZero))) ∨
      ∃ e, (-x).powi n = .error e ∧ x.powi n = .error e := by
  by_cases hz : x.feq ZERO = true ∧ n > 0
  · refine .inl ⟨-x, x, ?_, ?_, .inl rfl⟩
    · rw [powi_eq _ _ (by omega) h2, powiTail, if_neg (by omega), if_pos (by rw [feq_zero_neg]; exact hz)]
    · rw [powi_eq _ _ (by omega) h2, powiTail, if_neg (by omega), if_pos hz]
  · rcases powi_neg x n h1 h2 hz with ⟨a, b, e1, e2, e3⟩ | e
    · refine .inl ⟨a, b, e1, e2, ?_⟩
      rw [NegRel, if_neg (by omega)] at e3
      rcases e3 with h | h
      · rcases h with h | h
        · exact .inr (.inl ⟨h.1, by simpa using h.2⟩)
        · exact .inl h
      · exact .inr (.inr h)
    · exact .inr e

/-- The exception for zeros is real: `-0.0` squared is `-0.0`; and the sign is lost in `(-2^-60)^3`. -/
theorem C130_signs_false :
    negZero.powi 2 = .ok negZero ∧ posZero.powi 2 = .ok posZero ∧
    (⟨0xa1800000#32⟩ : F32).powi 3 = .ok posZero := by
  refine ⟨eval_ok (by kernel_rfl) (by decide), eval_ok (by kernel_rfl) (by decide), eval_ok (by kernel_rfl) (by decide)⟩

/-! ### exact values -/

omit [Cfg] in
theorem i32_small (x : F32) {n : Int} (h : |n| < 2 ^ 24) :
    -2 ^ 31 ≤ (((x.mag / 2 ^ 23 : Nat) : Int) - 127) * n ∧ (((x.mag / 2 ^ 23 : Nat) : Int) - 127) * n < 2 ^ 31 := by
  have hm : x.mag < 2 ^ 31 := by unfold mag; omega
  obtain ⟨e, he⟩ : ∃ e : Int, e = ((x.mag / 2 ^ 23 : Nat) : Int) - 127 := ⟨_, rfl⟩
  rw [← he]
  have h1 : |e| ≤ 128 := by rw [abs_le]; omega
  have h2 : |e * n| ≤ 128 * (2 ^ 24 - 1) := by
    rw [abs_mul]
    exact mul_le_mul h1 (by omega) (abs_nonneg _) (by norm_num)
  rw [abs_le] at h2
  omega

/-- `powi` for exponents below `2^24` in magnitude, where the exponent product cannot wrap. -/
theorem powi_small (x : F32) {n : Int} (hn : n ≠ 0) (h : |n| < 2 ^ 24) :
    x.powi n = if x.feq ZERO = true ∧ n > 0 then .ok x
      else if (x.isFinite = true ∧ 1 / 2 ≤ |x.val| ∧ |x.val| < 2) then powiRun x n n.natAbs
      else if (((x.mag / 2 ^ 23 : Nat) : Int) - 127) * n > 127 ∨ (x.feq ZERO = true ∧ (((x.mag / 2 ^ 23 : Nat) : Int) - 127) * n < 0) then
        (if x.sign = false ∨ n % 2 = 0 then .ok posInf else .ok negInf)
      else if (((x.mag / 2 ^ 23 : Nat) : Int) - 127) * n < -149 then .ok posZero
      else powiRun x n n.natAbs := by
  have h' := abs_lt.1 h
  rw [powi_eq _ _ (by omega) (by omega), powiTail, if_neg hn, i32chk, if_pos (i32_small x h), ok_bind]

/-- **C130.** `powi(x, -1)` is `1.0 / x` on every bit pattern. -/
theorem C130_minus_one (x : F32) : ∃ y, x.powi (-1) = .ok y ∧ (y = one / x ∨ (y.isNaN = true ∧ (one / x).isNaN = true)) := by
  have hrun : powiRun x (-1) ((-1 : Int).natAbs) = .ok (one * (one / x)) := by
    have : powiLoop 32 ((-1 : Int).natAbs) (if (-1 : Int) < 0 then one / x else x) one = some (one * (one / x)) := by
      rw [if_pos (by norm_num)]; rfl
    rw [powiRun, this]
  have hm : x.mag < 2 ^ 31 := by unfold mag; omega
  refine ⟨one * (one / x), ?_, ?_⟩
  · rw [powi_small x (by norm_num) (by norm_num), if_neg (by omega), hrun]
    split
    · rfl
    · rw [if_neg, if_neg (by omega)]
      rintro (h | h)
      · omega
      · obtain ⟨h3, h4⟩ := h
        rw [feq_zero_iff] at h3
        have : x.mag = 0 := val_eq_zero.1 h3.2
        omega
  · rcases one_mul_eqv (one / x) with h | h
    · exact .inr h
    · exact .inl h

theorem loop_two (x : F32) : powiLoop 32 ((2 : Int).natAbs) x one = some (one * (x * x)) := by
  have h1 : ¬ ((((2 : Int).natAbs : Nat) : Int) / 2 = 0) := by decide
  have h2 : ¬ ((((2 : Int).natAbs : Nat) : Int) % 2 = 1) := by decide
  have h3 : (((2 : Int).natAbs : Nat) : Int) / 2 / 2 = 0 := by decide
  have h4 : (((2 : Int).natAbs : Nat) : Int) / 2 % 2 = 1 := by decide
  rw [loop_step 31, if_neg h1, if_neg h2, loop_step 30, if_pos h3, if_pos h4]

omit [Cfg] in
theorem pack_zero : pack false 0 = posZero := by decide

/-- **C130.** `powi(x, 2)` is `x * x`, bit for bit, except for `-0.0`, NaN and `2^-75 < |x| < 2^-74`, where the early exit is premature. -/
theorem C130_square (x : F32) (hn : x.isNaN = false) (hz : x ≠ negZero) (hb : ¬ (1 / 2 ^ 75 < |x.val| ∧ |x.val| < 1 / 2 ^ 74)) :
    x.powi 2 = .ok (x * x) := by
  have nsq : (x * x).isNaN = false := by
    rw [nn_sq hn]
    have := sqM_le x.mag
    unfold F32.isNaN
    rw [mag_pack _ (lt_of_le_of_lt this infMag_lt)]
    simpa using this
  have hrun : powiRun x 2 ((2 : Int).natAbs) = .ok (x * x) := by
    have : powiLoop 32 ((2 : Int).natAbs) (if (2 : Int) < 0 then one / x else x) one = some (one * (x * x)) := by
      rw [if_neg (by norm_num)]; exact loop_two x
    rw [powiRun, this]
    exact congrArg _ ((one_mul_eqv _).symm.eq nsq).symm
  have hm : x.mag < 2 ^ 31 := by unfold mag; omega
  rw [powi_small x (by norm_num) (by norm_num), hrun]
  have hi : infMag = 255 * 2 ^ 23 := by decide
  have hle : x.mag ≤ infMag := by
    unfold F32.isNaN at hn; simpa using hn
  by_cases z : x.feq ZERO = true
  · rw [if_pos ⟨z, by norm_num⟩]
    rw [feq_zero_iff] at z
    have m0 : x.mag = 0 := val_eq_zero.1 z.2
    have s0 : x.sign = false := by
      cases h : x.sign
      · rfl
      · exact absurd (ext_mag_sign (x := x) (y := negZero) (by rw [m0]; decide) (by rw [h]; decide)) hz
    have : x = posZero := ext_mag_sign (by rw [m0]; decide) (by rw [s0]; decide)
    rw [this, nn_sq (by decide)]
    have : sqM posZero.mag = 0 := by
      have : posZero.mag = 0 := by decide
      rw [this, sqM]; simp
    rw [this, pack_zero]
  · rw [if_neg (fun h => z h.1)]
    split
    · rfl
    · split
      · rename_i h
        have he : 191 * 2 ^ 23 ≤ x.mag := by
          rcases h with h | h
          · omega
          · exact absurd h.1 z
        rw [if_pos (.inr (by norm_num)), sq_overflow]
        rcases class_cases x with f | f | f
        · right
          refine ⟨f, ?_⟩
          have := (pow_le_iff (x := x) (k := 191) (by norm_num)).2 he
          norm_num at this ⊢
          exact this
        · exact .inl f
        · rw [hn] at f; cases f
      · split
        · rename_i h
          have he : x.mag < 53 * 2 ^ 23 := by omega
          have v1 : |x.val| < 1 / 2 ^ 74 := by
            have := (lt_pow_iff (x := x) (k := 53) (by norm_num)).2 he
            norm_num at this ⊢
            exact this
          have v2 : |x.val| ≤ 1 / 2 ^ 75 := by
            by_contra hc
            exact hb ⟨not_le.1 hc, v1⟩
          have := sqM_tiny v2
          rw [nn_sq hn, this, pack_zero]
        · rfl

/-- In the excluded band the result is zero although the square is not. -/
theorem C130_square_false : ∃ x : F32, x.powi 2 = .ok posZero ∧ posZero.lt (x * x) = true := by
  refine ⟨⟨0x1a700000#32⟩, eval_ok (by kernel_rfl) (by decide), ?_⟩
  have : (⟨0x1a700000#32⟩ : F32) * ⟨0x1a700000#32⟩ = ⟨2#32⟩ := eval_eq (by kernel_rfl)
  rw [this]; decide

/-! ### order -/

/-- Magnitude bits of one. -/
def oneM : Nat := 127 * 2 ^ 23

/-- Magnitude bits of the product of two nonnegative floats. -/
def mulM (m n : Nat) : Nat := min (rbits (mval m * mval n)) infMag

omit [Cfg] in
theorem mval_oneM : mval oneM = 1 := by
  have h : one.mag = oneM := by decide
  rw [← h, ← val_of_pos (x := one) (by decide), val_one]

omit [Cfg] in
theorem mulM_mono {m m' n n' : Nat} (hm : m ≤ m') (hn : n ≤ n') : mulM m n ≤ mulM m' n' := by
  refine min_le_min_right _ (rbits_mono ?_)
  have h1 := mval_nonneg m
  have h2 := mval_nonneg n
  have h3 := mval_le.2 hm
  have h4 := mval_le.2 hn
  rw [abs_of_nonneg (mul_nonneg h1 h2), abs_of_nonneg (mul_nonneg (h1.trans h3) (h2.trans h4))]
  exact mul_le_mul h3 h4 h2 (h1.trans h3)

/-- Both at least one, or both at most one. -/
def Side (m n : Nat) : Prop := m ≤ infMag ∧ n ≤ infMag ∧ ((oneM ≤ m ∧ oneM ≤ n) ∨ (m ≤ oneM ∧ n ≤ oneM))

omit [Cfg] in
theorem mulM_one : mulM oneM oneM = oneM := by
  rw [mulM, mval_oneM, one_mul, ← mval_oneM, rbits_mval]
  decide

omit [Cfg] in
theorem mulM_ge {m n : Nat} (hm : oneM ≤ m) (hn : oneM ≤ n) : oneM ≤ mulM m n := by
  rw [← mulM_one]; exact mulM_mono hm hn
omit [Cfg] in
theorem mulM_le {m n : Nat} (hm : m ≤ oneM) (hn : n ≤ oneM) : mulM m n ≤ oneM := by
  rw [← mulM_one]; exact mulM_mono hm hn

/-- A product of nonnegative floats on the same side of one. -/
theorem mul_pack {m n : Nat} (h : Side m n) : pack false m * pack false n = pack false (mulM m n) := by
  obtain ⟨hm, hn, hs⟩ := h
  have lm := lt_of_le_of_lt hm infMag_lt
  have ln := lt_of_le_of_lt hn infMag_lt
  have ho : oneM < infMag := by decide
  by_cases hf : m < infMag ∧ n < infMag
  · have f1 : (pack false m).isFinite = true := by rw [isFinite_iff, mag_pack _ lm]; exact hf.1
    have f2 : (pack false n).isFinite = true := by rw [isFinite_iff, mag_pack _ ln]; exact hf.2
    rw [mul_finite f1 f2, val_of_pos (sign_pack _ lm), val_of_pos (sign_pack _ ln), mag_pack _ lm, mag_pack _ ln, sign_pack _ lm,
      sign_pack _ ln]
    rfl
  · have hge : oneM ≤ m ∧ oneM ≤ n := by
      rcases hs with h | h
      · exact h
      · exact absurd ⟨lt_of_le_of_lt h.1 ho, lt_of_le_of_lt h.2 ho⟩ hf
    have hinf : mulM m n = infMag := by
      refine le_antisymm (min_le_right _ _) (le_min ?_ le_rfl)
      by_contra hc
      rw [not_le, rbits_lt_inf_iff, abs_of_nonneg (mul_nonneg (mval_nonneg _) (mval_nonneg _))] at hc
      have a := mval_le.2 hge.1
      have b := mval_le.2 hge.2
      rw [mval_oneM] at a b
      have ho2 : ovf < 2 ^ 128 := by norm_num [ovf]
      have : m = infMag ∨ n = infMag := by omega
      rcases this with h | h
      · rw [h, mval_infMag] at hc; nlinarith
      · rw [h, mval_infMag] at hc; nlinarith
    rw [hinf, mul_def, F32.mul]
    have nn : ∀ {k}, k ≤ infMag → (pack false k).isNaN = false := by
      intro k hk
      unfold F32.isNaN
      rw [mag_pack _ (lt_of_le_of_lt hk infMag_lt)]
      simpa using hk
    have nz : ∀ {k}, k ≤ infMag → oneM ≤ k → (pack false k).isZero = false := by
      intro k hk hk1
      unfold F32.isZero
      rw [mag_pack _ (lt_of_le_of_lt hk infMag_lt)]
      have : 0 < oneM := by decide
      simp; omega
    rw [nn hm, nn hn, nz hm hge.1, nz hn hge.2, sign_pack _ lm, sign_pack _ ln]
    have : ((pack false m).isInf || (pack false n).isInf) = true := by
      have : m = infMag ∨ n = infMag := by omega
      rcases this with h | h
      · rw [h]; simp [show (pack false infMag).isInf = true by decide]
      · rw [h]; simp [show (pack false infMag).isInf = true by decide]
    rw [this]; rfl

/-- The loop on magnitudes. -/
def loopM : Nat → Int → Nat → Nat → Option Nat
  | 0, _, _, _ => none
  | fuel + 1, m, b, r =>
    if m / 2 = 0 then some (if m % 2 = 1 then mulM r b else r)
    else loopM fuel (m / 2) (mulM b b) (if m % 2 = 1 then mulM r b else r)

omit [Cfg] in
theorem Side.mul {r b : Nat} (h : Side r b) : Side (mulM r b) b ∧ mulM r b ≤ infMag := by
  obtain ⟨h1, h2, h3⟩ := h
  have : mulM r b ≤ infMag := min_le_right _ _
  refine ⟨⟨this, h2, ?_⟩, this⟩
  rcases h3 with h | h
  · exact .inl ⟨mulM_ge h.1 h.2, h.2⟩
  · exact .inr ⟨mulM_le h.1 h.2, h.2⟩

omit [Cfg] in
theorem Side.sq {r b : Nat} (h : Side r b) : Side r (mulM b b) := by
  obtain ⟨h1, h2, h3⟩ := h
  refine ⟨h1, min_le_right _ _, ?_⟩
  rcases h3 with h | h
  · exact .inl ⟨h.1, mulM_ge h.2 h.2⟩
  · exact .inr ⟨h.1, mulM_le h.2 h.2⟩

theorem loop_pack (fuel : Nat) (m : Int) {b r : Nat} (h : Side r b) :
    powiLoop fuel m (pack false b) (pack false r) = (loopM fuel m b r).map (pack false) := by
  induction fuel generalizing m b r with
  | zero => rfl
  | succ k ih =>
    have hbb : Side b b := by
      obtain ⟨h1, h2, h3⟩ := h
      exact ⟨h2, h2, h3.imp (fun h => ⟨h.2, h.2⟩) (fun h => ⟨h.2, h.2⟩)⟩
    have e : (if m % 2 = 1 then pack false r * pack false b else pack false r) = pack false (if m % 2 = 1 then mulM r b else r) := by
      split
      · exact mul_pack h
      · rfl
    have hs : Side (if m % 2 = 1 then mulM r b else r) b := by
      split
      · exact h.mul.1
      · exact h
    rw [loop_step, loopM, e, mul_pack hbb]
    split
    · rfl
    · exact ih _ hs.sq

omit [Cfg] in
theorem loopM_mono (fuel : Nat) (m : Int) {b b' r r' : Nat} (hb : b ≤ b') (hr : r ≤ r') :
    (∃ y y', loopM fuel m b r = some y ∧ loopM fuel m b' r' = some y' ∧ y ≤ y') ∨ (loopM fuel m b r = none ∧ loopM fuel m b' r' = none) := by
  induction fuel generalizing m b b' r r' with
  | zero => exact .inr ⟨rfl, rfl⟩
  | succ k ih =>
    have h2 : (if m % 2 = 1 then mulM r b else r) ≤ (if m % 2 = 1 then mulM r' b' else r') := by
      split
      · exact mulM_mono hr hb
      · exact hr
    rw [loopM, loopM]
    by_cases hz : m / 2 = 0
    · rw [if_pos hz, if_pos hz]; exact .inl ⟨_, _, rfl, rfl, h2⟩
    · rw [if_neg hz, if_neg hz]; exact ih _ (mulM_mono hb hb) h2

omit [Cfg] in
theorem loopM_le (fuel : Nat) (m : Int) {b r y : Nat} (hr : r ≤ infMag) (h : loopM fuel m b r = some y) : y ≤ infMag := by
  induction fuel generalizing m b r with
  | zero => cases h
  | succ k ih =>
    have h2 : (if m % 2 = 1 then mulM r b else r) ≤ infMag := by
      split
      · exact min_le_right _ _
      · exact hr
    rw [loopM] at h
    split at h
    · rw [← Option.some.inj h]; exact h2
    · exact ih _ h2 h

/-- Magnitude bits of the reciprocal of a nonnegative float. -/
def divM (m : Nat) : Nat := if m = 0 then infMag else if m = infMag then 0 else min (rbits (1 / mval m)) infMag

omit [Cfg] in
theorem divM_le (m : Nat) : divM m ≤ infMag := by
  unfold divM
  split
  · exact le_rfl
  · split
    · exact Nat.zero_le _
    · exact min_le_right _ _

omit [Cfg] in
theorem divM_anti {m m' : Nat} (h : m ≤ m') (h' : m' ≤ infMag) : divM m' ≤ divM m := by
  have le := divM_le m'
  by_cases h0 : m = 0
  · rw [show divM m = infMag by rw [divM, if_pos h0]]; exact le
  by_cases h1 : m' = infMag
  · have : divM m' = 0 := by rw [divM, if_neg (by omega), if_pos h1]
    rw [this]; exact Nat.zero_le _
  rw [divM, divM, if_neg h0, if_neg (by omega), if_neg h1, if_neg (by omega)]
  refine min_le_min_right _ (rbits_mono ?_)
  have p : 0 < mval m := by rw [← mval_zero]; exact mval_lt.2 (by omega)
  have q := mval_le.2 h
  rw [abs_of_pos (by have := p.trans_le q; positivity), abs_of_pos (by positivity)]
  exact one_div_le_one_div_of_le p q

theorem div_pack {m : Nat} (h : m ≤ infMag) : one / pack false m = pack false (divM m) := by
  have lm := lt_of_le_of_lt h infMag_lt
  have i1 : one / pack false 0 = pack false infMag := eval_eq (n := 0x7f800000) (by kernel_rfl)
  have i2 : one / pack false infMag = pack false 0 := eval_eq (n := 0) (by kernel_rfl)
  unfold divM
  split
  · rename_i h0; rw [h0, i1]
  · split
    · rename_i h0; rw [h0, i2]
    · rename_i h0 h1
      have f : (pack false m).isFinite = true := by rw [isFinite_iff, mag_pack _ lm]; omega
      have v : (pack false m).val = mval m := by rw [val_of_pos (sign_pack _ lm), mag_pack _ lm]
      have p : 0 < mval m := by rw [← mval_zero]; exact mval_lt.2 (by omega)
      rw [div_finite fin_one f (by rw [v]; exact p.ne'), v, val_one, sign_pack _ lm]
      rfl

/-- The result of `powi` on nonnegative arguments, as magnitude bits. -/
def pm (n : Int) (m : Nat) : Nat :=
  let l := (loopM 32 n.natAbs (if n < 0 then divM m else m) oneM).getD 0
  if m = 0 ∧ n > 0 then 0
  else if 126 * 2 ^ 23 ≤ m ∧ m < 128 * 2 ^ 23 then l
  else if (((m / 2 ^ 23 : Nat) : Int) - 127) * n > 127 then infMag
  else if (((m / 2 ^ 23 : Nat) : Int) - 127) * n < -149 then 0
  else l

theorem run_pack {m : Nat} (hm : m ≤ infMag) {n : Int} (h1 : -2 ^ 31 < n) (h2 : n < 2 ^ 31) :
    powiRun (pack false m) n n.natAbs = .ok (pack false ((loopM 32 n.natAbs (if n < 0 then divM m else m) oneM).getD 0)) := by
  obtain ⟨y, hy, hl⟩ := powiRun_ok (pack false m) n n.natAbs (by omega) (by omega)
  have hb : (if n < 0 then one / pack false m else pack false m) = pack false (if n < 0 then divM m else m) := by
    split
    · exact div_pack hm
    · rfl
  have ho : oneM ≤ infMag := by decide
  have hs : Side oneM (if n < 0 then divM m else m) := by
    have : (if n < 0 then divM m else m) ≤ infMag := by
      split
      · exact divM_le m
      · exact hm
    refine ⟨ho, this, ?_⟩
    rcases le_total oneM (if n < 0 then divM m else m) with h | h
    · exact .inl ⟨le_rfl, h⟩
    · exact .inr ⟨le_rfl, h⟩
  rw [hb, show one = pack false oneM by decide, loop_pack _ _ hs] at hl
  rw [hy]
  cases hq : loopM 32 n.natAbs (if n < 0 then divM m else m) oneM with
  | none => rw [hq] at hl; cases hl
  | some z => rw [hq] at hl; rw [← Option.some.inj hl]; rfl

theorem powi_pack {m : Nat} (hm : m ≤ infMag) {n : Int} (hn : n ≠ 0) (h : |n| < 2 ^ 24) :
    (pack false m).powi n = .ok (pack false (pm n m)) := by
  have h' := abs_lt.1 h
  have lm := lt_of_le_of_lt hm infMag_lt
  have hi : infMag = 255 * 2 ^ 23 := by decide
  have zi : (pack false m).feq ZERO = true ↔ m = 0 := by
    rw [feq_zero_iff, isFinite_iff, val_eq_zero, mag_pack _ lm]
    omega
  have w : ((pack false m).isFinite = true ∧ 1 / 2 ≤ |(pack false m).val| ∧ |(pack false m).val| < 2) ↔
      (126 * 2 ^ 23 ≤ m ∧ m < 128 * 2 ^ 23) := by
    have a := pow_le_iff (x := pack false m) (k := 126) (by norm_num)
    have b := lt_pow_iff (x := pack false m) (k := 128) (by norm_num)
    rw [mag_pack _ lm] at a b
    norm_num at a b
    rw [isFinite_iff, mag_pack _ lm, show (1 : ℚ) / 2 = 1 / 2 by rfl, a, b]
    omega
  rw [powi_small _ hn h, run_pack hm (by omega) (by omega), sign_pack _ lm, mag_pack _ lm, pm]
  simp only [zi, w]
  by_cases c1 : m = 0 ∧ n > 0
  · rw [if_pos c1, if_pos c1, c1.1]
  rw [if_neg c1, if_neg c1]
  by_cases c2 : 126 * 2 ^ 23 ≤ m ∧ m < 128 * 2 ^ 23
  · rw [if_pos c2, if_pos c2]
  rw [if_neg c2, if_neg c2]
  have c3 : ¬ (m = 0 ∧ (((m / 2 ^ 23 : Nat) : Int) - 127) * n < 0) := by
    rintro ⟨e1, e2⟩
    rw [e1] at e2
    norm_num at e2
    omega
  by_cases c4 : (((m / 2 ^ 23 : Nat) : Int) - 127) * n > 127
  · rw [if_pos (.inl c4), if_pos c4, if_pos (.inl trivial)]; rfl
  rw [if_neg (by rintro (h | h); exacts [c4 h, c3 h]), if_neg c4]
  split
  · rw [pack_zero]
  · rfl

omit [Cfg] in
theorem pm_le (n : Int) (m : Nat) : pm n m ≤ infMag := by
  have ho : oneM ≤ infMag := by decide
  have hl : (loopM 32 n.natAbs (if n < 0 then divM m else m) oneM).getD 0 ≤ infMag := by
    cases hq : loopM 32 n.natAbs (if n < 0 then divM m else m) oneM with
    | none => exact Nat.zero_le _
    | some z => exact loopM_le _ _ ho hq
  unfold pm
  dsimp only
  split
  · exact Nat.zero_le _
  split
  · exact hl
  split
  · exact le_rfl
  split
  · exact Nat.zero_le _
  · exact hl

omit [Cfg] in
theorem loopM_getD_mono (m : Int) {b b' : Nat} (h : b ≤ b') : (loopM 32 m b oneM).getD 0 ≤ (loopM 32 m b' oneM).getD 0 := by
  rcases loopM_mono 32 m h (le_refl oneM) with ⟨y, y', e1, e2, e3⟩ | ⟨e1, e2⟩
  · rw [e1, e2]; exact e3
  · rw [e1, e2]

omit [Cfg] in
theorem pm_mono {n : Int} (hn : 0 < n) {m m' : Nat} (h : m ≤ m') : pm n m ≤ pm n m' := by
  have hL := loopM_getD_mono n.natAbs h
  have le := pm_le n m
  have hneg : ¬ n < 0 := by omega
  unfold pm at le ⊢
  dsimp only at le ⊢
  rw [if_neg hneg] at le ⊢
  rw [if_neg hneg]
  obtain ⟨e, he⟩ : ∃ e : Int, e = ((m / 2 ^ 23 : Nat) : Int) - 127 := ⟨_, rfl⟩
  obtain ⟨e', he'⟩ : ∃ e : Int, e = ((m' / 2 ^ 23 : Nat) : Int) - 127 := ⟨_, rfl⟩
  rw [← he] at le
  rw [← he, ← he']
  have hee : e ≤ e' := by omega
  have q1 : e * n ≤ e' * n := mul_le_mul_of_nonneg_right hee hn.le
  have q2 : e < 0 → e * n < 0 := fun h => mul_neg_of_neg_of_pos h hn
  have q3 : 0 < e' → 0 < e' * n := fun h => mul_pos h hn
  have q4 : e * n > 127 → 0 < e := fun h => by
    by_contra hc
    have := mul_nonpos_of_nonpos_of_nonneg (not_lt.1 hc) hn.le
    omega
  generalize e * n = a at *
  generalize e' * n = a' at *
  generalize (loopM 32 (n.natAbs : Int) m oneM).getD 0 = l at *
  generalize (loopM 32 (n.natAbs : Int) m' oneM).getD 0 = l' at *
  by_cases c1 : m = 0 ∧ n > 0
  · rw [if_pos c1]; exact Nat.zero_le _
  rw [if_neg c1] at le ⊢
  rw [if_neg (by omega : ¬ (m' = 0 ∧ n > 0))]
  by_cases c2 : 126 * 2 ^ 23 ≤ m ∧ m < 128 * 2 ^ 23
  · rw [if_pos c2] at le ⊢
    by_cases d2 : 126 * 2 ^ 23 ≤ m' ∧ m' < 128 * 2 ^ 23
    · rw [if_pos d2]; exact hL
    · rw [if_neg d2]
      by_cases d3 : a' > 127
      · rw [if_pos d3]; exact le
      · rw [if_neg d3, if_neg (by omega)]; exact hL
  rw [if_neg c2] at le ⊢
  by_cases c3 : a > 127
  · rw [if_pos c3, if_neg (by omega), if_pos (by omega)]
  rw [if_neg c3] at le ⊢
  by_cases c4 : a < -149
  · rw [if_pos c4]; exact Nat.zero_le _
  rw [if_neg c4] at le ⊢
  split
  · exact hL
  split
  · exact le
  split
  · omega
  · exact hL

omit [Cfg] in
theorem pm_anti {n : Int} (hn : n < 0) {m m' : Nat} (h : m ≤ m') (h' : m' ≤ infMag) : pm n m' ≤ pm n m := by
  have hL := loopM_getD_mono n.natAbs (divM_anti h h')
  have le := pm_le n m'
  unfold pm at le ⊢
  dsimp only at le ⊢
  rw [if_pos hn] at le ⊢
  rw [if_pos hn]
  obtain ⟨e, he⟩ : ∃ e : Int, e = ((m / 2 ^ 23 : Nat) : Int) - 127 := ⟨_, rfl⟩
  obtain ⟨e', he'⟩ : ∃ e : Int, e = ((m' / 2 ^ 23 : Nat) : Int) - 127 := ⟨_, rfl⟩
  rw [← he'] at le
  rw [← he, ← he']
  have hee : e ≤ e' := by omega
  have q1 : e' * n ≤ e * n := mul_le_mul_of_nonpos_right hee hn.le
  have q2 : e < 0 → 0 < e * n := fun h => mul_pos_of_neg_of_neg h hn
  have q4 : e' * n > 127 → e' < 0 := fun h => by
    by_contra hc
    have := mul_nonpos_of_nonneg_of_nonpos (not_lt.1 hc) hn.le
    omega
  generalize e * n = a at *
  generalize e' * n = a' at *
  generalize (loopM 32 (n.natAbs : Int) (divM m) oneM).getD 0 = l at *
  generalize (loopM 32 (n.natAbs : Int) (divM m') oneM).getD 0 = l' at *
  rw [if_neg (by omega : ¬ (m' = 0 ∧ n > 0))] at le ⊢
  rw [if_neg (by omega : ¬ (m = 0 ∧ n > 0))]
  by_cases c2 : 126 * 2 ^ 23 ≤ m' ∧ m' < 128 * 2 ^ 23
  · rw [if_pos c2] at le ⊢
    by_cases d2 : 126 * 2 ^ 23 ≤ m ∧ m < 128 * 2 ^ 23
    · rw [if_pos d2]; exact hL
    · rw [if_neg d2]
      by_cases d3 : a > 127
      · rw [if_pos d3]; exact le
      · rw [if_neg d3, if_neg (by omega)]; exact hL
  rw [if_neg c2] at le ⊢
  by_cases c3 : a' > 127
  · rw [if_pos c3, if_neg (by omega), if_pos (by omega)]
  rw [if_neg c3] at le ⊢
  by_cases c4 : a' < -149
  · rw [if_pos c4]; exact Nat.zero_le _
  rw [if_neg c4] at le ⊢
  split
  · exact hL
  split
  · exact le
  split
  · omega
  · exact hL

omit [Cfg] in
theorem pack_le {m n : Nat} (h : m ≤ n) (hn : n ≤ infMag) : (pack false m).le (pack false n) = true := by
  have l1 := lt_of_le_of_lt (h.trans hn) infMag_lt
  have l2 := lt_of_le_of_lt hn infMag_lt
  unfold F32.le F32.isNaN key
  rw [sign_pack _ l1, sign_pack _ l2, mag_pack _ l1, mag_pack _ l2]
  simp
  omega

omit [Cfg] in
theorem le_pack {x y : F32} (hx : x.sign = false) (h : x.le y = true) :
    ∃ m m' : Nat, x = pack false m ∧ y.mag = m' ∧ (y.sign = false → y = pack false m') ∧ m ≤ infMag ∧ m' ≤ infMag ∧
      (y.sign = false → m ≤ m') ∧ (y.sign = true → m = 0 ∧ m' = 0) := by
  have nx : x.mag ≤ infMag := by
    by_contra hc
    have : x.isNaN = true := by unfold F32.isNaN; simpa using hc
    rw [le_nan_left this] at h; cases h
  have ny : y.mag ≤ infMag := by
    by_contra hc
    have : y.isNaN = true := by unfold F32.isNaN; simpa using hc
    rw [le_nan_right this] at h; cases h
  refine ⟨x.mag, y.mag, ?_, rfl, ?_, nx, ny, ?_, ?_⟩
  · exact ext_mag_sign (by rw [mag_pack _ (lt_of_le_of_lt nx infMag_lt)]) (by rw [sign_pack _ (lt_of_le_of_lt nx infMag_lt), hx])
  · intro hy
    exact ext_mag_sign (by rw [mag_pack _ (lt_of_le_of_lt ny infMag_lt)]) (by rw [sign_pack _ (lt_of_le_of_lt ny infMag_lt), hy])
  · intro hy
    unfold F32.le key at h
    rw [hx, hy] at h
    simp at h
    omega
  · intro hy
    unfold F32.le key at h
    rw [hx, hy] at h
    simp at h
    omega

/-- **C130.** Positive powers preserve the order of the nonnegative numbers, infinity included. -/
theorem C130_mono {x y : F32} {n : Int} (hx : x.sign = false) (hy : y.sign = false) (h : x.le y = true) (h0 : 0 < n) (h1 : n < 2 ^ 24) :
    ∃ a b, x.powi n = .ok a ∧ y.powi n = .ok b ∧ a.le b = true := by
  obtain ⟨m, m', rfl, -, hy', hm, hm', hle, -⟩ := le_pack hx h
  have ab : |n| < 2 ^ 24 := by rw [abs_of_pos h0]; exact h1
  rw [hy' hy]
  exact ⟨_, _, powi_pack hm (by omega) ab, powi_pack hm' (by omega) ab, pack_le (pm_mono h0 (hle hy)) (pm_le _ _)⟩

/-- **C130.** Negative powers reverse it. -/
theorem C130_anti {x y : F32} {n : Int} (hx : x.sign = false) (hy : y.sign = false) (h : x.le y = true) (h0 : n < 0) (h1 : -2 ^ 24 < n) :
    ∃ a b, x.powi n = .ok a ∧ y.powi n = .ok b ∧ b.le a = true := by
  obtain ⟨m, m', rfl, -, hy', hm, hm', hle, -⟩ := le_pack hx h
  have ab : |n| < 2 ^ 24 := by rw [abs_of_neg h0]; omega
  rw [hy' hy]
  exact ⟨_, _, powi_pack hm (by omega) ab, powi_pack hm' (by omega) ab, pack_le (pm_anti h0 (hle hy) hm') (pm_le _ _)⟩

/-- `1.5` and `3` to the powers `7` and `-7`. -/
example : ∃ a b, (⟨0x3fc00000#32⟩ : F32).powi 7 = .ok a ∧ (⟨0x40400000#32⟩ : F32).powi 7 = .ok b ∧ a.le b = true :=
  C130_mono (by decide) (by decide) (by decide) (by norm_num) (by norm_num)
example : ∃ a b, (⟨0x3fc00000#32⟩ : F32).powi (-7) = .ok a ∧ (⟨0x40400000#32⟩ : F32).powi (-7) = .ok b ∧ b.le a = true :=
  C130_anti (by decide) (by decide) (by decide) (by norm_num) (by norm_num)

theorem loop_one (k : Nat) (m : Int) {y : F32} (h : powiLoop k m one one = some y) : y = one := by
  have e : one * one = one := mul_one_nn (by decide)
  induction k generalizing m with
  | zero => cases h
  | succ j ih =>
    rw [loop_step, e, ite_self] at h
    split at h
    · exact (Option.some.inj h).symm
    · exact ih _ h

/-- **C130.** Powers of one are one, for every exponent other than `i32::MIN` (see C25 for that one). -/
theorem C130_one {n : Int} (h1 : -2 ^ 31 < n) (h2 : n < 2 ^ 31) : one.powi n = .ok one := by
  have h0 : ¬ (one.feq ZERO = true ∧ n > 0) := by
    rw [show one.feq ZERO = false by decide]; simp
  have d : one / one = one := eval_eq (n := 0x3f800000) (by kernel_rfl)
  obtain ⟨y, hy, hl⟩ := powiRun_ok one n n.natAbs (by omega) (by omega)
  rw [d, ite_self] at hl
  rw [powi_eq _ _ h1 h2, powiTail]
  by_cases hz : n = 0
  · rw [if_pos hz]; rfl
  rw [if_neg hz, if_neg h0, if_pos ⟨by decide, by rw [val_one]; norm_num, by rw [val_one]; norm_num⟩, hy, loop_one _ _ hl]

/-- **C130.** Powers of minus one. -/
theorem C130_minus_one_pow {n : Int} (h1 : -2 ^ 31 < n) (h2 : n < 2 ^ 31) : (-one).powi n = .ok (if n % 2 = 0 then one else -one) := by
  have h := C130_one h1 h2
  by_cases he : n % 2 = 0
  · rw [if_pos he]
    rcases C130_even one n (by omega) h2 he (by rintro ⟨⟨_, hv⟩, _⟩; rw [val_one] at hv; norm_num at hv) with ⟨a, b, e1, e2, e3⟩ | ⟨e, _, e2⟩
    · rw [h] at e2
      cases e2
      rcases e3 with e3 | e3
      · rw [e1, e3]
      · exact absurd e3.2 (by decide)
    · rw [h] at e2; cases e2
  · rw [if_neg he]
    rcases C130_odd one n (by omega) h2 (by omega) with ⟨a, b, e1, e2, e3⟩ | ⟨e, _, e2⟩
    · rw [h] at e2
      cases e2
      rcases e3 with e3 | e3 | e3
      · rw [e1, e3]
      · exact absurd e3.2 (by decide)
      · exact absurd e3.2 (by decide)
    · rw [h] at e2; cases e2

/-- **C130.** The results on nonnegative numbers are nonnegative and not NaN; at least one for bases at least one (positive powers) and at
most one for bases at most one, and conversely for negative powers. -/
theorem C130_range {x : F32} {n : Int} (hx : x.sign = false) (hn : x.isNaN = false) (h0 : n ≠ 0) (h1 : |n| < 2 ^ 24) :
    ∃ a, x.powi n = .ok a ∧ a.sign = false ∧ a.isNaN = false ∧
      (one.le x = true → if 0 < n then one.le a = true else a.le one = true) ∧
      (x.le one = true → if 0 < n then a.le one = true else one.le a = true) := by
  have h' := abs_lt.1 h1
  have xx : x.le x = true := by
    unfold F32.le; rw [hn]; simp
  obtain ⟨m, -, hxm, -, -, hm, -⟩ := le_pack hx xx
  have e := powi_pack hm h0 h1
  rw [← hxm] at e
  have l := lt_of_le_of_lt (pm_le n m) infMag_lt
  have one' := C130_one (n := n) (by omega) (by omega)
  refine ⟨_, e, sign_pack _ l, ?_, ?_, ?_⟩
  · unfold F32.isNaN; rw [mag_pack _ l]; simpa using pm_le n m
  · intro hle
    split
    · rename_i hp
      obtain ⟨a, b, e1, e2, e3⟩ := C130_mono (n := n) (by decide) hx hle hp (by omega)
      rw [e] at e2; rw [one'] at e1; cases e1; cases e2; exact e3
    · obtain ⟨a, b, e1, e2, e3⟩ := C130_anti (n := n) (by decide) hx hle (by omega) (by omega)
      rw [e] at e2; rw [one'] at e1; cases e1; cases e2; exact e3
  · intro hle
    split
    · rename_i hp
      obtain ⟨a, b, e1, e2, e3⟩ := C130_mono (n := n) hx (by decide) hle hp (by omega)
      rw [e] at e1; rw [one'] at e2; cases e1; cases e2; exact e3
    · obtain ⟨a, b, e1, e2, e3⟩ := C130_anti (n := n) hx (by decide) hle (by omega) (by omega)
      rw [e] at e1; rw [one'] at e2; cases e1; cases e2; exact e3

/-! ### infinities and NaN -/

/-- **C130.** Powers of the infinities and NaN for exponents below `2^24` in magnitude: only the sign bit matters, NaN behaves like an
infinity from the first power on (a violation: the result should be NaN), and negative powers other than `-1` are `+0.0`. -/
theorem C130_nonfinite {x : F32} (hx : x.isFinite = false) {n : Int} (h1 : |n| < 2 ^ 24) :
    (0 < n → x.powi n = .ok (if x.sign = false ∨ n % 2 = 0 then posInf else negInf)) ∧ (n < -1 → x.powi n = .ok posZero) := by
  have hm : x.mag / 2 ^ 23 = 255 := by
    have h2 : ¬ x.mag < infMag := fun h => by rw [isFinite_iff.2 h] at hx; cases hx
    have hi : infMag = 255 * 2 ^ 23 := by decide
    have h3 := mag_lt x
    omega
  have z : ¬ x.feq ZERO = true := by rw [feq_zero_iff, hx]; simp
  have w : ¬ (x.isFinite = true ∧ 1 / 2 ≤ |x.val| ∧ |x.val| < 2) := by rw [hx]; simp
  constructor
  · intro h0
    rw [powi_small x (by omega) h1, if_neg (fun h => z h.1), if_neg w, hm, if_pos (.inl (by push_cast; omega))]
    split <;> rfl
  · intro h0
    rw [powi_small x (by omega) h1, if_neg (fun h => z h.1), if_neg w, hm, if_neg (by
      rintro (h | h)
      · push_cast at h; omega
      · exact z h.1), if_pos (by push_cast; omega)]

/-- **C130.** Zero to a negative power is an infinity, with the sign of the zero for odd powers. -/
theorem C130_zero_neg {x : F32} (hx : IsVal x 0) {n : Int} (h0 : n < 0) (h1 : -2 ^ 24 < n) :
    x.powi n = .ok (if x.sign = false ∨ n % 2 = 0 then posInf else negInf) := by
  have m0 : x.mag = 0 := val_eq_zero.1 hx.2
  by_cases hn : n = -1
  · subst hn
    have i1 : one / posZero = posInf := eval_eq (n := 0x7f800000) (by kernel_rfl)
    have i2 : one / negZero = negInf := eval_eq (n := 0xff800000) (by kernel_rfl)
    obtain ⟨y, hy, hv⟩ := C130_minus_one x
    rw [hy]
    cases hs : x.sign
    · have : x = posZero := ext_mag_sign (by rw [m0]; decide) (by rw [hs]; decide)
      rw [this, i1] at hv
      rcases hv with hv | hv
      · rw [hv]; rfl
      · exact absurd hv.2 (by decide)
    · have : x = negZero := ext_mag_sign (by rw [m0]; decide) (by rw [hs]; decide)
      rw [this, i2] at hv
      rcases hv with hv | hv
      · rw [hv]; rfl
      · exact absurd hv.2 (by decide)
  · rw [powi_small x (by omega) (by rw [abs_of_neg h0]; omega), if_neg (by omega), if_neg (by
      rintro ⟨-, h, -⟩
      rw [hx.2] at h; norm_num at h), m0, if_pos (.inl (by norm_num; omega))]
    split <;> rfl

/-- `NaN^2` and `(-inf)^3`, `inf^-5`, `(-0)^-3`. -/
example : (⟨0x7fc00000#32⟩ : F32).powi 2 = .ok posInf ∧ negInf.powi 3 = .ok negInf ∧ posInf.powi (-5) = .ok posZero ∧
    negZero.powi (-3) = .ok negInf :=
  ⟨by rw [(C130_nonfinite (by decide) (by norm_num)).1 (by norm_num)]; decide,
   by rw [(C130_nonfinite (by decide) (by norm_num)).1 (by norm_num)]; decide,
   (C130_nonfinite (by decide) (by norm_num)).2 (by norm_num),
   by rw [C130_zero_neg ⟨by decide, val_eq_zero.2 (by decide)⟩ (by norm_num) (by norm_num)]; decide⟩

/-! ### powers of two -/

/-- Magnitude bits of `2^i`, infinity above and zero below the range. -/
def pM (i : Int) : Nat := min (rbits ((2 : ℚ) ^ i)) infMag

omit [Cfg] in
theorem pM_rep {i : Int} (h1 : -149 ≤ i) (h2 : i ≤ 127) : mval (pM i) = 2 ^ i ∧ pM i < infMag := by
  have hp : (0 : ℚ) < 2 ^ i := by positivity
  have lt : rbits ((2 : ℚ) ^ i) < infMag := by
    rw [rbits_lt_inf_iff, abs_of_pos hp]
    refine lt_of_le_of_lt (zpow_le_zpow_right₀ (by norm_num) h2) ?_
    norm_num [ovf]
  have e : pM i = rbits ((2 : ℚ) ^ i) := min_eq_left lt.le
  refine ⟨?_, by rw [e]; exact lt⟩
  have r : Rep ((2 : ℚ) ^ i) := by
    have := rep_zpow (m := 1) (by norm_num) h1
    simpa using this
  have := RN_of_rep r
  rw [RN_of_nonneg hp.le] at this
  rw [e, this]

omit [Cfg] in
theorem pM_inf {i : Int} (h : 128 ≤ i) : pM i = infMag := by
  refine le_antisymm (min_le_right _ _) (le_min ?_ le_rfl)
  by_contra hc
  rw [not_le, rbits_lt_inf_iff, abs_of_pos (by positivity)] at hc
  have : (2 : ℚ) ^ (128 : Int) ≤ 2 ^ i := zpow_le_zpow_right₀ (by norm_num) h
  norm_num [ovf] at hc this
  linarith

omit [Cfg] in
theorem rbits_150 : rbits (1 / 2 ^ 150) = 0 := by
  rw [rbits_eq (u := 1) (d := 2) (by norm_num)]
  · decide +kernel
  · rw [abs_of_pos (by positivity)]; norm_num

omit [Cfg] in
theorem pM_zero {i : Int} (h : i ≤ -150) : pM i = 0 := by
  have : rbits ((2 : ℚ) ^ i) ≤ rbits (1 / 2 ^ 150) := by
    refine rbits_mono ?_
    rw [abs_of_pos (by positivity), abs_of_pos (by positivity)]
    refine (zpow_le_zpow_right₀ (by norm_num) h).trans ?_
    norm_num
  rw [rbits_150] at this
  have h0 : rbits ((2 : ℚ) ^ i) = 0 := by omega
  rw [pM, h0]; simp

omit [Cfg] in
theorem pM_one : pM 0 = oneM := by
  rw [pM, zpow_zero, ← mval_oneM, rbits_mval]; decide

omit [Cfg] in
theorem pM_mono {i j : Int} (h : i ≤ j) : pM i ≤ pM j := by
  refine min_le_min_right _ (rbits_mono ?_)
  rw [abs_of_pos (by positivity), abs_of_pos (by positivity)]
  exact zpow_le_zpow_right₀ (by norm_num) h

omit [Cfg] in
theorem mulM_comm (m n : Nat) : mulM m n = mulM n m := by rw [mulM, mulM, mul_comm]

omit [Cfg] in
theorem mulM_pM {i j : Int} (h : (0 ≤ i ∧ 0 ≤ j) ∨ (i ≤ 0 ∧ j ≤ 0)) : mulM (pM i) (pM j) = pM (i + j) := by
  by_cases hr : (-149 ≤ i ∧ i ≤ 127) ∧ (-149 ≤ j ∧ j ≤ 127)
  · rw [mulM, (pM_rep hr.1.1 hr.1.2).1, (pM_rep hr.2.1 hr.2.2).1, ← zpow_add₀ (by norm_num)]; rfl
  have big : ∀ {i j : Int}, 128 ≤ i → 0 ≤ j → mulM (pM i) (pM j) = infMag := by
    intro i j hi hj
    refine le_antisymm (min_le_right _ _) (le_min ?_ le_rfl)
    by_contra hc
    rw [not_le, rbits_lt_inf_iff, abs_of_nonneg (mul_nonneg (mval_nonneg _) (mval_nonneg _)), pM_inf hi, mval_infMag] at hc
    have := mval_le.2 (pM_mono hj)
    rw [pM_one, mval_oneM] at this
    have ho2 : ovf < 2 ^ 128 := by norm_num [ovf]
    nlinarith
  have small : ∀ {i j : Int}, i ≤ -150 → mulM (pM i) (pM j) = 0 := by
    intro i j hi
    rw [mulM, pM_zero hi]; simp
  rcases h with h | h
  · by_cases hi : 128 ≤ i
    · rw [big hi h.2, pM_inf (by omega)]
    · rw [mulM_comm, big (by omega) h.1, pM_inf (by omega)]
  · by_cases hi : i ≤ -150
    · rw [small hi, pM_zero (by omega)]
    · rw [mulM_comm, small (by omega), pM_zero (by omega)]

omit [Cfg] in
theorem loop_pow2 (k : Nat) (m : Nat) (a c : Int) (hm : 0 < m) (hk : m < 2 ^ (k + 1)) (hs : (0 ≤ a ∧ 0 ≤ c) ∨ (a ≤ 0 ∧ c ≤ 0)) :
    loopM (k + 1) m (pM a) (pM c) = some (pM (c + a * m)) := by
  have hs' : (0 ≤ c ∧ 0 ≤ a) ∨ (c ≤ 0 ∧ a ≤ 0) := by omega
  induction k generalizing m a c with
  | zero =>
    have : m = 1 := by omega
    subst this
    rw [loopM, if_pos (by norm_num), if_pos (by norm_num), mulM_pM hs', Nat.cast_one, mul_one]
  | succ j ih =>
    rw [loopM]
    by_cases hz : (m : Int) / 2 = 0
    · have : m = 1 := by omega
      subst this
      rw [if_pos hz, if_pos (by norm_num), mulM_pM hs', Nat.cast_one, mul_one]
    · have hq : (m : Int) = 2 * ((m / 2 : Nat) : Int) + ((m % 2 : Nat) : Int) := by omega
      have hcast : (m : Int) / 2 = ((m / 2 : Nat) : Int) := by omega
      rw [if_neg hz, mulM_pM (by omega), hcast]
      rcases Nat.mod_two_eq_zero_or_one m with he | ho
      · rw [if_neg (by omega), ih (m / 2) (a + a) c (by omega) (by rw [pow_succ] at hk; omega) (by omega) (by omega)]
        congr 2
        rw [he] at hq
        conv_rhs => rw [hq]
        push_cast
        ring
      · rw [if_pos (by omega), mulM_pM hs', ih (m / 2) (a + a) (c + a) (by omega) (by rw [pow_succ] at hk; omega) (by omega) (by omega)]
        congr 2
        rw [ho] at hq
        conv_rhs => rw [hq]
        push_cast
        ring

/-- **C130.** On powers of two `powi` is exact: for `x = 2^k` normal and `0 < |n| < 2^24` the result is `2^(kn)` whenever that is a number
(subnormal included), `+inf` above and `+0.0` below. -/
theorem C130_two_pow {x : F32} {k n : Int} (hx : IsVal x ((2 : ℚ) ^ k)) (hk : -126 ≤ k) (hn : n ≠ 0) (h : |n| < 2 ^ 24) :
    (-149 ≤ k * n → k * n ≤ 127 → ∃ y, x.powi n = .ok y ∧ IsVal y ((2 : ℚ) ^ (k * n))) ∧ (127 < k * n → x.powi n = .ok posInf) ∧
      (k * n < -149 → x.powi n = .ok posZero) := by
  have hn' := abs_lt.1 h
  have hk2 : k ≤ 127 := by
    have := abs_val_fin_lt hx.1
    rw [hx.2, abs_of_pos (by positivity), show (2 : ℚ) ^ 128 = 2 ^ (128 : Int) by norm_num] at this
    have := (zpow_lt_zpow_iff_right₀ (by norm_num : (1 : ℚ) < 2)).1 this
    omega
  have hp : (0 : ℚ) < x.val := by rw [hx.2]; positivity
  have hs : x.sign = false := val_pos_sign hp
  obtain ⟨vk, lk⟩ := pM_rep (i := k) (by omega) hk2
  have hm : x.mag = pM k := mval_inj.1 (by rw [vk, ← hx.2, val_of_pos hs])
  have hxp : x = pack false (pM k) :=
    ext_mag_sign (by rw [hm, mag_pack _ (lk.trans infMag_lt)]) (by rw [hs, sign_pack _ (lk.trans infMag_lt)])
  have hf : ((pM k / 2 ^ 23 : Nat) : Int) - 127 = k := by
    rw [← hm]
    refine exp_field_eq hk ?_ ?_
    · rw [hx.2, abs_of_pos (by positivity)]
    · rw [hx.2, abs_of_pos (by positivity)]
      exact zpow_lt_zpow_right₀ (by norm_num) (by omega)
  have hd : divM (pM k) = pM (-k) := by
    have h0 : pM k ≠ 0 := by
      intro h0
      rw [h0, mval_zero] at vk
      exact absurd vk.symm (by positivity)
    rw [divM, if_neg h0, if_neg lk.ne, vk, one_div, ← zpow_neg]; rfl
  have hloop : (loopM 32 n.natAbs (if n < 0 then divM (pM k) else pM k) oneM).getD 0 = pM (k * n) := by
    have e : (if n < 0 then divM (pM k) else pM k) = pM (if n < 0 then -k else k) := by
      split
      · exact hd
      · rfl
    rw [e, ← pM_one, loop_pow2 31 n.natAbs _ 0 (by omega) (by omega) (by omega)]
    rw [Option.getD_some]
    congr 1
    split
    · rw [show ((n.natAbs : Nat) : Int) = -n by omega]; ring
    · rw [show ((n.natAbs : Nat) : Int) = n by omega]; ring
  have key : x.powi n = .ok (pack false (pM (k * n))) := by
    rw [hxp, powi_pack lk.le hn h, pm]
    simp only [hloop, hf]
    have c0 : ¬ (pM k = 0 ∧ n > 0) := by
      rintro ⟨h0, -⟩
      rw [h0] at hf
      norm_num at hf
      omega
    refine congrArg (fun m => Except.ok (pack false m)) ?_
    rw [if_neg c0]
    generalize k * n = i
    split
    · rfl
    · split
      · rw [pM_inf (by omega)]
      · split
        · rw [pM_zero (by omega)]
        · rfl
  refine ⟨fun h1 h2 => ?_, fun h1 => ?_, fun h1 => ?_⟩
  · obtain ⟨v, l⟩ := pM_rep h1 h2
    refine ⟨_, key, ?_, ?_⟩
    · rw [isFinite_iff, mag_pack _ (l.trans infMag_lt)]; exact l
    · rw [val_of_pos (sign_pack _ (l.trans infMag_lt)), mag_pack _ (l.trans infMag_lt), v]
  · rw [key, pM_inf (by omega)]; rfl
  · rw [key, pM_zero (by omega), pack_zero]

/-- `(1/8)^40` and `(1/8)^-40` and `4^-50`. -/
example : let x : F32 := ⟨0x3e000000#32⟩
    (∃ y, x.powi 40 = .ok y ∧ IsVal y ((2 : ℚ) ^ ((-3 : Int) * 40))) ∧ x.powi 50 = .ok posZero ∧ x.powi (-50) = .ok posInf := by
  intro x
  have hx : IsVal x ((2 : ℚ) ^ (-3 : Int)) := ⟨by decide, by rw [val_of_units (u := 2 ^ 146) (by decide +kernel)]; norm_num⟩
  exact ⟨(C130_two_pow hx (by norm_num) (by norm_num) (by norm_num)).1 (by norm_num) (by norm_num),
    (C130_two_pow hx (by norm_num) (by norm_num) (by norm_num)).2.2 (by norm_num),
    (C130_two_pow hx (by norm_num) (by norm_num) (by norm_num)).2.1 (by norm_num)⟩

/-! ### reciprocal -/

/-- **C130.** For `1/2 < |x| < 2` a negative power of `x` is the positive power of `1.0 / x`, bit for bit, for every `i32` exponent. -/
theorem C130_recip {x : F32} {n : Int} (hx : x.isFinite = true) (h1 : 1 / 2 < |x.val|) (h2 : |x.val| < 2) (h0 : 0 < n) (hn : n < 2 ^ 31) :
    x.powi (-n) = (one / x).powi n := by
  have hne : x.val ≠ 0 := by rintro h; rw [h] at h1; norm_num at h1
  have hp : 0 < |x.val| := by linarith
  have lo : (1 : ℚ) / 2 ≤ |1 / x.val| := by
    rw [abs_div, abs_one, div_le_div_iff₀ (by norm_num) hp]; linarith
  have ge : (1 : ℚ) / 2 + 1 / 2 ^ 24 ≤ |x.val| := by
    have a : (⟨0x3f000001#32⟩ : F32).val = 1 / 2 + 1 / 2 ^ 24 := by
      rw [val_of_units (u := (2 ^ 23 + 1) * 2 ^ 125) (by decide +kernel)]; norm_num
    have b : (⟨0x3f000000#32⟩ : F32).val = 1 / 2 := by
      rw [val_of_units (u := 2 ^ 148) (by decide +kernel)]; norm_num
    rw [val_of_pos (by decide)] at a b
    have a' : (⟨0x3f000001#32⟩ : F32).mag = 0x3f000001 := by decide
    have b' : (⟨0x3f000000#32⟩ : F32).mag = 0x3f000000 := by decide
    rw [a'] at a
    rw [b'] at b
    rw [abs_val, ← b, mval_lt] at h1
    rw [abs_val, ← a, mval_le]
    omega
  have hi : |1 / x.val| ≤ 16777215 / 8388608 := by
    rw [abs_div, abs_one, div_le_div_iff₀ hp (by norm_num)]
    norm_num at ge
    nlinarith
  obtain ⟨f, v⟩ := div_val fin_one hx hne (by rw [val_one]; refine lt_of_le_of_lt hi ?_; norm_num [ovf])
  rw [val_one] at v
  have r1 : (1 : ℚ) / 2 ≤ |(one / x).val| := by
    rw [v, ← RN_abs]
    refine le_RN_of_rep ?_ lo
    have := rep_pow (e := -1) (by norm_num)
    norm_num at this ⊢
    exact this
  have r0 : Rep (16777215 / 8388608 : ℚ) := by
    have := rep_zpow (m := 16777215) (by norm_num) (e := -23) (by norm_num)
    norm_num at this ⊢
    exact this
  have r2 : |(one / x).val| < 2 := by
    rw [v, ← RN_abs]
    refine lt_of_le_of_lt (RN_le_of_rep (c := 16777215 / 8388608) r0 hi) (by norm_num)
  have z1 : ¬ (x.feq ZERO = true ∧ -n > 0) := by omega
  have z2 : ¬ ((one / x).feq ZERO = true ∧ n > 0) := by
    rw [feq_zero_iff]
    rintro ⟨⟨-, hv⟩, -⟩
    rw [hv] at r1; norm_num at r1
  rw [powi_eq _ _ (by omega) (by omega), powi_eq _ _ (by omega) hn, powiTail, powiTail, if_neg (by omega : ¬ -n = 0), if_neg h0.ne', if_neg z1,
    if_neg z2, if_pos ⟨hx, h1.le, h2⟩, if_pos ⟨f, r1, r2⟩, powiRun, powiRun, if_pos (by omega : -n < 0), if_neg (by omega : ¬ n < 0), Int.natAbs_neg]

/-- `1.5^-5`, and `1.5^2`. -/
example : (⟨0x3fc00000#32⟩ : F32).powi (-5) = (one / ⟨0x3fc00000#32⟩).powi 5 ∧
    (⟨0x3fc00000#32⟩ : F32).powi 2 = .ok ((⟨0x3fc00000#32⟩ : F32) * ⟨0x3fc00000#32⟩) := by
  have v : (⟨0x3fc00000#32⟩ : F32).val = 3 / 2 := by
    rw [val_of_units (u := 3 * 2 ^ 148) (by decide +kernel)]; norm_num
  refine ⟨C130_recip (by decide) (by rw [v]; norm_num) (by rw [v]; norm_num) (by norm_num) (by norm_num),
    C130_square _ (by decide) (by decide) ?_⟩
  rw [v]; norm_num

end Micromath.Props
