import Verif.Props.Agree
import Verif.Props.BitTricks
import Verif.Props.Powi
import Verif.Props.Ln
import Verif.Model.Quaternion

/-!
# C131: what `==` guarantees
-/

set_option exponentiation.threshold 1000

namespace Micromath.Props
open F32 Spec

/-- Both NaN, or equal in the sense of `==`. -/
def EqN (x y : F32) : Prop := (x.isNaN = true ∧ y.isNaN = true) ∨ x.feq y = true

theorem feq_zero_cases {x y : F32} (h : x.feq y = true) :
    x.isNaN = false ∧ y.isNaN = false ∧ (x = y ∨ (x.mag = 0 ∧ y.mag = 0)) := by
  unfold feq at h
  simp only [Bool.and_eq_true, Bool.not_eq_true', decide_eq_true_eq] at h
  obtain ⟨⟨hx, hy⟩, hk⟩ := h
  refine ⟨hx, hy, ?_⟩
  unfold key at hk
  rcases hs : x.sign <;> rcases ht : y.sign <;> rw [hs, ht] at hk <;> simp at hk
  · exact Or.inl (ext_mag_sign hk (hs.trans ht.symm))
  · right; omega
  · right; omega
  · exact Or.inl (ext_mag_sign hk (hs.trans ht.symm))

theorem feq_of_zero {x y : F32} (hx : x.mag = 0) (hy : y.mag = 0) : x.feq y = true := by
  have e : ∀ z : F32, z.mag = 0 → z.isNaN = false ∧ z.key = 0 := by
    intro z hz
    refine ⟨by simp [isNaN, hz], by simp [key, hz]⟩
  simp [feq, e x hx, e y hy]

theorem feq_refl {x : F32} (hx : x.isNaN = false) : x.feq x = true := by simp [feq, hx]

theorem EqN.rfl {x : F32} : EqN x x := by
  cases h : x.isNaN
  · exact Or.inr (feq_refl h)
  · exact Or.inl ⟨h, h⟩

theorem EqN.of_eqv {x y : F32} (h : Eqv x y) : EqN x y := by
  rcases h with h | h
  · exact Or.inl h
  · rw [h]; exact EqN.rfl

theorem EqN.cases {x y : F32} (h : EqN x y) : Eqv x y ∨ (x.mag = 0 ∧ y.mag = 0) := by
  rcases h with h | h
  · exact Or.inl (Or.inl h)
  · obtain ⟨-, -, h | h⟩ := feq_zero_cases h
    · exact Or.inl (Or.inr h)
    · exact Or.inr h

theorem feq_symm {x y : F32} (h : x.feq y = true) : y.feq x = true := by
  unfold feq at *
  simp only [Bool.and_eq_true, Bool.not_eq_true', decide_eq_true_eq] at *
  exact ⟨⟨h.1.2, h.1.1⟩, h.2.symm⟩

theorem feq_trans {x y z : F32} (h : x.feq y = true) (h' : y.feq z = true) : x.feq z = true := by
  unfold feq at *
  simp only [Bool.and_eq_true, Bool.not_eq_true', decide_eq_true_eq] at *
  exact ⟨⟨h.1.1, h'.1.2⟩, h.2.trans h'.2⟩

theorem EqN.symm {x y : F32} (h : EqN x y) : EqN y x := by
  rcases h with h | h
  · exact Or.inl ⟨h.2, h.1⟩
  · exact Or.inr (feq_symm h)

theorem EqN.trans {x y z : F32} (h : EqN x y) (h' : EqN y z) : EqN x z := by
  rcases h with h | h
  · rcases h' with h' | h'
    · exact Or.inl ⟨h.1, h'.2⟩
    · exact absurd h.2 (by simp [(feq_zero_cases h').1])
  · rcases h' with h' | h'
    · exact absurd h'.1 (by simp [(feq_zero_cases h).2.1])
    · exact Or.inr (feq_trans h h')

theorem zero_cases {x : F32} (h : x.mag = 0) : x = posZero ∨ x = negZero := by
  cases hs : x.sign
  · exact Or.inl (ext_mag_sign (by rw [h]; rfl) (by rw [hs]; rfl))
  · exact Or.inr (ext_mag_sign (by rw [h]; rfl) (by rw [hs]; rfl))

/-- A function whose results at the two zeros are `==` respects `==`. -/
theorem respects {f : F32 → F32} (h0 : (f posZero).feq (f negZero) = true) {x y : F32} (h : x.feq y = true) :
    EqN (f x) (f y) := by
  obtain ⟨-, -, h | ⟨hx, hy⟩⟩ := feq_zero_cases h
  · rw [h]; exact EqN.rfl
  · rcases zero_cases hx with hx | hx <;> rcases zero_cases hy with hy | hy <;> rw [hx, hy]
    · exact EqN.rfl
    · exact Or.inr h0
    · exact Or.inr (feq_symm h0)
    · exact EqN.rfl

/-- Two results of a function that may panic: the same panic, or `==` values. -/
def ResEqN (r s : Res F32) : Prop :=
  match r, s with
  | .ok a, .ok b => EqN a b
  | .error e, .error e' => e = e'
  | _, _ => False

theorem ResEqN.rfl {r : Res F32} : ResEqN r r := by
  cases r
  · exact _root_.rfl
  · exact EqN.rfl

theorem respectsR {f : F32 → Res F32} {a b : F32} (ha : f posZero = .ok a) (hb : f negZero = .ok b) (h0 : a.feq b = true)
    {x y : F32} (h : x.feq y = true) : ResEqN (f x) (f y) := by
  obtain ⟨-, -, h | ⟨hx, hy⟩⟩ := feq_zero_cases h
  · rw [h]; exact ResEqN.rfl
  · rcases zero_cases hx with hx | hx <;> rcases zero_cases hy with hy | hy <;> rw [hx, hy]
    · exact ResEqN.rfl
    · rw [ha, hb]; exact Or.inr h0
    · rw [ha, hb]; exact Or.inr (feq_symm h0)
    · exact ResEqN.rfl

theorem EqN.neg {x y : F32} (h : EqN x y) : EqN (-x) (-y) := by
  rcases h.cases with h | ⟨hx, hy⟩
  · exact .of_eqv h.neg
  · exact Or.inr (feq_of_zero (by rw [mag_neg, hx]) (by rw [mag_neg, hy]))

variable [Cfg]

theorem addAs_zero_left (o : FOp) {x x' : F32} (hx : x.mag = 0) (hx' : x'.mag = 0) (y : F32) :
    EqN (addAs o x y) (addAs o x' y) := by
  have e : ∀ z : F32, z.mag = 0 → z.isNaN = false ∧ z.isInf = false ∧ z.units = 0 := by
    intro z hz
    refine ⟨by simp [isNaN, hz], by simp [isInf, hz, infMag], by simp [units, hz, magU]⟩
  obtain ⟨a, b, c⟩ := e x hx
  obtain ⟨a', b', c'⟩ := e x' hx'
  unfold addAs
  rw [a, a', b, b', c, c']
  simp only [Bool.false_or, Bool.false_eq_true, if_false, zero_add]
  by_cases hn : y.isNaN = true
  · rw [if_pos hn, if_pos hn]; exact Or.inl ⟨Cfg.nanOp_isNaN _ _ _, Cfg.nanOp_isNaN _ _ _⟩
  · rw [if_neg hn, if_neg hn]
    by_cases hi : y.isInf = true
    · rw [if_pos hi, if_pos hi]; exact EqN.rfl
    · rw [if_neg hi, if_neg hi]
      by_cases hu : y.units = 0
      · rw [if_pos hu, if_pos hu]
        refine Or.inr (feq_of_zero ?_ ?_) <;> split <;> rfl
      · rw [if_neg hu, if_neg hu]; exact EqN.rfl

theorem EqN.addAs {o : FOp} {x y x' y' : F32} (h : EqN x x') (h' : EqN y y') : EqN (addAs o x y) (addAs o x' y') := by
  have left : ∀ {x x' y : F32}, EqN x x' → EqN (F32.addAs o x y) (F32.addAs o x' y) := by
    intro x x' y h
    rcases h.cases with h | ⟨hx, hy⟩
    · rcases h with h | h
      · exact Or.inl ⟨addAs_nan _ (Or.inl h.1), addAs_nan _ (Or.inl h.2)⟩
      · rw [h]; exact EqN.rfl
    · exact addAs_zero_left o hx hy y
  exact (left h).trans (((EqN.of_eqv (addAs_comm o x' y)).trans (left h')).trans (EqN.of_eqv (addAs_comm o y' x')))

theorem EqN.add {x y x' y' : F32} (h : EqN x x') (h' : EqN y y') : EqN (x + y) (x' + y') := EqN.addAs h h'
theorem EqN.sub {x y x' y' : F32} (h : EqN x x') (h' : EqN y y') : EqN (x - y) (x' - y') := EqN.addAs h h'.neg

theorem mul_zero_left {x x' : F32} (hx : x.mag = 0) (hx' : x'.mag = 0) (y : F32) : EqN (x * y) (x' * y) := by
  have e : ∀ z : F32, z.mag = 0 → z.isNaN = false ∧ z.isInf = false ∧ z.isZero = true ∧ magU z.mag = 0 := by
    intro z hz
    refine ⟨by simp [isNaN, hz], by simp [isInf, hz, infMag], by simp [isZero, hz], by simp [hz, magU]⟩
  obtain ⟨a, b, c, d⟩ := e x hx
  obtain ⟨a', b', c', d'⟩ := e x' hx'
  rw [mul_def, mul_def, F32.mul, F32.mul, a, a', b, b', c, c', d, d']
  simp only [Bool.false_or, Bool.true_or, if_true, zero_mul]
  by_cases hn : y.isNaN = true
  · rw [if_pos hn, if_pos hn]; exact Or.inl ⟨Cfg.nanOp_isNaN _ _ _, Cfg.nanOp_isNaN _ _ _⟩
  · rw [if_neg hn, if_neg hn]
    by_cases hi : y.isInf = true
    · rw [if_pos hi, if_pos hi]; exact Or.inl ⟨Cfg.nanOp_isNaN _ _ _, Cfg.nanOp_isNaN _ _ _⟩
    · rw [if_neg hi, if_neg hi]
      have h0 : roundMag 0 (2 ^ 149) = 0 := by decide
      rw [h0]
      exact Or.inr (feq_of_zero (mag_pack _ (by norm_num)) (mag_pack _ (by norm_num)))

theorem EqN.mul {x y x' y' : F32} (h : EqN x x') (h' : EqN y y') : EqN (x * y) (x' * y') := by
  have left : ∀ {x x' y : F32}, EqN x x' → EqN (x * y) (x' * y) := by
    intro x x' y h
    rcases h.cases with h | ⟨hx, hy⟩
    · exact .of_eqv (h.mul Eqv.rfl)
    · exact mul_zero_left hx hy y
  exact (left h).trans (((EqN.of_eqv (mul_comm_eqv x' y)).trans (left h')).trans (EqN.of_eqv (mul_comm_eqv y' x')))

theorem EqN.sq {x y : F32} (h : EqN x y) : Eqv (x * x) (y * y) := by
  rcases h.cases with h | ⟨hx, hy⟩
  · exact h.mul h
  · exact sq_congr_mag (hx.trans hy.symm)

omit [Cfg] in
/-- **C131.** `==` on `f32`: no float is `==` to a NaN; two floats that are `==` have the same bits or are two zeros; `==` is
symmetric and transitive, and reflexive exactly at the floats that are not NaN. -/
theorem C131_float_eq (x y z : F32) :
    (x.feq y = true ↔ x.isNaN = false ∧ y.isNaN = false ∧ (x = y ∨ (x = posZero ∨ x = negZero) ∧ (y = posZero ∨ y = negZero))) ∧
    (x.feq y = y.feq x) ∧ (x.feq y = true → y.feq z = true → x.feq z = true) ∧ (x.feq x = true ↔ x.isNaN = false) := by
  refine ⟨⟨fun h => ?_, fun h => ?_⟩, ?_, feq_trans, ⟨fun h => (feq_zero_cases h).1, feq_refl⟩⟩
  · obtain ⟨a, b, h | h⟩ := feq_zero_cases h
    · exact ⟨a, b, Or.inl h⟩
    · exact ⟨a, b, Or.inr ⟨zero_cases h.1, zero_cases h.2⟩⟩
  · obtain ⟨a, b, h | ⟨h, h'⟩⟩ := h
    · rw [h]; exact feq_refl b
    · rcases h with rfl | rfl <;> rcases h' with rfl | rfl <;> decide
  · cases h : x.feq y <;> cases h' : y.feq x <;> first | rfl | (rw [feq_symm h] at h'; cases h') | (rw [feq_symm h'] at h; cases h)

omit [Cfg] in
/-- Values at the two zeros, by evaluation. -/
theorem respects_eval {f : F32 → F32} {m n : Nat} (hm : force (f posZero).bits.toNat = m) (hn : force (f negZero).bits.toNat = n)
    (h0 : F32.feq ⟨BitVec.ofNat 32 m⟩ ⟨BitVec.ofNat 32 n⟩ = true) {x y : F32} (h : x.feq y = true) : EqN (f x) (f y) := by
  refine respects ?_ h
  rw [eval_eq hm, eval_eq hn]; exact h0

omit [Cfg] in
theorem respectsR_eval {f : F32 → Res F32} {m n : Nat} (hm : force (resCode (f posZero)) = m) (hn : force (resCode (f negZero)) = n)
    (hm' : m < 2 ^ 32) (hn' : n < 2 ^ 32)
    (h0 : F32.feq ⟨BitVec.ofNat 32 m⟩ ⟨BitVec.ofNat 32 n⟩ = true) {x y : F32} (h : x.feq y = true) : ResEqN (f x) (f y) :=
  respectsR (eval_ok hm hm') (eval_ok hn hn') h0 h

omit [Cfg] in
theorem eq_abs {x y : F32} (h : x.feq y = true) : EqN x.abs y.abs :=
  respects_eval (f := F32.abs) (m := 0) (n := 0) (by kernel_rfl) (by kernel_rfl) (by decide) h
theorem eq_floor {x y : F32} (h : x.feq y = true) : EqN x.floor y.floor :=
  respects_eval (f := F32.floor) (m := 0) (n := 0) (by kernel_rfl) (by kernel_rfl) (by decide) h
theorem eq_ceil {x y : F32} (h : x.feq y = true) : EqN x.ceil y.ceil :=
  respects_eval (f := F32.ceil) (m := 0x80000000) (n := 0x80000000) (by kernel_rfl) (by kernel_rfl) (by decide) h
omit [Cfg] in
theorem eq_trunc {x y : F32} (h : x.feq y = true) : EqN x.trunc y.trunc :=
  respects_eval (f := F32.trunc) (m := 0) (n := 0x80000000) (by kernel_rfl) (by kernel_rfl) (by decide) h
theorem eq_round {x y : F32} (h : x.feq y = true) : EqN x.round y.round :=
  respects_eval (f := F32.round) (m := 0) (n := 0) (by kernel_rfl) (by kernel_rfl) (by decide) h
omit [Cfg] in
theorem eq_fract {x y : F32} (h : x.feq y = true) : EqN x.fract y.fract :=
  respects_eval (f := F32.fract) (m := 0) (n := 0x80000000) (by kernel_rfl) (by kernel_rfl) (by decide) h
theorem eq_sin {x y : F32} (h : x.feq y = true) : EqN x.sin y.sin :=
  respects_eval (f := F32.sin) (m := 0) (n := 0) (by kernel_rfl) (by kernel_rfl) (by decide) h
theorem eq_cos {x y : F32} (h : x.feq y = true) : EqN x.cos y.cos :=
  respects_eval (f := F32.cos) (m := 0x3f800000) (n := 0x3f800000) (by kernel_rfl) (by kernel_rfl) (by decide) h
theorem eq_tan {x y : F32} (h : x.feq y = true) : EqN x.tan y.tan :=
  respects_eval (f := F32.tan) (m := 0) (n := 0) (by kernel_rfl) (by kernel_rfl) (by decide) h
theorem eq_atan {x y : F32} (h : x.feq y = true) : EqN x.atan y.atan :=
  respects_eval (f := F32.atan) (m := 0) (n := 0x80000000) (by kernel_rfl) (by kernel_rfl) (by decide) h
theorem eq_acos {x y : F32} (h : x.feq y = true) : EqN x.acos y.acos :=
  respects_eval (f := F32.acos) (m := 0x3fc90fdb) (n := 0x3fc90fdb) (by kernel_rfl) (by kernel_rfl) (by decide) h
theorem eq_asin {x y : F32} (h : x.feq y = true) : ResEqN x.asin y.asin :=
  respectsR_eval (f := F32.asin) (m := 0) (n := 0x80000000) (by kernel_rfl) (by kernel_rfl) (by norm_num) (by norm_num) (by decide) h
theorem eq_exp {x y : F32} (h : x.feq y = true) : ResEqN x.exp y.exp :=
  respectsR_eval (f := F32.exp) (m := 0x3f800000) (n := 0x3f800000) (by kernel_rfl) (by kernel_rfl) (by norm_num) (by norm_num)
    (by decide) h
theorem eq_cosh {x y : F32} (h : x.feq y = true) : ResEqN x.cosh y.cosh :=
  respectsR_eval (f := F32.cosh) (m := 0x3f800000) (n := 0x3f800000) (by kernel_rfl) (by kernel_rfl) (by norm_num) (by norm_num)
    (by decide) h

/-- **C131.** Functions that cannot tell `==` arguments apart: their results are `==`, or both NaN. -/
theorem C131_respects {x y : F32} (h : x.feq y = true) :
    EqN x.abs y.abs ∧ EqN (-x) (-y) ∧ EqN x.floor y.floor ∧ EqN x.ceil y.ceil ∧ EqN x.trunc y.trunc ∧ EqN x.round y.round ∧
    EqN x.fract y.fract ∧ EqN x.sin y.sin ∧ EqN x.cos y.cos ∧ EqN x.tan y.tan ∧ EqN x.atan y.atan ∧ EqN x.acos y.acos ∧
    ResEqN x.asin y.asin ∧ ResEqN x.exp y.exp ∧ ResEqN x.cosh y.cosh := by
  exact ⟨eq_abs h, EqN.neg (Or.inr h), eq_floor h, eq_ceil h, eq_trunc h, eq_round h, eq_fract h, eq_sin h, eq_cos h, eq_tan h,
    eq_atan h, eq_acos h, eq_asin h, eq_exp h, eq_cosh h⟩

/-- **C131.** Arithmetic cannot tell `==` operands apart, apart from division: sums, differences and products of `==` operands are
`==` or both NaN; `hypot` even gives the same bits. -/
theorem C131_arith {x x' y y' : F32} (h : x.feq x' = true) (h' : y.feq y' = true) :
    EqN (x + y) (x' + y') ∧ EqN (x - y) (x' - y') ∧ EqN (x * y) (x' * y') ∧ Eqv (x.hypot y) (x'.hypot y') :=
  ⟨EqN.add (Or.inr h) (Or.inr h'), EqN.sub (Or.inr h) (Or.inr h'), EqN.mul (Or.inr h) (Or.inr h'),
    sqrt_congr ((EqN.sq (Or.inr h)).add (EqN.sq (Or.inr h')))⟩

omit [Cfg] in
theorem sep_eval {f : F32 → F32} {m n : Nat} (hm : force (f posZero).bits.toNat = m) (hn : force (f negZero).bits.toNat = n)
    (h0 : F32.feq ⟨BitVec.ofNat 32 m⟩ ⟨BitVec.ofNat 32 n⟩ = false) : (f posZero).feq (f negZero) = false := by
  rw [eval_eq hm, eval_eq hn]; exact h0

omit [Cfg] in
theorem sepR_eval {f : F32 → Res F32} {m n : Nat} (hm : force (resCode (f posZero)) = m) (hn : force (resCode (f negZero)) = n)
    (hm' : m < 2 ^ 32) (hn' : n < 2 ^ 32) (h0 : F32.feq ⟨BitVec.ofNat 32 m⟩ ⟨BitVec.ofNat 32 n⟩ = false)
    (hnan : F32.isNaN ⟨BitVec.ofNat 32 m⟩ = false) : ¬ ResEqN (f posZero) (f negZero) := by
  rw [eval_ok hm hm', eval_ok hn hn']
  rintro (⟨h, -⟩ | h)
  · rw [h] at hnan; cases hnan
  · rw [h] at h0; cases h0

theorem ne_ln : ¬ EqN posZero.ln negZero.ln := by
  have e : posZero.ln = ⟨BitVec.ofNat 32 0xc2b00f3c⟩ := eval_eq (by kernel_rfl)
  have h : negZero.ln.isNaN = true := C31_ln_nan _ (Or.inr (by decide))
  rw [e]
  rintro (⟨h', -⟩ | h')
  · revert h'; decide
  · rw [feq_nan_right h] at h'; cases h'

/-- **C131.** Functions that do tell `0.0` from `-0.0`, although `0.0 == -0.0`. -/
theorem C131_respects_false :
    posZero.feq negZero = true ∧ (posZero.sqrt).feq negZero.sqrt = false ∧ (posZero.inv).feq negZero.inv = false ∧
    (posZero.recip).feq negZero.recip = false ∧ (posZero.signum).feq negZero.signum = false ∧
    (one / posZero).feq (one / negZero) = false ∧ ¬ ResEqN posZero.invsqrt negZero.invsqrt ∧ ¬ EqN posZero.ln negZero.ln :=
  ⟨by decide,
    sep_eval (f := F32.sqrt) (m := 0x1fc00000) (n := 0x5fc00000) (by kernel_rfl) (by kernel_rfl) (by decide),
    sep_eval (f := F32.inv) (m := 0x7f000000) (n := 0) (by kernel_rfl) (by kernel_rfl) (by decide),
    sep_eval (f := F32.recip) (m := 0x7f800000) (n := 0xff800000) (by kernel_rfl) (by kernel_rfl) (by decide),
    sep_eval (f := F32.signum) (m := 0x3f800000) (n := 0xbf800000) (by kernel_rfl) (by kernel_rfl) (by decide),
    sep_eval (f := fun x => one / x) (m := 0x7f800000) (n := 0xff800000) (by kernel_rfl) (by kernel_rfl) (by decide),
    sepR_eval (f := F32.invsqrt) (m := 0x5f375a86) (n := 0x1f375a86) (by cases h : Cfg.overflowChecks <;> kernel_rfl)
      (by cases h : Cfg.overflowChecks <;> kernel_rfl) (by norm_num) (by norm_num) (by decide) (by decide),
    ne_ln⟩

/-! ### Vectors and quaternions -/

/-- **C131.** `==` on vectors with integer components is equality of all components, hence an equivalence. -/
theorem C131_vector_int {s : Bool} {w : Nat} (u v : Vector2d (MInt s w)) (u' v' : Vector3d (MInt s w)) :
    (u.eq v = true ↔ u.x.toInt = v.x.toInt ∧ u.y.toInt = v.y.toInt) ∧
    (u'.eq v' = true ↔ u'.x.toInt = v'.x.toInt ∧ u'.y.toInt = v'.y.toInt ∧ u'.z.toInt = v'.z.toInt) ∧
    (u.eq v = true ↔ u = v) ∧ (u'.eq v' = true ↔ u' = v') := by
  have inj : ∀ a b : MInt s w, (inferInstance : Component (MInt s w)).eq a b = true ↔ a.toInt = b.toInt := by
    intro a b
    refine (decide_eq_true_iff : decide (a = b) = true ↔ a = b).trans ?_
    refine ⟨fun h => by rw [h], fun h => ?_⟩
    obtain ⟨a⟩ := a; obtain ⟨b⟩ := b
    cases s
    · simp [MInt.toInt] at h; rw [BitVec.eq_of_toNat_eq h]
    · simp [MInt.toInt] at h; rw [BitVec.eq_of_toInt_eq h]
  have inj' : ∀ a b : MInt s w, (inferInstance : Component (MInt s w)).eq a b = true ↔ a = b := fun a b => (decide_eq_true_iff : decide (a = b) = true ↔ a = b)
  refine ⟨?_, ?_, ?_, ?_⟩
  · rw [Vector2d.eq, Bool.and_eq_true, inj, inj]
  · rw [Vector3d.eq, Bool.and_eq_true, Bool.and_eq_true, inj, inj, inj, and_assoc]
  · rw [Vector2d.eq, Bool.and_eq_true, inj', inj']; obtain ⟨a, b⟩ := u; obtain ⟨c, d⟩ := v; simp
  · rw [Vector3d.eq, Bool.and_eq_true, Bool.and_eq_true, inj', inj', inj']
    obtain ⟨a, b, e⟩ := u'; obtain ⟨c, d, f⟩ := v'; simp [and_assoc]

/-- **C131.** `==` on vectors with `f32` components, and on quaternions, holds exactly when all components are `==`. -/
theorem C131_vector_f32 (u v : Vector2d F32) (u' v' : Vector3d F32) (q r : Quaternion) :
    (u.eq v = true ↔ u.x.feq v.x = true ∧ u.y.feq v.y = true) ∧
    (u'.eq v' = true ↔ u'.x.feq v'.x = true ∧ u'.y.feq v'.y = true ∧ u'.z.feq v'.z = true) ∧
    (q.eq r = true ↔ q.a.feq r.a = true ∧ q.b.feq r.b = true ∧ q.c.feq r.c = true ∧ q.d.feq r.d = true) := by
  refine ⟨?_, ?_, ?_⟩
  · show (u.x.feq v.x && u.y.feq v.y) = true ↔ _
    rw [Bool.and_eq_true]
  · show (u'.x.feq v'.x && u'.y.feq v'.y && u'.z.feq v'.z) = true ↔ _
    rw [Bool.and_eq_true, Bool.and_eq_true, and_assoc]
  · rw [Quaternion.eq, Bool.and_eq_true, Bool.and_eq_true, Bool.and_eq_true, and_assoc, and_assoc]

/-- Two-component and three-component vectors whose components are pairwise both NaN or `==`. -/
def EqN2 (u v : Vector2d F32) : Prop := EqN u.x v.x ∧ EqN u.y v.y
@[inherit_doc EqN2] def EqN3 (u v : Vector3d F32) : Prop := EqN u.x v.x ∧ EqN u.y v.y ∧ EqN u.z v.z
/-- Quaternions whose components are pairwise both NaN or `==`. -/
def EqN4 (q r : Quaternion) : Prop := EqN q.a r.a ∧ EqN q.b r.b ∧ EqN q.c r.c ∧ EqN q.d r.d

/-- **C131.** `==` vectors are interchangeable in `dot`, `cross`, `perpendicular_dot`, `+`, `-` (the results are `==`, or NaN in the
same places) and have the same `magnitude` bit for bit. -/
theorem C131_vector2_ops {u u' v v' : Vector2d F32} (h : u.eq u' = true) (h' : v.eq v' = true) :
    (∃ a b, u.dot v = .ok a ∧ u'.dot v' = .ok b ∧ EqN a b) ∧
    (∃ a b, u.perpendicularDot v = .ok a ∧ u'.perpendicularDot v' = .ok b ∧ EqN a b) ∧
    (∃ a b, u.add v = .ok a ∧ u'.add v' = .ok b ∧ EqN2 a b) ∧ (∃ a b, u.sub v = .ok a ∧ u'.sub v' = .ok b ∧ EqN2 a b) ∧
    Eqv (VectorTrait.magnitude u) (VectorTrait.magnitude u') := by
  obtain ⟨hx, hy⟩ := (C131_vector_f32 u u' ⟨one, one, one⟩ ⟨one, one, one⟩ ⟨one, one, one, one⟩ ⟨one, one, one, one⟩).1.1 h
  obtain ⟨hx', hy'⟩ := (C131_vector_f32 v v' ⟨one, one, one⟩ ⟨one, one, one⟩ ⟨one, one, one, one⟩ ⟨one, one, one, one⟩).1.1 h'
  have hx : EqN _ _ := Or.inr hx
  have hy : EqN _ _ := Or.inr hy
  have hx' : EqN _ _ := Or.inr hx'
  have hy' : EqN _ _ := Or.inr hy'
  refine ⟨⟨_, _, rfl, rfl, (hx.mul hx').add (hy.mul hy')⟩, ⟨_, _, rfl, rfl, (hx.mul hy').sub (hy.mul hx')⟩,
    ⟨_, _, rfl, rfl, hx.add hx', hy.add hy'⟩, ⟨_, _, rfl, rfl, hx.sub hx', hy.sub hy'⟩, ?_⟩
  exact sqrt_congr ((Eqv.rfl.add hx.sq).add hy.sq)

@[inherit_doc C131_vector2_ops]
theorem C131_vector3_ops {u u' v v' : Vector3d F32} (h : u.eq u' = true) (h' : v.eq v' = true) :
    (∃ a b, u.dot v = .ok a ∧ u'.dot v' = .ok b ∧ EqN a b) ∧
    (∃ a b, u.cross v = .ok a ∧ u'.cross v' = .ok b ∧ EqN3 a b) ∧
    (∃ a b, u.add v = .ok a ∧ u'.add v' = .ok b ∧ EqN3 a b) ∧ (∃ a b, u.sub v = .ok a ∧ u'.sub v' = .ok b ∧ EqN3 a b) ∧
    Eqv (VectorTrait.magnitude u) (VectorTrait.magnitude u') := by
  obtain ⟨hx, hy, hz⟩ := (C131_vector_f32 ⟨one, one⟩ ⟨one, one⟩ u u' ⟨one, one, one, one⟩ ⟨one, one, one, one⟩).2.1.1 h
  obtain ⟨hx', hy', hz'⟩ := (C131_vector_f32 ⟨one, one⟩ ⟨one, one⟩ v v' ⟨one, one, one, one⟩ ⟨one, one, one, one⟩).2.1.1 h'
  have hx : EqN _ _ := Or.inr hx
  have hy : EqN _ _ := Or.inr hy
  have hz : EqN _ _ := Or.inr hz
  have hx' : EqN _ _ := Or.inr hx'
  have hy' : EqN _ _ := Or.inr hy'
  have hz' : EqN _ _ := Or.inr hz'
  refine ⟨⟨_, _, rfl, rfl, ((hx.mul hx').add (hy.mul hy')).add (hz.mul hz')⟩,
    ⟨_, _, rfl, rfl, (hy.mul hz').sub (hz.mul hy'), (hz.mul hx').sub (hx.mul hz'), (hx.mul hy').sub (hy.mul hx')⟩,
    ⟨_, _, rfl, rfl, hx.add hx', hy.add hy', hz.add hz'⟩, ⟨_, _, rfl, rfl, hx.sub hx', hy.sub hy', hz.sub hz'⟩, ?_⟩
  exact sqrt_congr (((Eqv.rfl.add hx.sq).add hy.sq).add hz.sq)

/-- **C131.** `==` quaternions are interchangeable in products, sums, differences, `conj`, `dot`; their norms and magnitudes have
the same bits. -/
theorem C131_quaternion_ops {q q' r r' : Quaternion} (h : q.eq q' = true) (h' : r.eq r' = true) :
    EqN4 (q.mul r) (q'.mul r') ∧ EqN4 (q.add r) (q'.add r') ∧ EqN4 (q.sub r) (q'.sub r') ∧ EqN4 q.conj q'.conj ∧
    EqN (q.dot r) (q'.dot r') ∧ Eqv q.norm q'.norm ∧ Eqv q.magnitude q'.magnitude := by
  obtain ⟨ha, hb, hc, hd⟩ := (C131_vector_f32 ⟨one, one⟩ ⟨one, one⟩ ⟨one, one, one⟩ ⟨one, one, one⟩ q q').2.2.1 h
  obtain ⟨ha', hb', hc', hd'⟩ := (C131_vector_f32 ⟨one, one⟩ ⟨one, one⟩ ⟨one, one, one⟩ ⟨one, one, one⟩ r r').2.2.1 h'
  have ha : EqN _ _ := Or.inr ha
  have hb : EqN _ _ := Or.inr hb
  have hc : EqN _ _ := Or.inr hc
  have hd : EqN _ _ := Or.inr hd
  have ha' : EqN _ _ := Or.inr ha'
  have hb' : EqN _ _ := Or.inr hb'
  have hc' : EqN _ _ := Or.inr hc'
  have hd' : EqN _ _ := Or.inr hd'
  have hn : Eqv q.norm q'.norm := ((ha.sq.add hb.sq).add hc.sq).add hd.sq
  refine ⟨⟨(((ha.mul ha').sub (hb.mul hb')).sub (hc.mul hc')).sub (hd.mul hd'), (((ha.mul hb').add (hb.mul ha')).add (hc.mul hd')).sub (hd.mul hc'),
    (((ha.mul hc').sub (hb.mul hd')).add (hc.mul ha')).add (hd.mul hb'), (((ha.mul hd').add (hb.mul hc')).sub (hc.mul hb')).add (hd.mul ha')⟩,
    ⟨ha.add ha', hb.add hb', hc.add hc', hd.add hd'⟩, ⟨ha.sub ha', hb.sub hb', hc.sub hc', hd.sub hd'⟩,
    ⟨ha, hb.neg, hc.neg, hd.neg⟩, (((ha.mul ha').add (hb.mul hb')).add (hc.mul hc')).add (hd.mul hd'), hn, sqrt_congr hn⟩

/-- **C131.** A concrete pair: `(0.0, 1.0) == (-0.0, 1.0)`, with different bits. -/
theorem C131_case : Vector2d.eq ⟨posZero, one⟩ ⟨negZero, one⟩ = true ∧ posZero ≠ negZero :=
  ⟨rfl, by decide⟩

/-! ### `num-traits` -/

/-- **C131.** `Zero` and `One` of `num-traits`: `is_zero` and `is_one` hold exactly for the values 0 and 1; `x + zero() == x`,
`zero() + x == x`, `x * one() == x`, `one() * x == x` for every `x` that is not NaN; `x * zero()` is zero for finite `x`. -/
theorem C131_num_traits (x : F32) :
    (x.isZeroNT = true ↔ x = posZero ∨ x = negZero) ∧ (x.isOneNT = true ↔ x = one) ∧
    zeroNT.isZeroNT = true ∧ oneNT.isOneNT = true ∧ zeroNT.isOneNT = false ∧
    (x.isNaN = false → (x + zeroNT).feq x = true ∧ (zeroNT + x).feq x = true ∧ (x * oneNT).feq x = true ∧ (oneNT * x).feq x = true) ∧
    (x.isFinite = true → (x * zeroNT).isZeroNT = true ∧ (zeroNT * x).isZeroNT = true) := by
  have z1 : ∀ {y : F32}, y.isZeroNT = true ↔ y = posZero ∨ y = negZero := by
    intro y
    show posZero.feq y = true ↔ _
    rw [(C131_float_eq posZero y y).1]
    constructor
    · rintro ⟨-, -, h | ⟨-, h⟩⟩
      · exact Or.inl h.symm
      · exact h
    · rintro (rfl | rfl) <;> decide
  have add0 : x.isNaN = false → (x + zeroNT).feq x = true := by
    intro hx
    rcases class_cases x with hf | hi | hn
    · have h0 : zeroNT.isFinite = true := by decide
      have v0 : zeroNT.val = 0 := val_ZERO
      obtain ⟨a, b⟩ := add_val hf h0 (by rw [v0, add_zero]; exact abs_val_lt_ovf hf)
      rw [v0, add_zero, RN_val] at b
      exact (feq_iff a hf).2 b
    · have : x + zeroNT = x := by
        show addAs _ _ _ = _
        unfold addAs
        rw [hx, hi]; rfl
      rw [this]; exact feq_refl hx
    · rw [hn] at hx; cases hx
  have mul0 : x.isFinite = true → (x * zeroNT).mag = 0 := by
    intro hf
    have h0 : zeroNT.isFinite = true := by decide
    have v0 : zeroNT.val = 0 := val_ZERO
    obtain ⟨a, b⟩ := mul_val hf h0 (by rw [v0, mul_zero, abs_zero]; norm_num [ovf])
    rw [v0, mul_zero, RN_zero] at b
    exact val_eq_zero.1 b
  refine ⟨z1, ?_, rfl, by decide, by decide, fun hx => ⟨add0 hx, ?_, ?_, ?_⟩, fun hf => ⟨z1.2 (zero_cases (mul0 hf)), ?_⟩⟩
  · show one.feq x = true ↔ _
    rw [(C131_float_eq one x x).1]
    constructor
    · rintro ⟨-, -, h | ⟨h, -⟩⟩
      · exact h.symm
      · exact absurd h (by decide)
    · rintro rfl; decide
  · rcases EqN.trans (EqN.of_eqv (add_comm_eqv zeroNT x)) (Or.inr (add0 hx)) with h | h
    · rw [hx] at h; cases h.2
    · exact h
  · show (x * one).feq x = true
    rw [mul_one_nn hx]; exact feq_refl hx
  · have e : (one * x) = x := by
      rw [← (mul_comm_eqv x one).eq (by rw [mul_one_nn hx]; exact hx), mul_one_nn hx]
    show (one * x).feq x = true
    rw [e]; exact feq_refl hx
  · have h := (mul_comm_eqv x zeroNT)
    have hn : (x * zeroNT).isNaN = false := by simp [isNaN, mul0 hf]
    rw [← h.eq hn]; exact z1.2 (zero_cases (mul0 hf))

/-- **C131.** `Inv::inv` of `num-traits` is the approximate `inv`: `x * x.inv()` need not be one (here `1.125` at `x = 1.5`), and
`one().inv()` is one. -/
theorem C131_num_inv : oneNT.invNT = one ∧ (F32.lit 3 2).invNT * F32.lit 3 2 = F32.lit 9 8 :=
  ⟨eval_eq (n := 0x3f800000) (by kernel_rfl), (eval_eq (n := 0x3f900000) (by kernel_rfl)).trans (eval_eq (n := 0x3f900000) (by kernel_rfl)).symm⟩

end Micromath.Props
