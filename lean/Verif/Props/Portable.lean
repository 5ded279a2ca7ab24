import Verif.Props.StatSym
import Verif.Props.PowfLaws
import Verif.Props.AtanAll
import Verif.Props.TrigBig
import Verif.Props.StatNonFinite
import Verif.Props.Agree
import Verif.Props.TwoVecThm

/-!
# C139: what the platform and the build flags can change

Two configurations `c` and `d` stand for two platforms or builds: they may return different NaN bit patterns, start `Sum` from a
different zero, and check overflow or debug assertions or not. A function is portable when the same arguments give the same bits, or
NaN, under both.
-/

set_option exponentiation.threshold 1000

namespace Micromath.Props
open F32 Spec

/-- `d` checks no more than `c`: every check that is on in `d` is on in `c`. -/
def Fewer (c d : Cfg) : Prop :=
  (d.overflowChecks = true → c.overflowChecks = true) ∧ (d.debugAssertions = true → c.debugAssertions = true)

/-- Whenever the first call returns, the second returns a related value. -/
def Keeps {α β : Type} (R : α → β → Prop) (r : Res α) (s : Res β) : Prop := ∀ y, r = .ok y → ∃ y', s = .ok y' ∧ R y y'

theorem Keeps.ok {α β : Type} {R : α → β → Prop} {x : α} {y : β} (h : R x y) : Keeps R (.ok x) (.ok y) := by
  intro z hz; cases hz; exact ⟨y, rfl, h⟩

theorem Keeps.fail {α β : Type} {R : α → β → Prop} {e : Fault} {s : Res β} : Keeps R (.error e) s := by
  intro z hz; cases hz

theorem Keeps.bind {α β γ δ : Type} {R : α → β → Prop} {Q : γ → δ → Prop} {r : Res α} {s : Res β} {f : α → Res γ} {g : β → Res δ}
    (h : Keeps R r s) (hf : ∀ x y, R x y → Keeps Q (f x) (g y)) : Keeps Q (r >>= f) (s >>= g) := by
  intro z hz
  cases r with
  | error e => cases hz
  | ok x =>
    obtain ⟨y, hy, hR⟩ := h x rfl
    rw [hy]
    exact hf x y hR z hz

variable {c d : Cfg} {x y x' y' : F32}

/-! ### the primitive operations -/

theorem port_addAs {o o' : FOp} (hx : Eqv x x') (hy : Eqv y y') : Eqv (@addAs c o x y) (@addAs d o' x' y') := by
  rcases hx with h | rfl
  · exact .of_nan (@addAs_nan c _ _ _ (.inl h.1)) (@addAs_nan d _ _ _ (.inl h.2))
  rcases hy with h | rfl
  · exact .of_nan (@addAs_nan c _ _ _ (.inr h.1)) (@addAs_nan d _ _ _ (.inr h.2))
  unfold addAs
  split
  · exact .of_nan (c.nanOp_isNaN _ _ _) (d.nanOp_isNaN _ _ _)
  · split
    · split
      · exact .of_nan (c.nanOp_isNaN _ _ _) (d.nanOp_isNaN _ _ _)
      · exact .rfl
    · exact .rfl

theorem port_add (hx : Eqv x x') (hy : Eqv y y') : Eqv (letI := c; x + y) (letI := d; x' + y') := port_addAs hx hy

theorem port_sub (hx : Eqv x x') (hy : Eqv y y') : Eqv (letI := c; x - y) (letI := d; x' - y') := port_addAs hx hy.neg

theorem port_mul (hx : Eqv x x') (hy : Eqv y y') : Eqv (letI := c; x * y) (letI := d; x' * y') := by
  rcases hx with h | rfl
  · exact .of_nan (@mul_nan c _ _ (.inl h.1)) (@mul_nan d _ _ (.inl h.2))
  rcases hy with h | rfl
  · exact .of_nan (@mul_nan c _ _ (.inr h.1)) (@mul_nan d _ _ (.inr h.2))
  show Eqv (@F32.mul c x y) (@F32.mul d x y)
  unfold F32.mul
  split
  · exact .of_nan (c.nanOp_isNaN _ _ _) (d.nanOp_isNaN _ _ _)
  · split
    · split
      · exact .of_nan (c.nanOp_isNaN _ _ _) (d.nanOp_isNaN _ _ _)
      · exact .rfl
    · exact .rfl

theorem port_div (hx : Eqv x x') (hy : Eqv y y') : Eqv (letI := c; x / y) (letI := d; x' / y') := by
  rcases hx with h | rfl
  · exact .of_nan (@div_nan c _ _ (.inl h.1)) (@div_nan d _ _ (.inl h.2))
  rcases hy with h | rfl
  · exact .of_nan (@div_nan c _ _ (.inr h.1)) (@div_nan d _ _ (.inr h.2))
  show Eqv (@F32.div c x y) (@F32.div d x y)
  unfold F32.div
  split
  · exact .of_nan (c.nanOp_isNaN _ _ _) (d.nanOp_isNaN _ _ _)
  · split
    · split
      · exact .of_nan (c.nanOp_isNaN _ _ _) (d.nanOp_isNaN _ _ _)
      · exact .rfl
    · split
      · exact .rfl
      · split
        · split
          · exact .of_nan (c.nanOp_isNaN _ _ _) (d.nanOp_isNaN _ _ _)
          · exact .rfl
        · exact .rfl

theorem port_rem (hx : Eqv x x') (hy : Eqv y y') : Eqv (letI := c; x % y) (letI := d; x' % y') := by
  rcases hx with h | rfl
  · exact .of_nan (@rem_nan c _ _ (.inl h.1)) (@rem_nan d _ _ (.inl h.2))
  rcases hy with h | rfl
  · exact .of_nan (@rem_nan c _ _ (.inr h.1)) (@rem_nan d _ _ (.inr h.2))
  show Eqv (@F32.rem c x y) (@F32.rem d x y)
  unfold F32.rem
  split
  · exact .of_nan (c.nanOp_isNaN _ _ _) (d.nanOp_isNaN _ _ _)
  · split
    · exact .of_nan (c.nanOp_isNaN _ _ _) (d.nanOp_isNaN _ _ _)
    · exact .rfl

theorem port_NAN : Eqv (@NAN c) (@NAN d) := .of_nan c.nanConst_isNaN d.nanConst_isNaN

theorem isNaN_abs' (x : F32) : x.abs.isNaN = x.isNaN := by rw [isNaN, isNaN, mag_abs]

theorem port_abs (h : Eqv x x') : Eqv x.abs x'.abs := by
  rcases h with h | rfl
  · exact .of_nan (by rw [isNaN_abs']; exact h.1) (by rw [isNaN_abs']; exact h.2)
  · exact .rfl

theorem port_lt (hx : Eqv x x') (hy : Eqv y y') : x.lt y = x'.lt y' := by
  rcases hx with h | rfl
  · simp [F32.lt, h.1, h.2]
  rcases hy with h | rfl
  · simp [F32.lt, h.1, h.2]
  rfl

theorem port_le (hx : Eqv x x') (hy : Eqv y y') : x.le y = x'.le y' := by
  rcases hx with h | rfl
  · simp [F32.le, h.1, h.2]
  rcases hy with h | rfl
  · simp [F32.le, h.1, h.2]
  rfl

theorem port_feq (hx : Eqv x x') (hy : Eqv y y') : x.feq y = x'.feq y' := by
  rcases hx with h | rfl
  · simp [F32.feq, h.1, h.2]
  rcases hy with h | rfl
  · simp [F32.feq, h.1, h.2]
  rfl

theorem port_toI32 (hx : Eqv x x') : x.toI32 = x'.toI32 := by
  rcases hx with h | rfl
  · simp [toI32, h.1, h.2]
  · rfl

theorem port_ite {b b' : Bool} {u v u' v' : F32} (hb : b = b') (h1 : Eqv u u') (h2 : Eqv v v') :
    Eqv (if b = true then u else v) (if b' = true then u' else v') := by
  subst hb; split <;> assumption

/-- Work through an expression operation by operation. -/
macro "port" : tactic => `(tactic| repeat' first
  | with_reducible assumption
  | with_reducible apply port_add | with_reducible apply port_sub | with_reducible apply port_mul | with_reducible apply port_div
  | with_reducible apply port_rem | with_reducible apply Eqv.neg | with_reducible apply port_abs | with_reducible exact Eqv.rfl)

/-! ### the methods that cannot panic -/

theorem port_signum (h : Eqv x x') : Eqv (@signum c x) (@signum d x') := by
  rcases h with h | rfl
  · unfold signum; rw [if_pos h.1, if_pos h.2]; exact port_NAN
  · unfold signum; split
    · exact port_NAN
    · exact .rfl

theorem toI32_bound (x : F32) : -2 ^ 31 ≤ x.toI32 ∧ x.toI32 ≤ 2 ^ 31 := by
  unfold toI32
  split
  · norm_num
  · split
    · split <;> norm_num
    · constructor
      · exact le_max_left _ _
      · exact max_le (by norm_num) ((min_le_left _ _).trans (by norm_num))

theorem ofInt_toI32_fin (x : F32) : (ofInt x.toI32).isFinite = true := by
  obtain ⟨h1, h2⟩ := toI32_bound x
  refine (ofInt_val ?_).1
  have a : |x.toI32| ≤ 2 ^ 31 := abs_le.2 ⟨h1, h2⟩
  have b : |(x.toI32 : ℚ)| ≤ 2 ^ 31 := by exact_mod_cast a
  exact lt_of_le_of_lt b (by rw [ovf]; norm_num)

theorem port_floor (h : Eqv x x') : @floor c x = @floor d x' := by
  unfold floor
  rw [← port_toI32 h]
  dsimp only
  rw [port_lt h .rfl]
  split
  · exact (port_sub .rfl .rfl).eq (@sub_fin_not_nan c _ _ (ofInt_toI32_fin x) fin_one)
  · rfl

theorem port_ceil (h : Eqv x x') : @ceil c x = @ceil d x' := by
  unfold ceil; rw [port_floor (c := c) (d := d) h.neg]

theorem port_round (h : Eqv x x') : @F32.round c x = @F32.round d x' := by
  have e : (letI := c; x + (lit 1 2).copysign x).toI32 = (letI := d; x' + (lit 1 2).copysign x').toI32 := by
    rcases h with h | rfl
    · exact port_toI32 (.of_nan (@add_nan c _ _ (.inl h.1)) (@add_nan d _ _ (.inl h.2)))
    · exact port_toI32 (port_add .rfl .rfl)
  unfold F32.round
  exact congrArg ofInt e

theorem port_remEuclid (hx : Eqv x x') (hy : Eqv y y') : Eqv (@remEuclid c x y) (@remEuclid d x' y') := by
  unfold remEuclid
  exact port_ite (port_le .rfl (port_rem hx hy)) (port_rem hx hy) (port_add (port_rem hx hy) (port_abs hy))

theorem port_divEuclid (h : (letI := c; x / y).isNaN = false) : Eqv (@divEuclid c x y) (@divEuclid d x y) := by
  have e := (port_div (c := c) (d := d) (x := x) (y := y) .rfl .rfl).eq h
  unfold divEuclid
  simp only [e]
  exact port_ite (port_le .rfl (port_rem .rfl .rfl)) .rfl (port_ite rfl (port_sub .rfl .rfl) (port_add .rfl .rfl))

theorem port_sqrt (h : Eqv x x') : Eqv (@sqrt c x) (@sqrt d x') := by
  rcases h with h | rfl
  · exact .of_nan (@root_nan c _ h.1) (@root_nan d _ h.2)
  · unfold sqrt; exact port_ite rfl .rfl port_NAN

theorem inv_nan' (c : Cfg) (h : x.isNaN = true) : (@inv c x).isNaN = true := by
  have hb : ¬ x.toBits.toNat ≤ 0x7f000000 := by
    have hm : infMag < x.mag := by simpa [isNaN] using h
    have : x.toBits.toNat = x.bits.toNat := rfl
    have hi : infMag = 0x7f800000 := by decide
    unfold mag at hm
    omega
  unfold inv
  rw [if_neg hb, if_neg (by rw [not_inf_of_nan h]; simp), if_pos h]
  exact c.nanConst_isNaN

theorem port_inv (h : Eqv x x') : Eqv (@inv c x) (@inv d x') := by
  rcases h with h | rfl
  · exact .of_nan (inv_nan' c h.1) (inv_nan' d h.2)
  · unfold inv
    split
    · exact .rfl
    · split
      · exact .rfl
      · split
        · exact port_NAN
        · exact .rfl

theorem recip_nan' (c : Cfg) (h : x.isNaN = true) : (@recip c x).isNaN = true := by
  unfold recip
  exact @mul_nan c _ _ (.inl (@mul_nan c _ _ (.inr (@add_nan c _ _ (.inr (@mul_nan c _ _ (.inl (@mul_nan c _ _ (.inl (@mul_nan c _ _ (.inl h)))))))))))

theorem port_recip (h : Eqv x x') : Eqv (@recip c x) (@recip d x') := by
  rcases h with h | rfl
  · exact .of_nan (recip_nan' c h.1) (recip_nan' d h.2)
  · by_cases hn : x.isNaN = true
    · exact .of_nan (recip_nan' c hn) (recip_nan' d hn)
    have e : (letI := c; x * (if x.lt ZERO = true then -one else one)) = (letI := d; x * (if x.lt ZERO = true then -one else one)) := by
      have hn' : x.isNaN = false := by simpa using hn
      split
      · exact (@mul_neg_one_nn c _ hn').trans (@mul_neg_one_nn d _ hn').symm
      · exact (@mul_one_nn c _ hn').trans (@mul_one_nn d _ hn').symm
    unfold recip
    simp only [e]
    port

theorem port_hypot (hx : Eqv x x') (hy : Eqv y y') : Eqv (@hypot c x y) (@hypot d x' y') := by
  unfold hypot; exact port_sqrt (by port)

theorem port_mulAdd {z z' : F32} (hx : Eqv x x') (hy : Eqv y y') (hz : Eqv z z') : Eqv (@mulAdd c x y z) (@mulAdd d x' y' z') := by
  unfold mulAdd; port

theorem port_orSign (w : BitVec 32) (h : Eqv x x') :
    Eqv (fromBits ((0x80000000#32 &&& w) ||| x.toBits)) (fromBits ((0x80000000#32 &&& w) ||| x'.toBits)) := by
  rcases h with h | rfl
  · exact .of_nan (by rw [isNaN, mag_or_sign]; exact h.1) (by rw [isNaN, mag_or_sign]; exact h.2)
  · exact .rfl

theorem atanNorm_nan (c : Cfg) (h : x.isNaN = true) : (@atanNorm c x).isNaN = true := by
  unfold atanNorm
  dsimp only
  rw [isNaN, mag_or_sign]
  exact @div_nan c _ _ (.inl (@add_nan c _ _ (.inr (@mul_nan c _ _ (.inl h)))))

theorem port_atanNorm (h : Eqv x x') : Eqv (@atanNorm c x) (@atanNorm d x') := by
  rcases h with h | rfl
  · exact .of_nan (atanNorm_nan c h.1) (atanNorm_nan d h.2)
  · unfold atanNorm
    exact port_orSign x.toBits (by port)

theorem port_atan (h : Eqv x x') : Eqv (@atan c x) (@atan d x') := by
  unfold atan; exact port_mul .rfl (port_atanNorm h)

theorem port_atan2 (hx : Eqv x x') (hy : Eqv y y') : Eqv (@atan2 c y x) (@atan2 d y' x') := by
  rcases hx with h | rfl
  · exact .of_nan (@C100_atan2_nan c _ _ (.inl h.1)) (@C100_atan2_nan d _ _ (.inl h.2))
  rcases hy with h | rfl
  · exact .of_nan (@C100_atan2_nan c _ _ (.inr h.1)) (@C100_atan2_nan d _ _ (.inr h.2))
  have n : Eqv (@atan2Norm c y x) (@atan2Norm d y x) := by
    unfold atan2Norm
    dsimp only
    rw [and_xor]
    exact port_add .rfl (port_orSign _ (by port))
  unfold atan2
  exact port_mul (port_div .rfl .rfl) (port_ite (port_lt .rfl n) (port_sub n .rfl) n)

theorem port_acos (h : Eqv x x') : Eqv (@acos c x) (@acos d x') := by
  have k : Eqv (letI := c; ((ONE - x * x).sqrt / x).atan) (letI := d; ((ONE - x' * x').sqrt / x').atan) :=
    port_atan (port_div (port_sqrt (by port)) h)
  unfold acos
  exact port_ite (port_lt .rfl h) k (port_ite (port_feq h .rfl) (port_div .rfl .rfl) (port_add k .rfl))

theorem port_cos (h : Eqv x x') : Eqv (@cos c x) (@cos d x') := by
  have a : Eqv (letI := c; x * (FRAC_1_PI / lit 2 1)) (letI := d; x' * (FRAC_1_PI / lit 2 1)) := by port
  have b : Eqv (letI := c; x * (FRAC_1_PI / lit 2 1) - (lit 25 100 + (x * (FRAC_1_PI / lit 2 1) + lit 25 100).floor))
      (letI := d; x' * (FRAC_1_PI / lit 2 1) - (lit 25 100 + (x' * (FRAC_1_PI / lit 2 1) + lit 25 100).floor)) :=
    port_sub a (port_add .rfl (.of_eq (port_floor (port_add a .rfl))))
  unfold cos
  dsimp only
  generalize (letI := c; x * (FRAC_1_PI / lit 2 1) - (lit 25 100 + (x * (FRAC_1_PI / lit 2 1) + lit 25 100).floor)) = u at *
  generalize (letI := d; x' * (FRAC_1_PI / lit 2 1) - (lit 25 100 + (x' * (FRAC_1_PI / lit 2 1) + lit 25 100).floor)) = v at *
  port

theorem port_sin (h : Eqv x x') : Eqv (@sin c x) (@sin d x') := by
  unfold sin; exact port_cos (by port)

theorem port_tan (h : Eqv x x') : Eqv (@tan c x) (@tan d x') := by
  unfold tan; exact port_div (port_sin h) (port_cos h)

theorem port_ln (h : Eqv x x') : Eqv (@ln c x) (@ln d x') := by
  rcases h with h | rfl
  · exact .of_nan (@C31_ln_nan c _ (.inl h.1)) (@C31_ln_nan d _ (.inl h.2))
  by_cases hn : x.isNaN = true
  · exact .of_nan (@C31_ln_nan c _ (.inl hn)) (@C31_ln_nan d _ (.inl hn))
  have hn' : x.isNaN = false := by simpa using hn
  have e : @inv c x = @inv d x := by
    unfold inv
    split
    · rfl
    · split
      · rfl
      · rfl
  unfold ln
  refine port_ite (port_lt (port_abs (port_sub .rfl .rfl)) .rfl) .rfl ?_
  dsimp only
  rw [e]
  have k : ∀ w : F32, Eqv (letI := c; lnPoly w) (letI := d; lnPoly w) := by
    intro w; unfold lnPoly; port
  have k2 : ∀ w w' : F32, Eqv w w' → Eqv (letI := c; lnPoly w) (letI := d; lnPoly w') := by
    intro w w' hw; unfold lnPoly; port
  refine port_ite rfl (Eqv.neg (port_add (port_mul .rfl .rfl) (k2 _ _ (port_div .rfl .rfl)))) (port_add (port_mul .rfl .rfl) (k2 _ _ (port_div .rfl .rfl)))

theorem port_log (hx : Eqv x x') (hy : Eqv y y') : Eqv (@log c x y) (@log d x' y') := by
  unfold log; exact port_mul (port_div .rfl (port_ln hy)) (port_ln hx)

theorem port_log2 (h : Eqv x x') : Eqv (@log2 c x) (@log2 d x') := by
  unfold log2; exact port_mul (port_ln h) .rfl

theorem port_log10 (h : Eqv x x') : Eqv (@log10 c x) (@log10 d x') := by
  unfold log10; exact port_mul (port_ln h) .rfl

/-! ### the methods that can panic -/

theorem port_i32chk (f : Fewer c d) (v : Int) : Keeps Eq (@i32chk c v) (@i32chk d v) := by
  unfold i32chk
  split
  · exact .ok rfl
  · cases hd : d.overflowChecks
    · cases hc : c.overflowChecks
      · exact .ok rfl
      · exact .fail
    · rw [f.1 hd]; exact .fail

theorem port_u32chk (f : Fewer c d) (v : Int) : Keeps Eq (@u32chk c v) (@u32chk d v) := by
  unfold u32chk
  split
  · exact .ok rfl
  · cases hd : d.overflowChecks
    · cases hc : c.overflowChecks
      · exact .ok rfl
      · exact .fail
    · rw [f.1 hd]; exact .fail

theorem port_invsqrt (f : Fewer c d) (x : F32) : Keeps Eq (@invsqrt c x) (@invsqrt d x) := by
  unfold invsqrt
  refine (port_u32chk f _).bind ?_
  rintro a _ rfl
  exact .ok rfl

theorem one_sub_sq_nn (c : Cfg) (h : x.isNaN = false) : (letI := c; ONE - x * x).isNaN = false := by
  let _ := c
  have hq : (x * x).isNaN = false := (sq_facts h).1
  rcases class_cases (x * x) with hf | hi | hn
  · exact sub_fin_not_nan fin_one hf
  · rw [sub_def]
    have i1 : ONE.isInf = false := by decide
    have i2 : (-(x * x)).isInf = true := by rw [isInf, mag_neg]; exact hi
    have i3 : (-(x * x)).isNaN = false := by simpa using hq
    have i4 : ONE.isNaN = false := by decide
    simp only [addAs, i1, i2, i3, i4]
    simpa using hq
  · rw [hq] at hn; cases hn

theorem port_asin (f : Fewer c d) (h : (letI := c; ONE - x * x).isNaN = false) : Keeps Eqv (@asin c x) (@asin d x) := by
  have e := (port_sub (c := c) (d := d) (x := ONE) .rfl (port_mul (c := c) (d := d) (x := x) (y := x) .rfl .rfl)).eq h
  unfold asin
  rw [e]
  refine (port_invsqrt f _).bind ?_
  rintro r _ rfl
  exact .ok (port_atan (port_mul .rfl .rfl))

theorem port_setExponent (f : Fewer c d) (x : F32) (e : Int) : Keeps Eq (@setExponent c x e) (@setExponent d x e) := by
  unfold setExponent
  by_cases hr : e ≤ 127 ∧ e ≥ -128
  · rw [if_neg (by simp [hr]), if_neg (by simp [hr])]
    refine (port_i32chk f _).bind ?_
    rintro r _ rfl
    exact .ok rfl
  · cases hc : c.debugAssertions
    · cases hd : d.debugAssertions
      · simp only [Bool.false_and]
        refine (port_i32chk f _).bind ?_
        rintro r _ rfl
        exact .ok rfl
      · rw [f.2 hd] at hc; cases hc
    · rw [if_pos (by simp [hr])]; exact .fail

/-- The polynomial of `exp` never sees a NaN when the argument is a moderate number. -/
theorem exp_poly_nn (c : Cfg) {y : F32} (h : |y.val| < 2 ^ 32) : (letI := c; (y.fract * LN_2).expSmallx 4).isNaN = false := by
  let _ := c
  obtain ⟨⟨ff, -⟩, -, f1, -⟩ := C06_fract y h
  have hL : LN_2.val = 1453635 / 2097152 := val_LN_2
  have hp : |y.fract.val * LN_2.val| ≤ LN_2.val := by
    rw [abs_mul, abs_of_pos (show 0 < LN_2.val by rw [hL]; norm_num)]
    have := mul_le_mul_of_nonneg_right f1.le (show 0 ≤ LN_2.val by rw [hL]; norm_num)
    linarith
  obtain ⟨fg, vg⟩ := mul_val ff fin_LN_2 (lt_of_le_of_lt hp (by rw [hL, ovf]; norm_num))
  refine not_nan_of_finite (expSmallx_err fg ?_).1
  rw [vg]
  refine (abs_RN_le_of_rep (rep_val LN_2) hp).trans ?_
  rw [hL]; norm_num

theorem port_expSmallx (h : Eqv x x') : Eqv (@expSmallx c x 4) (@expSmallx d x' 4) := by
  rw [@expSmallx_four c, @expSmallx_four d]; port

theorem port_exp (f : Fewer c d) (h : x.isNaN = false) : Keeps Eqv (@exp c x) (@exp d x) := by
  by_cases hm : 135 * 2 ^ 23 ≤ x.mag
  · rw [@exp_huge c _ h hm, @exp_huge d _ h hm]; exact .ok .rfl
  have hx : x.isFinite = true := by
    have hi : infMag = 255 * 2 ^ 23 := by decide
    simp only [isFinite, decide_eq_true_eq, hi]; omega
  have hv : |x.val| < 2 ^ 8 := by
    by_contra hc
    exact hm ((pow_le_iff (x := x) (k := 135) (by norm_num)).1 (by norm_num at hc ⊢; exact hc))
  have hb : |x.val * LOG2_E.val| < 2 ^ 10 := by
    rw [abs_mul, val_LOG2_E]
    norm_num at hv ⊢
    linarith [abs_nonneg x.val]
  obtain ⟨fy, vy⟩ := @mul_val c _ _ hx fin_LOG2_E (hb.trans (by rw [ovf]; norm_num))
  have vb : |(letI := c; x * LOG2_E).val| < 2 ^ 32 := by
    rw [vy]
    refine lt_of_le_of_lt (abs_RN_le_of_rep (c := 2 ^ 10) (by have := rep_int (m := 2 ^ 10) (by decide); push_cast at this; exact this) hb.le) (by norm_num)
  have e1 := (port_mul (c := c) (d := d) (x := x) (y := LOG2_E) .rfl .rfl).eq (not_nan_of_finite fy)
  have e2 := (port_expSmallx (c := c) (d := d) (port_mul (c := c) (d := d) (x := (letI := c; x * LOG2_E).fract) (y := LN_2) .rfl .rfl)).eq (exp_poly_nn c vb)
  unfold exp expLn2Approx
  have q1 : (letI := c; x - ONE).abs.lt EPSILON = (letI := d; x - ONE).abs.lt EPSILON := port_lt (port_abs (port_sub .rfl .rfl)) .rfl
  have q2 : (letI := c; x - (-ONE)).abs.lt EPSILON = (letI := d; x - (-ONE)).abs.lt EPSILON := port_lt (port_abs (port_sub .rfl .rfl)) .rfl
  rw [q1, q2]
  split
  · exact .ok .rfl
  · split
    · exact .ok .rfl
    · split
      · exact .ok (port_div .rfl .rfl)
      · dsimp only
        rw [e2, e1]
        split
        · exact .ok .rfl
        · split
          · exact .ok .rfl
          · intro y hy
            obtain ⟨y', hy', rfl⟩ := port_setExponent f _ _ y hy
            exact ⟨y, hy', .rfl⟩

theorem port_cosh (f : Fewer c d) (h : x.isNaN = false) : Keeps Eqv (@cosh c x) (@cosh d x) := by
  unfold cosh
  refine (port_exp f h).bind fun a a' ha => (port_exp f (by simpa using h)).bind fun b b' hb => ?_
  exact .ok (port_div (port_add ha hb) .rfl)

theorem port_powf {n : F32} (f : Fewer c d) (h1 : x.ge ZERO = true → (letI := c; n * x.ln).isNaN = false)
    (h2 : x.ge ZERO = false → n.isInteger = true → (letI := c; n * x.withoutSign.ln).isNaN = false) : Keeps Eqv (@powf c x n) (@powf d x n) := by
  unfold powf
  split
  · rename_i hg
    have e := (port_mul (c := c) (d := d) (x := n) .rfl (port_ln (c := c) (d := d) (x := x) .rfl)).eq (h1 hg)
    rw [← e]
    exact port_exp f (h1 hg)
  · rename_i hg
    split
    · exact .ok port_NAN
    · rename_i hi
      have hn := h2 (by simpa using hg) (by simpa using hi)
      have e := (port_mul (c := c) (d := d) (x := n) .rfl (port_ln (c := c) (d := d) (x := x.withoutSign) .rfl)).eq hn
      rw [← e]
      split
      · exact port_exp f hn
      · exact (port_exp f hn).bind fun a b hab => .ok hab.neg

theorem port_powiLoop (k : Nat) (m : Int) {b b' r r' : F32} (hb : Eqv b b') (hr : Eqv r r') :
    (@powiLoop c k m b r = none ∧ @powiLoop d k m b' r' = none) ∨
      ∃ y y', @powiLoop c k m b r = some y ∧ @powiLoop d k m b' r' = some y' ∧ Eqv y y' := by
  induction k generalizing m b b' r r' with
  | zero => exact .inl ⟨rfl, rfl⟩
  | succ k ih =>
    have hr2 : Eqv (if m % 2 = 1 then (letI := c; r * b) else r) (if m % 2 = 1 then (letI := d; r' * b') else r') := by
      split
      · exact port_mul hr hb
      · exact hr
    simp only [powiLoop]
    split
    · exact .inr ⟨_, _, rfl, rfl, hr2⟩
    · exact ih _ (port_mul hb hb) hr2

theorem port_powi (f : Fewer c d) (x : F32) (n : Int) : Keeps Eqv (@powi c x n) (@powi d x n) := by
  unfold powi
  refine (port_i32chk f _).bind ?_
  rintro a _ rfl
  have hb : Eqv (if n < 0 then (letI := c; one / x) else x) (if n < 0 then (letI := d; one / x) else x) := by
    split
    · exact port_div .rfl .rfl
    · exact .rfl
  have hl : Keeps Eqv (match @powiLoop c 32 a (if n < 0 then (letI := c; one / x) else x) one with
        | some r => Except.ok r
        | none => Except.error Fault.diverges)
      (match @powiLoop d 32 a (if n < 0 then (letI := d; one / x) else x) one with
        | some r => Except.ok r
        | none => Except.error Fault.diverges) := by
    rcases port_powiLoop (c := c) (d := d) 32 a hb (.rfl (x := one)) with ⟨e1, e2⟩ | ⟨y, y', e1, e2, h⟩
    · rw [e1, e2]; exact .fail
    · rw [e1, e2]; exact .ok h
  dsimp only
  split
  · exact .ok .rfl
  · split
    · exact .ok .rfl
    · split
      · refine (port_i32chk f _).bind ?_
        rintro e _ rfl
        split
        · split <;> exact .ok .rfl
        · split
          · exact .ok .rfl
          · exact hl
      · exact hl

/-! ### vectors -/

/-- The arithmetic of a component type is the same under both configurations, up to `R`. -/
structure PortComp {C : Type} (R : C → C → Prop) (ic : @Component C c) (id : @Component C d) : Prop where
  add : ∀ a b a' b', R a a' → R b b' → Keeps R (ic.add a b) (id.add a' b')
  sub : ∀ a b a' b', R a a' → R b b' → Keeps R (ic.sub a b) (id.sub a' b')
  mul : ∀ a b a' b', R a a' → R b b' → Keeps R (ic.mul a b) (id.mul a' b')
  div : ∀ a b a' b', R a a' → R b b' → Keeps R (ic.div a b) (id.div a' b')
  zero : R ic.default id.default

theorem port_chk {s : Bool} {w : Nat} (f : Fewer c d) (v : Int) : Keeps Eq (@MInt.chk s w c v) (@MInt.chk s w d v) := by
  unfold MInt.chk
  split
  · exact .ok rfl
  · cases hd : d.overflowChecks
    · cases hc : c.overflowChecks
      · exact .ok rfl
      · exact .fail
    · rw [f.1 hd]; exact .fail

theorem Keeps.refl {α : Type} (r : Res α) : Keeps Eq r r := fun y hy => ⟨y, hy, rfl⟩

theorem port_int (s : Bool) (w : Nat) (f : Fewer c d) :
    PortComp (c := c) (d := d) (C := MInt s w) Eq (@instComponentMInt c s w) (@instComponentMInt d s w) where
  add := by rintro a b _ _ rfl rfl; exact port_chk f _
  sub := by rintro a b _ _ rfl rfl; exact port_chk f _
  mul := by rintro a b _ _ rfl rfl; exact port_chk f _
  div := by rintro a b _ _ rfl rfl; exact Keeps.refl _
  zero := rfl

theorem port_f32 : PortComp (c := c) (d := d) (C := F32) Eqv (@instComponentF32 c) (@instComponentF32 d) where
  add := fun _ _ _ _ h h' => .ok (port_add h h')
  sub := fun _ _ _ _ h h' => .ok (port_sub h h')
  mul := fun _ _ _ _ h h' => .ok (port_mul h h')
  div := fun _ _ _ _ h h' => .ok (port_div h h')
  zero := .rfl

/-- Componentwise. -/
def R2 {C : Type} (R : C → C → Prop) (u v : Vector2d C) : Prop := R u.x v.x ∧ R u.y v.y
@[inherit_doc R2] def R3 {C : Type} (R : C → C → Prop) (u v : Vector3d C) : Prop := R u.x v.x ∧ R u.y v.y ∧ R u.z v.z

section
variable {C : Type} {R : C → C → Prop} {ic : @Component C c} {id : @Component C d}

theorem port_vec2 (P : PortComp (c := c) (d := d) R ic id) {u v u' v' : Vector2d C} {k k' : C} (hu : R2 R u u') (hv : R2 R v v') (hk : R k k') :
    Keeps R (letI := c; u.dot v) (letI := d; u'.dot v') ∧ Keeps R (letI := c; u.perpendicularDot v) (letI := d; u'.perpendicularDot v') ∧
    Keeps (R2 R) (letI := c; u.add v) (letI := d; u'.add v') ∧ Keeps (R2 R) (letI := c; u.sub v) (letI := d; u'.sub v') ∧
    Keeps (R2 R) (letI := c; u.mulScalar k) (letI := d; u'.mulScalar k') ∧ Keeps (R2 R) (letI := c; u.divScalar k) (letI := d; u'.divScalar k') := by
  refine ⟨?_, ?_, ?_, ?_, ?_, ?_⟩
  · exact (P.mul _ _ _ _ hu.1 hv.1).bind fun a a' ha => (P.mul _ _ _ _ hu.2 hv.2).bind fun b b' hb => P.add _ _ _ _ ha hb
  · exact (P.mul _ _ _ _ hu.1 hv.2).bind fun a a' ha => (P.mul _ _ _ _ hu.2 hv.1).bind fun b b' hb => P.sub _ _ _ _ ha hb
  · exact (P.add _ _ _ _ hu.1 hv.1).bind fun a a' ha => (P.add _ _ _ _ hu.2 hv.2).bind fun b b' hb => .ok ⟨ha, hb⟩
  · exact (P.sub _ _ _ _ hu.1 hv.1).bind fun a a' ha => (P.sub _ _ _ _ hu.2 hv.2).bind fun b b' hb => .ok ⟨ha, hb⟩
  · exact (P.mul _ _ _ _ hu.1 hk).bind fun a a' ha => (P.mul _ _ _ _ hu.2 hk).bind fun b b' hb => .ok ⟨ha, hb⟩
  · exact (P.div _ _ _ _ hu.1 hk).bind fun a a' ha => (P.div _ _ _ _ hu.2 hk).bind fun b b' hb => .ok ⟨ha, hb⟩

theorem port_dot3 (P : PortComp (c := c) (d := d) R ic id) {u v u' v' : Vector3d C} (hu : R3 R u u') (hv : R3 R v v') :
    Keeps R (letI := c; u.dot v) (letI := d; u'.dot v') :=
  (P.mul _ _ _ _ hu.1 hv.1).bind fun _ _ ha => (P.mul _ _ _ _ hu.2.1 hv.2.1).bind fun _ _ hb =>
    (P.add _ _ _ _ ha hb).bind fun _ _ hs => (P.mul _ _ _ _ hu.2.2 hv.2.2).bind fun _ _ hz => P.add _ _ _ _ hs hz

theorem port_vec3 (P : PortComp (c := c) (d := d) R ic id) {u v u' v' : Vector3d C} {k k' : C} (hu : R3 R u u') (hv : R3 R v v') (hk : R k k') :
    Keeps (R3 R) (letI := c; u.cross v) (letI := d; u'.cross v') ∧
    Keeps (R3 R) (letI := c; u.add v) (letI := d; u'.add v') ∧ Keeps (R3 R) (letI := c; u.sub v) (letI := d; u'.sub v') ∧
    Keeps (R3 R) (letI := c; u.mulScalar k) (letI := d; u'.mulScalar k') ∧ Keeps (R3 R) (letI := c; u.divScalar k) (letI := d; u'.divScalar k') := by
  refine ⟨?_, ?_, ?_, ?_, ?_⟩
  · exact (P.mul _ _ _ _ hu.2.1 hv.2.2).bind fun _ _ h1 => (P.mul _ _ _ _ hu.2.2 hv.2.1).bind fun _ _ h2 =>
      (P.sub _ _ _ _ h1 h2).bind fun _ _ hx => (P.mul _ _ _ _ hu.2.2 hv.1).bind fun _ _ h3 =>
      (P.mul _ _ _ _ hu.1 hv.2.2).bind fun _ _ h4 => (P.sub _ _ _ _ h3 h4).bind fun _ _ hy =>
      (P.mul _ _ _ _ hu.1 hv.2.1).bind fun _ _ h5 => (P.mul _ _ _ _ hu.2.1 hv.1).bind fun _ _ h6 =>
      (P.sub _ _ _ _ h5 h6).bind fun _ _ hz => .ok ⟨hx, hy, hz⟩
  · exact (P.add _ _ _ _ hu.1 hv.1).bind fun _ _ ha => (P.add _ _ _ _ hu.2.1 hv.2.1).bind fun _ _ hb =>
      (P.add _ _ _ _ hu.2.2 hv.2.2).bind fun _ _ hz => .ok ⟨ha, hb, hz⟩
  · exact (P.sub _ _ _ _ hu.1 hv.1).bind fun _ _ ha => (P.sub _ _ _ _ hu.2.1 hv.2.1).bind fun _ _ hb =>
      (P.sub _ _ _ _ hu.2.2 hv.2.2).bind fun _ _ hz => .ok ⟨ha, hb, hz⟩
  · exact (P.mul _ _ _ _ hu.1 hk).bind fun _ _ ha => (P.mul _ _ _ _ hu.2.1 hk).bind fun _ _ hb =>
      (P.mul _ _ _ _ hu.2.2 hk).bind fun _ _ hz => .ok ⟨ha, hb, hz⟩
  · exact (P.div _ _ _ _ hu.1 hk).bind fun _ _ ha => (P.div _ _ _ _ hu.2.1 hk).bind fun _ _ hb =>
      (P.div _ _ _ _ hu.2.2 hk).bind fun _ _ hz => .ok ⟨ha, hb, hz⟩

theorem port_sum2 (P : PortComp (c := c) (d := d) R ic id) {l l' : List (Vector2d C)} (h : List.Forall₂ (R2 R) l l') :
    Keeps (R2 R) (letI := c; Vector2d.sum l) (letI := d; Vector2d.sum l') := by
  have k : ∀ a a', R2 R a a' → Keeps (R2 R) (letI := c; l.foldlM Vector2d.add a) (letI := d; l'.foldlM Vector2d.add a') := by
    induction h with
    | nil => intro a a' ha; exact .ok ha
    | cons hx _ ih =>
      intro a a' ha
      rw [List.foldlM_cons, List.foldlM_cons]
      exact (port_vec2 P ha hx P.zero).2.2.1.bind fun b b' hb => ih b b' hb
  exact k _ _ ⟨P.zero, P.zero⟩

theorem port_sum3 (P : PortComp (c := c) (d := d) R ic id) {l l' : List (Vector3d C)} (h : List.Forall₂ (R3 R) l l') :
    Keeps (R3 R) (letI := c; Vector3d.sum l) (letI := d; Vector3d.sum l') := by
  have k : ∀ a a', R3 R a a' → Keeps (R3 R) (letI := c; l.foldlM Vector3d.add a) (letI := d; l'.foldlM Vector3d.add a') := by
    induction h with
    | nil => intro a a' ha; exact .ok ha
    | cons hx _ ih =>
      intro a a' ha
      rw [List.foldlM_cons, List.foldlM_cons]
      exact (port_vec3 P ha hx P.zero).2.1.bind fun b b' hb => ih b b' hb
  exact k _ _ ⟨P.zero, P.zero, P.zero⟩

theorem port_sumSq (h : Eqv x x') : Eqv (letI := c; c.sumZero + x * x) (letI := d; d.sumZero + x' * x') := by
  have h1 : Eqv (letI := c; c.sumZero + x * x) (letI := c; x * x) := @sumZero_add c _ (@sq_sign c x)
  have h2 : Eqv (letI := d; d.sumZero + x' * x') (letI := d; x' * x') := @sumZero_add d _ (@sq_sign d x')
  exact h1.trans ((port_mul h h).trans h2.symm)

variable [IntoF32 C]

theorem port_mag2 {u u' : Vector2d C} (h : R2 (fun a b => Eqv (IntoF32.into a) (IntoF32.into b)) u u') :
    Eqv (letI := c; letI := ic; VectorTrait.magnitude u) (letI := d; letI := id; VectorTrait.magnitude u') := by
  show Eqv (@sqrt c (letI := c; (c.sumZero + IntoF32.into u.x * IntoF32.into u.x) + IntoF32.into u.y * IntoF32.into u.y))
    (@sqrt d (letI := d; (d.sumZero + IntoF32.into u'.x * IntoF32.into u'.x) + IntoF32.into u'.y * IntoF32.into u'.y))
  exact port_sqrt (port_add (port_sumSq h.1) (port_mul h.2 h.2))

theorem port_mag3 {u u' : Vector3d C} (h : R3 (fun a b => Eqv (IntoF32.into a) (IntoF32.into b)) u u') :
    Eqv (letI := c; letI := ic; VectorTrait.magnitude u) (letI := d; letI := id; VectorTrait.magnitude u') := by
  show Eqv (@sqrt c (letI := c; ((c.sumZero + IntoF32.into u.x * IntoF32.into u.x) + IntoF32.into u.y * IntoF32.into u.y) +
      IntoF32.into u.z * IntoF32.into u.z))
    (@sqrt d (letI := d; ((d.sumZero + IntoF32.into u'.x * IntoF32.into u'.x) + IntoF32.into u'.y * IntoF32.into u'.y) +
      IntoF32.into u'.z * IntoF32.into u'.z))
  exact port_sqrt (port_add (port_add (port_sumSq h.1) (port_mul h.2.1 h.2.1)) (port_mul h.2.2 h.2.2))

theorem port_dist2 {u u' v v' : Vector2d C} (h : R2 (fun a b => Eqv (IntoF32.into a) (IntoF32.into b)) u u')
    (k : R2 (fun a b => Eqv (IntoF32.into a) (IntoF32.into b)) v v') :
    Eqv (letI := c; letI := ic; VectorTrait.distance u v) (letI := d; letI := id; VectorTrait.distance u' v') := by
  have h1 := port_sub (c := c) (d := d) h.1 k.1
  have h2 := port_sub (c := c) (d := d) h.2 k.2
  exact port_sqrt (port_add (port_sumSq h1) (port_mul h2 h2))

theorem port_dist3 {u u' v v' : Vector3d C} (h : R3 (fun a b => Eqv (IntoF32.into a) (IntoF32.into b)) u u')
    (k : R3 (fun a b => Eqv (IntoF32.into a) (IntoF32.into b)) v v') :
    Eqv (letI := c; letI := ic; VectorTrait.distance u v) (letI := d; letI := id; VectorTrait.distance u' v') := by
  have h1 := port_sub (c := c) (d := d) h.1 k.1
  have h2 := port_sub (c := c) (d := d) h.2.1 k.2.1
  have h3 := port_sub (c := c) (d := d) h.2.2 k.2.2
  exact port_sqrt (port_add (port_add (port_sumSq h1) (port_mul h2 h2)) (port_mul h3 h3))

end

theorem port_normalized2 {u u' : Vector2d F32} (h : R2 Eqv u u') :
    Keeps (R2 Eqv) (letI := c; VectorTrait.normalized u) (letI := d; VectorTrait.normalized u') := by
  have m := port_mag2 (c := c) (d := d) (ic := @instComponentF32 c) (id := @instComponentF32 d) h
  exact .ok ⟨port_div h.1 m, port_div h.2 m⟩

theorem port_normalized3 {u u' : Vector3d F32} (h : R3 Eqv u u') :
    Keeps (R3 Eqv) (letI := c; VectorTrait.normalized u) (letI := d; VectorTrait.normalized u') := by
  have m := port_mag3 (c := c) (d := d) (ic := @instComponentF32 c) (id := @instComponentF32 d) h
  exact .ok ⟨port_div h.1 m, port_div h.2.1 m, port_div h.2.2 m⟩

theorem port_magSq_f32 {u u' : Vector2d F32} {v v' : Vector3d F32} (h : R2 Eqv u u') (k : R3 Eqv v v') :
    Keeps Eqv (letI := c; VectorTrait.magnitudeSq u) (letI := d; VectorTrait.magnitudeSq u') ∧
    Keeps Eqv (letI := c; VectorTrait.magnitudeSq v) (letI := d; VectorTrait.magnitudeSq v') :=
  ⟨.ok (port_add (port_sumSq h.1) (port_mul h.2 h.2)),
   .ok (port_add (port_add (port_sumSq k.1) (port_mul k.2.1 k.2.1)) (port_mul k.2.2 k.2.2))⟩

theorem port_magSq_int {s : Bool} {w : Nat} (f : Fewer c d) (u : Vector2d (MInt s w)) (v : Vector3d (MInt s w)) :
    Keeps Eq (letI := c; VectorTrait.magnitudeSq u) (letI := d; VectorTrait.magnitudeSq u) ∧
    Keeps Eq (letI := c; VectorTrait.magnitudeSq v) (letI := d; VectorTrait.magnitudeSq v) := by
  have P := port_int s w f
  have k : ∀ (l : List (MInt s w)) (a : MInt s w),
      Keeps Eq (l.foldlM (fun acc n => do let sq ← @Component.mul _ c _ n n; @Component.add _ c _ acc sq) a)
        (l.foldlM (fun acc n => do let sq ← @Component.mul _ d _ n n; @Component.add _ d _ acc sq) a) := by
    intro l
    induction l with
    | nil => intro a; exact .ok rfl
    | cons x l ih =>
      intro a
      rw [List.foldlM_cons, List.foldlM_cons]
      refine ((P.mul _ _ _ _ rfl rfl).bind fun q q' hq => P.add _ _ _ _ rfl hq).bind ?_
      rintro b _ rfl
      exact ih b
  exact ⟨k [u.x, u.y] (MInt.wrap 0), k [v.x, v.y, v.z] (MInt.wrap 0)⟩

/-! ### quaternions -/

/-- Componentwise. -/
def RQ (p q : Quaternion) : Prop := Eqv p.a q.a ∧ Eqv p.b q.b ∧ Eqv p.c q.c ∧ Eqv p.d q.d

theorem RQ.conj {p q : Quaternion} (h : RQ p q) : RQ p.conj q.conj := ⟨h.1, h.2.1.neg, h.2.2.1.neg, h.2.2.2.neg⟩

theorem port_norm {p q : Quaternion} (h : RQ p q) : Eqv (@Quaternion.norm c p) (@Quaternion.norm d q) := by
  obtain ⟨ha, hb, hc, hd⟩ := h
  exact port_add (port_add (port_add (port_mul ha ha) (port_mul hb hb)) (port_mul hc hc)) (port_mul hd hd)

theorem port_scale {p q : Quaternion} {k k' : F32} (h : RQ p q) (hk : Eqv k k') : RQ (@Quaternion.scale c p k) (@Quaternion.scale d q k') :=
  ⟨port_mul h.1 hk, port_mul h.2.1 hk, port_mul h.2.2.1 hk, port_mul h.2.2.2 hk⟩

theorem port_qdot {p q p' q' : Quaternion} (h : RQ p p') (k : RQ q q') : Eqv (@Quaternion.dot c p q) (@Quaternion.dot d p' q') :=
  port_add (port_add (port_add (port_mul h.1 k.1) (port_mul h.2.1 k.2.1)) (port_mul h.2.2.1 k.2.2.1)) (port_mul h.2.2.2 k.2.2.2)

theorem port_qadd {p q p' q' : Quaternion} (h : RQ p p') (k : RQ q q') : RQ (@Quaternion.add c p q) (@Quaternion.add d p' q') :=
  ⟨port_add h.1 k.1, port_add h.2.1 k.2.1, port_add h.2.2.1 k.2.2.1, port_add h.2.2.2 k.2.2.2⟩

theorem port_qsub {p q p' q' : Quaternion} (h : RQ p p') (k : RQ q q') : RQ (@Quaternion.sub c p q) (@Quaternion.sub d p' q') :=
  ⟨port_sub h.1 k.1, port_sub h.2.1 k.2.1, port_sub h.2.2.1 k.2.2.1, port_sub h.2.2.2 k.2.2.2⟩

theorem port_qmul {p q p' q' : Quaternion} (h : RQ p p') (k : RQ q q') : RQ (@Quaternion.mul c p q) (@Quaternion.mul d p' q') := by
  obtain ⟨a, b, e, g⟩ := h
  obtain ⟨a', b', e', g'⟩ := k
  exact ⟨port_sub (port_sub (port_sub (port_mul a a') (port_mul b b')) (port_mul e e')) (port_mul g g'),
    port_sub (port_add (port_add (port_mul a b') (port_mul b a')) (port_mul e g')) (port_mul g e'),
    port_add (port_add (port_sub (port_mul a e') (port_mul b g')) (port_mul e a')) (port_mul g b'),
    port_add (port_sub (port_add (port_mul a g') (port_mul b e')) (port_mul e b')) (port_mul g a')⟩

theorem port_qinv {p q : Quaternion} (h : RQ p q) : Keeps RQ (@Quaternion.inv c p) (@Quaternion.inv d q) := by
  have hn := port_norm (c := c) (d := d) h
  unfold Quaternion.inv
  dsimp only
  rw [port_feq hn .rfl]
  split
  · exact .fail
  · exact .ok (port_scale h.conj (port_inv hn))

theorem port_axisAngle {C : Type} [IntoF32 C] (v : Vector3d C) (t : C) : RQ (@Quaternion.axisAngle c C _ v t) (@Quaternion.axisAngle d C _ v t) := by
  have h : Eqv (letI := c; IntoF32.into t * lit 5 10) (letI := d; IntoF32.into t * lit 5 10) := port_mul .rfl .rfl
  exact ⟨port_cos h, port_mul .rfl (port_sin h), port_mul .rfl (port_sin h), port_mul .rfl (port_sin h)⟩

theorem port_rotate {C : Type} [IntoF32 C] (q : Quaternion) (v : Vector3d C) : R3 Eqv (@Quaternion.rotate c C _ q v) (@Quaternion.rotate d C _ q v) := by
  obtain ⟨a, b, e, g⟩ := q
  unfold Quaternion.rotate
  dsimp only
  exact ⟨by port, by port, by port⟩

/-- No component is NaN. -/
def QNum (q : Quaternion) : Prop := q.a.isNaN = false ∧ q.b.isNaN = false ∧ q.c.isNaN = false ∧ q.d.isNaN = false

theorem RQ.eq {p q : Quaternion} (h : RQ p q) (k : QNum p) : p = q :=
  Quaternion.ext (h.1.eq k.1) (h.2.1.eq k.2.1) (h.2.2.1.eq k.2.2.1) (h.2.2.2.eq k.2.2.2)

theorem qnum_of_scale [Cfg] {q : Quaternion} {k : F32} (h : QNum (q.scale k)) : QNum q := by
  have g : ∀ x : F32, (x * k).isNaN = false → x.isNaN = false := by
    intro x hx
    by_contra hn
    rw [Bool.not_eq_false] at hn
    rw [mul_nan (.inl hn)] at hx; cases hx
  exact ⟨g _ h.1, g _ h.2.1, g _ h.2.2.1, g _ h.2.2.2⟩

theorem norm_num_of [Cfg] {q : Quaternion} (h : QNum q) : q.norm.isNaN = false :=
  (add_nonneg_not_nan (add_nonneg_not_nan (add_nonneg_not_nan (sq_facts h.1) (sq_facts h.2.1)) (sq_facts h.2.2.1)) (sq_facts h.2.2.2)).1

theorem port_unit (f : Fewer c d) {p q r : Quaternion} (h : RQ p q) (hr : QNum r)
    (e : (letI := c; (do let n ← F32.invsqrt p.norm; Except.ok (p.scale n) : Res Quaternion)) = .ok r) :
    (letI := d; (do let n ← F32.invsqrt q.norm; Except.ok (q.scale n) : Res Quaternion)) = .ok r := by
  cases hk : @F32.invsqrt c (@Quaternion.norm c p) with
  | error e' => rw [hk] at e; cases e
  | ok k =>
    rw [hk] at e
    have e2 : @Quaternion.scale c p k = r := Except.ok.inj e
    have hp : QNum p := @qnum_of_scale c _ _ (e2 ▸ hr)
    have hpq : p = q := h.eq hp
    subst hpq
    have hn := (port_norm (c := c) (d := d) h).eq (@norm_num_of c _ hp)
    obtain ⟨k', hk', rfl⟩ := port_invsqrt f _ _ hk
    rw [hn] at hk'
    rw [hk']
    have := (port_scale (c := c) (d := d) (k := k) h .rfl).eq (e2 ▸ hr)
    exact congrArg Except.ok (this ▸ e2)

theorem port_normalize (f : Fewer c d) {q r : Quaternion} (hr : QNum r) (e : @Quaternion.normalize c q = .ok r) : @Quaternion.normalize d q = .ok r := by
  have hq : RQ q q := ⟨.rfl, .rfl, .rfl, .rfl⟩
  unfold Quaternion.normalize at e ⊢
  dsimp only at e ⊢
  rw [← port_feq (port_norm (c := c) (d := d) hq) .rfl]
  by_cases h0 : (@Quaternion.norm c q).feq posZero = true
  · rw [if_pos h0] at e; cases e
  · rw [if_neg h0] at e ⊢
    exact port_unit f hq hr e

/-- The quaternion before it is normalised, from the three dot products. -/
theorem port_two {C : Type} {R : C → C → Prop} {ic : @Component C c} {id : @Component C d} [IntoF32 C] (f : Fewer c d)
    (P : PortComp (c := c) (d := d) R ic id) (hI : ∀ a b, R a b → Eqv (IntoF32.into a) (IntoF32.into b)) (hR : ∀ a, R a a)
    (u v : Vector3d C) {r : Quaternion} (hr : QNum r)
    (e : (letI := c; letI := ic; Quaternion.fromTwoVectors u v) = .ok r) : (letI := d; letI := id; Quaternion.fromTwoVectors u v) = .ok r := by
  have ru : R3 R u u := ⟨hR _, hR _, hR _⟩
  have rv : R3 R v v := ⟨hR _, hR _, hR _⟩
  have k1 := port_dot3 P ru ru
  have k2 := port_dot3 P rv rv
  have k3 := port_dot3 P ru rv
  unfold Quaternion.fromTwoVectors at e ⊢
  dsimp only at k1 k2 k3 e ⊢
  cases h1 : @Vector3d.dot c C ic u u with
  | error e' => rw [h1] at e; cases e
  | ok uu =>
  obtain ⟨uu', g1, r1⟩ := k1 _ h1
  cases h2 : @Vector3d.dot c C ic v v with
  | error e' => rw [h1, h2] at e; cases e
  | ok vv =>
  obtain ⟨vv', g2, r2⟩ := k2 _ h2
  cases h3 : @Vector3d.dot c C ic u v with
  | error e' => rw [h1, h2, h3] at e; cases e
  | ok uv =>
  obtain ⟨uv', g3, r3⟩ := k3 _ h3
  rw [h1, h2, h3] at e
  rw [g1, g2, g3]
  have m1 := port_sqrt (c := c) (d := d) (port_mul (c := c) (d := d) (hI _ _ r1) (hI _ _ r2))
  have m2 := port_add (c := c) (d := d) m1 (hI _ _ r3)
  have m3 := port_lt m2 (port_mul (c := c) (d := d) (x := lit 1 1000000) .rfl m1)
  refine port_unit f ?_ hr e
  rw [← m3]
  split
  · split <;> exact ⟨.rfl, .rfl, .rfl, .rfl⟩
  · exact ⟨m2, by port, by port, by port⟩

theorem port_toEuler (f : Fewer c d) {q : Quaternion}
    (h : (letI := c; lit 2 1 * (q.a * q.c - q.b * q.d)).isNaN = false) :
    Keeps (fun s t => Eqv s.1 t.1 ∧ Eqv s.2.1 t.2.1 ∧ Eqv s.2.2 t.2.2) (@Quaternion.toEuler c q) (@Quaternion.toEuler d q) := by
  have e : (letI := c; lit 2 1 * (q.a * q.c - q.b * q.d)) = (letI := d; lit 2 1 * (q.a * q.c - q.b * q.d)) := by
    refine Eqv.eq ?_ h
    port
  have k := port_asin f (one_sub_sq_nn c h)
  unfold Quaternion.toEuler
  dsimp only
  rw [← e]
  refine k.bind fun p p' hp => .ok ⟨?_, hp, ?_⟩
  · exact port_atan2 (by port) (by port)
  · exact port_atan2 (by port) (by port)

/-! ### statistics -/

theorem port_meanLoop (f : Fewer c d) (l : List F32) (k : Int) {s s' : F32} (hs : Eqv s s') :
    Keeps (fun a b => a.1 = b.1 ∧ Eqv a.2 b.2) (@Statistics.meanLoop c l k s) (@Statistics.meanLoop d l k s') := by
  induction l generalizing k s s' with
  | nil => exact .ok ⟨rfl, hs⟩
  | cons x l ih =>
    refine (port_i32chk f _).bind ?_
    rintro n _ rfl
    exact ih n (port_add hs .rfl)

theorem port_mean (f : Fewer c d) (l : List F32) : Keeps Eqv (@Statistics.mean c l) (@Statistics.mean d l) := by
  refine (port_meanLoop f l 0 .rfl).bind ?_
  rintro ⟨n, s⟩ ⟨n', s'⟩ ⟨h, hs⟩
  dsimp only at h hs
  subst h
  exact .ok (port_div hs .rfl)

theorem port_sqDev {m m' : F32} (hm : Eqv m m') (l : List F32) : Eqv (@Statistics.sqDev c m l) (@Statistics.sqDev d m' l) := by
  have k : ∀ s s' : F32, Eqv s s' → Eqv (letI := c; l.foldl (fun sum item => let n := item - m; sum + n * n) s)
      (letI := d; l.foldl (fun sum item => let n := item - m'; sum + n * n) s') := by
    induction l with
    | nil => intro s s' h; exact h
    | cons x l ih =>
      intro s s' h
      exact ih _ _ (port_add h (port_mul (port_sub .rfl hm) (port_sub .rfl hm)))
  exact k _ _ .rfl

theorem port_variance {T : Type} [IntoF32 T] (f : Fewer c d) (l : List T) : Keeps Eqv (@Statistics.variance c T _ l) (@Statistics.variance d T _ l) :=
  (port_mean f _).bind fun _ _ hm => .ok (port_div (port_sqDev hm _) (port_sub .rfl .rfl))

theorem port_stddev {T : Type} [IntoF32 T] (f : Fewer c d) (l : List T) : Keeps Eqv (@Statistics.stddev c T _ l) (@Statistics.stddev d T _ l) :=
  (port_variance f l).bind fun _ _ hv => .ok (port_sqrt hv)

/-- Two states of a trimming iterator that yield the same items. -/
def RT {N : Type} (s t : Statistics.TrimIter N) : Prop := s.input = t.input ∧ Eqv s.mean t.mean ∧ Eqv s.stddev t.stddev ∧ s.threshold = t.threshold

theorem port_trimAt {N : Type} [IntoF32 N] (f : Fewer c d) (l : List N) (t : F32) :
    Keeps RT (@Statistics.trimAt c N _ l t) (@Statistics.trimAt d N _ l t) :=
  (port_mean f _).bind fun _ _ hm => .ok ⟨rfl, hm, port_sqrt (port_div (port_sqDev hm _) (port_sub .rfl .rfl)), rfl⟩

theorem port_next {N : Type} [IntoF32 N] {s t : Statistics.TrimIter N} (h : RT s t) :
    (@Statistics.TrimIter.next c N _ s).1 = (@Statistics.TrimIter.next d N _ t).1 ∧
      RT (@Statistics.TrimIter.next c N _ s).2 (@Statistics.TrimIter.next d N _ t).2 := by
  obtain ⟨h1, h2, h3, h4⟩ := h
  unfold Statistics.TrimIter.next
  rw [← h1]
  have k : ∀ l : List N, (@Statistics.TrimIter.nextLoop c N _ s l).1 = (@Statistics.TrimIter.nextLoop d N _ t l).1 ∧
      RT (@Statistics.TrimIter.nextLoop c N _ s l).2 (@Statistics.TrimIter.nextLoop d N _ t l).2 := by
    intro l
    induction l with
    | nil => exact ⟨rfl, rfl, h2, h3, h4⟩
    | cons x l ih =>
      have e : (letI := c; (F32Ext.abs (IntoF32.into x - s.mean) / s.stddev).lt s.threshold) =
          (letI := d; (F32Ext.abs (IntoF32.into x - t.mean) / t.stddev).lt t.threshold) :=
        port_lt (port_div (port_abs (port_sub .rfl h2)) h3) (by rw [h4]; exact .rfl)
      simp only [Statistics.TrimIter.nextLoop]
      rw [← e]
      split
      · exact ⟨rfl, rfl, h2, h3, h4⟩
      · exact ih
  exact k _

theorem port_collect {N : Type} [IntoF32 N] (n : Nat) {s t : Statistics.TrimIter N} (h : RT s t) :
    @Statistics.TrimIter.collect c N _ n s = @Statistics.TrimIter.collect d N _ n t := by
  induction n generalizing s t with
  | zero => rfl
  | succ n ih =>
    obtain ⟨e, k⟩ := port_next (c := c) (d := d) h
    simp only [Statistics.TrimIter.collect]
    generalize @Statistics.TrimIter.next c N _ s = a at *
    generalize @Statistics.TrimIter.next d N _ t = b at *
    obtain ⟨a1, a2⟩ := a
    obtain ⟨b1, b2⟩ := b
    dsimp only at e k
    subst e
    cases a1 with
    | none => rfl
    | some x => exact congrArg _ (ih k)

/-! ### no checks, no panics -/

theorem i32chk_ok [Cfg] (hc : Cfg.overflowChecks = false) (v : Int) : ∃ y, i32chk v = .ok y := by
  unfold i32chk; rw [if_neg (c := (Cfg.overflowChecks = true)) (by rw [hc]; simp)]; split <;> exact ⟨_, rfl⟩

theorem u32chk_ok [Cfg] (hc : Cfg.overflowChecks = false) (v : Int) : ∃ y, u32chk v = .ok y := by
  unfold u32chk; rw [if_neg (c := (Cfg.overflowChecks = true)) (by rw [hc]; simp)]; split <;> exact ⟨_, rfl⟩

theorem mchk_ok [Cfg] {s : Bool} {w : Nat} (hc : Cfg.overflowChecks = false) (v : Int) : ∃ y : MInt s w, MInt.chk v = .ok y := by
  unfold MInt.chk; rw [if_neg (c := (Cfg.overflowChecks = true)) (by rw [hc]; simp)]; split <;> exact ⟨_, rfl⟩

theorem bind_total {α β : Type} {r : Res α} {f : α → Res β} (h : ∃ y, r = .ok y) (hf : ∀ y, ∃ z, f y = .ok z) : ∃ z, (r >>= f) = .ok z := by
  obtain ⟨y, rfl⟩ := h; exact hf y

theorem invsqrt_total [Cfg] (hc : Cfg.overflowChecks = false) (x : F32) : ∃ y, x.invsqrt = .ok y :=
  bind_total (u32chk_ok hc _) fun _ => ⟨_, rfl⟩

theorem exp_total [Cfg] (hc : Cfg.overflowChecks = false) (hd : Cfg.debugAssertions = false) (x : F32) : ∃ y, x.exp = .ok y := by
  unfold exp expLn2Approx
  split
  · exact ⟨_, rfl⟩
  split
  · exact ⟨_, rfl⟩
  split
  · exact ⟨_, rfl⟩
  dsimp only
  split
  · exact ⟨_, rfl⟩
  split
  · exact ⟨_, rfl⟩
  unfold setExponent
  rw [if_neg (by rw [hd]; simp)]
  exact bind_total (i32chk_ok hc _) fun _ => ⟨_, rfl⟩

theorem powf_total [Cfg] (hc : Cfg.overflowChecks = false) (hd : Cfg.debugAssertions = false) (x n : F32) : ∃ y, x.powf n = .ok y := by
  unfold powf
  split
  · exact exp_total hc hd _
  split
  · exact ⟨_, rfl⟩
  split
  · exact exp_total hc hd _
  · exact bind_total (exp_total hc hd _) fun _ => ⟨_, rfl⟩

theorem mean_total [Cfg] (hc : Cfg.overflowChecks = false) (l : List F32) : ∃ y, Statistics.mean l = .ok y := by
  refine bind_total ?_ fun y => ⟨_, rfl⟩
  generalize (0 : Int) = k
  generalize posZero = s
  induction l generalizing k s with
  | nil => exact ⟨_, rfl⟩
  | cons x l ih => exact bind_total (i32chk_ok hc _) fun n => ih n _

/-! ### the theorems -/

/-- **C139, functions that cannot panic.** On any two platforms and in any two builds, these functions of one or two arguments return the
same bits, or NaN on both. Arguments that are NaN may have different patterns on the two sides. `floor`, `ceil` and `round` return the
same bits even then. -/
theorem C139_pure (c d : Cfg) (x y z x' y' z' : F32) (hx : Eqv x x') (hy : Eqv y y') (hz : Eqv z z') :
    (@floor c x = @floor d x' ∧ @ceil c x = @ceil d x' ∧ @F32.round c x = @F32.round d x' ∧ Eqv (@signum c x) (@signum d x')) ∧
    (Eqv (@sqrt c x) (@sqrt d x') ∧ Eqv (@inv c x) (@inv d x') ∧ Eqv (@recip c x) (@recip d x')) ∧
    (Eqv (@sin c x) (@sin d x') ∧ Eqv (@cos c x) (@cos d x') ∧ Eqv (@tan c x) (@tan d x')) ∧
    (Eqv (@atan c x) (@atan d x') ∧ Eqv (@atanNorm c x) (@atanNorm d x') ∧ Eqv (@acos c x) (@acos d x') ∧ Eqv (@atan2 c x y) (@atan2 d x' y')) ∧
    (Eqv (@ln c x) (@ln d x') ∧ Eqv (@log2 c x) (@log2 d x') ∧ Eqv (@log10 c x) (@log10 d x') ∧ Eqv (@log c x y) (@log d x' y')) ∧
    (Eqv (@hypot c x y) (@hypot d x' y') ∧ Eqv (@remEuclid c x y) (@remEuclid d x' y') ∧ Eqv (@mulAdd c x y z) (@mulAdd d x' y' z')) ∧
    (Eqv (letI := c; x + y) (letI := d; x' + y') ∧ Eqv (letI := c; x - y) (letI := d; x' - y') ∧ Eqv (letI := c; x * y) (letI := d; x' * y') ∧
      Eqv (letI := c; x / y) (letI := d; x' / y') ∧ Eqv (letI := c; x % y) (letI := d; x' % y')) :=
  ⟨⟨port_floor hx, port_ceil hx, port_round hx, port_signum hx⟩, ⟨port_sqrt hx, port_inv hx, port_recip hx⟩,
   ⟨port_sin hx, port_cos hx, port_tan hx⟩, ⟨port_atan hx, port_atanNorm hx, port_acos hx, port_atan2 hy hx⟩,
   ⟨port_ln hx, port_log2 hx, port_log10 hx, port_log hx hy⟩, ⟨port_hypot hx hy, port_remEuclid hx hy, port_mulAdd hx hy hz⟩,
   ⟨port_add hx hy, port_sub hx hy, port_mul hx hy, port_div hx hy, port_rem hx hy⟩⟩

/-- **C139, functions that can panic.** If such a function returns in a build with checks, it returns the same bits, or NaN on both, on every
platform and in every build with the same or fewer checks. `powi` and `invsqrt` need no condition. `asin`, `exp` and `cosh` need an argument that is not NaN,
and `powf` finite arguments and a base other than `-0.0`. `div_euclid` cannot panic, and needs `x / y` not to be NaN. -/
theorem C139_checked (c d : Cfg) (f : Fewer c d) (x n : F32) (m : Int) :
    Keeps Eqv (@powi c x m) (@powi d x m) ∧
    (x.isNaN = false → Keeps Eqv (@asin c x) (@asin d x) ∧ Keeps Eqv (@exp c x) (@exp d x) ∧ Keeps Eqv (@cosh c x) (@cosh d x)) ∧
    Keeps Eq (@invsqrt c x) (@invsqrt d x) ∧
    ((x.isFinite = true ∧ n.isFinite = true) → x ≠ negZero → Keeps Eqv (@powf c x n) (@powf d x n)) ∧
    ((letI := c; x / n).isNaN = false → Eqv (@divEuclid c x n) (@divEuclid d x n)) := by
  refine ⟨port_powi f x m, fun h => ⟨port_asin f (one_sub_sq_nn c h), port_exp f h, port_cosh f h⟩, port_invsqrt f x, ?_, port_divEuclid⟩
  rintro ⟨hx, hn⟩ h0
  have nn : ∀ y : F32, y.isFinite = true → y.sign = false → (letI := c; n * y.ln).isNaN = false := by
    intro y hy hs
    have hl : (@ln c y).isFinite = true := @ln_finite c _ hy hs
    let _ := c
    rw [mul_finite hn hl, isNaN, mag_pack _ (lt_of_le_of_lt (min_le_right _ _) infMag_lt)]
    simp
  refine port_powf f (fun hg => nn _ hx ?_) fun _ _ => nn _ (by rw [← hx]; exact isFinite_abs x) (sign_abs x)
  rcases ((ge_zero_iff x).1 hg).2 with h | h
  · exact h
  · by_contra hs
    rw [Bool.not_eq_false] at hs
    exact h0 (ext_mag_sign (by rw [h]; decide) (by rw [hs]; decide))

/-- **C139, quaternions.** `+`, `-`, `*`, `dot`, `norm`, `magnitude`, `scale`, `conj`, `inv`, `rotate` and `axis_angle` give the same bits, or NaN
on both, in any two builds. (`inv` returns on both or on neither.) -/
theorem C139_quat (c d : Cfg) (p q p' q' : Quaternion) (k k' : F32) (hp : RQ p p') (hq : RQ q q') (hk : Eqv k k') :
    RQ (@Quaternion.add c p q) (@Quaternion.add d p' q') ∧ RQ (@Quaternion.sub c p q) (@Quaternion.sub d p' q') ∧
    RQ (@Quaternion.mul c p q) (@Quaternion.mul d p' q') ∧ Eqv (@Quaternion.dot c p q) (@Quaternion.dot d p' q') ∧
    Eqv (@Quaternion.norm c p) (@Quaternion.norm d p') ∧ Eqv (@Quaternion.magnitude c p) (@Quaternion.magnitude d p') ∧
    RQ (@Quaternion.scale c p k) (@Quaternion.scale d p' k') ∧ RQ p.conj p'.conj ∧
    Keeps RQ (@Quaternion.inv c p) (@Quaternion.inv d p') ∧ Keeps RQ (@Quaternion.inv d p') (@Quaternion.inv c p) ∧
    (∀ (C : Type) [IntoF32 C] (v : Vector3d C) (t : C), R3 Eqv (@Quaternion.rotate c C _ p v) (@Quaternion.rotate d C _ p v) ∧
      RQ (@Quaternion.axisAngle c C _ v t) (@Quaternion.axisAngle d C _ v t)) := by
  have s : RQ p' p := ⟨hp.1.symm, hp.2.1.symm, hp.2.2.1.symm, hp.2.2.2.symm⟩
  exact ⟨port_qadd hp hq, port_qsub hp hq, port_qmul hp hq, port_qdot hp hq, port_norm hp, port_sqrt (port_norm hp), port_scale hp hk, hp.conj,
    port_qinv hp, port_qinv s, fun C _ v t => ⟨port_rotate p v, port_axisAngle v t⟩⟩

/-- **C139, unit quaternions.** If `normalize` or `from_two_vectors` (for `f32` vectors or integer vectors) returns a quaternion without NaN, it
returns exactly that quaternion on every platform and in every build with the same or fewer checks. The same holds for the three angles of
`to_euler` when the argument of its arc sine is not NaN. -/
theorem C139_unit (c d : Cfg) (f : Fewer c d) (q : Quaternion) :
    (∀ r, @Quaternion.normalize c q = .ok r → QNum r → @Quaternion.normalize d q = .ok r) ∧
    (∀ (u v : Vector3d F32) (r : Quaternion), (letI := c; Quaternion.fromTwoVectors u v) = .ok r → QNum r →
      (letI := d; Quaternion.fromTwoVectors u v) = .ok r) ∧
    (∀ (s : Bool) (w : Nat) [IntoF32 (MInt s w)] (u v : Vector3d (MInt s w)) (r : Quaternion),
      (letI := c; Quaternion.fromTwoVectors u v) = .ok r → QNum r → (letI := d; Quaternion.fromTwoVectors u v) = .ok r) ∧
    ((letI := c; lit 2 1 * (q.a * q.c - q.b * q.d)).isNaN = false →
      Keeps (fun s t => Eqv s.1 t.1 ∧ Eqv s.2.1 t.2.1 ∧ Eqv s.2.2 t.2.2) (@Quaternion.toEuler c q) (@Quaternion.toEuler d q)) := by
  refine ⟨fun r h k => port_normalize f k h, fun u v r h k => ?_, fun s w _ u v r h k => ?_, port_toEuler f⟩
  · exact port_two f port_f32 (fun a b h => h) (fun a => .rfl) u v k h
  · exact port_two f (port_int s w f) (fun a b h => by rw [h]; exact .rfl) (fun a => rfl) u v k h

/-- **C139, `f32` vectors.** Every operation on `f32` vectors returns in any build, with the same components, or NaN in the same
components, in any two builds. The starting value `0.0` or `-0.0` of the standard library's `sum` makes no difference. -/
theorem C139_vec_f32 (c d : Cfg) (u v u' v' : Vector2d F32) (p q p' q' : Vector3d F32) (k k' : F32) (hu : R2 Eqv u u') (hv : R2 Eqv v v')
    (hp : R3 Eqv p p') (hq : R3 Eqv q q') (hk : Eqv k k') :
    (Keeps Eqv (letI := c; u.dot v) (letI := d; u'.dot v') ∧ Keeps Eqv (letI := c; u.perpendicularDot v) (letI := d; u'.perpendicularDot v') ∧
      Keeps (R2 Eqv) (letI := c; u.add v) (letI := d; u'.add v') ∧ Keeps (R2 Eqv) (letI := c; u.sub v) (letI := d; u'.sub v') ∧
      Keeps (R2 Eqv) (letI := c; u.mulScalar k) (letI := d; u'.mulScalar k') ∧ Keeps (R2 Eqv) (letI := c; u.divScalar k) (letI := d; u'.divScalar k')) ∧
    (Keeps Eqv (letI := c; p.dot q) (letI := d; p'.dot q') ∧ Keeps (R3 Eqv) (letI := c; p.cross q) (letI := d; p'.cross q') ∧
      Keeps (R3 Eqv) (letI := c; p.add q) (letI := d; p'.add q') ∧ Keeps (R3 Eqv) (letI := c; p.sub q) (letI := d; p'.sub q') ∧
      Keeps (R3 Eqv) (letI := c; p.mulScalar k) (letI := d; p'.mulScalar k') ∧ Keeps (R3 Eqv) (letI := c; p.divScalar k) (letI := d; p'.divScalar k')) ∧
    (Eqv (letI := c; VectorTrait.magnitude u) (letI := d; VectorTrait.magnitude u') ∧
      Eqv (letI := c; VectorTrait.magnitude p) (letI := d; VectorTrait.magnitude p') ∧
      Eqv (letI := c; VectorTrait.distance u v) (letI := d; VectorTrait.distance u' v') ∧
      Eqv (letI := c; VectorTrait.distance p q) (letI := d; VectorTrait.distance p' q') ∧
      Keeps Eqv (letI := c; VectorTrait.magnitudeSq u) (letI := d; VectorTrait.magnitudeSq u') ∧
      Keeps Eqv (letI := c; VectorTrait.magnitudeSq p) (letI := d; VectorTrait.magnitudeSq p') ∧
      Keeps (R2 Eqv) (letI := c; VectorTrait.normalized u) (letI := d; VectorTrait.normalized u') ∧
      Keeps (R3 Eqv) (letI := c; VectorTrait.normalized p) (letI := d; VectorTrait.normalized p')) ∧
    (∀ l : List (Vector2d F32), Keeps (R2 Eqv) (letI := c; Vector2d.sum l) (letI := d; Vector2d.sum l)) ∧
    (∀ l : List (Vector3d F32), Keeps (R3 Eqv) (letI := c; Vector3d.sum l) (letI := d; Vector3d.sum l)) := by
  have P := port_f32 (c := c) (d := d)
  refine ⟨port_vec2 P hu hv hk, ⟨port_dot3 P hp hq, port_vec3 P hp hq hk⟩, ⟨port_mag2 hu, port_mag3 hp, port_dist2 hu hv, port_dist3 hp hq,
    (port_magSq_f32 hu hp).1, (port_magSq_f32 hu hp).2, port_normalized2 hu, port_normalized3 hp⟩, fun l => port_sum2 P ?_, fun l => port_sum3 P ?_⟩
  · exact List.forall₂_same.2 fun v _ => ⟨.rfl, .rfl⟩
  · exact List.forall₂_same.2 fun v _ => ⟨.rfl, .rfl, .rfl⟩

/-- **C139, integer vectors.** If an operation on integer vectors returns in a build with overflow checks, it returns the same vector or number
in every build. `magnitude` and `distance` agree in any two builds. -/
theorem C139_vec_int (c d : Cfg) (f : Fewer c d) (s : Bool) (w : Nat) (u v : Vector2d (MInt s w)) (p q : Vector3d (MInt s w)) (k : MInt s w) :
    (Keeps Eq (letI := c; u.dot v) (letI := d; u.dot v) ∧ Keeps Eq (letI := c; u.perpendicularDot v) (letI := d; u.perpendicularDot v) ∧
      Keeps Eq (letI := c; u.add v) (letI := d; u.add v) ∧ Keeps Eq (letI := c; u.sub v) (letI := d; u.sub v) ∧
      Keeps Eq (letI := c; u.mulScalar k) (letI := d; u.mulScalar k) ∧ Keeps Eq (letI := c; u.divScalar k) (letI := d; u.divScalar k) ∧
      Keeps Eq (letI := c; VectorTrait.magnitudeSq u) (letI := d; VectorTrait.magnitudeSq u)) ∧
    (Keeps Eq (letI := c; p.dot q) (letI := d; p.dot q) ∧ Keeps Eq (letI := c; p.cross q) (letI := d; p.cross q) ∧
      Keeps Eq (letI := c; p.add q) (letI := d; p.add q) ∧ Keeps Eq (letI := c; p.sub q) (letI := d; p.sub q) ∧
      Keeps Eq (letI := c; p.mulScalar k) (letI := d; p.mulScalar k) ∧ Keeps Eq (letI := c; p.divScalar k) (letI := d; p.divScalar k) ∧
      Keeps Eq (letI := c; VectorTrait.magnitudeSq p) (letI := d; VectorTrait.magnitudeSq p)) ∧
    (∀ l : List (Vector2d (MInt s w)), Keeps Eq (letI := c; Vector2d.sum l) (letI := d; Vector2d.sum l)) ∧
    (∀ l : List (Vector3d (MInt s w)), Keeps Eq (letI := c; Vector3d.sum l) (letI := d; Vector3d.sum l)) ∧
    (∀ [IntoF32 (MInt s w)], Eqv (letI := c; VectorTrait.magnitude u) (letI := d; VectorTrait.magnitude u) ∧
      Eqv (letI := c; VectorTrait.magnitude p) (letI := d; VectorTrait.magnitude p) ∧
      Eqv (letI := c; VectorTrait.distance u v) (letI := d; VectorTrait.distance u v) ∧
      Eqv (letI := c; VectorTrait.distance p q) (letI := d; VectorTrait.distance p q)) := by
  have P := port_int s w f
  have e2 : ∀ {r t : Res (Vector2d (MInt s w))}, Keeps (R2 Eq) r t → Keeps Eq r t := by
    intro r t h y hy
    obtain ⟨y', g, g1, g2⟩ := h y hy
    exact ⟨y', g, Vector2d.ext g1 g2⟩
  have e3 : ∀ {r t : Res (Vector3d (MInt s w))}, Keeps (R3 Eq) r t → Keeps Eq r t := by
    intro r t h y hy
    obtain ⟨y', g, g1, g2, g3⟩ := h y hy
    exact ⟨y', g, Vector3d.ext g1 g2 g3⟩
  obtain ⟨a1, a2, a3, a4, a5, a6⟩ := port_vec2 P (u := u) (v := v) ⟨rfl, rfl⟩ ⟨rfl, rfl⟩ (rfl : k = k)
  obtain ⟨b2, b3, b4, b5, b6⟩ := port_vec3 P (u := p) (v := q) ⟨rfl, rfl, rfl⟩ ⟨rfl, rfl, rfl⟩ (rfl : k = k)
  have m := port_magSq_int f u p
  refine ⟨⟨a1, a2, e2 a3, e2 a4, e2 a5, e2 a6, m.1⟩, ⟨port_dot3 P ⟨rfl, rfl, rfl⟩ ⟨rfl, rfl, rfl⟩, e3 b2, e3 b3, e3 b4, e3 b5, e3 b6, m.2⟩,
    fun l => e2 (port_sum2 P ?_), fun l => e3 (port_sum3 P ?_), ?_⟩
  · exact List.forall₂_same.2 fun v _ => ⟨rfl, rfl⟩
  · exact List.forall₂_same.2 fun v _ => ⟨rfl, rfl, rfl⟩
  · intro _
    exact ⟨port_mag2 ⟨.rfl, .rfl⟩, port_mag3 ⟨.rfl, .rfl, .rfl⟩, port_dist2 ⟨.rfl, .rfl⟩ ⟨.rfl, .rfl⟩,
      port_dist3 ⟨.rfl, .rfl, .rfl⟩ ⟨.rfl, .rfl, .rfl⟩⟩

/-- **C139, statistics.** If `mean`, `variance`, `stddev` or `trim_at` returns in a build with checks, it returns the same number, or NaN on both, on
every platform and in every build with the same or fewer checks, and the trimming iterator yields the same items. -/
theorem C139_stats (c d : Cfg) (f : Fewer c d) {T : Type} [IntoF32 T] (l : List T) (t : F32) (n : Nat) (xs : List F32) :
    Keeps Eqv (@Statistics.mean c xs) (@Statistics.mean d xs) ∧ Keeps Eqv (@Statistics.variance c T _ l) (@Statistics.variance d T _ l) ∧
    Keeps Eqv (@Statistics.stddev c T _ l) (@Statistics.stddev d T _ l) ∧
    Keeps Eq ((@Statistics.trimAt c T _ l t).map (@Statistics.TrimIter.collect c T _ n))
      ((@Statistics.trimAt d T _ l t).map (@Statistics.TrimIter.collect d T _ n)) := by
  refine ⟨port_mean f xs, port_variance f l, port_stddev f l, ?_⟩
  intro y hy
  cases h : @Statistics.trimAt c T _ l t with
  | error e => rw [h] at hy; cases hy
  | ok it =>
    obtain ⟨it', h', r⟩ := port_trimAt f l t _ h
    rw [h] at hy
    cases hy
    exact ⟨_, by rw [h']; rfl, port_collect n r⟩

/-- **C139, release builds.** With overflow checks and debug assertions off, nothing panics for any arguments whatsoever, except integer
division, `Quaternion::inv` and `normalize` (which check for zero), `powi` with the exponent `i32::MIN`, and the vector constructors. -/
theorem C139_release [Cfg] (hc : Cfg.overflowChecks = false) (hd : Cfg.debugAssertions = false) :
    (∀ x : F32, (∃ y, x.exp = .ok y) ∧ (∃ y, x.cosh = .ok y) ∧ (∃ y, x.invsqrt = .ok y) ∧ (∃ y, x.asin = .ok y)) ∧
    (∀ x n : F32, ∃ y, x.powf n = .ok y) ∧ (∀ (x : F32) (n : Int), -2 ^ 31 < n → n < 2 ^ 31 → ∃ y, x.powi n = .ok y) ∧
    (∀ q : Quaternion, (∃ t, q.toEuler = .ok t) ∧ (q.norm.feq posZero = false → ∃ r, q.normalize = .ok r)) ∧
    (∀ u v : Vector3d F32, ∃ r, Quaternion.fromTwoVectors u v = .ok r) ∧
    (∀ (s : Bool) (w : Nat) (u v : Vector2d (MInt s w)) (p q : Vector3d (MInt s w)) (k : MInt s w),
      ((∃ y, u.dot v = .ok y) ∧ (∃ y, u.perpendicularDot v = .ok y) ∧ (∃ y, u.add v = .ok y) ∧ (∃ y, u.sub v = .ok y) ∧
        ∃ y, u.mulScalar k = .ok y) ∧
      ((∃ y, p.dot q = .ok y) ∧ (∃ y, p.cross q = .ok y) ∧ (∃ y, p.add q = .ok y) ∧ (∃ y, p.sub q = .ok y) ∧ ∃ y, p.mulScalar k = .ok y) ∧
      ∀ [IntoF32 (MInt s w)], ∃ r, Quaternion.fromTwoVectors p q = .ok r) ∧
    (∀ (xs : List F32) (t : F32), (∃ y, Statistics.mean xs = .ok y) ∧ (∃ y, Statistics.variance xs = .ok y) ∧ (∃ y, Statistics.stddev xs = .ok y) ∧
      ∃ y, Statistics.trimAt xs t = .ok y) := by
  have he := exp_total hc hd
  have hi := invsqrt_total hc
  have hm := mean_total hc
  have hs : ∀ x : F32, ∃ y, x.asin = .ok y := fun x => bind_total (hi _) fun _ => ⟨_, rfl⟩
  refine ⟨fun x => ⟨he x, bind_total (he _) fun _ => bind_total (he _) fun _ => ⟨_, rfl⟩, hi x, hs x⟩, powf_total hc hd,
    fun x n h1 h2 => (C25_powi_panic_iff x n h1.le h2).2.2 hc h1.ne', fun q => ⟨bind_total (hs _) fun _ => ⟨_, rfl⟩, fun h => ?_⟩,
    C93_unchecked hc, fun s w u v p q k => ?_, fun xs t => ?_⟩
  · unfold Quaternion.normalize
    dsimp only
    rw [if_neg (by rw [h]; simp)]
    exact bind_total (hi _) fun _ => ⟨_, rfl⟩
  · have M : ∀ a b : MInt s w, ∃ y, Component.mul a b = .ok y := fun a b => mchk_ok hc _
    have A : ∀ a b : MInt s w, ∃ y, Component.add a b = .ok y := fun a b => mchk_ok hc _
    have S : ∀ a b : MInt s w, ∃ y, Component.sub a b = .ok y := fun a b => mchk_ok hc _
    have D : ∀ p q : Vector3d (MInt s w), ∃ y, p.dot q = .ok y := fun p q =>
      bind_total (M _ _) fun _ => bind_total (M _ _) fun _ => bind_total (A _ _) fun _ => bind_total (M _ _) fun _ => A _ _
    refine ⟨⟨bind_total (M _ _) fun _ => bind_total (M _ _) fun _ => A _ _, bind_total (M _ _) fun _ => bind_total (M _ _) fun _ => S _ _,
      bind_total (A _ _) fun _ => bind_total (A _ _) fun _ => ⟨_, rfl⟩, bind_total (S _ _) fun _ => bind_total (S _ _) fun _ => ⟨_, rfl⟩,
      bind_total (M _ _) fun _ => bind_total (M _ _) fun _ => ⟨_, rfl⟩⟩, ⟨D p q, ?_,
      bind_total (A _ _) fun _ => bind_total (A _ _) fun _ => bind_total (A _ _) fun _ => ⟨_, rfl⟩,
      bind_total (S _ _) fun _ => bind_total (S _ _) fun _ => bind_total (S _ _) fun _ => ⟨_, rfl⟩,
      bind_total (M _ _) fun _ => bind_total (M _ _) fun _ => bind_total (M _ _) fun _ => ⟨_, rfl⟩⟩, ?_⟩
    · exact bind_total (M _ _) fun _ => bind_total (M _ _) fun _ => bind_total (S _ _) fun _ => bind_total (M _ _) fun _ =>
        bind_total (M _ _) fun _ => bind_total (S _ _) fun _ => bind_total (M _ _) fun _ => bind_total (M _ _) fun _ =>
        bind_total (S _ _) fun _ => ⟨_, rfl⟩
    · intro _
      obtain ⟨uu, h1⟩ := D p p
      obtain ⟨vv, h2⟩ := D q q
      obtain ⟨uv, h3⟩ := D p q
      exact two_unchecked hc h1 h2 h3
  · exact ⟨hm _, bind_total (hm _) fun _ => ⟨_, rfl⟩, bind_total (bind_total (hm _) fun _ => ⟨_, rfl⟩) fun _ => ⟨_, rfl⟩,
      bind_total (hm _) fun _ => ⟨_, rfl⟩⟩

/-- A configuration whose operations return one fixed NaN: `0x7fc00000` as on ARM and RISC-V, or `0xffc00000` as on x86. -/
@[reducible] def cfgNaN (neg checks : Bool) : Cfg where
  overflowChecks := checks
  debugAssertions := checks
  nanOp := fun _ _ _ => if neg then ⟨0xffc00000#32⟩ else ⟨0x7fc00000#32⟩
  nanOp_isNaN := by cases neg <;> intros <;> rfl
  nanConst := ⟨0x7fc00000#32⟩
  nanConst_isNaN := rfl
  sumZero := posZero
  sumZero_spec := .inl rfl

/-- **C139, what is not portable.** Between a platform whose operations return the NaN `0x7fc00000` and one where they return `0xffc00000`:
`powf(inf, 1)` and `powf(-0.0, 1)` are `+inf` on the first and `0` on the second, `div_euclid(0, 0)` is `+inf` or `-inf`, `exp(NaN)` is
`+inf` or `0`, and with overflow checks `asin(NaN)` and `to_euler` of `(inf, 0, 0, inf)` return on the first and panic on the second. -/
theorem C139_false (k : Bool) :
    let c := cfgNaN false k
    let d := cfgNaN true k
    (@powf c posInf one = .ok posInf ∧ @powf d posInf one = .ok posZero) ∧
    (@powf c negZero one = .ok posInf ∧ @powf d negZero one = .ok posZero) ∧
    (@divEuclid c posZero posZero = posInf ∧ @divEuclid d posZero posZero = negInf) ∧
    (@exp c ⟨0x7fc00000#32⟩ = .ok posInf ∧ @exp d ⟨0x7fc00000#32⟩ = .ok posZero) ∧
    ((∃ y, @asin c ⟨0x7fc00000#32⟩ = .ok y) ∧ (k = true → Fails (@asin d ⟨0x7fc00000#32⟩))) ∧
    ((∃ t, @Quaternion.toEuler c ⟨posInf, posZero, posZero, posInf⟩ = .ok t) ∧
      (k = true → Fails (@Quaternion.toEuler d ⟨posInf, posZero, posZero, posInf⟩))) := by
  cases k
  · refine ⟨⟨?_, ?_⟩, ⟨?_, ?_⟩, ⟨?_, ?_⟩, ⟨?_, ?_⟩, ⟨⟨_, rfl⟩, by simp⟩, ⟨⟨_, rfl⟩, by simp⟩⟩ <;> kernel_rfl
  · refine ⟨⟨?_, ?_⟩, ⟨?_, ?_⟩, ⟨?_, ?_⟩, ⟨?_, ?_⟩, ⟨⟨_, rfl⟩, fun _ => ⟨.overflow, ?_⟩⟩, ⟨⟨_, rfl⟩, fun _ => ⟨.overflow, ?_⟩⟩⟩ <;> kernel_rfl

/-- Concrete cases. Two builds that differ in everything: `sqrt(2)`, `ln(10)` and `exp(3)` have the same bits; so has the quaternion rotating
`(1, 2, 3)` to `(3, 2, 1)`. -/
theorem C139_case :
    let c := cfgNaN false true
    let d := cfgNaN true false
    Fewer c d ∧ @sqrt c (ofInt 2) = @sqrt d (ofInt 2) ∧ @ln c (ofInt 10) = @ln d (ofInt 10) ∧
    (∃ y, @exp c (ofInt 3) = .ok y ∧ @exp d (ofInt 3) = .ok y) ∧
    (∃ r, @Quaternion.fromTwoVectors c F32 _ _ ⟨ofInt 1, ofInt 2, ofInt 3⟩ ⟨ofInt 3, ofInt 2, ofInt 1⟩ = .ok r ∧ QNum r ∧
      @Quaternion.fromTwoVectors d F32 _ _ ⟨ofInt 1, ofInt 2, ofInt 3⟩ ⟨ofInt 3, ofInt 2, ofInt 1⟩ = .ok r) := by
  have f : Fewer (cfgNaN false true) (cfgNaN true false) := ⟨fun _ => rfl, fun _ => rfl⟩
  have hp := C139_pure (cfgNaN false true) (cfgNaN true false) (ofInt 2) one one (ofInt 2) one one .rfl .rfl .rfl
  have hq := C139_pure (cfgNaN false true) (cfgNaN true false) (ofInt 10) one one (ofInt 10) one one .rfl .rfl .rfl
  refine ⟨f, hp.2.1.1.eq (by kernel_rfl), hq.2.2.2.2.1.1.eq (by kernel_rfl), ?_, ?_⟩
  · have e : @exp (cfgNaN false true) (ofInt 3) = .ok ⟨1101049600#32⟩ := by kernel_rfl
    obtain ⟨y, h, k⟩ := ((C139_checked _ _ f (ofInt 3) one 0).2.1 (by decide)).2.1 _ e
    exact ⟨_, e, by rw [h, ← k.eq (by decide)]⟩
  · have e : @Quaternion.fromTwoVectors (cfgNaN false true) F32 _ _ ⟨ofInt 1, ofInt 2, ofInt 3⟩ ⟨ofInt 3, ofInt 2, ofInt 1⟩ =
        .ok ⟨⟨1064643645#32⟩, ⟨3189938694#32⟩, ⟨1050843654#32⟩, ⟨3189938694#32⟩⟩ := by kernel_rfl
    have n : QNum ⟨⟨1064643645#32⟩, ⟨3189938694#32⟩, ⟨1050843654#32⟩, ⟨3189938694#32⟩⟩ := by unfold QNum; decide
    exact ⟨_, e, n, (C139_unit _ _ f Quaternion.IDENTITY).2.1 _ _ _ e n⟩

end Micromath.Props
