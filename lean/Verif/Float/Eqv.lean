import Verif.Float.Struct

/-!
# Equality of floats up to the choice of NaN

`Eqv x y`: the same bits, or both NaN.  It is a congruence for the arithmetic operations, which satisfy
the commutative and sign laws below for all operands, infinities and NaN included.
-/

namespace Micromath.F32

/-- Bit for bit equal, any NaN matching any NaN. -/
def Eqv (x y : F32) : Prop := (x.isNaN = true ∧ y.isNaN = true) ∨ x = y

theorem Eqv.rfl {x : F32} : Eqv x x := Or.inr _root_.rfl
theorem Eqv.of_eq {x y : F32} (h : x = y) : Eqv x y := Or.inr h
theorem Eqv.of_nan {x y : F32} (hx : x.isNaN = true) (hy : y.isNaN = true) : Eqv x y := Or.inl ⟨hx, hy⟩
theorem Eqv.symm {x y : F32} (h : Eqv x y) : Eqv y x := by
  rcases h with h | h
  · exact Or.inl ⟨h.2, h.1⟩
  · exact Or.inr h.symm
theorem Eqv.trans {x y z : F32} (h : Eqv x y) (h' : Eqv y z) : Eqv x z := by
  rcases h with h | h
  · rcases h' with h' | h'
    · exact Or.inl ⟨h.1, h'.2⟩
    · subst h'; exact Or.inl h
  · subst h; exact h'
theorem Eqv.isNaN_eq {x y : F32} (h : Eqv x y) : x.isNaN = y.isNaN := by
  rcases h with h | h
  · rw [h.1, h.2]
  · rw [h]
theorem Eqv.eq {x y : F32} (h : Eqv x y) (hx : x.isNaN = false) : x = y := by
  rcases h with h | h
  · rw [hx] at h; simp at h
  · exact h

theorem Eqv.neg {x y : F32} (h : Eqv x y) : Eqv (-x) (-y) := by
  rcases h with h | h
  · exact Or.inl ⟨by simpa using h.1, by simpa using h.2⟩
  · exact Or.inr (by rw [h])

variable [Cfg]

theorem Eqv.add {x y x' y' : F32} (h : Eqv x x') (h' : Eqv y y') : Eqv (x + y) (x' + y') := by
  rcases h with h | h
  · exact Or.inl ⟨add_nan (Or.inl h.1), add_nan (Or.inl h.2)⟩
  · rcases h' with h' | h'
    · exact Or.inl ⟨add_nan (Or.inr h'.1), add_nan (Or.inr h'.2)⟩
    · exact Or.inr (by rw [h, h'])

theorem Eqv.sub {x y x' y' : F32} (h : Eqv x x') (h' : Eqv y y') : Eqv (x - y) (x' - y') := by
  rcases h with h | h
  · exact Or.inl ⟨sub_nan (Or.inl h.1), sub_nan (Or.inl h.2)⟩
  · rcases h' with h' | h'
    · exact Or.inl ⟨sub_nan (Or.inr h'.1), sub_nan (Or.inr h'.2)⟩
    · exact Or.inr (by rw [h, h'])

theorem Eqv.mul {x y x' y' : F32} (h : Eqv x x') (h' : Eqv y y') : Eqv (x * y) (x' * y') := by
  rcases h with h | h
  · exact Or.inl ⟨mul_nan (Or.inl h.1), mul_nan (Or.inl h.2)⟩
  · rcases h' with h' | h'
    · exact Or.inl ⟨mul_nan (Or.inr h'.1), mul_nan (Or.inr h'.2)⟩
    · exact Or.inr (by rw [h, h'])

theorem Eqv.div {x y x' y' : F32} (h : Eqv x x') (h' : Eqv y y') : Eqv (x / y) (x' / y') := by
  rcases h with h | h
  · exact Or.inl ⟨div_nan (Or.inl h.1), div_nan (Or.inl h.2)⟩
  · rcases h' with h' | h'
    · exact Or.inl ⟨div_nan (Or.inr h'.1), div_nan (Or.inr h'.2)⟩
    · exact Or.inr (by rw [h, h'])

/-- Addition described without reference to the NaN pattern. -/
theorem addAs_congr (o o' : FOp) (x y : F32) : Eqv (addAs o x y) (addAs o' x y) := by
  unfold addAs
  split
  · exact .of_nan (Cfg.nanOp_isNaN _ _ _) (Cfg.nanOp_isNaN _ _ _)
  · split
    · split
      · exact .of_nan (Cfg.nanOp_isNaN _ _ _) (Cfg.nanOp_isNaN _ _ _)
      · exact .rfl
    · exact .rfl

theorem addAs_comm (o : FOp) (x y : F32) : Eqv (addAs o x y) (addAs o y x) := by
  by_cases hx : x.isNaN = true
  · exact .of_nan (addAs_nan _ (Or.inl hx)) (addAs_nan _ (Or.inr hx))
  by_cases hy : y.isNaN = true
  · exact .of_nan (addAs_nan _ (Or.inr hy)) (addAs_nan _ (Or.inl hy))
  have hn : ¬ (x.isNaN || y.isNaN) = true := by simp [hx, hy]
  have hn' : ¬ (y.isNaN || x.isNaN) = true := by simp [hx, hy]
  unfold addAs
  rw [if_neg hn, if_neg hn']
  by_cases ix : x.isInf = true <;> by_cases iy : y.isInf = true
  · rw [if_pos ix, if_pos iy, ix, iy]
    rcases hsx : x.sign <;> rcases hsy : y.sign
    · exact .of_eq (by simp; rw [eq_pack_of_inf ix, eq_pack_of_inf iy, hsx, hsy])
    · exact .of_nan (Cfg.nanOp_isNaN _ _ _) (Cfg.nanOp_isNaN _ _ _)
    · exact .of_nan (Cfg.nanOp_isNaN _ _ _) (Cfg.nanOp_isNaN _ _ _)
    · exact .of_eq (by simp; rw [eq_pack_of_inf ix, eq_pack_of_inf iy, hsx, hsy])
  · refine .of_eq ?_
    rw [if_pos ix, if_neg iy, if_pos ix]; simp [iy]
  · refine .of_eq ?_
    rw [if_neg ix, if_pos iy, if_pos iy]; simp [ix]
  · refine .of_eq ?_
    rw [if_neg ix, if_neg iy, if_neg iy, if_neg ix, add_comm y.units, Bool.and_comm]

theorem add_comm_eqv (x y : F32) : Eqv (x + y) (y + x) := addAs_comm _ _ _

theorem sub_eq_add_neg_eqv (x y : F32) : Eqv (x - y) (x + -y) := addAs_congr _ _ _ _

theorem mul_comm_eqv (x y : F32) : Eqv (x * y) (y * x) := by
  by_cases hx : x.isNaN = true
  · exact .of_nan (mul_nan (Or.inl hx)) (mul_nan (Or.inr hx))
  by_cases hy : y.isNaN = true
  · exact .of_nan (mul_nan (Or.inr hy)) (mul_nan (Or.inl hy))
  have hn : ¬ (x.isNaN || y.isNaN) = true := by simp [hx, hy]
  have hn' : ¬ (y.isNaN || x.isNaN) = true := by simp [hx, hy]
  have e : (x.sign != y.sign) = (y.sign != x.sign) := by cases x.sign <;> cases y.sign <;> rfl
  rw [mul_def, mul_def, F32.mul, F32.mul, if_neg hn, if_neg hn', Bool.or_comm y.isInf, Bool.or_comm y.isZero, e,
    Nat.mul_comm (magU y.mag)]
  split
  · split
    · exact .of_nan (Cfg.nanOp_isNaN _ _ _) (Cfg.nanOp_isNaN _ _ _)
    · exact .rfl
  · exact .rfl

omit [Cfg] in
theorem neg_pack (s : Bool) {m : Nat} (hm : m < 2 ^ 31) : -(pack s m) = pack (!s) m := by
  apply ext_mag_sign
  · rw [mag_neg, mag_pack _ hm, mag_pack _ hm]
  · rw [sign_neg, sign_pack _ hm, sign_pack _ hm]

omit [Cfg] in
theorem roundMag_lt (a b : Nat) : roundMag a b < 2 ^ 31 := lt_of_le_of_lt (min_le_right _ _) infMag_lt

theorem mul_neg_eqv (x y : F32) : Eqv (x * -y) (-(x * y)) := by
  by_cases hx : x.isNaN = true
  · exact .of_nan (mul_nan (Or.inl hx)) (by simpa using mul_nan (y := y) (Or.inl hx))
  by_cases hy : y.isNaN = true
  · exact .of_nan (mul_nan (Or.inr (by simpa using hy))) (by simpa using mul_nan (x := x) (Or.inr hy))
  have hn : ¬ (x.isNaN || y.isNaN) = true := by simp [hx, hy]
  have hn' : ¬ (x.isNaN || (-y).isNaN) = true := by simpa using hn
  have e : (x.sign != !y.sign) = !(x.sign != y.sign) := by cases x.sign <;> cases y.sign <;> rfl
  have hi : (-y).isInf = y.isInf := by rw [isInf, isInf, mag_neg]
  rw [mul_def, mul_def, F32.mul, F32.mul, if_neg hn, if_neg hn', isZero_neg, hi, sign_neg, mag_neg, e]
  split
  · split
    · exact .of_nan (Cfg.nanOp_isNaN _ _ _) (by simpa using Cfg.nanOp_isNaN _ _ _)
    · exact .of_eq (neg_pack _ infMag_lt).symm
  · exact .of_eq (neg_pack _ (roundMag_lt _ _)).symm

theorem neg_mul_eqv (x y : F32) : Eqv (-x * y) (-(x * y)) :=
  (mul_comm_eqv _ _).trans ((mul_neg_eqv _ _).trans (mul_comm_eqv _ _).neg)

theorem neg_mul_neg_eqv (x y : F32) : Eqv (-x * -y) (x * y) := by
  have h := (mul_neg_eqv (-x) y).trans (neg_mul_eqv x y).neg
  rwa [neg_neg'] at h

/-- The square depends on the magnitude only. -/
theorem sq_congr_mag {x y : F32} (h : x.mag = y.mag) : Eqv (x * x) (y * y) := by
  rcases hx : x.sign <;> rcases hy : y.sign
  · exact .of_eq (by rw [ext_mag_sign h (hx.trans hy.symm)])
  · have : y = -x := ext_mag_sign (by rw [mag_neg, h]) (by rw [sign_neg, hx, hy]; rfl)
    rw [this]; exact (neg_mul_neg_eqv x x).symm
  · have : y = -x := ext_mag_sign (by rw [mag_neg, h]) (by rw [sign_neg, hx, hy]; rfl)
    rw [this]; exact (neg_mul_neg_eqv x x).symm
  · exact .of_eq (by rw [ext_mag_sign h (hx.trans hy.symm)])

omit [Cfg] in
theorem units_neg' (x : F32) : (-x).units = -x.units := by
  unfold units; rw [mag_neg, sign_neg]
  cases x.sign <;> simp

/-- Negating both operands negates the sum, except that a zero may keep its sign. -/
theorem addAs_neg_neg (o : FOp) (x y : F32) (h : (addAs o x y).isNaN = false) :
    (addAs o (-x) (-y)).mag = (addAs o x y).mag ∧ (addAs o (-x) (-y)).isNaN = false ∧
      ((addAs o x y).mag = 0 ∨ addAs o (-x) (-y) = -(addAs o x y)) := by
  have hx : x.isNaN = false := by
    by_contra hc; rw [addAs_nan o (Or.inl (by simpa using hc))] at h; simp at h
  have hy : y.isNaN = false := by
    by_contra hc; rw [addAs_nan o (Or.inr (by simpa using hc))] at h; simp at h
  have hn : ¬ (x.isNaN || y.isNaN) = true := by simp [hx, hy]
  have hn' : ¬ ((-x).isNaN || (-y).isNaN) = true := by simp [hx, hy]
  have hix : (-x).isInf = x.isInf := by rw [isInf, isInf, mag_neg]
  have hiy : (-y).isInf = y.isInf := by rw [isInf, isInf, mag_neg]
  have e : ((-x).sign != (-y).sign) = (x.sign != y.sign) := by
    rw [sign_neg, sign_neg]; cases x.sign <;> cases y.sign <;> rfl
  unfold addAs at h ⊢
  rw [if_neg hn] at h ⊢
  rw [if_neg hn', hix, hiy, e, units_neg', units_neg']
  by_cases ix : x.isInf = true
  · rw [if_pos ix] at h ⊢
    rw [if_pos ix]
    by_cases hc : (y.isInf && x.sign != y.sign) = true
    · rw [if_pos hc] at h; rw [Cfg.nanOp_isNaN] at h; simp at h
    · rw [if_neg hc, if_neg hc]
      exact ⟨mag_neg x, by simpa using hx, Or.inr rfl⟩
  · rw [if_neg ix] at h ⊢
    rw [if_neg ix]
    by_cases iy : y.isInf = true
    · rw [if_pos iy, if_pos iy]
      exact ⟨mag_neg y, by simpa using hy, Or.inr rfl⟩
    · rw [if_neg iy, if_neg iy]
      by_cases h0 : x.units + y.units = 0
      · have h0' : -x.units + -y.units = 0 := by omega
        rw [if_pos h0, if_pos h0']
        have z1 : ∀ b : Bool, (if b = true then negZero else posZero).mag = 0 := by intro b; cases b <;> decide
        have z2 : ∀ b : Bool, (if b = true then negZero else posZero).isNaN = false := by intro b; cases b <;> decide
        exact ⟨by rw [z1, z1], z2 _, Or.inl (z1 _)⟩
      · have h0' : ¬ (-x.units + -y.units = 0) := by omega
        rw [if_neg h0, if_neg h0']
        have en : (-x.units + -y.units).natAbs = (x.units + y.units).natAbs := by omega
        have es : decide (-x.units + -y.units < 0) = !decide (x.units + y.units < 0) := by
          by_cases hlt : x.units + y.units < 0
          · simp [hlt]; omega
          · simp [hlt]; omega
        rw [en, es]
        refine ⟨by rw [mag_pack _ (roundMag_lt _ _), mag_pack _ (roundMag_lt _ _)], ?_, Or.inr ?_⟩
        · rw [isNaN, mag_pack _ (roundMag_lt _ _)]; simp [roundMag]
        · rw [neg_pack _ (roundMag_lt _ _)]

/-- `y - x` is `-(x - y)`, except that a zero difference is `+0` both ways. -/
theorem sub_swap (x y : F32) :
    ((x - y).isNaN = true ∧ (y - x).isNaN = true) ∨
    ((x - y).isNaN = false ∧ (y - x).isNaN = false ∧ (y - x).mag = (x - y).mag ∧
      ((x - y).mag = 0 ∨ y - x = -(x - y))) := by
  -- `y - x = y + -x ≈ -x + y = -x + -(-y)`
  have h1 : Eqv (y - x) (addAs .sub (-x) (- -y)) := by
    rw [neg_neg', sub_def]; exact addAs_comm _ _ _
  by_cases hn : (x - y).isNaN = true
  · left
    refine ⟨hn, ?_⟩
    by_contra hc
    have hc' : (y - x).isNaN = false := by simpa using hc
    have h2 := h1.eq hc'
    have h3 := addAs_neg_neg .sub y (-x) (by simpa [sub_def] using hc')
    have h4 : Eqv (x - y) (addAs .sub (-y) (- -x)) := by
      rw [neg_neg', sub_def]; exact addAs_comm _ _ _
    rw [h4.isNaN_eq, h3.2.1] at hn
    simp at hn
  · right
    have hn' : (x - y).isNaN = false := by simpa using hn
    obtain ⟨a, b, c⟩ := addAs_neg_neg .sub x (-y) (by simpa [sub_def] using hn')
    rw [← sub_def] at a c
    have h2 : y - x = addAs .sub (-x) (- -y) := h1.eq (by rw [h1.isNaN_eq, b])
    rw [h2]
    exact ⟨hn', b, a, c⟩

/-- Squared differences are symmetric. -/
theorem sub_sq_comm (x y : F32) : Eqv ((x - y) * (x - y)) ((y - x) * (y - x)) := by
  rcases sub_swap x y with ⟨h1, h2⟩ | ⟨_, _, h3, _⟩
  · exact .of_nan (mul_nan (Or.inl h1)) (mul_nan (Or.inl h2))
  · exact sq_congr_mag h3.symm

end Micromath.F32
