import Verif.Float.Struct

/-!
# Lower bounds that survive overflow

`Big s t x`: `x` is a number with sign bit `s` and magnitude at least `t`, where an infinity counts as `2^128`.
-/

set_option exponentiation.threshold 1000

namespace Micromath.F32

def Big (s : Bool) (t : ℚ) (x : F32) : Prop := x.isNaN = false ∧ x.sign = s ∧ t ≤ mval x.mag

theorem Big.mono {s : Bool} {t t' : ℚ} {x : F32} (h : Big s t x) (ht : t' ≤ t) : Big s t' x := ⟨h.1, h.2.1, ht.trans h.2.2⟩

theorem big_inf (s : Bool) {t : ℚ} (ht : t ≤ 2 ^ 128) : Big s t (pack s infMag) := by
  have h := infMag_lt
  refine ⟨?_, sign_pack _ h, ?_⟩
  · rw [isNaN, mag_pack _ h]; simp
  · rw [mag_pack _ h, mval_infMag]; exact ht

theorem Big.cases {s : Bool} {t : ℚ} {x : F32} (h : Big s t x) : x = pack s infMag ∨ x.isFinite = true ∧ x.sign = s ∧ t ≤ |x.val| := by
  obtain ⟨h1, h2, h3⟩ := h
  rcases class_cases x with f | f | f
  · exact Or.inr ⟨f, h2, by rw [abs_val]; exact h3⟩
  · exact Or.inl (by rw [eq_pack_of_inf f, h2])
  · rw [f] at h1; cases h1

theorem big_of_finite {x : F32} {t : ℚ} (hx : x.isFinite = true) (h : t ≤ |x.val|) : Big x.sign t x :=
  ⟨not_nan_of_finite hx, rfl, by rw [← abs_val]; exact h⟩

theorem Big.abs {s : Bool} {t : ℚ} {x : F32} (h : Big s t x) : Big false t x.abs := by
  obtain ⟨h1, h2, h3⟩ := h
  refine ⟨by rw [isNaN, mag_abs]; exact h1, sign_abs x, by rw [mag_abs]; exact h3⟩

variable [Cfg]

/-- Product of two big numbers. -/
theorem Big.mul {s s' : Bool} {t t' T : ℚ} {x y : F32} (hx : Big s t x) (hy : Big s' t' y) (t0 : 0 < t) (t0' : 0 < t')
    (hT : Rep T) (h : T ≤ t * t') (hm : T ≤ 2 ^ 128) : Big (s != s') T (x * y) := by
  have infcase : x.isInf = true ∨ y.isInf = true → Big (s != s') T (x * y) := by
    intro hi
    have nz : ∀ {u : F32} {v : ℚ}, 0 < v → v ≤ mval u.mag → u.isZero = false := by
      intro u v v0 hv
      rw [Bool.eq_false_iff]; intro hz
      simp [isZero] at hz
      rw [hz, mval_zero] at hv
      linarith
    have e : x * y = pack (x.sign != y.sign) infMag := by
      show F32.mul x y = _
      unfold F32.mul
      rw [hx.1, hy.1, nz t0 hx.2.2, nz t0' hy.2.2]
      rcases hi with h | h <;> simp [h]
    rw [e, hx.2.1, hy.2.1]
    exact big_inf _ hm
  rcases class_cases x with fx | fx | fx
  · rcases class_cases y with fy | fy | fy
    · by_cases ho : |x.val * y.val| < ovf
      · obtain ⟨f, v⟩ := mul_val fx fy ho
        have := big_of_finite (t := T) f (by
          rw [v, ← RN_abs]
          refine le_RN_of_rep hT (h.trans ?_)
          rw [abs_mul, abs_val, abs_val]
          exact mul_le_mul hx.2.2 hy.2.2 t0'.le (t0.le.trans hx.2.2))
        rw [sign_mul_finite fx fy, hx.2.1, hy.2.1] at this
        exact this
      · rw [mul_ovf fx fy (not_lt.1 ho), hx.2.1, hy.2.1]
        exact big_inf _ hm
    · exact infcase (Or.inr fy)
    · rw [hy.1] at fy; cases fy
  · exact infcase (Or.inl fx)
  · rw [hx.1] at fx; cases fx

/-- Sum of two big numbers of the same sign. -/
theorem Big.add {s : Bool} {t t' T : ℚ} {x y : F32} (hx : Big s t x) (hy : Big s t' y) (t0 : 0 < t) (_t0' : 0 ≤ t')
    (hT : Rep T) (h : T ≤ t + t') (hm : T ≤ 2 ^ 128) : Big s T (x + y) := by
  have infcase : x.isInf = true ∨ y.isInf = true → Big s T (x + y) := by
    intro hi
    have e : x + y = pack s infMag := by
      show F32.add x y = _
      unfold F32.add addAs
      rw [hx.1, hy.1, hx.2.1, hy.2.1]
      cases h1 : x.isInf
      · have h2 : y.isInf = true := hi.resolve_left (by rw [h1]; simp)
        simp [h2]
        rw [eq_pack_of_inf h2, hy.2.1]
      · simp
        rw [eq_pack_of_inf h1, hx.2.1]
    rw [e]
    exact big_inf _ hm
  rcases class_cases x with fx | fx | fx
  · rcases class_cases y with fy | fy | fy
    · have hs : |x.val + y.val| = mval x.mag + mval y.mag ∧ (decide (x.val + y.val < 0)) = s := by
        have a := mval_nonneg x.mag
        have b := mval_nonneg y.mag
        have a' := hx.2.2
        have b' := hy.2.2
        rw [val_eq, val_eq, hx.2.1, hy.2.1]
        cases s
        · simp only [Bool.false_eq_true, if_false]
          exact ⟨abs_of_nonneg (by linarith), by simp; linarith⟩
        · simp only [if_true]
          exact ⟨by rw [abs_of_nonpos (by linarith)]; ring, by simp; linarith⟩
      by_cases ho : |x.val + y.val| < ovf
      · obtain ⟨f, v⟩ := add_val fx fy ho
        have hb : T ≤ |(x + y).val| := by
          rw [v, ← RN_abs]
          refine le_RN_of_rep hT (h.trans ?_)
          rw [hs.1]
          exact add_le_add hx.2.2 hy.2.2
        refine ⟨not_nan_of_finite f, ?_, by rw [← abs_val]; exact hb⟩
        have p : 0 < |(x + y).val| := by
          rw [v, ← RN_abs]
          refine lt_of_lt_of_le (lt_of_lt_of_le t0 hx.2.2) ?_
          rw [← abs_val]
          refine le_RN_of_rep (by rw [← val_abs]; exact rep_val _) ?_
          rw [hs.1, abs_val]
          have b := mval_nonneg y.mag
          linarith
        have hd := hs.2
        cases s
        · refine val_pos_sign ?_
          rw [decide_eq_false_iff_not, not_lt] at hd
          have := RN_nonneg hd
          rw [← v] at this
          rcases this.lt_or_eq with h | h
          · exact h
          · rw [← h] at p; simp at p
        · refine val_neg_sign ?_
          rw [decide_eq_true_eq] at hd
          have := RN_nonpos hd.le
          rw [← v] at this
          rcases this.lt_or_eq with h | h
          · exact h
          · rw [h] at p; simp at p
      · have e : x + y = _ := addAs_ovf .add fx fy (not_lt.1 ho)
        rw [e, hs.2]
        exact big_inf _ hm
    · exact infcase (Or.inr fy)
    · rw [hy.1] at fy; cases fy
  · exact infcase (Or.inl fx)
  · rw [hx.1] at fx; cases fx

/-- A big positive number less a small one. -/
theorem Big.sub {t c T : ℚ} {x y : F32} (hx : Big false t x) (fy : y.isFinite = true) (hy : y.val = c) (c0 : 0 ≤ c)
    (hT : Rep T) (h0 : 0 < T) (h : T ≤ t - c) (hm : T ≤ 2 ^ 128) : Big false T (x - y) := by
  rcases hx.cases with rfl | ⟨fx, sx, bx⟩
  · have e : pack false infMag - y = pack false infMag := by
      show F32.sub _ y = _
      unfold F32.sub addAs
      have h1 := not_nan_of_finite fy
      have h2 := not_inf_of_finite fy
      have n1 : (F32.neg y).isNaN = false := by have := isNaN_neg y; rw [h1] at this; exact this
      have n2 : (F32.neg y).isInf = false := by have := isInf_neg y; rw [h2] at this; exact this
      have i1 : (pack false infMag).isInf = true := by rw [isInf, mag_pack _ infMag_lt]; simp
      rw [hx.1, n1, n2, i1]; simp
    rw [e]
    exact big_inf _ hm
  · have xv : |x.val| = x.val := by rw [val_of_pos sx, abs_of_nonneg (mval_nonneg _)]
    rw [xv] at bx
    have hlt : |x.val - y.val| < ovf := by
      have := abs_val_lt_ovf fx
      rw [hy, abs_of_pos (by linarith)]
      rw [xv] at this
      linarith
    obtain ⟨f, v⟩ := sub_val fx fy hlt
    have hv : T ≤ (x - y).val := by rw [v]; exact le_RN_of_rep hT (by rw [hy]; linarith)
    have hs := val_pos_sign (lt_of_lt_of_le h0 hv)
    have := big_of_finite (t := T) f (hv.trans (le_abs_self _))
    rwa [hs] at this

end Micromath.F32
