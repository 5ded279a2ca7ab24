import Verif.Props.Quat
import Verif.Model.Statistics

/-!
# C75-C80: statistics
-/

set_option exponentiation.threshold 1000

namespace Micromath.Props
open F32 Spec Statistics

variable [Cfg]

/-! ### C75 -/

theorem meanLoop_eq (l : List F32) (k : Int) (s : F32) (hk : 0 ≤ k) (h : k + l.length < 2 ^ 31) :
    meanLoop l k s = .ok (k + l.length, l.foldl (· + ·) s) := by
  induction l generalizing k s with
  | nil => simp [meanLoop]
  | cons x l ih =>
    rw [List.length_cons] at h ⊢
    have hr : i32chk (k + 1) = .ok (k + 1) := by
      rw [i32chk, if_pos (by push_cast at h; omega)]
    rw [meanLoop, hr, ok_bind, ih _ _ (by omega) (by push_cast at h ⊢; omega), List.foldl_cons]
    congr 2
    push_cast; ring

/-- **C75.** `mean` is the left-to-right float sum from `+0.0`, divided by the number of items. -/
theorem C75_mean (l : List F32) (h : l.length < 2 ^ 31) :
    mean l = .ok (l.foldl (· + ·) posZero / ofInt l.length) := by
  rw [mean, meanLoop_eq l 0 posZero le_rfl (by omega), ok_bind]
  simp

theorem meanLoop_fails (hc : Cfg.overflowChecks = true) (l : List F32) (k : Int) (s : F32) (hk : 0 ≤ k) (hk2 : k < 2 ^ 31)
    (h : 2 ^ 31 ≤ k + l.length) : meanLoop l k s = .error .overflow := by
  induction l generalizing k s with
  | nil => simp at h; omega
  | cons x l ih =>
    rw [List.length_cons] at h
    by_cases hk1 : k + 1 < 2 ^ 31
    · have hr : i32chk (k + 1) = .ok (k + 1) := by rw [i32chk, if_pos (by omega)]
      rw [meanLoop, hr, ok_bind]
      exact ih _ _ (by omega) hk1 (by push_cast at h; omega)
    · have hr : i32chk (k + 1) = .error .overflow := by
        rw [i32chk, if_neg (by omega), if_pos hc]
      rw [meanLoop, hr, error_bind]

/-- **C75.** Beyond `2^31 - 1` items the `i32` counter overflows: with overflow checks `mean` panics, and it panics
only then. -/
theorem C75_mean_panic (l : List F32) : Fails (mean l) ↔ Cfg.overflowChecks = true ∧ 2 ^ 31 ≤ l.length := by
  constructor
  · rintro ⟨e, he⟩
    refine ⟨?_, ?_⟩
    · by_contra hc
      have hl : ∀ (l : List F32) (k : Int) (s : F32), ∃ r, meanLoop l k s = .ok r := by
        intro l
        induction l with
        | nil => intro k s; exact ⟨_, rfl⟩
        | cons x l ih =>
          intro k s
          obtain ⟨k', hk'⟩ : ∃ k', i32chk (k + 1) = .ok k' := by
            rw [i32chk]
            split
            · exact ⟨_, rfl⟩
            · exact ⟨_, rfl⟩
          rw [meanLoop, hk', ok_bind]
          exact ih _ _
      obtain ⟨r, hr⟩ := hl l 0 posZero
      rw [mean, hr, ok_bind] at he
      cases he
    · by_contra hc
      rw [C75_mean l (by omega)] at he
      cases he
  · rintro ⟨hc, h⟩
    refine ⟨.overflow, ?_⟩
    rw [mean, meanLoop_fails hc l 0 posZero le_rfl (by norm_num) (by push_cast; omega), error_bind]

theorem foldl_isNaN_zero_div : (posZero / ofInt 0 : F32).isNaN = true := by
  rw [div_def]
  simp only [div]
  have h1 : posZero.isNaN = false := by decide
  have h2 : (ofInt 0).isNaN = false := by decide
  have h3 : posZero.isInf = false := by decide
  have h4 : (ofInt 0).isInf = false := by decide
  have h5 : posZero.isZero = true := by decide
  have h6 : (ofInt 0).isZero = true := by decide
  simp only [h1, h2, h3, h4, h5, h6]
  exact Cfg.nanOp_isNaN _ _ _

/-- **C75.** The mean of no items is NaN. -/
theorem C75_mean_empty : ∃ m, mean [] = .ok m ∧ m.isNaN = true :=
  ⟨_, C75_mean [] (by simp), foldl_isNaN_zero_div⟩

/-- **C75.** On at most `2^24` integer-valued items whose partial sums stay within `2^24`, the mean is the correctly
rounded exact mean, whatever the order.  For more than `2^24` items the count
itself is rounded and this fails (`C75_mean_int_false`). -/
theorem C75_mean_int {l : List F32} {zs : List Int} (h : IsInts l zs) (hp : PartialSums 0 zs) (hl : l ≠ [])
    (hn : l.length ≤ 2 ^ 24) :
    ∃ m, mean l = .ok m ∧ IsVal m (RN ((zs.sum : ℚ) / zs.length)) := by
  have hlen : l.length = zs.length := h.length_eq
  have hpos : 0 < l.length := List.length_pos_iff.2 hl
  refine ⟨_, C75_mean l (by omega), ?_⟩
  obtain ⟨f1, v1⟩ := foldl_int h posZero 0 ⟨fin_posZero, by simpa using val_posZero⟩ hp
  obtain ⟨f2, v2⟩ := ofInt_isVal (n := (l.length : Int)) (by omega)
  rw [zero_add] at v1
  have hn0 : (0 : ℚ) < (l.length : ℚ) := by exact_mod_cast hpos
  have h1 : (1 : ℚ) ≤ (l.length : ℚ) := by exact_mod_cast hpos
  have e : (l.foldl (· + ·) posZero).val / (ofInt (l.length : Int)).val = (zs.sum : ℚ) / zs.length := by
    rw [v1, v2, ← hlen]; push_cast; rfl
  have hb : |(zs.sum : ℚ)| ≤ 2 ^ 24 := by
    have := hp zs.length
    rw [zero_add, List.take_length] at this
    rw [← Int.cast_abs, ← Nat.cast_natAbs]; exact_mod_cast this
  have ho : |(l.foldl (· + ·) posZero).val / (ofInt (l.length : Int)).val| < ovf := by
    rw [e, abs_div, ← hlen, abs_of_pos hn0]
    have : |(zs.sum : ℚ)| / l.length ≤ 2 ^ 24 := by
      rw [div_le_iff₀ hn0]; nlinarith
    refine lt_of_le_of_lt this (by norm_num [ovf])
  have := div_val f1 f2 (by rw [v2]; push_cast; exact hn0.ne') ho
  rw [e] at this
  exact this

/-- **C75.** Order independence on integer data. -/
theorem C75_mean_order {l m : List F32} {zs ys : List Int} (hl : IsInts l zs) (hm : IsInts m ys)
    (hperm : zs.Perm ys) (h1 : PartialSums 0 zs) (h2 : PartialSums 0 ys) (hn : l ≠ []) (hlen : l.length ≤ 2 ^ 24) :
    ∃ p q, mean l = .ok p ∧ mean m = .ok q ∧ p.feq q = true := by
  have e1 := hl.length_eq
  have e2 := hm.length_eq
  have e3 := hperm.length_eq
  obtain ⟨p, hp, fp, vp⟩ := C75_mean_int hl h1 hn hlen
  obtain ⟨q, hq, fq, vq⟩ := C75_mean_int hm h2
    (by intro h; rw [h] at e2; simp at e2; rw [← List.length_pos_iff] at hn; omega) (by omega)
  exact ⟨p, q, hp, hq, (feq_iff fp fq).2 (by rw [vp, vq, hperm.sum_eq, e3])⟩

/-- The mean of `1, 2, 4` is the float nearest to `7/3`. -/
example : ∃ m, mean [ofInt 1, ofInt 2, ofInt 4] = .ok m ∧ IsVal m (RN (7 / 3)) := by
  have := C75_mean_int (l := [ofInt 1, ofInt 2, ofInt 4]) (zs := [1, 2, 4])
    (.cons (ofInt_isVal (by decide)) (.cons (ofInt_isVal (by decide)) (.cons (ofInt_isVal (by decide)) .nil)))
    (by intro k; rcases k with _ | _ | _ | k <;> simp) (by simp) (by simp)
  simpa [show ((1 : ℚ) + (2 + 4)) = 7 by norm_num] using this

/-- **C75, refuted beyond `2^24` items**: one `1.0` and `2^24` zeros sum exactly, but the mean is not the correctly
rounded one. -/
theorem C75_mean_int_false :
    ¬ ∀ (l : List F32) (zs : List Int), IsInts l zs → PartialSums 0 zs → l ≠ [] → l.length < 2 ^ 31 →
      ∃ m, mean l = .ok m ∧ IsVal m (RN ((zs.sum : ℚ) / zs.length)) := by
  intro hall
  obtain ⟨n, hn⟩ : ∃ n : Nat, n = 2 ^ 24 := ⟨_, rfl⟩
  have hnq : (n : ℚ) = 2 ^ 24 := by rw [hn]; norm_num
  have hi : ∀ n, IsInts (List.replicate n posZero) (List.replicate n 0) := by
    intro n
    induction n with
    | zero => exact .nil
    | succ n ih => exact .cons ⟨fin_posZero, by simpa using val_posZero⟩ ih
  have hints : IsInts (one :: List.replicate n posZero) (1 :: List.replicate n 0) :=
    .cons ⟨fin_one, by simpa using val_one⟩ (hi _)
  have hps : PartialSums 0 (1 :: List.replicate n 0) := by
    intro k
    rcases k with _ | k
    · simp
    · rw [List.take_succ_cons, List.take_replicate, List.sum_cons, List.sum_replicate]; simp
  have hlen : (one :: List.replicate n posZero).length = n + 1 := by
    rw [List.length_cons, List.length_replicate]
  have hsum : (1 :: List.replicate n (0 : Int)).sum = 1 := by
    rw [List.sum_cons, List.sum_replicate]; simp
  have hzl : (1 :: List.replicate n (0 : Int)).length = n + 1 := by
    rw [List.length_cons, List.length_replicate]
  obtain ⟨m, hm, fm, vm⟩ := hall _ _ hints hps (by simp) (by rw [hlen, hn]; norm_num)
  rw [C75_mean _ (by rw [hlen, hn]; norm_num), hlen] at hm
  obtain ⟨f1, v1⟩ := foldl_int hints posZero 0 ⟨fin_posZero, by simpa using val_posZero⟩ hps
  have ho : ofInt ((n + 1 : Nat) : Int) = ⟨0x4b800000#32⟩ := by rw [hn]; decide +kernel
  have hv : (⟨0x4b800000#32⟩ : F32).val = 2 ^ 24 := by
    rw [val_of_units (u := 2 ^ 173) (by decide +kernel)]; norm_num
  rw [hsum] at v1
  have hd := div_val f1 (y := (⟨0x4b800000#32⟩ : F32)) (by decide) (by rw [hv]; norm_num)
    (by rw [v1, hv]; norm_num [ovf])
  rw [ho] at hm
  have hm' := Except.ok.inj hm
  rw [← hm', hd.2, v1, hv, hsum, hzl] at vm
  have e1 : RN (1 / 2 ^ 24) = 1 / 2 ^ 24 := by
    have := RN_of_rep (rep_pow (e := -24) (by norm_num))
    norm_num at this ⊢
    exact this
  have e2 : (((0 + 1 : Int) : ℚ) / 2 ^ 24) = 1 / 2 ^ 24 := by norm_num
  rw [e2, e1] at vm
  have hr : Rep (1 / 2 ^ 24 - 1 / 2 ^ 48 : ℚ) := by
    refine rep_grid (z := 2 ^ 24 - 1) (j := -48) (by norm_num) (by norm_num) ?_
    rw [abs_of_nonneg (by norm_num)]; norm_num
  have := RN_nearest (q := ((1 : Int) : ℚ) / ((n + 1 : Nat) : ℚ)) hr
  rw [← vm] at this
  push_cast at this
  rw [hnq] at this
  rw [abs_of_pos (by norm_num), abs_of_neg (by norm_num)] at this
  norm_num at this

/-! ### C76 -/

theorem div_nonneg_sign {x y : F32} (hx : x.isNaN = true ∨ x.sign = false) (hy : y.isNaN = true ∨ y.sign = false) :
    (x / y).isNaN = true ∨ (x / y).sign = false := by
  by_cases nx : x.isNaN = true
  · exact Or.inl (div_nan (Or.inl nx))
  by_cases ny : y.isNaN = true
  · exact Or.inl (div_nan (Or.inr ny))
  have sx := hx.resolve_left nx
  have sy := hy.resolve_left ny
  have nx' : x.isNaN = false := by simpa using nx
  have ny' : y.isNaN = false := by simpa using ny
  rw [div_def]
  simp only [div, nx', ny', sx, sy]
  have hn : ∀ o, (Cfg.nanOp o x y).isNaN = true := fun o => Cfg.nanOp_isNaN _ _ _
  have hp0 : (pack false 0).sign = false := by decide
  have hpi : (pack false infMag).sign = false := by decide
  have hpr : ∀ a b, (pack false (roundMag a b)).sign = false := fun a b => sign_pack _ (roundMag_lt _ _)
  cases x.isInf <;> cases y.isInf <;> cases x.isZero <;> cases y.isZero <;> simp [hn, hp0, hpi, hpr]

theorem sqDev_sign (m : F32) (l : List F32) : (sqDev m l).isNaN = true ∨ (sqDev m l).sign = false := by
  unfold sqDev
  suffices h : ∀ s : F32, (s.isNaN = true ∨ s.sign = false) →
      ((l.foldl (fun sum item => let n := item - m; sum + n * n) s).isNaN = true ∨
       (l.foldl (fun sum item => let n := item - m; sum + n * n) s).sign = false) from h _ (Or.inr (by decide))
  induction l with
  | nil => intro s hs; exact hs
  | cons x l ih =>
    intro s hs
    rw [List.foldl_cons]
    exact ih _ (add_nonneg_sign hs (sq_sign _))

theorem len_sub_one {n : Nat} (h1 : 2 ≤ n) (h2 : n < 2 ^ 64) :
    (ofInt n - one).isFinite = true ∧ 1 ≤ (ofInt n - one).val := by
  have hq : (2 : ℚ) ≤ n := by exact_mod_cast h1
  have hq2 : (n : ℚ) ≤ 2 ^ 64 := by exact_mod_cast h2.le
  have hr64 : Rep ((2 : ℚ) ^ 64) := by
    have := rep_pow (e := 64) (by norm_num)
    simpa using this
  obtain ⟨f1, v1⟩ := ofInt_val (n := (n : Int)) (by
    rw [abs_of_nonneg (by push_cast; linarith)]
    push_cast
    exact lt_of_le_of_lt hq2 (by norm_num [ovf]))
  have hlo : 2 ≤ RN ((n : Int) : ℚ) := le_RN_of_rep (by simpa using rep_int (m := 2) (by decide)) (by push_cast; exact hq)
  have hhi : RN ((n : Int) : ℚ) ≤ 2 ^ 64 := RN_le_of_rep hr64 (by push_cast; exact hq2)
  have e : (ofInt n).val - one.val = RN ((n : Int) : ℚ) - 1 := by rw [v1, val_one]
  obtain ⟨f2, v2⟩ := sub_val f1 fin_one (by
    rw [e, abs_of_nonneg (by linarith)]
    refine lt_of_le_of_lt (show _ ≤ (2 : ℚ) ^ 64 by linarith) (by norm_num [ovf]))
  refine ⟨f2, ?_⟩
  rw [v2, e]
  exact le_RN_of_rep (by simpa using rep_int (m := 1) (by decide)) (by linarith)

section
variable {T : Type} [IntoF32 T]

/-- **C76.** The variance of two or more items is NaN or a number `>= 0` without sign bit, in every build. -/
theorem C76_variance_nonneg (l : List T) (h1 : 2 ≤ l.length) (h2 : l.length < 2 ^ 64) {v : F32} (h : variance l = .ok v) :
    v.isNaN = true ∨ (v.isSignNegative = false ∧ v.ge posZero = true) := by
  unfold variance at h
  rcases hm : mean (l.map IntoF32.into) with e | m
  · rw [hm, error_bind] at h; cases h
  rw [hm, ok_bind] at h
  cases h
  have hs := (len_sub_one h1 h2)
  rcases div_nonneg_sign (sqDev_sign m (l.map IntoF32.into))
    (Or.inr (val_pos_sign (lt_of_lt_of_le one_pos hs.2))) with hn | hn
  · exact Or.inl hn
  · by_cases hN : (sqDev m (l.map IntoF32.into) / (ofInt l.length - one)).isNaN = true
    · exact Or.inl hN
    · exact Or.inr ⟨hn, (ge_zero_iff _).2 ⟨by simpa using hN, Or.inl hn⟩⟩

/-- **C76.** `variance` returns unless the item counter of `mean` overflows under overflow checks. -/
theorem C76_variance_panic (l : List T) : Fails (variance l) ↔ Cfg.overflowChecks = true ∧ 2 ^ 31 ≤ l.length := by
  have h := C75_mean_panic (l.map (IntoF32.into : T → F32))
  rw [List.length_map] at h
  rw [← h]
  unfold variance
  rcases mean (l.map (IntoF32.into : T → F32)) with e | m
  · exact iff_of_true ⟨e, rfl⟩ ⟨e, rfl⟩
  · refine iff_of_false ?_ ?_ <;> (rintro ⟨e, he⟩; cases he)

end

theorem x_sub_x (x : F32) : (x - x).isNaN = true ∨ IsVal (x - x) 0 := by
  by_cases hf : x.isFinite = true
  · have := sub_val hf hf (by rw [sub_self]; norm_num [ovf])
    rw [sub_self, RN_zero] at this
    exact Or.inr this
  · left
    rcases class_cases x with h | h | h
    · exact absurd h hf
    · have hn : x.isNaN = false := by simp only [isInf, decide_eq_true_eq] at h; simp [isNaN, h]
      rw [sub_def]
      simp only [addAs, hn, isNaN_neg, h, isInf_neg, sign_neg]
      cases x.sign <;> simp [Cfg.nanOp_isNaN]
    · exact sub_nan (Or.inl h)

theorem zero_div_zero {x y : F32} (hx : x.mag = 0) (hy : y.mag = 0) : (x / y).isNaN = true := by
  have h : ∀ u : F32, u.mag = 0 → u.isNaN = false ∧ u.isInf = false ∧ u.isZero = true := by
    intro u hu
    refine ⟨by rw [isNaN, hu]; decide, by rw [isInf, hu]; decide, by rw [isZero, hu]; decide⟩
  obtain ⟨a1, a2, a3⟩ := h x hx
  obtain ⟨b1, b2, b3⟩ := h y hy
  rw [div_def]
  simp only [div, a1, a2, a3, b1, b2, b3]
  exact Cfg.nanOp_isNaN _ _ _

/-- Dividing by one changes nothing except possibly a NaN. -/
theorem div_one_eqv (x : F32) : Eqv (x / one) x := by
  by_cases hf : x.isFinite = true
  · right
    have hm := abs_val_lt_ovf hf
    have := div_val hf fin_one (by rw [val_one]; norm_num) (by rw [val_one, div_one]; exact hm)
    refine eq_of_val_sign (by rw [this.2, val_one, div_one, RN_val]) ?_
    rw [div_finite hf fin_one (by rw [val_one]; norm_num), sign_pack _ (by have := infMag_lt; omega)]
    have : one.sign = false := by decide
    rw [this]; cases x.sign <;> rfl
  · rcases class_cases x with h | h | h
    · exact absurd h hf
    · right
      have hn : x.isNaN = false := by simp only [isInf, decide_eq_true_eq] at h; simp [isNaN, h]
      have h1 : one.isNaN = false := by decide
      have h2 : one.isInf = false := by decide
      have h3 : one.sign = false := by decide
      rw [div_def]
      simp only [div, hn, h, h1, h2, h3]
      rw [eq_pack_of_inf h, sign_pack _ infMag_lt]
      cases x.sign <;> simp
    · exact Or.inl ⟨div_nan (Or.inl h), h⟩

section
variable {T : Type} [IntoF32 T]

/-- **C76.** The variance of one item is NaN. -/
theorem C76_variance_one (x : T) : ∃ v, variance [x] = .ok v ∧ v.isNaN = true := by
  unfold variance
  rw [List.map_singleton, C75_mean _ (by simp), ok_bind]
  refine ⟨_, rfl, ?_⟩
  have hd : (one - one).mag = 0 := by
    have := sub_val fin_one fin_one (by rw [sub_self]; norm_num [ovf])
    rw [sub_self, RN_zero] at this
    exact val_eq_zero.1 this.2
  generalize IntoF32.into x = y
  simp only [List.foldl_cons, List.foldl_nil, sqDev, List.length_singleton]
  -- the deviation of the only item is zero or NaN
  have hone : ofInt ((1 : Nat) : Int) = one := by decide +kernel
  rw [hone]
  have h1 : (y - (posZero + y) / one).isNaN = true ∨ (y - (posZero + y) / one).mag = 0 := by
    by_cases hy : y.isNaN = true
    · exact Or.inl (sub_nan (Or.inl hy))
    · rcases class_cases y with hf | hi | hn
      · right
        have e1 := (add_zero_val (x := y) ⟨hf, rfl⟩ ⟨fin_posZero, val_posZero⟩).2.1
        have e2 := (div_one_eqv (posZero + y)).eq (by
          rw [(div_one_eqv _).isNaN_eq]; exact not_nan_of_finite e1.1)
        rw [e2]
        have := sub_val hf e1.1 (by rw [e1.2, sub_self]; norm_num [ovf])
        rw [e1.2, sub_self, RN_zero] at this
        exact val_eq_zero.1 this.2
      · have hyn : y.isNaN = false := by simpa using hy
        have e1 : posZero + y = y := by
          have h1 : posZero.isNaN = false := by decide
          have h2 : posZero.isInf = false := by decide
          rw [add_def]
          simp only [addAs, h1, h2, hyn, hi]; simp
        rw [e1]
        have e2 := (div_one_eqv y).symm.eq hyn
        rw [← e2]
        rcases x_sub_x y with h | h
        · exact Or.inl h
        · exact Or.inr (val_eq_zero.1 h.2)
      · exact absurd hn hy
  rcases h1 with h1 | h1
  · exact div_nan (Or.inl (add_nan (Or.inr (mul_nan (Or.inl h1)))))
  · refine zero_div_zero ?_ hd
    have hs : ((y - (posZero + y) / one) * (y - (posZero + y) / one)).mag = 0 := by
      rw [sq_zero_iff (by rw [isNaN, h1]; decide)]
      exact ⟨by rw [isFinite, h1]; decide, by rw [val_eq_zero.2 h1]; norm_num⟩
    rw [add_nonneg_zero_iff (Or.inr (by decide)) (sq_sign _)]
    exact ⟨by decide, hs⟩

/-- **C76.** The variance of no items is `-0.0`. -/
theorem C76_variance_empty : variance ([] : List T) = .ok negZero := by
  unfold variance
  rw [List.map_nil, C75_mean _ (by simp), ok_bind]
  show Except.ok (posZero / (ofInt 0 - one)) = _
  congr 1
  exact eval_eq (by kernel_rfl)

/-! ### C77 -/

/-- **C77.** `stddev` is the crate's `sqrt` of `variance` and panics exactly when `variance` does. -/
theorem C77_stddev (l : List T) :
    (∀ v, variance l = .ok v → stddev l = .ok v.sqrt) ∧ (Fails (stddev l) ↔ Fails (variance l)) := by
  constructor
  · intro v hv
    rw [stddev, hv, ok_bind]; rfl
  · unfold stddev
    rcases variance l with e | v
    · exact iff_of_true ⟨e, rfl⟩ ⟨e, rfl⟩
    · refine iff_of_false ?_ ?_ <;> (rintro ⟨e, he⟩; cases he)

/-- **C77.** When the variance is a positive normal number, `stddev` is within the `sqrt` error of the true root:
`stddev^2` lies in `[(1 - 2^-22) var, 9/8 var]`. -/
theorem C77_stddev_bounds (l : List T) {v : F32} (hv : variance l = .ok v) (h : PosNormal v) :
    ∃ s, stddev l = .ok s ∧ s.isFinite = true ∧ 0 < s.val ∧ (1 - 1 / 2 ^ 22) * v.val ≤ s.val ^ 2 ∧
      s.val ^ 2 ≤ 9 / 8 * v.val ∧ |(s.val : ℝ) - Real.sqrt v.val| ≤ 0.061 * Real.sqrt v.val := by
  obtain ⟨h1, h2, h3, h4, h5, h6⟩ := C14_sqrt v h
  refine ⟨_, (C77_stddev l).1 v hv, h1, h2, h3, h4, ?_⟩
  have h0 : 0 ≤ Real.sqrt v.val := Real.sqrt_nonneg _
  rw [abs_le]
  constructor
  · have : (1 / 2 ^ 22 : ℝ) ≤ 0.061 := by norm_num
    nlinarith
  · nlinarith

/-- The variance of `1, 2, 3, 4` is `5/3` rounded, a positive normal number. -/
example : variance [ofInt 1, ofInt 2, ofInt 3, ofInt 4] = .ok ⟨0x3fd55555#32⟩ ∧ PosNormal ⟨0x3fd55555#32⟩ := by
  refine ⟨eval_ok (by kernel_rfl) (by decide), by decide, ?_⟩
  rw [val_of_units (u := 13981013 * 2 ^ 126) (by decide +kernel)]; norm_num

/-- **C77, finding.** The standard deviation of an empty slice is not NaN and not small: it is `sqrt(-0.0)`, about
`2.8e19`. -/
theorem C77_stddev_empty : ∃ s, stddev ([] : List T) = .ok s ∧ s.isFinite = true ∧ (2 : ℚ) ^ 64 ≤ s.val := by
  refine ⟨_, (C77_stddev _).1 _ C76_variance_empty, ?_⟩
  have : F32.sqrt negZero = ⟨0x5fc00000#32⟩ := C16_sqrt_special_false.2.1
  rw [this]
  refine ⟨by decide, ?_⟩
  rw [val_of_units (u := 3 * 2 ^ 212) (by decide +kernel)]; norm_num

/-! ### C78 -/

/-- The test of src/statistics/trim.rs:99, as a predicate on one item. -/
def Kept (mean stddev t : F32) (n : T) : Bool := ((IntoF32.into n - mean).abs / stddev).lt t

theorem nextLoop_spec (it : TrimIter T) (l : List T) :
    (it.nextLoop l = (none, { it with input := [] }) ∧ l.filter (Kept it.mean it.stddev it.threshold) = []) ∨
    (∃ n rest, it.nextLoop l = (some n, { it with input := rest }) ∧ rest.length < l.length ∧
      l.filter (Kept it.mean it.stddev it.threshold) = n :: rest.filter (Kept it.mean it.stddev it.threshold)) := by
  induction l with
  | nil => exact Or.inl ⟨rfl, rfl⟩
  | cons x l ih =>
    rw [TrimIter.nextLoop]
    by_cases h : Kept it.mean it.stddev it.threshold x = true
    · right
      refine ⟨x, l, ?_, by simp, List.filter_cons_of_pos h⟩
      unfold Kept at h
      exact if_pos h
    · have h' : ¬ ((F32Ext.abs (IntoF32.into x - it.mean)) / it.stddev).lt it.threshold = true := h
      rw [List.filter_cons_of_neg h]
      simp only [h']
      rcases ih with ⟨a, b⟩ | ⟨n, rest, a, b, c⟩
      · exact Or.inl ⟨a, b⟩
      · exact Or.inr ⟨n, rest, a, by rw [List.length_cons]; omega, c⟩

theorem collect_eq (it : TrimIter T) (fuel : Nat) (h : it.input.length < fuel) :
    it.collect fuel = it.input.filter (Kept it.mean it.stddev it.threshold) := by
  induction fuel generalizing it with
  | zero => omega
  | succ k ih =>
    rw [TrimIter.collect, TrimIter.next]
    rcases nextLoop_spec it it.input with ⟨a, b⟩ | ⟨n, rest, a, b, c⟩
    · rw [a, b]
    · rw [a, c]
      simp only
      rw [ih _ (by simp only; omega)]

/-- **C80.** The mean and standard deviation inside the `trim` iterator are those of the public traits, and its
failure is theirs. -/
theorem C80_trim_stats (l : List T) (t : F32) :
    (∀ it, trimAt l t = .ok it → mean (l.map IntoF32.into) = .ok it.mean ∧ stddev l = .ok it.stddev ∧
      it.threshold = t ∧ it.input = l) ∧
    (Fails (trimAt l t) ↔ Fails (stddev l)) := by
  unfold trimAt TrimIter.new stddev variance
  rcases mean (l.map (IntoF32.into : T → F32)) with e | m
  · refine ⟨fun it h => (by cases h), iff_of_true ⟨e, rfl⟩ ⟨e, rfl⟩⟩
  · refine ⟨fun it h => ?_, iff_of_false ?_ ?_⟩
    · cases h; exact ⟨rfl, rfl, rfl, rfl⟩
    · rintro ⟨e, he⟩; cases he
    · rintro ⟨e, he⟩; cases he

/-- Everything a `trim_at(t)` iterator yields. -/
def yields (it : TrimIter T) : List T := it.collect (it.input.length + 1)

/-- **C78.** `trim_at(t)` yields, in order, exactly the items with `|x - mean| / stddev < t`, for the mean and standard
deviation of the whole input; in particular a subsequence of the input. -/
theorem C78_trim_filter (l : List T) (t : F32) {m s : F32} (hm : mean (l.map IntoF32.into) = .ok m)
    (hs : stddev l = .ok s) :
    ∃ it, trimAt l t = .ok it ∧ yields it = l.filter (fun n => ((IntoF32.into n - m).abs / s).lt t) ∧
      (yields it).Sublist l := by
  rcases h : trimAt l t with e | it
  · obtain ⟨e', he'⟩ := (C80_trim_stats l t).2.1 ⟨e, h⟩
    rw [hs] at he'; cases he'
  · obtain ⟨h1, h2, h3, h4⟩ := (C80_trim_stats l t).1 it h
    rw [hm] at h1; rw [hs] at h2
    have e1 := Except.ok.inj h1
    have e2 := Except.ok.inj h2
    subst e1 e2
    have e : yields it = l.filter (fun n => ((IntoF32.into n - it.mean).abs / it.stddev).lt t) := by
      rw [yields, collect_eq _ _ (by omega), h3, h4]; rfl
    refine ⟨it, rfl, e, ?_⟩
    rw [e]; exact List.filter_sublist

omit [Cfg] in
theorem lt_le_trans {x s t : F32} (h : x.lt s = true) (h' : s.le t = true) : x.lt t = true := by
  simp only [lt, le, Bool.and_eq_true, Bool.not_eq_true', decide_eq_true_eq] at h h' ⊢
  exact ⟨⟨h.1.1, h'.1.2⟩, lt_of_lt_of_le h.2 h'.2⟩

/-- **C78.** A larger threshold keeps at least as much: `s <= t` makes the `s` result a subsequence of the `t` result. -/
theorem C78_trim_mono (l : List T) {s t : F32} (hst : s.le t = true) {i j : TrimIter T} (hi : trimAt l s = .ok i)
    (hj : trimAt l t = .ok j) : (yields i).Sublist (yields j) := by
  obtain ⟨a1, a2, a3, a4⟩ := (C80_trim_stats l s).1 i hi
  obtain ⟨b1, b2, b3, b4⟩ := (C80_trim_stats l t).1 j hj
  rw [a1] at b1
  rw [a2] at b2
  have hsd := Except.ok.inj b2
  have hmd := Except.ok.inj b1
  rw [yields, yields, collect_eq _ _ (by omega), collect_eq _ _ (by omega), a3, a4, b3, b4, hsd, hmd]
  apply List.monotone_filter_right
  intro n hn
  exact lt_le_trans hn hst

theorem sqrt_sign (x : F32) : x.sqrt.isNaN = true ∨ x.sqrt.sign = false := by
  by_cases h : x.ge ZERO = true
  · right
    have := sqrt_toNat h
    obtain ⟨h1, h2⟩ := (ge_zero_iff x).1 h
    have hn : x.mag ≤ infMag := by simpa [isNaN] using h1
    have hi : infMag = 255 * 2 ^ 23 := by decide
    have hb : x.bits.toNat ≤ 2 ^ 31 := by
      rw [toNat_eq]
      rcases h2 with h2 | h2
      · rw [h2]; simp; omega
      · rw [h2]; split <;> omega
    rw [sign, this]
    simp; omega
  · left
    unfold F32.sqrt
    rw [if_neg h]; exact Cfg.nanConst_isNaN

/-- **C78.** A threshold that is NaN, negative or zero yields nothing. -/
theorem C78_trim_none (l : List T) {t : F32} (ht : t.isNaN = true ∨ t.le posZero = true) {it : TrimIter T}
    (h : trimAt l t = .ok it) : yields it = [] := by
  obtain ⟨h1, h2, h3, h4⟩ := (C80_trim_stats l t).1 it h
  have hs : it.stddev.isNaN = true ∨ it.stddev.sign = false := by
    unfold stddev at h2
    rcases hv : variance l with e | v
    · rw [hv, error_bind] at h2; cases h2
    · rw [hv, ok_bind] at h2
      rw [← Except.ok.inj h2]
      exact sqrt_sign v
  rw [yields, collect_eq _ _ (by omega), List.filter_eq_nil_iff]
  intro n _ hk
  unfold Kept at hk
  rw [h3] at hk
  rcases ht with ht | ht
  · rw [lt_nan_right ht] at hk; cases hk
  · have hk0 := lt_le_trans hk ht
    rcases div_nonneg_sign (x := (IntoF32.into n - it.mean).abs) (Or.inr (sign_abs _)) hs with hd | hd
    · rw [lt_nan_left hd] at hk0; cases hk0
    · simp only [lt, Bool.and_eq_true, decide_eq_true_eq] at hk0
      have hkey := hk0.2
      have hz : posZero.key = 0 := by decide
      rw [hz, key, hd] at hkey
      simp at hkey
      omega

/-- **C78.** Once `next` has returned `None` it keeps returning `None`. -/
theorem C78_trim_fused (it it' : TrimIter T) (h : it.next = (none, it')) : it'.next = (none, it') := by
  unfold TrimIter.next at h ⊢
  rcases nextLoop_spec it it.input with ⟨a, b⟩ | ⟨n, rest, a, b, c⟩
  · rw [a] at h
    cases h; rfl
  · rw [a] at h; cases h

/-- **C78.** `trim()` is `trim_at(2.0)`. -/
theorem C78_trim_default (l : List T) : ∃ two : F32, IsVal two 2 ∧ trim l = trimAt l two :=
  ⟨DEFAULT_THRESHOLD, ⟨fin_lit_2_1, val_lit_2_1⟩, rfl⟩

/-- Ten ones and one hundred: the outlier is dropped. -/
example : ∃ it, trim (List.replicate 10 one ++ [ofInt 100]) = .ok it ∧ yields it = List.replicate 10 one := by
  have hm : mean ((List.replicate 10 one ++ [ofInt 100]).map IntoF32.into) = .ok ⟨0x41200000#32⟩ :=
    eval_ok (by kernel_rfl) (by decide)
  have hs : stddev (List.replicate 10 one ++ [ofInt 100]) = .ok ⟨0x41ef6000#32⟩ := eval_ok (by kernel_rfl) (by decide)
  obtain ⟨it, h1, h2, -⟩ := C78_trim_filter (List.replicate 10 one ++ [ofInt 100]) DEFAULT_THRESHOLD hm hs
  have k1 : ((IntoF32.into one - (⟨0x41200000#32⟩ : F32)).abs / ⟨0x41ef6000#32⟩).lt DEFAULT_THRESHOLD = true := by
    kernel_rfl
  have k2 : ((IntoF32.into (ofInt 100) - (⟨0x41200000#32⟩ : F32)).abs / ⟨0x41ef6000#32⟩).lt DEFAULT_THRESHOLD = false := by
    kernel_rfl
  refine ⟨it, h1, ?_⟩
  rw [h2, List.filter_append, List.filter_replicate, List.filter_singleton, k1, k2]
  rfl

/-! ### C79 -/

/-- **C79.** `trim_at` of an empty or one-element slice yields nothing, for every threshold. -/
theorem C79_trim_short (x : T) (t : F32) :
    (∃ it, trimAt ([] : List T) t = .ok it ∧ yields it = []) ∧ (∃ it, trimAt [x] t = .ok it ∧ yields it = []) := by
  constructor
  · obtain ⟨it, h1, h2, h3⟩ := C78_trim_filter ([] : List T) t (C75_mean [] (by simp))
      ((C77_stddev _).1 _ C76_variance_empty)
    exact ⟨it, h1, h2⟩
  · obtain ⟨v, hv, hn⟩ := C76_variance_one x
    obtain ⟨it, h1, h2, h3⟩ := C78_trim_filter [x] t (C75_mean ([x].map IntoF32.into) (by simp)) ((C77_stddev _).1 _ hv)
    refine ⟨it, h1, ?_⟩
    rw [h2, List.filter_eq_nil_iff]
    intro n _ hk
    have : v.sqrt.isNaN = true := ((C15_sqrt v).2.1).2 (Or.inl hn)
    rw [lt_nan_left (div_nan (Or.inr this))] at hk
    cases hk

theorem foldl_replicate_zero {d : F32} (hd : (d * d).mag = 0) (n : Nat) (s : F32) (hs : s.mag = 0) (hss : s.sign = false) :
    ((List.replicate n d).foldl (fun a x => a + x * x) s).mag = 0 ∧
    ((List.replicate n d).foldl (fun a x => a + x * x) s).sign = false := by
  induction n generalizing s with
  | zero => exact ⟨hs, hss⟩
  | succ n ih =>
    rw [List.replicate_succ, List.foldl_cons]
    have h1 : (s + d * d).mag = 0 := (add_nonneg_zero_iff (Or.inr hss) (sq_sign _)).2 ⟨hs, hd⟩
    have h2 := (add_nonneg_sign (x := s) (y := d * d) (Or.inr hss) (sq_sign _)).resolve_left (by
      rw [isNaN, h1]; decide)
    exact ih _ h1 h2

theorem ofInt_nonneg_sign_zero {s y : F32} (hs : s.mag = 0) (hss : s.sign = false) (hy : y.isFinite = true) (hv : 0 < y.val) :
    s / y = posZero := by
  have hf : s.isFinite = true := by rw [isFinite, hs]; decide
  have h0 : s.val = 0 := val_eq_zero.2 hs
  have := div_val hf hy hv.ne' (by rw [h0, zero_div]; norm_num [ovf])
  rw [h0, zero_div, RN_zero] at this
  refine eq_of_val_sign (by rw [this.2, val_posZero]) ?_
  rw [div_finite hf hy hv.ne', sign_pack _ (by have := infMag_lt; omega), hss, val_pos_sign hv]
  rfl

/-- **C79.** A constant slice of two or more items, of integer value `n` with `|n| * len <= 2^24`, is kept whole by every
threshold `> 0`.  It fails for constants whose float sum is inexact
(`C79_trim_const_false`). -/
theorem C79_trim_const (x : T) (n : Int) (k : Nat) (hx : IsVal (IntoF32.into x) n) (hk : 2 ≤ k)
    (hkn : n.natAbs * k ≤ 2 ^ 24) (hk2 : k ≤ 2 ^ 24) {t : F32} (ht : posZero.lt t = true) :
    ∃ it, trimAt (List.replicate k x) t = .ok it ∧ yields it = List.replicate k x := by
  have hi : ∀ k, IsInts (List.replicate k (IntoF32.into x)) (List.replicate k n) := by
    intro k
    induction k with
    | zero => exact .nil
    | succ k ih => exact .cons hx ih
  have hps : PartialSums 0 (List.replicate k n) := by
    intro j
    rw [List.take_replicate, List.sum_replicate, zero_add, nsmul_eq_mul, Int.natAbs_mul, Int.natAbs_natCast]
    calc (min j k) * n.natAbs ≤ k * n.natAbs := Nat.mul_le_mul_right _ (min_le_right _ _)
      _ ≤ 2 ^ 24 := by rw [mul_comm]; exact hkn
  have hnn : n.natAbs ≤ 2 ^ 24 := le_trans (Nat.le_mul_of_pos_right _ (by omega)) hkn
  obtain ⟨m, hm, fm, vm⟩ := C75_mean_int (hi k) hps
    (by rw [← List.length_pos_iff, List.length_replicate]; omega) (by rw [List.length_replicate]; exact hk2)
  have hkq : (k : ℚ) ≠ 0 := by exact_mod_cast (by omega : k ≠ 0)
  have vm' : m.val = n := by
    rw [vm, List.sum_replicate, List.length_replicate]
    rw [nsmul_eq_mul]
    push_cast
    rw [mul_div_cancel_left₀ _ hkq]
    exact RN_of_rep (rep_int hnn)
  have hd : IsVal (IntoF32.into x - m) 0 := by
    have := sub_val hx.1 fm (by rw [hx.2, vm', sub_self]; norm_num [ovf])
    rw [hx.2, vm', sub_self, RN_zero] at this
    exact this
  have hdm := val_eq_zero.1 hd.2
  have hdd : ((IntoF32.into x - m) * (IntoF32.into x - m)).mag = 0 := by
    rw [sq_zero_iff (not_nan_of_finite hd.1)]
    exact ⟨hd.1, by rw [hd.2]; norm_num⟩
  have hsq : (sqDev m ((List.replicate k x).map IntoF32.into)).mag = 0 ∧
      (sqDev m ((List.replicate k x).map IntoF32.into)).sign = false := by
    have := foldl_replicate_zero hdd k posZero (by decide) (by decide)
    rw [List.map_replicate]
    unfold sqDev
    have e : List.replicate k (IntoF32.into x - m) = (List.replicate k (IntoF32.into x)).map (· - m) := by
      rw [List.map_replicate]
    rw [e, List.foldl_map] at this
    exact this
  have hl := len_sub_one hk (by omega)
  have hv : variance (List.replicate k x) = .ok posZero := by
    unfold variance
    rw [List.map_replicate, hm, ok_bind, List.length_replicate, ← List.map_replicate,
      ofInt_nonneg_sign_zero hsq.1 hsq.2 hl.1 (lt_of_lt_of_le one_pos hl.2)]
  have hsd := (C77_stddev _).1 _ hv
  rw [C16_sqrt_special_false.1] at hsd
  obtain ⟨it, h1, h2, -⟩ := C78_trim_filter (List.replicate k x) t (by rw [List.map_replicate]; exact hm) hsd
  refine ⟨it, h1, ?_⟩
  have hz : (IntoF32.into x - m).abs / ⟨0x1fc00000#32⟩ = posZero := by
    refine ofInt_nonneg_sign_zero (by rw [mag_abs]; exact hdm) (sign_abs _) (by decide) ?_
    rw [val_of_units (u := 3 * 2 ^ 84) (by decide +kernel)]; norm_num
  rw [h2, List.filter_replicate, hz, if_pos ht]

/-- Three sevens are all kept at threshold `1`. -/
example : ∃ it, trimAt (List.replicate 3 (ofInt 7)) one = .ok it ∧ yields it = List.replicate 3 (ofInt 7) :=
  C79_trim_const (ofInt 7) 7 3 (ofInt_isVal (by decide)) (by decide) (by decide) (by decide) (by decide)

end

/-- **C79, refuted in general**: five copies of `16777215.0` have the computed mean `16777214.0`, and a threshold of
one half drops all of them. -/
theorem C79_trim_const_false :
    ∃ it, trimAt (List.replicate 5 (ofInt 16777215)) (lit 1 2) = .ok it ∧ yields it = [] ∧
      posZero.lt (lit 1 2) = true := by
  have hm : mean ((List.replicate 5 (ofInt 16777215)).map IntoF32.into) = .ok ⟨0x4b7ffffe#32⟩ :=
    eval_ok (by kernel_rfl) (by decide)
  have hs : stddev (List.replicate 5 (ofInt 16777215)) = .ok ⟨0x3f900000#32⟩ := eval_ok (by kernel_rfl) (by decide)
  obtain ⟨it, h1, h2, -⟩ := C78_trim_filter (List.replicate 5 (ofInt 16777215)) (lit 1 2) hm hs
  have k1 : ((IntoF32.into (ofInt 16777215) - (⟨0x4b7ffffe#32⟩ : F32)).abs / ⟨0x3f900000#32⟩).lt (lit 1 2) = false := by
    kernel_rfl
  refine ⟨it, h1, ?_, by decide +kernel⟩
  rw [h2, List.filter_replicate, k1]
  rfl

end Micromath.Props
