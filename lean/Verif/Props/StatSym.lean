import Verif.Props.EqLaws
import Verif.Props.StatScale
import Verif.Props.StatsErr

/-!
# C137: mean, variance, stddev and trim under negation, reordering, shifting and repetition of the data
-/

set_option exponentiation.threshold 1000

namespace Micromath.Props
open F32 Spec Statistics

variable [Cfg]

/-! ### Negation -/

theorem addAs_nan_neg {o : FOp} {x y : F32} (h : (addAs o x y).isNaN = true) : (addAs o (-x) (-y)).isNaN = true := by
  by_contra hc
  have := (addAs_neg_neg o (-x) (-y) (by simpa using hc)).2.1
  rw [neg_neg', neg_neg', h] at this
  simp at this

theorem addAs_neg_eqN (o : FOp) (x y : F32) : EqN (addAs o (-x) (-y)) (-(addAs o x y)) := by
  by_cases h : (addAs o x y).isNaN = true
  · exact Or.inl ⟨addAs_nan_neg h, by simpa using h⟩
  · obtain ⟨a, b, c⟩ := addAs_neg_neg o x y (by simpa using h)
    rcases c with c | c
    · exact Or.inr (feq_of_zero (a.trans c) (by rw [mag_neg]; exact c))
    · rw [c]; exact EqN.rfl

theorem neg_add_eqN (x y : F32) : EqN (-x + -y) (-(x + y)) := addAs_neg_eqN _ _ _
theorem neg_sub_eqN (x y : F32) : EqN (-x - -y) (-(x - y)) := addAs_neg_eqN _ _ _

theorem neg_div_eqv (x y : F32) : Eqv (-x / y) (-(x / y)) := by
  by_cases hx : x.isNaN = true
  · exact .of_nan (div_nan (Or.inl (by simpa using hx))) (by simpa using div_nan (y := y) (Or.inl hx))
  by_cases hy : y.isNaN = true
  · exact .of_nan (div_nan (Or.inr hy)) (by simpa using div_nan (x := x) (Or.inr hy))
  have hn : ¬ (x.isNaN || y.isNaN) = true := by simp [hx, hy]
  have hn' : ¬ ((-x).isNaN || y.isNaN) = true := by simpa using hn
  have e : ((!x.sign) != y.sign) = !(x.sign != y.sign) := by cases x.sign <;> cases y.sign <;> rfl
  have hi : (-x).isInf = x.isInf := by rw [isInf, isInf, mag_neg]
  have nn : ∀ a b, Eqv (Cfg.nanOp .div a y) (-(Cfg.nanOp .div b y)) := fun a b =>
    .of_nan (Cfg.nanOp_isNaN _ _ _) (by simpa using Cfg.nanOp_isNaN _ _ _)
  rw [div_def, div_def, F32.div, F32.div, if_neg hn, if_neg hn', isZero_neg, hi, sign_neg, mag_neg, e]
  split
  · split
    · exact nn _ _
    · exact .of_eq (neg_pack _ infMag_lt).symm
  · split
    · exact .of_eq (neg_pack _ (by norm_num)).symm
    · split
      · split
        · exact nn _ _
        · exact .of_eq (neg_pack _ infMag_lt).symm
      · exact .of_eq (neg_pack _ (roundMag_lt _ _)).symm

omit [Cfg] in
theorem EqN.neg_self_zero {x : F32} (h : x.mag = 0 ∨ x.isNaN = true) : EqN x (-x) := by
  rcases h with h | h
  · exact Or.inr (feq_of_zero h (by rw [mag_neg]; exact h))
  · exact Or.inl ⟨h, by simpa using h⟩

theorem zero_div_cases {s : F32} (h : s.mag = 0) (d : F32) : (s / d).mag = 0 ∨ (s / d).isNaN = true := by
  by_cases hd : d.isNaN = true
  · exact Or.inr (div_nan (Or.inr hd))
  have hs : s.isNaN = false := by rw [isNaN, h]; decide
  have hi : s.isInf = false := by rw [isInf, h]; decide
  have hz : s.isZero = true := by rw [isZero, h]; decide
  rw [div_def, F32.div, if_neg (by simp [hs, hd]), if_neg (by simp [hi]), if_pos hz]
  split
  · exact Or.inl (mag_pack _ (by norm_num))
  · split
    · exact Or.inr (Cfg.nanOp_isNaN _ _ _)
    · left
      rw [mag_pack _ (roundMag_lt _ _), h]
      have : magU 0 = 0 := by decide
      have hp : 0 < magU d.mag := by
        rename_i hz'
        have h0 : d.mag ≠ 0 := by simpa [isZero] using hz'
        unfold magU
        split
        · omega
        · positivity
      rw [this, zero_mul, roundMag, roundBits_zero _ hp]
      rfl

/-- Division of two negated numerators. -/
theorem EqN.neg_div {s s' : F32} (h : EqN s' (-s)) (d : F32) : EqN (s' / d) (-(s / d)) := by
  rcases h.cases with h | ⟨h1, h2⟩
  · exact EqN.of_eqv ((Eqv.div h Eqv.rfl).trans (neg_div_eqv _ _))
  · rw [mag_neg] at h2
    cases hs : s'.sign <;> cases ht : s.sign
    · rw [ext_mag_sign (h1.trans h2.symm) (hs.trans ht.symm)]
      exact EqN.neg_self_zero (zero_div_cases h2 d)
    · rw [show s' = -s from ext_mag_sign (by rw [mag_neg, h1, h2]) (by rw [sign_neg, hs, ht]; rfl)]
      exact EqN.of_eqv (neg_div_eqv _ _)
    · rw [show s' = -s from ext_mag_sign (by rw [mag_neg, h1, h2]) (by rw [sign_neg, hs, ht]; rfl)]
      exact EqN.of_eqv (neg_div_eqv _ _)
    · rw [ext_mag_sign (h1.trans h2.symm) (hs.trans ht.symm)]
      exact EqN.neg_self_zero (zero_div_cases h2 d)

/-- `l'` holds the items of `l` with the opposite sign (up to the sign of zero and the NaN pattern). -/
def Negated {T T' : Type} [IntoF32 T] [IntoF32 T'] (l : List T) (l' : List T') : Prop :=
  List.Forall₂ (fun x x' => EqN (IntoF32.into x') (-(IntoF32.into x))) l l'

section
variable {T T' : Type} [IntoF32 T] [IntoF32 T']

theorem meanLoop_neg {l : List T} {l' : List T'} (h : Negated l l') (k : Int) {s s' : F32} (hs : EqN s' (-s)) :
    (∃ e, meanLoop (l.map IntoF32.into) k s = .error e ∧ meanLoop (l'.map IntoF32.into) k s' = .error e) ∨
    ∃ n t t', meanLoop (l.map IntoF32.into) k s = .ok (n, t) ∧ meanLoop (l'.map IntoF32.into) k s' = .ok (n, t') ∧ EqN t' (-t) := by
  unfold Negated at h
  induction h generalizing k s s' with
  | nil => exact Or.inr ⟨k, s, s', rfl, rfl, hs⟩
  | cons hx _ ih =>
    rw [List.map_cons, List.map_cons, meanLoop, meanLoop]
    rcases i32chk (k + 1) with e | n
    · exact Or.inl ⟨e, rfl, rfl⟩
    · rw [ok_bind, ok_bind]
      exact ih n ((hs.add hx).trans (neg_add_eqN _ _))

/-- **C137, mean of negated data.** Whatever the data, `mean` of the negated data is the negated mean (equal as floats, or both
NaN), and one panics exactly when the other does. -/
theorem C137_mean_neg {l : List T} {l' : List T'} (h : Negated l l') :
    (∃ e, mean (l.map IntoF32.into) = .error e ∧ mean (l'.map IntoF32.into) = .error e) ∨
    ∃ m m', mean (l.map IntoF32.into) = .ok m ∧ mean (l'.map IntoF32.into) = .ok m' ∧ EqN m' (-m) := by
  unfold mean
  rcases meanLoop_neg h 0 (s := posZero) (s' := posZero) (EqN.neg_self_zero (Or.inl rfl)) with ⟨e, h1, h2⟩ | ⟨n, t, t', h1, h2, h3⟩
  · rw [h1, h2]; exact Or.inl ⟨e, rfl, rfl⟩
  · rw [h1, h2]; exact Or.inr ⟨_, _, rfl, rfl, h3.neg_div _⟩

theorem dev_neg {x x' m m' : F32} (hx : EqN x' (-x)) (hm : EqN m' (-m)) : EqN (x' - m') (-(x - m)) :=
  (hx.sub hm).trans (neg_sub_eqN _ _)

theorem sqDev_neg {l : List T} {l' : List T'} (h : Negated l l') {m m' : F32} (hm : EqN m' (-m)) :
    Eqv (sqDev m' (l'.map IntoF32.into)) (sqDev m (l.map IntoF32.into)) := by
  unfold sqDev
  suffices H : ∀ s s' : F32, Eqv s' s → Eqv ((l'.map IntoF32.into).foldl (fun sum item => let n := item - m'; sum + n * n) s')
      ((l.map IntoF32.into).foldl (fun sum item => let n := item - m; sum + n * n) s) from H _ _ Eqv.rfl
  unfold Negated at h
  induction h with
  | nil => intro s s' hs; exact hs
  | cons hx _ ih =>
    intro s s' hs
    rw [List.map_cons, List.map_cons, List.foldl_cons, List.foldl_cons]
    exact ih _ _ (hs.add ((dev_neg hx hm).sq.trans (neg_mul_neg_eqv _ _)))

/-- **C137, variance and stddev of negated data** are those of the data, bit for bit (or both NaN), for any data. -/
theorem C137_variance_neg {l : List T} {l' : List T'} (h : Negated l l') :
    (∃ e, variance l = .error e ∧ variance l' = .error e ∧ stddev l = .error e ∧ stddev l' = .error e) ∨
    ∃ v v' s s', variance l = .ok v ∧ variance l' = .ok v' ∧ Eqv v' v ∧ stddev l = .ok s ∧ stddev l' = .ok s' ∧ Eqv s' s := by
  unfold stddev variance
  rcases C137_mean_neg h with ⟨e, h1, h2⟩ | ⟨m, m', h1, h2, h3⟩
  · rw [h1, h2]; exact Or.inl ⟨e, rfl, rfl, rfl, rfl⟩
  · rw [h1, h2]
    have hv : Eqv (sqDev m' (l'.map IntoF32.into) / (ofInt l'.length - one)) (sqDev m (l.map IntoF32.into) / (ofInt l.length - one)) := by
      rw [← List.Forall₂.length_eq h]
      exact (sqDev_neg h h3).div Eqv.rfl
    exact Or.inr ⟨_, _, _, _, rfl, rfl, hv, rfl, rfl, sqrt_congr hv⟩

omit [Cfg] in
theorem lt_eqv {x y : F32} (h : Eqv x y) (t : F32) : x.lt t = y.lt t := by
  rcases h with ⟨h1, h2⟩ | h
  · unfold F32.lt; rw [h1, h2]; rfl
  · rw [h]

omit [Cfg] in
theorem abs_eqN {x y : F32} (h : EqN x (-y)) : Eqv x.abs y.abs := by
  rcases h with ⟨h1, h2⟩ | h
  · have : y.isNaN = true := by simpa using h2
    exact .of_nan (by rw [isNaN, mag_abs]; exact h1) (by rw [isNaN, mag_abs]; exact this)
  · obtain ⟨-, -, h | ⟨h1, h2⟩⟩ := feq_zero_cases h
    · exact .of_eq (ext_mag_sign (by rw [mag_abs, mag_abs, h, mag_neg]) (by rw [sign_abs, sign_abs]))
    · rw [mag_neg] at h2
      exact .of_eq (ext_mag_sign (by rw [mag_abs, mag_abs, h1, h2]) (by rw [sign_abs, sign_abs]))

omit [Cfg] in
theorem forall₂_filter2 {α β : Type} {R : α → β → Prop} {p : α → Bool} {q : β → Bool} {l : List α} {l' : List β} (h : List.Forall₂ R l l')
    (hp : ∀ x y, R x y → p x = q y) : List.Forall₂ R (l.filter p) (l'.filter q) := by
  induction h with
  | nil => exact List.Forall₂.nil
  | cons hx _ ih =>
    rename_i a b _ _ _
    rw [List.filter_cons, List.filter_cons, hp a b hx]
    split
    · exact List.Forall₂.cons hx ih
    · exact ih

/-- **C137, trim of negated data** keeps the negated items, at the same positions, for any data and threshold. -/
theorem C137_trim_neg {l : List T} {l' : List T'} (h : Negated l l') (t : F32) :
    (Fails (trimAt l t) ∧ Fails (trimAt l' t)) ∨
    ∃ it it', trimAt l t = .ok it ∧ trimAt l' t = .ok it' ∧ Negated (yields it) (yields it') := by
  rcases C137_variance_neg h with ⟨e, -, -, h1, h2⟩ | ⟨v, v', s, s', -, -, -, h1, h2, h3⟩
  · exact Or.inl ⟨(C80_trim_stats l t).2.2 ⟨e, h1⟩, (C80_trim_stats l' t).2.2 ⟨e, h2⟩⟩
  · rcases C137_mean_neg h with ⟨e, m1, m2⟩ | ⟨m, m', m1, m2, m3⟩
    · exfalso
      unfold stddev variance at h1
      rw [m1] at h1; cases h1
    · obtain ⟨it, e1, y1, -⟩ := C78_trim_filter l t m1 h1
      obtain ⟨it', e2, y2, -⟩ := C78_trim_filter l' t m2 h2
      refine Or.inr ⟨it, it', e1, e2, ?_⟩
      rw [y1, y2]
      exact forall₂_filter2 h (fun x y hxy => (lt_eqv ((abs_eqN (dev_neg hxy m3)).div h3) t).symm)

/-! ### Reordering -/

/-- **C137, trim of reordered data**: if the mean is the same float (up to the sign of zero) and the standard deviation has the same
bits, `trim` keeps the same items, in the new order. -/
theorem C137_trim_perm {l l' : List T} (h : l.Perm l') (t : F32) {m m' s : F32} (hm : mean (l.map IntoF32.into) = .ok m)
    (hm' : mean (l'.map IntoF32.into) = .ok m') (e : EqN m' m) (hs : stddev l = .ok s) (hs' : stddev l' = .ok s) :
    ∃ it it', trimAt l t = .ok it ∧ trimAt l' t = .ok it' ∧ (yields it).Perm (yields it') := by
  obtain ⟨it, e1, y1, -⟩ := C78_trim_filter l t hm hs
  obtain ⟨it', e2, y2, -⟩ := C78_trim_filter l' t hm' hs'
  refine ⟨it, it', e1, e2, ?_⟩
  rw [y1, y2]
  have : (fun n : T => ((IntoF32.into n - m').abs / s).lt t) = fun n => ((IntoF32.into n - m).abs / s).lt t := by
    funext n
    refine lt_eqv (Eqv.div (abs_eqN (y := -(IntoF32.into n - m)) ?_ |>.trans ?_) Eqv.rfl) t
    · rw [neg_neg']; exact EqN.rfl.sub e
    · exact .of_eq (ext_mag_sign (by rw [mag_abs, mag_abs, mag_neg]) (by rw [sign_abs, sign_abs]))
  rw [this]
  exact h.filter _

omit [Cfg] [IntoF32 T] [IntoF32 T'] in
theorem qabs_perm {l l' : List ℚ} (h : l.Perm l') : qabs l = qabs l' := (h.map _).sum_eq
omit [Cfg] [IntoF32 T] [IntoF32 T'] in
theorem qmean_perm {l l' : List ℚ} (h : l.Perm l') : qmean l = qmean l' := by rw [qmean, qmean, h.sum_eq, h.length_eq]
omit [Cfg] [IntoF32 T] [IntoF32 T'] in
theorem qvar_perm {l l' : List ℚ} (h : l.Perm l') : qvar l = qvar l' := by
  rw [qvar, qvar, ← qmean_perm h, (h.map _).sum_eq, h.length_eq]

omit [IntoF32 T] [IntoF32 T'] in
/-- **C137, mean of reordered data.** -/
theorem C137_mean_perm {l l' : List F32} (h : l.Perm l') (fl : AllFinite l) (h0 : l ≠ []) (hn : l.length ≤ 2 ^ 23)
    (hA : qabs (l.map val) ≤ 2 ^ 126) :
    ∃ m m', mean l = .ok m ∧ mean l' = .ok m' ∧ m.isFinite = true ∧ m'.isFinite = true ∧
      |m'.val - m.val| ≤ 2 * (((1 + 1 / 2 ^ 24) ^ (l.length + 1) - 1) * (qabs (l.map val) / l.length)) + 1 / 2 ^ 149 := by
  obtain ⟨m, h1, f1, e1⟩ := C94_mean l fl h0 hn hA
  obtain ⟨m', h2, f2, e2⟩ := C94_mean l' (fun x hx => fl x (h.mem_iff.2 hx)) (fun h' => h0 (by rw [h'] at h; exact h.eq_nil))
    (by rw [← h.length_eq]; exact hn) (by rw [← qabs_perm (h.map val)]; exact hA)
  rw [← qabs_perm (h.map val), ← qmean_perm (h.map val), ← h.length_eq] at e2
  refine ⟨m, m', h1, h2, f1, f2, ?_⟩
  have k1 := abs_le.1 e1
  have k2 := abs_le.1 e2
  have k3 : (1 : ℚ) / 2 ^ 149 = 1 / 2 ^ 150 + 1 / 2 ^ 150 := by norm_num
  rw [k3]
  refine abs_le.2 ⟨?_, ?_⟩
  · linarith
  · linarith

/-- **C137, variance of reordered data.** -/
theorem C137_variance_perm {l l' : List T} (h : l.Perm l') (fl : AllFinite (l.map IntoF32.into)) (h2 : 2 ≤ l.length)
    (hn : l.length + 4 ≤ 2 ^ 22) {B : ℚ} (hB : B ≤ 2 ^ 48) (hl : ∀ x ∈ l, |(IntoF32.into x : F32).val| ≤ B) :
    ∃ v v', variance l = .ok v ∧ variance l' = .ok v' ∧ v.isFinite = true ∧ v'.isFinite = true ∧
      |v'.val - v.val| ≤ 2 * ((l.length + 4) / 2 ^ 23 * qvar ((l.map IntoF32.into).map val) +
        3 * ((l.length + 1) / 2 ^ 23 * B + 1 / 2 ^ 150) ^ 2 + 1 / 2 ^ 147) := by
  obtain ⟨v, h1, f1, -, e1⟩ := C95_variance_abs l fl h2 hn hB hl
  have hp : (l.map (IntoF32.into : T → F32)).Perm (l'.map IntoF32.into) := h.map _
  obtain ⟨v', h2, f2, -, e2⟩ := C95_variance_abs l' (fun x hx => fl x (hp.mem_iff.2 hx)) (by rw [← h.length_eq]; exact h2)
    (by rw [← h.length_eq]; exact hn) hB (fun x hx => hl x (h.mem_iff.2 hx))
  rw [← qvar_perm (hp.map val), ← h.length_eq] at e2
  refine ⟨v, v', h1, h2, f1, f2, ?_⟩
  have k1 := abs_le.1 e1
  have k2 := abs_le.1 e2
  refine abs_le.2 ⟨?_, ?_⟩
  · linarith
  · linarith

/-! ### Shifting -/

omit [Cfg] [IntoF32 T] [IntoF32 T'] in
theorem qsum_shift (l : List ℚ) (c : ℚ) : (l.map (· + c)).sum = l.sum + l.length * c := by
  induction l with
  | nil => simp
  | cons x l ih => rw [List.map_cons, List.sum_cons, List.sum_cons, ih, List.length_cons]; push_cast; ring

omit [Cfg] [IntoF32 T] [IntoF32 T'] in
theorem qmean_shift {l : List ℚ} (h : l ≠ []) (c : ℚ) : qmean (l.map (· + c)) = qmean l + c := by
  have : (l.length : ℚ) ≠ 0 := by have := List.length_pos_iff.2 h; positivity
  rw [qmean, qmean, qsum_shift, List.length_map]
  field_simp

omit [Cfg] [IntoF32 T] [IntoF32 T'] in
theorem qvar_shift {l : List ℚ} (h : l ≠ []) (c : ℚ) : qvar (l.map (· + c)) = qvar l := by
  rw [qvar, qvar, qmean_shift h, List.length_map, List.map_map]
  congr 2
  refine List.map_congr_left fun x _ => ?_
  simp only [Function.comp]
  ring

omit [IntoF32 T] [IntoF32 T'] in
/-- **C137, mean of shifted data.** If every item of `l'` is exactly `c` more than the item of `l`, the mean moves by `c`, up to
the rounding errors of the two means. -/
theorem C137_mean_shift {l l' : List F32} {c : ℚ} (h : l'.map val = (l.map val).map (· + c)) (fl : AllFinite l) (fl' : AllFinite l')
    (h0 : l ≠ []) (hn : l.length ≤ 2 ^ 23) (hA : qabs (l.map val) ≤ 2 ^ 126) (hA' : qabs (l'.map val) ≤ 2 ^ 126) :
    ∃ m m', mean l = .ok m ∧ mean l' = .ok m' ∧ m.isFinite = true ∧ m'.isFinite = true ∧
      |m'.val - (m.val + c)| ≤ ((1 + 1 / 2 ^ 24) ^ (l.length + 1) - 1) * ((qabs (l.map val) + qabs (l'.map val)) / l.length) + 1 / 2 ^ 149 := by
  have hlen : l'.length = l.length := by simpa using congrArg List.length h
  have h0' : l' ≠ [] := by rw [← List.length_pos_iff, hlen]; exact List.length_pos_iff.2 h0
  obtain ⟨m, h1, f1, e1⟩ := C94_mean l fl h0 hn hA
  obtain ⟨m', h2, f2, e2⟩ := C94_mean l' fl' h0' (by rw [hlen]; exact hn) hA'
  have hm : qmean (l'.map val) = qmean (l.map val) + c := by rw [h, qmean_shift (by simpa using h0)]
  rw [hm, hlen] at e2
  refine ⟨m, m', h1, h2, f1, f2, ?_⟩
  have k1 := abs_le.1 e1
  have k2 := abs_le.1 e2
  have k3 : (1 : ℚ) / 2 ^ 149 = 1 / 2 ^ 150 + 1 / 2 ^ 150 := by norm_num
  rw [k3, add_div, mul_add]
  refine abs_le.2 ⟨?_, ?_⟩
  · linarith
  · linarith

/-- **C137, variance of shifted data** is the variance of the data, up to the rounding errors of the two variances. -/
theorem C137_variance_shift {l : List T} {l' : List T'} {c : ℚ}
    (h : (l'.map IntoF32.into).map val = ((l.map IntoF32.into).map val).map (· + c)) (fl : AllFinite (l.map IntoF32.into))
    (fl' : AllFinite (l'.map IntoF32.into)) (h2 : 2 ≤ l.length) (hn : l.length + 4 ≤ 2 ^ 22) {B : ℚ} (hB : B ≤ 2 ^ 48)
    (hl : ∀ x ∈ l, |(IntoF32.into x : F32).val| ≤ B) (hl' : ∀ x ∈ l', |(IntoF32.into x : F32).val| ≤ B) :
    ∃ v v', variance l = .ok v ∧ variance l' = .ok v' ∧ v.isFinite = true ∧ v'.isFinite = true ∧
      |v'.val - v.val| ≤ 2 * ((l.length + 4) / 2 ^ 23 * qvar ((l.map IntoF32.into).map val) +
        3 * ((l.length + 1) / 2 ^ 23 * B + 1 / 2 ^ 150) ^ 2 + 1 / 2 ^ 147) := by
  have hlen : l'.length = l.length := by simpa using congrArg List.length h
  have h0 : (l.map (IntoF32.into : T → F32)).map val ≠ [] := by rw [← List.length_pos_iff]; simp; omega
  obtain ⟨v, h1, f1, -, e1⟩ := C95_variance_abs l fl h2 hn hB hl
  obtain ⟨v', h2, f2, -, e2⟩ := C95_variance_abs l' fl' (by omega) (by omega) hB hl'
  rw [h, qvar_shift h0, hlen] at e2
  refine ⟨v, v', h1, h2, f1, f2, ?_⟩
  have k1 := abs_le.1 e1
  have k2 := abs_le.1 e2
  refine abs_le.2 ⟨?_, ?_⟩
  · linarith
  · linarith

end

/-! ### Integer data: exact laws -/

omit [Cfg] in
theorem ints_append {l l' : List F32} {zs zs' : List Int} (h : IsInts l zs) (h' : IsInts l' zs') : IsInts (l ++ l') (zs ++ zs') := by
  unfold IsInts at *
  induction h with
  | nil => exact h'
  | cons hx _ ih => exact .cons hx ih

omit [Cfg] in
theorem natAbs_sum_take (zs : List Int) (k : Nat) : (zs.take k).sum.natAbs ≤ (zs.map Int.natAbs).sum := by
  induction zs generalizing k with
  | nil => simp
  | cons x l ih =>
    rcases k with _ | k
    · simp
    · rw [List.take_succ_cons, List.sum_cons, List.map_cons, List.sum_cons]
      have := ih k
      omega

omit [Cfg] in
theorem partialSums_of_abs {zs : List Int} (h : (zs.map Int.natAbs).sum ≤ 2 ^ 24) : PartialSums 0 zs := fun k => by
  have := natAbs_sum_take zs k
  rw [zero_add]; omega

/-- **C137, repeated data.** Doubling integer data leaves the mean as it is. -/
theorem C137_mean_twice {l : List F32} {zs : List Int} (h : IsInts l zs) (h0 : l ≠ []) (hn : l.length ≤ 2 ^ 23)
    (hs : (zs.map Int.natAbs).sum ≤ 2 ^ 23) :
    ∃ m m', mean l = .ok m ∧ mean (l ++ l) = .ok m' ∧ m'.feq m = true ∧ m.isFinite = true := by
  obtain ⟨m, h1, f1, v1⟩ := C75_mean_int h (partialSums_of_abs (by omega)) h0 (by omega)
  obtain ⟨m', h2, f2, v2⟩ := C75_mean_int (ints_append h h) (partialSums_of_abs (by rw [List.map_append, List.sum_append]; omega))
    (by simpa using h0) (by rw [List.length_append]; omega)
  refine ⟨m, m', h1, h2, (feq_iff f2 f1).2 ?_, f1⟩
  rw [v1, v2, List.sum_append, List.length_append]
  congr 1
  push_cast
  rw [← two_mul, ← two_mul, mul_div_mul_left _ _ two_ne_zero]

/-- Sum of squared deviations of integers, exactly. -/
theorem sqDev_int {l : List F32} {zs : List Int} (h : IsInts l zs) {m : F32} {μ : Int} (hm : IsVal m μ) (s : F32) (z : Nat)
    (hs : IsVal s (z : Int)) (hb : z + (zs.map fun y => (y - μ).natAbs ^ 2).sum ≤ 2 ^ 24) :
    IsVal (l.foldl (fun sum item => let n := item - m; sum + n * n) s) ((z + (zs.map fun y => (y - μ).natAbs ^ 2).sum : Nat) : Int) := by
  unfold IsInts at h
  induction h generalizing s z with
  | nil => simpa using hs
  | @cons x a l zs hx _ ih =>
    rw [List.map_cons, List.sum_cons] at hb ⊢
    rw [List.foldl_cons, ← add_assoc]
    have hd : (a - μ).natAbs ≤ 2 ^ 12 := by
      by_contra hc
      have : (2 ^ 12 + 1) ^ 2 ≤ (a - μ).natAbs ^ 2 := Nat.pow_le_pow_left (by omega) 2
      omega
    have d1 : IsVal (x - m) ((a - μ : Int) : ℚ) := sub_int hx hm (by omega)
    have d2 : IsVal ((x - m) * (x - m)) (((a - μ) * (a - μ) : Int) : ℚ) := mul_int d1 d1 (by
      rw [Int.natAbs_mul]; exact (Nat.mul_le_mul hd hd).trans (by norm_num))
    have e : (a - μ) * (a - μ) = (((a - μ).natAbs ^ 2 : Nat) : Int) := by push_cast; rw [sq_abs, sq]
    rw [e] at d2
    refine ih _ (z + (a - μ).natAbs ^ 2) ?_ (by omega)
    have := add_int hs d2 (by omega)
    push_cast at this ⊢
    exact this

section
variable {T : Type} [IntoF32 T]

omit [Cfg] in
theorem isInts_map {l : List T} {f : T → Int} (hf : ∀ x ∈ l, IsVal (IntoF32.into x) (f x)) :
    IsInts (l.map IntoF32.into) (l.map f) := by
  unfold IsInts
  induction l with
  | nil => exact .nil
  | cons x l ih => exact .cons (hf x (by simp)) (ih fun y hy => hf y (by simp [hy]))

/-- Mean and sum of squared deviations when both are exact. -/
theorem stats_int {l : List T} {f : T → Int} (hf : ∀ x ∈ l, IsVal (IntoF32.into x) (f x)) {μ : Int} (h0 : l ≠ [])
    (hn : l.length ≤ 2 ^ 24) (hμ : (l.map f).sum = μ * l.length) (hs : ((l.map f).map Int.natAbs).sum ≤ 2 ^ 24)
    (hd : ((l.map f).map fun y => (y - μ).natAbs ^ 2).sum ≤ 2 ^ 24) :
    ∃ m, mean (l.map IntoF32.into) = .ok m ∧ IsVal m μ ∧
      IsVal (sqDev m (l.map IntoF32.into)) ((((l.map f).map fun y => (y - μ).natAbs ^ 2).sum : Nat) : Int) := by
  have hi := isInts_map hf
  have hpos := List.length_pos_iff.2 h0
  obtain ⟨m, hm, fm, vm⟩ := C75_mean_int hi (partialSums_of_abs hs) (by simpa using h0) (by simpa using hn)
  have hlq : (l.length : ℚ) ≠ 0 := by positivity
  have hμb : μ.natAbs ≤ 2 ^ 24 := by
    have h1 := natAbs_sum_take (l.map f) (l.map f).length
    rw [List.take_length, hμ, Int.natAbs_mul, Int.natAbs_natCast] at h1
    have h2 : μ.natAbs * 1 ≤ μ.natAbs * l.length := Nat.mul_le_mul_left _ hpos
    omega
  have vm' : IsVal m (μ : ℚ) := by
    refine ⟨fm, ?_⟩
    rw [vm, hμ, List.length_map]
    push_cast
    rw [mul_div_assoc, div_self hlq, mul_one]
    exact RN_of_rep (rep_int hμb)
  refine ⟨m, hm, vm', ?_⟩
  have := sqDev_int hi vm' posZero 0 ⟨fin_posZero, by simpa using val_posZero⟩ (by rw [zero_add]; exact hd)
  rw [zero_add] at this
  exact this

/-- **C137, reordering integer data with an integer mean.** The mean is the same number, variance and standard deviation have the same
bits, and `trim_at` keeps the same items, whatever the order of the data. -/
theorem C137_perm_int {l l' : List T} (h : l.Perm l') {f : T → Int} (hf : ∀ x ∈ l, IsVal (IntoF32.into x) (f x)) {μ : Int} (h0 : l ≠ [])
    (hn : l.length ≤ 2 ^ 24) (hμ : (l.map f).sum = μ * l.length) (hs : ((l.map f).map Int.natAbs).sum ≤ 2 ^ 24)
    (hd : ((l.map f).map fun y => (y - μ).natAbs ^ 2).sum ≤ 2 ^ 24) (t : F32) :
    (∃ m m', mean (l.map IntoF32.into) = .ok m ∧ mean (l'.map IntoF32.into) = .ok m' ∧ IsVal m μ ∧ IsVal m' μ) ∧
    (∃ v s, variance l = .ok v ∧ variance l' = .ok v ∧ stddev l = .ok s ∧ stddev l' = .ok s) ∧
    ∃ it it', trimAt l t = .ok it ∧ trimAt l' t = .ok it' ∧ (yields it).Perm (yields it') := by
  obtain ⟨m, h1, v1, d1⟩ := stats_int hf h0 hn hμ hs hd
  obtain ⟨m', h2, v2, d2⟩ := stats_int (l := l') (f := f) (μ := μ) (fun x hx => hf x (h.mem_iff.2 hx))
    (fun h' => h0 (by rw [h'] at h; exact h.eq_nil)) (by rw [← h.length_eq]; exact hn)
    (by rw [← h.length_eq, ← (h.map f).sum_eq]; exact hμ) (by rw [← ((h.map f).map _).sum_eq]; exact hs)
    (by rw [← ((h.map f).map _).sum_eq]; exact hd)
  rw [← ((h.map f).map _).sum_eq] at d2
  have nn : ∀ {x : F32} {q : ℚ}, IsVal x q → x.isNaN = true → False := by
    intro x q hx hc; rw [not_nan_of_finite hx.1] at hc; cases hc
  have ed : sqDev m' (l'.map IntoF32.into) = sqDev m (l.map IntoF32.into) :=
    eq_of_val_sign (d2.2.trans d1.2.symm)
      (((sqDev_sign _ _).resolve_left (nn d2)).trans ((sqDev_sign _ _).resolve_left (nn d1)).symm)
  have ev : variance l' = variance l := by
    unfold variance; rw [h1, h2, ok_bind, ok_bind, ed, h.length_eq]
  have es : stddev l' = stddev l := by unfold stddev; rw [ev]
  have hv : ∃ v, variance l = .ok v := ⟨_, by unfold variance; rw [h1]; rfl⟩
  obtain ⟨v, hv⟩ := hv
  have hsd := (C77_stddev l).1 v hv
  refine ⟨⟨m, m', h1, h2, v1, v2⟩, ⟨v, _, hv, ev.trans hv, hsd, es.trans hsd⟩, ?_⟩
  exact C137_trim_perm h t h1 h2 (Or.inr ((feq_iff v2.1 v1.1).2 (v2.2.trans v1.2.symm))) hsd (es.trans hsd)

end

/-- **C137, order matters in general**: the mean of `2^24, 1, -2^24` is `0`, but that of `2^24, -2^24, 1` is the float nearest to
`1/3`. -/
theorem C137_mean_perm_false :
    mean [⟨0x4b800000#32⟩, one, ⟨0xcb800000#32⟩] = .ok posZero ∧
    mean [⟨0x4b800000#32⟩, ⟨0xcb800000#32⟩, one] = .ok ⟨0x3eaaaaab#32⟩ := by
  constructor
  · rw [C75_mean _ (by simp)]; congr 1; exact eval_eq (by kernel_rfl)
  · rw [C75_mean _ (by simp)]; congr 1; exact eval_eq (by kernel_rfl)

/-- **C137, a case.** The items `1, 2, 3, 10`, in two orders: the mean is `4` both times and the variance has the same bits. -/
theorem C137_case :
    let l : List F32 := [ofInt 1, ofInt 2, ofInt 3, ofInt 10]
    let l' : List F32 := [ofInt 10, ofInt 1, ofInt 2, ofInt 3]
    l.Perm l' ∧ (∃ m m', mean l = .ok m ∧ mean l' = .ok m' ∧ IsVal m 4 ∧ IsVal m' 4) ∧
    ∃ v, variance l = .ok v ∧ variance l' = .ok v := by
  intro l l'
  have i1 : IsVal (ofInt 1) (1 : Int) := ofInt_isVal (by decide)
  have i2 : IsVal (ofInt 2) (2 : Int) := ofInt_isVal (by decide)
  have i3 : IsVal (ofInt 3) (3 : Int) := ofInt_isVal (by decide)
  have i4 : IsVal (ofInt 10) (10 : Int) := ofInt_isVal (by decide)
  have hp : l.Perm l' := (List.perm_append_singleton (ofInt 10) [ofInt 1, ofInt 2, ofInt 3])
  have hmap : l.map (fun x => ⌊x.val⌋) = [1, 2, 3, 10] := by
    show [⌊(ofInt 1).val⌋, ⌊(ofInt 2).val⌋, ⌊(ofInt 3).val⌋, ⌊(ofInt 10).val⌋] = _
    rw [i1.2, i2.2, i3.2, i4.2, Int.floor_intCast, Int.floor_intCast, Int.floor_intCast, Int.floor_intCast]
  have hf : ∀ x ∈ l, IsVal (IntoF32.into x : F32) ((⌊x.val⌋ : Int) : ℚ) := by
    have key : ∀ {x : F32} {z : Int}, IsVal x z → IsVal (IntoF32.into x : F32) ((⌊x.val⌋ : Int) : ℚ) := by
      intro x z hx
      rw [hx.2, Int.floor_intCast]; exact hx
    intro x hx
    simp only [l, List.mem_cons, List.not_mem_nil, or_false] at hx
    rcases hx with rfl | rfl | rfl | rfl
    · exact key i1
    · exact key i2
    · exact key i3
    · exact key i4
  obtain ⟨⟨m, m', h1, h2, v1, v2⟩, ⟨v, s, h3, h4, -⟩, -⟩ := C137_perm_int hp hf (μ := 4) (by simp [l]) (by simp [l])
    (by rw [hmap]; rfl) (by rw [hmap]; decide) (by rw [hmap]; decide) one
  have el : ∀ k : List F32, k.map (IntoF32.into : F32 → F32) = k := fun k => List.map_id' k
  rw [el] at h1 h2
  exact ⟨hp, ⟨m, m', h1, h2, by exact_mod_cast v1, by exact_mod_cast v2⟩, v, h3, h4⟩

end Micromath.Props
