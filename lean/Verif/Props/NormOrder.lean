import Verif.Props.RoundOrder
import Verif.Props.VecNorm
import Verif.Props.AtanAll

/-!
# C103: `hypot`, `Vector::magnitude` and `Quaternion::magnitude` on every argument

Order, range, overflow and underflow.
-/

set_option exponentiation.threshold 1000

namespace Micromath.Props
open F32 Spec
variable [Cfg]

/-! ### sums of squares in terms of magnitudes -/

/-- Magnitude bits of the sum of two nonnegative floats. -/
def addM (m n : Nat) : Nat := min (rbits (mval m + mval n)) infMag

/-- Magnitude bits of the square. -/
def sqM (m : Nat) : Nat := min (rbits (mval m * mval m)) infMag

omit [Cfg] in
theorem addM_le (m n : Nat) : addM m n ≤ infMag := min_le_right _ _

omit [Cfg] in
theorem sqM_le (m : Nat) : sqM m ≤ infMag := min_le_right _ _

omit [Cfg] in
theorem addM_mono {m m' n n' : Nat} (hm : m ≤ m') (hn : n ≤ n') : addM m n ≤ addM m' n' := by
  refine min_le_min_right _ (rbits_mono ?_)
  have h1 := mval_nonneg m
  have h2 := mval_nonneg n
  have h3 := mval_le.2 hm
  have h4 := mval_le.2 hn
  rw [abs_of_nonneg (by linarith), abs_of_nonneg (by linarith)]
  linarith

omit [Cfg] in
theorem sqM_mono {m m' : Nat} (hm : m ≤ m') : sqM m ≤ sqM m' := by
  refine min_le_min_right _ (rbits_mono ?_)
  have h1 := mval_nonneg m
  have h3 := mval_le.2 hm
  rw [abs_of_nonneg (by positivity), abs_of_nonneg (mul_nonneg (h1.trans h3) (h1.trans h3))]
  exact mul_le_mul h3 h3 h1 (h1.trans h3)

omit [Cfg] in
theorem le_addM {m n : Nat} (hm : m ≤ infMag) : m ≤ addM m n ∧ m ≤ addM n m := by
  have h1 := mval_nonneg m
  have h2 := mval_nonneg n
  constructor
  · refine le_min ?_ hm
    conv_lhs => rw [← rbits_mval m]
    refine rbits_mono ?_
    rw [abs_of_nonneg h1, abs_of_nonneg (by linarith)]; linarith
  · refine le_min ?_ hm
    conv_lhs => rw [← rbits_mval m]
    refine rbits_mono ?_
    rw [abs_of_nonneg h1, abs_of_nonneg (by linarith)]; linarith

theorem nn_sq {x : F32} (hx : x.isNaN = false) : x * x = pack false (sqM x.mag) := by
  rcases class_cases x with f | f | f
  · rw [mul_finite f f]
    have hs : (x.sign != x.sign) = false := by simp
    have hq : x.val * x.val = mval x.mag * mval x.mag := by rw [← abs_val, abs_mul_abs_self]
    rw [hs, hq]; rfl
  · rw [sq_overflow (.inl f)]
    have hm : x.mag = infMag := by simpa [isInf] using f
    rw [hm]
    have : sqM infMag = infMag := by
      refine le_antisymm (sqM_le _) (le_min ?_ le_rfl)
      by_contra hc
      rw [not_le, rbits_lt_inf_iff, mval_infMag] at hc
      norm_num [ovf] at hc
    rw [this]; rfl
  · rw [hx] at f; cases f

theorem nn_add {x y : F32} (hx : x.isNaN = false) (hxs : x.sign = false ∨ x.mag = 0) (hy : y.isNaN = false)
    (hys : y.sign = false) : x + y = pack false (addM x.mag y.mag) := by
  have vx : x.val = mval x.mag := by
    rcases hxs with h | h
    · exact val_of_pos h
    · rw [val_eq, h]; simp
  have vy : y.val = mval y.mag := val_of_pos hys
  have hinf : ∀ m n : Nat, infMag ≤ m ∨ infMag ≤ n → addM m n = infMag := by
    intro m n h
    refine le_antisymm (addM_le _ _) (le_min ?_ le_rfl)
    by_contra hc
    rw [not_le, rbits_lt_inf_iff, abs_of_nonneg (add_nonneg (mval_nonneg _) (mval_nonneg _))] at hc
    have h1 := mval_nonneg m
    have h2 := mval_nonneg n
    have : ovf < 2 ^ 128 := by norm_num [ovf]
    rcases h with h | h
    · have := mval_le.2 h; rw [mval_infMag] at this; linarith
    · have := mval_le.2 h; rw [mval_infMag] at this; linarith
  have infcase : x.isInf = true ∨ y.isInf = true → x + y = pack false (addM x.mag y.mag) := by
    intro hi
    have hm : infMag ≤ x.mag ∨ infMag ≤ y.mag := by
      rcases hi with h | h
      · left; simp [isInf] at h; omega
      · right; simp [isInf] at h; omega
    rw [hinf _ _ hm]
    show F32.add x y = _
    unfold F32.add addAs
    rw [hx, hy]
    cases h1 : x.isInf
    · have h2 : y.isInf = true := hi.resolve_left (by rw [h1]; simp)
      simp [h2]
      rw [eq_pack_of_inf h2, hys]
    · have hs : x.sign = false := by
        refine hxs.resolve_right ?_
        simp [isInf] at h1
        rw [h1]; decide
      rw [hys, hs]
      simp
      rw [eq_pack_of_inf h1, hs]
  rcases class_cases x with fx | fx | fx
  · rcases class_cases y with fy | fy | fy
    · rw [add_def, addAs_finite _ fx fy, hys, vx, vy]
      have h1 := mval_nonneg x.mag
      have h2 := mval_nonneg y.mag
      unfold addM
      split
      · rename_i h0
        rw [h0]; simp; rfl
      · rw [decide_eq_false (by linarith)]
    · exact infcase (.inr fy)
    · rw [hy] at fy; cases fy
  · exact infcase (.inl fx)
  · rw [hx] at fx; cases fx

omit [Cfg] in
theorem nn_pack {m : Nat} (hm : m ≤ infMag) :
    (pack false m).isNaN = false ∧ (pack false m).sign = false ∧ (pack false m).mag = m := by
  have h : m < 2 ^ 31 := lt_of_le_of_lt hm infMag_lt
  refine ⟨?_, sign_pack _ h, mag_pack _ h⟩
  rw [isNaN, mag_pack _ h]; simpa using hm

theorem nn_sqrt {m : Nat} (hm : m ≤ infMag) : (pack false m).sqrt = pack false ((m + 0x3f800000) / 2) := by
  obtain ⟨h1, h2, h3⟩ := nn_pack hm
  have hi : infMag = 255 * 2 ^ 23 := by decide
  have hs := sqrt_toNat ((ge_zero_iff _).2 ⟨h1, .inl h2⟩)
  rw [toNat_eq (pack false m), h2, h3] at hs
  simp only [Bool.false_eq_true, if_false, add_zero] at hs
  refine eq_pack_of_toNat (by omega) ?_
  rw [hs]; simp

theorem hypot_eq {x y : F32} (hx : x.isNaN = false) (hy : y.isNaN = false) :
    x.hypot y = pack false ((addM (sqM x.mag) (sqM y.mag) + 0x3f800000) / 2) := by
  obtain ⟨a1, a2, a3⟩ := nn_pack (sqM_le x.mag)
  obtain ⟨b1, b2, b3⟩ := nn_pack (sqM_le y.mag)
  unfold F32.hypot
  rw [nn_sq hx, nn_sq hy, nn_add a1 (.inl a2) b1 b2, a3, b3, nn_sqrt (addM_le _ _)]

/-- Folding squares into an accumulator. -/
theorem sumSq_fold (l : List F32) (hl : ∀ x ∈ l, x.isNaN = false) (a : F32) (ha : a.isNaN = false)
    (has : a.sign = false ∨ a.mag = 0) (hm : a.mag ≤ infMag) :
    ((l.map fun x => x * x).foldl (· + ·) a).isNaN = false ∧
    (((l.map fun x => x * x).foldl (· + ·) a).sign = false ∨ l = []) ∧
    ((l.map fun x => x * x).foldl (· + ·) a).mag = l.foldl (fun m x => addM m (sqM x.mag)) a.mag ∧
    l.foldl (fun m x => addM m (sqM x.mag)) a.mag ≤ infMag := by
  induction l generalizing a with
  | nil => exact ⟨ha, .inr rfl, rfl, hm⟩
  | cons x l ih =>
    obtain ⟨b1, b2, b3⟩ := nn_pack (sqM_le x.mag)
    obtain ⟨c1, c2, c3⟩ := nn_pack (addM_le a.mag (sqM x.mag))
    have e : a + x * x = pack false (addM a.mag (sqM x.mag)) := by
      rw [nn_sq (hl x (by simp)), nn_add ha has b1 b2, b3]
    obtain ⟨i1, i2, i3, i4⟩ := ih (fun y hy => hl y (by simp [hy])) (a + x * x) (by rw [e]; exact c1) (.inl (by rw [e]; exact c2))
      (by rw [e, c3]; exact addM_le _ _)
    simp only [List.map_cons, List.foldl_cons]
    rw [e, c3] at i3 i4
    rw [e] at i1 i2 ⊢
    refine ⟨i1, .inl ?_, i3, i4⟩
    rcases i2 with h | h
    · exact h
    · rw [h]; exact c2

/-- `sqrt` of a nonempty sum of squares. -/
theorem sqrt_sumSq {l : List F32} (hl : ∀ x ∈ l, x.isNaN = false) (hne : l ≠ []) :
    (F32.sum (l.map fun x => x * x)).sqrt =
      pack false ((l.foldl (fun m x => addM m (sqM x.mag)) 0 + 0x3f800000) / 2) := by
  have hz : Cfg.sumZero.isNaN = false ∧ Cfg.sumZero.mag = 0 := by
    rcases Cfg.sumZero_spec with h | h <;> rw [h] <;> exact ⟨by decide, by decide⟩
  obtain ⟨h1, h2, h3, h4⟩ := sumSq_fold l hl Cfg.sumZero hz.1 (.inr hz.2) (by rw [hz.2]; exact Nat.zero_le _)
  rw [hz.2] at h3 h4
  have hs := h2.resolve_right hne
  unfold F32.sum
  generalize (l.map fun x => x * x).foldl (· + ·) Cfg.sumZero = S at *
  have : S = pack false (l.foldl (fun m x => addM m (sqM x.mag)) 0) := by
    rw [← h3, ← hs, pack_sign_mag]
  rw [this, nn_sqrt h4]

omit [Cfg] in
theorem foldM_mono {l l' : List F32} (h : List.Forall₂ (fun x y => x.mag ≤ y.mag) l l') {a a' : Nat} (ha : a ≤ a') :
    l.foldl (fun m x => addM m (sqM x.mag)) a ≤ l'.foldl (fun m x => addM m (sqM x.mag)) a' := by
  induction h generalizing a a' with
  | nil => exact ha
  | cons h _ ih => exact ih (addM_mono ha (sqM_mono h))

omit [Cfg] in
theorem foldM_le (l : List F32) {a : Nat} (ha : a ≤ infMag) : a ≤ l.foldl (fun m x => addM m (sqM x.mag)) a ∧
    l.foldl (fun m x => addM m (sqM x.mag)) a ≤ infMag := by
  induction l generalizing a with
  | nil => exact ⟨le_rfl, ha⟩
  | cons x l ih =>
    obtain ⟨h1, h2⟩ := ih (addM_le a (sqM x.mag))
    exact ⟨(le_addM ha).1.trans h1, h2⟩

omit [Cfg] in
theorem foldM_inf (l : List F32) {a : Nat} (ha : a ≤ infMag) (h : ∃ x ∈ l, sqM x.mag = infMag) :
    l.foldl (fun m x => addM m (sqM x.mag)) a = infMag := by
  induction l generalizing a with
  | nil => simp at h
  | cons x l ih =>
    obtain ⟨y, hy, hv⟩ := h
    simp only [List.foldl_cons]
    rcases List.mem_cons.1 hy with rfl | hy
    · have e : addM a (sqM y.mag) = infMag := by
        refine le_antisymm (addM_le _ _) ?_
        rw [hv]; exact (le_addM (n := a) (le_refl infMag)).2
      rw [e]
      exact le_antisymm (foldM_le l le_rfl).2 (foldM_le l le_rfl).1
    · exact ih (addM_le _ _) ⟨y, hy, hv⟩

omit [Cfg] in
theorem foldM_zero (l : List F32) (h : ∀ x ∈ l, sqM x.mag = 0) : l.foldl (fun m x => addM m (sqM x.mag)) 0 = 0 := by
  induction l with
  | nil => rfl
  | cons x l ih =>
    have e : addM 0 0 = 0 := by unfold addM; simp
    simp only [List.foldl_cons]
    rw [h x (by simp), e]
    exact ih fun y hy => h y (by simp [hy])

omit [Cfg] in
theorem sqM_huge {x : F32} (h : (2 : ℚ) ^ 64 ≤ |x.val|) : sqM x.mag = infMag := by
  refine le_antisymm (sqM_le _) (le_min ?_ le_rfl)
  by_contra hc
  rw [not_le, rbits_lt_inf_iff, ← abs_val, abs_of_nonneg (by positivity)] at hc
  have : (2 : ℚ) ^ 64 * 2 ^ 64 ≤ |x.val| * |x.val| := mul_le_mul h h (by norm_num) (abs_nonneg _)
  norm_num [ovf] at hc this
  linarith

omit [Cfg] in
theorem sqM_tiny {x : F32} (h : |x.val| ≤ 1 / 2 ^ 75) : sqM x.mag = 0 := by
  have h1 : RN (|x.val| * |x.val|) = 0 := by
    refine le_antisymm ?_ (RN_nonneg (by positivity))
    have h2 : |x.val| * |x.val| ≤ 1 / 2 ^ 150 := by
      refine (mul_le_mul h h (abs_nonneg _) (by norm_num)).trans (by norm_num)
    have h3 := RN_mono h2
    have h4 : RN (1 / 2 ^ 150) = 0 := by
      unfold RN
      have : rbits (1 / 2 ^ 150) = 0 := by
        rw [rbits_eq (u := 1) (d := 2) (by norm_num)]
        · decide +kernel
        · rw [abs_of_pos (by positivity)]; norm_num
      rw [this]; simp
    linarith
  unfold RN at h1
  rw [if_neg (by have := abs_nonneg x.val; nlinarith [mul_nonneg this this])] at h1
  have h2 : rbits (|x.val| * |x.val|) = 0 := by
    have : mval (rbits (|x.val| * |x.val|)) = mval 0 := by rw [h1]; simp
    exact mval_inj.1 this
  unfold sqM
  rw [← abs_val, h2]; simp

/-! ### results of the form `sqrt(sum of squares)` -/

omit [Cfg] in
/-- The range of the half-magnitude map of `sqrt`. -/
theorem root_range {m : Nat} (hm : m ≤ infMag) :
    (pack false ((m + 0x3f800000) / 2)).isFinite = true ∧ (pack false ((m + 0x3f800000) / 2)).isSignNegative = false ∧
    3 / 2 ^ 65 ≤ (pack false ((m + 0x3f800000) / 2)).val ∧ (pack false ((m + 0x3f800000) / 2)).val ≤ 2 ^ 64 := by
  have hi : infMag = 255 * 2 ^ 23 := by decide
  have hlt : (m + 0x3f800000) / 2 < 2 ^ 31 := by omega
  have v1 : (⟨0x1fc00000#32⟩ : F32).val = 3 / 2 ^ 65 := by
    rw [val_of_units (u := 3 * 2 ^ 84) (by decide +kernel)]; norm_num
  have v2 : (⟨0x5f800000#32⟩ : F32).val = 2 ^ 64 := by
    rw [val_of_units (u := 2 ^ 213) (by decide +kernel)]; norm_num
  refine ⟨?_, by rw [isSignNegative, sign_pack _ hlt], ?_, ?_⟩
  · rw [isFinite_iff, mag_pack _ hlt]; omega
  · rw [← v1, val_of_pos (x := ⟨0x1fc00000#32⟩) (by decide), val_of_pos (sign_pack _ hlt), mag_pack _ hlt,
      show (⟨0x1fc00000#32⟩ : F32).mag = 0x1fc00000 by decide, mval_le]
    omega
  · rw [← v2, val_of_pos (x := ⟨0x5f800000#32⟩) (by decide), val_of_pos (sign_pack _ hlt), mag_pack _ hlt,
      show (⟨0x5f800000#32⟩ : F32).mag = 0x5f800000 by decide, mval_le]
    omega

omit [Cfg] in
theorem root_mono {m m' : Nat} (hm : m ≤ m') (hm' : m' ≤ infMag) :
    (pack false ((m + 0x3f800000) / 2)).le (pack false ((m' + 0x3f800000) / 2)) = true := by
  have hi : infMag = 255 * 2 ^ 23 := by decide
  rw [le_iff (root_range (hm.trans hm')).1 (root_range hm').1, val_of_pos (sign_pack _ (by omega)),
    val_of_pos (sign_pack _ (by omega)), mag_pack _ (by omega), mag_pack _ (by omega), mval_le]
  omega

omit [Cfg] in
theorem mag_le_of_abs {x y : F32} (h : x.abs.le y.abs = true) : x.isNaN = false ∧ y.isNaN = false ∧ x.mag ≤ y.mag := by
  obtain ⟨hx, hy⟩ := nan_of_le h
  rw [le_val_iff hx hy, val_abs, val_abs, abs_val, abs_val, mval_le] at h
  exact ⟨by simpa using hx, by simpa using hy, h⟩

theorem root_nan {S : F32} (h : S.isNaN = true) : S.sqrt.isNaN = true := ((C15_sqrt S).2.1).2 (.inl h)

/-! ### `hypot` -/

/-- **C103, `hypot` on every pair.** NaN exactly if an argument is; otherwise finite, between `3 * 2^-65` and `2^64`. -/
theorem C103_hypot_range (x y : F32) :
    ((x.hypot y).isNaN = true ↔ x.isNaN = true ∨ y.isNaN = true) ∧
    (x.isNaN = false → y.isNaN = false →
      (x.hypot y).isFinite = true ∧ (x.hypot y).isSignNegative = false ∧ 3 / 2 ^ 65 ≤ (x.hypot y).val ∧ (x.hypot y).val ≤ 2 ^ 64) := by
  have h2 : x.isNaN = false → y.isNaN = false → _ := fun hx hy => by
    have := root_range (addM_le (sqM x.mag) (sqM y.mag))
    rw [← hypot_eq hx hy] at this
    exact this
  refine ⟨⟨fun h => ?_, fun h => ?_⟩, h2⟩
  · by_contra hc
    rw [not_or, Bool.not_eq_true, Bool.not_eq_true] at hc
    have := (h2 hc.1 hc.2).1
    rw [not_finite_of_nan h] at this; cases this
  · refine root_nan (add_nan ?_)
    rcases h with h | h
    · exact .inl (mul_nan (.inl h))
    · exact .inr (mul_nan (.inl h))

/-- **C103, `hypot` is monotone** in the magnitudes of both arguments: zeros, subnormals, overflow, infinities included. -/
theorem C103_hypot_monotone {x y x' y' : F32} (hx : x.abs.le x'.abs = true) (hy : y.abs.le y'.abs = true) :
    (x.hypot y).le (x'.hypot y') = true := by
  obtain ⟨a1, a2, a3⟩ := mag_le_of_abs hx
  obtain ⟨b1, b2, b3⟩ := mag_le_of_abs hy
  rw [hypot_eq a1 b1, hypot_eq a2 b2]
  exact root_mono (addM_mono (sqM_mono a3) (sqM_mono b3)) (addM_le _ _)

/-- **C103, overflow**: if an argument is at least `2^64` in magnitude or infinite, `hypot` is exactly `2^64` (the std
contract gives `+inf` for infinite arguments, and at least the larger magnitude otherwise). -/
theorem C103_hypot_huge {x y : F32} (hx : x.isNaN = false) (hy : y.isNaN = false)
    (h : x.isInf = true ∨ y.isInf = true ∨ 2 ^ 64 ≤ |x.val| ∨ 2 ^ 64 ≤ |y.val|) : x.hypot y = ⟨0x5f800000#32⟩ := by
  have hv : ∀ z : F32, z.isInf = true → (2 : ℚ) ^ 64 ≤ |z.val| := by
    intro z hz
    have : z.mag = infMag := by simpa [isInf] using hz
    rw [abs_val, this, mval_infMag]; norm_num
  have h' : sqM x.mag = infMag ∨ sqM y.mag = infMag := by
    rcases h with h | h | h | h
    · exact .inl (sqM_huge (hv _ h))
    · exact .inr (sqM_huge (hv _ h))
    · exact .inl (sqM_huge h)
    · exact .inr (sqM_huge h)
  have e : addM (sqM x.mag) (sqM y.mag) = infMag := by
    refine le_antisymm (addM_le _ _) ?_
    rcases h' with h | h <;> rw [h]
    · exact (le_addM (m := infMag) le_rfl).1
    · exact (le_addM (m := infMag) le_rfl).2
  rw [hypot_eq hx hy, e]
  decide

/-- **C103, underflow**: if both arguments are at most `2^-75` in magnitude (both zero, say), `hypot` is `3 * 2^-65`. -/
theorem C103_hypot_tiny {x y : F32} (hx : x.isNaN = false) (hy : y.isNaN = false) (h1 : |x.val| ≤ 1 / 2 ^ 75)
    (h2 : |y.val| ≤ 1 / 2 ^ 75) : x.hypot y = ⟨0x1fc00000#32⟩ := by
  rw [hypot_eq hx hy, sqM_tiny h1, sqM_tiny h2, show addM 0 0 = 0 by unfold addM; simp]
  decide

/-- The hypotheses: `1 <= 2` and `-0 <= +inf` in magnitude; the zeros; an infinity. -/
example : one.abs.le (ofInt 2).abs = true ∧ negZero.abs.le posInf.abs = true ∧ negZero.isNaN = false ∧
    |negZero.val| ≤ 1 / 2 ^ 75 ∧ posInf.isInf = true := by
  refine ⟨by decide +kernel, by decide, by decide, ?_, by decide⟩
  rw [val_negZero]; norm_num

/-! ### `Vector::magnitude` -/

/-- A NaN item makes the sum of squares NaN. -/
theorem sumSq_nan (l : List F32) (a : F32) (h : a.isNaN = true ∨ ∃ x ∈ l, x.isNaN = true) :
    ((l.map fun x => x * x).foldl (· + ·) a).isNaN = true := by
  induction l generalizing a with
  | nil => simpa using h
  | cons x l ih =>
    simp only [List.map_cons, List.foldl_cons]
    refine ih _ ?_
    rcases h with h | ⟨y, hy, hv⟩
    · exact .inl (add_nan (.inl h))
    · rcases List.mem_cons.1 hy with rfl | hy
      · exact .inl (add_nan (.inr (mul_nan (.inl hv))))
      · exact .inr ⟨y, hy, hv⟩

theorem norm_range {l : List F32} (hne : l ≠ []) :
    ((F32.sum (l.map fun x => x * x)).sqrt.isNaN = true ↔ ∃ x ∈ l, x.isNaN = true) ∧
    ((∀ x ∈ l, x.isNaN = false) → (F32.sum (l.map fun x => x * x)).sqrt.isFinite = true ∧
      (F32.sum (l.map fun x => x * x)).sqrt.isSignNegative = false ∧
      3 / 2 ^ 65 ≤ (F32.sum (l.map fun x => x * x)).sqrt.val ∧ (F32.sum (l.map fun x => x * x)).sqrt.val ≤ 2 ^ 64) := by
  have h2 : (∀ x ∈ l, x.isNaN = false) → _ := fun hl => by
    have := root_range (foldM_le l (a := 0) (Nat.zero_le _)).2
    rw [← sqrt_sumSq hl hne] at this
    exact this
  refine ⟨⟨fun h => ?_, fun h => root_nan (sumSq_nan l _ (.inr h))⟩, h2⟩
  by_contra hc
  push Not at hc
  have := (h2 (by simpa using hc)).1
  rw [not_finite_of_nan h] at this; cases this

theorem norm_mono {l l' : List F32} (hne : l ≠ []) (h : List.Forall₂ (fun x y => x.abs.le y.abs = true) l l') :
    (F32.sum (l.map fun x => x * x)).sqrt.le (F32.sum (l'.map fun x => x * x)).sqrt = true := by
  have hne' : l' ≠ [] := by
    intro e; rw [e] at h; cases h; exact hne rfl
  have hl : (∀ x ∈ l, x.isNaN = false) ∧ ∀ x ∈ l', x.isNaN = false := by
    clear hne hne'
    induction h with
    | nil => simp
    | cons hxy _ ih =>
      obtain ⟨h1, h2, -⟩ := mag_le_of_abs hxy
      exact ⟨List.forall_mem_cons.2 ⟨h1, ih.1⟩, List.forall_mem_cons.2 ⟨h2, ih.2⟩⟩
  obtain ⟨hl, hl'⟩ := hl
  rw [sqrt_sumSq hl hne, sqrt_sumSq hl' hne']
  refine root_mono (foldM_mono (h.imp fun _ _ h => (mag_le_of_abs h).2.2) le_rfl) (foldM_le _ (Nat.zero_le _)).2

theorem norm_huge {l : List F32} (hl : ∀ x ∈ l, x.isNaN = false) (h : ∃ x ∈ l, 2 ^ 64 ≤ |x.val|) :
    (F32.sum (l.map fun x => x * x)).sqrt = ⟨0x5f800000#32⟩ := by
  have hne : l ≠ [] := by rintro rfl; simp at h
  obtain ⟨x, hx, hv⟩ := h
  rw [sqrt_sumSq hl hne, foldM_inf l (Nat.zero_le _) ⟨x, hx, sqM_huge hv⟩]
  decide

theorem norm_tiny {l : List F32} (hne : l ≠ []) (hl : ∀ x ∈ l, x.isNaN = false ∧ |x.val| ≤ 1 / 2 ^ 75) :
    (F32.sum (l.map fun x => x * x)).sqrt = ⟨0x1fc00000#32⟩ := by
  rw [sqrt_sumSq (fun x hx => (hl x hx).1) hne, foldM_zero l fun x hx => sqM_tiny (hl x hx).2]
  decide

section
variable {C : Type} [Component C] [IntoF32 C]

/-- The components of a vector as floats. -/
def floats2 (v : Vector2d C) : List F32 := [IntoF32.into v.x, IntoF32.into v.y]
/-- The components of a vector as floats. -/
def floats3 (v : Vector3d C) : List F32 := [IntoF32.into v.x, IntoF32.into v.y, IntoF32.into v.z]

theorem magnitude2_eq (v : Vector2d C) : VectorTrait.magnitude v = (F32.sum ((floats2 v).map fun x => x * x)).sqrt := rfl
theorem magnitude3_eq (v : Vector3d C) : VectorTrait.magnitude v = (F32.sum ((floats3 v).map fun x => x * x)).sqrt := rfl

/-- **C103, `magnitude` on every vector**, for every component type: NaN exactly if a component is NaN, otherwise
finite and between `3 * 2^-65` and `2^64`. -/
theorem C103_magnitude_range (v : Vector2d C) (w : Vector3d C) :
    ((VectorTrait.magnitude v).isNaN = true ↔ ∃ x ∈ floats2 v, x.isNaN = true) ∧
    ((VectorTrait.magnitude w).isNaN = true ↔ ∃ x ∈ floats3 w, x.isNaN = true) ∧
    ((VectorTrait.magnitude v).isNaN = false → (VectorTrait.magnitude v).isFinite = true ∧
      3 / 2 ^ 65 ≤ (VectorTrait.magnitude v).val ∧ (VectorTrait.magnitude v).val ≤ 2 ^ 64) ∧
    ((VectorTrait.magnitude w).isNaN = false → (VectorTrait.magnitude w).isFinite = true ∧
      3 / 2 ^ 65 ≤ (VectorTrait.magnitude w).val ∧ (VectorTrait.magnitude w).val ≤ 2 ^ 64) := by
  have key : ∀ l : List F32, l ≠ [] → (F32.sum (l.map fun x => x * x)).sqrt.isNaN = false →
      (F32.sum (l.map fun x => x * x)).sqrt.isFinite = true ∧
      3 / 2 ^ 65 ≤ (F32.sum (l.map fun x => x * x)).sqrt.val ∧ (F32.sum (l.map fun x => x * x)).sqrt.val ≤ 2 ^ 64 := by
    intro l hne h
    obtain ⟨h1, h2⟩ := norm_range hne
    obtain ⟨a, -, b, c⟩ := h2 (by
      intro x hx
      by_contra hc
      rw [h1.2 ⟨x, hx, by simpa using hc⟩] at h; cases h)
    exact ⟨a, b, c⟩
  rw [magnitude2_eq, magnitude3_eq]
  exact ⟨(norm_range (by simp [floats2])).1, (norm_range (by simp [floats3])).1, key _ (by simp [floats2]),
    key _ (by simp [floats3])⟩

/-- **C103, `magnitude` is monotone** in the magnitudes of the components. -/
theorem C103_magnitude_monotone (v v' : Vector2d C) (w w' : Vector3d C) :
    ((IntoF32.into v.x : F32).abs.le (IntoF32.into v'.x : F32).abs = true →
      (IntoF32.into v.y : F32).abs.le (IntoF32.into v'.y : F32).abs = true →
      (VectorTrait.magnitude v).le (VectorTrait.magnitude v') = true) ∧
    ((IntoF32.into w.x : F32).abs.le (IntoF32.into w'.x : F32).abs = true →
      (IntoF32.into w.y : F32).abs.le (IntoF32.into w'.y : F32).abs = true →
      (IntoF32.into w.z : F32).abs.le (IntoF32.into w'.z : F32).abs = true →
      (VectorTrait.magnitude w).le (VectorTrait.magnitude w') = true) := by
  constructor
  · intro h1 h2
    exact norm_mono (l := floats2 v) (l' := floats2 v') (by simp [floats2]) (.cons h1 (.cons h2 .nil))
  · intro h1 h2 h3
    exact norm_mono (l := floats3 w) (l' := floats3 w') (by simp [floats3]) (.cons h1 (.cons h2 (.cons h3 .nil)))

/-- **C103, overflow and underflow of `magnitude`**: exactly `2^64` if a component is at least `2^64` in magnitude (or
infinite, `val` being `2^128` there), exactly `3 * 2^-65` if all are at most `2^-75`. -/
theorem C103_magnitude_extreme (v : Vector2d C) (w : Vector3d C) :
    ((∀ x ∈ floats2 v, x.isNaN = false) → (∃ x ∈ floats2 v, 2 ^ 64 ≤ |x.val|) → VectorTrait.magnitude v = ⟨0x5f800000#32⟩) ∧
    ((∀ x ∈ floats3 w, x.isNaN = false) → (∃ x ∈ floats3 w, 2 ^ 64 ≤ |x.val|) → VectorTrait.magnitude w = ⟨0x5f800000#32⟩) ∧
    ((∀ x ∈ floats2 v, x.isNaN = false ∧ |x.val| ≤ 1 / 2 ^ 75) → VectorTrait.magnitude v = ⟨0x1fc00000#32⟩) ∧
    ((∀ x ∈ floats3 w, x.isNaN = false ∧ |x.val| ≤ 1 / 2 ^ 75) → VectorTrait.magnitude w = ⟨0x1fc00000#32⟩) := by
  rw [magnitude2_eq, magnitude3_eq]
  exact ⟨fun h h' => norm_huge h h', fun h h' => norm_huge h h', fun h => norm_tiny (l := floats2 v) (by simp [floats2]) h,
    fun h => norm_tiny (l := floats3 w) (by simp [floats3]) h⟩

end

/-- The hypotheses: a vector with an infinite component; the zero vector. -/
example : VectorTrait.magnitude (⟨posInf, one⟩ : Vector2d F32) = ⟨0x5f800000#32⟩ ∧
    VectorTrait.magnitude (⟨posZero, negZero, posZero⟩ : Vector3d F32) = ⟨0x1fc00000#32⟩ := by
  have hi : IntoF32.into posInf = posInf := rfl
  refine ⟨(C103_magnitude_extreme ⟨posInf, one⟩ ⟨posZero, negZero, posZero⟩).1 ?_ ⟨posInf, by simp [floats2, hi], ?_⟩,
    (C103_magnitude_extreme (⟨posInf, one⟩ : Vector2d F32) ⟨posZero, negZero, posZero⟩).2.2.2 ?_⟩
  · intro x hx
    have : x = posInf ∨ x = one := by simpa [floats2, show ∀ a : F32, IntoF32.into a = a from fun _ => rfl] using hx
    rcases this with rfl | rfl <;> decide
  · rw [val_inf (by decide)]
    norm_num [show posInf.sign = false by decide]
  · intro x hx
    have : x = posZero ∨ x = negZero ∨ x = posZero := by simpa [floats3, show ∀ a : F32, IntoF32.into a = a from fun _ => rfl] using hx
    rcases this with rfl | rfl | rfl
    · exact ⟨by decide, by rw [val_posZero]; norm_num⟩
    · exact ⟨by decide, by rw [val_negZero]; norm_num⟩
    · exact ⟨by decide, by rw [val_posZero]; norm_num⟩

/-- **C103, `Quaternion::magnitude`**: the same range and monotonicity. -/
theorem C103_quaternion_magnitude (q r : Quaternion) :
    (q.magnitude.isNaN = true ↔ q.a.isNaN = true ∨ q.b.isNaN = true ∨ q.c.isNaN = true ∨ q.d.isNaN = true) ∧
    (q.magnitude.isNaN = false → q.magnitude.isFinite = true ∧ 3 / 2 ^ 65 ≤ q.magnitude.val ∧ q.magnitude.val ≤ 2 ^ 64) ∧
    (q.a.abs.le r.a.abs = true → q.b.abs.le r.b.abs = true → q.c.abs.le r.c.abs = true → q.d.abs.le r.d.abs = true →
      q.magnitude.le r.magnitude = true) := by
  have eqn : ∀ q : Quaternion, q.a.isNaN = false → q.b.isNaN = false → q.c.isNaN = false → q.d.isNaN = false →
      q.magnitude = pack false ((addM (addM (addM (sqM q.a.mag) (sqM q.b.mag)) (sqM q.c.mag)) (sqM q.d.mag) + 0x3f800000) / 2) := by
    intro q ha hb hc hd
    obtain ⟨a1, a2, a3⟩ := nn_pack (sqM_le q.a.mag)
    obtain ⟨b1, b2, b3⟩ := nn_pack (sqM_le q.b.mag)
    obtain ⟨c1, c2, c3⟩ := nn_pack (sqM_le q.c.mag)
    obtain ⟨d1, d2, d3⟩ := nn_pack (sqM_le q.d.mag)
    unfold Quaternion.magnitude Quaternion.norm
    rw [nn_sq ha, nn_sq hb, nn_sq hc, nn_sq hd, nn_add a1 (.inl a2) b1 b2, a3, b3]
    obtain ⟨e1, e2, e3⟩ := nn_pack (addM_le (sqM q.a.mag) (sqM q.b.mag))
    rw [nn_add e1 (.inl e2) c1 c2, e3, c3]
    obtain ⟨f1, f2, f3⟩ := nn_pack (addM_le (addM (sqM q.a.mag) (sqM q.b.mag)) (sqM q.c.mag))
    rw [nn_add f1 (.inl f2) d1 d2, f3, d3, nn_sqrt (addM_le _ _)]
  have nan : q.a.isNaN = true ∨ q.b.isNaN = true ∨ q.c.isNaN = true ∨ q.d.isNaN = true → q.magnitude.isNaN = true := by
    intro h
    refine root_nan ?_
    rcases h with h | h | h | h
    · exact add_nan (.inl (add_nan (.inl (add_nan (.inl (mul_nan (.inl h)))))))
    · exact add_nan (.inl (add_nan (.inl (add_nan (.inr (mul_nan (.inl h)))))))
    · exact add_nan (.inl (add_nan (.inr (mul_nan (.inl h)))))
    · exact add_nan (.inr (mul_nan (.inl h)))
  have ok : ¬ (q.a.isNaN = true ∨ q.b.isNaN = true ∨ q.c.isNaN = true ∨ q.d.isNaN = true) → q.magnitude.isFinite = true ∧
      3 / 2 ^ 65 ≤ q.magnitude.val ∧ q.magnitude.val ≤ 2 ^ 64 := by
    intro h
    simp only [not_or, Bool.not_eq_true] at h
    have := root_range (addM_le (addM (addM (sqM q.a.mag) (sqM q.b.mag)) (sqM q.c.mag)) (sqM q.d.mag))
    rw [← eqn q h.1 h.2.1 h.2.2.1 h.2.2.2] at this
    exact ⟨this.1, this.2.2⟩
  refine ⟨⟨fun h => ?_, nan⟩, fun h => ok fun hc => ?_, fun h1 h2 h3 h4 => ?_⟩
  · by_contra hc
    rw [not_finite_of_nan h] at ok
    exact absurd (ok hc).1 (by simp)
  · rw [nan hc] at h; cases h
  · obtain ⟨p1, p2, p3⟩ := mag_le_of_abs h1
    obtain ⟨q1, q2, q3⟩ := mag_le_of_abs h2
    obtain ⟨r1, r2, r3⟩ := mag_le_of_abs h3
    obtain ⟨s1, s2, s3⟩ := mag_le_of_abs h4
    rw [eqn q p1 q1 r1 s1, eqn r p2 q2 r2 s2]
    exact root_mono (addM_mono (addM_mono (addM_mono (sqM_mono p3) (sqM_mono q3)) (sqM_mono r3)) (sqM_mono s3)) (addM_le _ _)

end Micromath.Props
