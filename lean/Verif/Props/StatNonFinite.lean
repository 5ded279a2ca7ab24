import Verif.Props.StatRange
import Verif.Props.NormOrder
import Verif.Props.TwoVecThm

/-!
# C127: infinities and NaN among the data
-/

set_option exponentiation.threshold 1000

namespace Micromath.Props
open F32 Spec Statistics
variable [Cfg] {T : Type} [IntoF32 T]

/-- NaN, or the infinity of sign `s`. -/
def NanOrInf (s : Bool) (x : F32) : Prop := x.isNaN = true ∨ x = pack s infMag

omit [Cfg] in
theorem not_nan_inf (s : Bool) : (pack s infMag).isNaN = false := by rw [isNaN, mag_pack _ infMag_lt]; simp

theorem nanOrInf_add_left {s : Bool} {x : F32} (h : NanOrInf s x) (y : F32) : NanOrInf s (x + y) := by
  rcases h with h | rfl
  · exact .inl (add_nan (.inl h))
  · cases hy : y.isNaN
    · rw [add_def]
      unfold addAs
      rw [not_nan_inf, hy, isInf_pack]
      simp only [Bool.or_self, Bool.false_eq_true, if_false, if_true]
      split_ifs
      · exact .inl (Cfg.nanOp_isNaN _ _ _)
      · exact .inr rfl
    · exact .inl (add_nan (.inr hy))

theorem nanOrInf_add_right {s : Bool} {y : F32} (h : NanOrInf s y) (x : F32) : NanOrInf s (x + y) := by
  rcases h with h | rfl
  · exact .inl (add_nan (.inr h))
  · cases hx : x.isNaN
    · rw [add_def]
      unfold addAs
      rw [not_nan_inf, hx, isInf_pack]
      simp only [Bool.or_self, Bool.false_eq_true, if_false, if_true, Bool.true_and]
      split_ifs with h1 h2
      · exact .inl (Cfg.nanOp_isNaN _ _ _)
      · right
        rw [sign_pack _ infMag_lt] at h2
        rw [eq_pack_of_inf h1]
        cases hs : x.sign <;> cases s <;> simp_all
      · exact .inr rfl
    · exact .inl (add_nan (.inl hx))

theorem fold_nanOrInf {s : Bool} (l : List F32) {a : F32} (h : NanOrInf s a ∨ ∃ x ∈ l, NanOrInf s x) :
    NanOrInf s (l.foldl (· + ·) a) := by
  induction l generalizing a with
  | nil =>
    rcases h with h | ⟨x, hx, -⟩
    · exact h
    · cases hx
  | cons y l ih =>
    rw [List.foldl_cons]
    apply ih
    rcases h with h | ⟨x, hx, hn⟩
    · exact .inl (nanOrInf_add_left h y)
    · rcases List.mem_cons.1 hx with rfl | hx
      · exact .inl (nanOrInf_add_right hn a)
      · exact .inr ⟨x, hx, hn⟩

theorem fold_nan_map {α : Type} (f : α → F32) (l : List α) {a : F32} (h : a.isNaN = true ∨ ∃ x ∈ l, (f x).isNaN = true) :
    (l.foldl (fun s x => s + f x) a).isNaN = true := by
  induction l generalizing a with
  | nil =>
    rcases h with h | ⟨x, hx, -⟩
    · exact h
    · cases hx
  | cons y l ih =>
    rw [List.foldl_cons]
    apply ih
    rcases h with h | ⟨x, hx, hn⟩
    · exact .inl (add_nan (.inl h))
    · rcases List.mem_cons.1 hx with rfl | hx
      · exact .inl (add_nan (.inr hn))
      · exact .inr ⟨x, hx, hn⟩

theorem inf_div_count {s : Bool} {n : Nat} (h1 : 1 ≤ n) (h2 : n < 2 ^ 31) : pack s infMag / ofInt (n : Int) = pack s infMag := by
  obtain ⟨f, p⟩ := count_pos (n := n) h1 h2
  rw [div_def]
  unfold F32.div
  rw [not_nan_inf, isInf_pack, not_nan_of_finite f, not_inf_of_finite f, sign_pack _ infMag_lt, val_pos_sign p]
  simp

theorem div_not_nan {x y : F32} (hx : x.isNaN = false) (hy : y.isFinite = true) (p : 0 < y.val) : (x / y).isNaN = false := by
  have hz : y.isZero = false := by
    rw [Bool.eq_false_iff]; intro hz
    have : y.mag = 0 := by simpa [isZero] using hz
    rw [val_eq_zero.2 this] at p
    exact lt_irrefl _ p
  rw [div_def]
  unfold F32.div
  rw [hx, not_nan_of_finite hy, not_inf_of_finite hy, hz]
  simp only [Bool.or_self, Bool.false_eq_true, if_false]
  split_ifs
  · exact not_nan_inf _
  · rw [isNaN, mag_pack _ (roundMag_lt _ _)]
    simp [roundMag]

theorem sub_fin_not_nan {x y : F32} (hx : x.isFinite = true) (hy : y.isFinite = true) : (x - y).isNaN = false := by
  rw [sub_def]
  rw [addAs_finite .sub hx (by simpa [isFinite_neg] using hy)]
  split_ifs
  · decide
  · decide
  · rw [isNaN, mag_pack _ (by have := infMag_lt; omega)]
    simp

/-- **C127.** If some item is NaN, the mean is NaN. -/
theorem C127_mean_nan {l : List F32} (hn : l.length < 2 ^ 31) (h : ∃ x ∈ l, x.isNaN = true) : ∃ m, mean l = .ok m ∧ m.isNaN = true :=
  ⟨_, C75_mean l hn, div_nan (.inl (fold_nan_map id l (.inr h)))⟩

/-- **C127.** If some item is infinite, the mean is NaN or that same infinity. -/
theorem C127_mean_inf {l : List F32} (hn : l.length < 2 ^ 31) {x : F32} (hx : x ∈ l) (hi : x.isInf = true) :
    ∃ m, mean l = .ok m ∧ (m.isNaN = true ∨ m = x) := by
  refine ⟨_, C75_mean l hn, ?_⟩
  have e := eq_pack_of_inf hi
  rcases fold_nanOrInf (s := x.sign) l (a := posZero) (.inr ⟨x, hx, .inr e⟩) with h | h
  · exact .inl (div_nan (.inl h))
  · right
    rw [h, inf_div_count (List.length_pos_of_mem hx) hn, ← e]

theorem sub_self_inf {s : Bool} : (pack s infMag - pack s infMag).isNaN = true := by
  rw [sub_def]
  unfold addAs
  have h1 : (-pack s infMag).isNaN = false := by cases s <;> decide
  have h2 : (-pack s infMag).isInf = true := by cases s <;> decide
  have h3 : (-pack s infMag).sign = !s := by cases s <;> decide
  rw [not_nan_inf, h1, isInf_pack, h2, sign_pack _ infMag_lt, h3]
  simp only [Bool.or_self, Bool.false_eq_true, if_false, if_true, Bool.true_and]
  rw [if_pos (by cases s <;> rfl)]
  exact Cfg.nanOp_isNaN _ _ _

theorem fin_sub_inf {s : Bool} {x : F32} (hx : x.isFinite = true) : x - pack s infMag = pack (!s) infMag := by
  rw [sub_def]
  unfold addAs
  have h1 : (-pack s infMag).isNaN = false := by cases s <;> decide
  have h2 : (-pack s infMag).isInf = true := by cases s <;> decide
  rw [not_nan_of_finite hx, h1, not_inf_of_finite hx, h2]
  simp only [Bool.or_self, Bool.false_eq_true, if_false, if_true]
  cases s <;> decide

theorem fold_nonneg_map {α : Type} (f : α → F32) (l : List α) {a : F32} (ha : a.isNaN = false ∧ a.sign = false)
    (h : ∀ x ∈ l, (f x).isNaN = false ∧ (f x).sign = false) :
    (l.foldl (fun s x => s + f x) a).isNaN = false ∧ (l.foldl (fun s x => s + f x) a).sign = false := by
  induction l generalizing a with
  | nil => exact ha
  | cons y l ih =>
    rw [List.foldl_cons]
    exact ih (add_nonneg_not_nan ha (h y (by simp))) (fun x hx => h x (by simp [hx]))

theorem fold_fin_not_nan (l : List F32) (h : ∀ x ∈ l, x.isFinite = true) {a : F32} (ha : a.isNaN = false) : (l.foldl (· + ·) a).isNaN = false := by
  induction l generalizing a with
  | nil => exact ha
  | cons y l ih =>
    rw [List.foldl_cons]
    refine ih (fun x hx => h x (by simp [hx])) ?_
    have hy := h y (by simp)
    rcases class_cases a with f | f | f
    · exact add_fin_not_nan f hy
    · rw [add_def]; simp only [addAs, ha, not_nan_of_finite hy, not_inf_of_finite hy, f]; simpa using ha
    · rw [ha] at f; cases f

theorem variance_form {l : List T} {m : F32} (hm : mean (l.map IntoF32.into) = .ok m) :
    variance l = .ok (sqDev m (l.map IntoF32.into) / (ofInt l.length - one)) := by
  rw [variance, hm]; rfl

/-- **C127.** If some item is NaN or infinite, the variance is NaN. -/
theorem C127_variance_nan {l : List T} (hn : l.length < 2 ^ 31) (h : ∃ x ∈ l, (IntoF32.into x).isFinite = false) :
    ∃ v, variance l = .ok v ∧ v.isNaN = true := by
  obtain ⟨x, hx, hf⟩ := h
  have hx' : IntoF32.into x ∈ l.map IntoF32.into := List.mem_map_of_mem hx
  have hn' : (l.map (IntoF32.into : T → F32)).length < 2 ^ 31 := by rwa [List.length_map]
  have key : ∃ m, mean (l.map IntoF32.into) = .ok m ∧ (IntoF32.into x - m).isNaN = true := by
    rcases class_cases (IntoF32.into x) with f | f | f
    · rw [hf] at f; cases f
    · obtain ⟨m, hm, h⟩ := C127_mean_inf hn' hx' f
      refine ⟨m, hm, ?_⟩
      rcases h with h | h
      · exact sub_nan (.inr h)
      · rw [h, eq_pack_of_inf f]; exact sub_self_inf
    · obtain ⟨m, hm, -⟩ := C127_mean_nan hn' ⟨_, hx', f⟩
      exact ⟨m, hm, sub_nan (.inl f)⟩
  obtain ⟨m, hm, hd⟩ := key
  refine ⟨_, variance_form hm, div_nan (.inl ?_)⟩
  exact fold_nan_map (fun y => (y - m) * (y - m)) _ (.inr ⟨_, hx', mul_nan (.inl hd)⟩)

/-- **C127.** For two or more items the variance is NaN exactly when some item is NaN or infinite. -/
theorem C127_variance_nan_iff {l : List T} (h2 : 2 ≤ l.length) (hn : l.length < 2 ^ 31) {v : F32} (hv : variance l = .ok v) :
    v.isNaN = true ↔ ∃ x ∈ l, (IntoF32.into x).isFinite = false := by
  constructor
  · intro h
    by_contra hc
    push Not at hc
    have hc' : ∀ y ∈ l.map (IntoF32.into : T → F32), y.isFinite = true := by
      intro y hy
      obtain ⟨x, hx, rfl⟩ := List.mem_map.1 hy
      simpa using hc x hx
    have hn' : (l.map (IntoF32.into : T → F32)).length < 2 ^ 31 := by rwa [List.length_map]
    have hm := C75_mean _ hn'
    rw [variance_form hm] at hv
    have hv := Except.ok.inj hv
    have hp := count_pos (n := (l.map (IntoF32.into : T → F32)).length) (by rw [List.length_map]; omega) hn'
    obtain ⟨m, hmd⟩ : ∃ m, m = (l.map (IntoF32.into : T → F32)).foldl (· + ·) posZero / ofInt ((l.map (IntoF32.into : T → F32)).length : Int) := ⟨_, rfl⟩
    have mn : m.isNaN = false := by
      rw [hmd]
      exact div_not_nan (fold_fin_not_nan _ hc' (by decide)) hp.1 hp.2
    rw [← hmd] at hv
    have hd : ∀ y ∈ l.map (IntoF32.into : T → F32), ((y - m) * (y - m)).isNaN = false ∧ ((y - m) * (y - m)).sign = false := by
      intro y hy
      apply sq_facts
      rcases class_cases m with f | f | f
      · exact sub_fin_not_nan (hc' y hy) f
      · rw [eq_pack_of_inf f, fin_sub_inf (hc' y hy)]; exact not_nan_inf _
      · rw [mn] at f; cases f
    have hs := fold_nonneg_map (fun y => (y - m) * (y - m)) _ (a := posZero) (by decide) hd
    obtain ⟨f1, p1⟩ := len_sub_one h2 (by omega)
    have := div_not_nan hs.1 f1 (by linarith)
    rw [← hv] at h
    have e : sqDev m (l.map IntoF32.into) = (l.map (IntoF32.into : T → F32)).foldl (fun s y => s + (y - m) * (y - m)) posZero := rfl
    rw [e, this] at h
    cases h
  · intro h
    obtain ⟨w, hw, hwn⟩ := C127_variance_nan hn h
    rw [hv] at hw
    cases hw
    exact hwn

/-- **C127.** One NaN or infinite item is enough: the standard deviation is NaN, and `trim` and `trim_at` drop every item. -/
theorem C127_trim_nonfinite {l : List T} (hn : l.length < 2 ^ 31) (h : ∃ x ∈ l, (IntoF32.into x).isFinite = false) (t : F32) :
    (∃ s, stddev l = .ok s ∧ s.isNaN = true) ∧ ∃ it, trimAt l t = .ok it ∧ yields it = [] := by
  obtain ⟨v, hv, nv⟩ := C127_variance_nan hn h
  have hs : stddev l = .ok v.sqrt := by rw [stddev, hv]; rfl
  have ns := root_nan nv
  refine ⟨⟨_, hs, ns⟩, ?_⟩
  obtain ⟨it, h1, h2, -⟩ := C78_trim_filter l t (C75_mean _ (by rwa [List.length_map])) hs
  refine ⟨it, h1, ?_⟩
  rw [h2, List.filter_eq_nil_iff]
  intro x _
  rw [lt_nan_left (div_nan (.inr ns))]
  simp

/-- Two and an infinity. -/
example (t : F32) : ∃ it, trimAt [lit 2 1, posInf] t = .ok it ∧ yields it = [] :=
  (C127_trim_nonfinite (by decide) ⟨posInf, by simp, by decide⟩ t).2

theorem fold_posInf_map {α : Type} (f : α → F32) (l : List α) {a : F32} (ha : a.isNaN = false ∧ a.sign = false)
    (h : ∀ x ∈ l, f x = posInf) (h0 : a = posInf ∨ l ≠ []) : l.foldl (fun s x => s + f x) a = posInf := by
  induction l generalizing a with
  | nil => simpa using h0
  | cons y l ih =>
    have e : a + f y = posInf := by rw [h y (by simp)]; exact add_posInf_right ha.1 ha.2
    rw [List.foldl_cons, e]
    exact ih (by decide) (fun x hx => h x (by simp [hx])) (.inl rfl)

omit [Cfg] in
theorem posInf_pack : pack false infMag = posInf := by decide

/-- **C127.** When the sum of finite data overflows, the mean is infinite, the variance is `+inf`, the standard deviation is the
finite number `sqrt(+inf)`, and `trim` and `trim_at` drop every item. -/
theorem C127_overflow {l : List T} (h2 : 2 ≤ l.length) (hn : l.length < 2 ^ 31) (h : ∀ x ∈ l, (IntoF32.into x).isFinite = true)
    {m : F32} (hm : mean (l.map IntoF32.into) = .ok m) (hi : m.isInf = true) (t : F32) :
    variance l = .ok posInf ∧ (∃ s, stddev l = .ok s ∧ IsVal s (2 ^ 64)) ∧ ∃ it, trimAt l t = .ok it ∧ yields it = [] := by
  have hd : ∀ y ∈ l.map (IntoF32.into : T → F32), (y - m) * (y - m) = posInf := by
    intro y hy
    obtain ⟨x, hx, rfl⟩ := List.mem_map.1 hy
    apply sq_overflow
    rw [eq_pack_of_inf hi, fin_sub_inf (h x hx)]
    exact .inl (isInf_pack _)
  have hs : sqDev m (l.map IntoF32.into) = posInf :=
    fold_posInf_map (fun y => (y - m) * (y - m)) _ (by decide) hd (.inr (by
      intro hc
      rw [List.map_eq_nil_iff] at hc
      rw [hc] at h2
      simp at h2))
  have hv : variance l = .ok posInf := by
    rw [variance_form hm, hs]
    obtain ⟨f, p⟩ := len_sub_one h2 (by omega)
    rw [div_def]
    unfold F32.div
    have a1 : posInf.isNaN = false := by decide
    have a2 : posInf.isInf = true := by decide
    have a3 : posInf.sign = false := by decide
    rw [a1, a2, a3, not_nan_of_finite f, not_inf_of_finite f, val_pos_sign (by linarith)]
    simp only [Bool.or_self, Bool.false_eq_true, if_false, if_true, bne_self_eq_false, posInf_pack]
  have hsd : stddev l = .ok posInf.sqrt := by rw [stddev, hv]; rfl
  have hsq : posInf.sqrt = ⟨0x5f800000#32⟩ := eval_eq (by kernel_rfl)
  have hsv : IsVal posInf.sqrt (2 ^ 64) := by
    rw [hsq]
    exact ⟨by decide, (val_of_units (u := 2 ^ 213) (by decide +kernel)).trans (by norm_num)⟩
  refine ⟨hv, ⟨_, hsd, hsv⟩, ?_⟩
  obtain ⟨it, h1, h2, -⟩ := C78_trim_filter l t hm hsd
  refine ⟨it, h1, ?_⟩
  rw [h2, List.filter_eq_nil_iff]
  intro x hx
  rw [eq_pack_of_inf hi, fin_sub_inf (h x hx)]
  have e : (pack (!m.sign) infMag).abs / posInf.sqrt = posInf := by
    rw [hsq]
    cases m.sign <;> exact eval_eq (by kernel_rfl)
  rw [e]
  have a1 : posInf.isNaN = false := by decide
  cases ht : t.isNaN
  · rw [(C49_compare a1 ht).1, ext_lt_iff a1 ht, not_lt]
    refine (le_abs_self _).trans ?_
    rw [show posInf.val = 2 ^ 128 from (val_inf (by decide)).trans (by decide)]
    rcases class_cases t with f | f | f
    · exact (abs_val_fin_lt f).le
    · rw [val_inf f]; split_ifs <;> norm_num
    · rw [ht] at f; cases f
  · rw [lt_nan_right ht]; simp

/-- Two items of `2^127`: their sum overflows. -/
example : ∃ m, mean [(⟨0x7f000000⟩ : F32), ⟨0x7f000000⟩] = .ok m ∧ m.isInf = true :=
  ⟨posInf, eval_ok (by kernel_rfl) (by decide), by decide⟩

end Micromath.Props
