import Verif.Props.Scaling
import Verif.Props.TrimCount

/-!
# C113: statistics under scaling of the data by a power of two
-/

set_option exponentiation.threshold 1000

namespace Micromath.Props
open F32 Spec Statistics

variable [Cfg]

/-- Division of scaled numbers by a common divisor. -/
theorem sc_div {k : Nat} {S S' d : F32} (h : Sc k S S') (fd : d.isFinite = true) (hd : 0 < d.val) (hf : (S' / d).isFinite = true)
    (hu : S.val = 0 ∨ 1 / 2 ^ 126 < |(S / d).val|) : Sc k (S / d) (S' / d) := by
  have ho : |S'.val / d.val| < ovf := by
    by_contra hc
    rw [div_ovf h.fy fd hd.ne' (not_lt.1 hc), pack_inf_not_finite] at hf
    simp at hf
  refine Sc.div (k := 0) (j := k) (by rw [zero_add]; exact h) ⟨fd, fd, by simp⟩ hd.ne' ho ?_
  rcases hu with hu | hu
  · left; rw [hu, zero_div]
  · right
    by_contra hc
    have ho' : |S.val / d.val| < ovf := Sc.lt_ovf (k := k) (by rw [h.eq]; ring) ho
    rw [(div_val h.fx fd hd.ne' ho').2] at hu
    have hr : Rep ((1 : ℚ) / 2 ^ 126) := by
      rw [show (1 : ℚ) / 2 ^ 126 = 2 ^ (-126 : Int) by norm_num]
      exact rep_pow (by norm_num)
    exact absurd (abs_RN_le_of_rep hr (not_le.1 hc).le) (not_le.2 hu)

/-- `l'` is `2^k l`, item by item, all finite. -/
structure ScaledList (k : Nat) (l l' : List F32) : Prop where
  fin : ∀ x ∈ l, x.isFinite = true
  fin' : ∀ x ∈ l', x.isFinite = true
  eq : l'.map val = l.map fun x => 2 ^ k * x.val

omit [Cfg] in
theorem ScaledList.sc {k : Nat} {l l' : List F32} (h : ScaledList k l l') : List.Forall₂ (Sc k) l l' := forall₂_sc h.fin h.fin' h.eq

omit [Cfg] in
theorem ScaledList.length {k : Nat} {l l' : List F32} (h : ScaledList k l l') : l'.length = l.length := h.sc.length_eq.symm

omit [Cfg] in
theorem count_pos {n : Nat} (h1 : 1 ≤ n) (h2 : n < 2 ^ 31) : (ofInt n).isFinite = true ∧ 0 < (ofInt n).val := by
  have hq : (1 : ℚ) ≤ n := by exact_mod_cast h1
  have hb : |((n : Int) : ℚ)| < ovf := by
    rw [Int.cast_natCast, abs_of_nonneg (by linarith)]
    have : (n : ℚ) < 2 ^ 31 := by exact_mod_cast h2
    exact this.trans (by norm_num [ovf])
  obtain ⟨a, b⟩ := ofInt_val hb
  refine ⟨a, ?_⟩
  rw [b]
  have : (1 : ℚ) ≤ RN ((n : Int) : ℚ) := by
    refine le_RN_of_rep ?_ (by rw [Int.cast_natCast]; exact hq)
    exact_mod_cast rep_int (m := 1) (by norm_num)
  linarith

theorem mean_sc {k : Nat} {l l' : List F32} (h : ScaledList k l l') (hl : l ≠ []) (hn : l.length < 2 ^ 31) {m m' : F32}
    (hm : mean l = .ok m) (hm' : mean l' = .ok m') (fm' : m'.isFinite = true)
    (hu : (l.foldl (· + ·) posZero).val = 0 ∨ 1 / 2 ^ 126 < |m.val|) : Sc k m m' := by
  have hlen := h.length
  rw [C75_mean l hn] at hm
  rw [C75_mean l' (by omega), hlen] at hm'
  have em := Except.ok.inj hm
  have em' := Except.ok.inj hm'
  obtain ⟨fd, hd⟩ := count_pos (List.length_pos_iff.2 hl) hn
  rw [← em'] at fm' ⊢
  rw [← em] at hu ⊢
  have fS := div_finite_left fd fm'
  have hS := Sc.foldl h.sc (a := posZero) (a' := posZero) ⟨by decide, by decide, by rw [val_posZero, mul_zero]⟩ fS
  exact sc_div hS fd hd fm' hu

/-- **C113.** `mean(2^k l) = 2^k mean(l)` exactly, if the scaled mean does not overflow and the mean does not underflow. -/
theorem C113_mean {k : Nat} {l l' : List F32} (h : ScaledList k l l') (hl : l ≠ []) (hn : l.length < 2 ^ 31) {m m' : F32}
    (hm : mean l = .ok m) (hm' : mean l' = .ok m') (fm' : m'.isFinite = true)
    (hu : (l.foldl (· + ·) posZero).val = 0 ∨ 1 / 2 ^ 126 < |m.val|) : m'.val = 2 ^ k * m.val :=
  (mean_sc h hl hn hm hm' fm' hu).eq

/-- The sum of squared deviations. -/
theorem sqDev_sc {k : Nat} {m m' : F32} (hm : Sc k m m') {l l' : List F32} (h : List.Forall₂ (Sc k) l l')
    (hu : ∀ x ∈ l, SqOK (x - m)) {s s' : F32} (hs : Sc (2 * k) s s')
    (hf : (l'.foldl (fun sum item => let n := item - m'; sum + n * n) s').isFinite = true) :
    Sc (2 * k) (l.foldl (fun sum item => let n := item - m; sum + n * n) s)
      (l'.foldl (fun sum item => let n := item - m'; sum + n * n) s') := by
  have start : ∀ (l : List F32) (s : F32), (l.foldl (fun sum item => let n := item - m'; sum + n * n) s).isFinite = true → s.isFinite = true := by
    intro l
    induction l with
    | nil => intro s hs; exact hs
    | cons y l ih => intro s hs; exact (add_finite_inv (ih _ hs)).1
  induction h generalizing s s' with
  | nil => exact hs
  | cons hx _ ih =>
    rw [List.foldl_cons] at hf
    have hf1 := start _ _ hf
    obtain ⟨-, f2, -⟩ := add_finite_inv hf1
    obtain ⟨f3, -, -⟩ := mul_finite_inv f2
    have hd := Sc.sub hx hm (sub_finite_inv f3).2.2
    exact ih (fun y hy => hu y (by simp [hy])) (Sc.add' hs (sc_sq hd f2 (hu _ (by simp))) hf1) hf

theorem variance_sc {k : Nat} {l l' : List F32} (h : ScaledList k l l') (h2 : 2 ≤ l.length) (hn : l.length < 2 ^ 31) {m v v' : F32}
    (hm : mean l = .ok m) (hv : variance l = .ok v) (hv' : variance l' = .ok v') (fv' : v'.isFinite = true)
    (um : (l.foldl (· + ·) posZero).val = 0 ∨ 1 / 2 ^ 126 < |m.val|) (ud : ∀ x ∈ l, SqOK (x - m))
    (uv : (∀ x ∈ l, (x - m).val = 0) ∨ 1 / 2 ^ 126 < v.val) :
    (∃ m', mean l' = .ok m' ∧ Sc k m m' ∧ ∀ x ∈ l', (x - m').isFinite = true) ∧ Sc (2 * k) v v' := by
  have hlen := h.length
  have hl : l ≠ [] := by rintro rfl; simp at h2
  obtain ⟨m', hm'⟩ : ∃ m', mean l' = .ok m' := ⟨_, C75_mean l' (by omega)⟩
  obtain ⟨fd, hd⟩ := len_sub_one h2 (by omega)
  have hd0 : 0 < (ofInt l.length - one).val := lt_of_lt_of_le one_pos hd
  have hid : ∀ l : List F32, l.map (IntoF32.into : F32 → F32) = l := fun l => List.map_id l
  rw [variance, hid, hm, ok_bind] at hv
  rw [variance, hid, hm', ok_bind, hlen] at hv'
  have ev := Except.ok.inj hv
  have ev' := Except.ok.inj hv'
  have fS' : (sqDev m' l').isFinite = true := div_finite_left fd (by rw [ev']; exact fv')
  -- the scaled mean is finite because a deviation from it is
  obtain ⟨fq, -, -⟩ := sqsum_lower m' l' posZero (by rw [val_posZero]) fS'
  have fm' : m'.isFinite = true := by
    obtain ⟨x, hx⟩ := List.exists_mem_of_length_pos (l := l') (by omega)
    exact (sub_finite_inv (mul_finite_inv (fq x hx)).1).2.1
  have hms := mean_sc h hl hn hm hm' fm' um
  refine ⟨⟨m', hm', hms, fun x hx => (mul_finite_inv (fq x hx)).1⟩, ?_⟩
  have hS : Sc (2 * k) (sqDev m l) (sqDev m' l') :=
    sqDev_sc hms h.sc ud (s := posZero) (s' := posZero) ⟨by decide, by decide, by rw [val_posZero, mul_zero]⟩ fS'
  have hu : (sqDev m l).val = 0 ∨ 1 / 2 ^ 126 < |(sqDev m l / (ofInt l.length - one)).val| := by
    rcases uv with uv | uv
    · left
      have : ∀ (l : List F32) (s : F32), (∀ x ∈ l, (x - m).val = 0) → (l.foldl (fun sum item => let n := item - m; sum + n * n) s).isFinite = true →
          s.val = 0 → (l.foldl (fun sum item => let n := item - m; sum + n * n) s).val = 0 := by
        intro l
        induction l with
        | nil => intro s _ _ hs; exact hs
        | cons y l ih =>
          intro s hy hf hs
          have start : ∀ (l : List F32) (s : F32), (l.foldl (fun sum item => let n := item - m; sum + n * n) s).isFinite = true → s.isFinite = true := by
            intro l
            induction l with
            | nil => intro s hs; exact hs
            | cons y l ih => intro s hs; exact (add_finite_inv (ih _ hs)).1
          rw [List.foldl_cons] at hf
          have hf1 := start _ _ hf
          refine ih _ (fun x hx => hy x (by simp [hx])) hf ?_
          have f2 := (add_finite_inv hf1).2.1
          show (s + (y - m) * (y - m)).val = 0
          rw [add_finite_val hf1, mul_finite_val f2, hy y (by simp), hs, mul_zero, RN_zero, add_zero, RN_zero]
      exact this l posZero uv hS.fx val_posZero
    · right
      rw [ev]
      exact uv.trans_le (le_abs_self _)
  have := sc_div hS fd hd0 (by rw [ev']; exact fv') hu
  rwa [ev, ev'] at this

/-- **C113.** `variance(2^k l) = 4^k variance(l)` and, for a variance above `2^-126`, `stddev(2^k l) = 2^k stddev(l)`, exactly,
if nothing over- or underflows: the scaled variance is finite, the mean is zero or above `2^-126`, every deviation is
zero or has a square of at least `2^-126`. -/
theorem C113_variance {k : Nat} {l l' : List F32} (h : ScaledList k l l') (h2 : 2 ≤ l.length) (hn : l.length < 2 ^ 31) {m v v' : F32}
    (hm : mean l = .ok m) (hv : variance l = .ok v) (hv' : variance l' = .ok v') (fv' : v'.isFinite = true)
    (um : (l.foldl (· + ·) posZero).val = 0 ∨ 1 / 2 ^ 126 < |m.val|)
    (ud : ∀ x ∈ l, (x - m).val = 0 ∨ 1 / 2 ^ 126 ≤ (x - m).val ^ 2) :
    ((∀ x ∈ l, (x - m).val = 0) ∨ 1 / 2 ^ 126 < v.val → v'.val = 4 ^ k * v.val) ∧
    (1 / 2 ^ 126 < v.val → ∃ s s', stddev l = .ok s ∧ stddev l' = .ok s' ∧ s'.val = 2 ^ k * s.val) := by
  refine ⟨fun uv => ?_, fun uv => ?_⟩
  · rw [(variance_sc h h2 hn hm hv hv' fv' um ud uv).2.eq, pow_mul]; norm_num
  · have hs := (variance_sc h h2 hn hm hv hv' fv' um ud (Or.inr uv)).2
    exact ⟨_, _, (C77_stddev l).1 v hv, (C77_stddev l').1 v' hv',
      C111_sqrt ⟨hs.fx, uv.le⟩ hs.fy (by rw [hs.eq, pow_mul]; norm_num)⟩

omit [Cfg] in
theorem forall₂_filter {α : Type} {R : α → α → Prop} {p q : α → Bool} {l l' : List α} (h : List.Forall₂ R l l')
    (hp : ∀ x y, R x y → p x = q y) : List.Forall₂ R (l.filter p) (l'.filter q) := by
  induction h with
  | nil => exact List.Forall₂.nil
  | cons hx _ ih =>
    rename_i a b _ _ _
    rw [List.filter_cons, List.filter_cons, hp a b hx]
    split
    · exact List.Forall₂.cons hx ih
    · exact ih

/-- **C113.** Under the same conditions `trim_at(t)` keeps the same positions: what it yields on `2^k l` is `2^k` times what it
yields on `l`, for every threshold. -/
theorem C113_trim {k : Nat} {l l' : List F32} (h : ScaledList k l l') (h2 : 2 ≤ l.length) (hn : l.length < 2 ^ 31) {m v v' : F32}
    (hm : mean l = .ok m) (hv : variance l = .ok v) (hv' : variance l' = .ok v') (fv' : v'.isFinite = true)
    (um : (l.foldl (· + ·) posZero).val = 0 ∨ 1 / 2 ^ 126 < |m.val|)
    (ud : ∀ x ∈ l, (x - m).val = 0 ∨ 1 / 2 ^ 126 ≤ (x - m).val ^ 2) (uv : 1 / 2 ^ 126 < v.val) (t : F32) :
    ∃ it it', trimAt l t = .ok it ∧ trimAt l' t = .ok it' ∧
      (yields it').map val = (yields it).map fun x => 2 ^ k * x.val := by
  obtain ⟨⟨m', hm', hms, fdev⟩, hs⟩ := variance_sc h h2 hn hm hv hv' fv' um ud (Or.inr uv)
  have hp : PosNormal v := ⟨hs.fx, uv.le⟩
  have hp' := (scale_bits hp hs.fy hs.eq).1
  have es := C111_sqrt hp hs.fy (k := k) (by rw [hs.eq, pow_mul]; norm_num)
  have hss : Sc k v.sqrt v'.sqrt := ⟨(sqrt_pos hp).1, (sqrt_pos hp').1, es⟩
  have hid : ∀ l : List F32, l.map (IntoF32.into : F32 → F32) = l := fun l => List.map_id l
  obtain ⟨it, h1, hy, -⟩ := C78_trim_filter l t (by rw [hid]; exact hm) ((C77_stddev l).1 v hv)
  obtain ⟨it', h1', hy', -⟩ := C78_trim_filter l' t (by rw [hid]; exact hm') ((C77_stddev l').1 v' hv')
  refine ⟨it, it', h1, h1', ?_⟩
  rw [hy, hy']
  have hR : List.Forall₂ (fun x y => Sc k x y ∧ (y - m').isFinite = true) l l' := by
    have := h.sc
    clear * - this fdev
    induction this with
    | nil => exact List.Forall₂.nil
    | cons hx _ ih => exact List.Forall₂.cons ⟨hx, fdev _ (by simp)⟩ (ih fun x hx => fdev x (by simp [hx]))
  have hF := forall₂_filter (p := fun n => ((IntoF32.into n - m).abs / v.sqrt).lt t)
    (q := fun n => ((IntoF32.into n - m').abs / v'.sqrt).lt t) hR (by
      rintro x y ⟨hx, hy⟩
      show ((x - m).abs / v.sqrt).lt t = ((y - m').abs / v'.sqrt).lt t
      have hd := abs_sc (Sc.sub hx hms (sub_finite_inv hy).2.2)
      rw [div_scaled hd (by rw [sign_abs, sign_abs]) hss (sqrt_pos hp).2])
  have key : ∀ {a b : List F32}, List.Forall₂ (fun x y => Sc k x y ∧ (y - m').isFinite = true) a b →
      b.map val = a.map fun x => 2 ^ k * x.val := by
    intro a b hab
    induction hab with
    | nil => rfl
    | cons hx _ ih => rw [List.map_cons, List.map_cons, hx.1.eq, ih]
  exact key hF

/-- All hypotheses of `C113_variance` and `C113_trim` are met by `1, 2, 6` and its double: mean `3`, variance `7` and `28`. -/
example : ScaledList 1 [ofInt 1, ofInt 2, ofInt 6] [ofInt 2, ofInt 4, ofInt 12] ∧
    mean [ofInt 1, ofInt 2, ofInt 6] = .ok (ofInt 3) ∧ variance [ofInt 1, ofInt 2, ofInt 6] = .ok (ofInt 7) ∧
    variance [ofInt 2, ofInt 4, ofInt 12] = .ok (ofInt 28) ∧ (1 : ℚ) / 2 ^ 126 < |(ofInt 3).val| ∧ (1 : ℚ) / 2 ^ 126 < (ofInt 7).val ∧
    ∀ x ∈ [ofInt 1, ofInt 2, ofInt 6], (x - ofInt 3).val = 0 ∨ 1 / 2 ^ 126 ≤ (x - ofInt 3).val ^ 2 := by
  have hv : ∀ n : Int, n.natAbs ≤ 2 ^ 24 → (ofInt n).isFinite = true ∧ (ofInt n).val = n := fun n hn => ofInt_isVal hn
  have v1 := hv 1 (by norm_num)
  have v2 := hv 2 (by norm_num)
  have v3 := hv 3 (by norm_num)
  have v4 := hv 4 (by norm_num)
  have v6 := hv 6 (by norm_num)
  have v7 := hv 7 (by norm_num)
  have v12 := hv 12 (by norm_num)
  have d1 : ofInt 1 - ofInt 3 = ofInt (-2) := eval_eq (n := 0xc0000000) (by kernel_rfl)
  have d2 : ofInt 2 - ofInt 3 = ofInt (-1) := eval_eq (n := 0xbf800000) (by kernel_rfl)
  have d3 : ofInt 6 - ofInt 3 = ofInt 3 := eval_eq (n := 0x40400000) (by kernel_rfl)
  refine ⟨⟨?_, ?_, ?_⟩, (eval_ok (n := 0x40400000) (by kernel_rfl) (by decide)).trans (congrArg Except.ok (eval_eq (n := 0x40400000) (by kernel_rfl)).symm), (eval_ok (n := 0x40e00000) (by kernel_rfl) (by decide)).trans (congrArg Except.ok (eval_eq (n := 0x40e00000) (by kernel_rfl)).symm),
    (eval_ok (n := 0x41e00000) (by kernel_rfl) (by decide)).trans (congrArg Except.ok (eval_eq (n := 0x41e00000) (by kernel_rfl)).symm), ?_, ?_, ?_⟩
  · simp [v1.1, v2.1, v6.1]
  · simp [v2.1, v4.1, v12.1]
  · simp [v1.2, v2.2, v4.2, v6.2, v12.2]; norm_num
  · rw [v3.2]; norm_num
  · rw [v7.2]; norm_num
  · intro x hx
    right
    simp only [List.mem_cons, List.not_mem_nil, or_false] at hx
    rcases hx with rfl | rfl | rfl
    · rw [d1, (hv (-2) (by norm_num)).2]; norm_num
    · rw [d2, (hv (-1) (by norm_num)).2]; norm_num
    · rw [d3, v3.2]; norm_num

end Micromath.Props
