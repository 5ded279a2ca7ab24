import Verif.Props.TrimCount

/-!
# C146: which outliers `trim` can remove

In `n` items no item is further from the mean than `(n - 1) / sqrt n` standard deviations, and a lone outlier is exactly
that far away.  So `trim()`, with its threshold of two standard deviations, never removes anything from five items or
fewer, however far out one of them is, and always removes a lone outlier from seven items or more.
-/

set_option exponentiation.threshold 1000

namespace Micromath.Props
open F32 Spec Statistics

variable [Cfg]

/-! ## The test on one item -/

/-- An item is kept if its distance from the mean is less than `t * s` by four roundings. -/
theorem ratio_keep {x m s t : F32} (fx : x.isFinite = true) (fm : m.isFinite = true) (fs : s.isFinite = true)
    (ft : t.isFinite = true) (hd : |x.val - m.val| ≤ 2 ^ 50) (hs : 3 / 2 ^ 65 ≤ s.val) (ht : 1 / 2 ^ 20 ≤ t.val)
    (h : |x.val - m.val| * (1 + 4 / 2 ^ 24) ≤ t.val * s.val) : ((x - m).abs / s).lt t = true := by
  have s0 : 0 < s.val := lt_of_lt_of_le (by norm_num) hs
  obtain ⟨d, hdd, f, v⟩ := sub_rel fx fm (lt_of_le_of_lt hd (by norm_num [ovf]))
  have fa : (x - m).abs.isFinite = true := by simpa using f
  have a1 : |(x - m).val| ≤ |x.val - m.val| * (1 + 1 / 2 ^ 24) := by
    rw [v, abs_mul]
    refine mul_le_mul_of_nonneg_left ?_ (abs_nonneg _)
    have := abs_add_le 1 d
    rw [abs_one] at this
    linarith
  have q0 : 0 ≤ |(x - m).val| / s.val := by positivity
  have q1 : |(x - m).val| / s.val * (1 + 2.5 / 2 ^ 24) ≤ t.val := by
    rw [div_mul_eq_mul_div, div_le_iff₀ s0]
    refine le_trans (mul_le_mul_of_nonneg_right a1 (by norm_num)) (le_trans ?_ h)
    rw [mul_assoc]
    exact mul_le_mul_of_nonneg_left (by norm_num) (abs_nonneg _)
  have hov : |(x - m).abs.val / s.val| < ovf := by
    rw [val_abs, abs_of_nonneg q0]
    have := abs_val_lt_ovf ft
    rw [abs_of_nonneg (le_trans (by norm_num) ht)] at this
    refine lt_of_le_of_lt ?_ this
    refine le_trans (le_mul_of_one_le_right q0 (by norm_num)) q1
  obtain ⟨fq, eq⟩ := div_err_uf fa fs s0.ne' hov
  rw [lt_iff fq ft]
  rw [val_abs, abs_of_nonneg q0] at eq
  have := (abs_le.1 eq).2
  generalize |(x - m).val| / s.val = q at *
  norm_num at this q1 ht ⊢
  linarith

/-- An item is removed if its distance from the mean is at least `t * s`, with one rounding to spare. -/
theorem ratio_drop {x m s t : F32} (fx : x.isFinite = true) (fm : m.isFinite = true) (fs : s.isFinite = true)
    (ft : t.isFinite = true) (hd : |x.val - m.val| ≤ 2 ^ 50) (hs : 3 / 2 ^ 65 ≤ s.val)
    (h : t.val * s.val ≤ |x.val - m.val| * (1 - 1 / 2 ^ 24)) : ((x - m).abs / s).lt t = false := by
  have s0 : 0 < s.val := lt_of_lt_of_le (by norm_num) hs
  obtain ⟨d, hdd, f, v⟩ := sub_rel fx fm (lt_of_le_of_lt hd (by norm_num [ovf]))
  have fa : (x - m).abs.isFinite = true := by simpa using f
  have a1 : |x.val - m.val| * (1 - 1 / 2 ^ 24) ≤ |(x - m).val| := by
    rw [v, abs_mul]
    refine mul_le_mul_of_nonneg_left ?_ (abs_nonneg _)
    refine le_trans ?_ (le_abs_self _)
    linarith [(abs_le.1 hdd).1]
  have a2 : |(x - m).val| ≤ 2 ^ 51 := by
    rw [v, abs_mul]
    have h1 : |1 + d| ≤ 2 := by
      have := abs_add_le 1 d
      rw [abs_one] at this
      norm_num at hdd
      linarith
    have := mul_le_mul hd h1 (abs_nonneg _) (by norm_num)
    linarith
  have hq : t.val ≤ |(x - m).val| / s.val := by
    rw [le_div_iff₀ s0]; exact h.trans a1
  have hov : |(x - m).abs.val / s.val| < ovf := by
    rw [val_abs, abs_of_nonneg (by positivity), div_lt_iff₀ s0]
    refine lt_of_le_of_lt a2 (lt_of_lt_of_le ?_ (mul_le_mul_of_nonneg_left hs (by norm_num [ovf])))
    norm_num [ovf]
  obtain ⟨fq, eq⟩ := div_val fa fs s0.ne' hov
  rw [Bool.eq_false_iff, Ne, lt_iff fq ft, not_lt, eq, val_abs]
  exact le_RN_of_rep (rep_val t) hq

/-! ## Lists of rational numbers -/

omit [Cfg] in
theorem list_cs (l : List ℚ) : l.sum ^ 2 ≤ l.length * (l.map fun q => q ^ 2).sum := by
  induction l with
  | nil => simp
  | cons r l ih =>
    rw [List.map_cons, List.sum_cons, List.sum_cons, List.length_cons]
    push_cast
    have Q0 : 0 ≤ (l.map fun q : ℚ => q ^ 2).sum := by
      refine List.sum_nonneg ?_
      intro q hq; rw [List.mem_map] at hq; obtain ⟨y, _, rfl⟩ := hq; exact sq_nonneg _
    generalize l.sum = S at *
    generalize (l.map fun q : ℚ => q ^ 2).sum = Q at *
    have k0 : (0 : ℚ) ≤ l.length := by positivity
    generalize (l.length : ℚ) = k at *
    rcases k0.eq_or_lt with hk | hk
    · rw [← hk] at ih ⊢
      have : S = 0 := by
        have : S ^ 2 ≤ 0 := by linarith
        exact pow_eq_zero_iff (two_ne_zero) |>.1 (le_antisymm this (sq_nonneg _))
      rw [this]; nlinarith
    · have h1 : 2 * (r * S) ≤ k * r ^ 2 + Q := by
        refine le_of_mul_le_mul_left (a := k) ?_ hk
        nlinarith [sq_nonneg (k * r - S)]
      nlinarith

omit [Cfg] in
theorem dev_sum {l : List ℚ} (h : l ≠ []) : (l.map fun q => q - qmean l).sum = 0 := by
  have key : ∀ (l : List ℚ) (c : ℚ), (l.map fun q => q - c).sum = l.sum - l.length * c := by
    intro l c
    induction l with
    | nil => simp
    | cons y l ih => rw [List.map_cons, List.sum_cons, List.sum_cons, ih, List.length_cons]; push_cast; ring
  have hp : (0 : ℚ) < l.length := by exact_mod_cast List.length_pos_iff.2 h
  rw [key, qmean, mul_div_cancel₀ _ hp.ne', sub_self]

omit [Cfg] in
/-- Samuelson's inequality: no item is further than `(n - 1) / sqrt n` sample standard deviations from the mean. -/
theorem samuelson {l : List ℚ} (h2 : 2 ≤ l.length) {x : ℚ} (hx : x ∈ l) :
    l.length * (x - qmean l) ^ 2 ≤ (l.length - 1) ^ 2 * qvar l := by
  have hne : l ≠ [] := by rintro rfl; simp at hx
  have hz := dev_sum hne
  have h2q : (2 : ℚ) ≤ l.length := by exact_mod_cast h2
  unfold qvar
  rw [show ((l.length : ℚ) - 1) ^ 2 * ((l.map fun q => (q - qmean l) ^ 2).sum / (l.length - 1)) =
    (l.length - 1) * (l.map fun q => (q - qmean l) ^ 2).sum by field_simp]
  generalize qmean l = μ at *
  obtain ⟨l1, l2, rfl⟩ := List.append_of_mem hx
  have cs := list_cs ((l1 ++ l2).map fun q => q - μ)
  rw [List.map_map, List.length_map] at cs
  simp only [List.map_append, List.map_cons, List.sum_append, List.sum_cons, List.length_append, List.length_cons, Function.comp_def] at hz cs ⊢
  push_cast at cs ⊢
  generalize (l1.map fun q => q - μ).sum = S1 at *
  generalize (l2.map fun q => q - μ).sum = S2 at *
  generalize (l1.map fun q => (q - μ) ^ 2).sum = Q1 at *
  generalize (l2.map fun q => (q - μ) ^ 2).sum = Q2 at *
  have e : S1 + S2 = -(x - μ) := by linarith
  rw [e] at cs
  nlinarith

/-! ## The computed mean and standard deviation -/

section
variable {T : Type} [IntoF32 T]

/-- The data is not swamped by the rounding error of its mean: at most 4096 items of magnitude at most `B`, whose
sample variance is at least `((n + 1) B)^2 / 2^33`. -/
structure Spread (l : List T) (B : ℚ) : Prop where
  fin : AllFinite (l.map IntoF32.into)
  two : 2 ≤ l.length
  len : l.length ≤ 4096
  bound : ∀ x ∈ l, |(IntoF32.into x : F32).val| ≤ B
  big : B ≤ 2 ^ 48
  small : 1 / 2 ^ 100 ≤ qvar ((l.map IntoF32.into).map val)
  var : ((l.length + 1) * B) ^ 2 ≤ 2 ^ 33 * qvar ((l.map IntoF32.into).map val)

omit [Cfg] in
theorem Spread.ne {l : List T} {B : ℚ} (h : Spread l B) : (l.map (IntoF32.into : T → F32)).map val ≠ [] := by
  have := h.two
  intro hc
  have := congrArg List.length hc
  rw [List.length_map, List.length_map] at this
  simp at this
  subst this
  simp at *

set_option maxHeartbeats 1000000 in
theorem spread_facts {l : List T} {B : ℚ} (h : Spread l B) :
    ∃ m s : F32, ∃ σ : ℝ, mean (l.map IntoF32.into) = .ok m ∧ stddev l = .ok s ∧ m.isFinite = true ∧ s.isFinite = true ∧
      0 < σ ∧ σ ^ 2 = (qvar ((l.map IntoF32.into).map val) : ℚ) ∧ |m.val| ≤ 2 ^ 49 ∧ 3 / 2 ^ 65 ≤ s.val ∧
      |(m.val : ℝ) - (qmean ((l.map IntoF32.into).map val) : ℚ)| ≤ σ / 90 ∧ 0.999 * σ ≤ s.val ∧ (s.val : ℝ) ≤ 1.0612 * σ := by
  have hne := h.ne
  obtain ⟨fin, h2, hn, hl, hB, hV, hvar⟩ := h
  obtain ⟨m, v, hm, hv, fv, v0, em, b1, b2⟩ := C95_variance l fin h2 (by omega) hB hl
  obtain ⟨m', hm', fm, -⟩ := C94_mean (l.map (IntoF32.into : T → F32)) fin (by simpa using hne) (by rw [List.length_map]; omega) (by
    refine (qabs_le (B := B) ?_).trans ?_
    · intro q hq
      rw [List.map_map, List.mem_map] at hq
      obtain ⟨y, hy, rfl⟩ := hq
      exact hl y hy
    · rw [List.length_map, List.length_map]
      have : (l.length : ℚ) ≤ 4096 := by exact_mod_cast hn
      have := mul_le_mul this hB (by
        obtain ⟨x, hx⟩ := List.exists_mem_of_ne_nil l (by rintro rfl; simp at h2)
        exact (abs_nonneg _).trans (hl x hx)) (by norm_num)
      exact this.trans (by norm_num))
  rw [hm] at hm'
  obtain rfl := Except.ok.inj hm'
  have hmu := (qmean_le (B := B) hne (by
    intro q hq
    rw [List.map_map, List.mem_map] at hq
    obtain ⟨y, hy, rfl⟩ := hq
    exact hl y hy)).1
  generalize qmean ((l.map (IntoF32.into : T → F32)).map val) = μ at *
  generalize qvar ((l.map (IntoF32.into : T → F32)).map val) = V at *
  have B0 : 0 ≤ B := (abs_nonneg _).trans hmu
  have nq : (l.length : ℚ) ≤ 4096 := by exact_mod_cast hn
  have n2 : (2 : ℚ) ≤ l.length := by exact_mod_cast h2
  have V0 : 0 < V := lt_of_lt_of_le (by norm_num) hV
  -- the error of the mean
  have e2 : (m.val - μ) ^ 2 ≤ V / 8100 := by
    obtain ⟨z, hz⟩ : ∃ z, z = (l.length + 1) * B := ⟨_, rfl⟩
    have z0 : 0 ≤ z := by rw [hz]; positivity
    rw [← hz] at hvar
    rw [div_mul_eq_mul_div, ← hz] at em
    have h1 : (m.val - μ) ^ 2 ≤ (z / 2 ^ 23 + 1 / 2 ^ 150) ^ 2 := by
      rw [← sq_abs]; exact pow_le_pow_left₀ (abs_nonneg _) em 2
    have e : (z / 2 ^ 23 + 1 / 2 ^ 150) ^ 2 = z ^ 2 / 2 ^ 46 + z / 2 ^ 172 + 1 / 2 ^ 300 := by ring
    rw [e] at h1
    have h5 := sq_nonneg (z / 2 ^ 60 - 1 / 2 ^ 112)
    rw [show (z / 2 ^ 60 - 1 / 2 ^ 112) ^ 2 = z ^ 2 / 2 ^ 120 - 2 * (z / 2 ^ 172) + 1 / 2 ^ 224 by ring] at h5
    norm_num at h1 h5 hvar hV ⊢
    linarith
  have e0 := sq_nonneg (m.val - μ)
  have g1 : (1 + 1 / 2 ^ 24 : ℚ) ^ (l.length + 4) ≤ 1.0005 := by
    have := grow_le (n := l.length + 4) (by omega)
    have h4 : ((l.length + 4 : Nat) : ℚ) ≤ 4100 := by push_cast; linarith
    norm_num at this h4 ⊢
    linarith
  have g2 : (0.9997 : ℚ) ≤ (1 - 1 / 2 ^ 24) ^ (l.length + 4) := by
    have := one_add_mul_le_pow (a := (-(1 / 2 ^ 24) : ℚ)) (by norm_num) (l.length + 4)
    rw [← sub_eq_add_neg] at this
    refine le_trans ?_ this
    push_cast
    norm_num
    linarith
  have hr : (l.length : ℚ) / (l.length - 1) ≤ 2 := by rw [div_le_iff₀ (by linarith)]; linarith
  have hr0 : 0 ≤ (l.length : ℚ) / (l.length - 1) := div_nonneg (by linarith) (by linarith)
  have vlo : 0.9996 * V ≤ v.val := by
    have := mul_le_mul_of_nonneg_right g2 V0.le
    norm_num at this b1 hV ⊢
    linarith
  have vhi : v.val ≤ 1.0008 * V := by
    have h1 := mul_le_mul hr e2 e0 (by norm_num)
    have h3 := mul_le_mul g1 (add_le_add_right h1 V) (add_nonneg V0.le (mul_nonneg hr0 e0)) (by norm_num)
    norm_num at h3 b2 hV ⊢
    linarith
  -- the standard deviation
  have pn : PosNormal v := ⟨fv, le_trans (by norm_num) (le_trans (mul_le_mul_of_nonneg_left hV (by norm_num : (0 : ℚ) ≤ 0.9996)) vlo)⟩
  obtain ⟨s, hs, fs, s0, s1, s2, -⟩ := C77_stddev_bounds l hv pn
  have slo : 0.999 * V ≤ s.val ^ 2 := by norm_num at s1 vlo ⊢; linarith
  have shi : s.val ^ 2 ≤ 1.126 * V := by norm_num at s2 vhi ⊢; linarith
  have slo' : (0.999 * V : ℝ) ≤ (s.val : ℝ) ^ 2 := by
    have := (Rat.cast_le (K := ℝ)).2 slo
    push_cast at this; exact this
  have shi' : (s.val : ℝ) ^ 2 ≤ 1.126 * V := by
    have := (Rat.cast_le (K := ℝ)).2 shi
    push_cast at this; exact this
  have s0' : (0 : ℝ) < s.val := by exact_mod_cast s0
  have e2' : ((m.val : ℝ) - μ) ^ 2 ≤ V / 8100 := by
    have := (Rat.cast_le (K := ℝ)).2 e2
    push_cast at this; exact this
  have V0' : (0 : ℝ) < V := by exact_mod_cast V0
  refine ⟨m, s, Real.sqrt V, hm, hs, fm, fs, Real.sqrt_pos.2 V0', Real.sq_sqrt V0'.le, ?_, ?_, ?_, ?_, ?_⟩
  · have h1 := abs_add_le (m.val - μ) μ
    rw [sub_add_cancel] at h1
    have h3 : |m.val - μ| ≤ 2 ^ 48 := by
      refine em.trans ?_
      have h5 : ((l.length : ℚ) + 1) / 2 ^ 23 ≤ 1 / 2 := by norm_num; linarith
      have := mul_le_mul_of_nonneg_right h5 B0
      norm_num at this hB ⊢
      linarith
    norm_num at h1 h3 hmu hB ⊢
    linarith
  · refine le_of_sq_le_sq ?_ s0.le
    refine le_trans ?_ slo
    refine le_trans ?_ (mul_le_mul_of_nonneg_left hV (by norm_num))
    norm_num
  · refine abs_le_of_sq_le_sq ?_ (by positivity)
    rw [div_pow, Real.sq_sqrt V0'.le]
    refine e2'.trans (le_of_eq (by norm_num))
  · refine (sq_le_sq₀ (by positivity) s0'.le).1 ?_
    rw [mul_pow, Real.sq_sqrt V0'.le]
    refine le_trans ?_ slo'
    nlinarith
  · refine (sq_le_sq₀ s0'.le (by positivity)).1 ?_
    rw [mul_pow, Real.sq_sqrt V0'.le]
    refine shi'.trans ?_
    nlinarith

omit [Cfg] in
/-- The distance from the computed mean, given the distance from the exact mean. -/
theorem dist_mean {x m : F32} {μ : ℚ} {σ c : ℝ} (hm : |(m.val : ℝ) - μ| ≤ σ / 90) :
    (|(x.val : ℝ) - μ| ≤ c → |(x.val : ℝ) - m.val| ≤ c + σ / 90) ∧
    (c ≤ |(x.val : ℝ) - μ| → c - σ / 90 ≤ |(x.val : ℝ) - m.val|) := by
  constructor
  · intro h
    have := abs_sub_le (x.val : ℝ) μ m.val
    rw [abs_sub_comm (μ : ℝ)] at this
    linarith
  · intro h
    have := abs_sub_le (x.val : ℝ) m.val μ
    linarith

omit [Cfg] in
theorem dist_le {x m : F32} {B : ℚ} (hx : |x.val| ≤ B) (hB : B ≤ 2 ^ 48) (hm : |m.val| ≤ 2 ^ 49) : |x.val - m.val| ≤ 2 ^ 50 := by
  have := abs_sub x.val m.val
  norm_num at *
  linarith

/-- One item at `c` standard deviations from the exact mean, or nearer, is kept. -/
theorem item_keep {x m s t : F32} {μ : ℚ} {σ c : ℝ} (fx : x.isFinite = true) (fm : m.isFinite = true) (fs : s.isFinite = true)
    (ft : t.isFinite = true) (hd : |x.val - m.val| ≤ 2 ^ 50) (hs : 3 / 2 ^ 65 ≤ s.val) (ht : 1 / 2 ^ 20 ≤ t.val) (σ0 : 0 < σ)
    (hm : |(m.val : ℝ) - μ| ≤ σ / 90) (slo : 0.999 * σ ≤ s.val) (c0 : 0 ≤ c) (hc : c ≤ 0.998 * t.val - 0.012)
    (h : |(x.val : ℝ) - μ| ≤ c * σ) : ((x - m).abs / s).lt t = true := by
  refine ratio_keep fx fm fs ft hd hs ht ?_
  have h1 := (dist_mean hm).1 h
  have ht' : (0 : ℝ) ≤ t.val := by
    have : (0 : ℚ) ≤ t.val := le_trans (by norm_num) ht
    exact_mod_cast this
  have h2 : |(x.val : ℝ) - m.val| * (1 + 4 / 2 ^ 24) ≤ t.val * s.val := by
    refine le_trans ?_ (mul_le_mul_of_nonneg_left slo ht')
    refine (mul_le_mul_of_nonneg_right h1 (by norm_num)).trans ?_
    have h3 : (c + 1 / 90) * (1 + 4 / 2 ^ 24) ≤ 0.999 * t.val := by norm_num at hc ⊢; linarith
    have := mul_le_mul_of_nonneg_right h3 σ0.le
    refine le_trans (le_of_eq ?_) (this.trans (le_of_eq ?_)) <;> ring
  have : (((|x.val - m.val| * (1 + 4 / 2 ^ 24) : ℚ)) : ℝ) ≤ ((t.val * s.val : ℚ) : ℝ) := by push_cast; exact h2
  exact Rat.cast_le.1 this

/-- One item at `c` standard deviations from the exact mean, or further, is removed. -/
theorem item_drop {x m s t : F32} {μ : ℚ} {σ c : ℝ} (fx : x.isFinite = true) (fm : m.isFinite = true) (fs : s.isFinite = true)
    (ft : t.isFinite = true) (hd : |x.val - m.val| ≤ 2 ^ 50) (hs : 3 / 2 ^ 65 ≤ s.val) (ht : 0 ≤ t.val) (σ0 : 0 < σ)
    (hm : |(m.val : ℝ) - μ| ≤ σ / 90) (shi : s.val ≤ 1.0612 * σ) (hc : 1.0613 * t.val + 0.012 ≤ c)
    (h : c * σ ≤ |(x.val : ℝ) - μ|) : ((x - m).abs / s).lt t = false := by
  refine ratio_drop fx fm fs ft hd hs ?_
  have h1 := (dist_mean hm).2 h
  have ht' : (0 : ℝ) ≤ t.val := by exact_mod_cast ht
  have h2 : (t.val * s.val : ℝ) ≤ |(x.val : ℝ) - m.val| * (1 - 1 / 2 ^ 24) := by
    refine (mul_le_mul_of_nonneg_left shi ht').trans ?_
    refine le_trans ?_ (mul_le_mul_of_nonneg_right h1 (by norm_num))
    have h3 : 1.0612 * t.val ≤ (c - 1 / 90) * (1 - 1 / 2 ^ 24) := by norm_num at hc ⊢; linarith
    have := mul_le_mul_of_nonneg_right h3 σ0.le
    refine le_trans (le_of_eq ?_) (this.trans (le_of_eq ?_)) <;> ring
  have : ((t.val * s.val : ℚ) : ℝ) ≤ ((|x.val - m.val| * (1 - 1 / 2 ^ 24) : ℚ) : ℝ) := by push_cast; exact h2
  exact Rat.cast_le.1 this

/-! ## C146 -/

/-- **C146.** If `(n - 1) / sqrt n` is below the threshold by half a percent, `trim_at` removes nothing, however far out
an item is. -/
theorem C146_keep {l : List T} {B : ℚ} (h : Spread l B) {t : F32} (ft : t.isFinite = true) (ht : 1 / 10 ≤ t.val)
    (hn : ((l.length : ℚ) - 1) ^ 2 ≤ (0.998 * t.val - 0.012) ^ 2 * l.length) :
    ∃ it, trimAt l t = .ok it ∧ yields it = l := by
  obtain ⟨m, s, σ, hm, hs, fm, fs, σ0, hσ, mm, slo', em, slo, shi⟩ := spread_facts h
  obtain ⟨it, h1, hy, -⟩ := C78_trim_filter l t hm hs
  refine ⟨it, h1, ?_⟩
  rw [hy, List.filter_eq_self]
  intro x hx
  have ht0 : (0 : ℝ) ≤ 0.998 * t.val - 0.012 := by
    have := (Rat.cast_le (K := ℝ)).2 ht
    push_cast at this
    norm_num at this ⊢
    linarith
  refine item_keep (h.fin _ (List.mem_map_of_mem hx)) fm fs ft (dist_le (h.bound x hx) h.big mm) slo'
    (le_trans (by norm_num) ht) σ0 em slo ht0 le_rfl ?_
  have sam := samuelson (l := (l.map (IntoF32.into : T → F32)).map val) (by rw [List.length_map, List.length_map]; exact h.two)
    (x := (IntoF32.into x : F32).val) (List.mem_map_of_mem (List.mem_map_of_mem hx))
  rw [List.length_map, List.length_map] at sam
  have sam' := (Rat.cast_le (K := ℝ)).2 sam
  have hn' := (Rat.cast_le (K := ℝ)).2 hn
  push_cast at sam' hn'
  rw [← hσ] at sam'
  have n0 : (0 : ℝ) < l.length := by
    have := h.two
    have : 0 < l.length := by omega
    exact_mod_cast this
  refine abs_le_of_sq_le_sq ?_ (by positivity)
  rw [mul_pow]
  refine le_of_mul_le_mul_left (a := (l.length : ℝ)) (sam'.trans ?_) n0
  have := mul_le_mul_of_nonneg_right hn' (sq_nonneg σ)
  refine this.trans (le_of_eq (by ring))

/-- **C146.** `trim()` removes nothing from five items or fewer. -/
theorem C146_five {l : List T} {B : ℚ} (h : Spread l B) (h5 : l.length ≤ 5) : ∃ it, trim l = .ok it ∧ yields it = l := by
  have ev : DEFAULT_THRESHOLD.val = 2 := val_lit_2_1
  refine C146_keep h (t := DEFAULT_THRESHOLD) fin_lit_2_1 (by rw [ev]; norm_num) ?_
  rw [ev]
  have h2 := h.two
  obtain ⟨n, hn⟩ : ∃ n, n = l.length := ⟨_, rfl⟩
  rw [← hn] at h2 h5 ⊢
  have : n = 2 ∨ n = 3 ∨ n = 4 ∨ n = 5 := by omega
  rcases this with rfl | rfl | rfl | rfl <;> norm_num

omit [Cfg] in
/-- Mean and variance of a constant with one exception. -/
theorem lone_stats {l1 l2 : List ℚ} {a b : ℚ} (h1 : ∀ x ∈ l1, x = a) (h2 : ∀ x ∈ l2, x = a) (hn : 2 ≤ (l1 ++ b :: l2).length) :
    (b - qmean (l1 ++ b :: l2)) * (l1 ++ b :: l2).length = (b - a) * ((l1 ++ b :: l2).length - 1) ∧
    (a - qmean (l1 ++ b :: l2)) * (l1 ++ b :: l2).length = a - b ∧
    qvar (l1 ++ b :: l2) * (l1 ++ b :: l2).length = (b - a) ^ 2 := by
  obtain ⟨i, rfl⟩ : ∃ i, l1 = List.replicate i a := ⟨_, List.eq_replicate_iff.2 ⟨rfl, h1⟩⟩
  obtain ⟨j, rfl⟩ : ∃ j, l2 = List.replicate j a := ⟨_, List.eq_replicate_iff.2 ⟨rfl, h2⟩⟩
  obtain ⟨μ, hμ⟩ : ∃ μ, μ = qmean (List.replicate i a ++ b :: List.replicate j a) := ⟨_, rfl⟩
  unfold qvar
  rw [← hμ]
  unfold qmean at hμ
  simp only [List.map_append, List.map_cons, List.sum_append, List.sum_cons, List.length_append, List.length_cons,
    List.length_replicate, List.map_replicate, List.sum_replicate, nsmul_eq_mul] at hn hμ ⊢
  push_cast at hμ ⊢
  have k2 : (2 : ℚ) ≤ (i : ℚ) + (j + 1) := by exact_mod_cast hn
  have hk : (i : ℚ) + (j + 1) ≠ 0 := by linarith
  have hk' : (i : ℚ) + (j + 1) - 1 ≠ 0 := by linarith
  rw [eq_div_iff hk] at hμ
  refine ⟨by linarith, by linarith, ?_⟩
  rw [div_mul_eq_mul_div, div_eq_iff hk']
  have e1 : (a - μ) * (i + (j + 1)) = a - b := by linarith
  have e2 : (b - μ) * (i + (j + 1)) = (b - a) * (i + j) := by linarith
  refine mul_right_cancel₀ hk ?_
  have : ((i : ℚ) * (a - μ) ^ 2 + ((b - μ) ^ 2 + j * (a - μ) ^ 2)) * (i + (j + 1)) * (i + (j + 1)) =
    (i + j) * ((a - μ) * (i + (j + 1))) ^ 2 + ((b - μ) * (i + (j + 1))) ^ 2 := by ring
  rw [this, e1, e2]
  ring

set_option maxHeartbeats 400000 in
/-- **C146.** One item `b` among `n - 1` items of equal value: if `(n - 1) / sqrt n` is above the threshold by seven
percent, `trim_at` removes exactly `b`. -/
theorem C146_lone {l1 l2 : List T} {b : T} {a B : ℚ} (h : Spread (l1 ++ b :: l2) B)
    (e1 : ∀ x ∈ l1, (IntoF32.into x : F32).val = a) (e2 : ∀ x ∈ l2, (IntoF32.into x : F32).val = a)
    {t : F32} (ft : t.isFinite = true) (ht : 1 ≤ t.val)
    (hn : (1.0613 * t.val + 0.012) ^ 2 * (l1 ++ b :: l2).length ≤ (((l1 ++ b :: l2).length : ℚ) - 1) ^ 2) :
    ∃ it, trimAt (l1 ++ b :: l2) t = .ok it ∧ yields it = l1 ++ l2 := by
  obtain ⟨m, s, σ, hm, hs, fm, fs, σ0, hσ, mm, slo', em, slo, shi⟩ := spread_facts h
  obtain ⟨it, h1, hy, -⟩ := C78_trim_filter (l1 ++ b :: l2) t hm hs
  refine ⟨it, h1, ?_⟩
  have hst := lone_stats (l1 := (l1.map (IntoF32.into : T → F32)).map val) (l2 := (l2.map (IntoF32.into : T → F32)).map val)
    (a := a) (b := (IntoF32.into b : F32).val)
    (by intro x hx; rw [List.map_map, List.mem_map] at hx; obtain ⟨y, hy, rfl⟩ := hx; exact e1 y hy)
    (by intro x hx; rw [List.map_map, List.mem_map] at hx; obtain ⟨y, hy, rfl⟩ := hx; exact e2 y hy)
    (by have := h.two; simpa using this)
  have hlen : ((l1.map (IntoF32.into : T → F32)).map val ++ (IntoF32.into b : F32).val :: (l2.map (IntoF32.into : T → F32)).map val) =
      ((l1 ++ b :: l2).map (IntoF32.into : T → F32)).map val := by simp
  rw [hlen, List.length_map, List.length_map] at hst
  have hmu := h.two
  have fin := h.fin
  have bnd := h.bound
  have big := h.big
  clear h
  generalize hL : (l1 ++ b :: l2) = L at *
  generalize qmean ((L.map (IntoF32.into : T → F32)).map val) = μ at *
  generalize qvar ((L.map (IntoF32.into : T → F32)).map val) = V at *
  obtain ⟨s1, s2, s3⟩ := hst
  have hN2 : (2 : ℝ) ≤ L.length := by exact_mod_cast hmu
  have hn' := (Rat.cast_le (K := ℝ)).2 hn
  have s1' := congrArg (Rat.cast : ℚ → ℝ) s1
  have s2' := congrArg (Rat.cast : ℚ → ℝ) s2
  have s3' := congrArg (Rat.cast : ℚ → ℝ) s3
  push_cast at hn' s1' s2' s3'
  rw [← hσ] at s3'
  have ht' : (1 : ℝ) ≤ t.val := by exact_mod_cast ht
  obtain ⟨bv, hbv⟩ : ∃ bv : F32, bv = IntoF32.into b := ⟨_, rfl⟩
  rw [← hbv] at s1' s2' s3'
  have dropb : ((IntoF32.into b - m : F32).abs / s).lt t = false := by
    have hb : b ∈ L := by rw [← hL]; simp
    refine item_drop (fin _ (List.mem_map_of_mem hb)) fm fs ft (dist_le (bnd b hb) big mm) slo' (by linarith) σ0 em shi le_rfl ?_
    rw [← hbv]
    refine (abs_le_of_sq_le_sq' ?_ (abs_nonneg _)).2
    rw [sq_abs, mul_pow]
    have N0 : (0 : ℝ) < L.length := by linarith
    refine le_of_mul_le_mul_left (a := (L.length : ℝ) ^ 2) ?_ (by positivity)
    have : (L.length : ℝ) ^ 2 * (bv.val - μ) ^ 2 = σ ^ 2 * L.length * (L.length - 1) ^ 2 := by
      rw [s3', ← mul_pow, ← mul_pow, mul_comm (L.length : ℝ), s1']
    rw [this]
    have := mul_le_mul_of_nonneg_left hn' (show 0 ≤ σ ^ 2 * L.length by positivity)
    refine le_trans (le_of_eq ?_) this
    ring
  have keepa : ∀ x ∈ L, (IntoF32.into x : F32).val = a → ((IntoF32.into x - m : F32).abs / s).lt t = true := by
    intro x hx hxa
    refine item_keep (fin _ (List.mem_map_of_mem hx)) fm fs ft (dist_le (bnd x hx) big mm) slo' (le_trans (by norm_num) ht) σ0 em slo
      (c := 0.75) (by norm_num) (by norm_num at ht' ⊢; linarith) ?_
    rw [hxa]
    refine abs_le_of_sq_le_sq ?_ (by positivity)
    have N0 : (0 : ℝ) < L.length := by linarith
    refine le_of_mul_le_mul_left (a := (L.length : ℝ) ^ 2) ?_ (by positivity)
    have : (L.length : ℝ) ^ 2 * (a - μ) ^ 2 = σ ^ 2 * L.length := by
      rw [s3', ← mul_pow, mul_comm (L.length : ℝ), s2']; ring
    rw [this, mul_pow]
    have h3 : (L.length : ℝ) ≤ L.length ^ 2 * 0.75 ^ 2 := by nlinarith
    have := mul_le_mul_of_nonneg_left h3 (sq_nonneg σ)
    refine this.trans (le_of_eq (by ring))
  rw [hy, ← hL, List.filter_append, List.filter_cons_of_neg (by rw [dropb]; simp), List.filter_eq_self.2, List.filter_eq_self.2]
  · intro x hx; exact keepa x (by rw [← hL]; simp [hx]) (e2 x hx)
  · intro x hx; exact keepa x (by rw [← hL]; simp [hx]) (e1 x hx)

/-- **C146.** `trim()` removes a lone outlier, and nothing else, from seven items or more. -/
theorem C146_seven {l1 l2 : List T} {b : T} {a B : ℚ} (h : Spread (l1 ++ b :: l2) B)
    (e1 : ∀ x ∈ l1, (IntoF32.into x : F32).val = a) (e2 : ∀ x ∈ l2, (IntoF32.into x : F32).val = a)
    (h7 : 7 ≤ (l1 ++ b :: l2).length) : ∃ it, trim (l1 ++ b :: l2) = .ok it ∧ yields it = l1 ++ l2 := by
  have ev : DEFAULT_THRESHOLD.val = 2 := val_lit_2_1
  refine C146_lone h e1 e2 (t := DEFAULT_THRESHOLD) fin_lit_2_1 (by rw [ev]; norm_num) ?_
  rw [ev]
  have : (7 : ℚ) ≤ (l1 ++ b :: l2).length := by exact_mod_cast h7
  generalize ((l1 ++ b :: l2).length : ℚ) = N at *
  norm_num
  nlinarith

end

/-- `trim` on concrete data, from the bits of the mean and of the standard deviation. -/
theorem trim_eval {l : List F32} {m s : F32} (hm : mean (l.map IntoF32.into) = .ok m) (hs : stddev l = .ok s) {r : List F32}
    (h : l.filter (fun n => ((n - m).abs / s).lt DEFAULT_THRESHOLD) = r) : ∃ it, trim l = .ok it ∧ yields it = r := by
  obtain ⟨it, h1, hy, -⟩ := C78_trim_filter l DEFAULT_THRESHOLD hm hs
  exact ⟨it, h1, hy.trans h⟩

/-- **C146, finding.** With six items it depends on the scale, through the error of `sqrt`: of five zeros and a `5`,
the `5` is removed; of five zeros and a `7`, nothing is. -/
theorem C146_six : (∃ it, trim [ofInt 0, ofInt 0, ofInt 0, ofInt 0, ofInt 0, ofInt 5] = .ok it ∧
      yields it = [ofInt 0, ofInt 0, ofInt 0, ofInt 0, ofInt 0]) ∧
    (∃ it, trim [ofInt 0, ofInt 0, ofInt 0, ofInt 0, ofInt 0, ofInt 7] = .ok it ∧
      yields it = [ofInt 0, ofInt 0, ofInt 0, ofInt 0, ofInt 0, ofInt 7]) := by
  constructor
  · refine trim_eval (m := ⟨0x3f555555#32⟩) (s := ⟨0x4002aaaa#32⟩) (eval_ok (by kernel_rfl) (by decide)) (eval_ok (by kernel_rfl) (by decide)) ?_
    have h0 : (((ofInt 0 : F32) - ⟨0x3f555555#32⟩).abs / ⟨0x4002aaaa#32⟩).lt DEFAULT_THRESHOLD = true := by kernel_rfl
    have h1 : (((ofInt 5 : F32) - ⟨0x3f555555#32⟩).abs / ⟨0x4002aaaa#32⟩).lt DEFAULT_THRESHOLD = false := by kernel_rfl
    simp only [List.filter, h0, h1]
  · refine trim_eval (m := ⟨0x3f955555#32⟩) (s := ⟨0x40415555#32⟩) (eval_ok (by kernel_rfl) (by decide)) (eval_ok (by kernel_rfl) (by decide)) ?_
    have h0 : (((ofInt 0 : F32) - ⟨0x3f955555#32⟩).abs / ⟨0x40415555#32⟩).lt DEFAULT_THRESHOLD = true := by kernel_rfl
    have h1 : (((ofInt 7 : F32) - ⟨0x3f955555#32⟩).abs / ⟨0x40415555#32⟩).lt DEFAULT_THRESHOLD = true := by kernel_rfl
    simp only [List.filter, h0, h1]

/-- **C146, finding.** The bound on the variance in `C146_five` is needed: of four `1.0`s and the next number after
`1.0`, `trim()` removes the last. -/
theorem C146_five_false : ∃ it, trim [one, one, one, one, (⟨0x3f800001#32⟩ : F32)] = .ok it ∧ yields it = [one, one, one, one] := by
  refine trim_eval (m := ⟨0x3f800000#32⟩) (s := ⟨0x33800000#32⟩) (eval_ok (by kernel_rfl) (by decide)) (eval_ok (by kernel_rfl) (by decide)) ?_
  have h0 : ((one - ⟨0x3f800000#32⟩).abs / ⟨0x33800000#32⟩).lt DEFAULT_THRESHOLD = true := by kernel_rfl
  have h1 : (((⟨0x3f800001#32⟩ : F32) - ⟨0x3f800000#32⟩).abs / ⟨0x33800000#32⟩).lt DEFAULT_THRESHOLD = false := by kernel_rfl
  simp only [List.filter, h0, h1]

/-- `999` stays in `1, 2, 3, 999, 5`. -/
example : Spread [ofInt 1, ofInt 2, ofInt 3, ofInt 999, ofInt 5] 999 := by
  have e : ([ofInt 1, ofInt 2, ofInt 3, ofInt 999, ofInt 5].map (IntoF32.into : F32 → F32)).map val = [1, 2, 3, 999, 5] := by
    simp only [List.map_cons, List.map_nil]
    have h : ∀ n : Int, n.natAbs ≤ 2 ^ 24 → ((IntoF32.into (ofInt n) : F32)).val = n := fun n hn => (ofInt_isVal hn).2
    rw [h 1 (by decide), h 2 (by decide), h 3 (by decide), h 999 (by decide), h 5 (by decide)]
    norm_num
  refine ⟨?_, by decide, by decide, ?_, by norm_num, ?_, ?_⟩
  · intro x hx
    simp only [List.map_cons, List.map_nil, List.mem_cons, List.not_mem_nil, or_false] at hx
    rcases hx with rfl | rfl | rfl | rfl | rfl <;> decide +kernel
  · intro x hx
    have : x.val ∈ ([ofInt 1, ofInt 2, ofInt 3, ofInt 999, ofInt 5].map (IntoF32.into : F32 → F32)).map val :=
      List.mem_map_of_mem (List.mem_map_of_mem (f := (IntoF32.into : F32 → F32)) hx)
    rw [e] at this
    simp only [List.mem_cons, List.not_mem_nil, or_false] at this
    show |x.val| ≤ 999
    rcases this with h | h | h | h | h <;> rw [h] <;> norm_num
  · rw [e]; norm_num [qvar, qmean]
  · rw [e]; norm_num [qvar, qmean]

/-- Six `1`s and a `9`: the `9` is removed. -/
example : Spread ([ofInt 1, ofInt 1, ofInt 1] ++ ofInt 9 :: [ofInt 1, ofInt 1, ofInt 1]) 9 := by
  have e : (([ofInt 1, ofInt 1, ofInt 1] ++ ofInt 9 :: [ofInt 1, ofInt 1, ofInt 1]).map (IntoF32.into : F32 → F32)).map val = [1, 1, 1, 9, 1, 1, 1] := by
    simp only [List.map_cons, List.map_nil, List.cons_append, List.nil_append]
    have h : ∀ n : Int, n.natAbs ≤ 2 ^ 24 → ((IntoF32.into (ofInt n) : F32)).val = n := fun n hn => (ofInt_isVal hn).2
    rw [h 1 (by decide), h 9 (by decide)]
    norm_num
  refine ⟨?_, by decide, by decide, ?_, by norm_num, ?_, ?_⟩
  · intro x hx
    simp only [List.map_cons, List.map_nil, List.mem_cons, List.not_mem_nil, or_false, List.cons_append, List.nil_append] at hx
    rcases hx with rfl | rfl | rfl | rfl | rfl | rfl | rfl <;> decide +kernel
  · intro x hx
    have : x.val ∈ (([ofInt 1, ofInt 1, ofInt 1] ++ ofInt 9 :: [ofInt 1, ofInt 1, ofInt 1]).map (IntoF32.into : F32 → F32)).map val :=
      List.mem_map_of_mem (List.mem_map_of_mem (f := (IntoF32.into : F32 → F32)) hx)
    rw [e] at this
    simp only [List.mem_cons, List.not_mem_nil, or_false] at this
    show |x.val| ≤ 9
    rcases this with h | h | h | h | h | h | h <;> rw [h] <;> norm_num
  · rw [e]; norm_num [qvar, qmean]
  · rw [e]; norm_num [qvar, qmean]

end Micromath.Props
