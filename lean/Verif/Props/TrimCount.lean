import Verif.Props.StatsErr

/-!
# C108: how many items `trim` can remove

Chebyshev's inequality survives the rounding errors: the deviations compared with the threshold are the ones whose
squares were added up for the standard deviation.
-/

set_option exponentiation.threshold 1000

namespace Micromath.Props
open F32 Spec Statistics

variable [Cfg]

theorem div_finite_left {x y : F32} (fy : y.isFinite = true) (h : (x / y).isFinite = true) : x.isFinite = true := by
  rcases class_cases x with hf | hi | hn
  · exact hf
  · exfalso
    have nx : x.isNaN = false := by
      by_contra hc
      rw [Bool.not_eq_false] at hc
      simp only [isNaN, isInf, decide_eq_true_eq] at hc hi
      omega
    have ny := not_nan_of_finite fy
    have iy : y.isInf = false := by
      by_contra hc
      rw [Bool.not_eq_false] at hc
      rw [not_finite_of_inf hc] at fy; simp at fy
    rw [div_def] at h
    simp only [div, nx, ny, hi, iy] at h
    have := pack_inf_not_finite (x.sign != y.sign)
    simp [this] at h
  · rw [not_finite_of_nan (div_nan (Or.inl hn))] at h; simp at h

omit [Cfg] in
theorem val_nonneg_of_sign {x : F32} (h : x.sign = false) : 0 ≤ x.val := by rw [val_of_pos h]; exact mval_nonneg _

/-- `sqrt` on every finite sign-positive number, subnormals and zero included: the square is not below the argument by
more than `2^-22` of it, and the result is at least `3 * 2^-65`. -/
theorem sqrt_lower {v : F32} (fv : v.isFinite = true) (hv : v.sign = false) :
    v.sqrt.isFinite = true ∧ 3 / 2 ^ 65 ≤ v.sqrt.val ∧ (1 - 1 / 2 ^ 22) * v.val ≤ v.sqrt.val ^ 2 := by
  have v0 := val_nonneg_of_sign hv
  by_cases hn : 1 / 2 ^ 126 ≤ v.val
  · obtain ⟨a, b, c⟩ := sqrt_bounds (x := v) ⟨fv, hn⟩
    refine ⟨a.1, ?_, b⟩
    have h0 : 0 ≤ v.sqrt.val := le_trans (by positivity) a.2
    refine le_of_sq_le_sq ?_ h0
    refine le_trans ?_ (le_trans (mul_le_mul_of_nonneg_left hn (by norm_num)) b)
    norm_num
  · rw [not_le] at hn
    have hm : v.mag < 2 ^ 23 := by
      by_contra hc
      have := (posNormal_iff (x := v)).2 ⟨hv, by omega, by
        have := fv; simp only [isFinite, decide_eq_true_eq] at this; have hi : infMag = 255 * 2 ^ 23 := by decide
        omega⟩
      exact absurd this.2 (not_le.2 hn)
    have hb : v.bits.toNat = v.mag := by rw [toNat_eq, hv]; simp
    have hs := sqrt_toNat (x := v) ((ge_zero_iff v).2 ⟨not_nan_of_finite fv, Or.inl hv⟩)
    rw [hb] at hs
    have hval : v.val = v.mag / 2 ^ 149 := by
      rw [val_of_pos hv, mval, magU, if_pos hm]
    obtain ⟨k, hk⟩ : ∃ k, k = v.mag / 2 := ⟨_, rfl⟩
    obtain ⟨p, q⟩ := val_of_bits (y := v.sqrt) (E := 63) (F := 2 ^ 22 + k) (by omega) (by omega) (by omega) (by rw [hs]; omega)
    have k0 : (0 : ℚ) ≤ k := by positivity
    have k1 : (k : ℚ) ≤ 2 ^ 22 - 1 := by
      have : k + 1 ≤ 2 ^ 22 := by omega
      have : ((k + 1 : Nat) : ℚ) ≤ ((2 ^ 22 : Nat) : ℚ) := by exact_mod_cast this
      push_cast at this; linarith
    have k2 : (v.mag : ℚ) ≤ 2 * k + 1 := by
      have : v.mag ≤ 2 * k + 1 := by omega
      exact_mod_cast this
    rw [Nat.cast_add, Nat.cast_pow, Nat.cast_ofNat] at q
    refine ⟨p.1, ?_, ?_⟩
    · rw [q]
      norm_num at k0 k1 ⊢
      linarith
    · rw [q, hval]
      have hB : (0 : ℚ) ≤ v.mag := by positivity
      have key : (v.mag : ℚ) * 2 ^ 25 ≤ (2 ^ 23 + (2 ^ 22 + k)) ^ 2 := by nlinarith
      have e : ((2 ^ 23 + (2 ^ 22 + (k : ℚ))) * 2 ^ (63 - 1) / 2 ^ 149) ^ 2 = (2 ^ 23 + (2 ^ 22 + k)) ^ 2 / 2 ^ 174 := by
        rw [div_pow, mul_pow]; ring
      rw [e, le_div_iff₀ (by norm_num)]
      refine le_trans ?_ key
      rw [show (1 - 1 / 2 ^ 22 : ℚ) * (v.mag / 2 ^ 149) * 2 ^ 174 = (1 - 1 / 2 ^ 22) * (v.mag * 2 ^ 25) by ring]
      nlinarith

/-- The fold of squares: if the result is finite, so is every square, and the result is not below the sum of the squares
by more than one rounding per item. -/
theorem sqsum_lower (m : F32) (l : List F32) (s : F32) (s0 : 0 ≤ s.val)
    (h : (l.foldl (fun sum item => let n := item - m; sum + n * n) s).isFinite = true) :
    (∀ x ∈ l, ((x - m) * (x - m)).isFinite = true) ∧ s.isFinite = true ∧
      (1 - 1 / 2 ^ 24) ^ l.length * (s.val + (l.map fun x => ((x - m) * (x - m)).val).sum) ≤
        (l.foldl (fun sum item => let n := item - m; sum + n * n) s).val := by
  induction l generalizing s with
  | nil => exact ⟨by simp, h, by simp⟩
  | cons x l ih =>
    rw [List.foldl_cons] at h ⊢
    have hq : (s + (x - m) * (x - m)).isFinite = true → 0 ≤ (s + (x - m) * (x - m)).val ∧
        (s.val + ((x - m) * (x - m)).val) * (1 - 1 / 2 ^ 24) ≤ (s + (x - m) * (x - m)).val ∧
        ((x - m) * (x - m)).isFinite = true ∧ s.isFinite = true ∧ 0 ≤ ((x - m) * (x - m)).val := by
      intro hf
      obtain ⟨a, b, c⟩ := add_finite_inv hf
      have q0 : 0 ≤ ((x - m) * (x - m)).val := by rw [mul_finite_val b]; exact RN_nonneg (mul_self_nonneg _)
      obtain ⟨d, hd, f, v⟩ := add_rel a b c
      obtain ⟨d1, d2⟩ := abs_le.1 hd
      rw [v]
      exact ⟨mul_nonneg (by linarith) (by linarith), mul_le_mul_of_nonneg_left (by linarith) (by linarith), b, a, q0⟩
    by_cases hf : (s + (x - m) * (x - m)).isFinite = true
    · obtain ⟨h0, h1, h2, h3, h4⟩ := hq hf
      obtain ⟨a, b, c⟩ := ih _ h0 h
      refine ⟨?_, h3, ?_⟩
      · intro y hy
        rcases List.mem_cons.1 hy with rfl | hy
        · exact h2
        · exact a y hy
      · refine le_trans ?_ c
        rw [List.map_cons, List.sum_cons, List.length_cons, pow_succ]
        have S0 : 0 ≤ (l.map fun x => ((x - m) * (x - m)).val).sum := by
          refine List.sum_nonneg ?_
          intro q hq
          obtain ⟨y, hy, rfl⟩ := List.mem_map.1 hq
          rw [mul_finite_val (a y hy)]; exact RN_nonneg (mul_self_nonneg _)
        have w0 : (0 : ℚ) < (1 - 1 / 2 ^ 24) ^ l.length := pow_pos (by norm_num) _
        rw [mul_assoc]
        refine mul_le_mul_of_nonneg_left ?_ w0.le
        linarith
    · exfalso
      have key : ∀ (l : List F32) (s : F32), s.isFinite = false →
          (l.foldl (fun sum item => let n := item - m; sum + n * n) s).isFinite = false := by
        intro l
        induction l with
        | nil => intro s hs; exact hs
        | cons y l ih =>
          intro s hs
          rw [List.foldl_cons]
          apply ih
          by_contra hc
          rw [Bool.not_eq_false] at hc
          rw [(add_finite_inv hc).1] at hs; simp at hs
      have := key l _ (by simpa using hf)
      rw [this] at h; simp at h

omit [Cfg] in
/-- Items on which a predicate fails, weighed against a sum over all items. -/
theorem count_le_sum {α : Type} (p : α → Bool) (g : α → ℚ) (l : List α) (c : ℚ) (g0 : ∀ x ∈ l, 0 ≤ g x)
    (h : ∀ x ∈ l, p x = false → c ≤ g x) : ((l.length - (l.filter p).length : ℚ)) * c ≤ (l.map g).sum := by
  induction l with
  | nil => simp
  | cons y l ih =>
    have := ih (fun x hx => g0 x (by simp [hx])) fun x hx => h x (by simp [hx])
    have y0 := g0 y (by simp)
    cases hp : p y with
    | true =>
      rw [List.filter_cons_of_pos hp, List.map_cons, List.sum_cons, List.length_cons, List.length_cons]
      push_cast
      linarith
    | false =>
      rw [List.filter_cons_of_neg (by simp [hp]), List.map_cons, List.sum_cons, List.length_cons]
      have := h y (by simp) hp
      push_cast
      linarith

section
variable {T : Type} [IntoF32 T]

set_option maxHeartbeats 1000000 in
/-- **C108.** If the variance of `2 <= n <= 2^22` items is finite, `trim_at(t)` with `t >= 1` removes at most
`(n - 1) / t^2` items, up to a factor `1 + (n + 16) / 2^23` for the rounding errors. -/
theorem C108_trim_count (l : List T) (h2 : 2 ≤ l.length) (hn : l.length ≤ 2 ^ 22) {v t : F32} (hv : variance l = .ok v)
    (fv : v.isFinite = true) (ft : t.isFinite = true) (ht : 1 ≤ t.val) :
    ∃ it, trimAt l t = .ok it ∧ (yields it).Sublist l ∧
      ((l.length : ℚ) - (yields it).length) * t.val ^ 2 ≤ (1 + (l.length + 16) / 2 ^ 23) * (l.length - 1) := by
  have hsg : v.sign = false := by
    rcases C76_variance_nonneg l h2 (by omega) hv with h | ⟨h, -⟩
    · rw [not_finite_of_nan h] at fv; simp at fv
    · exact h
  have hst := (C77_stddev l).1 v hv
  have hv' := hv
  unfold variance at hv'
  rcases hm : mean (l.map (IntoF32.into : T → F32)) with e | m
  · rw [hm, error_bind] at hv'; cases hv'
  rw [hm, ok_bind] at hv'
  have hve := Except.ok.inj hv'
  obtain ⟨it, h1, hy, hsub⟩ := C78_trim_filter l t hm hst
  refine ⟨it, h1, hsub, ?_⟩
  rw [hy]
  obtain ⟨fs, slo, ssq⟩ := sqrt_lower fv hsg
  obtain ⟨s, hs⟩ : ∃ s, s = v.sqrt := ⟨_, rfl⟩
  rw [← hs] at fs slo ssq ⊢
  -- the divisor
  have hnq2 : (2 : ℚ) ≤ l.length := by exact_mod_cast h2
  have hnq : (l.length : ℚ) ≤ 2 ^ 22 := by exact_mod_cast hn
  obtain ⟨fd1, vd1⟩ := ofInt_isVal (n := (l.length : Int)) (by omega)
  push_cast at vd1
  have hdv : IsVal (ofInt l.length - one) (l.length - 1 : ℚ) := by
    obtain ⟨a, b⟩ := sub_val fd1 fin_one (by
      rw [vd1, val_one, abs_of_nonneg (by linarith)]
      refine lt_of_le_of_lt (b := 2 ^ 22) (by linarith) (by norm_num [ovf]))
    refine ⟨a, ?_⟩
    rw [b, vd1, val_one]
    have := RN_of_rep (rep_int (m := (l.length : Int) - 1) (by omega))
    push_cast at this
    exact this
  have hdpos : (0 : ℚ) < l.length - 1 := by linarith
  have fS : (sqDev m (l.map IntoF32.into)).isFinite = true := div_finite_left hdv.1 (by rw [hve]; exact fv)
  obtain ⟨fq, -, low⟩ := sqsum_lower m (l.map IntoF32.into) posZero (by rw [val_posZero]) fS
  rw [val_posZero, zero_add, List.length_map, List.map_map] at low
  change _ ≤ (sqDev m (l.map IntoF32.into)).val at low
  obtain ⟨S, hS⟩ : ∃ S, S = sqDev m (l.map (IntoF32.into : T → F32)) := ⟨_, rfl⟩
  rw [← hS] at low fS hve
  -- the quotient
  have qlt : |S.val / (ofInt l.length - one).val| < ovf := by
    by_contra hc
    rw [← hve, div_ovf fS hdv.1 (by rw [hdv.2]; linarith) (not_lt.1 hc), pack_inf_not_finite] at fv
    simp at fv
  obtain ⟨-, ev⟩ := div_err_uf fS hdv.1 (by rw [hdv.2]; linarith) qlt
  rw [hve, hdv.2] at ev
  have hSup : S.val ≤ (l.length - 1) * (s.val ^ 2 * (1 + 10 / 2 ^ 24)) := by
    have e1 := (abs_le.1 ev).1
    have hq : S.val / (l.length - 1) ≤ s.val ^ 2 * (1 + 10 / 2 ^ 24) := by
      have s2 : 9 / 2 ^ 130 ≤ s.val ^ 2 := by
        refine le_trans ?_ (pow_le_pow_left₀ (by norm_num) slo 2)
        norm_num
      by_cases hz : 0 ≤ S.val / (l.length - 1)
      · rw [abs_of_nonneg hz] at e1
        norm_num at e1 s2 ssq ⊢
        linarith
      · have : 0 ≤ s.val ^ 2 * (1 + 10 / 2 ^ 24) := by positivity
        linarith
    rw [div_le_iff₀ hdpos] at hq
    linarith
  -- a dropped item
  have spos : 0 < s.val := lt_of_lt_of_le (by norm_num) slo
  have drop : ∀ n ∈ l, ((IntoF32.into n - m).abs / s).lt t = false →
      (t.val * s.val) ^ 2 * (1 - 7 / 2 ^ 24) ≤ ((IntoF32.into n - m) * (IntoF32.into n - m)).val := by
    intro n hn' hk
    have fsq := fq _ (List.mem_map_of_mem hn')
    obtain ⟨fd, -, hlt⟩ := mul_finite_inv fsq
    obtain ⟨d, hd⟩ : ∃ d : F32, d = IntoF32.into n - m := ⟨_, rfl⟩
    rw [← hd] at fsq fd hlt hk ⊢
    have fa : d.abs.isFinite = true := by simpa using fd
    have hd1 : t.val * s.val * (1 - 1 / 2 ^ 24) ≤ |d.val| := by
      by_cases ho : |d.abs.val / s.val| < ovf
      · obtain ⟨f, e⟩ := div_val fa fs spos.ne' ho
        have : t.val ≤ (d.abs / s).val := by
          by_contra hc
          rw [(lt_iff f ft).2 (not_le.1 hc)] at hk; simp at hk
        obtain ⟨-, er⟩ := div_err_uf fa fs spos.ne' ho
        rw [val_abs] at er ho
        have q0 : 0 ≤ |d.val| / s.val := by positivity
        rw [abs_of_nonneg q0] at er
        have e2 := (abs_le.1 er).2
        have hq : t.val * (1 - 1 / 2 ^ 24) ≤ |d.val| / s.val := by
          by_contra hc
          rw [not_le] at hc
          -- the quotient is at least one half, so it is rounded with a relative error
          have hn1 : 1 / 2 ^ 126 ≤ |d.abs.val / s.val| := by
            rw [val_abs, abs_of_nonneg q0]
            norm_num at e2 ⊢
            linarith
          obtain ⟨δ, hδ, -, vδ⟩ := div_rel fa fs spos.ne' hn1 (by rw [val_abs]; exact ho)
          obtain ⟨δ1, δ2⟩ := abs_le.1 hδ
          rw [val_abs] at vδ
          have : (d.abs / s).val ≤ |d.val| / s.val * (1 + 1 / 2 ^ 24) := by
            rw [vδ]; exact mul_le_mul_of_nonneg_left (by linarith) q0
          norm_num at *
          linarith
        rw [le_div_iff₀ spos] at hq
        linarith
      · rw [not_lt, val_abs, abs_of_nonneg (by positivity), le_div_iff₀ spos] at ho
        refine le_trans ?_ ho
        have : t.val ≤ ovf := by
          have := abs_val_lt_ovf ft
          rw [abs_of_nonneg (by linarith)] at this
          exact this.le
        have h1 := mul_le_mul_of_nonneg_right this spos.le
        have h2 : 0 ≤ t.val * s.val := by positivity
        norm_num at h2 ⊢
        linarith
    obtain ⟨-, em⟩ := mul_err_uf fd fd hlt
    have e1 := (abs_le.1 em).1
    have hts : 0 ≤ t.val * s.val := by positivity
    have hsq : (t.val * s.val) ^ 2 * (1 - 1 / 2 ^ 24) ^ 2 ≤ d.val * d.val := by
      rw [← abs_mul_abs_self d.val, ← mul_pow, sq]
      exact mul_self_le_mul_self (mul_nonneg hts (by norm_num)) hd1
    rw [abs_of_nonneg (mul_self_nonneg _)] at e1
    have ts2 : 9 / 2 ^ 130 ≤ (t.val * s.val) ^ 2 := by
      have : 3 / 2 ^ 65 ≤ t.val * s.val := slo.trans (le_mul_of_one_le_left spos.le ht)
      refine le_trans ?_ (pow_le_pow_left₀ (by norm_num) this 2)
      norm_num
    generalize (t.val * s.val) ^ 2 = Z at *
    norm_num at e1 hsq ts2 ⊢
    linarith
  have cnt := count_le_sum (fun n => ((IntoF32.into n - m).abs / s).lt t)
    (fun n : T => ((IntoF32.into n - m) * (IntoF32.into n - m)).val) l _ (by
      intro n hn'
      show 0 ≤ ((IntoF32.into n - m) * (IntoF32.into n - m) : F32).val
      rw [mul_finite_val (fq _ (List.mem_map_of_mem hn'))]; exact RN_nonneg (mul_self_nonneg _)) drop
  have hcle : ((l.filter fun n => ((IntoF32.into n - m).abs / s).lt t).length : ℚ) ≤ l.length := by
    exact_mod_cast List.length_filter_le _ _
  generalize hK : ((l.length : ℚ) - (l.filter fun n => ((IntoF32.into n - m).abs / s).lt t).length) = K at *
  have K0 : 0 ≤ K := by linarith
  change K * _ ≤ (l.map ((fun x => ((x - m) * (x - m)).val) ∘ IntoF32.into)).sum at cnt
  generalize (l.map ((fun x : F32 => ((x - m) * (x - m)).val) ∘ IntoF32.into)).sum = W at *
  have bern : 1 - (l.length : ℚ) / 2 ^ 24 ≤ (1 - 1 / 2 ^ 24) ^ l.length := by
    have := one_add_mul_le_pow (a := (-(1 / 2 ^ 24) : ℚ)) (by norm_num) l.length
    refine le_trans (le_of_eq ?_) (this.trans (le_of_eq ?_))
    · ring
    · congr 1; ring
  have s2 : 0 < s.val ^ 2 := by positivity
  have Z0 : 0 ≤ K * ((t.val * s.val) ^ 2 * (1 - 7 / 2 ^ 24)) := by
    have : (0 : ℚ) ≤ 1 - 7 / 2 ^ 24 := by norm_num
    positivity
  have c1 : (1 - (l.length : ℚ) / 2 ^ 24) * (K * ((t.val * s.val) ^ 2 * (1 - 7 / 2 ^ 24))) ≤
      (l.length - 1) * (s.val ^ 2 * (1 + 10 / 2 ^ 24)) := by
    refine le_trans ?_ (low.trans hSup)
    exact mul_le_mul bern cnt Z0 (pow_nonneg (by norm_num) _)
  have c2 : (1 - (l.length : ℚ) / 2 ^ 24) * (1 - 7 / 2 ^ 24) * (K * t.val ^ 2) ≤ (l.length - 1) * (1 + 10 / 2 ^ 24) := by
    refine le_of_mul_le_mul_right (a := s.val ^ 2) ?_ s2
    refine le_trans (le_of_eq ?_) (c1.trans (le_of_eq ?_)) <;> ring
  have hgoal : (l.length - 1 : ℚ) * (1 + 10 / 2 ^ 24) ≤
      (1 - (l.length : ℚ) / 2 ^ 24) * (1 - 7 / 2 ^ 24) * ((1 + (l.length + 16) / 2 ^ 23) * (l.length - 1)) := by
    have : (1 + 10 / 2 ^ 24 : ℚ) ≤ (1 - (l.length : ℚ) / 2 ^ 24) * (1 - 7 / 2 ^ 24) * (1 + (l.length + 16) / 2 ^ 23) := by
      generalize (l.length : ℚ) = N at *
      norm_num at *
      nlinarith
    nlinarith
  have cpos : 0 < (1 - (l.length : ℚ) / 2 ^ 24) * (1 - 7 / 2 ^ 24) := by
    refine mul_pos ?_ (by norm_num)
    have : (l.length : ℚ) / 2 ^ 24 ≤ 2 ^ 22 / 2 ^ 24 := div_le_div_of_nonneg_right hnq (by norm_num)
    refine sub_pos.2 (lt_of_le_of_lt this (by norm_num))
  exact le_of_mul_le_mul_left (c2.trans hgoal) cpos

/-- **C108.** `trim()` on at most `2000` items with a finite variance removes fewer than a quarter of them; nothing is
removed from four items or fewer. -/
theorem C108_trim_default (l : List T) (h2 : 2 ≤ l.length) (hn : l.length ≤ 2000) {v : F32} (hv : variance l = .ok v)
    (fv : v.isFinite = true) :
    ∃ it, trim l = .ok it ∧ 3 * l.length < 4 * (yields it).length ∧ (l.length ≤ 4 → yields it = l) := by
  obtain ⟨it, h, hs, hc⟩ := C108_trim_count l h2 (by omega) hv fv (t := DEFAULT_THRESHOLD) fin_lit_2_1
    (by show 1 ≤ (lit 2 1).val; rw [val_lit_2_1]; norm_num)
  have ev : DEFAULT_THRESHOLD.val = 2 := val_lit_2_1
  rw [ev] at hc
  have hle := hs.length_le
  have hnq : (l.length : ℚ) ≤ 2000 := by exact_mod_cast hn
  have hnq2 : (2 : ℚ) ≤ l.length := by exact_mod_cast h2
  have key : 3 * l.length < 4 * (yields it).length := by
    have : (3 : ℚ) * l.length < 4 * (yields it).length := by
      generalize (l.length : ℚ) = N at *
      norm_num at *
      nlinarith
    exact_mod_cast this
  exact ⟨it, h, key, fun h4 => hs.eq_of_length_le (by omega)⟩

end

/-- A finite variance of four items: nothing is removed. -/
example : ∃ v, variance [ofInt 1, ofInt 2, ofInt 3, ofInt 4] = .ok v ∧ v.isFinite = true :=
  ⟨⟨0x3fd55555#32⟩, eval_ok (by kernel_rfl) (by decide), by decide⟩

end Micromath.Props
