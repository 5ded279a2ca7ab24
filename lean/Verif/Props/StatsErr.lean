import Verif.Props.Stats
import Verif.Props.VecNorm

/-!
# C94, C95: accuracy of `Sum`, `mean`, `variance` and `stddev`
-/

set_option exponentiation.threshold 1000

namespace Micromath.Props
open F32 Spec Statistics

variable [Cfg]

/-- The exact sum, the sum of the magnitudes, the exact mean and the exact sample variance of a list of rationals. -/
def qsum (l : List ℚ) : ℚ := l.sum
@[inherit_doc qsum] def qabs (l : List ℚ) : ℚ := (l.map fun x => |x|).sum
@[inherit_doc qsum] def qmean (l : List ℚ) : ℚ := l.sum / l.length
@[inherit_doc qsum] def qvar (l : List ℚ) : ℚ := (l.map fun x => (x - qmean l) ^ 2).sum / (l.length - 1)

/-- All items are finite. -/
def AllFinite (l : List F32) : Prop := ∀ x ∈ l, x.isFinite = true

omit [Cfg] in
theorem qabs_nonneg (l : List ℚ) : 0 ≤ qabs l :=
  List.sum_nonneg (by intro x hx; obtain ⟨y, -, rfl⟩ := List.mem_map.1 hx; exact abs_nonneg y)

omit [Cfg] in
/-- `(1 + 2^-24)^n ≤ 1 + n / 2^23` for `n ≤ 2^23`. -/
theorem grow_le {n : Nat} (h : n ≤ 2 ^ 23) : (1 + 1 / 2 ^ 24 : ℚ) ^ n ≤ 1 + n / 2 ^ 23 := by
  have hn : (n : ℚ) ≤ 2 ^ 23 := by exact_mod_cast h
  have h1 : 1 + (n : ℚ) * (-(1 / 2 ^ 24)) ≤ (1 + -(1 / 2 ^ 24)) ^ n := one_add_mul_le_pow (by norm_num) n
  have h2 : (1 + 1 / 2 ^ 24 : ℚ) ^ n * (1 + -(1 / 2 ^ 24)) ^ n ≤ 1 := by
    rw [← mul_pow]; exact pow_le_one₀ (by norm_num) (by norm_num)
  have h3 : (0 : ℚ) < (1 + 1 / 2 ^ 24) ^ n := by positivity
  have h0 : (0 : ℚ) ≤ n := by positivity
  by_contra hc
  rw [not_le] at hc
  obtain ⟨t, ht⟩ : ∃ t : ℚ, t = n / 2 ^ 24 := ⟨_, rfl⟩
  have t0 : 0 ≤ t := by rw [ht]; positivity
  have t1 : t ≤ 1 / 2 := by rw [ht, div_le_iff₀ (by norm_num)]; norm_num at hn ⊢; linarith
  have e1 : (n : ℚ) / 2 ^ 23 = 2 * t := by rw [ht]; ring
  have e2 : 1 + (n : ℚ) * (-(1 / 2 ^ 24)) = 1 - t := by rw [ht]; ring
  rw [e1] at hc
  rw [e2] at h1
  have h4 := mul_lt_mul_of_pos_right hc (show 0 < 1 - t by linarith)
  have h5 := mul_le_mul_of_nonneg_left h1 h3.le
  nlinarith

omit [Cfg] in
theorem grow_le2 {n : Nat} (hn : n ≤ 2 ^ 23) : (1 + 1 / 2 ^ 24 : ℚ) ^ n ≤ 2 := by
  have hn' : (n : ℚ) ≤ 2 ^ 23 := by exact_mod_cast hn
  have : (n : ℚ) / 2 ^ 23 ≤ 1 := by rw [div_le_one (by norm_num)]; exact hn'
  linarith [grow_le hn]

/-- The fold behind `Sum` and `mean`. -/
theorem fold_err (l : List F32) (fl : AllFinite l) (s : F32) (S A : ℚ) (k : Nat) (fs : s.isFinite = true) (hS : |S| ≤ A)
    (he : |s.val - S| ≤ ((1 + 1 / 2 ^ 24) ^ k - 1) * A)
    (ho : (1 + 1 / 2 ^ 24) ^ (k + l.length) * (A + qabs (l.map val)) < ovf) :
    (l.foldl (· + ·) s).isFinite = true ∧
      |(l.foldl (· + ·) s).val - (S + qsum (l.map val))| ≤ ((1 + 1 / 2 ^ 24) ^ (k + l.length) - 1) * (A + qabs (l.map val)) := by
  induction l generalizing s S A k with
  | nil =>
    have e1 : qsum (([] : List F32).map val) = 0 := by simp [qsum]
    have e2 : qabs (([] : List F32).map val) = 0 := by simp [qabs]
    rw [e1, e2, add_zero, add_zero]
    exact ⟨fs, he⟩
  | cons x l ih =>
    have hA : 0 ≤ A := (abs_nonneg _).trans hS
    have hl := qabs_nonneg (l.map val)
    have hx := abs_nonneg x.val
    have eq1 : qabs ((x :: l).map val) = |x.val| + qabs (l.map val) := by simp [qabs]
    have eq2 : qsum ((x :: l).map val) = x.val + qsum (l.map val) := by simp [qsum]
    have hg1 : (1 : ℚ) ≤ (1 + 1 / 2 ^ 24) ^ k := one_le_pow₀ (by norm_num)
    have hg2 : (1 + 1 / 2 ^ 24 : ℚ) ^ k ≤ (1 + 1 / 2 ^ 24) ^ (k + (x :: l).length) := pow_le_pow_right₀ (by norm_num) (by omega)
    have hsx : |s.val + x.val| ≤ (1 + 1 / 2 ^ 24) ^ k * (A + |x.val|) := by
      have h1 : |s.val| ≤ (1 + 1 / 2 ^ 24) ^ k * A := by
        have := abs_add_le (s.val - S) S
        rw [sub_add_cancel] at this
        linarith
      have h2 := abs_add_le s.val x.val
      have h3 : |x.val| ≤ (1 + 1 / 2 ^ 24) ^ k * |x.val| := le_mul_of_one_le_left hx hg1
      linarith
    obtain ⟨d, hd, f, v⟩ := add_rel fs (fl x (by simp)) (lt_of_le_of_lt (hsx.trans (by
      rw [eq1]
      exact mul_le_mul hg2 (by linarith) (by positivity) (by positivity))) ho)
    have := ih (fun y hy => fl y (by simp [hy])) (s + x) (S + x.val) (A + |x.val|) (k + 1) f ((abs_add_le _ _).trans (by linarith)) (by
      rw [v, show (s.val + x.val) * (1 + d) - (S + x.val) = (s.val - S) * (1 + d) + (S + x.val) * d by ring]
      refine (abs_add_le _ _).trans ?_
      rw [abs_mul, abs_mul]
      have hd1 : |1 + d| ≤ 1 + 1 / 2 ^ 24 := (abs_add_le _ _).trans (by rw [abs_one]; linarith)
      have t1 := mul_le_mul he hd1 (abs_nonneg _) ((abs_nonneg _).trans he)
      have t2 := mul_le_mul ((abs_add_le S x.val).trans (add_le_add_left hS |x.val|)) hd (abs_nonneg _) (by positivity)
      have t3 : 0 ≤ ((1 + 1 / 2 ^ 24) ^ k - 1) * (1 + 1 / 2 ^ 24) * |x.val| := by
        have : (0 : ℚ) ≤ (1 + 1 / 2 ^ 24) ^ k - 1 := by linarith
        positivity
      rw [pow_succ]
      linarith) (by
      rw [eq1] at ho
      have e : k + 1 + l.length = k + (x :: l).length := by simp; omega
      rw [e, add_assoc]; exact ho)
    rw [List.foldl_cons, eq1, eq2]
    have e : k + 1 + l.length = k + (x :: l).length := by simp; omega
    rw [e, add_assoc, add_assoc] at this
    exact this

/-- **C94.** Summation: at most `n` relative roundings of the sum of magnitudes; no overflow below `2^126`. -/
theorem C94_sum (l : List F32) (fl : AllFinite l) (hn : l.length ≤ 2 ^ 23) (hA : qabs (l.map val) ≤ 2 ^ 126) :
    (l.foldl (· + ·) posZero).isFinite = true ∧
      |(l.foldl (· + ·) posZero).val - qsum (l.map val)| ≤ ((1 + 1 / 2 ^ 24) ^ l.length - 1) * qabs (l.map val) := by
  have h0 := qabs_nonneg (l.map val)
  have hg := grow_le hn
  have hn' : (l.length : ℚ) ≤ 2 ^ 23 := by exact_mod_cast hn
  have := fold_err l fl posZero 0 0 0 fin_posZero (by simp) (by rw [val_posZero]; simp) (by
    rw [zero_add, zero_add]
    have : (1 + 1 / 2 ^ 24 : ℚ) ^ l.length ≤ 2 := grow_le2 hn
    refine lt_of_le_of_lt (mul_le_mul this hA h0 (by norm_num)) (by norm_num [ovf]))
  simpa using this

/-- **C94.** `mean`: one more rounding. -/
theorem C94_mean (l : List F32) (fl : AllFinite l) (h0 : l ≠ []) (hn : l.length ≤ 2 ^ 23) (hA : qabs (l.map val) ≤ 2 ^ 126) :
    ∃ m, mean l = .ok m ∧ m.isFinite = true ∧
      |m.val - qmean (l.map val)| ≤ ((1 + 1 / 2 ^ 24) ^ (l.length + 1) - 1) * (qabs (l.map val) / l.length) + 1 / 2 ^ 150 := by
  obtain ⟨f, e⟩ := C94_sum l fl hn hA
  obtain ⟨fn, vn⟩ := ofInt_isVal (n := (l.length : Int)) (by omega)
  have hpos : 0 < l.length := List.length_pos_iff.2 h0
  have hq : (0 : ℚ) < l.length := by exact_mod_cast hpos
  have hq1 : (1 : ℚ) ≤ l.length := by exact_mod_cast hpos
  push_cast at vn
  have hA0 := qabs_nonneg (l.map val)
  have hg := grow_le hn
  have hn' : (l.length : ℚ) ≤ 2 ^ 23 := by exact_mod_cast hn
  have hg1 : (1 : ℚ) ≤ (1 + 1 / 2 ^ 24) ^ l.length := one_le_pow₀ (by norm_num)
  have hg2 : (1 + 1 / 2 ^ 24 : ℚ) ^ l.length ≤ 2 := grow_le2 hn
  generalize hs : l.foldl (· + ·) posZero = s at *
  have hS : |qsum (l.map val)| ≤ qabs (l.map val) := by
    unfold qsum qabs
    exact List.le_sum_of_subadditive (fun x : ℚ => |x|) (by simp) abs_add_le _
  have hsA : |s.val| ≤ (1 + 1 / 2 ^ 24) ^ l.length * qabs (l.map val) := by
    have := abs_add_le (s.val - qsum (l.map val)) (qsum (l.map val))
    rw [sub_add_cancel] at this
    linarith
  have hdiv : |s.val / l.length| ≤ (1 + 1 / 2 ^ 24) ^ l.length * (qabs (l.map val) / l.length) := by
    rw [abs_div, abs_of_pos hq, ← mul_div_assoc]
    exact div_le_div_of_nonneg_right hsA hq.le
  obtain ⟨fm, em⟩ := div_err_uf f fn (by rw [vn]; exact hq.ne') (by
    rw [vn]
    refine lt_of_le_of_lt hdiv ?_
    have : qabs (l.map val) / l.length ≤ 2 ^ 126 := (div_le_self hA0 hq1).trans hA
    refine lt_of_le_of_lt (mul_le_mul hg2 this (by positivity) (by norm_num)) (by norm_num [ovf]))
  rw [vn] at em
  refine ⟨_, C75_mean l (by omega), by rw [hs]; exact fm, ?_⟩
  rw [hs]
  have e1 : s.val / l.length - qmean (l.map val) = (s.val - qsum (l.map val)) / l.length := by
    unfold qmean qsum; rw [List.length_map]; ring
  have e2 : |s.val / l.length - qmean (l.map val)| ≤ ((1 + 1 / 2 ^ 24) ^ l.length - 1) * (qabs (l.map val) / l.length) := by
    rw [e1, abs_div, abs_of_pos hq, ← mul_div_assoc]
    exact div_le_div_of_nonneg_right e hq.le
  have e3 := abs_sub_le (s / ofInt l.length).val (s.val / l.length) (qmean (l.map val))
  rw [pow_succ]
  have : 0 ≤ qabs (l.map val) / l.length := by positivity
  nlinarith

/-! ### C95: variance -/

/-- One term of the fold: a rounded squared deviation. -/
theorem dev_err {x m : F32} (fx : x.isFinite = true) (fm : m.isFinite = true) (hx : |x.val| ≤ 2 ^ 48) (hm : |m.val| ≤ 2 ^ 49) :
    ((x - m) * (x - m)).isFinite = true ∧ (1 - 1 / 2 ^ 24) ^ 3 * (x.val - m.val) ^ 2 - 1 / 2 ^ 150 ≤ ((x - m) * (x - m)).val ∧
      ((x - m) * (x - m)).val ≤ (1 + 1 / 2 ^ 24) ^ 3 * (x.val - m.val) ^ 2 + 1 / 2 ^ 150 := by
  have hD : |x.val - m.val| ≤ 2 ^ 50 := (abs_sub _ _).trans (by norm_num at hx hm ⊢; linarith)
  obtain ⟨d, hd, f, v⟩ := sub_rel fx fm (lt_of_le_of_lt hD (by norm_num [ovf]))
  obtain ⟨d1, d2⟩ := abs_le.1 hd
  generalize x.val - m.val = D at *
  have hp : 0 ≤ D ^ 2 := sq_nonneg D
  have e : (x - m).val * (x - m).val = D ^ 2 * (1 + d) ^ 2 := by rw [v]; ring
  have b1 : (1 - 1 / 2 ^ 24) ^ 2 ≤ (1 + d) ^ 2 := pow_le_pow_left₀ (by norm_num) (by linarith) 2
  have b2 : (1 + d) ^ 2 ≤ (1 + 1 / 2 ^ 24) ^ 2 := pow_le_pow_left₀ (by linarith) (by linarith) 2
  have hD2 : D ^ 2 ≤ 2 ^ 100 := by
    rw [← sq_abs]; exact (pow_le_pow_left₀ (abs_nonneg _) hD 2).trans (by norm_num)
  have c1 := mul_le_mul_of_nonneg_left b1 hp
  have c2 := mul_le_mul_of_nonneg_left b2 hp
  have c0 : 0 ≤ D ^ 2 * (1 + d) ^ 2 := by positivity
  obtain ⟨fq, eq⟩ := mul_err_uf f f (by
    rw [e, abs_of_nonneg c0]
    refine lt_of_le_of_lt (b := 2 ^ 101) ?_ (by norm_num [ovf])
    norm_num at c2 hD2 ⊢; linarith)
  rw [e, abs_of_nonneg c0] at eq
  obtain ⟨q1, q2⟩ := abs_le.1 eq
  refine ⟨fq, ?_, ?_⟩
  · norm_num at *; linarith
  · norm_num at *; linarith

/-- The fold of squared deviations. -/
theorem sqdev_err {m : F32} (fm : m.isFinite = true) (hm : |m.val| ≤ 2 ^ 49) (l : List F32) (fl : AllFinite l) (hl : ∀ x ∈ l, |x.val| ≤ 2 ^ 48)
    (s : F32) (P : ℚ) (k : Nat) (hk : k + l.length ≤ 2 ^ 23) (fs : s.isFinite = true) (hP : 0 ≤ P) (hP2 : P ≤ k * 2 ^ 100)
    (s0 : 0 ≤ s.val) (h1 : (1 - 1 / 2 ^ 24) ^ (k + 3) * P - k * (1 + 1 / 2 ^ 24) ^ k / 2 ^ 150 ≤ s.val)
    (h2 : s.val ≤ (1 + 1 / 2 ^ 24) ^ (k + 3) * P + k * (1 + 1 / 2 ^ 24) ^ k / 2 ^ 150) {r : F32} {Q : ℚ}
    (hr : r = l.foldl (fun sum item => let n := item - m; sum + n * n) s) (hQ : Q = P + (l.map fun x => (x.val - m.val) ^ 2).sum) :
    r.isFinite = true ∧ 0 ≤ Q ∧ Q ≤ (k + l.length : Nat) * 2 ^ 100 ∧ 0 ≤ r.val ∧
      (1 - 1 / 2 ^ 24) ^ (k + l.length + 3) * Q - (k + l.length : Nat) * (1 + 1 / 2 ^ 24) ^ (k + l.length) / 2 ^ 150 ≤ r.val ∧
      r.val ≤ (1 + 1 / 2 ^ 24) ^ (k + l.length + 3) * Q + (k + l.length : Nat) * (1 + 1 / 2 ^ 24) ^ (k + l.length) / 2 ^ 150 := by
  induction l generalizing s P k with
  | nil =>
    simp only [List.foldl_nil, List.map_nil, List.sum_nil, add_zero] at hr hQ
    subst hr hQ
    exact ⟨fs, hP, hP2, s0, h1, h2⟩
  | cons x l ih =>
    obtain ⟨fq, q1, q2⟩ := dev_err (fl x (by simp)) fm (hl x (by simp)) hm
    have q0 : 0 ≤ ((x - m) * (x - m)).val := by
      rw [mul_finite_val fq]; exact RN_nonneg (mul_self_nonneg _)
    have hD2 : (x.val - m.val) ^ 2 ≤ 2 ^ 100 := by
      rw [← sq_abs]
      have hx := hl x (by simp)
      have : |x.val - m.val| ≤ 2 ^ 50 := (abs_sub _ _).trans (by norm_num at hx hm ⊢; linarith)
      exact (pow_le_pow_left₀ (abs_nonneg _) this 2).trans (by norm_num)
    have hD0 := sq_nonneg (x.val - m.val)
    have hlen : (x :: l).length = l.length + 1 := rfl
    have hkq : (k : ℚ) + 1 ≤ 2 ^ 23 := by
      have : k + 1 ≤ 2 ^ 23 := by omega
      exact_mod_cast this
    have hk0 : (0 : ℚ) ≤ k := by positivity
    have hgk : (1 + 1 / 2 ^ 24 : ℚ) ^ k ≤ 2 := grow_le2 (by omega)
    have hg0 : (1 : ℚ) ≤ (1 + 1 / 2 ^ 24) ^ k := one_le_pow₀ (by norm_num)
    have hl0 : (0 : ℚ) < (1 - 1 / 2 ^ 24) ^ k := pow_pos (by norm_num) _
    have hl1 : (1 - 1 / 2 ^ 24 : ℚ) ^ k ≤ 1 := pow_le_one₀ (by norm_num) (by norm_num)
    rw [pow_add] at h1 h2
    obtain ⟨g, hg⟩ : ∃ g : ℚ, g = (1 + 1 / 2 ^ 24) ^ k := ⟨_, rfl⟩
    obtain ⟨w, hw⟩ : ∃ w : ℚ, w = (1 - 1 / 2 ^ 24) ^ k := ⟨_, rfl⟩
    rw [← hg] at h2 hgk hg0 h1
    rw [← hw] at h1 hl0 hl1
    obtain ⟨q, hq⟩ : ∃ q : ℚ, q = ((x - m) * (x - m)).val := ⟨_, rfl⟩
    obtain ⟨D, hD⟩ : ∃ D : ℚ, D = (x.val - m.val) ^ 2 := ⟨_, rfl⟩
    rw [← hq, ← hD] at q1 q2
    rw [← hq] at q0
    rw [← hD] at hD2 hD0
    have hgP : g * P ≤ 2 * P := mul_le_mul_of_nonneg_right hgk hP
    have hkg : (k : ℚ) * g ≤ k * 2 := mul_le_mul_of_nonneg_left hgk hk0
    have hsum : 0 ≤ s.val + q := by linarith
    have hov : |s.val + ((x - m) * (x - m)).val| < ovf := by
      rw [← hq, abs_of_nonneg hsum]
      refine lt_of_le_of_lt (b := 2 ^ 127) ?_ (by norm_num [ovf])
      norm_num at *
      linarith
    obtain ⟨d, hd, f, v⟩ := add_rel fs fq hov
    obtain ⟨d1, d2⟩ := abs_le.1 hd
    rw [← hq] at v
    have v0 : 0 ≤ (s + (x - m) * (x - m)).val := by
      rw [v]; exact mul_nonneg hsum (by linarith)
    have v1 : (s + (x - m) * (x - m)).val ≤ (s.val + q) * (1 + 1 / 2 ^ 24) := by
      rw [v]; exact mul_le_mul_of_nonneg_left (by linarith) hsum
    have v2 : (s.val + q) * (1 - 1 / 2 ^ 24) ≤ (s + (x - m) * (x - m)).val := by
      rw [v]; exact mul_le_mul_of_nonneg_left (by linarith) hsum
    have gD := mul_le_mul_of_nonneg_right hg0 hD0
    have wD := mul_le_mul_of_nonneg_right hl1 hD0
    have kg0 : 0 ≤ k * g := by positivity
    obtain ⟨r1, r2, r3, r4, r5, r6⟩ := ih (fun y hy => fl y (by simp [hy])) (fun y hy => hl y (by simp [hy])) (s + (x - m) * (x - m)) (P + D) (k + 1) (by omega) f
      (by linarith) (by push_cast; linarith) v0
      (by
        have e1 : (1 - 1 / 2 ^ 24 : ℚ) ^ (k + 1 + 3) = w * (1 - 1 / 2 ^ 24) ^ 4 := by rw [hw]; ring
        have e2 : (1 + 1 / 2 ^ 24 : ℚ) ^ (k + 1) = g * (1 + 1 / 2 ^ 24) := by rw [hg]; ring
        rw [e1, e2]
        push_cast
        norm_num at *
        linarith)
      (by
        have e1 : (1 + 1 / 2 ^ 24 : ℚ) ^ (k + 1 + 3) = g * (1 + 1 / 2 ^ 24) ^ 4 := by rw [hg]; ring
        have e2 : (1 + 1 / 2 ^ 24 : ℚ) ^ (k + 1) = g * (1 + 1 / 2 ^ 24) := by rw [hg]; ring
        rw [e1, e2]
        push_cast
        norm_num at *
        linarith) (by rw [hr]; rfl) (by rw [hQ, hD, List.map_cons, List.sum_cons]; ring)
    have e : k + (x :: l).length = k + 1 + l.length := by rw [hlen]; omega
    rw [e]
    exact ⟨r1, r2, r3, r4, r5, r6⟩

omit [Cfg] in
/-- Splitting the squared deviations from `m` at the true mean. -/
theorem sqdev_split (l : List ℚ) (h : l ≠ []) (m : ℚ) :
    (l.map fun x => (x - m) ^ 2).sum = (l.map fun x => (x - qmean l) ^ 2).sum + l.length * (m - qmean l) ^ 2 := by
  have hp : (0 : ℚ) < l.length := by exact_mod_cast List.length_pos_iff.2 h
  have key : ∀ (t : List ℚ) (c : ℚ), (t.map fun x => (x - c) ^ 2).sum = (t.map fun x => x ^ 2).sum - 2 * c * t.sum + t.length * c ^ 2 := by
    intro t c
    induction t with
    | nil => simp
    | cons y t ih => simp only [List.map_cons, List.sum_cons, List.length_cons, ih]; push_cast; ring
  have hs : l.sum = l.length * qmean l := by unfold qmean; field_simp
  rw [key, key, hs]
  ring

omit [Cfg] in
theorem qabs_le {l : List ℚ} {B : ℚ} (h : ∀ x ∈ l, |x| ≤ B) : qabs l ≤ l.length * B := by
  unfold qabs
  induction l with
  | nil => simp
  | cons y t ih =>
    have := ih fun x hx => h x (by simp [hx])
    have h1 := h y (by simp)
    simp only [List.map_cons, List.sum_cons, List.length_cons]
    push_cast
    linarith

omit [Cfg] in
theorem qmean_le {l : List ℚ} {B : ℚ} (hl : l ≠ []) (h : ∀ x ∈ l, |x| ≤ B) : |qmean l| ≤ B ∧ qabs l / l.length ≤ B := by
  have hp : (0 : ℚ) < l.length := by exact_mod_cast List.length_pos_iff.2 hl
  have h1 : qabs l / l.length ≤ B := by rw [div_le_iff₀ hp, mul_comm]; exact qabs_le h
  refine ⟨?_, h1⟩
  refine le_trans ?_ h1
  unfold qmean
  rw [abs_div, abs_of_pos hp]
  refine div_le_div_of_nonneg_right ?_ hp.le
  unfold qabs
  exact List.le_sum_of_subadditive (fun x : ℚ => |x|) (by simp) abs_add_le _

section
variable {T : Type} [IntoF32 T]

set_option maxHeartbeats 1000000 in
/-- **C95.** `variance`: the result brackets the exact sample variance `V` up to `n + 4` roundings, plus what the
rounding of the mean `m` adds, `n / (n-1) * (m - mean)^2`. -/
theorem C95_variance (l : List T) (fl : AllFinite (l.map IntoF32.into)) (h2 : 2 ≤ l.length) (hn : l.length < 2 ^ 22) {B : ℚ} (hB : B ≤ 2 ^ 48)
    (hl : ∀ x ∈ l, |(IntoF32.into x : F32).val| ≤ B) :
    ∃ m v, mean (l.map IntoF32.into) = .ok m ∧ variance l = .ok v ∧ v.isFinite = true ∧ 0 ≤ v.val ∧
      |m.val - qmean ((l.map IntoF32.into).map val)| ≤ (l.length + 1) / 2 ^ 23 * B + 1 / 2 ^ 150 ∧
      (1 - 1 / 2 ^ 24) ^ (l.length + 4) * qvar ((l.map IntoF32.into).map val) - 1 / 2 ^ 147 ≤ v.val ∧
      v.val ≤ (1 + 1 / 2 ^ 24) ^ (l.length + 4) * (qvar ((l.map IntoF32.into).map val) +
        l.length / (l.length - 1) * (m.val - qmean ((l.map IntoF32.into).map val)) ^ 2) + 1 / 2 ^ 147 := by
  obtain ⟨xs, hxs⟩ : ∃ xs : List F32, xs = l.map IntoF32.into := ⟨_, rfl⟩
  have hlen : xs.length = l.length := by rw [hxs, List.length_map]
  rw [← hxs] at fl ⊢
  have hx : ∀ x ∈ xs, |x.val| ≤ B := by
    intro x h; rw [hxs, List.mem_map] at h; obtain ⟨y, hy, rfl⟩ := h; exact hl y hy
  have hxv : ∀ q ∈ xs.map val, |q| ≤ B := by
    intro q h; rw [List.mem_map] at h; obtain ⟨y, hy, rfl⟩ := h; exact hx y hy
  have hne : xs ≠ [] := by rintro rfl; simp at hlen; omega
  have hnev : xs.map val ≠ [] := by simpa using hne
  have hlv : (xs.map val).length = l.length := by rw [List.length_map, hlen]
  have hq2 : (2 : ℚ) ≤ l.length := by exact_mod_cast h2
  have hqn : (l.length : ℚ) + 1 ≤ 2 ^ 22 := by exact_mod_cast hn
  have hB0 : 0 ≤ B := by
    obtain ⟨x, hx'⟩ := List.exists_mem_of_ne_nil xs hne
    exact (abs_nonneg _).trans (hx x hx')
  obtain ⟨qm1, qm2⟩ := qmean_le hnev hxv
  have hqa := qabs_le hxv
  rw [hlv] at hqa qm2
  obtain ⟨m, em, fm, hm⟩ := C94_mean xs fl hne (by omega) (hqa.trans (by norm_num at *; nlinarith))
  rw [hlen] at hm
  have gr : (1 + 1 / 2 ^ 24 : ℚ) ^ (l.length + 1) - 1 ≤ (l.length + 1) / 2 ^ 23 := by
    have := grow_le (n := l.length + 1) (by omega)
    push_cast at this
    linarith
  have gr0 : (0 : ℚ) ≤ (1 + 1 / 2 ^ 24) ^ (l.length + 1) - 1 := by
    have : (1 : ℚ) ≤ (1 + 1 / 2 ^ 24) ^ (l.length + 1) := one_le_pow₀ (by norm_num)
    linarith
  have hm' : |m.val - qmean (xs.map val)| ≤ (l.length + 1) / 2 ^ 23 * B + 1 / 2 ^ 150 :=
    hm.trans (add_le_add_left (mul_le_mul gr qm2 (div_nonneg (qabs_nonneg _) (by positivity)) (by positivity)) _)
  have hmm : |m.val| ≤ 2 ^ 49 := by
    have h1 := abs_add_le (m.val - qmean (xs.map val)) (qmean (xs.map val))
    rw [sub_add_cancel] at h1
    have h3 : (l.length + 1) / 2 ^ 23 * B ≤ 1 / 2 * B := by
      refine mul_le_mul_of_nonneg_right ?_ hB0
      rw [div_le_iff₀ (by norm_num)]
      norm_num at hqn ⊢
      linarith
    norm_num at *
    linarith
  obtain ⟨f, Q0, Q1, s0, s1, s2⟩ := sqdev_err fm hmm xs fl (fun x h => (hx x h).trans hB) posZero 0 0 (by omega) fin_posZero le_rfl (by norm_num)
    (by rw [val_posZero]) (by rw [val_posZero]; norm_num) (by rw [val_posZero]; norm_num) (r := sqDev m xs) rfl rfl
  have hQ : (0 : ℚ) + (xs.map fun x => (x.val - m.val) ^ 2).sum = ((xs.map val).map fun x => (x - m.val) ^ 2).sum := by
    rw [zero_add, List.map_map]; rfl
  rw [hQ, sqdev_split _ hnev, hlv, zero_add, hlen] at s1 s2
  rw [hQ, sqdev_split _ hnev, hlv, zero_add, hlen] at Q1
  rw [hQ, sqdev_split _ hnev, hlv] at Q0
  have hvar : ((xs.map val).map fun x => (x - qmean (xs.map val)) ^ 2).sum = (l.length - 1) * qvar (xs.map val) := by
    unfold qvar
    rw [hlv]
    have : (l.length - 1 : ℚ) ≠ 0 := by linarith
    field_simp
  have hV0 : 0 ≤ qvar (xs.map val) := by
    unfold qvar
    rw [hlv]
    refine div_nonneg (List.sum_nonneg ?_) (by linarith)
    intro q hq; rw [List.mem_map] at hq; obtain ⟨y, _, rfl⟩ := hq; exact sq_nonneg _
  rw [hvar] at s1 s2 Q1 Q0
  generalize hE : (m.val - qmean (xs.map val)) ^ 2 = E at *
  have hE0 : 0 ≤ E := by rw [← hE]; exact sq_nonneg _
  generalize qvar (xs.map val) = V at *
  generalize hs : sqDev m xs = s at *
  -- the divisor
  have hN : IsVal (ofInt l.length - one) (l.length - 1) := by
    obtain ⟨fn, vn⟩ := ofInt_isVal (n := (l.length : Int)) (by omega)
    push_cast at vn
    have e : (ofInt l.length).val - one.val = ((l.length - 1 : Int) : ℚ) := by rw [vn, val_one]; push_cast; ring
    obtain ⟨f2, v2⟩ := sub_val fn fin_one (by
      rw [e, abs_of_nonneg (by push_cast; linarith)]
      push_cast
      refine lt_of_lt_of_le (show (l.length : ℚ) - 1 < 2 ^ 22 by linarith) (by norm_num [ovf]))
    refine ⟨f2, ?_⟩
    rw [v2, e, RN_of_rep (rep_int (by omega))]
    push_cast; ring
  obtain ⟨fN, vN⟩ := hN
  have hd0 : (0 : ℚ) < l.length - 1 := by linarith
  have hd1 : (1 : ℚ) ≤ l.length - 1 := by linarith
  have gn : (1 + 1 / 2 ^ 24 : ℚ) ^ l.length ≤ 2 := grow_le2 (by omega)
  obtain ⟨t, ht⟩ : ∃ t, t = s.val / (l.length - 1) := ⟨_, rfl⟩
  have t0 : 0 ≤ t := by rw [ht]; exact div_nonneg s0 hd0.le
  have st : s.val = t * (l.length - 1) := by rw [ht]; field_simp
  have ts : t ≤ s.val := by rw [ht]; exact div_le_self s0 hd1
  have g0 : (0 : ℚ) < (1 + 1 / 2 ^ 24) ^ (l.length + 3) := by positivity
  have w0 : (0 : ℚ) < (1 - 1 / 2 ^ 24) ^ (l.length + 3) := pow_pos (by norm_num) _
  have g3 : (1 + 1 / 2 ^ 24 : ℚ) ^ (l.length + 3) ≤ 3 := by
    rw [pow_add]
    exact (mul_le_mul_of_nonneg_right gn (by norm_num)).trans (by norm_num)
  have cn : (l.length : ℚ) * (1 + 1 / 2 ^ 24) ^ l.length / 2 ^ 150 ≤ (l.length - 1) * (4 / 2 ^ 150) := by
    rw [← mul_div_assoc]
    refine div_le_div_of_nonneg_right ?_ (by norm_num)
    have := mul_le_mul_of_nonneg_left gn (show (0 : ℚ) ≤ l.length by linarith)
    linarith
  have hov : |s.val / (ofInt l.length - one).val| < ovf := by
    rw [vN, ← ht, abs_of_nonneg t0]
    refine lt_of_le_of_lt ts ?_
    refine lt_of_le_of_lt (b := 2 ^ 127) ?_ (by norm_num [ovf])
    have a1 := mul_le_mul g3 Q1 Q0 (by norm_num)
    refine s2.trans ?_
    norm_num at *
    linarith
  have hne0 : (ofInt l.length - one).val ≠ 0 := by rw [vN]; exact hd0.ne'
  obtain ⟨fv, ev⟩ := div_err_uf f fN hne0 hov
  rw [vN, ← ht, abs_of_nonneg t0] at ev
  obtain ⟨v1, v2⟩ := abs_le.1 ev
  -- bounds on `t`
  have t1 : (1 - 1 / 2 ^ 24) ^ (l.length + 3) * V - 4 / 2 ^ 150 ≤ t := by
    refine le_of_mul_le_mul_right (a := (l.length - 1 : ℚ)) ?_ hd0
    rw [← st]
    refine le_trans ?_ s1
    have : 0 ≤ (1 - 1 / 2 ^ 24 : ℚ) ^ (l.length + 3) * (l.length * E) := by positivity
    linarith
  have t2 : t ≤ (1 + 1 / 2 ^ 24) ^ (l.length + 3) * (V + l.length / (l.length - 1) * E) + 4 / 2 ^ 150 := by
    refine le_of_mul_le_mul_right (a := (l.length - 1 : ℚ)) ?_ hd0
    rw [← st]
    refine s2.trans ?_
    have : (l.length : ℚ) * E = l.length / (l.length - 1) * E * (l.length - 1) := by field_simp
    rw [this]
    linarith
  have hvv : variance l = .ok (s / (ofInt l.length - one)) := by
    unfold variance
    rw [← hxs, em, ok_bind, hs]
  refine ⟨m, _, em, hvv, fv, ?_, hm', ?_, ?_⟩
  · rw [(div_val f fN hne0 hov).2, vN]
    exact RN_nonneg (ht ▸ t0)
  · rw [pow_succ]
    have := mul_le_mul_of_nonneg_right t1 (show (0 : ℚ) ≤ 1 - 1 / 2 ^ 24 by norm_num)
    rw [mul_right_comm]
    generalize (1 - 1 / 2 ^ 24 : ℚ) ^ (l.length + 3) * V = Y at *
    linarith only [this, v1, v2, t0]
  · rw [pow_succ, hE]
    have := mul_le_mul_of_nonneg_right t2 (show (0 : ℚ) ≤ 1 + 1 / 2 ^ 24 by norm_num)
    rw [mul_right_comm]
    generalize (1 + 1 / 2 ^ 24 : ℚ) ^ (l.length + 3) * (V + l.length / (l.length - 1) * E) = Y at *
    linarith only [this, v1, v2, t0]

/-- **C95.** In one line: for `n < 2^22` items of magnitude at most `B`, the relative error of the variance is at most
`(n + 4) / 2^23`, plus an absolute term of the order of `(n B / 2^23)^2`. -/
theorem C95_variance_abs (l : List T) (fl : AllFinite (l.map IntoF32.into)) (h2 : 2 ≤ l.length) (hn : l.length + 4 ≤ 2 ^ 22) {B : ℚ} (hB : B ≤ 2 ^ 48)
    (hl : ∀ x ∈ l, |(IntoF32.into x : F32).val| ≤ B) :
    ∃ v, variance l = .ok v ∧ v.isFinite = true ∧ 0 ≤ v.val ∧
      |v.val - qvar ((l.map IntoF32.into).map val)| ≤ (l.length + 4) / 2 ^ 23 * qvar ((l.map IntoF32.into).map val) +
        3 * ((l.length + 1) / 2 ^ 23 * B + 1 / 2 ^ 150) ^ 2 + 1 / 2 ^ 147 := by
  obtain ⟨m, v, hm, hv, fv, v0, em, b1, b2⟩ := C95_variance l fl h2 (by omega) hB hl
  refine ⟨v, hv, fv, v0, ?_⟩
  have hlv : ((l.map (IntoF32.into : T → F32)).map val).length = l.length := by rw [List.length_map, List.length_map]
  have hq2 : (2 : ℚ) ≤ l.length := by exact_mod_cast h2
  have hV0 : 0 ≤ qvar ((l.map (IntoF32.into : T → F32)).map val) := by
    unfold qvar
    rw [hlv]
    refine div_nonneg (List.sum_nonneg ?_) (by linarith)
    intro q hq; rw [List.mem_map] at hq; obtain ⟨y, _, rfl⟩ := hq; exact sq_nonneg _
  generalize qvar ((l.map (IntoF32.into : T → F32)).map val) = V at *
  have em2 : (m.val - qmean ((l.map IntoF32.into).map val)) ^ 2 ≤ ((l.length + 1) / 2 ^ 23 * B + 1 / 2 ^ 150) ^ 2 := by
    rw [← sq_abs]; exact pow_le_pow_left₀ (abs_nonneg _) em 2
  have e0 := sq_nonneg (m.val - qmean ((l.map IntoF32.into).map val))
  generalize (m.val - qmean ((l.map IntoF32.into).map val)) ^ 2 = E at *
  generalize ((l.length + 1) / 2 ^ 23 * B + 1 / 2 ^ 150) ^ 2 = F at *
  have hr : (l.length : ℚ) / (l.length - 1) ≤ 2 := by
    rw [div_le_iff₀ (by linarith)]; linarith
  have hrE := mul_le_mul hr em2 e0 (by norm_num)
  have hr0 : (0 : ℚ) ≤ l.length / (l.length - 1) := div_nonneg (by linarith) (by linarith)
  have hrE0 := mul_nonneg hr0 e0
  generalize (l.length : ℚ) / (l.length - 1) * E = X at *
  have g1 := grow_le (n := l.length + 4) (by omega)
  push_cast at g1
  have w1 : 1 - (l.length + 4) / 2 ^ 24 ≤ (1 - 1 / 2 ^ 24 : ℚ) ^ (l.length + 4) := by
    have := one_add_mul_le_pow (a := -(1 / 2 ^ 24 : ℚ)) (by norm_num) (l.length + 4)
    push_cast at this
    rw [← sub_eq_add_neg] at this
    refine le_trans (le_of_eq ?_) this
    ring
  have hq4 : ((l.length : ℚ) + 4) / 2 ^ 23 ≤ 1 / 2 := by
    rw [div_le_iff₀ (by norm_num)]
    have : (l.length : ℚ) + 4 ≤ 2 ^ 22 := by exact_mod_cast hn
    norm_num at this ⊢
    linarith
  have e24 : ((l.length : ℚ) + 4) / 2 ^ 24 = ((l.length : ℚ) + 4) / 2 ^ 23 / 2 := by ring
  rw [e24] at w1
  have hk0 : (0 : ℚ) ≤ (l.length + 4) / 2 ^ 23 := by positivity
  generalize ((l.length : ℚ) + 4) / 2 ^ 23 = K at *
  have c1 := mul_le_mul_of_nonneg_right w1 hV0
  have c2 := mul_le_mul_of_nonneg_right g1 (add_nonneg hV0 hrE0)
  have c3 := mul_le_mul_of_nonneg_right hq4 hrE0
  have c4 := mul_nonneg hk0 hV0
  rw [abs_le]
  constructor <;> linarith

/-- **C95.** Integer data of magnitude at most 255 (every `u8` and `i8` slice), up to `2^16` items: the mean is exact
up to one rounding, so the variance is within `V/127 + 2^-31` of the exact sample variance. -/
theorem C95_variance_bytes (l : List T) (h2 : 2 ≤ l.length) (hn : l.length ≤ 2 ^ 16)
    (hl : ∀ x ∈ l, ∃ z : Int, IsVal (IntoF32.into x) z ∧ z.natAbs ≤ 255) :
    ∃ v, variance l = .ok v ∧ v.isFinite = true ∧ 0 ≤ v.val ∧
      |v.val - qvar ((l.map IntoF32.into).map val)| ≤ qvar ((l.map IntoF32.into).map val) / 127 + 1 / 2 ^ 31 := by
  have key : ∀ t : List T, (∀ x ∈ t, ∃ z : Int, IsVal (IntoF32.into x) z ∧ z.natAbs ≤ 255) →
      ∃ zs : List Int, IsInts (t.map IntoF32.into) zs ∧ (∀ z ∈ zs, z.natAbs ≤ 255) ∧ ((zs.sum : Int) : ℚ) = ((t.map IntoF32.into).map val).sum := by
    intro t ht
    induction t with
    | nil => exact ⟨[], List.Forall₂.nil, by simp, by simp⟩
    | cons y t ih =>
      obtain ⟨zs, a, b, c⟩ := ih fun x hx => ht x (by simp [hx])
      obtain ⟨z, hz, hz2⟩ := ht y (by simp)
      refine ⟨z :: zs, List.Forall₂.cons hz a, ?_, ?_⟩
      · intro w hw
        rcases List.mem_cons.1 hw with rfl | hw
        · exact hz2
        · exact b w hw
      · simp only [List.map_cons, List.sum_cons]
        rw [Int.cast_add, c, hz.2]
  obtain ⟨zs, hz, hb, hs⟩ := key l hl
  have hzl : l.length = zs.length := by rw [← hz.length_eq, List.length_map]
  have hsum : ∀ t : List Int, (∀ z ∈ t, z.natAbs ≤ 255) → t.sum.natAbs ≤ 255 * t.length := by
    intro t ht
    induction t with
    | nil => simp
    | cons y t ih =>
      have h1 := ih fun x hx => ht x (by simp [hx])
      have h2 := ht y (by simp)
      rw [List.sum_cons, List.length_cons]
      omega
  have hp : PartialSums 0 zs := by
    intro k
    rw [zero_add]
    have h1 := hsum (zs.take k) fun z hz => hb z (List.mem_of_mem_take hz)
    rw [List.length_take] at h1
    have : min k zs.length ≤ 2 ^ 16 := by omega
    omega
  have fl : AllFinite (l.map (IntoF32.into : T → F32)) := by
    intro x hx
    rw [List.mem_map] at hx
    obtain ⟨y, hy, rfl⟩ := hx
    obtain ⟨z, hz, _⟩ := hl y hy
    exact hz.1
  have hB : ∀ x ∈ l, |(IntoF32.into x : F32).val| ≤ 255 := by
    intro x hx
    obtain ⟨z, hz, hz2⟩ := hl x hx
    rw [hz.2, ← Int.cast_abs, ← Nat.cast_natAbs]
    exact_mod_cast hz2
  obtain ⟨m, v, hm, hv, fv, v0, em, b1, b2⟩ := C95_variance l fl h2 (by omega) (B := 255) (by norm_num) hB
  refine ⟨v, hv, fv, v0, ?_⟩
  have hlv : ((l.map (IntoF32.into : T → F32)).map val).length = l.length := by rw [List.length_map, List.length_map]
  have hne : l.map (IntoF32.into : T → F32) ≠ [] := by
    intro h; have := congrArg List.length h; rw [List.length_map] at this; simp at this; simp [this] at h2
  obtain ⟨m', hm', vm⟩ := C75_mean_int hz hp hne (by rw [List.length_map]; omega)
  have hmm : m = m' := by rw [hm] at hm'; injection hm'
  subst hmm
  have hmu : ((zs.sum : ℚ)) / zs.length = qmean ((l.map IntoF32.into).map val) := by
    unfold qmean; rw [hlv, ← hzl, ← hs]
  have hq2 : (2 : ℚ) ≤ l.length := by exact_mod_cast h2
  have hmub : |qmean ((l.map (IntoF32.into : T → F32)).map val)| ≤ 2 ^ (8 : Int) := by
    refine (qmean_le (B := 255) (by simpa using hne) ?_).1.trans (by norm_num)
    intro q hq
    rw [List.map_map, List.mem_map] at hq
    obtain ⟨y, hy, rfl⟩ := hq
    exact hB y hy
  have hE := RN_err_abs (e := 8) (by norm_num) hmub
  rw [← hmu, ← vm.2, hmu] at hE
  have hV0 : 0 ≤ qvar ((l.map (IntoF32.into : T → F32)).map val) := by
    unfold qvar
    rw [hlv]
    refine div_nonneg (List.sum_nonneg ?_) (by linarith)
    intro q hq; rw [List.mem_map] at hq; obtain ⟨y, _, rfl⟩ := hq; exact sq_nonneg _
  have em2 : (m.val - qmean ((l.map IntoF32.into).map val)) ^ 2 ≤ 1 / 2 ^ 34 := by
    rw [← sq_abs]; exact (pow_le_pow_left₀ (abs_nonneg _) hE 2).trans (by norm_num)
  generalize qvar ((l.map (IntoF32.into : T → F32)).map val) = V at *
  have e0 := sq_nonneg (m.val - qmean ((l.map IntoF32.into).map val))
  generalize (m.val - qmean ((l.map IntoF32.into).map val)) ^ 2 = E at *
  have hr : (l.length : ℚ) / (l.length - 1) ≤ 2 := by
    rw [div_le_iff₀ (by linarith)]; linarith
  have hrE := mul_le_mul hr em2 e0 (by norm_num)
  have hr0 : (0 : ℚ) ≤ l.length / (l.length - 1) := div_nonneg (by linarith) (by linarith)
  have hrE0 := mul_nonneg hr0 e0
  generalize (l.length : ℚ) / (l.length - 1) * E = X at *
  have g1 := grow_le (n := l.length + 4) (by omega)
  push_cast at g1
  have w1 : 1 - (l.length + 4) / 2 ^ 24 ≤ (1 - 1 / 2 ^ 24 : ℚ) ^ (l.length + 4) := by
    have := one_add_mul_le_pow (a := -(1 / 2 ^ 24 : ℚ)) (by norm_num) (l.length + 4)
    push_cast at this
    rw [← sub_eq_add_neg] at this
    refine le_trans (le_of_eq ?_) this
    ring
  have hq4 : ((l.length : ℚ) + 4) / 2 ^ 23 ≤ 1 / 127 := by
    rw [div_le_iff₀ (by norm_num)]
    have : (l.length : ℚ) + 4 ≤ 65540 := by exact_mod_cast (show l.length + 4 ≤ 65540 by omega)
    linarith
  have e24 : ((l.length : ℚ) + 4) / 2 ^ 24 = ((l.length : ℚ) + 4) / 2 ^ 23 / 2 := by ring
  rw [e24] at w1
  have hk0 : (0 : ℚ) ≤ (l.length + 4) / 2 ^ 23 := by positivity
  generalize ((l.length : ℚ) + 4) / 2 ^ 23 = K at *
  have c1 := mul_le_mul_of_nonneg_right w1 hV0
  have c2 := mul_le_mul_of_nonneg_right g1 (add_nonneg hV0 hrE0)
  have c3 := mul_le_mul_of_nonneg_right hq4 (add_nonneg hV0 hrE0)
  have c4 := mul_nonneg hk0 hV0
  have c5 := mul_le_mul_of_nonneg_right hq4 hV0
  rw [abs_le]
  constructor <;> linarith

/-- **C95.** The standard deviation: with a positive normal computed variance, `stddev^2` is within the `sqrt` bounds of the
computed variance, so it is bracketed by the exact sample variance. -/
theorem C95_stddev_bytes (l : List T) (h2 : 2 ≤ l.length) (hn : l.length ≤ 2 ^ 16)
    (hl : ∀ x ∈ l, ∃ z : Int, IsVal (IntoF32.into x) z ∧ z.natAbs ≤ 255) (hV : 1 / 2 ^ 20 ≤ qvar ((l.map (IntoF32.into : T → F32)).map val)) :
    ∃ s, stddev l = .ok s ∧ s.isFinite = true ∧ 0 < s.val ∧
      0.99 * qvar ((l.map (IntoF32.into : T → F32)).map val) ≤ s.val ^ 2 ∧ s.val ^ 2 ≤ 1.14 * qvar ((l.map (IntoF32.into : T → F32)).map val) := by
  obtain ⟨v, hv, fv, v0, e⟩ := C95_variance_bytes l h2 hn hl
  generalize qvar ((l.map (IntoF32.into : T → F32)).map val) = V at *
  obtain ⟨e1, e2⟩ := abs_le.1 e
  obtain ⟨s, hs, fs, s0, s1, s2, _⟩ := C77_stddev_bounds l hv ⟨fv, by linarith⟩
  refine ⟨s, hs, fs, s0, ?_, ?_⟩
  · linarith
  · linarith

/-- Every `u8` slice meets the hypothesis on the items. -/
example (l : List U8) : ∀ x ∈ l, ∃ z : Int, IsVal (IntoF32.into x) z ∧ z.natAbs ≤ 255 := by
  intro x _
  have h : x.toInt.natAbs ≤ 255 := by
    simp only [MInt.toInt]
    have := x.bits.isLt
    simp at *
    omega
  exact ⟨x.toInt, ofInt_isVal (by omega), h⟩

/-- `[1, 2, 4]`: the sample variance `7/3` is above `2^-20`; the computed one is `7/3` rounded. -/
example : qvar (([ofInt 1, ofInt 2, ofInt 4] : List F32).map val) = 7 / 3 ∧
    variance [ofInt 1, ofInt 2, ofInt 4] = .ok ⟨0x40155556#32⟩ := by
  have h1 : (ofInt 1).val = 1 := by simpa using (ofInt_isVal (n := 1) (by decide)).2
  have h2 : (ofInt 2).val = 2 := by simpa using (ofInt_isVal (n := 2) (by decide)).2
  have h4 : (ofInt 4).val = 4 := by simpa using (ofInt_isVal (n := 4) (by decide)).2
  refine ⟨?_, eval_ok (by kernel_rfl) (by decide)⟩
  simp only [List.map_cons, List.map_nil, h1, h2, h4, qvar, qmean, List.length_cons, List.length_nil, List.sum_cons, List.sum_nil]
  norm_num

end

end Micromath.Props
