import Verif.Props.StatScale

/-!
# C126: order laws of `mean`; when it lies between the smallest and the largest item
-/

set_option exponentiation.threshold 1000

namespace Micromath.Props
open F32 Spec Statistics

variable [Cfg]

/-- `x <= y`, both finite. -/
def LeF (x y : F32) : Prop := x.isFinite = true ∧ y.isFinite = true ∧ x.val ≤ y.val

theorem foldl_mono {l m : List F32} (h : List.Forall₂ LeF l m) {a b : F32} (hab : a.val ≤ b.val)
    (fl : (l.foldl (· + ·) a).isFinite = true) (fm : (m.foldl (· + ·) b).isFinite = true) :
    (l.foldl (· + ·) a).val ≤ (m.foldl (· + ·) b).val := by
  induction h generalizing a b with
  | nil => exact hab
  | @cons x y l m hxy _ ih =>
    refine ih ?_ fl fm
    rw [add_finite_val (foldl_start_finite _ _ fl), add_finite_val (foldl_start_finite _ _ fm)]
    exact RN_mono (add_le_add hab hxy.2.2)

/-- Dividing by a positive count keeps a finite sum finite. -/
theorem count_div {s : F32} (fs : s.isFinite = true) {n : Nat} (h1 : 1 ≤ n) (h2 : n < 2 ^ 31) :
    (s / ofInt n).isFinite = true ∧ (s / ofInt n).val = RN (s.val / (ofInt n).val) := by
  obtain ⟨f, p⟩ := count_pos h1 h2
  have h1' : (1 : ℚ) ≤ (ofInt n).val := by
    have hb : |((n : Int) : ℚ)| < ovf := by
      rw [Int.cast_natCast, Nat.abs_cast]
      have : (n : ℚ) < 2 ^ 31 := by exact_mod_cast h2
      exact this.trans (by norm_num [ovf])
    rw [(ofInt_val hb).2]
    refine le_RN_of_rep ?_ (by rw [Int.cast_natCast]; exact_mod_cast h1)
    exact_mod_cast rep_int (m := 1) (by norm_num)
  refine div_val fs f p.ne' (lt_of_le_of_lt ?_ (abs_val_lt_ovf fs))
  rw [abs_div, abs_of_pos p, div_le_iff₀ p]
  nlinarith [abs_nonneg s.val]

/-- **C126.** `mean` is monotone: if no item decreases, the mean does not decrease (as long as both sums are finite). -/
theorem C126_mean_mono {l m : List F32} (h : List.Forall₂ LeF l m) (h0 : l ≠ []) (hn : l.length < 2 ^ 31)
    (fl : (l.foldl (· + ·) posZero).isFinite = true) (fm : (m.foldl (· + ·) posZero).isFinite = true) :
    ∃ p q, mean l = .ok p ∧ mean m = .ok q ∧ p.isFinite = true ∧ q.isFinite = true ∧ p.val ≤ q.val := by
  have hlen := h.length_eq
  have hp : 1 ≤ l.length := List.length_pos_iff.2 h0
  obtain ⟨f1, v1⟩ := count_div fl hp hn
  obtain ⟨f2, v2⟩ := count_div fm (n := l.length) hp hn
  refine ⟨_, _, C75_mean l hn, C75_mean m (by omega), f1, by rw [← hlen]; exact f2, ?_⟩
  rw [← hlen, v1, v2]
  exact RN_mono (div_le_div_of_nonneg_right (foldl_mono h le_rfl fl fm) (count_pos hp hn).2.le)

/-- `10, 20` against `10, 21`. -/
example : List.Forall₂ LeF [ofInt 10, ofInt 20] [ofInt 10, ofInt 21] := by
  have h1 := ofInt_isVal (n := 10) (by decide)
  have h2 := ofInt_isVal (n := 20) (by decide)
  have h3 := ofInt_isVal (n := 21) (by decide)
  exact .cons ⟨h1.1, h1.1, le_rfl⟩ (.cons ⟨h2.1, h3.1, by rw [h2.2, h3.2]; norm_num⟩ .nil)

theorem fold_between {a b : ℚ} {A B e : Int} (ha : a = A * 2 ^ e) (hb : b = B * 2 ^ e) (he : -149 ≤ e) (he2 : e ≤ 103) {N : Nat}
    (hA : A.natAbs * N ≤ 2 ^ 24) (hB : B.natAbs * N ≤ 2 ^ 24) (l : List F32) (hl : ∀ x ∈ l, x.isFinite = true ∧ a ≤ x.val ∧ x.val ≤ b)
    (i : Nat) (hi : i + l.length ≤ N) {s : F32} (fs : s.isFinite = true) (h1 : i * a ≤ s.val) (h2 : s.val ≤ i * b) :
    (l.foldl (· + ·) s).isFinite = true ∧ ((i + l.length : Nat) : ℚ) * a ≤ (l.foldl (· + ·) s).val ∧
      (l.foldl (· + ·) s).val ≤ ((i + l.length : Nat) : ℚ) * b := by
  induction l generalizing i s with
  | nil => exact ⟨fs, h1, h2⟩
  | cons x l ih =>
    obtain ⟨fx, x1, x2⟩ := hl x (by simp)
    rw [List.length_cons] at hi ⊢
    have key : ∀ {C : Int}, C.natAbs * N ≤ 2 ^ 24 →
        Rep (((i + 1 : Nat) : ℚ) * (C * 2 ^ e)) ∧ |((i + 1 : Nat) : ℚ) * (C * 2 ^ e)| ≤ 2 ^ 127 := by
      intro C hC
      have hm : (((i + 1 : Nat) : Int) * C).natAbs ≤ 2 ^ 24 := by
        rw [Int.natAbs_mul, Int.natAbs_natCast, mul_comm]
        exact (Nat.mul_le_mul_left _ (by omega)).trans hC
      have hq : ((i + 1 : Nat) : ℚ) * (C * 2 ^ e) = ((((i + 1 : Nat) : Int) * C : Int) : ℚ) * 2 ^ e := by push_cast; ring
      rw [hq]
      refine ⟨rep_zpow hm he, ?_⟩
      rw [abs_mul, abs_of_pos (by positivity : (0 : ℚ) < 2 ^ e), ← Int.cast_abs, Int.abs_eq_natAbs]
      have k1 : ((((((i + 1 : Nat) : Int) * C).natAbs : Int)) : ℚ) ≤ 2 ^ 24 := by exact_mod_cast hm
      have k2 : (2 : ℚ) ^ e ≤ 2 ^ (103 : Int) := zpow_le_zpow_right₀ (by norm_num) he2
      refine (mul_le_mul k1 k2 (by positivity) (by norm_num)).trans ?_
      norm_num
    obtain ⟨ra, ba⟩ := key hA
    obtain ⟨rb, bb⟩ := key hB
    rw [← ha] at ra ba
    rw [← hb] at rb bb
    have e1 : ((i + 1 : Nat) : ℚ) * a ≤ s.val + x.val := by push_cast; linarith
    have e2 : s.val + x.val ≤ ((i + 1 : Nat) : ℚ) * b := by push_cast; linarith
    have ho : |s.val + x.val| < ovf := by
      refine lt_of_le_of_lt (abs_le.2 ⟨?_, e2.trans ((le_abs_self _).trans bb)⟩) (by norm_num [ovf])
      have := (abs_le.1 ba).1
      linarith
    obtain ⟨f, v⟩ := add_val fs fx ho
    have := ih (fun y hy => hl y (by simp [hy])) (i + 1) (by omega) f (by rw [v]; exact le_RN_of_rep ra e1)
      (by rw [v]; exact RN_le_of_rep rb e2)
    rw [show i + (l.length + 1) = i + 1 + l.length by omega]
    exact this

/-- **C126.** The mean lies between bounds of the data when the bounds are short numbers: if all of the `n <= 2^24` items lie in
`[a, b]`, `a = A * 2^e` and `b = B * 2^e` with `|A| * n <= 2^24` and `|B| * n <= 2^24`, the mean is finite and in `[a, b]`. -/
theorem C126_mean_between {l : List F32} {a b : ℚ} {A B e : Int} (ha : a = A * 2 ^ e) (hb : b = B * 2 ^ e) (he : -149 ≤ e) (he2 : e ≤ 103)
    (h0 : l ≠ []) (hn : l.length ≤ 2 ^ 24) (hA : A.natAbs * l.length ≤ 2 ^ 24) (hB : B.natAbs * l.length ≤ 2 ^ 24)
    (hl : ∀ x ∈ l, x.isFinite = true ∧ a ≤ x.val ∧ x.val ≤ b) :
    ∃ m, mean l = .ok m ∧ m.isFinite = true ∧ a ≤ m.val ∧ m.val ≤ b := by
  have hp : 1 ≤ l.length := List.length_pos_iff.2 h0
  have hp' : (0 : ℚ) < l.length := by exact_mod_cast hp
  obtain ⟨fs, s1, s2⟩ := fold_between ha hb he he2 hA hB l hl 0 (by omega) (s := posZero) (by decide)
    (by rw [val_posZero]; simp) (by rw [val_posZero]; simp)
  rw [Nat.zero_add] at s1 s2
  obtain ⟨f, v⟩ := count_div fs hp (by omega)
  obtain ⟨-, vn⟩ := ofInt_isVal (n := (l.length : Int)) (by omega)
  refine ⟨_, C75_mean l (by omega), f, ?_, ?_⟩
  · rw [v, vn, Int.cast_natCast]
    refine le_RN_of_rep ?_ ((le_div_iff₀ hp').2 (by linarith))
    rw [ha]
    exact rep_zpow ((Nat.le_mul_of_pos_right _ hp).trans hA) he
  · rw [v, vn, Int.cast_natCast]
    refine RN_le_of_rep ?_ ((div_le_iff₀ hp').2 (by linarith))
    rw [hb]
    exact rep_zpow ((Nat.le_mul_of_pos_right _ hp).trans hB) he

/-- Three samples in `[-3, 3]`. -/
example : ∃ m, mean [ofInt 1, ofInt (-3), ofInt 3] = .ok m ∧ m.isFinite = true ∧ -3 ≤ m.val ∧ m.val ≤ 3 := by
  refine C126_mean_between (A := -3) (B := 3) (e := 0) (by norm_num) (by norm_num) (by norm_num) (by norm_num) (by simp) (by simp)
    (by simp) (by simp) ?_
  have k : ∀ n : Int, |n| ≤ 3 → (ofInt n).isFinite = true ∧ -3 ≤ (ofInt n).val ∧ (ofInt n).val ≤ 3 := by
    intro n hn
    obtain ⟨h1, h2⟩ := abs_le.1 hn
    obtain ⟨f, v⟩ := ofInt_isVal (n := n) (by omega)
    exact ⟨f, by rw [v]; exact_mod_cast h1, by rw [v]; exact_mod_cast h2⟩
  simp only [List.mem_cons, List.not_mem_nil, or_false, forall_eq_or_imp, forall_eq]
  exact ⟨k _ (by decide), k _ (by decide), k _ (by decide)⟩

/-- **C126, false in general**: the mean of three equal items can exceed all of them, and their variance is not zero. -/
theorem C126_mean_range_false : mean [ofInt 11184818, ofInt 11184818, ofInt 11184818] = .ok (ofInt 11184819) ∧
    variance [ofInt 11184818, ofInt 11184818, ofInt 11184818] = .ok (lit 3 2) :=
  ⟨eval_ok (by kernel_rfl) (by decide), eval_ok (by kernel_rfl) (by decide)⟩

omit [Cfg] in
theorem mval_binade {t : Nat} (h : t ≤ 2 ^ 23) : mval (151 * 2 ^ 23 + t) = 2 ^ 24 + 2 * t := by
  have : magU (151 * 2 ^ 23 + t) = (2 ^ 23 + t) * 2 ^ 150 :=
    magU_eq_iff_split (k := 150) (r := 2 ^ 23 + t) (by omega) (Or.inr (by omega)) (by omega)
  rw [mval, this]
  push_cast
  field_simp
  ring

/-- In `[2^24, 2^25)`, adding 255 to a multiple of four adds 256. -/
theorem add_255 {s c : F32} {t : Nat} (hs : IsVal s ((2 ^ 24 + 2 * t : Nat) : ℚ)) (hc : IsVal c 255) (ht : t % 2 = 0) (h : t + 128 ≤ 2 ^ 23) :
    IsVal (s + c) ((2 ^ 24 + 2 * (t + 128) : Nat) : ℚ) := by
  have e : s.val + c.val = 2 ^ 24 + 2 * (t : ℚ) + 255 := by rw [hs.2, hc.2]; push_cast; ring
  have hq : (t : ℚ) + 128 ≤ 2 ^ 23 := by exact_mod_cast h
  have h0 : (0 : ℚ) ≤ s.val + c.val := by rw [e]; positivity
  obtain ⟨f, v⟩ := add_val hs.1 hc.1 (by rw [abs_of_nonneg h0, e]; refine lt_of_le_of_lt (b := 2 ^ 26) (by norm_num at hq ⊢; linarith) (by norm_num [ovf]))
  refine ⟨f, ?_⟩
  rw [v, RN_of_nonneg h0, rbits_tie (b := 151 * 2 ^ 23 + (t + 127)) (by
    rw [abs_of_nonneg h0, add_assoc, mval_binade (by omega), mval_binade (by omega), e]; push_cast; ring), if_neg (by omega), add_assoc,
    mval_binade (by omega)]
  push_cast; ring

theorem fold_255 {c : F32} (hc : IsVal c 255) (k : Nat) {s : F32} {t : Nat} (hs : IsVal s ((2 ^ 24 + 2 * t : Nat) : ℚ)) (ht : t % 2 = 0)
    (h : t + 128 * k ≤ 2 ^ 23) : IsVal ((List.replicate k c).foldl (· + ·) s) ((2 ^ 24 + 2 * (t + 128 * k) : Nat) : ℚ) := by
  induction k generalizing s t with
  | zero => simpa using hs
  | succ k ih =>
    have := ih (s := s + c) (t := t + 128) (add_255 hs hc ht (by omega)) (by omega) (by omega)
    rw [List.replicate_succ, List.foldl_cons, show t + 128 * (k + 1) = t + 128 + 128 * k by omega]
    exact this

/-- **C126, false for long lists of bytes**: the mean of `2^17` items that are all 255 is above 255.49. -/
theorem C126_mean_bytes_false : ∃ m, mean (List.replicate (2 ^ 17) (ofInt 255)) = .ok m ∧ m.isFinite = true ∧ 255.49 < m.val := by
  obtain ⟨c, hcdef⟩ : ∃ c, c = ofInt 255 := ⟨_, rfl⟩
  have hc : IsVal c 255 := by rw [hcdef]; exact_mod_cast ofInt_isVal (n := 255) (by decide)
  have hi : ∀ n, IsInts (List.replicate n c) (List.replicate n 255) := by
    intro n
    induction n with
    | zero => exact .nil
    | succ n ih => exact .cons (by exact_mod_cast hc) ih
  have hps : PartialSums 0 (List.replicate 65793 255) := by
    intro k
    rw [List.take_replicate, List.sum_replicate]
    simp only [nsmul_eq_mul]
    have : min k 65793 ≤ 65793 := min_le_right _ _
    omega
  have s1 := foldl_int (hi 65793) posZero 0 ⟨by decide, by rw [val_posZero]; simp⟩ hps
  rw [List.sum_replicate] at s1
  obtain ⟨s, hs⟩ : ∃ s, s = (List.replicate 65793 c).foldl (· + ·) posZero := ⟨_, rfl⟩
  rw [← hs] at s1
  have es : s = ⟨0x4b7fffff#32⟩ := by
    have hv : val ⟨0x4b7fffff#32⟩ = 16777215 := (val_of_units (u := 16777215 * 2 ^ 149) (by kernel_rfl)).trans (by norm_num)
    have h := s1.2
    norm_num at h
    exact eq_of_val_ne (h.trans hv.symm) (by rw [h]; norm_num)
  have e3 : (List.replicate 3 c).foldl (· + ·) s = ⟨0x4b80017e#32⟩ := by
    rw [es, hcdef]; exact eval_eq (by kernel_rfl)
  have v3 : IsVal ⟨0x4b80017e#32⟩ ((2 ^ 24 + 2 * 382 : Nat) : ℚ) :=
    ⟨by decide, (val_of_units (u := 16777980 * 2 ^ 149) (by kernel_rfl)).trans (by norm_num)⟩
  have s4 := fold_255 hc 65276 v3 (by norm_num) (by norm_num)
  have hr : List.replicate (2 ^ 17) c = List.replicate 65793 c ++ (List.replicate 3 c ++ List.replicate 65276 c) := by
    rw [← List.replicate_add, ← List.replicate_add]
    exact congrArg (List.replicate · c) (by norm_num)
  have hsum : (List.replicate (2 ^ 17) c).foldl (· + ·) posZero = (List.replicate 65276 c).foldl (· + ·) ⟨0x4b80017e#32⟩ := by
    rw [hr, List.foldl_append, List.foldl_append, ← hs, e3]
  have hlen : (List.replicate (2 ^ 17) c).length = 2 ^ 17 := List.length_replicate
  obtain ⟨f, v⟩ := count_div s4.1 (n := 2 ^ 17) (by norm_num) (by norm_num)
  obtain ⟨-, vn⟩ := ofInt_isVal (n := ((2 ^ 17 : Nat) : Int)) (by decide)
  refine ⟨_, by rw [← hcdef]; exact C75_mean _ (by rw [hlen]; norm_num), ?_⟩
  rw [hlen, hsum]
  refine ⟨f, ?_⟩
  rw [v, vn, s4.2]
  have r : Rep ((16744318 : Int) * (2 : ℚ) ^ (-16 : Int)) := rep_zpow (by decide) (by norm_num)
  refine lt_of_lt_of_le (b := (16744318 : Int) * (2 : ℚ) ^ (-16 : Int)) (by norm_num) (le_RN_of_rep r (by norm_num))

end Micromath.Props
