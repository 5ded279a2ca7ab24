import Verif.Props.StatsErr

/-!
# C155: statistics of integers with an integer mean; data that vary have a positive variance
-/

set_option exponentiation.threshold 1000

namespace Micromath.Props
open F32 Spec Statistics

variable [Cfg]

omit [Cfg] in
theorem sqsum_nonneg (zs : List ℤ) (μ : ℤ) : 0 ≤ (zs.map fun x => (x - μ) ^ 2).sum :=
  List.sum_nonneg fun x hx => by obtain ⟨y, -, rfl⟩ := List.mem_map.1 hx; exact sq_nonneg _

omit [Cfg] in
theorem small_of_sq {a : ℤ} (h : a ^ 2 ≤ 2 ^ 24) : a.natAbs ≤ 2 ^ 24 := by
  have := abs_le.1 (show |a| ≤ 2 ^ 12 from abs_le_of_sq_le_sq (by linarith) (by norm_num))
  omega

/-- The loop over squared deviations is exact on integers. -/
theorem sqDev_exact {l : List F32} {zs : List ℤ} (h : IsInts l zs) {m : F32} {μ : ℤ} (hm : IsVal m μ) (s : F32) (z : ℤ) (hs : IsVal s z)
    (z0 : 0 ≤ z) (hq : z + (zs.map fun x => (x - μ) ^ 2).sum ≤ 2 ^ 24) :
    IsVal (l.foldl (fun sum item => let n := item - m; sum + n * n) s) (z + (zs.map fun x => (x - μ) ^ 2).sum : ℤ) := by
  induction h generalizing s z with
  | nil => simpa using hs
  | @cons x a l zs hx _ ih =>
    rw [List.map_cons, List.sum_cons] at hq ⊢
    have h0 := sqsum_nonneg zs μ
    have h1 := sq_nonneg (a - μ)
    rw [List.foldl_cons, ← add_assoc]
    have d := sub_int hx hm (small_of_sq (by linarith))
    have p := mul_int d d (by rw [← sq]; omega)
    rw [← sq] at p
    exact ih _ _ (add_int hs p (by omega)) (by linarith) (by linarith)

section
variable {T : Type} [IntoF32 T]

/-- **C155, variance.** At most `2^24` integers whose partial sums stay within `2^24`, with an integer mean `μ` and squared deviations
that sum to at most `2^24`: `variance` is the correctly rounded exact sample variance. -/
theorem C155_variance {l : List T} {zs : List ℤ} (h : IsInts (l.map IntoF32.into) zs) (hp : PartialSums 0 zs) (h2 : 2 ≤ l.length)
    (hn : l.length ≤ 2 ^ 24) {μ : ℤ} (hμ : zs.sum = l.length * μ) (hq : (zs.map fun x => (x - μ) ^ 2).sum ≤ 2 ^ 24) :
    ∃ v, variance l = .ok v ∧ v.sign = false ∧ IsVal v (RN (((zs.map fun x => (x - μ) ^ 2).sum : ℤ) / ((l.length : ℚ) - 1))) := by
  have hlen : l.length = zs.length := by rw [← h.length_eq, List.length_map]
  obtain ⟨m, hm, fm, vm⟩ := C75_mean_int h hp (by rw [← List.length_pos_iff, List.length_map]; omega) (by rw [List.length_map]; exact hn)
  have n0 : (0 : ℚ) < l.length := by exact_mod_cast (by omega : 0 < l.length)
  have e : (zs.sum : ℚ) / zs.length = μ := by
    rw [hμ, ← hlen]; push_cast; field_simp
  have hs : zs.sum.natAbs ≤ 2 ^ 24 := by
    have := hp zs.length
    rwa [zero_add, List.take_length] at this
  have hμs : μ.natAbs ≤ 2 ^ 24 := by
    refine le_trans ?_ hs
    rw [hμ, Int.natAbs_mul, Int.natAbs_natCast]
    exact Nat.le_mul_of_pos_left _ (by omega)
  rw [e, RN_of_rep (rep_int hμs)] at vm
  obtain ⟨f1, v1⟩ := sqDev_exact h ⟨fm, vm⟩ posZero 0 ⟨fin_posZero, by simpa using val_posZero⟩ le_rfl (by rw [zero_add]; exact hq)
  rw [zero_add] at v1
  obtain ⟨f2, v2⟩ := sub_int (ofInt_isVal (n := (l.length : ℤ)) (by omega)) (show IsVal one (1 : ℤ) from ⟨fin_one, by rw [val_one]; norm_num⟩) (by omega)
  push_cast at v2
  have d1 : (1 : ℚ) ≤ (l.length : ℚ) - 1 := by
    have : (2 : ℚ) ≤ l.length := by exact_mod_cast h2
    linarith
  have q0 : (0 : ℚ) ≤ ((zs.map fun x => (x - μ) ^ 2).sum : ℤ) := by exact_mod_cast sqsum_nonneg zs μ
  have q1 : (((zs.map fun x => (x - μ) ^ 2).sum : ℤ) : ℚ) ≤ 2 ^ 24 := by exact_mod_cast hq
  obtain ⟨f3, v3⟩ := div_val f1 f2 (by rw [v2]; linarith) (by
    rw [v1, v2, abs_of_nonneg (div_nonneg q0 (by linarith))]
    refine lt_of_le_of_lt ((div_le_self q0 d1).trans q1) (by norm_num [ovf]))
  rw [v1, v2] at v3
  have hv : variance l = .ok (sqDev m (l.map IntoF32.into) / (ofInt l.length - one)) := by rw [variance, hm, ok_bind]
  refine ⟨_, hv, ?_, f3, v3⟩
  rcases C76_variance_nonneg l h2 (by omega) hv with hc | hc
  · exact absurd hc (by rw [show (sqDev m (l.map IntoF32.into) / (ofInt l.length - one)).isNaN = false from not_nan_of_finite f3]; simp)
  · exact hc.1

/-- **C155, what the variance depends on.** Two such data sets with as many items and the same sum of squared deviations have the same
variance and the same standard deviation, to the bit. -/
theorem C155_same {T' : Type} [IntoF32 T'] {l : List T} {l' : List T'} {zs zs' : List ℤ} (h : IsInts (l.map IntoF32.into) zs)
    (h' : IsInts (l'.map IntoF32.into) zs') (hp : PartialSums 0 zs) (hp' : PartialSums 0 zs') (h2 : 2 ≤ l.length) (hn : l.length ≤ 2 ^ 24)
    (hl : l'.length = l.length) {μ μ' : ℤ} (hμ : zs.sum = l.length * μ) (hμ' : zs'.sum = l'.length * μ')
    (hq : (zs.map fun x => (x - μ) ^ 2).sum ≤ 2 ^ 24) (he : (zs'.map fun x => (x - μ') ^ 2).sum = (zs.map fun x => (x - μ) ^ 2).sum) :
    variance l' = variance l ∧ stddev l' = stddev l := by
  obtain ⟨v, e, s, -, hv⟩ := C155_variance h hp h2 hn hμ hq
  obtain ⟨v', e', s', -, hv'⟩ := C155_variance h' hp' (by omega) (by omega) hμ' (by rw [he]; exact hq)
  have : v' = v := eq_of_val_sign (by rw [hv, hv', he, hl]) (s'.trans s.symm)
  have k : variance l' = variance l := by rw [e, e', this]
  exact ⟨k, by rw [stddev, stddev, k]⟩

/-- **C155, moved data.** Adding an integer to every reading, or changing the sign of every reading, leaves the variance of such data
unchanged to the bit. -/
theorem C155_shift {T' : Type} [IntoF32 T'] {l : List T} {l' : List T'} {zs : List ℤ} {c : ℤ} (h : IsInts (l.map IntoF32.into) zs)
    (hp : PartialSums 0 zs) (h2 : 2 ≤ l.length) (hn : l.length ≤ 2 ^ 24) {μ : ℤ} (hμ : zs.sum = l.length * μ)
    (hq : (zs.map fun x => (x - μ) ^ 2).sum ≤ 2 ^ 24) :
    (IsInts (l'.map IntoF32.into) (zs.map (· + c)) → PartialSums 0 (zs.map (· + c)) → variance l' = variance l ∧ stddev l' = stddev l) ∧
    (IsInts (l'.map IntoF32.into) (zs.map (- ·)) → variance l' = variance l ∧ stddev l' = stddev l) := by
  have hlen : l.length = zs.length := by rw [← h.length_eq, List.length_map]
  constructor
  · intro h' hp'
    have hlen' : l'.length = l.length := by rw [hlen, ← List.length_map (f := (IntoF32.into : T' → F32)), h'.length_eq, List.length_map]
    refine C155_same h h' hp hp' h2 hn hlen' hμ (μ' := μ + c) ?_ hq ?_
    · have : ∀ t : List ℤ, (t.map (· + c)).sum = t.sum + t.length * c := by
        intro t
        induction t with
        | nil => simp
        | cons a t ih => rw [List.map_cons, List.sum_cons, ih, List.sum_cons, List.length_cons]; push_cast; ring
      rw [this, hμ, hlen', ← hlen]; ring
    · rw [List.map_map]
      congr 1
      refine List.map_congr_left fun x _ => ?_
      simp only [Function.comp]; ring
  · intro h'
    have hlen' : l'.length = l.length := by rw [hlen, ← List.length_map (f := (IntoF32.into : T' → F32)), h'.length_eq, List.length_map]
    have neg : ∀ t : List ℤ, (t.map (- ·)).sum = -t.sum := by
      intro t
      induction t with
      | nil => simp
      | cons a t ih => rw [List.map_cons, List.sum_cons, ih, List.sum_cons]; ring
    refine C155_same h h' hp ?_ h2 hn hlen' hμ (μ' := -μ) ?_ hq ?_
    · intro k
      have := hp k
      rw [zero_add] at this ⊢
      rw [← List.map_take, neg, Int.natAbs_neg]
      exact this
    · rw [neg, hμ, hlen']; ring
    · rw [List.map_map]
      congr 1
      refine List.map_congr_left fun x _ => ?_
      simp only [Function.comp]; ring

omit [Cfg] in
theorem two_le_sqsum {l : List ℚ} {x y : ℚ} (hx : x ∈ l) (hy : y ∈ l) (hxy : x ≠ y) (m : ℚ) :
    (x - y) ^ 2 / 2 ≤ (l.map fun z => (z - m) ^ 2).sum := by
  have h1 : (x - m) ^ 2 + (y - m) ^ 2 ≤ (l.map fun z => (z - m) ^ 2).sum := by
    have p := List.perm_cons_erase hx
    have hy' : y ∈ l.erase x := (List.mem_erase_of_ne hxy.symm).2 hy
    have q := List.perm_cons_erase hy'
    rw [((p.trans (q.cons x)).map _).sum_eq, List.map_cons, List.map_cons, List.sum_cons, List.sum_cons, ← add_assoc]
    refine le_add_of_nonneg_right (List.sum_nonneg fun z hz => ?_)
    obtain ⟨w, -, rfl⟩ := List.mem_map.1 hz
    exact sq_nonneg _
  nlinarith [sq_nonneg (x + y - 2 * m)]

/-- **C155, data that vary.** If two of the `n < 2^22` finite items (of magnitude at most `2^48`) differ by `d ≥ 2^-60`, the variance is
at least `d² / (5 (n - 1))`: it cannot be rounded to zero. -/
theorem C155_positive {l : List T} (fl : AllFinite (l.map IntoF32.into)) (hn : l.length < 2 ^ 22)
    (hl : ∀ x ∈ l, |(IntoF32.into x : F32).val| ≤ 2 ^ 48) {x y : T} (hx : x ∈ l) (hy : y ∈ l) {d : ℚ} (h0 : 1 / 2 ^ 60 ≤ d)
    (hd : d ≤ |(IntoF32.into x : F32).val - (IntoF32.into y : F32).val|) :
    2 ≤ l.length ∧ ∃ v, variance l = .ok v ∧ v.isFinite = true ∧ d ^ 2 / (5 * ((l.length : ℚ) - 1)) ≤ v.val := by
  have d0 : 0 < d := lt_of_lt_of_le (by norm_num) h0
  have hne : (IntoF32.into x : F32).val ≠ (IntoF32.into y : F32).val := by
    intro hc
    rw [hc, sub_self, abs_zero] at hd; linarith
  have h2 : 2 ≤ l.length := by
    by_contra hc
    match l, hx, hy with
    | [a], hx, hy =>
      rw [List.mem_singleton] at hx hy
      rw [hx, hy] at hne; exact hne rfl
    | _ :: _ :: _, _, _ => simp at hc
  refine ⟨h2, ?_⟩
  obtain ⟨m, v, -, hv, fv, -, -, lo, -⟩ := C95_variance l fl h2 hn (by norm_num) hl
  refine ⟨v, hv, fv, ?_⟩
  obtain ⟨q, hq⟩ : ∃ q : List ℚ, q = (l.map IntoF32.into).map val := ⟨_, rfl⟩
  have hlq : q.length = l.length := by rw [hq, List.length_map, List.length_map]
  have m1 : (IntoF32.into x : F32).val ∈ q := by rw [hq]; exact List.mem_map_of_mem (List.mem_map_of_mem hx)
  have m2 : (IntoF32.into y : F32).val ∈ q := by rw [hq]; exact List.mem_map_of_mem (List.mem_map_of_mem hy)
  have s := two_le_sqsum m1 m2 hne (qmean q)
  rw [← hq] at lo
  have d2 : d ^ 2 ≤ ((IntoF32.into x : F32).val - (IntoF32.into y : F32).val) ^ 2 := by
    rw [← sq_abs ((IntoF32.into x : F32).val - (IntoF32.into y : F32).val)]
    exact pow_le_pow_left₀ d0.le hd 2
  have nq : (2 : ℚ) ≤ l.length := by exact_mod_cast h2
  have nq' : (l.length : ℚ) + 4 ≤ 2 ^ 22 + 4 := by
    have : (l.length : ℚ) < 2 ^ 22 := by exact_mod_cast hn
    linarith
  have N0 : 0 < (l.length : ℚ) - 1 := by linarith
  have V : d ^ 2 / 2 / ((l.length : ℚ) - 1) ≤ qvar q := by
    rw [qvar, hlq]
    exact div_le_div_of_nonneg_right (by linarith) N0.le
  have V0 : 0 ≤ qvar q := le_trans (by positivity) V
  have P : (0.7 : ℚ) ≤ (1 - 1 / 2 ^ 24) ^ (l.length + 4) := by
    have := one_add_mul_le_pow (a := (-(1 / 2 ^ 24) : ℚ)) (by norm_num) (l.length + 4)
    rw [← sub_eq_add_neg] at this
    refine le_trans ?_ this
    push_cast
    norm_num at nq' ⊢
    linarith
  have W : 0.7 * (d ^ 2 / 2 / ((l.length : ℚ) - 1)) - 1 / 2 ^ 147 ≤ v.val := by
    have a1 := mul_le_mul_of_nonneg_right P V0
    have a2 : 0.7 * (d ^ 2 / 2 / ((l.length : ℚ) - 1)) ≤ 0.7 * qvar q := mul_le_mul_of_nonneg_left V (by norm_num)
    linarith
  refine le_trans ?_ W
  obtain ⟨D, hD⟩ : ∃ D, D = d ^ 2 / ((l.length : ℚ) - 1) := ⟨_, rfl⟩
  have D0 : 1 / 2 ^ 142 ≤ D := by
    rw [hD, le_div_iff₀ N0]
    have e1 := pow_le_pow_left₀ (by norm_num) h0 2
    norm_num at nq' e1 ⊢
    linarith
  rw [show d ^ 2 / (5 * ((l.length : ℚ) - 1)) = D / 5 by rw [hD]; field_simp, show d ^ 2 / 2 / ((l.length : ℚ) - 1) = D / 2 by rw [hD]; field_simp]
  norm_num at D0 ⊢
  linarith

/-- **C155, zero variance.** For fewer than `2^22` integers of magnitude at most `b` with `b n ≤ 2^24` (all `u8` and `i8` slices of up to
`2^16` items), the variance is zero exactly if all readings are equal. -/
theorem C155_zero_iff {l : List T} {zs : List ℤ} (h : IsInts (l.map IntoF32.into) zs) (h2 : 2 ≤ l.length) (hn : l.length < 2 ^ 22) {b : ℕ}
    (hb : ∀ z ∈ zs, z.natAbs ≤ b) (hbn : b * l.length ≤ 2 ^ 24) :
    ∃ v, variance l = .ok v ∧ v.isFinite = true ∧ (v.val = 0 ↔ ∀ z ∈ zs, ∀ w ∈ zs, z = w) := by
  have hlen : l.length = zs.length := by rw [← h.length_eq, List.length_map]
  by_cases hc : ∀ z ∈ zs, ∀ w ∈ zs, z = w
  · obtain ⟨c, zs', rfl⟩ : ∃ c zs', zs = c :: zs' := by
      cases zs with
      | nil => rw [List.length_nil] at hlen; omega
      | cons c zs' => exact ⟨c, zs', rfl⟩
    have hr : c :: zs' = List.replicate l.length c := by
      rw [hlen]; exact List.eq_replicate_of_mem fun z hz => hc z hz c (by simp)
    have cb := hb c (by simp)
    rw [hr] at h
    obtain ⟨v, e, -, f, hv⟩ := C155_variance (l := l) (μ := c) h (by
      intro k
      rw [zero_add, List.take_replicate, List.sum_replicate, nsmul_eq_mul, Int.natAbs_mul]
      simp only [Int.natAbs_natCast]
      calc min k l.length * c.natAbs ≤ l.length * b := Nat.mul_le_mul (min_le_right _ _) cb
        _ ≤ 2 ^ 24 := by rw [mul_comm]; exact hbn) h2 (by omega) (by rw [List.sum_replicate, nsmul_eq_mul]) (by simp)
    refine ⟨v, e, f, iff_of_true ?_ hc⟩
    rw [hv]; simp [RN_zero]
  · push Not at hc
    obtain ⟨z, hz, w, hw, hne⟩ := hc
    have mem : ∀ {l : List T} {zs : List ℤ}, IsInts (l.map IntoF32.into) zs → (∀ x ∈ l, ∃ z ∈ zs, IsVal (IntoF32.into x) (z : ℤ)) ∧
        ∀ z ∈ zs, ∃ x ∈ l, IsVal (IntoF32.into x) (z : ℤ) := by
      intro l
      induction l with
      | nil => intro zs h; cases h; exact ⟨by simp, by simp⟩
      | cons a l ih =>
        intro zs h
        cases h with
        | cons ha ht =>
          obtain ⟨i1, i2⟩ := ih ht
          constructor
          · intro x hx
            rcases List.mem_cons.1 hx with rfl | hx
            · exact ⟨_, by simp, ha⟩
            · obtain ⟨z, hz, e⟩ := i1 x hx
              exact ⟨z, by simp [hz], e⟩
          · intro z hz
            rcases List.mem_cons.1 hz with rfl | hz
            · exact ⟨_, by simp, ha⟩
            · obtain ⟨x, hx, e⟩ := i2 z hz
              exact ⟨x, by simp [hx], e⟩
    obtain ⟨i1, i2⟩ := mem h
    obtain ⟨x, hx, fx, vx⟩ := i2 z hz
    obtain ⟨y, hy, fy, vy⟩ := i2 w hw
    obtain ⟨-, v, e, f, lo⟩ := C155_positive (l := l) (d := 1) (by
        intro x hx
        obtain ⟨a, ha, rfl⟩ := List.mem_map.1 hx
        obtain ⟨_, _, e⟩ := i1 a ha
        exact e.1) hn (by
        intro x hx
        obtain ⟨z, hz, e⟩ := i1 x hx
        have k := hb z hz
        have k2 : b ≤ 2 ^ 24 := le_trans (Nat.le_mul_of_pos_right _ (by omega)) hbn
        rw [e.2, ← Int.cast_abs, ← Nat.cast_natAbs]
        have : z.natAbs ≤ 2 ^ 48 := by omega
        exact_mod_cast this) hx hy (by norm_num) (by
        rw [vx, vy, ← Int.cast_sub, ← Int.cast_abs]
        have : 1 ≤ |z - w| := Int.one_le_abs (sub_ne_zero.2 hne)
        exact_mod_cast this)
    refine ⟨v, e, f, iff_of_false ?_ ?_⟩
    · have nq : (2 : ℚ) ≤ l.length := by exact_mod_cast h2
      have : (0 : ℚ) < 1 ^ 2 / (5 * ((l.length : ℚ) - 1)) := by
        have : 0 < (l.length : ℚ) - 1 := by linarith
        positivity
      linarith [lo]
    · intro hall
      exact hne (hall z hz w hw)

end

/-- The readings `2, 4, 9` have mean `5` and sum of squared deviations `26`; moved by `-5` they are `-3, -1, 4`. -/
theorem C155_case : (∃ v, variance [ofInt 2, ofInt 4, ofInt 9] = .ok v ∧ IsVal v 13) ∧
    variance [ofInt (-3), ofInt (-1), ofInt 4] = variance [ofInt 2, ofInt 4, ofInt 9] := by
  have i1 : IsInts ([ofInt 2, ofInt 4, ofInt 9].map IntoF32.into) [2, 4, 9] :=
    .cons (ofInt_isVal (by decide)) (.cons (ofInt_isVal (by decide)) (.cons (ofInt_isVal (by decide)) .nil))
  have i2 : IsInts ([ofInt (-3), ofInt (-1), ofInt 4].map IntoF32.into) ([2, 4, 9].map (· + (-5))) :=
    .cons (ofInt_isVal (by decide)) (.cons (ofInt_isVal (by decide)) (.cons (ofInt_isVal (by decide)) .nil))
  have ps : ∀ a b c : ℤ, a.natAbs ≤ 10 → b.natAbs ≤ 10 → c.natAbs ≤ 10 → PartialSums 0 [a, b, c] := by
    intro a b c ha hb hc k
    match k with
    | 0 => simp
    | 1 => simp; omega
    | 2 => simp; omega
    | k + 3 => simp; omega
  have p1 : PartialSums 0 [2, 4, 9] := ps _ _ _ (by decide) (by decide) (by decide)
  have p2 : PartialSums 0 ([2, 4, 9].map (· + (-5))) := ps _ _ _ (by decide) (by decide) (by decide)
  constructor
  · obtain ⟨v, e, -, f, hv⟩ := C155_variance (l := [ofInt 2, ofInt 4, ofInt 9]) (μ := 5) i1 p1 (by simp) (by simp) (by simp) (by simp)
    refine ⟨v, e, f, ?_⟩
    rw [hv, ← RN_of_rep (q := 13) (by simpa using rep_int (m := 13) (by decide))]
    congr 1
    simp; norm_num
  · exact ((C155_shift (l := [ofInt 2, ofInt 4, ofInt 9]) (c := -5) (μ := 5) i1 p1 (by simp) (by simp) (by simp) (by simp)).1 i2 p2).1

end Micromath.Props
