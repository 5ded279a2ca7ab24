import Verif.Props.StatRange
import Verif.Props.StatsErr

/-!
# C151: statistics of joined data, and sums that stop growing

`mean` and `variance` of two lists joined, from those of the parts; and the largest sum that any number of bounded items can reach.
-/

set_option exponentiation.threshold 1000

namespace Micromath.Props
open F32 Spec Statistics

variable [Cfg]

/-! ### exact pooling -/

omit [Cfg] in
theorem sum_sq_dev (l : List ℚ) (c : ℚ) : (l.map fun x => (x - c) ^ 2).sum = (l.map fun x => x ^ 2).sum - 2 * c * l.sum + l.length * c ^ 2 := by
  induction l with
  | nil => simp
  | cons a l ih => simp only [List.map_cons, List.sum_cons, List.length_cons, ih]; push_cast; ring

omit [Cfg] in
/-- The exact law of the pooled variance. -/
theorem qvar_append {a b : List ℚ} (ha : 2 ≤ a.length) (hb : 2 ≤ b.length) :
    ((a.length + b.length : ℚ) - 1) * qvar (a ++ b) = (a.length - 1) * qvar a + (b.length - 1) * qvar b +
      a.length * b.length / (a.length + b.length) * (qmean a - qmean b) ^ 2 := by
  have pa : (2 : ℚ) ≤ a.length := by exact_mod_cast ha
  have pb : (2 : ℚ) ≤ b.length := by exact_mod_cast hb
  have n0 : (a.length + b.length : ℚ) - 1 ≠ 0 := by linarith
  have a0 : (a.length : ℚ) - 1 ≠ 0 := by linarith
  have b0 : (b.length : ℚ) - 1 ≠ 0 := by linarith
  have n1 : (a.length + b.length : ℚ) ≠ 0 := by linarith
  have a1 : (a.length : ℚ) ≠ 0 := by linarith
  have b1 : (b.length : ℚ) ≠ 0 := by linarith
  unfold qvar
  rw [sum_sq_dev, sum_sq_dev, sum_sq_dev, List.length_append, Nat.cast_add, mul_div_cancel₀ _ n0, mul_div_cancel₀ _ a0, mul_div_cancel₀ _ b0]
  unfold qmean
  rw [List.map_append, List.sum_append, List.sum_append, List.length_append, Nat.cast_add]
  field_simp
  ring

omit [Cfg] in
theorem qmean_append {a b : List ℚ} (ha : a ≠ []) (hb : b ≠ []) :
    qmean (a ++ b) = (a.length * qmean a + b.length * qmean b) / (a.length + b.length) := by
  have a1 : (a.length : ℚ) ≠ 0 := by exact_mod_cast (List.length_pos_iff.2 ha).ne'
  have b1 : (b.length : ℚ) ≠ 0 := by exact_mod_cast (List.length_pos_iff.2 hb).ne'
  unfold qmean
  rw [List.sum_append, List.length_append, Nat.cast_add, mul_div_cancel₀ _ a1, mul_div_cancel₀ _ b1]

/-- The error of `mean` for items of magnitude at most `B`. -/
theorem mean_err {l : List F32} (fl : AllFinite l) (h0 : l ≠ []) (hn : l.length < 2 ^ 22) {B : ℚ} (hB : B ≤ 2 ^ 100) (hl : ∀ x ∈ l, |x.val| ≤ B) :
    ∃ m, mean l = .ok m ∧ m.isFinite = true ∧ |m.val - qmean (l.map val)| ≤ (l.length + 1) / 2 ^ 23 * B + 1 / 2 ^ 150 := by
  have hl' : ∀ x ∈ l.map val, |x| ≤ B := by
    intro x hx; obtain ⟨y, hy, rfl⟩ := List.mem_map.1 hx; exact hl y hy
  have hne : l.map val ≠ [] := by simpa using h0
  have hnq : (l.length : ℚ) ≤ 2 ^ 22 := by exact_mod_cast hn.le
  have hlp : (0 : ℚ) < l.length := by exact_mod_cast List.length_pos_iff.2 h0
  have B0 : 0 ≤ B := by
    obtain ⟨x, hx⟩ := List.exists_mem_of_ne_nil l h0
    exact (abs_nonneg _).trans (hl x hx)
  have hq := qabs_le hl'
  rw [List.length_map] at hq
  obtain ⟨m, hm, fm, em⟩ := C94_mean l fl h0 (by omega) (hq.trans (by
    have := mul_le_mul hnq hB B0 (by norm_num)
    refine this.trans (by norm_num)))
  refine ⟨m, hm, fm, em.trans ?_⟩
  have g := grow_le (n := l.length + 1) (by omega)
  have g1 : (1 : ℚ) ≤ (1 + 1 / 2 ^ 24) ^ (l.length + 1) := one_le_pow₀ (by norm_num)
  have d := (qmean_le hne hl').2
  rw [List.length_map] at d
  have d0 : 0 ≤ qabs (l.map val) / l.length := div_nonneg (qabs_nonneg _) hlp.le
  push_cast at g
  have := mul_le_mul (show (1 + 1 / 2 ^ 24 : ℚ) ^ (l.length + 1) - 1 ≤ (l.length + 1) / 2 ^ 23 by linarith) d d0 (by positivity)
  linarith

/-- **C151, means.** For two non-empty lists of together `n < 2^22` finite items of magnitude at most `B`: the mean of the joined list is the
weighted mean of the two means, up to `(n + 1) / 2^22 * B`. -/
theorem C151_mean {a b : List F32} (fa : AllFinite a) (fb : AllFinite b) (ha : a ≠ []) (hb : b ≠ []) (hn : a.length + b.length < 2 ^ 22) {B : ℚ}
    (hB : B ≤ 2 ^ 100) (la : ∀ x ∈ a, |x.val| ≤ B) (lb : ∀ x ∈ b, |x.val| ≤ B) :
    ∃ ma mb m, mean a = .ok ma ∧ mean b = .ok mb ∧ mean (a ++ b) = .ok m ∧ m.isFinite = true ∧
      |m.val - (a.length * ma.val + b.length * mb.val) / (a.length + b.length)| ≤ ((a.length + b.length : ℚ) + 1) / 2 ^ 22 * B + 1 / 2 ^ 149 := by
  obtain ⟨ma, hma, -, ea⟩ := mean_err fa ha (by omega) hB la
  obtain ⟨mb, hmb, -, eb⟩ := mean_err fb hb (by omega) hB lb
  obtain ⟨m, hm, fm, em⟩ := mean_err (l := a ++ b) (by
      intro x hx; rcases List.mem_append.1 hx with h | h
      exacts [fa x h, fb x h]) (by simp [ha]) (by rw [List.length_append]; omega) hB (by
      intro x hx; rcases List.mem_append.1 hx with h | h
      exacts [la x h, lb x h])
  refine ⟨ma, mb, m, hma, hmb, hm, fm, ?_⟩
  rw [List.map_append, qmean_append (by simpa using ha) (by simpa using hb), List.length_map, List.length_map, List.length_append, Nat.cast_add] at em
  have pa : (0 : ℚ) < a.length := by exact_mod_cast List.length_pos_iff.2 ha
  have pb : (0 : ℚ) < b.length := by exact_mod_cast List.length_pos_iff.2 hb
  have B0 : 0 ≤ B := by
    obtain ⟨x, hx⟩ := List.exists_mem_of_ne_nil a ha
    exact (abs_nonneg _).trans (la x hx)
  generalize (a.length : ℚ) = p at *
  generalize (b.length : ℚ) = q at *
  generalize qmean (a.map val) = qa at *
  generalize qmean (b.map val) = qb at *
  obtain ⟨E, hE⟩ : ∃ E, E = (p + q + 1) / 2 ^ 23 * B + 1 / 2 ^ 150 := ⟨_, rfl⟩
  have eA : |ma.val - qa| ≤ E := ea.trans (by
    rw [hE]; have : (p + 1) / 2 ^ 23 * B ≤ (p + q + 1) / 2 ^ 23 * B := mul_le_mul_of_nonneg_right (by linarith) B0
    linarith)
  have eB : |mb.val - qb| ≤ E := eb.trans (by
    rw [hE]; have : (q + 1) / 2 ^ 23 * B ≤ (p + q + 1) / 2 ^ 23 * B := mul_le_mul_of_nonneg_right (by linarith) B0
    linarith)
  rw [← hE] at em
  have n0 : 0 < p + q := by linarith
  have w : |(p * qa + q * qb) / (p + q) - (p * ma.val + q * mb.val) / (p + q)| ≤ E := by
    rw [← sub_div, abs_div, abs_of_pos n0, div_le_iff₀ n0, show p * qa + q * qb - (p * ma.val + q * mb.val) = -(p * (ma.val - qa) + q * (mb.val - qb)) by ring,
      abs_neg]
    refine (abs_add_le _ _).trans ?_
    rw [abs_mul, abs_mul, abs_of_pos pa, abs_of_pos pb]
    have := mul_le_mul_of_nonneg_left eA pa.le
    have := mul_le_mul_of_nonneg_left eB pb.le
    linarith
  refine (abs_sub_le _ ((p * qa + q * qb) / (p + q)) _).trans ((add_le_add em w).trans ?_)
  rw [hE]; linarith

omit [Cfg] in
theorem qvar_le {l : List ℚ} (h2 : 2 ≤ l.length) {B : ℚ} (h : ∀ x ∈ l, |x| ≤ B) : 0 ≤ (l.length - 1) * qvar l ∧ (l.length - 1) * qvar l ≤ l.length * B ^ 2 := by
  have p : (2 : ℚ) ≤ l.length := by exact_mod_cast h2
  unfold qvar
  rw [mul_div_cancel₀ _ (by linarith)]
  refine ⟨List.sum_nonneg fun x hx => by obtain ⟨y, -, rfl⟩ := List.mem_map.1 hx; exact sq_nonneg _, ?_⟩
  have hs : (l.map fun x => x ^ 2).sum ≤ l.length * B ^ 2 := by
    clear p h2
    induction l with
    | nil => simp
    | cons a l ih =>
      have ha := h a (by simp)
      have := ih fun x hx => h x (by simp [hx])
      have : a ^ 2 ≤ B ^ 2 := sq_le_sq' (by linarith [(abs_le.1 ha).1]) (abs_le.1 ha).2
      simp only [List.map_cons, List.sum_cons, List.length_cons]
      push_cast; linarith
  rw [sum_sq_dev]
  have e : l.length * qmean l = l.sum := by unfold qmean; rw [mul_div_cancel₀ _ (by linarith)]
  rw [← e]
  have := mul_nonneg (show (0 : ℚ) ≤ l.length by linarith) (sq_nonneg (qmean l))
  nlinarith

omit [Cfg] in
theorem pool_err {p q B E e t V Va Vb qV qa qb ma mb ua ub : ℚ} (p2 : 2 ≤ p) (q2 : 2 ≤ q) (he : e ≤ 1 / 2) (e0 : 0 ≤ e) (E0 : 0 ≤ E) (hE : E ≤ e * B)
    (ht : 2 * t ≤ 1 / 2 * (e * B ^ 2)) (t0 : 0 ≤ t) (B0 : 0 ≤ B)
    (hV : |V - qV| ≤ e * qV + 3 * E ^ 2 + t) (ha : |Va - qa| ≤ e * qa + 3 * E ^ 2 + t) (hb : |Vb - qb| ≤ e * qb + 3 * E ^ 2 + t)
    (hma : |ma - ua| ≤ E) (hmb : |mb - ub| ≤ E) (hua : |ua| ≤ B) (hub : |ub| ≤ B)
    (bV : (p + q - 1) * qV ≤ (p + q) * B ^ 2) (ba : (p - 1) * qa ≤ p * B ^ 2) (bb : (q - 1) * qb ≤ q * B ^ 2)
    (law : (p + q - 1) * qV = (p - 1) * qa + (q - 1) * qb + p * q / (p + q) * (ua - ub) ^ 2) :
    |(p + q - 1) * V - ((p - 1) * Va + (q - 1) * Vb + p * q / (p + q) * (ma - mb) ^ 2)| ≤ 8 * (p + q) * e * B ^ 2 := by
  have n0 : 0 < p + q := by linarith
  have T0 : 0 ≤ 3 * E ^ 2 + t := by positivity
  have one : ∀ {k v u : ℚ}, 1 ≤ k → (k - 1) * u ≤ k * B ^ 2 → |v - u| ≤ e * u + 3 * E ^ 2 + t → |(k - 1) * (v - u)| ≤ k * (e * B ^ 2 + (3 * E ^ 2 + t)) := by
    intro k v u k1 h1 h2
    rw [abs_mul, abs_of_nonneg (by linarith)]
    have a := mul_le_mul_of_nonneg_left h2 (show 0 ≤ k - 1 by linarith)
    have b := mul_le_mul_of_nonneg_left h1 e0
    have c := mul_le_mul_of_nonneg_right (show k - 1 ≤ k by linarith) T0
    linarith only [a, b, c]
  have r1 := one (k := p + q) (by linarith) bV hV
  have r2 := one (k := p) (by linarith) ba ha
  have r3 := one (k := q) (by linarith) bb hb
  have r4 : |(ma - mb) ^ 2 - (ua - ub) ^ 2| ≤ 2 * E * (4 * B + 2 * E) := by
    rw [sq_sub_sq, mul_comm, abs_mul]
    obtain ⟨a1, a2⟩ := abs_le.1 hma
    obtain ⟨b1, b2⟩ := abs_le.1 hmb
    obtain ⟨c1, c2⟩ := abs_le.1 hua
    obtain ⟨d1, d2⟩ := abs_le.1 hub
    refine mul_le_mul ?_ ?_ (abs_nonneg _) (by linarith) <;> rw [abs_le] <;> constructor <;> linarith
  have w0 : 0 ≤ p * q / (p + q) := by positivity
  have w1 : p * q / (p + q) ≤ (p + q) / 4 := by
    rw [div_le_div_iff₀ n0 (by norm_num)]
    nlinarith [sq_nonneg (p - q)]
  have r5 : |p * q / (p + q) * ((ma - mb) ^ 2 - (ua - ub) ^ 2)| ≤ (p + q) / 4 * (2 * E * (4 * B + 2 * E)) := by
    rw [abs_mul, abs_of_nonneg w0]
    exact mul_le_mul w1 r4 (abs_nonneg _) (by linarith)
  have eB : e * B ≤ 1 / 2 * B := mul_le_mul_of_nonneg_right he B0
  have E2 : E ^ 2 ≤ 1 / 2 * (e * B ^ 2) := by
    have h1 : E ^ 2 ≤ (e * B) ^ 2 := pow_le_pow_left₀ E0 hE 2
    have : (e * B) * (e * B) ≤ (1 / 2 * B) * (e * B) := mul_le_mul_of_nonneg_right eB (by positivity)
    rw [show (1 / 2 * B) * (e * B) = 1 / 2 * (e * B ^ 2) by ring, ← sq] at this
    linarith only [this, h1]
  have EB : E * B ≤ e * B ^ 2 := by
    have := mul_le_mul_of_nonneg_right hE B0
    rwa [show e * B * B = e * B ^ 2 by ring] at this
  have tot : 2 * (e * B ^ 2 + (3 * E ^ 2 + t)) + 1 / 4 * (2 * E * (4 * B + 2 * E)) ≤ 8 * e * B ^ 2 := by
    rw [show 2 * (e * B ^ 2 + (3 * E ^ 2 + t)) + 1 / 4 * (2 * E * (4 * B + 2 * E)) = 2 * (e * B ^ 2) + 7 * E ^ 2 + 2 * t + 2 * (E * B) by ring,
      show 8 * e * B ^ 2 = 8 * (e * B ^ 2) by ring]
    generalize e * B ^ 2 = y at *
    linarith only [E2, EB, ht]
  have key := mul_le_mul_of_nonneg_left tot n0.le
  obtain ⟨x1, y1⟩ := abs_le.1 r1
  obtain ⟨x2, y2⟩ := abs_le.1 r2
  obtain ⟨x3, y3⟩ := abs_le.1 r3
  obtain ⟨x5, y5⟩ := abs_le.1 r5
  rw [show (p + q - 1) * V - ((p - 1) * Va + (q - 1) * Vb + p * q / (p + q) * (ma - mb) ^ 2) = (p + q - 1) * (V - qV) - (p - 1) * (Va - qa)
    - (q - 1) * (Vb - qb) - p * q / (p + q) * ((ma - mb) ^ 2 - (ua - ub) ^ 2) by linear_combination law]
  generalize (p + q - 1) * (V - qV) = A1 at *
  generalize (p - 1) * (Va - qa) = A2 at *
  generalize (q - 1) * (Vb - qb) = A3 at *
  generalize p * q / (p + q) * ((ma - mb) ^ 2 - (ua - ub) ^ 2) = A4 at *
  rw [abs_le]
  constructor <;> linarith

variable {T : Type} [IntoF32 T]

/-- **C151, variances.** For two lists of at least two items each, together `n ≤ 2^22 - 4`, of magnitude at most `B` (`2^-60 ≤ B ≤ 2^48`):
`(n-1)` times the variance of the joined list is `(p-1)` and `(q-1)` times those of the parts plus `p q / n` times the square of the difference of the
means, up to `n (n + 4) / 2^20 * B^2`. -/
theorem C151_variance {a b : List T} (fa : AllFinite (a.map IntoF32.into)) (fb : AllFinite (b.map IntoF32.into)) (ha : 2 ≤ a.length) (hb : 2 ≤ b.length)
    (hn : a.length + b.length + 4 ≤ 2 ^ 22) {B : ℚ} (hB0 : 1 / 2 ^ 60 ≤ B) (hB : B ≤ 2 ^ 48)
    (la : ∀ x ∈ a, |(IntoF32.into x : F32).val| ≤ B) (lb : ∀ x ∈ b, |(IntoF32.into x : F32).val| ≤ B) :
    ∃ ma mb va vb v, mean (a.map IntoF32.into) = .ok ma ∧ mean (b.map IntoF32.into) = .ok mb ∧ variance a = .ok va ∧ variance b = .ok vb ∧
      variance (a ++ b) = .ok v ∧ v.isFinite = true ∧
      |((a.length + b.length : ℚ) - 1) * v.val - ((a.length - 1) * va.val + (b.length - 1) * vb.val +
        a.length * b.length / (a.length + b.length) * (ma.val - mb.val) ^ 2)| ≤
        (a.length + b.length : ℚ) * (a.length + b.length + 4) / 2 ^ 20 * B ^ 2 := by
  have la' : ∀ x ∈ a.map (IntoF32.into : T → F32), |x.val| ≤ B := by
    intro x hx; obtain ⟨y, hy, rfl⟩ := List.mem_map.1 hx; exact la y hy
  have lb' : ∀ x ∈ b.map (IntoF32.into : T → F32), |x.val| ≤ B := by
    intro x hx; obtain ⟨y, hy, rfl⟩ := List.mem_map.1 hx; exact lb y hy
  have lab : ∀ x ∈ a ++ b, |(IntoF32.into x : F32).val| ≤ B := by
    intro x hx; rcases List.mem_append.1 hx with h | h
    exacts [la x h, lb x h]
  have fab : AllFinite ((a ++ b).map (IntoF32.into : T → F32)) := by
    intro x hx; rw [List.map_append] at hx; rcases List.mem_append.1 hx with h | h
    exacts [fa x h, fb x h]
  have na : a.map (IntoF32.into : T → F32) ≠ [] := by intro h; have := congrArg List.length h; simp at this; rw [this] at ha; simp at ha
  have nb : b.map (IntoF32.into : T → F32) ≠ [] := by intro h; have := congrArg List.length h; simp at this; rw [this] at hb; simp at hb
  obtain ⟨ma, hma, -, ea⟩ := mean_err fa na (by rw [List.length_map]; omega) (hB.trans (by norm_num)) la'
  obtain ⟨mb, hmb, -, eb⟩ := mean_err fb nb (by rw [List.length_map]; omega) (hB.trans (by norm_num)) lb'
  obtain ⟨va, hva, -, -, eva⟩ := C95_variance_abs a fa ha (by omega) hB la
  obtain ⟨vb, hvb, -, -, evb⟩ := C95_variance_abs b fb hb (by omega) hB lb
  obtain ⟨v, hv, fv, -, ev⟩ := C95_variance_abs (a ++ b) fab (by rw [List.length_append]; omega) (by rw [List.length_append]; omega) hB lab
  refine ⟨ma, mb, va, vb, v, hma, hmb, hva, hvb, hv, fv, ?_⟩
  have qla : ∀ x ∈ (a.map (IntoF32.into : T → F32)).map val, |x| ≤ B := by
    intro x hx; obtain ⟨y, hy, rfl⟩ := List.mem_map.1 hx; exact la' y hy
  have qlb : ∀ x ∈ (b.map (IntoF32.into : T → F32)).map val, |x| ≤ B := by
    intro x hx; obtain ⟨y, hy, rfl⟩ := List.mem_map.1 hx; exact lb' y hy
  have ga : ((a.map (IntoF32.into : T → F32)).map val).length = a.length := by simp
  have gb : ((b.map (IntoF32.into : T → F32)).map val).length = b.length := by simp
  have law := qvar_append (a := (a.map (IntoF32.into : T → F32)).map val) (b := (b.map (IntoF32.into : T → F32)).map val) (by rw [ga]; exact ha) (by rw [gb]; exact hb)
  have ba := qvar_le (by rw [ga]; exact ha) qla
  have bb := qvar_le (by rw [gb]; exact hb) qlb
  have bV := qvar_le (l := (a.map (IntoF32.into : T → F32)).map val ++ (b.map (IntoF32.into : T → F32)).map val) (B := B) (by rw [List.length_append]; omega) (by
    intro x hx; rcases List.mem_append.1 hx with h | h
    exacts [qla x h, qlb x h])
  have ua := (qmean_le (B := B) (l := (a.map (IntoF32.into : T → F32)).map val) (by simpa using na) qla).1
  have ub := (qmean_le (B := B) (l := (b.map (IntoF32.into : T → F32)).map val) (by simpa using nb) qlb).1
  rw [List.length_append, Nat.cast_add, ga, gb] at bV
  rw [ga, gb] at law
  rw [ga] at ba
  rw [gb] at bb
  rw [List.length_map] at ea eb
  rw [List.map_append, List.map_append, List.length_append, Nat.cast_add] at ev
  have pa : (2 : ℚ) ≤ a.length := by exact_mod_cast ha
  have pb : (2 : ℚ) ≤ b.length := by exact_mod_cast hb
  have hnq : (a.length : ℚ) + b.length + 4 ≤ 2 ^ 22 := by exact_mod_cast hn
  have qa0 : 0 ≤ qvar ((a.map (IntoF32.into : T → F32)).map val) := nonneg_of_mul_nonneg_right ba.1 (by linarith)
  have qb0 : 0 ≤ qvar ((b.map (IntoF32.into : T → F32)).map val) := nonneg_of_mul_nonneg_right bb.1 (by linarith)
  generalize (a.length : ℚ) = p at *
  generalize (b.length : ℚ) = q at *
  generalize qvar ((a.map (IntoF32.into : T → F32)).map val) = qa at *
  generalize qvar ((b.map (IntoF32.into : T → F32)).map val) = qb at *
  generalize qvar ((a.map (IntoF32.into : T → F32)).map val ++ (b.map (IntoF32.into : T → F32)).map val) = qV at *
  generalize qmean ((a.map (IntoF32.into : T → F32)).map val) = xa at *
  generalize qmean ((b.map (IntoF32.into : T → F32)).map val) = xb at *
  have B0 : 0 ≤ B := le_trans (by norm_num) hB0
  obtain ⟨E, hE⟩ : ∃ E, E = (p + q + 1) / 2 ^ 23 * B + 1 / 2 ^ 150 := ⟨_, rfl⟩
  obtain ⟨e, he⟩ : ∃ e, e = (p + q + 4) / 2 ^ 23 := ⟨_, rfl⟩
  have mo : ∀ {k : ℚ}, 0 ≤ k → k ≤ p + q → 0 ≤ (k + 1) / 2 ^ 23 * B + 1 / 2 ^ 150 ∧ (k + 1) / 2 ^ 23 * B + 1 / 2 ^ 150 ≤ E ∧ (k + 4) / 2 ^ 23 ≤ e := by
    intro k k0 k1
    have : (k + 1) / 2 ^ 23 * B ≤ (p + q + 1) / 2 ^ 23 * B := mul_le_mul_of_nonneg_right (by linarith) B0
    refine ⟨by positivity, by rw [hE]; linarith, by rw [he]; linarith⟩
  have sqm : ∀ {k : ℚ}, 0 ≤ k → k ≤ p + q → ∀ {x u : ℚ}, 0 ≤ u → x ≤ (k + 4) / 2 ^ 23 * u + 3 * ((k + 1) / 2 ^ 23 * B + 1 / 2 ^ 150) ^ 2 + 1 / 2 ^ 147 →
      x ≤ e * u + 3 * E ^ 2 + 1 / 2 ^ 147 := by
    intro k k0 k1 x u u0 h
    obtain ⟨a1, a2, a3⟩ := mo k0 k1
    have s1 := pow_le_pow_left₀ a1 a2 2
    have s2 := mul_le_mul_of_nonneg_right a3 u0
    linarith
  have qV0 : 0 ≤ qV := nonneg_of_mul_nonneg_right bV.1 (by linarith)
  have e6 : 6 / 2 ^ 23 ≤ e := by rw [he]; linarith
  have hEe : E ≤ e * B := by
    rw [hE, he]
    have : (3 : ℚ) / 2 ^ 23 * (1 / 2 ^ 60) ≤ 3 / 2 ^ 23 * B := mul_le_mul_of_nonneg_left hB0 (by norm_num)
    have t : (1 : ℚ) / 2 ^ 150 ≤ 3 / 2 ^ 23 * (1 / 2 ^ 60) := by norm_num
    linarith
  have ht : 2 * (1 / 2 ^ 147 : ℚ) ≤ 1 / 2 * (e * B ^ 2) := by
    have b2 : (1 / 2 ^ 60 : ℚ) ^ 2 ≤ B ^ 2 := pow_le_pow_left₀ (by norm_num) hB0 2
    have := mul_le_mul e6 b2 (by norm_num) (le_trans (by norm_num) e6)
    refine le_trans ?_ (mul_le_mul_of_nonneg_left this (by norm_num))
    norm_num
  have R := pool_err pa pb (by rw [he]; linarith) (le_trans (by norm_num) e6) ((mo le_rfl (by linarith)).1.trans (mo le_rfl (by linarith)).2.1) hEe ht (by norm_num) B0
    (sqm (k := p + q) (by linarith) le_rfl qV0 ev) (sqm (k := p) (by linarith) (by linarith) qa0 eva) (sqm (k := q) (by linarith) (by linarith) qb0 evb)
    (ea.trans (mo (k := p) (by linarith) (by linarith)).2.1) (eb.trans (mo (k := q) (by linarith) (by linarith)).2.1) ua ub bV.2 ba.2 bb.2 law
  refine R.trans (le_of_eq ?_)
  rw [he]; ring

/-! ### sums that stop growing -/

omit [Cfg] in
theorem RN_stop {z : ℤ} (h1 : -126 ≤ z) : RN (2 ^ z * (2 ^ 24 + 1)) = 2 ^ z * 2 ^ 24 := by
  have e1 : RN (2 ^ 24 + 1) = 2 ^ 24 := by
    rw [show (2 ^ 24 + 1 : ℚ) = ((2 ^ 24 + 1 : Int) : ℚ) by norm_num, ← (ofInt_val (n := 2 ^ 24 + 1) (by norm_num [ovf])).2,
      show ofInt (2 ^ 24 + 1) = ⟨0x4b800000#32⟩ from eval_eq (by kernel_rfl), val_of_units (u := 2 ^ 173) (by decide +kernel)]
    norm_num
  have ab : (1 : ℚ) / 2 ^ 126 ≤ |(2 ^ 24 + 1) / 2 ^ 126| := by rw [abs_of_pos (by positivity)]; norm_num
  have e2 := RN_scale 126 ab
  rw [mul_div_cancel₀ _ (by positivity), e1] at e2
  obtain ⟨k, hk⟩ : ∃ k : ℕ, (k : ℤ) = z + 126 := ⟨(z + 126).toNat, by omega⟩
  have e3 := RN_scale k ab
  have hz : (2 : ℚ) ^ z = 2 ^ k / 2 ^ 126 := by
    rw [eq_div_iff (by positivity), ← zpow_natCast (2 : ℚ) k, hk, zpow_add₀ (by norm_num)]; norm_num
  rw [hz, show (2 : ℚ) ^ k / 2 ^ 126 * (2 ^ 24 + 1) = 2 ^ k * ((2 ^ 24 + 1) / 2 ^ 126) by ring, e3]
  field_simp
  linarith

/-- **C151, the largest sum.** Any number of finite items of magnitude at most `2^z` have a sum of magnitude at most `2^(z+24)`. -/
theorem C151_sum_bound {z : ℤ} (h1 : -126 ≤ z) (h2 : z ≤ 100) {l : List F32} (fl : AllFinite l) (hl : ∀ x ∈ l, |x.val| ≤ 2 ^ z) {s : F32} (fs : s.isFinite = true)
    (hs : |s.val| ≤ 2 ^ z * 2 ^ 24) : (l.foldl (· + ·) s).isFinite = true ∧ |(l.foldl (· + ·) s).val| ≤ 2 ^ z * 2 ^ 24 := by
  induction l generalizing s with
  | nil => exact ⟨fs, hs⟩
  | cons c l ih =>
    have hc := hl c (by simp)
    have hb : |s.val + c.val| ≤ 2 ^ z * (2 ^ 24 + 1) := (abs_add_le _ _).trans (by linarith)
    have hz : (2 : ℚ) ^ z ≤ 2 ^ (100 : ℤ) := zpow_le_zpow_right₀ (by norm_num) h2
    obtain ⟨f, v⟩ := add_val fs (fl c (by simp)) (hb.trans_lt (lt_of_le_of_lt (mul_le_mul_of_nonneg_right hz (by norm_num)) (by norm_num [ovf])))
    refine ih (fun x hx => fl x (by simp [hx])) (fun x hx => hl x (by simp [hx])) f ?_
    rw [v, ← RN_abs, ← RN_stop h1]
    exact RN_mono hb

/-- **C151, the sum stops.** Once the running sum is `2^(z+24)`, adding any number of items between `0` and `2^z` leaves it there. -/
theorem C151_sum_stops {z : ℤ} (h1 : -126 ≤ z) (h2 : z ≤ 100) {l : List F32} (fl : AllFinite l) (hl : ∀ x ∈ l, 0 ≤ x.val ∧ x.val ≤ 2 ^ z) {s : F32}
    (hs : IsVal s (2 ^ z * 2 ^ 24)) : IsVal (l.foldl (· + ·) s) (2 ^ z * 2 ^ 24) := by
  induction l generalizing s with
  | nil => exact hs
  | cons c l ih =>
    obtain ⟨c0, c1⟩ := hl c (by simp)
    have hz0 : (0 : ℚ) < 2 ^ z := by positivity
    have hz : (2 : ℚ) ^ z ≤ 2 ^ (100 : ℤ) := zpow_le_zpow_right₀ (by norm_num) h2
    have hb : s.val + c.val ≤ 2 ^ z * (2 ^ 24 + 1) := by rw [hs.2]; linarith
    have h0 : 0 ≤ s.val + c.val := by rw [hs.2]; positivity
    obtain ⟨f, v⟩ := add_val hs.1 (fl c (by simp)) (by
      rw [abs_of_nonneg h0]
      exact hb.trans_lt (lt_of_le_of_lt (mul_le_mul_of_nonneg_right hz (by norm_num)) (by norm_num [ovf])))
    refine ih (fun x hx => fl x (by simp [hx])) (fun x hx => hl x (by simp [hx])) ⟨f, ?_⟩
    rw [v]
    refine le_antisymm ?_ ?_
    · rw [← RN_stop h1]; exact RN_mono hb
    · have := RN_mono (show s.val ≤ s.val + c.val by linarith)
      rw [RN_val] at this
      rw [← hs.2]; exact this

/-- **C151, the mean of long lists.** The mean of `n ≥ 2^j` finite items of magnitude at most `2^z` has magnitude at most `2^(z+24-j)`, whatever the
items are. -/
theorem C151_mean_bound {z : ℤ} (h1 : -126 ≤ z) (h2 : z ≤ 100) {l : List F32} (fl : AllFinite l) (hl : ∀ x ∈ l, |x.val| ≤ 2 ^ z) {j : ℕ} (hj : 2 ^ j ≤ l.length)
    (hn : l.length < 2 ^ 31) : ∃ m, mean l = .ok m ∧ m.isFinite = true ∧ |m.val| ≤ 2 ^ (z + 24 - j) := by
  have hj31 : j < 31 := (Nat.pow_lt_pow_iff_right (by norm_num : 1 < 2)).1 (hj.trans_lt hn)
  obtain ⟨f, b⟩ := C151_sum_bound h1 h2 fl hl fin_posZero (by rw [val_posZero, abs_zero]; positivity)
  have hp : 1 ≤ l.length := le_trans Nat.one_le_two_pow hj
  obtain ⟨fm, vm⟩ := count_div f hp hn
  refine ⟨_, C75_mean l hn, fm, ?_⟩
  have hnq : ((l.length : Int) : ℚ) < 2 ^ 31 := by exact_mod_cast hn
  have hjq : (2 : ℚ) ^ j ≤ ((l.length : Int) : ℚ) := by exact_mod_cast hj
  have hN : (2 : ℚ) ^ j ≤ (ofInt l.length).val := by
    rw [(ofInt_val (n := l.length) (by
      rw [abs_of_nonneg (by positivity)]; exact hnq.trans (by norm_num [ovf]))).2]
    refine le_RN_of_rep ?_ hjq
    have := rep_zpow (m := 1) (by decide) (e := j) (by omega)
    rwa [Int.cast_one, one_mul, zpow_natCast] at this
  have jp : (0 : ℚ) < 2 ^ j := by positivity
  rw [vm]
  refine abs_RN_le_of_rep ?_ ?_
  · have := rep_zpow (m := 1) (by decide) (e := z + 24 - j) (by omega)
    rwa [Int.cast_one, one_mul] at this
  · rw [abs_div, abs_of_pos (lt_of_lt_of_le jp hN), div_le_iff₀ (lt_of_lt_of_le jp hN)]
    have e : (2 : ℚ) ^ (z + 24 - j) * 2 ^ j = 2 ^ z * 2 ^ 24 := by
      rw [← zpow_natCast (2 : ℚ) j, ← zpow_natCast (2 : ℚ) 24, ← zpow_add₀ (by norm_num), ← zpow_add₀ (by norm_num)]
      congr 1; push_cast; ring
    refine b.trans ?_
    rw [← e]
    exact mul_le_mul_of_nonneg_left hN (by positivity)

omit [Cfg] in
/-- The lists `[1, 2]` and `[3, 5]` meet the hypotheses of `C151_mean` and `C151_variance` with `B = 5`, and those of `C151_sum_bound` with `z = 3`. -/
theorem C151_case : ∃ a b : List F32, AllFinite a ∧ AllFinite b ∧ a.length = 2 ∧ b.length = 2 ∧ (∀ x ∈ a, 0 ≤ x.val ∧ |x.val| ≤ 5) ∧ (∀ x ∈ b, 0 ≤ x.val ∧ |x.val| ≤ 5) ∧
    a.map val = [1, 2] ∧ b.map val = [3, 5] ∧ (5 : ℚ) ≤ 2 ^ (3 : ℤ) := by
  have v : ∀ n : ℕ, n ≤ 5 → IsVal (ofInt n) n := fun n h => by exact_mod_cast ofInt_isVal (n := (n : Int)) (by simp; omega)
  have v1 := v 1 (by norm_num)
  have v2 := v 2 (by norm_num)
  have v3 := v 3 (by norm_num)
  have v5 := v 5 (by norm_num)
  refine ⟨[ofInt (1 : ℕ), ofInt (2 : ℕ)], [ofInt (3 : ℕ), ofInt (5 : ℕ)], ?_, ?_, rfl, rfl, ?_, ?_, ?_, ?_, by norm_num⟩
  · intro x hx; simp only [List.mem_cons, List.not_mem_nil, or_false] at hx; rcases hx with rfl | rfl
    exacts [v1.1, v2.1]
  · intro x hx; simp only [List.mem_cons, List.not_mem_nil, or_false] at hx; rcases hx with rfl | rfl
    exacts [v3.1, v5.1]
  · intro x hx; simp only [List.mem_cons, List.not_mem_nil, or_false] at hx; rcases hx with rfl | rfl
    · rw [v1.2]; norm_num
    · rw [v2.2]; norm_num
  · intro x hx; simp only [List.mem_cons, List.not_mem_nil, or_false] at hx; rcases hx with rfl | rfl
    · rw [v3.2]; norm_num
    · rw [v5.2]; norm_num
  · rw [List.map_cons, List.map_cons, List.map_nil, v1.2, v2.2]; norm_num
  · rw [List.map_cons, List.map_cons, List.map_nil, v3.2, v5.2]; norm_num

/-- **C151, a mean outside the data.** The mean of `2^25` ones is at most one half. -/
theorem C151_ones_false : ∃ m, mean (List.replicate (2 ^ 25) one) = .ok m ∧ m.isFinite = true ∧ m.val ≤ 1 / 2 := by
  have hmem : ∀ x ∈ List.replicate (2 ^ 25) one, x = one := fun x hx => List.eq_of_mem_replicate hx
  have hlen : (List.replicate (2 ^ 25) one).length = 2 ^ 25 := List.length_replicate
  obtain ⟨m, hm, fm, b⟩ := C151_mean_bound (z := 0) (by norm_num) (by norm_num) (l := List.replicate (2 ^ 25) one)
    (fun x hx => by rw [hmem x hx]; exact fin_one) (fun x hx => by rw [hmem x hx, val_one]; norm_num) (j := 25) (by rw [hlen]) (by rw [hlen]; norm_num)
  refine ⟨m, hm, fm, (abs_le.1 b).2.trans (by norm_num)⟩

end Micromath.Props
