import Verif.Float.Core
import Mathlib.Tactic.Linarith
import Mathlib.Tactic.Ring
import Mathlib.Tactic.NormNum
import Mathlib.Order.Monotone.Basic

/-!
# Rounding theory: `roundBits` is round-to-nearest, ties-to-even

`Near u d b` is the independent specification: the exact value `u / d` lies between the midpoints
around the float with magnitude bits `b`, and a midpoint is only taken by an even `b`.
-/

namespace Micromath.F32

theorem magU_combine {k r : Nat} (h : k = 0 ∨ 2 ^ 23 ≤ r) (h2 : r ≤ 2 ^ 24) :
    magU (k * 2 ^ 23 + r) = r * 2 ^ k := by
  rcases Nat.lt_or_ge r (2 ^ 23) with hr | hr
  · have hk : k = 0 := by omega
    subst hk
    rw [Nat.zero_mul, Nat.zero_add, magU, if_pos hr, pow_zero, Nat.mul_one]
  · rcases Nat.lt_or_ge r (2 ^ 24) with hr2 | hr2
    · have h3 : (k * 2 ^ 23 + r) / 2 ^ 23 = k + 1 := by omega
      have h4 : (k * 2 ^ 23 + r) % 2 ^ 23 = r - 2 ^ 23 := by omega
      have h5 : ¬ (k * 2 ^ 23 + r < 2 ^ 23) := by omega
      rw [magU, if_neg h5, h3, h4, Nat.sub_add_cancel hr, Nat.add_sub_cancel]
    · have hr3 : r = 2 ^ 24 := by omega
      subst hr3
      have h3 : (k * 2 ^ 23 + 2 ^ 24) / 2 ^ 23 = k + 2 := by omega
      have h4 : (k * 2 ^ 23 + 2 ^ 24) % 2 ^ 23 = 0 := by omega
      have h5 : ¬ (k * 2 ^ 23 + 2 ^ 24 < 2 ^ 23) := by omega
      rw [magU, if_neg h5, h3, h4]
      show (0 + 2 ^ 23) * 2 ^ (k + 1) = _
      rw [pow_succ]; ring

/-- Exponent step and integer significand of a magnitude. -/
theorem mag_split (b : Nat) : ∃ k r, b = k * 2 ^ 23 + r ∧ (k = 0 ∨ 2 ^ 23 ≤ r) ∧ r < 2 ^ 24 := by
  refine ⟨b / 2 ^ 23 - 1, b - (b / 2 ^ 23 - 1) * 2 ^ 23, ?_, ?_, ?_⟩ <;> omega

theorem magU_eq_iff_split {b k r : Nat} (hb : b = k * 2 ^ 23 + r) (h : k = 0 ∨ 2 ^ 23 ≤ r)
    (h2 : r ≤ 2 ^ 24) : magU b = r * 2 ^ k := hb ▸ magU_combine h h2

theorem magU_lt_succ (b : Nat) : magU b < magU (b + 1) := by
  obtain ⟨k, r, hb, h1, h2⟩ := mag_split b
  rw [magU_eq_iff_split hb h1 (by omega),
    magU_eq_iff_split (r := r + 1) (by omega : b + 1 = k * 2 ^ 23 + (r + 1)) (by omega) (by omega)]
  exact Nat.mul_lt_mul_of_pos_right (by omega) (by positivity)

theorem magU_strictMono : StrictMono magU := strictMono_nat_of_lt_succ magU_lt_succ

theorem magU_lt_iff {a b : Nat} : magU a < magU b ↔ a < b := magU_strictMono.lt_iff_lt
theorem magU_le_iff {a b : Nat} : magU a ≤ magU b ↔ a ≤ b := magU_strictMono.le_iff_le
theorem magU_inj {a b : Nat} : magU a = magU b ↔ a = b := magU_strictMono.injective.eq_iff
@[simp] theorem magU_zero : magU 0 = 0 := rfl
theorem magU_eq_zero {b : Nat} : magU b = 0 ↔ b = 0 := by
  conv_lhs => rw [← magU_zero, magU_inj]
theorem magU_pos {b : Nat} : 0 < magU b ↔ 0 < b := by
  conv_lhs => rw [← magU_zero, magU_lt_iff]

/-! ## Integer rounding -/

theorem rhe_spec (a b : Nat) (hb : 0 < b) :
    b * (2 * rhe a b) ≤ 2 * a + b ∧ 2 * a ≤ b * (2 * rhe a b) + b ∧
    (b * (2 * rhe a b) = 2 * a + b → rhe a b % 2 = 0) ∧
    (2 * a = b * (2 * rhe a b) + b → rhe a b % 2 = 0) := by
  have h := Nat.div_add_mod a b
  have hm := Nat.mod_lt a hb
  generalize hq : a / b = q at *
  generalize hr : a % b = r at *
  have key : ∀ n : Nat, b * (2 * n) = 2 * (b * n) := fun n => by ring
  have key2 : ∀ n : Nat, b * (n + 1) = b * n + b := fun n => by ring
  unfold rhe
  rw [hq, hr]
  split
  · rw [key]; omega
  · split
    · rw [key, key2]; omega
    · split
      · rw [key]; omega
      · rw [key, key2]; omega

theorem rhe_bounds (a b : Nat) : a / b ≤ rhe a b ∧ rhe a b ≤ a / b + 1 := by
  unfold rhe; split <;> (try split) <;> (try split) <;> omega

/-! ## The nearest-even specification -/

/-- `b` is the magnitude nearest to `u / d` units, ties to even (midpoint formulation). -/
def Near (u d b : Nat) : Prop :=
  (∀ c, c + 1 = b → d * (magU c + magU b) ≤ 2 * u ∧ (d * (magU c + magU b) = 2 * u → b % 2 = 0)) ∧
  2 * u ≤ d * (magU b + magU (b + 1)) ∧
  (2 * u = d * (magU b + magU (b + 1)) → b % 2 = 0)

/-- Facts about the scale chosen by `roundBits`. -/
theorem roundBits_scale (u d : Nat) (hd : 0 < d) :
    ∃ k, roundBits u d = k * 2 ^ 23 + rhe u (d * 2 ^ k) ∧
      (k = 0 ∨ (2 ^ 23 ≤ rhe u (d * 2 ^ k) ∧ d * (2 ^ 23 * 2 ^ k) ≤ u)) ∧
      rhe u (d * 2 ^ k) ≤ 2 ^ 24 := by
  refine ⟨(u / d).log2 - 23, rfl, ?_, ?_⟩
  · rcases Nat.lt_or_ge (u / d).log2 24 with h | h
    · left; omega
    · right
      have hne : u / d ≠ 0 := by intro h0; rw [h0] at h; simp at h
      have hle : 2 ^ (u / d).log2 ≤ u / d := Nat.log2_self_le hne
      have hk : 2 ^ (u / d).log2 = 2 ^ 23 * 2 ^ ((u / d).log2 - 23) := by
        rw [← pow_add]; congr 1; omega
      rw [hk] at hle
      have hle2 : d * (2 ^ 23 * 2 ^ ((u / d).log2 - 23)) ≤ u := by
        rw [Nat.le_div_iff_mul_le hd] at hle; rw [Nat.mul_comm]; exact hle
      refine ⟨le_trans ?_ (rhe_bounds _ _).1, hle2⟩
      rw [Nat.le_div_iff_mul_le (by positivity)]
      calc 2 ^ 23 * (d * 2 ^ ((u / d).log2 - 23))
          = d * (2 ^ 23 * 2 ^ ((u / d).log2 - 23)) := by ring
        _ ≤ u := hle2
  · have hlt : u / d < 2 ^ ((u / d).log2 + 1) := Nat.lt_log2_self
    have : u / (d * 2 ^ ((u / d).log2 - 23)) < 2 ^ 24 := by
      rw [← Nat.div_div_eq_div_mul, Nat.div_lt_iff_lt_mul (by positivity), ← pow_add]
      exact lt_of_lt_of_le hlt (Nat.pow_le_pow_right (by norm_num) (by omega))
    have := (rhe_bounds u (d * 2 ^ ((u / d).log2 - 23))).2
    omega

/-- `roundBits` is round-to-nearest-even. -/
theorem roundBits_near (u d : Nat) (hd : 0 < d) : Near u d (roundBits u d) := by
  obtain ⟨k, hb, h1, h2⟩ := roundBits_scale u d hd
  have hD : 0 < d * 2 ^ k := by positivity
  obtain ⟨s1, s2, s3, s4⟩ := rhe_spec u (d * 2 ^ k) hD
  generalize hr : rhe u (d * 2 ^ k) = r at *
  generalize hbb : roundBits u d = b at *
  have hm : magU b = r * 2 ^ k := magU_eq_iff_split hb (by omega) h2
  have hpar : b % 2 = r % 2 := by omega
  refine ⟨?_, ?_⟩
  · intro c hc
    rcases Nat.lt_or_ge (2 ^ 23) r with hr' | hr'
    · have hmc : magU c = (r - 1) * 2 ^ k := magU_eq_iff_split (r := r - 1) (by omega) (by omega) (by omega)
      have e : d * (magU c + magU b) + d * 2 ^ k = d * 2 ^ k * (2 * r) := by
        rw [hm, hmc]
        obtain ⟨r', rfl⟩ : ∃ r', r = r' + 1 := ⟨r - 1, by omega⟩
        simp only [Nat.add_sub_cancel]; ring
      rw [hpar]
      exact ⟨by omega, fun h => s3 (by omega)⟩
    · rcases Nat.eq_zero_or_pos k with hk | hk
      · have hmc : magU c = (r - 1) * 2 ^ k := magU_eq_iff_split (r := r - 1) (by omega) (by omega) (by omega)
        have e : d * (magU c + magU b) + d * 2 ^ k = d * 2 ^ k * (2 * r) := by
          rw [hm, hmc]
          obtain ⟨r', rfl⟩ : ∃ r', r = r' + 1 := ⟨r - 1, by omega⟩
          simp only [Nat.add_sub_cancel]; ring
        rw [hpar]
        exact ⟨by omega, fun h => s3 (by omega)⟩
      · have hr2 : r = 2 ^ 23 := by omega
        obtain ⟨-, h3⟩ : 2 ^ 23 ≤ r ∧ d * (2 ^ 23 * 2 ^ k) ≤ u := by omega
        have hlt : magU c < magU b := magU_lt_iff.2 (by omega)
        have : d * (magU c + magU b) < 2 * u := by
          calc d * (magU c + magU b) < d * (magU b + magU b) :=
                Nat.mul_lt_mul_of_pos_left (by omega) hd
            _ = 2 * (d * (2 ^ 23 * 2 ^ k)) := by rw [hm, hr2]; ring
            _ ≤ 2 * u := by omega
        exact ⟨this.le, fun h => absurd h this.ne⟩
  · rw [hpar]
    rcases Nat.lt_or_ge r (2 ^ 24) with hr' | hr'
    · have hms : magU (b + 1) = (r + 1) * 2 ^ k :=
        magU_eq_iff_split (r := r + 1) (by omega) (by omega) (by omega)
      have e : d * (magU b + magU (b + 1)) = d * 2 ^ k * (2 * r) + d * 2 ^ k := by
        rw [hm, hms]; ring
      rw [e]
      exact ⟨s2, s4⟩
    · have hr2 : r = 2 ^ 24 := by omega
      subst hr2
      have hms : magU (b + 1) = (2 ^ 23 + 1) * 2 ^ (k + 1) :=
        magU_eq_iff_split (r := 2 ^ 23 + 1) (by omega) (by omega) (by omega)
      have e : d * (magU b + magU (b + 1)) = d * 2 ^ k * (2 * 2 ^ 24) + 2 * (d * 2 ^ k) := by
        rw [hm, hms, pow_succ]; ring
      rw [e]
      exact ⟨by omega, fun h => by omega⟩

/-- Nearest-even results are ordered like the exact values (hence unique). -/
theorem Near.mono {u d b u' d' b' : Nat} (hd : 0 < d) (hd' : 0 < d')
    (h : Near u d b) (h' : Near u' d' b') (hle : u * d' ≤ u' * d) : b ≤ b' := by
  by_contra hlt
  rw [not_le] at hlt
  obtain ⟨c, rfl⟩ : ∃ c, c + 1 = b := ⟨b - 1, by omega⟩
  obtain ⟨l1, l2⟩ := h.1 c rfl
  obtain ⟨-, r1, r2⟩ := h'
  have hM : magU b' + magU (b' + 1) ≤ magU c + magU (c + 1) :=
    Nat.add_le_add (magU_le_iff.2 (by omega)) (magU_le_iff.2 (by omega))
  have hM2 : c ≤ b' ∨ magU b' + magU (b' + 1) < magU c + magU (c + 1) := by
    rcases Nat.lt_or_ge b' c with hc | hc
    · exact Or.inr (Nat.add_lt_add_of_lt_of_le (magU_lt_iff.2 hc) (magU_le_iff.2 (by omega)))
    · exact Or.inl hc
  generalize magU b' + magU (b' + 1) = M' at *
  generalize hMc : magU c + magU (c + 1) = M at *
  have a1 : d * d' * M ≤ 2 * (u * d') := by
    calc d * d' * M = d' * (d * M) := by ring
      _ ≤ d' * (2 * u) := Nat.mul_le_mul_left _ l1
      _ = 2 * (u * d') := by ring
  have a2 : 2 * (u' * d) ≤ d * d' * M' := by
    calc 2 * (u' * d) = d * (2 * u') := by ring
      _ ≤ d * (d' * M') := Nat.mul_le_mul_left _ r1
      _ = d * d' * M' := by ring
  have a3 : d * d' * M' ≤ d * d' * M := Nat.mul_le_mul_left _ hM
  have e1 : d * M = 2 * u := by
    have : d' * (d * M) = d' * (2 * u) := by
      have e0 : d' * (d * M) = d * d' * M := by ring
      have e0' : d' * (2 * u) = 2 * (u * d') := by ring
      omega
    exact Nat.eq_of_mul_eq_mul_left hd' this
  have e2 : 2 * u' = d' * M' := by
    have : d * (2 * u') = d * (d' * M') := by
      have e0 : d * (d' * M') = d * d' * M' := by ring
      have e0' : d * (2 * u') = 2 * (u' * d) := by ring
      omega
    exact Nat.eq_of_mul_eq_mul_left hd this
  have e3 : M' = M := by
    have : d * d' * M' = d * d' * M := by omega
    exact Nat.eq_of_mul_eq_mul_left (by positivity) this
  have p1 := l2 e1
  have p2 := r2 e2
  omega

theorem roundBits_eq_of_near {u d b : Nat} (hd : 0 < d) (h : Near u d b) : roundBits u d = b :=
  le_antisymm ((roundBits_near u d hd).mono hd hd h le_rfl) (h.mono hd hd (roundBits_near u d hd) le_rfl)

/-- Monotonicity of rounding in the exact ratio. -/
theorem roundBits_mono {u d u' d' : Nat} (hd : 0 < d) (hd' : 0 < d') (h : u * d' ≤ u' * d) :
    roundBits u d ≤ roundBits u' d' :=
  (roundBits_near u d hd).mono hd hd' (roundBits_near u' d' hd') h

/-- Rounding depends only on the exact ratio. -/
theorem roundBits_congr {u d u' d' : Nat} (hd : 0 < d) (hd' : 0 < d') (h : u * d' = u' * d) :
    roundBits u d = roundBits u' d' :=
  le_antisymm (roundBits_mono hd hd' h.le) (roundBits_mono hd' hd h.ge)

/-- Representable values are rounded to themselves. -/
theorem roundBits_exact (b d : Nat) (hd : 0 < d) : roundBits (magU b * d) d = b := by
  apply roundBits_eq_of_near hd
  refine ⟨?_, ?_, ?_⟩
  · intro c hc
    have : d * (magU c + magU b) < 2 * (magU b * d) := by
      have h1 : magU c < magU b := magU_lt_iff.2 (by omega)
      calc d * (magU c + magU b) < d * (magU b + magU b) := Nat.mul_lt_mul_of_pos_left (by omega) hd
        _ = _ := by ring
    exact ⟨this.le, fun h => absurd h this.ne⟩
  · have h1 : magU b < magU (b + 1) := magU_lt_succ b
    calc 2 * (magU b * d) = d * (magU b + magU b) := by ring
      _ ≤ _ := Nat.mul_le_mul_left _ (by omega)
  · intro h
    have h1 : magU b < magU (b + 1) := magU_lt_succ b
    have : 2 * (magU b * d) < d * (magU b + magU (b + 1)) := by
      calc 2 * (magU b * d) = d * (magU b + magU b) := by ring
        _ < _ := Nat.mul_lt_mul_of_pos_left (by omega) hd
    omega

@[simp] theorem roundBits_magU (b : Nat) : roundBits (magU b) 1 = b := by
  simpa using roundBits_exact b 1 one_pos

theorem roundBits_zero (d : Nat) (hd : 0 < d) : roundBits 0 d = 0 := by
  simpa using roundBits_exact 0 d hd

end Micromath.F32
