import Mathlib.Algebra.BigOperators.Intervals
import Mathlib.Algebra.BigOperators.Field
import Verif.Props.Roots

/-!
# The average deviations documented for `sqrt`, `invsqrt` and `inv`

`src/f32ext.rs` documents "an average deviation of ~5%" for `sqrt` and `invsqrt` and of "~8%" for `inv`.  Here
the average is taken over all `2^23` floats between two consecutive powers of two.
-/

set_option exponentiation.threshold 1000

namespace Micromath.Props
open F32 Spec

/-- The float with exponent field `e` and fraction field `f`. -/
def normalAt (e f : ℕ) : F32 := ⟨BitVec.ofNat 32 (e * 2 ^ 23 + f)⟩

/-- Average over all floats with exponent field `e` of a quantity that depends on the fraction field. -/
noncomputable def binadeMean (F : ℕ → ℝ) : ℝ := (∑ f ∈ Finset.range (2 ^ 23), F f) / 2 ^ 23

/-- Relative deviation of `y` from `t`. -/
noncomputable def relDev (y : F32) (t : ℝ) : ℝ := |(y.val : ℝ) - t| / t

theorem normalAt_bits {e f : ℕ} (he : e ≤ 254) (hf : f < 2 ^ 23) : (normalAt e f).bits.toNat = e * 2 ^ 23 + f := by
  rw [normalAt, BitVec.toNat_ofNat, Nat.mod_eq_of_lt (by omega)]

theorem normalAt_val {e f : ℕ} (h1 : 1 ≤ e) (he : e ≤ 254) (hf : f < 2 ^ 23) :
    PosNormal (normalAt e f) ∧ (normalAt e f).val = (2 ^ 23 + f) * 2 ^ (e - 1) / 2 ^ 149 :=
  val_of_bits h1 he hf (normalAt_bits he hf)

/-- `normalAt e` enumerates, without repetition, exactly the floats from `2^(e-127)` up to the next power of two. -/
theorem C143_binade {e : ℕ} (h1 : 1 ≤ e) (he : e ≤ 254) (x : F32) :
    (x.isFinite = true ∧ 2 ^ e / 2 ^ 127 ≤ x.val ∧ x.val < 2 ^ (e + 1) / 2 ^ 127 ↔ ∃ f < 2 ^ 23, x = normalAt e f) ∧
    ∀ f < 2 ^ 23, ∀ g < 2 ^ 23, normalAt e f = normalAt e g → f = g := by
  have hp : (2 : ℚ) ^ e = 2 * 2 ^ (e - 1) := by rw [← pow_succ']; congr 1; omega
  refine ⟨⟨fun ⟨hf, hl, hu⟩ => ?_, ?_⟩, fun f hf g hg h => ?_⟩
  · have hpn : PosNormal x := ⟨hf, le_trans (by
      have : (2 : ℚ) ^ 1 ≤ 2 ^ e := pow_le_pow_right₀ (by norm_num) h1
      rw [div_le_div_iff₀ (by positivity) (by positivity)]; norm_num at this ⊢; linarith) hl⟩
    obtain ⟨e', f, a1, a2, a3, -, a5, a6⟩ := posNormal_split hpn
    have hfq : (f : ℚ) < 2 ^ 23 := by exact_mod_cast a3
    have hf0 : (0 : ℚ) ≤ f := by positivity
    have ee : e' = e := by
      rw [a6] at hl hu
      have hp' : (2 : ℚ) ^ e' = 2 * 2 ^ (e' - 1) := by rw [← pow_succ']; congr 1; omega
      have P : (0 : ℚ) < 2 ^ (e' - 1) := by positivity
      apply le_antisymm
      · by_contra hc
        have : (2 : ℚ) ^ (e + 1) ≤ 2 ^ e' := pow_le_pow_right₀ (by norm_num) (by omega)
        rw [div_lt_div_iff₀ (by positivity) (by positivity)] at hu
        nlinarith
      · by_contra hc
        have : (2 : ℚ) ^ (e' + 1) ≤ 2 ^ e := pow_le_pow_right₀ (by norm_num) (by omega)
        rw [pow_succ] at this
        rw [div_le_div_iff₀ (by positivity) (by positivity)] at hl
        nlinarith
    subst ee
    refine ⟨f, a3, ?_⟩
    have : x.bits = (normalAt e' f).bits := BitVec.eq_of_toNat_eq (by rw [a5, normalAt_bits he a3])
    cases x; simpa [normalAt] using this
  · rintro ⟨f, hf, rfl⟩
    obtain ⟨hn, hv⟩ := normalAt_val h1 he hf
    have hfq : (f : ℚ) < 2 ^ 23 := by exact_mod_cast hf
    have hf0 : (0 : ℚ) ≤ f := by positivity
    have P : (0 : ℚ) < 2 ^ (e - 1) := by positivity
    refine ⟨hn.1, ?_, ?_⟩
    · rw [hv, hp, div_le_div_iff₀ (by positivity) (by positivity)]; nlinarith
    · rw [hv, show (2 : ℚ) ^ (e + 1) = 2 ^ e * 2 from pow_succ _ _, hp, div_lt_div_iff₀ (by positivity) (by positivity)]; nlinarith
  · have := congrArg (fun z : F32 => z.bits.toNat) h
    simp only [normalAt_bits he hf, normalAt_bits he hg] at this
    omega

/-! ### Sums over blocks -/

theorem block_sum {B K : ℕ} {F : ℕ → ℝ} {G : ℕ → ℝ} {δ : ℝ} (H : ∀ b < B, ∀ i < K, |F (b * K + i) - G b| ≤ δ) :
    |∑ j ∈ Finset.range (B * K), F j - K * ∑ b ∈ Finset.range B, G b| ≤ B * K * δ := by
  induction B with
  | zero => simp
  | succ B ih =>
    have h1 := ih (fun b hb i hi => H b (by omega) i hi)
    rw [Nat.succ_mul, Finset.sum_range_add, Finset.sum_range_succ]
    have h2 : |∑ i ∈ Finset.range K, F (B * K + i) - K * G B| ≤ K * δ := by
      have e : (∑ i ∈ Finset.range K, F (B * K + i)) - K * G B = ∑ i ∈ Finset.range K, (F (B * K + i) - G B) := by
        rw [Finset.sum_sub_distrib, Finset.sum_const, Finset.card_range, nsmul_eq_mul]
      rw [e]
      refine (Finset.abs_sum_le_sum_abs _ _).trans ?_
      refine (Finset.sum_le_sum (fun i hi => H B (by omega) i (Finset.mem_range.1 hi))).trans ?_
      rw [Finset.sum_const, Finset.card_range, nsmul_eq_mul]
    push_cast
    rw [abs_le] at *
    constructor <;> nlinarith [h1.1, h1.2, h2.1, h2.2]

theorem sum_gap (n N : ℕ) : (∑ f ∈ Finset.range n, (f : ℚ) * (N - f)) = n * (n - 1) * (3 * N - 2 * n + 1) / 6 := by
  induction n with
  | zero => simp
  | succ n ih => rw [Finset.sum_range_succ, ih]; push_cast; ring

/-! ### `inv` -/

theorem inv_dev [Cfg] {e f : ℕ} (h1 : 1 ≤ e) (he : e ≤ 252) (hf : f < 2 ^ 23) :
    (normalAt e f).val * (normalAt e f).inv.val = 1 + f * (2 ^ 23 - f) / 2 ^ 47 ∧ (normalAt e f).inv.isFinite = true := by
  obtain ⟨hn, hv⟩ := normalAt_val h1 (by omega) hf
  have hb := normalAt_bits (e := e) (by omega) hf
  have hi := inv_toNat (x := normalAt e f) (by omega)
  rw [hb] at hi
  rcases Nat.eq_zero_or_pos f with h0 | h0
  · obtain ⟨h3, h4⟩ := val_of_bits (y := (normalAt e f).inv) (E := 254 - e) (F := 0) (by omega) (by omega) (by omega)
      (by rw [hi]; omega)
    refine ⟨?_, h3.1⟩
    have hp : (2 : ℚ) ^ (e - 1) * 2 ^ (254 - e - 1) = 2 ^ 252 := by rw [← pow_add]; congr 1; omega
    rw [hv, h4, h0, show ((2 : ℚ) ^ 23 + (0 : ℕ)) * 2 ^ (e - 1) / 2 ^ 149 * ((2 ^ 23 + (0 : ℕ)) * 2 ^ (254 - e - 1) / 2 ^ 149)
      = 2 ^ 46 * (2 ^ (e - 1) * 2 ^ (254 - e - 1)) / 2 ^ 298 by push_cast; ring, hp]
    norm_num
  · obtain ⟨h3, h4⟩ := val_of_bits (y := (normalAt e f).inv) (E := 253 - e) (F := 2 ^ 23 - f) (by omega) (by omega) (by omega)
      (by rw [hi]; omega)
    refine ⟨?_, h3.1⟩
    have hp : (2 : ℚ) ^ (e - 1) * 2 ^ (253 - e - 1) = 2 ^ 251 := by rw [← pow_add]; congr 1; omega
    rw [hv, h4, Nat.cast_sub hf.le, Nat.cast_pow, Nat.cast_ofNat,
      show ((2 : ℚ) ^ 23 + f) * 2 ^ (e - 1) / 2 ^ 149 * ((2 ^ 23 + (2 ^ 23 - f)) * 2 ^ (253 - e - 1) / 2 ^ 149)
        = (2 ^ 23 + f) * (2 * 2 ^ 23 - f) * (2 ^ (e - 1) * 2 ^ (253 - e - 1)) / 2 ^ 298 by ring, hp]
    ring

/-- **C143, `inv`**: between any two consecutive powers of two up to `2^126` the average relative deviation from `1/x` is
exactly `(1 - 2^-46) / 12`, that is 8.33%. -/
theorem C143_inv [Cfg] {e : ℕ} (h1 : 1 ≤ e) (he : e ≤ 252) :
    binadeMean (fun f => relDev (normalAt e f).inv (1 / (normalAt e f).val)) = (1 - 1 / 2 ^ 46) / 12 := by
  have key : ∀ f ∈ Finset.range (2 ^ 23), relDev (normalAt e f).inv (1 / (normalAt e f).val) = (((f : ℚ) * ((2 ^ 23 : ℕ) - f) / 2 ^ 47 : ℚ) : ℝ) := by
    intro f hf
    have hf := Finset.mem_range.1 hf
    obtain ⟨hd, -⟩ := inv_dev h1 he hf
    obtain ⟨hn, -⟩ := normalAt_val h1 (by omega) hf
    have hx : (0 : ℝ) < (normalAt e f).val := by exact_mod_cast (lt_of_lt_of_le (by positivity) hn.2)
    have hd' : ((normalAt e f).val : ℝ) * (normalAt e f).inv.val = 1 + f * (2 ^ 23 - f) / 2 ^ 47 := by
      have := congrArg (Rat.cast : ℚ → ℝ) hd; push_cast at this; exact this
    have hfq : (f : ℝ) ≤ 2 ^ 23 := by exact_mod_cast hf.le
    have e1 : ((normalAt e f).inv.val : ℝ) - 1 / (normalAt e f).val = f * (2 ^ 23 - f) / 2 ^ 47 * (1 / (normalAt e f).val) := by
      field_simp
      rw [mul_comm ((normalAt e f).inv.val : ℝ), hd']; ring
    rw [relDev, e1, abs_of_nonneg (mul_nonneg (div_nonneg (mul_nonneg (by positivity) (by linarith)) (by positivity)) (by positivity)),
      mul_div_assoc, div_self (by positivity), mul_one]
    push_cast; ring
  rw [binadeMean, Finset.sum_congr rfl key, ← Rat.cast_sum, ← Finset.sum_div, sum_gap]
  norm_num

/-! ### From the square of a ratio to the ratio -/

/-- A deviation is at least `|P - 1| / A` and at most `|P - 1| / B`, where `P = y² / t²` is near one. -/
theorem relDev_sq {y : F32} {t P A B : ℝ} (ht : 0 < t) (hy : 0 < (y.val : ℝ)) (hP : (y.val : ℝ) ^ 2 = P * t ^ 2)
    (hB : 1 < B) (hA : 1 < A) (hlo : (B - 1) ^ 2 ≤ P) (hhi : P ≤ (A - 1) ^ 2) :
    |P - 1| / A ≤ relDev y t ∧ relDev y t ≤ |P - 1| / B := by
  set s : ℝ := y.val / t with hs
  have es : (y.val : ℝ) = s * t := by rw [hs]; field_simp
  have s0 : 0 < s := div_pos hy ht
  have sP : s ^ 2 = P := by
    rw [es, mul_pow] at hP
    exact mul_right_cancel₀ (by positivity) hP
  have e1 : relDev y t = |s - 1| := by
    rw [relDev, es, show s * t - t = (s - 1) * t by ring, abs_mul, abs_of_pos ht, mul_div_assoc, div_self ht.ne', mul_one]
  have e2 : |P - 1| = |s - 1| * (s + 1) := by
    rw [← sP, show s ^ 2 - 1 = (s - 1) * (s + 1) by ring, abs_mul, abs_of_pos (by linarith : 0 < s + 1)]
  have h1 : B ≤ s + 1 := by
    have : B - 1 ≤ s := (sq_le_sq₀ (by linarith) s0.le).1 (by rw [sP]; exact hlo)
    linarith
  have h2 : s + 1 ≤ A := by
    have : s ≤ A - 1 := (sq_le_sq₀ s0.le (by linarith)).1 (by rw [sP]; exact hhi)
    linarith
  rw [e1, e2]
  constructor
  · rw [div_le_iff₀ (by linarith)]; exact mul_le_mul_of_nonneg_left h2 (abs_nonneg _)
  · rw [le_div_iff₀ (by linarith)]; exact mul_le_mul_of_nonneg_left h1 (abs_nonneg _)

/-- `G 0 + ... + G (n - 1)`, for evaluation. -/
def totalQ (G : ℕ → ℚ) : ℕ → ℚ
  | 0 => 0
  | n + 1 => totalQ G n + G n

theorem totalQ_eq (G : ℕ → ℚ) (n : ℕ) : ∑ c ∈ Finset.range n, G c = totalQ G n := by
  induction n with
  | zero => rfl
  | succ n ih => rw [Finset.sum_range_succ, ih, totalQ]

/-- The average of a deviation from the average of `|P - 1|`, itself known at the middle of each block. -/
theorem mean_of_blocks {B K : ℕ} (hN : B * K = 2 ^ 23) {F : ℕ → ℝ} {D G : ℕ → ℚ} {δ a b lo hi Sl Su : ℚ}
    (ha : 0 < a) (hb : 0 < b) (hF : ∀ f < 2 ^ 23, (D f : ℝ) / a ≤ F f ∧ F f ≤ D f / b)
    (H : ∀ c < B, ∀ i < K, |D (c * K + i) - G c| ≤ δ) (hS : Sl * B ≤ totalQ G B ∧ totalQ G B ≤ Su * B)
    (hlo : lo * a ≤ Sl - δ) (hhi : Su + δ ≤ hi * b) : (lo : ℝ) ≤ binadeMean F ∧ binadeMean F ≤ hi := by
  have h := block_sum (B := B) (K := K) (F := fun j => (D j : ℝ)) (G := fun c => (G c : ℝ)) (δ := δ)
    (fun c hc i hi => by have := (Rat.cast_le (K := ℝ)).2 (H c hc i hi); push_cast at this; exact this)
  have hN' : (B : ℝ) * K = 2 ^ 23 := by exact_mod_cast hN
  have K0 : (0 : ℝ) ≤ K := by positivity
  rw [show (∑ c ∈ Finset.range B, (G c : ℝ)) = totalQ G B by rw [← totalQ_eq]; push_cast; rfl, hN, hN', abs_le] at h
  have s1 : (Sl * B : ℝ) ≤ totalQ G B := by exact_mod_cast hS.1
  have s2 : (totalQ G B : ℝ) ≤ Su * B := by exact_mod_cast hS.2
  have s3 := mul_le_mul_of_nonneg_left s1 K0
  have s4 := mul_le_mul_of_nonneg_left s2 K0
  rw [show (K : ℝ) * (Sl * B) = Sl * 2 ^ 23 by rw [← hN']; ring] at s3
  rw [show (K : ℝ) * (Su * B) = Su * 2 ^ 23 by rw [← hN']; ring] at s4
  have ha' : (0 : ℝ) < a := by exact_mod_cast ha
  have hb' : (0 : ℝ) < b := by exact_mod_cast hb
  have l : (∑ j ∈ Finset.range (2 ^ 23), (D j : ℝ)) / a ≤ ∑ j ∈ Finset.range (2 ^ 23), F j := by
    rw [Finset.sum_div]; exact Finset.sum_le_sum fun j hj => (hF j (Finset.mem_range.1 hj)).1
  have u : ∑ j ∈ Finset.range (2 ^ 23), F j ≤ (∑ j ∈ Finset.range (2 ^ 23), (D j : ℝ)) / b := by
    rw [Finset.sum_div]; exact Finset.sum_le_sum fun j hj => (hF j (Finset.mem_range.1 hj)).2
  rw [div_le_iff₀ ha'] at l
  rw [le_div_iff₀ hb'] at u
  have hlo' : (lo * a : ℝ) ≤ Sl - δ := by exact_mod_cast hlo
  have hhi' : (Su + δ : ℝ) ≤ hi * b := by exact_mod_cast hhi
  rw [binadeMean, le_div_iff₀ (by positivity), div_le_iff₀ (by positivity)]
  generalize ∑ j ∈ Finset.range (2 ^ 23), (D j : ℝ) = A at *
  generalize ∑ j ∈ Finset.range (2 ^ 23), F j = C at *
  constructor
  · refine le_of_mul_le_mul_right ?_ ha'
    linarith only [h.1, l, s3, mul_le_mul_of_nonneg_right hlo' (by positivity : (0 : ℝ) ≤ 2 ^ 23)]
  · refine le_of_mul_le_mul_right ?_ hb'
    linarith only [h.2, u, s4, mul_le_mul_of_nonneg_right hhi' (by positivity : (0 : ℝ) ≤ 2 ^ 23)]

/-! ### `sqrt` -/

theorem frac_half {f : ℕ} (hf : f < 2 ^ 23) :
    0 ≤ (f : ℚ) / 2 ^ 23 ∧ (f : ℚ) / 2 ^ 23 ≤ 1 ∧ 0 ≤ ((f / 2 : ℕ) : ℚ) / 2 ^ 22 ∧
      ((f / 2 : ℕ) : ℚ) / 2 ^ 22 ≤ (f : ℚ) / 2 ^ 23 ∧ (f : ℚ) / 2 ^ 23 - 1 / 2 ^ 23 ≤ ((f / 2 : ℕ) : ℚ) / 2 ^ 22 := by
  have h1 : ((f / 2 : ℕ) : ℚ) * 2 ≤ f := by have : f / 2 * 2 ≤ f := by omega
                                            exact_mod_cast this
  have h2 : (f : ℚ) ≤ ((f / 2 : ℕ) : ℚ) * 2 + 1 := by have : f ≤ f / 2 * 2 + 1 := by omega
                                                      exact_mod_cast this
  have h3 : (f : ℚ) ≤ 2 ^ 23 := by exact_mod_cast hf.le
  have h4 : (0 : ℚ) ≤ f := by positivity
  have h5 : (0 : ℚ) ≤ ((f / 2 : ℕ) : ℚ) := by positivity
  refine ⟨by positivity, by linarith, by positivity, by linarith, by linarith⟩

theorem sqrt_ratio [Cfg] {e f : ℕ} (h1 : 1 ≤ e) (he : e ≤ 254) (hf : f < 2 ^ 23) :
    PosNormal (normalAt e f).sqrt ∧
    (e % 2 = 1 → (normalAt e f).sqrt.val ^ 2 = (1 + ((f / 2 : ℕ) : ℚ) / 2 ^ 22 / 2) ^ 2 / (1 + f / 2 ^ 23) * (normalAt e f).val) ∧
    (e % 2 = 0 → (normalAt e f).sqrt.val ^ 2 = (3 + ((f / 2 : ℕ) : ℚ) / 2 ^ 22) ^ 2 / (8 * (1 + f / 2 ^ 23)) * (normalAt e f).val) := by
  obtain ⟨hn, hv⟩ := normalAt_val h1 he hf
  have hs := sqrt_toNat (posNormal_ge hn)
  rw [normalAt_bits he hf] at hs
  have hd : (1 + (f : ℚ) / 2 ^ 23) ≠ 0 := by positivity
  rcases Nat.even_or_odd' e with ⟨c, hc | hc⟩
  · obtain ⟨k1, k2⟩ := val_of_bits (y := (normalAt e f).sqrt) (E := c + 63) (F := 2 ^ 22 + f / 2) (by omega) (by omega) (by omega)
      (by rw [hs]; omega)
    refine ⟨k1, by omega, fun _ => ?_⟩
    have hp : ((2 : ℚ) ^ (c + 63 - 1)) ^ 2 = 2 ^ (e - 1) * 2 ^ 125 := by
      rw [← pow_mul, ← pow_add]; congr 1; omega
    rw [k2, hv, div_pow, mul_pow, hp, Nat.cast_add, Nat.cast_pow, Nat.cast_ofNat]
    field_simp
    ring
  · obtain ⟨k1, k2⟩ := val_of_bits (y := (normalAt e f).sqrt) (E := c + 64) (F := f / 2) (by omega) (by omega) (by omega)
      (by rw [hs]; omega)
    refine ⟨k1, fun _ => ?_, by omega⟩
    have hp : ((2 : ℚ) ^ (c + 64 - 1)) ^ 2 = 2 ^ (e - 1) * 2 ^ 126 := by
      rw [← pow_mul, ← pow_add]; congr 1; omega
    rw [k2, hv, div_pow, mul_pow, hp]
    field_simp


theorem abs_diff {P Q T δ : ℚ} (h : |P - Q - T| ≤ δ) (hT : 0 ≤ T) (hQ : Q = 1) : |(|P - 1| - T)| ≤ δ := by
  subst hQ
  have := abs_abs_sub_abs_le (P - 1) T
  rw [abs_of_nonneg hT] at this
  exact this.trans h

theorem odd_near {m h c d : ℚ} (h0 : 0 ≤ h) (h1 : h ≤ m) (h2 : m - 1 / 2 ^ 23 ≤ h) (c0 : 0 ≤ c)
    (hd : |m - c| ≤ d) : |(|(1 + h / 2) ^ 2 / (1 + m) - 1| - c ^ 2 / (4 * (1 + c)))| ≤ d / 4 + 1 / 2 ^ 22 := by
  refine abs_diff (Q := 1) ?_ (by positivity) rfl
  have m0 := h0.trans h1
  have e : (1 + h / 2) ^ 2 / (1 + m) - 1 - c ^ 2 / (4 * (1 + c))
      = (m - c) * ((m + c + m * c) / (4 * ((1 + m) * (1 + c)))) - (m - h) / 2 * ((2 + (m + h) / 2) / (1 + m)) := by
    field_simp; ring
  have a1 : 0 ≤ (m + c + m * c) / (4 * ((1 + m) * (1 + c))) := by positivity
  have a2 : (m + c + m * c) / (4 * ((1 + m) * (1 + c))) ≤ 1 / 4 := by
    rw [div_le_div_iff₀ (by positivity) (by norm_num)]; nlinarith
  have b1 : 0 ≤ (2 + (m + h) / 2) / (1 + m) := by positivity
  have b2 : (2 + (m + h) / 2) / (1 + m) ≤ 2 := by rw [div_le_iff₀ (by positivity)]; linarith
  rw [e]
  refine (abs_sub _ _).trans (add_le_add ?_ ?_)
  · rw [abs_mul, abs_of_nonneg a1]
    calc |m - c| * _ ≤ d * (1 / 4) := mul_le_mul hd a2 a1 ((abs_nonneg _).trans hd)
      _ = d / 4 := by ring
  · rw [abs_of_nonneg (mul_nonneg (by linarith) b1)]
    calc (m - h) / 2 * _ ≤ (1 / 2 ^ 23) / 2 * 2 := mul_le_mul (by linarith) b2 b1 (by positivity)
      _ ≤ 1 / 2 ^ 22 := by norm_num

theorem even_near {m h c d : ℚ} (h0 : 0 ≤ h) (h1 : h ≤ m) (h2 : m - 1 / 2 ^ 23 ≤ h) (hm : m ≤ 1) (c0 : 0 ≤ c) (c1 : c ≤ 1)
    (hd : |m - c| ≤ d) : |(|(3 + h) ^ 2 / (8 * (1 + m)) - 1| - (1 - c) ^ 2 / (8 * (1 + c)))| ≤ 3 / 8 * d + 1 / 2 ^ 22 := by
  refine abs_diff (Q := 1) ?_ (by positivity) rfl
  have m0 := h0.trans h1
  have e : (3 + h) ^ 2 / (8 * (1 + m)) - 1 - (1 - c) ^ 2 / (8 * (1 + c))
      = -((m - c) * ((3 - m - c - m * c) / (8 * ((1 + m) * (1 + c))))) - (m - h) * ((6 + m + h) / (8 * (1 + m))) := by
    field_simp; ring
  have mc : m * c ≤ 1 := mul_le_one₀ hm c0 c1
  have a1 : 0 ≤ (3 - m - c - m * c) / (8 * ((1 + m) * (1 + c))) := div_nonneg (by linarith) (by positivity)
  have a2 : (3 - m - c - m * c) / (8 * ((1 + m) * (1 + c))) ≤ 3 / 8 := by
    rw [div_le_div_iff₀ (by positivity) (by norm_num)]; nlinarith [mul_nonneg m0 c0]
  have b1 : 0 ≤ (6 + m + h) / (8 * (1 + m)) := by positivity
  have b2 : (6 + m + h) / (8 * (1 + m)) ≤ 1 := by rw [div_le_iff₀ (by positivity)]; linarith
  rw [e]
  refine (abs_sub _ _).trans (add_le_add ?_ ?_)
  · rw [abs_neg, abs_mul, abs_of_nonneg a1]
    calc |m - c| * _ ≤ d * (3 / 8) := mul_le_mul hd a2 a1 ((abs_nonneg _).trans hd)
      _ = 3 / 8 * d := by ring
  · rw [abs_of_nonneg (mul_nonneg (by linarith) b1)]
    calc (m - h) * _ ≤ (1 / 2 ^ 23) * 1 := mul_le_mul (by linarith) b2 b1 (by positivity)
      _ ≤ 1 / 2 ^ 22 := by norm_num

theorem in_block {B K c i : ℕ} (hN : B * K = 2 ^ 23) (hc : c < B) (hi : i < K) :
    c * K + i < 2 ^ 23 ∧ (0 : ℚ) ≤ (2 * c + 1) / (2 * B) ∧ ((2 * c + 1) / (2 * B) : ℚ) ≤ 1 ∧
      |((c * K + i : ℕ) : ℚ) / 2 ^ 23 - (2 * c + 1) / (2 * B)| ≤ (1 / (2 * B) : ℚ) := by
  have hB : (0 : ℚ) < B := by exact_mod_cast (by omega : 0 < B)
  have hK : (0 : ℚ) < K := by exact_mod_cast (by omega : 0 < K)
  have hN' : (2 : ℚ) ^ 23 = B * K := by exact_mod_cast hN.symm
  have hcq : (c : ℚ) + 1 ≤ B := by exact_mod_cast hc
  have hiq : (i : ℚ) ≤ K := by exact_mod_cast hi.le
  have hi0 : (0 : ℚ) ≤ i := by positivity
  refine ⟨?_, by positivity, ?_, ?_⟩
  · rw [← hN]; calc c * K + i < (c + 1) * K := by rw [Nat.succ_mul]; omega
      _ ≤ B * K := Nat.mul_le_mul_right _ hc
  · rw [div_le_one (by positivity)]; linarith
  · rw [hN', Nat.cast_add, Nat.cast_mul,
      show ((c : ℚ) * K + i) / (B * K) - (2 * c + 1) / (2 * B) = ((2 * i - K) / K) * (1 / (2 * B)) by field_simp; ring,
      abs_mul, abs_of_pos (by positivity : (0 : ℚ) < 1 / (2 * B))]
    refine mul_le_of_le_one_left (by positivity) ?_
    rw [abs_div, abs_of_pos hK, div_le_one hK, abs_le]
    constructor <;> linarith

/-- `|P - 1|` at the middle of block `c` out of 256, for odd and for even exponent fields. -/
def sqrtOdd (c : ℕ) : ℚ := ((2 * c + 1) / (2 * 256)) ^ 2 / (4 * (1 + (2 * c + 1) / (2 * 256)))
@[inherit_doc sqrtOdd] def sqrtEven (c : ℕ) : ℚ := (1 - (2 * c + 1) / (2 * 256)) ^ 2 / (8 * (1 + (2 * c + 1) / (2 * 256)))

theorem sqrtOdd_total : 0.0482 * 256 ≤ totalQ sqrtOdd 256 ∧ totalQ sqrtOdd 256 ≤ 0.0483 * 256 := by decide +kernel
theorem sqrtEven_total : 0.0340 * 256 ≤ totalQ sqrtEven 256 ∧ totalQ sqrtEven 256 ≤ 0.0342 * 256 := by decide +kernel

theorem relDev_root {x y : F32} (hx : PosNormal x) (hy : PosNormal y) {P A B : ℚ} (hP : y.val ^ 2 = P * x.val)
    (hB : 1 < B) (hA : 1 < A) (hlo : (B - 1) ^ 2 ≤ P) (hhi : P ≤ (A - 1) ^ 2) :
    ((|P - 1| : ℚ) : ℝ) / A ≤ relDev y (Real.sqrt x.val) ∧ relDev y (Real.sqrt x.val) ≤ ((|P - 1| : ℚ) : ℝ) / B := by
  have hx' : (0 : ℝ) < x.val := by exact_mod_cast (lt_of_lt_of_le (by positivity) hx.2)
  have hy' : (0 : ℝ) < y.val := by exact_mod_cast (lt_of_lt_of_le (by positivity) hy.2)
  have h := relDev_sq (y := y) (t := Real.sqrt x.val) (P := P) (A := A) (B := B) (Real.sqrt_pos.2 hx') hy'
    (by rw [Real.sq_sqrt hx'.le]; exact_mod_cast hP) (by exact_mod_cast hB) (by exact_mod_cast hA)
    (by exact_mod_cast hlo) (by exact_mod_cast hhi)
  push_cast
  exact h

theorem sqrt_mean_odd [Cfg] {e : ℕ} (h1 : 1 ≤ e) (he : e ≤ 254) (ho : e % 2 = 1) :
    0.023 ≤ binadeMean (fun f => relDev (normalAt e f).sqrt (Real.sqrt (normalAt e f).val)) ∧
    binadeMean (fun f => relDev (normalAt e f).sqrt (Real.sqrt (normalAt e f).val)) ≤ 0.0245 := by
  have h := mean_of_blocks (B := 256) (K := 2 ^ 15) (by norm_num) (F := fun f => relDev (normalAt e f).sqrt (Real.sqrt (normalAt e f).val))
    (D := fun f => |(1 + ((f / 2 : ℕ) : ℚ) / 2 ^ 22 / 2) ^ 2 / (1 + f / 2 ^ 23) - 1|) (G := sqrtOdd) (δ := 0.0005)
    (a := 2.0607) (b := 1.9999) (lo := 0.023) (hi := 0.0245) (Sl := 0.0482) (Su := 0.0483) (by norm_num) (by norm_num) ?_ ?_ sqrtOdd_total
    (by norm_num) (by norm_num)
  · norm_num at h ⊢; exact h
  · intro f hf
    obtain ⟨k1, k2, -⟩ := sqrt_ratio h1 he hf
    obtain ⟨hn, -⟩ := normalAt_val h1 he hf
    obtain ⟨-, b1, b2⟩ := sqrt_bounds hn
    rw [k2 ho] at b1 b2
    have hx : 0 < (normalAt e f).val := lt_of_lt_of_le (by positivity) hn.2
    exact relDev_root hn k1 (k2 ho) (by norm_num) (by norm_num)
      (le_trans (by norm_num) (le_of_mul_le_mul_right b1 hx)) ((le_of_mul_le_mul_right b2 hx).trans (by norm_num))
  · intro c hc i hi
    obtain ⟨q1, q2, q3, q4⟩ := in_block (B := 256) (K := 2 ^ 15) (by norm_num) hc hi
    obtain ⟨-, -, f3, f4, f5⟩ := frac_half q1
    refine (odd_near f3 f4 f5 q2 q4).trans ?_
    norm_num

theorem sqrt_mean_even [Cfg] {e : ℕ} (h1 : 1 ≤ e) (he : e ≤ 254) (ho : e % 2 = 0) :
    0.016 ≤ binadeMean (fun f => relDev (normalAt e f).sqrt (Real.sqrt (normalAt e f).val)) ∧
    binadeMean (fun f => relDev (normalAt e f).sqrt (Real.sqrt (normalAt e f).val)) ≤ 0.0175 := by
  have h := mean_of_blocks (B := 256) (K := 2 ^ 15) (by norm_num) (F := fun f => relDev (normalAt e f).sqrt (Real.sqrt (normalAt e f).val))
    (D := fun f => |(3 + ((f / 2 : ℕ) : ℚ) / 2 ^ 22) ^ 2 / (8 * (1 + f / 2 ^ 23)) - 1|) (G := sqrtEven) (δ := 0.00075)
    (a := 2.0607) (b := 1.9999) (lo := 0.016) (hi := 0.0175) (Sl := 0.0340) (Su := 0.0342) (by norm_num) (by norm_num) ?_ ?_ sqrtEven_total
    (by norm_num) (by norm_num)
  · norm_num at h ⊢; exact h
  · intro f hf
    obtain ⟨k1, -, k2⟩ := sqrt_ratio h1 he hf
    obtain ⟨hn, -⟩ := normalAt_val h1 he hf
    obtain ⟨-, b1, b2⟩ := sqrt_bounds hn
    rw [k2 ho] at b1 b2
    have hx : 0 < (normalAt e f).val := lt_of_lt_of_le (by positivity) hn.2
    exact relDev_root hn k1 (k2 ho) (by norm_num) (by norm_num)
      (le_trans (by norm_num) (le_of_mul_le_mul_right b1 hx)) ((le_of_mul_le_mul_right b2 hx).trans (by norm_num))
  · intro c hc i hi
    obtain ⟨q1, q2, q3, q4⟩ := in_block (B := 256) (K := 2 ^ 15) (by norm_num) hc hi
    obtain ⟨-, f2, f3, f4, f5⟩ := frac_half q1
    refine (even_near f3 f4 f5 f2 q2 q3 q4).trans ?_
    norm_num

/-! ### `invsqrt` -/

/-- `x y²` for `invsqrt`, with `m` the fraction of `x` and `h` the fraction that survives the shift, exponent field odd or even. -/
def invOdd (m h : ℚ) : ℚ := (1 + m) * (3 / 2 + 3627654 / 2 ^ 23 - h / 2) ^ 2 / 4
@[inherit_doc invOdd] def invEven (m h : ℚ) : ℚ :=
  (1 + m) * (max (1 + (3627654 / 2 ^ 23 - h / 2)) (1 + (3627654 / 2 ^ 23 - h / 2) / 2)) ^ 2 / 2

theorem invsqrt_ratio [Cfg] {e f : ℕ} (h1 : 1 ≤ e) (he : e ≤ 254) (hf : f < 2 ^ 23) :
    ∃ y, (normalAt e f).invsqrt = .ok y ∧ PosNormal y ∧
    (e % 2 = 1 → (normalAt e f).val * y.val ^ 2 = invOdd (f / 2 ^ 23) (((f / 2 : ℕ) : ℚ) / 2 ^ 22)) ∧
    (e % 2 = 0 → (normalAt e f).val * y.val ^ 2 = invEven (f / 2 ^ 23) (((f / 2 : ℕ) : ℚ) / 2 ^ 22)) := by
  obtain ⟨hn, hv⟩ := normalAt_val h1 he hf
  have hb := normalAt_bits he hf
  obtain ⟨y, hy, hyb⟩ := invsqrt_ok (x := normalAt e f) (by omega)
  refine ⟨y, hy, ?_⟩
  rw [hb] at hyb
  rcases Nat.even_or_odd' e with ⟨c, hc | hc⟩
  · by_cases hk : f / 2 ≤ 3627654
    · obtain ⟨k1, k2⟩ := val_of_bits (y := y) (E := 190 - c) (F := 3627654 - f / 2) (by omega) (by omega) (by omega)
        (by rw [hyb]; omega)
      refine ⟨k1, by omega, fun _ => ?_⟩
      have hp : (2 : ℚ) ^ (e - 1) * (2 ^ (190 - c - 1)) ^ 2 = 2 ^ 377 := by
        rw [← pow_mul, ← pow_add]; congr 1; omega
      have hkq : ((f / 2 : ℕ) : ℚ) ≤ 3627654 := by exact_mod_cast hk
      rw [invEven, max_eq_left (by linarith), hv, k2, Nat.cast_sub hk, Nat.cast_ofNat,
        show (2 ^ 23 + (f : ℚ)) * 2 ^ (e - 1) / 2 ^ 149 * ((2 ^ 23 + (3627654 - ((f / 2 : ℕ) : ℚ))) * 2 ^ (190 - c - 1) / 2 ^ 149) ^ 2
          = (2 ^ 23 + (f : ℚ)) * (2 ^ 23 + (3627654 - ((f / 2 : ℕ) : ℚ))) ^ 2 * (2 ^ (e - 1) * (2 ^ (190 - c - 1)) ^ 2) / 2 ^ 447 by ring,
        hp]
      ring
    · obtain ⟨k1, k2⟩ := val_of_bits (y := y) (E := 189 - c) (F := 2 ^ 23 + 3627654 - f / 2) (by omega) (by omega) (by omega)
        (by rw [hyb]; omega)
      refine ⟨k1, by omega, fun _ => ?_⟩
      have hp : (2 : ℚ) ^ (e - 1) * (2 ^ (189 - c - 1)) ^ 2 = 2 ^ 375 := by
        rw [← pow_mul, ← pow_add]; congr 1; omega
      have hkq : (3627654 : ℚ) ≤ ((f / 2 : ℕ) : ℚ) := by exact_mod_cast (by omega : 3627654 ≤ f / 2)
      rw [invEven, max_eq_right (by linarith), hv, k2, Nat.cast_sub (by omega), Nat.cast_add, Nat.cast_pow, Nat.cast_ofNat, Nat.cast_ofNat,
        show (2 ^ 23 + (f : ℚ)) * 2 ^ (e - 1) / 2 ^ 149 * ((2 ^ 23 + (2 ^ 23 + 3627654 - ((f / 2 : ℕ) : ℚ))) * 2 ^ (189 - c - 1) / 2 ^ 149) ^ 2
          = (2 ^ 23 + (f : ℚ)) * (2 ^ 23 + (2 ^ 23 + 3627654 - ((f / 2 : ℕ) : ℚ))) ^ 2 * (2 ^ (e - 1) * (2 ^ (189 - c - 1)) ^ 2) / 2 ^ 447 by ring,
        hp]
      ring
  · obtain ⟨k1, k2⟩ := val_of_bits (y := y) (E := 189 - c) (F := 2 ^ 22 + 3627654 - f / 2) (by omega) (by omega) (by omega)
      (by rw [hyb]; omega)
    refine ⟨k1, fun _ => ?_, by omega⟩
    have hp : (2 : ℚ) ^ (e - 1) * (2 ^ (189 - c - 1)) ^ 2 = 2 ^ 376 := by
      rw [← pow_mul, ← pow_add]; congr 1; omega
    rw [invOdd, hv, k2, Nat.cast_sub (by omega), Nat.cast_add, Nat.cast_pow, Nat.cast_ofNat, Nat.cast_ofNat,
      show (2 ^ 23 + (f : ℚ)) * 2 ^ (e - 1) / 2 ^ 149 * ((2 ^ 23 + (2 ^ 22 + 3627654 - ((f / 2 : ℕ) : ℚ))) * 2 ^ (189 - c - 1) / 2 ^ 149) ^ 2
        = (2 ^ 23 + (f : ℚ)) * (2 ^ 23 + (2 ^ 22 + 3627654 - ((f / 2 : ℕ) : ℚ))) ^ 2 * (2 ^ (e - 1) * (2 ^ (189 - c - 1)) ^ 2) / 2 ^ 447 by ring,
      hp]
    ring

/-- `(1 + m) s²` changes by at most `3 d` when `m` and `2 s` change by about `d`. -/
theorem prod_near {m c s t d b : ℚ} (c0 : 0 ≤ c) (c1 : c ≤ 1) (hd : |m - c| ≤ d) (hs : |s - t| ≤ d / 2 + 1 / 2 ^ 23)
    (s0 : 0 ≤ s) (t0 : 0 ≤ t) (sb : s ≤ b) (tb : t ≤ b) :
    |(1 + m) * s ^ 2 - (1 + c) * t ^ 2| ≤ b ^ 2 * d + 2 * ((d / 2 + 1 / 2 ^ 23) * (2 * b)) := by
  rw [show (1 + m) * s ^ 2 - (1 + c) * t ^ 2 = s ^ 2 * (m - c) + (1 + c) * ((s - t) * (s + t)) by ring]
  have d0 := (abs_nonneg _).trans hd
  refine (abs_add_le _ _).trans (add_le_add ?_ ?_)
  · rw [abs_mul, abs_of_nonneg (by positivity : 0 ≤ s ^ 2)]
    exact mul_le_mul (pow_le_pow_left₀ s0 sb 2) hd (abs_nonneg _) (by positivity)
  · rw [abs_mul, abs_of_nonneg (by linarith : 0 ≤ 1 + c), abs_mul, abs_of_nonneg (by linarith : 0 ≤ s + t)]
    exact mul_le_mul (by linarith) (mul_le_mul hs (by linarith) (by linarith) (by positivity)) (by positivity) (by norm_num)

/-- `|P - 1|`, for evaluation. -/
def distOne (P : ℚ) : ℚ := if 1 ≤ P then P - 1 else 1 - P

theorem distOne_eq (P : ℚ) : distOne P = |P - 1| := by
  unfold distOne
  split
  · rw [abs_of_nonneg (by linarith)]
  · rw [abs_of_neg (by linarith)]; ring

/-- `|P - 1|` at the middle of block `c` out of 2048. -/
def invOddAt (c : ℕ) : ℚ := distOne ((1 + (2 * c + 1) / 4096) * (3 / 2 + 3627654 / 2 ^ 23 - (2 * c + 1) / 4096 / 2) ^ 2 / 4)
@[inherit_doc invOddAt] def invEvenAt (c : ℕ) : ℚ :=
  if 2 * c + 1 ≤ 3542 then distOne ((1 + (2 * c + 1) / 4096) * (1 + (3627654 / 2 ^ 23 - (2 * c + 1) / 4096 / 2)) ^ 2 / 2)
  else distOne ((1 + (2 * c + 1) / 4096) * (1 + (3627654 / 2 ^ 23 - (2 * c + 1) / 4096 / 2) / 2) ^ 2 / 2)

theorem invOddAt_eq (c : ℕ) : invOddAt c = |invOdd ((2 * c + 1) / (2 * (2048 : ℕ))) ((2 * c + 1) / (2 * (2048 : ℕ))) - 1| := by
  rw [invOddAt, distOne_eq, invOdd]; norm_num

theorem invEvenAt_eq (c : ℕ) : invEvenAt c = |invEven ((2 * c + 1) / (2 * (2048 : ℕ))) ((2 * c + 1) / (2 * (2048 : ℕ))) - 1| := by
  rw [invEvenAt, invEven]
  split_ifs with h
  · have : (2 * c + 1 : ℚ) ≤ 3542 := by exact_mod_cast h
    rw [max_eq_left (by norm_num; linarith), distOne_eq]; norm_num
  · have : (3543 : ℚ) ≤ 2 * c + 1 := by exact_mod_cast (by omega : 3543 ≤ 2 * c + 1)
    rw [max_eq_right (by norm_num; linarith), distOne_eq]; norm_num

theorem totalQ_nested (G : ℕ → ℚ) (a b : ℕ) : totalQ (fun k => totalQ (fun c => G (k * b + c)) b) a = totalQ G (a * b) := by
  simp only [← totalQ_eq]
  induction a with
  | zero => simp
  | succ a ih => rw [Finset.sum_range_succ, ih, Nat.succ_mul, Finset.sum_range_add]

theorem invOdd_total : 0.0451 * (2048 : ℕ) ≤ totalQ invOddAt 2048 ∧ totalQ invOddAt 2048 ≤ 0.0452 * (2048 : ℕ) := by
  rw [show totalQ invOddAt 2048 = _ from (totalQ_nested invOddAt 32 64).symm]
  decide +kernel
theorem invEven_total : 0.0486 * (2048 : ℕ) ≤ totalQ invEvenAt 2048 ∧ totalQ invEvenAt 2048 ≤ 0.0487 * (2048 : ℕ) := by
  rw [show totalQ invEvenAt 2048 = _ from (totalQ_nested invEvenAt 32 64).symm]
  decide +kernel

theorem invOdd_near {m h c d : ℚ} (h0 : 0 ≤ h) (h1 : h ≤ m) (h2 : m - 1 / 2 ^ 23 ≤ h) (hm : m ≤ 1) (c0 : 0 ≤ c) (c1 : c ≤ 1)
    (hd : |m - c| ≤ d) : |(|invOdd m h - 1| - |invOdd c c - 1|)| ≤ 2 * d + 1 / 2 ^ 21 := by
  refine (abs_abs_sub_abs_le _ _).trans ?_
  have := prod_near (m := m) (s := 3 / 2 + 3627654 / 2 ^ 23 - h / 2) (t := 3 / 2 + 3627654 / 2 ^ 23 - c / 2) (b := 1.9325) c0 c1 hd
    (by rw [abs_le] at *; constructor <;> linarith [hd.1, hd.2]) (by norm_num; linarith) (by norm_num; linarith) (by norm_num; linarith) (by norm_num; linarith)
  have d0 := (abs_nonneg _).trans hd
  rw [show invOdd m h - 1 - (invOdd c c - 1) = ((1 + m) * (3 / 2 + 3627654 / 2 ^ 23 - h / 2) ^ 2 - (1 + c) * (3 / 2 + 3627654 / 2 ^ 23 - c / 2) ^ 2) / 4 by
    rw [invOdd, invOdd]; ring, abs_div, abs_of_pos (by norm_num : (0 : ℚ) < 4), div_le_iff₀ (by norm_num)]
  refine this.trans ?_
  norm_num
  linarith

theorem invEven_near {m h c d : ℚ} (h0 : 0 ≤ h) (h1 : h ≤ m) (h2 : m - 1 / 2 ^ 23 ≤ h) (hm : m ≤ 1) (c0 : 0 ≤ c) (c1 : c ≤ 1)
    (hd : |m - c| ≤ d) : |(|invEven m h - 1| - |invEven c c - 1|)| ≤ 2.5 * d + 1 / 2 ^ 21 := by
  refine (abs_abs_sub_abs_le _ _).trans ?_
  have hs : |max (1 + (3627654 / 2 ^ 23 - h / 2)) (1 + (3627654 / 2 ^ 23 - h / 2) / 2)
      - max (1 + (3627654 / 2 ^ 23 - c / 2)) (1 + (3627654 / 2 ^ 23 - c / 2) / 2)| ≤ d / 2 + 1 / 2 ^ 23 := by
    refine (abs_max_sub_max_le_max _ _ _ _).trans (max_le ?_ ?_)
    · rw [abs_le] at *; constructor <;> linarith [hd.1, hd.2]
    · rw [abs_le] at *; constructor <;> linarith [hd.1, hd.2]
  have := prod_near (m := m) (b := 1.4325) c0 c1 hd hs (le_max_of_le_right (by norm_num; linarith)) (le_max_of_le_right (by norm_num; linarith))
    (max_le (by norm_num; linarith) (by norm_num; linarith)) (max_le (by norm_num; linarith) (by norm_num; linarith))
  have d0 := (abs_nonneg _).trans hd
  rw [show invEven m h - 1 - (invEven c c - 1) = ((1 + m) * (max (1 + (3627654 / 2 ^ 23 - h / 2)) (1 + (3627654 / 2 ^ 23 - h / 2) / 2)) ^ 2
      - (1 + c) * (max (1 + (3627654 / 2 ^ 23 - c / 2)) (1 + (3627654 / 2 ^ 23 - c / 2) / 2)) ^ 2) / 2 by
    rw [invEven, invEven]; ring, abs_div, abs_of_pos (by norm_num : (0 : ℚ) < 2), div_le_iff₀ (by norm_num)]
  refine this.trans ?_
  norm_num
  linarith

theorem relDev_invroot {x y : F32} (hx : PosNormal x) (hy : PosNormal y) {P A B : ℚ} (hP : x.val * y.val ^ 2 = P)
    (hB : 1 < B) (hA : 1 < A) (hlo : (B - 1) ^ 2 ≤ P) (hhi : P ≤ (A - 1) ^ 2) :
    ((|P - 1| : ℚ) : ℝ) / A ≤ relDev y (1 / Real.sqrt x.val) ∧ relDev y (1 / Real.sqrt x.val) ≤ ((|P - 1| : ℚ) : ℝ) / B := by
  have hx' : (0 : ℝ) < x.val := by exact_mod_cast (lt_of_lt_of_le (by positivity) hx.2)
  have hy' : (0 : ℝ) < y.val := by exact_mod_cast (lt_of_lt_of_le (by positivity) hy.2)
  have h := relDev_sq (y := y) (t := 1 / Real.sqrt x.val) (P := P) (A := A) (B := B) (by positivity) hy'
    (by rw [div_pow, Real.sq_sqrt hx'.le, ← hP]; push_cast; field_simp) (by exact_mod_cast hB) (by exact_mod_cast hA)
    (by exact_mod_cast hlo) (by exact_mod_cast hhi)
  push_cast
  exact h

theorem invsqrt_all [Cfg] {e : ℕ} (h1 : 1 ≤ e) (he : e ≤ 254) :
    ∃ Y : ℕ → F32, ∀ f < 2 ^ 23, (normalAt e f).invsqrt = .ok (Y f) ∧
    (e % 2 = 1 → ((|invOdd (f / 2 ^ 23) (((f / 2 : ℕ) : ℚ) / 2 ^ 22) - 1| : ℚ) : ℝ) / (2.035 : ℚ) ≤ relDev (Y f) (1 / Real.sqrt (normalAt e f).val) ∧
      relDev (Y f) (1 / Real.sqrt (normalAt e f).val) ≤ ((|invOdd (f / 2 ^ 23) (((f / 2 : ℕ) : ℚ) / 2 ^ 22) - 1| : ℚ) : ℝ) / (1.964 : ℚ)) ∧
    (e % 2 = 0 → ((|invEven (f / 2 ^ 23) (((f / 2 : ℕ) : ℚ) / 2 ^ 22) - 1| : ℚ) : ℝ) / (2.035 : ℚ) ≤ relDev (Y f) (1 / Real.sqrt (normalAt e f).val) ∧
      relDev (Y f) (1 / Real.sqrt (normalAt e f).val) ≤ ((|invEven (f / 2 ^ 23) (((f / 2 : ℕ) : ℚ) / 2 ^ 22) - 1| : ℚ) : ℝ) / (1.964 : ℚ)) := by
  refine ⟨fun f => if hf : f < 2 ^ 23 then (invsqrt_ratio h1 he hf).choose else posZero, fun f hf => ?_⟩
  simp only [dif_pos hf]
  obtain ⟨k1, k2, k3, k4⟩ := (invsqrt_ratio h1 he hf).choose_spec
  generalize (invsqrt_ratio h1 he hf).choose = y at *
  obtain ⟨hn, -⟩ := normalAt_val h1 he hf
  obtain ⟨y', q1, -, q3, q4⟩ := invsqrt_bounds hn
  obtain rfl : y = y' := Except.ok.inj (k1.symm.trans q1)
  refine ⟨k1, fun ho => ?_, fun ho => ?_⟩
  · rw [k3 ho] at q3 q4
    exact relDev_invroot hn k2 (k3 ho) (by norm_num) (by norm_num) (le_trans (by norm_num) q3) (q4.trans (by norm_num))
  · rw [k4 ho] at q3 q4
    exact relDev_invroot hn k2 (k4 ho) (by norm_num) (by norm_num) (le_trans (by norm_num) q3) (q4.trans (by norm_num))

/-- **C143, `sqrt`**: between consecutive powers of two `4^k` and `2 * 4^k` the average relative deviation from the root is between
2.3% and 2.45%, between `2 * 4^k` and `4 * 4^k` it is between 1.6% and 1.75%: always below half of the documented 5%. -/
theorem C143_sqrt [Cfg] {e : ℕ} (h1 : 1 ≤ e) (he : e ≤ 254) :
    (e % 2 = 1 → 0.023 ≤ binadeMean (fun f => relDev (normalAt e f).sqrt (Real.sqrt (normalAt e f).val)) ∧
      binadeMean (fun f => relDev (normalAt e f).sqrt (Real.sqrt (normalAt e f).val)) ≤ 0.0245) ∧
    (e % 2 = 0 → 0.016 ≤ binadeMean (fun f => relDev (normalAt e f).sqrt (Real.sqrt (normalAt e f).val)) ∧
      binadeMean (fun f => relDev (normalAt e f).sqrt (Real.sqrt (normalAt e f).val)) ≤ 0.0175) :=
  ⟨sqrt_mean_odd h1 he, sqrt_mean_even h1 he⟩

/-- **C143, `invsqrt`**: it returns for all these floats, and its average relative deviation from `1/√x` is between 2.19% and 2.33%
between `4^k` and `2 * 4^k`, and between 2.35% and 2.52% between `2 * 4^k` and `4 * 4^k`. -/
theorem C143_invsqrt [Cfg] {e : ℕ} (h1 : 1 ≤ e) (he : e ≤ 254) :
    ∃ Y : ℕ → F32, (∀ f < 2 ^ 23, (normalAt e f).invsqrt = .ok (Y f)) ∧
    (e % 2 = 1 → 0.0219 ≤ binadeMean (fun f => relDev (Y f) (1 / Real.sqrt (normalAt e f).val)) ∧
      binadeMean (fun f => relDev (Y f) (1 / Real.sqrt (normalAt e f).val)) ≤ 0.0233) ∧
    (e % 2 = 0 → 0.0235 ≤ binadeMean (fun f => relDev (Y f) (1 / Real.sqrt (normalAt e f).val)) ∧
      binadeMean (fun f => relDev (Y f) (1 / Real.sqrt (normalAt e f).val)) ≤ 0.0252) := by
  obtain ⟨Y, hY⟩ := invsqrt_all h1 he
  refine ⟨Y, fun f hf => (hY f hf).1, fun ho => ?_, fun ho => ?_⟩
  · have h := mean_of_blocks (B := 2048) (K := 2 ^ 12) (by norm_num) (F := fun f => relDev (Y f) (1 / Real.sqrt (normalAt e f).val))
      (D := fun f => |invOdd (f / 2 ^ 23) (((f / 2 : ℕ) : ℚ) / 2 ^ 22) - 1|) (G := invOddAt) (δ := 0.0005)
      (a := 2.035) (b := 1.964) (lo := 0.0219) (hi := 0.0233) (Sl := 0.0451) (Su := 0.0452) (by norm_num) (by norm_num)
      (fun f hf => (hY f hf).2.1 ho) ?_ invOdd_total (by norm_num) (by norm_num)
    · norm_num at h ⊢; exact h
    · intro c hc i hi
      obtain ⟨q1, q2, q3, q4⟩ := in_block (B := 2048) (K := 2 ^ 12) (by norm_num) hc hi
      obtain ⟨-, f2, f3, f4, f5⟩ := frac_half q1
      rw [invOddAt_eq]
      exact (invOdd_near f3 f4 f5 f2 q2 q3 q4).trans (by norm_num)
  · have h := mean_of_blocks (B := 2048) (K := 2 ^ 12) (by norm_num) (F := fun f => relDev (Y f) (1 / Real.sqrt (normalAt e f).val))
      (D := fun f => |invEven (f / 2 ^ 23) (((f / 2 : ℕ) : ℚ) / 2 ^ 22) - 1|) (G := invEvenAt) (δ := 0.00062)
      (a := 2.035) (b := 1.964) (lo := 0.0235) (hi := 0.0252) (Sl := 0.0486) (Su := 0.0487) (by norm_num) (by norm_num)
      (fun f hf => (hY f hf).2.2 ho) ?_ invEven_total (by norm_num) (by norm_num)
    · norm_num at h ⊢; exact h
    · intro c hc i hi
      obtain ⟨q1, q2, q3, q4⟩ := in_block (B := 2048) (K := 2 ^ 12) (by norm_num) hc hi
      obtain ⟨-, f2, f3, f4, f5⟩ := frac_half q1
      rw [invEvenAt_eq]
      exact (invEven_near f3 f4 f5 f2 q2 q3 q4).trans (by norm_num)

/-- **C143, all positive normal numbers**: averaged over any collection of binades, in particular over every positive normal
`f32`, `sqrt` deviates by at most 2.45% and `inv` (up to `2^126`) by exactly 8.33%. -/
theorem C143_overall [Cfg] (S : Finset ℕ) (hS : S.Nonempty) (h1 : ∀ e ∈ S, 1 ≤ e ∧ e ≤ 254) :
    (∑ e ∈ S, binadeMean (fun f => relDev (normalAt e f).sqrt (Real.sqrt (normalAt e f).val))) / S.card ≤ 0.0245 ∧
    ((∀ e ∈ S, e ≤ 252) →
      (∑ e ∈ S, binadeMean (fun f => relDev (normalAt e f).inv (1 / (normalAt e f).val))) / S.card = (1 - 1 / 2 ^ 46) / 12) := by
  have hc : (0 : ℝ) < S.card := by exact_mod_cast hS.card_pos
  constructor
  · rw [div_le_iff₀ hc]
    refine (Finset.sum_le_sum (g := fun _ => (0.0245 : ℝ)) fun e he => ?_).trans ?_
    · obtain ⟨a, b⟩ := h1 e he
      rcases Nat.mod_two_eq_zero_or_one e with h | h
      · exact ((C143_sqrt a b).2 h).2.trans (by norm_num)
      · exact ((C143_sqrt a b).1 h).2
    · rw [Finset.sum_const, nsmul_eq_mul, mul_comm]
  · intro h2
    rw [Finset.sum_congr rfl fun e he => C143_inv (h1 e he).1 (h2 e he), Finset.sum_const, nsmul_eq_mul, mul_comm, mul_div_assoc, div_self hc.ne', mul_one]

/-- The binade of `127` is `[1, 2)`; it starts at `1.0` and contains `1.5`. -/
example : normalAt 127 0 = one ∧ normalAt 127 (2 ^ 22) = ⟨0x3fc00000#32⟩ := by decide
/-- The deviation of `inv` at `1.5` is `1/8`: `inv(1.5) = 0.75`. -/
example [Cfg] : (normalAt 127 (2 ^ 22)).val * (normalAt 127 (2 ^ 22)).inv.val = 9 / 8 := by
  rw [(inv_dev (by norm_num) (by norm_num) (by norm_num)).1]; norm_num
/-- All 254 binades of positive normal numbers. -/
example [Cfg] : (∑ e ∈ Finset.Icc 1 254, binadeMean (fun f => relDev (normalAt e f).sqrt (Real.sqrt (normalAt e f).val))) / 254 ≤ 0.0245 := by
  have := (C143_overall (Finset.Icc 1 254) ⟨1, by simp⟩ (fun e he => Finset.mem_Icc.1 he)).1
  simpa using this

end Micromath.Props
