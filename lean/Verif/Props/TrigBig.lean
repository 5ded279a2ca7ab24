import Verif.Float.Big
import Verif.Props.Trig

/-!
# C99: `cos` and `sin` on the whole range where they mean anything

Four regions: up to `2e7` the error grows by about `1e-7` per unit of the argument, the resolution of the argument itself;
around `26353592` the rounding of the reduction step puts two negative arguments outside `[-1, 1]`; from there to
`13493038080` the result is zero; beyond that the floor inside `cos` saturates and the results are huge.
-/

set_option exponentiation.threshold 1000

namespace Micromath.Props
open F32 Spec RealAux

variable [Cfg]

omit [Cfg] in
/-- Adding a quarter to a float between `2^10` and `2^22` in magnitude and taking the floor is exact, and so is
subtracting floor and quarter again. -/
theorem quarter_floor {x : F32} (l : 2 ^ 10 ≤ |x.val|) (u : |x.val| < 2 ^ 22) :
    ⌊RN (x.val + 1 / 4)⌋ = ⌊x.val + 1 / 4⌋ ∧ Rep (x.val - (1 / 4 + (⌊x.val + 1 / 4⌋ : ℚ))) := by
  obtain ⟨k, r, hb, hk, hr⟩ := mag_split x.mag
  have hm : magU x.mag = r * 2 ^ k := magU_eq_iff_split hb hk hr.le
  have hv : |x.val| = ((r * 2 ^ k : ℕ) : ℚ) / 2 ^ 149 := by rw [abs_val, mval, hm]
  have l' : 2 ^ 159 ≤ r * 2 ^ k := by
    have : ((2 ^ 159 : ℕ) : ℚ) ≤ ((r * 2 ^ k : ℕ) : ℚ) := by
      rw [hv, le_div_iff₀ (by norm_num)] at l
      refine le_trans (le_of_eq ?_) l
      norm_num
    exact_mod_cast this
  have u' : r * 2 ^ k < 2 ^ 171 := by
    have : ((r * 2 ^ k : ℕ) : ℚ) < ((2 ^ 171 : ℕ) : ℚ) := by
      rw [hv, div_lt_iff₀ (by norm_num)] at u
      refine lt_of_lt_of_le u (le_of_eq ?_)
      norm_num
    exact_mod_cast this
  have k1 : 136 ≤ k := by
    by_contra h
    have : r * 2 ^ k < 2 ^ 24 * 2 ^ 135 := by
      have h2 : 2 ^ k ≤ 2 ^ 135 := Nat.pow_le_pow_right (by norm_num) (by omega)
      calc r * 2 ^ k ≤ r * 2 ^ 135 := Nat.mul_le_mul_left _ h2
        _ < _ := by omega
    omega
  have r1 : 2 ^ 23 ≤ r := by rcases hk with h | h <;> omega
  have k2 : k ≤ 147 := by
    by_contra h
    have : 2 ^ 23 * 2 ^ 148 ≤ r * 2 ^ k := Nat.mul_le_mul r1 (Nat.pow_le_pow_right (by norm_num) (by omega))
    omega
  obtain ⟨e, he⟩ : ∃ e, e = 147 - k := ⟨_, rfl⟩
  have hek : e + k = 147 := by omega
  have e11 : e ≤ 11 := by omega
  have pe : (2 : ℚ) ^ e * 2 ^ k = 2 ^ 147 := by rw [← pow_add, hek]
  have ek : (2 : ℚ) ^ k / 2 ^ 149 = 1 / (4 * 2 ^ e) := by
    rw [div_eq_div_iff (by positivity) (by positivity)]
    linear_combination 4 * pe
  obtain ⟨m, hm1, hm2⟩ : ∃ m : Int, x.val = m / (4 * 2 ^ e) ∧ |m| = r := by
    have hv2 : |x.val| = (r : ℚ) / (4 * 2 ^ e) := by
      rw [hv]; push_cast; rw [mul_div_assoc, ek]; ring
    rcases abs_choice x.val with h | h
    · exact ⟨r, by rw [← h, hv2]; push_cast; ring, by simp⟩
    · exact ⟨-r, by rw [show x.val = -|x.val| by rw [h, neg_neg], hv2]; push_cast; ring, by simp⟩
  have hmb := abs_le.1 (le_of_eq hm2)
  have repE : ∀ z : Int, |z| ≤ 2 ^ 24 → Rep ((z : ℚ) / (4 * 2 ^ e)) := by
    intro z hz
    have hz' := abs_le.1 hz
    have := rep_units (m := z) (by omega) k
    rw [mul_div_assoc, ek] at this
    rw [div_eq_mul_one_div]; exact this
  have e0 : (0 : ℚ) < 2 ^ e := by positivity
  have hv4 : x.val + 1 / 4 = ((m + 2 ^ e : Int) : ℚ) / (4 * 2 ^ e) := by
    rw [hm1]; push_cast; field_simp
  have e0' : (0 : Int) < 2 ^ e := by positivity
  have ele : (2 : Int) ^ e ≤ 2 ^ 11 := pow_le_pow_right₀ (by norm_num) e11
  constructor
  · rcases Int.lt_or_le (2 ^ 24) (m + 2 ^ e) with h | h
    · -- just above a power of two
      obtain ⟨W, hW⟩ : ∃ W : Int, W = 2 ^ (22 - e) := ⟨_, rfl⟩
      have hWe : (W : ℚ) * (4 * 2 ^ e) = 2 ^ 24 := by
        rw [hW]; push_cast
        rw [show (2 : ℚ) ^ (22 - e) * (4 * 2 ^ e) = 4 * 2 ^ (22 - e + e) by rw [pow_add]; ring, show 22 - e + e = 22 by omega]
        norm_num
      have v1 : (W : ℚ) ≤ x.val + 1 / 4 := by
        rw [hv4, le_div_iff₀ (by positivity), hWe]
        exact_mod_cast h.le
      have v2 : x.val + 1 / 4 ≤ W + 1 / 4 := by
        rw [hm1]
        have : (m : ℚ) / (4 * 2 ^ e) ≤ W := by
          rw [div_le_iff₀ (by positivity), hWe]
          have : m ≤ 2 ^ 24 := by omega
          exact_mod_cast this
        linarith
      have W0 : 0 ≤ W := by rw [hW]; positivity
      have he1 : 1 ≤ e := by
        by_contra h0
        have : e = 0 := by omega
        rw [this] at h
        omega
      have W1 : W ≤ 2 ^ 21 := by rw [hW]; exact pow_le_pow_right₀ (by norm_num) (by omega)
      have w1 : (W : ℚ) ≤ RN (x.val + 1 / 4) := le_RN_of_rep (rep_int (by omega)) v1
      have w2 : RN (x.val + 1 / 4) ≤ W + 1 / 4 := by
        refine RN_le_of_rep ?_ v2
        refine rep_grid (z := 4 * W + 1) (j := -2) (by norm_num) (by push_cast; ring) ?_
        have : (W : ℚ) ≤ 2 ^ 21 := by exact_mod_cast W1
        have h0 : (0 : ℚ) ≤ W := by exact_mod_cast W0
        rw [abs_of_nonneg (by linarith)]
        refine le_trans (b := (2 ^ 21 + 1 / 4 : ℚ)) (by linarith) (by norm_num)
      rw [show ⌊RN (x.val + 1 / 4)⌋ = W from Int.floor_eq_iff.2 ⟨w1, by linarith⟩,
        show ⌊x.val + 1 / 4⌋ = W from Int.floor_eq_iff.2 ⟨v1, by linarith⟩]
    · rw [RN_of_rep (hv4 ▸ repE _ (by rw [abs_le]; constructor <;> omega))]
  · obtain ⟨n, hn⟩ : ∃ n, n = ⌊x.val + 1 / 4⌋ := ⟨_, rfl⟩
    have n1 : (n : ℚ) ≤ x.val + 1 / 4 := hn ▸ Int.floor_le _
    have n2 : x.val + 1 / 4 < n + 1 := hn ▸ Int.lt_floor_add_one _
    rw [← hn]
    have e3 : x.val - (1 / 4 + (n : ℚ)) = ((m - 2 ^ e - n * (4 * 2 ^ e) : Int) : ℚ) / (4 * 2 ^ e) := by
      rw [hm1]; push_cast; field_simp; ring
    rw [e3]
    refine repE _ ?_
    have b : |x.val - (1 / 4 + (n : ℚ))| ≤ 1 / 2 := by rw [abs_le]; constructor <;> linarith
    rw [e3, abs_div, abs_of_pos (show (0 : ℚ) < 4 * 2 ^ e by positivity), div_le_iff₀ (by positivity), ← Int.cast_abs] at b
    have b2 : ((|m - 2 ^ e - n * (4 * 2 ^ e)| : Int) : ℚ) ≤ ((2 * 2 ^ e : Int) : ℚ) := by
      refine b.trans (le_of_eq ?_); push_cast; ring
    have b3 : |m - 2 ^ e - n * (4 * 2 ^ e)| ≤ 2 * 2 ^ e := by exact_mod_cast b2
    omega

/-- Argument reduction of `cos` between `8192` and `2e7`: everything after the first product is exact. -/
theorem cos_reduce_big {x : F32} (hx : x.isFinite = true) (hl : 8192 ≤ |x.val|) (hb : |x.val| ≤ 20000000) :
    ∃ (s : F32) (n : Int), s = x * (FRAC_1_PI / lit 2 1) -
        (lit 25 100 + (x * (FRAC_1_PI / lit 2 1) + lit 25 100).floor) ∧
      s.isFinite = true ∧ |s.val| ≤ 1 / 2 ∧
      |s.val - (x.val * (10680707 / 67108864) - n - 1 / 4)| ≤ |x.val| * (10680707 / 67108864) / 2 ^ 24 + 4 / 10 ^ 8 := by
  obtain ⟨fK, vK⟩ := cos_K
  have hxa := abs_nonneg x.val
  have hp : |x.val * (10680707 / 67108864)| = |x.val| * (10680707 / 67108864) := by
    rw [abs_mul, abs_of_pos (show (0 : ℚ) < 10680707 / 67108864 by norm_num)]
  have pu : |x.val| * (10680707 / 67108864) ≤ 20000000 * (10680707 / 67108864) := mul_le_mul_of_nonneg_right hb (by norm_num)
  have pl : 8192 * (10680707 / 67108864) ≤ |x.val| * (10680707 / 67108864) := mul_le_mul_of_nonneg_right hl (by norm_num)
  obtain ⟨f1, v1⟩ := mul_val hx fK (by rw [vK, hp]; exact lt_of_le_of_lt pu (by unfold ovf; norm_num))
  obtain ⟨x1, hx1⟩ : ∃ x1, x1 = x * (FRAC_1_PI / lit 2 1) := ⟨_, rfl⟩
  rw [← hx1] at f1 v1 ⊢
  rw [vK] at v1
  have e1 : |x1.val - x.val * (10680707 / 67108864)| ≤ |x.val| * (10680707 / 67108864) / 2 ^ 24 := by
    rw [v1]
    refine (RN_err _).trans ?_
    rw [hp]
    refine max_le ?_ le_rfl
    rw [le_div_iff₀ (by norm_num)]
    refine le_trans ?_ pl
    norm_num
  have h1 := abs_sub_abs_le_abs_sub x1.val (x.val * (10680707 / 67108864))
  have h2 := abs_sub_abs_le_abs_sub (x.val * (10680707 / 67108864)) x1.val
  rw [abs_sub_comm] at h2
  rw [hp] at h1 h2
  have u1 : |x1.val| ≤ 3183200 := by norm_num at *; linarith
  have l1 : 2 ^ 10 ≤ |x1.val| := by norm_num at *; linarith
  obtain ⟨q1, q2⟩ := quarter_floor l1 (lt_of_le_of_lt u1 (by norm_num))
  obtain ⟨f4, v4⟩ := lit_quarter
  obtain ⟨x1l, x1u⟩ := abs_le.1 u1
  obtain ⟨f2, v2⟩ := add_val f1 f4 (by
    rw [v4]; refine lt_of_le_of_lt (b := 3183201) ?_ (by norm_num [ovf])
    rw [abs_le]; constructor <;> linarith)
  rw [v4] at v2
  obtain ⟨n, hn⟩ : ∃ n, n = ⌊x1.val + 1 / 4⌋ := ⟨_, rfl⟩
  have n1 : (n : ℚ) ≤ x1.val + 1 / 4 := hn ▸ Int.floor_le _
  have n2 : x1.val + 1 / 4 < n + 1 := hn ▸ Int.lt_floor_add_one _
  have w : |(x1 + lit 25 100).val - (x1.val + 1 / 4)| ≤ 1 := by
    rw [v2]
    refine (RN_nearest (rep_val x1)).trans ?_
    norm_num
  have w' := abs_le.1 w
  obtain ⟨f3, v3⟩ := floor_isVal f2 (by norm_num; linarith) (by norm_num; linarith)
  rw [v2, q1, ← hn] at v3
  have hn1 : |(n : ℚ)| ≤ 3183202 := by rw [abs_le]; constructor <;> linarith
  obtain ⟨f5, v5⟩ := add_exact f4 f3 (by
    rw [v4, v3]
    have := abs_add_le (1 / 4) (n : ℚ)
    refine this.trans (le_trans (add_le_add (le_of_eq (abs_of_pos (by norm_num))) hn1) (by norm_num [maxF]))) (by
    rw [v4, v3]
    refine rep_grid (z := 4 * n + 1) (j := -2) (by norm_num) (by push_cast; ring) ?_
    have := abs_add_le (1 / 4) (n : ℚ)
    refine this.trans (le_trans (add_le_add (le_of_eq (abs_of_pos (by norm_num))) hn1) (by norm_num)))
  rw [v4, v3] at v5
  rw [← hn] at q2
  have hdl : |x1.val - (1 / 4 + n)| ≤ 1 / 2 := by rw [abs_le]; constructor <;> linarith
  obtain ⟨f6, v6⟩ := sub_exact f1 f5 (by rw [v5]; exact hdl.trans (by norm_num [maxF])) (by rw [v5]; exact q2)
  rw [v5] at v6
  refine ⟨_, n, rfl, f6, by rw [v6]; exact hdl, ?_⟩
  rw [v6, show x1.val - (1 / 4 + (n : ℚ)) - (x.val * (10680707 / 67108864) - n - 1 / 4) = x1.val - x.val * (10680707 / 67108864) by ring]
  exact e1.trans (le_add_of_nonneg_right (by norm_num))

omit [Cfg] in
/-- A number `m / 2` with `m` between `2^23` and `2^24`. -/
theorem mval_half {m : Nat} (h1 : 2 ^ 23 ≤ m) (h2 : m ≤ 2 ^ 24) : mval (148 * 2 ^ 23 + m) = (m : ℚ) / 2 := by
  rw [mval, magU_eq_iff_split rfl (Or.inr h1) h2]
  push_cast
  norm_num
  ring

omit [Cfg] in
/-- A quarter is half a unit in the last place or less: added to an integer it is rounded away (to the even side). -/
theorem RN_add_quarter {n : Int} (hr : Rep (n : ℚ)) (h : 2 ^ 22 ≤ n ∨ n ≤ -2 ^ 22 - 1) : RN ((n : ℚ) + 1 / 4) = n := by
  have hclose : |RN ((n : ℚ) + 1 / 4) - (n + 1 / 4)| ≤ 1 / 4 := by
    refine (RN_nearest hr).trans (le_of_eq ?_)
    rw [show (n : ℚ) - (n + 1 / 4) = -(1 / 4) by ring, abs_neg, abs_of_pos (by norm_num)]
  have hbig : 2 ^ 23 ≤ n ∨ n ≤ -2 ^ 23 - 1 → RN ((n : ℚ) + 1 / 4) = n := by
    intro hb
    have hc := abs_le.1 hclose
    have hl : (2 : ℚ) ^ (23 : Int) ≤ |RN ((n : ℚ) + 1 / 4)| := by
      rcases hb with hb | hb
      · have : (2 : ℚ) ^ 23 ≤ n := by exact_mod_cast hb
        rw [abs_of_nonneg (by linarith)]
        refine le_trans (b := (2 : ℚ) ^ 23) (by norm_num) (by linarith)
      · have : (n : ℚ) ≤ -2 ^ 23 - 1 := by exact_mod_cast hb
        rw [abs_of_nonpos (by linarith)]
        refine le_trans (b := (2 : ℚ) ^ 23) (by norm_num) (by linarith)
    obtain ⟨b, hb⟩ := rep_RN ((n : ℚ) + 1 / 4)
    rw [hb] at hl
    obtain ⟨z, hz⟩ := mval_grid (by norm_num) hl
    rw [← hb] at hz
    obtain ⟨w, hw⟩ : ∃ w : Int, RN ((n : ℚ) + 1 / 4) = w := by
      rcases abs_choice (RN ((n : ℚ) + 1 / 4)) with h | h
      · exact ⟨z, by rw [← h, hz]; norm_num⟩
      · exact ⟨-z, by rw [show RN ((n : ℚ) + 1 / 4) = -|RN ((n : ℚ) + 1 / 4)| by rw [h, neg_neg], hz]; norm_num⟩
    rw [hw] at hc ⊢
    have h1 : n - 1 < w := by
      have : ((n - 1 : Int) : ℚ) < w := by push_cast; linarith
      exact_mod_cast this
    have h2 : w < n + 1 := by
      have : (w : ℚ) < ((n + 1 : Int) : ℚ) := by push_cast; linarith
      exact_mod_cast this
    rw [show w = n by omega]
  rcases h with h | h
  · rcases Int.lt_or_le n (2 ^ 23) with h2 | h2
    · obtain ⟨N, rfl⟩ : ∃ N : Nat, n = N := ⟨n.toNat, by omega⟩
      have hN : 2 ^ 22 ≤ N := by omega
      have hN2 : N < 2 ^ 23 := by omega
      have e1 : mval (148 * 2 ^ 23 + 2 * N) = (N : ℚ) := by
        rw [mval_half (by omega) (by omega)]; push_cast; ring
      have e2 : mval (148 * 2 ^ 23 + 2 * N + 1) = (N : ℚ) + 1 / 2 := by
        rw [show 148 * 2 ^ 23 + 2 * N + 1 = 148 * 2 ^ 23 + (2 * N + 1) by ring, mval_half (by omega) (by omega)]
        push_cast; ring
      have p : (0 : ℚ) ≤ (N : ℚ) + 1 / 4 := by positivity
      have t : rbits ((N : ℚ) + 1 / 4) = 148 * 2 ^ 23 + 2 * N := by
        rw [rbits_tie (b := 148 * 2 ^ 23 + 2 * N) (by rw [e1, e2, abs_of_nonneg p]; ring), if_pos (by omega)]
      push_cast
      rw [RN_of_nonneg p, t, e1]
    · exact hbig (Or.inl h2)
  · rcases Int.lt_or_le n (-2 ^ 23) with h2 | h2
    · exact hbig (Or.inr (by omega))
    · obtain ⟨N, hN0⟩ : ∃ N : Nat, n = -N := ⟨(-n).toNat, by omega⟩
      subst hN0
      have hN : 2 ^ 22 < N := by omega
      have hN2 : N ≤ 2 ^ 23 := by omega
      have e1 : mval (148 * 2 ^ 23 + (2 * N - 1)) = (N : ℚ) - 1 / 2 := by
        rw [mval_half (by omega) (by omega), Nat.cast_sub (by omega)]; push_cast; ring
      have e2 : mval (148 * 2 ^ 23 + (2 * N - 1) + 1) = (N : ℚ) := by
        rw [show 148 * 2 ^ 23 + (2 * N - 1) + 1 = 148 * 2 ^ 23 + 2 * N by omega, mval_half (by omega) (by omega)]
        push_cast; ring
      have p : (0 : ℚ) ≤ (N : ℚ) - 1 / 4 := by
        have : (2 ^ 22 : ℚ) ≤ N := by exact_mod_cast hN.le
        linarith
      have t : rbits ((N : ℚ) - 1 / 4) = 148 * 2 ^ 23 + (2 * N - 1) + 1 := by
        rw [rbits_tie (b := 148 * 2 ^ 23 + (2 * N - 1)) (by rw [e1, e2, abs_of_nonneg p]; ring), if_neg (by omega)]
      push_cast
      rw [show -(N : ℚ) + 1 / 4 = -((N : ℚ) - 1 / 4) by ring, RN_neg, RN_of_nonneg p, t, e2]

omit [Cfg] in
/-- The reduced argument of `cos` before its last rounding, from the product `t` with `1/2π`: at most one half for
`2^21 <= |t|`, with one exception; above `2^22` it is `0` or `-1/2`. -/
theorem quarter_mid {x : F32} (l : 2 ^ 21 ≤ |x.val|) (hne : x.val ≠ -(2 ^ 22 + 1 / 2)) :
    |x.val - RN (1 / 4 + (⌊RN (x.val + 1 / 4)⌋ : ℚ))| ≤ 1 / 2 ∧
    (2 ^ 22 < |x.val| → x.val - RN (1 / 4 + (⌊RN (x.val + 1 / 4)⌋ : ℚ)) = 0 ∨
      x.val - RN (1 / 4 + (⌊RN (x.val + 1 / 4)⌋ : ℚ)) = -(1 / 2)) := by
  rcases lt_or_ge |x.val| (2 ^ 22) with u | u
  · refine ⟨?_, fun h => absurd h (by linarith)⟩
    obtain ⟨q1, -⟩ := quarter_floor (le_trans (by norm_num) l) u
    rw [q1]
    obtain ⟨n, hn⟩ : ∃ n, n = ⌊x.val + 1 / 4⌋ := ⟨_, rfl⟩
    have n1 : (n : ℚ) ≤ x.val + 1 / 4 := hn ▸ Int.floor_le _
    have n2 : x.val + 1 / 4 < n + 1 := hn ▸ Int.lt_floor_add_one _
    rw [← hn]
    have ub := abs_lt.1 u
    rcases Int.lt_or_le n (2 ^ 22) with h | h
    · rw [RN_of_rep]
      · rw [abs_le]; constructor <;> linarith
      · refine rep_grid (z := 4 * n + 1) (j := -2) (by norm_num) (by push_cast; ring) ?_
        have h1 : (n : ℚ) ≤ 2 ^ 22 - 1 := by exact_mod_cast Int.le_sub_one_of_lt h
        have h2 : (-2 ^ 22 - 3 / 4 : ℚ) < n := by linarith
        have h3 : -2 ^ 22 - 1 < n := by
          have : ((-2 ^ 22 - 1 : Int) : ℚ) < n := by push_cast; linarith
          exact_mod_cast this
        have h4 : (-2 ^ 22 : ℚ) ≤ n := by
          have : -2 ^ 22 ≤ n := by omega
          exact_mod_cast this
        refine le_trans (b := (2 : ℚ) ^ 22) ?_ (by norm_num)
        rw [abs_le]; constructor <;> linarith
    · have h1 : (2 ^ 22 : ℚ) ≤ n := by exact_mod_cast h
      have h2 : n < 2 ^ 22 + 1 := by
        have : (n : ℚ) < ((2 ^ 22 + 1 : Int) : ℚ) := by push_cast; linarith
        exact_mod_cast this
      rw [add_comm, RN_add_quarter (rep_int (by omega)) (Or.inl h), abs_le]
      constructor <;> linarith
  · obtain ⟨z, hz⟩ := val_grid (x := x) (j := 22) (by norm_num) (by exact_mod_cast u)
    rw [show (2 : ℚ) ^ ((22 : Int) - 23) = 1 / 2 by norm_num] at hz
    have hzb : (2 : ℚ) ^ 23 ≤ |(z : ℚ)| := by
      rw [hz, abs_mul, abs_of_pos (show (0 : ℚ) < 1 / 2 by norm_num)] at u
      linarith
    have hzb' : 2 ^ 23 ≤ |z| := by exact_mod_cast hzb
    have hzc : 2 ^ 23 ≤ z ∨ z ≤ -2 ^ 23 := by
      rcases le_abs.1 hzb' with h | h
      · exact Or.inl h
      · exact Or.inr (by omega)
    have rx := rep_val x
    rcases Int.emod_two_eq_zero_or_one z with h | h
    · obtain ⟨m, rfl⟩ : ∃ m, z = 2 * m := ⟨z / 2, by omega⟩
      have hv : x.val = m := by rw [hz]; push_cast; ring
      rw [hv] at rx ⊢
      rcases eq_or_ne m (-2 ^ 22) with hm | hm
      · have r1 : Rep ((m : ℚ) + 1 / 4) := by
          refine rep_grid (z := 4 * m + 1) (j := -2) (by norm_num) (by push_cast; ring) ?_
          rw [hm]; norm_num
        rw [RN_of_rep r1, show ⌊(m : ℚ) + 1 / 4⌋ = m from Int.floor_eq_iff.2 ⟨by linarith, by linarith⟩, add_comm (1 / 4 : ℚ) (m : ℚ),
          RN_of_rep r1]
        refine ⟨by rw [abs_le]; constructor <;> linarith, fun h => ?_⟩
        rw [hm] at h
        norm_num at h
      · have hc : 2 ^ 22 ≤ m ∨ m ≤ -2 ^ 22 - 1 := by omega
        rw [RN_add_quarter rx hc, Int.floor_intCast, add_comm, RN_add_quarter rx hc, sub_self]
        exact ⟨by norm_num, fun _ => Or.inl rfl⟩
    · obtain ⟨m, rfl⟩ : ∃ m, z = 2 * m + 1 := ⟨z / 2, by omega⟩
      have hv : x.val = m + 1 / 2 := by rw [hz]; push_cast; ring
      have hm2 : |x.val| < 2 ^ 23 := by
        by_contra hh
        obtain ⟨a, ha⟩ := val_int_of_large (x := x) (not_lt.1 hh)
        rw [hv] at ha
        have : 2 * m + 1 = 2 * a := by
          have : ((2 * m + 1 : Int) : ℚ) = ((2 * a : Int) : ℚ) := by push_cast; linarith
          exact_mod_cast this
        omega
      rw [hv] at hm2 hne ⊢
      have hm3 := abs_lt.1 hm2
      have hm4 : m < 2 ^ 23 := by
        have : (m : ℚ) < ((2 ^ 23 : Int) : ℚ) := by push_cast; linarith
        exact_mod_cast this
      have hm5 : -2 ^ 23 - 1 < m := by
        have : ((-2 ^ 23 - 1 : Int) : ℚ) < m := by push_cast; linarith
        exact_mod_cast this
      have hm6 : m ≠ -2 ^ 22 - 1 := by
        rintro rfl
        apply hne
        norm_num
      have e1 : RN ((m : ℚ) + 1 / 2 + 1 / 4) = ((m + 1 : Int) : ℚ) := by
        have := RN_add_quarter (n := -(m + 1)) (rep_int (by omega)) (by omega)
        rw [show ((-(m + 1) : Int) : ℚ) + 1 / 4 = -((m : ℚ) + 1 / 2 + 1 / 4) by push_cast; ring, RN_neg] at this
        push_cast at this ⊢
        linarith
      rw [e1, Int.floor_intCast, add_comm (1 / 4 : ℚ) ((m + 1 : Int) : ℚ), RN_add_quarter (n := m + 1) (rep_int (by omega)) (by omega)]
      have e2 : (m : ℚ) + 1 / 2 - ((m + 1 : Int) : ℚ) = -(1 / 2) := by push_cast; ring
      rw [e2]
      exact ⟨by rw [abs_neg, abs_of_pos (by norm_num)], fun _ => Or.inr rfl⟩

/-- Products with `1/2π` for arguments up to `13493038080` (bits `0x50490fdb`): at most `2^31`. -/
theorem cos_t_le {x : F32} (hx : x.isFinite = true) (hu : |x.val| ≤ 13493038080) :
    IsVal (x * (FRAC_1_PI / lit 2 1)) (RN (x.val * (10680707 / 67108864))) ∧
    |RN (x.val * (10680707 / 67108864))| ≤ 2 ^ 31 := by
  obtain ⟨fK, vK⟩ := cos_K
  have hp : |x.val * (10680707 / 67108864)| = |x.val| * (10680707 / 67108864) := by
    rw [abs_mul, abs_of_pos (show (0 : ℚ) < 10680707 / 67108864 by norm_num)]
  have pu : |x.val| * (10680707 / 67108864) ≤ 13493038080 * (10680707 / 67108864) :=
    mul_le_mul_of_nonneg_right hu (by norm_num)
  obtain ⟨f1, v1⟩ := mul_val hx fK (by rw [vK, hp]; exact lt_of_le_of_lt pu (by unfold ovf; norm_num))
  rw [vK] at v1
  refine ⟨⟨f1, v1⟩, ?_⟩
  have f0 : (⟨0x50490fdb#32⟩ : F32).isFinite = true := by decide
  have v0 : (⟨0x50490fdb#32⟩ : F32).val = 13493038080 := by
    rw [val_of_units (u := 13493038080 * 2 ^ 149) (by decide +kernel)]; norm_num
  obtain ⟨-, v2⟩ := mul_val f0 fK (by rw [v0, vK]; rw [abs_of_pos (by norm_num)]; unfold ovf; norm_num)
  rw [v0, vK, show (⟨0x50490fdb#32⟩ : F32) * (FRAC_1_PI / lit 2 1) = ⟨0x4f000000#32⟩ from eval_eq (by kernel_rfl),
    val_of_units (u := 2 ^ 31 * 2 ^ 149) (by decide +kernel)] at v2
  rw [← RN_abs, hp]
  refine (RN_mono pu).trans (le_of_eq ?_)
  rw [← v2]; norm_num

/-- Argument reduction of `cos` between `2e7` and `13493038080`. -/
theorem cos_reduce_mid {x : F32} (hx : x.isFinite = true) (hl : 20000000 ≤ |x.val|) (hu : |x.val| ≤ 13493038080)
    (h1 : x.val ≠ -26353592) (h2 : x.val ≠ -26353594) :
    ∃ s : F32, s = x * (FRAC_1_PI / lit 2 1) - (lit 25 100 + (x * (FRAC_1_PI / lit 2 1) + lit 25 100).floor) ∧
      s.isFinite = true ∧ |s.val| ≤ 1 / 2 ∧ (26353596 ≤ |x.val| → s.val = 0 ∨ s.val = -(1 / 2)) := by
  obtain ⟨⟨f1, v1⟩, ut⟩ := cos_t_le hx hu
  have hp : |x.val * (10680707 / 67108864)| = |x.val| * (10680707 / 67108864) := by
    rw [abs_mul, abs_of_pos (show (0 : ℚ) < 10680707 / 67108864 by norm_num)]
  have lt : 2 ^ 21 ≤ |RN (x.val * (10680707 / 67108864))| := by
    rw [← RN_abs, hp]
    refine le_RN_of_rep ?_ (le_trans (by norm_num) (mul_le_mul_of_nonneg_right hl (by norm_num)))
    have := rep_pow (e := 21) (by norm_num)
    norm_num at this ⊢; exact this
  have hbig : 26353596 ≤ |x.val| → 2 ^ 22 < |RN (x.val * (10680707 / 67108864))| := by
    intro h
    refine lt_of_lt_of_le (b := (8388609 / 2 : ℚ)) (by norm_num) ?_
    rw [← RN_abs, hp]
    refine le_RN_of_rep ?_ (le_trans (by norm_num) (mul_le_mul_of_nonneg_right h (by norm_num)))
    exact rep_grid (z := 8388609) (j := -1) (by norm_num) (by norm_num) (by norm_num)
  have hne : RN (x.val * (10680707 / 67108864)) ≠ -(2 ^ 22 + 1 / 2) := by
    intro he
    obtain ⟨z, hz⟩ := val_grid (x := x) (j := 24) (by norm_num) (le_trans (by norm_num) hl)
    have k1 := RN_nearest (q := x.val * (10680707 / 67108864)) (rep_int (m := -2 ^ 22) (by decide))
    have k2 := RN_nearest (q := x.val * (10680707 / 67108864)) (rep_int (m := -2 ^ 22 - 1) (by decide))
    rw [he, ← sq_le_sq] at k1 k2
    have k1' : x.val * (10680707 / 67108864) ≤ -(2 ^ 22 + 1 / 4) := by push_cast at k1; linarith
    have k2' : -(2 ^ 22 + 3 / 4) ≤ x.val * (10680707 / 67108864) := by push_cast at k2; linarith
    rw [show (2 : ℚ) ^ ((24 : Int) - 23) = 2 by norm_num] at hz
    rw [hz] at k1' k2' h1 h2
    have k3 : (z * 8 * 10680707 : Int) ≤ -(2 ^ 24 + 1) * 67108864 := by
      have : ((z * 8 * 10680707 : Int) : ℚ) ≤ ((-(2 ^ 24 + 1) * 67108864 : Int) : ℚ) := by push_cast; linarith
      exact_mod_cast this
    have k4 : -(2 ^ 24 + 3) * 67108864 ≤ (z * 8 * 10680707 : Int) := by
      have : ((-(2 ^ 24 + 3) * 67108864 : Int) : ℚ) ≤ ((z * 8 * 10680707 : Int) : ℚ) := by push_cast; linarith
      exact_mod_cast this
    have k5 : z = -13176796 ∨ z = -13176797 := by omega
    rcases k5 with rfl | rfl
    · exact h1 (by norm_num)
    · exact h2 (by norm_num)
  generalize x * (FRAC_1_PI / lit 2 1) = t at *
  rw [← v1] at ut lt hbig hne
  obtain ⟨q1, q2⟩ := quarter_mid lt hne
  obtain ⟨f4, v4⟩ := lit_quarter
  obtain ⟨tl, tu⟩ := abs_le.1 ut
  obtain ⟨f2, v2⟩ := add_val f1 f4 (by
    rw [v4]; refine lt_of_le_of_lt (b := 2 ^ 32) ?_ (by norm_num [ovf])
    rw [abs_le]; constructor <;> linarith)
  rw [v4] at v2
  have r31 : Rep (2 ^ 31 : ℚ) := by
    have := rep_pow (e := 31) (by norm_num)
    norm_num at this ⊢; exact this
  have hfl : IsVal (t + lit 25 100).floor ⌊RN (t.val + 1 / 4)⌋ := by
    rcases lt_or_ge (t + lit 25 100).val (2 ^ 31) with h | h
    · have := floor_isVal f2 (by rw [v2]; exact le_RN_of_rep r31.neg (by linarith)) h
      rwa [v2] at this
    · rw [(floor_sat _ f2).1 h]
      have hle : RN (t.val + 1 / 4) ≤ 2 ^ 31 := by
        have h2 : RN (2 ^ 31 + 1 / 4) = 2 ^ 31 := by
          have := RN_add_quarter (n := 2 ^ 31) (by push_cast; exact r31) (by norm_num)
          push_cast at this; exact this
        rw [← h2]; exact RN_mono (by linarith)
      rw [v2] at h
      rw [le_antisymm hle h]
      refine ⟨by decide, ?_⟩
      rw [val_of_units (u := 2 ^ 31 * 2 ^ 149) (by decide +kernel)]
      have : ⌊(2 ^ 31 : ℚ)⌋ = 2 ^ 31 := by
        rw [show (2 ^ 31 : ℚ) = ((2 ^ 31 : Int) : ℚ) by norm_num, Int.floor_intCast]
      rw [this]; norm_num
  obtain ⟨f3, v3⟩ := hfl
  have hb := abs_le.1 q1
  obtain ⟨f5, v5⟩ := add_val f4 f3 (by
    rw [v4, v3]
    have := Int.floor_le (RN (t.val + 1 / 4))
    have := Int.lt_floor_add_one (RN (t.val + 1 / 4))
    have := abs_le.1 (RN_nearest (q := t.val + 1 / 4) (rep_val t))
    rw [show t.val - (t.val + 1 / 4) = -(1 / 4) by ring, abs_neg, abs_of_pos (show (0 : ℚ) < 1 / 4 by norm_num)] at this
    refine lt_of_le_of_lt (b := 2 ^ 32) ?_ (by norm_num [ovf])
    rw [abs_le]; constructor <;> linarith)
  rw [v4, v3] at v5
  obtain ⟨f6, v6⟩ := sub_val f1 f5 (by rw [v5]; exact lt_of_le_of_lt q1 (by norm_num [ovf]))
  rw [v5] at v6
  have rh : Rep (1 / 2 : ℚ) := by
    have := rep_pow (e := -1) (by norm_num)
    norm_num at this ⊢; exact this
  refine ⟨_, rfl, f6, by rw [v6]; exact abs_RN_le_of_rep rh q1, fun h => ?_⟩
  rw [v6]
  rcases q2 (hbig h) with h | h
  · left; rw [h, RN_zero]
  · right; rw [h, RN_of_rep rh.neg]

/-- `cos` from its reduced argument. -/
theorem cos_eq_poly {x s : F32} (hs : s = x * (FRAC_1_PI / lit 2 1) -
      (lit 25 100 + (x * (FRAC_1_PI / lit 2 1) + lit 25 100).floor)) :
    x.cos = (s * (lit 16 1 * (s.abs - lit 5 10))) + lit 225 1000 * (s * (lit 16 1 * (s.abs - lit 5 10))) *
      ((s * (lit 16 1 * (s.abs - lit 5 10))).abs - one) := by
  rw [hs]; unfold F32.cos; rfl

/-- **C99.** `cos` for every `|x| <= 13493038080`, with two exceptions: finite, within `2^-20` of `[-1, 1]`, error at
most `0.0011 + 1.01e-7 |x|`. -/
theorem C99_cos {x : F32} (hx : x.isFinite = true) (hb : |x.val| ≤ 13493038080) (h1 : x.val ≠ -26353592)
    (h2 : x.val ≠ -26353594) :
    x.cos.isFinite = true ∧ |x.cos.val| ≤ 1 + 1 / 2 ^ 20 ∧
    |(x.cos.val : ℝ) - Real.cos x.val| ≤ 0.0011 + 1.01 / 10 ^ 7 * |(x.val : ℝ)| := by
  rcases le_total |x.val| 20000000 with h | h
  · rcases le_total |x.val| 8192 with h3 | h3
    · exact cos_main hx (h3.trans (by norm_num))
    · obtain ⟨s, n, hs, fs, sb, se⟩ := cos_reduce_big hx h3 h
      exact cos_of_reduced hs fs (sb.trans (by norm_num)) se
  · obtain ⟨s, hs, fs, sb, -⟩ := cos_reduce_mid hx h hb h1 h2
    have sb' : |s.val| ≤ 1 / 2 + 1 / 10 ^ 4 := sb.trans (by norm_num)
    obtain ⟨fr, hr⟩ := cos_poly fs sb'
    rw [← cos_eq_poly hs] at fr hr
    have sbR := abs_cast_le sb'
    push_cast at sbR
    have k1 : |(cosFQ s.val : ℝ)| ≤ 1 := by rw [cosFQ_cast]; exact cosF_le_one sbR
    have k1' : |cosFQ s.val| ≤ 1 := by exact_mod_cast k1
    have k2 : |x.cos.val| ≤ 1 + 1 / 2 ^ 20 := by
      have := abs_sub_abs_le_abs_sub x.cos.val (cosFQ s.val)
      have h2 : (5 : ℚ) / 10 ^ 7 ≤ 1 / 2 ^ 20 := by norm_num
      linarith
    refine ⟨fr, k2, ?_⟩
    have k3 := abs_cast_le k2
    push_cast at k3
    have k4 : (20000000 : ℝ) ≤ |(x.val : ℝ)| := by exact_mod_cast h
    have k5 := Real.abs_cos_le_one (x.val : ℝ)
    refine (abs_sub _ _).trans ?_
    refine le_trans (b := (2.001 : ℝ)) (by norm_num at *; linarith) (by linarith)

/-- **C99.** The two exceptions: the result is `-4.35`. -/
theorem C99_cos_out : ∀ x : F32, x = ofInt (-26353592) ∨ x = ofInt (-26353594) →
    x.cos.isFinite = true ∧ |x.cos.val + 435 / 100| ≤ 1 / 10 ^ 6 := by
  have h : ∀ x : F32, x = ofInt (-26353592) ∨ x = ofInt (-26353594) → x.cos = ⟨0xc08b3333#32⟩ := by
    rintro x (rfl | rfl)
    · exact eval_eq (n := 0xc08b3333) (by kernel_rfl)
    · exact eval_eq (n := 0xc08b3333) (by kernel_rfl)
  intro x hx
  rw [h x hx, val_of_units (u := -9122611 * 2 ^ 128) (by decide +kernel)]
  exact ⟨by decide, by rw [abs_le]; norm_num⟩

/-- **C99.** From `26353596` to `13493038080` the result is always zero (this extends C83). -/
theorem C99_cos_zero {x : F32} (hx : x.isFinite = true) (hl : 26353596 ≤ |x.val|) (hu : |x.val| ≤ 13493038080) :
    IsVal x.cos 0 := by
  obtain ⟨s, hs, fs, -, sv⟩ := cos_reduce_mid hx (le_trans (by norm_num) hl) hu
    (by intro h; rw [h] at hl; norm_num at hl) (by intro h; rw [h] at hl; norm_num at hl)
  rw [cos_eq_poly hs]
  rcases sv hl with h | h
  · have hm := val_eq_zero.1 h
    rcases hsg : s.sign with _ | _
    · exact cos_poly_zero.1 s (ext_mag_sign (by rw [hm]; decide) (by rw [hsg]; decide))
    · exact cos_poly_zero.2 s (ext_mag_sign (by rw [hm]; decide) (by rw [hsg]; decide))
  · have : s = ⟨0xbf000000#32⟩ := by
      refine eq_of_val_ne ?_ (by rw [h]; norm_num)
      rw [h, val_of_units (u := -2 ^ 148) (by decide +kernel)]; norm_num
    rw [this, show (⟨0xbf000000#32⟩ : F32) * (lit 16 1 * ((⟨0xbf000000#32⟩ : F32).abs - lit 5 10)) +
      lit 225 1000 * ((⟨0xbf000000#32⟩ : F32) * (lit 16 1 * ((⟨0xbf000000#32⟩ : F32).abs - lit 5 10))) *
        (((⟨0xbf000000#32⟩ : F32) * (lit 16 1 * ((⟨0xbf000000#32⟩ : F32).abs - lit 5 10))).abs - one) = ⟨0#32⟩ from
      eval_eq (by kernel_rfl)]
    exact ⟨by decide, by rw [val_of_units (u := 0) (by decide)]; norm_num⟩

omit [Cfg] in
/-- The float after `13493038080` is `13493039104`. -/
theorem cos_gap {x : F32} (h : 13493038080 < |x.val|) : 13493039104 ≤ |x.val| := by
  obtain ⟨z, hz⟩ := val_grid (x := x) (j := 33) (by norm_num) (le_trans (by norm_num) h.le)
  rw [show (2 : ℚ) ^ ((33 : Int) - 23) = 1024 by norm_num] at hz
  rw [hz, abs_mul, abs_of_pos (show (0 : ℚ) < 1024 by norm_num), ← Int.cast_abs] at h ⊢
  have h1 : 13176795 < |z| := by
    have : ((13176795 : Int) : ℚ) < ((|z| : Int) : ℚ) := by push_cast at h ⊢; linarith
    exact_mod_cast this
  have h2 : ((13176796 : Int) : ℚ) ≤ ((|z| : Int) : ℚ) := by exact_mod_cast h1
  push_cast at h2 ⊢
  linarith

/-- The polynomial of `cos` at an argument that should have been reduced and was not. -/
theorem cos_poly_big {b : Bool} {s : F32} (hs : Big b 256 s) :
    Big b (2 ^ 37) ((s * (lit 16 1 * (s.abs - lit 5 10))) + lit 225 1000 * (s * (lit 16 1 * (s.abs - lit 5 10))) *
      ((s * (lit 16 1 * (s.abs - lit 5 10))).abs - one)) := by
  have big16 : Big false 16 (lit 16 1) := by
    have := big_of_finite (t := 16) lit_sixteen.1 (by rw [lit_sixteen.2]; norm_num)
    rwa [show (lit 16 1).sign = false from by decide] at this
  have big225 : Big false (7 / 32) (lit 225 1000) := by
    obtain ⟨f, v⟩ := lit_225
    have := big_of_finite (t := 7 / 32) f (by rw [v]; norm_num)
    rwa [show (lit 225 1000).sign = false from by decide] at this
  have r255 : Rep (255 : ℚ) := by have := rep_int (m := 255) (by decide); exact_mod_cast this
  have r4080 : Rep (4080 : ℚ) := by have := rep_int (m := 4080) (by decide); exact_mod_cast this
  have rM : Rep (1000000 : ℚ) := by have := rep_int (m := 1000000) (by decide); exact_mod_cast this
  have rM1 : Rep (999999 : ℚ) := by have := rep_int (m := 999999) (by decide); exact_mod_cast this
  have rY : Rep (200000 : ℚ) := by have := rep_int (m := 200000) (by decide); exact_mod_cast this
  have rT : Rep (2 ^ 37 : ℚ) := by
    have := rep_pow (e := 37) (by norm_num)
    norm_num at this ⊢; exact this
  have d1 := Big.sub hs.abs lit_half'.1 lit_half'.2 (by norm_num) r255 (by norm_num) (by norm_num) (by norm_num)
  have d2 := Big.mul big16 d1 (by norm_num) (by norm_num) r4080 (by norm_num) (by norm_num)
  have d3 := Big.mul hs d2 (by norm_num) (by norm_num) rM (by norm_num) (by norm_num)
  have d4 := Big.sub d3.abs fin_one val_one (by norm_num) rM1 (by norm_num) (by norm_num) (by norm_num)
  have d5 := Big.mul big225 d3 (by norm_num) (by norm_num) rY (by norm_num) (by norm_num)
  have d6 := Big.mul d5 d4 (by norm_num) (by norm_num) rT (by norm_num) (by norm_num)
  have e3 : (b != (false != false)) = b := by cases b <;> rfl
  have e6 : ((false != (b != (false != false))) != false) = b := by cases b <;> rfl
  rw [e6] at d6
  rw [e3] at d3
  exact Big.add d3 d6 (by norm_num) (by norm_num) rT (by norm_num) (by norm_num)

/-- **C99.** Above `13493038080` the result of `cos` is not a cosine of anything: it has the sign of the argument and
magnitude at least `2^37` (it may be infinite). -/
theorem C99_cos_huge {x : F32} (hx : x.isFinite = true) (hl : 13493038080 < |x.val|) :
    x.cos.sign = x.sign ∧ (x.cos.isInf = true ∨ x.cos.isFinite = true ∧ 2 ^ 37 ≤ |x.cos.val|) := by
  obtain ⟨fK, vK⟩ := cos_K
  have hp : |x.val * (10680707 / 67108864)| = |x.val| * (10680707 / 67108864) := by
    rw [abs_mul, abs_of_pos (show (0 : ℚ) < 10680707 / 67108864 by norm_num)]
  have hxo := abs_val_lt_ovf hx
  have hxn := abs_nonneg x.val
  obtain ⟨f1, v1⟩ := mul_val hx fK (by rw [vK, hp]; linarith)
  rw [vK] at v1
  have f0 : (⟨0x50490fdc#32⟩ : F32).isFinite = true := by decide
  have v0 : (⟨0x50490fdc#32⟩ : F32).val = 13493039104 := by
    rw [val_of_units (u := 13493039104 * 2 ^ 149) (by decide +kernel)]; norm_num
  obtain ⟨-, v2⟩ := mul_val f0 fK (by rw [v0, vK]; rw [abs_of_pos (by norm_num)]; unfold ovf; norm_num)
  rw [v0, vK, show (⟨0x50490fdc#32⟩ : F32) * (FRAC_1_PI / lit 2 1) = ⟨0x4f000001#32⟩ from eval_eq (by kernel_rfl),
    val_of_units (u := (2 ^ 31 + 256) * 2 ^ 149) (by decide +kernel)] at v2
  have lt : 2 ^ 31 + 256 ≤ |(x * (FRAC_1_PI / lit 2 1)).val| := by
    rw [v1, ← RN_abs, hp]
    refine le_trans (le_of_eq ?_) (RN_mono (mul_le_mul_of_nonneg_right (cos_gap hl) (by norm_num)))
    rw [← v2]; norm_num
  have hsx : (x * (FRAC_1_PI / lit 2 1)).sign = x.sign := by
    rw [sign_mul_finite hx fK, show (FRAC_1_PI / lit 2 1).sign = false from val_pos_sign (by rw [vK]; norm_num)]
    cases x.sign <;> rfl
  have key : Big x.sign 256 (x * (FRAC_1_PI / lit 2 1) -
      (lit 25 100 + (x * (FRAC_1_PI / lit 2 1) + lit 25 100).floor)) := by
    rw [← hsx]
    have hto := abs_val_lt_ovf f1
    generalize x * (FRAC_1_PI / lit 2 1) = t at *
    obtain ⟨f4, v4⟩ := lit_quarter
    have r31 : Rep (2 ^ 31 : ℚ) := by
      have := rep_pow (e := 31) (by norm_num)
      norm_num at this ⊢; exact this
    have r256 : Rep (256 : ℚ) := by have := rep_int (m := 256) (by decide); exact_mod_cast this
    have hov : |t.val + 1 / 4| < ovf := by
      have := abs_val_le_maxF f1
      refine lt_of_le_of_lt (abs_add_le _ _) ?_
      rw [abs_of_pos (show (0 : ℚ) < 1 / 4 by norm_num)]
      refine lt_of_le_of_lt (add_le_add_left this _) (by norm_num [maxF, ovf])
    obtain ⟨f2, v2⟩ := add_val f1 f4 (by rw [v4]; exact hov)
    rw [v4] at v2
    rcases le_abs.1 lt with h | h
    · have hs : t.sign = false := val_pos_sign (by linarith)
      have a1 : 2 ^ 31 ≤ (t + lit 25 100).val := by rw [v2]; exact le_RN_of_rep r31 (by linarith)
      rw [(floor_sat _ f2).1 a1, show lit 25 100 + (⟨0x4f000000#32⟩ : F32) = ⟨0x4f000000#32⟩ from eval_eq (by kernel_rfl)]
      have vv : (⟨0x4f000000#32⟩ : F32).val = 2 ^ 31 := by
        rw [val_of_units (u := 2 ^ 31 * 2 ^ 149) (by decide +kernel)]; norm_num
      rw [hs]
      refine Big.sub (t := 2 ^ 31 + 256) ?_ (by decide) vv (by norm_num) r256 (by norm_num) (by norm_num) (by norm_num)
      have := big_of_finite f1 lt
      rwa [hs] at this
    · have hs : t.sign = true := val_neg_sign (by linarith)
      have a1 : (t + lit 25 100).val ≤ -2 ^ 31 := by rw [v2]; exact RN_le_of_rep r31.neg (by linarith)
      rw [(floor_sat _ f2).2 a1, show lit 25 100 + (⟨0xcf000000#32⟩ : F32) = ⟨0xcf000000#32⟩ from eval_eq (by kernel_rfl)]
      have vv : (⟨0xcf000000#32⟩ : F32).val = -2 ^ 31 := by
        rw [val_of_units (u := -2 ^ 31 * 2 ^ 149) (by decide +kernel)]; norm_num
      have hov2 : |t.val - (⟨0xcf000000#32⟩ : F32).val| < ovf := by
        rw [vv]
        rw [abs_of_neg (by linarith)] at hto ⊢
        linarith
      obtain ⟨f5, v5⟩ := sub_val f1 (y := ⟨0xcf000000#32⟩) (by decide) hov2
      rw [vv] at v5
      have a2 : (t - ⟨0xcf000000#32⟩).val ≤ -256 := by rw [v5]; exact RN_le_of_rep r256.neg (by linarith)
      have := big_of_finite (t := 256) f5 (by rw [abs_of_neg (by linarith)]; linarith)
      rwa [val_neg_sign (by linarith), ← hs] at this
  have hb := cos_poly_big key
  rw [← cos_eq_poly rfl] at hb
  refine ⟨hb.2.1, ?_⟩
  rcases hb.cases with h | ⟨h1, -, h3⟩
  · left
    rw [h, isInf, mag_pack _ infMag_lt]; simp
  · exact Or.inr ⟨h1, h3⟩

/-- **C99.** At the infinities `cos` and `sin` return the infinity itself. -/
theorem C99_inf : posInf.cos = posInf ∧ negInf.cos = negInf ∧ posInf.sin = posInf ∧ negInf.sin = negInf :=
  ⟨eval_eq (n := 0x7f800000) (by kernel_rfl), eval_eq (n := 0xff800000) (by kernel_rfl),
    eval_eq (n := 0x7f800000) (by kernel_rfl), eval_eq (n := 0xff800000) (by kernel_rfl)⟩

/-- NaN in, NaN out. -/
theorem C99_nan {x : F32} (h : x.isNaN = true) : x.cos.isNaN = true ∧ x.sin.isNaN = true ∧ x.tan.isNaN = true := by
  have hc : ∀ y : F32, y.isNaN = true → y.cos.isNaN = true := by
    intro y hy
    unfold F32.cos
    dsimp only
    exact add_nan (Or.inl (mul_nan (Or.inl (sub_nan (Or.inl (mul_nan (Or.inl hy)))))))
  have hs : x.sin.isNaN = true := hc _ (sub_nan (Or.inl h))
  exact ⟨hc x h, hs, div_nan (Or.inl hs)⟩

/-- The subtraction with which `sin` begins. -/
theorem sin_shift {x : F32} (hx : x.isFinite = true) :
    x.sin = (x - FRAC_PI_2).cos ∧ (x - FRAC_PI_2).isFinite = true ∧
    (x - FRAC_PI_2).val = RN (x.val - 13176795 / 8388608) ∧
    |(x - FRAC_PI_2).val - (x.val - 13176795 / 8388608)| ≤ 1.5708 := by
  have hd : |x.val - 13176795 / 8388608| < ovf := by
    refine lt_of_le_of_lt (abs_sub _ _) (lt_of_le_of_lt (add_le_add_left (abs_val_le_maxF hx) _) ?_)
    rw [abs_of_pos (show (0 : ℚ) < 13176795 / 8388608 by norm_num)]
    norm_num [maxF, ovf]
  obtain ⟨f1, v1⟩ := sub_val hx fin_FRAC_PI_2 (by rw [val_FRAC_PI_2]; exact hd)
  rw [val_FRAC_PI_2] at v1
  refine ⟨by unfold F32.sin; rw [pi_div_two], f1, v1, ?_⟩
  rw [v1]
  refine (RN_nearest (rep_val x)).trans ?_
  rw [sub_sub_cancel, abs_of_pos (by norm_num)]
  norm_num

/-- **C99.** `sin` for every `|x| <= 13493038080`, with two exceptions. -/
theorem C99_sin {x : F32} (hx : x.isFinite = true) (hb : |x.val| ≤ 13493038080) (h1 : x.val ≠ -26353590)
    (h2 : x.val ≠ -26353592) :
    x.sin.isFinite = true ∧ |x.sin.val| ≤ 1 + 1 / 2 ^ 20 ∧
    |(x.sin.val : ℝ) - Real.sin x.val| ≤ 0.001101 + 1.62 / 10 ^ 7 * |(x.val : ℝ)| := by
  obtain ⟨hu, f1, v1, hn⟩ := sin_shift hx
  rw [hu]
  have hd : |x.val - 13176795 / 8388608| ≤ |x.val| + 1.5708 := by
    refine (abs_sub _ _).trans ?_
    rw [abs_of_pos (show (0 : ℚ) < 13176795 / 8388608 by norm_num)]
    norm_num
  have e1 : |(x - FRAC_PI_2).val - (x.val - 13176795 / 8388608)| ≤ (|x.val| + 1.5708) / 2 ^ 24 := by
    rw [v1]
    refine (RN_err _).trans (max_le ?_ (by gcongr))
    have := abs_nonneg x.val
    rw [le_div_iff₀ (by norm_num)]
    refine le_trans ?_ (le_add_of_nonneg_left this)
    norm_num
  have e2 : |(x - FRAC_PI_2).val| ≤ |x.val| + 1.5708 + (|x.val| + 1.5708) / 2 ^ 24 := by
    have := abs_sub_abs_le_abs_sub (x - FRAC_PI_2).val (x.val - 13176795 / 8388608)
    linarith
  have e2' : |(x - FRAC_PI_2).val| ≤ |x.val| + 4 := by
    have := abs_sub_abs_le_abs_sub (x - FRAC_PI_2).val (x.val - 13176795 / 8388608)
    norm_num at hn hd this ⊢
    linarith
  have b1 : |(x - FRAC_PI_2).val| ≤ 13493038080 := by
    by_contra hc
    have := cos_gap (not_le.1 hc)
    linarith
  have hbad : ∀ k : Int, k = -26353592 ∨ k = -26353594 → (x - FRAC_PI_2).val = k → x.val = ((k + 2 : Int) : ℚ) := by
    intro k hk hv
    have hk1 : (-26353594 : ℚ) ≤ k ∧ (k : ℚ) ≤ -26353592 := by rcases hk with rfl | rfl <;> norm_num
    rw [hv] at hn
    have hn' := abs_le.1 hn
    norm_num at hn'
    have hx1 : x.val ≤ -26353588 := by linarith
    have hx2 : -26353598 ≤ x.val := by linarith
    obtain ⟨z, hz⟩ := val_grid (x := x) (j := 24) (by norm_num) (by
      rw [abs_of_neg (by linarith)]
      refine le_trans (b := (26353588 : ℚ)) (by norm_num) (by linarith))
    rw [show (2 : ℚ) ^ ((24 : Int) - 23) = 2 by norm_num] at hz
    have r2 : Rep (x.val - 2) := by
      refine rep_grid (z := z - 1) (j := 1) (by norm_num) (by rw [hz]; push_cast; ring) ?_
      refine le_trans (b := (26353600 : ℚ)) ?_ (by norm_num)
      rw [abs_le]; constructor <;> linarith
    have hr := RN_nearest (q := x.val - 13176795 / 8388608) r2
    rw [← v1, hv, show x.val - 2 - (x.val - 13176795 / 8388608) = -(3600421 / 8388608) by ring, abs_neg,
      abs_of_pos (show (0 : ℚ) < 3600421 / 8388608 by norm_num)] at hr
    have hr' := abs_le.1 hr
    rw [hz] at hr'
    have z1 : k < 2 * z := by
      have : (k : ℚ) < ((2 * z : Int) : ℚ) := by push_cast; linarith
      exact_mod_cast this
    have z2 : 2 * z ≤ k + 2 := by
      have : ((2 * z : Int) : ℚ) < ((k + 3 : Int) : ℚ) := by push_cast; linarith
      have : 2 * z < k + 3 := by exact_mod_cast this
      omega
    have z3 : 2 * z = k + 2 := by rcases hk with rfl | rfl <;> omega
    rw [← z3, hz]; push_cast; ring
  obtain ⟨c1, c2, c3⟩ := C99_cos f1 b1
    (fun h => h1 (by have := hbad (-26353592) (Or.inl rfl) (by rw [h]; norm_num); rw [this]; norm_num))
    (fun h => h2 (by have := hbad (-26353594) (Or.inr rfl) (by rw [h]; norm_num); rw [this]; norm_num))
  refine ⟨c1, c2, ?_⟩
  have e1R := abs_cast_le e1
  have e2R := abs_cast_le e2
  push_cast at e1R e2R
  generalize ((x - FRAC_PI_2).cos.val : ℝ) = C at *
  generalize ((x - FRAC_PI_2).val : ℝ) = Y at *
  have hX := abs_nonneg (x.val : ℝ)
  generalize (x.val : ℝ) = X at *
  have hpi := Real.pi_gt_d20
  have hpi2 := Real.pi_lt_d20
  have e3 : |Y - (X - Real.pi / 2)| ≤ (|X| + 1.5708) / 2 ^ 24 + 1 / 10 ^ 7 := by
    have e1R' := abs_le.1 e1R
    rw [abs_le]
    norm_num at *
    constructor <;> linarith [e1R'.1, e1R'.2]
  have e4 := Real.abs_cos_sub_cos_le Y (X - Real.pi / 2)
  rw [Real.cos_sub_pi_div_two] at e4
  have e5 := e4.trans e3
  refine (abs_sub_le C (Real.cos Y) _).trans ?_
  norm_num at c3 e5 e2R ⊢
  linarith

/-- **C99.** The two exceptions of `sin`. -/
theorem C99_sin_out : ∀ x : F32, x = ofInt (-26353590) ∨ x = ofInt (-26353592) →
    x.sin.isFinite = true ∧ |x.sin.val + 435 / 100| ≤ 1 / 10 ^ 6 := by
  have h : ∀ x : F32, x = ofInt (-26353590) ∨ x = ofInt (-26353592) → x.sin = ⟨0xc08b3333#32⟩ := by
    rintro x (rfl | rfl)
    · exact eval_eq (n := 0xc08b3333) (by kernel_rfl)
    · exact eval_eq (n := 0xc08b3333) (by kernel_rfl)
  intro x hx
  rw [h x hx, val_of_units (u := -9122611 * 2 ^ 128) (by decide +kernel)]
  exact ⟨by decide, by rw [abs_le]; norm_num⟩

/-- **C99.** `sin` has the same upper limit as `cos`, and behaves in the same way beyond it. -/
theorem C99_sin_huge {x : F32} (hx : x.isFinite = true) (hl : 13493038080 < |x.val|) :
    x.sin.sign = x.sign ∧ (x.sin.isInf = true ∨ x.sin.isFinite = true ∧ 2 ^ 37 ≤ |x.sin.val|) := by
  obtain ⟨hu, f1, v1, hn⟩ := sin_shift hx
  have hg := cos_gap hl
  have hn' := abs_le.1 hn
  norm_num at hn'
  have hs : (x - FRAC_PI_2).sign = x.sign ∧ 13493038080 < |(x - FRAC_PI_2).val| := by
    rcases le_abs.1 hg with h | h
    · have p : 13493038080 < (x - FRAC_PI_2).val := by linarith
      exact ⟨by rw [val_pos_sign (by linarith), val_pos_sign (by linarith)], lt_of_lt_of_le p (le_abs_self _)⟩
    · have p : (x - FRAC_PI_2).val < -13493038080 := by linarith
      exact ⟨by rw [val_neg_sign (by linarith), val_neg_sign (by linarith)],
        lt_of_lt_of_le (by linarith) (neg_le_abs _)⟩
  have := C99_cos_huge f1 hs.2
  rw [hs.1] at this
  rw [hu]
  exact this

/-- The hypotheses of `C99_cos` and `C99_sin` hold for ten million and for minus ten thousand million, those of
`C99_cos_huge` for the next float after `13493038080`. -/
example : (∀ n : Int, n = 10 ^ 7 ∨ n = -10 ^ 10 → (ofInt n).isFinite = true ∧ |(ofInt n).val| ≤ 13493038080 ∧
      (ofInt n).val ≠ -26353590 ∧ (ofInt n).val ≠ -26353592 ∧ (ofInt n).val ≠ -26353594) ∧
    (ofInt 13493039104).isFinite = true ∧ 13493038080 < |(ofInt 13493039104).val| := by
  refine ⟨?_, by decide +kernel, ?_⟩
  · rintro n (rfl | rfl)
    · rw [val_of_units (u := 10 ^ 7 * 2 ^ 149) (by decide +kernel)]
      refine ⟨by decide +kernel, ?_, ?_, ?_, ?_⟩ <;> norm_num
    · rw [val_of_units (u := -10 ^ 10 * 2 ^ 149) (by decide +kernel)]
      refine ⟨by decide +kernel, ?_, ?_, ?_, ?_⟩ <;> norm_num
  · rw [val_of_units (u := 13493039104 * 2 ^ 149) (by decide +kernel)]; norm_num

end Micromath.Props
