import Verif.Props.Exp

/-!
# C102: monotonicity of `exp` on nonnegative arguments
-/

set_option exponentiation.threshold 1000

namespace Micromath.Props
open F32 Spec RealAux
variable [Cfg]

/-! ### the rounded polynomial as a function of a rational -/

/-- One rounded step of `exp_smallx`. -/
def stepQ (g n t : ℚ) : ℚ := RN (1 + RN (RN (g / n) * t))

/-- The rounded polynomial. -/
def polyQ (g : ℚ) : ℚ := stepQ g 1 (stepQ g 2 (stepQ g 3 (stepQ g 4 1)))

omit [Cfg] in
theorem stepQ_mono {g g' n t t' : ℚ} (hn : 0 < n) (hg : 0 ≤ g) (hgg : g ≤ g') (ht : 0 ≤ t) (htt : t ≤ t') :
    stepQ g n t ≤ stepQ g' n t' := by
  unfold stepQ
  have h1 : RN (g / n) ≤ RN (g' / n) := RN_mono (div_le_div_of_nonneg_right hgg hn.le)
  have h0 : 0 ≤ RN (g / n) := RN_nonneg (div_nonneg hg hn.le)
  have h2 := RN_mono (mul_le_mul h1 htt ht (h0.trans h1))
  exact RN_mono (by linarith)

omit [Cfg] in
theorem one_le_stepQ {g n t : ℚ} (hn : 0 < n) (hg : 0 ≤ g) (ht : 0 ≤ t) : 1 ≤ stepQ g n t := by
  unfold stepQ
  have h0 : 0 ≤ RN (RN (g / n) * t) := RN_nonneg (mul_nonneg (RN_nonneg (div_nonneg hg hn.le)) ht)
  exact le_RN_of_rep (by simpa using rep_int (m := 1) (by norm_num)) (by linarith)

omit [Cfg] in
theorem polyQ_mono {g g' : ℚ} (hg : 0 ≤ g) (h : g ≤ g') : polyQ g ≤ polyQ g' := by
  have a1 := one_le_stepQ (g := g) (n := 4) (t := 1) (by norm_num) hg (by norm_num)
  have a2 := one_le_stepQ (g := g) (n := 3) (t := stepQ g 4 1) (by norm_num) hg (by linarith)
  have a3 := one_le_stepQ (g := g) (n := 2) (t := stepQ g 3 (stepQ g 4 1)) (by norm_num) hg (by linarith)
  exact stepQ_mono (by norm_num) hg h (by linarith) (stepQ_mono (by norm_num) hg h (by linarith)
    (stepQ_mono (by norm_num) hg h (by linarith) (stepQ_mono (by norm_num) hg h (by norm_num) le_rfl)))

theorem stepQ_val {g t n : F32} {N T : ℚ} (hg : g.isFinite = true) (hg0 : 0 ≤ g.val) (hgb : g.val ≤ 7 / 10)
    (hn : IsVal n N) (hN : 1 ≤ N) (ht : IsVal t T) (ht0 : 1 ≤ T) (htb : T ≤ 2) :
    IsVal (one + (g / n) * t) (stepQ g.val N T) ∧ 1 ≤ stepQ g.val N T ∧ (2 ≤ N → stepQ g.val N T ≤ 2) := by
  obtain ⟨fn, vn⟩ := hn
  obtain ⟨ft, vt⟩ := ht
  have hN0 : 0 < N := by linarith
  have hq0 : 0 ≤ g.val / N := div_nonneg hg0 hN0.le
  have hq : g.val / N ≤ 3 / 4 := (div_le_self hg0 hN).trans (by linarith)
  obtain ⟨f1, v1⟩ := div_val hg fn (by rw [vn]; linarith) (by
    rw [vn, abs_of_nonneg hq0]; exact lt_of_le_of_lt hq (by unfold ovf; norm_num))
  rw [vn] at v1
  have r34 : RN (g.val / N) ≤ 3 / 4 := RN_le_of_rep (by
    have := rep_zpow (m := 3) (e := -2) (by norm_num) (by norm_num); norm_num at this; exact this) hq
  have r0 : 0 ≤ RN (g.val / N) := RN_nonneg hq0
  have hm0 : 0 ≤ RN (g.val / N) * T := mul_nonneg r0 (by linarith)
  have hm : RN (g.val / N) * T ≤ 3 / 2 := by nlinarith
  obtain ⟨f2, v2⟩ := mul_val f1 ft (by
    rw [v1, vt, abs_of_nonneg hm0]; exact lt_of_le_of_lt hm (by unfold ovf; norm_num))
  rw [v1, vt] at v2
  have s0 : 0 ≤ RN (RN (g.val / N) * T) := RN_nonneg hm0
  have s1 : RN (RN (g.val / N) * T) ≤ 3 / 2 := RN_le_of_rep (by
    have := rep_zpow (m := 3) (e := -1) (by norm_num) (by norm_num); norm_num at this; exact this) hm
  obtain ⟨f3, v3⟩ := add_val fin_one f2 (by
    rw [val_one, v2, abs_of_nonneg (by linarith)]; exact lt_of_le_of_lt (b := 5 / 2) (by linarith) (by unfold ovf; norm_num))
  rw [val_one, v2] at v3
  refine ⟨⟨f3, v3⟩, one_le_stepQ hN0 hg0 (by linarith), fun h2 => ?_⟩
  have hq' : g.val / N ≤ 3 / 8 := by rw [div_le_iff₀ hN0]; linarith
  have r38 : RN (g.val / N) ≤ 3 / 8 := RN_le_of_rep (by
    have := rep_zpow (m := 3) (e := -3) (by norm_num) (by norm_num); norm_num at this; exact this) hq'
  have s34 : RN (RN (g.val / N) * T) ≤ 3 / 4 := RN_le_of_rep (by
    have := rep_zpow (m := 3) (e := -2) (by norm_num) (by norm_num); norm_num at this; exact this) (by nlinarith)
  exact RN_le_of_rep (by simpa using rep_int (m := 2) (by norm_num)) (by linarith)

theorem expSmallx_val {g : F32} (hg : g.isFinite = true) (hg0 : 0 ≤ g.val) (hgb : g.val ≤ 69315 / 100000) :
    IsVal (g.expSmallx 4) (polyQ g.val) ∧ 1 ≤ polyQ g.val ∧ polyQ g.val < 2 := by
  have hb : g.val ≤ 7 / 10 := by linarith
  have i1 : IsVal (ofInt 1) 1 := by simpa using ofInt_isVal (n := 1) (by decide)
  have i2 : IsVal (ofInt 2) 2 := by simpa using ofInt_isVal (n := 2) (by decide)
  have i3 : IsVal (ofInt 3) 3 := by simpa using ofInt_isVal (n := 3) (by decide)
  have i4 : IsVal (ofInt 4) 4 := by simpa using ofInt_isVal (n := 4) (by decide)
  obtain ⟨v1, l1, u1⟩ := stepQ_val hg hg0 hb i4 (by norm_num) ⟨fin_one, val_one⟩ le_rfl (by norm_num)
  obtain ⟨v2, l2, u2⟩ := stepQ_val hg hg0 hb i3 (by norm_num) v1 l1 (u1 (by norm_num))
  obtain ⟨v3, l3, u3⟩ := stepQ_val hg hg0 hb i2 (by norm_num) v2 l2 (u2 (by norm_num))
  obtain ⟨v4, l4, -⟩ := stepQ_val hg hg0 hb i1 (by norm_num) v3 l3 (u3 (by norm_num))
  refine ⟨v4, l4, ?_⟩
  have habs : |g.val| ≤ 69315 / 100000 := by rw [abs_of_nonneg hg0]; exact hgb
  obtain ⟨-, e, -⟩ := expSmallx_err hg habs
  have hT := (T4_facts (g := (g.val : ℝ)) (by
    have := abs_cast_le habs
    push_cast at this
    norm_num at this ⊢; linarith)).2.2
  rw [← T4Q_cast] at hT
  have t2 : T4Q g.val ≤ (19995 / 10000 : ℚ) := by
    have : ((T4Q g.val : ℚ) : ℝ) ≤ (19995 / 10000 : ℚ) := by push_cast; norm_num at hT ⊢; linarith
    exact_mod_cast this
  rw [show (g.expSmallx 4).val = polyQ g.val from v4.2] at e
  have := (abs_le.1 e).2
  norm_num at this t2
  linarith

/-! ### `exp` on nonnegative arguments -/

/-- `exp` in terms of rounded rationals. -/
def expQ (x : ℚ) : ℚ :=
  polyQ (RN ((RN (x * LOG2_E.val) - ⌊RN (x * LOG2_E.val)⌋) * LN_2.val)) * 2 ^ ⌊RN (x * LOG2_E.val)⌋

theorem exp_nonneg {x : F32} (hx : x.isFinite = true) (h0 : 0 ≤ x.val) (h : x.val < 1453635 / 16384) (hs : ¬ expSpecial x) :
    ∃ r : F32, x.exp = .ok r ∧ IsVal r (expQ x.val) ∧
      1 ≤ polyQ (RN ((RN (x.val * LOG2_E.val) - ⌊RN (x.val * LOG2_E.val)⌋) * LN_2.val)) ∧
      polyQ (RN ((RN (x.val * LOG2_E.val) - ⌊RN (x.val * LOG2_E.val)⌋) * LN_2.val)) < 2 := by
  have hL2 : (0 : ℚ) < LOG2_E.val := by rw [val_LOG2_E]; norm_num
  have hq0 : 0 ≤ x.val * LOG2_E.val := mul_nonneg h0 hL2.le
  have hq : |x.val * LOG2_E.val| < ovf := by
    rw [abs_of_nonneg hq0, val_LOG2_E]
    refine lt_of_le_of_lt (b := 200) (by linarith) (by unfold ovf; norm_num)
  obtain ⟨fy, vy⟩ := mul_val hx fin_LOG2_E hq
  have hY : RN (x.val * LOG2_E.val) < 128 := by
    by_contra hc
    exact absurd ((exp_threshold_128 x).2 (not_lt.1 hc)) (not_le.2 h)
  have hY0 : 0 ≤ RN (x.val * LOG2_E.val) := RN_nonneg hq0
  unfold expQ
  generalize hYe : RN (x.val * LOG2_E.val) = Y at *
  have hip : intPart Y = ⌊Y⌋ := by unfold intPart; rw [if_pos hY0]
  have hY32 : |(x * LOG2_E).val| < 2 ^ 32 := by rw [vy, abs_of_nonneg hY0]; exact hY.trans (by norm_num)
  obtain ⟨⟨ft, vt⟩, -⟩ := C04_trunc _ hY32
  obtain ⟨⟨ff, vf⟩, -⟩ := C06_fract _ hY32
  rw [vy, hip] at vt vf
  have k0 : 0 ≤ ⌊Y⌋ := Int.floor_nonneg.2 hY0
  have k1 : ⌊Y⌋ < 128 := Int.floor_lt.2 (by exact_mod_cast hY)
  have hk : (x * LOG2_E).trunc.toI32 = ⌊Y⌋ := by
    have c0 : (0 : ℚ) ≤ (⌊Y⌋ : Int) := by exact_mod_cast k0
    have c1 : ((⌊Y⌋ : Int) : ℚ) < 128 := by exact_mod_cast k1
    rw [toI32_eq ft (by rw [vt]; linarith) (by rw [vt]; linarith), vt, truncQ_intCast]
  have f0 : 0 ≤ Y - ⌊Y⌋ := by linarith [Int.floor_le Y]
  have f1 : Y - ⌊Y⌋ ≤ 1 := by linarith [Int.lt_floor_add_one Y]
  have hL : LN_2.val = 1453635 / 2097152 := val_LN_2
  have g0 : 0 ≤ (Y - ⌊Y⌋) * LN_2.val := mul_nonneg f0 (by rw [hL]; norm_num)
  have g1 : (Y - ⌊Y⌋) * LN_2.val ≤ LN_2.val := by rw [hL] at *; nlinarith
  obtain ⟨fg, vg⟩ := mul_val ff fin_LN_2 (by
    rw [vf, abs_of_nonneg g0]; refine lt_of_le_of_lt g1 (by rw [hL]; unfold ovf; norm_num))
  rw [vf] at vg
  have G0 : 0 ≤ RN ((Y - ⌊Y⌋) * LN_2.val) := RN_nonneg g0
  have G1 : RN ((Y - ⌊Y⌋) * LN_2.val) ≤ LN_2.val := RN_le_of_rep (rep_val _) g1
  obtain ⟨⟨fP, vP⟩, p1, p2⟩ := expSmallx_val fg (by rw [vg]; exact G0) (by rw [vg]; refine G1.trans (by rw [hL]; norm_num))
  rw [vg] at vP p1 p2
  have sP : (((x * LOG2_E).fract * LN_2).expSmallx 4).sign = false := sign_of_pos (by rw [vP]; linarith)
  obtain ⟨m1, he⟩ := exp_poly_exponent (P := ((x * LOG2_E).fract * LN_2).expSmallx 4) (by rw [vP]; linarith) (by rw [vP]; exact p2)
  have he0 : (((x * LOG2_E).fract * LN_2).expSmallx 4).extractExponentValue = 0 := by
    rcases he with ⟨q, -⟩ | ⟨-, q⟩
    · exact q
    · rw [vP] at q; linarith
  have hv := pack_exponent_val (e := ⌊Y⌋) sP m1 (by omega) (by omega)
  rw [extractExponentValue_eq] at he0
  rw [he0, sub_zero, vP] at hv
  refine ⟨_, ?_, hv, p1, p2⟩
  rw [exp_general hs, hk, expTail, extractExponentValue_eq, he0, zero_add,
    show max (-2 ^ 31) (min (2 ^ 31 - 1) ⌊Y⌋) = ⌊Y⌋ by omega, if_neg (by omega), if_neg (by omega),
    setExponent_ok _ (by omega) (by omega)]

omit [Cfg] in
theorem expQ_mono {x y : ℚ} (h : x ≤ y)
    (h2 : polyQ (RN ((RN (x * LOG2_E.val) - ⌊RN (x * LOG2_E.val)⌋) * LN_2.val)) < 2)
    (h1 : 1 ≤ polyQ (RN ((RN (y * LOG2_E.val) - ⌊RN (y * LOG2_E.val)⌋) * LN_2.val))) : expQ x ≤ expQ y := by
  have hL2 : (0 : ℚ) < LOG2_E.val := by rw [val_LOG2_E]; norm_num
  have hL : (0 : ℚ) < LN_2.val := by rw [val_LN_2]; norm_num
  have hXY : RN (x * LOG2_E.val) ≤ RN (y * LOG2_E.val) := RN_mono (mul_le_mul_of_nonneg_right h hL2.le)
  unfold expQ
  generalize RN (x * LOG2_E.val) = X at *
  generalize RN (y * LOG2_E.val) = Y at *
  have f0 : 0 ≤ X - ⌊X⌋ := by linarith [Int.floor_le X]
  rcases (Int.floor_le_floor hXY).eq_or_lt with e | e
  · rw [← e]
    refine mul_le_mul_of_nonneg_right (polyQ_mono (RN_nonneg (mul_nonneg f0 hL.le)) (RN_mono ?_)) (by positivity)
    exact mul_le_mul_of_nonneg_right (by linarith) hL.le
  · calc _ ≤ 2 * (2 : ℚ) ^ ⌊X⌋ := mul_le_mul_of_nonneg_right h2.le (by positivity)
      _ = 2 ^ (⌊X⌋ + 1) := by rw [zpow_add₀ (by norm_num), zpow_one, mul_comm]
      _ ≤ 2 ^ ⌊Y⌋ := zpow_le_zpow_right₀ (by norm_num) e
      _ ≤ _ := le_mul_of_one_le_left (by positivity) h1

/-! ### the shortcut around one -/

omit [Cfg] in
theorem val_below_one : (⟨0x3f7fffff#32⟩ : F32).val = 1 - 1 / 2 ^ 24 := by
  rw [val_of_units (u := 16777215 * 2 ^ 125) (by decide +kernel)]; norm_num

omit [Cfg] in
theorem val_below_below_one : (⟨0x3f7ffffe#32⟩ : F32).val = 1 - 1 / 2 ^ 23 := by
  rw [val_of_units (u := 16777214 * 2 ^ 125) (by decide +kernel)]; norm_num

omit [Cfg] in
theorem val_above_one : (⟨0x3f800001#32⟩ : F32).val = 1 + 1 / 2 ^ 23 := by
  rw [val_of_units (u := 8388609 * 2 ^ 126) (by decide +kernel)]; norm_num

omit [Cfg] in
theorem one_neighbours {x : F32} (h1 : 1 - 1 / 2 ^ 24 ≤ x.val) (h2 : x.val ≤ 1) :
    x = ⟨0x3f7fffff#32⟩ ∨ x = ⟨0x3f800000#32⟩ := by
  have hs : x.sign = false := sign_of_pos (by norm_num at h1 ⊢; linarith)
  rcases h2.eq_or_lt with h | h
  · right
    exact eq_of_val_ne (by rw [h]; exact val_one.symm) (by rw [h]; norm_num)
  · left
    have := val_le_pred (x := x) (c := ⟨0x3f800000#32⟩) (p := ⟨0x3f7fffff#32⟩) (by decide) (by decide) (by decide) (by
      rw [show (⟨0x3f800000#32⟩ : F32).val = 1 from val_one]; exact h)
    rw [val_below_one] at this
    have e := le_antisymm this h1
    exact eq_of_val_ne (by rw [e, val_below_one]) (by rw [e]; norm_num)

theorem exp_ONE : (⟨0x3f800000#32⟩ : F32).exp = .ok E := by kernel_rfl

theorem exp_below_one : (⟨0x3f7fffff#32⟩ : F32).exp = .ok E := by kernel_rfl

theorem expSpecial_nonneg {x : F32} (hx : x.isFinite = true) (h0 : 0 ≤ x.val) :
    expSpecial x ↔ x.val = 0 ∨ (1 - 1 / 2 ^ 24 ≤ x.val ∧ x.val ≤ 1) := by
  constructor
  · intro hs
    rcases expSpecial_val hx hs with ⟨h, -⟩ | ⟨h, -⟩ | ⟨h, -⟩
    · exact .inl h
    · right
      obtain ⟨a, b⟩ := abs_lt.1 h
      constructor
      · by_contra hc
        have := val_le_pred (x := x) (c := ⟨0x3f7fffff#32⟩) (p := ⟨0x3f7ffffe#32⟩) (by decide) (by decide) (by decide) (by
          rw [val_below_one]; exact not_le.1 hc)
        rw [val_below_below_one] at this
        linarith
      · have := val_le_pred (x := x) (c := ⟨0x3f800001#32⟩) (p := ⟨0x3f800000#32⟩) (by decide) (by decide) (by decide) (by
          rw [val_above_one]; linarith)
        rwa [show (⟨0x3f800000#32⟩ : F32).val = 1 from val_one] at this
    · rw [abs_lt] at h; norm_num at h; linarith
  · rintro (h | ⟨h1, h2⟩)
    · exact .inl ((feq_iff hx (by decide)).2 (by rw [h]; exact val_posZero.symm))
    · refine .inr (.inl ?_)
      rcases one_neighbours h1 h2 with rfl | rfl <;> kernel_rfl

/-- Does the call return exactly this bit pattern? -/
def okBits (r : Res F32) (n : Nat) : Bool := match r with
  | .ok y => y.bits.toNat == n
  | .error _ => false

omit [Cfg] in
theorem eq_of_okBits {r : Res F32} {b : BitVec 32} (h : okBits r b.toNat = true) : r = .ok ⟨b⟩ := by
  unfold okBits at h
  split at h
  · rename_i y
    have : y.bits = b := BitVec.eq_of_toNat_eq (by simpa using h)
    rw [← this]
  · cases h

/-- The first float above one at which `exp` is at least `E` again. -/
theorem exp_resume : (⟨0x3f800094#32⟩ : F32).exp = .ok ⟨0x402df855#32⟩ := by
  refine eq_of_okBits ?_
  rename_i i
  obtain ⟨oc, da, nop, hn, nc, hc, sz, hs⟩ := i
  cases da <;> kernel_rfl

theorem exp_before_resume : (⟨0x3f800093#32⟩ : F32).exp = .ok ⟨0x402df853#32⟩ := by
  refine eq_of_okBits ?_
  rename_i i
  obtain ⟨oc, da, nop, hn, nc, hc, sz, hs⟩ := i
  cases da <;> kernel_rfl

theorem exp_before_shortcut : (⟨0x3f7ffffe#32⟩ : F32).exp = .ok ⟨0x402df78b#32⟩ := by
  refine eq_of_okBits ?_
  rename_i i
  obtain ⟨oc, da, nop, hn, nc, hc, sz, hs⟩ := i
  cases da <;> kernel_rfl

/-! ### theorems -/

/-- **C102, monotone.** For `0 <= x <= y` below the overflow threshold 88.72284 `exp x <= exp y`, except when `x` is
one of the two floats `1 - 2^-24`, `1` that take the shortcut `E` and `y` is in `(1, 1 + 37/2^21)`. -/
theorem C102_exp_monotone {x y : F32} (hx : x.isFinite = true) (hy : y.isFinite = true) (h0 : 0 ≤ x.val)
    (h : x.val ≤ y.val) (h2 : y.val < 1453635 / 16384)
    (hex : ¬ (1 - 1 / 2 ^ 24 ≤ x.val ∧ x.val ≤ 1 ∧ 1 < y.val ∧ y.val < 1 + 37 / 2 ^ 21)) :
    ∃ r s, x.exp = .ok r ∧ y.exp = .ok s ∧ r.isFinite = true ∧ s.isFinite = true ∧ r.le s = true := by
  have vE : E.val = 2850325 / 1048576 := val_E
  have hy0 : 0 ≤ y.val := h0.trans h
  have big : ∀ {z : F32}, z.isFinite = true → 0 ≤ z.val → z.val < 1453635 / 16384 → ¬ expSpecial z →
      1 ≤ expQ z.val := by
    intro z hz hz0 hz2 hsz
    obtain ⟨r, -, -, a, -⟩ := exp_nonneg hz hz0 hz2 hsz
    unfold expQ
    have hk : 0 ≤ ⌊RN (z.val * LOG2_E.val)⌋ :=
      Int.floor_nonneg.2 (RN_nonneg (mul_nonneg hz0 (by rw [val_LOG2_E]; norm_num)))
    have := one_le_zpow₀ (show (1 : ℚ) ≤ 2 by norm_num) hk
    nlinarith
  by_cases sx : expSpecial x
  · rcases (expSpecial_nonneg hx h0).1 sx with hv | ⟨a, b⟩
    · have ex : x.exp = .ok one := C27_exp_zero x hx hv
      by_cases sy : expSpecial y
      · rcases (expSpecial_nonneg hy hy0).1 sy with hw | ⟨c, d⟩
        · exact ⟨one, one, ex, C27_exp_zero y hy hw, fin_one, fin_one, by decide⟩
        · refine ⟨one, E, ex, ?_, fin_one, fin_E, by decide⟩
          rcases one_neighbours c d with rfl | rfl
          · exact exp_below_one
          · exact exp_ONE
      · obtain ⟨s, es, ⟨fs, vs⟩, -⟩ := exp_nonneg hy hy0 h2 sy
        refine ⟨one, s, ex, es, fin_one, fs, ?_⟩
        rw [le_iff fin_one fs, val_one, vs]
        exact big hy hy0 h2 sy
    · have ex : x.exp = .ok E := by
        rcases one_neighbours a b with rfl | rfl
        · exact exp_below_one
        · exact exp_ONE
      by_cases c : y.val ≤ 1
      · refine ⟨E, E, ex, ?_, fin_E, fin_E, by decide⟩
        rcases one_neighbours (a.trans h) c with rfl | rfl
        · exact exp_below_one
        · exact exp_ONE
      · have c' := not_le.1 c
        have hy1 : 1 + 37 / 2 ^ 21 ≤ y.val := by
          by_contra hc
          exact hex ⟨a, b, c', not_le.1 hc⟩
        have sy : ¬ expSpecial y := by
          rw [expSpecial_nonneg hy hy0]
          rintro (hw | ⟨-, hw⟩) <;> linarith
        obtain ⟨s, es, ⟨fs, vs⟩, p1, -⟩ := exp_nonneg hy hy0 h2 sy
        have vt : (⟨0x3f800094#32⟩ : F32).val = 1 + 37 / 2 ^ 21 := by
          rw [val_of_units (u := 8388756 * 2 ^ 126) (by decide +kernel)]; norm_num
        obtain ⟨t, et, ⟨ft, wt⟩, -, q2⟩ := exp_nonneg (x := ⟨0x3f800094#32⟩) (by decide) (by rw [vt]; norm_num)
          (by rw [vt]; norm_num) (by
            rw [expSpecial_nonneg (by decide) (by rw [vt]; norm_num), vt]; norm_num)
        have et' := et.symm.trans exp_resume
        injection et' with et'
        subst et'
        refine ⟨E, s, ex, es, fin_E, fs, ?_⟩
        have hm := expQ_mono (x := (⟨0x3f800094#32⟩ : F32).val) (by rw [vt]; exact hy1) q2 p1
        rw [← wt, ← vs] at hm
        rw [le_iff fin_E fs]
        refine le_trans ?_ hm
        exact (le_iff fin_E (by decide)).1 (by decide)
  · obtain ⟨r, er, ⟨fr, vr⟩, -, q2⟩ := exp_nonneg hx h0 (lt_of_le_of_lt h h2) sx
    by_cases sy : expSpecial y
    · rcases (expSpecial_nonneg hy hy0).1 sy with hw | ⟨c, d⟩
      · exact absurd ((expSpecial_nonneg hx h0).2 (.inl (by linarith))) sx
      · have ey : y.exp = .ok E := by
          rcases one_neighbours c d with rfl | rfl
          · exact exp_below_one
          · exact exp_ONE
        refine ⟨r, E, er, ey, fr, fin_E, ?_⟩
        have hx1 : x.val < 1 - 1 / 2 ^ 24 := by
          by_contra hc
          exact sx ((expSpecial_nonneg hx h0).2 (.inr ⟨not_lt.1 hc, h.trans d⟩))
        have hx2 := val_le_pred (x := x) (c := ⟨0x3f7fffff#32⟩) (p := ⟨0x3f7ffffe#32⟩) (by decide) (by decide) (by decide)
          (by rw [val_below_one]; exact hx1)
        obtain ⟨t, et, ⟨ft, wt⟩, q1, -⟩ := exp_nonneg (x := ⟨0x3f7ffffe#32⟩) (by decide) (by rw [val_below_below_one]; norm_num)
          (by rw [val_below_below_one]; norm_num) (by
            rw [expSpecial_nonneg (by decide) (by rw [val_below_below_one]; norm_num), val_below_below_one]; norm_num)
        have et' := et.symm.trans exp_before_shortcut
        injection et' with et'
        subst et'
        have hm := expQ_mono hx2 q2 q1
        rw [← wt, ← vr] at hm
        rw [le_iff fr fin_E]
        refine hm.trans ?_
        exact (le_iff (by decide) fin_E).1 (by decide)
    · obtain ⟨s, es, ⟨fs, vs⟩, p1, -⟩ := exp_nonneg hy hy0 h2 sy
      refine ⟨r, s, er, es, fr, fs, ?_⟩
      rw [le_iff fr fs, vr, vs]
      exact expQ_mono h q2 p1

/-- The hypotheses hold for 2 and 3. -/
example : ∃ r s, (ofInt 2).exp = .ok r ∧ (ofInt 3).exp = .ok s ∧ r.isFinite = true ∧ s.isFinite = true ∧ r.le s = true := by
  obtain ⟨f, v⟩ := ofInt_isVal (n := 2) (by decide)
  obtain ⟨f', v'⟩ := ofInt_isVal (n := 3) (by decide)
  exact C102_exp_monotone f f' (by rw [v]; norm_num) (by rw [v, v']; norm_num) (by rw [v']; norm_num) (by rw [v]; norm_num)

/-- **C102, the exception is real.** On the whole exceptional set the order is strictly reversed. -/
theorem C102_exp_dip {x y : F32} (hy : y.isFinite = true) (h1 : 1 - 1 / 2 ^ 24 ≤ x.val) (h2 : x.val ≤ 1)
    (h3 : 1 < y.val) (h4 : y.val < 1 + 37 / 2 ^ 21) :
    ∃ r s, x.exp = .ok r ∧ y.exp = .ok s ∧ s.lt r = true := by
  have ex : x.exp = .ok E := by
    rcases one_neighbours h1 h2 with rfl | rfl
    · exact exp_below_one
    · exact exp_ONE
  have hy0 : 0 ≤ y.val := by linarith
  have sy : ¬ expSpecial y := by
    rw [expSpecial_nonneg hy hy0]
    rintro (hw | ⟨-, hw⟩) <;> linarith
  have vt : (⟨0x3f800094#32⟩ : F32).val = 1 + 37 / 2 ^ 21 := by
    rw [val_of_units (u := 8388756 * 2 ^ 126) (by decide +kernel)]; norm_num
  have vp : (⟨0x3f800093#32⟩ : F32).val = 1 + 147 / 2 ^ 23 := by
    rw [val_of_units (u := 8388755 * 2 ^ 126) (by decide +kernel)]; norm_num
  have hyp := val_le_pred (x := y) (c := ⟨0x3f800094#32⟩) (p := ⟨0x3f800093#32⟩) (by decide) (by decide) (by decide)
    (by rw [vt]; exact h4)
  obtain ⟨s, es, ⟨fs, vs⟩, -, p2⟩ := exp_nonneg hy hy0 (by norm_num at h4 ⊢; linarith) sy
  obtain ⟨t, et, ⟨ft, wt⟩, q1, -⟩ := exp_nonneg (x := ⟨0x3f800093#32⟩) (by decide) (by rw [vp]; norm_num)
    (by rw [vp]; norm_num) (by
      rw [expSpecial_nonneg (by decide) (by rw [vp]; norm_num), vp]; norm_num)
  have et' := et.symm.trans exp_before_resume
  injection et' with et'
  subst et'
  refine ⟨E, s, ex, es, ?_⟩
  have hm := expQ_mono hyp p2 q1
  rw [← wt, ← vs] at hm
  rw [lt_iff fs fin_E]
  refine lt_of_le_of_lt hm ?_
  exact (lt_iff (by decide) fin_E).1 (by decide)

/-- The set is not empty: `1` and its successor. -/
example : ∃ r s, one.exp = .ok r ∧ (⟨0x3f800001#32⟩ : F32).exp = .ok s ∧ s.lt r = true :=
  C102_exp_dip (by decide) (by rw [val_one]; norm_num) (by rw [val_one]) (by rw [val_above_one]; norm_num)
    (by rw [val_above_one]; norm_num)

/-- **C102, `exp` is at least one on nonnegative arguments.** -/
theorem C102_exp_ge_one {x : F32} (hx : x.isFinite = true) (h0 : 0 ≤ x.val) (h2 : x.val < 1453635 / 16384) :
    ∃ r, x.exp = .ok r ∧ r.isFinite = true ∧ 1 ≤ r.val := by
  obtain ⟨r, s, e1, e2, f1, f2, l⟩ := C102_exp_monotone (x := posZero) (y := x) (by decide) hx (by rw [val_posZero])
    (by rw [val_posZero]; exact h0) h2 (by rw [val_posZero]; norm_num)
  have : posZero.exp = .ok one := C27_exp_zero _ (by decide) val_posZero
  rw [this] at e1
  injection e1 with e1
  subst e1
  refine ⟨s, e2, f2, ?_⟩
  rw [le_iff fin_one f2, val_one] at l
  exact l

/-! ### nonpositive arguments -/

theorem expSmallx_le_one {g : F32} (hg : g.isFinite = true) (h0 : g.val ≤ 0) (hgb : |g.val| ≤ 69315 / 100000) :
    (g.expSmallx 4).val ≤ 1 := by
  have hgb' : |g.val| ≤ 7 / 10 := hgb.trans (by norm_num)
  have i1 : IsVal (ofInt 1) 1 := by simpa using ofInt_isVal (n := 1) (by decide)
  have i2 : IsVal (ofInt 2) 2 := by simpa using ofInt_isVal (n := 2) (by decide)
  have i3 : IsVal (ofInt 3) 3 := by simpa using ofInt_isVal (n := 3) (by decide)
  have i4 : IsVal (ofInt 4) 4 := by simpa using ofInt_isVal (n := 4) (by decide)
  rw [expSmallx_four]
  obtain ⟨f1, e1, b1, p1⟩ := exp_step (A := 1) hg hgb' i4 (by norm_num) fin_one (by norm_num) (by rw [val_one]; norm_num)
  rw [abs_one] at b1
  norm_num only at b1
  obtain ⟨f2, e2, b2, p2⟩ := exp_step hg hgb' i3 (by norm_num) f1 (b1.trans (by norm_num)) e1
  have b2' := b2.trans (add_le_add_right (mul_le_mul_of_nonneg_left b1 (by norm_num)) 1)
  norm_num only at b2'
  obtain ⟨f3, e3, b3, p3⟩ := exp_step hg hgb' i2 (by norm_num) f2 (b2'.trans (by norm_num)) e2
  have b3' := b3.trans (add_le_add_right (mul_le_mul_of_nonneg_left b2' (by norm_num)) 1)
  norm_num only at b3'
  set A2 : ℚ := 1 + g.val / 3 * (1 + g.val / 4 * 1) with hA2
  have hl : (1 / 2 : ℚ) ≤ 1 + g.val / 2 * A2 := by
    have h1 : |g.val / 2 * A2| ≤ 7 / 20 * (137 / 100) := by
      rw [abs_mul, abs_div, abs_of_pos (show (0 : ℚ) < 2 by norm_num)]
      exact mul_le_mul (by linarith) (b2'.trans (by norm_num)) (abs_nonneg _) (by norm_num)
    have := (abs_le.1 h1).1
    norm_num at this ⊢
    linarith
  have ht := (abs_le.1 e3).1
  generalize one + g / ofInt 2 * (one + g / ofInt 3 * (one + g / ofInt 4 * one)) = t at *
  have htb : |t.val| ≤ 2 := by
    have := abs_sub_abs_le_abs_sub t.val (1 + g.val / 2 * A2)
    norm_num at b3' e3 this ⊢
    linarith
  have ht0 : 0 ≤ t.val := by norm_num at ht; linarith
  obtain ⟨fn, vn⟩ := i1
  obtain ⟨a1, w1⟩ := div_val hg fn (by rw [vn]; norm_num) (by
    rw [vn, div_one]; exact lt_of_le_of_lt hgb' (by unfold ovf; norm_num))
  rw [vn, div_one, RN_of_rep (rep_val g)] at w1
  obtain ⟨a2, w2⟩ := mul_val a1 f3 (by
    rw [w1, abs_mul]
    exact lt_of_le_of_lt (mul_le_mul hgb' htb (abs_nonneg _) (by norm_num)) (by unfold ovf; norm_num))
  rw [w1] at w2
  have hp : |g.val * t.val| ≤ 2 := by
    rw [abs_mul]
    exact (mul_le_mul hgb' htb (abs_nonneg _) (by norm_num)).trans (by norm_num)
  have n2 : (g / ofInt 1 * t).val ≤ 0 := by
    rw [w2]; exact RN_nonpos (mul_nonpos_of_nonpos_of_nonneg h0 ht0)
  have n3 : -2 ≤ (g / ofInt 1 * t).val := by
    rw [w2]; exact le_RN_of_rep (by simpa using rep_int (m := -2) (by norm_num)) (abs_le.1 hp).1
  obtain ⟨a3, w3⟩ := add_val fin_one a2 (by
    rw [val_one]
    exact lt_of_le_of_lt (b := 1) (by rw [abs_le]; constructor <;> linarith) (by unfold ovf; norm_num))
  rw [w3, val_one]
  exact RN_le_of_rep (by simpa using rep_int (m := 1) (by norm_num)) (by linarith)

/-- **C102, `exp` is at most one on nonpositive arguments**, and never panics there (`-inf` included). -/
theorem C102_exp_le_one {x : F32} (hx : x.isNaN = false) (h0 : x.val ≤ 0) :
    ∃ r, x.exp = .ok r ∧ r.isFinite = true ∧ 0 ≤ r.val ∧ r.val ≤ 1 := by
  have z : (ZERO : F32).val = 0 := val_posZero
  by_cases hf : x.isFinite = true
  swap
  · have e := not_finite_eq (by simpa using hf) hx
    have hs : x.sign = true := by
      by_contra hc
      rw [if_neg hc] at e
      rw [e, val_inf (by decide)] at h0
      norm_num [show posInf.sign = false by decide] at h0
    rw [if_pos hs] at e
    exact ⟨posZero, C27_exp_underflow x (.inl e), by decide, by rw [val_posZero], by rw [val_posZero]; norm_num⟩
  · rcases le_or_gt x.val (-87.34) with h | h
    · obtain ⟨r, e, f, a, b⟩ := C27_exp_tiny x hf h
      exact ⟨r, e, f, a, b.le.trans (by norm_num)⟩
    · by_cases hs : expSpecial x
      · rcases expSpecial_val hf hs with ⟨-, e⟩ | ⟨hv, -⟩ | ⟨-, e⟩
        · exact ⟨_, e, fin_one, by rw [show ONE.val = 1 from val_one]; norm_num, by rw [show ONE.val = 1 from val_one]⟩
        · rw [abs_lt] at hv; norm_num at hv; linarith [hv.1]
        · have hq : ONE / E = ⟨0x3ebc5ab2#32⟩ := eval_eq (n := 0x3ebc5ab2) (by kernel_rfl)
          have hv0 : (⟨0x3ebc5ab2#32⟩ : F32).val = 6171993 / 16777216 := by
            rw [val_of_units (u := 6171993 * 2 ^ 125) (by decide +kernel)]; norm_num
          rw [hq] at e
          exact ⟨_, e, by decide, by rw [hv0]; norm_num, by rw [hv0]; norm_num⟩
      · have hL2 : (0 : ℚ) < LOG2_E.val := by rw [val_LOG2_E]; norm_num
        norm_num only at h
        have hq0 : x.val * LOG2_E.val ≤ 0 := mul_nonpos_of_nonpos_of_nonneg h0 hL2.le
        have hq1 : -128 ≤ x.val * LOG2_E.val := by rw [val_LOG2_E]; linarith
        obtain ⟨fy, vy⟩ := mul_val hf fin_LOG2_E (lt_of_le_of_lt (b := 128) (by
          rw [abs_le]; constructor <;> linarith) (by unfold ovf; norm_num))
        have hY0 : RN (x.val * LOG2_E.val) ≤ 0 := RN_nonpos hq0
        have hY1 : -128 ≤ RN (x.val * LOG2_E.val) :=
          le_RN_of_rep (by simpa using rep_int (m := -128) (by norm_num)) hq1
        generalize RN (x.val * LOG2_E.val) = Y at *
        have hYb : |Y| < 2 ^ 31 := by rw [abs_lt]; constructor <;> norm_num <;> linarith
        rcases le_or_gt Y (-1) with hc | hc
        · obtain ⟨P, G, e, fP, sP, -, -, -, p1, p2, -⟩ := exp_reduce hs ⟨fy, vy⟩ hYb
          obtain ⟨m1, hee⟩ := exp_poly_exponent p1 p2
          have hk : intPart Y ≤ -1 := intPart_le (by push_cast; exact hc)
          have hk2 : -512 < intPart Y := (abs_intPart_lt (by rw [abs_lt]; constructor <;> linarith)).1
          have hcl : max (-2 ^ 31) (min (2 ^ 31 - 1) (P.extractExponentValue + intPart Y)) = P.extractExponentValue + intPart Y := by
            have := extractExponentValue_range P; omega
          have hle : P.extractExponentValue + intPart Y ≤ -1 := by
            rcases hee with ⟨q, -⟩ | ⟨q, -⟩ <;> omega
          rw [expTail, hcl] at e
          by_cases hlt : P.extractExponentValue + intPart Y < -127
          · rw [if_pos hlt] at e
            exact ⟨_, e, by decide, z.ge, by rw [z]; norm_num⟩
          · rw [if_neg hlt, if_neg (by omega), setExponent_ok P (by omega) (by omega), sP] at e
            have hr : P.mag % 2 ^ 23 < 2 ^ 23 := Nat.mod_lt _ (by norm_num)
            have hmg : (P.extractExponentValue + intPart Y + 127).toNat * 2 ^ 23 + P.mag % 2 ^ 23 ≤ 127 * 2 ^ 23 := by omega
            have hi : infMag = 255 * 2 ^ 23 := by decide
            refine ⟨_, e, ?_, ?_, ?_⟩
            · rw [isFinite_iff, mag_pack _ (by omega)]; omega
            · rw [val_of_pos (sign_pack _ (by omega))]; exact mval_nonneg _
            · rw [val_of_pos (sign_pack _ (by omega)), mag_pack _ (by omega)]
              have := mval_le.2 hmg
              rw [mval_pow (k := 127) (by norm_num)] at this
              simpa using this
        · have hip : intPart Y = 0 := by
            have a := intPart_le (q := Y) (n := 0) (by push_cast; linarith)
            have b := lt_intPart (Y := Y) (n := -1) hY0 (by push_cast; linarith)
            omega
          have hY32 : |(x * LOG2_E).val| < 2 ^ 32 := by rw [vy]; exact hYb.trans (by norm_num)
          obtain ⟨⟨ft, vt⟩, -⟩ := C04_trunc _ hY32
          obtain ⟨⟨ff, vf⟩, -⟩ := C06_fract _ hY32
          rw [vy, hip] at vt vf
          have hk : (x * LOG2_E).trunc.toI32 = 0 := by
            rw [toI32_eq ft (by rw [vt]; norm_num) (by rw [vt]; norm_num), vt, truncQ_intCast]
          have hL : LN_2.val = 1453635 / 2097152 := val_LN_2
          rw [Int.cast_zero, sub_zero] at vf
          have g0 : Y * LN_2.val ≤ 0 := mul_nonpos_of_nonpos_of_nonneg hY0 (by rw [hL]; norm_num)
          have g1 : -LN_2.val ≤ Y * LN_2.val := by rw [hL] at *; linarith
          obtain ⟨fg, vg⟩ := mul_val ff fin_LN_2 (by
            rw [vf]
            exact lt_of_le_of_lt (b := 1) (by rw [abs_le, hL] at *; constructor <;> linarith) (by unfold ovf; norm_num))
          rw [vf] at vg
          have G0 : RN (Y * LN_2.val) ≤ 0 := RN_nonpos g0
          have G1 : -LN_2.val ≤ RN (Y * LN_2.val) := le_RN_of_rep (by rw [← val_neg]; exact rep_val _) g1
          have Gb : |((x * LOG2_E).fract * LN_2).val| ≤ 69315 / 100000 := by
            rw [vg, abs_le]; constructor <;> linarith
          have p1 := expSmallx_le_one fg (by rw [vg]; exact G0) Gb
          obtain ⟨fP, eP, -⟩ := expSmallx_err fg Gb
          obtain ⟨-, t1, -⟩ := T4_facts (g := (((x * LOG2_E).fract * LN_2).val : ℝ)) (by
            have := abs_cast_le Gb
            push_cast at this
            norm_num at this ⊢; linarith)
          rw [← T4Q_cast] at t1
          have t1' : (5005 / 10000 : ℚ) ≤ T4Q ((x * LOG2_E).fract * LN_2).val := by
            have : ((5005 / 10000 : ℚ) : ℝ) ≤ (T4Q ((x * LOG2_E).fract * LN_2).val : ℚ) := by push_cast; norm_num at t1 ⊢; linarith
            exact_mod_cast this
          have e1 := (abs_le.1 eP).1
          have e := exp_general hs
          rw [hk] at e
          generalize ((x * LOG2_E).fract * LN_2).expSmallx 4 = P at *
          have hp1 : 1 / 2 ≤ P.val := by norm_num at e1 t1'; linarith
          obtain ⟨m1, hee⟩ := exp_poly_exponent hp1 (by linarith)
          have hr : -1 ≤ P.extractExponentValue ∧ P.extractExponentValue ≤ 0 := by
            rcases hee with ⟨q, -⟩ | ⟨q, -⟩ <;> omega
          have hcl : max (-2 ^ 31) (min (2 ^ 31 - 1) (P.extractExponentValue + 0)) = P.extractExponentValue := by omega
          rw [expTail, hcl, if_neg (by omega), if_neg (by omega), setExponent_ok P (by omega) (by omega)] at e
          have hv := pack_exponent_val (e := P.extractExponentValue) (sign_of_pos (by linarith)) m1 (by omega) (by omega)
          rw [← extractExponentValue_eq, sub_self, zpow_zero, mul_one] at hv
          exact ⟨_, e, hv.1, by rw [hv.2]; linarith, by rw [hv.2]; exact p1⟩

/-- Both one-sided bounds apply at zero, and the bound applies at `-inf`. -/
example : ∃ r, negInf.exp = .ok r ∧ r.isFinite = true ∧ 0 ≤ r.val ∧ r.val ≤ 1 :=
  C102_exp_le_one (by decide) (by rw [val_inf (by decide)]; norm_num [show negInf.sign = true by decide])

end Micromath.Props
