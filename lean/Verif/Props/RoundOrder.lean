import Verif.Props.Rounding
import Verif.Props.TruncFract
import Verif.Props.Basics

/-!
# Order and projection laws of `floor`, `ceil`, `round`, `trunc`

For every pair of non-NaN floats (infinities and the saturated range included).
-/

set_option exponentiation.threshold 1000

namespace Micromath.Props
open F32 Spec
variable [Cfg]

/-- The value of `floor` on every non-NaN float; an infinity has `val` `±2^128`. -/
theorem floor_total {x : F32} (hx : x.isNaN = false) :
    IsVal x.floor (max (-2 ^ 31) (min (2 ^ 31) ⌊x.val⌋) : Int) := by
  have hi : ∀ q : ℚ, (2 : ℚ) ^ 31 ≤ q → max (-2 ^ 31) (min (2 ^ 31) ⌊q⌋) = 2 ^ 31 := by
    intro q h
    have : (2 : Int) ^ 31 ≤ ⌊q⌋ := Int.le_floor.2 (by exact_mod_cast h)
    omega
  have lo : ∀ q : ℚ, q ≤ -2 ^ 31 → max (-2 ^ 31) (min (2 ^ 31) ⌊q⌋) = -2 ^ 31 := by
    intro q h
    have : ⌊q⌋ ≤ -2 ^ 31 := by
      have := Int.floor_le q
      have h2 : ((⌊q⌋ : Int) : ℚ) ≤ ((-2 ^ 31 : Int) : ℚ) := by push_cast; linarith
      exact_mod_cast h2
    omega
  rcases class_cases x with f | f | f
  · rcases le_or_gt ((2 : ℚ) ^ 31) x.val with h | h
    · rw [hi _ h, (C10_saturation x).1 f h |>.1]
      exact_mod_cast val_4f
    · rcases le_or_gt x.val (-2 ^ 31) with h' | h'
      · rw [lo _ h', ((C10_saturation x).2.1 f h').1]
        exact_mod_cast val_cf
      · have e : max (-2 ^ 31) (min (2 ^ 31) ⌊x.val⌋) = ⌊x.val⌋ := by
          have h1 : -2 ^ 31 ≤ ⌊x.val⌋ := Int.le_floor.2 (by push_cast; linarith)
          have h2 : ⌊x.val⌋ < 2 ^ 31 := Int.floor_lt.2 (by push_cast; linarith)
          omega
        rw [e]
        exact floor_isVal f h'.le h
  · have hv := val_inf f
    have hp := eq_pack_of_inf f
    cases hs : x.sign
    · rw [hs] at hv
      rw [hs, show (pack false infMag) = posInf by decide] at hp
      rw [hi _ (by rw [hv]; norm_num), ((C10_saturation x).2.2.1 hp).1]
      exact_mod_cast val_4f
    · rw [hs] at hv
      rw [hs, show (pack true infMag) = negInf by decide] at hp
      rw [lo _ (by rw [hv]; norm_num), ((C10_saturation x).2.2.2.1 hp).1]
      exact_mod_cast val_cf
  · rw [hx] at f; exact absurd f (by simp)

theorem ceil_total {x : F32} (hx : x.isNaN = false) :
    IsVal x.ceil (max (-2 ^ 31) (min (2 ^ 31) ⌈x.val⌉) : Int) := by
  obtain ⟨h1, h2⟩ := floor_total (x := -x) (by simpa using hx)
  refine ⟨by rw [F32.ceil]; simpa using h1, ?_⟩
  rw [F32.ceil, val_neg, h2, val_neg, Int.floor_neg, ← Int.cast_neg]
  congr 1
  omega

/-- What `round` computes from the magnitude. -/
def rmag (q : ℚ) : Int := min (2 ^ 31) ⌊RN (q + 1 / 2)⌋

omit [Cfg] in
theorem rmag_mono {p q : ℚ} (h : p ≤ q) : rmag p ≤ rmag q :=
  min_le_min le_rfl (Int.floor_le_floor (RN_mono (by linarith)))

omit [Cfg] in
theorem rmag_nonneg {q : ℚ} (h : 0 ≤ q) : 0 ≤ rmag q :=
  le_min (by norm_num) (Int.floor_nonneg.2 (RN_nonneg (by linarith)))

theorem round_total {x : F32} (hx : x.isNaN = false) :
    IsVal x.round (if x.sign then -rmag |x.val| else rmag |x.val| : Int) := by
  have hi : ∀ q : ℚ, (2 : ℚ) ^ 31 ≤ q → rmag q = 2 ^ 31 := by
    intro q h
    have : (2 : Int) ^ 31 ≤ ⌊RN (q + 1 / 2)⌋ := Int.le_floor.2 (by
      have := le_RN_of_rep (q := q + 1 / 2) (by exact_mod_cast rep_pow (e := 31) (by norm_num)) (by linarith : (2:ℚ)^31 ≤ _)
      exact_mod_cast this)
    rw [rmag]; omega
  rcases class_cases x with f | f | f
  · rcases lt_or_ge |x.val| ((2 : ℚ) ^ 31) with h | h
    · have hr := round_val f h
      have e : rmag |x.val| = ⌊RN (|x.val| + 1 / 2)⌋ := by
        rw [rmag, min_eq_right]
        have hle : RN (|x.val| + 1 / 2) ≤ 2 ^ 31 := RN_le_of_rep (by exact_mod_cast rep_pow (e := 31) (by norm_num)) (by
          rcases le_or_gt ((2 : ℚ) ^ 23) |x.val| with h5 | h5
          · obtain ⟨z, hz⟩ := val_int_of_large h5
            rw [hz, ← Int.cast_abs] at h ⊢
            have h6 : |z| < 2 ^ 31 := by exact_mod_cast h
            have h7 : ((|z| : Int) : ℚ) ≤ ((2 ^ 31 - 1 : Int) : ℚ) := by exact_mod_cast (by omega : |z| ≤ 2 ^ 31 - 1)
            push_cast at h7 ⊢
            linarith
          · linarith)
        have := Int.floor_le_floor hle
        have e2 : ⌊(2 : ℚ) ^ 31⌋ = 2 ^ 31 := by
          rw [show ((2 : ℚ) ^ 31) = ((2 ^ 31 : Int) : ℚ) by norm_num, Int.floor_intCast]
        omega
      rw [e]
      cases hs : x.sign <;> rw [hs] at hr <;> simpa using hr
    · cases hs : x.sign
      · have h' : 2 ^ 31 ≤ x.val := by
          rwa [val_of_pos hs, ← abs_val]
        rw [hi _ h, ((C10_saturation x).1 f h').2.2]
        exact_mod_cast val_4f
      · have h' : x.val ≤ -2 ^ 31 := by
          rw [val_of_neg hs, ← abs_val]; linarith
        rw [hi _ h, ((C10_saturation x).2.1 f h').2.2]
        exact_mod_cast val_cf
  · have hv := val_inf f
    have ha : |x.val| = 2 ^ 128 := by
      rw [hv]; split <;> norm_num
    rw [hi _ (by rw [ha]; norm_num)]
    have hp := eq_pack_of_inf f
    cases hs : x.sign
    · rw [hs, show (pack false infMag) = posInf by decide] at hp
      rw [((C10_saturation x).2.2.1 hp).2.2]
      exact_mod_cast val_4f
    · rw [hs, show (pack true infMag) = negInf by decide] at hp
      rw [((C10_saturation x).2.2.2.1 hp).2.2]
      exact_mod_cast val_cf
  · rw [hx] at f; exact absurd f (by simp)

omit [Cfg] in
theorem le_val_iff {x y : F32} (hx : x.isNaN = false) (hy : y.isNaN = false) : x.le y = true ↔ x.val ≤ y.val := by
  simp [le, hx, hy, key_le_iff]

omit [Cfg] in
theorem nan_of_le {x y : F32} (h : x.le y = true) : x.isNaN = false ∧ y.isNaN = false := by
  simp [le] at h
  exact ⟨h.1.1, h.1.2⟩

/-- **C101, monotone.** On every pair of floats with `x <= y` (hence not NaN): infinities, the saturated range and the
exceptional arguments of `round` included. -/
theorem C101_monotone {x y : F32} (h : x.le y = true) :
    x.floor.le y.floor = true ∧ x.ceil.le y.ceil = true ∧ x.round.le y.round = true := by
  obtain ⟨hx, hy⟩ := nan_of_le h
  have hv := (le_val_iff hx hy).1 h
  refine ⟨?_, ?_, ?_⟩
  · obtain ⟨a1, a2⟩ := floor_total hx
    obtain ⟨b1, b2⟩ := floor_total hy
    rw [le_iff a1 b1, a2, b2, Int.cast_le]
    have := Int.floor_le_floor hv
    omega
  · obtain ⟨a1, a2⟩ := ceil_total hx
    obtain ⟨b1, b2⟩ := ceil_total hy
    rw [le_iff a1 b1, a2, b2, Int.cast_le]
    have := Int.ceil_le_ceil hv
    omega
  · obtain ⟨a1, a2⟩ := round_total hx
    obtain ⟨b1, b2⟩ := round_total hy
    rw [le_iff a1 b1, a2, b2, Int.cast_le]
    have nx := rmag_nonneg (abs_nonneg x.val)
    have ny := rmag_nonneg (abs_nonneg y.val)
    cases hs : x.sign <;> cases ht : y.sign
    · rw [if_neg (by simp), if_neg (by simp)]
      refine rmag_mono ?_
      rw [abs_val, abs_val, ← val_of_pos hs, ← val_of_pos ht]
      exact hv
    · -- both are zeros
      have h1 : 0 ≤ x.val := by rw [val_of_pos hs]; exact mval_nonneg _
      have h2 : y.val ≤ 0 := by rw [val_of_neg ht]; linarith [mval_nonneg y.mag]
      have e1 : x.val = 0 := by linarith
      have e2 : y.val = 0 := by linarith
      have e3 : rmag 0 = 0 := by
        have : RN (0 + 1 / 2) = 1 / 2 := by
          rw [zero_add]; exact RN_of_rep (by
          have := rep_pow (e := -1) (by norm_num)
          norm_num at this ⊢
          exact this)
        rw [rmag, this]
        norm_num
      rw [e1, e2, abs_zero, e3]
      simp
    · rw [if_pos rfl, if_neg (by simp)]
      omega
    · rw [if_pos rfl, if_pos rfl]
      have : rmag |y.val| ≤ rmag |x.val| := by
        refine rmag_mono ?_
        rw [abs_val, abs_val]
        have h1 := val_of_neg hs
        have h2 := val_of_neg ht
        linarith
      omega

/-- Equal arguments up to rounding direction: `1.5 <= 2.5` and the results are `1 <= 2`, `2 <= 3`, `2 <= 3`. -/
example : (⟨0x3fc00000#32⟩ : F32).le ⟨0x40200000#32⟩ = true := by decide

omit [Cfg] in
/-- **C101, `trunc` is monotone** below `2^32`. -/
theorem C101_trunc_monotone {x y : F32} (h : x.le y = true) (hx : |x.val| < 2 ^ 32) (hy : |y.val| < 2 ^ 32) :
    x.trunc.le y.trunc = true := by
  obtain ⟨nx, ny⟩ := nan_of_le h
  have hv := (le_val_iff nx ny).1 h
  obtain ⟨⟨a1, a2⟩, -⟩ := C04_trunc x hx
  obtain ⟨⟨b1, b2⟩, -⟩ := C04_trunc y hy
  rw [le_iff a1 b1, a2, b2, Int.cast_le]
  unfold intPart
  split <;> split
  · exact Int.floor_le_floor hv
  · linarith
  · rename_i h1 h2
    have h3 : ⌈x.val⌉ ≤ 0 := Int.ceil_le.2 (by push_cast; linarith)
    have h4 := Int.floor_nonneg.2 h2
    omega
  · exact Int.ceil_le_ceil hv

/-- **C101, idempotent.** For every bit pattern (NaN included, on which `floor`, `ceil`, `round` return a zero and
`trunc` an infinity) a second application changes nothing; for `trunc` bit for bit. -/
theorem C101_idempotent (x : F32) :
    x.floor.floor.feq x.floor = true ∧ x.ceil.ceil.feq x.ceil = true ∧ x.trunc.trunc = x.trunc := by
  have hc : ∀ n : Int, max (-2 ^ 31) (min (2 ^ 31) (max (-2 ^ 31) (min (2 ^ 31) n))) = max (-2 ^ 31) (min (2 ^ 31) n) := by
    intro n; omega
  refine ⟨?_, ?_, ?_⟩
  · cases hx : x.isNaN
    · obtain ⟨a1, a2⟩ := floor_total hx
      obtain ⟨b1, b2⟩ := floor_total (not_nan_of_finite a1)
      rw [feq_iff b1 a1, b2, a2, Int.floor_intCast, hc]
    · rw [((C10_saturation x).2.2.2.2 hx).1]
      kernel_rfl
  · cases hx : x.isNaN
    · obtain ⟨a1, a2⟩ := ceil_total hx
      obtain ⟨b1, b2⟩ := ceil_total (not_nan_of_finite a1)
      rw [feq_iff b1 a1, b2, a2, Int.ceil_intCast, hc]
    · rw [((C10_saturation x).2.2.2.2 hx).2.1]
      kernel_rfl
  · have hm := mag_lt x
    rw [trunc_eq x]
    split
    · rename_i h
      rw [trunc_eq, mag_pack _ (by norm_num), sign_pack _ (by norm_num), if_pos (by norm_num)]
    · rename_i h
      generalize hk : 23 - (x.mag / 2 ^ 23 - 127) % 32 = k
      have hk23 : k ≤ 23 := by omega
      have hlt : x.mag % 2 ^ k < 2 ^ k := Nat.mod_lt _ (by positivity)
      have hle : x.mag % 2 ^ k ≤ x.mag % 2 ^ 23 := by
        rw [← Nat.mod_mod_of_dvd x.mag (pow_dvd_pow 2 hk23)]
        exact Nat.mod_le _ _
      have hd : (x.mag - x.mag % 2 ^ k) / 2 ^ 23 = x.mag / 2 ^ 23 := by omega
      have h0 : (x.mag - x.mag % 2 ^ k) % 2 ^ k = 0 := by
        have := Nat.div_add_mod x.mag (2 ^ k)
        have e : x.mag - x.mag % 2 ^ k = 2 ^ k * (x.mag / 2 ^ k) := by omega
        rw [e, Nat.mul_mod_right]
      rw [trunc_eq, mag_pack _ (by omega), sign_pack _ (by omega), hd, if_neg h, hk, h0, Nat.sub_zero]

/-- **C101, `round` is a projection onto the floats it returns except for odd integers from `2^23` on** (where `round`
moves an integer, C11): a second application changes nothing if the first result is below `2^23`. -/
theorem C101_round_idempotent (x : F32) (h : |x.round.val| < 2 ^ 23) : x.round.round.feq x.round = true := by
  cases hx : x.isNaN
  · obtain ⟨a1, a2⟩ := round_total hx
    obtain ⟨b1, b2⟩ := round_total (not_nan_of_finite a1)
    rw [feq_iff b1 a1, b2]
    generalize hn : (if x.sign = true then -rmag |x.val| else rmag |x.val|) = n at a2
    rw [a2, ← Int.cast_abs] at h ⊢
    have h1 : |n| < 2 ^ 23 := by exact_mod_cast h
    have hr : rmag ((|n| : Int) : ℚ) = |n| := by
      have hnn := abs_nonneg n
      have e : RN ((|n| : Int) + 1 / 2) = (|n| : Int) + 1 / 2 := RN_of_rep (by
        have := rep_zpow (m := 2 * |n| + 1) (e := -1) (by omega) (by norm_num)
        have e2 : ((|n| : Int) : ℚ) + 1 / 2 = ((2 * |n| + 1 : Int) : ℚ) * 2 ^ (-1 : Int) := by
          push_cast; ring
        rw [e2]; exact this)
      have e3 : ⌊((|n| : Int) : ℚ) + 1 / 2⌋ = |n| := by
        rw [Int.floor_eq_iff]; constructor <;> linarith
      rw [rmag, e, e3]
      omega
    rw [hr, Int.cast_inj]
    cases hs : x.round.sign
    · have h2 : 0 ≤ x.round.val := by rw [val_of_pos hs]; exact mval_nonneg _
      rw [a2] at h2
      have h3 : 0 ≤ n := by exact_mod_cast h2
      rw [if_neg (by simp), abs_of_nonneg h3]
    · have h2 : x.round.val ≤ 0 := by rw [val_of_neg hs]; linarith [mval_nonneg x.round.mag]
      rw [a2] at h2
      have h3 : n ≤ 0 := by exact_mod_cast h2
      rw [if_pos rfl, abs_of_nonpos h3, neg_neg]
  · rw [((C10_saturation x).2.2.2.2 hx).2.2]
    kernel_rfl

/-- **C101, how the four are ordered.** For `|x| <= 2^31`, and for `round` where it is exact (`|x| < 2^23`). -/
theorem C101_order {x : F32} (hx : x.isFinite = true) (h : |x.val| ≤ 2 ^ 31) :
    x.floor.le x = true ∧ x.le x.ceil = true ∧ x.floor.le x.trunc = true ∧ x.trunc.le x.ceil = true ∧
    x.ceil.val - x.floor.val = (if x.val = ⌊x.val⌋ then 0 else 1) ∧
    (|x.val| ≤ 2 ^ 23 - 1 → x.floor.le x.round = true ∧ x.round.le x.ceil = true) := by
  have hn := not_nan_of_finite hx
  obtain ⟨f1, f2⟩ := floor_total hn
  obtain ⟨c1, c2⟩ := ceil_total hn
  obtain ⟨h1, h2⟩ := abs_le.1 h
  have ef : max (-2 ^ 31) (min (2 ^ 31) ⌊x.val⌋) = ⌊x.val⌋ := by
    have a : -2 ^ 31 ≤ ⌊x.val⌋ := Int.le_floor.2 (by push_cast; linarith)
    have b : ⌊x.val⌋ ≤ 2 ^ 31 := by
      have h3 : ((⌊x.val⌋ : Int) : ℚ) ≤ ((2 ^ 31 : Int) : ℚ) := by push_cast; linarith [Int.floor_le x.val]
      exact_mod_cast h3
    omega
  have ec : max (-2 ^ 31) (min (2 ^ 31) ⌈x.val⌉) = ⌈x.val⌉ := by
    have a : ⌈x.val⌉ ≤ 2 ^ 31 := Int.ceil_le.2 (by push_cast; linarith)
    have b : -2 ^ 31 ≤ ⌈x.val⌉ := by
      have h3 : ((-2 ^ 31 : Int) : ℚ) ≤ ((⌈x.val⌉ : Int) : ℚ) := by push_cast; linarith [Int.le_ceil x.val]
      exact_mod_cast h3
    omega
  rw [ef] at f2
  rw [ec] at c2
  obtain ⟨⟨t1, t2⟩, -⟩ := C04_trunc x (lt_of_le_of_lt h (by norm_num))
  have hfc : ⌊x.val⌋ ≤ ⌈x.val⌉ := Int.floor_le_ceil _
  refine ⟨?_, ?_, ?_, ?_, ?_, ?_⟩
  · rw [le_iff f1 hx, f2]; exact Int.floor_le _
  · rw [le_iff hx c1, c2]; exact Int.le_ceil _
  · rw [le_iff f1 t1, f2, t2, Int.cast_le]
    unfold intPart; split <;> omega
  · rw [le_iff t1 c1, c2, t2, Int.cast_le]
    unfold intPart; split <;> omega
  · rw [c2, f2]
    split
    · rename_i h3
      have : ⌈x.val⌉ = ⌊x.val⌋ := by rw [h3, Int.ceil_intCast, Int.floor_intCast]
      rw [this]; ring
    · rename_i h3
      have : ⌈x.val⌉ = ⌊x.val⌋ + 1 := by
        rw [Int.ceil_eq_iff]
        have a := Int.floor_le x.val
        have b := Int.lt_floor_add_one x.val
        have c : (⌊x.val⌋ : ℚ) < x.val := lt_of_le_of_ne a (Ne.symm h3)
        push_cast
        constructor <;> linarith
      rw [this]; push_cast; ring
  · intro hs
    obtain ⟨r1, r2⟩ := round_total hn
    have key : ∀ q : ℚ, 0 ≤ q → q ≤ 2 ^ 23 - 1 → ⌊q⌋ ≤ rmag q ∧ rmag q ≤ ⌈q⌉ := by
      intro q h0 hq
      have hf0 := Int.floor_nonneg.2 h0
      have hc1 : ⌈q⌉ ≤ 2 ^ 23 - 1 := Int.ceil_le.2 (by push_cast; linarith)
      have hfc := Int.floor_le_ceil q
      constructor
      · refine le_min (by omega) (Int.le_floor.2 ?_)
        refine le_RN_of_rep (rep_int (by omega)) ?_
        linarith [Int.floor_le q]
      · refine (min_le_right _ _).trans ?_
        have e : RN ((⌈q⌉ : Int) + 1 / 2) = (⌈q⌉ : Int) + 1 / 2 := RN_of_rep (by
          have := rep_zpow (m := 2 * ⌈q⌉ + 1) (e := -1) (by omega) (by norm_num)
          have e2 : ((⌈q⌉ : Int) : ℚ) + 1 / 2 = ((2 * ⌈q⌉ + 1 : Int) : ℚ) * 2 ^ (-1 : Int) := by
            push_cast; ring
          rw [e2]; exact this)
        have hm : RN (q + 1 / 2) ≤ (⌈q⌉ : Int) + 1 / 2 := by
          rw [← e]; exact RN_mono (by linarith [Int.le_ceil q])
        have := Int.floor_le_floor hm
        have e3 : ⌊((⌈q⌉ : Int) : ℚ) + 1 / 2⌋ = ⌈q⌉ := by
          rw [Int.floor_eq_iff]; constructor <;> linarith
        omega
    obtain ⟨k1, k2⟩ := key |x.val| (abs_nonneg _) hs
    rw [le_iff f1 r1, le_iff r1 c1, f2, c2, r2, Int.cast_le, Int.cast_le]
    cases hsg : x.sign
    · have : |x.val| = x.val := by rw [abs_val, val_of_pos hsg]
      rw [this] at k1 k2 ⊢
      rw [if_neg (by simp)]
      exact ⟨k1, k2⟩
    · have : |x.val| = -x.val := by rw [abs_val, val_of_neg hsg]; ring
      rw [this, Int.floor_neg] at k1
      rw [this, Int.ceil_neg] at k2
      rw [this, if_pos rfl]
      omega

/-- `-1.5`: floor `-2`, trunc `-1`, ceil `-1`. -/
example : (⟨0xbfc00000#32⟩ : F32).isFinite = true ∧ |(⟨0xbfc00000#32⟩ : F32).val| ≤ 2 ^ 31 :=
  ⟨by decide, by rw [val_of_units (u := -3 * 2 ^ 148) (by decide +kernel)]; norm_num⟩

end Micromath.Props
