import Verif.Props.Basics
import Verif.Props.Ln

/-!
# C160: linear interpolation with `mul_add`
-/

set_option exponentiation.threshold 1000

namespace Micromath.Props
open F32 Spec

variable [Cfg]

/-- `(b - a).mul_add(t, a)`. -/
def lerp (a b t : F32) : F32 := (b - a).mulAdd t a

/-- `b.mul_add(t, a * (1.0 - t))`. -/
def mix (a b t : F32) : F32 := b.mulAdd t (a * (one - t))

/-- `a` and `b` are finite and at most `2^120`. -/
def Moderate (a b : F32) : Prop := a.isFinite = true ∧ b.isFinite = true ∧ |a.val| ≤ 2 ^ 120 ∧ |b.val| ≤ 2 ^ 120

omit [Cfg] in
theorem RN_abs_le {q : ℚ} {e : ℤ} (he : -149 ≤ e) (h : |q| ≤ 2 ^ e) : |RN q| ≤ 2 ^ e := by
  obtain ⟨h1, h2⟩ := abs_le.1 h
  have hr := rep_pow he
  refine abs_le.2 ⟨le_RN_of_rep (by unfold Rep at *; rwa [abs_neg]) h1, RN_le_of_rep hr h2⟩

/-- What `lerp` computes. -/
theorem lerp_val {a b t : F32} (h : Moderate a b) (ht : t.isFinite = true) (t0 : 0 ≤ t.val) (t1 : t.val ≤ 1) :
    IsVal (lerp a b t) (RN (RN (RN (b.val - a.val) * t.val) + a.val)) := by
  obtain ⟨fa, fb, ba, bb⟩ := h
  have d1 : |b.val - a.val| ≤ 2 ^ (121 : ℤ) := (abs_sub _ _).trans (by norm_num at *; linarith)
  obtain ⟨f1, v1⟩ := sub_val fb fa (lt_of_le_of_lt d1 (by norm_num [ovf]))
  have d2 := RN_abs_le (by norm_num) d1
  have d3 : |RN (b.val - a.val) * t.val| ≤ 2 ^ (121 : ℤ) := by
    rw [abs_mul, abs_of_nonneg t0]
    exact (mul_le_of_le_one_right (abs_nonneg _) t1).trans d2
  obtain ⟨f2, v2⟩ := mul_val f1 ht (by rw [v1]; exact lt_of_le_of_lt d3 (by norm_num [ovf]))
  rw [v1] at v2
  have d4 := RN_abs_le (by norm_num) d3
  obtain ⟨f3, v3⟩ := add_val f2 fa (by
    rw [v2]
    refine lt_of_le_of_lt (abs_add_le _ _) ?_
    norm_num [ovf] at *; linarith)
  rw [v2] at v3
  exact ⟨f3, v3⟩

omit [Cfg] in
theorem RN_zero' : RN 0 = 0 := RN_of_rep (by simpa using rep_int (m := 0) (by norm_num))

/-- **C160.** `(b - a).mul_add(t, a)` is `a` at `t = 0`, never decreases in `t` for `a ≤ b` and never increases for `b ≤ a`:
an animation along it never jumps back. -/
theorem C160_lerp {a b s t : F32} (h : Moderate a b) (hs : s.isFinite = true) (ht : t.isFinite = true) (s0 : 0 ≤ s.val)
    (st : s.val ≤ t.val) (t1 : t.val ≤ 1) :
    (s.val = 0 → IsVal (lerp a b s) a.val) ∧
    (a.val ≤ b.val → a.val ≤ (lerp a b s).val ∧ (lerp a b s).val ≤ (lerp a b t).val) ∧
    (b.val ≤ a.val → (lerp a b s).val ≤ a.val ∧ (lerp a b t).val ≤ (lerp a b s).val) := by
  obtain ⟨fs, vs⟩ := lerp_val h hs s0 (st.trans t1)
  obtain ⟨ft, vt⟩ := lerp_val h ht (s0.trans st) t1
  refine ⟨fun h0 => ⟨fs, ?_⟩, fun hab => ?_, fun hab => ?_⟩
  · rw [vs, h0, mul_zero, RN_zero', zero_add, RN_of_rep (rep_val a)]
  · have d : 0 ≤ RN (b.val - a.val) := RN_nonneg (by linarith)
    rw [vs, vt]
    refine ⟨le_RN_of_rep (rep_val a) ?_, RN_mono ?_⟩
    · have := RN_nonneg (mul_nonneg d s0); linarith
    · have := RN_mono (mul_le_mul_of_nonneg_left st d); linarith
  · have d : RN (b.val - a.val) ≤ 0 := by
      have := RN_mono (show b.val - a.val ≤ 0 by linarith); rwa [RN_zero'] at this
    rw [vs, vt]
    refine ⟨RN_le_of_rep (rep_val a) ?_, RN_mono ?_⟩
    · have := RN_mono (mul_nonpos_of_nonpos_of_nonneg d s0); rw [RN_zero'] at this; linarith
    · have := RN_mono (mul_le_mul_of_nonpos_left st d); linarith

/-- **C160.** At `t = 1` it is not always `b`: from `-2^24` to `1` it ends at `0`. -/
theorem C160_end_false : lerp ⟨0xcb800000#32⟩ ⟨0x3f800000#32⟩ ⟨0x3f800000#32⟩ = posZero :=
  eval_eq (n := 0) (by kernel_rfl)

/-- **C160.** It does end at `b` if `b - a` is representable, for instance if `a` and `b` are within a factor of two of each
other (`sterbenz`). -/
theorem C160_end {a b t : F32} (h : Moderate a b) (ht : IsVal t 1) (he : Rep (b.val - a.val)) : IsVal (lerp a b t) b.val := by
  obtain ⟨f, v⟩ := lerp_val h ht.1 (by rw [ht.2]; norm_num) (by rw [ht.2])
  refine ⟨f, ?_⟩
  rw [v, ht.2, mul_one, RN_of_rep he, RN_of_rep he, sub_add_cancel, RN_of_rep (rep_val b)]

/-- **C160.** Hence it ends at `b` if neither of the ends is more than twice the other. -/
theorem C160_end_near {a b t : F32} (h : Moderate a b) (ht : IsVal t 1) (h1 : b.val ≤ 2 * a.val) (h2 : a.val ≤ 2 * b.val) :
    IsVal (lerp a b t) b.val := C160_end h ht (sterbenz h1 h2)

omit [Cfg] in
theorem rn_err {q B : ℚ} (hB : |q| ≤ B) : |RN q - q| ≤ B / 2 ^ 24 + 1 / 2 ^ 150 := by
  have hp := abs_nonneg q
  refine (RN_err q).trans (max_le ?_ ?_)
  · have : 0 ≤ B / 2 ^ 24 := div_nonneg (hp.trans hB) (by norm_num)
    linarith
  · have : |q| / 2 ^ 24 ≤ B / 2 ^ 24 := by gcongr
    have : (0 : ℚ) ≤ 1 / 2 ^ 150 := by norm_num
    linarith

/-- **C160.** Between the ends it is within `2.4e-7 (|a| + |b|)` of the exact interpolation `a + t (b - a)`. -/
theorem C160_lerp_error {a b t : F32} (h : Moderate a b) (ht : t.isFinite = true) (t0 : 0 ≤ t.val) (t1 : t.val ≤ 1) :
    |(lerp a b t).val - (a.val + t.val * (b.val - a.val))| ≤ 2.4 / 10 ^ 7 * (|a.val| + |b.val|) + 1 / 2 ^ 147 := by
  obtain ⟨-, v⟩ := lerp_val h ht t0 t1
  rw [v]
  set A := |a.val| with hA
  set B := |b.val| with hB
  have A0 : 0 ≤ A := abs_nonneg _
  have B0 : 0 ≤ B := abs_nonneg _
  have d : |b.val - a.val| ≤ A + B := (abs_sub _ _).trans (by linarith)
  have e1 := rn_err d
  set u := RN (b.val - a.val)
  have hu : |u| ≤ (A + B) * (1 + 1 / 2 ^ 24) + 1 / 2 ^ 150 := by
    have := abs_add_le (u - (b.val - a.val)) (b.val - a.val)
    rw [sub_add_cancel] at this; linarith
  have hut : |u * t.val| ≤ (A + B) * (1 + 1 / 2 ^ 24) + 1 / 2 ^ 150 := by
    rw [abs_mul, abs_of_nonneg t0]; exact (mul_le_of_le_one_right (abs_nonneg _) t1).trans hu
  have e2 := rn_err hut
  set w := RN (u * t.val)
  have hw : |w + a.val| ≤ (A + B) * (2 + 1 / 2 ^ 20) + 1 / 2 ^ 148 := by
    have h1 := abs_add_le (w - u * t.val) (u * t.val)
    rw [sub_add_cancel] at h1
    have h2 := abs_add_le w a.val
    norm_num at *; linarith
  have e3 := rn_err hw
  have e4 : |u * t.val - (b.val - a.val) * t.val| ≤ (A + B) / 2 ^ 24 + 1 / 2 ^ 150 := by
    rw [← sub_mul, abs_mul, abs_of_nonneg t0]; exact (mul_le_of_le_one_right (abs_nonneg _) t1).trans e1
  have key : RN (w + a.val) - (a.val + t.val * (b.val - a.val)) =
      (RN (w + a.val) - (w + a.val)) + ((w - u * t.val) + (u * t.val - (b.val - a.val) * t.val)) := by ring
  rw [key]
  have h1 := abs_add_le (RN (w + a.val) - (w + a.val)) ((w - u * t.val) + (u * t.val - (b.val - a.val) * t.val))
  have h2 := abs_add_le (w - u * t.val) (u * t.val - (b.val - a.val) * t.val)
  norm_num at *; linarith

/-- **C160.** `b.mul_add(t, a * (1 - t))` hits both ends exactly, for all finite `a` and `b`. -/
theorem C160_mix {a b t : F32} (ha : a.isFinite = true) (hb : b.isFinite = true) :
    (IsVal t 0 → IsVal (mix a b t) a.val) ∧ (IsVal t 1 → IsVal (mix a b t) b.val) := by
  have h1 : IsVal one 1 := ⟨by decide, by rw [val_of_units (u := 2 ^ 149) (by decide +kernel)]; norm_num⟩
  have r1 : Rep 1 := by simpa using rep_int (m := 1) (by norm_num)
  have o : ∀ {x : F32}, x.isFinite = true → |x.val| < ovf := fun h => abs_val_lt_ovf h
  have o0 : |(0 : ℚ)| < ovf := by norm_num [ovf]
  have o1 : |(1 : ℚ)| < ovf := by norm_num [ovf]
  unfold mix mulAdd
  constructor
  · intro ht
    obtain ⟨f1, v1⟩ := sub_val h1.1 ht.1 (by rw [h1.2, ht.2, sub_zero]; exact o1)
    rw [h1.2, ht.2, sub_zero, RN_of_rep r1] at v1
    obtain ⟨f2, v2⟩ := mul_val ha f1 (by rw [v1, mul_one]; exact o ha)
    rw [v1, mul_one, RN_of_rep (rep_val a)] at v2
    obtain ⟨f3, v3⟩ := mul_val hb ht.1 (by rw [ht.2, mul_zero]; exact o0)
    rw [ht.2, mul_zero, RN_zero'] at v3
    obtain ⟨f4, v4⟩ := add_val f3 f2 (by rw [v3, v2, zero_add]; exact o ha)
    exact ⟨f4, by rw [v4, v3, v2, zero_add, RN_of_rep (rep_val a)]⟩
  · intro ht
    obtain ⟨f1, v1⟩ := sub_val h1.1 ht.1 (by rw [h1.2, ht.2, sub_self]; exact o0)
    rw [h1.2, ht.2, sub_self, RN_zero'] at v1
    obtain ⟨f2, v2⟩ := mul_val ha f1 (by rw [v1, mul_zero]; exact o0)
    rw [v1, mul_zero, RN_zero'] at v2
    obtain ⟨f3, v3⟩ := mul_val hb ht.1 (by rw [ht.2, mul_one]; exact o hb)
    rw [ht.2, mul_one, RN_of_rep (rep_val b)] at v3
    obtain ⟨f4, v4⟩ := add_val f3 f2 (by rw [v3, v2, add_zero]; exact o hb)
    exact ⟨f4, by rw [v4, v3, v2, add_zero, RN_of_rep (rep_val b)]⟩

/-- The hypotheses hold from `-3` to `5` at `1/4`, where the result is `-1`. -/
example : Moderate (ofInt (-3)) (ofInt 5) ∧ lerp (ofInt (-3)) (ofInt 5) ⟨0x3e800000#32⟩ = ofInt (-1) := by
  obtain ⟨a, b⟩ := ofInt_isVal (n := -3) (by decide)
  obtain ⟨c, d⟩ := ofInt_isVal (n := 5) (by decide)
  refine ⟨⟨a, c, by rw [b]; norm_num [abs_of_pos], by rw [d]; norm_num [abs_of_pos]⟩, ?_⟩
  exact (eval_eq (n := 0xbf800000) (by kernel_rfl)).trans (eval_eq (n := 0xbf800000) (by kernel_rfl)).symm

end Micromath.Props
