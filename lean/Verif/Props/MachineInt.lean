import Mathlib.Data.Int.ModEq
import Mathlib.Tactic.Ring
import Mathlib.Tactic.Linarith
import Verif.Model.Component
import Verif.Spec.Basic

/-!
# Facts about machine integers used by the vector properties
-/

namespace Micromath.Props
open Spec

variable {s : Bool} {w : Nat}

theorem ofInt_toInt (x : MInt s w) : BitVec.ofInt w x.toInt = x.bits := by
  unfold MInt.toInt
  split
  · exact BitVec.ofInt_toInt
  · rw [BitVec.ofInt_natCast, BitVec.ofNat_toNat, BitVec.setWidth_eq]

theorem wrap_toInt (x : MInt s w) : MInt.wrap x.toInt = x := by
  rw [MInt.wrap, ofInt_toInt]

theorem toInt_inj {x y : MInt s w} (h : x.toInt = y.toInt) : x = y := by
  rw [← wrap_toInt x, ← wrap_toInt y, h]

theorem wrap_mod (v : Int) : (MInt.wrap v : MInt s w).toInt ≡ v [ZMOD 2 ^ w] := by
  unfold MInt.toInt MInt.wrap
  split
  · rw [BitVec.toInt_ofInt]
    have := Int.bmod_emod (x := v) (m := 2 ^ w)
    unfold Int.ModEq
    exact_mod_cast this
  · rw [BitVec.toNat_ofInt]
    have h2 : (0 : Int) < 2 ^ w := by positivity
    have h0 : 0 ≤ v % ((2 ^ w : Nat) : Int) := Int.emod_nonneg _ (by push_cast; omega)
    rw [Int.toNat_of_nonneg h0]
    push_cast
    exact Int.mod_modEq _ _

theorem toInt_inRange (_hw : 0 < w) (x : MInt s w) : MInt.InRange s w x.toInt := by
  unfold MInt.InRange MInt.toInt
  split
  · exact ⟨BitVec.le_toInt _, BitVec.toInt_lt⟩
  · refine ⟨by positivity, ?_⟩
    exact_mod_cast x.bits.isLt

theorem inRange_unique {u v : Int} (hw : 0 < w) (hu : MInt.InRange s w u) (hv : MInt.InRange s w v)
    (h : u ≡ v [ZMOD 2 ^ w]) : u = v := by
  obtain ⟨k, hk⟩ := h.dvd
  have hp : (2 : Int) ^ w = 2 * 2 ^ (w - 1) := by
    rw [← pow_succ']; congr 1; omega
  have hpos : (0 : Int) < 2 ^ (w - 1) := by positivity
  unfold MInt.InRange at hu hv
  have hk0 : k = 0 := by
    cases s
    · rw [if_neg (by simp)] at hu hv
      by_contra hne
      rcases lt_or_gt_of_ne hne with h | h <;> nlinarith
    · rw [if_pos rfl] at hu hv
      by_contra hne
      rcases lt_or_gt_of_ne hne with h | h <;> nlinarith
  rw [hk0] at hk; omega

theorem wrap_exact (hw : 0 < w) {v : Int} (h : MInt.InRange s w v) : (MInt.wrap v : MInt s w).toInt = v :=
  inRange_unique hw (toInt_inRange hw _) h (wrap_mod v)

theorem wrap_eq_iff {u v : Int} : (MInt.wrap u : MInt s w) = MInt.wrap v ↔ u ≡ v [ZMOD 2 ^ w] := by
  constructor
  · intro h
    have h1 := wrap_mod (s := s) (w := w) u
    rw [h] at h1
    exact h1.symm.trans (wrap_mod v)
  · intro h
    obtain ⟨k, hk⟩ := h.dvd
    have hz : BitVec.ofInt w (2 ^ w : Int) = 0#w := by
      apply BitVec.eq_of_toNat_eq
      rw [BitVec.toNat_ofInt]; simp
    unfold MInt.wrap
    rw [show v = u + 2 ^ w * k by omega, BitVec.ofInt_add, BitVec.ofInt_mul, hz]
    simp

variable [Cfg]

/-- The outcome of a checked operation with exact result `v`: in range, it is `v`; out of range, it panics with
overflow checks and wraps without. -/
theorem chk_spec (hw : 0 < w) (v : Int) :
    (MInt.InRange s w v → ∃ z : MInt s w, MInt.chk v = .ok z ∧ z.toInt = v) ∧
    (¬ MInt.InRange s w v → Cfg.overflowChecks = true → (MInt.chk v : Res (MInt s w)) = .error .overflow) ∧
    (Cfg.overflowChecks = false → (MInt.chk v : Res (MInt s w)) = .ok (MInt.wrap v)) := by
  refine ⟨fun h => ⟨MInt.wrap v, by rw [MInt.chk, if_pos h], wrap_exact hw h⟩, fun h hc => ?_, fun hc => ?_⟩
  · rw [MInt.chk, if_neg h, if_pos hc]
  · rw [MInt.chk]
    split
    · rfl
    · rw [if_neg (by rw [hc]; simp)]

/-- A checked operation that returns gives the exact result modulo `2^w`. -/
theorem chk_ok {v : Int} {z : MInt s w} (h : MInt.chk v = .ok z) : z = MInt.wrap v := by
  rw [MInt.chk] at h
  split at h
  · cases h; rfl
  · split at h
    · cases h
    · cases h; rfl

theorem chk_ok_checked (hw : 0 < w) {v : Int} {z : MInt s w} (hc : Cfg.overflowChecks = true)
    (h : MInt.chk v = .ok z) : z.toInt = v := by
  have hz := chk_ok h
  by_cases hr : MInt.InRange s w v
  · rw [hz, wrap_exact hw hr]
  · rw [((chk_spec hw v).2.1 hr hc)] at h; cases h

theorem chk_fails_iff (hw : 0 < w) (v : Int) :
    Fails (MInt.chk v : Res (MInt s w)) ↔ Cfg.overflowChecks = true ∧ ¬ MInt.InRange s w v := by
  constructor
  · rintro ⟨e, he⟩
    constructor
    · by_contra hc
      rw [(chk_spec hw v).2.2 (by simpa using hc)] at he; cases he
    · intro hr
      obtain ⟨z, hz, _⟩ := (chk_spec (s := s) hw v).1 hr
      rw [hz] at he; cases he
  · intro ⟨hc, hr⟩
    exact ⟨_, (chk_spec hw v).2.1 hr hc⟩

theorem cadd_def (x y : MInt s w) : @Component.add (MInt s w) ‹Cfg› _ x y = MInt.chk (x.toInt + y.toInt) := rfl
theorem csub_def (x y : MInt s w) : @Component.sub (MInt s w) ‹Cfg› _ x y = MInt.chk (x.toInt - y.toInt) := rfl
theorem cmul_def (x y : MInt s w) : @Component.mul (MInt s w) ‹Cfg› _ x y = MInt.chk (x.toInt * y.toInt) := rfl
theorem cdiv_def (x y : MInt s w) : @Component.div (MInt s w) ‹Cfg› _ x y = x.div y := rfl

theorem cmul_comm (x y : MInt s w) :
    @Component.mul (MInt s w) ‹Cfg› _ x y = @Component.mul (MInt s w) ‹Cfg› _ y x := by
  rw [cmul_def, cmul_def, mul_comm]

omit [Cfg] in
/-- Division panics exactly for a zero divisor and for `MIN / -1`, in every build. -/
theorem div_fails_iff (hw : 0 < w) (x y : MInt s w) :
    Fails (x.div y) ↔ y.toInt = 0 ∨ (s = true ∧ x.toInt = -2 ^ (w - 1) ∧ y.toInt = -1) := by
  have hx := toInt_inRange hw x
  have hy := toInt_inRange hw y
  unfold MInt.div
  by_cases h0 : y.toInt = 0
  · rw [if_pos h0]; exact iff_of_true ⟨_, rfl⟩ (Or.inl h0)
  rw [if_neg h0]
  have hp : (0 : Int) < 2 ^ (w - 1) := by positivity
  have habs : |x.toInt.tdiv y.toInt| ≤ |x.toInt| := by
    have := Int.natAbs_tdiv_le_natAbs x.toInt y.toInt
    rw [Int.abs_eq_natAbs, Int.abs_eq_natAbs]; exact_mod_cast this
  cases s
  · unfold MInt.InRange at hx hy ⊢
    simp only [Bool.false_eq_true, if_false] at hx hy ⊢
    have h1 : 0 ≤ x.toInt.tdiv y.toInt := Int.tdiv_nonneg hx.1 hy.1
    have h2 : x.toInt.tdiv y.toInt < 2 ^ w := by
      rw [abs_of_nonneg h1, abs_of_nonneg hx.1] at habs; omega
    rw [if_pos ⟨h1, h2⟩]
    refine iff_of_false ?_ (by simpa using h0)
    rintro ⟨e, he⟩; cases he
  · unfold MInt.InRange at hx hy ⊢
    simp only [if_true] at hx hy ⊢
    by_cases hov : x.toInt = -2 ^ (w - 1) ∧ y.toInt = -1
    · rw [if_neg ?_]
      · exact iff_of_true ⟨_, rfl⟩ (Or.inr ⟨trivial, hov⟩)
      · rw [hov.1, hov.2]; simp
    · have hr : -2 ^ (w - 1) ≤ x.toInt.tdiv y.toInt ∧ x.toInt.tdiv y.toInt < 2 ^ (w - 1) := by
        have hxa : |x.toInt| ≤ 2 ^ (w - 1) := by rw [abs_le]; omega
        have hl := abs_le.1 (le_trans habs hxa)
        refine ⟨hl.1, lt_of_le_of_ne hl.2 ?_⟩
        intro he
        -- the quotient has the size of the dividend, so the divisor is ±1
        have hxe : |x.toInt| = 2 ^ (w - 1) := by
          apply le_antisymm hxa
          rw [← he]; exact le_trans (le_abs_self _) habs
        have hxm : x.toInt = -2 ^ (w - 1) := by
          rcases abs_eq (by positivity) |>.1 hxe with h | h <;> omega
        have hd : x.toInt = y.toInt * x.toInt.tdiv y.toInt + x.toInt.tmod y.toInt := (Int.mul_tdiv_add_tmod _ _).symm
        rw [he, hxm] at hd
        have hylt : y.toInt < 0 := by
          by_contra hc
          have hy1 : 1 ≤ y.toInt := by omega
          have hq : x.toInt.tdiv y.toInt ≤ 0 := by
            have h1 := Int.neg_tdiv (-x.toInt) y.toInt
            have h2 : 0 ≤ (-x.toInt).tdiv y.toInt := Int.tdiv_nonneg (by omega) (by omega)
            rw [neg_neg] at h1; omega
          omega
        have hy1 : y.toInt = -1 := by
          by_contra hne
          have hy2 : y.toInt ≤ -2 := by omega
          have hq2 : x.toInt.tdiv y.toInt * 2 ≤ 2 ^ (w - 1) := by
            have h3 : (x.toInt.tdiv y.toInt).natAbs * y.toInt.natAbs ≤ x.toInt.natAbs := by
              rw [Int.natAbs_tdiv]; exact Nat.div_mul_le_self _ _
            have h4 : (x.toInt.tdiv y.toInt).natAbs * 2 ≤ x.toInt.natAbs :=
              le_trans (Nat.mul_le_mul_left _ (by omega)) h3
            have h5 : x.toInt.natAbs = 2 ^ (w - 1) := by
              rw [hxm, Int.natAbs_neg, Int.natAbs_pow]; rfl
            omega
          omega
        exact hov ⟨hxm, hy1⟩
      rw [if_pos hr]
      refine iff_of_false ?_ ?_
      · rintro ⟨e, he⟩; cases he
      · rintro (h | h)
        · exact h0 h
        · exact hov h.2

omit [Cfg] in
/-- A division that returns gives the quotient truncated toward zero. -/
theorem div_ok (hw : 0 < w) {x y z : MInt s w} (h : x.div y = .ok z) : z.toInt = x.toInt.tdiv y.toInt := by
  unfold MInt.div at h
  split at h
  · cases h
  · split at h
    · rename_i hr; cases h; exact wrap_exact hw hr
    · cases h

end Micromath.Props
