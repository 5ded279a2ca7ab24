import Verif.Props.IntVec

/-!
# C153: division of integer vectors, and means of integer readings

`Vector / C` truncates every component toward zero.
-/

namespace Micromath.Props
open Spec

variable [Cfg] {s : Bool} {w : Nat}

theorem div3_ok (hw : 0 < w) {a c : Vector3d (MInt s w)} {k : MInt s w} (h : a.divScalar k = .ok c) :
    c.x.toInt = a.x.toInt.tdiv k.toInt ∧ c.y.toInt = a.y.toInt.tdiv k.toInt ∧ c.z.toInt = a.z.toInt.tdiv k.toInt := by
  obtain ⟨h1, h2, h3⟩ := ((C54_vector3 a a k).2.2.2.1.1 c).1 h
  exact ⟨div_ok hw h1, div_ok hw h2, div_ok hw h3⟩

omit [Cfg] in
theorem ext3' {a b : Vector3d (MInt s w)} (h1 : a.x.toInt = b.x.toInt) (h2 : a.y.toInt = b.y.toInt) (h3 : a.z.toInt = b.z.toInt) : a = b := by
  obtain ⟨a1, a2, a3⟩ := a
  obtain ⟨b1, b2, b3⟩ := b
  rw [show a1 = b1 from toInt_inj h1, show a2 = b2 from toInt_inj h2, show a3 = b3 from toInt_inj h3]

omit [Cfg] in
theorem tdiv_tdiv' (x y z : Int) : (x.tdiv y).tdiv z = x.tdiv (y * z) := by
  have nn : ∀ a b c : ℕ, ((a : Int).tdiv b).tdiv c = (a : Int).tdiv (b * c) := fun a b c => by
    rw [← Int.ofNat_tdiv, ← Int.ofNat_tdiv, ← Nat.cast_mul, ← Int.ofNat_tdiv, Nat.div_div_eq_div_mul]
  rcases Int.eq_nat_or_neg x with ⟨a, rfl | rfl⟩ <;> rcases Int.eq_nat_or_neg y with ⟨b, rfl | rfl⟩ <;> rcases Int.eq_nat_or_neg z with ⟨c, rfl | rfl⟩ <;>
    simp only [Int.neg_tdiv, Int.tdiv_neg, neg_neg, neg_mul, mul_neg, nn]

/-- **C153, panics.** Dividing by `k` panics exactly if `k = 0`, or `k = -1` and a component is the smallest of a signed type; in every build. -/
theorem C153_div_panics (hw : 0 < w) (a : Vector3d (MInt s w)) (k : MInt s w) :
    Fails (a.divScalar k) ↔ k.toInt = 0 ∨ (s = true ∧ k.toInt = -1 ∧ (a.x.toInt = -2 ^ (w - 1) ∨ a.y.toInt = -2 ^ (w - 1) ∨ a.z.toInt = -2 ^ (w - 1))) := by
  rw [(C54_vector3 a a k).2.2.2.1.2, cdiv_def, cdiv_def, cdiv_def, div_fails_iff hw, div_fails_iff hw, div_fails_iff hw]
  tauto

/-- **C153, truncation.** What division returns is the quotient truncated toward zero: no larger in magnitude than the dividend, and off by less than
the divisor. -/
theorem C153_div (hw : 0 < w) {a c : Vector3d (MInt s w)} {k : MInt s w} (hk : k.toInt ≠ 0) (h : a.divScalar k = .ok c) :
    (|c.x.toInt| ≤ |a.x.toInt| ∧ |a.x.toInt - k.toInt * c.x.toInt| < |k.toInt|) ∧
    (|c.y.toInt| ≤ |a.y.toInt| ∧ |a.y.toInt - k.toInt * c.y.toInt| < |k.toInt|) ∧
    (|c.z.toInt| ≤ |a.z.toInt| ∧ |a.z.toInt - k.toInt * c.z.toInt| < |k.toInt|) := by
  obtain ⟨h1, h2, h3⟩ := div3_ok hw h
  have key : ∀ x y : Int, y ≠ 0 → |x.tdiv y| ≤ |x| ∧ |x - y * x.tdiv y| < |y| := by
    intro x y hy
    constructor
    · have := Int.natAbs_tdiv_le_natAbs x y
      rw [Int.abs_eq_natAbs, Int.abs_eq_natAbs]; exact_mod_cast this
    · have e : x - y * x.tdiv y = x.tmod y := by
        have := Int.mul_tdiv_add_tmod x y
        omega
      rw [e, Int.abs_eq_natAbs, Int.abs_eq_natAbs, Int.natAbs_tmod]
      exact_mod_cast Nat.mod_lt _ (Int.natAbs_pos.2 hy)
  rw [h1, h2, h3]
  exact ⟨key _ _ hk, key _ _ hk, key _ _ hk⟩

theorem mul3_exact (hw : 0 < w) (hc : Cfg.overflowChecks = true) {a c : Vector3d (MInt s w)} {k : MInt s w} (h : a.mulScalar k = .ok c) :
    c.x.toInt = a.x.toInt * k.toInt ∧ c.y.toInt = a.y.toInt * k.toInt ∧ c.z.toInt = a.z.toInt * k.toInt := by
  obtain ⟨h1, h2, h3⟩ := ((C54_vector3 a a k).2.2.1.1 c).1 h
  exact ⟨chk_ok_checked hw hc h1, chk_ok_checked hw hc h2, chk_ok_checked hw hc h3⟩

omit [Cfg] in
/-- A value that did not overflow when multiplied by `-1` is not the smallest. -/
theorem ne_min (hw : 0 < w) {x p : MInt true w} (h : p.toInt = x.toInt * -1) : p.toInt ≠ -2 ^ (w - 1) := by
  intro hp
  have := toInt_inRange hw x
  unfold MInt.InRange at this
  simp only [if_true] at this
  omega

/-- **C153, there and back.** With overflow checks, if `a k` returns and `k ≠ 0`, then `(a k) / k` returns `a`. -/
theorem C153_mul_div (hw : 0 < w) (hc : Cfg.overflowChecks = true) {a p : Vector3d (MInt s w)} {k : MInt s w} (hk : k.toInt ≠ 0) (h : a.mulScalar k = .ok p) :
    p.divScalar k = .ok a := by
  obtain ⟨e1, e2, e3⟩ := mul3_exact hw hc h
  have hnf : ¬ Fails (p.divScalar k) := by
    rw [C153_div_panics hw]
    rintro (h0 | ⟨rfl, h1, h2⟩)
    · exact hk h0
    · rw [h1] at e1 e2 e3
      rcases h2 with h2 | h2 | h2
      exacts [ne_min hw e1 h2, ne_min hw e2 h2, ne_min hw e3 h2]
  rcases hq : p.divScalar k with e | c
  · exact absurd ⟨e, hq⟩ hnf
  · obtain ⟨d1, d2, d3⟩ := div3_ok hw hq
    rw [e1, Int.mul_tdiv_cancel _ hk] at d1
    rw [e2, Int.mul_tdiv_cancel _ hk] at d2
    rw [e3, Int.mul_tdiv_cancel _ hk] at d3
    rw [ext3' d1 d2 d3]

/-- **C153, false without overflow checks.** In `i8`, `(100, 0, 0) * 2 / 2` is `(-28, 0, 0)`. -/
theorem C153_mul_div_false (hc : Cfg.overflowChecks = false) :
    (do let p ← (⟨⟨100#8⟩, ⟨0#8⟩, ⟨0#8⟩⟩ : Vector3d I8).mulScalar ⟨2#8⟩; p.divScalar ⟨2#8⟩) = .ok ⟨⟨228#8⟩, ⟨0#8⟩, ⟨0#8⟩⟩ := by
  have e : ∀ v : Int, (MInt.chk v : Res I8) = .ok (MInt.wrap v) := fun v => (chk_spec (by norm_num) v).2.2 hc
  simp only [Vector3d.mulScalar, Vector3d.divScalar, cmul_def, cdiv_def, e, ok_bind]
  decide

/-- **C153, repeated division.** With overflow checks, `(a / k) / m` and `a / (k m)` agree when both return. -/
theorem C153_div_div (hw : 0 < w) (hc : Cfg.overflowChecks = true) {a p q r : Vector3d (MInt s w)} {k m n : MInt s w} (h1 : a.divScalar k = .ok p)
    (h2 : p.divScalar m = .ok q) (h4 : imul k m = .ok n) (h5 : a.divScalar n = .ok r) : q = r := by
  have hn : n.toInt = k.toInt * m.toInt := chk_ok_checked hw hc h4
  obtain ⟨a1, a2, a3⟩ := div3_ok hw h1
  obtain ⟨b1, b2, b3⟩ := div3_ok hw h2
  obtain ⟨c1, c2, c3⟩ := div3_ok hw h5
  rw [hn] at c1 c2 c3
  have key : ∀ x y z : Int, (x.tdiv y).tdiv z = x.tdiv (y * z) := tdiv_tdiv'
  exact ext3' (by rw [b1, a1, c1, key]) (by rw [b2, a2, c2, key]) (by rw [b3, a3, c3, key])

theorem fold3_exact (hw : 0 < w) (hc : Cfg.overflowChecks = true) (l : List (Vector3d (MInt s w))) (v c : Vector3d (MInt s w)) (h : l.foldlM Vector3d.add v = .ok c) :
    c.x.toInt = v.x.toInt + (l.map fun u => u.x.toInt).sum ∧ c.y.toInt = v.y.toInt + (l.map fun u => u.y.toInt).sum ∧
      c.z.toInt = v.z.toInt + (l.map fun u => u.z.toInt).sum := by
  induction l generalizing v with
  | nil => cases h; simp
  | cons u l ih =>
    rw [List.foldlM_cons, bind_eq_ok] at h
    obtain ⟨p, hp, h⟩ := h
    obtain ⟨h1, h2, h3⟩ := ih p h
    obtain ⟨g1, g2, g3⟩ := ((C54_vector3 v u v.x).1.1 p).1 hp
    have q1 := chk_ok_checked hw hc g1
    have q2 := chk_ok_checked hw hc g2
    have q3 := chk_ok_checked hw hc g3
    simp only [h1, h2, h3, q1, q2, q3, List.map_cons, List.sum_cons]
    refine ⟨?_, ?_, ?_⟩ <;> ring

/-- **C153, mean of readings.** With overflow checks: if the sum of the readings and its quotient by their number return, every component of the quotient is
within one (exclusive) of the exact mean. -/
theorem C153_mean (hw : 0 < w) (hc : Cfg.overflowChecks = true) {l : List (Vector3d (MInt s w))} {p m : Vector3d (MInt s w)} {n : MInt s w} (h0 : l ≠ [])
    (hn : n.toInt = l.length) (hp : Vector3d.sum l = .ok p) (hm : p.divScalar n = .ok m) :
    |(l.map fun u => u.x.toInt).sum - l.length * m.x.toInt| < l.length ∧ |(l.map fun u => u.y.toInt).sum - l.length * m.y.toInt| < l.length ∧
      |(l.map fun u => u.z.toInt).sum - l.length * m.z.toInt| < l.length := by
  have d0 : (@Component.default (MInt s w) ‹Cfg› _).toInt = 0 := wrap_exact hw (by unfold MInt.InRange; cases s <;> simp)
  obtain ⟨e1, e2, e3⟩ := fold3_exact hw hc l _ _ hp
  have lp : (0 : Int) < l.length := by exact_mod_cast List.length_pos_iff.2 h0
  obtain ⟨⟨-, f1⟩, ⟨-, f2⟩, -, f3⟩ := C153_div hw (by rw [hn]; exact lp.ne') hm
  simp only [Vector3d.default, d0, zero_add] at e1 e2 e3
  rw [hn, abs_of_pos lp] at f1 f2 f3
  rw [e1] at f1
  rw [e2] at f2
  rw [e3] at f3
  exact ⟨f1, f2, f3⟩

/-- `(7, -7, 100) / 2 = (3, -3, 50)` in `i8`. -/
theorem C153_case : (⟨⟨7#8⟩, ⟨249#8⟩, ⟨100#8⟩⟩ : Vector3d I8).divScalar ⟨2#8⟩ = .ok ⟨⟨3#8⟩, ⟨253#8⟩, ⟨50#8⟩⟩ := by
  simp only [Vector3d.divScalar, cdiv_def]
  decide

end Micromath.Props
