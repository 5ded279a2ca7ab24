import Verif.Props.Scaling
import Verif.Props.Quat

/-!
# C114: quaternions under scaling by a power of two
-/

set_option exponentiation.threshold 1000

namespace Micromath.Props
open F32 Spec

variable [Cfg]

omit [Cfg] in
/-- The components of a quaternion. -/
def comps (q : Quaternion) : List F32 := [q.a, q.b, q.c, q.d]

theorem norm_sc {k : Nat} {q r : Quaternion} (h : Scaled k (comps q) (comps r)) :
    Sc (2 * k) q.norm r.norm ∧ PosNormal q.norm ∧ r.norm.val ≤ 2 ^ 126 := by
  have hsc := forall₂_sc h.fin h.fin' h.eq
  have low := h.low
  have high := h.high
  simp only [comps, List.forall₂_cons, List.mem_cons, List.not_mem_nil, or_false, forall_eq_or_imp, forall_eq] at hsc low high
  obtain ⟨sa, sb, sc, sd, -⟩ := hsc
  obtain ⟨la, lb, lc, ld⟩ := low
  obtain ⟨ua, ub, uc, ud⟩ := high
  have sq' : ∀ {x : F32}, x.val ^ 2 ≤ 2 ^ 124 → |x.val * x.val| ≤ 2 ^ 124 := fun h => by
    rw [← sq, abs_of_nonneg (sq_nonneg _)]; exact h
  obtain ⟨-, fa, ba⟩ := mul_bd sa.fy sa.fy 124 (by norm_num) (by norm_num) (A := 2 ^ 124) (by norm_num) (sq' ua)
  obtain ⟨-, fb, bb⟩ := mul_bd sb.fy sb.fy 124 (by norm_num) (by norm_num) (A := 2 ^ 124) (by norm_num) (sq' ub)
  obtain ⟨-, fc, bc⟩ := mul_bd sc.fy sc.fy 124 (by norm_num) (by norm_num) (A := 2 ^ 124) (by norm_num) (sq' uc)
  obtain ⟨-, fd, bd⟩ := mul_bd sd.fy sd.fy 124 (by norm_num) (by norm_num) (A := 2 ^ 124) (by norm_num) (sq' ud)
  obtain ⟨-, f1, b1⟩ := add_bd fa fb 125 (by norm_num) (by norm_num) (A := 2 ^ 125) (by norm_num)
    ((abs_add_le _ _).trans ((add_le_add ba bb).trans (by norm_num)))
  obtain ⟨-, f2, -⟩ := add_bd f1 fc 126 (by norm_num) (by norm_num) (A := 2 ^ 126) (by norm_num)
    ((abs_add_le _ _).trans ((add_le_add b1 bc).trans (by norm_num)))
  have b2 : |(r.a * r.a + r.b * r.b + r.c * r.c).val| ≤ 3 * 2 ^ 124 := by
    rw [add_finite_val f2]
    refine abs_RN_le_of_rep ?_ ((abs_add_le _ _).trans ((add_le_add b1 bc).trans (by norm_num)))
    exact_mod_cast rep_zpow (m := 3) (e := 124) (by norm_num) (by norm_num)
  obtain ⟨-, f3, b3⟩ := add_bd f2 fd 126 (by norm_num) (by norm_num) (A := 2 ^ 126) (by norm_num)
    ((abs_add_le _ _).trans ((add_le_add b2 bd).trans (by norm_num)))
  have A := sc_sq sa fa la
  have B := sc_sq sb fb lb
  have C := sc_sq sc fc lc
  have D := sc_sq sd fd ld
  have S1 := Sc.add' A B f1
  have S2 := Sc.add' S1 C f2
  have S3 := Sc.add' S2 D f3
  refine ⟨S3, ⟨S3.fx, ?_⟩, (le_abs_self _).trans b3⟩
  have e : q.norm = [q.b * q.b, q.c * q.c, q.d * q.d].foldl (· + ·) (q.a * q.a) := rfl
  have hnn : ∀ {x : F32}, (x * x).isFinite = true → 0 ≤ (x * x).val := fun hf => by
    rw [mul_finite_val hf]; exact RN_nonneg (mul_self_nonneg _)
  have hge := foldl_ge [q.b * q.b, q.c * q.c, q.d * q.d] (q.a * q.a) (by rw [← e]; exact S3.fx)
    (by simp only [List.mem_cons, List.not_mem_nil, or_false, forall_eq_or_imp, forall_eq]; exact ⟨hnn B.fx, hnn C.fx, hnn D.fx⟩) (hnn A.fx)
  rw [← e] at hge
  simp only [List.mem_cons, List.not_mem_nil, or_false, forall_eq_or_imp, forall_eq] at hge
  have big : ∀ {x : F32}, (x * x).isFinite = true → (x.val = 0 ∨ 1 / 2 ^ 126 ≤ x.val ^ 2) → x.val ≠ 0 → 1 / 2 ^ 126 ≤ (x * x).val := by
    intro x hf hl h0
    rw [mul_finite_val hf]
    have h2 := hl.resolve_left h0
    rw [sq] at h2
    refine le_RN_of_rep ?_ h2
    rw [show (1 : ℚ) / 2 ^ 126 = 2 ^ (-126 : Int) by norm_num]
    exact rep_pow (by norm_num)
  obtain ⟨x, hx, hx0⟩ := h.nonzero
  simp only [comps, List.mem_cons, List.not_mem_nil, or_false] at hx
  rcases hx with rfl | rfl | rfl | rfl
  · exact (big A.fx la hx0).trans hge.1
  · exact (big B.fx lb hx0).trans hge.2.1
  · exact (big C.fx lc hx0).trans hge.2.2.1
  · exact (big D.fx ld hx0).trans hge.2.2.2

/-- **C114.** `norm` scales with `4^k` and `magnitude` with `2^k`, exactly. -/
theorem C114_norm {k : Nat} {q r : Quaternion} (h : Scaled k (comps q) (comps r)) :
    r.norm.val = 4 ^ k * q.norm.val ∧ r.magnitude.val = 2 ^ k * q.magnitude.val := by
  obtain ⟨hs, hp, -⟩ := norm_sc h
  have e : r.norm.val = 4 ^ k * q.norm.val := by rw [hs.eq, pow_mul]; norm_num
  exact ⟨e, C111_sqrt hp hs.fy e⟩

/-- Products of oppositely scaled factors are the same float. -/
theorem mul_opposite {k : Nat} {x y n m : F32} (h : Sc k x y) (hs : y.sign = x.sign) (fn : n.isFinite = true) (fm : m.isFinite = true)
    (pn : 0 < n.val) (e : m.val * 2 ^ k = n.val) : y * m = x * n := by
  have pm : 0 < m.val := by
    have : (0 : ℚ) < 2 ^ k := by positivity
    rw [← e] at pn
    exact pos_of_mul_pos_left pn this.le
  have ev : y.val * m.val = x.val * n.val := by rw [h.eq, ← e]; ring
  rw [mul_finite h.fy fm, mul_finite h.fx fn, hs, val_pos_sign pn, val_pos_sign pm, ev]

omit [Cfg] in
theorem not_zero_of_pos {x : F32} (h : PosNormal x) : x.feq posZero = false := by
  rw [Bool.eq_false_iff]
  intro hc
  rw [feq_iff h.1 (by decide), val_posZero] at hc
  have := h.2
  rw [hc] at this
  norm_num at this

/-- **C114.** `normalize` does not depend on the scale: `normalize(2^k q) = normalize(q)` bit for bit. -/
theorem C114_normalize {k : Nat} {q r : Quaternion} (h : Scaled k (comps q) (comps r)) :
    ∃ s, q.normalize = .ok s ∧ r.normalize = .ok s := by
  obtain ⟨hs, hp, -⟩ := norm_sc h
  have e : r.norm.val = 4 ^ k * q.norm.val := by rw [hs.eq, pow_mul]; norm_num
  have hp' := (scale_bits hp hs.fy hs.eq).1
  obtain ⟨n, m, hn, hm, enm⟩ := C111_invsqrt hp hs.fy e
  have good : ∀ {x y : F32}, PosNormal x → x.invsqrt = .ok y → y.isFinite = true ∧ 0 < y.val := by
    intro x y hx hy
    obtain ⟨s, m1, m2⟩ := posNormal_mag hx
    have hb := toNat_of_pos s
    obtain ⟨z, hz, ez⟩ := invsqrt_ok (x := x) (by omega)
    rw [hy] at hz
    cases hz
    obtain ⟨p, -⟩ := of_bits ez (by omega) (by omega)
    exact ⟨p.1, lt_of_lt_of_le (by norm_num) p.2⟩
  obtain ⟨fn, pn⟩ := good hp hn
  obtain ⟨fm, -⟩ := good hp' hm
  have hsc := forall₂_sc h.fin h.fin' h.eq
  have hsg := h.sign
  simp only [comps, List.forall₂_cons, List.map_cons, List.map_nil, List.cons.injEq] at hsc hsg
  refine ⟨q.scale n, ?_, ?_⟩
  · unfold Quaternion.normalize
    simp only [not_zero_of_pos hp, hn]
    rfl
  · unfold Quaternion.normalize
    simp only [not_zero_of_pos hp', hm]
    show Except.ok (r.scale m) = _
    unfold Quaternion.scale
    rw [mul_opposite hsc.1 hsg.1 fn fm pn enm, mul_opposite hsc.2.1 hsg.2.1 fn fm pn enm,
      mul_opposite hsc.2.2.1 hsg.2.2.1 fn fm pn enm, mul_opposite hsc.2.2.2.1 hsg.2.2.2.1 fn fm pn enm]

/-- Each component of `q` is at most the norm, or at most one. -/
theorem comp_le_norm {k : Nat} {q r : Quaternion} (h : Scaled k (comps q) (comps r)) :
    ∀ x ∈ comps q, |x.val| ≤ max 1 q.norm.val := by
  have S3 := (norm_sc h).1.fx
  have f1 := add_finite_inv S3
  have f2 := add_finite_inv f1.1
  have f3 := add_finite_inv f2.1
  have hnn : ∀ {x : F32}, (x * x).isFinite = true → 0 ≤ (x * x).val := fun hf => by
    rw [mul_finite_val hf]; exact RN_nonneg (mul_self_nonneg _)
  have e : q.norm = [q.b * q.b, q.c * q.c, q.d * q.d].foldl (· + ·) (q.a * q.a) := rfl
  have hge := foldl_ge [q.b * q.b, q.c * q.c, q.d * q.d] (q.a * q.a) (by rw [← e]; exact S3)
    (by simp only [List.mem_cons, List.not_mem_nil, or_false, forall_eq_or_imp, forall_eq]; exact ⟨hnn f3.2.1, hnn f2.2.1, hnn f1.2.1⟩)
    (hnn f3.1)
  rw [← e] at hge
  simp only [List.mem_cons, List.not_mem_nil, or_false, forall_eq_or_imp, forall_eq] at hge
  have key : ∀ {x : F32}, (x * x).isFinite = true → (x * x).val ≤ q.norm.val → |x.val| ≤ max 1 q.norm.val := by
    intro x hf hx
    rcases le_total |x.val| 1 with h1 | h1
    · exact h1.trans (le_max_left _ _)
    · refine le_trans ?_ (hx.trans (le_max_right _ _))
      rw [mul_finite_val hf]
      refine le_RN_of_rep (rep_val x).abs ?_
      rw [← abs_mul_abs_self]
      nlinarith
  simp only [comps, List.mem_cons, List.not_mem_nil, or_false, forall_eq_or_imp, forall_eq]
  exact ⟨key f3.1 hge.1, key f3.2.1 hge.2.1, key f2.2.1 hge.2.2.1, key f1.2.1 hge.2.2.2⟩

/-- **C114.** `inv(2^k q) = inv(q) / 2^k` exactly in every component, for `norm(2^k q) <= 2^63`. -/
theorem C114_inv {k : Nat} {q r : Quaternion} (h : Scaled k (comps q) (comps r)) (hN : r.norm.val ≤ 2 ^ 63) :
    ∃ s t, q.inv = .ok s ∧ r.inv = .ok t ∧ t.a.val * 2 ^ k = s.a.val ∧ t.b.val * 2 ^ k = s.b.val ∧
      t.c.val * 2 ^ k = s.c.val ∧ t.d.val * 2 ^ k = s.d.val := by
  obtain ⟨hs, hp, hu⟩ := norm_sc h
  have hp' := (scale_bits hp hs.fy hs.eq).1
  have ei := C111_inv hp hs.fy hs.eq hu
  have hk : (1 : ℚ) ≤ 2 ^ (2 * k) := one_le_pow₀ (by norm_num)
  have N0 : 0 < q.norm.val := lt_of_lt_of_le (by norm_num) hp.2
  have N0' : 0 < r.norm.val := lt_of_lt_of_le (by norm_num) hp'.2
  have hle : q.norm.val ≤ r.norm.val := by rw [hs.eq]; nlinarith
  obtain ⟨fi, i1, i2⟩ := C19_inv q.norm hp (hle.trans hu)
  obtain ⟨fi', i1', i2'⟩ := C19_inv r.norm hp' hu
  have pi : 0 < q.norm.inv.val := by
    by_contra hc
    have := mul_nonpos_of_nonneg_of_nonpos N0.le (not_lt.1 hc)
    linarith
  have pi' : 0 < r.norm.inv.val := by
    by_contra hc
    have := mul_nonpos_of_nonneg_of_nonpos N0'.le (not_lt.1 hc)
    linarith
  have lo' : (1 : ℚ) / 2 ^ 63 ≤ r.norm.inv.val := by
    rw [div_le_iff₀ (by norm_num)]
    calc (1 : ℚ) ≤ r.norm.val * r.norm.inv.val := i1'
      _ ≤ 2 ^ 63 * r.norm.inv.val := mul_le_mul_of_nonneg_right hN pi'.le
      _ = r.norm.inv.val * 2 ^ 63 := by ring
  have hi : max 1 q.norm.val * q.norm.inv.val ≤ 9 / 8 * 2 ^ 126 := by
    have hn := hp.2
    rcases le_total q.norm.val 1 with h1 | h1
    · rw [max_eq_left h1, one_mul]
      have : 1 / 2 ^ 126 * q.norm.inv.val ≤ 9 / 8 := (mul_le_mul_of_nonneg_right hn pi.le).trans i2
      rw [one_div, inv_mul_le_iff₀ (by norm_num)] at this
      linarith
    · rw [max_eq_right h1]
      exact i2.trans (by norm_num)
  have comp : ∀ {x y : F32}, Sc k x y → |x.val| ≤ max 1 q.norm.val → (x.val = 0 ∨ 1 / 2 ^ 126 ≤ x.val ^ 2) →
      (y * r.norm.inv).val * 2 ^ k = (x * q.norm.inv).val := by
    intro x y hxy hx hl
    have h2 : (0 : ℚ) < 2 ^ k := by positivity
    have e : x.val * q.norm.inv.val = 2 ^ k * (y.val * r.norm.inv.val) := by
      rw [hxy.eq, ← ei, two_mul, pow_add]; ring
    have ho : |x.val * q.norm.inv.val| < ovf := by
      rw [abs_mul, abs_of_pos pi]
      exact lt_of_le_of_lt ((mul_le_mul_of_nonneg_right hx pi.le).trans hi) (by norm_num [ovf])
    obtain ⟨-, v1⟩ := mul_val hxy.fx fi ho
    obtain ⟨-, v2⟩ := mul_val hxy.fy fi' (Sc.lt_ovf e ho)
    rw [v1, v2, Sc.rn e ?_, mul_comm]
    rcases hl with hl | hl
    · left; rw [hxy.eq, hl, mul_zero, zero_mul]
    · right
      have k1 : (1 : ℚ) ≤ 2 ^ k := one_le_pow₀ (by norm_num)
      have ax : (1 : ℚ) / 2 ^ 63 ≤ |x.val| := by
        by_contra hc
        have := pow_lt_pow_left₀ (not_le.1 hc) (abs_nonneg _) (n := 2) (by norm_num)
        rw [sq_abs] at this
        norm_num at *
        linarith
      have ay : (1 : ℚ) / 2 ^ 63 ≤ |y.val| := by
        rw [hxy.eq, abs_mul, abs_of_pos h2]
        have := abs_nonneg x.val
        nlinarith
      rw [abs_mul, abs_of_pos pi']
      refine le_trans ?_ (mul_le_mul ay lo' (by norm_num) (abs_nonneg _))
      norm_num
  have hsc := forall₂_sc h.fin h.fin' h.eq
  have low := h.low
  have cl := comp_le_norm h
  simp only [comps, List.forall₂_cons, List.mem_cons, List.not_mem_nil, or_false, forall_eq_or_imp, forall_eq] at hsc low cl
  have neg : ∀ {x y : F32}, Sc k x y → |x.val| ≤ max 1 q.norm.val → (x.val = 0 ∨ 1 / 2 ^ 126 ≤ x.val ^ 2) →
      (-y * r.norm.inv).val * 2 ^ k = (-x * q.norm.inv).val := fun h1 h2 h3 =>
    comp (Sc.neg h1) (by rw [val_neg, abs_neg]; exact h2) (by rw [val_neg, neg_sq, neg_eq_zero]; exact h3)
  refine ⟨q.conj.scale q.norm.inv, r.conj.scale r.norm.inv, ?_, ?_, comp hsc.1 cl.1 low.1, neg hsc.2.1 cl.2.1 low.2.1,
    neg hsc.2.2.1 cl.2.2.1 low.2.2.1, neg hsc.2.2.2.1 cl.2.2.2 low.2.2.2⟩
  · unfold Quaternion.inv
    simp only [not_zero_of_pos hp]
    rfl
  · unfold Quaternion.inv
    simp only [not_zero_of_pos hp']
    rfl

/-- `1 + 2i + 3j + 4k` and its double. -/
example : Scaled 1 (comps ⟨ofInt 1, ofInt 2, ofInt 3, ofInt 4⟩) (comps ⟨ofInt 2, ofInt 4, ofInt 6, ofInt 8⟩) := by
  have hv : ∀ n : Int, n.natAbs ≤ 2 ^ 24 → (ofInt n).isFinite = true ∧ (ofInt n).val = n := fun n hn => ofInt_isVal hn
  have v1 := hv 1 (by norm_num)
  have v2 := hv 2 (by norm_num)
  have v3 := hv 3 (by norm_num)
  have v4 := hv 4 (by norm_num)
  have v6 := hv 6 (by norm_num)
  have v8 := hv 8 (by norm_num)
  refine ⟨?_, ?_, ?_, by decide +kernel, ?_, ?_, ⟨ofInt 3, by simp [comps], by rw [v3.2]; norm_num⟩⟩
  · simp [comps, v1.1, v2.1, v3.1, v4.1]
  · simp [comps, v2.1, v4.1, v6.1, v8.1]
  · simp [comps, v1.2, v2.2, v3.2, v4.2, v6.2, v8.2]; norm_num
  · intro x hx
    right
    simp only [comps, List.mem_cons, List.not_mem_nil, or_false] at hx
    rcases hx with rfl | rfl | rfl | rfl
    · rw [v1.2]; norm_num
    · rw [v2.2]; norm_num
    · rw [v3.2]; norm_num
    · rw [v4.2]; norm_num
  · intro x hx
    simp only [comps, List.mem_cons, List.not_mem_nil, or_false] at hx
    rcases hx with rfl | rfl | rfl | rfl
    · rw [v2.2]; norm_num
    · rw [v4.2]; norm_num
    · rw [v6.2]; norm_num
    · rw [v8.2]; norm_num

end Micromath.Props
