import Verif.Props.VecNorm

/-!
# Inverse and rotation of quaternions: accuracy (C89, C90)
-/

set_option exponentiation.threshold 1000

namespace Micromath.Props
open F32 Spec

variable [Cfg]

/-! ### C89: the inverse -/

/-- **C89.** For finite quaternions of exact squared length `Q` within `2^-100 .. 2^124`, `inv` returns the conjugate scaled by
one number `k` with `1 - 2^-20 ≤ k Q ≤ 9/8 (1 + 2^-20)`, each component correctly rounded. -/
theorem C89_inv (q : Quaternion) (hq : QFinite q) (h1 : 1 / 2 ^ 100 ≤ qlen q) (h2 : qlen q ≤ 2 ^ 124) :
    ∃ r, ∃ k : ℚ, q.inv = .ok r ∧ QFinite r ∧ 1 - 1 / 2 ^ 20 ≤ k * qlen q ∧ k * qlen q ≤ 9 / 8 * (1 + 1 / 2 ^ 20) ∧
      |r.a.val - k * q.a.val| ≤ k * |q.a.val| / 2 ^ 24 + 1 / 2 ^ 150 ∧
      |r.b.val + k * q.b.val| ≤ k * |q.b.val| / 2 ^ 24 + 1 / 2 ^ 150 ∧
      |r.c.val + k * q.c.val| ≤ k * |q.c.val| / 2 ^ 24 + 1 / 2 ^ 150 ∧
      |r.d.val + k * q.d.val| ≤ k * |q.d.val| / 2 ^ 24 + 1 / 2 ^ 150 := by
  obtain ⟨hp, s1, s2⟩ := (norm_sumSq hq h2).normal h1
  change (1 - 7 / 2 ^ 24) * qlen q ≤ _ at s1
  change _ ≤ (1 + 7 / 2 ^ 24) * qlen q at s2
  have hQ : 0 < qlen q := lt_of_lt_of_le (by positivity) h1
  obtain ⟨fk, k1, k2⟩ := C19_inv q.norm hp (by norm_num at *; linarith)
  have h0 : q.norm.feq posZero = false := by
    rw [Bool.eq_false_iff]
    intro h
    rw [feq_iff hp.1 fin_posZero, val_posZero] at h
    have := hp.2
    rw [h] at this
    norm_num at this
  have hk : 0 < q.norm.inv.val := by
    by_contra hc
    have : 0 < q.norm.val := lt_of_lt_of_le (by positivity) hp.2
    nlinarith
  have t1 := mul_le_mul_of_nonneg_right s1 hk.le
  have t2 := mul_le_mul_of_nonneg_right s2 hk.le
  have na := sq_nonneg q.a.val
  have nb := sq_nonneg q.b.val
  have nc := sq_nonneg q.c.val
  have nd := sq_nonneg q.d.val
  have hb : ∀ x : F32, x.val ^ 2 ≤ qlen q → |x.val * q.norm.inv.val| < ovf := fun x hx => by
    have h3 : |x.val * q.norm.inv.val| ≤ 2 ^ 102 := by
      refine abs_le_of_sq_le_sq ?_ (by norm_num)
      rw [mul_pow]
      have h4 : x.val ^ 2 * q.norm.inv.val ^ 2 ≤ qlen q * q.norm.inv.val ^ 2 := mul_le_mul_of_nonneg_right hx (sq_nonneg _)
      have h5 : qlen q * q.norm.inv.val ≤ 2 := by norm_num at *; linarith
      have h6 : qlen q * q.norm.inv.val ^ 2 ≤ 2 * q.norm.inv.val := by nlinarith
      have h7 : 1 / 2 ^ 100 * q.norm.inv.val ≤ 2 := le_trans (mul_le_mul_of_nonneg_right h1 hk.le) h5
      norm_num at h7 ⊢
      linarith
    exact lt_of_le_of_lt h3 (by norm_num [ovf])
  have ab : ∀ x : ℚ, |x * q.norm.inv.val| = q.norm.inv.val * |x| := fun x => by rw [abs_mul, abs_of_pos hk, mul_comm]
  obtain ⟨fa, ea⟩ := mul_err_uf hq.1 fk (hb _ (by unfold qlen; linarith))
  obtain ⟨fb, eb⟩ := mul_err_uf (x := -q.b) (by simpa using hq.2.1) fk (hb _ (by rw [val_neg, neg_sq]; unfold qlen; linarith))
  obtain ⟨fc, ec⟩ := mul_err_uf (x := -q.c) (by simpa using hq.2.2.1) fk (hb _ (by rw [val_neg, neg_sq]; unfold qlen; linarith))
  obtain ⟨fd, ed⟩ := mul_err_uf (x := -q.d) (by simpa using hq.2.2.2) fk (hb _ (by rw [val_neg, neg_sq]; unfold qlen; linarith))
  rw [ab] at ea eb ec ed
  rw [val_neg, neg_mul, sub_neg_eq_add, abs_neg, mul_comm q.b.val] at eb
  rw [val_neg, neg_mul, sub_neg_eq_add, abs_neg, mul_comm q.c.val] at ec
  rw [val_neg, neg_mul, sub_neg_eq_add, abs_neg, mul_comm q.d.val] at ed
  rw [mul_comm q.a.val] at ea
  refine ⟨q.conj.scale q.norm.inv, q.norm.inv.val, ?_, ⟨fa, fb, fc, fd⟩, ?_, ?_, ea, eb, ec, ed⟩
  · simp only [Quaternion.inv, h0]; rfl
  · norm_num at *; linarith
  · norm_num at *; linarith

/-- **C89.** Hence the exact product of `q` and `inv(q)` has real part within `1 - 2^-19 .. 9/8 + 2^-19` and imaginary parts at
most `2^-21`. -/
theorem C89_inv_mul (q : Quaternion) (hq : QFinite q) (h1 : 1 / 2 ^ 100 ≤ qlen q) (h2 : qlen q ≤ 2 ^ 124) :
    ∃ r, q.inv = .ok r ∧ 1 - 1 / 2 ^ 19 ≤ (qval q * qval r).re ∧ (qval q * qval r).re ≤ 9 / 8 + 1 / 2 ^ 19 ∧
      |(qval q * qval r).imI| ≤ 1 / 2 ^ 21 ∧ |(qval q * qval r).imJ| ≤ 1 / 2 ^ 21 ∧ |(qval q * qval r).imK| ≤ 1 / 2 ^ 21 := by
  obtain ⟨r, k, hr, -, k1, k2, ea, eb, ec, ed⟩ := C89_inv q hq h1 h2
  refine ⟨r, hr, ?_⟩
  have hQ : 0 < qlen q := lt_of_lt_of_le (by positivity) h1
  have hk : 0 < k := by
    by_contra hc
    have : k * qlen q ≤ 0 := mul_nonpos_of_nonpos_of_nonneg (not_lt.1 hc) hQ.le
    norm_num at k1
    linarith
  have e1 := _root_.Quaternion.re_mul (qval q) (qval r)
  have e2 := _root_.Quaternion.imI_mul (qval q) (qval r)
  have e3 := _root_.Quaternion.imJ_mul (qval q) (qval r)
  have e4 := _root_.Quaternion.imK_mul (qval q) (qval r)
  rw [e1, e2, e3, e4]
  simp only [qval]
  -- `x` times the error of a component
  have key : ∀ x y e : ℚ, |e| ≤ k * |y| / 2 ^ 24 + 1 / 2 ^ 150 → |x| ≤ 2 ^ 62 →
      |x * e| ≤ (k * x ^ 2 + k * y ^ 2) / 2 / 2 ^ 24 + 1 / 2 ^ 88 := fun x y e he hx => by
    rw [abs_mul]
    have h3 := mul_le_mul_of_nonneg_left he (abs_nonneg x)
    have h4 : |x| * |y| ≤ (x ^ 2 + y ^ 2) / 2 := by
      rw [← sq_abs x, ← sq_abs y]; nlinarith [sq_nonneg (|x| - |y|)]
    have h5 := mul_le_mul_of_nonneg_left h4 hk.le
    norm_num at *
    nlinarith
  have bd : ∀ x : ℚ, x ^ 2 ≤ qlen q → |x| ≤ 2 ^ 62 := fun x hx =>
    abs_le_of_sq_le_sq (hx.trans (h2.trans (by norm_num))) (by norm_num)
  have na := sq_nonneg q.a.val
  have nb := sq_nonneg q.b.val
  have nc := sq_nonneg q.c.val
  have nd := sq_nonneg q.d.val
  have ba := bd q.a.val (by unfold qlen; linarith)
  have bb := bd q.b.val (by unfold qlen; linarith)
  have bc := bd q.c.val (by unfold qlen; linarith)
  have bdd := bd q.d.val (by unfold qlen; linarith)
  have hl : k * qlen q = k * q.a.val ^ 2 + k * q.b.val ^ 2 + k * q.c.val ^ 2 + k * q.d.val ^ 2 := by unfold qlen; ring
  rw [hl] at k1 k2
  have pa := mul_nonneg hk.le na
  have pb := mul_nonneg hk.le nb
  have pc := mul_nonneg hk.le nc
  have pd := mul_nonneg hk.le nd
  have fin : ∀ e1 e2 e3 e4 A B C D : ℚ, |e1| ≤ (A + B) / 2 / 2 ^ 24 + 1 / 2 ^ 88 → |e2| ≤ (B + A) / 2 / 2 ^ 24 + 1 / 2 ^ 88 →
      |e3| ≤ (C + D) / 2 / 2 ^ 24 + 1 / 2 ^ 88 → |e4| ≤ (D + C) / 2 / 2 ^ 24 + 1 / 2 ^ 88 →
      0 ≤ A → 0 ≤ B → 0 ≤ C → 0 ≤ D → A + B + C + D ≤ 9 / 8 * (1 + 1 / 2 ^ 20) → ∀ s : ℚ, s = e1 + e2 + e3 - e4 →
      |s| ≤ 1 / 2 ^ 21 := fun e1 e2 e3 e4 A B C D h1 h2 h3 h4 h5 h6 h7 h8 h9 s hs => by
    rw [abs_le] at *
    subst hs
    norm_num at *
    constructor <;> linarith
  refine ⟨?_, ?_, ?_, ?_, ?_⟩
  · have aa := (abs_le.1 (key _ _ _ ea ba)).1
    have bb' := (abs_le.1 (key _ _ _ eb bb)).2
    have cc := (abs_le.1 (key _ _ _ ec bc)).2
    have dd := (abs_le.1 (key _ _ _ ed bdd)).2
    clear key fin bd ea eb ec ed e1 e2 e3 e4 hr hl ba bb bc bdd
    norm_num at *
    linarith
  · have aa := (abs_le.1 (key _ _ _ ea ba)).2
    have bb' := (abs_le.1 (key _ _ _ eb bb)).1
    have cc := (abs_le.1 (key _ _ _ ec bc)).1
    have dd := (abs_le.1 (key _ _ _ ed bdd)).1
    clear key fin bd ea eb ec ed e1 e2 e3 e4 hr hl ba bb bc bdd
    norm_num at *
    linarith
  · exact fin _ _ _ _ _ _ _ _ (key _ _ _ eb ba) (key _ _ _ ea bb) (key _ _ _ ed bc) (key _ _ _ ec bdd) pa pb pc pd k2 _ (by ring)
  · refine fin _ _ _ _ _ _ _ _ (key _ _ _ ec ba) (key _ _ _ ea bc) (key _ _ _ eb bdd) (key _ _ _ ed bb) pa pc pd pb (by linarith) _ (by ring)
  · refine fin _ _ _ _ _ _ _ _ (key _ _ _ ed ba) (key _ _ _ ea bdd) (key _ _ _ ec bb) (key _ _ _ eb bc) pa pd pb pc (by linarith) _ (by ring)

/-! ### C90: rotation -/

omit [Cfg] in
theorem Acc.weaken {x : F32} {S A E A' E' : ℚ} (h : Acc x S A E) (hA : A ≤ A') (hE : E ≤ E') : Acc x S A' E' :=
  ⟨h.fin, h.err.trans hE, h.abs.trans hA⟩

/-- Product of an accumulated float with an exact one. -/
theorem Acc.mulE {x v : F32} {S A E : ℚ} (hx : Acc x S A E) (fv : v.isFinite = true) (h : (A + E) * |v.val| ≤ 2 ^ 125) :
    Acc (x * v) (S * v.val) (A * |v.val|) (E * |v.val| + (A + E) * |v.val| / 2 ^ 24 + 1 / 2 ^ 150) := by
  have hb : |x.val * v.val| ≤ (A + E) * |v.val| := by
    rw [abs_mul]
    refine mul_le_mul_of_nonneg_right ?_ (abs_nonneg _)
    have h1 := abs_le.1 hx.err
    have h2 := abs_le.1 hx.abs
    rw [abs_le]; constructor <;> linarith
  obtain ⟨f, e⟩ := mul_err_uf hx.fin fv (lt_of_le_of_lt (hb.trans h) (by norm_num [ovf]))
  refine ⟨f, ?_, ?_⟩
  · have h1 : |x.val * v.val - S * v.val| ≤ E * |v.val| := by
      rw [← sub_mul, abs_mul]; exact mul_le_mul_of_nonneg_right hx.err (abs_nonneg _)
    have h2 : |x.val * v.val| / 2 ^ 24 ≤ (A + E) * |v.val| / 2 ^ 24 := by
      exact div_le_div_of_nonneg_right hb (by norm_num)
    have := abs_sub_le (x * v).val (x.val * v.val) (S * v.val)
    linarith
  · rw [abs_mul]; exact mul_le_mul_of_nonneg_right hx.abs (abs_nonneg _)

/-- Sum of three products of coefficients bounded by `Q` with exact floats. -/
theorem row_err {x y z u v w : F32} {S T R Q : ℚ} (hx : Acc x S Q (7 / 2 ^ 24 * Q + 1 / 2 ^ 145)) (hy : Acc y T Q (7 / 2 ^ 24 * Q + 1 / 2 ^ 145))
    (hz : Acc z R Q (7 / 2 ^ 24 * Q + 1 / 2 ^ 145)) (fu : u.isFinite = true) (fv : v.isFinite = true) (fw : w.isFinite = true)
    (hL : |u.val| + |v.val| + |w.val| ≤ 2 ^ 120) (hQ : Q * (|u.val| + |v.val| + |w.val|) ≤ 2 ^ 120) (hQ0 : 0 ≤ Q) :
    (x * u + y * v + z * w).isFinite = true ∧
      |(x * u + y * v + z * w).val - (S * u.val + T * v.val + R * w.val)| ≤
        11 / 2 ^ 24 * (Q * (|u.val| + |v.val| + |w.val|)) + (|u.val| + |v.val| + |w.val| + 1) / 2 ^ 143 := by
  have nu := abs_nonneg u.val
  have nv := abs_nonneg v.val
  have nw := abs_nonneg w.val
  have pu := mul_nonneg hQ0 nu
  have pv := mul_nonneg hQ0 nv
  have pw := mul_nonneg hQ0 nw
  have hQ' : Q * |u.val| + Q * |v.val| + Q * |w.val| ≤ 2 ^ 120 := by linarith
  have a1 := hx.mulE fu (by
    rw [show (Q + (7 / 2 ^ 24 * Q + 1 / 2 ^ 145)) * |u.val| = (1 + 7 / 2 ^ 24) * (Q * |u.val|) + |u.val| / 2 ^ 145 by ring]
    linarith)
  have a2 := hy.mulE fv (by
    rw [show (Q + (7 / 2 ^ 24 * Q + 1 / 2 ^ 145)) * |v.val| = (1 + 7 / 2 ^ 24) * (Q * |v.val|) + |v.val| / 2 ^ 145 by ring]
    linarith)
  have a3 := hz.mulE fw (by
    rw [show (Q + (7 / 2 ^ 24 * Q + 1 / 2 ^ 145)) * |w.val| = (1 + 7 / 2 ^ 24) * (Q * |w.val|) + |w.val| / 2 ^ 145 by ring]
    linarith)
  have wk : ∀ t : ℚ, 0 ≤ t → 0 ≤ Q * t → (7 / 2 ^ 24 * Q + 1 / 2 ^ 145) * t + (Q + (7 / 2 ^ 24 * Q + 1 / 2 ^ 145)) * t / 2 ^ 24 + 1 / 2 ^ 150
      ≤ 81 / 10 / 2 ^ 24 * (Q * t) + 11 / 10 * t / 2 ^ 145 + 1 / 2 ^ 150 := fun t ht hqt => by
    rw [show (7 / 2 ^ 24 * Q + 1 / 2 ^ 145) * t + (Q + (7 / 2 ^ 24 * Q + 1 / 2 ^ 145)) * t / 2 ^ 24 + 1 / 2 ^ 150
      = (8 / 2 ^ 24 + 7 / 2 ^ 48) * (Q * t) + t / 2 ^ 145 * (1 + 1 / 2 ^ 24) + 1 / 2 ^ 150 by ring]
    linarith
  have b1 := a1.weaken le_rfl (wk _ nu pu)
  have b2 := a2.weaken le_rfl (wk _ nv pv)
  have b3 := a3.weaken le_rfl (wk _ nw pw)
  have s1 := (Acc.step b1 b2 (by linarith)).1
  have s2 := (Acc.step s1 b3 (by linarith)).1
  refine ⟨s2.fin, s2.err.trans ?_⟩
  rw [mul_add, mul_add]
  linarith

omit [Cfg] in
theorem fin_two : (lit 2 1 : F32).isFinite = true := by decide +kernel

/-- Sum or difference of two products, doubled. -/
theorem off_err {x y u v : F32} {Q : ℚ} (fx : x.isFinite = true) (fy : y.isFinite = true) (fu : u.isFinite = true) (fv : v.isFinite = true)
    (h : x.val ^ 2 + y.val ^ 2 + u.val ^ 2 + v.val ^ 2 ≤ Q) (hQ : Q ≤ 2 ^ 120) :
    Acc (lit 2 1 * (x * y - u * v)) (2 * (x.val * y.val - u.val * v.val)) Q (7 / 2 ^ 24 * Q + 1 / 2 ^ 145) ∧
    Acc (lit 2 1 * (x * y + u * v)) (2 * (x.val * y.val + u.val * v.val)) Q (7 / 2 ^ 24 * Q + 1 / 2 ^ 145) := by
  have p1 : |x.val * y.val| ≤ (x.val ^ 2 + y.val ^ 2) / 2 := by
    rw [abs_le]; constructor <;> nlinarith [sq_nonneg (x.val - y.val), sq_nonneg (x.val + y.val)]
  have p2 : |u.val * v.val| ≤ (u.val ^ 2 + v.val ^ 2) / 2 := by
    rw [abs_le]; constructor <;> nlinarith [sq_nonneg (u.val - v.val), sq_nonneg (u.val + v.val)]
  have n1 := abs_nonneg (x.val * y.val)
  have n2 := abs_nonneg (u.val * v.val)
  have a1 := Acc.mul fx fy (by linarith)
  have a2 := Acc.mul fu fv (by linarith)
  obtain ⟨sp, sm⟩ := Acc.step a1 a2 (by linarith)
  have two : ∀ {z : F32} {S : ℚ}, Acc z S (|x.val * y.val| + |u.val * v.val|) (|x.val * y.val| / 2 ^ 24 + 1 / 2 ^ 150 + (|u.val * v.val| / 2 ^ 24 + 1 / 2 ^ 150) +
      (|x.val * y.val| + |u.val * v.val| + (|x.val * y.val| / 2 ^ 24 + 1 / 2 ^ 150) + (|u.val * v.val| / 2 ^ 24 + 1 / 2 ^ 150)) / 2 ^ 24) →
      Acc (lit 2 1 * z) (2 * S) Q (7 / 2 ^ 24 * Q + 1 / 2 ^ 145) := fun {z S} hz => by
    have hS := abs_le.1 hz.abs
    have hE := abs_le.1 hz.err
    have hb : |(lit 2 1 : F32).val * z.val| ≤ (1 + 3 / 2 ^ 24) * Q + 1 / 2 ^ 140 := by
      rw [val_lit_2_1, abs_le]; constructor <;> linarith
    obtain ⟨f, e⟩ := mul_err_uf fin_two hz.fin (lt_of_le_of_lt hb (by unfold ovf; linarith))
    rw [val_lit_2_1] at e hb
    have e := abs_le.1 e
    refine ⟨f, ?_, ?_⟩
    · rw [abs_le]; constructor <;> linarith
    · rw [abs_le]; constructor <;> linarith
  exact ⟨two sm, two sp⟩

/-- A signed sum of four squares, one plus and one minus at least among the last three. -/
theorem diag_err {x y u v : F32} {Q : ℚ} (fx : x.isFinite = true) (fy : y.isFinite = true) (fu : u.isFinite = true) (fv : v.isFinite = true)
    (h : x.val ^ 2 + y.val ^ 2 + u.val ^ 2 + v.val ^ 2 ≤ Q) (hQ : Q ≤ 2 ^ 120) :
    Acc (x * x + y * y - u * u - v * v) (x.val ^ 2 + y.val ^ 2 - u.val ^ 2 - v.val ^ 2) Q (7 / 2 ^ 24 * Q + 1 / 2 ^ 145) ∧
    Acc (x * x - y * y + u * u - v * v) (x.val ^ 2 - y.val ^ 2 + u.val ^ 2 - v.val ^ 2) Q (7 / 2 ^ 24 * Q + 1 / 2 ^ 145) ∧
    Acc (x * x - y * y - u * u + v * v) (x.val ^ 2 - y.val ^ 2 - u.val ^ 2 + v.val ^ 2) Q (7 / 2 ^ 24 * Q + 1 / 2 ^ 145) := by
  have ax : |x.val * x.val| = x.val ^ 2 := by rw [abs_mul_self]; ring
  have ay : |y.val * y.val| = y.val ^ 2 := by rw [abs_mul_self]; ring
  have au : |u.val * u.val| = u.val ^ 2 := by rw [abs_mul_self]; ring
  have av : |v.val * v.val| = v.val ^ 2 := by rw [abs_mul_self]; ring
  have nx := sq_nonneg x.val
  have ny := sq_nonneg y.val
  have nu := sq_nonneg u.val
  have nv := sq_nonneg v.val
  have a1 := Acc.mul fx fx (by rw [ax]; linarith)
  have a2 := Acc.mul fy fy (by rw [ay]; linarith)
  have a3 := Acc.mul fu fu (by rw [au]; linarith)
  have a4 := Acc.mul fv fv (by rw [av]; linarith)
  rw [ax] at a1; rw [ay] at a2; rw [au] at a3; rw [av] at a4
  have e : ∀ t : ℚ, t * t = t ^ 2 := fun t => by ring
  rw [e] at a1 a2 a3 a4
  have s := Acc.step a1 a2 (by linarith)
  have sp := Acc.step s.1 a3 (by linarith)
  have sm := Acc.step s.2 a3 (by linarith)
  refine ⟨(Acc.step sp.2 a4 (by linarith)).2.weaken (by linarith) ?_, (Acc.step sm.1 a4 (by linarith)).2.weaken (by linarith) ?_,
    (Acc.step sm.2 a4 (by linarith)).1.weaken (by linarith) ?_⟩ <;> norm_num at * <;> linarith

/-- The vector `(x, y, z)` as a quaternion. -/
def pureR (x y z : ℚ) : _root_.Quaternion ℚ := ⟨0, x, y, z⟩

/-- The exact rotation: vector part of `q v q*`. -/
def sand (q : Quaternion) (x y z : ℚ) : _root_.Quaternion ℚ := qval q * pureR x y z * star (qval q)

omit [Cfg] in
theorem sand_eq (q : Quaternion) (x y z : ℚ) :
    (sand q x y z).re = 0 ∧
    (sand q x y z).imI = (q.a.val ^ 2 + q.b.val ^ 2 - q.c.val ^ 2 - q.d.val ^ 2) * x + 2 * (q.b.val * q.c.val - q.a.val * q.d.val) * y +
      2 * (q.b.val * q.d.val + q.a.val * q.c.val) * z ∧
    (sand q x y z).imJ = 2 * (q.b.val * q.c.val + q.a.val * q.d.val) * x + (q.a.val ^ 2 - q.b.val ^ 2 + q.c.val ^ 2 - q.d.val ^ 2) * y +
      2 * (q.c.val * q.d.val - q.a.val * q.b.val) * z ∧
    (sand q x y z).imK = 2 * (q.b.val * q.d.val - q.a.val * q.c.val) * x + 2 * (q.c.val * q.d.val + q.a.val * q.b.val) * y +
      (q.a.val ^ 2 - q.b.val ^ 2 - q.c.val ^ 2 + q.d.val ^ 2) * z := by
  have e1 : (pureR x y z).re = 0 := rfl
  have e2 : (pureR x y z).imI = x := rfl
  have e3 : (pureR x y z).imJ = y := rfl
  have e4 : (pureR x y z).imK = z := rfl
  have f1 : (qval q).re = q.a.val := rfl
  have f2 : (qval q).imI = q.b.val := rfl
  have f3 : (qval q).imJ = q.c.val := rfl
  have f4 : (qval q).imK = q.d.val := rfl
  refine ⟨?_, ?_, ?_, ?_⟩ <;>
  · simp only [sand, _root_.Quaternion.re_mul, _root_.Quaternion.imI_mul, _root_.Quaternion.imJ_mul,
      _root_.Quaternion.imK_mul, _root_.Quaternion.re_star, _root_.Quaternion.imI_star, _root_.Quaternion.imJ_star,
      _root_.Quaternion.imK_star, e1, e2, e3, e4, f1, f2, f3, f4]
    ring

/-- **C90.** Forward error of `rotate` against the exact sandwich product `q v q*`, underflow included. -/
theorem C90_rotate_err {C : Type} [IntoF32 C] (q : Quaternion) (v : Vector3d C) (hq : QFinite q)
    (fx : (IntoF32.into v.x : F32).isFinite = true) (fy : (IntoF32.into v.y : F32).isFinite = true) (fz : (IntoF32.into v.z : F32).isFinite = true)
    (hQ : qlen q ≤ 2 ^ 120) {x y z L : ℚ} (hx : x = (IntoF32.into v.x : F32).val) (hy : y = (IntoF32.into v.y : F32).val)
    (hz : z = (IntoF32.into v.z : F32).val) (hL : L = |x| + |y| + |z|) (hL1 : L ≤ 2 ^ 120) (hQL : qlen q * L ≤ 2 ^ 120) :
    (q.rotate v).x.isFinite = true ∧ (q.rotate v).y.isFinite = true ∧ (q.rotate v).z.isFinite = true ∧
      |(q.rotate v).x.val - (sand q x y z).imI| ≤ 11 / 2 ^ 24 * (qlen q * L) + (L + 1) / 2 ^ 143 ∧
      |(q.rotate v).y.val - (sand q x y z).imJ| ≤ 11 / 2 ^ 24 * (qlen q * L) + (L + 1) / 2 ^ 143 ∧
      |(q.rotate v).z.val - (sand q x y z).imK| ≤ 11 / 2 ^ 24 * (qlen q * L) + (L + 1) / 2 ^ 143 := by
  obtain ⟨-, e1, e2, e3⟩ := sand_eq q x y z
  rw [e1, e2, e3]
  subst hx hy hz hL
  obtain ⟨fa, fb, fc, fd⟩ := hq
  have hl : qlen q = q.a.val ^ 2 + q.b.val ^ 2 + q.c.val ^ 2 + q.d.val ^ 2 := rfl
  have hQ0 : 0 ≤ qlen q := by rw [hl]; positivity
  obtain ⟨d1, d2, d3⟩ := diag_err fa fb fc fd hl.ge hQ
  have o1 := off_err fb fc fa fd (by rw [hl]; linarith) hQ
  have o2 := off_err fb fd fa fc (by rw [hl]; linarith) hQ
  have o3 := off_err fc fd fa fb (by rw [hl]; linarith) hQ
  obtain ⟨g1, r1⟩ := row_err d1 o1.1 o2.2 fx fy fz hL1 hQL hQ0
  obtain ⟨g2, r2⟩ := row_err o1.2 d2 o3.1 fx fy fz hL1 hQL hQ0
  obtain ⟨g3, r3⟩ := row_err o2.1 o3.2 d3 fx fy fz hL1 hQL hQ0
  exact ⟨g1, g2, g3, r1, r2, r3⟩

omit [Cfg] in
/-- The exact rotation multiplies squared lengths by the square of the squared length of `q`. -/
theorem sand_len (q : Quaternion) (x y z : ℚ) :
    (sand q x y z).imI ^ 2 + (sand q x y z).imJ ^ 2 + (sand q x y z).imK ^ 2 = qlen q ^ 2 * (x ^ 2 + y ^ 2 + z ^ 2) := by
  obtain ⟨-, e1, e2, e3⟩ := sand_eq q x y z
  rw [e1, e2, e3, qlen]
  ring

omit [Cfg] in
theorem sq_err {r w e B : ℚ} (h : |r - w| ≤ e) (hw : |w| ≤ B) : |r ^ 2 - w ^ 2| ≤ e * (2 * B + e) := by
  rw [show r ^ 2 - w ^ 2 = (r - w) * (r + w) by ring, abs_mul]
  refine mul_le_mul h ?_ (abs_nonneg _) ((abs_nonneg _).trans h)
  have h1 := abs_le.1 h
  have h2 := abs_le.1 hw
  rw [abs_le]; constructor <;> linarith

set_option maxHeartbeats 1000000 in
/-- **C90.** Rotating by a quaternion of exact squared length `X` within `0.92 .. 1.08`, for example any result of `normalize`
(C70), multiplies the exact squared length of a vector by `X^2` up to `2e-5`. -/
theorem C90_rotate_scale {C : Type} [IntoF32 C] (q : Quaternion) (v : Vector3d C) (hq : QFinite q)
    (fx : (IntoF32.into v.x : F32).isFinite = true) (fy : (IntoF32.into v.y : F32).isFinite = true) (fz : (IntoF32.into v.z : F32).isFinite = true)
    (h1 : 0.92 ≤ qlen q) (h2 : qlen q ≤ 1.08) (l1 : 1 / 2 ^ 200 ≤ len3 v) (l2 : len3 v ≤ 2 ^ 236) :
    |len3 (q.rotate v) - qlen q ^ 2 * len3 v| ≤ 2e-5 * len3 v := by
  obtain ⟨x, hx⟩ : ∃ x, x = (IntoF32.into v.x : F32).val := ⟨_, rfl⟩
  obtain ⟨y, hy⟩ : ∃ y, y = (IntoF32.into v.y : F32).val := ⟨_, rfl⟩
  obtain ⟨z, hz⟩ : ∃ z, z = (IntoF32.into v.z : F32).val := ⟨_, rfl⟩
  obtain ⟨L, hL⟩ : ∃ L, L = |x| + |y| + |z| := ⟨_, rfl⟩
  have hl : len3 v = x ^ 2 + y ^ 2 + z ^ 2 := by rw [hx, hy, hz]; rfl
  have hL0 : 0 ≤ L := by rw [hL]; positivity
  have hLs : L ^ 2 ≤ 3 * len3 v := by
    rw [hl, hL, ← sq_abs x, ← sq_abs y, ← sq_abs z]
    nlinarith [sq_nonneg (|x| - |y|), sq_nonneg (|y| - |z|), sq_nonneg (|x| - |z|)]
  have hLs2 : len3 v ≤ L ^ 2 := by
    rw [hl, hL, ← sq_abs x, ← sq_abs y, ← sq_abs z]
    have := mul_nonneg (abs_nonneg x) (abs_nonneg y)
    have := mul_nonneg (abs_nonneg x) (abs_nonneg z)
    have := mul_nonneg (abs_nonneg y) (abs_nonneg z)
    nlinarith
  have hLu : L ≤ 2 ^ 119 := by
    refine le_of_sq_le_sq ?_ (by norm_num)
    exact hLs.trans (le_trans (mul_le_mul_of_nonneg_left l2 (by norm_num)) (by norm_num))
  have hLl : 1 / 2 ^ 100 ≤ L := by
    refine le_of_sq_le_sq ?_ hL0
    exact le_trans (le_trans (by norm_num) l1) hLs2
  obtain ⟨-, -, -, r1, r2, r3⟩ := C90_rotate_err q v hq fx fy fz (by linarith) hx hy hz hL
    (by linarith) (by nlinarith)
  have hs := sand_len q x y z
  rw [← hl] at hs
  have hqL : qlen q * L ≤ 1.08 * L := mul_le_mul_of_nonneg_right h2 hL0
  have he : 11 / 2 ^ 24 * (qlen q * L) + (L + 1) / 2 ^ 143 ≤ 12 / 2 ^ 24 * L := by norm_num at hqL hLl ⊢; linarith
  have hB : ∀ w : ℚ, w ^ 2 ≤ qlen q ^ 2 * len3 v → |w| ≤ 1.08 * L := fun w hw => by
    refine abs_le_of_sq_le_sq (hw.trans ?_) (by positivity)
    have : qlen q ^ 2 ≤ 1.08 ^ 2 := by norm_num at h1 h2 ⊢; nlinarith
    have h3 : qlen q ^ 2 * len3 v ≤ 1.08 ^ 2 * L ^ 2 := mul_le_mul this hLs2 (by rw [hl]; positivity) (by norm_num)
    rw [mul_pow]; exact h3
  have n1 := sq_nonneg (sand q x y z).imI
  have n2 := sq_nonneg (sand q x y z).imJ
  have n3 := sq_nonneg (sand q x y z).imK
  have t1 := abs_le.1 (sq_err (r1.trans he) (hB _ (by linarith)))
  have t2 := abs_le.1 (sq_err (r2.trans he) (hB _ (by linarith)))
  have t3 := abs_le.1 (sq_err (r3.trans he) (hB _ (by linarith)))
  have hr : len3 (q.rotate v) = (q.rotate v).x.val ^ 2 + (q.rotate v).y.val ^ 2 + (q.rotate v).z.val ^ 2 := rfl
  rw [hr]
  have e3 : 12 / 2 ^ 24 * L * (2 * (1.08 * L) + 12 / 2 ^ 24 * L) = (12 / 2 ^ 24 * (2 * 1.08 + 12 / 2 ^ 24)) * L ^ 2 := by ring
  rw [e3] at t1 t2 t3
  rw [← hs]
  generalize len3 v = l at *
  generalize L ^ 2 = M at *
  clear e3 hr hB r1 r2 r3 hqL he
  rw [abs_le]
  constructor <;> norm_num at t1 t2 t3 hLs ⊢ <;> linarith

/-- **C90.** So the factor is within `0.84 .. 1.17`. -/
theorem C90_rotate_length {C : Type} [IntoF32 C] (q : Quaternion) (v : Vector3d C) (hq : QFinite q)
    (fx : (IntoF32.into v.x : F32).isFinite = true) (fy : (IntoF32.into v.y : F32).isFinite = true) (fz : (IntoF32.into v.z : F32).isFinite = true)
    (h1 : 0.92 ≤ qlen q) (h2 : qlen q ≤ 1.08) (l1 : 1 / 2 ^ 200 ≤ len3 v) (l2 : len3 v ≤ 2 ^ 236) :
    0.84 * len3 v ≤ len3 (q.rotate v) ∧ len3 (q.rotate v) ≤ 1.17 * len3 v := by
  have h := abs_le.1 (C90_rotate_scale q v hq fx fy fz h1 h2 l1 l2)
  have l0 : 0 ≤ len3 v := le_trans (by positivity) l1
  have q1 : 0.8464 * len3 v ≤ qlen q ^ 2 * len3 v := mul_le_mul_of_nonneg_right (by norm_num at h1 h2 ⊢; nlinarith) l0
  have q2 : qlen q ^ 2 * len3 v ≤ 1.1664 * len3 v := mul_le_mul_of_nonneg_right (by norm_num at h1 h2 ⊢; nlinarith) l0
  norm_num at h q1 q2 ⊢
  constructor <;> linarith

/-- A unit quaternion and `(3, -4, 12)` meet the hypotheses. -/
example : ∃ (q : Quaternion) (v : Vector3d F32), QFinite q ∧ qlen q = 1 ∧ v.x.isFinite = true ∧ v.y.isFinite = true ∧
    v.z.isFinite = true ∧ len3 v = 169 := by
  refine ⟨⟨lit 1 2, lit 1 2, -(lit 1 2), lit 1 2⟩, ⟨ofInt 3, ofInt (-4), ofInt 12⟩,
    ⟨by decide +kernel, by decide +kernel, by decide +kernel, by decide +kernel⟩, ?_,
    (ofInt_exact (by decide)).1, (ofInt_exact (by decide)).1, (ofInt_exact (by decide)).1, ?_⟩
  · simp only [qlen, val_neg, val_lit_1_2]; norm_num
  · show (ofInt 3).val ^ 2 + (ofInt (-4)).val ^ 2 + (ofInt 12).val ^ 2 = 169
    rw [(ofInt_exact (n := 3) (by decide)).2, (ofInt_exact (n := -4) (by decide)).2, (ofInt_exact (n := 12) (by decide)).2]
    norm_num

end Micromath.Props
