import Verif.Float.Scale
import Verif.Props.BitTricks
import Verif.Props.NormOrder
import Verif.Props.Stats
import Verif.Props.Atan2

/-!
# C111, C112, C113: exact laws under scaling by powers of two
-/

set_option exponentiation.threshold 1000

namespace Micromath.Props
open F32 Spec

variable [Cfg]

/-! ### C111: `sqrt`, `invsqrt`, `inv`, `recip` -/

omit [Cfg] in
theorem of_bits {y : F32} {b : Nat} (h : y.bits.toNat = b) (h1 : 2 ^ 23 ≤ b) (h2 : b < 255 * 2 ^ 23) :
    PosNormal y ∧ y.val = mval b := by
  have hm : y.mag = b := by rw [mag, h]; omega
  have hs : y.sign = false := by rw [sign, h]; simp; omega
  exact ⟨posNormal_iff.2 ⟨hs, by omega, by omega⟩, by rw [val_of_pos hs, hm]⟩

omit [Cfg] in
theorem toNat_of_pos {x : F32} (h : x.sign = false) : x.bits.toNat = x.mag := by
  rw [toNat_eq, h]; simp

omit [Cfg] in
/-- Bits of `2^k x`. -/
theorem scale_bits {x y : F32} {k : Nat} (hx : PosNormal x) (hy : y.isFinite = true) (h : y.val = 2 ^ k * x.val) :
    PosNormal y ∧ y.bits.toNat = x.bits.toNat + k * 2 ^ 23 ∧ 2 ^ 23 ≤ x.bits.toNat ∧ y.bits.toNat < 255 * 2 ^ 23 := by
  obtain ⟨s, m1, m2⟩ := posNormal_mag hx
  have hn : 1 / 2 ^ 126 ≤ x.val := le_trans (by norm_num) hx.2
  obtain ⟨s', m'⟩ := Sc.bits ⟨hx.1, hy, h⟩ s hn
  have hm := isFinite_iff.1 hy
  have : infMag = 255 * 2 ^ 23 := by decide
  refine ⟨posNormal_iff.2 ⟨s', by omega, by omega⟩, ?_⟩
  rw [toNat_of_pos s, toNat_of_pos s']
  omega

/-- **C111.** `sqrt(4^k x) = 2^k sqrt(x)` exactly, on positive normal numbers. -/
theorem C111_sqrt {x y : F32} {k : Nat} (hx : PosNormal x) (hy : y.isFinite = true) (h : y.val = 4 ^ k * x.val) :
    y.sqrt.val = 2 ^ k * x.sqrt.val := by
  rw [show (4 : ℚ) = 2 ^ 2 by norm_num, ← pow_mul] at h
  obtain ⟨py, hb, h1, h2⟩ := scale_bits hx hy h
  have ex := sqrt_toNat (posNormal_ge hx)
  have ey := sqrt_toNat (posNormal_ge py)
  obtain ⟨-, vx⟩ := of_bits ex (by omega) (by omega)
  obtain ⟨-, vy⟩ := of_bits ey (by omega) (by omega)
  rw [vx, vy, hb, ← mval_pow_two k (by omega)]
  congr 1
  omega

/-- **C111.** `invsqrt(4^k x) = invsqrt(x) / 2^k` exactly, on positive normal numbers. -/
theorem C111_invsqrt {x y : F32} {k : Nat} (hx : PosNormal x) (hy : y.isFinite = true) (h : y.val = 4 ^ k * x.val) :
    ∃ r s, x.invsqrt = .ok r ∧ y.invsqrt = .ok s ∧ s.val * 2 ^ k = r.val := by
  rw [show (4 : ℚ) = 2 ^ 2 by norm_num, ← pow_mul] at h
  obtain ⟨py, hb, h1, h2⟩ := scale_bits hx hy h
  obtain ⟨r, hr, er⟩ := invsqrt_ok (x := x) (by omega)
  obtain ⟨s, hs, es⟩ := invsqrt_ok (x := y) (by omega)
  obtain ⟨-, vr⟩ := of_bits er (by omega) (by omega)
  obtain ⟨-, vs⟩ := of_bits es (by omega) (by omega)
  refine ⟨r, s, hr, hs, ?_⟩
  rw [vr, vs, mul_comm, ← mval_pow_two k (by omega)]
  congr 1
  omega

/-- **C111.** `inv(2^k x) = inv(x) / 2^k` exactly, on positive normal numbers with `2^k x <= 2^126`. -/
theorem C111_inv {x y : F32} {k : Nat} (hx : PosNormal x) (hy : y.isFinite = true) (h : y.val = 2 ^ k * x.val) (hu : y.val ≤ 2 ^ 126) :
    y.inv.val * 2 ^ k = x.inv.val := by
  obtain ⟨py, hb, h1, h2⟩ := scale_bits hx hy h
  have hle : y.bits.toNat ≤ 253 * 2 ^ 23 := by
    obtain ⟨s, -, -⟩ := posNormal_mag py
    rw [toNat_of_pos s, ← mval_le, ← val_of_pos s]
    refine hu.trans (le_of_eq ?_)
    unfold mval magU; norm_num
  have ex := inv_toNat (x := x) (by omega)
  have ey := inv_toNat (x := y) (by omega)
  obtain ⟨-, vx⟩ := of_bits ex (by omega) (by omega)
  obtain ⟨-, vy⟩ := of_bits ey (by omega) (by omega)
  rw [vx, vy, mul_comm, ← mval_pow_two k (by omega)]
  congr 1
  omega

/-- **C111.** `recip(2^k x) = recip(x) / 2^k` exactly, for `2^-126 <= x` and `2^k x <= 2^125`. -/
theorem C111_recip {x y : F32} {k : Nat} (hx : PosNormal x) (hy : y.isFinite = true) (h : y.val = 2 ^ k * x.val) (hu : y.val ≤ 2 ^ 125) :
    y.recip.val * 2 ^ k = x.recip.val := by
  obtain ⟨py, hb, h1, h2⟩ := scale_bits hx hy h
  have hk : (1 : ℚ) ≤ 2 ^ k := one_le_pow₀ (by norm_num)
  have lx : 1 / 2 ^ 126 ≤ x.val := le_trans (by norm_num) hx.2
  have ly : 1 / 2 ^ 126 ≤ y.val := le_trans (by norm_num) py.2
  have x0 : 0 < x.val := lt_of_lt_of_le (by norm_num) lx
  have y0 : 0 < y.val := lt_of_lt_of_le (by norm_num) ly
  have ux : x.val ≤ 2 ^ 125 := by rw [h] at hu; nlinarith
  have hle : y.bits.toNat ≤ 252 * 2 ^ 23 := by
    obtain ⟨s, -, -⟩ := posNormal_mag py
    rw [toNat_of_pos s, ← mval_le, ← val_of_pos s]
    refine hu.trans (le_of_eq ?_)
    unfold mval magU; norm_num
  have sx : x.sign = false := (posNormal_mag hx).1
  have sy : y.sign = false := (posNormal_mag py).1
  obtain ⟨w, v, hv, hw, fw, -, -, rx, fv, -, frx, -⟩ := recip_pos hx lx ux
  obtain ⟨w', v', hv', hw', fw', -, -, ry, fv', -, fry, -⟩ := recip_pos py ly hu
  have bv : ∀ z : F32, z.bits.toNat ≤ 252 * 2 ^ 23 → (fromBits (0x7EF127EA#32 - z.toBits)).bits.toNat = 0x7EF127EA - z.bits.toNat := by
    intro z hz
    rw [fromBits, toBits, BitVec.toNat_sub, show (0x7EF127EA#32).toNat = 0x7EF127EA by rfl]
    omega
  have ev := bv x (by omega)
  have ev' := bv y (by omega)
  rw [← hv] at ev
  rw [← hv'] at ev'
  obtain ⟨pv, vv⟩ := of_bits ev (by omega) (by omega)
  obtain ⟨pv', vv'⟩ := of_bits ev' (by omega) (by omega)
  have hvs : v.val = 2 ^ k * v'.val := by
    rw [vv, vv', ← mval_pow_two k (by omega)]
    exact congrArg mval (by omega)
  have hww : w' = w := by
    have e : y.val * v'.val = x.val * v.val := by rw [hvs, h]; ring
    rw [hw, hw', mul_finite hx.1 fv, mul_finite hy fv', sx, sy, (posNormal_mag pv).1, (posNormal_mag pv').1, e]
  rw [hww] at ry
  have hfin : (v * recipPoly w).isFinite = true := by rw [← rx]; exact frx
  have hfin' : (v' * recipPoly w).isFinite = true := by rw [← ry]; exact fry
  obtain ⟨-, fp, ho⟩ := mul_finite_inv hfin
  have hu' : 1 / 2 ^ 126 ≤ |v'.val * (recipPoly w).val| := by
    by_contra hc
    have hr := abs_RN_le_of_rep (q := v'.val * (recipPoly w).val) (c := 1 / 2 ^ 126)
      (by rw [show (1 : ℚ) / 2 ^ 126 = ((1 : Int) : ℚ) * 2 ^ (-126 : Int) by norm_num]; exact rep_zpow (by norm_num) (by norm_num))
      (not_le.1 hc).le
    rw [← mul_finite_val hfin', ← ry] at hr
    obtain ⟨-, e2, -⟩ := C21_recip y hy (by rw [abs_of_pos y0]; exact ly) (by rw [abs_of_pos y0]; exact hu)
    have := (abs_le.1 e2).1
    have h3 : y.val * y.recip.val ≤ 2 ^ 125 * (1 / 2 ^ 126) := by
      refine (mul_le_mul_of_nonneg_left ((le_abs_self _).trans hr) y0.le).trans ?_
      exact mul_le_mul_of_nonneg_right hu (by norm_num)
    clear * - this h3
    norm_num at *
    linarith
  have := (Sc.mul (k := 0) ⟨fv', fv, hvs⟩ ⟨fp, fp, by simp⟩ ho (Or.inr hu')).eq
  rw [rx, ry, this, add_zero]
  ring

/-- `3` and `12`, and `3` and `6`. -/
example : PosNormal (⟨0x40400000#32⟩ : F32) ∧ (⟨0x41400000#32⟩ : F32).val = 4 ^ 1 * (⟨0x40400000#32⟩ : F32).val ∧
    (⟨0x40c00000#32⟩ : F32).val = 2 ^ 1 * (⟨0x40400000#32⟩ : F32).val ∧ (⟨0x40c00000#32⟩ : F32).val ≤ 2 ^ 125 := by
  have h1 : (⟨0x40400000#32⟩ : F32).val = 3 := by rw [val_of_units (u := 3 * 2 ^ 149) (by decide +kernel)]; norm_num
  have h2 : (⟨0x41400000#32⟩ : F32).val = 12 := by rw [val_of_units (u := 12 * 2 ^ 149) (by decide +kernel)]; norm_num
  have h3 : (⟨0x40c00000#32⟩ : F32).val = 6 := by rw [val_of_units (u := 6 * 2 ^ 149) (by decide +kernel)]; norm_num
  rw [h1, h2, h3]
  exact ⟨⟨by decide, by rw [h1]; norm_num⟩, by norm_num, by norm_num, by norm_num⟩

/-! ### C112: `hypot`, `magnitude`, `normalized`, `atan2` -/

/-- Finite sums have finite parts. -/
theorem Sc.add' {k : Nat} {x x' y y' : F32} (hx : Sc k x x') (hy : Sc k y y') (h : (x' + y').isFinite = true) :
    Sc k (x + y) (x' + y') := Sc.add hx hy (add_finite_inv h).2.2

theorem foldl_start_finite (l : List F32) (a : F32) (h : (l.foldl (· + ·) a).isFinite = true) : a.isFinite = true := by
  induction l generalizing a with
  | nil => exact h
  | cons x l ih => exact (add_finite_inv (ih _ h)).1

/-- Sums of scaled lists. -/
theorem Sc.foldl {k : Nat} {l l' : List F32} (hl : List.Forall₂ (Sc k) l l') {a a' : F32} (ha : Sc k a a')
    (h : (l'.foldl (· + ·) a').isFinite = true) : Sc k (l.foldl (· + ·) a) (l'.foldl (· + ·) a') := by
  induction hl generalizing a a' with
  | nil => exact ha
  | cons hx _ ih => exact ih (Sc.add' ha hx (foldl_start_finite _ _ h)) h

theorem foldl_ge (l : List F32) (a : F32) (h : (l.foldl (· + ·) a).isFinite = true) (hl : ∀ x ∈ l, 0 ≤ x.val) (ha : 0 ≤ a.val) :
    a.val ≤ (l.foldl (· + ·) a).val ∧ ∀ x ∈ l, x.val ≤ (l.foldl (· + ·) a).val := by
  induction l generalizing a with
  | nil => exact ⟨le_rfl, by simp⟩
  | cons x l ih =>
    have hx : 0 ≤ x.val := hl x (by simp)
    have hf : (a + x).isFinite = true := foldl_start_finite l _ h
    have hv := add_finite_val hf
    have h1 : a.val ≤ (a + x).val := by rw [hv]; exact le_RN_of_rep (rep_val a) (by linarith)
    have h2 : x.val ≤ (a + x).val := by rw [hv]; exact le_RN_of_rep (rep_val x) (by linarith)
    obtain ⟨i1, i2⟩ := ih (a + x) h (fun y hy => hl y (by simp [hy])) (ha.trans h1)
    refine ⟨h1.trans i1, fun y hy => ?_⟩
    rcases List.mem_cons.1 hy with rfl | hy
    · exact h2.trans i1
    · exact i2 y hy

omit [Cfg] in
/-- `x` is zero or its square does not underflow. -/
def SqOK (x : F32) : Prop := x.val = 0 ∨ 1 / 2 ^ 126 ≤ x.val ^ 2

theorem sc_sq {k : Nat} {x x' : F32} (h : Sc k x x') (hf : (x' * x').isFinite = true) (hu : SqOK x) : Sc (2 * k) (x * x) (x' * x') := by
  rw [two_mul]
  refine Sc.mul h h (mul_finite_inv hf).2.2 ?_
  rcases hu with hu | hu
  · left; rw [hu, mul_zero]
  · right; rw [← sq, abs_of_nonneg (sq_nonneg _)]; exact hu

theorem sqrt_pos {x : F32} (h : PosNormal x) : x.sqrt.isFinite = true ∧ 0 < x.sqrt.val := by
  obtain ⟨s, m1, m2⟩ := posNormal_mag h
  have e := sqrt_toNat (posNormal_ge h)
  have hb := toNat_of_pos s
  obtain ⟨p, -⟩ := of_bits e (by omega) (by omega)
  exact ⟨p.1, lt_of_lt_of_le (by norm_num) p.2⟩

/-- The square root of a sum of squares of a scaled list. -/
theorem sqrt_sum_scale {k : Nat} {l l' : List F32} (hl : List.Forall₂ (Sc k) l l') (hu : ∀ x ∈ l, SqOK x)
    (hn : ∃ x ∈ l, x.val ≠ 0) {a : F32} (ha : IsVal a 0)
    (h : ((l'.map fun x => x * x).foldl (· + ·) a).isFinite = true) :
    Sc k ((l.map fun x => x * x).foldl (· + ·) a).sqrt ((l'.map fun x => x * x).foldl (· + ·) a).sqrt ∧
      0 < ((l.map fun x => x * x).foldl (· + ·) a).sqrt.val := by
  have hel : ∀ (m : List F32) (b : F32), (m.foldl (· + ·) b).isFinite = true → ∀ x ∈ m, x.isFinite = true := by
    intro m
    induction m with
    | nil => simp
    | cons y m ih =>
      intro b hb x hx
      rcases List.mem_cons.1 hx with rfl | hx
      · exact (add_finite_inv (foldl_start_finite m _ hb)).2.1
      · exact ih _ hb x hx
  have hsq : List.Forall₂ (Sc (2 * k)) (l.map fun x => x * x) (l'.map fun x => x * x) := by
    have hq := hel _ _ h
    clear h hn
    induction hl with
    | nil => exact List.Forall₂.nil
    | cons hx _ ih =>
      refine List.Forall₂.cons (sc_sq hx (hq _ (by simp)) (hu _ (by simp))) (ih (fun x hx => hu x (by simp [hx])) (fun x hx => hq x ?_))
      rw [List.map_cons]; exact List.mem_cons_of_mem _ hx
  have hs := Sc.foldl hsq (a := a) (a' := a) ⟨ha.1, ha.1, by rw [ha.2, mul_zero]⟩ h
  have hnn : ∀ y ∈ l.map (fun x => x * x), y.isFinite = true ∧ 0 ≤ y.val := by
    intro y hy
    have fy := hel _ _ hs.fx y hy
    obtain ⟨x, -, rfl⟩ := List.mem_map.1 hy
    refine ⟨fy, ?_⟩
    rw [mul_finite_val fy]
    exact RN_nonneg (mul_self_nonneg _)
  obtain ⟨x, hx, hx0⟩ := hn
  have hxm : x * x ∈ l.map (fun x => x * x) := List.mem_map.2 ⟨x, hx, rfl⟩
  have hge := (foldl_ge _ a hs.fx (fun y hy => (hnn y hy).2) (by rw [ha.2])).2 _ hxm
  have hpn : PosNormal ((l.map fun x => x * x).foldl (· + ·) a) := by
    refine ⟨hs.fx, le_trans ?_ hge⟩
    rw [mul_finite_val (hnn _ hxm).1]
    have h2 : 1 / 2 ^ 126 ≤ x.val ^ 2 := (hu x hx).resolve_left hx0
    rw [sq] at h2
    refine le_RN_of_rep ?_ h2
    rw [show (1 : ℚ) / 2 ^ 126 = 2 ^ (-126 : Int) by norm_num]
    exact rep_pow (by norm_num)
  have e := C111_sqrt hpn hs.fy (k := k) (by rw [hs.eq, pow_mul]; norm_num)
  have hpn' := (scale_bits hpn hs.fy hs.eq).1
  obtain ⟨f1, p1⟩ := sqrt_pos hpn
  exact ⟨⟨f1, (sqrt_pos hpn').1, e⟩, p1⟩

/-- **C112.** `hypot(2^k x, 2^k y) = 2^k hypot(x, y)` exactly, as long as the squares neither underflow nor overflow and the
arguments are not both zero. -/
theorem C112_hypot {k : Nat} {x y x' y' : F32} (hx : x.isFinite = true) (hy : y.isFinite = true) (ex : x'.val = 2 ^ k * x.val)
    (ey : y'.val = 2 ^ k * y.val) (ux : x.val = 0 ∨ 1 / 2 ^ 126 ≤ x.val ^ 2) (uy : y.val = 0 ∨ 1 / 2 ^ 126 ≤ y.val ^ 2)
    (h0 : x.val ≠ 0 ∨ y.val ≠ 0) (h : (x' * x' + y' * y').isFinite = true) :
    (x'.hypot y').val = 2 ^ k * (x.hypot y).val := by
  obtain ⟨f1, f2, -⟩ := add_finite_inv h
  have sx := sc_sq ⟨hx, (mul_finite_inv f1).1, ex⟩ f1 ux
  have sy := sc_sq ⟨hy, (mul_finite_inv f2).1, ey⟩ f2 uy
  have hs := Sc.add' sx sy h
  have vx := mul_finite_val sx.fx
  have vy := mul_finite_val sy.fx
  have nx : 0 ≤ (x * x).val := by rw [vx]; exact RN_nonneg (mul_self_nonneg _)
  have ny : 0 ≤ (y * y).val := by rw [vy]; exact RN_nonneg (mul_self_nonneg _)
  have hr : Rep ((1 : ℚ) / 2 ^ 126) := by
    rw [show (1 : ℚ) / 2 ^ 126 = 2 ^ (-126 : Int) by norm_num]
    exact rep_pow (by norm_num)
  have key : (1 : ℚ) / 2 ^ 126 ≤ (x * x).val + (y * y).val := by
    rcases h0 with h0 | h0
    · have h2 := ux.resolve_left h0
      rw [sq] at h2
      have := le_RN_of_rep hr h2
      rw [← vx] at this
      exact this.trans (le_add_of_nonneg_right ny)
    · have h2 := uy.resolve_left h0
      rw [sq] at h2
      have := le_RN_of_rep hr h2
      rw [← vy] at this
      exact this.trans (le_add_of_nonneg_left nx)
  refine C111_sqrt ⟨hs.fx, ?_⟩ hs.fy ?_
  · rw [add_finite_val hs.fx]
    exact le_RN_of_rep hr key
  · rw [hs.eq, pow_mul]; norm_num

theorem sumZero_isVal : IsVal (Cfg.sumZero) 0 := by
  rcases Cfg.sumZero_spec with h | h <;> rw [h] <;> exact ⟨by decide, val_of_units (u := 0) (by decide) |>.trans (by norm_num)⟩

/-- Partial sums of squares stay finite below `2^124`. -/
theorem sumSq_finite (l : List F32) (a : F32) (B : Nat) (fa : a.isFinite = true) (ha : |a.val| ≤ B * 2 ^ 124)
    (hl : ∀ x ∈ l, x.isFinite = true ∧ x.val ^ 2 ≤ 2 ^ 124) (hB : B + l.length ≤ 4) :
    ((l.map fun x => x * x).foldl (· + ·) a).isFinite = true := by
  induction l generalizing a B with
  | nil => exact fa
  | cons x l ih =>
    obtain ⟨fx, hx⟩ := hl x (by simp)
    have hr : ∀ C : Nat, C ≤ 4 → Rep ((C : ℚ) * 2 ^ 124) := fun C hC => by
      have := rep_zpow (m := (C : Int)) (e := 124) (by omega) (by norm_num)
      exact_mod_cast this
    have hov : (4 : ℚ) * 2 ^ 124 < ovf := by norm_num [ovf]
    have hx' : |x.val * x.val| ≤ 2 ^ 124 := by rw [← sq, abs_of_nonneg (sq_nonneg _)]; exact hx
    rw [List.length_cons] at hB
    obtain ⟨m1, m2⟩ := mul_val fx fx (lt_of_le_of_lt hx' (by norm_num [ovf]))
    have hm : |(x * x).val| ≤ 2 ^ 124 := by
      rw [m2]
      have := abs_RN_le_of_rep (hr 1 (by norm_num)) (q := x.val * x.val) (by rw [Nat.cast_one, one_mul]; exact hx')
      rwa [Nat.cast_one, one_mul] at this
    have hsum : |a.val + (x * x).val| ≤ ((B + 1 : Nat) : ℚ) * 2 ^ 124 := by
      refine (abs_add_le _ _).trans ((add_le_add ha hm).trans (le_of_eq ?_))
      rw [Nat.cast_add, Nat.cast_one]; ring
    have hB4 : ((B + 1 : Nat) : ℚ) * 2 ^ 124 ≤ 4 * 2 ^ 124 := by
      refine mul_le_mul_of_nonneg_right ?_ (by norm_num)
      have : B + 1 ≤ 4 := by omega
      exact_mod_cast this
    obtain ⟨s1, s2⟩ := add_val fa m1 (lt_of_le_of_lt (hsum.trans hB4) hov)
    refine ih (a + x * x) (B + 1) s1 ?_ (fun y hy => hl y (by simp [hy])) (by omega)
    rw [s2]
    exact abs_RN_le_of_rep (hr _ (by omega)) hsum

/-- `v'` is `2^k v`, the squares of the components of `v` do not underflow and those of `v'` are at most `2^124`. -/
structure Scaled (k : Nat) (l l' : List F32) : Prop where
  fin : ∀ x ∈ l, x.isFinite = true
  fin' : ∀ x ∈ l', x.isFinite = true
  eq : l'.map val = l.map fun x => 2 ^ k * x.val
  sign : l'.map sign = l.map sign
  low : ∀ x ∈ l, x.val = 0 ∨ 1 / 2 ^ 126 ≤ x.val ^ 2
  high : ∀ x ∈ l', x.val ^ 2 ≤ 2 ^ 124
  nonzero : ∃ x ∈ l, x.val ≠ 0

omit [Cfg] in
theorem forall₂_sc {k : Nat} {l l' : List F32} (h1 : ∀ x ∈ l, x.isFinite = true) (h2 : ∀ x ∈ l', x.isFinite = true)
    (h3 : l'.map val = l.map fun x => 2 ^ k * x.val) : List.Forall₂ (Sc k) l l' := by
  induction l generalizing l' with
  | nil =>
    rw [List.map_nil, List.map_eq_nil_iff] at h3
    rw [h3]; exact List.Forall₂.nil
  | cons x l ih =>
    cases l' with
    | nil => simp at h3
    | cons y l' =>
      rw [List.map_cons, List.map_cons, List.cons.injEq] at h3
      exact List.Forall₂.cons ⟨h1 x (by simp), h2 y (by simp), h3.1⟩
        (ih (fun z hz => h1 z (by simp [hz])) (fun z hz => h2 z (by simp [hz])) h3.2)

theorem Scaled.sqrt {k : Nat} {l l' : List F32} (h : Scaled k l l') (hn : l'.length ≤ 3) :
    Sc k (F32.sum (l.map fun x => x * x)).sqrt (F32.sum (l'.map fun x => x * x)).sqrt ∧
      0 < (F32.sum (l.map fun x => x * x)).sqrt.val := by
  have hf := sumSq_finite l' Cfg.sumZero 0 sumZero_isVal.1 (by rw [sumZero_isVal.2]; simp)
    (fun x hx => ⟨h.fin' x hx, h.high x hx⟩) (by omega)
  exact sqrt_sum_scale (forall₂_sc h.fin h.fin' h.eq) h.low h.nonzero sumZero_isVal hf

/-- **C112.** `magnitude(2^k v) = 2^k magnitude(v)` exactly, in the plane and in space. -/
theorem C112_magnitude {k : Nat} {v v' : Vector2d F32} {w w' : Vector3d F32} :
    (Scaled k [v.x, v.y] [v'.x, v'.y] → (VectorTrait.magnitude v').val = 2 ^ k * (VectorTrait.magnitude v).val) ∧
    (Scaled k [w.x, w.y, w.z] [w'.x, w'.y, w'.z] → (VectorTrait.magnitude w').val = 2 ^ k * (VectorTrait.magnitude w).val) := by
  refine ⟨fun h => ?_, fun h => ?_⟩
  · rw [magnitude2_eq, magnitude2_eq]
    exact (h.sqrt (by simp)).1.eq
  · rw [magnitude3_eq, magnitude3_eq]
    exact (h.sqrt (by simp)).1.eq

/-- `(3, 4)` and `(6, 8)`. -/
example : Scaled 1 [ofInt 3, ofInt 4] [ofInt 6, ofInt 8] := by
  have hv : ∀ n : Int, n.natAbs ≤ 2 ^ 24 → (ofInt n).isFinite = true ∧ (ofInt n).val = n := fun n hn => ofInt_isVal hn
  have v3 := hv 3 (by norm_num)
  have v4 := hv 4 (by norm_num)
  have v6 := hv 6 (by norm_num)
  have v8 := hv 8 (by norm_num)
  refine ⟨?_, ?_, ?_, by decide +kernel, ?_, ?_, ⟨ofInt 3, by simp, by rw [v3.2]; norm_num⟩⟩
  · simp [v3.1, v4.1]
  · simp [v6.1, v8.1]
  · simp [v3.2, v4.2, v6.2, v8.2]; norm_num
  · intro x hx
    right
    simp only [List.mem_cons, List.not_mem_nil, or_false] at hx
    rcases hx with rfl | rfl
    · rw [v3.2]; norm_num
    · rw [v4.2]; norm_num
  · intro x hx
    simp only [List.mem_cons, List.not_mem_nil, or_false] at hx
    rcases hx with rfl | rfl
    · rw [v6.2]; norm_num
    · rw [v8.2]; norm_num

theorem div_scaled {k : Nat} {x x' m m' : F32} (hx : Sc k x x') (hs : x'.sign = x.sign) (hm : Sc k m m') (hp : 0 < m.val) :
    x' / m' = x / m := by
  have h2 : (0 : ℚ) < 2 ^ k := by positivity
  have hp' : 0 < m'.val := by rw [hm.eq]; positivity
  have e : x'.val / m'.val = x.val / m.val := by rw [hx.eq, hm.eq, mul_div_mul_left _ _ h2.ne']
  rw [div_finite hx.fy hm.fy hp'.ne', div_finite hx.fx hm.fx hp.ne', e, hs, val_pos_sign hp, val_pos_sign hp']

/-- **C112.** `normalized` does not depend on the scale: `normalized(2^k v) = normalized(v)` bit for bit. -/
theorem C112_normalized {k : Nat} {v v' : Vector2d F32} {w w' : Vector3d F32} :
    (Scaled k [v.x, v.y] [v'.x, v'.y] → VectorTrait.normalized v' = VectorTrait.normalized v) ∧
    (Scaled k [w.x, w.y, w.z] [w'.x, w'.y, w'.z] → VectorTrait.normalized w' = VectorTrait.normalized w) := by
  refine ⟨fun h => ?_, fun h => ?_⟩
  · obtain ⟨hm, hp⟩ := h.sqrt (by simp)
    have hsc := forall₂_sc h.fin h.fin' h.eq
    have hsg := h.sign
    simp only [List.forall₂_cons, List.map_cons, List.map_nil, List.cons.injEq] at hsc hsg
    rw [VectorTrait.normalized, VectorTrait.normalized, (C52_map v' ⟨v.x, v.x, v.x⟩ _).1, (C52_map v ⟨v.x, v.x, v.x⟩ _).1,
      magnitude2_eq, magnitude2_eq]
    change Sc k (F32.sum ((floats2 v).map fun x => x * x)).sqrt (F32.sum ((floats2 v').map fun x => x * x)).sqrt at hm
    change 0 < (F32.sum ((floats2 v).map fun x => x * x)).sqrt.val at hp
    rw [div_scaled hsc.1 hsg.1 hm hp, div_scaled hsc.2.1 hsg.2.1 hm hp]
  · obtain ⟨hm, hp⟩ := h.sqrt (by simp)
    have hsc := forall₂_sc h.fin h.fin' h.eq
    have hsg := h.sign
    simp only [List.forall₂_cons, List.map_cons, List.map_nil, List.cons.injEq] at hsc hsg
    rw [VectorTrait.normalized, VectorTrait.normalized, (C52_map ⟨w.x, w.x⟩ w' _).2, (C52_map ⟨w.x, w.x⟩ w _).2,
      magnitude3_eq, magnitude3_eq]
    change Sc k (F32.sum ((floats3 w).map fun x => x * x)).sqrt (F32.sum ((floats3 w').map fun x => x * x)).sqrt at hm
    change 0 < (F32.sum ((floats3 w).map fun x => x * x)).sqrt.val at hp
    rw [div_scaled hsc.1 hsg.1 hm hp, div_scaled hsc.2.1 hsg.2.1 hm hp, div_scaled hsc.2.2.1 hsg.2.2.1 hm hp]

omit [Cfg] in
theorem abs_sc {k : Nat} {x y : F32} (h : Sc k x y) : Sc k x.abs y.abs :=
  ⟨by rw [isFinite_abs]; exact h.fx, by rw [isFinite_abs]; exact h.fy, by
    rw [val_abs, val_abs, h.eq, abs_mul, abs_of_pos (by positivity : (0 : ℚ) < 2 ^ k)]⟩

/-- A rounded product of bounded factors. -/
theorem mul_bd {x y : F32} {A : ℚ} (fx : x.isFinite = true) (fy : y.isFinite = true) (e : Int) (he : -149 ≤ e) (he2 : e ≤ 127)
    (hA : A = 2 ^ e) (h : |x.val * y.val| ≤ A) : |x.val * y.val| < ovf ∧ (x * y).isFinite = true ∧ |(x * y).val| ≤ A := by
  have hr : Rep A := by rw [hA]; exact rep_pow he
  have ho : A < ovf := by
    rw [hA]
    refine lt_of_le_of_lt (zpow_le_zpow_right₀ (by norm_num) he2) ?_
    norm_num [ovf]
  obtain ⟨a, b⟩ := mul_val fx fy (h.trans_lt ho)
  exact ⟨h.trans_lt ho, a, by rw [b]; exact abs_RN_le_of_rep hr h⟩

theorem add_bd {x y : F32} {A : ℚ} (fx : x.isFinite = true) (fy : y.isFinite = true) (e : Int) (he : -149 ≤ e) (he2 : e ≤ 127)
    (hA : A = 2 ^ e) (h : |x.val + y.val| ≤ A) : |x.val + y.val| < ovf ∧ (x + y).isFinite = true ∧ |(x + y).val| ≤ A := by
  have hr : Rep A := by rw [hA]; exact rep_pow he
  have ho : A < ovf := by
    rw [hA]
    refine lt_of_le_of_lt (zpow_le_zpow_right₀ (by norm_num) he2) ?_
    norm_num [ovf]
  obtain ⟨a, b⟩ := add_val fx fy (h.trans_lt ho)
  exact ⟨h.trans_lt ho, a, by rw [b]; exact abs_RN_le_of_rep hr h⟩

/-- **C112.** `atan2(2^k y, 2^k x) = atan2(y, x)` bit for bit, for `y` and `2^k y` in `2^-62 .. 2^62` in magnitude and `x` and
`2^k x` in that range or zero (of equal sign). -/
theorem C112_atan2 {k : Nat} {x y x' y' : F32} (fx : x.isFinite = true) (fy : y.isFinite = true) (fx' : x'.isFinite = true)
    (fy' : y'.isFinite = true) (ex : x'.val = 2 ^ k * x.val) (ey : y'.val = 2 ^ k * y.val) (sx : x'.sign = x.sign)
    (lx : x.val = 0 ∨ 1 / 2 ^ 62 ≤ |x.val|) (ly : 1 / 2 ^ 62 ≤ |y.val|) (hx : |x'.val| ≤ 2 ^ 62) (hy : |y'.val| ≤ 2 ^ 62) :
    y'.atan2 x' = y.atan2 x := by
  have h2 : (0 : ℚ) < 2 ^ k := by positivity
  have y0 : y.val ≠ 0 := by
    intro h; rw [h, abs_zero] at ly; norm_num at ly
  have sy : y'.sign = y.sign := by
    rcases lt_or_gt_of_ne y0 with h | h
    · rw [val_neg_sign h, val_neg_sign (by rw [ey]; exact mul_neg_of_pos_of_neg h2 h)]
    · rw [val_pos_sign h, val_pos_sign (by rw [ey]; exact mul_pos h2 h)]
  have fB : ATAN_B.isFinite = true := by decide +kernel
  have vB : ATAN_B.val = 10003029 / 2 ^ 24 := by
    rw [val_of_units (u := 10003029 * 2 ^ 125) (by decide +kernel)]; norm_num
  have hk1 : (1 : ℚ) ≤ 2 ^ k := one_le_pow₀ (by norm_num)
  have Sx : Sc k x x' := ⟨fx, fx', ex⟩
  have Sy : Sc k y y' := ⟨fy, fy', ey⟩
  have bnd : ∀ {a b : ℚ} {A B : ℚ}, |a| ≤ A → |b| ≤ B → |a * b| ≤ A * B := by
    intro a b A B ha hb
    rw [abs_mul]; exact mul_le_mul ha hb (abs_nonneg _) ((abs_nonneg _).trans ha)
  have low : ∀ {a b : ℚ} {A B : ℚ}, 0 ≤ A → 0 ≤ B → A ≤ |a| → B ≤ |b| → A * B ≤ |a * b| := by
    intro a b A B hA hB ha hb
    rw [abs_mul]; exact mul_le_mul ha hb hB (hA.trans ha)
  have absB : |ATAN_B.val| ≤ 1 ∧ 1 / 2 ≤ |ATAN_B.val| := by
    rw [vB]; constructor <;> norm_num [abs_of_pos]
  obtain ⟨o1, f1, b1⟩ := mul_bd fB fx' 62 (by norm_num) (by norm_num) (A := 2 ^ 62) (by norm_num)
    ((bnd absB.1 hx).trans (by norm_num))
  have u1 : x.val = 0 ∨ (1 : ℚ) / 2 ^ 63 ≤ |ATAN_B.val * x.val| := by
    rcases lx with h | h
    · exact Or.inl h
    · exact Or.inr (le_trans (by norm_num) (low (by norm_num) (by norm_num) absB.2 h))
  have S1 : Sc (0 + k) (ATAN_B * x) (ATAN_B * x') := by
    refine Sc.mul ⟨fB, fB, by simp⟩ Sx o1 ?_
    rcases u1 with h | h
    · left; rw [h, mul_zero]
    · right; exact le_trans (by norm_num) h
  obtain ⟨o2, f2, b2⟩ := mul_bd f1 fy' 124 (by norm_num) (by norm_num) (A := 2 ^ 124) (by norm_num)
    ((bnd b1 hy).trans (by norm_num))
  have S2 : Sc (0 + k + k) (ATAN_B * x * y) (ATAN_B * x' * y') := by
    refine Sc.mul S1 Sy o2 ?_
    rcases u1 with h | h
    · left; rw [mul_finite_val S1.fx, h, mul_zero, RN_zero, zero_mul]
    · right
      have hl : (1 : ℚ) / 2 ^ 63 ≤ |(ATAN_B * x).val| := by
        rw [mul_finite_val S1.fx, abs_RN, ← rbits_abs, ← RN_of_nonneg (abs_nonneg _)]
        refine le_RN_of_rep ?_ h
        rw [show (1 : ℚ) / 2 ^ 63 = 2 ^ (-63 : Int) by norm_num]
        exact rep_pow (by norm_num)
      exact le_trans (by norm_num) (low (by norm_num) (by norm_num) hl ly)
  have S3 := abs_sc S2
  obtain ⟨o4, f4, b4⟩ := mul_bd fy' fy' 124 (by norm_num) (by norm_num) (A := 2 ^ 124) (by norm_num)
    ((bnd hy hy).trans (by norm_num))
  obtain ⟨o5, f5, b5⟩ := mul_bd fx' fx' 124 (by norm_num) (by norm_num) (A := 2 ^ 124) (by norm_num)
    ((bnd hx hx).trans (by norm_num))
  have uy : (1 : ℚ) / 2 ^ 124 ≤ |y.val * y.val| := le_trans (by norm_num) (low (by norm_num) (by norm_num) ly ly)
  have S4 : Sc (0 + k + k) (y * y) (y' * y') := by
    rw [zero_add]
    exact Sc.mul Sy Sy o4 (Or.inr (le_trans (by norm_num) uy))
  have S5 : Sc (0 + k + k) (x * x) (x' * x') := by
    rw [zero_add]
    refine Sc.mul Sx Sx o5 ?_
    rcases lx with h | h
    · left; rw [h, mul_zero]
    · right; exact le_trans (by norm_num) (low (by norm_num) (by norm_num) h h)
  have b3 : |(ATAN_B * x' * y').abs.val| ≤ 2 ^ 124 := by rw [val_abs, abs_abs]; exact b2
  obtain ⟨o6, f6, b6⟩ := add_bd S3.fy f4 125 (by norm_num) (by norm_num) (A := 2 ^ 125) (by norm_num)
    ((abs_add_le _ _).trans ((add_le_add b3 b4).trans (by norm_num)))
  have S6 := Sc.add S3 S4 o6
  obtain ⟨o7, f7, b7⟩ := add_bd f5 S3.fy 125 (by norm_num) (by norm_num) (A := 2 ^ 125) (by norm_num)
    ((abs_add_le _ _).trans ((add_le_add b5 b3).trans (by norm_num)))
  have S7 := Sc.add S5 S3 o7
  obtain ⟨o8, f8, b8⟩ := add_bd f7 f6 126 (by norm_num) (by norm_num) (A := 2 ^ 126) (by norm_num)
    ((abs_add_le _ _).trans ((add_le_add b7 b6).trans (by norm_num)))
  have S8 := Sc.add S7 S6 o8
  have p4 : 0 < (y * y).val := by
    rw [mul_finite_val S4.fx]
    rw [abs_of_nonneg (mul_self_nonneg _)] at uy
    refine lt_of_lt_of_le (by norm_num) (le_RN_of_rep (c := 1 / 2 ^ 124) ?_ uy)
    rw [show (1 : ℚ) / 2 ^ 124 = 2 ^ (-124 : Int) by norm_num]
    exact rep_pow (by norm_num)
  have p3 : 0 ≤ (ATAN_B * x * y).abs.val := by rw [val_abs]; exact abs_nonneg _
  have p5 : 0 ≤ (x * x).val := by rw [mul_finite_val S5.fx]; exact RN_nonneg (mul_self_nonneg _)
  have p6 : 0 < ((ATAN_B * x * y).abs + y * y).val := by
    rw [add_finite_val S6.fx]
    exact lt_of_lt_of_le p4 (le_RN_of_rep (rep_val _) (by linarith))
  have p7 : 0 ≤ (x * x + (ATAN_B * x * y).abs).val := by
    rw [add_finite_val S7.fx]; exact RN_nonneg (by linarith)
  have p8 : 0 < (x * x + (ATAN_B * x * y).abs + ((ATAN_B * x * y).abs + y * y)).val := by
    rw [add_finite_val S8.fx]
    exact lt_of_lt_of_le p6 (le_RN_of_rep (rep_val _) (by linarith))
  have hq := div_scaled S6 (by
    rw [val_pos_sign p6, val_pos_sign (by rw [S6.eq]; positivity)]) S8 p8
  have hn : y'.atan2Norm x' = y.atan2Norm x := by
    unfold F32.atan2Norm
    simp only [and_sign_bits, hq, sx, sy]
  unfold F32.atan2
  rw [hn]

/-- `atan2(3, -4)` and `atan2(6, -8)`. -/
example : (ofInt 6).atan2 (ofInt (-8)) = (ofInt 3).atan2 (ofInt (-4)) := by
  have hv : ∀ n : Int, n.natAbs ≤ 2 ^ 24 → (ofInt n).isFinite = true ∧ (ofInt n).val = n := fun n hn => ofInt_isVal hn
  have v3 := hv 3 (by norm_num)
  have v4 := hv (-4) (by norm_num)
  have v6 := hv 6 (by norm_num)
  have v8 := hv (-8) (by norm_num)
  refine C112_atan2 (k := 1) v4.1 v3.1 v8.1 v6.1 ?_ ?_ (by decide +kernel) (Or.inr ?_) ?_ ?_ ?_
  · rw [v4.2, v8.2]; norm_num
  · rw [v3.2, v6.2]; norm_num
  · rw [v4.2]; norm_num [abs_of_neg]
  · rw [v3.2]; norm_num [abs_of_pos]
  · rw [v8.2]; norm_num [abs_of_neg]
  · rw [v6.2]; norm_num [abs_of_pos]

end Micromath.Props
