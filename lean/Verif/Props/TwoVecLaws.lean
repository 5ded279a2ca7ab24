import Verif.Props.TwoVecThm
import Verif.Props.QuatScale

/-! # C125: laws of `from_two_vectors`: exchanging and scaling the vectors -/

set_option exponentiation.threshold 1000

namespace Micromath.Props

open F32 Spec

variable [Cfg]

/-- `y = -x` as numbers, up to the sign of a zero. -/
theorem cross_swap {p q : F32} (k : F32) (h : ((p - q) * k).isFinite = true) :
    ((q - p) * k).val = -((p - q) * k).val := by
  obtain ⟨f1, fk, -⟩ := mul_finite_inv h
  have hn := not_nan_of_finite f1
  rcases sub_swap p q with ⟨a, -⟩ | ⟨-, -, hm, h0 | h1⟩
  · rw [hn] at a; cases a
  · have z1 : (p - q).val = 0 := val_eq_zero.2 h0
    have z2 : (q - p).val = 0 := val_eq_zero.2 (hm.trans h0)
    have f2 : (q - p).isFinite = true := by rw [isFinite_iff, hm, ← isFinite_iff]; exact f1
    rw [(mul_val f1 fk (by rw [z1, zero_mul, abs_zero]; norm_num [ovf])).2,
      (mul_val f2 fk (by rw [z2, zero_mul, abs_zero]; norm_num [ovf])).2, z1, z2, zero_mul, RN_zero, neg_zero]
  · rw [h1, neg_mul_fin f1 fk, val_neg]

theorem cross_swap4 {a b c d : F32} (ha : a.isFinite = true) (hb : b.isFinite = true) (hc : c.isFinite = true) (hd : d.isFinite = true)
    (k : F32) (h : ((a * b - c * d) * k).isFinite = true) : ((d * c - b * a) * k).val = -((a * b - c * d) * k).val := by
  rw [mul_comm_fin hd hc, mul_comm_fin hb ha]
  exact cross_swap k h

section

variable {C : Type} [Component C] [IntoF32 C]

omit [Component C] in
theorem scale_a (u v : Vector3d C) (R k : F32) : ((preQ u v R).scale k).a = R * k := rfl

omit [Component C] in
theorem scale_b (u v : Vector3d C) (R k : F32) : ((preQ u v R).scale k).b =
    ((IntoF32.into u.y : F32) * IntoF32.into v.z - IntoF32.into u.z * IntoF32.into v.y) * k := rfl

omit [Component C] in
theorem scale_c (u v : Vector3d C) (R k : F32) : ((preQ u v R).scale k).c =
    ((IntoF32.into u.z : F32) * IntoF32.into v.x - IntoF32.into u.x * IntoF32.into v.z) * k := rfl

omit [Component C] in
theorem scale_d (u v : Vector3d C) (R k : F32) : ((preQ u v R).scale k).d =
    ((IntoF32.into u.x : F32) * IntoF32.into v.y - IntoF32.into u.y * IntoF32.into v.x) * k := rfl

omit [Component C] in
theorem preQ_swap {u v : Vector3d C} (fu : VFinite u) (fv : VFinite v) (R : F32) (hn : (preQ u v R).norm.isNaN = false) :
    (preQ v u R).norm = (preQ u v R).norm := by
  have e : ∀ {a b c d : F32}, a.isFinite = true → b.isFinite = true → c.isFinite = true → d.isFinite = true →
      Eqv ((a * b - c * d) * (a * b - c * d)) ((d * c - b * a) * (d * c - b * a)) := by
    intro a b c d ha hb hc hd
    rw [mul_comm_fin hd hc, mul_comm_fin hb ha]
    exact sub_sq_comm _ _
  have : Eqv (preQ u v R).norm (preQ v u R).norm :=
    ((Eqv.rfl.add (e fu.2.1 fv.2.2 fu.2.2 fv.2.1)).add (e fu.2.2 fv.1 fu.1 fv.2.2)).add (e fu.1 fv.2.1 fu.2.1 fv.1)
  exact (this.eq hn).symm

theorem two_swap {u v : Vector3d C} (h : Dots u v) (h' : Dots v u) (hd : u.dot v = v.dot u) :
    ∃ r s, Quaternion.fromTwoVectors u v = .ok r ∧ Quaternion.fromTwoVectors v u = .ok s ∧
      ((s.a = r.a ∧ s.b.val = -r.b.val ∧ s.c.val = -r.c.val ∧ s.d.val = -r.d.val) ∨
        (r.a.val = 0 ∧ s.a.val = 0 ∧ dot3 u v < 0 ∧ 0.99999 * (len3 u * len3 v) ≤ dot3 u v ^ 2)) := by
  obtain ⟨lu, lv, plu, plv, hlu, hlv⟩ := exists_N h.lu1 h.lv1
  have hN2 : (lu * lv) ^ 2 = len3 u * len3 v := by rw [mul_pow, hlu, hlv]
  have hN := mul_pos plu plv
  obtain ⟨uu, vv, uv, n, R, eu, ev, euv, en, eR0, fuu, fvv, hq, h28, h60, hD, n1, n2, fR, eR, k1, k2⟩ := pre_facts' h hN hN2
  have en' : n = F32.sqrt (IntoF32.into vv * IntoF32.into uu) := by rw [en, mul_comm_fin fuu fvv]
  obtain ⟨r, hr, fr, -⟩ := C91_unit_dots h
  obtain ⟨s, hs, fs, -⟩ := C91_unit_dots h'
  refine ⟨r, s, hr, hs, ?_⟩
  have hr1 := hq _ rfl
  have hs1 := two_eq ev eu (hd.symm.trans euv) en' eR0 rfl
  rw [hr] at hr1
  rw [hs] at hs1
  cases hl : R.lt (lit 1 1000000 * n)
  · left
    have hRa : |(R.val : ℝ)| ≤ 2.07 * (lu * lv) := by
      obtain ⟨a, b⟩ := abs_le.1 eR
      obtain ⟨c, d⟩ := abs_le.1 hD
      rw [abs_le]; constructor <;> norm_num at a b n1 n2 h28 c d ⊢ <;> linarith
    obtain ⟨fq, -, q1, q2, -⟩ := preQ_facts h.fu h.fv hN2 h28 h60 fR hRa (k2 hl)
    obtain ⟨k, hk, ⟨pk, fk, -⟩, -, fsc, -⟩ := scale_norm fq q1 q2
    have hnn := not_nan_of_finite (norm_sumSq fq q2).1
    rw [hl, if_neg (by simp), hk] at hr1
    rw [hl, if_neg (by simp), preQ_swap h.fu h.fv R hnn, hk] at hs1
    obtain rfl : r = (preQ u v R).scale k := by injection hr1
    obtain rfl : s = (preQ v u R).scale k := by injection hs1
    obtain ⟨-, fb, fc, fd⟩ := fsc
    rw [scale_b] at fb
    rw [scale_c] at fc
    rw [scale_d] at fd
    have B := cross_swap4 h.fu.2.1 h.fv.2.2 h.fu.2.2 h.fv.2.1 k fb
    have C := cross_swap4 h.fu.2.2 h.fv.1 h.fu.1 h.fv.2.2 k fc
    have D := cross_swap4 h.fu.1 h.fv.2.1 h.fu.2.1 h.fv.1 k fd
    refine ⟨?_, ?_, ?_, ?_⟩
    · rw [scale_a, scale_a]
    · rw [scale_b, scale_b]; exact B
    · rw [scale_c, scale_c]; exact C
    · rw [scale_d, scale_d]; exact D
  · right
    have zero : ∀ {w : Vector3d C} {t : Quaternion}, VFinite w → QFinite t →
        (Except.ok t : Res Quaternion) = (do let k ← F32.invsqrt (oppQ w).norm; .ok ((oppQ w).scale k)) → t.a.val = 0 := by
      intro w t fw ft ht
      cases hk : F32.invsqrt (oppQ w).norm with
      | error e => rw [hk] at ht; cases ht
      | ok k =>
        rw [hk] at ht
        obtain rfl : t = (oppQ w).scale k := by injection ht
        obtain ⟨-, -, -, h0, -⟩ := oppQ_facts fw
        have fa : ((oppQ w).a * k).isFinite = true := ft.1
        show ((oppQ w).a * k).val = 0
        rw [mul_finite_val fa, h0, val_posZero, zero_mul, RN_zero]
    rw [hl, if_pos rfl] at hr1 hs1
    have hb := k1 hl
    obtain ⟨a, b⟩ := abs_le.1 eR
    have hneg : (dot3 u v : ℝ) ≤ -(0.999996 * (lu * lv)) := by norm_num at hb a n1 ⊢; linarith
    refine ⟨zero h.fu fr hr1, zero h.fv fs hs1, ?_, ?_⟩
    · have : (dot3 u v : ℝ) < 0 := by norm_num at hneg; linarith
      exact_mod_cast this
    · have h2 : 0.99999 * ((len3 u : ℝ) * len3 v) ≤ (dot3 u v : ℝ) ^ 2 := by
        rw [← hN2]
        have : (0.999996 * (lu * lv)) ^ 2 ≤ (-(dot3 u v : ℝ)) ^ 2 := pow_le_pow_left₀ (by positivity) (by linarith) 2
        rw [mul_pow, neg_sq] at this
        refine le_trans (mul_le_mul_of_nonneg_right ?_ (sq_nonneg _)) this
        norm_num
      have h3 : ((0.99999 * (len3 u * len3 v) : ℚ) : ℝ) ≤ ((dot3 u v ^ 2 : ℚ) : ℝ) := by
        push_cast; refine le_trans (le_of_eq ?_) h2; norm_num
      exact_mod_cast h3

end

/-- **C125.** Exchanging the two `f32` vectors gives the opposite rotation: `from_two_vectors(v, u)` is the conjugate of
`from_two_vectors(u, v)`, bit for bit in the real part and up to the sign of zeros in the others. The one exception are pairs taken for
opposite vectors (the angle between them exceeds 179.7 degrees): both results are then half turns. -/
theorem C125_swap (u v : Vector3d F32) (fu : VFinite u) (fv : VFinite v) (lu1 : 1 / 2 ^ 28 ≤ len3 u) (lu2 : len3 u ≤ 2 ^ 60)
    (lv1 : 1 / 2 ^ 28 ≤ len3 v) (lv2 : len3 v ≤ 2 ^ 60) :
    ∃ r s, Quaternion.fromTwoVectors u v = .ok r ∧ Quaternion.fromTwoVectors v u = .ok s ∧
      ((s.a = r.a ∧ s.b.val = -r.b.val ∧ s.c.val = -r.c.val ∧ s.d.val = -r.d.val) ∨
        (r.a.val = 0 ∧ s.a.val = 0 ∧ dot3 u v < 0 ∧ 0.99999 * (len3 u * len3 v) ≤ dot3 u v ^ 2)) := by
  refine two_swap (dots_f32 fu fv lu1 lu2 lv1 lv2) (dots_f32 fv fu lv1 lv2 lu1 lu2) ?_
  have e : ∀ a b : Vector3d F32, a.dot b = .ok (a.x * b.x + a.y * b.y + a.z * b.z) := fun a b => rfl
  rw [e, e, mul_comm_fin (x := u.x) (y := v.x) fu.1 fv.1, mul_comm_fin (x := u.y) (y := v.y) fu.2.1 fv.2.1, mul_comm_fin (x := u.z) (y := v.z) fu.2.2 fv.2.2]

/-- **C125, integer components**: the same whenever the dot products fit their type. -/
theorem C125_swap_int {s : Bool} {w : Nat} [IntoF32 (MInt s w)] (hI : ∀ n : MInt s w, IsVal (IntoF32.into n) n.toInt) (hw : 0 < w) (hw2 : w ≤ 16)
    {u v : Vector3d (MInt s w)} {a b c : MInt s w} (hu : u.dot u = .ok a) (eu : a.toInt = idot u u) (hv : v.dot v = .ok b) (ev : b.toInt = idot v v)
    (huv : u.dot v = .ok c) (euv : c.toInt = idot u v) (u0 : 0 < idot u u) (v0 : 0 < idot v v) :
    ∃ r t, Quaternion.fromTwoVectors u v = .ok r ∧ Quaternion.fromTwoVectors v u = .ok t ∧
      ((t.a = r.a ∧ t.b.val = -r.b.val ∧ t.c.val = -r.c.val ∧ t.d.val = -r.d.val) ∨
        (r.a.val = 0 ∧ t.a.val = 0 ∧ idot u v < 0 ∧ 0.99999 * ((idot u u : ℚ) * idot v v) ≤ (idot u v : ℚ) ^ 2)) := by
  have hd := (C56_dot_comm ⟨u.x, u.y⟩ ⟨v.x, v.y⟩ u v).2
  have ec : c.toInt = idot v u := by rw [euv]; unfold idot; ring
  obtain ⟨r, t, hr, ht, h⟩ := two_swap (dots_int hI hw hw2 hu eu hv ev huv euv u0 v0)
    (dots_int hI hw hw2 hv ev hu eu (hd.symm.trans huv) ec v0 u0) hd
  refine ⟨r, t, hr, ht, h.imp id fun ⟨h1, h2, h3, h4⟩ => ?_⟩
  have ed : dot3 u v = idot u v := by unfold dot3 idot; simp only [(hI _).2]; push_cast; ring
  have el : ∀ x : Vector3d (MInt s w), len3 x = idot x x := fun x => by
    unfold len3 idot; simp only [(hI _).2]; push_cast; ring
  rw [ed] at h3 h4
  rw [el, el] at h4
  exact ⟨h1, h2, by exact_mod_cast h3, h4⟩

omit [Cfg] in
/-- The hypotheses of `C125_swap` at `(3, 0, 4)`. -/
example : VFinite (⟨ofInt 3, ofInt 0, ofInt 4⟩ : Vector3d F32) ∧ 1 / 2 ^ 28 ≤ len3 (⟨ofInt 3, ofInt 0, ofInt 4⟩ : Vector3d F32) ∧
    len3 (⟨ofInt 3, ofInt 0, ofInt 4⟩ : Vector3d F32) ≤ 2 ^ 60 := by
  have h3 := ofInt_isVal (n := 3) (by decide)
  have h0 := ofInt_isVal (n := 0) (by decide)
  have h4 := ofInt_isVal (n := 4) (by decide)
  have e : len3 (⟨ofInt 3, ofInt 0, ofInt 4⟩ : Vector3d F32) = (ofInt 3).val ^ 2 + (ofInt 0).val ^ 2 + (ofInt 4).val ^ 2 := rfl
  rw [e, h3.2, h0.2, h4.2]
  exact ⟨⟨h3.1, h0.1, h4.1⟩, by norm_num, by norm_num⟩

/-! ### Scaling -/

/-- `y = 2^k x` with the same sign bit. -/
structure SS (k : Nat) (x y : F32) : Prop where
  sc : Sc k x y
  sg : y.sign = x.sign

theorem sub_sign {x y : F32} (hx : x.isFinite = true) (hy : y.isFinite = true) :
    (x - y).sign = if x.val - y.val = 0 then (x.sign && !y.sign) else decide (x.val - y.val < 0) := by
  have h := addAs_finite .sub hx (y := -y) (by rw [isFinite_neg]; exact hy)
  rw [val_neg, ← sub_eq_add_neg, ← sub_def, F32.sign_neg] at h
  rw [h]
  split
  · cases x.sign <;> cases y.sign <;> rfl
  · rw [sign_pack _ (by have := min_le_right (rbits (x.val - y.val)) infMag; have := infMag_lt; omega)]

theorem SS.sub {k : Nat} {x x' y y' : F32} (hx : SS k x x') (hy : SS k y y') (h : |x'.val - y'.val| < ovf) :
    SS k (x - y) (x' - y') := by
  refine ⟨Sc.sub hx.sc hy.sc h, ?_⟩
  rw [sub_sign hx.sc.fx hy.sc.fx, sub_sign hx.sc.fy hy.sc.fy, hx.sg, hy.sg, hx.sc.eq, hy.sc.eq, ← mul_sub]
  have h2 : (0 : ℚ) < 2 ^ k := by positivity
  have e1 : (2 ^ k * (x.val - y.val) = 0) = (x.val - y.val = 0) := by
    rw [mul_eq_zero]; simp [h2.ne']
  have e2 : (2 ^ k * (x.val - y.val) < 0) = (x.val - y.val < 0) := by
    rw [mul_neg_iff]; simp [h2, h2.le]
  simp only [e1, e2]

theorem SS.mul {j k : Nat} {x x' y y' : F32} (hx : SS j x x') (hy : SS k y y') (h : |x'.val * y'.val| < ovf)
    (hu : x.val * y.val = 0 ∨ 1 / 2 ^ 126 ≤ |x.val * y.val|) : SS (j + k) (x * y) (x' * y') :=
  ⟨Sc.mul hx.sc hy.sc h hu, by rw [sign_mul_finite hx.sc.fx hy.sc.fx, sign_mul_finite hx.sc.fy hy.sc.fy, hx.sg, hy.sg]⟩

omit [Cfg] in
/-- Floats of magnitude at least `2^-28` are multiples of `2^-51`. -/
theorem units_dvd {x : F32} (h : x.val = 0 ∨ 1 / 2 ^ 28 ≤ |x.val|) : (2 ^ 98 : Int) ∣ x.units := by
  have hm : (2 ^ 98 : Nat) ∣ magU x.mag := by
    rcases h with h | h
    · rw [val_eq_zero] at h
      rw [h]; exact ⟨0, rfl⟩
    · rw [abs_val, show (1 : ℚ) / 2 ^ 28 = mval (99 * 2 ^ 23) by rw [mval_pow (by norm_num)]; norm_num, mval_le] at h
      obtain ⟨m, hm⟩ : ∃ m, x.mag = m := ⟨_, rfl⟩
      rw [hm] at h ⊢
      unfold magU
      rw [if_neg (by omega)]
      exact Dvd.dvd.mul_left (pow_dvd_pow 2 (by omega)) _
  have hm' : (2 ^ 98 : Int) ∣ (magU x.mag : Int) := by exact_mod_cast hm
  unfold units
  split
  · exact hm'.neg_right
  · exact hm'

theorem sub_low {x y : F32} (hx : x.val = 0 ∨ 1 / 2 ^ 28 ≤ |x.val|) (hy : y.val = 0 ∨ 1 / 2 ^ 28 ≤ |y.val|) (h : (x - y).isFinite = true) :
    (x - y).val = 0 ∨ 1 / 2 ^ 51 ≤ |(x - y).val| := by
  obtain ⟨fx, fy, ho⟩ := sub_finite_inv h
  rw [(sub_val fx fy ho).2]
  have hd := dvd_sub (units_dvd hx) (units_dvd hy)
  have e : x.val - y.val = ((x.units - y.units : Int) : ℚ) / 2 ^ 149 := by unfold val; push_cast; ring
  by_cases h0 : x.units - y.units = 0
  · left; rw [e, h0]; simp [RN_zero]
  · right
    have h1 : (2 ^ 98 : Int) ≤ |x.units - y.units| := Int.le_of_dvd (abs_pos.2 h0) ((dvd_abs _ _).2 hd)
    have h2 : (1 : ℚ) / 2 ^ 51 ≤ |x.val - y.val| := by
      rw [e, abs_div, abs_of_pos (by norm_num : (0 : ℚ) < 2 ^ 149), le_div_iff₀ (by norm_num)]
      have : ((2 ^ 98 : Int) : ℚ) ≤ ((|x.units - y.units| : Int) : ℚ) := by exact_mod_cast h1
      rw [Int.cast_abs] at this
      refine le_trans (le_of_eq ?_) this
      norm_num
    have hr : Rep ((1 : ℚ) / 2 ^ 51) := by
      rw [show (1 : ℚ) / 2 ^ 51 = 2 ^ (-51 : Int) by norm_num]; exact rep_pow (by norm_num)
    rw [← RN_abs]
    exact le_RN_of_rep hr h2

/-- `u' = 2^k u` with equal sign bits; the components of `u` are zero or at least `2^-14` in magnitude, not all zero, and those of `u'`
are at most `2^15`. -/
structure ScaledV (k : Nat) (u u' : Vector3d F32) : Prop where
  x : SS k u.x u'.x
  y : SS k u.y u'.y
  z : SS k u.z u'.z
  lx : u.x.val = 0 ∨ 1 / 2 ^ 14 ≤ |u.x.val|
  ly : u.y.val = 0 ∨ 1 / 2 ^ 14 ≤ |u.y.val|
  lz : u.z.val = 0 ∨ 1 / 2 ^ 14 ≤ |u.z.val|
  hx : |u'.x.val| ≤ 2 ^ 15
  hy : |u'.y.val| ≤ 2 ^ 15
  hz : |u'.z.val| ≤ 2 ^ 15
  nonzero : u.x.val ≠ 0 ∨ u.y.val ≠ 0 ∨ u.z.val ≠ 0

theorem prod_ss {j k : Nat} {x x' y y' : F32} (hx : SS j x x') (hy : SS k y y') (lx : x.val = 0 ∨ 1 / 2 ^ 14 ≤ |x.val|)
    (ly : y.val = 0 ∨ 1 / 2 ^ 14 ≤ |y.val|) (ux : |x'.val| ≤ 2 ^ 15) (uy : |y'.val| ≤ 2 ^ 15) :
    SS (j + k) (x * y) (x' * y') ∧ ((x * y).val = 0 ∨ 1 / 2 ^ 28 ≤ |(x * y).val|) ∧ |(x' * y').val| ≤ 2 ^ 30 := by
  have hu : |x'.val * y'.val| ≤ 2 ^ 30 := by
    rw [abs_mul]; exact (mul_le_mul ux uy (abs_nonneg _) (by norm_num)).trans (by norm_num)
  have hl : x.val * y.val = 0 ∨ 1 / 2 ^ 28 ≤ |x.val * y.val| := by
    rcases lx with h | h
    · left; rw [h, zero_mul]
    rcases ly with h' | h'
    · left; rw [h', mul_zero]
    right
    rw [abs_mul]
    exact le_trans (by norm_num) (mul_le_mul h h' (by norm_num) (abs_nonneg _))
  obtain ⟨ho, -, hb⟩ := mul_bd hx.sc.fy hy.sc.fy 30 (by norm_num) (by norm_num) (A := 2 ^ 30) (by norm_num) hu
  have S := SS.mul hx hy ho (hl.imp id fun h => le_trans (by norm_num) h)
  refine ⟨S, ?_, hb⟩
  rw [mul_finite_val S.sc.fx]
  refine hl.imp (fun h => by rw [h, RN_zero]) fun h => ?_
  rw [← RN_abs]
  refine le_RN_of_rep ?_ h
  rw [show (1 : ℚ) / 2 ^ 28 = 2 ^ (-28 : Int) by norm_num]; exact rep_pow (by norm_num)

theorem cross_ss {j k : Nat} {a a' b b' c c' d d' : F32} (ha : SS j a a') (hb : SS k b b') (hc : SS j c c') (hd : SS k d d')
    (la : a.val = 0 ∨ 1 / 2 ^ 14 ≤ |a.val|) (lb : b.val = 0 ∨ 1 / 2 ^ 14 ≤ |b.val|)
    (lc : c.val = 0 ∨ 1 / 2 ^ 14 ≤ |c.val|) (ld : d.val = 0 ∨ 1 / 2 ^ 14 ≤ |d.val|)
    (ua : |a'.val| ≤ 2 ^ 15) (ub : |b'.val| ≤ 2 ^ 15) (uc : |c'.val| ≤ 2 ^ 15) (ud : |d'.val| ≤ 2 ^ 15) :
    SS (j + k) (a * b - c * d) (a' * b' - c' * d') ∧ ((a * b - c * d).val = 0 ∨ 1 / 2 ^ 51 ≤ |(a * b - c * d).val|) := by
  obtain ⟨p1, l1, b1⟩ := prod_ss ha hb la lb ua ub
  obtain ⟨p2, l2, b2⟩ := prod_ss hc hd lc ld uc ud
  have S := SS.sub p1 p2 (lt_of_le_of_lt ((abs_sub _ _).trans (add_le_add b1 b2)) (by norm_num [ovf]))
  exact ⟨S, sub_low l1 l2 S.sc.fx⟩

theorem dot_sc {j k : Nat} {u u' v v' : Vector3d F32} (hu : ScaledV j u u') (hv : ScaledV k v v') :
    Sc (j + k) (u.x * v.x + u.y * v.y + u.z * v.z) (u'.x * v'.x + u'.y * v'.y + u'.z * v'.z) := by
  obtain ⟨p1, -, b1⟩ := prod_ss hu.x hv.x hu.lx hv.lx hu.hx hv.hx
  obtain ⟨p2, -, b2⟩ := prod_ss hu.y hv.y hu.ly hv.ly hu.hy hv.hy
  obtain ⟨p3, -, b3⟩ := prod_ss hu.z hv.z hu.lz hv.lz hu.hz hv.hz
  obtain ⟨o1, f1, c1⟩ := add_bd p1.sc.fy p2.sc.fy 31 (by norm_num) (by norm_num) (A := 2 ^ 31) (by norm_num)
    ((abs_add_le _ _).trans ((add_le_add b1 b2).trans (by norm_num)))
  exact Sc.add (Sc.add p1.sc p2.sc o1) p3.sc
    (lt_of_le_of_lt ((abs_add_le _ _).trans (add_le_add c1 b3)) (by norm_num [ovf]))

omit [Cfg] in
theorem ScaledV.len {k : Nat} {u u' : Vector3d F32} (h : ScaledV k u u') :
    1 / 2 ^ 28 ≤ len3 u ∧ len3 u ≤ len3 u' ∧ len3 u' ≤ 2 ^ 60 := by
  have e : len3 u = u.x.val ^ 2 + u.y.val ^ 2 + u.z.val ^ 2 := rfl
  have e' : len3 u' = u'.x.val ^ 2 + u'.y.val ^ 2 + u'.z.val ^ 2 := rfl
  have sx := sq_nonneg u.x.val
  have sy := sq_nonneg u.y.val
  have sz := sq_nonneg u.z.val
  refine ⟨?_, ?_, ?_⟩
  · have big : ∀ {t : ℚ}, (t = 0 ∨ 1 / 2 ^ 14 ≤ |t|) → t ≠ 0 → 1 / 2 ^ 28 ≤ t ^ 2 := by
      intro t ht h0
      have := pow_le_pow_left₀ (by norm_num) (ht.resolve_left h0) 2
      rw [sq_abs] at this
      exact le_trans (by norm_num) this
    rw [e]
    rcases h.nonzero with h0 | h0 | h0
    · have := big h.lx h0; linarith
    · have := big h.ly h0; linarith
    · have := big h.lz h0; linarith
  · rw [e, e', h.x.sc.eq, h.y.sc.eq, h.z.sc.eq]
    have : (1 : ℚ) ≤ (2 ^ k) ^ 2 := one_le_pow₀ (one_le_pow₀ (by norm_num))
    rw [mul_pow, mul_pow, mul_pow]
    nlinarith
  · rw [e']
    have big : ∀ {t : ℚ}, |t| ≤ 2 ^ 15 → t ^ 2 ≤ 2 ^ 30 := by
      intro t ht
      have := pow_le_pow_left₀ (abs_nonneg _) ht 2
      rw [sq_abs] at this
      exact this.trans (by norm_num)
    have := big h.hx
    have := big h.hy
    have := big h.hz
    norm_num at *
    linarith

/-- The last step of `from_two_vectors` does not depend on the scale. -/
theorem finish_scale {k : Nat} {q r : Quaternion} (h : Scaled k (comps q) (comps r)) :
    ∃ s : Quaternion, (do let n ← F32.invsqrt q.norm; .ok (q.scale n) : Res Quaternion) = .ok s ∧
      (do let n ← F32.invsqrt r.norm; .ok (r.scale n) : Res Quaternion) = .ok s := by
  obtain ⟨hs, hp, -⟩ := norm_sc h
  have hp' := (scale_bits hp hs.fy hs.eq).1
  have := C114_normalize h
  unfold Quaternion.normalize at this
  simp only [not_zero_of_pos hp, not_zero_of_pos hp'] at this
  exact this

omit [Cfg] in
theorem scaled4 {k : Nat} {q r : Quaternion} (a : SS k q.a r.a) (b : SS k q.b r.b) (c : SS k q.c r.c) (d : SS k q.d r.d)
    (la : q.a.val = 0 ∨ 1 / 2 ^ 63 ≤ |q.a.val|) (lb : q.b.val = 0 ∨ 1 / 2 ^ 63 ≤ |q.b.val|) (lc : q.c.val = 0 ∨ 1 / 2 ^ 63 ≤ |q.c.val|)
    (ld : q.d.val = 0 ∨ 1 / 2 ^ 63 ≤ |q.d.val|) (hi : qlen r ≤ 2 ^ 124) (h0 : 0 < qlen q) : Scaled k (comps q) (comps r) := by
  have low : ∀ {t : ℚ}, (t = 0 ∨ 1 / 2 ^ 63 ≤ |t|) → t = 0 ∨ 1 / 2 ^ 126 ≤ t ^ 2 := by
    intro t ht
    refine ht.imp id fun h => ?_
    have := pow_le_pow_left₀ (by norm_num) h 2
    rw [sq_abs] at this
    exact le_trans (by norm_num) this
  have na := sq_nonneg r.a.val
  have nb := sq_nonneg r.b.val
  have nc := sq_nonneg r.c.val
  have nd := sq_nonneg r.d.val
  unfold qlen at hi
  refine ⟨?_, ?_, ?_, ?_, ?_, ?_, ?_⟩
  · simp only [comps, List.mem_cons, List.not_mem_nil, or_false, forall_eq_or_imp, forall_eq]
    exact ⟨a.sc.fx, b.sc.fx, c.sc.fx, d.sc.fx⟩
  · simp only [comps, List.mem_cons, List.not_mem_nil, or_false, forall_eq_or_imp, forall_eq]
    exact ⟨a.sc.fy, b.sc.fy, c.sc.fy, d.sc.fy⟩
  · simp only [comps, List.map_cons, List.map_nil, a.sc.eq, b.sc.eq, c.sc.eq, d.sc.eq]
  · simp only [comps, List.map_cons, List.map_nil, a.sg, b.sg, c.sg, d.sg]
  · simp only [comps, List.mem_cons, List.not_mem_nil, or_false, forall_eq_or_imp, forall_eq]
    exact ⟨low la, low lb, low lc, low ld⟩
  · simp only [comps, List.mem_cons, List.not_mem_nil, or_false, forall_eq_or_imp, forall_eq]
    refine ⟨?_, ?_, ?_, ?_⟩ <;> linarith
  · by_contra hc
    simp only [comps, List.mem_cons, List.not_mem_nil, or_false, not_exists, not_and, not_not, forall_eq_or_imp, forall_eq] at hc
    unfold qlen at h0
    rw [hc.1, hc.2.1, hc.2.2.1, hc.2.2.2] at h0
    norm_num at h0

omit [Cfg] in
theorem pos_sign_ss {k : Nat} {x y : F32} (h : Sc k x y) (hp : 0 < x.val) : SS k x y :=
  ⟨h, by rw [val_pos_sign hp, val_pos_sign (by rw [h.eq]; positivity)]⟩

omit [Cfg] in
theorem ss_zero (k : Nat) : SS k posZero posZero := ⟨⟨by decide, by decide, by rw [val_posZero]; simp⟩, rfl⟩

omit [Cfg] in
theorem ss_neg {k : Nat} {x y : F32} (h : SS k x y) : SS k (-x) (-y) := ⟨h.sc.neg, by rw [F32.sign_neg, F32.sign_neg, h.sg]⟩

/-- **C125.** Lengths do not matter: `from_two_vectors(2^j u, 2^k v) = from_two_vectors(u, v)` bit for bit, for vectors whose components
are zero or at least `2^-14` in magnitude before and at most `2^15` after scaling. -/
theorem C125_scale {j k : Nat} {u u' v v' : Vector3d F32} (hu : ScaledV j u u') (hv : ScaledV k v v') :
    ∃ r, Quaternion.fromTwoVectors u v = .ok r ∧ Quaternion.fromTwoVectors u' v' = .ok r := by
  obtain ⟨lu1, lu2, lu3⟩ := hu.len
  obtain ⟨lv1, lv2, lv3⟩ := hv.len
  have fu : VFinite u := ⟨hu.x.sc.fx, hu.y.sc.fx, hu.z.sc.fx⟩
  have fv : VFinite v := ⟨hv.x.sc.fx, hv.y.sc.fx, hv.z.sc.fx⟩
  have fu' : VFinite u' := ⟨hu.x.sc.fy, hu.y.sc.fy, hu.z.sc.fy⟩
  have fv' : VFinite v' := ⟨hv.x.sc.fy, hv.y.sc.fy, hv.z.sc.fy⟩
  have D := dots_f32 fu fv lu1 (lu2.trans lu3) lv1 (lv2.trans lv3)
  have D' := dots_f32 fu' fv' (lu1.trans lu2) lu3 (lv1.trans lv2) lv3
  obtain ⟨lu, lv, plu, plv, hlu, hlv⟩ := exists_N D.lu1 D.lv1
  have hN2 : (lu * lv) ^ 2 = len3 u * len3 v := by rw [mul_pow, hlu, hlv]
  have hN := mul_pos plu plv
  obtain ⟨lu', lv', plu', plv', hlu', hlv'⟩ := exists_N D'.lu1 D'.lv1
  have hN2' : (lu' * lv') ^ 2 = len3 u' * len3 v' := by rw [mul_pow, hlu', hlv']
  have hN' := mul_pos plu' plv'
  have e : ∀ a b : Vector3d F32, a.dot b = .ok (a.x * b.x + a.y * b.y + a.z * b.z) := fun a b => rfl
  have einto : ∀ a : F32, IntoF32.into a = a := fun a => rfl
  obtain ⟨uu, vv, uv, n, R, eu, ev, euv, en, eR0, fuu, fvv, hq, h28, h60, hD, n1, n2, fR, eR, k1, k2⟩ := pre_facts' D hN hN2
  obtain ⟨uu', vv', uv', n', R', eu', ev', euv', en', eR0', fuu', fvv', hq', h28', h60', hD', n1', n2', fR', eR', k1', k2'⟩ := pre_facts' D' hN' hN2'
  have Suu := dot_sc hu hu
  have Svv := dot_sc hv hv
  have Suv := dot_sc hu hv
  rw [e] at eu ev euv eu' ev' euv'
  injection eu with eu
  injection ev with ev
  injection euv with euv
  injection eu' with eu'
  injection ev' with ev'
  injection euv' with euv'
  rw [eu, eu'] at Suu
  rw [ev, ev'] at Svv
  rw [euv, euv'] at Suv
  rw [einto] at en en' eR0 eR0'
  rw [einto] at en en'
  -- the square root of the product of the squared lengths
  have blo : ∀ {a : Vector3d F32} {d : F32}, a.x * a.x + a.y * a.y + a.z * a.z = d → 1 / 2 ^ 28 ≤ len3 a →
      (∃ d, a.dot a = .ok d ∧ (IntoF32.into d : F32).isFinite = true ∧ |(IntoF32.into d : F32).val - len3 a| ≤ 5 / 2 ^ 24 * len3 a) →
      1 / 2 ^ 29 ≤ d.val ∧ d.val ≤ 2 * len3 a := by
    rintro a d hd hl ⟨d', h1, -, h3⟩
    rw [e] at h1
    injection h1 with h1
    rw [← h1, hd, einto] at h3
    obtain ⟨x1, x2⟩ := abs_le.1 h3
    norm_num at hl ⊢
    constructor <;> linarith
  obtain ⟨a1, a2⟩ := blo eu D.lu1 D.uu
  obtain ⟨b1, b2⟩ := blo ev D.lv1 D.vv
  obtain ⟨a1', a2'⟩ := blo eu' D'.lu1 D'.uu
  obtain ⟨b1', b2'⟩ := blo ev' D'.lv1 D'.vv
  have p0 : 1 / 2 ^ 58 ≤ uu.val * vv.val := le_trans (by norm_num) (mul_le_mul a1 b1 (by norm_num) (le_trans (by norm_num) a1))
  have p0' : 0 < uu'.val * vv'.val := mul_pos (lt_of_lt_of_le (by norm_num) a1') (lt_of_lt_of_le (by norm_num) b1')
  have p1' : |uu'.val * vv'.val| < ovf := by
    rw [abs_of_pos p0']
    refine lt_of_le_of_lt (mul_le_mul (a2'.trans (mul_le_mul_of_nonneg_left lu3 (by norm_num))) (b2'.trans (mul_le_mul_of_nonneg_left lv3 (by norm_num)))
      (le_trans (by norm_num) b1') (by norm_num)) (by norm_num [ovf])
  have SP := Sc.mul Suu Svv p1' (Or.inr (by rw [abs_of_pos (lt_of_lt_of_le (by norm_num) p0)]; exact le_trans (by norm_num) p0))
  have pn : PosNormal (uu * vv) := ⟨SP.fx, by
    rw [mul_finite_val SP.fx]
    refine le_trans (by norm_num) (le_RN_of_rep (c := 1 / 2 ^ 58) ?_ p0)
    rw [show (1 : ℚ) / 2 ^ 58 = 2 ^ (-58 : Int) by norm_num]; exact rep_pow (by norm_num)⟩
  have hs := C111_sqrt (k := j + k) pn SP.fy (by
    rw [SP.eq, show (4 : ℚ) = 2 ^ 2 by norm_num, ← pow_mul]; congr 2; ring)
  obtain ⟨fn, pnn⟩ := sqrt_pos pn
  obtain ⟨fn', pnn'⟩ := sqrt_pos (scale_bits pn SP.fy SP.eq).1
  rw [← en] at hs fn pnn
  rw [← en'] at hs fn' pnn'
  have Sn : Sc (j + k) n n' := ⟨fn, fn', hs⟩
  -- the real part and the comparison
  have SR : Sc (j + k) R R' := by
    rw [eR0, eR0']
    exact Sc.add' Sn Suv (by rw [← eR0']; exact fR')
  obtain ⟨fl, l1, l2⟩ := lit_tiny
  have lp : (0 : ℚ) < (lit 1 1000000 : F32).val := lt_of_lt_of_le (by norm_num) l1
  have n28 : (1 : ℝ) / 2 ^ 29 ≤ n.val := by norm_num at n1 h28 ⊢; linarith
  have n28' : (1 : ℚ) / 2 ^ 29 ≤ n.val := by
    have : (((1 : ℚ) / 2 ^ 29 : ℚ) : ℝ) ≤ (n.val : ℝ) := by push_cast; exact n28
    exact_mod_cast this
  have n60 : (n'.val : ℝ) ≤ 2 ^ 61 := by norm_num at n2' h60' ⊢; linarith
  have n60' : n'.val ≤ 2 ^ 61 := by exact_mod_cast n60
  have Sl : Sc (0 + (j + k)) (lit 1 1000000 * n) (lit 1 1000000 * n') :=
    Sc.mul ⟨fl, fl, by simp⟩ Sn (by
      rw [abs_of_pos (mul_pos lp pnn')]
      refine lt_of_le_of_lt (mul_le_mul l2 n60' pnn'.le (by norm_num)) (by norm_num [ovf])) (Or.inr (by
      rw [abs_of_pos (mul_pos lp pnn)]
      refine le_trans ?_ (mul_le_mul l1 n28' (by norm_num) lp.le)
      norm_num))
  rw [Nat.zero_add] at Sl
  have hc : R'.lt (lit 1 1000000 * n') = R.lt (lit 1 1000000 * n) := by
    rw [Bool.eq_iff_iff, lt_iff SR.fy Sl.fy, lt_iff SR.fx Sl.fx, SR.eq, Sl.eq]
    exact mul_lt_mul_iff_right₀ (by positivity)
  rw [hq _ rfl, hq' _ rfl, hc]
  cases hl : R.lt (lit 1 1000000 * n)
  · rw [if_neg (by simp), if_neg (by simp)]
    have hRa : ∀ {n R : F32} {N : ℝ} {d : ℚ}, |(R.val : ℝ) - (n.val + d)| ≤ 1 / 2 ^ 21 * N → |(d : ℝ)| ≤ N → 1 / 2 ^ 28 ≤ N →
        (1 - 1 / 2 ^ 19) * N ≤ n.val → (n.val : ℝ) ≤ 1.06071 * N → |(R.val : ℝ)| ≤ 2.07 * N := by
      intro n R N d h1 h2 h3 h4 h5
      obtain ⟨a, b⟩ := abs_le.1 h1
      obtain ⟨c, d⟩ := abs_le.1 h2
      rw [abs_le]; constructor <;> norm_num at a b h4 h5 h3 c d ⊢ <;> linarith
    obtain ⟨fq, -, q1, q2, -⟩ := preQ_facts fu fv hN2 h28 h60 fR (hRa eR hD h28 n1 n2) (k2 hl)
    obtain ⟨fq', -, q1', q2', -⟩ := preQ_facts fu' fv' hN2' h28' h60' fR' (hRa eR' hD' h28' n1' n2') (k2' (hc.trans hl))
    have Rlo : (1 : ℝ) / 2 ^ 63 ≤ R.val := by
      have := k2 hl
      norm_num at this h28 ⊢; linarith
    have Rlo' : (1 : ℚ) / 2 ^ 63 ≤ R.val := by
      have : (((1 : ℚ) / 2 ^ 63 : ℚ) : ℝ) ≤ (R.val : ℝ) := by push_cast; exact Rlo
      exact_mod_cast this
    have Rp : 0 < R.val := lt_of_lt_of_le (by norm_num) Rlo'
    obtain ⟨B, lB⟩ := cross_ss hu.y hv.z hu.z hv.y hu.ly hv.lz hu.lz hv.ly hu.hy hv.hz hu.hz hv.hy
    obtain ⟨C, lC⟩ := cross_ss hu.z hv.x hu.x hv.z hu.lz hv.lx hu.lx hv.lz hu.hz hv.hx hu.hx hv.hz
    obtain ⟨E, lE⟩ := cross_ss hu.x hv.y hu.y hv.x hu.lx hv.ly hu.ly hv.lx hu.hx hv.hy hu.hy hv.hx
    refine finish_scale (k := j + k) (scaled4 (pos_sign_ss SR Rp) B C E (Or.inr ?_) (lB.imp id fun h => ?_) (lC.imp id fun h => ?_)
      (lE.imp id fun h => ?_) q2' (lt_of_lt_of_le (by norm_num) q1))
    · exact Rlo'.trans (le_abs_self _)
    · exact le_trans (by norm_num) h
    · exact le_trans (by norm_num) h
    · exact le_trans (by norm_num) h
  · rw [if_pos rfl, if_pos rfl]
    obtain ⟨fq, q1, q2, -⟩ := oppQ_facts fu
    obtain ⟨fq', q1', q2', -⟩ := oppQ_facts fu'
    have hg : u'.x.abs.gt u'.z.abs = u.x.abs.gt u.z.abs := by
      have X := abs_sc hu.x.sc
      have Z := abs_sc hu.z.sc
      unfold gt
      rw [Bool.eq_iff_iff, lt_iff Z.fy X.fy, lt_iff Z.fx X.fx, X.eq, Z.eq]
      exact mul_lt_mul_iff_right₀ (by positivity)
    have lo : ∀ {t : ℚ}, (t = 0 ∨ 1 / 2 ^ 14 ≤ |t|) → t = 0 ∨ 1 / 2 ^ 63 ≤ |t| := fun h => h.imp id fun h => le_trans (by norm_num) h
    have lo' : ∀ {t : F32}, (t.val = 0 ∨ 1 / 2 ^ 14 ≤ |t.val|) → (-t).val = 0 ∨ 1 / 2 ^ 63 ≤ |(-t).val| := fun h => by
      rw [val_neg, abs_neg, neg_eq_zero]; exact lo h
    have z0 : posZero.val = 0 ∨ 1 / 2 ^ 63 ≤ |posZero.val| := Or.inl val_posZero
    have h124 : qlen (oppQ u') ≤ 2 ^ 124 := q2'.trans (lu3.trans (by norm_num))
    have h0 : 0 < qlen (oppQ u) := lt_of_lt_of_le (by norm_num at lu1 ⊢; linarith) q1
    have opp : ∀ w : Vector3d F32, oppQ w = if w.x.abs.gt w.z.abs then ⟨posZero, -w.y, w.x, posZero⟩ else ⟨posZero, posZero, -w.z, w.y⟩ :=
      fun w => rfl
    rw [opp] at h124 h0
    rw [opp, opp]
    rw [hg] at h124 ⊢
    cases hG : u.x.abs.gt u.z.abs <;> rw [hG] at h124 h0
    · rw [if_neg Bool.false_ne_true] at h124 h0
      rw [if_neg Bool.false_ne_true, if_neg Bool.false_ne_true]
      exact finish_scale (k := j) (scaled4 (ss_zero j) (ss_zero j) (ss_neg hu.z) hu.y z0 z0 (lo' hu.lz) (lo hu.ly) h124 h0)
    · rw [if_pos rfl] at h124 h0
      rw [if_pos rfl, if_pos rfl]
      exact finish_scale (k := j) (scaled4 (ss_zero j) (ss_neg hu.y) hu.x (ss_zero j) z0 (lo' hu.ly) (lo hu.lx) z0 h124 h0)

/-- `1, -2, 3` and `4, -8, 12`. -/
example : ScaledV 2 (⟨⟨0x3f800000#32⟩, ⟨0xc0000000#32⟩, ⟨0x40400000#32⟩⟩ : Vector3d F32) ⟨⟨0x40800000#32⟩, ⟨0xc1000000#32⟩, ⟨0x41400000#32⟩⟩ := by
  have h1 : (⟨0x3f800000#32⟩ : F32).val = 1 := by rw [val_of_units (u := 1 * 2 ^ 149) (by decide +kernel)]; norm_num
  have h2 : (⟨0xc0000000#32⟩ : F32).val = -2 := by rw [val_of_units (u := -2 * 2 ^ 149) (by decide +kernel)]; norm_num
  have h3 : (⟨0x40400000#32⟩ : F32).val = 3 := by rw [val_of_units (u := 3 * 2 ^ 149) (by decide +kernel)]; norm_num
  have k1 : (⟨0x40800000#32⟩ : F32).val = 4 := by rw [val_of_units (u := 4 * 2 ^ 149) (by decide +kernel)]; norm_num
  have k2 : (⟨0xc1000000#32⟩ : F32).val = -8 := by rw [val_of_units (u := -8 * 2 ^ 149) (by decide +kernel)]; norm_num
  have k3 : (⟨0x41400000#32⟩ : F32).val = 12 := by rw [val_of_units (u := 12 * 2 ^ 149) (by decide +kernel)]; norm_num
  refine ⟨⟨⟨by decide, by decide, ?_⟩, by decide⟩, ⟨⟨by decide, by decide, ?_⟩, by decide⟩, ⟨⟨by decide, by decide, ?_⟩, by decide⟩,
    Or.inr ?_, Or.inr ?_, Or.inr ?_, ?_, ?_, ?_, Or.inl ?_⟩ <;> simp only [h1, h2, h3, k1, k2, k3] <;> norm_num

end Micromath.Props
