import Verif.Props.TwoVec

/-!
# C91-C93: `Quaternion::from_two_vectors`, the theorems
-/

set_option exponentiation.threshold 1000

namespace Micromath.Props
open F32 Spec

variable [Cfg]

section
variable {C : Type} [Component C] [IntoF32 C]

omit [Cfg] in
theorem rot_comp {w s l L κ : ℝ} (hl : 0 < l) (hL : L ≤ 1.74 * l) (hL0 : 0 ≤ L)  (hk2 : κ ≤ 1.0701) (h14 : 1 / 2 ^ 14 ≤ l)
    (h : |w - s| ≤ 11 / 2 ^ 24 * (κ * L) + (L + 1) / 2 ^ 143) : |w / l - s / l| ≤ 1 / 2 ^ 19 := by
  rw [← sub_div, abs_div, abs_of_pos hl, div_le_iff₀ hl]
  refine h.trans ?_
  have := mul_le_mul hk2 hL hL0 (by norm_num)
  norm_num at this h14 hL ⊢
  linarith

set_option maxHeartbeats 1000000 in
theorem turns_dots {u v : Vector3d C} (h : Dots u v) {lu lv c : ℝ} (plu : 0 < lu) (plv : 0 < lv) (hlu : lu ^ 2 = len3 u) (hlv : lv ^ 2 = len3 v)
    (hc : c * (lu * lv) = dot3 u v) (hc9 : -0.9 ≤ c) :
    ∃ r, Quaternion.fromTwoVectors u v = .ok r ∧
      (1 + c) * ((((r.rotate u).x.val : ℝ) / lu - (IntoF32.into v.x : F32).val / lv) ^ 2 + (((r.rotate u).y.val : ℝ) / lu - (IntoF32.into v.y : F32).val / lv) ^ 2
        + (((r.rotate u).z.val : ℝ) / lu - (IntoF32.into v.z : F32).val / lv) ^ 2) ≤ 0.0055 * (1 + c) + 0.004 * (1 - c) := by
  obtain ⟨r, hr, fr, s1, s2, hB⟩ := two_exact h plu plv hlu hlv hc hc9
  refine ⟨r, hr, ?_⟩
  obtain ⟨x, hx⟩ : ∃ x, x = (IntoF32.into u.x : F32).val := ⟨_, rfl⟩
  obtain ⟨y, hy⟩ : ∃ y, y = (IntoF32.into u.y : F32).val := ⟨_, rfl⟩
  obtain ⟨z, hz⟩ : ∃ z, z = (IntoF32.into u.z : F32).val := ⟨_, rfl⟩
  obtain ⟨L, hL⟩ : ∃ L, L = |x| + |y| + |z| := ⟨_, rfl⟩
  have hl : len3 u = x ^ 2 + y ^ 2 + z ^ 2 := by rw [hx, hy, hz]; rfl
  have hL0 : 0 ≤ L := by rw [hL]; positivity
  have hLs : L ^ 2 ≤ 3 * len3 u := by
    rw [hl, hL, ← sq_abs x, ← sq_abs y, ← sq_abs z]
    nlinarith [sq_nonneg (|x| - |y|), sq_nonneg (|y| - |z|), sq_nonneg (|x| - |z|)]
  have hL31 : L ≤ 2 ^ 31 := by
    refine abs_le_of_sq_le_sq' ?_ (by norm_num) |>.2
    have := h.lu2
    norm_num at this ⊢; linarith
  have hQL : qlen r * L ≤ 2 ^ 120 := by
    have := mul_le_mul s2 hL31 hL0 (by norm_num)
    norm_num at this ⊢; linarith
  obtain ⟨-, -, -, e1, e2, e3⟩ := C90_rotate_err r u fr h.fu.1 h.fu.2.1 h.fu.2.2 (by norm_num at s2 ⊢; linarith) hx hy hz hL
    (by norm_num at hL31 ⊢; linarith) hQL
  have hLR : (L : ℝ) ≤ 1.74 * lu := by
    refine abs_le_of_sq_le_sq' ?_ (by positivity) |>.2
    have := (Rat.cast_le (K := ℝ)).2 hLs
    push_cast at this
    rw [mul_pow, hlu]
    have h0 : (0 : ℝ) ≤ len3 u := by rw [← hlu]; positivity
    norm_num at this h0 ⊢
    rw [← hlu] at *
    nlinarith [sq_nonneg lu]
  have h14 : 1 / 2 ^ 14 ≤ lu := by
    refine (sq_le_sq₀ (by positivity) plu.le).1 ?_
    rw [hlu]
    have := (Rat.cast_le (K := ℝ)).2 h.lu1
    push_cast at this
    norm_num at this ⊢; linarith
  have hk2 : (qlen r : ℝ) ≤ 1.0701 := by
    have := (Rat.cast_le (K := ℝ)).2 s2
    push_cast at this; exact this
  have toR : ∀ a b : ℚ, |a - b| ≤ 11 / 2 ^ 24 * (qlen r * L) + (L + 1) / 2 ^ 143 →
      |(a : ℝ) - b| ≤ 11 / 2 ^ 24 * (qlen r * L) + (L + 1) / 2 ^ 143 := fun a b hab => by
    have := (Rat.cast_le (K := ℝ)).2 hab
    push_cast at this; exact this
  have hL0' : (0 : ℝ) ≤ L := by exact_mod_cast hL0
  have E1 := rot_comp plu hLR hL0' hk2 h14 (toR _ _ e1)
  have E2 := rot_comp plu hLR hL0' hk2 h14 (toR _ _ e2)
  have E3 := rot_comp plu hLR hL0' hk2 h14 (toR _ _ e3)
  obtain ⟨t0, t1, t2, t3⟩ := sand_real r x y z lu
  rw [← hx, ← hy, ← hz] at hB
  rw [Geom.norm_sq_eq] at hB
  simp only [_root_.Quaternion.re_sub, _root_.Quaternion.imI_sub, _root_.Quaternion.imJ_sub, _root_.Quaternion.imK_sub,
    t0, t1, t2, t3, Geom.pure_re, Geom.pure_imI, Geom.pure_imJ, Geom.pure_imK] at hB
  -- per component: `(a + e)² ≤ (1 + 2^-10) a² + 2^-27`
  have key : ∀ w s t : ℝ, |w - s| ≤ 1 / 2 ^ 19 → (w - t) ^ 2 ≤ (1 + 1 / 2 ^ 10) * (s - t) ^ 2 + 1 / 2 ^ 27 := fun w s t hw => by
    have hsq := pow_le_pow_left₀ (abs_nonneg _) hw 2
    rw [sq_abs] at hsq
    have h2 := sq_nonneg ((s - t) / 2 ^ 5 - 2 ^ 5 * (w - s))
    have e : (w - t) ^ 2 = (s - t) ^ 2 + 2 * (s - t) * (w - s) + (w - s) ^ 2 := by ring
    rw [e]
    norm_num at hsq ⊢
    ring_nf at h2 hsq ⊢
    linarith
  have K1 := key _ _ ((IntoF32.into v.x : F32).val / lv) E1
  have K2 := key _ _ ((IntoF32.into v.y : F32).val / lv) E2
  have K3 := key _ _ ((IntoF32.into v.z : F32).val / lv) E3
  have hc1 : 0 ≤ 1 + c := by norm_num at hc9; linarith
  have hc2 : c ≤ 1 := by
    obtain ⟨-, -, -, -, -, hD, -⟩ := pre_facts h (mul_pos plu plv) (by rw [mul_pow, hlu, hlv])
    rw [← hc, abs_le] at hD
    exact le_of_mul_le_mul_right (by linarith [hD.2]) (mul_pos plu plv)
  have M := mul_le_mul_of_nonneg_left (add_le_add (add_le_add K1 K2) K3) hc1
  refine M.trans ?_
  clear M K1 K2 K3 E1 E2 E3 key toR e1 e2 e3
  norm_num at hB ⊢
  linarith

/-! ### The dot products of each component type -/

theorem dots_f32 {u v : Vector3d F32} (fu : VFinite u) (fv : VFinite v) (lu1 : 1 / 2 ^ 28 ≤ len3 u) (lu2 : len3 u ≤ 2 ^ 60)
    (lv1 : 1 / 2 ^ 28 ≤ len3 v) (lv2 : len3 v ≤ 2 ^ 60) : Dots u v := by
  have gen : ∀ a b : Vector3d F32, VFinite a → VFinite b → mag3 a b ≤ 2 ^ 61 →
      ∃ d, a.dot b = .ok d ∧ (IntoF32.into d : F32).isFinite = true ∧ |(IntoF32.into d : F32).val - dot3 a b| ≤ 4 / 2 ^ 24 * mag3 a b + 1 / 2 ^ 147 := by
    intro a b fa fb hm
    have hm' : |a.x.val * b.x.val| + |a.y.val * b.y.val| + |a.z.val * b.z.val| ≤ 2 ^ 61 := hm
    have n1 := abs_nonneg (a.x.val * b.x.val)
    have n2 := abs_nonneg (a.y.val * b.y.val)
    have n3 := abs_nonneg (a.z.val * b.z.val)
    have a1 := Acc.mul (x := a.x) (y := b.x) fa.1 fb.1 (by linarith)
    have a2 := Acc.mul (x := a.y) (y := b.y) fa.2.1 fb.2.1 (by linarith)
    have a3 := Acc.mul (x := a.z) (y := b.z) fa.2.2 fb.2.2 (by linarith)
    have s1 := (Acc.step a1 a2 (by linarith)).1
    have s2 := (Acc.step s1 a3 (by linarith)).1
    refine ⟨_, rfl, s2.fin, s2.err.trans ?_⟩
    change _ ≤ 4 / 2 ^ 24 * (|a.x.val * b.x.val| + |a.y.val * b.y.val| + |a.z.val * b.z.val|) + 1 / 2 ^ 147
    linarith
  have sq : ∀ a : Vector3d F32, mag3 a a = len3 a ∧ dot3 a a = len3 a := fun a => by
    constructor
    · unfold mag3 len3; simp only [abs_mul_self]; ring
    · unfold dot3 len3; ring
  have one : ∀ a : Vector3d F32, VFinite a → 1 / 2 ^ 28 ≤ len3 a → len3 a ≤ 2 ^ 60 →
      ∃ d, a.dot a = .ok d ∧ (IntoF32.into d : F32).isFinite = true ∧ |(IntoF32.into d : F32).val - len3 a| ≤ 5 / 2 ^ 24 * len3 a := by
    intro a fa l1 l2
    obtain ⟨d, hd, f, e⟩ := gen a a fa fa (by rw [(sq a).1]; norm_num at l2 ⊢; linarith)
    rw [(sq a).1, (sq a).2] at e
    refine ⟨d, hd, f, e.trans ?_⟩
    norm_num at l1 ⊢; linarith
  refine ⟨fu, fv, lu1, lu2, lv1, lv2, one u fu lu1 lu2, one v fv lv1 lv2, ?_⟩
  have hmm : mag3 u v ≤ 2 ^ 61 := by
    have h2 : 2 * mag3 u v ≤ len3 u + len3 v := by
      have p : ∀ a b : ℚ, 2 * |a * b| ≤ a ^ 2 + b ^ 2 := fun a b => by
        rw [abs_mul, ← sq_abs a, ← sq_abs b]; nlinarith [sq_nonneg (|a| - |b|)]
      have p1 := p (IntoF32.into u.x : F32).val (IntoF32.into v.x : F32).val
      have p2 := p (IntoF32.into u.y : F32).val (IntoF32.into v.y : F32).val
      have p3 := p (IntoF32.into u.z : F32).val (IntoF32.into v.z : F32).val
      unfold mag3 len3; linarith
    norm_num at lu2 lv2 ⊢; linarith
  obtain ⟨d, hd, f, e⟩ := gen u v fu fv hmm
  have := (mag3_nonneg u v).1
  exact ⟨d, hd, f, e.trans (by linarith)⟩

/-- The integer dot product of two vectors. -/
def idot {s : Bool} {w : Nat} (u v : Vector3d (MInt s w)) : Int := u.x.toInt * v.x.toInt + u.y.toInt * v.y.toInt + u.z.toInt * v.z.toInt

omit [Cfg] in
theorem small_toInt {s : Bool} {w : Nat} (hw : 0 < w) (hw2 : w ≤ 16) (x : MInt s w) : |(x.toInt : ℚ)| ≤ 2 ^ 16 := by
  have h := toInt_inRange hw x
  have hp : (2 : Int) ^ w ≤ 2 ^ 16 := pow_le_pow_right₀ (by norm_num) hw2
  have hq : (2 : Int) ^ (w - 1) ≤ 2 ^ 16 := pow_le_pow_right₀ (by norm_num) (by omega)
  have : |x.toInt| ≤ 2 ^ 16 := by
    unfold MInt.InRange at h
    rw [abs_le]
    split at h
    · constructor <;> omega
    · constructor <;> omega
  exact_mod_cast this

theorem dots_int {s : Bool} {w : Nat} [IntoF32 (MInt s w)] (hI : ∀ n : MInt s w, IsVal (IntoF32.into n) n.toInt) (hw : 0 < w) (hw2 : w ≤ 16)
    {u v : Vector3d (MInt s w)} {a b c : MInt s w} (hu : u.dot u = .ok a) (eu : a.toInt = idot u u) (hv : v.dot v = .ok b) (ev : b.toInt = idot v v)
    (huv : u.dot v = .ok c) (euv : c.toInt = idot u v) (u0 : 0 < idot u u) (v0 : 0 < idot v v) : Dots u v := by
  have ed : ∀ x y : Vector3d (MInt s w), dot3 x y = idot x y := fun x y => by
    unfold dot3 idot; simp only [(hI _).2]; push_cast; ring
  have el : ∀ x : Vector3d (MInt s w), len3 x = idot x x := fun x => by
    unfold len3 idot; simp only [(hI _).2]; push_cast; ring
  have lo : ∀ x : Vector3d (MInt s w), 0 < idot x x → 1 / 2 ^ 28 ≤ len3 x := fun x hx => by
    rw [el]
    have : (1 : ℚ) ≤ idot x x := by exact_mod_cast hx
    norm_num; linarith
  have hi : ∀ (x : Vector3d (MInt s w)) (d : MInt s w), d.toInt = idot x x → len3 x ≤ 2 ^ 60 := fun x d hd => by
    rw [el, ← hd]
    have := (abs_le.1 (small_toInt hw hw2 d)).2
    norm_num at this ⊢; linarith
  have hlu := lo u u0
  have hlv := lo v v0
  refine ⟨⟨(hI _).1, (hI _).1, (hI _).1⟩, ⟨(hI _).1, (hI _).1, (hI _).1⟩, lo u u0, hi u a eu, lo v v0, hi v b ev,
    ⟨a, hu, (hI a).1, ?_⟩, ⟨b, hv, (hI b).1, ?_⟩, ⟨c, huv, (hI c).1, ?_⟩⟩
  · rw [(hI a).2, eu, ← el, sub_self, abs_zero]; linarith
  · rw [(hI b).2, ev, ← el, sub_self, abs_zero]; linarith
  · rw [(hI c).2, euv, ← ed, sub_self, abs_zero]
    have := (mag3_nonneg u v).1
    positivity

end

/-! ### C91 -/

/-- **C91.** For finite `f32` vectors of squared length within `2^-28 .. 2^60`, `from_two_vectors` returns in every build mode a finite
quaternion of exact squared length within `0.9299 .. 1.0701`, whatever the angle. -/
theorem C91_unit (u v : Vector3d F32) (fu : VFinite u) (fv : VFinite v) (lu1 : 1 / 2 ^ 28 ≤ len3 u) (lu2 : len3 u ≤ 2 ^ 60)
    (lv1 : 1 / 2 ^ 28 ≤ len3 v) (lv2 : len3 v ≤ 2 ^ 60) :
    ∃ r, Quaternion.fromTwoVectors u v = .ok r ∧ QFinite r ∧ 0.9299 ≤ qlen r ∧ qlen r ≤ 1.0701 :=
  C91_unit_dots (dots_f32 fu fv lu1 lu2 lv1 lv2)

/-- **C91.** The direction of the rotated `u` against the direction of `v`; `c` is the cosine of the exact angle. -/
theorem C91_turns (u v : Vector3d F32) (fu : VFinite u) (fv : VFinite v) (lu1 : 1 / 2 ^ 28 ≤ len3 u) (lu2 : len3 u ≤ 2 ^ 60)
    (lv1 : 1 / 2 ^ 28 ≤ len3 v) (lv2 : len3 v ≤ 2 ^ 60) {lu lv c : ℝ} (hlu : lu = Real.sqrt (len3 u)) (hlv : lv = Real.sqrt (len3 v))
    (hc : c = dot3 u v / (lu * lv)) (hc9 : -0.9 ≤ c) :
    ∃ r, Quaternion.fromTwoVectors u v = .ok r ∧
      (1 + c) * ((((r.rotate u).x.val : ℝ) / lu - v.x.val / lv) ^ 2 + (((r.rotate u).y.val : ℝ) / lu - v.y.val / lv) ^ 2
        + (((r.rotate u).z.val : ℝ) / lu - v.z.val / lv) ^ 2) ≤ 0.0055 * (1 + c) + 0.004 * (1 - c) := by
  have hu : (0 : ℝ) < len3 u := by exact_mod_cast lt_of_lt_of_le (by positivity) lu1
  have hv : (0 : ℝ) < len3 v := by exact_mod_cast lt_of_lt_of_le (by positivity) lv1
  have plu : 0 < lu := hlu ▸ Real.sqrt_pos.2 hu
  have plv : 0 < lv := hlv ▸ Real.sqrt_pos.2 hv
  exact turns_dots (dots_f32 fu fv lu1 lu2 lv1 lv2) plu plv (by rw [hlu, Real.sq_sqrt hu.le]) (by rw [hlv, Real.sq_sqrt hv.le])
    (by rw [hc, div_mul_cancel₀ _ (mul_pos plu plv).ne']) hc9

/-- **C91.** For vectors at most a right angle apart, the rotated direction of `u` is within `0.1` of the direction of `v`. -/
theorem C91_right_angle (u v : Vector3d F32) (fu : VFinite u) (fv : VFinite v) (lu1 : 1 / 2 ^ 28 ≤ len3 u) (lu2 : len3 u ≤ 2 ^ 60)
    (lv1 : 1 / 2 ^ 28 ≤ len3 v) (lv2 : len3 v ≤ 2 ^ 60) (hd : 0 ≤ dot3 u v) {lu lv : ℝ} (hlu : lu = Real.sqrt (len3 u))
    (hlv : lv = Real.sqrt (len3 v)) :
    ∃ r, Quaternion.fromTwoVectors u v = .ok r ∧
      Real.sqrt ((((r.rotate u).x.val : ℝ) / lu - v.x.val / lv) ^ 2 + (((r.rotate u).y.val : ℝ) / lu - v.y.val / lv) ^ 2
        + (((r.rotate u).z.val : ℝ) / lu - v.z.val / lv) ^ 2) < 0.1 := by
  have hc0 : 0 ≤ (dot3 u v : ℝ) / (lu * lv) := by
    refine div_nonneg (by exact_mod_cast hd) (mul_nonneg ?_ ?_)
    · rw [hlu]; exact Real.sqrt_nonneg _
    · rw [hlv]; exact Real.sqrt_nonneg _
  obtain ⟨r, hr, h⟩ := C91_turns u v fu fv lu1 lu2 lv1 lv2 hlu hlv rfl (le_trans (by norm_num) hc0)
  refine ⟨r, hr, ?_⟩
  rw [Real.sqrt_lt' (by norm_num)]
  generalize (dot3 u v : ℝ) / (lu * lv) = c at *
  have h1 : (1 + c) * ((((r.rotate u).x.val : ℝ) / lu - v.x.val / lv) ^ 2 + (((r.rotate u).y.val : ℝ) / lu - v.y.val / lv) ^ 2
        + (((r.rotate u).z.val : ℝ) / lu - v.z.val / lv) ^ 2) ≤ (1 + c) * 0.0096 := by
    refine h.trans ?_
    norm_num; linarith
  have h2 := le_of_mul_le_mul_left h1 (by linarith)
  refine lt_of_le_of_lt h2 (by norm_num)

/-- **C91, integer components** (`i8`, `i16`, `u8`, `u16`): the same bound whenever the three dot products fit their type. -/
theorem C91_turns_int {s : Bool} {w : Nat} [IntoF32 (MInt s w)] (hI : ∀ n : MInt s w, IsVal (IntoF32.into n) n.toInt) (hw : 0 < w) (hw2 : w ≤ 16)
    {u v : Vector3d (MInt s w)} {a b c : MInt s w} (hu : u.dot u = .ok a) (eu : a.toInt = idot u u) (hv : v.dot v = .ok b) (ev : b.toInt = idot v v)
    (huv : u.dot v = .ok c) (euv : c.toInt = idot u v) (u0 : 0 < idot u u) (v0 : 0 < idot v v) {lu lv k : ℝ}
    (hlu : lu = Real.sqrt (idot u u)) (hlv : lv = Real.sqrt (idot v v)) (hk : k = idot u v / (lu * lv)) (hk9 : -0.9 ≤ k) :
    ∃ r, Quaternion.fromTwoVectors u v = .ok r ∧ QFinite r ∧ 0.9299 ≤ qlen r ∧ qlen r ≤ 1.0701 ∧
      (1 + k) * ((((r.rotate u).x.val : ℝ) / lu - v.x.toInt / lv) ^ 2 + (((r.rotate u).y.val : ℝ) / lu - v.y.toInt / lv) ^ 2
        + (((r.rotate u).z.val : ℝ) / lu - v.z.toInt / lv) ^ 2) ≤ 0.0055 * (1 + k) + 0.004 * (1 - k) := by
  have hD := dots_int hI hw hw2 hu eu hv ev huv euv u0 v0
  have ed : dot3 u v = idot u v := by unfold dot3 idot; simp only [(hI _).2]; push_cast; ring
  have el : ∀ x : Vector3d (MInt s w), len3 x = idot x x := fun x => by
    unfold len3 idot; simp only [(hI _).2]; push_cast; ring
  have hu' : (0 : ℝ) < idot u u := by exact_mod_cast u0
  have hv' : (0 : ℝ) < idot v v := by exact_mod_cast v0
  have plu : 0 < lu := hlu ▸ Real.sqrt_pos.2 hu'
  have plv : 0 < lv := hlv ▸ Real.sqrt_pos.2 hv'
  obtain ⟨r, hr, h⟩ := turns_dots hD plu plv (by rw [hlu, Real.sq_sqrt hu'.le, el]; simp) (by rw [hlv, Real.sq_sqrt hv'.le, el]; simp)
    (by rw [hk, div_mul_cancel₀ _ (mul_pos plu plv).ne', ed]; simp) hk9
  obtain ⟨r', hr', f, q1, q2⟩ := C91_unit_dots hD
  have : r' = r := by rw [hr] at hr'; cases hr'; rfl
  subst this
  simp only [(hI _).2, Rat.cast_intCast] at h
  exact ⟨r', hr, f, q1, q2, h⟩

/-- Two unit axes a right angle apart, and the integer vectors `(1, 2, 2)` and `(2, 2, 1)`. -/
example : ∃ u v : Vector3d F32, VFinite u ∧ VFinite v ∧ len3 u = 1 ∧ len3 v = 1 ∧ dot3 u v = 0 := by
  refine ⟨⟨one, posZero, posZero⟩, ⟨posZero, one, posZero⟩, ⟨fin_one, fin_posZero, fin_posZero⟩, ⟨fin_posZero, fin_one, fin_posZero⟩, ?_, ?_, ?_⟩
  · show one.val ^ 2 + posZero.val ^ 2 + posZero.val ^ 2 = 1
    rw [val_one, val_posZero]; norm_num
  · show posZero.val ^ 2 + one.val ^ 2 + posZero.val ^ 2 = 1
    rw [val_one, val_posZero]; norm_num
  · show one.val * posZero.val + posZero.val * one.val + posZero.val * posZero.val = 0
    rw [val_posZero]; norm_num

example : ∃ a b c : I8, Vector3d.dot (⟨⟨1#8⟩, ⟨2#8⟩, ⟨2#8⟩⟩ : Vector3d I8) ⟨⟨1#8⟩, ⟨2#8⟩, ⟨2#8⟩⟩ = .ok a ∧ a.toInt = 9 ∧
    Vector3d.dot (⟨⟨2#8⟩, ⟨2#8⟩, ⟨1#8⟩⟩ : Vector3d I8) ⟨⟨2#8⟩, ⟨2#8⟩, ⟨1#8⟩⟩ = .ok b ∧ b.toInt = 9 ∧
    Vector3d.dot (⟨⟨1#8⟩, ⟨2#8⟩, ⟨2#8⟩⟩ : Vector3d I8) ⟨⟨2#8⟩, ⟨2#8⟩, ⟨1#8⟩⟩ = .ok c ∧ c.toInt = 8 := by
  obtain ⟨a, ha, va⟩ := (C56_dot_exact (s := true) (w := 8) (by norm_num) ⟨⟨1#8⟩, ⟨1#8⟩⟩ ⟨⟨1#8⟩, ⟨1#8⟩⟩ ⟨⟨1#8⟩, ⟨2#8⟩, ⟨2#8⟩⟩ ⟨⟨1#8⟩, ⟨2#8⟩, ⟨2#8⟩⟩).2
    (by decide) (by decide) (by decide) (by decide) (by decide)
  obtain ⟨b, hb, vb⟩ := (C56_dot_exact (s := true) (w := 8) (by norm_num) ⟨⟨1#8⟩, ⟨1#8⟩⟩ ⟨⟨1#8⟩, ⟨1#8⟩⟩ ⟨⟨2#8⟩, ⟨2#8⟩, ⟨1#8⟩⟩ ⟨⟨2#8⟩, ⟨2#8⟩, ⟨1#8⟩⟩).2
    (by decide) (by decide) (by decide) (by decide) (by decide)
  obtain ⟨c, hc, vc⟩ := (C56_dot_exact (s := true) (w := 8) (by norm_num) ⟨⟨1#8⟩, ⟨1#8⟩⟩ ⟨⟨1#8⟩, ⟨1#8⟩⟩ ⟨⟨1#8⟩, ⟨2#8⟩, ⟨2#8⟩⟩ ⟨⟨2#8⟩, ⟨2#8⟩, ⟨1#8⟩⟩).2
    (by decide) (by decide) (by decide) (by decide) (by decide)
  exact ⟨a, b, c, ha, va, hb, vb, hc, vc⟩

/-! ### C92: parallel, opposite and zero vectors -/

theorem sub_self_zero {x : F32} (fx : x.isFinite = true) : x - x = posZero := by
  rw [sub_def, addAs_finite _ fx (by simpa using fx), val_neg, add_neg_cancel, if_pos rfl, sign_neg]
  simp

theorem cross_same {x y : F32} (h : (x * y - y * x).isFinite = true) : x * y - y * x = posZero := by
  have hf : (x * y).isFinite = true := by
    by_contra hn
    have hn' : (x * y).isFinite = false := by simpa using hn
    have := sub_finite_inv h
    rw [this.1] at hn'; cases hn'
  have e : x * y = y * x := (mul_comm_eqv x y).eq (not_nan_of_finite hf)
  rw [← e]
  exact sub_self_zero hf

theorem cross_opp {x y : F32} (fx : x.isFinite = true) (fy : y.isFinite = true) (h : (x * -y - y * -x).isFinite = true) :
    x * -y - y * -x = posZero := by
  have hf := (sub_finite_inv h).1
  have e : x * -y = y * -x := by
    rw [mul_neg_fin fx fy] at hf
    rw [isFinite_neg] at hf
    rw [mul_neg_fin fx fy, mul_neg_fin fy fx, (mul_comm_eqv x y).eq (not_nan_of_finite hf)]
  rw [← e]
  exact sub_self_zero hf

theorem zero_mul_pos {k : F32} (fk : k.isFinite = true) (pk : 0 < k.val) : posZero * k = posZero := by
  refine eq_of_val_sign ?_ ?_
  · rw [(mul_zero_fin fk).2.2, val_posZero]
  · rw [sign_mul_finite fin_posZero fk, val_pos_sign pk]; decide

section
variable {C : Type} [Component C] [IntoF32 C]

/-- The result, by the branch taken. -/
theorem two_cases {u v : Vector3d C} (h : Dots u v) :
    ∃ r : Quaternion, ∃ k : F32, Quaternion.fromTwoVectors u v = .ok r ∧ QFinite r ∧ 0.9299 ≤ qlen r ∧ qlen r ≤ 1.0701 ∧ k.isFinite = true ∧ 0 < k.val ∧
      ((r = (oppQ u).scale k ∧ qlen (oppQ u) * k.val ^ 2 ≤ 1.08 ∧ dot3 u v < 0 ∧
        |r.b.val - (oppQ u).b.val * k.val| ≤ |(oppQ u).b.val * k.val| / 2 ^ 24 + 1 / 2 ^ 150 ∧
        |r.c.val - (oppQ u).c.val * k.val| ≤ |(oppQ u).c.val * k.val| / 2 ^ 24 + 1 / 2 ^ 150 ∧
        |r.d.val - (oppQ u).d.val * k.val| ≤ |(oppQ u).d.val * k.val| / 2 ^ 24 + 1 / 2 ^ 150) ∨
       ∃ R : F32, r = (preQ u v R).scale k ∧ QFinite (preQ u v R) ∧ 0 ≤ r.a.val) := by
  obtain ⟨lu, lv, plu, plv, hlu, hlv⟩ := exists_N h.lu1 h.lv1
  have hN2 : (lu * lv) ^ 2 = len3 u * len3 v := by rw [mul_pow, hlu, hlv]
  have hN := mul_pos plu plv
  obtain ⟨n, R, hq, h28, h60, hD, n1, n2, fR, eR, k1, k2⟩ := pre_facts h hN hN2
  cases hl : R.lt (lit 1 1000000 * n)
  · have hR2 := k2 hl
    have hRa : |(R.val : ℝ)| ≤ 2.07 * (lu * lv) := by
      obtain ⟨a, b⟩ := abs_le.1 eR
      obtain ⟨c, d⟩ := abs_le.1 hD
      rw [abs_le]; constructor <;> norm_num at a b n1 n2 h28 c d ⊢ <;> linarith
    obtain ⟨fq, -, q1, q2, -⟩ := preQ_facts h.fu h.fv hN2 h28 h60 fR hRa hR2
    obtain ⟨k, hk, ⟨pk, fk, -⟩, -, fs, s1, s2, -⟩ := scale_norm fq q1 q2
    refine ⟨(preQ u v R).scale k, k, ?_, fs, s1, s2, fk, pk, Or.inr ⟨R, rfl, fq, ?_⟩⟩
    · rw [hq _ rfl, hl, if_neg (by simp), hk]; rfl
    · have hRp : 0 < R.val := by
        have : (0 : ℝ) < R.val := lt_of_lt_of_le (by positivity) hR2
        exact_mod_cast this
      have f1 : (R * k).isFinite = true := fs.1
      show 0 ≤ (R * k).val
      rw [mul_finite_val f1]
      exact RN_nonneg (mul_pos hRp pk).le
  · obtain ⟨fq, q1, q2, -⟩ := oppQ_facts h.fu
    have l1 := h.lu1
    have l2 := h.lu2
    obtain ⟨k, hk, ⟨pk, fk, hk8⟩, -, fs, s1, s2, -, e1, e2, e3⟩ := scale_norm fq (by norm_num at *; linarith) (by norm_num at *; linarith)
    refine ⟨(oppQ u).scale k, k, ?_, fs, s1, s2, fk, pk, Or.inl ⟨rfl, hk8, ?_, e1, e2, e3⟩⟩
    · rw [hq _ rfl, hl, if_pos rfl, hk]; rfl
    · have := k1 hl
      obtain ⟨a, b⟩ := abs_le.1 eR
      have : (dot3 u v : ℝ) < 0 := by norm_num at this a n1; linarith
      exact_mod_cast this

omit [Cfg] in
theorem re_of_real {r : Quaternion} (hb : r.b = posZero) (hc : r.c = posZero) (hd : r.d = posZero) (ha : 0 ≤ r.a.val) (h1 : 0.9299 ≤ qlen r)
    (h2 : qlen r ≤ 1.0701) : 0.96 ≤ r.a.val ∧ r.a.val ≤ 1.04 := by
  unfold qlen at h1 h2
  rw [hb, hc, hd, val_posZero] at h1 h2
  norm_num at h1 h2 ⊢
  constructor <;> nlinarith

end

/-- **C92.** The rotation from a vector to itself has imaginary part exactly zero and real part within `0.96 .. 1.04`. -/
theorem C92_same (u : Vector3d F32) (fu : VFinite u) (lu1 : 1 / 2 ^ 28 ≤ len3 u) (lu2 : len3 u ≤ 2 ^ 60) :
    ∃ r, Quaternion.fromTwoVectors u u = .ok r ∧ r.b = posZero ∧ r.c = posZero ∧ r.d = posZero ∧ 0.96 ≤ r.a.val ∧ r.a.val ≤ 1.04 := by
  obtain ⟨r, k, hr, fr, s1, s2, fk, pk, hA | ⟨R, rfl, fq, ha⟩⟩ := two_cases (dots_f32 fu fu lu1 lu2 lu1 lu2)
  · exfalso
    have h1 := hA.2.2.1
    have : dot3 u u = len3 u := by unfold dot3 len3; ring
    rw [this] at h1
    norm_num at lu1; linarith
  · have eb : (preQ u u R).b = posZero := cross_same (x := u.y) (y := u.z) fq.2.1
    have ec : (preQ u u R).c = posZero := cross_same (x := u.z) (y := u.x) fq.2.2.1
    have ed : (preQ u u R).d = posZero := cross_same (x := u.x) (y := u.y) fq.2.2.2
    have rb : ((preQ u u R).scale k).b = posZero := by show (preQ u u R).b * k = posZero; rw [eb, zero_mul_pos fk pk]
    have rc : ((preQ u u R).scale k).c = posZero := by show (preQ u u R).c * k = posZero; rw [ec, zero_mul_pos fk pk]
    have rd : ((preQ u u R).scale k).d = posZero := by show (preQ u u R).d * k = posZero; rw [ed, zero_mul_pos fk pk]
    exact ⟨_, hr, rb, rc, rd, re_of_real rb rc rd ha s1 s2⟩

/-- **C92.** For exactly opposite vectors the result is one of two things: a half turn about an axis orthogonal to `u`, which is what is
wanted, or a quaternion with zero imaginary part, the identity rotation, which leaves `u` where it is. -/
theorem C92_opposite (u : Vector3d F32) (fu : VFinite u) (lu1 : 1 / 2 ^ 28 ≤ len3 u) (lu2 : len3 u ≤ 2 ^ 60) :
    ∃ r, Quaternion.fromTwoVectors u ⟨-u.x, -u.y, -u.z⟩ = .ok r ∧
      ((r.a = posZero ∧ 0.9299 ≤ qlen r ∧ qlen r ≤ 1.0701 ∧ (r.b.val * u.x.val + r.c.val * u.y.val + r.d.val * u.z.val) ^ 2 ≤ len3 u / 2 ^ 44) ∨
       (r.b = posZero ∧ r.c = posZero ∧ r.d = posZero ∧ 0.96 ≤ r.a.val ∧ r.a.val ≤ 1.04)) := by
  have fv : VFinite (⟨-u.x, -u.y, -u.z⟩ : Vector3d F32) :=
    ⟨(isFinite_neg _).trans fu.1, (isFinite_neg _).trans fu.2.1, (isFinite_neg _).trans fu.2.2⟩
  have hl : len3 (⟨-u.x, -u.y, -u.z⟩ : Vector3d F32) = len3 u := by
    show (-u.x).val ^ 2 + (-u.y).val ^ 2 + (-u.z).val ^ 2 = u.x.val ^ 2 + u.y.val ^ 2 + u.z.val ^ 2
    rw [val_neg, val_neg, val_neg]; ring
  obtain ⟨r, k, hr, fr, s1, s2, fk, pk, ⟨rfl, k8, -, e1, e2, e3⟩ | ⟨R, rfl, fq, ha⟩⟩ :=
    two_cases (dots_f32 fu fv lu1 lu2 (by rw [hl]; exact lu1) (by rw [hl]; exact lu2))
  · refine ⟨_, hr, Or.inl ⟨?_, s1, s2, ?_⟩⟩
    · obtain ⟨-, -, -, h0, -⟩ := oppQ_facts fu
      show (oppQ u).a * k = posZero
      rw [h0, zero_mul_pos fk pk]
    · obtain ⟨-, -, -, -, h0⟩ := oppQ_facts fu
      have hx : (IntoF32.into u.x : F32) = u.x := rfl
      have hy : (IntoF32.into u.y : F32) = u.y := rfl
      have hz : (IntoF32.into u.z : F32) = u.z := rfl
      have hlen : len3 u = u.x.val ^ 2 + u.y.val ^ 2 + u.z.val ^ 2 := rfl
      rw [hx, hy, hz] at h0
      have hb : ∀ t : ℚ, t ^ 2 ≤ qlen (oppQ u) → |t * k.val| ≤ 1.04 := fun t ht => by
        refine abs_le_of_sq_le_sq ?_ (by norm_num)
        rw [mul_pow]
        have := mul_le_mul_of_nonneg_right ht (sq_nonneg k.val)
        norm_num at k8 ⊢; linarith
      have na := sq_nonneg (oppQ u).a.val
      have nb := sq_nonneg (oppQ u).b.val
      have nc := sq_nonneg (oppQ u).c.val
      have nd := sq_nonneg (oppQ u).d.val
      have b1 := hb (oppQ u).b.val (by unfold qlen; linarith)
      have b2 := hb (oppQ u).c.val (by unfold qlen; linarith)
      have b3 := hb (oppQ u).d.val (by unfold qlen; linarith)
      have g : ∀ a b : ℚ, |a - b| ≤ |b| / 2 ^ 24 + 1 / 2 ^ 150 → |b| ≤ 1.04 → |a - b| ≤ 1.05 / 2 ^ 24 := fun a b h1 h2 => by
        norm_num at h1 h2 ⊢; linarith
      have g1 := g _ _ e1 b1
      have g2 := g _ _ e2 b2
      have g3 := g _ _ e3 b3
      generalize ((oppQ u).scale k).b.val = rb at *
      generalize ((oppQ u).scale k).c.val = rc at *
      generalize ((oppQ u).scale k).d.val = rd at *
      have e : rb * u.x.val + rc * u.y.val + rd * u.z.val = (rb - (oppQ u).b.val * k.val) * u.x.val + (rc - (oppQ u).c.val * k.val) * u.y.val
          + (rd - (oppQ u).d.val * k.val) * u.z.val := by linear_combination k.val * h0
      rw [e, hlen]
      have q1 := pow_le_pow_left₀ (abs_nonneg _) g1 2
      have q2 := pow_le_pow_left₀ (abs_nonneg _) g2 2
      have q3 := pow_le_pow_left₀ (abs_nonneg _) g3 2
      rw [sq_abs] at q1 q2 q3
      generalize rb - (oppQ u).b.val * k.val = a at *
      generalize rc - (oppQ u).c.val * k.val = b at *
      generalize rd - (oppQ u).d.val * k.val = c at *
      have cs : (a * u.x.val + b * u.y.val + c * u.z.val) ^ 2 ≤ (a ^ 2 + b ^ 2 + c ^ 2) * (u.x.val ^ 2 + u.y.val ^ 2 + u.z.val ^ 2) := by
        linarith [sq_nonneg (a * u.y.val - b * u.x.val), sq_nonneg (a * u.z.val - c * u.x.val), sq_nonneg (b * u.z.val - c * u.y.val)]
      refine cs.trans ?_
      rw [div_eq_inv_mul]
      refine mul_le_mul_of_nonneg_right ?_ (by positivity)
      norm_num at q1 q2 q3 ⊢; linarith
  · have eb : (preQ u ⟨-u.x, -u.y, -u.z⟩ R).b = posZero := cross_opp (x := u.y) (y := u.z) fu.2.1 fu.2.2 fq.2.1
    have ec : (preQ u ⟨-u.x, -u.y, -u.z⟩ R).c = posZero := cross_opp (x := u.z) (y := u.x) fu.2.2 fu.1 fq.2.2.1
    have ed : (preQ u ⟨-u.x, -u.y, -u.z⟩ R).d = posZero := cross_opp (x := u.x) (y := u.y) fu.1 fu.2.1 fq.2.2.2
    have rb : ((preQ u ⟨-u.x, -u.y, -u.z⟩ R).scale k).b = posZero := by
      show (preQ u ⟨-u.x, -u.y, -u.z⟩ R).b * k = posZero; rw [eb, zero_mul_pos fk pk]
    have rc : ((preQ u ⟨-u.x, -u.y, -u.z⟩ R).scale k).c = posZero := by
      show (preQ u ⟨-u.x, -u.y, -u.z⟩ R).c * k = posZero; rw [ec, zero_mul_pos fk pk]
    have rd : ((preQ u ⟨-u.x, -u.y, -u.z⟩ R).scale k).d = posZero := by
      show (preQ u ⟨-u.x, -u.y, -u.z⟩ R).d * k = posZero; rw [ed, zero_mul_pos fk pk]
    exact ⟨_, hr, Or.inr ⟨rb, rc, rd, re_of_real rb rc rd ha s1 s2⟩⟩

/-- **C92, the contract is violated**: for `u = (1, 1, 1)` and `v = -u` the result is a multiple of the identity, and rotating `u` by it
gives `0.934 u`, pointing away from `v`.  For `u = (1, 0, 0)` and `v = -u` the result is a half turn. -/
theorem C92_opposite_missed :
    Quaternion.fromTwoVectors (⟨one, one, one⟩ : Vector3d F32) ⟨-one, -one, -one⟩ = .ok ⟨⟨0x3f775a86#32⟩, posZero, posZero, posZero⟩ ∧
    Quaternion.rotate ⟨⟨0x3f775a86#32⟩, posZero, posZero, posZero⟩ (⟨one, one, one⟩ : Vector3d F32) =
      ⟨⟨0x3f6effcf#32⟩, ⟨0x3f6effcf#32⟩, ⟨0x3f6effcf#32⟩⟩ ∧
    Quaternion.fromTwoVectors (⟨one, posZero, posZero⟩ : Vector3d F32) ⟨-one, -posZero, -posZero⟩ =
      .ok ⟨posZero, negZero, ⟨0x3f775a86#32⟩, posZero⟩ := by
  have dot : ∀ u v : Vector3d F32, u.dot v = .ok (u.x * v.x + u.y * v.y + u.z * v.z) := fun _ _ => rfl
  refine ⟨?_, ?_, ?_⟩
  · have d1 : one * one + one * one + one * one = ⟨0x40400000#32⟩ := eval_eq (by kernel_rfl)
    have d2 : -one * -one + -one * -one + -one * -one = ⟨0x40400000#32⟩ := eval_eq (by kernel_rfl)
    have d3 : one * -one + one * -one + one * -one = ⟨0xc0400000#32⟩ := eval_eq (by kernel_rfl)
    have hn : (⟨0x40480000#32⟩ : F32) = F32.sqrt (IntoF32.into (⟨0x40400000#32⟩ : F32) * IntoF32.into (⟨0x40400000#32⟩ : F32)) :=
      (eval_eq (by kernel_rfl)).symm
    have hR : (⟨0x3e000000#32⟩ : F32) = ⟨0x40480000#32⟩ + IntoF32.into (⟨0xc0400000#32⟩ : F32) := (eval_eq (by kernel_rfl)).symm
    rw [two_eq (by rw [dot]; simp only; rw [d1]) (by rw [dot]; simp only; rw [d2]) (by rw [dot]; simp only; rw [d3]) hn hR
      (q := ⟨⟨0x3e000000#32⟩, posZero, posZero, posZero⟩) ?_]
    · have hi : F32.invsqrt (⟨⟨0x3e000000#32⟩, posZero, posZero, posZero⟩ : Quaternion).norm = .ok ⟨0x40f75a86#32⟩ :=
        eval_ok (by kernel_rfl) (by decide)
      rw [hi, ok_bind]
      congr 1
    · have hlt : (⟨0x3e000000#32⟩ : F32).lt (lit 1 1000000 * ⟨0x40480000#32⟩) = false := by
        have : lit 1 1000000 * (⟨0x40480000#32⟩ : F32) = ⟨0x3651b717#32⟩ := eval_eq (by kernel_rfl)
        rw [this]; decide
      rw [hlt, if_neg (by simp)]
      have hz : one * -one - one * -one = posZero := eval_eq (n := 0) (by kernel_rfl)
      unfold preQ
      simp only [IntoF32.into, id, hz]
  · have hx : (Quaternion.rotate ⟨⟨0x3f775a86#32⟩, posZero, posZero, posZero⟩ (⟨one, one, one⟩ : Vector3d F32)).x = ⟨0x3f6effcf#32⟩ :=
      eval_eq (by kernel_rfl)
    have hy : (Quaternion.rotate ⟨⟨0x3f775a86#32⟩, posZero, posZero, posZero⟩ (⟨one, one, one⟩ : Vector3d F32)).y = ⟨0x3f6effcf#32⟩ :=
      eval_eq (by kernel_rfl)
    have hz : (Quaternion.rotate ⟨⟨0x3f775a86#32⟩, posZero, posZero, posZero⟩ (⟨one, one, one⟩ : Vector3d F32)).z = ⟨0x3f6effcf#32⟩ :=
      eval_eq (by kernel_rfl)
    generalize Quaternion.rotate ⟨⟨0x3f775a86#32⟩, posZero, posZero, posZero⟩ (⟨one, one, one⟩ : Vector3d F32) = w at *
    cases w
    simp only at hx hy hz
    rw [hx, hy, hz]
  · have d1 : one * one + posZero * posZero + posZero * posZero = one := eval_eq (n := 0x3f800000) (by kernel_rfl)
    have d2 : -one * -one + -posZero * -posZero + -posZero * -posZero = one := eval_eq (n := 0x3f800000) (by kernel_rfl)
    have d3 : one * -one + posZero * -posZero + posZero * -posZero = -one := eval_eq (n := 0xbf800000) (by kernel_rfl)
    have hn : one = F32.sqrt (IntoF32.into one * IntoF32.into one) := (eval_eq (n := 0x3f800000) (by kernel_rfl)).symm
    have hR : posZero = one + IntoF32.into (-one) := (eval_eq (n := 0) (by kernel_rfl)).symm
    rw [two_eq (by rw [dot]; simp only; rw [d1]) (by rw [dot]; simp only; rw [d2]) (by rw [dot]; simp only; rw [d3]) hn hR
      (q := ⟨posZero, negZero, one, posZero⟩) ?_]
    · have hi : F32.invsqrt (⟨posZero, negZero, one, posZero⟩ : Quaternion).norm = .ok ⟨0x3f775a86#32⟩ :=
        eval_ok (by kernel_rfl) (by decide)
      rw [hi, ok_bind]
      congr 1
    · have hlt : posZero.lt (lit 1 1000000 * one) = true := by
        have : lit 1 1000000 * one = ⟨0x358637bd#32⟩ := eval_eq (by kernel_rfl)
        rw [this]; decide
      rw [hlt, if_pos rfl]
      decide

theorem zero_mul_nonneg {k : F32} (fk : k.isFinite = true) (pk : k.sign = false) : posZero * k = posZero := by
  refine eq_of_val_sign ?_ ?_
  · rw [(mul_zero_fin fk).2.2, val_posZero]
  · rw [sign_mul_finite fin_posZero fk, pk]; decide

theorem sq_of_zero {x : F32} (h : IsVal x 0) : x * x = posZero := by
  have hr : Rep 0 := by simpa using rep_int (m := 0) (by decide)
  refine eq_of_val_sign ?_ ?_
  · rw [(mul_exact h.1 h.1 (by rw [h.2]; norm_num [maxF]) (by rw [h.2, mul_zero]; exact hr)).2, h.2, val_posZero, mul_zero]
  · rw [sign_mul_finite h.1 h.1]; simp; decide

theorem zero_add_zero {x y : F32} (hx : IsVal x 0) (hy : IsVal y 0) : IsVal (x + y) 0 ∧ IsVal (x - y) 0 :=
  ⟨(add_zero_val hx hy).1, (add_zero_val hx hy).2.2⟩

theorem mul_isVal_zero {x y : F32} (hx : IsVal x 0) (fy : y.isFinite = true) : IsVal (x * y) 0 ∧ IsVal (y * x) 0 := by
  have hr : Rep 0 := by simpa using rep_int (m := 0) (by decide)
  have hm : |(0 : ℚ)| ≤ maxF := by norm_num [maxF]
  constructor
  · have := mul_exact hx.1 fy (by rw [hx.2, zero_mul]; exact hm) (by rw [hx.2, zero_mul]; exact hr)
    rwa [hx.2, zero_mul] at this
  · have := mul_exact fy hx.1 (by rw [hx.2, mul_zero]; exact hm) (by rw [hx.2, mul_zero]; exact hr)
    rwa [hx.2, mul_zero] at this

theorem nonneg_finite_sum {v : Vector3d F32} (hf : (v.x * v.x + v.y * v.y + v.z * v.z).isFinite = true) :
    (v.x * v.x + v.y * v.y + v.z * v.z).sign = false :=
  (add_nonneg_sign (add_nonneg_sign (sq_sign v.x) (sq_sign v.y)) (sq_sign v.z)).resolve_left
    (by rw [not_nan_of_finite hf]; simp)

theorem self_dot_fin {v : Vector3d F32} (hv : VFinite v) (l : len3 v ≤ 2 ^ 60) : (v.x * v.x + v.y * v.y + v.z * v.z).isFinite = true ∧
    (v.x * v.x + v.y * v.y + v.z * v.z).val ≤ 2 ^ 61 := by
  have l' : v.x.val ^ 2 + v.y.val ^ 2 + v.z.val ^ 2 ≤ 2 ^ 60 := l
  have n1 := sq_nonneg v.x.val
  have n2 := sq_nonneg v.y.val
  have n3 := sq_nonneg v.z.val
  have sq : ∀ a : ℚ, |a * a| = a ^ 2 := fun a => by rw [abs_mul_self, sq]
  norm_num at l'
  have a1 := Acc.mul (x := v.x) (y := v.x) hv.1 hv.1 (by rw [sq]; norm_num; linarith)
  have a2 := Acc.mul (x := v.y) (y := v.y) hv.2.1 hv.2.1 (by rw [sq]; norm_num; linarith)
  have a3 := Acc.mul (x := v.z) (y := v.z) hv.2.2 hv.2.2 (by rw [sq]; norm_num; linarith)
  rw [sq] at a1 a2 a3
  have s1 := (Acc.step a1 a2 (by norm_num; linarith)).1
  have s2 := (Acc.step s1 a3 (by norm_num; linarith)).1
  refine ⟨s2.fin, ?_⟩
  have := (abs_le.1 s2.err).2
  norm_num at this ⊢; linarith

/-- **C92, zero vectors**: the rotation from a zero vector to any vector has real part `0.863` and imaginary part zero: it is not a unit
quaternion. -/
theorem C92_zero (v : Vector3d F32) (hv : VFinite v) (l : len3 v ≤ 2 ^ 60) :
    ∃ r : Quaternion, Quaternion.fromTwoVectors (⟨posZero, posZero, posZero⟩ : Vector3d F32) v = .ok r ∧
      r.a = ⟨0x3f5d07c9#32⟩ ∧ r.b.val = 0 ∧ r.c.val = 0 ∧ r.d.val = 0 := by
  have dot : ∀ u v : Vector3d F32, u.dot v = .ok (u.x * v.x + u.y * v.y + u.z * v.z) := fun _ _ => rfl
  have fvv := (self_dot_fin hv l).1
  have svv := nonneg_finite_sum fvv
  obtain ⟨vx, vy, vz⟩ := v
  obtain ⟨fx, fy, fz⟩ := hv
  simp only [IntoF32.into, id] at fx fy fz fvv svv
  generalize hvv : vx * vx + vy * vy + vz * vz = vv at *
  have z1 := (mul_zero_fin (x := vx) fx).2
  have z2 := (mul_zero_fin (x := vy) fy).2
  have z3 := (mul_zero_fin (x := vz) fz).2
  have zuv := (zero_add_zero (zero_add_zero z1 z2).1 z3).1
  generalize huv : posZero * vx + posZero * vy + posZero * vz = uv at *
  have d1 : posZero * posZero + posZero * posZero + posZero * posZero = posZero := eval_eq (n := 0) (by kernel_rfl)
  have hn : (⟨0x1fc00000#32⟩ : F32) = F32.sqrt (IntoF32.into posZero * IntoF32.into vv) := by
    show _ = F32.sqrt (posZero * vv)
    rw [zero_mul_nonneg fvv svv]; exact C16_sqrt_special_false.1.symm
  have hR : (⟨0x1fc00000#32⟩ : F32) = ⟨0x1fc00000#32⟩ + IntoF32.into uv := by
    show _ = _ + uv
    have h := (add_zero_val (x := ⟨0x1fc00000#32⟩) (v := (⟨0x1fc00000#32⟩ : F32).val) ⟨by decide, rfl⟩ zuv).1
    have hp : 0 < (⟨0x1fc00000#32⟩ : F32).val := by
      rw [val_of_units (u := 12582912 * 2 ^ 62) (by decide +kernel)]; norm_num
    refine eq_of_val_sign h.2.symm ?_
    rw [val_pos_sign hp, val_pos_sign (by rw [h.2]; exact hp)]
  have hlt : (⟨0x1fc00000#32⟩ : F32).lt (lit 1 1000000 * ⟨0x1fc00000#32⟩) = false := by
    have : lit 1 1000000 * (⟨0x1fc00000#32⟩ : F32) = ⟨0x15c9539c#32⟩ := eval_eq (by kernel_rfl)
    rw [this]; decide
  have c1 := (zero_add_zero (mul_zero_fin fz).2 (mul_zero_fin fy).2).2
  have c2 := (zero_add_zero (mul_zero_fin fx).2 (mul_zero_fin fz).2).2
  have c3 := (zero_add_zero (mul_zero_fin fy).2 (mul_zero_fin fx).2).2
  generalize hb : posZero * vz - posZero * vy = b at *
  generalize hc : posZero * vx - posZero * vz = c at *
  generalize hd : posZero * vy - posZero * vx = d at *
  have hk : F32.invsqrt (⟨⟨0x1fc00000#32⟩, b, c, d⟩ : Quaternion).norm = .ok ⟨0x5f135a86#32⟩ := by
    have : (⟨⟨0x1fc00000#32⟩, b, c, d⟩ : Quaternion).norm = (⟨0x1fc00000#32⟩ : F32) * ⟨0x1fc00000#32⟩ + posZero + posZero + posZero := by
      show (⟨0x1fc00000#32⟩ : F32) * ⟨0x1fc00000#32⟩ + b * b + c * c + d * d = _
      rw [sq_of_zero c1, sq_of_zero c2, sq_of_zero c3]
    rw [this]
    exact eval_ok (by kernel_rfl) (by decide)
  refine ⟨(⟨⟨0x1fc00000#32⟩, b, c, d⟩ : Quaternion).scale ⟨0x5f135a86#32⟩, ?_, ?_, ?_, ?_, ?_⟩
  · rw [two_eq (by rw [dot]; simp only; rw [d1]) (by rw [dot]; simp only; rw [hvv]) (by rw [dot]; simp only; rw [huv]) hn hR
      (q := ⟨⟨0x1fc00000#32⟩, b, c, d⟩) ?_]
    · rw [hk]; rfl
    · rw [hlt, if_neg (by simp)]
      unfold preQ
      simp only [IntoF32.into, id, hb, hc, hd]
  · exact eval_eq (by kernel_rfl)
  · exact (mul_isVal_zero c1 (by decide)).1.2
  · exact (mul_isVal_zero c2 (by decide)).1.2
  · exact (mul_isVal_zero c3 (by decide)).1.2

/-! ### C93: when `from_two_vectors` panics -/

section
variable {C : Type} [Component C] [IntoF32 C]

theorem add_nonneg_not_nan {x y : F32} (hx : x.isNaN = false ∧ x.sign = false) (hy : y.isNaN = false ∧ y.sign = false) :
    (x + y).isNaN = false ∧ (x + y).sign = false := by
  have h : (x + y).isNaN = false := by
    rcases class_cases x with fx | ix | h
    · rcases class_cases y with fy | iy | h
      · exact add_fin_not_nan fx fy
      · rw [add_def]; simp only [addAs, hx.1, hy.1, not_inf_of_finite fx, iy]; simpa using hy.1
      · rw [hy.1] at h; cases h
    · rcases class_cases y with fy | iy | h
      · rw [add_def]; simp only [addAs, hx.1, hy.1, not_inf_of_finite fy, ix]; simpa using hx.1
      · rw [add_def]; simp only [addAs, hx.1, hy.1, ix, iy, hx.2, hy.2]; simpa using hx.1
      · rw [hy.1] at h; cases h
    · rw [hx.1] at h; cases h
  exact ⟨h, (add_nonneg_sign (Or.inr hx.2) (Or.inr hy.2)).resolve_left (by rw [h]; simp)⟩

theorem invsqrt_norm_ok {q : Quaternion} (ha : q.a.isNaN = false) (hb : q.b.isNaN = false) (hc : q.c.isNaN = false) (hd : q.d.isNaN = false) :
    ∃ k, F32.invsqrt q.norm = .ok k := by
  have h : q.norm.isNaN = false ∧ q.norm.sign = false :=
    add_nonneg_not_nan (add_nonneg_not_nan (add_nonneg_not_nan (sq_facts ha) (sq_facts hb)) (sq_facts hc)) (sq_facts hd)
  cases hk : F32.invsqrt q.norm with
  | ok k => exact ⟨k, rfl⟩
  | error e =>
    have := (C18_invsqrt_panic q.norm).2.1 ((C18_invsqrt_panic q.norm).1.1 ⟨e, hk⟩).2
    rw [isSignNegative, h.2] at this
    cases this.1

theorem sqrt_fin {x : F32} (hf : x.isFinite = true) (h : 0 ≤ x.val) : x.sqrt.isFinite = true := by
  have hz : x.sign = false ∨ x.mag = 0 := by
    cases hs : x.sign
    · exact Or.inl rfl
    · right
      refine val_eq_zero.1 (le_antisymm ?_ h)
      rw [val_of_neg hs]
      linarith [mval_nonneg x.mag]
  have g := sqrt_toNat ((ge_zero_iff x).2 ⟨not_nan_of_finite hf, hz⟩)
  rw [toNat_eq x] at g
  have hm : x.mag < infMag := by simpa [isFinite] using hf
  have hi : infMag = 0x7f800000 := by decide
  rw [hi] at hm
  simp only [isFinite, mag, decide_eq_true_eq, hi]
  rcases hz with hz | hz <;> cases hs : x.sign <;> simp [hz, hs] at g hz ⊢ <;> omega

theorem sub_prod_ok {x y z w : F32} (fx : x.isFinite = true) (fy : y.isFinite = true) (fz : z.isFinite = true) (fw : w.isFinite = true)
    (h1 : |x.val * y.val| ≤ 2 ^ 120) (h2 : |z.val * w.val| ≤ 2 ^ 120) : (x * y - z * w).isNaN = false := by
  have a1 := Acc.mul fx fy (h1.trans (by norm_num))
  have a2 := Acc.mul fz fw (h2.trans (by norm_num))
  exact not_nan_of_finite (Acc.step a1 a2 (by linarith)).2.fin

/-- The product of two non-negative finite values has a finite square root. -/
theorem sqrt_prod_fin {x y : F32} (fx : x.isFinite = true) (fy : y.isFinite = true) (hx : 0 ≤ x.val) (hy : 0 ≤ y.val) (hx2 : x.val ≤ 2 ^ 61)
    (hy2 : y.val ≤ 2 ^ 61) : (F32.sqrt (x * y)).isFinite = true := by
  have hp := mul_nonneg hx hy
  have f := (Acc.mul fx fy (by
    rw [abs_of_nonneg hp]
    exact (mul_le_mul hx2 hy2 hy (by norm_num)).trans (by norm_num))).fin
  refine sqrt_fin f ?_
  rw [mul_finite_val f]
  exact RN_nonneg hp

/-- With finite components, non-negative finite squared lengths and a finite dot product, there is no panic. -/
theorem two_returns {u v : Vector3d C} (fu : VFinite u) (fv : VFinite v) (m : len3 u ≤ 2 ^ 62) (m' : len3 v ≤ 2 ^ 62) {uu vv uv : C}
    (h1 : u.dot u = .ok uu) (h2 : v.dot v = .ok vv) (h3 : u.dot v = .ok uv)
    (hn : (F32.sqrt (IntoF32.into uu * IntoF32.into vv)).isFinite = true) (huv : (IntoF32.into uv : F32).isFinite = true) :
    ∃ r, Quaternion.fromTwoVectors u v = .ok r := by
  obtain ⟨fq, -⟩ := oppQ_facts fu
  have hq : ∀ q : Quaternion, (q = if (F32.sqrt (IntoF32.into uu * IntoF32.into vv) + IntoF32.into uv).lt
      (lit 1 1000000 * F32.sqrt (IntoF32.into uu * IntoF32.into vv)) then oppQ u else
        preQ u v (F32.sqrt (IntoF32.into uu * IntoF32.into vv) + IntoF32.into uv)) →
      q.a.isNaN = false ∧ q.b.isNaN = false ∧ q.c.isNaN = false ∧ q.d.isNaN = false := by
    rintro q rfl
    split
    · exact ⟨not_nan_of_finite fq.1, not_nan_of_finite fq.2.1, not_nan_of_finite fq.2.2.1, not_nan_of_finite fq.2.2.2⟩
    · have hb : ∀ a b : ℚ, a ^ 2 ≤ 2 ^ 62 → b ^ 2 ≤ 2 ^ 62 → |a * b| ≤ 2 ^ 120 := fun a b ha hb => by
        have : |a * b| ≤ a ^ 2 + b ^ 2 := by
          rw [abs_le]; constructor <;> linarith [sq_nonneg (a + b), sq_nonneg (a - b), sq_nonneg a, sq_nonneg b]
        linarith
      have nx := sq_nonneg (IntoF32.into u.x : F32).val
      have ny := sq_nonneg (IntoF32.into u.y : F32).val
      have nz := sq_nonneg (IntoF32.into u.z : F32).val
      have mx := sq_nonneg (IntoF32.into v.x : F32).val
      have my := sq_nonneg (IntoF32.into v.y : F32).val
      have mz := sq_nonneg (IntoF32.into v.z : F32).val
      unfold len3 at m m'
      exact ⟨add_fin_not_nan hn huv,
        sub_prod_ok fu.2.1 fv.2.2 fu.2.2 fv.2.1 (hb _ _ (by linarith) (by linarith)) (hb _ _ (by linarith) (by linarith)),
        sub_prod_ok fu.2.2 fv.1 fu.1 fv.2.2 (hb _ _ (by linarith) (by linarith)) (hb _ _ (by linarith) (by linarith)),
        sub_prod_ok fu.1 fv.2.1 fu.2.1 fv.1 (hb _ _ (by linarith) (by linarith)) (hb _ _ (by linarith) (by linarith))⟩
  obtain ⟨q1, q2, q3, q4⟩ := hq _ rfl
  obtain ⟨k, hk⟩ := invsqrt_norm_ok q1 q2 q3 q4
  rw [two_eq h1 h2 h3 rfl rfl rfl, hk]
  exact ⟨_, rfl⟩

end

/-- **C93, `f32`.** `from_two_vectors` returns, in every build mode, for all finite vectors of squared length at most `2^60`, zero vectors
included. -/
theorem C93_f32 (u v : Vector3d F32) (fu : VFinite u) (fv : VFinite v) (lu : len3 u ≤ 2 ^ 60) (lv : len3 v ≤ 2 ^ 60) :
    ∃ r, Quaternion.fromTwoVectors u v = .ok r := by
  have dot : ∀ u v : Vector3d F32, u.dot v = .ok (u.x * v.x + u.y * v.y + u.z * v.z) := fun _ _ => rfl
  obtain ⟨fuu, luu⟩ := self_dot_fin fu lu
  obtain ⟨fvv, lvv⟩ := self_dot_fin fv lv
  have nn : ∀ x : F32, x.sign = false → 0 ≤ x.val := fun x h => by rw [val_of_pos h]; exact mval_nonneg _
  refine two_returns fu fv (lu.trans (by norm_num)) (lv.trans (by norm_num)) (dot _ _) (dot _ _) (dot _ _)
    (sqrt_prod_fin fuu fvv (nn _ (nonneg_finite_sum fuu)) (nn _ (nonneg_finite_sum fvv)) luu lvv) ?_
  have hb : ∀ a b : ℚ, 2 * |a * b| ≤ a ^ 2 + b ^ 2 := fun a b => by
    rcases abs_cases (a * b) with ⟨h, -⟩ | ⟨h, -⟩ <;> rw [h] <;> linarith [sq_nonneg (a + b), sq_nonneg (a - b)]
  have b1 := hb u.x.val v.x.val
  have b2 := hb u.y.val v.y.val
  have b3 := hb u.z.val v.z.val
  have l1 : u.x.val ^ 2 + u.y.val ^ 2 + u.z.val ^ 2 ≤ 2 ^ 60 := lu
  have l2 : v.x.val ^ 2 + v.y.val ^ 2 + v.z.val ^ 2 ≤ 2 ^ 60 := lv
  have n1 := abs_nonneg (u.x.val * v.x.val)
  have n2 := abs_nonneg (u.y.val * v.y.val)
  have n3 := abs_nonneg (u.z.val * v.z.val)
  have a1 := Acc.mul (x := u.x) (y := v.x) fu.1 fv.1 (by linarith)
  have a2 := Acc.mul (x := u.y) (y := v.y) fu.2.1 fv.2.1 (by linarith)
  have a3 := Acc.mul (x := u.z) (y := v.z) fu.2.2 fv.2.2 (by linarith)
  exact (Acc.step (Acc.step a1 a2 (by linarith)).1 a3 (by linarith)).1.fin

theorem two_unchecked {C : Type} [Component C] [IntoF32 C] (hc : Cfg.overflowChecks = false) {u v : Vector3d C} {uu vv uv : C}
    (h1 : u.dot u = .ok uu) (h2 : v.dot v = .ok vv) (h3 : u.dot v = .ok uv) : ∃ r, Quaternion.fromTwoVectors u v = .ok r := by
  obtain ⟨q, hq⟩ : ∃ q : Quaternion, q = if (F32.sqrt (IntoF32.into uu * IntoF32.into vv) + IntoF32.into uv).lt
      (lit 1 1000000 * F32.sqrt (IntoF32.into uu * IntoF32.into vv)) then oppQ u else
        preQ u v (F32.sqrt (IntoF32.into uu * IntoF32.into vv) + IntoF32.into uv) := ⟨_, rfl⟩
  rw [two_eq h1 h2 h3 rfl rfl hq]
  cases hk : F32.invsqrt q.norm with
  | ok k => exact ⟨_, rfl⟩
  | error e =>
    have := ((C18_invsqrt_panic q.norm).1.1 ⟨e, hk⟩).1
    rw [hc] at this; cases this

/-- **C93, unchecked builds.** Without overflow checks `from_two_vectors` never panics, for any bit patterns. -/
theorem C93_unchecked (hc : Cfg.overflowChecks = false) (u v : Vector3d F32) : ∃ r, Quaternion.fromTwoVectors u v = .ok r :=
  two_unchecked hc (u := u) (v := v) (uu := u.x * u.x + u.y * u.y + u.z * u.z) (vv := v.x * v.x + v.y * v.y + v.z * v.z)
    (uv := u.x * v.x + u.y * v.y + u.z * v.z) rfl rfl rfl

/-- **C93, integers.** For `i8`, `u8`, `i16` and `u16` vectors `from_two_vectors` panics exactly when one of the three dot products
panics. -/
theorem C93_int {s : Bool} {w : Nat} [IntoF32 (MInt s w)] (hI : ∀ n : MInt s w, IsVal (IntoF32.into n) n.toInt) (hw : 0 < w) (hw2 : w ≤ 16)
    (u v : Vector3d (MInt s w)) :
    Fails (Quaternion.fromTwoVectors u v) ↔ Fails (u.dot u) ∨ Fails (v.dot v) ∨ Fails (u.dot v) := by
  cases h1 : u.dot u with
  | error e =>
    refine iff_of_true ⟨e, ?_⟩ (Or.inl ⟨e, rfl⟩)
    unfold Quaternion.fromTwoVectors
    rw [h1]; rfl
  | ok uu =>
    cases h2 : v.dot v with
    | error e =>
      refine iff_of_true ⟨e, ?_⟩ (Or.inr (Or.inl ⟨e, rfl⟩))
      unfold Quaternion.fromTwoVectors
      rw [h1, ok_bind, h2]; rfl
    | ok vv =>
      cases h3 : u.dot v with
      | error e =>
        refine iff_of_true ⟨e, ?_⟩ (Or.inr (Or.inr ⟨e, rfl⟩))
        unfold Quaternion.fromTwoVectors
        rw [h1, ok_bind, h2, ok_bind, h3]; rfl
      | ok uv =>
        have nf : ∀ x : MInt s w, ¬ Fails (.ok x : Res (MInt s w)) := by rintro x ⟨e, he⟩; cases he
        refine iff_of_false ?_ (by simp [nf])
        have key : ∃ r, Quaternion.fromTwoVectors u v = .ok r := by
          cases hc : (Cfg.overflowChecks : Bool)
          · exact two_unchecked hc h1 h2 h3
          · have e1 := (C56_dot_checked hw hc (a := ⟨u.x, u.y⟩) (b := ⟨u.x, u.y⟩) (u := u) (v := u)).2 h1
            have e2 := (C56_dot_checked hw hc (a := ⟨u.x, u.y⟩) (b := ⟨u.x, u.y⟩) (u := v) (v := v)).2 h2
            have b : ∀ x : MInt s w, (x.toInt : ℚ) ≤ 2 ^ 16 := fun x => (abs_le.1 (small_toInt hw hw2 x)).2
            have el : ∀ x : Vector3d (MInt s w), len3 x = (x.x.toInt * x.x.toInt + x.y.toInt * x.y.toInt + x.z.toInt * x.z.toInt : Int) := fun x => by
              unfold len3; simp only [(hI _).2]; push_cast; ring
            have n1 : (0 : ℚ) ≤ (uu.toInt : ℚ) := by rw [e1]; push_cast; linarith [mul_self_nonneg (u.x.toInt : ℚ), mul_self_nonneg (u.y.toInt : ℚ), mul_self_nonneg (u.z.toInt : ℚ)]
            have n2 : (0 : ℚ) ≤ (vv.toInt : ℚ) := by rw [e2]; push_cast; linarith [mul_self_nonneg (v.x.toInt : ℚ), mul_self_nonneg (v.y.toInt : ℚ), mul_self_nonneg (v.z.toInt : ℚ)]
            refine two_returns ⟨(hI _).1, (hI _).1, (hI _).1⟩ ⟨(hI _).1, (hI _).1, (hI _).1⟩ ?_ ?_ h1 h2 h3
              (sqrt_prod_fin (hI _).1 (hI _).1 ?_ ?_ ?_ ?_) (hI _).1
            · rw [el, ← e1]; exact (b _).trans (by norm_num)
            · rw [el, ← e2]; exact (b _).trans (by norm_num)
            · rw [(hI _).2]; exact n1
            · rw [(hI _).2]; exact n2
            · rw [(hI _).2]; exact (b _).trans (by norm_num)
            · rw [(hI _).2]; exact (b _).trans (by norm_num)
        obtain ⟨r, hr⟩ := key
        rintro ⟨e, he⟩
        rw [hr] at he; cases he

/-- The conversions of the four integer types are exact, so `C91_turns_int` and `C93_int` apply to each; `(100, 0, 0)` in `i8` makes
`from_two_vectors` panic with overflow checks. -/
example (u v : Vector3d I16) : Fails (Quaternion.fromTwoVectors u v) ↔ Fails (u.dot u) ∨ Fails (v.dot v) ∨ Fails (u.dot v) :=
  C93_int C48_from_int_exact.2.1 (by norm_num) (by norm_num) u v

example (hc : Cfg.overflowChecks = true) (v : Vector3d I8) : Fails (Quaternion.fromTwoVectors ⟨⟨100#8⟩, ⟨0#8⟩, ⟨0#8⟩⟩ v) := by
  refine (C93_int C48_from_int_exact.1 (by norm_num) (by norm_num) _ v).2 (Or.inl ?_)
  cases h : Vector3d.dot (⟨⟨100#8⟩, ⟨0#8⟩, ⟨0#8⟩⟩ : Vector3d I8) ⟨⟨100#8⟩, ⟨0#8⟩, ⟨0#8⟩⟩ with
  | error e => exact ⟨e, rfl⟩
  | ok d =>
    have := (C56_dot_checked (by norm_num) hc (a := ⟨d, d⟩) (b := ⟨d, d⟩)).2 h
    have hr := toInt_inRange (by norm_num) d
    rw [this] at hr
    exact absurd hr (by decide)

end Micromath.Props
