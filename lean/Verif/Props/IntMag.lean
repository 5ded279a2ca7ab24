import Verif.Props.Metric
import Verif.Props.BitTricks

/-!
# C154: lengths and distances of vectors of integers are compared exactly
-/

set_option exponentiation.threshold 1000

namespace Micromath.Props
open F32 Spec

variable [Cfg]

/-- `sqrt` of a float with the sign bit clear, on the bits. -/
theorem sqrt_bits {S : F32} (f : S.isFinite = true) (s : S.sign = false) : S.sqrt = pack false ((S.mag + 0x3f800000) / 2) := by
  conv_lhs => rw [← pack_sign_mag S, s]
  rw [nn_sqrt]
  rw [isFinite_iff] at f
  exact f.le

/-- On integers up to `2^23`, `sqrt` is injective and strictly increasing. -/
theorem sqrt_int {S T : F32} {a b : ℤ} (hS : IsVal S a) (hT : IsVal T b) (sS : S.sign = false) (sT : T.sign = false)
    (ha : a ≤ 2 ^ 23) (hb : b ≤ 2 ^ 23) : (S.sqrt.lt T.sqrt = true ↔ a < b) ∧ (S.sqrt = T.sqrt ↔ a = b) := by
  have key : ∀ {S T : F32} {a b : ℤ}, IsVal S a → IsVal T b → S.sign = false → T.sign = false → b ≤ 2 ^ 23 → a < b →
      S.sqrt.val < T.sqrt.val := by
    intro S T a b hS hT sS sT hb h
    have va : mval S.mag = a := by rw [← val_of_pos sS, hS.2]
    have vb : mval T.mag = b := by rw [← val_of_pos sT, hT.2]
    have a0 : (0 : ℚ) ≤ a := va ▸ mval_nonneg _
    have a0' : 0 ≤ a := by exact_mod_cast a0
    obtain ⟨m, hm⟩ : Rep (((2 * a + 1 : ℤ) : ℚ) * 2 ^ (-1 : ℤ)) := rep_zpow (by omega) (by omega)
    have e : ((2 * a + 1 : ℤ) : ℚ) * 2 ^ (-1 : ℤ) = a + 1 / 2 := by push_cast; norm_num; ring
    rw [e, abs_of_nonneg (by linarith)] at hm
    have l1 : S.mag < m := by rw [← mval_lt, va, ← hm]; linarith
    have l2 : m < T.mag := by
      rw [← mval_lt, vb, ← hm]
      have : (a : ℚ) + 1 ≤ b := by exact_mod_cast h
      linarith
    have fS := isFinite_iff.1 hS.1
    have fT := isFinite_iff.1 hT.1
    have hi : infMag = 255 * 2 ^ 23 := by decide
    rw [sqrt_bits hS.1 sS, sqrt_bits hT.1 sT, val_of_pos (sign_pack _ (by omega)),
      val_of_pos (sign_pack _ (by omega)), mag_pack _ (by omega), mag_pack _ (by omega), mval_lt]
    omega
  have eqc : a = b → S.sqrt = T.sqrt := by
    rintro rfl
    rw [eq_of_val_sign (hS.2.trans hT.2.symm) (sS.trans sT.symm)]
  have fs : ∀ {S : F32}, S.isFinite = true → S.sign = false → S.sqrt.isFinite = true := by
    intro S f s
    rw [sqrt_bits f s]
    exact (root_range (isFinite_iff.1 f).le).1
  rw [lt_iff (fs hS.1 sS) (fs hT.1 sT)]
  rcases lt_trichotomy a b with h | h | h
  · have k := key hS hT sS sT hb h
    exact ⟨⟨fun _ => h, fun _ => k⟩, fun e => absurd (congrArg val e) k.ne, fun e => absurd e h.ne⟩
  · have k := eqc h
    exact ⟨⟨fun l => absurd (congrArg val k) l.ne, fun l => absurd h l.ne⟩, fun _ => h, fun _ => k⟩
  · have k := key hT hS sT sS ha h
    exact ⟨⟨fun l => absurd l (lt_asymm k), fun l => absurd l (lt_asymm h)⟩, fun e => absurd (congrArg val e) k.ne', fun e => absurd e h.ne'⟩

theorem sumZero_isInt : IsVal Cfg.sumZero (0 : ℤ) := by
  rcases Cfg.sumZero_spec with h | h <;> rw [h]
  · exact ⟨fin_posZero, by rw [val_posZero]; norm_num⟩
  · exact ⟨fin_negZero, by rw [val_negZero]; norm_num⟩

theorem sumSq_int2 {x y : F32} {a b : ℤ} (hx : IsVal x a) (hy : IsVal y b) (h : a ^ 2 + b ^ 2 ≤ 2 ^ 23) :
    IsVal (F32.sum ([x, y].map fun x => x * x)) (a ^ 2 + b ^ 2 : ℤ) ∧ (F32.sum ([x, y].map fun x => x * x)).sign = false := by
  have ha := sq_nonneg a
  have hb := sq_nonneg b
  refine ⟨?_, sumSq_sign (by
    simp only [List.mem_cons, List.not_mem_nil, or_false, forall_eq_or_imp, forall_eq]
    exact ⟨not_nan_of_finite hx.1, not_nan_of_finite hy.1⟩) (by simp)⟩
  have p := mul_int hx hx (by rw [← sq]; omega)
  have q := mul_int hy hy (by rw [← sq]; omega)
  rw [← sq] at p q
  have s := add_int sumZero_isInt p (by omega)
  rw [zero_add] at s
  exact add_int s q (by omega)

theorem sumSq_int3 {x y z : F32} {a b c : ℤ} (hx : IsVal x a) (hy : IsVal y b) (hz : IsVal z c) (h : a ^ 2 + b ^ 2 + c ^ 2 ≤ 2 ^ 23) :
    IsVal (F32.sum ([x, y, z].map fun x => x * x)) (a ^ 2 + b ^ 2 + c ^ 2 : ℤ) ∧ (F32.sum ([x, y, z].map fun x => x * x)).sign = false := by
  have ha := sq_nonneg a
  have hb := sq_nonneg b
  have hc := sq_nonneg c
  refine ⟨?_, sumSq_sign (by
    simp only [List.mem_cons, List.not_mem_nil, or_false, forall_eq_or_imp, forall_eq]
    exact ⟨not_nan_of_finite hx.1, not_nan_of_finite hy.1, not_nan_of_finite hz.1⟩) (by simp)⟩
  have p := mul_int hx hx (by rw [← sq]; omega)
  have q := mul_int hy hy (by rw [← sq]; omega)
  have r := mul_int hz hz (by rw [← sq]; omega)
  rw [← sq] at p q r
  have s := add_int sumZero_isInt p (by omega)
  rw [zero_add] at s
  exact add_int (add_int s q (by omega)) r (by omega)

section
variable {C : Type} [Component C] [IntoF32 C]

/-- **C154, lengths in the plane.** For vectors whose components are integers (of any component type) and whose squared lengths are
at most `2^23`, `magnitude` compares exactly as the true lengths do, and gives the same bits exactly for equal lengths. -/
theorem C154_magnitude2 {u v : Vector2d C} {a b c d : ℤ} (h1 : IsVal (IntoF32.into u.x) a) (h2 : IsVal (IntoF32.into u.y) b)
    (h3 : IsVal (IntoF32.into v.x) c) (h4 : IsVal (IntoF32.into v.y) d) (hu : a ^ 2 + b ^ 2 ≤ 2 ^ 23) (hv : c ^ 2 + d ^ 2 ≤ 2 ^ 23) :
    ((VectorTrait.magnitude u).lt (VectorTrait.magnitude v) = true ↔ a ^ 2 + b ^ 2 < c ^ 2 + d ^ 2) ∧
    (VectorTrait.magnitude u = VectorTrait.magnitude v ↔ a ^ 2 + b ^ 2 = c ^ 2 + d ^ 2) := by
  obtain ⟨p, p'⟩ := sumSq_int2 h1 h2 hu
  obtain ⟨q, q'⟩ := sumSq_int2 h3 h4 hv
  exact sqrt_int p q p' q' hu hv

/-- **C154, lengths in space.** -/
theorem C154_magnitude3 {u v : Vector3d C} {a b c d e f : ℤ} (h1 : IsVal (IntoF32.into u.x) a) (h2 : IsVal (IntoF32.into u.y) b)
    (h3 : IsVal (IntoF32.into u.z) c) (h4 : IsVal (IntoF32.into v.x) d) (h5 : IsVal (IntoF32.into v.y) e)
    (h6 : IsVal (IntoF32.into v.z) f) (hu : a ^ 2 + b ^ 2 + c ^ 2 ≤ 2 ^ 23) (hv : d ^ 2 + e ^ 2 + f ^ 2 ≤ 2 ^ 23) :
    ((VectorTrait.magnitude u).lt (VectorTrait.magnitude v) = true ↔ a ^ 2 + b ^ 2 + c ^ 2 < d ^ 2 + e ^ 2 + f ^ 2) ∧
    (VectorTrait.magnitude u = VectorTrait.magnitude v ↔ a ^ 2 + b ^ 2 + c ^ 2 = d ^ 2 + e ^ 2 + f ^ 2) := by
  obtain ⟨p, p'⟩ := sumSq_int3 h1 h2 h3 hu
  obtain ⟨q, q'⟩ := sumSq_int3 h4 h5 h6 hv
  exact sqrt_int p q p' q' hu hv

end

/-- The exact squared distance of two points with integer coordinates. -/
def idist2 {s : Bool} {w : Nat} (u v : Vector2d (MInt s w)) : ℤ := (u.x.toInt - v.x.toInt) ^ 2 + (u.y.toInt - v.y.toInt) ^ 2
/-- The exact squared distance of two points with integer coordinates. -/
def idist3 {s : Bool} {w : Nat} (u v : Vector3d (MInt s w)) : ℤ :=
  (u.x.toInt - v.x.toInt) ^ 2 + (u.y.toInt - v.y.toInt) ^ 2 + (u.z.toInt - v.z.toInt) ^ 2

section
variable {s : Bool} {w : Nat} [IntoF32 (MInt s w)]

/-- **C154, distances in the plane.** For points with integer coordinates whose squared distances are at most `2^23`, `distance`
compares exactly as the true distances do. -/
theorem C154_distance2 (hi : ∀ n : MInt s w, IsVal (IntoF32.into n) n.toInt) {p q p' q' : Vector2d (MInt s w)}
    (h : idist2 p q ≤ 2 ^ 23) (h' : idist2 p' q' ≤ 2 ^ 23) :
    ((VectorTrait.distance p q).lt (VectorTrait.distance p' q') = true ↔ idist2 p q < idist2 p' q') ∧
    (VectorTrait.distance p q = VectorTrait.distance p' q' ↔ idist2 p q = idist2 p' q') := by
  have sm : ∀ a b : ℤ, a ^ 2 + b ^ 2 ≤ 2 ^ 23 → a.natAbs ≤ 2 ^ 24 ∧ b.natAbs ≤ 2 ^ 24 := by
    intro a b h
    have h1 := abs_le.1 (show |a| ≤ 2 ^ 12 from abs_le_of_sq_le_sq (by nlinarith [sq_nonneg b]) (by norm_num))
    have h2 := abs_le.1 (show |b| ≤ 2 ^ 12 from abs_le_of_sq_le_sq (by nlinarith [sq_nonneg a]) (by norm_num))
    omega
  obtain ⟨k1, k2⟩ := sm _ _ h
  obtain ⟨k3, k4⟩ := sm _ _ h'
  obtain ⟨a, a'⟩ := sumSq_int2 (sub_int (hi p.x) (hi q.x) k1) (sub_int (hi p.y) (hi q.y) k2) h
  obtain ⟨b, b'⟩ := sumSq_int2 (sub_int (hi p'.x) (hi q'.x) k3) (sub_int (hi p'.y) (hi q'.y) k4) h'
  rw [distance2_eq, distance2_eq]
  exact sqrt_int a b a' b' h h'

/-- **C154, distances in space.** -/
theorem C154_distance3 (hi : ∀ n : MInt s w, IsVal (IntoF32.into n) n.toInt) {p q p' q' : Vector3d (MInt s w)}
    (h : idist3 p q ≤ 2 ^ 23) (h' : idist3 p' q' ≤ 2 ^ 23) :
    ((VectorTrait.distance p q).lt (VectorTrait.distance p' q') = true ↔ idist3 p q < idist3 p' q') ∧
    (VectorTrait.distance p q = VectorTrait.distance p' q' ↔ idist3 p q = idist3 p' q') := by
  have sm : ∀ a b c : ℤ, a ^ 2 + b ^ 2 + c ^ 2 ≤ 2 ^ 23 → a.natAbs ≤ 2 ^ 24 ∧ b.natAbs ≤ 2 ^ 24 ∧ c.natAbs ≤ 2 ^ 24 := by
    intro a b c h
    have ha := sq_nonneg a
    have hb := sq_nonneg b
    have hc := sq_nonneg c
    have h1 := abs_le.1 (show |a| ≤ 2 ^ 12 from abs_le_of_sq_le_sq (by linarith) (by norm_num))
    have h2 := abs_le.1 (show |b| ≤ 2 ^ 12 from abs_le_of_sq_le_sq (by linarith) (by norm_num))
    have h3 := abs_le.1 (show |c| ≤ 2 ^ 12 from abs_le_of_sq_le_sq (by linarith) (by norm_num))
    omega
  obtain ⟨k1, k2, k3⟩ := sm _ _ _ h
  obtain ⟨k4, k5, k6⟩ := sm _ _ _ h'
  obtain ⟨a, a'⟩ := sumSq_int3 (sub_int (hi p.x) (hi q.x) k1) (sub_int (hi p.y) (hi q.y) k2) (sub_int (hi p.z) (hi q.z) k3) h
  obtain ⟨b, b'⟩ := sumSq_int3 (sub_int (hi p'.x) (hi q'.x) k4) (sub_int (hi p'.y) (hi q'.y) k5) (sub_int (hi p'.z) (hi q'.z) k6) h'
  rw [distance3_eq, distance3_eq]
  exact sqrt_int a b a' b' h h'

end

omit [Cfg] in
theorem i8_diff (m n : I8) : (m.toInt - n.toInt) ^ 2 ≤ 2 ^ 16 := by
  have h1 := toInt_signed_bound m
  have h2 := toInt_signed_bound n
  norm_num at h1 h2
  refine sq_le_sq' (b := 2 ^ 8) ?_ ?_ |>.trans (by norm_num) <;> norm_num <;> omega

omit [Cfg] in
theorem u8_diff (m n : U8) : (m.toInt - n.toInt) ^ 2 ≤ 2 ^ 16 := by
  have h1 := toInt_unsigned_bound m
  have h2 := toInt_unsigned_bound n
  norm_num at h1 h2
  refine sq_le_sq' (b := 2 ^ 8) ?_ ?_ |>.trans (by norm_num) <;> norm_num <;> omega

/-- **C154, every `i8` and `u8` point.** No hypotheses: `distance` between points with `i8` or `u8` coordinates compares exactly as
the true distances do, so the nearest of several points is found without error. -/
theorem C154_bytes :
    (∀ p q p' q' : Vector2d I8, ((VectorTrait.distance p q).lt (VectorTrait.distance p' q') = true ↔ idist2 p q < idist2 p' q') ∧
      (VectorTrait.distance p q = VectorTrait.distance p' q' ↔ idist2 p q = idist2 p' q')) ∧
    (∀ p q p' q' : Vector3d I8, ((VectorTrait.distance p q).lt (VectorTrait.distance p' q') = true ↔ idist3 p q < idist3 p' q') ∧
      (VectorTrait.distance p q = VectorTrait.distance p' q' ↔ idist3 p q = idist3 p' q')) ∧
    (∀ p q p' q' : Vector2d U8, ((VectorTrait.distance p q).lt (VectorTrait.distance p' q') = true ↔ idist2 p q < idist2 p' q') ∧
      (VectorTrait.distance p q = VectorTrait.distance p' q' ↔ idist2 p q = idist2 p' q')) ∧
    (∀ p q p' q' : Vector3d U8, ((VectorTrait.distance p q).lt (VectorTrait.distance p' q') = true ↔ idist3 p q < idist3 p' q') ∧
      (VectorTrait.distance p q = VectorTrait.distance p' q' ↔ idist3 p q = idist3 p' q')) := by
  obtain ⟨i8, -, u8, -⟩ := C48_from_int_exact
  refine ⟨fun p q p' q' => C154_distance2 i8 ?_ ?_, fun p q p' q' => C154_distance3 i8 ?_ ?_,
    fun p q p' q' => C154_distance2 u8 ?_ ?_, fun p q p' q' => C154_distance3 u8 ?_ ?_⟩
  · have := i8_diff p.x q.x; have := i8_diff p.y q.y; unfold idist2; norm_num at *; linarith
  · have := i8_diff p'.x q'.x; have := i8_diff p'.y q'.y; unfold idist2; norm_num at *; linarith
  · have := i8_diff p.x q.x; have := i8_diff p.y q.y; have := i8_diff p.z q.z; unfold idist3; norm_num at *; linarith
  · have := i8_diff p'.x q'.x; have := i8_diff p'.y q'.y; have := i8_diff p'.z q'.z; unfold idist3; norm_num at *; linarith
  · have := u8_diff p.x q.x; have := u8_diff p.y q.y; unfold idist2; norm_num at *; linarith
  · have := u8_diff p'.x q'.x; have := u8_diff p'.y q'.y; unfold idist2; norm_num at *; linarith
  · have := u8_diff p.x q.x; have := u8_diff p.y q.y; have := u8_diff p.z q.z; unfold idist3; norm_num at *; linarith
  · have := u8_diff p'.x q'.x; have := u8_diff p'.y q'.y; have := u8_diff p'.z q'.z; unfold idist3; norm_num at *; linarith

/-- **C154, the limit `2^23` is sharp**: the `i16` vectors `(2048, 2048, 0)` and `(2888, 199, 92)` have squared lengths `2^23` and
`2^23 + 1`, and the same `magnitude`. -/
theorem C154_sharp :
    VectorTrait.magnitude (⟨MInt.wrap 2048, MInt.wrap 2048, MInt.wrap 0⟩ : Vector3d I16) =
      VectorTrait.magnitude (⟨MInt.wrap 2888, MInt.wrap 199, MInt.wrap 92⟩ : Vector3d I16) ∧
    (2048 : ℤ) ^ 2 + 2048 ^ 2 + 0 ^ 2 = 2 ^ 23 ∧ (2888 : ℤ) ^ 2 + 199 ^ 2 + 92 ^ 2 = 2 ^ 23 + 1 := by
  refine ⟨?_, by norm_num, by norm_num⟩
  rw [magnitude3_eq, magnitude3_eq]
  show F32.sqrt (Cfg.sumZero + _ + _ + _) = F32.sqrt (Cfg.sumZero + _ + _ + _)
  rcases Cfg.sumZero_spec with h | h <;> rw [h] <;> refine (eval_eq (n := 0x45400000) (by kernel_rfl)).trans (eval_eq (n := 0x45400000) (by kernel_rfl)).symm

/-- **C154 is false for all `i16` vectors**: `(30513, 26938)` is shorter than `(30528, 26921)` and has the larger `magnitude`. -/
theorem C154_i16_false :
    (VectorTrait.magnitude (⟨MInt.wrap 30528, MInt.wrap 26921⟩ : Vector2d I16)).lt
      (VectorTrait.magnitude (⟨MInt.wrap 30513, MInt.wrap 26938⟩ : Vector2d I16)) = true ∧
    (30513 : ℤ) ^ 2 + 26938 ^ 2 < 30528 ^ 2 + 26921 ^ 2 := by
  refine ⟨?_, by norm_num⟩
  have e1 : VectorTrait.magnitude (⟨MInt.wrap 30528, MInt.wrap 26921⟩ : Vector2d I16) = ⟨0x4722bf38#32⟩ := by
    rw [magnitude2_eq]
    show F32.sqrt (Cfg.sumZero + _ + _) = _
    rcases Cfg.sumZero_spec with h | h <;> rw [h] <;> exact eval_eq (n := 0x4722bf38) (by kernel_rfl)
  have e2 : VectorTrait.magnitude (⟨MInt.wrap 30513, MInt.wrap 26938⟩ : Vector2d I16) = ⟨0x4722bf39#32⟩ := by
    rw [magnitude2_eq]
    show F32.sqrt (Cfg.sumZero + _ + _) = _
    rcases Cfg.sumZero_spec with h | h <;> rw [h] <;> exact eval_eq (n := 0x4722bf39) (by kernel_rfl)
  rw [e1, e2]; decide

omit [Cfg] in
/-- An integer below `4095²` of one of the forms on which `sqrt` is exact is a power of four. -/
theorem int_pow_four {n : ℤ} (h0 : 0 < n) (h : n ≤ 2 ^ 23) :
    (∃ k : ℤ, (n : ℚ) = 4 ^ k ∨ (n : ℚ) = (4095 / 4096) ^ 2 * 4 ^ k) ↔ ∃ k : ℕ, n = 4 ^ k := by
  constructor
  · rintro ⟨k, hk | hk⟩
    · rcases le_or_gt 0 k with h1 | h1
      · obtain ⟨m, rfl⟩ := Int.eq_ofNat_of_zero_le h1
        exact ⟨m, by exact_mod_cast hk⟩
      · exfalso
        have : (4 : ℚ) ^ k < 1 := zpow_lt_one_of_neg₀ (by norm_num) h1
        have h2 : (1 : ℚ) ≤ n := by exact_mod_cast h0
        linarith
    · exfalso
      have e : (4 : ℚ) ^ k = 4 ^ (k - 12) * 4096 ^ 2 := by
        rw [show (4096 : ℚ) ^ 2 = 4 ^ (12 : ℤ) by norm_num, ← zpow_add₀ (by norm_num)]; congr 1; ring
      have hk' : (n : ℚ) = 4095 ^ 2 * 4 ^ (k - 12) := by rw [hk, e]; ring
      rcases le_or_gt 0 (k - 12) with h1 | h1
      · have : (1 : ℚ) ≤ 4 ^ (k - 12) := one_le_zpow₀ (by norm_num) h1
        have h2 : (n : ℚ) ≤ 2 ^ 23 := by exact_mod_cast h
        norm_num at h2 hk'
        linarith
      · obtain ⟨m, hm⟩ := Int.eq_ofNat_of_zero_le (show 0 ≤ 11 - k by omega)
        have e2 : (n : ℚ) * 4 ^ (m + 1) = 4095 ^ 2 := by
          rw [hk', mul_assoc, ← zpow_natCast (4 : ℚ), ← zpow_add₀ (by norm_num), show k - 12 + ((m + 1 : ℕ) : ℤ) = 0 by push_cast; omega]
          norm_num
        have e3 : n * 4 ^ (m + 1) = 4095 ^ 2 := by exact_mod_cast e2
        rw [pow_succ, ← mul_assoc] at e3
        omega
  · rintro ⟨k, rfl⟩
    exact ⟨k, .inl (by push_cast; rw [zpow_natCast])⟩

theorem sqrt_int_exact {S : F32} {n : ℤ} (hS : IsVal S n) (h0 : 0 < n) (h : n ≤ 2 ^ 23) :
    S.sqrt.val ^ 2 = n ↔ ∃ k : ℕ, n = 4 ^ k := by
  have h1 : (1 : ℚ) ≤ n := by exact_mod_cast h0
  rw [← int_pow_four h0 h, ← hS.2]
  exact C104_sqrt_exact S ⟨hS.1, le_trans (by norm_num) (hS.2 ▸ h1)⟩

/-- **C154, where lengths are exact.** For nonzero vectors of integers with squared length at most `2^23`, `magnitude` is the true
length exactly if the squared length is a power of four. -/
theorem C154_exact {C : Type} [Component C] [IntoF32 C] {u : Vector2d C} {v : Vector3d C} {a b c : ℤ} :
    (IsVal (IntoF32.into u.x) a → IsVal (IntoF32.into u.y) b → 0 < a ^ 2 + b ^ 2 → a ^ 2 + b ^ 2 ≤ 2 ^ 23 →
      ((VectorTrait.magnitude u).val ^ 2 = (a ^ 2 + b ^ 2 : ℤ) ↔ ∃ k : ℕ, a ^ 2 + b ^ 2 = 4 ^ k)) ∧
    (IsVal (IntoF32.into v.x) a → IsVal (IntoF32.into v.y) b → IsVal (IntoF32.into v.z) c → 0 < a ^ 2 + b ^ 2 + c ^ 2 →
      a ^ 2 + b ^ 2 + c ^ 2 ≤ 2 ^ 23 →
      ((VectorTrait.magnitude v).val ^ 2 = (a ^ 2 + b ^ 2 + c ^ 2 : ℤ) ↔ ∃ k : ℕ, a ^ 2 + b ^ 2 + c ^ 2 = 4 ^ k)) :=
  ⟨fun h1 h2 h0 h => sqrt_int_exact (sumSq_int2 h1 h2 h).1 h0 h, fun h1 h2 h3 h0 h => sqrt_int_exact (sumSq_int3 h1 h2 h3 h).1 h0 h⟩

theorem case_aux {x y z t : I16} (w3 : IsVal (IntoF32.into x) (3 : ℤ)) (w4 : IsVal (IntoF32.into y) (4 : ℤ))
    (wa : IsVal (IntoF32.into z) (-1000 : ℤ)) (wb : IsVal (IntoF32.into t) (2000 : ℤ)) :
    (VectorTrait.magnitude (⟨x, y⟩ : Vector2d I16)).lt (VectorTrait.magnitude (⟨z, t⟩ : Vector2d I16)) = true ∧
    (VectorTrait.magnitude (⟨x, y⟩ : Vector2d I16)).val ^ 2 ≠ 25 := by
  refine ⟨(C154_magnitude2 w3 w4 wa wb (by norm_num) (by norm_num)).1.2 (by norm_num), fun hc => ?_⟩
  obtain ⟨k, hk⟩ := ((C154_exact (u := ⟨x, y⟩) (v := ⟨x, x, x⟩) (c := 0)).1 w3 w4 (by norm_num) (by norm_num)).1 (by rw [hc]; norm_num)
  rcases k with _ | k
  · norm_num at hk
  · rw [pow_succ] at hk; omega

/-- The hypotheses: the `i16` vectors `(3, 4)` and `(-1000, 2000)`, which are told apart; the length of `(3, 4)` is not exact. -/
theorem C154_case :
    (VectorTrait.magnitude (⟨MInt.wrap 3, MInt.wrap 4⟩ : Vector2d I16)).lt
      (VectorTrait.magnitude (⟨MInt.wrap (-1000), MInt.wrap 2000⟩ : Vector2d I16)) = true ∧
    (VectorTrait.magnitude (⟨MInt.wrap 3, MInt.wrap 4⟩ : Vector2d I16)).val ^ 2 ≠ 25 := by
  obtain ⟨-, i16, -, -⟩ := C48_from_int_exact
  have w : ∀ n : ℤ, -32768 ≤ n → n < 32768 → IsVal (IntoF32.into (MInt.wrap n : I16)) n := by
    intro n h1 h2
    have := i16 (MInt.wrap n)
    have e : (MInt.wrap n : I16).toInt = n := wrap_exact (by decide) (by unfold MInt.InRange; simp; omega)
    rwa [e] at this
  exact case_aux (w 3 (by norm_num) (by norm_num)) (w 4 (by norm_num) (by norm_num)) (w (-1000) (by norm_num) (by norm_num))
    (w 2000 (by norm_num) (by norm_num))

end Micromath.Props
