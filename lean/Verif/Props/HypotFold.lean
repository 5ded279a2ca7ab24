import Verif.Props.Metric

/-!
# C165: lengths in many dimensions by folding `hypot`
-/

set_option exponentiation.threshold 1000

namespace Micromath.Props
open F32 Spec

variable [Cfg]

/-- `l.iter().fold(x, |acc, y| acc.hypot(y))`. -/
def hypotFold (x : F32) (l : List F32) : F32 := l.foldl hypot x

/-- The exact squared length. -/
def sqLen (x : ℚ) (l : List F32) : ℚ := x ^ 2 + (l.map fun y => y.val ^ 2).sum

omit [Cfg] in
theorem sum_sq_nonneg (l : List F32) : 0 ≤ (l.map fun y => y.val ^ 2).sum :=
  List.sum_nonneg (by simp only [List.mem_map]; rintro _ ⟨y, -, rfl⟩; positivity)

/-- `hypot`, squared. -/
theorem hypot_sq {x y : F32} (fx : x.isFinite = true) (fy : y.isFinite = true) (h1 : 1 / 2 ^ 100 ≤ x.val ^ 2 + y.val ^ 2)
    (h2 : x.val ^ 2 + y.val ^ 2 ≤ 2 ^ 124) :
    (x.hypot y).isFinite = true ∧ 0 < (x.hypot y).val ∧ (1 - 1 / 2 ^ 20) * (x.val ^ 2 + y.val ^ 2) ≤ (x.hypot y).val ^ 2 ∧
      (x.hypot y).val ^ 2 ≤ 9 / 8 * (1 + 1 / 2 ^ 20) * (x.val ^ 2 + y.val ^ 2) := by
  have hS : SumSq (x * x + y * y) (x.val ^ 2 + y.val ^ 2) := by
    obtain ⟨⟨f, e⟩, -⟩ := two_err fx fy fx fy (by rw [abs_mul_self, abs_mul_self]; nlinarith)
    rw [abs_mul_self, abs_mul_self] at e
    refine ⟨f, ?_⟩
    rw [sq, sq]
    refine e.trans ?_
    have := mul_self_nonneg x.val
    have := mul_self_nonneg y.val
    norm_num; linarith
  exact hS.sqrt h1

/-- **C165.** Each `hypot` can add up to `6.07` percent: for `n` further coordinates the squared result is between `(1 - 2^-20)^n`
and `(9/8 (1 + 2^-20))^n` of the exact squared length, in a range without overflow and underflow. -/
theorem C165_fold {x : F32} {l : List F32} (fx : x.isFinite = true) (fl : ∀ y ∈ l, y.isFinite = true) (x1 : 1 / 2 ^ 90 ≤ x.val ^ 2)
    (hn : l.length ≤ 2 ^ 20) (h2 : (9 / 8 * (1 + 1 / 2 ^ 20)) ^ l.length * sqLen x.val l ≤ 2 ^ 124) :
    (hypotFold x l).isFinite = true ∧ (1 - 1 / 2 ^ 20) ^ l.length * sqLen x.val l ≤ (hypotFold x l).val ^ 2 ∧
      (hypotFold x l).val ^ 2 ≤ (9 / 8 * (1 + 1 / 2 ^ 20)) ^ l.length * sqLen x.val l := by
  have main : ∀ (l : List F32) (k : ℕ) (x : F32), x.isFinite = true → (∀ y ∈ l, y.isFinite = true) → k + l.length ≤ 2 ^ 20 →
      (1 - 1 / 2 ^ 20) ^ k * (1 / 2 ^ 90) ≤ x.val ^ 2 → (9 / 8 * (1 + 1 / 2 ^ 20)) ^ l.length * sqLen x.val l ≤ 2 ^ 124 →
      (hypotFold x l).isFinite = true ∧ (1 - 1 / 2 ^ 20) ^ l.length * sqLen x.val l ≤ (hypotFold x l).val ^ 2 ∧
        (hypotFold x l).val ^ 2 ≤ (9 / 8 * (1 + 1 / 2 ^ 20)) ^ l.length * sqLen x.val l := by
    intro l
    induction l with
    | nil => intro k x fx _ _ _ _; exact ⟨fx, by simp [hypotFold, sqLen], by simp [hypotFold, sqLen]⟩
    | cons y l ih =>
      intro k x fx fl hn x1 h2
      rw [List.length_cons] at hn h2 ⊢
      have S0 := sum_sq_nonneg l
      have fy := fl y (by simp)
      have X0 := sq_nonneg x.val
      have Y0 := sq_nonneg y.val
      have eq : sqLen x.val (y :: l) = (x.val ^ 2 + y.val ^ 2) + (l.map fun y => y.val ^ 2).sum := by simp [sqLen]; ring
      have low : (1 : ℚ) / 2 ^ 100 ≤ x.val ^ 2 + y.val ^ 2 := by
        have p : (1 / 2 ^ 10 : ℚ) ≤ (1 - 1 / 2 ^ 20) ^ k := by
          have q1 : ((1 : ℚ) - 1 / 2 ^ 20) ^ (2 ^ 20) ≤ (1 - 1 / 2 ^ 20) ^ k :=
            pow_le_pow_of_le_one (by norm_num) (by norm_num) (by omega)
          have q2 : (1 / 2 : ℚ) ≤ (1 - 1 / 2 ^ 20) ^ (2 ^ 19) := by
            have := one_add_mul_le_pow (a := -(1 / 2 ^ 20 : ℚ)) (by norm_num) (2 ^ 19)
            rw [← sub_eq_add_neg] at this
            refine le_trans ?_ this
            push_cast; norm_num
          refine le_trans ?_ q1
          rw [show (2 : ℕ) ^ 20 = 2 ^ 19 * 2 by norm_num, pow_mul]
          refine le_trans ?_ (pow_le_pow_left₀ (by norm_num) q2 2)
          norm_num
        have := mul_le_mul_of_nonneg_right p (show (0 : ℚ) ≤ 1 / 2 ^ 90 by positivity)
        have e : (1 / 2 ^ 10 : ℚ) * (1 / 2 ^ 90) = 1 / 2 ^ 100 := by norm_num
        linarith
      have one_le : (1 : ℚ) ≤ (9 / 8 * (1 + 1 / 2 ^ 20)) ^ (l.length + 1) := one_le_pow₀ (by norm_num)
      have high : x.val ^ 2 + y.val ^ 2 ≤ 2 ^ 124 := by
        have := mul_le_mul_of_nonneg_right one_le (show 0 ≤ sqLen x.val (y :: l) by rw [eq]; positivity)
        rw [one_mul] at this
        rw [eq] at this h2; linarith
      obtain ⟨f, -, a, b⟩ := hypot_sq fx fy low high
      have bnd : sqLen (x.hypot y).val l ≤ 9 / 8 * (1 + 1 / 2 ^ 20) * sqLen x.val (y :: l) := by
        rw [eq]; unfold sqLen; norm_num at b ⊢; linarith
      have bnd' : (1 - 1 / 2 ^ 20) * sqLen x.val (y :: l) ≤ sqLen (x.hypot y).val l := by
        rw [eq]; unfold sqLen; norm_num at a ⊢; linarith
      have P0 : (0 : ℚ) ≤ (9 / 8 * (1 + 1 / 2 ^ 20)) ^ l.length := by positivity
      have M0 : (0 : ℚ) ≤ (1 - 1 / 2 ^ 20) ^ l.length := pow_nonneg (by norm_num) _
      have up : (9 / 8 * (1 + 1 / 2 ^ 20)) ^ l.length * sqLen (x.hypot y).val l ≤
          (9 / 8 * (1 + 1 / 2 ^ 20)) ^ (l.length + 1) * sqLen x.val (y :: l) := by
        have := mul_le_mul_of_nonneg_left bnd P0
        rw [pow_succ (9 / 8 * (1 + 1 / 2 ^ 20) : ℚ) l.length]; linarith
      have down : (1 - 1 / 2 ^ 20) ^ (l.length + 1) * sqLen x.val (y :: l) ≤ (1 - 1 / 2 ^ 20) ^ l.length * sqLen (x.hypot y).val l := by
        have := mul_le_mul_of_nonneg_left bnd' M0
        rw [pow_succ (1 - 1 / 2 ^ 20 : ℚ) l.length]; linarith
      obtain ⟨g, c, d⟩ := ih (k + 1) (x.hypot y) f (fun z hz => fl z (by simp [hz])) (by omega) (by
        have h3 : (1 - 1 / 2 ^ 20) * ((1 - 1 / 2 ^ 20) ^ k * (1 / 2 ^ 90)) ≤ (1 - 1 / 2 ^ 20) * (x.val ^ 2 + y.val ^ 2) :=
          mul_le_mul_of_nonneg_left (by linarith) (by norm_num)
        rw [pow_succ (1 - 1 / 2 ^ 20 : ℚ) k]; linarith) (up.trans h2)
      exact ⟨g, down.trans c, d.trans up⟩
  exact main l 0 x fx fl (by omega) (by simpa using x1) h2

/-- **C165.** In space the nested form is at most `12.6` percent too long. -/
theorem C165_nested {x y z : F32} (fx : x.isFinite = true) (fy : y.isFinite = true) (fz : z.isFinite = true) (x1 : 1 / 2 ^ 90 ≤ x.val ^ 2)
    (h2 : x.val ^ 2 + y.val ^ 2 + z.val ^ 2 ≤ 2 ^ 120) :
    0.99999 * (x.val ^ 2 + y.val ^ 2 + z.val ^ 2) ≤ ((x.hypot y).hypot z).val ^ 2 ∧
      ((x.hypot y).hypot z).val ^ 2 ≤ 1.126 ^ 2 * (x.val ^ 2 + y.val ^ 2 + z.val ^ 2) := by
  have e : sqLen x.val [y, z] = x.val ^ 2 + y.val ^ 2 + z.val ^ 2 := by simp [sqLen]; ring
  have n0 : 0 ≤ x.val ^ 2 + y.val ^ 2 + z.val ^ 2 := by positivity
  obtain ⟨-, a, b⟩ := C165_fold (l := [y, z]) fx (by simp [fy, fz]) x1 (by norm_num) (by
    rw [e]; simp only [List.length_cons, List.length_nil]; norm_num at h2 ⊢; linarith)
  rw [e] at a b
  simp only [List.length_cons, List.length_nil, hypotFold, List.foldl_cons, List.foldl_nil] at a b
  exact ⟨by norm_num at a ⊢; linarith, by norm_num at b ⊢; linarith⟩

/-- One more zero coordinate, evaluated. -/
theorem fold_zero {a b : Nat} {n : ℕ} (h : force (hypot ⟨BitVec.ofNat 32 a⟩ posZero).bits.toNat = b) :
    hypotFold ⟨BitVec.ofNat 32 a⟩ (List.replicate (n + 1) posZero) = hypotFold ⟨BitVec.ofNat 32 b⟩ (List.replicate n posZero) := by
  rw [List.replicate_succ]
  show hypotFold (hypot _ _) _ = _
  rw [eval_eq h]

/-- **C165.** Finding: the errors do add up. The vector `(3/2, 0, .., 0)` with twenty zeros gets a length above `1.86`, and none of
this comes from the zeros: `hypot(x, 0)` is not `x`. -/
theorem C165_zeros_false : 1.86 ≤ (hypotFold ⟨0x3fc00000#32⟩ (List.replicate 20 posZero)).val := by
  have e : hypotFold ⟨0x3fc00000#32⟩ (List.replicate 20 posZero) = ⟨0x3fee8e50#32⟩ := by
    refine (fold_zero (a := 0x3fc00000) (b := 0x3fc80000) (by kernel_rfl)).trans ?_
    refine (fold_zero (a := 0x3fc80000) (b := 0x3fce2000) (by kernel_rfl)).trans ?_
    refine (fold_zero (a := 0x3fce2000) (b := 0x3fd2fbc2) (by kernel_rfl)).trans ?_
    refine (fold_zero (a := 0x3fd2fbc2) (b := 0x3fd6f101) (by kernel_rfl)).trans ?_
    refine (fold_zero (a := 0x3fd6f101) (b := 0x3fda3be8) (by kernel_rfl)).trans ?_
    refine (fold_zero (a := 0x3fda3be8) (b := 0x3fdd050a) (by kernel_rfl)).trans ?_
    refine (fold_zero (a := 0x3fdd050a) (b := 0x3fdf68d9) (by kernel_rfl)).trans ?_
    refine (fold_zero (a := 0x3fdf68d9) (b := 0x3fe17bea) (by kernel_rfl)).trans ?_
    refine (fold_zero (a := 0x3fe17bea) (b := 0x3fe34d86) (by kernel_rfl)).trans ?_
    refine (fold_zero (a := 0x3fe34d86) (b := 0x3fe4e949) (by kernel_rfl)).trans ?_
    refine (fold_zero (a := 0x3fe4e949) (b := 0x3fe6582f) (by kernel_rfl)).trans ?_
    refine (fold_zero (a := 0x3fe6582f) (b := 0x3fe7a149) (by kernel_rfl)).trans ?_
    refine (fold_zero (a := 0x3fe7a149) (b := 0x3fe8ca3b) (by kernel_rfl)).trans ?_
    refine (fold_zero (a := 0x3fe8ca3b) (b := 0x3fe9d795) (by kernel_rfl)).trans ?_
    refine (fold_zero (a := 0x3fe9d795) (b := 0x3feacd11) (by kernel_rfl)).trans ?_
    refine (fold_zero (a := 0x3feacd11) (b := 0x3febadc3) (by kernel_rfl)).trans ?_
    refine (fold_zero (a := 0x3febadc3) (b := 0x3fec7c3d) (by kernel_rfl)).trans ?_
    refine (fold_zero (a := 0x3fec7c3d) (b := 0x3fed3aa6) (by kernel_rfl)).trans ?_
    refine (fold_zero (a := 0x3fed3aa6) (b := 0x3fedead2) (by kernel_rfl)).trans ?_
    refine (fold_zero (a := 0x3fedead2) (b := 0x3fee8e50) (by kernel_rfl)).trans ?_
    rfl
  rw [e, val_of_units (u := 0xee8e50 * 2 ^ 126) (by decide +kernel)]
  norm_num

/-- Non-vacuity: the vector `(3, 4, 12)`. -/
example : (((ofInt 3).hypot (ofInt 4)).hypot (ofInt 12)).val ^ 2 ≤ 1.126 ^ 2 * 169 := by
  obtain ⟨f3, v3⟩ := ofInt_isVal (n := 3) (by decide)
  obtain ⟨f4, v4⟩ := ofInt_isVal (n := 4) (by decide)
  obtain ⟨f5, v5⟩ := ofInt_isVal (n := 12) (by decide)
  have := (C165_nested f3 f4 f5 (by rw [v3]; norm_num) (by rw [v3, v4, v5]; norm_num)).2
  rw [v3, v4, v5] at this
  exact this.trans (by norm_num)

end Micromath.Props
