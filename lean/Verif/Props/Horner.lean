import Verif.Props.Lerp

/-!
# C162: polynomials evaluated by Horner's rule with `mul_add`
-/

set_option exponentiation.threshold 1000

namespace Micromath.Props
open F32 Spec

variable [Cfg]

/-- `for c in cs { acc = acc.mul_add(x, c) }`. -/
def horner (x : F32) (acc : F32) (cs : List F32) : F32 := cs.foldl (fun a c => a.mulAdd x c) acc

/-- The polynomial with the leading coefficient `a` and the further coefficients `cs`, in exact arithmetic. -/
def poly (x : ℚ) : ℚ → List ℚ → ℚ
  | a, [] => a
  | a, c :: cs => poly x (a * x + c) cs

omit [Cfg] in
/-- `poly` is the sum of coefficients times powers. -/
theorem poly_eq (x a : ℚ) (cs : List ℚ) : poly x a cs = a * x ^ cs.length + poly x 0 cs := by
  induction cs generalizing a with
  | nil => simp [poly]
  | cons c cs ih => rw [poly, ih, poly, ih (0 * x + c), List.length_cons]; ring

/-- One step: finite, and no larger than the rounded sum. -/
theorem horner_step {x a c : F32} (fx : x.isFinite = true) (fa : a.isFinite = true) (fc : c.isFinite = true) (hx : |x.val| ≤ 1)
    (ha : |a.val| ≤ 2 ^ 125) (hc : |c.val| ≤ 2 ^ 100) :
    IsVal (a.mulAdd x c) (RN (RN (a.val * x.val) + c.val)) ∧ |RN (a.val * x.val)| ≤ |a.val| := by
  have p : |a.val * x.val| ≤ |a.val| := by rw [abs_mul]; exact mul_le_of_le_one_right (abs_nonneg _) hx
  obtain ⟨f1, v1⟩ := mul_val fa fx (lt_of_le_of_lt (p.trans ha) (by norm_num [ovf]))
  have q : |RN (a.val * x.val)| ≤ |a.val| := by
    have hr : Rep |a.val| := by have := rep_val a; unfold Rep at *; rwa [abs_abs]
    have hr' : Rep (-|a.val|) := by unfold Rep at *; rwa [abs_neg]
    obtain ⟨h1, h2⟩ := abs_le.1 p
    exact abs_le.2 ⟨le_RN_of_rep hr' h1, RN_le_of_rep hr h2⟩
  obtain ⟨f2, v2⟩ := add_val f1 fc (by
    rw [v1]
    refine lt_of_le_of_lt (abs_add_le _ _) ?_
    norm_num [ovf] at *; linarith)
  rw [v1] at v2
  exact ⟨⟨f2, v2⟩, q⟩

/-- The state stays bounded, so nothing overflows. -/
theorem horner_bound {x a c : F32} (fx : x.isFinite = true) (fa : a.isFinite = true) (fc : c.isFinite = true) (hx : |x.val| ≤ 1)
    {k : ℕ} (hk : k ≤ 2 ^ 22) (ha : |a.val| ≤ 2 * (k + 1) * 2 ^ 100) (hc : |c.val| ≤ 2 ^ 100) :
    |(a.mulAdd x c).val| ≤ 2 * ((k + 1 : ℕ) + 1) * 2 ^ 100 ∧ |a.val| ≤ 2 ^ 125 := by
  have hk' : (k : ℚ) ≤ 2 ^ 22 := by exact_mod_cast hk
  have ha' : |a.val| ≤ 2 ^ 125 := by
    generalize (k : ℚ) = K at *
    norm_num at *; linarith
  obtain ⟨⟨_, v⟩, q⟩ := horner_step fx fa fc hx ha' hc
  refine ⟨?_, ha'⟩
  rw [v]
  have h1 : |RN (a.val * x.val) + c.val| ≤ |a.val| + |c.val| := (abs_add_le _ _).trans (by linarith)
  have e := rn_err h1
  have t : |RN (RN (a.val * x.val) + c.val)| ≤ |RN (RN (a.val * x.val) + c.val) - (RN (a.val * x.val) + c.val)| +
      |RN (a.val * x.val) + c.val| := by
    have := abs_add_le (RN (RN (a.val * x.val) + c.val) - (RN (a.val * x.val) + c.val)) (RN (a.val * x.val) + c.val)
    rwa [sub_add_cancel] at this
  push_cast
  generalize (k : ℚ) = K at *
  norm_num at *
  linarith

/-- Error of one step. -/
theorem horner_err {x a c : F32} {p A τ κ : ℚ} (fx : x.isFinite = true) (fa : a.isFinite = true) (fc : c.isFinite = true)
    (hx : |x.val| ≤ 1) (ha : |a.val| ≤ 2 ^ 125) (hc : |c.val| ≤ 2 ^ 100) (hp : |p| ≤ A) (k0 : 0 ≤ κ) (τ0 : 0 ≤ τ)
    (he : |a.val - p| ≤ κ * A + τ) :
    |(a.mulAdd x c).val - (p * x.val + c.val)| ≤
      ((1 + κ) * (1 + 1 / 2 ^ 24) ^ 2 - 1) * (A * |x.val| + |c.val|) + ((1 + 1 / 2 ^ 24) ^ 2 * τ + 3 / 2 ^ 150) := by
  obtain ⟨⟨_, v⟩, q⟩ := horner_step fx fa fc hx ha hc
  rw [v]
  have X0 := abs_nonneg x.val
  have A0 : 0 ≤ A := (abs_nonneg _).trans hp
  have C0 := abs_nonneg c.val
  have a1 : |a.val| ≤ (1 + κ) * A + τ := by
    have := abs_add_le (a.val - p) p
    rw [sub_add_cancel] at this; linarith
  have w0 : |a.val * x.val| ≤ ((1 + κ) * A + τ) * |x.val| := by
    rw [abs_mul]; exact mul_le_mul_of_nonneg_right a1 X0
  have e1 := rn_err w0
  set W := ((1 + κ) * A + τ) * |x.val| with hW
  have w1 : |RN (a.val * x.val)| ≤ W * (1 + 1 / 2 ^ 24) + 1 / 2 ^ 150 := by
    have := abs_add_le (RN (a.val * x.val) - a.val * x.val) (a.val * x.val)
    rw [sub_add_cancel] at this; linarith
  have e2 := rn_err (q := RN (a.val * x.val) + c.val) (B := W * (1 + 1 / 2 ^ 24) + 1 / 2 ^ 150 + |c.val|)
    ((abs_add_le _ _).trans (by linarith))
  have e0 : |(a.val - p) * x.val| ≤ (κ * A + τ) * |x.val| := by
    rw [abs_mul]; exact mul_le_mul_of_nonneg_right he X0
  have k : RN (RN (a.val * x.val) + c.val) - (p * x.val + c.val) =
      (RN (RN (a.val * x.val) + c.val) - (RN (a.val * x.val) + c.val)) + ((RN (a.val * x.val) - a.val * x.val) +
        (a.val - p) * x.val) := by ring
  rw [k]
  refine (abs_add_le _ _).trans ((add_le_add_right (abs_add_le _ _) _).trans ?_)
  have τx : τ * |x.val| ≤ τ := mul_le_of_le_one_right τ0 hx
  have kc : 0 ≤ κ * |c.val| := mul_nonneg k0 C0
  have big : (W * (1 + 1 / 2 ^ 24) + 1 / 2 ^ 150 + |c.val|) / 2 ^ 24 + 1 / 2 ^ 150 + (W / 2 ^ 24 + 1 / 2 ^ 150 + (κ * A + τ) * |x.val|) ≤
      ((1 + κ) * (1 + 1 / 2 ^ 24) ^ 2 - 1) * (A * |x.val| + |c.val|) + ((1 + 1 / 2 ^ 24) ^ 2 * τ + 3 / 2 ^ 150) := by
    have ex : ((1 + κ) * (1 + 1 / 2 ^ 24) ^ 2 - 1) * (A * |x.val| + |c.val|) + ((1 + 1 / 2 ^ 24) ^ 2 * τ + 3 / 2 ^ 150) -
        ((W * (1 + 1 / 2 ^ 24) + 1 / 2 ^ 150 + |c.val|) / 2 ^ 24 + 1 / 2 ^ 150 + (W / 2 ^ 24 + 1 / 2 ^ 150 + (κ * A + τ) * |x.val|)) =
        (1 + 1 / 2 ^ 24) ^ 2 * (τ - τ * |x.val|) + ((1 + 1 / 2 ^ 24) ^ 2 - 1 - 1 / 2 ^ 24) * |c.val| +
          (1 + 1 / 2 ^ 24) ^ 2 * (κ * |c.val|) + (1 / 2 ^ 150 - 1 / 2 ^ 150 / 2 ^ 24) := by
      rw [hW]; ring
    have n1 : 0 ≤ (1 + 1 / 2 ^ 24 : ℚ) ^ 2 * (τ - τ * |x.val|) := mul_nonneg (by positivity) (by linarith)
    have n2 : 0 ≤ ((1 + 1 / 2 ^ 24 : ℚ) ^ 2 - 1 - 1 / 2 ^ 24) * |c.val| := mul_nonneg (by norm_num) C0
    have n3 : 0 ≤ (1 + 1 / 2 ^ 24 : ℚ) ^ 2 * (κ * |c.val|) := mul_nonneg (by positivity) kc
    have n4 : (0 : ℚ) ≤ 1 / 2 ^ 150 - 1 / 2 ^ 150 / 2 ^ 24 := by norm_num
    linarith
  linarith

/-- **C162.** Horner's rule with `mul_add` at `|x| ≤ 1`, coefficients up to `2^100`, degree `n ≤ 2^22`: no overflow, and the error
is at most `(1 + 2^-24)^(2n) - 1` of the polynomial of the absolute values, plus `n (1 + 2^-24)^(2n) 3 / 2^150`. -/
theorem C162_error {x a : F32} {cs : List F32} (fx : x.isFinite = true) (hx : |x.val| ≤ 1) (fa : a.isFinite = true)
    (ha : |a.val| ≤ 2 ^ 100) (hc : ∀ c ∈ cs, c.isFinite = true ∧ |c.val| ≤ 2 ^ 100) (hn : cs.length ≤ 2 ^ 22) :
    (horner x a cs).isFinite = true ∧
    |(horner x a cs).val - poly x.val a.val (cs.map val)| ≤
      ((1 + 1 / 2 ^ 24) ^ (2 * cs.length) - 1) * poly |x.val| |a.val| (cs.map fun c => |c.val|) +
        cs.length * (1 + 1 / 2 ^ 24) ^ (2 * cs.length) * (3 / 2 ^ 150) := by
  have main : ∀ (cs : List F32) (k : ℕ) (a : F32) (p A : ℚ), (∀ c ∈ cs, c.isFinite = true ∧ |c.val| ≤ 2 ^ 100) → k + cs.length ≤ 2 ^ 22 →
      a.isFinite = true → |a.val| ≤ 2 * (k + 1) * 2 ^ 100 → |p| ≤ A →
      |a.val - p| ≤ ((1 + 1 / 2 ^ 24) ^ (2 * k) - 1) * A + k * (1 + 1 / 2 ^ 24) ^ (2 * k) * (3 / 2 ^ 150) →
      (horner x a cs).isFinite = true ∧
      |(horner x a cs).val - poly x.val p (cs.map val)| ≤
        ((1 + 1 / 2 ^ 24) ^ (2 * (k + cs.length)) - 1) * poly |x.val| A (cs.map fun c => |c.val|) +
          (k + cs.length : ℕ) * (1 + 1 / 2 ^ 24) ^ (2 * (k + cs.length)) * (3 / 2 ^ 150) := by
    intro cs
    induction cs with
    | nil => intro k a p A _ _ fa _ _ he; exact ⟨fa, by simpa [horner, poly] using he⟩
    | cons c cs ih =>
      intro k a p A hc hn fa ha hp he
      rw [List.length_cons] at hn
      obtain ⟨fc, bc⟩ := hc c (by simp)
      obtain ⟨b1, b2⟩ := horner_bound fx fa fc hx (by omega) ha bc
      obtain ⟨⟨f, _⟩, _⟩ := horner_step fx fa fc hx b2 bc
      have one_le : (1 : ℚ) ≤ (1 + 1 / 2 ^ 24) ^ (2 * k) := one_le_pow₀ (by norm_num)
      have e := horner_err (κ := (1 + 1 / 2 ^ 24) ^ (2 * k) - 1) fx fa fc hx b2 bc hp (by linarith) (by positivity) he
      have := ih (k + 1) (a.mulAdd x c) (p * x.val + c.val) (A * |x.val| + |c.val|) (fun d hd => hc d (by simp [hd])) (by omega) f b1
        ((abs_add_le _ _).trans (by rw [abs_mul]; gcongr)) (e.trans (by
          have e1 : (1 + 1 / 2 ^ 24 : ℚ) ^ (2 * (k + 1)) = (1 + 1 / 2 ^ 24) ^ (2 * k) * (1 + 1 / 2 ^ 24) ^ 2 := by
            rw [← pow_add]; ring_nf
          have o2 : (1 : ℚ) ≤ (1 + 1 / 2 ^ 24) ^ (2 * (k + 1)) := one_le_pow₀ (by norm_num)
          rw [show 1 + ((1 + 1 / 2 ^ 24 : ℚ) ^ (2 * k) - 1) = (1 + 1 / 2 ^ 24) ^ (2 * k) by ring, ← e1]
          push_cast
          have : (1 + 1 / 2 ^ 24 : ℚ) ^ 2 * (k * (1 + 1 / 2 ^ 24) ^ (2 * k) * (3 / 2 ^ 150)) =
            k * (1 + 1 / 2 ^ 24) ^ (2 * (k + 1)) * (3 / 2 ^ 150) := by rw [e1]; ring
          rw [this]
          generalize (1 + 1 / 2 ^ 24 : ℚ) ^ (2 * (k + 1)) = P at *
          norm_num at *
          linarith))
      rw [List.length_cons, show k + (cs.length + 1) = k + 1 + cs.length by ring]
      exact this
  have := main cs 0 a a.val |a.val| hc (by omega) fa (by norm_num at *; linarith) le_rfl (by simp)
  rw [Nat.zero_add] at this
  exact this

/-- **C162.** With coefficients `≥ 0` the computed polynomial never decreases on `0 ≤ x ≤ 1`, and is never negative. -/
theorem C162_mono {x y a : F32} {cs : List F32} (fx : x.isFinite = true) (fy : y.isFinite = true) (x0 : 0 ≤ x.val)
    (xy : x.val ≤ y.val) (y1 : y.val ≤ 1) (fa : a.isFinite = true) (a0 : 0 ≤ a.val) (ha : a.val ≤ 2 ^ 100)
    (hc : ∀ c ∈ cs, c.isFinite = true ∧ 0 ≤ c.val ∧ c.val ≤ 2 ^ 100) (hn : cs.length ≤ 2 ^ 22) :
    0 ≤ (horner x a cs).val ∧ (horner x a cs).val ≤ (horner y a cs).val := by
  have hx : |x.val| ≤ 1 := abs_le.2 ⟨by linarith, by linarith⟩
  have hy : |y.val| ≤ 1 := abs_le.2 ⟨by linarith, by linarith⟩
  have main : ∀ (cs : List F32) (k : ℕ) (a b : F32), (∀ c ∈ cs, c.isFinite = true ∧ 0 ≤ c.val ∧ c.val ≤ 2 ^ 100) → k + cs.length ≤ 2 ^ 22 →
      a.isFinite = true → b.isFinite = true → 0 ≤ a.val → a.val ≤ b.val → |a.val| ≤ 2 * (k + 1) * 2 ^ 100 →
      |b.val| ≤ 2 * (k + 1) * 2 ^ 100 → 0 ≤ (horner x a cs).val ∧ (horner x a cs).val ≤ (horner y b cs).val := by
    intro cs
    induction cs with
    | nil => intro k a b _ _ _ _ a0 ab _ _; exact ⟨a0, ab⟩
    | cons c cs ih =>
      intro k a b hc hn fa fb a0 ab ha hb
      rw [List.length_cons] at hn
      obtain ⟨fc, c0, c1⟩ := hc c (by simp)
      have bc : |c.val| ≤ 2 ^ 100 := by rw [abs_of_nonneg c0]; exact c1
      obtain ⟨p1, p2⟩ := horner_bound fx fa fc hx (by omega) ha bc
      obtain ⟨q1, q2⟩ := horner_bound fy fb fc hy (by omega) hb bc
      obtain ⟨⟨f, v⟩, _⟩ := horner_step fx fa fc hx p2 bc
      obtain ⟨⟨g, w⟩, _⟩ := horner_step fy fb fc hy q2 bc
      refine ih (k + 1) _ _ (fun d hd => hc d (by simp [hd])) (by omega) f g ?_ ?_ p1 q1
      · rw [v]; exact RN_nonneg (add_nonneg (RN_nonneg (mul_nonneg a0 x0)) c0)
      · rw [v, w]
        refine RN_mono ?_
        have := RN_mono (mul_le_mul ab xy x0 (a0.trans ab)); linarith
  have h0 : |a.val| ≤ 2 * ((0 : ℕ) + 1) * 2 ^ 100 := by rw [abs_of_nonneg a0]; norm_num at *; linarith
  exact main cs 0 a a hc (by omega) fa fa a0 le_rfl h0 h0

/-- Horner's rule on integers. -/
def ipoly (x : ℤ) : ℤ → List ℤ → ℤ
  | a, [] => a
  | a, c :: cs => ipoly x (a * x + c) cs

/-- All intermediate results of Horner's rule stay within `2^24`. -/
def Small (x : ℤ) : ℤ → List ℤ → Prop
  | _, [] => True
  | a, c :: cs => (a * x).natAbs ≤ 2 ^ 24 ∧ (a * x + c).natAbs ≤ 2 ^ 24 ∧ Small x (a * x + c) cs

/-- **C162.** Horner's rule on integers is exact as long as the intermediate results stay within `2^24`. -/
theorem C162_int {x a : F32} {cs : List F32} {m b : ℤ} {ds : List ℤ} (hx : IsVal x m) (ha : IsVal a b)
    (hc : List.Forall₂ (fun c d => IsVal c ((d : ℤ) : ℚ)) cs ds) (hs : Small m b ds) :
    IsVal (horner x a cs) (ipoly m b ds) := by
  induction hc generalizing a b with
  | nil => exact ha
  | cons h _ ih => exact ih (add_int (mul_int ha hx hs.1) h hs.2.1) hs.2.2

/-- Non-vacuity: `3 x^2 - 2 x + 5` at `100`. -/
example : Small 100 3 [-2, 5] ∧ ipoly 100 3 [-2, 5] = 29805 := by simp [Small, ipoly]

/-- Non-vacuity: `x^2 + x/2 + 1/4` on `[0, 1]`. -/
example {x y : F32} (fx : x.isFinite = true) (fy : y.isFinite = true) (x0 : 0 ≤ x.val) (xy : x.val ≤ y.val) (y1 : y.val ≤ 1) :
    (horner x ⟨0x3f800000#32⟩ [⟨0x3f000000#32⟩, ⟨0x3e800000#32⟩]).val ≤ (horner y ⟨0x3f800000#32⟩ [⟨0x3f000000#32⟩, ⟨0x3e800000#32⟩]).val := by
  have v1 : (⟨0x3f800000#32⟩ : F32).val = 1 := by rw [val_of_units (u := 2 ^ 149) (by decide +kernel)]; norm_num
  have v2 : (⟨0x3f000000#32⟩ : F32).val = 1 / 2 := by rw [val_of_units (u := 2 ^ 148) (by decide +kernel)]; norm_num
  have v3 : (⟨0x3e800000#32⟩ : F32).val = 1 / 4 := by rw [val_of_units (u := 2 ^ 147) (by decide +kernel)]; norm_num
  refine (C162_mono fx fy x0 xy y1 (by decide) (by rw [v1]; norm_num) (by rw [v1]; norm_num) ?_ (by simp)).2
  intro c hc
  simp only [List.mem_cons, List.not_mem_nil, or_false] at hc
  rcases hc with rfl | rfl
  · rw [v2]; exact ⟨by decide, by norm_num, by norm_num⟩
  · rw [v3]; exact ⟨by decide, by norm_num, by norm_num⟩

end Micromath.Props
