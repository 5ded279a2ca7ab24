import Mathlib.Data.Real.Basic
import Mathlib.Tactic.Linarith
import Mathlib.Tactic.Ring
import Mathlib.Tactic.Positivity
import Mathlib.Tactic.NormNum
import Mathlib.Tactic.Push

/-!
# Positivity of rational polynomials on an interval

`posOn n p a b` bisects `[a, b]` at most `n` times and accepts a piece when the Taylor shift of `p` to its left end
is visibly positive there.  `posOn_sound` turns a successful run (evaluated by the kernel) into a statement about every
real number of the interval.
-/

namespace Micromath.Poly

/-- Value of the polynomial with coefficients `p` (constant term first). -/
def ev (p : List ℚ) (x : ℝ) : ℝ := p.foldr (fun (c : ℚ) (acc : ℝ) => (c : ℝ) + x * acc) 0

@[simp] theorem ev_nil (x : ℝ) : ev [] x = 0 := rfl
@[simp] theorem ev_cons (c : ℚ) (p : List ℚ) (x : ℝ) : ev (c :: p) x = c + x * ev p x := rfl

/-- Sum of two polynomials. -/
def padd : List ℚ → List ℚ → List ℚ
  | [], q => q
  | p, [] => p
  | a :: p, b :: q => (a + b) :: padd p q

theorem ev_padd (p q : List ℚ) (x : ℝ) : ev (padd p q) x = ev p x + ev q x := by
  induction p, q using padd.induct with
  | case1 q => simp [padd]
  | case2 p h => cases p <;> simp [padd]
  | case3 a p b q ih => simp only [padd, ev_cons, ih]; push_cast; ring

/-- Product with a constant. -/
def psmul (k : ℚ) (p : List ℚ) : List ℚ := p.map (k * ·)

theorem ev_psmul (k : ℚ) (p : List ℚ) (x : ℝ) : ev (psmul k p) x = k * ev p x := by
  induction p with
  | nil => simp [psmul]
  | cons c p ih =>
    simp only [psmul, List.map_cons, ev_cons] at ih ⊢
    rw [ih]; push_cast; ring

/-- Product of two polynomials. -/
def pmul : List ℚ → List ℚ → List ℚ
  | [], _ => []
  | a :: p, q => padd (psmul a q) (0 :: pmul p q)

theorem ev_pmul (p q : List ℚ) (x : ℝ) : ev (pmul p q) x = ev p x * ev q x := by
  induction p with
  | nil => simp [pmul]
  | cons a p ih => simp only [pmul, ev_padd, ev_psmul, ev_cons, ih]; push_cast; ring

/-- `p (a + X)`. -/
def shift (a : ℚ) : List ℚ → List ℚ
  | [] => []
  | c :: p => let r := shift a p; padd [c] (padd (psmul a r) (0 :: r))

theorem ev_shift (a : ℚ) (p : List ℚ) (t : ℝ) : ev (shift a p) t = ev p (a + t) := by
  induction p with
  | nil => rfl
  | cons c p ih =>
    simp only [shift, ev_padd, ev_psmul, ev_cons, ev_nil, ih]
    push_cast; ring

/-- Lower bound of `p` on `[0, h]`: negative coefficients count fully, positive ones not at all. -/
def low (h : ℚ) : List ℚ → ℚ
  | [] => 0
  | c :: p => c + h * min 0 (low h p)

theorem low_le {h : ℚ} (p : List ℚ) {t : ℝ} (t0 : 0 ≤ t) (th : t ≤ h) : (low h p : ℝ) ≤ ev p t := by
  induction p with
  | nil => simp [low]
  | cons c p ih =>
    rw [low, ev_cons]
    push_cast
    have h0 : (0 : ℝ) ≤ h := le_trans t0 th
    rcases le_total 0 (low h p) with hl | hl
    · have : (0 : ℝ) ≤ low h p := by exact_mod_cast hl
      rw [min_eq_left this]
      nlinarith
    · have hl' : (low h p : ℝ) ≤ 0 := by exact_mod_cast hl
      rw [min_eq_right hl']
      nlinarith

/-- The bisection check. -/
def posOn : Nat → List ℚ → ℚ → ℚ → Bool
  | 0, p, a, b => decide (0 < low (b - a) (shift a p))
  | n + 1, p, a, b =>
    decide (0 < low (b - a) (shift a p)) ||
      (posOn n p a ((a + b) / 2) && posOn n p ((a + b) / 2) b)

theorem posOn_sound {n : Nat} {p : List ℚ} {a b : ℚ} (h : posOn n p a b = true) {x : ℝ} (hx : (a : ℝ) ≤ x)
    (hx' : x ≤ b) : 0 < ev p x := by
  have key : ∀ a b : ℚ, decide (0 < low (b - a) (shift a p)) = true → (a : ℝ) ≤ x → x ≤ b → 0 < ev p x := by
    intro a b h h1 h2
    have h := of_decide_eq_true h
    have := low_le (h := b - a) (shift a p) (t := x - a) (by linarith) (by push_cast; linarith)
    rw [ev_shift, add_sub_cancel] at this
    have h' : (0 : ℝ) < low (b - a) (shift a p) := by exact_mod_cast h
    linarith
  induction n generalizing a b with
  | zero => exact key a b h hx hx'
  | succ n ih =>
    rw [posOn, Bool.or_eq_true, Bool.and_eq_true] at h
    rcases h with h | ⟨h1, h2⟩
    · exact key a b h hx hx'
    · rcases le_total x ((a + b) / 2 : ℚ) with hm | hm
      · exact ih h1 hx hm
      · exact ih h2 hm hx'

/-- `x^2 - 2x + 1.01` is positive on `[0, 2]`. -/
example (x : ℝ) (h0 : 0 ≤ x) (h2 : x ≤ 2) : 0 < 101 / 100 + x * (-2 + x * (1 + x * 0)) := by
  have := posOn_sound (n := 8) (p := [101 / 100, -2, 1]) (a := 0) (b := 2) (by decide +kernel) (x := x)
    (by simpa using h0) (by simpa using h2)
  simpa [ev] using this

end Micromath.Poly
