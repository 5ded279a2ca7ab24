import Mathlib.Analysis.Quaternion
import Mathlib.Tactic.NoncommRing
import Mathlib.Tactic.Linarith
import Mathlib.Tactic.Positivity
import Mathlib.Tactic.NormNum

/-!
# Geometry of the rotation between two directions

Pure mathematics over the real quaternions: how far the quaternion `1 + η - V U` of two unit vectors, disturbed by `e` and
scaled by `K`, is from turning `U` into `V`.
-/

namespace Micromath.Geom
open _root_.Quaternion

theorem rot_err {U V e r : ℍ[ℝ]} {K eta ε : ℝ} (hU : U * U = -1) (hV : V * V = -1) (hK : 0 ≤ K)
    (hr : r = K • ((eta : ℍ[ℝ]) + 1 - V * U + e)) (he : ‖e‖ ≤ ε) (nU : ‖U‖ = 1) (nV : ‖V‖ = 1) :
    ‖r * U * star r - (‖r‖ ^ 2) • V‖ ≤ ‖r‖ * (K * (|eta| * ‖U - V‖ + 2 * ε)) := by
  have h1 : r * U - V * r = K • ((eta : ℍ[ℝ]) * (U - V) + (e * U - V * e)) := by
    rw [hr, smul_mul_assoc, mul_smul_comm, ← smul_sub]
    congr 1
    have : ((eta : ℍ[ℝ]) + 1 - V * U + e) * U - V * ((eta : ℍ[ℝ]) + 1 - V * U + e)
      = (eta : ℍ[ℝ]) * U - V * (eta : ℍ[ℝ]) + U - V - V * (U * U) + (V * V) * U + (e * U - V * e) := by noncomm_ring
    rw [this, hU, hV, ← Quaternion.coe_commutes eta V]
    noncomm_ring
  have h2 : r * U * star r - (‖r‖ ^ 2) • V = (r * U - V * r) * star r := by
    rw [sub_mul, mul_assoc V, Quaternion.self_mul_star, Quaternion.normSq_eq_norm_mul_self]
    congr 1
    rw [← Quaternion.coe_mul_eq_smul, Quaternion.coe_commutes, pow_two]
  rw [h2, norm_mul, Quaternion.norm_star, h1, mul_comm]
  refine mul_le_mul_of_nonneg_left ?_ (norm_nonneg _)
  rw [norm_smul, Real.norm_of_nonneg hK]
  refine mul_le_mul_of_nonneg_left ?_ hK
  refine (norm_add_le _ _).trans (add_le_add ?_ ?_)
  · rw [norm_mul, Quaternion.norm_coe, Real.norm_eq_abs]
  · refine (norm_sub_le _ _).trans ?_
    rw [norm_mul, norm_mul, nU, nV]; linarith

/-- Square of the norm by components. -/
theorem norm_sq_eq (a : ℍ[ℝ]) : ‖a‖ ^ 2 = a.re ^ 2 + a.imI ^ 2 + a.imJ ^ 2 + a.imK ^ 2 := by
  rw [pow_two, ← Quaternion.normSq_eq_norm_mul_self, Quaternion.normSq_def']

/-- The pure quaternion of a vector. -/
def pure (x y z : ℝ) : ℍ[ℝ] := ⟨0, x, y, z⟩

theorem pure_re (x y z : ℝ) : (pure x y z).re = 0 := rfl
theorem pure_imI (x y z : ℝ) : (pure x y z).imI = x := rfl
theorem pure_imJ (x y z : ℝ) : (pure x y z).imJ = y := rfl
theorem pure_imK (x y z : ℝ) : (pure x y z).imK = z := rfl

theorem pure_sq {x y z : ℝ} (h : x ^ 2 + y ^ 2 + z ^ 2 = 1) : pure x y z * pure x y z = -1 ∧ ‖pure x y z‖ = 1 := by
  have e1 : (pure x y z).re = 0 := rfl
  have e2 : (pure x y z).imI = x := rfl
  have e3 : (pure x y z).imJ = y := rfl
  have e4 : (pure x y z).imK = z := rfl
  constructor
  · ext <;> simp [e1, e2, e3, e4] <;> linarith
  · have := norm_sq_eq (pure x y z)
    rw [e1, e2, e3, e4] at this
    have h2 : ‖pure x y z‖ ^ 2 = 1 := by rw [this]; linarith
    exact (pow_eq_one_iff_of_nonneg (norm_nonneg _) (by norm_num)).1 h2

/-- Pythagoras: distance to the unit vector `V` from the distance to its multiple of the same length. -/
theorem pyth {X V : ℍ[ℝ]} {k : ℝ} (hX : ‖X‖ = k) (hV : ‖V‖ = 1) : k * ‖X - V‖ ^ 2 = k * (k - 1) ^ 2 + ‖X - k • V‖ ^ 2 := by
  have h1 := norm_sq_eq X
  have h2 := norm_sq_eq V
  rw [norm_sq_eq, norm_sq_eq]
  rw [hX] at h1
  rw [hV] at h2
  simp only [Quaternion.re_sub, Quaternion.imI_sub, Quaternion.imJ_sub, Quaternion.imK_sub, Quaternion.re_smul,
    Quaternion.imI_smul, Quaternion.imJ_smul, Quaternion.imK_smul, smul_eq_mul]
  linear_combination (1 - k) * h1 + (k ^ 2 - k) * h2

set_option maxHeartbeats 1000000 in
/-- Final bound. `c` is the cosine between the two directions. -/
theorem rot_near {u1 u2 u3 v1 v2 v3 : ℝ} (hu : u1 ^ 2 + u2 ^ 2 + u3 ^ 2 = 1) (hv : v1 ^ 2 + v2 ^ 2 + v3 ^ 2 = 1)
    {e r : ℍ[ℝ]} {K eta c : ℝ} (hc : c = u1 * v1 + u2 * v2 + u3 * v3) (hc9 : -0.9 ≤ c) (hK : 0 ≤ K)
    (hr : r = K • ((eta : ℍ[ℝ]) + 1 - pure v1 v2 v3 * pure u1 u2 u3 + e)) (he : ‖e‖ ≤ 1 / 2 ^ 20)
    (eta1 : -(1 / 2 ^ 18) ≤ eta) (eta2 : eta ≤ 0.06072) (r1 : 0.9299 ≤ ‖r‖ ^ 2) (r2 : ‖r‖ ^ 2 ≤ 1.0701) :
    (1 + c) * ‖r * pure u1 u2 u3 * star r - pure v1 v2 v3‖ ^ 2 ≤ 0.005 * (1 + c) + 0.0038 * (1 - c) := by
  obtain ⟨hU, nU⟩ := pure_sq hu
  obtain ⟨hV, nV⟩ := pure_sq hv
  have hE := rot_err hU hV hK hr he nU nV
  have hs : ‖pure u1 u2 u3 - pure v1 v2 v3‖ ^ 2 = 2 - 2 * c := by
    rw [norm_sq_eq, hc]
    simp only [pure_re, pure_imI, pure_imJ, pure_imK, Quaternion.re_sub, Quaternion.imI_sub, Quaternion.imJ_sub, Quaternion.imK_sub]
    linarith
  have hP : ‖(eta : ℍ[ℝ]) + 1 - pure v1 v2 v3 * pure u1 u2 u3‖ ^ 2 = 2 * (1 + c) * (1 + eta) + eta ^ 2 := by
    rw [norm_sq_eq, hc]
    simp only [pure_re, pure_imI, pure_imJ, pure_imK, Quaternion.re_sub, Quaternion.imI_sub, Quaternion.imJ_sub, Quaternion.imK_sub, Quaternion.re_add,
      Quaternion.imI_add, Quaternion.imJ_add, Quaternion.imK_add, Quaternion.re_mul, Quaternion.imI_mul, Quaternion.imJ_mul,
      Quaternion.imK_mul, Quaternion.re_coe, Quaternion.imI_coe, Quaternion.imJ_coe, Quaternion.imK_coe, Quaternion.re_one,
      Quaternion.imI_one, Quaternion.imJ_one, Quaternion.imK_one]
    linear_combination (v1 ^ 2 + v2 ^ 2 + v3 ^ 2) * hu + hv
  have hX : ‖r * pure u1 u2 u3 * star r‖ = ‖r‖ ^ 2 := by
    rw [norm_mul, norm_mul, nU, Quaternion.norm_star]; ring
  have hpy := pyth hX nV
  have hR : ‖r‖ = K * ‖(eta : ℍ[ℝ]) + 1 - pure v1 v2 v3 * pure u1 u2 u3 + e‖ := by
    conv_lhs => rw [hr]
    rw [norm_smul, Real.norm_of_nonneg hK]
  have ht : ‖(eta : ℍ[ℝ]) + 1 - pure v1 v2 v3 * pure u1 u2 u3‖ - 1 / 2 ^ 20 ≤
      ‖(eta : ℍ[ℝ]) + 1 - pure v1 v2 v3 * pure u1 u2 u3 + e‖ := by
    have := norm_sub_le ((eta : ℍ[ℝ]) + 1 - pure v1 v2 v3 * pure u1 u2 u3 + e) e
    rw [add_sub_cancel_right] at this
    linarith
  have hc1 : c ≤ 1 := by
    have := sq_nonneg ‖pure u1 u2 u3 - pure v1 v2 v3‖
    linarith
  generalize hs' : ‖pure u1 u2 u3 - pure v1 v2 v3‖ = s at *
  generalize hq' : ‖(eta : ℍ[ℝ]) + 1 - pure v1 v2 v3 * pure u1 u2 u3‖ = p at *
  generalize ‖(eta : ℍ[ℝ]) + 1 - pure v1 v2 v3 * pure u1 u2 u3 + e‖ = p' at *
  generalize hd : ‖r * pure u1 u2 u3 * star r - pure v1 v2 v3‖ = d at *
  generalize hg : ‖r * pure u1 u2 u3 * star r - ‖r‖ ^ 2 • pure v1 v2 v3‖ = g at *
  generalize hk : ‖r‖ = m at *
  have hs0 : 0 ≤ s := hs' ▸ norm_nonneg _
  have hp0 : 0 ≤ p := hq' ▸ norm_nonneg _
  have hg0 : 0 ≤ g := hg ▸ norm_nonneg _
  have hm0 : 0 ≤ m := hk ▸ norm_nonneg _
  clear hr he hU hV hX hs' hq' hd hg hk nU nV
  have hPl : 2 * (1 + c) * (1 + eta) ≤ p ^ 2 := by have := sq_nonneg eta; linarith
  have h19 : 0.19 ≤ p ^ 2 := by
    have : 0.1 * 0.99 ≤ (1 + c) * (1 + eta) := mul_le_mul (by linarith) (by norm_num at *; linarith) (by norm_num) (by linarith)
    norm_num at *; linarith
  have hp4 : 0.43 ≤ p := by
    by_contra h
    push Not at h
    have : p ^ 2 < 0.43 ^ 2 := pow_lt_pow_left₀ h hp0 (by norm_num)
    norm_num at *; linarith
  have hpp : p ^ 2 ≤ (1 + 1 / 2 ^ 14) * p' ^ 2 := by
    have h1 : (p - 1 / 2 ^ 20) ^ 2 ≤ p' ^ 2 := pow_le_pow_left₀ (by norm_num at *; linarith) ht 2
    have h2 : p ≤ p ^ 2 / 0.43 := by
      rw [le_div_iff₀ (by norm_num), pow_two]; exact mul_le_mul_of_nonneg_left hp4 hp0
    norm_num at *
    linarith
  have hcp : (1 + c) * (2 * (1 + eta)) ≤ (1 + 1 / 2 ^ 14) * p' ^ 2 := by linarith
  have hp'0 : 0 < p' := by norm_num at *; linarith
  -- the part across
  have ha : |eta| ≤ 0.06072 := abs_le.2 ⟨by norm_num at *; linarith, eta2⟩
  have hs2 : s ≤ 2 := by
    refine abs_le_of_sq_le_sq' ?_ (by norm_num) |>.2
    rw [hs]; norm_num at *; linarith
  have hB : (|eta| * s + 2 * (1 / 2 ^ 20)) ^ 2 ≤ eta ^ 2 * (2 - 2 * c) + 1 / 2 ^ 20 := by
    have h1 : |eta| * s ≤ 0.06072 * 2 := mul_le_mul ha hs2 hs0 (by norm_num)
    have h2 : (|eta| * s) ^ 2 = eta ^ 2 * (2 - 2 * c) := by rw [mul_pow, sq_abs, hs]
    have h3 : (|eta| * s + 2 * (1 / 2 ^ 20)) ^ 2 = (|eta| * s) ^ 2 + 4 / 2 ^ 20 * (|eta| * s) + 4 / 2 ^ 40 := by ring
    rw [h3, h2]
    norm_num at *
    linarith
  have hgp : g ^ 2 * p' ^ 2 ≤ m ^ 2 * (m ^ 2 * (eta ^ 2 * (2 - 2 * c) + 1 / 2 ^ 20)) := by
    have h1 : g * p' ≤ m * (m * (|eta| * s + 2 * (1 / 2 ^ 20))) := by
      have := mul_le_mul_of_nonneg_right hE hp'0.le
      calc g * p' ≤ _ := this
        _ = m * ((K * p') * (|eta| * s + 2 * (1 / 2 ^ 20))) := by ring
        _ = _ := by rw [← hR]
    have h2 := pow_le_pow_left₀ (by positivity) h1 2
    rw [mul_pow, mul_pow, mul_pow] at h2
    refine h2.trans ?_
    have := mul_le_mul_of_nonneg_left hB (by positivity : 0 ≤ m ^ 2 * m ^ 2)
    linarith
  have hm : 0 < m ^ 2 := by norm_num at *; linarith
  have he2 : eta ^ 2 ≤ 0.003477 * (1 + eta) := by nlinarith
  have h1e : 0 < 1 + eta := by norm_num at *; linarith
  -- divide by `m²`
  obtain ⟨G, hG⟩ : ∃ G, G = g ^ 2 / m ^ 2 := ⟨_, rfl⟩
  have hG0 : 0 ≤ G := by rw [hG]; positivity
  have hgG : g ^ 2 = m ^ 2 * G := by rw [hG, mul_div_cancel₀ _ hm.ne']
  have hd2 : d ^ 2 = (m ^ 2 - 1) ^ 2 + G := by
    have : m ^ 2 * d ^ 2 = m ^ 2 * ((m ^ 2 - 1) ^ 2 + G) := by rw [hpy, hgG]; ring
    exact mul_left_cancel₀ hm.ne' this
  have hGp : G * p' ^ 2 ≤ m ^ 2 * (eta ^ 2 * (2 - 2 * c) + 1 / 2 ^ 20) := by
    rw [hgG, mul_assoc] at hgp
    exact le_of_mul_le_mul_left hgp hm
  have hmm : (m ^ 2 - 1) ^ 2 ≤ 0.00492 := by
    have := pow_le_pow_left₀ (abs_nonneg _) (abs_le.2 ⟨by norm_num at *; linarith, by norm_num at *; linarith⟩ : |m ^ 2 - 1| ≤ 0.0701) 2
    rw [sq_abs] at this
    norm_num at *; linarith
  have hfin : (1 + c) * G * (2 * (1 + eta)) ≤ 1.0702 * ((0.003477 * (2 - 2 * c) + 1 / 2 ^ 19) * (1 + eta)) := by
    calc (1 + c) * G * (2 * (1 + eta)) = ((1 + c) * (2 * (1 + eta))) * G := by ring
      _ ≤ ((1 + 1 / 2 ^ 14) * p' ^ 2) * G := mul_le_mul_of_nonneg_right hcp hG0
      _ = (1 + 1 / 2 ^ 14) * (G * p' ^ 2) := by ring
      _ ≤ (1 + 1 / 2 ^ 14) * (m ^ 2 * (eta ^ 2 * (2 - 2 * c) + 1 / 2 ^ 20)) := mul_le_mul_of_nonneg_left hGp (by norm_num)
      _ = ((1 + 1 / 2 ^ 14) * m ^ 2) * (eta ^ 2 * (2 - 2 * c) + 1 / 2 ^ 20) := by ring
      _ ≤ 1.0702 * ((0.003477 * (2 - 2 * c) + 1 / 2 ^ 19) * (1 + eta)) := by
        refine mul_le_mul (by norm_num at r2 ⊢; linarith) ?_ ?_ (by norm_num)
        · have := mul_le_mul_of_nonneg_right he2 (by linarith : 0 ≤ 2 - 2 * c)
          have h3 : (1 : ℝ) / 2 ^ 20 ≤ 1 / 2 ^ 19 * (1 + eta) := by
            have : (1 / 2 : ℝ) ≤ 1 + eta := by norm_num at eta1 ⊢; linarith
            have := mul_le_mul_of_nonneg_left this (by norm_num : (0 : ℝ) ≤ 1 / 2 ^ 19)
            norm_num at this ⊢; linarith
          linarith
        · have := mul_nonneg (sq_nonneg eta) (by linarith : 0 ≤ 2 - 2 * c)
          have : (0 : ℝ) ≤ 1 / 2 ^ 20 := by norm_num
          linarith
  have hfin2 : (1 + c) * G ≤ 1.0702 * (0.003477 * (1 - c) + 1 / 2 ^ 20) := by
    refine le_of_mul_le_mul_right ?_ (by linarith : 0 < 2 * (1 + eta))
    refine hfin.trans (le_of_eq ?_)
    ring
  rw [hd2, mul_add]
  have := mul_le_mul_of_nonneg_left hmm (by norm_num at *; linarith : 0 ≤ 1 + c)
  clear hpy hgp hGp hfin hB hE hcp hpp
  norm_num at *
  linarith

end Micromath.Geom
