import Verif.Props.RecipWide
import Verif.Props.Quat

/-!
# C122: which arguments `recip` maps to numbers, infinities and NaN, and its accuracy at the ends of its range
-/

set_option exponentiation.threshold 1000

namespace Micromath.Props
open F32 Spec

variable [Cfg]

/-- `1 + s + ... + s^7`. -/
def geo (s : ℚ) : ℚ := 1 + s + s ^ 2 + s ^ 3 + s ^ 4 + s ^ 5 + s ^ 6 + s ^ 7

omit [Cfg] in
theorem geo_mono {a b : ℚ} (ha : 0 ≤ a) (h : a ≤ b) : geo a ≤ geo b := by
  have p : ∀ n : Nat, a ^ n ≤ b ^ n := fun n => pow_le_pow_left₀ ha h n
  unfold geo
  linarith [p 2, p 3, p 4, p 5, p 6, p 7]

omit [Cfg] in
theorem geo_mul (s : ℚ) : (1 - s) * geo s = 1 - s ^ 8 := by unfold geo; ring

/-- `recip` from its seed `v`, whenever `x v` is in `[0, 1.0399]`. -/
theorem recip_core {x v : F32} (hx : x.isFinite = true) (hs : x.sign = false)
    (hv : v = fromBits (0x7EF127EA#32 - x.toBits)) (fv : v.isFinite = true) (sv : v.sign = false)
    (hu : x.val * v.val ≤ 1.0399) (hX : x.val ≤ 2 ^ 127) :
    ∃ w p : ℚ, |w - x.val * v.val| ≤ 1 / 2 ^ 24 ∧ 0 ≤ w ∧ w ≤ 1.04 ∧ |p - geo (1 - w)| ≤ 1.9 / 10 ^ 5 ∧
      0 ≤ p ∧ p ≤ 8.1 ∧
      (v.val * p < ovf → x.recip.isFinite = true ∧ 0 ≤ x.val * x.recip.val ∧
        |x.val * x.recip.val - (1 - (1 - w) ^ 8)| ≤ 2.1 / 10 ^ 5) ∧
      (ovf ≤ v.val * p → x.recip = posInf) := by
  have hx0 : 0 ≤ x.val := by rw [val_of_pos hs]; exact mval_nonneg _
  have hv0 : 0 ≤ v.val := by rw [val_of_pos sv]; exact mval_nonneg _
  have hw0 : 0 ≤ x.val * v.val := mul_nonneg hx0 hv0
  norm_num at hu
  obtain ⟨d, hd, fw, vw⟩ := mul_err hx fv 1 (by norm_num) (by norm_num) (by
    rw [abs_of_nonneg hw0]; norm_num; linarith)
  have hd2 : |d| ≤ 1 / 2 ^ 24 := hd.trans (by norm_num)
  have hdl := abs_le.1 hd2
  norm_num at hdl
  have sw : (x * v).sign = false := by rw [sign_mul_finite hx fv, hs, sv]; rfl
  have wl : 0 ≤ (x * v).val := by rw [val_of_pos sw]; exact mval_nonneg _
  have wu : (x * v).val ≤ 1.04 := by rw [vw]; norm_num; linarith [hdl.2]
  obtain ⟨fp, hp⟩ := recipPoly_wide fw wl wu
  have hp' : |(recipPoly (x * v)).val - geo (1 - (x * v).val)| ≤ 1.9 / 10 ^ 5 := hp
  have hpl := abs_le.1 hp'
  norm_num at hpl wu
  have sl : -(1 / 25) ≤ 1 - (x * v).val := by linarith
  have su : 1 - (x * v).val ≤ 1 := by linarith
  have g1 : 7 / 10 ≤ geo (1 - (x * v).val) ∧ geo (1 - (x * v).val) ≤ 8 := by
    generalize 1 - (x * v).val = s at *
    have pw : ∀ n : Nat, -(1 / 25) ≤ s ^ (n + 1) ∧ s ^ (n + 1) ≤ 1 := fun n => by
      rcases le_total 0 s with h0 | h0
      · exact ⟨le_trans (by norm_num) (pow_nonneg h0 _), pow_le_one₀ h0 su⟩
      · have h1 : |s| ≤ 1 / 25 := abs_le.2 ⟨sl, by linarith⟩
        have h2 : |s ^ (n + 1)| ≤ 1 / 25 := by
          rw [abs_pow, pow_succ]
          calc |s| ^ n * |s| ≤ 1 * (1 / 25) :=
                mul_le_mul (pow_le_one₀ (abs_nonneg _) (by linarith)) h1 (abs_nonneg _) (by norm_num)
            _ = _ := by norm_num
        have h3 := abs_le.1 h2
        exact ⟨h3.1, by linarith [h3.2]⟩
    unfold geo
    have a2 : -(1 / 25) ≤ s ^ 2 ∧ s ^ 2 ≤ 1 := pw 1
    have a3 : -(1 / 25) ≤ s ^ 3 ∧ s ^ 3 ≤ 1 := pw 2
    have a4 : -(1 / 25) ≤ s ^ 4 ∧ s ^ 4 ≤ 1 := pw 3
    have a5 : -(1 / 25) ≤ s ^ 5 ∧ s ^ 5 ≤ 1 := pw 4
    have a6 : -(1 / 25) ≤ s ^ 6 ∧ s ^ 6 ≤ 1 := pw 5
    have a7 : -(1 / 25) ≤ s ^ 7 ∧ s ^ 7 ≤ 1 := pw 6
    constructor <;> linarith [a2.1, a3.1, a4.1, a5.1, a6.1, a7.1, a2.2, a3.2, a4.2, a5.2, a6.2, a7.2]
  have pl : 0 < (recipPoly (x * v)).val := by linarith [hpl.1, g1.1]
  have pu : (recipPoly (x * v)).val ≤ 81 / 10 := by linarith [hpl.2, g1.2]
  have sp := val_pos_sign pl
  have er : x.recip = (v * recipPoly (x * v)) * one := by rw [recip_pos_eq (not_nan_of_finite hx) hs, ← hv]
  have vp0 : 0 ≤ v.val * (recipPoly (x * v)).val := mul_nonneg hv0 pl.le
  refine ⟨(x * v).val, (recipPoly (x * v)).val, ?_, wl, by norm_num; exact wu, hp', pl.le, by norm_num; exact pu, ?_, ?_⟩
  · rw [vw, add_sub_cancel_left]; exact hd2
  · intro ho
    obtain ⟨fr, hr⟩ := mul_err_uf fv fp (by rw [abs_of_nonneg vp0]; exact ho)
    rw [abs_of_nonneg vp0] at hr
    rw [er, mul_one_fin fr]
    have sr : (v * recipPoly (x * v)).sign = false := by rw [sign_mul_finite fv fp, sv, sp]; rfl
    refine ⟨fr, mul_nonneg hx0 (by rw [val_of_pos sr]; exact mval_nonneg _), ?_⟩
    have key := geo_mul (1 - (x * v).val)
    rw [show 1 - (1 - (x * v).val) = (x * v).val by ring] at key
    have h1 : |x.val * (v * recipPoly (x * v)).val - x.val * (v.val * (recipPoly (x * v)).val)| ≤
        x.val * (v.val * (recipPoly (x * v)).val / 2 ^ 24 + 1 / 2 ^ 150) := by
      rw [← mul_sub, abs_mul, abs_of_nonneg hx0]
      exact mul_le_mul_of_nonneg_left hr hx0
    have h2 : x.val * (v.val * (recipPoly (x * v)).val / 2 ^ 24 + 1 / 2 ^ 150) ≤
        (10399 / 10000 * (81 / 10)) / 2 ^ 24 + 1 / 2 ^ 23 := by
      have a1 : x.val * v.val * (recipPoly (x * v)).val ≤ 10399 / 10000 * (81 / 10) :=
        mul_le_mul hu pu pl.le (by norm_num)
      calc x.val * (v.val * (recipPoly (x * v)).val / 2 ^ 24 + 1 / 2 ^ 150)
          = x.val * v.val * (recipPoly (x * v)).val / 2 ^ 24 + x.val / 2 ^ 150 := by ring
        _ ≤ (10399 / 10000 * (81 / 10)) / 2 ^ 24 + 2 ^ 127 / 2 ^ 150 := by gcongr
        _ = _ := by norm_num
    have h3 : x.val * (v.val * (recipPoly (x * v)).val) = (x * v).val * (recipPoly (x * v)).val
        - d * (recipPoly (x * v)).val := by rw [vw]; ring
    have h4 : |d * (recipPoly (x * v)).val| ≤ 1 / 2 ^ 24 * (81 / 10) :=
      abs_mul_le_of hd2 (by rw [abs_of_pos pl]; exact pu)
    have h5 : |(x * v).val * ((recipPoly (x * v)).val - geo (1 - (x * v).val))| ≤ 26 / 25 * (1.9 / 10 ^ 5) :=
      abs_mul_le_of (by rw [abs_of_nonneg wl]; exact wu) hp'
    rw [mul_sub, key] at h5
    rw [h3] at h1
    have h1' := abs_le.1 (h1.trans h2)
    have h4' := abs_le.1 h4
    have h5' := abs_le.1 h5
    rw [abs_le]
    norm_num at h1' h4' h5' ⊢
    constructor <;> linarith [h1'.1, h1'.2, h4'.1, h4'.2, h5'.1, h5'.2]
  · intro ho
    rw [er, mul_ovf fv fp (by rw [abs_of_nonneg vp0]; exact ho), sv, sp, mul_one_nn (by decide)]
    decide

/-- The 64 arguments around the boundary between infinite and finite results. -/
theorem recip_window : (List.range 64).all (fun i => (F32.recip ⟨BitVec.ofNat 32 (2063236 + i)⟩).isFinite ==
    decide (32 ≤ i)) = true := by kernel_rfl

omit [Cfg] in
theorem recip_seed_mag {x : F32} (hs : x.sign = false) (h : x.mag ≤ 0x7EF127EA) :
    (fromBits (0x7EF127EA#32 - x.toBits)).bits.toNat = 0x7EF127EA - x.mag := by
  have hb : x.bits.toNat = x.mag := by rw [toNat_eq, hs]; simp
  have h0 : (0x7EF127EA#32).toNat = 0x7EF127EA := by decide
  show (0x7EF127EA#32 - x.bits).toNat = _
  rw [BitVec.toNat_sub, h0, hb]
  omega

/-- Subnormal positive arguments. -/
theorem recip_sub {x : F32} (hs : x.sign = false) (h0 : 0 < x.mag) (h : x.mag < 2 ^ 23) :
    (x.mag ≤ 2063267 → x.recip = posInf) ∧
    (2063268 ≤ x.mag → x.recip.isFinite = true ∧ 0 ≤ x.val * x.recip.val ∧
      -0.0162 ≤ x.val * x.recip.val - 1 ∧ x.val * x.recip.val - 1 ≤ 2.1 / 10 ^ 5 ∧
      (2 ^ 22 ≤ x.mag → -(1.1 / 10 ^ 4) ≤ x.val * x.recip.val - 1)) := by
  have fx : x.isFinite = true := by rw [isFinite_iff]; have : infMag = 255 * 2 ^ 23 := by decide
                                    omega
  have hxv : x.val = x.mag / 2 ^ 149 := by
    rw [val_of_pos hs, mval, magU_eq_iff_split (k := 0) (r := x.mag) (by omega) (.inl rfl) (by omega)]
    norm_num
  have hbv := recip_seed_mag hs (by omega)
  obtain ⟨v, hv⟩ : ∃ v, v = fromBits (0x7EF127EA#32 - x.toBits) := ⟨_, rfl⟩
  rw [← hv] at hbv
  obtain ⟨m, hm⟩ : ∃ m, x.mag = m := ⟨_, rfl⟩
  rw [hm] at h0 h hxv hbv ⊢
  have m0 : (0 : ℚ) < m := by exact_mod_cast h0
  have m1 : (m : ℚ) < 8388608 := by exact_mod_cast h
  -- the seed
  obtain ⟨c, hc⟩ : ∃ c : ℚ, v.isFinite = true ∧ v.sign = false ∧ v.val = c * 2 ^ 103 ∧
      ((m ≤ 7415786 ∧ c = 15804394 - m) ∨ (7415786 < m ∧ c = (24193002 - m) / 2)) := by
    rcases Nat.lt_or_ge 7415786 m with hk | hk
    · obtain ⟨⟨h1, h1'⟩, h2⟩ := val_of_bits (y := v) (E := 252) (F := 2 ^ 23 + 7415786 - m) (by omega) (by omega)
        (by omega) (by rw [hbv]; omega)
      refine ⟨(24193002 - m) / 2, h1, val_pos_sign (lt_of_lt_of_le (by positivity) h1'), ?_, .inr ⟨hk, rfl⟩⟩
      rw [h2, Nat.cast_sub (by omega)]; push_cast; ring
    · obtain ⟨⟨h1, h1'⟩, h2⟩ := val_of_bits (y := v) (E := 253) (F := 7415786 - m) (by omega) (by omega)
        (by omega) (by rw [hbv]; omega)
      refine ⟨15804394 - m, h1, val_pos_sign (lt_of_lt_of_le (by positivity) h1'), ?_, .inl ⟨hk, rfl⟩⟩
      rw [h2, Nat.cast_sub hk]; push_cast; ring
  obtain ⟨fv, sv, vv, hcase⟩ := hc
  have hw : x.val * v.val = m * c / 2 ^ 46 := by rw [hxv, vv]; ring
  have wu : x.val * v.val ≤ 0.95 := by
    rw [hw, div_le_iff₀ (by norm_num)]
    rcases hcase with ⟨hk, rfl⟩ | ⟨hk, rfl⟩
    · norm_num; nlinarith [sq_nonneg ((m : ℚ) - 7902197)]
    · norm_num; nlinarith [mul_nonneg (sub_nonneg.2 m1.le) (show (0 : ℚ) ≤ 15804394 - m by linarith)]
  obtain ⟨w, p, hwd, w0, w1, hp, p0, p1, hfin, hinf⟩ := recip_core fx hs hv fv sv (wu.trans (by norm_num)) (by
    rw [hxv, div_le_iff₀ (by norm_num)]; norm_num; linarith)
  have hwd' := abs_le.1 hwd
  have hp' := abs_le.1 hp
  norm_num at hwd' hp' wu w1 p1
  have su : 0 ≤ 1 - w := by linarith [hwd'.2]
  have win : 2063236 ≤ m → m < 2063300 → x.recip.isFinite = decide (2063268 ≤ m) := by
    intro a b
    have e : x = ⟨BitVec.ofNat 32 (2063236 + (m - 2063236))⟩ := by
      refine ext_mag_sign ?_ ?_
      · rw [hm, mag]; simp only [BitVec.toNat_ofNat]; omega
      · rw [hs, sign]; simp only [BitVec.toNat_ofNat]; symm; simp; omega
    have := List.all_eq_true.1 recip_window (m - 2063236) (List.mem_range.2 (by omega))
    rw [beq_iff_eq, ← e] at this
    rw [this, decide_eq_decide]; omega
  have big : m ≤ 2063235 → ovf ≤ v.val * p := by
    intro hk
    have hkq : (m : ℚ) ≤ 2063235 := by exact_mod_cast hk
    rcases hcase with ⟨hk', rfl⟩ | ⟨hk', rfl⟩
    swap
    · omega
    have wle : w ≤ 0.4028955 := by
      have : x.val * v.val ≤ 2063235 * (15804394 - 2063235) / 2 ^ 46 := by
        rw [hw, div_le_div_iff_of_pos_right (by norm_num)]
        nlinarith
      norm_num at this ⊢; linarith [hwd'.2]
    norm_num at wle
    have g := geo_mono (a := 1 - 0.4028955) (b := 1 - w) (by norm_num) (by norm_num; linarith)
    have g' : 2.441926 ≤ geo (1 - 0.4028955) := by unfold geo; norm_num
    norm_num at g g'
    have pl : 2.441906 ≤ p := by norm_num; linarith [hp'.1]
    have : (13741159 * 2 ^ 103 : ℚ) * 2.441906 ≤ v.val * p :=
      mul_le_mul (by rw [vv]; norm_num; linarith) pl (by norm_num) (by rw [vv]; norm_num; linarith)
    refine le_trans ?_ this
    rw [ovf]; norm_num
  have small : 2063300 ≤ m → v.val * p < ovf := by
    intro hk
    have hkq : (2063300 : ℚ) ≤ m := by exact_mod_cast hk
    have wge : 0.402906 ≤ w ∧ v.val ≤ 13741094 * 2 ^ 103 := by
      have : 2063300 * (15804394 - 2063300) / 2 ^ 46 ≤ x.val * v.val ∧ v.val ≤ 13741094 * 2 ^ 103 := by
        rw [hw, vv, div_le_div_iff_of_pos_right (by norm_num)]
        rcases hcase with ⟨hk', rfl⟩ | ⟨hk', rfl⟩
        · have : (m : ℚ) ≤ 7415786 := by exact_mod_cast hk'
          constructor
          · nlinarith
          · gcongr; linarith
        · have : (7415786 : ℚ) < m := by exact_mod_cast hk'
          constructor
          · nlinarith
          · gcongr; linarith
      norm_num at this ⊢
      exact ⟨by linarith [hwd'.1], this.2⟩
    obtain ⟨wge, vle⟩ := wge
    norm_num at wge
    have g := geo_mono (a := 1 - w) (b := 1 - 0.402906) su (by norm_num; linarith)
    have g' : geo (1 - 0.402906) ≤ 2.44187 := by unfold geo; norm_num
    norm_num at g g'
    have pu : p ≤ 2.44189 := by norm_num; linarith [hp'.2]
    have : v.val * p ≤ (13741094 * 2 ^ 103 : ℚ) * 2.44189 :=
      mul_le_mul vle pu p0 (by norm_num)
    refine lt_of_le_of_lt this ?_
    rw [ovf]; norm_num
  constructor
  · intro hk
    rcases Nat.lt_or_ge m 2063236 with a | a
    · exact hinf (big (by omega))
    · refine hinf (not_lt.1 fun ho => ?_)
      rw [win a (by omega)] at hfin
      have := (hfin ho).1
      simp at this; omega
  · intro hk
    have ho : v.val * p < ovf := by
      rcases Nat.lt_or_ge m 2063300 with a | a
      · by_contra hc
        have h1 := hinf (not_lt.1 hc)
        have h2 := win (by omega) a
        rw [h1] at h2
        have : posInf.isFinite = false := by decide
        rw [this] at h2; simp at h2; omega
      · exact small a
    obtain ⟨f1, f2, f3⟩ := hfin ho
    have hkq : (2063268 : ℚ) ≤ m := by exact_mod_cast hk
    have f3' := abs_le.1 f3
    norm_num at f3'
    have wge : 0.4029 ≤ w := by
      have : 2063268 * (15804394 - 2063268) / 2 ^ 46 ≤ x.val * v.val := by
        rw [hw, div_le_div_iff_of_pos_right (by norm_num)]
        rcases hcase with ⟨hk', rfl⟩ | ⟨hk', rfl⟩
        · have : (m : ℚ) ≤ 7415786 := by exact_mod_cast hk'
          nlinarith
        · have : (7415786 : ℚ) < m := by exact_mod_cast hk'
          nlinarith
      norm_num at this ⊢; linarith [hwd'.1]
    norm_num at wge
    have e8 : (1 - w) ^ 8 ≤ (1 - 0.4029) ^ 8 := pow_le_pow_left₀ su (by norm_num; linarith) 8
    have e80 : 0 ≤ (1 - w) ^ 8 := pow_nonneg su 8
    norm_num at e8
    refine ⟨f1, f2, by norm_num; linarith [f3'.1], by norm_num; linarith [f3'.2], fun hh => ?_⟩
    have hhq : (4194304 : ℚ) ≤ m := by exact_mod_cast hh
    have wge : 0.691 ≤ w := by
      have : 4194304 * (15804394 - 4194304) / 2 ^ 46 ≤ x.val * v.val := by
        rw [hw, div_le_div_iff_of_pos_right (by norm_num)]
        rcases hcase with ⟨hk', rfl⟩ | ⟨hk', rfl⟩
        · have : (m : ℚ) ≤ 7415786 := by exact_mod_cast hk'
          nlinarith
        · have : (7415786 : ℚ) < m := by exact_mod_cast hk'
          nlinarith
      norm_num at this ⊢; linarith [hwd'.1]
    norm_num at wge
    have e8 : (1 - w) ^ 8 ≤ (1 - 0.691) ^ 8 := pow_le_pow_left₀ su (by norm_num; linarith) 8
    norm_num at e8 ⊢
    linarith [f3'.1]

/-- Positive arguments from `2^125` to the end of the range of the seed. -/
theorem recip_top {x : F32} (hs : x.sign = false) (h : 252 * 2 ^ 23 ≤ x.mag) (h' : x.mag ≤ 0x7EF127EA) :
    x.recip.isFinite = true ∧ 0 ≤ x.val * x.recip.val ∧ x.val * x.recip.val - 1 ≤ 2.1 / 10 ^ 5 ∧
    (x.mag ≤ 253 * 2 ^ 23 + 2 ^ 21 → -(2.5 / 10 ^ 5) ≤ x.val * x.recip.val - 1) := by
  have fx : x.isFinite = true := by rw [isFinite_iff]; have : infMag = 255 * 2 ^ 23 := by decide
                                    omega
  have hbv := recip_seed_mag hs h'
  obtain ⟨v, hv⟩ : ∃ v, v = fromBits (0x7EF127EA#32 - x.toBits) := ⟨_, rfl⟩
  rw [← hv] at hbv
  have mv : v.mag = 0x7EF127EA - x.mag := by rw [mag, hbv]; omega
  have sv : v.sign = false := by rw [sign, hbv]; simp; omega
  have fv : v.isFinite = true := by rw [isFinite_iff, mv]; have : infMag = 255 * 2 ^ 23 := by decide
                                    omega
  have vv : v.val = ((0x7EF127EA - x.mag : Nat) : ℚ) / 2 ^ 149 := by
    rw [val_of_pos sv, mv, mval, magU_eq_iff_split (k := 0) (r := 0x7EF127EA - x.mag) (by omega) (.inl rfl) (by omega)]
    norm_num
  obtain ⟨t, a, t0, t1, hxv, hvv, ha⟩ : ∃ t a : ℚ, 0 ≤ t ∧ t ≤ 1 ∧ x.val = (1 + t) * a ∧ v.val = v.val ∧
      ((a = 2 ^ 125 ∧ v.val = (1 + 7415786 / 2 ^ 23 - t) / 2 ^ 126 ∧ t ≤ 1) ∨
       (a = 2 ^ 126 ∧ v.val = (7415786 / 2 ^ 23 - t) / 2 ^ 126 ∧ t ≤ 7415786 / 2 ^ 23 ∧
         (x.mag ≤ 253 * 2 ^ 23 + 2 ^ 21 → t ≤ 1 / 4))) := by
    rcases Nat.lt_or_ge x.mag (253 * 2 ^ 23) with hk | hk
    · obtain ⟨f, hf⟩ : ∃ f, x.mag = 252 * 2 ^ 23 + f := ⟨x.mag - 252 * 2 ^ 23, by omega⟩
      have hf1 : (f : ℚ) / 2 ^ 23 ≤ 1 := by
        rw [div_le_one (by positivity)]; exact_mod_cast (show f ≤ 2 ^ 23 by omega)
      refine ⟨f / 2 ^ 23, 2 ^ 125, by positivity, hf1, ?_, rfl, .inl ⟨rfl, ?_, hf1⟩⟩
      · rw [val_of_pos hs, mval, magU_eq_iff_split (k := 251) (r := 2 ^ 23 + f) (by omega) (.inr (by omega)) (by omega)]
        push_cast; ring
      · rw [vv, Nat.cast_sub h', hf]; push_cast; ring
    · obtain ⟨f, hf⟩ : ∃ f, x.mag = 253 * 2 ^ 23 + f := ⟨x.mag - 253 * 2 ^ 23, by omega⟩
      have hf2 : (f : ℚ) ≤ 7415786 := by exact_mod_cast (show f ≤ 7415786 by omega)
      have hf1 : (f : ℚ) / 2 ^ 23 ≤ 7415786 / 2 ^ 23 := div_le_div_of_nonneg_right hf2 (by positivity)
      refine ⟨f / 2 ^ 23, 2 ^ 126, by positivity, hf1.trans (by norm_num), ?_, rfl, .inr ⟨rfl, ?_, hf1, ?_⟩⟩
      · rw [val_of_pos hs, mval, magU_eq_iff_split (k := 252) (r := 2 ^ 23 + f) (by omega) (.inr (by omega)) (by omega)]
        push_cast; ring
      · rw [vv, Nat.cast_sub h', hf]; push_cast; ring
      · intro hh
        have : (f : ℚ) ≤ 2 ^ 21 := by exact_mod_cast (show f ≤ 2 ^ 21 by omega)
        rw [div_le_iff₀ (by norm_num)]; norm_num at this ⊢; linarith
  have hw : (x.val * v.val = (1 + t) * (1 + 7415786 / 2 ^ 23 - t) / 2 ∧ t ≤ 1) ∨
      (x.val * v.val = (1 + t) * (7415786 / 2 ^ 23 - t) ∧ t ≤ 7415786 / 2 ^ 23 ∧
        (x.mag ≤ 253 * 2 ^ 23 + 2 ^ 21 → t ≤ 1 / 4)) := by
    rcases ha with ⟨rfl, b, c⟩ | ⟨rfl, b, c⟩
    · left; refine ⟨?_, c⟩; rw [hxv, b]; ring
    · right; refine ⟨?_, c⟩; rw [hxv, b]; ring
  have wu : x.val * v.val ≤ 1.0399 := by
    rcases hw with ⟨b, c⟩ | ⟨b, c, -⟩
    · rw [b]; norm_num; nlinarith [sq_nonneg (t - 7415786 / 2 ^ 24)]
    · rw [b]; norm_num at c ⊢; nlinarith
  have hX : x.val ≤ 2 ^ 127 := by
    rw [hxv]
    rcases ha with ⟨rfl, -⟩ | ⟨rfl, -⟩
    · calc (1 + t) * 2 ^ 125 ≤ 2 * 2 ^ 125 := by gcongr; linarith
        _ ≤ _ := by norm_num
    · calc (1 + t) * 2 ^ 126 ≤ 2 * 2 ^ 126 := by gcongr; linarith
        _ ≤ _ := by norm_num
  obtain ⟨w, p, hwd, w0, w1, hp, p0, p1, hfin, -⟩ := recip_core fx hs hv fv sv wu hX
  have hwd' := abs_le.1 hwd
  norm_num at hwd' w1 p1
  have vle : v.val ≤ 1 / 2 ^ 125 := by
    rcases ha with ⟨rfl, b, -⟩ | ⟨rfl, b, -⟩ <;> rw [b] <;> norm_num <;> linarith
  have ho : v.val * p < ovf := by
    have : v.val * p ≤ 1 / 2 ^ 125 * (81 / 10) := mul_le_mul vle p1 p0 (by norm_num)
    refine lt_of_le_of_lt this ?_
    rw [ovf]; norm_num
  obtain ⟨f1, f2, f3⟩ := hfin ho
  have f3' := abs_le.1 f3
  have e80 : 0 ≤ (1 - w) ^ 8 := (by decide : Even 8).pow_nonneg _
  norm_num at f3'
  refine ⟨f1, f2, by norm_num; linarith [f3'.2], fun hh => ?_⟩
  have wl : 0.79 ≤ x.val * v.val := by
    rcases hw with ⟨b, c⟩ | ⟨b, -, c⟩
    · rw [b]; norm_num; nlinarith [mul_nonneg t0 (sub_nonneg.2 c)]
    · have := c hh
      rw [b]; norm_num; nlinarith [mul_nonneg t0 (sub_nonneg.2 this)]
  norm_num at wl wu
  have e8 : |1 - w| ^ 8 ≤ 0.2101 ^ 8 := pow_le_pow_left₀ (abs_nonneg _) (by
    rw [abs_le]; norm_num; constructor <;> linarith [hwd'.1, hwd'.2]) 8
  rw [(by decide : Even 8).pow_abs] at e8
  norm_num at e8 ⊢
  linarith [f3'.1]

omit [Cfg] in
theorem mval_recip_lo : mval 2063267 = 2063267 / 2 ^ 149 := by
  rw [mval, show magU 2063267 = 2063267 by decide +kernel]; norm_num

omit [Cfg] in
theorem mval_recip_hi : mval 0x7EF127EA = 15804394 * 2 ^ 103 := by
  rw [mval, show magU 0x7EF127EA = 15804394 * 2 ^ 252 by decide +kernel]; norm_num

omit [Cfg] in
theorem mval_recip_top : mval 0x7f7127ea = 15804394 * 2 ^ 104 := by
  rw [mval, show magU 0x7f7127ea = 15804394 * 2 ^ 253 by decide +kernel]; norm_num

/-- `recip` is finite, and how accurate, on the positive part of its range. -/
theorem recip_finite_pos {x : F32} (hs : x.sign = false) (h : 2063267 < x.mag) (h' : x.mag ≤ 0x7EF127EA) :
    x.recip.isFinite = true ∧ 0 ≤ x.val * x.recip.val ∧ x.val * x.recip.val - 1 ≤ 2.1 / 10 ^ 5 ∧
    (x.val ≤ 5 * 2 ^ 124 → -0.0162 ≤ x.val * x.recip.val - 1 ∧
      (1 / 2 ^ 127 ≤ x.val → -(1.1 / 10 ^ 4) ≤ x.val * x.recip.val - 1) ∧
      (1 / 2 ^ 126 ≤ x.val → -(2.5 / 10 ^ 5) ≤ x.val * x.recip.val - 1)) := by
  have fx : x.isFinite = true := by rw [isFinite_iff]; have : infMag = 255 * 2 ^ 23 := by decide
                                    omega
  have hxm := val_of_pos hs
  rcases Nat.lt_or_ge x.mag (2 ^ 23) with c | c
  · obtain ⟨a1, a2, a3, a4, a5⟩ := (recip_sub hs (by omega) c).2 (by omega)
    refine ⟨a1, a2, a4, fun _ => ⟨a3, fun hh => a5 ?_, fun hh => absurd hh ?_⟩⟩
    · rw [hxm, show (1 / 2 ^ 127 : ℚ) = mval (2 ^ 22) by
        rw [mval, show magU (2 ^ 22) = 2 ^ 22 by decide +kernel]; norm_num, mval_le] at hh
      exact hh
    · rw [hxm, show (1 / 2 ^ 126 : ℚ) = mval (2 ^ 23) by
        rw [mval, show magU (2 ^ 23) = 2 ^ 23 by decide +kernel]; norm_num, mval_le]
      omega
  · rcases Nat.lt_or_ge x.mag (252 * 2 ^ 23) with c' | c'
    · have l1 : 1 / 2 ^ 126 ≤ x.val := by
        rw [hxm, show (1 / 2 ^ 126 : ℚ) = mval (2 ^ 23) by
          rw [mval, show magU (2 ^ 23) = 2 ^ 23 by decide +kernel]; norm_num, mval_le]
        exact c
      have l2 : x.val ≤ 2 ^ 125 := by
        rw [hxm, show (2 ^ 125 : ℚ) = mval (252 * 2 ^ 23) by rw [mval_pow (by norm_num)]; norm_num, mval_le]
        exact c'.le
      have l0 : 0 < x.val := lt_of_lt_of_le (by positivity) l1
      obtain ⟨a1, a2, -⟩ := C21_recip x fx (by rw [abs_of_pos l0]; exact l1) (by rw [abs_of_pos l0]; exact l2)
      have a3 := abs_le.1 a2
      norm_num at a3 ⊢
      exact ⟨a1, by linarith [a3.1], by linarith [a3.2], fun _ => ⟨by linarith [a3.1], fun _ => by linarith [a3.1],
        fun _ => by linarith [a3.1]⟩⟩
    · obtain ⟨a1, a2, a3, a4⟩ := recip_top hs c' h'
      refine ⟨a1, a2, a3, fun hh => ?_⟩
      have a5 := a4 (by
        rw [hxm, show (5 * 2 ^ 124 : ℚ) = mval (253 * 2 ^ 23 + 2 ^ 21) by
          rw [mval, show magU (253 * 2 ^ 23 + 2 ^ 21) = 5 * 2 ^ 273 by decide +kernel]; norm_num, mval_le] at hh
        exact hh)
      norm_num at a5 ⊢
      exact ⟨by linarith, fun _ => by linarith, fun _ => by linarith⟩

/-- **C122, which arguments of `recip` give numbers**: the result is NaN exactly for NaN and for
`15804394 * 2^103 < |x| < 15804394 * 2^104`; infinite exactly for `|x| ≤ 2063267 * 2^-149` (zero and the smallest
subnormal numbers) and for `|x| ≥ 15804394 * 2^104`; finite exactly for the arguments in between. -/
theorem C122_recip_class (x : F32) :
    (x.recip.isNaN = true ↔
      x.isNaN = true ∨ (15804394 * 2 ^ 103 < |x.val| ∧ |x.val| < 15804394 * 2 ^ 104)) ∧
    (x.recip.isInf = true ↔
      x.isNaN = false ∧ (|x.val| ≤ 2063267 / 2 ^ 149 ∨ 15804394 * 2 ^ 104 ≤ |x.val|)) ∧
    (x.recip.isFinite = true ↔
      x.isNaN = false ∧ 2063267 / 2 ^ 149 < |x.val| ∧ |x.val| ≤ 15804394 * 2 ^ 103) := by
  have excl : ∀ r : F32, (r.isNaN = true → r.isInf = false ∧ r.isFinite = false) ∧
      (r.isInf = true → r.isNaN = false ∧ r.isFinite = false) ∧
      (r.isFinite = true → r.isNaN = false ∧ r.isInf = false) := by
    intro r; simp [isNaN, isInf, isFinite]; omega
  rcases hn : x.isNaN with _ | _
  swap
  · obtain ⟨a, -⟩ := C105_recip_large x
    obtain ⟨b, c⟩ := (excl _).1 (a hn)
    simp [a hn, b, c]
  rw [abs_val, ← mval_recip_lo, ← mval_recip_hi, ← mval_recip_top]
  simp only [mval_lt, mval_le, Bool.false_eq_true, false_or, true_and]
  obtain ⟨-, l1, l2, l3⟩ := C105_recip_large x
  rw [abs_val, ← mval_recip_hi, ← mval_recip_top, mval_lt, mval_lt] at l1
  have odd := C105_recip_odd x hn
  -- the positive number with the same magnitude
  have pos : ∀ y : F32, y.sign = false → y.isNaN = false →
      (y.mag ≤ 2063267 → y.recip.isInf = true) ∧
      (2063267 < y.mag → y.mag ≤ 0x7EF127EA → y.recip.isFinite = true) := by
    intro y sy ny
    refine ⟨fun h => ?_, fun h h' => (recip_finite_pos sy h h').1⟩
    rcases Nat.eq_zero_or_pos y.mag with z | z
    · have : y = posZero := ext_mag_sign (by rw [z]; rfl) (by rw [sy]; rfl)
      rw [this, C21_recip_zero.1]; decide
    · rw [(recip_sub sy z (by omega)).1 h]; decide
  have all : (x.mag ≤ 2063267 → x.recip.isInf = true) ∧
      (2063267 < x.mag → x.mag ≤ 0x7EF127EA → x.recip.isFinite = true) := by
    cases hs : x.sign
    · exact pos x hs hn
    · obtain ⟨p1, p2⟩ := pos (-x) (by rw [F32.sign_neg, hs]; rfl) (by rw [isNaN_neg]; exact hn)
      rw [mag_neg] at p1 p2
      rcases odd with ⟨o1, -⟩ | o
      · constructor
        · intro h; have := ((excl _).1 o1).1; rw [p1 h] at this; cases this
        · intro h h'; have := ((excl _).1 o1).2; rw [p2 h h'] at this; cases this
      · rw [o, isInf_neg] at p1; rw [o, isFinite_neg] at p2; exact ⟨p1, p2⟩
  have top : 0x7f7127ea ≤ x.mag → x.recip.isInf = true := by
    intro h
    have h2 := mval_le.2 h
    rw [mval_recip_top] at h2
    cases hs : x.sign
    · rw [l2 hn (by rw [val_of_pos hs]; exact h2)]; decide
    · rw [l3 hn (by rw [val_of_neg hs]; linarith)]; decide
  rcases Nat.lt_or_ge 2063267 x.mag with c1 | c1
  · rcases Nat.lt_or_ge 0x7EF127EA x.mag with c2 | c2
    · rcases Nat.lt_or_ge x.mag 0x7f7127ea with c3 | c3
      · have r := l1 c2 c3
        obtain ⟨b, c⟩ := (excl _).1 r
        simp only [r, b, c, Bool.false_eq_true, true_iff, false_iff]
        omega
      · have r := top c3
        obtain ⟨b, c⟩ := (excl _).2.1 r
        simp only [r, b, c, Bool.false_eq_true, true_iff, false_iff]
        omega
    · have r := all.2 c1 c2
      obtain ⟨b, c⟩ := (excl _).2.2 r
      simp only [r, b, c, Bool.false_eq_true, true_iff, false_iff]
      omega
  · have r := all.1 c1
    obtain ⟨b, c⟩ := (excl _).2.1 r
    simp only [r, b, c, Bool.false_eq_true, true_iff, false_iff]
    omega

/-- **C122, accuracy of `recip` on the whole set of arguments with a finite result**: `x * recip(x)` is never negative
and never exceeds 1 by more than `2.1e-5`; it is at least `1 - 0.0162` up to `|x| = 5 * 2^124`, at least `1 - 1.1e-4`
from `2^-127` on, and at least `1 - 2.5e-5` from the smallest normal number on. (Beyond `5 * 2^124` it falls to zero.) -/
theorem C122_recip_accuracy (x : F32) (hn : x.isNaN = false) (h : 2063267 / 2 ^ 149 < |x.val|)
    (h' : |x.val| ≤ 15804394 * 2 ^ 103) :
    0 ≤ x.val * x.recip.val ∧ x.val * x.recip.val - 1 ≤ 2.1 / 10 ^ 5 ∧
    (|x.val| ≤ 5 * 2 ^ 124 → -0.0162 ≤ x.val * x.recip.val - 1 ∧
      (1 / 2 ^ 127 ≤ |x.val| → -(1.1 / 10 ^ 4) ≤ x.val * x.recip.val - 1) ∧
      (1 / 2 ^ 126 ≤ |x.val| → -(2.5 / 10 ^ 5) ≤ x.val * x.recip.val - 1)) := by
  rw [abs_val, ← mval_recip_lo, mval_lt] at h
  rw [abs_val, ← mval_recip_hi, mval_le] at h'
  cases hs : x.sign
  · have := (recip_finite_pos hs h h').2
    rw [abs_of_nonneg (by rw [val_of_pos hs]; exact mval_nonneg _)]
    exact this
  · have hs' : (-x).sign = false := by rw [F32.sign_neg, hs]; rfl
    obtain ⟨f, rest⟩ := recip_finite_pos hs' (by rw [mag_neg]; exact h) (by rw [mag_neg]; exact h')
    have ha : |x.val| = (-x).val := by rw [val_neg, val_of_neg hs, neg_neg, abs_neg, abs_of_nonneg (mval_nonneg _)]
    have e : x.val * x.recip.val = (-x).val * (-x).recip.val := by
      rcases C105_recip_odd x hn with ⟨o, -⟩ | o
      · rw [not_nan_of_finite f] at o; cases o
      · rw [o, val_neg, val_neg]; ring
    rw [ha, e]
    exact rest

/-- The boundary is sharp: `recip` of `2063267 * 2^-149` is infinite, of the next number finite. -/
example : (⟨0x001f7ba3#32⟩ : F32).recip = posInf ∧ (⟨0x001f7ba4#32⟩ : F32).recip = ⟨0x7f7ffff7#32⟩ :=
  ⟨eval_eq (by kernel_rfl), eval_eq (by kernel_rfl)⟩

/-- At the upper end the result is zero. -/
example : (⟨0x7ef127ea#32⟩ : F32).recip = posZero := eval_eq (by kernel_rfl)

end Micromath.Props
