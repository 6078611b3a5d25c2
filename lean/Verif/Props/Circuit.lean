import Verif.Model.Circuit
import Mathlib.Tactic.LinearCombination
import Mathlib.Tactic.FieldSimp
import Mathlib.Tactic.Linarith
import Mathlib.Tactic.NormNum
import Mathlib.Tactic.Positivity
import Mathlib.Analysis.SpecialFunctions.Log.Basic

/-!
# Properties C54–C56, C72, C74: stand-alone circuit, PV module, per-unit bases
-/

namespace PvDer
namespace Circuit

open Complex

/-! ### C54 -/

/-- Kirchhoff's laws of the circuit: the inverter current `i` splits at the PCC (voltage `v`) into the load current through `ZL` and `i1` into the transformer;
`i1` flows through `Z1` into an ideal transformer of ratio `a`, the HV current `i2` through `Z2` into the source `vg`. -/
structure Kirchhoff (v vg i : ℂ) (a : ℝ) (Z1 Z2 ZL iL i1 i2 vLV vHV : ℂ) : Prop where
  load : v = ZL * iL
  node : i = iL + i1
  series : v - vLV = Z1 * i1
  ratioV : vHV = a * vLV
  ratioI : a * i2 = i1
  line : vHV - vg = Z2 * i2

/-- C54: for non-zero load, ratio and denominator the computed voltage is the unique PCC voltage for which the circuit equations are solvable. -/
theorem C54_kirchhoff (v vg i : ℂ) (a : ℝ) (Z1 Z2 ZL : ℂ) (ha : a ≠ 0) (hL : ZL ≠ 0) (hd : (a * a : ℂ) * (Z1 + ZL) + Z2 ≠ 0) :
    (∃ iL i1 i2 vLV vHV, Kirchhoff v vg i a Z1 Z2 ZL iL i1 i2 vLV vHV) ↔ v = vStandAlone vg i a Z1 Z2 ZL := by
  have ha' : (a : ℂ) ≠ 0 := ofReal_ne_zero.2 ha
  constructor
  · rintro ⟨iL, i1, i2, vLV, vHV, h1, h2, h3, h4, h5, h6⟩
    unfold vStandAlone
    rw [← mul_div_assoc, eq_div_iff hd]
    have e1 : vLV = (vg + Z2 * i2) / a := by field_simp; linear_combination h6 - h4
    have e2 : i2 = i1 / a := by field_simp; linear_combination h5
    rw [e1, e2] at h3
    field_simp at h3 ⊢
    have h7 : i1 = i - iL := by rw [h2]; ring
    rw [h7] at h3
    linear_combination ZL * h3 + (a ^ 2 * Z1 + Z2) * h1
  · intro hv
    have hvd : v * ((a * a : ℂ) * (Z1 + ZL) + Z2) = ((vg + (i / a) * Z2) / a + i * Z1) * (ZL * a * a) := by
      rw [hv]; unfold vStandAlone; rw [← mul_div_assoc, div_mul_cancel₀ _ hd]
    refine ⟨v / ZL, i - v / ZL, (i - v / ZL) / a, v - Z1 * (i - v / ZL), a * (v - Z1 * (i - v / ZL)), ?_, ?_, ?_, rfl, ?_, ?_⟩
    · field_simp
    · ring
    · ring
    · field_simp
    · field_simp at hvd ⊢
      linear_combination hvd

/-- The denominator cannot vanish for physical impedances: non-negative resistances and a resistive load. -/
theorem C54_denominator (a : ℝ) (Z1 Z2 ZL : ℂ) (ha : a ≠ 0) (h1 : 0 ≤ Z1.re) (h2 : 0 ≤ Z2.re) (hL : 0 < ZL.re) :
    (a * a : ℂ) * (Z1 + ZL) + Z2 ≠ 0 ∧ ZL ≠ 0 := by
  constructor
  · intro h
    have := congrArg Complex.re h
    simp only [add_re, mul_re, ofReal_re, ofReal_im, mul_im, zero_re, mul_zero, zero_mul, sub_zero, add_zero] at this
    have ha2 : 0 < a * a := mul_self_pos.2 ha
    have : 0 < a * a * (Z1.re + ZL.re) := mul_pos ha2 (by linarith)
    linarith
  · rintro rfl; simp at hL

/-- The other phases of a single-phase model are those of the same circuit without inverter current. -/
theorem C54_single_phase_other (vg : ℂ) (a : ℝ) (Z1 Z2 ZL : ℂ) : vOther1ph vg a Z1 Z2 ZL = vStandAlone vg 0 a Z1 Z2 ZL := by
  unfold vOther1ph vStandAlone; simp

/-- In co-simulation mode the externally supplied voltage is used unchanged. -/
theorem C54_external (ext vg i : ℂ) (a : ℝ) (Z1 Z2 ZL : ℂ) : vaCalc false ext vg i a Z1 Z2 ZL = ext := rfl

example : ∃ v : ℂ, v = vStandAlone 40 1 40 ⟨1/100, 1/10⟩ ⟨1, 5⟩ 10 ∧ ((40:ℝ) * (40:ℝ) : ℂ) * (⟨1/100, 1/10⟩ + 10) + ⟨1, 5⟩ ≠ 0 :=
  ⟨_, rfl, (C54_denominator 40 _ _ _ (by norm_num) (by norm_num) (by norm_num) (by norm_num)).1⟩

/-! ### C55 -/

/-- C55: for every solution of the circuit equations the inverter power at the PCC equals load power plus series losses plus power into the source; in
the tool's sign convention `S_load1` and `S_G` are the negatives of the absorbed powers. -/
theorem C55_power_balance (v vg i : ℂ) (a : ℝ) (Z1 Z2 ZL : ℂ) (ha : a ≠ 0) (hL : ZL ≠ 0) (hd : (a * a : ℂ) * (Z1 + ZL) + Z2 ≠ 0)
    (hv : v = vStandAlone vg i a Z1 Z2 ZL) :
    let i1 := i - v / ZL
    sPCC v i = -sLoad v ZL + -sG v i vg ZL a + (1 / 2) * (Z1 * (‖i1‖ ^ 2 : ℝ) + Z2 * (‖i1 / a‖ ^ 2 : ℝ)) := by
  intro i1
  have ha' : (a : ℂ) ≠ 0 := ofReal_ne_zero.2 ha
  obtain ⟨iL, j1, i2, vLV, vHV, h1, h2, h3, h4, h5, h6⟩ := (C54_kirchhoff v vg i a Z1 Z2 ZL ha hL hd).2 hv
  have hiL : iL = v / ZL := by rw [h1]; field_simp
  have hi1 : j1 = i1 := by simp only [i1]; rw [h2, hiL]; ring
  have hi2 : i2 = i1 / a := by rw [← hi1, ← h5]; field_simp
  have n1 : ((‖i1‖ ^ 2 : ℝ) : ℂ) = i1 * (starRingEnd ℂ) i1 := by rw [mul_conj, normSq_eq_norm_sq]
  have n2 : ((‖i1 / a‖ ^ 2 : ℝ) : ℂ) = (i1 / a) * (starRingEnd ℂ) (i1 / a) := by rw [mul_conj, normSq_eq_norm_sq]
  rw [n1, n2]
  unfold sPCC sLoad sG
  have e : -(i - v / ZL) / (a : ℂ) = -(i1 / a) := by simp only [i1]; ring
  rw [e]
  have hvi : v = (vg + Z2 * (i1 / a)) / a + Z1 * i1 := by
    have : vLV = (vg + Z2 * i2) / a := by field_simp; linear_combination h6 - h4
    rw [← hi2, ← this, ← hi1]; linear_combination h3
  have hci : (starRingEnd ℂ) i = (starRingEnd ℂ) i1 + (starRingEnd ℂ) (v / ZL) := by rw [← map_add]; congr 1; simp only [i1]; ring
  rw [hci]
  simp only [map_neg]
  have hca : (starRingEnd ℂ) (i1 / a) = (starRingEnd ℂ) i1 / a := by rw [map_div₀, conj_ofReal]
  rw [hca]
  generalize (starRingEnd ℂ) i1 = x
  generalize (starRingEnd ℂ) (v / ZL) = y
  linear_combination (x / 2) * hvi

/-- C55, real part: with non-negative resistances the losses are non-negative, so the active power from the inverter is at least what load and source absorb. -/
theorem C55_losses_nonneg (v vg i : ℂ) (a : ℝ) (Z1 Z2 ZL : ℂ) (ha : a ≠ 0) (h1 : 0 ≤ Z1.re) (h2 : 0 ≤ Z2.re) (hL : 0 < ZL.re)
    (hv : v = vStandAlone vg i a Z1 Z2 ZL) :
    -(sLoad v ZL).re + -(sG v i vg ZL a).re ≤ (sPCC v i).re ∧ 0 ≤ -(sLoad v ZL).re := by
  obtain ⟨hd, hL0⟩ := C54_denominator a Z1 Z2 ZL ha h1 h2 hL
  have h := congrArg Complex.re (C55_power_balance v vg i a Z1 Z2 ZL ha hL0 hd hv)
  constructor
  · have e : ((1 / 2 : ℂ) * (Z1 * (‖i - v / ZL‖ ^ 2 : ℝ) + Z2 * (‖(i - v / ZL) / a‖ ^ 2 : ℝ))).re =
        1 / 2 * (Z1.re * ‖i - v / ZL‖ ^ 2 + Z2.re * ‖(i - v / ZL) / a‖ ^ 2) := by
      have : (1 / 2 : ℂ) = ((1 / 2 : ℝ) : ℂ) := by push_cast; rfl
      rw [this, re_ofReal_mul, add_re, re_mul_ofReal, re_mul_ofReal]
    rw [add_re, add_re, neg_re, neg_re, e] at h
    have p1 : 0 ≤ Z1.re * ‖i - v / ZL‖ ^ 2 := by positivity
    have p2 : 0 ≤ Z2.re * ‖(i - v / ZL) / a‖ ^ 2 := by positivity
    linarith
  · have : sLoad v ZL = -((1 / 2 : ℝ) : ℂ) * (ZL * ((‖v / ZL‖ ^ 2 : ℝ) : ℂ)) := by
      have n : ((‖v / ZL‖ ^ 2 : ℝ) : ℂ) = (v / ZL) * (starRingEnd ℂ) (v / ZL) := by rw [mul_conj, normSq_eq_norm_sq]
      rw [n]; unfold sLoad
      rw [map_neg]
      have hvv : v = ZL * (v / ZL) := by field_simp
      generalize (starRingEnd ℂ) (v / ZL) = y
      push_cast
      linear_combination (-(1 / 2) * y) * hvv
    rw [this, ← ofReal_neg, re_ofReal_mul, re_mul_ofReal]
    have : 0 ≤ ZL.re * ‖v / ZL‖ ^ 2 := by positivity
    linarith

/-- C55 for the three-phase totals. -/
theorem C55_three_phase (v vg i : Fin 3 → ℂ) (a : ℝ) (Z1 Z2 ZL : ℂ) (ha : a ≠ 0) (hL : ZL ≠ 0) (hd : (a * a : ℂ) * (Z1 + ZL) + Z2 ≠ 0)
    (hv : ∀ p, v p = vStandAlone (vg p) (i p) a Z1 Z2 ZL) :
    (∑ p, sPCC (v p) (i p)) = -(∑ p, sLoad (v p) ZL) + -(∑ p, sG (v p) (i p) (vg p) ZL a) +
      ∑ p, (1 / 2) * (Z1 * (‖i p - v p / ZL‖ ^ 2 : ℝ) + Z2 * (‖(i p - v p / ZL) / a‖ ^ 2 : ℝ)) := by
  rw [← Finset.sum_neg_distrib, ← Finset.sum_neg_distrib, ← Finset.sum_add_distrib, ← Finset.sum_add_distrib]
  exact Finset.sum_congr rfl fun p _ => C55_power_balance (v p) (vg p) (i p) a Z1 Z2 ZL ha hL hd (hv p)

/-! ### C72 -/

/-- C72: the derived bases are consistent for every positive choice of the primary ones. -/
theorem C72_base_consistent (b : Base) (hV : 0 < b.Vbase) (hS : 0 < b.Sbase) (hw : 0 < b.wbase) :
    b.Zbase * b.Ibase = b.Vbase ∧ b.Vbase * b.Ibase = b.Sbase ∧ b.wbase * b.Lbase = b.Zbase ∧ b.wbase * b.Cbase * b.Zbase = 1 ∧
      b.Lbase * b.Cbase * b.wbase ^ 2 = 1 := by
  unfold Base.Lbase Base.Cbase Base.Zbase Base.Ibase
  refine ⟨?_, ?_, ?_, ?_, ?_⟩ <;> field_simp

/-- C72: Ohm's law, inductor and capacitor impedance have the same form in actual and per-unit quantities. -/
theorem C72_per_unit_laws (b : Base) (hV : 0 < b.Vbase) (hS : 0 < b.Sbase) (hw : 0 < b.wbase) (R L C V I S Z w : ℝ) :
    (V = Z * I ↔ V / b.Vbase = (Z / b.Zbase) * (I / b.Ibase)) ∧ (S = V * I ↔ S / b.Sbase = (V / b.Vbase) * (I / b.Ibase)) ∧
    (w * L) / b.Zbase = (w / b.wbase) * (L / b.Lbase) ∧ (w * C) * b.Zbase = (w / b.wbase) * (C / b.Cbase) ∧
    (R / b.Zbase) * b.Zbase = R ∧ (L / b.Lbase) * b.Lbase = L ∧ (C / b.Cbase) * b.Cbase = C := by
  unfold Base.Lbase Base.Cbase Base.Zbase Base.Ibase
  refine ⟨?_, ?_, ?_, ?_, ?_, ?_, ?_⟩
  · field_simp
  · field_simp
  all_goals field_simp

theorem C72_default_positive : 0 < Base.default.Vbase ∧ 0 < Base.default.Sbase ∧ 0 < Base.default.wbase ∧ Base.default.Zbase = 5 ∧
    Base.default.Ibase = 100 := by
  have := Real.pi_pos
  refine ⟨by norm_num [Base.default], by norm_num [Base.default], by simp only [Base.default]; positivity, ?_, ?_⟩
  · norm_num [Base.default, Base.Zbase]
  · norm_num [Base.default, Base.Ibase]

end Circuit

namespace PV

/-- Physical module data: positive constants. -/
structure Physical (m : Mod) : Prop where
  Np : 0 < m.Np
  Ns : 0 < m.Ns
  Irs : 0 < m.Irs
  q : 0 < m.q
  k : 0 < m.k
  A : 0 < m.A
  Sbase : 0 < m.Sbase

/-- The default module (DER_components.py 302-318, '50'). -/
noncomputable def exMod : Mod := ⟨11, 735, 803/100, 17/10000, 29815/100, 12/100000000, 1602/10^22, 138/10^25, 192/100, 50000⟩

theorem exMod_physical : Physical exMod := by constructor <;> norm_num [exMod]

/-! ### C56 -/

/-- The exponent coefficient `q/(k T A Ns)`. -/
noncomputable def coef (m : Mod) (T : ℝ) : ℝ := m.q / (m.k * T * m.A * m.Ns)

theorem coef_pos {m : Mod} (h : Physical m) {T : ℝ} (hT : 0 < T) : 0 < coef m T := by
  have := h.Ns; have := h.q; have := h.k; have := h.A
  unfold coef; positivity

theorem ipv_eq (m : Mod) (S T V : ℝ) : ipv m S T V = m.Np * iph m S T - m.Np * m.Irs * (Real.exp (coef m T * V) - 1) := by
  unfold ipv coef; congr 4; ring

/-- C56: the photocurrent is proportional to the insolation and equals the rated short-circuit current at 100 and reference temperature. -/
theorem C56_photocurrent (m : Mod) : iph m 100 m.T0 = m.Iscr ∧ (∀ S T, iph m S T = (S / 100) * iph m 100 T) ∧ (∀ T, iph m 0 T = 0) ∧
    (∀ T T', iph m 100 T' - iph m 100 T = m.Kv * (T' - T)) ∧ (∀ S T, ipv m S T 0 = m.Np * iph m S T) := by
  refine ⟨?_, fun S T => ?_, fun T => ?_, fun T T' => ?_, fun S T => ?_⟩ <;> simp only [iph, ipv] <;> try ring
  simp

/-- C56: power is never negative. -/
theorem C56_nonneg (m : Mod) (h : Physical m) (S T V : ℝ) : 0 ≤ ppv m S T V :=
  div_nonneg (le_max_left _ _) h.Sbase.le

/-- C56: with non-negative photocurrent, power is positive exactly strictly between zero and the open-circuit voltage. -/
theorem C56_positive_iff (m : Mod) (h : Physical m) (S T V : ℝ) (hT : 0 < T) (hI : 0 ≤ iph m S T) :
    0 < ppv m S T V ↔ 0 < V ∧ V < Real.log (1 + iph m S T / m.Irs) / coef m T := by
  have hc := coef_pos h hT
  have hNp := h.Np
  have hIrs := h.Irs
  have h1 : 0 < 1 + iph m S T / m.Irs := by positivity
  have hiff : 0 < ppv m S T V ↔ 0 < ipv m S T V * V := by
    unfold ppv
    rw [div_pos_iff_of_pos_right h.Sbase, lt_max_iff]
    simp
  have hsign : 0 < ipv m S T V ↔ V < Real.log (1 + iph m S T / m.Irs) / coef m T := by
    rw [lt_div_iff₀ hc, mul_comm V, Real.lt_log_iff_exp_lt h1, ipv_eq]
    have : m.Np * iph m S T - m.Np * m.Irs * (Real.exp (coef m T * V) - 1) =
        m.Np * m.Irs * (1 + iph m S T / m.Irs - Real.exp (coef m T * V)) := by field_simp; ring
    rw [this, mul_pos_iff_of_pos_left (mul_pos hNp hIrs), sub_pos]
  rw [hiff]
  constructor
  · intro hp
    rcases lt_trichotomy V 0 with hV | hV | hV
    · exfalso
      have : 0 < ipv m S T V := hsign.2 (lt_of_lt_of_le hV (div_nonneg (Real.log_nonneg (by have := div_nonneg hI hIrs.le; linarith)) hc.le))
      nlinarith
    · rw [hV] at hp; simp at hp
    · exact ⟨hV, hsign.1 ((mul_pos_iff_of_pos_right hV).1 hp)⟩
  · rintro ⟨hV, hlt⟩
    exact mul_pos (hsign.2 hlt) hV

/-- C56: in particular zero at and below zero voltage and at and above the open-circuit voltage. -/
theorem C56_zero_outside (m : Mod) (h : Physical m) (S T V : ℝ) (hT : 0 < T) (hI : 0 ≤ iph m S T)
    (hV : V ≤ 0 ∨ Real.log (1 + iph m S T / m.Irs) / coef m T ≤ V) : ppv m S T V = 0 := by
  refine le_antisymm (not_lt.1 fun hp => ?_) (C56_nonneg m h S T V)
  obtain ⟨a, b⟩ := (C56_positive_iff m h S T V hT hI).1 hp
  rcases hV with hV | hV <;> linarith

/-- C56: non-decreasing in the insolation (for a temperature at which the photocurrent coefficient is non-negative). -/
theorem C56_monotone_insolation (m : Mod) (h : Physical m) (S S' T V : ℝ) (hT : 0 < T) (hcf : 0 ≤ m.Iscr + m.Kv * (T - m.T0)) (hS : 0 ≤ S)
    (hSS : S ≤ S') : ppv m S T V ≤ ppv m S' T V := by
  have hI : 0 ≤ iph m S T := mul_nonneg hcf (by linarith)
  have hI' : 0 ≤ iph m S' T := mul_nonneg hcf (by linarith)
  have hII : iph m S T ≤ iph m S' T := mul_le_mul_of_nonneg_left (by linarith) hcf
  rcases le_or_gt V 0 with hV | hV
  · rw [C56_zero_outside m h S T V hT hI (Or.inl hV), C56_zero_outside m h S' T V hT hI' (Or.inl hV)]
  · unfold ppv
    refine div_le_div_of_nonneg_right (max_le_max le_rfl (mul_le_mul_of_nonneg_right ?_ hV.le)) h.Sbase.le
    rw [ipv_eq, ipv_eq]
    have := mul_le_mul_of_nonneg_left hII h.Np.le
    linarith

/-- The default module at 298.15 K meets the hypotheses. -/
theorem C56_default_module : Physical exMod ∧ 0 ≤ iph exMod 100 (29815/100) ∧ 0 ≤ exMod.Iscr + exMod.Kv * (29815/100 - exMod.T0) ∧
    (0:ℝ) < 29815/100 := by
  refine ⟨exMod_physical, ?_, ?_, by norm_num⟩ <;> norm_num [exMod, iph]

/-- C56: with the constants of the class (short-circuit current 8.03 A, temperature coefficient 0.0017 A/K, reference 298.15 K, DER_components.py 302-318) and any string sizes and base, the photocurrent
conditions above hold at every temperature and insolation the model is ever given. -/
theorem C56_class_constants (m : Mod) (h1 : m.Iscr = 803/100) (h2 : m.Kv = 17/10000) (h3 : m.T0 = 29815/100) {T S : ℝ} (hT : 0 < T) (hS : 0 ≤ S) :
    0 ≤ m.Iscr + m.Kv * (T - m.T0) ∧ 0 ≤ iph m S T := by
  have h : 0 ≤ m.Iscr + m.Kv * (T - m.T0) := by rw [h1, h2, h3]; linarith
  exact ⟨h, mul_nonneg h (by linarith)⟩

/-! ### C74 -/

/-- C74: a root of the solved equation maximises the module power over *all* voltages. -/
theorem C74_root_is_maximum (m : Mod) (h : Physical m) (S T V0 : ℝ) (hT : 0 < T) (hI : 0 ≤ iph m S T) (hroot : mppEq m S T V0 = 0)
    (V : ℝ) : ppv m S T V ≤ ppv m S T V0 := by
  rcases le_or_gt V 0 with hV | hV
  · rw [C56_zero_outside m h S T V hT hI (Or.inl hV)]; exact C56_nonneg m h S T V0
  unfold ppv
  refine div_le_div_of_nonneg_right (max_le_max le_rfl ?_) h.Sbase.le
  set c := coef m T with hc
  have hcp : 0 < c := coef_pos h hT
  have hNI : 0 < m.Np * m.Irs := mul_pos h.Np h.Irs
  have hr : -((m.Np * m.Irs * Real.exp (c * V0)) * c * V0) - m.Np * m.Irs * (Real.exp (c * V0) - 1) + m.Np * iph m S T = 0 := by
    rw [← hroot]; unfold mppEq
    have : (m.q * V0) / (m.k * T * m.A * m.Ns) = c * V0 := by rw [hc]; unfold coef; ring
    rw [this]; rfl
  rw [ipv_eq, ipv_eq]
  have hex : Real.exp (c * V0) * (1 + c * (V - V0)) ≤ Real.exp (c * V) := by
    have h1 := Real.add_one_le_exp (c * (V - V0))
    have h2 : Real.exp (c * V) = Real.exp (c * V0) * Real.exp (c * (V - V0)) := by rw [← Real.exp_add]; congr 1; ring
    rw [h2]
    exact mul_le_mul_of_nonneg_left (by linarith) (Real.exp_pos _).le
  set E0 := Real.exp (c * V0)
  set E := Real.exp (c * V)
  have hE0 : 0 < E0 := Real.exp_pos _
  have key : V0 * E0 + (1 + c * V0) * E0 * (V - V0) ≤ V * E := by
    have a1 : V * (E0 * (1 + c * (V - V0))) ≤ V * E := mul_le_mul_of_nonneg_left hex hV.le
    have a2 : V * (E0 * (1 + c * (V - V0))) - (V0 * E0 + (1 + c * V0) * E0 * (V - V0)) = E0 * c * (V - V0) ^ 2 := by ring
    have a3 : 0 ≤ E0 * c * (V - V0) ^ 2 := by positivity
    linarith
  have hk := mul_le_mul_of_nonneg_left key hNI.le
  have : m.Np * iph m S T = m.Np * m.Irs * E0 * c * V0 + m.Np * m.Irs * (E0 - 1) := by linarith
  rw [this]
  nlinarith

/-- C74: such a root is unique. -/
theorem C74_root_unique (m : Mod) (h : Physical m) (S T V0 V1 : ℝ) (hT : 0 < T) (h0 : 0 ≤ V0) (h1 : 0 ≤ V1)
    (hr0 : mppEq m S T V0 = 0) (hr1 : mppEq m S T V1 = 0) : V0 = V1 := by
  have hNI : 0 < m.Np * m.Irs := mul_pos h.Np h.Irs
  have hcp : 0 < coef m T := coef_pos h hT
  have hform : ∀ V, mppEq m S T V = -(m.Np * m.Irs * (Real.exp (coef m T * V) * (coef m T * V + 1))) + m.Np * m.Irs + m.Np * iph m S T := by
    intro V; unfold mppEq
    have : (m.q * V) / (m.k * T * m.A * m.Ns) = coef m T * V := by unfold coef; ring
    rw [this]
    have h2 : m.q / (m.k * T * m.A * m.Ns) = coef m T := rfl
    rw [h2]; ring
  rw [hform] at hr0 hr1
  have heq : Real.exp (coef m T * V0) * (coef m T * V0 + 1) = Real.exp (coef m T * V1) * (coef m T * V1 + 1) := by
    have : m.Np * m.Irs * (Real.exp (coef m T * V0) * (coef m T * V0 + 1)) = m.Np * m.Irs * (Real.exp (coef m T * V1) * (coef m T * V1 + 1)) := by linarith
    exact mul_left_cancel₀ hNI.ne' this
  have mono : ∀ a b : ℝ, 0 ≤ a → a < b → Real.exp (coef m T * a) * (coef m T * a + 1) < Real.exp (coef m T * b) * (coef m T * b + 1) := by
    intro a b ha hab
    have h1 : coef m T * a < coef m T * b := mul_lt_mul_of_pos_left hab hcp
    have h2 : 0 ≤ coef m T * a := mul_nonneg hcp.le ha
    exact mul_lt_mul'' (Real.exp_lt_exp.2 h1) (by linarith) (Real.exp_pos _).le (by linarith)
  rcases lt_trichotomy V0 V1 with hlt | he | hlt
  · exact absurd heq (mono _ _ h0 hlt).ne
  · exact he
  · exact absurd heq.symm (mono _ _ h1 hlt).ne

/-- C74: with non-negative photocurrent a (unique, see above) non-negative root exists. -/
theorem C74_root_exists (m : Mod) (h : Physical m) (S T : ℝ) (hT : 0 < T) (hI : 0 ≤ iph m S T) : ∃ V0, 0 ≤ V0 ∧ mppEq m S T V0 = 0 := by
  have hc : 0 < coef m T := coef_pos h hT
  have hNI : 0 < m.Np * m.Irs := mul_pos h.Np h.Irs
  have hform : ∀ V, mppEq m S T V = -(m.Np * m.Irs * (Real.exp (coef m T * V) * (coef m T * V + 1))) + m.Np * m.Irs + m.Np * iph m S T := by
    intro V; unfold mppEq
    have : (m.q * V) / (m.k * T * m.A * m.Ns) = coef m T * V := by unfold coef; ring
    rw [this]
    have h2 : m.q / (m.k * T * m.A * m.Ns) = coef m T := rfl
    rw [h2]; ring
  have hcont : Continuous (mppEq m S T) := by
    have : mppEq m S T = fun V => -(m.Np * m.Irs * (Real.exp (coef m T * V) * (coef m T * V + 1))) + m.Np * m.Irs + m.Np * iph m S T := funext hform
    rw [this]; fun_prop
  set b := (iph m S T / m.Irs) / coef m T with hb
  have hIrs := h.Irs
  have hNp := h.Np
  have hb0 : 0 ≤ b := by positivity
  have h0 : 0 ≤ mppEq m S T 0 := by rw [hform]; simp; positivity
  have h1 : mppEq m S T b ≤ 0 := by
    rw [hform]
    have hcb : coef m T * b = iph m S T / m.Irs := by rw [hb]; field_simp
    have hge : 1 ≤ Real.exp (coef m T * b) := Real.one_le_exp (by positivity)
    have : iph m S T / m.Irs + 1 ≤ Real.exp (coef m T * b) * (coef m T * b + 1) := by
      rw [hcb] at hge ⊢
      have : 0 ≤ iph m S T / m.Irs + 1 := by positivity
      nlinarith
    have := mul_le_mul_of_nonneg_left this hNI.le
    have e : m.Np * m.Irs * (iph m S T / m.Irs + 1) = m.Np * iph m S T + m.Np * m.Irs := by field_simp
    linarith
  obtain ⟨x, hx, hr⟩ := intermediate_value_Icc' hb0 hcont.continuousOn ⟨h1, h0⟩
  exact ⟨x, hx.1, hr⟩

end PV
end PvDer
