import Verif.Props.Bounds
import Verif.Props.ClosedLoopDcUnits
import Verif.Props.ClosedLoop3Units
import Verif.Props.DiesOut

/-!
# C149 and C150 for the shipped units, and the panel that feeds beyond its open-circuit voltage
-/

namespace PvDer
namespace Ode
open Complex Phasor Set

/-- C150 is false where the MPP range ends below the open-circuit voltage: from the upper end of the range on the panel delivers the same positive power at every DC
voltage, although its own current-voltage curve gives nothing from the open-circuit voltage on. -/
theorem C150_feeds_beyond (p : Par) (i : Inp) (hm : PV.Physical p.mod) (hT : 0 < i.Tactual) (hI : 0 ≤ PV.iph p.mod i.Sinsol i.Tactual) (h0 : 0 < p.Vdcmpp_max)
    (hlt : p.Vdcmpp_max < openCircuit p.mod i.Sinsol i.Tactual) :
    ∃ P > 0, ∀ Vdc, p.Vdcmpp_max ≤ Vdc * p.Vdcbase → ppvOf p i Vdc = P ∧
      (openCircuit p.mod i.Sinsol i.Tactual ≤ Vdc * p.Vdcbase → PV.ppv p.mod i.Sinsol i.Tactual (Vdc * p.Vdcbase) = 0) := by
  refine ⟨PV.ppv p.mod i.Sinsol i.Tactual p.Vdcmpp_max, (PV.C56_positive_iff p.mod hm _ _ _ hT hI).2 ⟨h0, hlt⟩, fun Vdc hV => ⟨?_, fun h => ?_⟩⟩
  · unfold ppvOf; rw [min_eq_left hV]
  · exact PV.C56_zero_outside p.mod hm _ _ _ hT hI (Or.inr h)

/-- C150: then an inverter that delivers less than that power charges its DC link without limit. -/
theorem C150_overcharges (p : Par) (inp : ℝ → Inp) (hC : p.C ≠ 0) (Y : ℝ → SinglePhase.V → ℝ) (T P σ : ℝ)
    (h : Follows (fun t y => SinglePhase.rhs (env1 p (inp t) y)) Y T [.Vdc]) (hV : ∀ t ∈ Ico 0 T, Y t .Vdc ≠ 0)
    (hP : ∀ t ∈ Ico 0 T, P ≤ ppvOf p (inp t) (Y t .Vdc)) (hS : ∀ t ∈ Ico 0 T, (env1 p (inp t) (Y t)).S.re ≤ σ) :
    ∀ t ∈ Icc 0 T, p.C / 2 * Y 0 .Vdc ^ 2 + (P - σ) * t ≤ p.C / 2 * Y t .Vdc ^ 2 := by
  intro t ht
  have hr := ((h .Vdc (by simp)).sq.smul (-(p.C / 2))).growth (K := -(P - σ)) (fun s hs => by
    have e4 := (C60_dc_link_all (env1 p (inp s) (Y s)) (hV s hs) hC _ (Or.inl rfl)).1
    have e5 : p.C * Y s .Vdc * SinglePhase.rhs (env1 p (inp s) (Y s)) .Vdc = ppvOf p (inp s) (Y s .Vdc) - (env1 p (inp s) (Y s)).S.re := e4
    have := hP s hs
    have := hS s hs
    have e6 : -(p.C / 2) * (2 * Y s .Vdc * SinglePhase.rhs (env1 p (inp s) (Y s)) .Vdc) = -(p.C * Y s .Vdc * SinglePhase.rhs (env1 p (inp s) (Y s)) .Vdc) := by ring
    show -(p.C / 2) * (2 * Y s .Vdc * SinglePhase.rhs (env1 p (inp s) (Y s)) .Vdc) ≤ _
    rw [e6, e5]; linarith) t ht
  beta_reduce at hr
  linarith

theorem exp17 : Real.exp 17 ≤ 25000000 := by
  have h : Real.exp 17 = Real.exp 1 ^ 17 := by rw [← Real.exp_nat_mul]; norm_num
  rw [h]
  calc Real.exp 1 ^ 17 ≤ (2.7182818286 : ℝ) ^ 17 := by gcongr; exact Real.exp_one_lt_d9.le
    _ ≤ _ := by norm_num

theorem exp18 : Real.exp 18 ≤ 66000000 := by
  have h : Real.exp 18 = Real.exp 1 ^ 18 := by rw [← Real.exp_nat_mul]; norm_num
  rw [h]
  calc Real.exp 1 ^ 18 ≤ (2.7182818286 : ℝ) ^ 18 := by gcongr; exact Real.exp_one_lt_d9.le
    _ ≤ _ := by norm_num

theorem exp20 : 67000000 ≤ Real.exp 20 := by
  have h : Real.exp 20 = Real.exp 1 ^ 20 := by rw [← Real.exp_nat_mul]; norm_num
  rw [h]
  calc (67000000 : ℝ) ≤ (2.7182818283 : ℝ) ^ 20 := by norm_num
    _ ≤ _ := by gcongr; exact Real.exp_one_gt_d9.le

/-- C150: the modules of the shipped 10 kVA and 50 kVA units at full sun and reference temperature have their open-circuit voltage above the MPP range, that of the 250 kVA
unit has it within. -/
theorem C150_shipped : par10dc.Vdcmpp_max < openCircuit par10dc.mod 100 (29815/100) ∧ par50.Vdcmpp_max < openCircuit par50.mod 100 (29815/100) ∧
    openCircuit par250.mod 100 (29815/100) ≤ par250.Vdcmpp_max := by
  have key : ∀ (m : PV.Mod) (V : ℝ), PV.Physical m → 0 ≤ PV.iph m 100 (29815/100) → (V < openCircuit m 100 (29815/100) ↔ Real.exp (PV.coef m (29815/100) * V) < 1 + PV.iph m 100 (29815/100) / m.Irs) := by
    intro m V hm hI
    have hr := hm.Irs
    unfold openCircuit
    rw [lt_div_iff₀ (PV.coef_pos hm (by norm_num)), Real.lt_log_iff_exp_lt (by positivity), mul_comm V]
  refine ⟨?_, ?_, ?_⟩
  · rw [key _ _ (by constructor <;> norm_num [par10dc, PV.exMod]) (by norm_num [par10dc, PV.exMod, PV.iph])]
    refine lt_of_le_of_lt (show _ ≤ Real.exp 17 from Real.exp_le_exp.2 ?_) (lt_of_le_of_lt exp17 ?_) <;> norm_num [par10dc, PV.exMod, PV.iph, PV.coef]
  · rw [key _ _ (by constructor <;> norm_num [par50, PV.exMod]) (by norm_num [par50, PV.exMod, PV.iph])]
    refine lt_of_le_of_lt (show _ ≤ Real.exp 18 from Real.exp_le_exp.2 ?_) (lt_of_le_of_lt exp18 ?_) <;> norm_num [par50, PV.exMod, PV.iph, PV.coef]
  · rw [← not_lt, key _ _ (by constructor <;> norm_num [par250, PV.exMod]) (by norm_num [par250, PV.exMod, PV.iph]), not_lt]
    refine le_trans ?_ (exp20.trans (Real.exp_le_exp.2 ?_)) <;> norm_num [par250, PV.exMod, PV.iph, PV.coef]

/-! ### An explicit overcharging run of the shipped 10 kVA unit -/

/-- Power of the 10 kVA panel at the end of its MPP range, full sun. -/
noncomputable def ocP : ℝ := PV.ppv par10dc.mod 100 (29815/100) 800

/-- DC voltage while no power leaves the inverter. -/
noncomputable def ocV (t : ℝ) : ℝ := Real.sqrt ((8/5) ^ 2 + 2 * ocP / par10dc.C * t)

/-- Terminals short-circuited, nominal frequency, full sun; the DC reference follows the DC voltage. -/
noncomputable def ocInp (t : ℝ) : Inp := { exInp with va := 0, vb := 0, vc := 0, w := 2 * Real.pi * 60, t := t, Vdc_ref := ocV t }

/-- No current, controllers at rest. -/
noncomputable def ocY (t : ℝ) : SinglePhase.V → ℝ
  | .Vdc => ocV t | .wte => 2 * Real.pi * 60 * t | _ => 0

theorem ocP_pos : 0 < ocP := by
  have hm : PV.Physical par10dc.mod := by constructor <;> norm_num [par10dc, PV.exMod]
  exact (PV.C56_positive_iff _ hm _ _ _ (by norm_num) (by norm_num [par10dc, PV.exMod, PV.iph])).2 ⟨by norm_num, C150_shipped.1⟩

theorem par10dc_C : 0 < par10dc.C := by
  have := Real.pi_pos
  show 0 < 30 / 1000000 * (2 * Real.pi * 60) * 5
  positivity

theorem ocV_ge {t : ℝ} (ht : 0 ≤ t) : 8/5 ≤ ocV t := by
  apply Real.le_sqrt_of_sq_le
  have := ocP_pos; have := par10dc_C
  have : 0 ≤ 2 * ocP / par10dc.C * t := by positivity
  linarith

theorem ocV_sq {t : ℝ} (ht : 0 ≤ t) : ocV t ^ 2 = (8/5) ^ 2 + 2 * ocP / par10dc.C * t := by
  have := ocP_pos; have := par10dc_C
  have : 0 ≤ 2 * ocP / par10dc.C * t := by positivity
  exact Real.sq_sqrt (by linarith)

theorem ocPpv {t : ℝ} (ht : 0 ≤ t) : ppvOf par10dc (ocInp t) (ocV t) = ocP := by
  unfold ppvOf
  have h : par10dc.Vdcmpp_max ≤ ocV t * par10dc.Vdcbase := by
    have := ocV_ge ht
    show (800 : ℝ) ≤ ocV t * 500
    linarith
  rw [min_eq_left h]; rfl

theorem ocVd (t : ℝ) : (pll1 0 (2 * Real.pi * 60) t (2 * Real.pi * 60 * t)).1 = 0 := by
  rw [C53_pll_input]; simp

theorem ocVt (V : ℝ) : vtOf par10dc ⟨0, 0⟩ ⟨0, 0⟩ V = 0 := by
  have h0 : (⟨0, 0⟩ : ℂ) = 0 := rfl
  simp [vtOf, duty, h0]

theorem oc_solves (t : ℝ) (ht : 0 ≤ t) : Solves (fun t y => SinglePhase.rhs (env1 par10dc (ocInp t) y)) ocY t := by
  have h0 : (⟨0, 0⟩ : ℂ) = 0 := rfl
  have hvd := ocVd t
  have hvt := ocVt (ocV t)
  have hP := ocPpv ht
  have hV := ocV_ge ht
  have hS : ∀ v : ℂ, sPh v ⟨0, 0⟩ = 0 := fun v => by rw [h0]; simp [sPh]
  intro r
  cases r
  case Vdc =>
    have hd : HasDerivAt ocV (2 * ocP / par10dc.C / (2 * ocV t)) t := by
      have h1 : HasDerivAt (fun s : ℝ => (8/5 : ℝ) ^ 2 + 2 * ocP / par10dc.C * s) (2 * ocP / par10dc.C) t := by
        simpa using ((hasDerivAt_id' t).const_mul (2 * ocP / par10dc.C)).const_add ((8/5 : ℝ) ^ 2)
      have hne : (8/5 : ℝ) ^ 2 + 2 * ocP / par10dc.C * t ≠ 0 := by
        rw [← ocV_sq ht]; positivity
      exact h1.sqrt hne
    refine hd.congr_deriv ?_
    have e := (C60_dc_link_all (env1 par10dc (ocInp t) (ocY t)) (show ocV t ≠ 0 by linarith) par10dc_C.ne' _ (Or.inl rfl)).1
    have e2 : par10dc.C * ocV t * SinglePhase.rhs (env1 par10dc (ocInp t) (ocY t)) .Vdc = ocP - 0 := by
      refine e.trans ?_
      show ppvOf par10dc (ocInp t) (ocV t) - (sPh (vtOf par10dc ⟨0, 0⟩ ⟨0, 0⟩ (ocV t)) ⟨0, 0⟩).re = _
      rw [hP, hS]; simp
    have hC := par10dc_C
    have hV' : 0 < ocV t := by linarith
    beta_reduce
    rw [show SinglePhase.rhs (env1 par10dc (ocInp t) (ocY t)) .Vdc = ocP / (par10dc.C * ocV t) from by rw [eq_div_iff (by positivity)]; linarith]
    field_simp
  case wte =>
    have e : SinglePhase.rhs (env1 par10dc (ocInp t) (ocY t)) .wte = 2 * Real.pi * 60 := by
      simp only [SinglePhase.rhs, env1, ocY, ocInp, hvd]
      simp [weCalc]
    beta_reduce
    rw [e]
    have := ((hasDerivAt_id' t).const_mul (2 * Real.pi * 60))
    simpa [ocY] using this
  all_goals
    simp only [ocY]
    refine (hasDerivAt_const t _).congr_deriv ?_
    symm
    simp only [SinglePhase.rhs, env1, ocY, ocInp, hvd, hvt, hS, Env.base]
    try simp only [h0]
    simp [par10dc, irefOf, exInp]

/-- C150: the shipped 10 kVA unit starting at 800 V: its DC voltage exceeds every bound, in particular its open-circuit voltage, although the panel could not deliver
anything there; the stored energy follows the bound of C149 exactly. -/
theorem C150_example : (∀ t, 0 ≤ t → Solves (fun t y => SinglePhase.rhs (env1 par10dc (ocInp t) y)) ocY t) ∧
    (∀ t, 0 ≤ t → (env1 par10dc (ocInp t) (ocY t)).S.re = 0) ∧ (∀ B : ℝ, ∃ t, 0 ≤ t ∧ B < ocY t .Vdc * par10dc.Vdcbase) ∧
    (∀ t, 0 ≤ t → storedEnergy par10dc (ocY t .Vdc) [⟨ocY t .iaR, ocY t .iaI⟩] =
      storedEnergy par10dc (ocY 0 .Vdc) [⟨ocY 0 .iaR, ocY 0 .iaI⟩] + (ocP + 0 ^ 2 / (8 * par10dc.Rf)) * t) := by
  have hC := par10dc_C
  have hP := ocP_pos
  refine ⟨oc_solves, fun t ht => ?_, fun B => ?_, fun t ht => ?_⟩
  · show (sPh (vtOf par10dc ⟨0, 0⟩ ⟨0, 0⟩ (ocV t)) ⟨0, 0⟩).re = 0
    rw [ocVt]; simp [sPh]
  · refine ⟨B ^ 2 * par10dc.C / (2 * ocP), by positivity, ?_⟩
    have h := ocV_sq (t := B ^ 2 * par10dc.C / (2 * ocP)) (by positivity)
    have hg := ocV_ge (t := B ^ 2 * par10dc.C / (2 * ocP)) (by positivity)
    show B < ocV _ * 500
    set V := ocV (B ^ 2 * par10dc.C / (2 * ocP))
    have e : 2 * ocP / par10dc.C * (B ^ 2 * par10dc.C / (2 * ocP)) = B ^ 2 := by field_simp
    rw [e] at h
    nlinarith [abs_nonneg B, le_abs_self B, sq_abs B, sq_nonneg (B - V)]
  · have h1 := ocV_sq ht
    have h2 := ocV_sq (le_refl (0 : ℝ))
    simp only [storedEnergy, ocY, h1, h2]
    field_simp
    simp
    ring

/-- C149 applies to it, with no grid voltage at all. -/
theorem C149_example (T : ℝ) : ∀ t ∈ Icc 0 T, storedEnergy par10dc (ocY t .Vdc) [⟨ocY t .iaR, ocY t .iaI⟩] ≤
    storedEnergy par10dc (ocY 0 .Vdc) [⟨ocY 0 .iaR, ocY 0 .iaI⟩] + (ocP + 0 ^ 2 / (8 * par10dc.Rf)) * t := by
  refine C149_energy_single par10dc ocInp (fun _ => true) ?_ (by norm_num [par10dc]) par10dc_C.ne' ocY T ocP 0 ocP_pos.le
    (Follows.of_solves (fun t ht => oc_solves t ht.1) _) (fun t ht => ?_) (fun t ht => ?_) (fun t ht => by simp [ocInp])
  · have := Real.pi_pos
    show 25 / 1000000 * (2 * Real.pi * 60) / 5 ≠ 0
    positivity
  · have := ocV_ge ht.1
    show ocV t ≠ 0
    linarith
  · exact (ocPpv ht.1).le

/-- C149 applies to the explicit decaying current of C112: at most 0.9 per unit across the filter. -/
theorem C149_current_example (T : ℝ) : ∀ t ∈ Icc 0 T, ‖(⟨dyY t .iaR, dyY t .iaI⟩ : ℂ)‖ ≤
    ‖(⟨dyY 0 .iaR, dyY 0 .iaI⟩ : ℂ)‖ * Real.exp (-(dyPar.Rf / dyPar.Lf) * t) + (9/10) / dyPar.Rf * (1 - Real.exp (-(dyPar.Rf / dyPar.Lf) * t)) := by
  refine C149_current_single_constant_vdc dyPar dyInp (fun _ => false) (by norm_num [dyPar]) (by norm_num [dyPar]) dyY T (9/10)
    (Follows.of_solves (fun t ht => dy_solves t ht.1) _) (fun t ht => ?_)
  have e : (envC1 dyPar (dyInp t) (dyY t)).vta = ⟨1/2 + 9/10 * Real.exp (-t), 0⟩ := dyVt (Real.exp (-t))
  have e2 : (⟨1/2 + 9/10 * Real.exp (-t), 0⟩ : ℂ) - (dyInp t).va = ((9/10 * Real.exp (-t) : ℝ) : ℂ) := by
    generalize Real.exp (-t) = e
    apply Complex.ext <;> simp [dyInp]
  have hle : Real.exp (-t) ≤ 1 := Real.exp_le_one_iff.2 (by linarith [ht.1])
  rw [e, e2, Complex.norm_real, Real.norm_eq_abs, abs_of_nonneg (by have := Real.exp_pos (-t); positivity)]
  linarith

/-- The ceiling of C150 applies to the shipped 250 kVA unit at full sun. -/
example : SunBelow par250 { exInp with t := 0 } 1000 ∧ PV.Physical par250.mod ∧ 0 < par250.Vdcbase :=
  ⟨⟨by norm_num [exInp], by norm_num [exInp, par250, PV.exMod, PV.iph], C150_shipped.2.2, le_rfl⟩, by constructor <;> norm_num [par250, PV.exMod], by norm_num [par250]⟩

end Ode
end PvDer
