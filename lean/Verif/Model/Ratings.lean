import Verif.Model.Ode

/-!
# Model of the ratings and circuit parameters of a DER, the circuit parameter check, and `validate_model`

Exact real and complex arithmetic; division by zero is excluded by hypotheses of the theorems.
-/

namespace PvDer
namespace Ratings

open Complex Circuit

/-- Entries of `inverter_ratings` and `circuit_parameters` read below, and `n_phases`, `m_steady_state`, `fswitching`. -/
structure Nameplate where
  Srated : ℝ
  Vdcrated : ℝ
  Vrmsrated : ℝ
  Ioverload : ℝ
  gradReal : ℝ
  gradImag : ℝ
  Rf : ℝ
  Lf : ℝ
  C : ℝ
  Z1 : ℂ
  nPhases : ℝ
  fswitching : ℝ

/-- `Sinverter_nominal` (DER_check_and_initialize.py 390). -/
noncomputable def Snominal (n : Nameplate) (b : Base) : ℝ := n.Srated / b.Sbase
/-- `Vdcnominal` (398). -/
noncomputable def Vdcnominal (n : Nameplate) (b : Base) : ℝ := n.Vdcrated / b.Vdcbase
/-- `Varated` (408). -/
noncomputable def Varated (n : Nameplate) : ℝ := n.Vrmsrated * Real.sqrt 2
/-- `Vanominal` (409). -/
noncomputable def Vanominal (n : Nameplate) (b : Base) : ℝ := Varated n / b.Vbase
/-- `Vrms_ref` (410). -/
noncomputable def Vrms_ref (n : Nameplate) (b : Base) : ℝ := Vanominal n b / Real.sqrt 2
/-- `Iarated` (417). -/
noncomputable def Iarated (n : Nameplate) : ℝ := (n.Srated / (n.nPhases * (Varated n / Real.sqrt 2))) * Real.sqrt 2
/-- `iref_limit` (419). -/
noncomputable def iref_limit (n : Nameplate) (b : Base) : ℝ := (Iarated n / b.Ibase) * n.Ioverload
/-- `iR_ramp_up_max_gradient` (420). -/
noncomputable def rampR (n : Nameplate) (b : Base) : ℝ := (n.gradReal * Iarated n) / b.Ibase
/-- `iI_ramp_up_max_gradient` (421). -/
noncomputable def rampI (n : Nameplate) (b : Base) : ℝ := (n.gradImag * Iarated n) / b.Ibase

/-- `a` (432): `Vgridrated` is the rated peak grid voltage. -/
noncomputable def turns (n : Nameplate) (Vgridrated : ℝ) : ℝ := Vgridrated / Varated n
/-- `Rf` (436). -/
noncomputable def Rf (n : Nameplate) (b : Base) : ℝ := n.Rf / b.Zbase
/-- `Lf` (440). -/
noncomputable def Lf (n : Nameplate) (b : Base) : ℝ := n.Lf / b.Lbase
/-- `Xf` (441). -/
noncomputable def Xf (n : Nameplate) (b : Base) : ℝ := (n.Lf * b.wbase) / b.Zbase
/-- `C` (445). -/
noncomputable def C (n : Nameplate) (b : Base) : ℝ := n.C / b.Cbase
/-- `Zf` (447-448). -/
noncomputable def Zf (n : Nameplate) (b : Base) : ℂ := ((n.Rf : ℂ) + I * n.Lf * b.wbase) / b.Zbase
/-- `R1` (453, 457). -/
noncomputable def R1 (n : Nameplate) (b : Base) : ℝ := n.Z1.re / b.Zbase
/-- `L1` (454, 458): the frequency is the literal 60 Hz, not `wbase`. -/
noncomputable def L1 (n : Nameplate) (b : Base) : ℝ := (n.Z1.im / (2 * Real.pi * 60)) / b.Lbase
/-- `Z1` (459). -/
noncomputable def Z1 (n : Nameplate) (b : Base) : ℂ := n.Z1 / b.Zbase
/-- `Zload1_actual` (464, 468): the load event at time 0 in stand-alone mode, else ten megaohm. -/
noncomputable def Zload1_actual (standAlone : Bool) (event : ℂ) : ℂ := if standAlone then event else 10000000
/-- `Rload1` (470, 474). -/
noncomputable def Rload1 (standAlone : Bool) (event : ℂ) (b : Base) : ℝ := (Zload1_actual standAlone event).re / b.Zbase
/-- `Lload1` (471, 475): computed from `Z1_actual`, not from the load. -/
noncomputable def Lload1 (n : Nameplate) (b : Base) : ℝ := (n.Z1.im / (2 * Real.pi * 60)) / b.Lbase
/-- `Zload1` (476). -/
noncomputable def Zload1 (standAlone : Bool) (event : ℂ) (b : Base) : ℂ := Zload1_actual standAlone event / b.Zbase

/-! ### `check_circuit_parameters` (DER_check_and_initialize.py 606-631): only writes messages -/

/-- Which message is written about a component. -/
inductive Verdict
  | acceptable
  | warning
  deriving DecidableEq, Repr

/-- `del_I1max_actual` (611). -/
noncomputable def ripple (n : Nameplate) : ℝ := n.Vdcrated / (16 * n.fswitching * n.Lf)
/-- `Lf_min` (609-610). -/
noncomputable def LfMin (n : Nameplate) : ℝ := n.Vdcrated / (16 * n.fswitching * (1 / 10 * Iarated n))
/-- The message about the filter inductance (612-615). -/
noncomputable def inductorMessage (n : Nameplate) : Verdict := if ripple n > 1 / 10 * Iarated n then .acceptable else .warning
/-- `V_ripple_percentage` (619-620). -/
noncomputable def ripplePct (n : Nameplate) : ℝ := (n.Vdcrated / (32 * n.Lf * n.C * n.fswitching ^ 2) / n.Vdcrated) * 100
/-- The message about the DC link capacitance (621-628). -/
noncomputable def capacitorMessage (n : Nameplate) : Verdict := if ripplePct n ≤ 1 then .acceptable else .warning
/-- The capacitance recommended in the warning (624-625). -/
noncomputable def recommendedC (n : Nameplate) : ℝ := n.Vdcrated / (32 * n.Lf * (n.Vdcrated * (1 / 100)) * n.fswitching ^ 2)

/-! ### `validate_model` (DER_utilities.py 473-523): the printed errors -/

/-- `Pt_RMS` and `Qt_RMS` of one phase (499-504). -/
noncomputable def ptRMS (v i : ℂ) : ℝ := (‖v‖ / Real.sqrt 2) * (‖i‖ / Real.sqrt 2) * Real.cos (arg v - arg i)
/-- see `ptRMS`. -/
noncomputable def qtRMS (v i : ℂ) : ℝ := (‖v‖ / Real.sqrt 2) * (‖i‖ / Real.sqrt 2) * Real.sin (arg v - arg i)

/-- `Pt_RMS` as summed (501, 506-514): phases b and c are added only for the class named `SolarPVDERThreePhase`. -/
noncomputable def Pt_RMS (isThreePhase : Bool) (vta vtb vtc ia ib ic : ℂ) : ℝ :=
  if isThreePhase then ptRMS vta ia + ptRMS vtb ib + ptRMS vtc ic else ptRMS vta ia
/-- `Qt_RMS` (504, 506-518). -/
noncomputable def Qt_RMS (isThreePhase : Bool) (vta vtb vtc ia ib ic : ℂ) : ℝ :=
  if isThreePhase then qtRMS vta ia + qtRMS vtb ib + qtRMS vtc ic else qtRMS vta ia

/-- `Pf_RMS` (491). -/
noncomputable def Pf_RMS (nPhases Irms Rf : ℝ) : ℝ := nPhases * Irms ^ 2 * Rf
/-- `Qf_RMS` (492). -/
noncomputable def Qf_RMS (nPhases Irms Xf : ℝ) : ℝ := nPhases * Irms ^ 2 * Xf

end Ratings
end PvDer
