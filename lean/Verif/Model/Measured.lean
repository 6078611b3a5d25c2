import Verif.Model.Circuit

/-!
# The measured quantities of an instance: `S_calc` … `Vabrms_calc`, `update_power` and `update_RMS` of every class

Exact arithmetic.  The attributes of phases b and c do not exist on the single-phase classes.
-/

namespace PvDer
namespace Measured

open Complex Phasor Circuit

/-- Phase a attributes `vta`, `va`, `ia`, and those of the other phases if the class has them. -/
structure Inst where
  vta : ℂ
  va : ℂ
  ia : ℂ
  /-- `(vtb, vb, ib)` and `(vtc, vc, ic)` -/
  bc : Option ((ℂ × ℂ × ℂ) × (ℂ × ℂ × ℂ))
  /-- grid source voltages `grid_model.vag`, `vbg`, `vcg`, load `Zload1` and transformer ratio `a` -/
  vag : ℂ
  vbg : ℂ
  vcg : ℂ
  ZL : ℂ
  a : ℝ

/-- The classes, as far as these methods differ. -/
inductive Kind
  /-- `SolarPVDERSinglePhase`, `…SinglePhaseConstantVdc` -/
  | single
  /-- `SolarPVDERThreePhase`, `…NoVrmsFilter`, `…ConstantVdc` (the compiled class calls the kernels of `Model/Numba.lean` instead) -/
  | three
  /-- `SolarPVDERThreePhaseBalanced` -/
  | balanced
  deriving DecidableEq

/-- `S_calc` (DER_components_single_phase.py 74-80, DER_components_single_phase_constant_Vdc.py 72-77; DER_components_three_phase.py 74-80,
DER_components_three_phase_balanced.py 76-82, DER_components_three_phase_constant_Vdc.py 72-78, DER_components_three_phase_no_Vrms_filter.py 74-80). -/
noncomputable def S_calc (k : Kind) (s : Inst) : Except Err ℂ :=
  match k, s.bc with
  | .single, _ => .ok ((1 / 2) * (s.vta * (starRingEnd ℂ) s.ia) * 1)
  | _, some ((vtb, _, ib), (vtc, _, ic)) => .ok ((1 / 2) * (s.vta * (starRingEnd ℂ) s.ia + vtb * (starRingEnd ℂ) ib + vtc * (starRingEnd ℂ) ic) * 1)
  | _, none => .error .attributeError

/-- `S_PCC_calc` (DER_components_single_phase.py 83-89, DER_components_single_phase_constant_Vdc.py 80-86; DER_components_three_phase.py 84-90,
DER_components_three_phase_balanced.py 85-91, DER_components_three_phase_constant_Vdc.py 82-88, DER_components_three_phase_no_Vrms_filter.py 84-90). -/
noncomputable def S_PCC_calc (k : Kind) (s : Inst) : Except Err ℂ :=
  match k, s.bc with
  | .single, _ => .ok ((1 / 2) * (s.va * (starRingEnd ℂ) s.ia))
  | _, some ((_, vb, ib), (_, vc, ic)) => .ok ((1 / 2) * (s.va * (starRingEnd ℂ) s.ia + vb * (starRingEnd ℂ) ib + vc * (starRingEnd ℂ) ic) * 1)
  | _, none => .error .attributeError

/-- `S_load1_calc` (DER_components_single_phase.py 91-96, DER_components_single_phase_constant_Vdc.py 88-91; DER_components_three_phase.py 93-98,
DER_components_three_phase_balanced.py 94-100, DER_components_three_phase_constant_Vdc.py 91-97, DER_components_three_phase_no_Vrms_filter.py 93-98). -/
noncomputable def S_load1_calc (k : Kind) (s : Inst) : Except Err ℂ :=
  match k, s.bc with
  | .single, _ => .ok ((1 / 2) * (s.va * (starRingEnd ℂ) (-(s.va / s.ZL))))
  | _, some ((_, vb, _), (_, vc, _)) =>
    .ok ((1 / 2) * (s.va * (starRingEnd ℂ) (-(s.va / s.ZL)) + vb * (starRingEnd ℂ) (-(vb / s.ZL)) + vc * (starRingEnd ℂ) (-(vc / s.ZL))))
  | _, none => .error .attributeError

/-- `S_G_calc` (DER_components_single_phase.py 98-103, DER_components_single_phase_constant_Vdc.py 93-98; DER_components_three_phase.py 101-106,
DER_components_three_phase_balanced.py 103-108, DER_components_three_phase_constant_Vdc.py 100-107, DER_components_three_phase_no_Vrms_filter.py 101-106). -/
noncomputable def S_G_calc (k : Kind) (s : Inst) : Except Err ℂ :=
  match k, s.bc with
  | .single, _ => .ok ((1 / 2) * (starRingEnd ℂ) (-(s.ia - s.va / s.ZL) / s.a) * s.vag)
  | _, some ((_, vb, ib), (_, vc, ic)) =>
    .ok ((1 / 2) * ((starRingEnd ℂ) (-(s.ia - s.va / s.ZL) / s.a) * s.vag + (starRingEnd ℂ) (-(ib - vb / s.ZL) / s.a) * s.vbg +
      (starRingEnd ℂ) (-(ic - vc / s.ZL) / s.a) * s.vcg))
  | _, none => .error .attributeError

/-- `Vtrms_calc` (DER_components_single_phase.py 106-111, DER_components_single_phase_constant_Vdc.py 101-106; DER_components_three_phase.py 110-115,
DER_components_three_phase_balanced.py 111-116, DER_components_three_phase_constant_Vdc.py 111-116, DER_components_three_phase_no_Vrms_filter.py 110-115). -/
noncomputable def Vtrms_calc (k : Kind) (s : Inst) : Except Err ℝ :=
  match k, s.bc with
  | .single, _ => .ok (urms s.vta s.vta s.vta)
  | _, some ((vtb, _, _), (vtc, _, _)) => .ok (urms s.vta vtb vtc)
  | _, none => .error .attributeError

/-- `Vrms_calc` (DER_components_single_phase.py 113-118, DER_components_single_phase_constant_Vdc.py 108-113; DER_components_three_phase.py 118-123,
DER_components_three_phase_balanced.py 119-124, DER_components_three_phase_constant_Vdc.py 119-124, DER_components_three_phase_no_Vrms_filter.py 118-123). -/
noncomputable def Vrms_calc (k : Kind) (s : Inst) : Except Err ℝ :=
  match k, s.bc with
  | .single, _ => .ok (urms s.va s.va s.va)
  | _, some ((_, vb, _), (_, vc, _)) => .ok (urms s.va vb vc)
  | _, none => .error .attributeError

/-- `Vrms_min_calc` (DER_components_three_phase.py 125-128, DER_components_three_phase_constant_Vdc.py 127-130, DER_components_three_phase_no_Vrms_filter.py
125-128); the other classes have no such method. -/
noncomputable def Vrms_min_calc (k : Kind) (s : Inst) : Except Err ℝ :=
  match k, s.bc with
  | .three, some ((_, vb, _), (_, vc, _)) => .ok (urmsMin s.va vb vc)
  | _, _ => .error .attributeError

/-- `Irms_calc` (DER_components_single_phase.py 120-125, DER_components_single_phase_constant_Vdc.py 115-118; DER_components_three_phase.py 130-135,
DER_components_three_phase_balanced.py 127-132, DER_components_three_phase_constant_Vdc.py 133-138, DER_components_three_phase_no_Vrms_filter.py 130-135). -/
noncomputable def Irms_calc (k : Kind) (s : Inst) : Except Err ℝ :=
  match k, s.bc with
  | .single, _ => .ok (urms s.ia s.ia s.ia)
  | _, some ((_, _, ib), (_, _, ic)) => .ok (urms s.ia ib ic)
  | _, none => .error .attributeError

/-- `Vtabrms_calc` (DER_components_three_phase.py 137-140, DER_components_three_phase_balanced.py 135-140, DER_components_three_phase_constant_Vdc.py 141-146,
DER_components_three_phase_no_Vrms_filter.py 137-140); the single-phase classes have no such method. -/
noncomputable def Vtabrms_calc (k : Kind) (s : Inst) : Except Err ℝ :=
  match k, s.bc with
  | .single, _ => .error .attributeError
  | _, some ((vtb, _, _), _) => .ok (‖s.vta - vtb‖ / Real.sqrt 2)
  | _, none => .error .attributeError

/-- `Vabrms_calc` (DER_components_three_phase.py 142-147, DER_components_three_phase_balanced.py 143-148, DER_components_three_phase_constant_Vdc.py 149-154,
DER_components_three_phase_no_Vrms_filter.py 142-147; DER_components_single_phase.py 127-132, DER_components_single_phase_constant_Vdc.py 120-125: it reads
`self.vb`). -/
noncomputable def Vabrms_calc (_k : Kind) (s : Inst) : Except Err ℝ :=
  match s.bc with
  | some ((_, vb, _), _) => .ok (‖s.va - vb‖ / Real.sqrt 2)
  | none => .error .attributeError

/-- Attributes stored by `update_RMS` (DER_components_single_phase.py 167-179, DER_components_single_phase_constant_Vdc.py 156-167;
DER_components_three_phase.py 194-208, DER_components_three_phase_balanced.py 192-205, DER_components_three_phase_constant_Vdc.py 199-214,
DER_components_three_phase_no_Vrms_filter.py 193-207):
`(Vtrms, Vrms, Vrms_min, Irms)`; the line-to-line values with `DO_EXTRA_CALCULATIONS` are `Vtabrms_calc` and `Vabrms_calc`. -/
noncomputable def updateRms (k : Kind) (s : Inst) : Except Err (ℝ × ℝ × ℝ × ℝ) := do
  let vt ← Vtrms_calc k s
  let v ← Vrms_calc k s
  let vmin ← if k = .three then Vrms_min_calc k s else .ok v
  let i ← Irms_calc k s
  return (vt, v, vmin, i)

/-- `S_PCCa`, `S_PCCb`, `S_PCCc` stored by `update_power` of the three-phase classes with `DO_EXTRA_CALCULATIONS` (DER_components_three_phase.py 217-220,
DER_components_three_phase_balanced.py 214-217, DER_components_three_phase_constant_Vdc.py 222-225,
DER_components_three_phase_no_Vrms_filter.py 216-219; `S_PCCph_calc`, DER_utilities.py 346-351). -/
noncomputable def phasePowers (s : Inst) : Except Err (ℂ × ℂ × ℂ) :=
  match s.bc with
  | some ((_, vb, ib), (_, vc, ic)) => .ok (sPh s.va s.ia, sPh vb ib, sPh vc ic)
  | none => .error .attributeError

end Measured
end PvDer
