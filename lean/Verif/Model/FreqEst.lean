import Mathlib.Analysis.SpecialFunctions.Complex.Arg
import Verif.Model.Basic

/-!
# Model of the frequency estimate from the voltage angle (`wgrid_calc`, `wgrid_estimate`, `wgrid_estimate_calc`)

Real arithmetic.  One evaluation is a pair (time, voltage phasor of phase a: the grid source in stand-alone mode, the PCC voltage otherwise).
-/

namespace PvDer
namespace FreqEst

/-- `_vag_previous` / `_va_previous` (DER_components.py 234-235), `_t_estimate_frequency_previous`, `_westimate` (DER_utilities.py 52-53), `wgrid_measured`. -/
structure St where
  vPrev : ℂ
  tPrev : ℝ
  west : ℝ
  wmeas : ℝ

/-- Class-level defaults (DER_utilities.py 52-53) and the first `update_inverter_frequency(t=0.0)` (DER_check_and_initialize.py 346), which leaves `wgrid_measured = _westimate`. -/
noncomputable def St.init (v : ℂ) : St := ⟨v, 0, 2 * Real.pi * 60, 2 * Real.pi * 60⟩

/-- `wgrid_estimate_calc` (DER_utilities.py 274-283); `dt` is the class constant `_del_t_frequency_estimate`. -/
noncomputable def estCalc (dt wmeas phiNew phiPrev : ℝ) : ℝ :=
  let del_f := (phiNew - phiPrev) / ((2 * Real.pi) * dt)
  let fest := wmeas / (2 * Real.pi) + del_f
  2 * Real.pi * fest

open Classical in
/-- `wgrid_estimate` (DER_utilities.py 250-271). -/
noncomputable def estimate (dt : ℝ) (s : St) (t : ℝ) (v : ℂ) : St :=
  if t > s.tPrev then
    if |Complex.arg s.vPrev - Complex.arg v| > 0 then
      { s with vPrev := v, tPrev := t, west := estCalc dt s.wmeas (Complex.arg v) (Complex.arg s.vPrev) }
    else s
  else s

/-- One evaluation with `use_frequency_estimate`: `self.wgrid_measured = self.wgrid_calc(t)` (DER_utilities.py 236-247, DER_components_single_phase.py 213). -/
noncomputable def step (dt : ℝ) (s : St) (x : ℝ × ℂ) : St :=
  let s' := estimate dt s x.1 x.2
  { s' with wmeas := s'.west }

/-- A history of evaluations. -/
noncomputable def run (dt : ℝ) (s : St) (h : List (ℝ × ℂ)) : St := h.foldl (step dt) s

/-- `wgrid_calc` (DER_utilities.py 236-247): which frequency is used. -/
noncomputable def wgridCalc (useEst standAlone : Bool) (est gridModel external : ℝ) : ℝ :=
  if useEst then est else if standAlone then gridModel else external

end FreqEst
end PvDer
