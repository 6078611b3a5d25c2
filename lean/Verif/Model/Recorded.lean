import Verif.Model.Sim
import Verif.Model.Measured

/-!
# The recorded RMS values, phase angles and line power of `DynamicSimulation` (pvder/dynamic_simulation.py)

Exact arithmetic; NumPy arrays are lists.  `np.angle` is the argument in (-π, π]; with signed zeros NumPy returns -π for a negative real number with imaginary part `-0.0`, which is not modelled.
An attribute that a class or mode does not set is `none`, and reading it is an `AttributeError`.
-/

namespace PvDer
namespace Recorded
open Complex Phasor Sim

/-- `m_time_series` (utility_functions.py 261-267). -/
noncomputable def mSeries (u x : List ℂ) (Kp : ℝ) : Except Err (List ℂ) :=
  if u.length = x.length then .ok (List.zipWith (fun u x => Kp * u + x) u x) else .error .assertionError

/-- `Vinv_terminal_time_series` (utility_functions.py 253-259). -/
noncomputable def vtSeries (m : List ℂ) (vdc : List ℝ) : Except Err (List ℂ) :=
  if m.length = vdc.length then .ok (List.zipWith (fun m v => m * ((v / 2 : ℝ) : ℂ)) m vdc) else .error .assertionError

/-- `Urms_time_series` (utility_functions.py 16-22). -/
noncomputable def rmsSeries (a b c : List ℂ) : Except Err (List ℝ) :=
  if a.length = b.length ∧ b.length = c.length then
    .ok (List.zipWith (fun a (bc : ℂ × ℂ) => Real.sqrt ((‖a‖ ^ 2 + ‖bc.1‖ ^ 2 + ‖bc.2‖ ^ 2) / 3) / Real.sqrt 2) a (b.zip c)) else .error .assertionError

/-- `Uphrms_time_series` (utility_functions.py 25-30). -/
noncomputable def phRmsSeries (u : List ℂ) : List ℝ := u.map fun z => ‖z‖ / Real.sqrt 2

/-- `Uabsolute_time_series` (utility_functions.py 33-38). -/
noncomputable def absSeries (u : List ℂ) : List ℝ := u.map fun z => ‖z‖

/-- The recorded voltages and currents `vta_t`, `va_t`, `ia_t`, … -/
structure Rec where
  vta : List ℂ
  va : List ℂ
  ia : List ℂ
  /-- `(vtb_t, vb_t, ib_t)` and `(vtc_t, vc_t, ic_t)` of the three-phase classes -/
  bc : Option ((List ℂ × List ℂ × List ℂ) × (List ℂ × List ℂ × List ℂ))
  /-- `(vag_t, vbg_t, vcg_t)` and `(vaHV_t, vbHV_t, vcHV_t)` in stand-alone mode -/
  grid : Option ((List ℂ × List ℂ × List ℂ) × (List ℂ × List ℂ × List ℂ))

/-- The RMS series. -/
structure Rms where
  Vt : List ℝ
  V : List ℝ
  I : List ℝ
  Va : List ℝ
  /-- `Vbrms_t`, `Vcrms_t` -/
  Vbc : Option (List ℝ × List ℝ)
  /-- `Vgrms_t`, `Vhvrms_t` -/
  grid : Option (List ℝ × List ℝ)

/-- `time_series_RMS` (dynamic_simulation.py 452-472). -/
noncomputable def timeSeriesRms (mt : Mt) (standAlone : Bool) (s : Rec) : Except Err Rms := do
  let r ← (if isThree mt then
      (match s.bc with
      | none => .error .attributeError
      | some ((vtb, vb, ib), (vtc, vc, ic)) => do
        let vt ← rmsSeries s.vta vtb vtc
        let v ← rmsSeries s.va vb vc
        let i ← rmsSeries s.ia ib ic
        return { Vt := vt, V := v, I := i, Va := phRmsSeries s.va, Vbc := some (phRmsSeries vb, phRmsSeries vc), grid := none })
    else do
      let vt ← rmsSeries s.vta s.vta s.vta
      let v ← rmsSeries s.va s.va s.va
      let i ← rmsSeries s.ia s.ia s.ia
      return { Vt := vt, V := v, I := i, Va := v, Vbc := none, grid := none } : Except Err Rms)
  if standAlone then
    match s.grid with
    | none => .error .attributeError
    | some ((a, b, c), (x, y, z)) => do
      let g ← rmsSeries a b c
      let h ← rmsSeries x y z
      return { r with grid := some (g, h) }
  else return r

/-- The angle series `phi_at_t`, `phi_a_t`, …; `bc` holds `(phi_bt_t, phi_b_t)`, `(phi_ct_t, phi_c_t)`, `grid` holds `(phi_aHV_t, phi_ag_t)`, `gridBC` those of phases b and c. -/
structure Angles where
  vta : List ℝ
  va : List ℝ
  bc : Option ((List ℝ × List ℝ) × (List ℝ × List ℝ))
  grid : Option (List ℝ × List ℝ)
  gridBC : Option ((List ℝ × List ℝ) × (List ℝ × List ℝ))

/-- `time_series_phase_angle` (dynamic_simulation.py 616-638). -/
noncomputable def timeSeriesAngle (mt : Mt) (standAlone : Bool) (s : Rec) : Except Err Angles :=
  if s.va.length = s.vta.length then do
    let g ← (if standAlone then (match s.grid with | none => .error .attributeError | some ((a, _, _), (x, _, _)) => .ok (some (x.map arg, a.map arg))) else .ok none : Except Err (Option (List ℝ × List ℝ)))
    let bc ← (if isThree mt then (match s.bc with | none => .error .attributeError | some ((vtb, vb, _), (vtc, vc, _)) => .ok (some ((vtb.map arg, vb.map arg), (vtc.map arg, vc.map arg)))) else .ok none :
      Except Err (Option ((List ℝ × List ℝ) × (List ℝ × List ℝ))))
    let gbc ← (if isThree mt ∧ standAlone then (match s.grid with | none => .error .attributeError | some ((_, b, c), (_, y, z)) => .ok (some ((y.map arg, b.map arg), (z.map arg, c.map arg)))) else .ok none :
      Except Err (Option ((List ℝ × List ℝ) × (List ℝ × List ℝ))))
    return { vta := s.vta.map arg, va := s.va.map arg, bc := bc, grid := g, gridBC := gbc }
  else .error .assertionError

/-- `time_series_power_transfer` (dynamic_simulation.py 641-646; its call at 752 is commented out, so it runs only when a user calls it).  Arrays of equal length. -/
noncomputable def powerTransfer (r : Rms) (p : Angles) (Z2 : ℂ) : Except Err (List ℝ) :=
  match r.grid, p.grid with
  | some (g, h), some (φh, φg) => .ok (List.zipWith (fun (vv : ℝ × ℝ) (pp : ℝ × ℝ) => vv.2 * vv.1 * Real.sin (pp.1 - pp.2) / ‖Z2‖) (g.zip h) (φh.zip φg))
  | _, _ => .error .attributeError

end Recorded
end PvDer
