import Verif.Model.Phasor
import Verif.Model.Events

/-!
# Model of the grid voltage source (`pvder/grid_components.py`)
-/

namespace PvDer
namespace Grid

open Complex Phasor Events

/-- Attributes of a `Grid` instance (grid_components.py 31-75): set-points `Vagrid, Vbgrid, Vcgrid, wgrid`, the times of the last changes
(`_t_voltage_previous`, `_t_frequency_previous`: class attributes shadowed by instance attributes on assignment), the source voltages `vag, vbg, vcg`,
the unbalance ratios and the RMS value. -/
structure GSt where
  Va : ℂ
  Vb : ℂ
  Vc : ℂ
  w : ℝ
  tV : ℝ
  tF : ℝ
  va : ℂ
  vb : ℂ
  vc : ℂ
  rb : ℝ
  rc : ℝ
  vrms : ℝ

/-- `Vgridrated/Vbase` (grid_components.py 13, 30). -/
noncomputable def scale : ℝ := 20415 / 500

/-- Conversion of the scheduled triple into phasor and angular frequency: `cmath.rect(Vgrid,Vgrid_angle), 2.0*math.pi*fgrid`
(simulation_events.py 159), and the scaling of the phasor (grid_components.py 69, 95). -/
noncomputable def phasorOf (v : GridVal ℝ) : ℂ := (v.V * ej v.ang) * scale
/-- see `phasorOf`. -/
noncomputable def omegaOf (v : GridVal ℝ) : ℝ := 2 * Real.pi * v.f

/-- `Grid.__init__` (grid_components.py 68-77) given the result of `events.grid_events(t=0.0)`. -/
noncomputable def ctor (rb rc : ℝ) (v : GridVal ℝ) : GSt :=
  let Va := phasorOf v
  { Va := Va, Vb := ub (Va * rb), Vc := uc (Va * rc), w := omegaOf v, tV := 0, tF := 0, va := Va, vb := ub (Va * rb), vc := uc (Va * rc),
    rb := rb, rc := rc, vrms := urms Va (ub (Va * rb)) (uc (Va * rc)) }

open Classical in
/-- `steady_state_model` (grid_components.py 91-114) given the result of `events.grid_events(t)`.  `abs(a-b) > 0.0` is `a ≠ b`. -/
noncomputable def update (g : GSt) (t : ℝ) (v : GridVal ℝ) : GSt :=
  let g1 : GSt := if ‖g.Va - phasorOf v‖ > 0 ∧ t ≥ g.tV then
      { g with Va := phasorOf v, Vb := ub (phasorOf v * g.rb), Vc := uc (phasorOf v * g.rc), tV := t } else g
  let g2 : GSt := if |g1.w - omegaOf v| > 0 ∧ t ≥ g1.tF then { g1 with w := omegaOf v, tF := t } else g1
  { g2 with va := g2.Va, vb := g2.Vb, vc := g2.Vc }

/-- `steady_state_model` together with the query of the events object (an exception of the query propagates before any change of the grid). -/
noncomputable def steadyState (c : Cfg ℝ) (sp : EvSpec ℝ) (x : St ℝ × GSt) (t : ℝ) : (St ℝ × GSt) × Except Err Unit :=
  match gridEvents c sp x.1 t with
  | (ev, .error e) => ((ev, x.2), .error e)
  | (ev, .ok v) => ((ev, update x.2 t v), .ok ())

/-- `Grid(events, …)` including its query at `t = 0` (grid_components.py 68). -/
noncomputable def new (c : Cfg ℝ) (sp : EvSpec ℝ) (ev : St ℝ) (rb rc : ℝ) : St ℝ × Except Err GSt :=
  match gridEvents c sp ev 0 with
  | (ev', .error e) => (ev', .error e)
  | (ev', .ok v) => (ev', .ok (ctor rb rc v))

/-- The grid after each call of `steady_state_model` at the given times. -/
noncomputable def traj (c : Cfg ℝ) (sp : EvSpec ℝ) (x : St ℝ × GSt) : List ℝ → List (GSt × Except Err Unit)
  | [] => []
  | t :: ts => ((steadyState c sp x t).1.2, (steadyState c sp x t).2) :: traj c sp (steadyState c sp x t).1 ts

/-- Any sequence of updates with arbitrary times and scheduled values. -/
noncomputable def runU (g : GSt) (h : List (ℝ × GridVal ℝ)) : GSt := h.foldl (fun g x => update g x.1 x.2) g

end Grid
end PvDer
