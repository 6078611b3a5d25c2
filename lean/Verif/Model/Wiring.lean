import Verif.Model.Session
import Mathlib.Logic.Function.Basic

/-!
# Which events object and which grid object is used by what

`SolarPV_DER(events=…, gridModel=…)`, `Grid(events=…)` and `DynamicSimulation(events=…, gridModel=…)` each keep a reference of their own (DER_components.py 49,
DER_check_and_initialize.py 580, grid_components.py 46, dynamic_simulation.py 57, 68), and nothing checks that they are the same objects.  `Model/Session.lean` models the
documented use, with one events object and one grid.  Here the references are arbitrary: `I` names the events objects that exist, `J` the grids.

* an evaluation calls `steady_state_model` of the grid of the *simulation*, which asks the events object of *that grid* (dynamic_simulation.py 325-326, 341-342;
  grid_components.py 94);
* the DER then asks *its* events object for weather and load and takes the source voltage and frequency from *its* grid (DER_utilities.py 193-231, 242, 255, 298, 336);
* after the run the counters of the events object of the *simulation* are reset and the reported series are computed from the schedules of that object and written into the grid of
  the simulation (dynamic_simulation.py 484-495, 512, 564-570, 581-589, 969).
-/

namespace PvDer
namespace Wiring

open Complex Phasor Ode Eval Session

/-- The references, and the constants of the objects: specification and `override_angle`, `del_t_event` of each events object, line impedance of each grid. -/
structure Wires (I J : Type) where
  /-- `DER_model.events` (DER_components.py 49) -/
  derEv : I
  /-- `sim.simulation_events` (dynamic_simulation.py 57) -/
  simEv : I
  /-- `DER_model.grid_model` (DER_check_and_initialize.py 580) -/
  derGrid : J
  /-- `sim.grid_model` (dynamic_simulation.py 68) -/
  simGrid : J
  /-- `grid.events` (grid_components.py 46) -/
  gridEv : J → I
  evc : I → Events.Cfg ℝ
  sp : I → Events.EvSpec ℝ
  /-- `grid.Z2` (grid_components.py 62) -/
  Z2 : J → ℂ

/-- The objects.  The fields `s.h.ev` and `s.h.grid` of the session are not used here. -/
structure World (k : Cls) (I J : Type) where
  evs : I → Events.St ℝ
  grids : J → Grid.GSt
  s : Sess k

variable {k : Cls} {I J : Type} [DecidableEq I] [DecidableEq J]

/-- Constants as the DER sees them. -/
def Wires.der (w : Wires I J) (g : SCfg) : SCfg := { g with evc := w.evc w.derEv, sp := w.sp w.derEv, Z2 := w.Z2 w.derGrid }

/-- Constants as the simulation object sees them. -/
def Wires.sim (w : Wires I J) (g : SCfg) : SCfg := { g with evc := w.evc w.simEv, sp := w.sp w.simEv, Z2 := w.Z2 w.simGrid }

/-- The DER with its events and its grid. -/
def derView (w : Wires I J) (W : World k I J) : Hid := { W.s.h with ev := W.evs w.derEv, grid := W.grids w.derGrid }

/-- The simulation object with its events and its grid. -/
def simView (w : Wires I J) (W : World k I J) : Sess k := { W.s with h := { W.s.h with ev := W.evs w.simEv, grid := W.grids w.simGrid } }

/-- `self.grid_model.steady_state_model(t)` (dynamic_simulation.py 325-326, 341-342; grid_components.py 91-114). -/
noncomputable def gridCall (w : Wires I J) (g : SCfg) (t : ℝ) (W : World k I J) : World k I J × Except Err Unit :=
  if g.standAlone then
    let i := w.gridEv w.simGrid
    let r := Grid.steadyState (w.evc i) (w.sp i) (W.evs i, W.grids w.simGrid) t
    ({ W with evs := Function.update W.evs i r.1.1, grids := Function.update W.grids w.simGrid r.1.2 }, r.2)
  else (W, .ok ())

/-- `ODE_model` or `jac_ODE_model` of the DER: the evaluation of `Model/Eval.lean` without the call of the grid (e.g. DER_components_three_phase.py 149-291). -/
noncomputable def evalRest (k : Cls) (g : SCfg) (c : Call k) (h : Hid) : Hid × Except Err Env :=
  andThen (solarStage k g c.t (stateStage k c.y h)) fun _ h2 =>
  andThen (loadStage k g c.jac c.t h2) fun _ h3 =>
  andThen (dcStage k c.t (qStage k g c h3)) fun _ h4 =>
  rtStage k g c (freqStage k g c (irefStage k g c h4))

/-- The same with the objects of the DER: it changes its attributes, the counters of its events object, and its state attributes. -/
noncomputable def derCall (w : Wires I J) (g : SCfg) (c : Call k) (W : World k I J) : World k I J × Except Err Env :=
  let r := evalRest k (w.der g) c (derView w W)
  ({ evs := Function.update W.evs w.derEv r.1.ev, grids := Function.update W.grids w.derGrid r.1.grid, s := { W.s with h := r.1, y := c.y } }, r.2)

/-- `ODE_model` or `jac_ODE_model` of the simulation object (dynamic_simulation.py 320-350). -/
noncomputable def evalW (w : Wires I J) (g : SCfg) (c : Call k) (W : World k I J) : World k I J × Except Err Env :=
  match gridCall w g c.t W with
  | (W1, .error e) => (W1, .error e)
  | (W1, .ok _) => derCall w g c W1

/-- Running the solver, cf. `Session.exec`. -/
noncomputable def execW (w : Wires I J) (g : SCfg) (Jm : Env → k.V → k.V → ℝ) (x : Ext) : Strat k → World k I J → World k I J × Except Err (List (k.V → ℝ) × List Int)
  | .done r m, W => (W, .ok (r, m))
  | .ask j y t next, W =>
    match evalW w g (mkCall x j y t) W with
    | (W', .error e) => (W', .error e)
    | (W', .ok e) => execW w g Jm x (next (if j then .inr (Jm e) else .inl (k.rhs e))) W'

/-- The calls made, cf. `Session.trace`. -/
noncomputable def traceW (w : Wires I J) (g : SCfg) (Jm : Env → k.V → k.V → ℝ) (x : Ext) : Strat k → World k I J → List (Call k)
  | .done _ _, _ => []
  | .ask j y t next, W =>
    mkCall x j y t :: (match evalW w g (mkCall x j y t) W with
      | (_, .error _) => []
      | (W', .ok e) => traceW w g Jm x (next (if j then .inr (Jm e) else .inl (k.rhs e))) W')

/-- Resets at the end of a run: the counters of the events object of the simulation, and the counter of the DC references (dynamic_simulation.py 969-970). -/
def resetsW (w : Wires I J) (W : World k I J) : World k I J :=
  { W with evs := Function.update W.evs w.simEv (Events.resetCounters (W.evs w.simEv)), s := { W.s with h := { W.s.h with rt := { W.s.h.rt with w := VdcRef.reset W.s.h.rt.w } } } }

/-- `collect_simulation_results` or `collect_states` (dynamic_simulation.py 648-660, 972-975): with the objects of the simulation. -/
noncomputable def finishW (w : Wires I J) (c : Cfg k) (ts : List ℝ) (rows : List (k.V → ℝ)) (W : World k I J) : World k I J × Except Err Unit :=
  let r := finish { c with g := w.sim c.g } ts rows (simView w W)
  ({ evs := Function.update W.evs w.simEv r.1.h.ev, grids := Function.update W.grids w.simGrid r.1.h.grid, s := r.1 }, r.2)

/-- `run_simulation()` with `loopMode=False` and the solver `odeint` (dynamic_simulation.py 948-975), cf. `Session.runSim`. -/
noncomputable def runSimW (w : Wires I J) (c : Cfg k) (sv : Solver k) (W : World k I J) : World k I J × Except Err Unit :=
  match execW w c.g c.J c.x (sv W.s.y c.ts) { W with s := { W.s with t := c.ts, rows := [W.s.y] } } with
  | (W1, .error e) => (W1, .error e)
  | (W1, .ok (rows, mused)) =>
    match check c.ts mused W1.s with
    | (s1, .error e) => ({ W1 with s := s1 }, .error e)
    | (s1, .ok _) => finishW w c c.ts rows (resetsW w { W1 with s := s1 })

/-- Successive calls. -/
noncomputable def runsW (w : Wires I J) (c : Cfg k) : List (Solver k) → World k I J → World k I J
  | [], W => W
  | sv :: l, W => runsW w c l (runSimW w c sv W).1

/-- A sequence of evaluations. -/
noncomputable def runW (w : Wires I J) (g : SCfg) (W : World k I J) (l : List (Call k)) : World k I J := l.foldl (fun W c => (evalW w g c W).1) W

end Wiring
end PvDer
