import Verif.Model.Session
import Verif.Model.RTInit

/-!
# Loop mode: a co-simulation as a sequence of `run_simulation(gridVoltagePhaseA=…, y0=…, t=…)` calls

In loop mode a host program supplies, at every step, the voltages at the point of connection, the initial states and the times of the interval
(dynamic_simulation.py 934-947).  `Model/Session.lean` has one such call (`runLoop`); here the voltages given are stored in the DER, as in
`update_grid_measurements`, and calls are made one after the other.  Only calls with arguments of the right types are modelled (the others raise `ValueError` before
anything is changed, C63/C100: `Sim.loopArgs`).  Between the calls the host may also call methods of the events object (`LAct.edit`).
-/

namespace PvDer
namespace Session

open Complex Phasor Ode Eval

/-- `update_grid_measurements` (dynamic_simulation.py 980-996): the voltages of the DER model; its frequency attribute is not touched. -/
noncomputable def Ext.measure (mt : Sim.Mt) (a b cc : ℂ) (x : Ext) : Ext :=
  match mt with
  | .three | .noFilter | .numba | .constVdc3 => { x with va := a, vb := b, vc := cc }
  | .balanced => { x with va := a, vb := ub a, vc := uc a }
  | .single | .constVdc1 => { x with va := a }

/-- One call by the host: solver, voltages, initial states and times. -/
structure LStep (k : Cls) where
  sv : Solver k
  va : ℂ
  vb : ℂ
  vc : ℂ
  y0 : k.V → ℝ
  ts : List ℝ

/-- What is kept between the calls: the voltages and frequency stored in the DER, and all other attributes. -/
structure Co (k : Cls) where
  x : Ext
  s : Sess k

/-- One call of `run_simulation` in loop mode (dynamic_simulation.py 931-947, 972-975). -/
noncomputable def coStep (mt : Sim.Mt) (c : Cfg (Config.clsOf mt)) (w : Co (Config.clsOf mt)) (a : LStep (Config.clsOf mt)) :
    Co (Config.clsOf mt) × Except Err Unit :=
  let x := w.x.measure mt a.va a.vb a.vc
  (⟨x, (runLoop c a.sv x a.y0 a.ts w.s).1⟩, (runLoop c a.sv x a.y0 a.ts w.s).2)

/-- A co-simulation. -/
noncomputable def coRun (mt : Sim.Mt) (c : Cfg (Config.clsOf mt)) (w : Co (Config.clsOf mt)) (l : List (LStep (Config.clsOf mt))) : Co (Config.clsOf mt) :=
  l.foldl (fun w a => (coStep mt c w a).1) w

/-- All calls return normally. -/
def CoReturn (mt : Sim.Mt) (c : Cfg (Config.clsOf mt)) (w : Co (Config.clsOf mt)) : List (LStep (Config.clsOf mt)) → Prop
  | [] => True
  | a :: l => (coStep mt c w a).2 = .ok () ∧ CoReturn mt c (coStep mt c w a).1 l

/-- The evaluations the solver makes in one call. -/
noncomputable def stepCalls (mt : Sim.Mt) (c : Cfg (Config.clsOf mt)) (w : Co (Config.clsOf mt)) (a : LStep (Config.clsOf mt)) : List (Call (Config.clsOf mt)) :=
  trace c.g c.J (w.x.measure mt a.va a.vb a.vc) (a.sv a.y0 a.ts) w.s.h

/-- The evaluations of the whole co-simulation. -/
noncomputable def coCalls (mt : Sim.Mt) (c : Cfg (Config.clsOf mt)) (w : Co (Config.clsOf mt)) : List (LStep (Config.clsOf mt)) → List (Call (Config.clsOf mt))
  | [] => []
  | a :: l => stepCalls mt c w a ++ coCalls mt c (coStep mt c w a).1 l

/-- What a host does: a call of `run_simulation` in loop mode, or a call of a method of the events object (simulation_events.py). -/
inductive LAct (k : Cls)
  | call (a : LStep k)
  | edit (o : Events.Op ℝ)

/-- One action of the host; a call on the events object may raise, the host carries on. -/
noncomputable def coAct (mt : Sim.Mt) (c : Cfg (Config.clsOf mt)) (w : Co (Config.clsOf mt)) : LAct (Config.clsOf mt) → Co (Config.clsOf mt) × Except Err Unit
  | .call a => coStep mt c w a
  | .edit o => (⟨w.x, { w.s with h := { w.s.h with ev := Events.step c.g.evc c.g.sp w.s.h.ev o } }⟩, .ok ())

/-- A co-simulation with editing between the calls. -/
noncomputable def coActs (mt : Sim.Mt) (c : Cfg (Config.clsOf mt)) (w : Co (Config.clsOf mt)) (l : List (LAct (Config.clsOf mt))) : Co (Config.clsOf mt) :=
  l.foldl (fun w a => (coAct mt c w a).1) w

/-- All calls of `run_simulation` return normally. -/
def CoActReturn (mt : Sim.Mt) (c : Cfg (Config.clsOf mt)) (w : Co (Config.clsOf mt)) : List (LAct (Config.clsOf mt)) → Prop
  | [] => True
  | a :: l => (coAct mt c w a).2 = .ok () ∧ CoActReturn mt c (coAct mt c w a).1 l

end Session
end PvDer
