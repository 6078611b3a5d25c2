import Verif.Model.Session
import Mathlib.Logic.Function.Basic

/-!
# Several simulations that share one events object

The constructors of the DER classes and of `DynamicSimulation` store a *reference* to the `SimulationEvents` object they are given (DER_components.py 46-49,
grid_components.py 34-46, dynamic_simulation.py 38-58), so one events object can be passed to any number of DERs and simulations; its schedules and its playback counters
(simulation_events.py 32-79) are then common to all of them.  `Model/Session.lean` models one simulation with its events object; here any family of simulations, of any of
the DER classes, uses one object.  In a `Fleet` each simulation has its own `Grid`; in a `Plant` all DERs also hold a reference to one `Grid` object.
-/

namespace PvDer
namespace Session

open Complex Phasor Ode Eval

/-- The simulations, and the one events object.  The field `h.ev` of a single simulation is only a copy: what the simulation sees is `own`. -/
structure Fleet {ι : Type} (k : ι → Cls) where
  ev : Events.St ℝ
  sess : ∀ i, Sess (k i)

/-- Constants: settings of the events object (simulation_events.py 24-29) and of each simulation. -/
structure FCfg {ι : Type} (k : ι → Cls) where
  evc : Events.Cfg ℝ
  sp : Events.EvSpec ℝ
  der : ∀ i, Cfg (k i)

/-- Constants of simulation `i`, with the settings of the shared object. -/
def FCfg.cfg {ι : Type} {k : ι → Cls} (C : FCfg k) (i : ι) : Cfg (k i) := { C.der i with g := { (C.der i).g with evc := C.evc, sp := C.sp } }

/-- Simulation `i` as it finds itself: its own attributes and the shared events object. -/
def Fleet.own {ι : Type} {k : ι → Cls} (F : Fleet k) (i : ι) : Sess (k i) := { F.sess i with h := { (F.sess i).h with ev := F.ev } }

/-- Simulation `i` after a call, the events object as this call leaves it. -/
def Fleet.put {ι : Type} [DecidableEq ι] {k : ι → Cls} (F : Fleet k) (i : ι) (s : Sess (k i)) : Fleet k := ⟨s.h.ev, Function.update F.sess i s⟩

/-- What a user does: `run_simulation()` of one of the simulations, one step of it in loop mode, a call on the events object. -/
inductive FAct {ι : Type} (k : ι → Cls)
  | sim (i : ι) (sv : Solver (k i))
  | step (i : ι) (sv : Solver (k i)) (x : Ext) (y0 : (k i).V → ℝ) (ts : List ℝ)
  | edit (o : Events.Op ℝ)

/-- One action (dynamic_simulation.py 931-975; simulation_events.py 184-331). -/
noncomputable def fact {ι : Type} [DecidableEq ι] {k : ι → Cls} (C : FCfg k) (F : Fleet k) : FAct k → Fleet k × Except Err Unit
  | .sim i sv => (F.put i (runSim (C.cfg i) sv (F.own i)).1, (runSim (C.cfg i) sv (F.own i)).2)
  | .step i sv x y0 ts => (F.put i (runLoop (C.cfg i) sv x y0 ts (F.own i)).1, (runLoop (C.cfg i) sv x y0 ts (F.own i)).2)
  | .edit o => (⟨Events.step C.evc C.sp F.ev o, F.sess⟩, .ok ())

/-- A sequence of actions; the user catches exceptions and carries on. -/
noncomputable def facts {ι : Type} [DecidableEq ι] {k : ι → Cls} (C : FCfg k) (F : Fleet k) (l : List (FAct k)) : Fleet k := l.foldl (fun F a => (fact C F a).1) F

/-- All calls return normally. -/
def FAllReturn {ι : Type} [DecidableEq ι] {k : ι → Cls} (C : FCfg k) (F : Fleet k) : List (FAct k) → Prop
  | [] => True
  | a :: l => (fact C F a).2 = .ok () ∧ FAllReturn C (fact C F a).1 l

/-! ### One grid source as well

The constructors of the DER classes store a reference to the `Grid` object they are given (DER_check_and_initialize.py 569-587: `attach_grid_model`), and
`DynamicSimulation` is given the same object (dynamic_simulation.py 67-70), so one source can feed several simulations; its set-points, voltages and the times of the last
changes are then common to all of them. -/

/-- The simulations, the one events object and the one grid source. -/
structure Plant {ι : Type} (k : ι → Cls) where
  ev : Events.St ℝ
  grid : Grid.GSt
  sess : ∀ i, Sess (k i)

/-- Simulation `i` as it finds itself. -/
def Plant.own {ι : Type} {k : ι → Cls} (P : Plant k) (i : ι) : Sess (k i) := { P.sess i with h := { (P.sess i).h with ev := P.ev, grid := P.grid } }

/-- Simulation `i` after a call. -/
def Plant.put {ι : Type} [DecidableEq ι] {k : ι → Cls} (P : Plant k) (i : ι) (s : Sess (k i)) : Plant k := ⟨s.h.ev, s.h.grid, Function.update P.sess i s⟩

/-- One action (dynamic_simulation.py 931-975; simulation_events.py 184-331). -/
noncomputable def pact {ι : Type} [DecidableEq ι] {k : ι → Cls} (C : FCfg k) (P : Plant k) : FAct k → Plant k × Except Err Unit
  | .sim i sv => (P.put i (runSim (C.cfg i) sv (P.own i)).1, (runSim (C.cfg i) sv (P.own i)).2)
  | .step i sv x y0 ts => (P.put i (runLoop (C.cfg i) sv x y0 ts (P.own i)).1, (runLoop (C.cfg i) sv x y0 ts (P.own i)).2)
  | .edit o => (⟨Events.step C.evc C.sp P.ev o, P.grid, P.sess⟩, .ok ())

/-- A sequence of actions; the user catches exceptions and carries on. -/
noncomputable def pacts {ι : Type} [DecidableEq ι] {k : ι → Cls} (C : FCfg k) (P : Plant k) (l : List (FAct k)) : Plant k := l.foldl (fun P a => (pact C P a).1) P

/-- All calls return normally. -/
def PAllReturn {ι : Type} [DecidableEq ι] {k : ι → Cls} (C : FCfg k) (P : Plant k) : List (FAct k) → Prop
  | [] => True
  | a :: l => (pact C P a).2 = .ok () ∧ PAllReturn C (pact C P a).1 l

/-- The times of all evaluations of the simulations in a sequence of actions. -/
noncomputable def ptimes {ι : Type} [DecidableEq ι] {k : ι → Cls} (C : FCfg k) (P : Plant k) : List (FAct k) → List ℝ
  | [] => []
  | a :: l => (match a with
      | .sim i sv => (trace (C.cfg i).g (C.cfg i).J (C.cfg i).x (sv (P.own i).y (C.cfg i).ts) (P.own i).h).map Call.t
      | .step i sv x y0 ts => (trace (C.cfg i).g (C.cfg i).J x (sv y0 ts) (P.own i).h).map Call.t
      | .edit _ => []) ++ ptimes C (pact C P a).1 l

end Session
end PvDer
