import Verif.Model.Basic

/-!
# Model of `pvder/simulation_events.py` (class `SimulationEvents`)

Simplifications, common to the whole file: numbers are elements of an ordered field `K` (no rounding, no NaN) and the `float(...)`
conversions are dropped; the phasor returned by `grid_events` is kept in polar form (magnitude, angle) and the
frequency in Hz (the code returns `cmath.rect(V, angle)` and `2π f`, see `Verif/Model/Grid.lean`);
logging is dropped.
-/

namespace PvDer
namespace Events

/-- Payload of a solar event: `'Sinsol'`, `'Tactual'` (simulation_events.py 207). -/
structure SolarVal (K : Type) where
  Sinsol : K
  Tactual : K
  deriving DecidableEq, Repr

/-- Payload of a grid event: `'Vgrid'`, `'Vgrid_angle'`, `'fgrid'` (simulation_events.py 241). -/
structure GridVal (K : Type) where
  V : K
  ang : K
  f : K
  deriving DecidableEq, Repr

/-- Payload of a load event: real and imaginary part of `'Zload1_actual'` (simulation_events.py 266). -/
structure LoadVal (K : Type) where
  Zre : K
  Zim : K
  deriving DecidableEq, Repr

/-- One line of `_events_spec` (simulation_events.py 24-27). -/
structure Range (K : Type) where
  dflt : K
  min : K
  max : K
  deriving DecidableEq, Repr

/-- The class-level dictionary `_events_spec` (simulation_events.py 24-27). -/
structure EvSpec (K : Type) where
  insolation : Range K
  voltage : Range K
  angle : Range K
  freq : Range K
  deriving DecidableEq, Repr

/-- Class constants used by the grid query: `2.0*math.pi` (as a parameter), `del_t_event`
(simulation_events.py 28, defaults.DEFAULT_DELTA_T) and `override_angle` (29). -/
structure Cfg (K : Type) where
  twoPi : K
  delT : K
  overrideAngle : Bool

/-- Instance attributes of `SimulationEvents` (simulation_events.py 48-57, 391-410). -/
structure St (K : Type) where
  solarEnable : Bool
  gridEnable : Bool
  loadEnable : Bool
  solar : List (Ev K (SolarVal K))
  grid : List (Ev K (GridVal K))
  load : List (Ev K (LoadVal K))
  solarTotal : Int
  gridTotal : Int
  loadTotal : Int
  total : Int
  solarCtr : Int
  gridCtr : Int
  loadCtr : Int
  deriving DecidableEq, Repr

variable {K : Type} [Field K] [LinearOrder K]

/-- The default contents of `_events_spec` (simulation_events.py 24-27); `2*math.pi` is the parameter `twoPi`. -/
def defaultSpec (twoPi : K) : EvSpec K :=
  { insolation := ⟨100, 25, 100⟩
    voltage := ⟨1, 1/10, 115/100⟩
    angle := ⟨0, 0, twoPi⟩
    freq := ⟨60, 56, 62⟩ }

/-- `Tactual_default` (simulation_events.py 21, defaults.Tactual). -/
def TactualDefault : K := 29815 / 100

/-- `Zload1_actual_default` (simulation_events.py 22, defaults.Zload1_actual). -/
def ZloadDefault : LoadVal K := ⟨10000000, 0⟩

/-- `__init__` (simulation_events.py 32-59): empty lists, totals and counters zero. -/
def init (solarE gridE loadE : Bool) : St K :=
  { solarEnable := solarE, gridEnable := gridE, loadEnable := loadE
    solar := [], grid := [], load := []
    solarTotal := 0, gridTotal := 0, loadTotal := 0, total := 0
    solarCtr := 0, gridCtr := 0, loadCtr := 0 }

/-- `update_event_totals` (simulation_events.py 391-399). -/
def updateTotals (s : St K) : St K :=
  { s with
    solarTotal := s.solar.length
    gridTotal := s.grid.length
    loadTotal := s.load.length
    total := (s.solar.length : Int) + s.grid.length + s.load.length }

/-- `reset_event_counters` (simulation_events.py 402-410). -/
def resetCounters (s : St K) : St K := { s with solarCtr := 0, gridCtr := 0, loadCtr := 0 }

/-- `add_solar_event` (simulation_events.py 184-212). -/
def addSolar (sp : EvSpec K) (s : St K) (T Sinsol Tactual : K) : St K × Except Err Unit :=
  if Sinsol < sp.insolation.min ∨ Sinsol > sp.insolation.max then (s, .error .valueError)
  else if Tactual > 375 ∨ Tactual < 250 then (s, .error .valueError)
  else (updateTotals { s with solar := addTimed T ⟨Sinsol, Tactual⟩ s.solar }, .ok ())

/-- `add_grid_event` (simulation_events.py 215-246); the angle is not checked. -/
def addGrid (sp : EvSpec K) (s : St K) (T V ang f : K) : St K × Except Err Unit :=
  if V < sp.voltage.min ∨ V > sp.voltage.max then (s, .error .valueError)
  else if f < sp.freq.min ∨ f > sp.freq.max then (s, .error .valueError)
  else (updateTotals { s with grid := addTimed T ⟨V, ang, f⟩ s.grid }, .ok ())

/-- `add_load_event` (simulation_events.py 249-272). -/
def addLoad (s : St K) (T Zre Zim : K) : St K × Except Err Unit :=
  if Zre < 0 then (s, .error .valueError)
  else (updateTotals { s with load := addTimed T ⟨Zre, Zim⟩ s.load }, .ok ())

/-- `remove_solar_event` (simulation_events.py 275-294).  With a time stamp, both the "found" branch (284, before the
removal on 285) and the "not found" line (288) call `logging.debug`, and `logging` is not imported: `NameError`, list unchanged.
Otherwise the list is cleared (291) and then `self.Sinsol_default` (292) does not exist: `AttributeError` with the list
already empty and the totals not updated. -/
def removeSolar (s : St K) (T : Option K) (all : Bool) : St K × Except Err Unit :=
  match T, all with
  | some _, false => (s, .error .nameError)
  | _, _ => ({ s with solar := [] }, .error .attributeError)

/-- `remove_grid_event` (simulation_events.py 297-311). -/
def removeGrid (s : St K) (T : K) : St K × Except Err Unit :=
  (updateTotals { s with grid := removeAt T s.grid }, .ok ())

/-- `remove_load_event` (simulation_events.py 314-333).  The REMOVE_ALL path clears the list (329) and then refers to the
non-existent `self.Zload1_default` (330): `AttributeError`, totals not updated. -/
def removeLoad (s : St K) (T : Option K) (all : Bool) : St K × Except Err Unit :=
  match T, all with
  | some T, false => (updateTotals { s with load := removeAt T s.load }, .ok ())
  | _, _ => ({ s with load := [] }, .error .attributeError)

/-- `solar_events` (simulation_events.py 81-103). -/
def solarEvents (sp : EvSpec K) (s : St K) (t : K) : St K × Except Err (SolarVal K) :=
  if s.solarEnable then
    let r := playback s.solar s.solarTotal s.solarCtr ⟨sp.insolation.dflt, TactualDefault⟩ t
    ({ s with solarCtr := r.1 }, r.2)
  else (s, .ok ⟨sp.insolation.dflt, TactualDefault⟩)

/-- `load_events` (simulation_events.py 162-181). -/
def loadEvents (s : St K) (t : K) : St K × Except Err (LoadVal K) :=
  if s.loadEnable then
    let r := playback s.load s.loadTotal s.loadCtr ZloadDefault t
    ({ s with loadCtr := r.1 }, r.2)
  else (s, .ok ZloadDefault)

/-- The default grid triple (simulation_events.py 115-117, 150-152). -/
def gridDefault (sp : EvSpec K) : GridVal K := ⟨sp.voltage.dflt, sp.angle.dflt, sp.freq.dflt⟩

/-- The "previous" frequency and angle used on activation (simulation_events.py 129-134 and 140-143):
the defaults for the first event, otherwise the entry before the counter. -/
def gridPrev (sp : EvSpec K) (s : St K) : Option (GridVal K) :=
  if s.gridCtr = 0 then some (gridDefault sp) else (pyGet s.grid (s.gridCtr - 1)).map Ev.v

/-- `grid_events` (simulation_events.py 106-159).  Note the order of effects on activation: the event is
re-added with the recomputed angle (or frequency) *before* the counter is advanced; if that raises, the counter stays. -/
def gridEvents (c : Cfg K) (sp : EvSpec K) (s : St K) (t : K) : St K × Except Err (GridVal K) :=
  match s.gridEnable, s.grid with
  | false, _ => (s, .ok (gridDefault sp))
  | true, [] => (s, .ok (gridDefault sp))
  | true, e0 :: rest =>
    match pyGet s.grid s.gridCtr with
    | none => (s, .error .indexError)
    | some ec =>
      if t < ec.T ∧ s.gridCtr = 0 then (s, .ok (gridDefault sp))
      else if t < ec.T ∧ s.gridCtr ≥ 1 then
        match pyGet s.grid (s.gridCtr - 1) with
        | none => (s, .error .indexError)
        | some ep => (s, .ok ep.v)
      else if t ≥ ec.T then
        if t < ((e0 :: rest).getLast (List.cons_ne_nil _ _)).T + 3 / 1000 then
          match gridPrev sp s with
          | none => (s, .error .indexError)
          | some old =>
            let new : GridVal K :=
              if c.overrideAngle then ⟨ec.v.V, old.ang + c.twoPi * (ec.v.f - old.f) * c.delT, ec.v.f⟩
              else ⟨ec.v.V, ec.v.ang, 60 + (ec.v.ang - old.ang) / (c.twoPi * c.delT)⟩
            match addGrid sp s ec.T new.V new.ang new.f with
            | (s', .error e) => (s', .error e)
            | (s', .ok _) => ({ s' with gridCtr := min (s'.gridTotal - 1) (s'.gridCtr + 1) }, .ok new)
        else ({ s with gridCtr := min (s.gridTotal - 1) (s.gridCtr + 1) }, .ok ec.v)
      else (s, .error .unboundLocal)

/-- `simulation_events_list` (simulation_events.py 453-459): concatenation sorted (stably) by `T`. -/
def merged (s : St K) : List (Ev K (SolarVal K ⊕ GridVal K ⊕ LoadVal K)) :=
  sortByT (s.solar.map (fun e => ⟨e.T, .inl e.v⟩) ++ s.grid.map (fun e => ⟨e.T, .inr (.inl e.v)⟩)
    ++ s.load.map (fun e => ⟨e.T, .inr (.inr e.v)⟩))

/-! ## Repeated queries (what the solver does during a simulation) -/

/-- Results of a sequence of `solar_events` calls. -/
def solarPlay (sp : EvSpec K) (s : St K) : List K → List (Except Err (SolarVal K))
  | [] => []
  | t :: ts => (solarEvents sp s t).2 :: solarPlay sp (solarEvents sp s t).1 ts

/-- Results of a sequence of `load_events` calls. -/
def loadPlay (s : St K) : List K → List (Except Err (LoadVal K))
  | [] => []
  | t :: ts => (loadEvents s t).2 :: loadPlay (loadEvents s t).1 ts

/-- Results of a sequence of `grid_events` calls. -/
def gridPlay (c : Cfg K) (sp : EvSpec K) (s : St K) : List K → List (Except Err (GridVal K))
  | [] => []
  | t :: ts => (gridEvents c sp s t).2 :: gridPlay c sp (gridEvents c sp s t).1 ts

/-! ## API calls and histories -/

/-- The public calls that may change the state (and the queries, which also do). -/
inductive Op (K : Type)
  | addSolar (T Sinsol Tactual : K)
  | addGrid (T V ang f : K)
  | addLoad (T Zre Zim : K)
  | removeSolar (T : Option K) (all : Bool)
  | removeGrid (T : K)
  | removeLoad (T : Option K) (all : Bool)
  | querySolar (t : K)
  | queryGrid (t : K)
  | queryLoad (t : K)
  | reset
  | setEnable (solar grid load : Bool)

/-- State after one API call (raising or not). -/
def step (c : Cfg K) (sp : EvSpec K) (s : St K) : Op K → St K
  | .addSolar T S Ta => (addSolar sp s T S Ta).1
  | .addGrid T V a f => (addGrid sp s T V a f).1
  | .addLoad T r i => (addLoad s T r i).1
  | .removeSolar T all => (removeSolar s T all).1
  | .removeGrid T => (removeGrid s T).1
  | .removeLoad T all => (removeLoad s T all).1
  | .querySolar t => (solarEvents sp s t).1
  | .queryGrid t => (gridEvents c sp s t).1
  | .queryLoad t => (loadEvents s t).1
  | .reset => resetCounters s
  | .setEnable a b d => { s with solarEnable := a, gridEnable := b, loadEnable := d }

/-- A history: each call runs under the value `_events_spec` has at that moment (it is a class attribute that other
instances may change between calls). -/
def run (c : Cfg K) (s : St K) (h : List (EvSpec K × Op K)) : St K := h.foldl (fun s x => step c x.1 s x.2) s

/-- States a user can reach. -/
def Reachable (c : Cfg K) (s : St K) : Prop := ∃ a b d h, s = run c (init a b d) h

/-- States reachable while `_events_spec` stays equal to `sp`. -/
def ReachableUnder (c : Cfg K) (sp : EvSpec K) (s : St K) : Prop :=
  ∃ a b d, ∃ ops : List (Op K), s = run c (init a b d) (ops.map fun o => (sp, o))

end Events
end PvDer
