import Verif.Model.Events
import Mathlib.Algebra.Order.Floor.Ring
import Mathlib.Algebra.Order.Floor.Semiring

/-!
# Model of the event generators of `pvder/simulation_events.py`: ramps, random events, the shared specification
-/

namespace PvDer

section
variable {K : Type} [Field K] [LinearOrder K] [FloorSemiring K]

/-- `numpy.arange(start, stop, step)` in exact arithmetic for `step ≠ 0`:
`ceil((stop-start)/step)` points `start + i*step` (none if that number is not positive). -/
def arange (start stop step : K) : List K :=
  (List.range ⌈(stop - start) / step⌉₊).map (fun i : Nat => start + (i : K) * step)

/-- `numpy.linspace(a, b, n)` in exact arithmetic: `n` points from `a` to `b` inclusive (just `a` for `n = 1`). -/
def linspace (a b : K) (n : Nat) : List K :=
  (List.range n).map (fun i : Nat => if n = 1 then a else a + (i : K) * ((b - a) / ((n : K) - 1)))

end

namespace Events
variable {K : Type} [Field K] [LinearOrder K]

/-- The loop of `insolation_ramp` (simulation_events.py 347-349): one `add_solar_event` with the default temperature per point;
the first exception ends the loop, what was added before stays. -/
def addSolarList (sp : EvSpec K) (s : St K) : List (K × K) → St K × Except Err Unit
  | [] => (s, .ok ())
  | x :: xs =>
    match addSolar sp s x.1 x.2 TactualDefault with
    | (s', .error e) => (s', .error e)
    | (s', .ok _) => addSolarList sp s' xs

/-- `insolation_ramp` (simulation_events.py 336-351).  `numpy.arange` with a zero step raises `ZeroDivisionError`. -/
def insolationRamp [FloorSemiring K] (sp : EvSpec K) (s : St K) (tstart tstop target tstep : K) : St K × Except Err Unit :=
  match solarEvents sp s tstart with
  | (s1, .error e) => (s1, .error e)
  | (s1, .ok v) =>
    if tstep = 0 then (s1, .error .zeroDivision)
    else
      let trange := arange tstart tstop tstep
      addSolarList sp s1 (trange.zip (linspace v.Sinsol target trange.length))

/-- `voltage_ramp` (simulation_events.py 354-369): the grid query, then for each point
`self.add_grid_event(T=..., Vgrms=vg)`; `add_grid_event` has no parameter `Vgrms`, so the first call is a `TypeError`.
(numpy's `linspace` between the complex phasor and the target does not raise.) -/
def voltageRamp [FloorSemiring K] (c : Cfg K) (sp : EvSpec K) (s : St K) (tstart tstop tstep : K) : St K × Except Err Unit :=
  match gridEvents c sp s tstart with
  | (s1, .error e) => (s1, .error e)
  | (s1, .ok _) =>
    if tstep = 0 then (s1, .error .zeroDivision)
    else match arange tstart tstop tstep with
      | [] => (s1, .ok ())
      | _ :: _ => (s1, .error .typeError)

/-- The outcome of `random.choice(events_type)` (simulation_events.py 420) together with the number `random.random()`
drawn for it (439, 448): insolation, voltage, or an unknown choice (427, only prints). -/
inductive Draw (K : Type)
  | insolation (u : K)
  | voltage (u : K)
  | other

/-- `create_random_insolation_events` / `create_random_voltage_events` (simulation_events.py 435-453): the draw is a parameter. -/
def addRandom (sp : EvSpec K) (s : St K) (t : K) : Draw K → St K × Except Err Unit
  | .insolation u => addSolar sp s t (sp.insolation.min + u * (sp.insolation.max - sp.insolation.min)) (29815 / 100)
  | .voltage u => addGrid sp s t (sp.voltage.min + u * (sp.voltage.max - sp.voltage.min)) 0 60
  | .other => (s, .ok ())

/-- `create_random_events` (simulation_events.py 413-432) on the pairs (time, draw). -/
def createRandom (sp : EvSpec K) (s : St K) : List (K × Draw K) → St K × Except Err Unit
  | [] => (s, .ok ())
  | x :: xs =>
    match addRandom sp s x.1 x.2 with
    | (s', .error e) => (s', .error e)
    | (s', .ok _) => createRandom sp s' xs

/-! ## The specification dictionary shared by the class -/

/-- First-level keys of `_events_spec`. -/
inductive Key1 | insolation | voltage | angle | freq
  deriving DecidableEq, Repr

/-- Second-level keys; any other string is `other` and is ignored (simulation_events.py 72-75). -/
inductive Key2 | dflt | min | max | other
  deriving DecidableEq, Repr

/-- `d[key2] = x` if the key exists (simulation_events.py 71-75). -/
def Range.set (r : Range K) : Key2 → K → Range K
  | .dflt, x => { r with dflt := x }
  | .min, x => { r with min := x }
  | .max, x => { r with max := x }
  | .other, _ => r

/-- `self._events_spec[key1][key2] = x` (simulation_events.py 71-75). -/
def EvSpec.set (sp : EvSpec K) : Key1 → Key2 → K → EvSpec K
  | .insolation, k, x => { sp with insolation := sp.insolation.set k x }
  | .voltage, k, x => { sp with voltage := sp.voltage.set k x }
  | .angle, k, x => { sp with angle := sp.angle.set k x }
  | .freq, k, x => { sp with freq := sp.freq.set k x }

/-- `update_events_spec` (simulation_events.py 61-78).  The argument dictionary is the list of its entries; a first-level key
that does not exist (`none`) fails the assertion on 66 before anything is changed. -/
def updateSpec (sp : EvSpec K) (u : List (Option Key1 × Key2 × K)) : EvSpec K × Except Err Unit :=
  if u.any (fun x => x.1.isNone) then (sp, .error .assertionError)
  else (u.foldl (fun sp x => match x.1 with
      | some k1 => sp.set k1 x.2.1 x.2.2
      | none => sp) sp, .ok ())

/-- All `SimulationEvents` instances of a process: one class dictionary, one attribute record per instance. -/
structure World (K : Type) where
  spec : EvSpec K
  inst : Nat → St K

/-- A call made on instance `i`. -/
inductive WOp (K : Type)
  | call (i : Nat) (o : Op K)
  | updateSpec (i : Nat) (u : List (Option Key1 × Key2 × K))

/-- Effect of a call on the whole process: `_events_spec` is looked up through the instance and found in the class (24), so
`update_events_spec` on any instance writes the one shared dictionary (74). -/
def wstep (c : Cfg K) (w : World K) : WOp K → World K
  | .call i o => { w with inst := Function.update w.inst i (step c w.spec (w.inst i) o) }
  | .updateSpec _ u => { w with spec := (updateSpec w.spec u).1 }

end Events
end PvDer
