import Verif.Model.Basic

/-!
# Model of instance naming (`pvder/utility_classes.py` 21-37; `pvder/grid_components.py` 43-49)
-/

namespace PvDer
namespace Naming

/-- Classes whose constructor names the instance: the seven DER classes (DER_components.py 55; counter incremented e.g. in DER_components_three_phase.py 52), the
simulation (dynamic_simulation.py 51-52), the events (simulation_events.py 41-42), the results (simulation_utilities.py 55-58), and the grid (grid_components.py 44-49). -/
inductive Kind
  | single | single0 | three | three0 | balanced | noFilter | numba | sim | events | results | grid
  deriving DecidableEq, Repr

/-- What `name_instance` puts before the number (utility_classes.py 27-34): the class name for keys of `DER_design_template` (all seven classes, templates.py),
otherwise a fixed word; for the grid grid_components.py 49. -/
def Kind.stem : Kind → String
  | .single => "SolarPVDERSinglePhase" | .single0 => "SolarPVDERSinglePhaseConstantVdc" | .three => "SolarPVDERThreePhase"
  | .three0 => "SolarPVDERThreePhaseConstantVdc" | .balanced => "SolarPVDERThreePhaseBalanced" | .noFilter => "SolarPVDERThreePhaseNoVrmsFilter"
  | .numba => "SolarPVDERThreePhaseNumba" | .sim => "sim" | .events => "events" | .results => "results" | .grid => "grid"

/-- `name_instance(identifier)` for the instance number `n`; `ident` is `str(identifier)` (`"None"` if the argument was left out; utility_classes.py 24-37).  Grids
have no identifier (grid_components.py 49). -/
def name (k : Kind) (ident : String) (n : Nat) : String :=
  if k = .grid then k.stem ++ "_" ++ n.repr else ident ++ "-" ++ (k.stem ++ "_" ++ n.repr)

/-- Counters of the process (class attributes `count`, `grid_count`). -/
abbrev Counts := Kind → Nat

/-- A constructor call: `early` says that it raises before the instance is named (a DER whose configuration cannot be read, DER_components.py 50-55). -/
structure Op where
  kind : Kind
  ident : String
  early : Bool

/-- One constructor call: the class counter is incremented first, whatever happens later. -/
def step (c : Counts) (o : Op) : Counts × Option String :=
  let c' : Counts := fun k => if k = o.kind then c k + 1 else c k
  (c', if o.early then none else some (name o.kind o.ident (c' o.kind)))

/-- The names given along a history of constructor calls. -/
def names : Counts → List Op → List String
  | _, [] => []
  | c, o :: l => match step c o with
    | (c', some n) => n :: names c' l
    | (c', none) => names c' l

end Naming
end PvDer
