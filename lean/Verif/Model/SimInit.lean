import Verif.Model.Basic

/-!
# Model of `DynamicSimulation.__init__` (`pvder/dynamic_simulation.py` 38-81) as far as its arguments decide what happens
-/

namespace PvDer
namespace SimInit

/-- Arguments: class name of the DER model, its `standAlone` flag, whether `gridModel` was given, `solverType`, `jacFlag`. -/
structure Args where
  derClass : String
  standAlone : Bool
  gridGiven : Bool
  solver : String
  jac : Bool
  deriving DecidableEq, Repr

/-- The attributes set by a successful call that these arguments decide. -/
structure Obj where
  solver : String
  jac : Bool
  /-- `grid_model` is set -/
  grid : Bool
  deriving DecidableEq, Repr

/-- `solver_list` (simulation_utilities.py 367). -/
def solverList : List String := ["odeint", "ode-vode-bdf"]

/-- `jac_list` (dynamic_simulation.py 36). -/
def jacList : List String := ["SolarPVDERThreePhase", "SolarPVDERThreePhaseNoVrmsFilter", "SolarPVDERSinglePhase", "SolarPVDERThreePhaseBalanced"]

/-- `initialize_solver` (simulation_utilities.py 424-440).  For an unknown solver the message of the assertion reads `self.solver_type`, which is not set yet; for
`ode-vode-bdf` `self.y0` reads `self.iaR_t`, which `initialize_y0_t` sets only later (dynamic_simulation.py 79): `AttributeError` in both cases. -/
def initSolver (solver : String) : Except Err Unit :=
  if solver ∈ solverList then (if solver = "ode-vode-bdf" then .error .attributeError else .ok ())
  else .error .attributeError

/-- `check_jac_availability` (dynamic_simulation.py 152-159). -/
def checkJac (a : Args) : Except Err Unit := if a.jac = true ∧ a.derClass ∉ jacList then .error .valueError else .ok ()

/-- `__init__` (dynamic_simulation.py 50-81); the remaining statements set attributes and do not fail for a constructed DER. -/
def construct (a : Args) : Except Err Obj := do
  initSolver a.solver
  checkJac a
  if a.standAlone = true ∧ a.gridGiven = false then throw .valueError
  pure ⟨a.solver, a.jac, a.standAlone⟩

end SimInit
end PvDer
