import Mathlib.Data.Rat.Defs
import Verif.Model.Basic
/-!
Python values that can occur in configuration dictionaries and keyword arguments, and `isinstance`.
-/
namespace PvDer
namespace Config

/-- Values found in keyword arguments, config files and templates (DER_check_and_initialize.py 83-128, DER_components.py 171-207). Floats and
complex numbers are rationals: the modelled code only copies them and forms `R1_actual + 1j*X1_actual`. `grid n` is a `Grid` object, `dict` and `list`
stand for any nested dictionary or list, whose contents this code never reads. -/
inductive PVal
  | none | int (n : Int) | float (q : ℚ) | complex (re im : ℚ) | bool (b : Bool) | str (s : String)
  | tup (l : List String) | dict | list | grid (n : Nat)
deriving DecidableEq

/-- Type names used in `specifications.DER_argument_spec` and `properties.parameter_properties`. -/
inductive Ty | int | float | complex | bool | str | tuple | dict | grid
deriving DecidableEq

/-- Python's `isinstance(v, t)` for one type; `bool` is a subclass of `int`. -/
def hasTy : PVal → Ty → Bool
  | .int _, .int => true
  | .bool _, .int => true
  | .bool _, .bool => true
  | .float _, .float => true
  | .complex _ _, .complex => true
  | .str _, .str => true
  | .tup _, .tuple => true
  | .dict, .dict => true
  | .grid _, .grid => true
  | _, _ => false

/-- Python's `isinstance(v, (t1, …, tn))`. -/
def isInstance (v : PVal) (ts : List Ty) : Bool := ts.any (hasTy v)

/-- A design template: components in order, each with its parameters and defaults (templates.py 16-125). -/
abbrev Template := List (String × List (String × PVal))

end Config
end PvDer
