import Verif.Model.Gen.Templates
/-!
The parameter dictionaries of a DER instance (DER_utilities.py 642-843).
-/
namespace PvDer
namespace Params

/-- Python dictionaries with string keys: entries in insertion order. -/
abbrev Dict (A : Type) := List (String × A)

/-- `d.get(k)`. -/
def get {A : Type} (d : Dict A) (k : String) : Option A := (d.find? fun e => e.1 == k).map Prod.snd

/-- `d[k] = v`: replaces in place or appends. -/
def set {A : Type} : Dict A → String → A → Dict A
  | [], k, v => [(k, v)]
  | e :: d, k, v => if e.1 == k then (k, v) :: d else e :: set d k v

/-- `d.update(e)`, and the loop `for k in e.keys(): d[k] = e[k]` of `update_parameter_dict` (DER_utilities.py 690-706). The keys of a Python dictionary are distinct, so the order of the assignments does not
matter; it is chosen here so that the first entry of a key counts, as for `get`. -/
def upd {A : Type} (d e : Dict A) : Dict A := e.foldr (fun p d => set d p.1 p.2) d

/-- The five parameter types with a dictionary of their own (DER_check_and_initialize.py 73-79). -/
inductive PT | modulePars | inverter | circuit | gains | steady
deriving DecidableEq

/-- The attribute name of a type. -/
def PT.name : PT → String
  | .modulePars => "module_parameters"
  | .inverter => "inverter_ratings"
  | .circuit => "circuit_parameters"
  | .gains => "controller_gains"
  | .steady => "steadystate_values"

/-- All of them, in the order of `create_parameter_dict`, `initialize_parameter_dict`, `get_parameter_dictionary` and `load_parameter_dictionary`. -/
def PT.all : List PT := [.modulePars, .inverter, .circuit, .gains, .steady]

variable {V : Type}

/-- The five attributes of an instance: parameter ID to parameter name to value; `none` is Python's `None`. Simplification: the dictionaries of different IDs are different objects (each is made by
`dict.fromkeys` at 648-652 or by `update_DER_config`), so contents suffice; the alias `DER_config[...]` of the dictionaries of the instance's own ID is not tracked. -/
abbrev Store (V : Type) := PT → Dict (Dict (Option V))

def Store.put (s : Store V) (t : PT) (d : Dict (Dict (Option V))) : Store V := fun t' => if t' = t then d else s t'

/-- The stores of a new instance (DER_check_and_initialize.py 73-79). -/
def Store.new (id : String) (cfg : PT → Dict (Option V)) : Store V := fun t => [(id, cfg t)]

/-- `get_default_parameter_ID` (DER_utilities.py 657-667): the other classes leave the variable unbound. -/
def defaultID : Sim.Mt → Except Err String
  | .single => .ok "10"
  | .three | .noFilter | .numba => .ok "50"
  | _ => .error .unboundLocal

/-- One line of `create_parameter_dict` (DER_utilities.py 648-652). -/
def createOne (dflt id : String) (s : Store V) (t : PT) : Store V × Except Err Unit :=
  match get (s t) dflt with
  | none => (s, .error .keyError)
  | some d => (s.put t (set (s t) id (d.map fun e => (e.1, none))), .ok ())

/-- Statements executed one after the other: the first exception ends the block and keeps the changes made so far. -/
def seqM {A : Type} (f : Store V → A → Store V × Except Err Unit) : List A → Store V → Store V × Except Err Unit
  | [], s => (s, .ok ())
  | a :: l, s =>
    match f s a with
    | (s', .ok _) => seqM f l s'
    | (s', .error e) => (s', .error e)

/-- `create_parameter_dict` (DER_utilities.py 642-655); `id = none` stands for an argument that is not a string. -/
def create (m : Sim.Mt) (id : Option String) (s : Store V) : Store V × Except Err Unit :=
  match id with
  | none => (s, .error .assertionError)
  | some id =>
    match defaultID m with
    | .error e => (s, .error e)
    | .ok dflt => seqM (createOne dflt id) PT.all s

/-- The dictionary a type name denotes in `update_parameter_dict` (DER_utilities.py 692-706). -/
def ptOf (ty : String) : Option PT := PT.all.find? fun t => t.name == ty

/-- `update_parameter_dict` (DER_utilities.py 683-718). A type that is in the design template but has no dictionary (such as `basic_specs`) only prints a message; an unknown ID is a `KeyError` at the first assignment. -/
def update (m : Sim.Mt) (id : String) (ty : String) (pd : Dict (Option V)) (s : Store V) : Store V × Except Err Unit :=
  if (Config.template m).any (fun c => c.1 == ty) = false then (s, .error .valueError)
  else match pd with
    | [] => (s, .ok ())
    | _ :: _ =>
      match ptOf ty with
      | none => (s, .ok ())
      | some t =>
        match get (s t) id with
        | none => (s, .error .keyError)
        | some d => (s.put t (set (s t) id (upd d pd)), .ok ())

/-- One line of `initialize_parameter_dict` (DER_utilities.py 675-679). -/
def copyOne (m : Sim.Mt) (id src : String) (s : Store V) (t : PT) : Store V × Except Err Unit :=
  match get (s t) src with
  | none => (s, .error .keyError)
  | some d => update m id t.name d s

/-- `initialize_parameter_dict` (DER_utilities.py 670-681). -/
def initDict (m : Sim.Mt) (id : Option String) (src : String) (s : Store V) : Store V × Except Err Unit :=
  match create m id s with
  | (s1, .error e) => (s1, .error e)
  | (s1, .ok _) =>
    match id with
    | none => (s1, .ok ())
    | some id => seqM (copyOne m id src) PT.all s1

/-- The part of `get_parameter_dictionary` for one type (DER_utilities.py 766-780). -/
def mergeOne (s : Store V) (id : String) (acc : Except Err (Dict (Option V))) (t : PT) : Except Err (Dict (Option V)) :=
  match acc with
  | .error e => .error e
  | .ok d =>
    match get (s t) id with
    | none => .error .keyError
    | some e => .ok (upd d e)

/-- `get_parameter_dictionary` (DER_utilities.py 747-786). -/
def getDict (s : Store V) (ty id : String) : Except Err (Dict (Option V)) :=
  if ["module_parameters", "inverter_ratings", "controller_gains", "circuit_parameters", "all"].contains ty = false then .error .valueError
  else if (get (s .modulePars) id).isNone then .error .valueError
  else (PT.all.filter fun t => t.name == ty || ty == "all").foldl (mergeOne s id) (.ok [])

/-- What a pickle file holds: a dictionary of parameters or something else. -/
inductive Obj (V : Type) | dict (d : Dict (Option V)) | other

/-- The files of the working directory. -/
abbrev Files (V : Type) := String → Option (Obj V)

/-- `save_parameter_dictionary` (DER_utilities.py 789-813): the new files and the returned file name; for another format the return statement reads an unbound variable. -/
def save (s : Store V) (id fmt : String) (fs : Files V) : Files V × Except Err String :=
  match getDict s "all" id with
  | .error e => (fs, .error e)
  | .ok d =>
    if fmt = "pickle" then ((fun f => if f = id ++ ".pkl" then some (.dict d) else fs f), .ok (id ++ ".pkl"))
    else (fs, .error .unboundLocal)

/-- `file_name.split('.')[0]` (DER_utilities.py 825). -/
def baseName (f : String) : String := String.ofList (f.toList.takeWhile (· ≠ '.'))

/-- `load_parameter_dictionary` (DER_utilities.py 816-843). -/
def load (m : Sim.Mt) (f : String) (fs : Files V) (s : Store V) : Store V × Except Err (Dict (Option V)) :=
  match fs f with
  | none => (s, .error .osError)
  | some .other => (s, .error .valueError)
  | some (.dict pd) =>
    match defaultID m with
    | .error e => (s, .error e)
    | .ok dflt =>
      match initDict m (some (baseName f)) dflt s with
      | (s1, .error e) => (s1, .error e)
      | (s1, .ok _) =>
        match seqM (fun s t => update m (baseName f) (PT.name t) pd s) PT.all s1 with
        | (s2, .error e) => (s2, .error e)
        | (s2, .ok _) => (s2, .ok pd)

end Params
end PvDer
