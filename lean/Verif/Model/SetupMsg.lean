import Verif.Model.Config
/-!
What the set-up of a DER says about its configuration: `check_model_type` and `check_basic_specs` (DER_components.py 248-286), called in `setup_DER` (58, 60).
-/
namespace PvDer
namespace Config

/-- The messages, all of level 40 (`ERROR`). -/
inductive SetupMsg
  /-- `Model type was not found` (256) -/
  | noModelType
  /-- `is defined to be used with model type … but is being used with model …` (259) -/
  | modelType
  /-- `has … phases which is invalid` (270) -/
  | phases
  /-- `has … phases buf following phases were found` (273) -/
  | phaseList
  /-- `has … ODE equations which is invalid` (277) -/
  | odes
  /-- `needs … states, but only … states were found` (280) -/
  | states
  deriving DecidableEq, Repr

/-- `check_model_type` (248-261), for the class `cls`; an unbound local variable after the first message. -/
def checkModelType (cls : String) (c par : Cfg) : Except Err (List SetupMsg) := do
  match ← look c "basic_specs" "model_type" with
  | some v => pure (if v = .str cls then [] else [.modelType])
  | none =>
    match ← look par "basic_specs" "model_type" with
    | some v => pure (if v = .str cls then [] else [.modelType])
    | none => .error .unboundLocal

/-- `len` of the phases of the template: a tuple, or the string `'a'` that the literal `('a')` is (templates.py 17, 34). -/
def lenOf : PVal → Except Err ℕ
  | .tup l => .ok l.length
  | .str s => .ok s.length
  | _ => .error .typeError

/-- Python `==` of an accepted value with a whole number: `True == 1`, `3.0 == 3`. -/
def eqNum (v : PVal) (n : ℚ) : Bool := decide (num v = some n)

/-- `check_basic_specs` (263-286): `r` is the resolved configuration. -/
def checkBasicSpecs (T : Template) (r : Resolved) : Except Err (List SetupMsg) :=
  match r "basic_specs" "n_phases", r "basic_specs" "n_ODE", T.lookup "basic_specs", T.lookup "initial_states" with
  | some np, some no, some bs, some st =>
    match bs.lookup "n_phases", bs.lookup "n_ODE", bs.lookup "phases" with
    | some p, some o, some l => do
      let p ← match num p with | some q => .ok q | none => .error .typeError
      let o ← match num o with | some q => .ok q | none => .error .typeError
      let k ← lenOf l
      pure ((if eqNum np p then [] else [.phases]) ++ (if eqNum np k then [] else [.phaseList]) ++ (if eqNum no o then [] else [.odes]) ++
        (if eqNum no st.length then [] else [.states]))
    | _, _, _ => .error .keyError
  | _, _, _, _ => .error .keyError

/-- The messages of `setup_DER` (DER_components.py 46-70) as far as the calls between them succeed. -/
def setupMsgs (T : Template) (cls : String) (file : File) (derId : String) (kwargs : Args) : Except Err (List SetupMsg) := do
  let (c, par) ← createConfig false T file derId
  let a := getArguments argSpec c kwargs
  checkIdentifier a
  checkVerbosity a
  let m1 ← checkModelType cls c par
  let d ← updateConfig T props c par a
  let m2 ← checkBasicSpecs T d.cfg
  pure (m1 ++ m2)

/-- What appears in the log: the level was set by `initialize_logger` just before (56; utility_classes.py 39-44). -/
def printed (a : Args) (l : List SetupMsg) : List SetupMsg := if a "verbosity" = some (.str "CRITICAL") then [] else l

end Config
end PvDer
