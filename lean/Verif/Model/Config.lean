import Mathlib.Data.Complex.Basic
import Verif.Model.Gen.Templates
/-!
Construction of a DER instance from a configuration file and keyword arguments:
DER_components.py 46-225, DER_check_and_initialize.py 38-145 and 176-243, DER_features.py 565-611.
-/
namespace PvDer
namespace Config

/-- An entry of a DER configuration: a plain value or a component dictionary. -/
inductive Node
  | leaf (v : PVal)
  | comp (d : String → Option PVal)

/-- An entry of a ride-through `config` dictionary: a plain value (`VRT_delays`, `FRT_delays`) or a level dictionary. -/
inductive Leaf
  | val (v : PVal)
  | level (d : String → Option PVal)

/-- A ride-through `config` dictionary, in insertion order. -/
abbrev Body := List (String × Leaf)

/-- What a DER configuration holds under `LVRT`, `HVRT`, … : optional `config`, optional `config_id` (templates.py 127-187). -/
structure RTNode where
  config : Option Body
  configId : Option String

/-- One top-level object of the JSON file. `entries` are its plain values and component dictionaries, `rt` its ride-through entries, `config` the
`config` entry of a shared ride-through block. Simplification: the three name spaces are kept apart, since the code reads ride-through entries only under the
six names of `rtNames` and these are no component or argument names. -/
structure Cfg where
  entries : String → Option Node
  rt : String → Option RTNode
  config : Option Body

/-- The configuration file (DER_components.py 153-161, `read_config`). -/
abbrev File := String → Option Cfg

/-- The empty dictionary used when there is no parent (DER_components.py 103). -/
def Cfg.empty : Cfg := ⟨fun _ => none, fun _ => none, none⟩

/-- `get_DER_config` (DER_components.py 109-121): missing IDs are logged, then `config_dict[derId]` raises `KeyError`. -/
def getConfig (file : File) (derId : String) : Except Err Cfg :=
  match file derId with
  | some c => .ok c
  | none => .error .keyError

/-- `get_DER_parent_id` (DER_components.py 84-94). -/
def parentId (c : Cfg) : Option Node := c.entries "parent_config"

/-- Python truth value of a plain value (used by `if derParentId:`, DER_components.py 99). -/
def truthy : PVal → Bool
  | .none => false
  | .int n => n ≠ 0
  | .float q => q ≠ 0
  | .complex a b => a ≠ 0 ∨ b ≠ 0
  | .bool b => b
  | .str s => s ≠ ""
  | .tup l => l ≠ []
  | .dict => true
  | .list => true
  | .grid _ => true

/-- `get_DER_parent_config` (DER_components.py 96-107). The log call evaluates `self.name`, which no class of the hierarchy defines before `name_instance`
has run; `named` tells whether it has. Simplifications: a dictionary as parent ID is reported as `TypeError` (unhashable), any other non-string one as
`KeyError` (JSON keys are strings). -/
def parentConfig (named : Bool) (file : File) : Option Node → Except Err Cfg
  | none => .ok Cfg.empty
  | some (.comp _) => if named then .error .typeError else .error .attributeError
  | some (.leaf v) =>
    if truthy v then
      if named then
        match v with
        | .str s => getConfig file s
        | _ => .error .keyError
      else .error .attributeError
    else .ok Cfg.empty

/-- `get_completed_DER_config` (DER_components.py 142-151), for one of the two dictionaries. -/
def completed (T : Template) (c : Cfg) : Cfg :=
  { c with entries := fun k =>
      match c.entries k with
      | some n => some n
      | none => if k ∈ T.map Prod.fst then some (.comp fun _ => none) else none }

/-- `p in cfg[comp]` and `cfg[comp][p]`. Simplification: `in` on a plain value (a substring test for strings, `TypeError` otherwise) is `TypeError`. -/
def look (c : Cfg) (comp p : String) : Except Err (Option PVal) :=
  match c.entries comp with
  | none => .error .keyError
  | some (.leaf _) => .error .typeError
  | some (.comp d) => .ok (d p)

/-- `spec_type in cfg and spec in cfg[spec_type]` (DER_components.py 129-131). -/
def look? (c : Cfg) (comp p : String) : Except Err (Option PVal) :=
  match c.entries comp with
  | none => .ok none
  | some (.leaf _) => .error .typeError
  | some (.comp d) => .ok (d p)

/-- `DER_config[comp].update({p: v})`, or creation of the component (DER_components.py 132-135). -/
def Cfg.put (c : Cfg) (comp p : String) (v : PVal) : Cfg :=
  { c with entries := fun k =>
      if k = comp then
        match c.entries comp with
        | some (.comp d) => some (.comp fun q => if q = p then some v else d q)
        | _ => some (.comp fun q => if q = p then some v else none)
      else c.entries k }

/-- One iteration of `update_DER_config_specs` (DER_components.py 128-137). -/
def updateSpec (par : Cfg) (c : Cfg) (s : String × String) : Except Err Cfg := do
  match ← look? c s.1 s.2 with
  | some _ => .ok c
  | none =>
    match ← look? par s.1 s.2 with
    | some v => .ok (c.put s.1 s.2 v)
    | none => .error .valueError

/-- `spec_config` of `update_DER_config_specs` (DER_components.py 126). -/
def requiredSpecs : List (String × String) :=
  [("basic_specs", "model_type"), ("inverter_ratings", "Srated"), ("inverter_ratings", "Vrmsrated")]

/-- `update_DER_config_specs` (DER_components.py 123-140). -/
def updateSpecs (c par : Cfg) : Except Err Cfg := requiredSpecs.foldlM (updateSpec par) c

/-- `create_DER_config` (DER_components.py 70-82). -/
def createConfig (named : Bool) (T : Template) (file : File) (derId : String) : Except Err (Cfg × Cfg) := do
  let c ← getConfig file derId
  let par ← parentConfig named file (parentId c)
  let c := completed T c
  let par := completed T par
  let c ← updateSpecs c par
  pure (c, par)

abbrev Args := String → Option PVal

/-- One iteration of the loop of `get_DER_arguments` (DER_components.py 178-194). Simplification: a dictionary found at the top level of the configuration under
an argument name is treated as the opaque value `.dict`. -/
def argStep (c : Cfg) (kwargs : Args) (acc : Args) (s : String × List Ty × Option PVal) : Args :=
  let put (v : PVal) : Args := fun k => if k = s.1 then some v else acc k
  match kwargs s.1 with
  | some v => if isInstance v s.2.1 then put v else acc
  | none =>
    match c.entries s.1 with
    | some (.leaf v) => if isInstance v s.2.1 then put v else acc
    | some (.comp _) => if isInstance .dict s.2.1 then put .dict else acc
    | none =>
      match s.2.2 with
      | some d => put d
      | none => acc

/-- `get_DER_arguments` (DER_components.py 171-207). -/
def getArguments (spec : List (String × List Ty × Option PVal)) (c : Cfg) (kwargs : Args) : Args :=
  spec.foldl (argStep c kwargs) (fun _ => none)

/-- The instance's own `DER_config`: component, parameter, value. -/
abbrev Resolved := String → String → Option PVal

/-- `self.DER_config[comp].update({p: v})`. -/
def Resolved.put (r : Resolved) (comp p : String) (v : PVal) : Resolved :=
  fun c q => if c = comp ∧ q = p then some v else r c q

/-- `update_DER_parameter` (DER_check_and_initialize.py 83-128). The final `elif` (parameter in the template) always holds, since the caller iterates over the
template; `d` is its value there. -/
def updateParam (pr : List (String × List Ty)) (c par : Cfg) (args : Args) (comp : String) (r : Resolved) (pd : String × PVal) : Except Err Resolved :=
  match pr.lookup pd.1 with
  | none => .error .assertionError
  | some ts =>
    match args pd.1 with
    | some v => if isInstance v ts then .ok (r.put comp pd.1 v) else .error .valueError
    | none => do
      match ← look c comp pd.1 with
      | some v => if isInstance v ts then .ok (r.put comp pd.1 v) else .error .valueError
      | none =>
        match ← look par comp pd.1 with
        | some v => if isInstance v ts then .ok (r.put comp pd.1 v) else .error .valueError
        | none => .ok (r.put comp pd.1 pd.2)

/-- `check_DER_config` (DER_check_and_initialize.py 131-144): missing components are an error unless a parent configuration is named. Simplification: a component
dictionary as `parent_config` counts as non-empty. -/
def checkConfig (T : Template) (c : Cfg) : Except Err Unit :=
  if (T.map Prod.fst).all (fun k => (c.entries k).isSome) then .ok ()
  else match c.entries "parent_config" with
    | none => .error .keyError
    | some (.comp _) => .ok ()
    | some (.leaf v) => if truthy v then .ok () else .error .keyError

/-- The ride-through component names in iteration order (templates.py 127, 169; DER_check_and_initialize.py 55). -/
def rtNames : List String := ["LVRT", "HVRT", "VRT_delays", "LFRT", "HFRT", "FRT_delays"]

/-- A voltage ride-through level of the template. -/
def vLevel (V t tmin : ℚ) (tminInt : Bool) (mode : String) : Leaf :=
  .level fun
    | "V_threshold" => some (.float V)
    | "t_threshold" => some (.float t)
    | "t_min_ridethrough" => some (if tminInt then .int tmin.num else .float tmin)
    | "mode" => some (.str mode)
    | "t_start" => some (.float 0)
    | "threshold_breach" => some (.bool false)
    | _ => none

/-- A frequency ride-through level of the template. -/
def fLevel (F tl ts : String) (f t : ℚ) : Leaf :=
  .level fun k => if k = F then some (.float f) else if k = tl then some (.float t) else if k = ts then some (.float 0) else none

/-- `VRT_config_template` and `FRT_config_template` (templates.py 127-187). -/
def rtTemplate : String → RTNode
  | "LVRT" => ⟨some [("1", vLevel (88/100) 5 2 true "mandatory_operation"), ("2", vLevel (7/10) (35/10) 1 true "mandatory_operation"),
      ("3", vLevel (1/2) 1 (1/2) false "momentary_cessation")], some ""⟩
  | "HVRT" => ⟨some [("1", vLevel (106/100) 1 (1/2) false "mandatory_operation"), ("2", vLevel (112/100) (1/2) (1/2) false "mandatory_operation")], some ""⟩
  | "VRT_delays" => ⟨some [("output_cessation_delay", .val (.float (1/100))), ("output_restore_delay", .val (.float (175/100))),
      ("restore_Vdc", .val (.bool false))], some ""⟩
  | "LFRT" => ⟨some [("1", fLevel "F_LF" "t_LF_limit" "t_LFstart" 57 (1/60)), ("2", fLevel "F_LF" "t_LF_limit" "t_LFstart" (588/10) 299)], none⟩
  | "HFRT" => ⟨some [("1", fLevel "F_HF" "t_HF_limit" "t_HFstart" (612/10) 299), ("2", fLevel "F_HF" "t_HF_limit" "t_HFstart" 62 (1/60))], none⟩
  | "FRT_delays" => ⟨some [("FRT_INSTANTANEOUS_TRIP", .val (.bool false))], none⟩
  | _ => ⟨none, none⟩

/-- The ride-through part of `update_DER_config` (DER_check_and_initialize.py 55-71). No ride-through name is an argument name, so the first branch, which reads
`DER_arguments`, never applies (`argSpec` has none of them) and is left out. -/
def resolveRT (c par : Cfg) (rt : String) : RTNode :=
  match c.rt rt with
  | some n => n
  | none =>
    match par.rt rt with
    | some n => n
    | none => rtTemplate rt

/-- Numeric content of a value accepted as `(int, float)`. -/
def num : PVal → Option ℚ
  | .int n => some n
  | .float q => some q
  | .bool b => some (if b then 1 else 0)
  | _ => none

/-- The parameter part of `update_DER_config` (DER_check_and_initialize.py 47-53) for one component. No component name is an argument name, so the branch reading
`DER_arguments[DER_component]` never applies and is left out. -/
def updateComp (pr : List (String × List Ty)) (c par : Cfg) (args : Args) (r : Resolved) (cp : String × List (String × PVal)) : Except Err Resolved :=
  cp.2.foldlM (updateParam pr c par args cp.1) r

/-- What `update_DER_config` leaves on the instance. -/
structure Design where
  cfg : Resolved
  rt : String → RTNode
  /-- `circuit_parameters[DER_id]['Z1_actual']`, real and imaginary part. -/
  z1 : ℚ × ℚ

/-- `R1_actual + 1j*X1_actual` (DER_check_and_initialize.py 76). -/
def z1Of (r : Resolved) : Except Err (ℚ × ℚ) :=
  match r "circuit_parameters" "R1_actual", r "circuit_parameters" "X1_actual" with
  | some a, some b =>
    match num a, num b with
    | some x, some y => .ok (x, y)
    | _, _ => .error .typeError
  | _, _ => .error .keyError

/-- `update_DER_config` (DER_check_and_initialize.py 38-81), after `create_template` (DER_components.py 163-169) has emptied `self.DER_config`. -/
def updateConfig (T : Template) (pr : List (String × List Ty)) (c par : Cfg) (args : Args) : Except Err Design := do
  checkConfig T c
  let r ← T.foldlM (updateComp pr c par args) (fun _ _ => none)
  let z ← z1Of r
  pure ⟨r, resolveRT c par, z⟩

/-- `logging_levels_dict[verbosity]` in `initialize_logger` (utility_classes.py 39-44, specifications.py 46): only the five level names are keys, although
integers pass the type check of `DER_argument_spec`. -/
def checkVerbosity (a : Args) : Except Err Unit :=
  match a "verbosity" with
  | some (.str s) => if s ∈ ["DEBUG", "INFO", "WARNING", "ERROR", "CRITICAL"] then .ok () else .error .keyError
  | _ => .error .keyError

/-- `name_instance(DER_arguments['identifier'])` (DER_components.py 55). -/
def checkIdentifier (a : Args) : Except Err Unit :=
  match a "identifier" with
  | some _ => .ok ()
  | none => .error .keyError

/-! ### Ride-through configuration -/

/-- Settings of a dictionary after `if k not in d: d.update({k: v})`. -/
def fill (d : String → Option PVal) (k : String) (v : PVal) : String → Option PVal :=
  fun q => if q = k then (match d k with | some w => some w | none => some v) else d q

/-- One level of `LVRT`/`HVRT` in `update_RT_config` (DER_features.py 578-583). -/
def fillLevel : String × Leaf → Except Err (String × Leaf)
  | (_, .val _) => .error .assertionError
  | (k, .level d) => .ok (k, .level (fill (fill d "t_start" (.float 0)) "threshold_breach" (.bool false)))

/-- First loop of `update_RT_config` (DER_features.py 568-574) for one name: inline `config`, else the block named by `config_id`, else nothing. -/
def pickRT (file : File) (n : RTNode) : Except Err (Option Body) :=
  match n.config, n.configId with
  | some b, _ => .ok (some b)
  | none, some id =>
    match file id with
    | some c => match c.config with
      | some b => .ok (some b)
      | none => .error .keyError
    | none => .error .keyError
  | none, none => .ok none

/-- `for config_parameter in template: if config_parameter not in d: d[config_parameter] = …` (DER_features.py 585-588). -/
def fillDelays (b t : Body) : Body :=
  t.foldl (fun acc kv => if kv.1 ∈ acc.map Prod.fst then acc else acc ++ [kv]) b

/-- `self.RT_config[RT]` as a plain subscript. -/
def need (b : Option Body) : Except Err Body :=
  match b with
  | some b => .ok b
  | none => .error .keyError

/-- `update_RT_config` (DER_features.py 565-591). The result maps a ride-through name to its settings. Simplification: the file is read as immutable; aliasing of the
objects is the subject of `Model/Multi.lean`. -/
def updateRT (file : File) (rt : String → RTNode) : Except Err (String → Option Body) := do
  let lv0 ← pickRT file (rt "LVRT")
  let hv0 ← pickRT file (rt "HVRT")
  let vd0 ← pickRT file (rt "VRT_delays")
  let lf ← pickRT file (rt "LFRT")
  let hf ← pickRT file (rt "HFRT")
  let fd ← pickRT file (rt "FRT_delays")
  let lv ← (← need lv0).mapM fillLevel
  let hv ← (← need hv0).mapM fillLevel
  let vd ← need vd0
  let vd := fillDelays vd ((rtTemplate "VRT_delays").config.getD [])
  pure fun
    | "LVRT" => some lv
    | "HVRT" => some hv
    | "VRT_delays" => some vd
    | "LFRT" => lf
    | "HFRT" => hf
    | "FRT_delays" => fd
    | _ => none

/-- Settings every level must have (DER_features.py 598, 605; templates.py 128, 149, 170, 178): the keys of template level `'1'`. -/
def levelKeys : String → List String
  | "LVRT" => ["V_threshold", "t_threshold", "t_min_ridethrough", "mode", "t_start", "threshold_breach"]
  | "HVRT" => ["V_threshold", "t_threshold", "t_min_ridethrough", "mode", "t_start", "threshold_breach"]
  | "LFRT" => ["F_LF", "t_LF_limit", "t_LFstart"]
  | "HFRT" => ["F_HF", "t_HF_limit", "t_HFstart"]
  | _ => []

/-- `RT_setting not in setting` for all levels of one name (DER_features.py 598-602). Simplification: a level that is a plain value counts as lacking the setting
(Python raises `TypeError`, or tests for a substring). -/
def checkLevels (keys : List String) (b : Body) : Bool :=
  b.all fun kv => match kv.2 with
    | .level d => keys.all fun k => (d k).isSome
    | .val _ => keys.isEmpty

/-- `check_RT_config` (DER_features.py 594-611). -/
def checkRT (r : String → Option Body) : Except Err Unit :=
  ["LVRT", "HVRT", "LFRT", "HFRT"].forM fun n => do
    let b ← need (r n)
    if checkLevels (levelKeys n) b then pure () else .error .valueError

/-- What `setup_DER` establishes. -/
structure Setup where
  args : Args
  design : Design
  rt : String → Option Body

/-- `setup_DER` (DER_components.py 46-70). `check_model_type` and `check_basic_specs` only log (what they log: `Model/SetupMsg.lean`). -/
def setupDER (T : Template) (file : File) (derId : String) (kwargs : Args) : Except Err Setup := do
  let (c, par) ← createConfig false T file derId
  let a := getArguments argSpec c kwargs
  checkIdentifier a
  checkVerbosity a
  let d ← updateConfig T props c par a
  let rt ← updateRT file d.rt
  checkRT rt
  pure ⟨a, d, rt⟩

/-! ### First steps of `initialize_DER` -/

/-- `initialize_basic_specs` (DER_check_and_initialize.py 176-183): reads the template, not the resolved configuration. -/
def initBasicSpecs (T : Template) : Except Err (PVal × PVal × PVal) :=
  match T.lookup "basic_specs" with
  | none => .error .keyError
  | some ps =>
    match ps.lookup "n_ODE", ps.lookup "n_phases", ps.lookup "unbalanced" with
    | some a, some b, some u => .ok (a, b, u)
    | _, _, _ => .error .keyError

/-- `initialize_flags` (DER_components.py 239-246): `standAlone`, `steadyStateInitialization`, `allowUnbalancedM`. -/
def initFlags (a : Args) : Except Err (PVal × PVal × PVal) :=
  match a "standAlone", a "steadyStateInitialization", a "allowUnbalancedM" with
  | some x, some y, some z => .ok (x, y, z)
  | _, _, _ => .error .keyError

/-- `attach_grid_model` (DER_check_and_initialize.py 569-587). -/
def attachGrid (standAlone : Bool) (a : Args) : Except Err (Option PVal) :=
  if standAlone then
    match a "gridModel" with
    | some g => .ok (some g)
    | none => .error .valueError
  else .ok none

/-- Grid measurements of a DER that is not stand-alone: frequency and phase voltages (in the given unit, before division by `Vbase`); `.derived` stands for
`Ub_calc`/`Uc_calc` of phase a. -/
inductive Phase | given (v : PVal) | derived | unset
deriving DecidableEq

structure Meas where
  f : Option PVal
  a : Phase
  b : Phase
  c : Phase
deriving DecidableEq

/-- `initialize_grid_measurements` (DER_check_and_initialize.py 195-238). -/
def initMeas (nPhases : Nat) (unbalanced standAlone : Bool) (x : Args) : Except Err Meas :=
  if standAlone then .ok ⟨none, .unset, .unset, .unset⟩
  else
    match x "gridFrequency" with
    | none => .error .valueError
    | some f =>
      match (if nPhases ≥ 1 then (match x "gridVoltagePhaseA" with | some v => .ok (.given v) | none => .error .valueError) else .ok .unset : Except Err Phase) with
      | .error e => .error e
      | .ok pa =>
        match (if nPhases ≥ 2 then
            if unbalanced then (match x "gridVoltagePhaseB" with | some v => .ok (.given v) | none => .error .valueError) else .ok .derived
          else .ok .unset : Except Err Phase) with
        | .error e => .error e
        | .ok pb =>
          match (if nPhases ≥ 3 then
              if unbalanced then (match x "gridVoltagePhaseC" with | some v => .ok (.given v) | none => .error .valueError) else .ok .derived
            else .ok .unset : Except Err Phase) with
          | .error e => .error e
          | .ok pc => if nPhases ≥ 4 then .error .valueError else .ok ⟨some f, pa, pb, pc⟩

/-- Boolean reading of a flag, as in `if self.standAlone`. -/
def flag (v : PVal) : Bool := truthy v

/-- What the modelled part of the constructor establishes. -/
structure Built where
  setup : Setup
  standAlone : Bool
  grid : Option PVal
  meas : Meas

/-- Constructor up to `initialize_grid_measurements`: `setup_DER`, then the first steps of `initialize_DER` (DER_components.py 209-218). Left out: `PVModule.__init__`
and `initialize_basic_options`, which read template parameters only. -/
def construct (T : Template) (file : File) (derId : String) (kwargs : Args) : Except Err Built := do
  let s ← setupDER T file derId kwargs
  let (_, np, ub) ← initBasicSpecs T
  let (sa, _, _) ← initFlags s.args
  let g ← attachGrid (flag sa) s.args
  let m ← initMeas (match np with | .int n => n.toNat | _ => 0) (flag ub) (flag sa) s.args
  pure ⟨s, flag sa, g, m⟩

/-- `initialize_states` (DER_check_and_initialize.py 241-283): the value taken for an initial state is `DER_arguments[name]` if present, else the resolved
`initial_states` entries. -/
def initialState (a : Args) (r : Resolved) (name : String) : Option PVal :=
  match a name with
  | some v => some v
  | none => r "initial_states" name

/-! ### The wrapper -/

/-- `DERModel.create_DER_model` (DER_wrapper.py 113-136): the class to instantiate. Two branches pass the undefined name `config_dict`. -/
def dispatch (modelType : String) : Except Err Sim.Mt :=
  if modelType = "SolarPVDERThreePhase" then .ok .three
  else if modelType = "SolarPVDERThreePhaseNoVrmsFilter" then .error .nameError
  else if modelType = "SolarPVDERThreePhaseConstantVdc" then .error .nameError
  else if modelType = "SolarPVDERThreePhaseBalanced" then .ok .balanced
  else if modelType = "SolarPVDERSinglePhase" then .ok .single
  else if modelType = "SolarPVDERSinglePhaseConstantVdc" then .ok .constVdc1
  else if modelType = "SolarPVDERThreePhaseNumba" then .ok .numba
  else .error .valueError

/-- `DERModel.get_config` (DER_wrapper.py 72-91); the wrapper has no `name` either. -/
def wrapperConfig (file : File) (derId : String) : Except Err Cfg := do
  let c ← getConfig file derId
  let par ← parentConfig false file (parentId c)
  updateSpecs c par

/-- `DERModel.__init__` (DER_wrapper.py 26-70), with `createDERModel=True`: the class instantiated and what its constructor establishes. A model type that is not a
string equals no class name. -/
def wrapper (file : File) (derId : String) (kwargs : Args) : Except Err (Sim.Mt × Built) := do
  let c ← wrapperConfig file derId
  match ← look c "basic_specs" "model_type" with
  | none => .error .keyError
  | some v =>
    let m ← dispatch (match v with | .str s => s | _ => "")
    let b ← construct (template m) file derId kwargs
    pure (m, b)

/-! ### Voltage ratings -/

/-- `check_voltage` (DER_check_and_initialize.py 589-606), in per unit for the grid voltage and in volts for the ratings; `vpcc` is the magnitude of the external phase a
voltage in per unit, `vanom` is `Vanominal`, `varated` is `Varated`. -/
def checkVoltage {K : Type*} [Field K] [LinearOrder K] (standAlone : Bool) (vpcc vanom m vdcrated vdcmppMin varated : K) : Except Err Unit :=
  if !standAlone ∧ |vpcc - vanom| / vanom > 1/10 then .error .valueError
  else if m * (vdcrated / 2) < varated then .error .valueError
  else if m * (vdcmppMin / 2) < varated then .error .valueError
  else .ok ()

end Config
end PvDer
