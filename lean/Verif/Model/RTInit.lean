import Verif.Model.Config
import Verif.Model.RideThrough
import Verif.Model.Ratings
import Verif.Model.Eval
/-!
From a configuration to the state in which a simulation starts: the part of the constructor after `setup_DER` that fixes the ride-through behaviour
(`initialize_basic_options`, `initialize_Vac`, `RT_initialize`).
-/
namespace PvDer
namespace Config

/-- `self.DER_config[comp][p]` used as a number. Simplification: a value that is not a number is a `TypeError` here; Python raises it at the first comparison or
multiplication. -/
def number (d : Design) (comp p : String) : Except Err ℚ :=
  match d.cfg comp p with
  | none => .error .keyError
  | some v => match num v with
    | some q => .ok q
    | none => .error .typeError

/-- A setting of one ride-through level used as a number (same simplification). -/
def levelNum (d : String → Option PVal) (k : String) : Except Err ℚ :=
  match d k with
  | none => .error .keyError
  | some v => match num v with
    | some q => .ok q
    | none => .error .typeError

/-- `VRT_values['mode']` as the logic distinguishes it (DER_features.py 356, 398, 481): membership in a set needs a hashable value. -/
def levelMode (d : String → Option PVal) : Except Err RT.Mode :=
  match d "mode" with
  | none => .error .keyError
  | some (.str s) => .ok (if s = "mandatory_operation" then .mandatory else if s = "momentary_cessation" then .cessation else .other)
  | some .dict => .error .typeError
  | some .list => .error .typeError
  | some _ => .ok .other

/-- One entry of `LVRT_dict`/`HVRT_dict` (DER_features.py 315-316, 337-341). Simplification: `t_min_ridethrough` and `t_start` are not checked by the constructor;
here a value that is no number is a `TypeError` already. -/
def readZone (kv : String × Leaf) : Except Err (RT.Zone ℚ) :=
  match kv.2 with
  | .val _ => .error .typeError
  | .level d => do
    let V ← levelNum d "V_threshold"
    let t ← levelNum d "t_threshold"
    let m ← levelMode d
    let tm ← levelNum d "t_min_ridethrough"
    let ts ← levelNum d "t_start"
    match d "threshold_breach" with
    | none => .error .keyError
    | some b => pure ⟨V, t, tm, m, ts, truthy b⟩

/-- `self.RT_config['VRT_delays'][k]` as a number. -/
def delayNum (b : Body) (k : String) : Except Err ℚ :=
  match b.lookup k with
  | none => .error .keyError
  | some (.val v) => (match num v with | some q => .ok q | none => .error .typeError)
  | some (.level _) => .error .typeError

/-- `self.RT_config['VRT_delays'][k]` as a condition. -/
def delayFlag (b : Body) (k : String) : Except Err Bool :=
  match b.lookup k with
  | none => .error .keyError
  | some (.val v) => .ok (truthy v)
  | some (.level _) => .ok true

/-- Limits of the settings check (DER_features.py 23-26, defaults.py 22-26). -/
def vLimits : RT.VLim ℚ := ⟨3/2, 100, 1/120, 1/10⟩

/-- What `VRT_initialize` establishes besides the flags. -/
structure VrtInit where
  lv : List (RT.Zone ℚ)
  hv : List (RT.Zone ℚ)
  disc : ℚ
  reco : ℚ
  restore : Bool

/-- `VRT_initialize` with `check_VRT_settings` (DER_features.py 296-329, 439-491); `intOk level` tells whether `int(level)` succeeds. -/
def vrtInit (intOk : String → Bool) (r : String → Option Body) : Except Err VrtInit := do
  let lvb ← need (r "LVRT")
  let hvb ← need (r "HVRT")
  let _ ← (if (lvb ++ hvb).all (fun kv => intOk kv.1) then .ok () else .error .valueError : Except Err Unit)
  let vd ← need (r "VRT_delays")
  let dd ← delayNum vd "output_cessation_delay"
  let rd ← delayNum vd "output_restore_delay"
  let rv ← delayFlag vd "restore_Vdc"
  let lv ← lvb.mapM readZone
  let hv ← hvb.mapM readZone
  RT.checkVRT vLimits lv hv dd rd
  pure ⟨lv, hv, dd, rd, rv⟩

/-- One entry of `LFRT_dict` (DER_features.py 672, 709-733) when the switch `FRT_INSTANTANEOUS_TRIP` is `inst` (DER_features.py 753-768: the time limit of levels
`'1'` and `'2'` becomes half a second). -/
def readLf (inst : Bool) (kv : String × Leaf) : Except Err (RT.LfZone ℚ) :=
  match kv.2 with
  | .val _ => .error .typeError
  | .level d => do
    let F ← levelNum d "F_LF"
    let t ← levelNum d "t_LF_limit"
    let ts ← levelNum d "t_LFstart"
    pure ⟨F, if inst && (kv.1 = "1" || kv.1 = "2") then 30 * (1/60) else t, ts⟩

/-- `dict['2'][k] > dict['1'][k]`, else `ValueError` (DER_features.py 681-696). -/
def checkOrder (b : Body) (k : String) : Except Err Unit :=
  match b.lookup "2", b.lookup "1" with
  | some (.level d2), some (.level d1) => do
    let x2 ← levelNum d2 k
    let x1 ← levelNum d1 k
    if x2 > x1 then pure () else .error .valueError
  | some (.val _), some _ => .error .typeError
  | some _, some (.val _) => .error .typeError
  | _, _ => .error .keyError

/-- `FRT_initialize` (DER_features.py 659-678): the low-frequency levels. The switch setter needs levels `'1'` and `'2'` in both tables, as the order checks do. -/
def frtInit (r : String → Option Body) : Except Err (List (RT.LfZone ℚ)) := do
  let lfb ← need (r "LFRT")
  let hfb ← need (r "HFRT")
  let fd ← need (r "FRT_delays")
  let inst ← delayFlag fd "FRT_INSTANTANEOUS_TRIP"
  checkOrder lfb "F_LF"
  checkOrder hfb "F_HF"
  lfb.mapM (readLf inst)

/-- `Vrms_measurement_type` (DER_check_and_initialize.py 191, DER_features.py 413-424). -/
def measOf : PVal → Eval.Meas
  | .str s => if s = "minimum" then .minimum else if s = "average" then .average else if s = "filtered" then .filtered else .invalid
  | _ => .invalid

/-- What the constructor fixes for the ride-through logic. -/
structure Start where
  vrt : VrtInit
  lf : List (RT.LfZone ℚ)
  tStable : ℚ
  Vrms : ℚ
  meas : Eval.Meas

/-- The steps of `initialize_DER` that fix the ride-through behaviour, in the order of the code (DER_components.py 209-220): `initialize_basic_options`
(DER_check_and_initialize.py 185-193), `initialize_Vac` (406-414), `RT_initialize` (DER_features.py 287-293). -/
def start (intOk : String → Bool) (s : Setup) : Except Err Start := do
  let ts ← number s.design "basic_options" "t_stable"
  let mt ← (match s.design.cfg "basic_options" "Vrms_measurement_type" with | some v => .ok v | none => .error .keyError)
  let vr ← number s.design "inverter_ratings" "Vrmsrated"
  let v ← vrtInit intOk s.rt
  let lf ← frtInit s.rt
  pure ⟨v, lf, ts, vr, measOf mt⟩

/-- The same zone with real numbers. -/
noncomputable def zoneR (z : RT.Zone ℚ) : RT.Zone ℝ := ⟨z.Vthr, z.tThr, z.tMin, z.mode, z.tStart, z.breach⟩

/-- Ride-through state after the constructor (DER_features.py 30-32, 299-316, 661-673): both voltage functions enabled, frequency function disabled, nothing
flagged, all timers stopped. The references and the schedule of DC references are left open. -/
noncomputable def Start.rt {W : Type} (v : Start) (vv vw : Bool) (refs : RT.Refs ℝ) (w : W) : RT.St ℝ W :=
  { lvEnable := true, hvEnable := true, lfEnable := false, lv := ⟨v.vrt.lv.map zoneR, false, false⟩, hv := ⟨v.vrt.hv.map zoneR, false, false⟩
    lf := v.lf.map fun z => ⟨z.F, z.tLimit, z.tStart⟩, lfTrip := false, rtLock := 0, connLock := 0, tDisc := 0, tReco := 0, trip := false, mc := false
    connected := true, voltVar := vv, voltWatt := vw, refs := refs, w := w }

/-- A simulation of a DER whose constructor established `v`, in a tool with base values `b`: `h` is its hidden state before the first evaluation, `g` its constants
(`Vrms_ref`: DER_check_and_initialize.py 406-414). -/
structure Starts (v : Start) (b : Circuit.Base) (g : Eval.SCfg) (h : Eval.Hid) : Prop where
  rt : ∃ vv vw refs w, h.rt = v.rt vv vw refs w
  tStable : g.tStable = v.tStable
  Vref : g.Vref = (v.Vrms : ℝ) * Real.sqrt 2 / b.Vbase / Real.sqrt 2
  disc : g.discDelay = v.vrt.disc
  reco : g.recoDelay = v.vrt.reco
  restore : g.restoreVdc = v.vrt.restore
  meas : g.meas = v.meas

/-- The class the wrapper and the simulation use for a model type (templates.py 16-125). -/
noncomputable def clsOf : Sim.Mt → Eval.Cls
  | .single => Eval.single
  | .constVdc1 => Eval.single0
  | .three => Eval.three
  | .noFilter => Eval.noFilter
  | .numba => Eval.numba
  | .balanced => Eval.balanced
  | .constVdc3 => Eval.three0

end Config
end PvDer
