import Verif.Model.ParInit
import Verif.Model.Measured
import Verif.Model.VdcRef
/-!
# The display methods: what is printed, number by number

A display is the list of printed items and the exception that ends it, if any. Simplification: numbers are printed exactly (the code rounds them to the number
of decimals recorded in the item); line breaks and fixed text are dropped.
-/
namespace PvDer
namespace Display

open Complex Phasor Circuit

/-- One printed item. -/
inductive Item
  | text (s : String)
  /-- label, number, decimals -/
  | num (label : String) (x : ℝ) (digits : ℕ)
  | cplx (label : String) (z : ℂ) (digits : ℕ)
  | flag (label : String) (v : Bool)

/-- Printed items and the exception that ended the method. -/
abbrev Out := List Item × Option Err

/-! ### `show_PV_DER_parameters` -/

/-- `properties.controller_properties` (properties.py 136-141). -/
def controllers : List (List String × String) :=
  [(["Kp_GCC", "Ki_GCC", "wp"], "Current controller"),
   (["Kp_DC", "Ki_DC"], "DC link voltage controller"),
   (["Kp_P", "Ki_P"], "Active power controller"),
   (["Kp_Q", "Ki_Q"], "Reactive power controller"),
   (["Kp_PLL", "Ki_PLL"], "PLL controller")]

/-- `eval('self.'+gain_type)`; the PLL gains are class attributes (DER_components.py 40-41), the others were set by `initialize_controller_gains`. -/
def gainAttr (g : Config.GainData) (name : String) : Option ℚ :=
  if name = "Kp_GCC" then some g.KpGCC else if name = "Ki_GCC" then some g.KiGCC else if name = "wp" then some g.wp
  else if name = "Kp_DC" then g.KpDC else if name = "Ki_DC" then g.KiDC else if name = "Kp_P" then g.KpP else if name = "Ki_P" then g.KiP
  else if name = "Kp_Q" then g.KpQ else if name = "Ki_Q" then g.KiQ else if name = "Kp_PLL" then some 180 else if name = "Ki_PLL" then some 320 else none

/-- The inner loop over the gains of a controller (DER_utilities.py 466-467). -/
noncomputable def gainRows (g : Config.GainData) : List String → Out
  | [] => ([], none)
  | n :: ns =>
    match gainAttr g n with
    | none => ([], some .attributeError)
    | some q => (.num n q 3 :: (gainRows g ns).1, (gainRows g ns).2)

/-- The loop over the controllers (DER_utilities.py 463-467). -/
noncomputable def controllerRows (T : Config.Template) (g : Config.GainData) : List (List String × String) → Out
  | [] => ([], none)
  | c :: cs =>
    if c.1.all (Config.inTemplate T "controller_gains") then
      match gainRows g c.1 with
      | (r, some e) => (.text c.2 :: r, some e)
      | (r, none) => (.text c.2 :: r ++ (controllerRows T g cs).1, (controllerRows T g cs).2)
    else controllerRows T g cs

/-- Module part (DER_utilities.py 451-453). -/
noncomputable def moduleRows (e : Config.Electrical) : Out :=
  ([.num "Np" e.module.Np 0, .num "Ns" e.module.Ns 0, .num "Vdcmpp0" e.module.mpp0 3, .num "Vdcmpp_min" e.module.mppMin 3, .num "Vdcmpp_max" e.module.mppMax 3], none)

/-- Ratings part (DER_utilities.py 455-458). -/
noncomputable def ratingRows (e : Config.Electrical) (N : ℕ) : Out :=
  ([.num "Srated" (e.plate N).Srated 3, .num "Vdcrated" (e.plate N).Vdcrated 3, .num "Vtrated (L-G peak)" ((e.plate N).Vdcrated / 2 * e.duty) 3,
    .num "Vrated (L-G peak)" (Ratings.Varated (e.plate N)) 3], none)

/-- Circuit part (DER_utilities.py 460-461): the per-unit attributes times their bases; without the attribute `C` the statement prints nothing. -/
noncomputable def circuitRows (e : Config.Electrical) (N : ℕ) (b : Circuit.Base) : Out :=
  match e.circuit.C with
  | none => ([], some .attributeError)
  | some _ => ([.num "Cdc" (Ratings.C (e.plate N) b * b.Cbase) 9, .num "Lf" (Ratings.Lf (e.plate N) b * b.Lbase) 6, .num "Rf" (Ratings.Rf (e.plate N) b * b.Zbase) 3], none)

/-- One part after another, until an exception. -/
def andThen (a b : Out) : Out :=
  match a.2 with
  | some e => (a.1, some e)
  | none => (a.1 ++ b.1, b.2)

/-- `show_PV_DER_parameters` (DER_utilities.py 441-470) of an instance with electrical data `e`. -/
noncomputable def showParameters (T : Config.Template) (b : Circuit.Base) (id : String) (e : Config.Electrical) (N : ℕ) (ty : String) : Out :=
  if ty ∈ ["module_parameters", "inverter_ratings", "controller_gains", "circuit_parameters", "all"] then
    andThen ([.text id], none) <|
    andThen (if ty = "module_parameters" ∨ ty = "all" then moduleRows e else ([], none)) <|
    andThen (if ty = "inverter_ratings" ∨ ty = "all" then ratingRows e N else ([], none)) <|
    andThen (if ty = "circuit_parameters" ∨ ty = "all" then circuitRows e N b else ([], none)) <|
    (if ty = "controller_gains" ∨ ty = "all" then controllerRows T e.gain controllers else ([], none))
  else ([], some .valueError)

/-! ### `show_PV_DER_states` -/

/-- Attributes read by `show_PV_DER_states` (DER_utilities.py 403-438) besides those of `Measured.Inst`. -/
structure Attrs where
  Vdc : ℝ
  Vtrms : ℝ
  Vrms : ℝ
  Irms : ℝ
  Ppv : ℝ
  S : ℂ
  SPCC : ℂ
  ma : ℂ
  /-- `mb`, `mc` -/
  mbc : Option (ℂ × ℂ)

/-- `show_PV_DER_states` (DER_utilities.py 403-438). A three-phase instance is one that has the attributes of the other phases. -/
noncomputable def showStates (b : Circuit.Base) (name : String) (s : Measured.Inst) (a : Attrs) (quantity : String) : Out :=
  if quantity = "voltage" then
    ([.text name, .num "Vdc" (a.Vdc * b.Vbase) 2, .cplx "Vta" (s.vta * b.Vbase) 2] ++
     (match s.bc with
      | some ((vtb, _, _), (vtc, _, _)) => [.cplx "Vtb" (vtb * b.Vbase) 2, .cplx "Vtb" (vtc * b.Vbase) 2, .cplx "Vtn" ((s.vta + vtb + vtc) * b.Vbase) 2]
      | none => []) ++
     [.cplx "Va" (s.va * b.Vbase) 2] ++
     (match s.bc with
      | some ((vtb, vb, _), (vtc, vc, _)) => [.cplx "Vb" (vb * b.Vbase) 2, .cplx "Vc" (vc * b.Vbase) 2, .cplx "Vn" ((s.vta + vtb + vtc) * b.Vbase) 2]
      | none => []) ++
     [.num "Vtrms" (a.Vtrms * b.Vbase) 2, .num "Vpccrms" (a.Vrms * b.Vbase) 2], none)
  else if quantity = "current" then
    ([.text name, .cplx "ia" (s.ia * b.Ibase) 2] ++
     (match s.bc with
      | some ((_, _, ib), (_, _, ic)) => [.cplx "ib" (ib * b.Ibase) 2, .cplx "ic" (ic * b.Ibase) 2, .cplx "In" ((s.ia + ib + ic) * b.Ibase) 2]
      | none => []) ++
     [.num "Irms" (a.Irms * b.Ibase) 2], none)
  else if quantity = "power" then
    ([.text name, .num "Ppv" (a.Ppv * b.Sbase) 1, .cplx "S" (a.S * b.Sbase) 1, .cplx "S_PCC" (a.SPCC * b.Sbase) 1], none)
  else if quantity = "duty cycle" then
    ([.text name, .cplx "ma" a.ma 2] ++
     (match a.mbc with
      | some (mb, mc) => [.cplx "mb" mb 2, .cplx "mc" mc 2, .cplx "m0" (a.ma + mb + mc) 2]
      | none => []), none)
  else ([], some .valueError)

/-! ### Ride-through displays -/

/-- `show_RT_flags` (DER_features.py 430-436). -/
def showRTFlags {W : Type} (s : RT.St ℝ W) : List Item :=
  [.flag "DER_MOMENTARY_CESSATION" s.mc, .flag "LVRT_MOMENTARY_CESSATION" s.lv.mc, .flag "HVRT_MOMENTARY_CESSATION" s.hv.mc,
   .flag "DER_CONNECTED" s.connected, .flag "DER_TRIP" s.trip]

/-- The word printed for the mode (the code prints the configured string; modes other than the two known words are not distinguished here). -/
def modeText : RT.Mode → String
  | .mandatory => "mandatory_operation"
  | .cessation => "momentary_cessation"
  | .other => ""

/-- One line per level (DER_features.py 633-635, 642-644). -/
def levelRows (l : List (String × RT.Zone ℝ)) : List Item :=
  l.flatMap fun kz => [.text kz.1, .num "Vthreshold" kz.2.Vthr 2, .num "tthreshold" kz.2.tThr 2, .num "tminridethrough" kz.2.tMin 3, .text (modeText kz.2.mode)]

/-- `show_RT_settings` (DER_features.py 614-656). `lk`, `hk` are the keys of `LVRT_dict`, `HVRT_dict` in dictionary order; the low-frequency levels `'1'` and `'2'` are
the first two entries. `perUnit` selects `V_multiplier` (620-623), which is never used afterwards. -/
noncomputable def showRTSettings {W : Type} (name : String) (Vbase : ℝ) (c : RT.Cfg ℝ W) (lk hk : List String) (inst : Bool) (s : RT.St ℝ W) (ty : String) (perUnit : Bool) : Out :=
  let _multiplier := if perUnit then 1 / c.Vref else Vbase
  if ty = "LVRT" then
    ([.text name, .flag "LVRT_ENABLE" s.lvEnable, .flag "LVRT_TRIP" s.lv.trip, .flag "LVRT_MOMENTARY_CESSATION" s.lv.mc, .num "Vrms_ref" (c.Vref * Vbase) 2] ++
      levelRows (lk.zip s.lv.zones) ++ [.num "OUTPUT_CESSATION_DELAY" c.discDelay 0, .num "OUTPUT_RESTORE_DELAY" c.recoDelay 0], none)
  else if ty = "HVRT" then
    ([.text name, .flag "HVRT_ENABLE" s.hvEnable, .flag "HVRT_TRIP" s.hv.trip, .flag "HVRT_MOMENTARY_CESSATION" s.hv.mc, .num "Vrms_ref" (c.Vref * Vbase) 2] ++
      levelRows (hk.zip s.hv.zones) ++ [.num "OUTPUT_CESSATION_DELAY" c.discDelay 0, .num "OUTPUT_RESTORE_DELAY" c.recoDelay 0], none)
  else if ty = "LFRT" then
    match s.lf with
    | z1 :: z2 :: _ =>
      ([.text name, .num "f_ref" 60 2, .num "F_LF1" z1.F 2, .num "F_LF2" z2.F 2, .num "t_LF1" z1.tLimit 2, .num "t_LF2" z2.tLimit 2, .flag "LFRT_ENABLE" s.lfEnable,
        .flag "LFRT_TRIP" s.lfTrip, .flag "FRT_INSTANTANEOUS_TRIP" inst, .num "OUTPUT_CESSATION_DELAY" c.discDelay 0, .num "OUTPUT_RESTORE_DELAY" c.recoDelay 0], none)
    | _ => ([.text name], some .keyError)
  else ([], some .valueError)

/-- `check_anomaly` (DER_features.py 556-563): the reported pairs (start time, level). -/
noncomputable def checkAnomaly (lk : List String) (v : RT.VRT ℝ) : List (ℝ × String × RT.Zone ℝ) :=
  (lk.zip v.zones).filterMap fun kz => if kz.2.tStart > 0 then some (kz.2.tStart, kz.1, kz.2) else none

/-! ### Schedules -/

/-- `show_references` (DER_utilities.py 619-630): number of references, then time and value in volts of each. -/
noncomputable def showReferences (c : VdcRef.Cfg ℝ) (s : VdcRef.St ℝ) : ℕ × List (ℝ × ℝ) :=
  (s.lst.length, s.lst.map fun e => (e.T, e.v * c.base))

/-- The keys of an event dictionary (simulation_events.py 207, 241, 266). -/
def eventKeys {K : Type} : Events.SolarVal K ⊕ Events.GridVal K ⊕ Events.LoadVal K → List String
  | .inl _ => ["T", "Sinsol", "Tactual"]
  | .inr (.inl _) => ["T", "Vgrid", "Vgrid_angle", "fgrid"]
  | .inr (.inr _) => ["T", "Zload1_actual"]

/-- A line of `show_events`: kind, time and the values of the event. -/
inductive Line (K : Type)
  | solar (T S Ta : K)
  | grid (T V ang f : K)
  | load (T Zre Zim : K)
  deriving DecidableEq

/-- `show_events` (simulation_events.py 372-388): the three conditions are evaluated as Python does (`'S' and 'Tactual' in keys` is `'Tactual' in keys`); reading a missing
entry would be a `KeyError`. -/
def eventLines {K : Type} (e : Ev K (Events.SolarVal K ⊕ Events.GridVal K ⊕ Events.LoadVal K)) : Except Err (List (Line K)) := do
  let l1 ← (if (eventKeys e.v).contains "Tactual" then (match e.v with | .inl v => .ok [.solar e.T v.Sinsol v.Tactual] | _ => .error .keyError) else .ok [] : Except Err (List (Line K)))
  let l2 ← (if (eventKeys e.v).contains "fgrid" then (match e.v with | .inr (.inl v) => .ok [.grid e.T v.V v.ang v.f] | _ => .error .keyError) else .ok [] : Except Err (List (Line K)))
  let l3 ← (if (eventKeys e.v).contains "Zload1_actual" then (match e.v with | .inr (.inr v) => .ok [.load e.T v.Zre v.Zim] | _ => .error .keyError) else .ok [] : Except Err (List (Line K)))
  pure (l1 ++ l2 ++ l3)

/-- `show_events` (simulation_events.py 372-388): the two totals it prints, then the lines. -/
def showEvents {K : Type} [Field K] [LinearOrder K] (s : Events.St K) : Except Err (ℕ × ℕ × List (Line K)) := do
  let ls ← (Events.merged s).mapM eventLines
  pure (s.solar.length, s.grid.length, ls.flatten)

/-! ### `debug_simulation` -/

/-- The debugging switches of a simulation (dynamic_simulation.py 28-34). -/
structure Debug where
  simulation : Bool
  voltages : Bool
  currents : Bool
  power : Bool
  controllers : Bool
  pll : Bool

/-- Whether `debug_simulation` (dynamic_simulation.py 350-369), called after a derivative evaluation (329-330, simulation_utilities.py 445-446), raises: the grid model has no
attribute `Vagrid_no_conversion` (grid_components.py 56-77), no DER has an attribute `xdc`, and the load current, load power and grid power exist only in stand-alone
operation (`update_power`, DER_components_three_phase.py 222-227 and the same in the other classes). -/
def debugOutput (standAlone : Bool) (d : Debug) : Except Err Unit := do
  let _ ← (if d.voltages then .error .attributeError else .ok () : Except Err Unit)
  let _ ← (if d.currents then (if standAlone then .ok () else .error .attributeError) else .ok () : Except Err Unit)
  let _ ← (if d.power then (if standAlone then .ok () else .error .attributeError) else .ok () : Except Err Unit)
  let _ ← (if d.controllers then .error .attributeError else .ok () : Except Err Unit)
  pure ()

/-- A derivative evaluation of a simulation with debugging (dynamic_simulation.py 320-334): the derivative computed as without it, then the debug output. -/
def withDebug {α : Type} (standAlone : Bool) (d : Debug) (r : Except Err α) : Except Err α := do
  let y ← r
  let _ ← (if d.simulation then debugOutput standAlone d else .ok () : Except Err Unit)
  pure y

end Display
end PvDer
