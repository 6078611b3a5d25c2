import Verif.Model.Basic

/-!
# Model of the ride-through and connection logic (`pvder/DER_features.py` 164-411, 413-491, 659-768)

Simplifications common to the file: exact field arithmetic; all printing/logging is dropped (none of the format strings used
with the default `verbose=False` can fail for a non-zero `Vrms_ref`); the measured voltage (`get_Vrms_measured`, 413-427), the PLL
frequency `we/2π` and the values that other parts of the model recompute at every evaluation (references, `Vdc`, `Ppv`) are inputs of an
evaluation; the DC-voltage ramp started on reconnection (280) is a parameter `ramp` acting on an opaque component `w`.
-/

namespace PvDer
namespace RT

/-- `'mode'` of a zone (DER_features.py 345, 380, 481). -/
inductive Mode | mandatory | cessation | other
  deriving DecidableEq, Repr

/-- One entry of `LVRT_dict`/`HVRT_dict`: settings and the mutable fields `'t_start'`, `'threshold_breach'`. -/
structure Zone (K : Type) where
  Vthr : K
  tThr : K
  tMin : K
  mode : Mode
  tStart : K
  breach : Bool
  deriving DecidableEq, Repr

/-- `LVRT_dict`, `LVRT_TRIP`, `LVRT_MOMENTARY_CESSATION` (or the HV counterparts); zones in dictionary order. -/
structure VRT (K : Type) where
  zones : List (Zone K)
  trip : Bool
  mc : Bool
  deriving DecidableEq, Repr

variable {K : Type} [Field K] [LinearOrder K]

/-- Body of the zone loop of `LVRT` (DER_features.py 338-368): new zone entry, trip flag, cessation flag. -/
def lvZone (Vref V t : K) (z : Zone K) (trip mc : Bool) : Zone K × Bool × Bool :=
  if V < z.Vthr * Vref ∧ z.breach = false then
    if z.tStart = 0 then ({ z with tStart := t }, trip, mc)
    else if t - z.tStart ≤ z.tThr then
      if z.mode = .cessation ∧ mc = false then
        if t - z.tStart ≥ z.tMin then (z, trip, true) else (z, trip, mc)
      else (z, trip, mc)
    else if t - z.tStart ≥ z.tThr then ({ z with breach := true, tStart := 0 }, true, mc)
    else (z, trip, mc)
  else if V > z.Vthr * Vref then
    if z.tStart > 0 then ({ z with tStart := 0 }, trip, false) else (z, trip, mc)
  else (z, trip, mc)

/-- Body of the zone loop of `HVRT` (DER_features.py 377-407). -/
def hvZone (Vref V t : K) (z : Zone K) (trip mc : Bool) : Zone K × Bool × Bool :=
  if V > z.Vthr * Vref ∧ z.breach = false then
    if z.tStart = 0 then ({ z with tStart := t }, trip, mc)
    else if t - z.tStart ≤ z.tThr then
      if z.mode = .cessation ∧ mc = false then
        if t - z.tStart ≥ z.tMin then (z, trip, true) else (z, trip, mc)
      else (z, trip, mc)
    else if t - z.tStart ≥ z.tThr then ({ z with breach := true, tStart := 0 }, true, mc)
    else (z, trip, mc)
  else if V < z.Vthr * Vref then
    if z.tStart > 0 then ({ z with tStart := 0 }, trip, false) else (z, trip, mc)
  else (z, trip, mc)

/-- The loop over the dictionary (`for ... in self.LVRT_dict.items()`, DER_features.py 336, 375) for a given loop body. -/
def loopZones (body : Zone K → Bool → Bool → Zone K × Bool × Bool) : List (Zone K) → Bool → Bool → List (Zone K) × Bool × Bool
  | [], trip, mc => ([], trip, mc)
  | z :: zs, trip, mc =>
    let r := body z trip mc
    let rest := loopZones body zs r.2.1 r.2.2
    (r.1 :: rest.1, rest.2)

/-- `LVRT` (DER_features.py 330-370). -/
def lvrt (tStable Vref V t : K) (s : VRT K) : VRT K :=
  if t > tStable then
    let r := loopZones (lvZone Vref V t) s.zones s.trip s.mc
    ⟨r.1, r.2.1, r.2.2⟩
  else s

/-- `HVRT` (DER_features.py 371-411). -/
def hvrt (tStable Vref V t : K) (s : VRT K) : VRT K :=
  if t > tStable then
    let r := loopZones (hvZone Vref V t) s.zones s.trip s.mc
    ⟨r.1, r.2.1, r.2.2⟩
  else s

/-- One entry of `LFRT_dict`. -/
structure LfZone (K : Type) where
  F : K
  tLimit : K
  tStart : K
  deriving DecidableEq, Repr

/-- The quantities overwritten on disconnection (DER_features.py 235-250). -/
structure Refs (K : Type) where
  Qref : K
  VdcRef : K
  Vdc : K
  Ppv : K
  ia : K × K
  ib : K × K
  ic : K × K
  deriving DecidableEq, Repr

/-- Constants: `t_stable`, `Vrms_ref`, `t_disconnect_delay`, `t_reconnect_delay`, `RESTORE_Vdc`, `del_f` and the DC ramp
`Vdc_ref_ramp(t, set_Vdc_ref()*Vbase)` (280) as a function of the time and the opaque component. -/
structure Cfg (K W : Type) where
  tStable : K
  Vref : K
  discDelay : K
  recoDelay : K
  restoreVdc : Bool
  delF : K
  ramp : K → W → W × Except Err Unit

/-- Instance attributes used by the ride-through and connection logic (DER_features.py 296-329, 659-678). -/
structure St (K W : Type) where
  lvEnable : Bool
  hvEnable : Bool
  lfEnable : Bool
  lv : VRT K
  hv : VRT K
  lf : List (LfZone K)
  lfTrip : Bool
  rtLock : K
  connLock : K
  tDisc : K
  tReco : K
  trip : Bool
  mc : Bool
  connected : Bool
  voltVar : Bool
  voltWatt : Bool
  refs : Refs K
  w : W

variable {W : Type}

/-- `DER_reconnect_logic` (DER_features.py 253-284). -/
def reconnectLogic (c : Cfg K W) (t : K) (s : St K W) : St K W × Except Err Unit :=
  if s.connected then (s, .error .assertionError)
  else if s.mc then
    if s.tReco > 0 then ({ s with tReco := 0 }, .ok ()) else (s, .ok ())
  else if t > 0 then
    if s.tReco > 0 then
      if t - s.tReco > c.recoDelay then
        if c.restoreVdc then
          ({ s with connected := true, tReco := 0, w := (c.ramp t s.w).1 }, (c.ramp t s.w).2)
        else ({ s with connected := true, tReco := 0 }, .ok ())
      else (s, .ok ())
    else if s.tReco = 0 then ({ s with tReco := t }, .ok ())
    else (s, .ok ())
  else (s, .ok ())

/-- `DER_disconnect_logic` (DER_features.py 211-232). -/
def disconnectLogic (c : Cfg K W) (t : K) (s : St K W) : St K W × Except Err Unit :=
  if s.connected = false then (s, .error .assertionError)
  else if s.tDisc = 0 then ({ s with tDisc := t }, .ok ())
  else if t - s.tDisc < c.discDelay then (s, .ok ())
  else if t - s.tDisc ≥ c.discDelay then ({ s with tDisc := 0, connected := false }, .ok ())
  else (s, .ok ())

/-- `DER_disconnect` (DER_features.py 235-250). -/
def disconnect (s : St K W) : St K W :=
  { s with voltVar := false, voltWatt := false,
           refs := { s.refs with Qref := 0, VdcRef := s.refs.Vdc, Ppv := 0, ia := (0, 0), ib := (0, 0), ic := (0, 0) } }

/-- `disconnect_or_reconnect` (DER_features.py 190-208). -/
def disconnectOrReconnect (c : Cfg K W) (t : K) (s : St K W) : St K W × Except Err Unit :=
  let r : St K W × Except Err Unit :=
    if t > s.connLock then
      let s1 := { s with connLock := t }
      if s1.connected then
        if s1.trip || s1.mc then disconnectLogic c t s1 else (s1, .ok ())
      else
        if s1.trip = false then reconnectLogic c t s1 else (s1, .ok ())
    else (s, .ok ())
  match r.2 with
  | .error e => (r.1, .error e)
  | .ok _ => if r.1.connected = false then (disconnect r.1, .ok ()) else (r.1, .ok ())

/-- First loop of `FRT` (DER_features.py 707-714): start timers; guarded by `any(t_LFstart == 0)`, which only skips a no-op. -/
def lfStart (f t : K) (z : LfZone K) : LfZone K := if z.tStart = 0 ∧ f < z.F then { z with tStart := t } else z

/-- Second loop of `FRT` (DER_features.py 718-721): reset timers. -/
def lfReset (delF f : K) (z : LfZone K) : LfZone K := if f > z.F + delF ∧ z.tStart > 0 then { z with tStart := 0 } else z

/-- Trip condition of the third loop of `FRT` (DER_features.py 724). -/
def lfTrips (f t : K) (z : LfZone K) : Bool := decide (f ≤ z.F ∧ t - z.tStart ≥ z.tLimit ∧ z.tStart > 0)

/-- Third loop of `FRT` (DER_features.py 723-731): a tripping zone clears its timer. -/
def lfClear (f t : K) (z : LfZone K) : LfZone K := if lfTrips f t z then { z with tStart := 0 } else z

/-- `FRT` (DER_features.py 699-741).  The guard `any(t_LFstart > 0)` on 716 only skips no-ops. -/
def frt (c : Cfg K W) (f t : K) (s : St K W) : St K W × Except Err Unit :=
  if t > c.tStable then
    if s.lfTrip = false then
      let z2 := (s.lf.map (lfStart f t)).map (lfReset c.delF f)
      ({ s with lf := z2.map (lfClear f t), lfTrip := z2.any (lfTrips f t) }, .ok ())
    else reconnectLogic c t s
  else ({ s with lfTrip := false, lf := s.lf.map (fun z => { z with tStart := 0 }) }, .ok ())

/-- `update_ridethrough_flags` (DER_features.py 164-187); `V` measured voltage, `f` PLL frequency. -/
def updateFlags (c : Cfg K W) (t V f : K) (s : St K W) : St K W × Except Err Unit :=
  if t > s.rtLock then
    let s1 := { s with rtLock := t }
    let s2 := if s1.lvEnable then { s1 with lv := lvrt c.tStable c.Vref V t s1.lv } else s1
    let s3 := if s2.hvEnable then { s2 with hv := hvrt c.tStable c.Vref V t s2.hv } else s2
    let r : St K W × Except Err Unit := if s3.lfEnable then frt c f t s3 else (s3, .ok ())
    match r.2 with
    | .error e => (r.1, .error e)
    | .ok _ => ({ r.1 with trip := r.1.lv.trip || r.1.hv.trip, mc := r.1.lv.mc || r.1.hv.mc }, .ok ())
  else (s, .ok ())

/-- Inputs of one evaluation: time, measured voltage, PLL frequency, and the freshly recomputed references. -/
structure Inp (K : Type) where
  t : K
  V : K
  f : K
  refs : Refs K

/-- The part of one ODE/Jacobian evaluation that concerns this file (DER_components_single_phase.py 257-258 and 351-352,
DER_components_three_phase.py 289-290 and 475-476): references recomputed, then flags, then connection logic. An exception ends the evaluation. -/
def eval (c : Cfg K W) (s : St K W) (i : Inp K) : St K W × Except Err Unit :=
  let s1 := updateFlags c i.t i.V i.f { s with refs := i.refs }
  match s1.2 with
  | .error e => (s1.1, .error e)
  | .ok _ => disconnectOrReconnect c i.t s1.1

/-- State after a sequence of evaluations. -/
def run (c : Cfg K W) (s : St K W) (h : List (Inp K)) : St K W := h.foldl (fun s i => (eval c s i).1) s

/-- A zone whose timer has not been started and that is not breached (as filled in by `update_RT_config`, DER_features.py 580-583). -/
def Zone.fresh (z : Zone K) : Prop := z.tStart = 0 ∧ z.breach = false

/-- State after `RT_initialize` (DER_features.py 287-329, 659-678) with the given zone tables; `DER_CONNECTED`, `DER_TRIP`,
`DER_MOMENTARY_CESSATION` have their class defaults (DER_features.py 29-31). Enables and feature flags that a user may set beforehand are free. -/
structure IsInit (s : St K W) : Prop where
  lvz : ∀ z ∈ s.lv.zones, z.fresh
  hvz : ∀ z ∈ s.hv.zones, z.fresh
  lvt : s.lv.trip = false
  lvm : s.lv.mc = false
  hvt : s.hv.trip = false
  hvm : s.hv.mc = false
  lfz : ∀ z ∈ s.lf, z.tStart = 0
  lft : s.lfTrip = false
  rl : s.rtLock = 0
  cl : s.connLock = 0
  td : s.tDisc = 0
  tr : s.tReco = 0
  trip : s.trip = false
  mc : s.mc = false
  conn : s.connected = true

/-! ## Settings check -/

/-- Limits used by `check_VRT_settings`: `V_threshold_high_limit`, `t_threshold_high_limit`, `t_disconnect_low_limit`, `t_reconnect_low_limit`. -/
structure VLim (K : Type) where
  Vhigh : K
  tHigh : K
  discLow : K
  recoLow : K

/-- `V_threshold_list == sorted(V_threshold_list, reverse=True)` on the list so far (DER_features.py 463-465). -/
def isDescending (l : List K) : Bool := decide (l = l.insertionSort (fun a b => b ≤ a))

/-- Ascending version (DER_features.py 470-472). -/
def isAscending (l : List K) : Bool := decide (l = l.insertionSort (fun a b => a ≤ b))

/-- Inner loop of `check_VRT_settings` (DER_features.py 453-482); `acc` is `V_threshold_list` so far, `lvSide` is `RT_type == 'LV'`. -/
def checkZones (L : VLim K) (lvSide : Bool) : List K → List (Zone K) → Except Err Unit
  | _, [] => .ok ()
  | acc, z :: zs =>
    let acc' := acc ++ [z.Vthr]
    if (if lvSide then decide (z.Vthr ≥ 1) || !isDescending acc' else decide (z.Vthr ≤ 1) || !isAscending acc') then .error .valueError
    else if z.Vthr ≤ 0 then .error .valueError
    else if z.Vthr ≥ L.Vhigh then .error .valueError
    else if z.tThr ≤ 0 then .error .valueError
    else if z.tThr ≥ L.tHigh then .error .valueError
    else if z.mode = .other then .error .valueError
    else checkZones L lvSide acc' zs

/-- `check_VRT_settings` (DER_features.py 439-491): LV zones, delays, HV zones, delays. -/
def checkVRT (L : VLim K) (lv hv : List (Zone K)) (discDelay recoDelay : K) : Except Err Unit :=
  match checkZones L true [] lv with
  | .error e => .error e
  | .ok _ =>
    if discDelay < L.discLow then .error .valueError
    else if recoDelay < L.recoLow then .error .valueError
    else match checkZones L false [] hv with
      | .error e => .error e
      | .ok _ => .ok ()

end RT
end PvDer
