import Verif.Model.RideThrough

/-!
# Model of the event messages written by the ride-through and connection logic

The messages of level INFO written to the log file (`print_VRT_events`, `print_reconnect_events`, `DER_disconnect_logic`; default log level 20, defaults.py 90) and the
frequency messages printed to the terminal (`print_LFRT_events`), in the order in which they are written, with the numbers they print: time, elapsed time, measured
voltage or frequency.  Debug messages (`Time going backwards…`, `DER is in disconnect timer zone.`) and the messages that need `verbose=True` are not modelled, nor is the
formatting of the numbers.  A zone is named by its position in the dictionary.  The state changes are those of `Model/RideThrough.lean`; here only the messages.
-/

namespace PvDer
namespace RT

/-- What a voltage ride-through message says about its zone (`event_name`, DER_features.py 494-520; `print_reconnect_events`, DER_features.py 523-553, likewise; `print_event`, DER_features.py 831-843, writes any text but the empty one): with the time elapsed since the timer started. -/
inductive What (K : Type)
  | entered
  | reset (elapsed : K)
  | cessation (elapsed : K)
  | trip (elapsed : K)
  deriving DecidableEq, Repr

/-- What a frequency message says about its zone (DER_features.py 771-828). -/
inductive LfWhat (K : Type)
  | start
  | reset (elapsed : K)
  | trip (elapsed : K)
  deriving DecidableEq, Repr

/-- One message. `zone high i t V w`: zone `i` of the LVRT (`high = false`) or HVRT table, written at time `t` for measured voltage `V`. -/
inductive Msg (K : Type)
  | zone (high : Bool) (i : Nat) (t V : K) (w : What K)
  | lf (i : Nat) (t f : K) (w : LfWhat K)
  | discStart (t : K)
  | disconnected (t elapsed : K)
  | recoReset (t elapsed : K)
  | recoStart (t : K)
  | reconnected (t elapsed : K)
  deriving DecidableEq, Repr

variable {K : Type} [Field K] [LinearOrder K]

/-- The message of one pass of the loop of `LVRT` (DER_features.py 345-365), if any. -/
def lvMsg (Vref V t : K) (z : Zone K) (mc : Bool) : Option (What K) :=
  if V < z.Vthr * Vref ∧ z.breach = false then
    if z.tStart = 0 then some .entered
    else if t - z.tStart ≤ z.tThr then
      if z.mode = .cessation ∧ mc = false then
        if t - z.tStart ≥ z.tMin then some (.cessation (t - z.tStart)) else none
      else none
    else if t - z.tStart ≥ z.tThr then some (.trip (t - z.tStart))
    else none
  else if V > z.Vthr * Vref then
    if z.tStart > 0 then some (.reset (t - z.tStart)) else none
  else none

/-- The message of one pass of the loop of `HVRT` (DER_features.py 384-404), if any. -/
def hvMsg (Vref V t : K) (z : Zone K) (mc : Bool) : Option (What K) :=
  if V > z.Vthr * Vref ∧ z.breach = false then
    if z.tStart = 0 then some .entered
    else if t - z.tStart ≤ z.tThr then
      if z.mode = .cessation ∧ mc = false then
        if t - z.tStart ≥ z.tMin then some (.cessation (t - z.tStart)) else none
      else none
    else if t - z.tStart ≥ z.tThr then some (.trip (t - z.tStart))
    else none
  else if V < z.Vthr * Vref then
    if z.tStart > 0 then some (.reset (t - z.tStart)) else none
  else none

/-- Messages of the loop over a table whose first zone has position `n` (DER_features.py 336, 375): position and text. -/
def loopMsgs (body : Zone K → Bool → Bool → Zone K × Bool × Bool) (msg : Zone K → Bool → Option (What K)) : Nat → List (Zone K) → Bool → Bool → List (Nat × What K)
  | _, [], _, _ => []
  | n, z :: zs, trip, mc =>
    let r := body z trip mc
    (match msg z mc with | some w => [(n, w)] | none => []) ++ loopMsgs body msg (n + 1) zs r.2.1 r.2.2

/-- Messages of `LVRT` (DER_features.py 330-370). -/
def lvrtMsgs (tStable Vref V t : K) (s : VRT K) : List (Msg K) :=
  if t > tStable then (loopMsgs (lvZone Vref V t) (lvMsg Vref V t) 0 s.zones s.trip s.mc).map fun p => .zone false p.1 t V p.2 else []

/-- Messages of `HVRT` (DER_features.py 371-411). -/
def hvrtMsgs (tStable Vref V t : K) (s : VRT K) : List (Msg K) :=
  if t > tStable then (loopMsgs (hvZone Vref V t) (hvMsg Vref V t) 0 s.zones s.trip s.mc).map fun p => .zone true p.1 t V p.2 else []

/-- One message per zone of a frequency table that meets a condition; `print_LFRT_events` only knows the zone names `1`, `2`, `3` (DER_features.py 774-805) and prints
nothing for others: `named i` says that the key of the `i`-th zone is one of them. -/
def lfMsgs (named : Nat → Bool) (t f : K) (P : LfZone K → Bool) (w : LfZone K → LfWhat K) : Nat → List (LfZone K) → List (Msg K)
  | _, [] => []
  | n, z :: zs => (if P z && named n then [.lf n t f (w z)] else []) ++ lfMsgs named t f P w (n + 1) zs

variable {W : Type}

/-- Messages of `DER_reconnect_logic` (DER_features.py 253-284). -/
def reconnectMsgs (c : Cfg K W) (t : K) (s : St K W) : List (Msg K) :=
  if s.connected then []
  else if s.mc then
    if s.tReco > 0 then [.recoReset t (t - s.tReco)] else []
  else if t > 0 then
    if s.tReco > 0 then
      if t - s.tReco > c.recoDelay then [.reconnected t (t - s.tReco)] else []
    else if s.tReco = 0 then [.recoStart t]
    else []
  else []

/-- Messages of `DER_disconnect_logic` (DER_features.py 211-232). -/
def disconnectMsgs (c : Cfg K W) (t : K) (s : St K W) : List (Msg K) :=
  if s.connected = false then []
  else if s.tDisc = 0 then [.discStart t]
  else if t - s.tDisc < c.discDelay then []
  else if t - s.tDisc ≥ c.discDelay then [.disconnected t (t - s.tDisc)]
  else []

/-- Messages of `disconnect_or_reconnect` (DER_features.py 190-208). -/
def connMsgs (c : Cfg K W) (t : K) (s : St K W) : List (Msg K) :=
  if t > s.connLock then
    if s.connected then
      if s.trip || s.mc then disconnectMsgs c t s else []
    else
      if s.trip = false then reconnectMsgs c t s else []
  else []

/-- Messages of `FRT` (DER_features.py 699-741): those of the three loops, or of the reconnection logic. -/
def frtMsgs (named : Nat → Bool) (c : Cfg K W) (f t : K) (s : St K W) : List (Msg K) :=
  if t > c.tStable then
    if s.lfTrip = false then
      let z1 := s.lf.map (lfStart f t)
      let z2 := z1.map (lfReset c.delF f)
      lfMsgs named t f (fun z => decide (z.tStart = 0 ∧ f < z.F)) (fun _ => .start) 0 s.lf ++
      (lfMsgs named t f (fun z => decide (f > z.F + c.delF ∧ z.tStart > 0)) (fun z => .reset (t - z.tStart)) 0 z1 ++
      lfMsgs named t f (lfTrips f t) (fun z => .trip (t - z.tStart)) 0 z2)
    else reconnectMsgs c t s
  else []

/-- Messages of `update_ridethrough_flags` (DER_features.py 164-187). -/
def flagMsgs (named : Nat → Bool) (c : Cfg K W) (t V f : K) (s : St K W) : List (Msg K) :=
  if t > s.rtLock then
    let s1 := { s with rtLock := t }
    let s2 := if s1.lvEnable then { s1 with lv := lvrt c.tStable c.Vref V t s1.lv } else s1
    let s3 := if s2.hvEnable then { s2 with hv := hvrt c.tStable c.Vref V t s2.hv } else s2
    (if s.lvEnable then lvrtMsgs c.tStable c.Vref V t s.lv else []) ++
    ((if s.hvEnable then hvrtMsgs c.tStable c.Vref V t s.hv else []) ++
    (if s.lfEnable then frtMsgs named c f t s3 else []))
  else []

/-- Messages of one evaluation (see `RT.eval`). -/
def evalMsgs (named : Nat → Bool) (c : Cfg K W) (s : St K W) (i : Inp K) : List (Msg K) :=
  let s0 := { s with refs := i.refs }
  let s1 := updateFlags c i.t i.V i.f s0
  flagMsgs named c i.t i.V i.f s0 ++ (match s1.2 with | .error _ => [] | .ok _ => connMsgs c i.t s1.1)

/-- The log after a sequence of evaluations. -/
def logOf (named : Nat → Bool) (c : Cfg K W) : St K W → List (Inp K) → List (Msg K)
  | _, [] => []
  | s, i :: h => evalMsgs named c s i ++ logOf named c (eval c s i).1 h

end RT
end PvDer
