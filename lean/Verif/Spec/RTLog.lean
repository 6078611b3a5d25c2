import Verif.Model.RTLog

/-!
# Reading the event log: specification

What a reader of the log may conclude, without knowing the program: each message changes what is known about the inverter (`Known.put`), and is only written when its
conditions hold (`Known.May`).  `Reads` is the chain of both over a log.
-/

namespace PvDer
namespace RT

/-- What the messages are about: the two voltage tables with their timers, breach marks, trip and cessation flags; the frequency table; the disconnection and
reconnection timers; whether the inverter is connected. -/
structure Known (K : Type) where
  lv : VRT K
  hv : VRT K
  lf : List (LfZone K)
  lfTrip : Bool
  tDisc : K
  tReco : K
  connected : Bool
  deriving DecidableEq, Repr

/-- Settings a reader needs. -/
structure Rules (K : Type) where
  Vref : K
  discDelay : K
  recoDelay : K
  delF : K

variable {K : Type} [Field K] [LinearOrder K]

/-- The table of one side. -/
def Known.side (o : Known K) (high : Bool) : VRT K := if high then o.hv else o.lv

/-- Replace the table of one side. -/
def Known.setSide (o : Known K) (high : Bool) (v : VRT K) : Known K := if high then { o with hv := v } else { o with lv := v }

/-- Effect of a zone message: entering starts the timer; a reset stops it and ends momentary cessation; cessation is announced; a trip stops the timer and is final for the
zone. -/
def What.put (t : K) (i : Nat) : What K → VRT K → VRT K
  | .entered, v => { v with zones := v.zones.modify i fun z => { z with tStart := t } }
  | .reset _, v => { v with zones := v.zones.modify i (fun z => { z with tStart := 0 }), mc := false }
  | .cessation _, v => { v with mc := true }
  | .trip _, v => { v with zones := v.zones.modify i (fun z => { z with tStart := 0, breach := true }), trip := true }

/-- Effect of a message. -/
def Known.put (o : Known K) : Msg K → Known K
  | .zone high i t _ w => o.setSide high (w.put t i (o.side high))
  | .lf i t _ .start => { o with lf := o.lf.modify i fun z => { z with tStart := t } }
  | .lf i _ _ (.reset _) => { o with lf := o.lf.modify i fun z => { z with tStart := 0 } }
  | .lf i _ _ (.trip _) => { o with lf := o.lf.modify i (fun z => { z with tStart := 0 }), lfTrip := true }
  | .discStart t => { o with tDisc := t }
  | .disconnected _ _ => { o with tDisc := 0, connected := false }
  | .recoReset _ _ => { o with tReco := 0 }
  | .recoStart t => { o with tReco := t }
  | .reconnected _ _ => { o with tReco := 0, connected := true }

/-- The voltage is beyond the threshold of a zone: below it for the low-voltage table, above it for the high-voltage table. -/
def Beyond (high : Bool) (V thr : K) : Prop := if high then V > thr else V < thr

/-- When a zone message may be written: entering only if the timer is stopped and the zone has not tripped; reset only if the voltage is back and the timer runs; cessation
only in a cessation zone, within its time window; trip only after the time limit.  The elapsed time is counted from the start of the timer. -/
def What.May (high : Bool) (Vref V t : K) (mc : Bool) (z : Zone K) : What K → Prop
  | .entered => Beyond high V (z.Vthr * Vref) ∧ z.breach = false ∧ z.tStart = 0
  | .reset e => Beyond (!high) V (z.Vthr * Vref) ∧ z.tStart > 0 ∧ e = t - z.tStart
  | .cessation e => Beyond high V (z.Vthr * Vref) ∧ z.breach = false ∧ z.tStart ≠ 0 ∧ z.mode = .cessation ∧ mc = false ∧ e = t - z.tStart ∧ z.tMin ≤ e ∧ e ≤ z.tThr
  | .trip e => Beyond high V (z.Vthr * Vref) ∧ z.breach = false ∧ z.tStart ≠ 0 ∧ e = t - z.tStart ∧ z.tThr < e

/-- A voltage table has tripped or is in momentary cessation. -/
def Known.anomaly (o : Known K) : Prop := o.lv.trip = true ∨ o.hv.trip = true ∨ o.lv.mc = true ∨ o.hv.mc = true

/-- When a message may be written.  The disconnection timer runs only during an anomaly and disconnects only after its delay; reconnection needs the anomaly to be over
(after a frequency trip the code consults stale flags, so nothing is claimed about them then). -/
def Known.May (R : Rules K) (o : Known K) : Msg K → Prop
  | .zone high i t V w => ∃ z, (o.side high).zones[i]? = some z ∧ w.May high R.Vref V t (o.side high).mc z
  | .lf i _ f .start => o.lfTrip = false ∧ ∃ z, o.lf[i]? = some z ∧ z.tStart = 0 ∧ f < z.F
  | .lf i t f (.reset e) => o.lfTrip = false ∧ ∃ z, o.lf[i]? = some z ∧ 0 < z.tStart ∧ e = t - z.tStart ∧ z.F + R.delF < f
  | .lf i t f (.trip e) => ∃ z, o.lf[i]? = some z ∧ 0 < z.tStart ∧ e = t - z.tStart ∧ z.tLimit ≤ e ∧ f ≤ z.F
  | .discStart _ => o.connected = true ∧ o.tDisc = 0 ∧ (o.lfTrip = true ∨ o.anomaly)
  | .disconnected t e => o.connected = true ∧ o.tDisc ≠ 0 ∧ e = t - o.tDisc ∧ R.discDelay ≤ e ∧ (o.lfTrip = true ∨ o.anomaly)
  | .recoReset t e => o.connected = false ∧ 0 < o.tReco ∧ e = t - o.tReco ∧ (o.lfTrip = true ∨ (o.lv.mc = true ∨ o.hv.mc = true))
  | .recoStart t => o.connected = false ∧ o.tReco = 0 ∧ 0 < t ∧ (o.lfTrip = true ∨ ¬ o.anomaly)
  | .reconnected t e => o.connected = false ∧ 0 < o.tReco ∧ e = t - o.tReco ∧ R.recoDelay < e ∧ (o.lfTrip = true ∨ ¬ o.anomaly)

/-- Reading a log: every message is written only when it may, and the knowledge develops message by message. -/
inductive Reads (R : Rules K) : Known K → List (Msg K) → Known K → Prop
  | nil (o : Known K) : Reads R o [] o
  | cons (o o' : Known K) (m : Msg K) (l : List (Msg K)) (hm : o.May R m) (h : Reads R (o.put m) l o') : Reads R o (m :: l) o'

end RT
end PvDer
