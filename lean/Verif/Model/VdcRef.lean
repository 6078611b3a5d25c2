import Verif.Model.EventTools

/-!
# Model of the DC link voltage reference schedule (`pvder/DER_utilities.py` 43-47, 324-329, 525-616, 633-638)

Exact arithmetic, printing dropped, `float(...)` conversions are the identity on numbers.
-/

namespace PvDer
namespace VdcRef

variable {K : Type} [Field K] [LinearOrder K]

/-- Per-instance constants: `Vdcmpp_min`, `Vdcmpp_max`, `Vdcbase`, `del_t_Vdc_ref` (DER_utilities.py 47; 0.5 by defaults.py 28). -/
structure Cfg (K : Type) where
  vmin : K
  vmax : K
  base : K
  delT : K
  deriving DecidableEq, Repr

/-- Per-instance variables: `Vdc_ref_total`, `Vdc_ref_counter`, `Vdc_ref`, `del_Vdc_ref` (DER_utilities.py 44-46). -/
structure Inst (K : Type) where
  total : Int
  ctr : Int
  ref : K
  del : K
  deriving DecidableEq, Repr

/-- What one instance sees: the list object `Vdc_ref_list` and its own variables. -/
structure St (K : Type) where
  lst : List (Ev K K)
  inst : Inst K
  deriving DecidableEq, Repr

/-- `add_Vdc_ref` (DER_utilities.py 549-570). -/
def addRef (c : Cfg K) (s : St K) (t V : K) : St K × Except Err Unit :=
  if V < c.vmin ∨ V > c.vmax then (s, .error .valueError)
  else
    let l := addTimed t (V / c.base) s.lst
    (⟨l, { s.inst with total := l.length }⟩, .ok ())

/-- `get_Vdc_ref` (DER_utilities.py 573-593). -/
def getRef (s : St K) (t : K) : St K × Except Err K :=
  ({ s with inst := { s.inst with ctr := (playback s.lst s.inst.total s.inst.ctr s.inst.ref t).1 } },
    (playback s.lst s.inst.total s.inst.ctr s.inst.ref t).2)

/-- `update_Vdc_ref` (DER_utilities.py 324-329): the result is stored in `Vdc_ref`; an exception leaves it as it was. -/
def updateRef (s : St K) (t : K) : St K × Except Err K :=
  match getRef s t with
  | (s', .ok v) => ({ s' with inst := { s'.inst with ref := v } }, .ok v)
  | (s', .error e) => (s', .error e)

/-- The loop of `Vdc_ref_ramp` (DER_utilities.py 613-614): `trange[i]` beyond the end is an `IndexError`; the first exception ends the loop. -/
def addLoop (c : Cfg K) (s : St K) : List K → List K → St K × Except Err Unit
  | _, [] => (s, .ok ())
  | [], _ :: _ => (s, .error .indexError)
  | t :: ts, v :: vs =>
    match addRef c s t v with
    | (s', .error e) => (s', .error e)
    | (s', .ok _) => addLoop c s' ts vs

/-- `Vdc_ref_ramp` (DER_utilities.py 596-616).  `del_Vdc_ref` is negated in place (609); `Vdc_ref_range[-1] = target` on an empty array is an
`IndexError` (611); `numpy.arange` with a zero step is a `ZeroDivisionError`. -/
def ramp [FloorSemiring K] (c : Cfg K) (s : St K) (tstart target : K) : St K × Except Err Unit :=
  match getRef s tstart with
  | (s1, .error e) => (s1, .error e)
  | (s1, .ok v) =>
    let start := v * c.base
    if |start - target| ≤ s1.inst.del then addRef c s1 tstart target
    else
      let del := if start > target then -s1.inst.del else s1.inst.del
      let s2 : St K := { s1 with inst := { s1.inst with del := del } }
      if del = 0 then (s2, .error .zeroDivision)
      else
        let rng := arange (start + del) (target + del) del
        if rng = [] then (s2, .error .indexError)
        else addLoop c s2 (arange tstart (tstart + (rng.length : K)) c.delT) (rng.dropLast ++ [target])

/-- `reset_reference_counters` (DER_utilities.py 633-638). -/
def reset (s : St K) : St K := { s with inst := { s.inst with ctr := 0 } }

/-- The calls a user (or the simulation loop) makes. -/
inductive Op (K : Type)
  | add (t V : K)
  | get (t : K)
  | update (t : K)
  | ramp (t target : K)
  | reset

/-- One call; the result is dropped. -/
def step [FloorSemiring K] (c : Cfg K) (s : St K) : Op K → St K
  | .add t V => (addRef c s t V).1
  | .get t => (getRef s t).1
  | .update t => (updateRef s t).1
  | .ramp t target => (ramp c s t target).1
  | .reset => reset s

/-- All DER instances of a process: `Vdc_ref_list` is a class attribute (DER_utilities.py 43) that is only ever mutated in place, hence one list object
shared by all instances; the other variables become instance attributes on first assignment. -/
structure World (K : Type) where
  lst : List (Ev K K)
  inst : Nat → Inst K

/-- A call on instance `i`. -/
def wstep [FloorSemiring K] (c : Nat → Cfg K) (w : World K) (x : Nat × Op K) : World K :=
  let s := step (c x.1) ⟨w.lst, w.inst x.1⟩ x.2
  ⟨s.lst, fun j => if j = x.1 then s.inst else w.inst j⟩

/-- A new process: empty list, zero counters, step 2 V (defaults.py 27). -/
def winit (ref : Nat → K) : World K := ⟨[], fun j => ⟨0, 0, ref j, 2⟩⟩

/-- A sequence of `update_Vdc_ref` calls (one per ODE evaluation) and their results. -/
def updSeq (s : St K) : List K → List (Except Err K)
  | [] => []
  | t :: ts => (updateRef s t).2 :: updSeq (updateRef s t).1 ts

/-- `np.polyval(z, x)` (Horner; highest power first). -/
def polyval (z : List K) (x : K) : K := z.foldl (fun acc a => acc * x + a) 0

/-- `MPP_table` (DER_utilities.py 537-546). -/
def mppTable (c : Cfg K) (usePoly : Bool) (z : List K) (sinsol vrated : K) : K :=
  max (min (if usePoly then polyval z sinsol else vrated) c.vmax) c.vmin / c.base

/-- `set_Vdc_ref` (DER_utilities.py 525-534): `Vdcmpp/Vdcbase` with MPPT, else `Vdcnominal`. -/
def setVdcRef (c : Cfg K) (mppt : Bool) (vdcmpp vnominal : K) : K := if mppt then vdcmpp / c.base else vnominal

end VdcRef
end PvDer
