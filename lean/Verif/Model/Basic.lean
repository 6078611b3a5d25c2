import Mathlib.Data.List.Sort
import Mathlib.Algebra.Order.Field.Basic

/-!
# Common ingredients of the model

Python exceptions, Python list indexing, and the time-stamped schedule (list of dictionaries with a time key)
that the tool uses for solar, grid and load events and for DC voltage references.
-/

namespace PvDer

/-- Exceptions that reach the caller.  Every function in the tool wraps its body in
`try … except: LogUtil.exception_handler()`; that handler logs and re-raises (pvder/exceptionutil.py 95-105),
so an exception raised inside is an exception seen outside. -/
inductive Err
  | valueError | indexError | nameError | attributeError | typeError | keyError | assertionError
  | unboundLocal | zeroDivision | osError
  deriving DecidableEq, Repr

/-- One entry of a schedule: the time stamp (`'T'`, or `'t'` for DC references) and the other fields. -/
structure Ev (K α : Type) where
  T : K
  v : α
  deriving DecidableEq, Repr

/-- Python `l[i]` for an integer index: negative indices count from the end; `none` is `IndexError`. -/
def pyGet {β : Type} (l : List β) (i : Int) : Option β :=
  if 0 ≤ i then l[i.toNat]?
  else if 0 ≤ (l.length : Int) + i then l[((l.length : Int) + i).toNat]? else none

section
variable {K α : Type} [LinearOrder K] [DecidableEq α]

/-- `for event in lst: if T == event['T']: lst.remove(event)` — the removal loop of
pvder/simulation_events.py 201-204 (solar), 235-238 (grid), 261-264 (load), 302-306 (remove grid), 320-324 (remove load)
and pvder/DER_utilities.py 560-563 (DC references).
The Python iterator advances an index over the list *while it is being mutated*, so after a removal the
following element is skipped; this is modelled literally.  `lst.remove(event)` deletes the first equal entry
(`List.erase`).  `fuel` bounds the number of iterations (the list never grows, so `fuel = length` suffices). -/
def removeLoop (T : K) : Nat → List (Ev K α) → Nat → List (Ev K α)
  | 0, l, _ => l
  | fuel + 1, l, i =>
    match l[i]? with
    | none => l
    | some e => if T = e.T then removeLoop T fuel (l.erase e) (i + 1) else removeLoop T fuel l (i + 1)

/-- The loop with enough fuel to run to its end. -/
def removeAt (T : K) (l : List (Ev K α)) : List (Ev K α) := removeLoop T l.length l 0

/-- `lst.sort(key=operator.itemgetter('T'))` — Python's sort is stable; insertion sort with `≤` on the key is the
same function (simulation_events.py 208, 242, 267; DER_utilities.py 567). -/
def sortByT (l : List (Ev K α)) : List (Ev K α) := l.insertionSort (fun a b => a.T ≤ b.T)

/-- Removal of an entry at the same time stamp, append, sort: the common tail of
`add_solar_event` (simulation_events.py 201-208), `add_grid_event` (235-242), `add_load_event` (261-267) and
`add_Vdc_ref` (DER_utilities.py 560-567). -/
def addTimed (T : K) (v : α) (l : List (Ev K α)) : List (Ev K α) := sortByT (removeAt T l ++ [⟨T, v⟩])

end

section
variable {K α : Type} [LinearOrder K]

/-- The schedule query shared (textually) by `solar_events` (simulation_events.py 87-98), `load_events` (168-175) and
`get_Vdc_ref` (DER_utilities.py 576-588) for a given list, stored total and counter.
Returns the new counter and the value; an `IndexError` or the `UnboundLocalError` of an exhausted `if/elif` chain
are explicit.  The counter is only changed on the last branch. -/
def playback (l : List (Ev K α)) (total ctr : Int) (dflt : α) (t : K) : Int × Except Err α :=
  match l with
  | [] => (ctr, .ok dflt)
  | e0 :: _ =>
    if t < e0.T then (ctr, .ok dflt)
    else match pyGet l ctr with
      | none => (ctr, .error .indexError)
      | some ec =>
        if t < ec.T ∧ ctr ≥ 1 then
          match pyGet l (ctr - 1) with
          | none => (ctr, .error .indexError)
          | some ep => (ctr, .ok ep.v)
        else if t ≥ ec.T then (min (total - 1) (ctr + 1), .ok ec.v)
        else (ctr, .error .unboundLocal)

/-- Results of a sequence of queries of one schedule (nothing else happens in between). -/
def playSeq (l : List (Ev K α)) (total ctr : Int) (dflt : α) : List K → List (Except Err α)
  | [] => []
  | t :: ts => (playback l total ctr dflt t).2 :: playSeq l total (playback l total ctr dflt t).1 dflt ts

end

end PvDer
