import Verif.Model.RideThrough
/-!
Several DER instances in one Python process, with the object sharing of their ride-through tables.
-/
namespace PvDer
namespace RT
variable {K W : Type} [Field K] [LinearOrder K]

/-- Instances and the dictionaries behind their `LFRT_dict` attributes. `VRT_initialize` deep-copies the voltage tables (DER_features.py 315-316), so they are part of the instance state; `FRT_initialize` keeps a
reference (DER_features.py 672) to the object chosen by `update_DER_config`/`update_RT_config`, so `LFRT_dict` is a heap object: `ref i` is the object of instance `i`, `heap` its contents. The field `lf` of the stored
instance state is unused; `view` fills it from the heap. -/
structure World (K W : Type) where
  cfg : Nat → Cfg K W
  inst : Nat → St K W
  ref : Nat → Nat
  heap : Nat → List (LfZone K)

/-- The object of `templates.FRT_config_template['LFRT']['config']` (templates.py 169-176). -/
def moduleObject : Nat := 0

/-- Which object an instance gets (DER_check_and_initialize.py 65-71, DER_features.py 570): the module-level template if its configuration says nothing about `LFRT`, else an object of its own, since the JSON file is
read again for every instance (DER_components.py 112); `fresh` is that object. -/
def frtRef (configured : Bool) (fresh : Nat) : Nat := if configured then fresh else moduleObject

/-- The state of an instance as its methods see it. -/
def World.view (w : World K W) (i : Nat) : St K W := { w.inst i with lf := w.heap (w.ref i) }

/-- One evaluation of instance `i`. -/
def World.step (w : World K W) (e : Nat × Inp K) : World K W :=
  let s := (eval (w.cfg e.1) (w.view e.1) e.2).1
  { w with inst := fun j => if j = e.1 then s else w.inst j
           heap := fun r => if r = w.ref e.1 then s.lf else w.heap r }

/-- Any interleaving of evaluations. -/
def World.run (w : World K W) (h : List (Nat × Inp K)) : World K W := h.foldl World.step w

/-- `FRT_INSTANTANEOUS_TRIP` (getter DER_features.py 745-749: the value last set) setter (DER_features.py 752-768), low-frequency part; `dict` is `LFRT_dict`, `conf` is `RT_config['LFRT']`. Simplification: `dict['1']` and `dict['2']` are the first two entries. -/
def setInstTrip (on : Bool) (dict conf : List (LfZone K)) : List (LfZone K) :=
  match dict with
  | [] => []
  | [a] => [a]
  | a :: b :: l =>
    if on then { a with tLimit := 30 * (1/60) } :: { b with tLimit := 30 * (1/60) } :: l
    else match conf with
      | [] => a :: b :: l
      | [_] => a :: b :: l
      | c :: d :: _ => { a with tLimit := c.tLimit } :: { b with tLimit := d.tLimit } :: l

/-- The setter on an instance: `LFRT_dict` and `RT_config['LFRT']` are the same object (DER_features.py 672). -/
def World.setInstTrip (w : World K W) (i : Nat) (on : Bool) : World K W :=
  { w with heap := fun r => if r = w.ref i then RT.setInstTrip on (w.heap r) (w.heap r) else w.heap r }

end RT
end PvDer
