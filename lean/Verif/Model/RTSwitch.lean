import Verif.Model.RideThrough

/-!
# Switching ride-through functions on and off during operation

`LVRT_ENABLE`, `HVRT_ENABLE` and `LFRT_ENABLE` are plain attributes (set to their defaults at DER_features.py 306, 311 and 663, read at 173, 177 and 181); a user
may assign them at any time between two evaluations of the model (docs/PVDER_flags_variables_methods.md, "Voltage ride through variables and flags").
-/

namespace PvDer
namespace RT

variable {K W : Type} [Field K] [LinearOrder K]

/-- What happens to a DER: an evaluation, or a user assigning the three enable flags (DER_features.py 306, 311, 663). -/
inductive Op (K : Type)
  | call (i : Inp K)
  | switch (lv hv lf : Bool)

/-- Effect of one of them (DER_features.py 164-208 through `eval`; attribute assignment). -/
def opStep (c : Cfg K W) (s : St K W) : Op K → St K W
  | .call i => (eval c s i).1
  | .switch a b d => { s with lvEnable := a, hvEnable := b, lfEnable := d }

/-- State after a sequence of them. -/
def opRun (c : Cfg K W) (s : St K W) (l : List (Op K)) : St K W := l.foldl (opStep c) s

/-- An evaluation raised nothing. -/
def opOk (c : Cfg K W) (s : St K W) : Op K → Prop
  | .call i => (eval c s i).2 = .ok ()
  | .switch _ _ _ => True

end RT
end PvDer
