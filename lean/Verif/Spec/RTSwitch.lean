import Verif.Model.RTSwitch
import Verif.Spec.RideThrough

/-!
# Specification vocabulary: what a switched function has seen
-/

namespace PvDer
namespace RT

variable {K : Type} [Field K] [LinearOrder K]

/-- The samples `(time, voltage)` a function sees: those that advance the time (`lock` is the latest time so far) and fall into a period in which the function is
switched on (`on`: at the start; `sel` picks its flag from an assignment). -/
def watched (sel : Bool → Bool → Bool → Bool) (lock : K) (on : Bool) : List (Op K) → List (K × K)
  | [] => []
  | .call i :: l =>
    if i.t > lock then (if on then (i.t, i.V) :: watched sel i.t on l else watched sel i.t on l) else watched sel lock on l
  | .switch a b d :: l => watched sel lock (sel a b d) l

/-- The flag of the low-voltage function in an assignment. -/
def selLv (a _ _ : Bool) : Bool := a
/-- The flag of the high-voltage function in an assignment. -/
def selHv (_ b _ : Bool) : Bool := b

/-- The frequency function is never switched on. -/
def NoLf (l : List (Op K)) : Prop := ∀ o ∈ l, match o with | .call _ => True | .switch _ _ d => d = false

/-- The low-voltage function is never switched on. -/
def NoLv (l : List (Op K)) : Prop := ∀ o ∈ l, match o with | .call _ => True | .switch a _ _ => a = false

end RT
end PvDer

namespace PvDer
namespace RT

variable {K : Type} [Field K] [LinearOrder K]

/-- Every evaluation sees a voltage that is healthy for the functions that are on at that moment (`a`: low-voltage, `b`: high-voltage), and the frequency function
is never switched on. -/
def Unharmed (lvz hvz : List (Zone K)) (Vref : K) : Bool → Bool → List (Op K) → Prop
  | _, _, [] => True
  | a, b, .call i :: l =>
    (a = true → ∀ z ∈ lvz, z.Vthr * Vref ≤ i.V) ∧ (b = true → ∀ z ∈ hvz, i.V ≤ z.Vthr * Vref) ∧ Unharmed lvz hvz Vref a b l
  | _, _, .switch a b d :: l => d = false ∧ Unharmed lvz hvz Vref a b l

/-- Two histories that differ at most in the frequencies seen. -/
inductive SameButF : List (Op K) → List (Op K) → Prop
  | nil : SameButF [] []
  | call (t V f f' : K) (r : Refs K) {l l'} : SameButF l l' → SameButF (.call ⟨t, V, f, r⟩ :: l) (.call ⟨t, V, f', r⟩ :: l')
  | switch (a b d : Bool) {l l'} : SameButF l l' → SameButF (.switch a b d :: l) (.switch a b d :: l')

end RT
end PvDer
