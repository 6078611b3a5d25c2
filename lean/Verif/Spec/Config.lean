import Verif.Model.Config
/-!
Vocabulary for the configuration properties, independent of the code's control flow.
-/
namespace PvDer
namespace Config

/-- What the user wrote for parameter `p` of component `comp` in a configuration, if anything. -/
def entry (c : Cfg) (comp p : String) : Option PVal :=
  match c.entries comp with
  | some (.comp d) => d p
  | _ => none

/-- A Python dictionary literal has no duplicate keys: components and parameters of a template are distinct. -/
def WF (T : Template) : Prop := (T.map Prod.fst).Nodup ∧ ∀ cp ∈ T, (cp.2.map Prod.fst).Nodup

instance (T : Template) : Decidable (WF T) := inferInstanceAs (Decidable (_ ∧ _))

/-- `p` is a parameter of component `comp` with default `d` in the template. -/
def HasParam (T : Template) (comp p : String) (d : PVal) : Prop := ∃ ps, (comp, ps) ∈ T ∧ (p, d) ∈ ps

/-- The configuration names no parent. -/
def NoParent (c : Cfg) : Prop := c.entries "parent_config" = none ∨ c.entries "parent_config" = some (.leaf (.str ""))

/-- The setting `k` of level `lvl` in a ride-through body. -/
def setting (b : Body) (lvl k : String) : Option PVal :=
  match b.lookup lvl with
  | some (.level d) => d k
  | _ => none

end Config
end PvDer
