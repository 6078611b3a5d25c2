import Verif.Model.Basic

/-!
# Specification vocabulary for schedules (independent of how the tool implements them)
-/

namespace PvDer

variable {K α : Type}

/-- The schedule is strictly increasing in time: ordered, and at most one entry per time stamp. -/
def StrictSorted [LT K] (l : List (Ev K α)) : Prop := l.Pairwise (fun a b => a.T < b.T)

/-- The schedule read as a finite map: `Holds l T v` says "at time stamp `T` the value `v` is scheduled". -/
def Holds (l : List (Ev K α)) (T : K) (v : α) : Prop := (⟨T, v⟩ : Ev K α) ∈ l

/-- `e` is the latest entry whose time stamp is not after `t`. -/
def IsLatest [LE K] (l : List (Ev K α)) (t : K) (e : Ev K α) : Prop :=
  e ∈ l ∧ e.T ≤ t ∧ ∀ e' ∈ l, e'.T ≤ t → e'.T ≤ e.T

/-- `v` is the correct value of the schedule at time `t`: the value of the latest entry at or before `t`,
or the default if every entry is later. -/
def Correct [LE K] [LT K] (l : List (Ev K α)) (dflt : α) (t : K) (v : α) : Prop :=
  (∃ e, IsLatest l t e ∧ v = e.v) ∨ ((∀ e ∈ l, t < e.T) ∧ v = dflt)

/-- `T` lies after the previous query (`none` = there was no previous query). -/
def AfterPrev [LT K] : Option K → K → Prop
  | none, _ => True
  | some a, T => a < T

/-- A query sequence that goes forward in time and never jumps over more than one entry at once. -/
def Dense [LE K] [LT K] (l : List (Ev K α)) : Option K → List K → Prop
  | _, [] => True
  | prev, t :: ts =>
    (∀ a, prev = some a → a ≤ t) ∧
    (∀ e ∈ l, ∀ e' ∈ l, AfterPrev prev e.T → e.T ≤ t → AfterPrev prev e'.T → e'.T ≤ t → e = e') ∧
    Dense l (some t) ts

end PvDer
