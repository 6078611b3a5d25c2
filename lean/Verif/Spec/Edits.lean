import Verif.Spec.Timed

/-!
# Specification vocabulary for C146: a schedule that is edited while it is being played back

Independent of the counters the tool uses.
-/

namespace PvDer

variable {K α : Type}

/-- What happens to one schedule: it is asked for the value at a time, or an (accepted) event is added. -/
inductive Edit (K α : Type)
  | ask (t : K)
  | put (T : K) (v : α)
  deriving DecidableEq

variable [LinearOrder K]

/-- Entries that became due after the previous query (`none`: there was none) and up to `t`. -/
def fresh (l : List (Ev K α)) (prev : Option K) (t : K) : Nat :=
  (l.filter fun e => decide (e.T ≤ t) && (match prev with | none => true | some a => decide (a < e.T))).length

/-- The whole schedule is in the past. -/
def Exhausted (l : List (Ev K α)) (prev : Option K) : Prop := ∃ a, prev = some a ∧ l ≠ [] ∧ ∀ e ∈ l, e.T ≤ a

/-- `v` is the value that was due `k` events ago: exactly `k` events lie between the event shown and `t`. -/
def Behind (l : List (Ev K α)) (dflt : α) (t : K) (k : Nat) (v : α) : Prop :=
  (∃ e ∈ l, e.T ≤ t ∧ v = e.v ∧ (l.filter fun e' => decide (e.T < e'.T ∧ e'.T ≤ t)).length = k) ∨
  (v = dflt ∧ (l.filter fun e' => decide (e'.T ≤ t)).length = k)

open Classical in
/-- How far the playback is behind after an event was added at `T` (`k`: how far it was behind before).
Replacing the value of an existing event changes nothing.  A new event in the past leaves the playback one further behind; adding to an exhausted schedule
makes it forget that the last event had been passed. -/
noncomputable def lagPut (l : List (Ev K α)) (prev : Option K) (T : K) (k : Nat) : Nat :=
  if ∃ e ∈ l, e.T = T then k
  else (if Exhausted l prev then max k 1 else k) + (if ∃ a, prev = some a ∧ T ≤ a then 1 else 0)

/-- How far the playback is behind after a query: one query moves it on by at most one event. -/
def lagAsk (l : List (Ev K α)) (prev : Option K) (t : K) (k : Nat) : Nat := k + fresh l prev t - 1

/-- `l'` is the schedule `l` with the event `⟨T, v⟩` added (replacing the event at the same time, if any). -/
def IsPut (l : List (Ev K α)) (T : K) (v : α) (l' : List (Ev K α)) : Prop :=
  StrictSorted l' ∧ ∀ e, e ∈ l' ↔ e = ⟨T, v⟩ ∨ (e ∈ l ∧ e.T ≠ T)

/-- The answers `rs` to the queries of an interleaving `es` of queries and additions: no query fails, and each answer is the value that was due `k` events ago,
where `k` evolves by `lagPut` and `lagAsk`. -/
def Answers (dflt : α) : List (Ev K α) → Option K → Nat → List (Edit K α) → List (Except Err α) → Prop
  | _, _, _, [], rs => rs = []
  | l, prev, k, .put T v :: es, rs => ∃ l', IsPut l T v l' ∧ Answers dflt l' prev (lagPut l prev T k) es rs
  | l, prev, k, .ask t :: es, rs => ∃ v rs', rs = .ok v :: rs' ∧ Behind l dflt t (lagAsk l prev t k) v ∧
      Answers dflt l (some t) (lagAsk l prev t k) es rs'

/-- Every answer is the value of the schedule as it is at the moment of the query. -/
def AllCorrect (dflt : α) : List (Ev K α) → List (Edit K α) → List (Except Err α) → Prop
  | _, [], rs => rs = []
  | l, .put T v :: es, rs => ∃ l', IsPut l T v l' ∧ AllCorrect dflt l' es rs
  | l, .ask t :: es, rs => ∃ v rs', rs = .ok v :: rs' ∧ Correct l dflt t v ∧ AllCorrect dflt l es rs'

/-- Queries go forward in time. -/
def Forward : Option K → List (Edit K α) → Prop
  | _, [] => True
  | prev, .put _ _ :: es => Forward prev es
  | prev, .ask t :: es => (∀ a, prev = some a → a ≤ t) ∧ Forward (some t) es

/-- A tidy use: events are only added after the latest time asked, no query jumps over more than one event, and between an addition and the next event
there is a query (`w`: no query yet since the last addition). -/
def Tidy : List (Ev K α) → Option K → Bool → List (Edit K α) → Prop
  | _, _, _, [] => True
  | l, prev, _, .put T v :: es => AfterPrev prev T ∧ ∀ l', IsPut l T v l' → Tidy l' prev true es
  | l, prev, w, .ask t :: es => (∀ a, prev = some a → a ≤ t) ∧ fresh l prev t ≤ (if w then 0 else 1) ∧ Tidy l (some t) false es

/-- A schedule, the latest time asked, and whether an event was added since the last query. -/
structure Played (K α : Type) where
  l : List (Ev K α)
  prev : Option K
  w : Bool

/-- `σ'` is the situation after `e`. -/
def Played.Next (σ : Played K α) (e : Edit K α) (σ' : Played K α) : Prop :=
  match e with
  | .put T v => IsPut σ.l T v σ'.l ∧ σ'.prev = σ.prev ∧ σ'.w = true
  | .ask t => σ'.l = σ.l ∧ σ'.prev = some (match σ.prev with | none => t | some a => max a t) ∧ σ'.w = false

/-- Tidy use with queries in any order (a solver may step back): events are only added after the latest time asked; no query passes more than one event; and the first
query after an addition is not before the latest time asked, and passes none. -/
def TidyAny : Played K α → List (Edit K α) → Prop
  | _, [] => True
  | σ, e :: es => (match e with
      | .put T _ => AfterPrev σ.prev T
      | .ask t => (∀ e ∈ σ.l, ∀ e' ∈ σ.l, AfterPrev σ.prev e.T → e.T ≤ t → AfterPrev σ.prev e'.T → e'.T ≤ t → e = e') ∧
          (σ.w = true → (∀ a, σ.prev = some a → a ≤ t) ∧ ∀ e ∈ σ.l, AfterPrev σ.prev e.T → t < e.T)) ∧
      ∀ σ', σ.Next e σ' → TidyAny σ' es

end PvDer
