import Verif.Spec.Timed
import Mathlib.Tactic.Linarith
import Mathlib.Data.List.Basic

set_option linter.unusedSectionVars false

namespace PvDer

section
variable {K α : Type} [LinearOrder K] [DecidableEq α]

theorem StrictSorted.eq_of_T {l : List (Ev K α)} (h : StrictSorted l) {a b : Ev K α} (ha : a ∈ l) (hb : b ∈ l)
    (hT : a.T = b.T) : a = b := by
  unfold StrictSorted at h
  induction l with
  | nil => simp at ha
  | cons x xs ih =>
    rw [List.pairwise_cons] at h
    rcases List.mem_cons.1 ha with rfl | ha'
    · rcases List.mem_cons.1 hb with rfl | hb'
      · rfl
      · exact absurd hT (ne_of_lt (h.1 _ hb'))
    · rcases List.mem_cons.1 hb with rfl | hb'
      · exact absurd hT.symm (ne_of_lt (h.1 _ ha'))
      · exact ih h.2 ha' hb'

theorem removeLoop_noop (T : K) (fuel : Nat) (l : List (Ev K α)) (i : Nat) (h : ∀ e ∈ l, e.T ≠ T) :
    removeLoop T fuel l i = l := by
  induction fuel generalizing i with
  | zero => rfl
  | succ n ih =>
    unfold removeLoop
    cases hi : l[i]? with
    | none => rfl
    | some e =>
      have he : e ∈ l := List.mem_of_getElem? hi
      have : T ≠ e.T := fun hh => h e he hh.symm
      simp only [this, if_false]
      exact ih _

theorem removeLoop_sorted (T : K) (fuel : Nat) (pre suf : List (Ev K α)) (hs : StrictSorted (pre ++ suf))
    (hf : suf.length ≤ fuel) (hp : ∀ e ∈ pre, e.T ≠ T) :
    removeLoop T fuel (pre ++ suf) pre.length = (pre ++ suf).filter (fun e => e.T ≠ T) := by
  induction suf generalizing fuel pre with
  | nil =>
    rw [List.append_nil, removeLoop_noop T fuel pre _ hp, eq_comm, List.filter_eq_self]
    simpa using hp
  | cons e suf ih =>
    cases fuel with
    | zero => simp at hf
    | succ n =>
      unfold removeLoop
      have hget : (pre ++ e :: suf)[pre.length]? = some e := by simp
      rw [hget]
      by_cases hT : T = e.T
      · simp only [hT, if_true]
        have hnp : e ∉ pre := fun h => hp e h hT.symm
        have her : (pre ++ e :: suf).erase e = pre ++ suf := by
          rw [List.erase_append_right _ hnp]; simp
        rw [her]
        have hall : ∀ x ∈ pre ++ suf, x.T ≠ e.T := by
          intro x hx
          rcases List.mem_append.1 hx with h | h
          · rw [← hT]; exact hp x h
          · unfold StrictSorted at hs
            rw [List.pairwise_append] at hs
            have := (List.pairwise_cons.1 hs.2.1).1 x h
            exact ne_of_gt this
        rw [removeLoop_noop _ _ _ _ hall]
        rw [List.filter_append, List.filter_cons]
        simp only [ne_eq, not_true_eq_false, decide_false, Bool.false_eq_true, if_false]
        rw [← List.filter_append, eq_comm, List.filter_eq_self]
        simpa using hall
      · simp only [hT, if_false]
        have hs' : StrictSorted ((pre ++ [e]) ++ suf) := by simpa using hs
        have := ih n (pre ++ [e]) hs' (by simpa using hf) (by
          intro x hx
          rcases List.mem_append.1 hx with h | h
          · exact hp x h
          · simp only [List.mem_singleton] at h
            subst h; exact fun hh => hT hh.symm)
        simpa using this

theorem removeAt_eq_filter (T : K) {l : List (Ev K α)} (hs : StrictSorted l) :
    removeAt T l = l.filter (fun e => e.T ≠ T) := by
  have := removeLoop_sorted T l.length [] l (by simpa using hs) le_rfl (by simp)
  simpa [removeAt] using this

theorem mem_removeAt (T : K) {l : List (Ev K α)} (hs : StrictSorted l) (e : Ev K α) :
    e ∈ removeAt T l ↔ e ∈ l ∧ e.T ≠ T := by
  rw [removeAt_eq_filter T hs]; simp

theorem removeAt_sorted (T : K) {l : List (Ev K α)} (hs : StrictSorted l) : StrictSorted (removeAt T l) := by
  rw [removeAt_eq_filter T hs]
  exact List.Pairwise.filter _ hs

theorem sortByT_perm (l : List (Ev K α)) : (sortByT l).Perm l := List.perm_insertionSort _ _

theorem sortByT_pairwise (l : List (Ev K α)) : (sortByT l).Pairwise (fun a b => a.T ≤ b.T) := by
  have : Std.Total (fun a b : Ev K α => a.T ≤ b.T) := ⟨fun a b => le_total _ _⟩
  have : IsTrans (Ev K α) (fun a b : Ev K α => a.T ≤ b.T) := ⟨fun a b c => le_trans⟩
  exact List.pairwise_insertionSort _ _

theorem mem_addTimed (T : K) (v : α) {l : List (Ev K α)} (hs : StrictSorted l) (e : Ev K α) :
    e ∈ addTimed T v l ↔ e = ⟨T, v⟩ ∨ (e ∈ l ∧ e.T ≠ T) := by
  unfold addTimed
  rw [(sortByT_perm _).mem_iff, List.mem_append, mem_removeAt T hs, List.mem_singleton]
  tauto

theorem addTimed_sorted (T : K) (v : α) {l : List (Ev K α)} (hs : StrictSorted l) : StrictSorted (addTimed T v l) := by
  have h1 := sortByT_pairwise (removeAt T l ++ [⟨T, v⟩])
  have hne : List.Pairwise (fun a b : Ev K α => a.T ≠ b.T) (removeAt T l ++ [⟨T, v⟩]) := by
    rw [List.pairwise_append]
    refine ⟨(removeAt_sorted T hs).imp (fun h => ne_of_lt h), by simp, ?_⟩
    intro a ha b hb
    simp only [List.mem_singleton] at hb
    subst hb
    exact ((mem_removeAt T hs a).1 ha).2
  have h2 : List.Pairwise (fun a b : Ev K α => a.T ≠ b.T) (sortByT (removeAt T l ++ [⟨T, v⟩])) :=
    (List.Perm.pairwise_iff (fun h => Ne.symm h) (sortByT_perm _)).2 hne
  unfold StrictSorted addTimed
  exact (h1.and h2).imp (fun h => lt_of_le_of_ne h.1 h.2)

/-- A strictly sorted list is determined by its elements. -/
theorem StrictSorted.ext {l l' : List (Ev K α)} (h : StrictSorted l) (h' : StrictSorted l')
    (hm : ∀ e, e ∈ l ↔ e ∈ l') : l = l' := by
  have : Std.Irrefl (fun a b : Ev K α => a.T < b.T) := ⟨fun a => lt_irrefl _⟩
  exact List.Pairwise.eq_of_mem_iff (r := fun a b : Ev K α => a.T < b.T) h h' hm

theorem addTimed_ne_nil (T : K) (v : α) (l : List (Ev K α)) : addTimed T v l ≠ [] := by
  intro h
  have := (sortByT_perm (removeAt T l ++ [⟨T, v⟩])).length_eq
  unfold addTimed at h
  rw [h] at this
  simp at this

/-- Replacing the value of an entry already in the list keeps the positions of all entries. -/
theorem addTimed_existing (T : K) (v w : α) (pre suf : List (Ev K α)) (hs : StrictSorted (pre ++ ⟨T, w⟩ :: suf)) :
    addTimed T v (pre ++ ⟨T, w⟩ :: suf) = pre ++ ⟨T, v⟩ :: suf := by
  have hs' : StrictSorted (pre ++ (⟨T, v⟩ : Ev K α) :: suf) := by
    unfold StrictSorted at hs ⊢
    rw [List.pairwise_append, List.pairwise_cons] at hs ⊢
    refine ⟨hs.1, ⟨hs.2.1.1, hs.2.1.2⟩, ?_⟩
    intro a ha b hb
    rcases List.mem_cons.1 hb with rfl | hb
    · exact hs.2.2 a ha ⟨T, w⟩ (by simp)
    · exact hs.2.2 a ha b (by simp [hb])
  apply StrictSorted.ext (addTimed_sorted T v hs) hs'
  intro e
  rw [mem_addTimed T v hs]
  have hp : ∀ a ∈ pre, a.T ≠ T := by
    intro a ha
    unfold StrictSorted at hs
    rw [List.pairwise_append] at hs
    exact ne_of_lt (hs.2.2 a ha ⟨T, w⟩ (by simp))
  have hq : ∀ a ∈ suf, a.T ≠ T := by
    intro a ha
    unfold StrictSorted at hs
    rw [List.pairwise_append, List.pairwise_cons] at hs
    exact ne_of_gt (hs.2.1.1 a ha)
  simp only [List.mem_append, List.mem_cons]
  constructor
  · rintro (rfl | ⟨h1 | h1 | h1, h2⟩)
    · simp
    · exact Or.inl h1
    · subst h1; exact absurd rfl h2
    · exact Or.inr (Or.inr h1)
  · rintro (h | h | h)
    · exact Or.inr ⟨Or.inl h, hp e h⟩
    · exact Or.inl h
    · exact Or.inr ⟨Or.inr (Or.inr h), hq e h⟩

end
end PvDer
