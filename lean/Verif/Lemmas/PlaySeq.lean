import Verif.Lemmas.Playback

set_option linter.unusedSectionVars false

namespace PvDer

section
variable {K α : Type} [LinearOrder K]

/-- Effective position of the counter before the first query (`none`) or after a query at time `a`. -/
def posOf (l : List (Ev K α)) : Option K → Nat
  | none => 0
  | some a => cnt l a

theorem cnt_le_succ_of_dense {l : List (Ev K α)} (hs : StrictSorted l) (prev : Option K) (t : K)
    (hp : ∀ a, prev = some a → a ≤ t)
    (hd : ∀ e ∈ l, ∀ e' ∈ l, AfterPrev prev e.T → e.T ≤ t → AfterPrev prev e'.T → e'.T ≤ t → e = e') :
    posOf l prev ≤ cnt l t ∧ cnt l t ≤ posOf l prev + 1 := by
  refine ⟨?_, ?_⟩
  · cases prev with
    | none => exact Nat.zero_le _
    | some a => exact cnt_mono l (hp a rfl)
  · by_contra hc
    push Not at hc
    have hle := cnt_le l t
    have h1 : posOf l prev < l.length := by omega
    have h2 : posOf l prev + 1 < l.length := by omega
    have haft : ∀ i (hi : i < l.length), posOf l prev ≤ i → AfterPrev prev l[i].T := by
      intro i hi hpi
      cases prev with
      | none => trivial
      | some a =>
        show a < l[i].T
        rw [← not_le, getElem_le_iff hs a i hi]
        simp only [posOf] at hpi
        omega
    have := hd _ (List.getElem_mem h1) _ (List.getElem_mem h2) (haft _ h1 le_rfl)
      ((getElem_le_iff hs t _ h1).2 (by omega)) (haft _ h2 (by omega)) ((getElem_le_iff hs t _ h2).2 (by omega))
    have hlt : l[posOf l prev].T < l[posOf l prev + 1].T :=
      (List.pairwise_iff_getElem.1 hs) _ _ h1 h2 (by omega)
    rw [this] at hlt
    exact lt_irrefl _ hlt

theorem playSeq_dense {l : List (Ev K α)} (hs : StrictSorted l) (hne : l ≠ []) (dflt : α) (prev : Option K) (ts : List K)
    (hd : Dense l prev ts) :
    List.Forall₂ (fun t r => ∃ v, r = Except.ok v ∧ Correct l dflt t v) ts
      (playSeq l (l.length : Int) (min ((l.length : Int) - 1) (posOf l prev : Int)) dflt ts) := by
  induction ts generalizing prev with
  | nil => exact List.Forall₂.nil
  | cons t ts ih =>
    obtain ⟨h1, h2, h3⟩ := hd
    have hb := cnt_le_succ_of_dense hs prev t h1 h2
    have hstep := playback_step hs hne dflt t (posOf l prev) hb.1
    have hm : min (cnt l t) (posOf l prev + 1) = cnt l t := by omega
    rw [hm] at hstep
    unfold playSeq
    rw [hstep]
    refine List.Forall₂.cons ⟨_, rfl, correct_valAt hs dflt t⟩ ?_
    exact ih (some t) h3

/-- Effective position after a list of forward queries. -/
def posAfter (l : List (Ev K α)) (j : Nat) : List K → Nat
  | [] => j
  | t :: ts => posAfter l (min (cnt l t) (j + 1)) ts

theorem playSeq_forward {l : List (Ev K α)} (hs : StrictSorted l) (hne : l ≠ []) (dflt : α) (j : Nat) (ts : List K)
    (hsort : ts.Pairwise (· ≤ ·)) (hj : ∀ t ∈ ts, j ≤ cnt l t) :
    List.Forall₂ (fun t r => ∃ j', j' ≤ cnt l t ∧ r = Except.ok (valAt l dflt j')) ts
      (playSeq l (l.length : Int) (min ((l.length : Int) - 1) (j : Int)) dflt ts) := by
  induction ts generalizing j with
  | nil => exact List.Forall₂.nil
  | cons t ts ih =>
    have h0 := hj t (by simp)
    have hstep := playback_step hs hne dflt t j h0
    unfold playSeq
    rw [hstep]
    refine List.Forall₂.cons ⟨_, by omega, rfl⟩ ?_
    rw [List.pairwise_cons] at hsort
    apply ih _ hsort.2
    intro u hu
    have := cnt_mono l (hsort.1 u hu)
    omega

/-- `valAt` at a smaller position is the correct value at some earlier time. -/
theorem valAt_correct_past {l : List (Ev K α)} (hs : StrictSorted l) (dflt : α) (t : K) (j : Nat) (hj : j ≤ cnt l t) (h0 : 0 < j) :
    ∃ u ≤ t, Correct l dflt u (valAt l dflt j) := by
  obtain ⟨i, rfl⟩ : ∃ i, j = i + 1 := ⟨j - 1, by omega⟩
  have hil : i < l.length := by have := cnt_le l t; omega
  refine ⟨l[i].T, (getElem_le_iff hs t i hil).2 (by omega), ?_⟩
  have hc : cnt l l[i].T = i + 1 := by
    have h1 : i < cnt l l[i].T := (getElem_le_iff hs _ i hil).1 le_rfl
    have h2 : ¬ (i + 1 < cnt l l[i].T) := by
      intro h
      have hl : i + 1 < l.length := by have := cnt_le l l[i].T; omega
      have h3 := (getElem_le_iff hs l[i].T (i+1) hl).2 h
      have h4 : l[i].T < l[i+1].T := (List.pairwise_iff_getElem.1 hs) _ _ hil hl (by omega)
      exact absurd h3 (not_le.2 h4)
    omega
  have := correct_valAt hs dflt l[i].T
  rw [hc] at this
  exact this

/-- Repeating the query at one time `t` catches up: the `m`-th repetition shows the correct value as soon as
`m` is at least the number of pending entries. -/
theorem playSeq_repeat {l : List (Ev K α)} (hs : StrictSorted l) (hne : l ≠ []) (dflt : α) (j : Nat) (t : K) (hj : j ≤ cnt l t)
    (m : Nat) (i : Nat) (hi : i < m) :
    (playSeq l (l.length : Int) (min ((l.length : Int) - 1) (j : Int)) dflt (List.replicate m t))[i]? =
      some (.ok (valAt l dflt (min (cnt l t) (j + 1 + i)))) := by
  induction m generalizing j i with
  | zero => omega
  | succ m ih =>
    have hstep := playback_step hs hne dflt t j hj
    rw [List.replicate_succ]
    unfold playSeq
    rw [hstep]
    cases i with
    | zero => simp
    | succ i =>
      simp only [List.getElem?_cons_succ]
      rw [ih (min (cnt l t) (j + 1)) (by omega) i (by omega)]
      congr 3
      omega

theorem playSeq_nil_list (total ctr : Int) (dflt : α) (ts : List K) :
    List.Forall₂ (fun _ r => r = Except.ok dflt) ts (playSeq ([] : List (Ev K α)) total ctr dflt ts) := by
  induction ts with
  | nil => exact List.Forall₂.nil
  | cons t ts ih => exact List.Forall₂.cons rfl ih

end
end PvDer
