import Verif.Props.VdcRef
import Verif.Props.Edits

/-!
# Property C161: DC voltage references added while a simulation is running

The vocabulary is that of C146 (Spec/Edits.lean).
-/

set_option linter.unusedSectionVars false

namespace PvDer
namespace VdcRef

variable {K : Type} [Field K] [LinearOrder K] [IsStrictOrderedRing K]

/-- What a call does to the schedule: an infeasible reference is rejected and leaves no trace. -/
def refEdit (c : Cfg K) : Op K → Option (Edit K K)
  | .add t V => if c.vmin ≤ V ∧ V ≤ c.vmax then some (.put t (V / c.base)) else none
  | .get t => some (.ask t)
  | .update t => some (.ask t)
  | _ => none

/-- Calls during a run: references are added and queried (no reset, no ramp). -/
def Op.underWay : Op K → Bool
  | .add _ _ => true
  | .get _ => true
  | .update _ => true
  | _ => false

/-- The answers of the queries among the calls. -/
def refAnswers [FloorSemiring K] (c : Cfg K) : St K → List (Op K) → List (Except Err K)
  | _, [] => []
  | s, .get t :: os => (getRef s t).2 :: refAnswers c (step c s (.get t)) os
  | s, .update t :: os => (updateRef s t).2 :: refAnswers c (step c s (.update t)) os
  | s, o :: os => refAnswers c (step c s o) os

theorem updateRef_facts (s : St K) (t : K) :
    (updateRef s t).2 = (playback s.lst s.inst.total s.inst.ctr s.inst.ref t).2 ∧
    (updateRef s t).1.lst = s.lst ∧ (updateRef s t).1.inst.total = s.inst.total ∧
    (updateRef s t).1.inst.ctr = (playback s.lst s.inst.total s.inst.ctr s.inst.ref t).1 ∧
    (∀ v, (playback s.lst s.inst.total s.inst.ctr s.inst.ref t).2 = .ok v → (updateRef s t).1.inst.ref = v) ∧
    (∀ e, (playback s.lst s.inst.total s.inst.ctr s.inst.ref t).2 = .error e → (updateRef s t).1.inst.ref = s.inst.ref) := by
  unfold updateRef getRef
  generalize playback s.lst s.inst.total s.inst.ctr s.inst.ref t = r
  obtain ⟨c, r⟩ := r
  cases r <;> simp

/-- Before the first reference in force the stored reference is the one at the start. -/
def Fit (r0 : K) (prev : Option K) (s : St K) : Prop :=
  StrictSorted s.lst ∧ (s.lst ≠ [] → s.inst.total = s.lst.length) ∧ (s.inst.ref = r0 ∨ ∃ a, prev = some a ∧ ∃ e ∈ s.lst, e.T ≤ a)

theorem fit_playback {r0 : K} {prev : Option K} {s : St K} (h : Fit r0 prev s) (t : K) (ht : ∀ a, prev = some a → a ≤ t) :
    playback s.lst s.inst.total s.inst.ctr s.inst.ref t = playback s.lst s.lst.length s.inst.ctr r0 t := by
  rw [Events.playback_total h.2.1]
  rcases h.2.2 with h1 | ⟨a, ha, e, he, hea⟩
  · rw [h1]
  · cases hl : s.lst with
    | nil => rw [hl] at he; simp at he
    | cons e0 l =>
      have hs := h.1
      rw [hl] at hs he
      refine playback_dflt rfl _ _ _ _ t ?_
      have h0 : e0.T ≤ e.T := by
        rcases List.mem_cons.1 he with rfl | he
        · exact le_rfl
        · exact le_of_lt ((List.pairwise_cons.1 hs).1 e he)
      exact (h0.trans hea).trans (ht a ha)

theorem refAnswers_eq [FloorSemiring K] (c : Cfg K) (r0 : K) (ops : List (Op K)) : ∀ (prev : Option K) (s : St K), Fit r0 prev s →
    (∀ o ∈ ops, o.underWay = true) → Forward prev (ops.filterMap (refEdit c)) →
    refAnswers c s ops = playEdits r0 s.lst s.inst.ctr (ops.filterMap (refEdit c)) := by
  induction ops with
  | nil => intro prev s _ _ _; rfl
  | cons o os ih =>
    intro prev s hfit ho hf
    have ho' : ∀ o ∈ os, o.underWay = true := fun x hx => ho x (by simp [hx])
    cases o with
    | ramp t V => exact absurd (ho (.ramp t V) (by simp)) (by simp [Op.underWay])
    | reset => exact absurd (ho .reset (by simp)) (by simp [Op.underWay])
    | add t V =>
      show refAnswers c (addRef c s t V).1 os = _
      by_cases hV : c.vmin ≤ V ∧ V ≤ c.vmax
      · have hr : refEdit c (.add t V) = some (.put t (V / c.base)) := by simp only [refEdit]; rw [if_pos hV]
        rw [List.filterMap_cons_some hr] at hf ⊢
        have ha : (addRef c s t V).1 = ⟨addTimed t (V / c.base) s.lst, { s.inst with total := (addTimed t (V / c.base) s.lst).length }⟩ := by
          unfold addRef
          rw [if_neg (by rintro (h | h); exact absurd hV.1 (not_le.2 h); exact absurd hV.2 (not_le.2 h))]
        rw [ha, ih prev _ ⟨addTimed_sorted _ _ hfit.1, fun _ => rfl, ?_⟩ ho' hf]
        · rfl
        · rcases hfit.2.2 with h1 | ⟨a, h1, e, he, hea⟩
          · exact Or.inl h1
          · refine Or.inr ⟨a, h1, ?_⟩
            by_cases h : e.T = t
            · exact ⟨⟨t, V / c.base⟩, (mem_addTimed _ _ hfit.1 _).2 (Or.inl rfl), by rw [← h]; exact hea⟩
            · exact ⟨e, (mem_addTimed _ _ hfit.1 _).2 (Or.inr ⟨he, h⟩), hea⟩
      · have hr : refEdit c (.add t V) = none := by simp only [refEdit]; rw [if_neg hV]
        rw [List.filterMap_cons_none hr] at hf ⊢
        have ha : (addRef c s t V).1 = s := by
          unfold addRef
          rw [if_pos (by by_contra hc; push Not at hc; exact hV hc)]
        rw [ha]
        exact ih prev s hfit ho' hf
    | get t =>
      rw [List.filterMap_cons_some (show refEdit c (.get t) = some (.ask t) from rfl)] at hf ⊢
      have hp := fit_playback hfit t hf.1
      show (getRef s t).2 :: refAnswers c (getRef s t).1 os = _
      rw [playEdits, ← hp, ih (some t) (getRef s t).1 ⟨hfit.1, hfit.2.1, ?_⟩ ho' hf.2]
      · rfl
      · rcases hfit.2.2 with h1 | ⟨a, h1, e, he, hea⟩
        · exact Or.inl h1
        · exact Or.inr ⟨t, rfl, e, he, hea.trans (hf.1 a h1)⟩
    | update t =>
      rw [List.filterMap_cons_some (show refEdit c (.update t) = some (.ask t) from rfl)] at hf ⊢
      have hp := fit_playback hfit t hf.1
      obtain ⟨u1, u2, u3, u4, u5, u6⟩ := updateRef_facts s t
      show (updateRef s t).2 :: refAnswers c (updateRef s t).1 os = _
      rw [playEdits, ← hp, u1, ih (some t) (updateRef s t).1 ⟨by rw [u2]; exact hfit.1, by rw [u2, u3]; exact hfit.2.1, ?_⟩ ho' hf.2, u2, u4]
      rw [u2]
      rcases hfit.2.2 with h1 | ⟨a, h1, e, he, hea⟩
      · cases hl : s.lst with
        | nil =>
          have hb : playback s.lst s.inst.total s.inst.ctr s.inst.ref t = (s.inst.ctr, .ok s.inst.ref) := by rw [hl]; rfl
          exact Or.inl ((u5 s.inst.ref (by rw [hb])).trans h1)
        | cons e0 l =>
          by_cases h0 : t < e0.T
          · have hb : playback s.lst s.inst.total s.inst.ctr s.inst.ref t = (s.inst.ctr, .ok s.inst.ref) := by rw [hl]; simp only [playback, if_pos h0]
            exact Or.inl ((u5 s.inst.ref (by rw [hb])).trans h1)
          · exact Or.inr ⟨t, rfl, e0, by simp, not_lt.1 h0⟩
      · exact Or.inr ⟨t, rfl, e, he, hea.trans (hf.1 a h1)⟩

/-- C161: a DER used alone in its process, its schedule filled by any history.  When references are added between evaluations that go forward in time (from
a reset counter), no evaluation fails and each takes the reference that was due exactly `k` references ago, `k` as in C146 (`lagPut`/`lagAsk`); infeasible
references leave no trace.  Before the first reference in force it keeps the one it had at the start. -/
theorem C161_answers [FloorSemiring K] (c : Cfg K) (ref del : K) (hist ops : List (Op K)) (ho : ∀ o ∈ ops, o.underWay = true)
    (hf : Forward none (ops.filterMap (refEdit c))) :
    let s := hist.foldl (step c) ⟨[], ⟨0, 0, ref, del⟩⟩
    Answers s.inst.ref s.lst none 0 (ops.filterMap (refEdit c)) (refAnswers c (reset s) ops) := by
  intro s
  obtain ⟨h1, h2⟩ := C44_total_matches c ref del hist
  rw [refAnswers_eq c s.inst.ref ops none (reset s) ⟨h1, fun _ => h2, Or.inl rfl⟩ ho hf]
  exact answers_of_at _ _ (Events.posAt_start h1) hf

/-- C161, tidy use: references added only after the latest evaluation, no evaluation passing two references at once, and an evaluation between an addition and the next
reference: then every evaluation takes the latest reference at or before its time, as the schedule is at that moment. -/
theorem C161_tidy [FloorSemiring K] (c : Cfg K) (ref del : K) (hist ops : List (Op K)) (ho : ∀ o ∈ ops, o.underWay = true) :
    let s := hist.foldl (step c) ⟨[], ⟨0, 0, ref, del⟩⟩
    Tidy s.lst none false (ops.filterMap (refEdit c)) → AllCorrect s.inst.ref s.lst (ops.filterMap (refEdit c)) (refAnswers c (reset s) ops) := by
  intro s ht
  have h1 : StrictSorted s.lst := (C44_total_matches c ref del hist).1
  exact tidy_correct _ _ h1 (by simp) ht _ (C161_answers c ref del hist ops ho (Events.forward_of_tidy _ h1 ht))

/-- 650 … 800 V, base 500 V; references 700 V at 2 s and 750 V at 5 s; asked at 3 s and 6 s; 660 V at 8 s and (infeasible) 900 V at 9 s are added; asked at 7 s and 9 s. -/
def tidyRefs : List (Op ℚ) := [.update 3, .update 6, .add 8 660, .add 9 900, .update 7, .update 9]

/-- The same with the next evaluation after the addition already after the added reference. -/
def hastyRefs : List (Op ℚ) := [.update 3, .update 6, .add 8 660, .update 9, .update 9]

theorem C161_example :
    let c := exC 0
    let s := [Op.add 2 700, .add 5 750].foldl (step c) ⟨[], ⟨0, 0, 11/10, 2⟩⟩
    Tidy s.lst none false (tidyRefs.filterMap (refEdit c)) ∧
    refAnswers c (reset s) tidyRefs = [.ok (7/5), .ok (3/2), .ok (3/2), .ok (33/25)] ∧
    refAnswers c (reset s) hastyRefs = [.ok (7/5), .ok (3/2), .ok (3/2), .ok (33/25)] := by
  intro c s
  refine ⟨?_, by decide +kernel, by decide +kernel⟩
  have h : tidyRefs.filterMap (refEdit c) = [.ask 3, .ask 6, .put 8 (33/25), .ask 7, .ask 9] := by decide +kernel
  have hl : s.lst = [⟨2, 7/5⟩, ⟨5, 3/2⟩] := by decide +kernel
  have hs : StrictSorted s.lst := (C44_total_matches c (11/10) 2 [Op.add 2 700, .add 5 750]).1
  rw [h]
  refine ⟨by simp, by rw [hl]; decide, by rintro a ⟨⟩; norm_num, by rw [hl]; decide, ?_, ?_⟩
  · show (6 : ℚ) < 8; norm_num
  · intro l' hl'
    have : l' = [⟨2, 7/5⟩, ⟨5, 3/2⟩, ⟨8, 33/25⟩] := by
      rw [isPut_unique hl' (isPut_addTimed hs _ _), hl]; decide +kernel
    subst this
    refine ⟨by simp; norm_num, by decide, by simp; norm_num, by decide, trivial⟩

end VdcRef
end PvDer
