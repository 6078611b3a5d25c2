import Verif.Props.Edits

/-!
# Property C148: a load event removed while the schedule is being played back

`remove_load_event` (simulation_events.py 314-333) shortens the list but leaves the playback counter where it is.
-/

set_option linter.unusedSectionVars false

namespace PvDer

section
variable {K α : Type} [LinearOrder K] [DecidableEq α]

/-- Schedule and counter after an interleaving of additions and queries. -/
def stateEdits (dflt : α) : List (Ev K α) → Int → List (Edit K α) → List (Ev K α) × Int
  | l, c, [] => (l, c)
  | l, c, .put T v :: es => stateEdits dflt (addTimed T v l) c es
  | l, c, .ask t :: es => stateEdits dflt l (playback l l.length c dflt t).1 es

theorem playEdits_asks (dflt : α) (l : List (Ev K α)) (c : Int) (ts : List K) :
    playEdits dflt l c (ts.map Edit.ask) = playSeq l l.length c dflt ts := by
  induction ts generalizing c with
  | nil => rfl
  | cons t ts ih => simp only [List.map_cons, playEdits, playSeq, ih]

/-- A tidy history that ends with a query leaves the playback exactly in step. -/
theorem tidy_state (dflt : α) (es : List (Edit K α)) (a : K) {l : List (Ev K α)} {c : Int} {prev : Option K} {k j : Nat} {w : Bool} (h : PosAt l c prev k j)
    (hk : k ≤ if w then 1 else 0) (ht : Tidy l prev w (es ++ [.ask a])) :
    ∃ j', PosAt (stateEdits dflt l c (es ++ [.ask a])).1 (stateEdits dflt l c (es ++ [.ask a])).2 (some a) 0 j' := by
  induction es generalizing l c prev k j w with
  | nil =>
    obtain ⟨h1, h2, _⟩ := ht
    obtain ⟨j', hj, _⟩ := at_ask h dflt a h1
    have hz : lagAsk l prev a k = 0 := by
      unfold lagAsk
      cases w <;> simp at hk h2 <;> omega
    rw [hz] at hj
    exact ⟨j', hj⟩
  | cons e es ih =>
    cases e with
    | put T v =>
      obtain ⟨j', hj⟩ := at_put h T v
      refine ih hj (w := true) ?_ (ht.2 _ (isPut_addTimed h.sorted T v))
      have h3 : ¬ ∃ b, prev = some b ∧ T ≤ b := by
        rintro ⟨b, rfl, h4⟩
        exact absurd ht.1 (not_lt.2 h4)
      unfold lagPut
      rw [if_neg h3]
      have : k ≤ 1 := by split at hk <;> omega
      simp only [if_true]
      split
      · exact this
      · split <;> omega
    | ask t =>
      obtain ⟨j', hj, _⟩ := at_ask h dflt t ht.1
      have hz : lagAsk l prev t k = 0 := by
        have := ht.2.1
        unfold lagAsk
        cases w <;> simp at hk this <;> omega
      rw [hz] at hj
      exact ih hj (w := false) (by simp) ht.2.2

/-- Counting after a removal. -/
theorem cnt_removeAt {l : List (Ev K α)} (hs : StrictSorted l) {T : K} (h : ∃ e ∈ l, e.T = T) :
    l.length = (removeAt T l).length + 1 ∧ ∀ t, cnt l t = cnt (removeAt T l) t + (if T ≤ t then 1 else 0) := by
  obtain ⟨⟨T', v⟩, he, hT⟩ := h
  simp only at hT
  subst hT
  have hs' := removeAt_sorted T' hs
  have hn : ∀ e ∈ removeAt T' l, e.T ≠ T' := fun e he => ((mem_removeAt T' hs e).1 he).2
  have hp : IsPut (removeAt T' l) T' v l := by
    refine ⟨hs, fun e => ?_⟩
    rw [mem_removeAt T' hs]
    constructor
    · intro hx
      by_cases hc : e.T = T'
      · exact Or.inl (hs.eq_of_T hx he hc)
      · exact Or.inr ⟨⟨hx, hc⟩, hc⟩
    · rintro (rfl | ⟨⟨hx, _⟩, _⟩)
      · exact he
      · exact hx
  have := isPut_unique hp (isPut_addTimed hs' T' v)
  constructor
  · conv_lhs => rw [this]
    exact length_addTimed_new v hn
  · intro t
    conv_lhs => rw [this]
    exact cnt_addTimed_new v hn t

/-- With the counter just past the end every query at or after the first entry fails, and changes nothing. -/
theorem playback_past {l : List (Ev K α)} (hne : l ≠ []) (hs : StrictSorted l) (dflt : α) (t : K) :
    playback l l.length l.length dflt t = ((l.length : Int), (if ∀ e ∈ l, t < e.T then .ok dflt else .error .indexError : Except Err α)) := by
  cases l with
  | nil => exact absurd rfl hne
  | cons e0 rest =>
    unfold playback
    simp only
    have hiff : t < e0.T ↔ ∀ e ∈ e0 :: rest, t < e.T := by
      constructor
      · intro h e he
        rcases List.mem_cons.1 he with rfl | he
        · exact h
        · exact h.trans ((List.pairwise_cons.1 hs).1 e he)
      · intro h; exact h e0 List.mem_cons_self
    by_cases h : t < e0.T
    · rw [if_pos h, if_pos (hiff.1 h)]
    · rw [if_neg h, if_neg (fun hc => h (hiff.2 hc)), pyGet_nat, List.getElem?_eq_none le_rfl]

theorem playSeq_past_end {l : List (Ev K α)} (hne : l ≠ []) (hs : StrictSorted l) (dflt : α) (ts : List K) :
    playSeq l l.length l.length dflt ts = ts.map fun t => if ∀ e ∈ l, t < e.T then .ok dflt else .error .indexError := by
  induction ts with
  | nil => rfl
  | cons t ts ih =>
    unfold playSeq
    rw [playback_past hne hs, List.map_cons, ih]

/-- With the counter one entry ahead, the first pending entry is shown at once. -/
theorem playback_ahead {l : List (Ev K α)} (hs : StrictSorted l) (dflt : α) (t : K) (i : Nat) (hi : i + 1 < l.length) (h1 : i ≤ cnt l t) (h2 : cnt l t ≤ i + 1) :
    playback l l.length ((i + 1 : Nat) : Int) dflt t = (((i + 1 : Nat) : Int), .ok (if cnt l t = 0 then dflt else l[i].v)) := by
  have hpos : 0 < l.length := by omega
  obtain ⟨e0, rest, hl⟩ : ∃ e0 rest, l = e0 :: rest := by
    cases l with
    | nil => simp at hpos
    | cons a b => exact ⟨a, b, rfl⟩
  have h0 : l[0] = e0 := by subst hl; rfl
  have hunf : ∀ (c : Int), playback l (l.length : Int) c dflt t =
      (if t < l[0].T then (c, .ok dflt)
       else match pyGet l c with
        | none => (c, .error .indexError)
        | some ec =>
          if t < ec.T ∧ c ≥ 1 then
            match pyGet l (c - 1) with
            | none => (c, .error .indexError)
            | some ep => (c, .ok ep.v)
          else if t ≥ ec.T then (min ((l.length : Int) - 1) (c + 1), .ok ec.v)
          else (c, .error .unboundLocal)) := by
    intro c; subst hl; rfl
  rw [hunf]
  by_cases hk : cnt l t = 0
  · have : t < l[0].T := by rw [← not_le, getElem_le_iff hs t 0 hpos]; omega
    rw [if_pos this, if_pos hk]
  · have : ¬ t < l[0].T := by rw [not_lt, getElem_le_iff hs t 0 hpos]; omega
    rw [if_neg this, if_neg hk, pyGet_nat, List.getElem?_eq_getElem hi]
    have hT : t < l[i + 1].T := by rw [← not_le, getElem_le_iff hs t _ hi]; omega
    have hc : ((i + 1 : Nat) : Int) - 1 = ((i : Nat) : Int) := by omega
    have hi' : i < l.length := by omega
    simp only [hT, true_and]
    rw [if_pos (by omega), hc, pyGet_nat, List.getElem?_eq_getElem hi']

/-- What is shown at `t` when the first pending entry `e1` is shown early. -/
def EarlyAt (l : List (Ev K α)) (dflt : α) (a : K) (e1 : Ev K α) (t : K) (v : α) : Prop :=
  (e1.T ≤ t → Correct l dflt t v) ∧ (t < e1.T → (∃ e ∈ l, e.T ≤ a) → v = e1.v) ∧ (t < e1.T → (∀ e ∈ l, a < e.T) → v = dflt)

theorem playSeq_ahead {l : List (Ev K α)} (hs : StrictSorted l) (dflt : α) (a : K) (i : Nat) (hi : i + 1 < l.length) (ha : cnt l a = i) (ts : List K)
    (hd : Dense l (some a) ts) :
    List.Forall₂ (fun t r => ∃ v, r = Except.ok v ∧ EarlyAt l dflt a l[i] t v) ts (playSeq l l.length ((i + 1 : Nat) : Int) dflt ts) := by
  have hi' : i < l.length := by omega
  have hx : a < l[i].T := by rw [← not_le, getElem_le_iff hs a i hi']; omega
  -- the statement for any later "previous" time at which the event has not come yet
  suffices H : ∀ b, a ≤ b → cnt l b = i → Dense l (some b) ts →
      List.Forall₂ (fun t r => ∃ v, r = Except.ok v ∧ EarlyAt l dflt a l[i] t v) ts (playSeq l l.length ((i + 1 : Nat) : Int) dflt ts) from H a le_rfl ha hd
  clear hd
  induction ts with
  | nil => intros; exact List.Forall₂.nil
  | cons t ts ih =>
    intro b hab hb hd
    obtain ⟨h1, h2, h3⟩ := hd
    have hbt : b ≤ t := h1 b rfl
    obtain ⟨hle, hge⟩ := cnt_le_succ_of_dense hs (some b) t h1 h2
    simp only [posOf, hb] at hle hge
    unfold playSeq
    rw [playback_ahead hs dflt t i hi hle hge]
    have hcorr := correct_valAt hs dflt t
    rcases Nat.lt_or_ge i (cnt l t) with hlt | hge'
    · have hct : cnt l t = i + 1 := by omega
      have hT : l[i].T ≤ t := (getElem_le_iff hs t i hi').2 hlt
      refine List.Forall₂.cons ⟨_, rfl, fun _ => ?_, fun h => absurd hT (not_le.2 h), fun h => absurd hT (not_le.2 h)⟩ ?_
      · rw [hct, valAt_get l dflt i hi'] at hcorr
        rw [if_neg (by omega)]; exact hcorr
      · have := playSeq_dense hs (by intro h; simp [h] at hi) dflt (some t) ts h3
        rw [show min ((l.length : Int) - 1) (posOf l (some t) : Int) = ((i + 1 : Nat) : Int) by simp only [posOf, hct]; omega] at this
        -- from here on everything is after the event
        have hall : ∀ (ts : List K) (b : K), Dense l (some b) ts → l[i].T ≤ b → ∀ x ∈ ts, l[i].T ≤ x := by
          intro ts
          induction ts with
          | nil => intro b _ _ x hx; simp at hx
          | cons y ys ih =>
            intro b hd hb x hx
            have hy := hb.trans (hd.1 b rfl)
            rcases List.mem_cons.1 hx with rfl | hx
            · exact hy
            · exact ih y hd.2.2 hy x hx
        have hall := hall ts t h3 hT
        have key : ∀ (ts : List K) (rs : List (Except Err α)), (∀ x ∈ ts, l[i].T ≤ x) → List.Forall₂ (fun t r => ∃ v, r = Except.ok v ∧ Correct l dflt t v) ts rs →
            List.Forall₂ (fun t r => ∃ v, r = Except.ok v ∧ EarlyAt l dflt a l[i] t v) ts rs := by
          intro ts rs hh hf
          induction hf with
          | nil => exact List.Forall₂.nil
          | cons hx _ ih =>
            obtain ⟨v, e, hv⟩ := hx
            have h5 := hh _ List.mem_cons_self
            exact List.Forall₂.cons ⟨v, e, fun _ => hv, fun h => absurd h5 (not_le.2 h), fun h => absurd h5 (not_le.2 h)⟩ (ih (fun x hx => hh x (List.mem_cons_of_mem _ hx)))
        exact key _ _ hall this
    · have hct : cnt l t = i := by omega
      have hT : t < l[i].T := by rw [← not_le, getElem_le_iff hs t i hi']; omega
      refine List.Forall₂.cons ⟨_, rfl, fun h => absurd hT (not_lt.2 h), fun _ hex => ?_, fun _ hno => ?_⟩ (ih t (hab.trans hbt) hct h3)
      · rw [if_neg]
        obtain ⟨e, he, hea⟩ := hex
        obtain ⟨m, hm, rfl⟩ := List.getElem_of_mem he
        have := (getElem_le_iff hs a m hm).1 hea
        omega
      · rw [if_pos]
        by_contra hc
        have : l[0].T ≤ a := (getElem_le_iff hs a 0 (by omega)).2 (by omega)
        exact absurd (hno _ (List.getElem_mem _)) (not_lt.2 this)

/-- The first pending entry, by its place. -/
theorem first_pending {l : List (Ev K α)} (hs : StrictSorted l) {a : K} {e1 e2 : Ev K α} (h1 : e1 ∈ l) (ha1 : a < e1.T) (hf : ∀ e ∈ l, a < e.T → e1.T ≤ e.T)
    (h2 : e2 ∈ l) (h12 : e1.T < e2.T) : ∃ hi : cnt l a + 1 < l.length, l[cnt l a] = e1 := by
  obtain ⟨m, hm, rfl⟩ := List.getElem_of_mem h1
  obtain ⟨n, hn, rfl⟩ := List.getElem_of_mem h2
  have e1 : cnt l a ≤ m := by
    by_contra hc
    exact absurd ((getElem_le_iff hs a m hm).2 (by omega)) (not_le.2 ha1)
  have e2 : m ≤ cnt l a := by
    by_contra hc
    have hlt : cnt l a < l.length := by omega
    have h5 : a < l[cnt l a].T := by rw [← not_le, getElem_le_iff hs a _ hlt]; omega
    have h6 := hf _ (List.getElem_mem hlt) h5
    have h7 := (List.pairwise_iff_getElem.1 hs) (cnt l a) m hlt hm (by omega)
    exact absurd h6 (not_le.2 h7)
  have e3 : m < n := by
    by_contra hc
    rcases Nat.lt_or_ge n m with h | h
    · exact absurd ((List.pairwise_iff_getElem.1 hs) n m hn hm h) (not_lt.2 h12.le)
    · have : n = m := by omega
      subst this; exact lt_irrefl _ h12
  have e4 : cnt l a = m := by omega
  refine ⟨by omega, ?_⟩
  simp only [e4]

end
namespace Events
variable {K : Type} [Field K] [LinearOrder K]

theorem load_state (c : Cfg K) (sp : EvSpec K) (ops : List (Op K)) {s : St K} (hi : Inv s) (hen : s.loadEnable = true) (ho : ∀ o ∈ ops, o.underWay = true) :
    Inv (ops.foldl (step c sp) s) ∧ (ops.foldl (step c sp) s).loadEnable = true ∧
    ((ops.foldl (step c sp) s).load, (ops.foldl (step c sp) s).loadCtr) = stateEdits ZloadDefault s.load s.loadCtr (ops.filterMap loadEdit) := by
  induction ops generalizing s with
  | nil => exact ⟨hi, hen, rfl⟩
  | cons o os ih =>
    have hi' := inv_step (c := c) (sp := sp) hi o
    have hos : ∀ o ∈ os, o.underWay = true := fun x hx => ho x (List.mem_cons_of_mem _ hx)
    have hou := ho o List.mem_cons_self
    rw [List.foldl_cons]
    rcases he : loadEdit o with _ | e
    · obtain ⟨h1, h2, h3⟩ := load_frame c sp s o hou he
      rw [List.filterMap_cons_none he, ← h1, ← h2]
      exact ih hi' (h3.trans hen) hos
    · rw [List.filterMap_cons_some he]
      cases o with
      | addLoad T r i =>
        simp only [loadEdit] at he
        split at he
        · rename_i h
          cases he
          have hst : step c sp s (.addLoad T r i) = updateTotals { s with load := addTimed T ⟨r, i⟩ s.load } := by
            simp only [step, addLoad]
            rw [if_neg (not_lt.2 h)]
          obtain ⟨a1, a2, a3⟩ := ih hi' (by rw [hst]; exact hen) hos
          refine ⟨a1, a2, ?_⟩
          rw [a3, hst]
          rfl
        · cases he
      | queryLoad t =>
        simp only [loadEdit, Option.some.injEq] at he
        subst he
        have hst : loadEvents s t = ({ s with loadCtr := (playback s.load s.load.length s.loadCtr ZloadDefault t).1 },
            (playback s.load s.load.length s.loadCtr ZloadDefault t).2) := by
          unfold loadEvents; rw [if_pos hen, playback_total hi.loadT]
        obtain ⟨a1, a2, a3⟩ := ih hi' (by simp only [step]; rw [hst]; exact hen) hos
        refine ⟨a1, a2, ?_⟩
        rw [a3]
        simp only [step]
        rw [hst]
        rfl
      | _ => simp [loadEdit] at he

/-! ## C148 -/

/-- The events object while a simulation is under way: some calls were made before the simulation started (`s`, counters reset), then `ops`, tidily, ending with a query of
the load at time `a`. -/
def midRun (c : Cfg K) (sp : EvSpec K) (s : St K) (ops : List (Op K)) (a : K) : St K := (ops ++ [Op.queryLoad a]).foldl (step c sp) (resetCounters s)

/-- … and after `remove_load_event(T)`. -/
def removed (c : Cfg K) (sp : EvSpec K) (s : St K) (ops : List (Op K)) (a T : K) : St K := step c sp (midRun c sp s ops a) (.removeLoad (some T) false)

variable {c : Cfg K} {s : St K} {sp : EvSpec K} {ops : List (Op K)} {a T : K}

theorem mid_pos (h : Reachable c s) (hen : s.loadEnable = true) (ho : ∀ o ∈ ops, o.underWay = true)
    (ht : Tidy s.load none false (ops.filterMap loadEdit ++ [.ask a])) :
    Inv (midRun c sp s ops a) ∧ (midRun c sp s ops a).loadEnable = true ∧ ∃ j, PosAt (midRun c sp s ops a).load (midRun c sp s ops a).loadCtr (some a) 0 j := by
  have hi : Inv (resetCounters s) := inv_step (c := c) (sp := sp) (inv_reachable h) .reset
  obtain ⟨h1, h2, h3⟩ := load_state c sp (ops ++ [Op.queryLoad a]) hi hen (by
    intro o hx
    rcases List.mem_append.1 hx with hx | hx
    · exact ho o hx
    · rw [List.mem_singleton] at hx; subst hx; rfl)
  refine ⟨h1, h2, ?_⟩
  have he : (ops ++ [Op.queryLoad a]).filterMap loadEdit = ops.filterMap loadEdit ++ [.ask a] := by
    rw [List.filterMap_append]; rfl
  rw [he] at h3
  obtain ⟨j, hj⟩ := tidy_state ZloadDefault (ops.filterMap loadEdit) a (posAt_start hi.loadS) (w := false) (by simp) ht
  have h4 : ((midRun c sp s ops a).load, (midRun c sp s ops a).loadCtr) =
      stateEdits ZloadDefault (resetCounters s).load 0 (ops.filterMap loadEdit ++ [.ask a]) := h3
  rw [← h4] at hj
  exact ⟨j, hj⟩

theorem removed_facts (h1 : Inv (midRun c sp s ops a)) (h2 : (midRun c sp s ops a).loadEnable = true) :
    Inv (removed c sp s ops a T) ∧ (removed c sp s ops a T).loadEnable = true ∧ (removed c sp s ops a T).load = removeAt T (midRun c sp s ops a).load ∧
      (removed c sp s ops a T).loadCtr = (midRun c sp s ops a).loadCtr :=
  ⟨inv_step (c := c) (sp := sp) h1 _, h2, rfl, rfl⟩

/-- C148: the removal itself. -/
theorem C148_schedule (h : Reachable c s) (hen : s.loadEnable = true) (ho : ∀ o ∈ ops, o.underWay = true)
    (ht : Tidy s.load none false (ops.filterMap loadEdit ++ [.ask a])) :
    StrictSorted (removed c sp s ops a T).load ∧ ∀ e, e ∈ (removed c sp s ops a T).load ↔ e ∈ (midRun c sp s ops a).load ∧ e.T ≠ T := by
  obtain ⟨h1, _, _⟩ := mid_pos (sp := sp) h hen ho ht
  exact ⟨removeAt_sorted T h1.loadS, mem_removeAt T h1.loadS⟩

/-- C148, harmless removals: nothing was scheduled at `T`; or `T` is still to come and so is another event; or no event is left.  Then every later answer, along any tidy
continuation (with further additions), is the value of the remaining schedule. -/
theorem C148_harmless (h : Reachable c s) (hen : s.loadEnable = true) (ho : ∀ o ∈ ops, o.underWay = true)
    (ht : Tidy s.load none false (ops.filterMap loadEdit ++ [.ask a]))
    (hT : (∀ e ∈ (midRun c sp s ops a).load, e.T ≠ T) ∨ (a < T ∧ ∃ e ∈ (removed c sp s ops a T).load, a < e.T) ∨ (removed c sp s ops a T).load = [])
    (later : List (Op K)) (hl : ∀ o ∈ later, o.underWay = true) (ht' : Tidy (removed c sp s ops a T).load (some a) false (later.filterMap loadEdit)) :
    AllCorrect ⟨10000000, 0⟩ (removed c sp s ops a T).load (later.filterMap loadEdit) (loadAnswers c sp (removed c sp s ops a T) later) := by
  obtain ⟨h1, h2, j, hj⟩ := mid_pos (sp := sp) h hen ho ht
  obtain ⟨r1, r2, r3, r4⟩ := removed_facts (T := T) h1 h2
  rw [loadAnswers_eq c sp later r1 r2 hl]
  have hpos : ∃ j, PosAt (removed c sp s ops a T).load (removed c sp s ops a T).loadCtr (some a) 0 j := by
    by_cases hx : ∃ e ∈ (midRun c sp s ops a).load, e.T = T
    · obtain ⟨n1, n2⟩ := cnt_removeAt h1.loadS hx
      have hne : (midRun c sp s ops a).load ≠ [] := by rintro e; obtain ⟨x, hx, _⟩ := hx; rw [e] at hx; simp at hx
      have hc := hj.ctr
      rw [if_neg hne] at hc
      have hp := hj.pos
      simp only [posOf] at hp
      rcases hT with hT | ⟨haT, e, he, hae⟩ | hT
      · obtain ⟨x, hx, hx'⟩ := hx; exact absurd hx' (hT x hx)
      · have h3 := n2 a
        rw [if_neg (not_le.2 haT)] at h3
        have hlt : cnt (removed c sp s ops a T).load a < (removed c sp s ops a T).load.length := by
          obtain ⟨m, hm, rfl⟩ := List.getElem_of_mem he
          have : ¬ m < cnt (removed c sp s ops a T).load a := fun hc => absurd ((getElem_le_iff r1.loadS a m hm).2 hc) (not_le.2 hae)
          omega
        rw [← r3] at n1 h3
        refine ⟨j, r1.loadS, ?_, ?_⟩
        · rw [if_neg (by intro e; rw [e] at hlt; simp at hlt), r4, hc]; omega
        · simp only [posOf]; omega
      · have h0 : (midRun c sp s ops a).load.length = 1 := by rw [n1, ← r3, hT]; rfl
        refine ⟨0, r1.loadS, ?_, ?_⟩
        · rw [if_pos hT, r4, hc, h0]; simp
        · rw [hT]; rfl
    · have he : removeAt T (midRun c sp s ops a).load = (midRun c sp s ops a).load := removeLoop_noop T _ _ _ (by push Not at hx; exact hx)
      refine ⟨j, ?_⟩
      rw [r3, r4, he]; exact hj
  obtain ⟨j', hj'⟩ := hpos
  exact tidy_correct _ _ r1.loadS (w := false) (by simp) ht' _ (answers_of_at _ _ hj' (forward_of_tidy _ r1.loadS ht'))

/-- C148, fatal removals: an event was removed, others are left, and of those at most one is still to come (none, if the removed one was itself still to come).  Then every later
query at or after the first remaining event raises IndexError, whatever the order of the queries, and only a reset or an addition ends this. -/
theorem C148_fatal (h : Reachable c s) (hen : s.loadEnable = true) (ho : ∀ o ∈ ops, o.underWay = true)
    (ht : Tidy s.load none false (ops.filterMap loadEdit ++ [.ask a])) (hT : ∃ e ∈ (midRun c sp s ops a).load, e.T = T)
    (hne : (removed c sp s ops a T).load ≠ []) (hfut : a < T → ∀ e ∈ (removed c sp s ops a T).load, e.T ≤ a)
    (hpast : T ≤ a → ∀ e ∈ (removed c sp s ops a T).load, ∀ e' ∈ (removed c sp s ops a T).load, a < e.T → a < e'.T → e = e')
    (later : List (Op K)) (hl : ∀ o ∈ later, o.underWay = true) (ts : List K) (hts : later.filterMap loadEdit = ts.map Edit.ask) :
    loadAnswers c sp (removed c sp s ops a T) later =
      ts.map fun t => if ∀ e ∈ (removed c sp s ops a T).load, t < e.T then .ok ⟨10000000, 0⟩ else .error .indexError := by
  obtain ⟨h1, h2, j, hj⟩ := mid_pos (sp := sp) h hen ho ht
  obtain ⟨r1, r2, r3, r4⟩ := removed_facts (T := T) h1 h2
  rw [loadAnswers_eq c sp later r1 r2 hl, hts, playEdits_asks]
  obtain ⟨n1, n2⟩ := cnt_removeAt h1.loadS hT
  have hne' : (midRun c sp s ops a).load ≠ [] := by rintro e; obtain ⟨x, hx, _⟩ := hT; rw [e] at hx; simp at hx
  have hc := hj.ctr
  rw [if_neg hne'] at hc
  have hp := hj.pos
  simp only [posOf] at hp
  have h3 := n2 a
  rw [← r3] at n1 h3
  have hpos : 0 < (removed c sp s ops a T).load.length := List.length_pos_of_ne_nil hne
  have hctr : (removed c sp s ops a T).loadCtr = (removed c sp s ops a T).load.length := by
    rw [r4, hc]
    have hb : (removed c sp s ops a T).load.length ≤ j := by
      by_cases haT : a < T
      · rw [if_neg (not_le.2 haT)] at h3
        have : cnt (removed c sp s ops a T).load a = (removed c sp s ops a T).load.length := by
          unfold cnt
          rw [List.filter_eq_self.2]
          intro e he
          exact decide_eq_true (hfut haT e he)
        omega
      · have haT := not_lt.1 haT
        rw [if_pos haT] at h3
        by_contra hcon
        have i1 : cnt (removed c sp s ops a T).load a + 1 < (removed c sp s ops a T).load.length := by omega
        have i0 : cnt (removed c sp s ops a T).load a < (removed c sp s ops a T).load.length := by omega
        have g0 : a < (removed c sp s ops a T).load[cnt (removed c sp s ops a T).load a].T := by rw [← not_le, getElem_le_iff r1.loadS a _ i0]; omega
        have g1 : a < (removed c sp s ops a T).load[cnt (removed c sp s ops a T).load a + 1].T := by rw [← not_le, getElem_le_iff r1.loadS a _ i1]; omega
        have := hpast haT _ (List.getElem_mem i0) _ (List.getElem_mem i1) g0 g1
        have hlt := (List.pairwise_iff_getElem.1 r1.loadS) _ _ i0 i1 (by omega)
        rw [this] at hlt
        exact lt_irrefl _ hlt
    have := posOf_le (midRun c sp s ops a).load (some a)
    simp only [posOf] at this
    omega
  rw [hctr]
  exact playSeq_past_end hne r1.loadS _ ts

/-- C148, premature effect: a past event was removed and at least two are still to come, `e1` the first of them.  Along every dense continuation no query fails, but until the time
of `e1` the answers are wrong whenever some past event is left: they are already the value of `e1`.  From the time of `e1` on they are right. -/
theorem C148_premature (h : Reachable c s) (hen : s.loadEnable = true) (ho : ∀ o ∈ ops, o.underWay = true)
    (ht : Tidy s.load none false (ops.filterMap loadEdit ++ [.ask a])) (hT : ∃ e ∈ (midRun c sp s ops a).load, e.T = T) (haT : T ≤ a)
    {e1 e2 : Ev K (LoadVal K)} (he1 : e1 ∈ (removed c sp s ops a T).load) (ha1 : a < e1.T) (hf : ∀ e ∈ (removed c sp s ops a T).load, a < e.T → e1.T ≤ e.T)
    (he2 : e2 ∈ (removed c sp s ops a T).load) (h12 : e1.T < e2.T)
    (later : List (Op K)) (hl : ∀ o ∈ later, o.underWay = true) (ts : List K) (hts : later.filterMap loadEdit = ts.map Edit.ask)
    (hd : Dense (removed c sp s ops a T).load (some a) ts) :
    List.Forall₂ (fun t r => ∃ v, r = Except.ok v ∧
        (e1.T ≤ t → Correct (removed c sp s ops a T).load ⟨10000000, 0⟩ t v) ∧
        (t < e1.T → (∃ e ∈ (removed c sp s ops a T).load, e.T ≤ a) → v = e1.v) ∧
        (t < e1.T → (∀ e ∈ (removed c sp s ops a T).load, a < e.T) → v = ⟨10000000, 0⟩))
      ts (loadAnswers c sp (removed c sp s ops a T) later) := by
  obtain ⟨h1, h2, j, hj⟩ := mid_pos (sp := sp) h hen ho ht
  obtain ⟨r1, r2, r3, r4⟩ := removed_facts (T := T) h1 h2
  rw [loadAnswers_eq c sp later r1 r2 hl, hts, playEdits_asks]
  obtain ⟨n1, n2⟩ := cnt_removeAt h1.loadS hT
  have hne' : (midRun c sp s ops a).load ≠ [] := by rintro e; obtain ⟨x, hx, _⟩ := hT; rw [e] at hx; simp at hx
  have hc := hj.ctr
  rw [if_neg hne'] at hc
  have hp := hj.pos
  simp only [posOf] at hp
  have h3 := n2 a
  rw [← r3, if_pos haT] at h3
  rw [← r3] at n1
  obtain ⟨hi, hg⟩ := first_pending r1.loadS he1 ha1 hf he2 h12
  have hctr : (removed c sp s ops a T).loadCtr = ((cnt (removed c sp s ops a T).load a + 1 : Nat) : Int) := by
    rw [r4, hc]; omega
  rw [hctr]
  have := playSeq_ahead r1.loadS ZloadDefault a _ hi rfl ts hd
  rw [hg] at this
  exact this

/-- C148: the three cases are all there is. -/
theorem C148_cases (h : Reachable c s) (hen : s.loadEnable = true) (ho : ∀ o ∈ ops, o.underWay = true)
    (ht : Tidy s.load none false (ops.filterMap loadEdit ++ [.ask a])) :
    ((∀ e ∈ (midRun c sp s ops a).load, e.T ≠ T) ∨ (a < T ∧ ∃ e ∈ (removed c sp s ops a T).load, a < e.T) ∨ (removed c sp s ops a T).load = []) ∨
    ((∃ e ∈ (midRun c sp s ops a).load, e.T = T) ∧ (removed c sp s ops a T).load ≠ [] ∧ (a < T → ∀ e ∈ (removed c sp s ops a T).load, e.T ≤ a) ∧
      (T ≤ a → ∀ e ∈ (removed c sp s ops a T).load, ∀ e' ∈ (removed c sp s ops a T).load, a < e.T → a < e'.T → e = e')) ∨
    ((∃ e ∈ (midRun c sp s ops a).load, e.T = T) ∧ T ≤ a ∧ ∃ e1 ∈ (removed c sp s ops a T).load, ∃ e2 ∈ (removed c sp s ops a T).load, a < e1.T ∧
      (∀ e ∈ (removed c sp s ops a T).load, a < e.T → e1.T ≤ e.T) ∧ e1.T < e2.T) := by
  obtain ⟨hs, _⟩ := C148_schedule (sp := sp) (T := T) h hen ho ht
  by_cases hx : ∃ e ∈ (midRun c sp s ops a).load, e.T = T
  · by_cases hne : (removed c sp s ops a T).load = []
    · exact Or.inl (Or.inr (Or.inr hne))
    · rcases lt_or_ge a T with haT | haT
      · by_cases hp : ∃ e ∈ (removed c sp s ops a T).load, a < e.T
        · exact Or.inl (Or.inr (Or.inl ⟨haT, hp⟩))
        · push Not at hp
          exact Or.inr (Or.inl ⟨hx, hne, fun _ => hp, fun h => absurd haT (not_lt.2 h)⟩)
      · rcases Nat.lt_or_ge (cnt (removed c sp s ops a T).load a + 1) (removed c sp s ops a T).load.length with hlt | hge
        · right; right
          have i0 : cnt (removed c sp s ops a T).load a < (removed c sp s ops a T).load.length := by omega
          refine ⟨hx, haT, _, List.getElem_mem i0, _, List.getElem_mem hlt, ?_, ?_, (List.pairwise_iff_getElem.1 hs) _ _ i0 hlt (by omega)⟩
          · rw [← not_le, getElem_le_iff hs a _ i0]; omega
          · intro e he hae
            obtain ⟨m, hm, rfl⟩ := List.getElem_of_mem he
            have hm' : cnt (removed c sp s ops a T).load a ≤ m := by
              by_contra hc
              exact absurd ((getElem_le_iff hs a m hm).2 (by omega)) (not_le.2 hae)
            rcases Nat.lt_or_ge (cnt (removed c sp s ops a T).load a) m with h6 | h6
            · exact ((List.pairwise_iff_getElem.1 hs) _ _ i0 hm h6).le
            · have : m = cnt (removed c sp s ops a T).load a := by omega
              simp only [this, le_refl]
        · refine Or.inr (Or.inl ⟨hx, hne, fun h => absurd h (not_lt.2 haT), fun _ e he e' he' h5 h6 => ?_⟩)
          obtain ⟨m, hm, rfl⟩ := List.getElem_of_mem he
          obtain ⟨n, hn, rfl⟩ := List.getElem_of_mem he'
          have q1 : ¬ m < cnt (removed c sp s ops a T).load a := fun hc => absurd ((getElem_le_iff hs a m hm).2 hc) (not_le.2 h5)
          have q2 : ¬ n < cnt (removed c sp s ops a T).load a := fun hc => absurd ((getElem_le_iff hs a n hn).2 hc) (not_le.2 h6)
          have : m = n := by omega
          simp only [this]
  · push Not at hx
    exact Or.inl (Or.inl hx)

theorem reaches_step (h : Reachable c s) (o : Op K) : Reachable c (step c sp s o) := by
  obtain ⟨x, y, z, l, rfl⟩ := h
  exact ⟨x, y, z, l ++ [(sp, o)], by simp [run]⟩

theorem reaches_foldl (h : Reachable c s) (ops : List (Op K)) : Reachable c (ops.foldl (step c sp) s) := by
  induction ops generalizing s with
  | nil => exact h
  | cons o os ih => exact ih (reaches_step h o)

/-- C148: after a reset of the counters the remaining schedule is played back correctly again. -/
theorem C148_reset_repairs (h : Reachable c s) (hen : s.loadEnable = true) (ho : ∀ o ∈ ops, o.underWay = true)
    (ht : Tidy s.load none false (ops.filterMap loadEdit ++ [.ask a])) (ts : List K) (hd : Dense (removed c sp s ops a T).load none ts) :
    List.Forall₂ (fun t r => ∃ v, r = Except.ok v ∧ Correct (removed c sp s ops a T).load ⟨10000000, 0⟩ t v) ts (loadPlay (resetCounters (removed c sp s ops a T)) ts) := by
  obtain ⟨h1, h2, _⟩ := mid_pos (sp := sp) h hen ho ht
  refine C07_load_playback (reaches_step (sp := sp) (reaches_foldl (sp := sp) (reaches_step (sp := sp) h .reset) _) _) ?_ ts hd
  exact h2

/-! ### Instances -/

/-- A load schedule with events at 1, 2, 4 and 6 s. -/
def rmState : St ℚ := [Op.addLoad 1 10 0, .addLoad 2 20 0, .addLoad 4 40 0, .addLoad 6 60 0].foldl (step exCfg exSpec) (init true true true)
/-- A simulation has reached 3 s, with a grid query in between. -/
def rmOps : List (Op ℚ) := [.queryLoad 1, .queryGrid 1, .queryLoad 2]

theorem rm_reachable : Reachable exCfg rmState := reaches_foldl (s := init true true true) ⟨true, true, true, [], rfl⟩ _

theorem rm_tidy : Tidy rmState.load none false (rmOps.filterMap loadEdit ++ [.ask 3]) := by
  have h : rmOps.filterMap loadEdit ++ [.ask 3] = [.ask 1, .ask 2, .ask 3] := by decide +kernel
  have hl : rmState.load = [⟨1, ⟨10, 0⟩⟩, ⟨2, ⟨20, 0⟩⟩, ⟨4, ⟨40, 0⟩⟩, ⟨6, ⟨60, 0⟩⟩] := by decide +kernel
  rw [h, hl]
  refine ⟨by simp, by decide, by rintro a ⟨⟩; norm_num, by decide, by rintro a ⟨⟩; norm_num, by decide, trivial⟩

theorem rm_tidy' : Tidy rmState.load none false ((rmOps ++ [Op.queryLoad 3]).filterMap loadEdit ++ [.ask 5]) := by
  have h : (rmOps ++ [Op.queryLoad 3]).filterMap loadEdit ++ [.ask 5] = [.ask 1, .ask 2, .ask 3, .ask 5] := by decide +kernel
  have hl : rmState.load = [⟨1, ⟨10, 0⟩⟩, ⟨2, ⟨20, 0⟩⟩, ⟨4, ⟨40, 0⟩⟩, ⟨6, ⟨60, 0⟩⟩] := by decide +kernel
  rw [h, hl]
  refine ⟨by simp, by decide, by rintro a ⟨⟩; norm_num, by decide, by rintro a ⟨⟩; norm_num, by decide, by rintro a ⟨⟩; norm_num, by decide, trivial⟩

/-- C148, one case of each kind at 3 s.  Removing the event of 6 s is harmless.  Removing the (past) event of 1 s makes the event of 4 s take effect at once.
At 5 s, with only the event of 6 s still to come, removing the one of 2 s makes the queries fail. -/
theorem C148_example :
    (rmState.loadEnable = true ∧ (∀ o ∈ rmOps, o.underWay = true)) ∧
    loadAnswers exCfg exSpec (removed exCfg exSpec rmState rmOps 3 6) [.queryLoad 3, .queryLoad 5, .queryLoad 7] = [.ok ⟨20, 0⟩, .ok ⟨40, 0⟩, .ok ⟨40, 0⟩] ∧
    loadAnswers exCfg exSpec (removed exCfg exSpec rmState rmOps 3 1) [.queryLoad 3, .queryLoad 5, .queryLoad 7] = [.ok ⟨40, 0⟩, .ok ⟨40, 0⟩, .ok ⟨60, 0⟩] ∧
    loadAnswers exCfg exSpec (removed exCfg exSpec rmState (rmOps ++ [.queryLoad 3]) 5 2) [.queryLoad 5, .queryLoad 0, .queryLoad 7] =
      [.error .indexError, .ok ⟨10000000, 0⟩, .error .indexError] := by
  refine ⟨⟨by decide, by decide⟩, by decide +kernel, by decide +kernel, by decide +kernel⟩

end Events
end PvDer
