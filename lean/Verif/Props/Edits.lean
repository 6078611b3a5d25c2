import Verif.Spec.Edits
import Verif.Props.StepBack

/-!
# Property C146: a schedule that is edited while it is being played back
-/

set_option linter.unusedSectionVars false

namespace PvDer

section
variable {K α : Type} [LinearOrder K] [DecidableEq α]

/-- The implementation's side: `playback` with the stored counter, additions by `addTimed` (counter untouched). -/
def playEdits (dflt : α) : List (Ev K α) → Int → List (Edit K α) → List (Except Err α)
  | _, _, [] => []
  | l, c, .put T v :: es => playEdits dflt (addTimed T v l) c es
  | l, c, .ask t :: es => (playback l l.length c dflt t).2 :: playEdits dflt l (playback l l.length c dflt t).1 es

theorem cnt_perm {l l' : List (Ev K α)} (h : l.Perm l') (t : K) : cnt l t = cnt l' t := by
  unfold cnt; exact (h.filter _).length_eq

theorem cnt_append (l l' : List (Ev K α)) (t : K) : cnt (l ++ l') t = cnt l t + cnt l' t := by
  unfold cnt; rw [List.filter_append, List.length_append]

theorem addTimed_perm_new {T : K} {l : List (Ev K α)} (v : α) (hn : ∀ e ∈ l, e.T ≠ T) : (addTimed T v l).Perm (l ++ [⟨T, v⟩]) := by
  unfold addTimed
  have : removeAt T l = l := removeLoop_noop T _ l _ hn
  rw [this]; exact sortByT_perm _

theorem cnt_addTimed_new {T : K} {l : List (Ev K α)} (v : α) (hn : ∀ e ∈ l, e.T ≠ T) (t : K) :
    cnt (addTimed T v l) t = cnt l t + (if T ≤ t then 1 else 0) := by
  rw [cnt_perm (addTimed_perm_new v hn), cnt_append, cnt_cons]; simp [cnt]

theorem length_addTimed_new {T : K} {l : List (Ev K α)} (v : α) (hn : ∀ e ∈ l, e.T ≠ T) : (addTimed T v l).length = l.length + 1 := by
  rw [(addTimed_perm_new v hn).length_eq]; simp

theorem addTimed_old {T : K} {l : List (Ev K α)} (hs : StrictSorted l) (v : α) (h : ∃ e ∈ l, e.T = T) :
    (addTimed T v l).length = l.length ∧ ∀ t, cnt (addTimed T v l) t = cnt l t := by
  obtain ⟨⟨T', w⟩, he, hT⟩ := h
  simp only at hT
  subst hT
  obtain ⟨pre, suf, rfl⟩ := List.append_of_mem he
  rw [addTimed_existing _ v w pre suf hs]
  refine ⟨by simp, fun t => ?_⟩
  rw [cnt_append, cnt_append, cnt_cons, cnt_cons]

theorem isPut_addTimed {l : List (Ev K α)} (hs : StrictSorted l) (T : K) (v : α) : IsPut l T v (addTimed T v l) :=
  ⟨addTimed_sorted T v hs, fun e => mem_addTimed T v hs e⟩

theorem isPut_unique {l l1 l2 : List (Ev K α)} {T : K} {v : α} (h1 : IsPut l T v l1) (h2 : IsPut l T v l2) : l1 = l2 :=
  StrictSorted.ext h1.1 h2.1 fun e => (h1.2 e).trans (h2.2 e).symm

theorem fresh_eq (l : List (Ev K α)) (prev : Option K) (t : K) (h : ∀ a, prev = some a → a ≤ t) :
    posOf l prev + fresh l prev t = cnt l t := by
  cases prev with
  | none => simp [posOf, fresh, cnt]
  | some a =>
    have ha : a ≤ t := h a rfl
    simp only [posOf]
    unfold fresh cnt
    simp only
    induction l with
    | nil => rfl
    | cons e l ih =>
      simp only [List.filter_cons]
      by_cases h1 : e.T ≤ a
      · have h2 : e.T ≤ t := h1.trans ha
        simp only [h1, h2, decide_true, if_true, not_lt.2 h1, decide_false, Bool.and_false, Bool.false_eq_true, if_false, List.length_cons]
        omega
      · have h2 : a < e.T := not_le.1 h1
        by_cases h3 : e.T ≤ t
        · simp only [h1, h2, h3, decide_true, decide_false, Bool.false_eq_true, if_false, Bool.and_true, if_true, List.length_cons]
          omega
        · simp only [h1, h3, decide_false, Bool.false_eq_true, if_false, Bool.false_and]
          exact ih

/-- Counting between an entry and a time. -/
theorem cnt_between (l : List (Ev K α)) {a t : K} (h : a ≤ t) :
    cnt l a + (l.filter fun e' => decide (a < e'.T ∧ e'.T ≤ t)).length = cnt l t := by
  have := fresh_eq l (some a) t (by rintro b ⟨⟩; exact h)
  simp only [posOf, fresh] at this
  rw [← this]
  congr 2
  apply List.filter_congr
  intro e _
  simp [and_comm]

theorem behind_valAt {l : List (Ev K α)} (hs : StrictSorted l) (dflt : α) (t : K) (j k : Nat) (h : cnt l t = j + k) :
    Behind l dflt t k (valAt l dflt j) := by
  cases j with
  | zero => right; exact ⟨rfl, by unfold cnt at h; omega⟩
  | succ i =>
    have hi : i < l.length := by have := cnt_le l t; omega
    left
    have hle : l[i].T ≤ t := (getElem_le_iff hs t i hi).2 (by omega)
    refine ⟨l[i], List.getElem_mem hi, hle, valAt_get l dflt i hi, ?_⟩
    have h1 := cnt_between l hle
    rw [cnt_getElem hs i hi] at h1
    omega

theorem behind_zero {l : List (Ev K α)} {dflt : α} {t : K} {v : α} (h : Behind l dflt t 0 v) : Correct l dflt t v := by
  rcases h with ⟨e, he, h1, h2, h3⟩ | ⟨h1, h2⟩
  · left
    refine ⟨e, ⟨he, h1, fun e' he' h4 => ?_⟩, h2⟩
    by_contra hc
    have : e' ∈ l.filter fun e' => decide (e.T < e'.T ∧ e'.T ≤ t) := by simp [he', h4, not_le.1 hc]
    exact absurd (List.length_pos_of_mem this) (by omega)
  · right
    refine ⟨fun e he => ?_, h1⟩
    by_contra hc
    have : e ∈ l.filter fun e' => decide (e'.T ≤ t) := by simp [he, not_lt.1 hc]
    exact absurd (List.length_pos_of_mem this) (by omega)

/-- The exact position of the playback: `j` entries count as passed, `k` more are due. -/
structure PosAt (l : List (Ev K α)) (c : Int) (prev : Option K) (k : Nat) (j : Nat) : Prop where
  sorted : StrictSorted l
  ctr : c = if l = [] then 0 else min ((l.length : Int) - 1) (j : Int)
  pos : posOf l prev = j + k

theorem posOf_le (l : List (Ev K α)) (prev : Option K) : posOf l prev ≤ l.length := by
  cases prev with
  | none => simp [posOf]
  | some a => exact cnt_le l a

theorem at_put {l : List (Ev K α)} {c : Int} {prev : Option K} {k j : Nat} (h : PosAt l c prev k j) (T : K) (v : α) :
    ∃ j', PosAt (addTimed T v l) c prev (lagPut l prev T k) j' := by
  have hs' := addTimed_sorted T v h.sorted
  have hne := addTimed_ne_nil T v l
  have hp := h.pos
  have hle := posOf_le l prev
  by_cases he : ∃ e ∈ l, e.T = T
  · obtain ⟨h1, h2⟩ := addTimed_old h.sorted v he
    refine ⟨j, hs', ?_, ?_⟩
    · rw [if_neg hne, h1, h.ctr, if_neg]
      rintro rfl; simp at he
    · unfold lagPut
      rw [if_pos he, ← hp]
      cases prev with
      | none => rfl
      | some a => exact h2 a
  · have hn : ∀ e ∈ l, e.T ≠ T := fun e h1 h2 => he ⟨e, h1, h2⟩
    have hlen := length_addTimed_new v hn
    have hcnt : posOf (addTimed T v l) prev = posOf l prev + (if ∃ a, prev = some a ∧ T ≤ a then 1 else 0) := by
      cases prev with
      | none => simp [posOf]
      | some a => simp only [posOf]; rw [cnt_addTimed_new v hn]; simp
    unfold lagPut
    rw [if_neg he]
    by_cases hl : l = []
    · subst hl
      refine ⟨0, hs', ?_, ?_⟩
      · rw [if_neg hne, hlen, h.ctr]; simp
      · have hx : ¬ Exhausted ([] : List (Ev K α)) prev := by rintro ⟨a, _, h1, _⟩; exact h1 rfl
        rw [hcnt, if_neg hx]
        simp only [List.length_nil] at hle
        omega
    · have hpos : 0 < l.length := List.length_pos_of_ne_nil hl
      have hc := h.ctr
      rw [if_neg hl] at hc
      have hex : Exhausted l prev ↔ posOf l prev = l.length := by
        cases prev with
        | none => 
          constructor
          · rintro ⟨a, h1, _⟩; cases h1
          · intro h1; simp only [posOf] at h1; omega
        | some a =>
          simp only [posOf]
          constructor
          · rintro ⟨b, hb, _, h2⟩
            cases hb
            unfold cnt
            rw [List.filter_eq_self.2]
            intro e h3; simpa using h2 e h3
          · intro h1
            refine ⟨a, rfl, hl, fun e h3 => ?_⟩
            obtain ⟨i, hi, rfl⟩ := List.getElem_of_mem h3
            rw [getElem_le_iff h.sorted a i hi]; omega
      by_cases hj : j = l.length
      · refine ⟨j - 1, hs', ?_, ?_⟩
        · rw [if_neg hne, hlen, hc]; omega
        · rw [hcnt, if_pos (hex.2 (by omega))]; omega
      · refine ⟨j, hs', ?_, ?_⟩
        · rw [if_neg hne, hlen, hc]; omega
        · rw [hcnt]
          by_cases hx : Exhausted l prev
          · rw [if_pos hx]
            have := hex.1 hx
            omega
          · rw [if_neg hx]; omega

theorem at_ask {l : List (Ev K α)} {c : Int} {prev : Option K} {k j : Nat} (h : PosAt l c prev k j) (dflt : α) (t : K)
    (hf : ∀ a, prev = some a → a ≤ t) :
    ∃ j', PosAt l (playback l l.length c dflt t).1 (some t) (lagAsk l prev t k) j' ∧
      (playback l l.length c dflt t).2 = .ok (valAt l dflt j') := by
  have hp := h.pos
  have hfr := fresh_eq l prev t hf
  by_cases hl : l = []
  · subst hl
    have hle := posOf_le ([] : List (Ev K α)) prev
    simp only [List.length_nil] at hle
    refine ⟨0, ⟨h.sorted, ?_, ?_⟩, rfl⟩
    · rw [playback_nil]; simpa using h.ctr
    · have h0 : cnt ([] : List (Ev K α)) t = 0 := rfl
      simp only [posOf, lagAsk]; omega
  · have hc := h.ctr
    rw [if_neg hl] at hc
    have hst := playback_step h.sorted hl dflt t j (by omega)
    rw [hc, hst]
    refine ⟨_, ⟨h.sorted, ?_, ?_⟩, rfl⟩
    · rw [if_neg hl]
    · simp only [posOf, lagAsk]; omega

theorem answers_of_at (dflt : α) (es : List (Edit K α)) {l : List (Ev K α)} {c : Int} {prev : Option K} {k j : Nat} (h : PosAt l c prev k j)
    (hf : Forward prev es) : Answers dflt l prev k es (playEdits dflt l c es) := by
  induction es generalizing l c prev k j with
  | nil => rfl
  | cons e es ih =>
    cases e with
    | put T v =>
      obtain ⟨j', hj⟩ := at_put h T v
      exact ⟨_, isPut_addTimed h.sorted T v, ih hj hf⟩
    | ask t =>
      obtain ⟨j', hj, hv⟩ := at_ask h dflt t hf.1
      refine ⟨_, _, by rw [playEdits, hv], ?_, ih hj hf.2⟩
      apply behind_valAt h.sorted
      exact hj.pos

/-- The answers are determined by the specification. -/
theorem tidy_correct (dflt : α) (es : List (Edit K α)) {l : List (Ev K α)} {prev : Option K} {k : Nat} {w : Bool} (hs : StrictSorted l)
    (hk : k ≤ if w then 1 else 0) (ht : Tidy l prev w es) (rs : List (Except Err α)) (h : Answers dflt l prev k es rs) :
    AllCorrect dflt l es rs := by
  induction es generalizing l prev k w rs with
  | nil => exact h
  | cons e es ih =>
    cases e with
    | put T v =>
      obtain ⟨l', h1, h2⟩ := h
      refine ⟨l', h1, ih h1.1 (w := true) ?_ (ht.2 l' h1) rs h2⟩
      have h3 : ¬ ∃ a, prev = some a ∧ T ≤ a := by
        rintro ⟨a, rfl, h4⟩
        exact absurd ht.1 (not_lt.2 h4)
      unfold lagPut
      rw [if_neg h3]
      have : k ≤ 1 := by split at hk <;> omega
      simp only [if_true]
      split
      · exact this
      · split <;> omega
    | ask t =>
      obtain ⟨v, rs', h1, h2, h3⟩ := h
      have hz : lagAsk l prev t k = 0 := by
        have := ht.2.1
        unfold lagAsk
        cases w <;> simp at hk this <;> omega
      rw [hz] at h2 h3
      exact ⟨v, rs', h1, behind_zero h2, ih hs (w := false) (by simp) ht.2.2 rs' h3⟩

end
end PvDer
namespace PvDer
namespace Events
variable {K : Type} [Field K] [LinearOrder K]

/-! ## Specification: what a history of calls does to one schedule -/

/-- The solar schedule's share of a call: an accepted `add_solar_event`, a `solar_events` query, or nothing. -/
def solarEdit (sp : EvSpec K) : Op K → Option (Edit K (SolarVal K))
  | .addSolar T S Ta => if sp.insolation.min ≤ S ∧ S ≤ sp.insolation.max ∧ 250 ≤ Ta ∧ Ta ≤ 375 then some (.put T ⟨S, Ta⟩) else none
  | .querySolar t => some (.ask t)
  | _ => none

/-- The load schedule's share of a call. -/
def loadEdit : Op K → Option (Edit K (LoadVal K))
  | .addLoad T r i => if 0 ≤ r then some (.put T ⟨r, i⟩) else none
  | .queryLoad t => some (.ask t)
  | _ => none

/-- Calls that may come while a simulation is under way: anything but clearing a schedule, removing a load event, resetting the counters or
switching a schedule on or off.  (Removing a single solar event fails and changes nothing, C05.) -/
def Op.underWay : Op K → Bool
  | .removeSolar (some _) false => true
  | .removeSolar _ _ => false
  | .removeLoad _ _ => false
  | .reset => false
  | .setEnable _ _ _ => false
  | _ => true

/-- The result of a call, if it is a query of the solar schedule. -/
def solarAnswer (sp : EvSpec K) (s : St K) : Op K → List (Except Err (SolarVal K))
  | .querySolar t => [(solarEvents sp s t).2]
  | _ => []

/-- The results of the solar queries of a history, in order. -/
def solarAnswers (c : Cfg K) (sp : EvSpec K) : St K → List (Op K) → List (Except Err (SolarVal K))
  | _, [] => []
  | s, o :: os => solarAnswer sp s o ++ solarAnswers c sp (step c sp s o) os

/-- The result of a call, if it is a query of the load schedule. -/
def loadAnswer (s : St K) : Op K → List (Except Err (LoadVal K))
  | .queryLoad t => [(loadEvents s t).2]
  | _ => []

/-- The results of the load queries of a history, in order. -/
def loadAnswers (c : Cfg K) (sp : EvSpec K) : St K → List (Op K) → List (Except Err (LoadVal K))
  | _, [] => []
  | s, o :: os => loadAnswer s o ++ loadAnswers c sp (step c sp s o) os

/-! ## Reduction to one schedule -/

theorem playback_total {α : Type} {l : List (Ev K α)} {total : Int} (hT : l ≠ [] → total = l.length) (c : Int) (dflt : α) (t : K) :
    playback l total c dflt t = playback l l.length c dflt t := by
  cases l with
  | nil => rfl
  | cons e l => rw [hT (by simp)]

theorem grid_solar_frame (c : Cfg K) (sp : EvSpec K) (s : St K) (t : K) :
    (gridEvents c sp s t).1.solar = s.solar ∧ (gridEvents c sp s t).1.solarCtr = s.solarCtr ∧
    (gridEvents c sp s t).1.solarEnable = s.solarEnable ∧ (gridEvents c sp s t).1.load = s.load ∧
    (gridEvents c sp s t).1.loadCtr = s.loadCtr ∧ (gridEvents c sp s t).1.loadEnable = s.loadEnable := by
  apply gridEvents_preserves (fun s' => s'.solar = s.solar ∧ s'.solarCtr = s.solarCtr ∧ s'.solarEnable = s.solarEnable ∧ s'.load = s.load ∧
    s'.loadCtr = s.loadCtr ∧ s'.loadEnable = s.loadEnable)
  · simp
  · intro T V a f
    unfold addGrid
    split
    · simp
    · split <;> simp [updateTotals]
  · intro s' h _; exact h

theorem solar_frame (c : Cfg K) (sp : EvSpec K) (s : St K) (o : Op K) (ho : o.underWay = true) (hn : solarEdit sp o = none) :
    (step c sp s o).solar = s.solar ∧ (step c sp s o).solarCtr = s.solarCtr ∧ (step c sp s o).solarEnable = s.solarEnable := by
  cases o with
  | addSolar T S Ta =>
    simp only [solarEdit] at hn
    split at hn
    · cases hn
    · rename_i h
      simp only [step, addSolar]
      split
      · simp
      · split
        · simp
        · rename_i h1 h2
          push Not at h1 h2
          exact absurd ⟨h1.1, h1.2, h2.2, h2.1⟩ h
  | addGrid T V a f =>
    simp only [step, addGrid]
    split
    · simp
    · split <;> simp [updateTotals]
  | addLoad T r i =>
    simp only [step, addLoad]
    split <;> simp [updateTotals]
  | removeSolar T all =>
    cases T with
    | none => simp [Op.underWay] at ho
    | some T =>
      cases all with
      | true => simp [Op.underWay] at ho
      | false => simp [step, removeSolar]
  | removeGrid T => simp [step, removeGrid, updateTotals]
  | removeLoad T all => simp [Op.underWay] at ho
  | querySolar t => simp [solarEdit] at hn
  | queryGrid t =>
    have := grid_solar_frame c sp s t
    exact ⟨this.1, this.2.1, this.2.2.1⟩
  | queryLoad t =>
    simp only [step, loadEvents]
    split <;> simp
  | reset => simp [Op.underWay] at ho
  | setEnable a b d => simp [Op.underWay] at ho

theorem load_frame (c : Cfg K) (sp : EvSpec K) (s : St K) (o : Op K) (ho : o.underWay = true) (hn : loadEdit o = none) :
    (step c sp s o).load = s.load ∧ (step c sp s o).loadCtr = s.loadCtr ∧ (step c sp s o).loadEnable = s.loadEnable := by
  cases o with
  | addLoad T r i =>
    simp only [loadEdit] at hn
    split at hn
    · cases hn
    · rename_i h
      simp only [step, addLoad]
      rw [if_pos (not_le.1 h)]
      simp
  | addGrid T V a f =>
    simp only [step, addGrid]
    split
    · simp
    · split <;> simp [updateTotals]
  | addSolar T r i =>
    simp only [step, addSolar]
    split
    · simp
    · split <;> simp [updateTotals]
  | removeSolar T all =>
    cases T with
    | none => simp [Op.underWay] at ho
    | some T =>
      cases all with
      | true => simp [Op.underWay] at ho
      | false => simp [step, removeSolar]
  | removeGrid T => simp [step, removeGrid, updateTotals]
  | removeLoad T all => simp [Op.underWay] at ho
  | queryLoad t => simp [loadEdit] at hn
  | queryGrid t =>
    have := grid_solar_frame c sp s t
    exact this.2.2.2
  | querySolar t =>
    simp only [step, solarEvents]
    split <;> simp
  | reset => simp [Op.underWay] at ho
  | setEnable a b d => simp [Op.underWay] at ho

theorem solarAnswers_eq (c : Cfg K) (sp : EvSpec K) (ops : List (Op K)) {s : St K} (hi : Inv s) (hen : s.solarEnable = true)
    (ho : ∀ o ∈ ops, o.underWay = true) :
    solarAnswers c sp s ops = playEdits ⟨sp.insolation.dflt, TactualDefault⟩ s.solar s.solarCtr (ops.filterMap (solarEdit sp)) := by
  induction ops generalizing s with
  | nil => rfl
  | cons o os ih =>
    have hi' := inv_step (c := c) (sp := sp) hi o
    have hos : ∀ o ∈ os, o.underWay = true := fun x hx => ho x (List.mem_cons_of_mem _ hx)
    have hou := ho o List.mem_cons_self
    rcases he : solarEdit sp o with _ | e
    · obtain ⟨h1, h2, h3⟩ := solar_frame c sp s o hou he
      rw [List.filterMap_cons_none he, ← h1, ← h2, ← ih hi' (h3.trans hen) hos, solarAnswers]
      have h0 : solarAnswer sp s o = [] := by
        cases o <;> first | rfl | simp [solarEdit] at he
      rw [h0, List.nil_append]
    · rw [List.filterMap_cons_some he]
      cases o with
      | addSolar T S Ta =>
        simp only [solarEdit] at he
        split at he
        · rename_i h
          cases he
          have hst : step c sp s (.addSolar T S Ta) = updateTotals { s with solar := addTimed T ⟨S, Ta⟩ s.solar } := by
            simp only [step, addSolar]
            rw [if_neg (by push Not; exact ⟨h.1, h.2.1⟩), if_neg (by push Not; exact ⟨h.2.2.2, h.2.2.1⟩)]
          rw [solarAnswers, playEdits, ih hi' (by rw [hst]; exact hen) hos, hst]
          rfl
        · cases he
      | querySolar t =>
        simp only [solarEdit, Option.some.injEq] at he
        subst he
        have hst : solarEvents sp s t = ({ s with solarCtr := (playback s.solar s.solar.length s.solarCtr ⟨sp.insolation.dflt, TactualDefault⟩ t).1 },
            (playback s.solar s.solar.length s.solarCtr ⟨sp.insolation.dflt, TactualDefault⟩ t).2) := by
          unfold solarEvents; rw [if_pos hen, playback_total hi.solarT]
        rw [solarAnswers, playEdits]
        simp only [solarAnswer]
        rw [ih hi' (by simp only [step]; rw [hst]; exact hen) hos]
        simp only [step]
        rw [hst]
        rfl
      | _ => simp [solarEdit] at he

theorem loadAnswers_eq (c : Cfg K) (sp : EvSpec K) (ops : List (Op K)) {s : St K} (hi : Inv s) (hen : s.loadEnable = true)
    (ho : ∀ o ∈ ops, o.underWay = true) :
    loadAnswers c sp s ops = playEdits ZloadDefault s.load s.loadCtr (ops.filterMap loadEdit) := by
  induction ops generalizing s with
  | nil => rfl
  | cons o os ih =>
    have hi' := inv_step (c := c) (sp := sp) hi o
    have hos : ∀ o ∈ os, o.underWay = true := fun x hx => ho x (List.mem_cons_of_mem _ hx)
    have hou := ho o List.mem_cons_self
    rcases he : loadEdit o with _ | e
    · obtain ⟨h1, h2, h3⟩ := load_frame c sp s o hou he
      rw [List.filterMap_cons_none he, ← h1, ← h2, ← ih hi' (h3.trans hen) hos, loadAnswers]
      have h0 : loadAnswer s o = [] := by
        cases o <;> first | rfl | simp [loadEdit] at he
      rw [h0, List.nil_append]
    · rw [List.filterMap_cons_some he]
      cases o with
      | addLoad T r i =>
        simp only [loadEdit] at he
        split at he
        · rename_i h
          cases he
          have hst : step c sp s (.addLoad T r i) = updateTotals { s with load := addTimed T ⟨r, i⟩ s.load } := by
            simp only [step, addLoad]
            rw [if_neg (not_lt.2 h)]
          rw [loadAnswers, playEdits, ih hi' (by rw [hst]; exact hen) hos, hst]
          rfl
        · cases he
      | queryLoad t =>
        simp only [loadEdit, Option.some.injEq] at he
        subst he
        have hst : loadEvents s t = ({ s with loadCtr := (playback s.load s.load.length s.loadCtr ZloadDefault t).1 },
            (playback s.load s.load.length s.loadCtr ZloadDefault t).2) := by
          unfold loadEvents; rw [if_pos hen, playback_total hi.loadT]
        rw [loadAnswers, playEdits]
        simp only [loadAnswer]
        rw [ih hi' (by simp only [step]; rw [hst]; exact hen) hos]
        simp only [step]
        rw [hst]
        rfl
      | _ => simp [loadEdit] at he

theorem posAt_start {α : Type} [DecidableEq α] {l : List (Ev K α)} (hs : StrictSorted l) : PosAt l 0 none 0 0 := by
  refine ⟨hs, ?_, rfl⟩
  split
  · rfl
  · rename_i h
    have := List.length_pos_of_ne_nil h
    omega

/-! ## C146 -/

/-- C146, insolation: from reset counters, along every interleaving of calls with queries going forward in time, no query fails and each answers with the value
that was due `k` events ago — `k` as in `lagPut`/`lagAsk`. -/
theorem C146_solar {c : Cfg K} {s : St K} (h : Reachable c s) (hen : s.solarEnable = true) (sp : EvSpec K) (ops : List (Op K))
    (ho : ∀ o ∈ ops, o.underWay = true) (hf : Forward none (ops.filterMap (solarEdit sp))) :
    Answers ⟨sp.insolation.dflt, 29815 / 100⟩ s.solar none 0 (ops.filterMap (solarEdit sp)) (solarAnswers c sp (resetCounters s) ops) := by
  have hi : Inv (resetCounters s) := inv_step (c := c) (sp := sp) (inv_reachable h) .reset
  rw [solarAnswers_eq c sp ops hi hen ho]
  exact answers_of_at _ _ (posAt_start hi.solarS) hf

/-- C146, load. -/
theorem C146_load {c : Cfg K} {s : St K} (h : Reachable c s) (hen : s.loadEnable = true) (sp : EvSpec K) (ops : List (Op K))
    (ho : ∀ o ∈ ops, o.underWay = true) (hf : Forward none (ops.filterMap loadEdit)) :
    Answers ⟨10000000, 0⟩ s.load none 0 (ops.filterMap loadEdit) (loadAnswers c sp (resetCounters s) ops) := by
  have hi : Inv (resetCounters s) := inv_step (c := c) (sp := sp) (inv_reachable h) .reset
  rw [loadAnswers_eq c sp ops hi hen ho]
  exact answers_of_at _ _ (posAt_start hi.loadS) hf

theorem forward_of_tidy {α : Type} [DecidableEq α] (es : List (Edit K α)) {l : List (Ev K α)} {prev : Option K} {w : Bool} (hs : StrictSorted l)
    (h : Tidy l prev w es) : Forward prev es := by
  induction es generalizing l prev w with
  | nil => trivial
  | cons e es ih =>
    cases e with
    | put T v => exact ih (addTimed_sorted T v hs) (h.2 _ (isPut_addTimed hs T v))
    | ask t => exact ⟨h.1, ih hs h.2.2⟩

/-- C146, tidy use, insolation: if events are only added ahead of the latest query, no query jumps over more than one event, and there is a query between each
addition and the next event, every answer is the value of the schedule as it is at that moment. -/
theorem C146_solar_tidy {c : Cfg K} {s : St K} (h : Reachable c s) (hen : s.solarEnable = true) (sp : EvSpec K) (ops : List (Op K))
    (ho : ∀ o ∈ ops, o.underWay = true) (ht : Tidy s.solar none false (ops.filterMap (solarEdit sp))) :
    AllCorrect ⟨sp.insolation.dflt, 29815 / 100⟩ s.solar (ops.filterMap (solarEdit sp)) (solarAnswers c sp (resetCounters s) ops) :=
  tidy_correct _ _ (inv_reachable h).solarS (by simp) ht _ (C146_solar h hen sp ops ho (forward_of_tidy _ (inv_reachable h).solarS ht))

/-- C146, tidy use, load. -/
theorem C146_load_tidy {c : Cfg K} {s : St K} (h : Reachable c s) (hen : s.loadEnable = true) (sp : EvSpec K) (ops : List (Op K))
    (ho : ∀ o ∈ ops, o.underWay = true) (ht : Tidy s.load none false (ops.filterMap loadEdit)) :
    AllCorrect ⟨10000000, 0⟩ s.load (ops.filterMap loadEdit) (loadAnswers c sp (resetCounters s) ops) :=
  tidy_correct _ _ (inv_reachable h).loadS (by simp) ht _ (C146_load h hen sp ops ho (forward_of_tidy _ (inv_reachable h).loadS ht))

/-! ### Instances -/

/-- A tidy history: the schedule holds (2 s, 50) and (5 s, 60) and is asked at 3 s and 6 s; then an event at 8 s is added, and asked for at 7 s and 9 s. -/
def tidyOps : List (Op ℚ) := [.querySolar 3, .queryGrid 3, .querySolar 6, .addSolar 8 40 300, .addLoad 9 1 1, .querySolar 7, .querySolar 9]

/-- The same, but the solver's next query after the addition is already after the event. -/
def hastyOps : List (Op ℚ) := [.querySolar 3, .querySolar 6, .addSolar 8 40 300, .querySolar 9, .querySolar 9]

theorem C146_example : (∀ o ∈ tidyOps, o.underWay = true) ∧ Tidy exState.solar none false (tidyOps.filterMap (solarEdit exSpec)) ∧
    solarAnswers exCfg exSpec (resetCounters exState) tidyOps = [.ok ⟨50, 300⟩, .ok ⟨60, 310⟩, .ok ⟨60, 310⟩, .ok ⟨40, 300⟩] := by
  refine ⟨by decide, ?_, by decide +kernel⟩
  have h : tidyOps.filterMap (solarEdit exSpec) = [.ask 3, .ask 6, .put 8 ⟨40, 300⟩, .ask 7, .ask 9] := by
    decide +kernel
  have hl : exState.solar = [⟨2, ⟨50, 300⟩⟩, ⟨5, ⟨60, 310⟩⟩] := by decide +kernel
  have hs : StrictSorted exState.solar := (inv_reachable exState_reachable.reachable).solarS
  rw [h]
  refine ⟨by simp, by rw [hl]; decide, by rintro a ⟨⟩; norm_num, by rw [hl]; decide, ?_, ?_⟩
  · show (6 : ℚ) < 8; norm_num
  · intro l' hl'
    have : l' = [⟨2, ⟨50, 300⟩⟩, ⟨5, ⟨60, 310⟩⟩, ⟨8, ⟨40, 300⟩⟩] := by
      rw [isPut_unique hl' (isPut_addTimed hs _ _), hl]; decide +kernel
    subst this
    refine ⟨by simp; norm_num, by decide, by simp; norm_num, by decide, trivial⟩

/-- C146: an event added to an exhausted schedule is missed by the first query after it: at 9 s the event of 8 s is due, but the value shown is that of 5 s; the
next query, at the same time, shows it. -/
theorem C146_hasty_is_behind : (∀ o ∈ hastyOps, o.underWay = true) ∧
    solarAnswers exCfg exSpec (resetCounters exState) hastyOps = [.ok ⟨50, 300⟩, .ok ⟨60, 310⟩, .ok ⟨60, 310⟩, .ok ⟨40, 300⟩] ∧
    ¬ Correct (addSolar exSpec exState 8 40 300).1.solar ⟨100, 29815 / 100⟩ 9 ⟨60, 310⟩ := by
  refine ⟨by decide, by decide +kernel, ?_⟩
  have hl : (addSolar exSpec exState 8 40 300).1.solar = [⟨2, ⟨50, 300⟩⟩, ⟨5, ⟨60, 310⟩⟩, ⟨8, ⟨40, 300⟩⟩] := by decide +kernel
  rw [hl]
  rintro (⟨e, ⟨h1, _, h3⟩, h4⟩ | ⟨h1, _⟩)
  · have h5 := h3 ⟨8, ⟨40, 300⟩⟩ (by simp) (by norm_num)
    simp only [List.mem_cons, List.not_mem_nil, or_false] at h1
    rcases h1 with rfl | rfl | rfl
    · norm_num at h5
    · norm_num at h5
    · norm_num at h4
  · have := h1 ⟨2, ⟨50, 300⟩⟩ (by simp)
    norm_num at this

end Events
end PvDer
