import Verif.Lemmas.GridPlay
import Verif.Model.EventTools

/-!
# Properties C01–C11, C15: event schedules
-/

set_option linter.unusedSectionVars false

namespace PvDer
namespace Events

variable {K : Type} [Field K] [LinearOrder K]

/-- Class constants used in the concrete cases below (2π replaced by the rational 44/7). -/
def exCfg : Cfg ℚ := ⟨44/7, 1/100, true⟩
/-- Default specification used in the concrete cases below. -/
def exSpec : EvSpec ℚ := defaultSpec (44/7)
/-- A concrete history: two solar events, one of them overwritten, grid and load events, a removal, queries, a rejected add. -/
def exOps : List (Op ℚ) :=
  [.addSolar 5 80 300, .addSolar 2 50 300, .addSolar 5 60 310, .addGrid 3 (9/10) 1 60, .addGrid 1 1 0 59, .addGrid 2 1 0 61,
   .addLoad 4 10 2, .addLoad 1 5 0, .removeLoad (some 4) false, .queryGrid 2, .querySolar 3, .addSolar 7 101 300]
/-- The state reached by `exOps`. -/
def exState : St ℚ := run exCfg (init true true true) (exOps.map fun o => (exSpec, o))

theorem exState_reachable : ReachableUnder exCfg exSpec exState := ⟨true, true, true, exOps, rfl⟩

/-! ### C01 -/

/-- C01: in every reachable state each event list is strictly increasing in time. -/
theorem C01_lists_canonical {c : Cfg K} {s : St K} (h : Reachable c s) :
    StrictSorted s.solar ∧ StrictSorted s.grid ∧ StrictSorted s.load :=
  ⟨(inv_reachable h).solarS, (inv_reachable h).gridS, (inv_reachable h).loadS⟩

example : exState.solar.map (fun e => (e.T, e.v.Sinsol)) = [(2, 50), (5, 60)] ∧
    exState.grid.map Ev.T = [1, 2, 3] ∧ exState.load.map Ev.T = [1] := by decide +kernel

/-! ### C02 -/

/-- C02: under a fixed specification no history of calls stores an event outside the limits. -/
theorem C02_stored_within_limits {c : Cfg K} {sp : EvSpec K} {s : St K} (h : ReachableUnder c sp s) :
    (∀ e ∈ s.solar, sp.insolation.min ≤ e.v.Sinsol ∧ e.v.Sinsol ≤ sp.insolation.max ∧ 250 ≤ e.v.Tactual ∧ e.v.Tactual ≤ 375) ∧
    (∀ e ∈ s.grid, sp.voltage.min ≤ e.v.V ∧ e.v.V ≤ sp.voltage.max ∧ sp.freq.min ≤ e.v.f ∧ e.v.f ≤ sp.freq.max) ∧
    (∀ e ∈ s.load, 0 ≤ e.v.Zre) :=
  ⟨(limits_reachable h).2.solar, (limits_reachable h).2.grid, (limits_reachable h).2.load⟩

example : ReachableUnder exCfg exSpec exState ∧ exState.solar.length = 2 ∧ exState.grid.length = 3 :=
  ⟨exState_reachable, by decide +kernel⟩

/-! ### C03 -/

/-- C03 (schedules as maps): inserting `v` at `T` in a canonical schedule is exactly the map update. -/
theorem C03_map_update {α : Type} [DecidableEq α] {l : List (Ev K α)} (hs : StrictSorted l) (T : K) (v : α) (T' : K) (v' : α) :
    Holds (addTimed T v l) T' v' ↔ (T' = T ∧ v' = v) ∨ (T' ≠ T ∧ Holds l T' v') := by
  unfold Holds
  rw [mem_addTimed T v hs]
  simp only [Ev.mk.injEq]
  tauto

/-- C03 for `add_solar_event`. -/
theorem C03_add_solar {c : Cfg K} {s s' : St K} (h : Reachable c s) {sp : EvSpec K} {T S Ta : K}
    (hadd : addSolar sp s T S Ta = (s', .ok ())) :
    (∀ T' v, Holds s'.solar T' v ↔ (T' = T ∧ v = ⟨S, Ta⟩) ∨ (T' ≠ T ∧ Holds s.solar T' v)) ∧
      StrictSorted s'.solar ∧ s'.grid = s.grid ∧ s'.load = s.load := by
  have hi := (inv_reachable h).solarS
  unfold addSolar at hadd
  split at hadd
  · simp at hadd
  · split at hadd
    · simp at hadd
    · simp only [Prod.mk.injEq] at hadd
      rw [← hadd.1]
      exact ⟨fun T' v => C03_map_update hi T _ T' v, addTimed_sorted _ _ hi, rfl, rfl⟩

/-- C03 for `add_grid_event`. -/
theorem C03_add_grid {c : Cfg K} {s s' : St K} (h : Reachable c s) {sp : EvSpec K} {T V a f : K}
    (hadd : addGrid sp s T V a f = (s', .ok ())) :
    (∀ T' v, Holds s'.grid T' v ↔ (T' = T ∧ v = ⟨V, a, f⟩) ∨ (T' ≠ T ∧ Holds s.grid T' v)) ∧
      StrictSorted s'.grid ∧ s'.solar = s.solar ∧ s'.load = s.load := by
  have hi := (inv_reachable h).gridS
  rw [addGrid_ok hadd]
  exact ⟨fun T' v => C03_map_update hi T _ T' v, addTimed_sorted _ _ hi, rfl, rfl⟩

/-- C03 for `add_load_event`. -/
theorem C03_add_load {c : Cfg K} {s s' : St K} (h : Reachable c s) {T r i : K} (hadd : addLoad s T r i = (s', .ok ())) :
    (∀ T' v, Holds s'.load T' v ↔ (T' = T ∧ v = ⟨r, i⟩) ∨ (T' ≠ T ∧ Holds s.load T' v)) ∧
      StrictSorted s'.load ∧ s'.solar = s.solar ∧ s'.grid = s.grid := by
  have hi := (inv_reachable h).loadS
  unfold addLoad at hadd
  split at hadd
  · simp at hadd
  · simp only [Prod.mk.injEq] at hadd
    rw [← hadd.1]
    exact ⟨fun T' v => C03_map_update hi T _ T' v, addTimed_sorted _ _ hi, rfl, rfl⟩

example : (addSolar exSpec exState 2 70 300).2 = .ok () ∧
    ((addSolar exSpec exState 2 70 300).1.solar.map fun e => (e.T, e.v.Sinsol)) = [(2, 70), (5, 60)] := by decide +kernel

/-! ### C04 -/

/-- C04 for `add_solar_event`: accepted exactly when within limits; a rejection changes nothing. -/
theorem C04_add_solar (sp : EvSpec K) (s : St K) (T S Ta : K) :
    ((addSolar sp s T S Ta).2 = .ok () ↔
      (sp.insolation.min ≤ S ∧ S ≤ sp.insolation.max) ∧ (250 ≤ Ta ∧ Ta ≤ 375)) ∧
    ((addSolar sp s T S Ta).2 ≠ .ok () → addSolar sp s T S Ta = (s, .error .valueError)) := by
  unfold addSolar
  split_ifs with h1 h2
  · refine ⟨⟨by simp, fun h => ?_⟩, fun _ => rfl⟩
    rcases h1 with h1 | h1
    · exact absurd h.1.1 (not_le.2 h1)
    · exact absurd h.1.2 (not_le.2 h1)
  · refine ⟨⟨by simp, fun h => ?_⟩, fun _ => rfl⟩
    rcases h2 with h2 | h2
    · exact absurd h.2.2 (not_le.2 h2)
    · exact absurd h.2.1 (not_le.2 h2)
  · push Not at h1 h2
    exact ⟨⟨fun _ => ⟨h1, h2.2, h2.1⟩, fun _ => rfl⟩, fun h => absurd rfl h⟩

/-- C04 for `add_grid_event` (the angle is never a reason to reject). -/
theorem C04_add_grid (sp : EvSpec K) (s : St K) (T V a f : K) :
    ((addGrid sp s T V a f).2 = .ok () ↔
      (sp.voltage.min ≤ V ∧ V ≤ sp.voltage.max) ∧ (sp.freq.min ≤ f ∧ f ≤ sp.freq.max)) ∧
    ((addGrid sp s T V a f).2 ≠ .ok () → addGrid sp s T V a f = (s, .error .valueError)) := by
  unfold addGrid
  split_ifs with h1 h2
  · refine ⟨⟨by simp, fun h => ?_⟩, fun _ => rfl⟩
    rcases h1 with h1 | h1
    · exact absurd h.1.1 (not_le.2 h1)
    · exact absurd h.1.2 (not_le.2 h1)
  · refine ⟨⟨by simp, fun h => ?_⟩, fun _ => rfl⟩
    rcases h2 with h2 | h2
    · exact absurd h.2.1 (not_le.2 h2)
    · exact absurd h.2.2 (not_le.2 h2)
  · push Not at h1 h2
    exact ⟨⟨fun _ => ⟨h1, h2⟩, fun _ => rfl⟩, fun h => absurd rfl h⟩

/-- C04 for `add_load_event`. -/
theorem C04_add_load (s : St K) (T r i : K) :
    ((addLoad s T r i).2 = .ok () ↔ 0 ≤ r) ∧
    ((addLoad s T r i).2 ≠ .ok () → addLoad s T r i = (s, .error .valueError)) := by
  unfold addLoad
  split_ifs with h1
  · exact ⟨⟨by simp, fun h => absurd h (not_le.2 h1)⟩, fun _ => rfl⟩
  · exact ⟨⟨fun _ => not_lt.1 h1, fun _ => rfl⟩, fun h => absurd rfl h⟩

example : (addSolar exSpec exState 2 24 300).2 = .error .valueError ∧ (addSolar exSpec exState 2 25 375).2 = .ok () ∧
    (addGrid exSpec exState 2 (115/100) 9 62).2 = .ok () ∧ (addGrid exSpec exState 2 1 9 63).2 = .error .valueError := by
  decide +kernel

/-! ### C05 -/

/-- C05, grid and load: removal is exactly the map deletion, for every reachable schedule.
`_partial`: `remove_solar_event` does not have the property, see `C05_remove_solar_fails`. -/
theorem C05_remove_partial {c : Cfg K} {s : St K} (h : Reachable c s) (T : K) :
    ((removeGrid s T).2 = .ok () ∧ (∀ T' v, Holds (removeGrid s T).1.grid T' v ↔ T' ≠ T ∧ Holds s.grid T' v) ∧
      (removeGrid s T).1.solar = s.solar ∧ (removeGrid s T).1.load = s.load) ∧
    ((removeLoad s (some T) false).2 = .ok () ∧
      (∀ T' v, Holds (removeLoad s (some T) false).1.load T' v ↔ T' ≠ T ∧ Holds s.load T' v) ∧
      (removeLoad s (some T) false).1.solar = s.solar ∧ (removeLoad s (some T) false).1.grid = s.grid) := by
  have hi := inv_reachable h
  refine ⟨⟨rfl, ?_, rfl, rfl⟩, ⟨rfl, ?_, rfl, rfl⟩⟩
  · intro T' v
    show (⟨T', v⟩ : Ev K (GridVal K)) ∈ removeAt T s.grid ↔ _
    rw [mem_removeAt T hi.gridS]; exact and_comm
  · intro T' v
    show (⟨T', v⟩ : Ev K (LoadVal K)) ∈ removeAt T s.load ↔ _
    rw [mem_removeAt T hi.loadS]; exact and_comm

/-- C05 is false for solar events: the call always raises and never removes the event. -/
theorem C05_remove_solar_fails (s : St K) (T : K) : removeSolar s (some T) false = (s, .error .nameError) := rfl

/-- …and clearing all solar or load events always raises `AttributeError`, leaving the list empty. -/
theorem C05_remove_all_raises (s : St K) (T : Option K) :
    (removeSolar s T true).2 = .error .attributeError ∧ (removeSolar s T true).1.solar = [] ∧
    (removeLoad s T true).2 = .error .attributeError ∧ (removeLoad s T true).1.load = [] := by
  cases T <;> exact ⟨rfl, rfl, rfl, rfl⟩

example : ((removeGrid exState 2).1.grid.map Ev.T) = [1, 3] ∧ Holds exState.solar 5 ⟨60, 310⟩ ∧
    Holds (removeSolar exState (some 5) false).1.solar 5 ⟨60, 310⟩ := by
  unfold Holds; decide +kernel

/-! ### C06 -/

/-- Calls that clear a whole list (and raise before the totals are recomputed). -/
def Op.clears : Op K → Bool
  | .removeSolar none _ => true
  | .removeSolar _ true => true
  | .removeLoad none _ => true
  | .removeLoad _ true => true
  | _ => false

/-- The totals agree with the lists. -/
def TotalsOk (s : St K) : Prop :=
  s.solarTotal = s.solar.length ∧ s.gridTotal = s.grid.length ∧ s.loadTotal = s.load.length ∧
    s.total = (s.solar.length : Int) + s.grid.length + s.load.length

theorem totalsOk_updateTotals (s : St K) : TotalsOk (updateTotals s) := ⟨rfl, rfl, rfl, rfl⟩

theorem totalsOk_addGrid {sp : EvSpec K} {s : St K} (h : TotalsOk s) (T V a f : K) : TotalsOk (addGrid sp s T V a f).1 := by
  unfold addGrid
  split_ifs
  · exact h
  · exact h
  · exact totalsOk_updateTotals _

theorem totalsOk_step {c : Cfg K} {sp : EvSpec K} {s : St K} (h : TotalsOk s) (o : Op K) (ho : o.clears = false) :
    TotalsOk (step c sp s o) := by
  cases o with
  | addSolar T S Ta =>
    simp only [step]; unfold addSolar
    split_ifs
    · exact h
    · exact h
    · exact totalsOk_updateTotals _
  | addGrid T V a f => exact totalsOk_addGrid h _ _ _ _
  | addLoad T r i =>
    simp only [step]; unfold addLoad
    split_ifs
    · exact h
    · exact totalsOk_updateTotals _
  | removeSolar T all =>
    cases T <;> cases all <;> simp [Op.clears] at ho
    exact h
  | removeGrid T => exact totalsOk_updateTotals _
  | removeLoad T all =>
    cases T <;> cases all <;> simp [Op.clears] at ho
    exact totalsOk_updateTotals _
  | querySolar t => simp only [step]; unfold solarEvents; split_ifs <;> exact h
  | queryGrid t =>
    exact gridEvents_preserves TotalsOk c sp s t h (fun T V a f => totalsOk_addGrid h T V a f) (fun s' h' _ => h')
  | queryLoad t => simp only [step]; unfold loadEvents; split_ifs <;> exact h
  | reset => exact h
  | setEnable a b d => exact h

/-- C06 for every history that never clears a whole list; the specification may change between calls.
`_partial`: with a clearing call the totals are stale, see `C06_totals_stale`. -/
theorem C06_totals_partial {c : Cfg K} (a b d : Bool) (hist : List (EvSpec K × Op K)) (hc : ∀ x ∈ hist, x.2.clears = false) :
    let s := run c (init a b d) hist
    s.solarTotal = s.solar.length ∧ s.gridTotal = s.grid.length ∧ s.loadTotal = s.load.length ∧
      s.total = (s.solar.length : Int) + s.grid.length + s.load.length := by
  have h0 : TotalsOk (init a b d : St K) := ⟨rfl, rfl, rfl, rfl⟩
  show TotalsOk (run c (init a b d) hist)
  generalize (init a b d : St K) = s at h0
  induction hist generalizing s with
  | nil => exact h0
  | cons x xs ih => exact ih (fun y hy => hc y (by simp [hy])) _ (totalsOk_step h0 x.2 (hc x (by simp)))

/-- C06 is false in general: after clearing the solar events the total still counts them. -/
theorem C06_totals_stale : ∃ s : St ℚ, Reachable exCfg s ∧ s.solar = [] ∧ s.solarTotal = 2 :=
  ⟨step exCfg exSpec exState (.removeSolar none true),
    ⟨true, true, true, (exOps ++ [Op.removeSolar none true]).map (fun o => (exSpec, o)), by
      rw [List.map_append]; unfold run exState run; rw [List.foldl_append]; rfl⟩, rfl, by decide +kernel⟩

/-- What always holds, for every history: the grid total is right, and the solar and load totals are right unless the list is empty. -/
theorem C06_totals_nonempty {c : Cfg K} {s : St K} (h : Reachable c s) :
    s.gridTotal = s.grid.length ∧ (s.solar ≠ [] → s.solarTotal = s.solar.length) ∧ (s.load ≠ [] → s.loadTotal = s.load.length) :=
  ⟨(inv_reachable h).gridT, (inv_reachable h).solarT, (inv_reachable h).loadT⟩

example : ∀ x ∈ exOps.map (fun o => (exSpec, o)), x.2.clears = false := by
  simp [exOps, Op.clears]

/-! ### C07 -/

theorem solarPlay_eq (sp : EvSpec K) (s : St K) (hen : s.solarEnable = true) (ts : List K) :
    solarPlay sp s ts = playSeq s.solar s.solarTotal s.solarCtr ⟨sp.insolation.dflt, TactualDefault⟩ ts := by
  induction ts generalizing s with
  | nil => rfl
  | cons t ts ih =>
    have h : solarEvents sp s t = ({ s with solarCtr := (playback s.solar s.solarTotal s.solarCtr ⟨sp.insolation.dflt, TactualDefault⟩ t).1 },
        (playback s.solar s.solarTotal s.solarCtr ⟨sp.insolation.dflt, TactualDefault⟩ t).2) := by
      unfold solarEvents; rw [if_pos hen]
    unfold solarPlay playSeq
    rw [h]
    simp only
    congr 1
    exact ih _ hen

theorem loadPlay_eq (s : St K) (hen : s.loadEnable = true) (ts : List K) :
    loadPlay s ts = playSeq s.load s.loadTotal s.loadCtr ZloadDefault ts := by
  induction ts generalizing s with
  | nil => rfl
  | cons t ts ih =>
    have h : loadEvents s t = ({ s with loadCtr := (playback s.load s.loadTotal s.loadCtr ZloadDefault t).1 },
        (playback s.load s.loadTotal s.loadCtr ZloadDefault t).2) := by
      unfold loadEvents; rw [if_pos hen]
    unfold loadPlay playSeq
    rw [h]
    simp only
    congr 1
    exact ih _ hen

theorem playSeq_reset_dense {α : Type} {l : List (Ev K α)} (hs : StrictSorted l) {total : Int} (hT : l ≠ [] → total = l.length) (dflt : α)
    (ts : List K) (hd : Dense l none ts) :
    List.Forall₂ (fun t r => ∃ v, r = Except.ok v ∧ Correct l dflt t v) ts (playSeq l total 0 dflt ts) := by
  by_cases hne : l = []
  · subst hne
    refine (playSeq_nil_list total 0 dflt ts).imp ?_
    intro t r h
    exact ⟨dflt, h, Or.inr ⟨by simp, rfl⟩⟩
  · have h := playSeq_dense hs hne dflt none ts hd
    have h0 : min ((l.length : Int) - 1) ((posOf l (none : Option K) : Nat) : Int) = 0 := by
      have : 0 < l.length := List.length_pos_of_ne_nil hne
      simp only [posOf]; omega
    rw [h0] at h
    rw [hT hne]
    exact h

/-- C07, solar: from reset counters, along every dense forward query sequence of any length every query returns the value of the
latest event not after the query time (the default before the first). -/
theorem C07_solar_playback {c : Cfg K} {s : St K} (h : Reachable c s) (hen : s.solarEnable = true) (sp : EvSpec K) (ts : List K)
    (hd : Dense s.solar none ts) :
    List.Forall₂ (fun t r => ∃ v, r = Except.ok v ∧ Correct s.solar ⟨sp.insolation.dflt, 29815 / 100⟩ t v) ts
      (solarPlay sp (resetCounters s) ts) := by
  have hi := inv_reachable h
  rw [solarPlay_eq sp (resetCounters s) hen ts]
  exact playSeq_reset_dense hi.solarS hi.solarT _ ts hd

/-- C07, load. -/
theorem C07_load_playback {c : Cfg K} {s : St K} (h : Reachable c s) (hen : s.loadEnable = true) (ts : List K)
    (hd : Dense s.load none ts) :
    List.Forall₂ (fun t r => ∃ v, r = Except.ok v ∧ Correct s.load ⟨10000000, 0⟩ t v) ts (loadPlay (resetCounters s) ts) := by
  have hi := inv_reachable h
  rw [loadPlay_eq (resetCounters s) hen ts]
  exact playSeq_reset_dense hi.loadS hi.loadT _ ts hd

theorem playSeq_past {α : Type} {l : List (Ev K α)} (hs : StrictSorted l) {total : Int} (hT : l ≠ [] → total = l.length) (dflt : α)
    (ts : List K) (hsort : ts.Pairwise (· ≤ ·)) :
    List.Forall₂ (fun t r => ∃ v, r = Except.ok v ∧ (v = dflt ∨ ∃ e ∈ l, e.T ≤ t ∧ v = e.v)) ts (playSeq l total 0 dflt ts) := by
  by_cases hne : l = []
  · subst hne
    refine (playSeq_nil_list total 0 dflt ts).imp ?_
    intro t r h
    exact ⟨dflt, h, Or.inl rfl⟩
  · have h := playSeq_forward hs hne dflt 0 ts hsort (fun _ _ => Nat.zero_le _)
    have h0 : min ((l.length : Int) - 1) ((0 : Nat) : Int) = 0 := by
      have : 0 < l.length := List.length_pos_of_ne_nil hne
      omega
    rw [h0] at h
    rw [hT hne]
    refine h.imp ?_
    rintro t r ⟨j', hj', rfl⟩
    refine ⟨_, rfl, ?_⟩
    rcases Nat.eq_zero_or_pos j' with h0 | h0
    · left; rw [h0]; rfl
    · obtain ⟨i, rfl⟩ : ∃ i, j' = i + 1 := ⟨j' - 1, by omega⟩
      have hil : i < l.length := by have := cnt_le l t; omega
      right
      exact ⟨l[i], List.getElem_mem hil, (getElem_le_iff hs t i hil).2 (by omega), by simp [valAt, List.getElem?_eq_getElem hil]⟩

/-- C07, arbitrary jumps: along any forward query sequence no query ever raises or returns the value of a future event. -/
theorem C07_no_future {c : Cfg K} {s : St K} (h : Reachable c s) (hen : s.solarEnable = true) (hen' : s.loadEnable = true)
    (sp : EvSpec K) (ts : List K) (hsort : ts.Pairwise (· ≤ ·)) :
    List.Forall₂ (fun t r => ∃ v, r = Except.ok v ∧ (v = ⟨sp.insolation.dflt, 29815 / 100⟩ ∨ ∃ e ∈ s.solar, e.T ≤ t ∧ v = e.v)) ts
      (solarPlay sp (resetCounters s) ts) ∧
    List.Forall₂ (fun t r => ∃ v, r = Except.ok v ∧ (v = ⟨10000000, 0⟩ ∨ ∃ e ∈ s.load, e.T ≤ t ∧ v = e.v)) ts
      (loadPlay (resetCounters s) ts) := by
  have hi := inv_reachable h
  rw [solarPlay_eq sp (resetCounters s) hen ts, loadPlay_eq (resetCounters s) hen' ts]
  exact ⟨playSeq_past hi.solarS hi.solarT _ ts hsort, playSeq_past hi.loadS hi.loadT _ ts hsort⟩

/-- The lag of a schedule disappears: after any forward queries up to `t`, one query per entry at `t` reaches the correct value. -/
theorem playSeq_catchup {α : Type} {l : List (Ev K α)} (hs : StrictSorted l) (hne : l ≠ []) (dflt : α) (t : K) (m : Nat) (hm : l.length ≤ m)
    (ts : List K) (hsort : ts.Pairwise (· ≤ ·)) (hle : ∀ u ∈ ts, u ≤ t) :
    ∀ j : Nat, (∀ u ∈ ts, j ≤ cnt l u) → j ≤ cnt l t →
    ∃ v, (playSeq l (l.length : Int) (min ((l.length : Int) - 1) (j : Int)) dflt (ts ++ List.replicate m t)).getLast? = some (.ok v) ∧
      Correct l dflt t v := by
  induction ts with
  | nil =>
    intro j _ hj
    have hpos : 0 < l.length := List.length_pos_of_ne_nil hne
    have hlen : ∀ (us : List K) (c : Int), (playSeq l (l.length : Int) c dflt us).length = us.length := by
      intro us
      induction us with
      | nil => intro c; rfl
      | cons u us ih => intro c; simp [playSeq, ih]
    refine ⟨valAt l dflt (cnt l t), ?_, correct_valAt hs dflt t⟩
    rw [List.getLast?_eq_getElem?, List.nil_append, hlen, List.length_replicate,
      playSeq_repeat hs hne dflt j t hj m (m - 1) (by omega)]
    have := cnt_le l t
    rw [show min (cnt l t) (j + 1 + (m - 1)) = cnt l t by omega]
  | cons u us ih =>
    intro j hj hjt
    rw [List.pairwise_cons] at hsort
    have hu := hj u (by simp)
    have hut := cnt_mono l (hle u (by simp))
    rw [List.cons_append]
    unfold playSeq
    rw [playback_step hs hne dflt u j hu]
    have hne' : playSeq l (l.length : Int) (min ((l.length : Int) - 1) ((min (cnt l u) (j + 1) : Nat) : Int)) dflt (us ++ List.replicate m t) ≠ [] := by
      have hpos : 0 < l.length := List.length_pos_of_ne_nil hne
      obtain ⟨m', rfl⟩ : ∃ m', m = m' + 1 := ⟨m - 1, by omega⟩
      cases us <;> simp [playSeq, List.replicate_succ]
    rw [List.getLast?_cons, List.getLast?_eq_getLast_of_ne_nil hne'] 
    have := ih hsort.2 (fun x hx => hle x (by simp [hx])) (min (cnt l u) (j + 1))
      (fun x hx => le_trans (min_le_left _ _) (cnt_mono l (hsort.1 x hx))) (le_trans (min_le_left _ _) hut)
    rw [List.getLast?_eq_getLast_of_ne_nil hne'] at this
    simpa using this

/-- C07, lag: whatever forward queries were made before, repeating the query at `t` as often as there are events gives the correct value. -/
theorem C07_solar_catchup {c : Cfg K} {s : St K} (h : Reachable c s) (hen : s.solarEnable = true) (sp : EvSpec K) (hne : s.solar ≠ [])
    (ts : List K) (hsort : ts.Pairwise (· ≤ ·)) (t : K) (hle : ∀ u ∈ ts, u ≤ t) (m : Nat) (hm : s.solar.length ≤ m) :
    ∃ v, (solarPlay sp (resetCounters s) (ts ++ List.replicate m t)).getLast? = some (.ok v) ∧
      Correct s.solar ⟨sp.insolation.dflt, 29815 / 100⟩ t v := by
  have hi := inv_reachable h
  rw [solarPlay_eq sp (resetCounters s) hen]
  have := playSeq_catchup hi.solarS hne ⟨sp.insolation.dflt, TactualDefault⟩ t m hm ts hsort hle 0 (fun _ _ => Nat.zero_le _) (Nat.zero_le _)
  have h0 : min ((s.solar.length : Int) - 1) ((0 : Nat) : Int) = 0 := by
    have : 0 < s.solar.length := List.length_pos_of_ne_nil hne
    omega
  rw [h0] at this
  show ∃ v, (playSeq s.solar s.solarTotal 0 _ _).getLast? = _ ∧ _
  rw [hi.solarT hne]
  exact this

/-- C07, lag, for load events. -/
theorem C07_load_catchup {c : Cfg K} {s : St K} (h : Reachable c s) (hen : s.loadEnable = true) (hne : s.load ≠ [])
    (ts : List K) (hsort : ts.Pairwise (· ≤ ·)) (t : K) (hle : ∀ u ∈ ts, u ≤ t) (m : Nat) (hm : s.load.length ≤ m) :
    ∃ v, (loadPlay (resetCounters s) (ts ++ List.replicate m t)).getLast? = some (.ok v) ∧ Correct s.load ⟨10000000, 0⟩ t v := by
  have hi := inv_reachable h
  rw [loadPlay_eq (resetCounters s) hen]
  have := playSeq_catchup hi.loadS hne ⟨10000000, 0⟩ t m hm ts hsort hle 0 (fun _ _ => Nat.zero_le _) (Nat.zero_le _)
  have h0 : min ((s.load.length : Int) - 1) ((0 : Nat) : Int) = 0 := by
    have : 0 < s.load.length := List.length_pos_of_ne_nil hne
    omega
  rw [h0] at this
  show ∃ v, (playSeq s.load s.loadTotal 0 _ _).getLast? = _ ∧ _
  rw [hi.loadT hne]
  exact this

/-- Without density C07 fails: jumping over both events of a two-event schedule returns the first event's value. -/
theorem C07_jump_lags : solarPlay exSpec (resetCounters exState) [10, 10] = [.ok ⟨50, 300⟩, .ok ⟨60, 310⟩] := by decide +kernel

example : Dense exState.solar none [0, 2, 3, 3, 5, 9] := by
  have : exState.solar = [⟨2, ⟨50, 300⟩⟩, ⟨5, ⟨60, 310⟩⟩] := by decide +kernel
  rw [this]
  simp only [Dense, AfterPrev, List.mem_cons, List.not_mem_nil, or_false]
  norm_num
  simp
example : solarPlay exSpec (resetCounters exState) [0, 2, 3, 5] = [.ok ⟨100, 29815/100⟩, .ok ⟨50, 300⟩, .ok ⟨50, 300⟩, .ok ⟨60, 310⟩] := by
  decide +kernel

/-! ### C08, C09 -/

theorem limits_resetCounters {sp : EvSpec K} {s : St K} (h : Limits sp s) : Limits sp (resetCounters s) := ⟨h.solar, h.grid, h.load⟩

theorem gridPlay_nil (c : Cfg K) (sp : EvSpec K) (s : St K) (h : s.grid = []) (hen : s.gridEnable = true) (ts : List K) :
    List.Forall₂ (fun _ r => r = Except.ok (gridDefault sp)) ts (gridPlay c sp s ts) := by
  induction ts with
  | nil => exact List.Forall₂.nil
  | cons t ts ih =>
    have he : gridEvents c sp s t = (s, .ok (gridDefault sp)) := by
      unfold gridEvents
      rw [h, hen]
    unfold gridPlay
    rw [he]
    exact List.Forall₂.cons rfl ih

/-- C08: from reset counters, along every dense forward query sequence, voltage magnitude and frequency of every result are those of
the latest grid event (the defaults before the first). -/
theorem C08_grid_playback {c : Cfg K} (hov : c.overrideAngle = true) {sp : EvSpec K} {s : St K} (h : ReachableUnder c sp s)
    (hen : s.gridEnable = true) (ts : List K)
    (hd : Dense (s.grid.map fun e => (⟨e.T, (e.v.V, e.v.f)⟩ : Ev K (K × K))) none ts) :
    List.Forall₂ (fun t r => ∃ v : GridVal K, r = Except.ok v ∧
        Correct (s.grid.map fun e => (⟨e.T, (e.v.V, e.v.f)⟩ : Ev K (K × K))) (sp.voltage.dflt, sp.freq.dflt) t (v.V, v.f)) ts
      (gridPlay c sp (resetCounters s) ts) := by
  obtain ⟨hi, hl⟩ := limits_reachable h
  by_cases hne : s.grid = []
  · refine (gridPlay_nil c sp (resetCounters s) hne hen ts).imp ?_
    intro t r hr
    exact ⟨_, hr, Or.inr ⟨by simp [hne], rfl⟩⟩
  · have hne' : noAngle s.grid ≠ [] := by simpa [noAngle] using hne
    apply gridPlay_dense hov (noAngle s.grid) hne' ts none hd (resetCounters s) (inv_step (c := c) (sp := sp) hi .reset)
      (limits_resetCounters hl) hen rfl
    have : 0 < s.grid.length := List.length_pos_of_ne_nil hne
    simp only [posOf, resetCounters]
    omega

/-- C09: with the angle override, along every query sequence (forward or not) inside the override window the angle returned is
`default + 2π·(f - f_default)·del_t` where `f` is the frequency returned with it: user-supplied angles never appear and the result does
not depend on the path of frequencies.  (No density is needed.) -/
theorem C09_grid_angle [IsStrictOrderedRing K] {c : Cfg K} (hov : c.overrideAngle = true) {sp : EvSpec K} {s : St K} (h : ReachableUnder c sp s)
    (hen : s.gridEnable = true) (hne : s.grid ≠ []) (ts : List K) (hw : ∀ t ∈ ts, ∃ e ∈ s.grid, t < e.T + 3 / 1000) :
    List.Forall₂ (fun _ r => ∃ v : GridVal K, r = Except.ok v ∧
        v.ang = sp.angle.dflt + c.twoPi * (v.f - sp.freq.dflt) * c.delT) ts
      (gridPlay c sp (resetCounters s) ts) := by
  obtain ⟨hi, hl⟩ := limits_reachable h
  have hne' : noAngle s.grid ≠ [] := by simpa [noAngle] using hne
  have hpos : 0 < s.grid.length := List.length_pos_of_ne_nil hne
  apply gridPlay_angle hov (noAngle s.grid) hne' ts _ (resetCounters s) (inv_step (c := c) (sp := sp) hi .reset)
      (limits_resetCounters hl) hen rfl
  · show (0 : Int) < _; exact_mod_cast hpos
  · intro i hi hc
    simp only [resetCounters] at hc
    omega
  · intro t ht
    obtain ⟨e, he, hlt⟩ := hw t ht
    exact ⟨_, List.mem_map_of_mem (f := fun e : Ev K (GridVal K) => (⟨e.T, (e.v.V, e.v.f)⟩ : Ev K (K × K))) he, hlt⟩

/-- Outside the override window (3 ms after the last event) C09 fails: an event first reached then is returned with the user's angle. -/
theorem C09_user_angle_after_window :
    gridPlay exCfg exSpec (step exCfg exSpec (init true true true) (.addGrid 1 1 (7/10) 60)) [2] = [.ok ⟨1, 7/10, 60⟩] := by decide +kernel

example : ReachableUnder exCfg exSpec exState ∧ exState.grid.length = 3 ∧
    gridPlay exCfg exSpec (resetCounters exState) [0, 1, 2, 3] =
      [.ok ⟨1, 0, 60⟩, .ok ⟨1, 44/7 * (-1) * (1/100), 59⟩, .ok ⟨1, 44/7 * 1 * (1/100), 61⟩, .ok ⟨9/10, 0, 60⟩] :=
  ⟨exState_reachable, by decide +kernel⟩

/-! ### C10 -/

theorem gridEvents_ok {c : Cfg K} (hov : c.overrideAngle = true) {sp : EvSpec K} {s : St K} (hi : Inv s) (hl : Limits sp s)
    (hc : s.gridCtr = 0 ∨ s.gridCtr < s.grid.length) (t : K) : ∃ v, (gridEvents c sp s t).2 = .ok v := by
  by_cases hen : s.gridEnable = true
  · by_cases hne : s.grid = []
    · have : gridEvents c sp s t = (s, .ok (gridDefault sp)) := by unfold gridEvents; rw [hne, hen]
      rw [this]; exact ⟨_, rfl⟩
    · have hpos : 0 < s.grid.length := List.length_pos_of_ne_nil hne
      obtain ⟨n, hn, hn0, hcases⟩ := gridEvents_cases hov hi hl hen hne (by omega) t
      rcases hcases with ⟨_, _, he⟩ | ⟨_, _, e, _, he⟩ | ⟨_, _, he⟩ | ⟨_, _, old, _, he⟩ <;> rw [he] <;> exact ⟨_, rfl⟩
  · have : gridEvents c sp s t = (s, .ok (gridDefault sp)) := by
      unfold gridEvents
      simp only [Bool.not_eq_true] at hen
      rw [hen]
    rw [this]; exact ⟨_, rfl⟩

/-- C10: in every state reached (under a fixed specification) without removals, every query at every time returns a value. -/
theorem C10_queries_do_not_fail {c : Cfg K} (hov : c.overrideAngle = true) {sp : EvSpec K} (a b d : Bool) (ops : List (Op K))
    (hno : ∀ o ∈ ops, o.isRemoval = false) (t : K) :
    let s := run c (init a b d) (ops.map fun o => (sp, o))
    (∃ v, (solarEvents sp s t).2 = .ok v) ∧ (∃ v, (gridEvents c sp s t).2 = .ok v) ∧ (∃ v, (loadEvents s t).2 = .ok v) := by
  intro s
  have hr : ReachableUnder c sp s := ⟨a, b, d, ops, rfl⟩
  obtain ⟨hi, hl⟩ := limits_reachable hr
  have ht : Tight s := by
    have h0 : Inv (init a b d : St K) ∧ Tight (init a b d : St K) := ⟨inv_init a b d, ⟨Or.inl rfl, Or.inl rfl, Or.inl rfl⟩⟩
    show Tight (run c (init a b d) (ops.map fun o => (sp, o)))
    clear hr hi hl s
    generalize (init a b d : St K) = s at h0
    induction ops generalizing s with
    | nil => exact h0.2
    | cons o os ih =>
      exact ih (fun x hx => hno x (by simp [hx])) _ ⟨inv_step h0.1 o, tight_step h0.1 h0.2 o (hno o (by simp))⟩
  have aux : ∀ {α : Type} (l : List (Ev K α)) (total ctr : Int) (dflt : α), StrictSorted l → (l ≠ [] → total = l.length) → 0 ≤ ctr →
      (ctr = 0 ∨ ctr < l.length) → ∃ v, (playback l total ctr dflt t).2 = .ok v := by
    intro α l total ctr dflt hs hT h0 hc
    by_cases hne : l = []
    · subst hne; exact ⟨dflt, rfl⟩
    · have hpos : 0 < l.length := List.length_pos_of_ne_nil hne
      obtain ⟨c', v, hp, _, _⟩ := playback_ok hs ctr h0 (fun _ => by omega) dflt t
      rw [hT hne, hp]; exact ⟨v, rfl⟩
  refine ⟨?_, gridEvents_ok hov hi hl ht.grid t, ?_⟩
  · unfold solarEvents
    split
    · exact aux _ _ _ _ hi.solarS hi.solarT hi.solarC ht.solar
    · exact ⟨_, rfl⟩
  · unfold loadEvents
    split
    · exact aux _ _ _ _ hi.loadS hi.loadT hi.loadC ht.load
    · exact ⟨_, rfl⟩

/-- After a removal C10 fails: the counter points past the end of the list. -/
theorem C10_removal_breaks_query :
    (loadEvents (run exCfg (init true true true : St ℚ)
      ([.addLoad 1 1 0, .addLoad 2 2 0, .queryLoad 1, .removeLoad (some 2) false].map fun o => (exSpec, o))) 5).2
      = .error .indexError ∧
    (gridEvents exCfg exSpec (run exCfg (init true true true : St ℚ)
      ([.addGrid 1 1 0 60, .addGrid 2 1 0 61, .queryGrid 1, .removeGrid 2].map fun o => (exSpec, o))) 5).2
      = .error .indexError := by decide +kernel

example : ∀ o ∈ ([.addSolar 1 50 300, .addGrid 1 1 0 60, .queryGrid 1, .querySolar 4, .reset] : List (Op ℚ)), o.isRemoval = false := by
  simp [Op.isRemoval]

/-! ### C11 -/

theorem gridEvents_mem {c : Cfg K} (hov : c.overrideAngle = true) (sp : EvSpec K) (s : St K) (t : K) (v : GridVal K)
    (h : (gridEvents c sp s t).2 = .ok v) : (v.V = sp.voltage.dflt ∧ v.f = sp.freq.dflt) ∨ ∃ e ∈ s.grid, v.V = e.v.V ∧ v.f = e.v.f := by
  have hd : ∀ w : GridVal K, (Except.ok (gridDefault sp) : Except Err (GridVal K)) = .ok w → w.V = sp.voltage.dflt ∧ w.f = sp.freq.dflt := by
    intro w hw
    simp only [Except.ok.injEq] at hw
    rw [← hw]; exact ⟨rfl, rfl⟩
  unfold gridEvents at h
  split at h
  · exact Or.inl (hd v h)
  · exact Or.inl (hd v h)
  · rename_i e0 rest _ hg
    split at h
    · simp at h
    · rename_i ec hec
      split at h
      · exact Or.inl (hd v h)
      · split at h
        · split at h
          · simp at h
          · rename_i ep hep
            simp only [Except.ok.injEq] at h
            right; exact ⟨ep, pyGet_mem hep, by rw [h], by rw [h]⟩
        · split at h
          · split at h
            · split at h
              · simp at h
              · simp only at h
                split at h
                · simp at h
                · simp only [Except.ok.injEq] at h
                  right; exact ⟨ec, pyGet_mem hec, by rw [← h], by rw [← h]⟩
            · simp only [Except.ok.injEq] at h
              right; exact ⟨ec, pyGet_mem hec, by rw [h], by rw [h]⟩
          · simp at h

/-- C11: in every state whatsoever (removals allowed) and at every time, a query that returns delivers the default or (the values of) a
stored event; hence with a sane specification (defaults inside the limits) everything delivered is within the limits. -/
theorem C11_results_from_schedule {c : Cfg K} (hov : c.overrideAngle = true) (sp : EvSpec K) (s : St K) (t : K) :
    (∀ v, (solarEvents sp s t).2 = .ok v → v = ⟨sp.insolation.dflt, 29815 / 100⟩ ∨ ∃ T, Holds s.solar T v) ∧
    (∀ v, (gridEvents c sp s t).2 = .ok v →
      (v.V = sp.voltage.dflt ∧ v.f = sp.freq.dflt) ∨ ∃ T w, Holds s.grid T w ∧ v.V = w.V ∧ v.f = w.f) ∧
    (∀ v, (loadEvents s t).2 = .ok v → v = ⟨10000000, 0⟩ ∨ ∃ T, Holds s.load T v) := by
  refine ⟨?_, ?_, ?_⟩
  · intro v hv
    unfold solarEvents at hv
    split at hv
    · rcases playback_mem _ _ _ _ _ _ hv with h | ⟨e, he, rfl⟩
      · exact Or.inl h
      · exact Or.inr ⟨e.T, he⟩
    · left; simpa [TactualDefault] using hv.symm
  · intro v hv
    rcases gridEvents_mem hov sp s t v hv with h | ⟨e, he, h1, h2⟩
    · exact Or.inl h
    · exact Or.inr ⟨e.T, e.v, he, h1, h2⟩
  · intro v hv
    unfold loadEvents at hv
    split at hv
    · rcases playback_mem _ _ _ _ _ _ hv with h | ⟨e, he, rfl⟩
      · exact Or.inl h
      · exact Or.inr ⟨e.T, he⟩
    · left; simpa [ZloadDefault] using hv.symm

/-- C11, limits form. -/
theorem C11_results_within_limits [IsStrictOrderedRing K] {c : Cfg K} (hov : c.overrideAngle = true) {sp : EvSpec K} {s : St K} (h : ReachableUnder c sp s)
    (hi : sp.insolation.min ≤ sp.insolation.dflt ∧ sp.insolation.dflt ≤ sp.insolation.max)
    (hv : sp.voltage.min ≤ sp.voltage.dflt ∧ sp.voltage.dflt ≤ sp.voltage.max)
    (hf : sp.freq.min ≤ sp.freq.dflt ∧ sp.freq.dflt ≤ sp.freq.max) (t : K) :
    (∀ v, (solarEvents sp s t).2 = .ok v → sp.insolation.min ≤ v.Sinsol ∧ v.Sinsol ≤ sp.insolation.max ∧ 250 ≤ v.Tactual ∧ v.Tactual ≤ 375) ∧
    (∀ v, (gridEvents c sp s t).2 = .ok v → sp.voltage.min ≤ v.V ∧ v.V ≤ sp.voltage.max ∧ sp.freq.min ≤ v.f ∧ v.f ≤ sp.freq.max) ∧
    (∀ v, (loadEvents s t).2 = .ok v → 0 ≤ v.Zre) := by
  obtain ⟨h1, h2, h3⟩ := C11_results_from_schedule hov sp s t
  obtain ⟨l1, l2, l3⟩ := C02_stored_within_limits h
  refine ⟨fun v hq => ?_, fun v hq => ?_, fun v hq => ?_⟩
  · rcases h1 v hq with rfl | ⟨T, hT⟩
    · refine ⟨hi.1, hi.2, ?_, ?_⟩ <;> norm_num
    · exact l1 _ hT
  · rcases h2 v hq with ⟨e1, e2⟩ | ⟨T, w, hT, e1, e2⟩
    · rw [e1, e2]; exact ⟨hv.1, hv.2, hf.1, hf.2⟩
    · rw [e1, e2]; exact l2 _ hT
  · rcases h3 v hq with rfl | ⟨T, hT⟩
    · norm_num
    · exact l3 _ hT

example : ∃ v, (gridEvents exCfg exSpec exState 3).2 = .ok v ∧ v.f = 61 :=
  ⟨⟨1, 44/700, 61⟩, by decide +kernel⟩
example : ∃ v, (solarEvents exSpec exState 3).2 = .ok v := ⟨⟨50, 300⟩, by decide +kernel⟩

/-! ### C15 -/

/-- C15: in every state the merged list is a rearrangement of the three lists (each event tagged with its kind), ordered by time. -/
theorem C15_merged_complete_ordered (s : St K) :
    (merged s).Perm (s.solar.map (fun e => ⟨e.T, .inl e.v⟩) ++ s.grid.map (fun e => ⟨e.T, .inr (.inl e.v)⟩)
        ++ s.load.map (fun e => ⟨e.T, .inr (.inr e.v)⟩)) ∧
    (merged s).Pairwise (fun a b => a.T ≤ b.T) :=
  ⟨sortByT_perm _, sortByT_pairwise _⟩

example : (merged exState).map Ev.T = [1, 1, 2, 2, 3, 5] := by decide +kernel

end Events
end PvDer
