import Verif.Model.Events
import Verif.Lemmas.Playback

set_option linter.unusedSectionVars false

namespace PvDer
namespace Events

variable {K : Type} [Field K] [LinearOrder K]

/-- Structural invariant of every reachable state. -/
structure Inv (s : St K) : Prop where
  solarS : StrictSorted s.solar
  gridS : StrictSorted s.grid
  loadS : StrictSorted s.load
  solarT : s.solar ≠ [] → s.solarTotal = s.solar.length
  gridT : s.gridTotal = s.grid.length
  loadT : s.load ≠ [] → s.loadTotal = s.load.length
  solarC : 0 ≤ s.solarCtr
  gridC : 0 ≤ s.gridCtr
  loadC : 0 ≤ s.loadCtr

theorem inv_init (a b d : Bool) : Inv (init a b d : St K) := by
  constructor <;> simp [init, StrictSorted]

theorem inv_addSolar {sp : EvSpec K} {s : St K} (h : Inv s) (T S Ta : K) : Inv (addSolar sp s T S Ta).1 := by
  unfold addSolar
  split
  · exact h
  · split
    · exact h
    · exact ⟨addTimed_sorted _ _ h.solarS, h.gridS, h.loadS, fun _ => rfl, rfl, fun _ => rfl, h.solarC, h.gridC, h.loadC⟩

theorem inv_addGrid {sp : EvSpec K} {s : St K} (h : Inv s) (T V a f : K) : Inv (addGrid sp s T V a f).1 := by
  unfold addGrid
  split
  · exact h
  · split
    · exact h
    · exact ⟨h.solarS, addTimed_sorted _ _ h.gridS, h.loadS, fun _ => rfl, rfl, fun _ => rfl, h.solarC, h.gridC, h.loadC⟩

theorem inv_addLoad {s : St K} (h : Inv s) (T r i : K) : Inv (addLoad s T r i).1 := by
  unfold addLoad
  split
  · exact h
  · exact ⟨h.solarS, h.gridS, addTimed_sorted _ _ h.loadS, fun _ => rfl, rfl, fun _ => rfl, h.solarC, h.gridC, h.loadC⟩

theorem inv_removeSolar {s : St K} (h : Inv s) (T : Option K) (all : Bool) : Inv (removeSolar s T all).1 := by
  unfold removeSolar
  split
  · exact h
  · exact ⟨by simp [StrictSorted], h.gridS, h.loadS, by simp, h.gridT, h.loadT, h.solarC, h.gridC, h.loadC⟩

theorem inv_removeGrid {s : St K} (h : Inv s) (T : K) : Inv (removeGrid s T).1 :=
  ⟨h.solarS, removeAt_sorted _ h.gridS, h.loadS, fun _ => rfl, rfl, fun _ => rfl, h.solarC, h.gridC, h.loadC⟩

theorem inv_removeLoad {s : St K} (h : Inv s) (T : Option K) (all : Bool) : Inv (removeLoad s T all).1 := by
  unfold removeLoad
  split
  · exact ⟨h.solarS, h.gridS, removeAt_sorted _ h.loadS, fun _ => rfl, rfl, fun _ => rfl, h.solarC, h.gridC, h.loadC⟩
  · exact ⟨h.solarS, h.gridS, by simp [StrictSorted], h.solarT, h.gridT, by simp, h.solarC, h.gridC, h.loadC⟩

theorem playback_ctr_nonneg {α : Type} {l : List (Ev K α)} {total ctr : Int} (hT : l ≠ [] → total = l.length) (hc : 0 ≤ ctr)
    (dflt : α) (t : K) : 0 ≤ (playback l total ctr dflt t).1 := by
  unfold playback
  split
  · exact hc
  · rename_i e0 rest
    have := hT (by simp)
    split
    · exact hc
    · split
      · exact hc
      · split
        · split <;> exact hc
        · split
          · simp only [List.length_cons] at this ⊢; omega
          · exact hc

theorem inv_solarEvents {sp : EvSpec K} {s : St K} (h : Inv s) (t : K) : Inv (solarEvents sp s t).1 := by
  unfold solarEvents
  split
  · exact ⟨h.solarS, h.gridS, h.loadS, h.solarT, h.gridT, h.loadT, playback_ctr_nonneg h.solarT h.solarC _ _, h.gridC, h.loadC⟩
  · exact h

theorem inv_loadEvents {s : St K} (h : Inv s) (t : K) : Inv (loadEvents s t).1 := by
  unfold loadEvents
  split
  · exact ⟨h.solarS, h.gridS, h.loadS, h.solarT, h.gridT, h.loadT, h.solarC, h.gridC, playback_ctr_nonneg h.loadT h.loadC _ _⟩
  · exact h

theorem addGrid_ok {sp : EvSpec K} {s s' : St K} {T V a f : K} {u : Unit} (h : addGrid sp s T V a f = (s', .ok u)) :
    s' = updateTotals { s with grid := addTimed T ⟨V, a, f⟩ s.grid } := by
  unfold addGrid at h
  split at h
  · simp at h
  · split at h
    · simp at h
    · simp only [Prod.mk.injEq] at h
      exact h.1.symm

/-- A predicate on states preserved by `add_grid_event` and by advancing the grid counter is preserved by a grid query. -/
theorem gridEvents_preserves (P : St K → Prop) (c : Cfg K) (sp : EvSpec K) (s : St K) (t : K) (hP : P s)
    (hadd : ∀ T V a f, P (addGrid sp s T V a f).1)
    (hctr : ∀ s', P s' → s'.grid ≠ [] → P { s' with gridCtr := min (s'.gridTotal - 1) (s'.gridCtr + 1) }) :
    P (gridEvents c sp s t).1 := by
  have hadd' : ∀ T V a f r, addGrid sp s T V a f = r → P r.1 := by
    intro T V a f r hr; rw [← hr]; exact hadd T V a f
  unfold gridEvents
  split
  · exact hP
  · exact hP
  · rename_i e0 rest _ hl
    split
    · exact hP
    · split
      · exact hP
      · split
        · split <;> exact hP
        · split
          · split
            · split
              · exact hP
              · simp only
                split
                · rename_i s' e hres
                  exact hadd' _ _ _ _ _ hres
                · rename_i s' u hres
                  refine hctr s' (hadd' _ _ _ _ _ hres) ?_
                  rw [addGrid_ok hres]
                  exact addTimed_ne_nil _ _ _
            · exact hctr s hP (by rw [hl]; simp)
          · exact hP

theorem inv_gridEvents {c : Cfg K} {sp : EvSpec K} {s : St K} (h : Inv s) (t : K) : Inv (gridEvents c sp s t).1 := by
  apply gridEvents_preserves Inv c sp s t h
  · intro T V a f; exact inv_addGrid h T V a f
  · intro s' h' hne
    refine ⟨h'.solarS, h'.gridS, h'.loadS, h'.solarT, h'.gridT, h'.loadT, h'.solarC, ?_, h'.loadC⟩
    have h1 := h'.gridT
    have h2 := h'.gridC
    have h3 : 0 < s'.grid.length := List.length_pos_of_ne_nil hne
    simp only
    omega

theorem inv_step {c : Cfg K} {sp : EvSpec K} {s : St K} (h : Inv s) (o : Op K) : Inv (step c sp s o) := by
  cases o with
  | addSolar T S Ta => exact inv_addSolar h _ _ _
  | addGrid T V a f => exact inv_addGrid h _ _ _ _
  | addLoad T r i => exact inv_addLoad h _ _ _
  | removeSolar T all => exact inv_removeSolar h _ _
  | removeGrid T => exact inv_removeGrid h _
  | removeLoad T all => exact inv_removeLoad h _ _
  | querySolar t => exact inv_solarEvents h _
  | queryGrid t => exact inv_gridEvents h _
  | queryLoad t => exact inv_loadEvents h _
  | reset => exact ⟨h.solarS, h.gridS, h.loadS, h.solarT, h.gridT, h.loadT, le_rfl, le_rfl, le_rfl⟩
  | setEnable a b d => exact ⟨h.solarS, h.gridS, h.loadS, h.solarT, h.gridT, h.loadT, h.solarC, h.gridC, h.loadC⟩

theorem inv_run {c : Cfg K} {s : St K} (h : Inv s) (hist : List (EvSpec K × Op K)) : Inv (run c s hist) := by
  induction hist generalizing s with
  | nil => exact h
  | cons x xs ih => exact ih (inv_step h x.2)

theorem inv_reachable {c : Cfg K} {s : St K} (h : Reachable c s) : Inv s := by
  obtain ⟨a, b, d, hist, rfl⟩ := h
  exact inv_run (inv_init a b d) hist

/-! ### Limits -/

structure Limits (sp : EvSpec K) (s : St K) : Prop where
  solar : ∀ e ∈ s.solar, sp.insolation.min ≤ e.v.Sinsol ∧ e.v.Sinsol ≤ sp.insolation.max ∧ 250 ≤ e.v.Tactual ∧ e.v.Tactual ≤ 375
  grid : ∀ e ∈ s.grid, sp.voltage.min ≤ e.v.V ∧ e.v.V ≤ sp.voltage.max ∧ sp.freq.min ≤ e.v.f ∧ e.v.f ≤ sp.freq.max
  load : ∀ e ∈ s.load, 0 ≤ e.v.Zre

theorem limits_addGrid {sp : EvSpec K} {s : St K} (hi : Inv s) (h : Limits sp s) (T V a f : K) :
    Limits sp (addGrid sp s T V a f).1 := by
  unfold addGrid
  split
  · exact h
  · split
    · exact h
    · rename_i h1 h2
      refine ⟨h.solar, ?_, h.load⟩
      intro e he
      rcases (mem_addTimed T _ hi.gridS e).1 he with rfl | ⟨he, _⟩
      · push Not at h1 h2
        exact ⟨h1.1, h1.2, h2.1, h2.2⟩
      · exact h.grid e he

theorem limits_step {c : Cfg K} {sp : EvSpec K} {s : St K} (hi : Inv s) (h : Limits sp s) (o : Op K) :
    Limits sp (step c sp s o) := by
  cases o with
  | addSolar T S Ta =>
    simp only [step]; unfold addSolar
    split
    · exact h
    · split
      · exact h
      · rename_i h1 h2
        refine ⟨?_, h.grid, h.load⟩
        intro e he
        rcases (mem_addTimed T _ hi.solarS e).1 he with rfl | ⟨he, _⟩
        · push Not at h1 h2
          exact ⟨h1.1, h1.2, h2.2, h2.1⟩
        · exact h.solar e he
  | addGrid T V a f => exact limits_addGrid hi h _ _ _ _
  | addLoad T r i =>
    simp only [step]; unfold addLoad
    split
    · exact h
    · rename_i h1
      refine ⟨h.solar, h.grid, ?_⟩
      intro e he
      rcases (mem_addTimed T _ hi.loadS e).1 he with rfl | ⟨he, _⟩
      · exact not_lt.1 h1
      · exact h.load e he
  | removeSolar T all =>
    simp only [step]; unfold removeSolar
    split
    · exact h
    · exact ⟨by simp, h.grid, h.load⟩
  | removeGrid T =>
    refine ⟨h.solar, ?_, h.load⟩
    intro e he
    exact h.grid e ((mem_removeAt T hi.gridS e).1 he).1
  | removeLoad T all =>
    simp only [step]; unfold removeLoad
    split
    · refine ⟨h.solar, h.grid, ?_⟩
      intro e he
      exact h.load e ((mem_removeAt _ hi.loadS e).1 he).1
    · exact ⟨h.solar, h.grid, by simp⟩
  | querySolar t =>
    simp only [step]; unfold solarEvents
    split
    · exact ⟨h.solar, h.grid, h.load⟩
    · exact h
  | queryGrid t =>
    apply gridEvents_preserves (Limits sp) c sp s t h
    · intro T V a f; exact limits_addGrid hi h T V a f
    · intro s' h' _; exact ⟨h'.solar, h'.grid, h'.load⟩
  | queryLoad t =>
    simp only [step]; unfold loadEvents
    split
    · exact ⟨h.solar, h.grid, h.load⟩
    · exact h
  | reset => exact ⟨h.solar, h.grid, h.load⟩
  | setEnable a b d => exact ⟨h.solar, h.grid, h.load⟩

theorem limits_reachable {c : Cfg K} {sp : EvSpec K} {s : St K} (h : ReachableUnder c sp s) : Inv s ∧ Limits sp s := by
  obtain ⟨a, b, d, ops, rfl⟩ := h
  have h0 : Inv (init a b d : St K) ∧ Limits sp (init a b d : St K) :=
    ⟨inv_init a b d, by constructor <;> simp [init]⟩
  generalize (init a b d : St K) = s at h0
  induction ops generalizing s with
  | nil => exact h0
  | cons o os ih => exact ih _ ⟨inv_step h0.1 o, limits_step h0.1 h0.2 o⟩

theorem ReachableUnder.reachable {c : Cfg K} {sp : EvSpec K} {s : St K} (h : ReachableUnder c sp s) : Reachable c s := by
  obtain ⟨a, b, d, ops, rfl⟩ := h
  exact ⟨a, b, d, _, rfl⟩

/-! ### Counters without removals -/

/-- Calls that remove events. -/
def Op.isRemoval : Op K → Bool
  | .removeSolar _ _ => true
  | .removeGrid _ => true
  | .removeLoad _ _ => true
  | _ => false

structure Tight (s : St K) : Prop where
  solar : s.solarCtr = 0 ∨ s.solarCtr < s.solar.length
  grid : s.gridCtr = 0 ∨ s.gridCtr < s.grid.length
  load : s.loadCtr = 0 ∨ s.loadCtr < s.load.length

theorem length_addTimed_ge {α : Type} [DecidableEq α] {l : List (Ev K α)} (hs : StrictSorted l) (T : K) (v : α) :
    l.length ≤ (addTimed T v l).length := by
  unfold addTimed
  rw [(sortByT_perm _).length_eq, List.length_append, removeAt_eq_filter T hs]
  have h1 : (l.filter (fun e => decide (e.T = T))).length ≤ 1 := by
    by_contra hc
    push Not at hc
    obtain ⟨a, b, rest, hab⟩ : ∃ a b rest, l.filter (fun e => decide (e.T = T)) = a :: b :: rest := by
      match h : l.filter (fun e => decide (e.T = T)) with
      | [] => rw [h] at hc; simp at hc
      | [x] => rw [h] at hc; simp at hc
      | a :: b :: rest => exact ⟨a, b, rest, h⟩
    have hp : StrictSorted (l.filter (fun e => decide (e.T = T))) := List.Pairwise.filter _ hs
    have ha : a.T = T := by
      have : a ∈ l.filter (fun e => decide (e.T = T)) := by rw [hab]; simp
      simpa using (List.mem_filter.1 this).2
    have hb : b.T = T := by
      have : b ∈ l.filter (fun e => decide (e.T = T)) := by rw [hab]; simp
      simpa using (List.mem_filter.1 this).2
    rw [hab] at hp
    have := (List.pairwise_cons.1 hp).1 b (by simp)
    rw [ha, hb] at this
    exact lt_irrefl _ this
  have h2 : l.length = (l.filter (fun e => decide (e.T = T))).length + (l.filter (fun e : Ev K α => !decide (e.T = T))).length := by
    rw [← List.countP_eq_length_filter, ← List.countP_eq_length_filter]
    have := List.length_eq_countP_add_countP (fun e : Ev K α => decide (e.T = T)) (l := l)
    simpa using this
  have h3 : (l.filter (fun e : Ev K α => !decide (e.T = T))) = l.filter (fun e => decide (e.T ≠ T)) := by
    congr 1; funext e; simp
  rw [h3] at h2
  simp only [List.length_singleton]
  omega

theorem tight_addGrid {sp : EvSpec K} {s : St K} (hi : Inv s) (h : Tight s) (T V a f : K) : Tight (addGrid sp s T V a f).1 := by
  unfold addGrid
  split
  · exact h
  · split
    · exact h
    · have := length_addTimed_ge hi.gridS T (⟨V, a, f⟩ : GridVal K)
      refine ⟨h.solar, ?_, h.load⟩
      rcases h.grid with h | h
      · exact Or.inl h
      · right; simp only [updateTotals]; omega

theorem tight_playback {α : Type} {l : List (Ev K α)} {total ctr : Int} (hT : l ≠ [] → total = l.length)
    (hc : ctr = 0 ∨ ctr < l.length) (dflt : α) (t : K) :
    (playback l total ctr dflt t).1 = 0 ∨ (playback l total ctr dflt t).1 < l.length := by
  unfold playback
  split
  · exact hc
  · have := hT (by simp)
    split
    · exact hc
    · split
      · exact hc
      · split
        · split <;> exact hc
        · split
          · simp only [List.length_cons] at this ⊢; omega
          · exact hc

theorem tight_step {c : Cfg K} {sp : EvSpec K} {s : St K} (hi : Inv s) (h : Tight s) (o : Op K) (ho : o.isRemoval = false) :
    Tight (step c sp s o) := by
  cases o with
  | addSolar T S Ta =>
    simp only [step]; unfold addSolar
    split
    · exact h
    · split
      · exact h
      · have := length_addTimed_ge hi.solarS T (⟨S, Ta⟩ : SolarVal K)
        refine ⟨?_, h.grid, h.load⟩
        rcases h.solar with h | h
        · exact Or.inl h
        · right; simp only [updateTotals]; omega
  | addGrid T V a f => exact tight_addGrid hi h _ _ _ _
  | addLoad T r i =>
    simp only [step]; unfold addLoad
    split
    · exact h
    · have := length_addTimed_ge hi.loadS T (⟨r, i⟩ : LoadVal K)
      refine ⟨h.solar, h.grid, ?_⟩
      rcases h.load with h | h
      · exact Or.inl h
      · right; simp only [updateTotals]; omega
  | removeSolar T all => simp [Op.isRemoval] at ho
  | removeGrid T => simp [Op.isRemoval] at ho
  | removeLoad T all => simp [Op.isRemoval] at ho
  | querySolar t =>
    simp only [step]; unfold solarEvents
    split
    · exact ⟨tight_playback hi.solarT h.solar _ _, h.grid, h.load⟩
    · exact h
  | queryGrid t =>
    have := gridEvents_preserves (fun s => Inv s ∧ Tight s) c sp s t ⟨hi, h⟩
      (fun T V a f => ⟨inv_addGrid hi T V a f, tight_addGrid hi h T V a f⟩)
      (by
        intro s' h' hne
        have h3 : 0 < s'.grid.length := List.length_pos_of_ne_nil hne
        have h1 := h'.1.gridT
        have h2 := h'.1.gridC
        refine ⟨⟨h'.1.solarS, h'.1.gridS, h'.1.loadS, h'.1.solarT, h'.1.gridT, h'.1.loadT, h'.1.solarC, ?_, h'.1.loadC⟩,
          ⟨h'.2.solar, ?_, h'.2.load⟩⟩
        · simp only; omega
        · right; simp only; omega)
    exact this.2
  | queryLoad t =>
    simp only [step]; unfold loadEvents
    split
    · exact ⟨h.solar, h.grid, tight_playback hi.loadT h.load _ _⟩
    · exact h
  | reset => exact ⟨Or.inl rfl, Or.inl rfl, Or.inl rfl⟩
  | setEnable a b d => exact ⟨h.solar, h.grid, h.load⟩

end Events
end PvDer
