import Verif.Props.Edits
import Verif.Lemmas.GridPlay

/-!
# Property C158: grid events added while a simulation is under way
-/

set_option linter.unusedSectionVars false

namespace PvDer
namespace Events
variable {K : Type} [Field K] [LinearOrder K] [IsStrictOrderedRing K]

/-! ## Specification -/

/-- The voltage/frequency schedule's share of a call: an accepted `add_grid_event`, a `grid_events` query, or nothing.  (The angle of a grid event is overwritten
when the event is played back, so that a schedule is one of magnitudes and frequencies.) -/
def gridEdit (sp : EvSpec K) : Op K → Option (Edit K (K × K))
  | .addGrid T V _ f => if sp.voltage.min ≤ V ∧ V ≤ sp.voltage.max ∧ sp.freq.min ≤ f ∧ f ≤ sp.freq.max then some (.put T (V, f)) else none
  | .queryGrid t => some (.ask t)
  | _ => none

/-- Calls that may come while a simulation is under way, as far as the grid schedule is concerned: anything but removing a grid event, resetting the counters or
switching a schedule on or off. -/
def Op.underWayGrid : Op K → Bool
  | .removeGrid _ => false
  | .reset => false
  | .setEnable _ _ _ => false
  | _ => true

/-- Magnitude and frequency a query answered with. -/
def magFreq : Except Err (GridVal K) → Except Err (K × K)
  | .ok v => .ok (v.V, v.f)
  | .error e => .error e

/-- The result of a call, if it is a query of the grid schedule. -/
def gridAnswer (c : Cfg K) (sp : EvSpec K) (s : St K) : Op K → List (Except Err (K × K))
  | .queryGrid t => [magFreq (gridEvents c sp s t).2]
  | _ => []

/-- The results of the grid queries of a history, in order. -/
def gridAnswers (c : Cfg K) (sp : EvSpec K) : St K → List (Op K) → List (Except Err (K × K))
  | _, [] => []
  | s, o :: os => gridAnswer c sp s o ++ gridAnswers c sp (step c sp s o) os

/-! ## One call -/

theorem mem_noAngle {l : List (Ev K (GridVal K))} {e : Ev K (K × K)} :
    e ∈ noAngle l ↔ ∃ x ∈ l, (⟨x.T, (x.v.V, x.v.f)⟩ : Ev K (K × K)) = e := by
  unfold noAngle; rw [List.mem_map]

theorem noAngle_addTimed {l : List (Ev K (GridVal K))} (hs : StrictSorted l) (T V a f : K) :
    noAngle (addTimed T ⟨V, a, f⟩ l) = addTimed T (V, f) (noAngle l) := by
  refine isPut_unique (l := noAngle l) (T := T) (v := (V, f)) ⟨strictSorted_noAngle (addTimed_sorted T _ hs), fun e => ?_⟩ (isPut_addTimed (strictSorted_noAngle hs) T (V, f))
  rw [mem_noAngle]
  constructor
  · rintro ⟨x, hx, rfl⟩
    rcases (mem_addTimed T _ hs x).1 hx with rfl | ⟨h1, h2⟩
    · exact Or.inl rfl
    · exact Or.inr ⟨mem_noAngle.2 ⟨x, h1, rfl⟩, h2⟩
  · rintro (rfl | ⟨h1, h2⟩)
    · exact ⟨_, (mem_addTimed T _ hs _).2 (Or.inl rfl), rfl⟩
    · obtain ⟨x, hx, rfl⟩ := mem_noAngle.1 h1
      exact ⟨x, (mem_addTimed T _ hs _).2 (Or.inr ⟨hx, h2⟩), rfl⟩

theorem grid_frame (c : Cfg K) (sp : EvSpec K) (s : St K) (o : Op K) (ho : o.underWayGrid = true) (hn : gridEdit sp o = none) :
    (step c sp s o).grid = s.grid ∧ (step c sp s o).gridCtr = s.gridCtr ∧ (step c sp s o).gridEnable = s.gridEnable := by
  cases o with
  | addGrid T V a f =>
    simp only [gridEdit] at hn
    split at hn
    · cases hn
    · rename_i h
      simp only [step, addGrid]
      split
      · simp
      · split
        · simp
        · rename_i h1 h2
          push Not at h1 h2
          exact absurd ⟨h1.1, h1.2, h2.1, h2.2⟩ h
  | addSolar T S Ta =>
    simp only [step, addSolar]
    split
    · simp
    · split <;> simp [updateTotals]
  | addLoad T r i =>
    simp only [step, addLoad]
    split <;> simp [updateTotals]
  | removeSolar T all =>
    simp only [step, removeSolar]
    split <;> simp
  | removeGrid T => simp [Op.underWayGrid] at ho
  | removeLoad T all =>
    simp only [step, removeLoad]
    split <;> simp [updateTotals]
  | queryGrid t => simp [gridEdit] at hn
  | querySolar t =>
    simp only [step, solarEvents]
    split <;> simp
  | queryLoad t =>
    simp only [step, loadEvents]
    split <;> simp
  | reset => simp [Op.underWayGrid] at ho
  | setEnable a b d => simp [Op.underWayGrid] at ho

/-- A grid query, at a known position. -/
theorem at_gridQuery {c : Cfg K} (hov : c.overrideAngle = true) {sp : EvSpec K} {s : St K} (hi : Inv s) (hl : Limits sp s) (hen : s.gridEnable = true)
    {prev : Option K} {k j : Nat} (h : PosAt (noAngle s.grid) s.gridCtr prev k j) (t : K) (hf : ∀ a, prev = some a → a ≤ t) :
    ∃ j', PosAt (noAngle (gridEvents c sp s t).1.grid) (gridEvents c sp s t).1.gridCtr (some t) (lagAsk (noAngle s.grid) prev t k) j' ∧
      noAngle (gridEvents c sp s t).1.grid = noAngle s.grid ∧ (gridEvents c sp s t).1.gridEnable = true ∧
      magFreq (gridEvents c sp s t).2 = .ok (valAt (noAngle s.grid) (sp.voltage.dflt, sp.freq.dflt) j') := by
  have hp := h.pos
  have hfr := fresh_eq (noAngle s.grid) prev t hf
  have hlen : (noAngle s.grid).length = s.grid.length := by simp [noAngle]
  by_cases hg : s.grid = []
  · have hq : gridEvents c sp s t = (s, .ok (gridDefault sp)) := by unfold gridEvents; rw [hg, hen]
    have hn : noAngle s.grid = [] := by rw [hg]; rfl
    have hle := posOf_le (noAngle s.grid) prev
    rw [hn, List.length_nil] at hle
    rw [hq]
    refine ⟨0, ⟨h.sorted, ?_, ?_⟩, rfl, hen, ?_⟩
    · have := h.ctr; rw [if_pos hn] at this ⊢; exact this
    · simp only [posOf, lagAsk]
      have h0 : cnt (noAngle s.grid) t = 0 := by rw [hn]; rfl
      rw [hn] at hp hfr h0 ⊢
      omega
    · simp [magFreq, gridDefault, valAt]
  · have hn : noAngle s.grid ≠ [] := by intro hc; exact hg (List.map_eq_nil_iff.1 hc)
    have hc := h.ctr
    rw [if_neg hn, hlen] at hc
    have hcn := cnt_noAngle s.grid t
    obtain ⟨s', v, h1, h2, h3, h4, h5⟩ := gridEvents_step hov hi hl hen hg t j (by omega) hc
    rw [h1]
    refine ⟨min (cnt s.grid t) (j + 1), ⟨?_, ?_, ?_⟩, h2, h3, ?_⟩
    · rw [h2]; exact h.sorted
    · show s'.gridCtr = _
      rw [h2, if_neg hn, hlen, h4]
    · show posOf (noAngle s'.grid) (some t) = _
      rw [h2]
      simp only [posOf, lagAsk]
      omega
    · exact congrArg Except.ok h5

theorem gridAnswers_at {c : Cfg K} (hov : c.overrideAngle = true) {sp : EvSpec K} (ops : List (Op K)) :
    ∀ {s : St K} {prev : Option K} {k j : Nat}, Inv s → Limits sp s → s.gridEnable = true → PosAt (noAngle s.grid) s.gridCtr prev k j →
      (∀ o ∈ ops, o.underWayGrid = true) → Forward prev (ops.filterMap (gridEdit sp)) →
      Answers (sp.voltage.dflt, sp.freq.dflt) (noAngle s.grid) prev k (ops.filterMap (gridEdit sp)) (gridAnswers c sp s ops) := by
  induction ops with
  | nil => intros; rfl
  | cons o os ih =>
    intro s prev k j hi hl hen hp ho hf
    have hi' := inv_step (c := c) (sp := sp) hi o
    have hl' := limits_step (c := c) hi hl o
    have hos : ∀ o ∈ os, o.underWayGrid = true := fun x hx => ho x (List.mem_cons_of_mem _ hx)
    rcases he : gridEdit sp o with _ | e
    · obtain ⟨h1, h2, h3⟩ := grid_frame c sp s o (ho o List.mem_cons_self) he
      rw [List.filterMap_cons_none he] at hf ⊢
      have h0 : gridAnswer c sp s o = [] := by
        cases o <;> first | rfl | simp [gridEdit] at he
      rw [gridAnswers, h0, List.nil_append, ← h1]
      exact ih hi' hl' (h3.trans hen) (by rw [h1, h2]; exact hp) hos hf
    · rw [List.filterMap_cons_some he] at hf ⊢
      cases o with
      | addGrid T V a f =>
        simp only [gridEdit] at he
        split at he
        · rename_i h
          cases he
          have hst : step c sp s (.addGrid T V a f) = updateTotals { s with grid := addTimed T ⟨V, a, f⟩ s.grid } := by
            simp only [step, addGrid]
            rw [if_neg (by push Not; exact ⟨h.1, h.2.1⟩), if_neg (by push Not; exact ⟨h.2.2.1, h.2.2.2⟩)]
          have hgr : noAngle (step c sp s (.addGrid T V a f)).grid = addTimed T (V, f) (noAngle s.grid) := by
            rw [hst]; exact noAngle_addTimed hi.gridS T V a f
          obtain ⟨j', hj⟩ := at_put hp T (V, f)
          refine ⟨_, isPut_addTimed hp.sorted T (V, f), ?_⟩
          have := ih (s := step c sp s (.addGrid T V a f)) hi' hl' (by rw [hst]; exact hen) (by rw [hgr, hst]; exact hj) hos hf
          rw [hgr] at this
          exact this
        · cases he
      | queryGrid t =>
        simp only [gridEdit, Option.some.injEq] at he
        subst he
        obtain ⟨j', hj, h1, h2, h3⟩ := at_gridQuery hov hi hl hen hp t hf.1
        have := ih (s := step c sp s (.queryGrid t)) hi' hl' h2 hj hos hf.2
        refine ⟨valAt (noAngle s.grid) (sp.voltage.dflt, sp.freq.dflt) j', gridAnswers c sp (step c sp s (.queryGrid t)) os, ?_, ?_, ?_⟩
        · rw [gridAnswers]; simp only [gridAnswer]; rw [h3]; rfl
        · apply behind_valAt hp.sorted
          have := hj.pos
          rw [h1] at this
          exact this
        · have e1 : (step c sp s (.queryGrid t)).grid = (gridEvents c sp s t).1.grid := rfl
          rw [e1, h1] at this
          exact this
      | _ => simp [gridEdit] at he

/-! ## C158 -/

/-- C158: from reset counters, along every interleaving of calls with grid queries going forward in time, no grid query fails and each answers with the voltage magnitude
and frequency that were due `k` events ago — `k` as in `lagPut`/`lagAsk`. -/
theorem C158_grid {c : Cfg K} (hov : c.overrideAngle = true) {sp : EvSpec K} {s : St K} (h : ReachableUnder c sp s) (hen : s.gridEnable = true) (ops : List (Op K))
    (ho : ∀ o ∈ ops, o.underWayGrid = true) (hf : Forward none (ops.filterMap (gridEdit sp))) :
    Answers (sp.voltage.dflt, sp.freq.dflt) (s.grid.map fun e => ⟨e.T, (e.v.V, e.v.f)⟩) none 0 (ops.filterMap (gridEdit sp))
      (gridAnswers c sp (resetCounters s) ops) := by
  obtain ⟨hi, hl⟩ := limits_reachable h
  exact gridAnswers_at hov ops (inv_step (c := c) (sp := sp) hi .reset) (limits_step (c := c) hi hl .reset) hen (posAt_start (strictSorted_noAngle hi.gridS)) ho hf

/-- C158, tidy use: if events are only added ahead of the latest query, no query jumps over more than one event, and there is a query between each addition and the
next event, every answer is magnitude and frequency of the schedule as it is at that moment. -/
theorem C158_grid_tidy {c : Cfg K} (hov : c.overrideAngle = true) {sp : EvSpec K} {s : St K} (h : ReachableUnder c sp s) (hen : s.gridEnable = true) (ops : List (Op K))
    (ho : ∀ o ∈ ops, o.underWayGrid = true)
    (ht : Tidy (s.grid.map fun e => (⟨e.T, (e.v.V, e.v.f)⟩ : Ev K (K × K))) none false (ops.filterMap (gridEdit sp))) :
    AllCorrect (sp.voltage.dflt, sp.freq.dflt) (s.grid.map fun e => ⟨e.T, (e.v.V, e.v.f)⟩) (ops.filterMap (gridEdit sp))
      (gridAnswers c sp (resetCounters s) ops) := by
  have hs := strictSorted_noAngle (limits_reachable h).1.gridS
  exact tidy_correct _ _ hs (by simp) ht _ (C158_grid hov h hen ops ho (forward_of_tidy _ hs ht))

/-! ### Instances -/

/-- The schedule holds (1 s, 1, 59 Hz), (2 s, 1, 61 Hz) and (3 s, 0.9, 60 Hz).  It is played back up to 7/2 s; then a dip is added at 5 s (and one
is refused), and the grid is asked for at 4, 5 and 6 s. -/
def tidyGrid : List (Op ℚ) :=
  [.queryGrid 1, .queryGrid 2, .querySolar 2, .queryGrid (7/2), .addGrid 5 (1/2) 7 60, .addGrid 6 9 0 60, .queryGrid 4, .removeSolar none true, .queryGrid 5, .queryGrid 6]

/-- The same, but the next grid query after the addition is already after the event. -/
def hastyGrid : List (Op ℚ) := [.queryGrid 1, .queryGrid 2, .queryGrid (7/2), .addGrid 5 (1/2) 7 60, .queryGrid 6, .queryGrid 6]

theorem C158_example : (∀ o ∈ tidyGrid, o.underWayGrid = true) ∧
    Tidy (exState.grid.map fun e => (⟨e.T, (e.v.V, e.v.f)⟩ : Ev ℚ (ℚ × ℚ))) none false (tidyGrid.filterMap (gridEdit exSpec)) ∧
    gridAnswers exCfg exSpec (resetCounters exState) tidyGrid =
      [.ok (1, 59), .ok (1, 61), .ok (9/10, 60), .ok (9/10, 60), .ok (1/2, 60), .ok (1/2, 60)] := by
  refine ⟨by decide, ?_, by decide +kernel⟩
  have h : tidyGrid.filterMap (gridEdit exSpec) = [.ask 1, .ask 2, .ask (7/2), .put 5 (1/2, 60), .ask 4, .ask 5, .ask 6] := by
    decide +kernel
  have hl : (exState.grid.map fun e => (⟨e.T, (e.v.V, e.v.f)⟩ : Ev ℚ (ℚ × ℚ))) = [⟨1, (1, 59)⟩, ⟨2, (1, 61)⟩, ⟨3, (9/10, 60)⟩] := by decide +kernel
  rw [h, hl]
  refine ⟨by simp, by decide +kernel, by rintro a ⟨⟩; norm_num, by decide +kernel, by rintro a ⟨⟩; norm_num, by decide +kernel, ?_, ?_⟩
  · show (7/2 : ℚ) < 5; norm_num
  · intro l' hl'
    have : l' = [⟨1, (1, 59)⟩, ⟨2, (1, 61)⟩, ⟨3, (9/10, 60)⟩, ⟨5, (1/2, 60)⟩] := by
      rw [isPut_unique hl' (isPut_addTimed (by simp [StrictSorted]; norm_num) _ _)]; decide +kernel
    subst this
    exact ⟨by rintro a ⟨⟩; norm_num, by decide +kernel, by rintro a ⟨⟩; norm_num, by decide +kernel, by rintro a ⟨⟩; norm_num, by decide +kernel, trivial⟩

/-- C158: an event added to an exhausted schedule is missed by the first query after it: at 6 s the dip of 5 s is due, but the voltage shown is that of 3 s; the
next query, at the same time, shows it. -/
theorem C158_hasty_is_behind : (∀ o ∈ hastyGrid, o.underWayGrid = true) ∧
    gridAnswers exCfg exSpec (resetCounters exState) hastyGrid = [.ok (1, 59), .ok (1, 61), .ok (9/10, 60), .ok (9/10, 60), .ok (1/2, 60)] ∧
    ((addGrid exSpec exState 5 (1/2) 7 60).1.grid.map fun e => (⟨e.T, (e.v.V, e.v.f)⟩ : Ev ℚ (ℚ × ℚ))) =
      [⟨1, (1, 59)⟩, ⟨2, (1, 61)⟩, ⟨3, (9/10, 60)⟩, ⟨5, (1/2, 60)⟩] := by
  exact ⟨by decide, by decide +kernel, by decide +kernel⟩

end Events
end PvDer
