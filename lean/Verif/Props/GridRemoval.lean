import Verif.Props.GridEdits
import Verif.Props.Removal

/-!
# Property C159: a grid event removed while the schedule is being played back

`remove_grid_event` (simulation_events.py 297-311) shortens the list but leaves the playback counter where it is.
-/

set_option linter.unusedSectionVars false

namespace PvDer

section
variable {K α : Type} [LinearOrder K] [DecidableEq α]

/-! ## Positions after a removal -/

theorem at_remove_noop {l : List (Ev K α)} {T : K} (hx : ∀ e ∈ l, e.T ≠ T) : removeAt T l = l := removeLoop_noop T _ _ _ hx

theorem at_remove_harmless {l : List (Ev K α)} {c : Int} {a T : K} {j : Nat} (h : PosAt l c (some a) 0 j)
    (hT : (∀ e ∈ l, e.T ≠ T) ∨ (a < T ∧ ∃ e ∈ removeAt T l, a < e.T) ∨ removeAt T l = []) : ∃ j', PosAt (removeAt T l) c (some a) 0 j' := by
  have hs := removeAt_sorted T h.sorted
  by_cases hx : ∃ e ∈ l, e.T = T
  · obtain ⟨n1, n2⟩ := cnt_removeAt h.sorted hx
    have hne : l ≠ [] := by rintro rfl; obtain ⟨x, hx, _⟩ := hx; simp at hx
    have hc := h.ctr
    rw [if_neg hne] at hc
    have hp := h.pos
    simp only [posOf] at hp
    rcases hT with hT | ⟨haT, e, he, hae⟩ | hT
    · obtain ⟨x, hx, hx'⟩ := hx; exact absurd hx' (hT x hx)
    · have h3 := n2 a
      rw [if_neg (not_le.2 haT)] at h3
      have hlt : cnt (removeAt T l) a < (removeAt T l).length := by
        obtain ⟨m, hm, rfl⟩ := List.getElem_of_mem he
        have : ¬ m < cnt (removeAt T l) a := fun hc => absurd ((getElem_le_iff hs a m hm).2 hc) (not_le.2 hae)
        omega
      refine ⟨j, hs, ?_, ?_⟩
      · rw [if_neg (by intro e; rw [e] at hlt; simp at hlt), hc]; omega
      · simp only [posOf]; omega
    · have h0 : l.length = 1 := by rw [n1, hT]; rfl
      refine ⟨0, hs, ?_, ?_⟩
      · rw [if_pos hT, hc, h0]; simp
      · rw [hT]; rfl
  · push Not at hx
    rw [at_remove_noop hx]; exact ⟨j, h⟩

theorem at_remove_fatal {l : List (Ev K α)} {c : Int} {a T : K} {j : Nat} (h : PosAt l c (some a) 0 j) (hT : ∃ e ∈ l, e.T = T) (hne : removeAt T l ≠ [])
    (hfut : a < T → ∀ e ∈ removeAt T l, e.T ≤ a)
    (hpast : T ≤ a → ∀ e ∈ removeAt T l, ∀ e' ∈ removeAt T l, a < e.T → a < e'.T → e = e') : c = (removeAt T l).length := by
  have hs := removeAt_sorted T h.sorted
  obtain ⟨n1, n2⟩ := cnt_removeAt h.sorted hT
  have hne' : l ≠ [] := by rintro rfl; obtain ⟨x, hx, _⟩ := hT; simp at hx
  have hc := h.ctr
  rw [if_neg hne'] at hc
  have hp := h.pos
  simp only [posOf] at hp
  have h3 := n2 a
  have hpos : 0 < (removeAt T l).length := List.length_pos_of_ne_nil hne
  have hb : (removeAt T l).length ≤ j := by
    by_cases haT : a < T
    · rw [if_neg (not_le.2 haT)] at h3
      have : cnt (removeAt T l) a = (removeAt T l).length := by
        unfold cnt
        rw [List.filter_eq_self.2]
        intro e he
        exact decide_eq_true (hfut haT e he)
      omega
    · have haT := not_lt.1 haT
      rw [if_pos haT] at h3
      by_contra hcon
      have i1 : cnt (removeAt T l) a + 1 < (removeAt T l).length := by omega
      have i0 : cnt (removeAt T l) a < (removeAt T l).length := by omega
      have g0 : a < (removeAt T l)[cnt (removeAt T l) a].T := by rw [← not_le, getElem_le_iff hs a _ i0]; omega
      have g1 : a < (removeAt T l)[cnt (removeAt T l) a + 1].T := by rw [← not_le, getElem_le_iff hs a _ i1]; omega
      have := hpast haT _ (List.getElem_mem i0) _ (List.getElem_mem i1) g0 g1
      have hlt := (List.pairwise_iff_getElem.1 hs) _ _ i0 i1 (by omega)
      rw [this] at hlt
      exact lt_irrefl _ hlt
  have := posOf_le l (some a)
  simp only [posOf] at this
  omega

theorem at_remove_early {l : List (Ev K α)} {c : Int} {a T : K} {j : Nat} (h : PosAt l c (some a) 0 j) (hT : ∃ e ∈ l, e.T = T) (haT : T ≤ a)
    {e1 e2 : Ev K α} (he1 : e1 ∈ removeAt T l) (ha1 : a < e1.T) (hf : ∀ e ∈ removeAt T l, a < e.T → e1.T ≤ e.T) (he2 : e2 ∈ removeAt T l) (h12 : e1.T < e2.T) :
    ∃ _ : cnt (removeAt T l) a + 1 < (removeAt T l).length, (removeAt T l)[cnt (removeAt T l) a] = e1 ∧ c = ((cnt (removeAt T l) a + 1 : Nat) : Int) := by
  have hs := removeAt_sorted T h.sorted
  obtain ⟨n1, n2⟩ := cnt_removeAt h.sorted hT
  have hne' : l ≠ [] := by rintro rfl; obtain ⟨x, hx, _⟩ := hT; simp at hx
  have hc := h.ctr
  rw [if_neg hne'] at hc
  have hp := h.pos
  simp only [posOf] at hp
  have h3 := n2 a
  rw [if_pos haT] at h3
  obtain ⟨hi, hg⟩ := first_pending hs he1 ha1 hf he2 h12
  exact ⟨hi, hg, by omega⟩

/-- Dense queries are tidy. -/
theorem tidy_of_dense {l : List (Ev K α)} (hs : StrictSorted l) (ts : List K) (prev : Option K) (hd : Dense l prev ts) : Tidy l prev false (ts.map Edit.ask) := by
  induction ts generalizing prev with
  | nil => trivial
  | cons t ts ih =>
    obtain ⟨h1, h2, h3⟩ := hd
    have := cnt_le_succ_of_dense hs prev t h1 h2
    have hf := fresh_eq l prev t h1
    refine ⟨h1, ?_, ih _ h3⟩
    simp only [Bool.false_eq_true, if_false]
    omega

theorem allCorrect_asks {l : List (Ev K α)} {dflt : α} (ts : List K) (rs : List (Except Err α)) (h : AllCorrect dflt l (ts.map Edit.ask) rs) :
    List.Forall₂ (fun t r => ∃ v, r = Except.ok v ∧ Correct l dflt t v) ts rs := by
  induction ts generalizing rs with
  | nil => simp only [List.map_nil, AllCorrect] at h; subst h; exact .nil
  | cons t ts ih =>
    obtain ⟨v, rs', rfl, h1, h2⟩ := h
    exact .cons ⟨v, rfl, h1⟩ (ih rs' h2)

theorem dense_after {l : List (Ev K α)} {x : K} (ts : List K) (b : K) (hd : Dense l (some b) ts) (hb : x ≤ b) : ∀ t ∈ ts, x ≤ t := by
  induction ts generalizing b with
  | nil => intro x hx; simp at hx
  | cons y ys ih =>
    intro t ht
    have hy := hb.trans (hd.1 b rfl)
    rcases List.mem_cons.1 ht with rfl | ht
    · exact hy
    · exact ih y hd.2.2 hy t ht

end
namespace Events
variable {K : Type} [Field K] [LinearOrder K] [IsStrictOrderedRing K]

theorem noAngle_removeAt {l : List (Ev K (GridVal K))} (hs : StrictSorted l) (T : K) : noAngle (removeAt T l) = removeAt T (noAngle l) := by
  refine StrictSorted.ext (strictSorted_noAngle (removeAt_sorted T hs)) (removeAt_sorted T (strictSorted_noAngle hs)) fun e => ?_
  rw [mem_removeAt T (strictSorted_noAngle hs), mem_noAngle, mem_noAngle]
  constructor
  · rintro ⟨x, hx, rfl⟩
    obtain ⟨h1, h2⟩ := (mem_removeAt T hs x).1 hx
    exact ⟨⟨x, h1, rfl⟩, h2⟩
  · rintro ⟨⟨x, hx, rfl⟩, h2⟩
    exact ⟨x, (mem_removeAt T hs x).2 ⟨hx, h2⟩, rfl⟩

/-- A tidy history that ends with a grid query leaves the playback exactly in step. -/
theorem grid_tidy_state {c : Cfg K} (hov : c.overrideAngle = true) {sp : EvSpec K} {a : K} (ops : List (Op K)) :
    ∀ {s : St K} {prev : Option K} {k j : Nat} {w : Bool}, Inv s → Limits sp s → s.gridEnable = true → PosAt (noAngle s.grid) s.gridCtr prev k j →
      (∀ o ∈ ops, o.underWayGrid = true) → (k ≤ if w then 1 else 0) → Tidy (noAngle s.grid) prev w (ops.filterMap (gridEdit sp) ++ [.ask a]) →
      Inv ((ops ++ [Op.queryGrid a]).foldl (step c sp) s) ∧ Limits sp ((ops ++ [Op.queryGrid a]).foldl (step c sp) s) ∧
      ((ops ++ [Op.queryGrid a]).foldl (step c sp) s).gridEnable = true ∧
      ∃ j', PosAt (noAngle ((ops ++ [Op.queryGrid a]).foldl (step c sp) s).grid) ((ops ++ [Op.queryGrid a]).foldl (step c sp) s).gridCtr (some a) 0 j' := by
  induction ops with
  | nil =>
    intro s prev k j w hi hl hen hp _ hk ht
    obtain ⟨h1, h2, _⟩ := ht
    obtain ⟨j', hj, e1, e2, -⟩ := at_gridQuery (c := c) hov hi hl hen hp a h1
    have hz : lagAsk (noAngle s.grid) prev a k = 0 := by
      unfold lagAsk
      cases w <;> simp at hk h2 <;> omega
    rw [hz] at hj
    exact ⟨inv_step (c := c) (sp := sp) hi (.queryGrid a), limits_step (c := c) hi hl (.queryGrid a), e2, j', hj⟩
  | cons o os ih =>
    intro s prev k j w hi hl hen hp ho hk ht
    have hi' := inv_step (c := c) (sp := sp) hi o
    have hl' := limits_step (c := c) hi hl o
    have hos : ∀ o ∈ os, o.underWayGrid = true := fun x hx => ho x (List.mem_cons_of_mem _ hx)
    rw [List.cons_append, List.foldl_cons]
    rcases he : gridEdit sp o with _ | e
    · obtain ⟨h1, h2, h3⟩ := grid_frame c sp s o (ho o List.mem_cons_self) he
      rw [List.filterMap_cons_none he] at ht
      exact ih (w := w) hi' hl' (h3.trans hen) (by rw [h1, h2]; exact hp) hos hk (by rw [h1]; exact ht)
    · rw [List.filterMap_cons_some he, List.cons_append] at ht
      cases o with
      | addGrid T V b f =>
        simp only [gridEdit] at he
        split at he
        · rename_i h
          cases he
          have hst : step c sp s (.addGrid T V b f) = updateTotals { s with grid := addTimed T ⟨V, b, f⟩ s.grid } := by
            simp only [step, addGrid]
            rw [if_neg (by push Not; exact ⟨h.1, h.2.1⟩), if_neg (by push Not; exact ⟨h.2.2.1, h.2.2.2⟩)]
          have hgr : noAngle (step c sp s (.addGrid T V b f)).grid = addTimed T (V, f) (noAngle s.grid) := by
            rw [hst]; exact noAngle_addTimed hi.gridS T V b f
          obtain ⟨j', hj⟩ := at_put hp T (V, f)
          refine ih (w := true) hi' hl' (by rw [hst]; exact hen) (by rw [hgr, hst]; exact hj) hos ?_
            (by rw [hgr]; exact ht.2 _ (isPut_addTimed hp.sorted T (V, f)))
          have h3 : ¬ ∃ b, prev = some b ∧ T ≤ b := by
            rintro ⟨b, rfl, h4⟩
            exact absurd ht.1 (not_lt.2 h4)
          unfold lagPut
          rw [if_neg h3]
          have : k ≤ 1 := by split at hk <;> omega
          simp only [if_true]
          split
          · exact this
          · split <;> omega
        · cases he
      | queryGrid t =>
        simp only [gridEdit, Option.some.injEq] at he
        subst he
        obtain ⟨h1, h2, h3⟩ := ht
        obtain ⟨j', hj, e1, e2, -⟩ := at_gridQuery (c := c) hov hi hl hen hp t h1
        have hz : lagAsk (noAngle s.grid) prev t k = 0 := by
          unfold lagAsk
          cases w <;> simp at hk h2 <;> omega
        rw [hz] at hj
        refine ih (w := false) hi' hl' e2 hj hos (by simp) ?_
        have e3 : (step c sp s (.queryGrid t)).grid = (gridEvents c sp s t).1.grid := rfl
        rw [e3, e1]; exact h3
      | _ => simp [gridEdit] at he

/-! ## C159 -/

/-- The events object while a simulation is under way: some calls were made before the simulation started (`s`, counters reset), then `ops`, tidily, ending with a query of
the grid at time `a`. -/
def midGrid (c : Cfg K) (sp : EvSpec K) (s : St K) (ops : List (Op K)) (a : K) : St K := (ops ++ [Op.queryGrid a]).foldl (step c sp) (resetCounters s)

/-- … and after `remove_grid_event(T)`. -/
def removedGrid (c : Cfg K) (sp : EvSpec K) (s : St K) (ops : List (Op K)) (a T : K) : St K := step c sp (midGrid c sp s ops a) (.removeGrid T)

/-- The schedule of magnitudes and frequencies. -/
abbrev St.vf (s : St K) : List (Ev K (K × K)) := s.grid.map fun e => ⟨e.T, (e.v.V, e.v.f)⟩

variable {c : Cfg K} {s : St K} {sp : EvSpec K} {ops : List (Op K)} {a T : K}

theorem mid_grid_pos (hov : c.overrideAngle = true) (h : ReachableUnder c sp s) (hen : s.gridEnable = true) (ho : ∀ o ∈ ops, o.underWayGrid = true)
    (ht : Tidy s.vf none false (ops.filterMap (gridEdit sp) ++ [.ask a])) :
    Inv (midGrid c sp s ops a) ∧ Limits sp (midGrid c sp s ops a) ∧ (midGrid c sp s ops a).gridEnable = true ∧
      ∃ j, PosAt (midGrid c sp s ops a).vf (midGrid c sp s ops a).gridCtr (some a) 0 j := by
  obtain ⟨hi, hl⟩ := limits_reachable h
  exact grid_tidy_state hov ops (w := false) (inv_step (c := c) (sp := sp) hi .reset) (limits_step (c := c) hi hl .reset) hen
    (posAt_start (strictSorted_noAngle hi.gridS)) ho (by simp) ht

theorem removedGrid_facts (h1 : Inv (midGrid c sp s ops a)) (h2 : Limits sp (midGrid c sp s ops a)) (h3 : (midGrid c sp s ops a).gridEnable = true) :
    Inv (removedGrid c sp s ops a T) ∧ Limits sp (removedGrid c sp s ops a T) ∧ (removedGrid c sp s ops a T).gridEnable = true ∧
      (removedGrid c sp s ops a T).vf = removeAt T (midGrid c sp s ops a).vf ∧ (removedGrid c sp s ops a T).gridCtr = (midGrid c sp s ops a).gridCtr :=
  ⟨inv_step (c := c) (sp := sp) h1 _, limits_step (c := c) h1 h2 _, h3, noAngle_removeAt h1.gridS T, rfl⟩

/-- C159: the removal itself. -/
theorem C159_schedule (hov : c.overrideAngle = true) (h : ReachableUnder c sp s) (hen : s.gridEnable = true) (ho : ∀ o ∈ ops, o.underWayGrid = true)
    (ht : Tidy s.vf none false (ops.filterMap (gridEdit sp) ++ [.ask a])) :
    StrictSorted (removedGrid c sp s ops a T).vf ∧ ∀ e, e ∈ (removedGrid c sp s ops a T).vf ↔ e ∈ (midGrid c sp s ops a).vf ∧ e.T ≠ T := by
  obtain ⟨h1, h2, h3, j, hj⟩ := mid_grid_pos hov h hen ho ht
  obtain ⟨r1, r2, r3, r4, r5⟩ := removedGrid_facts (T := T) h1 h2 h3
  rw [r4]
  exact ⟨removeAt_sorted T hj.sorted, mem_removeAt T hj.sorted⟩

/-- C159, harmless removals: nothing was scheduled at `T`; or `T` is still to come and so is another event; or no event is left.  Then every later answer, along any tidy
continuation (with further additions), is magnitude and frequency of the remaining schedule. -/
theorem C159_harmless (hov : c.overrideAngle = true) (h : ReachableUnder c sp s) (hen : s.gridEnable = true) (ho : ∀ o ∈ ops, o.underWayGrid = true)
    (ht : Tidy s.vf none false (ops.filterMap (gridEdit sp) ++ [.ask a]))
    (hT : (∀ e ∈ (midGrid c sp s ops a).vf, e.T ≠ T) ∨ (a < T ∧ ∃ e ∈ (removedGrid c sp s ops a T).vf, a < e.T) ∨ (removedGrid c sp s ops a T).vf = [])
    (later : List (Op K)) (hl : ∀ o ∈ later, o.underWayGrid = true) (ht' : Tidy (removedGrid c sp s ops a T).vf (some a) false (later.filterMap (gridEdit sp))) :
    AllCorrect (sp.voltage.dflt, sp.freq.dflt) (removedGrid c sp s ops a T).vf (later.filterMap (gridEdit sp))
      (gridAnswers c sp (removedGrid c sp s ops a T) later) := by
  obtain ⟨h1, h2, h3, j, hj⟩ := mid_grid_pos hov h hen ho ht
  obtain ⟨r1, r2, r3, r4, r5⟩ := removedGrid_facts (T := T) h1 h2 h3
  have hpos : ∃ j, PosAt (removedGrid c sp s ops a T).vf (removedGrid c sp s ops a T).gridCtr (some a) 0 j := by
    rw [r4, r5]
    rw [r4] at hT
    exact at_remove_harmless hj hT
  obtain ⟨j', hj'⟩ := hpos
  exact tidy_correct _ _ hj'.sorted (w := false) (by simp) ht' _ (gridAnswers_at hov later r1 r2 r3 hj' hl (forward_of_tidy _ hj'.sorted ht'))

theorem gridEvents_past {s : St K} (hen : s.gridEnable = true) (hne : s.grid ≠ []) (hc : s.gridCtr = s.grid.length) (t : K) :
    gridEvents c sp s t = (s, .error .indexError) := by
  cases hg : s.grid with
  | nil => exact absurd hg hne
  | cons e0 rest =>
    have : pyGet (e0 :: rest) s.gridCtr = none := by rw [hc, hg, pyGet_nat, List.getElem?_eq_none le_rfl]
    unfold gridEvents
    rw [hen, hg]
    simp only
    split
    · rfl
    · rename_i h; rw [this] at h; cases h

theorem gridAnswers_past (later : List (Op K)) : ∀ {s : St K}, s.gridEnable = true → s.grid ≠ [] → s.gridCtr = s.grid.length →
    (∀ o ∈ later, o.underWayGrid = true) → ∀ ts : List K, later.filterMap (gridEdit sp) = ts.map Edit.ask →
    gridAnswers c sp s later = ts.map fun _ => .error .indexError := by
  induction later with
  | nil =>
    intro s _ _ _ _ ts hts
    cases ts with
    | nil => rfl
    | cons t ts => simp at hts
  | cons o os ih =>
    intro s hen hne hc ho ts hts
    have hos : ∀ o ∈ os, o.underWayGrid = true := fun x hx => ho x (List.mem_cons_of_mem _ hx)
    rcases he : gridEdit sp o with _ | e
    · obtain ⟨h1, h2, h3⟩ := grid_frame c sp s o (ho o List.mem_cons_self) he
      rw [List.filterMap_cons_none he] at hts
      have h0 : gridAnswer c sp s o = [] := by
        cases o <;> first | rfl | simp [gridEdit] at he
      rw [gridAnswers, h0, List.nil_append]
      exact ih (h3.trans hen) (by rw [h1]; exact hne) (by rw [h1, h2]; exact hc) hos ts hts
    · rw [List.filterMap_cons_some he] at hts
      cases ts with
      | nil => simp at hts
      | cons t ts =>
        rw [List.map_cons, List.cons.injEq] at hts
        obtain ⟨rfl, hts⟩ := hts
        cases o with
        | queryGrid u =>
          have hu : u = t := by simpa [gridEdit] using he
          subst hu
          have hq := gridEvents_past (c := c) (sp := sp) hen hne hc u
          have hstep : step c sp s (.queryGrid u) = s := by simp only [step]; rw [hq]
          rw [gridAnswers, hstep, ih hen hne hc hos ts hts]
          simp only [gridAnswer, hq, magFreq, List.map_cons, List.singleton_append]
        | addGrid T V b f =>
          simp only [gridEdit] at he
          split at he <;> cases he
        | _ => simp [gridEdit] at he

/-- C159, fatal removals: an event was removed, others are left, and of those at most one is still to come (none, if the removed one was itself still to come).  Then every later
query raises IndexError, at whatever time — also before the first remaining event — and only a reset or an addition ends this. -/
theorem C159_fatal (hov : c.overrideAngle = true) (h : ReachableUnder c sp s) (hen : s.gridEnable = true) (ho : ∀ o ∈ ops, o.underWayGrid = true)
    (ht : Tidy s.vf none false (ops.filterMap (gridEdit sp) ++ [.ask a])) (hT : ∃ e ∈ (midGrid c sp s ops a).vf, e.T = T)
    (hne : (removedGrid c sp s ops a T).vf ≠ []) (hfut : a < T → ∀ e ∈ (removedGrid c sp s ops a T).vf, e.T ≤ a)
    (hpast : T ≤ a → ∀ e ∈ (removedGrid c sp s ops a T).vf, ∀ e' ∈ (removedGrid c sp s ops a T).vf, a < e.T → a < e'.T → e = e')
    (later : List (Op K)) (hl : ∀ o ∈ later, o.underWayGrid = true) (ts : List K) (hts : later.filterMap (gridEdit sp) = ts.map Edit.ask) :
    gridAnswers c sp (removedGrid c sp s ops a T) later = ts.map fun _ => .error .indexError := by
  obtain ⟨h1, h2, h3, j, hj⟩ := mid_grid_pos hov h hen ho ht
  obtain ⟨r1, r2, r3, r4, r5⟩ := removedGrid_facts (T := T) h1 h2 h3
  have hlen : ((removedGrid c sp s ops a T).vf).length = (removedGrid c sp s ops a T).grid.length := List.length_map _
  refine gridAnswers_past later r3 ?_ ?_ hl ts hts
  · intro e; exact hne (by simp only [St.vf, e, List.map_nil])
  · rw [r5, ← hlen, r4]
    rw [r4] at hne hfut hpast
    exact at_remove_fatal hj hT hne hfut hpast

/-- Queries with the counter one entry ahead. -/
theorem gridAnswers_early (hov : c.overrideAngle = true) (later : List (Op K)) : ∀ {s : St K} {b : K} {i : Nat}, Inv s → Limits sp s → s.gridEnable = true →
    (hi : i + 1 < s.vf.length) → s.gridCtr = ((i + 1 : Nat) : Int) → cnt s.vf b = i → (∀ o ∈ later, o.underWayGrid = true) → ∀ ts : List K,
    later.filterMap (gridEdit sp) = ts.map Edit.ask → Dense s.vf (some b) ts →
    List.Forall₂ (fun t r => ∃ v, r = Except.ok v ∧ (s.vf[i].T ≤ t → Correct s.vf (sp.voltage.dflt, sp.freq.dflt) t v) ∧ (t < s.vf[i].T → v = s.vf[i].v))
      ts (gridAnswers c sp s later) := by
  induction later with
  | nil =>
    intro s b i _ _ _ hi _ _ _ ts hts _
    cases ts with
    | nil => exact .nil
    | cons t ts => simp at hts
  | cons o os ih =>
    intro s b i hinv hlim hen hi hc hb ho ts hts hd
    have hinv' := inv_step (c := c) (sp := sp) hinv o
    have hlim' := limits_step (c := c) hinv hlim o
    have hos : ∀ o ∈ os, o.underWayGrid = true := fun x hx => ho x (List.mem_cons_of_mem _ hx)
    have hs : StrictSorted s.vf := strictSorted_noAngle hinv.gridS
    rcases he : gridEdit sp o with _ | e
    · obtain ⟨h1, h2, h3⟩ := grid_frame c sp s o (ho o List.mem_cons_self) he
      rw [List.filterMap_cons_none he] at hts
      have h0 : gridAnswer c sp s o = [] := by
        cases o <;> first | rfl | simp [gridEdit] at he
      rw [gridAnswers, h0, List.nil_append]
      have hvf : (step c sp s o).vf = s.vf := by simp only [St.vf, h1]
      have := ih (s := step c sp s o) (b := b) (i := i) hinv' hlim' (h3.trans hen) (by rw [hvf]; exact hi) (h2.trans hc) (by rw [hvf]; exact hb) hos ts hts (by rw [hvf]; exact hd)
      simp only [hvf] at this
      exact this
    · rw [List.filterMap_cons_some he] at hts
      cases ts with
      | nil => simp at hts
      | cons t ts =>
        rw [List.map_cons, List.cons.injEq] at hts
        obtain ⟨rfl, hts⟩ := hts
        cases o with
        | addGrid T V b f =>
          simp only [gridEdit] at he
          split at he <;> cases he
        | queryGrid u =>
          have hu : u = t := by simpa [gridEdit] using he
          subst hu
          obtain ⟨d1, d2, d3⟩ := hd
          obtain ⟨hle, hge⟩ := cnt_le_succ_of_dense hs (some b) u d1 d2
          simp only [posOf, hb] at hle hge
          have hlen : s.vf.length = s.grid.length := List.length_map _
          have hi0 : i < s.vf.length := by omega
          have hg1 : i + 1 < s.grid.length := by omega
          have hg0 : i < s.grid.length := by omega
          have hvi : s.vf[i] = ⟨s.grid[i].T, (s.grid[i].v.V, s.grid[i].v.f)⟩ := by simp [St.vf]
          have hT : u < s.grid[i + 1].T := by
            have : u < s.vf[i + 1].T := by rw [← not_le, getElem_le_iff hs u _ hi]; omega
            simpa [St.vf] using this
          have hne : s.grid ≠ [] := by intro e; rw [e] at hg0; simp at hg0
          have hq : gridEvents c sp s u = (s, .ok s.grid[i].v) := by
            obtain ⟨n, hn, hnc, hcase⟩ := gridEvents_cases hov hinv hlim hen hne (by rw [hc]; exact_mod_cast hg1) u
            have hn' : n = i + 1 := by rw [hc] at hnc; exact_mod_cast hnc.symm
            subst hn'
            rcases hcase with ⟨_, h0, _⟩ | ⟨_, _, e, h5, h6⟩ | ⟨h5, _⟩ | ⟨h5, _⟩
            · omega
            · rw [Nat.add_sub_cancel, List.getElem?_eq_getElem hg0] at h5
              cases h5; exact h6
            · exact absurd hT (not_lt.2 h5)
            · exact absurd hT (not_lt.2 h5)
          have hstep : step c sp s (.queryGrid u) = s := by simp only [step]; rw [hq]
          rw [gridAnswers, hstep]
          simp only [gridAnswer, hq, magFreq, List.singleton_append]
          rcases Nat.lt_or_ge i (cnt s.vf u) with hlt | hge'
          · have hct : cnt s.vf u = i + 1 := by omega
            have hTi : s.vf[i].T ≤ u := (getElem_le_iff hs u i hi0).2 hlt
            refine .cons ⟨_, rfl, fun _ => ?_, fun h => absurd hTi (not_le.2 h)⟩ ?_
            · have := correct_valAt hs (sp.voltage.dflt, sp.freq.dflt) u
              rw [hct, valAt_get s.vf _ i hi0, hvi] at this
              exact this
            · have hp : PosAt s.vf s.gridCtr (some u) 0 (i + 1) := by
                refine ⟨hs, ?_, by simp only [posOf]; omega⟩
                rw [if_neg (by intro e; rw [e] at hi0; simp at hi0), hc]; omega
              have ht := tidy_of_dense hs ts (some u) d3
              have hans := gridAnswers_at (c := c) hov os hinv hlim hen hp hos (by rw [hts]; exact forward_of_tidy _ hs ht)
              rw [hts] at hans
              have := allCorrect_asks _ _ (tidy_correct _ _ hs (w := false) (by simp) ht _ hans)
              have hall := dense_after ts u d3 hTi
              generalize gridAnswers c sp s os = rs at this ⊢
              clear hts d3 ht ih hos hans
              induction this with
              | nil => exact .nil
              | cons hx _ ih =>
                obtain ⟨v, e, hv⟩ := hx
                have h5 := hall _ List.mem_cons_self
                exact .cons ⟨v, e, fun _ => hv, fun h => absurd h5 (not_le.2 h)⟩ (ih (fun x hx => hall x (List.mem_cons_of_mem _ hx)))
          · have hct : cnt s.vf u = i := by omega
            have hTi : u < s.vf[i].T := by rw [← not_le, getElem_le_iff hs u i hi0]; omega
            exact .cons ⟨_, rfl, fun h => absurd hTi (not_lt.2 h), fun _ => by rw [hvi]⟩ (ih hinv hlim hen hi hc hct hos ts hts d3)
        | _ => simp [gridEdit] at he

/-- C159, premature effect: a past event was removed and at least two are still to come, `e1` the first of them.  Along every dense continuation no query fails, but until the time
of `e1` the answers are already magnitude and frequency of `e1`.  From the time of `e1` on they are right. -/
theorem C159_premature (hov : c.overrideAngle = true) (h : ReachableUnder c sp s) (hen : s.gridEnable = true) (ho : ∀ o ∈ ops, o.underWayGrid = true)
    (ht : Tidy s.vf none false (ops.filterMap (gridEdit sp) ++ [.ask a])) (hT : ∃ e ∈ (midGrid c sp s ops a).vf, e.T = T) (haT : T ≤ a)
    {e1 e2 : Ev K (K × K)} (he1 : e1 ∈ (removedGrid c sp s ops a T).vf) (ha1 : a < e1.T) (hf : ∀ e ∈ (removedGrid c sp s ops a T).vf, a < e.T → e1.T ≤ e.T)
    (he2 : e2 ∈ (removedGrid c sp s ops a T).vf) (h12 : e1.T < e2.T)
    (later : List (Op K)) (hl : ∀ o ∈ later, o.underWayGrid = true) (ts : List K) (hts : later.filterMap (gridEdit sp) = ts.map Edit.ask)
    (hd : Dense (removedGrid c sp s ops a T).vf (some a) ts) :
    List.Forall₂ (fun t r => ∃ v, r = Except.ok v ∧ (e1.T ≤ t → Correct (removedGrid c sp s ops a T).vf (sp.voltage.dflt, sp.freq.dflt) t v) ∧ (t < e1.T → v = e1.v))
      ts (gridAnswers c sp (removedGrid c sp s ops a T) later) := by
  obtain ⟨h1, h2, h3, j, hj⟩ := mid_grid_pos hov h hen ho ht
  obtain ⟨r1, r2, r3, r4, r5⟩ := removedGrid_facts (T := T) h1 h2 h3
  rw [r4] at he1 hf he2
  obtain ⟨hi, hg, hc⟩ := at_remove_early hj hT haT he1 ha1 hf he2 h12
  rw [← r5] at hc
  simp only [← r4] at hi hg hc
  have := gridAnswers_early (c := c) hov later r1 r2 r3 hi hc rfl hl ts hts hd
  rw [hg] at this
  exact this

/-- C159: after a reset of the counters the remaining schedule is played back correctly again. -/
theorem C159_reset_repairs (hov : c.overrideAngle = true) (h : ReachableUnder c sp s) (hen : s.gridEnable = true) (ho : ∀ o ∈ ops, o.underWayGrid = true)
    (ht : Tidy s.vf none false (ops.filterMap (gridEdit sp) ++ [.ask a]))
    (later : List (Op K)) (hl : ∀ o ∈ later, o.underWayGrid = true) (ht' : Tidy (removedGrid c sp s ops a T).vf none false (later.filterMap (gridEdit sp))) :
    AllCorrect (sp.voltage.dflt, sp.freq.dflt) (removedGrid c sp s ops a T).vf (later.filterMap (gridEdit sp))
      (gridAnswers c sp (resetCounters (removedGrid c sp s ops a T)) later) := by
  obtain ⟨h1, h2, h3, j, hj⟩ := mid_grid_pos hov h hen ho ht
  obtain ⟨r1, r2, r3, r4, r5⟩ := removedGrid_facts (T := T) h1 h2 h3
  have hs : StrictSorted (removedGrid c sp s ops a T).vf := strictSorted_noAngle r1.gridS
  exact tidy_correct _ _ hs (w := false) (by simp) ht' _
    (gridAnswers_at hov later (inv_step (c := c) (sp := sp) r1 .reset) (limits_step (c := c) r1 r2 .reset) r3 (posAt_start hs) hl (forward_of_tidy _ hs ht'))

/-! ### Instances -/

/-- A grid schedule with events at 1, 2, 4 and 6 s. -/
def rgState : St ℚ := [Op.addGrid 1 (9/10) 0 60, .addGrid 2 (8/10) 0 60, .addGrid 4 (7/10) 0 60, .addGrid 6 (6/10) 0 60].foldl (step exCfg exSpec) (init true true true)
/-- A simulation has reached 3 s. -/
def rgOps : List (Op ℚ) := [.queryGrid 1, .queryLoad 1, .queryGrid 2]

theorem rg_reachable : ReachableUnder exCfg exSpec rgState :=
  ⟨true, true, true, [Op.addGrid 1 (9/10) 0 60, .addGrid 2 (8/10) 0 60, .addGrid 4 (7/10) 0 60, .addGrid 6 (6/10) 0 60], rfl⟩

theorem rg_tidy : Tidy rgState.vf none false (rgOps.filterMap (gridEdit exSpec) ++ [.ask 3]) := by
  have h : rgOps.filterMap (gridEdit exSpec) ++ [.ask 3] = [.ask 1, .ask 2, .ask 3] := by decide +kernel
  have hl : rgState.vf = [⟨1, (9/10, 60)⟩, ⟨2, (8/10, 60)⟩, ⟨4, (7/10, 60)⟩, ⟨6, (6/10, 60)⟩] := by decide +kernel
  rw [h, hl]
  exact ⟨by simp, by decide +kernel, by rintro a ⟨⟩; norm_num, by decide +kernel, by rintro a ⟨⟩; norm_num, by decide +kernel, trivial⟩

theorem rg_tidy' : Tidy rgState.vf none false ((rgOps ++ [Op.queryGrid 3]).filterMap (gridEdit exSpec) ++ [.ask 5]) := by
  have h : (rgOps ++ [Op.queryGrid 3]).filterMap (gridEdit exSpec) ++ [.ask 5] = [.ask 1, .ask 2, .ask 3, .ask 5] := by decide +kernel
  have hl : rgState.vf = [⟨1, (9/10, 60)⟩, ⟨2, (8/10, 60)⟩, ⟨4, (7/10, 60)⟩, ⟨6, (6/10, 60)⟩] := by decide +kernel
  rw [h, hl]
  exact ⟨by simp, by decide +kernel, by rintro a ⟨⟩; norm_num, by decide +kernel, by rintro a ⟨⟩; norm_num, by decide +kernel, by rintro a ⟨⟩; norm_num, by decide +kernel, trivial⟩

/-- C159, one case of each kind at 3 s.  Removing the event of 6 s is harmless.  Removing the (past) event of 1 s makes the dip of 4 s take effect at once.
At 5 s, with only the event of 6 s still to come, removing the one of 2 s makes all queries fail, even one before the first event. -/
theorem C159_example :
    (rgState.gridEnable = true ∧ (∀ o ∈ rgOps, o.underWayGrid = true)) ∧
    gridAnswers exCfg exSpec (removedGrid exCfg exSpec rgState rgOps 3 6) [.queryGrid 3, .queryGrid 5, .queryGrid 7] = [.ok (8/10, 60), .ok (7/10, 60), .ok (7/10, 60)] ∧
    gridAnswers exCfg exSpec (removedGrid exCfg exSpec rgState rgOps 3 1) [.queryGrid 3, .queryGrid 5, .queryGrid 7] = [.ok (7/10, 60), .ok (7/10, 60), .ok (6/10, 60)] ∧
    gridAnswers exCfg exSpec (removedGrid exCfg exSpec rgState (rgOps ++ [.queryGrid 3]) 5 2) [.queryGrid 5, .queryGrid 0, .queryGrid 7] =
      [.error .indexError, .error .indexError, .error .indexError] := by
  refine ⟨⟨by decide +kernel, by decide⟩, by decide +kernel, by decide +kernel, by decide +kernel⟩

end Events
end PvDer
