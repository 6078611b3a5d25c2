import Verif.Lemmas.Session

/-!
# Properties C102 and C103: what a simulation run reports about its success, and what a later run of the same objects sees
-/

set_option linter.unusedSectionVars false

namespace PvDer

namespace Events
variable {K : Type} [Field K] [LinearOrder K]

/-- Queries keep times, voltages and frequencies of the grid schedule (with the default setting, angles computed from frequency). -/
theorem gridEvents_noAngle {c : Cfg K} (hov : c.overrideAngle = true) (sp : EvSpec K) {s : St K} (hi : Inv s) (t : K) :
    noAngle (gridEvents c sp s t).1.grid = noAngle s.grid := by
  unfold gridEvents
  split
  · rfl
  · rfl
  · rename_i e0 rest hen hg
    split
    · rfl
    · rename_i ec hec
      split_ifs
      · rfl
      · split <;> rfl
      · split
        · rfl
        · rename_i old hold
          dsimp only
          rcases hq : addGrid sp s ec.T ec.v.V (old.ang + c.twoPi * (ec.v.f - old.f) * c.delT) ec.v.f with ⟨s', r⟩
          unfold addGrid at hq
          split_ifs at hq
          · simp only [Prod.mk.injEq] at hq; obtain ⟨rfl, rfl⟩ := hq; rfl
          · simp only [Prod.mk.injEq] at hq; obtain ⟨rfl, rfl⟩ := hq; rfl
          · simp only [Prod.mk.injEq] at hq
            obtain ⟨rfl, rfl⟩ := hq
            show noAngle (addTimed ec.T _ s.grid) = noAngle s.grid
            have hc := hi.gridC
            unfold pyGet at hec
            rw [if_pos hc] at hec
            obtain ⟨hn, rfl⟩ := List.getElem?_eq_some_iff.1 hec
            rw [addTimed_set hi.gridS _ hn]
            exact noAngle_set _ _ hn _
      · rfl
      · rfl

/-- Calls that look at a schedule. -/
def Op.isQuery : Op K → Bool
  | .querySolar _ => true
  | .queryGrid _ => true
  | .queryLoad _ => true
  | _ => false

theorem step_ctr (c : Cfg K) (sp : EvSpec K) (s : St K) (o : Op K) (ho : o.isQuery = false) (h : s = resetCounters s) :
    step c sp s o = resetCounters (step c sp s o) := by
  have h1 : s.solarCtr = 0 := by rw [h]; rfl
  have h2 : s.gridCtr = 0 := by rw [h]; rfl
  have h3 : s.loadCtr = 0 := by rw [h]; rfl
  suffices (step c sp s o).solarCtr = 0 ∧ (step c sp s o).gridCtr = 0 ∧ (step c sp s o).loadCtr = 0 by
    rcases hq : step c sp s o with ⟨⟩
    rw [hq] at this
    obtain ⟨a, b, d⟩ := this
    simp only at a b d
    subst a b d
    rfl
  cases o with
  | addSolar T S Ta => simp only [step]; unfold addSolar; split_ifs <;> exact ⟨h1, h2, h3⟩
  | addGrid T V a f => simp only [step]; unfold addGrid; split_ifs <;> exact ⟨h1, h2, h3⟩
  | addLoad T r i => simp only [step]; unfold addLoad; split_ifs <;> exact ⟨h1, h2, h3⟩
  | removeSolar T all => simp only [step]; unfold removeSolar; split <;> exact ⟨h1, h2, h3⟩
  | removeGrid T => exact ⟨h1, h2, h3⟩
  | removeLoad T all => simp only [step]; unfold removeLoad; split <;> exact ⟨h1, h2, h3⟩
  | querySolar t => simp [Op.isQuery] at ho
  | queryGrid t => simp [Op.isQuery] at ho
  | queryLoad t => simp [Op.isQuery] at ho
  | reset => exact ⟨rfl, rfl, rfl⟩
  | setEnable a b d => exact ⟨h1, h2, h3⟩

theorem reachable_step {c : Cfg K} {sp : EvSpec K} {s : St K} (h : Reachable c s) (o : Op K) : Reachable c (step c sp s o) := by
  obtain ⟨a, b, d, l, rfl⟩ := h
  exact ⟨a, b, d, l ++ [(sp, o)], by simp [run]⟩

end Events

namespace Session
open Complex Phasor Ode Eval

variable {k : Cls} {c : Cfg k} {sv : Solver k} {s : Sess k}

/-! ### C102 -/

/-- A status that the solver's documentation does not list as a success (`mused` is 1 or 2 for a completed step). -/
def Failed (m : Int) : Prop := m = 0 ∨ 2 < m

theorem badStatus_iff (m : Int) : badStatus m = true ↔ Failed m := by simp [badStatus, Failed]

/-- C102: if the solver returns a failing status for some interval, `run_simulation` raises `ValueError`, reports non-convergence, and adds to the record the
start time of the first failing interval and its code; nothing is collected. -/
theorem C102_failure_reported {h : Hid} {y : k.V → ℝ} {rows : List (k.V → ℝ)} {mused : List Int}
    (he : exec c.g c.J c.x (sv s.y c.ts) (s.h, s.y) = ((h, y), .ok (rows, mused))) (hlen : c.ts.length = mused.length + 1) (hf : ∃ m ∈ mused, Failed m) :
    (runSim c sv s).2 = .error .valueError ∧ (runSim c sv s).1.conv = some false ∧ (runSim c sv s).1.rep = s.rep ∧
    ∃ (i : Nat) (m : Int) (t : ℝ), mused[i]? = some m ∧ c.ts[i]? = some t ∧ Failed m ∧ (∀ (j : Nat) (m' : Int), j < i → mused[j]? = some m' → ¬ Failed m') ∧
      (runSim c sv s).1.fails = s.fails ++ [(t, m)] := by
  have hany : mused.any badStatus = true := by
    obtain ⟨m, hm, hF⟩ := hf
    exact List.any_eq_true.2 ⟨m, hm, (badStatus_iff m).2 hF⟩
  have hr : runSim c sv s = ({ s with t := c.ts, rows := [s.y], h := h, y := y, conv := some false, fails := s.fails ++ [(c.ts.getD (mused.findIdx badStatus) 0, mused.getD (mused.findIdx badStatus) 0)] }, .error .valueError) := by
    unfold runSim
    rw [he]
    dsimp only
    unfold check
    rw [if_pos hany, if_pos hlen]
  have hi : mused.findIdx badStatus < mused.length := List.findIdx_lt_length.2 (by obtain ⟨m, hm, hF⟩ := hf; exact ⟨m, hm, (badStatus_iff m).2 hF⟩)
  have ht : mused.findIdx badStatus < c.ts.length := by omega
  rw [hr]
  refine ⟨rfl, rfl, rfl, mused.findIdx badStatus, mused[mused.findIdx badStatus], c.ts[mused.findIdx badStatus], List.getElem?_eq_getElem hi, List.getElem?_eq_getElem ht,
    (badStatus_iff _).1 (List.findIdx_getElem (w := hi)), ?_, ?_⟩
  · intro j m' hj hm' hF
    have := List.not_of_lt_findIdx hj
    obtain ⟨hl, rfl⟩ := List.getElem?_eq_some_iff.1 hm'
    rw [(badStatus_iff _).2 hF] at this
    exact absurd this (by simp)
  · simp [List.getD_eq_getElem?_getD, List.getElem?_eq_getElem hi, List.getElem?_eq_getElem ht]

/-- C102: if every interval has a good status, the run reports convergence and adds no failure; the run then fails only if the collection of the series fails. -/
theorem C102_success_reported {h : Hid} {y : k.V → ℝ} {rows : List (k.V → ℝ)} {mused : List Int}
    (he : exec c.g c.J c.x (sv s.y c.ts) (s.h, s.y) = ((h, y), .ok (rows, mused))) (hf : ∀ m ∈ mused, ¬ Failed m) :
    (runSim c sv s).1.conv = some true ∧ (runSim c sv s).1.fails = s.fails ∧ (runSim c sv s).1.rows = rows ∧ (runSim c sv s).1.t = c.ts ∧
      (c.coll = false → (runSim c sv s).2 = .ok ()) := by
  have hany : mused.any badStatus = false := by
    by_contra hc
    obtain ⟨m, hm, hF⟩ := List.any_eq_true.1 (by simpa using hc)
    exact hf m hm ((badStatus_iff m).1 hF)
  have hcol : ∀ s' : Sess k, (collectSeries c c.ts rows s').1.conv = s'.conv ∧ (collectSeries c c.ts rows s').1.fails = s'.fails ∧
      (collectSeries c c.ts rows s').1.rows = s'.rows ∧ (collectSeries c c.ts rows s').1.t = s'.t := by
    intro s'
    unfold collectSeries
    dsimp only
    repeat' split
    all_goals exact ⟨rfl, rfl, rfl, rfl⟩
  unfold runSim
  rw [he]
  dsimp only
  unfold check
  rw [hany]
  simp only [Bool.false_eq_true, if_false]
  unfold finish
  split
  · rename_i hcoll
    obtain ⟨a, b, d, e⟩ := hcol { s with t := c.ts, rows := rows, h := resets h, y := y, conv := some true }
    exact ⟨a, b, d, e, fun hh => by rw [hcoll] at hh; simp at hh⟩
  · exact ⟨rfl, rfl, rfl, rfl, fun _ => rfl⟩

/-- C102: an exception raised inside an evaluation reaches the caller; no convergence flag is set and nothing is collected. -/
theorem C102_exception_propagates {h : Hid} {y : k.V → ℝ} {e : Err} (he : exec c.g c.J c.x (sv s.y c.ts) (s.h, s.y) = ((h, y), .error e)) :
    (runSim c sv s).2 = .error e ∧ (runSim c sv s).1.conv = s.conv ∧ (runSim c sv s).1.fails = s.fails ∧ (runSim c sv s).1.rep = s.rep := by
  unfold runSim
  rw [he]
  exact ⟨rfl, rfl, rfl, rfl⟩

/-- Both kinds of runs exist: a solver that reports failure in its third interval after a success and a higher method code. -/
theorem C102_example (c : Cfg k) (s : Sess k) (hts : c.ts = [0, 1, 2, 3]) (hcoll : c.coll = false) :
    (runSim c (fun y _ => .done [y, y, y, y] [1, 0, 7]) s).1.fails = s.fails ++ [(1, 0)] ∧ (runSim c (fun y _ => .done [y, y, y, y] [1, 2, 2]) s).2 = .ok () := by
  constructor
  · unfold runSim exec
    dsimp only
    unfold check
    rw [if_pos (by decide), if_pos (by rw [hts]; rfl)]
    simp [hts, badStatus, List.findIdx, List.findIdx.go]
  · exact (C102_success_reported (sv := fun y _ => .done [y, y, y, y] [1, 2, 2]) rfl (by intro m hm; simp at hm; rcases hm with rfl | rfl <;> simp [Failed])).2.2.2.2 hcoll

end Session
end PvDer
