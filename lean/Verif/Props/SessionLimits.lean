import Verif.Props.SessionRuns
import Verif.Props.Grid

/-!
# Property C103, continued: what a later run does *not* start afresh
-/

namespace PvDer
namespace Session
open Complex Phasor Ode Eval

variable {k : Cls} {g : SCfg} {h : Hid} {c : Cfg k} {sv : Solver k} {s : Sess k}

/-! ### The grid source -/

theorem eval_grid (cl : Call k) {e : Env} (he : (evalEnv k g cl h).2 = .ok e) : (evalEnv k g cl h).1.grid = (gridStage g cl.t h).1.grid := by
  obtain ⟨h1, h2, h3, h4, e1, e2, e3, e4, e5⟩ := eval_ok he
  obtain ⟨_, _, _, _, _, v6, _⟩ := solar_ok e2
  obtain ⟨_, _, _, _, _, f6⟩ := late_frame e4
  have he' := he
  rw [e5] at he'
  obtain ⟨_, _, b3, _⟩ := rt_ok he'
  rw [e5, b3, e1]
  show (freqStage k g cl (irefStage k g cl h4)).grid = h1.grid
  rw [f6]
  have h23 : h3.grid = h2.grid := by
    have : (loadStage k g cl.jac cl.t h2).1.grid = h2.grid := by
      unfold loadStage
      split
      · rcases Events.loadEvents h2.ev cl.t with ⟨ev, r⟩
        cases r with
        | error x => rfl
        | ok v => dsimp only; split_ifs <;> rfl
      · rfl
    rw [e3] at this; exact this
  rw [h23, v6]; rfl

/-- An evaluation before the time of the last voltage change keeps the source voltage, whatever the schedule says. -/
theorem eval_grid_past (hsa : g.standAlone = true) (cl : Call k) {e : Env} (he : (evalEnv k g cl h).2 = .ok e) (ht : cl.t < h.grid.tV) :
    (evalEnv k g cl h).1.grid.va = h.grid.Va ∧ (evalEnv k g cl h).1.grid.Va = h.grid.Va ∧ (evalEnv k g cl h).1.grid.tV = h.grid.tV := by
  rw [eval_grid cl he]
  obtain ⟨h1, h2, h3, h4, e1, _⟩ := eval_ok he
  rw [e1]
  unfold gridStage Grid.steadyState at e1
  rw [if_pos hsa] at e1
  rcases hq : Events.gridEvents g.evc g.sp h.ev cl.t with ⟨ev, r⟩
  rw [hq] at e1
  cases r with
  | error x => simp at e1
  | ok v =>
    simp only [Prod.mk.injEq, and_true] at e1
    rw [← e1]
    obtain ⟨_, _, a, _⟩ := Grid.C65_change_only_forward h.grid cl.t v
    obtain ⟨a1, a2⟩ := a ht
    refine ⟨?_, a1, a2⟩
    rw [← a1]
    show (Grid.update h.grid cl.t v).va = _
    unfold Grid.update; rfl

/-- C103 is false of the grid source: after a run in which the voltage changed at some time `τ` (`grid.tV`), the next run starts with that last voltage: every
evaluation before the first one at `τ` or later uses it, whatever the schedule says for these times. -/
theorem C103_grid_starts_with_last_voltage (hsa : c.g.standAlone = true) {r : List (k.V → ℝ) × List Int}
    (hok : (exec c.g c.J c.x (sv s.y c.ts) (s.h, s.y)).2 = .ok r) (p : List (Call k)) (q : List (Call k))
    (htr : trace c.g c.J c.x (sv s.y c.ts) s.h = p ++ q) (hne : p ≠ []) (hpast : ∀ cl ∈ p, cl.t < s.h.grid.tV) :
    (run k c.g s.h p).grid.va = s.h.grid.Va := by
  have ht := (exec_trace (g := c.g) (h := s.h) c.J c.x (sv s.y c.ts) s.y).2 r hok
  rw [htr] at ht
  have ho := ((ok_append _ _ _).1 ht).1
  have key : ∀ (p : List (Call k)) (h : Hid), Ok k c.g h p → (∀ cl ∈ p, cl.t < h.grid.tV) →
      (run k c.g h p).grid.Va = h.grid.Va ∧ (p ≠ [] → (run k c.g h p).grid.va = h.grid.Va) := by
    intro p
    induction p with
    | nil => intro h _ _; exact ⟨rfl, fun hn => absurd rfl hn⟩
    | cons cl p ih =>
      intro h ho hp
      obtain ⟨⟨e, he⟩, ho'⟩ := ho
      obtain ⟨b1, b2, b3⟩ := eval_grid_past hsa cl he (hp cl (by simp))
      obtain ⟨i1, i2⟩ := ih _ ho' (fun x hx => by rw [b3]; exact hp x (by simp [hx]))
      refine ⟨i1.trans b2, fun _ => ?_⟩
      cases p with
      | nil => exact b1
      | cons x p => exact (i2 (by simp)).trans b2
  exact (key p s.h ho hpast).2 hne

/-! ### The initial state of the next run -/

/-- The states of the DER after the solver are those of the last evaluation. -/
theorem exec_last (J : Env → k.V → k.V → ℝ) (x : Ext) (S : Strat k) (y : k.V → ℝ) {h' : Hid} {y' : k.V → ℝ} {r : List (k.V → ℝ) × List Int}
    (he : exec g J x S (h, y) = ((h', y'), .ok r)) : y' = ((trace g J x S h).getLast?.map Call.y).getD y := by
  induction S generalizing h y with
  | done a b =>
    simp only [exec, Prod.mk.injEq] at he
    rw [← he.1.2]; rfl
  | ask j y1 t next ih =>
    unfold exec at he
    unfold trace
    dsimp only at he
    rcases hq : evalEnv k g (mkCall x j y1 t) h with ⟨h1, r1⟩
    rw [hq] at he
    cases r1 with
    | error e => simp at he
    | ok e =>
      dsimp only at he ⊢
      have hg : ∃ u, (gridStage g t h).2 = .ok u := by
        obtain ⟨a, _, _, _, b, _⟩ := eval_ok (k := k) (g := g) (c := mkCall x j y1 t) (h := h) (e := e) (by rw [hq])
        have b' : gridStage g t h = (a, .ok ()) := b
        exact ⟨(), by rw [b']⟩
      obtain ⟨u, hu⟩ := hg
      rw [hu] at he
      have i := ih (if j then .inr (J e) else .inl (k.rhs e)) y1 he
      rw [i]
      generalize trace g J x (next (if j then .inr (J e) else .inl (k.rhs e))) h1 = l
      cases l with
      | nil => rfl
      | cons a l => rw [List.getLast?_cons_cons]; cases hl : (a :: l).getLast? with
        | none => simp at hl
        | some z => rfl

/-- C103: a second run does not repeat the first one: the initial vector of the next run is the state vector of the last evaluation of the first (not its initial
states, and not the last row of its solution). Stated for `collectSolution=False`. -/
theorem C103_next_run_starts_at_last_evaluation (hcoll : c.coll = false) (hret : (runSim c sv s).2 = .ok ()) {p : List (Call k)} {cl : Call k}
    (htr : trace c.g c.J c.x (sv s.y c.ts) s.h = p ++ [cl]) : (runSim c sv s).1.y = cl.y := by
  obtain ⟨h, y, rows, mused, he, _, hr⟩ := runSim_ok hret
  have hy := exec_last (g := c.g) c.J c.x (sv s.y c.ts) s.y he
  rw [htr] at hy
  rw [hr]; unfold finish; rw [hcoll]
  simpa using hy

/-! ### Failed runs -/

/-- C103: a run stopped by a failing solver status keeps its advanced event counters. -/
theorem C103_failed_run_keeps_counters {h : Hid} {y : k.V → ℝ} {rows : List (k.V → ℝ)} {mused : List Int}
    (he : exec c.g c.J c.x (sv s.y c.ts) (s.h, s.y) = ((h, y), .ok (rows, mused))) (hf : ∃ m ∈ mused, Failed m) :
    (runSim c sv s).1.h = h ∧ (runSim c sv s).1.y = y := by
  have hany : mused.any badStatus = true := by
    obtain ⟨m, hm, hF⟩ := hf
    exact List.any_eq_true.2 ⟨m, hm, (badStatus_iff m).2 hF⟩
  unfold runSim
  rw [he]
  dsimp only
  unfold check
  rw [if_pos hany]
  split_ifs <;> exact ⟨rfl, rfl⟩

/-! ### Concrete sessions -/

/-- Three insolation events and one grid event. -/
noncomputable def exOps3 : List (Events.Op ℝ) := [.addSolar 1 50 300, .addSolar 2 60 300, .addSolar 3 70 300, .addGrid 1 (9 / 10) 0 60]

theorem exOps3_no : ∀ o ∈ exOps3, o.isRemoval = false := by
  intro o ho
  simp only [exOps3, List.mem_cons, List.not_mem_nil, or_false] at ho
  rcases ho with rfl | rfl | rfl | rfl <;> rfl

/-- The events object. -/
noncomputable def exEv3 (g : SCfg) : Events.St ℝ := Events.run g.evc (Events.init true true true) (exOps3.map fun o => (g.sp, o))

theorem exEv3_eq (p : Par) (sa : Bool) : exEv3 (exG p sa) =
    { (Events.init true true true : Events.St ℝ) with
      solar := [⟨1, ⟨50, 300⟩⟩, ⟨2, ⟨60, 300⟩⟩, ⟨3, ⟨70, 300⟩⟩], grid := [⟨1, ⟨9 / 10, 0, 60⟩⟩], solarTotal := 3, gridTotal := 1, total := 4 } := by
  unfold exEv3 exOps3 Events.run
  simp only [List.map_cons, List.map_nil, List.foldl_cons, List.foldl_nil, Events.step, Events.addSolar, exG]
  rw [if_neg (by norm_num [Events.defaultSpec]), if_neg (by norm_num [Events.defaultSpec])]
  dsimp only
  rw [if_neg (by norm_num [Events.defaultSpec]), if_neg (by norm_num [Events.defaultSpec])]
  dsimp only
  rw [if_neg (by norm_num [Events.defaultSpec]), if_neg (by norm_num [Events.defaultSpec])]
  dsimp only
  simp only [Events.addGrid]
  rw [if_neg (by norm_num [Events.defaultSpec]), if_neg (by norm_num [Events.defaultSpec])]
  have a : (1:ℝ) ≤ 2 := by norm_num
  have b : (2:ℝ) ≤ 3 := by norm_num
  have d : (1:ℝ) ≤ 3 := by norm_num
  have a' : ¬ (2:ℝ) ≤ 1 := by norm_num
  simp [addTimed, removeAt, removeLoop, sortByT, Events.init, Events.updateTotals, List.insertionSort, List.orderedInsert, a, b]

/-- A session with these events. -/
noncomputable def exS (sa : Bool) (y : three.V → ℝ) : Sess three :=
  ⟨exH (exG exPar sa) (exEv3 (exG exPar sa)), y, [], [], none, [], none⟩
/-- Its simulation object: one interval from 0 to 4 s. -/
noncomputable def exC (sa : Bool) : Cfg three := ⟨exG exPar sa, fun _ _ _ => 0, ⟨0, 0, 0, 377⟩, [0, 4], false, false⟩

/-- A solver that evaluates at the given times and returns the given status. -/
def askAt {k : Cls} (m : Int) : List ℝ → Solver k
  | [], y, _ => .done [y, y] [m]
  | t :: l, y, ts => .ask false y t (fun _ => askAt m l y ts)

theorem askAt_trace {k : Cls} (g : SCfg) (J : Env → k.V → k.V → ℝ) (x : Ext) (m : Int) (l : List ℝ) (y : k.V → ℝ) (ts : List ℝ) (h : Hid) (hg : Good k g h) (y' : k.V → ℝ) :
    trace g J x (askAt m l y ts) h = l.map (mkCall x false y) ∧ (exec g J x (askAt m l y ts) (h, y')).2 = .ok ([y, y], [m]) := by
  induction l generalizing h y' with
  | nil => exact ⟨rfl, rfl⟩
  | cons t l ih =>
    obtain ⟨⟨e, he⟩, hg'⟩ := good_step hg (mkCall x false y t)
    unfold askAt trace exec
    rcases hq : evalEnv k g (mkCall x false y t) h with ⟨h1, r⟩
    rw [hq] at he hg'
    simp only at he
    subst he
    dsimp only
    have := ih h1 hg'
    refine ⟨by rw [(this y).1]; rfl, ?_⟩
    exact (this _).2

theorem exS_good (sa : Bool) (y : three.V → ℝ) : Good three (exG exPar sa) (exS sa y).h := ex_good three exPar sa (Or.inl rfl) exOps3 exOps3_no

theorem good_run {k : Cls} {g : SCfg} {h : Hid} (hg : Good k g h) (l : List (Call k)) : Good k g (run k g h l) := by
  induction l generalizing h with
  | nil => exact hg
  | cons c l ih => exact ih (good_step hg c).2

/-- C103, witness: the first run passes the events at 1 s and 2 s and fails; the next run evaluates at 1.5 s and computes with the insolation of the event at
2 s, although the one scheduled for 1.5 s is that of the event at 1 s. -/
theorem C103_failed_run_desynchronises (y : three.V → ℝ) :
    let s1 := (runSim (exC false) (askAt 0 [1, 2]) (exS false y)).1
    let s2 := (runSim (exC false) (askAt 1 [3 / 2]) s1).1
    (runSim (exC false) (askAt 0 [1, 2]) (exS false y)).2 = .error .valueError ∧ (runSim (exC false) (askAt 1 [3 / 2]) s1).2 = .ok () ∧
      s2.h.Sinsol = 60 ∧ ∀ v, Correct (exS false y).h.ev.solar ⟨100, 29815 / 100⟩ (3 / 2) v → v.Sinsol = 50 := by
  intro s1 s2
  have hg := exS_good false y
  have t1 := askAt_trace (exC false).g (exC false).J (exC false).x 0 [1, 2] y (exC false).ts (exS false y).h hg y
  rcases he1 : exec (exC false).g (exC false).J (exC false).x (askAt 0 [1, 2] y (exC false).ts) ((exS false y).h, y) with ⟨⟨h1, y1⟩, r1⟩
  have hr1 : r1 = .ok ([y, y], [0]) := by have := t1.2; rw [he1] at this; exact this
  subst hr1
  have hh1 : h1 = run three (exC false).g (exS false y).h ([1, 2].map (mkCall (exC false).x false y)) := by
    have := (exec_trace (g := (exC false).g) (h := (exS false y).h) (exC false).J (exC false).x (askAt 0 [1, 2] y (exC false).ts) y).1
    rw [he1, t1.1] at this; exact this
  obtain ⟨hs1, hs1y0⟩ : s1.h = h1 ∧ s1.y = y1 := C103_failed_run_keeps_counters (c := exC false) (sv := askAt 0 [1, 2]) (s := exS false y) he1 ⟨0, by simp, Or.inl rfl⟩
  have hf1 := (C102_failure_reported (c := exC false) (sv := askAt 0 [1, 2]) (s := exS false y) he1 rfl ⟨0, by simp, Or.inl rfl⟩).1
  have hy1 : y1 = y := by
    have := exec_last (g := (exC false).g) (exC false).J (exC false).x _ y he1
    rw [t1.1] at this
    exact this
  have hs1y : s1.y = y := hs1y0.trans hy1
  have hg1 : Good three (exC false).g s1.h := by rw [hs1, hh1]; exact good_run hg _
  have t2 := askAt_trace (exC false).g (exC false).J (exC false).x 1 [3 / 2] y (exC false).ts s1.h hg1 s1.y
  rcases he2 : exec (exC false).g (exC false).J (exC false).x (askAt 1 [3 / 2] s1.y (exC false).ts) (s1.h, s1.y) with ⟨⟨h2, y2⟩, r2⟩
  have hr2 : r2 = .ok ([y, y], [1]) := by have := t2.2; rw [hs1y] at this he2; rw [he2] at this; exact this
  subst hr2
  have hok2 := C102_success_reported (c := exC false) (sv := askAt 1 [3 / 2]) (s := s1) he2 (by intro m hm; simp at hm; subst hm; simp [Failed])
  have hh2 : h2 = run three (exC false).g (exS false y).h ([1, 2, 3 / 2].map (mkCall (exC false).x false y)) := by
    have := (exec_trace (g := (exC false).g) (h := s1.h) (exC false).J (exC false).x (askAt 1 [3 / 2] s1.y (exC false).ts) s1.y).1
    rw [he2, hs1y, t2.1, hs1, hh1, ← run_append, ← List.map_append] at this
    exact this
  have hs2 : s2.h.Sinsol = h2.Sinsol := by
    obtain ⟨h', y', rows, mused, a, _, b⟩ := runSim_ok (hok2.2.2.2.2 rfl)
    rw [he2] at a
    simp only [Prod.mk.injEq] at a
    show (runSim (exC false) (askAt 1 [3 / 2]) s1).1.h.Sinsol = _
    rw [b, ← a.1.1]
    rfl
  have hsol : (exS false y).h.ev.solar = [⟨1, ⟨50, 300⟩⟩, ⟨2, ⟨60, 300⟩⟩, ⟨3, ⟨70, 300⟩⟩] := by
    show (exEv3 (exG exPar false)).solar = _; rw [exEv3_eq]
  have hctr : (exS false y).h.ev.solarCtr = 0 := by show (exEv3 (exG exPar false)).solarCtr = _; rw [exEv3_eq]; rfl
  refine ⟨hf1, hok2.2.2.2.2 rfl, ?_, ?_⟩
  · obtain ⟨v, e, a1, a2, _⟩ := run_solar (k := three) (g := (exC false).g) (h := (exS false y).h) hg.ev.inv
      (by show (exEv3 (exG exPar false)).solarEnable = true; rw [exEv3_eq]; rfl)
      ([1, 2].map (mkCall (exC false).x false y)) (mkCall (exC false).x false y (3 / 2)) [] (C99_no_exception hg _) (fun _ => rfl)
    rw [hs2, hh2]
    have a3 : (run three (exC false).g (exS false y).h ([1, 2, 3 / 2].map (mkCall (exC false).x false y))).Sinsol = v.Sinsol := a2
    rw [a3]
    rw [hsol, hctr] at a1
    have b1 : ¬ ((1:ℝ) < 1) := by norm_num
    have b2 : ¬ ((2:ℝ) < 1) := by norm_num
    have b3 : ¬ ((2:ℝ) < 2) := by norm_num
    have b4 : ¬ ((3/2:ℝ) < 1) := by norm_num
    have b5 : ((3/2:ℝ) < 3) := by norm_num
    simp [playSeq, playback, pyGet, mkCall, b1, b2, b3, b4, b5] at a1
    rw [← a1]
  · intro v hv
    rw [hsol] at hv
    rcases hv with ⟨e, ⟨he, hle, hmax⟩, rfl⟩ | ⟨hno, _⟩
    · simp only [List.mem_cons, List.not_mem_nil, or_false] at he
      rcases he with rfl | rfl | rfl
      · rfl
      · norm_num at hle
      · norm_num at hle
    · exact absurd (hno ⟨1, ⟨50, 300⟩⟩ (by simp)) (by norm_num)

/-- A run with such a solver, with status 1, without collection. -/
theorem askAt_run {k : Cls} {c : Cfg k} (hcoll : c.coll = false) (l : List ℝ) (s : Sess k) (hg : Good k c.g s.h) :
    (runSim c (askAt 1 l) s).2 = .ok () ∧ (runSim c (askAt 1 l) s).1.h = resets (run k c.g s.h (l.map (mkCall c.x false s.y))) ∧ (runSim c (askAt 1 l) s).1.y = s.y := by
  obtain ⟨t1, t2⟩ := askAt_trace c.g c.J c.x 1 l s.y c.ts s.h hg s.y
  have hx := exec_trace (g := c.g) (h := s.h) c.J c.x (askAt 1 l s.y c.ts) s.y
  rcases he : exec c.g c.J c.x (askAt 1 l s.y c.ts) (s.h, s.y) with ⟨⟨h1, y1⟩, r1⟩
  rw [he] at t2 hx
  simp only at t2
  subst t2
  have hh : h1 = run k c.g s.h (l.map (mkCall c.x false s.y)) := by rw [← t1]; exact hx.1
  have hy : y1 = s.y := by
    have := exec_last (g := c.g) c.J c.x _ s.y he
    rw [t1] at this
    rw [this]
    cases hl : (l.map (mkCall c.x false s.y)).getLast? with
    | none => rfl
    | some z =>
      have := List.mem_of_getLast? hl
      obtain ⟨a, _, rfl⟩ := List.mem_map.1 this
      rfl
  have e : runSim c (askAt 1 l) s = ({ s with t := c.ts, rows := [s.y, s.y], h := resets h1, y := y1, conv := some true }, .ok ()) := by
    unfold runSim
    rw [he]
    dsimp only
    unfold check
    rw [if_neg (by decide)]
    dsimp only
    unfold finish
    rw [if_neg (by simp [hcoll])]
  rw [e]
  exact ⟨rfl, by rw [← hh], hy⟩

/-- C103, witness: the sag to 0.9 p.u. scheduled for 1 s is met by a first run at 2 s.  The second run of the same session evaluates at 0 s; the schedule says
1.0 p.u. there, the source voltage is still 0.9 p.u. -/
theorem C103_grid_memory (y : three.V → ℝ) :
    let s1 := (runSim (exC true) (askAt 1 [2]) (exS true y)).1
    let s2 := (runSim (exC true) (askAt 1 [0]) s1).1
    (runSim (exC true) (askAt 1 [2]) (exS true y)).2 = .ok () ∧ (runSim (exC true) (askAt 1 [0]) s1).2 = .ok () ∧
      ‖s2.h.grid.va‖ = 9 / 10 * Grid.scale ∧ (∀ v, Correct (s1.h.ev.grid.map fun e => (⟨e.T, (e.v.V, e.v.f)⟩ : Ev ℝ (ℝ × ℝ))) (1, 60) 0 v → v.1 = 1) := by
  intro s1 s2
  obtain ⟨a1, a2, a3⟩ := askAt_run (c := exC true) rfl [2] (exS true y) (exS_good true y)
  have hgr : s1.h = resets (run three (exC true).g (exS true y).h [mkCall (exC true).x false y 2]) := a2
  have hgood1 : Good three (exC true).g (run three (exC true).g (exS true y).h [mkCall (exC true).x false y 2]) := good_run (exS_good true y) _
  have hq : Events.gridEvents (exC true).g.evc (exC true).g.sp (exS true y).h.ev 2 = ((exS true y).h.ev, .ok ⟨9 / 10, 0, 60⟩) := by
    show Events.gridEvents (exC true).g.evc (exC true).g.sp (exEv3 (exG exPar true)) 2 = (exEv3 (exG exPar true), .ok ⟨9 / 10, 0, 60⟩)
    rw [exEv3_eq]
    unfold Events.gridEvents
    have b1 : ¬ ((2:ℝ) < 1) := by norm_num
    have b2 : ((1:ℝ) ≤ 2) := by norm_num
    have b3 : ¬ ((2:ℝ) < 1 + 3 / 1000) := by norm_num
    simp [Events.init, pyGet, b1, b2, b3]
  have hstage : (gridStage (exC true).g 2 (exS true y).h).1 = { (exS true y).h with grid := Grid.update (exS true y).h.grid 2 ⟨9 / 10, 0, 60⟩ } := by
    unfold gridStage Grid.steadyState
    rw [if_pos (show (exC true).g.standAlone = true from rfl)]
    dsimp only
    rw [hq]
  obtain ⟨e1, he1⟩ := (good_step (exS_good true y) (mkCall (exC true).x false y 2)).1
  have hgrid : s1.h.grid = Grid.update (exS true y).h.grid 2 ⟨9 / 10, 0, 60⟩ := by
    rw [hgr]
    refine (eval_grid (g := (exC true).g) _ he1).trans ?_
    show (gridStage (exC true).g 2 (exS true y).h).1.grid = _
    rw [hstage]
  have hne : (exS true y).h.grid.Va ≠ Grid.phasorOf ⟨9 / 10, 0, 60⟩ := by
    intro hc
    have := congrArg (fun z => ‖z‖) hc
    have e0 : ((exS true y).h.grid.Va : ℂ) = Grid.phasorOf ⟨1, 0, 60⟩ := rfl
    rw [e0] at this
    simp only [Grid.norm_phasorOf, Grid.scale] at this
    rw [abs_of_pos (by norm_num), abs_of_pos (by norm_num)] at this
    norm_num at this
  have h0 : (exS true y).h.grid.tV ≤ 2 := by show (0:ℝ) ≤ 2; norm_num
  have hVa : s1.h.grid.Va = Grid.phasorOf ⟨9 / 10, 0, 60⟩ := by rw [hgrid, Grid.update_Va, if_pos ⟨hne, h0⟩]
  have htV : s1.h.grid.tV = 2 := by rw [hgrid, Grid.update_tV, if_pos ⟨hne, h0⟩]
  have hgood : Good three (exC true).g s1.h := by
    rw [hgr]
    refine { hgood1 with ev := ?_, dc := ?_ }
    · exact ⟨Events.inv_step (c := (exC true).g.evc) (sp := (exC true).g.sp) hgood1.ev.inv .reset, Events.limits_step (c := (exC true).g.evc) hgood1.ev.inv hgood1.ev.lim .reset,
        Events.tight_step (c := (exC true).g.evc) (sp := (exC true).g.sp) hgood1.ev.inv hgood1.ev.tight .reset rfl⟩
    · exact ⟨hgood1.dc.1, hgood1.dc.2, le_rfl, Or.inl rfl⟩
  obtain ⟨b1, b2, b3⟩ := askAt_run (c := exC true) rfl [0] s1 hgood
  obtain ⟨e2, he2⟩ := (good_step hgood (mkCall (exC true).x false s1.y 0)).1
  refine ⟨a1, b1, ?_, ?_⟩
  · have : s2.h.grid.va = Grid.phasorOf ⟨9 / 10, 0, 60⟩ := by
      rw [← hVa]
      show (runSim (exC true) (askAt 1 [0]) s1).1.h.grid.va = _
      rw [b2]
      exact (eval_grid_past (g := (exC true).g) (h := s1.h) rfl (mkCall (exC true).x false s1.y 0) he2 (by rw [htV]; show (0:ℝ) < 2; norm_num)).1
    rw [this, Grid.norm_phasorOf, abs_of_pos (by norm_num)]
  · intro v hv
    have hl : (s1.h.ev.grid.map fun e => (⟨e.T, (e.v.V, e.v.f)⟩ : Ev ℝ (ℝ × ℝ))) = [⟨1, (9 / 10, 60)⟩] := by
      rw [hgr]
      refine (run_kept (k := three) (g := (exC true).g) (kept_grid rfl (Events.noAngle (exEv3 (exG exPar true)).grid)) (h := (exS true y).h)
        [mkCall (exC true).x false y 2] ⟨(exS_good true y).ev.inv, rfl⟩).2.trans ?_
      rw [exEv3_eq]; rfl
    rw [hl] at hv
    rcases hv with ⟨e, ⟨he, hle, _⟩, rfl⟩ | ⟨_, rfl⟩
    · simp only [List.mem_singleton] at he
      subst he; norm_num at hle
    · rfl

theorem exS_between (sa : Bool) (y : three.V → ℝ) : Between (exC sa) (exS sa y) := by
  refine ⟨⟨true, true, true, exOps3.map fun o => ((exC sa).g.sp, o), rfl⟩, ?_, rfl⟩
  show exEv3 (exG exPar sa) = Events.resetCounters (exEv3 (exG exPar sa))
  rw [exEv3_eq]; rfl

/-- The hypotheses of C103 are met: a simulation, another event, and a second simulation that evaluates at 1 s, 2.5 s, 3 s and 4 s. -/
theorem C103_example (y : three.V → ℝ) :
    let l : List (Act three) := [.sim (askAt 1 [1, 2]), .edit (.addSolar (7 / 2) 80 300)]
    AllReturn (exC false) (exS false y) l ∧ (∀ o, Act.edit o ∈ l → o.isQuery = false) ∧ edits l = [.addSolar (7 / 2) 80 300] ∧
      (Events.run (exC false).g.evc (exS false y).h.ev ((edits l).map fun o => ((exC false).g.sp, o))).solar =
        [⟨1, ⟨50, 300⟩⟩, ⟨2, ⟨60, 300⟩⟩, ⟨3, ⟨70, 300⟩⟩, ⟨7 / 2, ⟨80, 300⟩⟩] ∧
      Dense (Events.run (exC false).g.evc (exS false y).h.ev ((edits l).map fun o => ((exC false).g.sp, o))).solar none [1, 5 / 2, 3, 4] := by
  intro l
  have hed : edits l = [.addSolar (7 / 2) 80 300] := rfl
  have hsol : (Events.run (exC false).g.evc (exS false y).h.ev ((edits l).map fun o => ((exC false).g.sp, o))).solar =
      [⟨1, ⟨50, 300⟩⟩, ⟨2, ⟨60, 300⟩⟩, ⟨3, ⟨70, 300⟩⟩, ⟨7 / 2, ⟨80, 300⟩⟩] := by
    rw [hed]
    show (Events.run (exC false).g.evc (exEv3 (exG exPar false)) _).solar = _
    rw [exEv3_eq]
    unfold Events.run
    simp only [List.map_cons, List.map_nil, List.foldl_cons, List.foldl_nil, Events.step, Events.addSolar, exC, exG]
    rw [if_neg (by norm_num [Events.defaultSpec]), if_neg (by norm_num [Events.defaultSpec])]
    have a : (1:ℝ) ≤ 2 := by norm_num
    have b : (2:ℝ) ≤ 3 := by norm_num
    have d : (3:ℝ) ≤ 7 / 2 := by norm_num
    have e1 : ¬ (7 / 2 : ℝ) = 1 := by norm_num
    have e2 : ¬ (7 / 2 : ℝ) = 2 := by norm_num
    have e3 : ¬ (7 / 2 : ℝ) = 3 := by norm_num
    simp [addTimed, removeAt, removeLoop, sortByT, Events.updateTotals, List.insertionSort, a, b, d, e1, e2, e3]
  refine ⟨⟨(askAt_run (c := exC false) rfl [1, 2] (exS false y) (exS_good false y)).1, rfl, trivial⟩, ?_, hed, hsol, ?_⟩
  · intro o ho
    simp only [l, List.mem_cons, List.not_mem_nil, or_false, reduceCtorEq, false_or, Act.edit.injEq] at ho
    subst ho; rfl
  · rw [hsol]
    simp only [Dense, AfterPrev, List.mem_cons, List.not_mem_nil, or_false]
    norm_num
    simp

end Session
end PvDer
