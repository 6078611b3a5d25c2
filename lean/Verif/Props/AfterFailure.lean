import Verif.Props.Loop
import Verif.Props.SessionTotal

/-!
# C153: repeating a simulation that failed

`run_simulation` rewinds the schedules only when the solver has succeeded.  After a failed run the next one therefore goes on with the schedules where the failed one stopped, unless
the user calls `reset_event_counters()`.
-/

namespace PvDer
namespace Session

open Complex Phasor Ode Eval

variable {k : Cls} {g : SCfg} {h : Hid} {c : Cfg k} {s : Sess k} {sv : Solver k}

/-! ### What no run can break, failing or not -/

theorem andThen_inv {α β : Type} {P : Hid → Prop} {r : Hid × Except Err α} {f : α → Hid → Hid × Except Err β} (h1 : P r.1) (hf : ∀ a h, P h → P (f a h).1) :
    P (andThen r f).1 := by
  obtain ⟨h, r⟩ := r
  cases r with
  | ok a => exact hf a h h1
  | error e => exact h1

/-- The photocurrent belongs to the weather after any evaluation, also one that raises. -/
theorem eval_sun_any (cl : Call k) (hI : SunOk g h) : SunOk g (evalEnv k g cl h).1 := by
  unfold evalEnv
  refine andThen_inv (P := SunOk g) ?_ fun _ h1 p1 => ?_
  · unfold gridStage
    split <;> exact hI
  refine andThen_inv (P := SunOk g) ?_ fun _ h2 p2 => ?_
  · have p1' : SunOk g (stateStage k cl.y h1) := p1
    unfold solarStage
    rcases Events.solarEvents g.sp (stateStage k cl.y h1).ev cl.t with ⟨ev, r⟩
    cases r with
    | error e => exact p1'
    | ok v =>
      dsimp only
      by_cases hc : k.cachedIph = true
      · rw [if_pos hc]
        split
        · rfl
        · exact p1'
      · rw [if_neg hc]
        rfl
  refine andThen_inv (P := SunOk g) ?_ fun _ h3 p3 => ?_
  · obtain ⟨a, b, d, _⟩ := load_solar (k := k) (g := g) (h := h2) cl.jac cl.t
    unfold SunOk at p2 ⊢
    rw [a, b, d]
    exact p2
  refine andThen_inv (P := SunOk g) ?_ fun _ h4 p4 => ?_
  · unfold dcStage
    split
    · rcases VdcRef.updateRef (wNow (qStage k g cl h3)) cl.t with ⟨w, r⟩
      cases r <;> exact p3
    · exact p3
  · have p5 : SunOk g (freqStage k g cl (irefStage k g cl h4)) := by
      unfold freqStage
      split <;> exact p4
    unfold rtStage
    dsimp only
    split
    · exact p5
    · split <;> exact p5

theorem run_sun_any (l : List (Call k)) (hI : SunOk g h) : SunOk g (run k g h l) := by
  induction l generalizing h with
  | nil => exact hI
  | cons cl l ih => exact ih (eval_sun_any cl hI)

/-- A run, failing or not, keeps what the queries and the rewinding keep, and the photocurrent. -/
theorem runSim_any {P : Events.St ℝ → Prop} (hP : Kept c.g P) (hR : ∀ ev, P ev → P (Events.resetCounters ev)) (h0 : P s.h.ev) (hI : SunOk c.g s.h) :
    P (runSim c sv s).1.h.ev ∧ SunOk c.g (runSim c sv s).1.h := by
  have ht := exec_trace (g := c.g) (h := s.h) c.J c.x (sv s.y c.ts) s.y
  unfold runSim
  rcases he : exec c.g c.J c.x (sv s.y c.ts) (s.h, s.y) with ⟨⟨h, y⟩, r⟩
  rw [he] at ht
  have hh : h = run k c.g s.h (trace c.g c.J c.x (sv s.y c.ts) s.h) := ht.1
  have hp : P h.ev := by rw [hh]; exact run_kept hP _ h0
  have hs : SunOk c.g h := by rw [hh]; exact run_sun_any _ hI
  cases r with
  | error e => exact ⟨hp, hs⟩
  | ok r =>
    obtain ⟨rows, mused⟩ := r
    dsimp only
    unfold check
    by_cases hb : mused.any badStatus = true
    · rw [if_pos hb]
      by_cases hn : c.ts.length = mused.length + 1
      · rw [if_pos hn]
        exact ⟨hp, hs⟩
      · rw [if_neg hn]
        exact ⟨hp, hs⟩
    · rw [if_neg hb]
      dsimp only
      unfold finish
      split
      · have := collect_facts (s := { s with t := c.ts, rows := rows, h := resets h, y := y, conv := some true }) hP hR c.ts rows (hR _ hp) hs
        exact ⟨this.1, this.2.1⟩
      · exact ⟨hR _ hp, hs⟩

/-- After any actions whatever: the events object is one that the API can produce, its schedules are those of the editing calls, and the photocurrent belongs to the weather. -/
theorem acts_any (l : List (Act k)) (hq : ∀ o, Act.edit o ∈ l → o.isQuery = false) (hr : Events.Reachable c.g.evc s.h.ev) (hI : SunOk c.g s.h)
    (ev : Events.St ℝ) (he : Events.SameLists s.h.ev ev) :
    Events.Reachable c.g.evc (acts c s l).h.ev ∧ SunOk c.g (acts c s l).h ∧
      Events.SameLists (acts c s l).h.ev (Events.run c.g.evc ev ((edits l).map fun o => (c.g.sp, o))) := by
  induction l generalizing s ev with
  | nil => exact ⟨hr, hI, he⟩
  | cons a l ih =>
    have hq' : ∀ o, Act.edit o ∈ l → o.isQuery = false := fun o ho => hq o (List.mem_cons_of_mem _ ho)
    cases a with
    | sim sv =>
      have a1 := runSim_any (c := c) (s := s) (sv := sv) kept_reachable (fun _ hh => Events.reachable_step (sp := c.g.sp) hh .reset) hr hI
      have a2 := runSim_any (c := c) (s := s) (sv := sv) (kept_lists ev) (fun _ hh => hh) he hI
      exact ih hq' a1.1 a1.2 ev a2.1
    | edit o =>
      exact ih (s := (act c s (.edit o)).1) hq' (Events.reachable_step (sp := c.g.sp) hr o) hI _ (Events.sameLists_step c.g.evc c.g.sp he o (hq o List.mem_cons_self))

/-! ### With `reset_event_counters()` in between -/

/-- After any actions and the rewinding of the schedules. -/
theorem rewound (l : List (Act k)) (hq : ∀ o, Act.edit o ∈ l → o.isQuery = false) (hr : Events.Reachable c.g.evc s.h.ev) (hI : SunOk c.g s.h) :
    Between c (acts c s (l ++ [Act.edit .reset])) ∧
      Events.SameLists (acts c s (l ++ [Act.edit .reset])).h.ev (Events.run c.g.evc s.h.ev ((edits l).map fun o => (c.g.sp, o))) := by
  obtain ⟨a1, a2, a3⟩ := acts_any l hq hr hI s.h.ev ⟨rfl, rfl, rfl, rfl⟩
  have e : acts c s (l ++ [Act.edit .reset]) = (act c (acts c s l) (.edit .reset)).1 := by simp [acts]
  rw [e]
  refine ⟨⟨Events.reachable_step (sp := c.g.sp) a1 .reset, rfl, a2⟩, ?_⟩
  exact a3

/-- C153: take any sequence of simulations, failing at any point or not, and of calls that add, remove or enable events.  If the user then calls `reset_event_counters()`, every
evaluation of the next simulation (forward in time, without jumping over more than one event) computes with the weather scheduled for its time in the schedule that the editing calls produce. -/
theorem C153_reset_recovers (hk : k ∈ classes) (l : List (Act k)) (hq : ∀ o, Act.edit o ∈ l → o.isQuery = false) (hr : Events.Reachable c.g.evc s.h.ev) (hI : SunOk c.g s.h)
    (s' : Sess k) (hs' : s' = acts c s (l ++ [Act.edit .reset])) (sv : Solver k) {r : List (k.V → ℝ) × List Int}
    (hok : (exec c.g c.J c.x (sv s'.y c.ts) (s'.h, s'.y)).2 = .ok r) (hen : s'.h.ev.solarEnable = true)
    (hd : Dense (Events.run c.g.evc s.h.ev ((edits l).map fun o => (c.g.sp, o))).solar none ((trace c.g c.J c.x (sv s'.y c.ts) s'.h).map Call.t))
    (p : List (Call k)) (cl : Call k) (q : List (Call k)) (htr : trace c.g c.J c.x (sv s'.y c.ts) s'.h = p ++ cl :: q) :
    ∃ v e, Correct (Events.run c.g.evc s.h.ev ((edits l).map fun o => (c.g.sp, o))).solar ⟨c.g.sp.insolation.dflt, 29815 / 100⟩ cl.t v ∧
      (evalEnv k c.g cl (run k c.g s'.h p)).2 = .ok e ∧
      ((run k c.g s'.h (p ++ [cl])).rt.connected = true → e.Ppv = PV.ppv c.g.p.mod v.Sinsol v.Tactual (min c.g.p.Vdcmpp_max (e.Vdc * c.g.p.Vdcbase))) ∧
      ((run k c.g s'.h (p ++ [cl])).rt.connected = false → e.Ppv = 0) := by
  obtain ⟨hb, hlst⟩ := rewound (c := c) (s := s) l hq hr hI
  rw [← hs'] at hb hlst
  have ht := (exec_trace (g := c.g) (h := s'.h) c.J c.x (sv s'.y c.ts) s'.y).2 r hok
  rw [htr] at ht hd
  rw [← hlst.1] at hd ⊢
  obtain ⟨v, e, a1, a2, _, _, a3, a4⟩ := C93_pv_power_follows_schedule hk hb.reach hen hb.ctr hb.sun p cl q ht hd
  exact ⟨v, e, a1, a2, a3, a4⟩

/-- C153: the same for the load in stand-alone mode. -/
theorem C153_reset_recovers_load (hk : k ∈ classes) (hsa : c.g.standAlone = true) (l : List (Act k)) (hq : ∀ o, Act.edit o ∈ l → o.isQuery = false)
    (hr : Events.Reachable c.g.evc s.h.ev) (hI : SunOk c.g s.h) (s' : Sess k) (hs' : s' = acts c s (l ++ [Act.edit .reset])) (sv : Solver k)
    {r : List (k.V → ℝ) × List Int} (hok : (exec c.g c.J c.x (sv s'.y c.ts) (s'.h, s'.y)).2 = .ok r) (hen : s'.h.ev.loadEnable = true)
    (hd : Dense (Events.run c.g.evc s.h.ev ((edits l).map fun o => (c.g.sp, o))).load none (odeTimes (trace c.g c.J c.x (sv s'.y c.ts) s'.h)))
    (p : List (Call k)) (cl : Call k) (q : List (Call k)) (hj : cl.jac = false) (htr : trace c.g c.J c.x (sv s'.y c.ts) s'.h = p ++ cl :: q) :
    ∃ v e, Correct (Events.run c.g.evc s.h.ev ((edits l).map fun o => (c.g.sp, o))).load ⟨10000000, 0⟩ cl.t v ∧
      (evalEnv k c.g cl (run k c.g s'.h p)).2 = .ok e ∧
      e.va = Circuit.vStandAlone (run k c.g s'.h (p ++ [cl])).grid.va (k.cur cl.y).1 c.g.a c.g.Z1 c.g.Z2 ((⟨v.Zre, v.Zim⟩ : ℂ) / c.g.Zbase) := by
  obtain ⟨hb, hlst⟩ := rewound (c := c) (s := s) l hq hr hI
  rw [← hs'] at hb hlst
  have ht := (exec_trace (g := c.g) (h := s'.h) c.J c.x (sv s'.y c.ts) s'.y).2 r hok
  rw [htr] at ht hd
  rw [← hlst.2.1] at hd ⊢
  obtain ⟨v, e, a1, a2, _, a3⟩ := C94_load_follows_schedule hk hsa hb.reach hen hb.ctr p cl q ht hj hd
  exact ⟨v, e, a1, a2, a3⟩

/-! ### Without it -/

/-- Runs one after the other, each of which the solver reports as failed. -/
def FailRuns (c : Cfg k) (s : Sess k) : List (Solver k) → Prop
  | [] => True
  | sv :: l => (∃ rows mused, (exec c.g c.J c.x (sv s.y c.ts) (s.h, s.y)).2 = .ok (rows, mused) ∧ ∃ m ∈ mused, Failed m) ∧ FailRuns c (runSim c sv s).1 l

/-- The evaluations of these runs. -/
noncomputable def failCalls (c : Cfg k) (s : Sess k) : List (Solver k) → List (Call k)
  | [] => []
  | sv :: l => trace c.g c.J c.x (sv s.y c.ts) s.h ++ failCalls c (runSim c sv s).1 l

/-- Failed runs leave the objects where the last evaluation left them. -/
theorem fail_runs (l : List (Solver k)) (hf : FailRuns c s l) : Ok k c.g s.h (failCalls c s l) ∧ (runs c l s).h = run k c.g s.h (failCalls c s l) := by
  induction l generalizing s with
  | nil => exact ⟨trivial, rfl⟩
  | cons sv l ih =>
    obtain ⟨⟨rows, mused, he, hm⟩, hf⟩ := hf
    obtain ⟨i1, i2⟩ := ih hf
    have ht := exec_trace (g := c.g) (h := s.h) c.J c.x (sv s.y c.ts) s.y
    rcases hx : exec c.g c.J c.x (sv s.y c.ts) (s.h, s.y) with ⟨⟨h, y⟩, r⟩
    rw [hx] at ht he
    dsimp only at he
    subst he
    have hh := (C103_failed_run_keeps_counters hx hm).1
    rw [hh, show h = _ from ht.1] at i1 i2
    refine ⟨(ok_append ..).2 ⟨ht.2 _ rfl, i1⟩, ?_⟩
    show (runs c l (runSim c sv s).1).h = run k c.g s.h (_ ++ _)
    rw [i2, run_append]

/-- C153: without rewinding, what a run sees after any number of failed runs.  At each evaluation the weather is scheduled for that time or for a later one that has been evaluated before,
in a failed run or in this one (`Shown`): right if no event after this time has been passed yet, except perhaps the last one of the schedule, and wrong if one has been passed
that is not the last one (and this time is not before all events). -/
theorem C153_after_failures (hk : k ∈ classes) (hb : Between c s) (hen : s.h.ev.solarEnable = true) (l : List (Solver k)) (hf : FailRuns c s l)
    (s' : Sess k) (hs' : s' = runs c l s) (sv : Solver k) {r : List (k.V → ℝ) × List Int} (hok : (exec c.g c.J c.x (sv s'.y c.ts) (s'.h, s'.y)).2 = .ok r)
    (p : List (Call k)) (cl : Call k) (q : List (Call k)) (htr : trace c.g c.J c.x (sv s'.y c.ts) s'.h = p ++ cl :: q)
    (hd : Steps s.h.ev.solar none ((failCalls c s l ++ (p ++ cl :: q)).map Call.t)) :
    ∃ v e, Shown s.h.ev.solar ⟨c.g.sp.insolation.dflt, 29815 / 100⟩ cl.t (fun τ => ∃ u ∈ failCalls c s l ++ p, τ ≤ u.t) (∀ e ∈ s.h.ev.solar, cl.t < e.T) v ∧
      (evalEnv k c.g cl (run k c.g s'.h p)).2 = .ok e ∧
      e.Ppv = if (run k c.g s'.h (p ++ [cl])).rt.connected = true then
        PV.ppv c.g.p.mod v.Sinsol v.Tactual (min c.g.p.Vdcmpp_max (e.Vdc * c.g.p.Vdcbase)) else 0 := by
  obtain ⟨f1, f2⟩ := fail_runs l hf
  rw [← hs'] at f2
  have ht := (exec_trace (g := c.g) (h := s'.h) c.J c.x (sv s'.y c.ts) s'.y).2 r hok
  rw [htr] at ht
  have hall : Ok k c.g s.h ((failCalls c s l ++ p) ++ cl :: q) := by
    rw [List.append_assoc]
    exact (ok_append ..).2 ⟨f1, by rw [← f2]; exact ht⟩
  obtain ⟨o1, ⟨e, he⟩, _⟩ := (ok_append ..).1 hall
  rw [← List.append_assoc, List.map_append, steps_append] at hd
  have hP0 : Pos s.h.ev.solar none s.h.ev := by
    refine ⟨rfl, hen, Events.inv_reachable hb.reach, fun hne => ?_⟩
    have : s.h.ev.solarCtr = 0 := by rw [hb.ctr]; rfl
    rw [this]
    have : 0 < s.h.ev.solar.length := List.length_pos_iff.2 hne
    simp only [posOf]
    omega
  have hP := pos_run hP0 (failCalls c s l ++ p) o1 hd.1
  have hI := run_sun_any (failCalls c s l ++ p) hb.sun
  have hr : run k c.g s.h (failCalls c s l ++ p) = run k c.g s'.h p := by rw [run_append, f2]
  obtain ⟨_, v, v1, _, _, v4⟩ := pos_eval hP he hd.2.1
  refine ⟨v, e, v1.congr fun τ => ?_, by rw [← hr]; exact he, ?_⟩
  · rw [asked_latestOf]
    constructor
    · rintro (⟨a, ha, _⟩ | ⟨u, hu, hle⟩)
      · cases ha
      · obtain ⟨a, ha, rfl⟩ := List.mem_map.1 hu
        exact ⟨a, ha, hle⟩
    · rintro ⟨a, ha, hle⟩
      exact Or.inr ⟨_, List.mem_map_of_mem ha, hle⟩
  · have := v4 hk hI
    rw [hr] at this
    rw [this, run_append]
    rfl

/-- C153: so a run after failures is right from the latest time evaluated in the failed runs on. -/
theorem C153_right_beyond {S : List (Ev ℝ (Events.SolarVal ℝ))} {d v : Events.SolarVal ℝ} {before : List (Call k)} {t : ℝ} (hb : ∀ u ∈ before, u.t ≤ t)
    (h : Shown S d t (fun τ => ∃ u ∈ before, τ ≤ u.t) (∀ e ∈ S, t < e.T) v) : Correct S d t v := by
  refine h.2.1 (Or.inl ?_)
  rintro e _ ht ⟨u, hu, hle⟩
  exact absurd (hb u hu) (by push Not; linarith)

/-- C153: and it is wrong before: where the schedule has begun and an event lies ahead that a failed run has passed and that is not the last one, the weather is that of an event
still to come. -/
theorem C153_stale_before {S : List (Ev ℝ (Events.SolarVal ℝ))} {d v : Events.SolarVal ℝ} {before : List (Call k)} {t : ℝ} (h : Shown S d t (fun τ => ∃ u ∈ before, τ ≤ u.t) (∀ e ∈ S, t < e.T) v)
    (h1 : ∃ e ∈ S, e.T ≤ t) (h2 : ∃ e ∈ S, t < e.T ∧ (∃ u ∈ before, e.T ≤ u.t) ∧ ∃ e' ∈ S, e.T < e'.T) : ∃ e ∈ S, t < e.T ∧ v = e.v := by
  obtain ⟨e, he, a, _, b⟩ := h.2.2 (fun h0 => by obtain ⟨e, he, hle⟩ := h1; exact absurd (h0 e he) (by push Not; exact hle)) (by
    obtain ⟨e, he, a, b, c⟩ := h2
    exact ⟨e, he, a, b, c⟩)
  exact ⟨e, he, a, b⟩

/-- The hypotheses of `C153_after_failures` and `C153_stale_before` in a session: the first run passes the events at 1 s and 2 s and fails, the next one evaluates at 1.5 s. -/
theorem C153_example (y : three.V → ℝ) :
    Between (exC false) (exS false y) ∧ (exS false y).h.ev.solarEnable = true ∧ FailRuns (exC false) (exS false y) [askAt 0 [1, 2]] ∧
    (failCalls (exC false) (exS false y) [askAt 0 [1, 2]]).map Call.t = [1, 2] ∧
    Steps (exS false y).h.ev.solar none [1, 2, 3 / 2] ∧
    (∃ e ∈ (exS false y).h.ev.solar, e.T ≤ 3 / 2) ∧
    (∃ e ∈ (exS false y).h.ev.solar, 3 / 2 < e.T ∧ (∃ u ∈ failCalls (exC false) (exS false y) [askAt 0 [1, 2]], e.T ≤ u.t) ∧ ∃ e' ∈ (exS false y).h.ev.solar, e.T < e'.T) := by
  have hg := exS_good false y
  have t1 := askAt_trace (exC false).g (exC false).J (exC false).x 0 [1, 2] y (exC false).ts (exS false y).h hg y
  have hsol : (exS false y).h.ev.solar = [⟨1, ⟨50, 300⟩⟩, ⟨2, ⟨60, 300⟩⟩, ⟨3, ⟨70, 300⟩⟩] := by
    show (exEv3 (exG exPar false)).solar = _; rw [exEv3_eq]
  have hcalls : failCalls (exC false) (exS false y) [askAt 0 [1, 2]] = ([1, 2] : List ℝ).map (mkCall (exC false).x false y) := by
    show trace _ _ _ _ _ ++ [] = _
    rw [List.append_nil]
    exact t1.1
  refine ⟨exS_between false y, ?_, ⟨⟨_, _, t1.2, 0, by simp, Or.inl rfl⟩, trivial⟩, ?_, ?_, ?_, ?_⟩
  · show (exEv3 (exG exPar false)).solarEnable = true; rw [exEv3_eq]; rfl
  · rw [hcalls]
    rfl
  · rw [hsol]
    refine ⟨?_, ?_, ?_, trivial⟩
    all_goals
      intro e he e' he' a1 a2 b1 b2
      simp only [List.mem_cons, List.not_mem_nil, or_false] at he he'
      simp only [AfterPrev, latest] at a1 b1
      rcases he with rfl | rfl | rfl <;> rcases he' with rfl | rfl | rfl <;> first | rfl | (exfalso; first | (norm_num at a1; done) | (norm_num at a2; done) | (norm_num at b1; done) | (norm_num at b2; done))
  · rw [hsol]
    exact ⟨⟨1, ⟨50, 300⟩⟩, by simp, by norm_num⟩
  · rw [hsol, hcalls]
    refine ⟨⟨2, ⟨60, 300⟩⟩, by simp, by norm_num, ⟨mkCall (exC false).x false y 2, by simp, le_rfl⟩, ⟨3, ⟨70, 300⟩⟩, by simp, by norm_num⟩

end Session
end PvDer
