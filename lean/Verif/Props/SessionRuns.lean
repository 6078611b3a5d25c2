import Verif.Props.Session

/-!
# Property C103: repeated simulations with the same objects
-/

set_option linter.unusedSectionVars false

namespace PvDer

namespace Events
variable {K : Type} [Field K] [LinearOrder K]

/-- Same insolation and load schedules. -/
def SameLists (a b : St K) : Prop := a.solar = b.solar ∧ a.load = b.load ∧ a.solarEnable = b.solarEnable ∧ a.loadEnable = b.loadEnable

theorem sameLists_step (c : Cfg K) (sp : EvSpec K) {a b : St K} (h : SameLists a b) (o : Op K) (ho : o.isQuery = false) :
    SameLists (step c sp a o) (step c sp b o) := by
  obtain ⟨h1, h2, h3, h4⟩ := h
  cases o with
  | addSolar T S Ta =>
    simp only [step]; unfold addSolar
    split_ifs
    · exact ⟨h1, h2, h3, h4⟩
    · exact ⟨h1, h2, h3, h4⟩
    · refine ⟨?_, h2, h3, h4⟩
      simp only [updateTotals, h1]
  | addGrid T V x f => simp only [step]; unfold addGrid; split_ifs <;> exact ⟨h1, h2, h3, h4⟩
  | addLoad T r i =>
    simp only [step]; unfold addLoad
    split_ifs
    · exact ⟨h1, h2, h3, h4⟩
    · refine ⟨h1, ?_, h3, h4⟩
      simp only [updateTotals, h2]
  | removeSolar T all => simp only [step]; unfold removeSolar; split <;> first | exact ⟨h1, h2, h3, h4⟩ | exact ⟨rfl, h2, h3, h4⟩
  | removeGrid T => exact ⟨h1, h2, h3, h4⟩
  | removeLoad T all =>
    simp only [step]; unfold removeLoad
    split
    · refine ⟨h1, ?_, h3, h4⟩
      simp only [updateTotals, h2]
    · exact ⟨h1, rfl, h3, h4⟩
  | querySolar t => simp [Op.isQuery] at ho
  | queryGrid t => simp [Op.isQuery] at ho
  | queryLoad t => simp [Op.isQuery] at ho
  | reset => exact ⟨h1, h2, h3, h4⟩
  | setEnable x y z => exact ⟨h1, h2, rfl, rfl⟩

end Events

namespace Session
open Complex Phasor Ode Eval

variable {k : Cls} {g : SCfg} {h : Hid} {c : Cfg k} {sv : Solver k} {s : Sess k}

/-! ### What a run keeps -/

theorem kept_reachable : Kept g (Events.Reachable g.evc) :=
  ⟨fun _ t hh => Events.reachable_step (sp := g.sp) hh (.queryGrid t), fun _ t hh => Events.reachable_step (sp := g.sp) hh (.querySolar t),
    fun _ t hh => Events.reachable_step (sp := g.sp) hh (.queryLoad t)⟩

theorem kept_lists (e0 : Events.St ℝ) : Kept g (fun ev => Events.SameLists ev e0) := by
  refine ⟨fun ev t hh => ?_, fun ev t hh => ?_, fun ev t hh => ?_⟩
  · obtain ⟨a, _, b, d, _, e⟩ := Events.gridEvents_frame g.evc g.sp ev t
    exact ⟨a.trans hh.1, d.trans hh.2.1, b.trans hh.2.2.1, e.trans hh.2.2.2⟩
  · obtain ⟨a, _, b, d, _, e⟩ := Events.solarEvents_frame g.sp ev t
    exact ⟨a.trans hh.1, d.trans hh.2.1, b.trans hh.2.2.1, e.trans hh.2.2.2⟩
  · obtain ⟨a, _, b, d, e⟩ := Events.loadEvents_frame ev t
    exact ⟨a.trans hh.1, d.trans hh.2.1, b.trans hh.2.2.1, e.trans hh.2.2.2⟩

theorem kept_grid (hov : g.evc.overrideAngle = true) (l : List (Ev ℝ (ℝ × ℝ))) : Kept g (fun ev => Events.Inv ev ∧ Events.noAngle ev.grid = l) := by
  refine ⟨fun ev t hh => ⟨Events.inv_gridEvents hh.1 t, (Events.gridEvents_noAngle hov g.sp hh.1 t).trans hh.2⟩, fun ev t hh => ⟨Events.inv_solarEvents hh.1 t, ?_⟩,
    fun ev t hh => ⟨Events.inv_loadEvents hh.1 t, ?_⟩⟩
  · have : (Events.solarEvents g.sp ev t).1.grid = ev.grid := by unfold Events.solarEvents; split <;> rfl
    rw [this]; exact hh.2
  · have : (Events.loadEvents ev t).1.grid = ev.grid := by unfold Events.loadEvents; split <;> rfl
    rw [this]; exact hh.2

/-- The stored photocurrent belongs to the stored weather. -/
def SunOk (g : SCfg) (h : Hid) : Prop := h.Iph = PV.iph g.p.mod h.Sinsol h.Tactual

theorem eval_sun (cl : Call k) {e : Env} (he : (evalEnv k g cl h).2 = .ok e) (hI : SunOk g h) : SunOk g (evalEnv k g cl h).1 := by
  obtain ⟨h1, h2, h3, h4, e1, e2, e3, e4, e5⟩ := eval_ok he
  obtain ⟨_, q1, q2, q3, _, _⟩ := grid_frame (g := g) (h := h) cl.t
  rw [e1] at q1 q2 q3
  simp only at q1 q2 q3
  obtain ⟨v, v1, v2, v3, _, _, v4⟩ := solar_ok e2
  obtain ⟨l1, l2, l3, _⟩ := load_solar (k := k) (g := g) (h := h2) cl.jac cl.t
  rw [e3] at l1 l2 l3
  simp only at l1 l2 l3
  obtain ⟨_, f2, f3, f4, _, _⟩ := late_frame e4
  have he' := he
  rw [e5] at he'
  obtain ⟨_, _, b3, _⟩ := rt_ok he'
  unfold SunOk
  rw [e5, b3]
  show (freqStage k g cl (irefStage k g cl h4)).Iph = PV.iph g.p.mod (freqStage k g cl (irefStage k g cl h4)).Sinsol (freqStage k g cl (irefStage k g cl h4)).Tactual
  rw [f2, f3, f4, l1, l2, l3]
  apply v4
  intro _
  show h1.Iph = PV.iph g.p.mod h1.Sinsol h1.Tactual
  rw [q1, q2, q3]; exact hI

theorem run_sun (l : List (Call k)) (hok : Ok k g h l) (hI : SunOk g h) : SunOk g (run k g h l) := by
  induction l generalizing h with
  | nil => exact hI
  | cons cl l ih =>
    obtain ⟨⟨e, he⟩, ho⟩ := hok
    exact ih ho (eval_sun cl he hI)

theorem resetUnless_kept {P : Events.St ℝ → Prop} (hR : ∀ ev, P ev → P (Events.resetCounters ev)) (b : Bool) (ev : Events.St ℝ) (h0 : P ev) : P (resetUnless b ev) := by
  unfold resetUnless; split; exacts [h0, hR _ h0]

/-- Collection of the series. -/
theorem collect_facts {P : Events.St ℝ → Prop} (hP : Kept c.g P) (hR : ∀ ev, P ev → P (Events.resetCounters ev)) (ts : List ℝ) (rows : List (k.V → ℝ))
    (h0 : P s.h.ev) (hI : SunOk c.g s.h) :
    P (collectSeries c ts rows s).1.h.ev ∧ SunOk c.g (collectSeries c ts rows s).1.h ∧ (collectSeries c ts rows s).1.h.rt = s.h.rt ∧
    (c.loop = false → (collectSeries c ts rows s).2 = .ok () → (collectSeries c ts rows s).1.h.ev = Events.resetCounters (collectSeries c ts rows s).1.h.ev) := by
  have sun : ∀ sv, SunOk c.g (putSun c.g sv s.h) ∧ (putSun c.g sv s.h).rt = s.h.rt := by
    intro sv
    unfold putSun
    split
    · exact ⟨rfl, rfl⟩
    · exact ⟨hI, rfl⟩
  unfold collectSeries
  dsimp only
  split
  · have h1 := queryAll_kept (q := Events.gridEvents c.g.evc c.g.sp) (P := P) hP.grid ts s.h.ev h0
    rcases hx1 : queryAll (Events.gridEvents c.g.evc c.g.sp) s.h.ev ts with ⟨ev1, r1⟩
    rw [hx1] at h1
    cases r1 with
    | error e => exact ⟨h1, hI, rfl, fun _ hh => by simp at hh⟩
    | ok gv =>
      dsimp only
      have h2 := queryAll_kept (q := Events.loadEvents) (P := P) hP.load ts _ (resetUnless_kept hR c.loop ev1 h1)
      rcases hx2 : queryAll Events.loadEvents (resetUnless c.loop ev1) ts with ⟨ev2, r2⟩
      rw [hx2] at h2
      cases r2 with
      | error e => exact ⟨h2, hI, rfl, fun _ hh => by simp at hh⟩
      | ok lv =>
        dsimp only
        have h3 := queryAll_kept (q := Events.solarEvents c.g.sp) (P := P) hP.solar ts _ (resetUnless_kept hR c.loop ev2 h2)
        rcases hx3 : queryAll (Events.solarEvents c.g.sp) (resetUnless c.loop ev2) ts with ⟨ev3, r3⟩
        rw [hx3] at h3
        cases r3 with
        | error e => exact ⟨h3, hI, rfl, fun _ hh => by simp at hh⟩
        | ok svv =>
          exact ⟨resetUnless_kept hR c.loop ev3 h3, (sun svv).1, (sun svv).2, fun hl _ => by
            show resetUnless c.loop ev3 = Events.resetCounters (resetUnless c.loop ev3)
            rw [hl]; rfl⟩
  · have h3 := queryAll_kept (q := Events.solarEvents c.g.sp) (P := P) hP.solar ts _ h0
    rcases hx3 : queryAll (Events.solarEvents c.g.sp) s.h.ev ts with ⟨ev3, r3⟩
    rw [hx3] at h3
    cases r3 with
    | error e => exact ⟨h3, hI, rfl, fun _ hh => by simp at hh⟩
    | ok svv =>
      exact ⟨resetUnless_kept hR c.loop ev3 h3, (sun svv).1, (sun svv).2, fun hl _ => by
        show resetUnless c.loop ev3 = Events.resetCounters (resetUnless c.loop ev3)
        rw [hl]; rfl⟩

/-- A run that returns normally, unfolded. -/
theorem runSim_ok (hret : (runSim c sv s).2 = .ok ()) :
    ∃ h y rows mused, exec c.g c.J c.x (sv s.y c.ts) (s.h, s.y) = ((h, y), .ok (rows, mused)) ∧ (∀ m ∈ mused, ¬ Failed m) ∧
      runSim c sv s = finish c c.ts rows { s with t := c.ts, rows := [s.y], h := resets h, y := y, conv := some true } := by
  unfold runSim at hret ⊢
  rcases he : exec c.g c.J c.x (sv s.y c.ts) (s.h, s.y) with ⟨⟨h, y⟩, r⟩
  rw [he] at hret
  cases r with
  | error e => simp at hret
  | ok r =>
    obtain ⟨rows, mused⟩ := r
    dsimp only at hret ⊢
    have hany : mused.any badStatus = false := by
      by_contra hc
      unfold check at hret
      rw [if_pos (by simpa using hc)] at hret
      split_ifs at hret
      all_goals simp at hret
    refine ⟨h, y, rows, mused, rfl, ?_, ?_⟩
    · intro m hm hF
      have := (List.any_eq_true (l := mused) (p := badStatus)).2 ⟨m, hm, (badStatus_iff m).2 hF⟩
      rw [hany] at this
      exact absurd this (by simp)
    · unfold check
      rw [hany]
      simp only [Bool.false_eq_true, if_false]

/-- What holds after a run that returned normally (not in loop mode). -/
theorem runSim_facts {P : Events.St ℝ → Prop} (hP : Kept c.g P) (hR : ∀ ev, P ev → P (Events.resetCounters ev)) (hl : c.loop = false)
    (hret : (runSim c sv s).2 = .ok ()) (h0 : P s.h.ev) (hI : SunOk c.g s.h) :
    P (runSim c sv s).1.h.ev ∧ SunOk c.g (runSim c sv s).1.h ∧ (runSim c sv s).1.h.ev = Events.resetCounters (runSim c sv s).1.h.ev ∧
      (runSim c sv s).1.h.rt.w.inst.ctr = 0 := by
  obtain ⟨h, y, rows, mused, he, _, hr⟩ := runSim_ok hret
  have ht := exec_trace (g := c.g) (h := s.h) c.J c.x (sv s.y c.ts) s.y
  rw [he] at ht
  have hh : h = run k c.g s.h (trace c.g c.J c.x (sv s.y c.ts) s.h) := ht.1
  have hp : P h.ev := by rw [hh]; exact run_kept hP _ h0
  have hs : SunOk c.g h := by rw [hh]; exact run_sun _ (ht.2 _ rfl) hI
  rw [hr] at hret ⊢
  unfold finish at hret ⊢
  split at hret
  · rename_i hcoll
    rw [if_pos hcoll]
    obtain ⟨a, b, d, e⟩ := collect_facts (c := c) (s := { s with t := c.ts, rows := rows, h := resets h, y := y, conv := some true }) hP hR c.ts rows
      (hR _ hp) hs
    refine ⟨a, b, e hl hret, ?_⟩
    rw [d]; rfl
  · rename_i hcoll
    rw [if_neg hcoll]
    exact ⟨hR _ hp, hs, rfl, rfl⟩

/-- C103: a run that returns normally leaves all event counters and the reference counter at zero and the insolation and load schedules as they were; with the
default angle setting also times, voltages and frequencies of the grid schedule. -/
theorem C103_counters_reset (hl : c.loop = false) (hI : SunOk c.g s.h) (hret : (runSim c sv s).2 = .ok ()) :
    let e := (runSim c sv s).1.h.ev
    e.solarCtr = 0 ∧ e.gridCtr = 0 ∧ e.loadCtr = 0 ∧ (runSim c sv s).1.h.rt.w.inst.ctr = 0 ∧
      e.solar = s.h.ev.solar ∧ e.load = s.h.ev.load ∧ e.solarEnable = s.h.ev.solarEnable ∧ e.loadEnable = s.h.ev.loadEnable ∧
      (c.g.evc.overrideAngle = true → Events.Reachable c.g.evc s.h.ev →
        (e.grid.map fun e => (e.T, e.v.V, e.v.f)) = s.h.ev.grid.map fun e => (e.T, e.v.V, e.v.f)) := by
  intro e
  obtain ⟨a, _, b, d⟩ := runSim_facts (kept_lists s.h.ev) (fun _ hh => hh) hl hret ⟨rfl, rfl, rfl, rfl⟩ hI
  refine ⟨?_, ?_, ?_, d, a.1, a.2.1, a.2.2.1, a.2.2.2, ?_⟩
  · show (runSim c sv s).1.h.ev.solarCtr = 0; rw [b]; rfl
  · show (runSim c sv s).1.h.ev.gridCtr = 0; rw [b]; rfl
  · show (runSim c sv s).1.h.ev.loadCtr = 0; rw [b]; rfl
  · intro hov hr
    obtain ⟨⟨_, a⟩, _⟩ := runSim_facts (kept_grid hov (Events.noAngle s.h.ev.grid))
      (fun _ hh => ⟨Events.inv_step (c := c.g.evc) (sp := c.g.sp) hh.1 .reset, hh.2⟩) hl hret ⟨Events.inv_reachable hr, rfl⟩ hI
    have : ∀ l : List (Ev ℝ (Events.GridVal ℝ)), (l.map fun e => (e.T, e.v.V, e.v.f)) = (Events.noAngle l).map fun e => (e.T, e.v.1, e.v.2) := by
      intro l; simp [Events.noAngle]
    rw [this, this, a]

/-! ### Sessions -/

/-- The event editing calls of a sequence of actions. -/
def edits (l : List (Act k)) : List (Events.Op ℝ) := l.filterMap fun a => match a with | .edit o => some o | .sim _ => none

/-- What holds between the simulations of a session. -/
structure Between (c : Cfg k) (s : Sess k) : Prop where
  reach : Events.Reachable c.g.evc s.h.ev
  ctr : s.h.ev = Events.resetCounters s.h.ev
  sun : SunOk c.g s.h

theorem act_between (hl : c.loop = false) (a : Act k) (hq : ∀ o, a = .edit o → o.isQuery = false) (hret : (act c s a).2 = .ok ()) (hb : Between c s) :
    Between c (act c s a).1 := by
  cases a with
  | sim sv =>
    obtain ⟨a, b, d, _⟩ := runSim_facts kept_reachable (fun _ hh => Events.reachable_step (sp := c.g.sp) hh .reset) hl hret hb.reach hb.sun
    exact ⟨a, d, b⟩
  | edit o => exact ⟨Events.reachable_step hb.reach o, Events.step_ctr _ _ _ o (hq o rfl) hb.ctr, hb.sun⟩

theorem acts_between (hl : c.loop = false) (l : List (Act k)) (hq : ∀ o, Act.edit o ∈ l → o.isQuery = false) (hall : AllReturn c s l) (hb : Between c s) :
    Between c (acts c s l) := by
  induction l generalizing s with
  | nil => exact hb
  | cons a l ih =>
    exact ih (fun o ho => hq o (List.mem_cons_of_mem _ ho)) hall.2 (act_between hl a (fun o ho => hq o (by rw [← ho]; exact List.mem_cons_self)) hall.1 hb)

/-- Simulations in between do not change the schedules: they are the result of the editing calls alone. -/
theorem acts_lists (hl : c.loop = false) (l : List (Act k)) (hq : ∀ o, Act.edit o ∈ l → o.isQuery = false) (hall : AllReturn c s l) (hb : Between c s)
    (ev : Events.St ℝ) (he : Events.SameLists s.h.ev ev) :
    Events.SameLists (acts c s l).h.ev (Events.run c.g.evc ev ((edits l).map fun o => (c.g.sp, o))) := by
  induction l generalizing s ev with
  | nil => exact he
  | cons a l ih =>
    have hb' := act_between hl a (fun o ho => hq o (by rw [← ho]; exact List.mem_cons_self)) hall.1 hb
    have hq' : ∀ o, Act.edit o ∈ l → o.isQuery = false := fun o ho => hq o (List.mem_cons_of_mem _ ho)
    cases a with
    | sim sv =>
      have h1 := (runSim_facts (kept_lists ev) (fun _ hh => hh) hl hall.1 he hb.sun).1
      exact ih hq' hall.2 hb' ev h1
    | edit o => exact ih hq' hall.2 hb' _ (Events.sameLists_step _ _ he o (hq o List.mem_cons_self))

/-- C103: take any sequence of simulations that return normally and of calls that add, remove or enable events in between.  The next simulation plays the
insolation schedule that the editing calls produce — as if no simulation had been run before — from its beginning: every evaluation the solver makes (forward in
time, without jumping over more than one event) uses the weather scheduled for its time. -/
theorem C103_every_run_follows_schedule (hk : k ∈ classes) (hl : c.loop = false) (l : List (Act k)) (hq : ∀ o, Act.edit o ∈ l → o.isQuery = false)
    (hall : AllReturn c s l) (hb : Between c s) (sv : Solver k) {r : List (k.V → ℝ) × List Int}
    (hok : (exec c.g c.J c.x (sv (acts c s l).y c.ts) ((acts c s l).h, (acts c s l).y)).2 = .ok r)
    (hen : (acts c s l).h.ev.solarEnable = true)
    (hd : Dense (Events.run c.g.evc s.h.ev ((edits l).map fun o => (c.g.sp, o))).solar none
      ((trace c.g c.J c.x (sv (acts c s l).y c.ts) (acts c s l).h).map Call.t))
    (p : List (Call k)) (cl : Call k) (q : List (Call k)) (htr : trace c.g c.J c.x (sv (acts c s l).y c.ts) (acts c s l).h = p ++ cl :: q) :
    ∃ v e, Correct (Events.run c.g.evc s.h.ev ((edits l).map fun o => (c.g.sp, o))).solar ⟨c.g.sp.insolation.dflt, 29815 / 100⟩ cl.t v ∧
      (evalEnv k c.g cl (run k c.g (acts c s l).h p)).2 = .ok e ∧
      ((run k c.g (acts c s l).h (p ++ [cl])).rt.connected = true →
        e.Ppv = PV.ppv c.g.p.mod v.Sinsol v.Tactual (min c.g.p.Vdcmpp_max (e.Vdc * c.g.p.Vdcbase))) ∧
      ((run k c.g (acts c s l).h (p ++ [cl])).rt.connected = false → e.Ppv = 0) := by
  have hb' := acts_between hl l hq hall hb
  have hlst := acts_lists hl l hq hall hb s.h.ev ⟨rfl, rfl, rfl, rfl⟩
  have ht := (exec_trace (g := c.g) (h := (acts c s l).h) c.J c.x (sv (acts c s l).y c.ts) (acts c s l).y).2 r hok
  rw [htr] at ht hd
  rw [← hlst.1] at hd ⊢
  obtain ⟨v, e, a1, a2, _, _, a3, a4⟩ := C93_pv_power_follows_schedule hk hb'.reach hen hb'.ctr hb'.sun p cl q ht hd
  exact ⟨v, e, a1, a2, a3, a4⟩

/-- C103: the same for the load schedule in stand-alone mode. -/
theorem C103_every_run_follows_load (hk : k ∈ classes) (hsa : c.g.standAlone = true) (hl : c.loop = false) (l : List (Act k))
    (hq : ∀ o, Act.edit o ∈ l → o.isQuery = false) (hall : AllReturn c s l) (hb : Between c s) (sv : Solver k) {r : List (k.V → ℝ) × List Int}
    (hok : (exec c.g c.J c.x (sv (acts c s l).y c.ts) ((acts c s l).h, (acts c s l).y)).2 = .ok r)
    (hen : (acts c s l).h.ev.loadEnable = true)
    (hd : Dense (Events.run c.g.evc s.h.ev ((edits l).map fun o => (c.g.sp, o))).load none
      (odeTimes (trace c.g c.J c.x (sv (acts c s l).y c.ts) (acts c s l).h)))
    (p : List (Call k)) (cl : Call k) (q : List (Call k)) (hj : cl.jac = false)
    (htr : trace c.g c.J c.x (sv (acts c s l).y c.ts) (acts c s l).h = p ++ cl :: q) :
    ∃ v e, Correct (Events.run c.g.evc s.h.ev ((edits l).map fun o => (c.g.sp, o))).load ⟨10000000, 0⟩ cl.t v ∧
      (evalEnv k c.g cl (run k c.g (acts c s l).h p)).2 = .ok e ∧
      e.va = Circuit.vStandAlone (run k c.g (acts c s l).h (p ++ [cl])).grid.va (k.cur cl.y).1 c.g.a c.g.Z1 c.g.Z2 ((⟨v.Zre, v.Zim⟩ : ℂ) / c.g.Zbase) := by
  have hb' := acts_between hl l hq hall hb
  have hlst := acts_lists hl l hq hall hb s.h.ev ⟨rfl, rfl, rfl, rfl⟩
  have ht := (exec_trace (g := c.g) (h := (acts c s l).h) c.J c.x (sv (acts c s l).y c.ts) (acts c s l).y).2 r hok
  rw [htr] at ht hd
  rw [← hlst.2.1] at hd ⊢
  obtain ⟨v, e, a1, a2, _, a3⟩ := C94_load_follows_schedule hk hsa hb'.reach hen hb'.ctr p cl q ht hj hd
  exact ⟨v, e, a1, a2, a3⟩

end Session
end PvDer
