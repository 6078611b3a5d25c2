import Verif.Props.SessionLimits

/-!
# Property C104: the reported schedule series
-/

namespace PvDer

namespace Events
variable {K : Type} [Field K] [LinearOrder K]

theorem gridEvents_enable (c : Cfg K) (sp : EvSpec K) (s : St K) (t : K) : (gridEvents c sp s t).1.gridEnable = s.gridEnable := by
  have hadd : ∀ T V a f, (addGrid sp s T V a f).1.gridEnable = s.gridEnable := by
    intro T V a f; unfold addGrid; split_ifs <;> rfl
  unfold gridEvents
  split
  · rfl
  · rfl
  · split
    · rfl
    · split_ifs
      · rfl
      · split <;> rfl
      · split
        · rfl
        · rename_i old _
          dsimp only
          split
          · rename_i x e hx; have := hadd; exact (congrArg (fun p => p.1.gridEnable) hx).symm.trans (hadd _ _ _ _)
          · rename_i x e hx; exact (congrArg (fun p => p.1.gridEnable) hx).symm.trans (hadd _ _ _ _)
      · split
        · rfl
        · dsimp only
          split
          · rename_i x e hx; exact (congrArg (fun p => p.1.gridEnable) hx).symm.trans (hadd _ _ _ _)
          · rename_i x e hx; exact (congrArg (fun p => p.1.gridEnable) hx).symm.trans (hadd _ _ _ _)
      · rfl
      · rfl

theorem reachableUnder_step {c : Cfg K} {sp : EvSpec K} {s : St K} (h : ReachableUnder c sp s) (o : Op K) : ReachableUnder c sp (step c sp s o) := by
  obtain ⟨a, b, d, l, rfl⟩ := h
  exact ⟨a, b, d, l ++ [o], by simp [run]⟩

end Events

namespace Session
open Complex Phasor Ode Eval

variable {k : Cls} {g : SCfg} {h : Hid} {c : Cfg k} {sv : Solver k} {s : Sess k}

/-- What queries keep: the schedules (up to the recomputed angles), the enable flags. -/
structure SameSched (g : SCfg) (e0 ev : Events.St ℝ) : Prop where
  reach : Events.ReachableUnder g.evc g.sp ev
  lists : Events.SameLists ev e0
  grid : Events.noAngle ev.grid = Events.noAngle e0.grid
  en : ev.gridEnable = e0.gridEnable

theorem reach_inv {g : SCfg} {ev : Events.St ℝ} (h : Events.ReachableUnder g.evc g.sp ev) : Events.Inv ev := (Events.limits_reachable h).1

theorem kept_sched (hov : g.evc.overrideAngle = true) (e0 : Events.St ℝ) : Kept g (SameSched g e0) := by
  have k1 := kept_lists (g := g) e0
  refine ⟨fun ev t hh => ⟨?_, k1.grid ev t hh.lists, (Events.gridEvents_noAngle hov g.sp (reach_inv hh.reach) t).trans hh.grid, ?_⟩,
    fun ev t hh => ⟨?_, k1.solar ev t hh.lists, ?_, ?_⟩, fun ev t hh => ⟨?_, k1.load ev t hh.lists, ?_, ?_⟩⟩
  · exact Events.reachableUnder_step hh.reach (.queryGrid t)
  · rw [Events.gridEvents_enable]; exact hh.en
  · exact Events.reachableUnder_step hh.reach (.querySolar t)
  · have : (Events.solarEvents g.sp ev t).1.grid = ev.grid := by unfold Events.solarEvents; split <;> rfl
    rw [this]; exact hh.grid
  · have : (Events.solarEvents g.sp ev t).1.gridEnable = ev.gridEnable := by unfold Events.solarEvents; split <;> rfl
    rw [this]; exact hh.en
  · exact Events.reachableUnder_step hh.reach (.queryLoad t)
  · have : (Events.loadEvents ev t).1.grid = ev.grid := by unfold Events.loadEvents; split <;> rfl
    rw [this]; exact hh.grid
  · have : (Events.loadEvents ev t).1.gridEnable = ev.gridEnable := by unfold Events.loadEvents; split <;> rfl
    rw [this]; exact hh.en

theorem sched_reset {e0 ev : Events.St ℝ} (hh : SameSched g e0 ev) : SameSched g e0 (Events.resetCounters ev) :=
  ⟨Events.reachableUnder_step hh.reach .reset, hh.lists, hh.grid, hh.en⟩

theorem ru_r {g : SCfg} {ev : Events.St ℝ} (h : Events.ReachableUnder g.evc g.sp ev) : Events.Reachable g.evc ev := by
  obtain ⟨a, b, d, l, rfl⟩ := h
  exact ⟨a, b, d, _, rfl⟩

theorem forall₂_ok {α : Type} {R : ℝ → α → Prop} {ts : List ℝ} {vs : List α} (h : List.Forall₂ (fun t r => ∃ v, r = Except.ok v ∧ R t v) ts (vs.map (Except.ok (ε := Err)))) :
    List.Forall₂ R ts vs := by
  induction vs generalizing ts with
  | nil => cases h; exact List.Forall₂.nil
  | cons v vs ih =>
    cases h with
    | cons h1 h2 =>
      obtain ⟨w, hw, hR⟩ := h1
      cases hw
      exact List.Forall₂.cons hR (ih h2)

/-- The insolation samples of a collection from reset counters. -/
theorem solar_samples {e0 ev ev' : Events.St ℝ} (hh : SameSched g e0 (Events.resetCounters ev)) (hen : e0.solarEnable = true) {ts : List ℝ} (hd : Dense e0.solar none ts)
    {vs : List (Events.SolarVal ℝ)} (hq : queryAll (Events.solarEvents g.sp) (Events.resetCounters ev) ts = (ev', .ok vs)) :
    List.Forall₂ (fun t v => Correct e0.solar ⟨g.sp.insolation.dflt, 29815 / 100⟩ t v) ts vs := by
  have hp := queryAll_ok (Events.solarPlay g.sp) (fun _ => rfl) (fun _ _ _ => rfl) hq
  have := Events.C07_solar_playback (ru_r hh.reach) (hh.lists.2.2.1.trans hen) g.sp ts (by rw [hh.lists.1]; exact hd)
  rw [show Events.resetCounters (Events.resetCounters ev) = Events.resetCounters ev from rfl, hp, hh.lists.1] at this
  exact forall₂_ok this

theorem load_samples {e0 ev ev' : Events.St ℝ} (hh : SameSched g e0 (Events.resetCounters ev)) (hen : e0.loadEnable = true) {ts : List ℝ} (hd : Dense e0.load none ts)
    {vs : List (Events.LoadVal ℝ)} (hq : queryAll Events.loadEvents (Events.resetCounters ev) ts = (ev', .ok vs)) :
    List.Forall₂ (fun t v => Correct e0.load ⟨10000000, 0⟩ t v) ts vs := by
  have hp := queryAll_ok Events.loadPlay (fun _ => rfl) (fun _ _ _ => rfl) hq
  have := Events.C07_load_playback (ru_r hh.reach) (hh.lists.2.2.2.trans hen) ts (by rw [hh.lists.2.1]; exact hd)
  rw [show Events.resetCounters (Events.resetCounters ev) = Events.resetCounters ev from rfl, hp, hh.lists.2.1] at this
  exact forall₂_ok this

theorem grid_samples (hov : g.evc.overrideAngle = true) {e0 ev ev' : Events.St ℝ} (hh : SameSched g e0 (Events.resetCounters ev)) (hen : e0.gridEnable = true) {ts : List ℝ}
    (hd : Dense (e0.grid.map fun e => (⟨e.T, (e.v.V, e.v.f)⟩ : Ev ℝ (ℝ × ℝ))) none ts)
    {vs : List (Events.GridVal ℝ)} (hq : queryAll (Events.gridEvents g.evc g.sp) (Events.resetCounters ev) ts = (ev', .ok vs)) :
    List.Forall₂ (fun t v => Correct (e0.grid.map fun e => (⟨e.T, (e.v.V, e.v.f)⟩ : Ev ℝ (ℝ × ℝ))) (g.sp.voltage.dflt, g.sp.freq.dflt) t (v.V, v.f)) ts vs := by
  have hp := queryAll_ok (Events.gridPlay g.evc g.sp) (fun _ => rfl) (fun _ _ _ => rfl) hq
  have hl : ((Events.resetCounters ev).grid.map fun e => (⟨e.T, (e.v.V, e.v.f)⟩ : Ev ℝ (ℝ × ℝ))) = e0.grid.map fun e => (⟨e.T, (e.v.V, e.v.f)⟩ : Ev ℝ (ℝ × ℝ)) := hh.grid
  have := Events.C08_grid_playback hov hh.reach (hh.en.trans hen) ts (by rw [hl]; exact hd)
  rw [show Events.resetCounters (Events.resetCounters ev) = Events.resetCounters ev from rfl, hp, hl] at this
  exact forall₂_ok this

/-- Relations between a list of results and their images. -/
theorem forall₂_map_right {α β : Type} {R : ℝ → β → Prop} {f : α → β} {ts : List ℝ} {vs : List α} (h : List.Forall₂ (fun t v => R t (f v)) ts vs) :
    List.Forall₂ R ts (vs.map f) := by
  induction h with
  | nil => exact List.Forall₂.nil
  | cons h1 _ ih => exact List.Forall₂.cons h1 ih

theorem forall₂_zipWith {α β γ : Type} {R : ℝ → α → Prop} {Q : ℝ × β → γ → Prop} {f : α → β → γ} {ts : List ℝ} {vs : List α} {ys : List β}
    (h : List.Forall₂ R ts vs) (hQ : ∀ t v y, R t v → Q (t, y) (f v y)) : List.Forall₂ Q (ts.zip ys) (List.zipWith f vs ys) := by
  induction h generalizing ys with
  | nil => cases ys <;> exact List.Forall₂.nil
  | cons h1 _ ih =>
    cases ys with
    | nil => exact List.Forall₂.nil
    | cons y ys => exact List.Forall₂.cons (hQ _ _ _ h1) ih

/-- C104: when a run with collection returns normally (not in loop mode), the reported insolation at each reported time is the scheduled one, and the reported PV
power is that of the PV module under the scheduled weather at the DC voltage of the state row; the times are assumed not to jump over more than one event. -/
theorem C104_weather_series (hl : c.loop = false) (hcoll : c.coll = true) (hov : c.g.evc.overrideAngle = true) (hr : Events.ReachableUnder c.g.evc c.g.sp s.h.ev)
    (hen : s.h.ev.solarEnable = true) (hd : Dense s.h.ev.solar none c.ts) (hret : (runSim c sv s).2 = .ok ()) :
    ∃ r rows, (runSim c sv s).1.rep = some r ∧ (runSim c sv s).1.rows = rows ∧ (runSim c sv s).1.t = c.ts ∧
      List.Forall₂ (fun t x => ∃ v, Correct s.h.ev.solar ⟨c.g.sp.insolation.dflt, 29815 / 100⟩ t v ∧ x = v.Sinsol) c.ts r.sinsol ∧
      List.Forall₂ (fun (q : ℝ × (k.V → ℝ)) p => ∃ v, Correct s.h.ev.solar ⟨c.g.sp.insolation.dflt, 29815 / 100⟩ q.1 v ∧
        p = PV.ppv c.g.p.mod v.Sinsol v.Tactual (min c.g.p.Vdcmpp_max (k.vdc q.2 c.g.Vdc0 * c.g.p.Vdcbase))) (c.ts.zip rows) r.ppv := by
  obtain ⟨h, y, rows, mused, he, _, hrun⟩ := runSim_ok hret
  have hP := kept_sched hov s.h.ev
  have hh : h = run k c.g s.h (trace c.g c.J c.x (sv s.y c.ts) s.h) := by
    have := (exec_trace (g := c.g) (h := s.h) c.J c.x (sv s.y c.ts) s.y).1
    rw [he] at this; exact this
  have h0 : SameSched c.g s.h.ev h.ev := by rw [hh]; exact run_kept hP _ ⟨hr, ⟨rfl, rfl, rfl, rfl⟩, rfl, rfl⟩
  have h1 := sched_reset h0
  rw [hrun] at hret ⊢
  unfold finish at hret ⊢
  rw [if_pos hcoll] at hret ⊢
  unfold collectSeries at hret ⊢
  dsimp only at hret ⊢
  have hru : ∀ ev, resetUnless c.loop ev = Events.resetCounters ev := fun ev => by unfold resetUnless; rw [hl]; rfl
  simp only [hru] at hret ⊢
  have hres : (resets h).ev = Events.resetCounters h.ev := rfl
  rw [hres] at hret ⊢
  have fin : ∀ {ev ev' : Events.St ℝ} {vs : List (Events.SolarVal ℝ)}, SameSched c.g s.h.ev (Events.resetCounters ev) →
      queryAll (Events.solarEvents c.g.sp) (Events.resetCounters ev) c.ts = (ev', .ok vs) →
      List.Forall₂ (fun t x => ∃ v, Correct s.h.ev.solar ⟨c.g.sp.insolation.dflt, 29815 / 100⟩ t v ∧ x = v.Sinsol) c.ts (vs.map (·.Sinsol)) ∧
      List.Forall₂ (fun (q : ℝ × (k.V → ℝ)) p => ∃ v, Correct s.h.ev.solar ⟨c.g.sp.insolation.dflt, 29815 / 100⟩ q.1 v ∧
        p = PV.ppv c.g.p.mod v.Sinsol v.Tactual (min c.g.p.Vdcmpp_max (k.vdc q.2 c.g.Vdc0 * c.g.p.Vdcbase))) (c.ts.zip rows)
        (List.zipWith (fun (v : Events.SolarVal ℝ) y => PV.ppv c.g.p.mod v.Sinsol v.Tactual (min c.g.p.Vdcmpp_max (k.vdc y c.g.Vdc0 * c.g.p.Vdcbase))) vs rows) := by
    intro ev ev' vs hs hq
    have hf := solar_samples hs hen hd hq
    exact ⟨forall₂_map_right (hf.imp fun t v hv => ⟨v, hv, rfl⟩), forall₂_zipWith hf fun t v y hv => ⟨v, hv, rfl⟩⟩
  split at hret
  · rename_i hsa
    rw [if_pos hsa]
    have k1 := queryAll_kept (q := Events.gridEvents c.g.evc c.g.sp) hP.grid c.ts _ h1
    rcases hx1 : queryAll (Events.gridEvents c.g.evc c.g.sp) (Events.resetCounters h.ev) c.ts with ⟨ev1, r1⟩
    rw [hx1] at hret k1
    cases r1 with
    | error e => simp at hret
    | ok gv =>
      dsimp only at hret ⊢
      have k2 := queryAll_kept (q := Events.loadEvents) hP.load c.ts _ (sched_reset k1)
      rcases hx2 : queryAll Events.loadEvents (Events.resetCounters ev1) c.ts with ⟨ev2, r2⟩
      rw [hx2] at hret k2
      cases r2 with
      | error e => simp at hret
      | ok lv =>
        dsimp only at hret ⊢
        rcases hx3 : queryAll (Events.solarEvents c.g.sp) (Events.resetCounters ev2) c.ts with ⟨ev3, r3⟩
        rw [hx3] at hret
        cases r3 with
        | error e => simp at hret
        | ok svv =>
          obtain ⟨a, b⟩ := fin (sched_reset k2) hx3
          exact ⟨_, rows, rfl, rfl, rfl, a, b⟩
  · rename_i hsa
    rw [if_neg hsa]
    rcases hx3 : queryAll (Events.solarEvents c.g.sp) (Events.resetCounters h.ev) c.ts with ⟨ev3, r3⟩
    rw [hx3] at hret
    cases r3 with
    | error e => simp at hret
    | ok svv =>
      obtain ⟨a, b⟩ := fin h1 hx3
      exact ⟨_, rows, rfl, rfl, rfl, a, b⟩

theorem zip_src (gr : Grid.GSt) (gv : List (Events.GridVal ℝ)) :
    ((gv.map (srcOf gr)).map (·.1)).zip (gv.map Grid.omegaOf) = gv.map fun v => (Grid.phasorOf v, Grid.omegaOf v) := by
  induction gv with
  | nil => rfl
  | cons v gv ih => simp only [List.map_cons, List.zip_cons_cons, ih, srcOf]

theorem update_ratios (x : Grid.GSt) (t : ℝ) (v : Events.GridVal ℝ) : (Grid.update x t v).rb = x.rb ∧ (Grid.update x t v).rc = x.rc := by
  unfold Grid.update
  by_cases c1 : ‖x.Va - Grid.phasorOf v‖ > 0 ∧ t ≥ x.tV
  · simp only [if_pos c1]; split_ifs <;> exact ⟨rfl, rfl⟩
  · simp only [if_neg c1]; split_ifs <;> exact ⟨rfl, rfl⟩

theorem gridStage_ratios (t : ℝ) : (gridStage g t h).1.grid.rb = h.grid.rb ∧ (gridStage g t h).1.grid.rc = h.grid.rc := by
  unfold gridStage Grid.steadyState
  split
  · rcases Events.gridEvents g.evc g.sp h.ev t with ⟨ev, r⟩
    cases r with
    | error x => exact ⟨rfl, rfl⟩
    | ok v => exact update_ratios _ _ _
  · exact ⟨rfl, rfl⟩

/-- The unbalance ratios of the source are constant. -/
theorem run_ratios (l : List (Call k)) (hok : Ok k g h l) : (run k g h l).grid.rb = h.grid.rb ∧ (run k g h l).grid.rc = h.grid.rc := by
  induction l generalizing h with
  | nil => exact ⟨rfl, rfl⟩
  | cons cl l ih =>
    obtain ⟨⟨e, he⟩, ho⟩ := hok
    have i := ih ho
    rw [eval_grid cl he, (gridStage_ratios cl.t).1, (gridStage_ratios cl.t).2] at i
    exact i

/-- C104, stand-alone mode: reported grid voltages (magnitude of phase a, unbalance ratios for phases b and c), grid frequency and load impedance at each reported
time are the scheduled ones. -/
theorem C104_grid_and_load_series (hl : c.loop = false) (hcoll : c.coll = true) (hsa : c.g.standAlone = true) (hov : c.g.evc.overrideAngle = true)
    (hr : Events.ReachableUnder c.g.evc c.g.sp s.h.ev) (hen : s.h.ev.gridEnable = true) (hen' : s.h.ev.loadEnable = true)
    (hd : Dense (s.h.ev.grid.map fun e => (⟨e.T, (e.v.V, e.v.f)⟩ : Ev ℝ (ℝ × ℝ))) none c.ts) (hd' : Dense s.h.ev.load none c.ts)
    (hret : (runSim c sv s).2 = .ok ()) :
    ∃ r, (runSim c sv s).1.rep = some r ∧ (runSim c sv s).1.t = c.ts ∧
      List.Forall₂ (fun t (x : ℂ × ℝ) => ∃ V f, Correct (s.h.ev.grid.map fun e => (⟨e.T, (e.v.V, e.v.f)⟩ : Ev ℝ (ℝ × ℝ))) (c.g.sp.voltage.dflt, c.g.sp.freq.dflt) t (V, f) ∧
        ‖x.1‖ = |V| * (20415 / 500) ∧ x.2 = 2 * Real.pi * f) c.ts (r.vag.zip r.wgrid) ∧
      r.vbg = r.vag.map (fun v => ub (v * s.h.grid.rb)) ∧ r.vcg = r.vag.map (fun v => uc (v * s.h.grid.rc)) ∧
      List.Forall₂ (fun t z => ∃ v, Correct s.h.ev.load ⟨10000000, 0⟩ t v ∧ z = (⟨v.Zre, v.Zim⟩ : ℂ) / c.g.Zbase) c.ts r.zload := by
  obtain ⟨h, y, rows, mused, he, _, hrun⟩ := runSim_ok hret
  have hP := kept_sched hov s.h.ev
  have hh : h = run k c.g s.h (trace c.g c.J c.x (sv s.y c.ts) s.h) := by
    have := (exec_trace (g := c.g) (h := s.h) c.J c.x (sv s.y c.ts) s.y).1
    rw [he] at this; exact this
  have h0 : SameSched c.g s.h.ev h.ev := by rw [hh]; exact run_kept hP _ ⟨hr, ⟨rfl, rfl, rfl, rfl⟩, rfl, rfl⟩
  have hrb : h.grid.rb = s.h.grid.rb ∧ h.grid.rc = s.h.grid.rc := by
    rw [hh]
    exact run_ratios _ ((exec_trace (g := c.g) (h := s.h) c.J c.x (sv s.y c.ts) s.y).2 (rows, mused) (by rw [he]))
  have h1 := sched_reset h0
  rw [hrun] at hret ⊢
  unfold finish at hret ⊢
  rw [if_pos hcoll] at hret ⊢
  unfold collectSeries at hret ⊢
  dsimp only at hret ⊢
  have hru : ∀ ev, resetUnless c.loop ev = Events.resetCounters ev := fun ev => by unfold resetUnless; rw [hl]; rfl
  simp only [hru] at hret ⊢
  have hres : (resets h).ev = Events.resetCounters h.ev := rfl
  rw [hres] at hret ⊢
  rw [if_pos hsa] at hret ⊢
  have k1 := queryAll_kept (q := Events.gridEvents c.g.evc c.g.sp) hP.grid c.ts _ h1
  rcases hx1 : queryAll (Events.gridEvents c.g.evc c.g.sp) (Events.resetCounters h.ev) c.ts with ⟨ev1, r1⟩
  rw [hx1] at hret k1
  cases r1 with
  | error e => simp at hret
  | ok gv =>
    dsimp only at hret ⊢
    rcases hx2 : queryAll Events.loadEvents (Events.resetCounters ev1) c.ts with ⟨ev2, r2⟩
    rw [hx2] at hret
    cases r2 with
    | error e => simp at hret
    | ok lv =>
      dsimp only at hret ⊢
      rcases hx3 : queryAll (Events.solarEvents c.g.sp) (Events.resetCounters ev2) c.ts with ⟨ev3, r3⟩
      rw [hx3] at hret
      cases r3 with
      | error e => simp at hret
      | ok svv =>
        refine ⟨_, rfl, rfl, ?_, ?_, ?_, ?_⟩
        · have hg := grid_samples hov h1 hen hd hx1
          have := zip_src (resets h).grid gv
          dsimp only
          rw [this]
          exact forall₂_map_right (hg.imp fun t v hv => ⟨v.V, v.f, hv, Grid.norm_phasorOf v, rfl⟩)
        · simp [srcOf, resets, hrb.1]
        · simp [srcOf, resets, hrb.2]
        · exact forall₂_map_right ((load_samples (sched_reset k1) hen' hd' hx2).imp fun t v hv => ⟨v, hv, rfl⟩)

end Session
end PvDer
