import Verif.Model.Fleet
import Verif.Props.Fleet

/-!
# Property C151: the grid voltage in stand-alone simulations, also of several simulations on one grid
-/

namespace PvDer
namespace Session
open Complex Phasor Ode Eval

variable {k : Cls} {g : SCfg} {h : Hid}

/-- Magnitude and frequency schedule. -/
abbrev gsched (ev : Events.St ℝ) : List (Ev ℝ (ℝ × ℝ)) := ev.grid.map fun e => ⟨e.T, (e.v.V, e.v.f)⟩

/-- The grid schedule is at the position that belongs to the time of the last query. -/
structure GPos (sp : Events.EvSpec ℝ) (G : List (Ev ℝ (ℝ × ℝ))) (prev : Option ℝ) (ev : Events.St ℝ) : Prop where
  inv : Events.Inv ev
  lim : Events.Limits sp ev
  en : ev.gridEnable = true
  sched : Events.noAngle ev.grid = G
  pos : G ≠ [] → ev.gridCtr = min ((G.length : Int) - 1) (posOf G prev : Int)

theorem gpos_query (hov : g.evc.overrideAngle = true) {G : List (Ev ℝ (ℝ × ℝ))} {prev : Option ℝ} {ev : Events.St ℝ} (hp : GPos g.sp G prev ev) {t : ℝ} {ts : List ℝ}
    (hd : Dense G prev (t :: ts)) :
    ∃ ev' v, Events.gridEvents g.evc g.sp ev t = (ev', .ok v) ∧ GPos g.sp G (some t) ev' ∧ Correct G (g.sp.voltage.dflt, g.sp.freq.dflt) t (v.V, v.f) := by
  obtain ⟨hi, hl, hen, hs, hc⟩ := hp
  obtain ⟨h1, h2, -⟩ := hd
  by_cases hne : G = []
  · have hg : ev.grid = [] := by rw [hne] at hs; simpa [Events.noAngle] using hs
    refine ⟨ev, Events.gridDefault g.sp, ?_, ⟨hi, hl, hen, hs, fun h => absurd hne h⟩, ?_⟩
    · unfold Events.gridEvents; rw [hg, hen]
    · exact Or.inr ⟨by simp [hne], rfl⟩
  · have hsg : StrictSorted G := hs ▸ Events.strictSorted_noAngle hi.gridS
    have hb := cnt_le_succ_of_dense hsg prev t h1 h2
    have hcg : cnt G t = cnt ev.grid t := by rw [← hs, Events.cnt_noAngle]
    have hlen : ev.grid.length = G.length := by rw [← hs]; simp [Events.noAngle]
    have hne' : ev.grid ≠ [] := by intro h; rw [h] at hs; exact hne hs.symm
    obtain ⟨s', v, he, hna, hen', hc', hv⟩ := Events.gridEvents_step hov hi hl hen hne' t (posOf G prev) (by omega) (by rw [hlen]; exact hc hne)
    have hm : min (cnt ev.grid t) (posOf G prev + 1) = cnt G t := by omega
    rw [hm] at hc' hv
    have hs' : s' = Events.step g.evc g.sp ev (.queryGrid t) := by simp only [Events.step]; rw [he]
    refine ⟨s', v, he, ⟨?_, ?_, hen', hna.trans hs, fun _ => ?_⟩, ?_⟩
    · rw [hs']; exact Events.inv_step hi _
    · rw [hs']; exact Events.limits_step hi hl _
    · rw [hc', hlen]; rfl
    · rw [hv, hs]; exact correct_valAt hsg _ t

theorem gpos_solar {G : List (Ev ℝ (ℝ × ℝ))} {prev : Option ℝ} {ev : Events.St ℝ} (hp : GPos g.sp G prev ev) (t : ℝ) : GPos g.sp G prev (Events.solarEvents g.sp ev t).1 := by
  have e : (Events.solarEvents g.sp ev t).1.grid = ev.grid ∧ (Events.solarEvents g.sp ev t).1.gridEnable = ev.gridEnable ∧
      (Events.solarEvents g.sp ev t).1.gridCtr = ev.gridCtr := by unfold Events.solarEvents; split <;> exact ⟨rfl, rfl, rfl⟩
  exact ⟨Events.inv_step (c := g.evc) (sp := g.sp) hp.inv (.querySolar t), Events.limits_step (c := g.evc) hp.inv hp.lim (.querySolar t), e.2.1.trans hp.en,
    by rw [e.1]; exact hp.sched, fun hn => e.2.2.trans (hp.pos hn)⟩

theorem gpos_load {G : List (Ev ℝ (ℝ × ℝ))} {prev : Option ℝ} {ev : Events.St ℝ} (hp : GPos g.sp G prev ev) (t : ℝ) : GPos g.sp G prev (Events.loadEvents ev t).1 := by
  have e : (Events.loadEvents ev t).1.grid = ev.grid ∧ (Events.loadEvents ev t).1.gridEnable = ev.gridEnable ∧
      (Events.loadEvents ev t).1.gridCtr = ev.gridCtr := by unfold Events.loadEvents; split <;> exact ⟨rfl, rfl, rfl⟩
  exact ⟨Events.inv_step (c := g.evc) (sp := g.sp) hp.inv (.queryLoad t), Events.limits_step (c := g.evc) hp.inv hp.lim (.queryLoad t), e.2.1.trans hp.en,
    by rw [e.1]; exact hp.sched, fun hn => e.2.2.trans (hp.pos hn)⟩

/-- One evaluation: the source takes the scheduled triple, and the position moves on. -/
theorem gpos_eval (hov : g.evc.overrideAngle = true) (hsa : g.standAlone = true) {G : List (Ev ℝ (ℝ × ℝ))} {prev : Option ℝ} (hp : GPos g.sp G prev h.ev) (c : Call k)
    {e : Env} (he : (evalEnv k g c h).2 = .ok e) {ts : List ℝ} (hd : Dense G prev (c.t :: ts)) :
    ∃ v : Events.GridVal ℝ, Correct G (g.sp.voltage.dflt, g.sp.freq.dflt) c.t (v.V, v.f) ∧ (evalEnv k g c h).1.grid = Grid.update h.grid c.t v ∧
      GPos g.sp G (some c.t) (evalEnv k g c h).1.ev := by
  obtain ⟨ev', v, hq, hp', hcor⟩ := gpos_query hov hp hd
  have hstage : gridStage g c.t h = ({ h with ev := ev', grid := Grid.update h.grid c.t v }, .ok ()) := by
    unfold gridStage Grid.steadyState
    rw [if_pos hsa]; dsimp only; rw [hq]
  refine ⟨v, hcor, ?_, ?_⟩
  · rw [eval_grid c he, hstage]
  · unfold evalEnv
    refine andThen_kept (by rw [hstage]; exact hp') fun _ h1 p1 => ?_
    refine andThen_kept (by rw [solar_ev]; exact gpos_solar p1 _) fun _ h2 p2 => ?_
    refine andThen_kept ?_ fun _ h3 p3 => ?_
    · rcases load_ev (k := k) (g := g) (h := h2) c.jac c.t with e | e <;> rw [e]
      exacts [p2, gpos_load p2 _]
    refine andThen_kept (by rw [dc_ev]; exact p3) fun _ h4 p4 => ?_
    rw [rt_ev, freq_ev]; exact p4

/-- The last change of voltage and frequency lies before `T` (or was already later). -/
theorem update_last (G : Grid.GSt) (t : ℝ) (v : Events.GridVal ℝ) {T : ℝ} (hV : G.tV ≤ T) (hF : G.tF ≤ T) (ht : t ≤ T) :
    (Grid.update G t v).tV ≤ T ∧ (Grid.update G t v).tF ≤ T := by
  rw [Grid.update_tV, Grid.update_tF]
  constructor <;> split_ifs <;> assumption

/-- The unbalance of the configured ratios, of the set-points. -/
structure Ratios (G : Grid.GSt) : Prop where
  b : G.Vb = Phasor.ub (G.Va * G.rb)
  c : G.Vc = Phasor.uc (G.Va * G.rc)

theorem update_unb {G : Grid.GSt} (hr : Ratios G) (t : ℝ) (v : Events.GridVal ℝ) :
    Ratios (Grid.update G t v) ∧ (Grid.update G t v).rb = G.rb ∧ (Grid.update G t v).rc = G.rc ∧
      (Grid.update G t v).va = (Grid.update G t v).Va ∧ (Grid.update G t v).vb = (Grid.update G t v).Vb ∧ (Grid.update G t v).vc = (Grid.update G t v).Vc := by
  unfold Grid.update
  by_cases c1 : ‖G.Va - Grid.phasorOf v‖ > 0 ∧ t ≥ G.tV
  · simp only [if_pos c1]
    split_ifs <;> refine ⟨⟨?_, ?_⟩, ?_, ?_, ?_, ?_, ?_⟩ <;> first | rfl | trivial
  · simp only [if_neg c1]
    split_ifs <;> refine ⟨⟨hr.b, hr.c⟩, ?_, ?_, ?_, ?_, ?_⟩ <;> first | rfl | trivial

/-- A sequence of evaluations along dense times. -/
theorem gpos_run (hov : g.evc.overrideAngle = true) (hsa : g.standAlone = true) {G : List (Ev ℝ (ℝ × ℝ))} (c : Call k) (q : List (Call k)) (p : List (Call k)) :
    ∀ (prev : Option ℝ) (h : Hid), GPos g.sp G prev h.ev → Ok k g h (p ++ c :: q) → Dense G prev ((p ++ c :: q).map Call.t) → h.grid.tV ≤ c.t → h.grid.tF ≤ c.t → Ratios h.grid →
    ∃ e V f, (evalEnv k g c (run k g h p)).2 = .ok e ∧ Correct G (g.sp.voltage.dflt, g.sp.freq.dflt) c.t (V, f) ∧
      ‖(run k g h (p ++ [c])).grid.va‖ = |V| * (20415 / 500) ∧ (run k g h (p ++ [c])).grid.w = 2 * Real.pi * f ∧
      (run k g h (p ++ [c])).grid.vb = Phasor.ub ((run k g h (p ++ [c])).grid.va * h.grid.rb) ∧
      (run k g h (p ++ [c])).grid.vc = Phasor.uc ((run k g h (p ++ [c])).grid.va * h.grid.rc) := by
  induction p with
  | nil =>
    intro prev h hp hok hd hV hF hr
    obtain ⟨⟨e, he⟩, -⟩ := hok
    obtain ⟨v, hc, hg, -⟩ := gpos_eval hov hsa hp c he hd
    obtain ⟨f1, f2, -, -⟩ := Grid.C65_follows h.grid c.t v hV hF
    obtain ⟨⟨r1, r2⟩, r3, r4, r5, r6, r7⟩ := update_unb hr c.t v
    refine ⟨e, v.V, v.f, he, hc, ?_⟩
    have hrun : run k g h ([] ++ [c]) = (evalEnv k g c h).1 := rfl
    rw [hrun, hg]
    refine ⟨by rw [f1, Grid.norm_phasorOf, Grid.scale], f2, ?_, ?_⟩
    · rw [r6, r1, r5, r3]
    · rw [r7, r2, r5, r4]
  | cons c0 p ih =>
    intro prev h hp hok hd hV hF hr
    obtain ⟨⟨e, he⟩, ho⟩ := hok
    obtain ⟨v, -, hg, hp'⟩ := gpos_eval hov hsa hp c0 he hd
    have hd' : Dense G (some c0.t) ((p ++ c :: q).map Call.t) := hd.2.2
    have hle : c0.t ≤ c.t := by
      have key : ∀ (ts us : List ℝ) (a b : ℝ), Dense G (some a) (ts ++ b :: us) → a ≤ b := by
        intro ts
        induction ts with
        | nil => intro us a b hh; exact hh.1 a rfl
        | cons x ts ih2 => intro us a b hh; exact (hh.1 a rfl).trans (ih2 us x b hh.2.2)
      refine key (p.map Call.t) (q.map Call.t) c0.t c.t ?_
      simpa using hd'
    obtain ⟨u1, u2⟩ := update_last h.grid c0.t v hV hF hle
    obtain ⟨r1, r2, r3, -⟩ := update_unb hr c0.t v
    obtain ⟨e', V, f, b1, b2, b3, b4, b5, b6⟩ := ih _ _ hp' ho hd' (by rw [hg]; exact u1) (by rw [hg]; exact u2) (by rw [hg]; exact r1)
    refine ⟨e', V, f, b1, b2, b3, b4, ?_, ?_⟩
    · rw [hg, r2] at b5; exact b5
    · rw [hg, r3] at b6; exact b6

theorem class_wgrid (hk : k ∈ classes) (p : Par) (i : Ode.Inp) (y : k.V → ℝ) : (k.env p i y).wgrid_measured = i.w := by
  simp only [classes, List.mem_cons, List.not_mem_nil, or_false] at hk
  rcases hk with rfl | rfl | rfl | rfl | rfl | rfl | rfl <;> rfl

/-- What an evaluation in stand-alone mode computes with: the terminal voltage from the source voltage and the load impedance, the frequency of the source. -/
theorem eval_uses_source (hk : k ∈ classes) (hsa : g.standAlone = true) (c : Call k) {e : Env} (he : (evalEnv k g c h).2 = .ok e) :
    e.va = Circuit.vStandAlone (evalEnv k g c h).1.grid.va (k.cur c.y).1 g.a g.Z1 g.Z2 (evalEnv k g c h).1.Zload1 ∧
      (g.useEst = false → e.wgrid_measured = (evalEnv k g c h).1.grid.w) := by
  obtain ⟨h1, h2, h3, h4, e1, e2, e3, e4, e5⟩ := eval_ok he
  have he' := he
  rw [e5] at he'
  obtain ⟨-, -, b3, b4⟩ := rt_ok he'
  have hg : (evalEnv k g c h).1.grid = (freqStage k g c (irefStage k g c h4)).grid := by rw [e5, b3]
  have hz : (evalEnv k g c h).1.Zload1 = (freqStage k g c (irefStage k g c h4)).Zload1 := by rw [e5, b3]
  have hva : e.va = (envC k g c (freqStage k g c (irefStage k g c h4))).va := by rw [b4]; split_ifs <;> rfl
  have hw : e.wgrid_measured = (envC k g c (freqStage k g c (irefStage k g c h4))).wgrid_measured := by rw [b4]; split_ifs <;> rfl
  constructor
  · rw [hva, envC_va hk, hsa, hg, hz]; rfl
  · intro hu
    rw [hw, hg]
    have : (envC k g c (freqStage k g c (irefStage k g c h4))).wgrid_measured = (freqStage k g c (irefStage k g c h4)).fe.wmeas := by
      unfold envC envP
      dsimp only
      split_ifs <;> exact class_wgrid hk _ _ _
    rw [this]
    unfold freqStage
    rw [if_neg (by simp [hu])]
    dsimp only
    rw [if_pos hsa]

/-- C151: a run in stand-alone mode.  The counters of the events object are at zero, the calls of the solver run forward and do not jump over more than one grid event;
the source did not change later than `c.t` in an earlier run.  Then the evaluation `c` — of derivatives or Jacobian, in every class — computes with the voltage
magnitude and frequency scheduled for its time: the source has this magnitude (on the grid base) and frequency, phases b and c follow with the configured unbalance
ratios, the terminal voltage is the circuit solution for this source, and the measured frequency (if not estimated) is that of the source. -/
theorem C151_source_follows_schedule (hk : k ∈ classes) (hov : g.evc.overrideAngle = true) (hsa : g.standAlone = true) {s : Events.St ℝ}
    (hs : Events.ReachableUnder g.evc g.sp s) (hen : s.gridEnable = true) (hev : h.ev = Events.resetCounters s) (hr : Ratios h.grid)
    (p : List (Call k)) (c : Call k) (q : List (Call k)) (hok : Ok k g h (p ++ c :: q)) (hd : Dense (gsched s) none ((p ++ c :: q).map Call.t))
    (hV : h.grid.tV ≤ c.t) (hF : h.grid.tF ≤ c.t) :
    ∃ e V f, (evalEnv k g c (run k g h p)).2 = .ok e ∧ Correct (gsched s) (g.sp.voltage.dflt, g.sp.freq.dflt) c.t (V, f) ∧
      ‖(run k g h (p ++ [c])).grid.va‖ = |V| * (20415 / 500) ∧ (run k g h (p ++ [c])).grid.w = 2 * Real.pi * f ∧
      (run k g h (p ++ [c])).grid.vb = Phasor.ub ((run k g h (p ++ [c])).grid.va * h.grid.rb) ∧
      (run k g h (p ++ [c])).grid.vc = Phasor.uc ((run k g h (p ++ [c])).grid.va * h.grid.rc) ∧
      e.va = Circuit.vStandAlone (run k g h (p ++ [c])).grid.va (k.cur c.y).1 g.a g.Z1 g.Z2 (run k g h (p ++ [c])).Zload1 ∧
      (g.useEst = false → e.wgrid_measured = 2 * Real.pi * f) := by
  obtain ⟨hi, hl⟩ := Events.limits_reachable hs
  have hp : GPos g.sp (gsched s) none h.ev := by
    rw [hev]
    refine ⟨Events.inv_step (c := g.evc) (sp := g.sp) hi .reset, Events.limits_resetCounters hl, hen, rfl, fun hne => ?_⟩
    have : 0 < (gsched s).length := List.length_pos_of_ne_nil hne
    simp only [posOf, Events.resetCounters]
    omega
  obtain ⟨e, V, f, b1, b2, b3, b4, b5, b6⟩ := gpos_run hov hsa c q p none h hp hok hd hV hF hr
  obtain ⟨u1, u2⟩ := eval_uses_source hk hsa c b1
  have hrun : run k g h (p ++ [c]) = (evalEnv k g c (run k g h p)).1 := by rw [run_append]; rfl
  rw [hrun] at b3 b4 b5 b6 ⊢
  exact ⟨e, V, f, b1, b2, b3, b4, b5, b6, u1, fun hu => (u2 hu).trans b4⟩

/-! ### What runs do to the source -/

theorem solar_grid (t : ℝ) : (solarStage k g t h).1.grid = h.grid := by
  unfold solarStage
  rcases Events.solarEvents g.sp h.ev t with ⟨ev, r⟩
  cases r with
  | error x => rfl
  | ok v => dsimp only; split_ifs <;> rfl

theorem load_grid (j : Bool) (t : ℝ) : (loadStage k g j t h).1.grid = h.grid := by
  unfold loadStage
  split
  · rcases Events.loadEvents h.ev t with ⟨ev, r⟩
    cases r with
    | error x => rfl
    | ok v => dsimp only; split_ifs <;> rfl
  · rfl

theorem dc_grid (t : ℝ) : (dcStage k t h).1.grid = h.grid := by
  unfold dcStage
  split
  · rcases VdcRef.updateRef (wNow h) t with ⟨w, r⟩
    cases r <;> rfl
  · rfl

theorem rt_grid (c : Call k) : (rtStage k g c h).1.grid = h.grid := by
  unfold rtStage
  dsimp only
  split
  · rfl
  · split <;> rfl

theorem andThen_grid {α β : Type} {P : Grid.GSt → Prop} {r : Hid × Except Err α} {f : α → Hid → Hid × Except Err β} (h0 : P r.1.grid)
    (hf : ∀ a h, P h.grid → P (f a h).1.grid) : P (andThen r f).1.grid := by
  rcases r with ⟨h, r⟩
  cases r with
  | error e => exact h0
  | ok a => exact hf a h h0

/-- An evaluation, failing or not, updates the source at most once, at its time. -/
theorem eval_source {P : Grid.GSt → Prop} (c : Call k) (hu : ∀ v, P h.grid → P (Grid.update h.grid c.t v)) (h0 : P h.grid) : P (evalEnv k g c h).1.grid := by
  unfold evalEnv
  refine andThen_grid ?_ fun _ h1 p1 => ?_
  · unfold gridStage Grid.steadyState
    split
    · dsimp only
      rcases Events.gridEvents g.evc g.sp h.ev c.t with ⟨ev, r⟩
      cases r with
      | error x => exact h0
      | ok v => exact hu v h0
    · exact h0
  refine andThen_grid (by rw [solar_grid]; exact p1) fun _ h2 p2 => ?_
  refine andThen_grid (by rw [load_grid]; exact p2) fun _ h3 p3 => ?_
  refine andThen_grid (by rw [dc_grid]; exact p3) fun _ h4 p4 => ?_
  rw [rt_grid]
  have : (freqStage k g c (irefStage k g c h4)).grid = h4.grid := by unfold freqStage; split <;> rfl
  rw [this]; exact p4

theorem run_source {P : Grid.GSt → Prop} (l : List (Call k)) (hu : ∀ c ∈ l, ∀ G v, P G → P (Grid.update G c.t v)) (h0 : P h.grid) : P (run k g h l).grid := by
  induction l generalizing h with
  | nil => exact h0
  | cons c l ih => exact ih (fun c' hc => hu c' (by simp [hc])) (eval_source c (fun v => hu c (by simp) _ v) h0)

theorem collect_source {P : Grid.GSt → Prop} {c : Cfg k} {s : Sess k} (hput : ∀ G v, P G → P (putGrid G v)) (ts : List ℝ) (rows : List (k.V → ℝ)) (h0 : P s.h.grid) :
    P (collectSeries c ts rows s).1.h.grid := by
  have hlast : ∀ gv : List (Events.GridVal ℝ), P (match gv.getLast? with | some v => putGrid s.h.grid v | none => s.h.grid) := by
    intro gv; cases gv.getLast? with
    | none => exact h0
    | some v => exact hput _ _ h0
  have hsun : ∀ (sv : List (Events.SolarVal ℝ)) (h : Hid), (putSun c.g sv h).grid = h.grid := by
    intro sv h; unfold putSun; split <;> rfl
  unfold collectSeries
  dsimp only
  split
  · rcases queryAll (Events.gridEvents c.g.evc c.g.sp) s.h.ev ts with ⟨ev, r⟩
    cases r with
    | error x => exact h0
    | ok gv =>
      dsimp only
      rcases queryAll Events.loadEvents (resetUnless c.loop ev) ts with ⟨ev2, r2⟩
      cases r2 with
      | error x => exact hlast gv
      | ok lv =>
        dsimp only
        rcases queryAll (Events.solarEvents c.g.sp) (resetUnless c.loop ev2) ts with ⟨ev3, r3⟩
        cases r3 with
        | error x => exact hlast gv
        | ok sv => exact hlast gv
  · rcases queryAll (Events.solarEvents c.g.sp) s.h.ev ts with ⟨ev, r⟩
    cases r with
    | error x => exact h0
    | ok sv => show P (putSun c.g sv s.h).grid; rw [hsun]; exact h0

theorem check_source {s : Sess k} (ts : List ℝ) (mused : List Int) : (check ts mused s).1.h = s.h := by
  unfold check; split_ifs <;> rfl

/-- A run, returning or not, updates the source only at the times of its evaluations, and by the samples of the collected series. -/
theorem runSim_source {P : Grid.GSt → Prop} {c : Cfg k} {sv : Solver k} {s : Sess k} (hput : ∀ G v, P G → P (putGrid G v))
    (hu : ∀ cl ∈ trace c.g c.J c.x (sv s.y c.ts) s.h, ∀ G v, P G → P (Grid.update G cl.t v)) (h0 : P s.h.grid) : P (runSim c sv s).1.h.grid := by
  have ht := (exec_trace (g := c.g) (h := s.h) c.J c.x (sv s.y c.ts) s.y).1
  have hP := run_source (g := c.g) _ hu h0
  rw [← ht] at hP
  unfold runSim
  dsimp only
  generalize exec c.g c.J c.x (sv s.y c.ts) (s.h, s.y) = R at hP ⊢
  obtain ⟨⟨h, y⟩, r⟩ := R
  cases r with
  | error e => exact hP
  | ok r =>
    obtain ⟨rows, mused⟩ := r
    dsimp only at hP ⊢
    have hc := check_source (s := { s with t := c.ts, rows := [s.y], h := h, y := y }) c.ts mused
    generalize check c.ts mused { s with t := c.ts, rows := [s.y], h := h, y := y } = R at hc ⊢
    obtain ⟨s1, r1⟩ := R
    have hc' : s1.h = h := hc
    cases r1 with
    | error e => show P s1.h.grid; rw [hc']; exact hP
    | ok u =>
      dsimp only
      unfold finish
      split
      · refine collect_source hput _ _ ?_
        show P s1.h.grid; rw [hc']; exact hP
      · show P s1.h.grid; rw [hc']; exact hP

/-- The same for a step in loop mode. -/
theorem runLoop_source {P : Grid.GSt → Prop} {c : Cfg k} {sv : Solver k} {s : Sess k} {x : Ext} {y0 : k.V → ℝ} {ts : List ℝ} (hput : ∀ G v, P G → P (putGrid G v))
    (hu : ∀ cl ∈ trace c.g c.J x (sv y0 ts) s.h, ∀ G v, P G → P (Grid.update G cl.t v)) (h0 : P s.h.grid) : P (runLoop c sv x y0 ts s).1.h.grid := by
  have ht := (exec_trace (g := c.g) (h := s.h) c.J x (sv y0 ts) s.y).1
  have hP := run_source (g := c.g) _ hu h0
  rw [← ht] at hP
  unfold runLoop
  dsimp only
  generalize exec c.g c.J x (sv y0 ts) (s.h, s.y) = R at hP ⊢
  obtain ⟨⟨h, y⟩, r⟩ := R
  cases r with
  | error e => exact hP
  | ok r =>
    obtain ⟨rows, mused⟩ := r
    dsimp only at hP ⊢
    have hc := check_source (s := { s with t := if ts.head? = some 0 then ts else s.t, h := h, y := y }) ts mused
    generalize check ts mused { s with t := if ts.head? = some 0 then ts else s.t, h := h, y := y } = R at hc ⊢
    obtain ⟨s1, r1⟩ := R
    have hc' : s1.h = h := hc
    cases r1 with
    | error e => show P s1.h.grid; rw [hc']; exact hP
    | ok u =>
      dsimp only
      unfold finish
      split
      · refine collect_source hput _ _ ?_
        show P s1.h.grid; rw [hc']; exact hP
      · show P s1.h.grid; rw [hc']; exact hP

/-! ### Several simulations on one grid -/

variable {ι : Type} [DecidableEq ι] {kk : ι → Cls} {C : FCfg kk} {P : Plant kk}

theorem pown_put_self (i : ι) (s : Sess (kk i)) : (P.put i s).own i = s := by
  unfold Plant.own Plant.put
  simp only [Function.update_self]

theorem pown_put_other {i j : ι} (h : j ≠ i) (s : Sess (kk i)) :
    (P.put i s).own j = { P.own j with h := { (P.own j).h with ev := s.h.ev, grid := s.h.grid } } := by
  unfold Plant.own Plant.put
  simp only [Function.update_of_ne h]

theorem pact_source {Q : Grid.GSt → Prop} (hput : ∀ G v, Q G → Q (putGrid G v)) (a : FAct kk)
    (hu : ∀ t ∈ ptimes C P [a], ∀ G v, Q G → Q (Grid.update G t v)) (h0 : Q P.grid) : Q (pact C P a).1.grid := by
  cases a with
  | sim i sv =>
    refine runSim_source (c := C.cfg i) (sv := sv) (s := P.own i) hput (fun cl hcl => hu cl.t ?_) h0
    simp only [ptimes, List.append_nil]
    exact List.mem_map_of_mem hcl
  | step i sv x y0 ts =>
    refine runLoop_source (c := C.cfg i) (sv := sv) (s := P.own i) (x := x) (y0 := y0) (ts := ts) hput (fun cl hcl => hu cl.t ?_) h0
    simp only [ptimes, List.append_nil]
    exact List.mem_map_of_mem hcl
  | edit o => exact h0

theorem ptimes_cons (a : FAct kk) (l : List (FAct kk)) : ptimes C P (a :: l) = ptimes C P [a] ++ ptimes C (pact C P a).1 l := by
  simp only [ptimes, List.append_nil]

theorem pacts_source {Q : Grid.GSt → Prop} (hput : ∀ G v, Q G → Q (putGrid G v)) (l : List (FAct kk))
    (hu : ∀ t ∈ ptimes C P l, ∀ G v, Q G → Q (Grid.update G t v)) (h0 : Q P.grid) : Q (pacts C P l).grid := by
  induction l generalizing P with
  | nil => exact h0
  | cons a l ih =>
    rw [ptimes_cons] at hu
    exact ih (fun t ht => hu t (List.mem_append_right _ ht)) (pact_source hput a (fun t ht => hu t (List.mem_append_left _ ht)) h0)

/-- C151: whatever the simulations on one grid do, in whatever order, in loop mode or not, failing or not: the source keeps the configured unbalance, and the last
changes of voltage and frequency are not later than the latest evaluation so far, and never move back. -/
theorem C151_last_change (l : List (FAct kk)) (T : ℝ) (hr : Ratios P.grid) (hV : P.grid.tV ≤ T) (hF : P.grid.tF ≤ T) (hT : ∀ t ∈ ptimes C P l, t ≤ T) :
    Ratios (pacts C P l).grid ∧ (pacts C P l).grid.rb = P.grid.rb ∧ (pacts C P l).grid.rc = P.grid.rc ∧
      (pacts C P l).grid.tV ≤ T ∧ (pacts C P l).grid.tF ≤ T ∧ P.grid.tV ≤ (pacts C P l).grid.tV ∧ P.grid.tF ≤ (pacts C P l).grid.tF := by
  have := pacts_source (C := C) (P := P)
    (Q := fun G => Ratios G ∧ G.rb = P.grid.rb ∧ G.rc = P.grid.rc ∧ G.tV ≤ T ∧ G.tF ≤ T ∧ P.grid.tV ≤ G.tV ∧ P.grid.tF ≤ G.tF)
    (fun G v hG => ⟨⟨hG.1.b, hG.1.c⟩, hG.2⟩) l
    (fun t ht G v hG => by
      obtain ⟨g1, g2, g3, g4, g5, g6, g7⟩ := hG
      obtain ⟨r1, r2, r3, -⟩ := update_unb g1 t v
      obtain ⟨u1, u2⟩ := update_last G t v g4 g5 (hT t ht)
      refine ⟨r1, r2.trans g2, r3.trans g3, u1, u2, ?_, ?_⟩
      · rw [Grid.update_tV]; split_ifs with cc; exacts [g6.trans cc.2, g6]
      · rw [Grid.update_tF]; split_ifs with cc; exacts [g7.trans cc.2, g7])
    ⟨hr, rfl, rfl, hV, hF, le_rfl, le_rfl⟩
  exact this

/-- All simulations are ready to run. -/
def PReady (C : FCfg kk) (P : Plant kk) : Prop := ∀ i, Ready (C.cfg i) (P.own i)

theorem good_grid {k : Cls} {g : SCfg} {h : Hid} (hg : Good k g h) {ev : Events.St ℝ} (he : EvGood g.sp ev) (G : Grid.GSt) : Good k g { h with ev := ev, grid := G } :=
  { hg with ev := he }

theorem pact_ready (hl : ∀ i, (C.der i).loop = false) (hr : PReady C P) (a : FAct kk)
    (ha : match a with | .sim i sv => ∀ y, Healthy (sv y (C.der i).ts) | .step _ _ _ _ _ => False | .edit o => o.isQuery = false) :
    (pact C P a).2 = .ok () ∧ PReady C (pact C P a).1 := by
  cases a with
  | sim i sv =>
    have h1 := runSim_good (c := C.cfg i) (sv := sv) (s := P.own i) (hr i).good (ha _)
    have h2 := act_between (c := C.cfg i) (hl i) (.sim sv) (fun o ho => by simp at ho) h1.1 (hr i).between
    refine ⟨h1.1, fun j => ?_⟩
    show Ready (C.cfg j) ((P.put i (runSim (C.cfg i) sv (P.own i)).1).own j)
    by_cases h : j = i
    · subst h; rw [pown_put_self]; exact ⟨h1.2, h2⟩
    · rw [pown_put_other h]
      exact ⟨good_grid (hr j).good h1.2.ev _, h2.reach, h2.ctr, (hr j).between.sun⟩
  | step i sv x y0 ts => exact ha.elim
  | edit o =>
    refine ⟨rfl, fun i => ⟨?_, ?_⟩⟩
    · exact edit_good (c := C.cfg i) (s := P.own i) (hr i).good (hr i).between.ctr o ha
    · exact act_between (c := C.cfg i) (s := P.own i) (hl i) (.edit o) (fun o' ho => by cases ho; exact ha) rfl (hr i).between

/-- C151: any number of simulations, of any of the DER classes, that share one events object and one grid source; in any order simulations are run (with solvers that
report no failure) and events are added, removed or enabled.  No call raises an exception. -/
theorem C151_no_exception (hl : ∀ i, (C.der i).loop = false) (hr : PReady C P) (l : List (FAct kk)) (hp : Plainly l)
    (hS : ∀ i sv, FAct.sim i sv ∈ l → ∀ y, Healthy (sv y (C.der i).ts)) : PAllReturn C P l ∧ PReady C (pacts C P l) := by
  induction l generalizing P with
  | nil => exact ⟨trivial, hr⟩
  | cons a l ih =>
    have h1 := pact_ready hl hr a (by
      have := hp a List.mem_cons_self
      cases a with
      | sim i sv => exact hS i sv List.mem_cons_self
      | step i sv x y0 ts => exact this
      | edit o => exact this)
    obtain ⟨i1, i2⟩ := ih h1.2 hp.tail (fun i sv h => hS i sv (List.mem_cons_of_mem _ h))
    exact ⟨⟨h1.1, i1⟩, i2⟩

/-- One run of a simulation that is ready. -/
theorem run_follows {c : Cfg k} {s : Sess k} {sv : Solver k} (hk : k ∈ classes) (hsa : c.g.standAlone = true) (hready : Ready c s)
    {r : List (k.V → ℝ) × List Int} (hok : (exec c.g c.J c.x (sv s.y c.ts) (s.h, s.y)).2 = .ok r) (hen : s.h.ev.gridEnable = true)
    (hd : Dense (gsched s.h.ev) none ((trace c.g c.J c.x (sv s.y c.ts) s.h).map Call.t)) (p : List (Call k)) (cl : Call k) (q : List (Call k))
    (htr : trace c.g c.J c.x (sv s.y c.ts) s.h = p ++ cl :: q) (hrat : Ratios s.h.grid) (hV : s.h.grid.tV ≤ cl.t) (hF : s.h.grid.tF ≤ cl.t) :
    ∃ e V f, (evalEnv k c.g cl (run k c.g s.h p)).2 = .ok e ∧ Correct (gsched s.h.ev) (c.g.sp.voltage.dflt, c.g.sp.freq.dflt) cl.t (V, f) ∧
      ‖(run k c.g s.h (p ++ [cl])).grid.va‖ = |V| * (20415 / 500) ∧ (run k c.g s.h (p ++ [cl])).grid.w = 2 * Real.pi * f ∧
      e.va = Circuit.vStandAlone (run k c.g s.h (p ++ [cl])).grid.va (k.cur cl.y).1 c.g.a c.g.Z1 c.g.Z2 (run k c.g s.h (p ++ [cl])).Zload1 := by
  have ht := (exec_trace (g := c.g) (h := s.h) c.J c.x (sv s.y c.ts) s.y).2 r hok
  rw [htr] at ht hd
  have hpos : GPos c.g.sp (gsched s.h.ev) none s.h.ev := by
    refine ⟨hready.good.ev.inv, hready.good.ev.lim, hen, rfl, fun hne => ?_⟩
    have h1 : 0 < (gsched s.h.ev).length := List.length_pos_of_ne_nil hne
    have h2 : s.h.ev.gridCtr = 0 := by rw [hready.between.ctr]; rfl
    rw [h2]; simp only [posOf]; omega
  obtain ⟨e, V, f, b1, b2, b3, b4, -, -⟩ := gpos_run hready.good.override hsa cl q p none s.h hpos ht hd hV hF hrat
  obtain ⟨u1, -⟩ := eval_uses_source hk hsa cl b1
  have hrun : run k c.g s.h (p ++ [cl]) = (evalEnv k c.g cl (run k c.g s.h p)).1 := by rw [run_append]; rfl
  rw [hrun] at b3 b4 ⊢
  exact ⟨e, V, f, b1, b2, b3, b4, u1⟩

/-- C151: after any such sequence a run of any of the simulations, in stand-alone mode: its evaluation `c` at a time not before any evaluation of the earlier runs
computes with the voltage and frequency of the common schedule. -/
theorem C151_follows_beyond (i : ι) (hk : kk i ∈ classes) (hsa : (C.der i).g.standAlone = true) (hl : ∀ i, (C.der i).loop = false) (hr : PReady C P)
    (hrat : Ratios P.grid) (l : List (FAct kk)) (hp : Plainly l) (hS : ∀ i sv, FAct.sim i sv ∈ l → ∀ y, Healthy (sv y (C.der i).ts)) (sv : Solver (kk i))
    {r : List ((kk i).V → ℝ) × List Int} {s : Sess (kk i)} (hs : (pacts C P l).own i = s)
    (hok : (exec (C.cfg i).g (C.cfg i).J (C.cfg i).x (sv s.y (C.cfg i).ts) (s.h, s.y)).2 = .ok r) (hen : (pacts C P l).ev.gridEnable = true)
    (hd : Dense (gsched (pacts C P l).ev) none ((trace (C.cfg i).g (C.cfg i).J (C.cfg i).x (sv s.y (C.cfg i).ts) s.h).map Call.t))
    (p : List (Call (kk i))) (c : Call (kk i)) (q : List (Call (kk i)))
    (htr : trace (C.cfg i).g (C.cfg i).J (C.cfg i).x (sv s.y (C.cfg i).ts) s.h = p ++ c :: q)
    (hV : P.grid.tV ≤ c.t) (hF : P.grid.tF ≤ c.t) (hT : ∀ t ∈ ptimes C P l, t ≤ c.t) :
    ∃ e V f, (evalEnv (kk i) (C.cfg i).g c (run (kk i) (C.cfg i).g s.h p)).2 = .ok e ∧
      Correct (gsched (pacts C P l).ev) (C.sp.voltage.dflt, C.sp.freq.dflt) c.t (V, f) ∧
      ‖(run (kk i) (C.cfg i).g s.h (p ++ [c])).grid.va‖ = |V| * (20415 / 500) ∧ (run (kk i) (C.cfg i).g s.h (p ++ [c])).grid.w = 2 * Real.pi * f ∧
      e.va = Circuit.vStandAlone (run (kk i) (C.cfg i).g s.h (p ++ [c])).grid.va ((kk i).cur c.y).1 (C.cfg i).g.a (C.cfg i).g.Z1 (C.cfg i).g.Z2
        (run (kk i) (C.cfg i).g s.h (p ++ [c])).Zload1 := by
  have hready := (C151_no_exception hl hr l hp hS).2 i
  obtain ⟨q1, -, -, q4, q5, -⟩ := C151_last_change (C := C) l c.t hrat hV hF hT
  rw [hs] at hready
  have hev : s.h.ev = (pacts C P l).ev := by rw [← hs]; rfl
  have hgr : s.h.grid = (pacts C P l).grid := by rw [← hs]; rfl
  rw [← hgr] at q1 q4 q5
  rw [← hev] at hen hd ⊢
  exact run_follows (c := C.cfg i) (s := s) (sv := sv) hk hsa hready hok hen hd p c q htr q1 q4 q5

omit [DecidableEq ι] in
/-- C151 is false before the last change: as long as the evaluations of a run are at times before the last change of the source — made by whichever simulation — they
all compute with the voltage of that change, whatever is scheduled for their times. -/
theorem C151_stale_before (i : ι) (hsa : (C.der i).g.standAlone = true) (sv : Solver (kk i)) {r : List ((kk i).V → ℝ) × List Int}
    (hok : (exec (C.cfg i).g (C.cfg i).J (C.cfg i).x (sv (P.own i).y (C.cfg i).ts) ((P.own i).h, (P.own i).y)).2 = .ok r) (p q : List (Call (kk i)))
    (htr : trace (C.cfg i).g (C.cfg i).J (C.cfg i).x (sv (P.own i).y (C.cfg i).ts) (P.own i).h = p ++ q) (hne : p ≠ []) (hpast : ∀ cl ∈ p, cl.t < P.grid.tV) :
    (run (kk i) (C.cfg i).g (P.own i).h p).grid.va = P.grid.Va :=
  C103_grid_starts_with_last_voltage (c := C.cfg i) (s := P.own i) hsa hok p q htr hne hpast

/-! ### Two simulations on one grid -/

/-- Two three-phase DERs on one source, sag to 0.9 p.u. at 1 s. -/
noncomputable def exPC : FCfg (fun _ : Bool => three) := ⟨(exC true).g.evc, (exC true).g.sp, fun _ => exC true⟩
noncomputable def exP (y : three.V → ℝ) : Plant (fun _ : Bool => three) := ⟨(exS true y).h.ev, (exS true y).h.grid, fun _ => exS true y⟩

theorem exP_own (y : three.V → ℝ) (i : Bool) : (exP y).own i = exS true y := by unfold Plant.own exP; cases i <;> rfl

theorem exP_ready (y : three.V → ℝ) : PReady exPC (exP y) := by
  intro i
  rw [exP_own]
  exact ⟨exS_good true y, exS_between true y⟩

theorem exS_ratios (y : three.V → ℝ) : Ratios (exS true y).h.grid ∧ (exS true y).h.grid.tV = 0 ∧ (exS true y).h.grid.tF = 0 := ⟨⟨rfl, rfl⟩, rfl, rfl⟩

/-- After the first run, which meets the sag at 2 s. -/
theorem exP_after (y : three.V → ℝ) :
    (runSim (exC true) (askAt 1 [2]) (exS true y)).2 = .ok () ∧ Good three (exC true).g (runSim (exC true) (askAt 1 [2]) (exS true y)).1.h ∧
      (runSim (exC true) (askAt 1 [2]) (exS true y)).1.h.grid.Va = Grid.phasorOf ⟨9 / 10, 0, 60⟩ ∧ (runSim (exC true) (askAt 1 [2]) (exS true y)).1.h.grid.tV = 2 := by
  obtain ⟨a1, a2, a3⟩ := askAt_run (c := exC true) rfl [2] (exS true y) (exS_good true y)
  have hgr : (runSim (exC true) (askAt 1 [2]) (exS true y)).1.h = resets (run three (exC true).g (exS true y).h [mkCall (exC true).x false y 2]) := a2
  generalize (runSim (exC true) (askAt 1 [2]) (exS true y)) = R at a1 hgr ⊢
  have hgood1 : Good three (exC true).g (run three (exC true).g (exS true y).h [mkCall (exC true).x false y 2]) := good_run (exS_good true y) _
  have hq : Events.gridEvents (exC true).g.evc (exC true).g.sp (exS true y).h.ev 2 = ((exS true y).h.ev, .ok ⟨9 / 10, 0, 60⟩) := by
    show Events.gridEvents (exC true).g.evc (exC true).g.sp (exEv3 (exG exPar true)) 2 = (exEv3 (exG exPar true), .ok ⟨9 / 10, 0, 60⟩)
    rw [exEv3_eq]
    unfold Events.gridEvents
    have b1 : ¬ ((2:ℝ) < 1) := by norm_num
    have b2 : ((1:ℝ) ≤ 2) := by norm_num
    have b3 : ¬ ((2:ℝ) < 1 + 3 / 1000) := by norm_num
    simp [Events.init, pyGet, b1, b2, b3]
  have hstage : (gridStage (exC true).g 2 (exS true y).h).1 = { (exS true y).h with grid := Grid.update (exS true y).h.grid 2 ⟨9 / 10, 0, 60⟩ } := by
    unfold gridStage Grid.steadyState
    rw [if_pos (show (exC true).g.standAlone = true from rfl)]
    dsimp only
    rw [hq]
  obtain ⟨e1, he1⟩ := (good_step (exS_good true y) (mkCall (exC true).x false y 2)).1
  have hgrid : R.1.h.grid = Grid.update (exS true y).h.grid 2 ⟨9 / 10, 0, 60⟩ := by
    rw [hgr]
    refine (eval_grid (g := (exC true).g) _ he1).trans ?_
    show (gridStage (exC true).g 2 (exS true y).h).1.grid = _
    rw [hstage]
  have hne : (exS true y).h.grid.Va ≠ Grid.phasorOf ⟨9 / 10, 0, 60⟩ := by
    intro hc
    have := congrArg (fun z => ‖z‖) hc
    have e0 : ((exS true y).h.grid.Va : ℂ) = Grid.phasorOf ⟨1, 0, 60⟩ := rfl
    rw [e0] at this
    simp only [Grid.norm_phasorOf, Grid.scale] at this
    rw [abs_of_pos (by norm_num), abs_of_pos (by norm_num)] at this
    norm_num at this
  have h0 : (exS true y).h.grid.tV ≤ 2 := by show (0:ℝ) ≤ 2; norm_num
  refine ⟨a1, ?_, by rw [hgrid, Grid.update_Va, if_pos ⟨hne, h0⟩], by rw [hgrid, Grid.update_tV, if_pos ⟨hne, h0⟩]⟩
  rw [hgr]
  refine { hgood1 with ev := ?_, dc := ?_ }
  · exact ⟨Events.inv_step (c := (exC true).g.evc) (sp := (exC true).g.sp) hgood1.ev.inv .reset, Events.limits_step (c := (exC true).g.evc) hgood1.ev.inv hgood1.ev.lim .reset,
      Events.tight_step (c := (exC true).g.evc) (sp := (exC true).g.sp) hgood1.ev.inv hgood1.ev.tight .reset rfl⟩
  · exact ⟨hgood1.dc.1, hgood1.dc.2, le_rfl, Or.inl rfl⟩

/-- C151 is false of a shared source.  Witness: the first DER is simulated and meets the sag to 0.9 p.u. scheduled for 1 s; then the second, a different DER that was never
simulated before, is simulated from 0 s.  Its source voltage at 0 s is 0.9 p.u.; the schedule says 1.0 p.u., and with a source of its own it would have 1.0 p.u. -/
theorem C151_shared_source_refuted (y : three.V → ℝ) :
    let P1 := pact exPC (exP y) (.sim false (askAt 1 [2]))
    let P2 := pact exPC P1.1 (.sim true (askAt 1 [0]))
    P1.2 = .ok () ∧ P2.2 = .ok () ∧ ‖(P2.1.own true).h.grid.va‖ = 9 / 10 * (20415 / 500) ∧
      (runSim (exC true) (askAt 1 [0]) (exS true y)).2 = .ok () ∧ ‖(runSim (exC true) (askAt 1 [0]) (exS true y)).1.h.grid.va‖ = 1 * (20415 / 500) ∧
      (∀ v, Correct (gsched (exP y).ev) (1, 60) 0 v → v.1 = 1) := by
  intro P1 P2
  obtain ⟨a1, a2, a3, a4⟩ := exP_after y
  have hsched : gsched (exP y).ev = [⟨1, (9 / 10, 60)⟩] := by
    show gsched (exEv3 (exG exPar true)) = _
    rw [exEv3_eq]; rfl
  have hcor : ∀ v, Correct (gsched (exP y).ev) (1, 60) 0 v → v.1 = 1 := by
    intro v hv
    rw [hsched] at hv
    rcases hv with ⟨e, ⟨he, hle, _⟩, rfl⟩ | ⟨_, rfl⟩
    · simp only [List.mem_singleton] at he
      subst he; norm_num at hle
    · rfl
  have e1 : pact exPC (exP y) (.sim false (askAt 1 [2])) = ((exP y).put false (runSim (exC true) (askAt 1 [2]) (exS true y)).1, (runSim (exC true) (askAt 1 [2]) (exS true y)).2) := by
    have := exP_own y false
    simp only [pact]
    rw [this]; rfl
  generalize hR : runSim (exC true) (askAt 1 [2]) (exS true y) = R at a1 a2 a3 a4 e1
  have own1 : P1.1.own true = { exS true y with h := { (exS true y).h with ev := R.1.h.ev, grid := R.1.h.grid } } := by
    show (pact exPC (exP y) (.sim false (askAt 1 [2]))).1.own true = _
    rw [e1]
    dsimp only
    rw [pown_put_other (by decide), exP_own]
  have hgood : Good three (exC true).g ({ exS true y with h := { (exS true y).h with ev := R.1.h.ev, grid := R.1.h.grid } } : Sess three).h := good_grid (exS_good true y) a2.ev _
  obtain ⟨b1, b2, b3⟩ := askAt_run (c := exC true) rfl [0] _ hgood
  obtain ⟨x, hx⟩ := (good_step hgood (mkCall (exC true).x false y 0)).1
  obtain ⟨c1, c2, c3⟩ := askAt_run (c := exC true) rfl [0] _ (exS_good true y)
  obtain ⟨z, hz⟩ := (good_step (exS_good true y) (mkCall (exC true).x false y 0)).1
  have e2 : P2 = (P1.1.put true (runSim (exC true) (askAt 1 [0]) (P1.1.own true)).1, (runSim (exC true) (askAt 1 [0]) (P1.1.own true)).2) := rfl
  refine ⟨?_, ?_, ?_, c1, ?_, hcor⟩
  · show (pact exPC (exP y) (.sim false (askAt 1 [2]))).2 = _
    rw [e1]; exact a1
  · rw [e2, own1]; exact b1
  · rw [e2]
    dsimp only
    rw [pown_put_self, own1, b2]
    have hp := (eval_grid_past (g := (exC true).g) rfl (mkCall (exC true).x false y 0) hx (by show (0:ℝ) < R.1.h.grid.tV; rw [a4]; norm_num)).1
    refine (congrArg norm hp).trans ?_
    show ‖R.1.h.grid.Va‖ = _
    rw [a3, Grid.norm_phasorOf, abs_of_pos (by norm_num), Grid.scale]
  · rw [c2]
    have hgp : GPos (exC true).g.sp (gsched (exP y).ev) none (exS true y).h.ev := by
      refine ⟨(exS_good true y).ev.inv, (exS_good true y).ev.lim, ?_, rfl, fun _ => ?_⟩
      · show (exEv3 (exG exPar true)).gridEnable = true; rw [exEv3_eq]; rfl
      · rw [hsched]
        show (exEv3 (exG exPar true)).gridCtr = _
        rw [exEv3_eq]; rfl
    have hd : Dense (gsched (exP y).ev) none (([] ++ [mkCall (exC true).x false y 0]).map (Call.t (k := three))) := by
      rw [hsched]
      refine ⟨by simp, ?_, trivial⟩
      simp only [AfterPrev, List.mem_singleton]
      intro a ha b hb _ _ _ _
      rw [ha, hb]
    obtain ⟨e, V, f, d1, d2, d3, -⟩ := gpos_run (g := (exC true).g) (k := three) rfl rfl (mkCall (exC true).x false y 0) [] [] none (exS true y).h hgp ⟨⟨z, hz⟩, trivial⟩ hd
      (le_of_eq (exS_ratios y).2.1) (le_of_eq (exS_ratios y).2.2) (exS_ratios y).1
    have hv1 : V = 1 := hcor _ d2
    rw [hv1, abs_one] at d3
    exact d3

/-- The hypotheses of C151 are met: the first DER is simulated up to 2 s, the second then evaluates at 1/2 s, 2 s and 3 s; from 2 s on it follows the schedule. -/
theorem C151_example (y : three.V → ℝ) :
    PReady exPC (exP y) ∧ Ratios (exP y).grid ∧ ptimes exPC (exP y) [.sim false (askAt 1 [2])] = [2] ∧
      (pacts exPC (exP y) [.sim false (askAt 1 [2])]).ev.gridEnable = true ∧ gsched (pacts exPC (exP y) [.sim false (askAt 1 [2])]).ev = [⟨1, (9 / 10, 60)⟩] ∧
      Dense (gsched (pacts exPC (exP y) [.sim false (askAt 1 [2])]).ev) none [1 / 2, 2, 3] := by
  have hone : pacts exPC (exP y) [.sim false (askAt 1 [2])] = (pact exPC (exP y) (.sim false (askAt 1 [2]))).1 := rfl
  have e1 : pact exPC (exP y) (.sim false (askAt 1 [2])) = ((exP y).put false (runSim (exC true) (askAt 1 [2]) (exS true y)).1, (runSim (exC true) (askAt 1 [2]) (exS true y)).2) := by
    have := exP_own y false
    simp only [pact]
    rw [this]; rfl
  obtain ⟨a1, a2, a3⟩ := askAt_run (c := exC true) rfl [2] (exS true y) (exS_good true y)
  have hev : (pacts exPC (exP y) [.sim false (askAt 1 [2])]).ev = Events.resetCounters (run three (exC true).g (exS true y).h [mkCall (exC true).x false y 2]).ev := by
    rw [hone, e1]
    show (runSim (exC true) (askAt 1 [2]) (exS true y)).1.h.ev = _
    rw [a2]; rfl
  have hkept := run_kept (k := three) (g := (exC true).g) (kept_grid rfl (Events.noAngle (exEv3 (exG exPar true)).grid)) (h := (exS true y).h)
        [mkCall (exC true).x false y 2] ⟨(exS_good true y).ev.inv, rfl⟩
  have hsched : gsched (pacts exPC (exP y) [.sim false (askAt 1 [2])]).ev = [⟨1, (9 / 10, 60)⟩] := by
    rw [hev]
    refine hkept.2.trans ?_
    rw [exEv3_eq]; rfl
  refine ⟨exP_ready y, (exS_ratios y).1, ?_, ?_, hsched, ?_⟩
  · simp only [ptimes, List.append_nil]
    have t1 := (askAt_trace (exC true).g (exC true).J (exC true).x 1 [2] y (exC true).ts (exS true y).h (exS_good true y) y).1
    have := exP_own y false
    rw [this]
    show ((trace (exC true).g (exC true).J (exC true).x (askAt 1 [2] y (exC true).ts) (exS true y).h).map Call.t) = [2]
    rw [t1]; rfl
  · rw [hev]
    show (run three (exC true).g (exS true y).h [mkCall (exC true).x false y 2]).ev.gridEnable = true
    refine run_kept (k := three) (g := (exC true).g) (h := (exS true y).h) (P := fun ev => ev.gridEnable = true) ⟨?_, ?_, ?_⟩ [mkCall (exC true).x false y 2] ?_
    · intro ev t h
      refine Events.gridEvents_preserves (fun s => s.gridEnable = true) _ _ _ _ h ?_ ?_
      · intro T V a f; unfold Events.addGrid; split_ifs <;> exact h
      · intros; assumption
    · intro ev t h; unfold Events.solarEvents; split <;> exact h
    · intro ev t h; unfold Events.loadEvents; split <;> exact h
    · show (exEv3 (exG exPar true)).gridEnable = true; rw [exEv3_eq]; rfl
  · rw [hsched]
    refine ⟨by simp, ?_, ?_, ?_, ?_, ?_, trivial⟩
    · intro a ha b hb _ _ _ _; rw [List.mem_singleton.1 ha, List.mem_singleton.1 hb]
    · intro a ha; cases ha; norm_num
    · intro a ha b hb _ _ _ _; rw [List.mem_singleton.1 ha, List.mem_singleton.1 hb]
    · intro a ha; cases ha; norm_num
    · intro a ha b hb _ _ _ _; rw [List.mem_singleton.1 ha, List.mem_singleton.1 hb]

end Session
end PvDer
