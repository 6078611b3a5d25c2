import Verif.Props.SessionSeries

/-!
# Property C105: whole sessions without exceptions; C104, loop mode
-/

namespace PvDer
namespace Session
open Complex Phasor Ode Eval

variable {k : Cls} {g : SCfg} {h : Hid} {c : Cfg k} {sv : Solver k} {s : Sess k}

/-- Whatever it is told, the solver finishes without reporting a failure. -/
def Healthy : Strat k → Prop
  | .done _ m => ∀ x ∈ m, ¬ Failed x
  | .ask _ _ _ next => ∀ a, Healthy (next a)

theorem exec_good (J : Env → k.V → k.V → ℝ) (x : Ext) (S : Strat k) (hS : Healthy S) (y : k.V → ℝ) (hg : Good k g h) :
    ∃ h' y' rows mused, exec g J x S (h, y) = ((h', y'), .ok (rows, mused)) ∧ Good k g h' ∧ ∀ m ∈ mused, ¬ Failed m := by
  induction S generalizing h y with
  | done r m => exact ⟨h, y, r, m, rfl, hg, hS⟩
  | ask j y1 t next ih =>
    obtain ⟨⟨e, he⟩, hg'⟩ := good_step hg (mkCall x j y1 t)
    unfold exec
    dsimp only
    rcases hq : evalEnv k g (mkCall x j y1 t) h with ⟨h1, r⟩
    rw [hq] at he hg'
    simp only at he
    subst he
    exact ih _ (hS _) _ hg'

theorem queryAll_total {α : Type} {P : Events.St ℝ → Prop} {q : Events.St ℝ → ℝ → Events.St ℝ × Except Err α} (hq : ∀ ev t, P ev → P (q ev t).1 ∧ ∃ v, (q ev t).2 = .ok v)
    (ts : List ℝ) (ev : Events.St ℝ) (h0 : P ev) : ∃ ev' vs, queryAll q ev ts = (ev', .ok vs) ∧ P ev' := by
  induction ts generalizing ev with
  | nil => exact ⟨ev, [], rfl, h0⟩
  | cons t ts ih =>
    obtain ⟨h1, v, hv⟩ := hq ev t h0
    unfold queryAll
    rcases hx : q ev t with ⟨ev1, r⟩
    rw [hx] at h1 hv
    simp only at hv
    subst hv
    obtain ⟨ev2, vs, h2, h3⟩ := ih ev1 h1
    dsimp only
    rw [h2]
    exact ⟨ev2, v :: vs, rfl, h3⟩

theorem evGood_reset {sp : Events.EvSpec ℝ} {ev : Events.St ℝ} (cc : Events.Cfg ℝ) (h : EvGood sp ev) : EvGood sp (Events.resetCounters ev) :=
  ⟨Events.inv_step (c := cc) (sp := sp) h.inv .reset, Events.limits_step (c := cc) h.inv h.lim .reset, Events.tight_step (c := cc) (sp := sp) h.inv h.tight .reset rfl⟩

theorem collect_good (hg : Good k c.g s.h) (ts : List ℝ) (rows : List (k.V → ℝ)) :
    (collectSeries c ts rows s).2 = .ok () ∧ Good k c.g (collectSeries c ts rows s).1.h := by
  have hgq : ∀ ev t, EvGood c.g.sp ev → EvGood c.g.sp (Events.gridEvents c.g.evc c.g.sp ev t).1 ∧ ∃ v, (Events.gridEvents c.g.evc c.g.sp ev t).2 = .ok v := fun ev t he =>
    ⟨(evGood_query he t).1, Events.gridEvents_ok hg.override he.inv he.lim he.tight.grid t⟩
  have hlq : ∀ ev t, EvGood c.g.sp ev → EvGood c.g.sp (Events.loadEvents ev t).1 ∧ ∃ v, (Events.loadEvents ev t).2 = .ok v := fun ev t he =>
    ⟨(evGood_query (cc := c.g.evc) he t).2.2, load_total he t⟩
  have hsq : ∀ ev t, EvGood c.g.sp ev → EvGood c.g.sp (Events.solarEvents c.g.sp ev t).1 ∧ ∃ v, (Events.solarEvents c.g.sp ev t).2 = .ok v := fun ev t he =>
    ⟨(evGood_query (cc := c.g.evc) he t).2.1, solar_total he t⟩
  have hru : ∀ ev, EvGood c.g.sp ev → EvGood c.g.sp (resetUnless c.loop ev) := fun ev he => resetUnless_kept (P := EvGood c.g.sp) (fun _ => evGood_reset c.g.evc) _ _ he
  have sun : ∀ sv, (putSun c.g sv s.h).rt = s.h.rt ∧ (putSun c.g sv s.h).filt = s.h.filt := by
    intro sv; unfold putSun; split <;> exact ⟨rfl, rfl⟩
  have mk : ∀ h' : Hid, EvGood c.g.sp h'.ev → h'.rt = s.h.rt → h'.filt = s.h.filt → Good k c.g h' := fun h' a b d =>
    { override := hg.override, msg := hg.msg, ev := a, dc := by rw [b]; exact hg.dc, lf := by rw [b]; exact hg.lf, ramp := hg.ramp, meas := hg.meas, filt := by rw [d]; exact hg.filt }
  unfold collectSeries
  dsimp only
  split
  · obtain ⟨ev1, gv, q1, p1⟩ := queryAll_total hgq ts s.h.ev hg.ev
    rw [q1]; dsimp only
    obtain ⟨ev2, lv, q2, p2⟩ := queryAll_total hlq ts _ (hru _ p1)
    rw [q2]; dsimp only
    obtain ⟨ev3, svv, q3, p3⟩ := queryAll_total hsq ts _ (hru _ p2)
    rw [q3]; dsimp only
    exact ⟨rfl, mk _ (hru _ p3) (sun svv).1 (sun svv).2⟩
  · obtain ⟨ev3, svv, q3, p3⟩ := queryAll_total hsq ts _ hg.ev
    rw [q3]; dsimp only
    exact ⟨rfl, mk _ (hru _ p3) (sun svv).1 (sun svv).2⟩

/-- A run with a healthy solver returns normally, and leaves objects with which further runs return normally. -/
theorem runSim_good (hg : Good k c.g s.h) (hS : Healthy (sv s.y c.ts)) : (runSim c sv s).2 = .ok () ∧ Good k c.g (runSim c sv s).1.h := by
  obtain ⟨h', y', rows, mused, he, hg', hf⟩ := exec_good (g := c.g) c.J c.x (sv s.y c.ts) hS s.y hg
  have hany : ¬ (mused.any badStatus = true) := by
    intro hc
    obtain ⟨m, hm, hF⟩ := List.any_eq_true.1 hc
    exact hf m hm ((badStatus_iff m).1 hF)
  unfold runSim
  rw [he]
  dsimp only
  unfold check
  rw [if_neg hany]
  dsimp only
  have hg2 : Good k c.g (resets h') :=
    { hg' with ev := evGood_reset c.g.evc hg'.ev, dc := ⟨hg'.dc.1, hg'.dc.2, le_rfl, Or.inl rfl⟩ }
  unfold finish
  split
  · exact collect_good (s := { s with t := c.ts, rows := rows, h := resets h', y := y', conv := some true }) hg2 c.ts rows
  · exact ⟨rfl, hg2⟩

theorem edit_good (hg : Good k c.g s.h) (hz : s.h.ev = Events.resetCounters s.h.ev) (o : Events.Op ℝ) (ho : o.isQuery = false) :
    Good k c.g (act c s (.edit o)).1.h := by
  refine { hg with ev := ⟨Events.inv_step hg.ev.inv o, Events.limits_step hg.ev.inv hg.ev.lim o, ?_⟩ }
  have := Events.step_ctr c.g.evc c.g.sp s.h.ev o ho hz
  have z1 : (Events.step c.g.evc c.g.sp s.h.ev o).solarCtr = 0 := by rw [this]; rfl
  have z2 : (Events.step c.g.evc c.g.sp s.h.ev o).gridCtr = 0 := by rw [this]; rfl
  have z3 : (Events.step c.g.evc c.g.sp s.h.ev o).loadCtr = 0 := by rw [this]; rfl
  exact ⟨Or.inl z1, Or.inl z2, Or.inl z3⟩

/-- The condition under which no exception occurs is met between the simulations of a session. -/
structure Ready (c : Cfg k) (s : Sess k) : Prop where
  good : Good k c.g s.h
  between : Between c s

/-- C105: a session in which event editing calls (additions, removals, enabling) and simulations alternate in any order and number, with solvers that do not report
a failure, has no exception: every `run_simulation` call returns normally.  (Conditions `Good`: default settings for angle override, frequency ride-through and DC
voltage ramp; a class that can print the load message, or no load; a valid voltage measurement type.) -/
theorem C105_no_exception (hl : c.loop = false) (hr : Ready c s) (l : List (Act k)) (hq : ∀ o, Act.edit o ∈ l → o.isQuery = false)
    (hS : ∀ sv, Act.sim sv ∈ l → ∀ y, Healthy (sv y c.ts)) : AllReturn c s l ∧ Ready c (acts c s l) := by
  induction l generalizing s with
  | nil => exact ⟨trivial, hr⟩
  | cons a l ih =>
    have hret : (act c s a).2 = .ok () ∧ Good k c.g (act c s a).1.h := by
      cases a with
      | sim sv => exact runSim_good hr.good (hS sv List.mem_cons_self s.y)
      | edit o => exact ⟨rfl, edit_good hr.good hr.between.ctr o (hq o List.mem_cons_self)⟩
    have hb := act_between hl a (fun o ho => hq o (by rw [← ho]; exact List.mem_cons_self)) hret.1 hr.between
    obtain ⟨i1, i2⟩ := ih ⟨hret.2, hb⟩ (fun o ho => hq o (List.mem_cons_of_mem _ ho)) (fun sv hsv => hS sv (List.mem_cons_of_mem _ hsv))
    exact ⟨⟨hret.1, i1⟩, i2⟩

/-- Conditions met: the session of the examples, with removals between two runs. -/
theorem C105_example (sa : Bool) (y : three.V → ℝ) : Ready (exC sa) (exS sa y) ∧
    (∀ o, Act.edit o ∈ ([.sim (askAt 1 [1, 2]), .edit (.removeSolar (some 2) false), .edit (.addGrid 2 1 0 60), .sim (askAt 2 [0, 4])] : List (Act three)) → o.isQuery = false) ∧
    ∀ y' : three.V → ℝ, Healthy (askAt 2 [0, 4] y' (exC sa).ts) := by
  refine ⟨⟨exS_good sa y, exS_between sa y⟩, ?_, ?_⟩
  · intro o ho
    simp only [List.mem_cons, List.not_mem_nil, or_false, reduceCtorEq, false_or, Act.edit.injEq] at ho
    rcases ho with rfl | rfl <;> rfl
  · intro y' a a' m hm
    simp at hm; subst hm; simp [Failed]

theorem askAt_healthy (l : List ℝ) (y : k.V → ℝ) (ts : List ℝ) : Healthy (askAt (k := k) 1 l y ts) := by
  induction l with
  | nil => intro x hx; simp at hx; subst hx; simp [Failed]
  | cons t l ih => intro a; exact ih

/-- The conditions of C104 are met, in both modes: five reported times, three insolation events, one grid event. -/
theorem C104_example (sa : Bool) (y : three.V → ℝ) :
    let c : Cfg three := { exC sa with coll := true, ts := [0, 1, 2, 3, 4] }
    (runSim c (askAt 1 [0, 1, 2]) (exS sa y)).2 = .ok () ∧ Events.ReachableUnder c.g.evc c.g.sp (exS sa y).h.ev ∧ Dense (exS sa y).h.ev.solar none c.ts ∧
      Dense ((exS sa y).h.ev.grid.map fun e => (⟨e.T, (e.v.V, e.v.f)⟩ : Ev ℝ (ℝ × ℝ))) none c.ts ∧ Dense (exS sa y).h.ev.load none c.ts ∧
      (exS sa y).h.ev.solarEnable = true ∧ (exS sa y).h.ev.gridEnable = true ∧ (exS sa y).h.ev.loadEnable = true := by
  intro c
  have hev : (exS sa y).h.ev = { (Events.init true true true : Events.St ℝ) with
      solar := [⟨1, ⟨50, 300⟩⟩, ⟨2, ⟨60, 300⟩⟩, ⟨3, ⟨70, 300⟩⟩], grid := [⟨1, ⟨9 / 10, 0, 60⟩⟩], solarTotal := 3, gridTotal := 1, total := 4 } := exEv3_eq exPar sa
  refine ⟨(runSim_good (c := c) (s := exS sa y) (exS_good sa y) (askAt_healthy _ _ _)).1, ⟨true, true, true, exOps3, rfl⟩, ?_, ?_, ?_, ?_, ?_, ?_⟩
  · rw [hev]; simp only [c, Dense, AfterPrev, List.mem_cons, List.not_mem_nil, or_false]; norm_num; simp
  · rw [hev]; simp only [c, List.map_cons, List.map_nil, Dense, AfterPrev, List.mem_cons, List.not_mem_nil, or_false]; norm_num; simp
  · rw [hev]; simp only [c, Events.init, Dense, AfterPrev, List.not_mem_nil]; norm_num; simp
  all_goals rw [hev]; rfl

/-! ### Loop mode -/

/-- C104 is false in loop mode: the counters are not reset before the series are computed.  Witness: insolation events at 1, 2 and 3 s; a step from 1 s to 2 s, the
solver evaluates at 1 s and 2 s; the insolation reported for 1 s is that of the event at 2 s. -/
theorem C104_loop_mode_refuted (y : three.V → ℝ) :
    let c : Cfg three := { exC false with coll := true, loop := true }
    let r := runLoop c (askAt 1 [1, 2]) c.x y [1, 2] (exS false y)
    r.2 = .ok () ∧ (∃ p, r.1.rep = some p ∧ p.sinsol.head? = some 60) ∧ ∀ v, Correct (exS false y).h.ev.solar ⟨100, 29815 / 100⟩ 1 v → v.Sinsol = 50 := by
  intro c r
  have hg := exS_good false y
  have t1 := askAt_trace c.g c.J c.x 1 [1, 2] y [1, 2] (exS false y).h hg y
  rcases he : exec c.g c.J c.x (askAt 1 [1, 2] y [1, 2]) ((exS false y).h, y) with ⟨⟨h1, y1⟩, r1⟩
  have hr1 : r1 = .ok ([y, y], [1]) := by have := t1.2; rw [he] at this; exact this
  subst hr1
  have hh1 : h1 = run three c.g (exS false y).h ([1, 2].map (mkCall c.x false y)) := by
    have := (exec_trace (g := c.g) (h := (exS false y).h) c.J c.x (askAt 1 [1, 2] y [1, 2]) y).1
    rw [he, t1.1] at this; exact this
  have hsol : (exS false y).h.ev.solar = [⟨1, ⟨50, 300⟩⟩, ⟨2, ⟨60, 300⟩⟩, ⟨3, ⟨70, 300⟩⟩] := by
    show (exEv3 (exG exPar false)).solar = _; rw [exEv3_eq]
  have hctr : (exS false y).h.ev.solarCtr = 0 := by show (exEv3 (exG exPar false)).solarCtr = _; rw [exEv3_eq]; rfl
  have hen : (exS false y).h.ev.solarEnable = true := by show (exEv3 (exG exPar false)).solarEnable = true; rw [exEv3_eq]; rfl
  have hg1 : Good three c.g h1 := by rw [hh1]; exact good_run hg _
  have hcr : runLoop c (askAt 1 [1, 2]) c.x y [1, 2] (exS false y) =
      collectSeries c [1, 2] [y, y] { exS false y with t := [1, 2], rows := [y, y], h := h1, y := y1, conv := some true } := by
    unfold runLoop
    rw [show exec c.g c.J c.x (askAt 1 [1, 2] y [1, 2]) ((exS false y).h, (exS false y).y) = _ from he]
    dsimp only
    unfold check
    rw [if_neg (by decide)]
    dsimp only
    unfold finish
    rw [if_pos rfl]
  have hev : h1.ev.solar = [⟨1, ⟨50, 300⟩⟩, ⟨2, ⟨60, 300⟩⟩, ⟨3, ⟨70, 300⟩⟩] ∧ h1.ev.solarCtr = 2 ∧ h1.ev.solarEnable = true := by
    obtain ⟨⟨e1, x1⟩, g1⟩ := good_step hg (mkCall c.x false y 1)
    obtain ⟨v1, p1, p2, p3, p4, _⟩ := eval_solar (c := mkCall c.x false y 1) x1 hg.ev.inv hen
    obtain ⟨⟨e2, x2⟩, g2⟩ := good_step g1 (mkCall c.x false y 2)
    obtain ⟨v2, q1, q2, q3, q4, _⟩ := eval_solar (c := mkCall c.x false y 2) x2 p4 p3
    have hr : h1 = (evalEnv three (exG exPar false) (mkCall c.x false y 2) (evalEnv three (exG exPar false) (mkCall c.x false y 1) (exS false y).h).1).1 := hh1
    rw [hsol, hctr] at p1
    rw [hsol] at p2
    have b1 : ¬ ((1:ℝ) < 1) := by norm_num
    have b2 : ¬ ((2:ℝ) < 1) := by norm_num
    have b3 : ¬ ((2:ℝ) < 2) := by norm_num
    simp only [playback, pyGet, show (mkCall (k := three) c.x false y 1).t = 1 from rfl, b1] at p1
    norm_num at p1
    rw [p2, ← p1.1] at q1
    simp only [playback, pyGet, show (mkCall (k := three) c.x false y 2).t = 2 from rfl, b2] at q1
    norm_num at q1
    rw [hr]
    exact ⟨q2.trans p2, q1.1.symm, q3⟩
  refine ⟨?_, ?_, ?_⟩
  · show (runLoop c (askAt 1 [1, 2]) c.x y [1, 2] (exS false y)).2 = _
    rw [hcr]
    exact (collect_good (k := three) (c := c) (s := { exS false y with t := [1, 2], rows := [y, y], h := h1, y := y1, conv := some true }) hg1 [1, 2] [y, y]).1
  · show ∃ p, (runLoop c (askAt 1 [1, 2]) c.x y [1, 2] (exS false y)).1.rep = some p ∧ _
    rw [hcr]
    have hret := (collect_good (k := three) (c := c) (s := { exS false y with t := [1, 2], rows := [y, y], h := h1, y := y1, conv := some true }) hg1 [1, 2] [y, y]).1
    unfold collectSeries at hret ⊢
    rw [if_neg (by simp [c, exC, exG])] at hret ⊢
    dsimp only at hret ⊢
    rcases hx : queryAll (Events.solarEvents c.g.sp) h1.ev [1, 2] with ⟨ev, r1⟩
    rw [hx] at hret
    cases r1 with
    | error e => simp at hret
    | ok vs =>
      refine ⟨_, rfl, ?_⟩
      have hp := queryAll_ok (Events.solarPlay c.g.sp) (fun _ => rfl) (fun _ _ _ => rfl) hx
      unfold Events.solarPlay at hp
      rw [Events.solarEvents_enabled _ _ hg1.ev.inv hev.2.2, hev.1, hev.2.1] at hp
      cases vs with
      | nil => simp at hp
      | cons v vs =>
        simp only [List.map_cons, List.cons.injEq] at hp
        have hv := hp.1
        have b1 : ¬ ((1:ℝ) < 1) := by norm_num
        have b2 : ((1:ℝ) < 3) := by norm_num
        simp [playback, pyGet, b2] at hv
        show (List.map _ (v :: vs)).head? = _
        rw [← hv]; rfl
  · intro v hv
    rw [hsol] at hv
    rcases hv with ⟨e, ⟨he, hle, hmax⟩, rfl⟩ | ⟨hno, rfl⟩
    · simp only [List.mem_cons, List.not_mem_nil, or_false] at he
      rcases he with rfl | rfl | rfl
      · rfl
      · norm_num at hle
      · norm_num at hle
    · exact absurd (hno ⟨1, ⟨50, 300⟩⟩ (by simp)) (by norm_num)

end Session
end PvDer
