import Verif.Model.Fleet
import Verif.Props.SessionTotal

/-!
# Property C142: several simulations that share one events object
-/

namespace PvDer
namespace Session
open Complex Phasor Ode Eval

variable {ι : Type} [DecidableEq ι] {k : ι → Cls} {C : FCfg k} {F : Fleet k}

/-- The calls on the events object in a sequence of actions. -/
def fedits (l : List (FAct k)) : List (Events.Op ℝ) := l.filterMap fun a => match a with | .edit o => some o | _ => none

/-- The sequence contains no step in loop mode, and no query of the events object by the user. -/
def Plainly (l : List (FAct k)) : Prop := ∀ a ∈ l, match a with | .sim _ _ => True | .step _ _ _ _ _ => False | .edit o => o.isQuery = false

omit [DecidableEq ι] in
theorem Plainly.tail {a : FAct k} {l : List (FAct k)} (h : Plainly (a :: l)) : Plainly l := fun b hb => h b (List.mem_cons_of_mem _ hb)

theorem own_put_self (i : ι) (s : Sess (k i)) : (F.put i s).own i = s := by
  unfold Fleet.own Fleet.put
  simp only [Function.update_self]

theorem own_put_other {i j : ι} (h : j ≠ i) (s : Sess (k i)) :
    (F.put i s).own j = { F.own j with h := { (F.own j).h with ev := s.h.ev } } := by
  unfold Fleet.own Fleet.put
  simp only [Function.update_of_ne h]

/-! ### No exception -/

theorem good_swap {k : Cls} {g : SCfg} {h : Hid} (hg : Good k g h) {ev : Events.St ℝ} (he : EvGood g.sp ev) : Good k g { h with ev := ev } := { hg with ev := he }

/-- All simulations are ready to run. -/
def FReady (C : FCfg k) (F : Fleet k) : Prop := ∀ i, Ready (C.cfg i) (F.own i)

theorem fready_put {i : ι} (hr : FReady C F) (s : Sess (k i)) (hs : Ready (C.cfg i) s) : FReady C (F.put i s) := by
  intro j
  by_cases h : j = i
  · subst h; rw [own_put_self]; exact hs
  · rw [own_put_other h]
    exact ⟨good_swap (hr j).good hs.good.ev, hs.between.reach, hs.between.ctr, (hr j).between.sun⟩

theorem fact_ready (hl : ∀ i, (C.der i).loop = false) (hr : FReady C F) (a : FAct k)
    (ha : match a with | .sim i sv => ∀ y, Healthy (sv y (C.der i).ts) | .step _ _ _ _ _ => False | .edit o => o.isQuery = false) :
    (fact C F a).2 = .ok () ∧ FReady C (fact C F a).1 := by
  cases a with
  | sim i sv =>
    have h1 := runSim_good (c := C.cfg i) (sv := sv) (s := F.own i) (hr i).good (ha _)
    exact ⟨h1.1, fready_put hr _ ⟨h1.2, act_between (c := C.cfg i) (hl i) (.sim sv) (fun o ho => by simp at ho) h1.1 (hr i).between⟩⟩
  | step i sv x y0 ts => exact ha.elim
  | edit o =>
    refine ⟨rfl, fun i => ⟨?_, ?_⟩⟩
    · exact edit_good (c := C.cfg i) (s := F.own i) (hr i).good (hr i).between.ctr o ha
    · exact act_between (c := C.cfg i) (s := F.own i) (hl i) (.edit o) (fun o' ho => by cases ho; exact ha) rfl (hr i).between

/-- C142: any number of simulations, of any of the DER classes, that share one events object; in any order, simulations are run (with solvers that report no
failure) and events are added, removed or enabled.  No call raises an exception. -/
theorem C142_no_exception (hl : ∀ i, (C.der i).loop = false) (hr : FReady C F) (l : List (FAct k)) (hp : Plainly l)
    (hS : ∀ i sv, FAct.sim i sv ∈ l → ∀ y, Healthy (sv y (C.der i).ts)) : FAllReturn C F l ∧ FReady C (facts C F l) := by
  induction l generalizing F with
  | nil => exact ⟨trivial, hr⟩
  | cons a l ih =>
    have h1 := fact_ready hl hr a (by
      have := hp a List.mem_cons_self
      cases a with
      | sim i sv => exact hS i sv List.mem_cons_self
      | step i sv x y0 ts => exact this
      | edit o => exact this)
    obtain ⟨i1, i2⟩ := ih h1.2 hp.tail (fun i sv h => hS i sv (List.mem_cons_of_mem _ h))
    exact ⟨⟨h1.1, i1⟩, i2⟩

/-! ### Every run of every simulation follows the common schedule -/

/-- What holds of every simulation between the calls. -/
def FBetween (C : FCfg k) (F : Fleet k) : Prop := ∀ i, Between (C.cfg i) (F.own i)

theorem fact_between (hl : ∀ i, (C.der i).loop = false) (hb : FBetween C F) (a : FAct k)
    (ha : match a with | .sim _ _ => True | .step _ _ _ _ _ => False | .edit o => o.isQuery = false) (hret : (fact C F a).2 = .ok ()) : FBetween C (fact C F a).1 := by
  cases a with
  | sim i sv =>
    have h1 := act_between (c := C.cfg i) (s := F.own i) (hl i) (.sim sv) (fun o ho => by simp at ho) hret (hb i)
    intro j
    show Between (C.cfg j) ((F.put i (runSim (C.cfg i) sv (F.own i)).1).own j)
    by_cases h : j = i
    · subst h; rw [own_put_self]; exact h1
    · rw [own_put_other h]; exact ⟨h1.reach, h1.ctr, (hb j).sun⟩
  | step i sv x y0 ts => exact ha.elim
  | edit o => intro i; exact act_between (c := C.cfg i) (s := F.own i) (hl i) (.edit o) (fun o' ho => by cases ho; exact ha) rfl (hb i)

theorem facts_between (hl : ∀ i, (C.der i).loop = false) (hb : FBetween C F) (l : List (FAct k)) (hp : Plainly l) (hall : FAllReturn C F l) :
    FBetween C (facts C F l) := by
  induction l generalizing F with
  | nil => exact hb
  | cons a l ih => exact ih (fact_between hl hb a (hp a List.mem_cons_self) hall.1) hp.tail hall.2

/-- The insolation and load schedules are the result of the editing calls alone. -/
theorem facts_lists (hl : ∀ i, (C.der i).loop = false) (hb : FBetween C F) (l : List (FAct k)) (hp : Plainly l) (hall : FAllReturn C F l)
    (ev : Events.St ℝ) (he : Events.SameLists F.ev ev) :
    Events.SameLists (facts C F l).ev (Events.run C.evc ev ((fedits l).map fun o => (C.sp, o))) := by
  induction l generalizing F ev with
  | nil => exact he
  | cons a l ih =>
    have ha := hp a List.mem_cons_self
    have hb' := fact_between hl hb a ha hall.1
    cases a with
    | sim i sv =>
      have h1 := (runSim_facts (c := C.cfg i) (s := F.own i) (kept_lists ev) (fun _ hh => hh) (hl i) hall.1 he (hb i).sun).1
      exact ih hb' hp.tail hall.2 ev h1
    | step i sv x y0 ts => exact ha.elim
    | edit o => exact ih hb' hp.tail hall.2 _ (Events.sameLists_step _ _ he o ha)

/-- C142: after any such sequence, a run of any of the simulations plays the common insolation schedule — the one the editing calls produce — from its beginning,
however often and by whichever simulation it has been played before: every evaluation uses the weather scheduled for its time. -/
theorem C142_every_run_follows_schedule (i : ι) (hk : k i ∈ classes) (hl : ∀ i, (C.der i).loop = false) (hb : FBetween C F) (l : List (FAct k)) (hp : Plainly l)
    (hall : FAllReturn C F l) (sv : Solver (k i)) {r : List ((k i).V → ℝ) × List Int} {s : Sess (k i)} (hs : (facts C F l).own i = s)
    (hok : (exec (C.cfg i).g (C.cfg i).J (C.cfg i).x (sv s.y (C.cfg i).ts) (s.h, s.y)).2 = .ok r)
    (hen : (facts C F l).ev.solarEnable = true)
    (hd : Dense (Events.run C.evc F.ev ((fedits l).map fun o => (C.sp, o))).solar none
      ((trace (C.cfg i).g (C.cfg i).J (C.cfg i).x (sv s.y (C.cfg i).ts) s.h).map Call.t))
    (p : List (Call (k i))) (cl : Call (k i)) (q : List (Call (k i)))
    (htr : trace (C.cfg i).g (C.cfg i).J (C.cfg i).x (sv s.y (C.cfg i).ts) s.h = p ++ cl :: q) :
    ∃ v e, Correct (Events.run C.evc F.ev ((fedits l).map fun o => (C.sp, o))).solar ⟨C.sp.insolation.dflt, 29815 / 100⟩ cl.t v ∧
      (evalEnv (k i) (C.cfg i).g cl (run (k i) (C.cfg i).g s.h p)).2 = .ok e ∧
      ((run (k i) (C.cfg i).g s.h (p ++ [cl])).rt.connected = true →
        e.Ppv = PV.ppv (C.cfg i).g.p.mod v.Sinsol v.Tactual (min (C.cfg i).g.p.Vdcmpp_max (e.Vdc * (C.cfg i).g.p.Vdcbase))) ∧
      ((run (k i) (C.cfg i).g s.h (p ++ [cl])).rt.connected = false → e.Ppv = 0) := by
  have hb' := facts_between hl hb l hp hall i
  have hlst := facts_lists hl hb l hp hall F.ev ⟨rfl, rfl, rfl, rfl⟩
  rw [hs] at hb'
  have hev : s.h.ev = (facts C F l).ev := by rw [← hs]; rfl
  rw [← hev] at hlst hen
  have ht := (exec_trace (g := (C.cfg i).g) (h := s.h) (C.cfg i).J (C.cfg i).x (sv s.y (C.cfg i).ts) s.y).2 r hok
  rw [htr] at ht hd
  rw [← hlst.1] at hd ⊢
  obtain ⟨v, e, a1, a2, _, _, a3, a4⟩ := C93_pv_power_follows_schedule hk hb'.reach hen hb'.ctr hb'.sun p cl q ht hd
  exact ⟨v, e, a1, a2, a3, a4⟩

/-- C142: the same for the load schedule of the simulations in stand-alone mode. -/
theorem C142_every_run_follows_load (i : ι) (hk : k i ∈ classes) (hsa : (C.der i).g.standAlone = true) (hl : ∀ i, (C.der i).loop = false) (hb : FBetween C F)
    (l : List (FAct k)) (hp : Plainly l) (hall : FAllReturn C F l) (sv : Solver (k i)) {r : List ((k i).V → ℝ) × List Int} {s : Sess (k i)}
    (hs : (facts C F l).own i = s) (hok : (exec (C.cfg i).g (C.cfg i).J (C.cfg i).x (sv s.y (C.cfg i).ts) (s.h, s.y)).2 = .ok r)
    (hen : (facts C F l).ev.loadEnable = true)
    (hd : Dense (Events.run C.evc F.ev ((fedits l).map fun o => (C.sp, o))).load none
      (odeTimes (trace (C.cfg i).g (C.cfg i).J (C.cfg i).x (sv s.y (C.cfg i).ts) s.h)))
    (p : List (Call (k i))) (cl : Call (k i)) (q : List (Call (k i))) (hj : cl.jac = false)
    (htr : trace (C.cfg i).g (C.cfg i).J (C.cfg i).x (sv s.y (C.cfg i).ts) s.h = p ++ cl :: q) :
    ∃ v e, Correct (Events.run C.evc F.ev ((fedits l).map fun o => (C.sp, o))).load ⟨10000000, 0⟩ cl.t v ∧
      (evalEnv (k i) (C.cfg i).g cl (run (k i) (C.cfg i).g s.h p)).2 = .ok e ∧
      e.va = Circuit.vStandAlone (run (k i) (C.cfg i).g s.h (p ++ [cl])).grid.va ((k i).cur cl.y).1 (C.cfg i).g.a (C.cfg i).g.Z1 (C.cfg i).g.Z2
        ((⟨v.Zre, v.Zim⟩ : ℂ) / (C.cfg i).g.Zbase) := by
  have hb' := facts_between hl hb l hp hall i
  have hlst := facts_lists hl hb l hp hall F.ev ⟨rfl, rfl, rfl, rfl⟩
  rw [hs] at hb'
  have hev : s.h.ev = (facts C F l).ev := by rw [← hs]; rfl
  rw [← hev] at hlst hen
  have ht := (exec_trace (g := (C.cfg i).g) (h := s.h) (C.cfg i).J (C.cfg i).x (sv s.y (C.cfg i).ts) s.y).2 r hok
  rw [htr] at ht hd
  rw [← hlst.2.1] at hd ⊢
  obtain ⟨v, e, a1, a2, _, a3⟩ := C94_load_follows_schedule (g := (C.cfg i).g) hk hsa hb'.reach hen hb'.ctr p cl q ht hj hd
  exact ⟨v, e, a1, a2, a3⟩

/-! ### Simulations fed with external voltages do not influence each other -/

/-- A property of the events object that insolation queries keep. -/
theorem eval_kept_ext {k : Cls} {g : SCfg} {h : Hid} (hsa : g.standAlone = false) {P : Events.St ℝ → Prop} (hP : ∀ ev t, P ev → P (Events.solarEvents g.sp ev t).1)
    (c : Call k) (h0 : P h.ev) : P (evalEnv k g c h).1.ev := by
  have hg : gridStage g c.t h = (h, .ok ()) := by unfold gridStage; rw [if_neg (by simp [hsa])]
  unfold evalEnv
  refine andThen_kept (by rw [hg]; exact h0) fun _ h1 p1 => ?_
  refine andThen_kept (by rw [solar_ev]; exact hP _ _ p1) fun _ h2 p2 => ?_
  refine andThen_kept ?_ fun _ h3 p3 => ?_
  · unfold loadStage; rw [if_neg (by simp [hsa])]; exact p2
  refine andThen_kept (by rw [dc_ev]; exact p3) fun _ h4 p4 => ?_
  rw [rt_ev, freq_ev]; exact p4

theorem run_kept_ext {k : Cls} {g : SCfg} {h : Hid} (hsa : g.standAlone = false) {P : Events.St ℝ → Prop} (hP : ∀ ev t, P ev → P (Events.solarEvents g.sp ev t).1)
    (l : List (Call k)) (h0 : P h.ev) : P (run k g h l).ev := by
  induction l generalizing h with
  | nil => exact h0
  | cons c l ih => exact ih (eval_kept_ext hsa hP c h0)

theorem solar_reset (sp : Events.EvSpec ℝ) (e0 ev : Events.St ℝ) (t : ℝ) (h : Events.resetCounters ev = e0) :
    Events.resetCounters (Events.solarEvents sp ev t).1 = e0 := by
  rw [← h]; unfold Events.solarEvents; split <;> rfl

/-- A run that returns normally, with external voltages, leaves the events object as it was when the counters are at zero. -/
theorem runSim_ev {k : Cls} {c : Cfg k} {sv : Solver k} {s : Sess k} (hsa : c.g.standAlone = false) (hl : c.loop = false) (hz : s.h.ev = Events.resetCounters s.h.ev)
    (hret : (runSim c sv s).2 = .ok ()) : (runSim c sv s).1.h.ev = s.h.ev := by
  obtain ⟨h, y, rows, mused, he, _, hr⟩ := runSim_ok hret
  have ht := exec_trace (g := c.g) (h := s.h) c.J c.x (sv s.y c.ts) s.y
  rw [he] at ht
  have hh : h = run k c.g s.h (trace c.g c.J c.x (sv s.y c.ts) s.h) := ht.1
  have hp : Events.resetCounters h.ev = s.h.ev := by
    rw [hh]
    exact run_kept_ext (P := fun ev => Events.resetCounters ev = s.h.ev) hsa (fun ev t => solar_reset c.g.sp s.h.ev ev t) _ hz.symm
  rw [hr] at hret ⊢
  unfold finish at hret ⊢
  split at hret
  · rename_i hcoll
    rw [if_pos hcoll]
    unfold collectSeries at hret ⊢
    rw [if_neg (by simp [hsa])] at hret ⊢
    dsimp only at hret ⊢
    have hk := queryAll_kept (P := fun ev => Events.resetCounters ev = s.h.ev) (q := Events.solarEvents c.g.sp) (fun ev t => solar_reset c.g.sp s.h.ev ev t) c.ts (resets h).ev
      (by show Events.resetCounters (Events.resetCounters h.ev) = _; exact hp)
    rcases hx : queryAll (Events.solarEvents c.g.sp) (resets h).ev c.ts with ⟨ev, r⟩
    rw [hx] at hret hk
    cases r with
    | error e => simp at hret
    | ok vs =>
      show resetUnless c.loop ev = _
      rw [hl]; exact hk
  · rename_i hcoll
    rw [if_neg hcoll]
    exact hp

/-- What of the sequence concerns simulation `i`: its own runs and all calls on the events object. -/
def proj (i : ι) (l : List (FAct k)) : List (Act (k i)) :=
  l.filterMap fun a => match a with
    | .sim j sv => if h : j = i then some (.sim (h ▸ sv)) else none
    | .step _ _ _ _ _ => none
    | .edit o => some (.edit o)

/-- C142: with external voltages (no stand-alone grid source), simulations that share an events object do not influence each other: after any sequence of runs of all
of them and of calls on the events object, each simulation — its states, series, references, ride-through state and the events object as it sees it — is as if it had
been alone with the object, with the same calls on it and its own runs only. -/
theorem C142_isolated (hl : ∀ i, (C.der i).loop = false) (hsa : ∀ i, (C.der i).g.standAlone = false) (hb : FBetween C F) (l : List (FAct k)) (hp : Plainly l)
    (hall : FAllReturn C F l) (i : ι) : (facts C F l).own i = acts (C.cfg i) (F.own i) (proj i l) := by
  induction l generalizing F with
  | nil => rfl
  | cons a l ih =>
    have ha := hp a List.mem_cons_self
    have hb' := fact_between hl hb a ha hall.1
    refine (ih hb' hp.tail hall.2).trans ?_
    cases a with
    | sim j sv =>
      by_cases h : j = i
      · subst h
        have e1 : proj j (FAct.sim j sv :: l) = .sim sv :: proj j l := by simp [proj]
        rw [e1]
        show acts (C.cfg j) ((F.put j (runSim (C.cfg j) sv (F.own j)).1).own j) (proj j l) = acts (C.cfg j) (runSim (C.cfg j) sv (F.own j)).1 (proj j l)
        rw [own_put_self]
      · have e1 : proj i (FAct.sim j sv :: l) = proj i l := by simp [proj, h]
        rw [e1]
        show acts (C.cfg i) ((F.put j (runSim (C.cfg j) sv (F.own j)).1).own i) (proj i l) = _
        rw [own_put_other (Ne.symm h), runSim_ev (c := C.cfg j) (hsa j) (hl j) (hb j).ctr hall.1]
        rfl
    | step j sv x y0 ts => exact ha.elim
    | edit o => rfl

/-! ### Loop mode -/

/-- A step in loop mode with a solver that evaluates at given times and reports no failure, without collection. -/
theorem askAt_step {k : Cls} {c : Cfg k} (hcoll : c.coll = false) (x : Ext) (y0 : k.V → ℝ) (ts : List ℝ) (l : List ℝ) (s : Sess k) (hg : Good k c.g s.h) :
    (runLoop c (askAt 1 l) x y0 ts s).2 = .ok () ∧ (runLoop c (askAt 1 l) x y0 ts s).1.h = run k c.g s.h (l.map (mkCall x false y0)) := by
  obtain ⟨t1, t2⟩ := askAt_trace c.g c.J x 1 l y0 ts s.h hg s.y
  have hx := exec_trace (g := c.g) (h := s.h) c.J x (askAt 1 l y0 ts) s.y
  rcases he : exec c.g c.J x (askAt 1 l y0 ts) (s.h, s.y) with ⟨⟨h1, y1⟩, r1⟩
  rw [he] at t2 hx
  simp only at t2
  subst t2
  have hh : h1 = run k c.g s.h (l.map (mkCall x false y0)) := by rw [← t1]; exact hx.1
  unfold runLoop
  rw [he]
  dsimp only
  unfold check
  rw [if_neg (by decide)]
  dsimp only
  unfold finish
  rw [if_neg (by simp [hcoll])]
  exact ⟨rfl, hh⟩

/-- Two three-phase DERs with external voltages, in loop mode, and one events object with insolation events at 1, 2 and 3 s. -/
noncomputable def exFC (loop : Bool) : FCfg (fun _ : Bool => three) := ⟨(exC false).g.evc, (exC false).g.sp, fun _ => { exC false with loop := loop }⟩
noncomputable def exF (y : three.V → ℝ) : Fleet (fun _ : Bool => three) := ⟨(exS false y).h.ev, fun _ => exS false y⟩

theorem exF_ready (b : Bool) (y : three.V → ℝ) : FReady (exFC b) (exF y) := fun _ => ⟨exS_good false y, ⟨(exS_between false y).reach, (exS_between false y).ctr, (exS_between false y).sun⟩⟩

/-- C142 is false in loop mode (the mode of co-simulation), where the counters are not reset after a step.  Witness: both DERs are advanced over the same interval from
1 s to 2 s; the solver of the first evaluates at 1 s and 2 s, that of the second at 1 s and 1.5 s.  The second DER computes with 60 % insolation at 1.5 s — the event at
2 s — although 50 % is scheduled, and although it would compute with 50 % if it had an events object of its own. -/
theorem C142_loop_mode_refuted (y : three.V → ℝ) (x : Ext) :
    let F1 := (fact (exFC true) (exF y) (.step false (askAt 1 [1, 2]) x y [1, 2]))
    let F2 := (fact (exFC true) F1.1 (.step true (askAt 1 [1, 3 / 2]) x y [1, 2]))
    let alone := (fact (exFC true) (exF y) (.step true (askAt 1 [1, 3 / 2]) x y [1, 2]))
    F1.2 = .ok () ∧ F2.2 = .ok () ∧ alone.2 = .ok () ∧ (F2.1.own true).h.Sinsol = 60 ∧ (alone.1.own true).h.Sinsol = 50 ∧
      ∀ v, Correct (exF y).ev.solar ⟨100, 29815 / 100⟩ (3 / 2) v → v.Sinsol = 50 := by
  intro F1 F2 alone
  have hg := exS_good false y
  have hsol : (exS false y).h.ev.solar = [⟨1, ⟨50, 300⟩⟩, ⟨2, ⟨60, 300⟩⟩, ⟨3, ⟨70, 300⟩⟩] := by
    show (exEv3 (exG exPar false)).solar = _; rw [exEv3_eq]
  have hctr : (exS false y).h.ev.solarCtr = 0 := by show (exEv3 (exG exPar false)).solarCtr = _; rw [exEv3_eq]; rfl
  have hen : (exS false y).h.ev.solarEnable = true := by show (exEv3 (exG exPar false)).solarEnable = true; rw [exEv3_eq]; rfl
  have b1 : ¬ ((1:ℝ) < 1) := by norm_num
  have b2 : ¬ ((2:ℝ) < 1) := by norm_num
  have b3 : ¬ ((2:ℝ) < 2) := by norm_num
  have b4 : ¬ ((3/2:ℝ) < 1) := by norm_num
  have b5 : ((3/2:ℝ) < 3) := by norm_num
  have b6 : ((3/2:ℝ) < 2) := by norm_num
  have b7 : ((1:ℝ) < 3) := by norm_num
  have ownF : ∀ i, (exF y).own i = exS false y := fun i => by unfold Fleet.own exF; cases i <;> rfl
  obtain ⟨r1, r2⟩ := askAt_step (c := (exFC true).cfg false) rfl x y [1, 2] [1, 2] (exS false y) hg
  obtain ⟨q1, q2⟩ := askAt_step (c := (exFC true).cfg true) rfl x y [1, 2] [1, 3 / 2] (exS false y) hg
  have g1 : Good three (exC false).g (run three (exC false).g (exS false y).h ([1, 2].map (mkCall x false y))) := good_run hg _
  have hev : (run three (exC false).g (exS false y).h ([1, 2].map (mkCall x false y))).ev.solar = [⟨1, ⟨50, 300⟩⟩, ⟨2, ⟨60, 300⟩⟩, ⟨3, ⟨70, 300⟩⟩] ∧
      (run three (exC false).g (exS false y).h ([1, 2].map (mkCall x false y))).ev.solarCtr = 2 ∧
      (run three (exC false).g (exS false y).h ([1, 2].map (mkCall x false y))).ev.solarEnable = true := by
    obtain ⟨⟨e1, x1⟩, w1⟩ := good_step hg (mkCall x false y 1)
    obtain ⟨v1, p1, p2, p3, p4, _⟩ := eval_solar (c := mkCall x false y 1) x1 hg.ev.inv hen
    obtain ⟨⟨e2, x2⟩, w2⟩ := good_step w1 (mkCall x false y 2)
    obtain ⟨v2, s1, s2, s3, s4, _⟩ := eval_solar (c := mkCall x false y 2) x2 p4 p3
    have hr : run three (exC false).g (exS false y).h ([1, 2].map (mkCall x false y)) =
      (evalEnv three (exG exPar false) (mkCall x false y 2) (evalEnv three (exG exPar false) (mkCall x false y 1) (exS false y).h).1).1 := rfl
    rw [hsol, hctr] at p1
    rw [hsol] at p2
    simp only [playback, pyGet, show (mkCall (k := three) x false y 1).t = 1 from rfl, b1] at p1
    norm_num at p1
    rw [p2, ← p1.1] at s1
    simp only [playback, pyGet, show (mkCall (k := three) x false y 2).t = 2 from rfl, b2] at s1
    norm_num at s1
    rw [hr]
    exact ⟨s2.trans p2, s1.1.symm, s3⟩
  generalize hh1 : run three (exC false).g (exS false y).h ([1, 2].map (mkCall x false y)) = h1 at hev g1
  have r2' : (runLoop ((exFC true).cfg false) (askAt 1 [1, 2]) x y [1, 2] (exS false y)).1.h = h1 := r2.trans hh1
  have own1 : F1.1.own true = { exS false y with h := { (exS false y).h with ev := h1.ev } } := by
    show ((exF y).put false (runLoop ((exFC true).cfg false) (askAt 1 [1, 2]) x y [1, 2] ((exF y).own false)).1).own true = _
    rw [own_put_other (by decide), ownF, ownF, r2']
  have g2 : Good three (exC false).g { (exS false y).h with ev := h1.ev } := good_swap hg g1.ev
  obtain ⟨u1, u2⟩ := askAt_step (c := (exFC true).cfg true) rfl x y [1, 2] [1, 3 / 2] { exS false y with h := { (exS false y).h with ev := h1.ev } } g2
  refine ⟨?_, ?_, ?_, ?_, ?_, ?_⟩
  · show (runLoop ((exFC true).cfg false) (askAt 1 [1, 2]) x y [1, 2] ((exF y).own false)).2 = _
    rw [ownF]; exact r1
  · show (runLoop ((exFC true).cfg true) (askAt 1 [1, 3 / 2]) x y [1, 2] (F1.1.own true)).2 = _
    rw [own1]; exact u1
  · show (runLoop ((exFC true).cfg true) (askAt 1 [1, 3 / 2]) x y [1, 2] ((exF y).own true)).2 = _
    rw [ownF]; exact q1
  · show ((F1.1.put true (runLoop ((exFC true).cfg true) (askAt 1 [1, 3 / 2]) x y [1, 2] (F1.1.own true)).1).own true).h.Sinsol = _
    rw [own_put_self, own1, u2]
    obtain ⟨v, e, a1, a2, _⟩ := run_solar (k := three) (g := (exC false).g) (h := { (exS false y).h with ev := h1.ev }) g2.ev.inv hev.2.2
      ([1].map (mkCall x false y)) (mkCall x false y (3 / 2)) [] (C99_no_exception g2 _) (fun _ => rfl)
    have a3 : (run three (exC false).g { (exS false y).h with ev := h1.ev } ([1, 3 / 2].map (mkCall x false y))).Sinsol = v.Sinsol := a2
    refine a3.trans ?_
    rw [show ({ (exS false y).h with ev := h1.ev } : Hid).ev.solar = h1.ev.solar from rfl, show ({ (exS false y).h with ev := h1.ev } : Hid).ev.solarCtr = h1.ev.solarCtr from rfl,
      hev.1, hev.2.1] at a1
    simp [playSeq, playback, pyGet, mkCall, b4, b5, b7] at a1
    rw [← a1]
  · show (((exF y).put true (runLoop ((exFC true).cfg true) (askAt 1 [1, 3 / 2]) x y [1, 2] ((exF y).own true)).1).own true).h.Sinsol = _
    rw [own_put_self, ownF, q2]
    obtain ⟨v, e, a1, a2, _⟩ := run_solar (k := three) (g := (exC false).g) (h := (exS false y).h) hg.ev.inv hen
      ([1].map (mkCall x false y)) (mkCall x false y (3 / 2)) [] (C99_no_exception hg _) (fun _ => rfl)
    have a3 : (run three (exC false).g (exS false y).h ([1, 3 / 2].map (mkCall x false y))).Sinsol = v.Sinsol := a2
    refine a3.trans ?_
    rw [hsol, hctr] at a1
    simp [playSeq, playback, pyGet, mkCall, b4, b6] at a1
    rw [← a1]
  · intro v hv
    rw [show (exF y).ev.solar = _ from hsol] at hv
    rcases hv with ⟨e, ⟨he, hle, hmax⟩, rfl⟩ | ⟨hno, _⟩
    · simp only [List.mem_cons, List.not_mem_nil, or_false] at he
      rcases he with rfl | rfl | rfl
      · rfl
      · norm_num at hle
      · norm_num at hle
    · exact absurd (hno ⟨1, ⟨50, 300⟩⟩ (by simp)) (by norm_num)

/-- Conditions met: two DERs, an insolation event removed between their runs. -/
theorem C142_example (y : three.V → ℝ) :
    let l : List (FAct fun _ : Bool => three) := [.sim false (askAt 1 [1, 2]), .edit (.removeSolar (some 2) false), .sim true (askAt 1 [1, 3]), .sim false (askAt 1 [0, 4])]
    FReady (exFC false) (exF y) ∧ FBetween (exFC false) (exF y) ∧ Plainly l ∧ (∀ i sv, FAct.sim i sv ∈ l → ∀ y, Healthy (sv y ((exFC false).der i).ts)) ∧
      FAllReturn (exFC false) (exF y) l ∧ (∀ i, ((exFC false).der i).loop = false ∧ ((exFC false).der i).g.standAlone = false) ∧
      proj true l = [.edit (.removeSolar (some 2) false), .sim (askAt 1 [1, 3])] := by
  intro l
  have hS : ∀ i sv, FAct.sim i sv ∈ l → ∀ y, Healthy (sv y ((exFC false).der i).ts) := by
    intro i sv h y
    simp only [l, List.mem_cons, List.not_mem_nil, or_false, reduceCtorEq, false_or, FAct.sim.injEq] at h
    rcases h with ⟨rfl, h⟩ | ⟨rfl, h⟩ | ⟨rfl, h⟩ <;> cases h <;> exact askAt_healthy _ _ _
  have hp : Plainly l := by
    intro a ha
    simp only [l, List.mem_cons, List.not_mem_nil, or_false] at ha
    rcases ha with rfl | rfl | rfl | rfl <;> trivial
  have hr := exF_ready false y
  exact ⟨hr, fun i => (hr i).between, hp, hS, (C142_no_exception (fun _ => rfl) hr l hp hS).1, fun _ => ⟨rfl, rfl⟩, by simp [l, proj]⟩

end Session
end PvDer
