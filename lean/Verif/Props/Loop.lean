import Verif.Model.Loop
import Verif.Props.SessionTotal
import Verif.Props.StepBack
import Verif.Props.EndToEnd
import Verif.Props.SecondRun

/-!
# Property C143: a co-simulation in loop mode is one history
-/

namespace PvDer
namespace Session
open Complex Phasor Ode Eval Config

variable {mt : Sim.Mt} {c : Cfg (clsOf mt)} {w : Co (clsOf mt)}

/-! ### One call -/

/-- A loop-mode call that returns normally, unfolded. -/
theorem runLoop_ok {k : Cls} {c : Cfg k} {sv : Solver k} {x : Ext} {y0 : k.V → ℝ} {ts : List ℝ} {s : Sess k} (hret : (runLoop c sv x y0 ts s).2 = .ok ()) :
    ∃ y rows mused, exec c.g c.J x (sv y0 ts) (s.h, s.y) = ((run k c.g s.h (trace c.g c.J x (sv y0 ts) s.h), y), .ok (rows, mused)) ∧
      Ok k c.g s.h (trace c.g c.J x (sv y0 ts) s.h) ∧
      runLoop c sv x y0 ts s = finish { c with x := x } ts rows
        { s with t := if ts.head? = some 0 then ts else s.t, h := run k c.g s.h (trace c.g c.J x (sv y0 ts) s.h), y := y, conv := some true } := by
  have ht := exec_trace (g := c.g) (h := s.h) c.J x (sv y0 ts) s.y
  unfold runLoop at hret ⊢
  rcases he : exec c.g c.J x (sv y0 ts) (s.h, s.y) with ⟨⟨h, y⟩, r⟩
  rw [he] at hret ht
  cases r with
  | error e => simp at hret
  | ok r =>
    obtain ⟨rows, mused⟩ := r
    have hh : h = run k c.g s.h (trace c.g c.J x (sv y0 ts) s.h) := ht.1
    have hok := ht.2 _ rfl
    dsimp only at hret ⊢
    have hany : mused.any badStatus = false := by
      by_contra hc
      unfold check at hret
      rw [if_pos (by simpa using hc)] at hret
      split_ifs at hret
    refine ⟨y, rows, mused, by rw [hh], hok, ?_⟩
    unfold check
    rw [hany, ← hh]
    simp only [Bool.false_eq_true, if_false]

/-- The protection attributes after a call are those after its evaluations. -/
theorem runLoop_rt {k : Cls} {c : Cfg k} {sv : Solver k} {x : Ext} {y0 : k.V → ℝ} {ts : List ℝ} {s : Sess k} (hret : (runLoop c sv x y0 ts s).2 = .ok ()) :
    (runLoop c sv x y0 ts s).1.h.rt = (run k c.g s.h (trace c.g c.J x (sv y0 ts) s.h)).rt := by
  obtain ⟨y, rows, mused, _, _, hr⟩ := runLoop_ok hret
  rw [hr]
  exact (finish_rt (c := { c with x := x }) ts rows _).1

/-- A call with a healthy solver returns normally, and leaves objects with which further calls return normally. -/
theorem runLoop_good {k : Cls} {c : Cfg k} {sv : Solver k} {x : Ext} {y0 : k.V → ℝ} {ts : List ℝ} {s : Sess k} (hg : Good k c.g s.h) (hS : Healthy (sv y0 ts)) :
    (runLoop c sv x y0 ts s).2 = .ok () ∧ Good k c.g (runLoop c sv x y0 ts s).1.h := by
  obtain ⟨h', y', rows, mused, he, hg', hf⟩ := exec_good (g := c.g) c.J x (sv y0 ts) hS s.y hg
  have hany : ¬ (mused.any badStatus = true) := by
    intro hc
    obtain ⟨m, hm, hF⟩ := List.any_eq_true.1 hc
    exact hf m hm ((badStatus_iff m).1 hF)
  unfold runLoop
  rw [he]
  dsimp only
  unfold check
  rw [if_neg hany]
  dsimp only
  unfold finish
  split
  · exact collect_good (c := { c with x := x }) (s := { s with t := ts, rows := rows, h := h', y := y', conv := some true }) hg' ts rows
  · exact ⟨rfl, hg'⟩

/-! ### The whole co-simulation -/

/-- C143: a co-simulation of any number of calls, with arbitrary voltages, initial states and intervals and with solvers that report no failure, raises no
exception. -/
theorem C143_no_exception (hg : Good (clsOf mt) c.g w.s.h) (l : List (LStep (clsOf mt))) (hS : ∀ a ∈ l, Healthy (a.sv a.y0 a.ts)) :
    CoReturn mt c w l ∧ Good (clsOf mt) c.g (coRun mt c w l).s.h := by
  induction l generalizing w with
  | nil => exact ⟨trivial, hg⟩
  | cons a l ih =>
    have h1 := runLoop_good (c := c) (sv := a.sv) (x := w.x.measure mt a.va a.vb a.vc) (y0 := a.y0) (ts := a.ts) hg (hS a List.mem_cons_self)
    obtain ⟨i1, i2⟩ := ih (w := (coStep mt c w a).1) h1.2 (fun b hb => hS b (List.mem_cons_of_mem _ hb))
    exact ⟨⟨h1.1, i1⟩, i2⟩

/-- C143: without collection of series, all that the DER remembers after a co-simulation is what it remembers after the evaluations of all calls, one after the
other, and none of these failed. -/
theorem C143_one_history (hcoll : c.coll = false) (l : List (LStep (clsOf mt))) (hret : CoReturn mt c w l) :
    (coRun mt c w l).s.h = run (clsOf mt) c.g w.s.h (coCalls mt c w l) ∧ Ok (clsOf mt) c.g w.s.h (coCalls mt c w l) := by
  induction l generalizing w with
  | nil => exact ⟨rfl, trivial⟩
  | cons a l ih =>
    obtain ⟨y, rows, mused, _, hok, hr⟩ := runLoop_ok hret.1
    have hh : (coStep mt c w a).1.s.h = run (clsOf mt) c.g w.s.h (stepCalls mt c w a) := by
      show (runLoop c a.sv (w.x.measure mt a.va a.vb a.vc) a.y0 a.ts w.s).1.h = _
      rw [hr]; unfold finish; rw [if_neg (by simp [hcoll])]; rfl
    obtain ⟨i1, i2⟩ := ih hret.2
    rw [hh] at i1 i2
    refine ⟨?_, ?_⟩
    · show _ = run (clsOf mt) c.g w.s.h (stepCalls mt c w a ++ coCalls mt c (coStep mt c w a).1 l)
      rw [run_append]; exact i1
    · exact (ok_append _ _ _).2 ⟨hok, i2⟩

/-- The protection part of a co-simulation, with or without collection of series. -/
theorem coRun_rt {f : Call (clsOf mt) → ℝ} (hf : Sees (clsOf mt) c.g f) (l : List (LStep (clsOf mt))) (hret : CoReturn mt c w l) :
    ∃ ins : List (RT.Inp ℝ), RT.samples ins = (coCalls mt c w l).map (fun cl => (cl.t, f cl)) ∧
      RT.strip (coRun mt c w l).s.h.rt = RT.run c.g.rt.unit (RT.strip w.s.h.rt) ins := by
  induction l generalizing w with
  | nil => exact ⟨[], rfl, rfl⟩
  | cons a l ih =>
    obtain ⟨y, rows, mused, _, hok, hr⟩ := runLoop_ok hret.1
    have hrt : (coStep mt c w a).1.s.h.rt = (run (clsOf mt) c.g w.s.h (stepCalls mt c w a)).rt := runLoop_rt hret.1
    obtain ⟨i1, a1, a2⟩ := run_rt hf (stepCalls mt c w a) w.s.h hok
    obtain ⟨i2, b1, b2⟩ := ih hret.2
    refine ⟨i1 ++ i2, ?_, ?_⟩
    · show RT.samples (i1 ++ i2) = (stepCalls mt c w a ++ coCalls mt c (coStep mt c w a).1 l).map _
      rw [List.map_append, ← a1, ← b1]; simp [RT.samples]
    · show RT.strip (coRun mt c (coStep mt c w a).1 l).s.h.rt = _
      rw [b2, hrt, a2]; simp [RT.run]

/-- C143: the voltage timers run through the co-simulation as if it were one simulation: the low-voltage trip flag is set after it iff for some zone two of the
evaluations after `t_stable` that advance time — of the same or of different calls — show a voltage below the zone threshold, are more than the zone's time threshold
apart, and no evaluation in between shows one above it. -/
theorem C143_lv_trip_iff {f : Call (clsOf mt) → ℝ} (hf : Sees (clsOf mt) c.g f) (hi : RT.IsInit w.s.h.rt) (hen : w.s.h.rt.lvEnable = true)
    (l : List (LStep (clsOf mt))) (hret : CoReturn mt c w l) :
    (coRun mt c w l).s.h.rt.lv.trip = true ↔
      ∃ z ∈ w.s.h.rt.lv.zones, RT.Exceeds (z.Vthr * c.g.Vref) z.tThr (RT.after c.g.tStable (RT.records 0 ((coCalls mt c w l).map fun cl => (cl.t, f cl)))) := by
  obtain ⟨ins, h1, h2⟩ := coRun_rt hf l hret
  have h3 : (coRun mt c w l).s.h.rt.lv.trip = (RT.run c.g.rt.unit (RT.strip w.s.h.rt) ins).lv.trip := by rw [← h2]; rfl
  rw [h3, RT.C16_lv_trip_iff (isInit_strip hi) hen ins, h1]
  rfl

/-- C143: mirror image for high voltage. -/
theorem C143_hv_trip_iff {f : Call (clsOf mt) → ℝ} (hf : Sees (clsOf mt) c.g f) (hi : RT.IsInit w.s.h.rt) (hen : w.s.h.rt.hvEnable = true)
    (l : List (LStep (clsOf mt))) (hret : CoReturn mt c w l) :
    (coRun mt c w l).s.h.rt.hv.trip = true ↔
      ∃ z ∈ w.s.h.rt.hv.zones, RT.ExceedsHigh (z.Vthr * c.g.Vref) z.tThr (RT.after c.g.tStable (RT.records 0 ((coCalls mt c w l).map fun cl => (cl.t, f cl)))) := by
  obtain ⟨ins, h1, h2⟩ := coRun_rt hf l hret
  have h3 : (coRun mt c w l).s.h.rt.hv.trip = (RT.run c.g.rt.unit (RT.strip w.s.h.rt) ins).hv.trip := by rw [← h2]; rfl
  rw [h3, RT.C17_hv_trip_iff (isInit_strip hi) hen ins, h1]
  rfl

/-- C143: a DER that is never shown a voltage outside its zones stays connected through the whole co-simulation. -/
theorem C143_healthy_stays_connected {f : Call (clsOf mt) → ℝ} (hf : Sees (clsOf mt) c.g f) (hi : RT.IsInit w.s.h.rt) (hlf : w.s.h.rt.lfEnable = false)
    (l : List (LStep (clsOf mt))) (hret : CoReturn mt c w l)
    (hV : ∀ cl ∈ coCalls mt c w l, (∀ z ∈ w.s.h.rt.lv.zones, z.Vthr * c.g.Vref ≤ f cl) ∧ (∀ z ∈ w.s.h.rt.hv.zones, f cl ≤ z.Vthr * c.g.Vref)) :
    (coRun mt c w l).s.h.rt.connected = true ∧ (coRun mt c w l).s.h.rt.trip = false ∧ (coRun mt c w l).s.h.rt.mc = false := by
  obtain ⟨ins, h1, h2⟩ := coRun_rt hf l hret
  have := RT.C19_healthy_never_trips (c := c.g.rt.unit) (isInit_strip hi) hlf ins (by
    intro i hii
    have hm : (i.t, i.V) ∈ RT.samples ins := List.mem_map_of_mem (f := fun i : RT.Inp ℝ => (i.t, i.V)) hii
    rw [h1] at hm
    obtain ⟨c, hc, he⟩ := List.mem_map.1 hm
    simp only [Prod.mk.injEq] at he
    rw [← he.2]
    exact hV c hc)
  rw [← h2] at this
  exact ⟨this.1, this.2.1, this.2.2.1⟩

/-! ### What the evaluations of a call see -/

/-- The calls of a trace carry the voltages and the frequency given. -/
theorem trace_ext {k : Cls} {g : SCfg} (J : Env → k.V → k.V → ℝ) (x : Ext) (S : Strat k) (h : Hid) :
    ∀ cl ∈ trace g J x S h, cl.va = x.va ∧ cl.vb = x.vb ∧ cl.vc = x.vc ∧ cl.w = x.w := by
  induction S generalizing h with
  | done r m => intro cl hcl; simp [trace] at hcl
  | ask j y t next ih =>
    intro cl hcl
    unfold trace at hcl
    rcases List.mem_cons.1 hcl with rfl | hcl
    · exact ⟨rfl, rfl, rfl, rfl⟩
    · rcases hq : evalEnv k g (mkCall x j y t) h with ⟨h', r⟩
      rw [hq] at hcl
      cases r with
      | error e => simp at hcl
      | ok e => exact ih _ _ cl hcl

theorem measure_w (a b d : ℂ) (x : Ext) : (x.measure mt a b d).w = x.w := by cases mt <;> rfl

theorem coRun_w (l : List (LStep (clsOf mt))) : (coRun mt c w l).x.w = w.x.w := by
  induction l generalizing w with
  | nil => rfl
  | cons a l ih => exact (ih (w := (coStep mt c w a).1)).trans (measure_w _ _ _ _)

/-- C143: in every call every evaluation uses the phase-a voltage given with this call (and the voltages of the other phases if the class has them; the balanced class
computes them by rotation), whatever was given before; but the grid frequency it uses is the one the DER was constructed with: no call changes it, although the method
is documented to update the frequency too. -/
theorem C143_inputs (l : List (LStep (clsOf mt))) (a : LStep (clsOf mt)) : ∀ cl ∈ stepCalls mt c (coRun mt c w l) a,
    cl.va = a.va ∧ cl.w = w.x.w ∧ (mt = .three ∨ mt = .noFilter ∨ mt = .numba ∨ mt = .constVdc3 → cl.vb = a.vb ∧ cl.vc = a.vc) ∧
      (mt = .balanced → cl.vb = ub a.va ∧ cl.vc = uc a.va) := by
  intro cl hcl
  obtain ⟨h1, h2, h3, h4⟩ := trace_ext _ _ _ _ cl hcl
  rw [h1, h2, h3, h4, measure_w, coRun_w]
  refine ⟨by cases mt <;> rfl, rfl, ?_, ?_⟩
  · rintro (rfl | rfl | rfl | rfl) <;> exact ⟨rfl, rfl⟩
  · rintro rfl; exact ⟨rfl, rfl⟩

/-! ### The insolation schedule -/

/-- Times at which the insolation schedule is read by one call: the evaluations and, with collection, the reported times. -/
noncomputable def stepAsks (mt : Sim.Mt) (c : Cfg (clsOf mt)) (w : Co (clsOf mt)) (a : LStep (clsOf mt)) : List ℝ :=
  (stepCalls mt c w a).map Call.t ++ (if c.coll then a.ts else [])

/-- The same for the whole co-simulation. -/
noncomputable def coAsks (mt : Sim.Mt) (c : Cfg (clsOf mt)) (w : Co (clsOf mt)) : List (LStep (clsOf mt)) → List ℝ
  | [] => []
  | a :: l => stepAsks mt c w a ++ coAsks mt c (coStep mt c w a).1 l

/-- The events object after queries of which `prev` was the latest. -/
structure Pos (S : List (Ev ℝ (Events.SolarVal ℝ))) (prev : Option ℝ) (ev : Events.St ℝ) : Prop where
  lst : ev.solar = S
  en : ev.solarEnable = true
  inv : Events.Inv ev
  ctr : S ≠ [] → ev.solarCtr = min ((S.length : Int) - 1) (posOf S prev : Int)

/-- The latest time of a sequence of queries. -/
noncomputable def latestOf (prev : Option ℝ) (l : List ℝ) : Option ℝ := l.foldl (fun p t => some (latest p t)) prev

theorem latestOf_append (prev : Option ℝ) (a b : List ℝ) : latestOf prev (a ++ b) = latestOf (latestOf prev a) b := by simp [latestOf]

theorem steps_append {S : List (Ev ℝ (Events.SolarVal ℝ))} (a b : List ℝ) (prev : Option ℝ) : Steps S prev (a ++ b) ↔ Steps S prev a ∧ Steps S (latestOf prev a) b := by
  induction a generalizing prev with
  | nil => simp [Steps, latestOf]
  | cons t a ih =>
    simp only [List.cons_append, Steps, ih, and_assoc]
    rfl

theorem asked_latestOf (prev : Option ℝ) (l : List ℝ) (τ : ℝ) : asked (latestOf prev l) τ ↔ asked prev τ ∨ ∃ u ∈ l, τ ≤ u := by
  induction l generalizing prev with
  | nil => simp [latestOf]
  | cons t l ih =>
    show asked (latestOf (some (latest prev t)) l) τ ↔ _
    rw [ih, asked_latest]
    simp only [List.mem_cons, exists_eq_or_imp]
    tauto

/-- One query of the schedule. -/
theorem pos_play {S : List (Ev ℝ (Events.SolarVal ℝ))} (hs : StrictSorted S) {prev : Option ℝ} {ctr ctr' : Int} (hc : S ≠ [] → ctr = min ((S.length : Int) - 1) (posOf S prev : Int))
    {d v : Events.SolarVal ℝ} {t : ℝ} (hp : playback S S.length ctr d t = (ctr', .ok v))
    (hd : ∀ e ∈ S, ∀ e' ∈ S, AfterPrev prev e.T → e.T ≤ t → AfterPrev prev e'.T → e'.T ≤ t → e = e') :
    (S ≠ [] → ctr' = min ((S.length : Int) - 1) (posOf S (some (latest prev t)) : Int)) ∧ Shown S d t (asked prev) (∀ e ∈ S, t < e.T) v := by
  by_cases hne : S = []
  · subst hne
    have hv : v = d := by simpa [playback] using (Prod.mk.inj hp).2.symm
    have hcor : Correct ([] : List (Ev ℝ (Events.SolarVal ℝ))) d t v := Or.inr ⟨by simp, hv⟩
    exact ⟨fun h => absurd rfl h, ⟨t, le_rfl, Or.inl rfl, hcor⟩, fun _ => hcor, by simp⟩
  · obtain ⟨v', a1, a2⟩ := playback_any hs hne d prev t hd
    rw [← hc hne, hp] at a1
    obtain ⟨rfl, hv⟩ := Prod.mk.inj a1
    cases hv
    exact ⟨fun _ => rfl, a2⟩

/-- One evaluation. -/
theorem pos_eval {k : Cls} {g : SCfg} {h : Hid} {cl : Call k} {e : Env} {S : List (Ev ℝ (Events.SolarVal ℝ))} {prev : Option ℝ} (hP : Pos S prev h.ev)
    (he : (evalEnv k g cl h).2 = .ok e) (hd : ∀ e ∈ S, ∀ e' ∈ S, AfterPrev prev e.T → e.T ≤ cl.t → AfterPrev prev e'.T → e'.T ≤ cl.t → e = e') :
    Pos S (some (latest prev cl.t)) (evalEnv k g cl h).1.ev ∧
      ∃ v, Shown S ⟨g.sp.insolation.dflt, 29815 / 100⟩ cl.t (asked prev) (∀ e ∈ S, cl.t < e.T) v ∧ (evalEnv k g cl h).1.Sinsol = v.Sinsol ∧ (evalEnv k g cl h).1.Tactual = v.Tactual ∧
        (k ∈ classes → SunOk g h → e.Ppv = if (evalEnv k g cl h).1.rt.connected = true then
          PV.ppv g.p.mod v.Sinsol v.Tactual (min g.p.Vdcmpp_max (e.Vdc * g.p.Vdcbase)) else 0) := by
  obtain ⟨v, v1, v2, v3, v4, v5, v6, v7, h5, w1, w2, w3, w4⟩ := eval_solar he hP.inv hP.en
  rw [hP.lst] at v1 v2
  have hs : StrictSorted S := by rw [← hP.lst]; exact hP.inv.solarS
  obtain ⟨a1, a2⟩ := pos_play hs hP.ctr v1 hd
  refine ⟨⟨v2, v3, v4, a1⟩, v, a2, v5, v6, fun hk hI => ?_⟩
  split
  · rename_i hcon
    have b4 : h5.Iph = PV.iph g.p.mod h5.Sinsol h5.Tactual := by rw [w4, w2, w3]; exact v7 fun _ => hI
    rw [w1] at hcon he
    obtain ⟨_, _, _, he'⟩ := rt_ok he
    rw [hcon] at he'
    rw [he']
    have := envC_ppv (g := g) hk cl h5 b4
    rw [w2, w3] at this
    exact this
  · rename_i hcon
    obtain ⟨e0, he0⟩ := eval_disconnected he (by simpa using hcon)
    rw [he0]; rfl

theorem pos_run {k : Cls} {g : SCfg} {h : Hid} {S : List (Ev ℝ (Events.SolarVal ℝ))} {prev : Option ℝ} (hP : Pos S prev h.ev) (l : List (Call k)) (hok : Ok k g h l)
    (hd : Steps S prev (l.map Call.t)) : Pos S (latestOf prev (l.map Call.t)) (run k g h l).ev := by
  induction l generalizing h prev with
  | nil => exact hP
  | cons cl l ih =>
    obtain ⟨⟨e, he⟩, ho⟩ := hok
    exact ih (pos_eval hP he hd.1).1 ho hd.2

theorem pos_query {sp : Events.EvSpec ℝ} {S : List (Ev ℝ (Events.SolarVal ℝ))} {prev : Option ℝ} {ev : Events.St ℝ} (hP : Pos S prev ev) (ts : List ℝ)
    (hd : Steps S prev ts) {vs : List (Events.SolarVal ℝ)} {ev' : Events.St ℝ} (hq : queryAll (Events.solarEvents sp) ev ts = (ev', .ok vs)) : Pos S (latestOf prev ts) ev' := by
  induction ts generalizing ev prev vs with
  | nil => simp only [queryAll, Prod.mk.injEq] at hq; rw [← hq.1]; exact hP
  | cons t ts ih =>
    unfold queryAll at hq
    have hs : StrictSorted S := by rw [← hP.lst]; exact hP.inv.solarS
    have hen := Events.solarEvents_enabled sp ev hP.inv hP.en t
    have hinv := Events.inv_solarEvents (sp := sp) hP.inv t
    rcases hx : Events.solarEvents sp ev t with ⟨ev1, r⟩
    rw [hx] at hq hen hinv
    cases r with
    | error e => simp at hq
    | ok v =>
      dsimp only at hq
      rcases hy : queryAll (Events.solarEvents sp) ev1 ts with ⟨ev2, r'⟩
      rw [hy] at hq
      cases r' with
      | error e => simp at hq
      | ok vs' =>
        simp only [Prod.mk.injEq, Except.ok.injEq] at hq
        obtain ⟨rfl, _⟩ := hq
        have hpb : playback S S.length ev.solarCtr ⟨sp.insolation.dflt, 29815 / 100⟩ t = (ev1.solarCtr, .ok v) := by
          rw [← hP.lst]
          have h1 := hen
          simp only [Prod.mk.injEq] at h1
          rw [h1.1]
          exact Prod.ext rfl h1.2.symm
        have hfr := hen
        simp only [Prod.mk.injEq] at hfr
        obtain ⟨a1, _⟩ := pos_play hs hP.ctr hpb hd.1
        refine ih (prev := some (latest prev t)) ⟨?_, ?_, hinv, a1⟩ hd.2 hy
        · rw [hfr.1]; exact hP.lst
        · rw [hfr.1]; exact hP.en

/-- One call with external voltages. -/
theorem pos_step (hsa : c.g.standAlone = false) (hl : c.loop = true) {S : List (Ev ℝ (Events.SolarVal ℝ))} {prev : Option ℝ} (hP : Pos S prev w.s.h.ev)
    (a : LStep (clsOf mt)) (hret : (coStep mt c w a).2 = .ok ()) (hd : Steps S prev (stepAsks mt c w a)) :
    Pos S (latestOf prev (stepAsks mt c w a)) (coStep mt c w a).1.s.h.ev := by
  obtain ⟨y, rows, mused, _, hok, hr⟩ := runLoop_ok hret
  have hret' := hret
  obtain ⟨d1, d2⟩ := (steps_append _ _ _).1 hd
  have h1 := pos_run hP (stepCalls mt c w a) hok d1
  unfold stepAsks
  rw [latestOf_append]
  show Pos S _ (runLoop c a.sv (w.x.measure mt a.va a.vb a.vc) a.y0 a.ts w.s).1.h.ev
  have hret'' : (runLoop c a.sv (w.x.measure mt a.va a.vb a.vc) a.y0 a.ts w.s).2 = .ok () := hret'
  rw [hr] at hret'' ⊢
  unfold finish at hret'' ⊢
  by_cases hcoll : c.coll = true
  · simp only [hcoll, if_true] at hret'' d2 ⊢
    unfold collectSeries at hret'' ⊢
    rw [if_neg (by simp [hsa])] at hret'' ⊢
    dsimp only at hret'' ⊢
    rcases hx : queryAll (Events.solarEvents c.g.sp) (run (clsOf mt) c.g w.s.h (trace c.g c.J (w.x.measure mt a.va a.vb a.vc) (a.sv a.y0 a.ts) w.s.h)).ev a.ts with ⟨ev, r⟩
    rw [hx] at hret''
    cases r with
    | error e => simp at hret''
    | ok vs =>
      show Pos S _ (resetUnless c.loop ev)
      rw [hl]
      exact pos_query h1 a.ts d2 hx
  · simp only [hcoll] at d2 ⊢
    exact h1

theorem pos_coRun (hsa : c.g.standAlone = false) (hl : c.loop = true) {S : List (Ev ℝ (Events.SolarVal ℝ))} {prev : Option ℝ} (hP : Pos S prev w.s.h.ev)
    (l : List (LStep (clsOf mt))) (hret : CoReturn mt c w l) (hd : Steps S prev (coAsks mt c w l)) :
    Pos S (latestOf prev (coAsks mt c w l)) (coRun mt c w l).s.h.ev := by
  induction l generalizing w prev with
  | nil => exact hP
  | cons a l ih =>
    obtain ⟨d1, d2⟩ := (steps_append _ _ _).1 hd
    have h1 := pos_step hsa hl hP a hret.1 d1
    have h2 := ih h1 hret.2 d2
    show Pos S (latestOf prev (stepAsks mt c w a ++ coAsks mt c (coStep mt c w a).1 l)) _
    rw [latestOf_append]
    exact h2

/-- The stored photocurrent belongs to the stored weather throughout. -/
theorem sun_coRun (l : List (LStep (clsOf mt))) (hret : CoReturn mt c w l) (hI : SunOk c.g w.s.h) : SunOk c.g (coRun mt c w l).s.h := by
  induction l generalizing w with
  | nil => exact hI
  | cons a l ih =>
    refine ih hret.2 ?_
    obtain ⟨y, rows, mused, _, hok, hr⟩ := runLoop_ok hret.1
    have h1 := run_sun _ hok hI
    show SunOk c.g (runLoop c a.sv (w.x.measure mt a.va a.vb a.vc) a.y0 a.ts w.s).1.h
    rw [hr]
    unfold finish
    split
    · exact (collect_facts (c := { c with x := w.x.measure mt a.va a.vb a.vc }) (P := fun _ => True) ⟨fun _ _ _ => trivial, fun _ _ _ => trivial, fun _ _ _ => trivial⟩
        (fun _ _ => trivial) a.ts rows trivial h1).2.1
    · exact h1

theorem clsOf_mem (mt : Sim.Mt) : clsOf mt ∈ classes := by cases mt <;> simp [clsOf, classes]

/-- C143: the schedule is played once through the whole co-simulation, with or without collection of series: an evaluation in any call that is not earlier than the
times asked so far (evaluations and reported times of all calls) uses the weather scheduled for its time, and computes the PV power from it (zero while disconnected),
provided no query passes more than one event. -/
theorem C143_follows_schedule (hsa : c.g.standAlone = false) (hl : c.loop = true) (hr : Events.Reachable c.g.evc w.s.h.ev)
    (hz : w.s.h.ev = Events.resetCounters w.s.h.ev) (hen : w.s.h.ev.solarEnable = true) (hI : SunOk c.g w.s.h) (l : List (LStep (clsOf mt))) (hret : CoReturn mt c w l)
    (a : LStep (clsOf mt)) (hok : Ok (clsOf mt) c.g (coRun mt c w l).s.h (stepCalls mt c (coRun mt c w l) a))
    (p q : List (Call (clsOf mt))) (cl : Call (clsOf mt)) (htr : stepCalls mt c (coRun mt c w l) a = p ++ cl :: q)
    (hd : Steps w.s.h.ev.solar none (coAsks mt c w l ++ (p.map Call.t ++ [cl.t])))
    (hfwd : (∀ u ∈ coAsks mt c w l, u ≤ cl.t) ∧ ∀ b ∈ p, b.t ≤ cl.t) :
    ∃ v e, Correct w.s.h.ev.solar ⟨c.g.sp.insolation.dflt, 29815 / 100⟩ cl.t v ∧
      (evalEnv (clsOf mt) c.g cl (run (clsOf mt) c.g (coRun mt c w l).s.h p)).2 = .ok e ∧
      e.Ppv = (if (run (clsOf mt) c.g (coRun mt c w l).s.h (p ++ [cl])).rt.connected = true then
        PV.ppv c.g.p.mod v.Sinsol v.Tactual (min c.g.p.Vdcmpp_max (e.Vdc * c.g.p.Vdcbase)) else 0) := by
  obtain ⟨d1, d2⟩ := (steps_append _ _ _).1 hd
  obtain ⟨d2, d3⟩ := (steps_append _ _ _).1 d2
  have h0 : Pos w.s.h.ev.solar none w.s.h.ev := by
    refine ⟨rfl, hen, Events.inv_reachable hr, fun hne => ?_⟩
    have : 0 < w.s.h.ev.solar.length := List.length_pos_of_ne_nil hne
    have hc : w.s.h.ev.solarCtr = 0 := by rw [hz]; rfl
    rw [hc]; simp only [posOf]; omega
  have h1 := pos_coRun hsa hl h0 l hret d1
  rw [htr] at hok
  obtain ⟨o1, o2⟩ := (ok_append _ _ _).1 hok
  have h2 := pos_run h1 p o1 d2
  have h3 := run_sun p o1 (sun_coRun l hret hI)
  obtain ⟨⟨e, he⟩, _⟩ := o2
  obtain ⟨_, v, v1, _, _, v4⟩ := pos_eval h2 he d3.1
  have hrun : run (clsOf mt) c.g (coRun mt c w l).s.h (p ++ [cl]) = (evalEnv (clsOf mt) c.g cl (run (clsOf mt) c.g (coRun mt c w l).s.h p)).1 := by
    rw [run_append]; rfl
  rw [hrun]
  refine ⟨v, e, v1.2.1 (Or.inl ?_), he, v4 (clsOf_mem mt) h3⟩
  intro e he hlt hasked
  rw [asked_latestOf, asked_latestOf] at hasked
  rcases hasked with (h | ⟨u, hu, h⟩) | ⟨u, hu, h⟩
  · obtain ⟨_, h, _⟩ := h; simp at h
  · exact absurd (lt_of_lt_of_le hlt (h.trans (hfwd.1 u hu))) (lt_irrefl _)
  · obtain ⟨b, hb, rfl⟩ := List.mem_map.1 hu
    exact absurd (lt_of_lt_of_le hlt (h.trans (hfwd.2 b hb))) (lt_irrefl _)

/-! ### Examples -/

/-- A call with a solver that evaluates at given times; balanced voltages. -/
noncomputable def exStep (y : three.V → ℝ) (v : ℂ) (evals ts : List ℝ) : LStep (clsOf .three) := ⟨askAt 1 evals, v, ub v, uc v, y, ts⟩

/-- Settings of the example in loop mode, with collection of series. -/
noncomputable def exLC : Cfg (clsOf .three) := { exC false with loop := true, coll := true }
noncomputable def exLW (y : three.V → ℝ) : Co (clsOf .three) := ⟨⟨1 / 2, 0, 0, 377⟩, exS false y⟩

theorem exStep_healthy (y : three.V → ℝ) (v : ℂ) (evals ts : List ℝ) : Healthy ((exStep y v evals ts).sv (exStep y v evals ts).y0 (exStep y v evals ts).ts) :=
  askAt_healthy (k := three) evals y ts

theorem exStep_calls {w : Co (clsOf .three)} (y : three.V → ℝ) (v : ℂ) (evals ts : List ℝ) (hg : Good (clsOf .three) exLC.g w.s.h) :
    stepCalls .three exLC w (exStep y v evals ts) = evals.map (mkCall (k := three) ⟨v, ub v, uc v, w.x.w⟩ false y) :=
  (askAt_trace (k := three) exLC.g exLC.J ⟨v, ub v, uc v, w.x.w⟩ 1 evals y ts w.s.h hg y).1

/-- A voltage dip from 1 s on in three successive calls, none of which is as long as the 5 s that the zone allows; the trip flag is set in the third call and not before. -/
theorem C143_example (y : three.V → ℝ) :
    let l := [exStep y (1 / 5) [1] [0, 1], exStep y (1 / 5) [4] [1, 4]]
    let a := exStep y (1 / 5) [7] [4, 7]
    Good (clsOf .three) exLC.g (exLW y).s.h ∧ CoReturn .three exLC (exLW y) (l ++ [a]) ∧
      (coRun .three exLC (exLW y) l).s.h.rt.lv.trip = false ∧ (coRun .three exLC (exLW y) (l ++ [a])).s.h.rt.lv.trip = true := by
  intro l a
  have hg : Good (clsOf .three) exLC.g (exLW y).s.h := exS_good false y
  have hS : ∀ b ∈ l ++ [a], Healthy (b.sv b.y0 b.ts) := by
    intro b hb
    simp only [l, a, List.cons_append, List.nil_append, List.mem_cons, List.not_mem_nil, or_false] at hb
    rcases hb with rfl | rfl | rfl <;> exact exStep_healthy _ _ _ _
  have hS1 : ∀ b ∈ l, Healthy (b.sv b.y0 b.ts) := fun b hb => hS b (List.mem_append_left _ hb)
  have hret := (C143_no_exception (mt := .three) (c := exLC) hg (l ++ [a]) hS).1
  have hret1 := (C143_no_exception (mt := .three) (c := exLC) hg l hS1).1
  have hsees : Sees (clsOf .three) exLC.g (fun cl => urmsMin cl.va cl.vb cl.vc) := C96_sees_minimum (k := three) (by simp [unbalancedClasses]) rfl rfl
  have g1 := (C143_no_exception (mt := .three) (c := exLC) (w := exLW y) hg [exStep y (1 / 5) [1] [0, 1]] (fun b hb => hS1 b (by simp at hb; subst hb; simp [l]))).2
  have g2 := (C143_no_exception (mt := .three) (c := exLC) (w := exLW y) hg l hS1).2
  have c1 := exStep_calls (w := exLW y) y (1 / 5) [1] [0, 1] hg
  have c2 := exStep_calls (w := (coStep .three exLC (exLW y) (exStep y (1 / 5) [1] [0, 1])).1) y (1 / 5) [4] [1, 4] g1
  have c3 := exStep_calls (w := coRun .three exLC (exLW y) l) y (1 / 5) [7] [4, 7] g2
  have hlow : urmsMin (1 / 5 : ℂ) (ub (1 / 5)) (uc (1 / 5)) < 88 / 100 * (1 / 3) := by
    rw [(C50_balanced _).2]
    unfold urms1
    have h2 : (0:ℝ) < Real.sqrt 2 := by positivity
    have h1 : (1:ℝ) ≤ Real.sqrt 2 := by rw [Real.one_le_sqrt]; norm_num
    have hn : ‖(1 / 5 : ℂ)‖ = 1 / 5 := by norm_num
    rw [hn, div_lt_iff₀ h2]
    nlinarith
  have e1 : (coCalls .three exLC (exLW y) l).map (fun cl => (cl.t, urmsMin cl.va cl.vb cl.vc)) =
      [(1, urmsMin (1 / 5 : ℂ) (ub (1 / 5)) (uc (1 / 5))), (4, urmsMin (1 / 5 : ℂ) (ub (1 / 5)) (uc (1 / 5)))] := by
    show (stepCalls .three exLC (exLW y) (exStep y (1 / 5) [1] [0, 1]) ++ (stepCalls .three exLC (coStep .three exLC (exLW y) (exStep y (1 / 5) [1] [0, 1])).1
      (exStep y (1 / 5) [4] [1, 4]) ++ [])).map _ = _
    rw [c1, c2]; rfl
  have e2 : (coCalls .three exLC (exLW y) (l ++ [a])).map (fun cl => (cl.t, urmsMin cl.va cl.vb cl.vc)) =
      [(1, urmsMin (1 / 5 : ℂ) (ub (1 / 5)) (uc (1 / 5))), (4, urmsMin (1 / 5 : ℂ) (ub (1 / 5)) (uc (1 / 5))), (7, urmsMin (1 / 5 : ℂ) (ub (1 / 5)) (uc (1 / 5)))] := by
    show (stepCalls .three exLC (exLW y) (exStep y (1 / 5) [1] [0, 1]) ++ (stepCalls .three exLC (coStep .three exLC (exLW y) (exStep y (1 / 5) [1] [0, 1])).1
      (exStep y (1 / 5) [4] [1, 4]) ++ (stepCalls .three exLC (coRun .three exLC (exLW y) l) (exStep y (1 / 5) [7] [4, 7]) ++ []))).map _ = _
    rw [c1, c2, c3]; rfl
  have t1 := C143_lv_trip_iff (mt := .three) (c := exLC) (w := exLW y) hsees exRT_init rfl l hret1
  have t2 := C143_lv_trip_iff (mt := .three) (c := exLC) (w := exLW y) hsees exRT_init rfl (l ++ [a]) hret
  rw [e1] at t1
  rw [e2] at t2
  refine ⟨hg, hret, ?_, ?_⟩
  · rw [← Bool.not_eq_true, t1]
    rintro ⟨z, hz, p, m, q, i, j, hsplit, _, _, _, hlong⟩
    have hzz : z = ⟨88 / 100, 5, 1 / 10, .mandatory, 0, false⟩ := by
      have : z ∈ exRT.lv.zones := hz
      simpa [exRT] using this
    have hrec : RT.after exLC.g.tStable (RT.records 0 [((1:ℝ), urmsMin (1 / 5 : ℂ) (ub (1 / 5)) (uc (1 / 5))), (4, urmsMin (1 / 5 : ℂ) (ub (1 / 5)) (uc (1 / 5)))]) =
        [(1, urmsMin (1 / 5 : ℂ) (ub (1 / 5)) (uc (1 / 5))), (4, urmsMin (1 / 5 : ℂ) (ub (1 / 5)) (uc (1 / 5)))] := by
      simp only [RT.records, RT.after, exLC, exC, exG]; norm_num
    rw [hrec] at hsplit
    have hm : ∀ x ∈ [((1:ℝ), urmsMin (1 / 5 : ℂ) (ub (1 / 5)) (uc (1 / 5))), (4, urmsMin (1 / 5 : ℂ) (ub (1 / 5)) (uc (1 / 5)))], 1 ≤ x.1 ∧ x.1 ≤ 4 := by
      intro x hx
      simp only [List.mem_cons, List.not_mem_nil, or_false] at hx
      rcases hx with rfl | rfl <;> norm_num
    rw [hsplit] at hm
    have hi1 := hm i (by simp)
    have hj1 := hm j (by simp)
    rw [hzz] at hlong
    simp only at hlong
    linarith [hi1.1, hj1.2]
  · rw [t2]
    refine ⟨⟨88 / 100, 5, 1 / 10, .mandatory, 0, false⟩, by simp [exLW, exS, exH, exRT], ?_⟩
    have hrec : RT.after exLC.g.tStable (RT.records 0 [((1:ℝ), urmsMin (1 / 5 : ℂ) (ub (1 / 5)) (uc (1 / 5))), (4, urmsMin (1 / 5 : ℂ) (ub (1 / 5)) (uc (1 / 5))),
        (7, urmsMin (1 / 5 : ℂ) (ub (1 / 5)) (uc (1 / 5)))]) =
        [(1, urmsMin (1 / 5 : ℂ) (ub (1 / 5)) (uc (1 / 5))), (4, urmsMin (1 / 5 : ℂ) (ub (1 / 5)) (uc (1 / 5))), (7, urmsMin (1 / 5 : ℂ) (ub (1 / 5)) (uc (1 / 5)))] := by
      simp only [RT.records, RT.after, exLC, exC, exG]; norm_num
    rw [hrec]
    refine ⟨[], [(4, urmsMin (1 / 5 : ℂ) (ub (1 / 5)) (uc (1 / 5)))], [], (1, urmsMin (1 / 5 : ℂ) (ub (1 / 5)) (uc (1 / 5))),
      (7, urmsMin (1 / 5 : ℂ) (ub (1 / 5)) (uc (1 / 5))), rfl, hlow, hlow, ?_, ?_⟩
    · intro x hx
      simp only [List.mem_singleton] at hx
      rw [hx]
      exact hlow.le
    · norm_num

/-- The conditions of the schedule theorem are met: insolation events at 1, 2 and 3 s; after a call over [0, 1], with collection, an evaluation at 3/2 s. -/
theorem C143_example_schedule (y : three.V → ℝ) :
    let l := [exStep y (1 / 2) [1 / 2, 1] [0, 1]]
    let a := exStep y (1 / 2) [3 / 2, 2] [1, 2]
    Events.Reachable exLC.g.evc (exLW y).s.h.ev ∧ (exLW y).s.h.ev = Events.resetCounters (exLW y).s.h.ev ∧ (exLW y).s.h.ev.solarEnable = true ∧ SunOk exLC.g (exLW y).s.h ∧
      CoReturn .three exLC (exLW y) l ∧ Ok (clsOf .three) exLC.g (coRun .three exLC (exLW y) l).s.h (stepCalls .three exLC (coRun .three exLC (exLW y) l) a) ∧
      stepCalls .three exLC (coRun .three exLC (exLW y) l) a = [] ++ mkCall (k := three) ⟨1 / 2, ub (1 / 2), uc (1 / 2), 377⟩ false y (3 / 2) ::
        [mkCall (k := three) ⟨1 / 2, ub (1 / 2), uc (1 / 2), 377⟩ false y 2] ∧
      coAsks .three exLC (exLW y) l = [1 / 2, 1, 0, 1] ∧ Steps (exLW y).s.h.ev.solar none (coAsks .three exLC (exLW y) l ++ ([] ++ [3 / 2])) := by
  intro l a
  have hg : Good (clsOf .three) exLC.g (exLW y).s.h := exS_good false y
  obtain ⟨hret, g1⟩ := C143_no_exception (mt := .three) (c := exLC) (w := exLW y) hg l (fun b hb => by simp only [l, List.mem_singleton] at hb; subst hb; exact exStep_healthy _ _ _ _)
  have hb := exS_between false y
  have hx : (coRun .three exLC (exLW y) l).x.w = 377 := coRun_w l
  have c1 := exStep_calls (w := exLW y) y (1 / 2) [1 / 2, 1] [0, 1] hg
  have c2 := exStep_calls (w := coRun .three exLC (exLW y) l) y (1 / 2) [3 / 2, 2] [1, 2] g1
  have ha : coAsks .three exLC (exLW y) l = [1 / 2, 1, 0, 1] := by
    show ((stepCalls .three exLC (exLW y) (exStep y (1 / 2) [1 / 2, 1] [0, 1])).map Call.t ++ [0, 1]) ++ [] = _
    rw [c1]; rfl
  have hsol : (exLW y).s.h.ev.solar = [⟨1, ⟨50, 300⟩⟩, ⟨2, ⟨60, 300⟩⟩, ⟨3, ⟨70, 300⟩⟩] := by
    show (exEv3 (exG exPar false)).solar = _; rw [exEv3_eq]
  refine ⟨hb.reach, hb.ctr, ?_, hb.sun, hret, C99_no_exception (k := three) g1 _, ?_, ha, ?_⟩
  · show (exEv3 (exG exPar false)).solarEnable = true; rw [exEv3_eq]; rfl
  · show stepCalls .three exLC (coRun .three exLC (exLW y) l) (exStep y (1 / 2) [3 / 2, 2] [1, 2]) = _
    rw [c2, hx]; rfl
  · rw [ha, hsol]
    simp only [List.nil_append, List.cons_append, Steps, AfterPrev, latest, List.mem_cons, List.not_mem_nil, or_false]
    norm_num

end Session
end PvDer
