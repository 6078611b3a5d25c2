import Verif.Lemmas.EvalEvents
import Verif.Lemmas.OdeEx

/-!
# Properties C93, C94: PV power and load follow their schedules through a whole simulation
-/

namespace PvDer
namespace Eval
open Complex Phasor Ode

variable {k : Cls} {g : SCfg} {h : Hid}

/-- The seven model classes. -/
noncomputable def classes : List Cls := [single, three, noFilter, numba, balanced, single0, three0]

/-- In every class PV power is the same function of the DC voltage and the weather. -/
theorem class_ppv (hk : k ∈ classes) (p : Par) (i : Ode.Inp) (y : k.V → ℝ) : (k.env p i y).Ppv = ppvOf p i (k.env p i y).Vdc := by
  simp only [classes, List.mem_cons, List.not_mem_nil, or_false] at hk
  rcases hk with rfl | rfl | rfl | rfl | rfl | rfl | rfl <;> rfl

theorem envC_ppv (hk : k ∈ classes) (c : Call k) (h : Hid) (hI : h.Iph = PV.iph g.p.mod h.Sinsol h.Tactual) :
    (envC k g c h).Ppv = PV.ppv g.p.mod h.Sinsol h.Tactual (min g.p.Vdcmpp_max ((envC k g c h).Vdc * g.p.Vdcbase)) := by
  unfold envC envP
  dsimp only
  by_cases hc : k.cachedIph = true
  · rw [if_pos hc]
    dsimp only
    unfold ppvI
    rw [hI]
    rfl
  · rw [if_neg hc]
    exact class_ppv hk _ _ _

theorem run_solar (hi : Events.Inv h.ev) (hen : h.ev.solarEnable = true) (p : List (Call k)) (c : Call k) (q : List (Call k))
    (hok : Ok k g h (p ++ c :: q)) (hI : k.cachedIph = true → h.Iph = PV.iph g.p.mod h.Sinsol h.Tactual) :
    ∃ v e, (playSeq h.ev.solar h.ev.solar.length h.ev.solarCtr ⟨g.sp.insolation.dflt, 29815 / 100⟩ ((p ++ c :: q).map Call.t))[p.length]? = some (.ok v) ∧
      (run k g h (p ++ [c])).Sinsol = v.Sinsol ∧ (run k g h (p ++ [c])).Tactual = v.Tactual ∧
      (evalEnv k g c (run k g h p)).2 = .ok e ∧
      ∃ h5 : Hid, evalEnv k g c (run k g h p) = rtStage k g c h5 ∧ h5.Sinsol = v.Sinsol ∧ h5.Tactual = v.Tactual ∧
        h5.Iph = PV.iph g.p.mod h5.Sinsol h5.Tactual := by
  induction p generalizing h with
  | nil =>
    obtain ⟨⟨e, he⟩, ho⟩ := hok
    obtain ⟨v, v1, _, _, _, v5, v6, v7, h5, w1, w2, w3, w4⟩ := eval_solar he hi hen
    refine ⟨v, e, ?_, v5, v6, he, h5, w1, w2, w3, ?_⟩
    · simp [playSeq, v1]
    · rw [w4, v7 hI, w2, w3]
  | cons c0 p ih =>
    obtain ⟨⟨e, he⟩, ho⟩ := hok
    obtain ⟨v, v1, v2, v3, v4, v5, v6, v7, _⟩ := eval_solar he hi hen
    have := ih v4 v3 ho (fun _ => by rw [v7 hI, v5, v6])
    obtain ⟨w, e', a1, a2⟩ := this
    refine ⟨w, e', ?_, a2⟩
    rw [v2] at a1
    simp only [List.cons_append, List.map_cons, playSeq, v1, List.length_cons, List.getElem?_cons_succ]
    exact a1

/-- C93: start from an events object in any reachable state with reset counters.  Let the solver call the methods in any order with times that go forward and do
not jump over more than one insolation event at once.  Then every evaluation `c` uses exactly the insolation and temperature scheduled for its time, in all
classes and modes: if the DER is connected after the evaluation, its PV power is the PV curve at these values, and zero otherwise. -/
theorem C93_pv_power_follows_schedule (hk : k ∈ classes) {cc : Events.Cfg ℝ} {s : Events.St ℝ} (hs : Events.Reachable cc s) (hen : s.solarEnable = true)
    (hev : h.ev = Events.resetCounters s) (hI : h.Iph = PV.iph g.p.mod h.Sinsol h.Tactual) (p : List (Call k)) (c : Call k) (q : List (Call k))
    (hok : Ok k g h (p ++ c :: q)) (hd : Dense s.solar none ((p ++ c :: q).map Call.t)) :
    ∃ v e, Correct s.solar ⟨g.sp.insolation.dflt, 29815 / 100⟩ c.t v ∧ (evalEnv k g c (run k g h p)).2 = .ok e ∧
      (run k g h (p ++ [c])).Sinsol = v.Sinsol ∧ (run k g h (p ++ [c])).Tactual = v.Tactual ∧
      ((run k g h (p ++ [c])).rt.connected = true →
        e.Ppv = PV.ppv g.p.mod v.Sinsol v.Tactual (min g.p.Vdcmpp_max (e.Vdc * g.p.Vdcbase))) ∧
      ((run k g h (p ++ [c])).rt.connected = false → e.Ppv = 0) := by
  have hi : Events.Inv h.ev := by rw [hev]; exact Events.inv_step (c := cc) (sp := g.sp) (Events.inv_reachable hs) .reset
  have hsol : h.ev.solar = s.solar := by rw [hev]; rfl
  have hctr : h.ev.solarCtr = 0 := by rw [hev]; rfl
  obtain ⟨v, e, a1, a2, a3, a4, h5, b1, b2, b3, b4⟩ := run_solar hi (by rw [hev]; exact hen) p c q hok (fun _ => hI)
  rw [hsol, hctr] at a1
  have hf := Events.playSeq_reset_dense (total := (s.solar.length : Int)) (Events.inv_reachable hs).solarS (fun _ => rfl)
    (⟨g.sp.insolation.dflt, 29815 / 100⟩ : Events.SolarVal ℝ) _ hd
  have hlen := hf.length_eq
  have hp : p.length < ((p ++ c :: q).map Call.t).length := by simp
  have hg := hf.get hp (by rw [← hlen]; exact hp)
  have ht : ((p ++ c :: q).map Call.t).get ⟨p.length, hp⟩ = c.t := by simp
  rw [ht] at hg
  obtain ⟨w, hw, hc⟩ := hg
  have hw' := List.getElem?_eq_getElem (l := playSeq s.solar (s.solar.length : Int) 0 (⟨g.sp.insolation.dflt, 29815 / 100⟩ : Events.SolarVal ℝ) ((p ++ c :: q).map Call.t))
    (i := p.length) (by rw [← hlen]; exact hp)
  rw [a1] at hw'
  have : (Except.ok v : Except Err (Events.SolarVal ℝ)) = .ok w := by
    have h1 := Option.some.inj hw'
    rw [h1]
    exact hw
  cases this
  have hr : run k g h (p ++ [c]) = (evalEnv k g c (run k g h p)).1 := by rw [run_append]; rfl
  refine ⟨v, e, hc, a4, a2, a3, ?_, ?_⟩
  · intro hcon
    rw [hr, b1] at hcon
    rw [b1] at a4
    obtain ⟨_, _, _, he⟩ := rt_ok a4
    rw [hcon] at he
    rw [he]
    have := envC_ppv (g := g) hk c h5 b4
    rw [b2, b3] at this
    exact this
  · intro hcon
    rw [hr] at hcon
    obtain ⟨e0, he0⟩ := eval_disconnected a4 hcon
    rw [he0]; rfl

/-! ### C94 -/

/-- Times of the calls of `ODE_model` (the Jacobian code does not look at the load schedule). -/
def odeTimes (l : List (Call k)) : List ℝ := (l.filter (fun c => !c.jac)).map Call.t

theorem run_load (hsa : g.standAlone = true) (hi : Events.Inv h.ev) (hen : h.ev.loadEnable = true) (p : List (Call k)) (c : Call k) (q : List (Call k))
    (hok : Ok k g h (p ++ c :: q)) (hj : c.jac = false) :
    ∃ v e, (playSeq h.ev.load h.ev.load.length h.ev.loadCtr ⟨10000000, 0⟩ (odeTimes (p ++ c :: q)))[(odeTimes p).length]? = some (.ok v) ∧
      (evalEnv k g c (run k g h p)).2 = .ok e ∧ (evalEnv k g c (run k g h p)).1.Zload1 = (⟨v.Zre, v.Zim⟩ : ℂ) / g.Zbase ∧
      ∃ h5 : Hid, evalEnv k g c (run k g h p) = rtStage k g c h5 ∧ h5.Zload1 = (evalEnv k g c (run k g h p)).1.Zload1 ∧
        h5.grid = (evalEnv k g c (run k g h p)).1.grid := by
  induction p generalizing h with
  | nil =>
    obtain ⟨⟨e, he⟩, ho⟩ := hok
    obtain ⟨_, _, _, _, b5, b6⟩ := eval_load he hsa hi hen
    obtain ⟨v, v1, v2⟩ := b5 hj
    refine ⟨v, e, ?_, he, v2, b6⟩
    simp [odeTimes, hj, playSeq, v1]
  | cons c0 p ih =>
    obtain ⟨⟨e, he⟩, ho⟩ := hok
    obtain ⟨b1, b2, b3, b4, b5, _⟩ := eval_load he hsa hi hen
    obtain ⟨w, e', a1, a2⟩ := ih b3 b2 ho
    refine ⟨w, e', ?_, a2⟩
    rw [b1] at a1
    cases hc : c0.jac with
    | true =>
      rw [(b4 hc).1] at a1
      have e1 : ∀ l : List (Call k), odeTimes (c0 :: l) = odeTimes l := by intro l; simp [odeTimes, hc]
      rw [List.cons_append, e1, e1]
      exact a1
    | false =>
      obtain ⟨v, v1, _⟩ := b5 hc
      have e1 : ∀ l : List (Call k), odeTimes (c0 :: l) = c0.t :: odeTimes l := by intro l; simp [odeTimes, hc]
      rw [List.cons_append, e1, e1]
      simp only [playSeq, v1, List.length_cons, List.getElem?_cons_succ]
      exact a1

theorem class_va (hk : k ∈ classes) (p : Par) (i : Ode.Inp) (y : k.V → ℝ) : (k.env p i y).va = i.va := by
  simp only [classes, List.mem_cons, List.not_mem_nil, or_false] at hk
  rcases hk with rfl | rfl | rfl | rfl | rfl | rfl | rfl <;> rfl

theorem envC_va (hk : k ∈ classes) (c : Call k) (h : Hid) :
    (envC k g c h).va = Circuit.vaCalc g.standAlone c.va h.grid.va (k.cur c.y).1 g.a g.Z1 g.Z2 h.Zload1 := by
  unfold envC envP
  dsimp only
  split_ifs <;> exact class_va hk _ _ _

/-- C94: in stand-alone mode, along forward `ODE_model` calls that do not jump over more than one load event (with any Jacobian calls in between), every
`ODE_model` evaluation uses exactly the load impedance scheduled for its time: it is stored, and the terminal voltage of phase a is the circuit solution for it. -/
theorem C94_load_follows_schedule (hk : k ∈ classes) (hsa : g.standAlone = true) {cc : Events.Cfg ℝ} {s : Events.St ℝ} (hs : Events.Reachable cc s)
    (hen : s.loadEnable = true) (hev : h.ev = Events.resetCounters s) (p : List (Call k)) (c : Call k) (q : List (Call k))
    (hok : Ok k g h (p ++ c :: q)) (hj : c.jac = false) (hd : Dense s.load none (odeTimes (p ++ c :: q))) :
    ∃ v e, Correct s.load ⟨10000000, 0⟩ c.t v ∧ (evalEnv k g c (run k g h p)).2 = .ok e ∧
      (run k g h (p ++ [c])).Zload1 = (⟨v.Zre, v.Zim⟩ : ℂ) / g.Zbase ∧
      e.va = Circuit.vStandAlone (run k g h (p ++ [c])).grid.va (k.cur c.y).1 g.a g.Z1 g.Z2 ((⟨v.Zre, v.Zim⟩ : ℂ) / g.Zbase) := by
  have hi : Events.Inv h.ev := by rw [hev]; exact Events.inv_step (c := cc) (sp := g.sp) (Events.inv_reachable hs) .reset
  have hl : h.ev.load = s.load := by rw [hev]; rfl
  have hctr : h.ev.loadCtr = 0 := by rw [hev]; rfl
  obtain ⟨v, e, a1, a2, a3, h5, b1, b2, b3⟩ := run_load hsa hi (by rw [hev]; exact hen) p c q hok hj
  rw [hl, hctr] at a1
  have hf := Events.playSeq_reset_dense (total := (s.load.length : Int)) (Events.inv_reachable hs).loadS (fun _ => rfl)
    (⟨10000000, 0⟩ : Events.LoadVal ℝ) _ hd
  have hlen := hf.length_eq
  have hsplit : odeTimes (p ++ c :: q) = odeTimes p ++ c.t :: odeTimes q := by simp [odeTimes, hj]
  have hp : (odeTimes p).length < (odeTimes (p ++ c :: q)).length := by rw [hsplit]; simp
  have hg := hf.get hp (by rw [← hlen]; exact hp)
  have ht : (odeTimes (p ++ c :: q)).get ⟨(odeTimes p).length, hp⟩ = c.t := by simp [hsplit]
  rw [ht] at hg
  obtain ⟨w, hw, hc⟩ := hg
  have hw' := List.getElem?_eq_getElem (l := playSeq s.load (s.load.length : Int) 0 (⟨10000000, 0⟩ : Events.LoadVal ℝ) (odeTimes (p ++ c :: q)))
    (i := (odeTimes p).length) (by rw [← hlen]; exact hp)
  rw [a1] at hw'
  have : (Except.ok v : Except Err (Events.LoadVal ℝ)) = .ok w := by
    have h1 := Option.some.inj hw'
    rw [h1]
    exact hw
  cases this
  have hr : run k g h (p ++ [c]) = (evalEnv k g c (run k g h p)).1 := by rw [run_append]; rfl
  refine ⟨v, e, hc, a2, by rw [hr]; exact a3, ?_⟩
  rw [hr]
  have he := a2
  rw [b1] at he
  obtain ⟨_, _, _, he⟩ := rt_ok he
  have hva : e.va = (envC k g c h5).va := by
    rw [he]; split_ifs <;> rfl
  rw [hva, envC_va hk, hsa, b2, a3, b3]
  rfl

/-- C94: a Jacobian evaluation keeps the load impedance of the last `ODE_model` evaluation, whatever the schedule says. -/
theorem C94_jacobian_keeps_load (hsa : g.standAlone = true) (c : Call k) {e : Env} (hj : c.jac = true) (hi : Events.Inv h.ev) (hen : h.ev.loadEnable = true)
    (he : (evalEnv k g c h).2 = .ok e) : (evalEnv k g c h).1.Zload1 = h.Zload1 := ((eval_load he hsa hi hen).2.2.2.1 hj).2

/-- The numba class has no `S_load1_calc`: in stand-alone mode the first `ODE_model` evaluation after a load change raises `AttributeError`. -/
theorem C94_numba_load_change_raises (hsa : g.standAlone = true) (hov : g.evc.overrideAngle = true) (hg : EvGood g.sp h.ev) (c : Call numba) (hj : c.jac = false)
    (v : Events.LoadVal ℝ) (hv : (Events.loadEvents h.ev c.t).2 = .ok v) (hne : h.Zload1 ≠ (⟨v.Zre, v.Zim⟩ : ℂ) / g.Zbase) :
    (evalEnv numba g c h).2 = .error .attributeError := by
  obtain ⟨u, hu⟩ := Events.gridEvents_ok hov hg.inv hg.lim hg.tight.grid c.t
  have hgs : ∃ h1, gridStage g c.t h = (h1, .ok ()) := by
    unfold gridStage Grid.steadyState
    rw [if_pos hsa]
    rcases hq : Events.gridEvents g.evc g.sp h.ev c.t with ⟨ev, r⟩
    rw [hq] at hu
    simp only at hu
    subst hu
    exact ⟨_, rfl⟩
  obtain ⟨h1, e1⟩ := hgs
  have s := grid_ev_frame (g := g) (h := h) c.t
  have hg1 : EvGood g.sp h1.ev := by
    have := (evGood_query (cc := g.evc) hg c.t).1
    have h2 := grid_events (g := g) (h := h) c.t
    rw [if_pos hsa, e1] at h2
    rw [h2]; exact this
  have q4 := (grid_frame (g := g) (h := h) c.t).2.2.2.2.1
  rw [e1] at s q4
  simp only at s q4
  obtain ⟨h2, e2, hg2⟩ := solar_good (k := numba) (h := stateStage numba c.y h1) hg1 c.t
  obtain ⟨v0, v1, _, _, v5, _⟩ := solar_ok e2
  have sf := Events.solarEvents_frame g.sp h1.ev c.t
  have v1' : Events.solarEvents g.sp h1.ev c.t = (h2.ev, .ok v0) := v1
  rw [v1'] at sf
  simp only at sf
  have hz : h2.Zload1 = h.Zload1 := v5.trans q4
  have hl2 : (Events.loadEvents h2.ev c.t).2 = .ok v := by
    by_cases hen : h.ev.loadEnable = true
    · rw [Events.loadEvents_enabled h.ev hg.inv hen] at hv
      rw [Events.loadEvents_enabled h2.ev hg2.inv (sf.2.2.2.2.2.trans (s.2.2.2.2.2.1.trans hen)), sf.2.2.2.1.trans s.2.2.2.1, sf.2.2.2.2.1.trans s.2.2.2.2.1]
      exact hv
    · have hen2 : h2.ev.loadEnable = h.ev.loadEnable := sf.2.2.2.2.2.trans s.2.2.2.2.2.1
      unfold Events.loadEvents at hv ⊢
      rw [if_neg hen] at hv
      rw [if_neg (by rw [hen2]; exact hen)]
      exact hv
  unfold evalEnv
  rw [e1]; simp only [andThen]
  rw [e2]; simp only
  have hls : (loadStage numba g c.jac c.t h2).2 = .error .attributeError := by
    unfold loadStage
    rw [if_pos ⟨hsa, hj⟩]
    rcases hq : Events.loadEvents h2.ev c.t with ⟨ev, r⟩
    rw [hq] at hl2
    simp only at hl2
    subst hl2
    dsimp only
    rw [if_pos (by rw [hz]; exact norm_pos_iff.2 (sub_ne_zero.2 hne))]
    rfl
  rcases hq : loadStage numba g c.jac c.t h2 with ⟨h3, r⟩
  rw [hq] at hls
  simp only at hls
  subst hls
  rfl

/-! ### A concrete case: one solar and one load event at 1 s -/

/-- The calls that add them. -/
def exOps : List (Events.Op ℝ) := [.addSolar 1 50 300, .addLoad 1 10 0, .reset]

/-- The events object. -/
noncomputable def exEv (g : SCfg) : Events.St ℝ := Events.run g.evc (Events.init true true true) (exOps.map fun o => (g.sp, o))

theorem exEv_eq (p : Par) (sa : Bool) : exEv (exG p sa) =
    { (Events.init true true true : Events.St ℝ) with solar := [⟨1, ⟨50, 300⟩⟩], load := [⟨1, ⟨10, 0⟩⟩], solarTotal := 1, loadTotal := 1, gridTotal := 0, total := 2 } := by
  unfold exEv exOps Events.run
  simp only [List.map_cons, List.map_nil, List.foldl_cons, List.foldl_nil, Events.step, Events.addSolar, exG]
  rw [if_neg (by norm_num [Events.defaultSpec]), if_neg (by norm_num [Events.defaultSpec])]
  simp only [Events.addLoad]
  rw [if_neg (by norm_num)]
  simp [addTimed, removeAt, removeLoop, sortByT, Events.init, Events.updateTotals, Events.resetCounters]

/-- The hypotheses of C93 and C94 are met: stand-alone operation of the three-phase class, four evaluations around the event. -/
theorem C93_C94_example (y : ThreePhase.V → ℝ) :
    let g := exG exPar true
    let h := exH g (exEv g)
    let mk : Bool → ℝ → Call three := fun j t => ⟨j, y, t, 0, 0, 0, 377⟩
    let l := [mk false 0, mk false (1 / 2), mk true 1, mk false 2]
    three ∈ classes ∧ Events.Reachable g.evc (exEv g) ∧ (exEv g).solarEnable = true ∧ (exEv g).loadEnable = true ∧ h.ev = Events.resetCounters (exEv g) ∧
      h.Iph = PV.iph g.p.mod h.Sinsol h.Tactual ∧ Ok three g h l ∧ Dense (exEv g).solar none (l.map Call.t) ∧ Dense (exEv g).load none (odeTimes l) := by
  intro g h mk l
  have hno : ∀ o ∈ exOps, o.isRemoval = false := by
    intro o ho
    simp only [exOps, List.mem_cons, List.not_mem_nil, or_false] at ho
    rcases ho with rfl | rfl | rfl <;> rfl
  refine ⟨by simp [classes], ⟨true, true, true, _, rfl⟩, ?_, ?_, ?_, rfl, ?_, ?_, ?_⟩
  · show (exEv (exG exPar true)).solarEnable = true; rw [exEv_eq]; rfl
  · show (exEv (exG exPar true)).loadEnable = true; rw [exEv_eq]; rfl
  · show exEv (exG exPar true) = _; rw [exEv_eq]; rfl
  · exact C99_no_exception (ex_good three exPar true (Or.inl rfl) exOps hno) l
  · show Dense (exEv (exG exPar true)).solar none _
    rw [exEv_eq]
    simp only [l, mk, List.map_cons, List.map_nil, Dense, AfterPrev, List.mem_singleton]
    norm_num
    simp
  · show Dense (exEv (exG exPar true)).load none _
    rw [exEv_eq]
    have : odeTimes l = [0, 1 / 2, 2] := by simp [odeTimes, l, mk]
    rw [this]
    simp only [Dense, AfterPrev, List.mem_singleton]
    norm_num
    simp

/-- The hypotheses of the last theorem are met by the numba class: the second evaluation of such a run raises. -/
theorem C94_numba_example (y : ThreePhaseNumba.V → ℝ) :
    (evalEnv numba (exG exPar true) ⟨false, y, 2, 0, 0, 0, 377⟩ (exH (exG exPar true) (exEv (exG exPar true)))).2 = .error .attributeError := by
  have hno : ∀ o ∈ exOps, o.isRemoval = false := by
    intro o ho
    simp only [exOps, List.mem_cons, List.not_mem_nil, or_false] at ho
    rcases ho with rfl | rfl | rfl <;> rfl
  refine C94_numba_load_change_raises rfl rfl (C99_events_good true true true exOps hno) _ rfl ⟨10, 0⟩ ?_ ?_
  · show (Events.loadEvents (exEv (exG exPar true)) 2).2 = _
    rw [exEv_eq]
    have h12 : ¬ ((2:ℝ) < 1) := by norm_num
    have h21 : (1:ℝ) ≤ 2 := by norm_num
    simp [Events.loadEvents, Events.init, playback, pyGet, h12, h21]
  · show (2000000 : ℂ) ≠ _
    intro h
    have := congrArg Complex.re h
    norm_num [exG] at this

end Eval
end PvDer
