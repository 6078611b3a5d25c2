import Verif.Props.EvalRide
import Verif.Props.Reconnection

/-!
# Property C95: with the default features a simulation solves one ordinary differential equation
-/

namespace PvDer

namespace RT
variable {K W : Type} [Field K] [LinearOrder K] [IsStrictOrderedRing K]

/-- An evaluation that ends connected leaves the references as they were computed. -/
theorem eval_connected_refs (c : Cfg K W) (s : St K W) (i : Inp K) (h : (eval c s i).2 = .ok ()) (hc : (eval c s i).1.connected = true) :
    (eval c s i).1.refs = i.refs := by
  have hr : ∀ (s : St K W), (reconnectLogic c i.t s).1.refs = s.refs := by
    intro s; unfold reconnectLogic; split_ifs <;> rfl
  have hd : ∀ (s : St K W), (disconnectLogic c i.t s).1.refs = s.refs := by
    intro s; unfold disconnectLogic; split_ifs <;> rfl
  have hu : (updateFlags c i.t i.V i.f { s with refs := i.refs }).1.refs = i.refs := by
    by_cases ht : i.t > s.rtLock
    · rw [updateFlags_eq c i.t i.V i.f { s with refs := i.refs } ht]
      have hfr : ∀ s' : St K W, (frt c i.f i.t s').1.refs = s'.refs := by
        intro s'; unfold frt; split_ifs <;> first | rfl | exact hr _
      dsimp only
      split_ifs
      · split <;> exact hfr _
      · rfl
    · rw [updateFlags_lock c i.t i.V i.f { s with refs := i.refs } (not_lt.1 ht)]
  have hin : ∀ s : St K W, (inner c i.t s).1.refs = s.refs := by
    intro s
    unfold inner
    split_ifs <;> first | exact hd _ | exact hr _ | rfl
  have he : eval c s i = disconnectOrReconnect c i.t (updateFlags c i.t i.V i.f { s with refs := i.refs }).1 := by
    unfold eval at h ⊢
    dsimp only at h ⊢
    cases hq : (updateFlags c i.t i.V i.f { s with refs := i.refs }).2 with
    | error e => rw [hq] at h; simp at h
    | ok u => rfl
  rw [he, connect_eq] at h hc ⊢
  cases hq : (inner c i.t (updateFlags c i.t i.V i.f { s with refs := i.refs }).1).2 with
  | error e => rw [hq] at h; simp at h
  | ok u =>
    rw [hq] at hc
    dsimp only at hc ⊢
    split_ifs at hc ⊢ with hx
    · exact absurd hc (by show ¬ (inner c i.t _).1.connected = true; rw [hx]; simp)
    · rw [hin, hu]

end RT

namespace Eval
open Complex Phasor Ode

variable {k : Cls} {g : SCfg} {h : Hid} {f : Call k → ℝ}

/-- The inputs of a call in loop mode, with the weather and the DC reference. -/
def loopInp {k : Cls} (g : SCfg) (c : Call k) (v : Events.SolarVal ℝ) (Vdc_ref : ℝ) : Ode.Inp :=
  { va := c.va, vb := c.vb, vc := c.vc, w := c.w, t := c.t, Vdc_ref := Vdc_ref, Q_ref := 0, Sinsol := v.Sinsol, Tactual := v.Tactual, Vdc0 := g.Vdc0 }

theorem class_iref (hk : k ∈ classes) (p : Par) (i : Ode.Inp) (w : ℝ) (y : k.V → ℝ) : (k.env p { i with w := w } y).ia_ref = (k.env p i y).ia_ref := by
  simp only [classes, List.mem_cons, List.not_mem_nil, or_false] at hk
  rcases hk with rfl | rfl | rfl | rfl | rfl | rfl | rfl <;> rfl

theorem class_vdcref (hk : k ∈ classes) (p : Par) (i : Ode.Inp) (y : k.V → ℝ) : (k.env p i y).Vdc_ref = i.Vdc_ref := by
  simp only [classes, List.mem_cons, List.not_mem_nil, or_false] at hk
  rcases hk with rfl | rfl | rfl | rfl | rfl | rfl | rfl <;> rfl

theorem class_rhs (hk : k ∈ classes) (p : Par) (i : Ode.Inp) (y : k.V → ℝ) :
    k.rhs { k.env p i y with ia_ref := (k.env p i y).ia_ref, ib_ref := ub (k.env p i y).ia_ref, ic_ref := uc (k.env p i y).ia_ref } = k.rhs (k.env p i y) := by
  simp only [classes, List.mem_cons, List.not_mem_nil, or_false] at hk
  rcases hk with rfl | rfl | rfl | rfl | rfl | rfl | rfl
  · funext v; cases v <;> rfl
  · rfl
  · rfl
  · rfl
  · rfl
  · funext v; cases v <;> rfl
  · rfl

theorem envP_eq (hk : k ∈ classes) (c : Call k) (h : Hid) (w a b : ℝ) (hI : h.Iph = PV.iph g.p.mod h.Sinsol h.Tactual) :
    envP k g c h w a b = k.env g.p (inp k g c h w a b) c.y := by
  unfold envP
  dsimp only
  by_cases hc : k.cachedIph = true
  · rw [if_pos hc]
    have : ppvI g.p.mod h.Iph h.Tactual (min g.p.Vdcmpp_max ((k.env g.p (inp k g c h w a b) c.y).Vdc * g.p.Vdcbase)) = (k.env g.p (inp k g c h w a b) c.y).Ppv := by
      rw [class_ppv hk, hI]; rfl
    rw [this]
  · rw [if_neg hc]

/-- The features that make an evaluation depend on the past are off: loop mode, no external reactive power reference, no current ramp limiter, no frequency
estimate, no DC ramp. -/
structure Plain (g : SCfg) : Prop where
  sa : g.standAlone = false
  q : g.qExternal = false
  lim : g.limiter = false
  est : g.useEst = false
  ramp : g.restoreVdc = false

/-- The DC reference list is empty, Volt-VAR and the frequency logic are off, the photocurrent fits the weather. -/
structure PlainSt (g : SCfg) (h : Hid) : Prop where
  vv : h.rt.voltVar = false
  lst : h.rt.w.lst = []
  lf : h.rt.lfEnable = false
  iph : h.Iph = PV.iph g.p.mod h.Sinsol h.Tactual

/-- The quantities of an evaluation with the current references of phases b and c those of phase a turned (for every class; the single-phase classes do not use them). -/
noncomputable def phased (e : Env) : Env := { e with ia_ref := e.ia_ref, ib_ref := ub e.ia_ref, ic_ref := uc e.ia_ref }

theorem plain_env (hk : k ∈ classes) (hg : Plain g) (hs : PlainSt g h) (c : Call k) {e : Env} (he : (evalEnv k g c h).2 = .ok e)
    (hc : (evalEnv k g c h).1.rt.connected = true) :
    PlainSt g (evalEnv k g c h).1 ∧ (evalEnv k g c h).1.rt.refs.VdcRef = h.rt.refs.VdcRef ∧
    ∃ v, Events.solarEvents g.sp h.ev c.t = ((evalEnv k g c h).1.ev, .ok v) ∧
      e = phased (k.env g.p (loopInp g c v h.rt.refs.VdcRef) c.y) := by
  obtain ⟨h1, h2, h3, h4, e1, e2, e3, e4, e5⟩ := eval_ok he
  have hh1 : h1 = h := by
    unfold gridStage at e1; rw [hg.sa] at e1; simpa using e1.symm
  subst hh1
  have hh3 : h3 = h2 := by
    unfold loadStage at e3; rw [hg.sa] at e3; simpa using e3.symm
  subst hh3
  obtain ⟨v, v1, v2, v3, _, _, v4⟩ := solar_ok e2
  have hI3 : h3.Iph = PV.iph g.p.mod h3.Sinsol h3.Tactual := v4 (fun _ => hs.iph)
  have a3 : h3.rt = h1.rt := by have := solar_rt (k := k) (g := g) (h := stateStage k c.y h1) c.t; rw [e2] at this; exact this
  -- reactive reference zero
  have hq : (qStage k g c h3).rt.refs.Qref = 0 := by
    show (VoltVar.updateQref h3.rt.voltVar g.qExternal _ _ _ _ _ _).Qref = 0
    rw [a3, hs.vv, hg.q]; rfl
  -- DC reference kept
  obtain ⟨hd1, hd2, hd3, hd4⟩ : h4.rt.refs.VdcRef = h1.rt.refs.VdcRef ∧ h4.rt.refs.Qref = 0 ∧ h4.rt.w.lst = [] ∧ (h4.rt.voltVar = false ∧ h4.rt.lfEnable = false) := by
    unfold dcStage at e4
    split at e4
    · have hl : (wNow (qStage k g c h3)).lst = [] := by show h3.rt.w.lst = []; rw [a3]; exact hs.lst
      have hgr : VdcRef.updateRef (wNow (qStage k g c h3)) c.t =
          (wNow (qStage k g c h3), .ok (wNow (qStage k g c h3)).inst.ref) := by
        unfold VdcRef.updateRef VdcRef.getRef
        rw [hl]
        simp [playback]
        rw [← hl]
      rw [hgr] at e4
      simp only [Prod.mk.injEq, and_true] at e4
      subst e4
      refine ⟨?_, hq, hl, ?_⟩
      · show h3.rt.refs.VdcRef = _; rw [a3]
      · show h3.rt.voltVar = false ∧ h3.rt.lfEnable = false; rw [a3]; exact ⟨hs.vv, hs.lf⟩
    · simp only [Prod.mk.injEq, and_true] at e4
      subst e4
      refine ⟨?_, hq, ?_, ?_⟩
      · show h3.rt.refs.VdcRef = _; rw [a3]
      · show h3.rt.w.lst = _; rw [a3]; exact hs.lst
      · show h3.rt.voltVar = false ∧ h3.rt.lfEnable = false; rw [a3]; exact ⟨hs.vv, hs.lf⟩
  obtain ⟨f1, f2, f3, f4, _, _⟩ := late_frame e4
  have hI4 : h4.Iph = PV.iph g.p.mod h4.Sinsol h4.Tactual := by
    obtain ⟨_, _, rfl⟩ := dc_rt e4; exact hI3
  have hS4 : h4.Sinsol = v.Sinsol ∧ h4.Tactual = v.Tactual := by
    obtain ⟨_, _, rfl⟩ := dc_rt e4; exact ⟨v2, v3⟩
  -- current reference as commanded
  have hir : (irefStage k g c h4).rt.refs.ia =
      ((envP k g c h4 0 h4.rt.refs.VdcRef h4.rt.refs.Qref).ia_ref.re, (envP k g c h4 0 h4.rt.refs.VdcRef h4.rt.refs.Qref).ia_ref.im) := by
    show ((Ramp.updateIref k.fam g.limiter _ _ _ _).refR, (Ramp.updateIref k.fam g.limiter _ _ _ _).refI) = _
    rw [hg.lim]; rfl
  set h5 := freqStage k g c (irefStage k g c h4) with hh5
  have h5e : h5 = { irefStage k g c h4 with fe := { h4.fe with wmeas := c.w } } := by
    rw [hh5]; unfold freqStage; rw [hg.est, hg.sa]; rfl
  have inp4 : ∀ w : ℝ, inp k g c h4 w h4.rt.refs.VdcRef h4.rt.refs.Qref = { loopInp g c v h1.rt.refs.VdcRef with w := w } := by
    intro w
    unfold inp loopInp
    rw [hg.sa, hd1, hd2, hS4.1, hS4.2]; rfl
  have hE : envC k g c h5 = { k.env g.p (loopInp g c v h1.rt.refs.VdcRef) c.y with
      ia_ref := (k.env g.p (loopInp g c v h1.rt.refs.VdcRef) c.y).ia_ref, ib_ref := ub (k.env g.p (loopInp g c v h1.rt.refs.VdcRef) c.y).ia_ref,
      ic_ref := uc (k.env g.p (loopInp g c v h1.rt.refs.VdcRef) c.y).ia_ref } := by
    unfold envC
    dsimp only
    have hp : envP k g c h5 h5.fe.wmeas h5.rt.refs.VdcRef h5.rt.refs.Qref = k.env g.p (loopInp g c v h1.rt.refs.VdcRef) c.y := by
      rw [h5e]
      show envP k g c h4 c.w h4.rt.refs.VdcRef h4.rt.refs.Qref = _
      rw [envP_eq hk c h4 _ _ _ hI4, inp4]
      rfl
    have hz : (⟨h5.rt.refs.ia.1, h5.rt.refs.ia.2⟩ : ℂ) = (k.env g.p (loopInp g c v h1.rt.refs.VdcRef) c.y).ia_ref := by
      rw [h5e]
      show (⟨(irefStage k g c h4).rt.refs.ia.1, (irefStage k g c h4).rt.refs.ia.2⟩ : ℂ) = _
      rw [hir, envP_eq hk c h4 _ _ _ hI4, inp4, class_iref hk]
    rw [hp, hz]
  have he' := he
  rw [e5] at he' hc
  obtain ⟨_, b2, b3, b4⟩ := rt_ok he'
  have h5rt : h5.rt.refs.VdcRef = h1.rt.refs.VdcRef ∧ h5.rt.w.lst = [] ∧ h5.rt.voltVar = false ∧ h5.rt.lfEnable = false := by
    rw [h5e]; exact ⟨hd1, hd3, hd4.1, hd4.2⟩
  obtain ⟨t1, t2, t3⟩ := RT.eval_total g.rt h5.rt ⟨c.t, measVal k g h5 (envC k g c h5), (envC k g c h5).we / (2 * Real.pi), refsOf (envC k g c h5)⟩
    h5rt.2.2.2 hg.ramp
  have hev5 : (evalEnv k g c h1).1 = { h5 with rt := (RT.eval g.rt h5.rt ⟨c.t, measVal k g h5 (envC k g c h5), (envC k g c h5).we / (2 * Real.pi), refsOf (envC k g c h5)⟩).1 } := by
    rw [e5, b3]
  rw [b3] at hc
  have hrefs := RT.eval_connected_refs g.rt h5.rt _ t1 hc
  rw [b3, show ({ h5 with rt := (RT.eval g.rt h5.rt ⟨c.t, measVal k g h5 (envC k g c h5), (envC k g c h5).we / (2 * Real.pi), refsOf (envC k g c h5)⟩).1 } : Hid).rt.connected = true from hc, if_pos rfl, hE] at b4
  refine ⟨⟨?_, ?_, ?_, ?_⟩, ?_, v, ?_, ?_⟩
  · rw [hev5]; exact (RT.eval_voltVar g.rt h5.rt _).1 h5rt.2.2.1
  · rw [hev5]; show (RT.eval g.rt h5.rt _).1.w.lst = []; rw [t2]; exact h5rt.2.1
  · rw [hev5]; exact t3
  · rw [hev5, h5e]; exact hI4
  · rw [hev5]
    show (RT.eval g.rt h5.rt _).1.refs.VdcRef = _
    rw [hrefs, hE]
    exact class_vdcref hk _ _ _
  · rw [hev5]
    show Events.solarEvents g.sp h1.ev c.t = (h5.ev, .ok v)
    rw [f1]; exact v1
  · exact b4

theorem plain_step (hk : k ∈ classes) (hg : Plain g) (hs : PlainSt g h) (c : Call k) {e : Env} (he : (evalEnv k g c h).2 = .ok e)
    (hc : (evalEnv k g c h).1.rt.connected = true) :
    PlainSt g (evalEnv k g c h).1 ∧ (evalEnv k g c h).1.rt.refs.VdcRef = h.rt.refs.VdcRef ∧
    ∃ v, Events.solarEvents g.sp h.ev c.t = ((evalEnv k g c h).1.ev, .ok v) ∧
      deriv k g c h = .ok (k.rhs (k.env g.p (loopInp g c v h.rt.refs.VdcRef) c.y)) := by
  obtain ⟨a, b, v, v1, v2⟩ := plain_env hk hg hs c he hc
  refine ⟨a, b, v, v1, ?_⟩
  unfold deriv
  rw [he, v2]
  simp only [phased, class_rhs hk]

theorem plain_run (hk : k ∈ classes) (hg : Plain g) (hs : PlainSt g h) (l : List (Call k)) (hok : Ok k g h l)
    (hc : ∀ p q, l = p ++ q → (run k g h p).rt.connected = true) :
    PlainSt g (run k g h l) ∧ (run k g h l).rt.refs.VdcRef = h.rt.refs.VdcRef := by
  induction l generalizing h with
  | nil => exact ⟨hs, rfl⟩
  | cons c l ih =>
    obtain ⟨⟨e, he⟩, ho⟩ := hok
    have h1 := plain_step hk hg hs c he (hc [c] l rfl)
    obtain ⟨i1, i2⟩ := ih h1.1 ho (fun p q hpq => hc (c :: p) q (by rw [hpq]; rfl))
    exact ⟨i1, i2.trans h1.2.1⟩

theorem env_history_free (hk : k ∈ classes) (hg : Plain g) (hs : PlainSt g h) (hf : Sees k g f) (hi : RT.IsInit h.rt) (hsol : h.ev.solarEnable = false)
    (p : List (Call k)) (c : Call k) (hok : Ok k g h (p ++ [c]))
    (hV : ∀ c' ∈ p ++ [c], (∀ z ∈ h.rt.lv.zones, z.Vthr * g.Vref ≤ f c') ∧ (∀ z ∈ h.rt.hv.zones, f c' ≤ z.Vthr * g.Vref)) :
    (evalEnv k g c (run k g h p)).2 = .ok (phased (k.env g.p (loopInp g c ⟨g.sp.insolation.dflt, 29815 / 100⟩ h.rt.refs.VdcRef) c.y)) := by
  have hcon : ∀ a b, p ++ [c] = a ++ b → (run k g h a).rt.connected = true := by
    intro a b hab
    have ho : Ok k g h a := by rw [hab] at hok; exact ((ok_append _ _ _).1 hok).1
    exact (C96_healthy_stays_connected hf hi hs.lf a ho (fun x hx => hV x (by rw [hab]; simp [hx]))).1
  have hokp := ((ok_append _ _ _).1 hok).1
  obtain ⟨e, he⟩ := ((ok_append _ _ _).1 hok).2.1
  obtain ⟨s1, s2⟩ := plain_run hk hg hs p hokp (fun a b hab => hcon a (b ++ [c]) (by rw [hab]; simp))
  have hc : (evalEnv k g c (run k g h p)).1.rt.connected = true := by
    have := hcon (p ++ [c]) [] (by simp)
    rw [run_append] at this; exact this
  obtain ⟨_, _, v, v1, v2⟩ := plain_env hk hg s1 c he hc
  have hse : ∀ (l : List (Call k)) (h : Hid), Ok k g h l → h.ev.solarEnable = false → PlainSt g h → (∀ a b, l = a ++ b → (run k g h a).rt.connected = true) →
      (run k g h l).ev.solarEnable = false := by
    intro l
    induction l with
    | nil => intro h _ hh _ _; exact hh
    | cons c' l ih =>
      intro h hok' hh hs' hc'
      obtain ⟨⟨e', he'⟩, ho'⟩ := hok'
      obtain ⟨q1, _, w, w1, _⟩ := plain_step hk hg hs' c' he' (hc' [c'] l rfl)
      have hev : (evalEnv k g c' h).1.ev = h.ev := by
        unfold Events.solarEvents at w1
        rw [hh] at w1
        simp only [Bool.false_eq_true, if_false, Prod.mk.injEq] at w1
        exact w1.1.symm
      exact ih _ ho' (by rw [hev]; exact hh) q1 (fun a b hab => hc' (c' :: a) b (by rw [hab]; rfl))
  have hen := hse p h hokp hsol hs (fun a b hab => hcon a (b ++ [c]) (by rw [hab]; simp))
  have hv : v = ⟨g.sp.insolation.dflt, 29815 / 100⟩ := by
    unfold Events.solarEvents at v1
    rw [hen] at v1
    simp only [Bool.false_eq_true, if_false, Prod.mk.injEq, Except.ok.injEq] at v1
    exact v1.2.symm
  rw [he, v2, hv, s2]

/-- C95: with the features off that depend on the past, an empty DC reference list and solar events disabled, and as long as the voltage the ride-through logic
sees is healthy: whatever `ODE_model` and `jac_ODE_model` calls came before, in any order and at any times, the derivative returned for `(y,t)` is the same
function of the arguments — the right-hand side with the initial DC reference, zero reactive power reference and default weather. -/
theorem C95_derivative_history_free (hk : k ∈ classes) (hg : Plain g) (hs : PlainSt g h) (hf : Sees k g f) (hi : RT.IsInit h.rt) (hsol : h.ev.solarEnable = false)
    (p : List (Call k)) (c : Call k) (hok : Ok k g h (p ++ [c]))
    (hV : ∀ c' ∈ p ++ [c], (∀ z ∈ h.rt.lv.zones, z.Vthr * g.Vref ≤ f c') ∧ (∀ z ∈ h.rt.hv.zones, f c' ≤ z.Vthr * g.Vref)) :
    deriv k g c (run k g h p) = .ok (k.rhs (k.env g.p (loopInp g c ⟨g.sp.insolation.dflt, 29815 / 100⟩ h.rt.refs.VdcRef) c.y)) := by
  have := env_history_free hk hg hs hf hi hsol p c hok hV
  unfold deriv
  rw [this]
  simp only [phased, class_rhs hk]

/-- C95: the same with solar events: along forward calls that do not jump over more than one insolation event, the derivative is the right-hand side with the
weather scheduled for the time of the call. -/
theorem C95_derivative_with_schedule (hk : k ∈ classes) (hg : Plain g) (hs : PlainSt g h) (hf : Sees k g f) (hi : RT.IsInit h.rt)
    {cc : Events.Cfg ℝ} {s : Events.St ℝ} (hr : Events.Reachable cc s) (hen : s.solarEnable = true) (hev : h.ev = Events.resetCounters s)
    (p : List (Call k)) (c : Call k) (hok : Ok k g h (p ++ [c])) (hd : Dense s.solar none ((p ++ [c]).map Call.t))
    (hV : ∀ c' ∈ p ++ [c], (∀ z ∈ h.rt.lv.zones, z.Vthr * g.Vref ≤ f c') ∧ (∀ z ∈ h.rt.hv.zones, f c' ≤ z.Vthr * g.Vref)) :
    ∃ v, Correct s.solar ⟨g.sp.insolation.dflt, 29815 / 100⟩ c.t v ∧
      deriv k g c (run k g h p) = .ok (k.rhs (k.env g.p (loopInp g c v h.rt.refs.VdcRef) c.y)) := by
  have hcon : ∀ a b, p ++ [c] = a ++ b → (run k g h a).rt.connected = true := by
    intro a b hab
    have ho : Ok k g h a := by rw [hab] at hok; exact ((ok_append _ _ _).1 hok).1
    exact (C96_healthy_stays_connected hf hi hs.lf a ho (fun x hx => hV x (by rw [hab]; simp [hx]))).1
  have hokp := ((ok_append _ _ _).1 hok).1
  obtain ⟨s1, s2⟩ := plain_run hk hg hs p hokp (fun a b hab => hcon a (b ++ [c]) (by rw [hab]; simp))
  have hc : (evalEnv k g c (run k g h p)).1.rt.connected = true := by
    have := hcon (p ++ [c]) [] (by simp)
    rw [run_append] at this; exact this
  obtain ⟨v, e, c1, c2, c3, c4, _⟩ := C93_pv_power_follows_schedule hk hr hen hev hs.iph p c [] hok hd
  obtain ⟨_, _, v', v1, v2⟩ := plain_step hk hg s1 c c2 hc
  refine ⟨v, c1, ?_⟩
  have : v' = v := by
    have h1 : ∃ w, Events.solarEvents g.sp (run k g h p).ev c.t = ((evalEnv k g c (run k g h p)).1.ev, .ok w) ∧
        (evalEnv k g c (run k g h p)).1.Sinsol = w.Sinsol ∧ (evalEnv k g c (run k g h p)).1.Tactual = w.Tactual := by
      obtain ⟨h1, h2, h3, h4, e1, e2, e3, e4, e5⟩ := eval_ok c2
      have hh1 : h1 = run k g h p := by unfold gridStage at e1; rw [hg.sa] at e1; simpa using e1.symm
      subst hh1
      have hh3 : h3 = h2 := by unfold loadStage at e3; rw [hg.sa] at e3; simpa using e3.symm
      subst hh3
      obtain ⟨w, w1, w2, w3, _⟩ := solar_ok e2
      obtain ⟨f1, f2, f3, _⟩ := late_frame e4
      have he' := c2
      rw [e5] at he'
      obtain ⟨_, _, b3, _⟩ := rt_ok he'
      refine ⟨w, ?_, ?_, ?_⟩
      · rw [e5, b3]
        show Events.solarEvents g.sp (run k g h p).ev c.t = ((freqStage k g c (irefStage k g c h4)).ev, .ok w)
        rw [f1]; exact w1
      · rw [e5, b3]; exact f2.trans w2
      · rw [e5, b3]; exact f3.trans w3
    obtain ⟨w, w1, w2, w3⟩ := h1
    rw [v1] at w1
    simp only [Prod.mk.injEq, Except.ok.injEq, true_and] at w1
    rw [run_append] at c3 c4
    have e1 : v.Sinsol = w.Sinsol := c3.symm.trans w2
    have e2 : v.Tactual = w.Tactual := c4.symm.trans w3
    rw [w1]
    cases v; cases w
    simp only at e1 e2
    rw [e1, e2]
  rw [v2, this, s2]

/-- A state vector for the examples: all zero except the DC voltage and the state of the DC controller. -/
noncomputable def exY : ThreePhase.V → ℝ := fun v => match v with | .Vdc => 11 / 10 | .xDC => 1 | _ => 0

/-- Hypotheses of C95 can be met (all classes; any calls with a phase voltage of 0.471 p.u., i.e. 1/3 p.u. RMS). -/
theorem C95_example (l : List (Call three)) (hl : ∀ c ∈ l, urmsMin c.va c.vb c.vc = 1 / 3) :
    let g := exG exPar false
    let h := { exH g (Events.init false false false) with ev := Events.init false false false }
    Plain g ∧ PlainSt g h ∧ Sees three g (fun c => urmsMin c.va c.vb c.vc) ∧ RT.IsInit h.rt ∧ h.ev.solarEnable = false ∧ Ok three g h l ∧
      ∀ c ∈ l, (∀ z ∈ h.rt.lv.zones, z.Vthr * g.Vref ≤ urmsMin c.va c.vb c.vc) ∧ (∀ z ∈ h.rt.hv.zones, urmsMin c.va c.vb c.vc ≤ z.Vthr * g.Vref) := by
  intro g h
  refine ⟨⟨rfl, rfl, rfl, rfl, rfl⟩, ⟨rfl, rfl, rfl, rfl⟩, C96_sees_minimum (by simp [unbalancedClasses]) rfl rfl, exRT_init, rfl, ?_, ?_⟩
  · have hG := ex_good three exPar false (Or.inl rfl) [] (by simp)
    refine C99_no_exception (k := three) (g := g) (h := h) ⟨hG.override, hG.msg, ?_, hG.dc, hG.lf, hG.ramp, hG.meas, hG.filt⟩ _
    exact C99_events_good (cc := g.evc) (sp := g.sp) false false false [] (by simp)
  · intro c hc
    rw [hl c hc]
    constructor <;> intro z hz <;> simp [h, exH, exRT, g, exG] at hz ⊢ <;> subst hz <;> norm_num

/-- Derivative of a control state of the disconnected three-phase DER in this state. -/
theorem disconnected_uaR (c : Call three) (hy : c.y = exY) {e : Env} (he : (evalEnv three g c h).2 = .ok e) (hd : (evalEnv three g c h).1.rt.connected = false) :
    three.rhs e .uaR = 0 := by
  obtain ⟨h5, _, _, h2, _⟩ := eval_rt he
  rw [h2] at he hd
  obtain ⟨_, _, _, h6⟩ := rt_ok he
  rw [hd] at h6
  obtain ⟨j, y, t, va, vb, vc, w⟩ := c
  subst hy
  have a1 : e.ia = 0 := by rw [h6]; rfl
  have a2 : e.ua = 0 := by rw [h6]; rfl
  have a3 : e.ia_ref = 0 := by rw [h6]; rfl
  show ThreePhase.rhs e .uaR = 0
  simp only [ThreePhase.rhs, a1, a2, a3]
  simp

theorem connected_uaR (i : Ode.Inp) (hi : i.Vdc_ref = 11 / 10) : three.rhs (three.env exPar i exY) .uaR = 20 := by
  show ThreePhase.rhs (envT exPar i exY) .uaR = 20
  have hz : (Complex.mk 0 0) = 0 := rfl
  simp [ThreePhase.rhs, envT, env3, exY, Env.base, irefOf, exPar, sCalc, hi, hz]

theorem healthy_half : (353 / 1000 : ℝ) ≤ urmsMin (1 / 2 : ℂ) (ub (1 / 2)) (uc (1 / 2)) ∧ urmsMin (1 / 2 : ℂ) (ub (1 / 2)) (uc (1 / 2)) ≤ (354 / 1000 : ℝ) := by
  rw [(C50_balanced _).2]
  have h2 : (0:ℝ) < Real.sqrt 2 := by positivity
  have h3 := Real.sq_sqrt (show (0:ℝ) ≤ 2 by norm_num)
  have hn : urms1 (1 / 2 : ℂ) = 1 / 2 / Real.sqrt 2 := by unfold urms1; norm_num
  rw [hn]
  constructor
  · rw [le_div_iff₀ h2]; nlinarith
  · rw [div_le_iff₀ h2]; nlinarith

/-- The general form: a history after which the call finds (or leaves) the DER disconnected, while the call alone leaves it connected. -/
theorem history_matters (hg : Plain g) (hs : PlainSt g h) (hp : g.p = exPar) (hr : h.rt.refs.VdcRef = 11 / 10) (p : List (Call three)) (c : Call three) (hy : c.y = exY)
    {e e0 : Env} (he : (evalEnv three g c (run three g h p)).2 = .ok e) (hd : (run three g h (p ++ [c])).rt.connected = false)
    (he0 : (evalEnv three g c h).2 = .ok e0) (hcon : (run three g h [c]).rt.connected = true) :
    deriv three g c (run three g h p) ≠ deriv three g c h := by
  rw [run_append] at hd
  have hu1 := disconnected_uaR c hy he hd
  obtain ⟨_, _, v, _, v2⟩ := plain_step (k := three) (by simp [classes]) hg hs c he0 hcon
  intro heq
  rw [v2] at heq
  unfold deriv at heq
  rw [he] at heq
  simp only [Except.ok.injEq] at heq
  have h9 := congrFun heq .uaR
  rw [hu1, hp, hy, connected_uaR _ hr] at h9
  norm_num at h9

/-- The calls of C96's example: nominal voltage, an undervoltage of 6 s, nominal voltage again. -/
noncomputable def exCall (t : ℝ) (v : ℂ) : Call three := ⟨false, exY, t, v, ub v, uc v, 377⟩

theorem exHealthy (t : ℝ) : ∀ c' ∈ [exCall t (1 / 2)], (∀ z ∈ exRT.lv.zones, z.Vthr * (exG exPar false).Vref ≤ urmsMin c'.va c'.vb c'.vc) ∧
    (∀ z ∈ exRT.hv.zones, urmsMin c'.va c'.vb c'.vc ≤ z.Vthr * (exG exPar false).Vref) := by
  intro c' hc'
  simp only [List.mem_singleton] at hc'
  rw [hc']
  obtain ⟨u1, u2⟩ := healthy_half
  constructor <;> intro z hz <;> simp only [exRT, List.mem_singleton] at hz <;> subst hz <;> simp only [exG, exCall] <;> linarith

/-- C95: the restriction to healthy voltages is needed. Same configuration, same argument of the last call: after an undervoltage that trips the DER the
derivative differs from the one without that history. -/
theorem C95_history_matters_after_trip :
    ∃ (g : SCfg) (h : Hid) (p : List (Call three)) (c : Call three), Plain g ∧ PlainSt g h ∧ RT.IsInit h.rt ∧ Ok three g h (p ++ [c]) ∧
      deriv three g c (run three g h p) ≠ deriv three g c h := by
  obtain ⟨x1, x2, x3, x4, x5, x6, x7⟩ := C96_example exY
  have hG := ex_good three exPar false (Or.inl rfl) exOps (by
    intro o ho
    simp only [exOps, List.mem_cons, List.not_mem_nil, or_false] at ho
    rcases ho with rfl | rfl | rfl <;> rfl)
  have hs : PlainSt (exG exPar false) (exH (exG exPar false) (exEv (exG exPar false))) := ⟨rfl, rfl, rfl, rfl⟩
  have hg : Plain (exG exPar false) := ⟨rfl, rfl, rfl, rfl, rfl⟩
  have hr : (exH (exG exPar false) (exEv (exG exPar false))).rt.refs.VdcRef = 11 / 10 := rfl
  have hp : (exG exPar false).p = exPar := rfl
  have hh := exHealthy 10
  have hrt : (exH (exG exPar false) (exEv (exG exPar false))).rt = exRT := rfl
  have hdd : 0 < (exG exPar false).discDelay := by norm_num [exG]
  rw [← hrt] at hh
  have hG' : Good three (exG exPar false) (exH (exG exPar false) (exEv (exG exPar false))) := hG
  generalize exH (exG exPar false) (exEv (exG exPar false)) = h at *
  generalize exG exPar false = g at *
  let l := [exCall (3 / 4) (1 / 2), exCall 1 (1 / 5), exCall 3 (1 / 5), exCall 7 (1 / 5)]
  obtain ⟨hd, e, he, _⟩ := C96_trip_cuts_output (k := three) (g := g) (h := h) x1 x2 x3 hdd l [exCall 9 (1 / 2)] (exCall 8 (1 / 2)) (exCall 9 (1 / 2)) (exCall 10 (1 / 2)) x5
    (Or.inl ⟨x4, x6⟩) (by intro x hx; simp only [l, List.mem_cons, List.not_mem_nil, or_false] at hx; rcases hx with rfl | rfl | rfl | rfl <;> norm_num [exCall])
    (by norm_num [exCall]) (by simp) x7
  obtain ⟨e0, he0⟩ := (good_step (k := three) hG' (exCall 10 (1 / 2))).1
  have hcon0 := (C96_healthy_stays_connected (k := three) (g := g) (h := h) x1 x2 x3 [exCall 10 (1 / 2)] ⟨⟨e0, he0⟩, trivial⟩ hh).1
  exact ⟨g, h, l ++ exCall 8 (1 / 2) :: [exCall 9 (1 / 2)], exCall 10 (1 / 2), hg, hs, x2, x5, history_matters hg hs hp hr _ _ rfl he hd he0 hcon0⟩

end Eval
end PvDer
