import Verif.Props.SessionTotal

/-!
# Property C106: reported voltages and PLL quantities are those of the model
-/

namespace PvDer
namespace Session
open Complex Phasor Ode Eval

variable {k : Cls} {g : SCfg} {h : Hid} {c : Cfg k} {s : Sess k}

/-- Voltages and PLL quantities of the attributes, as functions of the class. -/
theorem class_volt (hk : k ∈ classes) (hb : k ≠ balanced) (p : Par) (i : Ode.Inp) (y : k.V → ℝ) :
    (k.env p i y).va = i.va ∧ (k.env p i y).vb = i.vb ∧ (k.env p i y).vc = i.vc ∧
      (k.env p i y).vd = (match k.fam with | .singlePhase => (pll1 i.va i.w i.t (k.pllSt y).1).1 | .threePhase => (pll3 i.va i.vb i.vc i.w i.t (k.pllSt y).1).1) ∧
      (k.env p i y).we = weCalc p.Kp_PLL (k.env p i y).vd (k.pllSt y).2 := by
  simp only [classes, List.mem_cons, List.not_mem_nil, or_false] at hk
  rcases hk with rfl | rfl | rfl | rfl | rfl | rfl | rfl
  all_goals first
    | exact ⟨rfl, rfl, rfl, rfl, rfl⟩
    | exact absurd rfl hb

theorem balanced_volt (p : Par) (i : Ode.Inp) (y : balanced.V → ℝ) :
    (balanced.env p i y).va = i.va ∧ (balanced.env p i y).vb = ub i.va ∧ (balanced.env p i y).vc = uc i.va ∧
      (balanced.env p i y).vd = (pll3 i.va (ub i.va) (uc i.va) i.w i.t (balanced.pllSt y).1).1 ∧
      (balanced.env p i y).we = weCalc p.Kp_PLL (balanced.env p i y).vd (balanced.pllSt y).2 := ⟨rfl, rfl, rfl, rfl, rfl⟩

/-- The attributes an evaluation ends with, up to what disconnection and the rate limiter overwrite. -/
theorem eval_env (cl : Call k) {e : Env} (he : (evalEnv k g cl h).2 = .ok e) :
    ∃ Vr Qr, let e0 := k.env g.p (inp k g cl (evalEnv k g cl h).1 (evalEnv k g cl h).1.fe.wmeas Vr Qr) cl.y
      e.va = e0.va ∧ e.vb = e0.vb ∧ e.vc = e0.vc ∧ e.vd = e0.vd ∧ e.we = e0.we := by
  obtain ⟨h1, h2, h3, h4, e1, e2, e3, e4, e5⟩ := eval_ok he
  have he' := he
  rw [e5] at he'
  obtain ⟨_, _, b3, b4⟩ := rt_ok he'
  rw [e5, b3]
  generalize freqStage k g cl (irefStage k g cl h4) = h5 at *
  refine ⟨h5.rt.refs.VdcRef, h5.rt.refs.Qref, ?_⟩
  dsimp only
  have key : ∀ e' : Env, e' = envC k g cl h5 ∨ e' = disc (envC k g cl h5) →
      e'.va = (envP k g cl h5 h5.fe.wmeas h5.rt.refs.VdcRef h5.rt.refs.Qref).va ∧ e'.vb = (envP k g cl h5 h5.fe.wmeas h5.rt.refs.VdcRef h5.rt.refs.Qref).vb ∧
      e'.vc = (envP k g cl h5 h5.fe.wmeas h5.rt.refs.VdcRef h5.rt.refs.Qref).vc ∧ e'.vd = (envP k g cl h5 h5.fe.wmeas h5.rt.refs.VdcRef h5.rt.refs.Qref).vd ∧
      e'.we = (envP k g cl h5 h5.fe.wmeas h5.rt.refs.VdcRef h5.rt.refs.Qref).we := by
    rintro e' (rfl | rfl) <;> exact ⟨rfl, rfl, rfl, rfl, rfl⟩
  have hk := key e (by rw [b4]; split <;> simp)
  have hp : ∀ w V Q, (envP k g cl h5 w V Q).va = (k.env g.p (inp k g cl h5 w V Q) cl.y).va ∧ (envP k g cl h5 w V Q).vb = (k.env g.p (inp k g cl h5 w V Q) cl.y).vb ∧
      (envP k g cl h5 w V Q).vc = (k.env g.p (inp k g cl h5 w V Q) cl.y).vc ∧ (envP k g cl h5 w V Q).vd = (k.env g.p (inp k g cl h5 w V Q) cl.y).vd ∧
      (envP k g cl h5 w V Q).we = (k.env g.p (inp k g cl h5 w V Q) cl.y).we := by
    intro w V Q
    unfold envP
    dsimp only
    split <;> exact ⟨rfl, rfl, rfl, rfl, rfl⟩
  obtain ⟨a1, a2, a3, a4, a5⟩ := hp h5.fe.wmeas h5.rt.refs.VdcRef h5.rt.refs.Qref
  exact ⟨hk.1.trans a1, hk.2.1.trans a2, hk.2.2.1.trans a3, hk.2.2.2.1.trans a4, hk.2.2.2.2.trans a5⟩

/-- C106: what the tool reports for a time and a state row — terminal voltages at the point of common coupling, `vd` and `we` of the PLL — from given source
voltages, load and frequency is what the model itself computes when it is evaluated at that time and state with these values.  Stand-alone mode, all classes except
the balanced one (phases b and c for the three-phase classes). -/
theorem C106_reported_voltages_agree (hk : k ∈ classes) (hb : k ≠ balanced) (hsa : g.standAlone = true) (cl : Call k) {e : Env} (he : (evalEnv k g cl h).2 = .ok e) :
    let h' := (evalEnv k g cl h).1
    let pcc := pccPoint k g (h'.grid.va, h'.grid.vb, h'.grid.vc) h'.Zload1 cl.y
    let pll := pllPoint k g pcc.1 pcc.2.1 pcc.2.2 h'.fe.wmeas cl.t cl.y
    pcc = (e.va, e.vb, e.vc) ∧ pll.1 = e.vd ∧ pll.2.2 = e.we := by
  intro h' pcc pll
  obtain ⟨Vr, Qr, a1, a2, a3, a4, a5⟩ := eval_env cl he
  obtain ⟨b1, b2, b3, b4, b5⟩ := class_volt hk hb g.p (inp k g cl h' h'.fe.wmeas Vr Qr) cl.y
  have hpcc : pcc = (e.va, e.vb, e.vc) := by
    rw [a1, a2, a3]
    show _ = ((k.env g.p (inp k g cl h' h'.fe.wmeas Vr Qr) cl.y).va, (k.env g.p (inp k g cl h' h'.fe.wmeas Vr Qr) cl.y).vb, (k.env g.p (inp k g cl h' h'.fe.wmeas Vr Qr) cl.y).vc)
    rw [b1, b2, b3]
    unfold inp Circuit.vaCalc
    simp only [hsa, if_true]
    rfl
  have hpll : pll.1 = e.vd := by
    show (pllPoint k g pcc.1 pcc.2.1 pcc.2.2 h'.fe.wmeas cl.t cl.y).1 = _
    rw [hpcc, a4, b4]
    dsimp only
    rw [a1, a2, a3]
    show (pllPoint k g (k.env g.p (inp k g cl h' h'.fe.wmeas Vr Qr) cl.y).va (k.env g.p (inp k g cl h' h'.fe.wmeas Vr Qr) cl.y).vb (k.env g.p (inp k g cl h' h'.fe.wmeas Vr Qr) cl.y).vc
      h'.fe.wmeas cl.t cl.y).1 = _
    rw [b1, b2, b3]
    unfold pllPoint
    cases k.fam <;> rfl
  refine ⟨hpcc, hpll, ?_⟩
  rw [a5]
  refine Eq.trans ?_ b5.symm
  rw [← a4, ← hpll]
  rfl

/-- The reported frequency input is the model's own if the frequency is not estimated: it is the source frequency. -/
theorem C106_frequency_input (hsa : g.standAlone = true) (hest : g.useEst = false) (cl : Call k) {e : Env} (he : (evalEnv k g cl h).2 = .ok e) :
    (evalEnv k g cl h).1.fe.wmeas = (evalEnv k g cl h).1.grid.w := by
  obtain ⟨h1, h2, h3, h4, e1, e2, e3, e4, e5⟩ := eval_ok he
  have he' := he
  rw [e5] at he'
  obtain ⟨_, _, b3, _⟩ := rt_ok he'
  rw [e5, b3]
  show (freqStage k g cl (irefStage k g cl h4)).fe.wmeas = (freqStage k g cl (irefStage k g cl h4)).grid.w
  unfold freqStage
  rw [if_neg (by simp [hest])]
  simp [hsa]

/-- C106 is false of the balanced class on an unbalanced source: reported and computed voltage of phase b differ by the deviation of the source from balance,
divided by the transformer ratio and multiplied by the load factor. -/
theorem C106_balanced_class_differs (hsa : g.standAlone = true) {h : Hid} (cl : Call balanced) {e : Env} (he : (evalEnv balanced g cl h).2 = .ok e) :
    let h' := (evalEnv balanced g cl h).1
    (pccPoint balanced g (h'.grid.va, h'.grid.vb, h'.grid.vc) h'.Zload1 cl.y).1 = e.va ∧
    (pccPoint balanced g (h'.grid.va, h'.grid.vb, h'.grid.vc) h'.Zload1 cl.y).2.1 - e.vb =
      (h'.grid.vb - ub h'.grid.va) / g.a * ((h'.Zload1 * g.a * g.a) / ((g.a * g.a * (g.Z1 + h'.Zload1)) + g.Z2)) ∧
    (pccPoint balanced g (h'.grid.va, h'.grid.vb, h'.grid.vc) h'.Zload1 cl.y).2.2 - e.vc =
      (h'.grid.vc - uc h'.grid.va) / g.a * ((h'.Zload1 * g.a * g.a) / ((g.a * g.a * (g.Z1 + h'.Zload1)) + g.Z2)) := by
  intro h'
  obtain ⟨Vr, Qr, a1, a2, a3, _, _⟩ := eval_env cl he
  obtain ⟨b1, b2, b3, _, _⟩ := balanced_volt g.p (inp balanced g cl h' h'.fe.wmeas Vr Qr) cl.y
  have c1 := a1.trans b1
  have c2 := a2.trans b2
  have c3 := a3.trans b3
  rw [c1, c2, c3]
  have hv : (inp balanced g cl h' h'.fe.wmeas Vr Qr).va = Circuit.vStandAlone h'.grid.va (balanced.cur cl.y).1 g.a g.Z1 g.Z2 h'.Zload1 := by
    unfold inp Circuit.vaCalc; simp only [hsa, if_true]
  have i2 : (balanced.cur cl.y).2.1 = ub (balanced.cur cl.y).1 := rfl
  have i3 : (balanced.cur cl.y).2.2 = uc (balanced.cur cl.y).1 := rfl
  rw [hv]
  unfold pccPoint Circuit.vStandAlone
  rw [i2, i3]
  generalize (balanced.cur cl.y).1 = i
  refine ⟨rfl, ?_, ?_⟩
  · unfold ub; ring
  · unfold uc; ring

theorem class_vdc (hk : k ∈ classes) (p : Par) (i : Ode.Inp) (y : k.V → ℝ) : (k.env p i y).Vdc = k.vdc y i.Vdc0 := by
  simp only [classes, List.mem_cons, List.not_mem_nil, or_false] at hk
  rcases hk with rfl | rfl | rfl | rfl | rfl | rfl | rfl <;> rfl

/-- C106: PV power is reported as if the DER were connected; the model uses none while it is disconnected. -/
theorem C106_reported_pv_power (hk : k ∈ classes) (cl : Call k) {e : Env} (he : (evalEnv k g cl h).2 = .ok e) (hI : SunOk g h) :
    let h' := (evalEnv k g cl h).1
    let p := PV.ppv g.p.mod h'.Sinsol h'.Tactual (min g.p.Vdcmpp_max (k.vdc cl.y g.Vdc0 * g.p.Vdcbase))
    (h'.rt.connected = true → e.Ppv = p) ∧ (h'.rt.connected = false → e.Ppv = 0) := by
  intro h' p
  obtain ⟨h1, h2, h3, h4, e1, e2, e3, e4, e5⟩ := eval_ok he
  have he' := he
  rw [e5] at he'
  have hs := eval_sun cl he hI
  obtain ⟨_, _, b3, b4⟩ := rt_ok he'
  rw [e5, b3] at hs
  refine ⟨fun hc => ?_, fun hc => ?_⟩
  · have hc' : (rtStage k g cl (freqStage k g cl (irefStage k g cl h4))).1.rt.connected = true := by rw [← e5]; exact hc
    rw [hc'] at b4
    have := envC_ppv (g := g) hk cl (freqStage k g cl (irefStage k g cl h4)) hs
    simp only [if_true] at b4
    rw [b4, this]
    have hh : h' = { freqStage k g cl (irefStage k g cl h4) with rt := (rtStage k g cl (freqStage k g cl (irefStage k g cl h4))).1.rt } := by
      show (evalEnv k g cl h).1 = _
      rw [e5, b3]
    have hv : (envC k g cl (freqStage k g cl (irefStage k g cl h4))).Vdc = k.vdc cl.y g.Vdc0 := by
      unfold envC envP
      dsimp only
      split <;> exact class_vdc hk _ _ _
    show _ = PV.ppv g.p.mod h'.Sinsol h'.Tactual (min g.p.Vdcmpp_max (k.vdc cl.y g.Vdc0 * g.p.Vdcbase))
    rw [hv, hh]
  · obtain ⟨e0, he0⟩ := eval_disconnected he hc
    rw [he0]; rfl

/-- C106, loop mode (no grid model): the reported voltages of the three phases at every sample are the terminal voltages the co-simulation passed in, which are also
the ones the model uses when it is evaluated (all classes except the balanced one); and source voltages, load and PLL series are empty. -/
theorem C106_external_voltages_reported (hsa : c.g.standAlone = false) (ts : List ℝ) (rows : List (k.V → ℝ)) (hok : (collectSeries c ts rows s).2 = .ok ()) :
    ∃ rep, (collectSeries c ts rows s).1.rep = some rep ∧
      rep.va = List.replicate ts.length c.x.va ∧ rep.vb = List.replicate ts.length c.x.vb ∧ rep.vc = List.replicate ts.length c.x.vc ∧
      rep.vag = [] ∧ rep.vbg = [] ∧ rep.vcg = [] ∧ rep.wgrid = [] ∧ rep.zload = [] ∧ rep.vd = [] ∧ rep.vq = [] ∧ rep.we = [] ∧
      ∀ (_ : k ∈ classes) (_ : k ≠ balanced) (j : Bool) (y : k.V → ℝ) (t : ℝ) (h : Hid) (e : Env), (evalEnv k c.g (mkCall c.x j y t) h).2 = .ok e →
        e.va = c.x.va ∧ e.vb = c.x.vb ∧ e.vc = c.x.vc := by
  unfold collectSeries at hok ⊢
  simp only [hsa, Bool.false_eq_true, if_false] at hok ⊢
  rcases hq : queryAll (Events.solarEvents c.g.sp) s.h.ev ts with ⟨ev, r⟩
  rw [hq] at hok
  cases r with
  | error e => simp at hok
  | ok sv =>
    refine ⟨_, rfl, ?_, ?_, ?_, rfl, rfl, rfl, rfl, rfl, rfl, rfl, rfl, ?_⟩
    · exact List.map_const'
    · exact List.map_const'
    · exact List.map_const'
    intro hk hb j y t h e he
    obtain ⟨Vr, Qr, a1, a2, a3, _⟩ := eval_env (mkCall c.x j y t) he
    obtain ⟨b1, b2, b3, _⟩ := class_volt hk hb c.g.p (inp k c.g (mkCall c.x j y t) (evalEnv k c.g (mkCall c.x j y t) h).1
      (evalEnv k c.g (mkCall c.x j y t) h).1.fe.wmeas Vr Qr) y
    have c1 := a1.trans b1
    have c2 := a2.trans b2
    have c3 := a3.trans b3
    rw [c1, c2, c3]
    unfold inp Circuit.vaCalc
    simp only [hsa, Bool.false_eq_true, if_false]
    exact ⟨rfl, rfl, rfl⟩

/-- C106: after a run with a grid model has been collected, the grid object holds the source voltages and the frequency of the last sample of the report. -/
theorem C106_grid_left_at_last_sample (hsa : c.g.standAlone = true) (ts : List ℝ) (rows : List (k.V → ℝ)) (hok : (collectSeries c ts rows s).2 = .ok ()) (hts : ts ≠ []) :
    ∃ rep, (collectSeries c ts rows s).1.rep = some rep ∧ rep.vag.getLast? = some (collectSeries c ts rows s).1.h.grid.va ∧
      rep.vbg.getLast? = some (collectSeries c ts rows s).1.h.grid.vb ∧ rep.vcg.getLast? = some (collectSeries c ts rows s).1.h.grid.vc ∧
      rep.wgrid.getLast? = some (collectSeries c ts rows s).1.h.grid.w := by
  unfold collectSeries at hok ⊢
  simp only [hsa, if_true] at hok ⊢
  rcases hq : queryAll (Events.gridEvents c.g.evc c.g.sp) s.h.ev ts with ⟨ev, r⟩
  rw [hq] at hok
  cases r with
  | error e => simp at hok
  | ok gv =>
    dsimp only at hok ⊢
    have hne : gv ≠ [] := by
      intro h0
      rw [h0] at hq
      cases ts with
      | nil => exact hts rfl
      | cons t ts =>
        unfold queryAll at hq
        revert hq
        split
        · simp
        · split <;> simp
    obtain ⟨v, hv⟩ : ∃ v, gv.getLast? = some v := by
      cases hg : gv.getLast? with
      | none => exact absurd (List.getLast?_eq_none_iff.1 hg) hne
      | some v => exact ⟨v, rfl⟩
    rcases hq2 : queryAll Events.loadEvents (resetUnless c.loop ev) ts with ⟨ev2, r2⟩
    rw [hq2] at hok
    cases r2 with
    | error e => simp at hok
    | ok lv =>
      dsimp only at hok ⊢
      rcases hq3 : queryAll (Events.solarEvents c.g.sp) (resetUnless c.loop ev2) ts with ⟨ev3, r3⟩
      rw [hq3] at hok
      cases r3 with
      | error e => simp at hok
      | ok sv =>
        refine ⟨_, rfl, ?_, ?_, ?_, ?_⟩ <;> dsimp only <;> simp only [List.getLast?_map, hv, Option.map_some] <;> rfl

/-- The hypotheses of C106 are met by an evaluation in stand-alone mode. -/
theorem C106_example (y : three.V → ℝ) (t : ℝ) : three ∈ classes ∧ three ≠ balanced ∧ (exC true).g.standAlone = true ∧
    (∃ e, (evalEnv three (exC true).g (mkCall (exC true).x false y t) (exS true y).h).2 = .ok e) ∧ SunOk (exC true).g (exS true y).h := by
  refine ⟨by simp [classes], ?_, rfl, (good_step (exS_good true y) _).1, rfl⟩
  intro h
  have := congrArg Cls.minPhases h
  simp [three, balanced] at this

end Session
end PvDer
