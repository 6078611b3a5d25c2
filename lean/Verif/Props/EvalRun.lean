import Verif.Lemmas.Eval
import Verif.Props.Events
import Verif.Props.VdcRef

/-!
# Property C99: evaluations do not raise
-/

set_option linter.unusedSectionVars false

namespace PvDer

namespace RT
variable {K W : Type} [Field K] [LinearOrder K] [IsStrictOrderedRing K]

/-- Without the frequency logic and without the DC ramp the ride-through code raises nothing and leaves the DC reference list alone. -/
theorem eval_total (c : Cfg K W) (s : St K W) (i : Inp K) (hl : s.lfEnable = false) (hr : c.restoreVdc = false) :
    (eval c s i).2 = .ok () ∧ (eval c s i).1.w = s.w ∧ (eval c s i).1.lfEnable = false := by
  have hu : (updateFlags c i.t i.V i.f { s with refs := i.refs }).2 = .ok () ∧ (updateFlags c i.t i.V i.f { s with refs := i.refs }).1.w = s.w ∧
      (updateFlags c i.t i.V i.f { s with refs := i.refs }).1.lfEnable = false := by
    by_cases h : i.t > s.rtLock
    · rw [updateFlags_eq c i.t i.V i.f { s with refs := i.refs } h]
      simp only [hl]
      exact ⟨rfl, rfl, rfl⟩
    · rw [updateFlags_lock c i.t i.V i.f { s with refs := i.refs } (not_lt.1 h)]
      exact ⟨rfl, rfl, hl⟩
  have hd : ∀ s : St K W, (disconnectOrReconnect c i.t s).2 = .ok () ∧ (disconnectOrReconnect c i.t s).1.w = s.w := by
    intro s
    have hin : (inner c i.t s).2 = .ok () ∧ (inner c i.t s).1.w = s.w := by
      unfold inner disconnectLogic reconnectLogic
      simp only [hr]
      by_cases hc : s.connected = true <;> simp only [hc] <;> split_ifs <;> simp_all
    rw [connect_eq, hin.1]
    dsimp only
    split_ifs
    · exact ⟨rfl, hin.2⟩
    · exact ⟨rfl, hin.2⟩
  have he : eval c s i = disconnectOrReconnect c i.t (updateFlags c i.t i.V i.f { s with refs := i.refs }).1 := by
    unfold eval
    dsimp only
    rw [hu.1]
  have hk := (dor_keeps c i.t (updateFlags c i.t i.V i.f { s with refs := i.refs }).1).2.2.2.2.2.1
  rw [he, hk]
  exact ⟨(hd _).1, (hd _).2.trans hu.2.1, hu.2.2⟩

end RT

namespace Eval
open Complex Phasor Ode

variable {k : Cls} {g : SCfg} {c : Call k} {h : Hid} {e : Env}

/-- Event object in a state where no query can raise. -/
structure EvGood (sp : Events.EvSpec ℝ) (ev : Events.St ℝ) : Prop where
  inv : Events.Inv ev
  lim : Events.Limits sp ev
  tight : Events.Tight ev

theorem evGood_query {cc : Events.Cfg ℝ} {sp : Events.EvSpec ℝ} {ev : Events.St ℝ} (h : EvGood sp ev) (t : ℝ) :
    EvGood sp (Events.gridEvents cc sp ev t).1 ∧ EvGood sp (Events.solarEvents sp ev t).1 ∧ EvGood sp (Events.loadEvents ev t).1 :=
  ⟨⟨Events.inv_step (c := cc) (sp := sp) h.inv (.queryGrid t), Events.limits_step (c := cc) h.inv h.lim (.queryGrid t),
      Events.tight_step (c := cc) (sp := sp) h.inv h.tight (.queryGrid t) rfl⟩,
    ⟨Events.inv_step (c := cc) (sp := sp) h.inv (.querySolar t), Events.limits_step (c := cc) h.inv h.lim (.querySolar t),
      Events.tight_step (c := cc) (sp := sp) h.inv h.tight (.querySolar t) rfl⟩,
    ⟨Events.inv_step (c := cc) (sp := sp) h.inv (.queryLoad t), Events.limits_step (c := cc) h.inv h.lim (.queryLoad t),
      Events.tight_step (c := cc) (sp := sp) h.inv h.tight (.queryLoad t) rfl⟩⟩

theorem playback_total {α : Type} (l : List (Ev ℝ α)) (total ctr : Int) (dflt : α) (t : ℝ) (hs : StrictSorted l) (hT : l ≠ [] → total = l.length) (h0 : 0 ≤ ctr)
    (hc : ctr = 0 ∨ ctr < l.length) : ∃ v, (playback l total ctr dflt t).2 = .ok v := by
  by_cases hne : l = []
  · subst hne; exact ⟨dflt, rfl⟩
  · have hpos : 0 < l.length := List.length_pos_of_ne_nil hne
    obtain ⟨c', v, hp, _, _⟩ := playback_ok hs ctr h0 (fun _ => by omega) dflt t
    rw [hT hne, hp]; exact ⟨v, rfl⟩

theorem solar_total {sp : Events.EvSpec ℝ} {ev : Events.St ℝ} (h : EvGood sp ev) (t : ℝ) : ∃ v, (Events.solarEvents sp ev t).2 = .ok v := by
  unfold Events.solarEvents
  split
  · exact playback_total _ _ _ _ t h.inv.solarS h.inv.solarT h.inv.solarC h.tight.solar
  · exact ⟨_, rfl⟩

theorem load_total {sp : Events.EvSpec ℝ} {ev : Events.St ℝ} (h : EvGood sp ev) (t : ℝ) : ∃ v, (Events.loadEvents ev t).2 = .ok v := by
  unfold Events.loadEvents
  split
  · exact playback_total _ _ _ _ t h.inv.loadS h.inv.loadT h.inv.loadC h.tight.load
  · exact ⟨_, rfl⟩

/-- DC reference schedule in a state where no query can raise: ordered, total up to date, counter inside the list. -/
structure DcGood (w : VdcRef.St ℝ) : Prop where
  sorted : StrictSorted w.lst
  total : w.lst ≠ [] → w.inst.total = w.lst.length
  ctr0 : 0 ≤ w.inst.ctr
  ctr1 : w.inst.ctr = 0 ∨ w.inst.ctr < w.lst.length

theorem dcGood_now (hw : DcGood h.rt.w) : DcGood (wNow h) := ⟨hw.sorted, hw.total, hw.ctr0, hw.ctr1⟩

theorem dcGood_update {w : VdcRef.St ℝ} (hw : DcGood w) (t : ℝ) : ∃ v, (VdcRef.updateRef w t).2 = .ok v ∧ DcGood (VdcRef.updateRef w t).1 := by
  obtain ⟨v, hv⟩ := playback_total w.lst w.inst.total w.inst.ctr w.inst.ref t hw.sorted hw.total hw.ctr0 hw.ctr1
  have h0 := Events.playback_ctr_nonneg hw.total hw.ctr0 w.inst.ref t
  have h1 := Events.tight_playback hw.total hw.ctr1 w.inst.ref t
  have hg : VdcRef.getRef w t = ({ w with inst := { w.inst with ctr := (playback w.lst w.inst.total w.inst.ctr w.inst.ref t).1 } }, .ok v) := by
    unfold VdcRef.getRef; rw [hv]
  unfold VdcRef.updateRef
  rw [hg]
  exact ⟨v, rfl, hw.sorted, hw.total, h0, h1⟩

/-- Conditions under which no evaluation raises. -/
structure Good (k : Cls) (g : SCfg) (h : Hid) : Prop where
  /-- angles are computed from the frequency (the default) -/
  override : g.evc.overrideAngle = true
  /-- the class can print the load change message, or there is no load -/
  msg : k.loadMsg = true ∨ g.standAlone = false
  ev : EvGood g.sp h.ev
  dc : DcGood h.rt.w
  /-- frequency ride-through is off (the default) -/
  lf : h.rt.lfEnable = false
  /-- no DC voltage ramp on reconnection (the default) -/
  ramp : g.restoreVdc = false
  /-- the measurement type is valid; if it is 'filtered', the filtered value exists -/
  meas : g.meas ≠ .invalid
  filt : g.meas = .filtered → h.filt ≠ none ∨ ∀ y, k.filt y ≠ none

theorem grid_good (hg : Good k g h) (t : ℝ) : ∃ h', gridStage g t h = (h', .ok ()) ∧ EvGood g.sp h'.ev ∧ h'.filt = h.filt := by
  unfold gridStage Grid.steadyState
  split
  · obtain ⟨v, hv⟩ := Events.gridEvents_ok hg.override hg.ev.inv hg.ev.lim hg.ev.tight.grid t
    have := (evGood_query (cc := g.evc) hg.ev t).1
    rcases hq : Events.gridEvents g.evc g.sp h.ev t with ⟨ev, r⟩
    rw [hq] at hv this
    simp only at hv
    subst hv
    exact ⟨_, rfl, this, rfl⟩
  · exact ⟨h, rfl, hg.ev, rfl⟩

theorem solar_good (he : EvGood g.sp h.ev) (t : ℝ) : ∃ h', solarStage k g t h = (h', .ok ()) ∧ EvGood g.sp h'.ev := by
  obtain ⟨v, hv⟩ := solar_total he t
  have := (evGood_query (cc := g.evc) he t).2.1
  unfold solarStage
  rcases hq : Events.solarEvents g.sp h.ev t with ⟨ev, r⟩
  rw [hq] at hv this
  simp only at hv
  subst hv
  refine ⟨_, rfl, ?_⟩
  split_ifs <;> exact this

theorem load_good (hm : k.loadMsg = true ∨ g.standAlone = false) (he : EvGood g.sp h.ev) (j : Bool) (t : ℝ) :
    ∃ h', loadStage k g j t h = (h', .ok ()) ∧ EvGood g.sp h'.ev := by
  obtain ⟨v, hv⟩ := load_total he t
  have := (evGood_query (cc := g.evc) he t).2.2
  unfold loadStage
  by_cases hs : g.standAlone = true ∧ j = false
  · rw [if_pos hs]
    have hm' : k.loadMsg = true := by rcases hm with h | h; exact h; rw [h] at hs; simp at hs
    rcases hq : Events.loadEvents h.ev t with ⟨ev, r⟩
    rw [hq] at hv this
    simp only at hv
    subst hv
    dsimp only
    split_ifs
    · exact ⟨_, rfl, this⟩
    · exact ⟨_, rfl, this⟩
  · rw [if_neg hs]
    exact ⟨h, rfl, he⟩

theorem dc_good (hw : DcGood h.rt.w) (t : ℝ) : ∃ h', dcStage k t h = (h', .ok ()) ∧ DcGood h'.rt.w ∧ h'.ev = h.ev := by
  unfold dcStage
  split
  · obtain ⟨v, hv, hg⟩ := dcGood_update (dcGood_now hw) t
    rcases hq : VdcRef.updateRef (wNow h) t with ⟨w, r⟩
    rw [hq] at hv hg
    simp only at hv
    subst hv
    exact ⟨_, rfl, hg, rfl⟩
  · exact ⟨_, rfl, dcGood_now hw, rfl⟩

theorem freq_ev : (freqStage k g c h).ev = h.ev := by unfold freqStage; split <;> rfl

theorem good_step (hg : Good k g h) (c : Call k) : (∃ e, (evalEnv k g c h).2 = .ok e) ∧ Good k g (evalEnv k g c h).1 := by
  obtain ⟨h1, e1, g1, f1⟩ := grid_good hg c.t
  obtain ⟨h2, e2, g2⟩ := solar_good (k := k) (h := stateStage k c.y h1) g1 c.t
  obtain ⟨h3, e3, g3⟩ := load_good (k := k) (h := h2) hg.msg g2 c.jac c.t
  have a1 : h1.rt = h.rt := by have := grid_rt (g := g) (h := h) c.t; rw [e1] at this; exact this
  have a2 : h2.rt = h.rt := by have := solar_rt (k := k) (g := g) (h := stateStage k c.y h1) c.t; rw [e2] at this; exact this.trans a1
  have a3 : h3.rt = h.rt := by have := load_rt (k := k) (g := g) (h := h2) c.jac c.t; rw [e3] at this; exact this.trans a2
  have f2 : h2.filt = (stateStage k c.y h1).filt := by have := solar_filt (k := k) (g := g) (h := stateStage k c.y h1) c.t; rw [e2] at this; exact this
  have f3 : h3.filt = (stateStage k c.y h1).filt := by have := load_filt (k := k) (g := g) (h := h2) c.jac c.t; rw [e3] at this; exact this.trans f2
  have hw : DcGood (qStage k g c h3).rt.w := by show DcGood h3.rt.w; rw [a3]; exact hg.dc
  obtain ⟨h4, e4, g4, ev4⟩ := dc_good (k := k) hw c.t
  obtain ⟨w, v, h4e⟩ := dc_rt e4
  have f4 : h4.filt = (stateStage k c.y h1).filt := by rw [h4e]; exact f3
  have ee : evalEnv k g c h = rtStage k g c (freqStage k g c (irefStage k g c h4)) := by
    unfold evalEnv
    rw [e1]; simp only [andThen]
    rw [e2]; simp only
    rw [e3]; simp only
    rw [e4]
  set h5 := freqStage k g c (irefStage k g c h4) with hh5
  have r5 : h5.rt.w = h4.rt.w := by rw [hh5, freq_rt]; rfl
  have f5 : h5.filt = (stateStage k c.y h1).filt := by rw [hh5, freq_filt]; exact f4
  have v5 : EvGood g.sp h5.ev := by
    rw [hh5, freq_ev]
    show EvGood g.sp h4.ev
    rw [ev4]; exact g3
  have l5 : h5.rt.lfEnable = false := by
    rw [hh5, freq_rt]
    show h4.rt.lfEnable = false
    rw [h4e]
    show h3.rt.lfEnable = false
    rw [a3]; exact hg.lf
  have fnn : g.meas = .filtered → h5.filt ≠ none := by
    intro hm
    rw [f5]
    unfold stateStage
    dsimp only
    rcases hg.filt hm with hf | hf
    · cases hy : k.filt c.y with
      | some x => simp
      | none => simp only; rw [f1]; exact hf
    · cases hy : k.filt c.y with
      | some x => simp
      | none => exact absurd hy (hf _)
  have hmeas : ∀ en, ∃ v, measured k g h5 en = .ok v := by
    intro en
    unfold measured
    cases hm : g.meas with
    | minimum => exact ⟨_, rfl⟩
    | average => exact ⟨_, rfl⟩
    | invalid => exact absurd hm hg.meas
    | filtered =>
      cases hf : h5.filt with
      | none => exact absurd hf (fnn hm)
      | some x => exact ⟨x, rfl⟩
  have hmc : measCheck k g c.t h5 (envC k g c h5) = .ok () := by
    unfold measCheck
    obtain ⟨v, hv⟩ := hmeas (envC k g c h5)
    rw [hv]
    split_ifs <;> rfl
  obtain ⟨t1, t2, t3⟩ := RT.eval_total g.rt h5.rt ⟨c.t, measVal k g h5 (envC k g c h5), (envC k g c h5).we / (2 * Real.pi), refsOf (envC k g c h5)⟩ l5 hg.ramp
  have er : rtStage k g c h5 = ({ h5 with rt := (RT.eval g.rt h5.rt ⟨c.t, measVal k g h5 (envC k g c h5), (envC k g c h5).we / (2 * Real.pi), refsOf (envC k g c h5)⟩).1 },
      .ok (if (RT.eval g.rt h5.rt ⟨c.t, measVal k g h5 (envC k g c h5), (envC k g c h5).we / (2 * Real.pi), refsOf (envC k g c h5)⟩).1.connected then envC k g c h5
        else disc (envC k g c h5))) := by
    simp only [rtStage, hmc, t1]
  rw [ee, er]
  refine ⟨⟨_, rfl⟩, hg.override, hg.msg, v5, ?_, t3, hg.ramp, hg.meas, fun hm => Or.inl (fnn hm)⟩
  show DcGood (RT.eval g.rt h5.rt _).1.w
  rw [t2, r5]
  exact g4

/-- C99: under these conditions no evaluation raises, in whatever order, at whatever times and with whatever state vectors the solver calls the methods. -/
theorem C99_no_exception (hg : Good k g h) (l : List (Call k)) : Ok k g h l := by
  induction l generalizing h with
  | nil => trivial
  | cons c l ih => exact ⟨(good_step hg c).1, ih (good_step hg c).2⟩

/-- C99: the conditions on the events hold after every sequence of additions, queries, resets and enables (no removals) on a new events object. -/
theorem C99_events_good {cc : Events.Cfg ℝ} {sp : Events.EvSpec ℝ} (a b d : Bool) (ops : List (Events.Op ℝ)) (hno : ∀ o ∈ ops, o.isRemoval = false) :
    EvGood sp (Events.run cc (Events.init a b d) (ops.map fun o => (sp, o))) := by
  obtain ⟨hi, hl⟩ := Events.limits_reachable (c := cc) (sp := sp) (s := Events.run cc (Events.init a b d) (ops.map fun o => (sp, o))) ⟨a, b, d, ops, rfl⟩
  refine ⟨hi, hl, ?_⟩
  have h0 : Events.Inv (Events.init a b d : Events.St ℝ) ∧ Events.Tight (Events.init a b d : Events.St ℝ) :=
    ⟨Events.inv_init a b d, ⟨Or.inl rfl, Or.inl rfl, Or.inl rfl⟩⟩
  clear hi hl
  generalize (Events.init a b d : Events.St ℝ) = s at h0
  induction ops generalizing s with
  | nil => exact h0.2
  | cons o os ih =>
    exact ih (fun x hx => hno x (by simp [hx])) _ ⟨Events.inv_step h0.1 o, Events.tight_step h0.1 h0.2 o (hno o (by simp))⟩

/-! ### A concrete configuration -/

/-- Default features: no Volt-VAR with external reference, no limiter, no estimate; minimum phase voltage measured; `t_stable` 0.5 s, delays 1/60 s and 2 s. -/
noncomputable def exG (p : Par) (standAlone : Bool) : SCfg :=
  { p := p, evc := ⟨2 * Real.pi, 1 / 100, true⟩, sp := Events.defaultSpec (2 * Real.pi), standAlone := standAlone, a := 1, Z1 := ⟨1 / 100, 1 / 50⟩,
    Z2 := ⟨1 / 50, 1 / 20⟩, Zbase := 5, useEst := false, dtEst := 1 / 100, qExternal := false, Snom := 1, nPhases := 3, Xf := 1 / 10, limiter := false, gR := 2, gI := 2,
    meas := .minimum, vdcCfg := ⟨450, 650, 500, 1 / 2⟩, vdcTarget := 550, Vdc0 := 11 / 10, tStable := 1 / 2, Vref := 1 / 3, discDelay := 1 / 60, recoDelay := 2,
    restoreVdc := false, delF := 1 / 50 }

/-- Ride-through state after construction: one low-voltage zone (0.88 p.u., 5 s), one high-voltage zone (1.1 p.u., 3 s). -/
noncomputable def exRT : RT.St ℝ (VdcRef.St ℝ) :=
  { lvEnable := true, hvEnable := true, lfEnable := false, lv := ⟨[⟨88 / 100, 5, 1 / 10, .mandatory, 0, false⟩], false, false⟩,
    hv := ⟨[⟨11 / 10, 3, 1 / 10, .mandatory, 0, false⟩], false, false⟩, lf := [], lfTrip := false, rtLock := 0, connLock := 0, tDisc := 0, tReco := 0,
    trip := false, mc := false, connected := true, voltVar := false, voltWatt := false, refs := ⟨0, 11 / 10, 11 / 10, 0, (0, 0), (0, 0), (0, 0)⟩,
    w := ⟨[], ⟨0, 0, 11 / 10, 2⟩⟩ }

/-- Hidden state after construction with the given events object. -/
noncomputable def exH (g : SCfg) (ev : Events.St ℝ) : Hid :=
  { ev := ev, grid := Grid.ctor 1 1 ⟨1, 0, 60⟩, Sinsol := 100, Tactual := 29815 / 100, Iph := PV.iph g.p.mod 100 (29815 / 100), Zload1 := 2000000, vvT := 0,
    vvActive := false, tiref := 0, fe := FreqEst.St.init (1 / 2), filt := none, rt := exRT }

theorem exRT_init : RT.IsInit exRT := by constructor <;> simp [exRT, RT.Zone.fresh]

/-- The conditions of C99 are met by this configuration for every class with a load message or without load, and any events added by the user. -/
theorem ex_good (k : Cls) (p : Par) (sa : Bool) (hm : k.loadMsg = true ∨ sa = false) (ops : List (Events.Op ℝ)) (hno : ∀ o ∈ ops, o.isRemoval = false) :
    Good k (exG p sa) (exH (exG p sa) (Events.run (exG p sa).evc (Events.init true true true) (ops.map fun o => ((exG p sa).sp, o)))) :=
  { override := rfl, msg := hm, ev := C99_events_good _ _ _ ops hno
    dc := ⟨List.Pairwise.nil, fun h => absurd rfl h, le_rfl, Or.inl rfl⟩
    lf := rfl, ramp := rfl, meas := by simp [exG], filt := by simp [exG] }

end Eval
end PvDer
