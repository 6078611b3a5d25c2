import Verif.Props.EvalRun

/-!
# Frame lemmas: what an evaluation does to the event object, the solar and the load quantities
-/

set_option linter.unusedSectionVars false

namespace PvDer
namespace Events
variable {K : Type} [Field K] [LinearOrder K]

/-- The parts of the event object that concern one schedule each. -/
theorem gridEvents_frame (c : Cfg K) (sp : EvSpec K) (s : St K) (t : K) :
    let s' := (gridEvents c sp s t).1
    s'.solar = s.solar ∧ s'.solarCtr = s.solarCtr ∧ s'.solarEnable = s.solarEnable ∧ s'.load = s.load ∧ s'.loadCtr = s.loadCtr ∧ s'.loadEnable = s.loadEnable := by
  intro s'
  refine gridEvents_preserves (fun s' => s'.solar = s.solar ∧ s'.solarCtr = s.solarCtr ∧ s'.solarEnable = s.solarEnable ∧ s'.load = s.load ∧
    s'.loadCtr = s.loadCtr ∧ s'.loadEnable = s.loadEnable) c sp s t ⟨rfl, rfl, rfl, rfl, rfl, rfl⟩ ?_ ?_
  · intro T V a f
    unfold addGrid
    split_ifs <;> exact ⟨rfl, rfl, rfl, rfl, rfl, rfl⟩
  · intro s' h _
    exact h

theorem solarEvents_frame (sp : EvSpec K) (s : St K) (t : K) :
    let s' := (solarEvents sp s t).1
    s'.solar = s.solar ∧ s'.solarTotal = s.solarTotal ∧ s'.solarEnable = s.solarEnable ∧ s'.load = s.load ∧ s'.loadCtr = s.loadCtr ∧ s'.loadEnable = s.loadEnable := by
  intro s'
  show _
  simp only [s']
  unfold solarEvents
  split_ifs <;> exact ⟨rfl, rfl, rfl, rfl, rfl, rfl⟩

theorem loadEvents_frame (s : St K) (t : K) :
    let s' := (loadEvents s t).1
    s'.solar = s.solar ∧ s'.solarCtr = s.solarCtr ∧ s'.solarEnable = s.solarEnable ∧ s'.load = s.load ∧ s'.loadEnable = s.loadEnable := by
  intro s'
  simp only [s']
  unfold loadEvents
  split_ifs <;> exact ⟨rfl, rfl, rfl, rfl, rfl⟩

/-- A query of the schedule does not use the stored total of an empty list. -/
theorem playback_total_irrel {α : Type} (l : List (Ev K α)) {a b : Int} (h : l ≠ [] → a = b) (ctr : Int) (d : α) (t : K) :
    playback l a ctr d t = playback l b ctr d t := by
  cases l with
  | nil => rfl
  | cons e r => rw [h (by simp)]

theorem solarEvents_enabled (sp : EvSpec K) (s : St K) (hi : Inv s) (hen : s.solarEnable = true) (t : K) :
    solarEvents sp s t = ({ s with solarCtr := (playback s.solar s.solar.length s.solarCtr ⟨sp.insolation.dflt, 29815 / 100⟩ t).1 },
      (playback s.solar s.solar.length s.solarCtr ⟨sp.insolation.dflt, 29815 / 100⟩ t).2) := by
  unfold solarEvents
  rw [if_pos hen, playback_total_irrel s.solar hi.solarT]
  rfl

theorem loadEvents_enabled (s : St K) (hi : Inv s) (hen : s.loadEnable = true) (t : K) :
    loadEvents s t = ({ s with loadCtr := (playback s.load s.load.length s.loadCtr ⟨10000000, 0⟩ t).1 },
      (playback s.load s.load.length s.loadCtr ⟨10000000, 0⟩ t).2) := by
  unfold loadEvents
  rw [if_pos hen, playback_total_irrel s.load hi.loadT]
  rfl

end Events

namespace Eval
open Complex Phasor Ode

variable {k : Cls} {g : SCfg} {c : Call k} {h : Hid} {e : Env}

/-- The later stages leave events, weather and load alone. -/
theorem late_frame {h3 h4 : Hid} (e4 : dcStage k c.t (qStage k g c h3) = (h4, .ok ())) :
    (freqStage k g c (irefStage k g c h4)).ev = h3.ev ∧ (freqStage k g c (irefStage k g c h4)).Sinsol = h3.Sinsol ∧
    (freqStage k g c (irefStage k g c h4)).Tactual = h3.Tactual ∧ (freqStage k g c (irefStage k g c h4)).Iph = h3.Iph ∧
    (freqStage k g c (irefStage k g c h4)).Zload1 = h3.Zload1 ∧ (freqStage k g c (irefStage k g c h4)).grid = h3.grid := by
  obtain ⟨w, v, rfl⟩ := dc_rt e4
  unfold freqStage
  split <;> exact ⟨rfl, rfl, rfl, rfl, rfl, rfl⟩

theorem load_solar (j : Bool) (t : ℝ) : (loadStage k g j t h).1.Sinsol = h.Sinsol ∧ (loadStage k g j t h).1.Tactual = h.Tactual ∧
    (loadStage k g j t h).1.Iph = h.Iph ∧ (loadStage k g j t h).1.ev.solar = h.ev.solar ∧ (loadStage k g j t h).1.ev.solarCtr = h.ev.solarCtr ∧
    (loadStage k g j t h).1.ev.solarEnable = h.ev.solarEnable := by
  unfold loadStage
  split
  · have hf := Events.loadEvents_frame h.ev t
    rcases hq : Events.loadEvents h.ev t with ⟨ev, r⟩
    rw [hq] at hf
    cases r with
    | error x => exact ⟨rfl, rfl, rfl, hf.1, hf.2.1, hf.2.2.1⟩
    | ok v => dsimp only; split_ifs <;> exact ⟨rfl, rfl, rfl, hf.1, hf.2.1, hf.2.2.1⟩
  · exact ⟨rfl, rfl, rfl, rfl, rfl, rfl⟩

theorem grid_events (t : ℝ) : (gridStage g t h).1.ev = if g.standAlone then (Events.gridEvents g.evc g.sp h.ev t).1 else h.ev := by
  unfold gridStage Grid.steadyState
  split
  · rcases Events.gridEvents g.evc g.sp h.ev t with ⟨ev, r⟩
    cases r <;> rfl
  · rfl

theorem grid_ev_frame (t : ℝ) : (gridStage g t h).1.ev.solar = h.ev.solar ∧ (gridStage g t h).1.ev.solarCtr = h.ev.solarCtr ∧
    (gridStage g t h).1.ev.solarEnable = h.ev.solarEnable ∧ (gridStage g t h).1.ev.load = h.ev.load ∧ (gridStage g t h).1.ev.loadCtr = h.ev.loadCtr ∧
    (gridStage g t h).1.ev.loadEnable = h.ev.loadEnable ∧ (Events.Inv h.ev → Events.Inv (gridStage g t h).1.ev) := by
  rw [grid_events]
  split
  · have hf := Events.gridEvents_frame g.evc g.sp h.ev t
    exact ⟨hf.1, hf.2.1, hf.2.2.1, hf.2.2.2.1, hf.2.2.2.2.1, hf.2.2.2.2.2, fun hi => Events.inv_gridEvents hi t⟩
  · exact ⟨rfl, rfl, rfl, rfl, rfl, rfl, id⟩

theorem load_inv (j : Bool) (t : ℝ) (hi : Events.Inv h.ev) : Events.Inv (loadStage k g j t h).1.ev := by
  unfold loadStage
  split
  · have hf := Events.inv_loadEvents hi t
    rcases hq : Events.loadEvents h.ev t with ⟨ev, r⟩
    rw [hq] at hf
    cases r with
    | error x => exact hf
    | ok v => dsimp only; split_ifs <;> exact hf
  · exact hi

theorem solar_ok {t : ℝ} {h' : Hid} (hs : solarStage k g t h = (h', .ok ())) :
    ∃ v, Events.solarEvents g.sp h.ev t = (h'.ev, .ok v) ∧ h'.Sinsol = v.Sinsol ∧ h'.Tactual = v.Tactual ∧ h'.Zload1 = h.Zload1 ∧ h'.grid = h.grid ∧
      ((k.cachedIph = true → h.Iph = PV.iph g.p.mod h.Sinsol h.Tactual) → h'.Iph = PV.iph g.p.mod h'.Sinsol h'.Tactual) := by
  unfold solarStage at hs
  rcases hq : Events.solarEvents g.sp h.ev t with ⟨ev, r⟩
  rw [hq] at hs
  cases r with
  | error x => simp at hs
  | ok v =>
    simp only [Prod.mk.injEq, and_true] at hs
    refine ⟨v, ?_⟩
    by_cases hc : |h.Sinsol - v.Sinsol| ≠ 0 ∨ |h.Tactual - v.Tactual| > 0
    · rw [if_pos hc] at hs
      split_ifs at hs <;> subst hs <;> exact ⟨rfl, rfl, rfl, rfl, rfl, fun _ => rfl⟩
    · rw [if_neg hc] at hs
      push Not at hc
      have e1 : h.Sinsol = v.Sinsol := by have := abs_eq_zero.1 hc.1; linarith
      have e2 : h.Tactual = v.Tactual := by have := abs_nonpos_iff.1 hc.2; linarith
      split_ifs at hs with hk
      · subst hs; exact ⟨rfl, e1, e2, rfl, rfl, fun hI => hI hk⟩
      · subst hs; exact ⟨rfl, e1, e2, rfl, rfl, fun _ => rfl⟩

/-- A successful evaluation as far as the weather is concerned. -/
theorem eval_solar (he : (evalEnv k g c h).2 = .ok e) (hi : Events.Inv h.ev) (hen : h.ev.solarEnable = true) :
    ∃ v, playback h.ev.solar h.ev.solar.length h.ev.solarCtr ⟨g.sp.insolation.dflt, 29815 / 100⟩ c.t = ((evalEnv k g c h).1.ev.solarCtr, .ok v) ∧
      (evalEnv k g c h).1.ev.solar = h.ev.solar ∧ (evalEnv k g c h).1.ev.solarEnable = true ∧ Events.Inv (evalEnv k g c h).1.ev ∧
      (evalEnv k g c h).1.Sinsol = v.Sinsol ∧ (evalEnv k g c h).1.Tactual = v.Tactual ∧
      ((k.cachedIph = true → h.Iph = PV.iph g.p.mod h.Sinsol h.Tactual) → (evalEnv k g c h).1.Iph = PV.iph g.p.mod v.Sinsol v.Tactual) ∧
      ∃ h5 : Hid, evalEnv k g c h = rtStage k g c h5 ∧ h5.Sinsol = v.Sinsol ∧ h5.Tactual = v.Tactual ∧ h5.Iph = (evalEnv k g c h).1.Iph := by
  obtain ⟨h1, h2, h3, h4, e1, e2, e3, e4, e5⟩ := eval_ok he
  obtain ⟨s1, s2, s3, _, _, _, s7⟩ := grid_ev_frame (g := g) (h := h) c.t
  obtain ⟨_, q1, q2, q3, _, _⟩ := grid_frame (g := g) (h := h) c.t
  rw [e1] at s1 s2 s3 s7 q1 q2 q3
  simp only at s1 s2 s3 s7 q1 q2 q3
  obtain ⟨v, v1, v2, v3, _, _, v4⟩ := solar_ok e2
  have v1' : Events.solarEvents g.sp h1.ev c.t = (h2.ev, .ok v) := v1
  have hi1 : Events.Inv h1.ev := s7 hi
  have hi2 : Events.Inv h2.ev := by have := Events.inv_solarEvents (sp := g.sp) hi1 c.t; rw [v1'] at this; exact this
  have sf := Events.solarEvents_frame g.sp h1.ev c.t
  rw [v1'] at sf
  have v1'' := v1'
  rw [Events.solarEvents_enabled g.sp h1.ev hi1 (by rw [s3]; exact hen), s1, s2] at v1''
  simp only [Prod.mk.injEq] at v1''
  obtain ⟨l1, l2, l3, l4, l5, l6⟩ := load_solar (k := k) (g := g) (h := h2) c.jac c.t
  have l7 := load_inv (k := k) (g := g) (h := h2) c.jac c.t hi2
  rw [e3] at l1 l2 l3 l4 l5 l6 l7
  simp only at l1 l2 l3 l4 l5 l6 l7
  obtain ⟨f1, f2, f3, f4, _, _⟩ := late_frame e4
  rw [e5] at he
  obtain ⟨_, _, b3, _⟩ := rt_ok he
  have hh : (evalEnv k g c h).1 = (rtStage k g c (freqStage k g c (irefStage k g c h4))).1 := by rw [e5]
  have hctr : h2.ev.solarCtr = (playback h.ev.solar h.ev.solar.length h.ev.solarCtr ⟨g.sp.insolation.dflt, 29815 / 100⟩ c.t).1 := by
    rw [← v1''.1]
  have r1 : (evalEnv k g c h).1.ev = h3.ev := by rw [hh, b3]; exact f1
  have r2 : (evalEnv k g c h).1.Sinsol = v.Sinsol := by rw [hh, b3]; exact f2.trans (l1.trans v2)
  have r3 : (evalEnv k g c h).1.Tactual = v.Tactual := by rw [hh, b3]; exact f3.trans (l2.trans v3)
  have r4 : (evalEnv k g c h).1.Iph = h2.Iph := by rw [hh, b3]; exact f4.trans l3
  refine ⟨v, ?_, ?_, ?_, ?_, r2, r3, ?_, _, e5, f2.trans (l1.trans v2), f3.trans (l2.trans v3), ?_⟩
  · rw [r1, l5, hctr, ← v1''.2]
  · rw [r1, l4]; exact sf.1.trans s1
  · rw [r1, l6]; exact sf.2.2.1.trans (s3.trans hen)
  · rw [r1]; exact l7
  · intro hI
    rw [r4]
    have : (k.cachedIph = true → (stateStage k c.y h1).Iph = PV.iph g.p.mod (stateStage k c.y h1).Sinsol (stateStage k c.y h1).Tactual) := by
      intro hk
      show h1.Iph = PV.iph g.p.mod h1.Sinsol h1.Tactual
      rw [q1, q2, q3]; exact hI hk
    rw [v4 this, v2, v3]
  · rw [r4]; exact f4.trans l3

theorem load_ok {t : ℝ} {h' : Hid} (hs : loadStage k g false t h = (h', .ok ())) (hsa : g.standAlone = true) :
    ∃ v, Events.loadEvents h.ev t = (h'.ev, .ok v) ∧ h'.Zload1 = (⟨v.Zre, v.Zim⟩ : ℂ) / g.Zbase ∧ h'.grid = h.grid := by
  unfold loadStage at hs
  rw [if_pos ⟨hsa, rfl⟩] at hs
  rcases hq : Events.loadEvents h.ev t with ⟨ev, r⟩
  rw [hq] at hs
  cases r with
  | error x => simp at hs
  | ok v =>
    dsimp only at hs
    refine ⟨v, ?_⟩
    split_ifs at hs with h1 h2
    · simp only [Prod.mk.injEq, and_true] at hs; subst hs; exact ⟨rfl, rfl, rfl⟩
    · simp at hs
    · simp only [Prod.mk.injEq, and_true] at hs; subst hs
      refine ⟨rfl, ?_, rfl⟩
      have := norm_le_zero_iff.1 (not_lt.1 h1)
      exact sub_eq_zero.1 this

/-- A successful evaluation as far as the load is concerned (stand-alone mode). -/
theorem eval_load (he : (evalEnv k g c h).2 = .ok e) (hsa : g.standAlone = true) (hi : Events.Inv h.ev) (hen : h.ev.loadEnable = true) :
    (evalEnv k g c h).1.ev.load = h.ev.load ∧ (evalEnv k g c h).1.ev.loadEnable = true ∧ Events.Inv (evalEnv k g c h).1.ev ∧
    (c.jac = true → (evalEnv k g c h).1.ev.loadCtr = h.ev.loadCtr ∧ (evalEnv k g c h).1.Zload1 = h.Zload1) ∧
    (c.jac = false → ∃ v, playback h.ev.load h.ev.load.length h.ev.loadCtr ⟨10000000, 0⟩ c.t = ((evalEnv k g c h).1.ev.loadCtr, .ok v) ∧
      (evalEnv k g c h).1.Zload1 = (⟨v.Zre, v.Zim⟩ : ℂ) / g.Zbase) ∧
    ∃ h5 : Hid, evalEnv k g c h = rtStage k g c h5 ∧ h5.Zload1 = (evalEnv k g c h).1.Zload1 ∧ h5.grid = (evalEnv k g c h).1.grid := by
  obtain ⟨h1, h2, h3, h4, e1, e2, e3, e4, e5⟩ := eval_ok he
  obtain ⟨_, _, _, s4, s5, s6, s7⟩ := grid_ev_frame (g := g) (h := h) c.t
  obtain ⟨_, _, _, _, q4, _⟩ := grid_frame (g := g) (h := h) c.t
  rw [e1] at s4 s5 s6 s7 q4
  simp only at s4 s5 s6 s7 q4
  obtain ⟨v, v1, _, _, v5, _, _⟩ := solar_ok e2
  have v1' : Events.solarEvents g.sp h1.ev c.t = (h2.ev, .ok v) := v1
  have hi2 : Events.Inv h2.ev := by have := Events.inv_solarEvents (sp := g.sp) (s7 hi) c.t; rw [v1'] at this; exact this
  have sf := Events.solarEvents_frame g.sp h1.ev c.t
  rw [v1'] at sf
  simp only at sf
  obtain ⟨f1, _, _, _, f5, f6⟩ := late_frame e4
  rw [e5] at he
  obtain ⟨_, _, b3, _⟩ := rt_ok he
  have hh : (evalEnv k g c h).1 = (rtStage k g c (freqStage k g c (irefStage k g c h4))).1 := by rw [e5]
  have r1 : (evalEnv k g c h).1.ev = h3.ev := by rw [hh, b3]; exact f1
  have r2 : (evalEnv k g c h).1.Zload1 = h3.Zload1 := by rw [hh, b3]; exact f5
  have r3 : (evalEnv k g c h).1.grid = (freqStage k g c (irefStage k g c h4)).grid := by rw [hh, b3]
  have l7 := load_inv (k := k) (g := g) (h := h2) c.jac c.t hi2
  rw [e3] at l7
  simp only at l7
  have hload2 : h2.ev.load = h.ev.load := sf.2.2.2.1.trans s4
  have hctr2 : h2.ev.loadCtr = h.ev.loadCtr := sf.2.2.2.2.1.trans s5
  have hen2 : h2.ev.loadEnable = true := sf.2.2.2.2.2.trans (s6.trans hen)
  have z2 : h2.Zload1 = h.Zload1 := v5.trans q4
  rw [r1, r2]
  cases hj : c.jac with
  | true =>
    rw [hj] at e3
    have : h3 = h2 := by
      unfold loadStage at e3
      rw [if_neg (by simp)] at e3
      simp only [Prod.mk.injEq, and_true] at e3
      exact e3.symm
    subst this
    exact ⟨hload2, hen2, hi2, fun _ => ⟨hctr2, z2⟩, fun hx => by simp at hx, _, e5, f5, r3.symm⟩
  | false =>
    rw [hj] at e3
    obtain ⟨v', w1, w2, _⟩ := load_ok e3 hsa
    have lf := Events.loadEvents_frame h2.ev c.t
    rw [w1] at lf
    simp only at lf
    have w1' := w1
    rw [Events.loadEvents_enabled h2.ev hi2 hen2, hload2, hctr2] at w1'
    simp only [Prod.mk.injEq] at w1'
    refine ⟨lf.2.2.2.1.trans hload2, lf.2.2.2.2.trans hen2, l7, fun hx => by simp at hx, fun _ => ⟨v', ?_, w2⟩, _, e5, f5, r3.symm⟩
    rw [← w1'.2, ← w1'.1]

end Eval
end PvDer
