import Verif.Model.Eval
import Verif.Lemmas.Events
import Verif.Lemmas.RTRun

/-!
# Lemmas about whole evaluations: what each stage leaves alone, and the projection to the ride-through model
-/

namespace PvDer

namespace RT
variable {K W : Type} [Field K] [LinearOrder K]

/-- Forget the DC reference list. -/
def strip (s : St K W) : St K Unit :=
  { lvEnable := s.lvEnable, hvEnable := s.hvEnable, lfEnable := s.lfEnable, lv := s.lv, hv := s.hv, lf := s.lf, lfTrip := s.lfTrip, rtLock := s.rtLock,
    connLock := s.connLock, tDisc := s.tDisc, tReco := s.tReco, trip := s.trip, mc := s.mc, connected := s.connected, voltVar := s.voltVar,
    voltWatt := s.voltWatt, refs := s.refs, w := () }

/-- The same settings without a DC voltage ramp. -/
def Cfg.unit (c : Cfg K W) : Cfg K Unit := ⟨c.tStable, c.Vref, c.discDelay, c.recoDelay, c.restoreVdc, c.delF, fun _ _ => ((), .ok ())⟩

theorem reconnect_strip (c : Cfg K W) (t : K) (s : St K W) (h : (reconnectLogic c t s).2 = .ok ()) :
    reconnectLogic c.unit t (strip s) = (strip (reconnectLogic c t s).1, .ok ()) := by
  unfold reconnectLogic at h ⊢
  by_cases h1 : s.connected = true
  · simp [h1] at h
  · by_cases h2 : s.mc = true
    · by_cases h3 : s.tReco > 0 <;> simp [strip, h1, h2, h3]
    · by_cases h4 : t > 0
      · by_cases h5 : s.tReco > 0
        · by_cases h6 : t - s.tReco > c.recoDelay
          · by_cases h7 : c.restoreVdc = true <;> simp [strip, Cfg.unit, h1, h2, h4, h5, h6, h7]
          · simp [strip, Cfg.unit, h1, h2, h4, h5, h6]
        · by_cases h8 : s.tReco = 0
          · simp [strip, h1, h2, h4, h8]
          · simp [strip, h1, h2, h4, h5, h8]
      · simp [strip, h1, h2, h4]

theorem disconnectLogic_strip (c : Cfg K W) (t : K) (s : St K W) :
    disconnectLogic c.unit t (strip s) = (strip (disconnectLogic c t s).1, (disconnectLogic c t s).2) := by
  unfold disconnectLogic
  by_cases h1 : s.connected = false
  · simp [strip, h1]
  · by_cases h2 : s.tDisc = 0
    · simp [strip, h1, h2]
    · by_cases h3 : t - s.tDisc < c.discDelay
      · simp [strip, Cfg.unit, h1, h2, h3]
      · by_cases h4 : t - s.tDisc ≥ c.discDelay <;> simp [strip, Cfg.unit, h1, h2, h3, h4]

/-- The state transition of `disconnect_or_reconnect` before the references are overwritten. -/
def inner (c : Cfg K W) (t : K) (s : St K W) : St K W × Except Err Unit :=
  if t > s.connLock then
    if s.connected then (if s.trip || s.mc then disconnectLogic c t { s with connLock := t } else ({ s with connLock := t }, .ok ()))
    else (if s.trip = false then reconnectLogic c t { s with connLock := t } else ({ s with connLock := t }, .ok ()))
  else (s, .ok ())

theorem connect_eq (c : Cfg K W) (t : K) (s : St K W) :
    disconnectOrReconnect c t s = match (inner c t s).2 with
      | .error e => ((inner c t s).1, .error e)
      | .ok _ => if (inner c t s).1.connected = false then (disconnect (inner c t s).1, .ok ()) else ((inner c t s).1, .ok ()) := rfl

theorem inner_strip (c : Cfg K W) (t : K) (s : St K W) (h : (inner c t s).2 = .ok ()) :
    inner c.unit t (strip s) = (strip (inner c t s).1, .ok ()) := by
  unfold inner at h ⊢
  simp only [show (strip s).connLock = s.connLock from rfl, show (strip s).connected = s.connected from rfl, show (strip s).trip = s.trip from rfl,
    show (strip s).mc = s.mc from rfl]
  split_ifs at h ⊢ with h0 h1 h2 h3
  · exact (disconnectLogic_strip c t { s with connLock := t }).trans (by rw [h])
  · rfl
  · exact reconnect_strip c t _ h
  · rfl
  · rfl

theorem connect_strip (c : Cfg K W) (t : K) (s : St K W) (h : (disconnectOrReconnect c t s).2 = .ok ()) :
    disconnectOrReconnect c.unit t (strip s) = (strip (disconnectOrReconnect c t s).1, .ok ()) := by
  rw [connect_eq] at h ⊢
  have hi : (inner c t s).2 = .ok () := by
    cases hr : (inner c t s).2 with
    | error e => rw [hr] at h; simp at h
    | ok u => rfl
  rw [connect_eq, inner_strip c t s hi]
  simp only [hi]
  show (if (inner c t s).1.connected = false then _ else _) = _
  split_ifs <;> rfl

theorem frt_strip (c : Cfg K W) (f t : K) (s : St K W) (h : (frt c f t s).2 = .ok ()) :
    frt c.unit f t (strip s) = (strip (frt c f t s).1, .ok ()) := by
  unfold frt at h ⊢
  simp only [show (strip s).lfTrip = s.lfTrip from rfl, show (strip s).lf = s.lf from rfl, show c.unit.tStable = c.tStable from rfl,
    show c.unit.delF = c.delF from rfl]
  split_ifs at h ⊢ with h0 h1
  · rfl
  · exact reconnect_strip c t s h
  · rfl

theorem flags_strip (c : Cfg K W) (t V f : K) (s : St K W) (h : (updateFlags c t V f s).2 = .ok ()) :
    updateFlags c.unit t V f (strip s) = (strip (updateFlags c t V f s).1, .ok ()) := by
  unfold updateFlags at h ⊢
  simp only [show (strip s).rtLock = s.rtLock from rfl]
  by_cases h0 : t > s.rtLock
  · simp only [h0, if_true] at h ⊢
    set s2 : St K W := if s.lvEnable then { { s with rtLock := t } with lv := lvrt c.tStable c.Vref V t s.lv } else { s with rtLock := t } with hs2
    set s2' : St K Unit := if (strip s).lvEnable then { { strip s with rtLock := t } with lv := lvrt c.unit.tStable c.unit.Vref V t (strip s).lv } else { strip s with rtLock := t } with hs2'
    have e2 : s2' = strip s2 := by rw [hs2, hs2']; show (if s.lvEnable then _ else _) = _; split_ifs <;> rfl
    rw [e2]
    set s3 : St K W := if s2.hvEnable then { s2 with hv := hvrt c.tStable c.Vref V t s2.hv } else s2 with hs3
    set s3' : St K Unit := if (strip s2).hvEnable then { strip s2 with hv := hvrt c.unit.tStable c.unit.Vref V t (strip s2).hv } else strip s2 with hs3'
    have e3 : s3' = strip s3 := by rw [hs3, hs3']; show (if s2.hvEnable then _ else _) = _; split_ifs <;> rfl
    rw [e3]
    have el : (strip s3).lfEnable = s3.lfEnable := rfl
    rw [el]
    by_cases hl : s3.lfEnable = true
    · simp only [hl, if_true] at h ⊢
      have hf : (frt c f t s3).2 = .ok () := by
        cases hr : (frt c f t s3).2 with
        | error e => rw [hr] at h; simp at h
        | ok u => rfl
      rw [frt_strip c f t s3 hf]
      simp only [hf]
      rfl
    · simp only [hl] at h ⊢
      rfl
  · rw [if_neg h0, if_neg h0]

/-- A successful evaluation does not depend on the DC reference list (except for the list itself) nor on the previous references. -/
theorem eval_strip (c : Cfg K W) (s : St K W) (i : Inp K) (h : (eval c s i).2 = .ok ()) :
    eval c.unit (strip s) i = (strip (eval c s i).1, .ok ()) := by
  unfold eval at h ⊢
  have hf : (updateFlags c i.t i.V i.f { s with refs := i.refs }).2 = .ok () := by
    cases hr : (updateFlags c i.t i.V i.f { s with refs := i.refs }).2 with
    | error e => dsimp only at h; rw [hr] at h; simp at h
    | ok u => rfl
  have e1 : ({ strip s with refs := i.refs } : St K Unit) = strip { s with refs := i.refs } := rfl
  simp only [e1, flags_strip c i.t i.V i.f _ hf]
  simp only [hf] at h ⊢
  exact connect_strip c i.t _ h

theorem eval_refs (c : Cfg K W) (s : St K W) (r : Refs K) (i : Inp K) : eval c { s with refs := r } i = eval c s i := rfl

end RT
namespace Eval
open Complex Phasor Ode

variable {k : Cls} {g : SCfg} {c : Call k} {h : Hid} {e : Env}

/-- The stages of a successful evaluation. -/
theorem eval_ok (he : (evalEnv k g c h).2 = .ok e) :
    ∃ h1 h2 h3 h4, gridStage g c.t h = (h1, .ok ()) ∧ solarStage k g c.t (stateStage k c.y h1) = (h2, .ok ()) ∧
      loadStage k g c.jac c.t h2 = (h3, .ok ()) ∧ dcStage k c.t (qStage k g c h3) = (h4, .ok ()) ∧
      evalEnv k g c h = rtStage k g c (freqStage k g c (irefStage k g c h4)) := by
  unfold evalEnv at he ⊢
  rcases e1 : gridStage g c.t h with ⟨h1, r1⟩
  rw [e1] at he
  cases r1 with
  | error x => simp [andThen] at he
  | ok u =>
    simp only [andThen] at he ⊢
    rcases e2 : solarStage k g c.t (stateStage k c.y h1) with ⟨h2, r2⟩
    rw [e2] at he
    cases r2 with
    | error x => simp at he
    | ok u =>
      simp only at he ⊢
      rcases e3 : loadStage k g c.jac c.t h2 with ⟨h3, r3⟩
      rw [e3] at he
      cases r3 with
      | error x => simp at he
      | ok u =>
        simp only at he ⊢
        rcases e4 : dcStage k c.t (qStage k g c h3) with ⟨h4, r4⟩
        rw [e4] at he
        cases r4 with
        | error x => simp at he
        | ok u => exact ⟨h1, h2, h3, h4, rfl, e2, e3, e4, rfl⟩

/-- A successful ride-through stage. -/
theorem rt_ok (he : (rtStage k g c h).2 = .ok e) :
    measCheck k g c.t h (envC k g c h) = .ok () ∧
    (RT.eval g.rt h.rt ⟨c.t, measVal k g h (envC k g c h), (envC k g c h).we / (2 * Real.pi), refsOf (envC k g c h)⟩).2 = .ok () ∧
    (rtStage k g c h).1 = { h with rt := (RT.eval g.rt h.rt ⟨c.t, measVal k g h (envC k g c h), (envC k g c h).we / (2 * Real.pi), refsOf (envC k g c h)⟩).1 } ∧
    e = if (rtStage k g c h).1.rt.connected then envC k g c h else disc (envC k g c h) := by
  have hm : measCheck k g c.t h (envC k g c h) = .ok () := by
    cases hm : measCheck k g c.t h (envC k g c h) with
    | error x => simp [rtStage, hm] at he
    | ok u => rfl
  have hr : (RT.eval g.rt h.rt ⟨c.t, measVal k g h (envC k g c h), (envC k g c h).we / (2 * Real.pi), refsOf (envC k g c h)⟩).2 = .ok () := by
    cases hr : (RT.eval g.rt h.rt ⟨c.t, measVal k g h (envC k g c h), (envC k g c h).we / (2 * Real.pi), refsOf (envC k g c h)⟩).2 with
    | error x => simp [rtStage, hm, hr] at he
    | ok u => rfl
  have key : rtStage k g c h = ({ h with rt := (RT.eval g.rt h.rt ⟨c.t, measVal k g h (envC k g c h), (envC k g c h).we / (2 * Real.pi), refsOf (envC k g c h)⟩).1 },
      .ok (if (RT.eval g.rt h.rt ⟨c.t, measVal k g h (envC k g c h), (envC k g c h).we / (2 * Real.pi), refsOf (envC k g c h)⟩).1.connected then envC k g c h
        else disc (envC k g c h))) := by
    simp only [rtStage, hm, hr]
  rw [key] at he ⊢
  simp only [Except.ok.injEq] at he
  exact ⟨hm, hr, rfl, he.symm⟩

theorem grid_rt (t : ℝ) : (gridStage g t h).1.rt = h.rt := by unfold gridStage; split <;> rfl

theorem solar_rt (t : ℝ) : (solarStage k g t h).1.rt = h.rt := by
  unfold solarStage
  rcases Events.solarEvents g.sp h.ev t with ⟨ev, r⟩
  cases r with
  | error x => rfl
  | ok v => dsimp only; split_ifs <;> rfl

theorem load_rt (j : Bool) (t : ℝ) : (loadStage k g j t h).1.rt = h.rt := by
  unfold loadStage
  split
  · rcases Events.loadEvents h.ev t with ⟨ev, r⟩
    cases r with
    | error x => rfl
    | ok v => dsimp only; split_ifs <;> rfl
  · rfl

theorem dc_rt {t : ℝ} {h' : Hid} (e : dcStage k t h = (h', .ok ())) :
    ∃ w v, h' = { h with rt := { h.rt with w := w, refs := { h.rt.refs with VdcRef := v } } } := by
  unfold dcStage at e
  split at e
  · rcases hu : VdcRef.updateRef (wNow h) t with ⟨w, r⟩
    rw [hu] at e
    cases r with
    | error x => simp at e
    | ok v => simp only [Prod.mk.injEq, and_true] at e; exact ⟨w, v, e.symm⟩
  · simp only [Prod.mk.injEq, and_true] at e; exact ⟨wNow h, h.rt.refs.VdcRef, e.symm⟩

theorem freq_rt : (freqStage k g c h).rt = h.rt := by unfold freqStage; split <;> rfl

/-- Between two evaluations and up to the ride-through stage only the references and the DC reference list change in the ride-through state. -/
theorem pre_rt {h3 h4 : Hid} (e : dcStage k c.t (qStage k g c h3) = (h4, .ok ())) :
    ∃ w r, (freqStage k g c (irefStage k g c h4)).rt = { h3.rt with w := w, refs := r } := by
  obtain ⟨w, v, rfl⟩ := dc_rt e
  rw [freq_rt]
  exact ⟨w, _, rfl⟩

theorem grid_frame (t : ℝ) : (gridStage g t h).1.filt = h.filt ∧ (gridStage g t h).1.Sinsol = h.Sinsol ∧ (gridStage g t h).1.Tactual = h.Tactual ∧
    (gridStage g t h).1.Iph = h.Iph ∧ (gridStage g t h).1.Zload1 = h.Zload1 ∧ (gridStage g t h).1.tiref = h.tiref := by
  unfold gridStage; split <;> exact ⟨rfl, rfl, rfl, rfl, rfl, rfl⟩

theorem solar_filt (t : ℝ) : (solarStage k g t h).1.filt = h.filt := by
  unfold solarStage
  rcases Events.solarEvents g.sp h.ev t with ⟨ev, r⟩
  cases r with
  | error x => rfl
  | ok v => dsimp only; split_ifs <;> rfl

theorem load_filt (j : Bool) (t : ℝ) : (loadStage k g j t h).1.filt = h.filt := by
  unfold loadStage
  split
  · rcases Events.loadEvents h.ev t with ⟨ev, r⟩
    cases r with
    | error x => rfl
    | ok v => dsimp only; split_ifs <;> rfl
  · rfl

theorem freq_filt : (freqStage k g c h).filt = h.filt := by unfold freqStage; split <;> rfl

/-- What one successful call gives to the ride-through logic and how the state changes. -/
theorem eval_rt (he : (evalEnv k g c h).2 = .ok e) :
    ∃ h5 : Hid, (∃ w r, h5.rt = { h.rt with w := w, refs := r }) ∧ h5.filt = (stateStage k c.y h).filt ∧
      evalEnv k g c h = rtStage k g c h5 ∧
      RT.strip (evalEnv k g c h).1.rt =
        (RT.eval g.rt.unit (RT.strip h.rt) ⟨c.t, measVal k g h5 (envC k g c h5), (envC k g c h5).we / (2 * Real.pi), refsOf (envC k g c h5)⟩).1 ∧
      (RT.eval g.rt.unit (RT.strip h.rt) ⟨c.t, measVal k g h5 (envC k g c h5), (envC k g c h5).we / (2 * Real.pi), refsOf (envC k g c h5)⟩).2 = .ok () := by
  obtain ⟨h1, h2, h3, h4, e1, e2, e3, e4, e5⟩ := eval_ok he
  obtain ⟨w, r, hr⟩ := pre_rt e4
  have a1 : h1.rt = h.rt := by have := grid_rt (g := g) (h := h) c.t; rw [e1] at this; exact this
  have a2 : h2.rt = h.rt := by have := solar_rt (k := k) (g := g) (h := stateStage k c.y h1) c.t; rw [e2] at this; exact this.trans a1
  have a3 : h3.rt = h.rt := by have := load_rt (k := k) (g := g) (h := h2) c.jac c.t; rw [e3] at this; exact this.trans a2
  have f1 : h1.filt = h.filt := by have := (grid_frame (g := g) (h := h) c.t).1; rw [e1] at this; exact this
  have f2 : h2.filt = (stateStage k c.y h).filt := by
    have := solar_filt (k := k) (g := g) (h := stateStage k c.y h1) c.t
    rw [e2] at this
    refine this.trans ?_
    show (match k.filt c.y with | some v => some v | none => h1.filt) = _
    rw [f1]; rfl
  have f3 : h3.filt = (stateStage k c.y h).filt := by
    have := load_filt (k := k) (g := g) (h := h2) c.jac c.t; rw [e3] at this; exact this.trans f2
  have f5 : (freqStage k g c (irefStage k g c h4)).filt = (stateStage k c.y h).filt := by
    obtain ⟨w', v', rfl⟩ := dc_rt e4
    rw [freq_filt]
    exact f3
  rw [a3] at hr
  refine ⟨_, ⟨w, r, hr⟩, f5, e5, ?_⟩
  rw [e5] at he ⊢
  obtain ⟨_, b2, b3, _⟩ := rt_ok he
  rw [b3]
  have := RT.eval_strip g.rt _ _ b2
  rw [hr] at this
  rw [show RT.strip ({ h.rt with w := w, refs := r } : RT.St ℝ (VdcRef.St ℝ)) = { RT.strip h.rt with refs := r } from rfl, RT.eval_refs] at this
  rw [this, hr]
  exact ⟨rfl, rfl⟩

/-- The measured voltage of every evaluation of class `k` in configuration `g` is the function `f` of the arguments of the call. -/
def Sees (k : Cls) (g : SCfg) (f : Call k → ℝ) : Prop :=
  ∀ (c : Call k) (h : Hid), h.filt = (stateStage k c.y h).filt → measVal k g h (envC k g c h) = f c

/-- The ride-through part of a sequence of successful evaluations is a run of the ride-through model whose inputs have the times of the calls and, as
voltages, the measured voltages. -/
theorem run_rt {f : Call k → ℝ} (hf : Sees k g f) (l : List (Call k)) (h : Hid) (hok : Ok k g h l) :
    ∃ ins : List (RT.Inp ℝ), RT.samples ins = l.map (fun c => (c.t, f c)) ∧ RT.strip (run k g h l).rt = RT.run g.rt.unit (RT.strip h.rt) ins := by
  induction l generalizing h with
  | nil => exact ⟨[], rfl, rfl⟩
  | cons c l ih =>
    obtain ⟨⟨e, he⟩, ho⟩ := hok
    obtain ⟨h5, _, hfl, _, hst, _⟩ := eval_rt he
    obtain ⟨ins, h1, h2⟩ := ih _ ho
    refine ⟨⟨c.t, measVal k g h5 (envC k g c h5), (envC k g c h5).we / (2 * Real.pi), refsOf (envC k g c h5)⟩ :: ins, ?_, h2.trans ?_⟩
    · have hm : measVal k g h5 (envC k g c h5) = f c := hf c h5 (by
        rw [hfl]
        show _ = (match k.filt c.y with | some v => some v | none => h5.filt)
        rw [hfl]
        unfold stateStage
        cases k.filt c.y <;> rfl)
      show (c.t, measVal k g h5 (envC k g c h5)) :: RT.samples ins = _
      rw [h1, hm]
      rfl
    · rw [hst]; rfl

theorem run_append (l l' : List (Call k)) (h : Hid) : run k g h (l ++ l') = run k g (run k g h l) l' := by simp [run]

theorem ok_append (l l' : List (Call k)) (h : Hid) : Ok k g h (l ++ l') ↔ Ok k g h l ∧ Ok k g (run k g h l) l' := by
  induction l generalizing h with
  | nil => simp [Ok, run]
  | cons c l ih =>
    show (_ ∧ Ok k g _ (l ++ l')) ↔ (_ ∧ _) ∧ _
    rw [ih]
    exact and_assoc.symm

theorem isInit_strip {s : RT.St ℝ (VdcRef.St ℝ)} (hi : RT.IsInit s) : RT.IsInit (RT.strip s) :=
  ⟨hi.lvz, hi.hvz, hi.lvt, hi.lvm, hi.hvt, hi.hvm, hi.lfz, hi.lft, hi.rl, hi.cl, hi.td, hi.tr, hi.trip, hi.mc, hi.conn⟩

/-- What the result of an evaluation is computed from when the DER is disconnected. -/
theorem eval_disconnected (he : (evalEnv k g c h).2 = .ok e) (hd : (evalEnv k g c h).1.rt.connected = false) :
    ∃ e0 : Env, e = disc e0 := by
  obtain ⟨h5, _, _, h2, _⟩ := eval_rt he
  rw [h2] at he hd
  obtain ⟨_, _, _, h6⟩ := rt_ok he
  exact ⟨_, by rw [h6, hd]; rfl⟩

end Eval
end PvDer
