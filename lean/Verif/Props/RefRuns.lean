import Verif.Props.SharedRefs
import Verif.Props.SecondRun
import Verif.Props.SessionLimits

/-!
# Property C162: the DC link voltage reference in evaluations and repeated simulations

The schedule and its total survive a run, the counter is reset (dynamic_simulation.py 969-970, DER_utilities.py 633-638); but the reference in use before
the first entry is whatever `Vdc_ref` holds (DER_utilities.py 324-329, 573-593), which a run overwrites.
-/

set_option linter.unusedSectionVars false

namespace PvDer

namespace VdcRef
variable {K : Type} [Field K] [LinearOrder K] [IsStrictOrderedRing K]

/-- The state after a sequence of `update_Vdc_ref` calls. -/
def updRun (s : St K) (ts : List K) : St K := ts.foldl (fun s t => (updateRef s t).1) s

theorem updSeq_append (a b : List K) : ∀ s : St K, updSeq s (a ++ b) = updSeq s a ++ updSeq (updRun s a) b := by
  induction a with
  | nil => intro s; rfl
  | cons t a ih => intro s; show _ :: updSeq _ (a ++ b) = _; rw [ih]; rfl

theorem updSeq_length (a : List K) : ∀ s : St K, (updSeq s a).length = a.length := by
  induction a with
  | nil => intro s; rfl
  | cons t a ih => intro s; show (_ :: updSeq _ a).length = _; simp [ih]

theorem updRun_frame (a : List K) : ∀ s : St K, (updRun s a).lst = s.lst ∧ (updRun s a).inst.total = s.inst.total := by
  induction a with
  | nil => intro s; exact ⟨rfl, rfl⟩
  | cons t a ih =>
    intro s
    obtain ⟨i1, i2⟩ := ih (updateRef s t).1
    obtain ⟨u1, u2⟩ := update_frame s t
    exact ⟨i1.trans u1, i2.trans u2⟩

theorem forall₂_mid {α β : Type} {R : α → β → Prop} {x : α} {y : β} {b : List α} {b' : List β} : ∀ (a : List α) (a' : List β), a.length = a'.length →
    List.Forall₂ R (a ++ x :: b) (a' ++ y :: b') → R x y
  | [], [], _, h => by cases h; assumption
  | _ :: a, _ :: a', hl, h => by
    cases h with
    | cons _ h => exact forall₂_mid a a' (by simpa using hl) h
  | [], _ :: _, hl, _ => by simp at hl
  | _ :: _, [], hl, _ => by simp at hl

end VdcRef

namespace RT
variable {K W : Type} [Field K] [LinearOrder K] [IsStrictOrderedRing K]

/-- Connected, no flag set, no frequency ride-through. -/
structure Idle (s : St K W) : Prop where
  connected : s.connected = true
  trip : s.trip = false
  mc : s.mc = false
  lvt : s.lv.trip = false
  lvm : s.lv.mc = false
  hvt : s.hv.trip = false
  hvm : s.hv.mc = false
  lf : s.lfEnable = false

/-- Before the time at which the protection starts, an evaluation leaves the DER connected. -/
theorem idle_step {c : Cfg K W} {s : St K W} (h : Idle s) {i : Inp K} (ht : i.t ≤ c.tStable) : Idle (eval c s i).1 := by
  have hl : lvrt c.tStable c.Vref i.V i.t s.lv = s.lv := by unfold lvrt; rw [if_neg (not_lt.2 ht)]
  have hh : hvrt c.tStable c.Vref i.V i.t s.hv = s.hv := by unfold hvrt; rw [if_neg (not_lt.2 ht)]
  have huf : ∃ lock, updateFlags c i.t i.V i.f { s with refs := i.refs } = ({ s with refs := i.refs, rtLock := lock }, .ok ()) := by
    by_cases hk : i.t > s.rtLock
    · refine ⟨i.t, ?_⟩
      rw [updateFlags_eq c i.t i.V i.f { s with refs := i.refs } hk]
      simp only [vrtStep, hl, hh, ite_self, h.lf, h.lvt, h.hvt, h.lvm, h.hvm, h.trip, h.mc, Bool.or_false, Bool.false_eq_true, if_false]
    · exact ⟨s.rtLock, updateFlags_lock c i.t i.V i.f { s with refs := i.refs } (not_lt.1 hk)⟩
  obtain ⟨lock, huf⟩ := huf
  have he : (eval c s i).1 = { s with refs := i.refs, rtLock := lock, connLock := if i.t > s.connLock then i.t else s.connLock } := by
    unfold eval
    rw [huf]
    simp only
    unfold disconnectOrReconnect
    by_cases hk : i.t > s.connLock
    · simp [hk, h.connected, h.trip, h.mc]
    · simp [hk, h.connected]
  rw [he]
  exact ⟨h.connected, h.trip, h.mc, h.lvt, h.lvm, h.hvt, h.hvm, h.lf⟩

end RT

namespace Eval
open Complex Phasor Ode
variable {k : Cls} {g : SCfg} {h : Hid} {c : Call k}

/-- Every one of these evaluations leaves the DER connected. -/
def Online (k : Cls) (g : SCfg) : Hid → List (Call k) → Prop
  | _, [] => True
  | h, c :: l => (evalEnv k g c h).1.rt.connected = true ∧ Online k g (evalEnv k g c h).1 l

theorem online_append (a b : List (Call k)) : ∀ h, Online k g h (a ++ b) ↔ Online k g h a ∧ Online k g (run k g h a) b := by
  induction a with
  | nil => intro h; simp [Online]; rfl
  | cons c a ih =>
    intro h
    show _ ∧ Online k g _ (a ++ b) ↔ (_ ∧ _) ∧ _
    rw [ih, and_assoc]; rfl

/-- One evaluation of a DER that stays connected. -/
theorem ref_step (hk : k ∈ classes) (hdc : k.dcRef = true) (hlf : h.rt.lfEnable = false) (hrv : g.restoreVdc = false) {e : Env}
    (he : (evalEnv k g c h).2 = .ok e) (hc : (evalEnv k g c h).1.rt.connected = true) :
    (VdcRef.updateRef (wNow h) c.t).2 = .ok e.Vdc_ref ∧ wNow (evalEnv k g c h).1 = (VdcRef.updateRef (wNow h) c.t).1 ∧
      (evalEnv k g c h).1.rt.refs.VdcRef = e.Vdc_ref ∧ (evalEnv k g c h).1.rt.lfEnable = false := by
  obtain ⟨h1, h2, h3, h4, e1, e2, e3, e4, e5⟩ := eval_ok he
  obtain ⟨v, u1, u2, u3, u4, u5⟩ := before_rt hdc e1 e2 e3 e4
  have hv : (VdcRef.updateRef (wNow h) c.t).1.inst.ref = v := by
    have := u1
    unfold VdcRef.updateRef VdcRef.getRef at this ⊢
    generalize PvDer.playback (wNow h).lst (wNow h).inst.total (wNow h).inst.ctr (wNow h).inst.ref c.t = R at this ⊢
    obtain ⟨a, b⟩ := R
    cases b with
    | error x => simp at this
    | ok b => simp only [Prod.mk.injEq, Except.ok.injEq, true_and] at this; exact this
  rw [e5] at he hc ⊢
  generalize freqStage k g c (irefStage k g c h4) = h5 at *
  obtain ⟨m1, m2, m3, m4⟩ := rt_ok he
  rw [m3] at hc m4
  have hrefs := RT.eval_connected_refs g.rt h5.rt _ m2 hc
  obtain ⟨_, t2, t3⟩ := RT.eval_total g.rt h5.rt ⟨c.t, measVal k g h5 (envC k g c h5), (envC k g c h5).we / (2 * Real.pi), refsOf (envC k g c h5)⟩ (u5.trans hlf) hrv
  have hev : e.Vdc_ref = v := by
    dsimp only at m4
    rw [if_pos hc] at m4
    rw [m4, envC_vdcref hk, u3]
  have hr : (rtStage k g c h5).1.rt.refs.VdcRef = v := by
    rw [m3]; dsimp only
    rw [hrefs]
    show (envC k g c h5).Vdc_ref = v
    rw [envC_vdcref hk, u3]
  refine ⟨by rw [u1, hev], ?_, by rw [hr, hev], by rw [m3]; exact t3⟩
  unfold wNow at hv u2 ⊢
  rw [hr]
  have hw : (rtStage k g c h5).1.rt.w = (VdcRef.updateRef (wNow h) c.t).1 := by rw [m3]; dsimp only; rw [t2, u2]; rfl
  rw [hw]
  unfold wNow
  rw [← hv]

/-- Along evaluations that leave the DER connected, what is stored is what `update_Vdc_ref` alone would store. -/
theorem refs_along (hk : k ∈ classes) (hdc : k.dcRef = true) (hrv : g.restoreVdc = false) (l : List (Call k)) : ∀ h : Hid, h.rt.lfEnable = false →
    Ok k g h l → Online k g h l →
    wNow (run k g h l) = VdcRef.updRun (wNow h) (l.map Call.t) ∧ (run k g h l).rt.lfEnable = false := by
  induction l with
  | nil => intro h hlf _ _; exact ⟨rfl, hlf⟩
  | cons c l ih =>
    intro h hlf hok hon
    obtain ⟨⟨e, he⟩, ho⟩ := hok
    obtain ⟨_, s2, _, s4⟩ := ref_step hk hdc hlf hrv he hon.1
    obtain ⟨i1, i2⟩ := ih _ s4 ho hon.2
    exact ⟨i1.trans (by rw [s2]; rfl), i2⟩

/-- An example of staying connected: evaluations before the time at which the protection starts. -/
theorem idle_online (l : List (Call k)) : ∀ h : Hid, RT.Idle h.rt → Ok k g h l → (∀ c ∈ l, c.t ≤ g.tStable) → Online k g h l ∧ RT.Idle (run k g h l).rt := by
  induction l with
  | nil => intro h hi _ _; exact ⟨trivial, hi⟩
  | cons c l ih =>
    intro h hi hok hl
    obtain ⟨⟨e, he⟩, ho⟩ := hok
    obtain ⟨h5, _, _, _, hs, _⟩ := eval_rt he
    have hi' : RT.Idle (RT.strip h.rt) := ⟨hi.connected, hi.trip, hi.mc, hi.lvt, hi.lvm, hi.hvt, hi.hvm, hi.lf⟩
    have := RT.idle_step (c := g.rt.unit) hi' (i := ⟨c.t, measVal k g h5 (envC k g c h5), (envC k g c h5).we / (2 * Real.pi), refsOf (envC k g c h5)⟩) (hl c (by simp))
    rw [← hs] at this
    have hx : RT.Idle (evalEnv k g c h).1.rt := ⟨this.connected, this.trip, this.mc, this.lvt, this.lvm, this.hvt, this.hvm, this.lf⟩
    obtain ⟨i1, i2⟩ := ih _ hx ho (fun x hx => hl x (by simp [hx]))
    exact ⟨⟨hx.connected, i1⟩, i2⟩

/-- The schedule is canonical, the DER's total is its length, its counter is zero. -/
structure Fresh (h : Hid) : Prop where
  sorted : StrictSorted h.rt.w.lst
  total : h.rt.w.lst ≠ [] → h.rt.w.inst.total = h.rt.w.lst.length
  ctr : h.rt.w.inst.ctr = 0

/-- C162: in the evaluations of a run (a class with a DC link voltage reference that is not ramped on reconnection, fresh counter, evaluation times forward and
dense in the schedule) each evaluation up to which the DER has stayed connected works with the latest scheduled reference not later than its time, and before
the first one with the reference the DER had when the run began; and it stores that reference. -/
theorem C162_evaluations (hk : k ∈ classes) (hdc : k.dcRef = true) (hrv : g.restoreVdc = false) (hlf : h.rt.lfEnable = false) (hf : Fresh h)
    (p : List (Call k)) (cl : Call k) (hok : Ok k g h (p ++ [cl])) (hd : Dense h.rt.w.lst none ((p ++ [cl]).map Call.t))
    (hon : Online k g h (p ++ [cl])) :
    ∃ e, (evalEnv k g cl (run k g h p)).2 = .ok e ∧ Correct h.rt.w.lst h.rt.refs.VdcRef cl.t e.Vdc_ref ∧
      (run k g h (p ++ [cl])).rt.refs.VdcRef = e.Vdc_ref ∧ (run k g h (p ++ [cl])).rt.w.lst = h.rt.w.lst := by
  obtain ⟨o1, ⟨e, he⟩, _⟩ := (ok_append _ _ _).1 hok
  obtain ⟨n1, n2, _⟩ := (online_append p [cl] h).1 hon
  obtain ⟨a1, a2⟩ := refs_along hk hdc hrv p h hlf o1 n1
  obtain ⟨s1, s2, s3, _⟩ := ref_step hk hdc a2 hrv he n2
  have hrun : run k g h (p ++ [cl]) = (evalEnv k g cl (run k g h p)).1 := run_append p [cl] h
  refine ⟨e, he, ?_, by rw [hrun, s3], ?_⟩
  · have hd' : Dense h.rt.w.lst none (p.map Call.t ++ [cl.t]) := by simpa using hd
    have hp := (VdcRef.C44_playback (wNow h) hf.sorted hf.total _ hd').1
    have hres : VdcRef.reset (wNow h) = wNow h := by
      unfold VdcRef.reset wNow
      have := hf.ctr
      generalize h.rt.w = w at *
      obtain ⟨l, i⟩ := w
      obtain ⟨x1, x2, x3, x4⟩ := i
      simp only at this ⊢
      rw [this]
    rw [hres, VdcRef.updSeq_append] at hp
    have hm := VdcRef.forall₂_mid _ _ (VdcRef.updSeq_length _ _).symm hp
    obtain ⟨v, hv, hc⟩ := hm
    rw [← a1, s1] at hv
    have : e.Vdc_ref = v := by injection hv
    rw [this]; exact hc
  · rw [hrun]
    have h1 : (wNow (evalEnv k g cl (run k g h p)).1).lst = (wNow h).lst := by
      rw [s2, (VdcRef.update_frame _ _).1, a1, (VdcRef.updRun_frame _ _).1]
    exact h1

end Eval

namespace Session
open Complex Phasor Ode Eval
variable {k : Cls} {c c' : Cfg k} {sv sv' : Solver k} {s : Sess k}

/-- C162: what a completed simulation leaves of the references: the schedule and its total, a reset counter — and the last reference in use, not the one the
DER had before. -/
theorem C162_after_run (hk : k ∈ classes) (hdc : k.dcRef = true) (hrv : c.g.restoreVdc = false) (hlf : s.h.rt.lfEnable = false) (hf : Fresh s.h)
    (hret : (runSim c sv s).2 = .ok ()) (hon : Online k c.g s.h (trace c.g c.J c.x (sv s.y c.ts) s.h)) :
    Fresh (runSim c sv s).1.h ∧ (runSim c sv s).1.h.rt.w.lst = s.h.rt.w.lst ∧ (runSim c sv s).1.h.rt.lfEnable = false ∧
      (∀ p cl, trace c.g c.J c.x (sv s.y c.ts) s.h = p ++ [cl] →
        ∃ e, (evalEnv k c.g cl (run k c.g s.h p)).2 = .ok e ∧ (runSim c sv s).1.h.rt.refs.VdcRef = e.Vdc_ref) := by
  obtain ⟨h, y, rows, mused, he, _, hr⟩ := runSim_ok hret
  have ht := exec_trace (g := c.g) (h := s.h) c.J c.x (sv s.y c.ts) s.y
  rw [he] at ht
  obtain ⟨t1, t2⟩ := ht
  have hok := t2 _ rfl
  obtain ⟨a1, a2⟩ := refs_along hk hdc hrv _ s.h hlf hok hon
  rw [← t1] at a1 a2
  have hrt : (runSim c sv s).1.h.rt = { h.rt with w := VdcRef.reset h.rt.w } := by
    rw [hr, (finish_rt (c := c) c.ts rows { s with t := c.ts, rows := [s.y], h := resets h, y := y, conv := some true }).1]; rfl
  obtain ⟨u1, u2⟩ := VdcRef.updRun_frame ((trace c.g c.J c.x (sv s.y c.ts) s.h).map Call.t) (wNow s.h)
  have b1 : h.rt.w.lst = s.h.rt.w.lst := by
    have : (wNow h).lst = (wNow s.h).lst := by rw [a1, u1]
    exact this
  have b2 : h.rt.w.inst.total = s.h.rt.w.inst.total := by
    have : (wNow h).inst.total = (wNow s.h).inst.total := by rw [a1, u2]
    exact this
  rw [hrt]
  refine ⟨⟨?_, ?_, ?_⟩, b1, a2, ?_⟩
  · rw [hrt]; show StrictSorted h.rt.w.lst; rw [b1]; exact hf.sorted
  · rw [hrt]; show h.rt.w.lst ≠ [] → h.rt.w.inst.total = h.rt.w.lst.length; rw [b1, b2]; exact hf.total
  · rw [hrt]; rfl
  · intro p cl hp
    rw [hp] at hok hon t1
    obtain ⟨o1, ⟨e, hev⟩, _⟩ := (ok_append _ _ _).1 hok
    obtain ⟨n1, n2, _⟩ := (online_append p [cl] s.h).1 hon
    obtain ⟨x1, x2⟩ := refs_along hk hdc hrv p s.h hlf o1 n1
    obtain ⟨_, _, s3, _⟩ := ref_step hk hdc x2 hrv hev n2
    refine ⟨e, hev, ?_⟩
    show h.rt.refs.VdcRef = _
    have t1' : h = run k c.g s.h (p ++ [cl]) := t1
    rw [t1', run_append]
    exact s3

/-- C162: a second simulation of the session (any solver, settings and inputs; DER and its parameters as before) replays the schedule, but before the first
scheduled reference it works with the last reference of the first simulation. -/
theorem C162_second_run (hk : k ∈ classes) (hdc : k.dcRef = true) (hrv : c.g.restoreVdc = false) (hrv' : c'.g.restoreVdc = false) (hlf : s.h.rt.lfEnable = false)
    (hf : Fresh s.h) (hret : (runSim c sv s).2 = .ok ()) (hon : Online k c.g s.h (trace c.g c.J c.x (sv s.y c.ts) s.h)) (p1 : List (Call k)) (cl1 : Call k)
    (h1 : trace c.g c.J c.x (sv s.y c.ts) s.h = p1 ++ [cl1]) (hd1 : Dense s.h.rt.w.lst none ((p1 ++ [cl1]).map Call.t)) {r : List (k.V → ℝ) × List Int}
    (hok : (exec c'.g c'.J c'.x (sv' (runSim c sv s).1.y c'.ts) ((runSim c sv s).1.h, (runSim c sv s).1.y)).2 = .ok r) (p : List (Call k)) (cl : Call k) (q : List (Call k))
    (htr : trace c'.g c'.J c'.x (sv' (runSim c sv s).1.y c'.ts) (runSim c sv s).1.h = p ++ [cl] ++ q) (hd : Dense s.h.rt.w.lst none ((p ++ [cl]).map Call.t))
    (hon' : Online k c'.g (runSim c sv s).1.h (p ++ [cl])) :
    ∃ e1 e, (evalEnv k c.g cl1 (run k c.g s.h p1)).2 = .ok e1 ∧ (evalEnv k c'.g cl (run k c'.g (runSim c sv s).1.h p)).2 = .ok e ∧
      Correct s.h.rt.w.lst s.h.rt.refs.VdcRef cl1.t e1.Vdc_ref ∧ Correct s.h.rt.w.lst e1.Vdc_ref cl.t e.Vdc_ref := by
  obtain ⟨f1, f2, f3, f4⟩ := C162_after_run hk hdc hrv hlf hf hret hon
  obtain ⟨e1, a1, a2⟩ := f4 p1 cl1 h1
  obtain ⟨_, _, _, _, he, _, _⟩ := runSim_ok hret
  have ht := exec_trace (g := c.g) (h := s.h) c.J c.x (sv s.y c.ts) s.y
  rw [he] at ht
  have hok1 := ht.2 _ rfl
  rw [h1] at hok1 hon
  obtain ⟨e1', b1, b2, _⟩ := C162_evaluations hk hdc hrv hlf hf p1 cl1 hok1 hd1 hon
  have : e1' = e1 := by rw [a1] at b1; injection b1 with b; exact b.symm
  subst this
  have ht2 := (exec_trace (g := c'.g) (h := (runSim c sv s).1.h) c'.J c'.x (sv' (runSim c sv s).1.y c'.ts) (runSim c sv s).1.y).2 r hok
  rw [htr] at ht2
  have ho2 := ((ok_append _ _ _).1 ht2).1
  rw [← f2] at hd
  obtain ⟨e, d1, d2, _⟩ := C162_evaluations hk hdc hrv' f3 f1 p cl ho2 hd hon'
  rw [f2, a2] at d2
  exact ⟨e1', e, a1, d1, b2, d2⟩

/-- C162 is false of the code if "replays the schedule" includes the time before the first scheduled reference: there the second simulation uses the *last* scheduled
reference that the first one reached. -/
theorem C162_second_run_starts_wrong (hk : k ∈ classes) (hdc : k.dcRef = true) (hrv : c.g.restoreVdc = false) (hrv' : c'.g.restoreVdc = false)
    (hlf : s.h.rt.lfEnable = false) (hf : Fresh s.h) (hret : (runSim c sv s).2 = .ok ()) (hon : Online k c.g s.h (trace c.g c.J c.x (sv s.y c.ts) s.h))
    (p1 : List (Call k)) (cl1 : Call k) (h1 : trace c.g c.J c.x (sv s.y c.ts) s.h = p1 ++ [cl1]) (hd1 : Dense s.h.rt.w.lst none ((p1 ++ [cl1]).map Call.t))
    {last : Ev ℝ ℝ} (hlast : IsLatest s.h.rt.w.lst cl1.t last) {r : List (k.V → ℝ) × List Int}
    (hok : (exec c'.g c'.J c'.x (sv' (runSim c sv s).1.y c'.ts) ((runSim c sv s).1.h, (runSim c sv s).1.y)).2 = .ok r) (p : List (Call k)) (cl : Call k) (q : List (Call k))
    (htr : trace c'.g c'.J c'.x (sv' (runSim c sv s).1.y c'.ts) (runSim c sv s).1.h = p ++ [cl] ++ q) (hd : Dense s.h.rt.w.lst none ((p ++ [cl]).map Call.t))
    (hon' : Online k c'.g (runSim c sv s).1.h (p ++ [cl])) (hbefore : ∀ e ∈ s.h.rt.w.lst, cl.t < e.T) :
    ∃ e, (evalEnv k c'.g cl (run k c'.g (runSim c sv s).1.h p)).2 = .ok e ∧ e.Vdc_ref = last.v := by
  obtain ⟨e1, e, _, a2, a3, a4⟩ := C162_second_run hk hdc hrv hrv' hlf hf hret hon p1 cl1 h1 hd1 hok p cl q htr hd hon'
  refine ⟨e, a2, ?_⟩
  rcases a4 with ⟨x, hx, _⟩ | ⟨_, hx⟩
  · exact absurd hx.2.1 (not_le.2 (hbefore x hx.1))
  · rw [hx]
    rcases a3 with ⟨x, hx, hv⟩ | ⟨hn, _⟩
    · rw [hv]
      have e1 : x.T = last.T := le_antisymm (hlast.2.2 x hx.1 hx.2.1) (hx.2.2 last hlast.1 hlast.2.1)
      have := hf.sorted.eq_of_T hx.1 hlast.1 e1
      rw [this]
    · exact absurd hlast.2.1 (not_le.2 (hn last hlast.1))

/-! ### A concrete session -/

/-- The example session with two references scheduled: 1.2 p.u. from 0.2 s, 1.3 p.u. from 0.4 s. -/
noncomputable def exRefS (y : three.V → ℝ) : Sess three :=
  { exS false y with h := { (exS false y).h with rt := { exRT with w := ⟨[⟨1 / 5, 6 / 5⟩, ⟨2 / 5, 13 / 10⟩], ⟨2, 0, 11 / 10, 2⟩⟩ } } }

theorem exRefS_sorted : StrictSorted ([⟨1 / 5, 6 / 5⟩, ⟨2 / 5, 13 / 10⟩] : List (Ev ℝ ℝ)) := by
  unfold StrictSorted
  refine List.pairwise_cons.2 ⟨?_, List.pairwise_cons.2 ⟨by simp, List.Pairwise.nil⟩⟩
  intro e he
  rw [List.mem_singleton.1 he]
  norm_num

theorem exRefS_good (y : three.V → ℝ) : Good three (exC false).g (exRefS y).h := by
  have h := exS_good false y
  exact { h with dc := ⟨exRefS_sorted, fun _ => rfl, le_rfl, Or.inl rfl⟩ }

theorem exRefS_fresh (y : three.V → ℝ) : Fresh (exRefS y).h := ⟨exRefS_sorted, fun _ => rfl, rfl⟩

theorem exRefS_idle (y : three.V → ℝ) : RT.Idle (exRefS y).h.rt := by constructor <;> rfl

/-- C162, witness: the DER starts with 1.1 p.u.; the first run evaluates at 0.1, 0.3 and 0.45 s, the second at 0.1 s, where it uses 1.3 p.u. -/
theorem C162_example (y : three.V → ℝ) :
    let s1 := (runSim (exC false) (askAt 1 [1 / 10, 3 / 10, 9 / 20]) (exRefS y)).1
    (runSim (exC false) (askAt 1 [1 / 10, 3 / 10, 9 / 20]) (exRefS y)).2 = .ok () ∧
      ∃ e e', (evalEnv three (exC false).g (mkCall (exC false).x false y (1 / 10)) (exRefS y).h).2 = .ok e ∧ e.Vdc_ref = 11 / 10 ∧
        (evalEnv three (exC false).g (mkCall (exC false).x false s1.y (1 / 10)) s1.h).2 = .ok e' ∧ e'.Vdc_ref = 13 / 10 := by
  intro s1
  obtain ⟨a1, a2, a3⟩ := askAt_run (c := exC false) rfl [1 / 10, 3 / 10, 9 / 20] (exRefS y) (exRefS_good y)
  have t1 := (askAt_trace (exC false).g (exC false).J (exC false).x 1 [1 / 10, 3 / 10, 9 / 20] (exRefS y).y (exC false).ts (exRefS y).h (exRefS_good y) y).1
  have hmem : (three : Cls) ∈ classes := by simp [classes]
  have hts : (exC false).g.tStable = 1 / 2 := rfl
  have ok1 : Ok three (exC false).g (exRefS y).h ([1 / 10, 3 / 10, 9 / 20].map (mkCall (exC false).x false (exRefS y).y)) := C99_no_exception (exRefS_good y) _
  obtain ⟨on1, id1⟩ := idle_online _ (exRefS y).h (exRefS_idle y) ok1 (by
    intro c hc
    obtain ⟨t, ht, rfl⟩ := List.mem_map.1 hc
    rw [hts]
    show t ≤ 1 / 2
    simp only [List.mem_cons, List.not_mem_nil, or_false] at ht
    rcases ht with rfl | rfl | rfl <;> norm_num)
  have g1 : Good three (exC false).g s1.h := by
    have : s1.h = resets (run three (exC false).g (exRefS y).h ([1 / 10, 3 / 10, 9 / 20].map (mkCall (exC false).x false (exRefS y).y))) := a2
    rw [this]
    have hg := good_run (exRefS_good y) ([1 / 10, 3 / 10, 9 / 20].map (mkCall (exC false).x false (exRefS y).y))
    exact { hg with ev := evGood_reset (exC false).g.evc hg.ev, dc := ⟨hg.dc.1, hg.dc.2, le_rfl, Or.inl rfl⟩ }
  have id1' : RT.Idle s1.h.rt := by
    have : s1.h = resets (run three (exC false).g (exRefS y).h ([1 / 10, 3 / 10, 9 / 20].map (mkCall (exC false).x false (exRefS y).y))) := a2
    rw [this]
    exact ⟨id1.connected, id1.trip, id1.mc, id1.lvt, id1.lvm, id1.hvt, id1.hvm, id1.lf⟩
  have ok2 : Ok three (exC false).g s1.h [mkCall (exC false).x false s1.y (1 / 10)] := C99_no_exception g1 _
  obtain ⟨on2, _⟩ := idle_online _ s1.h id1' ok2 (by
    intro c hc
    rw [List.mem_singleton.1 hc, hts]
    show (1 / 10 : ℝ) ≤ 1 / 2
    norm_num)
  have d1 : Dense (exRefS y).h.rt.w.lst none [1 / 10, 3 / 10, 9 / 20] := by
    show Dense ([⟨1 / 5, 6 / 5⟩, ⟨2 / 5, 13 / 10⟩] : List (Ev ℝ ℝ)) none [1 / 10, 3 / 10, 9 / 20]
    norm_num [Dense, AfterPrev]
    try simp
  have dA : Dense (exRefS y).h.rt.w.lst none [1 / 10] := by
    show Dense ([⟨1 / 5, 6 / 5⟩, ⟨2 / 5, 13 / 10⟩] : List (Ev ℝ ℝ)) none [1 / 10]
    norm_num [Dense, AfterPrev]
    try simp
  have before : ∀ e ∈ (exRefS y).h.rt.w.lst, (1 / 10 : ℝ) < e.T := by
    show ∀ e ∈ ([⟨1 / 5, 6 / 5⟩, ⟨2 / 5, 13 / 10⟩] : List (Ev ℝ ℝ)), (1 / 10 : ℝ) < e.T
    intro e he
    simp only [List.mem_cons, List.not_mem_nil, or_false] at he
    rcases he with rfl | rfl <;> norm_num
  refine ⟨a1, ?_⟩
  obtain ⟨e, he, hc, _⟩ := C162_evaluations (k := three) (g := (exC false).g) (h := (exRefS y).h) hmem rfl rfl rfl (exRefS_fresh y) []
    (mkCall (exC false).x false y (1 / 10)) ⟨ok1.1, trivial⟩ dA ⟨on1.1, trivial⟩
  have hl : IsLatest (exRefS y).h.rt.w.lst (9 / 20) ⟨2 / 5, 13 / 10⟩ := by
    show IsLatest ([⟨1 / 5, 6 / 5⟩, ⟨2 / 5, 13 / 10⟩] : List (Ev ℝ ℝ)) (9 / 20) ⟨2 / 5, 13 / 10⟩
    refine ⟨by simp, by norm_num, fun e he _ => ?_⟩
    simp only [List.mem_cons, List.not_mem_nil, or_false] at he
    rcases he with rfl | rfl <;> norm_num
  have hx := askAt_trace (exC false).g (exC false).J (exC false).x 1 [1 / 10] s1.y (exC false).ts s1.h g1 s1.y
  obtain ⟨e', he', hv⟩ := C162_second_run_starts_wrong (c := exC false) (c' := exC false) (sv := askAt 1 [1 / 10, 3 / 10, 9 / 20]) (sv' := askAt 1 [1 / 10])
    (s := exRefS y) hmem rfl rfl rfl rfl (exRefS_fresh y) a1 (by rw [t1]; exact on1) ([1 / 10, 3 / 10].map (mkCall (exC false).x false (exRefS y).y))
    (mkCall (exC false).x false (exRefS y).y (9 / 20)) t1 d1 hl hx.2 [] (mkCall (exC false).x false s1.y (1 / 10)) [] hx.1 dA on2 before
  refine ⟨e, e', he, ?_, he', hv⟩
  rcases hc with ⟨x, hx, _⟩ | ⟨_, hv⟩
  · exact absurd hx.2.1 (not_le.2 (before x hx.1))
  · exact hv

end Session
end PvDer
