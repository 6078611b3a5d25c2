import Verif.Props.Restore

/-!
# Property C127, continued: exceptions with `restore_Vdc`, and a concrete second reconnection
-/

namespace PvDer
namespace Eval
open Complex Phasor Ode VdcRef

variable {k : Cls} {g : SCfg} {h : Hid}

theorem dcGood_add {w : VdcRef.St ℝ} (cfg : VdcRef.Cfg ℝ) (hw : DcGood w) (t v : ℝ) :
    DcGood (addRef cfg w t v).1 ∧ (addRef cfg w t v).1.inst.del = w.inst.del ∧ ∀ x, (addRef cfg w t v).2 = .error x → x = .valueError := by
  unfold addRef
  split_ifs
  · exact ⟨hw, rfl, fun x hx => (Except.error.inj hx).symm⟩
  · refine ⟨⟨addTimed_sorted _ _ hw.sorted, fun _ => rfl, hw.ctr0, ?_⟩, rfl, fun x hx => by simp at hx⟩
    have := Events.length_addTimed_ge hw.sorted t (v / cfg.base)
    have h1 := hw.ctr1
    show w.inst.ctr = 0 ∨ w.inst.ctr < ((addTimed t (v / cfg.base) w.lst).length : ℤ)
    omega

theorem dcGood_loop (cfg : VdcRef.Cfg ℝ) (vs ts : List ℝ) {w : VdcRef.St ℝ} (hw : DcGood w) :
    DcGood (addLoop cfg w ts vs).1 ∧ (addLoop cfg w ts vs).1.inst.del = w.inst.del ∧
      ∀ x, (addLoop cfg w ts vs).2 = .error x → x = .valueError ∨ x = .indexError := by
  induction vs generalizing w ts with
  | nil => cases ts <;> exact ⟨hw, rfl, fun x hx => by simp [addLoop] at hx⟩
  | cons v vs ih =>
    cases ts with
    | nil => exact ⟨hw, rfl, fun x hx => Or.inr (Except.error.inj hx).symm⟩
    | cons t ts =>
      obtain ⟨a1, a2, a3⟩ := dcGood_add cfg hw t v
      unfold addLoop
      rcases hq : addRef cfg w t v with ⟨w', r⟩
      rw [hq] at a1 a2 a3
      cases r with
      | error e => exact ⟨a1, a2, fun x hx => Or.inl (a3 x hx)⟩
      | ok _ =>
        obtain ⟨i1, i2, i3⟩ := ih ts a1
        exact ⟨i1, i2.trans a2, i3⟩

/-- A ramp keeps the schedule in order, also when it raises; with a non-zero step the exception is `ValueError` or `IndexError`. -/
theorem dcGood_ramp (cfg : VdcRef.Cfg ℝ) {w : VdcRef.St ℝ} (hw : DcGood w) (hdel : w.inst.del ≠ 0) (t target : ℝ) :
    DcGood (ramp cfg w t target).1 ∧ (ramp cfg w t target).1.inst.del ≠ 0 ∧
      ∀ x, (ramp cfg w t target).2 = .error x → x = .valueError ∨ x = .indexError := by
  obtain ⟨v, hv⟩ := playback_total w.lst w.inst.total w.inst.ctr w.inst.ref t hw.sorted hw.total hw.ctr0 hw.ctr1
  have h0 := Events.playback_ctr_nonneg hw.total hw.ctr0 w.inst.ref t
  have h1 := Events.tight_playback hw.total hw.ctr1 w.inst.ref t
  have hg : VdcRef.getRef w t = ({ w with inst := { w.inst with ctr := (playback w.lst w.inst.total w.inst.ctr w.inst.ref t).1 } }, .ok v) := by
    unfold VdcRef.getRef; rw [hv]
  have hw' : DcGood ({ w with inst := { w.inst with ctr := (playback w.lst w.inst.total w.inst.ctr w.inst.ref t).1 } } : VdcRef.St ℝ) :=
    ⟨hw.sorted, hw.total, h0, h1⟩
  have hd' : ({ w with inst := { w.inst with ctr := (playback w.lst w.inst.total w.inst.ctr w.inst.ref t).1 } } : VdcRef.St ℝ).inst.del ≠ 0 := hdel
  unfold ramp
  rw [hg]
  generalize ({ w with inst := { w.inst with ctr := (playback w.lst w.inst.total w.inst.ctr w.inst.ref t).1 } } : VdcRef.St ℝ) = s1 at hw' hd' ⊢
  dsimp only
  have hd : (if v * cfg.base > target then -s1.inst.del else s1.inst.del) ≠ 0 := by
    split_ifs <;> simpa using hd'
  generalize (if v * cfg.base > target then -s1.inst.del else s1.inst.del) = del at hd ⊢
  have hw2 : DcGood ({ s1 with inst := { s1.inst with del := del } } : VdcRef.St ℝ) := ⟨hw'.sorted, hw'.total, hw'.ctr0, hw'.ctr1⟩
  by_cases c1 : |v * cfg.base - target| ≤ s1.inst.del
  · rw [if_pos c1]
    obtain ⟨a1, a2, a3⟩ := dcGood_add cfg hw' t target
    exact ⟨a1, by rw [a2]; exact hd', fun x hx => Or.inl (a3 x hx)⟩
  · rw [if_neg c1, if_neg hd]
    by_cases c2 : arange (v * cfg.base + del) (target + del) del = []
    · rw [if_pos c2]
      exact ⟨hw2, hd, fun x hx => Or.inr (Except.error.inj hx).symm⟩
    · rw [if_neg c2]
      obtain ⟨a1, a2, a3⟩ := dcGood_loop cfg ((arange (v * cfg.base + del) (target + del) del).dropLast ++ [target])
        (arange t (t + ((arange (v * cfg.base + del) (target + del) del).length : ℝ)) cfg.delT) hw2
      exact ⟨a1, by rw [a2]; exact hd, a3⟩

theorem dc_del {h3 h4 : Hid} {t : ℝ} (e : dcStage k t h3 = (h4, .ok ())) : h4.rt.w.inst.del = h3.rt.w.inst.del := by
  unfold dcStage at e
  split at e
  · have f := (updateRef_frame (wNow h3) t).2.2.1
    rcases hu : VdcRef.updateRef (wNow h3) t with ⟨w, r⟩
    rw [hu] at e f
    cases r with
    | error x => simp at e
    | ok v =>
      simp only [Prod.mk.injEq, and_true] at e
      rw [← e]
      exact f
  · simp only [Prod.mk.injEq, and_true] at e
    rw [← e]
    rfl

/-- One evaluation with `restore_Vdc` on, under the conditions of C99 (but for the ramp). -/
theorem restoring_step (hr : g.restoreVdc = true) (hg : Good k { g with restoreVdc := false } h) (hdel : h.rt.w.inst.del ≠ 0) (c : Call k) :
    Good k { g with restoreVdc := false } (evalEnv k g c h).1 ∧ (evalEnv k g c h).1.rt.w.inst.del ≠ 0 ∧
      ∀ x, (evalEnv k g c h).2 = .error x → h.rt.connected = false ∧ (evalEnv k g c h).1.rt.connected = true ∧ (x = .valueError ∨ x = .indexError) := by
  obtain ⟨⟨e, he⟩, hg'⟩ := good_step hg c
  obtain ⟨h1, h2, h3, h4, e1, e2, e3, e4, e5⟩ := eval_ok he
  have e1' : gridStage g c.t h = (h1, .ok ()) := e1
  have e2' : solarStage k g c.t (stateStage k c.y h1) = (h2, .ok ()) := e2
  have e3' : loadStage k g c.jac c.t h2 = (h3, .ok ()) := e3
  have e4' : dcStage k c.t (qStage k g c h3) = (h4, .ok ()) := e4
  have ee : evalEnv k g c h = rtStage k g c (freqStage k g c (irefStage k g c h4)) := by
    unfold evalEnv
    rw [e1']; simp only [andThen]
    rw [e2']; simp only
    rw [e3']; simp only
    rw [e4']
  have e5' : evalEnv k { g with restoreVdc := false } c h = rtStage k { g with restoreVdc := false } c (freqStage k g c (irefStage k g c h4)) := e5
  have a1 : h1.rt = h.rt := by have := grid_rt (g := g) (h := h) c.t; rw [e1'] at this; exact this
  have a2 : h2.rt = h.rt := by have := solar_rt (k := k) (g := g) (h := stateStage k c.y h1) c.t; rw [e2'] at this; exact this.trans a1
  have a3 : h3.rt = h.rt := by have := load_rt (k := k) (g := g) (h := h2) c.jac c.t; rw [e3'] at this; exact this.trans a2
  obtain ⟨w, r, hr5⟩ := pre_rt e4'
  have d5 : (freqStage k g c (irefStage k g c h4)).rt.w.inst.del ≠ 0 := by
    have : (freqStage k g c (irefStage k g c h4)).rt.w = h4.rt.w := by rw [freq_rt]; rfl
    rw [this, dc_del e4']
    show h3.rt.w.inst.del ≠ 0
    rw [a3]; exact hdel
  rw [ee]
  rw [e5'] at he hg'
  generalize freqStage k g c (irefStage k g c h4) = h5 at *
  have l5 : h5.rt.lfEnable = false := by rw [hr5, a3]; exact hg.lf
  have c5 : h5.rt.connected = h.rt.connected := by rw [hr5, a3]
  obtain ⟨m1, m2, m3, _⟩ := rt_ok he
  obtain ⟨t1, t2, t3⟩ := RT.eval_total ({ g with restoreVdc := false } : SCfg).rt h5.rt ⟨c.t, measVal k g h5 (envC k g c h5), (envC k g c h5).we / (2 * Real.pi), refsOf (envC k g c h5)⟩ l5 rfl
  have w5 : DcGood h5.rt.w := by
    have := hg'.dc
    rw [m3] at this
    rw [← t2]
    exact this
  have ev5 : EvGood g.sp h5.ev := by
    have := hg'.ev
    rw [m3] at this
    exact this
  have f5 : g.meas = .filtered → h5.filt ≠ none ∨ ∀ y, k.filt y ≠ none := by
    have := hg'.filt
    rw [m3] at this
    exact this
  have m1' : measCheck k g c.t h5 (envC k g c h5) = .ok () := m1
  rw [rtStage_closing, m1']
  dsimp only
  obtain ⟨q1, q2, q3⟩ := RT.eval_restore g.rt h5.rt ⟨c.t, measVal k g h5 (envC k g c h5), (envC k g c h5).we / (2 * Real.pi), refsOf (envC k g c h5)⟩ l5 hr
  have hcl : ∀ R : RT.St ℝ (VdcRef.St ℝ) × Except Err Unit, (closing h5 (envC k g c h5) R).1 = { h5 with rt := R.1 } ∧
      ∀ x, (closing h5 (envC k g c h5) R).2 = .error x → R.2 = .error x := by
    intro R
    unfold closing
    cases hR : R.2 with
    | error x => exact ⟨rfl, fun y hy => by simpa using hy⟩
    | ok u => exact ⟨rfl, fun y hy => by simp at hy⟩
  generalize hE : RT.eval g.rt h5.rt ⟨c.t, measVal k g h5 (envC k g c h5), (envC k g c h5).we / (2 * Real.pi), refsOf (envC k g c h5)⟩ = R at q1 q2 q3 ⊢
  obtain ⟨k1, k2⟩ := hcl R
  rw [k1]
  by_cases hrec : h5.rt.connected = false ∧ R.1.connected = true
  · obtain ⟨r1, r2, _⟩ := q1 hrec.1 hrec.2
    obtain ⟨b1, b2, b3⟩ := dcGood_ramp g.vdcCfg w5 d5 c.t g.vdcTarget
    have r1' : R.1.w = (ramp g.vdcCfg h5.rt.w c.t g.vdcTarget).1 := r1
    have r2' : R.2 = (ramp g.vdcCfg h5.rt.w c.t g.vdcTarget).2 := r2
    refine ⟨⟨hg.override, hg.msg, ev5, ?_, q3, rfl, hg.meas, f5⟩, ?_, ?_⟩
    · show DcGood R.1.w
      rw [r1']; exact b1
    · show R.1.w.inst.del ≠ 0
      rw [r1']; exact b2
    · intro x hx
      exact ⟨c5 ▸ hrec.1, hrec.2, b3 x (r2' ▸ k2 x hx)⟩
  · obtain ⟨r1, r2⟩ := q2 hrec
    refine ⟨⟨hg.override, hg.msg, ev5, ?_, q3, rfl, hg.meas, f5⟩, ?_, ?_⟩
    · show DcGood R.1.w
      rw [r1]; exact w5
    · show R.1.w.inst.del ≠ 0
      rw [r1]; exact d5
    · intro x hx
      have := k2 x hx
      rw [r2] at this
      simp at this

/-- C127: with `restore_Vdc` on — the other conditions being those under which C99 excludes exceptions — an evaluation raises only if it reconnects the DER, and
then `ValueError` or `IndexError`; this after any sequence of evaluations, including ones that raised and were caught. -/
theorem C127_only_reconnection_raises (hr : g.restoreVdc = true) (hg : Good k { g with restoreVdc := false } h) (hdel : h.rt.w.inst.del ≠ 0) (l : List (Call k))
    (c : Call k) {x : Err} (hx : (evalEnv k g c (run k g h l)).2 = .error x) :
    (run k g h l).rt.connected = false ∧ (run k g h (l ++ [c])).rt.connected = true ∧ (x = .valueError ∨ x = .indexError) := by
  have key : ∀ (l : List (Call k)) (h : Hid), Good k { g with restoreVdc := false } h → h.rt.w.inst.del ≠ 0 →
      Good k { g with restoreVdc := false } (run k g h l) ∧ (run k g h l).rt.w.inst.del ≠ 0 := by
    intro l
    induction l with
    | nil => intro h a b; exact ⟨a, b⟩
    | cons c l ih =>
      intro h a b
      obtain ⟨s1, s2, _⟩ := restoring_step hr a b c
      exact ih _ s1 s2
  obtain ⟨k1, k2⟩ := key l h hg hdel
  rw [run_append]
  exact (restoring_step hr k1 k2 c).2.2 x hx

/-! ### Concrete case of the second reconnection -/

/-- One evaluation of the ride-through part of the example DER, for each situation occurring in the second dip. -/
theorem exMc_step (r : RT.Refs ℝ) (i : RT.Inp ℝ) (a b d : ℝ) (hb : b < i.t) (hp : 1 / 2 < i.t) :
    let c := (exG exPar false).rt.unit
    (i.V = 1 / 10 → (RT.eval c (exMc () 0 b 0 0 false true r) i).1 = exMc () i.t i.t 0 0 false true i.refs) ∧
    (i.V = 1 / 10 → 0 < a → 1 / 10 ≤ i.t - a → i.t - a ≤ 100 → (RT.eval c (exMc () a b 0 0 false true r) i).1 = exMc () a i.t i.t 0 true true i.refs) ∧
    (i.V = 1 / 10 → 0 < a → i.t - a ≤ 100 → 0 < d → 1 / 60 < i.t - d → (RT.eval c (exMc () a b d 0 true true r) i).1 = exMc () a i.t 0 0 true false (zeroed i.refs)) ∧
    (i.V = 1 / 3 → 0 < a → (RT.eval c (exMc () a b 0 0 true false r) i).1 = exMc () 0 i.t 0 i.t false false (zeroed i.refs)) ∧
    (i.V = 1 / 3 → 0 < d → i.t - d ≤ 2 → (RT.eval c (exMc () 0 b 0 d false false r) i).1 = exMc () 0 i.t 0 d false false (zeroed i.refs)) ∧
    (i.V = 1 / 3 → 0 < d → 2 < i.t - d → (RT.eval c (exMc () 0 b 0 d false false r) i).1 = exMc () 0 i.t 0 0 false true i.refs) := by
  have h1' : (2:ℝ)⁻¹ < i.t := by rw [inv_eq_one_div]; exact hp
  have h0 : (0:ℝ) < i.t := by linarith
  refine ⟨?_, ?_, ?_, ?_, ?_, ?_⟩
  · intro hV
    simp [RT.eval, RT.updateFlags, RT.lvrt, RT.hvrt, RT.loopZones, RT.lvZone, RT.hvZone, exMc, hV, exG, RT.Cfg.unit, SCfg.rt, RT.disconnectOrReconnect, hb, h1']
    norm_num
  · intro hV ha h2 h3
    have h2' : (10:ℝ)⁻¹ ≤ i.t - a := by rw [inv_eq_one_div]; exact h2
    simp [RT.eval, RT.updateFlags, RT.lvrt, RT.hvrt, RT.loopZones, RT.lvZone, RT.hvZone, exMc, hV, exG, RT.Cfg.unit, SCfg.rt, RT.disconnectOrReconnect, hb, h1',
      RT.disconnectLogic, ha.ne', h2', h3]
    norm_num
  · intro hV ha h2 h3 h4
    have h4' : (60:ℝ)⁻¹ < i.t - d := by rw [inv_eq_one_div]; exact h4
    simp [RT.eval, RT.updateFlags, RT.lvrt, RT.hvrt, RT.loopZones, RT.lvZone, RT.hvZone, exMc, hV, exG, RT.Cfg.unit, SCfg.rt, RT.disconnectOrReconnect, hb, h1',
      RT.disconnectLogic, ha.ne', h2, h3.ne', not_lt.2 h4'.le, h4'.le, RT.disconnect, zeroed]
    norm_num
  · intro hV ha
    simp [RT.eval, RT.updateFlags, RT.lvrt, RT.hvrt, RT.loopZones, RT.lvZone, RT.hvZone, exMc, hV, exG, RT.Cfg.unit, SCfg.rt, RT.disconnectOrReconnect, hb, h1', h0,
      RT.reconnectLogic, RT.disconnect, zeroed, ha]
    norm_num
  · intro hV hd h2
    simp [RT.eval, RT.updateFlags, RT.lvrt, RT.hvrt, RT.loopZones, RT.lvZone, RT.hvZone, exMc, hV, exG, RT.Cfg.unit, SCfg.rt, RT.disconnectOrReconnect, hb, h1', h0,
      RT.reconnectLogic, RT.disconnect, zeroed, hd, not_lt.2 h2]
    norm_num
  · intro hV hd h2
    simp [RT.eval, RT.updateFlags, RT.lvrt, RT.hvrt, RT.loopZones, RT.lvZone, RT.hvZone, exMc, hV, exG, RT.Cfg.unit, SCfg.rt, RT.disconnectOrReconnect, hb, h1', h0,
      RT.reconnectLogic, RT.disconnect, hd, h2]
    norm_num

/-- Situation of the example DER: zone timer `a`, last evaluation `b`, disconnection timer `d`, reconnection timer `r`, cessation flag, connection. -/
def At (H : Hid) (a b d r : ℝ) (mc co : Bool) : Prop :=
  Good three (exG exPar false) H ∧ ∃ refs, RT.strip H.rt = exMc () a b d r mc co refs

theorem At.conn {H : Hid} {a b d r : ℝ} {mc co : Bool} (hA : At H a b d r mc co) : H.rt.connected = co := by
  obtain ⟨_, refs, h⟩ := hA
  exact congrArg RT.St.connected h

theorem At.next {H : Hid} {a b d r a' b' d' r' : ℝ} {mc co mc' co' : Bool} (hA : At H a b d r mc co) (y : ThreePhase.V → ℝ) (t u : ℝ) (hu : 0 ≤ u)
    (hs : ∀ (R : RT.Refs ℝ) (i : RT.Inp ℝ), i.t = t → i.V = u → ∃ R', (RT.eval (exG exPar false).rt.unit (exMc () a b d r mc co R) i).1 = exMc () a' b' d' r' mc' co' R') :
    At (evalEnv three (exG exPar false) (exCallU y t u) H).1 a' b' d' r' mc' co' := by
  obtain ⟨hG, R, hst⟩ := hA
  obtain ⟨he, hG'⟩ := good_step hG (exCallU y t u)
  refine ⟨hG', ?_⟩
  have hsees : Sees three (exG exPar false) (fun c => urmsMin c.va c.vb c.vc) := C96_sees_minimum (by simp [unbalancedClasses]) rfl rfl
  obtain ⟨ins, e1, e2⟩ := run_rt hsees [exCallU y t u] H ⟨he, trivial⟩
  simp only [List.map_cons, List.map_nil, exCallU_rms _ _ _ hu] at e1
  obtain ⟨i, rfl⟩ : ∃ i, ins = [i] := by
    have := congrArg List.length e1
    simp [RT.samples] at this
    match ins, this with
    | [a], _ => exact ⟨a, rfl⟩
  simp only [RT.samples, List.map_cons, List.map_nil, List.cons.injEq, Prod.mk.injEq, and_true] at e1
  obtain ⟨R', hR'⟩ := hs R i e1.1 e1.2
  refine ⟨R', ?_⟩
  rw [← hR', ← hst]
  exact e2

/-- An evaluation that does not reconnect is the same with `restore_Vdc` on. -/
theorem At.same {H : Hid} {a b d r a' b' d' r' : ℝ} {mc co mc' co' : Bool} (hA : At H a b d r mc co) (c : Call three)
    (hB : At (evalEnv three (exG exPar false) c H).1 a' b' d' r' mc' co') (hn : co = true ∨ co' = false) :
    evalEnv three exRestore c H = evalEnv three (exG exPar false) c H :=
  (eval_toggle (g := exRestore) hA.1.lf c).2 (by
    have h1 := hA.conn
    have h2 : (evalEnv three { exRestore with restoreVdc := false } c H).1.rt.connected = co' := hB.conn
    rw [h1, h2]
    rcases hn with rfl | rfl <;> simp)

/-- `At.next` and `At.same` together. -/
theorem At.one {H : Hid} {a b d r a' b' d' r' : ℝ} {mc co mc' co' : Bool} (y : ThreePhase.V → ℝ) (t u : ℝ) (hu : 0 ≤ u) (hA : At H a b d r mc co)
    (hs : ∀ (R : RT.Refs ℝ) (i : RT.Inp ℝ), i.t = t → i.V = u → ∃ R', (RT.eval (exG exPar false).rt.unit (exMc () a b d r mc co R) i).1 = exMc () a' b' d' r' mc' co' R')
    (hn : co = true ∨ co' = false) :
    (∃ e, (evalEnv three exRestore (exCallU y t u) H).2 = .ok e) ∧ At (evalEnv three exRestore (exCallU y t u) H).1 a' b' d' r' mc' co' := by
  have hB := hA.next y t u hu hs
  rw [hA.same _ hB hn]
  exact ⟨(good_step hA.1 _).1, hB⟩

/-- The first dip of the example, up to the evaluation at 4 s. -/
theorem exFirst_run (y1 y2 y3 y4 : ThreePhase.V → ℝ) :
    At (evalEnv three exRestore (exCallU y4 4 (1 / 3)) (run three exRestore exRestoreH
      [exCallU y1 1 (1 / 10), exCallU y2 2 (1 / 10), exCallU y3 3 (1 / 10)])).1 0 4 0 4 false false := by
  have r10 : (0:ℝ) ≤ 1 / 10 := by norm_num
  have r3 : (0:ℝ) ≤ 1 / 3 := by norm_num
  have hno : ∀ o ∈ exOps, o.isRemoval = false := by
    intro o ho
    simp only [exOps, List.mem_cons, List.not_mem_nil, or_false] at ho
    rcases ho with rfl | rfl | rfl <;> rfl
  have hG := ex_good three exPar false (Or.inl rfl) exOps hno
  have hA : At exRestoreH 0 0 0 0 false true := ⟨⟨hG.override, hG.msg, hG.ev, hG.dc, rfl, hG.ramp, hG.meas, hG.filt⟩, _, rfl⟩
  obtain ⟨_, A1⟩ := At.one y1 1 (1 / 10) r10 hA (a' := 1) (b' := 1) (d' := 0) (r' := 0) (mc' := false) (co' := true)
    (fun R i h1 h2 => ⟨_, by have := (exMc_step R i 0 0 0 (by rw [h1]; norm_num) (by rw [h1]; norm_num)).1 h2; rw [h1] at this; exact this⟩) (Or.inl rfl)
  obtain ⟨_, A2⟩ := At.one y2 2 (1 / 10) r10 A1 (a' := 1) (b' := 2) (d' := 2) (r' := 0) (mc' := true) (co' := true)
    (fun R i h1 h2 => ⟨_, by
      have := (exMc_step R i 1 1 0 (by rw [h1]; norm_num) (by rw [h1]; norm_num)).2.1 h2 (by norm_num) (by rw [h1]; norm_num) (by rw [h1]; norm_num)
      rw [h1] at this; exact this⟩) (Or.inl rfl)
  obtain ⟨_, A3⟩ := At.one y3 3 (1 / 10) r10 A2 (a' := 1) (b' := 3) (d' := 0) (r' := 0) (mc' := true) (co' := false)
    (fun R i h1 h2 => ⟨_, by
      have := (exMc_step R i 1 2 2 (by rw [h1]; norm_num) (by rw [h1]; norm_num)).2.2.1 h2 (by norm_num) (by rw [h1]; norm_num) (by norm_num)
        (by rw [h1]; norm_num)
      rw [h1] at this; exact this⟩) (Or.inl rfl)
  exact (At.one y4 4 (1 / 3) r3 A3 (fun R i h1 h2 => ⟨_, by
      have := (exMc_step R i 1 3 0 (by rw [h1]; norm_num) (by rw [h1]; norm_num)).2.2.2.1 h2 (by norm_num)
      rw [h1] at this; exact this⟩) (Or.inr rfl)).2

theorem noReconnect_cons {H : Hid} {c : Call k} {q : List (Call k)} (h1 : H.rt.connected = false → (evalEnv k g c H).1.rt.connected = false)
    (h2 : NoReconnect k g (evalEnv k g c H).1 q) : NoReconnect k g H (c :: q) := by
  intro a x b hq hc
  cases a with
  | nil =>
    simp only [List.nil_append, List.cons.injEq] at hq
    rw [← hq.1]
    exact h1 hc
  | cons a0 a =>
    simp only [List.cons_append, List.cons.injEq] at hq
    rw [← hq.1] at hc ⊢
    exact h2 a x b hq.2 hc

/-- The second dip of the example: from 7.4 s to 8.6 s, evaluations 0.4 s apart, recovery, reconnection at 10.7 s. -/
noncomputable def exSecond (Y : ℕ → ThreePhase.V → ℝ) : List (Call three) :=
  [exCallU (Y 0) (37 / 5) (1 / 10), exCallU (Y 1) (39 / 5) (1 / 10), exCallU (Y 2) (41 / 5) (1 / 10), exCallU (Y 3) (43 / 5) (1 / 3), exCallU (Y 4) 9 (1 / 3),
    exCallU (Y 5) (47 / 5) (1 / 3), exCallU (Y 6) (49 / 5) (1 / 3), exCallU (Y 7) (51 / 5) (1 / 3), exCallU (Y 8) (53 / 5) (1 / 3)]

/-- The calls `q` lead from `H` to `H'` without exception and without reconnecting. -/
def Leads (H : Hid) (q : List (Call three)) (H' : Hid) : Prop :=
  Ok three exRestore H q ∧ NoReconnect three exRestore H q ∧ run three exRestore H q = H'

theorem Leads.cons {H H' : Hid} {c : Call three} {q : List (Call three)} {a b d r : ℝ} {mc co : Bool} (hok : ∃ e, (evalEnv three exRestore c H).2 = .ok e)
    (hA : At (evalEnv three exRestore c H).1 a b d r mc co) (hn : H.rt.connected = true ∨ co = false) (hL : Leads (evalEnv three exRestore c H).1 q H') :
    Leads H (c :: q) H' := by
  refine ⟨⟨hok, hL.1⟩, noReconnect_cons (fun h => ?_) hL.2.1, hL.2.2⟩
  rcases hn with h1 | h1
  · rw [h] at h1; simp at h1
  · rw [hA.conn, h1]

theorem exWait (y : ThreePhase.V → ℝ) (t : ℝ) {b : ℝ} (hb : b < t) (hp : 1 / 2 < t) (hle : t - 43 / 5 ≤ 2) (q : List (Call three)) {a' b' d' r' : ℝ} {mc' co' : Bool}
    (hq : ∀ H, At H 0 t 0 (43 / 5) false false → ∃ H', At H' a' b' d' r' mc' co' ∧ Leads H q H') (H : Hid) (hA : At H 0 b 0 (43 / 5) false false) :
    ∃ H', At H' a' b' d' r' mc' co' ∧ Leads H (exCallU y t (1 / 3) :: q) H' := by
  obtain ⟨o, A⟩ := At.one y t (1 / 3) (by norm_num) hA (a' := 0) (b' := t) (d' := 0) (r' := 43 / 5) (mc' := false) (co' := false) (fun R i h1 h2 => ⟨_, by
    have := (exMc_step R i 0 b (43 / 5) (by rw [h1]; exact hb) (by rw [h1]; exact hp)).2.2.2.2.1 h2 (by norm_num) (by rw [h1]; exact hle)
    rw [h1] at this; exact this⟩) (Or.inr rfl)
  obtain ⟨H', A', L'⟩ := hq _ A
  exact ⟨H', A', Leads.cons o A (Or.inr rfl) L'⟩

theorem exSecond_leads (Y : ℕ → ThreePhase.V → ℝ) (H : Hid) (hA : At H 0 7 0 0 false true) :
    ∃ H', At H' 0 (53 / 5) 0 (43 / 5) false false ∧ Leads H (exSecond Y) H' := by
  have r10 : (0:ℝ) ≤ 1 / 10 := by norm_num
  have k9 := exWait (Y 8) (53 / 5) (b := 51 / 5) (by norm_num) (by norm_num) (by norm_num) []
    (fun H hA => ⟨H, hA, trivial, fun a x b hq => by simp at hq, rfl⟩)
  have k8 := exWait (Y 7) (51 / 5) (b := 49 / 5) (by norm_num) (by norm_num) (by norm_num) _ k9
  have k7 := exWait (Y 6) (49 / 5) (b := 47 / 5) (by norm_num) (by norm_num) (by norm_num) _ k8
  have k6 := exWait (Y 5) (47 / 5) (b := 9) (by norm_num) (by norm_num) (by norm_num) _ k7
  have k5 := exWait (Y 4) 9 (b := 43 / 5) (by norm_num) (by norm_num) (by norm_num) _ k6
  have k4 : ∀ H, At H (37 / 5) (41 / 5) 0 0 true false → ∃ H', At H' 0 (53 / 5) 0 (43 / 5) false false ∧ Leads H ((exSecond Y).drop 3) H' := by
    intro H hA
    obtain ⟨o, A⟩ := At.one (Y 3) (43 / 5) (1 / 3) (by norm_num) hA (a' := 0) (b' := 43 / 5) (d' := 0) (r' := 43 / 5) (mc' := false) (co' := false)
      (fun R i h1 h2 => ⟨_, by
        have := (exMc_step R i (37 / 5) (41 / 5) 0 (by rw [h1]; norm_num) (by rw [h1]; norm_num)).2.2.2.1 h2 (by norm_num)
        rw [h1] at this; exact this⟩) (Or.inr rfl)
    obtain ⟨H', A', L'⟩ := k5 _ A
    exact ⟨H', A', Leads.cons o A (Or.inr rfl) L'⟩
  have k3 : ∀ H, At H (37 / 5) (39 / 5) (39 / 5) 0 true true → ∃ H', At H' 0 (53 / 5) 0 (43 / 5) false false ∧ Leads H ((exSecond Y).drop 2) H' := by
    intro H hA
    obtain ⟨o, A⟩ := At.one (Y 2) (41 / 5) (1 / 10) r10 hA (a' := 37 / 5) (b' := 41 / 5) (d' := 0) (r' := 0) (mc' := true) (co' := false)
      (fun R i h1 h2 => ⟨_, by
        have := (exMc_step R i (37 / 5) (39 / 5) (39 / 5) (by rw [h1]; norm_num) (by rw [h1]; norm_num)).2.2.1 h2 (by norm_num) (by rw [h1]; norm_num) (by norm_num)
          (by rw [h1]; norm_num)
        rw [h1] at this; exact this⟩) (Or.inl rfl)
    obtain ⟨H', A', L'⟩ := k4 _ A
    exact ⟨H', A', Leads.cons o A (Or.inr rfl) L'⟩
  have k2 : ∀ H, At H (37 / 5) (37 / 5) 0 0 false true → ∃ H', At H' 0 (53 / 5) 0 (43 / 5) false false ∧ Leads H ((exSecond Y).drop 1) H' := by
    intro H hA
    obtain ⟨o, A⟩ := At.one (Y 1) (39 / 5) (1 / 10) r10 hA (a' := 37 / 5) (b' := 39 / 5) (d' := 39 / 5) (r' := 0) (mc' := true) (co' := true)
      (fun R i h1 h2 => ⟨_, by
        have := (exMc_step R i (37 / 5) (37 / 5) 0 (by rw [h1]; norm_num) (by rw [h1]; norm_num)).2.1 h2 (by norm_num) (by rw [h1]; norm_num) (by rw [h1]; norm_num)
        rw [h1] at this; exact this⟩) (Or.inl rfl)
    obtain ⟨H', A', L'⟩ := k3 _ A
    exact ⟨H', A', Leads.cons o A (Or.inl hA.conn) L'⟩
  obtain ⟨o, A⟩ := At.one (Y 0) (37 / 5) (1 / 10) r10 hA (a' := 37 / 5) (b' := 37 / 5) (d' := 0) (r' := 0) (mc' := false) (co' := true)
    (fun R i h1 h2 => ⟨_, by have := (exMc_step R i 0 7 0 (by rw [h1]; norm_num) (by rw [h1]; norm_num)).1 h2; rw [h1] at this; exact this⟩) (Or.inl rfl)
  obtain ⟨H', A', L'⟩ := k2 _ A
  exact ⟨H', A', Leads.cons o A (Or.inl hA.conn) L'⟩

theorem exSecond_run (Y : ℕ → ThreePhase.V → ℝ) {H : Hid} (hA : At H 0 7 0 0 false true) :
    Ok three exRestore H (exSecond Y) ∧ NoReconnect three exRestore H (exSecond Y) ∧ At (run three exRestore H (exSecond Y)) 0 (53 / 5) 0 (43 / 5) false false ∧
      (evalEnv three exRestore (exCallU (Y 9) (107 / 10) (1 / 3)) (run three exRestore H (exSecond Y))).1.rt.connected = true := by
  obtain ⟨H', A9, L1, L2, L3⟩ := exSecond_leads Y H hA
  rw [L3]
  refine ⟨L1, L2, A9, ?_⟩
  rw [(eval_toggle (g := exRestore) A9.1.lf _).1]
  exact (A9.next (Y 9) (107 / 10) (1 / 3) (by norm_num) (a' := 0) (b' := 107 / 10) (d' := 0) (r' := 0) (mc' := false) (co' := true)
    (fun R i h1 h2 => ⟨_, by
      have := (exMc_step R i 0 (53 / 5) (43 / 5) (by rw [h1]; norm_num) (by rw [h1]; norm_num)).2.2.2.2.2 h2 (by norm_num) (by rw [h1]; norm_num)
      rw [h1] at this; exact this⟩)).conn

theorem exReconnect {H : Hid} (hA : At H 0 4 0 4 false false) (hd : H.rt.w.inst.del ≠ 0) (y : ThreePhase.V → ℝ)
    (he : ∃ e, (evalEnv three exRestore (exCallU y 7 (1 / 3)) H).2 = .ok e) : At (evalEnv three exRestore (exCallU y 7 (1 / 3)) H).1 0 7 0 0 false true := by
  refine ⟨(restoring_step (g := exRestore) rfl hA.1 hd _).1, ?_⟩
  have hsees : Sees three exRestore (fun c => urmsMin c.va c.vb c.vc) := C96_sees_minimum (by simp [unbalancedClasses]) rfl rfl
  obtain ⟨ins, e1, e2⟩ := run_rt hsees [exCallU y 7 (1 / 3)] H ⟨he, trivial⟩
  have r3 : (0:ℝ) ≤ 1 / 3 := by norm_num
  simp only [List.map_cons, List.map_nil, exCallU_rms _ _ _ r3] at e1
  obtain ⟨i, rfl⟩ : ∃ i, ins = [i] := by
    have := congrArg List.length e1
    simp [RT.samples] at this
    match ins, this with
    | [a], _ => exact ⟨a, rfl⟩
  simp only [RT.samples, List.map_cons, List.map_nil, List.cons.injEq, Prod.mk.injEq, and_true] at e1
  obtain ⟨i1, i2⟩ := e1
  have i1' : i.t = 7 := i1
  obtain ⟨_, R, hR⟩ := hA
  have e2' : RT.strip (evalEnv three exRestore (exCallU y 7 (1 / 3)) H).1.rt = (RT.eval exRestore.rt.unit (exMc () 0 4 0 4 false false R) i).1 := by rw [← hR]; exact e2
  refine ⟨i.refs, ?_⟩
  rw [e2']
  simp [RT.eval, RT.updateFlags, RT.lvrt, RT.hvrt, RT.loopZones, RT.lvZone, RT.hvZone, exMc, i1', i2, exRestore, exG, RT.Cfg.unit, SCfg.rt, RT.disconnectOrReconnect,
    RT.reconnectLogic]
  norm_num

theorem exSecond_close (y5 : ThreePhase.V → ℝ) (Y : ℕ → ThreePhase.V → ℝ) :
    Close exRestore.vdcCfg.delT (exCallU y5 7 (1 / 3)).t ((exSecond Y ++ [exCallU (Y 9) (107 / 10) (1 / 3)]).map (·.t)) := by
  have h1 : exRestore.vdcCfg.delT = 1 / 2 := rfl
  have h2 : ∀ (y : ThreePhase.V → ℝ) (t u : ℝ), (exCallU y t u).t = t := fun _ _ _ => rfl
  rw [h1, h2]
  simp only [exSecond, List.cons_append, List.nil_append, List.map_cons, List.map_nil, h2, Close]
  norm_num

theorem exSecond_core (h H1 : Hid) (c0 : Call three) (y5 : ThreePhase.V → ℝ) (Y : ℕ → ThreePhase.V → ℝ) (q1 : h.rt.lfEnable = false) (q2 : h.rt.w.lst = [])
    (q3 : h.rt.w.inst.ctr = 0) (q4 : h.rt.w.inst.del = 2) (v : ℝ) (q5 : ∃ e0, (evalEnv three exRestore c0 h).2 = .ok e0 ∧ e0.Vdc = v)
    (q7 : (evalEnv three exRestore (exCallU y5 7 (1 / 3)) (evalEnv three exRestore c0 h).1).1.rt.connected = true)
    (A4 : At (evalEnv three exRestore c0 h).1 0 4 0 4 false false) (hV : |550 - v * 500| ≤ 74 / 5)
    (hH : (evalEnv three exRestore (exCallU y5 7 (1 / 3)) (evalEnv three exRestore c0 h).1).1 = H1) :
    Ok three exRestore H1 (exSecond Y) ∧ NoReconnect three exRestore H1 (exSecond Y) ∧ (run three exRestore H1 (exSecond Y)).rt.connected = false ∧
      (evalEnv three exRestore (exCallU (Y 9) (107 / 10) (1 / 3)) (run three exRestore H1 (exSecond Y))).1.rt.connected = true ∧
      (2 < v * 500 - 550 → (evalEnv three exRestore (exCallU (Y 9) (107 / 10) (1 / 3)) (run three exRestore H1 (exSecond Y))).2 = .error .indexError) ∧
      (v * 500 - 550 ≤ 2 → ∃ e, (evalEnv three exRestore (exCallU (Y 9) (107 / 10) (1 / 3)) (run three exRestore H1 (exSecond Y))).2 = .ok e ∧
        e.Vdc_ref = 550 / 500) := by
  obtain ⟨e0, he0, hv0⟩ := q5
  have q6 := A4.conn
  have hb := abs_le.1 hV
  have g1 : exRestore.vdcCfg.vmin = 450 := rfl
  have g2 : exRestore.vdcCfg.vmax = 650 := rfl
  have g3 : exRestore.vdcCfg.base = 500 := rfl
  have g4 : exRestore.vdcTarget = 550 := rfl
  have g5 : exRestore.vdcCfg.delT = 1 / 2 := rfl
  have ht : ∀ (y : ThreePhase.V → ℝ) (t u : ℝ), (exCallU y t u).t = t := fun _ _ _ => rfl
  have hv : exRestore.vdcCfg.vmin ≤ e0.Vdc * exRestore.vdcCfg.base ∧ e0.Vdc * exRestore.vdcCfg.base ≤ exRestore.vdcCfg.vmax := by
    rw [hv0, g1, g2, g3]
    constructor <;> linarith [hb.1, hb.2]
  have d2 : 0 < h.rt.w.inst.del := by rw [q4]; norm_num
  obtain ⟨⟨e, he, _⟩, _⟩ := C127_first_reconnection exRestores q1 q2 d2 c0 (exCallU y5 7 (1 / 3)) he0 q6 q7 hv
  have d4 : (evalEnv three exRestore c0 h).1.rt.w.inst.del ≠ 0 := by
    obtain ⟨v, _, u2, _⟩ := not_reconnecting exRestores.cls exRestores.dc q1 exRestores.on he0 (by rintro ⟨_, n⟩; rw [q6] at n; exact absurd n (by simp))
    rw [u2, (updateRef_frame _ _).2.2.1]
    exact d2.ne'
  have hA := exReconnect A4 d4 y5 ⟨e, he⟩
  rw [hH] at hA
  obtain ⟨s1, s2, s3, s4⟩ := exSecond_run Y hA
  have hlo : |exRestore.vdcTarget - e0.Vdc * exRestore.vdcCfg.base| / h.rt.w.inst.del ≤
      ((exCallU (Y 9) (107 / 10) (1 / 3)).t - (exCallU y5 7 (1 / 3)).t) / exRestore.vdcCfg.delT := by
    rw [q4, hv0, g3, g4, g5, ht, ht, div_le_iff₀ (by norm_num)]
    norm_num
    linarith
  have hT := C127_second_reconnection exRestores q1 q2 q3 d2 c0 (exCallU y5 7 (1 / 3)) he0 q6 q7 hv (exSecond Y) (exCallU (Y 9) (107 / 10) (1 / 3))
  rw [hH, q4, hv0, g3, g4] at hT
  have hT' := hT s1 s2 (exSecond_close y5 Y) s3.conn s4 (by rw [q4, hv0, g3, g4] at hlo; exact hlo)
  refine ⟨s1, s2, s3.conn, s4, hT'.1, fun hle => (hT'.2 hle).1⟩

/-- Concrete case of the second reconnection of C127: after the first dip (`C127_example`; DC voltage `y4 .Vdc` while disconnected, reconnection at 7 s) a second
dip from 7.4 s to 8.6 s; at 10.7 s the DER reconnects again.  All hypotheses of `C127_second_reconnection` hold if the DC voltage was within 14.8 V of the 550 V
set-point: above 552 V the second reconnection aborts the simulation with `IndexError`, otherwise the reference jumps to the set-point. -/
theorem C127_second_example (y1 y2 y3 y4 y5 : ThreePhase.V → ℝ) (Y : ℕ → ThreePhase.V → ℝ) (hV : |550 - y4 .Vdc * 500| ≤ 74 / 5) :
    let h1 := (evalEnv three exRestore (exCallU y5 7 (1 / 3)) (evalEnv three exRestore (exCallU y4 4 (1 / 3))
      (run three exRestore exRestoreH [exCallU y1 1 (1 / 10), exCallU y2 2 (1 / 10), exCallU y3 3 (1 / 10)])).1).1
    let x := exCallU (Y 9) (107 / 10) (1 / 3)
    Ok three exRestore h1 (exSecond Y) ∧ NoReconnect three exRestore h1 (exSecond Y) ∧ (run three exRestore h1 (exSecond Y)).rt.connected = false ∧
      (evalEnv three exRestore x (run three exRestore h1 (exSecond Y))).1.rt.connected = true ∧
      (2 < y4 .Vdc * 500 - 550 → (evalEnv three exRestore x (run three exRestore h1 (exSecond Y))).2 = .error .indexError) ∧
      (y4 .Vdc * 500 - 550 ≤ 2 → ∃ e, (evalEnv three exRestore x (run three exRestore h1 (exSecond Y))).2 = .ok e ∧ e.Vdc_ref = 550 / 500) := by
  obtain ⟨_, _, q1, q2, q3, q4, q5, _, q7⟩ := C127_example y1 y2 y3 y4 y5
  exact exSecond_core _ _ _ y5 Y q1 q2 q3 q4 (y4 .Vdc) q5 q7 (exFirst_run y1 y2 y3 y4) hV rfl

/-- Concrete case of `C127_only_reconnection_raises`: its hypotheses hold for the example DER. -/
theorem C127_only_reconnection_example : exRestore.restoreVdc = true ∧ Good three { exRestore with restoreVdc := false } exRestoreH ∧ exRestoreH.rt.w.inst.del ≠ 0 := by
  have hno : ∀ o ∈ exOps, o.isRemoval = false := by
    intro o ho
    simp only [exOps, List.mem_cons, List.not_mem_nil, or_false] at ho
    rcases ho with rfl | rfl | rfl <;> rfl
  have hG := ex_good three exPar false (Or.inl rfl) exOps hno
  refine ⟨rfl, ⟨hG.override, hG.msg, hG.ev, hG.dc, rfl, hG.ramp, hG.meas, hG.filt⟩, ?_⟩
  show (2:ℝ) ≠ 0
  norm_num

end Eval
end PvDer
