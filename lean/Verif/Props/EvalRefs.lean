import Verif.Props.EvalPure
import Verif.Props.Ramp

/-!
# Property C97: what becomes of the references when the DER disconnects and reconnects
-/

namespace PvDer
namespace Eval
open Complex Phasor Ode

variable {k : Cls} {g : SCfg} {h : Hid}

/-- What the references look like when an evaluation is done. -/
theorem eval_refs_after (hk : k ∈ classes) (hlf : h.rt.lfEnable = false) (hrv : g.restoreVdc = false) (c : Call k) {e : Env} (he : (evalEnv k g c h).2 = .ok e) :
    ∃ h4 : Hid, h4.rt.refs.ia = h.rt.refs.ia ∧ h4.tiref = h.tiref ∧
      (h.rt.w.lst = [] → h4.rt.refs.VdcRef = h.rt.refs.VdcRef ∧ (evalEnv k g c h).1.rt.w.lst = []) ∧
      (h.rt.voltVar = false → h4.rt.refs.Qref = if g.qExternal then h.rt.refs.Qref else 0) ∧
      (evalEnv k g c h).1.tiref = (irefStage k g c h4).tiref ∧ (evalEnv k g c h).1.rt.lfEnable = false ∧
      (h.rt.voltVar = false → (evalEnv k g c h).1.rt.voltVar = false) ∧
      ((evalEnv k g c h).1.rt.connected = true → (evalEnv k g c h).1.rt.refs.VdcRef = h4.rt.refs.VdcRef ∧ (evalEnv k g c h).1.rt.refs.Qref = h4.rt.refs.Qref ∧
        (evalEnv k g c h).1.rt.refs.ia = (irefStage k g c h4).rt.refs.ia ∧ e.ia_ref = ⟨(irefStage k g c h4).rt.refs.ia.1, (irefStage k g c h4).rt.refs.ia.2⟩ ∧
        e.Q_ref = h4.rt.refs.Qref ∧ e.Vdc_ref = h4.rt.refs.VdcRef) ∧
      ((evalEnv k g c h).1.rt.connected = false → (evalEnv k g c h).1.rt.refs.VdcRef = e.Vdc ∧ (evalEnv k g c h).1.rt.refs.Qref = 0 ∧
        (evalEnv k g c h).1.rt.refs.ia = (0, 0) ∧ (evalEnv k g c h).1.rt.voltVar = false) := by
  obtain ⟨h1, h2, h3, h4, e1, e2, e3, e4, e5⟩ := eval_ok he
  have a1 : h1.rt = h.rt := by have := grid_rt (g := g) (h := h) c.t; rw [e1] at this; exact this
  have a2 : h2.rt = h.rt := by have := solar_rt (k := k) (g := g) (h := stateStage k c.y h1) c.t; rw [e2] at this; exact this.trans a1
  have a3 : h3.rt = h.rt := by have := load_rt (k := k) (g := g) (h := h2) c.jac c.t; rw [e3] at this; exact this.trans a2
  have t1 : h1.tiref = h.tiref := by have := (grid_frame (g := g) (h := h) c.t).2.2.2.2.2; rw [e1] at this; exact this
  have t2 : h2.tiref = h1.tiref := by
    have : (solarStage k g c.t (stateStage k c.y h1)).1.tiref = h1.tiref := by
      unfold solarStage
      rcases Events.solarEvents g.sp (stateStage k c.y h1).ev c.t with ⟨ev, r⟩
      cases r with
      | error x => rfl
      | ok v => dsimp only; split_ifs <;> rfl
    rw [e2] at this; exact this
  have t3 : h3.tiref = h2.tiref := by
    have : (loadStage k g c.jac c.t h2).1.tiref = h2.tiref := by
      unfold loadStage
      split
      · rcases Events.loadEvents h2.ev c.t with ⟨ev, r⟩
        cases r with
        | error x => rfl
        | ok v => dsimp only; split_ifs <;> rfl
      · rfl
    rw [e3] at this; exact this
  obtain ⟨w4, v4, h4e⟩ := dc_rt e4
  have hdc : h.rt.w.lst = [] → h4.rt.refs.VdcRef = h.rt.refs.VdcRef ∧ h4.rt.w.lst = [] := by
    intro hl0
    have hl : (wNow (qStage k g c h3)).lst = [] := by show h3.rt.w.lst = []; rw [a3]; exact hl0
    have e4' := e4
    unfold dcStage at e4'
    split at e4'
    · have hgr : VdcRef.updateRef (wNow (qStage k g c h3)) c.t =
          (wNow (qStage k g c h3), .ok (wNow (qStage k g c h3)).inst.ref) := by
        unfold VdcRef.updateRef VdcRef.getRef
        rw [hl]
        simp [playback]
        rw [← hl]
      rw [hgr] at e4'
      simp only [Prod.mk.injEq, and_true] at e4'
      rw [← e4']
      refine ⟨?_, hl⟩
      show h3.rt.refs.VdcRef = _; rw [a3]
    · simp only [Prod.mk.injEq, and_true] at e4'
      rw [← e4']
      refine ⟨?_, hl⟩
      show h3.rt.refs.VdcRef = _; rw [a3]
  have hq : h.rt.voltVar = false → h4.rt.refs.Qref = if g.qExternal then h.rt.refs.Qref else 0 := by
    intro hv
    rw [h4e]
    show (VoltVar.updateQref h3.rt.voltVar g.qExternal _ _ _ _ _ _).Qref = _
    rw [a3, hv]
    unfold VoltVar.updateQref
    cases hx : g.qExternal
    · simp
    · simp
  set h5 := freqStage k g c (irefStage k g c h4) with hh5
  have r5 : h5.rt = (irefStage k g c h4).rt := by rw [hh5, freq_rt]
  have l5 : h5.rt.lfEnable = false := by
    rw [r5]; show h4.rt.lfEnable = false; rw [h4e]; show h3.rt.lfEnable = false; rw [a3]; exact hlf
  have v5 : h5.rt.voltVar = h.rt.voltVar := by
    rw [r5]; show h4.rt.voltVar = _; rw [h4e]; show h3.rt.voltVar = _; rw [a3]
  obtain ⟨u1, u2, u3⟩ := RT.eval_total g.rt h5.rt ⟨c.t, measVal k g h5 (envC k g c h5), (envC k g c h5).we / (2 * Real.pi), refsOf (envC k g c h5)⟩ l5 hrv
  have he' := he
  rw [e5] at he'
  obtain ⟨_, b2, b3, b4⟩ := rt_ok he'
  have hh : (evalEnv k g c h).1 = { h5 with rt := (RT.eval g.rt h5.rt ⟨c.t, measVal k g h5 (envC k g c h5), (envC k g c h5).we / (2 * Real.pi), refsOf (envC k g c h5)⟩).1 } := by
    rw [e5, b3]
  have hEr : (envC k g c h5).Vdc_ref = h5.rt.refs.VdcRef ∧ (envC k g c h5).Q_ref = h5.rt.refs.Qref := by
    have hQ : ∀ (p : Par) (i : Ode.Inp) (y : k.V → ℝ), (k.env p i y).Q_ref = i.Q_ref := by
      intro p i y
      simp only [classes, List.mem_cons, List.not_mem_nil, or_false] at hk
      rcases hk with rfl | rfl | rfl | rfl | rfl | rfl | rfl <;> rfl
    unfold envC envP
    dsimp only
    split_ifs
    · exact ⟨class_vdcref hk _ _ _, hQ _ _ _⟩
    · exact ⟨class_vdcref hk _ _ _, hQ _ _ _⟩
  refine ⟨h4, ?_, ?_, ?_, hq, ?_, ?_, ?_, ?_, ?_⟩
  · rw [h4e]; show h3.rt.refs.ia = _; rw [a3]
  · rw [h4e]; show h3.tiref = _; rw [t3, t2, t1]
  · intro hl
    refine ⟨(hdc hl).1, ?_⟩
    rw [hh]
    show (RT.eval g.rt h5.rt _).1.w.lst = []
    rw [u2, r5]
    exact (hdc hl).2
  · rw [hh]
    show h5.tiref = _
    rw [hh5]; unfold freqStage; split <;> rfl
  · rw [hh]; exact u3
  · intro hv
    rw [hh]
    exact (RT.eval_voltVar g.rt h5.rt _).1 (by rw [v5]; exact hv)
  · intro hc
    rw [e5, b3] at hc
    have hrefs := RT.eval_connected_refs g.rt h5.rt _ u1 hc
    rw [b3, show ({ h5 with rt := (RT.eval g.rt h5.rt ⟨c.t, measVal k g h5 (envC k g c h5), (envC k g c h5).we / (2 * Real.pi), refsOf (envC k g c h5)⟩).1 } : Hid).rt.connected = true from hc,
      if_pos rfl] at b4
    rw [hh]
    dsimp only
    rw [hrefs, b4]
    refine ⟨?_, ?_, ?_, ?_, ?_, ?_⟩
    · show (envC k g c h5).Vdc_ref = _; rw [hEr.1, r5]; rfl
    · show (envC k g c h5).Q_ref = _; rw [hEr.2, r5]; rfl
    · show h5.rt.refs.ia = _; rw [r5]
    · show (⟨h5.rt.refs.ia.1, h5.rt.refs.ia.2⟩ : ℂ) = _; rw [r5]
    · rw [hEr.2, r5]; rfl
    · rw [hEr.1, r5]; rfl
  · intro hc
    have hc0 := hc
    rw [e5, b3] at hc
    rw [b3, show ({ h5 with rt := (RT.eval g.rt h5.rt ⟨c.t, measVal k g h5 (envC k g c h5), (envC k g c h5).we / (2 * Real.pi), refsOf (envC k g c h5)⟩).1 } : Hid).rt.connected = false from hc] at b4
    rw [hh]
    have hev : RT.eval g.rt h5.rt ⟨c.t, measVal k g h5 (envC k g c h5), (envC k g c h5).we / (2 * Real.pi), refsOf (envC k g c h5)⟩ =
        RT.disconnectOrReconnect g.rt c.t (RT.updateFlags g.rt c.t (measVal k g h5 (envC k g c h5)) ((envC k g c h5).we / (2 * Real.pi)) { h5.rt with refs := refsOf (envC k g c h5) }).1 := by
      unfold RT.eval at u1 ⊢
      dsimp only at u1 ⊢
      cases hq' : (RT.updateFlags g.rt c.t (measVal k g h5 (envC k g c h5)) ((envC k g c h5).we / (2 * Real.pi)) { h5.rt with refs := refsOf (envC k g c h5) }).2 with
      | error e => rw [hq'] at u1; simp at u1
      | ok u => rfl
    have huv : (RT.updateFlags g.rt c.t (measVal k g h5 (envC k g c h5)) ((envC k g c h5).we / (2 * Real.pi)) { h5.rt with refs := refsOf (envC k g c h5) }).1.refs = refsOf (envC k g c h5) := by
      by_cases ht : c.t > h5.rt.rtLock
      · rw [RT.updateFlags_eq g.rt c.t _ _ { h5.rt with refs := refsOf (envC k g c h5) } ht]
        simp only [l5]
        rfl
      · rw [RT.updateFlags_lock g.rt c.t _ _ { h5.rt with refs := refsOf (envC k g c h5) } (not_lt.1 ht)]
    dsimp only at hc ⊢
    rw [hev] at hc ⊢
    obtain ⟨z1, z2, z3, z4, z5, z6, z7, z8, z9⟩ := RT.C33_disconnected_refs_zero g.rt c.t _ hc
    refine ⟨?_, z1, z3, z8⟩
    rw [z6, huv, b4]
    rfl

/-- C97: without the DC voltage ramp (`RESTORE_Vdc` off, the default) and without a DC reference schedule the DC reference after a reconnection is the DC voltage
at the last evaluation `c0` before the reconnection, and it stays there: the reference in force before the disconnection does not come back. Also an external
reactive power reference is lost: after the reconnection it is zero until the user sets it again, and Volt-VAR is off. -/
theorem C97_references_after_reconnection (hk : k ∈ classes) (hlf : h.rt.lfEnable = false) (hrv : g.restoreVdc = false) (hlst : h.rt.w.lst = [])
    (p : List (Call k)) (c0 : Call k) (q : List (Call k)) (hok : Ok k g h (p ++ c0 :: q)) (hd : (run k g h (p ++ [c0])).rt.connected = false)
    (hc : ∀ a b, q = a ++ b → a ≠ [] → (run k g h (p ++ c0 :: a)).rt.connected = true) :
    ∃ e0, (evalEnv k g c0 (run k g h p)).2 = .ok e0 ∧ (run k g h (p ++ c0 :: q)).rt.refs.VdcRef = e0.Vdc ∧
      (run k g h (p ++ c0 :: q)).rt.refs.Qref = 0 ∧ (run k g h (p ++ c0 :: q)).rt.voltVar = false := by
  have pre : ∀ (l : List (Call k)) (h : Hid), Ok k g h l → h.rt.lfEnable = false → h.rt.w.lst = [] →
      (run k g h l).rt.lfEnable = false ∧ (run k g h l).rt.w.lst = [] := by
    intro l
    induction l with
    | nil => intro h _ h1 h2; exact ⟨h1, h2⟩
    | cons c l ih =>
      intro h ho h1 h2
      obtain ⟨⟨e, he⟩, ho'⟩ := ho
      obtain ⟨h4, _, _, w1, _, _, w2, _⟩ := eval_refs_after hk h1 hrv c he
      exact ih _ ho' w2 (w1 h2).2
  obtain ⟨ok1, ok2⟩ := (ok_append _ _ _).1 hok
  obtain ⟨p1, p2⟩ := pre p h ok1 hlf hlst
  obtain ⟨⟨e0, he0⟩, ok3⟩ := ok2
  refine ⟨e0, he0, ?_⟩
  have hrun : ∀ l : List (Call k), run k g h (p ++ c0 :: l) = run k g (evalEnv k g c0 (run k g h p)).1 l := by
    intro l; rw [run_append]; rfl
  rw [hrun] at hd
  obtain ⟨h4, _, _, w1, _, _, w2, _, _, w3⟩ := eval_refs_after hk p1 hrv c0 he0
  obtain ⟨r1, r2, _, r4⟩ := w3 hd
  have after : ∀ (l : List (Call k)) (h : Hid), Ok k g h l → h.rt.lfEnable = false → h.rt.w.lst = [] → h.rt.refs.VdcRef = e0.Vdc → h.rt.refs.Qref = 0 →
      h.rt.voltVar = false → (∀ a b, l = a ++ b → a ≠ [] → (run k g h a).rt.connected = true) →
      (run k g h l).rt.refs.VdcRef = e0.Vdc ∧ (run k g h l).rt.refs.Qref = 0 ∧ (run k g h l).rt.voltVar = false := by
    intro l
    induction l with
    | nil => intro h _ _ _ h1 h2 h3 _; exact ⟨h1, h2, h3⟩
    | cons c l ih =>
      intro h ho hl hw hv hq hvv hcc
      obtain ⟨⟨e, he⟩, ho'⟩ := ho
      obtain ⟨h4, _, _, x1, x2, _, x3, x4, x5, _⟩ := eval_refs_after hk hl hrv c he
      obtain ⟨y1, y2, _⟩ := x5 (hcc [c] l rfl (by simp))
      refine ih _ ho' x3 (x1 hw).2 ?_ ?_ (x4 hvv) (fun a b hab ha => hcc (c :: a) b (by rw [hab]; rfl) (by simp))
      · rw [y1, (x1 hw).1]; exact hv
      · rw [y2, x2 hvv, hq]; simp
  rw [hrun]
  exact after q _ ok3 w2 (w1 p2).2 r1 r2 r4 (fun a b hab ha => by rw [← hrun]; exact hc a b hab ha)

/-- C97: with no disconnection the DC reference stays where it was set, and so does an external reactive power reference. -/
theorem C97_undisturbed (hk : k ∈ classes) (hlf : h.rt.lfEnable = false) (hrv : g.restoreVdc = false) (hlst : h.rt.w.lst = []) (hvv : h.rt.voltVar = false)
    (l : List (Call k)) (hok : Ok k g h l) (hc : ∀ a b, l = a ++ b → a ≠ [] → (run k g h a).rt.connected = true) :
    (run k g h l).rt.refs.VdcRef = h.rt.refs.VdcRef ∧ (g.qExternal = true → (run k g h l).rt.refs.Qref = h.rt.refs.Qref) := by
  induction l generalizing h with
  | nil => exact ⟨rfl, fun _ => rfl⟩
  | cons c l ih =>
    obtain ⟨⟨e, he⟩, ho'⟩ := hok
    obtain ⟨h4, _, _, x1, x2, _, x3, x4, x5, _⟩ := eval_refs_after hk hlf hrv c he
    obtain ⟨y1, y2, _⟩ := x5 (hc [c] l rfl (by simp))
    obtain ⟨i1, i2⟩ := ih x3 (x1 hlst).2 (x4 hvv) ho' (fun a b hab ha => hc (c :: a) b (by rw [hab]; rfl) (by simp))
    refine ⟨?_, fun hq => ?_⟩
    · show (run k g (evalEnv k g c h).1 l).rt.refs.VdcRef = _
      rw [i1, y1, (x1 hlst).1]
    · show (run k g (evalEnv k g c h).1 l).rt.refs.Qref = _
      rw [i2 hq, y2, x2 hvv, hq]; rfl

/-- C97: with the current ramp limiter the three-phase classes start softly: at the first evaluation `c` after reconnection the current reference used for the
result differs from zero by at most the gradient times the time since the previous evaluation `c0` (at which the DER was still disconnected). -/
theorem C97_soft_start (hk : k ∈ classes) (hfam : k.fam = .threePhase) (hlf : h.rt.lfEnable = false) (hrv : g.restoreVdc = false) (hlim : g.limiter = true)
    (hR : 0 ≤ g.gR) (hI : 0 ≤ g.gI) (c0 c : Call k) {e0 e : Env} (he0 : (evalEnv k g c0 h).2 = .ok e0) (hd : (evalEnv k g c0 h).1.rt.connected = false)
    (he : (evalEnv k g c (evalEnv k g c0 h).1).2 = .ok e) (hc : (evalEnv k g c (evalEnv k g c0 h).1).1.rt.connected = true) (ht : c0.t < c.t) :
    |e.ia_ref.re| ≤ g.gR * (c.t - c0.t) ∧ |e.ia_ref.im| ≤ g.gI * (c.t - c0.t) := by
  obtain ⟨h4, _, _, _, _, x5, x6, _, _, x9⟩ := eval_refs_after hk hlf hrv c0 he0
  have hia := (x9 hd).2.2.1
  have htr : (evalEnv k g c0 h).1.tiref = c0.t := by
    rw [x5]
    unfold irefStage Ramp.updateIref
    simp only [hfam]
  obtain ⟨h4', y1, y2, _, _, _, _, _, y8, _⟩ := eval_refs_after hk x6 hrv c he
  obtain ⟨_, _, _, z4, _⟩ := y8 hc
  have hpos : 0 < c.t - c0.t := sub_pos.2 ht
  have key : ∀ gr cmd : ℝ, 0 ≤ gr → |Ramp.comp (c.t - c0.t) gr 0 cmd| ≤ gr * (c.t - c0.t) := by
    intro gr cmd hgr
    unfold Ramp.comp Ramp.copysign
    have h0 : 0 ≤ min (|cmd - 0| / (c.t - c0.t)) gr := le_min (div_nonneg (abs_nonneg _) hpos.le) hgr
    have h1 : |min (|cmd - 0| / (c.t - c0.t)) gr * (c.t - c0.t)| ≤ gr * (c.t - c0.t) := by
      rw [abs_of_nonneg (mul_nonneg h0 hpos.le)]
      exact mul_le_mul_of_nonneg_right (min_le_right _ _) hpos.le
    split_ifs <;> simpa using h1
  rw [z4]
  have hst : h4'.rt.refs.ia = (0, 0) ∧ h4'.tiref = c0.t := ⟨y1.trans hia, y2.trans htr⟩
  constructor
  · show |(Ramp.updateIref k.fam g.limiter g.gR g.gI ⟨h4'.rt.refs.ia.1, h4'.rt.refs.ia.2, h4'.tiref⟩ _).refR| ≤ _
    rw [hst.1, hst.2, hlim]
    simp only [Ramp.updateIref, Ramp.limited, if_true, gt_iff_lt, ht]
    exact key _ _ hR
  · show |(Ramp.updateIref k.fam g.limiter g.gR g.gI ⟨h4'.rt.refs.ia.1, h4'.rt.refs.ia.2, h4'.tiref⟩ _).refI| ≤ _
    rw [hst.1, hst.2, hlim]
    simp only [Ramp.updateIref, Ramp.limited, if_true, gt_iff_lt, ht]
    exact key _ _ hI

/-! ### Concrete case -/

/-- Ride-through state with one low-voltage momentary-cessation zone (0.5 p.u., cessation after 0.1 s) and one high-voltage zone. -/
noncomputable def exMc {W : Type} (w : W) (tS lock tD tR : ℝ) (mc co : Bool) (r : RT.Refs ℝ) : RT.St ℝ W :=
  { lvEnable := true, hvEnable := true, lfEnable := false, lv := ⟨[⟨1 / 2, 100, 1 / 10, .cessation, tS, false⟩], false, mc⟩,
    hv := ⟨[⟨11 / 10, 3, 1 / 10, .mandatory, 0, false⟩], false, false⟩, lf := [], lfTrip := false, rtLock := lock, connLock := lock, tDisc := tD, tReco := tR,
    trip := false, mc := mc, connected := co, voltVar := false, voltWatt := false, refs := r, w := w }

/-- References after `DER_disconnect`. -/
noncomputable def zeroed (r : RT.Refs ℝ) : RT.Refs ℝ := { r with Qref := 0, VdcRef := r.Vdc, Ppv := 0, ia := (0, 0), ib := (0, 0), ic := (0, 0) }

theorem exMc_run (r : RT.Refs ℝ) (i1 i2 i3 i4 i5 : RT.Inp ℝ) (h1 : i1.t = 1 ∧ i1.V = 1 / 10) (h2 : i2.t = 2 ∧ i2.V = 1 / 10) (h3 : i3.t = 3 ∧ i3.V = 1 / 10)
    (h4 : i4.t = 4 ∧ i4.V = 1 / 3) (h5 : i5.t = 7 ∧ i5.V = 1 / 3) :
    let c := (exG exPar false).rt.unit
    RT.run c (exMc () 0 0 0 0 false true r) [i1] = exMc () 1 1 0 0 false true i1.refs ∧
    RT.run c (exMc () 1 1 0 0 false true i1.refs) [i2] = exMc () 1 2 2 0 true true i2.refs ∧
    RT.run c (exMc () 1 2 2 0 true true i2.refs) [i3] = exMc () 1 3 0 0 true false (zeroed i3.refs) ∧
    RT.run c (exMc () 1 3 0 0 true false (zeroed i3.refs)) [i4] = exMc () 0 4 0 4 false false (zeroed i4.refs) ∧
    RT.run c (exMc () 0 4 0 4 false false (zeroed i4.refs)) [i5] = exMc () 0 7 0 0 false true i5.refs := by
  refine ⟨?_, ?_, ?_, ?_, ?_⟩
  · simp [RT.run, RT.eval, RT.updateFlags, RT.lvrt, RT.hvrt, RT.loopZones, RT.lvZone, RT.hvZone, exMc, h1, exG, RT.Cfg.unit, SCfg.rt, RT.disconnectOrReconnect]
    norm_num
  · simp [RT.run, RT.eval, RT.updateFlags, RT.lvrt, RT.hvrt, RT.loopZones, RT.lvZone, RT.hvZone, exMc, h2, exG, RT.Cfg.unit, SCfg.rt, RT.disconnectOrReconnect,
      RT.disconnectLogic]
    norm_num
  · simp [RT.run, RT.eval, RT.updateFlags, RT.lvrt, RT.hvrt, RT.loopZones, RT.lvZone, RT.hvZone, exMc, h3, exG, RT.Cfg.unit, SCfg.rt, RT.disconnectOrReconnect,
      RT.disconnectLogic, RT.disconnect, zeroed]
    norm_num
  · simp [RT.run, RT.eval, RT.updateFlags, RT.lvrt, RT.hvrt, RT.loopZones, RT.lvZone, RT.hvZone, exMc, h4, exG, RT.Cfg.unit, SCfg.rt, RT.disconnectOrReconnect,
      RT.reconnectLogic, RT.disconnect, zeroed]
    norm_num
  · simp [RT.run, RT.eval, RT.updateFlags, RT.lvrt, RT.hvrt, RT.loopZones, RT.lvZone, RT.hvZone, exMc, h5, exG, RT.Cfg.unit, SCfg.rt, RT.disconnectOrReconnect,
      RT.reconnectLogic]
    norm_num

/-- A call with balanced voltage of RMS value `u`. -/
noncomputable def exCallU (y : ThreePhase.V → ℝ) (t u : ℝ) : Call three :=
  ⟨false, y, t, ((u * Real.sqrt 2 : ℝ) : ℂ), ub ((u * Real.sqrt 2 : ℝ) : ℂ), uc ((u * Real.sqrt 2 : ℝ) : ℂ), 377⟩

theorem exCallU_rms (y : ThreePhase.V → ℝ) (t u : ℝ) (hu : 0 ≤ u) : urmsMin (exCallU y t u).va (exCallU y t u).vb (exCallU y t u).vc = u := by
  show urmsMin ((u * Real.sqrt 2 : ℝ) : ℂ) (ub _) (uc _) = u
  rw [(C50_balanced _).2]
  unfold urms1
  have h2 : (0:ℝ) < Real.sqrt 2 := by positivity
  rw [Complex.norm_real, Real.norm_of_nonneg (by positivity)]
  field_simp

/-- Concrete case of C97: an undervoltage of 2 s with momentary cessation, then recovery. The DER is disconnected after the third and the fourth call and
connected again after the fifth, whatever the state vectors are. -/
theorem C97_example (y1 y2 y3 y4 y5 : ThreePhase.V → ℝ) :
    let g := exG exPar false
    let h : Hid := { exH g (exEv g) with rt := exMc ⟨[], ⟨0, 0, 11 / 10, 2⟩⟩ 0 0 0 0 false true ⟨0, 11 / 10, 11 / 10, 0, (0, 0), (0, 0), (0, 0)⟩ }
    let p := [exCallU y1 1 (1 / 10), exCallU y2 2 (1 / 10), exCallU y3 3 (1 / 10)]
    RT.IsInit h.rt ∧ h.rt.lfEnable = false ∧ g.restoreVdc = false ∧ h.rt.w.lst = [] ∧ Ok three g h (p ++ exCallU y4 4 (1 / 3) :: [exCallU y5 7 (1 / 3)]) ∧
      (run three g h (p ++ [exCallU y4 4 (1 / 3)])).rt.connected = false ∧
      (∀ a b, [exCallU y5 7 (1 / 3)] = a ++ b → a ≠ [] → (run three g h (p ++ exCallU y4 4 (1 / 3) :: a)).rt.connected = true) := by
  intro g h p
  have hno : ∀ o ∈ exOps, o.isRemoval = false := by
    intro o ho
    simp only [exOps, List.mem_cons, List.not_mem_nil, or_false] at ho
    rcases ho with rfl | rfl | rfl <;> rfl
  have hG := ex_good three exPar false (Or.inl rfl) exOps hno
  have hG' : Good three g h := ⟨hG.override, hG.msg, hG.ev, hG.dc, rfl, hG.ramp, hG.meas, hG.filt⟩
  have hok := fun l => C99_no_exception hG' l
  have hsees : Sees three g (fun c => urmsMin c.va c.vb c.vc) := C96_sees_minimum (by simp [unbalancedClasses]) rfl rfl
  have hstrip : RT.strip h.rt = exMc () 0 0 0 0 false true ⟨0, 11 / 10, 11 / 10, 0, (0, 0), (0, 0), (0, 0)⟩ := rfl
  have key : ∀ l : List (Call three), l = p ++ [exCallU y4 4 (1 / 3)] ∨ l = p ++ [exCallU y4 4 (1 / 3), exCallU y5 7 (1 / 3)] →
      (run three g h l).rt.connected = (l.length == 5) := by
    intro l hl
    obtain ⟨ins, e1, e2⟩ := run_rt hsees l h (hok l)
    have hc : (run three g h l).rt.connected = (RT.run g.rt.unit (RT.strip h.rt) ins).connected := by rw [← e2]; rfl
    rw [hc, hstrip]
    have r10 : (0:ℝ) ≤ 1 / 10 := by norm_num
    have r3 : (0:ℝ) ≤ 1 / 3 := by norm_num
    rcases hl with rfl | rfl
    · simp only [p, List.cons_append, List.nil_append, List.map_cons, List.map_nil, exCallU_rms _ _ _ r10, exCallU_rms _ _ _ r3] at e1
      obtain ⟨i1, i2, i3, i4, rfl⟩ : ∃ i1 i2 i3 i4, ins = [i1, i2, i3, i4] := by
        have := congrArg List.length e1
        simp [RT.samples] at this
        match ins, this with
        | [a, b, c, d], _ => exact ⟨a, b, c, d, rfl⟩
      simp only [RT.samples, List.map_cons, List.map_nil, List.cons.injEq, Prod.mk.injEq, and_true] at e1
      obtain ⟨q1, q2, q3, q4⟩ := e1
      obtain ⟨s1, s2, s3, s4, _⟩ := exMc_run ⟨0, 11 / 10, 11 / 10, 0, (0, 0), (0, 0), (0, 0)⟩ i1 i2 i3 i4 ⟨7, 1 / 3, 0, i1.refs⟩ q1 q2 q3 q4 ⟨rfl, rfl⟩
      have : RT.run g.rt.unit (exMc () 0 0 0 0 false true ⟨0, 11 / 10, 11 / 10, 0, (0, 0), (0, 0), (0, 0)⟩) [i1, i2, i3, i4] = exMc () 0 4 0 4 false false (zeroed i4.refs) := by
        show RT.run g.rt.unit (RT.run g.rt.unit (RT.run g.rt.unit (RT.run g.rt.unit _ [i1]) [i2]) [i3]) [i4] = _
        rw [s1, s2, s3, s4]
      rw [this]; rfl
    · simp only [p, List.cons_append, List.nil_append, List.map_cons, List.map_nil, exCallU_rms _ _ _ r10, exCallU_rms _ _ _ r3] at e1
      obtain ⟨i1, i2, i3, i4, i5, rfl⟩ : ∃ i1 i2 i3 i4 i5, ins = [i1, i2, i3, i4, i5] := by
        have := congrArg List.length e1
        simp [RT.samples] at this
        match ins, this with
        | [a, b, c, d, e], _ => exact ⟨a, b, c, d, e, rfl⟩
      simp only [RT.samples, List.map_cons, List.map_nil, List.cons.injEq, Prod.mk.injEq, and_true] at e1
      obtain ⟨q1, q2, q3, q4, q5⟩ := e1
      obtain ⟨s1, s2, s3, s4, s5⟩ := exMc_run ⟨0, 11 / 10, 11 / 10, 0, (0, 0), (0, 0), (0, 0)⟩ i1 i2 i3 i4 i5 q1 q2 q3 q4 q5
      have : RT.run g.rt.unit (exMc () 0 0 0 0 false true ⟨0, 11 / 10, 11 / 10, 0, (0, 0), (0, 0), (0, 0)⟩) [i1, i2, i3, i4, i5] = exMc () 0 7 0 0 false true i5.refs := by
        show RT.run g.rt.unit (RT.run g.rt.unit (RT.run g.rt.unit (RT.run g.rt.unit (RT.run g.rt.unit _ [i1]) [i2]) [i3]) [i4]) [i5] = _
        rw [s1, s2, s3, s4, s5]
      rw [this]; rfl
  refine ⟨by constructor <;> simp [h, exMc, RT.Zone.fresh], rfl, rfl, rfl, hok _, key _ (Or.inl rfl), ?_⟩
  intro a b hab ha
  have : a = [exCallU y5 7 (1 / 3)] := by
    cases a with
    | nil => exact absurd rfl ha
    | cons x xs =>
      simp only [List.cons_append, List.cons.injEq] at hab
      have := List.append_eq_nil_iff.1 hab.2.symm
      rw [this.1, ← hab.1]
  rw [this]
  exact key _ (Or.inr rfl)

end Eval
end PvDer
