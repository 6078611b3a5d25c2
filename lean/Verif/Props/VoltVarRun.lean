import Verif.Props.EvalRefs
import Verif.Props.VoltVar
import Verif.Props.Reconnection

/-!
# Property C128: Volt-VAR in a running simulation
-/

namespace PvDer

namespace RT
variable {K W : Type} [Field K] [LinearOrder K] [IsStrictOrderedRing K]

/-- A successful evaluation either leaves the DER connected, with references and Volt-VAR switch as they were, or disconnected, with the reactive power reference
zero and Volt-VAR switched off. -/
theorem eval_volt_var (c : Cfg K W) (s : St K W) (i : Inp K) (h : (eval c s i).2 = .ok ()) :
    ((eval c s i).1.connected = true → (eval c s i).1.refs = i.refs ∧ (eval c s i).1.voltVar = s.voltVar) ∧
    ((eval c s i).1.connected = false → (eval c s i).1.refs.Qref = 0 ∧ (eval c s i).1.voltVar = false) := by
  refine ⟨fun hc => ⟨eval_connected_refs c s i h hc, ?_⟩, fun hc => ?_⟩
  · have hr : ∀ s : St K W, (reconnectLogic c i.t s).1.voltVar = s.voltVar := by
      intro s; unfold reconnectLogic; split_ifs <;> rfl
    have hd : ∀ s : St K W, (disconnectLogic c i.t s).1.voltVar = s.voltVar := by
      intro s; unfold disconnectLogic; split_ifs <;> rfl
    have hu : (updateFlags c i.t i.V i.f { s with refs := i.refs }).1.voltVar = s.voltVar := by
      by_cases ht : i.t > s.rtLock
      · rw [updateFlags_eq c i.t i.V i.f { s with refs := i.refs } ht]
        have hfr : ∀ s' : St K W, (frt c i.f i.t s').1.voltVar = s'.voltVar := by
          intro s'; unfold frt; split_ifs <;> first | rfl | exact hr _
        dsimp only
        split_ifs
        · split <;> exact hfr _
        · rfl
      · rw [updateFlags_lock c i.t i.V i.f { s with refs := i.refs } (not_lt.1 ht)]
    have hin : ∀ s : St K W, (inner c i.t s).1.voltVar = s.voltVar := by
      intro s
      unfold inner
      split_ifs <;> first | exact hd _ | exact hr _ | rfl
    have he : eval c s i = disconnectOrReconnect c i.t (updateFlags c i.t i.V i.f { s with refs := i.refs }).1 := by
      unfold eval at h ⊢
      dsimp only at h ⊢
      cases hq : (updateFlags c i.t i.V i.f { s with refs := i.refs }).2 with
      | error e => rw [hq] at h; simp at h
      | ok u => rfl
    rw [he, connect_eq] at h hc ⊢
    cases hq : (inner c i.t (updateFlags c i.t i.V i.f { s with refs := i.refs }).1).2 with
    | error e => rw [hq] at h; simp at h
    | ok u =>
      rw [hq] at hc
      dsimp only at hc ⊢
      split_ifs at hc ⊢ with hx
      · exact absurd hc (by show ¬ (inner c i.t _).1.connected = true; rw [hx]; simp)
      · rw [hin, hu]
  · have he : eval c s i = disconnectOrReconnect c i.t (updateFlags c i.t i.V i.f { s with refs := i.refs }).1 := by
      unfold eval at h ⊢
      dsimp only at h ⊢
      cases hq : (updateFlags c i.t i.V i.f { s with refs := i.refs }).2 with
      | error e => rw [hq] at h; simp at h
      | ok u => rfl
    rw [he] at hc ⊢
    obtain ⟨z1, _, _, _, _, _, _, z8, _⟩ := C33_disconnected_refs_zero c i.t _ hc
    exact ⟨z1, z8⟩

end RT

namespace Eval
open Complex Phasor Ode

variable {k : Cls} {g : SCfg} {h : Hid} {c : Call k} {e : Env}

/-- Voltage, inverter power and current of an evaluation do not depend on references and frequency. -/
theorem env_measured (hk : k ∈ classes) (p : Par) (i : Ode.Inp) (y : k.V → ℝ) (w v q : ℝ) :
    (k.env p { i with w := w, Vdc_ref := v, Q_ref := q } y).Vrms = (k.env p i y).Vrms ∧ (k.env p { i with w := w, Vdc_ref := v, Q_ref := q } y).S = (k.env p i y).S ∧
      (k.env p { i with w := w, Vdc_ref := v, Q_ref := q } y).ia = (k.env p i y).ia := by
  simp only [classes, List.mem_cons, List.not_mem_nil, or_false] at hk
  rcases hk with rfl | rfl | rfl | rfl | rfl | rfl | rfl <;> exact ⟨rfl, rfl, rfl⟩

theorem envP_measured (hk : k ∈ classes) (c : Call k) (h h' : Hid) (hi : inp k g c h' = inp k g c h) (w v q w' v' q' : ℝ) :
    (envP k g c h' w v q).Vrms = (envP k g c h w' v' q').Vrms ∧ (envP k g c h' w v q).S = (envP k g c h w' v' q').S ∧
      (envP k g c h' w v q).ia = (envP k g c h w' v' q').ia := by
  have := env_measured hk g.p (inp k g c h w' v' q') c.y w v q
  unfold envP
  rw [hi]
  dsimp only
  split_ifs <;> exact this

theorem env_qref (hk : k ∈ classes) (c : Call k) (h : Hid) : (envC k g c h).Q_ref = h.rt.refs.Qref := by
  have hQ : ∀ (p : Par) (i : Ode.Inp) (y : k.V → ℝ), (k.env p i y).Q_ref = i.Q_ref := by
    intro p i y
    simp only [classes, List.mem_cons, List.not_mem_nil, or_false] at hk
    rcases hk with rfl | rfl | rfl | rfl | rfl | rfl | rfl <;> rfl
  unfold envC envP
  dsimp only
  split_ifs <;> exact hQ _ _ _

/-- What a successful evaluation does to the reactive power reference. -/
theorem eval_q (hk : k ∈ classes) (he : (evalEnv k g c h).2 = .ok e) :
    let q := VoltVar.updateQref h.rt.voltVar g.qExternal g.Vref g.Snom c.t e.Vrms (VoltVar.qlimit g.Snom e.S.re g.nPhases g.Xf e.ia) ⟨h.vvT, h.vvActive, h.rt.refs.Qref⟩
    (evalEnv k g c h).1.vvT = q.t ∧ (evalEnv k g c h).1.vvActive = q.active ∧ e.Q_ref = (evalEnv k g c h).1.rt.refs.Qref ∧
    ((evalEnv k g c h).1.rt.connected = true → e.Q_ref = q.Qref ∧ (evalEnv k g c h).1.rt.voltVar = h.rt.voltVar) ∧
    ((evalEnv k g c h).1.rt.connected = false → e.Q_ref = 0 ∧ (evalEnv k g c h).1.rt.voltVar = false) := by
  intro q
  obtain ⟨h1, h2, h3, h4, e1, e2, e3, e4, e5⟩ := eval_ok he
  have a1 : h1.rt = h.rt := by have := grid_rt (g := g) (h := h) c.t; rw [e1] at this; exact this
  have a2 : h2.rt = h.rt := by have := solar_rt (k := k) (g := g) (h := stateStage k c.y h1) c.t; rw [e2] at this; exact this.trans a1
  have a3 : h3.rt = h.rt := by have := load_rt (k := k) (g := g) (h := h2) c.jac c.t; rw [e3] at this; exact this.trans a2
  have t1 : h1.vvT = h.vvT ∧ h1.vvActive = h.vvActive := by
    have : (gridStage g c.t h).1.vvT = h.vvT ∧ (gridStage g c.t h).1.vvActive = h.vvActive := by unfold gridStage; split <;> exact ⟨rfl, rfl⟩
    rw [e1] at this; exact this
  have t2 : h2.vvT = h1.vvT ∧ h2.vvActive = h1.vvActive := by
    have : (solarStage k g c.t (stateStage k c.y h1)).1.vvT = h1.vvT ∧ (solarStage k g c.t (stateStage k c.y h1)).1.vvActive = h1.vvActive := by
      unfold solarStage
      rcases Events.solarEvents g.sp (stateStage k c.y h1).ev c.t with ⟨ev, r⟩
      cases r with
      | error x => exact ⟨rfl, rfl⟩
      | ok v => dsimp only; split_ifs <;> exact ⟨rfl, rfl⟩
    rw [e2] at this; exact this
  have t3 : h3.vvT = h2.vvT ∧ h3.vvActive = h2.vvActive := by
    have : (loadStage k g c.jac c.t h2).1.vvT = h2.vvT ∧ (loadStage k g c.jac c.t h2).1.vvActive = h2.vvActive := by
      unfold loadStage
      split
      · rcases Events.loadEvents h2.ev c.t with ⟨ev, r⟩
        cases r with
        | error x => exact ⟨rfl, rfl⟩
        | ok v => dsimp only; split_ifs <;> exact ⟨rfl, rfl⟩
      · exact ⟨rfl, rfl⟩
    rw [e3] at this; exact this
  obtain ⟨w4, v4, h4e⟩ := dc_rt e4
  set h5 := freqStage k g c (irefStage k g c h4) with hh5
  have r5 : h5.rt = (irefStage k g c h4).rt := by rw [hh5, freq_rt]
  have he' := he
  rw [e5] at he'
  obtain ⟨_, b2, b3, b4⟩ := rt_ok he'
  obtain ⟨f1, f2, f3, f4, f5, f6⟩ : h5.grid = h3.grid ∧ h5.Zload1 = h3.Zload1 ∧ h5.Sinsol = h3.Sinsol ∧ h5.Tactual = h3.Tactual ∧
      h5.vvT = (qStage k g c h3).vvT ∧ h5.vvActive = (qStage k g c h3).vvActive := by
    rw [hh5, h4e]; unfold freqStage; split <;> exact ⟨rfl, rfl, rfl, rfl, rfl, rfl⟩
  have hi : inp k g c h5 = inp k g c h3 := by
    funext w v q; unfold inp; rw [f1, f2, f3, f4]
  have hme : e.Vrms = (envP k g c h3 0 0 0).Vrms ∧ e.S = (envP k g c h3 0 0 0).S ∧ e.ia = (envP k g c h3 0 0 0).ia := by
    have : (envC k g c h5).Vrms = (envP k g c h3 0 0 0).Vrms ∧ (envC k g c h5).S = (envP k g c h3 0 0 0).S ∧ (envC k g c h5).ia = (envP k g c h3 0 0 0).ia :=
      envP_measured hk c h3 h5 hi _ _ _ _ _ _
    rw [b4]
    split_ifs <;> exact this
  have hq : q = VoltVar.updateQref h3.rt.voltVar g.qExternal g.Vref g.Snom c.t (envP k g c h3 0 0 0).Vrms
      (VoltVar.qlimit g.Snom (envP k g c h3 0 0 0).S.re g.nPhases g.Xf (envP k g c h3 0 0 0).ia) ⟨h3.vvT, h3.vvActive, h3.rt.refs.Qref⟩ := by
    show VoltVar.updateQref _ _ _ _ _ _ _ _ = _
    rw [hme.1, hme.2.1, hme.2.2, a3, t3.1, t3.2, t2.1, t2.2, t1.1, t1.2]
  have hqq : h5.rt.refs.Qref = q.Qref ∧ h5.vvT = q.t ∧ h5.vvActive = q.active ∧ h5.rt.voltVar = h.rt.voltVar := by
    rw [hq, f5, f6, r5]
    refine ⟨?_, rfl, rfl, ?_⟩
    · show h4.rt.refs.Qref = _; rw [h4e]; rfl
    · show h4.rt.voltVar = _; rw [h4e]; show h3.rt.voltVar = _; rw [a3]
  obtain ⟨v1, v2⟩ := RT.eval_volt_var g.rt h5.rt _ b2
  have hE := env_qref (g := g) hk c h5
  have hco : (evalEnv k g c h).1.rt = (RT.eval g.rt h5.rt ⟨c.t, measVal k g h5 (envC k g c h5), (envC k g c h5).we / (2 * Real.pi), refsOf (envC k g c h5)⟩).1 := by
    rw [e5, b3]
  have hvt : (evalEnv k g c h).1.vvT = h5.vvT ∧ (evalEnv k g c h).1.vvActive = h5.vvActive := by rw [e5, b3]; exact ⟨rfl, rfl⟩
  rw [← e5, hco] at b4
  rw [hco]
  refine ⟨hvt.1.trans hqq.2.1, hvt.2.trans hqq.2.2.1, ?_⟩
  cases hcn : (RT.eval g.rt h5.rt ⟨c.t, measVal k g h5 (envC k g c h5), (envC k g c h5).we / (2 * Real.pi), refsOf (envC k g c h5)⟩).1.connected with
  | true =>
    obtain ⟨w1, w2⟩ := v1 hcn
    rw [hcn, if_pos rfl] at b4
    refine ⟨?_, fun _ => ⟨?_, ?_⟩, fun hx => absurd hx (by simp)⟩
    · rw [w1, b4]; rfl
    · rw [b4, hE, hqq.1]
    · rw [w2, hqq.2.2.2]
  | false =>
    obtain ⟨w1, w2⟩ := v2 hcn
    rw [hcn] at b4
    refine ⟨?_, fun hx => absurd hx (by simp), fun _ => ⟨?_, w2⟩⟩
    · rw [w1, b4]; rfl
    · rw [b4]; rfl

/-- The share of the rating left for reactive power at active power `P` and reactive loss `Qf` of the filter. -/
noncomputable def spare (Snom P Qf : ℝ) : ℝ := max 0 (Real.sqrt (Snom ^ 2 - P ^ 2) - Qf)

/-- Reactive power taken by the filter reactance at the present current. -/
noncomputable def filterVar (g : SCfg) (e : Env) : ℝ := g.nPhases * g.Xf * (‖e.ia‖ / Real.sqrt 2) ^ 2

theorem qlimit_spare (e : Env) (hP : |e.S.re| ≤ g.Snom) : VoltVar.qlimit g.Snom e.S.re g.nPhases g.Xf e.ia = spare g.Snom e.S.re (filterVar g e) := by
  obtain ⟨h1, h2⟩ := abs_le.1 hP
  unfold VoltVar.qlimit spare filterVar
  rw [min_eq_left h2, max_eq_right h1]

/-- C128: with Volt-VAR on, every evaluation later than all earlier ones that leaves the DER connected works with the reactive power reference of the characteristic
at the RMS voltage of that evaluation, limited to what the active power and the filter current of that evaluation leave of the rating; it holds the previous
reference in the dead-band fringe and is zero outside. All seven classes. -/
theorem C128_reference (hk : k ∈ classes) (he : (evalEnv k g c h).2 = .ok e) (hc : (evalEnv k g c h).1.rt.connected = true) (hv : h.rt.voltVar = true)
    (ht : h.vvT < c.t) (hVref : 0 < g.Vref) (hP : |e.S.re| ≤ g.Snom) :
    (92 / 100 * g.Vref ≤ e.Vrms → e.Vrms ≤ 98 / 100 * g.Vref →
      e.Q_ref = min (spare g.Snom e.S.re (filterVar g e)) (VoltVar.curve (e.Vrms / g.Vref) * g.Snom)) ∧
    (102 / 100 * g.Vref ≤ e.Vrms → e.Vrms ≤ 108 / 100 * g.Vref →
      e.Q_ref = max (-spare g.Snom e.S.re (filterVar g e)) (VoltVar.curve (e.Vrms / g.Vref) * g.Snom)) ∧
    ((91 / 100 * g.Vref ≤ e.Vrms ∧ e.Vrms < 92 / 100 * g.Vref) ∨ (98 / 100 * g.Vref < e.Vrms ∧ e.Vrms ≤ 99 / 100 * g.Vref) ∨
      (101 / 100 * g.Vref ≤ e.Vrms ∧ e.Vrms < 102 / 100 * g.Vref) ∨ (108 / 100 * g.Vref < e.Vrms ∧ e.Vrms ≤ 109 / 100 * g.Vref) →
      e.Q_ref = h.rt.refs.Qref) ∧
    ((e.Vrms < 91 / 100 * g.Vref ∨ 99 / 100 * g.Vref < e.Vrms) → (e.Vrms < 101 / 100 * g.Vref ∨ 109 / 100 * g.Vref < e.Vrms) → e.Q_ref = 0) := by
  have hS : 0 ≤ g.Snom := le_trans (abs_nonneg _) hP
  obtain ⟨_, _, _, q4, _⟩ := eval_q hk he
  obtain ⟨q5, _⟩ := q4 hc
  rw [qlimit_spare e hP, hv] at q5
  have q6 : e.Q_ref = (VoltVar.logic g.Vref g.Snom c.t e.Vrms (spare g.Snom e.S.re (filterVar g e)) ⟨h.vvT, h.vvActive, h.rt.refs.Qref⟩).2 := by
    rw [q5]; simp [VoltVar.updateQref]
  generalize hQ : spare g.Snom e.S.re (filterVar g e) = Q at *
  have hdb : (VoltVar.deadband : ℝ) = 1 / 100 := rfl
  refine ⟨fun a b => ?_, fun a b => ?_, fun a => ?_, fun a b => ?_⟩
  · have hr : VoltVar.injectRange g.Vref e.Vrms 0 = true := VoltVar.injectRange_iff.2 ⟨by linarith, by linarith⟩
    have hi : VoltVar.injectRange g.Vref e.Vrms VoltVar.deadband = true := VoltVar.injectRange_iff.2 ⟨by rw [hdb]; nlinarith, by rw [hdb]; nlinarith⟩
    rw [q6]
    unfold VoltVar.logic
    rw [if_pos ht]
    simp only [hi, if_true]
    have hq : VoltVar.qInject g.Vref g.Snom Q h.rt.refs.Qref e.Vrms = min Q (VoltVar.curve (e.Vrms / g.Vref) * g.Snom) := by
      have hv98 : e.Vrms / g.Vref ≤ 98 / 100 := by rw [div_le_iff₀ hVref]; linarith
      have hcv : VoltVar.curve (e.Vrms / g.Vref) = e.Vrms / g.Vref * VoltVar.mInject + VoltVar.cInject := by
        unfold VoltVar.curve
        rw [if_pos hv98, VoltVar.mInject_val, VoltVar.cInject_val]
        ring
      have h0 : 0 ≤ VoltVar.curve (e.Vrms / g.Vref) := by rw [hcv, VoltVar.mInject_val, VoltVar.cInject_val]; linarith
      unfold VoltVar.qInject
      rw [if_pos hr, ← hcv, max_eq_right (mul_nonneg h0 hS)]
    split_ifs <;> exact hq
  · have hr : VoltVar.absorbRange g.Vref e.Vrms 0 = true := VoltVar.absorbRange_iff.2 ⟨by linarith, by linarith⟩
    have hi : ¬ VoltVar.injectRange g.Vref e.Vrms VoltVar.deadband = true := by
      rw [VoltVar.injectRange_iff, hdb]; intro hh; nlinarith [hh.2]
    have ha : VoltVar.absorbRange g.Vref e.Vrms VoltVar.deadband = true := VoltVar.absorbRange_iff.2 ⟨by rw [hdb]; nlinarith, by rw [hdb]; nlinarith⟩
    rw [q6]
    unfold VoltVar.logic
    rw [if_pos ht]
    simp only [hi, ha, if_true]
    have hq : VoltVar.qAbsorb g.Vref g.Snom Q h.rt.refs.Qref e.Vrms = max (-Q) (VoltVar.curve (e.Vrms / g.Vref) * g.Snom) := by
      have hv98 : 102 / 100 ≤ e.Vrms / g.Vref := by rw [le_div_iff₀ hVref]; linarith
      have hcv : VoltVar.curve (e.Vrms / g.Vref) = e.Vrms / g.Vref * VoltVar.mAbsorb + VoltVar.cAbsorb := by
        unfold VoltVar.curve
        rw [if_neg (by intro hh; linarith), VoltVar.mAbsorb_val, VoltVar.cAbsorb_val]
        split_ifs with h2
        · have : e.Vrms / g.Vref = 102 / 100 := le_antisymm h2 hv98
          rw [this]; norm_num
        · ring
      have h0 : VoltVar.curve (e.Vrms / g.Vref) ≤ 0 := by rw [hcv, VoltVar.mAbsorb_val, VoltVar.cAbsorb_val]; linarith
      unfold VoltVar.qAbsorb
      rw [if_pos hr, ← hcv, min_eq_right (mul_nonpos_of_nonpos_of_nonneg h0 hS)]
    split_ifs <;> first | exact hq | simp_all
  · rw [q6]; exact VoltVar.C39_fringe_holds g.Vref g.Snom c.t e.Vrms Q _ hVref ht a
  · rw [q6, VoltVar.C39_zero_outside g.Vref g.Snom c.t e.Vrms Q _ ht a b]

/-- C128: in the segments of the characteristic the reference together with the active power of the same evaluation stays within the apparent power rating. -/
theorem C128_within_rating (hk : k ∈ classes) (he : (evalEnv k g c h).2 = .ok e) (hc : (evalEnv k g c h).1.rt.connected = true) (hv : h.rt.voltVar = true)
    (ht : h.vvT < c.t) (hVref : 0 < g.Vref) (hP : |e.S.re| ≤ g.Snom) (hn : 0 ≤ g.nPhases) (hX : 0 ≤ g.Xf)
    (hseg : (92 / 100 * g.Vref ≤ e.Vrms ∧ e.Vrms ≤ 98 / 100 * g.Vref) ∨ (102 / 100 * g.Vref ≤ e.Vrms ∧ e.Vrms ≤ 108 / 100 * g.Vref)) :
    e.S.re ^ 2 + e.Q_ref ^ 2 ≤ g.Snom ^ 2 ∧ (e.Q_ref ≠ 0 → e.S.re ^ 2 + (|e.Q_ref| + filterVar g e) ^ 2 ≤ g.Snom ^ 2) := by
  obtain ⟨r1, r2, _, _⟩ := C128_reference hk he hc hv ht hVref hP
  have hS : 0 ≤ g.Snom := le_trans (abs_nonneg _) hP
  have hF : 0 ≤ filterVar g e := by unfold filterVar; positivity
  have hR : 0 ≤ g.Snom ^ 2 - e.S.re ^ 2 := by
    have := sq_le_sq' (by linarith [(abs_le.1 hP).1]) (abs_le.1 hP).2
    linarith
  have hq2 : |e.Q_ref| ≤ spare g.Snom e.S.re (filterVar g e) := by
    have h0 : 0 ≤ spare g.Snom e.S.re (filterVar g e) := le_max_left _ _
    rcases hseg with ⟨a, b⟩ | ⟨a, b⟩
    · rw [r1 a b, abs_le]
      refine ⟨?_, min_le_left _ _⟩
      refine le_trans (by linarith) (le_min h0 (mul_nonneg ?_ hS))
      unfold VoltVar.curve
      have hv98 : e.Vrms / g.Vref ≤ 98 / 100 := by rw [div_le_iff₀ hVref]; linarith
      rw [if_pos hv98]
      exact div_nonneg (mul_nonneg (by norm_num) (by linarith)) (by norm_num)
    · rw [r2 a b, abs_le]
      refine ⟨le_max_left _ _, max_le (by linarith) (le_trans (mul_nonpos_of_nonpos_of_nonneg ?_ hS) h0)⟩
      unfold VoltVar.curve
      have hv98 : 102 / 100 ≤ e.Vrms / g.Vref := by rw [le_div_iff₀ hVref]; linarith
      rw [if_neg (by intro hh; linarith)]
      split_ifs
      · exact le_refl _
      · exact div_nonpos_of_nonpos_of_nonneg (mul_nonpos_of_nonpos_of_nonneg (by norm_num) (by linarith)) (by norm_num)
  have hsq := Real.sq_sqrt hR
  have hs0 := Real.sqrt_nonneg (g.Snom ^ 2 - e.S.re ^ 2)
  have main : e.Q_ref ≠ 0 → |e.Q_ref| + filterVar g e ≤ Real.sqrt (g.Snom ^ 2 - e.S.re ^ 2) := by
    intro hne
    have hpos : 0 < |e.Q_ref| := abs_pos.2 hne
    unfold spare at hq2
    rcases le_max_iff.1 hq2 with h' | h'
    · linarith
    · linarith
  have aux : e.Q_ref ≠ 0 → e.S.re ^ 2 + (|e.Q_ref| + filterVar g e) ^ 2 ≤ g.Snom ^ 2 := by
    intro hne
    have := pow_le_pow_left₀ (by positivity) (main hne) 2
    linarith
  refine ⟨?_, aux⟩
  by_cases hne : e.Q_ref = 0
  · rw [hne]; linarith
  · have := aux hne
    have h3 : e.Q_ref ^ 2 ≤ (|e.Q_ref| + filterVar g e) ^ 2 := by
      rw [← sq_abs]; exact pow_le_pow_left₀ (abs_nonneg _) (by linarith) 2
    linarith

/-- C128: an evaluation at a time already reached before (a solver step-back, or a new run from an earlier time) keeps the reference. -/
theorem C128_old_time (hk : k ∈ classes) (he : (evalEnv k g c h).2 = .ok e) (hc : (evalEnv k g c h).1.rt.connected = true) (hv : h.rt.voltVar = true)
    (ht : c.t ≤ h.vvT) : e.Q_ref = h.rt.refs.Qref ∧ (evalEnv k g c h).1.vvT = h.vvT ∧ (evalEnv k g c h).1.vvActive = h.vvActive := by
  obtain ⟨q1, q2, _, q4, _⟩ := eval_q hk he
  obtain ⟨q5, _⟩ := q4 hc
  rw [hv] at q1 q2 q5
  have := (VoltVar.C39_old_time g.Vref g.Snom c.t e.Vrms (VoltVar.qlimit g.Snom e.S.re g.nPhases g.Xf e.ia) ⟨h.vvT, h.vvActive, h.rt.refs.Qref⟩ ht).1
  simp only [VoltVar.updateQref, if_true, this] at q1 q2 q5
  exact ⟨q5, q1, q2⟩

/-- C128: the reference never exceeds 44 % of the rating, whatever the evaluations, voltages and disconnections of a run (reference not set from outside). -/
theorem C128_bounded (hk : k ∈ classes) (hx : g.qExternal = false) (hVref : 0 < g.Vref) (hS : 0 ≤ g.Snom)
    (h0 : |h.rt.refs.Qref| ≤ 44 / 100 * g.Snom) (l : List (Call k)) (c : Call k) (hok : Ok k g h (l ++ [c])) :
    ∃ e, (evalEnv k g c (run k g h l)).2 = .ok e ∧ |e.Q_ref| ≤ 44 / 100 * g.Snom := by
  have step : ∀ (h : Hid) (c : Call k) (e : Env), (evalEnv k g c h).2 = .ok e → |h.rt.refs.Qref| ≤ 44 / 100 * g.Snom →
      |e.Q_ref| ≤ 44 / 100 * g.Snom ∧ |(evalEnv k g c h).1.rt.refs.Qref| ≤ 44 / 100 * g.Snom := by
    intro h c e he hh
    obtain ⟨_, _, q3, q4, q5⟩ := eval_q hk he
    rw [← q3, and_self]
    have hB : 0 ≤ 44 / 100 * g.Snom := by positivity
    cases hcn : (evalEnv k g c h).1.rt.connected with
    | false => rw [(q5 hcn).1]; simpa using hB
    | true =>
      rw [(q4 hcn).1]
      unfold VoltVar.updateQref
      rw [hx]
      cases h.rt.voltVar with
      | true => exact VoltVar.logic_bound hVref hS (le_max_left _ _) hh
      | false => simpa using hB
  have inv : ∀ (l : List (Call k)) (h : Hid), |h.rt.refs.Qref| ≤ 44 / 100 * g.Snom → Ok k g h l → |(run k g h l).rt.refs.Qref| ≤ 44 / 100 * g.Snom := by
    intro l
    induction l with
    | nil => intro h hh _; exact hh
    | cons c l ih =>
      intro h hh ho
      obtain ⟨⟨e, he⟩, ho'⟩ := ho
      exact ih _ (step h c e he hh).2 ho'
  obtain ⟨o1, ⟨e, he⟩, _⟩ := (ok_append _ _ _).1 hok
  exact ⟨e, he, (step _ _ e he (inv l h h0 o1)).1⟩

/-- C128: Volt-VAR does not survive a disconnection. From the first evaluation that leaves the DER disconnected on, the reactive power reference is zero at every
evaluation, whatever the voltage and also after the DER has reconnected: the function is switched off for good. -/
theorem C128_lost_after_disconnection (hk : k ∈ classes) (p : List (Call k)) (c0 : Call k) (l : List (Call k)) (c : Call k)
    (hok : Ok k g h (p ++ c0 :: (l ++ [c]))) (hd : (run k g h (p ++ [c0])).rt.connected = false) :
    ∃ e, (evalEnv k g c (run k g h (p ++ c0 :: l))).2 = .ok e ∧ e.Q_ref = 0 ∧ (run k g h (p ++ c0 :: l)).rt.voltVar = false := by
  obtain ⟨o1, ⟨e0, he0⟩, o2⟩ := (ok_append _ _ _).1 hok
  have hr0 : run k g h (p ++ [c0]) = (evalEnv k g c0 (run k g h p)).1 := by rw [run_append]; rfl
  have hrl : run k g h (p ++ c0 :: l) = run k g (evalEnv k g c0 (run k g h p)).1 l := by rw [run_append]; rfl
  rw [hr0] at hd
  obtain ⟨_, _, q3, _, q5⟩ := eval_q hk he0
  obtain ⟨z1, z2⟩ := q5 hd
  rw [z1] at q3
  have step : ∀ (h : Hid) (c : Call k) (e : Env), (evalEnv k g c h).2 = .ok e → h.rt.refs.Qref = 0 → h.rt.voltVar = false →
      e.Q_ref = 0 ∧ (evalEnv k g c h).1.rt.refs.Qref = 0 ∧ (evalEnv k g c h).1.rt.voltVar = false := by
    intro h c e he h1 h2
    obtain ⟨_, _, q3, q4, q5⟩ := eval_q hk he
    rw [← q3]
    cases hcn : (evalEnv k g c h).1.rt.connected with
    | false => exact ⟨(q5 hcn).1, (q5 hcn).1, (q5 hcn).2⟩
    | true =>
      obtain ⟨u1, u2⟩ := q4 hcn
      rw [u1, u2, h2]
      have : (VoltVar.updateQref false g.qExternal g.Vref g.Snom c.t e.Vrms (VoltVar.qlimit g.Snom e.S.re g.nPhases g.Xf e.ia) ⟨h.vvT, h.vvActive, h.rt.refs.Qref⟩).Qref = 0 := by
        unfold VoltVar.updateQref
        cases g.qExternal with
        | true => simpa using h1
        | false => simp
      exact ⟨this, this, rfl⟩
  have inv : ∀ (l : List (Call k)) (h : Hid), h.rt.refs.Qref = 0 → h.rt.voltVar = false → Ok k g h l →
      (run k g h l).rt.refs.Qref = 0 ∧ (run k g h l).rt.voltVar = false := by
    intro l
    induction l with
    | nil => intro h h1 h2 _; exact ⟨h1, h2⟩
    | cons c l ih =>
      intro h h1 h2 ho
      obtain ⟨⟨e, he⟩, ho'⟩ := ho
      obtain ⟨_, s2, s3⟩ := step h c e he h1 h2
      exact ih _ s2 s3 ho'
  obtain ⟨o3, ⟨e, he⟩, _⟩ := (ok_append _ _ _).1 o2
  obtain ⟨i1, i2⟩ := inv l _ q3.symm z2 o3
  rw [hrl]
  exact ⟨e, he, (step _ c e he i1 i2).1, i2⟩

/-! ### Concrete case -/

/-- The ride-through state of the example of C97 with Volt-VAR on or off. -/
noncomputable def exVv {W : Type} (v : Bool) (w : W) (tS lock tD tR : ℝ) (mc co : Bool) (r : RT.Refs ℝ) : RT.St ℝ W :=
  { exMc w tS lock tD tR mc co r with voltVar := v }

theorem exVv_run (r : RT.Refs ℝ) (i1 i2 i3 i4 i5 i6 : RT.Inp ℝ) (h1 : i1.t = 1 ∧ i1.V = 95 / 300) (h2 : i2.t = 2 ∧ i2.V = 1 / 10) (h3 : i3.t = 3 ∧ i3.V = 1 / 10)
    (h4 : i4.t = 4 ∧ i4.V = 1 / 10) (h5 : i5.t = 5 ∧ i5.V = 95 / 300) (h6 : i6.t = 8 ∧ i6.V = 95 / 300) :
    let c := (exG exPar false).rt.unit
    RT.run c (exVv true () 0 0 0 0 false true r) [i1] = exVv true () 0 1 0 0 false true i1.refs ∧
    RT.run c (exVv true () 0 1 0 0 false true i1.refs) [i2] = exVv true () 2 2 0 0 false true i2.refs ∧
    RT.run c (exVv true () 2 2 0 0 false true i2.refs) [i3] = exVv true () 2 3 3 0 true true i3.refs ∧
    RT.run c (exVv true () 2 3 3 0 true true i3.refs) [i4] = exVv false () 2 4 0 0 true false (zeroed i4.refs) ∧
    RT.run c (exVv false () 2 4 0 0 true false (zeroed i4.refs)) [i5] = exVv false () 0 5 0 5 false false (zeroed i5.refs) ∧
    RT.run c (exVv false () 0 5 0 5 false false (zeroed i5.refs)) [i6] = exVv false () 0 8 0 0 false true i6.refs := by
  refine ⟨?_, ?_, ?_, ?_, ?_, ?_⟩
  · simp [RT.run, RT.eval, RT.updateFlags, RT.lvrt, RT.hvrt, RT.loopZones, RT.lvZone, RT.hvZone, exMc, exVv, h1, exG, RT.Cfg.unit, SCfg.rt, RT.disconnectOrReconnect]
    norm_num
  · simp [RT.run, RT.eval, RT.updateFlags, RT.lvrt, RT.hvrt, RT.loopZones, RT.lvZone, RT.hvZone, exMc, exVv, h2, exG, RT.Cfg.unit, SCfg.rt, RT.disconnectOrReconnect]
    norm_num
  · simp [RT.run, RT.eval, RT.updateFlags, RT.lvrt, RT.hvrt, RT.loopZones, RT.lvZone, RT.hvZone, exMc, exVv, h3, exG, RT.Cfg.unit, SCfg.rt, RT.disconnectOrReconnect,
      RT.disconnectLogic]
    norm_num
  · simp [RT.run, RT.eval, RT.updateFlags, RT.lvrt, RT.hvrt, RT.loopZones, RT.lvZone, RT.hvZone, exMc, exVv, h4, exG, RT.Cfg.unit, SCfg.rt, RT.disconnectOrReconnect,
      RT.disconnectLogic, RT.disconnect, zeroed]
    norm_num
  · simp [RT.run, RT.eval, RT.updateFlags, RT.lvrt, RT.hvrt, RT.loopZones, RT.lvZone, RT.hvZone, exMc, exVv, h5, exG, RT.Cfg.unit, SCfg.rt, RT.disconnectOrReconnect,
      RT.reconnectLogic, RT.disconnect, zeroed]
    norm_num
  · simp [RT.run, RT.eval, RT.updateFlags, RT.lvrt, RT.hvrt, RT.loopZones, RT.lvZone, RT.hvZone, exMc, exVv, h6, exG, RT.Cfg.unit, SCfg.rt, RT.disconnectOrReconnect,
      RT.reconnectLogic]
    norm_num

/-- Hidden state of the example after construction and after the user has switched Volt-VAR on. -/
noncomputable def exVvH : Hid :=
  { exH (exG exPar false) (exEv (exG exPar false)) with rt := exVv true ⟨[], ⟨0, 0, 11 / 10, 2⟩⟩ 0 0 0 0 false true ⟨0, 11 / 10, 11 / 10, 0, (0, 0), (0, 0), (0, 0)⟩ }

/-- Concrete case of C128: voltage 0.95 p.u., a voltage dip with momentary cessation, back to 0.95 p.u. The first evaluation asks for 22 % of the rating, the DER is
disconnected by the fourth and connected again by the sixth; from then on the reference is zero at the same voltage. -/
theorem C128_example (y : ThreePhase.V → ℝ) :
    let g := exG exPar false
    let z : ThreePhase.V → ℝ := fun _ => 0
    let p := [exCallU z 1 (95 / 300), exCallU y 2 (1 / 10), exCallU y 3 (1 / 10)]
    let l := [exCallU y 5 (95 / 300)]
    Ok three g exVvH (p ++ exCallU y 4 (1 / 10) :: (l ++ [exCallU y 8 (95 / 300)])) ∧ exVvH.rt.voltVar = true ∧
      (∃ e, (evalEnv three g (exCallU z 1 (95 / 300)) exVvH).2 = .ok e ∧ (evalEnv three g (exCallU z 1 (95 / 300)) exVvH).1.rt.connected = true ∧
        exVvH.vvT < (exCallU z 1 (95 / 300)).t ∧ e.Vrms = 95 / 100 * g.Vref ∧ |e.S.re| ≤ g.Snom ∧ e.Q_ref = 22 / 100) ∧
      (run three g exVvH (p ++ [exCallU y 4 (1 / 10)])).rt.connected = false ∧
      (run three g exVvH (p ++ exCallU y 4 (1 / 10) :: (l ++ [exCallU y 8 (95 / 300)]))).rt.connected = true ∧
      ∃ e, (evalEnv three g (exCallU y 8 (95 / 300)) (run three g exVvH (p ++ exCallU y 4 (1 / 10) :: l))).2 = .ok e ∧ e.Vrms = 95 / 100 * g.Vref ∧ e.Q_ref = 0 := by
  intro g z p l
  have hno : ∀ o ∈ exOps, o.isRemoval = false := by
    intro o ho
    simp only [exOps, List.mem_cons, List.not_mem_nil, or_false] at ho
    rcases ho with rfl | rfl | rfl <;> rfl
  have hG := ex_good three exPar false (Or.inl rfl) exOps hno
  have hG' : Good three g exVvH := ⟨hG.override, hG.msg, hG.ev, hG.dc, rfl, hG.ramp, hG.meas, hG.filt⟩
  have hok := fun l => C99_no_exception hG' l
  have hk : three ∈ classes := by simp [classes]
  have hsees : Sees three g (fun c => urmsMin c.va c.vb c.vc) := C96_sees_minimum (by simp [unbalancedClasses]) rfl rfl
  have hstrip : RT.strip exVvH.rt = exVv true () 0 0 0 0 false true ⟨0, 11 / 10, 11 / 10, 0, (0, 0), (0, 0), (0, 0)⟩ := rfl
  have r10 : (0:ℝ) ≤ 1 / 10 := by norm_num
  have r3 : (0:ℝ) ≤ 95 / 300 := by norm_num
  obtain ⟨ins, e1, e2⟩ := run_rt hsees (p ++ exCallU y 4 (1 / 10) :: (l ++ [exCallU y 8 (95 / 300)])) exVvH (hok _)
  have conn : (run three g exVvH [exCallU z 1 (95 / 300)]).rt.connected = true ∧ (run three g exVvH (p ++ [exCallU y 4 (1 / 10)])).rt.connected = false ∧
      (run three g exVvH (p ++ exCallU y 4 (1 / 10) :: (l ++ [exCallU y 8 (95 / 300)]))).rt.connected = true := by
    refine ⟨?_, ?_, ?_⟩
    · obtain ⟨ins, e1, e2⟩ := run_rt hsees [exCallU z 1 (95 / 300)] exVvH (hok _)
      have hc : (run three g exVvH [exCallU z 1 (95 / 300)]).rt.connected = (RT.run g.rt.unit (RT.strip exVvH.rt) ins).connected := by rw [← e2]; rfl
      simp only [List.map_cons, List.map_nil, exCallU_rms _ _ _ r3] at e1
      obtain ⟨i1, rfl⟩ : ∃ i1, ins = [i1] := by
        have := congrArg List.length e1
        simp [RT.samples] at this
        match ins, this with
        | [a], _ => exact ⟨a, rfl⟩
      simp only [RT.samples, List.map_cons, List.map_nil, List.cons.injEq, Prod.mk.injEq, and_true] at e1
      obtain ⟨s1, _⟩ := exVv_run ⟨0, 11 / 10, 11 / 10, 0, (0, 0), (0, 0), (0, 0)⟩ i1 ⟨2, 1 / 10, 0, i1.refs⟩ ⟨3, 1 / 10, 0, i1.refs⟩ ⟨4, 1 / 10, 0, i1.refs⟩
        ⟨5, 95 / 300, 0, i1.refs⟩ ⟨8, 95 / 300, 0, i1.refs⟩ e1 ⟨rfl, rfl⟩ ⟨rfl, rfl⟩ ⟨rfl, rfl⟩ ⟨rfl, rfl⟩ ⟨rfl, rfl⟩
      rw [hc, hstrip, s1]; rfl
    · obtain ⟨ins, e1, e2⟩ := run_rt hsees (p ++ [exCallU y 4 (1 / 10)]) exVvH (hok _)
      have hc : (run three g exVvH (p ++ [exCallU y 4 (1 / 10)])).rt.connected = (RT.run g.rt.unit (RT.strip exVvH.rt) ins).connected := by rw [← e2]; rfl
      simp only [p, List.cons_append, List.nil_append, List.map_cons, List.map_nil, exCallU_rms _ _ _ r3, exCallU_rms _ _ _ r10] at e1
      obtain ⟨i1, i2, i3, i4, rfl⟩ : ∃ i1 i2 i3 i4, ins = [i1, i2, i3, i4] := by
        have := congrArg List.length e1
        simp [RT.samples] at this
        match ins, this with
        | [a, b, c, d], _ => exact ⟨a, b, c, d, rfl⟩
      simp only [RT.samples, List.map_cons, List.map_nil, List.cons.injEq, Prod.mk.injEq, and_true] at e1
      obtain ⟨q1, q2, q3, q4⟩ := e1
      obtain ⟨s1, s2, s3, s4, _⟩ := exVv_run ⟨0, 11 / 10, 11 / 10, 0, (0, 0), (0, 0), (0, 0)⟩ i1 i2 i3 i4
        ⟨5, 95 / 300, 0, i1.refs⟩ ⟨8, 95 / 300, 0, i1.refs⟩ q1 q2 q3 q4 ⟨rfl, rfl⟩ ⟨rfl, rfl⟩
      have : RT.run g.rt.unit (exVv true () 0 0 0 0 false true ⟨0, 11 / 10, 11 / 10, 0, (0, 0), (0, 0), (0, 0)⟩) [i1, i2, i3, i4] = exVv false () 2 4 0 0 true false (zeroed i4.refs) := by
        show RT.run g.rt.unit (RT.run g.rt.unit (RT.run g.rt.unit (RT.run g.rt.unit _ [i1]) [i2]) [i3]) [i4] = _
        rw [s1, s2, s3, s4]
      rw [hc, hstrip, this]; rfl
    · have hc : (run three g exVvH (p ++ exCallU y 4 (1 / 10) :: (l ++ [exCallU y 8 (95 / 300)]))).rt.connected = (RT.run g.rt.unit (RT.strip exVvH.rt) ins).connected := by
        rw [← e2]; rfl
      simp only [p, l, List.cons_append, List.nil_append, List.map_cons, List.map_nil, exCallU_rms _ _ _ r3, exCallU_rms _ _ _ r10] at e1
      obtain ⟨i1, i2, i3, i4, i5, i6, rfl⟩ : ∃ i1 i2 i3 i4 i5 i6, ins = [i1, i2, i3, i4, i5, i6] := by
        have := congrArg List.length e1
        simp [RT.samples] at this
        match ins, this with
        | [a, b, c, d, e, f], _ => exact ⟨a, b, c, d, e, f, rfl⟩
      simp only [RT.samples, List.map_cons, List.map_nil, List.cons.injEq, Prod.mk.injEq, and_true] at e1
      obtain ⟨q1, q2, q3, q4, q5, q6⟩ := e1
      obtain ⟨s1, s2, s3, s4, s5, s6⟩ := exVv_run ⟨0, 11 / 10, 11 / 10, 0, (0, 0), (0, 0), (0, 0)⟩ i1 i2 i3 i4 i5 i6 q1 q2 q3 q4 q5 q6
      have : RT.run g.rt.unit (exVv true () 0 0 0 0 false true ⟨0, 11 / 10, 11 / 10, 0, (0, 0), (0, 0), (0, 0)⟩) [i1, i2, i3, i4, i5, i6] = exVv false () 0 8 0 0 false true i6.refs := by
        show RT.run g.rt.unit (RT.run g.rt.unit (RT.run g.rt.unit (RT.run g.rt.unit (RT.run g.rt.unit (RT.run g.rt.unit _ [i1]) [i2]) [i3]) [i4]) [i5]) [i6] = _
        rw [s1, s2, s3, s4, s5, s6]
      rw [hc, hstrip, this]; rfl
  have vrms : ∀ (h : Hid) (y : ThreePhase.V → ℝ) (t : ℝ) (e : Env), (evalEnv three g (exCallU y t (95 / 300)) h).2 = .ok e →
      e.Vrms = 95 / 100 * g.Vref ∧ e.S = (envT exPar (inp three g (exCallU y t (95 / 300)) h 0 0 0) y).S ∧ e.ia = ⟨y .iaR, y .iaI⟩ := by
    intro h y t e he
    obtain ⟨h1, h2, h3, h4, e1, e2, e3, e4, e5⟩ := eval_ok he
    rw [e5] at he
    obtain ⟨_, _, _, b4⟩ := rt_ok he
    set h5 := freqStage three g (exCallU y t (95 / 300)) (irefStage three g (exCallU y t (95 / 300)) h4)
    have hu : (envC three g (exCallU y t (95 / 300)) h5).Vrms = 95 / 100 * g.Vref := by
      show urms (exCallU y t (95 / 300)).va (exCallU y t (95 / 300)).vb (exCallU y t (95 / 300)).vc = _
      rw [show urms (exCallU y t (95 / 300)).va (exCallU y t (95 / 300)).vb (exCallU y t (95 / 300)).vc = urms1 (exCallU y t (95 / 300)).va from (C50_balanced _).1]
      have := exCallU_rms y t _ r3
      rw [show urmsMin (exCallU y t (95 / 300)).va (exCallU y t (95 / 300)).vb (exCallU y t (95 / 300)).vc = urms1 (exCallU y t (95 / 300)).va from (C50_balanced _).2] at this
      rw [this]; norm_num [g, exG]
    rw [b4]
    split_ifs <;> exact ⟨hu, rfl, rfl⟩
  refine ⟨hok _, rfl, ?_, conn.2.1, conn.2.2, ?_⟩
  · obtain ⟨⟨e, he⟩, _⟩ := hok [exCallU z 1 (95 / 300)]
    obtain ⟨u1, u2, u3⟩ := vrms _ _ _ _ he
    have hS : e.S.re = 0 := by
      rw [u2]
      show (sCalc _ _ _ (0 : ℂ) (0 : ℂ) (0 : ℂ)).re = 0
      simp [sCalc]
    have hP : |e.S.re| ≤ g.Snom := by rw [hS]; norm_num [g, exG]
    have ht : exVvH.vvT < (exCallU z 1 (95 / 300)).t := by norm_num [exVvH, exH, exCallU]
    have hV : 0 < g.Vref := by norm_num [g, exG]
    refine ⟨e, he, conn.1, ht, u1, hP, ?_⟩
    have := (C128_reference hk he conn.1 rfl ht hV hP).1 (by rw [u1]; linarith) (by rw [u1]; linarith)
    rw [this, u1, mul_div_assoc, div_self hV.ne']
    have hf : filterVar g e = 0 := by
      unfold filterVar
      rw [u3]
      have : (⟨z .iaR, z .iaI⟩ : ℂ) = 0 := rfl
      rw [this]; simp
    rw [hf, hS]
    unfold spare VoltVar.curve
    have : g.Snom = 1 := rfl
    rw [this]
    norm_num
  · obtain ⟨e, he, hq, _⟩ := C128_lost_after_disconnection hk p (exCallU y 4 (1 / 10)) l (exCallU y 8 (95 / 300)) (hok _) conn.2.1
    exact ⟨e, he, (vrms _ _ _ _ he).1, hq⟩

end Eval
end PvDer
