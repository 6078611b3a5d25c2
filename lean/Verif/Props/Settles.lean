import Verif.Lemmas.Settle
import Verif.Props.DiesOut
import Verif.Props.SteadyStays

/-!
# C117: a simulation that settles has no static error

Whenever the states of a connected DER under constant inputs converge (the PLL angle excepted, it turns), and neither limiter is active in the limit: the current follows its reference
exactly, the DC voltage is its reference, the reactive power at the PCC is its reference, the PV power is delivered, the PLL runs at the grid frequency and the inverter voltage is the
terminal voltage plus the drop over the filter.  No claim is made that a simulation does settle.
-/

namespace PvDer
namespace Ode
open Complex Phasor Filter Topology Settle

/-- Parameters for which the integrators integrate, with a stable PLL. -/
structure SettlePar (p : Par) : Prop where
  Lf : p.Lf ≠ 0
  Ki : p.Ki_GCC ≠ 0
  wp : p.wp ≠ 0
  KiQ : p.Ki_Q ≠ 0
  Kp : 0 < p.Kp_PLL
  Kpi : 0 < p.Ki_PLL

/-- One phase at rest: DC voltage `V`, grid frequency `w`, terminal voltage `v`, current `i`, controller states `u`, `x`, current reference `r`. -/
structure SettledPhase (p : Par) (w V : ℝ) (v i u x r : ℂ) : Prop where
  /-- the filtered current error vanishes -/
  error : u = 0
  /-- the current is its reference -/
  tracks : i = r
  /-- inverter voltage = terminal voltage + drop over the filter impedance at the grid frequency -/
  voltage : x * ((V / 2 : ℝ) : ℂ) = v + ((p.Rf : ℂ) + I * (p.Lf : ℂ) * ((w / p.wbase : ℝ) : ℂ)) * i

variable (p : Par)

/-- C117 for the class `SinglePhase`. -/
theorem C117_settles_single (hp : SettlePar p) (hK : p.Ki_DC ≠ 0) (hC : p.C ≠ 0) (i : Inp) (hv : i.va ≠ 0)
    (Y : ℝ → SinglePhase.V → ℝ) (h : ∀ t, 0 ≤ t → Solves (fun t y => SinglePhase.rhs (env1 p { i with t := t } y)) Y t)
    (ℓ : SinglePhase.V → ℝ) (hl : ∀ r, r ≠ .wte → Tendsto (fun t => Y t r) atTop (𝓝 (ℓ r))) (hV : ℓ .Vdc ≠ 0)
    (hma : ‖duty p ⟨ℓ .uaR, ℓ .uaI⟩ ⟨ℓ .xaR, ℓ .xaI⟩‖ < p.m_limit)
    (hi : ‖irefD (env1 p i ℓ)‖ < p.iref_limit) :
    SettledPhase p i.w (ℓ .Vdc) i.va ⟨ℓ .iaR, ℓ .iaI⟩ ⟨ℓ .uaR, ℓ .uaI⟩ ⟨ℓ .xaR, ℓ .xaI⟩ ⟨ℓ .xDC, ℓ .xQ⟩ ∧
    ℓ .Vdc = i.Vdc_ref ∧
    (env1 p i ℓ).S_PCC.im = i.Q_ref ∧ (env1 p i ℓ).S.re = ppvOf p i (ℓ .Vdc) ∧ ℓ .xPLL = i.w - 2 * Real.pi * 60 := by
  have hlock : Locks p i.va i.w (fun t => Y t .xPLL) (fun t => Y t .wte) := by
    refine PllEq.locks ⟨fun t ht => ?_, fun t ht => ?_⟩ hv hp.Kp hp.Kpi
    · exact (h t ht .xPLL).congr_deriv rfl
    · exact (h t ht .wte).congr_deriv rfl
  have hvd := hlock.1
  have hwe := hlock.2.1
  have hxP : ℓ .xPLL = i.w - 2 * Real.pi * 60 := by
    have h1 := ((hvd.const_mul p.Kp_PLL).add (hl .xPLL (by decide))).add_const (2 * Real.pi * 60)
    have h2 := tendsto_nhds_unique h1 (hwe.congr (fun t => by rw [weCalc]))
    linarith
  have hW : Tendsto (fun t => (env1 p { i with t := t } (Y t)).winv / p.wbase) atTop (𝓝 (i.w / p.wbase)) := by
    exact hwe.div_const p.wbase
  have tia : Tendsto (fun t => (⟨Y t .iaR, Y t .iaI⟩ : ℂ)) atTop (𝓝 ⟨ℓ .iaR, ℓ .iaI⟩) := mk_tendsto (hl .iaR (by decide)) (hl .iaI (by decide))
  have tua : Tendsto (fun t => (⟨Y t .uaR, Y t .uaI⟩ : ℂ)) atTop (𝓝 ⟨ℓ .uaR, ℓ .uaI⟩) := mk_tendsto (hl .uaR (by decide)) (hl .uaI (by decide))
  have txa : Tendsto (fun t => (⟨Y t .xaR, Y t .xaI⟩ : ℂ)) atTop (𝓝 ⟨ℓ .xaR, ℓ .xaI⟩) := mk_tendsto (hl .xaR (by decide)) (hl .xaI (by decide))
  have tV := hl .Vdc (by decide)
  have tX := hl .xDC (by decide)
  have tQ := hl .xQ (by decide)
  have tta := vtOf_tendsto p tua txa tV
  have tS : Tendsto (fun t => (env1 p { i with t := t } (Y t)).S) atTop (𝓝 (env1 p i ℓ).S) := sPh_tendsto tta tia
  have tSP : Tendsto (fun t => (env1 p { i with t := t } (Y t)).S_PCC) atTop (𝓝 (env1 p i ℓ).S_PCC) := sPh_tendsto tendsto_const_nhds tia
  have tR : Tendsto (fun t => irefD (env1 p { i with t := t } (Y t))) atTop (𝓝 (irefD (env1 p i ℓ))) := iref_tendsto p i tV tX tQ tSP
  have ni : ∀ᶠ t in atTop, ¬ ‖irefD (env1 p { i with t := t } (Y t))‖ > p.iref_limit := (norm_lt tR hi).mono (fun t k => not_lt.2 k.le)
  have pos : ∀ᶠ t : ℝ in atTop, 0 ≤ t := eventually_ge_atTop 0
  have eX := lim0 (f' := fun t => p.Ki_DC * (i.Vdc_ref - Y t .Vdc)) (by
    filter_upwards [ni, pos] with t k ht
    exact (h t ht .xDC).congr_deriv (((C57_antiwindup_single_phase (env1 p { i with t := t } (Y t))).2.2.2.2.1).plain k)) tX ((tV.const_sub _).const_mul p.Ki_DC)
  have hVr : ℓ .Vdc = i.Vdc_ref := by
    rcases mul_eq_zero.1 eX with e | e
    · exact absurd e hK
    · linarith
  have eQ := lim0 (f' := fun t => -p.Ki_Q * (i.Q_ref - (env1 p { i with t := t } (Y t)).S_PCC.im)) (by
    filter_upwards [ni, pos] with t k ht
    exact (h t ht .xQ).congr_deriv (((C57_antiwindup_single_phase (env1 p { i with t := t } (Y t))).2.2.2.2.2).plain k)) tQ (((im_tendsto tSP).const_sub _).const_mul (-p.Ki_Q))
  have hQ : (env1 p i ℓ).S_PCC.im = i.Q_ref := by
    rcases mul_eq_zero.1 eQ with e | e
    · exact absurd (neg_eq_zero.1 e) hp.KiQ
    · linarith
  have eV := lim0 (f' := fun t => (ppvOf p i (Y t .Vdc) - (env1 p { i with t := t } (Y t)).S.re) / (Y t .Vdc * p.C)) (by
    filter_upwards [pos] with t ht
    exact (h t ht .Vdc).congr_deriv rfl) tV (((ppv_tendsto p i tV).sub (re_tendsto tS)).div (tV.mul_const p.C) (mul_ne_zero hV hC))
  have hS : (env1 p i ℓ).S.re = ppvOf p i (ℓ .Vdc) := by
    rcases div_eq_zero_iff.1 eV with e | e
    · linarith
    · exact absurd e (mul_ne_zero hV hC)
  have hR : irefD (env1 p i ℓ) = ⟨ℓ .xDC, ℓ .xQ⟩ := by
    have e1 : (irefD (env1 p i ℓ)) = ((ℓ .xDC + p.Kp_DC * (i.Vdc_ref - ℓ .Vdc) : ℝ) : ℂ) + I * ((ℓ .xQ - p.Kp_Q * (i.Q_ref - (env1 p i ℓ).S_PCC.im) : ℝ) : ℂ) := rfl
    rw [e1, hVr, hQ]
    apply Complex.ext <;> simp
  rw [hR] at tR
  have Pa : ∀ᶠ s in atTop, Defect.Phase p.Lf p.Rf p.Kp_GCC p.Ki_GCC p.wp (fun t => Y t .Vdc) (fun t => (env1 p { i with t := t } (Y t)).winv / p.wbase) (fun _ => i.va)
      (fun t => (irefD (env1 p { i with t := t } (Y t)))) (fun t => ⟨Y t .iaR, Y t .iaI⟩) (fun t => ⟨Y t .xaR, Y t .xaI⟩) (fun t => ⟨Y t .uaR, Y t .uaI⟩) s := by
    filter_upwards [norm_lt (duty_tendsto p tua txa) hma, pos] with s hsat hs
    have hd := h s hs
    have aw := C57_antiwindup_single_phase (env1 p { i with t := s } (Y s))
    have ns : ¬ mSat (env1 p { i with t := s } (Y s)) (env1 p { i with t := s } (Y s)).ua (env1 p { i with t := s } (Y s)).xa := not_lt.2 hsat.le
    refine phase_of p (vt := (env1 p { i with t := s } (Y s)).vta) rfl ((hd .iaR).congr_deriv ?_) ((hd .iaI).congr_deriv ?_) ((hd .xaR).congr_deriv ?_) ((hd .xaI).congr_deriv ?_)
      ((hd .uaR).congr_deriv ?_) ((hd .uaI).congr_deriv ?_)
    · rfl
    · rfl
    · exact (aw.1).plain ns
    · exact (aw.2.1).plain ns
    · exact (aw.2.2.1).plain ns
    · exact (aw.2.2.2.1).plain ns
  have Sa := phase hp.Lf hp.Ki hp.wp Pa tV hW tendsto_const_nhds tR tia txa tua
  exact ⟨⟨Sa.1, Sa.2.1, Sa.2.2⟩, hVr, hQ, hS, hxP⟩

/-- C117 for the class `ThreePhase`. -/
theorem C117_settles_three (hp : SettlePar p) (hK : p.Ki_DC ≠ 0) (hC : p.C ≠ 0) (hTf : p.Tfilter_Vrms ≠ 0) (i : Inp) (hv : i.va ≠ 0) (hb : i.vb = Phasor.ub i.va) (hc : i.vc = Phasor.uc i.va)
    (Y : ℝ → ThreePhase.V → ℝ) (h : ∀ t, 0 ≤ t → Solves (fun t y => ThreePhase.rhs (envT p { i with t := t } y)) Y t)
    (ℓ : ThreePhase.V → ℝ) (hl : ∀ r, r ≠ .wte → Tendsto (fun t => Y t r) atTop (𝓝 (ℓ r))) (hV : ℓ .Vdc ≠ 0)
    (hma : ‖duty p ⟨ℓ .uaR, ℓ .uaI⟩ ⟨ℓ .xaR, ℓ .xaI⟩‖ < p.m_limit)
    (hmb : ‖duty p ⟨ℓ .ubR, ℓ .ubI⟩ ⟨ℓ .xbR, ℓ .xbI⟩‖ < p.m_limit)
    (hmc : ‖duty p ⟨ℓ .ucR, ℓ .ucI⟩ ⟨ℓ .xcR, ℓ .xcI⟩‖ < p.m_limit)
    (hi : ‖irefD (envT p i ℓ)‖ < p.iref_limit) :
    SettledPhase p i.w (ℓ .Vdc) i.va ⟨ℓ .iaR, ℓ .iaI⟩ ⟨ℓ .uaR, ℓ .uaI⟩ ⟨ℓ .xaR, ℓ .xaI⟩ ⟨ℓ .xDC, ℓ .xQ⟩ ∧
    SettledPhase p i.w (ℓ .Vdc) i.vb ⟨ℓ .ibR, ℓ .ibI⟩ ⟨ℓ .ubR, ℓ .ubI⟩ ⟨ℓ .xbR, ℓ .xbI⟩ (Phasor.ub ⟨ℓ .xDC, ℓ .xQ⟩) ∧
    SettledPhase p i.w (ℓ .Vdc) i.vc ⟨ℓ .icR, ℓ .icI⟩ ⟨ℓ .ucR, ℓ .ucI⟩ ⟨ℓ .xcR, ℓ .xcI⟩ (Phasor.uc ⟨ℓ .xDC, ℓ .xQ⟩) ∧
    ℓ .Vdc = i.Vdc_ref ∧
    (envT p i ℓ).S_PCC.im = i.Q_ref ∧ (envT p i ℓ).S.re = ppvOf p i (ℓ .Vdc) ∧ ℓ .xPLL = i.w - 2 * Real.pi * 60 ∧ ℓ .Vrms = urms i.va i.vb i.vc := by
  have hlock : Locks p i.va i.w (fun t => Y t .xPLL) (fun t => Y t .wte) := C108_pll_locks_three p (fun t => { i with t := t }) (fun _ => true) i.va i.w Y
    (fun t _ => ⟨rfl, hb, hc, rfl, rfl⟩) hv hp.Kp hp.Kpi h
  have hvd := hlock.1
  have hwe := hlock.2.1
  have hxP : ℓ .xPLL = i.w - 2 * Real.pi * 60 := by
    have h1 := ((hvd.const_mul p.Kp_PLL).add (hl .xPLL (by decide))).add_const (2 * Real.pi * 60)
    have h2 := tendsto_nhds_unique h1 (hwe.congr (fun t => by rw [weCalc]))
    linarith
  have hW : Tendsto (fun t => (envT p { i with t := t } (Y t)).winv / p.wbase) atTop (𝓝 (i.w / p.wbase)) := by
    refine (hwe.congr (fun t => ?_)).div_const p.wbase
    show _ = weCalc p.Kp_PLL (pll3 i.va i.vb i.vc i.w t (Y t .wte)).1 (Y t .xPLL)
    rw [hb, hc, C53_pll_three_phase]
  have tia : Tendsto (fun t => (⟨Y t .iaR, Y t .iaI⟩ : ℂ)) atTop (𝓝 ⟨ℓ .iaR, ℓ .iaI⟩) := mk_tendsto (hl .iaR (by decide)) (hl .iaI (by decide))
  have tua : Tendsto (fun t => (⟨Y t .uaR, Y t .uaI⟩ : ℂ)) atTop (𝓝 ⟨ℓ .uaR, ℓ .uaI⟩) := mk_tendsto (hl .uaR (by decide)) (hl .uaI (by decide))
  have txa : Tendsto (fun t => (⟨Y t .xaR, Y t .xaI⟩ : ℂ)) atTop (𝓝 ⟨ℓ .xaR, ℓ .xaI⟩) := mk_tendsto (hl .xaR (by decide)) (hl .xaI (by decide))
  have tib : Tendsto (fun t => (⟨Y t .ibR, Y t .ibI⟩ : ℂ)) atTop (𝓝 ⟨ℓ .ibR, ℓ .ibI⟩) := mk_tendsto (hl .ibR (by decide)) (hl .ibI (by decide))
  have tub : Tendsto (fun t => (⟨Y t .ubR, Y t .ubI⟩ : ℂ)) atTop (𝓝 ⟨ℓ .ubR, ℓ .ubI⟩) := mk_tendsto (hl .ubR (by decide)) (hl .ubI (by decide))
  have txb : Tendsto (fun t => (⟨Y t .xbR, Y t .xbI⟩ : ℂ)) atTop (𝓝 ⟨ℓ .xbR, ℓ .xbI⟩) := mk_tendsto (hl .xbR (by decide)) (hl .xbI (by decide))
  have tic : Tendsto (fun t => (⟨Y t .icR, Y t .icI⟩ : ℂ)) atTop (𝓝 ⟨ℓ .icR, ℓ .icI⟩) := mk_tendsto (hl .icR (by decide)) (hl .icI (by decide))
  have tuc : Tendsto (fun t => (⟨Y t .ucR, Y t .ucI⟩ : ℂ)) atTop (𝓝 ⟨ℓ .ucR, ℓ .ucI⟩) := mk_tendsto (hl .ucR (by decide)) (hl .ucI (by decide))
  have txc : Tendsto (fun t => (⟨Y t .xcR, Y t .xcI⟩ : ℂ)) atTop (𝓝 ⟨ℓ .xcR, ℓ .xcI⟩) := mk_tendsto (hl .xcR (by decide)) (hl .xcI (by decide))
  have tV := hl .Vdc (by decide)
  have tX := hl .xDC (by decide)
  have tQ := hl .xQ (by decide)
  have tta := vtOf_tendsto p tua txa tV
  have ttb := vtOf_tendsto p tub txb tV
  have ttc := vtOf_tendsto p tuc txc tV
  have tS : Tendsto (fun t => (envT p { i with t := t } (Y t)).S) atTop (𝓝 (envT p i ℓ).S) := sCalc_tendsto tta ttb ttc tia tib tic
  have tSP : Tendsto (fun t => (envT p { i with t := t } (Y t)).S_PCC) atTop (𝓝 (envT p i ℓ).S_PCC) :=
    sCalc_tendsto tendsto_const_nhds tendsto_const_nhds tendsto_const_nhds tia tib tic
  have tR : Tendsto (fun t => irefD (envT p { i with t := t } (Y t))) atTop (𝓝 (irefD (envT p i ℓ))) := iref_tendsto p i tV tX tQ tSP
  have ni : ∀ᶠ t in atTop, ¬ ‖irefD (envT p { i with t := t } (Y t))‖ > p.iref_limit := (norm_lt tR hi).mono (fun t k => not_lt.2 k.le)
  have pos : ∀ᶠ t : ℝ in atTop, 0 ≤ t := eventually_ge_atTop 0
  have eX := lim0 (f' := fun t => p.Ki_DC * (i.Vdc_ref - Y t .Vdc)) (by
    filter_upwards [ni, pos] with t k ht
    exact (h t ht .xDC).congr_deriv (((C57_antiwindup_three_phase (envT p { i with t := t } (Y t))).2.2.2.2.2.2.2.2.2.2.2.2.1).plain k)) tX ((tV.const_sub _).const_mul p.Ki_DC)
  have hVr : ℓ .Vdc = i.Vdc_ref := by
    rcases mul_eq_zero.1 eX with e | e
    · exact absurd e hK
    · linarith
  have eQ := lim0 (f' := fun t => -p.Ki_Q * (i.Q_ref - (envT p { i with t := t } (Y t)).S_PCC.im)) (by
    filter_upwards [ni, pos] with t k ht
    exact (h t ht .xQ).congr_deriv (((C57_antiwindup_three_phase (envT p { i with t := t } (Y t))).2.2.2.2.2.2.2.2.2.2.2.2.2).plain k)) tQ (((im_tendsto tSP).const_sub _).const_mul (-p.Ki_Q))
  have hQ : (envT p i ℓ).S_PCC.im = i.Q_ref := by
    rcases mul_eq_zero.1 eQ with e | e
    · exact absurd (neg_eq_zero.1 e) hp.KiQ
    · linarith
  have eV := lim0 (f' := fun t => (ppvOf p i (Y t .Vdc) - (envT p { i with t := t } (Y t)).S.re) / (Y t .Vdc * p.C)) (by
    filter_upwards [pos] with t ht
    exact (h t ht .Vdc).congr_deriv rfl) tV (((ppv_tendsto p i tV).sub (re_tendsto tS)).div (tV.mul_const p.C) (mul_ne_zero hV hC))
  have hS : (envT p i ℓ).S.re = ppvOf p i (ℓ .Vdc) := by
    rcases div_eq_zero_iff.1 eV with e | e
    · linarith
    · exact absurd e (mul_ne_zero hV hC)
  have eF := lim0 (f' := fun t => 1 / p.Tfilter_Vrms * (urms i.va i.vb i.vc - Y t .Vrms)) (by
    filter_upwards [pos] with t ht
    exact (h t ht .Vrms).congr_deriv rfl) (hl .Vrms (by decide)) (((hl .Vrms (by decide)).const_sub _).const_mul (1 / p.Tfilter_Vrms))
  have hF : ℓ .Vrms = urms i.va i.vb i.vc := by
    rcases mul_eq_zero.1 eF with e | e
    · exact absurd e (one_div_ne_zero hTf)
    · linarith
  have hR : irefD (envT p i ℓ) = ⟨ℓ .xDC, ℓ .xQ⟩ := by
    have e1 : (irefD (envT p i ℓ)) = ((ℓ .xDC + p.Kp_DC * (i.Vdc_ref - ℓ .Vdc) : ℝ) : ℂ) + I * ((ℓ .xQ - p.Kp_Q * (i.Q_ref - (envT p i ℓ).S_PCC.im) : ℝ) : ℂ) := rfl
    rw [e1, hVr, hQ]
    apply Complex.ext <;> simp
  rw [hR] at tR
  have Pa : ∀ᶠ s in atTop, Defect.Phase p.Lf p.Rf p.Kp_GCC p.Ki_GCC p.wp (fun t => Y t .Vdc) (fun t => (envT p { i with t := t } (Y t)).winv / p.wbase) (fun _ => i.va)
      (fun t => (irefD (envT p { i with t := t } (Y t)))) (fun t => ⟨Y t .iaR, Y t .iaI⟩) (fun t => ⟨Y t .xaR, Y t .xaI⟩) (fun t => ⟨Y t .uaR, Y t .uaI⟩) s := by
    filter_upwards [norm_lt (duty_tendsto p tua txa) hma, pos] with s hsat hs
    have hd := h s hs
    have aw := C57_antiwindup_three_phase (envT p { i with t := s } (Y s))
    have ns : ¬ mSat (envT p { i with t := s } (Y s)) (envT p { i with t := s } (Y s)).ua (envT p { i with t := s } (Y s)).xa := not_lt.2 hsat.le
    refine phase_of p (vt := (envT p { i with t := s } (Y s)).vta) rfl ((hd .iaR).congr_deriv ?_) ((hd .iaI).congr_deriv ?_) ((hd .xaR).congr_deriv ?_) ((hd .xaI).congr_deriv ?_)
      ((hd .uaR).congr_deriv ?_) ((hd .uaI).congr_deriv ?_)
    · rfl
    · rfl
    · exact (aw.1).plain ns
    · exact (aw.2.1).plain ns
    · exact (aw.2.2.1).plain ns
    · exact (aw.2.2.2.1).plain ns
  have Sa := phase hp.Lf hp.Ki hp.wp Pa tV hW tendsto_const_nhds tR tia txa tua
  have Pb : ∀ᶠ s in atTop, Defect.Phase p.Lf p.Rf p.Kp_GCC p.Ki_GCC p.wp (fun t => Y t .Vdc) (fun t => (envT p { i with t := t } (Y t)).winv / p.wbase) (fun _ => i.vb)
      (fun t => Phasor.ub (irefD (envT p { i with t := t } (Y t)))) (fun t => ⟨Y t .ibR, Y t .ibI⟩) (fun t => ⟨Y t .xbR, Y t .xbI⟩) (fun t => ⟨Y t .ubR, Y t .ubI⟩) s := by
    filter_upwards [norm_lt (duty_tendsto p tub txb) hmb, pos] with s hsat hs
    have hd := h s hs
    have aw := C57_antiwindup_three_phase (envT p { i with t := s } (Y s))
    have ns : ¬ mSat (envT p { i with t := s } (Y s)) (envT p { i with t := s } (Y s)).ub (envT p { i with t := s } (Y s)).xb := not_lt.2 hsat.le
    refine phase_of p (vt := (envT p { i with t := s } (Y s)).vtb) rfl ((hd .ibR).congr_deriv ?_) ((hd .ibI).congr_deriv ?_) ((hd .xbR).congr_deriv ?_) ((hd .xbI).congr_deriv ?_)
      ((hd .ubR).congr_deriv ?_) ((hd .ubI).congr_deriv ?_)
    · rfl
    · rfl
    · exact (aw.2.2.2.2.1).plain ns
    · exact (aw.2.2.2.2.2.1).plain ns
    · exact (aw.2.2.2.2.2.2.1).plain ns
    · exact (aw.2.2.2.2.2.2.2.1).plain ns
  have Sb := phase hp.Lf hp.Ki hp.wp Pb tV hW tendsto_const_nhds (ub_tendsto tR) tib txb tub
  have Pc : ∀ᶠ s in atTop, Defect.Phase p.Lf p.Rf p.Kp_GCC p.Ki_GCC p.wp (fun t => Y t .Vdc) (fun t => (envT p { i with t := t } (Y t)).winv / p.wbase) (fun _ => i.vc)
      (fun t => Phasor.uc (irefD (envT p { i with t := t } (Y t)))) (fun t => ⟨Y t .icR, Y t .icI⟩) (fun t => ⟨Y t .xcR, Y t .xcI⟩) (fun t => ⟨Y t .ucR, Y t .ucI⟩) s := by
    filter_upwards [norm_lt (duty_tendsto p tuc txc) hmc, pos] with s hsat hs
    have hd := h s hs
    have aw := C57_antiwindup_three_phase (envT p { i with t := s } (Y s))
    have ns : ¬ mSat (envT p { i with t := s } (Y s)) (envT p { i with t := s } (Y s)).uc (envT p { i with t := s } (Y s)).xc := not_lt.2 hsat.le
    refine phase_of p (vt := (envT p { i with t := s } (Y s)).vtc) rfl ((hd .icR).congr_deriv ?_) ((hd .icI).congr_deriv ?_) ((hd .xcR).congr_deriv ?_) ((hd .xcI).congr_deriv ?_)
      ((hd .ucR).congr_deriv ?_) ((hd .ucI).congr_deriv ?_)
    · rfl
    · rfl
    · exact (aw.2.2.2.2.2.2.2.2.1).plain ns
    · exact (aw.2.2.2.2.2.2.2.2.2.1).plain ns
    · exact (aw.2.2.2.2.2.2.2.2.2.2.1).plain ns
    · exact (aw.2.2.2.2.2.2.2.2.2.2.2.1).plain ns
  have Sc := phase hp.Lf hp.Ki hp.wp Pc tV hW tendsto_const_nhds (uc_tendsto tR) tic txc tuc
  exact ⟨⟨Sa.1, Sa.2.1, Sa.2.2⟩, ⟨Sb.1, Sb.2.1, Sb.2.2⟩, ⟨Sc.1, Sc.2.1, Sc.2.2⟩, hVr, hQ, hS, hxP, hF⟩

/-- C117 for the class `ThreePhaseNoVrmsFilter`. -/
theorem C117_settles_three_no_filter (hp : SettlePar p) (hK : p.Ki_DC ≠ 0) (hC : p.C ≠ 0) (i : Inp) (hv : i.va ≠ 0) (hb : i.vb = Phasor.ub i.va) (hc : i.vc = Phasor.uc i.va)
    (Y : ℝ → ThreePhaseNoVrmsFilter.V → ℝ) (h : ∀ t, 0 ≤ t → Solves (fun t y => ThreePhaseNoVrmsFilter.rhs (envN p { i with t := t } y)) Y t)
    (ℓ : ThreePhaseNoVrmsFilter.V → ℝ) (hl : ∀ r, r ≠ .wte → Tendsto (fun t => Y t r) atTop (𝓝 (ℓ r))) (hV : ℓ .Vdc ≠ 0)
    (hma : ‖duty p ⟨ℓ .uaR, ℓ .uaI⟩ ⟨ℓ .xaR, ℓ .xaI⟩‖ < p.m_limit)
    (hmb : ‖duty p ⟨ℓ .ubR, ℓ .ubI⟩ ⟨ℓ .xbR, ℓ .xbI⟩‖ < p.m_limit)
    (hmc : ‖duty p ⟨ℓ .ucR, ℓ .ucI⟩ ⟨ℓ .xcR, ℓ .xcI⟩‖ < p.m_limit)
    (hi : ‖irefD (envN p i ℓ)‖ < p.iref_limit) :
    SettledPhase p i.w (ℓ .Vdc) i.va ⟨ℓ .iaR, ℓ .iaI⟩ ⟨ℓ .uaR, ℓ .uaI⟩ ⟨ℓ .xaR, ℓ .xaI⟩ ⟨ℓ .xDC, ℓ .xQ⟩ ∧
    SettledPhase p i.w (ℓ .Vdc) i.vb ⟨ℓ .ibR, ℓ .ibI⟩ ⟨ℓ .ubR, ℓ .ubI⟩ ⟨ℓ .xbR, ℓ .xbI⟩ (Phasor.ub ⟨ℓ .xDC, ℓ .xQ⟩) ∧
    SettledPhase p i.w (ℓ .Vdc) i.vc ⟨ℓ .icR, ℓ .icI⟩ ⟨ℓ .ucR, ℓ .ucI⟩ ⟨ℓ .xcR, ℓ .xcI⟩ (Phasor.uc ⟨ℓ .xDC, ℓ .xQ⟩) ∧
    ℓ .Vdc = i.Vdc_ref ∧
    (envN p i ℓ).S_PCC.im = i.Q_ref ∧ (envN p i ℓ).S.re = ppvOf p i (ℓ .Vdc) ∧ ℓ .xPLL = i.w - 2 * Real.pi * 60 := by
  have hlock : Locks p i.va i.w (fun t => Y t .xPLL) (fun t => Y t .wte) := C108_pll_locks_three_no_filter p (fun t => { i with t := t }) (fun _ => true) i.va i.w Y
    (fun t _ => ⟨rfl, hb, hc, rfl, rfl⟩) hv hp.Kp hp.Kpi h
  have hvd := hlock.1
  have hwe := hlock.2.1
  have hxP : ℓ .xPLL = i.w - 2 * Real.pi * 60 := by
    have h1 := ((hvd.const_mul p.Kp_PLL).add (hl .xPLL (by decide))).add_const (2 * Real.pi * 60)
    have h2 := tendsto_nhds_unique h1 (hwe.congr (fun t => by rw [weCalc]))
    linarith
  have hW : Tendsto (fun t => (envN p { i with t := t } (Y t)).winv / p.wbase) atTop (𝓝 (i.w / p.wbase)) := by
    refine (hwe.congr (fun t => ?_)).div_const p.wbase
    show _ = weCalc p.Kp_PLL (pll3 i.va i.vb i.vc i.w t (Y t .wte)).1 (Y t .xPLL)
    rw [hb, hc, C53_pll_three_phase]
  have tia : Tendsto (fun t => (⟨Y t .iaR, Y t .iaI⟩ : ℂ)) atTop (𝓝 ⟨ℓ .iaR, ℓ .iaI⟩) := mk_tendsto (hl .iaR (by decide)) (hl .iaI (by decide))
  have tua : Tendsto (fun t => (⟨Y t .uaR, Y t .uaI⟩ : ℂ)) atTop (𝓝 ⟨ℓ .uaR, ℓ .uaI⟩) := mk_tendsto (hl .uaR (by decide)) (hl .uaI (by decide))
  have txa : Tendsto (fun t => (⟨Y t .xaR, Y t .xaI⟩ : ℂ)) atTop (𝓝 ⟨ℓ .xaR, ℓ .xaI⟩) := mk_tendsto (hl .xaR (by decide)) (hl .xaI (by decide))
  have tib : Tendsto (fun t => (⟨Y t .ibR, Y t .ibI⟩ : ℂ)) atTop (𝓝 ⟨ℓ .ibR, ℓ .ibI⟩) := mk_tendsto (hl .ibR (by decide)) (hl .ibI (by decide))
  have tub : Tendsto (fun t => (⟨Y t .ubR, Y t .ubI⟩ : ℂ)) atTop (𝓝 ⟨ℓ .ubR, ℓ .ubI⟩) := mk_tendsto (hl .ubR (by decide)) (hl .ubI (by decide))
  have txb : Tendsto (fun t => (⟨Y t .xbR, Y t .xbI⟩ : ℂ)) atTop (𝓝 ⟨ℓ .xbR, ℓ .xbI⟩) := mk_tendsto (hl .xbR (by decide)) (hl .xbI (by decide))
  have tic : Tendsto (fun t => (⟨Y t .icR, Y t .icI⟩ : ℂ)) atTop (𝓝 ⟨ℓ .icR, ℓ .icI⟩) := mk_tendsto (hl .icR (by decide)) (hl .icI (by decide))
  have tuc : Tendsto (fun t => (⟨Y t .ucR, Y t .ucI⟩ : ℂ)) atTop (𝓝 ⟨ℓ .ucR, ℓ .ucI⟩) := mk_tendsto (hl .ucR (by decide)) (hl .ucI (by decide))
  have txc : Tendsto (fun t => (⟨Y t .xcR, Y t .xcI⟩ : ℂ)) atTop (𝓝 ⟨ℓ .xcR, ℓ .xcI⟩) := mk_tendsto (hl .xcR (by decide)) (hl .xcI (by decide))
  have tV := hl .Vdc (by decide)
  have tX := hl .xDC (by decide)
  have tQ := hl .xQ (by decide)
  have tta := vtOf_tendsto p tua txa tV
  have ttb := vtOf_tendsto p tub txb tV
  have ttc := vtOf_tendsto p tuc txc tV
  have tS : Tendsto (fun t => (envN p { i with t := t } (Y t)).S) atTop (𝓝 (envN p i ℓ).S) := sCalc_tendsto tta ttb ttc tia tib tic
  have tSP : Tendsto (fun t => (envN p { i with t := t } (Y t)).S_PCC) atTop (𝓝 (envN p i ℓ).S_PCC) :=
    sCalc_tendsto tendsto_const_nhds tendsto_const_nhds tendsto_const_nhds tia tib tic
  have tR : Tendsto (fun t => irefD (envN p { i with t := t } (Y t))) atTop (𝓝 (irefD (envN p i ℓ))) := iref_tendsto p i tV tX tQ tSP
  have ni : ∀ᶠ t in atTop, ¬ ‖irefD (envN p { i with t := t } (Y t))‖ > p.iref_limit := (norm_lt tR hi).mono (fun t k => not_lt.2 k.le)
  have pos : ∀ᶠ t : ℝ in atTop, 0 ≤ t := eventually_ge_atTop 0
  have eX := lim0 (f' := fun t => p.Ki_DC * (i.Vdc_ref - Y t .Vdc)) (by
    filter_upwards [ni, pos] with t k ht
    exact (h t ht .xDC).congr_deriv (((C57_antiwindup_no_filter (envN p { i with t := t } (Y t))).2.2.2.2.2.2.2.2.2.2.2.2.1).plain k)) tX ((tV.const_sub _).const_mul p.Ki_DC)
  have hVr : ℓ .Vdc = i.Vdc_ref := by
    rcases mul_eq_zero.1 eX with e | e
    · exact absurd e hK
    · linarith
  have eQ := lim0 (f' := fun t => -p.Ki_Q * (i.Q_ref - (envN p { i with t := t } (Y t)).S_PCC.im)) (by
    filter_upwards [ni, pos] with t k ht
    exact (h t ht .xQ).congr_deriv (((C57_antiwindup_no_filter (envN p { i with t := t } (Y t))).2.2.2.2.2.2.2.2.2.2.2.2.2).plain k)) tQ (((im_tendsto tSP).const_sub _).const_mul (-p.Ki_Q))
  have hQ : (envN p i ℓ).S_PCC.im = i.Q_ref := by
    rcases mul_eq_zero.1 eQ with e | e
    · exact absurd (neg_eq_zero.1 e) hp.KiQ
    · linarith
  have eV := lim0 (f' := fun t => (ppvOf p i (Y t .Vdc) - (envN p { i with t := t } (Y t)).S.re) / (Y t .Vdc * p.C)) (by
    filter_upwards [pos] with t ht
    exact (h t ht .Vdc).congr_deriv rfl) tV (((ppv_tendsto p i tV).sub (re_tendsto tS)).div (tV.mul_const p.C) (mul_ne_zero hV hC))
  have hS : (envN p i ℓ).S.re = ppvOf p i (ℓ .Vdc) := by
    rcases div_eq_zero_iff.1 eV with e | e
    · linarith
    · exact absurd e (mul_ne_zero hV hC)
  have hR : irefD (envN p i ℓ) = ⟨ℓ .xDC, ℓ .xQ⟩ := by
    have e1 : (irefD (envN p i ℓ)) = ((ℓ .xDC + p.Kp_DC * (i.Vdc_ref - ℓ .Vdc) : ℝ) : ℂ) + I * ((ℓ .xQ - p.Kp_Q * (i.Q_ref - (envN p i ℓ).S_PCC.im) : ℝ) : ℂ) := rfl
    rw [e1, hVr, hQ]
    apply Complex.ext <;> simp
  rw [hR] at tR
  have Pa : ∀ᶠ s in atTop, Defect.Phase p.Lf p.Rf p.Kp_GCC p.Ki_GCC p.wp (fun t => Y t .Vdc) (fun t => (envN p { i with t := t } (Y t)).winv / p.wbase) (fun _ => i.va)
      (fun t => (irefD (envN p { i with t := t } (Y t)))) (fun t => ⟨Y t .iaR, Y t .iaI⟩) (fun t => ⟨Y t .xaR, Y t .xaI⟩) (fun t => ⟨Y t .uaR, Y t .uaI⟩) s := by
    filter_upwards [norm_lt (duty_tendsto p tua txa) hma, pos] with s hsat hs
    have hd := h s hs
    have aw := C57_antiwindup_no_filter (envN p { i with t := s } (Y s))
    have ns : ¬ mSat (envN p { i with t := s } (Y s)) (envN p { i with t := s } (Y s)).ua (envN p { i with t := s } (Y s)).xa := not_lt.2 hsat.le
    refine phase_of p (vt := (envN p { i with t := s } (Y s)).vta) rfl ((hd .iaR).congr_deriv ?_) ((hd .iaI).congr_deriv ?_) ((hd .xaR).congr_deriv ?_) ((hd .xaI).congr_deriv ?_)
      ((hd .uaR).congr_deriv ?_) ((hd .uaI).congr_deriv ?_)
    · rfl
    · rfl
    · exact (aw.1).plain ns
    · exact (aw.2.1).plain ns
    · exact (aw.2.2.1).plain ns
    · exact (aw.2.2.2.1).plain ns
  have Sa := phase hp.Lf hp.Ki hp.wp Pa tV hW tendsto_const_nhds tR tia txa tua
  have Pb : ∀ᶠ s in atTop, Defect.Phase p.Lf p.Rf p.Kp_GCC p.Ki_GCC p.wp (fun t => Y t .Vdc) (fun t => (envN p { i with t := t } (Y t)).winv / p.wbase) (fun _ => i.vb)
      (fun t => Phasor.ub (irefD (envN p { i with t := t } (Y t)))) (fun t => ⟨Y t .ibR, Y t .ibI⟩) (fun t => ⟨Y t .xbR, Y t .xbI⟩) (fun t => ⟨Y t .ubR, Y t .ubI⟩) s := by
    filter_upwards [norm_lt (duty_tendsto p tub txb) hmb, pos] with s hsat hs
    have hd := h s hs
    have aw := C57_antiwindup_no_filter (envN p { i with t := s } (Y s))
    have ns : ¬ mSat (envN p { i with t := s } (Y s)) (envN p { i with t := s } (Y s)).ub (envN p { i with t := s } (Y s)).xb := not_lt.2 hsat.le
    refine phase_of p (vt := (envN p { i with t := s } (Y s)).vtb) rfl ((hd .ibR).congr_deriv ?_) ((hd .ibI).congr_deriv ?_) ((hd .xbR).congr_deriv ?_) ((hd .xbI).congr_deriv ?_)
      ((hd .ubR).congr_deriv ?_) ((hd .ubI).congr_deriv ?_)
    · rfl
    · rfl
    · exact (aw.2.2.2.2.1).plain ns
    · exact (aw.2.2.2.2.2.1).plain ns
    · exact (aw.2.2.2.2.2.2.1).plain ns
    · exact (aw.2.2.2.2.2.2.2.1).plain ns
  have Sb := phase hp.Lf hp.Ki hp.wp Pb tV hW tendsto_const_nhds (ub_tendsto tR) tib txb tub
  have Pc : ∀ᶠ s in atTop, Defect.Phase p.Lf p.Rf p.Kp_GCC p.Ki_GCC p.wp (fun t => Y t .Vdc) (fun t => (envN p { i with t := t } (Y t)).winv / p.wbase) (fun _ => i.vc)
      (fun t => Phasor.uc (irefD (envN p { i with t := t } (Y t)))) (fun t => ⟨Y t .icR, Y t .icI⟩) (fun t => ⟨Y t .xcR, Y t .xcI⟩) (fun t => ⟨Y t .ucR, Y t .ucI⟩) s := by
    filter_upwards [norm_lt (duty_tendsto p tuc txc) hmc, pos] with s hsat hs
    have hd := h s hs
    have aw := C57_antiwindup_no_filter (envN p { i with t := s } (Y s))
    have ns : ¬ mSat (envN p { i with t := s } (Y s)) (envN p { i with t := s } (Y s)).uc (envN p { i with t := s } (Y s)).xc := not_lt.2 hsat.le
    refine phase_of p (vt := (envN p { i with t := s } (Y s)).vtc) rfl ((hd .icR).congr_deriv ?_) ((hd .icI).congr_deriv ?_) ((hd .xcR).congr_deriv ?_) ((hd .xcI).congr_deriv ?_)
      ((hd .ucR).congr_deriv ?_) ((hd .ucI).congr_deriv ?_)
    · rfl
    · rfl
    · exact (aw.2.2.2.2.2.2.2.2.1).plain ns
    · exact (aw.2.2.2.2.2.2.2.2.2.1).plain ns
    · exact (aw.2.2.2.2.2.2.2.2.2.2.1).plain ns
    · exact (aw.2.2.2.2.2.2.2.2.2.2.2.1).plain ns
  have Sc := phase hp.Lf hp.Ki hp.wp Pc tV hW tendsto_const_nhds (uc_tendsto tR) tic txc tuc
  exact ⟨⟨Sa.1, Sa.2.1, Sa.2.2⟩, ⟨Sb.1, Sb.2.1, Sb.2.2⟩, ⟨Sc.1, Sc.2.1, Sc.2.2⟩, hVr, hQ, hS, hxP⟩

/-- C117 for the class `ThreePhaseNumba`. -/
theorem C117_settles_three_numba (hp : SettlePar p) (hK : p.Ki_DC ≠ 0) (hC : p.C ≠ 0) (i : Inp) (hv : i.va ≠ 0) (hb : i.vb = Phasor.ub i.va) (hc : i.vc = Phasor.uc i.va)
    (Y : ℝ → ThreePhaseNumba.V → ℝ) (h : ∀ t, 0 ≤ t → Solves (fun t y => ThreePhaseNumba.rhs (envNumba p { i with t := t } y)) Y t)
    (ℓ : ThreePhaseNumba.V → ℝ) (hl : ∀ r, r ≠ .wte → Tendsto (fun t => Y t r) atTop (𝓝 (ℓ r))) (hV : ℓ .Vdc ≠ 0)
    (hma : ‖duty p ⟨ℓ .uaR, ℓ .uaI⟩ ⟨ℓ .xaR, ℓ .xaI⟩‖ < p.m_limit)
    (hmb : ‖duty p ⟨ℓ .ubR, ℓ .ubI⟩ ⟨ℓ .xbR, ℓ .xbI⟩‖ < p.m_limit)
    (hmc : ‖duty p ⟨ℓ .ucR, ℓ .ucI⟩ ⟨ℓ .xcR, ℓ .xcI⟩‖ < p.m_limit)
    (hi : ‖irefD (envNumba p i ℓ)‖ < p.iref_limit) :
    SettledPhase p i.w (ℓ .Vdc) i.va ⟨ℓ .iaR, ℓ .iaI⟩ ⟨ℓ .uaR, ℓ .uaI⟩ ⟨ℓ .xaR, ℓ .xaI⟩ ⟨ℓ .xDC, ℓ .xQ⟩ ∧
    SettledPhase p i.w (ℓ .Vdc) i.vb ⟨ℓ .ibR, ℓ .ibI⟩ ⟨ℓ .ubR, ℓ .ubI⟩ ⟨ℓ .xbR, ℓ .xbI⟩ (Phasor.ub ⟨ℓ .xDC, ℓ .xQ⟩) ∧
    SettledPhase p i.w (ℓ .Vdc) i.vc ⟨ℓ .icR, ℓ .icI⟩ ⟨ℓ .ucR, ℓ .ucI⟩ ⟨ℓ .xcR, ℓ .xcI⟩ (Phasor.uc ⟨ℓ .xDC, ℓ .xQ⟩) ∧
    ℓ .Vdc = i.Vdc_ref ∧
    (envNumba p i ℓ).S_PCC.im = i.Q_ref ∧ (envNumba p i ℓ).S.re = ppvOf p i (ℓ .Vdc) ∧ ℓ .xPLL = i.w - 2 * Real.pi * 60 := by
  have hlock : Locks p i.va i.w (fun t => Y t .xPLL) (fun t => Y t .wte) := C108_pll_locks_three_numba p (fun t => { i with t := t }) (fun _ => true) i.va i.w Y
    (fun t _ => ⟨rfl, hb, hc, rfl, rfl⟩) hv hp.Kp hp.Kpi h
  have hvd := hlock.1
  have hwe := hlock.2.1
  have hxP : ℓ .xPLL = i.w - 2 * Real.pi * 60 := by
    have h1 := ((hvd.const_mul p.Kp_PLL).add (hl .xPLL (by decide))).add_const (2 * Real.pi * 60)
    have h2 := tendsto_nhds_unique h1 (hwe.congr (fun t => by rw [weCalc]))
    linarith
  have hW : Tendsto (fun t => (envNumba p { i with t := t } (Y t)).winv / p.wbase) atTop (𝓝 (i.w / p.wbase)) := by
    refine (hwe.congr (fun t => ?_)).div_const p.wbase
    show _ = weCalc p.Kp_PLL (pll3 i.va i.vb i.vc i.w t (Y t .wte)).1 (Y t .xPLL)
    rw [hb, hc, C53_pll_three_phase]
  have tia : Tendsto (fun t => (⟨Y t .iaR, Y t .iaI⟩ : ℂ)) atTop (𝓝 ⟨ℓ .iaR, ℓ .iaI⟩) := mk_tendsto (hl .iaR (by decide)) (hl .iaI (by decide))
  have tua : Tendsto (fun t => (⟨Y t .uaR, Y t .uaI⟩ : ℂ)) atTop (𝓝 ⟨ℓ .uaR, ℓ .uaI⟩) := mk_tendsto (hl .uaR (by decide)) (hl .uaI (by decide))
  have txa : Tendsto (fun t => (⟨Y t .xaR, Y t .xaI⟩ : ℂ)) atTop (𝓝 ⟨ℓ .xaR, ℓ .xaI⟩) := mk_tendsto (hl .xaR (by decide)) (hl .xaI (by decide))
  have tib : Tendsto (fun t => (⟨Y t .ibR, Y t .ibI⟩ : ℂ)) atTop (𝓝 ⟨ℓ .ibR, ℓ .ibI⟩) := mk_tendsto (hl .ibR (by decide)) (hl .ibI (by decide))
  have tub : Tendsto (fun t => (⟨Y t .ubR, Y t .ubI⟩ : ℂ)) atTop (𝓝 ⟨ℓ .ubR, ℓ .ubI⟩) := mk_tendsto (hl .ubR (by decide)) (hl .ubI (by decide))
  have txb : Tendsto (fun t => (⟨Y t .xbR, Y t .xbI⟩ : ℂ)) atTop (𝓝 ⟨ℓ .xbR, ℓ .xbI⟩) := mk_tendsto (hl .xbR (by decide)) (hl .xbI (by decide))
  have tic : Tendsto (fun t => (⟨Y t .icR, Y t .icI⟩ : ℂ)) atTop (𝓝 ⟨ℓ .icR, ℓ .icI⟩) := mk_tendsto (hl .icR (by decide)) (hl .icI (by decide))
  have tuc : Tendsto (fun t => (⟨Y t .ucR, Y t .ucI⟩ : ℂ)) atTop (𝓝 ⟨ℓ .ucR, ℓ .ucI⟩) := mk_tendsto (hl .ucR (by decide)) (hl .ucI (by decide))
  have txc : Tendsto (fun t => (⟨Y t .xcR, Y t .xcI⟩ : ℂ)) atTop (𝓝 ⟨ℓ .xcR, ℓ .xcI⟩) := mk_tendsto (hl .xcR (by decide)) (hl .xcI (by decide))
  have tV := hl .Vdc (by decide)
  have tX := hl .xDC (by decide)
  have tQ := hl .xQ (by decide)
  have tta := vtOf_tendsto p tua txa tV
  have ttb := vtOf_tendsto p tub txb tV
  have ttc := vtOf_tendsto p tuc txc tV
  have tS : Tendsto (fun t => (envNumba p { i with t := t } (Y t)).S) atTop (𝓝 (envNumba p i ℓ).S) := sCalc_tendsto tta ttb ttc tia tib tic
  have tSP : Tendsto (fun t => (envNumba p { i with t := t } (Y t)).S_PCC) atTop (𝓝 (envNumba p i ℓ).S_PCC) :=
    sCalc_tendsto tendsto_const_nhds tendsto_const_nhds tendsto_const_nhds tia tib tic
  have tR : Tendsto (fun t => irefD (envNumba p { i with t := t } (Y t))) atTop (𝓝 (irefD (envNumba p i ℓ))) := iref_tendsto p i tV tX tQ tSP
  have ni : ∀ᶠ t in atTop, ¬ ‖irefD (envNumba p { i with t := t } (Y t))‖ > p.iref_limit := (norm_lt tR hi).mono (fun t k => not_lt.2 k.le)
  have pos : ∀ᶠ t : ℝ in atTop, 0 ≤ t := eventually_ge_atTop 0
  have eX := lim0 (f' := fun t => p.Ki_DC * (i.Vdc_ref - Y t .Vdc)) (by
    filter_upwards [ni, pos] with t k ht
    exact (h t ht .xDC).congr_deriv (((C57_antiwindup_numba (envNumba p { i with t := t } (Y t))).2.2.2.2.2.2.2.2.2.2.2.2.1).plain k)) tX ((tV.const_sub _).const_mul p.Ki_DC)
  have hVr : ℓ .Vdc = i.Vdc_ref := by
    rcases mul_eq_zero.1 eX with e | e
    · exact absurd e hK
    · linarith
  have eQ := lim0 (f' := fun t => -p.Ki_Q * (i.Q_ref - (envNumba p { i with t := t } (Y t)).S_PCC.im)) (by
    filter_upwards [ni, pos] with t k ht
    exact (h t ht .xQ).congr_deriv (((C57_antiwindup_numba (envNumba p { i with t := t } (Y t))).2.2.2.2.2.2.2.2.2.2.2.2.2).plain k)) tQ (((im_tendsto tSP).const_sub _).const_mul (-p.Ki_Q))
  have hQ : (envNumba p i ℓ).S_PCC.im = i.Q_ref := by
    rcases mul_eq_zero.1 eQ with e | e
    · exact absurd (neg_eq_zero.1 e) hp.KiQ
    · linarith
  have eV := lim0 (f' := fun t => (ppvOf p i (Y t .Vdc) - (envNumba p { i with t := t } (Y t)).S.re) / (Y t .Vdc * p.C)) (by
    filter_upwards [pos] with t ht
    exact (h t ht .Vdc).congr_deriv rfl) tV (((ppv_tendsto p i tV).sub (re_tendsto tS)).div (tV.mul_const p.C) (mul_ne_zero hV hC))
  have hS : (envNumba p i ℓ).S.re = ppvOf p i (ℓ .Vdc) := by
    rcases div_eq_zero_iff.1 eV with e | e
    · linarith
    · exact absurd e (mul_ne_zero hV hC)
  have hR : irefD (envNumba p i ℓ) = ⟨ℓ .xDC, ℓ .xQ⟩ := by
    have e1 : (irefD (envNumba p i ℓ)) = ((ℓ .xDC + p.Kp_DC * (i.Vdc_ref - ℓ .Vdc) : ℝ) : ℂ) + I * ((ℓ .xQ - p.Kp_Q * (i.Q_ref - (envNumba p i ℓ).S_PCC.im) : ℝ) : ℂ) := rfl
    rw [e1, hVr, hQ]
    apply Complex.ext <;> simp
  rw [hR] at tR
  have Pa : ∀ᶠ s in atTop, Defect.Phase p.Lf p.Rf p.Kp_GCC p.Ki_GCC p.wp (fun t => Y t .Vdc) (fun t => (envNumba p { i with t := t } (Y t)).winv / p.wbase) (fun _ => i.va)
      (fun t => (irefD (envNumba p { i with t := t } (Y t)))) (fun t => ⟨Y t .iaR, Y t .iaI⟩) (fun t => ⟨Y t .xaR, Y t .xaI⟩) (fun t => ⟨Y t .uaR, Y t .uaI⟩) s := by
    filter_upwards [norm_lt (duty_tendsto p tua txa) hma, pos] with s hsat hs
    have hd := h s hs
    have aw := C57_antiwindup_numba (envNumba p { i with t := s } (Y s))
    have ns : ¬ mSat (envNumba p { i with t := s } (Y s)) (envNumba p { i with t := s } (Y s)).ua (envNumba p { i with t := s } (Y s)).xa := not_lt.2 hsat.le
    refine phase_of p (vt := (envNumba p { i with t := s } (Y s)).vta) rfl ((hd .iaR).congr_deriv ?_) ((hd .iaI).congr_deriv ?_) ((hd .xaR).congr_deriv ?_) ((hd .xaI).congr_deriv ?_)
      ((hd .uaR).congr_deriv ?_) ((hd .uaI).congr_deriv ?_)
    · rfl
    · rfl
    · exact (aw.1).plain ns
    · exact (aw.2.1).plain ns
    · exact (aw.2.2.1).plain ns
    · exact (aw.2.2.2.1).plain ns
  have Sa := phase hp.Lf hp.Ki hp.wp Pa tV hW tendsto_const_nhds tR tia txa tua
  have Pb : ∀ᶠ s in atTop, Defect.Phase p.Lf p.Rf p.Kp_GCC p.Ki_GCC p.wp (fun t => Y t .Vdc) (fun t => (envNumba p { i with t := t } (Y t)).winv / p.wbase) (fun _ => i.vb)
      (fun t => Phasor.ub (irefD (envNumba p { i with t := t } (Y t)))) (fun t => ⟨Y t .ibR, Y t .ibI⟩) (fun t => ⟨Y t .xbR, Y t .xbI⟩) (fun t => ⟨Y t .ubR, Y t .ubI⟩) s := by
    filter_upwards [norm_lt (duty_tendsto p tub txb) hmb, pos] with s hsat hs
    have hd := h s hs
    have aw := C57_antiwindup_numba (envNumba p { i with t := s } (Y s))
    have ns : ¬ mSat (envNumba p { i with t := s } (Y s)) (envNumba p { i with t := s } (Y s)).ub (envNumba p { i with t := s } (Y s)).xb := not_lt.2 hsat.le
    refine phase_of p (vt := (envNumba p { i with t := s } (Y s)).vtb) rfl ((hd .ibR).congr_deriv ?_) ((hd .ibI).congr_deriv ?_) ((hd .xbR).congr_deriv ?_) ((hd .xbI).congr_deriv ?_)
      ((hd .ubR).congr_deriv ?_) ((hd .ubI).congr_deriv ?_)
    · rfl
    · rfl
    · exact (aw.2.2.2.2.1).plain ns
    · exact (aw.2.2.2.2.2.1).plain ns
    · exact (aw.2.2.2.2.2.2.1).plain ns
    · exact (aw.2.2.2.2.2.2.2.1).plain ns
  have Sb := phase hp.Lf hp.Ki hp.wp Pb tV hW tendsto_const_nhds (ub_tendsto tR) tib txb tub
  have Pc : ∀ᶠ s in atTop, Defect.Phase p.Lf p.Rf p.Kp_GCC p.Ki_GCC p.wp (fun t => Y t .Vdc) (fun t => (envNumba p { i with t := t } (Y t)).winv / p.wbase) (fun _ => i.vc)
      (fun t => Phasor.uc (irefD (envNumba p { i with t := t } (Y t)))) (fun t => ⟨Y t .icR, Y t .icI⟩) (fun t => ⟨Y t .xcR, Y t .xcI⟩) (fun t => ⟨Y t .ucR, Y t .ucI⟩) s := by
    filter_upwards [norm_lt (duty_tendsto p tuc txc) hmc, pos] with s hsat hs
    have hd := h s hs
    have aw := C57_antiwindup_numba (envNumba p { i with t := s } (Y s))
    have ns : ¬ mSat (envNumba p { i with t := s } (Y s)) (envNumba p { i with t := s } (Y s)).uc (envNumba p { i with t := s } (Y s)).xc := not_lt.2 hsat.le
    refine phase_of p (vt := (envNumba p { i with t := s } (Y s)).vtc) rfl ((hd .icR).congr_deriv ?_) ((hd .icI).congr_deriv ?_) ((hd .xcR).congr_deriv ?_) ((hd .xcI).congr_deriv ?_)
      ((hd .ucR).congr_deriv ?_) ((hd .ucI).congr_deriv ?_)
    · rfl
    · rfl
    · exact (aw.2.2.2.2.2.2.2.2.1).plain ns
    · exact (aw.2.2.2.2.2.2.2.2.2.1).plain ns
    · exact (aw.2.2.2.2.2.2.2.2.2.2.1).plain ns
    · exact (aw.2.2.2.2.2.2.2.2.2.2.2.1).plain ns
  have Sc := phase hp.Lf hp.Ki hp.wp Pc tV hW tendsto_const_nhds (uc_tendsto tR) tic txc tuc
  exact ⟨⟨Sa.1, Sa.2.1, Sa.2.2⟩, ⟨Sb.1, Sb.2.1, Sb.2.2⟩, ⟨Sc.1, Sc.2.1, Sc.2.2⟩, hVr, hQ, hS, hxP⟩

/-- C117 for the class `ThreePhaseBalanced`. -/
theorem C117_settles_balanced (hp : SettlePar p) (hK : p.Ki_DC ≠ 0) (hC : p.C ≠ 0) (i : Inp) (hv : i.va ≠ 0)
    (Y : ℝ → ThreePhaseBalanced.V → ℝ) (h : ∀ t, 0 ≤ t → Solves (fun t y => ThreePhaseBalanced.rhs (envB p { i with t := t } y)) Y t)
    (ℓ : ThreePhaseBalanced.V → ℝ) (hl : ∀ r, r ≠ .wte → Tendsto (fun t => Y t r) atTop (𝓝 (ℓ r))) (hV : ℓ .Vdc ≠ 0)
    (hma : ‖duty p ⟨ℓ .uaR, ℓ .uaI⟩ ⟨ℓ .xaR, ℓ .xaI⟩‖ < p.m_limit)
    (hi : ‖irefD (envB p i ℓ)‖ < p.iref_limit) :
    SettledPhase p i.w (ℓ .Vdc) i.va ⟨ℓ .iaR, ℓ .iaI⟩ ⟨ℓ .uaR, ℓ .uaI⟩ ⟨ℓ .xaR, ℓ .xaI⟩ ⟨ℓ .xDC, ℓ .xQ⟩ ∧
    ℓ .Vdc = i.Vdc_ref ∧
    (envB p i ℓ).S_PCC.im = i.Q_ref ∧ (envB p i ℓ).S.re = ppvOf p i (ℓ .Vdc) ∧ ℓ .xPLL = i.w - 2 * Real.pi * 60 := by
  have hlock : Locks p i.va i.w (fun t => Y t .xPLL) (fun t => Y t .wte) := by
    refine PllEq.locks ⟨fun t ht => ?_, fun t ht => ?_⟩ hv hp.Kp hp.Kpi
    · refine (h t ht .xPLL).congr_deriv ?_
      show p.Ki_PLL * (pll3 i.va (Phasor.ub i.va) (Phasor.uc i.va) i.w t (Y t .wte)).1 = _
      rw [C53_pll_three_phase]
    · refine (h t ht .wte).congr_deriv ?_
      show weCalc p.Kp_PLL (pll3 i.va (Phasor.ub i.va) (Phasor.uc i.va) i.w t (Y t .wte)).1 (Y t .xPLL) = _
      rw [C53_pll_three_phase]
  have hvd := hlock.1
  have hwe := hlock.2.1
  have hxP : ℓ .xPLL = i.w - 2 * Real.pi * 60 := by
    have h1 := ((hvd.const_mul p.Kp_PLL).add (hl .xPLL (by decide))).add_const (2 * Real.pi * 60)
    have h2 := tendsto_nhds_unique h1 (hwe.congr (fun t => by rw [weCalc]))
    linarith
  have hW : Tendsto (fun t => (envB p { i with t := t } (Y t)).winv / p.wbase) atTop (𝓝 (i.w / p.wbase)) := by
    refine (hwe.congr (fun t => ?_)).div_const p.wbase
    show _ = weCalc p.Kp_PLL (pll3 i.va (Phasor.ub i.va) (Phasor.uc i.va) i.w t (Y t .wte)).1 (Y t .xPLL)
    rw [C53_pll_three_phase]
  have tia : Tendsto (fun t => (⟨Y t .iaR, Y t .iaI⟩ : ℂ)) atTop (𝓝 ⟨ℓ .iaR, ℓ .iaI⟩) := mk_tendsto (hl .iaR (by decide)) (hl .iaI (by decide))
  have tua : Tendsto (fun t => (⟨Y t .uaR, Y t .uaI⟩ : ℂ)) atTop (𝓝 ⟨ℓ .uaR, ℓ .uaI⟩) := mk_tendsto (hl .uaR (by decide)) (hl .uaI (by decide))
  have txa : Tendsto (fun t => (⟨Y t .xaR, Y t .xaI⟩ : ℂ)) atTop (𝓝 ⟨ℓ .xaR, ℓ .xaI⟩) := mk_tendsto (hl .xaR (by decide)) (hl .xaI (by decide))
  have tV := hl .Vdc (by decide)
  have tX := hl .xDC (by decide)
  have tQ := hl .xQ (by decide)
  have tta := vtOf_tendsto p tua txa tV
  have tS : Tendsto (fun t => (envB p { i with t := t } (Y t)).S) atTop (𝓝 (envB p i ℓ).S) :=
    sCalc_tendsto tta (vtOf_tendsto p (ub_tendsto tua) (ub_tendsto txa) tV) (vtOf_tendsto p (uc_tendsto tua) (uc_tendsto txa) tV) tia (ub_tendsto tia) (uc_tendsto tia)
  have tSP : Tendsto (fun t => (envB p { i with t := t } (Y t)).S_PCC) atTop (𝓝 (envB p i ℓ).S_PCC) :=
    sCalc_tendsto tendsto_const_nhds tendsto_const_nhds tendsto_const_nhds tia (ub_tendsto tia) (uc_tendsto tia)
  have tR : Tendsto (fun t => irefD (envB p { i with t := t } (Y t))) atTop (𝓝 (irefD (envB p i ℓ))) := iref_tendsto p i tV tX tQ tSP
  have ni : ∀ᶠ t in atTop, ¬ ‖irefD (envB p { i with t := t } (Y t))‖ > p.iref_limit := (norm_lt tR hi).mono (fun t k => not_lt.2 k.le)
  have pos : ∀ᶠ t : ℝ in atTop, 0 ≤ t := eventually_ge_atTop 0
  have eX := lim0 (f' := fun t => p.Ki_DC * (i.Vdc_ref - Y t .Vdc)) (by
    filter_upwards [ni, pos] with t k ht
    exact (h t ht .xDC).congr_deriv (((C57_antiwindup_balanced (envB p { i with t := t } (Y t))).2.2.2.2.1).plain k)) tX ((tV.const_sub _).const_mul p.Ki_DC)
  have hVr : ℓ .Vdc = i.Vdc_ref := by
    rcases mul_eq_zero.1 eX with e | e
    · exact absurd e hK
    · linarith
  have eQ := lim0 (f' := fun t => -p.Ki_Q * (i.Q_ref - (envB p { i with t := t } (Y t)).S_PCC.im)) (by
    filter_upwards [ni, pos] with t k ht
    exact (h t ht .xQ).congr_deriv (((C57_antiwindup_balanced (envB p { i with t := t } (Y t))).2.2.2.2.2).plain k)) tQ (((im_tendsto tSP).const_sub _).const_mul (-p.Ki_Q))
  have hQ : (envB p i ℓ).S_PCC.im = i.Q_ref := by
    rcases mul_eq_zero.1 eQ with e | e
    · exact absurd (neg_eq_zero.1 e) hp.KiQ
    · linarith
  have eV := lim0 (f' := fun t => (ppvOf p i (Y t .Vdc) - (envB p { i with t := t } (Y t)).S.re) / (Y t .Vdc * p.C)) (by
    filter_upwards [pos] with t ht
    exact (h t ht .Vdc).congr_deriv rfl) tV (((ppv_tendsto p i tV).sub (re_tendsto tS)).div (tV.mul_const p.C) (mul_ne_zero hV hC))
  have hS : (envB p i ℓ).S.re = ppvOf p i (ℓ .Vdc) := by
    rcases div_eq_zero_iff.1 eV with e | e
    · linarith
    · exact absurd e (mul_ne_zero hV hC)
  have hR : irefD (envB p i ℓ) = ⟨ℓ .xDC, ℓ .xQ⟩ := by
    have e1 : (irefD (envB p i ℓ)) = ((ℓ .xDC + p.Kp_DC * (i.Vdc_ref - ℓ .Vdc) : ℝ) : ℂ) + I * ((ℓ .xQ - p.Kp_Q * (i.Q_ref - (envB p i ℓ).S_PCC.im) : ℝ) : ℂ) := rfl
    rw [e1, hVr, hQ]
    apply Complex.ext <;> simp
  rw [hR] at tR
  have Pa : ∀ᶠ s in atTop, Defect.Phase p.Lf p.Rf p.Kp_GCC p.Ki_GCC p.wp (fun t => Y t .Vdc) (fun t => (envB p { i with t := t } (Y t)).winv / p.wbase) (fun _ => i.va)
      (fun t => (irefD (envB p { i with t := t } (Y t)))) (fun t => ⟨Y t .iaR, Y t .iaI⟩) (fun t => ⟨Y t .xaR, Y t .xaI⟩) (fun t => ⟨Y t .uaR, Y t .uaI⟩) s := by
    filter_upwards [norm_lt (duty_tendsto p tua txa) hma, pos] with s hsat hs
    have hd := h s hs
    have aw := C57_antiwindup_balanced (envB p { i with t := s } (Y s))
    have ns : ¬ mSat (envB p { i with t := s } (Y s)) (envB p { i with t := s } (Y s)).ua (envB p { i with t := s } (Y s)).xa := not_lt.2 hsat.le
    refine phase_of p (vt := (envB p { i with t := s } (Y s)).vta) rfl ((hd .iaR).congr_deriv ?_) ((hd .iaI).congr_deriv ?_) ((hd .xaR).congr_deriv ?_) ((hd .xaI).congr_deriv ?_)
      ((hd .uaR).congr_deriv ?_) ((hd .uaI).congr_deriv ?_)
    · rfl
    · rfl
    · exact (aw.1).plain ns
    · exact (aw.2.1).plain ns
    · exact (aw.2.2.1).plain ns
    · exact (aw.2.2.2.1).plain ns
  have Sa := phase hp.Lf hp.Ki hp.wp Pa tV hW tendsto_const_nhds tR tia txa tua
  exact ⟨⟨Sa.1, Sa.2.1, Sa.2.2⟩, hVr, hQ, hS, hxP⟩

/-- C117 for the class `SinglePhaseConstantVdc`. -/
theorem C117_settles_single_constant_vdc (hp : SettlePar p) (hK : p.Ki_P ≠ 0) (i : Inp) (hv : i.va ≠ 0)
    (Y : ℝ → SinglePhaseConstantVdc.V → ℝ) (h : ∀ t, 0 ≤ t → Solves (fun t y => SinglePhaseConstantVdc.rhs (envC1 p { i with t := t } y)) Y t)
    (ℓ : SinglePhaseConstantVdc.V → ℝ) (hl : ∀ r, r ≠ .wte → Tendsto (fun t => Y t r) atTop (𝓝 (ℓ r)))
    (hma : ‖duty p ⟨ℓ .uaR, ℓ .uaI⟩ ⟨ℓ .xaR, ℓ .xaI⟩‖ < p.m_limit)
    (hi : ‖irefP (envC1 p i ℓ)‖ < p.iref_limit) :
    SettledPhase p i.w (i.Vdc0) i.va ⟨ℓ .iaR, ℓ .iaI⟩ ⟨ℓ .uaR, ℓ .uaI⟩ ⟨ℓ .xaR, ℓ .xaI⟩ ⟨ℓ .xP, ℓ .xQ⟩ ∧
    (envC1 p i ℓ).S_PCC.im = i.Q_ref ∧ (envC1 p i ℓ).S.re = ppvOf p i (i.Vdc0) ∧ ℓ .xPLL = i.w - 2 * Real.pi * 60 := by
  have hlock : Locks p i.va i.w (fun t => Y t .xPLL) (fun t => Y t .wte) := by
    refine PllEq.locks ⟨fun t ht => ?_, fun t ht => ?_⟩ hv hp.Kp hp.Kpi
    · exact (h t ht .xPLL).congr_deriv rfl
    · exact (h t ht .wte).congr_deriv rfl
  have hvd := hlock.1
  have hwe := hlock.2.1
  have hxP : ℓ .xPLL = i.w - 2 * Real.pi * 60 := by
    have h1 := ((hvd.const_mul p.Kp_PLL).add (hl .xPLL (by decide))).add_const (2 * Real.pi * 60)
    have h2 := tendsto_nhds_unique h1 (hwe.congr (fun t => by rw [weCalc]))
    linarith
  have hW : Tendsto (fun t => (envC1 p { i with t := t } (Y t)).winv / p.wbase) atTop (𝓝 (i.w / p.wbase)) := by
    exact hwe.div_const p.wbase
  have tia : Tendsto (fun t => (⟨Y t .iaR, Y t .iaI⟩ : ℂ)) atTop (𝓝 ⟨ℓ .iaR, ℓ .iaI⟩) := mk_tendsto (hl .iaR (by decide)) (hl .iaI (by decide))
  have tua : Tendsto (fun t => (⟨Y t .uaR, Y t .uaI⟩ : ℂ)) atTop (𝓝 ⟨ℓ .uaR, ℓ .uaI⟩) := mk_tendsto (hl .uaR (by decide)) (hl .uaI (by decide))
  have txa : Tendsto (fun t => (⟨Y t .xaR, Y t .xaI⟩ : ℂ)) atTop (𝓝 ⟨ℓ .xaR, ℓ .xaI⟩) := mk_tendsto (hl .xaR (by decide)) (hl .xaI (by decide))
  have tV : Tendsto (fun _ : ℝ => i.Vdc0) atTop (𝓝 i.Vdc0) := tendsto_const_nhds
  have tX := hl .xP (by decide)
  have tQ := hl .xQ (by decide)
  have tta := vtOf_tendsto p tua txa tV
  have tS : Tendsto (fun t => (envC1 p { i with t := t } (Y t)).S) atTop (𝓝 (envC1 p i ℓ).S) := sPh_tendsto tta tia
  have tSP : Tendsto (fun t => (envC1 p { i with t := t } (Y t)).S_PCC) atTop (𝓝 (envC1 p i ℓ).S_PCC) := sPh_tendsto tendsto_const_nhds tia
  have tR : Tendsto (fun t => irefP (envC1 p { i with t := t } (Y t))) atTop (𝓝 (irefP (envC1 p i ℓ))) := irefP_tendsto p i (ppvOf p i i.Vdc0) tX tQ tS tSP
  have ni : ∀ᶠ t in atTop, ¬ ‖irefP (envC1 p { i with t := t } (Y t))‖ > p.iref_limit := (norm_lt tR hi).mono (fun t k => not_lt.2 k.le)
  have pos : ∀ᶠ t : ℝ in atTop, 0 ≤ t := eventually_ge_atTop 0
  have eX := lim0 (f' := fun t => p.Ki_P * (ppvOf p i i.Vdc0 - (envC1 p { i with t := t } (Y t)).S.re)) (by
    filter_upwards [ni, pos] with t k ht
    exact (h t ht .xP).congr_deriv (((C57_antiwindup_single_phase_constant_vdc (envC1 p { i with t := t } (Y t))).2.2.2.2.1).plain k)) tX (((re_tendsto tS).const_sub _).const_mul p.Ki_P)
  have hS : (envC1 p i ℓ).S.re = ppvOf p i i.Vdc0 := by
    rcases mul_eq_zero.1 eX with e | e
    · exact absurd e hK
    · linarith
  have eQ := lim0 (f' := fun t => -p.Ki_Q * (i.Q_ref - (envC1 p { i with t := t } (Y t)).S_PCC.im)) (by
    filter_upwards [ni, pos] with t k ht
    exact (h t ht .xQ).congr_deriv (((C57_antiwindup_single_phase_constant_vdc (envC1 p { i with t := t } (Y t))).2.2.2.2.2).plain k)) tQ (((im_tendsto tSP).const_sub _).const_mul (-p.Ki_Q))
  have hQ : (envC1 p i ℓ).S_PCC.im = i.Q_ref := by
    rcases mul_eq_zero.1 eQ with e | e
    · exact absurd (neg_eq_zero.1 e) hp.KiQ
    · linarith
  have hR : irefP (envC1 p i ℓ) = ⟨ℓ .xP, ℓ .xQ⟩ := by
    have e1 : (irefP (envC1 p i ℓ)) = ((ℓ .xP + p.Kp_P * (ppvOf p i i.Vdc0 - (envC1 p i ℓ).S.re) : ℝ) : ℂ) + I * ((ℓ .xQ - p.Kp_Q * (i.Q_ref - (envC1 p i ℓ).S_PCC.im) : ℝ) : ℂ) := rfl
    rw [e1, hS, hQ]
    apply Complex.ext <;> simp
  rw [hR] at tR
  have Pa : ∀ᶠ s in atTop, Defect.Phase p.Lf p.Rf p.Kp_GCC p.Ki_GCC p.wp (fun _ => i.Vdc0) (fun t => (envC1 p { i with t := t } (Y t)).winv / p.wbase) (fun _ => i.va)
      (fun t => (irefP (envC1 p { i with t := t } (Y t)))) (fun t => ⟨Y t .iaR, Y t .iaI⟩) (fun t => ⟨Y t .xaR, Y t .xaI⟩) (fun t => ⟨Y t .uaR, Y t .uaI⟩) s := by
    filter_upwards [norm_lt (duty_tendsto p tua txa) hma, pos] with s hsat hs
    have hd := h s hs
    have aw := C57_antiwindup_single_phase_constant_vdc (envC1 p { i with t := s } (Y s))
    have ns : ¬ mSat (envC1 p { i with t := s } (Y s)) (envC1 p { i with t := s } (Y s)).ua (envC1 p { i with t := s } (Y s)).xa := not_lt.2 hsat.le
    refine phase_of p (vt := (envC1 p { i with t := s } (Y s)).vta) rfl ((hd .iaR).congr_deriv ?_) ((hd .iaI).congr_deriv ?_) ((hd .xaR).congr_deriv ?_) ((hd .xaI).congr_deriv ?_)
      ((hd .uaR).congr_deriv ?_) ((hd .uaI).congr_deriv ?_)
    · rfl
    · rfl
    · exact (aw.1).plain ns
    · exact (aw.2.1).plain ns
    · exact (aw.2.2.1).plain ns
    · exact (aw.2.2.2.1).plain ns
  have Sa := phase hp.Lf hp.Ki hp.wp Pa tV hW tendsto_const_nhds tR tia txa tua
  exact ⟨⟨Sa.1, Sa.2.1, Sa.2.2⟩, hQ, hS, hxP⟩

/-- C117 for the class `ThreePhaseConstantVdc`. -/
theorem C117_settles_three_constant_vdc (hp : SettlePar p) (hK : p.Ki_P ≠ 0) (i : Inp) (hv : i.va ≠ 0) (hb : i.vb = Phasor.ub i.va) (hc : i.vc = Phasor.uc i.va)
    (Y : ℝ → ThreePhaseConstantVdc.V → ℝ) (h : ∀ t, 0 ≤ t → Solves (fun t y => ThreePhaseConstantVdc.rhs (envC3 p { i with t := t } y)) Y t)
    (ℓ : ThreePhaseConstantVdc.V → ℝ) (hl : ∀ r, r ≠ .wte → Tendsto (fun t => Y t r) atTop (𝓝 (ℓ r)))
    (hma : ‖duty p ⟨ℓ .uaR, ℓ .uaI⟩ ⟨ℓ .xaR, ℓ .xaI⟩‖ < p.m_limit)
    (hmb : ‖duty p ⟨ℓ .ubR, ℓ .ubI⟩ ⟨ℓ .xbR, ℓ .xbI⟩‖ < p.m_limit)
    (hmc : ‖duty p ⟨ℓ .ucR, ℓ .ucI⟩ ⟨ℓ .xcR, ℓ .xcI⟩‖ < p.m_limit)
    (hi : ‖irefP (envC3 p i ℓ)‖ < p.iref_limit) :
    SettledPhase p i.w (i.Vdc0) i.va ⟨ℓ .iaR, ℓ .iaI⟩ ⟨ℓ .uaR, ℓ .uaI⟩ ⟨ℓ .xaR, ℓ .xaI⟩ ⟨ℓ .xP, ℓ .xQ⟩ ∧
    SettledPhase p i.w (i.Vdc0) i.vb ⟨ℓ .ibR, ℓ .ibI⟩ ⟨ℓ .ubR, ℓ .ubI⟩ ⟨ℓ .xbR, ℓ .xbI⟩ (Phasor.ub ⟨ℓ .xP, ℓ .xQ⟩) ∧
    SettledPhase p i.w (i.Vdc0) i.vc ⟨ℓ .icR, ℓ .icI⟩ ⟨ℓ .ucR, ℓ .ucI⟩ ⟨ℓ .xcR, ℓ .xcI⟩ (Phasor.uc ⟨ℓ .xP, ℓ .xQ⟩) ∧
    (envC3 p i ℓ).S_PCC.im = i.Q_ref ∧ (envC3 p i ℓ).S.re = ppvOf p i (i.Vdc0) ∧ ℓ .xPLL = i.w - 2 * Real.pi * 60 := by
  have hlock : Locks p i.va i.w (fun t => Y t .xPLL) (fun t => Y t .wte) := C108_pll_locks_three_constant_vdc p (fun t => { i with t := t }) (fun _ => true) i.va i.w Y
    (fun t _ => ⟨rfl, hb, hc, rfl, rfl⟩) hv hp.Kp hp.Kpi h
  have hvd := hlock.1
  have hwe := hlock.2.1
  have hxP : ℓ .xPLL = i.w - 2 * Real.pi * 60 := by
    have h1 := ((hvd.const_mul p.Kp_PLL).add (hl .xPLL (by decide))).add_const (2 * Real.pi * 60)
    have h2 := tendsto_nhds_unique h1 (hwe.congr (fun t => by rw [weCalc]))
    linarith
  have hW : Tendsto (fun t => (envC3 p { i with t := t } (Y t)).winv / p.wbase) atTop (𝓝 (i.w / p.wbase)) := by
    refine (hwe.congr (fun t => ?_)).div_const p.wbase
    show _ = weCalc p.Kp_PLL (pll3 i.va i.vb i.vc i.w t (Y t .wte)).1 (Y t .xPLL)
    rw [hb, hc, C53_pll_three_phase]
  have tia : Tendsto (fun t => (⟨Y t .iaR, Y t .iaI⟩ : ℂ)) atTop (𝓝 ⟨ℓ .iaR, ℓ .iaI⟩) := mk_tendsto (hl .iaR (by decide)) (hl .iaI (by decide))
  have tua : Tendsto (fun t => (⟨Y t .uaR, Y t .uaI⟩ : ℂ)) atTop (𝓝 ⟨ℓ .uaR, ℓ .uaI⟩) := mk_tendsto (hl .uaR (by decide)) (hl .uaI (by decide))
  have txa : Tendsto (fun t => (⟨Y t .xaR, Y t .xaI⟩ : ℂ)) atTop (𝓝 ⟨ℓ .xaR, ℓ .xaI⟩) := mk_tendsto (hl .xaR (by decide)) (hl .xaI (by decide))
  have tib : Tendsto (fun t => (⟨Y t .ibR, Y t .ibI⟩ : ℂ)) atTop (𝓝 ⟨ℓ .ibR, ℓ .ibI⟩) := mk_tendsto (hl .ibR (by decide)) (hl .ibI (by decide))
  have tub : Tendsto (fun t => (⟨Y t .ubR, Y t .ubI⟩ : ℂ)) atTop (𝓝 ⟨ℓ .ubR, ℓ .ubI⟩) := mk_tendsto (hl .ubR (by decide)) (hl .ubI (by decide))
  have txb : Tendsto (fun t => (⟨Y t .xbR, Y t .xbI⟩ : ℂ)) atTop (𝓝 ⟨ℓ .xbR, ℓ .xbI⟩) := mk_tendsto (hl .xbR (by decide)) (hl .xbI (by decide))
  have tic : Tendsto (fun t => (⟨Y t .icR, Y t .icI⟩ : ℂ)) atTop (𝓝 ⟨ℓ .icR, ℓ .icI⟩) := mk_tendsto (hl .icR (by decide)) (hl .icI (by decide))
  have tuc : Tendsto (fun t => (⟨Y t .ucR, Y t .ucI⟩ : ℂ)) atTop (𝓝 ⟨ℓ .ucR, ℓ .ucI⟩) := mk_tendsto (hl .ucR (by decide)) (hl .ucI (by decide))
  have txc : Tendsto (fun t => (⟨Y t .xcR, Y t .xcI⟩ : ℂ)) atTop (𝓝 ⟨ℓ .xcR, ℓ .xcI⟩) := mk_tendsto (hl .xcR (by decide)) (hl .xcI (by decide))
  have tV : Tendsto (fun _ : ℝ => i.Vdc0) atTop (𝓝 i.Vdc0) := tendsto_const_nhds
  have tX := hl .xP (by decide)
  have tQ := hl .xQ (by decide)
  have tta := vtOf_tendsto p tua txa tV
  have ttb := vtOf_tendsto p tub txb tV
  have ttc := vtOf_tendsto p tuc txc tV
  have tS : Tendsto (fun t => (envC3 p { i with t := t } (Y t)).S) atTop (𝓝 (envC3 p i ℓ).S) := sCalc_tendsto tta ttb ttc tia tib tic
  have tSP : Tendsto (fun t => (envC3 p { i with t := t } (Y t)).S_PCC) atTop (𝓝 (envC3 p i ℓ).S_PCC) :=
    sCalc_tendsto tendsto_const_nhds tendsto_const_nhds tendsto_const_nhds tia tib tic
  have tR : Tendsto (fun t => irefP (envC3 p { i with t := t } (Y t))) atTop (𝓝 (irefP (envC3 p i ℓ))) := irefP_tendsto p i (ppvOf p i i.Vdc0) tX tQ tS tSP
  have ni : ∀ᶠ t in atTop, ¬ ‖irefP (envC3 p { i with t := t } (Y t))‖ > p.iref_limit := (norm_lt tR hi).mono (fun t k => not_lt.2 k.le)
  have pos : ∀ᶠ t : ℝ in atTop, 0 ≤ t := eventually_ge_atTop 0
  have eX := lim0 (f' := fun t => p.Ki_P * (ppvOf p i i.Vdc0 - (envC3 p { i with t := t } (Y t)).S.re)) (by
    filter_upwards [ni, pos] with t k ht
    exact (h t ht .xP).congr_deriv (((C57_antiwindup_three_phase_constant_vdc (envC3 p { i with t := t } (Y t))).2.2.2.2.2.2.2.2.2.2.2.2.1).plain k)) tX (((re_tendsto tS).const_sub _).const_mul p.Ki_P)
  have hS : (envC3 p i ℓ).S.re = ppvOf p i i.Vdc0 := by
    rcases mul_eq_zero.1 eX with e | e
    · exact absurd e hK
    · linarith
  have eQ := lim0 (f' := fun t => -p.Ki_Q * (i.Q_ref - (envC3 p { i with t := t } (Y t)).S_PCC.im)) (by
    filter_upwards [ni, pos] with t k ht
    exact (h t ht .xQ).congr_deriv (((C57_antiwindup_three_phase_constant_vdc (envC3 p { i with t := t } (Y t))).2.2.2.2.2.2.2.2.2.2.2.2.2).plain k)) tQ (((im_tendsto tSP).const_sub _).const_mul (-p.Ki_Q))
  have hQ : (envC3 p i ℓ).S_PCC.im = i.Q_ref := by
    rcases mul_eq_zero.1 eQ with e | e
    · exact absurd (neg_eq_zero.1 e) hp.KiQ
    · linarith
  have hR : irefP (envC3 p i ℓ) = ⟨ℓ .xP, ℓ .xQ⟩ := by
    have e1 : (irefP (envC3 p i ℓ)) = ((ℓ .xP + p.Kp_P * (ppvOf p i i.Vdc0 - (envC3 p i ℓ).S.re) : ℝ) : ℂ) + I * ((ℓ .xQ - p.Kp_Q * (i.Q_ref - (envC3 p i ℓ).S_PCC.im) : ℝ) : ℂ) := rfl
    rw [e1, hS, hQ]
    apply Complex.ext <;> simp
  rw [hR] at tR
  have Pa : ∀ᶠ s in atTop, Defect.Phase p.Lf p.Rf p.Kp_GCC p.Ki_GCC p.wp (fun _ => i.Vdc0) (fun t => (envC3 p { i with t := t } (Y t)).winv / p.wbase) (fun _ => i.va)
      (fun t => (irefP (envC3 p { i with t := t } (Y t)))) (fun t => ⟨Y t .iaR, Y t .iaI⟩) (fun t => ⟨Y t .xaR, Y t .xaI⟩) (fun t => ⟨Y t .uaR, Y t .uaI⟩) s := by
    filter_upwards [norm_lt (duty_tendsto p tua txa) hma, pos] with s hsat hs
    have hd := h s hs
    have aw := C57_antiwindup_three_phase_constant_vdc (envC3 p { i with t := s } (Y s))
    have ns : ¬ mSat (envC3 p { i with t := s } (Y s)) (envC3 p { i with t := s } (Y s)).ua (envC3 p { i with t := s } (Y s)).xa := not_lt.2 hsat.le
    refine phase_of p (vt := (envC3 p { i with t := s } (Y s)).vta) rfl ((hd .iaR).congr_deriv ?_) ((hd .iaI).congr_deriv ?_) ((hd .xaR).congr_deriv ?_) ((hd .xaI).congr_deriv ?_)
      ((hd .uaR).congr_deriv ?_) ((hd .uaI).congr_deriv ?_)
    · rfl
    · rfl
    · exact (aw.1).plain ns
    · exact (aw.2.1).plain ns
    · exact (aw.2.2.1).plain ns
    · exact (aw.2.2.2.1).plain ns
  have Sa := phase hp.Lf hp.Ki hp.wp Pa tV hW tendsto_const_nhds tR tia txa tua
  have Pb : ∀ᶠ s in atTop, Defect.Phase p.Lf p.Rf p.Kp_GCC p.Ki_GCC p.wp (fun _ => i.Vdc0) (fun t => (envC3 p { i with t := t } (Y t)).winv / p.wbase) (fun _ => i.vb)
      (fun t => Phasor.ub (irefP (envC3 p { i with t := t } (Y t)))) (fun t => ⟨Y t .ibR, Y t .ibI⟩) (fun t => ⟨Y t .xbR, Y t .xbI⟩) (fun t => ⟨Y t .ubR, Y t .ubI⟩) s := by
    filter_upwards [norm_lt (duty_tendsto p tub txb) hmb, pos] with s hsat hs
    have hd := h s hs
    have aw := C57_antiwindup_three_phase_constant_vdc (envC3 p { i with t := s } (Y s))
    have ns : ¬ mSat (envC3 p { i with t := s } (Y s)) (envC3 p { i with t := s } (Y s)).ub (envC3 p { i with t := s } (Y s)).xb := not_lt.2 hsat.le
    refine phase_of p (vt := (envC3 p { i with t := s } (Y s)).vtb) rfl ((hd .ibR).congr_deriv ?_) ((hd .ibI).congr_deriv ?_) ((hd .xbR).congr_deriv ?_) ((hd .xbI).congr_deriv ?_)
      ((hd .ubR).congr_deriv ?_) ((hd .ubI).congr_deriv ?_)
    · rfl
    · rfl
    · exact (aw.2.2.2.2.1).plain ns
    · exact (aw.2.2.2.2.2.1).plain ns
    · exact (aw.2.2.2.2.2.2.1).plain ns
    · exact (aw.2.2.2.2.2.2.2.1).plain ns
  have Sb := phase hp.Lf hp.Ki hp.wp Pb tV hW tendsto_const_nhds (ub_tendsto tR) tib txb tub
  have Pc : ∀ᶠ s in atTop, Defect.Phase p.Lf p.Rf p.Kp_GCC p.Ki_GCC p.wp (fun _ => i.Vdc0) (fun t => (envC3 p { i with t := t } (Y t)).winv / p.wbase) (fun _ => i.vc)
      (fun t => Phasor.uc (irefP (envC3 p { i with t := t } (Y t)))) (fun t => ⟨Y t .icR, Y t .icI⟩) (fun t => ⟨Y t .xcR, Y t .xcI⟩) (fun t => ⟨Y t .ucR, Y t .ucI⟩) s := by
    filter_upwards [norm_lt (duty_tendsto p tuc txc) hmc, pos] with s hsat hs
    have hd := h s hs
    have aw := C57_antiwindup_three_phase_constant_vdc (envC3 p { i with t := s } (Y s))
    have ns : ¬ mSat (envC3 p { i with t := s } (Y s)) (envC3 p { i with t := s } (Y s)).uc (envC3 p { i with t := s } (Y s)).xc := not_lt.2 hsat.le
    refine phase_of p (vt := (envC3 p { i with t := s } (Y s)).vtc) rfl ((hd .icR).congr_deriv ?_) ((hd .icI).congr_deriv ?_) ((hd .xcR).congr_deriv ?_) ((hd .xcI).congr_deriv ?_)
      ((hd .ucR).congr_deriv ?_) ((hd .ucI).congr_deriv ?_)
    · rfl
    · rfl
    · exact (aw.2.2.2.2.2.2.2.2.1).plain ns
    · exact (aw.2.2.2.2.2.2.2.2.2.1).plain ns
    · exact (aw.2.2.2.2.2.2.2.2.2.2.1).plain ns
    · exact (aw.2.2.2.2.2.2.2.2.2.2.2.1).plain ns
  have Sc := phase hp.Lf hp.Ki hp.wp Pc tV hW tendsto_const_nhds (uc_tendsto tR) tic txc tuc
  exact ⟨⟨Sa.1, Sa.2.1, Sa.2.2⟩, ⟨Sb.1, Sb.2.1, Sb.2.2⟩, ⟨Sc.1, Sc.2.1, Sc.2.2⟩, hQ, hS, hxP⟩

/-! ### The limit is an operating point of the steady-state calculation -/

/-- The operating point `steady_state_calc` would look for with the present inputs (PCC voltages from outside). -/
noncomputable def settledOp (p : Par) (i : Inp) (V : ℝ) : SS.Op :=
  { Vdc := V, Ppv := ppvOf p i V, Q_ref := i.Q_ref, Zf := (p.Rf : ℂ) + I * (p.Lf : ℂ), va := fun _ => i.va, vb := fun _ => i.vb, vc := fun _ => i.vc }

/-- The vector of unknowns of `steady_state_calc`: duty cycle and current of phase a. -/
noncomputable def settledX (m i : ℂ) : ℕ → ℝ
  | 0 => m.re | 1 => m.im | 2 => i.re | 3 => i.im | _ => 0

theorem volt60 {p : Par} {w V : ℝ} {v i u x r : ℂ} (h : SettledPhase p w V v i u x r) (hw : w = 2 * Real.pi * 60) (hb : p.wbase = 2 * Real.pi * 60) :
    x * ((V / 2 : ℝ) : ℂ) = v + ((p.Rf : ℂ) + I * (p.Lf : ℂ)) * i := by
  have := h.voltage
  rw [hw, hb, div_self SS.pi60] at this
  simpa using this

theorem residual1_settled {p : Par} {i : Inp} {V : ℝ} {c u x r : ℂ} (h : SettledPhase p i.w V i.va c u x r) (hw : i.w = 2 * Real.pi * 60) (hb : p.wbase = 2 * Real.pi * 60)
    (hS : (sPh (vtOf p u x V) c).re = ppvOf p i V) (hQ : (sPh i.va c).im = i.Q_ref) : SS.residual1 (settledOp p i V) (settledX x c) = 0 := by
  refine (SS.residual1_zero _ _).2 ⟨?_, hQ, volt60 h hw hb⟩
  rw [h.error] at hS
  rw [show vtOf p 0 x V = x * ((V / 2 : ℝ) : ℂ) by unfold vtOf duty; simp] at hS
  exact hS

theorem residual3_settled {p : Par} {i : Inp} {V : ℝ} {c x : ℂ} (hm : x ≠ 0) (hv : i.vb = Phasor.ub i.va ∧ i.vc = Phasor.uc i.va)
    (h : x * ((V / 2 : ℝ) : ℂ) = i.va + ((p.Rf : ℂ) + I * (p.Lf : ℂ)) * c)
    (hS : (sCalc (x * ((V / 2 : ℝ) : ℂ)) (Phasor.ub x * ((V / 2 : ℝ) : ℂ)) (Phasor.uc x * ((V / 2 : ℝ) : ℂ)) c (Phasor.ub c) (Phasor.uc c)).re = ppvOf p i V)
    (hQ : (sCalc i.va i.vb i.vc c (Phasor.ub c) (Phasor.uc c)).im = i.Q_ref) : SS.residual3 false (settledOp p i V) (settledX x c) = 0 := by
  have hi : SS.iaOf (settledX x c) = c := rfl
  have hx : SS.maOf (settledX x c) = x := rfl
  have hd : ∀ k : ℂ, x * k * ((V / 2 : ℝ) : ℂ) - i.va * k - c * k * ((p.Rf : ℂ) + I * (p.Lf : ℂ)) = 0 := by
    intro k; linear_combination k * h
  unfold SS.residual3
  simp only [SS.ibOf, SS.icOf, SS.mbOf, SS.mcOf, Bool.false_eq_true, if_false, hi, hx, SS.sCalc_div]
  rw [SS.C88_balance_term_vanishes _ _ hm]
  simp only [settledOp]
  rw [hS, hQ, hv.1, hv.2, (C47_phase_shift c).2.2.2.2.1]
  have e1 := hd 1
  have e2 := hd (ej (-(2 / 3) * Real.pi))
  have e3 := hd (ej ((2 / 3) * Real.pi))
  simp only [mul_one] at e1
  have e2' : Phasor.ub x * ((V / 2 : ℝ) : ℂ) - Phasor.ub i.va - Phasor.ub c * ((p.Rf : ℂ) + I * (p.Lf : ℂ)) = 0 := e2
  have e3' : Phasor.uc x * ((V / 2 : ℝ) : ℂ) - Phasor.uc i.va - Phasor.uc c * ((p.Rf : ℂ) + I * (p.Lf : ℂ)) = 0 := e3
  rw [e1, e2', e3']
  simp

theorem settled_rot {p : Par} {w V : ℝ} {va v i i' u u' x x' r r' : ℂ} {R : ℂ → ℂ} (k : ℂ) (hR : ∀ z, R z = z * k) (hV : V ≠ 0) (hv : v = R va) (hr : r' = R r)
    (ha : SettledPhase p w V va i u x r) (hb : SettledPhase p w V v i' u' x' r') : i' = R i ∧ x' = R x := by
  have hi : i' = R i := by rw [hb.tracks, hr, ha.tracks]
  have hc : ((V / 2 : ℝ) : ℂ) ≠ 0 := by
    have : V / 2 ≠ 0 := div_ne_zero hV two_ne_zero
    exact_mod_cast this
  refine ⟨hi, mul_right_cancel₀ hc ?_⟩
  have h1 := ha.voltage
  have h2 := hb.voltage
  rw [hi, hv] at h2
  simp only [hR] at h2 ⊢
  linear_combination h2 - k * h1

/-- C117 for `SinglePhase`: at 60 Hz a settled simulation has reached an operating point with zero residual, and its state is the one the initialisation computes from it. -/
theorem C117_operating_point_single (hp : SettlePar p) (hK : p.Ki_DC ≠ 0) (hC : p.C ≠ 0) (i : Inp) (hv : i.va ≠ 0)
    (hw : i.w = 2 * Real.pi * 60) (hwb : p.wbase = 2 * Real.pi * 60)
    (Y : ℝ → SinglePhase.V → ℝ) (h : ∀ t, 0 ≤ t → Solves (fun t y => SinglePhase.rhs (env1 p { i with t := t } y)) Y t)
    (ℓ : SinglePhase.V → ℝ) (hl : ∀ r, r ≠ .wte → Tendsto (fun t => Y t r) atTop (𝓝 (ℓ r))) (hV : ℓ .Vdc ≠ 0)
    (hma : ‖duty p ⟨ℓ .uaR, ℓ .uaI⟩ ⟨ℓ .xaR, ℓ .xaI⟩‖ < p.m_limit)
    (hi : ‖irefD (env1 p i ℓ)‖ < p.iref_limit) :
    SS.residual1 (settledOp p i i.Vdc_ref) (settledX ⟨ℓ .xaR, ℓ .xaI⟩ ⟨ℓ .iaR, ℓ .iaI⟩) = 0 ∧
    ∀ r, r ≠ .wte → ℓ r = SS.init1 (settledOp p i i.Vdc_ref) (settledX ⟨ℓ .xaR, ℓ .xaI⟩ ⟨ℓ .iaR, ℓ .iaI⟩) (SS.iaOf (settledX ⟨ℓ .xaR, ℓ .xaI⟩ ⟨ℓ .iaR, ℓ .iaI⟩)) r := by
  obtain ⟨Sa, hVr, hQ, hS, hPl⟩ := C117_settles_single p hp hK hC i hv Y h ℓ hl hV hma hi
  have hV' : i.Vdc_ref ≠ 0 := hVr ▸ hV
  rw [hVr] at Sa
  rw [hVr] at hS
  have hS' : (sPh (vtOf p ⟨ℓ .uaR, ℓ .uaI⟩ ⟨ℓ .xaR, ℓ .xaI⟩ i.Vdc_ref) ⟨ℓ .iaR, ℓ .iaI⟩).re = ppvOf p i i.Vdc_ref := by rw [← hVr] at hS ⊢; exact hS
  have hres : SS.residual1 (settledOp p i i.Vdc_ref) (settledX ⟨ℓ .xaR, ℓ .xaI⟩ ⟨ℓ .iaR, ℓ .iaI⟩) = 0 := residual1_settled Sa hw hwb hS' hQ
  refine ⟨hres, fun r hr => ?_⟩
  cases r
  case iaR => exact rfl
  case xaR => exact rfl
  case uaR => exact congrArg Complex.re Sa.error
  case iaI => exact rfl
  case xaI => exact rfl
  case uaI => exact congrArg Complex.im Sa.error
  case Vdc => exact hVr
  case xDC => exact (congrArg Complex.re Sa.tracks).symm
  case xQ => exact (congrArg Complex.im Sa.tracks).symm
  case xPLL => exact (by rw [hPl, hw]; exact sub_self _)
  case wte => exact absurd rfl hr

/-- C117 for `ThreePhase`: at 60 Hz a settled simulation has reached an operating point with zero residual, and its state is the one the initialisation computes from it. -/
theorem C117_operating_point_three (hp : SettlePar p) (hK : p.Ki_DC ≠ 0) (hC : p.C ≠ 0) (hTf : p.Tfilter_Vrms ≠ 0) (i : Inp) (hv : i.va ≠ 0) (hb : i.vb = Phasor.ub i.va) (hc : i.vc = Phasor.uc i.va)
    (hw : i.w = 2 * Real.pi * 60) (hwb : p.wbase = 2 * Real.pi * 60)
    (Y : ℝ → ThreePhase.V → ℝ) (h : ∀ t, 0 ≤ t → Solves (fun t y => ThreePhase.rhs (envT p { i with t := t } y)) Y t)
    (ℓ : ThreePhase.V → ℝ) (hl : ∀ r, r ≠ .wte → Tendsto (fun t => Y t r) atTop (𝓝 (ℓ r))) (hV : ℓ .Vdc ≠ 0)
    (hma : ‖duty p ⟨ℓ .uaR, ℓ .uaI⟩ ⟨ℓ .xaR, ℓ .xaI⟩‖ < p.m_limit)
    (hmb : ‖duty p ⟨ℓ .ubR, ℓ .ubI⟩ ⟨ℓ .xbR, ℓ .xbI⟩‖ < p.m_limit)
    (hmc : ‖duty p ⟨ℓ .ucR, ℓ .ucI⟩ ⟨ℓ .xcR, ℓ .xcI⟩‖ < p.m_limit)
    (hi : ‖irefD (envT p i ℓ)‖ < p.iref_limit) (hx : (⟨ℓ .xaR, ℓ .xaI⟩ : ℂ) ≠ 0) :
    SS.residual3 false (settledOp p i i.Vdc_ref) (settledX ⟨ℓ .xaR, ℓ .xaI⟩ ⟨ℓ .iaR, ℓ .iaI⟩) = 0 ∧
    ∀ r, r ≠ .wte → ℓ r = SS.initT false (settledOp p i i.Vdc_ref) (settledX ⟨ℓ .xaR, ℓ .xaI⟩ ⟨ℓ .iaR, ℓ .iaI⟩) (SS.iaOf (settledX ⟨ℓ .xaR, ℓ .xaI⟩ ⟨ℓ .iaR, ℓ .iaI⟩)) r := by
  obtain ⟨Sa, Sb, Sc, hVr, hQ, hS, hPl, hF⟩ := C117_settles_three p hp hK hC hTf i hv hb hc Y h ℓ hl hV hma hmb hmc hi
  have hV' : i.Vdc_ref ≠ 0 := hVr ▸ hV
  rw [hVr] at Sa
  rw [hVr] at Sb
  rw [hVr] at Sc
  rw [hVr] at hS
  obtain ⟨hib, hxb⟩ := settled_rot (R := Phasor.ub) _ (fun z => rfl) hV' hb rfl Sa Sb
  obtain ⟨hic, hxc⟩ := settled_rot (R := Phasor.uc) _ (fun z => rfl) hV' hc rfl Sa Sc
  have vt : ∀ m : ℂ, vtOf p 0 m i.Vdc_ref = m * ((i.Vdc_ref / 2 : ℝ) : ℂ) := by intro m; unfold vtOf duty; simp
  have hS' : (sCalc (vtOf p ⟨ℓ .uaR, ℓ .uaI⟩ ⟨ℓ .xaR, ℓ .xaI⟩ (ℓ .Vdc)) (vtOf p ⟨ℓ .ubR, ℓ .ubI⟩ ⟨ℓ .xbR, ℓ .xbI⟩ (ℓ .Vdc)) (vtOf p ⟨ℓ .ucR, ℓ .ucI⟩ ⟨ℓ .xcR, ℓ .xcI⟩ (ℓ .Vdc))
      ⟨ℓ .iaR, ℓ .iaI⟩ ⟨ℓ .ibR, ℓ .ibI⟩ ⟨ℓ .icR, ℓ .icI⟩).re = ppvOf p i i.Vdc_ref := hS
  rw [hVr, Sa.error, Sb.error, Sc.error, hxb, hxc, hib, hic, vt, vt, vt] at hS'
  have hQ' : (sCalc i.va i.vb i.vc ⟨ℓ .iaR, ℓ .iaI⟩ ⟨ℓ .ibR, ℓ .ibI⟩ ⟨ℓ .icR, ℓ .icI⟩).im = i.Q_ref := hQ
  rw [hib, hic] at hQ'
  have hres : SS.residual3 false (settledOp p i i.Vdc_ref) (settledX ⟨ℓ .xaR, ℓ .xaI⟩ ⟨ℓ .iaR, ℓ .iaI⟩) = 0 := residual3_settled hx ⟨hb, hc⟩ (volt60 Sa hw hwb) hS' hQ'
  refine ⟨hres, fun r hr => ?_⟩
  cases r
  case iaR => exact rfl
  case xaR => exact rfl
  case uaR => exact congrArg Complex.re Sa.error
  case iaI => exact rfl
  case xaI => exact rfl
  case uaI => exact congrArg Complex.im Sa.error
  case ibR => exact congrArg Complex.re hib
  case xbR => exact congrArg Complex.re hxb
  case ubR => exact congrArg Complex.re Sb.error
  case ibI => exact congrArg Complex.im hib
  case xbI => exact congrArg Complex.im hxb
  case ubI => exact congrArg Complex.im Sb.error
  case icR => exact congrArg Complex.re hic
  case xcR => exact congrArg Complex.re hxc
  case ucR => exact congrArg Complex.re Sc.error
  case icI => exact congrArg Complex.im hic
  case xcI => exact congrArg Complex.im hxc
  case ucI => exact congrArg Complex.im Sc.error
  case Vdc => exact hVr
  case xDC => exact (congrArg Complex.re Sa.tracks).symm
  case xQ => exact (congrArg Complex.im Sa.tracks).symm
  case xPLL => exact (by rw [hPl, hw]; exact sub_self _)
  case wte => exact absurd rfl hr
  case Vrms => exact hF

/-- C117 for `ThreePhaseNoVrmsFilter`: at 60 Hz a settled simulation has reached an operating point with zero residual, and its state is the one the initialisation computes from it. -/
theorem C117_operating_point_three_no_filter (hp : SettlePar p) (hK : p.Ki_DC ≠ 0) (hC : p.C ≠ 0) (i : Inp) (hv : i.va ≠ 0) (hb : i.vb = Phasor.ub i.va) (hc : i.vc = Phasor.uc i.va)
    (hw : i.w = 2 * Real.pi * 60) (hwb : p.wbase = 2 * Real.pi * 60)
    (Y : ℝ → ThreePhaseNoVrmsFilter.V → ℝ) (h : ∀ t, 0 ≤ t → Solves (fun t y => ThreePhaseNoVrmsFilter.rhs (envN p { i with t := t } y)) Y t)
    (ℓ : ThreePhaseNoVrmsFilter.V → ℝ) (hl : ∀ r, r ≠ .wte → Tendsto (fun t => Y t r) atTop (𝓝 (ℓ r))) (hV : ℓ .Vdc ≠ 0)
    (hma : ‖duty p ⟨ℓ .uaR, ℓ .uaI⟩ ⟨ℓ .xaR, ℓ .xaI⟩‖ < p.m_limit)
    (hmb : ‖duty p ⟨ℓ .ubR, ℓ .ubI⟩ ⟨ℓ .xbR, ℓ .xbI⟩‖ < p.m_limit)
    (hmc : ‖duty p ⟨ℓ .ucR, ℓ .ucI⟩ ⟨ℓ .xcR, ℓ .xcI⟩‖ < p.m_limit)
    (hi : ‖irefD (envN p i ℓ)‖ < p.iref_limit) (hx : (⟨ℓ .xaR, ℓ .xaI⟩ : ℂ) ≠ 0) :
    SS.residual3 false (settledOp p i i.Vdc_ref) (settledX ⟨ℓ .xaR, ℓ .xaI⟩ ⟨ℓ .iaR, ℓ .iaI⟩) = 0 ∧
    ∀ r, r ≠ .wte → ℓ r = SS.initN false (settledOp p i i.Vdc_ref) (settledX ⟨ℓ .xaR, ℓ .xaI⟩ ⟨ℓ .iaR, ℓ .iaI⟩) (SS.iaOf (settledX ⟨ℓ .xaR, ℓ .xaI⟩ ⟨ℓ .iaR, ℓ .iaI⟩)) r := by
  obtain ⟨Sa, Sb, Sc, hVr, hQ, hS, hPl⟩ := C117_settles_three_no_filter p hp hK hC i hv hb hc Y h ℓ hl hV hma hmb hmc hi
  have hV' : i.Vdc_ref ≠ 0 := hVr ▸ hV
  rw [hVr] at Sa
  rw [hVr] at Sb
  rw [hVr] at Sc
  rw [hVr] at hS
  obtain ⟨hib, hxb⟩ := settled_rot (R := Phasor.ub) _ (fun z => rfl) hV' hb rfl Sa Sb
  obtain ⟨hic, hxc⟩ := settled_rot (R := Phasor.uc) _ (fun z => rfl) hV' hc rfl Sa Sc
  have vt : ∀ m : ℂ, vtOf p 0 m i.Vdc_ref = m * ((i.Vdc_ref / 2 : ℝ) : ℂ) := by intro m; unfold vtOf duty; simp
  have hS' : (sCalc (vtOf p ⟨ℓ .uaR, ℓ .uaI⟩ ⟨ℓ .xaR, ℓ .xaI⟩ (ℓ .Vdc)) (vtOf p ⟨ℓ .ubR, ℓ .ubI⟩ ⟨ℓ .xbR, ℓ .xbI⟩ (ℓ .Vdc)) (vtOf p ⟨ℓ .ucR, ℓ .ucI⟩ ⟨ℓ .xcR, ℓ .xcI⟩ (ℓ .Vdc))
      ⟨ℓ .iaR, ℓ .iaI⟩ ⟨ℓ .ibR, ℓ .ibI⟩ ⟨ℓ .icR, ℓ .icI⟩).re = ppvOf p i i.Vdc_ref := hS
  rw [hVr, Sa.error, Sb.error, Sc.error, hxb, hxc, hib, hic, vt, vt, vt] at hS'
  have hQ' : (sCalc i.va i.vb i.vc ⟨ℓ .iaR, ℓ .iaI⟩ ⟨ℓ .ibR, ℓ .ibI⟩ ⟨ℓ .icR, ℓ .icI⟩).im = i.Q_ref := hQ
  rw [hib, hic] at hQ'
  have hres : SS.residual3 false (settledOp p i i.Vdc_ref) (settledX ⟨ℓ .xaR, ℓ .xaI⟩ ⟨ℓ .iaR, ℓ .iaI⟩) = 0 := residual3_settled hx ⟨hb, hc⟩ (volt60 Sa hw hwb) hS' hQ'
  refine ⟨hres, fun r hr => ?_⟩
  cases r
  case iaR => exact rfl
  case xaR => exact rfl
  case uaR => exact congrArg Complex.re Sa.error
  case iaI => exact rfl
  case xaI => exact rfl
  case uaI => exact congrArg Complex.im Sa.error
  case ibR => exact congrArg Complex.re hib
  case xbR => exact congrArg Complex.re hxb
  case ubR => exact congrArg Complex.re Sb.error
  case ibI => exact congrArg Complex.im hib
  case xbI => exact congrArg Complex.im hxb
  case ubI => exact congrArg Complex.im Sb.error
  case icR => exact congrArg Complex.re hic
  case xcR => exact congrArg Complex.re hxc
  case ucR => exact congrArg Complex.re Sc.error
  case icI => exact congrArg Complex.im hic
  case xcI => exact congrArg Complex.im hxc
  case ucI => exact congrArg Complex.im Sc.error
  case Vdc => exact hVr
  case xDC => exact (congrArg Complex.re Sa.tracks).symm
  case xQ => exact (congrArg Complex.im Sa.tracks).symm
  case xPLL => exact (by rw [hPl, hw]; exact sub_self _)
  case wte => exact absurd rfl hr

/-- C117 for `ThreePhaseNumba`: at 60 Hz a settled simulation has reached an operating point with zero residual, and its state is the one the initialisation computes from it. -/
theorem C117_operating_point_three_numba (hp : SettlePar p) (hK : p.Ki_DC ≠ 0) (hC : p.C ≠ 0) (i : Inp) (hv : i.va ≠ 0) (hb : i.vb = Phasor.ub i.va) (hc : i.vc = Phasor.uc i.va)
    (hw : i.w = 2 * Real.pi * 60) (hwb : p.wbase = 2 * Real.pi * 60)
    (Y : ℝ → ThreePhaseNumba.V → ℝ) (h : ∀ t, 0 ≤ t → Solves (fun t y => ThreePhaseNumba.rhs (envNumba p { i with t := t } y)) Y t)
    (ℓ : ThreePhaseNumba.V → ℝ) (hl : ∀ r, r ≠ .wte → Tendsto (fun t => Y t r) atTop (𝓝 (ℓ r))) (hV : ℓ .Vdc ≠ 0)
    (hma : ‖duty p ⟨ℓ .uaR, ℓ .uaI⟩ ⟨ℓ .xaR, ℓ .xaI⟩‖ < p.m_limit)
    (hmb : ‖duty p ⟨ℓ .ubR, ℓ .ubI⟩ ⟨ℓ .xbR, ℓ .xbI⟩‖ < p.m_limit)
    (hmc : ‖duty p ⟨ℓ .ucR, ℓ .ucI⟩ ⟨ℓ .xcR, ℓ .xcI⟩‖ < p.m_limit)
    (hi : ‖irefD (envNumba p i ℓ)‖ < p.iref_limit) (hx : (⟨ℓ .xaR, ℓ .xaI⟩ : ℂ) ≠ 0) :
    SS.residual3 false (settledOp p i i.Vdc_ref) (settledX ⟨ℓ .xaR, ℓ .xaI⟩ ⟨ℓ .iaR, ℓ .iaI⟩) = 0 ∧
    ∀ r, r ≠ .wte → ℓ r = SS.initNumba false (settledOp p i i.Vdc_ref) (settledX ⟨ℓ .xaR, ℓ .xaI⟩ ⟨ℓ .iaR, ℓ .iaI⟩) (SS.iaOf (settledX ⟨ℓ .xaR, ℓ .xaI⟩ ⟨ℓ .iaR, ℓ .iaI⟩)) r := by
  obtain ⟨Sa, Sb, Sc, hVr, hQ, hS, hPl⟩ := C117_settles_three_numba p hp hK hC i hv hb hc Y h ℓ hl hV hma hmb hmc hi
  have hV' : i.Vdc_ref ≠ 0 := hVr ▸ hV
  rw [hVr] at Sa
  rw [hVr] at Sb
  rw [hVr] at Sc
  rw [hVr] at hS
  obtain ⟨hib, hxb⟩ := settled_rot (R := Phasor.ub) _ (fun z => rfl) hV' hb rfl Sa Sb
  obtain ⟨hic, hxc⟩ := settled_rot (R := Phasor.uc) _ (fun z => rfl) hV' hc rfl Sa Sc
  have vt : ∀ m : ℂ, vtOf p 0 m i.Vdc_ref = m * ((i.Vdc_ref / 2 : ℝ) : ℂ) := by intro m; unfold vtOf duty; simp
  have hS' : (sCalc (vtOf p ⟨ℓ .uaR, ℓ .uaI⟩ ⟨ℓ .xaR, ℓ .xaI⟩ (ℓ .Vdc)) (vtOf p ⟨ℓ .ubR, ℓ .ubI⟩ ⟨ℓ .xbR, ℓ .xbI⟩ (ℓ .Vdc)) (vtOf p ⟨ℓ .ucR, ℓ .ucI⟩ ⟨ℓ .xcR, ℓ .xcI⟩ (ℓ .Vdc))
      ⟨ℓ .iaR, ℓ .iaI⟩ ⟨ℓ .ibR, ℓ .ibI⟩ ⟨ℓ .icR, ℓ .icI⟩).re = ppvOf p i i.Vdc_ref := hS
  rw [hVr, Sa.error, Sb.error, Sc.error, hxb, hxc, hib, hic, vt, vt, vt] at hS'
  have hQ' : (sCalc i.va i.vb i.vc ⟨ℓ .iaR, ℓ .iaI⟩ ⟨ℓ .ibR, ℓ .ibI⟩ ⟨ℓ .icR, ℓ .icI⟩).im = i.Q_ref := hQ
  rw [hib, hic] at hQ'
  have hres : SS.residual3 false (settledOp p i i.Vdc_ref) (settledX ⟨ℓ .xaR, ℓ .xaI⟩ ⟨ℓ .iaR, ℓ .iaI⟩) = 0 := residual3_settled hx ⟨hb, hc⟩ (volt60 Sa hw hwb) hS' hQ'
  refine ⟨hres, fun r hr => ?_⟩
  cases r
  case iaR => exact rfl
  case xaR => exact rfl
  case uaR => exact congrArg Complex.re Sa.error
  case iaI => exact rfl
  case xaI => exact rfl
  case uaI => exact congrArg Complex.im Sa.error
  case ibR => exact congrArg Complex.re hib
  case xbR => exact congrArg Complex.re hxb
  case ubR => exact congrArg Complex.re Sb.error
  case ibI => exact congrArg Complex.im hib
  case xbI => exact congrArg Complex.im hxb
  case ubI => exact congrArg Complex.im Sb.error
  case icR => exact congrArg Complex.re hic
  case xcR => exact congrArg Complex.re hxc
  case ucR => exact congrArg Complex.re Sc.error
  case icI => exact congrArg Complex.im hic
  case xcI => exact congrArg Complex.im hxc
  case ucI => exact congrArg Complex.im Sc.error
  case Vdc => exact hVr
  case xDC => exact (congrArg Complex.re Sa.tracks).symm
  case xQ => exact (congrArg Complex.im Sa.tracks).symm
  case xPLL => exact (by rw [hPl, hw]; exact sub_self _)
  case wte => exact absurd rfl hr

/-- C117 for `ThreePhaseBalanced`: at 60 Hz a settled simulation has reached an operating point with zero residual, and its state is the one the initialisation computes from it. -/
theorem C117_operating_point_balanced (hp : SettlePar p) (hK : p.Ki_DC ≠ 0) (hC : p.C ≠ 0) (i : Inp) (hv : i.va ≠ 0)
    (hw : i.w = 2 * Real.pi * 60) (hwb : p.wbase = 2 * Real.pi * 60)
    (Y : ℝ → ThreePhaseBalanced.V → ℝ) (h : ∀ t, 0 ≤ t → Solves (fun t y => ThreePhaseBalanced.rhs (envB p { i with t := t } y)) Y t)
    (ℓ : ThreePhaseBalanced.V → ℝ) (hl : ∀ r, r ≠ .wte → Tendsto (fun t => Y t r) atTop (𝓝 (ℓ r))) (hV : ℓ .Vdc ≠ 0)
    (hma : ‖duty p ⟨ℓ .uaR, ℓ .uaI⟩ ⟨ℓ .xaR, ℓ .xaI⟩‖ < p.m_limit)
    (hi : ‖irefD (envB p i ℓ)‖ < p.iref_limit) (hx : (⟨ℓ .xaR, ℓ .xaI⟩ : ℂ) ≠ 0) :
    SS.residual3 false (settledOp p { i with vb := Phasor.ub i.va, vc := Phasor.uc i.va } i.Vdc_ref) (settledX ⟨ℓ .xaR, ℓ .xaI⟩ ⟨ℓ .iaR, ℓ .iaI⟩) = 0 ∧
    ∀ r, r ≠ .wte → ℓ r = SS.initB (settledOp p { i with vb := Phasor.ub i.va, vc := Phasor.uc i.va } i.Vdc_ref) (settledX ⟨ℓ .xaR, ℓ .xaI⟩ ⟨ℓ .iaR, ℓ .iaI⟩) (SS.iaOf (settledX ⟨ℓ .xaR, ℓ .xaI⟩ ⟨ℓ .iaR, ℓ .iaI⟩)) r := by
  obtain ⟨Sa, hVr, hQ, hS, hPl⟩ := C117_settles_balanced p hp hK hC i hv Y h ℓ hl hV hma hi
  have hV' : i.Vdc_ref ≠ 0 := hVr ▸ hV
  rw [hVr] at Sa
  rw [hVr] at hS
  have vt : ∀ m : ℂ, vtOf p 0 m i.Vdc_ref = m * ((i.Vdc_ref / 2 : ℝ) : ℂ) := by intro m; unfold vtOf duty; simp
  have hS' : (sCalc (vtOf p ⟨ℓ .uaR, ℓ .uaI⟩ ⟨ℓ .xaR, ℓ .xaI⟩ (ℓ .Vdc)) (vtOf p (Phasor.ub ⟨ℓ .uaR, ℓ .uaI⟩) (Phasor.ub ⟨ℓ .xaR, ℓ .xaI⟩) (ℓ .Vdc)) (vtOf p (Phasor.uc ⟨ℓ .uaR, ℓ .uaI⟩) (Phasor.uc ⟨ℓ .xaR, ℓ .xaI⟩) (ℓ .Vdc))
      ⟨ℓ .iaR, ℓ .iaI⟩ (Phasor.ub ⟨ℓ .iaR, ℓ .iaI⟩) (Phasor.uc ⟨ℓ .iaR, ℓ .iaI⟩)).re = ppvOf p i i.Vdc_ref := hS
  rw [hVr, Sa.error, show Phasor.ub 0 = 0 by simp [Phasor.ub], show Phasor.uc 0 = 0 by simp [Phasor.uc], vt, vt, vt] at hS'
  have hres : SS.residual3 false (settledOp p { i with vb := Phasor.ub i.va, vc := Phasor.uc i.va } i.Vdc_ref) (settledX ⟨ℓ .xaR, ℓ .xaI⟩ ⟨ℓ .iaR, ℓ .iaI⟩) = 0 := residual3_settled (i := { i with vb := Phasor.ub i.va, vc := Phasor.uc i.va }) hx ⟨rfl, rfl⟩ (volt60 Sa hw hwb) hS' hQ
  refine ⟨hres, fun r hr => ?_⟩
  cases r
  case iaR => exact rfl
  case xaR => exact rfl
  case uaR => exact congrArg Complex.re Sa.error
  case iaI => exact rfl
  case xaI => exact rfl
  case uaI => exact congrArg Complex.im Sa.error
  case Vdc => exact hVr
  case xDC => exact (congrArg Complex.re Sa.tracks).symm
  case xQ => exact (congrArg Complex.im Sa.tracks).symm
  case xPLL => exact (by rw [hPl, hw]; exact sub_self _)
  case wte => exact absurd rfl hr

/-- C117 for `SinglePhaseConstantVdc`: at 60 Hz a settled simulation has reached an operating point with zero residual, and its state is the one the initialisation computes from it. -/
theorem C117_operating_point_single_constant_vdc (hp : SettlePar p) (hK : p.Ki_P ≠ 0) (i : Inp) (hv : i.va ≠ 0)
    (hw : i.w = 2 * Real.pi * 60) (hwb : p.wbase = 2 * Real.pi * 60)
    (Y : ℝ → SinglePhaseConstantVdc.V → ℝ) (h : ∀ t, 0 ≤ t → Solves (fun t y => SinglePhaseConstantVdc.rhs (envC1 p { i with t := t } y)) Y t)
    (ℓ : SinglePhaseConstantVdc.V → ℝ) (hl : ∀ r, r ≠ .wte → Tendsto (fun t => Y t r) atTop (𝓝 (ℓ r)))
    (hma : ‖duty p ⟨ℓ .uaR, ℓ .uaI⟩ ⟨ℓ .xaR, ℓ .xaI⟩‖ < p.m_limit)
    (hi : ‖irefP (envC1 p i ℓ)‖ < p.iref_limit) :
    SS.residual1 (settledOp p i i.Vdc0) (settledX ⟨ℓ .xaR, ℓ .xaI⟩ ⟨ℓ .iaR, ℓ .iaI⟩) = 0 ∧
    ∀ r, r ≠ .wte → ℓ r = SS.initC1 (settledX ⟨ℓ .xaR, ℓ .xaI⟩ ⟨ℓ .iaR, ℓ .iaI⟩) (SS.iaOf (settledX ⟨ℓ .xaR, ℓ .xaI⟩ ⟨ℓ .iaR, ℓ .iaI⟩)) r := by
  obtain ⟨Sa, hQ, hS, hPl⟩ := C117_settles_single_constant_vdc p hp hK i hv Y h ℓ hl hma hi
  have hres : SS.residual1 (settledOp p i i.Vdc0) (settledX ⟨ℓ .xaR, ℓ .xaI⟩ ⟨ℓ .iaR, ℓ .iaI⟩) = 0 := residual1_settled Sa hw hwb hS hQ
  refine ⟨hres, fun r hr => ?_⟩
  cases r
  case iaR => exact rfl
  case xaR => exact rfl
  case uaR => exact congrArg Complex.re Sa.error
  case iaI => exact rfl
  case xaI => exact rfl
  case uaI => exact congrArg Complex.im Sa.error
  case xP => exact (congrArg Complex.re Sa.tracks).symm
  case xQ => exact (congrArg Complex.im Sa.tracks).symm
  case xPLL => exact (by rw [hPl, hw]; exact sub_self _)
  case wte => exact absurd rfl hr

/-- C117 for `ThreePhaseConstantVdc`: at 60 Hz a settled simulation has reached an operating point with zero residual, and its state is the one the initialisation computes from it. -/
theorem C117_operating_point_three_constant_vdc (hp : SettlePar p) (hK : p.Ki_P ≠ 0) (i : Inp) (hv : i.va ≠ 0) (hb : i.vb = Phasor.ub i.va) (hc : i.vc = Phasor.uc i.va)
    (hw : i.w = 2 * Real.pi * 60) (hwb : p.wbase = 2 * Real.pi * 60)
    (Y : ℝ → ThreePhaseConstantVdc.V → ℝ) (h : ∀ t, 0 ≤ t → Solves (fun t y => ThreePhaseConstantVdc.rhs (envC3 p { i with t := t } y)) Y t)
    (ℓ : ThreePhaseConstantVdc.V → ℝ) (hl : ∀ r, r ≠ .wte → Tendsto (fun t => Y t r) atTop (𝓝 (ℓ r))) (hV : i.Vdc0 ≠ 0)
    (hma : ‖duty p ⟨ℓ .uaR, ℓ .uaI⟩ ⟨ℓ .xaR, ℓ .xaI⟩‖ < p.m_limit)
    (hmb : ‖duty p ⟨ℓ .ubR, ℓ .ubI⟩ ⟨ℓ .xbR, ℓ .xbI⟩‖ < p.m_limit)
    (hmc : ‖duty p ⟨ℓ .ucR, ℓ .ucI⟩ ⟨ℓ .xcR, ℓ .xcI⟩‖ < p.m_limit)
    (hi : ‖irefP (envC3 p i ℓ)‖ < p.iref_limit) (hx : (⟨ℓ .xaR, ℓ .xaI⟩ : ℂ) ≠ 0) :
    SS.residual3 false (settledOp p i i.Vdc0) (settledX ⟨ℓ .xaR, ℓ .xaI⟩ ⟨ℓ .iaR, ℓ .iaI⟩) = 0 ∧
    ∀ r, r ≠ .wte → ℓ r = SS.initC3 false (settledX ⟨ℓ .xaR, ℓ .xaI⟩ ⟨ℓ .iaR, ℓ .iaI⟩) (SS.iaOf (settledX ⟨ℓ .xaR, ℓ .xaI⟩ ⟨ℓ .iaR, ℓ .iaI⟩)) r := by
  obtain ⟨Sa, Sb, Sc, hQ, hS, hPl⟩ := C117_settles_three_constant_vdc p hp hK i hv hb hc Y h ℓ hl hma hmb hmc hi
  have hV' := hV
  obtain ⟨hib, hxb⟩ := settled_rot (R := Phasor.ub) _ (fun z => rfl) hV' hb rfl Sa Sb
  obtain ⟨hic, hxc⟩ := settled_rot (R := Phasor.uc) _ (fun z => rfl) hV' hc rfl Sa Sc
  have vt : ∀ m : ℂ, vtOf p 0 m i.Vdc0 = m * ((i.Vdc0 / 2 : ℝ) : ℂ) := by intro m; unfold vtOf duty; simp
  have hS' : (sCalc (vtOf p ⟨ℓ .uaR, ℓ .uaI⟩ ⟨ℓ .xaR, ℓ .xaI⟩ (i.Vdc0)) (vtOf p ⟨ℓ .ubR, ℓ .ubI⟩ ⟨ℓ .xbR, ℓ .xbI⟩ (i.Vdc0)) (vtOf p ⟨ℓ .ucR, ℓ .ucI⟩ ⟨ℓ .xcR, ℓ .xcI⟩ (i.Vdc0))
      ⟨ℓ .iaR, ℓ .iaI⟩ ⟨ℓ .ibR, ℓ .ibI⟩ ⟨ℓ .icR, ℓ .icI⟩).re = ppvOf p i i.Vdc0 := hS
  rw [Sa.error, Sb.error, Sc.error, hxb, hxc, hib, hic, vt, vt, vt] at hS'
  have hQ' : (sCalc i.va i.vb i.vc ⟨ℓ .iaR, ℓ .iaI⟩ ⟨ℓ .ibR, ℓ .ibI⟩ ⟨ℓ .icR, ℓ .icI⟩).im = i.Q_ref := hQ
  rw [hib, hic] at hQ'
  have hres : SS.residual3 false (settledOp p i i.Vdc0) (settledX ⟨ℓ .xaR, ℓ .xaI⟩ ⟨ℓ .iaR, ℓ .iaI⟩) = 0 := residual3_settled hx ⟨hb, hc⟩ (volt60 Sa hw hwb) hS' hQ'
  refine ⟨hres, fun r hr => ?_⟩
  cases r
  case iaR => exact rfl
  case xaR => exact rfl
  case uaR => exact congrArg Complex.re Sa.error
  case iaI => exact rfl
  case xaI => exact rfl
  case uaI => exact congrArg Complex.im Sa.error
  case ibR => exact congrArg Complex.re hib
  case xbR => exact congrArg Complex.re hxb
  case ubR => exact congrArg Complex.re Sb.error
  case ibI => exact congrArg Complex.im hib
  case xbI => exact congrArg Complex.im hxb
  case ubI => exact congrArg Complex.im Sb.error
  case icR => exact congrArg Complex.re hic
  case xcR => exact congrArg Complex.re hxc
  case ucR => exact congrArg Complex.re Sc.error
  case icI => exact congrArg Complex.im hic
  case xcI => exact congrArg Complex.im hxc
  case ucI => exact congrArg Complex.im Sc.error
  case xP => exact (congrArg Complex.re Sa.tracks).symm
  case xQ => exact (congrArg Complex.im Sa.tracks).symm
  case xPLL => exact (by rw [hPl, hw]; exact sub_self _)
  case wte => exact absurd rfl hr

/-- Replace the filtered RMS voltage of a state. -/
noncomputable def withVrms (z : ℝ) (y : ThreePhase.V → ℝ) : ThreePhase.V → ℝ
  | .Vrms => z
  | r => y r

/-- The hypotheses are met by a simulation with a transient and non-zero current: the example inverter at full insolation whose RMS filter has not settled initially. -/
theorem C117_example : ∃ (p : Par) (i : Inp) (Y : ℝ → ThreePhase.V → ℝ) (ℓ : ThreePhase.V → ℝ),
    SettlePar p ∧ p.Ki_DC ≠ 0 ∧ p.C ≠ 0 ∧ p.Tfilter_Vrms ≠ 0 ∧ i.va ≠ 0 ∧ i.vb = Phasor.ub i.va ∧ i.vc = Phasor.uc i.va ∧ i.w = 2 * Real.pi * 60 ∧ p.wbase = 2 * Real.pi * 60 ∧
    (∀ t, 0 ≤ t → Solves (fun t y => ThreePhase.rhs (envT p { i with t := t } y)) Y t) ∧ (∀ r, r ≠ .wte → Tendsto (fun t => Y t r) atTop (𝓝 (ℓ r))) ∧ ℓ .Vdc ≠ 0 ∧
    ‖duty p ⟨ℓ .uaR, ℓ .uaI⟩ ⟨ℓ .xaR, ℓ .xaI⟩‖ < p.m_limit ∧ ‖duty p ⟨ℓ .ubR, ℓ .ubI⟩ ⟨ℓ .xbR, ℓ .xbI⟩‖ < p.m_limit ∧
    ‖duty p ⟨ℓ .ucR, ℓ .ucI⟩ ⟨ℓ .xcR, ℓ .xcI⟩‖ < p.m_limit ∧ ‖irefD (envT p i ℓ)‖ < p.iref_limit ∧ (⟨ℓ .xaR, ℓ .xaI⟩ : ℂ) ≠ 0 ∧ (⟨ℓ .iaR, ℓ .iaI⟩ : ℂ) ≠ 0 ∧
    (∀ t, Y t .Vrms ≠ ℓ .Vrms) := by
  obtain ⟨x, hr, hf, hv, hm, hi⟩ := SS.exists_op3
  set p : Par := { SS.exPar60 with m_limit := ‖SS.maOf x‖ + 1, iref_limit := ‖SS.iaOf x‖ + 1 } with hp
  set y0 := SS.initT false SS.exOp3 x (SS.iaOf x) with hy0
  have hf' : SS.Fits p SS.exOp3 exInp (SS.iaOf x) (SS.ibOf false x) (SS.icOf false x) := ⟨hf.L, hf.wb, hf.Z, hf.V, hf.V0, hf.Q, hf.P, hf.va, hf.vb, hf.vc⟩
  obtain ⟨-, hs⟩ := SS.C88_rotating_three p SS.exOp3 exInp x hr hf' hv
  have hmar := SS.margin_three p SS.exOp3 exInp x hr hf' 0
  have hη : 0 < SS.etaOf p (SS.maOf x) (SS.iaOf x) SS.exOp3.Vdc := SS.etaOf_pos (show ‖SS.maOf x‖ < ‖SS.maOf x‖ + 1 by linarith) (show ‖SS.iaOf x‖ < ‖SS.iaOf x‖ + 1 by linarith) (by norm_num [SS.exOp3, SS.exOp])
  have hlim : ∀ {a b c : ℝ}, 0 < c → a + c ≤ b → a < b := fun h1 h2 => by linarith
  refine ⟨p, { exInp with w := 2 * Real.pi * 60 }, fun t => withVrms (y0 .Vrms + Real.exp (-100 * t)) (SS.at_three (2 * Real.pi + 2 * Real.pi * 60 * t) y0), y0,
    ⟨?_, ?_, ?_, ?_, ?_, ?_⟩, ?_, ?_, ?_, ?_, rfl, rfl, rfl, rfl, fun t _ r => ?_, fun r hrw => ?_, ?_, ?_, ?_, ?_, ?_, hm, hi, fun t => ?_⟩
  · norm_num [hp, SS.exPar60, exPar]
  · norm_num [hp, SS.exPar60, exPar]
  · norm_num [hp, SS.exPar60, exPar]
  · norm_num [hp, SS.exPar60, exPar]
  · norm_num [hp, SS.exPar60, exPar]
  · norm_num [hp, SS.exPar60, exPar]
  · norm_num [hp, SS.exPar60, exPar]
  · norm_num [hp, SS.exPar60, exPar]
  · norm_num [hp, SS.exPar60, exPar]
  · norm_num [exInp]
  · by_cases hrv : r = .Vrms
    · subst hrv
      have h1 : HasDerivAt (fun t => y0 .Vrms + Real.exp (-100 * t)) (Real.exp (-100 * t) * -100) t := by
        have := (((hasDerivAt_id t).const_mul (-100 : ℝ)).exp).const_add (y0 .Vrms)
        simpa using this
      refine h1.congr_deriv ?_
      show _ = 1 / (1 / 100) * (urms exInp.va exInp.vb exInp.vc - (y0 .Vrms + Real.exp (-100 * t)))
      have : y0 .Vrms = urms exInp.va exInp.vb exInp.vc := by rw [hf.va, hf.vb, hf.vc]; rfl
      rw [this]; ring
    · have h1 := hs t r
      have e1 : (fun s => withVrms (y0 .Vrms + Real.exp (-100 * s)) (SS.at_three (2 * Real.pi + 2 * Real.pi * 60 * s) y0) r) = fun s => SS.at_three (2 * Real.pi + 2 * Real.pi * 60 * s) y0 r := by
        funext s; cases r <;> first | rfl | exact absurd rfl hrv
      beta_reduce at h1 ⊢
      rw [e1]
      refine h1.congr_deriv ?_
      cases r <;> first | rfl | exact absurd rfl hrv
  · by_cases hrv : r = .Vrms
    · subst hrv
      have h1 : Tendsto (fun t : ℝ => Real.exp (-100 * t)) atTop (𝓝 0) := by
        refine Real.tendsto_exp_neg_atTop_nhds_zero.comp (tendsto_id.const_mul_atTop (show (0:ℝ) < 100 by norm_num)) |>.congr (fun t => ?_)
        show Real.exp (-(100 * t)) = _
        congr 1; ring
      have := h1.const_add (y0 .Vrms)
      rw [add_zero] at this
      exact this
    · refine tendsto_const_nhds.congr (fun t => ?_)
      cases r <;> first | rfl | exact absurd rfl hrv | exact absurd rfl hrw
  · show SS.exOp3.Vdc ≠ 0
    norm_num [SS.exOp3, SS.exOp]
  · exact hlim hη hmar.1
  · exact hlim hη hmar.2.1
  · exact hlim hη hmar.2.2.1
  · exact hlim hη hmar.2.2.2.1
  · show y0 .Vrms + Real.exp (-100 * t) ≠ y0 .Vrms
    have := Real.exp_pos (-100 * t)
    intro h; linarith

end Ode
end PvDer
