import Verif.Lemmas.Track
import Verif.Props.Settles

/-!
# C118: the currents follow a reference that settles

Along every solution of each model class — connected, disconnected, or switching between the two — whose DC voltage, PLL frequency, terminal voltages and current reference converge, and whose duty
cycle stays below its limit from some time on: the currents converge to the reference, the filtered current error to zero and the duty cycle to the value that balances the terminal voltage and the
drop over the filter.  The grid may be unbalanced.
-/

namespace PvDer
namespace Ode
open Complex Phasor Filter Topology Settle

/-- One phase follows its reference `r`: DC voltage `V`, frequency `w`, terminal voltage `v` in the limit. -/
structure PhaseTracks (p : Par) (V w : ℝ) (v r : ℂ) (i u x : ℝ → ℂ) : Prop where
  current : Tendsto i atTop (𝓝 r)
  error : Tendsto u atTop (𝓝 0)
  duty : Tendsto (fun t => duty p (u t) (x t)) atTop (𝓝 (((2 / V : ℝ) : ℂ) * (v + ((p.Rf : ℂ) + I * (p.Lf : ℂ) * ((w / p.wbase : ℝ) : ℂ)) * r)))

theorem tracks_of {p : Par} (hp : DecayPar p) {V w : ℝ → ℝ} {v r i x u : ℝ → ℂ} {V' w' : ℝ} {v' r' : ℂ} (hV' : 0 < V')
    (h : ∀ᶠ t in atTop, Defect.Phase p.Lf p.Rf p.Kp_GCC p.Ki_GCC p.wp V (fun t => w t / p.wbase) v r i x u t)
    (hV : Tendsto V atTop (𝓝 V')) (hw : Tendsto w atTop (𝓝 w')) (hv : Tendsto v atTop (𝓝 v')) (hr : Tendsto r atTop (𝓝 r')) : PhaseTracks p V' w' v' r' i u x := by
  obtain ⟨h1, h2, h3⟩ := Track.phase hp.Lf hp.Rf hp.Ki hp.wp hp.gain hV' h hV (hw.div_const p.wbase) hv hr
  refine ⟨h1, h2, ?_⟩
  have := duty_tendsto p h2 h3
  rwa [show duty p 0 (((2 / V' : ℝ) : ℂ) * (v' + ((p.Rf : ℂ) + I * (p.Lf : ℂ) * ((w' / p.wbase : ℝ) : ℂ)) * r')) = _ by unfold duty; rw [mul_zero, zero_add]] at this

theorem iref_rot (c : Bool) (e : Env) (hb : e.ib_ref = Phasor.ub e.ia_ref) (hc : e.ic_ref = Phasor.uc e.ia_ref) :
    (connIf c e).ib_ref = Phasor.ub (connIf c e).ia_ref ∧ (connIf c e).ic_ref = Phasor.uc (connIf c e).ia_ref := by
  cases c
  · simp [connIf, disc, Phasor.ub, Phasor.uc]
  · exact ⟨hb, hc⟩

variable (p : Par) (inp : ℝ → Inp) (c : ℝ → Bool)

/-- C118 for the class `SinglePhase`. -/
theorem C118_tracks_single (hp : DecayPar p) (Y : ℝ → SinglePhase.V → ℝ)
    (h : ∀ t, 0 ≤ t → Solves (fun t y => SinglePhase.rhs (connIf (c t) (env1 p (inp t) y))) Y t)
    (V w : ℝ) (va r : ℂ) (hV' : 0 < V) (hV : Tendsto (fun t => Y t .Vdc) atTop (𝓝 V))
    (hw : Tendsto (fun t => (env1 p (inp t) (Y t)).winv) atTop (𝓝 w))
    (hva : Tendsto (fun t => (inp t).va) atTop (𝓝 va))
    (hr : Tendsto (fun t => (connIf (c t) (env1 p (inp t) (Y t))).ia_ref) atTop (𝓝 r))
    (hma : ∀ᶠ t in atTop, ‖duty p ⟨Y t .uaR, Y t .uaI⟩ ⟨Y t .xaR, Y t .xaI⟩‖ ≤ p.m_limit) :
    PhaseTracks p V w va r (fun t => ⟨Y t .iaR, Y t .iaI⟩) (fun t => ⟨Y t .uaR, Y t .uaI⟩) (fun t => ⟨Y t .xaR, Y t .xaI⟩) := by
  have Pa : ∀ᶠ s in atTop, Defect.Phase p.Lf p.Rf p.Kp_GCC p.Ki_GCC p.wp (fun t => Y t .Vdc) (fun t => (env1 p (inp t) (Y t)).winv / p.wbase)
      (fun t => (inp t).va) (fun t => (connIf (c t) (env1 p (inp t) (Y t))).ia_ref) (fun t => ⟨Y t .iaR, Y t .iaI⟩) (fun t => ⟨Y t .xaR, Y t .xaI⟩) (fun t => ⟨Y t .uaR, Y t .uaI⟩) s := by
    filter_upwards [hma, eventually_ge_atTop 0] with s hsat hs
    have cs := connIf_state (c s) (env1 p (inp s) (Y s))
    have hd := h s hs
    have aw := C57_antiwindup_single_phase (connIf (c s) (env1 p (inp s) (Y s)))
    have ns : ¬ mSat (connIf (c s) (env1 p (inp s) (Y s))) (connIf (c s) (env1 p (inp s) (Y s))).ua (connIf (c s) (env1 p (inp s) (Y s))).xa := by
      simp only [mSat, cs]; exact not_lt.2 hsat
    have e3 := (aw.1).plain ns
    have e4 := (aw.2.1).plain ns
    have e5 := (aw.2.2.1).plain ns
    have e6 := (aw.2.2.2.1).plain ns
    have hv : (env1 p (inp s) (Y s)).va = (inp s).va := rfl
    refine phase_of p (vt := (env1 p (inp s) (Y s)).vta) rfl ((hd .iaR).congr_deriv ?_) ((hd .iaI).congr_deriv ?_) ((hd .xaR).congr_deriv ?_) ((hd .xaI).congr_deriv ?_)
      ((hd .uaR).congr_deriv ?_) ((hd .uaI).congr_deriv ?_)
    · simp only [SinglePhase.rhs, cs, hv]; rfl
    · simp only [SinglePhase.rhs, cs, hv]; rfl
    · beta_reduce; rw [e3]; simp only [cs]; rfl
    · beta_reduce; rw [e4]; simp only [cs]; rfl
    · beta_reduce; rw [e5]; simp only [cs]; rfl
    · beta_reduce; rw [e6]; simp only [cs]; rfl
  exact tracks_of hp hV' Pa hV hw hva hr

/-- C118 for the class `ThreePhase`. -/
theorem C118_tracks_three (hp : DecayPar p) (Y : ℝ → ThreePhase.V → ℝ)
    (h : ∀ t, 0 ≤ t → Solves (fun t y => ThreePhase.rhs (connIf (c t) (envT p (inp t) y))) Y t)
    (V w : ℝ) (va vb vc r : ℂ) (hV' : 0 < V) (hV : Tendsto (fun t => Y t .Vdc) atTop (𝓝 V))
    (hw : Tendsto (fun t => (envT p (inp t) (Y t)).winv) atTop (𝓝 w))
    (hva : Tendsto (fun t => (inp t).va) atTop (𝓝 va))
    (hvb : Tendsto (fun t => (inp t).vb) atTop (𝓝 vb))
    (hvc : Tendsto (fun t => (inp t).vc) atTop (𝓝 vc))
    (hr : Tendsto (fun t => (connIf (c t) (envT p (inp t) (Y t))).ia_ref) atTop (𝓝 r))
    (hma : ∀ᶠ t in atTop, ‖duty p ⟨Y t .uaR, Y t .uaI⟩ ⟨Y t .xaR, Y t .xaI⟩‖ ≤ p.m_limit)
    (hmb : ∀ᶠ t in atTop, ‖duty p ⟨Y t .ubR, Y t .ubI⟩ ⟨Y t .xbR, Y t .xbI⟩‖ ≤ p.m_limit)
    (hmc : ∀ᶠ t in atTop, ‖duty p ⟨Y t .ucR, Y t .ucI⟩ ⟨Y t .xcR, Y t .xcI⟩‖ ≤ p.m_limit) :
    PhaseTracks p V w va r (fun t => ⟨Y t .iaR, Y t .iaI⟩) (fun t => ⟨Y t .uaR, Y t .uaI⟩) (fun t => ⟨Y t .xaR, Y t .xaI⟩) ∧
    PhaseTracks p V w vb (Phasor.ub r) (fun t => ⟨Y t .ibR, Y t .ibI⟩) (fun t => ⟨Y t .ubR, Y t .ubI⟩) (fun t => ⟨Y t .xbR, Y t .xbI⟩) ∧
    PhaseTracks p V w vc (Phasor.uc r) (fun t => ⟨Y t .icR, Y t .icI⟩) (fun t => ⟨Y t .ucR, Y t .ucI⟩) (fun t => ⟨Y t .xcR, Y t .xcI⟩) := by
  have hrot : ∀ t, (connIf (c t) (envT p (inp t) (Y t))).ib_ref = Phasor.ub (connIf (c t) (envT p (inp t) (Y t))).ia_ref ∧ (connIf (c t) (envT p (inp t) (Y t))).ic_ref = Phasor.uc (connIf (c t) (envT p (inp t) (Y t))).ia_ref := fun t => iref_rot _ _ rfl rfl
  have hrb : Tendsto (fun t => (connIf (c t) (envT p (inp t) (Y t))).ib_ref) atTop (𝓝 (Phasor.ub r)) := (ub_tendsto hr).congr (fun t => (hrot t).1.symm)
  have hrc : Tendsto (fun t => (connIf (c t) (envT p (inp t) (Y t))).ic_ref) atTop (𝓝 (Phasor.uc r)) := (uc_tendsto hr).congr (fun t => (hrot t).2.symm)
  have Pa : ∀ᶠ s in atTop, Defect.Phase p.Lf p.Rf p.Kp_GCC p.Ki_GCC p.wp (fun t => Y t .Vdc) (fun t => (envT p (inp t) (Y t)).winv / p.wbase)
      (fun t => (inp t).va) (fun t => (connIf (c t) (envT p (inp t) (Y t))).ia_ref) (fun t => ⟨Y t .iaR, Y t .iaI⟩) (fun t => ⟨Y t .xaR, Y t .xaI⟩) (fun t => ⟨Y t .uaR, Y t .uaI⟩) s := by
    filter_upwards [hma, eventually_ge_atTop 0] with s hsat hs
    have cs := connIf_state (c s) (envT p (inp s) (Y s))
    have hd := h s hs
    have aw := C57_antiwindup_three_phase (connIf (c s) (envT p (inp s) (Y s)))
    have ns : ¬ mSat (connIf (c s) (envT p (inp s) (Y s))) (connIf (c s) (envT p (inp s) (Y s))).ua (connIf (c s) (envT p (inp s) (Y s))).xa := by
      simp only [mSat, cs]; exact not_lt.2 hsat
    have e3 := (aw.1).plain ns
    have e4 := (aw.2.1).plain ns
    have e5 := (aw.2.2.1).plain ns
    have e6 := (aw.2.2.2.1).plain ns
    have hv : (envT p (inp s) (Y s)).va = (inp s).va := rfl
    refine phase_of p (vt := (envT p (inp s) (Y s)).vta) rfl ((hd .iaR).congr_deriv ?_) ((hd .iaI).congr_deriv ?_) ((hd .xaR).congr_deriv ?_) ((hd .xaI).congr_deriv ?_)
      ((hd .uaR).congr_deriv ?_) ((hd .uaI).congr_deriv ?_)
    · simp only [ThreePhase.rhs, cs, hv]; rfl
    · simp only [ThreePhase.rhs, cs, hv]; rfl
    · beta_reduce; rw [e3]; simp only [cs]; rfl
    · beta_reduce; rw [e4]; simp only [cs]; rfl
    · beta_reduce; rw [e5]; simp only [cs]; rfl
    · beta_reduce; rw [e6]; simp only [cs]; rfl
  have Pb : ∀ᶠ s in atTop, Defect.Phase p.Lf p.Rf p.Kp_GCC p.Ki_GCC p.wp (fun t => Y t .Vdc) (fun t => (envT p (inp t) (Y t)).winv / p.wbase)
      (fun t => (inp t).vb) (fun t => (connIf (c t) (envT p (inp t) (Y t))).ib_ref) (fun t => ⟨Y t .ibR, Y t .ibI⟩) (fun t => ⟨Y t .xbR, Y t .xbI⟩) (fun t => ⟨Y t .ubR, Y t .ubI⟩) s := by
    filter_upwards [hmb, eventually_ge_atTop 0] with s hsat hs
    have cs := connIf_state (c s) (envT p (inp s) (Y s))
    have hd := h s hs
    have aw := C57_antiwindup_three_phase (connIf (c s) (envT p (inp s) (Y s)))
    have ns : ¬ mSat (connIf (c s) (envT p (inp s) (Y s))) (connIf (c s) (envT p (inp s) (Y s))).ub (connIf (c s) (envT p (inp s) (Y s))).xb := by
      simp only [mSat, cs]; exact not_lt.2 hsat
    have e3 := (aw.2.2.2.2.1).plain ns
    have e4 := (aw.2.2.2.2.2.1).plain ns
    have e5 := (aw.2.2.2.2.2.2.1).plain ns
    have e6 := (aw.2.2.2.2.2.2.2.1).plain ns
    have hv : (envT p (inp s) (Y s)).vb = (inp s).vb := rfl
    refine phase_of p (vt := (envT p (inp s) (Y s)).vtb) rfl ((hd .ibR).congr_deriv ?_) ((hd .ibI).congr_deriv ?_) ((hd .xbR).congr_deriv ?_) ((hd .xbI).congr_deriv ?_)
      ((hd .ubR).congr_deriv ?_) ((hd .ubI).congr_deriv ?_)
    · simp only [ThreePhase.rhs, cs, hv]; rfl
    · simp only [ThreePhase.rhs, cs, hv]; rfl
    · beta_reduce; rw [e3]; simp only [cs]; rfl
    · beta_reduce; rw [e4]; simp only [cs]; rfl
    · beta_reduce; rw [e5]; simp only [cs]; rfl
    · beta_reduce; rw [e6]; simp only [cs]; rfl
  have Pc : ∀ᶠ s in atTop, Defect.Phase p.Lf p.Rf p.Kp_GCC p.Ki_GCC p.wp (fun t => Y t .Vdc) (fun t => (envT p (inp t) (Y t)).winv / p.wbase)
      (fun t => (inp t).vc) (fun t => (connIf (c t) (envT p (inp t) (Y t))).ic_ref) (fun t => ⟨Y t .icR, Y t .icI⟩) (fun t => ⟨Y t .xcR, Y t .xcI⟩) (fun t => ⟨Y t .ucR, Y t .ucI⟩) s := by
    filter_upwards [hmc, eventually_ge_atTop 0] with s hsat hs
    have cs := connIf_state (c s) (envT p (inp s) (Y s))
    have hd := h s hs
    have aw := C57_antiwindup_three_phase (connIf (c s) (envT p (inp s) (Y s)))
    have ns : ¬ mSat (connIf (c s) (envT p (inp s) (Y s))) (connIf (c s) (envT p (inp s) (Y s))).uc (connIf (c s) (envT p (inp s) (Y s))).xc := by
      simp only [mSat, cs]; exact not_lt.2 hsat
    have e3 := (aw.2.2.2.2.2.2.2.2.1).plain ns
    have e4 := (aw.2.2.2.2.2.2.2.2.2.1).plain ns
    have e5 := (aw.2.2.2.2.2.2.2.2.2.2.1).plain ns
    have e6 := (aw.2.2.2.2.2.2.2.2.2.2.2.1).plain ns
    have hv : (envT p (inp s) (Y s)).vc = (inp s).vc := rfl
    refine phase_of p (vt := (envT p (inp s) (Y s)).vtc) rfl ((hd .icR).congr_deriv ?_) ((hd .icI).congr_deriv ?_) ((hd .xcR).congr_deriv ?_) ((hd .xcI).congr_deriv ?_)
      ((hd .ucR).congr_deriv ?_) ((hd .ucI).congr_deriv ?_)
    · simp only [ThreePhase.rhs, cs, hv]; rfl
    · simp only [ThreePhase.rhs, cs, hv]; rfl
    · beta_reduce; rw [e3]; simp only [cs]; rfl
    · beta_reduce; rw [e4]; simp only [cs]; rfl
    · beta_reduce; rw [e5]; simp only [cs]; rfl
    · beta_reduce; rw [e6]; simp only [cs]; rfl
  exact ⟨tracks_of hp hV' Pa hV hw hva hr, tracks_of hp hV' Pb hV hw hvb hrb, tracks_of hp hV' Pc hV hw hvc hrc⟩

/-- C118 for the class `ThreePhaseNoVrmsFilter`. -/
theorem C118_tracks_three_no_filter (hp : DecayPar p) (Y : ℝ → ThreePhaseNoVrmsFilter.V → ℝ)
    (h : ∀ t, 0 ≤ t → Solves (fun t y => ThreePhaseNoVrmsFilter.rhs (connIf (c t) (envN p (inp t) y))) Y t)
    (V w : ℝ) (va vb vc r : ℂ) (hV' : 0 < V) (hV : Tendsto (fun t => Y t .Vdc) atTop (𝓝 V))
    (hw : Tendsto (fun t => (envN p (inp t) (Y t)).winv) atTop (𝓝 w))
    (hva : Tendsto (fun t => (inp t).va) atTop (𝓝 va))
    (hvb : Tendsto (fun t => (inp t).vb) atTop (𝓝 vb))
    (hvc : Tendsto (fun t => (inp t).vc) atTop (𝓝 vc))
    (hr : Tendsto (fun t => (connIf (c t) (envN p (inp t) (Y t))).ia_ref) atTop (𝓝 r))
    (hma : ∀ᶠ t in atTop, ‖duty p ⟨Y t .uaR, Y t .uaI⟩ ⟨Y t .xaR, Y t .xaI⟩‖ ≤ p.m_limit)
    (hmb : ∀ᶠ t in atTop, ‖duty p ⟨Y t .ubR, Y t .ubI⟩ ⟨Y t .xbR, Y t .xbI⟩‖ ≤ p.m_limit)
    (hmc : ∀ᶠ t in atTop, ‖duty p ⟨Y t .ucR, Y t .ucI⟩ ⟨Y t .xcR, Y t .xcI⟩‖ ≤ p.m_limit) :
    PhaseTracks p V w va r (fun t => ⟨Y t .iaR, Y t .iaI⟩) (fun t => ⟨Y t .uaR, Y t .uaI⟩) (fun t => ⟨Y t .xaR, Y t .xaI⟩) ∧
    PhaseTracks p V w vb (Phasor.ub r) (fun t => ⟨Y t .ibR, Y t .ibI⟩) (fun t => ⟨Y t .ubR, Y t .ubI⟩) (fun t => ⟨Y t .xbR, Y t .xbI⟩) ∧
    PhaseTracks p V w vc (Phasor.uc r) (fun t => ⟨Y t .icR, Y t .icI⟩) (fun t => ⟨Y t .ucR, Y t .ucI⟩) (fun t => ⟨Y t .xcR, Y t .xcI⟩) := by
  have hrot : ∀ t, (connIf (c t) (envN p (inp t) (Y t))).ib_ref = Phasor.ub (connIf (c t) (envN p (inp t) (Y t))).ia_ref ∧ (connIf (c t) (envN p (inp t) (Y t))).ic_ref = Phasor.uc (connIf (c t) (envN p (inp t) (Y t))).ia_ref := fun t => iref_rot _ _ rfl rfl
  have hrb : Tendsto (fun t => (connIf (c t) (envN p (inp t) (Y t))).ib_ref) atTop (𝓝 (Phasor.ub r)) := (ub_tendsto hr).congr (fun t => (hrot t).1.symm)
  have hrc : Tendsto (fun t => (connIf (c t) (envN p (inp t) (Y t))).ic_ref) atTop (𝓝 (Phasor.uc r)) := (uc_tendsto hr).congr (fun t => (hrot t).2.symm)
  have Pa : ∀ᶠ s in atTop, Defect.Phase p.Lf p.Rf p.Kp_GCC p.Ki_GCC p.wp (fun t => Y t .Vdc) (fun t => (envN p (inp t) (Y t)).winv / p.wbase)
      (fun t => (inp t).va) (fun t => (connIf (c t) (envN p (inp t) (Y t))).ia_ref) (fun t => ⟨Y t .iaR, Y t .iaI⟩) (fun t => ⟨Y t .xaR, Y t .xaI⟩) (fun t => ⟨Y t .uaR, Y t .uaI⟩) s := by
    filter_upwards [hma, eventually_ge_atTop 0] with s hsat hs
    have cs := connIf_state (c s) (envN p (inp s) (Y s))
    have hd := h s hs
    have aw := C57_antiwindup_no_filter (connIf (c s) (envN p (inp s) (Y s)))
    have ns : ¬ mSat (connIf (c s) (envN p (inp s) (Y s))) (connIf (c s) (envN p (inp s) (Y s))).ua (connIf (c s) (envN p (inp s) (Y s))).xa := by
      simp only [mSat, cs]; exact not_lt.2 hsat
    have e3 := (aw.1).plain ns
    have e4 := (aw.2.1).plain ns
    have e5 := (aw.2.2.1).plain ns
    have e6 := (aw.2.2.2.1).plain ns
    have hv : (envN p (inp s) (Y s)).va = (inp s).va := rfl
    refine phase_of p (vt := (envN p (inp s) (Y s)).vta) rfl ((hd .iaR).congr_deriv ?_) ((hd .iaI).congr_deriv ?_) ((hd .xaR).congr_deriv ?_) ((hd .xaI).congr_deriv ?_)
      ((hd .uaR).congr_deriv ?_) ((hd .uaI).congr_deriv ?_)
    · simp only [ThreePhaseNoVrmsFilter.rhs, cs, hv]; rfl
    · simp only [ThreePhaseNoVrmsFilter.rhs, cs, hv]; rfl
    · beta_reduce; rw [e3]; simp only [cs]; rfl
    · beta_reduce; rw [e4]; simp only [cs]; rfl
    · beta_reduce; rw [e5]; simp only [cs]; rfl
    · beta_reduce; rw [e6]; simp only [cs]; rfl
  have Pb : ∀ᶠ s in atTop, Defect.Phase p.Lf p.Rf p.Kp_GCC p.Ki_GCC p.wp (fun t => Y t .Vdc) (fun t => (envN p (inp t) (Y t)).winv / p.wbase)
      (fun t => (inp t).vb) (fun t => (connIf (c t) (envN p (inp t) (Y t))).ib_ref) (fun t => ⟨Y t .ibR, Y t .ibI⟩) (fun t => ⟨Y t .xbR, Y t .xbI⟩) (fun t => ⟨Y t .ubR, Y t .ubI⟩) s := by
    filter_upwards [hmb, eventually_ge_atTop 0] with s hsat hs
    have cs := connIf_state (c s) (envN p (inp s) (Y s))
    have hd := h s hs
    have aw := C57_antiwindup_no_filter (connIf (c s) (envN p (inp s) (Y s)))
    have ns : ¬ mSat (connIf (c s) (envN p (inp s) (Y s))) (connIf (c s) (envN p (inp s) (Y s))).ub (connIf (c s) (envN p (inp s) (Y s))).xb := by
      simp only [mSat, cs]; exact not_lt.2 hsat
    have e3 := (aw.2.2.2.2.1).plain ns
    have e4 := (aw.2.2.2.2.2.1).plain ns
    have e5 := (aw.2.2.2.2.2.2.1).plain ns
    have e6 := (aw.2.2.2.2.2.2.2.1).plain ns
    have hv : (envN p (inp s) (Y s)).vb = (inp s).vb := rfl
    refine phase_of p (vt := (envN p (inp s) (Y s)).vtb) rfl ((hd .ibR).congr_deriv ?_) ((hd .ibI).congr_deriv ?_) ((hd .xbR).congr_deriv ?_) ((hd .xbI).congr_deriv ?_)
      ((hd .ubR).congr_deriv ?_) ((hd .ubI).congr_deriv ?_)
    · simp only [ThreePhaseNoVrmsFilter.rhs, cs, hv]; rfl
    · simp only [ThreePhaseNoVrmsFilter.rhs, cs, hv]; rfl
    · beta_reduce; rw [e3]; simp only [cs]; rfl
    · beta_reduce; rw [e4]; simp only [cs]; rfl
    · beta_reduce; rw [e5]; simp only [cs]; rfl
    · beta_reduce; rw [e6]; simp only [cs]; rfl
  have Pc : ∀ᶠ s in atTop, Defect.Phase p.Lf p.Rf p.Kp_GCC p.Ki_GCC p.wp (fun t => Y t .Vdc) (fun t => (envN p (inp t) (Y t)).winv / p.wbase)
      (fun t => (inp t).vc) (fun t => (connIf (c t) (envN p (inp t) (Y t))).ic_ref) (fun t => ⟨Y t .icR, Y t .icI⟩) (fun t => ⟨Y t .xcR, Y t .xcI⟩) (fun t => ⟨Y t .ucR, Y t .ucI⟩) s := by
    filter_upwards [hmc, eventually_ge_atTop 0] with s hsat hs
    have cs := connIf_state (c s) (envN p (inp s) (Y s))
    have hd := h s hs
    have aw := C57_antiwindup_no_filter (connIf (c s) (envN p (inp s) (Y s)))
    have ns : ¬ mSat (connIf (c s) (envN p (inp s) (Y s))) (connIf (c s) (envN p (inp s) (Y s))).uc (connIf (c s) (envN p (inp s) (Y s))).xc := by
      simp only [mSat, cs]; exact not_lt.2 hsat
    have e3 := (aw.2.2.2.2.2.2.2.2.1).plain ns
    have e4 := (aw.2.2.2.2.2.2.2.2.2.1).plain ns
    have e5 := (aw.2.2.2.2.2.2.2.2.2.2.1).plain ns
    have e6 := (aw.2.2.2.2.2.2.2.2.2.2.2.1).plain ns
    have hv : (envN p (inp s) (Y s)).vc = (inp s).vc := rfl
    refine phase_of p (vt := (envN p (inp s) (Y s)).vtc) rfl ((hd .icR).congr_deriv ?_) ((hd .icI).congr_deriv ?_) ((hd .xcR).congr_deriv ?_) ((hd .xcI).congr_deriv ?_)
      ((hd .ucR).congr_deriv ?_) ((hd .ucI).congr_deriv ?_)
    · simp only [ThreePhaseNoVrmsFilter.rhs, cs, hv]; rfl
    · simp only [ThreePhaseNoVrmsFilter.rhs, cs, hv]; rfl
    · beta_reduce; rw [e3]; simp only [cs]; rfl
    · beta_reduce; rw [e4]; simp only [cs]; rfl
    · beta_reduce; rw [e5]; simp only [cs]; rfl
    · beta_reduce; rw [e6]; simp only [cs]; rfl
  exact ⟨tracks_of hp hV' Pa hV hw hva hr, tracks_of hp hV' Pb hV hw hvb hrb, tracks_of hp hV' Pc hV hw hvc hrc⟩

/-- C118 for the class `ThreePhaseNumba`. -/
theorem C118_tracks_three_numba (hp : DecayPar p) (Y : ℝ → ThreePhaseNumba.V → ℝ)
    (h : ∀ t, 0 ≤ t → Solves (fun t y => ThreePhaseNumba.rhs (connIf (c t) (envNumba p (inp t) y))) Y t)
    (V w : ℝ) (va vb vc r : ℂ) (hV' : 0 < V) (hV : Tendsto (fun t => Y t .Vdc) atTop (𝓝 V))
    (hw : Tendsto (fun t => (envNumba p (inp t) (Y t)).winv) atTop (𝓝 w))
    (hva : Tendsto (fun t => (inp t).va) atTop (𝓝 va))
    (hvb : Tendsto (fun t => (inp t).vb) atTop (𝓝 vb))
    (hvc : Tendsto (fun t => (inp t).vc) atTop (𝓝 vc))
    (hr : Tendsto (fun t => (connIf (c t) (envNumba p (inp t) (Y t))).ia_ref) atTop (𝓝 r))
    (hma : ∀ᶠ t in atTop, ‖duty p ⟨Y t .uaR, Y t .uaI⟩ ⟨Y t .xaR, Y t .xaI⟩‖ ≤ p.m_limit)
    (hmb : ∀ᶠ t in atTop, ‖duty p ⟨Y t .ubR, Y t .ubI⟩ ⟨Y t .xbR, Y t .xbI⟩‖ ≤ p.m_limit)
    (hmc : ∀ᶠ t in atTop, ‖duty p ⟨Y t .ucR, Y t .ucI⟩ ⟨Y t .xcR, Y t .xcI⟩‖ ≤ p.m_limit) :
    PhaseTracks p V w va r (fun t => ⟨Y t .iaR, Y t .iaI⟩) (fun t => ⟨Y t .uaR, Y t .uaI⟩) (fun t => ⟨Y t .xaR, Y t .xaI⟩) ∧
    PhaseTracks p V w vb (Phasor.ub r) (fun t => ⟨Y t .ibR, Y t .ibI⟩) (fun t => ⟨Y t .ubR, Y t .ubI⟩) (fun t => ⟨Y t .xbR, Y t .xbI⟩) ∧
    PhaseTracks p V w vc (Phasor.uc r) (fun t => ⟨Y t .icR, Y t .icI⟩) (fun t => ⟨Y t .ucR, Y t .ucI⟩) (fun t => ⟨Y t .xcR, Y t .xcI⟩) := by
  have hrot : ∀ t, (connIf (c t) (envNumba p (inp t) (Y t))).ib_ref = Phasor.ub (connIf (c t) (envNumba p (inp t) (Y t))).ia_ref ∧ (connIf (c t) (envNumba p (inp t) (Y t))).ic_ref = Phasor.uc (connIf (c t) (envNumba p (inp t) (Y t))).ia_ref := fun t => iref_rot _ _ rfl rfl
  have hrb : Tendsto (fun t => (connIf (c t) (envNumba p (inp t) (Y t))).ib_ref) atTop (𝓝 (Phasor.ub r)) := (ub_tendsto hr).congr (fun t => (hrot t).1.symm)
  have hrc : Tendsto (fun t => (connIf (c t) (envNumba p (inp t) (Y t))).ic_ref) atTop (𝓝 (Phasor.uc r)) := (uc_tendsto hr).congr (fun t => (hrot t).2.symm)
  have Pa : ∀ᶠ s in atTop, Defect.Phase p.Lf p.Rf p.Kp_GCC p.Ki_GCC p.wp (fun t => Y t .Vdc) (fun t => (envNumba p (inp t) (Y t)).winv / p.wbase)
      (fun t => (inp t).va) (fun t => (connIf (c t) (envNumba p (inp t) (Y t))).ia_ref) (fun t => ⟨Y t .iaR, Y t .iaI⟩) (fun t => ⟨Y t .xaR, Y t .xaI⟩) (fun t => ⟨Y t .uaR, Y t .uaI⟩) s := by
    filter_upwards [hma, eventually_ge_atTop 0] with s hsat hs
    have cs := connIf_state (c s) (envNumba p (inp s) (Y s))
    have hd := h s hs
    have aw := C57_antiwindup_numba (connIf (c s) (envNumba p (inp s) (Y s)))
    have ns : ¬ mSat (connIf (c s) (envNumba p (inp s) (Y s))) (connIf (c s) (envNumba p (inp s) (Y s))).ua (connIf (c s) (envNumba p (inp s) (Y s))).xa := by
      simp only [mSat, cs]; exact not_lt.2 hsat
    have e3 := (aw.1).plain ns
    have e4 := (aw.2.1).plain ns
    have e5 := (aw.2.2.1).plain ns
    have e6 := (aw.2.2.2.1).plain ns
    have hv : (envNumba p (inp s) (Y s)).va = (inp s).va := rfl
    refine phase_of p (vt := (envNumba p (inp s) (Y s)).vta) rfl ((hd .iaR).congr_deriv ?_) ((hd .iaI).congr_deriv ?_) ((hd .xaR).congr_deriv ?_) ((hd .xaI).congr_deriv ?_)
      ((hd .uaR).congr_deriv ?_) ((hd .uaI).congr_deriv ?_)
    · simp only [ThreePhaseNumba.rhs, cs, hv]; rfl
    · simp only [ThreePhaseNumba.rhs, cs, hv]; rfl
    · beta_reduce; rw [e3]; simp only [cs]; rfl
    · beta_reduce; rw [e4]; simp only [cs]; rfl
    · beta_reduce; rw [e5]; simp only [cs]; rfl
    · beta_reduce; rw [e6]; simp only [cs]; rfl
  have Pb : ∀ᶠ s in atTop, Defect.Phase p.Lf p.Rf p.Kp_GCC p.Ki_GCC p.wp (fun t => Y t .Vdc) (fun t => (envNumba p (inp t) (Y t)).winv / p.wbase)
      (fun t => (inp t).vb) (fun t => (connIf (c t) (envNumba p (inp t) (Y t))).ib_ref) (fun t => ⟨Y t .ibR, Y t .ibI⟩) (fun t => ⟨Y t .xbR, Y t .xbI⟩) (fun t => ⟨Y t .ubR, Y t .ubI⟩) s := by
    filter_upwards [hmb, eventually_ge_atTop 0] with s hsat hs
    have cs := connIf_state (c s) (envNumba p (inp s) (Y s))
    have hd := h s hs
    have aw := C57_antiwindup_numba (connIf (c s) (envNumba p (inp s) (Y s)))
    have ns : ¬ mSat (connIf (c s) (envNumba p (inp s) (Y s))) (connIf (c s) (envNumba p (inp s) (Y s))).ub (connIf (c s) (envNumba p (inp s) (Y s))).xb := by
      simp only [mSat, cs]; exact not_lt.2 hsat
    have e3 := (aw.2.2.2.2.1).plain ns
    have e4 := (aw.2.2.2.2.2.1).plain ns
    have e5 := (aw.2.2.2.2.2.2.1).plain ns
    have e6 := (aw.2.2.2.2.2.2.2.1).plain ns
    have hv : (envNumba p (inp s) (Y s)).vb = (inp s).vb := rfl
    refine phase_of p (vt := (envNumba p (inp s) (Y s)).vtb) rfl ((hd .ibR).congr_deriv ?_) ((hd .ibI).congr_deriv ?_) ((hd .xbR).congr_deriv ?_) ((hd .xbI).congr_deriv ?_)
      ((hd .ubR).congr_deriv ?_) ((hd .ubI).congr_deriv ?_)
    · simp only [ThreePhaseNumba.rhs, cs, hv]; rfl
    · simp only [ThreePhaseNumba.rhs, cs, hv]; rfl
    · beta_reduce; rw [e3]; simp only [cs]; rfl
    · beta_reduce; rw [e4]; simp only [cs]; rfl
    · beta_reduce; rw [e5]; simp only [cs]; rfl
    · beta_reduce; rw [e6]; simp only [cs]; rfl
  have Pc : ∀ᶠ s in atTop, Defect.Phase p.Lf p.Rf p.Kp_GCC p.Ki_GCC p.wp (fun t => Y t .Vdc) (fun t => (envNumba p (inp t) (Y t)).winv / p.wbase)
      (fun t => (inp t).vc) (fun t => (connIf (c t) (envNumba p (inp t) (Y t))).ic_ref) (fun t => ⟨Y t .icR, Y t .icI⟩) (fun t => ⟨Y t .xcR, Y t .xcI⟩) (fun t => ⟨Y t .ucR, Y t .ucI⟩) s := by
    filter_upwards [hmc, eventually_ge_atTop 0] with s hsat hs
    have cs := connIf_state (c s) (envNumba p (inp s) (Y s))
    have hd := h s hs
    have aw := C57_antiwindup_numba (connIf (c s) (envNumba p (inp s) (Y s)))
    have ns : ¬ mSat (connIf (c s) (envNumba p (inp s) (Y s))) (connIf (c s) (envNumba p (inp s) (Y s))).uc (connIf (c s) (envNumba p (inp s) (Y s))).xc := by
      simp only [mSat, cs]; exact not_lt.2 hsat
    have e3 := (aw.2.2.2.2.2.2.2.2.1).plain ns
    have e4 := (aw.2.2.2.2.2.2.2.2.2.1).plain ns
    have e5 := (aw.2.2.2.2.2.2.2.2.2.2.1).plain ns
    have e6 := (aw.2.2.2.2.2.2.2.2.2.2.2.1).plain ns
    have hv : (envNumba p (inp s) (Y s)).vc = (inp s).vc := rfl
    refine phase_of p (vt := (envNumba p (inp s) (Y s)).vtc) rfl ((hd .icR).congr_deriv ?_) ((hd .icI).congr_deriv ?_) ((hd .xcR).congr_deriv ?_) ((hd .xcI).congr_deriv ?_)
      ((hd .ucR).congr_deriv ?_) ((hd .ucI).congr_deriv ?_)
    · simp only [ThreePhaseNumba.rhs, cs, hv]; rfl
    · simp only [ThreePhaseNumba.rhs, cs, hv]; rfl
    · beta_reduce; rw [e3]; simp only [cs]; rfl
    · beta_reduce; rw [e4]; simp only [cs]; rfl
    · beta_reduce; rw [e5]; simp only [cs]; rfl
    · beta_reduce; rw [e6]; simp only [cs]; rfl
  exact ⟨tracks_of hp hV' Pa hV hw hva hr, tracks_of hp hV' Pb hV hw hvb hrb, tracks_of hp hV' Pc hV hw hvc hrc⟩

/-- C118 for the class `ThreePhaseBalanced`. -/
theorem C118_tracks_balanced (hp : DecayPar p) (Y : ℝ → ThreePhaseBalanced.V → ℝ)
    (h : ∀ t, 0 ≤ t → Solves (fun t y => ThreePhaseBalanced.rhs (connIf (c t) (envB p (inp t) y))) Y t)
    (V w : ℝ) (va r : ℂ) (hV' : 0 < V) (hV : Tendsto (fun t => Y t .Vdc) atTop (𝓝 V))
    (hw : Tendsto (fun t => (envB p (inp t) (Y t)).winv) atTop (𝓝 w))
    (hva : Tendsto (fun t => (inp t).va) atTop (𝓝 va))
    (hr : Tendsto (fun t => (connIf (c t) (envB p (inp t) (Y t))).ia_ref) atTop (𝓝 r))
    (hma : ∀ᶠ t in atTop, ‖duty p ⟨Y t .uaR, Y t .uaI⟩ ⟨Y t .xaR, Y t .xaI⟩‖ ≤ p.m_limit) :
    PhaseTracks p V w va r (fun t => ⟨Y t .iaR, Y t .iaI⟩) (fun t => ⟨Y t .uaR, Y t .uaI⟩) (fun t => ⟨Y t .xaR, Y t .xaI⟩) := by
  have Pa : ∀ᶠ s in atTop, Defect.Phase p.Lf p.Rf p.Kp_GCC p.Ki_GCC p.wp (fun t => Y t .Vdc) (fun t => (envB p (inp t) (Y t)).winv / p.wbase)
      (fun t => (inp t).va) (fun t => (connIf (c t) (envB p (inp t) (Y t))).ia_ref) (fun t => ⟨Y t .iaR, Y t .iaI⟩) (fun t => ⟨Y t .xaR, Y t .xaI⟩) (fun t => ⟨Y t .uaR, Y t .uaI⟩) s := by
    filter_upwards [hma, eventually_ge_atTop 0] with s hsat hs
    have cs := connIf_state (c s) (envB p (inp s) (Y s))
    have hd := h s hs
    have aw := C57_antiwindup_balanced (connIf (c s) (envB p (inp s) (Y s)))
    have ns : ¬ mSat (connIf (c s) (envB p (inp s) (Y s))) (connIf (c s) (envB p (inp s) (Y s))).ua (connIf (c s) (envB p (inp s) (Y s))).xa := by
      simp only [mSat, cs]; exact not_lt.2 hsat
    have e3 := (aw.1).plain ns
    have e4 := (aw.2.1).plain ns
    have e5 := (aw.2.2.1).plain ns
    have e6 := (aw.2.2.2.1).plain ns
    have hv : (envB p (inp s) (Y s)).va = (inp s).va := rfl
    refine phase_of p (vt := (envB p (inp s) (Y s)).vta) rfl ((hd .iaR).congr_deriv ?_) ((hd .iaI).congr_deriv ?_) ((hd .xaR).congr_deriv ?_) ((hd .xaI).congr_deriv ?_)
      ((hd .uaR).congr_deriv ?_) ((hd .uaI).congr_deriv ?_)
    · simp only [ThreePhaseBalanced.rhs, cs, hv]; rfl
    · simp only [ThreePhaseBalanced.rhs, cs, hv]; rfl
    · beta_reduce; rw [e3]; simp only [cs]; rfl
    · beta_reduce; rw [e4]; simp only [cs]; rfl
    · beta_reduce; rw [e5]; simp only [cs]; rfl
    · beta_reduce; rw [e6]; simp only [cs]; rfl
  exact tracks_of hp hV' Pa hV hw hva hr

/-- C118 for the class `SinglePhaseConstantVdc`. -/
theorem C118_tracks_single_constant_vdc (hp : DecayPar p) (Y : ℝ → SinglePhaseConstantVdc.V → ℝ)
    (h : ∀ t, 0 ≤ t → Solves (fun t y => SinglePhaseConstantVdc.rhs (connIf (c t) (envC1 p (inp t) y))) Y t)
    (V w : ℝ) (va r : ℂ) (hV' : 0 < V) (hV : Tendsto (fun t => (inp t).Vdc0) atTop (𝓝 V))
    (hw : Tendsto (fun t => (envC1 p (inp t) (Y t)).winv) atTop (𝓝 w))
    (hva : Tendsto (fun t => (inp t).va) atTop (𝓝 va))
    (hr : Tendsto (fun t => (connIf (c t) (envC1 p (inp t) (Y t))).ia_ref) atTop (𝓝 r))
    (hma : ∀ᶠ t in atTop, ‖duty p ⟨Y t .uaR, Y t .uaI⟩ ⟨Y t .xaR, Y t .xaI⟩‖ ≤ p.m_limit) :
    PhaseTracks p V w va r (fun t => ⟨Y t .iaR, Y t .iaI⟩) (fun t => ⟨Y t .uaR, Y t .uaI⟩) (fun t => ⟨Y t .xaR, Y t .xaI⟩) := by
  have Pa : ∀ᶠ s in atTop, Defect.Phase p.Lf p.Rf p.Kp_GCC p.Ki_GCC p.wp (fun t => (inp t).Vdc0) (fun t => (envC1 p (inp t) (Y t)).winv / p.wbase)
      (fun t => (inp t).va) (fun t => (connIf (c t) (envC1 p (inp t) (Y t))).ia_ref) (fun t => ⟨Y t .iaR, Y t .iaI⟩) (fun t => ⟨Y t .xaR, Y t .xaI⟩) (fun t => ⟨Y t .uaR, Y t .uaI⟩) s := by
    filter_upwards [hma, eventually_ge_atTop 0] with s hsat hs
    have cs := connIf_state (c s) (envC1 p (inp s) (Y s))
    have hd := h s hs
    have aw := C57_antiwindup_single_phase_constant_vdc (connIf (c s) (envC1 p (inp s) (Y s)))
    have ns : ¬ mSat (connIf (c s) (envC1 p (inp s) (Y s))) (connIf (c s) (envC1 p (inp s) (Y s))).ua (connIf (c s) (envC1 p (inp s) (Y s))).xa := by
      simp only [mSat, cs]; exact not_lt.2 hsat
    have e3 := (aw.1).plain ns
    have e4 := (aw.2.1).plain ns
    have e5 := (aw.2.2.1).plain ns
    have e6 := (aw.2.2.2.1).plain ns
    have hv : (envC1 p (inp s) (Y s)).va = (inp s).va := rfl
    refine phase_of p (vt := (envC1 p (inp s) (Y s)).vta) rfl ((hd .iaR).congr_deriv ?_) ((hd .iaI).congr_deriv ?_) ((hd .xaR).congr_deriv ?_) ((hd .xaI).congr_deriv ?_)
      ((hd .uaR).congr_deriv ?_) ((hd .uaI).congr_deriv ?_)
    · simp only [SinglePhaseConstantVdc.rhs, cs, hv]; rfl
    · simp only [SinglePhaseConstantVdc.rhs, cs, hv]; rfl
    · beta_reduce; rw [e3]; simp only [cs]; rfl
    · beta_reduce; rw [e4]; simp only [cs]; rfl
    · beta_reduce; rw [e5]; simp only [cs]; rfl
    · beta_reduce; rw [e6]; simp only [cs]; rfl
  exact tracks_of hp hV' Pa hV hw hva hr

/-- C118 for the class `ThreePhaseConstantVdc`. -/
theorem C118_tracks_three_constant_vdc (hp : DecayPar p) (Y : ℝ → ThreePhaseConstantVdc.V → ℝ)
    (h : ∀ t, 0 ≤ t → Solves (fun t y => ThreePhaseConstantVdc.rhs (connIf (c t) (envC3 p (inp t) y))) Y t)
    (V w : ℝ) (va vb vc r : ℂ) (hV' : 0 < V) (hV : Tendsto (fun t => (inp t).Vdc0) atTop (𝓝 V))
    (hw : Tendsto (fun t => (envC3 p (inp t) (Y t)).winv) atTop (𝓝 w))
    (hva : Tendsto (fun t => (inp t).va) atTop (𝓝 va))
    (hvb : Tendsto (fun t => (inp t).vb) atTop (𝓝 vb))
    (hvc : Tendsto (fun t => (inp t).vc) atTop (𝓝 vc))
    (hr : Tendsto (fun t => (connIf (c t) (envC3 p (inp t) (Y t))).ia_ref) atTop (𝓝 r))
    (hma : ∀ᶠ t in atTop, ‖duty p ⟨Y t .uaR, Y t .uaI⟩ ⟨Y t .xaR, Y t .xaI⟩‖ ≤ p.m_limit)
    (hmb : ∀ᶠ t in atTop, ‖duty p ⟨Y t .ubR, Y t .ubI⟩ ⟨Y t .xbR, Y t .xbI⟩‖ ≤ p.m_limit)
    (hmc : ∀ᶠ t in atTop, ‖duty p ⟨Y t .ucR, Y t .ucI⟩ ⟨Y t .xcR, Y t .xcI⟩‖ ≤ p.m_limit) :
    PhaseTracks p V w va r (fun t => ⟨Y t .iaR, Y t .iaI⟩) (fun t => ⟨Y t .uaR, Y t .uaI⟩) (fun t => ⟨Y t .xaR, Y t .xaI⟩) ∧
    PhaseTracks p V w vb (Phasor.ub r) (fun t => ⟨Y t .ibR, Y t .ibI⟩) (fun t => ⟨Y t .ubR, Y t .ubI⟩) (fun t => ⟨Y t .xbR, Y t .xbI⟩) ∧
    PhaseTracks p V w vc (Phasor.uc r) (fun t => ⟨Y t .icR, Y t .icI⟩) (fun t => ⟨Y t .ucR, Y t .ucI⟩) (fun t => ⟨Y t .xcR, Y t .xcI⟩) := by
  have hrot : ∀ t, (connIf (c t) (envC3 p (inp t) (Y t))).ib_ref = Phasor.ub (connIf (c t) (envC3 p (inp t) (Y t))).ia_ref ∧ (connIf (c t) (envC3 p (inp t) (Y t))).ic_ref = Phasor.uc (connIf (c t) (envC3 p (inp t) (Y t))).ia_ref := fun t => iref_rot _ _ rfl rfl
  have hrb : Tendsto (fun t => (connIf (c t) (envC3 p (inp t) (Y t))).ib_ref) atTop (𝓝 (Phasor.ub r)) := (ub_tendsto hr).congr (fun t => (hrot t).1.symm)
  have hrc : Tendsto (fun t => (connIf (c t) (envC3 p (inp t) (Y t))).ic_ref) atTop (𝓝 (Phasor.uc r)) := (uc_tendsto hr).congr (fun t => (hrot t).2.symm)
  have Pa : ∀ᶠ s in atTop, Defect.Phase p.Lf p.Rf p.Kp_GCC p.Ki_GCC p.wp (fun t => (inp t).Vdc0) (fun t => (envC3 p (inp t) (Y t)).winv / p.wbase)
      (fun t => (inp t).va) (fun t => (connIf (c t) (envC3 p (inp t) (Y t))).ia_ref) (fun t => ⟨Y t .iaR, Y t .iaI⟩) (fun t => ⟨Y t .xaR, Y t .xaI⟩) (fun t => ⟨Y t .uaR, Y t .uaI⟩) s := by
    filter_upwards [hma, eventually_ge_atTop 0] with s hsat hs
    have cs := connIf_state (c s) (envC3 p (inp s) (Y s))
    have hd := h s hs
    have aw := C57_antiwindup_three_phase_constant_vdc (connIf (c s) (envC3 p (inp s) (Y s)))
    have ns : ¬ mSat (connIf (c s) (envC3 p (inp s) (Y s))) (connIf (c s) (envC3 p (inp s) (Y s))).ua (connIf (c s) (envC3 p (inp s) (Y s))).xa := by
      simp only [mSat, cs]; exact not_lt.2 hsat
    have e3 := (aw.1).plain ns
    have e4 := (aw.2.1).plain ns
    have e5 := (aw.2.2.1).plain ns
    have e6 := (aw.2.2.2.1).plain ns
    have hv : (envC3 p (inp s) (Y s)).va = (inp s).va := rfl
    refine phase_of p (vt := (envC3 p (inp s) (Y s)).vta) rfl ((hd .iaR).congr_deriv ?_) ((hd .iaI).congr_deriv ?_) ((hd .xaR).congr_deriv ?_) ((hd .xaI).congr_deriv ?_)
      ((hd .uaR).congr_deriv ?_) ((hd .uaI).congr_deriv ?_)
    · simp only [ThreePhaseConstantVdc.rhs, cs, hv]; rfl
    · simp only [ThreePhaseConstantVdc.rhs, cs, hv]; rfl
    · beta_reduce; rw [e3]; simp only [cs]; rfl
    · beta_reduce; rw [e4]; simp only [cs]; rfl
    · beta_reduce; rw [e5]; simp only [cs]; rfl
    · beta_reduce; rw [e6]; simp only [cs]; rfl
  have Pb : ∀ᶠ s in atTop, Defect.Phase p.Lf p.Rf p.Kp_GCC p.Ki_GCC p.wp (fun t => (inp t).Vdc0) (fun t => (envC3 p (inp t) (Y t)).winv / p.wbase)
      (fun t => (inp t).vb) (fun t => (connIf (c t) (envC3 p (inp t) (Y t))).ib_ref) (fun t => ⟨Y t .ibR, Y t .ibI⟩) (fun t => ⟨Y t .xbR, Y t .xbI⟩) (fun t => ⟨Y t .ubR, Y t .ubI⟩) s := by
    filter_upwards [hmb, eventually_ge_atTop 0] with s hsat hs
    have cs := connIf_state (c s) (envC3 p (inp s) (Y s))
    have hd := h s hs
    have aw := C57_antiwindup_three_phase_constant_vdc (connIf (c s) (envC3 p (inp s) (Y s)))
    have ns : ¬ mSat (connIf (c s) (envC3 p (inp s) (Y s))) (connIf (c s) (envC3 p (inp s) (Y s))).ub (connIf (c s) (envC3 p (inp s) (Y s))).xb := by
      simp only [mSat, cs]; exact not_lt.2 hsat
    have e3 := (aw.2.2.2.2.1).plain ns
    have e4 := (aw.2.2.2.2.2.1).plain ns
    have e5 := (aw.2.2.2.2.2.2.1).plain ns
    have e6 := (aw.2.2.2.2.2.2.2.1).plain ns
    have hv : (envC3 p (inp s) (Y s)).vb = (inp s).vb := rfl
    refine phase_of p (vt := (envC3 p (inp s) (Y s)).vtb) rfl ((hd .ibR).congr_deriv ?_) ((hd .ibI).congr_deriv ?_) ((hd .xbR).congr_deriv ?_) ((hd .xbI).congr_deriv ?_)
      ((hd .ubR).congr_deriv ?_) ((hd .ubI).congr_deriv ?_)
    · simp only [ThreePhaseConstantVdc.rhs, cs, hv]; rfl
    · simp only [ThreePhaseConstantVdc.rhs, cs, hv]; rfl
    · beta_reduce; rw [e3]; simp only [cs]; rfl
    · beta_reduce; rw [e4]; simp only [cs]; rfl
    · beta_reduce; rw [e5]; simp only [cs]; rfl
    · beta_reduce; rw [e6]; simp only [cs]; rfl
  have Pc : ∀ᶠ s in atTop, Defect.Phase p.Lf p.Rf p.Kp_GCC p.Ki_GCC p.wp (fun t => (inp t).Vdc0) (fun t => (envC3 p (inp t) (Y t)).winv / p.wbase)
      (fun t => (inp t).vc) (fun t => (connIf (c t) (envC3 p (inp t) (Y t))).ic_ref) (fun t => ⟨Y t .icR, Y t .icI⟩) (fun t => ⟨Y t .xcR, Y t .xcI⟩) (fun t => ⟨Y t .ucR, Y t .ucI⟩) s := by
    filter_upwards [hmc, eventually_ge_atTop 0] with s hsat hs
    have cs := connIf_state (c s) (envC3 p (inp s) (Y s))
    have hd := h s hs
    have aw := C57_antiwindup_three_phase_constant_vdc (connIf (c s) (envC3 p (inp s) (Y s)))
    have ns : ¬ mSat (connIf (c s) (envC3 p (inp s) (Y s))) (connIf (c s) (envC3 p (inp s) (Y s))).uc (connIf (c s) (envC3 p (inp s) (Y s))).xc := by
      simp only [mSat, cs]; exact not_lt.2 hsat
    have e3 := (aw.2.2.2.2.2.2.2.2.1).plain ns
    have e4 := (aw.2.2.2.2.2.2.2.2.2.1).plain ns
    have e5 := (aw.2.2.2.2.2.2.2.2.2.2.1).plain ns
    have e6 := (aw.2.2.2.2.2.2.2.2.2.2.2.1).plain ns
    have hv : (envC3 p (inp s) (Y s)).vc = (inp s).vc := rfl
    refine phase_of p (vt := (envC3 p (inp s) (Y s)).vtc) rfl ((hd .icR).congr_deriv ?_) ((hd .icI).congr_deriv ?_) ((hd .xcR).congr_deriv ?_) ((hd .xcI).congr_deriv ?_)
      ((hd .ucR).congr_deriv ?_) ((hd .ucI).congr_deriv ?_)
    · simp only [ThreePhaseConstantVdc.rhs, cs, hv]; rfl
    · simp only [ThreePhaseConstantVdc.rhs, cs, hv]; rfl
    · beta_reduce; rw [e3]; simp only [cs]; rfl
    · beta_reduce; rw [e4]; simp only [cs]; rfl
    · beta_reduce; rw [e5]; simp only [cs]; rfl
    · beta_reduce; rw [e6]; simp only [cs]; rfl
  exact ⟨tracks_of hp hV' Pa hV hw hva hr, tracks_of hp hV' Pb hV hw hvb hrb, tracks_of hp hV' Pc hV hw hvc hrc⟩

/-! ### On a steady grid the frequency hypothesis holds by itself (C108) -/

/-- C118 on a steady grid, constant DC voltage: only the reference has to settle. -/
theorem C118_steady_grid_single_constant_vdc (hp : DecayPar p) (Y : ℝ → SinglePhaseConstantVdc.V → ℝ) (v : ℂ) (w V : ℝ) (hg : SteadyGrid v w inp) (hv : v ≠ 0) (hV : ∀ t, 0 ≤ t → (inp t).Vdc0 = V)
    (hV' : 0 < V) (hKp : 0 < p.Kp_PLL) (hKi : 0 < p.Ki_PLL)
    (h : ∀ t, 0 ≤ t → Solves (fun t y => SinglePhaseConstantVdc.rhs (connIf (c t) (envC1 p (inp t) y))) Y t) (r : ℂ)
    (hr : Tendsto (fun t => (connIf (c t) (envC1 p (inp t) (Y t))).ia_ref) atTop (𝓝 r))
    (hm : ∀ᶠ t in atTop, ‖duty p ⟨Y t .uaR, Y t .uaI⟩ ⟨Y t .xaR, Y t .xaI⟩‖ ≤ p.m_limit) :
    PhaseTracks p V w v r (fun t => ⟨Y t .iaR, Y t .iaI⟩) (fun t => ⟨Y t .uaR, Y t .uaI⟩) (fun t => ⟨Y t .xaR, Y t .xaI⟩) := by
  have hl := C108_pll_locks_single_constant_vdc p inp c v w Y hg hv hKp hKi h
  have h0 : ∀ᶠ t : ℝ in atTop, 0 ≤ t := eventually_ge_atTop 0
  refine C118_tracks_single_constant_vdc p inp c hp Y h V w v r hV' (tendsto_const_nhds.congr' (h0.mono fun t ht => (hV t ht).symm)) (hl.2.1.congr' ?_)
    (tendsto_const_nhds.congr' (h0.mono fun t ht => (hg t ht).1.symm)) hr hm
  filter_upwards [h0] with t ht
  obtain ⟨g1, -, -, g4, g5⟩ := hg t ht
  show _ = weCalc p.Kp_PLL (pll1 (inp t).va (inp t).w (inp t).t (Y t .wte)).1 (Y t .xPLL)
  rw [g1, g4, g5]

/-- C118 on a steady symmetric grid, three phases, constant DC voltage. -/
theorem C118_steady_grid_three_constant_vdc (hp : DecayPar p) (Y : ℝ → ThreePhaseConstantVdc.V → ℝ) (v : ℂ) (w V : ℝ) (hg : SteadyGrid v w inp) (hv : v ≠ 0) (hV : ∀ t, 0 ≤ t → (inp t).Vdc0 = V)
    (hV' : 0 < V) (hKp : 0 < p.Kp_PLL) (hKi : 0 < p.Ki_PLL)
    (h : ∀ t, 0 ≤ t → Solves (fun t y => ThreePhaseConstantVdc.rhs (connIf (c t) (envC3 p (inp t) y))) Y t) (r : ℂ)
    (hr : Tendsto (fun t => (connIf (c t) (envC3 p (inp t) (Y t))).ia_ref) atTop (𝓝 r))
    (hma : ∀ᶠ t in atTop, ‖duty p ⟨Y t .uaR, Y t .uaI⟩ ⟨Y t .xaR, Y t .xaI⟩‖ ≤ p.m_limit)
    (hmb : ∀ᶠ t in atTop, ‖duty p ⟨Y t .ubR, Y t .ubI⟩ ⟨Y t .xbR, Y t .xbI⟩‖ ≤ p.m_limit)
    (hmc : ∀ᶠ t in atTop, ‖duty p ⟨Y t .ucR, Y t .ucI⟩ ⟨Y t .xcR, Y t .xcI⟩‖ ≤ p.m_limit) :
    PhaseTracks p V w v r (fun t => ⟨Y t .iaR, Y t .iaI⟩) (fun t => ⟨Y t .uaR, Y t .uaI⟩) (fun t => ⟨Y t .xaR, Y t .xaI⟩) ∧
    PhaseTracks p V w (Phasor.ub v) (Phasor.ub r) (fun t => ⟨Y t .ibR, Y t .ibI⟩) (fun t => ⟨Y t .ubR, Y t .ubI⟩) (fun t => ⟨Y t .xbR, Y t .xbI⟩) ∧
    PhaseTracks p V w (Phasor.uc v) (Phasor.uc r) (fun t => ⟨Y t .icR, Y t .icI⟩) (fun t => ⟨Y t .ucR, Y t .ucI⟩) (fun t => ⟨Y t .xcR, Y t .xcI⟩) := by
  have hl := C108_pll_locks_three_constant_vdc p inp c v w Y hg hv hKp hKi h
  have h0 : ∀ᶠ t : ℝ in atTop, 0 ≤ t := eventually_ge_atTop 0
  refine C118_tracks_three_constant_vdc p inp c hp Y h V w v _ _ r hV' (tendsto_const_nhds.congr' (h0.mono fun t ht => (hV t ht).symm)) (hl.2.1.congr' ?_)
    (tendsto_const_nhds.congr' (h0.mono fun t ht => (hg t ht).1.symm)) (tendsto_const_nhds.congr' (h0.mono fun t ht => (hg t ht).2.1.symm))
    (tendsto_const_nhds.congr' (h0.mono fun t ht => (hg t ht).2.2.1.symm)) hr hma hmb hmc
  filter_upwards [h0] with t ht
  show _ = weCalc p.Kp_PLL (pll3 (inp t).va (inp t).vb (inp t).vc (inp t).w (inp t).t (Y t .wte)).1 (Y t .xPLL)
  rw [pll3_steady inp v w ht hg]

/-! ### An explicit connected run with a transient -/

/-- The instance of `dyPar` with a larger duty cycle limit. -/
noncomputable def trPar : Par := { dyPar with m_limit := 6 }

/-- The current follows the reference 1, its error dies out as `exp (-t)`. -/
noncomputable def trY (t : ℝ) : SinglePhaseConstantVdc.V → ℝ
  | .iaR => 1 + Real.exp (-t)
  | .uaR => -2 * Real.exp (-t)
  | .xaR => 3 + 19/5 * Real.exp (-t)
  | .xP => 1
  | .xPLL => -(2 * Real.pi * 60)
  | _ => 0

theorem trVt (e : ℝ) : vtOf trPar ⟨-2 * e, 0⟩ ⟨3 + 19/5 * e, 0⟩ 1 = ⟨3/2 + 9/10 * e, 0⟩ := by
  unfold vtOf duty
  apply Complex.ext
  · simp [trPar, dyPar]; ring
  · simp [trPar, dyPar]

theorem trUnsat (e : ℝ) (h0 : 0 ≤ e) (h1 : e ≤ 1) : ‖duty trPar ⟨-2 * e, 0⟩ ⟨3 + 19/5 * e, 0⟩‖ ≤ trPar.m_limit := by
  have : duty trPar ⟨-2 * e, 0⟩ ⟨3 + 19/5 * e, 0⟩ = ((3 + 9/5 * e : ℝ) : ℂ) := by
    unfold duty
    apply Complex.ext
    · simp [trPar, dyPar]; ring
    · simp [trPar, dyPar]
  rw [this, Complex.norm_real, Real.norm_eq_abs, abs_of_nonneg (by positivity)]
  show _ ≤ (6 : ℝ)
  linarith

theorem trRef (t : ℝ) : (envC1 trPar (dyInp t) (trY t)).ia_ref = 1 := by
  show irefPOf trPar (dyInp t) _ 1 0 _ _ = 1
  unfold irefPOf
  simp [trPar, dyPar]

theorem tr_solves (t : ℝ) (ht : 0 ≤ t) : Solves (fun t y => SinglePhaseConstantVdc.rhs (connIf true (envC1 trPar (dyInp t) y))) trY t := by
  have he : HasDerivAt (fun s => Real.exp (-s)) (-Real.exp (-t)) t := by
    simpa using (hasDerivAt_neg t).exp
  have hle : Real.exp (-t) ≤ 1 := Real.exp_le_one_iff.2 (by linarith)
  have hpos := Real.exp_pos (-t)
  have hvt := trVt (Real.exp (-t))
  have hu : ¬ mSat (envC1 trPar (dyInp t) (trY t)) (envC1 trPar (dyInp t) (trY t)).ua (envC1 trPar (dyInp t) (trY t)).xa := not_lt.2 (trUnsat (Real.exp (-t)) hpos.le hle)
  have hvd := dyVd t
  have aw := C57_antiwindup_single_phase_constant_vdc (envC1 trPar (dyInp t) (trY t))
  have href := trRef t
  intro r
  show HasDerivAt (fun s => trY s r) (SinglePhaseConstantVdc.rhs (envC1 trPar (dyInp t) (trY t)) r) t
  cases r
  case iaR =>
    refine (he.const_add 1).congr_deriv ?_
    simp only [SinglePhaseConstantVdc.rhs, envC1, trY, dyInp, hvd, hvt, Env.base]
    simp [trPar, dyPar, weCalc]; ring
  case uaR =>
    rw [aw.2.2.1.plain hu, href]
    refine (he.const_mul (-2)).congr_deriv ?_
    simp only [envC1, trY, dyInp, Env.base]
    simp [trPar, dyPar]; ring
  case uaI =>
    rw [aw.2.2.2.1.plain hu, href]
    refine (hasDerivAt_const t _).congr_deriv ?_
    simp only [envC1, trY, dyInp, Env.base]
    simp [trPar, dyPar]
  case xaR =>
    rw [aw.1.plain hu]
    refine ((he.const_mul (19/5)).const_add 3).congr_deriv ?_
    simp only [envC1, trY, dyInp, Env.base]
    simp [trPar, dyPar]; ring
  case xaI =>
    rw [aw.2.1.plain hu]
    refine (hasDerivAt_const t _).congr_deriv ?_
    simp only [envC1, trY, dyInp, Env.base]
    simp
  all_goals
    simp only [trY]
    refine (hasDerivAt_const t _).congr_deriv ?_
    symm
    simp only [SinglePhaseConstantVdc.rhs, envC1, trY, dyInp, hvd, hvt, Env.base]
    simp [trPar, dyPar, weCalc]

/-- The hypotheses of C118 are met by a connected run with a non-zero reference and a transient that never quite ends. -/
theorem C118_example : trY 0 .iaR = 2 ∧ (∀ t, trY t .iaR ≠ 1) ∧
    PhaseTracks trPar 1 0 (1/2) 1 (fun t => ⟨trY t .iaR, trY t .iaI⟩) (fun t => ⟨trY t .uaR, trY t .uaI⟩) (fun t => ⟨trY t .xaR, trY t .xaI⟩) := by
  refine ⟨by simp [trY]; norm_num, fun t => ?_, ?_⟩
  · have := Real.exp_pos (-t)
    show 1 + Real.exp (-t) ≠ 1
    intro h; linarith
  · refine C118_tracks_single_constant_vdc trPar dyInp (fun _ => true) ?_ trY tr_solves 1 0 (1/2) 1 one_pos tendsto_const_nhds ?_ tendsto_const_nhds ?_ ?_
    · constructor <;> norm_num [trPar, dyPar]
    · refine tendsto_const_nhds.congr (fun t => ?_)
      show 0 = weCalc trPar.Kp_PLL (pll1 (1/2) 0 t 0).1 (-(2 * Real.pi * 60))
      rw [dyVd, weCalc]; ring
    · exact tendsto_const_nhds.congr (fun t => (trRef t).symm)
    · filter_upwards [eventually_ge_atTop 0] with t ht
      exact trUnsat (Real.exp (-t)) (Real.exp_pos _).le (Real.exp_le_one_iff.2 (by linarith))

end Ode
end PvDer
