import Verif.Lemmas.PhaseDefect
import Verif.Props.Balanced
import Verif.Props.AntiWindup
import Verif.Props.Pll

/-!
# C110: an inverter that starts balanced in a balanced grid stays balanced

Along every solution of the model (connected, disconnected, or switching between the two), as long as the modulation of phase a stays below its limit.
-/

namespace PvDer
namespace Ode
open Complex Phasor Set

/-- Phases b and c are the rotations of phase a by minus and plus 120 degrees. -/
def Bal (a b c : ℂ) : Prop := b = Phasor.ub a ∧ c = Phasor.uc a

/-- The nine phase quantities of a three-phase instance: currents, integrators and controller inputs are balanced. -/
def BalState (ia ib ic xa xb xc ua ub uc : ℂ) : Prop := Bal ia ib ic ∧ Bal xa xb xc ∧ Bal ua ub uc

theorem ub_eq (z : ℂ) : Phasor.ub z = Phasor.ub 1 * z := by unfold Phasor.ub; ring
theorem uc_eq (z : ℂ) : Phasor.uc z = Phasor.uc 1 * z := by unfold Phasor.uc; ring
theorem norm_ub1 : ‖Phasor.ub 1‖ = 1 := by simp [Phasor.ub, norm_ej]
theorem norm_uc1 : ‖Phasor.uc 1‖ = 1 := by simp [Phasor.uc, norm_ej]

variable (p : Par) (inp : ℝ → Inp) (c : ℝ → Bool)

/-- The three phases together: if a phase follows the filter and controller equations while its modulation is within the limit, with balanced voltages and references,
and phase a stays below the limit, the phases stay balanced. -/
theorem balanced_of_phases {T : ℝ} {V W : ℝ → ℝ} {va vb vc ra rb rc ia xa ua ib xb ub ic xc uc : ℝ → ℂ}
    (ha : ∀ t ∈ Icc 0 T, ‖(p.Kp_GCC : ℂ) * ua t + xa t‖ ≤ p.m_limit → Defect.Phase p.Lf p.Rf p.Kp_GCC p.Ki_GCC p.wp V W va ra ia xa ua t)
    (hb : ∀ t ∈ Icc 0 T, ‖(p.Kp_GCC : ℂ) * ub t + xb t‖ ≤ p.m_limit → Defect.Phase p.Lf p.Rf p.Kp_GCC p.Ki_GCC p.wp V W vb rb ib xb ub t)
    (hc : ∀ t ∈ Icc 0 T, ‖(p.Kp_GCC : ℂ) * uc t + xc t‖ ≤ p.m_limit → Defect.Phase p.Lf p.Rf p.Kp_GCC p.Ki_GCC p.wp V W vc rc ic xc uc t)
    (hlt : ∀ t ∈ Icc 0 T, ‖(p.Kp_GCC : ℂ) * ua t + xa t‖ < p.m_limit)
    (cb : ∀ t ∈ Icc 0 T, ContinuousAt ib t ∧ ContinuousAt xb t ∧ ContinuousAt ub t) (cc : ∀ t ∈ Icc 0 T, ContinuousAt ic t ∧ ContinuousAt xc t ∧ ContinuousAt uc t)
    (hv : ∀ t ∈ Icc 0 T, Bal (va t) (vb t) (vc t)) (hr : ∀ t ∈ Icc 0 T, Bal (ra t) (rb t) (rc t)) {M : ℝ} (hM : ∀ t ∈ Icc 0 T, |V t| ≤ M)
    (h0 : BalState (ia 0) (ib 0) (ic 0) (xa 0) (xb 0) (xc 0) (ua 0) (ub 0) (uc 0)) {t : ℝ} (ht : t ∈ Icc 0 T) :
    BalState (ia t) (ib t) (ic t) (xa t) (xb t) (xc t) (ua t) (ub t) (uc t) := by
  have ha' : ∀ t ∈ Icc 0 T, Defect.Phase p.Lf p.Rf p.Kp_GCC p.Ki_GCC p.wp V W va ra ia xa ua t := fun t ht => ha t ht (hlt t ht).le
  have kb := Defect.stays_of_unsat (ρ := Phasor.ub 1) ha' hb hlt norm_ub1 (fun t ht => (cb t ht).1) (fun t ht => (cb t ht).2.1) (fun t ht => (cb t ht).2.2)
    (fun t ht => ((hv t ht).1.trans (ub_eq _))) (fun t ht => ((hr t ht).1.trans (ub_eq _))) hM
    ⟨h0.1.1.trans (ub_eq _), h0.2.1.1.trans (ub_eq _), h0.2.2.1.trans (ub_eq _)⟩ ht
  have kc := Defect.stays_of_unsat (ρ := Phasor.uc 1) ha' hc hlt norm_uc1 (fun t ht => (cc t ht).1) (fun t ht => (cc t ht).2.1) (fun t ht => (cc t ht).2.2)
    (fun t ht => ((hv t ht).2.trans (uc_eq _))) (fun t ht => ((hr t ht).2.trans (uc_eq _))) hM
    ⟨h0.1.2.trans (uc_eq _), h0.2.1.2.trans (uc_eq _), h0.2.2.2.trans (uc_eq _)⟩ ht
  exact ⟨⟨kb.1.trans (ub_eq _).symm, kc.1.trans (uc_eq _).symm⟩, ⟨kb.2.1.trans (ub_eq _).symm, kc.2.1.trans (uc_eq _).symm⟩,
    ⟨kb.2.2.trans (ub_eq _).symm, kc.2.2.trans (uc_eq _).symm⟩⟩

/-- The current references are balanced, connected or not. -/
theorem connIf_refs (c : Bool) (e : Env) (h : Bal e.ia_ref e.ib_ref e.ic_ref) : Bal (connIf c e).ia_ref (connIf c e).ib_ref (connIf c e).ic_ref := by
  cases c
  · simp [connIf, disc, Bal, Phasor.ub, Phasor.uc]
  · exact h

/-- One phase of one class: from the real equations of the model (plain integrators) to the complex ones. -/
theorem phase_of {V W : ℝ → ℝ} {v r : ℝ → ℂ} {iR iI xR xI uR uI : ℝ → ℝ} {t : ℝ} {vt : ℂ}
    (hvt : vt = vtOf p ⟨uR t, uI t⟩ ⟨xR t, xI t⟩ (V t))
    (h1 : HasDerivAt iR (1 / p.Lf * (-p.Rf * iR t - (v t).re + vt.re) + W t * iI t) t)
    (h2 : HasDerivAt iI (1 / p.Lf * (-p.Rf * iI t - (v t).im + vt.im) - W t * iR t) t)
    (h3 : HasDerivAt xR (p.Ki_GCC * uR t) t) (h4 : HasDerivAt xI (p.Ki_GCC * uI t) t)
    (h5 : HasDerivAt uR (p.wp * (-uR t + (r t).re - iR t)) t) (h6 : HasDerivAt uI (p.wp * (-uI t + (r t).im - iI t)) t) :
    Defect.Phase p.Lf p.Rf p.Kp_GCC p.Ki_GCC p.wp V W v r (fun s => ⟨iR s, iI s⟩) (fun s => ⟨xR s, xI s⟩) (fun s => ⟨uR s, uI s⟩) t := by
  subst hvt
  refine ⟨(Defect.hasDerivAt_mk h1 h2).congr_deriv ?_, (Defect.hasDerivAt_mk h3 h4).congr_deriv ?_, (Defect.hasDerivAt_mk h5 h6).congr_deriv ?_⟩
  · apply Complex.ext <;> simp [vtOf, duty]
  · apply Complex.ext <;> simp
  · apply Complex.ext <;> simp

/-- A differentiable DC voltage is bounded on a time interval. -/
theorem bounded_on {f : ℝ → ℝ} {T : ℝ} (h : ∀ t ∈ Icc 0 T, ContinuousAt f t) : ∃ M, ∀ t ∈ Icc 0 T, |f t| ≤ M := by
  obtain ⟨M, hM⟩ := isCompact_Icc.exists_bound_of_continuousOn (s := Icc 0 T) (f := f) (fun t ht => (h t ht).continuousWithinAt)
  exact ⟨M, fun t ht => by simpa using hM t ht⟩

theorem continuousAt_mk {f g : ℝ → ℝ} {a b t : ℝ} (hf : HasDerivAt f a t) (hg : HasDerivAt g b t) : ContinuousAt (fun s => (⟨f s, g s⟩ : ℂ)) t :=
  (Defect.hasDerivAt_mk hf hg).continuousAt

/-- Attributes of the state that `disc` does not touch. -/
theorem connIf_state (c : Bool) (e : Env) : (connIf c e).ia = e.ia ∧ (connIf c e).ib = e.ib ∧ (connIf c e).ic = e.ic ∧ (connIf c e).xa = e.xa ∧
    (connIf c e).xb = e.xb ∧ (connIf c e).xc = e.xc ∧ (connIf c e).ua = e.ua ∧ (connIf c e).ub = e.ub ∧ (connIf c e).uc = e.uc ∧
    (connIf c e).va = e.va ∧ (connIf c e).vb = e.vb ∧ (connIf c e).vc = e.vc ∧ (connIf c e).vta = e.vta ∧ (connIf c e).vtb = e.vtb ∧
    (connIf c e).vtc = e.vtc ∧ (connIf c e).Lf = e.Lf ∧ (connIf c e).Rf = e.Rf ∧ (connIf c e).winv = e.winv ∧ (connIf c e).wbase = e.wbase ∧
    (connIf c e).Kp_GCC = e.Kp_GCC ∧ (connIf c e).Ki_GCC = e.Ki_GCC ∧ (connIf c e).wp = e.wp ∧ (connIf c e).m_limit = e.m_limit := by
  cases c <;> simp [connIf, disc]

/-- Currents, integrators and controller inputs of the three phases of a state vector are balanced. -/
def BalT (y : ThreePhase.V → ℝ) : Prop :=
  BalState ⟨y .iaR, y .iaI⟩ ⟨y .ibR, y .ibI⟩ ⟨y .icR, y .icI⟩ ⟨y .xaR, y .xaI⟩ ⟨y .xbR, y .xbI⟩ ⟨y .xcR, y .xcI⟩ ⟨y .uaR, y .uaI⟩ ⟨y .ubR, y .ubI⟩ ⟨y .ucR, y .ucI⟩
/-- see `BalT`. -/
def BalN (y : ThreePhaseNoVrmsFilter.V → ℝ) : Prop :=
  BalState ⟨y .iaR, y .iaI⟩ ⟨y .ibR, y .ibI⟩ ⟨y .icR, y .icI⟩ ⟨y .xaR, y .xaI⟩ ⟨y .xbR, y .xbI⟩ ⟨y .xcR, y .xcI⟩ ⟨y .uaR, y .uaI⟩ ⟨y .ubR, y .ubI⟩ ⟨y .ucR, y .ucI⟩
/-- see `BalT`. -/
def BalNumba (y : ThreePhaseNumba.V → ℝ) : Prop :=
  BalState ⟨y .iaR, y .iaI⟩ ⟨y .ibR, y .ibI⟩ ⟨y .icR, y .icI⟩ ⟨y .xaR, y .xaI⟩ ⟨y .xbR, y .xbI⟩ ⟨y .xcR, y .xcI⟩ ⟨y .uaR, y .uaI⟩ ⟨y .ubR, y .ubI⟩ ⟨y .ucR, y .ucI⟩
/-- see `BalT`. -/
def BalC3 (y : ThreePhaseConstantVdc.V → ℝ) : Prop :=
  BalState ⟨y .iaR, y .iaI⟩ ⟨y .ibR, y .ibI⟩ ⟨y .icR, y .icI⟩ ⟨y .xaR, y .xaI⟩ ⟨y .xbR, y .xbI⟩ ⟨y .xcR, y .xcI⟩ ⟨y .uaR, y .uaI⟩ ⟨y .ubR, y .ubI⟩ ⟨y .ucR, y .ucI⟩

/-- C110 for the class `ThreePhase`. -/
theorem C110_stays_balanced_three (Y : ℝ → ThreePhase.V → ℝ) (T : ℝ) (hg : ∀ t ∈ Icc 0 T, BalancedInp (inp t)) (h : ∀ t ∈ Icc 0 T, Solves (fun t y => ThreePhase.rhs (connIf (c t) (envT p (inp t) y))) Y t)
    (hm : ∀ t ∈ Icc 0 T, ‖duty p ⟨Y t .uaR, Y t .uaI⟩ ⟨Y t .xaR, Y t .xaI⟩‖ < p.m_limit) (h0 : BalT (Y 0)) : ∀ t ∈ Icc 0 T, BalT (Y t) := by
  intro t ht
  obtain ⟨M, hM⟩ := bounded_on (f := fun t => Y t .Vdc) (T := T) (fun s hs => (h s hs .Vdc).continuousAt)
  refine balanced_of_phases p (V := fun t => Y t .Vdc) (W := fun t => (envT p (inp t) (Y t)).winv / p.wbase)
    (va := fun t => (inp t).va) (vb := fun t => (inp t).vb) (vc := fun t => (inp t).vc)
    (ra := fun t => (connIf (c t) (envT p (inp t) (Y t))).ia_ref) (rb := fun t => (connIf (c t) (envT p (inp t) (Y t))).ib_ref)
    (rc := fun t => (connIf (c t) (envT p (inp t) (Y t))).ic_ref)
    (ia := fun t => ⟨Y t .iaR, Y t .iaI⟩) (xa := fun t => ⟨Y t .xaR, Y t .xaI⟩) (ua := fun t => ⟨Y t .uaR, Y t .uaI⟩)
    (ib := fun t => ⟨Y t .ibR, Y t .ibI⟩) (xb := fun t => ⟨Y t .xbR, Y t .xbI⟩) (ub := fun t => ⟨Y t .ubR, Y t .ubI⟩)
    (ic := fun t => ⟨Y t .icR, Y t .icI⟩) (xc := fun t => ⟨Y t .xcR, Y t .xcI⟩) (uc := fun t => ⟨Y t .ucR, Y t .ucI⟩)
    ?_ ?_ ?_ hm (fun s hs => ?_) (fun s hs => ?_) hg (fun s hs => connIf_refs _ _ ⟨rfl, rfl⟩) hM h0 ht
  · intro s hs hsat
    have cs := connIf_state (c s) (envT p (inp s) (Y s))
    have hd := h s hs
    have aw := C57_antiwindup_three_phase (connIf (c s) (envT p (inp s) (Y s)))
    have ns : ¬ mSat (connIf (c s) (envT p (inp s) (Y s))) (connIf (c s) (envT p (inp s) (Y s))).ua (connIf (c s) (envT p (inp s) (Y s))).xa := by
      simp only [mSat, cs]; exact not_lt.2 hsat
    have e3 := aw.1.plain ns
    have e4 := aw.2.1.plain ns
    have e5 := aw.2.2.1.plain ns
    have e6 := aw.2.2.2.1.plain ns
    refine phase_of p (vt := (envT p (inp s) (Y s)).vta) rfl ((hd .iaR).congr_deriv ?_) ((hd .iaI).congr_deriv ?_) ((hd .xaR).congr_deriv ?_) ((hd .xaI).congr_deriv ?_)
      ((hd .uaR).congr_deriv ?_) ((hd .uaI).congr_deriv ?_)
    · simp only [ThreePhase.rhs, cs]; rfl
    · simp only [ThreePhase.rhs, cs]; rfl
    · beta_reduce; rw [e3]; simp only [cs]; rfl
    · beta_reduce; rw [e4]; simp only [cs]; rfl
    · beta_reduce; rw [e5]; simp only [cs]; rfl
    · beta_reduce; rw [e6]; simp only [cs]; rfl
  · intro s hs hsat
    have cs := connIf_state (c s) (envT p (inp s) (Y s))
    have hd := h s hs
    have aw := C57_antiwindup_three_phase (connIf (c s) (envT p (inp s) (Y s)))
    have ns : ¬ mSat (connIf (c s) (envT p (inp s) (Y s))) (connIf (c s) (envT p (inp s) (Y s))).ub (connIf (c s) (envT p (inp s) (Y s))).xb := by
      simp only [mSat, cs]; exact not_lt.2 hsat
    have e3 := aw.2.2.2.2.1.plain ns
    have e4 := aw.2.2.2.2.2.1.plain ns
    have e5 := aw.2.2.2.2.2.2.1.plain ns
    have e6 := aw.2.2.2.2.2.2.2.1.plain ns
    refine phase_of p (vt := (envT p (inp s) (Y s)).vtb) rfl ((hd .ibR).congr_deriv ?_) ((hd .ibI).congr_deriv ?_) ((hd .xbR).congr_deriv ?_) ((hd .xbI).congr_deriv ?_)
      ((hd .ubR).congr_deriv ?_) ((hd .ubI).congr_deriv ?_)
    · simp only [ThreePhase.rhs, cs]; rfl
    · simp only [ThreePhase.rhs, cs]; rfl
    · beta_reduce; rw [e3]; simp only [cs]; rfl
    · beta_reduce; rw [e4]; simp only [cs]; rfl
    · beta_reduce; rw [e5]; simp only [cs]; rfl
    · beta_reduce; rw [e6]; simp only [cs]; rfl
  · intro s hs hsat
    have cs := connIf_state (c s) (envT p (inp s) (Y s))
    have hd := h s hs
    have aw := C57_antiwindup_three_phase (connIf (c s) (envT p (inp s) (Y s)))
    have ns : ¬ mSat (connIf (c s) (envT p (inp s) (Y s))) (connIf (c s) (envT p (inp s) (Y s))).uc (connIf (c s) (envT p (inp s) (Y s))).xc := by
      simp only [mSat, cs]; exact not_lt.2 hsat
    have e3 := aw.2.2.2.2.2.2.2.2.1.plain ns
    have e4 := aw.2.2.2.2.2.2.2.2.2.1.plain ns
    have e5 := aw.2.2.2.2.2.2.2.2.2.2.1.plain ns
    have e6 := aw.2.2.2.2.2.2.2.2.2.2.2.1.plain ns
    refine phase_of p (vt := (envT p (inp s) (Y s)).vtc) rfl ((hd .icR).congr_deriv ?_) ((hd .icI).congr_deriv ?_) ((hd .xcR).congr_deriv ?_) ((hd .xcI).congr_deriv ?_)
      ((hd .ucR).congr_deriv ?_) ((hd .ucI).congr_deriv ?_)
    · simp only [ThreePhase.rhs, cs]; rfl
    · simp only [ThreePhase.rhs, cs]; rfl
    · beta_reduce; rw [e3]; simp only [cs]; rfl
    · beta_reduce; rw [e4]; simp only [cs]; rfl
    · beta_reduce; rw [e5]; simp only [cs]; rfl
    · beta_reduce; rw [e6]; simp only [cs]; rfl
  · exact ⟨continuousAt_mk (h s hs .ibR) (h s hs .ibI), continuousAt_mk (h s hs .xbR) (h s hs .xbI), continuousAt_mk (h s hs .ubR) (h s hs .ubI)⟩
  · exact ⟨continuousAt_mk (h s hs .icR) (h s hs .icI), continuousAt_mk (h s hs .xcR) (h s hs .xcI), continuousAt_mk (h s hs .ucR) (h s hs .ucI)⟩

/-- C110 for the class `ThreePhaseNoVrmsFilter`. -/
theorem C110_stays_balanced_three_no_filter (Y : ℝ → ThreePhaseNoVrmsFilter.V → ℝ) (T : ℝ) (hg : ∀ t ∈ Icc 0 T, BalancedInp (inp t)) (h : ∀ t ∈ Icc 0 T, Solves (fun t y => ThreePhaseNoVrmsFilter.rhs (connIf (c t) (envN p (inp t) y))) Y t)
    (hm : ∀ t ∈ Icc 0 T, ‖duty p ⟨Y t .uaR, Y t .uaI⟩ ⟨Y t .xaR, Y t .xaI⟩‖ < p.m_limit) (h0 : BalN (Y 0)) : ∀ t ∈ Icc 0 T, BalN (Y t) := by
  intro t ht
  obtain ⟨M, hM⟩ := bounded_on (f := fun t => Y t .Vdc) (T := T) (fun s hs => (h s hs .Vdc).continuousAt)
  refine balanced_of_phases p (V := fun t => Y t .Vdc) (W := fun t => (envN p (inp t) (Y t)).winv / p.wbase)
    (va := fun t => (inp t).va) (vb := fun t => (inp t).vb) (vc := fun t => (inp t).vc)
    (ra := fun t => (connIf (c t) (envN p (inp t) (Y t))).ia_ref) (rb := fun t => (connIf (c t) (envN p (inp t) (Y t))).ib_ref)
    (rc := fun t => (connIf (c t) (envN p (inp t) (Y t))).ic_ref)
    (ia := fun t => ⟨Y t .iaR, Y t .iaI⟩) (xa := fun t => ⟨Y t .xaR, Y t .xaI⟩) (ua := fun t => ⟨Y t .uaR, Y t .uaI⟩)
    (ib := fun t => ⟨Y t .ibR, Y t .ibI⟩) (xb := fun t => ⟨Y t .xbR, Y t .xbI⟩) (ub := fun t => ⟨Y t .ubR, Y t .ubI⟩)
    (ic := fun t => ⟨Y t .icR, Y t .icI⟩) (xc := fun t => ⟨Y t .xcR, Y t .xcI⟩) (uc := fun t => ⟨Y t .ucR, Y t .ucI⟩)
    ?_ ?_ ?_ hm (fun s hs => ?_) (fun s hs => ?_) hg (fun s hs => connIf_refs _ _ ⟨rfl, rfl⟩) hM h0 ht
  · intro s hs hsat
    have cs := connIf_state (c s) (envN p (inp s) (Y s))
    have hd := h s hs
    have aw := C57_antiwindup_no_filter (connIf (c s) (envN p (inp s) (Y s)))
    have ns : ¬ mSat (connIf (c s) (envN p (inp s) (Y s))) (connIf (c s) (envN p (inp s) (Y s))).ua (connIf (c s) (envN p (inp s) (Y s))).xa := by
      simp only [mSat, cs]; exact not_lt.2 hsat
    have e3 := aw.1.plain ns
    have e4 := aw.2.1.plain ns
    have e5 := aw.2.2.1.plain ns
    have e6 := aw.2.2.2.1.plain ns
    refine phase_of p (vt := (envN p (inp s) (Y s)).vta) rfl ((hd .iaR).congr_deriv ?_) ((hd .iaI).congr_deriv ?_) ((hd .xaR).congr_deriv ?_) ((hd .xaI).congr_deriv ?_)
      ((hd .uaR).congr_deriv ?_) ((hd .uaI).congr_deriv ?_)
    · simp only [ThreePhaseNoVrmsFilter.rhs, cs]; rfl
    · simp only [ThreePhaseNoVrmsFilter.rhs, cs]; rfl
    · beta_reduce; rw [e3]; simp only [cs]; rfl
    · beta_reduce; rw [e4]; simp only [cs]; rfl
    · beta_reduce; rw [e5]; simp only [cs]; rfl
    · beta_reduce; rw [e6]; simp only [cs]; rfl
  · intro s hs hsat
    have cs := connIf_state (c s) (envN p (inp s) (Y s))
    have hd := h s hs
    have aw := C57_antiwindup_no_filter (connIf (c s) (envN p (inp s) (Y s)))
    have ns : ¬ mSat (connIf (c s) (envN p (inp s) (Y s))) (connIf (c s) (envN p (inp s) (Y s))).ub (connIf (c s) (envN p (inp s) (Y s))).xb := by
      simp only [mSat, cs]; exact not_lt.2 hsat
    have e3 := aw.2.2.2.2.1.plain ns
    have e4 := aw.2.2.2.2.2.1.plain ns
    have e5 := aw.2.2.2.2.2.2.1.plain ns
    have e6 := aw.2.2.2.2.2.2.2.1.plain ns
    refine phase_of p (vt := (envN p (inp s) (Y s)).vtb) rfl ((hd .ibR).congr_deriv ?_) ((hd .ibI).congr_deriv ?_) ((hd .xbR).congr_deriv ?_) ((hd .xbI).congr_deriv ?_)
      ((hd .ubR).congr_deriv ?_) ((hd .ubI).congr_deriv ?_)
    · simp only [ThreePhaseNoVrmsFilter.rhs, cs]; rfl
    · simp only [ThreePhaseNoVrmsFilter.rhs, cs]; rfl
    · beta_reduce; rw [e3]; simp only [cs]; rfl
    · beta_reduce; rw [e4]; simp only [cs]; rfl
    · beta_reduce; rw [e5]; simp only [cs]; rfl
    · beta_reduce; rw [e6]; simp only [cs]; rfl
  · intro s hs hsat
    have cs := connIf_state (c s) (envN p (inp s) (Y s))
    have hd := h s hs
    have aw := C57_antiwindup_no_filter (connIf (c s) (envN p (inp s) (Y s)))
    have ns : ¬ mSat (connIf (c s) (envN p (inp s) (Y s))) (connIf (c s) (envN p (inp s) (Y s))).uc (connIf (c s) (envN p (inp s) (Y s))).xc := by
      simp only [mSat, cs]; exact not_lt.2 hsat
    have e3 := aw.2.2.2.2.2.2.2.2.1.plain ns
    have e4 := aw.2.2.2.2.2.2.2.2.2.1.plain ns
    have e5 := aw.2.2.2.2.2.2.2.2.2.2.1.plain ns
    have e6 := aw.2.2.2.2.2.2.2.2.2.2.2.1.plain ns
    refine phase_of p (vt := (envN p (inp s) (Y s)).vtc) rfl ((hd .icR).congr_deriv ?_) ((hd .icI).congr_deriv ?_) ((hd .xcR).congr_deriv ?_) ((hd .xcI).congr_deriv ?_)
      ((hd .ucR).congr_deriv ?_) ((hd .ucI).congr_deriv ?_)
    · simp only [ThreePhaseNoVrmsFilter.rhs, cs]; rfl
    · simp only [ThreePhaseNoVrmsFilter.rhs, cs]; rfl
    · beta_reduce; rw [e3]; simp only [cs]; rfl
    · beta_reduce; rw [e4]; simp only [cs]; rfl
    · beta_reduce; rw [e5]; simp only [cs]; rfl
    · beta_reduce; rw [e6]; simp only [cs]; rfl
  · exact ⟨continuousAt_mk (h s hs .ibR) (h s hs .ibI), continuousAt_mk (h s hs .xbR) (h s hs .xbI), continuousAt_mk (h s hs .ubR) (h s hs .ubI)⟩
  · exact ⟨continuousAt_mk (h s hs .icR) (h s hs .icI), continuousAt_mk (h s hs .xcR) (h s hs .xcI), continuousAt_mk (h s hs .ucR) (h s hs .ucI)⟩

/-- C110 for the class `ThreePhaseNumba`. -/
theorem C110_stays_balanced_three_numba (Y : ℝ → ThreePhaseNumba.V → ℝ) (T : ℝ) (hg : ∀ t ∈ Icc 0 T, BalancedInp (inp t)) (h : ∀ t ∈ Icc 0 T, Solves (fun t y => ThreePhaseNumba.rhs (connIf (c t) (envNumba p (inp t) y))) Y t)
    (hm : ∀ t ∈ Icc 0 T, ‖duty p ⟨Y t .uaR, Y t .uaI⟩ ⟨Y t .xaR, Y t .xaI⟩‖ < p.m_limit) (h0 : BalNumba (Y 0)) : ∀ t ∈ Icc 0 T, BalNumba (Y t) := by
  intro t ht
  obtain ⟨M, hM⟩ := bounded_on (f := fun t => Y t .Vdc) (T := T) (fun s hs => (h s hs .Vdc).continuousAt)
  refine balanced_of_phases p (V := fun t => Y t .Vdc) (W := fun t => (envNumba p (inp t) (Y t)).winv / p.wbase)
    (va := fun t => (inp t).va) (vb := fun t => (inp t).vb) (vc := fun t => (inp t).vc)
    (ra := fun t => (connIf (c t) (envNumba p (inp t) (Y t))).ia_ref) (rb := fun t => (connIf (c t) (envNumba p (inp t) (Y t))).ib_ref)
    (rc := fun t => (connIf (c t) (envNumba p (inp t) (Y t))).ic_ref)
    (ia := fun t => ⟨Y t .iaR, Y t .iaI⟩) (xa := fun t => ⟨Y t .xaR, Y t .xaI⟩) (ua := fun t => ⟨Y t .uaR, Y t .uaI⟩)
    (ib := fun t => ⟨Y t .ibR, Y t .ibI⟩) (xb := fun t => ⟨Y t .xbR, Y t .xbI⟩) (ub := fun t => ⟨Y t .ubR, Y t .ubI⟩)
    (ic := fun t => ⟨Y t .icR, Y t .icI⟩) (xc := fun t => ⟨Y t .xcR, Y t .xcI⟩) (uc := fun t => ⟨Y t .ucR, Y t .ucI⟩)
    ?_ ?_ ?_ hm (fun s hs => ?_) (fun s hs => ?_) hg (fun s hs => connIf_refs _ _ ⟨rfl, rfl⟩) hM h0 ht
  · intro s hs hsat
    have cs := connIf_state (c s) (envNumba p (inp s) (Y s))
    have hd := h s hs
    have aw := C57_antiwindup_numba (connIf (c s) (envNumba p (inp s) (Y s)))
    have ns : ¬ mSat (connIf (c s) (envNumba p (inp s) (Y s))) (connIf (c s) (envNumba p (inp s) (Y s))).ua (connIf (c s) (envNumba p (inp s) (Y s))).xa := by
      simp only [mSat, cs]; exact not_lt.2 hsat
    have e3 := aw.1.plain ns
    have e4 := aw.2.1.plain ns
    have e5 := aw.2.2.1.plain ns
    have e6 := aw.2.2.2.1.plain ns
    refine phase_of p (vt := (envNumba p (inp s) (Y s)).vta) rfl ((hd .iaR).congr_deriv ?_) ((hd .iaI).congr_deriv ?_) ((hd .xaR).congr_deriv ?_) ((hd .xaI).congr_deriv ?_)
      ((hd .uaR).congr_deriv ?_) ((hd .uaI).congr_deriv ?_)
    · simp only [ThreePhaseNumba.rhs, cs]; rfl
    · simp only [ThreePhaseNumba.rhs, cs]; rfl
    · beta_reduce; rw [e3]; simp only [cs]; rfl
    · beta_reduce; rw [e4]; simp only [cs]; rfl
    · beta_reduce; rw [e5]; simp only [cs]; rfl
    · beta_reduce; rw [e6]; simp only [cs]; rfl
  · intro s hs hsat
    have cs := connIf_state (c s) (envNumba p (inp s) (Y s))
    have hd := h s hs
    have aw := C57_antiwindup_numba (connIf (c s) (envNumba p (inp s) (Y s)))
    have ns : ¬ mSat (connIf (c s) (envNumba p (inp s) (Y s))) (connIf (c s) (envNumba p (inp s) (Y s))).ub (connIf (c s) (envNumba p (inp s) (Y s))).xb := by
      simp only [mSat, cs]; exact not_lt.2 hsat
    have e3 := aw.2.2.2.2.1.plain ns
    have e4 := aw.2.2.2.2.2.1.plain ns
    have e5 := aw.2.2.2.2.2.2.1.plain ns
    have e6 := aw.2.2.2.2.2.2.2.1.plain ns
    refine phase_of p (vt := (envNumba p (inp s) (Y s)).vtb) rfl ((hd .ibR).congr_deriv ?_) ((hd .ibI).congr_deriv ?_) ((hd .xbR).congr_deriv ?_) ((hd .xbI).congr_deriv ?_)
      ((hd .ubR).congr_deriv ?_) ((hd .ubI).congr_deriv ?_)
    · simp only [ThreePhaseNumba.rhs, cs]; rfl
    · simp only [ThreePhaseNumba.rhs, cs]; rfl
    · beta_reduce; rw [e3]; simp only [cs]; rfl
    · beta_reduce; rw [e4]; simp only [cs]; rfl
    · beta_reduce; rw [e5]; simp only [cs]; rfl
    · beta_reduce; rw [e6]; simp only [cs]; rfl
  · intro s hs hsat
    have cs := connIf_state (c s) (envNumba p (inp s) (Y s))
    have hd := h s hs
    have aw := C57_antiwindup_numba (connIf (c s) (envNumba p (inp s) (Y s)))
    have ns : ¬ mSat (connIf (c s) (envNumba p (inp s) (Y s))) (connIf (c s) (envNumba p (inp s) (Y s))).uc (connIf (c s) (envNumba p (inp s) (Y s))).xc := by
      simp only [mSat, cs]; exact not_lt.2 hsat
    have e3 := aw.2.2.2.2.2.2.2.2.1.plain ns
    have e4 := aw.2.2.2.2.2.2.2.2.2.1.plain ns
    have e5 := aw.2.2.2.2.2.2.2.2.2.2.1.plain ns
    have e6 := aw.2.2.2.2.2.2.2.2.2.2.2.1.plain ns
    refine phase_of p (vt := (envNumba p (inp s) (Y s)).vtc) rfl ((hd .icR).congr_deriv ?_) ((hd .icI).congr_deriv ?_) ((hd .xcR).congr_deriv ?_) ((hd .xcI).congr_deriv ?_)
      ((hd .ucR).congr_deriv ?_) ((hd .ucI).congr_deriv ?_)
    · simp only [ThreePhaseNumba.rhs, cs]; rfl
    · simp only [ThreePhaseNumba.rhs, cs]; rfl
    · beta_reduce; rw [e3]; simp only [cs]; rfl
    · beta_reduce; rw [e4]; simp only [cs]; rfl
    · beta_reduce; rw [e5]; simp only [cs]; rfl
    · beta_reduce; rw [e6]; simp only [cs]; rfl
  · exact ⟨continuousAt_mk (h s hs .ibR) (h s hs .ibI), continuousAt_mk (h s hs .xbR) (h s hs .xbI), continuousAt_mk (h s hs .ubR) (h s hs .ubI)⟩
  · exact ⟨continuousAt_mk (h s hs .icR) (h s hs .icI), continuousAt_mk (h s hs .xcR) (h s hs .xcI), continuousAt_mk (h s hs .ucR) (h s hs .ucI)⟩

/-- C110 for the class `ThreePhaseConstantVdc`. -/
theorem C110_stays_balanced_three_constant_vdc (Y : ℝ → ThreePhaseConstantVdc.V → ℝ) (T : ℝ) (hg : ∀ t ∈ Icc 0 T, BalancedInp (inp t)) (M : ℝ) (hM : ∀ t ∈ Icc 0 T, |(inp t).Vdc0| ≤ M)
    (h : ∀ t ∈ Icc 0 T, Solves (fun t y => ThreePhaseConstantVdc.rhs (connIf (c t) (envC3 p (inp t) y))) Y t)
    (hm : ∀ t ∈ Icc 0 T, ‖duty p ⟨Y t .uaR, Y t .uaI⟩ ⟨Y t .xaR, Y t .xaI⟩‖ < p.m_limit) (h0 : BalC3 (Y 0)) : ∀ t ∈ Icc 0 T, BalC3 (Y t) := by
  intro t ht
  refine balanced_of_phases p (V := fun t => (inp t).Vdc0) (W := fun t => (envC3 p (inp t) (Y t)).winv / p.wbase)
    (va := fun t => (inp t).va) (vb := fun t => (inp t).vb) (vc := fun t => (inp t).vc)
    (ra := fun t => (connIf (c t) (envC3 p (inp t) (Y t))).ia_ref) (rb := fun t => (connIf (c t) (envC3 p (inp t) (Y t))).ib_ref)
    (rc := fun t => (connIf (c t) (envC3 p (inp t) (Y t))).ic_ref)
    (ia := fun t => ⟨Y t .iaR, Y t .iaI⟩) (xa := fun t => ⟨Y t .xaR, Y t .xaI⟩) (ua := fun t => ⟨Y t .uaR, Y t .uaI⟩)
    (ib := fun t => ⟨Y t .ibR, Y t .ibI⟩) (xb := fun t => ⟨Y t .xbR, Y t .xbI⟩) (ub := fun t => ⟨Y t .ubR, Y t .ubI⟩)
    (ic := fun t => ⟨Y t .icR, Y t .icI⟩) (xc := fun t => ⟨Y t .xcR, Y t .xcI⟩) (uc := fun t => ⟨Y t .ucR, Y t .ucI⟩)
    ?_ ?_ ?_ hm (fun s hs => ?_) (fun s hs => ?_) hg (fun s hs => connIf_refs _ _ ⟨rfl, rfl⟩) hM h0 ht
  · intro s hs hsat
    have cs := connIf_state (c s) (envC3 p (inp s) (Y s))
    have hd := h s hs
    have aw := C57_antiwindup_three_phase_constant_vdc (connIf (c s) (envC3 p (inp s) (Y s)))
    have ns : ¬ mSat (connIf (c s) (envC3 p (inp s) (Y s))) (connIf (c s) (envC3 p (inp s) (Y s))).ua (connIf (c s) (envC3 p (inp s) (Y s))).xa := by
      simp only [mSat, cs]; exact not_lt.2 hsat
    have e3 := aw.1.plain ns
    have e4 := aw.2.1.plain ns
    have e5 := aw.2.2.1.plain ns
    have e6 := aw.2.2.2.1.plain ns
    refine phase_of p (vt := (envC3 p (inp s) (Y s)).vta) rfl ((hd .iaR).congr_deriv ?_) ((hd .iaI).congr_deriv ?_) ((hd .xaR).congr_deriv ?_) ((hd .xaI).congr_deriv ?_)
      ((hd .uaR).congr_deriv ?_) ((hd .uaI).congr_deriv ?_)
    · simp only [ThreePhaseConstantVdc.rhs, cs]; rfl
    · simp only [ThreePhaseConstantVdc.rhs, cs]; rfl
    · beta_reduce; rw [e3]; simp only [cs]; rfl
    · beta_reduce; rw [e4]; simp only [cs]; rfl
    · beta_reduce; rw [e5]; simp only [cs]; rfl
    · beta_reduce; rw [e6]; simp only [cs]; rfl
  · intro s hs hsat
    have cs := connIf_state (c s) (envC3 p (inp s) (Y s))
    have hd := h s hs
    have aw := C57_antiwindup_three_phase_constant_vdc (connIf (c s) (envC3 p (inp s) (Y s)))
    have ns : ¬ mSat (connIf (c s) (envC3 p (inp s) (Y s))) (connIf (c s) (envC3 p (inp s) (Y s))).ub (connIf (c s) (envC3 p (inp s) (Y s))).xb := by
      simp only [mSat, cs]; exact not_lt.2 hsat
    have e3 := aw.2.2.2.2.1.plain ns
    have e4 := aw.2.2.2.2.2.1.plain ns
    have e5 := aw.2.2.2.2.2.2.1.plain ns
    have e6 := aw.2.2.2.2.2.2.2.1.plain ns
    refine phase_of p (vt := (envC3 p (inp s) (Y s)).vtb) rfl ((hd .ibR).congr_deriv ?_) ((hd .ibI).congr_deriv ?_) ((hd .xbR).congr_deriv ?_) ((hd .xbI).congr_deriv ?_)
      ((hd .ubR).congr_deriv ?_) ((hd .ubI).congr_deriv ?_)
    · simp only [ThreePhaseConstantVdc.rhs, cs]; rfl
    · simp only [ThreePhaseConstantVdc.rhs, cs]; rfl
    · beta_reduce; rw [e3]; simp only [cs]; rfl
    · beta_reduce; rw [e4]; simp only [cs]; rfl
    · beta_reduce; rw [e5]; simp only [cs]; rfl
    · beta_reduce; rw [e6]; simp only [cs]; rfl
  · intro s hs hsat
    have cs := connIf_state (c s) (envC3 p (inp s) (Y s))
    have hd := h s hs
    have aw := C57_antiwindup_three_phase_constant_vdc (connIf (c s) (envC3 p (inp s) (Y s)))
    have ns : ¬ mSat (connIf (c s) (envC3 p (inp s) (Y s))) (connIf (c s) (envC3 p (inp s) (Y s))).uc (connIf (c s) (envC3 p (inp s) (Y s))).xc := by
      simp only [mSat, cs]; exact not_lt.2 hsat
    have e3 := aw.2.2.2.2.2.2.2.2.1.plain ns
    have e4 := aw.2.2.2.2.2.2.2.2.2.1.plain ns
    have e5 := aw.2.2.2.2.2.2.2.2.2.2.1.plain ns
    have e6 := aw.2.2.2.2.2.2.2.2.2.2.2.1.plain ns
    refine phase_of p (vt := (envC3 p (inp s) (Y s)).vtc) rfl ((hd .icR).congr_deriv ?_) ((hd .icI).congr_deriv ?_) ((hd .xcR).congr_deriv ?_) ((hd .xcI).congr_deriv ?_)
      ((hd .ucR).congr_deriv ?_) ((hd .ucI).congr_deriv ?_)
    · simp only [ThreePhaseConstantVdc.rhs, cs]; rfl
    · simp only [ThreePhaseConstantVdc.rhs, cs]; rfl
    · beta_reduce; rw [e3]; simp only [cs]; rfl
    · beta_reduce; rw [e4]; simp only [cs]; rfl
    · beta_reduce; rw [e5]; simp only [cs]; rfl
    · beta_reduce; rw [e6]; simp only [cs]; rfl
  · exact ⟨continuousAt_mk (h s hs .ibR) (h s hs .ibI), continuousAt_mk (h s hs .xbR) (h s hs .xbI), continuousAt_mk (h s hs .ubR) (h s hs .ubI)⟩
  · exact ⟨continuousAt_mk (h s hs .icR) (h s hs .icI), continuousAt_mk (h s hs .xcR) (h s hs .xcI), continuousAt_mk (h s hs .ucR) (h s hs .ucI)⟩

/-- The states of the balanced class inside those of the three-phase class. -/
def phaseA (y : ThreePhaseNoVrmsFilter.V → ℝ) : ThreePhaseBalanced.V → ℝ
  | .iaR => y .iaR | .iaI => y .iaI | .xaR => y .xaR | .xaI => y .xaI | .uaR => y .uaR | .uaI => y .uaI
  | .Vdc => y .Vdc | .xDC => y .xDC | .xQ => y .xQ | .xPLL => y .xPLL | .wte => y .wte

/-- A balanced three-phase state is the rotation of its phase a. -/
theorem lift_phaseA {y : ThreePhaseNoVrmsFilter.V → ℝ} (h : BalN y) : lift (phaseA y) = y := by
  obtain ⟨⟨h1, h2⟩, ⟨h3, h4⟩, ⟨h5, h6⟩⟩ := h
  funext r
  cases r <;> first | rfl | simp only [lift, phaseA, ← h1, ← h2, ← h3, ← h4, ← h5, ← h6]

/-- C110: under the same conditions the three-phase simulation is the simulation of the balanced class: its phase a, DC link and controller states solve the balanced
model, and the other phases are its rotations, at every time. -/
theorem C110_is_balanced_model (Y : ℝ → ThreePhaseNoVrmsFilter.V → ℝ) (T : ℝ) (hg : ∀ t ∈ Icc 0 T, BalancedInp (inp t))
    (h : ∀ t ∈ Icc 0 T, Solves (fun t y => ThreePhaseNoVrmsFilter.rhs (connIf (c t) (envN p (inp t) y))) Y t)
    (hm : ∀ t ∈ Icc 0 T, ‖duty p ⟨Y t .uaR, Y t .uaI⟩ ⟨Y t .xaR, Y t .xaI⟩‖ < p.m_limit) (h0 : BalN (Y 0)) : ∀ t ∈ Icc 0 T,
    Solves (fun t y => ThreePhaseBalanced.rhs (connIf (c t) (envB p (inp t) y))) (fun s => phaseA (Y s)) t ∧ Y t = lift (phaseA (Y t)) := by
  intro t ht
  have hb := C110_stays_balanced_three_no_filter p inp c Y T hg h hm h0 t ht
  refine ⟨fun r => ?_, (lift_phaseA hb).symm⟩
  have e : envN p (inp t) (Y t) = envB p (inp t) (phaseA (Y t)) := by
    conv_lhs => rw [← lift_phaseA hb]
    exact C76_same_quantities p (inp t) (hg t ht) _
  have hd := h t ht
  unfold Solves at hd
  simp only [e] at hd
  cases r
  case iaR => exact hd .iaR
  case iaI => exact hd .iaI
  case xaR => exact hd .xaR
  case xaI => exact hd .xaI
  case uaR => exact hd .uaR
  case uaI => exact hd .uaI
  case Vdc => exact hd .Vdc
  case xDC => exact hd .xDC
  case xQ => exact hd .xQ
  case xPLL => exact hd .xPLL
  case wte => exact hd .wte

/-- C110: the balance is kept for whole simulations only because it is kept from the beginning: with phase b zero and phase a not, the state is not balanced. -/
example : ¬ Bal 1 0 0 := fun h => by
  have := congrArg norm h.1
  rw [norm_ub1] at this; simp at this

end Ode
end PvDer
