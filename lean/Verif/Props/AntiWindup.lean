import Verif.Lemmas.OdeEx
import Mathlib.Tactic.Positivity

/-!
# C57: anti-windup of every controller of every model class
-/

namespace PvDer
namespace Ode
open Complex

/-- What the anti-windup switch of one integrator promises: `x` its state, `dx` its derivative, `free` the derivative of the plain integrator. -/
structure AntiWindup (saturated : Prop) (x dx free : ℝ) : Prop where
  /-- outside the limit the state does not move away from zero -/
  inward : saturated → dx * x ≤ 0
  /-- inside the limit the integrator is plain -/
  plain : ¬ saturated → dx = free
  /-- outside the limit an inward move is not slowed down -/
  released : saturated → free * x < 0 → dx = free
  /-- the derivative is the plain one or zero -/
  shape : dx = 0 ∨ dx = free

theorem sign_ne_mul {a b : ℝ} (h : SignType.sign a ≠ SignType.sign b) : a * b ≤ 0 := by
  rcases lt_trichotomy a 0 with ha | ha | ha <;> rcases lt_trichotomy b 0 with hb | hb | hb
  · exact absurd (by rw [sign_neg ha, sign_neg hb]) h
  · simp [hb]
  · exact (mul_neg_of_neg_of_pos ha hb).le
  · simp [ha]
  · simp [ha]
  · simp [ha]
  · exact (mul_neg_of_pos_of_neg ha hb).le
  · simp [hb]
  · exact absurd (by rw [sign_pos ha, sign_pos hb]) h

theorem aw_intro (n lim x f : ℝ) :
    AntiWindup (n > lim) x (if n > lim then (if SignType.sign f = SignType.sign x then 0 else f) else f) f := by
  by_cases h : n > lim
  · simp only [if_pos h]
    by_cases hs : SignType.sign f = SignType.sign x
    · simp only [if_pos hs]
      refine ⟨fun _ => by simp, fun hn => absurd h hn, fun _ hf => ?_, Or.inl rfl⟩
      exfalso
      rcases lt_trichotomy x 0 with hx | hx | hx
      · rw [sign_neg hx] at hs; have := sign_eq_neg_one_iff.1 hs; nlinarith
      · rw [hx] at hf; simp at hf
      · rw [sign_pos hx] at hs; have := sign_eq_one_iff.1 hs; nlinarith
    · simp only [if_neg hs]
      exact ⟨fun _ => sign_ne_mul hs, fun hn => absurd h hn, fun _ _ => rfl, Or.inr rfl⟩
  · simp only [if_neg h]
    exact ⟨fun hn => absurd hn h, fun _ => rfl, fun hn => absurd hn h, Or.inr rfl⟩

/-- Saturation of the current controller of one phase: modulation magnitude above its limit. -/
def mSat (e : Env) (u x : ℂ) : Prop := ‖(e.Kp_GCC : ℂ) * u + x‖ > e.m_limit

/-- Current reference computed by the outer loops with a DC voltage controller, and with an active power controller. -/
noncomputable def irefD (e : Env) : ℂ := ((e.xDC + e.Kp_DC * (e.Vdc_ref - e.Vdc) : ℝ) : ℂ) + I * ((e.xQ - e.Kp_Q * (e.Q_ref - e.S_PCC.im) : ℝ) : ℂ)
/-- see `irefD`. -/
noncomputable def irefP (e : Env) : ℂ := ((e.xP + e.Kp_P * (e.Ppv - e.S.re) : ℝ) : ℂ) + I * ((e.xQ - e.Kp_Q * (e.Q_ref - e.S_PCC.im) : ℝ) : ℂ)

/-- C57 for the class of `SinglePhase`: for all values of all attributes. -/
theorem C57_antiwindup_single_phase (e : Env) :
    AntiWindup (mSat e e.ua e.xa) e.xa.re (SinglePhase.rhs e .xaR) (e.Ki_GCC * e.ua.re) ∧
    AntiWindup (mSat e e.ua e.xa) e.xa.im (SinglePhase.rhs e .xaI) (e.Ki_GCC * e.ua.im) ∧
    AntiWindup (mSat e e.ua e.xa) e.ua.re (SinglePhase.rhs e .uaR) (e.wp * (-e.ua.re + e.ia_ref.re - e.ia.re)) ∧
    AntiWindup (mSat e e.ua e.xa) e.ua.im (SinglePhase.rhs e .uaI) (e.wp * (-e.ua.im + e.ia_ref.im - e.ia.im)) ∧
    AntiWindup (‖irefD e‖ > e.iref_limit) e.xDC (SinglePhase.rhs e .xDC) (e.Ki_DC * (e.Vdc_ref - e.Vdc)) ∧
    AntiWindup (‖irefD e‖ > e.iref_limit) e.xQ (SinglePhase.rhs e .xQ) (-e.Ki_Q * (e.Q_ref - e.S_PCC.im)) :=
  ⟨aw_intro _ _ _ _, aw_intro _ _ _ _, aw_intro _ _ _ _, aw_intro _ _ _ _, aw_intro _ _ _ _, aw_intro _ _ _ _⟩

/-- C57 for the class of `ThreePhase`: for all values of all attributes. -/
theorem C57_antiwindup_three_phase (e : Env) :
    AntiWindup (mSat e e.ua e.xa) e.xa.re (ThreePhase.rhs e .xaR) (e.Ki_GCC * e.ua.re) ∧
    AntiWindup (mSat e e.ua e.xa) e.xa.im (ThreePhase.rhs e .xaI) (e.Ki_GCC * e.ua.im) ∧
    AntiWindup (mSat e e.ua e.xa) e.ua.re (ThreePhase.rhs e .uaR) (e.wp * (-e.ua.re + e.ia_ref.re - e.ia.re)) ∧
    AntiWindup (mSat e e.ua e.xa) e.ua.im (ThreePhase.rhs e .uaI) (e.wp * (-e.ua.im + e.ia_ref.im - e.ia.im)) ∧
    AntiWindup (mSat e e.ub e.xb) e.xb.re (ThreePhase.rhs e .xbR) (e.Ki_GCC * e.ub.re) ∧
    AntiWindup (mSat e e.ub e.xb) e.xb.im (ThreePhase.rhs e .xbI) (e.Ki_GCC * e.ub.im) ∧
    AntiWindup (mSat e e.ub e.xb) e.ub.re (ThreePhase.rhs e .ubR) (e.wp * (-e.ub.re + e.ib_ref.re - e.ib.re)) ∧
    AntiWindup (mSat e e.ub e.xb) e.ub.im (ThreePhase.rhs e .ubI) (e.wp * (-e.ub.im + e.ib_ref.im - e.ib.im)) ∧
    AntiWindup (mSat e e.uc e.xc) e.xc.re (ThreePhase.rhs e .xcR) (e.Ki_GCC * e.uc.re) ∧
    AntiWindup (mSat e e.uc e.xc) e.xc.im (ThreePhase.rhs e .xcI) (e.Ki_GCC * e.uc.im) ∧
    AntiWindup (mSat e e.uc e.xc) e.uc.re (ThreePhase.rhs e .ucR) (e.wp * (-e.uc.re + e.ic_ref.re - e.ic.re)) ∧
    AntiWindup (mSat e e.uc e.xc) e.uc.im (ThreePhase.rhs e .ucI) (e.wp * (-e.uc.im + e.ic_ref.im - e.ic.im)) ∧
    AntiWindup (‖irefD e‖ > e.iref_limit) e.xDC (ThreePhase.rhs e .xDC) (e.Ki_DC * (e.Vdc_ref - e.Vdc)) ∧
    AntiWindup (‖irefD e‖ > e.iref_limit) e.xQ (ThreePhase.rhs e .xQ) (-e.Ki_Q * (e.Q_ref - e.S_PCC.im)) :=
  ⟨aw_intro _ _ _ _, aw_intro _ _ _ _, aw_intro _ _ _ _, aw_intro _ _ _ _, aw_intro _ _ _ _, aw_intro _ _ _ _, aw_intro _ _ _ _, aw_intro _ _ _ _, aw_intro _ _ _ _, aw_intro _ _ _ _, aw_intro _ _ _ _, aw_intro _ _ _ _, aw_intro _ _ _ _, aw_intro _ _ _ _⟩

/-- C57 for the class of `ThreePhaseNoVrmsFilter`: for all values of all attributes. -/
theorem C57_antiwindup_no_filter (e : Env) :
    AntiWindup (mSat e e.ua e.xa) e.xa.re (ThreePhaseNoVrmsFilter.rhs e .xaR) (e.Ki_GCC * e.ua.re) ∧
    AntiWindup (mSat e e.ua e.xa) e.xa.im (ThreePhaseNoVrmsFilter.rhs e .xaI) (e.Ki_GCC * e.ua.im) ∧
    AntiWindup (mSat e e.ua e.xa) e.ua.re (ThreePhaseNoVrmsFilter.rhs e .uaR) (e.wp * (-e.ua.re + e.ia_ref.re - e.ia.re)) ∧
    AntiWindup (mSat e e.ua e.xa) e.ua.im (ThreePhaseNoVrmsFilter.rhs e .uaI) (e.wp * (-e.ua.im + e.ia_ref.im - e.ia.im)) ∧
    AntiWindup (mSat e e.ub e.xb) e.xb.re (ThreePhaseNoVrmsFilter.rhs e .xbR) (e.Ki_GCC * e.ub.re) ∧
    AntiWindup (mSat e e.ub e.xb) e.xb.im (ThreePhaseNoVrmsFilter.rhs e .xbI) (e.Ki_GCC * e.ub.im) ∧
    AntiWindup (mSat e e.ub e.xb) e.ub.re (ThreePhaseNoVrmsFilter.rhs e .ubR) (e.wp * (-e.ub.re + e.ib_ref.re - e.ib.re)) ∧
    AntiWindup (mSat e e.ub e.xb) e.ub.im (ThreePhaseNoVrmsFilter.rhs e .ubI) (e.wp * (-e.ub.im + e.ib_ref.im - e.ib.im)) ∧
    AntiWindup (mSat e e.uc e.xc) e.xc.re (ThreePhaseNoVrmsFilter.rhs e .xcR) (e.Ki_GCC * e.uc.re) ∧
    AntiWindup (mSat e e.uc e.xc) e.xc.im (ThreePhaseNoVrmsFilter.rhs e .xcI) (e.Ki_GCC * e.uc.im) ∧
    AntiWindup (mSat e e.uc e.xc) e.uc.re (ThreePhaseNoVrmsFilter.rhs e .ucR) (e.wp * (-e.uc.re + e.ic_ref.re - e.ic.re)) ∧
    AntiWindup (mSat e e.uc e.xc) e.uc.im (ThreePhaseNoVrmsFilter.rhs e .ucI) (e.wp * (-e.uc.im + e.ic_ref.im - e.ic.im)) ∧
    AntiWindup (‖irefD e‖ > e.iref_limit) e.xDC (ThreePhaseNoVrmsFilter.rhs e .xDC) (e.Ki_DC * (e.Vdc_ref - e.Vdc)) ∧
    AntiWindup (‖irefD e‖ > e.iref_limit) e.xQ (ThreePhaseNoVrmsFilter.rhs e .xQ) (-e.Ki_Q * (e.Q_ref - e.S_PCC.im)) :=
  ⟨aw_intro _ _ _ _, aw_intro _ _ _ _, aw_intro _ _ _ _, aw_intro _ _ _ _, aw_intro _ _ _ _, aw_intro _ _ _ _, aw_intro _ _ _ _, aw_intro _ _ _ _, aw_intro _ _ _ _, aw_intro _ _ _ _, aw_intro _ _ _ _, aw_intro _ _ _ _, aw_intro _ _ _ _, aw_intro _ _ _ _⟩

/-- C57 for the class of `ThreePhaseNumba`: for all values of all attributes. -/
theorem C57_antiwindup_numba (e : Env) :
    AntiWindup (mSat e e.ua e.xa) e.xa.re (ThreePhaseNumba.rhs e .xaR) (e.Ki_GCC * e.ua.re) ∧
    AntiWindup (mSat e e.ua e.xa) e.xa.im (ThreePhaseNumba.rhs e .xaI) (e.Ki_GCC * e.ua.im) ∧
    AntiWindup (mSat e e.ua e.xa) e.ua.re (ThreePhaseNumba.rhs e .uaR) (e.wp * (-e.ua.re + e.ia_ref.re - e.ia.re)) ∧
    AntiWindup (mSat e e.ua e.xa) e.ua.im (ThreePhaseNumba.rhs e .uaI) (e.wp * (-e.ua.im + e.ia_ref.im - e.ia.im)) ∧
    AntiWindup (mSat e e.ub e.xb) e.xb.re (ThreePhaseNumba.rhs e .xbR) (e.Ki_GCC * e.ub.re) ∧
    AntiWindup (mSat e e.ub e.xb) e.xb.im (ThreePhaseNumba.rhs e .xbI) (e.Ki_GCC * e.ub.im) ∧
    AntiWindup (mSat e e.ub e.xb) e.ub.re (ThreePhaseNumba.rhs e .ubR) (e.wp * (-e.ub.re + e.ib_ref.re - e.ib.re)) ∧
    AntiWindup (mSat e e.ub e.xb) e.ub.im (ThreePhaseNumba.rhs e .ubI) (e.wp * (-e.ub.im + e.ib_ref.im - e.ib.im)) ∧
    AntiWindup (mSat e e.uc e.xc) e.xc.re (ThreePhaseNumba.rhs e .xcR) (e.Ki_GCC * e.uc.re) ∧
    AntiWindup (mSat e e.uc e.xc) e.xc.im (ThreePhaseNumba.rhs e .xcI) (e.Ki_GCC * e.uc.im) ∧
    AntiWindup (mSat e e.uc e.xc) e.uc.re (ThreePhaseNumba.rhs e .ucR) (e.wp * (-e.uc.re + e.ic_ref.re - e.ic.re)) ∧
    AntiWindup (mSat e e.uc e.xc) e.uc.im (ThreePhaseNumba.rhs e .ucI) (e.wp * (-e.uc.im + e.ic_ref.im - e.ic.im)) ∧
    AntiWindup (‖irefD e‖ > e.iref_limit) e.xDC (ThreePhaseNumba.rhs e .xDC) (e.Ki_DC * (e.Vdc_ref - e.Vdc)) ∧
    AntiWindup (‖irefD e‖ > e.iref_limit) e.xQ (ThreePhaseNumba.rhs e .xQ) (-e.Ki_Q * (e.Q_ref - e.S_PCC.im)) :=
  ⟨aw_intro _ _ _ _, aw_intro _ _ _ _, aw_intro _ _ _ _, aw_intro _ _ _ _, aw_intro _ _ _ _, aw_intro _ _ _ _, aw_intro _ _ _ _, aw_intro _ _ _ _, aw_intro _ _ _ _, aw_intro _ _ _ _, aw_intro _ _ _ _, aw_intro _ _ _ _, aw_intro _ _ _ _, aw_intro _ _ _ _⟩

/-- C57 for the class of `ThreePhaseBalanced`: for all values of all attributes. -/
theorem C57_antiwindup_balanced (e : Env) :
    AntiWindup (mSat e e.ua e.xa) e.xa.re (ThreePhaseBalanced.rhs e .xaR) (e.Ki_GCC * e.ua.re) ∧
    AntiWindup (mSat e e.ua e.xa) e.xa.im (ThreePhaseBalanced.rhs e .xaI) (e.Ki_GCC * e.ua.im) ∧
    AntiWindup (mSat e e.ua e.xa) e.ua.re (ThreePhaseBalanced.rhs e .uaR) (e.wp * (-e.ua.re + e.ia_ref.re - e.ia.re)) ∧
    AntiWindup (mSat e e.ua e.xa) e.ua.im (ThreePhaseBalanced.rhs e .uaI) (e.wp * (-e.ua.im + e.ia_ref.im - e.ia.im)) ∧
    AntiWindup (‖irefD e‖ > e.iref_limit) e.xDC (ThreePhaseBalanced.rhs e .xDC) (e.Ki_DC * (e.Vdc_ref - e.Vdc)) ∧
    AntiWindup (‖irefD e‖ > e.iref_limit) e.xQ (ThreePhaseBalanced.rhs e .xQ) (-e.Ki_Q * (e.Q_ref - e.S_PCC.im)) :=
  ⟨aw_intro _ _ _ _, aw_intro _ _ _ _, aw_intro _ _ _ _, aw_intro _ _ _ _, aw_intro _ _ _ _, aw_intro _ _ _ _⟩

/-- C57 for the class of `SinglePhaseConstantVdc`: for all values of all attributes. -/
theorem C57_antiwindup_single_phase_constant_vdc (e : Env) :
    AntiWindup (mSat e e.ua e.xa) e.xa.re (SinglePhaseConstantVdc.rhs e .xaR) (e.Ki_GCC * e.ua.re) ∧
    AntiWindup (mSat e e.ua e.xa) e.xa.im (SinglePhaseConstantVdc.rhs e .xaI) (e.Ki_GCC * e.ua.im) ∧
    AntiWindup (mSat e e.ua e.xa) e.ua.re (SinglePhaseConstantVdc.rhs e .uaR) (e.wp * (-e.ua.re + e.ia_ref.re - e.ia.re)) ∧
    AntiWindup (mSat e e.ua e.xa) e.ua.im (SinglePhaseConstantVdc.rhs e .uaI) (e.wp * (-e.ua.im + e.ia_ref.im - e.ia.im)) ∧
    AntiWindup (‖irefP e‖ > e.iref_limit) e.xP (SinglePhaseConstantVdc.rhs e .xP) (e.Ki_P * (e.Ppv - e.S.re)) ∧
    AntiWindup (‖irefP e‖ > e.iref_limit) e.xQ (SinglePhaseConstantVdc.rhs e .xQ) (-e.Ki_Q * (e.Q_ref - e.S_PCC.im)) :=
  ⟨aw_intro _ _ _ _, aw_intro _ _ _ _, aw_intro _ _ _ _, aw_intro _ _ _ _, aw_intro _ _ _ _, aw_intro _ _ _ _⟩

/-- C57 for the class of `ThreePhaseConstantVdc`: for all values of all attributes. -/
theorem C57_antiwindup_three_phase_constant_vdc (e : Env) :
    AntiWindup (mSat e e.ua e.xa) e.xa.re (ThreePhaseConstantVdc.rhs e .xaR) (e.Ki_GCC * e.ua.re) ∧
    AntiWindup (mSat e e.ua e.xa) e.xa.im (ThreePhaseConstantVdc.rhs e .xaI) (e.Ki_GCC * e.ua.im) ∧
    AntiWindup (mSat e e.ua e.xa) e.ua.re (ThreePhaseConstantVdc.rhs e .uaR) (e.wp * (-e.ua.re + e.ia_ref.re - e.ia.re)) ∧
    AntiWindup (mSat e e.ua e.xa) e.ua.im (ThreePhaseConstantVdc.rhs e .uaI) (e.wp * (-e.ua.im + e.ia_ref.im - e.ia.im)) ∧
    AntiWindup (mSat e e.ub e.xb) e.xb.re (ThreePhaseConstantVdc.rhs e .xbR) (e.Ki_GCC * e.ub.re) ∧
    AntiWindup (mSat e e.ub e.xb) e.xb.im (ThreePhaseConstantVdc.rhs e .xbI) (e.Ki_GCC * e.ub.im) ∧
    AntiWindup (mSat e e.ub e.xb) e.ub.re (ThreePhaseConstantVdc.rhs e .ubR) (e.wp * (-e.ub.re + e.ib_ref.re - e.ib.re)) ∧
    AntiWindup (mSat e e.ub e.xb) e.ub.im (ThreePhaseConstantVdc.rhs e .ubI) (e.wp * (-e.ub.im + e.ib_ref.im - e.ib.im)) ∧
    AntiWindup (mSat e e.uc e.xc) e.xc.re (ThreePhaseConstantVdc.rhs e .xcR) (e.Ki_GCC * e.uc.re) ∧
    AntiWindup (mSat e e.uc e.xc) e.xc.im (ThreePhaseConstantVdc.rhs e .xcI) (e.Ki_GCC * e.uc.im) ∧
    AntiWindup (mSat e e.uc e.xc) e.uc.re (ThreePhaseConstantVdc.rhs e .ucR) (e.wp * (-e.uc.re + e.ic_ref.re - e.ic.re)) ∧
    AntiWindup (mSat e e.uc e.xc) e.uc.im (ThreePhaseConstantVdc.rhs e .ucI) (e.wp * (-e.uc.im + e.ic_ref.im - e.ic.im)) ∧
    AntiWindup (‖irefP e‖ > e.iref_limit) e.xP (ThreePhaseConstantVdc.rhs e .xP) (e.Ki_P * (e.Ppv - e.S.re)) ∧
    AntiWindup (‖irefP e‖ > e.iref_limit) e.xQ (ThreePhaseConstantVdc.rhs e .xQ) (-e.Ki_Q * (e.Q_ref - e.S_PCC.im)) :=
  ⟨aw_intro _ _ _ _, aw_intro _ _ _ _, aw_intro _ _ _ _, aw_intro _ _ _ _, aw_intro _ _ _ _, aw_intro _ _ _ _, aw_intro _ _ _ _, aw_intro _ _ _ _, aw_intro _ _ _ _, aw_intro _ _ _ _, aw_intro _ _ _ _, aw_intro _ _ _ _, aw_intro _ _ _ _, aw_intro _ _ _ _⟩

/-- A saturated controller pushed outwards is held, pushed inwards is free (the hypotheses of both clauses can be met). -/
example : ∃ e : Env, mSat e e.ua e.xa ∧ SinglePhase.rhs e .xaR = 0 ∧ e.Ki_GCC * e.ua.re ≠ 0 := by
  refine ⟨{ Env.base exPar exInp with ua := 1, xa := 1 }, ?_, ?_, ?_⟩
  · have : mSat { Env.base exPar exInp with ua := 1, xa := 1 } 1 1 := by
      unfold mSat
      refine lt_of_lt_of_le ?_ (abs_re_le_norm _)
      norm_num [Env.base, exPar, abs_of_pos]
    exact this
  · have H := (C57_antiwindup_single_phase { Env.base exPar exInp with ua := 1, xa := 1 }).1
    have hs : mSat { Env.base exPar exInp with ua := 1, xa := 1 } 1 1 := by
      unfold mSat
      refine lt_of_lt_of_le ?_ (abs_re_le_norm _)
      norm_num [Env.base, exPar, abs_of_pos]
    have h1 := H.inward hs
    rcases H.shape with h2 | h2
    · exact h2
    · rw [h2] at h1; norm_num [Env.base, exPar] at h1
  · norm_num [Env.base, exPar]

end Ode
end PvDer
