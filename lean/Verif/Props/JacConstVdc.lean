import Verif.Props.JacThreeMain

/-!
# C77: the Jacobian of the constant-Vdc single-phase class
-/

namespace PvDer
namespace Ode
open Grad Complex Phasor

set_option maxHeartbeats 4000000
set_option linter.unusedSimpArgs false

/-- An entry `g` of a row with the anti-windup switch: limited quantity `n`, limit `lim`, integrand `f`, state `x`. -/
noncomputable def awEntry (n lim f x g : ℝ) : ℝ := if n > lim then (if SignType.sign f = SignType.sign x then 0 else g) else g

namespace SinglePhaseConstantVdc

/-- The states at which the derivative vector is differentiable (see the single-phase version). -/
structure Regular (p : Par) (i : Inp) (y : V → ℝ) : Prop where
  a : ThreePhase.PhaseRegular p (envC1 p i y).ia (envC1 p i y).xa (envC1 p i y).ua (envC1 p i y).ia_ref
  r : ‖(envC1 p i y).ia_ref‖ ≠ p.iref_limit
  rSat : ‖(envC1 p i y).ia_ref‖ > p.iref_limit →
    (p.Ki_P * ((envC1 p i y).Ppv - (envC1 p i y).S.re) ≠ 0 ∧ y .xP ≠ 0) ∧ (-p.Ki_Q * (i.Q_ref - (envC1 p i y).S_PCC.im) ≠ 0 ∧ y .xQ ≠ 0)

/-- Partial derivatives of the inverter power. -/
noncomputable def dP (e : Env) : V → ℝ
  | .iaR => e.vta.re / 2
  | .iaI => e.vta.im / 2
  | .xaR => e.Vdc / 4 * e.ia.re
  | .xaI => e.Vdc / 4 * e.ia.im
  | .uaR => e.Kp_GCC * e.Vdc / 4 * e.ia.re
  | .uaI => e.Kp_GCC * e.Vdc / 4 * e.ia.im
  | _ => 0

/-- The corrected matrix. -/
noncomputable def fixed (e : Env) : V → V → ℝ
  | .iaI, .wte => -jac 0 0 e (fun _ _ => 0) .iaI .wte
  | .uaR, c => awEntry ‖(e.Kp_GCC : ℂ) * e.ua + e.xa‖ e.m_limit (e.wp * (-e.ua.re + e.ia_ref.re - e.ia.re)) e.ua.re
      ((match c with | .iaR => -e.wp | .uaR => -e.wp | .xP => e.wp | _ => 0) - e.wp * e.Kp_P * dP e c)
  | .xP, c => awEntry ‖e.ia_ref‖ e.iref_limit (e.Ki_P * (e.Ppv - e.S.re)) e.xP (-e.Ki_P * dP e c)
  | r, c => jac 0 0 e (fun _ _ => 0) r c

theorem row_grad (p : Par) (i : Inp) (y : V → ℝ) (h : Regular p i y) (r : V) :
    HasGrad (fun z => rhs (envC1 p i z) r) (fixed (envC1 p i y) r) y := by
  obtain ⟨⟨hma, hmaS⟩, hr', hrS⟩ := h
  simp only [envC1, Env.base, irefP_re, irefP_im, sPh_im, sPh_re, vt_re, vt_im] at hma hmaS
  simp only [envC1, Env.base, irefPOf, sPh_im, sPh_re, vt_re, vt_im] at hr' hrS
  have hvd := vd1_grad i.va i.w i.t V.wte y
  cases r
  case iaR =>
    simp only [rhs, envC1, Env.base, vt_re, vt_im, weCalc]
    apply HasGrad.congr
    · grad
    · intro j
      cases j <;> simp only [fixed, jac, jac_iaR, dvd1, reduceCtorEq, if_false, if_true] <;> ring
  case iaI =>
    simp only [rhs, envC1, Env.base, vt_re, vt_im, weCalc]
    apply HasGrad.congr
    · grad
    · intro j
      cases j <;> simp only [fixed, jac, jac_iaI, dvd1, reduceCtorEq, if_false, if_true] <;> ring
  case xaR =>
    simp only [rhs, envC1, Env.base]
    apply HasGrad.congr
    · apply HasGrad.aw
      · grad
      · simp only [mk_eq]; fun_prop
      · exact (HasGrad.proj _ _).cont
      · exact hma
      · exact fun h => (hmaS h).1
    · intro j
      cases j <;> simp only [fixed, jac, jac_xaR, reduceCtorEq, if_false, if_true] <;> split_ifs <;> ring
  case xaI =>
    simp only [rhs, envC1, Env.base]
    apply HasGrad.congr
    · apply HasGrad.aw
      · grad
      · simp only [mk_eq]; fun_prop
      · exact (HasGrad.proj _ _).cont
      · exact hma
      · exact fun h => (hmaS h).2.1
    · intro j
      cases j <;> simp only [fixed, jac, jac_xaI, reduceCtorEq, if_false, if_true] <;> split_ifs <;> ring
  case uaR =>
    simp only [rhs, envC1, Env.base, irefP_re, irefP_im, sPh_im, sPh_re, vt_re, vt_im]
    apply HasGrad.congr
    · apply HasGrad.aw
      · grad
      · simp only [mk_eq]; fun_prop
      · exact (HasGrad.proj _ _).cont
      · exact hma
      · exact fun h => (hmaS h).2.2.1
    · intro j
      cases j <;> simp only [fixed, awEntry, dP, reduceCtorEq, if_false, if_true, irefP_re, irefP_im, sPh_im, sPh_re, vt_re, vt_im] <;> split_ifs <;> ring
  case uaI =>
    simp only [rhs, envC1, Env.base, irefP_re, irefP_im, sPh_im, sPh_re, vt_re, vt_im]
    apply HasGrad.congr
    · apply HasGrad.aw
      · grad
      · simp only [mk_eq]; fun_prop
      · exact (HasGrad.proj _ _).cont
      · exact hma
      · exact fun h => (hmaS h).2.2.2
    · intro j
      cases j <;> simp only [fixed, jac, jac_uaI, reduceCtorEq, if_false, if_true, irefP_re, irefP_im, sPh_im, sPh_re, vt_re, vt_im] <;> split_ifs <;> ring
  case xP =>
    simp only [rhs, envC1, Env.base, sPh_im, sPh_re, vt_re, vt_im]
    apply HasGrad.congr
    · apply HasGrad.aw
      · grad
      · fun_prop
      · exact (HasGrad.proj _ _).cont
      · exact hr'
      · exact fun h => (hrS h).1
    · intro j
      cases j <;> simp only [fixed, awEntry, dP, irefPOf, reduceCtorEq, if_false, if_true, sPh_im, sPh_re, vt_re, vt_im] <;> split_ifs <;> ring
  case xQ =>
    simp only [rhs, envC1, Env.base, sPh_im, sPh_re, vt_re, vt_im]
    apply HasGrad.congr
    · apply HasGrad.aw
      · grad
      · fun_prop
      · exact (HasGrad.proj _ _).cont
      · exact hr'
      · exact fun h => (hrS h).2
    · intro j
      cases j <;> simp only [fixed, jac, jac_xQ, reduceCtorEq, if_false, if_true, sPh_im, sPh_re, vt_re, vt_im] <;> split_ifs <;> ring
  case xPLL =>
    simp only [rhs, envC1, Env.base, weCalc]
    apply HasGrad.congr
    · grad
    · intro j
      cases j <;> simp only [fixed, jac, jac_xPLL, dvd1, reduceCtorEq, if_false, if_true] <;> ring
  case wte =>
    simp only [rhs, envC1, Env.base, weCalc]
    apply HasGrad.congr
    · grad
    · intro j
      cases j <;> simp only [fixed, jac, jac_wte, dvd1, reduceCtorEq, if_false, if_true] <;> ring

/-- Entries that differ from the partial derivative: the active power feedback in rows `uaR` and `xP`, and the PLL angle in row `iaI`. -/
def Wrong (r c : V) : Prop := (r = .iaI ∧ c = .wte) ∨ ((r = .uaR ∨ r = .xP) ∧ c ∈ [V.iaR, .iaI, .xaR, .xaI, .uaR, .uaI])

theorem fixed_eq (s1 s2 : ℝ) (e : Env) (r c : V) (h : ¬ Wrong r c) : fixed e r c = jac s1 s2 e (fun _ _ => 0) r c := by
  unfold Wrong at h
  cases r <;> cases c <;> simp at h <;> first | rfl | (simp [fixed, awEntry, jac, jac_uaR, jac_xP, dP])

/-- C77, constant-Vdc single-phase class: every entry outside the list `Wrong` is the partial derivative.
Missing: the thirteen entries of `Wrong`, which are not the partial derivatives (`C77_const_vdc_single_active_power`, `C77_const_vdc_single_wrong`). -/
theorem C77_const_vdc_single_partial (p : Par) (i : Inp) (y : V → ℝ) (h : Regular p i y) (r c : V) (hrc : ¬ Wrong r c) :
    HasDerivAt (fun s => rhs (envC1 p i (Function.update y c s)) r) (jac lit1 lit2 (envC1 p i y) (fun _ _ => 0) r c) (y c) := by
  have := (row_grad p i y h r).partial c
  rwa [fixed_eq lit1 lit2 _ _ _ hrc] at this

/-- C77, constant-Vdc single-phase class: what the derivatives of the active power controller are while nothing is saturated. -/
theorem C77_const_vdc_single_active_power (p : Par) (i : Inp) (y : V → ℝ) (h : Regular p i y) (hr : ‖(envC1 p i y).ia_ref‖ ≤ p.iref_limit) :
    (∀ c, HasDerivAt (fun s => rhs (envC1 p i (Function.update y c s)) .xP) (-p.Ki_P * dP (envC1 p i y) c) (y c)) ∧
    jac lit1 lit2 (envC1 p i y) (fun _ _ => 0) .xP .iaR = p.Ki_P * i.va.im / 2 ∧
    jac lit1 lit2 (envC1 p i y) (fun _ _ => 0) .xP .iaI = -(p.Ki_P * i.va.re / 2) ∧
    (∀ c, c ≠ .iaR → c ≠ .iaI → jac lit1 lit2 (envC1 p i y) (fun _ _ => 0) .xP c = 0) := by
  refine ⟨fun c => ?_, ?_, ?_, ?_⟩
  · refine ((row_grad p i y h .xP).partial c).congr_deriv ?_
    have hn : ¬ (‖(envC1 p i y).ia_ref‖ > (envC1 p i y).iref_limit) := not_lt.mpr hr
    simp only [fixed, awEntry, if_neg hn]; rfl
  · have hn : ¬ (‖(envC1 p i y).ia_ref‖ > (envC1 p i y).iref_limit) := not_lt.mpr hr
    exact if_neg hn
  · have hn : ¬ (‖(envC1 p i y).ia_ref‖ > (envC1 p i y).iref_limit) := not_lt.mpr hr
    exact if_neg hn
  · intro c h1 h2
    cases c <;> first | exact absurd rfl h1 | exact absurd rfl h2 | rfl

/-- C77, constant-Vdc single-phase class: in particular the six entries of the controller states are missing whenever there is DC voltage, current and gain. -/
theorem C77_const_vdc_single_wrong (p : Par) (i : Inp) (y : V → ℝ) (h : Regular p i y) (hr : ‖(envC1 p i y).ia_ref‖ ≤ p.iref_limit)
    (hK : p.Ki_P ≠ 0) (hV : i.Vdc0 ≠ 0) (hi : y .iaR ≠ 0) :
    ¬ HasDerivAt (fun s => rhs (envC1 p i (Function.update y .xaR s)) .xP) (jac lit1 lit2 (envC1 p i y) (fun _ _ => 0) .xP .xaR) (y .xaR) := by
  intro H
  obtain ⟨h1, _, _, h4⟩ := C77_const_vdc_single_active_power p i y h hr
  have e := H.unique (h1 .xaR)
  rw [h4 .xaR (by decide) (by decide)] at e
  have : -p.Ki_P * (i.Vdc0 / 4 * y .iaR) = 0 := e.symm
  simp only [mul_eq_zero, neg_eq_zero, div_eq_zero_iff] at this
  norm_num at this; tauto

/-- C77, constant-Vdc single-phase class: the entry (iaI, wte) is the negative of the partial derivative, as in the single-phase class. -/
theorem C77_const_vdc_single_sign (p : Par) (i : Inp) (y : V → ℝ) (h : Regular p i y) :
    HasDerivAt (fun s => rhs (envC1 p i (Function.update y .wte s)) .iaI) (-jac lit1 lit2 (envC1 p i y) (fun _ _ => 0) .iaI .wte) (y .wte) :=
  (row_grad p i y h .iaI).partial .wte

/-- A state in normal operation. -/
noncomputable def exState : V → ℝ
  | .iaR => 4/5 | .iaI => 1/10 | .xaR => 9/10 | .xaI => 1/10 | .wte => 1/10 | _ => 0

/-- Parameters with zero proportional active power gain. -/
noncomputable def exParP : Par := { exPar with Kp_P := 0 }

/-- The hypotheses can be met. -/
theorem exState_regular : Regular exParP exInp exState ∧ ‖(envC1 exParP exInp exState).ia_ref‖ ≤ exParP.iref_limit := by
  have hm : ‖(exParP.Kp_GCC : ℂ) * (envC1 exParP exInp exState).ua + (envC1 exParP exInp exState).xa‖ ^ 2 = 82 / 100 := by
    rw [← normSq_eq_norm_sq, normSq_apply]; norm_num [envC1, exState, exParP, exPar]
  have hr : ‖(envC1 exParP exInp exState).ia_ref‖ ^ 2 = (1 / 200) ^ 2 := by
    rw [← normSq_eq_norm_sq, normSq_apply]; simp only [envC1, irefP_re, irefP_im, sPh_im]; norm_num [exState, exParP, exPar, exInp]
  have hlim : exParP.iref_limit = 3/2 := rfl
  have hr2 : ‖(envC1 exParP exInp exState).ia_ref‖ ≤ exParP.iref_limit := by
    rw [hlim]; nlinarith [norm_nonneg (envC1 exParP exInp exState).ia_ref]
  refine ⟨⟨⟨fun h => ?_, fun h => ?_⟩, fun h => ?_, fun h => absurd hr2 (not_le.mpr h)⟩, hr2⟩
  · rw [h] at hm; norm_num [exParP, exPar] at hm
  · exfalso; have : exParP.m_limit = 1 := rfl
    rw [this] at h; nlinarith [h]
  · rw [h] at hr; norm_num [exParP, exPar] at hr

example : ¬ HasDerivAt (fun s => rhs (envC1 exParP exInp (Function.update exState .xaR s)) .xP)
    (jac lit1 lit2 (envC1 exParP exInp exState) (fun _ _ => 0) .xP .xaR) (exState .xaR) :=
  C77_const_vdc_single_wrong _ _ _ exState_regular.1 exState_regular.2 (by norm_num [exParP, exPar]) (by norm_num [exInp]) (by norm_num [exState])

end SinglePhaseConstantVdc
end Ode
end PvDer
