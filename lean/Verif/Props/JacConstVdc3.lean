import Verif.Props.JacConstVdc

/-!
# C77: the Jacobian of the constant-Vdc three-phase class
-/

namespace PvDer
namespace Ode
open Grad Complex Phasor

set_option maxHeartbeats 4000000
set_option linter.unusedSimpArgs false

namespace ThreePhaseConstantVdc

/-- The states at which the derivative vector is differentiable (see the single-phase version). -/
structure Regular (p : Par) (i : Inp) (y : V → ℝ) : Prop where
  a : ThreePhase.PhaseRegular p (envC3 p i y).ia (envC3 p i y).xa (envC3 p i y).ua (envC3 p i y).ia_ref
  b : ThreePhase.PhaseRegular p (envC3 p i y).ib (envC3 p i y).xb (envC3 p i y).ub (envC3 p i y).ib_ref
  c : ThreePhase.PhaseRegular p (envC3 p i y).ic (envC3 p i y).xc (envC3 p i y).uc (envC3 p i y).ic_ref
  r : ‖(envC3 p i y).ia_ref‖ ≠ p.iref_limit
  rSat : ‖(envC3 p i y).ia_ref‖ > p.iref_limit →
    (p.Ki_P * ((envC3 p i y).Ppv - (envC3 p i y).S.re) ≠ 0 ∧ y .xP ≠ 0) ∧ (-p.Ki_Q * (i.Q_ref - (envC3 p i y).S_PCC.im) ≠ 0 ∧ y .xQ ≠ 0)

/-- Partial derivatives of the inverter active power. -/
noncomputable def dP (e : Env) : V → ℝ
  | .iaR => e.vta.re / 2
  | .iaI => e.vta.im / 2
  | .xaR => e.Vdc / 4 * e.ia.re
  | .xaI => e.Vdc / 4 * e.ia.im
  | .uaR => e.Kp_GCC * e.Vdc / 4 * e.ia.re
  | .uaI => e.Kp_GCC * e.Vdc / 4 * e.ia.im
  | .ibR => e.vtb.re / 2
  | .ibI => e.vtb.im / 2
  | .xbR => e.Vdc / 4 * e.ib.re
  | .xbI => e.Vdc / 4 * e.ib.im
  | .ubR => e.Kp_GCC * e.Vdc / 4 * e.ib.re
  | .ubI => e.Kp_GCC * e.Vdc / 4 * e.ib.im
  | .icR => e.vtc.re / 2
  | .icI => e.vtc.im / 2
  | .xcR => e.Vdc / 4 * e.ic.re
  | .xcI => e.Vdc / 4 * e.ic.im
  | .ucR => e.Kp_GCC * e.Vdc / 4 * e.ic.re
  | .ucI => e.Kp_GCC * e.Vdc / 4 * e.ic.im
  | _ => 0

/-- Partial derivatives of the reactive power at the point of common coupling. -/
noncomputable def dQ (e : Env) : V → ℝ
  | .iaR => e.va.im / 2
  | .iaI => -(e.va.re / 2)
  | .ibR => e.vb.im / 2
  | .ibI => -(e.vb.re / 2)
  | .icR => e.vc.im / 2
  | .icI => -(e.vc.re / 2)
  | _ => 0

/-- Partial derivatives of the active and reactive component of the phase a current reference. -/
noncomputable def dRefR (e : Env) (c : V) : ℝ := (if c = .xP then 1 else 0) - e.Kp_P * dP e c
/-- see `dRefR`. -/
noncomputable def dRefI (e : Env) (c : V) : ℝ := (if c = .xQ then 1 else 0) + e.Kp_Q * dQ e c

/-- Derivative of the PLL input with respect to the PLL angle. -/
noncomputable def dvd (e : Env) : ℝ := dvd3 (Real.sqrt 3 / 2) e.va e.vb e.vc e.wgrid_measured e.t e.wte

/-- The corrected matrix. -/
noncomputable def fixed (e : Env) : V → V → ℝ
  | .iaR, .wte => e.Kp_PLL * e.ia.im / e.wbase * dvd e
  | .iaI, .wte => -(e.Kp_PLL * e.ia.re / e.wbase * dvd e)
  | .xPLL, .wte => e.Ki_PLL * dvd e
  | .wte, .wte => e.Kp_PLL * dvd e
  | .xP, c => awEntry ‖e.ia_ref‖ e.iref_limit (e.Ki_P * (e.Ppv - e.S.re)) e.xP (-e.Ki_P * dP e c)
  | .xQ, c => awEntry ‖e.ia_ref‖ e.iref_limit (-e.Ki_Q * (e.Q_ref - e.S_PCC.im)) e.xQ (e.Ki_Q * dQ e c)
  | .uaR, c => awEntry ‖(e.Kp_GCC : ℂ) * e.ua + e.xa‖ e.m_limit (e.wp * (-e.ua.re + e.ia_ref.re - e.ia.re)) e.ua.re
      (e.wp * (-(if c = .uaR then 1 else 0) + dRefR e c - (if c = .iaR then 1 else 0)))
  | .uaI, c => awEntry ‖(e.Kp_GCC : ℂ) * e.ua + e.xa‖ e.m_limit (e.wp * (-e.ua.im + e.ia_ref.im - e.ia.im)) e.ua.im
      (e.wp * (-(if c = .uaI then 1 else 0) + dRefI e c - (if c = .iaI then 1 else 0)))
  | .ubR, c => awEntry ‖(e.Kp_GCC : ℂ) * e.ub + e.xb‖ e.m_limit (e.wp * (-e.ub.re + e.ib_ref.re - e.ib.re)) e.ub.re
      (e.wp * (-(if c = .ubR then 1 else 0) + (-(1 / 2) * dRefR e c + Real.sqrt 3 / 2 * dRefI e c) - (if c = .ibR then 1 else 0)))
  | .ubI, c => awEntry ‖(e.Kp_GCC : ℂ) * e.ub + e.xb‖ e.m_limit (e.wp * (-e.ub.im + e.ib_ref.im - e.ib.im)) e.ub.im
      (e.wp * (-(if c = .ubI then 1 else 0) + (-(1 / 2) * dRefI e c - Real.sqrt 3 / 2 * dRefR e c) - (if c = .ibI then 1 else 0)))
  | .ucR, c => awEntry ‖(e.Kp_GCC : ℂ) * e.uc + e.xc‖ e.m_limit (e.wp * (-e.uc.re + e.ic_ref.re - e.ic.re)) e.uc.re
      (e.wp * (-(if c = .ucR then 1 else 0) + (-(1 / 2) * dRefR e c - Real.sqrt 3 / 2 * dRefI e c) - (if c = .icR then 1 else 0)))
  | .ucI, c => awEntry ‖(e.Kp_GCC : ℂ) * e.uc + e.xc‖ e.m_limit (e.wp * (-e.uc.im + e.ic_ref.im - e.ic.im)) e.uc.im
      (e.wp * (-(if c = .ucI then 1 else 0) + (-(1 / 2) * dRefI e c + Real.sqrt 3 / 2 * dRefR e c) - (if c = .icI then 1 else 0)))
  | r, c => jac (Real.sqrt 3 / 2) (Real.sqrt 3 / 2) e (fun _ _ => 0) r c

theorem awEntry_congr {n lim f x g g' : ℝ} (h : g = g') :
    (if n > lim then (if SignType.sign f = SignType.sign x then 0 else g) else g) = awEntry n lim f x g' := by rw [h]; rfl

theorem row_grad (p : Par) (i : Inp) (y : V → ℝ) (h : Regular p i y) (r : V) :
    HasGrad (fun z => rhs (envC3 p i z) r) (fixed (envC3 p i y) r) y := by
  obtain ⟨⟨hma, hmaS⟩, ⟨hmb, hmbS⟩, ⟨hmc, hmcS⟩, hr', hrS⟩ := h
  simp only [envC3, Env.base, irefP_re, irefP_im, sCalc_im, sCalc_re, vt_re, vt_im, Ode.ub_re, Ode.ub_im, Ode.uc_re, Ode.uc_im] at hma hmaS hmb hmbS hmc hmcS
  simp only [envC3, Env.base, irefPOf, sCalc_im, sCalc_re, vt_re, vt_im] at hr' hrS
  have hvd := vd3_grad i.va i.vb i.vc i.w i.t V.wte y
  cases r
  case iaR =>
    simp only [rhs, envC3, Env.base, vt_re, vt_im, weCalc]
    apply HasGrad.congr
    · grad
    · intro j
      cases j <;> simp only [fixed, dvd, jac, jac_iaR, dvd3, reduceCtorEq, if_false, if_true] <;> ring
  case iaI =>
    simp only [rhs, envC3, Env.base, vt_re, vt_im, weCalc]
    apply HasGrad.congr
    · grad
    · intro j
      cases j <;> simp only [fixed, dvd, jac, jac_iaI, dvd3, reduceCtorEq, if_false, if_true] <;> ring
  case xaR =>
    simp only [rhs, envC3, Env.base]
    apply HasGrad.congr
    · apply HasGrad.aw
      · grad
      · simp only [mk_eq]; fun_prop
      · exact (HasGrad.proj _ _).cont
      · exact hma
      · exact fun h => (hmaS h).1
    · intro j
      cases j <;> simp only [fixed, jac, jac_xaR, reduceCtorEq, if_false, if_true] <;> split_ifs <;> ring
  case xaI =>
    simp only [rhs, envC3, Env.base]
    apply HasGrad.congr
    · apply HasGrad.aw
      · grad
      · simp only [mk_eq]; fun_prop
      · exact (HasGrad.proj _ _).cont
      · exact hma
      · exact fun h => (hmaS h).2.1
    · intro j
      cases j <;> simp only [fixed, jac, jac_xaI, reduceCtorEq, if_false, if_true] <;> split_ifs <;> ring
  case uaR =>
    simp only [rhs, envC3, Env.base, irefP_re, irefP_im, sCalc_im, sCalc_re, vt_re, vt_im, Ode.ub_re, Ode.ub_im, Ode.uc_re, Ode.uc_im]
    apply HasGrad.congr
    · apply HasGrad.aw
      · grad
      · simp only [mk_eq]; fun_prop
      · exact (HasGrad.proj _ _).cont
      · exact hma
      · exact fun h => (hmaS h).2.2.1
    · intro j
      simp only [fixed, irefP_re, irefP_im, sCalc_im, sCalc_re, vt_re, vt_im, Ode.ub_re, Ode.ub_im, Ode.uc_re, Ode.uc_im]
      refine awEntry_congr ?_
      cases j <;> simp only [dRefR, dRefI, dP, dQ, reduceCtorEq, if_false, if_true, vt_re, vt_im, mul_one, mul_zero, zero_mul, add_zero, zero_add, sub_zero,
        sub_self, neg_zero] <;> ring
  case uaI =>
    simp only [rhs, envC3, Env.base, irefP_re, irefP_im, sCalc_im, sCalc_re, vt_re, vt_im, Ode.ub_re, Ode.ub_im, Ode.uc_re, Ode.uc_im]
    apply HasGrad.congr
    · apply HasGrad.aw
      · grad
      · simp only [mk_eq]; fun_prop
      · exact (HasGrad.proj _ _).cont
      · exact hma
      · exact fun h => (hmaS h).2.2.2
    · intro j
      simp only [fixed, irefP_re, irefP_im, sCalc_im, sCalc_re, vt_re, vt_im, Ode.ub_re, Ode.ub_im, Ode.uc_re, Ode.uc_im]
      refine awEntry_congr ?_
      cases j <;> simp only [dRefR, dRefI, dP, dQ, reduceCtorEq, if_false, if_true, vt_re, vt_im, mul_one, mul_zero, zero_mul, add_zero, zero_add, sub_zero,
        sub_self, neg_zero] <;> ring
  case ibR =>
    simp only [rhs, envC3, Env.base, vt_re, vt_im, weCalc]
    apply HasGrad.congr
    · grad
    · intro j
      cases j <;> simp only [fixed, dvd, jac, jac_ibR, dvd3, reduceCtorEq, if_false, if_true] <;> ring
  case ibI =>
    simp only [rhs, envC3, Env.base, vt_re, vt_im, weCalc]
    apply HasGrad.congr
    · grad
    · intro j
      cases j <;> simp only [fixed, dvd, jac, jac_ibI, dvd3, reduceCtorEq, if_false, if_true] <;> ring
  case xbR =>
    simp only [rhs, envC3, Env.base]
    apply HasGrad.congr
    · apply HasGrad.aw
      · grad
      · simp only [mk_eq]; fun_prop
      · exact (HasGrad.proj _ _).cont
      · exact hmb
      · exact fun h => (hmbS h).1
    · intro j
      cases j <;> simp only [fixed, jac, jac_xbR, reduceCtorEq, if_false, if_true] <;> split_ifs <;> ring
  case xbI =>
    simp only [rhs, envC3, Env.base]
    apply HasGrad.congr
    · apply HasGrad.aw
      · grad
      · simp only [mk_eq]; fun_prop
      · exact (HasGrad.proj _ _).cont
      · exact hmb
      · exact fun h => (hmbS h).2.1
    · intro j
      cases j <;> simp only [fixed, jac, jac_xbI, reduceCtorEq, if_false, if_true] <;> split_ifs <;> ring
  case ubR =>
    simp only [rhs, envC3, Env.base, irefP_re, irefP_im, sCalc_im, sCalc_re, vt_re, vt_im, Ode.ub_re, Ode.ub_im, Ode.uc_re, Ode.uc_im]
    apply HasGrad.congr
    · apply HasGrad.aw
      · grad
      · simp only [mk_eq]; fun_prop
      · exact (HasGrad.proj _ _).cont
      · exact hmb
      · exact fun h => (hmbS h).2.2.1
    · intro j
      simp only [fixed, irefP_re, irefP_im, sCalc_im, sCalc_re, vt_re, vt_im, Ode.ub_re, Ode.ub_im, Ode.uc_re, Ode.uc_im]
      refine awEntry_congr ?_
      cases j <;> simp only [dRefR, dRefI, dP, dQ, reduceCtorEq, if_false, if_true, vt_re, vt_im, mul_one, mul_zero, zero_mul, add_zero, zero_add, sub_zero,
        sub_self, neg_zero] <;> ring
  case ubI =>
    simp only [rhs, envC3, Env.base, irefP_re, irefP_im, sCalc_im, sCalc_re, vt_re, vt_im, Ode.ub_re, Ode.ub_im, Ode.uc_re, Ode.uc_im]
    apply HasGrad.congr
    · apply HasGrad.aw
      · grad
      · simp only [mk_eq]; fun_prop
      · exact (HasGrad.proj _ _).cont
      · exact hmb
      · exact fun h => (hmbS h).2.2.2
    · intro j
      simp only [fixed, irefP_re, irefP_im, sCalc_im, sCalc_re, vt_re, vt_im, Ode.ub_re, Ode.ub_im, Ode.uc_re, Ode.uc_im]
      refine awEntry_congr ?_
      cases j <;> simp only [dRefR, dRefI, dP, dQ, reduceCtorEq, if_false, if_true, vt_re, vt_im, mul_one, mul_zero, zero_mul, add_zero, zero_add, sub_zero,
        sub_self, neg_zero] <;> ring
  case icR =>
    simp only [rhs, envC3, Env.base, vt_re, vt_im, weCalc]
    apply HasGrad.congr
    · grad
    · intro j
      cases j <;> simp only [fixed, dvd, jac, jac_icR, dvd3, reduceCtorEq, if_false, if_true] <;> ring
  case icI =>
    simp only [rhs, envC3, Env.base, vt_re, vt_im, weCalc]
    apply HasGrad.congr
    · grad
    · intro j
      cases j <;> simp only [fixed, dvd, jac, jac_icI, dvd3, reduceCtorEq, if_false, if_true] <;> ring
  case xcR =>
    simp only [rhs, envC3, Env.base]
    apply HasGrad.congr
    · apply HasGrad.aw
      · grad
      · simp only [mk_eq]; fun_prop
      · exact (HasGrad.proj _ _).cont
      · exact hmc
      · exact fun h => (hmcS h).1
    · intro j
      cases j <;> simp only [fixed, jac, jac_xcR, reduceCtorEq, if_false, if_true] <;> split_ifs <;> ring
  case xcI =>
    simp only [rhs, envC3, Env.base]
    apply HasGrad.congr
    · apply HasGrad.aw
      · grad
      · simp only [mk_eq]; fun_prop
      · exact (HasGrad.proj _ _).cont
      · exact hmc
      · exact fun h => (hmcS h).2.1
    · intro j
      cases j <;> simp only [fixed, jac, jac_xcI, reduceCtorEq, if_false, if_true] <;> split_ifs <;> ring
  case ucR =>
    simp only [rhs, envC3, Env.base, irefP_re, irefP_im, sCalc_im, sCalc_re, vt_re, vt_im, Ode.ub_re, Ode.ub_im, Ode.uc_re, Ode.uc_im]
    apply HasGrad.congr
    · apply HasGrad.aw
      · grad
      · simp only [mk_eq]; fun_prop
      · exact (HasGrad.proj _ _).cont
      · exact hmc
      · exact fun h => (hmcS h).2.2.1
    · intro j
      simp only [fixed, irefP_re, irefP_im, sCalc_im, sCalc_re, vt_re, vt_im, Ode.ub_re, Ode.ub_im, Ode.uc_re, Ode.uc_im]
      refine awEntry_congr ?_
      cases j <;> simp only [dRefR, dRefI, dP, dQ, reduceCtorEq, if_false, if_true, vt_re, vt_im, mul_one, mul_zero, zero_mul, add_zero, zero_add, sub_zero,
        sub_self, neg_zero] <;> ring
  case ucI =>
    simp only [rhs, envC3, Env.base, irefP_re, irefP_im, sCalc_im, sCalc_re, vt_re, vt_im, Ode.ub_re, Ode.ub_im, Ode.uc_re, Ode.uc_im]
    apply HasGrad.congr
    · apply HasGrad.aw
      · grad
      · simp only [mk_eq]; fun_prop
      · exact (HasGrad.proj _ _).cont
      · exact hmc
      · exact fun h => (hmcS h).2.2.2
    · intro j
      simp only [fixed, irefP_re, irefP_im, sCalc_im, sCalc_re, vt_re, vt_im, Ode.ub_re, Ode.ub_im, Ode.uc_re, Ode.uc_im]
      refine awEntry_congr ?_
      cases j <;> simp only [dRefR, dRefI, dP, dQ, reduceCtorEq, if_false, if_true, vt_re, vt_im, mul_one, mul_zero, zero_mul, add_zero, zero_add, sub_zero,
        sub_self, neg_zero] <;> ring
  case xP =>
    simp only [rhs, envC3, Env.base, sCalc_im, sCalc_re, vt_re, vt_im]
    apply HasGrad.congr
    · apply HasGrad.aw
      · grad
      · fun_prop
      · exact (HasGrad.proj _ _).cont
      · exact hr'
      · exact fun h => (hrS h).1
    · intro j
      simp only [fixed, irefPOf, sCalc_im, sCalc_re, vt_re, vt_im]
      refine awEntry_congr ?_
      cases j <;> simp only [dP, dQ, reduceCtorEq, if_false, if_true, vt_re, vt_im, mul_one, mul_zero, zero_mul, add_zero, zero_add, sub_zero,
        sub_self, neg_zero] <;> ring
  case xQ =>
    simp only [rhs, envC3, Env.base, sCalc_im, sCalc_re, vt_re, vt_im]
    apply HasGrad.congr
    · apply HasGrad.aw
      · grad
      · fun_prop
      · exact (HasGrad.proj _ _).cont
      · exact hr'
      · exact fun h => (hrS h).2
    · intro j
      simp only [fixed, irefPOf, sCalc_im, sCalc_re, vt_re, vt_im]
      refine awEntry_congr ?_
      cases j <;> simp only [dP, dQ, reduceCtorEq, if_false, if_true, vt_re, vt_im, mul_one, mul_zero, zero_mul, add_zero, zero_add, sub_zero,
        sub_self, neg_zero] <;> ring
  case xPLL =>
    simp only [rhs, envC3, Env.base, weCalc]
    apply HasGrad.congr
    · grad
    · intro j
      cases j <;> simp only [fixed, dvd, jac, jac_xPLL, reduceCtorEq, if_false, if_true] <;> ring
  case wte =>
    simp only [rhs, envC3, Env.base, weCalc]
    apply HasGrad.congr
    · grad
    · intro j
      cases j <;> simp only [fixed, dvd, jac, jac_wte, reduceCtorEq, if_false, if_true] <;> ring

/-- Entries that differ from the partial derivative: PLL angle in phase a and PLL rows, active power feedback, and the reactive power feedback of phases b and c in
rows `uaI` and `xQ`. -/
def Wrong (r c : V) : Prop :=
  (r ∈ [V.iaR, .iaI, .xPLL, .wte] ∧ c = .wte) ∨
  (r ∈ [V.uaR, .ubR, .ubI, .ucR, .ucI, .xP] ∧
    c ∈ [V.iaR, .iaI, .xaR, .xaI, .uaR, .uaI, .ibR, .ibI, .xbR, .xbI, .ubR, .ubI, .icR, .icI, .xcR, .xcI, .ucR, .ucI]) ∨
  (r ∈ [V.uaI, .xQ] ∧ c ∈ [V.ibR, .ibI, .icR, .icI])

instance (r c : V) : Decidable (Wrong r c) := by unfold Wrong; infer_instance

theorem fixed_eq (e : Env) (he : e.ia_ref = ((e.xP + e.Kp_P * (e.Ppv - e.S.re) : ℝ) : ℂ) + I * ((e.xQ - e.Kp_Q * (e.Q_ref - e.S_PCC.im) : ℝ) : ℂ)) (r c : V)
    (h : ¬ Wrong r c) : fixed e r c = jac (Real.sqrt 3 / 2) (Real.sqrt 3 / 2) e (fun _ _ => 0) r c := by
  cases r <;> cases c <;> first
    | rfl
    | (exfalso; revert h; decide)
    | (simp only [fixed, awEntry, dRefR, dRefI, dP, dQ, jac, jac_uaR, jac_uaI, jac_ubR, jac_ubI, jac_ucR, jac_ucI, jac_xP, jac_xQ, reduceCtorEq, if_false, if_true, ← he]
       split_ifs <;> ring)

/-- The constants for `√3/2` enter every entry affinely. -/
theorem jac_affine (s1 s2 : ℝ) (e : Env) (J : V → V → ℝ) (r c : V) :
    jac s1 s2 e J r c = jac 0 0 e J r c + s1 * (jac 1 0 e J r c - jac 0 0 e J r c) + s2 * (jac 0 1 e J r c - jac 0 0 e J r c) := by
  cases r <;> cases c <;>
    simp only [jac, jac_iaR, jac_iaI, jac_xaR, jac_xaI, jac_uaR, jac_uaI, jac_ibR, jac_ibI, jac_xbR, jac_xbI, jac_ubR, jac_ubI, jac_icR, jac_icI, jac_xcR, jac_xcI, jac_ucR, jac_ucI, jac_xP, jac_xQ, jac_xPLL, jac_wte] <;> first | ring1 | (split_ifs <;> ring1)

/-- C77, constant-Vdc three-phase class: every entry outside the list `Wrong` is the partial derivative, up to the decimal truncation of `√3/2`.
Missing: the entries of `Wrong` (`C77_const_vdc_three_derivatives` has the right values, `C77_const_vdc_three_active_power` and the following refutations). -/
theorem C77_const_vdc_three_partial (p : Par) (i : Inp) (y : V → ℝ) (h : Regular p i y) (r c : V) (hrc : ¬ Wrong r c) :
    ∃ d, HasDerivAt (fun s => rhs (envC3 p i (Function.update y c s)) r) d (y c) ∧
      |jac lit1 lit2 (envC3 p i y) (fun _ _ => 0) r c - d| ≤
        1 / 10 ^ 9 * (|jac 1 0 (envC3 p i y) (fun _ _ => 0) r c - jac 0 0 (envC3 p i y) (fun _ _ => 0) r c|
          + |jac 0 1 (envC3 p i y) (fun _ _ => 0) r c - jac 0 0 (envC3 p i y) (fun _ _ => 0) r c|) := by
  refine ⟨_, (row_grad p i y h r).partial c, ?_⟩
  rw [fixed_eq _ rfl _ _ hrc, jac_affine lit1, jac_affine (Real.sqrt 3 / 2)]
  have e1 : ∀ a b c s t s' t' : ℝ, a + s * b + t * c - (a + s' * b + t' * c) = (s - s') * b + (t - t') * c := by intros; ring
  rw [e1]
  refine (abs_add_le _ _).trans ?_
  rw [abs_mul, abs_mul, mul_add]
  refine add_le_add (mul_le_mul_of_nonneg_right lit1_close (abs_nonneg _)) (mul_le_mul_of_nonneg_right (lit2_close.trans (by norm_num)) (abs_nonneg _))

/-- C77, constant-Vdc three-phase class: the derivative of every component with respect to every state, while nothing is saturated, for the rows with wrong entries. -/
theorem C77_const_vdc_three_derivatives (p : Par) (i : Inp) (y : V → ℝ) (h : Regular p i y) (hr : ‖(envC3 p i y).ia_ref‖ ≤ p.iref_limit) (c : V) :
    HasDerivAt (fun s => rhs (envC3 p i (Function.update y c s)) .xP) (-p.Ki_P * dP (envC3 p i y) c) (y c) ∧
    HasDerivAt (fun s => rhs (envC3 p i (Function.update y c s)) .xQ) (p.Ki_Q * dQ (envC3 p i y) c) (y c) := by
  have hn : ¬ (‖(envC3 p i y).ia_ref‖ > (envC3 p i y).iref_limit) := not_lt.mpr hr
  constructor
  · refine ((row_grad p i y h .xP).partial c).congr_deriv ?_
    simp only [fixed, awEntry, if_neg hn]; rfl
  · refine ((row_grad p i y h .xQ).partial c).congr_deriv ?_
    simp only [fixed, awEntry, if_neg hn]; rfl

/-- C77, constant-Vdc three-phase class: the active power row lacks the controller states of every phase. -/
theorem C77_const_vdc_three_active_power (p : Par) (i : Inp) (y : V → ℝ) (h : Regular p i y) (hr : ‖(envC3 p i y).ia_ref‖ ≤ p.iref_limit)
    (hK : p.Ki_P ≠ 0) (hV : i.Vdc0 ≠ 0) (hi : y .iaR ≠ 0) :
    ¬ HasDerivAt (fun s => rhs (envC3 p i (Function.update y .xaR s)) .xP) (jac lit1 lit2 (envC3 p i y) (fun _ _ => 0) .xP .xaR) (y .xaR) := by
  intro H
  have e := H.unique (C77_const_vdc_three_derivatives p i y h hr .xaR).1
  have : -p.Ki_P * (i.Vdc0 / 4 * y .iaR) = 0 := e.symm
  simp only [mul_eq_zero, neg_eq_zero, div_eq_zero_iff] at this
  norm_num at this; tauto

/-- C77, constant-Vdc three-phase class: the reactive power row lacks phases b and c. -/
theorem C77_const_vdc_three_reactive_power (p : Par) (i : Inp) (y : V → ℝ) (h : Regular p i y) (hr : ‖(envC3 p i y).ia_ref‖ ≤ p.iref_limit)
    (hK : p.Ki_Q ≠ 0) (hv : i.vb.im ≠ 0) :
    ¬ HasDerivAt (fun s => rhs (envC3 p i (Function.update y .ibR s)) .xQ) (jac lit1 lit2 (envC3 p i y) (fun _ _ => 0) .xQ .ibR) (y .ibR) := by
  intro H
  have e := H.unique (C77_const_vdc_three_derivatives p i y h hr .ibR).2
  have : p.Ki_Q * (i.vb.im / 2) = 0 := e.symm
  simp only [mul_eq_zero, div_eq_zero_iff] at this
  norm_num at this; tauto

/-- C77, constant-Vdc three-phase class: the PLL entries use the single-phase formula; for a grid with voltage on phase a only the entry is three times too large or
worse: at angle zero it is `-Ki_PLL*|va|` where the derivative vanishes. -/
theorem C77_const_vdc_three_pll (p : Par) (i : Inp) (y : V → ℝ) (h : Regular p i y) (hb : i.vb = 0) (hc : i.vc = 0) (hv : i.va ≠ 0)
    (ht : i.w * i.t + arg i.va = 0) (hw : y .wte = 0) (hK : p.Ki_PLL ≠ 0) :
    ¬ HasDerivAt (fun s => rhs (envC3 p i (Function.update y .wte s)) .xPLL) (jac lit1 lit2 (envC3 p i y) (fun _ _ => 0) .xPLL .wte) (y .wte) := by
  intro H
  have e := H.unique ((row_grad p i y h .xPLL).partial .wte)
  have e1 : fixed (envC3 p i y) .xPLL .wte = 0 := by
    simp only [fixed, dvd, dvd3, envC3, Env.base, hb, hc, ht, hw]; simp
  have e2 : jac lit1 lit2 (envC3 p i y) (fun _ _ => 0) .xPLL .wte = p.Ki_PLL * ‖i.va‖ * -Real.cos (i.w * i.t + arg i.va - y .wte) := by
    rw [← cos_code]; rfl
  rw [e1, e2, ht, hw] at e
  simp at e
  tauto

/-- A state in normal operation. -/
noncomputable def exState : V → ℝ
  | .iaR => 4/5 | .iaI => 1/10 | .xaR => 9/10 | .xaI => 1/10 | .wte => 1/10 | _ => 0

/-- The hypotheses can be met. -/
theorem exState_regular : Regular SinglePhaseConstantVdc.exParP exInp exState ∧
    ‖(envC3 SinglePhaseConstantVdc.exParP exInp exState).ia_ref‖ ≤ SinglePhaseConstantVdc.exParP.iref_limit := by
  set q := SinglePhaseConstantVdc.exParP with hq
  have hm : ‖(q.Kp_GCC : ℂ) * (envC3 q exInp exState).ua + (envC3 q exInp exState).xa‖ ^ 2 = 82 / 100 := by
    rw [← normSq_eq_norm_sq, normSq_apply]; norm_num [envC3, exState, hq, SinglePhaseConstantVdc.exParP, exPar]
  have hmb : ‖(q.Kp_GCC : ℂ) * (envC3 q exInp exState).ub + (envC3 q exInp exState).xb‖ ^ 2 = 0 := by
    rw [← normSq_eq_norm_sq, normSq_apply]; norm_num [envC3, exState, hq, SinglePhaseConstantVdc.exParP, exPar]
  have hmc : ‖(q.Kp_GCC : ℂ) * (envC3 q exInp exState).uc + (envC3 q exInp exState).xc‖ ^ 2 = 0 := by
    rw [← normSq_eq_norm_sq, normSq_apply]; norm_num [envC3, exState, hq, SinglePhaseConstantVdc.exParP, exPar]
  have hr : ‖(envC3 q exInp exState).ia_ref‖ ^ 2 = (1 / 200) ^ 2 := by
    rw [← normSq_eq_norm_sq, normSq_apply]; simp only [envC3, irefP_re, irefP_im, sCalc_im]
    norm_num [exState, hq, SinglePhaseConstantVdc.exParP, exPar, exInp]
  have hlim : q.iref_limit = 3/2 := rfl
  have hml : q.m_limit = 1 := rfl
  have hr2 : ‖(envC3 q exInp exState).ia_ref‖ ≤ q.iref_limit := by
    rw [hlim]; nlinarith [norm_nonneg (envC3 q exInp exState).ia_ref]
  refine ⟨⟨⟨fun h => ?_, fun h => ?_⟩, ⟨fun h => ?_, fun h => ?_⟩, ⟨fun h => ?_, fun h => ?_⟩, fun h => ?_, fun h => absurd hr2 (not_le.mpr h)⟩, hr2⟩
  · rw [h, hml] at hm; norm_num at hm
  · exfalso; rw [hml] at h; nlinarith [h]
  · rw [h, hml] at hmb; norm_num at hmb
  · exfalso; rw [hml] at h; nlinarith [h]
  · rw [h, hml] at hmc; norm_num at hmc
  · exfalso; rw [hml] at h; nlinarith [h]
  · rw [h, hlim] at hr; norm_num at hr

/-- The active power row is wrong at the concrete state. -/
example : ¬ HasDerivAt (fun s => rhs (envC3 SinglePhaseConstantVdc.exParP exInp (Function.update exState .xaR s)) .xP)
    (jac lit1 lit2 (envC3 SinglePhaseConstantVdc.exParP exInp exState) (fun _ _ => 0) .xP .xaR) (exState .xaR) :=
  C77_const_vdc_three_active_power _ _ _ exState_regular.1 exState_regular.2 (by norm_num [SinglePhaseConstantVdc.exParP, exPar]) (by norm_num [exInp])
    (by norm_num [exState])

/-- The reactive power row is wrong at the concrete state. -/
example : ¬ HasDerivAt (fun s => rhs (envC3 SinglePhaseConstantVdc.exParP exInp (Function.update exState .ibR s)) .xQ)
    (jac lit1 lit2 (envC3 SinglePhaseConstantVdc.exParP exInp exState) (fun _ _ => 0) .xQ .ibR) (exState .ibR) := by
  refine C77_const_vdc_three_reactive_power _ _ _ exState_regular.1 exState_regular.2 (by norm_num [SinglePhaseConstantVdc.exParP, exPar]) ?_
  have h3 : (0:ℝ) < Real.sqrt 3 := by positivity
  have : exInp.vb = Phasor.ub (1/2) := rfl
  rw [this, Ode.ub_im]; norm_num

end ThreePhaseConstantVdc
end Ode
end PvDer
