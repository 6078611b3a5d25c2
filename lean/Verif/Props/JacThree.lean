import Verif.Props.JacSingle

/-!
# C59: the three-phase Jacobian
-/

namespace PvDer
namespace Ode
open Grad Complex Phasor

set_option maxHeartbeats 4000000
set_option linter.unusedSimpArgs false

namespace ThreePhase

/-- No controller of one phase exactly at its limit; when saturated, no quantity compared by its anti-windup switch is zero. -/
def PhaseRegular (p : Par) (i x u iref : ℂ) : Prop :=
  ‖(p.Kp_GCC : ℂ) * u + x‖ ≠ p.m_limit ∧
  (‖(p.Kp_GCC : ℂ) * u + x‖ > p.m_limit →
    (p.Ki_GCC * u.re ≠ 0 ∧ x.re ≠ 0) ∧ (p.Ki_GCC * u.im ≠ 0 ∧ x.im ≠ 0) ∧
    (p.wp * (-u.re + iref.re - i.re) ≠ 0 ∧ u.re ≠ 0) ∧ (p.wp * (-u.im + iref.im - i.im) ≠ 0 ∧ u.im ≠ 0))

/-- The states at which the derivative vector is differentiable and the formulas apply (see the single-phase version). -/
structure Regular (p : Par) (i : Inp) (y : V → ℝ) : Prop where
  base : 0 < p.Vdcbase
  dc : 0 < y .Vdc
  cap : y .Vdc * p.Vdcbase < p.Vdcmpp_max
  pv : 0 < PV.ipv p.mod i.Sinsol i.Tactual (y .Vdc * p.Vdcbase)
  a : PhaseRegular p (envT p i y).ia (envT p i y).xa (envT p i y).ua (envT p i y).ia_ref
  b : PhaseRegular p (envT p i y).ib (envT p i y).xb (envT p i y).ub (envT p i y).ib_ref
  c : PhaseRegular p (envT p i y).ic (envT p i y).xc (envT p i y).uc (envT p i y).ic_ref
  r : ‖(envT p i y).ia_ref‖ ≠ p.iref_limit
  rSat : ‖(envT p i y).ia_ref‖ > p.iref_limit →
    (p.Ki_DC * (i.Vdc_ref - y .Vdc) ≠ 0 ∧ y .xDC ≠ 0) ∧ (-p.Ki_Q * (i.Q_ref - (envT p i y).S_PCC.im) ≠ 0 ∧ y .xQ ≠ 0)

/-- Gradient of every component of the derivative vector except that of the RMS filter. -/
theorem row_grad (p : Par) (i : Inp) (y : V → ℝ) (h : Regular p i y) (r : V) (hr : r ≠ .Vrms) :
    HasGrad (fun z => rhs (envT p i z) r) (jac (Real.sqrt 3 / 2) (Real.sqrt 3 / 2) (envT p i y) (fun _ _ => 0) r) y := by
  obtain ⟨hb, hV, hcap, hI, ⟨hma, hmaS⟩, ⟨hmb, hmbS⟩, ⟨hmc, hmcS⟩, hr', hrS⟩ := h
  simp only [envT, env3, Env.base, iref_re, iref_im, sCalc_im, Ode.ub_re, Ode.ub_im, Ode.uc_re, Ode.uc_im] at hma hmaS hmb hmbS hmc hmcS
  simp only [envT, env3, Env.base, irefOf, sCalc_im] at hr' hrS
  have hvd := vd3_grad i.va i.vb i.vc i.w i.t V.wte y
  have hppv := ppv_grad p i V.Vdc y hV hb hcap hI
  cases r
  case Vrms => exact absurd rfl hr
  case iaR =>
    simp only [rhs, envT, env3, Env.base, vt_re, vt_im, weCalc, jac]
    apply HasGrad.congr
    · grad
    · intro j
      cases j <;> simp only [jac_iaR, dvd3, reduceCtorEq, if_false, if_true] <;> ring
  case iaI =>
    simp only [rhs, envT, env3, Env.base, vt_re, vt_im, weCalc, jac]
    apply HasGrad.congr
    · grad
    · intro j
      cases j <;> simp only [jac_iaI, dvd3, reduceCtorEq, if_false, if_true] <;> ring
  case xaR =>
    simp only [rhs, envT, env3, Env.base, jac]
    apply HasGrad.congr
    · apply HasGrad.aw
      · grad
      · simp only [mk_eq]; fun_prop
      · exact (HasGrad.proj _ _).cont
      · exact hma
      · exact fun h => (hmaS h).1
    · intro j
      cases j <;> simp only [jac_xaR, reduceCtorEq, if_false, if_true] <;> split_ifs <;> ring
  case xaI =>
    simp only [rhs, envT, env3, Env.base, jac]
    apply HasGrad.congr
    · apply HasGrad.aw
      · grad
      · simp only [mk_eq]; fun_prop
      · exact (HasGrad.proj _ _).cont
      · exact hma
      · exact fun h => (hmaS h).2.1
    · intro j
      cases j <;> simp only [jac_xaI, reduceCtorEq, if_false, if_true] <;> split_ifs <;> ring
  case uaR =>
    simp only [rhs, envT, env3, Env.base, jac, iref_re, iref_im, sCalc_im]
    apply HasGrad.congr
    · apply HasGrad.aw
      · grad
      · simp only [mk_eq]; fun_prop
      · exact (HasGrad.proj _ _).cont
      · exact hma
      · exact fun h => (hmaS h).2.2.1
    · intro j
      cases j <;> simp only [jac_uaR, reduceCtorEq, if_false, if_true, iref_re, iref_im, sCalc_im] <;> split_ifs <;> ring
  case uaI =>
    simp only [rhs, envT, env3, Env.base, jac, iref_re, iref_im, sCalc_im]
    apply HasGrad.congr
    · apply HasGrad.aw
      · grad
      · simp only [mk_eq]; fun_prop
      · exact (HasGrad.proj _ _).cont
      · exact hma
      · exact fun h => (hmaS h).2.2.2
    · intro j
      cases j <;> simp only [jac_uaI, reduceCtorEq, if_false, if_true, iref_re, iref_im, sCalc_im] <;> split_ifs <;> ring
  case ibR =>
    simp only [rhs, envT, env3, Env.base, vt_re, vt_im, weCalc, jac]
    apply HasGrad.congr
    · grad
    · intro j
      cases j <;> simp only [jac_ibR, dvd3, reduceCtorEq, if_false, if_true] <;> ring
  case ibI =>
    simp only [rhs, envT, env3, Env.base, vt_re, vt_im, weCalc, jac]
    apply HasGrad.congr
    · grad
    · intro j
      cases j <;> simp only [jac_ibI, dvd3, reduceCtorEq, if_false, if_true] <;> ring
  case xbR =>
    simp only [rhs, envT, env3, Env.base, jac]
    apply HasGrad.congr
    · apply HasGrad.aw
      · grad
      · simp only [mk_eq]; fun_prop
      · exact (HasGrad.proj _ _).cont
      · exact hmb
      · exact fun h => (hmbS h).1
    · intro j
      cases j <;> simp only [jac_xbR, reduceCtorEq, if_false, if_true] <;> split_ifs <;> ring
  case xbI =>
    simp only [rhs, envT, env3, Env.base, jac]
    apply HasGrad.congr
    · apply HasGrad.aw
      · grad
      · simp only [mk_eq]; fun_prop
      · exact (HasGrad.proj _ _).cont
      · exact hmb
      · exact fun h => (hmbS h).2.1
    · intro j
      cases j <;> simp only [jac_xbI, reduceCtorEq, if_false, if_true] <;> split_ifs <;> ring
  case ubR =>
    simp only [rhs, envT, env3, Env.base, jac, iref_re, iref_im, sCalc_im, Ode.ub_re, Ode.ub_im]
    apply HasGrad.congr
    · apply HasGrad.aw
      · grad
      · simp only [mk_eq]; fun_prop
      · exact (HasGrad.proj _ _).cont
      · exact hmb
      · exact fun h => (hmbS h).2.2.1
    · intro j
      cases j <;> simp only [jac_ubR, reduceCtorEq, if_false, if_true, iref_re, iref_im, sCalc_im, Ode.ub_re, Ode.ub_im] <;> split_ifs <;> ring
  case ubI =>
    simp only [rhs, envT, env3, Env.base, jac, iref_re, iref_im, sCalc_im, Ode.ub_re, Ode.ub_im]
    apply HasGrad.congr
    · apply HasGrad.aw
      · grad
      · simp only [mk_eq]; fun_prop
      · exact (HasGrad.proj _ _).cont
      · exact hmb
      · exact fun h => (hmbS h).2.2.2
    · intro j
      cases j <;> simp only [jac_ubI, reduceCtorEq, if_false, if_true, iref_re, iref_im, sCalc_im, Ode.ub_re, Ode.ub_im] <;> split_ifs <;> ring
  case icR =>
    simp only [rhs, envT, env3, Env.base, vt_re, vt_im, weCalc, jac]
    apply HasGrad.congr
    · grad
    · intro j
      cases j <;> simp only [jac_icR, dvd3, reduceCtorEq, if_false, if_true] <;> ring
  case icI =>
    simp only [rhs, envT, env3, Env.base, vt_re, vt_im, weCalc, jac]
    apply HasGrad.congr
    · grad
    · intro j
      cases j <;> simp only [jac_icI, dvd3, reduceCtorEq, if_false, if_true] <;> ring
  case xcR =>
    simp only [rhs, envT, env3, Env.base, jac]
    apply HasGrad.congr
    · apply HasGrad.aw
      · grad
      · simp only [mk_eq]; fun_prop
      · exact (HasGrad.proj _ _).cont
      · exact hmc
      · exact fun h => (hmcS h).1
    · intro j
      cases j <;> simp only [jac_xcR, reduceCtorEq, if_false, if_true] <;> split_ifs <;> ring
  case xcI =>
    simp only [rhs, envT, env3, Env.base, jac]
    apply HasGrad.congr
    · apply HasGrad.aw
      · grad
      · simp only [mk_eq]; fun_prop
      · exact (HasGrad.proj _ _).cont
      · exact hmc
      · exact fun h => (hmcS h).2.1
    · intro j
      cases j <;> simp only [jac_xcI, reduceCtorEq, if_false, if_true] <;> split_ifs <;> ring
  case ucR =>
    simp only [rhs, envT, env3, Env.base, jac, iref_re, iref_im, sCalc_im, Ode.uc_re, Ode.uc_im]
    apply HasGrad.congr
    · apply HasGrad.aw
      · grad
      · simp only [mk_eq]; fun_prop
      · exact (HasGrad.proj _ _).cont
      · exact hmc
      · exact fun h => (hmcS h).2.2.1
    · intro j
      cases j <;> simp only [jac_ucR, reduceCtorEq, if_false, if_true, iref_re, iref_im, sCalc_im, Ode.uc_re, Ode.uc_im] <;> split_ifs <;> ring
  case ucI =>
    simp only [rhs, envT, env3, Env.base, jac, iref_re, iref_im, sCalc_im, Ode.uc_re, Ode.uc_im]
    apply HasGrad.congr
    · apply HasGrad.aw
      · grad
      · simp only [mk_eq]; fun_prop
      · exact (HasGrad.proj _ _).cont
      · exact hmc
      · exact fun h => (hmcS h).2.2.2
    · intro j
      cases j <;> simp only [jac_ucI, reduceCtorEq, if_false, if_true, iref_re, iref_im, sCalc_im, Ode.uc_re, Ode.uc_im] <;> split_ifs <;> ring
  case Vdc =>
    have hV0 : ∀ᶠ z : V → ℝ in nhds y, 0 < z .Vdc := (HasGrad.proj V.Vdc y).cont.eventually (lt_mem_nhds hV)
    refine HasGrad.congr_ev (f := fun z => ppvOf p i (z .Vdc) / (z .Vdc * p.C) - (1 / 4) * ((((p.Kp_GCC * z .uaR + z .xaR) * z .iaR + (p.Kp_GCC * z .uaI + z .xaI) * z .iaI) + ((p.Kp_GCC * z .ubR + z .xbR) * z .ibR + (p.Kp_GCC * z .ubI + z .xbI) * z .ibI) + ((p.Kp_GCC * z .ucR + z .xcR) * z .icR + (p.Kp_GCC * z .ucI + z .xcI) * z .icI)) / p.C)) ?_ ?_
    · apply HasGrad.congr
      · grad
      · intro j
        cases j <;> simp only [jac, jac_Vdc, envT, env3, Env.base, reduceCtorEq, if_false, if_true] <;> ring
    · filter_upwards [hV0] with z hz
      have h1 : z .Vdc * (z .Vdc)⁻¹ = 1 := mul_inv_cancel₀ hz.ne'
      simp only [rhs, envT, env3, Env.base, sCalc_re, vt_re, vt_im, div_eq_mul_inv, mul_inv]
      linear_combination (-(1 / 4) * ((((p.Kp_GCC * z .uaR + z .xaR) * z .iaR + (p.Kp_GCC * z .uaI + z .xaI) * z .iaI) + ((p.Kp_GCC * z .ubR + z .xbR) * z .ibR + (p.Kp_GCC * z .ubI + z .xbI) * z .ibI) + ((p.Kp_GCC * z .ucR + z .xcR) * z .icR + (p.Kp_GCC * z .ucI + z .xcI) * z .icI)) * p.C⁻¹)) * h1
  case xDC =>
    simp only [rhs, envT, env3, Env.base, jac, sCalc_im]
    apply HasGrad.congr
    · apply HasGrad.aw
      · grad
      · fun_prop
      · exact (HasGrad.proj _ _).cont
      · exact hr'
      · exact fun h => (hrS h).1
    · intro j
      cases j <;> simp only [jac_xDC, reduceCtorEq, if_false, if_true, sCalc_im] <;> split_ifs <;> ring
  case xQ =>
    simp only [rhs, envT, env3, Env.base, jac, sCalc_im]
    apply HasGrad.congr
    · apply HasGrad.aw
      · grad
      · fun_prop
      · exact (HasGrad.proj _ _).cont
      · exact hr'
      · exact fun h => (hrS h).2
    · intro j
      cases j <;> simp only [jac_xQ, reduceCtorEq, if_false, if_true, sCalc_im] <;> split_ifs <;> ring
  case xPLL =>
    simp only [rhs, envT, env3, Env.base, weCalc, jac]
    apply HasGrad.congr
    · grad
    · intro j
      cases j <;> simp only [jac_xPLL, dvd3, reduceCtorEq, if_false, if_true] <;> ring
  case wte =>
    simp only [rhs, envT, env3, Env.base, weCalc, jac]
    apply HasGrad.congr
    · grad
    · intro j
      cases j <;> simp only [jac_wte, dvd3, reduceCtorEq, if_false, if_true] <;> ring

end ThreePhase
end Ode
end PvDer
