import Verif.Model.OdeEnv

/-!
# Generated by tools/gen_ode.py from pvder/DER_components_single_phase_constant_Vdc.py (class SolarPVDERSinglePhaseConstantVdc); do not edit
-/

set_option linter.unusedVariables false

namespace PvDer
namespace Ode
namespace SinglePhaseConstantVdc

/-- State names: keys of the Jacobian index table `varInd` (DER_check_and_initialize.py 541-543); the constructor order is the table order. -/
inductive V
  | iaR | iaI | xaR | xaI | uaR | uaI | xP | xQ | xPLL | wte
  deriving DecidableEq, Repr

/-- `varInd` (DER_check_and_initialize.py 541-543, 562-564). -/
def varInd : List V := [.iaR, .iaI, .xaR, .xaI, .uaR, .uaI, .xP, .xQ, .xPLL, .wte]

/-- The index table lists every state exactly once. -/
instance : Fintype V := ⟨⟨(varInd : Multiset V), by decide⟩, by intro x; cases x <;> decide⟩

/-- A sum over all states, written out. -/
theorem sum_V (f : V → ℝ) : ∑ j, f j = f .iaR + f .iaI + f .xaR + f .xaI + f .uaR + f .uaI + f .xP + f .xQ + f .xPLL + f .wte := by
  have h : ∑ j, f j = (varInd.map f).sum := rfl
  rw [h]; simp only [varInd, List.map_cons, List.map_nil, List.sum_cons, List.sum_nil]; ring

/-- Names of the entries of the list `y0` (pvder/DER_components_single_phase_constant_Vdc.py 63-69). -/
def y0Names : List String := ["iaR", "iaI", "xaR", "xaI", "uaR", "uaI", "xP", "xQ", "xPLL", "wte"]

/-- Names unpacked from `y` in `ODE_model` (pvder/DER_components_single_phase_constant_Vdc.py 226-331). -/
def unpackNames : List String := ["iaR", "iaI", "xaR", "xaI", "uaR", "uaI", "xP", "xQ", "xPLL", "wte"]

/-- Names of the entries of `result` in `ODE_model` (pvder/DER_components_single_phase_constant_Vdc.py 226-331), without the leading `d`. -/
def resultNames : List String := ["iaR", "iaI", "xaR", "xaI", "uaR", "uaI", "xP", "xQ", "xPLL", "wte"]

/-- Keys of the Jacobian index table as strings. -/
def varIndNames : List String := ["iaR", "iaI", "xaR", "xaI", "uaR", "uaI", "xP", "xQ", "xPLL", "wte"]

/-- Derivative vector returned by `ODE_model`, entry at the position of each state (pvder/DER_components_single_phase_constant_Vdc.py 226-331). -/
noncomputable def rhs (e : Env) : V → ℝ
  | .iaR => ((((1 : ℝ) / e.Lf) * ((((-e.Rf) * (e.ia).re) - (e.va).re) + (e.vta).re)) + ((e.winv / e.wbase) * (e.ia).im))
  | .iaI => ((((1 : ℝ) / e.Lf) * ((((-e.Rf) * (e.ia).im) - (e.va).im) + (e.vta).im)) - ((e.winv / e.wbase) * (e.ia).re))
  | .xaR => (if ‖((((e.Kp_GCC : ℝ) : ℂ) * e.ua) + e.xa)‖ > e.m_limit then (if SignType.sign ((e.Ki_GCC * (e.ua).re)) = SignType.sign ((e.xa).re) then (0 : ℝ) else (e.Ki_GCC * (e.ua).re)) else (e.Ki_GCC * (e.ua).re))
  | .xaI => (if ‖((((e.Kp_GCC : ℝ) : ℂ) * e.ua) + e.xa)‖ > e.m_limit then (if SignType.sign ((e.Ki_GCC * (e.ua).im)) = SignType.sign ((e.xa).im) then (0 : ℝ) else (e.Ki_GCC * (e.ua).im)) else (e.Ki_GCC * (e.ua).im))
  | .uaR => (if ‖((((e.Kp_GCC : ℝ) : ℂ) * e.ua) + e.xa)‖ > e.m_limit then (if SignType.sign ((e.wp * (((-(e.ua).re) + (e.ia_ref).re) - (e.ia).re))) = SignType.sign ((e.ua).re) then (0 : ℝ) else (e.wp * (((-(e.ua).re) + (e.ia_ref).re) - (e.ia).re))) else (e.wp * (((-(e.ua).re) + (e.ia_ref).re) - (e.ia).re)))
  | .uaI => (if ‖((((e.Kp_GCC : ℝ) : ℂ) * e.ua) + e.xa)‖ > e.m_limit then (if SignType.sign ((e.wp * (((-(e.ua).im) + (e.ia_ref).im) - (e.ia).im))) = SignType.sign ((e.ua).im) then (0 : ℝ) else (e.wp * (((-(e.ua).im) + (e.ia_ref).im) - (e.ia).im))) else (e.wp * (((-(e.ua).im) + (e.ia_ref).im) - (e.ia).im)))
  | .xP => (if ‖((((e.xP + (e.Kp_P * (e.Ppv - (e.S).re))) : ℝ) : ℂ) + (Complex.I * (((e.xQ - (e.Kp_Q * (e.Q_ref - (e.S_PCC).im))) : ℝ) : ℂ)))‖ > e.iref_limit then (if SignType.sign ((e.Ki_P * (e.Ppv - (e.S).re))) = SignType.sign (e.xP) then (0 : ℝ) else (e.Ki_P * (e.Ppv - (e.S).re))) else (e.Ki_P * (e.Ppv - (e.S).re)))
  | .xQ => (if ‖((((e.xP + (e.Kp_P * (e.Ppv - (e.S).re))) : ℝ) : ℂ) + (Complex.I * (((e.xQ - (e.Kp_Q * (e.Q_ref - (e.S_PCC).im))) : ℝ) : ℂ)))‖ > e.iref_limit then (if SignType.sign (((-e.Ki_Q) * (e.Q_ref - (e.S_PCC).im))) = SignType.sign (e.xQ) then (0 : ℝ) else ((-e.Ki_Q) * (e.Q_ref - (e.S_PCC).im))) else ((-e.Ki_Q) * (e.Q_ref - (e.S_PCC).im)))
  | .xPLL => (e.Ki_PLL * e.vd)
  | .wte => e.we

/-- Row `iaR` written by `jac_ODE_model` (pvder/DER_components_single_phase_constant_Vdc.py 334-489); entries not assigned keep the value `Jp` of the previous call.  `s1`, `s2` stand for the literals 0.866025403 and 0.8660254037. -/
noncomputable def jac_iaR (s1 s2 : ℝ) (e : Env) (Jp : V → V → ℝ) : V → ℝ
  | .iaR => ((-e.Rf) / e.Lf)
  | .iaI => (((e.xPLL + (e.Kp_PLL * e.vd)) + (((2 : ℝ) * Real.pi) * (60 : ℝ))) / e.wbase)
  | .xaR => (e.Vdc / ((2 : ℝ) * e.Lf))
  | .uaR => ((e.Vdc * e.Kp_GCC) / ((2 : ℝ) * e.Lf))
  | .xPLL => ((e.ia).im / e.wbase)
  | .wte => ((((e.Kp_PLL * (e.ia).im) * ‖e.va‖) / e.wbase) * (((-(Real.cos ((((e.wgrid_measured * e.t) + (Complex.arg (e.va))) - (Real.pi / (2 : ℝ)))))) * (Real.sin (e.wte))) + ((Real.cos (((((e.wgrid_measured * e.t) + (Complex.arg (e.va))) - (Real.pi / (2 : ℝ))) - (Real.pi / (2 : ℝ))))) * (Real.cos (e.wte)))))
  | c => Jp .iaR c

/-- Row `iaI` written by `jac_ODE_model` (pvder/DER_components_single_phase_constant_Vdc.py 334-489); entries not assigned keep the value `Jp` of the previous call.  `s1`, `s2` stand for the literals 0.866025403 and 0.8660254037. -/
noncomputable def jac_iaI (s1 s2 : ℝ) (e : Env) (Jp : V → V → ℝ) : V → ℝ
  | .iaR => ((-((e.xPLL + (e.Kp_PLL * e.vd)) + (((2 : ℝ) * Real.pi) * (60 : ℝ)))) / e.wbase)
  | .iaI => ((-e.Rf) / e.Lf)
  | .xaI => (e.Vdc / ((2 : ℝ) * e.Lf))
  | .uaI => ((e.Vdc * e.Kp_GCC) / ((2 : ℝ) * e.Lf))
  | .xPLL => ((-(e.ia).re) / e.wbase)
  | .wte => ((((e.Kp_PLL * (e.ia).re) * ‖e.va‖) / e.wbase) * (((-(Real.cos ((((e.wgrid_measured * e.t) + (Complex.arg (e.va))) - (Real.pi / (2 : ℝ)))))) * (Real.sin (e.wte))) + ((Real.cos (((((e.wgrid_measured * e.t) + (Complex.arg (e.va))) - (Real.pi / (2 : ℝ))) - (Real.pi / (2 : ℝ))))) * (Real.cos (e.wte)))))
  | c => Jp .iaI c

/-- Row `xaR` written by `jac_ODE_model` (pvder/DER_components_single_phase_constant_Vdc.py 334-489); entries not assigned keep the value `Jp` of the previous call.  `s1`, `s2` stand for the literals 0.866025403 and 0.8660254037. -/
noncomputable def jac_xaR (s1 s2 : ℝ) (e : Env) (Jp : V → V → ℝ) : V → ℝ
  | .uaR => (if ‖((((e.Kp_GCC : ℝ) : ℂ) * e.ua) + e.xa)‖ > e.m_limit then (if SignType.sign ((e.Ki_GCC * (e.ua).re)) = SignType.sign ((e.xa).re) then (0 : ℝ) else e.Ki_GCC) else e.Ki_GCC)
  | c => Jp .xaR c

/-- Row `xaI` written by `jac_ODE_model` (pvder/DER_components_single_phase_constant_Vdc.py 334-489); entries not assigned keep the value `Jp` of the previous call.  `s1`, `s2` stand for the literals 0.866025403 and 0.8660254037. -/
noncomputable def jac_xaI (s1 s2 : ℝ) (e : Env) (Jp : V → V → ℝ) : V → ℝ
  | .uaI => (if ‖((((e.Kp_GCC : ℝ) : ℂ) * e.ua) + e.xa)‖ > e.m_limit then (if SignType.sign ((e.Ki_GCC * (e.ua).im)) = SignType.sign ((e.xa).im) then (0 : ℝ) else e.Ki_GCC) else e.Ki_GCC)
  | c => Jp .xaI c

/-- Row `uaR` written by `jac_ODE_model` (pvder/DER_components_single_phase_constant_Vdc.py 334-489); entries not assigned keep the value `Jp` of the previous call.  `s1`, `s2` stand for the literals 0.866025403 and 0.8660254037. -/
noncomputable def jac_uaR (s1 s2 : ℝ) (e : Env) (Jp : V → V → ℝ) : V → ℝ
  | .iaR => (if ‖((((e.Kp_GCC : ℝ) : ℂ) * e.ua) + e.xa)‖ > e.m_limit then (if SignType.sign ((e.wp * (((-(e.ua).re) + (e.ia_ref).re) - (e.ia).re))) = SignType.sign ((e.ua).re) then (0 : ℝ) else (-e.wp)) else (-e.wp))
  | .uaR => (if ‖((((e.Kp_GCC : ℝ) : ℂ) * e.ua) + e.xa)‖ > e.m_limit then (if SignType.sign ((e.wp * (((-(e.ua).re) + (e.ia_ref).re) - (e.ia).re))) = SignType.sign ((e.ua).re) then (0 : ℝ) else (-e.wp)) else (-e.wp))
  | .xP => (if ‖((((e.Kp_GCC : ℝ) : ℂ) * e.ua) + e.xa)‖ > e.m_limit then (if SignType.sign ((e.wp * (((-(e.ua).re) + (e.ia_ref).re) - (e.ia).re))) = SignType.sign ((e.ua).re) then (0 : ℝ) else e.wp) else e.wp)
  | c => Jp .uaR c

/-- Row `uaI` written by `jac_ODE_model` (pvder/DER_components_single_phase_constant_Vdc.py 334-489); entries not assigned keep the value `Jp` of the previous call.  `s1`, `s2` stand for the literals 0.866025403 and 0.8660254037. -/
noncomputable def jac_uaI (s1 s2 : ℝ) (e : Env) (Jp : V → V → ℝ) : V → ℝ
  | .iaR => (if ‖((((e.Kp_GCC : ℝ) : ℂ) * e.ua) + e.xa)‖ > e.m_limit then (if SignType.sign ((e.wp * (((-(e.ua).im) + (e.ia_ref).im) - (e.ia).im))) = SignType.sign ((e.ua).im) then (0 : ℝ) else (((e.Kp_Q * e.wp) * (e.va).im) / (2 : ℝ))) else (((e.Kp_Q * e.wp) * (e.va).im) / (2 : ℝ)))
  | .iaI => (if ‖((((e.Kp_GCC : ℝ) : ℂ) * e.ua) + e.xa)‖ > e.m_limit then (if SignType.sign ((e.wp * (((-(e.ua).im) + (e.ia_ref).im) - (e.ia).im))) = SignType.sign ((e.ua).im) then (0 : ℝ) else ((-e.wp) - (((e.Kp_Q * e.wp) * (e.va).re) / (2 : ℝ)))) else ((-e.wp) - (((e.Kp_Q * e.wp) * (e.va).re) / (2 : ℝ))))
  | .uaI => (if ‖((((e.Kp_GCC : ℝ) : ℂ) * e.ua) + e.xa)‖ > e.m_limit then (if SignType.sign ((e.wp * (((-(e.ua).im) + (e.ia_ref).im) - (e.ia).im))) = SignType.sign ((e.ua).im) then (0 : ℝ) else (-e.wp)) else (-e.wp))
  | .xQ => (if ‖((((e.Kp_GCC : ℝ) : ℂ) * e.ua) + e.xa)‖ > e.m_limit then (if SignType.sign ((e.wp * (((-(e.ua).im) + (e.ia_ref).im) - (e.ia).im))) = SignType.sign ((e.ua).im) then (0 : ℝ) else e.wp) else e.wp)
  | c => Jp .uaI c

/-- Row `xP` written by `jac_ODE_model` (pvder/DER_components_single_phase_constant_Vdc.py 334-489); entries not assigned keep the value `Jp` of the previous call.  `s1`, `s2` stand for the literals 0.866025403 and 0.8660254037. -/
noncomputable def jac_xP (s1 s2 : ℝ) (e : Env) (Jp : V → V → ℝ) : V → ℝ
  | .iaR => (if ‖((((e.xP + (e.Kp_P * (e.Ppv - (e.S).re))) : ℝ) : ℂ) + (Complex.I * (((e.xQ - (e.Kp_Q * (e.Q_ref - (e.S_PCC).im))) : ℝ) : ℂ)))‖ > e.iref_limit then (if SignType.sign ((e.Ki_P * (e.Vdc_ref - e.Vdc))) = SignType.sign (e.xP) then (0 : ℝ) else ((e.Ki_P * (e.va).im) / (2 : ℝ))) else ((e.Ki_P * (e.va).im) / (2 : ℝ)))
  | .iaI => (if ‖((((e.xP + (e.Kp_P * (e.Ppv - (e.S).re))) : ℝ) : ℂ) + (Complex.I * (((e.xQ - (e.Kp_Q * (e.Q_ref - (e.S_PCC).im))) : ℝ) : ℂ)))‖ > e.iref_limit then (if SignType.sign ((e.Ki_P * (e.Vdc_ref - e.Vdc))) = SignType.sign (e.xP) then (0 : ℝ) else (-((e.Ki_P * (e.va).re) / (2 : ℝ)))) else (-((e.Ki_P * (e.va).re) / (2 : ℝ))))
  | c => Jp .xP c

/-- Row `xQ` written by `jac_ODE_model` (pvder/DER_components_single_phase_constant_Vdc.py 334-489); entries not assigned keep the value `Jp` of the previous call.  `s1`, `s2` stand for the literals 0.866025403 and 0.8660254037. -/
noncomputable def jac_xQ (s1 s2 : ℝ) (e : Env) (Jp : V → V → ℝ) : V → ℝ
  | .iaR => (if ‖((((e.xP + (e.Kp_P * (e.Ppv - (e.S).re))) : ℝ) : ℂ) + (Complex.I * (((e.xQ - (e.Kp_Q * (e.Q_ref - (e.S_PCC).im))) : ℝ) : ℂ)))‖ > e.iref_limit then (if SignType.sign (((-e.Ki_Q) * (e.Q_ref - (e.S_PCC).im))) = SignType.sign (e.xQ) then (0 : ℝ) else ((e.Ki_Q * (e.va).im) / (2 : ℝ))) else ((e.Ki_Q * (e.va).im) / (2 : ℝ)))
  | .iaI => (if ‖((((e.xP + (e.Kp_P * (e.Ppv - (e.S).re))) : ℝ) : ℂ) + (Complex.I * (((e.xQ - (e.Kp_Q * (e.Q_ref - (e.S_PCC).im))) : ℝ) : ℂ)))‖ > e.iref_limit then (if SignType.sign (((-e.Ki_Q) * (e.Q_ref - (e.S_PCC).im))) = SignType.sign (e.xQ) then (0 : ℝ) else (-((e.Ki_Q * (e.va).re) / (2 : ℝ)))) else (-((e.Ki_Q * (e.va).re) / (2 : ℝ))))
  | c => Jp .xQ c

/-- Row `xPLL` written by `jac_ODE_model` (pvder/DER_components_single_phase_constant_Vdc.py 334-489); entries not assigned keep the value `Jp` of the previous call.  `s1`, `s2` stand for the literals 0.866025403 and 0.8660254037. -/
noncomputable def jac_xPLL (s1 s2 : ℝ) (e : Env) (Jp : V → V → ℝ) : V → ℝ
  | .wte => ((e.Ki_PLL * ‖e.va‖) * (((-(Real.cos ((((e.wgrid_measured * e.t) + (Complex.arg (e.va))) - (Real.pi / (2 : ℝ)))))) * (Real.sin (e.wte))) + ((Real.cos (((((e.wgrid_measured * e.t) + (Complex.arg (e.va))) - (Real.pi / (2 : ℝ))) - (Real.pi / (2 : ℝ))))) * (Real.cos (e.wte)))))
  | c => Jp .xPLL c

/-- Row `wte` written by `jac_ODE_model` (pvder/DER_components_single_phase_constant_Vdc.py 334-489); entries not assigned keep the value `Jp` of the previous call.  `s1`, `s2` stand for the literals 0.866025403 and 0.8660254037. -/
noncomputable def jac_wte (s1 s2 : ℝ) (e : Env) (Jp : V → V → ℝ) : V → ℝ
  | .xPLL => (1 : ℝ)
  | .wte => ((e.Kp_PLL * ‖e.va‖) * (((-(Real.cos ((((e.wgrid_measured * e.t) + (Complex.arg (e.va))) - (Real.pi / (2 : ℝ)))))) * (Real.sin (e.wte))) + ((Real.cos (((((e.wgrid_measured * e.t) + (Complex.arg (e.va))) - (Real.pi / (2 : ℝ))) - (Real.pi / (2 : ℝ))))) * (Real.cos (e.wte)))))
  | c => Jp .wte c

/-- The matrix returned by `jac_ODE_model` (pvder/DER_components_single_phase_constant_Vdc.py 334-489) given the matrix `Jp` left by the previous call. -/
noncomputable def jac (s1 s2 : ℝ) (e : Env) (Jp : V → V → ℝ) : V → V → ℝ
  | .iaR => jac_iaR s1 s2 e Jp
  | .iaI => jac_iaI s1 s2 e Jp
  | .xaR => jac_xaR s1 s2 e Jp
  | .xaI => jac_xaI s1 s2 e Jp
  | .uaR => jac_uaR s1 s2 e Jp
  | .uaI => jac_uaI s1 s2 e Jp
  | .xP => jac_xP s1 s2 e Jp
  | .xQ => jac_xQ s1 s2 e Jp
  | .xPLL => jac_xPLL s1 s2 e Jp
  | .wte => jac_wte s1 s2 e Jp

end SinglePhaseConstantVdc
end Ode
end PvDer
