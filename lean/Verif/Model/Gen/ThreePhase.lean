import Verif.Model.OdeEnv

/-!
# Generated by tools/gen_ode.py from pvder/DER_components_three_phase.py (class SolarPVDERThreePhase); do not edit
-/

set_option linter.unusedVariables false

namespace PvDer
namespace Ode
namespace ThreePhase

/-- State names: keys of the Jacobian index table `varInd` (DER_check_and_initialize.py 529-532); the constructor order is the table order. -/
inductive V
  | iaR | iaI | xaR | xaI | uaR | uaI | ibR | ibI | xbR | xbI | ubR | ubI | icR | icI | xcR | xcI | ucR | ucI | Vdc | xDC | xQ | xPLL | wte | Vrms
  deriving DecidableEq, Repr

/-- `varInd` (DER_check_and_initialize.py 529-532, 562-564). -/
def varInd : List V := [.iaR, .iaI, .xaR, .xaI, .uaR, .uaI, .ibR, .ibI, .xbR, .xbI, .ubR, .ubI, .icR, .icI, .xcR, .xcI, .ucR, .ucI, .Vdc, .xDC, .xQ, .xPLL, .wte, .Vrms]

/-- The index table lists every state exactly once. -/
instance : Fintype V := ⟨⟨(varInd : Multiset V), by decide⟩, by intro x; cases x <;> decide⟩

/-- A sum over all states, written out. -/
theorem sum_V (f : V → ℝ) : ∑ j, f j = f .iaR + f .iaI + f .xaR + f .xaI + f .uaR + f .uaI + f .ibR + f .ibI + f .xbR + f .xbI + f .ubR + f .ubI + f .icR + f .icI + f .xcR + f .xcI + f .ucR + f .ucI + f .Vdc + f .xDC + f .xQ + f .xPLL + f .wte + f .Vrms := by
  have h : ∑ j, f j = (varInd.map f).sum := rfl
  rw [h]; simp only [varInd, List.map_cons, List.map_nil, List.sum_cons, List.sum_nil]; ring

/-- Names of the entries of the list `y0` (pvder/DER_components_three_phase.py 62-70). -/
def y0Names : List String := ["iaR", "iaI", "xaR", "xaI", "uaR", "uaI", "ibR", "ibI", "xbR", "xbI", "ubR", "ubI", "icR", "icI", "xcR", "xcI", "ucR", "ucI", "Vdc", "xDC", "xQ", "xPLL", "wte", "Vrms_filter"]

/-- Names unpacked from `y` in `ODE_model` (pvder/DER_components_three_phase.py 263-459). -/
def unpackNames : List String := ["iaR", "iaI", "xaR", "xaI", "uaR", "uaI", "ibR", "ibI", "xbR", "xbI", "ubR", "ubI", "icR", "icI", "xcR", "xcI", "ucR", "ucI", "Vdc", "xDC", "xQ", "xPLL", "wte", "Vrms_filter"]

/-- Names of the entries of `result` in `ODE_model` (pvder/DER_components_three_phase.py 263-459), without the leading `d`. -/
def resultNames : List String := ["iaR", "iaI", "xaR", "xaI", "uaR", "uaI", "ibR", "ibI", "xbR", "xbI", "ubR", "ubI", "icR", "icI", "xcR", "xcI", "ucR", "ucI", "Vdc", "xDC", "xQ", "xPLL", "wte", "Vrms_filter"]

/-- Keys of the Jacobian index table as strings. -/
def varIndNames : List String := ["iaR", "iaI", "xaR", "xaI", "uaR", "uaI", "ibR", "ibI", "xbR", "xbI", "ubR", "ubI", "icR", "icI", "xcR", "xcI", "ucR", "ucI", "Vdc", "xDC", "xQ", "xPLL", "wte", "Vrms"]

/-- Derivative vector returned by `ODE_model`, entry at the position of each state (pvder/DER_components_three_phase.py 263-459). -/
noncomputable def rhs (e : Env) : V → ℝ
  | .iaR => ((((1 : ℝ) / e.Lf) * ((((-e.Rf) * (e.ia).re) - (e.va).re) + (e.vta).re)) + ((e.winv / e.wbase) * (e.ia).im))
  | .iaI => ((((1 : ℝ) / e.Lf) * ((((-e.Rf) * (e.ia).im) - (e.va).im) + (e.vta).im)) - ((e.winv / e.wbase) * (e.ia).re))
  | .xaR => (if ‖((((e.Kp_GCC : ℝ) : ℂ) * e.ua) + e.xa)‖ > e.m_limit then (if SignType.sign ((e.Ki_GCC * (e.ua).re)) = SignType.sign ((e.xa).re) then (0 : ℝ) else (e.Ki_GCC * (e.ua).re)) else (e.Ki_GCC * (e.ua).re))
  | .xaI => (if ‖((((e.Kp_GCC : ℝ) : ℂ) * e.ua) + e.xa)‖ > e.m_limit then (if SignType.sign ((e.Ki_GCC * (e.ua).im)) = SignType.sign ((e.xa).im) then (0 : ℝ) else (e.Ki_GCC * (e.ua).im)) else (e.Ki_GCC * (e.ua).im))
  | .uaR => (if ‖((((e.Kp_GCC : ℝ) : ℂ) * e.ua) + e.xa)‖ > e.m_limit then (if SignType.sign ((e.wp * (((-(e.ua).re) + (e.ia_ref).re) - (e.ia).re))) = SignType.sign ((e.ua).re) then (0 : ℝ) else (e.wp * (((-(e.ua).re) + (e.ia_ref).re) - (e.ia).re))) else (e.wp * (((-(e.ua).re) + (e.ia_ref).re) - (e.ia).re)))
  | .uaI => (if ‖((((e.Kp_GCC : ℝ) : ℂ) * e.ua) + e.xa)‖ > e.m_limit then (if SignType.sign ((e.wp * (((-(e.ua).im) + (e.ia_ref).im) - (e.ia).im))) = SignType.sign ((e.ua).im) then (0 : ℝ) else (e.wp * (((-(e.ua).im) + (e.ia_ref).im) - (e.ia).im))) else (e.wp * (((-(e.ua).im) + (e.ia_ref).im) - (e.ia).im)))
  | .ibR => ((((1 : ℝ) / e.Lf) * ((((-e.Rf) * (e.ib).re) - (e.vb).re) + (e.vtb).re)) + ((e.winv / e.wbase) * (e.ib).im))
  | .ibI => ((((1 : ℝ) / e.Lf) * ((((-e.Rf) * (e.ib).im) - (e.vb).im) + (e.vtb).im)) - ((e.winv / e.wbase) * (e.ib).re))
  | .xbR => (if ‖((((e.Kp_GCC : ℝ) : ℂ) * e.ub) + e.xb)‖ > e.m_limit then (if SignType.sign ((e.Ki_GCC * (e.ub).re)) = SignType.sign ((e.xb).re) then (0 : ℝ) else (e.Ki_GCC * (e.ub).re)) else (e.Ki_GCC * (e.ub).re))
  | .xbI => (if ‖((((e.Kp_GCC : ℝ) : ℂ) * e.ub) + e.xb)‖ > e.m_limit then (if SignType.sign ((e.Ki_GCC * (e.ub).im)) = SignType.sign ((e.xb).im) then (0 : ℝ) else (e.Ki_GCC * (e.ub).im)) else (e.Ki_GCC * (e.ub).im))
  | .ubR => (if ‖((((e.Kp_GCC : ℝ) : ℂ) * e.ub) + e.xb)‖ > e.m_limit then (if SignType.sign ((e.wp * (((-(e.ub).re) + (e.ib_ref).re) - (e.ib).re))) = SignType.sign ((e.ub).re) then (0 : ℝ) else (e.wp * (((-(e.ub).re) + (e.ib_ref).re) - (e.ib).re))) else (e.wp * (((-(e.ub).re) + (e.ib_ref).re) - (e.ib).re)))
  | .ubI => (if ‖((((e.Kp_GCC : ℝ) : ℂ) * e.ub) + e.xb)‖ > e.m_limit then (if SignType.sign ((e.wp * (((-(e.ub).im) + (e.ib_ref).im) - (e.ib).im))) = SignType.sign ((e.ub).im) then (0 : ℝ) else (e.wp * (((-(e.ub).im) + (e.ib_ref).im) - (e.ib).im))) else (e.wp * (((-(e.ub).im) + (e.ib_ref).im) - (e.ib).im)))
  | .icR => ((((1 : ℝ) / e.Lf) * ((((-e.Rf) * (e.ic).re) - (e.vc).re) + (e.vtc).re)) + ((e.winv / e.wbase) * (e.ic).im))
  | .icI => ((((1 : ℝ) / e.Lf) * ((((-e.Rf) * (e.ic).im) - (e.vc).im) + (e.vtc).im)) - ((e.winv / e.wbase) * (e.ic).re))
  | .xcR => (if ‖((((e.Kp_GCC : ℝ) : ℂ) * e.uc) + e.xc)‖ > e.m_limit then (if SignType.sign ((e.Ki_GCC * (e.uc).re)) = SignType.sign ((e.xc).re) then (0 : ℝ) else (e.Ki_GCC * (e.uc).re)) else (e.Ki_GCC * (e.uc).re))
  | .xcI => (if ‖((((e.Kp_GCC : ℝ) : ℂ) * e.uc) + e.xc)‖ > e.m_limit then (if SignType.sign ((e.Ki_GCC * (e.uc).im)) = SignType.sign ((e.xc).im) then (0 : ℝ) else (e.Ki_GCC * (e.uc).im)) else (e.Ki_GCC * (e.uc).im))
  | .ucR => (if ‖((((e.Kp_GCC : ℝ) : ℂ) * e.uc) + e.xc)‖ > e.m_limit then (if SignType.sign ((e.wp * (((-(e.uc).re) + (e.ic_ref).re) - (e.ic).re))) = SignType.sign ((e.uc).re) then (0 : ℝ) else (e.wp * (((-(e.uc).re) + (e.ic_ref).re) - (e.ic).re))) else (e.wp * (((-(e.uc).re) + (e.ic_ref).re) - (e.ic).re)))
  | .ucI => (if ‖((((e.Kp_GCC : ℝ) : ℂ) * e.uc) + e.xc)‖ > e.m_limit then (if SignType.sign ((e.wp * (((-(e.uc).im) + (e.ic_ref).im) - (e.ic).im))) = SignType.sign ((e.uc).im) then (0 : ℝ) else (e.wp * (((-(e.uc).im) + (e.ic_ref).im) - (e.ic).im))) else (e.wp * (((-(e.uc).im) + (e.ic_ref).im) - (e.ic).im)))
  | .Vdc => ((e.Ppv - (e.S).re) / (e.Vdc * e.C))
  | .xDC => (if ‖((((e.xDC + (e.Kp_DC * (e.Vdc_ref - e.Vdc))) : ℝ) : ℂ) + (Complex.I * (((e.xQ - (e.Kp_Q * (e.Q_ref - (e.S_PCC).im))) : ℝ) : ℂ)))‖ > e.iref_limit then (if SignType.sign ((e.Ki_DC * (e.Vdc_ref - e.Vdc))) = SignType.sign (e.xDC) then (0 : ℝ) else (e.Ki_DC * (e.Vdc_ref - e.Vdc))) else (e.Ki_DC * (e.Vdc_ref - e.Vdc)))
  | .xQ => (if ‖((((e.xDC + (e.Kp_DC * (e.Vdc_ref - e.Vdc))) : ℝ) : ℂ) + (Complex.I * (((e.xQ - (e.Kp_Q * (e.Q_ref - (e.S_PCC).im))) : ℝ) : ℂ)))‖ > e.iref_limit then (if SignType.sign (((-e.Ki_Q) * (e.Q_ref - (e.S_PCC).im))) = SignType.sign (e.xQ) then (0 : ℝ) else ((-e.Ki_Q) * (e.Q_ref - (e.S_PCC).im))) else ((-e.Ki_Q) * (e.Q_ref - (e.S_PCC).im)))
  | .xPLL => (e.Ki_PLL * e.vd)
  | .wte => e.we
  | .Vrms => (((1 : ℝ) / e.Tfilter_Vrms) * (e.Vrms - e.Vrms_filter))

/-- Row `iaR` written by `jac_ODE_model` (pvder/DER_components_three_phase.py 462-929); entries not assigned keep the value `Jp` of the previous call.  `s1`, `s2` stand for the literals 0.866025403 and 0.8660254037. -/
noncomputable def jac_iaR (s1 s2 : ℝ) (e : Env) (Jp : V → V → ℝ) : V → ℝ
  | .iaR => ((-e.Rf) / e.Lf)
  | .iaI => (((e.xPLL + (e.Kp_PLL * e.vd)) + (((2 : ℝ) * Real.pi) * (60 : ℝ))) / e.wbase)
  | .xaR => (e.Vdc / ((2 : ℝ) * e.Lf))
  | .uaR => ((e.Vdc * e.Kp_GCC) / ((2 : ℝ) * e.Lf))
  | .Vdc => (((e.xa).re + ((e.ua).re * e.Kp_GCC)) / ((2 : ℝ) * e.Lf))
  | .xPLL => ((e.ia).im / e.wbase)
  | .wte => ((((2 : ℝ) / (3 : ℝ)) * ((e.Kp_PLL * (e.ia).im) / e.wbase)) * (((((((-‖e.va‖) * (Real.cos ((((e.wgrid_measured * e.t) + (Complex.arg (e.va))) - (Real.pi / (2 : ℝ)))))) * (Real.sin (e.wte))) + (((((1 : ℝ) / 2) * ‖e.vb‖) * (Real.cos ((((e.wgrid_measured * e.t) + (Complex.arg (e.vb))) - (Real.pi / (2 : ℝ)))))) * (Real.sin (e.wte)))) + (((s2 * ‖e.vb‖) * (Real.cos ((((e.wgrid_measured * e.t) + (Complex.arg (e.vb))) - (Real.pi / (2 : ℝ)))))) * (Real.cos (e.wte)))) + (((((1 : ℝ) / 2) * ‖e.vc‖) * (Real.cos ((((e.wgrid_measured * e.t) + (Complex.arg (e.vc))) - (Real.pi / (2 : ℝ)))))) * (Real.sin (e.wte)))) - (((s2 * ‖e.vc‖) * (Real.cos ((((e.wgrid_measured * e.t) + (Complex.arg (e.vc))) - (Real.pi / (2 : ℝ)))))) * (Real.cos (e.wte)))))
  | c => Jp .iaR c

/-- Row `iaI` written by `jac_ODE_model` (pvder/DER_components_three_phase.py 462-929); entries not assigned keep the value `Jp` of the previous call.  `s1`, `s2` stand for the literals 0.866025403 and 0.8660254037. -/
noncomputable def jac_iaI (s1 s2 : ℝ) (e : Env) (Jp : V → V → ℝ) : V → ℝ
  | .iaR => ((-((e.xPLL + (e.Kp_PLL * e.vd)) + (((2 : ℝ) * Real.pi) * (60 : ℝ)))) / e.wbase)
  | .iaI => ((-e.Rf) / e.Lf)
  | .xaI => (e.Vdc / ((2 : ℝ) * e.Lf))
  | .uaI => ((e.Vdc * e.Kp_GCC) / ((2 : ℝ) * e.Lf))
  | .Vdc => (((e.xa).im + ((e.ua).im * e.Kp_GCC)) / ((2 : ℝ) * e.Lf))
  | .xPLL => ((-(e.ia).re) / e.wbase)
  | .wte => (((-((2 : ℝ) / (3 : ℝ))) * ((e.Kp_PLL * (e.ia).re) / e.wbase)) * (((((((-‖e.va‖) * (Real.cos ((((e.wgrid_measured * e.t) + (Complex.arg (e.va))) - (Real.pi / (2 : ℝ)))))) * (Real.sin (e.wte))) + (((((1 : ℝ) / 2) * ‖e.vb‖) * (Real.cos ((((e.wgrid_measured * e.t) + (Complex.arg (e.vb))) - (Real.pi / (2 : ℝ)))))) * (Real.sin (e.wte)))) + (((s2 * ‖e.vb‖) * (Real.cos ((((e.wgrid_measured * e.t) + (Complex.arg (e.vb))) - (Real.pi / (2 : ℝ)))))) * (Real.cos (e.wte)))) + (((((1 : ℝ) / 2) * ‖e.vc‖) * (Real.cos ((((e.wgrid_measured * e.t) + (Complex.arg (e.vc))) - (Real.pi / (2 : ℝ)))))) * (Real.sin (e.wte)))) - (((s2 * ‖e.vc‖) * (Real.cos ((((e.wgrid_measured * e.t) + (Complex.arg (e.vc))) - (Real.pi / (2 : ℝ)))))) * (Real.cos (e.wte)))))
  | c => Jp .iaI c

/-- Row `xaR` written by `jac_ODE_model` (pvder/DER_components_three_phase.py 462-929); entries not assigned keep the value `Jp` of the previous call.  `s1`, `s2` stand for the literals 0.866025403 and 0.8660254037. -/
noncomputable def jac_xaR (s1 s2 : ℝ) (e : Env) (Jp : V → V → ℝ) : V → ℝ
  | .uaR => (if ‖((((e.Kp_GCC : ℝ) : ℂ) * e.ua) + e.xa)‖ > e.m_limit then (if SignType.sign ((e.Ki_GCC * (e.ua).re)) = SignType.sign ((e.xa).re) then (0 : ℝ) else e.Ki_GCC) else e.Ki_GCC)
  | c => Jp .xaR c

/-- Row `xaI` written by `jac_ODE_model` (pvder/DER_components_three_phase.py 462-929); entries not assigned keep the value `Jp` of the previous call.  `s1`, `s2` stand for the literals 0.866025403 and 0.8660254037. -/
noncomputable def jac_xaI (s1 s2 : ℝ) (e : Env) (Jp : V → V → ℝ) : V → ℝ
  | .uaI => (if ‖((((e.Kp_GCC : ℝ) : ℂ) * e.ua) + e.xa)‖ > e.m_limit then (if SignType.sign ((e.Ki_GCC * (e.ua).im)) = SignType.sign ((e.xa).im) then (0 : ℝ) else e.Ki_GCC) else e.Ki_GCC)
  | c => Jp .xaI c

/-- Row `uaR` written by `jac_ODE_model` (pvder/DER_components_three_phase.py 462-929); entries not assigned keep the value `Jp` of the previous call.  `s1`, `s2` stand for the literals 0.866025403 and 0.8660254037. -/
noncomputable def jac_uaR (s1 s2 : ℝ) (e : Env) (Jp : V → V → ℝ) : V → ℝ
  | .iaR => (if ‖((((e.Kp_GCC : ℝ) : ℂ) * e.ua) + e.xa)‖ > e.m_limit then (if SignType.sign ((e.wp * (((-(e.ua).re) + (e.ia_ref).re) - (e.ia).re))) = SignType.sign ((e.ua).re) then (0 : ℝ) else (-e.wp)) else (-e.wp))
  | .uaR => (if ‖((((e.Kp_GCC : ℝ) : ℂ) * e.ua) + e.xa)‖ > e.m_limit then (if SignType.sign ((e.wp * (((-(e.ua).re) + (e.ia_ref).re) - (e.ia).re))) = SignType.sign ((e.ua).re) then (0 : ℝ) else (-e.wp)) else (-e.wp))
  | .Vdc => (if ‖((((e.Kp_GCC : ℝ) : ℂ) * e.ua) + e.xa)‖ > e.m_limit then (if SignType.sign ((e.wp * (((-(e.ua).re) + (e.ia_ref).re) - (e.ia).re))) = SignType.sign ((e.ua).re) then (0 : ℝ) else ((-e.wp) * e.Kp_DC)) else ((-e.wp) * e.Kp_DC))
  | .xDC => (if ‖((((e.Kp_GCC : ℝ) : ℂ) * e.ua) + e.xa)‖ > e.m_limit then (if SignType.sign ((e.wp * (((-(e.ua).re) + (e.ia_ref).re) - (e.ia).re))) = SignType.sign ((e.ua).re) then (0 : ℝ) else e.wp) else e.wp)
  | c => Jp .uaR c

/-- Row `uaI` written by `jac_ODE_model` (pvder/DER_components_three_phase.py 462-929); entries not assigned keep the value `Jp` of the previous call.  `s1`, `s2` stand for the literals 0.866025403 and 0.8660254037. -/
noncomputable def jac_uaI (s1 s2 : ℝ) (e : Env) (Jp : V → V → ℝ) : V → ℝ
  | .iaR => (if ‖((((e.Kp_GCC : ℝ) : ℂ) * e.ua) + e.xa)‖ > e.m_limit then (if SignType.sign ((e.wp * (((-(e.ua).im) + (e.ia_ref).im) - (e.ia).im))) = SignType.sign ((e.ua).im) then (0 : ℝ) else (((e.Kp_Q * e.wp) * (e.va).im) / (2 : ℝ))) else (((e.Kp_Q * e.wp) * (e.va).im) / (2 : ℝ)))
  | .iaI => (if ‖((((e.Kp_GCC : ℝ) : ℂ) * e.ua) + e.xa)‖ > e.m_limit then (if SignType.sign ((e.wp * (((-(e.ua).im) + (e.ia_ref).im) - (e.ia).im))) = SignType.sign ((e.ua).im) then (0 : ℝ) else ((-e.wp) - (((e.Kp_Q * e.wp) * (e.va).re) / (2 : ℝ)))) else ((-e.wp) - (((e.Kp_Q * e.wp) * (e.va).re) / (2 : ℝ))))
  | .uaI => (if ‖((((e.Kp_GCC : ℝ) : ℂ) * e.ua) + e.xa)‖ > e.m_limit then (if SignType.sign ((e.wp * (((-(e.ua).im) + (e.ia_ref).im) - (e.ia).im))) = SignType.sign ((e.ua).im) then (0 : ℝ) else (-e.wp)) else (-e.wp))
  | .ibR => (if ‖((((e.Kp_GCC : ℝ) : ℂ) * e.ua) + e.xa)‖ > e.m_limit then (if SignType.sign ((e.wp * (((-(e.ua).im) + (e.ia_ref).im) - (e.ia).im))) = SignType.sign ((e.ua).im) then (0 : ℝ) else (((e.Kp_Q * e.wp) * (e.vb).im) / (2 : ℝ))) else (((e.Kp_Q * e.wp) * (e.vb).im) / (2 : ℝ)))
  | .ibI => (if ‖((((e.Kp_GCC : ℝ) : ℂ) * e.ua) + e.xa)‖ > e.m_limit then (if SignType.sign ((e.wp * (((-(e.ua).im) + (e.ia_ref).im) - (e.ia).im))) = SignType.sign ((e.ua).im) then (0 : ℝ) else (-(((e.Kp_Q * e.wp) * (e.vb).re) / (2 : ℝ)))) else (-(((e.Kp_Q * e.wp) * (e.vb).re) / (2 : ℝ))))
  | .icR => (if ‖((((e.Kp_GCC : ℝ) : ℂ) * e.ua) + e.xa)‖ > e.m_limit then (if SignType.sign ((e.wp * (((-(e.ua).im) + (e.ia_ref).im) - (e.ia).im))) = SignType.sign ((e.ua).im) then (0 : ℝ) else (((e.Kp_Q * e.wp) * (e.vc).im) / (2 : ℝ))) else (((e.Kp_Q * e.wp) * (e.vc).im) / (2 : ℝ)))
  | .icI => (if ‖((((e.Kp_GCC : ℝ) : ℂ) * e.ua) + e.xa)‖ > e.m_limit then (if SignType.sign ((e.wp * (((-(e.ua).im) + (e.ia_ref).im) - (e.ia).im))) = SignType.sign ((e.ua).im) then (0 : ℝ) else (-(((e.Kp_Q * e.wp) * (e.vc).re) / (2 : ℝ)))) else (-(((e.Kp_Q * e.wp) * (e.vc).re) / (2 : ℝ))))
  | .xQ => (if ‖((((e.Kp_GCC : ℝ) : ℂ) * e.ua) + e.xa)‖ > e.m_limit then (if SignType.sign ((e.wp * (((-(e.ua).im) + (e.ia_ref).im) - (e.ia).im))) = SignType.sign ((e.ua).im) then (0 : ℝ) else e.wp) else e.wp)
  | c => Jp .uaI c

/-- Row `ibR` written by `jac_ODE_model` (pvder/DER_components_three_phase.py 462-929); entries not assigned keep the value `Jp` of the previous call.  `s1`, `s2` stand for the literals 0.866025403 and 0.8660254037. -/
noncomputable def jac_ibR (s1 s2 : ℝ) (e : Env) (Jp : V → V → ℝ) : V → ℝ
  | .ibR => ((-e.Rf) / e.Lf)
  | .ibI => (((e.xPLL + (e.Kp_PLL * e.vd)) + (((2 : ℝ) * Real.pi) * (60 : ℝ))) / e.wbase)
  | .xbR => (e.Vdc / ((2 : ℝ) * e.Lf))
  | .ubR => ((e.Vdc * e.Kp_GCC) / ((2 : ℝ) * e.Lf))
  | .Vdc => (((e.xb).re + ((e.ub).re * e.Kp_GCC)) / ((2 : ℝ) * e.Lf))
  | .xPLL => ((e.ib).im / e.wbase)
  | .wte => ((((2 : ℝ) / (3 : ℝ)) * ((e.Kp_PLL * (e.ib).im) / e.wbase)) * (((((((-‖e.va‖) * (Real.cos ((((e.wgrid_measured * e.t) + (Complex.arg (e.va))) - (Real.pi / (2 : ℝ)))))) * (Real.sin (e.wte))) + (((((1 : ℝ) / 2) * ‖e.vb‖) * (Real.cos ((((e.wgrid_measured * e.t) + (Complex.arg (e.vb))) - (Real.pi / (2 : ℝ)))))) * (Real.sin (e.wte)))) + (((s2 * ‖e.vb‖) * (Real.cos ((((e.wgrid_measured * e.t) + (Complex.arg (e.vb))) - (Real.pi / (2 : ℝ)))))) * (Real.cos (e.wte)))) + (((((1 : ℝ) / 2) * ‖e.vc‖) * (Real.cos ((((e.wgrid_measured * e.t) + (Complex.arg (e.vc))) - (Real.pi / (2 : ℝ)))))) * (Real.sin (e.wte)))) - (((s2 * ‖e.vc‖) * (Real.cos ((((e.wgrid_measured * e.t) + (Complex.arg (e.vc))) - (Real.pi / (2 : ℝ)))))) * (Real.cos (e.wte)))))
  | c => Jp .ibR c

/-- Row `ibI` written by `jac_ODE_model` (pvder/DER_components_three_phase.py 462-929); entries not assigned keep the value `Jp` of the previous call.  `s1`, `s2` stand for the literals 0.866025403 and 0.8660254037. -/
noncomputable def jac_ibI (s1 s2 : ℝ) (e : Env) (Jp : V → V → ℝ) : V → ℝ
  | .ibR => ((-((e.xPLL + (e.Kp_PLL * e.vd)) + (((2 : ℝ) * Real.pi) * (60 : ℝ)))) / e.wbase)
  | .ibI => ((-e.Rf) / e.Lf)
  | .xbI => (e.Vdc / ((2 : ℝ) * e.Lf))
  | .ubI => ((e.Vdc * e.Kp_GCC) / ((2 : ℝ) * e.Lf))
  | .Vdc => (((e.xb).im + ((e.ub).im * e.Kp_GCC)) / ((2 : ℝ) * e.Lf))
  | .xPLL => ((-(e.ib).re) / e.wbase)
  | .wte => (((-((2 : ℝ) / (3 : ℝ))) * ((e.Kp_PLL * (e.ib).re) / e.wbase)) * (((((((-‖e.va‖) * (Real.cos ((((e.wgrid_measured * e.t) + (Complex.arg (e.va))) - (Real.pi / (2 : ℝ)))))) * (Real.sin (e.wte))) + (((((1 : ℝ) / 2) * ‖e.vb‖) * (Real.cos ((((e.wgrid_measured * e.t) + (Complex.arg (e.vb))) - (Real.pi / (2 : ℝ)))))) * (Real.sin (e.wte)))) + (((s2 * ‖e.vb‖) * (Real.cos ((((e.wgrid_measured * e.t) + (Complex.arg (e.vb))) - (Real.pi / (2 : ℝ)))))) * (Real.cos (e.wte)))) + (((((1 : ℝ) / 2) * ‖e.vc‖) * (Real.cos ((((e.wgrid_measured * e.t) + (Complex.arg (e.vc))) - (Real.pi / (2 : ℝ)))))) * (Real.sin (e.wte)))) - (((s2 * ‖e.vc‖) * (Real.cos ((((e.wgrid_measured * e.t) + (Complex.arg (e.vc))) - (Real.pi / (2 : ℝ)))))) * (Real.cos (e.wte)))))
  | c => Jp .ibI c

/-- Row `xbR` written by `jac_ODE_model` (pvder/DER_components_three_phase.py 462-929); entries not assigned keep the value `Jp` of the previous call.  `s1`, `s2` stand for the literals 0.866025403 and 0.8660254037. -/
noncomputable def jac_xbR (s1 s2 : ℝ) (e : Env) (Jp : V → V → ℝ) : V → ℝ
  | .ubR => (if ‖((((e.Kp_GCC : ℝ) : ℂ) * e.ub) + e.xb)‖ > e.m_limit then (if SignType.sign ((e.Ki_GCC * (e.ub).re)) = SignType.sign ((e.xb).re) then (0 : ℝ) else e.Ki_GCC) else e.Ki_GCC)
  | c => Jp .xbR c

/-- Row `xbI` written by `jac_ODE_model` (pvder/DER_components_three_phase.py 462-929); entries not assigned keep the value `Jp` of the previous call.  `s1`, `s2` stand for the literals 0.866025403 and 0.8660254037. -/
noncomputable def jac_xbI (s1 s2 : ℝ) (e : Env) (Jp : V → V → ℝ) : V → ℝ
  | .ubI => (if ‖((((e.Kp_GCC : ℝ) : ℂ) * e.ub) + e.xb)‖ > e.m_limit then (if SignType.sign ((e.Ki_GCC * (e.ub).im)) = SignType.sign ((e.xb).im) then (0 : ℝ) else e.Ki_GCC) else e.Ki_GCC)
  | c => Jp .xbI c

/-- Row `ubR` written by `jac_ODE_model` (pvder/DER_components_three_phase.py 462-929); entries not assigned keep the value `Jp` of the previous call.  `s1`, `s2` stand for the literals 0.866025403 and 0.8660254037. -/
noncomputable def jac_ubR (s1 s2 : ℝ) (e : Env) (Jp : V → V → ℝ) : V → ℝ
  | .iaR => (if ‖((((e.Kp_GCC : ℝ) : ℂ) * e.ub) + e.xb)‖ > e.m_limit then (if SignType.sign ((e.wp * (((-(e.ub).re) + (e.ib_ref).re) - (e.ib).re))) = SignType.sign ((e.ub).re) then (0 : ℝ) else (s1 * (((e.Kp_Q * e.wp) * (e.va).im) / (2 : ℝ)))) else (s1 * (((e.Kp_Q * e.wp) * (e.va).im) / (2 : ℝ))))
  | .iaI => (if ‖((((e.Kp_GCC : ℝ) : ℂ) * e.ub) + e.xb)‖ > e.m_limit then (if SignType.sign ((e.wp * (((-(e.ub).re) + (e.ib_ref).re) - (e.ib).re))) = SignType.sign ((e.ub).re) then (0 : ℝ) else ((-s1) * (((e.Kp_Q * e.wp) * (e.va).re) / (2 : ℝ)))) else ((-s1) * (((e.Kp_Q * e.wp) * (e.va).re) / (2 : ℝ))))
  | .ibR => (if ‖((((e.Kp_GCC : ℝ) : ℂ) * e.ub) + e.xb)‖ > e.m_limit then (if SignType.sign ((e.wp * (((-(e.ub).re) + (e.ib_ref).re) - (e.ib).re))) = SignType.sign ((e.ub).re) then (0 : ℝ) else ((-e.wp) + (s1 * (((e.Kp_Q * e.wp) * (e.vb).im) / (2 : ℝ))))) else ((-e.wp) + (s1 * (((e.Kp_Q * e.wp) * (e.vb).im) / (2 : ℝ)))))
  | .ibI => (if ‖((((e.Kp_GCC : ℝ) : ℂ) * e.ub) + e.xb)‖ > e.m_limit then (if SignType.sign ((e.wp * (((-(e.ub).re) + (e.ib_ref).re) - (e.ib).re))) = SignType.sign ((e.ub).re) then (0 : ℝ) else ((-s1) * (((e.Kp_Q * e.wp) * (e.vb).re) / (2 : ℝ)))) else ((-s1) * (((e.Kp_Q * e.wp) * (e.vb).re) / (2 : ℝ))))
  | .ubR => (if ‖((((e.Kp_GCC : ℝ) : ℂ) * e.ub) + e.xb)‖ > e.m_limit then (if SignType.sign ((e.wp * (((-(e.ub).re) + (e.ib_ref).re) - (e.ib).re))) = SignType.sign ((e.ub).re) then (0 : ℝ) else (-e.wp)) else (-e.wp))
  | .icR => (if ‖((((e.Kp_GCC : ℝ) : ℂ) * e.ub) + e.xb)‖ > e.m_limit then (if SignType.sign ((e.wp * (((-(e.ub).re) + (e.ib_ref).re) - (e.ib).re))) = SignType.sign ((e.ub).re) then (0 : ℝ) else (s1 * (((e.Kp_Q * e.wp) * (e.vc).im) / (2 : ℝ)))) else (s1 * (((e.Kp_Q * e.wp) * (e.vc).im) / (2 : ℝ))))
  | .icI => (if ‖((((e.Kp_GCC : ℝ) : ℂ) * e.ub) + e.xb)‖ > e.m_limit then (if SignType.sign ((e.wp * (((-(e.ub).re) + (e.ib_ref).re) - (e.ib).re))) = SignType.sign ((e.ub).re) then (0 : ℝ) else ((-s1) * (((e.Kp_Q * e.wp) * (e.vc).re) / (2 : ℝ)))) else ((-s1) * (((e.Kp_Q * e.wp) * (e.vc).re) / (2 : ℝ))))
  | .Vdc => (if ‖((((e.Kp_GCC : ℝ) : ℂ) * e.ub) + e.xb)‖ > e.m_limit then (if SignType.sign ((e.wp * (((-(e.ub).re) + (e.ib_ref).re) - (e.ib).re))) = SignType.sign ((e.ub).re) then (0 : ℝ) else ((((1 : ℝ) / 2) * e.wp) * e.Kp_DC)) else ((((1 : ℝ) / 2) * e.wp) * e.Kp_DC))
  | .xDC => (if ‖((((e.Kp_GCC : ℝ) : ℂ) * e.ub) + e.xb)‖ > e.m_limit then (if SignType.sign ((e.wp * (((-(e.ub).re) + (e.ib_ref).re) - (e.ib).re))) = SignType.sign ((e.ub).re) then (0 : ℝ) else ((-((1 : ℝ) / 2)) * e.wp)) else ((-((1 : ℝ) / 2)) * e.wp))
  | .xQ => (if ‖((((e.Kp_GCC : ℝ) : ℂ) * e.ub) + e.xb)‖ > e.m_limit then (if SignType.sign ((e.wp * (((-(e.ub).re) + (e.ib_ref).re) - (e.ib).re))) = SignType.sign ((e.ub).re) then (0 : ℝ) else (s1 * e.wp)) else (s1 * e.wp))
  | c => Jp .ubR c

/-- Row `ubI` written by `jac_ODE_model` (pvder/DER_components_three_phase.py 462-929); entries not assigned keep the value `Jp` of the previous call.  `s1`, `s2` stand for the literals 0.866025403 and 0.8660254037. -/
noncomputable def jac_ubI (s1 s2 : ℝ) (e : Env) (Jp : V → V → ℝ) : V → ℝ
  | .iaR => (if ‖((((e.Kp_GCC : ℝ) : ℂ) * e.ub) + e.xb)‖ > e.m_limit then (if SignType.sign ((e.wp * (((-(e.ub).im) + (e.ib_ref).im) - (e.ib).im))) = SignType.sign ((e.ub).im) then (0 : ℝ) else (-(((e.Kp_Q * e.wp) * (e.va).im) / (4 : ℝ)))) else (-(((e.Kp_Q * e.wp) * (e.va).im) / (4 : ℝ))))
  | .iaI => (if ‖((((e.Kp_GCC : ℝ) : ℂ) * e.ub) + e.xb)‖ > e.m_limit then (if SignType.sign ((e.wp * (((-(e.ub).im) + (e.ib_ref).im) - (e.ib).im))) = SignType.sign ((e.ub).im) then (0 : ℝ) else (((e.Kp_Q * e.wp) * (e.va).re) / (4 : ℝ))) else (((e.Kp_Q * e.wp) * (e.va).re) / (4 : ℝ)))
  | .ibR => (if ‖((((e.Kp_GCC : ℝ) : ℂ) * e.ub) + e.xb)‖ > e.m_limit then (if SignType.sign ((e.wp * (((-(e.ub).im) + (e.ib_ref).im) - (e.ib).im))) = SignType.sign ((e.ub).im) then (0 : ℝ) else (-(((e.Kp_Q * e.wp) * (e.vb).im) / (4 : ℝ)))) else (-(((e.Kp_Q * e.wp) * (e.vb).im) / (4 : ℝ))))
  | .ibI => (if ‖((((e.Kp_GCC : ℝ) : ℂ) * e.ub) + e.xb)‖ > e.m_limit then (if SignType.sign ((e.wp * (((-(e.ub).im) + (e.ib_ref).im) - (e.ib).im))) = SignType.sign ((e.ub).im) then (0 : ℝ) else ((-e.wp) + (((e.Kp_Q * e.wp) * (e.vb).re) / (4 : ℝ)))) else ((-e.wp) + (((e.Kp_Q * e.wp) * (e.vb).re) / (4 : ℝ))))
  | .ubI => (if ‖((((e.Kp_GCC : ℝ) : ℂ) * e.ub) + e.xb)‖ > e.m_limit then (if SignType.sign ((e.wp * (((-(e.ub).im) + (e.ib_ref).im) - (e.ib).im))) = SignType.sign ((e.ub).im) then (0 : ℝ) else (-e.wp)) else (-e.wp))
  | .icR => (if ‖((((e.Kp_GCC : ℝ) : ℂ) * e.ub) + e.xb)‖ > e.m_limit then (if SignType.sign ((e.wp * (((-(e.ub).im) + (e.ib_ref).im) - (e.ib).im))) = SignType.sign ((e.ub).im) then (0 : ℝ) else (-(((e.Kp_Q * e.wp) * (e.vc).im) / (4 : ℝ)))) else (-(((e.Kp_Q * e.wp) * (e.vc).im) / (4 : ℝ))))
  | .icI => (if ‖((((e.Kp_GCC : ℝ) : ℂ) * e.ub) + e.xb)‖ > e.m_limit then (if SignType.sign ((e.wp * (((-(e.ub).im) + (e.ib_ref).im) - (e.ib).im))) = SignType.sign ((e.ub).im) then (0 : ℝ) else (((e.Kp_Q * e.wp) * (e.vc).re) / (4 : ℝ))) else (((e.Kp_Q * e.wp) * (e.vc).re) / (4 : ℝ)))
  | .Vdc => (if ‖((((e.Kp_GCC : ℝ) : ℂ) * e.ub) + e.xb)‖ > e.m_limit then (if SignType.sign ((e.wp * (((-(e.ub).im) + (e.ib_ref).im) - (e.ib).im))) = SignType.sign ((e.ub).im) then (0 : ℝ) else ((s1 * e.Kp_DC) * e.wp)) else ((s1 * e.Kp_DC) * e.wp))
  | .xDC => (if ‖((((e.Kp_GCC : ℝ) : ℂ) * e.ub) + e.xb)‖ > e.m_limit then (if SignType.sign ((e.wp * (((-(e.ub).im) + (e.ib_ref).im) - (e.ib).im))) = SignType.sign ((e.ub).im) then (0 : ℝ) else ((-s1) * e.wp)) else ((-s1) * e.wp))
  | .xQ => (if ‖((((e.Kp_GCC : ℝ) : ℂ) * e.ub) + e.xb)‖ > e.m_limit then (if SignType.sign ((e.wp * (((-(e.ub).im) + (e.ib_ref).im) - (e.ib).im))) = SignType.sign ((e.ub).im) then (0 : ℝ) else ((-((1 : ℝ) / 2)) * e.wp)) else ((-((1 : ℝ) / 2)) * e.wp))
  | c => Jp .ubI c

/-- Row `icR` written by `jac_ODE_model` (pvder/DER_components_three_phase.py 462-929); entries not assigned keep the value `Jp` of the previous call.  `s1`, `s2` stand for the literals 0.866025403 and 0.8660254037. -/
noncomputable def jac_icR (s1 s2 : ℝ) (e : Env) (Jp : V → V → ℝ) : V → ℝ
  | .icR => ((-e.Rf) / e.Lf)
  | .icI => (((e.xPLL + (e.Kp_PLL * e.vd)) + (((2 : ℝ) * Real.pi) * (60 : ℝ))) / e.wbase)
  | .xcR => (e.Vdc / ((2 : ℝ) * e.Lf))
  | .ucR => ((e.Vdc * e.Kp_GCC) / ((2 : ℝ) * e.Lf))
  | .Vdc => (((e.xc).re + ((e.uc).re * e.Kp_GCC)) / ((2 : ℝ) * e.Lf))
  | .xPLL => ((e.ic).im / e.wbase)
  | .wte => ((((2 : ℝ) / (3 : ℝ)) * ((e.Kp_PLL * (e.ic).im) / e.wbase)) * (((((((-‖e.va‖) * (Real.cos ((((e.wgrid_measured * e.t) + (Complex.arg (e.va))) - (Real.pi / (2 : ℝ)))))) * (Real.sin (e.wte))) + (((((1 : ℝ) / 2) * ‖e.vb‖) * (Real.cos ((((e.wgrid_measured * e.t) + (Complex.arg (e.vb))) - (Real.pi / (2 : ℝ)))))) * (Real.sin (e.wte)))) + (((s2 * ‖e.vb‖) * (Real.cos ((((e.wgrid_measured * e.t) + (Complex.arg (e.vb))) - (Real.pi / (2 : ℝ)))))) * (Real.cos (e.wte)))) + (((((1 : ℝ) / 2) * ‖e.vc‖) * (Real.cos ((((e.wgrid_measured * e.t) + (Complex.arg (e.vc))) - (Real.pi / (2 : ℝ)))))) * (Real.sin (e.wte)))) - (((s2 * ‖e.vc‖) * (Real.cos ((((e.wgrid_measured * e.t) + (Complex.arg (e.vc))) - (Real.pi / (2 : ℝ)))))) * (Real.cos (e.wte)))))
  | c => Jp .icR c

/-- Row `icI` written by `jac_ODE_model` (pvder/DER_components_three_phase.py 462-929); entries not assigned keep the value `Jp` of the previous call.  `s1`, `s2` stand for the literals 0.866025403 and 0.8660254037. -/
noncomputable def jac_icI (s1 s2 : ℝ) (e : Env) (Jp : V → V → ℝ) : V → ℝ
  | .icR => ((-((e.xPLL + (e.Kp_PLL * e.vd)) + (((2 : ℝ) * Real.pi) * (60 : ℝ)))) / e.wbase)
  | .icI => ((-e.Rf) / e.Lf)
  | .xcI => (e.Vdc / ((2 : ℝ) * e.Lf))
  | .ucI => ((e.Vdc * e.Kp_GCC) / ((2 : ℝ) * e.Lf))
  | .Vdc => (((e.xc).im + ((e.uc).im * e.Kp_GCC)) / ((2 : ℝ) * e.Lf))
  | .xPLL => ((-(e.ic).re) / e.wbase)
  | .wte => (((-((2 : ℝ) / (3 : ℝ))) * ((e.Kp_PLL * (e.ic).re) / e.wbase)) * (((((((-‖e.va‖) * (Real.cos ((((e.wgrid_measured * e.t) + (Complex.arg (e.va))) - (Real.pi / (2 : ℝ)))))) * (Real.sin (e.wte))) + (((((1 : ℝ) / 2) * ‖e.vb‖) * (Real.cos ((((e.wgrid_measured * e.t) + (Complex.arg (e.vb))) - (Real.pi / (2 : ℝ)))))) * (Real.sin (e.wte)))) + (((s2 * ‖e.vb‖) * (Real.cos ((((e.wgrid_measured * e.t) + (Complex.arg (e.vb))) - (Real.pi / (2 : ℝ)))))) * (Real.cos (e.wte)))) + (((((1 : ℝ) / 2) * ‖e.vc‖) * (Real.cos ((((e.wgrid_measured * e.t) + (Complex.arg (e.vc))) - (Real.pi / (2 : ℝ)))))) * (Real.sin (e.wte)))) - (((s2 * ‖e.vc‖) * (Real.cos ((((e.wgrid_measured * e.t) + (Complex.arg (e.vc))) - (Real.pi / (2 : ℝ)))))) * (Real.cos (e.wte)))))
  | c => Jp .icI c

/-- Row `xcR` written by `jac_ODE_model` (pvder/DER_components_three_phase.py 462-929); entries not assigned keep the value `Jp` of the previous call.  `s1`, `s2` stand for the literals 0.866025403 and 0.8660254037. -/
noncomputable def jac_xcR (s1 s2 : ℝ) (e : Env) (Jp : V → V → ℝ) : V → ℝ
  | .ucR => (if ‖((((e.Kp_GCC : ℝ) : ℂ) * e.uc) + e.xc)‖ > e.m_limit then (if SignType.sign ((e.Ki_GCC * (e.uc).re)) = SignType.sign ((e.xc).re) then (0 : ℝ) else e.Ki_GCC) else e.Ki_GCC)
  | c => Jp .xcR c

/-- Row `xcI` written by `jac_ODE_model` (pvder/DER_components_three_phase.py 462-929); entries not assigned keep the value `Jp` of the previous call.  `s1`, `s2` stand for the literals 0.866025403 and 0.8660254037. -/
noncomputable def jac_xcI (s1 s2 : ℝ) (e : Env) (Jp : V → V → ℝ) : V → ℝ
  | .ucI => (if ‖((((e.Kp_GCC : ℝ) : ℂ) * e.uc) + e.xc)‖ > e.m_limit then (if SignType.sign ((e.Ki_GCC * (e.uc).im)) = SignType.sign ((e.xc).im) then (0 : ℝ) else e.Ki_GCC) else e.Ki_GCC)
  | c => Jp .xcI c

/-- Row `ucR` written by `jac_ODE_model` (pvder/DER_components_three_phase.py 462-929); entries not assigned keep the value `Jp` of the previous call.  `s1`, `s2` stand for the literals 0.866025403 and 0.8660254037. -/
noncomputable def jac_ucR (s1 s2 : ℝ) (e : Env) (Jp : V → V → ℝ) : V → ℝ
  | .iaR => (if ‖((((e.Kp_GCC : ℝ) : ℂ) * e.uc) + e.xc)‖ > e.m_limit then (if SignType.sign ((e.wp * (((-(e.uc).re) + (e.ic_ref).re) - (e.ic).re))) = SignType.sign ((e.uc).re) then (0 : ℝ) else ((-s1) * (((e.Kp_Q * e.wp) * (e.va).im) / (2 : ℝ)))) else ((-s1) * (((e.Kp_Q * e.wp) * (e.va).im) / (2 : ℝ))))
  | .iaI => (if ‖((((e.Kp_GCC : ℝ) : ℂ) * e.uc) + e.xc)‖ > e.m_limit then (if SignType.sign ((e.wp * (((-(e.uc).re) + (e.ic_ref).re) - (e.ic).re))) = SignType.sign ((e.uc).re) then (0 : ℝ) else (s1 * (((e.Kp_Q * e.wp) * (e.va).re) / (2 : ℝ)))) else (s1 * (((e.Kp_Q * e.wp) * (e.va).re) / (2 : ℝ))))
  | .ibR => (if ‖((((e.Kp_GCC : ℝ) : ℂ) * e.uc) + e.xc)‖ > e.m_limit then (if SignType.sign ((e.wp * (((-(e.uc).re) + (e.ic_ref).re) - (e.ic).re))) = SignType.sign ((e.uc).re) then (0 : ℝ) else ((-s1) * (((e.Kp_Q * e.wp) * (e.vb).im) / (2 : ℝ)))) else ((-s1) * (((e.Kp_Q * e.wp) * (e.vb).im) / (2 : ℝ))))
  | .ibI => (if ‖((((e.Kp_GCC : ℝ) : ℂ) * e.uc) + e.xc)‖ > e.m_limit then (if SignType.sign ((e.wp * (((-(e.uc).re) + (e.ic_ref).re) - (e.ic).re))) = SignType.sign ((e.uc).re) then (0 : ℝ) else (s1 * (((e.Kp_Q * e.wp) * (e.vb).re) / (2 : ℝ)))) else (s1 * (((e.Kp_Q * e.wp) * (e.vb).re) / (2 : ℝ))))
  | .icR => (if ‖((((e.Kp_GCC : ℝ) : ℂ) * e.uc) + e.xc)‖ > e.m_limit then (if SignType.sign ((e.wp * (((-(e.uc).re) + (e.ic_ref).re) - (e.ic).re))) = SignType.sign ((e.uc).re) then (0 : ℝ) else ((-e.wp) - (s1 * (((e.Kp_Q * e.wp) * (e.vc).im) / (2 : ℝ))))) else ((-e.wp) - (s1 * (((e.Kp_Q * e.wp) * (e.vc).im) / (2 : ℝ)))))
  | .icI => (if ‖((((e.Kp_GCC : ℝ) : ℂ) * e.uc) + e.xc)‖ > e.m_limit then (if SignType.sign ((e.wp * (((-(e.uc).re) + (e.ic_ref).re) - (e.ic).re))) = SignType.sign ((e.uc).re) then (0 : ℝ) else (s1 * (((e.Kp_Q * e.wp) * (e.vc).re) / (2 : ℝ)))) else (s1 * (((e.Kp_Q * e.wp) * (e.vc).re) / (2 : ℝ))))
  | .ucR => (if ‖((((e.Kp_GCC : ℝ) : ℂ) * e.uc) + e.xc)‖ > e.m_limit then (if SignType.sign ((e.wp * (((-(e.uc).re) + (e.ic_ref).re) - (e.ic).re))) = SignType.sign ((e.uc).re) then (0 : ℝ) else (-e.wp)) else (-e.wp))
  | .Vdc => (if ‖((((e.Kp_GCC : ℝ) : ℂ) * e.uc) + e.xc)‖ > e.m_limit then (if SignType.sign ((e.wp * (((-(e.uc).re) + (e.ic_ref).re) - (e.ic).re))) = SignType.sign ((e.uc).re) then (0 : ℝ) else ((((1 : ℝ) / 2) * e.wp) * e.Kp_DC)) else ((((1 : ℝ) / 2) * e.wp) * e.Kp_DC))
  | .xDC => (if ‖((((e.Kp_GCC : ℝ) : ℂ) * e.uc) + e.xc)‖ > e.m_limit then (if SignType.sign ((e.wp * (((-(e.uc).re) + (e.ic_ref).re) - (e.ic).re))) = SignType.sign ((e.uc).re) then (0 : ℝ) else ((-((1 : ℝ) / 2)) * e.wp)) else ((-((1 : ℝ) / 2)) * e.wp))
  | .xQ => (if ‖((((e.Kp_GCC : ℝ) : ℂ) * e.uc) + e.xc)‖ > e.m_limit then (if SignType.sign ((e.wp * (((-(e.uc).re) + (e.ic_ref).re) - (e.ic).re))) = SignType.sign ((e.uc).re) then (0 : ℝ) else ((-s1) * e.wp)) else ((-s1) * e.wp))
  | c => Jp .ucR c

/-- Row `ucI` written by `jac_ODE_model` (pvder/DER_components_three_phase.py 462-929); entries not assigned keep the value `Jp` of the previous call.  `s1`, `s2` stand for the literals 0.866025403 and 0.8660254037. -/
noncomputable def jac_ucI (s1 s2 : ℝ) (e : Env) (Jp : V → V → ℝ) : V → ℝ
  | .iaR => (if ‖((((e.Kp_GCC : ℝ) : ℂ) * e.uc) + e.xc)‖ > e.m_limit then (if SignType.sign ((e.wp * (((-(e.uc).im) + (e.ic_ref).im) - (e.ic).im))) = SignType.sign ((e.uc).im) then (0 : ℝ) else ((((-e.Kp_Q) * e.wp) * (e.va).im) / (4 : ℝ))) else ((((-e.Kp_Q) * e.wp) * (e.va).im) / (4 : ℝ)))
  | .iaI => (if ‖((((e.Kp_GCC : ℝ) : ℂ) * e.uc) + e.xc)‖ > e.m_limit then (if SignType.sign ((e.wp * (((-(e.uc).im) + (e.ic_ref).im) - (e.ic).im))) = SignType.sign ((e.uc).im) then (0 : ℝ) else (((e.Kp_Q * e.wp) * (e.va).re) / (4 : ℝ))) else (((e.Kp_Q * e.wp) * (e.va).re) / (4 : ℝ)))
  | .ibR => (if ‖((((e.Kp_GCC : ℝ) : ℂ) * e.uc) + e.xc)‖ > e.m_limit then (if SignType.sign ((e.wp * (((-(e.uc).im) + (e.ic_ref).im) - (e.ic).im))) = SignType.sign ((e.uc).im) then (0 : ℝ) else ((((-e.Kp_Q) * e.wp) * (e.vb).im) / (4 : ℝ))) else ((((-e.Kp_Q) * e.wp) * (e.vb).im) / (4 : ℝ)))
  | .ibI => (if ‖((((e.Kp_GCC : ℝ) : ℂ) * e.uc) + e.xc)‖ > e.m_limit then (if SignType.sign ((e.wp * (((-(e.uc).im) + (e.ic_ref).im) - (e.ic).im))) = SignType.sign ((e.uc).im) then (0 : ℝ) else (((e.Kp_Q * e.wp) * (e.vb).re) / (4 : ℝ))) else (((e.Kp_Q * e.wp) * (e.vb).re) / (4 : ℝ)))
  | .icR => (if ‖((((e.Kp_GCC : ℝ) : ℂ) * e.uc) + e.xc)‖ > e.m_limit then (if SignType.sign ((e.wp * (((-(e.uc).im) + (e.ic_ref).im) - (e.ic).im))) = SignType.sign ((e.uc).im) then (0 : ℝ) else (-(((e.Kp_Q * e.wp) * (e.vc).im) / (4 : ℝ)))) else (-(((e.Kp_Q * e.wp) * (e.vc).im) / (4 : ℝ))))
  | .icI => (if ‖((((e.Kp_GCC : ℝ) : ℂ) * e.uc) + e.xc)‖ > e.m_limit then (if SignType.sign ((e.wp * (((-(e.uc).im) + (e.ic_ref).im) - (e.ic).im))) = SignType.sign ((e.uc).im) then (0 : ℝ) else ((-e.wp) + (((e.Kp_Q * e.wp) * (e.vc).re) / (4 : ℝ)))) else ((-e.wp) + (((e.Kp_Q * e.wp) * (e.vc).re) / (4 : ℝ))))
  | .ucI => (if ‖((((e.Kp_GCC : ℝ) : ℂ) * e.uc) + e.xc)‖ > e.m_limit then (if SignType.sign ((e.wp * (((-(e.uc).im) + (e.ic_ref).im) - (e.ic).im))) = SignType.sign ((e.uc).im) then (0 : ℝ) else (-e.wp)) else (-e.wp))
  | .Vdc => (if ‖((((e.Kp_GCC : ℝ) : ℂ) * e.uc) + e.xc)‖ > e.m_limit then (if SignType.sign ((e.wp * (((-(e.uc).im) + (e.ic_ref).im) - (e.ic).im))) = SignType.sign ((e.uc).im) then (0 : ℝ) else (((-s2) * e.Kp_DC) * e.wp)) else (((-s2) * e.Kp_DC) * e.wp))
  | .xDC => (if ‖((((e.Kp_GCC : ℝ) : ℂ) * e.uc) + e.xc)‖ > e.m_limit then (if SignType.sign ((e.wp * (((-(e.uc).im) + (e.ic_ref).im) - (e.ic).im))) = SignType.sign ((e.uc).im) then (0 : ℝ) else (s2 * e.wp)) else (s2 * e.wp))
  | .xQ => (if ‖((((e.Kp_GCC : ℝ) : ℂ) * e.uc) + e.xc)‖ > e.m_limit then (if SignType.sign ((e.wp * (((-(e.uc).im) + (e.ic_ref).im) - (e.ic).im))) = SignType.sign ((e.uc).im) then (0 : ℝ) else ((-((1 : ℝ) / 2)) * e.wp)) else ((-((1 : ℝ) / 2)) * e.wp))
  | c => Jp .ucI c

/-- Row `Vdc` written by `jac_ODE_model` (pvder/DER_components_three_phase.py 462-929); entries not assigned keep the value `Jp` of the previous call.  `s1`, `s2` stand for the literals 0.866025403 and 0.8660254037. -/
noncomputable def jac_Vdc (s1 s2 : ℝ) (e : Env) (Jp : V → V → ℝ) : V → ℝ
  | .iaR => ((-((e.xa).re + (e.Kp_GCC * (e.ua).re))) / ((4 : ℝ) * e.C))
  | .iaI => ((-((e.xa).im + (e.Kp_GCC * (e.ua).im))) / ((4 : ℝ) * e.C))
  | .xaR => ((-(e.ia).re) / ((4 : ℝ) * e.C))
  | .xaI => ((-(e.ia).im) / ((4 : ℝ) * e.C))
  | .uaR => ((-(e.Kp_GCC * (e.ia).re)) / ((4 : ℝ) * e.C))
  | .uaI => ((-(e.Kp_GCC * (e.ia).im)) / ((4 : ℝ) * e.C))
  | .ibR => ((-((e.xb).re + (e.Kp_GCC * (e.ub).re))) / ((4 : ℝ) * e.C))
  | .ibI => ((-((e.xb).im + (e.Kp_GCC * (e.ub).im))) / ((4 : ℝ) * e.C))
  | .xbR => ((-(e.ib).re) / ((4 : ℝ) * e.C))
  | .xbI => ((-(e.ib).im) / ((4 : ℝ) * e.C))
  | .ubR => ((-(e.Kp_GCC * (e.ib).re)) / ((4 : ℝ) * e.C))
  | .ubI => ((-(e.Kp_GCC * (e.ib).im)) / ((4 : ℝ) * e.C))
  | .icR => ((-((e.xc).re + (e.Kp_GCC * (e.uc).re))) / ((4 : ℝ) * e.C))
  | .icI => ((-((e.xc).im + (e.Kp_GCC * (e.uc).im))) / ((4 : ℝ) * e.C))
  | .xcR => ((-(e.ic).re) / ((4 : ℝ) * e.C))
  | .xcI => ((-(e.ic).im) / ((4 : ℝ) * e.C))
  | .ucR => ((-(e.Kp_GCC * (e.ic).re)) / ((4 : ℝ) * e.C))
  | .ucI => ((-(e.Kp_GCC * (e.ic).im)) / ((4 : ℝ) * e.C))
  | .Vdc => (((-(((e.q * e.Np) * e.Irs) * (e.Vdcbase ^ 2))) / (((((e.C * e.k) * e.A) * e.Ns) * e.Tactual) * e.Sbase)) * (Real.exp ((((e.q * e.Vdc) * e.Vdcbase) / (((e.k * e.A) * e.Ns) * e.Tactual)))))
  | c => Jp .Vdc c

/-- Row `xDC` written by `jac_ODE_model` (pvder/DER_components_three_phase.py 462-929); entries not assigned keep the value `Jp` of the previous call.  `s1`, `s2` stand for the literals 0.866025403 and 0.8660254037. -/
noncomputable def jac_xDC (s1 s2 : ℝ) (e : Env) (Jp : V → V → ℝ) : V → ℝ
  | .Vdc => (if ‖((((e.xDC + (e.Kp_DC * (e.Vdc_ref - e.Vdc))) : ℝ) : ℂ) + (Complex.I * (((e.xQ - (e.Kp_Q * (e.Q_ref - (e.S_PCC).im))) : ℝ) : ℂ)))‖ > e.iref_limit then (if SignType.sign ((e.Ki_DC * (e.Vdc_ref - e.Vdc))) = SignType.sign (e.xDC) then (0 : ℝ) else (-e.Ki_DC)) else (-e.Ki_DC))
  | c => Jp .xDC c

/-- Row `xQ` written by `jac_ODE_model` (pvder/DER_components_three_phase.py 462-929); entries not assigned keep the value `Jp` of the previous call.  `s1`, `s2` stand for the literals 0.866025403 and 0.8660254037. -/
noncomputable def jac_xQ (s1 s2 : ℝ) (e : Env) (Jp : V → V → ℝ) : V → ℝ
  | .iaR => (if ‖((((e.xDC + (e.Kp_DC * (e.Vdc_ref - e.Vdc))) : ℝ) : ℂ) + (Complex.I * (((e.xQ - (e.Kp_Q * (e.Q_ref - (e.S_PCC).im))) : ℝ) : ℂ)))‖ > e.iref_limit then (if SignType.sign (((-e.Ki_Q) * (e.Q_ref - (e.S_PCC).im))) = SignType.sign (e.xQ) then (0 : ℝ) else ((e.Ki_Q * (e.va).im) / (2 : ℝ))) else ((e.Ki_Q * (e.va).im) / (2 : ℝ)))
  | .iaI => (if ‖((((e.xDC + (e.Kp_DC * (e.Vdc_ref - e.Vdc))) : ℝ) : ℂ) + (Complex.I * (((e.xQ - (e.Kp_Q * (e.Q_ref - (e.S_PCC).im))) : ℝ) : ℂ)))‖ > e.iref_limit then (if SignType.sign (((-e.Ki_Q) * (e.Q_ref - (e.S_PCC).im))) = SignType.sign (e.xQ) then (0 : ℝ) else (-((e.Ki_Q * (e.va).re) / (2 : ℝ)))) else (-((e.Ki_Q * (e.va).re) / (2 : ℝ))))
  | .ibR => (if ‖((((e.xDC + (e.Kp_DC * (e.Vdc_ref - e.Vdc))) : ℝ) : ℂ) + (Complex.I * (((e.xQ - (e.Kp_Q * (e.Q_ref - (e.S_PCC).im))) : ℝ) : ℂ)))‖ > e.iref_limit then (if SignType.sign (((-e.Ki_Q) * (e.Q_ref - (e.S_PCC).im))) = SignType.sign (e.xQ) then (0 : ℝ) else ((e.Ki_Q * (e.vb).im) / (2 : ℝ))) else ((e.Ki_Q * (e.vb).im) / (2 : ℝ)))
  | .ibI => (if ‖((((e.xDC + (e.Kp_DC * (e.Vdc_ref - e.Vdc))) : ℝ) : ℂ) + (Complex.I * (((e.xQ - (e.Kp_Q * (e.Q_ref - (e.S_PCC).im))) : ℝ) : ℂ)))‖ > e.iref_limit then (if SignType.sign (((-e.Ki_Q) * (e.Q_ref - (e.S_PCC).im))) = SignType.sign (e.xQ) then (0 : ℝ) else (-((e.Ki_Q * (e.vb).re) / (2 : ℝ)))) else (-((e.Ki_Q * (e.vb).re) / (2 : ℝ))))
  | .icR => (if ‖((((e.xDC + (e.Kp_DC * (e.Vdc_ref - e.Vdc))) : ℝ) : ℂ) + (Complex.I * (((e.xQ - (e.Kp_Q * (e.Q_ref - (e.S_PCC).im))) : ℝ) : ℂ)))‖ > e.iref_limit then (if SignType.sign (((-e.Ki_Q) * (e.Q_ref - (e.S_PCC).im))) = SignType.sign (e.xQ) then (0 : ℝ) else ((e.Ki_Q * (e.vc).im) / (2 : ℝ))) else ((e.Ki_Q * (e.vc).im) / (2 : ℝ)))
  | .icI => (if ‖((((e.xDC + (e.Kp_DC * (e.Vdc_ref - e.Vdc))) : ℝ) : ℂ) + (Complex.I * (((e.xQ - (e.Kp_Q * (e.Q_ref - (e.S_PCC).im))) : ℝ) : ℂ)))‖ > e.iref_limit then (if SignType.sign (((-e.Ki_Q) * (e.Q_ref - (e.S_PCC).im))) = SignType.sign (e.xQ) then (0 : ℝ) else (-((e.Ki_Q * (e.vc).re) / (2 : ℝ)))) else (-((e.Ki_Q * (e.vc).re) / (2 : ℝ))))
  | c => Jp .xQ c

/-- Row `xPLL` written by `jac_ODE_model` (pvder/DER_components_three_phase.py 462-929); entries not assigned keep the value `Jp` of the previous call.  `s1`, `s2` stand for the literals 0.866025403 and 0.8660254037. -/
noncomputable def jac_xPLL (s1 s2 : ℝ) (e : Env) (Jp : V → V → ℝ) : V → ℝ
  | .wte => ((((2 : ℝ) / (3 : ℝ)) * e.Ki_PLL) * (((((((-‖e.va‖) * (Real.cos ((((e.wgrid_measured * e.t) + (Complex.arg (e.va))) - (Real.pi / (2 : ℝ)))))) * (Real.sin (e.wte))) + (((((1 : ℝ) / 2) * ‖e.vb‖) * (Real.cos ((((e.wgrid_measured * e.t) + (Complex.arg (e.vb))) - (Real.pi / (2 : ℝ)))))) * (Real.sin (e.wte)))) + (((s2 * ‖e.vb‖) * (Real.cos ((((e.wgrid_measured * e.t) + (Complex.arg (e.vb))) - (Real.pi / (2 : ℝ)))))) * (Real.cos (e.wte)))) + (((((1 : ℝ) / 2) * ‖e.vc‖) * (Real.cos ((((e.wgrid_measured * e.t) + (Complex.arg (e.vc))) - (Real.pi / (2 : ℝ)))))) * (Real.sin (e.wte)))) - (((s2 * ‖e.vc‖) * (Real.cos ((((e.wgrid_measured * e.t) + (Complex.arg (e.vc))) - (Real.pi / (2 : ℝ)))))) * (Real.cos (e.wte)))))
  | c => Jp .xPLL c

/-- Row `wte` written by `jac_ODE_model` (pvder/DER_components_three_phase.py 462-929); entries not assigned keep the value `Jp` of the previous call.  `s1`, `s2` stand for the literals 0.866025403 and 0.8660254037. -/
noncomputable def jac_wte (s1 s2 : ℝ) (e : Env) (Jp : V → V → ℝ) : V → ℝ
  | .xPLL => (1 : ℝ)
  | .wte => ((((2 : ℝ) / (3 : ℝ)) * e.Kp_PLL) * (((((((-‖e.va‖) * (Real.cos ((((e.wgrid_measured * e.t) + (Complex.arg (e.va))) - (Real.pi / (2 : ℝ)))))) * (Real.sin (e.wte))) + (((((1 : ℝ) / 2) * ‖e.vb‖) * (Real.cos ((((e.wgrid_measured * e.t) + (Complex.arg (e.vb))) - (Real.pi / (2 : ℝ)))))) * (Real.sin (e.wte)))) + (((s2 * ‖e.vb‖) * (Real.cos ((((e.wgrid_measured * e.t) + (Complex.arg (e.vb))) - (Real.pi / (2 : ℝ)))))) * (Real.cos (e.wte)))) + (((((1 : ℝ) / 2) * ‖e.vc‖) * (Real.cos ((((e.wgrid_measured * e.t) + (Complex.arg (e.vc))) - (Real.pi / (2 : ℝ)))))) * (Real.sin (e.wte)))) - (((s2 * ‖e.vc‖) * (Real.cos ((((e.wgrid_measured * e.t) + (Complex.arg (e.vc))) - (Real.pi / (2 : ℝ)))))) * (Real.cos (e.wte)))))
  | c => Jp .wte c

/-- Row `Vrms` written by `jac_ODE_model` (pvder/DER_components_three_phase.py 462-929); entries not assigned keep the value `Jp` of the previous call.  `s1`, `s2` stand for the literals 0.866025403 and 0.8660254037. -/
noncomputable def jac_Vrms (s1 s2 : ℝ) (e : Env) (Jp : V → V → ℝ) : V → ℝ
  | c => Jp .Vrms c

/-- The matrix returned by `jac_ODE_model` (pvder/DER_components_three_phase.py 462-929) given the matrix `Jp` left by the previous call. -/
noncomputable def jac (s1 s2 : ℝ) (e : Env) (Jp : V → V → ℝ) : V → V → ℝ
  | .iaR => jac_iaR s1 s2 e Jp
  | .iaI => jac_iaI s1 s2 e Jp
  | .xaR => jac_xaR s1 s2 e Jp
  | .xaI => jac_xaI s1 s2 e Jp
  | .uaR => jac_uaR s1 s2 e Jp
  | .uaI => jac_uaI s1 s2 e Jp
  | .ibR => jac_ibR s1 s2 e Jp
  | .ibI => jac_ibI s1 s2 e Jp
  | .xbR => jac_xbR s1 s2 e Jp
  | .xbI => jac_xbI s1 s2 e Jp
  | .ubR => jac_ubR s1 s2 e Jp
  | .ubI => jac_ubI s1 s2 e Jp
  | .icR => jac_icR s1 s2 e Jp
  | .icI => jac_icI s1 s2 e Jp
  | .xcR => jac_xcR s1 s2 e Jp
  | .xcI => jac_xcI s1 s2 e Jp
  | .ucR => jac_ucR s1 s2 e Jp
  | .ucI => jac_ucI s1 s2 e Jp
  | .Vdc => jac_Vdc s1 s2 e Jp
  | .xDC => jac_xDC s1 s2 e Jp
  | .xQ => jac_xQ s1 s2 e Jp
  | .xPLL => jac_xPLL s1 s2 e Jp
  | .wte => jac_wte s1 s2 e Jp
  | .Vrms => jac_Vrms s1 s2 e Jp

end ThreePhase
end Ode
end PvDer
