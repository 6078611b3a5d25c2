import Mathlib.Analysis.SpecialFunctions.Complex.Arg
import Mathlib.Analysis.SpecialFunctions.Trigonometric.Basic
import Mathlib.Data.Sign.Basic
import Mathlib.Algebra.BigOperators.Group.Finset.Basic
import Mathlib.Tactic.Ring

/-!
# The attributes of a PV-DER instance that its derivative and Jacobian code reads

Exact real and complex arithmetic.  The generated files in `Verif/Model/Gen` translate `ODE_model` and `jac_ODE_model` of each class to functions of this
structure; `Verif/Model/Ode.lean` computes the structure from the state vector as the `update_*` calls at the beginning of both methods do.
-/

namespace PvDer
namespace Ode

/-- Attributes read by `ODE_model` / `jac_ODE_model` of the model classes (see the headers of the generated files for the lines). -/
structure Env where
  ia : ℂ
  ib : ℂ
  ic : ℂ
  xa : ℂ
  xb : ℂ
  xc : ℂ
  ua : ℂ
  ub : ℂ
  uc : ℂ
  va : ℂ
  vb : ℂ
  vc : ℂ
  vta : ℂ
  vtb : ℂ
  vtc : ℂ
  ia_ref : ℂ
  ib_ref : ℂ
  ic_ref : ℂ
  S : ℂ
  S_PCC : ℂ
  Vdc : ℝ
  xDC : ℝ
  xP : ℝ
  xQ : ℝ
  xPLL : ℝ
  wte : ℝ
  Vrms : ℝ
  Vrms_filter : ℝ
  vd : ℝ
  we : ℝ
  winv : ℝ
  Ppv : ℝ
  Vdc_ref : ℝ
  Q_ref : ℝ
  wgrid_measured : ℝ
  t : ℝ
  Lf : ℝ
  Rf : ℝ
  C : ℝ
  Kp_GCC : ℝ
  Ki_GCC : ℝ
  wp : ℝ
  Kp_DC : ℝ
  Ki_DC : ℝ
  Kp_P : ℝ
  Ki_P : ℝ
  Kp_Q : ℝ
  Ki_Q : ℝ
  Kp_PLL : ℝ
  Ki_PLL : ℝ
  m_limit : ℝ
  iref_limit : ℝ
  wbase : ℝ
  Tfilter_Vrms : ℝ
  q : ℝ
  Np : ℝ
  Irs : ℝ
  Vdcbase : ℝ
  k : ℝ
  A : ℝ
  Ns : ℝ
  Tactual : ℝ
  Sbase : ℝ

end Ode
end PvDer
