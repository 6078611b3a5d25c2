import Verif.Model.Circuit
import Verif.Model.Gen.SinglePhase
import Verif.Model.Gen.ThreePhase
import Verif.Model.Gen.ThreePhaseNoVrmsFilter
import Verif.Model.Gen.ThreePhaseNumba
import Verif.Model.Gen.ThreePhaseBalanced
import Verif.Model.Gen.SinglePhaseConstantVdc
import Verif.Model.Gen.ThreePhaseConstantVdc

/-!
# From the state vector to the attributes: the `update_*` calls of `ODE_model` and `jac_ODE_model`

Simplifications: the DER is connected and stays connected at this evaluation (`disconnect_or_reconnect` does nothing; the disconnected variant is `disc`), the
current ramp limiter is off, the PCC voltages come from outside (`standAlone = False`), and the values `Vdc_ref`, `Q_ref`, `wgrid_measured`, insolation and
temperature that the other update calls fetch are inputs.
-/

namespace PvDer
namespace Ode

open Complex Phasor

/-- Parameters of the instance: filter and DC link (DER_check_and_initialize.py 427-483), controller gains and limits (485-516), bases and PV module. -/
structure Par where
  Lf : ℝ
  Rf : ℝ
  C : ℝ
  Kp_GCC : ℝ
  Ki_GCC : ℝ
  wp : ℝ
  Kp_DC : ℝ
  Ki_DC : ℝ
  Kp_P : ℝ
  Ki_P : ℝ
  Kp_Q : ℝ
  Ki_Q : ℝ
  Kp_PLL : ℝ
  Ki_PLL : ℝ
  m_limit : ℝ
  iref_limit : ℝ
  wbase : ℝ
  Tfilter_Vrms : ℝ
  Vdcbase : ℝ
  Vdcmpp_max : ℝ
  mod : PV.Mod

/-- Inputs of one evaluation. -/
structure Inp where
  va : ℂ
  vb : ℂ
  vc : ℂ
  w : ℝ
  t : ℝ
  Vdc_ref : ℝ
  Q_ref : ℝ
  Sinsol : ℝ
  Tactual : ℝ
  /-- DC link voltage of the constant-Vdc models -/
  Vdc0 : ℝ

/-- `Ppv_calc(Vdc_actual)` with `Vdc_actual = min(Vdcmpp_max, Vdc*Vdcbase)` (DER_utilities.py 56-62, 305). -/
noncomputable def ppvOf (p : Par) (i : Inp) (Vdc : ℝ) : ℝ := PV.ppv p.mod i.Sinsol i.Tactual (min p.Vdcmpp_max (Vdc * p.Vdcbase))

/-- `ma`, `mb`, `mc` (DER_utilities.py 64-101). -/
noncomputable def duty (p : Par) (u x : ℂ) : ℂ := p.Kp_GCC * u + x

/-- `vta_calc` … (DER_utilities.py 165-186): `self.ma*(self.Vdc/2)`. -/
noncomputable def vtOf (p : Par) (u x : ℂ) (Vdc : ℝ) : ℂ := duty p u x * ((Vdc / 2 : ℝ) : ℂ)

/-- `ia_ref_calc` (DER_utilities.py 108-113); `ib_ref_calc` and `ic_ref_calc` (DER_utilities.py 124-129, 140-145) apply the phase shifts `ub`, `uc` to its result. -/
noncomputable def irefOf (p : Par) (i : Inp) (Vdc xDC xQ : ℝ) (SPCC : ℂ) : ℂ :=
  ((xDC + p.Kp_DC * (i.Vdc_ref - Vdc) : ℝ) : ℂ) + I * ((xQ - p.Kp_Q * (i.Q_ref - SPCC.im) : ℝ) : ℂ)

/-- `ia_ref_activepower_control` (DER_utilities.py 116-121); `ib_ref_activepower_control` and `ic_ref_activepower_control` (DER_utilities.py 132-137, 148-153) apply
the phase shifts `ub`, `uc` to its result. -/
noncomputable def irefPOf (p : Par) (i : Inp) (Ppv xP xQ : ℝ) (S SPCC : ℂ) : ℂ :=
  ((xP + p.Kp_P * (Ppv - S.re) : ℝ) : ℂ) + I * ((xQ - p.Kp_Q * (i.Q_ref - SPCC.im) : ℝ) : ℂ)

/-- Fields that do not depend on the state; the rest is zero. -/
noncomputable def Env.base (p : Par) (i : Inp) : Env :=
  { ia := 0, ib := 0, ic := 0, xa := 0, xb := 0, xc := 0, ua := 0, ub := 0, uc := 0, va := i.va, vb := i.vb, vc := i.vc, vta := 0, vtb := 0, vtc := 0,
    ia_ref := 0, ib_ref := 0, ic_ref := 0, S := 0, S_PCC := 0, Vdc := 0, xDC := 0, xP := 0, xQ := 0, xPLL := 0, wte := 0, Vrms := 0, Vrms_filter := 0,
    vd := 0, we := 0, winv := 0, Ppv := 0, Vdc_ref := i.Vdc_ref, Q_ref := i.Q_ref, wgrid_measured := i.w, t := i.t, Lf := p.Lf, Rf := p.Rf, C := p.C,
    Kp_GCC := p.Kp_GCC, Ki_GCC := p.Ki_GCC, wp := p.wp, Kp_DC := p.Kp_DC, Ki_DC := p.Ki_DC, Kp_P := p.Kp_P, Ki_P := p.Ki_P, Kp_Q := p.Kp_Q, Ki_Q := p.Ki_Q,
    Kp_PLL := p.Kp_PLL, Ki_PLL := p.Ki_PLL, m_limit := p.m_limit, iref_limit := p.iref_limit, wbase := p.wbase, Tfilter_Vrms := p.Tfilter_Vrms,
    q := p.mod.q, Np := p.mod.Np, Irs := p.mod.Irs, Vdcbase := p.Vdcbase, k := p.mod.k, A := p.mod.A, Ns := p.mod.Ns, Tactual := i.Tactual,
    Sbase := p.mod.Sbase }

/-- Attributes of a single-phase instance in connected operation (DER_components_single_phase.py 238-259, 340-365; the called methods 74-89, 134-152, 154-163,
181-193, 195-226 and DER_utilities.py 108-113, 165-170, 287-305). -/
noncomputable def env1 (p : Par) (i : Inp) (y : SinglePhase.V → ℝ) : Env :=
  let ia : ℂ := ⟨y .iaR, y .iaI⟩
  let xa : ℂ := ⟨y .xaR, y .xaI⟩
  let ua : ℂ := ⟨y .uaR, y .uaI⟩
  let vta := vtOf p ua xa (y .Vdc)
  let vd := (pll1 i.va i.w i.t (y .wte)).1
  let we := weCalc p.Kp_PLL vd (y .xPLL)
  { Env.base p i with
    ia := ia, xa := xa, ua := ua, vta := vta, S := sPh vta ia, S_PCC := sPh i.va ia,
    ia_ref := irefOf p i (y .Vdc) (y .xDC) (y .xQ) (sPh i.va ia),
    Vdc := y .Vdc, xDC := y .xDC, xQ := y .xQ, xPLL := y .xPLL, wte := y .wte, Vrms := urms i.va i.va i.va, vd := vd, we := we, winv := we,
    Ppv := ppvOf p i (y .Vdc) }

/-- Attributes of a three-phase instance (DER_components_three_phase.py 265-291, 464-495; methods 74-90, 149-172, 175-192, 209-230, 232-261), from the phase
quantities; the three-phase classes share this code (…_no_Vrms_filter.py 264-290, …_numba.py 412-441). -/
noncomputable def env3 (p : Par) (i : Inp) (ia xa ua ib xb ub ic xc uc : ℂ) (Vdc xDC xQ xPLL wte Vrms_filter : ℝ) : Env :=
  let vta := vtOf p ua xa Vdc
  let vtb := vtOf p ub xb Vdc
  let vtc := vtOf p uc xc Vdc
  let vd := (pll3 i.va i.vb i.vc i.w i.t wte).1
  let we := weCalc p.Kp_PLL vd xPLL
  let SPCC := sCalc i.va i.vb i.vc ia ib ic
  let iref := irefOf p i Vdc xDC xQ SPCC
  { Env.base p i with
    ia := ia, xa := xa, ua := ua, ib := ib, xb := xb, ub := ub, ic := ic, xc := xc, uc := uc, vta := vta, vtb := vtb, vtc := vtc,
    S := sCalc vta vtb vtc ia ib ic, S_PCC := SPCC, ia_ref := iref, ib_ref := Phasor.ub iref, ic_ref := Phasor.uc iref,
    Vdc := Vdc, xDC := xDC, xQ := xQ, xPLL := xPLL, wte := wte, Vrms := urms i.va i.vb i.vc, Vrms_filter := Vrms_filter, vd := vd, we := we, winv := we,
    Ppv := ppvOf p i Vdc }

/-- `update_inverter_states` of the three-phase class (DER_components_three_phase.py 266-275). -/
noncomputable def envT (p : Par) (i : Inp) (y : ThreePhase.V → ℝ) : Env :=
  env3 p i ⟨y .iaR, y .iaI⟩ ⟨y .xaR, y .xaI⟩ ⟨y .uaR, y .uaI⟩ ⟨y .ibR, y .ibI⟩ ⟨y .xbR, y .xbI⟩ ⟨y .ubR, y .ubI⟩ ⟨y .icR, y .icI⟩ ⟨y .xcR, y .xcI⟩
    ⟨y .ucR, y .ucI⟩ (y .Vdc) (y .xDC) (y .xQ) (y .xPLL) (y .wte) (y .Vrms)

/-- The class without RMS filter (DER_components_three_phase_no_Vrms_filter.py 265-274). -/
noncomputable def envN (p : Par) (i : Inp) (y : ThreePhaseNoVrmsFilter.V → ℝ) : Env :=
  env3 p i ⟨y .iaR, y .iaI⟩ ⟨y .xaR, y .xaI⟩ ⟨y .uaR, y .uaI⟩ ⟨y .ibR, y .ibI⟩ ⟨y .xbR, y .xbI⟩ ⟨y .ubR, y .ubI⟩ ⟨y .icR, y .icI⟩ ⟨y .xcR, y .xcI⟩
    ⟨y .ucR, y .ucI⟩ (y .Vdc) (y .xDC) (y .xQ) (y .xPLL) (y .wte) 0

/-- The numba class (DER_components_three_phase_numba.py 50-77, 419-427). -/
noncomputable def envNumba (p : Par) (i : Inp) (y : ThreePhaseNumba.V → ℝ) : Env :=
  env3 p i ⟨y .iaR, y .iaI⟩ ⟨y .xaR, y .xaI⟩ ⟨y .uaR, y .uaI⟩ ⟨y .ibR, y .ibI⟩ ⟨y .xbR, y .xbI⟩ ⟨y .ubR, y .ubI⟩ ⟨y .icR, y .icI⟩ ⟨y .xcR, y .xcI⟩
    ⟨y .ucR, y .ucI⟩ (y .Vdc) (y .xDC) (y .xQ) (y .xPLL) (y .wte) 0

/-- The balanced class: phases b and c are rotations of phase a, for states and voltages (DER_components_three_phase_balanced.py 268-293; methods 152-176, 178-191). -/
noncomputable def envB (p : Par) (i : Inp) (y : ThreePhaseBalanced.V → ℝ) : Env :=
  let ia : ℂ := ⟨y .iaR, y .iaI⟩
  let xa : ℂ := ⟨y .xaR, y .xaI⟩
  let ua : ℂ := ⟨y .uaR, y .uaI⟩
  env3 p { i with vb := Phasor.ub i.va, vc := Phasor.uc i.va } ia xa ua (Phasor.ub ia) (Phasor.ub xa) (Phasor.ub ua) (Phasor.uc ia) (Phasor.uc xa)
    (Phasor.uc ua) (y .Vdc) (y .xDC) (y .xQ) (y .xPLL) (y .wte) 0

/-- The constant-Vdc single-phase class (DER_components_single_phase_constant_Vdc.py 236-258; methods 127-147, 149-155, 195-223). -/
noncomputable def envC1 (p : Par) (i : Inp) (y : SinglePhaseConstantVdc.V → ℝ) : Env :=
  let ia : ℂ := ⟨y .iaR, y .iaI⟩
  let xa : ℂ := ⟨y .xaR, y .xaI⟩
  let ua : ℂ := ⟨y .uaR, y .uaI⟩
  let vta := vtOf p ua xa i.Vdc0
  let vd := (pll1 i.va i.w i.t (y .wte)).1
  let we := weCalc p.Kp_PLL vd (y .xPLL)
  { Env.base p i with
    ia := ia, xa := xa, ua := ua, vta := vta, S := sPh vta ia, S_PCC := sPh i.va ia,
    ia_ref := irefPOf p i (ppvOf p i i.Vdc0) (y .xP) (y .xQ) (sPh vta ia) (sPh i.va ia),
    Vdc := i.Vdc0, xP := y .xP, xQ := y .xQ, xPLL := y .xPLL, wte := y .wte, Vrms := urms i.va i.va i.va, vd := vd, we := we, winv := we,
    Ppv := ppvOf p i i.Vdc0 }

/-- The constant-Vdc three-phase class (DER_components_three_phase_constant_Vdc.py 288-311; methods 151-176, 178-191, 247-276). -/
noncomputable def envC3 (p : Par) (i : Inp) (y : ThreePhaseConstantVdc.V → ℝ) : Env :=
  let ia : ℂ := ⟨y .iaR, y .iaI⟩
  let xa : ℂ := ⟨y .xaR, y .xaI⟩
  let ua : ℂ := ⟨y .uaR, y .uaI⟩
  let ib : ℂ := ⟨y .ibR, y .ibI⟩
  let xb : ℂ := ⟨y .xbR, y .xbI⟩
  let ub : ℂ := ⟨y .ubR, y .ubI⟩
  let ic : ℂ := ⟨y .icR, y .icI⟩
  let xc : ℂ := ⟨y .xcR, y .xcI⟩
  let uc : ℂ := ⟨y .ucR, y .ucI⟩
  let vta := vtOf p ua xa i.Vdc0
  let vtb := vtOf p ub xb i.Vdc0
  let vtc := vtOf p uc xc i.Vdc0
  let vd := (pll3 i.va i.vb i.vc i.w i.t (y .wte)).1
  let we := weCalc p.Kp_PLL vd (y .xPLL)
  let S := sCalc vta vtb vtc ia ib ic
  let SPCC := sCalc i.va i.vb i.vc ia ib ic
  let iref := irefPOf p i (ppvOf p i i.Vdc0) (y .xP) (y .xQ) S SPCC
  { Env.base p i with
    ia := ia, xa := xa, ua := ua, ib := ib, xb := xb, ub := ub, ic := ic, xc := xc, uc := uc, vta := vta, vtb := vtb, vtc := vtc,
    S := S, S_PCC := SPCC, ia_ref := iref, ib_ref := Phasor.ub iref, ic_ref := Phasor.uc iref,
    Vdc := i.Vdc0, xP := y .xP, xQ := y .xQ, xPLL := y .xPLL, wte := y .wte, Vrms := urms i.va i.vb i.vc, vd := vd, we := we, winv := we,
    Ppv := ppvOf p i i.Vdc0 }

/-- What `DER_disconnect` changes before the derivatives are computed (DER_features.py 235-250, called by `disconnect_or_reconnect` at the end of the update
sequence): no PV power, no current and reactive references, DC reference equal to the present DC voltage. -/
noncomputable def disc (e : Env) : Env := { e with Ppv := 0, Vdc_ref := e.Vdc, Q_ref := 0, ia_ref := 0, ib_ref := 0, ic_ref := 0 }

/-- The numbers written in the Jacobian code for `√3/2` (DER_components_three_phase.py 521 and passim). -/
noncomputable def lit1 : ℝ := 866025403 / 1000000000
/-- see `lit1`. -/
noncomputable def lit2 : ℝ := 8660254037 / 10000000000

end Ode
end PvDer
