import Verif.Model.Ode

/-!
# The compiled kernels: `pvder/utility_functions_numba.py` and the module functions of `pvder/DER_components_three_phase_numba.py`

`Verif/Model/Gen/ThreePhaseNumba.lean` is a translation of `ODE_model` in which the calls to the kernels are replaced by their bodies.  Here every kernel is a
definition of its own, with the argument order of the source, and `eval` is `ODE_model` of the compiled class written with the calls.  `@numba.njit` itself is
not modelled: a compiled function is taken to compute what its body says, over exact numbers.
-/

namespace PvDer
namespace Numba

open Complex Phasor

/-! ## `utility_functions_numba.py` -/

/-- `Uunbalance_calc` (utility_functions_numba.py 42-45) on real magnitudes. -/
noncomputable def Uunbalance_calc (ua ub uc : ℝ) : ℝ :=
  let uavg := (ua + ub + uc) / 3
  (max (max ua ub) uc - min (min ua ub) uc) / uavg

/-- `Ppv_calc` (utility_functions_numba.py 48-55), with the physical constants written as literals in the body: `Irs = 1.2e-7`, `q = 1.602e-19`, `k = 1.38e-23`,
`A = 1.92`. -/
noncomputable def Ppv_calc_util (Iph Np Ns Vdc_actual Tactual Sbase : ℝ) : ℝ :=
  let Irs : ℝ := 12 / 10 ^ 8
  let q : ℝ := 1602 / 10 ^ 22
  let k : ℝ := 138 / 10 ^ 25
  let A : ℝ := 192 / 100
  let Ipv := Np * Iph - Np * Irs * (Real.exp (q * Vdc_actual / (k * Tactual * A * Ns)) - 1)
  max 0 (Ipv * Vdc_actual) / Sbase

/-- `we_calc` (utility_functions_numba.py 58-60). -/
noncomputable def we_calc (xPLL vd Kp_PLL : ℝ) : ℝ := Kp_PLL * vd + xPLL + 2 * Real.pi * 60

/-- `S_calc` (utility_functions_numba.py 63-65). -/
noncomputable def S_calc (va vb vc ia ib ic : ℂ) : ℂ :=
  (1 / 2) * (va * (starRingEnd ℂ) ia + vb * (starRingEnd ℂ) ib + vc * (starRingEnd ℂ) ic) * 1

/-- `S_load_calc` (utility_functions_numba.py 68-70). -/
noncomputable def S_load_calc (va vb vc Zload : ℂ) : ℂ :=
  (1 / 2) * (va * (starRingEnd ℂ) (-(va / Zload)) + vb * (starRingEnd ℂ) (-(vb / Zload)) + vc * (starRingEnd ℂ) (-(vc / Zload)))

/-- `S_G_calc` (utility_functions_numba.py 73-75). -/
noncomputable def S_G_calc (va vb vc vag vbg vcg ia ib ic Zload : ℂ) (a : ℝ) : ℂ :=
  (1 / 2) * ((starRingEnd ℂ) (-(ia - va / Zload) / a) * vag + (starRingEnd ℂ) (-(ib - vb / Zload) / a) * vbg + (starRingEnd ℂ) (-(ic - vc / Zload) / a) * vcg)

/-- `m_calc` (utility_functions_numba.py 79-81). -/
noncomputable def m_calc (Kp_GCC : ℝ) (u x : ℂ) : ℂ := Kp_GCC * u + x

/-- `ia_ref_Vdc_Q_control_calc` (utility_functions_numba.py 84-86). -/
noncomputable def ia_ref_Vdc_Q_control_calc (xDC xQ Vdc : ℝ) (S : ℂ) (Vdc_ref Q_ref Kp_DC Kp_Q : ℝ) : ℂ :=
  ((xDC + Kp_DC * (Vdc_ref - Vdc) : ℝ) : ℂ) + I * ((xQ - Kp_Q * (Q_ref - S.im) : ℝ) : ℂ)

/-- `i_load_calc` (utility_functions_numba.py 89-91). -/
noncomputable def i_load_calc (v Zload : ℂ) : ℂ := v / Zload

/-- `vt_calc` (utility_functions_numba.py 94-96). -/
noncomputable def vt_calc (m : ℂ) (Vdc : ℝ) : ℂ := m * ((Vdc / 2 : ℝ) : ℂ)

/-- `Vabrms_calc` (utility_functions_numba.py 99-101). -/
noncomputable def Vabrms_calc (va vb : ℂ) : ℝ := ‖va - vb‖ / Real.sqrt 2

/-- `Urms_calc` (utility_functions_numba.py 104-106). -/
noncomputable def Urms_calc (ua ub uc : ℂ) : ℝ := Real.sqrt ((‖ua‖ ^ 2 + ‖ub‖ ^ 2 + ‖uc‖ ^ 2) / 3) / Real.sqrt 2

/-- `Urms_min_calc` (utility_functions_numba.py 109-111). -/
noncomputable def Urms_min_calc (ua ub uc : ℂ) : ℝ := min (min ‖ua‖ ‖ub‖) ‖uc‖ / Real.sqrt 2

/-- `Urms_calc_1phase` (utility_functions_numba.py 114-116). -/
noncomputable def Urms_calc_1phase (ua : ℂ) : ℝ := ‖ua‖ / Real.sqrt 2

/-- `Ub_calc` (utility_functions_numba.py 119-122). -/
noncomputable def Ub_calc (Ua : ℂ) : ℂ := Ua * exp (I * ((-(2 / 3) * Real.pi : ℝ) : ℂ))

/-- `Uc_calc` (utility_functions_numba.py 125-128). -/
noncomputable def Uc_calc (Ua : ℂ) : ℂ := Ua * exp (I * (((2 / 3) * Real.pi : ℝ) : ℂ))

/-- `relative_phase_calc` (utility_functions_numba.py 131-137), in radians (`degrees = false`) or degrees. -/
noncomputable def relative_phase_calc (u v : ℂ) (degrees : Bool) : ℝ :=
  let d := (arg u - arg v) * (180 / Real.pi)
  let r := d - 360 * ⌊d / 360⌋
  if degrees then r else r * (Real.pi / 180)

/-- `phasor_to_time` (utility_functions_numba.py 141-152). -/
noncomputable def phasor_to_time (upha uphb uphc : ℂ) (w t : ℝ) : ℝ × ℝ × ℝ :=
  (‖upha‖ * (exp (I * ((w * t + arg upha - Real.pi / 2 : ℝ) : ℂ))).re,
   ‖uphb‖ * (exp (I * ((w * t + arg uphb - Real.pi / 2 : ℝ) : ℂ))).re,
   ‖uphc‖ * (exp (I * ((w * t + arg uphc - Real.pi / 2 : ℝ) : ℂ))).re)

/-- `phasor_to_time_1phase` (utility_functions_numba.py 155-158). -/
noncomputable def phasor_to_time_1phase (uph : ℂ) (w t : ℝ) : ℝ := ‖uph‖ * (exp (I * ((w * t + arg uph - Real.pi / 2 : ℝ) : ℂ))).re

/-- `abc_to_dq0` (utility_functions_numba.py 161-167). -/
noncomputable def abc_to_dq0 (ua ub uc wt : ℝ) : ℝ × ℝ × ℝ :=
  let Us : ℂ := (2 / 3) * (ua + ub * exp (I * (((2 / 3) * Real.pi : ℝ) : ℂ)) + uc * exp (I * ((-(2 / 3) * Real.pi : ℝ) : ℂ))) * exp (I * ((-wt : ℝ) : ℂ))
  (Us.re, Us.im, 1 / 3 * (ua + ub + uc))

/-- `dq0_to_abc` (utility_functions_numba.py 170-175). -/
noncomputable def dq0_to_abc (ud uq u0 wt : ℝ) : ℝ × ℝ × ℝ :=
  (ud * Real.cos wt - uq * Real.sin wt + u0,
   ud * Real.cos (wt - (2 / 3) * Real.pi) - uq * Real.sin (wt - (2 / 3) * Real.pi) + u0,
   ud * Real.cos (wt + (2 / 3) * Real.pi) - uq * Real.sin (wt + (2 / 3) * Real.pi) + u0)

/-- `alpha_beta_to_d_q` (utility_functions_numba.py 178-192). -/
noncomputable def alpha_beta_to_d_q (ualpha ubeta wt : ℝ) : ℝ × ℝ :=
  let Us : ℂ := (ualpha + I * ubeta) * exp (-I * wt)
  (Us.re, Us.im)

/-- `phasor_to_symmetrical` (utility_functions_numba.py 195-204). -/
noncomputable def phasor_to_symmetrical (upha uphb uphc : ℂ) : ℂ × ℂ × ℂ :=
  let a : ℂ := exp (I * (((2 / 3) * Real.pi : ℝ) : ℂ))
  let aa : ℂ := exp (I * (((4 / 3) * Real.pi : ℝ) : ℂ))
  ((1 / 3) * (upha + uphb + uphc), (1 / 3) * (upha + a * uphb + aa * uphc), (1 / 3) * (upha + aa * uphb + a * uphc))

/-- `phasor_to_zero_sequence` (utility_functions_numba.py 207-210). -/
noncomputable def phasor_to_zero_sequence (upha uphb uphc : ℂ) : ℂ × ℂ × ℂ :=
  let u0 := (phasor_to_symmetrical upha uphb uphc).1
  (u0, u0, u0)

/-- `phasor_to_positive_sequence` (utility_functions_numba.py 213-216). -/
noncomputable def phasor_to_positive_sequence (upha uphb uphc : ℂ) : ℂ × ℂ × ℂ :=
  let u1 := (phasor_to_symmetrical upha uphb uphc).2.1
  (u1, u1 * exp (I * (((4 / 3) * Real.pi : ℝ) : ℂ)), u1 * exp (I * (((2 / 3) * Real.pi : ℝ) : ℂ)))

/-- `phasor_to_negative_sequence` (utility_functions_numba.py 219-222). -/
noncomputable def phasor_to_negative_sequence (upha uphb uphc : ℂ) : ℂ × ℂ × ℂ :=
  let u2 := (phasor_to_symmetrical upha uphb uphc).2.2
  (u2, u2 * exp (I * (((4 / 3) * Real.pi : ℝ) : ℂ)), u2 * exp (I * (((2 / 3) * Real.pi : ℝ) : ℂ)))

/-- `limit_complex` (utility_functions_numba.py 225-235): the assertion is commented out. -/
noncomputable def limit_complex (z : ℂ) (low_limit high_limit : ℝ) : ℂ :=
  ((min (max ‖z‖ low_limit) high_limit : ℝ) : ℂ) * exp (I * ((arg z : ℝ) : ℂ))

/-! ## Module functions of `DER_components_three_phase_numba.py` -/

/-- `Iph_calc` (DER_components_three_phase_numba.py 78-80); the module `constants` is the `Mod`. -/
noncomputable def Iph_calc (m : PV.Mod) (Tactual Sinsol : ℝ) : ℝ := (m.Iscr + m.Kv * (Tactual - m.T0)) * (Sinsol / 100)

/-- `Ppv_calc` (DER_components_three_phase_numba.py 83-95). -/
noncomputable def Ppv_calc (m : PV.Mod) (Tactual Iph Vdc_actual Np Ns Sbase : ℝ) : ℝ :=
  let Ipv := Np * Iph - Np * m.Irs * (Real.exp (m.q * Vdc_actual / (m.k * Tactual * m.A * Ns)) - 1)
  max 0 (Ipv * Vdc_actual) / Sbase

/-- `diR_calc` (DER_components_three_phase_numba.py 98-102). -/
noncomputable def diR_calc (i vt v : ℂ) (winv Rf Lf wbase : ℝ) : ℝ := (1 / Lf) * (-Rf * i.re - v.re + vt.re) + (winv / wbase) * i.im

/-- `diI_calc` (DER_components_three_phase_numba.py 105-109). -/
noncomputable def diI_calc (i vt v : ℂ) (winv Rf Lf wbase : ℝ) : ℝ := (1 / Lf) * (-Rf * i.im - v.im + vt.im) - (winv / wbase) * i.re

/-- `duR_calc` (DER_components_three_phase_numba.py 112-116). -/
def duR_calc (i u i_ref : ℂ) (wp : ℝ) : ℝ := wp * (-u.re + i_ref.re - i.re)

/-- `duI_calc` (DER_components_three_phase_numba.py 119-123). -/
def duI_calc (i u i_ref : ℂ) (wp : ℝ) : ℝ := wp * (-u.im + i_ref.im - i.im)

/-- `dxR_calc` (DER_components_three_phase_numba.py 126-130). -/
def dxR_calc (u : ℂ) (Ki_GCC : ℝ) : ℝ := Ki_GCC * u.re

/-- `dxI_calc` (DER_components_three_phase_numba.py 133-137). -/
def dxI_calc (u : ℂ) (Ki_GCC : ℝ) : ℝ := Ki_GCC * u.im

/-- `dVdc_calc` (DER_components_three_phase_numba.py 140-144). -/
noncomputable def dVdc_calc (Vdc Ppv : ℝ) (S : ℂ) (C : ℝ) : ℝ := (Ppv - S.re) / (Vdc * C)

/-- `dxDC_calc` (DER_components_three_phase_numba.py 147-151). -/
def dxDC_calc (Vdc Vdc_ref Ki_DC : ℝ) : ℝ := Ki_DC * (Vdc_ref - Vdc)

/-- `dxQ_calc` (DER_components_three_phase_numba.py 154-158). -/
def dxQ_calc (S : ℂ) (Q_ref Ki_Q : ℝ) : ℝ := -Ki_Q * (Q_ref - S.im)

/-- `m_abs_calc` (DER_components_three_phase_numba.py 161-165). -/
noncomputable def m_abs_calc (u x : ℂ) (Kp_GCC : ℝ) : ℝ := ‖(Kp_GCC : ℂ) * u + x‖

/-- `du_calc` (DER_components_three_phase_numba.py 169-186). -/
noncomputable def du_calc (u x i i_ref : ℂ) (wp Kp_GCC m_limit : ℝ) : ℝ × ℝ :=
  if m_abs_calc u x Kp_GCC > m_limit then
    (if SignType.sign (duR_calc i u i_ref wp) = SignType.sign u.re then 0 else duR_calc i u i_ref wp,
     if SignType.sign (duI_calc i u i_ref wp) = SignType.sign u.im then 0 else duI_calc i u i_ref wp)
  else (duR_calc i u i_ref wp, duI_calc i u i_ref wp)

/-- `dx_logic` (DER_components_three_phase_numba.py 189-210). -/
noncomputable def dx_logic (u x : ℂ) (Ki_GCC Kp_GCC m_limit : ℝ) : ℝ × ℝ :=
  if m_abs_calc u x Kp_GCC > m_limit then
    (if SignType.sign (dxR_calc u Ki_GCC) = SignType.sign x.re then 0 else dxR_calc u Ki_GCC,
     if SignType.sign (dxI_calc u Ki_GCC) = SignType.sign x.im then 0 else dxI_calc u Ki_GCC)
  else (dxR_calc u Ki_GCC, dxI_calc u Ki_GCC)

/-- `dxDC_logic` (DER_components_three_phase_numba.py 213-225). -/
noncomputable def dxDC_logic (xDC xQ Vdc : ℝ) (S : ℂ) (Vdc_ref Q_ref Ki_DC Kp_DC Kp_Q iref_limit : ℝ) : ℝ :=
  if ‖ia_ref_Vdc_Q_control_calc xDC xQ Vdc S Vdc_ref Q_ref Kp_DC Kp_Q‖ > iref_limit then
    if SignType.sign (dxDC_calc Vdc Vdc_ref Ki_DC) = SignType.sign xDC then 0 else dxDC_calc Vdc Vdc_ref Ki_DC
  else dxDC_calc Vdc Vdc_ref Ki_DC

/-- `dxQ_logic` (DER_components_three_phase_numba.py 228-240). -/
noncomputable def dxQ_logic (xDC xQ Vdc : ℝ) (S : ℂ) (Vdc_ref Q_ref Ki_Q Kp_DC Kp_Q iref_limit : ℝ) : ℝ :=
  if ‖ia_ref_Vdc_Q_control_calc xDC xQ Vdc S Vdc_ref Q_ref Kp_DC Kp_Q‖ > iref_limit then
    if SignType.sign (dxQ_calc S Q_ref Ki_Q) = SignType.sign xQ then 0 else dxQ_calc S Q_ref Ki_Q
  else dxQ_calc S Q_ref Ki_Q

/-- `dxPLL_calc` (DER_components_three_phase_numba.py 243-248). -/
def dxPLL_calc (vd Ki_PLL : ℝ) : ℝ := Ki_PLL * vd

/-! ## `ODE_model` of the compiled class -/

/-- The attributes of a compiled instance (the values the methods below store in `self`). -/
structure Inst where
  ia : ℂ
  xa : ℂ
  ua : ℂ
  ib : ℂ
  xb : ℂ
  ub : ℂ
  ic : ℂ
  xc : ℂ
  uc : ℂ
  Vdc : ℝ
  xDC : ℝ
  xQ : ℝ
  xPLL : ℝ
  wte : ℝ
  Ppv : ℝ
  vta : ℂ
  vtb : ℂ
  vtc : ℂ
  va : ℂ
  vb : ℂ
  vc : ℂ
  S : ℂ
  S_PCC : ℂ
  Vtrms : ℝ
  Vrms : ℝ
  Vrms_min : ℝ
  Irms : ℝ
  ia_ref : ℂ
  ib_ref : ℂ
  ic_ref : ℂ
  vd : ℝ
  vq : ℝ
  v0 : ℝ
  we : ℝ
  winv : ℝ
  Vdc_ref : ℝ
  Q_ref : ℝ

/-- `ODE_model` up to `update_inverter_frequency` (DER_components_three_phase_numba.py 300-407, 419-437): the values fetched by `update_Ppv`, `update_Qref`, `update_Vdc_ref`
and `wgrid_calc`, and the PCC voltages (outside stand-alone operation), are the inputs; the ramp limiter is off. -/
noncomputable def update (p : Ode.Par) (i : Ode.Inp) (y : Ode.ThreePhaseNumba.V → ℝ) : Inst :=
  let ia : ℂ := ⟨y .iaR, y .iaI⟩
  let xa : ℂ := ⟨y .xaR, y .xaI⟩
  let ua : ℂ := ⟨y .uaR, y .uaI⟩
  let ib : ℂ := ⟨y .ibR, y .ibI⟩
  let xb : ℂ := ⟨y .xbR, y .xbI⟩
  let ub : ℂ := ⟨y .ubR, y .ubI⟩
  let ic : ℂ := ⟨y .icR, y .icI⟩
  let xc : ℂ := ⟨y .xcR, y .xcI⟩
  let uc : ℂ := ⟨y .ucR, y .ucI⟩
  let Vdc := y .Vdc
  let Ppv := Ppv_calc p.mod i.Tactual (Iph_calc p.mod i.Tactual i.Sinsol) (min p.Vdcmpp_max (Vdc * p.Vdcbase)) p.mod.Np p.mod.Ns p.mod.Sbase
  let vta := vt_calc (m_calc p.Kp_GCC ua xa) Vdc
  let vtb := vt_calc (m_calc p.Kp_GCC ub xb) Vdc
  let vtc := vt_calc (m_calc p.Kp_GCC uc xc) Vdc
  let S_PCC := S_calc i.va i.vb i.vc ia ib ic
  let ia_ref := ia_ref_Vdc_Q_control_calc (y .xDC) (y .xQ) Vdc S_PCC i.Vdc_ref i.Q_ref p.Kp_DC p.Kp_Q
  let vt := phasor_to_time i.va i.vb i.vc i.w i.t
  let dq := abc_to_dq0 vt.1 vt.2.1 vt.2.2 (y .wte)
  let we := we_calc (y .xPLL) dq.1 p.Kp_PLL
  { ia := ia, xa := xa, ua := ua, ib := ib, xb := xb, ub := ub, ic := ic, xc := xc, uc := uc, Vdc := Vdc, xDC := y .xDC, xQ := y .xQ, xPLL := y .xPLL, wte := y .wte,
    Ppv := Ppv, vta := vta, vtb := vtb, vtc := vtc, va := i.va, vb := i.vb, vc := i.vc, S := S_calc vta vtb vtc ia ib ic, S_PCC := S_PCC,
    Vtrms := Urms_calc vta vtb vtc, Vrms := Urms_calc i.va i.vb i.vc, Vrms_min := Urms_min_calc i.va i.vb i.vc, Irms := Urms_calc ia ib ic,
    ia_ref := ia_ref, ib_ref := Ub_calc ia_ref, ic_ref := Uc_calc ia_ref, vd := dq.1, vq := dq.2.1, v0 := dq.2.2, we := we, winv := we, Vdc_ref := i.Vdc_ref,
    Q_ref := i.Q_ref }

/-- What `DER_disconnect` changes before the derivatives are computed (DER_features.py 235-250): no PV power, no current and reactive references, DC reference equal to the
present DC voltage. -/
noncomputable def discInst (s : Inst) : Inst :=
  { s with Ppv := 0, Vdc_ref := s.Vdc, Q_ref := 0, ia_ref := 0, ib_ref := 0, ic_ref := 0 }

/-- The derivative vector assembled by `ODE_model` of the compiled class (DER_components_three_phase_numba.py 439-509), with the kernel calls. -/
noncomputable def deriv (p : Ode.Par) (s : Inst) : Ode.ThreePhaseNumba.V → ℝ
  | .iaR => diR_calc s.ia s.vta s.va s.winv p.Rf p.Lf p.wbase
  | .iaI => diI_calc s.ia s.vta s.va s.winv p.Rf p.Lf p.wbase
  | .xaR => (dx_logic s.ua s.xa p.Ki_GCC p.Kp_GCC p.m_limit).1
  | .xaI => (dx_logic s.ua s.xa p.Ki_GCC p.Kp_GCC p.m_limit).2
  | .uaR => (du_calc s.ua s.xa s.ia s.ia_ref p.wp p.Kp_GCC p.m_limit).1
  | .uaI => (du_calc s.ua s.xa s.ia s.ia_ref p.wp p.Kp_GCC p.m_limit).2
  | .ibR => diR_calc s.ib s.vtb s.vb s.winv p.Rf p.Lf p.wbase
  | .ibI => diI_calc s.ib s.vtb s.vb s.winv p.Rf p.Lf p.wbase
  | .xbR => (dx_logic s.ub s.xb p.Ki_GCC p.Kp_GCC p.m_limit).1
  | .xbI => (dx_logic s.ub s.xb p.Ki_GCC p.Kp_GCC p.m_limit).2
  | .ubR => (du_calc s.ub s.xb s.ib s.ib_ref p.wp p.Kp_GCC p.m_limit).1
  | .ubI => (du_calc s.ub s.xb s.ib s.ib_ref p.wp p.Kp_GCC p.m_limit).2
  | .icR => diR_calc s.ic s.vtc s.vc s.winv p.Rf p.Lf p.wbase
  | .icI => diI_calc s.ic s.vtc s.vc s.winv p.Rf p.Lf p.wbase
  | .xcR => (dx_logic s.uc s.xc p.Ki_GCC p.Kp_GCC p.m_limit).1
  | .xcI => (dx_logic s.uc s.xc p.Ki_GCC p.Kp_GCC p.m_limit).2
  | .ucR => (du_calc s.uc s.xc s.ic s.ic_ref p.wp p.Kp_GCC p.m_limit).1
  | .ucI => (du_calc s.uc s.xc s.ic s.ic_ref p.wp p.Kp_GCC p.m_limit).2
  | .Vdc => dVdc_calc s.Vdc s.Ppv s.S p.C
  | .xDC => dxDC_logic s.xDC s.xQ s.Vdc s.S_PCC s.Vdc_ref s.Q_ref p.Ki_DC p.Kp_DC p.Kp_Q p.iref_limit
  | .xQ => dxQ_logic s.xDC s.xQ s.Vdc s.S_PCC s.Vdc_ref s.Q_ref p.Ki_Q p.Kp_DC p.Kp_Q p.iref_limit
  | .xPLL => dxPLL_calc s.vd p.Ki_PLL
  | .wte => s.we

/-- Load currents and stand-alone powers stored by `update_power` (DER_components_three_phase_numba.py 349-374) and the line-to-line values of `update_RMS`
(332-347): `(iaload1, ibload1, icload1, S_G, S_load1)`. -/
noncomputable def standAlone (va vb vc vag vbg vcg ia ib ic ZL : ℂ) (a : ℝ) : ℂ × ℂ × ℂ × ℂ × ℂ :=
  (i_load_calc va ZL, i_load_calc vb ZL, i_load_calc vc ZL, S_G_calc va vb vc vag vbg vcg ia ib ic ZL a, S_load_calc va vb vc ZL)

end Numba
end PvDer
