import Verif.Model.Ode

/-!
# Model of the steady-state initialisation (`power_error_calc`, `steady_state_calc`)

`scipy.optimize.minimize` is external: it calls `power_error_calc` at points of its choice and returns one vector `x`.  What the code uses of it is that vector and the attribute `self.ia`
left behind by the *last* call of `power_error_calc`, here the argument `last`.  `success = False` raises (DER_check_and_initialize.py 758-759) and is not modelled further.
-/

namespace PvDer
namespace Ode
namespace SS

open Complex Phasor

/-- What `power_error_calc` reads of the instance.  `va`, `vb`, `vc` are `va_calc()` … as functions of the phase current that was just stored in `self.ia` …
(DER_utilities.py 189-233: constant when not stand-alone, `Circuit.vStandAlone` otherwise). -/
structure Op where
  Vdc : ℝ
  Ppv : ℝ
  Q_ref : ℝ
  Zf : ℂ
  va : ℂ → ℂ
  vb : ℂ → ℂ
  vc : ℂ → ℂ

/-- `ma = x[0] + 1j*x[1]` (DER_check_and_initialize.py 636-641, 774). -/
noncomputable def maOf (x : ℕ → ℝ) : ℂ := ⟨x 0, x 1⟩
/-- `ia = x[2] + 1j*x[3]` (638-642, 775). -/
noncomputable def iaOf (x : ℕ → ℝ) : ℂ := ⟨x 2, x 3⟩
/-- `mb` (DER_check_and_initialize.py 650, 655-656, 665; result 784, 791); `unb` is `allow_unbalanced_m`. -/
noncomputable def mbOf (unb : Bool) (x : ℕ → ℝ) : ℂ := if unb then ⟨x 4, x 5⟩ else Phasor.ub (maOf x)
/-- `ib` (652, 657-658, 668; result 787, 793). -/
noncomputable def ibOf (unb : Bool) (x : ℕ → ℝ) : ℂ := if unb then ⟨x 6, x 7⟩ else Phasor.ub (iaOf x)
/-- `mc` (651, 660-661, 666; result 785, 792). -/
noncomputable def mcOf (unb : Bool) (x : ℕ → ℝ) : ℂ := if unb then ⟨x 8, x 9⟩ else Phasor.uc (maOf x)
/-- `ic` (653, 662-663, 669; result 788, 794). -/
noncomputable def icOf (unb : Bool) (x : ℕ → ℝ) : ℂ := if unb then ⟨x 10, x 11⟩ else Phasor.uc (iaOf x)

/-- The folding of a relative phase into `[0, π]` (DER_check_and_initialize.py 697-704). -/
noncomputable def fold180 (d : ℝ) : ℝ := if d > Real.pi then |d - 2 * Real.pi| else d

/-- `PHASE_DIFFERENCE_120` (DER_check_and_initialize.py 15). -/
noncomputable def d120 : ℝ := 120 * (Real.pi / 180)

/-- `power_error_calc` for the single-phase models (DER_check_and_initialize.py 633-646, 680-681, 717-720). -/
noncomputable def residual1 (o : Op) (x : ℕ → ℝ) : ℝ :=
  let vta := maOf x * ((o.Vdc / 2 : ℝ) : ℂ)
  let va := o.va (iaOf x)
  let St := (vta * (starRingEnd ℂ) (iaOf x)) / 2
  let SP := (va * (starRingEnd ℂ) (iaOf x)) / 2
  (St.re - o.Ppv) ^ 2 + (SP.im - o.Q_ref) ^ 2 + 0 + ‖vta - va - iaOf x * o.Zf‖ ^ 2

/-- The balance error of the duty cycles (DER_check_and_initialize.py 692-713). -/
noncomputable def mError (unb : Bool) (ma mb mc dv : ℂ) : ℝ :=
  if unb then ‖dv‖ ^ 2
  else (fold180 (relPhase ma mb) - d120) ^ 2 + (fold180 (relPhase ma mc) - d120) ^ 2 + (fold180 (relPhase mb mc) - d120) ^ 2 +
    (‖ma‖ - ‖mb‖) ^ 2 + (‖ma‖ - ‖mc‖) ^ 2 + (‖mb‖ - ‖mc‖) ^ 2

/-- `power_error_calc` for the three-phase models (DER_check_and_initialize.py 633-720). -/
noncomputable def residual3 (unb : Bool) (o : Op) (x : ℕ → ℝ) : ℝ :=
  let ia := iaOf x
  let ib := ibOf unb x
  let ic := icOf unb x
  let vta := maOf x * ((o.Vdc / 2 : ℝ) : ℂ)
  let vtb := mbOf unb x * ((o.Vdc / 2 : ℝ) : ℂ)
  let vtc := mcOf unb x * ((o.Vdc / 2 : ℝ) : ℂ)
  let va := o.va ia
  let vb := o.vb ib
  let vc := o.vc ic
  let St := (vta * (starRingEnd ℂ) ia) / 2 + (vtb * (starRingEnd ℂ) ib + vtc * (starRingEnd ℂ) ic) / 2
  let SP := (va * (starRingEnd ℂ) ia) / 2 + (vb * (starRingEnd ℂ) ib + vc * (starRingEnd ℂ) ic) / 2
  (St.re - o.Ppv) ^ 2 + (SP.im - o.Q_ref) ^ 2 + mError unb (maOf x) (mbOf unb x) (mcOf unb x) ((va + vb + vc) - (vta + vtb + vtc)) +
    (‖ia + ib + ic‖ + ‖vta - va - ia * o.Zf‖ + ‖vtb - vb - ib * o.Zf‖ + ‖vtc - vc - ic * o.Zf‖) ^ 2

/-- The initial state of the single-phase class after `steady_state_calc` (DER_check_and_initialize.py 762-779; `Vdc` 291; order of `y0` irrelevant here). -/
noncomputable def init1 (o : Op) (x : ℕ → ℝ) (last : ℂ) : SinglePhase.V → ℝ
  | .iaR => (iaOf x).re | .iaI => (iaOf x).im | .xaR => (maOf x).re | .xaI => (maOf x).im | .uaR => 0 | .uaI => 0
  | .Vdc => o.Vdc | .xDC => last.re | .xQ => last.im | .xPLL => 0 | .wte => 2 * Real.pi

/-- The constant-Vdc single-phase class (762-779). -/
noncomputable def initC1 (x : ℕ → ℝ) (last : ℂ) : SinglePhaseConstantVdc.V → ℝ
  | .iaR => (iaOf x).re | .iaI => (iaOf x).im | .xaR => (maOf x).re | .xaI => (maOf x).im | .uaR => 0 | .uaI => 0
  | .xP => last.re | .xQ => last.im | .xPLL => 0 | .wte => 2 * Real.pi

/-- The three-phase class (762-803, 825: `Vrms_filter = Vrms`). -/
noncomputable def initT (unb : Bool) (o : Op) (x : ℕ → ℝ) (last : ℂ) : ThreePhase.V → ℝ
  | .iaR => (iaOf x).re | .iaI => (iaOf x).im | .xaR => (maOf x).re | .xaI => (maOf x).im | .uaR => 0 | .uaI => 0
  | .ibR => (ibOf unb x).re | .ibI => (ibOf unb x).im | .xbR => (mbOf unb x).re | .xbI => (mbOf unb x).im | .ubR => 0 | .ubI => 0
  | .icR => (icOf unb x).re | .icI => (icOf unb x).im | .xcR => (mcOf unb x).re | .xcI => (mcOf unb x).im | .ucR => 0 | .ucI => 0
  | .Vdc => o.Vdc | .xDC => last.re | .xQ => last.im | .xPLL => 0 | .wte => 2 * Real.pi
  | .Vrms => urms (o.va (iaOf x)) (o.vb (ibOf unb x)) (o.vc (icOf unb x))

/-- The class without RMS filter (762-803). -/
noncomputable def initN (unb : Bool) (o : Op) (x : ℕ → ℝ) (last : ℂ) : ThreePhaseNoVrmsFilter.V → ℝ
  | .iaR => (iaOf x).re | .iaI => (iaOf x).im | .xaR => (maOf x).re | .xaI => (maOf x).im | .uaR => 0 | .uaI => 0
  | .ibR => (ibOf unb x).re | .ibI => (ibOf unb x).im | .xbR => (mbOf unb x).re | .xbI => (mbOf unb x).im | .ubR => 0 | .ubI => 0
  | .icR => (icOf unb x).re | .icI => (icOf unb x).im | .xcR => (mcOf unb x).re | .xcI => (mcOf unb x).im | .ucR => 0 | .ucI => 0
  | .Vdc => o.Vdc | .xDC => last.re | .xQ => last.im | .xPLL => 0 | .wte => 2 * Real.pi

/-- The numba class (762-803). -/
noncomputable def initNumba (unb : Bool) (o : Op) (x : ℕ → ℝ) (last : ℂ) : ThreePhaseNumba.V → ℝ
  | .iaR => (iaOf x).re | .iaI => (iaOf x).im | .xaR => (maOf x).re | .xaI => (maOf x).im | .uaR => 0 | .uaI => 0
  | .ibR => (ibOf unb x).re | .ibI => (ibOf unb x).im | .xbR => (mbOf unb x).re | .xbI => (mbOf unb x).im | .ubR => 0 | .ubI => 0
  | .icR => (icOf unb x).re | .icI => (icOf unb x).im | .xcR => (mcOf unb x).re | .xcI => (mcOf unb x).im | .ucR => 0 | .ucI => 0
  | .Vdc => o.Vdc | .xDC => last.re | .xQ => last.im | .xPLL => 0 | .wte => 2 * Real.pi

/-- The constant-Vdc three-phase class (762-803). -/
noncomputable def initC3 (unb : Bool) (x : ℕ → ℝ) (last : ℂ) : ThreePhaseConstantVdc.V → ℝ
  | .iaR => (iaOf x).re | .iaI => (iaOf x).im | .xaR => (maOf x).re | .xaI => (maOf x).im | .uaR => 0 | .uaI => 0
  | .ibR => (ibOf unb x).re | .ibI => (ibOf unb x).im | .xbR => (mbOf unb x).re | .xbI => (mbOf unb x).im | .ubR => 0 | .ubI => 0
  | .icR => (icOf unb x).re | .icI => (icOf unb x).im | .xcR => (mcOf unb x).re | .xcI => (mcOf unb x).im | .ucR => 0 | .ucI => 0
  | .xP => last.re | .xQ => last.im | .xPLL => 0 | .wte => 2 * Real.pi

/-- The balanced class: `y0` holds phase a only (762-779; DER_components_three_phase_balanced.py 66-72). -/
noncomputable def initB (o : Op) (x : ℕ → ℝ) (last : ℂ) : ThreePhaseBalanced.V → ℝ
  | .iaR => (iaOf x).re | .iaI => (iaOf x).im | .xaR => (maOf x).re | .xaI => (maOf x).im | .uaR => 0 | .uaI => 0
  | .Vdc => o.Vdc | .xDC => last.re | .xQ => last.im | .xPLL => 0 | .wte => 2 * Real.pi

end SS
end Ode
end PvDer
