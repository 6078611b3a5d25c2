import Mathlib.Analysis.SpecialFunctions.Complex.Arg
import Mathlib.Analysis.SpecialFunctions.Trigonometric.Basic
import Verif.Model.Basic

/-!
# Model of `pvder/utility_functions.py` (phasor and transformation formulas) over exact real and complex numbers

`pow(math.e, 1j*x)` and `np.power(np.e, 1j*x)` are `exp(1j*x)`; `cmath.polar(z)` is `(‖z‖, arg z)`; `cmath.rect(r, φ)` is `r·exp(jφ)`.
The functions of `pvder/utility_functions_numba.py` with the same names have the same bodies (lines given after "numba").
-/

namespace PvDer
namespace Phasor

open Complex

/-- `pow(math.e, 1j*x)`. -/
noncomputable def ej (x : ℝ) : ℂ := exp (I * x)

/-- `Urms_calc` (utility_functions.py 83-88; numba 105-107; time series version 17-23 is the same formula elementwise). -/
noncomputable def urms (a b c : ℂ) : ℝ := Real.sqrt ((‖a‖ ^ 2 + ‖b‖ ^ 2 + ‖c‖ ^ 2) / 3) / Real.sqrt 2

/-- `Urms_min_calc` (utility_functions.py 91-96; numba 110-112). -/
noncomputable def urmsMin (a b c : ℂ) : ℝ := min (min ‖a‖ ‖b‖) ‖c‖ / Real.sqrt 2

/-- `Urms_calc_1phase` (utility_functions.py 99-104; numba 115-117). -/
noncomputable def urms1 (a : ℂ) : ℝ := ‖a‖ / Real.sqrt 2

/-- `Ub_calc` (utility_functions.py 108-115; numba 120-123). -/
noncomputable def ub (a : ℂ) : ℂ := a * ej (-(2 / 3) * Real.pi)

/-- `Uc_calc` (utility_functions.py 118-124; numba 126-129). -/
noncomputable def uc (a : ℂ) : ℂ := a * ej ((2 / 3) * Real.pi)

/-- `phasor_to_time_1phase` (utility_functions.py 158-164; numba 156-159); `phasor_to_time` (utility_functions.py 141-155) is this for each phase. -/
noncomputable def toTime (u : ℂ) (w t : ℝ) : ℝ := ‖u‖ * (ej (w * t + arg u - Real.pi / 2)).re

/-- `abc_to_dq0` (utility_functions.py 168-177; numba 162-168): the space vector `Us` … -/
noncomputable def space (a b c wt : ℝ) : ℂ := (2 / 3) * (a + b * ej ((2 / 3) * Real.pi) + c * ej (-(2 / 3) * Real.pi)) * ej (-wt)

/-- … and the returned triple. -/
noncomputable def abcToDq0 (a b c wt : ℝ) : ℝ × ℝ × ℝ := ((space a b c wt).re, (space a b c wt).im, 1 / 3 * (a + b + c))

/-- `dq0_to_abc` (utility_functions.py 180-188; numba 171-176). -/
noncomputable def dq0ToAbc (d q z wt : ℝ) : ℝ × ℝ × ℝ :=
  (d * Real.cos wt - q * Real.sin wt + z,
   d * Real.cos (wt - (2 / 3) * Real.pi) - q * Real.sin (wt - (2 / 3) * Real.pi) + z,
   d * Real.cos (wt + (2 / 3) * Real.pi) - q * Real.sin (wt + (2 / 3) * Real.pi) + z)

/-- `alpha_beta_to_d_q` (utility_functions.py 191-211; numba 179-194). -/
noncomputable def alphaBetaToDq (al be wt : ℝ) : ℝ × ℝ :=
  (((al + I * be) * exp (-I * wt)).re, ((al + I * be) * exp (-I * wt)).im)

/-- `phasor_to_symmetrical` (utility_functions.py 214-225; numba 197-206): `(u0, u1, u2)`. -/
noncomputable def symm (a b c : ℂ) : ℂ × ℂ × ℂ :=
  ((1 / 3) * (a + b + c),
   (1 / 3) * (a + ej ((2 / 3) * Real.pi) * b + ej ((4 / 3) * Real.pi) * c),
   (1 / 3) * (a + ej ((4 / 3) * Real.pi) * b + ej ((2 / 3) * Real.pi) * c))

/-- `phasor_to_zero_sequence` (utility_functions.py 228-234). -/
noncomputable def zeroSeq (a b c : ℂ) : ℂ × ℂ × ℂ := ((symm a b c).1, (symm a b c).1, (symm a b c).1)

/-- `phasor_to_positive_sequence` (utility_functions.py 237-243). -/
noncomputable def posSeq (a b c : ℂ) : ℂ × ℂ × ℂ :=
  ((symm a b c).2.1, (symm a b c).2.1 * ej ((4 / 3) * Real.pi), (symm a b c).2.1 * ej ((2 / 3) * Real.pi))

/-- `phasor_to_negative_sequence` (utility_functions.py 246-252): same rotations as the positive sequence. -/
noncomputable def negSeq (a b c : ℂ) : ℂ × ℂ × ℂ :=
  ((symm a b c).2.2, (symm a b c).2.2 * ej ((4 / 3) * Real.pi), (symm a b c).2.2 * ej ((2 / 3) * Real.pi))

/-- `limit_complex` (utility_functions.py 284-299; the numba version 225-237 has no assertion).  `none` is the `AssertionError`. -/
noncomputable def limitComplex (z : ℂ) (low high : ℝ) : Except Err ℂ :=
  if low < high then .ok ((min (max ‖z‖ low) high : ℝ) * ej (arg z)) else .error .assertionError

/-- `S_calc` (utility_functions.py 64-70; numba 65-68). -/
noncomputable def sCalc (va vb vc ia ib ic : ℂ) : ℂ :=
  (1 / 2) * (va * (starRingEnd ℂ) ia + vb * (starRingEnd ℂ) ib + vc * (starRingEnd ℂ) ic) * 1

/-- `S_PCCph_calc` (DER_utilities.py 346-351) and the single-phase `S_calc` (DER_components_single_phase.py 74-80): one phase. -/
noncomputable def sPh (v i : ℂ) : ℂ := (1 / 2) * (v * (starRingEnd ℂ) i)

/-- `Uunbalance_calc` (utility_functions.py 42-48; numba 40-43) on real magnitudes. -/
noncomputable def unbalance (a b c : ℝ) : ℝ := (max (max a b) c - min (min a b) c) / ((a + b + c) / 3)

/-- `relative_phase_calc` without `DEGREES` (utility_functions.py 127-135): `radians(degrees(Δ) % 360)`; Python's `%` with a positive modulus returns
the representative in `[0, 360)`. -/
noncomputable def relPhase (u v : ℂ) : ℝ :=
  let d := (arg u - arg v) * (180 / Real.pi)
  (d - 360 * ⌊d / 360⌋) * (Real.pi / 180)

/-- The PLL input of the single-phase models (DER_components_single_phase.py 216-220; …_constant_Vdc.py 213-217): `(vd, vq)`. -/
noncomputable def pll1 (va : ℂ) (w t wte : ℝ) : ℝ × ℝ := alphaBetaToDq (toTime va w t) (toTime (va * exp (-I * (Real.pi / 2))) w t) wte

/-- The PLL input of the three-phase models (DER_components_three_phase.py 254-257 and siblings): `(vd, vq, v0)`. -/
noncomputable def pll3 (va vb vc : ℂ) (w t wte : ℝ) : ℝ × ℝ × ℝ := abcToDq0 (toTime va w t) (toTime vb w t) (toTime vc w t) wte

/-- `we_calc` (DER_utilities.py 287-293; numba 60-63). -/
noncomputable def weCalc (Kp vd xPLL : ℝ) : ℝ := Kp * vd + xPLL + 2 * Real.pi * 60

end Phasor
end PvDer
