import Verif.Model.Phasor

/-!
# Model of the stand-alone circuit, its powers, and the per-unit bases

Exact complex arithmetic.  Division by zero (`ZeroDivisionError` in Python) is excluded by hypotheses of the theorems.
-/

namespace PvDer
namespace Circuit

open Complex

/-- `va_calc` / `vb_calc` / `vc_calc` of a three-phase model and `va_calc` of a single-phase model in stand-alone mode
(DER_utilities.py 193-194, 210-213, 228): `vg` grid source voltage, `i` inverter current, `a` transformer ratio, `Z1` transformer, `Z2` line, `ZL` load. -/
noncomputable def vStandAlone (vg i : ℂ) (a : ℝ) (Z1 Z2 ZL : ℂ) : ℂ :=
  ((vg + (i / a) * Z2) / a + i * Z1) * ((ZL * a * a) / ((a * a * (Z1 + ZL)) + Z2))

/-- `vb_calc` / `vc_calc` of a single-phase model in stand-alone mode (DER_utilities.py 207-208, 225). -/
noncomputable def vOther1ph (vg : ℂ) (a : ℝ) (Z1 Z2 ZL : ℂ) : ℂ := (vg / a) * ((ZL * a * a) / ((a * a * (Z1 + ZL)) + Z2))

/-- `va_calc` with its mode switch (DER_utilities.py 189-199): the externally supplied voltage when not stand-alone. -/
noncomputable def vaCalc (standAlone : Bool) (ext vg i : ℂ) (a : ℝ) (Z1 Z2 ZL : ℂ) : ℂ :=
  if standAlone then vStandAlone vg i a Z1 Z2 ZL else ext

/-- `iphload1_calc` (DER_utilities.py 156-162). -/
noncomputable def iLoad (v ZL : ℂ) : ℂ := v / ZL

/-- One phase of `S_PCC_calc` (DER_components_single_phase.py 83-89, DER_components_three_phase.py 84-90). -/
noncomputable def sPCC (v i : ℂ) : ℂ := (1 / 2) * (v * (starRingEnd ℂ) i)

/-- One phase of `S_load1_calc` (DER_components_single_phase.py 91-96, DER_components_three_phase.py 93-98): note the sign. -/
noncomputable def sLoad (v ZL : ℂ) : ℂ := (1 / 2) * (v * (starRingEnd ℂ) (-(v / ZL)))

/-- One phase of `S_G_calc` (DER_components_single_phase.py 98-103, DER_components_three_phase.py 101-106). -/
noncomputable def sG (v i vg ZL : ℂ) (a : ℝ) : ℂ := (1 / 2) * ((starRingEnd ℂ) (-(i - v / ZL) / a) * vg)

/-! ## Base values (grid_components.py 10-21) -/

/-- `BaseValues` for arbitrary `Vbase`, `Sbase`, `wbase`. -/
structure Base where
  Vbase : ℝ
  Sbase : ℝ
  wbase : ℝ

/-- `Vdcbase` (grid_components.py 16). -/
def Base.Vdcbase (b : Base) : ℝ := b.Vbase
/-- `Ibase` (grid_components.py 17). -/
noncomputable def Base.Ibase (b : Base) : ℝ := b.Sbase / b.Vbase
/-- `Zbase` (grid_components.py 18). -/
noncomputable def Base.Zbase (b : Base) : ℝ := b.Vbase ^ 2 / b.Sbase
/-- `Lbase` (grid_components.py 20). -/
noncomputable def Base.Lbase (b : Base) : ℝ := b.Zbase / b.wbase
/-- `Cbase` (grid_components.py 21). -/
noncomputable def Base.Cbase (b : Base) : ℝ := 1 / (b.Zbase * b.wbase)
/-- The values in the file (grid_components.py 13-15). -/
noncomputable def Base.default : Base := ⟨500, 50000, 2 * Real.pi * 60⟩

end Circuit

namespace PV

/-- Module constants: `Np`, `Ns`, `Iscr`, `Kv`, `T0`, `Irs`, `q`, `k`, `A` (DER_components.py 302-313, 405-412) and `Sbase`. -/
structure Mod where
  Np : ℝ
  Ns : ℝ
  Iscr : ℝ
  Kv : ℝ
  T0 : ℝ
  Irs : ℝ
  q : ℝ
  k : ℝ
  A : ℝ
  Sbase : ℝ

/-- `Iph_calc` (DER_components.py 353-358). -/
noncomputable def iph (m : Mod) (Sinsol T : ℝ) : ℝ := (m.Iscr + m.Kv * (T - m.T0)) * (Sinsol / 100)

/-- `Ipv` (DER_components.py 371). -/
noncomputable def ipv (m : Mod) (Sinsol T V : ℝ) : ℝ :=
  m.Np * iph m Sinsol T - m.Np * m.Irs * (Real.exp ((m.q * V) / (m.k * T * m.A * m.Ns)) - 1)

/-- `Ppv_calc` (DER_components.py 360-376; utility_functions.py 51-61 is the same formula). -/
noncomputable def ppv (m : Mod) (Sinsol T V : ℝ) : ℝ := max 0 (ipv m Sinsol T V * V) / m.Sbase

/-- The function whose root `Vdcmpp` solves for (DER_components.py 347-349). -/
noncomputable def mppEq (m : Mod) (Sinsol T V : ℝ) : ℝ :=
  -((m.Np * m.Irs * Real.exp ((m.q * V) / (m.k * T * m.A * m.Ns))) * (m.q / (m.k * T * m.A * m.Ns)) * V)
    - (m.Np * m.Irs * (Real.exp ((m.q * V) / (m.k * T * m.A * m.Ns)) - 1)) + m.Np * iph m Sinsol T

end PV
end PvDer
