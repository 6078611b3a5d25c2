import Mathlib.Algebra.Order.Field.Basic
import Mathlib.Analysis.Complex.Norm
import Mathlib.Analysis.Real.Sqrt

/-!
# Model of the Volt-VAR function (`pvder/DER_features.py` 33-163) and `update_Qref` (`pvder/DER_utilities.py` 309-321)

Exact arithmetic; printing is dropped.
-/

namespace PvDer
namespace VoltVar

variable {K : Type} [Field K] [LinearOrder K]

/-- `Volt_VAR_dict['1']['V']` (DER_features.py 36). -/
def V1 : K := 92 / 100
/-- `Volt_VAR_dict['1']['Q']` (DER_features.py 37). -/
def Q1 : K := 44 / 100
/-- `Volt_VAR_dict['2']['V']` (DER_features.py 38). -/
def V2 : K := 98 / 100
/-- `Volt_VAR_dict['2']['Q']` (DER_features.py 39). -/
def Q2 : K := 0
/-- `Volt_VAR_dict['3']['V']` (DER_features.py 40). -/
def V3 : K := 102 / 100
/-- `Volt_VAR_dict['3']['Q']` (DER_features.py 41). -/
def Q3 : K := 0
/-- `Volt_VAR_dict['4']['V']` (DER_features.py 42). -/
def V4 : K := 108 / 100
/-- `Volt_VAR_dict['4']['Q']` (DER_features.py 43). -/
def Q4 : K := -(44 / 100)

/-- `m_inject` (DER_features.py 46). -/
def mInject : K := (Q2 - Q1) / (V2 - V1)
/-- `m_absorb` (DER_features.py 48). -/
def mAbsorb : K := (Q4 - Q3) / (V4 - V3)
/-- `c_inject` (DER_features.py 50). -/
def cInject : K := Q2 - V2 * mInject
/-- `c_absorb` (DER_features.py 51). -/
def cAbsorb : K := Q4 - V4 * mAbsorb
/-- `deadband_V` (DER_features.py 68). -/
def deadband : K := 1 / 100

/-- `Volt_VAR_inject_range` (DER_features.py 116-122). -/
def injectRange (Vref V dV : K) : Bool := decide (V ≥ (V1 - dV) * Vref) && decide (V ≤ (V2 + dV) * Vref)

/-- `Volt_VAR_absorb_range` (DER_features.py 125-131). -/
def absorbRange (Vref V dV : K) : Bool := decide (V ≥ (V3 - dV) * Vref) && decide (V ≤ (V4 + dV) * Vref)

/-- `Q_Volt_VAR_inject` (DER_features.py 134-146); `Qlim` is `Qlimit`, `Qref` the present `Q_ref`. -/
def qInject (Vref Snom Qlim Qref V : K) : K :=
  if injectRange Vref V 0 then min Qlim (max 0 ((V / Vref * mInject + cInject) * Snom)) else Qref

/-- `Q_Volt_VAR_absorb` (DER_features.py 149-161). -/
def qAbsorb (Vref Snom Qlim Qref V : K) : K :=
  if absorbRange Vref V 0 then max (-Qlim) (min 0 ((V / Vref * mAbsorb + cAbsorb) * Snom)) else Qref

/-- `Volt_VAR_logic_t`, `VOLT_VAR_ACTIVE`, `Q_ref`. -/
structure St (K : Type) where
  t : K
  active : Bool
  Qref : K
  deriving DecidableEq, Repr

/-- `Volt_VAR_logic` (DER_features.py 61-101): new timer/flag and the returned reference; `Qlim` is the freshly computed `Qlimit` (65). -/
def logic (Vref Snom t V Qlim : K) (s : St K) : St K × K :=
  if t > s.t then
    if s.active then
      if injectRange Vref V deadband then ({ s with t := t }, qInject Vref Snom Qlim s.Qref V)
      else if absorbRange Vref V deadband then ({ s with t := t }, qAbsorb Vref Snom Qlim s.Qref V)
      else ({ s with t := t, active := false }, 0)
    else
      if injectRange Vref V deadband then ({ s with t := t, active := true }, qInject Vref Snom Qlim s.Qref V)
      else if absorbRange Vref V deadband then ({ s with t := t, active := true }, qAbsorb Vref Snom Qlim s.Qref V)
      else ({ s with t := t }, 0)
  else (s, s.Qref)

/-- `update_Qref` (DER_utilities.py 309-321): Volt-VAR if enabled, the external value if so configured, else zero. -/
def updateQref (enable external : Bool) (Vref Snom t V Qlim : K) (s : St K) : St K :=
  if enable then { (logic Vref Snom t V Qlim s).1 with Qref := (logic Vref Snom t V Qlim s).2 }
  else if external then s
  else { s with Qref := 0 }

/-- `Qlimit_calc` (DER_features.py 104-113): `Snom` = `Sinverter_nominal`, `P` = `S.real`, `n` = `n_phases`. -/
noncomputable def qlimit (Snom P n Xf : ℝ) (ia : ℂ) : ℝ :=
  max 0 (Real.sqrt (Snom ^ 2 - (max (-Snom) (min P Snom)) ^ 2) - n * Xf * (‖ia‖ / Real.sqrt 2) ^ 2)

end VoltVar
end PvDer
