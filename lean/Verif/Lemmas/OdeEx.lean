import Verif.Lemmas.OdeGrad
import Verif.Props.Circuit
import Mathlib.Analysis.Complex.ExponentialBounds

/-!
# A concrete instance used to show that hypotheses can be met
-/

namespace PvDer
namespace Ode
open Complex

/-- Parameter values of the order of those of the 50 kVA instance (templates.py), default PV module. -/
noncomputable def exPar : Par :=
  { Lf := 1/10, Rf := 1/100, C := 1/2, Kp_GCC := 12, Ki_GCC := 10, wp := 20, Kp_DC := -4, Ki_DC := -1/2, Kp_P := 5, Ki_P := 100, Kp_Q := 1/5, Ki_Q := 5,
    Kp_PLL := 180, Ki_PLL := 320, m_limit := 1, iref_limit := 3/2, wbase := 377, Tfilter_Vrms := 1/100, Vdcbase := 500, Vdcmpp_max := 650, mod := PV.exMod }

/-- Nominal voltage, 550 V DC reference, full insolation at 298.15 K. -/
noncomputable def exInp : Inp :=
  { va := 1/2, vb := Phasor.ub (1/2), vc := Phasor.uc (1/2), w := 377, t := 0, Vdc_ref := 11/10, Q_ref := 0, Sinsol := 100, Tactual := 29815/100, Vdc0 := 11/10 }

theorem exMod_pv : 0 < PV.ipv PV.exMod 100 (29815/100) (11/10 * 500) := by
  have h1 : Real.exp (PV.exMod.q * (11/10 * 500) / (PV.exMod.k * (29815/100) * PV.exMod.A * PV.exMod.Ns)) ≤ Real.exp 16 := by
    apply Real.exp_le_exp.2
    norm_num [PV.exMod]
  have h2 : Real.exp 16 ≤ (2.7182818286 : ℝ) ^ 16 := by
    have : Real.exp 16 = Real.exp 1 ^ 16 := by rw [← Real.exp_nat_mul]; norm_num
    rw [this]
    exact pow_le_pow_left₀ (Real.exp_pos 1).le Real.exp_one_lt_d9.le 16
  have h3 := h1.trans h2
  unfold PV.ipv PV.iph
  generalize Real.exp _ = E at *
  norm_num [PV.exMod] at *
  linarith

end Ode
end PvDer
