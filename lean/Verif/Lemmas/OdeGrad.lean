import Verif.Model.Ode
import Verif.Lemmas.Grad
import Verif.Props.Phasor
import Mathlib.Analysis.SpecialFunctions.Trigonometric.Deriv
import Mathlib.Tactic.FieldSimp

/-!
# Gradients of the attributes computed by the `update_*` calls
-/

namespace PvDer
namespace Ode
open Grad Complex Phasor

section
variable {ι : Type} [Fintype ι] [DecidableEq ι]

theorem cos_code (θ s : ℝ) : -Real.cos (θ - Real.pi / 2) * Real.sin s + Real.cos (θ - Real.pi / 2 - Real.pi / 2) * Real.cos s = -Real.cos (θ - s) := by
  have e : θ - Real.pi / 2 - Real.pi / 2 = θ - Real.pi := by ring
  rw [e, Real.cos_sub_pi_div_two, Real.cos_sub_pi, Real.cos_sub]; ring

/-- Derivative of the PLL input with respect to the PLL angle, written as in the code of the single-phase Jacobian. -/
noncomputable def dvd1 (va : ℂ) (w t s : ℝ) : ℝ := ‖va‖ * (-Real.cos (w * t + arg va - Real.pi / 2) * Real.sin s +
      Real.cos (w * t + arg va - Real.pi / 2 - Real.pi / 2) * Real.cos s)

theorem vd1_grad (va : ℂ) (w t : ℝ) (k : ι) (y : ι → ℝ) :
    HasGrad (fun z : ι → ℝ => (pll1 va w t (z k)).1) (fun j => dvd1 va w t (y k) * (if j = k then 1 else 0)) y := by
  have hd : HasDerivAt (fun s : ℝ => ‖va‖ * Real.sin (w * t + arg va - s)) (‖va‖ * -Real.cos (w * t + arg va - y k)) (y k) := by
    have := ((Real.hasDerivAt_sin (w * t + arg va - y k)).comp (y k) ((hasDerivAt_id' (y k)).const_sub (w * t + arg va))).const_mul ‖va‖
    rw [mul_neg_one] at this; exact this
  rw [← cos_code] at hd
  refine HasGrad.congr_fun ((HasGrad.proj k y).comp hd) (fun z => ?_)
  rw [C53_pll_input]

/-- The three-phase PLL input as a real expression. -/
theorem pll3_re (va vb vc : ℂ) (w t s : ℝ) : (pll3 va vb vc w t s).1 =
    2 / 3 * (toTime va w t * Real.cos s + toTime vb w t * (-(1 / 2) * Real.cos s + Real.sqrt 3 / 2 * Real.sin s)
      + toTime vc w t * (-(1 / 2) * Real.cos s - Real.sqrt 3 / 2 * Real.sin s)) := by
  unfold pll3 abcToDq0
  simp only
  rw [space_re, Real.cos_sub, Real.cos_add, cos23, sin23]; ring

/-- Derivative of the three-phase PLL input with respect to the PLL angle, written as in the code, with `s2` for `√3/2`. -/
noncomputable def dvd3 (s2 : ℝ) (va vb vc : ℂ) (w t s : ℝ) : ℝ :=
  2 / 3 * (-‖va‖ * Real.cos (w * t + arg va - Real.pi / 2) * Real.sin s + 1 / 2 * ‖vb‖ * Real.cos (w * t + arg vb - Real.pi / 2) * Real.sin s
    + s2 * ‖vb‖ * Real.cos (w * t + arg vb - Real.pi / 2) * Real.cos s + 1 / 2 * ‖vc‖ * Real.cos (w * t + arg vc - Real.pi / 2) * Real.sin s
    - s2 * ‖vc‖ * Real.cos (w * t + arg vc - Real.pi / 2) * Real.cos s)

theorem vd3_grad (va vb vc : ℂ) (w t : ℝ) (k : ι) (y : ι → ℝ) :
    HasGrad (fun z : ι → ℝ => (pll3 va vb vc w t (z k)).1) (fun j => dvd3 (Real.sqrt 3 / 2) va vb vc w t (y k) * (if j = k then 1 else 0)) y := by
  have hs : HasGrad (fun z : ι → ℝ => Real.sin (z k)) _ y := (HasGrad.proj k y).comp (Real.hasDerivAt_sin (y k))
  have hc : HasGrad (fun z : ι → ℝ => Real.cos (z k)) _ y := (HasGrad.proj k y).comp (Real.hasDerivAt_cos (y k))
  refine HasGrad.congr_fun ?_ (fun z => pll3_re va vb vc w t (z k))
  apply HasGrad.congr
  · grad
  · intro j
    simp only [dvd3, toTime, ej_re]; ring

/-- Power of the PV module divided by the DC link, as a function of the DC voltage, near a point of positive PV current and below the voltage cap. -/
theorem ppv_grad (p : Par) (i : Inp) (k : ι) (y : ι → ℝ) (hV : 0 < y k) (hb : 0 < p.Vdcbase) (hm : y k * p.Vdcbase < p.Vdcmpp_max)
    (hI : 0 < PV.ipv p.mod i.Sinsol i.Tactual (y k * p.Vdcbase)) :
    HasGrad (fun z : ι → ℝ => ppvOf p i (z k) / (z k * p.C)) (fun j =>
      ((-(p.mod.q * p.mod.Np * p.mod.Irs * p.Vdcbase ^ 2)) / (p.C * p.mod.k * p.mod.A * p.mod.Ns * i.Tactual * p.mod.Sbase) *
        Real.exp (p.mod.q * y k * p.Vdcbase / (p.mod.k * p.mod.A * p.mod.Ns * i.Tactual))) * (if j = k then 1 else 0)) y := by
  have hcont : ContinuousAt (fun z : ι → ℝ => z k) y := (HasGrad.proj k y).cont
  have hd : HasDerivAt (fun s : ℝ => PV.ipv p.mod i.Sinsol i.Tactual (s * p.Vdcbase))
      (-(p.mod.Np * p.mod.Irs * (Real.exp (p.mod.q * (y k * p.Vdcbase) / (p.mod.k * i.Tactual * p.mod.A * p.mod.Ns)) *
        (p.mod.q * p.Vdcbase / (p.mod.k * i.Tactual * p.mod.A * p.mod.Ns))))) (y k) := by
    unfold PV.ipv
    have h1 : HasDerivAt (fun s : ℝ => p.mod.q * (s * p.Vdcbase) / (p.mod.k * i.Tactual * p.mod.A * p.mod.Ns))
        (p.mod.q * p.Vdcbase / (p.mod.k * i.Tactual * p.mod.A * p.mod.Ns)) (y k) := by
      have := (((hasDerivAt_id' (y k)).mul_const p.Vdcbase).const_mul p.mod.q).div_const (p.mod.k * i.Tactual * p.mod.A * p.mod.Ns)
      rw [one_mul] at this; exact this
    have h2 := (((h1.exp).sub_const 1).const_mul (p.mod.Np * p.mod.Irs)).const_sub (p.mod.Np * PV.iph p.mod i.Sinsol i.Tactual)
    exact h2
  have hg : HasGrad (fun z : ι → ℝ => PV.ipv p.mod i.Sinsol i.Tactual (z k * p.Vdcbase)) _ y := (HasGrad.proj k y).comp hd
  have hev : ∀ᶠ z in nhds y, (0 < z k ∧ z k * p.Vdcbase < p.Vdcmpp_max) ∧ 0 < PV.ipv p.mod i.Sinsol i.Tactual (z k * p.Vdcbase) :=
    ((hcont.eventually (lt_mem_nhds hV)).and ((hcont.mul continuousAt_const).eventually (gt_mem_nhds hm))).and
      (hg.cont.eventually (lt_mem_nhds hI))
  refine HasGrad.congr_ev (f := fun z => PV.ipv p.mod i.Sinsol i.Tactual (z k * p.Vdcbase) * (p.Vdcbase / (p.mod.Sbase * p.C))) ?_ ?_
  · apply HasGrad.congr
    · grad
    · intro j
      have e1 : p.mod.q * (y k * p.Vdcbase) / (p.mod.k * i.Tactual * p.mod.A * p.mod.Ns) = p.mod.q * y k * p.Vdcbase / (p.mod.k * p.mod.A * p.mod.Ns * i.Tactual) := by
        rw [show p.mod.k * i.Tactual * p.mod.A * p.mod.Ns = p.mod.k * p.mod.A * p.mod.Ns * i.Tactual by ring, mul_assoc p.mod.q]
      rw [e1]
      generalize Real.exp _ = E
      simp only [div_eq_mul_inv, mul_inv]; ring
  · filter_upwards [hev] with z hz
    obtain ⟨⟨h1, h2⟩, h3⟩ := hz
    unfold ppvOf PV.ppv
    rw [min_eq_right h2.le, max_eq_right (mul_nonneg h3.le (mul_pos h1 hb).le)]
    simp only [div_eq_mul_inv, mul_inv]
    have : z k * (z k)⁻¹ = 1 := mul_inv_cancel₀ h1.ne'
    linear_combination (PV.ipv p.mod i.Sinsol i.Tactual (z k * p.Vdcbase) * p.Vdcbase * p.mod.Sbase⁻¹ * p.C⁻¹) * this

end

/-! Real and imaginary parts of the attributes -/

theorem vt_re (p : Par) (u x : ℂ) (V : ℝ) : (vtOf p u x V).re = (p.Kp_GCC * u.re + x.re) * (V / 2) := by
  unfold vtOf duty; rw [mul_comm, re_ofReal_mul]; simp; ring
theorem vt_im (p : Par) (u x : ℂ) (V : ℝ) : (vtOf p u x V).im = (p.Kp_GCC * u.im + x.im) * (V / 2) := by
  unfold vtOf duty; rw [mul_comm, im_ofReal_mul]; simp; ring
theorem sPh_re (v i : ℂ) : (sPh v i).re = 1 / 2 * (v.re * i.re + v.im * i.im) := by
  unfold sPh; rw [show (1 / 2 : ℂ) = ((1 / 2 : ℝ) : ℂ) by push_cast; ring, re_ofReal_mul]; simp
theorem sPh_im (v i : ℂ) : (sPh v i).im = 1 / 2 * (v.im * i.re - v.re * i.im) := by
  unfold sPh; rw [show (1 / 2 : ℂ) = ((1 / 2 : ℝ) : ℂ) by push_cast; ring, im_ofReal_mul]; simp; ring
theorem sCalc_re (va vb vc ia ib ic : ℂ) : (sCalc va vb vc ia ib ic).re =
    1 / 2 * ((va.re * ia.re + va.im * ia.im) + (vb.re * ib.re + vb.im * ib.im) + (vc.re * ic.re + vc.im * ic.im)) := by
  unfold sCalc; rw [mul_one, show (1 / 2 : ℂ) = ((1 / 2 : ℝ) : ℂ) by push_cast; ring, re_ofReal_mul]; simp
theorem sCalc_im (va vb vc ia ib ic : ℂ) : (sCalc va vb vc ia ib ic).im =
    1 / 2 * ((va.im * ia.re - va.re * ia.im) + (vb.im * ib.re - vb.re * ib.im) + (vc.im * ic.re - vc.re * ic.im)) := by
  unfold sCalc; rw [mul_one, show (1 / 2 : ℂ) = ((1 / 2 : ℝ) : ℂ) by push_cast; ring, im_ofReal_mul]; simp; ring
theorem iref_re (p : Par) (i : Inp) (Vdc xDC xQ : ℝ) (S : ℂ) : (irefOf p i Vdc xDC xQ S).re = xDC + p.Kp_DC * (i.Vdc_ref - Vdc) := by
  unfold irefOf; simp
theorem iref_im (p : Par) (i : Inp) (Vdc xDC xQ : ℝ) (S : ℂ) : (irefOf p i Vdc xDC xQ S).im = xQ - p.Kp_Q * (i.Q_ref - S.im) := by
  unfold irefOf; simp
theorem irefP_re (p : Par) (i : Inp) (P xP xQ : ℝ) (S S' : ℂ) : (irefPOf p i P xP xQ S S').re = xP + p.Kp_P * (P - S.re) := by
  unfold irefPOf; simp
theorem irefP_im (p : Par) (i : Inp) (P xP xQ : ℝ) (S S' : ℂ) : (irefPOf p i P xP xQ S S').im = xQ - p.Kp_Q * (i.Q_ref - S'.im) := by
  unfold irefPOf; simp
theorem ub_re (z : ℂ) : (Phasor.ub z).re = -(1 / 2) * z.re + Real.sqrt 3 / 2 * z.im := by
  unfold Phasor.ub; rw [mul_re, ej_re, ej_im, neg_mul, Real.cos_neg, Real.sin_neg, cos23, sin23]; ring
theorem ub_im (z : ℂ) : (Phasor.ub z).im = -(1 / 2) * z.im - Real.sqrt 3 / 2 * z.re := by
  unfold Phasor.ub; rw [mul_im, ej_re, ej_im, neg_mul, Real.cos_neg, Real.sin_neg, cos23, sin23]; ring
theorem uc_re (z : ℂ) : (Phasor.uc z).re = -(1 / 2) * z.re - Real.sqrt 3 / 2 * z.im := by
  unfold Phasor.uc; rw [mul_re, ej_re, ej_im, cos23, sin23]; ring
theorem uc_im (z : ℂ) : (Phasor.uc z).im = -(1 / 2) * z.im + Real.sqrt 3 / 2 * z.re := by
  unfold Phasor.uc; rw [mul_im, ej_re, ej_im, cos23, sin23]; ring

end Ode
end PvDer
