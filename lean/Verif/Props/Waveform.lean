import Verif.Props.Phasor
import Mathlib.MeasureTheory.Integral.IntervalIntegral.FundThmCalculus
import Mathlib.Analysis.SpecialFunctions.Trigonometric.Deriv
import Mathlib.Analysis.SpecialFunctions.Integrals.Basic
import Mathlib.Tactic.Linarith
import Mathlib.Tactic.FieldSimp
import Mathlib.Tactic.Ring
import Mathlib.Tactic.LinearCombination

/-!
# Property C145: reported powers and RMS values are those of the waveforms

`phasor_to_time` (utility_functions.py 141-155, modelled phase by phase by `toTime`) turns the phasors of the model into waveforms; the specification side of this file
is the mean over one period of the grid frequency (`mean`), an integral.
-/

namespace PvDer
namespace Phasor
open Complex

/-- The mean of a function of time over one period of the angular frequency `w`, starting at `t0`. -/
noncomputable def mean (w t0 : ℝ) (f : ℝ → ℝ) : ℝ := (w / (2 * Real.pi)) * ∫ t in t0..(t0 + 2 * Real.pi / w), f t

theorem toTime_trig (u : ℂ) (w t : ℝ) : toTime u w t = u.re * Real.sin (w * t) + u.im * Real.cos (w * t) := by
  rw [toTime_eq]
  have h : ej (w * t) = (Real.cos (w * t) : ℂ) + Real.sin (w * t) * I := by
    unfold ej
    rw [mul_comm, exp_mul_I]
    push_cast
    rfl
  rw [h]
  generalize Real.cos (w * t) = c
  generalize Real.sin (w * t) = d
  simp [Complex.mul_im]

/-- A quarter period earlier. -/
theorem toTime_quarter (u : ℂ) {w : ℝ} (hw : w ≠ 0) (t : ℝ) : toTime u w (t - Real.pi / (2 * w)) = toTime (-I * u) w t := by
  rw [toTime_trig, toTime_trig]
  have e : w * (t - Real.pi / (2 * w)) = w * t - Real.pi / 2 := by field_simp
  rw [e, Real.sin_sub_pi_div_two, Real.cos_sub_pi_div_two]
  simp [Complex.mul_re, Complex.mul_im]
  ring

theorem product_mean (A B C D : ℝ) {w : ℝ} (hw : w ≠ 0) (t0 : ℝ) :
    mean w t0 (fun t => (A * Real.sin (w * t) + B * Real.cos (w * t)) * (C * Real.sin (w * t) + D * Real.cos (w * t))) = (A * C + B * D) / 2 := by
  have hd : ∀ t : ℝ, HasDerivAt (fun t => (A * C + B * D) / 2 * t + (B * D - A * C) / (2 * w) * (Real.sin (w * t) * Real.cos (w * t)) +
      (A * D + B * C) / (2 * w) * (Real.sin (w * t) * Real.sin (w * t)))
      ((A * Real.sin (w * t) + B * Real.cos (w * t)) * (C * Real.sin (w * t) + D * Real.cos (w * t))) t := by
    intro t
    have hl : HasDerivAt (fun t => w * t) w t := by simpa using (hasDerivAt_id t).const_mul w
    have hs : HasDerivAt (fun t => Real.sin (w * t)) (Real.cos (w * t) * w) t := hl.sin
    have hc : HasDerivAt (fun t => Real.cos (w * t)) (-Real.sin (w * t) * w) t := hl.cos
    have h1 := (((hasDerivAt_id t).const_mul ((A * C + B * D) / 2)).add ((hs.mul hc).const_mul ((B * D - A * C) / (2 * w)))).add
      ((hs.mul hs).const_mul ((A * D + B * C) / (2 * w)))
    refine h1.congr_deriv ?_
    have hp := Real.sin_sq_add_cos_sq (w * t)
    field_simp
    linear_combination (A * C + B * D) * (-hp)
  unfold mean
  rw [intervalIntegral.integral_eq_sub_of_hasDerivAt (fun t _ => hd t)]
  · have e : w * (t0 + 2 * Real.pi / w) = w * t0 + 2 * Real.pi := by field_simp
    simp only [e, Real.sin_add_two_pi, Real.cos_add_two_pi]
    have := Real.pi_ne_zero
    field_simp
    ring
  · apply Continuous.intervalIntegrable
    fun_prop

/-- C145: the active power reported for one phase is the mean, over a period, of the product of the voltage and current waveforms; the reactive power is the
mean of the product of the current with the voltage a quarter of a period earlier (positive for a current that lags). -/
theorem C145_phase_power (v i : ℂ) {w : ℝ} (hw : w ≠ 0) (t0 : ℝ) :
    mean w t0 (fun t => toTime v w t * toTime i w t) = (sPh v i).re ∧
    mean w t0 (fun t => toTime v w (t - Real.pi / (2 * w)) * toTime i w t) = (sPh v i).im := by
  simp only [toTime_quarter _ hw, toTime_trig]
  rw [product_mean _ _ _ _ hw, product_mean _ _ _ _ hw]
  constructor
  · simp [sPh, Complex.mul_re, Complex.mul_im]; ring
  · simp [sPh, Complex.mul_re, Complex.mul_im]; ring

theorem mean_add {w t0 : ℝ} {f g : ℝ → ℝ} (hf : Continuous f) (hg : Continuous g) : mean w t0 (fun t => f t + g t) = mean w t0 f + mean w t0 g := by
  unfold mean
  rw [intervalIntegral.integral_add (hf.intervalIntegrable _ _) (hg.intervalIntegrable _ _)]
  ring

theorem toTime_continuous (u : ℂ) (w : ℝ) : Continuous (toTime u w) := by
  have : toTime u w = fun t => u.re * Real.sin (w * t) + u.im * Real.cos (w * t) := funext (toTime_trig u w)
  rw [this]
  fun_prop

/-- C145: for any three phases, balanced or not, the reported active power is the mean over a period of the instantaneous power of the waveforms `phasor_to_time`
returns. -/
theorem C145_three_phase_power (va vb vc ia ib ic : ℂ) {w : ℝ} (hw : w ≠ 0) (t0 : ℝ) :
    mean w t0 (fun t => toTime va w t * toTime ia w t + toTime vb w t * toTime ib w t + toTime vc w t * toTime ic w t) = (sCalc va vb vc ia ib ic).re := by
  have hc : ∀ u v : ℂ, Continuous fun t => toTime u w t * toTime v w t := fun u v => (toTime_continuous u w).mul (toTime_continuous v w)
  rw [mean_add (f := fun t => toTime va w t * toTime ia w t + toTime vb w t * toTime ib w t) ((hc va ia).add (hc vb ib)) (hc vc ic), mean_add (hc va ia) (hc vb ib), (C145_phase_power va ia hw t0).1, (C145_phase_power vb ib hw t0).1,
    (C145_phase_power vc ic hw t0).1]
  simp [sPh, sCalc, Complex.mul_re, Complex.mul_im]
  ring

/-- C145: in one phase it swings about the reported active power with twice the frequency, and the amplitude of the swing is the apparent power. -/
theorem C145_single_phase_ripple (v i : ℂ) (w t : ℝ) :
    toTime v w t * toTime i w t = (sPh v i).re - ((1 / 2 : ℂ) * (v * i) * ej (2 * (w * t))).re ∧
    ‖(1 / 2 : ℂ) * (v * i) * ej (2 * (w * t))‖ = ‖sPh v i‖ := by
  constructor
  · rw [toTime_trig, toTime_trig]
    have h : ej (2 * (w * t)) = ((Real.cos (w * t) : ℂ) + Real.sin (w * t) * I) ^ 2 := by
      unfold ej
      rw [mul_comm, show ((2 * (w * t) : ℝ) : ℂ) * I = ((2 : ℕ) : ℂ) * (((w * t : ℝ) : ℂ) * I) by push_cast; ring, exp_nat_mul, exp_mul_I]
      push_cast
      rfl
    rw [h]
    have hp := Real.sin_sq_add_cos_sq (w * t)
    generalize Real.cos (w * t) = c at hp ⊢
    generalize Real.sin (w * t) = d at hp ⊢
    simp [sPh, Complex.mul_re, Complex.mul_im, pow_two]
    linear_combination ((v.re * i.re + v.im * i.im) / 2) * (hp)
  · have : ‖ej (2 * (w * t))‖ = 1 := by
      unfold ej
      rw [mul_comm]
      exact norm_exp_ofReal_mul_I _
    simp [sPh, this]

/-- C145: in a balanced system the instantaneous power is constant and equal to the reported one. -/
theorem C145_balanced_power_constant (v i : ℂ) (w t : ℝ) :
    toTime v w t * toTime i w t + toTime (ub v) w t * toTime (ub i) w t + toTime (uc v) w t * toTime (uc i) w t =
      (sCalc v (ub v) (uc v) i (ub i) (uc i)).re := by
  rw [(C145_single_phase_ripple v i w t).1, (C145_single_phase_ripple (ub v) (ub i) w t).1, (C145_single_phase_ripple (uc v) (uc i) w t).1]
  obtain ⟨_, _, h1, h2, h3, _⟩ := C47_phase_shift (v * i)
  have hb : ub v * ub i = uc (v * i) := by
    have e : ub v * ub i = ub (ub (v * i)) := by unfold ub; ring
    obtain ⟨_, _, _, g2, g3, _⟩ := C47_phase_shift (ub (v * i))
    rw [e]
    linear_combination g3 - h2 - h3
  have hc : uc v * uc i = ub (v * i) := by
    have e : uc v * uc i = uc (uc (v * i)) := by unfold uc; ring
    obtain ⟨_, _, _, g2, g3, _⟩ := C47_phase_shift (uc (v * i))
    rw [e]
    linear_combination g3 - h1 - h3
  rw [hb, hc]
  have hz : ((1 / 2 : ℂ) * (v * i) * ej (2 * (w * t))).re + ((1 / 2 : ℂ) * uc (v * i) * ej (2 * (w * t))).re + ((1 / 2 : ℂ) * ub (v * i) * ej (2 * (w * t))).re = 0 := by
    rw [← Complex.add_re, ← Complex.add_re]
    have : (1 / 2 : ℂ) * (v * i) * ej (2 * (w * t)) + (1 / 2 : ℂ) * uc (v * i) * ej (2 * (w * t)) + (1 / 2 : ℂ) * ub (v * i) * ej (2 * (w * t)) = 0 := by
      linear_combination (1 / 2 : ℂ) * ej (2 * (w * t)) * h3
    rw [this, Complex.zero_re]
  have hs : (sCalc v (ub v) (uc v) i (ub i) (uc i)).re = (sPh v i).re + (sPh (ub v) (ub i)).re + (sPh (uc v) (uc i)).re := by
    rw [← Complex.add_re, ← Complex.add_re]
    congr 1
    unfold sCalc sPh
    ring
  rw [hs]
  linarith

/-- C145: the reported RMS value of a phase is the root of the mean square of its waveform, and the waveform's extreme value is the magnitude of the phasor. -/
theorem C145_rms (u : ℂ) {w : ℝ} (hw : w ≠ 0) (t0 : ℝ) :
    Real.sqrt (mean w t0 (fun t => toTime u w t ^ 2)) = urms1 u ∧ (∀ t, |toTime u w t| ≤ ‖u‖) ∧ ∃ t, toTime u w t = ‖u‖ := by
  refine ⟨?_, fun t => ?_, (Real.pi / 2 - arg u) / w, ?_⟩
  · simp only [pow_two, toTime_trig]
    rw [product_mean _ _ _ _ hw, urms1, ← Real.sqrt_sq (norm_nonneg u), ← Real.sqrt_div (sq_nonneg _), Complex.sq_norm, Complex.normSq_apply]
  · rw [toTime_eq]
    refine (Complex.abs_im_le_norm _).trans ?_
    rw [norm_mul]
    have : ‖ej (w * t)‖ = 1 := by unfold ej; rw [mul_comm]; exact norm_exp_ofReal_mul_I _
    rw [this, mul_one]
  · unfold toTime
    have e : w * ((Real.pi / 2 - arg u) / w) + arg u - Real.pi / 2 = 0 := by field_simp; ring
    rw [e]
    simp [ej]

/-- C145: the reported three-phase RMS value is the root of the mean, over the three phases, of the mean squares of the waveforms. -/
theorem C145_three_phase_rms (a b c : ℂ) {w : ℝ} (hw : w ≠ 0) (t0 : ℝ) :
    urms a b c = Real.sqrt ((mean w t0 (fun t => toTime a w t ^ 2) + mean w t0 (fun t => toTime b w t ^ 2) + mean w t0 (fun t => toTime c w t ^ 2)) / 3) := by
  simp only [pow_two, toTime_trig]
  rw [product_mean _ _ _ _ hw, product_mean _ _ _ _ hw, product_mean _ _ _ _ hw, urms, ← Real.sqrt_div (by positivity), Complex.sq_norm, Complex.sq_norm, Complex.sq_norm,
    Complex.normSq_apply, Complex.normSq_apply, Complex.normSq_apply]
  congr 1
  ring

/-- Concrete case: at 60 Hz, a voltage of 1 and a current of 1 - j (lagging by 45 degrees) give a mean power of 1/2 and a reactive power of 1/2. -/
theorem C145_example :
    mean (2 * Real.pi * 60) 0 (fun t => toTime 1 (2 * Real.pi * 60) t * toTime (1 - I) (2 * Real.pi * 60) t) = 1 / 2 ∧ (sPh 1 (1 - I)).re = 1 / 2 ∧ (sPh 1 (1 - I)).im = 1 / 2 := by
  have hw : 2 * Real.pi * 60 ≠ 0 := by have := Real.pi_pos; positivity
  have h : (sPh 1 (1 - I)).re = 1 / 2 := by simp [sPh]
  refine ⟨((C145_phase_power 1 (1 - I) hw 0).1).trans h, h, by simp [sPh]⟩

end Phasor
end PvDer
