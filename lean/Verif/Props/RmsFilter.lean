import Mathlib.Analysis.SpecialFunctions.ExpDeriv
import Mathlib.Analysis.SpecialFunctions.Log.Basic
import Mathlib.Analysis.Calculus.MeanValue
import Verif.Props.Pll

/-!
# C109: the filtered RMS voltage of the three-phase class follows the RMS voltage with a first-order lag

The state `Vrms_filter` is what the voltage ride-through logic of that class reads by default.
-/

namespace PvDer
namespace Ode
open Complex Phasor Set

/-- A quantity with `f' = (r - f)/T` and `r ≤ hi` on `[0, ∞)` stays below the exponential towards `hi`. -/
theorem lag_le {f r : ℝ → ℝ} {T hi : ℝ} (hT : 0 < T) (hd : ∀ t, 0 ≤ t → HasDerivAt f (1 / T * (r t - f t)) t) {t : ℝ} (ht : 0 ≤ t)
    (hr : ∀ s, 0 ≤ s → s ≤ t → r s ≤ hi) : f t ≤ hi + (f 0 - hi) * Real.exp (-(t / T)) := by
  have hg : ∀ s, 0 ≤ s → HasDerivAt (fun s => (f s - hi) * Real.exp (s / T)) (1 / T * (r s - hi) * Real.exp (s / T)) s := by
    intro s hs
    have h1 := ((hd s hs).sub_const hi).mul ((hasDerivAt_id' s).div_const T).exp
    refine h1.congr_deriv ?_
    ring
  have hanti : AntitoneOn (fun s => (f s - hi) * Real.exp (s / T)) (Icc 0 t) := by
    refine antitoneOn_of_deriv_nonpos (convex_Icc 0 t) (fun s hs => (hg s hs.1).continuousAt.continuousWithinAt)
      (fun s hs => (hg s (interior_subset hs).1).differentiableAt.differentiableWithinAt) (fun s hs => ?_)
    rw [(hg s (interior_subset hs).1).deriv]
    have h1 := hr s (interior_subset hs).1 (interior_subset hs).2
    refine mul_nonpos_of_nonpos_of_nonneg (mul_nonpos_of_nonneg_of_nonpos (by positivity) (by linarith)) (Real.exp_pos _).le
  have h := hanti ⟨le_rfl, ht⟩ ⟨ht, le_rfl⟩ ht
  simp only [zero_div, Real.exp_zero, mul_one] at h
  have he : Real.exp (t / T) * Real.exp (-(t / T)) = 1 := by rw [← Real.exp_add]; simp
  have h2 := mul_le_mul_of_nonneg_right h (Real.exp_pos (-(t / T))).le
  rw [mul_assoc, he, mul_one] at h2
  linarith

/-- … and above the exponential towards a lower bound. -/
theorem lag_ge {f r : ℝ → ℝ} {T lo : ℝ} (hT : 0 < T) (hd : ∀ t, 0 ≤ t → HasDerivAt f (1 / T * (r t - f t)) t) {t : ℝ} (ht : 0 ≤ t)
    (hr : ∀ s, 0 ≤ s → s ≤ t → lo ≤ r s) : lo + (f 0 - lo) * Real.exp (-(t / T)) ≤ f t := by
  have h := lag_le (f := fun s => -f s) (r := fun s => -r s) (hi := -lo) hT (fun s hs => (hd s hs).neg.congr_deriv (by ring)) ht (fun s h1 h2 => by
    have := hr s h1 h2; linarith)
  linarith

/-- The filter equation inside the three-phase model, connected or not. -/
theorem filter_eq (p : Par) (inp : ℝ → Inp) (c : ℝ → Bool) (Y : ℝ → ThreePhase.V → ℝ)
    (h : ∀ t, 0 ≤ t → Solves (fun t y => ThreePhase.rhs (connIf (c t) (envT p (inp t) y))) Y t) (t : ℝ) (ht : 0 ≤ t) :
    HasDerivAt (fun s => Y s .Vrms) (1 / p.Tfilter_Vrms * (urms (inp t).va (inp t).vb (inp t).vc - Y t .Vrms)) t := by
  refine (h t ht .Vrms).congr_deriv ?_
  cases hc : c t <;> simp [ThreePhase.rhs, connIf, disc, envT, env3, Env.base, hc]

variable (p : Par) (inp : ℝ → Inp) (c : ℝ → Bool) (Y : ℝ → ThreePhase.V → ℝ)

/-- C109: while the RMS voltage of the terminals stays in `[lo, hi]`, the filtered voltage lies between the two exponentials that start at its initial value and
decay to `lo` and `hi` with the filter time constant; in particular it stays in `[lo, hi]` if it starts there. -/
theorem C109_filter_between (hT : 0 < p.Tfilter_Vrms) (h : ∀ t, 0 ≤ t → Solves (fun t y => ThreePhase.rhs (connIf (c t) (envT p (inp t) y))) Y t)
    (lo hi : ℝ) (t : ℝ) (ht : 0 ≤ t) (hr : ∀ s, 0 ≤ s → s ≤ t → lo ≤ urms (inp s).va (inp s).vb (inp s).vc ∧ urms (inp s).va (inp s).vb (inp s).vc ≤ hi) :
    lo + (Y 0 .Vrms - lo) * Real.exp (-(t / p.Tfilter_Vrms)) ≤ Y t .Vrms ∧ Y t .Vrms ≤ hi + (Y 0 .Vrms - hi) * Real.exp (-(t / p.Tfilter_Vrms)) ∧
    (lo ≤ Y 0 .Vrms → lo ≤ Y t .Vrms) ∧ (Y 0 .Vrms ≤ hi → Y t .Vrms ≤ hi) := by
  have hf := filter_eq p inp c Y h
  have h1 := lag_ge (r := fun t => urms (inp t).va (inp t).vb (inp t).vc) hT hf ht (fun s a b => (hr s a b).1)
  have h2 := lag_le (r := fun t => urms (inp t).va (inp t).vb (inp t).vc) hT hf ht (fun s a b => (hr s a b).2)
  have he := Real.exp_pos (-(t / p.Tfilter_Vrms))
  refine ⟨h1, h2, fun h0 => ?_, fun h0 => ?_⟩
  · have : 0 ≤ (Y 0 .Vrms - lo) * Real.exp (-(t / p.Tfilter_Vrms)) := mul_nonneg (by linarith) he.le
    linarith
  · have : 0 ≤ (hi - Y 0 .Vrms) * Real.exp (-(t / p.Tfilter_Vrms)) := mul_nonneg (by linarith) he.le
    linarith

/-- C109: under a constant terminal voltage the filtered value is exactly the exponential. -/
theorem C109_step_response (hT : 0 < p.Tfilter_Vrms) (h : ∀ t, 0 ≤ t → Solves (fun t y => ThreePhase.rhs (connIf (c t) (envT p (inp t) y))) Y t)
    (r t : ℝ) (ht : 0 ≤ t) (hr : ∀ s, 0 ≤ s → s ≤ t → urms (inp s).va (inp s).vb (inp s).vc = r) :
    Y t .Vrms = r + (Y 0 .Vrms - r) * Real.exp (-(t / p.Tfilter_Vrms)) := by
  obtain ⟨h1, h2, -⟩ := C109_filter_between p inp c Y hT h r r t ht (fun s a b => ⟨(hr s a b).ge, (hr s a b).le⟩)
  exact le_antisymm h2 h1

/-- C109: after a sag to `r` the filtered voltage is below a threshold `th` between `r` and the initial value exactly after `T·ln((f₀ - r)/(th - r))`: this is the
delay that the filter adds to the detection of an undervoltage. -/
theorem C109_detection_delay (hT : 0 < p.Tfilter_Vrms) (h : ∀ t, 0 ≤ t → Solves (fun t y => ThreePhase.rhs (connIf (c t) (envT p (inp t) y))) Y t)
    (r th : ℝ) (hr : ∀ s, 0 ≤ s → urms (inp s).va (inp s).vb (inp s).vc = r) (h1 : r < th) (h2 : th < Y 0 .Vrms) (t : ℝ) (ht : 0 ≤ t) :
    Y t .Vrms < th ↔ p.Tfilter_Vrms * Real.log ((Y 0 .Vrms - r) / (th - r)) < t := by
  rw [C109_step_response p inp c Y hT h r t ht (fun s a _ => hr s a)]
  have hd : 0 < th - r := by linarith
  have hf : 0 < Y 0 .Vrms - r := by linarith
  have e : r + (Y 0 .Vrms - r) * Real.exp (-(t / p.Tfilter_Vrms)) < th ↔ Real.exp (-(t / p.Tfilter_Vrms)) < (th - r) / (Y 0 .Vrms - r) := by
    rw [lt_div_iff₀ hf]; constructor <;> intro h <;> linarith
  rw [e, ← Real.lt_log_iff_exp_lt (div_pos hd hf), ← inv_div (Y 0 .Vrms - r) (th - r), Real.log_inv, neg_lt_neg_iff, lt_div_iff₀ hT, mul_comm]

/-- C109: after a recovery to `r` the same with the inequality reversed. -/
theorem C109_recovery_delay (hT : 0 < p.Tfilter_Vrms) (h : ∀ t, 0 ≤ t → Solves (fun t y => ThreePhase.rhs (connIf (c t) (envT p (inp t) y))) Y t)
    (r th : ℝ) (hr : ∀ s, 0 ≤ s → urms (inp s).va (inp s).vb (inp s).vc = r) (h1 : th < r) (h2 : Y 0 .Vrms < th) (t : ℝ) (ht : 0 ≤ t) :
    th < Y t .Vrms ↔ p.Tfilter_Vrms * Real.log ((r - Y 0 .Vrms) / (r - th)) < t := by
  rw [C109_step_response p inp c Y hT h r t ht (fun s a _ => hr s a)]
  have hd : 0 < r - th := by linarith
  have hf : 0 < r - Y 0 .Vrms := by linarith
  have e : th < r + (Y 0 .Vrms - r) * Real.exp (-(t / p.Tfilter_Vrms)) ↔ Real.exp (-(t / p.Tfilter_Vrms)) < (r - th) / (r - Y 0 .Vrms) := by
    rw [lt_div_iff₀ hf]; constructor <;> intro h <;> linarith
  rw [e, ← Real.lt_log_iff_exp_lt (div_pos hd hf), ← inv_div (r - Y 0 .Vrms) (r - th), Real.log_inv, neg_lt_neg_iff, lt_div_iff₀ hT, mul_comm]

/-- A dead grid at night. -/
noncomputable def deadInp (t : ℝ) : Inp := { exInp with va := 0, vb := 0, vc := 0, w := 2 * Real.pi * 60, t := t, Sinsol := 0 }

/-- No current, DC link at its reference, PLL running free, RMS filter discharging from 1/√2. -/
noncomputable def deadY (t : ℝ) : ThreePhase.V → ℝ
  | .Vdc => 11/10 | .wte => 2 * Real.pi * 60 * t | .Vrms => 1 / Real.sqrt 2 * Real.exp (-(t / exPar.Tfilter_Vrms)) | _ => 0

theorem dead_ppv (t : ℝ) : ppvOf exPar (deadInp t) (11/10) = 0 := by
  refine PV.C56_zero_outside PV.exMod PV.exMod_physical 0 (29815/100) _ (by norm_num) (by norm_num [PV.iph]) (Or.inr ?_)
  norm_num [PV.iph, exPar]

theorem toTime_zero (w t : ℝ) : toTime 0 w t = 0 := by simp [toTime]

theorem dead_pll (w t a : ℝ) : (pll3 0 0 0 w t a).1 = 0 := by
  simp [pll3, abcToDq0, space, toTime_zero]

/-- The hypotheses of C109 are met by a run in which the filtered voltage really moves: the grid is lost at time 0 and the filtered voltage decays from its nominal
value, crossing the threshold 1/2 after `T·ln √2`. -/
theorem C109_example : (∀ t, 0 ≤ t → Solves (fun t y => ThreePhase.rhs (connIf true (envT exPar (deadInp t) y))) deadY t) ∧ 0 < exPar.Tfilter_Vrms ∧
    (∀ t, 0 ≤ t → urms (deadInp t).va (deadInp t).vb (deadInp t).vc = 0) ∧ (1/2 : ℝ) < deadY 0 .Vrms := by
  refine ⟨fun t _ r => ?_, by norm_num [exPar], fun t _ => by simp [deadInp, urms], ?_⟩
  · have hS : ∀ v1 v2 v3, sCalc v1 v2 v3 0 0 0 = 0 := by intros; simp [sCalc]
    have z : (⟨0, 0⟩ : ℂ) = 0 := rfl
    have hP := dead_ppv t
    by_cases h1 : r = .wte
    · subst h1
      have e : ThreePhase.rhs (connIf true (envT exPar (deadInp t) (deadY t))) .wte = 2 * Real.pi * 60 := by
        simp only [connIf, if_true, ThreePhase.rhs, envT, env3, weCalc, deadInp, dead_pll, deadY]; ring
      beta_reduce; rw [e]
      have := (hasDerivAt_id' t).const_mul (2 * Real.pi * 60)
      simpa [deadY] using this
    by_cases h2 : r = .Vrms
    · subst h2
      have e : ThreePhase.rhs (connIf true (envT exPar (deadInp t) (deadY t))) .Vrms =
          1 / exPar.Tfilter_Vrms * (0 - 1 / Real.sqrt 2 * Real.exp (-(t / exPar.Tfilter_Vrms))) := by
        simp [connIf, ThreePhase.rhs, envT, env3, Env.base, deadInp, deadY, urms]
      beta_reduce; rw [e]
      have := ((((hasDerivAt_id' t).div_const exPar.Tfilter_Vrms).neg).exp).const_mul (1 / Real.sqrt 2)
      refine this.congr_deriv ?_
      simp only [Pi.neg_apply]
      ring
    have e : ThreePhase.rhs (connIf true (envT exPar (deadInp t) (deadY t))) r = 0 := by
      have hP' : ppvOf exPar (deadInp t) (deadY t .Vdc) = 0 := hP
      have hi : irefOf exPar (deadInp t) (11/10) 0 0 0 = 0 := by
        apply Complex.ext <;> simp [irefOf, deadInp, exInp]
      have h0 : (deadInp t).va = 0 ∧ (deadInp t).vb = 0 ∧ (deadInp t).vc = 0 ∧ (deadInp t).Vdc_ref = 11/10 ∧ (deadInp t).Q_ref = 0 := ⟨rfl, rfl, rfl, rfl, rfl⟩
      cases r <;> first
        | exact absurd rfl h1
        | exact absurd rfl h2
        | simp [connIf, ThreePhase.rhs, envT, env3, Env.base, deadY, z, hS, hP, vtOf, duty, hi, Phasor.ub, Phasor.uc, dead_pll, h0]
    beta_reduce; rw [e]
    have hc : (fun s => deadY s r) = fun _ => deadY t r := by
      funext s; cases r <;> first | rfl | exact absurd rfl h1 | exact absurd rfl h2
    rw [hc]
    exact hasDerivAt_const _ _
  · show (1/2 : ℝ) < 1 / Real.sqrt 2 * Real.exp (-(0 / exPar.Tfilter_Vrms))
    rw [zero_div, neg_zero, Real.exp_zero, mul_one]
    have h2 : Real.sqrt 2 < 2 := by rw [Real.sqrt_lt' (by norm_num)]; norm_num
    exact one_div_lt_one_div_of_lt (Real.sqrt_pos.2 (by norm_num)) h2

end Ode
end PvDer
