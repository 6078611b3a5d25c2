import Verif.Lemmas.Pll
import Verif.Props.OdeProps
import Verif.Props.Phasor
import Verif.Props.SteadyExact

/-!
# C108: the phase-locked loop of every model class locks onto the grid

Along every solution of the model (connected or not, and even switching between the two at arbitrary times), under a constant PCC voltage phasor and grid
frequency, with positive PLL gains.
-/

namespace PvDer
namespace Ode
open Complex Phasor Filter Topology

/-- The two PLL equations with the single-phase PLL input: what all seven classes integrate. -/
structure PllEq (p : Par) (v : ℂ) (w : ℝ) (X W : ℝ → ℝ) : Prop where
  dX : ∀ t, 0 ≤ t → HasDerivAt X (p.Ki_PLL * (pll1 v w t (W t)).1) t
  dW : ∀ t, 0 ≤ t → HasDerivAt W (weCalc p.Kp_PLL (pll1 v w t (W t)).1 (X t)) t

/-- The error dynamics: phase error (shifted by whole turns) and integrator error. -/
theorem PllEq.loop {p : Par} {v : ℂ} {w : ℝ} {X W : ℝ → ℝ} (h : PllEq p v w X W) (hv : v ≠ 0) (hKp : 0 < p.Kp_PLL) (hKi : 0 < p.Ki_PLL) (n : ℤ) :
    Pll.Loop ‖v‖ p.Kp_PLL p.Ki_PLL (fun t => w * t + arg v - W t - n * (2 * Real.pi)) (fun t => X t - (w - 2 * Real.pi * 60)) := by
  have e : ∀ t, Real.sin (w * t + arg v - W t - n * (2 * Real.pi)) = Real.sin (w * t + arg v - W t) := fun t => Real.sin_sub_int_mul_two_pi _ _
  refine ⟨norm_pos_iff.2 hv, hKp, hKi, fun t ht => ?_, fun t ht => ?_⟩
  · have h1 := ((((hasDerivAt_id' t).const_mul w).add_const (arg v)).sub (h.dW t ht)).sub_const (n * (2 * Real.pi))
    refine h1.congr_deriv ?_
    simp only [e]
    rw [C53_pll_input, weCalc]
    ring
  · refine ((h.dX t ht).sub_const _).congr_deriv ?_
    simp only [e]
    rw [C53_pll_input]

/-- What "the PLL locks" means for the PLL states `X` (integrator) and `W` (angle): the detector output vanishes and the frequency estimate becomes the grid
frequency, from every initial state; and if the initial error is below the slip limit `2‖v‖`, measured by
`‖v‖ (1 - cos θ₀) + (X 0 - (w - 2π60))² / (2 Ki)` with `θ₀` the initial phase error brought into `(-π, π)` by `n` turns, the PLL angle never slips a cycle and
converges to the angle of the grid voltage (up to those `n` turns). -/
def Locks (p : Par) (v : ℂ) (w : ℝ) (X W : ℝ → ℝ) : Prop :=
  Tendsto (fun t => (pll1 v w t (W t)).1) atTop (𝓝 0) ∧
  Tendsto (fun t => weCalc p.Kp_PLL (pll1 v w t (W t)).1 (X t)) atTop (𝓝 w) ∧
  ∀ n : ℤ, |arg v - W 0 - n * (2 * Real.pi)| < Real.pi →
    ‖v‖ * (1 - Real.cos (arg v - W 0)) + (X 0 - (w - 2 * Real.pi * 60)) ^ 2 / (2 * p.Ki_PLL) < 2 * ‖v‖ →
    (∀ t, 0 ≤ t → |w * t + arg v - W t - n * (2 * Real.pi)| < Real.pi) ∧
    Tendsto (fun t => w * t + arg v - W t) atTop (𝓝 (n * (2 * Real.pi)))

theorem PllEq.locks {p : Par} {v : ℂ} {w : ℝ} {X W : ℝ → ℝ} (h : PllEq p v w X W) (hv : v ≠ 0) (hKp : 0 < p.Kp_PLL) (hKi : 0 < p.Ki_PLL) :
    Locks p v w X W := by
  have hvd : Tendsto (fun t => (pll1 v w t (W t)).1) atTop (𝓝 0) := by
    have := ((h.loop hv hKp hKi 0).sin_tendsto).const_mul ‖v‖
    rw [mul_zero] at this
    refine this.congr (fun t => ?_)
    rw [C53_pll_input]; simp
  refine ⟨hvd, ?_, fun n h0 hE => ?_⟩
  · have hz := (h.loop hv hKp hKi 0).z_tendsto
    have := ((hvd.const_mul p.Kp_PLL).add hz).add_const w
    rw [mul_zero, zero_add, zero_add] at this
    refine this.congr (fun t => ?_)
    rw [weCalc]; ring
  · have L := h.loop hv hKp hKi n
    have e0 : (fun t => w * t + arg v - W t - n * (2 * Real.pi)) 0 = arg v - W 0 - n * (2 * Real.pi) := by simp
    have h0' : |(fun t => w * t + arg v - W t - n * (2 * Real.pi)) 0| < Real.pi := by rw [e0]; exact h0
    have hE' : Pll.energy ‖v‖ p.Ki_PLL ((fun t => w * t + arg v - W t - n * (2 * Real.pi)) 0) ((fun t => X t - (w - 2 * Real.pi * 60)) 0) < 2 * ‖v‖ := by
      rw [e0, Pll.energy, Real.cos_sub_int_mul_two_pi]; exact hE
    refine ⟨fun t ht => L.no_slip h0' hE' ht, ?_⟩
    have := (L.θ_tendsto h0' hE').add_const (n * (2 * Real.pi))
    rw [zero_add] at this
    refine this.congr (fun t => ?_)
    ring

/-- Attributes at an evaluation that may be connected or disconnected (`c`). -/
noncomputable def connIf (c : Bool) (e : Env) : Env := if c then e else disc e

theorem connIf_pll (c : Bool) (e : Env) : (connIf c e).vd = e.vd ∧ (connIf c e).we = e.we ∧ (connIf c e).Ki_PLL = e.Ki_PLL := by
  cases c <;> simp [connIf, disc]

/-- Constant grid: voltage phasor `v` (balanced in phases b and c), frequency `w`, and the time argument is the time. -/
def SteadyGrid (v : ℂ) (w : ℝ) (inp : ℝ → Inp) : Prop :=
  ∀ t, 0 ≤ t → (inp t).va = v ∧ (inp t).vb = Phasor.ub v ∧ (inp t).vc = Phasor.uc v ∧ (inp t).w = w ∧ (inp t).t = t

variable (p : Par) (inp : ℝ → Inp) (c : ℝ → Bool) (v : ℂ) (w : ℝ)

theorem C108_pll_locks_single (Y : ℝ → SinglePhase.V → ℝ) (hg : SteadyGrid v w inp) (hv : v ≠ 0) (hKp : 0 < p.Kp_PLL) (hKi : 0 < p.Ki_PLL)
    (h : ∀ t, 0 ≤ t → Solves (fun t y => SinglePhase.rhs (connIf (c t) (env1 p (inp t) y))) Y t) :
    Locks p v w (fun t => Y t .xPLL) (fun t => Y t .wte) := by
  refine PllEq.locks ⟨fun t ht => ?_, fun t ht => ?_⟩ hv hKp hKi
  · refine (h t ht .xPLL).congr_deriv ?_
    simp only [SinglePhase.rhs, (connIf_pll _ _).1, (connIf_pll _ _).2.2]
    simp only [env1, (hg t ht).1, (hg t ht).2.2.2.1, (hg t ht).2.2.2.2, Env.base]
  · refine (h t ht .wte).congr_deriv ?_
    simp only [SinglePhase.rhs, (connIf_pll _ _).2.1]
    simp only [env1, (hg t ht).1, (hg t ht).2.2.2.1, (hg t ht).2.2.2.2]

theorem C108_pll_locks_single_constant_vdc (Y : ℝ → SinglePhaseConstantVdc.V → ℝ) (hg : SteadyGrid v w inp) (hv : v ≠ 0) (hKp : 0 < p.Kp_PLL)
    (hKi : 0 < p.Ki_PLL) (h : ∀ t, 0 ≤ t → Solves (fun t y => SinglePhaseConstantVdc.rhs (connIf (c t) (envC1 p (inp t) y))) Y t) :
    Locks p v w (fun t => Y t .xPLL) (fun t => Y t .wte) := by
  refine PllEq.locks ⟨fun t ht => ?_, fun t ht => ?_⟩ hv hKp hKi
  · refine (h t ht .xPLL).congr_deriv ?_
    simp only [SinglePhaseConstantVdc.rhs, (connIf_pll _ _).1, (connIf_pll _ _).2.2]
    simp only [envC1, (hg t ht).1, (hg t ht).2.2.2.1, (hg t ht).2.2.2.2, Env.base]
  · refine (h t ht .wte).congr_deriv ?_
    simp only [SinglePhaseConstantVdc.rhs, (connIf_pll _ _).2.1]
    simp only [envC1, (hg t ht).1, (hg t ht).2.2.2.1, (hg t ht).2.2.2.2]

theorem pll3_steady {t : ℝ} (ht : 0 ≤ t) (hg : SteadyGrid v w inp) (W : ℝ) :
    (pll3 (inp t).va (inp t).vb (inp t).vc (inp t).w (inp t).t W).1 = (pll1 v w t W).1 := by
  obtain ⟨h1, h2, h3, h4, h5⟩ := hg t ht
  rw [h1, h2, h3, h4, h5, C53_pll_three_phase]

theorem C108_pll_locks_three (Y : ℝ → ThreePhase.V → ℝ) (hg : SteadyGrid v w inp) (hv : v ≠ 0) (hKp : 0 < p.Kp_PLL) (hKi : 0 < p.Ki_PLL)
    (h : ∀ t, 0 ≤ t → Solves (fun t y => ThreePhase.rhs (connIf (c t) (envT p (inp t) y))) Y t) :
    Locks p v w (fun t => Y t .xPLL) (fun t => Y t .wte) := by
  refine PllEq.locks ⟨fun t ht => ?_, fun t ht => ?_⟩ hv hKp hKi
  · refine (h t ht .xPLL).congr_deriv ?_
    simp only [ThreePhase.rhs, (connIf_pll _ _).1, (connIf_pll _ _).2.2]
    simp only [envT, env3, pll3_steady inp v w ht hg, Env.base]
  · refine (h t ht .wte).congr_deriv ?_
    simp only [ThreePhase.rhs, (connIf_pll _ _).2.1]
    simp only [envT, env3, pll3_steady inp v w ht hg]

theorem C108_pll_locks_three_no_filter (Y : ℝ → ThreePhaseNoVrmsFilter.V → ℝ) (hg : SteadyGrid v w inp) (hv : v ≠ 0) (hKp : 0 < p.Kp_PLL)
    (hKi : 0 < p.Ki_PLL) (h : ∀ t, 0 ≤ t → Solves (fun t y => ThreePhaseNoVrmsFilter.rhs (connIf (c t) (envN p (inp t) y))) Y t) :
    Locks p v w (fun t => Y t .xPLL) (fun t => Y t .wte) := by
  refine PllEq.locks ⟨fun t ht => ?_, fun t ht => ?_⟩ hv hKp hKi
  · refine (h t ht .xPLL).congr_deriv ?_
    simp only [ThreePhaseNoVrmsFilter.rhs, (connIf_pll _ _).1, (connIf_pll _ _).2.2]
    simp only [envN, env3, pll3_steady inp v w ht hg, Env.base]
  · refine (h t ht .wte).congr_deriv ?_
    simp only [ThreePhaseNoVrmsFilter.rhs, (connIf_pll _ _).2.1]
    simp only [envN, env3, pll3_steady inp v w ht hg]

theorem C108_pll_locks_three_numba (Y : ℝ → ThreePhaseNumba.V → ℝ) (hg : SteadyGrid v w inp) (hv : v ≠ 0) (hKp : 0 < p.Kp_PLL) (hKi : 0 < p.Ki_PLL)
    (h : ∀ t, 0 ≤ t → Solves (fun t y => ThreePhaseNumba.rhs (connIf (c t) (envNumba p (inp t) y))) Y t) :
    Locks p v w (fun t => Y t .xPLL) (fun t => Y t .wte) := by
  refine PllEq.locks ⟨fun t ht => ?_, fun t ht => ?_⟩ hv hKp hKi
  · refine (h t ht .xPLL).congr_deriv ?_
    simp only [ThreePhaseNumba.rhs, (connIf_pll _ _).1, (connIf_pll _ _).2.2]
    simp only [envNumba, env3, pll3_steady inp v w ht hg, Env.base]
  · refine (h t ht .wte).congr_deriv ?_
    simp only [ThreePhaseNumba.rhs, (connIf_pll _ _).2.1]
    simp only [envNumba, env3, pll3_steady inp v w ht hg]

theorem C108_pll_locks_three_constant_vdc (Y : ℝ → ThreePhaseConstantVdc.V → ℝ) (hg : SteadyGrid v w inp) (hv : v ≠ 0) (hKp : 0 < p.Kp_PLL)
    (hKi : 0 < p.Ki_PLL) (h : ∀ t, 0 ≤ t → Solves (fun t y => ThreePhaseConstantVdc.rhs (connIf (c t) (envC3 p (inp t) y))) Y t) :
    Locks p v w (fun t => Y t .xPLL) (fun t => Y t .wte) := by
  refine PllEq.locks ⟨fun t ht => ?_, fun t ht => ?_⟩ hv hKp hKi
  · refine (h t ht .xPLL).congr_deriv ?_
    simp only [ThreePhaseConstantVdc.rhs, (connIf_pll _ _).1, (connIf_pll _ _).2.2]
    simp only [envC3, pll3_steady inp v w ht hg, Env.base]
  · refine (h t ht .wte).congr_deriv ?_
    simp only [ThreePhaseConstantVdc.rhs, (connIf_pll _ _).2.1]
    simp only [envC3, pll3_steady inp v w ht hg]

theorem C108_pll_locks_balanced (Y : ℝ → ThreePhaseBalanced.V → ℝ) (hg : SteadyGrid v w inp) (hv : v ≠ 0) (hKp : 0 < p.Kp_PLL) (hKi : 0 < p.Ki_PLL)
    (h : ∀ t, 0 ≤ t → Solves (fun t y => ThreePhaseBalanced.rhs (connIf (c t) (envB p (inp t) y))) Y t) :
    Locks p v w (fun t => Y t .xPLL) (fun t => Y t .wte) := by
  have e : ∀ t, 0 ≤ t → ∀ W, (pll3 (inp t).va (Phasor.ub (inp t).va) (Phasor.uc (inp t).va) (inp t).w (inp t).t W).1 = (pll1 v w t W).1 := by
    intro t ht W
    rw [C53_pll_three_phase, (hg t ht).1, (hg t ht).2.2.2.1, (hg t ht).2.2.2.2]
  refine PllEq.locks ⟨fun t ht => ?_, fun t ht => ?_⟩ hv hKp hKi
  · refine (h t ht .xPLL).congr_deriv ?_
    simp only [ThreePhaseBalanced.rhs, (connIf_pll _ _).1, (connIf_pll _ _).2.2]
    simp only [envB, env3, e t ht, Env.base]
  · refine (h t ht .wte).congr_deriv ?_
    simp only [ThreePhaseBalanced.rhs, (connIf_pll _ _).2.1]
    simp only [envB, env3, e t ht]

/-- With an inverted sign of either gain the claim would be false; with `Kp = 0` the loop oscillates for ever: the energy is exactly conserved, so a loop that
starts with an error never locks. -/
theorem C108_needs_damping (Y : ℝ → SinglePhase.V → ℝ) (hg : SteadyGrid v w inp) (hv : v ≠ 0) (hKp : p.Kp_PLL = 0) (hKi : 0 < p.Ki_PLL)
    (h : ∀ t, 0 ≤ t → Solves (fun t y => SinglePhase.rhs (connIf (c t) (env1 p (inp t) y))) Y t) {t : ℝ} (ht : 0 ≤ t) :
    ‖v‖ * (1 - Real.cos (w * t + arg v - Y t .wte)) + (Y t .xPLL - (w - 2 * Real.pi * 60)) ^ 2 / (2 * p.Ki_PLL) =
    ‖v‖ * (1 - Real.cos (arg v - Y 0 .wte)) + (Y 0 .xPLL - (w - 2 * Real.pi * 60)) ^ 2 / (2 * p.Ki_PLL) := by
  have hv' := hv
  have hX : ∀ t, 0 ≤ t → HasDerivAt (fun t => Y t .xPLL) (p.Ki_PLL * (‖v‖ * Real.sin (w * t + arg v - Y t .wte))) t := fun t ht => by
    refine (h t ht .xPLL).congr_deriv ?_
    simp only [SinglePhase.rhs, (connIf_pll _ _).1, (connIf_pll _ _).2.2]
    simp only [env1, (hg t ht).1, (hg t ht).2.2.2.1, (hg t ht).2.2.2.2, Env.base]
    rw [C53_pll_input]
  have hW : ∀ t, 0 ≤ t → HasDerivAt (fun t => Y t .wte) (Y t .xPLL + 2 * Real.pi * 60) t := fun t ht => by
    refine (h t ht .wte).congr_deriv ?_
    simp only [SinglePhase.rhs, (connIf_pll _ _).2.1]
    simp only [env1, weCalc, hKp]; ring
  have hd : ∀ s, 0 ≤ s → HasDerivAt (fun t => ‖v‖ * (1 - Real.cos (w * t + arg v - Y t .wte)) + (Y t .xPLL - (w - 2 * Real.pi * 60)) ^ 2 / (2 * p.Ki_PLL)) 0 s := by
    intro s hs
    have h1 := ((((hasDerivAt_id' s).const_mul w).add_const (arg v)).sub (hW s hs))
    have h2 := (h1.cos.const_sub 1).const_mul ‖v‖
    have h3 := (((hX s hs).sub_const (w - 2 * Real.pi * 60)).pow 2).div_const (2 * p.Ki_PLL)
    refine (h2.add h3).congr_deriv ?_
    simp
    field_simp
    ring
  have hc := constant_of_has_deriv_right_zero (f := fun t => ‖v‖ * (1 - Real.cos (w * t + arg v - Y t .wte)) + (Y t .xPLL - (w - 2 * Real.pi * 60)) ^ 2 / (2 * p.Ki_PLL))
    (a := 0) (b := t) (fun s hs => (hd s hs.1).continuousAt.continuousWithinAt) (fun s hs => (hd s hs.1).hasDerivWithinAt) t ⟨ht, le_rfl⟩
  simpa using hc

/-- The hypotheses are met by a run at full insolation: the connected single-phase example instance started at an exact operating point. -/
theorem C108_example : ∃ (inp : ℝ → Inp) (Y : ℝ → SinglePhase.V → ℝ), SteadyGrid (1/2) (2 * Real.pi * 60) inp ∧ (1/2 : ℂ) ≠ 0 ∧ 0 < SS.exPar60.Kp_PLL ∧
    0 < SS.exPar60.Ki_PLL ∧ (∀ t, 0 ≤ t → Solves (fun t y => SinglePhase.rhs (connIf true (env1 SS.exPar60 (inp t) y))) Y t) ∧
    |arg (1/2) - Y 0 .wte - (-1 : ℤ) * (2 * Real.pi)| < Real.pi ∧
    ‖(1/2 : ℂ)‖ * (1 - Real.cos (arg (1/2) - Y 0 .wte)) + (Y 0 .xPLL - (2 * Real.pi * 60 - 2 * Real.pi * 60)) ^ 2 / (2 * SS.exPar60.Ki_PLL) < 2 * ‖(1/2 : ℂ)‖ := by
  obtain ⟨x, hr, hf, hv, -⟩ := SS.exists_op
  obtain ⟨h0, hs⟩ := SS.C88_rotating_single SS.exPar60 SS.exOp exInp x hr hf hv
  have ha : arg (1/2 : ℂ) = 0 := by
    have : (1/2 : ℂ) = ((1/2 : ℝ) : ℂ) := by norm_num
    rw [this]; exact arg_ofReal_of_nonneg (by norm_num)
  refine ⟨_, _, fun t _ => ⟨rfl, rfl, rfl, rfl, rfl⟩, by norm_num, ?_, ?_, fun t _ => hs t, ?_, ?_⟩
  · norm_num [SS.exPar60, exPar]
  · norm_num [SS.exPar60, exPar]
  · beta_reduce at h0; rw [h0, ha]
    show |0 - (2 * Real.pi) - (-1 : ℤ) * (2 * Real.pi)| < Real.pi
    norm_num [Real.pi_pos]
  · beta_reduce at h0; rw [h0, ha]
    show ‖(1/2 : ℂ)‖ * (1 - Real.cos (0 - (2 * Real.pi))) + (0 - (2 * Real.pi * 60 - 2 * Real.pi * 60)) ^ 2 / (2 * SS.exPar60.Ki_PLL) < 2 * ‖(1/2 : ℂ)‖
    norm_num

end Ode
end PvDer
