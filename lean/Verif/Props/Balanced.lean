import Verif.Props.OdeProps
import Verif.Lemmas.OdeEx

/-!
# C76: the balanced class is the three-phase class on balanced trajectories
-/

namespace PvDer
namespace Ode
open Complex Phasor

/-- The three-phase state whose phases b and c are the rotations of phase a. -/
noncomputable def lift (y : ThreePhaseBalanced.V → ℝ) : ThreePhaseNoVrmsFilter.V → ℝ
  | .iaR => y .iaR | .iaI => y .iaI | .xaR => y .xaR | .xaI => y .xaI | .uaR => y .uaR | .uaI => y .uaI
  | .ibR => (Phasor.ub ⟨y .iaR, y .iaI⟩).re | .ibI => (Phasor.ub ⟨y .iaR, y .iaI⟩).im
  | .xbR => (Phasor.ub ⟨y .xaR, y .xaI⟩).re | .xbI => (Phasor.ub ⟨y .xaR, y .xaI⟩).im
  | .ubR => (Phasor.ub ⟨y .uaR, y .uaI⟩).re | .ubI => (Phasor.ub ⟨y .uaR, y .uaI⟩).im
  | .icR => (Phasor.uc ⟨y .iaR, y .iaI⟩).re | .icI => (Phasor.uc ⟨y .iaR, y .iaI⟩).im
  | .xcR => (Phasor.uc ⟨y .xaR, y .xaI⟩).re | .xcI => (Phasor.uc ⟨y .xaR, y .xaI⟩).im
  | .ucR => (Phasor.uc ⟨y .uaR, y .uaI⟩).re | .ucI => (Phasor.uc ⟨y .uaR, y .uaI⟩).im
  | .Vdc => y .Vdc | .xDC => y .xDC | .xQ => y .xQ | .xPLL => y .xPLL | .wte => y .wte

/-- Balanced grid voltages. -/
def BalancedInp (i : Inp) : Prop := i.vb = Phasor.ub i.va ∧ i.vc = Phasor.uc i.va

/-- C76: on a balanced state with balanced voltages both classes compute the same attributes (powers, references, frequency, …). -/
theorem C76_same_quantities (p : Par) (i : Inp) (hi : BalancedInp i) (y : ThreePhaseBalanced.V → ℝ) : envN p i (lift y) = envB p i y := by
  obtain ⟨va, vb, vc, w, t, Vdc_ref, Q_ref, Sinsol, Tactual, Vdc0⟩ := i
  have h1 : vb = Phasor.ub va := hi.1
  have h2 : vc = Phasor.uc va := hi.2
  subst h1 h2
  rfl

/-- C76: phase a, DC link, both outer controllers and the PLL have equal derivatives in every state, saturated or not. -/
theorem C76_common_rows (p : Par) (i : Inp) (hi : BalancedInp i) (y : ThreePhaseBalanced.V → ℝ) :
    let f := ThreePhaseNoVrmsFilter.rhs (envN p i (lift y))
    let g := ThreePhaseBalanced.rhs (envB p i y)
    f .iaR = g .iaR ∧ f .iaI = g .iaI ∧ f .xaR = g .xaR ∧ f .xaI = g .xaI ∧ f .uaR = g .uaR ∧ f .uaI = g .uaI ∧
    f .Vdc = g .Vdc ∧ f .xDC = g .xDC ∧ f .xQ = g .xQ ∧ f .xPLL = g .xPLL ∧ f .wte = g .wte := by
  rw [C76_same_quantities p i hi y]
  exact ⟨rfl, rfl, rfl, rfl, rfl, rfl, rfl, rfl, rfl, rfl, rfl⟩

/-- C76: while the duty cycle is within its limit, the derivative of the three-phase class at a balanced state is the balanced class's derivative, rotated. -/
theorem C76_derivatives (p : Par) (i : Inp) (hi : BalancedInp i) (y : ThreePhaseBalanced.V → ℝ)
    (hm : ‖duty p ⟨y .uaR, y .uaI⟩ ⟨y .xaR, y .xaI⟩‖ ≤ p.m_limit) :
    ThreePhaseNoVrmsFilter.rhs (envN p i (lift y)) = lift (ThreePhaseBalanced.rhs (envB p i y)) := by
  rw [C76_same_quantities p i hi y]
  have hb : ∀ u x : ℂ, (p.Kp_GCC : ℂ) * Phasor.ub u + Phasor.ub x = Phasor.ub ((p.Kp_GCC : ℂ) * u + x) := by intro u x; unfold Phasor.ub; ring
  have hc : ∀ u x : ℂ, (p.Kp_GCC : ℂ) * Phasor.uc u + Phasor.uc x = Phasor.uc ((p.Kp_GCC : ℂ) * u + x) := by intro u x; unfold Phasor.uc; ring
  have nb : ∀ z : ℂ, ‖Phasor.ub z‖ = ‖z‖ := by intro z; simp [Phasor.ub, norm_ej]
  have nc : ∀ z : ℂ, ‖Phasor.uc z‖ = ‖z‖ := by intro z; simp [Phasor.uc, norm_ej]
  have ha' : ¬ (‖((((envB p i y).Kp_GCC : ℝ) : ℂ) * (envB p i y).ua) + (envB p i y).xa‖ > (envB p i y).m_limit) := not_lt.mpr hm
  have hb' : ¬ (‖((((envB p i y).Kp_GCC : ℝ) : ℂ) * (envB p i y).ub) + (envB p i y).xb‖ > (envB p i y).m_limit) := by
    apply not_lt.mpr
    show ‖(p.Kp_GCC : ℂ) * Phasor.ub _ + Phasor.ub _‖ ≤ p.m_limit
    rw [hb, nb]; exact hm
  have hc' : ¬ (‖((((envB p i y).Kp_GCC : ℝ) : ℂ) * (envB p i y).uc) + (envB p i y).xc‖ > (envB p i y).m_limit) := by
    apply not_lt.mpr
    show ‖(p.Kp_GCC : ℂ) * Phasor.uc _ + Phasor.uc _‖ ≤ p.m_limit
    rw [hc, nc]; exact hm
  have vtb : ∀ u x : ℂ, vtOf p (Phasor.ub u) (Phasor.ub x) (y .Vdc) = Phasor.ub (vtOf p u x (y .Vdc)) := by
    intro u x; unfold vtOf duty Phasor.ub; ring
  have vtc : ∀ u x : ℂ, vtOf p (Phasor.uc u) (Phasor.uc x) (y .Vdc) = Phasor.uc (vtOf p u x (y .Vdc)) := by
    intro u x; unfold vtOf duty Phasor.uc; ring
  funext r
  cases r <;> first
    | rfl
    | (simp only [ThreePhaseNoVrmsFilter.rhs, ThreePhaseBalanced.rhs, lift, if_neg ha', if_neg hb', if_neg hc']
       simp only [envB, env3, Env.base, vtb, vtc, ub_re, ub_im, uc_re, uc_im]
       ring)

/-- C76: every solution of the balanced model is, phase by phase, a solution of the three-phase model, as long as the duty cycle is within its limit and the grid is
balanced. -/
theorem C76_solution_lifts (p : Par) (inp : ℝ → Inp) (Y : ℝ → ThreePhaseBalanced.V → ℝ) (t : ℝ) (hi : BalancedInp (inp t))
    (h : Solves (fun t y => ThreePhaseBalanced.rhs (envB p (inp t) y)) Y t)
    (hm : ‖duty p ⟨Y t .uaR, Y t .uaI⟩ ⟨Y t .xaR, Y t .xaI⟩‖ ≤ p.m_limit) :
    Solves (fun t y => ThreePhaseNoVrmsFilter.rhs (envN p (inp t) y)) (fun s => lift (Y s)) t := by
  intro r
  have e := congrFun (C76_derivatives p (inp t) hi (Y t) hm) r
  show HasDerivAt (fun s => lift (Y s) r) (ThreePhaseNoVrmsFilter.rhs (envN p (inp t) (lift (Y t))) r) t
  rw [e]
  have key : ∀ (α β : ℝ) (u v : ThreePhaseBalanced.V), HasDerivAt (fun s => α * Y s u + β * Y s v)
      (α * ThreePhaseBalanced.rhs (envB p (inp t) (Y t)) u + β * ThreePhaseBalanced.rhs (envB p (inp t) (Y t)) v) t :=
    fun α β u v => ((h u).const_mul α).add ((h v).const_mul β)
  have kb : ∀ u v : ThreePhaseBalanced.V, HasDerivAt (fun s => (Phasor.ub ⟨Y s u, Y s v⟩).re)
      (Phasor.ub ⟨ThreePhaseBalanced.rhs (envB p (inp t) (Y t)) u, ThreePhaseBalanced.rhs (envB p (inp t) (Y t)) v⟩).re t := by
    intro u v
    have := key (-(1/2)) (Real.sqrt 3 / 2) u v
    refine (this.congr_deriv ?_).congr_of_eventuallyEq (Filter.Eventually.of_forall fun s => ?_)
    · rw [ub_re]
    · simp only [ub_re]
  have kb' : ∀ u v : ThreePhaseBalanced.V, HasDerivAt (fun s => (Phasor.ub ⟨Y s u, Y s v⟩).im)
      (Phasor.ub ⟨ThreePhaseBalanced.rhs (envB p (inp t) (Y t)) u, ThreePhaseBalanced.rhs (envB p (inp t) (Y t)) v⟩).im t := by
    intro u v
    have := key (-(Real.sqrt 3 / 2)) (-(1/2)) u v
    refine (this.congr_deriv ?_).congr_of_eventuallyEq (Filter.Eventually.of_forall fun s => ?_)
    · rw [ub_im]; ring
    · simp only [ub_im]; ring
  have kc : ∀ u v : ThreePhaseBalanced.V, HasDerivAt (fun s => (Phasor.uc ⟨Y s u, Y s v⟩).re)
      (Phasor.uc ⟨ThreePhaseBalanced.rhs (envB p (inp t) (Y t)) u, ThreePhaseBalanced.rhs (envB p (inp t) (Y t)) v⟩).re t := by
    intro u v
    have := key (-(1/2)) (-(Real.sqrt 3 / 2)) u v
    refine (this.congr_deriv ?_).congr_of_eventuallyEq (Filter.Eventually.of_forall fun s => ?_)
    · rw [uc_re]; ring
    · simp only [uc_re]; ring
  have kc' : ∀ u v : ThreePhaseBalanced.V, HasDerivAt (fun s => (Phasor.uc ⟨Y s u, Y s v⟩).im)
      (Phasor.uc ⟨ThreePhaseBalanced.rhs (envB p (inp t) (Y t)) u, ThreePhaseBalanced.rhs (envB p (inp t) (Y t)) v⟩).im t := by
    intro u v
    have := key (Real.sqrt 3 / 2) (-(1/2)) u v
    refine (this.congr_deriv ?_).congr_of_eventuallyEq (Filter.Eventually.of_forall fun s => ?_)
    · rw [uc_im]; ring
    · simp only [uc_im]; ring
  cases r
  case ibR => exact kb _ _
  case xbR => exact kb _ _
  case ubR => exact kb _ _
  case ibI => exact kb' _ _
  case xbI => exact kb' _ _
  case ubI => exact kb' _ _
  case icR => exact kc _ _
  case xcR => exact kc _ _
  case ucR => exact kc _ _
  case icI => exact kc' _ _
  case xcI => exact kc' _ _
  case ucI => exact kc' _ _
  all_goals exact h _

/-- Non-vacuity: balanced nominal voltages and a duty cycle at half of the limit. -/
example : BalancedInp exInp ∧ ‖duty exPar ⟨1/48, 0⟩ ⟨0, 1/4⟩‖ ≤ exPar.m_limit := by
  refine ⟨⟨rfl, rfl⟩, ?_⟩
  have h : ‖duty exPar ⟨1/48, 0⟩ ⟨0, 1/4⟩‖ ≤ |(duty exPar ⟨1/48, 0⟩ ⟨0, 1/4⟩).re| + |(duty exPar ⟨1/48, 0⟩ ⟨0, 1/4⟩).im| := Complex.norm_le_abs_re_add_abs_im _
  refine h.trans ?_
  norm_num [duty, exPar, Complex.add_re, Complex.add_im, Complex.mul_re, Complex.mul_im, abs_of_pos]

/-- Parameters with a saturated duty cycle. -/
noncomputable def satPar : Par := { exPar with Ki_GCC := 1, Kp_GCC := 0, m_limit := 1/2 }

/-- A balanced state with `ua = 1`, `xa = j`. -/
noncomputable def satState : ThreePhaseBalanced.V → ℝ
  | .uaR => 1 | .xaI => 1 | _ => 0

/-- C76: with the duty cycle above its limit the two classes disagree even on balanced states: the anti-windup rule tests real and imaginary parts separately, so it
freezes different components in the rotated phases. -/
theorem C76_saturated_differs (i : Inp) (hi : BalancedInp i) :
    ThreePhaseNoVrmsFilter.rhs (envN satPar i (lift satState)) ≠ lift (ThreePhaseBalanced.rhs (envB satPar i satState)) := by
  intro h
  rw [C76_same_quantities satPar i hi] at h
  have hb := congrFun h .xbI
  have h3 : (0:ℝ) < Real.sqrt 3 := by positivity
  simp only [ThreePhaseNoVrmsFilter.rhs, ThreePhaseBalanced.rhs, lift] at hb
  simp only [envB, env3, Env.base, satPar, satState, ub_im] at hb
  norm_num [Phasor.ub, norm_ej] at hb
  have : |(⟨0, 1⟩ : ℂ).im| ≤ ‖(⟨0, 1⟩ : ℂ)‖ := Complex.abs_im_le_norm _
  norm_num at this
  linarith

end Ode
end PvDer
