import Verif.Props.JacThree

/-!
# C59: the three-phase Jacobian, main statements
-/

namespace PvDer
namespace Ode
open Grad Complex Phasor

set_option maxHeartbeats 4000000

theorem sqrt3_bounds : 17320508075 / 10000000000 < Real.sqrt 3 ∧ Real.sqrt 3 < 17320508076 / 10000000000 := by
  constructor
  · exact Real.lt_sqrt_of_sq_lt (by norm_num)
  · rw [Real.sqrt_lt' (by norm_num)]; norm_num

theorem lit1_close : |lit1 - Real.sqrt 3 / 2| ≤ 1 / 10 ^ 9 := by
  obtain ⟨h1, h2⟩ := sqrt3_bounds
  unfold lit1; rw [abs_le]; constructor <;> norm_num <;> linarith

theorem lit2_close : |lit2 - Real.sqrt 3 / 2| ≤ 1 / 10 ^ 10 := by
  obtain ⟨h1, h2⟩ := sqrt3_bounds
  unfold lit2; rw [abs_le]; constructor <;> norm_num <;> linarith

namespace ThreePhase

/-- The constants for `√3/2` enter every entry affinely. -/
theorem jac_affine (s1 s2 : ℝ) (e : Env) (J : V → V → ℝ) (r c : V) :
    jac s1 s2 e J r c = jac 0 0 e J r c + s1 * (jac 1 0 e J r c - jac 0 0 e J r c) + s2 * (jac 0 1 e J r c - jac 0 0 e J r c) := by
  cases r <;> cases c <;>
    simp only [jac, jac_iaR, jac_iaI, jac_xaR, jac_xaI, jac_uaR, jac_uaI, jac_ibR, jac_ibI, jac_xbR, jac_xbI, jac_ubR, jac_ubI, jac_icR, jac_icI, jac_xcR,
      jac_xcI, jac_ucR, jac_ucI, jac_Vdc, jac_xDC, jac_xQ, jac_xPLL, jac_wte, jac_Vrms] <;> first | ring1 | (split_ifs <;> ring1)

theorem jac_close (e : Env) (J : V → V → ℝ) (r c : V) :
    |jac lit1 lit2 e J r c - jac (Real.sqrt 3 / 2) (Real.sqrt 3 / 2) e J r c| ≤
      1 / 10 ^ 9 * (|jac 1 0 e J r c - jac 0 0 e J r c| + |jac 0 1 e J r c - jac 0 0 e J r c|) := by
  rw [jac_affine lit1, jac_affine (Real.sqrt 3 / 2)]
  have e1 : ∀ a b c s t s' t' : ℝ, a + s * b + t * c - (a + s' * b + t' * c) = (s - s') * b + (t - t') * c := by intros; ring
  rw [e1]
  refine (abs_add_le _ _).trans ?_
  rw [abs_mul, abs_mul, mul_add]
  refine add_le_add (mul_le_mul_of_nonneg_right lit1_close (abs_nonneg _)) (mul_le_mul_of_nonneg_right (lit2_close.trans (by norm_num)) (abs_nonneg _))

/-- The filtered-RMS component depends on its own state only. -/
theorem row_grad_Vrms (p : Par) (i : Inp) (y : V → ℝ) :
    HasGrad (fun z => rhs (envT p i z) .Vrms) (fun c => if c = .Vrms then -(1 / p.Tfilter_Vrms) else 0) y := by
  simp only [rhs, envT, env3, Env.base]
  apply HasGrad.congr
  · grad
  · intro j
    cases j <;> simp only [reduceCtorEq, if_false, if_true] <;> ring

/-- C59.  At every regular state each entry of the matrix returned by the Jacobian method (started from the zero matrix) agrees with the partial derivative `d` of
the corresponding component of the derivative method, up to the decimal truncation of `√3/2`: the difference is at most `10⁻⁹` times the coefficients with which
the two truncated constants enter the entry.  Missing: the entry of the RMS filter on the diagonal, which is left zero (`C59_filter_entry_missing`). -/
theorem C59_three_phase_jacobian_partial (p : Par) (i : Inp) (y : V → ℝ) (h : Regular p i y) (r c : V) (hrc : ¬(r = .Vrms ∧ c = .Vrms)) :
    ∃ d, HasDerivAt (fun s => rhs (envT p i (Function.update y c s)) r) d (y c) ∧
      |jac lit1 lit2 (envT p i y) (fun _ _ => 0) r c - d| ≤
        1 / 10 ^ 9 * (|jac 1 0 (envT p i y) (fun _ _ => 0) r c - jac 0 0 (envT p i y) (fun _ _ => 0) r c|
          + |jac 0 1 (envT p i y) (fun _ _ => 0) r c - jac 0 0 (envT p i y) (fun _ _ => 0) r c|) := by
  by_cases hr : r = .Vrms
  · subst hr
    have hc : c ≠ .Vrms := fun e => hrc ⟨rfl, e⟩
    have := (row_grad_Vrms p i y).partial c
    rw [if_neg hc] at this
    refine ⟨0, this, ?_⟩
    have e : jac lit1 lit2 (envT p i y) (fun _ _ => 0) .Vrms c - 0 = 0 := by simp [jac, jac_Vrms]
    rw [e, abs_zero]; positivity
  · exact ⟨_, (row_grad p i y h r hr).partial c, jac_close _ _ r c⟩

/-- With the exact constant in place of its two truncations the entries are the partial derivatives. -/
theorem C59_exact_constant (p : Par) (i : Inp) (y : V → ℝ) (h : Regular p i y) (r c : V) (hrc : ¬(r = .Vrms ∧ c = .Vrms)) :
    HasDerivAt (fun s => rhs (envT p i (Function.update y c s)) r) (jac (Real.sqrt 3 / 2) (Real.sqrt 3 / 2) (envT p i y) (fun _ _ => 0) r c) (y c) := by
  by_cases hr : r = .Vrms
  · subst hr
    have hc : c ≠ .Vrms := fun e => hrc ⟨rfl, e⟩
    have := (row_grad_Vrms p i y).partial c
    rw [if_neg hc] at this
    exact this
  · exact (row_grad p i y h r hr).partial c

/-- Entries in which the constants do not occur are exact as the code has them; this covers in particular all rows of phase a currents and controllers other than
the PLL column, the DC link row and the two outer control loops. -/
theorem C59_exact_rows (p : Par) (i : Inp) (y : V → ℝ) (h : Regular p i y) (r c : V) (hc : c ≠ .wte)
    (hr : r ∈ [V.iaR, .iaI, .xaR, .xaI, .uaR, .uaI, .ibR, .ibI, .xbR, .xbI, .icR, .icI, .xcR, .xcI, .Vdc, .xDC, .xQ, .xPLL, .wte]) :
    HasDerivAt (fun s => rhs (envT p i (Function.update y c s)) r) (jac lit1 lit2 (envT p i y) (fun _ _ => 0) r c) (y c) := by
  have e : jac lit1 lit2 (envT p i y) (fun _ _ => 0) r c = jac (Real.sqrt 3 / 2) (Real.sqrt 3 / 2) (envT p i y) (fun _ _ => 0) r c := by
    cases r <;> first | (exfalso; revert hr; decide) | (cases c <;> first | exact absurd rfl hc | rfl)
  rw [e]
  refine (row_grad p i y h r ?_).partial c
  rintro rfl; revert hr; decide

/-- The missing entry: the partial derivative is `-1/T`, the matrix has `0`. -/
theorem C59_filter_entry_missing (p : Par) (i : Inp) (y : V → ℝ) (hT : p.Tfilter_Vrms ≠ 0) :
    HasDerivAt (fun s => rhs (envT p i (Function.update y .Vrms s)) .Vrms) (-(1 / p.Tfilter_Vrms)) (y .Vrms) ∧
    jac lit1 lit2 (envT p i y) (fun _ _ => 0) .Vrms .Vrms = 0 ∧
    ¬ HasDerivAt (fun s => rhs (envT p i (Function.update y .Vrms s)) .Vrms) (jac lit1 lit2 (envT p i y) (fun _ _ => 0) .Vrms .Vrms) (y .Vrms) := by
  have h := (row_grad_Vrms p i y).partial .Vrms
  rw [if_pos rfl] at h
  refine ⟨h, rfl, fun H => ?_⟩
  have e := H.unique h
  have h0 : jac lit1 lit2 (envT p i y) (fun _ _ => 0) .Vrms .Vrms = 0 := rfl
  rw [h0] at e
  have : 1 / p.Tfilter_Vrms ≠ 0 := one_div_ne_zero hT
  apply this; linarith

/-- No dependence on earlier calls (see the single-phase version). -/
theorem C59_history_independent (s1 s2 : ℝ) (es : List Env) (e : Env) :
    jac s1 s2 e (es.foldl (fun J e' => jac s1 s2 e' J) (fun _ _ => 0)) = jac s1 s2 e (fun _ _ => 0) := by
  have key : ∀ (e : Env) (J : V → V → ℝ), (∀ e', jac s1 s2 e' J = jac s1 s2 e' (fun _ _ => 0)) → ∀ e', jac s1 s2 e' (jac s1 s2 e J) = jac s1 s2 e' (fun _ _ => 0) := by
    intro e J hJ e'
    rw [hJ e]
    funext r c
    cases r <;> cases c <;> rfl
  have main : ∀ (es : List Env) (J : V → V → ℝ), (∀ e', jac s1 s2 e' J = jac s1 s2 e' (fun _ _ => 0)) →
      jac s1 s2 e (es.foldl (fun J e' => jac s1 s2 e' J) J) = jac s1 s2 e (fun _ _ => 0) := by
    intro es
    induction es with
    | nil => intro J hJ; exact hJ e
    | cons a l ih => intro J hJ; exact ih _ (key a J hJ)
  exact main es _ (fun _ => rfl)

/-- A state in normal operation, phase b and c currents and controllers zero. -/
noncomputable def exState : V → ℝ
  | .iaR => 4/5 | .iaI => 1/10 | .xaR => 9/10 | .xaI => 1/10 | .Vdc => 11/10 | .xDC => 4/5 | .wte => 1/10 | .Vrms => 1/3 | _ => 0

/-- The hypotheses can be met. -/
theorem exState_regular : Regular exPar exInp exState := by
  have hma : ‖(exPar.Kp_GCC : ℂ) * (envT exPar exInp exState).ua + (envT exPar exInp exState).xa‖ ^ 2 = 82 / 100 := by
    rw [← normSq_eq_norm_sq, normSq_apply]; norm_num [envT, env3, exState, exPar]
  have hmb : ‖(exPar.Kp_GCC : ℂ) * (envT exPar exInp exState).ub + (envT exPar exInp exState).xb‖ ^ 2 = 0 := by
    rw [← normSq_eq_norm_sq, normSq_apply]; norm_num [envT, env3, exState, exPar]
  have hmc : ‖(exPar.Kp_GCC : ℂ) * (envT exPar exInp exState).uc + (envT exPar exInp exState).xc‖ ^ 2 = 0 := by
    rw [← normSq_eq_norm_sq, normSq_apply]; norm_num [envT, env3, exState, exPar]
  have hr : ‖(envT exPar exInp exState).ia_ref‖ ^ 2 = (4/5) ^ 2 + (1 / 200) ^ 2 := by
    rw [← normSq_eq_norm_sq, normSq_apply]; simp only [envT, env3, iref_re, iref_im, sCalc_im]; norm_num [exState, exPar, exInp]
  have hL : exPar.m_limit = 1 := rfl
  have hL2 : exPar.iref_limit = 3/2 := rfl
  have aux : ∀ n : ℝ, n ^ 2 < 1 → n ≠ 1 ∧ ¬ n > 1 := by
    intro n hn
    constructor
    · rintro rfl; norm_num at hn
    · intro h; nlinarith
  constructor
  · norm_num [exPar]
  · norm_num [exState]
  · norm_num [exState, exPar]
  · exact exMod_pv
  · obtain ⟨h1, h2⟩ := aux _ (by rw [hma]; norm_num); exact ⟨by rw [hL]; exact h1, fun h => absurd (hL ▸ h) h2⟩
  · obtain ⟨h1, h2⟩ := aux _ (by rw [hmb]; norm_num); exact ⟨by rw [hL]; exact h1, fun h => absurd (hL ▸ h) h2⟩
  · obtain ⟨h1, h2⟩ := aux _ (by rw [hmc]; norm_num); exact ⟨by rw [hL]; exact h1, fun h => absurd (hL ▸ h) h2⟩
  · intro h; rw [h] at hr; norm_num [exPar] at hr
  · intro h; exfalso; rw [hL2] at h; nlinarith [h]

end ThreePhase

/-! ### The classes without RMS filter -/

namespace ThreePhaseNoVrmsFilter

/-- The states of this class among those of the three-phase class. -/
def emb : V → ThreePhase.V
  | .iaR => .iaR
  | .iaI => .iaI
  | .xaR => .xaR
  | .xaI => .xaI
  | .uaR => .uaR
  | .uaI => .uaI
  | .ibR => .ibR
  | .ibI => .ibI
  | .xbR => .xbR
  | .xbI => .xbI
  | .ubR => .ubR
  | .ubI => .ubI
  | .icR => .icR
  | .icI => .icI
  | .xcR => .xcR
  | .xcI => .xcI
  | .ucR => .ucR
  | .ucI => .ucI
  | .Vdc => .Vdc
  | .xDC => .xDC
  | .xQ => .xQ
  | .xPLL => .xPLL
  | .wte => .wte

/-- A state vector of this class as one of the three-phase class (filtered voltage zero). -/
def lift (y : V → ℝ) : ThreePhase.V → ℝ
  | .iaR => y .iaR
  | .iaI => y .iaI
  | .xaR => y .xaR
  | .xaI => y .xaI
  | .uaR => y .uaR
  | .uaI => y .uaI
  | .ibR => y .ibR
  | .ibI => y .ibI
  | .xbR => y .xbR
  | .xbI => y .xbI
  | .ubR => y .ubR
  | .ubI => y .ubI
  | .icR => y .icR
  | .icI => y .icI
  | .xcR => y .xcR
  | .xcI => y .xcI
  | .ucR => y .ucR
  | .ucI => y .ucI
  | .Vdc => y .Vdc
  | .xDC => y .xDC
  | .xQ => y .xQ
  | .xPLL => y .xPLL
  | .wte => y .wte
  | .Vrms => 0

theorem lift_update (y : V → ℝ) (c : V) (s : ℝ) : lift (Function.update y c s) = Function.update (lift y) (emb c) s := by
  funext k
  cases k <;> cases c <;> rfl

theorem lift_emb (y : V → ℝ) (c : V) : lift y (emb c) = y c := by cases c <;> rfl

theorem rhs_eq (e : Env) (r : V) : rhs e r = ThreePhase.rhs e (emb r) := by cases r <;> rfl

theorem jac_eq (s1 s2 : ℝ) (e : Env) (r c : V) : jac s1 s2 e (fun _ _ => 0) r c = ThreePhase.jac s1 s2 e (fun _ _ => 0) (emb r) (emb c) := by
  cases r <;> cases c <;> rfl

theorem env_eq (p : Par) (i : Inp) (y : V → ℝ) : envN p i y = envT p i (lift y) := rfl

theorem emb_ne (r : V) : emb r ≠ .Vrms := by cases r <;> decide

/-- C59 for the class without RMS filter: every entry, no exception. -/
theorem C59_no_filter_jacobian (p : Par) (i : Inp) (y : V → ℝ) (h : ThreePhase.Regular p i (lift y)) (r c : V) :
    ∃ d, HasDerivAt (fun s => rhs (envN p i (Function.update y c s)) r) d (y c) ∧
      |jac lit1 lit2 (envN p i y) (fun _ _ => 0) r c - d| ≤
        1 / 10 ^ 9 * (|jac 1 0 (envN p i y) (fun _ _ => 0) r c - jac 0 0 (envN p i y) (fun _ _ => 0) r c|
          + |jac 0 1 (envN p i y) (fun _ _ => 0) r c - jac 0 0 (envN p i y) (fun _ _ => 0) r c|) := by
  obtain ⟨d, hd, hb⟩ := ThreePhase.C59_three_phase_jacobian_partial p i (lift y) h (emb r) (emb c) (fun hh => emb_ne r hh.1)
  refine ⟨d, ?_, ?_⟩
  · rw [lift_emb] at hd
    have e : (fun s => rhs (envN p i (Function.update y c s)) r) = fun s => ThreePhase.rhs (envT p i (Function.update (lift y) (emb c) s)) (emb r) := by
      funext s; rw [rhs_eq, env_eq, lift_update]
    rw [e]; exact hd
  · simp only [jac_eq, env_eq]; exact hb

end ThreePhaseNoVrmsFilter

namespace ThreePhaseNumba

/-- The states of the two classes have the same names. -/
def emb : V → ThreePhaseNoVrmsFilter.V
  | .iaR => .iaR
  | .iaI => .iaI
  | .xaR => .xaR
  | .xaI => .xaI
  | .uaR => .uaR
  | .uaI => .uaI
  | .ibR => .ibR
  | .ibI => .ibI
  | .xbR => .xbR
  | .xbI => .xbI
  | .ubR => .ubR
  | .ubI => .ubI
  | .icR => .icR
  | .icI => .icI
  | .xcR => .xcR
  | .xcI => .xcI
  | .ucR => .ucR
  | .ucI => .ucI
  | .Vdc => .Vdc
  | .xDC => .xDC
  | .xQ => .xQ
  | .xPLL => .xPLL
  | .wte => .wte

/-- C75: the compiled (numba) class computes the same derivative vector as the class without RMS filter, for every state, parameter set and input, … -/
theorem C75_numba_same_derivatives (p : Par) (i : Inp) (y : ThreePhaseNoVrmsFilter.V → ℝ) (r : V) :
    rhs (envNumba p i (fun v => y (emb v))) r = ThreePhaseNoVrmsFilter.rhs (envN p i y) (emb r) := by cases r <;> rfl

/-- … also while disconnected, … -/
theorem C75_numba_same_derivatives_disconnected (p : Par) (i : Inp) (y : ThreePhaseNoVrmsFilter.V → ℝ) (r : V) :
    rhs (disc (envNumba p i (fun v => y (emb v)))) r = ThreePhaseNoVrmsFilter.rhs (disc (envN p i y)) (emb r) := by cases r <;> rfl

/-- … the same Jacobian, whatever matrix the previous calls left, … -/
theorem C75_numba_same_jacobian (s1 s2 : ℝ) (p : Par) (i : Inp) (y : ThreePhaseNoVrmsFilter.V → ℝ) (J : ThreePhaseNoVrmsFilter.V → ThreePhaseNoVrmsFilter.V → ℝ)
    (r c : V) : jac s1 s2 (envNumba p i (fun v => y (emb v))) (fun r c => J (emb r) (emb c)) r c = ThreePhaseNoVrmsFilter.jac s1 s2 (envN p i y) J (emb r) (emb c) := by
  cases r <;> cases c <;> rfl

/-- … and lists its states in the same order. -/
theorem C75_numba_same_layout : varInd.map emb = ThreePhaseNoVrmsFilter.varInd ∧ Function.Injective emb := by
  refine ⟨rfl, ?_⟩
  intro a b h
  cases a <;> cases b <;> first | rfl | cases h

/-- Both classes agree with the three-phase class on its first 23 components. -/
theorem C75_same_as_three_phase (p : Par) (i : Inp) (y : ThreePhaseNoVrmsFilter.V → ℝ) (f : ℝ) (r : ThreePhaseNoVrmsFilter.V) :
    ThreePhaseNoVrmsFilter.rhs (envN p i y) r =
      ThreePhase.rhs (envT p i (Function.update (ThreePhaseNoVrmsFilter.lift y) .Vrms f)) (ThreePhaseNoVrmsFilter.emb r) := by
  cases r <;> rfl

end ThreePhaseNumba
end Ode
end PvDer
