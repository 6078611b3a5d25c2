import Verif.Lemmas.OdeEx

/-!
# C58: the single-phase Jacobian
-/

namespace PvDer
namespace Ode
open Grad Complex Phasor

theorem mk_eq (a b : ℝ) : (⟨a, b⟩ : ℂ) = (a : ℂ) + (b : ℂ) * I := by apply Complex.ext <;> simp

namespace SinglePhase

/-- The states at which the derivative vector is differentiable and the formulas apply: positive DC voltage below the cap, producing PV module, no controller
exactly at its limit, and, for a saturated controller, no quantity compared by its anti-windup switch equal to zero. -/
structure Regular (p : Par) (i : Inp) (y : V → ℝ) : Prop where
  base : 0 < p.Vdcbase
  dc : 0 < y .Vdc
  cap : y .Vdc * p.Vdcbase < p.Vdcmpp_max
  pv : 0 < PV.ipv p.mod i.Sinsol i.Tactual (y .Vdc * p.Vdcbase)
  m : ‖(p.Kp_GCC : ℂ) * ⟨y .uaR, y .uaI⟩ + ⟨y .xaR, y .xaI⟩‖ ≠ p.m_limit
  mSat : ‖(p.Kp_GCC : ℂ) * ⟨y .uaR, y .uaI⟩ + ⟨y .xaR, y .xaI⟩‖ > p.m_limit →
    (p.Ki_GCC * y .uaR ≠ 0 ∧ y .xaR ≠ 0) ∧ (p.Ki_GCC * y .uaI ≠ 0 ∧ y .xaI ≠ 0) ∧
    (p.wp * (-y .uaR + (env1 p i y).ia_ref.re - y .iaR) ≠ 0 ∧ y .uaR ≠ 0) ∧ (p.wp * (-y .uaI + (env1 p i y).ia_ref.im - y .iaI) ≠ 0 ∧ y .uaI ≠ 0)
  r : ‖(env1 p i y).ia_ref‖ ≠ p.iref_limit
  rSat : ‖(env1 p i y).ia_ref‖ > p.iref_limit →
    (p.Ki_DC * (i.Vdc_ref - y .Vdc) ≠ 0 ∧ y .xDC ≠ 0) ∧ (-p.Ki_Q * (i.Q_ref - (env1 p i y).S_PCC.im) ≠ 0 ∧ y .xQ ≠ 0)

/-- Gradient of every component of the derivative vector. -/
theorem row_grad (p : Par) (i : Inp) (y : V → ℝ) (h : Regular p i y) (r : V) (hr : r ≠ .iaI) :
    HasGrad (fun z => rhs (env1 p i z) r) (jac lit1 lit2 (env1 p i y) (fun _ _ => 0) r) y := by
  obtain ⟨hb, hV, hcap, hI, hm, hmS, hr', hrS⟩ := h
  simp only [env1, Env.base, iref_re, iref_im, sPh_im] at hmS
  simp only [env1, Env.base, irefOf, sPh_im] at hr' hrS
  have hvd := vd1_grad i.va i.w i.t V.wte y
  have hppv := ppv_grad p i V.Vdc y hV hb hcap hI
  cases r
  case iaI => exact absurd rfl hr
  case iaR =>
    simp only [rhs, env1, Env.base, vt_re, weCalc]
    apply HasGrad.congr
    · grad
    · intro j
      cases j <;> simp only [jac, jac_iaR, dvd1, reduceCtorEq, if_false, if_true] <;> ring
  case xaR =>
    simp only [rhs, env1, Env.base, jac]
    apply HasGrad.congr
    · apply HasGrad.aw
      · grad
      · simp only [mk_eq]; fun_prop
      · exact (HasGrad.proj _ _).cont
      · exact hm
      · exact fun h => (hmS h).1
    · intro j
      cases j <;> simp only [jac_xaR, reduceCtorEq, if_false, if_true] <;> split_ifs <;> ring
  case xaI =>
    simp only [rhs, env1, Env.base, jac]
    apply HasGrad.congr
    · apply HasGrad.aw
      · grad
      · simp only [mk_eq]; fun_prop
      · exact (HasGrad.proj _ _).cont
      · exact hm
      · exact fun h => (hmS h).2.1
    · intro j
      cases j <;> simp only [jac_xaI, reduceCtorEq, if_false, if_true] <;> split_ifs <;> ring
  case uaR =>
    simp only [rhs, env1, Env.base, jac, iref_re]
    apply HasGrad.congr
    · apply HasGrad.aw
      · grad
      · simp only [mk_eq]; fun_prop
      · exact (HasGrad.proj _ _).cont
      · exact hm
      · exact fun h => (hmS h).2.2.1
    · intro j
      cases j <;> simp only [jac_uaR, reduceCtorEq, if_false, if_true, iref_re] <;> split_ifs <;> ring
  case uaI =>
    simp only [rhs, env1, Env.base, jac, iref_im, sPh_im]
    apply HasGrad.congr
    · apply HasGrad.aw
      · grad
      · simp only [mk_eq]; fun_prop
      · exact (HasGrad.proj _ _).cont
      · exact hm
      · exact fun h => (hmS h).2.2.2
    · intro j
      cases j <;> simp only [jac_uaI, reduceCtorEq, if_false, if_true, iref_im, sPh_im] <;> split_ifs <;> ring
  case Vdc =>
    have hV0 : ∀ᶠ z : V → ℝ in nhds y, 0 < z .Vdc := (HasGrad.proj V.Vdc y).cont.eventually (lt_mem_nhds hV)
    refine HasGrad.congr_ev (f := fun z => ppvOf p i (z .Vdc) / (z .Vdc * p.C) - (1 / 4) * (((p.Kp_GCC * z .uaR + z .xaR) * z .iaR
      + (p.Kp_GCC * z .uaI + z .xaI) * z .iaI) / p.C)) ?_ ?_
    · apply HasGrad.congr
      · grad
      · intro j
        cases j <;> simp only [jac, jac_Vdc, env1, Env.base, reduceCtorEq, if_false, if_true] <;> ring
    · filter_upwards [hV0] with z hz
      have h1 : z .Vdc * (z .Vdc)⁻¹ = 1 := mul_inv_cancel₀ hz.ne'
      simp only [rhs, env1, Env.base, sPh_re, vt_re, vt_im, div_eq_mul_inv, mul_inv]
      linear_combination (-(1 / 4) * (((p.Kp_GCC * z .uaR + z .xaR) * z .iaR + (p.Kp_GCC * z .uaI + z .xaI) * z .iaI) * p.C⁻¹)) * h1
  case xDC =>
    simp only [rhs, env1, Env.base, jac, sPh_im]
    apply HasGrad.congr
    · apply HasGrad.aw
      · grad
      · fun_prop
      · exact (HasGrad.proj _ _).cont
      · exact hr'
      · exact fun h => (hrS h).1
    · intro j
      cases j <;> simp only [jac_xDC, reduceCtorEq, if_false, if_true, sPh_im] <;> split_ifs <;> ring
  case xQ =>
    simp only [rhs, env1, Env.base, jac, sPh_im]
    apply HasGrad.congr
    · apply HasGrad.aw
      · grad
      · fun_prop
      · exact (HasGrad.proj _ _).cont
      · exact hr'
      · exact fun h => (hrS h).2
    · intro j
      cases j <;> simp only [jac_xQ, reduceCtorEq, if_false, if_true, sPh_im] <;> split_ifs <;> ring
  case xPLL =>
    simp only [rhs, env1, Env.base, weCalc, jac]
    apply HasGrad.congr
    · grad
    · intro j
      cases j <;> simp only [jac_xPLL, dvd1, reduceCtorEq, if_false, if_true] <;> ring
  case wte =>
    simp only [rhs, env1, Env.base, weCalc, jac]
    apply HasGrad.congr
    · grad
    · intro j
      cases j <;> simp only [jac_wte, dvd1, reduceCtorEq, if_false, if_true] <;> ring

/-- The remaining row, with the sign of its last entry changed. -/
theorem row_grad_iaI (p : Par) (i : Inp) (y : V → ℝ) :
    HasGrad (fun z => rhs (env1 p i z) .iaI)
      (fun c => if c = .wte then -jac lit1 lit2 (env1 p i y) (fun _ _ => 0) .iaI .wte else jac lit1 lit2 (env1 p i y) (fun _ _ => 0) .iaI c) y := by
  have hvd := vd1_grad i.va i.w i.t V.wte y
  simp only [rhs, env1, Env.base, vt_im, weCalc, jac]
  apply HasGrad.congr
  · grad
  · intro j
    cases j <;> simp only [jac_iaI, dvd1, reduceCtorEq, if_false, if_true] <;> ring

/-- C58.  At every regular state each entry of the matrix returned by the Jacobian method (started from the zero matrix) is the partial derivative of the
corresponding component of the derivative method, except possibly the entry (iaI, wte).
Missing: that entry, which has the wrong sign (`C58_wrong_sign`). -/
theorem C58_single_phase_jacobian_partial (p : Par) (i : Inp) (y : V → ℝ) (h : Regular p i y) (r c : V) (hrc : ¬(r = .iaI ∧ c = .wte)) :
    HasDerivAt (fun s => rhs (env1 p i (Function.update y c s)) r) (jac lit1 lit2 (env1 p i y) (fun _ _ => 0) r c) (y c) := by
  by_cases hr : r = .iaI
  · subst hr
    have hc : c ≠ .wte := fun e => hrc ⟨rfl, e⟩
    have := (row_grad_iaI p i y).partial c
    rw [if_neg hc] at this; exact this
  · exact (row_grad p i y h r hr).partial c

/-- The derivative vector is totally differentiable at regular states, not only along the axes. -/
theorem C58_total_derivative (p : Par) (i : Inp) (y : V → ℝ) (h : Regular p i y) (r : V) :
    ∃ L : (V → ℝ) →L[ℝ] ℝ, HasFDerivAt (fun z => rhs (env1 p i z) r) L y ∧
      ∀ v, L v = ∑ c, (if r = .iaI ∧ c = .wte then -jac lit1 lit2 (env1 p i y) (fun _ _ => 0) r c else jac lit1 lit2 (env1 p i y) (fun _ _ => 0) r c) * v c := by
  by_cases hr : r = .iaI
  · subst hr
    refine ⟨_, row_grad_iaI p i y, fun v => ?_⟩
    rw [lin_apply]
    refine Finset.sum_congr rfl (fun c _ => ?_)
    by_cases hc : c = .wte
    · subst hc; simp
    · simp [hc]
  · refine ⟨_, row_grad p i y h r hr, fun v => ?_⟩
    rw [lin_apply]; simp [hr]

/-- The entry (iaI, wte) is the negative of the partial derivative, at every state. -/
theorem C58_wrong_sign (p : Par) (i : Inp) (y : V → ℝ) :
    HasDerivAt (fun s => rhs (env1 p i (Function.update y .wte s)) .iaI) (-jac lit1 lit2 (env1 p i y) (fun _ _ => 0) .iaI .wte) (y .wte) := by
  have := (row_grad_iaI p i y).partial .wte
  rwa [if_pos rfl] at this

/-- It is therefore wrong whenever the voltage, the current component, the gain and the phase-lock slope are not zero. -/
theorem C58_wrong_entry (p : Par) (i : Inp) (y : V → ℝ) (hw : p.wbase ≠ 0) (hK : p.Kp_PLL ≠ 0) (hi : y .iaR ≠ 0) (hv : i.va ≠ 0)
    (hc : Real.cos (i.w * i.t + arg i.va - y .wte) ≠ 0) :
    ¬ HasDerivAt (fun s => rhs (env1 p i (Function.update y .wte s)) .iaI) (jac lit1 lit2 (env1 p i y) (fun _ _ => 0) .iaI .wte) (y .wte) := by
  intro H
  have e := H.unique (C58_wrong_sign p i y)
  have h0 : jac lit1 lit2 (env1 p i y) (fun _ _ => 0) .iaI .wte = 0 := by linarith
  have h1 : jac lit1 lit2 (env1 p i y) (fun _ _ => 0) .iaI .wte = p.Kp_PLL * y .iaR * ‖i.va‖ / p.wbase * -Real.cos (i.w * i.t + arg i.va - y .wte) := by
    rw [← cos_code]; rfl
  rw [h1] at h0
  have hn : ‖i.va‖ ≠ 0 := norm_ne_zero_iff.2 hv
  simp only [mul_eq_zero, div_eq_zero_iff, neg_eq_zero] at h0
  tauto

/-- The matrix does not depend on earlier calls: the entries that a call leaves alone are the same ones every time, so after any number of calls on any
attributes, starting from the zero matrix, the result is that of a first call. -/
theorem C58_history_independent (s1 s2 : ℝ) (es : List Env) (e : Env) :
    jac s1 s2 e (es.foldl (fun J e' => jac s1 s2 e' J) (fun _ _ => 0)) = jac s1 s2 e (fun _ _ => 0) := by
  have key : ∀ (e : Env) (J : V → V → ℝ), (∀ e', jac s1 s2 e' J = jac s1 s2 e' (fun _ _ => 0)) → ∀ e', jac s1 s2 e' (jac s1 s2 e J) = jac s1 s2 e' (fun _ _ => 0) := by
    intro e J hJ e'
    rw [hJ e]
    funext r c
    cases r <;> cases c <;> rfl
  have main : ∀ (es : List Env) (J : V → V → ℝ), (∀ e', jac s1 s2 e' J = jac s1 s2 e' (fun _ _ => 0)) →
      jac s1 s2 e (es.foldl (fun J e' => jac s1 s2 e' J) J) = jac s1 s2 e (fun _ _ => 0) := by
    intro es
    induction es with
    | nil => intro J hJ; exact hJ e
    | cons a l ih => intro J hJ; exact ih _ (key a J hJ)
  exact main es _ (fun _ => rfl)

/-- A state in normal operation. -/
noncomputable def exState : V → ℝ
  | .iaR => 4/5 | .iaI => 1/10 | .xaR => 9/10 | .xaI => 1/10 | .uaR => 0 | .uaI => 0 | .Vdc => 11/10 | .xDC => 4/5 | .xQ => 0 | .xPLL => 0 | .wte => 1/10

/-- A state with a saturated modulation and a saturated current reference. -/
noncomputable def exSat : V → ℝ
  | .iaR => 4/5 | .iaI => 1/10 | .xaR => 9/10 | .xaI => 1/10 | .uaR => 1/2 | .uaI => 1/2 | .Vdc => 1 | .xDC => 3 | .xQ => 1 | .xPLL => 0 | .wte => 1/10

/-- The regular states include unsaturated ones … -/
theorem exState_regular : Regular exPar exInp exState := by
  have hm : ‖(exPar.Kp_GCC : ℂ) * ⟨exState .uaR, exState .uaI⟩ + ⟨exState .xaR, exState .xaI⟩‖ ^ 2 = 82 / 100 := by
    rw [← normSq_eq_norm_sq, normSq_apply]; norm_num [exState, exPar]
  have hr : ‖(env1 exPar exInp exState).ia_ref‖ ^ 2 = (4/5) ^ 2 + (1 / 200) ^ 2 := by
    rw [← normSq_eq_norm_sq, normSq_apply]; simp only [env1, iref_re, iref_im, sPh_im]; norm_num [exState, exPar, exInp]
  constructor
  · norm_num [exPar]
  · norm_num [exState]
  · norm_num [exState, exPar]
  · exact exMod_pv
  · intro h; rw [h] at hm; norm_num [exPar] at hm
  · intro h; exfalso; have : exPar.m_limit = 1 := rfl
    rw [this] at h; nlinarith [h]
  · intro h; rw [h] at hr; norm_num [exPar] at hr
  · intro h; exfalso; have : exPar.iref_limit = 3/2 := rfl
    rw [this] at h; nlinarith [h]

/-- … and saturated ones. -/
theorem exSat_regular : Regular exPar exInp exSat ∧ ‖(exPar.Kp_GCC : ℂ) * ⟨exSat .uaR, exSat .uaI⟩ + ⟨exSat .xaR, exSat .xaI⟩‖ > exPar.m_limit ∧
    ‖(env1 exPar exInp exSat).ia_ref‖ > exPar.iref_limit := by
  have hm : ‖(exPar.Kp_GCC : ℂ) * ⟨exSat .uaR, exSat .uaI⟩ + ⟨exSat .xaR, exSat .xaI⟩‖ > exPar.m_limit := by
    refine lt_of_lt_of_le ?_ (abs_re_le_norm _)
    norm_num [exSat, exPar, abs_of_pos]
  have hr : ‖(env1 exPar exInp exSat).ia_ref‖ > exPar.iref_limit := by
    refine lt_of_lt_of_le ?_ (abs_re_le_norm _)
    simp only [env1, iref_re]
    norm_num [exSat, exPar, exInp, abs_of_pos]
  refine ⟨?_, hm, hr⟩
  constructor
  · norm_num [exPar]
  · norm_num [exSat]
  · norm_num [exSat, exPar]
  · have h := exMod_pv
    have hle : PV.ipv PV.exMod 100 (29815/100) (11/10 * 500) ≤ PV.ipv PV.exMod 100 (29815/100) (1 * 500) := by
      unfold PV.ipv
      have : Real.exp (PV.exMod.q * (1 * 500) / (PV.exMod.k * (29815/100) * PV.exMod.A * PV.exMod.Ns)) ≤
          Real.exp (PV.exMod.q * (11/10 * 500) / (PV.exMod.k * (29815/100) * PV.exMod.A * PV.exMod.Ns)) := by
        apply Real.exp_le_exp.2; norm_num [PV.exMod]
      have h0 : (0:ℝ) ≤ PV.exMod.Np * PV.exMod.Irs := by norm_num [PV.exMod]
      nlinarith
    exact lt_of_lt_of_le h hle
  · exact hm.ne'
  · intro _
    simp only [env1, iref_re, iref_im, sPh_im]
    norm_num [exSat, exPar, exInp]
  · exact hr.ne'
  · intro _
    simp only [env1, sPh_im]
    norm_num [exSat, exPar, exInp]

/-- The wrong entry is wrong at the concrete state. -/
example : ¬ HasDerivAt (fun s => rhs (env1 exPar exInp (Function.update exState .wte s)) .iaI)
    (jac lit1 lit2 (env1 exPar exInp exState) (fun _ _ => 0) .iaI .wte) (exState .wte) := by
  apply C58_wrong_entry
  · norm_num [exPar]
  · norm_num [exPar]
  · norm_num [exState]
  · norm_num [exInp]
  · have : arg exInp.va = 0 := by
      have : exInp.va = ((1/2 : ℝ) : ℂ) := by norm_num [exInp]
      rw [this]; exact arg_ofReal_of_nonneg (by norm_num)
    rw [this]
    have : Real.cos (exInp.w * exInp.t + 0 - exState .wte) > 0 := by
      apply Real.cos_pos_of_mem_Ioo
      have := Real.two_le_pi
      constructor <;> norm_num [exInp, exState] <;> linarith
    exact this.ne'

end SinglePhase
end Ode
end PvDer
