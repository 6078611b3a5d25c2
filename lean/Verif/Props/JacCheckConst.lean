import Verif.Props.JacCheck
import Verif.Props.JacConstVdc

/-!
# C125 for the constant-Vdc single-phase class: the self-check never passes in normal operation unless the active power feedback is invisible

The report is computed exactly: besides the entry (iaI, wte) it is the active power feedback, which the Jacobian method omits in row `uaR` and computes from the wrong quantity in row `xP`.
-/

set_option linter.unusedSimpArgs false
set_option linter.unusedTactic false
set_option linter.unreachableTactic false

namespace PvDer
namespace Ode
namespace SinglePhaseConstantVdc
open JacCheck Function Complex Phasor Grad

/-- Normal operation: no limit exceeded. -/
structure Normal (p : Par) (i : Inp) (y : V → ℝ) : Prop where
  m : ‖(p.Kp_GCC : ℂ) * ⟨y .uaR, y .uaI⟩ + ⟨y .xaR, y .xaI⟩‖ ≤ p.m_limit
  r : ‖(envC1 p i y).ia_ref‖ ≤ p.iref_limit

/-- The angle by which the PLL lags. -/
noncomputable def lag (i : Inp) (y : V → ℝ) : ℝ := i.w * i.t + arg i.va - y .wte

/-- The power delivered by the inverter, `½ Re(v_t conj i)` with `v_t = m V_dc/2`. -/
noncomputable def pInv (p : Par) (i : Inp) (y : V → ℝ) : ℝ := i.Vdc0 / 4 * ((p.Kp_GCC * y .uaR + y .xaR) * y .iaR + (p.Kp_GCC * y .uaI + y .xaI) * y .iaI)

/-- The derivative vector in normal operation, written out. -/
noncomputable def plain (p : Par) (i : Inp) (y : V → ℝ) : V → ℝ
  | .iaR => 1 / p.Lf * (-p.Rf * y .iaR - i.va.re + (p.Kp_GCC * y .uaR + y .xaR) * (i.Vdc0 / 2)) + (p.Kp_PLL * (‖i.va‖ * Real.sin (lag i y)) + y .xPLL + 2 * Real.pi * 60) / p.wbase * y .iaI
  | .iaI => 1 / p.Lf * (-p.Rf * y .iaI - i.va.im + (p.Kp_GCC * y .uaI + y .xaI) * (i.Vdc0 / 2)) - (p.Kp_PLL * (‖i.va‖ * Real.sin (lag i y)) + y .xPLL + 2 * Real.pi * 60) / p.wbase * y .iaR
  | .xaR => p.Ki_GCC * y .uaR
  | .xaI => p.Ki_GCC * y .uaI
  | .uaR => p.wp * (-y .uaR + (y .xP + p.Kp_P * (ppvOf p i i.Vdc0 - pInv p i y)) - y .iaR)
  | .uaI => p.wp * (-y .uaI + (y .xQ - p.Kp_Q * (i.Q_ref - 1 / 2 * (i.va.im * y .iaR - i.va.re * y .iaI))) - y .iaI)
  | .xP => p.Ki_P * (ppvOf p i i.Vdc0 - pInv p i y)
  | .xQ => -p.Ki_Q * (i.Q_ref - 1 / 2 * (i.va.im * y .iaR - i.va.re * y .iaI))
  | .xPLL => p.Ki_PLL * (‖i.va‖ * Real.sin (lag i y))
  | .wte => p.Kp_PLL * (‖i.va‖ * Real.sin (lag i y)) + y .xPLL + 2 * Real.pi * 60

theorem rhs_plain (p : Par) (i : Inp) (y : V → ℝ) (h : Normal p i y) (r : V) : rhs (envC1 p i y) r = plain p i y r := by
  obtain ⟨hm, hr⟩ := h
  have vd : (pll1 i.va i.w i.t (y .wte)).1 = ‖i.va‖ * Real.sin (lag i y) := by
    rw [C53_pll_input]; rfl
  cases r
  case xaR => exact if_neg (not_lt.2 hm)
  case xaI => exact if_neg (not_lt.2 hm)
  case uaR =>
    refine (if_neg (not_lt.2 hm)).trans ?_
    simp only [envC1, Env.base, irefP_re, sPh_re, vt_re, vt_im, plain, pInv]
    ring
  case uaI =>
    refine (if_neg (not_lt.2 hm)).trans ?_
    simp only [envC1, Env.base, irefP_im, sPh_im, plain]
  case xP =>
    refine (if_neg (not_lt.2 hr)).trans ?_
    simp only [envC1, Env.base, sPh_re, vt_re, vt_im, plain, pInv]
    ring
  case xQ =>
    refine (if_neg (not_lt.2 hr)).trans ?_
    simp only [envC1, Env.base, sPh_im, plain]
  all_goals simp only [rhs, envC1, Env.base, vt_re, vt_im, weCalc, vd, plain]

/-- The Jacobian as `jac_ODE_model` returns it on a first call. -/
noncomputable def J1 (p : Par) (i : Inp) (y : V → ℝ) : V → V → ℝ := jac lit1 lit2 (envC1 p i y) (fun _ _ => 0)

theorem cos_code' (i : Inp) (y : V → ℝ) : -Real.cos (i.w * i.t + arg i.va - Real.pi / 2) * Real.sin (y .wte) + Real.cos (i.w * i.t + arg i.va - Real.pi / 2 - Real.pi / 2) * Real.cos (y .wte) = -Real.cos (lag i y) :=
  cos_code _ _

/-- The partial derivatives of the inverter power. -/
noncomputable def dPower (p : Par) (i : Inp) (y : V → ℝ) : V → ℝ
  | .iaR => i.Vdc0 / 4 * (p.Kp_GCC * y .uaR + y .xaR)
  | .iaI => i.Vdc0 / 4 * (p.Kp_GCC * y .uaI + y .xaI)
  | .xaR => i.Vdc0 / 4 * y .iaR
  | .xaI => i.Vdc0 / 4 * y .iaI
  | .uaR => i.Vdc0 / 4 * (p.Kp_GCC * y .iaR)
  | .uaI => i.Vdc0 / 4 * (p.Kp_GCC * y .iaI)
  | _ => 0

/-- What row `xP` of the Jacobian method has instead: the derivatives of the negative reactive power at the PCC. -/
noncomputable def dCode (i : Inp) : V → ℝ
  | .iaR => -i.va.im / 2
  | .iaI => i.va.re / 2
  | _ => 0

set_option maxHeartbeats 4000000 in
/-- Every difference quotient outside the PLL column, exactly. -/
theorem num_plain (p : Par) (i : Inp) (y : V → ℝ) (h : Normal p i y) (r c : V) (hc : c ≠ .wte) :
    num (plain p i) y r c = J1 p i y r c - (if r = .uaR then p.wp * p.Kp_P * dPower p i y c else 0) - (if r = .xP then p.Ki_P * (dPower p i y c - dCode i c) else 0) := by
  have e0 : eps ≠ 0 := SinglePhase.eps_pos.ne'
  have vd : (pll1 i.va i.w i.t (y .wte)).1 = ‖i.va‖ * Real.sin (lag i y) := by rw [C53_pll_input]; rfl
  have hm : ¬ ‖(((envC1 p i y).Kp_GCC : ℝ) : ℂ) * (envC1 p i y).ua + (envC1 p i y).xa‖ > (envC1 p i y).m_limit := not_lt.2 h.m
  have hr : ¬ ‖((((envC1 p i y).xP + ((envC1 p i y).Kp_P * ((envC1 p i y).Ppv - ((envC1 p i y).S).re))) : ℝ) : ℂ) + (Complex.I * ((((envC1 p i y).xQ - ((envC1 p i y).Kp_Q * ((envC1 p i y).Q_ref - ((envC1 p i y).S_PCC).im))) : ℝ) : ℂ))‖
    > (envC1 p i y).iref_limit := not_lt.2 h.r
  have key : ∀ a b : ℝ, b * (2 * eps) = a → a / (2 * eps) = b := fun a b h => by rw [← h]; field_simp
  unfold num
  apply key
  cases r <;> cases c <;> first
    | exact absurd rfl hc
    | (simp only [plain, pInv, lag, dPower, dCode, J1, jac, jac_iaR, jac_iaI, jac_xaR, jac_xaI, jac_uaR, jac_uaI, jac_xP, jac_xQ, jac_xPLL, jac_wte, if_neg hm, if_neg hr, update, reduceCtorEq, eq_rec_constant, dite_true, dite_false, dite_eq_ite, if_true, if_false]
       simp only [envC1, Env.base, vd, lag]; ring)
    | (simp only [plain, pInv, lag, dPower, dCode, J1, jac, jac_iaR, jac_iaI, jac_xaR, jac_xaI, jac_uaR, jac_uaI, jac_xP, jac_xQ, jac_xPLL, jac_wte, if_neg hm, if_neg hr, update, reduceCtorEq, eq_rec_constant, dite_true, dite_false, dite_eq_ite, if_true, if_false]; ring)

/-- The column of the PLL angle. -/
theorem num_wte (p : Par) (i : Inp) (y : V → ℝ) (r : V) : num (plain p i) y r .wte = (if r = .iaI then -1 else 1) * J1 p i y r .wte * SinglePhase.σ := by
  have e0 : eps ≠ 0 := SinglePhase.eps_pos.ne'
  have d := SinglePhase.sin_diff (lag i y)
  have d' : Real.sin (lag i y - eps) - Real.sin (lag i y + eps) = -Real.cos (lag i y) * SinglePhase.σ * (2 * eps) := by
    rw [← d]; field_simp
  have l1 : lag i (update y .wte (y .wte + eps)) = lag i y - eps := by unfold lag; rw [update_self]; ring
  have l2 : lag i (update y .wte (y .wte - eps)) = lag i y + eps := by unfold lag; rw [update_self]; ring
  have key : ∀ a b : ℝ, b * (2 * eps) = a → a / (2 * eps) = b := fun a b h => by rw [← h]; field_simp
  have cc := cos_code' i y
  unfold num
  apply key
  cases r
  case iaR =>
    simp only [plain, l1, l2, update, reduceCtorEq, dite_false, if_false, J1, jac, jac_iaR]
    simp only [envC1, Env.base, cc]
    linear_combination (-(p.Kp_PLL * ‖i.va‖ / p.wbase * y .iaI)) * d'
  case iaI =>
    simp only [plain, l1, l2, update, reduceCtorEq, dite_false, if_true, J1, jac, jac_iaI]
    simp only [envC1, Env.base, cc]
    linear_combination (p.Kp_PLL * ‖i.va‖ / p.wbase * y .iaR) * d'
  case xPLL =>
    simp only [plain, l1, l2, reduceCtorEq, if_false, J1, jac, jac_xPLL]
    simp only [envC1, Env.base, cc]
    linear_combination (-(p.Ki_PLL * ‖i.va‖)) * d'
  case wte =>
    simp only [plain, l1, l2, update, reduceCtorEq, dite_false, if_false, J1, jac, jac_wte]
    simp only [envC1, Env.base, cc]
    linear_combination (-(p.Kp_PLL * ‖i.va‖)) * d'
  all_goals simp only [plain, pInv, update, reduceCtorEq, dite_false, if_false, J1, jac, jac_xaR, jac_xaI, jac_uaR, jac_uaI, jac_xP, jac_xQ]; ring

/-- By how much an entry of the Jacobian method differs from the difference quotient, written out: the PLL angle in row `iaI`, the omitted active power in row `uaR`, the wrong quantity in row `xP`. -/
noncomputable def gap (p : Par) (i : Inp) (y : V → ℝ) : V → V → ℝ
  | .iaI, .wte => p.Kp_PLL * y .iaR * ‖i.va‖ / p.wbase * Real.cos (i.w * i.t + arg i.va - y .wte) * (1 + Real.sin eps / eps)
  | .uaR, .iaR => p.wp * p.Kp_P * (i.Vdc0 / 4 * (p.Kp_GCC * y .uaR + y .xaR))
  | .uaR, .iaI => p.wp * p.Kp_P * (i.Vdc0 / 4 * (p.Kp_GCC * y .uaI + y .xaI))
  | .uaR, .xaR => p.wp * p.Kp_P * (i.Vdc0 / 4 * y .iaR)
  | .uaR, .xaI => p.wp * p.Kp_P * (i.Vdc0 / 4 * y .iaI)
  | .uaR, .uaR => p.wp * p.Kp_P * (i.Vdc0 / 4 * (p.Kp_GCC * y .iaR))
  | .uaR, .uaI => p.wp * p.Kp_P * (i.Vdc0 / 4 * (p.Kp_GCC * y .iaI))
  | .xP, .iaR => p.Ki_P * (i.Vdc0 / 4 * (p.Kp_GCC * y .uaR + y .xaR) + i.va.im / 2)
  | .xP, .iaI => p.Ki_P * (i.Vdc0 / 4 * (p.Kp_GCC * y .uaI + y .xaI) - i.va.re / 2)
  | .xP, .xaR => p.Ki_P * (i.Vdc0 / 4 * y .iaR)
  | .xP, .xaI => p.Ki_P * (i.Vdc0 / 4 * y .iaI)
  | .xP, .uaR => p.Ki_P * (i.Vdc0 / 4 * (p.Kp_GCC * y .iaR))
  | .xP, .uaI => p.Ki_P * (i.Vdc0 / 4 * (p.Kp_GCC * y .iaI))
  | _, _ => 0

set_option maxHeartbeats 1000000 in
/-- C125 for the constant-Vdc single-phase model in normal operation (also under the steps of the check): the check reports exactly the entries whose `gap` is at least the tolerance; there are at most thirteen. -/
theorem C125_const_vdc_single (p : Par) (i : Inp) (y : V → ℝ) (hn : ∀ c s, |s - y c| ≤ eps → Normal p i (update y c s)) (hm : ∀ r, |J1 p i y r .wte| ≤ 1000000) (r c : V) :
    Reported (fun z => rhs (envC1 p i z)) (J1 p i) y r c ↔ 1 / 100 ≤ |gap p i y r c| := by
  have n0 : Normal p i y := by
    have := hn .wte (y .wte) (by rw [sub_self, abs_zero]; exact SinglePhase.eps_pos.le)
    rwa [update_eq_self] at this
  have en : num (fun z => rhs (envC1 p i z)) y r c = num (plain p i) y r c := by
    unfold num
    beta_reduce
    rw [rhs_plain p i _ (hn c _ (by rw [add_sub_cancel_left, abs_of_pos SinglePhase.eps_pos])), rhs_plain p i _ (hn c _ (by rw [sub_sub_cancel_left, abs_neg, abs_of_pos SinglePhase.eps_pos]))]
  rw [reported_iff, en]
  by_cases hc : c = .wte
  · subst hc
    rw [num_wte]
    by_cases hr : r = .iaI
    · subst hr
      have e1 : J1 p i y .iaI .wte = -(p.Kp_PLL * y .iaR * ‖i.va‖ / p.wbase * Real.cos (lag i y)) := by
        simp only [J1, jac, jac_iaI]
        simp only [envC1, Env.base, cos_code' i y]
        ring
      have e2 : J1 p i y .iaI .wte - (if (V.iaI : V) = .iaI then -1 else 1) * J1 p i y .iaI .wte * SinglePhase.σ = -gap p i y .iaI .wte := by
        rw [if_pos rfl, e1]; unfold gap SinglePhase.σ lag; ring
      rw [e2, abs_neg]
    · have e2 : J1 p i y r .wte - (if r = .iaI then -1 else 1) * J1 p i y r .wte * SinglePhase.σ = J1 p i y r .wte * (1 - SinglePhase.σ) := by
        rw [if_neg hr]; ring
      have a := SinglePhase.σ_lt
      have b := SinglePhase.σ_gt
      have g0 : gap p i y r .wte = 0 := by cases r <;> first | exact absurd rfl hr | rfl
      rw [g0, abs_zero]
      refine ⟨fun h => ?_, fun h => by norm_num at h⟩
      exfalso
      rw [e2, abs_mul, abs_of_pos (show (0 : ℝ) < 1 - SinglePhase.σ by linarith)] at h
      have : |J1 p i y r .wte| * (1 - SinglePhase.σ) ≤ 1000000 * (eps ^ 2 / 4) := by
        have := hm r
        gcongr
        linarith
      have e : 1000000 * (eps ^ 2 / 4) < 1 / 100 := by norm_num [eps]
      linarith
  · have e : J1 p i y r c - num (plain p i) y r c = gap p i y r c := by
      rw [num_plain p i y n0 r c hc]
      cases r <;> cases c <;> first
        | exact absurd rfl hc
        | (simp only [gap, dPower, dCode, reduceCtorEq, if_true, if_false]; ring)
    rw [e]

/-- At most thirteen entries are reported: those of C77's list. -/
theorem C125_const_vdc_single_where (p : Par) (i : Inp) (y : V → ℝ) (hn : ∀ c s, |s - y c| ≤ eps → Normal p i (update y c s)) (hm : ∀ r, |J1 p i y r .wte| ≤ 1000000) (r c : V)
    (h : Reported (fun z => rhs (envC1 p i z)) (J1 p i) y r c) : Wrong r c := by
  rw [C125_const_vdc_single p i y hn hm] at h
  revert h
  unfold Wrong
  cases r <;> cases c <;> first
    | (intro; simp; done)
    | (intro h; exfalso; simp only [gap, abs_zero] at h; norm_num at h)

/-- Also without current (at start-up, where the tests of the repository call the check for other classes) the check fails, unless the real part of the inverter voltage almost cancels the imaginary part of the voltage at the PCC. -/
theorem C125_const_vdc_single_fails (p : Par) (i : Inp) (y : V → ℝ) (hn : ∀ c s, |s - y c| ≤ eps → Normal p i (update y c s)) (hm : ∀ r, |J1 p i y r .wte| ≤ 1000000)
    (hg : 1 / 50 ≤ |p.Ki_P * (i.Vdc0 / 2 * (p.Kp_GCC * y .uaR + y .xaR) + i.va.im)|) : ¬ Passes (fun z => rhs (envC1 p i z)) (J1 p i) y := by
  intro h
  refine h .xP .iaR ((C125_const_vdc_single p i y hn hm .xP .iaR).2 ?_)
  have : gap p i y .xP .iaR = p.Ki_P * (i.Vdc0 / 2 * (p.Kp_GCC * y .uaR + y .xaR) + i.va.im) * (1 / 2) := by unfold gap; ring
  rw [this, abs_mul, abs_of_pos (show (0 : ℝ) < 1 / 2 by norm_num)]
  linarith

/-- Start-up: no current, the controller state that gives the duty cycle. -/
noncomputable def exStart : V → ℝ
  | .xaR => 9 / 10 | .xaI => 1 / 10 | .wte => 1 / 10 | _ => 0

theorem exStart_hn : ∀ c s, |s - exStart c| ≤ eps → Normal exParP exInp (update exStart c s) := by
  intro c s hs
  have B : ∀ d, exStart d - 1 / 1000000 ≤ update exStart c s d ∧ update exStart c s d ≤ exStart d + 1 / 1000000 := fun d => by
    by_cases h : d = c
    · subst h
      rw [update_self]
      have := abs_le.1 hs; unfold eps at this; exact ⟨by linarith [this.1], by linarith [this.2]⟩
    · rw [update_of_ne h]; exact ⟨by linarith, by linarith⟩
  generalize update exStart c s = z at B
  have bi := B .iaI; have bR := B .xaR; have bI := B .xaI; have uR := B .uaR; have uI := B .uaI; have bP := B .xP; have bQ := B .xQ
  simp only [exStart] at bi bR bI uR uI bP bQ
  refine ⟨?_, ?_⟩
  · have : exParP.m_limit = 1 := rfl
    rw [this]
    have hs : ‖(exParP.Kp_GCC : ℂ) * ⟨z .uaR, z .uaI⟩ + ⟨z .xaR, z .xaI⟩‖ ^ 2 ≤ 1 ^ 2 := by
      rw [← normSq_eq_norm_sq, normSq_apply]
      simp only [add_re, add_im, mul_re, mul_im, Complex.ofReal_re, Complex.ofReal_im, zero_mul, sub_zero, add_zero, exParP, exPar]
      have h1 : |12 * z .uaR + z .xaR| ≤ 91 / 100 := abs_le.2 ⟨by linarith, by linarith⟩
      have h2 : |12 * z .uaI + z .xaI| ≤ 11 / 100 := abs_le.2 ⟨by linarith, by linarith⟩
      have q1 := mul_self_le_mul_self (abs_nonneg _) h1
      have q2 := mul_self_le_mul_self (abs_nonneg _) h2
      rw [abs_mul_abs_self] at q1 q2
      linarith
    exact (pow_le_pow_iff_left₀ (norm_nonneg _) zero_le_one two_ne_zero).1 hs
  · have : exParP.iref_limit = 3 / 2 := rfl
    rw [this]
    refine (Complex.norm_le_abs_re_add_abs_im _).trans ?_
    simp only [envC1, irefP_re, irefP_im, sPh_im, exParP, exPar, exInp, zero_mul, add_zero]
    have h1 : |z .xP| ≤ 1 / 10 := abs_le.2 ⟨by linarith, by linarith⟩
    have h2 : |z .xQ - 1 / 5 * (0 - 1 / 2 * ((1 / 2 : ℂ).im * z .iaR - (1 / 2 : ℂ).re * z .iaI))| ≤ 1 / 10 := by
      norm_num
      exact abs_le.2 ⟨by linarith, by linarith⟩
    linarith

theorem exStart_angle : ∀ r, |J1 exParP exInp exStart r .wte| ≤ 1000000 := by
  have n : ‖exInp.va‖ = 1 / 2 := by norm_num [exInp]
  have cc := Real.abs_cos_le_one (lag exInp exStart)
  have ci := cos_code' exInp exStart
  intro r
  cases r
  case iaR => 
    simp only [J1, jac, jac_iaR]
    simp only [envC1, Env.base, ci, n, exParP, exPar, exStart]
    norm_num
  case iaI => 
    simp only [J1, jac, jac_iaI]
    simp only [envC1, Env.base, ci, n, exParP, exPar, exStart]
    norm_num
  case xPLL =>
    simp only [J1, jac, jac_xPLL]
    simp only [envC1, Env.base, ci, n, exParP, exPar]
    rw [abs_mul, abs_neg]
    refine (mul_le_mul_of_nonneg_left cc (abs_nonneg _)).trans ?_
    norm_num [abs_of_pos]
  case wte =>
    simp only [J1, jac, jac_wte]
    simp only [envC1, Env.base, ci, n, exParP, exPar]
    rw [abs_mul, abs_neg]
    refine (mul_le_mul_of_nonneg_left cc (abs_nonneg _)).trans ?_
    norm_num [abs_of_pos]
  all_goals simp only [J1, jac, jac_xaR, jac_xaI, jac_uaR, jac_uaI, jac_xP, jac_xQ]; norm_num

/-- Beside the theorems: at this start-up state exactly two entries are reported (in a design without proportional gain of the active power controller), and the check fails. -/
example (r c : V) : Reported (fun z => rhs (envC1 exParP exInp z)) (J1 exParP exInp) exStart r c ↔ r = .xP ∧ (c = .iaR ∨ c = .iaI) := by
  rw [C125_const_vdc_single exParP exInp _ exStart_hn exStart_angle]
  cases r <;> cases c <;> first
    | (simp [gap, exStart, exParP, exPar, exInp]; done)
    | (norm_num [gap, exStart, exParP, exPar, exInp, abs_of_pos, abs_of_neg]; done)

example : ¬ Passes (fun z => rhs (envC1 exParP exInp z)) (J1 exParP exInp) exStart :=
  C125_const_vdc_single_fails _ _ _ exStart_hn exStart_angle (by norm_num [exParP, exPar, exInp, exStart, abs_of_pos])

end SinglePhaseConstantVdc
end Ode
end PvDer
