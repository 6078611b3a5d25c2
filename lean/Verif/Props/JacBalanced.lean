import Verif.Props.JacThreeMain

/-!
# C77: the Jacobian of the balanced class
-/

namespace PvDer
namespace Ode
open Grad Complex Phasor

set_option maxHeartbeats 4000000
set_option linter.unusedSimpArgs false

/-- Apparent power of a balanced set. -/
theorem sCalc_bal (v i : ℂ) : sCalc v (Phasor.ub v) (Phasor.uc v) i (Phasor.ub i) (Phasor.uc i) = 3 * sPh v i := by
  have h3 : Real.sqrt 3 * Real.sqrt 3 = 3 := Real.mul_self_sqrt (by norm_num)
  have e : (3 : ℂ) * sPh v i = ((3 : ℝ) : ℂ) * sPh v i := by norm_num
  rw [e]
  apply Complex.ext
  · rw [sCalc_re, re_ofReal_mul, sPh_re]; simp only [ub_re, ub_im, uc_re, uc_im]
    linear_combination (1 / 4 : ℝ) * (v.re * i.re + v.im * i.im) * h3
  · rw [sCalc_im, im_ofReal_mul, sPh_im]; simp only [ub_re, ub_im, uc_re, uc_im]
    linear_combination (1 / 4 : ℝ) * (v.im * i.re - v.re * i.im) * h3

theorem vt_ub (p : Par) (u x : ℂ) (V : ℝ) : vtOf p (Phasor.ub u) (Phasor.ub x) V = Phasor.ub (vtOf p u x V) := by unfold vtOf duty Phasor.ub; ring
theorem vt_uc (p : Par) (u x : ℂ) (V : ℝ) : vtOf p (Phasor.uc u) (Phasor.uc x) V = Phasor.uc (vtOf p u x V) := by unfold vtOf duty Phasor.uc; ring

theorem three_re (z : ℂ) : (3 * z).re = 3 * z.re := by simp
theorem three_im (z : ℂ) : (3 * z).im = 3 * z.im := by simp

theorem ppv_inp (p : Par) (i : Inp) (b c : ℂ) (V : ℝ) : ppvOf p { i with vb := b, vc := c } V = ppvOf p i V := rfl

namespace ThreePhaseBalanced

/-- The states at which the derivative vector is differentiable and the formulas apply (see the single-phase version). -/
structure Regular (p : Par) (i : Inp) (y : V → ℝ) : Prop where
  base : 0 < p.Vdcbase
  dc : 0 < y .Vdc
  cap : y .Vdc * p.Vdcbase < p.Vdcmpp_max
  pv : 0 < PV.ipv p.mod i.Sinsol i.Tactual (y .Vdc * p.Vdcbase)
  a : ThreePhase.PhaseRegular p (envB p i y).ia (envB p i y).xa (envB p i y).ua (envB p i y).ia_ref
  r : ‖(envB p i y).ia_ref‖ ≠ p.iref_limit
  rSat : ‖(envB p i y).ia_ref‖ > p.iref_limit →
    (p.Ki_DC * (i.Vdc_ref - y .Vdc) ≠ 0 ∧ y .xDC ≠ 0) ∧ (-p.Ki_Q * (i.Q_ref - (envB p i y).S_PCC.im) ≠ 0 ∧ y .xQ ≠ 0)

/-- Entries that differ from the partial derivative: the DC link row except its diagonal, the reactive power row, and the reactive power feedback in row `uaI`. -/
def Wrong (r c : V) : Prop := (r = .Vdc ∧ c ≠ .Vdc) ∨ (r = .xQ ∧ (c = .iaR ∨ c = .iaI)) ∨ (r = .uaI ∧ (c = .iaR ∨ c = .iaI))

/-- The corrected matrix: power flows of all three phases instead of phase a only. -/
noncomputable def fixed (s1 s2 : ℝ) (e : Env) : V → V → ℝ
  | .Vdc, .Vdc => jac s1 s2 e (fun _ _ => 0) .Vdc .Vdc
  | .Vdc, c => 3 * jac s1 s2 e (fun _ _ => 0) .Vdc c
  | .xQ, c => 3 * jac s1 s2 e (fun _ _ => 0) .xQ c
  | .uaI, .iaR => 3 * jac s1 s2 e (fun _ _ => 0) .uaI .iaR
  | .uaI, .iaI => 3 * jac s1 s2 e (fun _ _ => 0) .uaI .iaI - 2 * jac s1 s2 e (fun _ _ => 0) .uaI .uaI
  | r, c => jac s1 s2 e (fun _ _ => 0) r c

theorem row_grad (p : Par) (i : Inp) (y : V → ℝ) (h : Regular p i y) (r : V) :
    HasGrad (fun z => rhs (envB p i z) r) (fixed (Real.sqrt 3 / 2) (Real.sqrt 3 / 2) (envB p i y) r) y := by
  obtain ⟨hb, hV, hcap, hI, ⟨hma, hmaS⟩, hr', hrS⟩ := h
  simp only [envB, env3, Env.base, iref_re, iref_im, sCalc_bal, three_im, sPh_im] at hma hmaS
  simp only [envB, env3, Env.base, irefOf, sCalc_bal, three_im, sPh_im] at hr' hrS
  have hvd := vd3_grad i.va (Phasor.ub i.va) (Phasor.uc i.va) i.w i.t V.wte y
  have hppv := ppv_grad p i V.Vdc y hV hb hcap hI
  cases r
  case iaR =>
    simp only [rhs, envB, env3, Env.base, vt_re, vt_im, weCalc]
    apply HasGrad.congr
    · grad
    · intro j
      cases j <;> simp only [fixed, jac, jac_iaR, dvd3, reduceCtorEq, if_false, if_true] <;> ring
  case iaI =>
    simp only [rhs, envB, env3, Env.base, vt_re, vt_im, weCalc]
    apply HasGrad.congr
    · grad
    · intro j
      cases j <;> simp only [fixed, jac, jac_iaI, dvd3, reduceCtorEq, if_false, if_true] <;> ring
  case xaR =>
    simp only [rhs, envB, env3, Env.base]
    apply HasGrad.congr
    · apply HasGrad.aw
      · grad
      · simp only [mk_eq]; fun_prop
      · exact (HasGrad.proj _ _).cont
      · exact hma
      · exact fun h => (hmaS h).1
    · intro j
      cases j <;> simp only [fixed, jac, jac_xaR, reduceCtorEq, if_false, if_true] <;> split_ifs <;> ring
  case xaI =>
    simp only [rhs, envB, env3, Env.base]
    apply HasGrad.congr
    · apply HasGrad.aw
      · grad
      · simp only [mk_eq]; fun_prop
      · exact (HasGrad.proj _ _).cont
      · exact hma
      · exact fun h => (hmaS h).2.1
    · intro j
      cases j <;> simp only [fixed, jac, jac_xaI, reduceCtorEq, if_false, if_true] <;> split_ifs <;> ring
  case uaR =>
    simp only [rhs, envB, env3, Env.base, iref_re, iref_im, sCalc_bal, three_im, sPh_im]
    apply HasGrad.congr
    · apply HasGrad.aw
      · grad
      · simp only [mk_eq]; fun_prop
      · exact (HasGrad.proj _ _).cont
      · exact hma
      · exact fun h => (hmaS h).2.2.1
    · intro j
      cases j <;> simp only [fixed, jac, jac_uaR, reduceCtorEq, if_false, if_true, iref_re, iref_im, sCalc_bal, three_im, sPh_im] <;> split_ifs <;> ring
  case uaI =>
    simp only [rhs, envB, env3, Env.base, iref_re, iref_im, sCalc_bal, three_im, sPh_im]
    apply HasGrad.congr
    · apply HasGrad.aw
      · grad
      · simp only [mk_eq]; fun_prop
      · exact (HasGrad.proj _ _).cont
      · exact hma
      · exact fun h => (hmaS h).2.2.2
    · intro j
      cases j <;> simp only [fixed, jac, jac_uaI, reduceCtorEq, if_false, if_true, iref_re, iref_im, sCalc_bal, three_im, sPh_im] <;> split_ifs <;> ring
  case Vdc =>
    have hV0 : ∀ᶠ z : V → ℝ in nhds y, 0 < z .Vdc := (HasGrad.proj V.Vdc y).cont.eventually (lt_mem_nhds hV)
    refine HasGrad.congr_ev (f := fun z => ppvOf p i (z .Vdc) / (z .Vdc * p.C) - (3 / 4) * (((p.Kp_GCC * z .uaR + z .xaR) * z .iaR
      + (p.Kp_GCC * z .uaI + z .xaI) * z .iaI) / p.C)) ?_ ?_
    · apply HasGrad.congr
      · grad
      · intro j
        cases j <;> simp only [fixed, jac, jac_Vdc, envB, env3, Env.base, reduceCtorEq, if_false, if_true] <;> ring
    · filter_upwards [hV0] with z hz
      have h1 : z .Vdc * (z .Vdc)⁻¹ = 1 := mul_inv_cancel₀ hz.ne'
      simp only [rhs, envB, env3, Env.base, ppv_inp, vt_ub, vt_uc, sCalc_bal, three_re, sPh_re, vt_re, vt_im, div_eq_mul_inv, mul_inv]
      linear_combination (-(3 / 4) * (((p.Kp_GCC * z .uaR + z .xaR) * z .iaR + (p.Kp_GCC * z .uaI + z .xaI) * z .iaI) * p.C⁻¹)) * h1
  case xDC =>
    simp only [rhs, envB, env3, Env.base, sCalc_bal, three_im, sPh_im]
    apply HasGrad.congr
    · apply HasGrad.aw
      · grad
      · fun_prop
      · exact (HasGrad.proj _ _).cont
      · exact hr'
      · exact fun h => (hrS h).1
    · intro j
      cases j <;> simp only [fixed, jac, jac_xDC, reduceCtorEq, if_false, if_true, sCalc_bal, three_im, sPh_im] <;> split_ifs <;> ring
  case xQ =>
    simp only [rhs, envB, env3, Env.base, sCalc_bal, three_im, sPh_im]
    apply HasGrad.congr
    · apply HasGrad.aw
      · grad
      · fun_prop
      · exact (HasGrad.proj _ _).cont
      · exact hr'
      · exact fun h => (hrS h).2
    · intro j
      cases j <;> simp only [fixed, jac, jac_xQ, reduceCtorEq, if_false, if_true, sCalc_bal, three_im, sPh_im] <;> split_ifs <;> ring
  case xPLL =>
    simp only [rhs, envB, env3, Env.base, weCalc]
    apply HasGrad.congr
    · grad
    · intro j
      cases j <;> simp only [fixed, jac, jac_xPLL, dvd3, reduceCtorEq, if_false, if_true] <;> ring
  case wte =>
    simp only [rhs, envB, env3, Env.base, weCalc]
    apply HasGrad.congr
    · grad
    · intro j
      cases j <;> simp only [fixed, jac, jac_wte, dvd3, reduceCtorEq, if_false, if_true] <;> ring

/-- The constants for `√3/2` enter every entry affinely. -/
theorem jac_affine (s1 s2 : ℝ) (e : Env) (J : V → V → ℝ) (r c : V) :
    jac s1 s2 e J r c = jac 0 0 e J r c + s2 * (jac 0 1 e J r c - jac 0 0 e J r c) := by
  cases r <;> cases c <;>
    simp only [jac, jac_iaR, jac_iaI, jac_xaR, jac_xaI, jac_uaR, jac_uaI, jac_Vdc, jac_xDC, jac_xQ, jac_xPLL, jac_wte] <;> ring1

theorem fixed_eq (s1 s2 : ℝ) (e : Env) (r c : V) (h : ¬ Wrong r c) : fixed s1 s2 e r c = jac s1 s2 e (fun _ _ => 0) r c := by
  unfold Wrong at h
  cases r <;> cases c <;> simp at h <;> first | rfl | (simp [fixed, jac, jac_xQ])

/-- C77, balanced class: every entry outside the list `Wrong` is the partial derivative, up to the decimal truncation of `√3/2`.
Missing: the ten entries of `Wrong`, which are not the partial derivatives (`C77_balanced_wrong`). -/
theorem C77_balanced_partial (p : Par) (i : Inp) (y : V → ℝ) (h : Regular p i y) (r c : V) (hrc : ¬ Wrong r c) :
    ∃ d, HasDerivAt (fun s => rhs (envB p i (Function.update y c s)) r) d (y c) ∧
      |jac lit1 lit2 (envB p i y) (fun _ _ => 0) r c - d| ≤
        1 / 10 ^ 9 * |jac 0 1 (envB p i y) (fun _ _ => 0) r c - jac 0 0 (envB p i y) (fun _ _ => 0) r c| := by
  refine ⟨_, (row_grad p i y h r).partial c, ?_⟩
  rw [fixed_eq _ _ _ _ _ hrc, jac_affine lit1 lit2, jac_affine (Real.sqrt 3 / 2)]
  have e1 : ∀ a c t t' : ℝ, a + t * c - (a + t' * c) = (t - t') * c := by intros; ring
  rw [e1, abs_mul]
  exact mul_le_mul_of_nonneg_right (lit2_close.trans (by norm_num)) (abs_nonneg _)

/-- Entries outside the PLL column carry no truncated constant, so they are exact. -/
theorem C77_balanced_exact (p : Par) (i : Inp) (y : V → ℝ) (h : Regular p i y) (r c : V) (hrc : ¬ Wrong r c) (hc : c ≠ .wte) :
    HasDerivAt (fun s => rhs (envB p i (Function.update y c s)) r) (jac lit1 lit2 (envB p i y) (fun _ _ => 0) r c) (y c) := by
  have := (row_grad p i y h r).partial c
  rw [fixed_eq _ _ _ _ _ hrc] at this
  have e : jac lit1 lit2 (envB p i y) (fun _ _ => 0) r c = jac (Real.sqrt 3 / 2) (Real.sqrt 3 / 2) (envB p i y) (fun _ _ => 0) r c := by
    cases r <;> cases c <;> first | exact absurd rfl hc | rfl
  rwa [e]

/-- C77, balanced class: in the DC link row and the reactive power row the derivative is three times the entry (the entry accounts for phase a only). -/
theorem C77_balanced_factor_three (p : Par) (i : Inp) (y : V → ℝ) (h : Regular p i y) (r c : V)
    (hrc : (r = .Vdc ∧ c ≠ .Vdc) ∨ r = .xQ ∨ (r = .uaI ∧ c = .iaR)) :
    HasDerivAt (fun s => rhs (envB p i (Function.update y c s)) r) (3 * jac lit1 lit2 (envB p i y) (fun _ _ => 0) r c) (y c) := by
  have := (row_grad p i y h r).partial c
  have e : 3 * jac lit1 lit2 (envB p i y) (fun _ _ => 0) r c = fixed (Real.sqrt 3 / 2) (Real.sqrt 3 / 2) (envB p i y) r c := by
    rcases hrc with ⟨rfl, hc⟩ | rfl | ⟨rfl, rfl⟩
    · cases c <;> first | exact absurd rfl hc | rfl
    · cases c <;> rfl
    · rfl
  rw [e]; exact this

/-- C77, balanced class: such an entry is wrong whenever it is not zero. -/
theorem C77_balanced_wrong (p : Par) (i : Inp) (y : V → ℝ) (h : Regular p i y) (r c : V)
    (hrc : (r = .Vdc ∧ c ≠ .Vdc) ∨ r = .xQ ∨ (r = .uaI ∧ c = .iaR)) (h0 : jac lit1 lit2 (envB p i y) (fun _ _ => 0) r c ≠ 0) :
    ¬ HasDerivAt (fun s => rhs (envB p i (Function.update y c s)) r) (jac lit1 lit2 (envB p i y) (fun _ _ => 0) r c) (y c) := by
  intro H
  have e := H.unique (C77_balanced_factor_three p i y h r c hrc)
  apply h0; linarith

/-- C77, balanced class: the remaining entry, unsaturated: the proportional reactive power feedback is counted once instead of three times. -/
theorem C77_balanced_uaI_iaI (p : Par) (i : Inp) (y : V → ℝ) (h : Regular p i y)
    (hm : ‖(p.Kp_GCC : ℂ) * ⟨y .uaR, y .uaI⟩ + ⟨y .xaR, y .xaI⟩‖ ≤ p.m_limit) :
    HasDerivAt (fun s => rhs (envB p i (Function.update y .iaI s)) .uaI) (-p.wp - 3 * (p.Kp_Q * p.wp * i.va.re / 2)) (y .iaI) ∧
    jac lit1 lit2 (envB p i y) (fun _ _ => 0) .uaI .iaI = -p.wp - p.Kp_Q * p.wp * i.va.re / 2 := by
  have hn : ¬ (‖((((envB p i y).Kp_GCC : ℝ) : ℂ) * (envB p i y).ua) + (envB p i y).xa‖ > (envB p i y).m_limit) := not_lt.mpr hm
  have e2 : ∀ s1 s2 : ℝ, jac s1 s2 (envB p i y) (fun _ _ => 0) .uaI .iaI = -p.wp - p.Kp_Q * p.wp * i.va.re / 2 := by
    intro s1 s2; simp only [jac, jac_uaI, if_neg hn]; rfl
  have e3 : ∀ s1 s2 : ℝ, jac s1 s2 (envB p i y) (fun _ _ => 0) .uaI .uaI = -p.wp := by
    intro s1 s2; simp only [jac, jac_uaI, if_neg hn]; rfl
  refine ⟨?_, e2 _ _⟩
  refine ((row_grad p i y h .uaI).partial .iaI).congr_deriv ?_
  simp only [fixed, e2, e3]; ring

/-- A state in normal operation. -/
noncomputable def exState : V → ℝ
  | .iaR => 4/5 | .iaI => 1/10 | .xaR => 9/10 | .xaI => 1/10 | .Vdc => 11/10 | .xDC => 4/5 | .wte => 1/10 | _ => 0

/-- The hypotheses can be met. -/
theorem exState_regular : Regular exPar exInp exState := by
  have hm : ‖(exPar.Kp_GCC : ℂ) * (envB exPar exInp exState).ua + (envB exPar exInp exState).xa‖ ^ 2 = 82 / 100 := by
    rw [← normSq_eq_norm_sq, normSq_apply]; norm_num [envB, env3, exState, exPar]
  have hr : ‖(envB exPar exInp exState).ia_ref‖ ^ 2 = (4/5) ^ 2 + (3 / 200) ^ 2 := by
    rw [← normSq_eq_norm_sq, normSq_apply]; simp only [envB, env3, iref_re, iref_im, sCalc_bal, three_im, sPh_im]; norm_num [exState, exPar, exInp]
  constructor
  · norm_num [exPar]
  · norm_num [exState]
  · norm_num [exState, exPar]
  · exact exMod_pv
  · refine ⟨fun h => ?_, fun h => ?_⟩
    · rw [h] at hm; norm_num [exPar] at hm
    · exfalso; have : exPar.m_limit = 1 := rfl
      rw [this] at h; nlinarith [h]
  · intro h; rw [h] at hr; norm_num [exPar] at hr
  · intro h; exfalso; have : exPar.iref_limit = 3/2 := rfl
    rw [this] at h; nlinarith [h]

/-- The DC link row is wrong at the concrete state. -/
example : ¬ HasDerivAt (fun s => rhs (envB exPar exInp (Function.update exState .iaR s)) .Vdc)
    (jac lit1 lit2 (envB exPar exInp exState) (fun _ _ => 0) .Vdc .iaR) (exState .iaR) := by
  apply C77_balanced_wrong _ _ _ exState_regular _ _ (Or.inl ⟨rfl, by decide⟩)
  simp only [jac, jac_Vdc]; norm_num [envB, env3, Env.base, exState, exPar]

end ThreePhaseBalanced
end Ode
end PvDer
