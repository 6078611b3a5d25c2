import Verif.Model.JacCheck
import Verif.Props.JacSingle
import Mathlib.Analysis.Calculus.MeanValue
import Mathlib.Tactic.GCongr
import Mathlib.Analysis.SpecialFunctions.Trigonometric.Bounds

/-!
# C125: what the Jacobian self-check `check_jacobian` reports

First for any derivative method and any Jacobian method: an entry that is wrong by at least the tolerance plus the error of the central difference is reported, one that is wrong by less than the tolerance minus that error is not.
Then for the single-phase model in normal operation, where the report is computed exactly: it is at most the entry (iaI, wte), the one whose sign is wrong (C58), and it is made exactly when the in-phase current is large enough;
at start-up, where the tests of the repository call it, the current is zero and the check passes.
-/

namespace PvDer
namespace JacCheck
open Function

variable {V : Type} [DecidableEq V]

theorem reported_iff (f : (V → ℝ) → V → ℝ) (J : (V → ℝ) → V → V → ℝ) (y : V → ℝ) (r c : V) : Reported f J y r c ↔ 1 / 100 ≤ |J y r c - num f y r c| := by
  unfold Reported err
  split_ifs with h
  · constructor
    · intro h'; exact absurd h' (lt_irrefl _)
    · intro h'; exact absurd (h'.trans_lt h) (lt_irrefl _)
  · refine ⟨fun _ => not_lt.1 h, fun h' => ?_⟩
    have : (0 : ℝ) < 1 / 100 := by norm_num
    exact lt_of_lt_of_le this h'

/-- A function that grows at most like `M t^n`. -/
theorem grow {g g' : ℝ → ℝ} {e M : ℝ} (n : ℕ) (h0 : g 0 = 0) (hd : ∀ t ∈ Set.Icc 0 e, HasDerivWithinAt g (g' t) (Set.Icc 0 e) t) (hb : ∀ t ∈ Set.Icc 0 e, |g' t| ≤ M * t ^ n) :
    ∀ t ∈ Set.Icc 0 e, |g t| ≤ M * t ^ (n + 1) / (n + 1) := by
  intro t ht
  have hB : ∀ x : ℝ, HasDerivAt (fun x => M * x ^ (n + 1) / (n + 1)) (M * x ^ n) x := by
    intro x
    have := ((hasDerivAt_pow (n + 1) x).const_mul M).div_const ((n : ℝ) + 1)
    refine this.congr_deriv ?_
    have : (n : ℝ) + 1 ≠ 0 := by positivity
    push_cast
    field_simp
  have := image_norm_le_of_norm_deriv_right_le_deriv_boundary (f := g) (f' := g') (a := 0) (b := e) (B := fun x => M * x ^ (n + 1) / (n + 1)) (B' := fun x => M * x ^ n)
    (fun x hx => (hd x hx).continuousWithinAt) (fun x hx => ((hd x ⟨hx.1, hx.2.le⟩).mono_of_mem_nhdsWithin (Icc_mem_nhdsGE_of_mem hx))) (by simp [h0]) hB (fun x hx => hb x ⟨hx.1, hx.2.le⟩) ht
  exact this

/-- Error of the central difference. -/
theorem central {f f1 f2 f3 : ℝ → ℝ} {a e M : ℝ} (he : 0 < e) (h1 : ∀ s ∈ Set.Icc (a - e) (a + e), HasDerivAt f (f1 s) s) (h2 : ∀ s ∈ Set.Icc (a - e) (a + e), HasDerivAt f1 (f2 s) s)
    (h3 : ∀ s ∈ Set.Icc (a - e) (a + e), HasDerivAt f2 (f3 s) s) (hM : ∀ s ∈ Set.Icc (a - e) (a + e), |f3 s| ≤ M) : |(f (a + e) - f (a - e)) / (2 * e) - f1 a| ≤ M * e ^ 2 / 6 := by
  have inp : ∀ t ∈ Set.Icc 0 e, a + t ∈ Set.Icc (a - e) (a + e) := fun t ht => ⟨by linarith [ht.1], by linarith [ht.2]⟩
  have inm : ∀ t ∈ Set.Icc 0 e, a - t ∈ Set.Icc (a - e) (a + e) := fun t ht => ⟨by linarith [ht.2], by linarith [ht.1]⟩
  have up : ∀ {g g' : ℝ → ℝ}, (∀ s ∈ Set.Icc (a - e) (a + e), HasDerivAt g (g' s) s) → ∀ t ∈ Set.Icc 0 e, HasDerivAt (fun t => g (a + t)) (g' (a + t)) t := by
    intro g g' h t ht
    exact HasDerivAt.comp_const_add a t (h _ (inp t ht))
  have dn : ∀ {g g' : ℝ → ℝ}, (∀ s ∈ Set.Icc (a - e) (a + e), HasDerivAt g (g' s) s) → ∀ t ∈ Set.Icc 0 e, HasDerivAt (fun t => g (a - t)) (-g' (a - t)) t := by
    intro g g' h t ht
    exact HasDerivAt.comp_const_sub a t (h _ (inm t ht))
  have b2 : ∀ t ∈ Set.Icc 0 e, |f2 (a + t) - f2 (a - t)| ≤ 2 * M * t ^ (0 + 1) / ((0 : ℕ) + 1) :=
    grow (g := fun t => f2 (a + t) - f2 (a - t)) (g' := fun t => f3 (a + t) + f3 (a - t)) 0 (by simp) (fun t ht => (((up h3 t ht).sub (dn h3 t ht)).congr_deriv (by ring)).hasDerivWithinAt) (fun t ht => by
      have := abs_add_le (f3 (a + t)) (f3 (a - t))
      have := hM _ (inp t ht)
      have := hM _ (inm t ht)
      rw [pow_zero]; linarith)
  have b1 : ∀ t ∈ Set.Icc 0 e, |f1 (a + t) + f1 (a - t) - 2 * f1 a| ≤ 2 * M * t ^ (1 + 1) / ((1 : ℕ) + 1) :=
    grow (g := fun t => f1 (a + t) + f1 (a - t) - 2 * f1 a) (g' := fun t => f2 (a + t) - f2 (a - t)) 1 (by simp; ring) (fun t ht => ((((up h2 t ht).add (dn h2 t ht)).sub_const _).congr_deriv (by ring)).hasDerivWithinAt)
      (fun t ht => by refine (b2 t ht).trans (le_of_eq ?_); norm_num)
  have b0 : ∀ t ∈ Set.Icc 0 e, |f (a + t) - f (a - t) - 2 * f1 a * t| ≤ M * t ^ (2 + 1) / ((2 : ℕ) + 1) :=
    grow (g := fun t => f (a + t) - f (a - t) - 2 * f1 a * t) (g' := fun t => f1 (a + t) + f1 (a - t) - 2 * f1 a) 2 (by simp) (fun t ht => ((((up h1 t ht).sub (dn h1 t ht)).sub ((hasDerivAt_id t).const_mul (2 * f1 a))).congr_deriv (by ring)).hasDerivWithinAt)
      (fun t ht => by refine (b1 t ht).trans (le_of_eq ?_); norm_num; ring)
  have k := b0 e ⟨he.le, le_rfl⟩
  have e1 : (f (a + e) - f (a - e)) / (2 * e) - f1 a = (f (a + e) - f (a - e) - 2 * f1 a * e) / (2 * e) := by field_simp
  rw [e1, abs_div, abs_of_pos (by positivity : 0 < 2 * e), div_le_iff₀ (by positivity)]
  refine k.trans (le_of_eq ?_)
  norm_num
  ring

/-- C125: what a report means.  If the component is three times differentiable along the coordinate with third derivative at most `M` over the two steps, then an entry that is wrong by at least `1/100 + M eps²/6` is
reported, and one that is wrong by less than `1/100 - M eps²/6` is not. -/
theorem C125_verdict (f : (V → ℝ) → V → ℝ) (J : (V → ℝ) → V → V → ℝ) (y : V → ℝ) (r c : V) {f1 f2 f3 : ℝ → ℝ} {M : ℝ}
    (h1 : ∀ s, |s - y c| ≤ eps → HasDerivAt (fun s => f (update y c s) r) (f1 s) s) (h2 : ∀ s, |s - y c| ≤ eps → HasDerivAt f1 (f2 s) s) (h3 : ∀ s, |s - y c| ≤ eps → HasDerivAt f2 (f3 s) s)
    (hM : ∀ s, |s - y c| ≤ eps → |f3 s| ≤ M) :
    (1 / 100 + M * eps ^ 2 / 6 ≤ |J y r c - f1 (y c)| → Reported f J y r c) ∧ (|J y r c - f1 (y c)| < 1 / 100 - M * eps ^ 2 / 6 → ¬ Reported f J y r c) := by
  have e0 : 0 < eps := by norm_num [eps]
  have ins : ∀ s ∈ Set.Icc (y c - eps) (y c + eps), |s - y c| ≤ eps := fun s hs => abs_le.2 ⟨by linarith [hs.1], by linarith [hs.2]⟩
  have k := central e0 (fun s hs => h1 s (ins s hs)) (fun s hs => h2 s (ins s hs)) (fun s hs => h3 s (ins s hs)) (fun s hs => hM s (ins s hs))
  have k' : |num f y r c - f1 (y c)| ≤ M * eps ^ 2 / 6 := k
  rw [reported_iff]
  have t1 := abs_sub_le (J y r c) (num f y r c) (f1 (y c))
  have t2 := abs_sub_le (J y r c) (f1 (y c)) (num f y r c)
  rw [abs_sub_comm (f1 (y c))] at t2
  exact ⟨fun h => by linarith, fun h => not_le.2 (by linarith)⟩

/-- Beside the theorem: a derivative method `sin` with a Jacobian method that is off by `1/50` is reported, with one that is off by `1/200` it is not. -/
example : Reported (fun y (_ : Unit) => Real.sin (y ())) (fun y _ _ => Real.cos (y ()) + 1 / 50) (fun _ => 1) () () ∧ ¬ Reported (fun y (_ : Unit) => Real.sin (y ())) (fun y _ _ => Real.cos (y ()) + 1 / 200) (fun _ => 1) () () := by
  have h : ∀ J : (Unit → ℝ) → Unit → Unit → ℝ, _ := fun J => C125_verdict (fun y (_ : Unit) => Real.sin (y ())) J (fun _ => 1) () () (f1 := Real.cos) (f2 := fun s => -Real.sin s) (f3 := fun s => -Real.cos s) (M := 1)
    (fun s _ => by simpa using Real.hasDerivAt_sin s) (fun s _ => Real.hasDerivAt_cos s) (fun s _ => (Real.hasDerivAt_sin s).neg) (fun s _ => by rw [abs_neg]; exact Real.abs_cos_le_one s)
  refine ⟨(h _).1 ?_, (h _).2 ?_⟩
  · rw [add_sub_cancel_left, abs_of_pos (by norm_num)]; norm_num [eps]
  · rw [add_sub_cancel_left, abs_of_pos (by norm_num)]; norm_num [eps]

end JacCheck

namespace Ode
namespace SinglePhase
open JacCheck Function Complex Phasor Grad

/-- Normal operation: positive DC voltage below the cap, producing PV module, no limit exceeded. -/
structure Normal (p : Par) (i : Inp) (y : V → ℝ) : Prop where
  dc : 0 < y .Vdc
  cap : y .Vdc * p.Vdcbase < p.Vdcmpp_max
  pv : 0 < PV.ipv p.mod i.Sinsol i.Tactual (y .Vdc * p.Vdcbase)
  m : ‖(p.Kp_GCC : ℂ) * ⟨y .uaR, y .uaI⟩ + ⟨y .xaR, y .xaI⟩‖ ≤ p.m_limit
  r : ‖(env1 p i y).ia_ref‖ ≤ p.iref_limit

/-- The angle by which the PLL lags. -/
noncomputable def lag (i : Inp) (y : V → ℝ) : ℝ := i.w * i.t + arg i.va - y .wte

/-- The derivative vector in normal operation, written out. -/
noncomputable def plain (p : Par) (i : Inp) (y : V → ℝ) : V → ℝ
  | .iaR => 1 / p.Lf * (-p.Rf * y .iaR - i.va.re + (p.Kp_GCC * y .uaR + y .xaR) * (y .Vdc / 2)) + (p.Kp_PLL * (‖i.va‖ * Real.sin (lag i y)) + y .xPLL + 2 * Real.pi * 60) / p.wbase * y .iaI
  | .iaI => 1 / p.Lf * (-p.Rf * y .iaI - i.va.im + (p.Kp_GCC * y .uaI + y .xaI) * (y .Vdc / 2)) - (p.Kp_PLL * (‖i.va‖ * Real.sin (lag i y)) + y .xPLL + 2 * Real.pi * 60) / p.wbase * y .iaR
  | .xaR => p.Ki_GCC * y .uaR
  | .xaI => p.Ki_GCC * y .uaI
  | .uaR => p.wp * (-y .uaR + (y .xDC + p.Kp_DC * (i.Vdc_ref - y .Vdc)) - y .iaR)
  | .uaI => p.wp * (-y .uaI + (y .xQ - p.Kp_Q * (i.Q_ref - 1 / 2 * (i.va.im * y .iaR - i.va.re * y .iaI))) - y .iaI)
  | .Vdc => (p.mod.Np * PV.iph p.mod i.Sinsol i.Tactual - p.mod.Np * p.mod.Irs * (Real.exp (PV.coef p.mod i.Tactual * p.Vdcbase * y .Vdc) - 1)) * p.Vdcbase / (p.mod.Sbase * p.C)
      - 1 / 4 * ((p.Kp_GCC * y .uaR + y .xaR) * y .iaR + (p.Kp_GCC * y .uaI + y .xaI) * y .iaI) / p.C
  | .xDC => p.Ki_DC * (i.Vdc_ref - y .Vdc)
  | .xQ => -p.Ki_Q * (i.Q_ref - 1 / 2 * (i.va.im * y .iaR - i.va.re * y .iaI))
  | .xPLL => p.Ki_PLL * (‖i.va‖ * Real.sin (lag i y))
  | .wte => p.Kp_PLL * (‖i.va‖ * Real.sin (lag i y)) + y .xPLL + 2 * Real.pi * 60

theorem rhs_plain (p : Par) (hb : 0 < p.Vdcbase) (i : Inp) (y : V → ℝ) (h : Normal p i y) (r : V) : rhs (env1 p i y) r = plain p i y r := by
  obtain ⟨hV, hcap, hI, hm, hr⟩ := h
  have vd : (pll1 i.va i.w i.t (y .wte)).1 = ‖i.va‖ * Real.sin (lag i y) := by
    rw [C53_pll_input]; rfl
  cases r
  case Vdc =>
    have ppv : ppvOf p i (y .Vdc) = PV.ipv p.mod i.Sinsol i.Tactual (y .Vdc * p.Vdcbase) * (y .Vdc * p.Vdcbase) / p.mod.Sbase := by
      unfold ppvOf PV.ppv
      rw [min_eq_right hcap.le, max_eq_right (by positivity)]
    simp only [rhs, env1, Env.base, sPh_re, vt_re, vt_im, plain, ppv, PV.ipv_eq]
    rw [show PV.coef p.mod i.Tactual * (y .Vdc * p.Vdcbase) = PV.coef p.mod i.Tactual * p.Vdcbase * y .Vdc by ring]
    have h1 : y .Vdc * (y .Vdc)⁻¹ = 1 := mul_inv_cancel₀ hV.ne'
    simp only [div_eq_mul_inv, mul_inv]
    linear_combination ((p.mod.Np * PV.iph p.mod i.Sinsol i.Tactual - p.mod.Np * p.mod.Irs * (Real.exp (PV.coef p.mod i.Tactual * p.Vdcbase * y .Vdc) - 1)) * p.Vdcbase * p.mod.Sbase⁻¹ * p.C⁻¹
      - (1 / 4) * (((p.Kp_GCC * y .uaR + y .xaR) * y .iaR + (p.Kp_GCC * y .uaI + y .xaI) * y .iaI) * p.C⁻¹)) * h1
  case xaR => exact if_neg (not_lt.2 hm)
  case xaI => exact if_neg (not_lt.2 hm)
  case uaR =>
    refine (if_neg (not_lt.2 hm)).trans ?_
    simp only [env1, Env.base, iref_re, plain]
  case uaI =>
    refine (if_neg (not_lt.2 hm)).trans ?_
    simp only [env1, Env.base, iref_im, sPh_im, plain]
  case xDC => exact if_neg (not_lt.2 hr)
  case xQ => 
    refine (if_neg (not_lt.2 hr)).trans ?_
    simp only [env1, Env.base, sPh_im, plain]
  all_goals simp only [rhs, env1, Env.base, vt_re, vt_im, weCalc, vd, plain]

/-- The Jacobian as `jac_ODE_model` returns it on a first call. -/
noncomputable def J1 (p : Par) (i : Inp) (y : V → ℝ) : V → V → ℝ := jac lit1 lit2 (env1 p i y) (fun _ _ => 0)

/-- Relative error of the central difference of a sine. -/
noncomputable def σ : ℝ := Real.sin eps / eps

theorem eps_pos : 0 < eps := by norm_num [eps]

theorem sin_diff (θ : ℝ) : (Real.sin (θ - eps) - Real.sin (θ + eps)) / (2 * eps) = -Real.cos θ * σ := by
  have := eps_pos
  unfold σ
  rw [Real.sin_sub, Real.sin_add]
  field_simp
  ring

theorem cos_code' (i : Inp) (y : V → ℝ) : -Real.cos (i.w * i.t + arg i.va - Real.pi / 2) * Real.sin (y .wte) + Real.cos (i.w * i.t + arg i.va - Real.pi / 2 - Real.pi / 2) * Real.cos (y .wte) = -Real.cos (lag i y) :=
  cos_code _ _

set_option linter.unusedSimpArgs false in
set_option linter.unusedTactic false in
set_option linter.unreachableTactic false in
set_option maxHeartbeats 1000000 in
/-- Every entry is exact, except in the column of the PLL angle and the diagonal entry of the DC voltage. -/
theorem num_plain (p : Par) (i : Inp) (y : V → ℝ) (h : Normal p i y) (r c : V) (hc : c ≠ .wte) (hrc : ¬(r = .Vdc ∧ c = .Vdc)) : num (plain p i) y r c = J1 p i y r c := by
  have e0 : eps ≠ 0 := eps_pos.ne'
  have vd : (pll1 i.va i.w i.t (y .wte)).1 = ‖i.va‖ * Real.sin (lag i y) := by rw [C53_pll_input]; rfl
  have hm : ¬ ‖(((env1 p i y).Kp_GCC : ℝ) : ℂ) * (env1 p i y).ua + (env1 p i y).xa‖ > (env1 p i y).m_limit := not_lt.2 h.m
  have hr : ¬ ‖((((env1 p i y).xDC + ((env1 p i y).Kp_DC * ((env1 p i y).Vdc_ref - (env1 p i y).Vdc))) : ℝ) : ℂ) + (Complex.I * ((((env1 p i y).xQ - ((env1 p i y).Kp_Q * ((env1 p i y).Q_ref - ((env1 p i y).S_PCC).im))) : ℝ) : ℂ))‖
    > (env1 p i y).iref_limit := not_lt.2 h.r
  have key : ∀ a b : ℝ, b * (2 * eps) = a → a / (2 * eps) = b := fun a b h => by rw [← h]; field_simp
  unfold num
  apply key
  cases r
  case iaR =>
    cases c <;> first
      | exact absurd rfl hc
      | exact absurd ⟨rfl, rfl⟩ hrc
      | (simp only [plain, lag, J1, jac, jac_iaR, if_neg hm, if_neg hr, update, reduceCtorEq, eq_rec_constant, dite_true, dite_false, dite_eq_ite, if_true, if_false]
         simp only [env1, Env.base, vd, lag]; ring)
      | (simp only [plain, lag, J1, jac, jac_iaR, if_neg hm, if_neg hr, update, reduceCtorEq, eq_rec_constant, dite_true, dite_false, dite_eq_ite, if_true, if_false]; ring)
  case iaI =>
    cases c <;> first
      | exact absurd rfl hc
      | exact absurd ⟨rfl, rfl⟩ hrc
      | (simp only [plain, lag, J1, jac, jac_iaI, if_neg hm, if_neg hr, update, reduceCtorEq, eq_rec_constant, dite_true, dite_false, dite_eq_ite, if_true, if_false]
         simp only [env1, Env.base, vd, lag]; ring)
      | (simp only [plain, lag, J1, jac, jac_iaI, if_neg hm, if_neg hr, update, reduceCtorEq, eq_rec_constant, dite_true, dite_false, dite_eq_ite, if_true, if_false]; ring)
  case xaR =>
    cases c <;> first
      | exact absurd rfl hc
      | exact absurd ⟨rfl, rfl⟩ hrc
      | (simp only [plain, lag, J1, jac, jac_xaR, if_neg hm, if_neg hr, update, reduceCtorEq, eq_rec_constant, dite_true, dite_false, dite_eq_ite, if_true, if_false]
         simp only [env1, Env.base, vd, lag]; ring)
      | (simp only [plain, lag, J1, jac, jac_xaR, if_neg hm, if_neg hr, update, reduceCtorEq, eq_rec_constant, dite_true, dite_false, dite_eq_ite, if_true, if_false]; ring)
  case xaI =>
    cases c <;> first
      | exact absurd rfl hc
      | exact absurd ⟨rfl, rfl⟩ hrc
      | (simp only [plain, lag, J1, jac, jac_xaI, if_neg hm, if_neg hr, update, reduceCtorEq, eq_rec_constant, dite_true, dite_false, dite_eq_ite, if_true, if_false]
         simp only [env1, Env.base, vd, lag]; ring)
      | (simp only [plain, lag, J1, jac, jac_xaI, if_neg hm, if_neg hr, update, reduceCtorEq, eq_rec_constant, dite_true, dite_false, dite_eq_ite, if_true, if_false]; ring)
  case uaR =>
    cases c <;> first
      | exact absurd rfl hc
      | exact absurd ⟨rfl, rfl⟩ hrc
      | (simp only [plain, lag, J1, jac, jac_uaR, if_neg hm, if_neg hr, update, reduceCtorEq, eq_rec_constant, dite_true, dite_false, dite_eq_ite, if_true, if_false]
         simp only [env1, Env.base, vd, lag]; ring)
      | (simp only [plain, lag, J1, jac, jac_uaR, if_neg hm, if_neg hr, update, reduceCtorEq, eq_rec_constant, dite_true, dite_false, dite_eq_ite, if_true, if_false]; ring)
  case uaI =>
    cases c <;> first
      | exact absurd rfl hc
      | exact absurd ⟨rfl, rfl⟩ hrc
      | (simp only [plain, lag, J1, jac, jac_uaI, if_neg hm, if_neg hr, update, reduceCtorEq, eq_rec_constant, dite_true, dite_false, dite_eq_ite, if_true, if_false]
         simp only [env1, Env.base, vd, lag]; ring)
      | (simp only [plain, lag, J1, jac, jac_uaI, if_neg hm, if_neg hr, update, reduceCtorEq, eq_rec_constant, dite_true, dite_false, dite_eq_ite, if_true, if_false]; ring)
  case Vdc =>
    cases c <;> first
      | exact absurd rfl hc
      | exact absurd ⟨rfl, rfl⟩ hrc
      | (simp only [plain, lag, J1, jac, jac_Vdc, if_neg hm, if_neg hr, update, reduceCtorEq, eq_rec_constant, dite_true, dite_false, dite_eq_ite, if_true, if_false]
         simp only [env1, Env.base, vd, lag]; ring)
      | (simp only [plain, lag, J1, jac, jac_Vdc, if_neg hm, if_neg hr, update, reduceCtorEq, eq_rec_constant, dite_true, dite_false, dite_eq_ite, if_true, if_false]; ring)
  case xDC =>
    cases c <;> first
      | exact absurd rfl hc
      | exact absurd ⟨rfl, rfl⟩ hrc
      | (simp only [plain, lag, J1, jac, jac_xDC, if_neg hm, if_neg hr, update, reduceCtorEq, eq_rec_constant, dite_true, dite_false, dite_eq_ite, if_true, if_false]
         simp only [env1, Env.base, vd, lag]; ring)
      | (simp only [plain, lag, J1, jac, jac_xDC, if_neg hm, if_neg hr, update, reduceCtorEq, eq_rec_constant, dite_true, dite_false, dite_eq_ite, if_true, if_false]; ring)
  case xQ =>
    cases c <;> first
      | exact absurd rfl hc
      | exact absurd ⟨rfl, rfl⟩ hrc
      | (simp only [plain, lag, J1, jac, jac_xQ, if_neg hm, if_neg hr, update, reduceCtorEq, eq_rec_constant, dite_true, dite_false, dite_eq_ite, if_true, if_false]
         simp only [env1, Env.base, vd, lag]; ring)
      | (simp only [plain, lag, J1, jac, jac_xQ, if_neg hm, if_neg hr, update, reduceCtorEq, eq_rec_constant, dite_true, dite_false, dite_eq_ite, if_true, if_false]; ring)
  case xPLL =>
    cases c <;> first
      | exact absurd rfl hc
      | exact absurd ⟨rfl, rfl⟩ hrc
      | (simp only [plain, lag, J1, jac, jac_xPLL, if_neg hm, if_neg hr, update, reduceCtorEq, eq_rec_constant, dite_true, dite_false, dite_eq_ite, if_true, if_false]
         simp only [env1, Env.base, vd, lag]; ring)
      | (simp only [plain, lag, J1, jac, jac_xPLL, if_neg hm, if_neg hr, update, reduceCtorEq, eq_rec_constant, dite_true, dite_false, dite_eq_ite, if_true, if_false]; ring)
  case wte =>
    cases c <;> first
      | exact absurd rfl hc
      | exact absurd ⟨rfl, rfl⟩ hrc
      | (simp only [plain, lag, J1, jac, jac_wte, if_neg hm, if_neg hr, update, reduceCtorEq, eq_rec_constant, dite_true, dite_false, dite_eq_ite, if_true, if_false]
         simp only [env1, Env.base, vd, lag]; ring)
      | (simp only [plain, lag, J1, jac, jac_wte, if_neg hm, if_neg hr, update, reduceCtorEq, eq_rec_constant, dite_true, dite_false, dite_eq_ite, if_true, if_false]; ring)

theorem σ_lt : σ < 1 := by
  unfold σ
  rw [div_lt_one eps_pos]
  exact Real.sin_lt eps_pos

theorem σ_gt : 1 - eps ^ 2 / 4 < σ := by
  have h := Real.sin_gt_sub_cube eps_pos
  have e3 : 0 < eps ^ 3 := pow_pos eps_pos 3
  unfold σ
  rw [lt_div_iff₀ eps_pos]
  have : (1 - eps ^ 2 / 4) * eps = eps - eps ^ 3 / 4 := by ring
  linarith

/-- The column of the PLL angle: right up to the relative error of the central difference, except for the sign in one row. -/
theorem num_wte (p : Par) (i : Inp) (y : V → ℝ) (r : V) : num (plain p i) y r .wte = (if r = .iaI then -1 else 1) * J1 p i y r .wte * σ := by
  have e0 : eps ≠ 0 := eps_pos.ne'
  have d := sin_diff (lag i y)
  have d' : Real.sin (lag i y - eps) - Real.sin (lag i y + eps) = -Real.cos (lag i y) * σ * (2 * eps) := by
    rw [← d]; field_simp
  have l1 : lag i (update y .wte (y .wte + eps)) = lag i y - eps := by unfold lag; rw [update_self]; ring
  have l2 : lag i (update y .wte (y .wte - eps)) = lag i y + eps := by unfold lag; rw [update_self]; ring
  have key : ∀ a b : ℝ, b * (2 * eps) = a → a / (2 * eps) = b := fun a b h => by rw [← h]; field_simp
  have cc := cos_code' i y
  unfold num
  apply key
  cases r
  case iaR =>
    simp only [plain, l1, l2, update, reduceCtorEq, dite_false, if_false, J1, jac, jac_iaR]
    simp only [env1, Env.base, cc]
    linear_combination (-(p.Kp_PLL * ‖i.va‖ / p.wbase * y .iaI)) * d'
  case iaI =>
    simp only [plain, l1, l2, update, reduceCtorEq, dite_false, if_true, J1, jac, jac_iaI]
    simp only [env1, Env.base, cc]
    linear_combination (p.Kp_PLL * ‖i.va‖ / p.wbase * y .iaR) * d'
  case xPLL =>
    simp only [plain, l1, l2, reduceCtorEq, if_false, J1, jac, jac_xPLL]
    simp only [env1, Env.base, cc]
    linear_combination (-(p.Ki_PLL * ‖i.va‖)) * d'
  case wte =>
    simp only [plain, l1, l2, update, reduceCtorEq, dite_false, if_false, J1, jac, jac_wte]
    simp only [env1, Env.base, cc]
    linear_combination (-(p.Kp_PLL * ‖i.va‖)) * d'
  all_goals simp only [plain, update, reduceCtorEq, dite_false, if_false, J1, jac, jac_xaR, jac_xaI, jac_uaR, jac_uaI, jac_Vdc, jac_xDC, jac_xQ]; ring

/-- The diagonal entry of the DC voltage. -/
theorem num_VV (p : Par) (i : Inp) (y : V → ℝ) (hκ : |PV.coef p.mod i.Tactual * p.Vdcbase| ≤ 100) (hJ : |J1 p i y .Vdc .Vdc| ≤ 1000000) : |J1 p i y .Vdc .Vdc - num (plain p i) y .Vdc .Vdc| < 1 / 100 := by
  set κ := PV.coef p.mod i.Tactual * p.Vdcbase with eκ
  set A := -(p.mod.Np * p.mod.Irs * p.Vdcbase / (p.mod.Sbase * p.C)) with eA
  have eJ : J1 p i y .Vdc .Vdc = A * κ * Real.exp (κ * y .Vdc) := by
    simp only [J1, jac, jac_Vdc]
    simp only [env1, Env.base, eA, eκ, PV.coef]
    rw [show p.mod.q * y .Vdc * p.Vdcbase / (p.mod.k * p.mod.A * p.mod.Ns * i.Tactual) = p.mod.q / (p.mod.k * i.Tactual * p.mod.A * p.mod.Ns) * p.Vdcbase * y .Vdc by ring]
    ring
  have en : num (plain p i) y .Vdc .Vdc = (A * Real.exp (κ * (y .Vdc + eps)) - A * Real.exp (κ * (y .Vdc - eps))) / (2 * eps) := by
    unfold num
    congr 1
    simp only [plain, update, reduceCtorEq, dite_false, eq_rec_constant, dite_true]
    rw [eA]; ring
  have D : ∀ (B s : ℝ), HasDerivAt (fun s => B * Real.exp (κ * s)) (B * κ * Real.exp (κ * s)) s := by
    intro B s
    have := (((hasDerivAt_id s).const_mul κ).exp).const_mul B
    refine this.congr_deriv ?_
    simp only [id]; ring
  have k := central (f := fun s => A * Real.exp (κ * s)) (f1 := fun s => A * κ * Real.exp (κ * s)) (f2 := fun s => A * κ * κ * Real.exp (κ * s)) (f3 := fun s => A * κ * κ * κ * Real.exp (κ * s)) (a := y .Vdc) (e := eps)
    (M := 20000000000) eps_pos (fun s _ => D A s) (fun s _ => D (A * κ) s) (fun s _ => D (A * κ * κ) s) (fun s hs => ?_)
  · rw [← en, ← eJ, abs_sub_comm] at k
    refine k.trans_lt ?_
    norm_num [eps]
  · have e1 : A * κ * κ * κ * Real.exp (κ * s) = J1 p i y .Vdc .Vdc * (κ * κ) * Real.exp (κ * (s - y .Vdc)) := by
      rw [eJ, show κ * s = κ * y .Vdc + κ * (s - y .Vdc) by ring, Real.exp_add]; ring
    have e2 : κ * (s - y .Vdc) ≤ 1 / 10000 := by
      refine (le_abs_self _).trans ?_
      rw [abs_mul]
      have : |s - y .Vdc| ≤ 1 / 1000000 := abs_le.2 ⟨by have := hs.1; unfold eps at this; linarith, by have := hs.2; unfold eps at this; linarith⟩
      calc |κ| * |s - y .Vdc| ≤ 100 * (1 / 1000000) := by gcongr
        _ = _ := by norm_num
    have e3 : Real.exp (κ * (s - y .Vdc)) ≤ 2 := by
      refine (Real.exp_le_exp.2 e2).trans ?_
      have := Real.add_one_le_exp (-(1 / 10000) : ℝ)
      rw [Real.exp_neg] at this
      have q := Real.exp_pos (1 / 10000)
      have : 1 / 2 ≤ (Real.exp (1 / 10000))⁻¹ := by linarith
      have := (le_inv_comm₀ (by norm_num) q).1 this
      linarith
    rw [e1, abs_mul, abs_mul, abs_mul, abs_of_pos (Real.exp_pos _)]
    calc |J1 p i y .Vdc .Vdc| * (|κ| * |κ|) * Real.exp (κ * (s - y .Vdc)) ≤ 1000000 * (100 * 100) * 2 := by gcongr
      _ = _ := by norm_num

/-- Magnitudes that keep the error of the central difference far below the tolerance of the check. -/
structure Moderate (p : Par) (i : Inp) (y : V → ℝ) : Prop where
  pv : |PV.coef p.mod i.Tactual * p.Vdcbase| ≤ 100
  slope : |J1 p i y .Vdc .Vdc| ≤ 1000000
  angle : ∀ r, |J1 p i y r .wte| ≤ 1000000

/-- C125 for the single-phase model in normal operation (also under the steps of the check): the check reports the entry (iaI, wte), whose sign is wrong, exactly when the in-phase current and the PLL gain make it visible,
and nothing else. -/
theorem C125_single (p : Par) (hb : 0 < p.Vdcbase) (i : Inp) (y : V → ℝ) (hn : ∀ c s, |s - y c| ≤ eps → Normal p i (update y c s)) (hm : Moderate p i y) (r c : V) :
    Reported (fun z => rhs (env1 p i z)) (J1 p i) y r c ↔ r = .iaI ∧ c = .wte ∧ 1 / 100 ≤ |p.Kp_PLL * y .iaR * ‖i.va‖ / p.wbase * Real.cos (lag i y)| * (1 + Real.sin eps / eps) := by
  have n0 : Normal p i y := by
    have := hn .wte (y .wte) (by rw [sub_self, abs_zero]; exact eps_pos.le)
    rwa [update_eq_self] at this
  have en : num (fun z => rhs (env1 p i z)) y r c = num (plain p i) y r c := by
    unfold num
    beta_reduce
    rw [rhs_plain p hb i _ (hn c _ (by rw [add_sub_cancel_left, abs_of_pos eps_pos])), rhs_plain p hb i _ (hn c _ (by rw [sub_sub_cancel_left, abs_neg, abs_of_pos eps_pos]))]
  rw [reported_iff, en]
  by_cases hc : c = .wte
  · subst hc
    rw [num_wte]
    by_cases hr : r = .iaI
    · subst hr
      have e1 : J1 p i y .iaI .wte = -(p.Kp_PLL * y .iaR * ‖i.va‖ / p.wbase * Real.cos (lag i y)) := by
        simp only [J1, jac, jac_iaI]
        simp only [env1, Env.base, cos_code' i y]
        ring
      have e2 : J1 p i y .iaI .wte - (if (V.iaI : V) = .iaI then -1 else 1) * J1 p i y .iaI .wte * σ = J1 p i y .iaI .wte * (1 + σ) := by
        rw [if_pos rfl]; ring
      have s0 : 0 < 1 + σ := by
        have := σ_gt
        have e : eps ^ 2 / 4 ≤ 1 := by norm_num [eps]
        linarith
      rw [e2, abs_mul, abs_of_pos s0, e1, abs_neg]
      exact ⟨fun h => ⟨rfl, rfl, h⟩, fun h => h.2.2⟩
    · have e2 : J1 p i y r .wte - (if r = .iaI then -1 else 1) * J1 p i y r .wte * σ = J1 p i y r .wte * (1 - σ) := by
        rw [if_neg hr]; ring
      have a := σ_lt
      have b := σ_gt
      refine ⟨fun h => ?_, fun h => absurd h.1 hr⟩
      exfalso
      rw [e2, abs_mul, abs_of_pos (show (0 : ℝ) < 1 - σ by linarith)] at h
      have : |J1 p i y r .wte| * (1 - σ) ≤ 1000000 * (eps ^ 2 / 4) := by
        have := hm.angle r
        gcongr
        linarith
      have e : 1000000 * (eps ^ 2 / 4) < 1 / 100 := by norm_num [eps]
      linarith
  · refine ⟨fun h => ?_, fun h => absurd h.2.1 hc⟩
    exfalso
    by_cases hrc : r = .Vdc ∧ c = .Vdc
    · obtain ⟨rfl, rfl⟩ := hrc
      exact absurd (num_VV p i y hm.pv hm.slope) (not_lt.2 h)
    · rw [num_plain p i y n0 r c hc hrc, sub_self, abs_zero] at h
      norm_num at h

/-- If nothing is reported the entry may still be wrong: the check passes at every state whose in-phase current is small, whatever the sign of that entry. -/
theorem C125_blind (p : Par) (hb : 0 < p.Vdcbase) (i : Inp) (y : V → ℝ) (hn : ∀ c s, |s - y c| ≤ eps → Normal p i (update y c s)) (hm : Moderate p i y)
    (hs : |p.Kp_PLL * y .iaR * ‖i.va‖ / p.wbase| < 1 / 200) : Passes (fun z => rhs (env1 p i z)) (J1 p i) y := by
  intro r c h
  obtain ⟨-, -, h⟩ := (C125_single p hb i y hn hm r c).1 h
  have a := σ_lt
  have b := σ_gt
  have e : eps ^ 2 / 4 ≤ 1 := by norm_num [eps]
  change 1 / 100 ≤ _ * (1 + σ) at h
  rw [abs_mul] at h
  have c1 := Real.abs_cos_le_one (lag i y)
  have c2 : |p.Kp_PLL * y .iaR * ‖i.va‖ / p.wbase| * |Real.cos (lag i y)| ≤ 1 / 200 := by
    calc _ ≤ (1 / 200 : ℝ) * 1 := mul_le_mul hs.le c1 (abs_nonneg _) (by norm_num)
      _ = _ := by norm_num
  have c0 : 0 ≤ |p.Kp_PLL * y .iaR * ‖i.va‖ / p.wbase| * |Real.cos (lag i y)| := by positivity
  have : |p.Kp_PLL * y .iaR * ‖i.va‖ / p.wbase| * |Real.cos (lag i y)| * (1 + σ) < 1 / 200 * 2 := by
    calc _ ≤ 1 / 200 * (1 + σ) := mul_le_mul_of_nonneg_right c2 (by linarith)
      _ < 1 / 200 * 2 := by linarith
  linarith

/-- The example state with in-phase current `a`. -/
noncomputable def exAt (a : ℝ) : V → ℝ := update exState .iaR a

theorem exBox {a : ℝ} (z : V → ℝ) (hz : ∀ c, |z c - exAt a c| ≤ eps) : Normal exPar exInp z := by
  have B : ∀ c, exAt a c - 1 / 1000000 ≤ z c ∧ z c ≤ exAt a c + 1 / 1000000 := fun c => by
    have := abs_le.1 (hz c); unfold eps at this; exact ⟨by linarith [this.1], by linarith [this.2]⟩
  have bi := B .iaI; have bR := B .xaR; have bI := B .xaI; have uR := B .uaR; have uI := B .uaI; have bV := B .Vdc; have bD := B .xDC; have bQ := B .xQ
  simp only [exAt, update, reduceCtorEq, dite_false, exState] at bi bR bI uR uI bV bD bQ
  refine ⟨by linarith, ?_, ?_, ?_, ?_⟩
  · norm_num [exPar]; linarith
  · have h0 : PV.coef PV.exMod (29815 / 100) * (z .Vdc * 500) ≤ 16 := by
      have : z .Vdc * 500 ≤ 551 := by linarith
      calc _ ≤ PV.coef PV.exMod (29815 / 100) * 551 := by
            refine mul_le_mul_of_nonneg_left this ?_
            norm_num [PV.coef, PV.exMod]
        _ ≤ 16 := by norm_num [PV.coef, PV.exMod]
    have h1 := Real.exp_le_exp.2 h0
    have h2 : Real.exp 16 ≤ (2.7182818286 : ℝ) ^ 16 := by
      have : Real.exp 16 = Real.exp 1 ^ 16 := by rw [← Real.exp_nat_mul]; norm_num
      rw [this]
      exact pow_le_pow_left₀ (Real.exp_pos 1).le Real.exp_one_lt_d9.le 16
    have h3 := h1.trans h2
    rw [PV.ipv_eq]
    simp only [exPar, exInp]
    generalize Real.exp _ = E at *
    norm_num [PV.iph, PV.exMod] at *
    linarith
  · have : exPar.m_limit = 1 := rfl
    rw [this]
    have hs : ‖(exPar.Kp_GCC : ℂ) * ⟨z .uaR, z .uaI⟩ + ⟨z .xaR, z .xaI⟩‖ ^ 2 ≤ 1 ^ 2 := by
      rw [← normSq_eq_norm_sq, normSq_apply]
      simp only [add_re, add_im, mul_re, mul_im, Complex.ofReal_re, Complex.ofReal_im, zero_mul, sub_zero, add_zero, exPar]
      have h1 : |12 * z .uaR + z .xaR| ≤ 91 / 100 := abs_le.2 ⟨by linarith, by linarith⟩
      have h2 : |12 * z .uaI + z .xaI| ≤ 11 / 100 := abs_le.2 ⟨by linarith, by linarith⟩
      have q1 := mul_self_le_mul_self (abs_nonneg _) h1
      have q2 := mul_self_le_mul_self (abs_nonneg _) h2
      rw [abs_mul_abs_self] at q1 q2
      linarith
    exact (pow_le_pow_iff_left₀ (norm_nonneg _) zero_le_one two_ne_zero).1 hs
  · have : exPar.iref_limit = 3 / 2 := rfl
    rw [this]
    refine (Complex.norm_le_abs_re_add_abs_im _).trans ?_
    simp only [env1, iref_re, iref_im, sPh_im, exPar, exInp]
    have h1 : |z .xDC + -4 * (11 / 10 - z .Vdc)| ≤ 9 / 10 := abs_le.2 ⟨by linarith, by linarith⟩
    have h2 : |z .xQ - 1 / 5 * (0 - 1 / 2 * ((1 / 2 : ℂ).im * z .iaR - (1 / 2 : ℂ).re * z .iaI))| ≤ 1 / 10 := by
      norm_num
      exact abs_le.2 ⟨by linarith, by linarith⟩
    linarith

theorem ex_hn (a : ℝ) : ∀ c s, |s - exAt a c| ≤ eps → Normal exPar exInp (update (exAt a) c s) := by
  intro c s hs
  refine exBox (a := a) _ fun d => ?_
  by_cases h : d = c
  · subst h; rwa [update_self]
  · rw [update_of_ne h, sub_self, abs_zero]; exact eps_pos.le

theorem ex_moderate {a : ℝ} (ha : |a| ≤ 1) : Moderate exPar exInp (exAt a) := by
  have n : ‖exInp.va‖ = 1 / 2 := by norm_num [exInp]
  refine ⟨?_, ?_, fun r => ?_⟩
  · rw [abs_of_nonneg] <;> norm_num [PV.coef, exPar, exInp, PV.exMod]
  · have h0 : PV.exMod.q * (11 / 10) * 500 / (PV.exMod.k * PV.exMod.A * PV.exMod.Ns * (29815 / 100)) ≤ 16 := by norm_num [PV.exMod]
    have h1 := Real.exp_le_exp.2 h0
    have h2 : Real.exp 16 ≤ (2.7182818286 : ℝ) ^ 16 := by
      have : Real.exp 16 = Real.exp 1 ^ 16 := by rw [← Real.exp_nat_mul]; norm_num
      rw [this]
      exact pow_le_pow_left₀ (Real.exp_pos 1).le Real.exp_one_lt_d9.le 16
    have h3 := h1.trans h2
    simp only [J1, jac, jac_Vdc]
    simp only [env1, Env.base, exAt, update, reduceCtorEq, dite_false, exState, exPar, exInp]
    have hp := Real.exp_pos (PV.exMod.q * (11 / 10) * 500 / (PV.exMod.k * PV.exMod.A * PV.exMod.Ns * (29815 / 100)))
    generalize Real.exp _ = E at *
    rw [abs_mul, abs_of_pos hp]
    refine (mul_le_mul_of_nonneg_left h3 (abs_nonneg _)).trans ?_
    rw [abs_div, abs_neg]
    norm_num [PV.exMod, abs_of_pos]
  · have cc := Real.abs_cos_le_one (lag exInp (exAt a))
    have ai : |exAt a .iaR| ≤ 1 := by simpa [exAt] using ha
    have ci := cos_code' exInp (exAt a)
    cases r
    case iaR =>
      simp only [J1, jac, jac_iaR]
      simp only [env1, Env.base, ci, n, exPar]
      rw [abs_mul, abs_neg]
      refine (mul_le_mul_of_nonneg_left cc (abs_nonneg _)).trans ?_
      simp only [exAt, update, reduceCtorEq, dite_false, exState]
      norm_num [abs_of_pos]
    case iaI =>
      simp only [J1, jac, jac_iaI]
      simp only [env1, Env.base, ci, n, exPar]
      rw [abs_mul, abs_neg]
      refine (mul_le_mul_of_nonneg_left cc (abs_nonneg _)).trans ?_
      rw [mul_one, show 180 * exAt a .iaR * (1 / 2) / 377 = exAt a .iaR * (90 / 377) by ring, abs_mul]
      have : |(90 / 377 : ℝ)| ≤ 1 := by norm_num [abs_of_pos]
      calc _ ≤ (1 : ℝ) * 1 := mul_le_mul ai this (abs_nonneg _) (by norm_num)
        _ ≤ _ := by norm_num
    case xPLL =>
      simp only [J1, jac, jac_xPLL]
      simp only [env1, Env.base, ci, n, exPar]
      rw [abs_mul, abs_neg]
      refine (mul_le_mul_of_nonneg_left cc (abs_nonneg _)).trans ?_
      norm_num [abs_of_pos]
    case wte =>
      simp only [J1, jac, jac_wte]
      simp only [env1, Env.base, ci, n, exPar]
      rw [abs_mul, abs_neg]
      refine (mul_le_mul_of_nonneg_left cc (abs_nonneg _)).trans ?_
      norm_num [abs_of_pos]
    all_goals simp only [J1, jac, jac_xaR, jac_xaI, jac_uaR, jac_uaI, jac_Vdc, jac_xDC, jac_xQ]; norm_num

theorem ex_lag (a : ℝ) : lag exInp (exAt a) = -(1 / 10) := by
  have : arg exInp.va = 0 := by
    have : exInp.va = ((1/2 : ℝ) : ℂ) := by norm_num [exInp]
    rw [this]; exact arg_ofReal_of_nonneg (by norm_num)
  unfold lag
  rw [this]
  simp only [exAt, update, reduceCtorEq, dite_false, exState, exInp]
  norm_num

/-- Beside the theorem: at a rated current the wrong entry is reported, alone. -/
example (r c : V) : Reported (fun z => rhs (env1 exPar exInp z)) (J1 exPar exInp) (exAt (4 / 5)) r c ↔ r = .iaI ∧ c = .wte := by
  have ha : |(4 / 5 : ℝ)| ≤ 1 := by norm_num [abs_of_pos]
  rw [C125_single exPar (by norm_num [exPar]) exInp _ (ex_hn _) (ex_moderate ha)]
  refine ⟨fun h => ⟨h.1, h.2.1⟩, fun h => ⟨h.1, h.2, ?_⟩⟩
  have n : ‖exInp.va‖ = 1 / 2 := by norm_num [exInp]
  have hc := Real.one_sub_sq_div_two_le_cos (x := -(1 / 10))
  have b := σ_gt
  have e : eps ^ 2 / 4 ≤ 1 := by norm_num [eps]
  change _ ≤ _ * (1 + σ)
  rw [ex_lag, n]
  have e1 : exAt (4 / 5) .iaR = 4 / 5 := by simp [exAt]
  rw [e1]
  have k : (1 / 10 : ℝ) ≤ |exPar.Kp_PLL * (4 / 5) * (1 / 2) / exPar.wbase * Real.cos (-(1 / 10))| := by
    refine le_trans ?_ (le_abs_self _)
    norm_num [exPar] at hc ⊢
    linarith
  have : (1 / 10 : ℝ) * 1 ≤ |exPar.Kp_PLL * (4 / 5) * (1 / 2) / exPar.wbase * Real.cos (-(1 / 10))| * (1 + σ) := mul_le_mul k (by linarith) zero_le_one (abs_nonneg _)
  linarith

/-- … while at 1 % of it the check passes, although the entry is still wrong there. -/
example : Passes (fun z => rhs (env1 exPar exInp z)) (J1 exPar exInp) (exAt (1 / 100)) ∧
    ¬ HasDerivAt (fun s => rhs (env1 exPar exInp (update (exAt (1 / 100)) .wte s)) .iaI) (J1 exPar exInp (exAt (1 / 100)) .iaI .wte) (exAt (1 / 100) .wte) := by
  have ha : |(1 / 100 : ℝ)| ≤ 1 := by norm_num [abs_of_pos]
  have n : ‖exInp.va‖ = 1 / 2 := by norm_num [exInp]
  have e1 : exAt (1 / 100) .iaR = 1 / 100 := by simp [exAt]
  refine ⟨C125_blind exPar (by norm_num [exPar]) exInp _ (ex_hn _) (ex_moderate ha) ?_, C58_wrong_entry _ _ _ (by norm_num [exPar]) (by norm_num [exPar]) ?_ ?_ ?_⟩
  · rw [n, e1, abs_of_pos] <;> norm_num [exPar]
  · rw [e1]; norm_num
  · norm_num [exInp]
  · change Real.cos (lag exInp (exAt (1 / 100))) ≠ 0
    rw [ex_lag]
    have hc := Real.one_sub_sq_div_two_le_cos (x := -(1 / 10))
    norm_num at hc ⊢
    intro h; rw [h] at hc; norm_num at hc

end SinglePhase
end Ode
end PvDer
