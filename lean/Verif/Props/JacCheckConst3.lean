import Verif.Props.JacCheckThree
import Verif.Props.JacConstVdc3

/-!
# C125 for the constant-Vdc three-phase class: what the self-check reports, exactly
-/

set_option linter.unusedSimpArgs false
set_option linter.unusedTactic false
set_option linter.unreachableTactic false

namespace PvDer
namespace Ode
namespace ThreePhaseConstantVdc
open JacCheck Function Complex Phasor Grad

/-- Normal operation: no limit reached. -/
structure Normal (p : Par) (i : Inp) (y : V → ℝ) : Prop where
  ma : ‖(p.Kp_GCC : ℂ) * ⟨y .uaR, y .uaI⟩ + ⟨y .xaR, y .xaI⟩‖ < p.m_limit
  mb : ‖(p.Kp_GCC : ℂ) * ⟨y .ubR, y .ubI⟩ + ⟨y .xbR, y .xbI⟩‖ < p.m_limit
  mc : ‖(p.Kp_GCC : ℂ) * ⟨y .ucR, y .ucI⟩ + ⟨y .xcR, y .xcI⟩‖ < p.m_limit
  r : ‖(envC3 p i y).ia_ref‖ < p.iref_limit

theorem Normal.regular {p : Par} {i : Inp} {y : V → ℝ} (h : Normal p i y) : Regular p i y :=
  ⟨⟨h.ma.ne, fun h' => absurd h' (not_lt.2 h.ma.le)⟩, ⟨h.mb.ne, fun h' => absurd h' (not_lt.2 h.mb.le)⟩, ⟨h.mc.ne, fun h' => absurd h' (not_lt.2 h.mc.le)⟩,
    h.r.ne, fun h' => absurd h' (not_lt.2 h.r.le)⟩

/-- The Jacobian as `jac_ODE_model` returns it on a first call. -/
noncomputable def J1 (p : Par) (i : Inp) (y : V → ℝ) : V → V → ℝ := jac lit1 lit2 (envC3 p i y) (fun _ _ => 0)

theorem aw_not {n lim f x g : ℝ} (h : ¬ n > lim) : awEntry n lim f x g = g := if_neg h

theorem not_sat {p : Par} {i : Inp} {y : V → ℝ} (h : Normal p i y) :
    (¬ ‖(((envC3 p i y).Kp_GCC : ℝ) : ℂ) * (envC3 p i y).ua + (envC3 p i y).xa‖ > (envC3 p i y).m_limit) ∧
    (¬ ‖(((envC3 p i y).Kp_GCC : ℝ) : ℂ) * (envC3 p i y).ub + (envC3 p i y).xb‖ > (envC3 p i y).m_limit) ∧
    (¬ ‖(((envC3 p i y).Kp_GCC : ℝ) : ℂ) * (envC3 p i y).uc + (envC3 p i y).xc‖ > (envC3 p i y).m_limit) ∧
    (¬ ‖(envC3 p i y).ia_ref‖ > (envC3 p i y).iref_limit) := ⟨not_lt.2 h.ma.le, not_lt.2 h.mb.le, not_lt.2 h.mc.le, not_lt.2 h.r.le⟩

set_option maxHeartbeats 40000000 in
/-- Outside the PLL column an entry does not depend on the state of its own column. -/
theorem fixed_inv (p : Par) (i : Inp) (y : V → ℝ) (s : ℝ) (r c : V) (h0 : Normal p i y) (h1 : Normal p i (update y c s)) (hc : c ≠ .wte) :
    fixed (envC3 p i (update y c s)) r c = fixed (envC3 p i y) r c := by
  obtain ⟨a0, b0, c0, r0⟩ := not_sat h0
  obtain ⟨a1, b1, c1, r1⟩ := not_sat h1
  clear h0 h1
  generalize hz : update y c s = z at *
  have hd : ∀ d, d ≠ c → z d = y d := fun d hd => by rw [← hz, update_of_ne hd]
  clear hz
  cases r <;> simp only [fixed, aw_not a0, aw_not b0, aw_not c0, aw_not r0, aw_not a1, aw_not b1, aw_not c1, aw_not r1] <;> cases c <;> first
    | exact absurd rfl hc
    | rfl
    | (simp only [fixed, dRefR, dRefI, dP, dQ, jac, jac_iaR, jac_iaI, jac_ibR, jac_ibI, jac_icR, jac_icI, jac_xPLL, jac_wte]
       simp only [envC3, Env.base, vt_re, vt_im]
       simp [hd]; done)
    | (simp only [fixed, dRefR, dRefI, dP, dQ, jac, jac_xaR, jac_xaI, jac_xbR, jac_xbI, jac_xcR, jac_xcI, if_neg a0, if_neg b0, if_neg c0, if_neg a1, if_neg b1, if_neg c1]
       rfl)

/-- The factor with which the PLL angle enters a row. -/
noncomputable def K (p : Par) (y : V → ℝ) : V → ℝ
  | .iaR => p.Kp_PLL * y .iaI / p.wbase
  | .iaI => -(p.Kp_PLL * y .iaR / p.wbase)
  | .ibR => p.Kp_PLL * y .ibI / p.wbase
  | .ibI => -(p.Kp_PLL * y .ibR / p.wbase)
  | .icR => p.Kp_PLL * y .icI / p.wbase
  | .icI => -(p.Kp_PLL * y .icR / p.wbase)
  | .xPLL => p.Ki_PLL
  | .wte => p.Kp_PLL
  | _ => 0

set_option maxHeartbeats 4000000 in
theorem fixed_wte (p : Par) (i : Inp) (y : V → ℝ) (h : Normal p i y) (r : V) : fixed (envC3 p i y) r .wte = K p y r * dvd3 (Real.sqrt 3 / 2) i.va i.vb i.vc i.w i.t (y .wte) := by
  obtain ⟨a0, b0, c0, r0⟩ := not_sat h
  cases r <;> simp only [fixed, aw_not a0, aw_not b0, aw_not c0, aw_not r0, K, zero_mul]
  case iaR => simp only [envC3, Env.base, dvd]
  case iaI => simp only [envC3, Env.base, dvd]; ring
  case xPLL => simp only [envC3, Env.base, dvd]
  case wte => simp only [envC3, Env.base, dvd]
  case ibR => simp only [jac, jac_ibR]; simp only [envC3, Env.base, dvd3]; ring
  case ibI => simp only [jac, jac_ibI]; simp only [envC3, Env.base, dvd3]; ring
  case icR => simp only [jac, jac_icR]; simp only [envC3, Env.base, dvd3]; ring
  case icI => simp only [jac, jac_icI]; simp only [envC3, Env.base, dvd3]; ring
  all_goals first
    | (simp [dRefR, dRefI, dP, dQ]; done)
    | (simp [jac, jac_xaR, jac_xaI, jac_xbR, jac_xbI, jac_xcR, jac_xcI]; done)

/-- C125 for the constant-Vdc three-phase model in normal operation (also under the steps of the check): whatever the derivative `d` of a component with respect to a state is, the check reports the entry exactly when the Jacobian method misses `d` by the tolerance; the PLL angle, in which the derivatives are sinusoids, is compared with `d·sin ε/ε`. -/
theorem C125_const_vdc_three (p : Par) (i : Inp) (y : V → ℝ) (hn : ∀ c s, |s - y c| ≤ eps → Normal p i (update y c s)) (r c : V) (d : ℝ)
    (hd : HasDerivAt (fun s => rhs (envC3 p i (update y c s)) r) d (y c)) :
    Reported (fun z => rhs (envC3 p i z)) (J1 p i) y r c ↔ 1 / 100 ≤ |J1 p i y r c - d * (if c = .wte then Real.sin eps / eps else 1)| := by
  have n0 : Normal p i y := by
    have := hn .wte (y .wte) (by rw [sub_self, abs_zero]; exact SinglePhase.eps_pos.le)
    rwa [update_eq_self] at this
  have D : ∀ s, |s - y c| ≤ eps → HasDerivAt (fun s => rhs (envC3 p i (update y c s)) r) (fixed (envC3 p i (update y c s)) r c) s := by
    intro s hs
    have := (row_grad p i _ (hn c s hs).regular r).partial c
    simpa only [update_idem, update_self] using this
  have ed : d = fixed (envC3 p i y) r c := hd.unique ((row_grad p i _ n0.regular r).partial c)
  rw [reported_iff]
  by_cases hc : c = .wte
  · subst hc
    rw [if_pos rfl]
    obtain ⟨A, B, hAB⟩ := ThreePhase.dvd3_sine (Real.sqrt 3 / 2) i.va i.vb i.vc i.w i.t
    have k := num_of_sine (f := fun z => rhs (envC3 p i z)) (y := y) (r := r) (c := V.wte) (A := K p y r * A) (B := K p y r * B) (fun s hs => by
      refine (D s hs).congr_deriv ?_
      have e : K p (update y .wte s) r = K p y r := by cases r <;> simp [K]
      rw [fixed_wte p i _ (hn .wte s hs), update_self, hAB, e]; ring)
    rw [k, ed, fixed_wte p i _ n0, hAB, show K p y r * A * Real.cos (y .wte) + K p y r * B * Real.sin (y .wte) = K p y r * (A * Real.cos (y .wte) + B * Real.sin (y .wte)) by ring]
  · rw [if_neg hc, mul_one, ed]
    rw [num_of_const (f := fun z => rhs (envC3 p i z)) (y := y) (r := r) (c := c) (d := fixed (envC3 p i y) r c) (fun s hs =>
      (D s hs).congr_deriv (fixed_inv p i y s r c n0 (hn c s hs) hc))]

/-- Magnitudes that keep the errors of the central difference and of the truncated constants far below the tolerance of the check. -/
structure Moderate (p : Par) (i : Inp) (y : V → ℝ) : Prop where
  angle : ∀ r, |J1 p i y r .wte| ≤ 1000000
  trunc : ∀ r c, |jac 1 0 (envC3 p i y) (fun _ _ => 0) r c - jac 0 0 (envC3 p i y) (fun _ _ => 0) r c| + |jac 0 1 (envC3 p i y) (fun _ _ => 0) r c - jac 0 0 (envC3 p i y) (fun _ _ => 0) r c| ≤ 1000000

/-- The reported entries are among those of C77's list. -/
theorem C125_const_vdc_three_where (p : Par) (i : Inp) (y : V → ℝ) (hn : ∀ c s, |s - y c| ≤ eps → Normal p i (update y c s)) (hm : Moderate p i y) (r c : V)
    (h : Reported (fun z => rhs (envC3 p i z)) (J1 p i) y r c) : Wrong r c := by
  by_contra hw
  have n0 : Normal p i y := by
    have := hn .wte (y .wte) (by rw [sub_self, abs_zero]; exact SinglePhase.eps_pos.le)
    rwa [update_eq_self] at this
  have hg := (row_grad p i _ n0.regular r).partial c
  rw [C125_const_vdc_three p i y hn r c _ hg] at h
  have T : |J1 p i y r c - fixed (envC3 p i y) r c| ≤ 1 / 500 := by
    rw [fixed_eq (envC3 p i y) rfl r c hw]
    unfold J1
    rw [jac_affine lit1, jac_affine (Real.sqrt 3 / 2)]
    have e1 : ∀ a b c s t s' t' : ℝ, a + s * b + t * c - (a + s' * b + t' * c) = (s - s') * b + (t - t') * c := by intros; ring
    rw [e1]
    refine (abs_add_le _ _).trans ?_
    rw [abs_mul, abs_mul]
    have q := hm.trunc r c
    have q1 := mul_le_mul_of_nonneg_right lit1_close (abs_nonneg (jac 1 0 (envC3 p i y) (fun _ _ => 0) r c - jac 0 0 (envC3 p i y) (fun _ _ => 0) r c))
    have q2 := mul_le_mul_of_nonneg_right (lit2_close.trans (by norm_num : _ ≤ (1 / 10 ^ 9 : ℝ))) (abs_nonneg (jac 0 1 (envC3 p i y) (fun _ _ => 0) r c - jac 0 0 (envC3 p i y) (fun _ _ => 0) r c))
    norm_num at q1 q2
    linarith
  by_cases hc : c = .wte
  · subst hc
    rw [if_pos rfl] at h
    have a := SinglePhase.σ_lt
    have b := SinglePhase.σ_gt
    have hJ := hm.angle r
    change _ ≤ |J1 p i y r .wte - _ * SinglePhase.σ| at h
    generalize fixed (envC3 p i y) r .wte = X at *
    generalize J1 p i y r .wte = Y at *
    have hX : |X| ≤ 1000001 := by
      have := abs_sub_abs_le_abs_sub X Y
      rw [abs_sub_comm] at this
      linarith
    have e : Y - X * SinglePhase.σ = (Y - X) + X * (1 - SinglePhase.σ) := by ring
    rw [e] at h
    have h' := h.trans (abs_add_le _ _)
    rw [abs_mul, abs_of_pos (show (0 : ℝ) < 1 - SinglePhase.σ by linarith)] at h'
    have : |X| * (1 - SinglePhase.σ) ≤ 1000001 * (eps ^ 2 / 4) := by
      gcongr
      linarith
    have q : 1000001 * (eps ^ 2 / 4) < 1 / 200 := by norm_num [eps]
    linarith
  · rw [if_neg hc, mul_one] at h
    linarith

/-- The check fails at every such state of a reactive power controlled inverter, also at start-up without current: the voltage of phase b or c alone makes an omitted entry of row `xQ` visible. -/
theorem C125_const_vdc_three_fails (p : Par) (i : Inp) (y : V → ℝ) (hn : ∀ c s, |s - y c| ≤ eps → Normal p i (update y c s))
    (hv : 1 / 50 ≤ |p.Ki_Q * i.vb.re| ∨ 1 / 50 ≤ |p.Ki_Q * i.vb.im| ∨ 1 / 50 ≤ |p.Ki_Q * i.vc.re| ∨ 1 / 50 ≤ |p.Ki_Q * i.vc.im|) : ¬ Passes (fun z => rhs (envC3 p i z)) (J1 p i) y := by
  intro h
  have n0 : Normal p i y := by
    have := hn .wte (y .wte) (by rw [sub_self, abs_zero]; exact SinglePhase.eps_pos.le)
    rwa [update_eq_self] at this
  have key : ∀ c x, c ≠ .wte → J1 p i y .xQ c = 0 → p.Ki_Q * dQ (envC3 p i y) c = x / 2 ∨ p.Ki_Q * dQ (envC3 p i y) c = -(x / 2) → ¬ 1 / 50 ≤ |x| := by
    intro c x hc h0 hx hle
    refine h .xQ c ((C125_const_vdc_three p i y hn .xQ c _ (C77_const_vdc_three_derivatives p i y n0.regular n0.r.le c).2).2 ?_)
    rw [h0, if_neg hc, mul_one, zero_sub, abs_neg]
    have : |p.Ki_Q * dQ (envC3 p i y) c| = |x| / 2 := by
      rcases hx with hx | hx <;> rw [hx]
      · rw [abs_div]; norm_num
      · rw [abs_neg, abs_div]; norm_num
    rw [this]; linarith
  rcases hv with hv | hv | hv | hv
  · exact key .ibI _ (by decide) rfl (Or.inr (by simp only [dQ, envC3, Env.base]; ring)) hv
  · exact key .ibR _ (by decide) rfl (Or.inl (by simp only [dQ, envC3, Env.base]; ring)) hv
  · exact key .icI _ (by decide) rfl (Or.inr (by simp only [dQ, envC3, Env.base]; ring)) hv
  · exact key .icR _ (by decide) rfl (Or.inl (by simp only [dQ, envC3, Env.base]; ring)) hv

/-- Start-up: no current, the controller state that gives the duty cycle on phase a. -/
noncomputable def exStart : V → ℝ
  | .xaR => 9 / 10 | .xaI => 1 / 10 | .wte => 1 / 10 | _ => 0

theorem exStart_hn : ∀ c s, |s - exStart c| ≤ eps → Normal SinglePhaseConstantVdc.exParP exInp (update exStart c s) := by
  intro c s hs
  have B : ∀ d, exStart d - 1 / 1000000 ≤ update exStart c s d ∧ update exStart c s d ≤ exStart d + 1 / 1000000 := fun d => by
    by_cases h : d = c
    · subst h
      rw [update_self]
      have := abs_le.1 hs; unfold eps at this; exact ⟨by linarith [this.1], by linarith [this.2]⟩
    · rw [update_of_ne h]; exact ⟨by linarith, by linarith⟩
  generalize update exStart c s = z at B
  have aR := B .iaR; have aI := B .iaI; have bR := B .ibR; have bI := B .ibI; have cR := B .icR; have cI := B .icI
  have xaR := B .xaR; have xaI := B .xaI; have uaR := B .uaR; have uaI := B .uaI
  have xbR := B .xbR; have xbI := B .xbI; have ubR := B .ubR; have ubI := B .ubI
  have xcR := B .xcR; have xcI := B .xcI; have ucR := B .ucR; have ucI := B .ucI
  have bP := B .xP; have bQ := B .xQ
  simp only [exStart] at *
  have unit : ∀ a b c d : ℝ, |12 * a + c| ≤ 91 / 100 → |12 * b + d| ≤ 11 / 100 → ‖(SinglePhaseConstantVdc.exParP.Kp_GCC : ℂ) * ⟨a, b⟩ + ⟨c, d⟩‖ < SinglePhaseConstantVdc.exParP.m_limit := by
    intro a b c d h1 h2
    have : SinglePhaseConstantVdc.exParP.m_limit = 1 := rfl
    rw [this]
    have hs : ‖(SinglePhaseConstantVdc.exParP.Kp_GCC : ℂ) * ⟨a, b⟩ + ⟨c, d⟩‖ ^ 2 < 1 ^ 2 := by
      rw [← normSq_eq_norm_sq, normSq_apply]
      simp only [add_re, add_im, mul_re, mul_im, Complex.ofReal_re, Complex.ofReal_im, zero_mul, sub_zero, add_zero, SinglePhaseConstantVdc.exParP, exPar]
      have q1 := mul_self_le_mul_self (abs_nonneg _) h1
      have q2 := mul_self_le_mul_self (abs_nonneg _) h2
      rw [abs_mul_abs_self] at q1 q2
      linarith
    exact (pow_lt_pow_iff_left₀ (norm_nonneg _) zero_le_one two_ne_zero).1 hs
  refine ⟨unit _ _ _ _ ?_ ?_, unit _ _ _ _ ?_ ?_, unit _ _ _ _ ?_ ?_, ?_⟩
  · exact abs_le.2 ⟨by linarith, by linarith⟩
  · exact abs_le.2 ⟨by linarith, by linarith⟩
  · exact abs_le.2 ⟨by linarith, by linarith⟩
  · exact abs_le.2 ⟨by linarith, by linarith⟩
  · exact abs_le.2 ⟨by linarith, by linarith⟩
  · exact abs_le.2 ⟨by linarith, by linarith⟩
  · have : SinglePhaseConstantVdc.exParP.iref_limit = 3 / 2 := rfl
    rw [this]
    refine (Complex.norm_le_abs_re_add_abs_im _).trans_lt ?_
    obtain ⟨s1, s2⟩ := sqrt3_bounds
    simp only [envC3, irefP_re, irefP_im, sCalc_im, SinglePhaseConstantVdc.exParP, exPar, exInp, ub_re, ub_im, uc_re, uc_im, zero_mul, add_zero]
    have h1 : |z .xP| ≤ 1 / 10 := abs_le.2 ⟨by linarith, by linarith⟩
    have t : ∀ w : ℝ, (0 - 1 / 1000000 ≤ w ∧ w ≤ 0 + 1 / 1000000) → |Real.sqrt 3 * w| ≤ 1 / 1000 := by
      intro w hw
      rw [abs_mul, abs_of_pos (by linarith)]
      have : |w| ≤ 1 / 1000000 := abs_le.2 ⟨by linarith, by linarith⟩
      calc Real.sqrt 3 * |w| ≤ 2 * (1 / 1000000) := by
            refine mul_le_mul (by linarith) this (abs_nonneg _) (by norm_num)
        _ ≤ _ := by norm_num
    have t1 := abs_le.1 (t _ bR)
    have t2 := abs_le.1 (t _ bI)
    have t3 := abs_le.1 (t _ cR)
    have t4 := abs_le.1 (t _ cI)
    norm_num at *
    refine lt_of_le_of_lt (add_le_add h1 (abs_le.2 ⟨?_, ?_⟩)) (show (1 / 10 + 1 / 2 : ℝ) < 3 / 2 by norm_num)
    · linarith
    · linarith

theorem exStart_moderate : Moderate SinglePhaseConstantVdc.exParP exInp exStart := by
  have n : ‖exInp.va‖ = 1 / 2 := by norm_num [exInp]
  have hN : Normal SinglePhaseConstantVdc.exParP exInp exStart := by
    have := exStart_hn .wte (exStart .wte) (by rw [sub_self, abs_zero]; exact SinglePhase.eps_pos.le)
    rwa [update_eq_self] at this
  obtain ⟨a0, b0, c0, r0⟩ := not_sat hN
  obtain ⟨s1, s2⟩ := sqrt3_bounds
  have r0' : ¬ ‖((((envC3 SinglePhaseConstantVdc.exParP exInp exStart).xP + (envC3 SinglePhaseConstantVdc.exParP exInp exStart).Kp_P * ((envC3 SinglePhaseConstantVdc.exParP exInp exStart).Ppv - (envC3 SinglePhaseConstantVdc.exParP exInp exStart).S.re) : ℝ) : ℂ) + I * (((envC3 SinglePhaseConstantVdc.exParP exInp exStart).xQ - (envC3 SinglePhaseConstantVdc.exParP exInp exStart).Kp_Q * ((envC3 SinglePhaseConstantVdc.exParP exInp exStart).Q_ref - (envC3 SinglePhaseConstantVdc.exParP exInp exStart).S_PCC.im) : ℝ) : ℂ))‖ > (envC3 SinglePhaseConstantVdc.exParP exInp exStart).iref_limit := r0
  clear hN
  have cc := Real.abs_cos_le_one (exInp.w * exInp.t + arg exInp.va - exStart .wte)
  have ci := cos_code (exInp.w * exInp.t + arg exInp.va) (exStart .wte)
  constructor
  · intro r
    cases r
    case iaR =>
      simp only [J1, jac, jac_iaR]
      simp only [envC3, Env.base, ci, n, SinglePhaseConstantVdc.exParP, exPar, exStart]
      norm_num
    case iaI =>
      simp only [J1, jac, jac_iaI]
      simp only [envC3, Env.base, ci, n, SinglePhaseConstantVdc.exParP, exPar, exStart]
      norm_num
    case xPLL =>
      simp only [J1, jac, jac_xPLL]
      simp only [envC3, Env.base, ci, n, SinglePhaseConstantVdc.exParP, exPar]
      rw [abs_mul, abs_neg]
      refine (mul_le_mul_of_nonneg_left cc (abs_nonneg _)).trans ?_
      norm_num [abs_of_pos]
    case wte =>
      simp only [J1, jac, jac_wte]
      simp only [envC3, Env.base, ci, n, SinglePhaseConstantVdc.exParP, exPar]
      rw [abs_mul, abs_neg]
      refine (mul_le_mul_of_nonneg_left cc (abs_nonneg _)).trans ?_
      norm_num [abs_of_pos]
    case ibR => simp only [J1, jac, jac_ibR]; simp [envC3, Env.base, exStart]
    case ibI => simp only [J1, jac, jac_ibI]; simp [envC3, Env.base, exStart]
    case icR => simp only [J1, jac, jac_icR]; simp [envC3, Env.base, exStart]
    case icI => simp only [J1, jac, jac_icI]; simp [envC3, Env.base, exStart]
    all_goals (simp only [J1, jac, jac_xaR, jac_xaI, jac_uaR, jac_uaI, jac_xbR, jac_xbI, jac_ubR, jac_ubI, jac_xcR, jac_xcI, jac_ucR, jac_ucI, jac_xP, jac_xQ]; norm_num)
  · have q1 : |(Phasor.ub (1 / 2)).re| ≤ 1 := by rw [ub_re]; norm_num [abs_of_neg]
    have q2 : |(Phasor.ub (1 / 2)).im| ≤ 1 := by refine abs_le.2 ⟨?_, ?_⟩ <;> rw [ub_im] <;> norm_num <;> linarith
    have q3 : |(Phasor.uc (1 / 2)).re| ≤ 1 := by rw [uc_re]; norm_num [abs_of_neg]
    have q4 : |(Phasor.uc (1 / 2)).im| ≤ 1 := by refine abs_le.2 ⟨?_, ?_⟩ <;> rw [uc_im] <;> norm_num <;> linarith
    obtain ⟨q1, q1'⟩ := abs_le.1 q1
    obtain ⟨q2, q2'⟩ := abs_le.1 q2
    obtain ⟨q3, q3'⟩ := abs_le.1 q3
    obtain ⟨q4, q4'⟩ := abs_le.1 q4
    clear ci cc
    intro r c
    cases r
    case ibR => simp only [jac]; cases c <;> simp [jac_ibR, envC3, Env.base, exStart]
    case ibI => simp only [jac]; cases c <;> simp [jac_ibI, envC3, Env.base, exStart]
    case icR => simp only [jac]; cases c <;> simp [jac_icR, envC3, Env.base, exStart]
    case icI => simp only [jac]; cases c <;> simp [jac_icI, envC3, Env.base, exStart]
    case ubR =>
      simp only [jac]; cases c <;> simp only [jac_ubR, if_neg b0] <;> (try simp only [envC3, Env.base, SinglePhaseConstantVdc.exParP, exPar, exInp]) <;> norm_num [abs_of_pos, abs_of_neg] <;> exact abs_le.2 ⟨by linarith, by linarith⟩
    case ubI =>
      simp only [jac]; cases c <;> simp only [jac_ubI, if_neg b0] <;> (try simp only [envC3, Env.base, SinglePhaseConstantVdc.exParP, exPar, exInp]) <;> norm_num [abs_of_pos, abs_of_neg] <;> exact abs_le.2 ⟨by linarith, by linarith⟩
    case ucR =>
      simp only [jac]; cases c <;> simp only [jac_ucR, if_neg c0] <;> (try simp only [envC3, Env.base, SinglePhaseConstantVdc.exParP, exPar, exInp]) <;> norm_num [abs_of_pos, abs_of_neg] <;> exact abs_le.2 ⟨by linarith, by linarith⟩
    case ucI =>
      simp only [jac]; cases c <;> simp only [jac_ucI, if_neg c0] <;> (try simp only [envC3, Env.base, SinglePhaseConstantVdc.exParP, exPar, exInp]) <;> norm_num [abs_of_pos, abs_of_neg] <;> exact abs_le.2 ⟨by linarith, by linarith⟩
    all_goals (cases c <;> (simp only [jac, jac_iaR, jac_iaI, jac_xaR, jac_xaI, jac_uaR, jac_uaI, jac_xbR, jac_xbI, jac_xcR, jac_xcI, jac_xP, jac_xQ, jac_xPLL, jac_wte]; norm_num))

/-- Beside the theorems: at start-up the omitted reactive power feedback of phase b is reported and the check fails … -/
example : ¬ Passes (fun z => rhs (envC3 SinglePhaseConstantVdc.exParP exInp z)) (J1 SinglePhaseConstantVdc.exParP exInp) exStart := by
  refine C125_const_vdc_three_fails _ _ _ exStart_hn (Or.inl ?_)
  have : exInp.vb = Phasor.ub (1 / 2) := rfl
  rw [this, ub_re]
  norm_num [SinglePhaseConstantVdc.exParP, exPar, abs_of_pos, abs_of_neg]

/-- … and entries outside the list are not. -/
example : ¬ Reported (fun z => rhs (envC3 SinglePhaseConstantVdc.exParP exInp z)) (J1 SinglePhaseConstantVdc.exParP exInp) exStart .iaR .iaI :=
  fun h => absurd (C125_const_vdc_three_where _ _ _ exStart_hn exStart_moderate _ _ h) (by decide)

end ThreePhaseConstantVdc
end Ode
end PvDer
