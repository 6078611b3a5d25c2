import Verif.Props.JacCheckThree
import Verif.Props.JacBalanced

/-!
# C125 for the balanced class: the self-check reports the power flows of the phases it forgot
-/

set_option linter.unusedSimpArgs false
set_option linter.unusedTactic false
set_option linter.unreachableTactic false

namespace PvDer
namespace Ode
namespace ThreePhaseBalanced
open JacCheck Function Complex Phasor Grad

/-- Normal operation: positive DC voltage below the cap, producing PV module, no limit reached. -/
structure Normal (p : Par) (i : Inp) (y : V → ℝ) : Prop where
  dc : 0 < y .Vdc
  cap : y .Vdc * p.Vdcbase < p.Vdcmpp_max
  pv : 0 < PV.ipv p.mod i.Sinsol i.Tactual (y .Vdc * p.Vdcbase)
  m : ‖(p.Kp_GCC : ℂ) * ⟨y .uaR, y .uaI⟩ + ⟨y .xaR, y .xaI⟩‖ < p.m_limit
  r : ‖(envB p i y).ia_ref‖ < p.iref_limit

theorem Normal.regular {p : Par} {i : Inp} {y : V → ℝ} (h : Normal p i y) (hb : 0 < p.Vdcbase) : Regular p i y :=
  ⟨hb, h.dc, h.cap, h.pv, ⟨h.m.ne, fun h' => absurd h' (not_lt.2 h.m.le)⟩, h.r.ne, fun h' => absurd h' (not_lt.2 h.r.le)⟩

/-- The Jacobian as `jac_ODE_model` returns it on a first call. -/
noncomputable def J1 (p : Par) (i : Inp) (y : V → ℝ) : V → V → ℝ := jac lit1 lit2 (envB p i y) (fun _ _ => 0)

theorem not_sat {p : Par} {i : Inp} {y : V → ℝ} (h : Normal p i y) :
    (¬ ‖(((envB p i y).Kp_GCC : ℝ) : ℂ) * (envB p i y).ua + (envB p i y).xa‖ > (envB p i y).m_limit) ∧
    (¬ ‖((((envB p i y).xDC + ((envB p i y).Kp_DC * ((envB p i y).Vdc_ref - (envB p i y).Vdc))) : ℝ) : ℂ) + (Complex.I * ((((envB p i y).xQ - ((envB p i y).Kp_Q * ((envB p i y).Q_ref - ((envB p i y).S_PCC).im))) : ℝ) : ℂ))‖
    > (envB p i y).iref_limit) := ⟨not_lt.2 h.m.le, not_lt.2 h.r.le⟩

set_option maxHeartbeats 40000000 in
/-- Outside the PLL column and the diagonal entry of the DC voltage, an entry does not depend on the state of its own column. -/
theorem fixed_inv (p : Par) (i : Inp) (y : V → ℝ) (s s1 s2 : ℝ) (r c : V) (h0 : Normal p i y) (h1 : Normal p i (update y c s)) (hc : c ≠ .wte) (hrc : ¬(r = .Vdc ∧ c = .Vdc)) :
    fixed s1 s2 (envB p i (update y c s)) r c = fixed s1 s2 (envB p i y) r c := by
  obtain ⟨a0, r0⟩ := not_sat h0
  obtain ⟨a1, r1⟩ := not_sat h1
  clear h0 h1
  generalize hz : update y c s = z at *
  have hd : ∀ d, d ≠ c → z d = y d := fun d hd => by rw [← hz, update_of_ne hd]
  clear hz
  cases r <;> cases c <;> first
    | exact absurd rfl hc
    | exact absurd ⟨rfl, rfl⟩ hrc
    | rfl
    | (simp only [fixed, jac, jac_iaR, jac_iaI, jac_xPLL, jac_wte, jac_Vdc]
       simp only [envB, env3, Env.base]
       simp [hd]; done)
    | (simp only [fixed, jac, jac_xaR, jac_xaI, jac_uaR, jac_uaI, jac_xDC, jac_xQ, if_neg a0, if_neg a1, if_neg r0, if_neg r1]
       rfl)

/-- The factor with which the PLL angle enters a row. -/
noncomputable def K (p : Par) (y : V → ℝ) : V → ℝ
  | .iaR => p.Kp_PLL * y .iaI / p.wbase
  | .iaI => -(p.Kp_PLL * y .iaR / p.wbase)
  | .xPLL => p.Ki_PLL
  | .wte => p.Kp_PLL
  | _ => 0

theorem jac_wte_col (p : Par) (i : Inp) (y : V → ℝ) (s1 s2 : ℝ) (r : V) : jac s1 s2 (envB p i y) (fun _ _ => 0) r .wte = K p y r * dvd3 s2 i.va (Phasor.ub i.va) (Phasor.uc i.va) i.w i.t (y .wte) := by
  cases r <;> simp only [jac, jac_iaR, jac_iaI, jac_xaR, jac_xaI, jac_uaR, jac_uaI, jac_Vdc, jac_xDC, jac_xQ, jac_xPLL, jac_wte, K, zero_mul] <;> (simp only [envB, env3, Env.base, dvd3]; ring)

theorem fixed_wte (s1 s2 : ℝ) (e : Env) (r : V) : fixed s1 s2 e r .wte = jac s1 s2 e (fun _ _ => 0) r .wte := by
  cases r <;> first | rfl | (simp [fixed, jac, jac_xQ, jac_Vdc])

/-- Magnitudes that keep the errors of the central difference and of the truncated constant far below the tolerance of the check. -/
structure Moderate (p : Par) (i : Inp) (y : V → ℝ) : Prop where
  pv : |PV.coef p.mod i.Tactual * p.Vdcbase| ≤ 100
  slope : |J1 p i y .Vdc .Vdc| ≤ 1000000
  angle : ∀ r, |J1 p i y r .wte| ≤ 1000000
  trunc : ∀ r, |jac 0 1 (envB p i y) (fun _ _ => 0) r .wte - jac 0 0 (envB p i y) (fun _ _ => 0) r .wte| ≤ 1000000

/-- By how much an entry of the Jacobian method differs from the derivative, written out: the power that phases b and c draw from the DC link (row `Vdc`), their reactive power in row `xQ`, and in the reactive power feedback of row `uaI`. -/
noncomputable def gap (p : Par) (i : Inp) (y : V → ℝ) : V → V → ℝ
  | .Vdc, .iaR => (p.Kp_GCC * y .uaR + y .xaR) / (2 * p.C)
  | .Vdc, .iaI => (p.Kp_GCC * y .uaI + y .xaI) / (2 * p.C)
  | .Vdc, .xaR => y .iaR / (2 * p.C)
  | .Vdc, .xaI => y .iaI / (2 * p.C)
  | .Vdc, .uaR => p.Kp_GCC * y .iaR / (2 * p.C)
  | .Vdc, .uaI => p.Kp_GCC * y .iaI / (2 * p.C)
  | .xQ, .iaR => p.Ki_Q * i.va.im
  | .xQ, .iaI => p.Ki_Q * i.va.re
  | .uaI, .iaR => p.wp * p.Kp_Q * i.va.im
  | .uaI, .iaI => p.wp * p.Kp_Q * i.va.re
  | _, _ => 0

set_option maxHeartbeats 4000000 in
/-- The gap is the difference between the corrected and the returned matrix. -/
theorem gap_eq (p : Par) (i : Inp) (y : V → ℝ) (h : Normal p i y) (r c : V) (hc : c ≠ .wte) :
    |J1 p i y r c - fixed (Real.sqrt 3 / 2) (Real.sqrt 3 / 2) (envB p i y) r c| = |gap p i y r c| := by
  obtain ⟨a0, r0⟩ := not_sat h
  clear h
  have flip : ∀ a b : ℝ, a = b ∨ a = -b → |a| = |b| := fun a b h => by rcases h with h | h <;> rw [h]; exact abs_neg b
  refine flip _ _ ?_
  cases r <;> cases c <;> first
    | exact absurd rfl hc
    | (left; simp only [gap]; exact sub_self _)
    | (left; simp only [gap, J1, fixed, jac, jac_xQ, jac_Vdc, mul_zero, sub_zero]; done)
    | (left; simp only [gap, J1, fixed, jac, jac_uaI, jac_xQ, jac_Vdc, if_neg a0, if_neg r0]; simp only [envB, env3, Env.base, div_eq_mul_inv, mul_inv]; ring1)
    | (right; simp only [gap, J1, fixed, jac, jac_uaI, jac_xQ, jac_Vdc, if_neg a0, if_neg r0]; simp only [envB, env3, Env.base, div_eq_mul_inv, mul_inv]; ring1)

/-- C125 for the balanced model in normal operation (also under the steps of the check): the check reports exactly the entries whose `gap` is at least the tolerance; there are at most ten. -/
theorem C125_balanced (p : Par) (hb : 0 < p.Vdcbase) (i : Inp) (y : V → ℝ) (hn : ∀ c s, |s - y c| ≤ eps → Normal p i (update y c s)) (hm : Moderate p i y) (r c : V) :
    Reported (fun z => rhs (envB p i z)) (J1 p i) y r c ↔ 1 / 100 ≤ |gap p i y r c| := by
  have n0 : Normal p i y := by
    have := hn .wte (y .wte) (by rw [sub_self, abs_zero]; exact SinglePhase.eps_pos.le)
    rwa [update_eq_self] at this
  have D : ∀ s, |s - y c| ≤ eps → HasDerivAt (fun s => rhs (envB p i (update y c s)) r) (fixed (Real.sqrt 3 / 2) (Real.sqrt 3 / 2) (envB p i (update y c s)) r c) s := by
    intro s hs
    have := (row_grad p i _ ((hn c s hs).regular hb) r).partial c
    simpa only [update_idem, update_self] using this
  rw [reported_iff]
  by_cases hc : c = .wte
  · subst hc
    have g0 : gap p i y r .wte = 0 := by cases r <;> rfl
    rw [g0, abs_zero]
    refine ⟨fun h => ?_, fun h => by norm_num at h⟩
    exfalso
    have T : |J1 p i y r .wte - jac (Real.sqrt 3 / 2) (Real.sqrt 3 / 2) (envB p i y) (fun _ _ => 0) r .wte| ≤ 1 / 10 ^ 9 * 1000000 := by
      unfold J1
      rw [jac_affine lit1 lit2, jac_affine (Real.sqrt 3 / 2)]
      have e1 : ∀ a c t t' : ℝ, a + t * c - (a + t' * c) = (t - t') * c := by intros; ring
      rw [e1, abs_mul]
      exact mul_le_mul (lit2_close.trans (by norm_num)) (hm.trunc r) (abs_nonneg _) (by norm_num)
    obtain ⟨A, B, hAB⟩ := ThreePhase.dvd3_sine (Real.sqrt 3 / 2) i.va (Phasor.ub i.va) (Phasor.uc i.va) i.w i.t
    have k := num_of_sine (f := fun z => rhs (envB p i z)) (y := y) (r := r) (c := V.wte) (A := K p y r * A) (B := K p y r * B) (fun s hs => by
      refine (D s hs).congr_deriv ?_
      have e : K p (update y .wte s) r = K p y r := by cases r <;> simp [K]
      rw [fixed_wte, jac_wte_col, update_self, hAB, e]; ring)
    have e : (K p y r * A * Real.cos (y .wte) + K p y r * B * Real.sin (y .wte)) = jac (Real.sqrt 3 / 2) (Real.sqrt 3 / 2) (envB p i y) (fun _ _ => 0) r .wte := by
      rw [jac_wte_col, hAB]; ring
    rw [e] at k
    have a := SinglePhase.σ_lt
    have b := SinglePhase.σ_gt
    have hJ := hm.angle r
    rw [k] at h
    change _ ≤ |J1 p i y r .wte - _ * SinglePhase.σ| at h
    generalize jac (Real.sqrt 3 / 2) (Real.sqrt 3 / 2) (envB p i y) (fun _ _ => 0) r .wte = X at *
    generalize J1 p i y r .wte = Y at *
    have hX : |X| ≤ 1000001 := by
      have := abs_sub_abs_le_abs_sub X Y
      rw [abs_sub_comm] at this
      norm_num at T
      linarith
    have e : Y - X * SinglePhase.σ = (Y - X) + X * (1 - SinglePhase.σ) := by ring
    rw [e] at h
    have h' := h.trans (abs_add_le _ _)
    rw [abs_mul, abs_of_pos (show (0 : ℝ) < 1 - SinglePhase.σ by linarith)] at h'
    have : |X| * (1 - SinglePhase.σ) ≤ 1000001 * (eps ^ 2 / 4) := by
      gcongr
      linarith
    have q : 1000001 * (eps ^ 2 / 4) < 1 / 200 := by norm_num [eps]
    norm_num at T
    linarith
  · by_cases hrc : r = .Vdc ∧ c = .Vdc
    · obtain ⟨rfl, rfl⟩ := hrc
      have g0 : gap p i y .Vdc .Vdc = 0 := rfl
      rw [g0, abs_zero]
      refine ⟨fun h => ?_, fun h => by norm_num at h⟩
      set κ := PV.coef p.mod i.Tactual * p.Vdcbase with eκ
      set A := -(p.mod.Np * p.mod.Irs * p.Vdcbase / (p.mod.Sbase * p.C)) with eA
      have eJ : ∀ s1 s2 (z : V → ℝ), jac s1 s2 (envB p i z) (fun _ _ => 0) .Vdc .Vdc = A * κ * Real.exp (κ * z .Vdc) := by
        intro s1 s2 z
        simp only [jac, jac_Vdc]
        simp only [envB, env3, Env.base, eA, eκ, PV.coef]
        rw [show p.mod.q * z .Vdc * p.Vdcbase / (p.mod.k * p.mod.A * p.mod.Ns * i.Tactual) = p.mod.q / (p.mod.k * i.Tactual * p.mod.A * p.mod.Ns) * p.Vdcbase * z .Vdc by ring]
        ring
      have hs := hm.slope
      unfold J1 at hs h
      rw [eJ] at hs h
      refine absurd (num_of_exp (f := fun z => rhs (envB p i z)) (fun s hs => ?_) hm.pv hs) (not_lt.2 h)
      refine (D s hs).congr_deriv ?_
      have : fixed (Real.sqrt 3 / 2) (Real.sqrt 3 / 2) (envB p i (update y .Vdc s)) .Vdc .Vdc = jac (Real.sqrt 3 / 2) (Real.sqrt 3 / 2) (envB p i (update y .Vdc s)) (fun _ _ => 0) .Vdc .Vdc := rfl
      rw [this, eJ, update_self]
    · have k := num_of_const (f := fun z => rhs (envB p i z)) (y := y) (r := r) (c := c) (d := fixed (Real.sqrt 3 / 2) (Real.sqrt 3 / 2) (envB p i y) r c) (fun s hs => by
        refine (D s hs).congr_deriv ?_
        exact fixed_inv p i y s _ _ r c n0 (hn c s hs) hc hrc)
      rw [k, gap_eq p i y n0 r c hc]

/-- At most ten entries are reported: those of C77's list. -/
theorem C125_balanced_where (p : Par) (hb : 0 < p.Vdcbase) (i : Inp) (y : V → ℝ) (hn : ∀ c s, |s - y c| ≤ eps → Normal p i (update y c s)) (hm : Moderate p i y) (r c : V)
    (h : Reported (fun z => rhs (envB p i z)) (J1 p i) y r c) : Wrong r c := by
  rw [C125_balanced p hb i y hn hm] at h
  revert h
  unfold Wrong
  cases r <;> cases c <;> first
    | (intro; simp; done)
    | (intro h; exfalso; simp only [gap, abs_zero] at h; norm_num at h)

/-- The check fails at every such state of a reactive power controlled inverter, also at start-up without current: the voltage alone makes the wrong entries visible. -/
theorem C125_balanced_fails (p : Par) (hb : 0 < p.Vdcbase) (i : Inp) (y : V → ℝ) (hn : ∀ c s, |s - y c| ≤ eps → Normal p i (update y c s)) (hm : Moderate p i y)
    (hv : 1 / 100 ≤ |p.Ki_Q * i.va.re|) : ¬ Passes (fun z => rhs (envB p i z)) (J1 p i) y :=
  fun h => h .xQ .iaI ((C125_balanced p hb i y hn hm .xQ .iaI).2 hv)

theorem exBox (z : V → ℝ) (hz : ∀ c, |z c - exState c| ≤ eps) : Normal exPar exInp z := by
  have B : ∀ c, exState c - 1 / 1000000 ≤ z c ∧ z c ≤ exState c + 1 / 1000000 := fun c => by
    have := abs_le.1 (hz c); unfold eps at this; exact ⟨by linarith [this.1], by linarith [this.2]⟩
  have aR := B .iaR; have aI := B .iaI
  have xaR := B .xaR; have xaI := B .xaI; have uaR := B .uaR; have uaI := B .uaI
  have bV := B .Vdc; have bD := B .xDC; have bQ := B .xQ
  simp only [exState] at *
  have unit : ∀ a b c d : ℝ, |12 * a + c| ≤ 91 / 100 → |12 * b + d| ≤ 11 / 100 → ‖(exPar.Kp_GCC : ℂ) * ⟨a, b⟩ + ⟨c, d⟩‖ < exPar.m_limit := by
    intro a b c d h1 h2
    have : exPar.m_limit = 1 := rfl
    rw [this]
    have hs : ‖(exPar.Kp_GCC : ℂ) * ⟨a, b⟩ + ⟨c, d⟩‖ ^ 2 < 1 ^ 2 := by
      rw [← normSq_eq_norm_sq, normSq_apply]
      simp only [add_re, add_im, mul_re, mul_im, Complex.ofReal_re, Complex.ofReal_im, zero_mul, sub_zero, add_zero, exPar]
      have q1 := mul_self_le_mul_self (abs_nonneg _) h1
      have q2 := mul_self_le_mul_self (abs_nonneg _) h2
      rw [abs_mul_abs_self] at q1 q2
      linarith
    exact (pow_lt_pow_iff_left₀ (norm_nonneg _) zero_le_one two_ne_zero).1 hs
  refine ⟨by linarith, ?_, ?_, unit _ _ _ _ ?_ ?_, ?_⟩
  · norm_num [exPar]; linarith
  · have h0 : PV.coef PV.exMod (29815 / 100) * (z .Vdc * 500) ≤ 16 := by
      have : z .Vdc * 500 ≤ 551 := by linarith
      calc _ ≤ PV.coef PV.exMod (29815 / 100) * 551 := by
            refine mul_le_mul_of_nonneg_left this ?_
            norm_num [PV.coef, PV.exMod]
        _ ≤ 16 := by norm_num [PV.coef, PV.exMod]
    have h1 := Real.exp_le_exp.2 h0
    have h2 : Real.exp 16 ≤ (2.7182818286 : ℝ) ^ 16 := by
      have : Real.exp 16 = Real.exp 1 ^ 16 := by rw [← Real.exp_nat_mul]; norm_num
      rw [this]
      exact pow_le_pow_left₀ (Real.exp_pos 1).le Real.exp_one_lt_d9.le 16
    have h3 := h1.trans h2
    rw [PV.ipv_eq]
    simp only [exPar, exInp]
    generalize Real.exp _ = E at *
    norm_num [PV.iph, PV.exMod] at *
    linarith
  · exact abs_le.2 ⟨by linarith, by linarith⟩
  · exact abs_le.2 ⟨by linarith, by linarith⟩
  · have : exPar.iref_limit = 3 / 2 := rfl
    rw [this]
    refine (Complex.norm_le_abs_re_add_abs_im _).trans_lt ?_
    simp only [envB, env3, iref_re, iref_im, sCalc_bal, three_im, sPh_im, exPar, exInp]
    have h1 : |z .xDC + -4 * (11 / 10 - z .Vdc)| ≤ 9 / 10 := abs_le.2 ⟨by linarith, by linarith⟩
    norm_num at *
    refine lt_of_le_of_lt (add_le_add h1 (abs_le.2 ⟨?_, ?_⟩)) (show (9 / 10 + 1 / 2 : ℝ) < 3 / 2 by norm_num)
    · linarith
    · linarith

theorem ex_hn : ∀ c s, |s - exState c| ≤ eps → Normal exPar exInp (update exState c s) := by
  intro c s hs
  refine exBox _ fun d => ?_
  by_cases h : d = c
  · subst h; rwa [update_self]
  · rw [update_of_ne h, sub_self, abs_zero]; exact SinglePhase.eps_pos.le

theorem ex_dvd3 (s2 s : ℝ) (h2 : |s2| ≤ 1) : |dvd3 s2 exInp.va (Phasor.ub exInp.va) (Phasor.uc exInp.va) exInp.w exInp.t s| ≤ 2 :=
  ThreePhase.ex_dvd3 s2 s h2

theorem ex_K (r : V) : |K exPar exState r| ≤ 320 := by
  cases r <;> norm_num [K, exPar, exState, abs_of_pos, abs_of_neg]

theorem ex_moderate : Moderate exPar exInp exState := by
  have W : ∀ s1 s2 : ℝ, |s2| ≤ 1 → ∀ r, |jac s1 s2 (envB exPar exInp exState) (fun _ _ => 0) r .wte| ≤ 640 := by
    intro s1 s2 h2 r
    rw [jac_wte_col, abs_mul]
    calc _ ≤ (320 : ℝ) * 2 := mul_le_mul (ex_K r) (ex_dvd3 s2 _ h2) (abs_nonneg _) (by norm_num)
      _ = _ := by norm_num
  refine ⟨?_, ?_, fun r => (W _ _ (by norm_num [lit2, abs_of_pos]) r).trans (by norm_num), fun r => ?_⟩
  · rw [abs_of_nonneg] <;> norm_num [PV.coef, exPar, exInp, PV.exMod]
  · have h0 : PV.exMod.q * (11 / 10) * 500 / (PV.exMod.k * PV.exMod.A * PV.exMod.Ns * (29815 / 100)) ≤ 16 := by norm_num [PV.exMod]
    have h1 := Real.exp_le_exp.2 h0
    have h2 : Real.exp 16 ≤ (2.7182818286 : ℝ) ^ 16 := by
      have : Real.exp 16 = Real.exp 1 ^ 16 := by rw [← Real.exp_nat_mul]; norm_num
      rw [this]
      exact pow_le_pow_left₀ (Real.exp_pos 1).le Real.exp_one_lt_d9.le 16
    have h3 := h1.trans h2
    simp only [J1, jac, jac_Vdc]
    simp only [envB, env3, Env.base, exState, exPar, exInp]
    have hp := Real.exp_pos (PV.exMod.q * (11 / 10) * 500 / (PV.exMod.k * PV.exMod.A * PV.exMod.Ns * (29815 / 100)))
    generalize Real.exp _ = E at *
    rw [abs_mul, abs_of_pos hp]
    refine (mul_le_mul_of_nonneg_left h3 (abs_nonneg _)).trans ?_
    rw [abs_div, abs_neg]
    norm_num [PV.exMod, abs_of_pos]
  · have w0 := W 0 0 (by norm_num) r
    have w1 := W 0 1 (by norm_num) r
    have t2 := abs_sub (jac 0 1 (envB exPar exInp exState) (fun _ _ => 0) r .wte) (jac 0 0 (envB exPar exInp exState) (fun _ _ => 0) r .wte)
    linarith

/-- Beside the theorems: at the loaded state the check fails; it reports the DC power flow of phases b and c … -/
example : Reported (fun z => rhs (envB exPar exInp z)) (J1 exPar exInp) exState .Vdc .iaR := by
  rw [C125_balanced exPar (by norm_num [exPar]) exInp _ ex_hn ex_moderate]
  norm_num [gap, exPar, exState, abs_of_pos]

/-- … and not the entries that are right. -/
example : ¬ Reported (fun z => rhs (envB exPar exInp z)) (J1 exPar exInp) exState .Vdc .Vdc := by
  rw [C125_balanced exPar (by norm_num [exPar]) exInp _ ex_hn ex_moderate]
  norm_num [gap]

example : ¬ Passes (fun z => rhs (envB exPar exInp z)) (J1 exPar exInp) exState :=
  C125_balanced_fails exPar (by norm_num [exPar]) exInp _ ex_hn ex_moderate (by norm_num [exPar, exInp, abs_of_pos])

end ThreePhaseBalanced
end Ode
end PvDer
