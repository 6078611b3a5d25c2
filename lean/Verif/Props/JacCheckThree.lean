import Verif.Props.JacCheck
import Verif.Props.JacThreeMain

/-!
# C125 for the three-phase classes: the self-check reports the missing entry of the RMS filter and nothing else; without the filter it passes
-/

set_option linter.unusedSimpArgs false
set_option linter.unusedTactic false
set_option linter.unreachableTactic false

namespace PvDer
namespace JacCheck
open Function

variable {V : Type} [DecidableEq V]

/-- The difference quotient of a function with constant derivative. -/
theorem num_of_const {f : (V → ℝ) → V → ℝ} {y : V → ℝ} {r c : V} {d : ℝ} (h : ∀ s, |s - y c| ≤ eps → HasDerivAt (fun s => f (update y c s) r) d s) : num f y r c = d := by
  have e0 : 0 < eps := by norm_num [eps]
  have hin : ∀ s ∈ Set.Icc (y c - eps) (y c + eps), |s - y c| ≤ eps := fun s hs => abs_le.2 ⟨by linarith [hs.1], by linarith [hs.2]⟩
  obtain ⟨s, _, hs⟩ := exists_hasDerivAt_eq_slope (fun s => f (update y c s) r) (fun _ => d) (a := y c - eps) (b := y c + eps) (by linarith)
    (fun s hs => (h s (hin s hs)).continuousAt.continuousWithinAt) (fun s hs => h s (hin s ⟨hs.1.le, hs.2.le⟩))
  unfold num
  rw [hs]
  congr 1
  ring

/-- … of a function whose derivative is a sinusoid. -/
theorem num_of_sine {f : (V → ℝ) → V → ℝ} {y : V → ℝ} {r c : V} {A B : ℝ}
    (h : ∀ s, |s - y c| ≤ eps → HasDerivAt (fun s => f (update y c s) r) (A * Real.cos s + B * Real.sin s) s) :
    num f y r c = (A * Real.cos (y c) + B * Real.sin (y c)) * (Real.sin eps / eps) := by
  have e0 : 0 < eps := by norm_num [eps]
  have k := num_of_const (f := fun z r => f z r - (A * Real.sin (z c) - B * Real.cos (z c))) (y := y) (r := r) (c := c) (d := 0) (fun s hs => by
    simp only [update_self]
    have := (h s hs).sub (((Real.hasDerivAt_sin s).const_mul A).sub ((Real.hasDerivAt_cos s).const_mul B))
    refine this.congr_deriv ?_
    ring)
  unfold num at k ⊢
  simp only [update_self] at k
  rw [Real.sin_add, Real.sin_sub, Real.cos_add, Real.cos_sub] at k
  field_simp at k ⊢
  linarith

/-- … of a function whose derivative is an exponential of moderate rate. -/
theorem num_of_exp {f : (V → ℝ) → V → ℝ} {y : V → ℝ} {r c : V} {D κ : ℝ}
    (h : ∀ s, |s - y c| ≤ eps → HasDerivAt (fun s => f (update y c s) r) (D * Real.exp (κ * s)) s) (hκ : |κ| ≤ 100) (hJ : |D * Real.exp (κ * y c)| ≤ 1000000) :
    |D * Real.exp (κ * y c) - num f y r c| < 1 / 100 := by
  have e0 : 0 < eps := by norm_num [eps]
  have hin : ∀ s ∈ Set.Icc (y c - eps) (y c + eps), |s - y c| ≤ eps := fun s hs => abs_le.2 ⟨by linarith [hs.1], by linarith [hs.2]⟩
  have Dx : ∀ (B s : ℝ), HasDerivAt (fun s => B * Real.exp (κ * s)) (B * κ * Real.exp (κ * s)) s := by
    intro B s
    have := (((hasDerivAt_id s).const_mul κ).exp).const_mul B
    refine this.congr_deriv ?_
    simp only [id]; ring
  have k := central (f := fun s => f (update y c s) r) (f1 := fun s => D * Real.exp (κ * s)) (f2 := fun s => D * κ * Real.exp (κ * s)) (f3 := fun s => D * κ * κ * Real.exp (κ * s)) (a := y c) (e := eps)
    (M := 20000000000) e0 (fun s hs => h s (hin s hs)) (fun s _ => Dx D s) (fun s _ => Dx (D * κ) s) (fun s hs => ?_)
  · rw [abs_sub_comm] at k
    unfold num
    refine k.trans_lt ?_
    norm_num [eps]
  · have e1 : D * κ * κ * Real.exp (κ * s) = D * Real.exp (κ * y c) * (κ * κ) * Real.exp (κ * (s - y c)) := by
      rw [show κ * s = κ * y c + κ * (s - y c) by ring, Real.exp_add]; ring
    have e2 : κ * (s - y c) ≤ 1 / 10000 := by
      refine (le_abs_self _).trans ?_
      rw [abs_mul]
      have : |s - y c| ≤ 1 / 1000000 := hin s hs
      calc |κ| * |s - y c| ≤ 100 * (1 / 1000000) := by gcongr
        _ = _ := by norm_num
    have e3 : Real.exp (κ * (s - y c)) ≤ 2 := by
      refine (Real.exp_le_exp.2 e2).trans ?_
      have := Real.add_one_le_exp (-(1 / 10000) : ℝ)
      rw [Real.exp_neg] at this
      have q := Real.exp_pos (1 / 10000)
      have : 1 / 2 ≤ (Real.exp (1 / 10000))⁻¹ := by linarith
      have := (le_inv_comm₀ (by norm_num) q).1 this
      linarith
    rw [e1, abs_mul, abs_mul, abs_mul (κ), abs_of_pos (Real.exp_pos (κ * (s - y c)))]
    calc |D * Real.exp (κ * y c)| * (|κ| * |κ|) * Real.exp (κ * (s - y c)) ≤ 1000000 * (100 * 100) * 2 := by gcongr
      _ = _ := by norm_num

end JacCheck

namespace Ode
namespace ThreePhase
open JacCheck Function Complex Phasor Grad

/-- Normal operation: positive DC voltage below the cap, producing PV module, no limit reached. -/
structure Normal (p : Par) (i : Inp) (y : V → ℝ) : Prop where
  dc : 0 < y .Vdc
  cap : y .Vdc * p.Vdcbase < p.Vdcmpp_max
  pv : 0 < PV.ipv p.mod i.Sinsol i.Tactual (y .Vdc * p.Vdcbase)
  ma : ‖(p.Kp_GCC : ℂ) * ⟨y .uaR, y .uaI⟩ + ⟨y .xaR, y .xaI⟩‖ < p.m_limit
  mb : ‖(p.Kp_GCC : ℂ) * ⟨y .ubR, y .ubI⟩ + ⟨y .xbR, y .xbI⟩‖ < p.m_limit
  mc : ‖(p.Kp_GCC : ℂ) * ⟨y .ucR, y .ucI⟩ + ⟨y .xcR, y .xcI⟩‖ < p.m_limit
  r : ‖(envT p i y).ia_ref‖ < p.iref_limit

theorem Normal.regular {p : Par} {i : Inp} {y : V → ℝ} (h : Normal p i y) (hb : 0 < p.Vdcbase) : Regular p i y :=
  ⟨hb, h.dc, h.cap, h.pv, ⟨h.ma.ne, fun h' => absurd h' (not_lt.2 h.ma.le)⟩, ⟨h.mb.ne, fun h' => absurd h' (not_lt.2 h.mb.le)⟩, ⟨h.mc.ne, fun h' => absurd h' (not_lt.2 h.mc.le)⟩,
    h.r.ne, fun h' => absurd h' (not_lt.2 h.r.le)⟩

/-- The Jacobian as `jac_ODE_model` returns it on a first call. -/
noncomputable def J1 (p : Par) (i : Inp) (y : V → ℝ) : V → V → ℝ := jac lit1 lit2 (envT p i y) (fun _ _ => 0)

/-- The rows of the Jacobian without the saturation tests, which are false in normal operation. -/
theorem not_sat {p : Par} {i : Inp} {y : V → ℝ} (h : Normal p i y) :
    (¬ ‖(((envT p i y).Kp_GCC : ℝ) : ℂ) * (envT p i y).ua + (envT p i y).xa‖ > (envT p i y).m_limit) ∧
    (¬ ‖(((envT p i y).Kp_GCC : ℝ) : ℂ) * (envT p i y).ub + (envT p i y).xb‖ > (envT p i y).m_limit) ∧
    (¬ ‖(((envT p i y).Kp_GCC : ℝ) : ℂ) * (envT p i y).uc + (envT p i y).xc‖ > (envT p i y).m_limit) ∧
    (¬ ‖((((envT p i y).xDC + ((envT p i y).Kp_DC * ((envT p i y).Vdc_ref - (envT p i y).Vdc))) : ℝ) : ℂ) + (Complex.I * ((((envT p i y).xQ - ((envT p i y).Kp_Q * ((envT p i y).Q_ref - ((envT p i y).S_PCC).im))) : ℝ) : ℂ))‖
    > (envT p i y).iref_limit) := ⟨not_lt.2 h.ma.le, not_lt.2 h.mb.le, not_lt.2 h.mc.le, not_lt.2 h.r.le⟩

set_option maxHeartbeats 40000000 in
/-- Outside the PLL column and the diagonal entry of the DC voltage, an entry does not depend on the state of its own column. -/
theorem jac_inv (p : Par) (i : Inp) (y : V → ℝ) (s s1 s2 : ℝ) (r c : V) (h0 : Normal p i y) (h1 : Normal p i (update y c s)) (hc : c ≠ .wte) (hrc : ¬(r = .Vdc ∧ c = .Vdc)) :
    jac s1 s2 (envT p i (update y c s)) (fun _ _ => 0) r c = jac s1 s2 (envT p i y) (fun _ _ => 0) r c := by
  obtain ⟨a0, b0, c0, r0⟩ := not_sat h0
  obtain ⟨a1, b1, c1, r1⟩ := not_sat h1
  clear h0 h1
  generalize hz : update y c s = z at *
  have hd : ∀ d, d ≠ c → z d = y d := fun d hd => by rw [← hz, update_of_ne hd]
  clear hz
  cases r <;> cases c <;> first
    | exact absurd rfl hc
    | exact absurd ⟨rfl, rfl⟩ hrc
    | rfl
    | (simp only [jac, jac_iaR, jac_iaI, jac_ibR, jac_ibI, jac_icR, jac_icI, jac_xPLL, jac_wte, jac_Vdc]
       simp only [envT, env3, Env.base]
       simp [hd]; done)
    | (simp only [jac, jac_xaR, jac_xaI, jac_xbR, jac_xbI, jac_xcR, jac_xcI, jac_uaR, jac_uaI, jac_ubR, jac_ubI, jac_ucR, jac_ucI, jac_xDC, jac_xQ, if_neg a0, if_neg a1, if_neg b0, if_neg b1, if_neg c0, if_neg c1, if_neg r0, if_neg r1]
       rfl)

/-- The factor with which the PLL angle enters a row. -/
noncomputable def K (p : Par) (y : V → ℝ) : V → ℝ
  | .iaR => p.Kp_PLL * y .iaI / p.wbase
  | .iaI => -(p.Kp_PLL * y .iaR / p.wbase)
  | .ibR => p.Kp_PLL * y .ibI / p.wbase
  | .ibI => -(p.Kp_PLL * y .ibR / p.wbase)
  | .icR => p.Kp_PLL * y .icI / p.wbase
  | .icI => -(p.Kp_PLL * y .icR / p.wbase)
  | .xPLL => p.Ki_PLL
  | .wte => p.Kp_PLL
  | _ => 0

set_option maxHeartbeats 4000000 in
theorem jac_wte_col (p : Par) (i : Inp) (y : V → ℝ) (s1 s2 : ℝ) (r : V) : jac s1 s2 (envT p i y) (fun _ _ => 0) r .wte = K p y r * dvd3 s2 i.va i.vb i.vc i.w i.t (y .wte) := by
  cases r <;> simp only [jac, jac_iaR, jac_iaI, jac_xaR, jac_xaI, jac_uaR, jac_uaI, jac_ibR, jac_ibI, jac_xbR, jac_xbI, jac_ubR, jac_ubI, jac_icR, jac_icI, jac_xcR,
      jac_xcI, jac_ucR, jac_ucI, jac_Vdc, jac_xDC, jac_xQ, jac_xPLL, jac_wte, jac_Vrms, K, zero_mul] <;> (simp only [envT, env3, Env.base, dvd3]; ring)

theorem dvd3_sine (s2 : ℝ) (va vb vc : ℂ) (w t : ℝ) : ∃ A B : ℝ, ∀ s, dvd3 s2 va vb vc w t s = A * Real.cos s + B * Real.sin s := by
  refine ⟨2 / 3 * (s2 * ‖vb‖ * Real.cos (w * t + arg vb - Real.pi / 2) - s2 * ‖vc‖ * Real.cos (w * t + arg vc - Real.pi / 2)),
    2 / 3 * (-‖va‖ * Real.cos (w * t + arg va - Real.pi / 2) + 1 / 2 * ‖vb‖ * Real.cos (w * t + arg vb - Real.pi / 2) + 1 / 2 * ‖vc‖ * Real.cos (w * t + arg vc - Real.pi / 2)), fun s => ?_⟩
  unfold dvd3; ring

/-- Magnitudes that keep the errors of the central difference and of the truncated constants far below the tolerance of the check. -/
structure Moderate (p : Par) (i : Inp) (y : V → ℝ) : Prop where
  pv : |PV.coef p.mod i.Tactual * p.Vdcbase| ≤ 100
  slope : |J1 p i y .Vdc .Vdc| ≤ 1000000
  angle : ∀ r, |J1 p i y r .wte| ≤ 1000000
  trunc : ∀ r c, |jac 1 0 (envT p i y) (fun _ _ => 0) r c - jac 0 0 (envT p i y) (fun _ _ => 0) r c| + |jac 0 1 (envT p i y) (fun _ _ => 0) r c - jac 0 0 (envT p i y) (fun _ _ => 0) r c| ≤ 1000000

/-- What the difference quotients are: the matrix with the exact constant, up to the error of the central difference. -/
theorem num_close (p : Par) (hb : 0 < p.Vdcbase) (i : Inp) (y : V → ℝ) (r c : V) (hn : ∀ s, |s - y c| ≤ eps → Normal p i (update y c s)) (hm : Moderate p i y) (hr : r ≠ .Vrms) :
    |J1 p i y r c - num (fun z => rhs (envT p i z)) y r c| < 1 / 100 := by
  have n0 : Normal p i y := by
    have := hn (y c) (by rw [sub_self, abs_zero]; exact SinglePhase.eps_pos.le)
    rwa [update_eq_self] at this
  have D : ∀ s, |s - y c| ≤ eps → HasDerivAt (fun s => rhs (envT p i (update y c s)) r) (jac (Real.sqrt 3 / 2) (Real.sqrt 3 / 2) (envT p i (update y c s)) (fun _ _ => 0) r c) s := by
    intro s hs
    have := (row_grad p i _ ((hn s hs).regular hb) r hr).partial c
    simpa only [update_idem, update_self] using this
  have T := (jac_close (envT p i y) (fun _ _ => 0) r c).trans (mul_le_mul_of_nonneg_left (hm.trunc r c) (by norm_num))
  by_cases hc : c = .wte
  · subst hc
    obtain ⟨A, B, hAB⟩ := dvd3_sine (Real.sqrt 3 / 2) i.va i.vb i.vc i.w i.t
    have k := num_of_sine (f := fun z => rhs (envT p i z)) (y := y) (r := r) (c := V.wte) (A := K p y r * A) (B := K p y r * B) (fun s hs => by
      refine (D s hs).congr_deriv ?_
      have e : K p (update y .wte s) r = K p y r := by cases r <;> simp [K]
      rw [jac_wte_col, update_self, hAB, e]; ring)
    have e : (K p y r * A * Real.cos (y .wte) + K p y r * B * Real.sin (y .wte)) = jac (Real.sqrt 3 / 2) (Real.sqrt 3 / 2) (envT p i y) (fun _ _ => 0) r .wte := by
      rw [jac_wte_col, hAB]; ring
    rw [e] at k
    have a := SinglePhase.σ_lt
    have b := SinglePhase.σ_gt
    have hJ := hm.angle r
    rw [k]
    change |J1 p i y r .wte - _ * SinglePhase.σ| < _
    change |J1 p i y r .wte - _| ≤ _ at T
    generalize jac (Real.sqrt 3 / 2) (Real.sqrt 3 / 2) (envT p i y) (fun _ _ => 0) r .wte = X at *
    generalize J1 p i y r .wte = Y at *
    have hX : |X| ≤ 1000001 := by
      have := abs_sub_abs_le_abs_sub X Y
      rw [abs_sub_comm] at this
      norm_num at T
      linarith
    have e : Y - X * SinglePhase.σ = (Y - X) + X * (1 - SinglePhase.σ) := by ring
    rw [e]
    refine (abs_add_le _ _).trans_lt ?_
    rw [abs_mul, abs_of_pos (show (0 : ℝ) < 1 - SinglePhase.σ by linarith)]
    have : |X| * (1 - SinglePhase.σ) ≤ 1000001 * (eps ^ 2 / 4) := by
      gcongr
      linarith
    have q : 1000001 * (eps ^ 2 / 4) < 1 / 200 := by norm_num [eps]
    norm_num at T
    linarith
  · by_cases hrc : r = .Vdc ∧ c = .Vdc
    · obtain ⟨rfl, rfl⟩ := hrc
      set κ := PV.coef p.mod i.Tactual * p.Vdcbase with eκ
      set A := -(p.mod.Np * p.mod.Irs * p.Vdcbase / (p.mod.Sbase * p.C)) with eA
      have eJ : ∀ s1 s2 (z : V → ℝ), jac s1 s2 (envT p i z) (fun _ _ => 0) .Vdc .Vdc = A * κ * Real.exp (κ * z .Vdc) := by
        intro s1 s2 z
        simp only [jac, jac_Vdc]
        simp only [envT, env3, Env.base, eA, eκ, PV.coef]
        rw [show p.mod.q * z .Vdc * p.Vdcbase / (p.mod.k * p.mod.A * p.mod.Ns * i.Tactual) = p.mod.q / (p.mod.k * i.Tactual * p.mod.A * p.mod.Ns) * p.Vdcbase * z .Vdc by ring]
        ring
      have hs := hm.slope
      unfold J1 at hs ⊢
      rw [eJ] at hs ⊢
      refine num_of_exp (f := fun z => rhs (envT p i z)) (fun s hs => ?_) hm.pv hs
      refine (D s hs).congr_deriv ?_
      rw [eJ, update_self]
    · have k := num_of_const (f := fun z => rhs (envT p i z)) (y := y) (r := r) (c := c) (d := jac (Real.sqrt 3 / 2) (Real.sqrt 3 / 2) (envT p i y) (fun _ _ => 0) r c) (fun s hs => by
        refine (D s hs).congr_deriv ?_
        exact jac_inv p i y s _ _ r c n0 (hn s hs) hc hrc)
      rw [k]
      refine lt_of_le_of_lt T ?_
      norm_num

/-- C125 for the three-phase model in normal operation (also under the steps of the check): the check reports the entry of the RMS filter, which the Jacobian method omits, and nothing else. -/
theorem C125_three_phase (p : Par) (hb : 0 < p.Vdcbase) (i : Inp) (y : V → ℝ) (hn : ∀ c s, |s - y c| ≤ eps → Normal p i (update y c s)) (hm : Moderate p i y) (r c : V) :
    Reported (fun z => rhs (envT p i z)) (J1 p i) y r c ↔ r = .Vrms ∧ c = .Vrms ∧ 1 / 100 ≤ |1 / p.Tfilter_Vrms| := by
  rw [reported_iff]
  by_cases hr : r = .Vrms
  · subst hr
    have k := num_of_const (f := fun z => rhs (envT p i z)) (y := y) (r := V.Vrms) (c := c) (d := if c = .Vrms then -(1 / p.Tfilter_Vrms) else 0) (fun s hs => by
      have := (row_grad_Vrms p i (update y c s)).partial c
      simpa only [update_idem, update_self] using this)
    rw [k]
    have e : J1 p i y .Vrms c = 0 := rfl
    rw [e]
    by_cases hc : c = .Vrms
    · subst hc
      rw [if_pos rfl, sub_neg_eq_add, zero_add]
      exact ⟨fun h => ⟨rfl, rfl, h⟩, fun h => h.2.2⟩
    · rw [if_neg hc, sub_zero, abs_zero]
      exact ⟨fun h => by norm_num at h, fun h => absurd h.2.1 hc⟩
  · exact ⟨fun h => absurd (num_close p hb i y r c (hn c) hm hr) (not_lt.2 h), fun h => absurd h.1 hr⟩

/-- At most that entry can be reported, and the check fails whenever the filter's time constant is below 100 s. -/
theorem C125_three_phase_fails (p : Par) (hb : 0 < p.Vdcbase) (i : Inp) (y : V → ℝ) (hn : ∀ c s, |s - y c| ≤ eps → Normal p i (update y c s)) (hm : Moderate p i y)
    (hT : 0 < p.Tfilter_Vrms) (hT' : p.Tfilter_Vrms ≤ 100) : ¬ Passes (fun z => rhs (envT p i z)) (J1 p i) y := by
  intro h
  refine h .Vrms .Vrms ((C125_three_phase p hb i y hn hm _ _).2 ⟨rfl, rfl, ?_⟩)
  rw [abs_of_pos (by positivity)]
  exact one_div_le_one_div_of_le hT hT'

theorem exBox (z : V → ℝ) (hz : ∀ c, |z c - exState c| ≤ eps) : Normal exPar exInp z := by
  have B : ∀ c, exState c - 1 / 1000000 ≤ z c ∧ z c ≤ exState c + 1 / 1000000 := fun c => by
    have := abs_le.1 (hz c); unfold eps at this; exact ⟨by linarith [this.1], by linarith [this.2]⟩
  have aR := B .iaR; have aI := B .iaI; have bR := B .ibR; have bI := B .ibI; have cR := B .icR; have cI := B .icI
  have xaR := B .xaR; have xaI := B .xaI; have uaR := B .uaR; have uaI := B .uaI
  have xbR := B .xbR; have xbI := B .xbI; have ubR := B .ubR; have ubI := B .ubI
  have xcR := B .xcR; have xcI := B .xcI; have ucR := B .ucR; have ucI := B .ucI
  have bV := B .Vdc; have bD := B .xDC; have bQ := B .xQ
  simp only [exState] at *
  have unit : ∀ a b c d : ℝ, |12 * a + c| ≤ 91 / 100 → |12 * b + d| ≤ 11 / 100 → ‖(exPar.Kp_GCC : ℂ) * ⟨a, b⟩ + ⟨c, d⟩‖ < exPar.m_limit := by
    intro a b c d h1 h2
    have : exPar.m_limit = 1 := rfl
    rw [this]
    have hs : ‖(exPar.Kp_GCC : ℂ) * ⟨a, b⟩ + ⟨c, d⟩‖ ^ 2 < 1 ^ 2 := by
      rw [← normSq_eq_norm_sq, normSq_apply]
      simp only [add_re, add_im, mul_re, mul_im, Complex.ofReal_re, Complex.ofReal_im, zero_mul, sub_zero, add_zero, exPar]
      have q1 := mul_self_le_mul_self (abs_nonneg _) h1
      have q2 := mul_self_le_mul_self (abs_nonneg _) h2
      rw [abs_mul_abs_self] at q1 q2
      linarith
    exact (pow_lt_pow_iff_left₀ (norm_nonneg _) zero_le_one two_ne_zero).1 hs
  refine ⟨by linarith, ?_, ?_, unit _ _ _ _ ?_ ?_, unit _ _ _ _ ?_ ?_, unit _ _ _ _ ?_ ?_, ?_⟩
  · norm_num [exPar]; linarith
  · have h0 : PV.coef PV.exMod (29815 / 100) * (z .Vdc * 500) ≤ 16 := by
      have : z .Vdc * 500 ≤ 551 := by linarith
      calc _ ≤ PV.coef PV.exMod (29815 / 100) * 551 := by
            refine mul_le_mul_of_nonneg_left this ?_
            norm_num [PV.coef, PV.exMod]
        _ ≤ 16 := by norm_num [PV.coef, PV.exMod]
    have h1 := Real.exp_le_exp.2 h0
    have h2 : Real.exp 16 ≤ (2.7182818286 : ℝ) ^ 16 := by
      have : Real.exp 16 = Real.exp 1 ^ 16 := by rw [← Real.exp_nat_mul]; norm_num
      rw [this]
      exact pow_le_pow_left₀ (Real.exp_pos 1).le Real.exp_one_lt_d9.le 16
    have h3 := h1.trans h2
    rw [PV.ipv_eq]
    simp only [exPar, exInp]
    generalize Real.exp _ = E at *
    norm_num [PV.iph, PV.exMod] at *
    linarith
  · exact abs_le.2 ⟨by linarith, by linarith⟩
  · exact abs_le.2 ⟨by linarith, by linarith⟩
  · exact abs_le.2 ⟨by linarith, by linarith⟩
  · exact abs_le.2 ⟨by linarith, by linarith⟩
  · exact abs_le.2 ⟨by linarith, by linarith⟩
  · exact abs_le.2 ⟨by linarith, by linarith⟩
  · have : exPar.iref_limit = 3 / 2 := rfl
    rw [this]
    refine (Complex.norm_le_abs_re_add_abs_im _).trans_lt ?_
    obtain ⟨s1, s2⟩ := sqrt3_bounds
    simp only [envT, env3, iref_re, iref_im, sCalc_im, exPar, exInp, ub_re, ub_im, uc_re, uc_im]
    have h1 : |z .xDC + -4 * (11 / 10 - z .Vdc)| ≤ 9 / 10 := abs_le.2 ⟨by linarith, by linarith⟩
    have t : ∀ w : ℝ, (0 - 1 / 1000000 ≤ w ∧ w ≤ 0 + 1 / 1000000) → |Real.sqrt 3 * w| ≤ 1 / 1000 := by
      intro w hw
      rw [abs_mul, abs_of_pos (by linarith)]
      have : |w| ≤ 1 / 1000000 := abs_le.2 ⟨by linarith, by linarith⟩
      calc Real.sqrt 3 * |w| ≤ 2 * (1 / 1000000) := by
            refine mul_le_mul (by linarith) this (abs_nonneg _) (by norm_num)
        _ ≤ _ := by norm_num
    have t1 := abs_le.1 (t _ bR)
    have t2 := abs_le.1 (t _ bI)
    have t3 := abs_le.1 (t _ cR)
    have t4 := abs_le.1 (t _ cI)
    norm_num at *
    refine lt_of_le_of_lt (add_le_add h1 (abs_le.2 ⟨?_, ?_⟩)) (show (9 / 10 + 1 / 2 : ℝ) < 3 / 2 by norm_num)
    · linarith
    · linarith

theorem ex_hn : ∀ c s, |s - exState c| ≤ eps → Normal exPar exInp (update exState c s) := by
  intro c s hs
  refine exBox _ fun d => ?_
  by_cases h : d = c
  · subst h; rwa [update_self]
  · rw [update_of_ne h, sub_self, abs_zero]; exact SinglePhase.eps_pos.le

theorem ex_dvd3 (s2 s : ℝ) (h2 : |s2| ≤ 1) : |dvd3 s2 exInp.va exInp.vb exInp.vc exInp.w exInp.t s| ≤ 2 := by
  have na : ‖exInp.va‖ = 1 / 2 := by norm_num [exInp]
  have nb : ‖exInp.vb‖ = 1 / 2 := by simp only [exInp]; rw [(C47_phase_shift _).1]; norm_num
  have nc : ‖exInp.vc‖ = 1 / 2 := by simp only [exInp]; rw [(C47_phase_shift _).2.1]; norm_num
  have m : ∀ a b : ℝ, |a| ≤ 1 → |b| ≤ 1 → |a * b| ≤ 1 := fun a b ha hb => by
    rw [abs_mul]; exact mul_le_one₀ ha (abs_nonneg _) hb
  unfold dvd3
  rw [na, nb, nc]
  have a := m _ _ (Real.abs_cos_le_one (exInp.w * exInp.t + arg exInp.va - Real.pi / 2)) (Real.abs_sin_le_one s)
  have b := m _ _ (Real.abs_cos_le_one (exInp.w * exInp.t + arg exInp.vb - Real.pi / 2)) (Real.abs_sin_le_one s)
  have c := m _ _ (Real.abs_cos_le_one (exInp.w * exInp.t + arg exInp.vc - Real.pi / 2)) (Real.abs_sin_le_one s)
  have b' := m _ _ h2 (m _ _ (Real.abs_cos_le_one (exInp.w * exInp.t + arg exInp.vb - Real.pi / 2)) (Real.abs_cos_le_one s))
  have c' := m _ _ h2 (m _ _ (Real.abs_cos_le_one (exInp.w * exInp.t + arg exInp.vc - Real.pi / 2)) (Real.abs_cos_le_one s))
  rw [abs_le] at *
  constructor <;> linarith

theorem ex_K (r : V) : |K exPar exState r| ≤ 320 := by
  cases r <;> norm_num [K, exPar, exState, abs_of_pos, abs_of_neg]

set_option maxHeartbeats 40000000 in
theorem ex_moderate : Moderate exPar exInp exState := by
  have hN : Normal exPar exInp exState := by
    have := ex_hn .wte (exState .wte) (by rw [sub_self, abs_zero]; exact SinglePhase.eps_pos.le)
    rwa [update_eq_self] at this
  have W : ∀ s1 s2 : ℝ, |s2| ≤ 1 → ∀ r, |jac s1 s2 (envT exPar exInp exState) (fun _ _ => 0) r .wte| ≤ 640 := by
    intro s1 s2 h2 r
    rw [jac_wte_col, abs_mul]
    calc _ ≤ (320 : ℝ) * 2 := mul_le_mul (ex_K r) (ex_dvd3 s2 _ h2) (abs_nonneg _) (by norm_num)
      _ = _ := by norm_num
  refine ⟨?_, ?_, fun r => (W _ _ (by norm_num [lit2, abs_of_pos]) r).trans (by norm_num), fun r c => ?_⟩
  · rw [abs_of_nonneg] <;> norm_num [PV.coef, exPar, exInp, PV.exMod]
  · have h0 : PV.exMod.q * (11 / 10) * 500 / (PV.exMod.k * PV.exMod.A * PV.exMod.Ns * (29815 / 100)) ≤ 16 := by norm_num [PV.exMod]
    have h1 := Real.exp_le_exp.2 h0
    have h2 : Real.exp 16 ≤ (2.7182818286 : ℝ) ^ 16 := by
      have : Real.exp 16 = Real.exp 1 ^ 16 := by rw [← Real.exp_nat_mul]; norm_num
      rw [this]
      exact pow_le_pow_left₀ (Real.exp_pos 1).le Real.exp_one_lt_d9.le 16
    have h3 := h1.trans h2
    simp only [J1, jac, jac_Vdc]
    simp only [envT, env3, Env.base, exState, exPar, exInp]
    have hp := Real.exp_pos (PV.exMod.q * (11 / 10) * 500 / (PV.exMod.k * PV.exMod.A * PV.exMod.Ns * (29815 / 100)))
    generalize Real.exp _ = E at *
    rw [abs_mul, abs_of_pos hp]
    refine (mul_le_mul_of_nonneg_left h3 (abs_nonneg _)).trans ?_
    rw [abs_div, abs_neg]
    norm_num [PV.exMod, abs_of_pos]
  · by_cases hc : c = .wte
    · subst hc
      have w0 := W 0 0 (by norm_num) r
      have w1 := W 1 0 (by norm_num) r
      have w2 := W 0 1 (by norm_num) r
      have t1 := abs_sub (jac 1 0 (envT exPar exInp exState) (fun _ _ => 0) r .wte) (jac 0 0 (envT exPar exInp exState) (fun _ _ => 0) r .wte)
      have t2 := abs_sub (jac 0 1 (envT exPar exInp exState) (fun _ _ => 0) r .wte) (jac 0 0 (envT exPar exInp exState) (fun _ _ => 0) r .wte)
      linarith
    · obtain ⟨a0, b0, c0, r0⟩ := not_sat hN
      obtain ⟨s1, s2⟩ := sqrt3_bounds
      have s3 : |Real.sqrt 3| ≤ 2 := by rw [abs_of_pos (by linarith)]; linarith
      clear W hN
      cases r <;> cases c <;> first
        | exact absurd rfl hc
        | (norm_num [jac, jac_iaR, jac_iaI, jac_ibR, jac_ibI, jac_icR, jac_icI, jac_xPLL, jac_wte, jac_Vdc, jac_Vrms, jac_xaR, jac_xaI, jac_xbR, jac_xbI, jac_xcR, jac_xcI]; done)
        | (simp only [jac, jac_xaR, jac_xaI, jac_xbR, jac_xbI, jac_xcR, jac_xcI, jac_uaR, jac_uaI, jac_ubR, jac_ubI, jac_ucR, jac_ucI, jac_xDC, jac_xQ, if_neg a0, if_neg b0, if_neg c0, if_neg r0]
           try simp only [envT, env3, Env.base, exPar, exInp, ub_re, ub_im, uc_re, uc_im]
           norm_num [abs_of_pos, abs_of_neg]
           done)
        | (simp only [jac, jac_xaR, jac_xaI, jac_xbR, jac_xbI, jac_xcR, jac_xcI, jac_uaR, jac_uaI, jac_ubR, jac_ubI, jac_ucR, jac_ucI, jac_xDC, jac_xQ, if_neg a0, if_neg b0, if_neg c0, if_neg r0]
           try simp only [envT, env3, Env.base, exPar, exInp, ub_re, ub_im, uc_re, uc_im]
           norm_num [abs_mul, abs_div, abs_of_pos, abs_of_neg]
           linarith)
        | (simp only [jac, jac_uaR, jac_uaI, jac_ubR, jac_ubI, jac_ucR, jac_ucI, jac_xDC, jac_xQ, if_neg a0, if_neg b0, if_neg c0, if_neg r0]
           simp only [envT, env3, Env.base, exPar, exInp, ub_re, ub_im, uc_re, uc_im]
           norm_num
           exact abs_le.2 ⟨by linarith, by linarith⟩)

theorem moderate_update {p : Par} {i : Inp} {y : V → ℝ} (h : Moderate p i y) (s : ℝ) : Moderate p i (update y .Vrms s) := by
  have e : envT p i (update y .Vrms s) = { envT p i y with Vrms_filter := s } := by simp [envT, env3]
  have j : ∀ s1 s2 r c, jac s1 s2 (envT p i (update y .Vrms s)) (fun _ _ => 0) r c = jac s1 s2 (envT p i y) (fun _ _ => 0) r c := by
    intro s1 s2 r c
    rw [e]
    generalize envT p i y = e'
    cases r <;> rfl
  obtain ⟨h1, h2, h3, h4⟩ := h
  unfold J1 at h2 h3
  refine ⟨h1, ?_, ?_, ?_⟩
  · unfold J1; rw [j]; exact h2
  · intro r; unfold J1; rw [j]; exact h3 r
  · intro r c; rw [j, j, j]; exact h4 r c

/-- Beside the theorem: with the shipped RMS filter the missing entry is reported, alone. -/
example (r c : V) : Reported (fun z => rhs (envT exPar exInp z)) (J1 exPar exInp) exState r c ↔ r = .Vrms ∧ c = .Vrms := by
  rw [C125_three_phase exPar (by norm_num [exPar]) exInp _ ex_hn ex_moderate]
  exact ⟨fun h => ⟨h.1, h.2.1⟩, fun h => ⟨h.1, h.2, by norm_num [exPar, abs_of_pos]⟩⟩

end ThreePhase

namespace ThreePhaseNoVrmsFilter
open JacCheck Function Complex Phasor Grad

/-- The Jacobian as `jac_ODE_model` returns it on a first call. -/
noncomputable def J1 (p : Par) (i : Inp) (y : V → ℝ) : V → V → ℝ := jac lit1 lit2 (envN p i y) (fun _ _ => 0)

/-- C125 for the model without RMS filter in normal operation: the check passes. -/
theorem C125_no_filter_passes (p : Par) (hb : 0 < p.Vdcbase) (i : Inp) (y : V → ℝ) (hn : ∀ c s, |s - y c| ≤ eps → ThreePhase.Normal p i (lift (update y c s))) (hm : ThreePhase.Moderate p i (lift y)) :
    Passes (fun z => rhs (envN p i z)) (J1 p i) y := by
  intro r c h
  rw [reported_iff] at h
  have k := ThreePhase.num_close p hb i (lift y) (emb r) (emb c) (fun s hs => by rw [← lift_update]; exact hn c s (by rwa [lift_emb] at hs)) hm (emb_ne r)
  have e1 : num (fun z => rhs (envN p i z)) y r c = num (fun z => ThreePhase.rhs (envT p i z)) (lift y) (emb r) (emb c) := by
    unfold num
    simp only [rhs_eq, env_eq, lift_update, lift_emb]
  have e2 : J1 p i y r c = ThreePhase.J1 p i (lift y) (emb r) (emb c) := by
    unfold J1 ThreePhase.J1
    rw [jac_eq, env_eq]
  rw [e1, e2] at h
  exact absurd k (not_lt.2 h)

/-- A state of this class in normal operation, phase b and c currents and controllers zero. -/
noncomputable def exState : V → ℝ
  | .iaR => 4/5 | .iaI => 1/10 | .xaR => 9/10 | .xaI => 1/10 | .Vdc => 11/10 | .xDC => 4/5 | .wte => 1/10 | _ => 0

/-- Beside the theorem: the check passes at a loaded state. -/
example : Passes (fun z => rhs (envN exPar exInp z)) (J1 exPar exInp) exState := by
  have e : ∀ s, update (lift exState) .Vrms s = update ThreePhase.exState .Vrms s := by
    intro s; funext v
    cases v <;> rfl
  have hl : lift exState = update ThreePhase.exState .Vrms 0 := by
    rw [← e]; funext v; cases v <;> rfl
  have hN : ∀ z : ThreePhase.V → ℝ, ThreePhase.Normal exPar exInp (update z .Vrms (1 / 3)) → ThreePhase.Normal exPar exInp (update z .Vrms 0) := fun z h => ⟨h.dc, h.cap, h.pv, h.ma, h.mb, h.mc, h.r⟩
  refine C125_no_filter_passes exPar (by norm_num [exPar]) exInp exState (fun c s hs => ?_) ?_
  · have h := ThreePhase.ex_hn (emb c) s (by
      have : ThreePhase.exState (emb c) = exState c := by cases c <;> rfl
      rwa [this])
    rw [lift_update, hl, update_comm (emb_ne c).symm]
    refine hN _ ?_
    have q : update (update ThreePhase.exState (emb c) s) .Vrms (1 / 3) = update ThreePhase.exState (emb c) s := by
      rw [← update_comm (emb_ne c).symm]
      congr 1
      funext v; cases v <;> rfl
    rwa [q]
  · rw [hl]
    exact ThreePhase.moderate_update ThreePhase.ex_moderate 0

end ThreePhaseNoVrmsFilter

namespace ThreePhaseNumba
open JacCheck Function

/-- The two lists of states have the same names in the other direction, too. -/
theorem emb_surj (c : ThreePhaseNoVrmsFilter.V) : ∃ d : V, emb d = c := by
  cases c
  all_goals first
    | exact ⟨.iaR, rfl⟩ | exact ⟨.iaI, rfl⟩ | exact ⟨.xaR, rfl⟩ | exact ⟨.xaI, rfl⟩ | exact ⟨.uaR, rfl⟩ | exact ⟨.uaI, rfl⟩ | exact ⟨.ibR, rfl⟩ | exact ⟨.ibI, rfl⟩ | exact ⟨.xbR, rfl⟩ | exact ⟨.xbI, rfl⟩
    | exact ⟨.ubR, rfl⟩ | exact ⟨.ubI, rfl⟩ | exact ⟨.icR, rfl⟩ | exact ⟨.icI, rfl⟩ | exact ⟨.xcR, rfl⟩ | exact ⟨.xcI, rfl⟩ | exact ⟨.ucR, rfl⟩ | exact ⟨.ucI, rfl⟩ | exact ⟨.Vdc, rfl⟩ | exact ⟨.xDC, rfl⟩
    | exact ⟨.xQ, rfl⟩ | exact ⟨.xPLL, rfl⟩ | exact ⟨.wte, rfl⟩

/-- C125 for the compiled model: it passes exactly when the model without RMS filter does. -/
theorem C125_numba_same (p : Par) (i : Inp) (y : ThreePhaseNoVrmsFilter.V → ℝ) :
    Passes (fun z => rhs (envNumba p i z)) (fun z => jac lit1 lit2 (envNumba p i z) (fun _ _ => 0)) (fun v => y (emb v)) ↔
      Passes (fun z => ThreePhaseNoVrmsFilter.rhs (envN p i z)) (ThreePhaseNoVrmsFilter.J1 p i) y := by
  have inj := C75_numba_same_layout.2
  have e : ∀ r c, Reported (fun z => rhs (envNumba p i z)) (fun z => jac lit1 lit2 (envNumba p i z) (fun _ _ => 0)) (fun v => y (emb v)) r c ↔
      Reported (fun z => ThreePhaseNoVrmsFilter.rhs (envN p i z)) (ThreePhaseNoVrmsFilter.J1 p i) y (emb r) (emb c) := by
    intro r c
    have u : ∀ s, update (fun v => y (emb v)) c s = fun v => update y (emb c) s (emb v) := by
      intro s; funext v
      by_cases h : v = c
      · subst h; rw [update_self, update_self]
      · rw [update_of_ne h, update_of_ne (fun h' => h (inj h'))]
    rw [reported_iff, reported_iff]
    have e1 : num (fun z => rhs (envNumba p i z)) (fun v => y (emb v)) r c = num (fun z => ThreePhaseNoVrmsFilter.rhs (envN p i z)) y (emb r) (emb c) := by
      unfold num
      beta_reduce
      rw [u, u, C75_numba_same_derivatives, C75_numba_same_derivatives]
    rw [e1]
    have e2 := C75_numba_same_jacobian lit1 lit2 p i y (fun _ _ => 0) r c
    beta_reduce
    rw [e2]
    rfl
  constructor
  · intro h r c
    obtain ⟨r, rfl⟩ := emb_surj r
    obtain ⟨c, rfl⟩ := emb_surj c
    exact fun h' => h r c ((e r c).2 h')
  · intro h r c h'
    exact h (emb r) (emb c) ((e r c).1 h')

end ThreePhaseNumba

end Ode
end PvDer
