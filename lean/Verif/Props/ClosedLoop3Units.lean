import Verif.Props.ClosedLoop3
import Verif.Props.ClosedLoopDcUnits
import Verif.Props.RmsFilter

/-!
# C124 for the three-phase classes: RMS filter, shipped units
-/

namespace PvDer
namespace Ode
open Complex Phasor LocStab

namespace ThreePhase
open DcLoop (par)
open Loop3 (ofDc)

/-- The states of the class without RMS filter. -/
def ofN : ThreePhaseNoVrmsFilter.V → V
  | .iaR => .iaR | .iaI => .iaI | .xaR => .xaR | .xaI => .xaI | .uaR => .uaR | .uaI => .uaI
  | .ibR => .ibR | .ibI => .ibI | .xbR => .xbR | .xbI => .xbI | .ubR => .ubR | .ubI => .ubI
  | .icR => .icR | .icI => .icI | .xcR => .xcR | .xcI => .xcI | .ucR => .ucR | .ucI => .ucI
  | .Vdc => .Vdc | .xDC => .xDC | .xQ => .xQ | .xPLL => .xPLL | .wte => .wte

/-- The operating point: the filtered RMS voltage is the RMS voltage of the grid. -/
noncomputable def rest (p : Par) (v w U i t : ℝ) : V → ℝ
  | .iaR => Loop3.rest p v w U i t .iaR
  | .iaI => Loop3.rest p v w U i t .iaI
  | .xaR => Loop3.rest p v w U i t .xaR
  | .xaI => Loop3.rest p v w U i t .xaI
  | .uaR => Loop3.rest p v w U i t .uaR
  | .uaI => Loop3.rest p v w U i t .uaI
  | .ibR => Loop3.rest p v w U i t .ibR
  | .ibI => Loop3.rest p v w U i t .ibI
  | .xbR => Loop3.rest p v w U i t .xbR
  | .xbI => Loop3.rest p v w U i t .xbI
  | .ubR => Loop3.rest p v w U i t .ubR
  | .ubI => Loop3.rest p v w U i t .ubI
  | .icR => Loop3.rest p v w U i t .icR
  | .icI => Loop3.rest p v w U i t .icI
  | .xcR => Loop3.rest p v w U i t .xcR
  | .xcI => Loop3.rest p v w U i t .xcI
  | .ucR => Loop3.rest p v w U i t .ucR
  | .ucI => Loop3.rest p v w U i t .ucI
  | .Vdc => Loop3.rest p v w U i t .Vdc
  | .xDC => Loop3.rest p v w U i t .xDC
  | .xQ => Loop3.rest p v w U i t .xQ
  | .xPLL => Loop3.rest p v w U i t .xPLL
  | .wte => Loop3.rest p v w U i t .wte
  | .Vrms => v / Real.sqrt 2

theorem rest_ofN (p : Par) (v w U i t : ℝ) (j : ThreePhaseNoVrmsFilter.V) : rest p v w U i t (ofN j) = Loop3.rest p v w U i t j := by cases j <;> rfl

theorem rhs_ofN (e : Env) (j : ThreePhaseNoVrmsFilter.V) : rhs e (ofN j) = ThreePhaseNoVrmsFilter.rhs e j := by cases j <;> rfl

theorem cases_ofN (j : V) : j = .Vrms ∨ ∃ k, ofN k = j := by
  cases j
  case Vrms => exact Or.inl rfl
  all_goals exact Or.inr (by first
    | exact ⟨.iaR, rfl⟩ | exact ⟨.iaI, rfl⟩ | exact ⟨.xaR, rfl⟩ | exact ⟨.xaI, rfl⟩ | exact ⟨.uaR, rfl⟩ | exact ⟨.uaI, rfl⟩
    | exact ⟨.ibR, rfl⟩ | exact ⟨.ibI, rfl⟩ | exact ⟨.xbR, rfl⟩ | exact ⟨.xbI, rfl⟩ | exact ⟨.ubR, rfl⟩ | exact ⟨.ubI, rfl⟩
    | exact ⟨.icR, rfl⟩ | exact ⟨.icI, rfl⟩ | exact ⟨.xcR, rfl⟩ | exact ⟨.xcI, rfl⟩ | exact ⟨.ucR, rfl⟩ | exact ⟨.ucI, rfl⟩
    | exact ⟨.Vdc, rfl⟩ | exact ⟨.xDC, rfl⟩ | exact ⟨.xQ, rfl⟩ | exact ⟨.xPLL, rfl⟩ | exact ⟨.wte, rfl⟩)

variable {p : Par} {v w U i : ℝ}

theorem urms_grid (hv : 0 ≤ v) : urms (v : ℂ) (Phasor.ub (v : ℂ)) (Phasor.uc (v : ℂ)) = v / Real.sqrt 2 := by
  unfold urms
  rw [(C47_phase_shift _).1, (C47_phase_shift _).2.1, Complex.norm_real, Real.norm_of_nonneg hv, show (v ^ 2 + v ^ 2 + v ^ 2) / 3 = v ^ 2 by ring, Real.sqrt_sq hv]

theorem loop (inp : ℝ → Inp) {Y : ℝ → V → ℝ} {t : ℝ} (h : Solves (fun t y => rhs (envT p (inp t) y)) Y t) :
    Solves (fun t y => ThreePhaseNoVrmsFilter.rhs (env3 p (inp t) ⟨y .iaR, y .iaI⟩ ⟨y .xaR, y .xaI⟩ ⟨y .uaR, y .uaI⟩ ⟨y .ibR, y .ibI⟩ ⟨y .xbR, y .xbI⟩ ⟨y .ubR, y .ubI⟩ ⟨y .icR, y .icI⟩
      ⟨y .xcR, y .xcI⟩ ⟨y .ucR, y .ucI⟩ (y .Vdc) (y .xDC) (y .xQ) (y .xPLL) (y .wte) (Y t .Vrms))) (fun t j => Y t (ofN j)) t := by
  intro j
  have := h (ofN j)
  beta_reduce at this ⊢
  rw [rhs_ofN] at this
  exact this

/-- C124: the operating point is a solution of the three-phase model. -/
theorem C124_rest_three (hv : 0 < v) (hU : 0 < U) (hL : p.Lf ≠ 0) (hC : p.C ≠ 0) (hm : ‖(⟨(v + p.Rf * i) / (U / 2), p.Lf * (w / p.wbase) * i / (U / 2)⟩ : ℂ)‖ < p.m_limit) (hi : |i| < p.iref_limit)
    {F : ℝ → ℝ} {inp : ℝ → Inp} (ho : OperatingDc 3 p v w U i F inp) (t : ℝ) (ht : 0 ≤ t) : Solves (fun t y => rhs (envT p (inp t) y)) (rest p v w U i) t := by
  intro j
  rcases cases_ofN j with rfl | ⟨k, rfl⟩
  · have e : rhs (envT p (inp t) (rest p v w U i t)) .Vrms = 1 / p.Tfilter_Vrms * (urms (inp t).va (inp t).vb (inp t).vc - v / Real.sqrt 2) := rfl
    obtain ⟨g1, g2, g3, -, -⟩ := ho.grid t ht
    beta_reduce
    rw [e, g1, g2, g3, urms_grid hv.le, sub_self, mul_zero]
    exact hasDerivAt_const t _
  · have := Loop3.rest_solves hU hL hC ho.power hm hi (fun t y => env3 p (inp t) ⟨y .iaR, y .iaI⟩ ⟨y .xaR, y .xaI⟩ ⟨y .uaR, y .uaI⟩ ⟨y .ibR, y .ibI⟩ ⟨y .xbR, y .xbI⟩ ⟨y .ubR, y .ubI⟩ ⟨y .icR, y .icI⟩
      ⟨y .xcR, y .xcI⟩ ⟨y .ucR, y .ucI⟩ (y .Vdc) (y .xDC) (y .xQ) (y .xPLL) (y .wte) (v / Real.sqrt 2)) t (Loop3.looks_env3 hv ho ht _ _) k
    beta_reduce at this ⊢
    rw [rhs_ofN]
    simp only [rest_ofN]
    exact this

/-- C124: local exponential stability of the three-phase model; its RMS filter follows with its time constant. -/
theorem C124_settles_three (hv : 0 < v) (hU : 0 < U) (hC : p.C ≠ 0) (hT : 0 < p.Tfilter_Vrms) {F : ℝ → ℝ} {F' : ℝ} (hF : F U = 3 / 2 * (v * i + p.Rf * i ^ 2)) (hS : Smooth F U F') {ε N E ε' N' E' : ℝ}
    (cert : DcOk (par 3 p v w U i F') ε N E) (cert' : PhOk (ofDc (par 3 p v w U i F')) ε' N' E')
    (hm : ‖(⟨(v + p.Rf * i) / (U / 2), p.Lf * (w / p.wbase) * i / (U / 2)⟩ : ℂ)‖ < p.m_limit) (hi : |i| < p.iref_limit) :
    ∃ δ > 0, ∃ M > 0, ∃ a > 0, ∀ (inp : ℝ → Inp) (Y : ℝ → V → ℝ), OperatingDc 3 p v w U i F inp → (∀ t, 0 ≤ t → Solves (fun t y => rhs (envT p (inp t) y)) Y t) →
      ‖Y 0 - rest p v w U i 0‖ ≤ δ → ∀ t, 0 ≤ t → ‖Y t - rest p v w U i t‖ ≤ M * ‖Y 0 - rest p v w U i 0‖ * Real.exp (-a * t) := by
  obtain ⟨δ, hδ, M, hM, a, ha, main⟩ := Loop3.settles hU hC hF hS cert cert' hm hi
  refine ⟨δ, hδ, max M 1, lt_max_of_lt_left hM, min a (1 / p.Tfilter_Vrms), lt_min ha (by positivity), fun inp Y ho hY h0 t ht => ?_⟩
  have small : ‖(fun j => Y 0 (ofN j)) - Loop3.rest p v w U i 0‖ ≤ ‖Y 0 - rest p v w U i 0‖ := by
    refine (pi_norm_le_iff_of_nonneg (norm_nonneg _)).2 (fun j => ?_)
    have := norm_le_pi_norm (Y 0 - rest p v w U i 0) (ofN j)
    rwa [Pi.sub_apply, rest_ofN] at this
  have k := main (fun t y => env3 p (inp t) ⟨y .iaR, y .iaI⟩ ⟨y .xaR, y .xaI⟩ ⟨y .uaR, y .uaI⟩ ⟨y .ibR, y .ibI⟩ ⟨y .xbR, y .xbI⟩ ⟨y .ubR, y .ubI⟩ ⟨y .icR, y .icI⟩
      ⟨y .xcR, y .xcI⟩ ⟨y .ucR, y .ucI⟩ (y .Vdc) (y .xDC) (y .xQ) (y .xPLL) (y .wte) (Y t .Vrms)) (fun t j => Y t (ofN j)) (fun t ht y => Loop3.looks_env3 hv ho ht y _) (fun t ht => loop inp (hY t ht))
      (small.trans h0) t ht
  have f := C109_step_response p inp (fun _ => true) Y hT hY (v / Real.sqrt 2) t ht (fun s hs _ => by
    obtain ⟨g1, g2, g3, -, -⟩ := ho.grid s hs
    rw [g1, g2, g3, urms_grid hv.le])
  have n0 := norm_nonneg (Y 0 - rest p v w U i 0)
  have e1 : Real.exp (-a * t) ≤ Real.exp (-(min a (1 / p.Tfilter_Vrms)) * t) := by
    apply Real.exp_le_exp.2
    have := mul_le_mul_of_nonneg_right (min_le_left a (1 / p.Tfilter_Vrms)) ht
    linarith
  have e2 : Real.exp (-(t / p.Tfilter_Vrms)) ≤ Real.exp (-(min a (1 / p.Tfilter_Vrms)) * t) := by
    apply Real.exp_le_exp.2
    have := mul_le_mul_of_nonneg_right (min_le_right a (1 / p.Tfilter_Vrms)) ht
    rw [show t / p.Tfilter_Vrms = 1 / p.Tfilter_Vrms * t by ring]
    linarith
  have mM : (0 : ℝ) ≤ max M 1 := hM.le.trans (le_max_left _ _)
  refine (pi_norm_le_iff_of_nonneg (by positivity)).2 (fun j => ?_)
  rcases cases_ofN j with rfl | ⟨l, rfl⟩
  · have e3 : (Y t - rest p v w U i t) .Vrms = (Y 0 .Vrms - v / Real.sqrt 2) * Real.exp (-(t / p.Tfilter_Vrms)) := by
      show Y t .Vrms - v / Real.sqrt 2 = _
      rw [f]; ring
    have e4 : |Y 0 .Vrms - v / Real.sqrt 2| ≤ ‖Y 0 - rest p v w U i 0‖ := norm_le_pi_norm (Y 0 - rest p v w U i 0) .Vrms
    rw [e3, Real.norm_eq_abs, abs_mul, abs_of_pos (Real.exp_pos _)]
    calc |Y 0 .Vrms - v / Real.sqrt 2| * Real.exp (-(t / p.Tfilter_Vrms)) ≤ (1 * ‖Y 0 - rest p v w U i 0‖) * Real.exp (-(min a (1 / p.Tfilter_Vrms)) * t) := by rw [one_mul]; gcongr
      _ ≤ _ := by gcongr; exact le_max_right _ _
  · have e3 := norm_le_pi_norm ((fun j => Y t (ofN j)) - Loop3.rest p v w U i t) l
    rw [Pi.sub_apply, rest_ofN]
    refine e3.trans (k.trans ?_)
    exact mul_le_mul (mul_le_mul (le_max_left _ _) small (norm_nonneg _) mM) e1 (Real.exp_pos _).le (mul_nonneg mM n0)

end ThreePhase

/-- The certificate of the differences between phases over a range of values. -/
theorem ph_of_bounds {P : PhPar} {ε N E k0 k9 g0 g1 L0 L1 ρ0 ρ9 R9 X9 B1 : ℝ} (Kp : 0 < P.Kp) (hκ : 0 < P.κ) (hε : 0 < ε) (hN : 0 < N) (hE : 0 < E)
    (k0' : 0 < k0) (hk : k0 ≤ P.k) (hk' : P.k ≤ k9) (g0' : 0 < g0) (hg : g0 ≤ P.g) (hg' : P.g ≤ g1) (L0' : 0 < L0) (hL : L0 ≤ P.L) (hL' : P.L ≤ L1) (ρ0' : 0 < ρ0) (hρ : ρ0 ≤ P.ρ) (hρ' : P.ρ ≤ ρ9)
    (hR : |P.R| ≤ R9) (hX : |P.L * P.w0| ≤ X9)
    (c1 : 2 * ε * ρ9 ≤ k0) (c2 : 8 * ε * g1 ≤ ρ0 * L0) (c3 : 256 * (ρ9 * L1 * P.κ / g0) ^ 2 ≤ ε * k0 * ρ0) (c4 : 256 * (ρ9 * L1 * P.κ / g0) ^ 2 ≤ ε * k0 * N)
    (c5 : 32 * (ε * (ρ9 / k0) * P.κ) ≤ ρ0) (c6 : 256 * (ε * (ρ9 / k0) * P.κ) ^ 2 ≤ ρ0 * N) (c7 : 32 * N ≤ ρ0)
    (d0 : 8 * k9 / (ε * g0 ^ 2) + 8 * ε ^ 2 / (L0 ^ 2 * ρ0) ≤ B1) (e1 : B1 * R9 ^ 2 + B1 * X9 ^ 2 ≤ E) (f2 : 60 * E ≤ ε * k0) (f4 : 60 * E * (ρ9 / k0) ^ 2 ≤ N) : PhOk P ε N E := by
  have kp : 0 < P.k := by linarith
  have ρp : 0 < P.ρ := by linarith
  have ρp9 : 0 < ρ9 := by linarith
  have le : ∀ R R9, |R| ≤ R9 → lossE P.k P.g P.L P.ρ ε R ≤ B1 * R9 ^ 2 := by
    intro R R9 hR
    refine lossE_le kp g0' L0' ρ0' hε hk' hg hL hρ hR ?_
    have := mul_le_mul_of_nonneg_right d0 (sq_nonneg R9)
    refine le_trans (le_of_eq ?_) this
    ring
  refine ⟨Kp, AxisOk.of_bounds hk k0' hg hg' g0' hL hL' L0' ρp hρ' hρ ρ0' hκ hε hN (((mul_le_mul_of_nonneg_left hρ' (by linarith)).trans c1).trans hk) c2 c3 c4 c5 c6 c7, hE, ?_, ?_, ?_⟩
  · linarith [le _ _ hR, le _ _ hX]
  · refine f2.trans ?_
    gcongr
  · refine le_trans ?_ f4
    have q : (P.ρ / P.k) ^ 2 ≤ (ρ9 / k0) ^ 2 := by gcongr
    exact mul_le_mul_of_nonneg_left q (by linarith)

namespace ThreePhaseBalanced
open DcLoop (par)

theorem Unit50.phase_ok {p : Par} (h : Unit50 p) {v w U i F' : ℝ} (w1 : |w / p.wbase| ≤ 6 / 5) (U0 : 21 / 20 ≤ U) (U1 : U ≤ 13 / 10) : PhOk (Loop3.ofDc (par 3 p v w U i F')) 32 5000 10000 := by
  obtain ⟨L0, L1⟩ := shipped_L h.Lf
  have eκ : (Loop3.ofDc (par 3 p v w U i F')).κ = 1 / 3 := by
    show p.Ki_GCC / p.Kp_GCC = _
    rw [h.Kp, h.Ki]; norm_num
  have eρ : (Loop3.ofDc (par 3 p v w U i F')).ρ = 200000 - 1 / 3 := by
    show p.wp - (Loop3.ofDc (par 3 p v w U i F')).κ = _
    rw [eκ, h.wp]
  have ek : (Loop3.ofDc (par 3 p v w U i F')).k = 1200000000 := by
    show p.Kp_GCC * p.wp = _
    rw [h.Kp, h.wp]; norm_num
  refine ph_of_bounds (k0 := 1200000000) (k9 := 1200000000) (g0 := 21 / 40) (g1 := 13 / 20) (L0 := 188 / 100000) (L1 := 189 / 100000) (ρ0 := 199999) (ρ9 := 200000) (R9 := 1 / 2500) (X9 := 23 / 10000) (B1 := 1270000000)
    ?_ ?_ ?_ ?_ ?_ ?_ ?_ ?_ ?_ ?_ ?_ ?_ L0 L1 ?_ ?_ ?_ ?_ ?_ ?_ ?_ ?_ ?_ ?_ ?_ ?_ ?_ ?_ ?_ ?_
  · show 0 < p.Kp_GCC
    rw [h.Kp]; norm_num
  · rw [eκ]; norm_num
  · norm_num
  · norm_num
  · norm_num
  · norm_num
  · rw [ek]
  · rw [ek]
  · norm_num
  · show _ ≤ U / 2
    linarith
  · show U / 2 ≤ _
    linarith
  · norm_num
  · norm_num
  · rw [eρ]; norm_num
  · rw [eρ]; norm_num
  · show |p.Rf| ≤ _
    rw [h.Rf]; norm_num [abs_of_pos]
  · show |p.Lf * (w / p.wbase)| ≤ _
    rw [abs_mul, abs_of_pos (by linarith : 0 < p.Lf)]
    calc p.Lf * |w / p.wbase| ≤ 189 / 100000 * (6 / 5) := by gcongr
      _ ≤ _ := by norm_num
  all_goals first | (rw [eκ]; norm_num) | norm_num

end ThreePhaseBalanced

set_option maxHeartbeats 1000000 in
/-- The certificate over the range of the 250 kVA units. -/
theorem dc250_ok {P : DcPar} (hR : P.R = 1 / 2500) (L0 : 226 / 10000 ≤ P.L) (L1 : P.L ≤ 2263 / 100000) (g0 : 3 / 4 ≤ P.g) (g1 : P.g ≤ 1) (w1 : |P.w0| ≤ 6 / 5) (v0 : 1 / 2 ≤ P.v) (v1 : P.v ≤ 18 / 25)
    (i0 : 0 ≤ P.i) (i1 : P.i ≤ 667 / 100) (hKp : P.Kp = 6000) (hKi : P.Ki = 2000) (hwp : P.wp = 200000) (ha1 : P.a1 = 2) (ha2 : P.a2 = 10) (c0 : 1325 / 1000 ≤ P.cs) (c1 : P.cs ≤ 1771 / 1000)
    (t0 : -(59 / 100) ≤ P.ϑ) (t1 : P.ϑ ≤ 472 / 100) (hQP : P.QP = 3 / 10 * P.v) (hQI : P.QI = 15 * P.v) (hKv : 0 < P.Kv) (hJ : 0 < P.J) : DcOk P 500 5000 12000000 := by
  have ek : P.k = 1200000000 := by unfold DcPar.k; rw [hKp, hwp]; norm_num
  have eκ : P.κ = 1 / 3 := by unfold DcPar.κ; rw [hKp, hKi]; norm_num
  have eρ : P.ρ = 200000 - 1 / 3 := by unfold DcPar.ρ; rw [eκ, hwp]
  have Lp : 0 < P.L := by linarith
  have cp : 0 < P.cs := by linarith
  have ciu : P.cs * P.i ≤ 1771 / 1000 * (667 / 100) := by gcongr
  have ci0 : 0 ≤ P.cs * P.i := by positivity
  have γ0 : 0 ≤ P.γ := by unfold DcPar.γ; positivity
  have γ1 : P.γ ≤ 268 / 1000 := by
    unfold DcPar.γ
    calc P.cs * P.i * P.L ≤ (1771 / 1000 * (667 / 100)) * (2263 / 100000) := by gcongr
      _ ≤ _ := by norm_num
  have ex : P.x = P.cs * (P.v + 1 / 1250 * P.i) := by unfold DcPar.x; rw [hR]; ring
  have x0 : 6625 / 10000 ≤ P.x := by
    rw [ex]
    calc (6625 / 10000 : ℝ) = 1325 / 1000 * (1 / 2) := by norm_num
      _ ≤ _ := by gcongr; linarith
  have x1 : P.x ≤ 1285 / 1000 := by
    rw [ex]
    calc P.cs * (P.v + 1 / 1250 * P.i) ≤ 1771 / 1000 * (18 / 25 + 1 / 1250 * (667 / 100)) := by gcongr
      _ ≤ _ := by norm_num
  have eα : P.α1 = 1 + 2 * P.γ := by unfold DcPar.α1; rw [ha1]
  have eα2 : P.α2 = 1 + 3 / 10 * P.v := by unfold DcPar.α2; rw [hQP]
  have α1 : 1 ≤ P.α1 := by linarith
  have α1' : P.α1 ≤ 1536 / 1000 := by linarith
  have α2 : 1 ≤ P.α2 := by linarith
  have αγ0 : 0 ≤ P.α1 * P.γ := by positivity
  have αγ1 : P.α1 * P.γ ≤ 412 / 1000 := by
    calc P.α1 * P.γ ≤ 1536 / 1000 * (268 / 1000) := by gcongr
      _ ≤ _ := by norm_num
  have D : 73 / 100 ≤ P.ϑ + P.a2 * P.γ + P.a1 * P.x := by rw [ha1, ha2]; linarith
  have αp : 0 < P.α1 := by linarith
  have ϑγ1 : P.ϑ * P.γ ≤ 472 / 100 * (268 / 1000) := by
    calc P.ϑ * P.γ ≤ 472 / 100 * P.γ := by gcongr
      _ ≤ _ := by gcongr
  have ϑγ0 : -(59 / 100 * (268 / 1000)) ≤ P.ϑ * P.γ := by
    have h1 : -P.ϑ * P.γ ≤ 59 / 100 * P.γ := by gcongr; linarith
    have h2 : 59 / 100 * P.γ ≤ 59 / 100 * (268 / 1000) := by gcongr
    linarith
  have ϑγ2 : P.ϑ * P.γ ≤ 472 / 100 * P.γ := by gcongr
  have ϑαγ1 : P.ϑ * (P.α1 * P.γ) ≤ 472 / 100 * (412 / 1000) := by
    calc P.ϑ * (P.α1 * P.γ) ≤ 472 / 100 * (P.α1 * P.γ) := by gcongr
      _ ≤ _ := by gcongr
  have ϑαγ0 : -(59 / 100 * (412 / 1000)) ≤ P.ϑ * (P.α1 * P.γ) := by
    have h1 : -P.ϑ * (P.α1 * P.γ) ≤ 59 / 100 * (P.α1 * P.γ) := by gcongr; linarith
    have h2 : 59 / 100 * (P.α1 * P.γ) ≤ 59 / 100 * (412 / 1000) := by gcongr
    linarith
  have αx1 : P.α1 * P.x ≤ 1536 / 1000 * P.x := by gcongr
  have αx0 : P.x ≤ P.α1 * P.x := le_mul_of_one_le_left (by linarith) α1
  have eb : P.b = P.x - P.ϑ * P.γ := rfl
  have gp : 0 < P.g := by linarith
  have vR0 : 0 ≤ P.v + 1 / 2500 * P.i := by positivity
  have m0 : 0 ≤ P.m1 := by unfold DcPar.m1; rw [hR]; positivity
  have m1 : P.m1 ≤ 97 / 100 := by unfold DcPar.m1; rw [hR, div_le_iff₀ gp]; linarith
  have Xle : |P.X| ≤ 272 / 10000 := by
    unfold DcPar.X
    rw [abs_mul, abs_of_pos Lp]
    calc P.L * |P.w0| ≤ 2263 / 100000 * (6 / 5) := by gcongr
      _ ≤ _ := by norm_num
  have m2 : |P.m2| ≤ 25 / 100 := by
    show |P.X * P.i / P.g| ≤ _
    rw [abs_div, abs_of_pos gp, div_le_iff₀ gp, abs_mul, abs_of_nonneg i0]
    calc |P.X| * P.i ≤ 272 / 10000 * (667 / 100) := by gcongr
      _ ≤ 25 / 100 * (3 / 4) := by norm_num
      _ ≤ _ := by gcongr
  have β1e : P.β1 = (10 * P.γ - 2 * (P.ϑ * P.γ) + 2 * P.x) / P.α1 := by
    unfold DcPar.β1; rw [ha1, ha2]
    congr 1
    unfold DcPar.x
    ring
  have β1u : P.β1 ≤ 56 / 10 := by rw [β1e, div_le_iff₀ αp]; linarith
  have β1l : 0 ≤ P.β1 := by rw [β1e]; apply div_nonneg _ αp.le; linarith
  have Lβ : P.L * P.β1 ≤ 2263 / 100000 * (56 / 10) := by gcongr
  have Lβ0 : 0 ≤ P.L * P.β1 := by positivity
  have mγ : P.m1 * P.γ ≤ 97 / 100 * (268 / 1000) := by gcongr
  have mγ0 : 0 ≤ P.m1 * P.γ := by positivity
  have α2p : 0 < P.α2 := by linarith
  have β2e : P.β2 = 15 * P.v / P.α2 := by unfold DcPar.β2; rw [hQI]
  have β2u : P.β2 ≤ 9 := by rw [β2e, div_le_iff₀ α2p]; linarith
  have β2l : 0 ≤ P.β2 := by rw [β2e]; apply div_nonneg _ α2p.le; linarith
  have Lβ2 : P.L * P.β2 ≤ 2263 / 100000 * 9 := by gcongr
  have Lβ20 : 0 ≤ P.L * P.β2 := by positivity
  refine DcOk.of_bounds (k0 := 1200000000) (k9 := 1848000000) (g0 := 3 / 4) (g1 := 1) (L0 := 226 / 10000) (L1 := 2263 / 100000) (ρ0 := 199999) (ρ9 := 200000) (α9 := 154 / 100) (ϑ9 := 472 / 100) (b9 := 147 / 100)
    (c9 := 12) (μ9 := 65 / 100) (r9 := 18) (R19 := 131 / 1000) (R29 := 204 / 1000) (X9 := 272 / 10000) (X29 := 62 / 1000) (m29 := 25 / 100) (z9 := 38100) (B1 := 52700000) (h9 := 5 / 100000) (l9 := 2 / 1000)
    ?_ ?_ ?_ ?_ ?_ ?_ ?_ ?_ ?_ ?_ ?_ ?_ ?_ ?_ ?_ ?_ ?_ ?_ ?_ ?_ ?_ ?_ ?_ ?_ ?_ ?_ ?_ ?_ ?_ ?_ ?_ ?_ ?_ ?_ ?_ ?_ ?_ ?_ ?_ ?_ ?_ ?_ ?_ ?_ ?_ ?_ ?_ ?_ ?_ ?_ ?_ ?_ ?_ ?_ ?_
  · rw [hKp]; norm_num
  · rw [eκ]; norm_num
  · norm_num
  · norm_num
  · norm_num
  · norm_num
  · rw [ek]
  · rw [ek]; norm_num
  · norm_num
  · exact g0
  · exact g1
  · norm_num
  · exact L0
  · exact L1
  · norm_num
  · rw [eρ]; norm_num
  · rw [eρ]; norm_num
  · exact α1
  · linarith
  · exact α2
  · linarith
  · rw [hQI]; linarith
  · rw [ha2]; norm_num
  · linarith
  · linarith
  · rw [abs_le, ha1, ha2]
    constructor <;> linarith
  · rw [abs_le]
    constructor <;> linarith
  · rw [abs_le, eb]
    constructor <;> linarith
  · unfold DcPar.c
    rw [abs_div, abs_of_pos αp, div_le_iff₀ αp, abs_le, ha1, ha2]
    constructor <;> linarith
  · unfold DcPar.μ
    rw [abs_of_nonneg (by positivity), div_le_iff₀ (by positivity)]
    linarith
  · unfold DcPar.R1
    rw [hR, abs_le]
    constructor <;> linarith
  · unfold DcPar.R2
    rw [hR, abs_le]
    constructor <;> linarith
  · linarith
  · unfold DcPar.X2
    refine (abs_add_le _ _).trans ?_
    rw [abs_mul, abs_mul, abs_of_nonneg γ0, abs_of_pos (by norm_num : (0 : ℝ) < 1 / 2)]
    have : 1 / 2 * |P.m2| * P.γ ≤ 1 / 2 * (25 / 100) * (268 / 1000) := by gcongr
    linarith
  · exact m2
  all_goals first | assumption | (rw [eκ]; norm_num) | norm_num

namespace ThreePhase
open DcLoop (par)

/-- Gains, filter and DC link of the shipped 250 kVA units (config_der.json 56-77; per unit: grid_components.py 12-20). -/
structure Unit250 (p : Par) : Prop where
  Kp : p.Kp_GCC = 6000
  Ki : p.Ki_GCC = 2000
  wp : p.wp = 200000
  KpDC : p.Kp_DC = -2
  KiDC : p.Ki_DC = -10
  KpQ : p.Kp_Q = 1 / 5
  KiQ : p.Ki_Q = 10
  Rf : p.Rf = 2 / 1000 / 5
  Lf : p.Lf = 300 / 1000000 * (2 * Real.pi * 60) / 5
  C : p.C = 300 / 1000000 * (2 * Real.pi * 60) * 5
  KpPLL : 0 < p.Kp_PLL
  KiPLL : 0 < p.Ki_PLL

theorem Unit250.L {p : Par} (h : Unit250 p) : 226 / 10000 ≤ p.Lf ∧ p.Lf ≤ 2263 / 100000 := by
  rw [h.Lf]
  constructor <;> linarith [Real.pi_gt_d4, Real.pi_lt_d4]

theorem Unit250.ok {p : Par} (h : Unit250 p) {v w U i F' : ℝ} (v0 : 1 / 2 ≤ v) (v1 : v ≤ 18 / 25) (w1 : |w / p.wbase| ≤ 6 / 5) (U0 : 3 / 2 ≤ U) (U1 : U ≤ 2) (i0 : 0 ≤ i) (i1 : i ≤ 667 / 100) (f0 : -4 ≤ F')
    (f1 : F' ≤ 1 / 2) : DcOk (par 3 p v w U i F') 500 5000 12000000 := by
  obtain ⟨L0, L1⟩ := h.L
  have C0 : 565 / 1000 ≤ p.C := by rw [h.C]; linarith [Real.pi_gt_d4]
  have C1 : p.C ≤ 566 / 1000 := by rw [h.C]; linarith [Real.pi_lt_d4]
  have Cp : 0 < p.C := by linarith
  have Up : 0 < U := by linarith
  have vp : 0 < v := by linarith
  have q0 : 3 / 2 * (565 / 1000) ≤ U * p.C := by gcongr
  have q1 : U * p.C ≤ 2 * (566 / 1000) := by gcongr
  have qp : 0 < U * p.C := by positivity
  refine dc250_ok ?_ L0 L1 ?_ ?_ w1 v0 v1 i0 i1 h.Kp h.Ki h.wp ?_ ?_ ?_ ?_ ?_ ?_ ?_ ?_ (mul_pos h.KpPLL vp) (mul_pos h.KiPLL vp)
  · show p.Rf = _
    rw [h.Rf]; norm_num
  · show _ ≤ U / 2
    linarith
  · show U / 2 ≤ _
    linarith
  · show -p.Kp_DC = _
    rw [h.KpDC]; norm_num
  · show -p.Ki_DC = _
    rw [h.KiDC]; norm_num
  · show _ ≤ 3 / (2 * U * p.C)
    rw [le_div_iff₀ (by positivity)]; linarith
  · show 3 / (2 * U * p.C) ≤ _
    rw [div_le_iff₀ (by positivity)]; linarith
  · show _ ≤ -F' / (U * p.C)
    rw [le_div_iff₀ qp]; linarith
  · show -F' / (U * p.C) ≤ _
    rw [div_le_iff₀ qp]; linarith
  · show 3 / 2 * p.Kp_Q * v = 3 / 10 * v
    rw [h.KpQ]; ring
  · show 3 / 2 * p.Ki_Q * v = 15 * v
    rw [h.KiQ]; ring

theorem Unit250.phase_ok {p : Par} (h : Unit250 p) {v w U i F' : ℝ} (w1 : |w / p.wbase| ≤ 6 / 5) (U0 : 3 / 2 ≤ U) (U1 : U ≤ 2) : PhOk (Loop3.ofDc (par 3 p v w U i F')) 500 5000 30000 := by
  obtain ⟨L0, L1⟩ := h.L
  have eκ : (Loop3.ofDc (par 3 p v w U i F')).κ = 1 / 3 := by
    show p.Ki_GCC / p.Kp_GCC = _
    rw [h.Kp, h.Ki]; norm_num
  have eρ : (Loop3.ofDc (par 3 p v w U i F')).ρ = 200000 - 1 / 3 := by
    show p.wp - (Loop3.ofDc (par 3 p v w U i F')).κ = _
    rw [eκ, h.wp]
  have ek : (Loop3.ofDc (par 3 p v w U i F')).k = 1200000000 := by
    show p.Kp_GCC * p.wp = _
    rw [h.Kp, h.wp]; norm_num
  refine ph_of_bounds (k0 := 1200000000) (k9 := 1200000000) (g0 := 3 / 4) (g1 := 1) (L0 := 226 / 10000) (L1 := 2263 / 100000) (ρ0 := 199999) (ρ9 := 200000) (R9 := 1 / 2500) (X9 := 272 / 10000) (B1 := 34200000)
    ?_ ?_ ?_ ?_ ?_ ?_ ?_ ?_ ?_ ?_ ?_ ?_ L0 L1 ?_ ?_ ?_ ?_ ?_ ?_ ?_ ?_ ?_ ?_ ?_ ?_ ?_ ?_ ?_ ?_
  · show 0 < p.Kp_GCC
    rw [h.Kp]; norm_num
  · rw [eκ]; norm_num
  · norm_num
  · norm_num
  · norm_num
  · norm_num
  · rw [ek]
  · rw [ek]
  · norm_num
  · show _ ≤ U / 2
    linarith
  · show U / 2 ≤ _
    linarith
  · norm_num
  · norm_num
  · rw [eρ]; norm_num
  · rw [eρ]; norm_num
  · show |p.Rf| ≤ _
    rw [h.Rf]; norm_num [abs_of_pos]
  · show |p.Lf * (w / p.wbase)| ≤ _
    rw [abs_mul, abs_of_pos (by linarith : 0 < p.Lf)]
    calc p.Lf * |w / p.wbase| ≤ 2263 / 100000 * (6 / 5) := by gcongr
      _ ≤ _ := by norm_num
  all_goals first | (rw [eκ]; norm_num) | norm_num

/-- The duty cycle of the operating point is within its limit. -/
theorem Unit250.duty {p : Par} (h : Unit250 p) {v w U i : ℝ} (v0 : 0 ≤ v) (v1 : v ≤ 18 / 25) (w1 : |w / p.wbase| ≤ 6 / 5) (U0 : 3 / 2 ≤ U) (i0 : 0 ≤ i) (i1 : i ≤ 667 / 100) :
    ‖(⟨(v + p.Rf * i) / (U / 2), p.Lf * (w / p.wbase) * i / (U / 2)⟩ : ℂ)‖ < 1 := by
  obtain ⟨L0, L1⟩ := h.L
  have hU : 0 < U / 2 := by linarith
  have x1 : |p.Lf * (w / p.wbase) * i| ≤ 182 / 1000 := by
    rw [abs_mul, abs_mul, abs_of_nonneg (by linarith : 0 ≤ p.Lf), abs_of_nonneg i0]
    calc p.Lf * |w / p.wbase| * i ≤ (2263 / 100000) * (6 / 5) * (667 / 100) := by gcongr
      _ ≤ 182 / 1000 := by norm_num
  have y0 : 0 ≤ v + p.Rf * i := by rw [h.Rf]; positivity
  have y1 : v + p.Rf * i ≤ 723 / 1000 := by rw [h.Rf]; linarith
  have U' : 3 / 4 ≤ U / 2 := by linarith
  have n2 : ((v + p.Rf * i) / (U / 2)) ^ 2 + (p.Lf * (w / p.wbase) * i / (U / 2)) ^ 2 < 1 := by
    generalize U / 2 = g at hU U' ⊢
    rw [div_pow, div_pow, ← add_div, div_lt_one (by positivity)]
    have a1 : (v + p.Rf * i) ^ 2 ≤ (723 / 1000) ^ 2 := by gcongr
    have a2 : (p.Lf * (w / p.wbase) * i) ^ 2 ≤ (182 / 1000) ^ 2 := by rw [← sq_abs]; gcongr
    have a3 : (3 / 4 : ℝ) ^ 2 ≤ g ^ 2 := by gcongr
    norm_num at a1 a2 a3 ⊢
    linarith
  have := Complex.sq_norm (⟨(v + p.Rf * i) / (U / 2), p.Lf * (w / p.wbase) * i / (U / 2)⟩ : ℂ)
  rw [Complex.normSq_mk] at this
  have l : ‖(⟨(v + p.Rf * i) / (U / 2), p.Lf * (w / p.wbase) * i / (U / 2)⟩ : ℂ)‖ ^ 2 < 1 := by rw [this]; linarith
  exact (sq_lt_one_iff₀ (norm_nonneg _)).1 l

end ThreePhase

/-! ### Shipped units -/

namespace ThreePhase

/-- C124 for the shipped 50 kVA unit of the three-phase class (current gradient limiter off): grid voltage 0.4 to 0.52 per unit (nominal 0.5), frequency up to 1.2 per unit, DC reference 1.05 to 1.3 per unit, any load below the current limit, any insolation and temperature that supply it near the
maximum power point. -/
theorem C124_shipped_three_50 {p : Par} (h : ThreePhaseBalanced.Unit50 p) (hm : p.m_limit = 1) (hl : p.iref_limit ≤ 174 / 100) (hT : 0 < p.Tfilter_Vrms) {v w U i S T : ℝ} (v0 : 2 / 5 ≤ v) (v1 : v ≤ 13 / 25)
    (w1 : |w / p.wbase| ≤ 6 / 5) (U0 : 21 / 20 ≤ U) (U1 : U ≤ 13 / 10) (vU : 2 * v + 1 / 100 ≤ U) (UV : U * p.Vdcbase < p.Vdcmpp_max) (i0 : 0 < i) (i1 : i < p.iref_limit)
    (hP : pvCurve p S T U = 3 / 2 * (v * i + p.Rf * i ^ 2)) (f0 : -1 ≤ pvSlope p S T U) (f1 : pvSlope p S T U ≤ 1 / 2) :
    ∃ δ > 0, ∃ M > 0, ∃ a > 0, ∀ (inp : ℝ → Inp) (Y : ℝ → V → ℝ), OperatingDc 3 p v w U i (pvCurve p S T) inp → (∀ t, 0 ≤ t → Solves (fun t y => rhs (envT p (inp t) y)) Y t) →
      ‖Y 0 - rest p v w U i 0‖ ≤ δ →
      ∀ t, 0 ≤ t → ‖Y t - rest p v w U i t‖ ≤ M * ‖Y 0 - rest p v w U i 0‖ * Real.exp (-a * t) := by
  have Rp : 0 < p.Rf := by rw [h.Rf]; norm_num
  have vp : 0 < v := by linarith
  have Up : 0 < U := by linarith
  have pp : 0 < pvCurve p S T U := by rw [hP]; positivity
  refine C124_settles_three vp Up ?_ hT hP (pv_smooth UV pp) (h.ok v0 v1 w1 U0 U1 i0.le (by linarith) f0 f1) (h.phase_ok w1 U0 U1) ?_ (by rw [abs_of_pos i0]; exact i1)
  · rw [h.C]; positivity
  · rw [hm]; exact shipped_duty h.Rf h.Lf (by linarith) w1 Up vU i0.le (by linarith)

/-- C124 for the shipped 250 kVA unit of the three-phase class (current gradient limiter off): grid voltage 0.5 to 0.72 per unit (nominal 0.65), frequency up to 1.2 per unit, DC reference 1.5 to 2 per unit, any load below the current limit, any insolation and temperature that supply it near the
maximum power point. -/
theorem C124_shipped_three_250 {p : Par} (h : ThreePhase.Unit250 p) (hm : p.m_limit = 1) (hl : p.iref_limit ≤ 667 / 100) (hT : 0 < p.Tfilter_Vrms) {v w U i S T : ℝ} (v0 : 1 / 2 ≤ v) (v1 : v ≤ 18 / 25)
    (w1 : |w / p.wbase| ≤ 6 / 5) (U0 : 3 / 2 ≤ U) (U1 : U ≤ 2) (UV : U * p.Vdcbase < p.Vdcmpp_max) (i0 : 0 < i) (i1 : i < p.iref_limit)
    (hP : pvCurve p S T U = 3 / 2 * (v * i + p.Rf * i ^ 2)) (f0 : -4 ≤ pvSlope p S T U) (f1 : pvSlope p S T U ≤ 1 / 2) :
    ∃ δ > 0, ∃ M > 0, ∃ a > 0, ∀ (inp : ℝ → Inp) (Y : ℝ → V → ℝ), OperatingDc 3 p v w U i (pvCurve p S T) inp → (∀ t, 0 ≤ t → Solves (fun t y => rhs (envT p (inp t) y)) Y t) →
      ‖Y 0 - rest p v w U i 0‖ ≤ δ →
      ∀ t, 0 ≤ t → ‖Y t - rest p v w U i t‖ ≤ M * ‖Y 0 - rest p v w U i 0‖ * Real.exp (-a * t) := by
  have Rp : 0 < p.Rf := by rw [h.Rf]; norm_num
  have vp : 0 < v := by linarith
  have Up : 0 < U := by linarith
  have pp : 0 < pvCurve p S T U := by rw [hP]; positivity
  refine C124_settles_three vp Up ?_ hT hP (pv_smooth UV pp) (h.ok v0 v1 w1 U0 U1 i0.le (by linarith) f0 f1) (h.phase_ok w1 U0 U1) ?_ (by rw [abs_of_pos i0]; exact i1)
  · rw [h.C]; positivity
  · rw [hm]; exact h.duty vp.le v1 w1 U0 i0.le (by linarith)

end ThreePhase

namespace ThreePhaseNoVrmsFilter
open Loop3 (rest)

/-- C124 for the shipped 50 kVA unit of the class without RMS filter (current gradient limiter off): grid voltage 0.4 to 0.52 per unit (nominal 0.5), frequency up to 1.2 per unit, DC reference 1.05 to 1.3 per unit, any load below the current limit, any insolation and temperature that supply it near the
maximum power point. -/
theorem C124_shipped_no_filter_50 {p : Par} (h : ThreePhaseBalanced.Unit50 p) (hm : p.m_limit = 1) (hl : p.iref_limit ≤ 174 / 100) {v w U i S T : ℝ} (v0 : 2 / 5 ≤ v) (v1 : v ≤ 13 / 25)
    (w1 : |w / p.wbase| ≤ 6 / 5) (U0 : 21 / 20 ≤ U) (U1 : U ≤ 13 / 10) (vU : 2 * v + 1 / 100 ≤ U) (UV : U * p.Vdcbase < p.Vdcmpp_max) (i0 : 0 < i) (i1 : i < p.iref_limit)
    (hP : pvCurve p S T U = 3 / 2 * (v * i + p.Rf * i ^ 2)) (f0 : -1 ≤ pvSlope p S T U) (f1 : pvSlope p S T U ≤ 1 / 2) :
    ∃ δ > 0, ∃ M > 0, ∃ a > 0, ∀ (inp : ℝ → Inp) (Y : ℝ → V → ℝ), OperatingDc 3 p v w U i (pvCurve p S T) inp → (∀ t, 0 ≤ t → Solves (fun t y => rhs (envN p (inp t) y)) Y t) →
      ‖Y 0 - rest p v w U i 0‖ ≤ δ →
      ∀ t, 0 ≤ t → ‖Y t - rest p v w U i t‖ ≤ M * ‖Y 0 - rest p v w U i 0‖ * Real.exp (-a * t) := by
  have Rp : 0 < p.Rf := by rw [h.Rf]; norm_num
  have vp : 0 < v := by linarith
  have Up : 0 < U := by linarith
  have pp : 0 < pvCurve p S T U := by rw [hP]; positivity
  refine C124_settles_no_filter vp Up ?_ hP (pv_smooth UV pp) (h.ok v0 v1 w1 U0 U1 i0.le (by linarith) f0 f1) (h.phase_ok w1 U0 U1) ?_ (by rw [abs_of_pos i0]; exact i1)
  · rw [h.C]; positivity
  · rw [hm]; exact shipped_duty h.Rf h.Lf (by linarith) w1 Up vU i0.le (by linarith)

/-- C124 for the shipped 250 kVA unit of the class without RMS filter (current gradient limiter off): grid voltage 0.5 to 0.72 per unit (nominal 0.65), frequency up to 1.2 per unit, DC reference 1.5 to 2 per unit, any load below the current limit, any insolation and temperature that supply it near the
maximum power point. -/
theorem C124_shipped_no_filter_250 {p : Par} (h : ThreePhase.Unit250 p) (hm : p.m_limit = 1) (hl : p.iref_limit ≤ 667 / 100) {v w U i S T : ℝ} (v0 : 1 / 2 ≤ v) (v1 : v ≤ 18 / 25)
    (w1 : |w / p.wbase| ≤ 6 / 5) (U0 : 3 / 2 ≤ U) (U1 : U ≤ 2) (UV : U * p.Vdcbase < p.Vdcmpp_max) (i0 : 0 < i) (i1 : i < p.iref_limit)
    (hP : pvCurve p S T U = 3 / 2 * (v * i + p.Rf * i ^ 2)) (f0 : -4 ≤ pvSlope p S T U) (f1 : pvSlope p S T U ≤ 1 / 2) :
    ∃ δ > 0, ∃ M > 0, ∃ a > 0, ∀ (inp : ℝ → Inp) (Y : ℝ → V → ℝ), OperatingDc 3 p v w U i (pvCurve p S T) inp → (∀ t, 0 ≤ t → Solves (fun t y => rhs (envN p (inp t) y)) Y t) →
      ‖Y 0 - rest p v w U i 0‖ ≤ δ →
      ∀ t, 0 ≤ t → ‖Y t - rest p v w U i t‖ ≤ M * ‖Y 0 - rest p v w U i 0‖ * Real.exp (-a * t) := by
  have Rp : 0 < p.Rf := by rw [h.Rf]; norm_num
  have vp : 0 < v := by linarith
  have Up : 0 < U := by linarith
  have pp : 0 < pvCurve p S T U := by rw [hP]; positivity
  refine C124_settles_no_filter vp Up ?_ hP (pv_smooth UV pp) (h.ok v0 v1 w1 U0 U1 i0.le (by linarith) f0 f1) (h.phase_ok w1 U0 U1) ?_ (by rw [abs_of_pos i0]; exact i1)
  · rw [h.C]; positivity
  · rw [hm]; exact h.duty vp.le v1 w1 U0 i0.le (by linarith)

end ThreePhaseNoVrmsFilter

namespace ThreePhaseNumba
open Loop3 (rest)

/-- C124 for the shipped 50 kVA unit of the numba class (current gradient limiter off): grid voltage 0.4 to 0.52 per unit (nominal 0.5), frequency up to 1.2 per unit, DC reference 1.05 to 1.3 per unit, any load below the current limit, any insolation and temperature that supply it near the
maximum power point. -/
theorem C124_shipped_numba_50 {p : Par} (h : ThreePhaseBalanced.Unit50 p) (hm : p.m_limit = 1) (hl : p.iref_limit ≤ 174 / 100) {v w U i S T : ℝ} (v0 : 2 / 5 ≤ v) (v1 : v ≤ 13 / 25)
    (w1 : |w / p.wbase| ≤ 6 / 5) (U0 : 21 / 20 ≤ U) (U1 : U ≤ 13 / 10) (vU : 2 * v + 1 / 100 ≤ U) (UV : U * p.Vdcbase < p.Vdcmpp_max) (i0 : 0 < i) (i1 : i < p.iref_limit)
    (hP : pvCurve p S T U = 3 / 2 * (v * i + p.Rf * i ^ 2)) (f0 : -1 ≤ pvSlope p S T U) (f1 : pvSlope p S T U ≤ 1 / 2) :
    ∃ δ > 0, ∃ M > 0, ∃ a > 0, ∀ (inp : ℝ → Inp) (Y : ℝ → V → ℝ), OperatingDc 3 p v w U i (pvCurve p S T) inp → (∀ t, 0 ≤ t → Solves (fun t y => rhs (envNumba p (inp t) y)) Y t) →
      ‖Y 0 - fun j => rest p v w U i 0 (toN j)‖ ≤ δ →
      ∀ t, 0 ≤ t → ‖Y t - fun j => rest p v w U i t (toN j)‖ ≤ M * ‖Y 0 - fun j => rest p v w U i 0 (toN j)‖ * Real.exp (-a * t) := by
  have Rp : 0 < p.Rf := by rw [h.Rf]; norm_num
  have vp : 0 < v := by linarith
  have Up : 0 < U := by linarith
  have pp : 0 < pvCurve p S T U := by rw [hP]; positivity
  refine C124_settles_numba vp Up ?_ hP (pv_smooth UV pp) (h.ok v0 v1 w1 U0 U1 i0.le (by linarith) f0 f1) (h.phase_ok w1 U0 U1) ?_ (by rw [abs_of_pos i0]; exact i1)
  · rw [h.C]; positivity
  · rw [hm]; exact shipped_duty h.Rf h.Lf (by linarith) w1 Up vU i0.le (by linarith)

/-- C124 for the shipped 250 kVA unit of the numba class (current gradient limiter off): grid voltage 0.5 to 0.72 per unit (nominal 0.65), frequency up to 1.2 per unit, DC reference 1.5 to 2 per unit, any load below the current limit, any insolation and temperature that supply it near the
maximum power point. -/
theorem C124_shipped_numba_250 {p : Par} (h : ThreePhase.Unit250 p) (hm : p.m_limit = 1) (hl : p.iref_limit ≤ 667 / 100) {v w U i S T : ℝ} (v0 : 1 / 2 ≤ v) (v1 : v ≤ 18 / 25)
    (w1 : |w / p.wbase| ≤ 6 / 5) (U0 : 3 / 2 ≤ U) (U1 : U ≤ 2) (UV : U * p.Vdcbase < p.Vdcmpp_max) (i0 : 0 < i) (i1 : i < p.iref_limit)
    (hP : pvCurve p S T U = 3 / 2 * (v * i + p.Rf * i ^ 2)) (f0 : -4 ≤ pvSlope p S T U) (f1 : pvSlope p S T U ≤ 1 / 2) :
    ∃ δ > 0, ∃ M > 0, ∃ a > 0, ∀ (inp : ℝ → Inp) (Y : ℝ → V → ℝ), OperatingDc 3 p v w U i (pvCurve p S T) inp → (∀ t, 0 ≤ t → Solves (fun t y => rhs (envNumba p (inp t) y)) Y t) →
      ‖Y 0 - fun j => rest p v w U i 0 (toN j)‖ ≤ δ →
      ∀ t, 0 ≤ t → ‖Y t - fun j => rest p v w U i t (toN j)‖ ≤ M * ‖Y 0 - fun j => rest p v w U i 0 (toN j)‖ * Real.exp (-a * t) := by
  have Rp : 0 < p.Rf := by rw [h.Rf]; norm_num
  have vp : 0 < v := by linarith
  have Up : 0 < U := by linarith
  have pp : 0 < pvCurve p S T U := by rw [hP]; positivity
  refine C124_settles_numba vp Up ?_ hP (pv_smooth UV pp) (h.ok v0 v1 w1 U0 U1 i0.le (by linarith) f0 f1) (h.phase_ok w1 U0 U1) ?_ (by rw [abs_of_pos i0]; exact i1)
  · rw [h.C]; positivity
  · rw [hm]; exact h.duty vp.le v1 w1 U0 i0.le (by linarith)

end ThreePhaseNumba

/-- `C124_shipped_three_50`, `_no_filter_50` and `_numba_50` apply: nominal grid, DC voltage 550 V, current 1.2 per unit; the operating point of each class is one of its solutions. -/
example : ThreePhaseBalanced.Unit50 par50 ∧ ∃ S inp, OperatingDc 3 par50 (1 / 2) (2 * Real.pi * 60) (11 / 10) (6 / 5) (pvCurve par50 S par50.mod.T0) inp ∧ -1 ≤ pvSlope par50 S par50.mod.T0 (11 / 10) ∧
    pvSlope par50 S par50.mod.T0 (11 / 10) ≤ 1 / 2 ∧
    (∀ t, 0 ≤ t → Solves (fun t y => ThreePhase.rhs (envT par50 (inp t) y)) (ThreePhase.rest par50 (1 / 2) (2 * Real.pi * 60) (11 / 10) (6 / 5)) t) ∧
    (∀ t, 0 ≤ t → Solves (fun t y => ThreePhaseNoVrmsFilter.rhs (envN par50 (inp t) y)) (Loop3.rest par50 (1 / 2) (2 * Real.pi * 60) (11 / 10) (6 / 5)) t) ∧
    (∀ t, 0 ≤ t → Solves (fun t y => ThreePhaseNumba.rhs (envNumba par50 (inp t) y)) (fun t j => Loop3.rest par50 (1 / 2) (2 * Real.pi * 60) (11 / 10) (6 / 5) t (ThreePhaseNumba.toN j)) t) := by
  have h : ThreePhaseBalanced.Unit50 par50 := by constructor <;> first | rfl | norm_num [par50]
  obtain ⟨S, inp, ho⟩ := operatingDc_exists 3 par50 (1 / 2) (2 * Real.pi * 60) (11 / 10) (6 / 5) (by norm_num [par50, PV.exMod]) (by norm_num [par50, PV.exMod]) (by norm_num [par50, PV.exMod])
    (by norm_num [par50]) (by norm_num) (by norm_num) (by norm_num [par50]) (by norm_num)
  have w1 : |2 * Real.pi * 60 / par50.wbase| ≤ 6 / 5 := by
    show |2 * Real.pi * 60 / (2 * Real.pi * 60)| ≤ _
    rw [div_self (by positivity)]; norm_num
  have UV : (11 / 10 : ℝ) * par50.Vdcbase < par50.Vdcmpp_max := by norm_num [par50]
  have hw : pvCurve par50 S par50.mod.T0 (11 / 10) = 3 / 2 * (1 / 2 * (6 / 5) + 2 / 1000 / 5 * (6 / 5) ^ 2) := ho.power
  have pp : 0 < pvCurve par50 S par50.mod.T0 (11 / 10) := by rw [hw]; norm_num
  have c1 : PV.coef par50.mod par50.mod.T0 * (11 / 10 * par50.Vdcbase) ≤ 152 / 10 := by norm_num [par50, PV.coef, PV.exMod]
  have c0 : 15 ≤ PV.coef par50.mod par50.mod.T0 * (11 / 10 * par50.Vdcbase) := by norm_num [par50, PV.coef, PV.exMod]
  have e := pv_slope_eq (by norm_num) (by norm_num [par50]) (by norm_num [par50, PV.exMod]) UV pp
  have e1 := (Real.exp_le_exp.2 (c1.trans (by norm_num : (152 / 10 : ℝ) ≤ 16))).trans exp16
  have e0 := exp15.trans (Real.exp_le_exp.2 c0)
  generalize PV.coef par50.mod par50.mod.T0 * (11 / 10 * par50.Vdcbase) = x at *
  have k : Real.exp x * x ≤ 9000000 * (152 / 10) := by gcongr
  have k0 : 3000000 * 15 ≤ Real.exp x * x := by gcongr
  have e2 : par50.Vdcbase / par50.mod.Sbase * (par50.mod.Np * par50.mod.Irs * Real.exp x * x) = 132 / 10000000000 * (Real.exp x * x) := by
    have q : par50.Vdcbase / par50.mod.Sbase * (par50.mod.Np * par50.mod.Irs) = 132 / 10000000000 := by norm_num [par50, PV.exMod]
    rw [← q]; ring
  rw [e2, hw] at e
  have L0 : par50.Lf ≠ 0 := by rw [h.Lf]; positivity
  have C0 : par50.C ≠ 0 := by rw [h.C]; positivity
  have D := shipped_duty (v := 1 / 2) (U := 11 / 10) (i := 6 / 5) h.Rf h.Lf (by norm_num) w1 (by norm_num) (by norm_num) (by norm_num) (by norm_num)
  exact ⟨h, S, inp, ho, by linarith, by linarith, fun t ht => ThreePhase.C124_rest_three (by norm_num) (by norm_num) L0 C0 D (by norm_num [par50]) ho t ht,
    fun t ht => ThreePhaseNoVrmsFilter.C124_rest_no_filter (by norm_num) (by norm_num) L0 C0 D (by norm_num [par50]) ho t ht,
    fun t ht => ThreePhaseNumba.C124_rest_numba (by norm_num) (by norm_num) L0 C0 D (by norm_num [par50]) ho t ht⟩

/-- The shipped 250 kVA unit (config_der.json 56-77), its current gradient limiter off. -/
noncomputable def par250 : Par :=
  { Lf := 300 / 1000000 * (2 * Real.pi * 60) / 5, Rf := 2 / 1000 / 5, C := 300 / 1000000 * (2 * Real.pi * 60) * 5, Kp_GCC := 6000, Ki_GCC := 2000, wp := 200000, Kp_DC := -2, Ki_DC := -10, Kp_P := 0, Ki_P := 0,
    Kp_Q := 1 / 5, Ki_Q := 10, Kp_PLL := 180, Ki_PLL := 320, m_limit := 1, iref_limit := 666 / 100, wbase := 2 * Real.pi * 60, Tfilter_Vrms := 1/100, Vdcbase := 500, Vdcmpp_max := 1000,
    mod := { PV.exMod with Np := 45, Ns := 1000 } }

/-- `C124_shipped_three_250`, `_no_filter_250` and `_numba_250` apply: nominal grid, DC voltage 750 V, current 4 per unit. -/
example : ThreePhase.Unit250 par250 ∧ ∃ S inp, OperatingDc 3 par250 (13 / 20) (2 * Real.pi * 60) (3 / 2) 4 (pvCurve par250 S par250.mod.T0) inp ∧ -4 ≤ pvSlope par250 S par250.mod.T0 (3 / 2) ∧
    pvSlope par250 S par250.mod.T0 (3 / 2) ≤ 1 / 2 ∧
    (∀ t, 0 ≤ t → Solves (fun t y => ThreePhase.rhs (envT par250 (inp t) y)) (ThreePhase.rest par250 (13 / 20) (2 * Real.pi * 60) (3 / 2) 4) t) := by
  have h : ThreePhase.Unit250 par250 := by constructor <;> first | rfl | norm_num [par250]
  obtain ⟨S, inp, ho⟩ := operatingDc_exists 3 par250 (13 / 20) (2 * Real.pi * 60) (3 / 2) 4 (by norm_num [par250, PV.exMod]) (by norm_num [par250, PV.exMod]) (by norm_num [par250, PV.exMod])
    (by norm_num [par250]) (by norm_num) (by norm_num) (by norm_num [par250]) (by norm_num)
  have w1 : |2 * Real.pi * 60 / par250.wbase| ≤ 6 / 5 := by
    show |2 * Real.pi * 60 / (2 * Real.pi * 60)| ≤ _
    rw [div_self (by positivity)]; norm_num
  have UV : (3 / 2 : ℝ) * par250.Vdcbase < par250.Vdcmpp_max := by norm_num [par250]
  have hw : pvCurve par250 S par250.mod.T0 (3 / 2) = 3 / 2 * (13 / 20 * 4 + 2 / 1000 / 5 * 4 ^ 2) := ho.power
  have pp : 0 < pvCurve par250 S par250.mod.T0 (3 / 2) := by rw [hw]; norm_num
  have c1 : PV.coef par250.mod par250.mod.T0 * (3 / 2 * par250.Vdcbase) ≤ 153 / 10 := by norm_num [par250, PV.coef, PV.exMod]
  have c0 : 151 / 10 ≤ PV.coef par250.mod par250.mod.T0 * (3 / 2 * par250.Vdcbase) := by norm_num [par250, PV.coef, PV.exMod]
  have e := pv_slope_eq (by norm_num) (by norm_num [par250]) (by norm_num [par250, PV.exMod]) UV pp
  have e1 : Real.exp (153 / 10) ≤ 5300000 := by
    have t := Real.add_one_le_exp (7 / 10 : ℝ)
    have q : Real.exp (153 / 10) * Real.exp (7 / 10) = Real.exp 16 := by rw [← Real.exp_add]; norm_num
    have : Real.exp (153 / 10) * (7 / 10 + 1) ≤ Real.exp (153 / 10) * Real.exp (7 / 10) := by gcongr
    linarith [exp16]
  have e1 := (Real.exp_le_exp.2 c1).trans e1
  have e0 : 3300000 ≤ Real.exp (151 / 10) := by
    have t := Real.add_one_le_exp (1 / 10 : ℝ)
    have : Real.exp (151 / 10) = Real.exp 15 * Real.exp (1 / 10) := by rw [← Real.exp_add]; norm_num
    rw [this]
    calc (3300000 : ℝ) = 3000000 * (1 / 10 + 1) := by norm_num
      _ ≤ _ := by gcongr; exact exp15
  have e0 := e0.trans (Real.exp_le_exp.2 c0)
  generalize PV.coef par250.mod par250.mod.T0 * (3 / 2 * par250.Vdcbase) = x at *
  have k : Real.exp x * x ≤ 5300000 * (153 / 10) := by gcongr
  have k0 : 3300000 * (151 / 10) ≤ Real.exp x * x := by gcongr
  have e2 : par250.Vdcbase / par250.mod.Sbase * (par250.mod.Np * par250.mod.Irs * Real.exp x * x) = 540 / 10000000000 * (Real.exp x * x) := by
    have q : par250.Vdcbase / par250.mod.Sbase * (par250.mod.Np * par250.mod.Irs) = 540 / 10000000000 := by norm_num [par250, PV.exMod]
    rw [← q]; ring
  rw [e2, hw] at e
  have L0 : par250.Lf ≠ 0 := by rw [h.Lf]; positivity
  have C0 : par250.C ≠ 0 := by rw [h.C]; positivity
  have D := h.duty (v := 13 / 20) (U := 3 / 2) (i := 4) (by norm_num) (by norm_num) w1 (by norm_num) (by norm_num) (by norm_num)
  exact ⟨h, S, inp, ho, by linarith, by linarith, fun t ht => ThreePhase.C124_rest_three (by norm_num) (by norm_num) L0 C0 D (by norm_num [par250]) ho t ht⟩

end Ode
end PvDer
