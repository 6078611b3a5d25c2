import Verif.Model.Numba
import Verif.Props.Measured
import Verif.Props.JacThreeMain
import Verif.Props.Circuit

/-!
# C75, second part: the compiled kernels compute the formulas of the plain code
-/

namespace PvDer
namespace Numba

open Complex Phasor Ode Circuit

/-- C75: `ODE_model` of the compiled class, written with its kernel calls, returns the derivative vector of the plain class without RMS filter … -/
theorem C75_kernels_same_derivatives (p : Par) (i : Inp) (y : ThreePhaseNoVrmsFilter.V → ℝ) (r : ThreePhaseNumba.V) :
    deriv p (update p i (fun v => y (ThreePhaseNumba.emb v))) r = ThreePhaseNoVrmsFilter.rhs (envN p i y) (ThreePhaseNumba.emb r) := by
  cases r
  all_goals first
    | rfl
    | (simp only [deriv, dx_logic, du_calc, apply_ite Prod.fst, apply_ite Prod.snd]; rfl)

/-- … also while it is disconnected, … -/
theorem C75_kernels_same_derivatives_disconnected (p : Par) (i : Inp) (y : ThreePhaseNoVrmsFilter.V → ℝ) (r : ThreePhaseNumba.V) :
    deriv p (discInst (update p i (fun v => y (ThreePhaseNumba.emb v)))) r = ThreePhaseNoVrmsFilter.rhs (disc (envN p i y)) (ThreePhaseNumba.emb r) := by
  cases r
  all_goals first
    | rfl
    | (simp only [deriv, dx_logic, du_calc, apply_ite Prod.fst, apply_ite Prod.snd]; rfl)

/-- … and the instance shows the same power, voltages, RMS values, references and PLL quantities as the plain class. -/
theorem C75_kernels_same_attributes (p : Par) (i : Inp) (y : ThreePhaseNoVrmsFilter.V → ℝ) :
    let s := update p i (fun v => y (ThreePhaseNumba.emb v))
    let e := envN p i y
    s.S = e.S ∧ s.S_PCC = e.S_PCC ∧ s.Ppv = e.Ppv ∧ s.vta = e.vta ∧ s.vtb = e.vtb ∧ s.vtc = e.vtc ∧ s.Vrms = e.Vrms ∧ s.ia_ref = e.ia_ref ∧
      s.ib_ref = e.ib_ref ∧ s.ic_ref = e.ic_ref ∧ s.vd = e.vd ∧ s.we = e.we ∧ s.winv = e.winv ∧ s.Irms = urms e.ia e.ib e.ic ∧
      s.Vtrms = urms e.vta e.vtb e.vtc ∧ s.Vrms_min = urmsMin e.va e.vb e.vc ∧ (s.vd, s.vq, s.v0) = pll3 e.va e.vb e.vc e.wgrid_measured e.t e.wte := by
  exact ⟨rfl, rfl, rfl, rfl, rfl, rfl, rfl, rfl, rfl, rfl, rfl, rfl, rfl, rfl, rfl, rfl, rfl⟩

/-- C75: each function of the compiled utility module returns what the function of the same name in the plain module returns, for all arguments, … -/
theorem C75_utilities_agree :
    (∀ a b c, Urms_calc a b c = urms a b c) ∧ (∀ a b c, Urms_min_calc a b c = urmsMin a b c) ∧ (∀ a, Urms_calc_1phase a = urms1 a) ∧
    (∀ a, Ub_calc a = Phasor.ub a) ∧ (∀ a, Uc_calc a = Phasor.uc a) ∧ (∀ u w t, phasor_to_time_1phase u w t = toTime u w t) ∧
    (∀ a b c w t, phasor_to_time a b c w t = (toTime a w t, toTime b w t, toTime c w t)) ∧ (∀ a b c x, abc_to_dq0 a b c x = abcToDq0 a b c x) ∧
    (∀ d q z x, dq0_to_abc d q z x = dq0ToAbc d q z x) ∧ (∀ a b x, alpha_beta_to_d_q a b x = alphaBetaToDq a b x) ∧
    (∀ a b c, phasor_to_symmetrical a b c = symm a b c) ∧ (∀ a b c, phasor_to_zero_sequence a b c = zeroSeq a b c) ∧
    (∀ a b c, phasor_to_positive_sequence a b c = posSeq a b c) ∧ (∀ a b c, phasor_to_negative_sequence a b c = negSeq a b c) ∧
    (∀ va vb vc ia ib ic, S_calc va vb vc ia ib ic = sCalc va vb vc ia ib ic) ∧ (∀ a b c, Uunbalance_calc a b c = unbalance a b c) ∧
    (∀ u v, relative_phase_calc u v false = relPhase u v) ∧ (∀ x vd k, we_calc x vd k = weCalc k vd x) := by
  refine ⟨?_, ?_, ?_, ?_, ?_, ?_, ?_, ?_, ?_, ?_, ?_, ?_, ?_, ?_, ?_, ?_, ?_, ?_⟩ <;> intros <;> rfl

/-- … the relative phase in degrees is the one in radians converted, … -/
theorem C75_relative_phase_degrees (u v : ℂ) : relative_phase_calc u v true = relative_phase_calc u v false * (180 / Real.pi) ∧
    0 ≤ relative_phase_calc u v true ∧ relative_phase_calc u v true < 360 := by
  have hpi : Real.pi ≠ 0 := Real.pi_ne_zero
  simp only [relative_phase_calc, if_true, Bool.false_eq_true, if_false]
  generalize (arg u - arg v) * (180 / Real.pi) = d
  refine ⟨?_, ?_, ?_⟩
  · field_simp
  · have := Int.floor_le (d / 360); linarith
  · have := Int.lt_floor_add_one (d / 360); linarith

/-- … the line-to-line voltage is that of the plain three-phase classes: the RMS value of the difference of two phases, √3 times the phase value on a balanced grid, … -/
theorem C75_line_voltage (a b vtb ib : ℂ) (k : Measured.Kind) (s : Measured.Inst) (x : ℂ × ℂ × ℂ) (hs : s.bc = some ((vtb, b, ib), x)) (ha : s.va = a) :
    Measured.Vabrms_calc k s = .ok (Vabrms_calc a b) ∧ Vabrms_calc a b = urms1 (a - b) ∧ Vabrms_calc a (Phasor.ub a) = Real.sqrt 3 * urms1 a := by
  refine ⟨?_, rfl, ?_⟩
  · simp only [Measured.Vabrms_calc, hs, ha]; rfl
  · rw [Vabrms_calc, Measured.norm_ub_sub, urms1]; ring

/-- … the stand-alone quantities obey the same laws: the load draws `v/Z`, and load and grid-source powers are the per-phase sums, … -/
theorem C75_stand_alone_sums (va vb vc vag vbg vcg ia ib ic ZL : ℂ) (a : ℝ) :
    standAlone va vb vc vag vbg vcg ia ib ic ZL a = (iLoad va ZL, iLoad vb ZL, iLoad vc ZL, sG va ia vag ZL a + sG vb ib vbg ZL a + sG vc ic vcg ZL a,
      sLoad va ZL + sLoad vb ZL + sLoad vc ZL) := by
  simp only [standAlone, i_load_calc, iLoad, S_G_calc, S_load_calc, sG, sLoad]
  refine Prod.ext rfl (Prod.ext rfl (Prod.ext rfl (Prod.ext ?_ ?_))) <;> (dsimp only; ring)

/-- … and `limit_complex` agrees wherever the plain version does not raise; on the limits the plain version rejects, the compiled one returns a number, which for a
positive upper limit still has at most that magnitude, the lower limit having no effect. -/
theorem C75_limit_complex (z : ℂ) (low high : ℝ) :
    (low < high → limitComplex z low high = .ok (limit_complex z low high)) ∧ (¬ low < high → limitComplex z low high = .error .assertionError) ∧
    (¬ low < high → limit_complex z low high = ((high : ℝ) : ℂ) * exp (I * ((arg z : ℝ) : ℂ))) := by
  refine ⟨fun h => ?_, fun h => ?_, fun h => ?_⟩
  · simp only [limitComplex, if_pos h]; rfl
  · simp only [limitComplex, if_neg h]
  · have : min (max ‖z‖ low) high = high := min_eq_right (le_trans (not_lt.mp h) (le_max_right _ _))
    simp only [limit_complex, this]

/-- C75: the PV power of the compiled code is that of the plain module, and so is the version with literal constants in the compiled utility module, for a module with
the shipped cell constants. -/
theorem C75_ppv (m : PV.Mod) (Sinsol T V : ℝ) :
    Ppv_calc m T (Iph_calc m T Sinsol) V m.Np m.Ns m.Sbase = PV.ppv m Sinsol T V ∧
    (m.Irs = 12 / 10 ^ 8 → m.q = 1602 / 10 ^ 22 → m.k = 138 / 10 ^ 25 → m.A = 192 / 100 →
      Ppv_calc_util (PV.iph m Sinsol T) m.Np m.Ns V T m.Sbase = PV.ppv m Sinsol T V) := by
  refine ⟨rfl, fun h1 h2 h3 h4 => ?_⟩
  simp only [Ppv_calc_util, PV.ppv, PV.ipv, h1, h2, h3, h4]

/-- The shipped constants meet the hypotheses. -/
example : Ppv_calc_util (PV.iph PV.exMod 100 300) 11 735 500 300 50000 = PV.ppv PV.exMod 100 300 500 :=
  (C75_ppv PV.exMod 100 300 500).2 (by norm_num [PV.exMod]) (by norm_num [PV.exMod]) (by norm_num [PV.exMod]) (by norm_num [PV.exMod])

end Numba
end PvDer
