import Verif.Props.SteadyRotate
import Verif.Props.WellPosed

/-!
# Property C116: a simulation started from the steady state stays there

`steady_state_calc` (DER_check_and_initialize.py 722-828) computes the initial state.  C88 shows that with a zero residual it is an equilibrium (up to the turning angle of the PLL);
C113 that trajectories are determined by their initial state.  Together: whatever solves the model from that state stays there, and what starts near it stays near it.
-/

namespace PvDer
namespace Ode
namespace SS

open Complex Phasor Set

/-- The inputs of an undisturbed simulation: the operating point's own, with time running and the grid at 60 Hz. -/
noncomputable def steadyInp (i : Inp) (t : ℝ) : Inp := { i with t := t, w := 2 * Real.pi * 60 }

theorem steadyInp_bounded (i : Inp) (hT : 0 < i.Tactual) (T : ℝ) : ∃ B, InpBounded (steadyInp i) T B := by
  set B := 1 + ‖i.va‖ + ‖i.vb‖ + ‖i.vc‖ + |i.Vdc_ref| + |i.Q_ref| + |i.Sinsol| + |i.Vdc0| + |i.Tactual| + i.Tactual⁻¹ with hB
  have h1 := norm_nonneg i.va; have h2 := norm_nonneg i.vb; have h3 := norm_nonneg i.vc
  have h4 := abs_nonneg i.Vdc_ref; have h5 := abs_nonneg i.Q_ref; have h6 := abs_nonneg i.Sinsol; have h7 := abs_nonneg i.Vdc0; have h8 := abs_nonneg i.Tactual
  have h9 : 0 < i.Tactual⁻¹ := inv_pos.2 hT
  have hpos : 0 < B := by linarith
  refine ⟨B, ⟨hpos, ?_, ?_, ?_, ?_, ?_, ?_, ?_, ?_, ?_⟩⟩ <;> intro t _
  · show ‖i.va‖ ≤ B; linarith
  · show ‖i.vb‖ ≤ B; linarith
  · show ‖i.vc‖ ≤ B; linarith
  · show |i.Vdc_ref| ≤ B; linarith
  · show |i.Q_ref| ≤ B; linarith
  · show |i.Sinsol| ≤ B; linarith
  · show |i.Vdc0| ≤ B; linarith
  · show |i.Tactual| ≤ B; linarith
  · show B⁻¹ ≤ i.Tactual
    rw [inv_le_comm₀ hpos hT]; linarith

theorem Fits.steady {p : Par} {o : Op} {i : Inp} {a b c : ℂ} (hf : Fits p o i a b c) (t : ℝ) : Fits p o (steadyInp i t) a b c :=
  ⟨hf.L, hf.wb, hf.Z, hf.V, hf.V0, hf.Q, hf.P, hf.va, hf.vb, hf.vc⟩

theorem pll1_turn (i : Inp) (hv : i.va.im = 0) (t : ℝ) : (pll1 (steadyInp i t).va (steadyInp i t).w (steadyInp i t).t (2 * Real.pi + 2 * Real.pi * 60 * t)).1 = 0 := by
  rw [C53_pll_input]
  show ‖i.va‖ * Real.sin (2 * Real.pi * 60 * t + arg i.va - (2 * Real.pi + 2 * Real.pi * 60 * t)) = 0
  have : 2 * Real.pi * 60 * t + arg i.va - (2 * Real.pi + 2 * Real.pi * 60 * t) = arg i.va - 2 * Real.pi := by ring
  rw [this, Real.sin_sub_two_pi, Complex.norm_mul_sin_arg, hv]

theorem pll3_turn {p : Par} {o : Op} (i : Inp) (x : ℕ → ℝ) (hr : residual3 false o x = 0) (hf : Fits p o i (iaOf x) (ibOf false x) (icOf false x)) (hv : i.va.im = 0) (t : ℝ) :
    (pll3 (steadyInp i t).va (steadyInp i t).vb (steadyInp i t).vc (steadyInp i t).w (steadyInp i t).t (2 * Real.pi + 2 * Real.pi * 60 * t)).1 = 0 := by
  have hbal := C88_balanced_option_needs_balanced_grid o x hr
  have hb : i.vb = Phasor.ub i.va := by rw [hf.vb, hbal.1, ← hf.va]
  have hc : i.vc = Phasor.uc i.va := by rw [hf.vc, hbal.2, ← hf.va]
  show (pll3 i.va i.vb i.vc (2 * Real.pi * 60) t _).1 = 0
  rw [hb, hc]; exact pll3_rotating _ hv t

theorem norm_ub_eq (z : ℂ) : ‖Phasor.ub z‖ = ‖z‖ := (C47_phase_shift z).1
theorem norm_uc_eq (z : ℂ) : ‖Phasor.uc z‖ = ‖z‖ := (C47_phase_shift z).2.1

theorem margin_phase {e : Env} {u x m : ℂ} (hu : u = 0) (hx : ‖x‖ = ‖m‖) {η : ℝ} (h : ‖m‖ + η ≤ e.m_limit) : PhaseMargin η e u x := by
  unfold PhaseMargin; rw [hu, mul_zero, zero_add, hx]; exact h

/-- The margin left by the operating point. -/
noncomputable def etaOf (p : Par) (m i : ℂ) (V : ℝ) : ℝ := min (min (p.m_limit - ‖m‖) (p.iref_limit - ‖i‖)) V

theorem etaOf_pos {p : Par} {m i : ℂ} {V : ℝ} (h1 : ‖m‖ < p.m_limit) (h2 : ‖i‖ < p.iref_limit) (h3 : 0 < V) : 0 < etaOf p m i V :=
  lt_min (lt_min (by linarith) (by linarith)) h3
theorem etaOf_m {p : Par} {m i : ℂ} {V : ℝ} : ‖m‖ + etaOf p m i V ≤ p.m_limit := by
  have : etaOf p m i V ≤ p.m_limit - ‖m‖ := (min_le_left _ _).trans (min_le_left _ _)
  linarith
theorem etaOf_i {p : Par} {m i : ℂ} {V : ℝ} : ‖i‖ + etaOf p m i V ≤ p.iref_limit := by
  have : etaOf p m i V ≤ p.iref_limit - ‖i‖ := (min_le_left _ _).trans (min_le_right _ _)
  linarith
theorem etaOf_V {p : Par} {m i : ℂ} {V : ℝ} : etaOf p m i V ≤ V := min_le_right _ _

/-! ### `SinglePhase` -/

theorem margin_single (p : Par) (o : Op) (i : Inp) (x : ℕ → ℝ) (hr : residual1 o x = 0) (hf : Fits p o i (iaOf x) 0 0) (t : ℝ) :
    MarginD1 (etaOf p (maOf x) (iaOf x) o.Vdc) (env1 p (steadyInp i t) (at1 (2 * Real.pi + 2 * Real.pi * 60 * t) (init1 o x (iaOf x)))) := by
  have hi : irefD (env1 p (steadyInp i t) (at1 (2 * Real.pi + 2 * Real.pi * 60 * t) (init1 o x (iaOf x)))) = iaOf x := by
    have hQ' : (sPh i.va (iaOf x)).im = i.Q_ref := by rw [hf.va, ((residual1_zero o x).1 hr).2, hf.Q]
    show irefOf p (steadyInp i t) o.Vdc (iaOf x).re (iaOf x).im (sPh i.va (iaOf x)) = iaOf x
    apply Complex.ext
    · rw [iref_re]; show _ + p.Kp_DC * (i.Vdc_ref - _) = _; rw [hf.V]; ring
    · rw [iref_im]; show _ - p.Kp_Q * (i.Q_ref - _) = _; rw [hQ']; ring
  exact ⟨margin_phase (m := maOf x) rfl rfl etaOf_m, by rw [hi]; exact etaOf_i, etaOf_V⟩

/-- C116 for `SinglePhase`: whatever solves the model from the computed steady state stays there: every state but the PLL angle is constant, the angle turns at 60 Hz. -/
theorem C116_stays_single (p : Par) (o : Op) (i : Inp) (x : ℕ → ℝ) (hr : residual1 o x = 0) (hf : Fits p o i (iaOf x) 0 0) (hv : i.va.im = 0) (hT : 0 < i.Tactual) (hV : 0 < o.Vdc)
    (hm : ‖maOf x‖ < p.m_limit) (hl : ‖iaOf x‖ < p.iref_limit) (T : ℝ)
    (Z : ℝ → SinglePhase.V → ℝ) (hZ : ∀ t ∈ Icc 0 T, Solves (fun t y => SinglePhase.rhs (env1 p { i with t := t, w := 2 * Real.pi * 60 } y)) Z t) (h0 : Z 0 = init1 o x (iaOf x)) :
    ∀ t ∈ Icc 0 T, (∀ r, r ≠ .wte → Z t r = Z 0 r) ∧ Z t .wte = 2 * Real.pi + 2 * Real.pi * 60 * t := by
  obtain ⟨hs0, hs⟩ := C88_rotating_single p o i x hr hf hv
  have key := C113_unique_single p (steadyInp i) (fun _ => true) T (steadyInp_bounded i hT T) (fun t => at1 (2 * Real.pi + 2 * Real.pi * 60 * t) (init1 o x (iaOf x))) Z (fun t _ => hs t) hZ _
    (etaOf_pos hm hl hV) (fun t _ => margin_single p o i x hr hf t) (h0.trans hs0.symm)
  intro t ht
  rw [key t ht, h0]
  refine ⟨fun r hrw => ?_, rfl⟩
  cases r <;> first | rfl | exact absurd rfl hrw

/-- C116 for `SinglePhase`: a start near the computed steady state stays near it, the deviation growing at most exponentially. -/
theorem C116_near_single (p : Par) (o : Op) (i : Inp) (x : ℕ → ℝ) (hr : residual1 o x = 0) (hf : Fits p o i (iaOf x) 0 0) (hv : i.va.im = 0) (hT : 0 < i.Tactual) (hV : 0 < o.Vdc)
    (hm : ‖maOf x‖ < p.m_limit) (hl : ‖iaOf x‖ < p.iref_limit) (T : ℝ) :
    ∃ ρ > 0, ∃ L, ∀ Z : ℝ → SinglePhase.V → ℝ, (∀ t ∈ Icc 0 T, Solves (fun t y => SinglePhase.rhs (env1 p { i with t := t, w := 2 * Real.pi * 60 } y)) Z t) →
      ‖Z 0 - init1 o x (iaOf x)‖ < ρ → ∀ t ∈ Icc 0 T, ∀ r, r ≠ .wte → |Z t r - (init1 o x (iaOf x)) r| ≤ ‖Z 0 - init1 o x (iaOf x)‖ * Real.exp (L * t) := by
  obtain ⟨hs0, hs⟩ := C88_rotating_single p o i x hr hf hv
  obtain ⟨ρ, hρ, L, h⟩ := C113_depends_single p (steadyInp i) (fun _ => true) T (steadyInp_bounded i hT T) (fun t => at1 (2 * Real.pi + 2 * Real.pi * 60 * t) (init1 o x (iaOf x))) (fun t _ => hs t) _
    (etaOf_pos hm hl hV) (fun t _ => margin_single p o i x hr hf t)
  beta_reduce at h hs0
  rw [hs0] at h
  refine ⟨ρ, hρ, L, fun Z hZ hd t ht r hrw => ?_⟩
  refine le_trans ?_ (h Z hZ hd t ht)
  refine le_trans (le_of_eq ?_) (norm_le_pi_norm (Z t - at1 (2 * Real.pi + 2 * Real.pi * 60 * t) (init1 o x (iaOf x))) r)
  rw [Real.norm_eq_abs, Pi.sub_apply]
  cases r <;> first | rfl | exact absurd rfl hrw

/-! ### `ThreePhase` -/

theorem margin_three (p : Par) (o : Op) (i : Inp) (x : ℕ → ℝ) (hr : residual3 false o x = 0) (hf : Fits p o i (iaOf x) (ibOf false x) (icOf false x)) (t : ℝ) :
    MarginD3 (etaOf p (maOf x) (iaOf x) o.Vdc) (envT p (steadyInp i t) (at_three (2 * Real.pi + 2 * Real.pi * 60 * t) (initT false o x (iaOf x)))) := by
  have hi : irefD (envT p (steadyInp i t) (at_three (2 * Real.pi + 2 * Real.pi * 60 * t) (initT false o x (iaOf x)))) = iaOf x := by
    have hQ' : (sCalc i.va i.vb i.vc (iaOf x) (ibOf false x) (icOf false x)).im = i.Q_ref := by
      rw [hf.va, hf.vb, hf.vc, (residual3_zero false o x hr).2, hf.Q]
    show irefOf p (steadyInp i t) o.Vdc (iaOf x).re (iaOf x).im (sCalc i.va i.vb i.vc (iaOf x) (ibOf false x) (icOf false x)) = iaOf x
    apply Complex.ext
    · rw [iref_re]; show _ + p.Kp_DC * (i.Vdc_ref - _) = _; rw [hf.V]; ring
    · rw [iref_im]; show _ - p.Kp_Q * (i.Q_ref - _) = _; rw [hQ']; ring
  exact ⟨margin_phase (m := maOf x) rfl rfl etaOf_m, margin_phase (m := maOf x) rfl (norm_ub_eq _) etaOf_m, margin_phase (m := maOf x) rfl (norm_uc_eq _) etaOf_m, by rw [hi]; exact etaOf_i, etaOf_V⟩

/-- C116 for `ThreePhase`: whatever solves the model from the computed steady state stays there: every state but the PLL angle is constant, the angle turns at 60 Hz. -/
theorem C116_stays_three (p : Par) (o : Op) (i : Inp) (x : ℕ → ℝ) (hr : residual3 false o x = 0) (hf : Fits p o i (iaOf x) (ibOf false x) (icOf false x)) (hv : i.va.im = 0) (hT : 0 < i.Tactual) (hV : 0 < o.Vdc)
    (hm : ‖maOf x‖ < p.m_limit) (hl : ‖iaOf x‖ < p.iref_limit) (T : ℝ)
    (Z : ℝ → ThreePhase.V → ℝ) (hZ : ∀ t ∈ Icc 0 T, Solves (fun t y => ThreePhase.rhs (envT p { i with t := t, w := 2 * Real.pi * 60 } y)) Z t) (h0 : Z 0 = initT false o x (iaOf x)) :
    ∀ t ∈ Icc 0 T, (∀ r, r ≠ .wte → Z t r = Z 0 r) ∧ Z t .wte = 2 * Real.pi + 2 * Real.pi * 60 * t := by
  obtain ⟨hs0, hs⟩ := C88_rotating_three p o i x hr hf hv
  have key := C113_unique_three p (steadyInp i) (fun _ => true) T (steadyInp_bounded i hT T) (fun t => at_three (2 * Real.pi + 2 * Real.pi * 60 * t) (initT false o x (iaOf x))) Z (fun t _ => hs t) hZ _
    (etaOf_pos hm hl hV) (fun t _ => margin_three p o i x hr hf t) (h0.trans hs0.symm)
  intro t ht
  rw [key t ht, h0]
  refine ⟨fun r hrw => ?_, rfl⟩
  cases r <;> first | rfl | exact absurd rfl hrw

/-- C116 for `ThreePhase`: a start near the computed steady state stays near it, the deviation growing at most exponentially. -/
theorem C116_near_three (p : Par) (o : Op) (i : Inp) (x : ℕ → ℝ) (hr : residual3 false o x = 0) (hf : Fits p o i (iaOf x) (ibOf false x) (icOf false x)) (hv : i.va.im = 0) (hT : 0 < i.Tactual) (hV : 0 < o.Vdc)
    (hm : ‖maOf x‖ < p.m_limit) (hl : ‖iaOf x‖ < p.iref_limit) (T : ℝ) :
    ∃ ρ > 0, ∃ L, ∀ Z : ℝ → ThreePhase.V → ℝ, (∀ t ∈ Icc 0 T, Solves (fun t y => ThreePhase.rhs (envT p { i with t := t, w := 2 * Real.pi * 60 } y)) Z t) →
      ‖Z 0 - initT false o x (iaOf x)‖ < ρ → ∀ t ∈ Icc 0 T, ∀ r, r ≠ .wte → |Z t r - (initT false o x (iaOf x)) r| ≤ ‖Z 0 - initT false o x (iaOf x)‖ * Real.exp (L * t) := by
  obtain ⟨hs0, hs⟩ := C88_rotating_three p o i x hr hf hv
  obtain ⟨ρ, hρ, L, h⟩ := C113_depends_three p (steadyInp i) (fun _ => true) T (steadyInp_bounded i hT T) (fun t => at_three (2 * Real.pi + 2 * Real.pi * 60 * t) (initT false o x (iaOf x))) (fun t _ => hs t) _
    (etaOf_pos hm hl hV) (fun t _ => margin_three p o i x hr hf t)
  beta_reduce at h hs0
  rw [hs0] at h
  refine ⟨ρ, hρ, L, fun Z hZ hd t ht r hrw => ?_⟩
  refine le_trans ?_ (h Z hZ hd t ht)
  refine le_trans (le_of_eq ?_) (norm_le_pi_norm (Z t - at_three (2 * Real.pi + 2 * Real.pi * 60 * t) (initT false o x (iaOf x))) r)
  rw [Real.norm_eq_abs, Pi.sub_apply]
  cases r <;> first | rfl | exact absurd rfl hrw

/-! ### `ThreePhaseNoVrmsFilter` -/

theorem margin_no_filter (p : Par) (o : Op) (i : Inp) (x : ℕ → ℝ) (hr : residual3 false o x = 0) (hf : Fits p o i (iaOf x) (ibOf false x) (icOf false x)) (t : ℝ) :
    MarginD3 (etaOf p (maOf x) (iaOf x) o.Vdc) (envN p (steadyInp i t) (at_no_filter (2 * Real.pi + 2 * Real.pi * 60 * t) (initN false o x (iaOf x)))) := by
  have hi : irefD (envN p (steadyInp i t) (at_no_filter (2 * Real.pi + 2 * Real.pi * 60 * t) (initN false o x (iaOf x)))) = iaOf x := by
    have hQ' : (sCalc i.va i.vb i.vc (iaOf x) (ibOf false x) (icOf false x)).im = i.Q_ref := by
      rw [hf.va, hf.vb, hf.vc, (residual3_zero false o x hr).2, hf.Q]
    show irefOf p (steadyInp i t) o.Vdc (iaOf x).re (iaOf x).im (sCalc i.va i.vb i.vc (iaOf x) (ibOf false x) (icOf false x)) = iaOf x
    apply Complex.ext
    · rw [iref_re]; show _ + p.Kp_DC * (i.Vdc_ref - _) = _; rw [hf.V]; ring
    · rw [iref_im]; show _ - p.Kp_Q * (i.Q_ref - _) = _; rw [hQ']; ring
  exact ⟨margin_phase (m := maOf x) rfl rfl etaOf_m, margin_phase (m := maOf x) rfl (norm_ub_eq _) etaOf_m, margin_phase (m := maOf x) rfl (norm_uc_eq _) etaOf_m, by rw [hi]; exact etaOf_i, etaOf_V⟩

/-- C116 for `ThreePhaseNoVrmsFilter`: whatever solves the model from the computed steady state stays there: every state but the PLL angle is constant, the angle turns at 60 Hz. -/
theorem C116_stays_no_filter (p : Par) (o : Op) (i : Inp) (x : ℕ → ℝ) (hr : residual3 false o x = 0) (hf : Fits p o i (iaOf x) (ibOf false x) (icOf false x)) (hv : i.va.im = 0) (hT : 0 < i.Tactual) (hV : 0 < o.Vdc)
    (hm : ‖maOf x‖ < p.m_limit) (hl : ‖iaOf x‖ < p.iref_limit) (T : ℝ)
    (Z : ℝ → ThreePhaseNoVrmsFilter.V → ℝ) (hZ : ∀ t ∈ Icc 0 T, Solves (fun t y => ThreePhaseNoVrmsFilter.rhs (envN p { i with t := t, w := 2 * Real.pi * 60 } y)) Z t) (h0 : Z 0 = initN false o x (iaOf x)) :
    ∀ t ∈ Icc 0 T, (∀ r, r ≠ .wte → Z t r = Z 0 r) ∧ Z t .wte = 2 * Real.pi + 2 * Real.pi * 60 * t := by
  obtain ⟨hs0, hs⟩ := C88_rotating_no_filter p o i x hr hf hv
  have key := C113_unique_three_no_filter p (steadyInp i) (fun _ => true) T (steadyInp_bounded i hT T) (fun t => at_no_filter (2 * Real.pi + 2 * Real.pi * 60 * t) (initN false o x (iaOf x))) Z (fun t _ => hs t) hZ _
    (etaOf_pos hm hl hV) (fun t _ => margin_no_filter p o i x hr hf t) (h0.trans hs0.symm)
  intro t ht
  rw [key t ht, h0]
  refine ⟨fun r hrw => ?_, rfl⟩
  cases r <;> first | rfl | exact absurd rfl hrw

/-- C116 for `ThreePhaseNoVrmsFilter`: a start near the computed steady state stays near it, the deviation growing at most exponentially. -/
theorem C116_near_no_filter (p : Par) (o : Op) (i : Inp) (x : ℕ → ℝ) (hr : residual3 false o x = 0) (hf : Fits p o i (iaOf x) (ibOf false x) (icOf false x)) (hv : i.va.im = 0) (hT : 0 < i.Tactual) (hV : 0 < o.Vdc)
    (hm : ‖maOf x‖ < p.m_limit) (hl : ‖iaOf x‖ < p.iref_limit) (T : ℝ) :
    ∃ ρ > 0, ∃ L, ∀ Z : ℝ → ThreePhaseNoVrmsFilter.V → ℝ, (∀ t ∈ Icc 0 T, Solves (fun t y => ThreePhaseNoVrmsFilter.rhs (envN p { i with t := t, w := 2 * Real.pi * 60 } y)) Z t) →
      ‖Z 0 - initN false o x (iaOf x)‖ < ρ → ∀ t ∈ Icc 0 T, ∀ r, r ≠ .wte → |Z t r - (initN false o x (iaOf x)) r| ≤ ‖Z 0 - initN false o x (iaOf x)‖ * Real.exp (L * t) := by
  obtain ⟨hs0, hs⟩ := C88_rotating_no_filter p o i x hr hf hv
  obtain ⟨ρ, hρ, L, h⟩ := C113_depends_three_no_filter p (steadyInp i) (fun _ => true) T (steadyInp_bounded i hT T) (fun t => at_no_filter (2 * Real.pi + 2 * Real.pi * 60 * t) (initN false o x (iaOf x))) (fun t _ => hs t) _
    (etaOf_pos hm hl hV) (fun t _ => margin_no_filter p o i x hr hf t)
  beta_reduce at h hs0
  rw [hs0] at h
  refine ⟨ρ, hρ, L, fun Z hZ hd t ht r hrw => ?_⟩
  refine le_trans ?_ (h Z hZ hd t ht)
  refine le_trans (le_of_eq ?_) (norm_le_pi_norm (Z t - at_no_filter (2 * Real.pi + 2 * Real.pi * 60 * t) (initN false o x (iaOf x))) r)
  rw [Real.norm_eq_abs, Pi.sub_apply]
  cases r <;> first | rfl | exact absurd rfl hrw

/-! ### `ThreePhaseNumba` -/

theorem margin_numba (p : Par) (o : Op) (i : Inp) (x : ℕ → ℝ) (hr : residual3 false o x = 0) (hf : Fits p o i (iaOf x) (ibOf false x) (icOf false x)) (t : ℝ) :
    MarginD3 (etaOf p (maOf x) (iaOf x) o.Vdc) (envNumba p (steadyInp i t) (at_numba (2 * Real.pi + 2 * Real.pi * 60 * t) (initNumba false o x (iaOf x)))) := by
  have hi : irefD (envNumba p (steadyInp i t) (at_numba (2 * Real.pi + 2 * Real.pi * 60 * t) (initNumba false o x (iaOf x)))) = iaOf x := by
    have hQ' : (sCalc i.va i.vb i.vc (iaOf x) (ibOf false x) (icOf false x)).im = i.Q_ref := by
      rw [hf.va, hf.vb, hf.vc, (residual3_zero false o x hr).2, hf.Q]
    show irefOf p (steadyInp i t) o.Vdc (iaOf x).re (iaOf x).im (sCalc i.va i.vb i.vc (iaOf x) (ibOf false x) (icOf false x)) = iaOf x
    apply Complex.ext
    · rw [iref_re]; show _ + p.Kp_DC * (i.Vdc_ref - _) = _; rw [hf.V]; ring
    · rw [iref_im]; show _ - p.Kp_Q * (i.Q_ref - _) = _; rw [hQ']; ring
  exact ⟨margin_phase (m := maOf x) rfl rfl etaOf_m, margin_phase (m := maOf x) rfl (norm_ub_eq _) etaOf_m, margin_phase (m := maOf x) rfl (norm_uc_eq _) etaOf_m, by rw [hi]; exact etaOf_i, etaOf_V⟩

/-- C116 for `ThreePhaseNumba`: whatever solves the model from the computed steady state stays there: every state but the PLL angle is constant, the angle turns at 60 Hz. -/
theorem C116_stays_numba (p : Par) (o : Op) (i : Inp) (x : ℕ → ℝ) (hr : residual3 false o x = 0) (hf : Fits p o i (iaOf x) (ibOf false x) (icOf false x)) (hv : i.va.im = 0) (hT : 0 < i.Tactual) (hV : 0 < o.Vdc)
    (hm : ‖maOf x‖ < p.m_limit) (hl : ‖iaOf x‖ < p.iref_limit) (T : ℝ)
    (Z : ℝ → ThreePhaseNumba.V → ℝ) (hZ : ∀ t ∈ Icc 0 T, Solves (fun t y => ThreePhaseNumba.rhs (envNumba p { i with t := t, w := 2 * Real.pi * 60 } y)) Z t) (h0 : Z 0 = initNumba false o x (iaOf x)) :
    ∀ t ∈ Icc 0 T, (∀ r, r ≠ .wte → Z t r = Z 0 r) ∧ Z t .wte = 2 * Real.pi + 2 * Real.pi * 60 * t := by
  obtain ⟨hs0, hs⟩ := C88_rotating_numba p o i x hr hf hv
  have key := C113_unique_three_numba p (steadyInp i) (fun _ => true) T (steadyInp_bounded i hT T) (fun t => at_numba (2 * Real.pi + 2 * Real.pi * 60 * t) (initNumba false o x (iaOf x))) Z (fun t _ => hs t) hZ _
    (etaOf_pos hm hl hV) (fun t _ => margin_numba p o i x hr hf t) (h0.trans hs0.symm)
  intro t ht
  rw [key t ht, h0]
  refine ⟨fun r hrw => ?_, rfl⟩
  cases r <;> first | rfl | exact absurd rfl hrw

/-- C116 for `ThreePhaseNumba`: a start near the computed steady state stays near it, the deviation growing at most exponentially. -/
theorem C116_near_numba (p : Par) (o : Op) (i : Inp) (x : ℕ → ℝ) (hr : residual3 false o x = 0) (hf : Fits p o i (iaOf x) (ibOf false x) (icOf false x)) (hv : i.va.im = 0) (hT : 0 < i.Tactual) (hV : 0 < o.Vdc)
    (hm : ‖maOf x‖ < p.m_limit) (hl : ‖iaOf x‖ < p.iref_limit) (T : ℝ) :
    ∃ ρ > 0, ∃ L, ∀ Z : ℝ → ThreePhaseNumba.V → ℝ, (∀ t ∈ Icc 0 T, Solves (fun t y => ThreePhaseNumba.rhs (envNumba p { i with t := t, w := 2 * Real.pi * 60 } y)) Z t) →
      ‖Z 0 - initNumba false o x (iaOf x)‖ < ρ → ∀ t ∈ Icc 0 T, ∀ r, r ≠ .wte → |Z t r - (initNumba false o x (iaOf x)) r| ≤ ‖Z 0 - initNumba false o x (iaOf x)‖ * Real.exp (L * t) := by
  obtain ⟨hs0, hs⟩ := C88_rotating_numba p o i x hr hf hv
  obtain ⟨ρ, hρ, L, h⟩ := C113_depends_three_numba p (steadyInp i) (fun _ => true) T (steadyInp_bounded i hT T) (fun t => at_numba (2 * Real.pi + 2 * Real.pi * 60 * t) (initNumba false o x (iaOf x))) (fun t _ => hs t) _
    (etaOf_pos hm hl hV) (fun t _ => margin_numba p o i x hr hf t)
  beta_reduce at h hs0
  rw [hs0] at h
  refine ⟨ρ, hρ, L, fun Z hZ hd t ht r hrw => ?_⟩
  refine le_trans ?_ (h Z hZ hd t ht)
  refine le_trans (le_of_eq ?_) (norm_le_pi_norm (Z t - at_numba (2 * Real.pi + 2 * Real.pi * 60 * t) (initNumba false o x (iaOf x))) r)
  rw [Real.norm_eq_abs, Pi.sub_apply]
  cases r <;> first | rfl | exact absurd rfl hrw

/-! ### `ThreePhaseBalanced` -/

/-- The initial state with another angle. -/
noncomputable def at_balanced (θ : ℝ) (y : ThreePhaseBalanced.V → ℝ) : ThreePhaseBalanced.V → ℝ
  | .wte => θ
  | r => y r

/-- C88 for `ThreePhaseBalanced`: from a zero residual on a stiff symmetric grid with angle zero, the state computed by the initialisation, its angle turning at 60 Hz, solves the model for
all time. -/
theorem C88_rotating_balanced (p : Par) (o : Op) (i : Inp) (x : ℕ → ℝ) (hr : residual3 false o x = 0) (hf : Fits p o i (iaOf x) (ibOf false x) (icOf false x)) (hv : i.va.im = 0) :
    at_balanced (2 * Real.pi + 2 * Real.pi * 60 * 0) (initB o x (iaOf x)) = initB o x (iaOf x) ∧
      ∀ t, Solves (fun t y => ThreePhaseBalanced.rhs (envB p (steadyInp i t) y)) (fun t => at_balanced (2 * Real.pi + 2 * Real.pi * 60 * t) (initB o x (iaOf x))) t := by
  have h0 : (pll1 (steadyInp i 0).va (steadyInp i 0).w (steadyInp i 0).t (2 * Real.pi)).1 = 0 := by have := pll1_turn i hv 0; simpa using this
  obtain ⟨hs, hw⟩ := C88_steady_balanced p o (steadyInp i 0) x (iaOf x) hr rfl (hf.steady 0) h0
  refine ⟨by funext r; cases r <;> first | rfl | (show 2 * Real.pi + 2 * Real.pi * 60 * 0 = 2 * Real.pi; ring), fun t => ?_⟩
  have hvd : (pll3 i.va (Phasor.ub i.va) (Phasor.uc i.va) (2 * Real.pi * 60) t (2 * Real.pi + 2 * Real.pi * 60 * t)).1 = (pll3 i.va (Phasor.ub i.va) (Phasor.uc i.va) (2 * Real.pi * 60) 0 (2 * Real.pi)).1 := by
    rw [show (pll3 i.va (Phasor.ub i.va) (Phasor.uc i.va) (2 * Real.pi * 60) t (2 * Real.pi + 2 * Real.pi * 60 * t)).1 = 0 from by rw [C53_pll_three_phase]; exact pll1_turn i hv t, show (pll3 i.va (Phasor.ub i.va) (Phasor.uc i.va) (2 * Real.pi * 60) 0 (2 * Real.pi)).1 = 0 from by rw [C53_pll_three_phase]; exact h0]
  have he : envB p (steadyInp i t) (at_balanced (2 * Real.pi + 2 * Real.pi * 60 * t) (initB o x (iaOf x))) =
      { envB p (steadyInp i 0) (initB o x (iaOf x)) with t := t, wte := 2 * Real.pi + 2 * Real.pi * 60 * t } := by
    simp only [envB, env3, at_balanced, initB, steadyInp, hvd, Env.base, ppvOf, irefOf]
  have hrhs : ∀ r, ThreePhaseBalanced.rhs (envB p (steadyInp i t) (at_balanced (2 * Real.pi + 2 * Real.pi * 60 * t) (initB o x (iaOf x)))) r =
      ThreePhaseBalanced.rhs (envB p (steadyInp i 0) (initB o x (iaOf x))) r := by
    intro r; rw [he]; cases r <;> rfl
  intro r
  by_cases hw' : r = .wte
  · subst hw'
    beta_reduce
    rw [hrhs, hw]
    show HasDerivAt (fun s => 2 * Real.pi + 2 * Real.pi * 60 * s) (2 * Real.pi * 60) t
    have := ((hasDerivAt_id t).const_mul (2 * Real.pi * 60)).const_add (2 * Real.pi)
    simpa using this
  · beta_reduce
    rw [hrhs, hs r hw']
    have hc : (fun s => at_balanced (2 * Real.pi + 2 * Real.pi * 60 * s) (initB o x (iaOf x)) r) = fun _ => initB o x (iaOf x) r := by
      funext s; cases r <;> first | rfl | exact absurd rfl hw'
    beta_reduce at hc
    rw [hc]
    exact hasDerivAt_const _ _

theorem margin_balanced (p : Par) (o : Op) (i : Inp) (x : ℕ → ℝ) (hr : residual3 false o x = 0) (hf : Fits p o i (iaOf x) (ibOf false x) (icOf false x)) (t : ℝ) :
    MarginD1 (etaOf p (maOf x) (iaOf x) o.Vdc) (envB p (steadyInp i t) (at_balanced (2 * Real.pi + 2 * Real.pi * 60 * t) (initB o x (iaOf x)))) := by
  have hi : irefD (envB p (steadyInp i t) (at_balanced (2 * Real.pi + 2 * Real.pi * 60 * t) (initB o x (iaOf x)))) = iaOf x := by
    have hbal := C88_balanced_option_needs_balanced_grid o x hr
    have hb : i.vb = Phasor.ub i.va := by rw [hf.vb, hbal.1, ← hf.va]
    have hc : i.vc = Phasor.uc i.va := by rw [hf.vc, hbal.2, ← hf.va]
    have hQ' : (sCalc i.va (Phasor.ub i.va) (Phasor.uc i.va) (iaOf x) (ibOf false x) (icOf false x)).im = i.Q_ref := by
      rw [← hb, ← hc, hf.va, hf.vb, hf.vc, (residual3_zero false o x hr).2, hf.Q]
    show irefOf p _ o.Vdc (iaOf x).re (iaOf x).im (sCalc i.va (Phasor.ub i.va) (Phasor.uc i.va) (iaOf x) (ibOf false x) (icOf false x)) = iaOf x
    apply Complex.ext
    · rw [iref_re]; show _ + p.Kp_DC * (i.Vdc_ref - _) = _; rw [hf.V]; ring
    · rw [iref_im]; show _ - p.Kp_Q * (i.Q_ref - _) = _; rw [hQ']; ring
  exact ⟨margin_phase (m := maOf x) rfl rfl etaOf_m, by rw [hi]; exact etaOf_i, etaOf_V⟩

/-- C116 for `ThreePhaseBalanced`: whatever solves the model from the computed steady state stays there: every state but the PLL angle is constant, the angle turns at 60 Hz. -/
theorem C116_stays_balanced (p : Par) (o : Op) (i : Inp) (x : ℕ → ℝ) (hr : residual3 false o x = 0) (hf : Fits p o i (iaOf x) (ibOf false x) (icOf false x)) (hv : i.va.im = 0) (hT : 0 < i.Tactual) (hV : 0 < o.Vdc)
    (hm : ‖maOf x‖ < p.m_limit) (hl : ‖iaOf x‖ < p.iref_limit) (T : ℝ)
    (Z : ℝ → ThreePhaseBalanced.V → ℝ) (hZ : ∀ t ∈ Icc 0 T, Solves (fun t y => ThreePhaseBalanced.rhs (envB p { i with t := t, w := 2 * Real.pi * 60 } y)) Z t) (h0 : Z 0 = initB o x (iaOf x)) :
    ∀ t ∈ Icc 0 T, (∀ r, r ≠ .wte → Z t r = Z 0 r) ∧ Z t .wte = 2 * Real.pi + 2 * Real.pi * 60 * t := by
  obtain ⟨hs0, hs⟩ := C88_rotating_balanced p o i x hr hf hv
  have key := C113_unique_balanced p (steadyInp i) (fun _ => true) T (steadyInp_bounded i hT T) (fun t => at_balanced (2 * Real.pi + 2 * Real.pi * 60 * t) (initB o x (iaOf x))) Z (fun t _ => hs t) hZ _
    (etaOf_pos hm hl hV) (fun t _ => margin_balanced p o i x hr hf t) (h0.trans hs0.symm)
  intro t ht
  rw [key t ht, h0]
  refine ⟨fun r hrw => ?_, rfl⟩
  cases r <;> first | rfl | exact absurd rfl hrw

/-- C116 for `ThreePhaseBalanced`: a start near the computed steady state stays near it, the deviation growing at most exponentially. -/
theorem C116_near_balanced (p : Par) (o : Op) (i : Inp) (x : ℕ → ℝ) (hr : residual3 false o x = 0) (hf : Fits p o i (iaOf x) (ibOf false x) (icOf false x)) (hv : i.va.im = 0) (hT : 0 < i.Tactual) (hV : 0 < o.Vdc)
    (hm : ‖maOf x‖ < p.m_limit) (hl : ‖iaOf x‖ < p.iref_limit) (T : ℝ) :
    ∃ ρ > 0, ∃ L, ∀ Z : ℝ → ThreePhaseBalanced.V → ℝ, (∀ t ∈ Icc 0 T, Solves (fun t y => ThreePhaseBalanced.rhs (envB p { i with t := t, w := 2 * Real.pi * 60 } y)) Z t) →
      ‖Z 0 - initB o x (iaOf x)‖ < ρ → ∀ t ∈ Icc 0 T, ∀ r, r ≠ .wte → |Z t r - (initB o x (iaOf x)) r| ≤ ‖Z 0 - initB o x (iaOf x)‖ * Real.exp (L * t) := by
  obtain ⟨hs0, hs⟩ := C88_rotating_balanced p o i x hr hf hv
  obtain ⟨ρ, hρ, L, h⟩ := C113_depends_balanced p (steadyInp i) (fun _ => true) T (steadyInp_bounded i hT T) (fun t => at_balanced (2 * Real.pi + 2 * Real.pi * 60 * t) (initB o x (iaOf x))) (fun t _ => hs t) _
    (etaOf_pos hm hl hV) (fun t _ => margin_balanced p o i x hr hf t)
  rw [hs0] at h
  refine ⟨ρ, hρ, L, fun Z hZ hd t ht r hrw => ?_⟩
  refine le_trans ?_ (h Z hZ hd t ht)
  refine le_trans (le_of_eq ?_) (norm_le_pi_norm (Z t - at_balanced (2 * Real.pi + 2 * Real.pi * 60 * t) (initB o x (iaOf x))) r)
  rw [Real.norm_eq_abs, Pi.sub_apply]
  cases r <;> first | rfl | exact absurd rfl hrw

/-! ### `SinglePhaseConstantVdc` -/

/-- The initial state with another angle. -/
noncomputable def at_c1 (θ : ℝ) (y : SinglePhaseConstantVdc.V → ℝ) : SinglePhaseConstantVdc.V → ℝ
  | .wte => θ
  | r => y r

/-- C88 for `SinglePhaseConstantVdc`: from a zero residual on a stiff symmetric grid with angle zero, the state computed by the initialisation, its angle turning at 60 Hz, solves the model for
all time. -/
theorem C88_rotating_single_constant_Vdc (p : Par) (o : Op) (i : Inp) (x : ℕ → ℝ) (hr : residual1 o x = 0) (hf : Fits p o i (iaOf x) 0 0) (hv : i.va.im = 0) :
    at_c1 (2 * Real.pi + 2 * Real.pi * 60 * 0) (initC1 x (iaOf x)) = initC1 x (iaOf x) ∧
      ∀ t, Solves (fun t y => SinglePhaseConstantVdc.rhs (envC1 p (steadyInp i t) y)) (fun t => at_c1 (2 * Real.pi + 2 * Real.pi * 60 * t) (initC1 x (iaOf x))) t := by
  have h0 : (pll1 (steadyInp i 0).va (steadyInp i 0).w (steadyInp i 0).t (2 * Real.pi)).1 = 0 := by have := pll1_turn i hv 0; simpa using this
  obtain ⟨hs, hw⟩ := C88_steady_single_constant_Vdc p o (steadyInp i 0) x (iaOf x) hr rfl (hf.steady 0) h0
  refine ⟨by funext r; cases r <;> first | rfl | (show 2 * Real.pi + 2 * Real.pi * 60 * 0 = 2 * Real.pi; ring), fun t => ?_⟩
  have hvd : (pll1 i.va (2 * Real.pi * 60) t (2 * Real.pi + 2 * Real.pi * 60 * t)).1 = (pll1 i.va (2 * Real.pi * 60) 0 (2 * Real.pi)).1 := by
    rw [show (pll1 i.va (2 * Real.pi * 60) t (2 * Real.pi + 2 * Real.pi * 60 * t)).1 = 0 from pll1_turn i hv t, show (pll1 i.va (2 * Real.pi * 60) 0 (2 * Real.pi)).1 = 0 from h0]
  have he : envC1 p (steadyInp i t) (at_c1 (2 * Real.pi + 2 * Real.pi * 60 * t) (initC1 x (iaOf x))) =
      { envC1 p (steadyInp i 0) (initC1 x (iaOf x)) with t := t, wte := 2 * Real.pi + 2 * Real.pi * 60 * t } := by
    simp only [envC1, at_c1, initC1, steadyInp, hvd, Env.base, ppvOf, irefPOf]
  have hrhs : ∀ r, SinglePhaseConstantVdc.rhs (envC1 p (steadyInp i t) (at_c1 (2 * Real.pi + 2 * Real.pi * 60 * t) (initC1 x (iaOf x)))) r =
      SinglePhaseConstantVdc.rhs (envC1 p (steadyInp i 0) (initC1 x (iaOf x))) r := by
    intro r; rw [he]; cases r <;> rfl
  intro r
  by_cases hw' : r = .wte
  · subst hw'
    beta_reduce
    rw [hrhs, hw]
    show HasDerivAt (fun s => 2 * Real.pi + 2 * Real.pi * 60 * s) (2 * Real.pi * 60) t
    have := ((hasDerivAt_id t).const_mul (2 * Real.pi * 60)).const_add (2 * Real.pi)
    simpa using this
  · beta_reduce
    rw [hrhs, hs r hw']
    have hc : (fun s => at_c1 (2 * Real.pi + 2 * Real.pi * 60 * s) (initC1 x (iaOf x)) r) = fun _ => initC1 x (iaOf x) r := by
      funext s; cases r <;> first | rfl | exact absurd rfl hw'
    beta_reduce at hc
    rw [hc]
    exact hasDerivAt_const _ _

theorem margin_single_constant_Vdc (p : Par) (o : Op) (i : Inp) (x : ℕ → ℝ) (hr : residual1 o x = 0) (hf : Fits p o i (iaOf x) 0 0) (t : ℝ) :
    MarginP1 (etaOf p (maOf x) (iaOf x) 1) (envC1 p (steadyInp i t) (at_c1 (2 * Real.pi + 2 * Real.pi * 60 * t) (initC1 x (iaOf x)))) := by
  have hi : irefP (envC1 p (steadyInp i t) (at_c1 (2 * Real.pi + 2 * Real.pi * 60 * t) (initC1 x (iaOf x)))) = iaOf x := by
    obtain ⟨hP, hQ, -⟩ := (residual1_zero o x).1 hr
    have hQ' : (sPh i.va (iaOf x)).im = i.Q_ref := by rw [hf.va, hQ, hf.Q]
    have hvt : vtOf p ⟨0, 0⟩ (maOf x) i.Vdc0 = maOf x * ((o.Vdc / 2 : ℝ) : ℂ) := by
      have h0 : (⟨0, 0⟩ : ℂ) = 0 := rfl
      unfold vtOf duty; rw [h0, hf.V0]; simp
    have hPP : ppvOf p (steadyInp i t) i.Vdc0 = (sPh (vtOf p ⟨0, 0⟩ (maOf x) i.Vdc0) (iaOf x)).re := by
      rw [hvt, hP, hf.P, hf.V0]; rfl
    show irefPOf p (steadyInp i t) (ppvOf p (steadyInp i t) i.Vdc0) (iaOf x).re (iaOf x).im (sPh (vtOf p ⟨0, 0⟩ (maOf x) i.Vdc0) (iaOf x)) (sPh i.va (iaOf x)) = iaOf x
    apply Complex.ext
    · rw [irefP_re, hPP]; ring
    · rw [irefP_im]; show _ - p.Kp_Q * (i.Q_ref - _) = _; rw [hQ']; ring
  exact ⟨margin_phase (m := maOf x) rfl rfl etaOf_m, by rw [hi]; exact etaOf_i⟩

/-- C116 for `SinglePhaseConstantVdc`: whatever solves the model from the computed steady state stays there: every state but the PLL angle is constant, the angle turns at 60 Hz. -/
theorem C116_stays_single_constant_Vdc (p : Par) (o : Op) (i : Inp) (x : ℕ → ℝ) (hr : residual1 o x = 0) (hf : Fits p o i (iaOf x) 0 0) (hv : i.va.im = 0) (hT : 0 < i.Tactual)
    (hm : ‖maOf x‖ < p.m_limit) (hl : ‖iaOf x‖ < p.iref_limit) (T : ℝ)
    (Z : ℝ → SinglePhaseConstantVdc.V → ℝ) (hZ : ∀ t ∈ Icc 0 T, Solves (fun t y => SinglePhaseConstantVdc.rhs (envC1 p { i with t := t, w := 2 * Real.pi * 60 } y)) Z t) (h0 : Z 0 = initC1 x (iaOf x)) :
    ∀ t ∈ Icc 0 T, (∀ r, r ≠ .wte → Z t r = Z 0 r) ∧ Z t .wte = 2 * Real.pi + 2 * Real.pi * 60 * t := by
  obtain ⟨hs0, hs⟩ := C88_rotating_single_constant_Vdc p o i x hr hf hv
  have key := C113_unique_single_constant_vdc p (steadyInp i) (fun _ => true) T (steadyInp_bounded i hT T) (fun t => at_c1 (2 * Real.pi + 2 * Real.pi * 60 * t) (initC1 x (iaOf x))) Z (fun t _ => hs t) hZ _
    (etaOf_pos hm hl one_pos) (fun t _ => margin_single_constant_Vdc p o i x hr hf t) (h0.trans hs0.symm)
  intro t ht
  rw [key t ht, h0]
  refine ⟨fun r hrw => ?_, rfl⟩
  cases r <;> first | rfl | exact absurd rfl hrw

/-- C116 for `SinglePhaseConstantVdc`: a start near the computed steady state stays near it, the deviation growing at most exponentially. -/
theorem C116_near_single_constant_Vdc (p : Par) (o : Op) (i : Inp) (x : ℕ → ℝ) (hr : residual1 o x = 0) (hf : Fits p o i (iaOf x) 0 0) (hv : i.va.im = 0) (hT : 0 < i.Tactual)
    (hm : ‖maOf x‖ < p.m_limit) (hl : ‖iaOf x‖ < p.iref_limit) (T : ℝ) :
    ∃ ρ > 0, ∃ L, ∀ Z : ℝ → SinglePhaseConstantVdc.V → ℝ, (∀ t ∈ Icc 0 T, Solves (fun t y => SinglePhaseConstantVdc.rhs (envC1 p { i with t := t, w := 2 * Real.pi * 60 } y)) Z t) →
      ‖Z 0 - initC1 x (iaOf x)‖ < ρ → ∀ t ∈ Icc 0 T, ∀ r, r ≠ .wte → |Z t r - (initC1 x (iaOf x)) r| ≤ ‖Z 0 - initC1 x (iaOf x)‖ * Real.exp (L * t) := by
  obtain ⟨hs0, hs⟩ := C88_rotating_single_constant_Vdc p o i x hr hf hv
  obtain ⟨ρ, hρ, L, h⟩ := C113_depends_single_constant_vdc p (steadyInp i) (fun _ => true) T (steadyInp_bounded i hT T) (fun t => at_c1 (2 * Real.pi + 2 * Real.pi * 60 * t) (initC1 x (iaOf x))) (fun t _ => hs t) _
    (etaOf_pos hm hl one_pos) (fun t _ => margin_single_constant_Vdc p o i x hr hf t)
  rw [hs0] at h
  refine ⟨ρ, hρ, L, fun Z hZ hd t ht r hrw => ?_⟩
  refine le_trans ?_ (h Z hZ hd t ht)
  refine le_trans (le_of_eq ?_) (norm_le_pi_norm (Z t - at_c1 (2 * Real.pi + 2 * Real.pi * 60 * t) (initC1 x (iaOf x))) r)
  rw [Real.norm_eq_abs, Pi.sub_apply]
  cases r <;> first | rfl | exact absurd rfl hrw

/-! ### `ThreePhaseConstantVdc` -/

/-- The initial state with another angle. -/
noncomputable def at_c3 (θ : ℝ) (y : ThreePhaseConstantVdc.V → ℝ) : ThreePhaseConstantVdc.V → ℝ
  | .wte => θ
  | r => y r

/-- C88 for `ThreePhaseConstantVdc`: from a zero residual on a stiff symmetric grid with angle zero, the state computed by the initialisation, its angle turning at 60 Hz, solves the model for
all time. -/
theorem C88_rotating_three_constant_Vdc (p : Par) (o : Op) (i : Inp) (x : ℕ → ℝ) (hr : residual3 false o x = 0) (hf : Fits p o i (iaOf x) (ibOf false x) (icOf false x)) (hv : i.va.im = 0) :
    at_c3 (2 * Real.pi + 2 * Real.pi * 60 * 0) (initC3 false x (iaOf x)) = initC3 false x (iaOf x) ∧
      ∀ t, Solves (fun t y => ThreePhaseConstantVdc.rhs (envC3 p (steadyInp i t) y)) (fun t => at_c3 (2 * Real.pi + 2 * Real.pi * 60 * t) (initC3 false x (iaOf x))) t := by
  have h0 : (pll3 (steadyInp i 0).va (steadyInp i 0).vb (steadyInp i 0).vc (steadyInp i 0).w (steadyInp i 0).t (2 * Real.pi)).1 = 0 := by have := pll3_turn i x hr hf hv 0; simpa using this
  obtain ⟨hs, hw⟩ := C88_steady_three_constant_Vdc p o (steadyInp i 0) false x (iaOf x) hr rfl (hf.steady 0) h0 rfl rfl
  refine ⟨by funext r; cases r <;> first | rfl | (show 2 * Real.pi + 2 * Real.pi * 60 * 0 = 2 * Real.pi; ring), fun t => ?_⟩
  have hvd : (pll3 i.va i.vb i.vc (2 * Real.pi * 60) t (2 * Real.pi + 2 * Real.pi * 60 * t)).1 = (pll3 i.va i.vb i.vc (2 * Real.pi * 60) 0 (2 * Real.pi)).1 := by
    rw [show (pll3 i.va i.vb i.vc (2 * Real.pi * 60) t (2 * Real.pi + 2 * Real.pi * 60 * t)).1 = 0 from pll3_turn i x hr hf hv t, show (pll3 i.va i.vb i.vc (2 * Real.pi * 60) 0 (2 * Real.pi)).1 = 0 from h0]
  have he : envC3 p (steadyInp i t) (at_c3 (2 * Real.pi + 2 * Real.pi * 60 * t) (initC3 false x (iaOf x))) =
      { envC3 p (steadyInp i 0) (initC3 false x (iaOf x)) with t := t, wte := 2 * Real.pi + 2 * Real.pi * 60 * t } := by
    simp only [envC3, at_c3, initC3, steadyInp, hvd, Env.base, ppvOf, irefPOf]
  have hrhs : ∀ r, ThreePhaseConstantVdc.rhs (envC3 p (steadyInp i t) (at_c3 (2 * Real.pi + 2 * Real.pi * 60 * t) (initC3 false x (iaOf x)))) r =
      ThreePhaseConstantVdc.rhs (envC3 p (steadyInp i 0) (initC3 false x (iaOf x))) r := by
    intro r; rw [he]; cases r <;> rfl
  intro r
  by_cases hw' : r = .wte
  · subst hw'
    beta_reduce
    rw [hrhs, hw]
    show HasDerivAt (fun s => 2 * Real.pi + 2 * Real.pi * 60 * s) (2 * Real.pi * 60) t
    have := ((hasDerivAt_id t).const_mul (2 * Real.pi * 60)).const_add (2 * Real.pi)
    simpa using this
  · beta_reduce
    rw [hrhs, hs r hw']
    have hc : (fun s => at_c3 (2 * Real.pi + 2 * Real.pi * 60 * s) (initC3 false x (iaOf x)) r) = fun _ => initC3 false x (iaOf x) r := by
      funext s; cases r <;> first | rfl | exact absurd rfl hw'
    beta_reduce at hc
    rw [hc]
    exact hasDerivAt_const _ _

theorem margin_three_constant_Vdc (p : Par) (o : Op) (i : Inp) (x : ℕ → ℝ) (hr : residual3 false o x = 0) (hf : Fits p o i (iaOf x) (ibOf false x) (icOf false x)) (t : ℝ) :
    MarginP3 (etaOf p (maOf x) (iaOf x) 1) (envC3 p (steadyInp i t) (at_c3 (2 * Real.pi + 2 * Real.pi * 60 * t) (initC3 false x (iaOf x)))) := by
  have hi : irefP (envC3 p (steadyInp i t) (at_c3 (2 * Real.pi + 2 * Real.pi * 60 * t) (initC3 false x (iaOf x)))) = iaOf x := by
    obtain ⟨hP, hQ, -⟩ := residual3_zero false o x hr
    have hQ' : (sCalc i.va i.vb i.vc (iaOf x) (ibOf false x) (icOf false x)).im = i.Q_ref := by rw [hf.va, hf.vb, hf.vc, hQ, hf.Q]
    have vt : ∀ m : ℂ, vtOf p ⟨0, 0⟩ m i.Vdc0 = m * ((o.Vdc / 2 : ℝ) : ℂ) := by
      intro m
      have h0 : (⟨0, 0⟩ : ℂ) = 0 := rfl
      unfold vtOf duty; rw [h0, hf.V0]; simp
    have hPP : ppvOf p (steadyInp i t) i.Vdc0 = (sCalc (vtOf p ⟨0, 0⟩ (maOf x) i.Vdc0) (vtOf p ⟨0, 0⟩ (mbOf false x) i.Vdc0) (vtOf p ⟨0, 0⟩ (mcOf false x) i.Vdc0)
        (iaOf x) (ibOf false x) (icOf false x)).re := by
      rw [vt, vt, vt, hP, hf.P, hf.V0]; rfl
    show irefPOf p (steadyInp i t) (ppvOf p (steadyInp i t) i.Vdc0) (iaOf x).re (iaOf x).im (sCalc (vtOf p ⟨0, 0⟩ (maOf x) i.Vdc0) (vtOf p ⟨0, 0⟩ (mbOf false x) i.Vdc0)
      (vtOf p ⟨0, 0⟩ (mcOf false x) i.Vdc0) (iaOf x) (ibOf false x) (icOf false x)) (sCalc i.va i.vb i.vc (iaOf x) (ibOf false x) (icOf false x)) = iaOf x
    apply Complex.ext
    · rw [irefP_re, hPP]; ring
    · rw [irefP_im]; show _ - p.Kp_Q * (i.Q_ref - _) = _; rw [hQ']; ring
  exact ⟨margin_phase (m := maOf x) rfl rfl etaOf_m, margin_phase (m := maOf x) rfl (norm_ub_eq _) etaOf_m, margin_phase (m := maOf x) rfl (norm_uc_eq _) etaOf_m, by rw [hi]; exact etaOf_i⟩

/-- C116 for `ThreePhaseConstantVdc`: whatever solves the model from the computed steady state stays there: every state but the PLL angle is constant, the angle turns at 60 Hz. -/
theorem C116_stays_three_constant_Vdc (p : Par) (o : Op) (i : Inp) (x : ℕ → ℝ) (hr : residual3 false o x = 0) (hf : Fits p o i (iaOf x) (ibOf false x) (icOf false x)) (hv : i.va.im = 0) (hT : 0 < i.Tactual)
    (hm : ‖maOf x‖ < p.m_limit) (hl : ‖iaOf x‖ < p.iref_limit) (T : ℝ)
    (Z : ℝ → ThreePhaseConstantVdc.V → ℝ) (hZ : ∀ t ∈ Icc 0 T, Solves (fun t y => ThreePhaseConstantVdc.rhs (envC3 p { i with t := t, w := 2 * Real.pi * 60 } y)) Z t) (h0 : Z 0 = initC3 false x (iaOf x)) :
    ∀ t ∈ Icc 0 T, (∀ r, r ≠ .wte → Z t r = Z 0 r) ∧ Z t .wte = 2 * Real.pi + 2 * Real.pi * 60 * t := by
  obtain ⟨hs0, hs⟩ := C88_rotating_three_constant_Vdc p o i x hr hf hv
  have key := C113_unique_three_constant_vdc p (steadyInp i) (fun _ => true) T (steadyInp_bounded i hT T) (fun t => at_c3 (2 * Real.pi + 2 * Real.pi * 60 * t) (initC3 false x (iaOf x))) Z (fun t _ => hs t) hZ _
    (etaOf_pos hm hl one_pos) (fun t _ => margin_three_constant_Vdc p o i x hr hf t) (h0.trans hs0.symm)
  intro t ht
  rw [key t ht, h0]
  refine ⟨fun r hrw => ?_, rfl⟩
  cases r <;> first | rfl | exact absurd rfl hrw

/-- C116 for `ThreePhaseConstantVdc`: a start near the computed steady state stays near it, the deviation growing at most exponentially. -/
theorem C116_near_three_constant_Vdc (p : Par) (o : Op) (i : Inp) (x : ℕ → ℝ) (hr : residual3 false o x = 0) (hf : Fits p o i (iaOf x) (ibOf false x) (icOf false x)) (hv : i.va.im = 0) (hT : 0 < i.Tactual)
    (hm : ‖maOf x‖ < p.m_limit) (hl : ‖iaOf x‖ < p.iref_limit) (T : ℝ) :
    ∃ ρ > 0, ∃ L, ∀ Z : ℝ → ThreePhaseConstantVdc.V → ℝ, (∀ t ∈ Icc 0 T, Solves (fun t y => ThreePhaseConstantVdc.rhs (envC3 p { i with t := t, w := 2 * Real.pi * 60 } y)) Z t) →
      ‖Z 0 - initC3 false x (iaOf x)‖ < ρ → ∀ t ∈ Icc 0 T, ∀ r, r ≠ .wte → |Z t r - (initC3 false x (iaOf x)) r| ≤ ‖Z 0 - initC3 false x (iaOf x)‖ * Real.exp (L * t) := by
  obtain ⟨hs0, hs⟩ := C88_rotating_three_constant_Vdc p o i x hr hf hv
  obtain ⟨ρ, hρ, L, h⟩ := C113_depends_three_constant_vdc p (steadyInp i) (fun _ => true) T (steadyInp_bounded i hT T) (fun t => at_c3 (2 * Real.pi + 2 * Real.pi * 60 * t) (initC3 false x (iaOf x))) (fun t _ => hs t) _
    (etaOf_pos hm hl one_pos) (fun t _ => margin_three_constant_Vdc p o i x hr hf t)
  rw [hs0] at h
  refine ⟨ρ, hρ, L, fun Z hZ hd t ht r hrw => ?_⟩
  refine le_trans ?_ (h Z hZ hd t ht)
  refine le_trans (le_of_eq ?_) (norm_le_pi_norm (Z t - at_c3 (2 * Real.pi + 2 * Real.pi * 60 * t) (initC3 false x (iaOf x))) r)
  rw [Real.norm_eq_abs, Pi.sub_apply]
  cases r <;> first | rfl | exact absurd rfl hrw

/-- The hypotheses are met: a genuine operating point (non-zero PV power) of the example inverter, with limits leaving room, for one and for three phases. -/
theorem C116_example :
    (∃ (p : Par) (x : ℕ → ℝ), residual1 exOp x = 0 ∧ Fits p exOp exInp (iaOf x) 0 0 ∧ exInp.va.im = 0 ∧ 0 < exInp.Tactual ∧ 0 < exOp.Vdc ∧ ‖maOf x‖ < p.m_limit ∧
      ‖iaOf x‖ < p.iref_limit) ∧
    (∃ (p : Par) (x : ℕ → ℝ), residual3 false exOp3 x = 0 ∧ Fits p exOp3 exInp (iaOf x) (ibOf false x) (icOf false x) ∧ exInp.va.im = 0 ∧ 0 < exInp.Tactual ∧ 0 < exOp3.Vdc ∧
      ‖maOf x‖ < p.m_limit ∧ ‖iaOf x‖ < p.iref_limit ∧ iaOf x ≠ 0) := by
  constructor
  · obtain ⟨x, hr, hf, hv, -⟩ := exists_op
    refine ⟨{ exPar60 with m_limit := ‖maOf x‖ + 1, iref_limit := ‖iaOf x‖ + 1 }, x, hr, ⟨hf.L, hf.wb, hf.Z, hf.V, hf.V0, hf.Q, hf.P, hf.va, hf.vb, hf.vc⟩, hv, ?_, ?_, ?_, ?_⟩
    · norm_num [exInp]
    · norm_num [exOp]
    · show ‖maOf x‖ < ‖maOf x‖ + 1; linarith
    · show ‖iaOf x‖ < ‖iaOf x‖ + 1; linarith
  · obtain ⟨x, hr, hf, hv, -, hi⟩ := exists_op3
    refine ⟨{ exPar60 with m_limit := ‖maOf x‖ + 1, iref_limit := ‖iaOf x‖ + 1 }, x, hr, ⟨hf.L, hf.wb, hf.Z, hf.V, hf.V0, hf.Q, hf.P, hf.va, hf.vb, hf.vc⟩, hv, ?_, ?_, ?_, ?_, hi⟩
    · norm_num [exInp]
    · norm_num [exOp3, exOp]
    · show ‖maOf x‖ < ‖maOf x‖ + 1; linarith
    · show ‖iaOf x‖ < ‖iaOf x‖ + 1; linarith

end SS
end Ode
end PvDer
