import Verif.Props.StaysBalanced

/-!
# C88, C110: the computed steady state of the three-phase classes is a rotating solution, and it is balanced
-/

namespace PvDer
namespace Ode
namespace SS
open Complex Phasor

/-- PLL input of the symmetric rotating set seen from the rotating angle. -/
theorem pll3_rotating (v : ℂ) (hv : v.im = 0) (t : ℝ) :
    (pll3 v (Phasor.ub v) (Phasor.uc v) (2 * Real.pi * 60) t (2 * Real.pi + 2 * Real.pi * 60 * t)).1 = 0 := by
  rw [C53_pll_three_phase, C53_pll_input]
  have : 2 * Real.pi * 60 * t + arg v - (2 * Real.pi + 2 * Real.pi * 60 * t) = arg v - 2 * Real.pi := by ring
  rw [this, Real.sin_sub_two_pi, Complex.norm_mul_sin_arg, hv]

/-- The initial state with another angle. -/
noncomputable def at_three (θ : ℝ) (y : ThreePhase.V → ℝ) : ThreePhase.V → ℝ
  | .wte => θ
  | r => y r

/-- C88 for `ThreePhase`: from a zero residual on a stiff symmetric grid with angle zero, the state computed by the initialisation, its angle turning at 60 Hz, solves the model for
all time: nothing else moves. -/
theorem C88_rotating_three (p : Par) (o : Op) (i : Inp) (x : ℕ → ℝ) (hr : residual3 false o x = 0) (hf : Fits p o i (iaOf x) (ibOf false x) (icOf false x))
    (hv : i.va.im = 0) :
    let inp : ℝ → Inp := fun t => { i with t := t, w := 2 * Real.pi * 60 }
    let Y : ℝ → ThreePhase.V → ℝ := fun t => at_three (2 * Real.pi + 2 * Real.pi * 60 * t) (initT false o x (iaOf x))
    Y 0 = initT false o x (iaOf x) ∧ ∀ t, Solves (fun t y => ThreePhase.rhs (envT p (inp t) y)) Y t := by
  intro inp Y
  have hbal := C88_balanced_option_needs_balanced_grid o x hr
  refine ⟨?_, fun t => ?_⟩
  · funext r; cases r <;> first | rfl | (show 2 * Real.pi + 2 * Real.pi * 60 * 0 = 2 * Real.pi; ring)
  · have hpll : (pll3 (inp t).va (inp t).vb (inp t).vc (inp t).w (inp t).t (2 * Real.pi + 2 * Real.pi * 60 * t)).1 = 0 := by
      have hb : i.vb = Phasor.ub i.va := by rw [hf.vb, hbal.1, ← hf.va]
      have hc : i.vc = Phasor.uc i.va := by rw [hf.vc, hbal.2, ← hf.va]
      show (pll3 i.va i.vb i.vc (2 * Real.pi * 60) t _).1 = 0
      rw [hb, hc]; exact pll3_rotating _ hv t
    have hf' : Fits p o (inp t) (iaOf x) (ibOf false x) (icOf false x) := ⟨hf.L, hf.wb, hf.Z, hf.V, hf.V0, hf.Q, hf.P, hf.va, hf.vb, hf.vc⟩
    obtain ⟨g1, g2, g3, g4, g5, g6⟩ := env3_rest p o (inp t) _ _ _ _ _ _ (2 * Real.pi + 2 * Real.pi * 60 * t) (urms (o.va (iaOf x)) (o.vb (ibOf false x)) (o.vc (icOf false x)))
      (residual3_zero false o x hr) hf' hpll rfl rfl
    have h1 := rest_three g1 g2 g3 g4 g5 (by show urms (o.va (iaOf x)) (o.vb (ibOf false x)) (o.vc (icOf false x)) = urms i.va i.vb i.vc; rw [hf.va, hf.vb, hf.vc])
    intro r
    by_cases hw : r = .wte
    · subst hw
      have : ThreePhase.rhs (envT p (inp t) (Y t)) .wte = 2 * Real.pi * 60 := g6
      show HasDerivAt (fun s => 2 * Real.pi + 2 * Real.pi * 60 * s) (ThreePhase.rhs (envT p (inp t) (Y t)) .wte) t
      rw [this]
      have := ((hasDerivAt_id t).const_mul (2 * Real.pi * 60)).const_add (2 * Real.pi)
      simpa using this
    · have e : ThreePhase.rhs (envT p (inp t) (Y t)) r = 0 := h1 r hw
      show HasDerivAt (fun s => Y s r) (ThreePhase.rhs (envT p (inp t) (Y t)) r) t
      rw [e]
      have hc : (fun s => Y s r) = fun _ => initT false o x (iaOf x) r := by
        funext s; cases r <;> first | rfl | exact absurd rfl hw
      rw [hc]
      exact hasDerivAt_const _ _

/-- The initial state with another angle. -/
noncomputable def at_no_filter (θ : ℝ) (y : ThreePhaseNoVrmsFilter.V → ℝ) : ThreePhaseNoVrmsFilter.V → ℝ
  | .wte => θ
  | r => y r

/-- C88 for `ThreePhaseNoVrmsFilter`: from a zero residual on a stiff symmetric grid with angle zero, the state computed by the initialisation, its angle turning at 60 Hz, solves the model for
all time: nothing else moves. -/
theorem C88_rotating_no_filter (p : Par) (o : Op) (i : Inp) (x : ℕ → ℝ) (hr : residual3 false o x = 0) (hf : Fits p o i (iaOf x) (ibOf false x) (icOf false x))
    (hv : i.va.im = 0) :
    let inp : ℝ → Inp := fun t => { i with t := t, w := 2 * Real.pi * 60 }
    let Y : ℝ → ThreePhaseNoVrmsFilter.V → ℝ := fun t => at_no_filter (2 * Real.pi + 2 * Real.pi * 60 * t) (initN false o x (iaOf x))
    Y 0 = initN false o x (iaOf x) ∧ ∀ t, Solves (fun t y => ThreePhaseNoVrmsFilter.rhs (envN p (inp t) y)) Y t := by
  intro inp Y
  have hbal := C88_balanced_option_needs_balanced_grid o x hr
  refine ⟨?_, fun t => ?_⟩
  · funext r; cases r <;> first | rfl | (show 2 * Real.pi + 2 * Real.pi * 60 * 0 = 2 * Real.pi; ring)
  · have hpll : (pll3 (inp t).va (inp t).vb (inp t).vc (inp t).w (inp t).t (2 * Real.pi + 2 * Real.pi * 60 * t)).1 = 0 := by
      have hb : i.vb = Phasor.ub i.va := by rw [hf.vb, hbal.1, ← hf.va]
      have hc : i.vc = Phasor.uc i.va := by rw [hf.vc, hbal.2, ← hf.va]
      show (pll3 i.va i.vb i.vc (2 * Real.pi * 60) t _).1 = 0
      rw [hb, hc]; exact pll3_rotating _ hv t
    have hf' : Fits p o (inp t) (iaOf x) (ibOf false x) (icOf false x) := ⟨hf.L, hf.wb, hf.Z, hf.V, hf.V0, hf.Q, hf.P, hf.va, hf.vb, hf.vc⟩
    obtain ⟨g1, g2, g3, g4, g5, g6⟩ := env3_rest p o (inp t) _ _ _ _ _ _ (2 * Real.pi + 2 * Real.pi * 60 * t) (0)
      (residual3_zero false o x hr) hf' hpll rfl rfl
    have h1 := rest_noFilter g1 g2 g3 g4 g5
    intro r
    by_cases hw : r = .wte
    · subst hw
      have : ThreePhaseNoVrmsFilter.rhs (envN p (inp t) (Y t)) .wte = 2 * Real.pi * 60 := g6
      show HasDerivAt (fun s => 2 * Real.pi + 2 * Real.pi * 60 * s) (ThreePhaseNoVrmsFilter.rhs (envN p (inp t) (Y t)) .wte) t
      rw [this]
      have := ((hasDerivAt_id t).const_mul (2 * Real.pi * 60)).const_add (2 * Real.pi)
      simpa using this
    · have e : ThreePhaseNoVrmsFilter.rhs (envN p (inp t) (Y t)) r = 0 := h1 r hw
      show HasDerivAt (fun s => Y s r) (ThreePhaseNoVrmsFilter.rhs (envN p (inp t) (Y t)) r) t
      rw [e]
      have hc : (fun s => Y s r) = fun _ => initN false o x (iaOf x) r := by
        funext s; cases r <;> first | rfl | exact absurd rfl hw
      rw [hc]
      exact hasDerivAt_const _ _

/-- The initial state with another angle. -/
noncomputable def at_numba (θ : ℝ) (y : ThreePhaseNumba.V → ℝ) : ThreePhaseNumba.V → ℝ
  | .wte => θ
  | r => y r

/-- C88 for `ThreePhaseNumba`: from a zero residual on a stiff symmetric grid with angle zero, the state computed by the initialisation, its angle turning at 60 Hz, solves the model for
all time: nothing else moves. -/
theorem C88_rotating_numba (p : Par) (o : Op) (i : Inp) (x : ℕ → ℝ) (hr : residual3 false o x = 0) (hf : Fits p o i (iaOf x) (ibOf false x) (icOf false x))
    (hv : i.va.im = 0) :
    let inp : ℝ → Inp := fun t => { i with t := t, w := 2 * Real.pi * 60 }
    let Y : ℝ → ThreePhaseNumba.V → ℝ := fun t => at_numba (2 * Real.pi + 2 * Real.pi * 60 * t) (initNumba false o x (iaOf x))
    Y 0 = initNumba false o x (iaOf x) ∧ ∀ t, Solves (fun t y => ThreePhaseNumba.rhs (envNumba p (inp t) y)) Y t := by
  intro inp Y
  have hbal := C88_balanced_option_needs_balanced_grid o x hr
  refine ⟨?_, fun t => ?_⟩
  · funext r; cases r <;> first | rfl | (show 2 * Real.pi + 2 * Real.pi * 60 * 0 = 2 * Real.pi; ring)
  · have hpll : (pll3 (inp t).va (inp t).vb (inp t).vc (inp t).w (inp t).t (2 * Real.pi + 2 * Real.pi * 60 * t)).1 = 0 := by
      have hb : i.vb = Phasor.ub i.va := by rw [hf.vb, hbal.1, ← hf.va]
      have hc : i.vc = Phasor.uc i.va := by rw [hf.vc, hbal.2, ← hf.va]
      show (pll3 i.va i.vb i.vc (2 * Real.pi * 60) t _).1 = 0
      rw [hb, hc]; exact pll3_rotating _ hv t
    have hf' : Fits p o (inp t) (iaOf x) (ibOf false x) (icOf false x) := ⟨hf.L, hf.wb, hf.Z, hf.V, hf.V0, hf.Q, hf.P, hf.va, hf.vb, hf.vc⟩
    obtain ⟨g1, g2, g3, g4, g5, g6⟩ := env3_rest p o (inp t) _ _ _ _ _ _ (2 * Real.pi + 2 * Real.pi * 60 * t) (0)
      (residual3_zero false o x hr) hf' hpll rfl rfl
    have h1 := rest_numba g1 g2 g3 g4 g5
    intro r
    by_cases hw : r = .wte
    · subst hw
      have : ThreePhaseNumba.rhs (envNumba p (inp t) (Y t)) .wte = 2 * Real.pi * 60 := g6
      show HasDerivAt (fun s => 2 * Real.pi + 2 * Real.pi * 60 * s) (ThreePhaseNumba.rhs (envNumba p (inp t) (Y t)) .wte) t
      rw [this]
      have := ((hasDerivAt_id t).const_mul (2 * Real.pi * 60)).const_add (2 * Real.pi)
      simpa using this
    · have e : ThreePhaseNumba.rhs (envNumba p (inp t) (Y t)) r = 0 := h1 r hw
      show HasDerivAt (fun s => Y s r) (ThreePhaseNumba.rhs (envNumba p (inp t) (Y t)) r) t
      rw [e]
      have hc : (fun s => Y s r) = fun _ => initNumba false o x (iaOf x) r := by
        funext s; cases r <;> first | rfl | exact absurd rfl hw
      rw [hc]
      exact hasDerivAt_const _ _

/-- The three-phase example: the 50 kVA instance on a stiff symmetric grid. -/
noncomputable def exOp3 : Op := { exOp with va := fun _ => exInp.va }

theorem exists_op3 : ∃ x, residual3 false exOp3 x = 0 ∧ Fits exPar60 exOp3 exInp (iaOf x) (ibOf false x) (icOf false x) ∧ exInp.va.im = 0 ∧ maOf x ≠ 0 ∧ iaOf x ≠ 0 := by
  have hP : 0 < exOp3.Ppv := by
    show 0 < PV.ppv PV.exMod 100 (29815/100) (min exPar60.Vdcmpp_max (11/10 * exPar60.Vdcbase))
    rw [show min exPar60.Vdcmpp_max (11/10 * exPar60.Vdcbase) = 11/10 * 500 from by norm_num [exPar60, exPar]]
    have h := exMod_pv
    unfold PV.ppv
    norm_num [PV.exMod] at h ⊢
    exact h
  obtain ⟨x, hx⟩ := C88_operating_point_exists_three exOp3 (1/2) (1/100) (1/10) (by norm_num) (by norm_num) (by norm_num [exOp3, exOp]) (by intro i; simp [exOp3, exInp])
    (by intro i; simp [exOp3, exOp, exInp]) (by intro i; simp [exOp3, exOp, exInp]) rfl hP (by
    have : exOp3.Q_ref = 0 := rfl
    rw [this]; norm_num; linarith)
  have hS := (residual3_zero false exOp3 x hx).1
  have hi : iaOf x ≠ 0 := by
    intro h0
    have e1 : ibOf false x = 0 := by show Phasor.ub (iaOf x) = 0; rw [h0]; simp [Phasor.ub]
    have e2 : icOf false x = 0 := by show Phasor.uc (iaOf x) = 0; rw [h0]; simp [Phasor.uc]
    rw [h0, e1, e2] at hS
    simp [sCalc] at hS
    linarith
  have hm : maOf x ≠ 0 := by
    intro h0
    have e1 : mbOf false x = 0 := by show Phasor.ub (maOf x) = 0; rw [h0]; simp [Phasor.ub]
    have e2 : mcOf false x = 0 := by show Phasor.uc (maOf x) = 0; rw [h0]; simp [Phasor.uc]
    rw [h0, e1, e2] at hS
    simp [sCalc] at hS
    linarith
  refine ⟨x, hx, ⟨by norm_num [exPar60, exPar], rfl, ?_, rfl, rfl, rfl, rfl, rfl, rfl, rfl⟩, ?_, hm, hi⟩
  · show ((1/100 : ℝ) : ℂ) + I * ((1/10 : ℝ) : ℂ) = _
    rfl
  · show ((1/2 : ℂ)).im = 0
    norm_num

/-- C110 is not vacuous: a solution of the three-phase model for all time with positive current, balanced at the start, below the modulation limit, in a balanced grid. -/
theorem C110_example : ∃ (p : Par) (inp : ℝ → Inp) (Y : ℝ → ThreePhaseNoVrmsFilter.V → ℝ),
    (∀ t, BalancedInp (inp t)) ∧ (∀ t, Solves (fun t y => ThreePhaseNoVrmsFilter.rhs (connIf true (envN p (inp t) y))) Y t) ∧
    (∀ t, ‖duty p ⟨Y t .uaR, Y t .uaI⟩ ⟨Y t .xaR, Y t .xaI⟩‖ < p.m_limit) ∧ BalN (Y 0) ∧ (⟨Y 0 .iaR, Y 0 .iaI⟩ : ℂ) ≠ 0 := by
  obtain ⟨x, hr, hf, hv, hm, hi⟩ := exists_op3
  set p : Par := { exPar60 with m_limit := ‖maOf x‖ + 1 } with hp
  have hf' : Fits p exOp3 exInp (iaOf x) (ibOf false x) (icOf false x) := ⟨hf.L, hf.wb, hf.Z, hf.V, hf.V0, hf.Q, hf.P, hf.va, hf.vb, hf.vc⟩
  obtain ⟨h0, hs⟩ := C88_rotating_no_filter p exOp3 exInp x hr hf' hv
  refine ⟨p, _, _, fun t => ⟨rfl, rfl⟩, hs, fun t => ?_, ?_, hi⟩
  · show ‖duty p ⟨0, 0⟩ (maOf x)‖ < ‖maOf x‖ + 1
    have h0 : (⟨0, 0⟩ : ℂ) = 0 := rfl
    unfold duty; rw [h0]; simp
  · beta_reduce at h0
    rw [h0]
    refine ⟨⟨rfl, rfl⟩, ⟨rfl, rfl⟩, ⟨?_, ?_⟩⟩
    · show (⟨0, 0⟩ : ℂ) = Phasor.ub ⟨0, 0⟩
      have h0 : (⟨0, 0⟩ : ℂ) = 0 := rfl
      rw [h0]; simp [Phasor.ub]
    · show (⟨0, 0⟩ : ℂ) = Phasor.uc ⟨0, 0⟩
      have h0 : (⟨0, 0⟩ : ℂ) = 0 := rfl
      rw [h0]; simp [Phasor.uc]

end SS
end Ode
end PvDer
