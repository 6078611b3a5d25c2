import Verif.Props.SteadyState
import Mathlib.Tactic.Positivity
import Mathlib.Analysis.SpecialFunctions.Complex.Arg

/-!
# Property C88, continued: exactly when the initial state is stationary, the resulting trajectory, existence of the operating point
-/

namespace PvDer
namespace Ode
namespace SS
open Complex Phasor

/-- At time zero and initial angle the PLL input is the imaginary part of the PCC voltage. -/
theorem pll1_zero (va : ℂ) (w : ℝ) : (pll1 va w 0 (2 * Real.pi)).1 = va.im := by
  rw [C53_pll_input]
  simp only [mul_zero, zero_add, Real.sin_sub_two_pi]
  exact Complex.norm_mul_sin_arg va

/-- C88: given a zero residual and a duty cycle within its limit, the initial state of the single-phase class is stationary (the angle apart) exactly when the last point the optimiser
evaluated has the returned current and the PCC voltage has angle 0 or 180 degrees. -/
theorem C88_single_exact (p : Par) (o : Op) (i : Inp) (x : ℕ → ℝ) (last : ℂ) (hr : residual1 o x = 0) (hf : Fits p o i (iaOf x) 0 0) (ht : i.t = 0)
    (hm : ‖maOf x‖ ≤ p.m_limit) (hw : p.wp ≠ 0) (hK : p.Ki_PLL ≠ 0) :
    (∀ r, r ≠ .wte → SinglePhase.rhs (env1 p i (init1 o x last)) r = 0) ↔ last = iaOf x ∧ i.va.im = 0 := by
  constructor
  · intro h
    have hpll := h .xPLL (by decide)
    have h1 := h .uaR (by decide)
    have h2 := h .uaI (by decide)
    have hms : ¬ mSat (env1 p i (init1 o x last)) (env1 p i (init1 o x last)).ua (env1 p i (init1 o x last)).xa := by
      apply not_lt.2
      show ‖(p.Kp_GCC : ℂ) * (0 : ℂ) + maOf x‖ ≤ p.m_limit
      simpa using hm
    obtain ⟨_, _, hu1, hu2, _, _⟩ := C57_antiwindup_single_phase (env1 p i (init1 o x last))
    rw [hu1.plain hms] at h1
    rw [hu2.plain hms] at h2
    obtain ⟨_, hQ, _⟩ := (residual1_zero o x).1 hr
    have e1 : (env1 p i (init1 o x last)).ia_ref = irefOf p i o.Vdc last.re last.im (sPh i.va (iaOf x)) := rfl
    have hQ' : (sPh i.va (iaOf x)).im = i.Q_ref := by rw [hf.va, hQ, hf.Q]
    rw [e1, iref_re, hf.V] at h1
    rw [e1, iref_im, hQ'] at h2
    have z1 : p.wp * (-(0 : ℝ) + (last.re + p.Kp_DC * (o.Vdc - o.Vdc)) - (iaOf x).re) = 0 := h1
    have z2 : p.wp * (-(0 : ℝ) + (last.im - p.Kp_Q * (i.Q_ref - i.Q_ref)) - (iaOf x).im) = 0 := h2
    have y1 := (mul_eq_zero.1 z1).resolve_left hw
    have y2 := (mul_eq_zero.1 z2).resolve_left hw
    refine ⟨Complex.ext (by linarith) (by linarith), ?_⟩
    have y3 : p.Ki_PLL * (pll1 i.va i.w i.t (2 * Real.pi)).1 = 0 := hpll
    rw [ht, pll1_zero] at y3
    exact (mul_eq_zero.1 y3).resolve_left hK
  · rintro ⟨hl, hv⟩
    exact (C88_steady_single p o i x last hr hl hf (by rw [ht, pll1_zero]; exact hv)).1

/-- C88: with `allow_unbalanced_m` the initial state of a three-phase class is stationary exactly when the currents the optimiser found form a symmetric set: the references of phases b
and c are always rotations of phase a.  (Duty cycles within the limit, PLL input zero, last point returned.) -/
theorem C88_unbalanced_exact (p : Par) (o : Op) (i : Inp) (x : ℕ → ℝ) (hr : residual3 true o x = 0)
    (hf : Fits p o i (iaOf x) (ibOf true x) (icOf true x)) (hv : (pll3 i.va i.vb i.vc i.w i.t (2 * Real.pi)).1 = 0)
    (hmb : ‖mbOf true x‖ ≤ p.m_limit) (hmc : ‖mcOf true x‖ ≤ p.m_limit) (hw : p.wp ≠ 0) :
    (∀ r, r ≠ .wte → ThreePhase.rhs (envT p i (initT true o x (iaOf x))) r = 0) ↔ ibOf true x = Phasor.ub (iaOf x) ∧ icOf true x = Phasor.uc (iaOf x) := by
  constructor
  · intro h
    generalize he : envT p i (initT true o x (iaOf x)) = e at *
    have u1 := h .ubR (by decide)
    have u2 := h .ubI (by decide)
    have u3 := h .ucR (by decide)
    have u4 := h .ucI (by decide)
    obtain ⟨_, hQ, _, _, _, _⟩ := residual3_zero true o x hr
    have hms : ¬ mSat e e.ub e.xb := by
      rw [← he]; apply not_lt.2
      show ‖(p.Kp_GCC : ℂ) * (0 : ℂ) + mbOf true x‖ ≤ p.m_limit
      simpa using hmb
    have hmt : ¬ mSat e e.uc e.xc := by
      rw [← he]; apply not_lt.2
      show ‖(p.Kp_GCC : ℂ) * (0 : ℂ) + mcOf true x‖ ≤ p.m_limit
      simpa using hmc
    obtain ⟨_, _, _, _, _, _, b1, b2, _, _, c1, c2, _⟩ := C57_antiwindup_three_phase e
    rw [b1.plain hms] at u1
    rw [b2.plain hms] at u2
    rw [c1.plain hmt] at u3
    rw [c2.plain hmt] at u4
    have e1 : e.ia_ref = irefOf p i o.Vdc (iaOf x).re (iaOf x).im (sCalc i.va i.vb i.vc (iaOf x) (ibOf true x) (icOf true x)) := by rw [← he]; rfl
    have hQ' : (sCalc i.va i.vb i.vc (iaOf x) (ibOf true x) (icOf true x)).im = i.Q_ref := by rw [hf.va, hf.vb, hf.vc, hQ, hf.Q]
    have e2 : e.ia_ref = iaOf x := by
      rw [e1]
      apply Complex.ext
      · rw [iref_re, hf.V]; ring
      · rw [iref_im, hQ']; ring
    have e3 : e.ib_ref = Phasor.ub (iaOf x) := by rw [← e2, ← he]; rfl
    have e4 : e.ic_ref = Phasor.uc (iaOf x) := by rw [← e2, ← he]; rfl
    have e5 : e.ub = 0 := by rw [← he]; rfl
    have e6 : e.uc = 0 := by rw [← he]; rfl
    have e7 : e.ib = ibOf true x := by rw [← he]; rfl
    have e8 : e.ic = icOf true x := by rw [← he]; rfl
    have e9 : e.wp = p.wp := by rw [← he]; rfl
    rw [e3, e5, e7, e9] at u1 u2
    rw [e4, e6, e8, e9] at u3 u4
    have y1 := (mul_eq_zero.1 u1).resolve_left hw
    have y2 := (mul_eq_zero.1 u2).resolve_left hw
    have y3 := (mul_eq_zero.1 u3).resolve_left hw
    have y4 := (mul_eq_zero.1 u4).resolve_left hw
    simp only [zero_re, zero_im, neg_zero, zero_add] at y1 y2 y3 y4
    exact ⟨Complex.ext (by linarith) (by linarith), Complex.ext (by linarith) (by linarith)⟩
  · rintro ⟨hb, hc⟩
    exact (C88_steady_three p o i true x _ hr rfl hf hv hb hc).1.1

theorem relPhase_of {u v : ℂ} {θ : ℝ} (h0 : 0 ≤ θ) (h1 : θ < 2 * Real.pi) (k : ℤ) (h : arg u - arg v = θ + 2 * Real.pi * k) : relPhase u v = θ := by
  unfold relPhase
  have hp := Real.pi_pos
  rw [h]
  have e : (θ + 2 * Real.pi * k) * (180 / Real.pi) / 360 = θ / (2 * Real.pi) + k := by field_simp; ring
  have hfl : ⌊(θ + 2 * Real.pi * k) * (180 / Real.pi) / 360⌋ = k := by
    rw [e, Int.floor_add_intCast]
    have : ⌊θ / (2 * Real.pi)⌋ = 0 := by
      rw [Int.floor_eq_zero_iff]
      exact ⟨by positivity, by rw [div_lt_one (by positivity)]; exact h1⟩
    rw [this]; simp
  simp only [hfl]
  field_simp
  ring

theorem arg_rot (m : ℂ) (hm : m ≠ 0) (φ : ℝ) (h1 : -Real.pi < φ) (h2 : φ ≤ Real.pi) : ∃ k : ℤ, arg (m * ej φ) - (arg m + φ) = 2 * Real.pi * k := by
  have hne : ej φ ≠ 0 := by unfold ej; exact exp_ne_zero _
  have ha : arg (ej φ) = φ := by
    unfold ej; rw [mul_comm, Complex.arg_exp_mul_I]
    exact (toIocMod_eq_self _).2 ⟨h1, by linarith⟩
  have h := Complex.arg_mul_coe_angle hm hne
  rw [ha, ← Real.Angle.coe_add] at h
  exact Real.Angle.angle_eq_iff_two_pi_dvd_sub.1 h

/-- With `allow_unbalanced_m` every operating point of the circuit, balanced or not, is a zero of the residual that the solver minimises, and the initial state built from it has those currents and duty cycles. -/
theorem C88_unbalanced_points (o : Op) (ma mb mc ia ib ic : ℂ)
    (h : Point3 o (ma * ((o.Vdc / 2 : ℝ) : ℂ)) (mb * ((o.Vdc / 2 : ℝ) : ℂ)) (mc * ((o.Vdc / 2 : ℝ) : ℂ)) (o.va ia) (o.vb ib) (o.vc ic) ia ib ic) :
    ∃ x, residual3 true o x = 0 ∧ ∀ last : ℂ,
      (⟨initT true o x last .iaR, initT true o x last .iaI⟩ : ℂ) = ia ∧ (⟨initT true o x last .ibR, initT true o x last .ibI⟩ : ℂ) = ib ∧ (⟨initT true o x last .icR, initT true o x last .icI⟩ : ℂ) = ic ∧
      (⟨initT true o x last .xaR, initT true o x last .xaI⟩ : ℂ) = ma ∧ (⟨initT true o x last .xbR, initT true o x last .xbI⟩ : ℂ) = mb ∧ (⟨initT true o x last .xcR, initT true o x last .xcI⟩ : ℂ) = mc := by
  let x : ℕ → ℝ := fun n => match n with
    | 0 => ma.re | 1 => ma.im | 2 => ia.re | 3 => ia.im | 4 => mb.re | 5 => mb.im | 6 => ib.re | 7 => ib.im | 8 => mc.re | 9 => mc.im | 10 => ic.re | _ => ic.im
  have e1 : maOf x = ma := rfl
  have e2 : iaOf x = ia := rfl
  have e3 : mbOf true x = mb := rfl
  have e4 : ibOf true x = ib := rfl
  have e5 : mcOf true x = mc := rfl
  have e6 : icOf true x = ic := rfl
  refine ⟨x, ?_, fun last => ⟨rfl, rfl, rfl, rfl, rfl, rfl⟩⟩
  obtain ⟨hP, hQ, ha, hb, hc, hk⟩ := h
  unfold residual3
  simp only [e1, e2, e3, e4, e5, e6, sCalc_div, hP, hQ, mError, if_true]
  have d : o.va ia + o.vb ib + o.vc ic - (ma * ((o.Vdc / 2 : ℝ) : ℂ) + mb * ((o.Vdc / 2 : ℝ) : ℂ) + mc * ((o.Vdc / 2 : ℝ) : ℂ)) = 0 := by
    rw [ha, hb, hc]; linear_combination (-o.Zf) * hk
  have da : ma * ((o.Vdc / 2 : ℝ) : ℂ) - o.va ia - ia * o.Zf = 0 := by rw [ha]; ring
  have db : mb * ((o.Vdc / 2 : ℝ) : ℂ) - o.vb ib - ib * o.Zf = 0 := by rw [hb]; ring
  have dc : mc * ((o.Vdc / 2 : ℝ) : ℂ) - o.vc ic - ic * o.Zf = 0 := by rw [hc]; ring
  rw [d, da, db, dc, hk]
  simp

/-- The other three-phase classes build the same currents and duty cycles. -/
theorem C88_unbalanced_points_other (unb : Bool) (o : Op) (x : ℕ → ℝ) (last : ℂ) :
    [initN unb o x last .iaR, initN unb o x last .iaI, initN unb o x last .ibR, initN unb o x last .ibI, initN unb o x last .icR, initN unb o x last .icI,
      initN unb o x last .xaR, initN unb o x last .xaI, initN unb o x last .xbR, initN unb o x last .xbI, initN unb o x last .xcR, initN unb o x last .xcI] =
    [initT unb o x last .iaR, initT unb o x last .iaI, initT unb o x last .ibR, initT unb o x last .ibI, initT unb o x last .icR, initT unb o x last .icI,
      initT unb o x last .xaR, initT unb o x last .xaI, initT unb o x last .xbR, initT unb o x last .xbI, initT unb o x last .xcR, initT unb o x last .xcI] ∧
    [initNumba unb o x last .iaR, initNumba unb o x last .iaI, initNumba unb o x last .ibR, initNumba unb o x last .ibI, initNumba unb o x last .icR, initNumba unb o x last .icI,
      initNumba unb o x last .xaR, initNumba unb o x last .xaI, initNumba unb o x last .xbR, initNumba unb o x last .xbI, initNumba unb o x last .xcR, initNumba unb o x last .xcI] =
    [initT unb o x last .iaR, initT unb o x last .iaI, initT unb o x last .ibR, initT unb o x last .ibI, initT unb o x last .icR, initT unb o x last .icI,
      initT unb o x last .xaR, initT unb o x last .xaI, initT unb o x last .xbR, initT unb o x last .xbI, initT unb o x last .xcR, initT unb o x last .xcI] ∧
    [initC3 unb x last .iaR, initC3 unb x last .iaI, initC3 unb x last .ibR, initC3 unb x last .ibI, initC3 unb x last .icR, initC3 unb x last .icI,
      initC3 unb x last .xaR, initC3 unb x last .xaI, initC3 unb x last .xbR, initC3 unb x last .xbI, initC3 unb x last .xcR, initC3 unb x last .xcI] =
    [initT unb o x last .iaR, initT unb o x last .iaI, initT unb o x last .ibR, initT unb o x last .ibI, initT unb o x last .icR, initT unb o x last .icI,
      initT unb o x last .xaR, initT unb o x last .xaI, initT unb o x last .xbR, initT unb o x last .xbI, initT unb o x last .xcR, initT unb o x last .xcI] := ⟨rfl, rfl, rfl⟩

/-- Beside the theorem: an unbalanced operating point, currents 1, -1 and 0. -/
example : ∃ o : Op, Point3 o (3 * ((o.Vdc / 2 : ℝ) : ℂ)) (-3 * ((o.Vdc / 2 : ℝ) : ℂ)) (2 * ((o.Vdc / 2 : ℝ) : ℂ)) (o.va 1) (o.vb (-1)) (o.vc 0) 1 (-1) 0 := by
  refine ⟨{ Vdc := 2, Ppv := 3, Q_ref := 0, Zf := 1, va := fun _ => 2, vb := fun _ => -2, vc := fun _ => 2 }, ?_, ?_, ?_, ?_, ?_, ?_⟩ <;> norm_num [sCalc]

/-- C88: the balance term of the residual adds nothing for duty cycles that are rotations of a non-zero one. -/
theorem C88_balance_term_vanishes (m d : ℂ) (hm : m ≠ 0) : mError false m (Phasor.ub m) (Phasor.uc m) d = 0 := by
  have hp := Real.pi_pos
  obtain ⟨kb, hb⟩ := arg_rot m hm (-(2 / 3) * Real.pi) (by linarith) (by linarith)
  obtain ⟨kc, hc⟩ := arg_rot m hm ((2 / 3) * Real.pi) (by linarith) (by linarith)
  have r1 : relPhase m (Phasor.ub m) = 2 / 3 * Real.pi :=
    relPhase_of (by positivity) (by linarith) (-kb) (by unfold Phasor.ub; push_cast; linarith)
  have r2 : relPhase m (Phasor.uc m) = 4 / 3 * Real.pi :=
    relPhase_of (by positivity) (by linarith) (-kc - 1) (by unfold Phasor.uc; push_cast; linarith)
  have r3 : relPhase (Phasor.ub m) (Phasor.uc m) = 2 / 3 * Real.pi :=
    relPhase_of (by positivity) (by linarith) (kb - kc - 1) (by unfold Phasor.ub Phasor.uc; push_cast; linarith)
  have f1 : fold180 (2 / 3 * Real.pi) = 2 / 3 * Real.pi := if_neg (by linarith)
  have f2 : fold180 (4 / 3 * Real.pi) = 2 / 3 * Real.pi := by
    unfold fold180; rw [if_pos (by linarith), abs_of_neg (by linarith)]; ring
  have hd : d120 = 2 / 3 * Real.pi := by unfold d120; ring
  have nb := (C47_phase_shift m).1
  have nc := (C47_phase_shift m).2.1
  unfold mError
  rw [if_neg (by decide), r1, r2, r3, f1, f2, hd, nb, nc]
  ring

/-- … but the duty cycle zero is penalised although it is trivially balanced: its angle is undefined and taken as 0. -/
theorem C88_balance_term_at_zero (d : ℂ) : mError false 0 (Phasor.ub 0) (Phasor.uc 0) d = 3 * (2 / 3 * Real.pi) ^ 2 := by
  have z1 : Phasor.ub 0 = 0 := by unfold Phasor.ub; simp
  have z2 : Phasor.uc 0 = 0 := by unfold Phasor.uc; simp
  have hp := Real.pi_pos
  have r : relPhase 0 0 = 0 := relPhase_of le_rfl (by linarith) 0 (by simp)
  have f : fold180 0 = 0 := if_neg (by linarith)
  unfold mError
  rw [if_neg (by decide), z1, z2, r, f]
  unfold d120
  simp; ring

/-- C88: the trajectory.  From a zero residual with PCC voltage at angle 0 the single-phase model stays where it was put, rotating at 60 Hz, for all time. -/
theorem C88_rotating_single (p : Par) (o : Op) (i : Inp) (x : ℕ → ℝ) (hr : residual1 o x = 0) (hf : Fits p o i (iaOf x) 0 0) (hv : i.va.im = 0) :
    let inp : ℝ → Inp := fun t => { i with t := t, w := 2 * Real.pi * 60 }
    let Y : ℝ → SinglePhase.V → ℝ := fun t => at1 (2 * Real.pi + 2 * Real.pi * 60 * t) (init1 o x (iaOf x))
    Y 0 = init1 o x (iaOf x) ∧ ∀ t, Solves (fun t y => SinglePhase.rhs (env1 p (inp t) y)) Y t := by
  intro inp Y
  refine ⟨?_, ?_⟩
  · show at1 (2 * Real.pi + 2 * Real.pi * 60 * 0) _ = _
    rw [mul_zero, add_zero, at1_init]
  · intro t
    have hpll : (pll1 (inp t).va (inp t).w (inp t).t (2 * Real.pi + 2 * Real.pi * 60 * t)).1 = 0 := by
      rw [C53_pll_input]
      show ‖i.va‖ * Real.sin (2 * Real.pi * 60 * t + arg i.va - (2 * Real.pi + 2 * Real.pi * 60 * t)) = 0
      have : 2 * Real.pi * 60 * t + arg i.va - (2 * Real.pi + 2 * Real.pi * 60 * t) = arg i.va - 2 * Real.pi := by ring
      rw [this, Real.sin_sub_two_pi, Complex.norm_mul_sin_arg, hv]
    have hf' : Fits p o (inp t) (iaOf x) 0 0 := ⟨hf.L, hf.wb, hf.Z, hf.V, hf.V0, hf.Q, hf.P, hf.va, hf.vb, hf.vc⟩
    obtain ⟨h1, h2⟩ := steady_single_at (2 * Real.pi + 2 * Real.pi * 60 * t) p o (inp t) x (iaOf x) hr rfl hf' hpll
    intro r
    by_cases hw : r = .wte
    · subst hw
      have : SinglePhase.rhs (env1 p (inp t) (Y t)) .wte = 2 * Real.pi * 60 := h2
      show HasDerivAt (fun s => 2 * Real.pi + 2 * Real.pi * 60 * s) (SinglePhase.rhs (env1 p (inp t) (Y t)) .wte) t
      rw [this]
      have := ((hasDerivAt_id t).const_mul (2 * Real.pi * 60)).const_add (2 * Real.pi)
      simpa using this
    · have e : SinglePhase.rhs (env1 p (inp t) (Y t)) r = 0 := h1 r hw
      show HasDerivAt (fun s => Y s r) (SinglePhase.rhs (env1 p (inp t) (Y t)) r) t
      rw [e]
      have hc : (fun s => Y s r) = fun _ => init1 o x (iaOf x) r := by
        funext s; cases r <;> first | rfl | exact absurd rfl hw
      rw [hc]
      exact hasDerivAt_const _ _

/-- The quadratic behind the operating point. -/
theorem quad_exists {a b c : ℝ} (ha : 0 < a) : (∃ r : ℝ, a * r ^ 2 + b * r + c = 0) ↔ 0 ≤ b ^ 2 - 4 * a * c := by
  constructor
  · rintro ⟨r, hr⟩
    nlinarith [sq_nonneg (2 * a * r + b)]
  · intro h
    refine ⟨(-b + Real.sqrt (b ^ 2 - 4 * a * c)) / (2 * a), ?_⟩
    have hs := Real.mul_self_sqrt h
    generalize Real.sqrt (b ^ 2 - 4 * a * c) = s at *
    field_simp
    linear_combination hs

/-- C88: on a stiff grid with voltage `V > 0` at angle zero, filter resistance `R > 0`, a zero residual exists exactly when `4 R (R (2Q/V)² - 2P) ≤ V²`; in particular for every
non-negative PV power with zero reactive power. -/
theorem C88_operating_point_exists (o : Op) (V R X : ℝ) (hV : 0 < V) (hR : 0 < R) (hD : o.Vdc ≠ 0) (hva : ∀ i, o.va i = (V : ℂ))
    (hZ : o.Zf = (R : ℂ) + I * (X : ℂ)) :
    (∃ x, residual1 o x = 0) ↔ 4 * R * (R * (2 * o.Q_ref / V) ^ 2 - 2 * o.Ppv) ≤ V ^ 2 := by
  have key := quad_exists (a := R) (b := V) (c := R * (2 * o.Q_ref / V) ^ 2 - 2 * o.Ppv) hR
  have hiff : (∃ x, residual1 o x = 0) ↔ ∃ r : ℝ, R * r ^ 2 + V * r + (R * (2 * o.Q_ref / V) ^ 2 - 2 * o.Ppv) = 0 := by
    constructor
    · rintro ⟨x, hx⟩
      obtain ⟨hP, hQ, hd⟩ := (residual1_zero o x).1 hx
      rw [hva, hZ] at hd
      rw [hva, sPh_im] at hQ
      rw [hd, sPh_re] at hP
      simp only [add_re, add_im, mul_re, mul_im, ofReal_re, Complex.ofReal_im, I_re, I_im] at hP hQ
      refine ⟨(iaOf x).re, ?_⟩
      have hq : (iaOf x).im = -(2 * o.Q_ref / V) := by
        field_simp; linarith
      rw [hq] at hP
      linarith
    · rintro ⟨r, hr⟩
      let ia : ℂ := ⟨r, -(2 * o.Q_ref / V)⟩
      let ma : ℂ := ((V : ℂ) + o.Zf * ia) * (((2 / o.Vdc : ℝ)) : ℂ)
      refine ⟨fun n => if n = 0 then ma.re else if n = 1 then ma.im else if n = 2 then ia.re else ia.im, ?_⟩
      have e1 : maOf (fun n => if n = 0 then ma.re else if n = 1 then ma.im else if n = 2 then ia.re else ia.im) = ma := rfl
      have e2 : iaOf (fun n => if n = 0 then ma.re else if n = 1 then ma.im else if n = 2 then ia.re else ia.im) = ia := rfl
      rw [residual1_zero, e1, e2, hva]
      have hvt : ma * ((o.Vdc / 2 : ℝ) : ℂ) = (V : ℂ) + o.Zf * ia := by
        show ((V : ℂ) + o.Zf * ia) * (((2 / o.Vdc : ℝ)) : ℂ) * ((o.Vdc / 2 : ℝ) : ℂ) = _
        rw [mul_assoc, ← ofReal_mul]
        have : 2 / o.Vdc * (o.Vdc / 2) = 1 := by field_simp
        rw [this]; simp
      refine ⟨?_, ?_, hvt⟩
      · rw [hvt, hZ, sPh_re]
        simp only [add_re, add_im, mul_re, mul_im, ofReal_re, Complex.ofReal_im, I_re, I_im, ia]
        linarith
      · rw [sPh_im]
        simp only [ofReal_re, Complex.ofReal_im, ia]
        field_simp; ring
  rw [hiff, key]
  constructor <;> intro h <;> linarith

/-- C88: in stand-alone mode the PCC voltage of the operating point generally has a non-zero angle, while the initial angle of the PLL is that of the grid source: the PLL does not start
at rest. -/
theorem C88_stand_alone_pll_not_at_rest (p : Par) (o : Op) (i : Inp) (x : ℕ → ℝ) (last : ℂ) (ht : i.t = 0) (hK : p.Ki_PLL ≠ 0) (hv : i.va.im ≠ 0) :
    SinglePhase.rhs (env1 p i (init1 o x last)) .xPLL = p.Ki_PLL * i.va.im ∧ SinglePhase.rhs (env1 p i (init1 o x last)) .xPLL ≠ 0 := by
  have h : SinglePhase.rhs (env1 p i (init1 o x last)) .xPLL = p.Ki_PLL * i.va.im := by
    show p.Ki_PLL * (pll1 i.va i.w i.t (2 * Real.pi)).1 = _
    rw [ht, pll1_zero]
  exact ⟨h, by rw [h]; exact mul_ne_zero hK hv⟩

/-- Such a voltage: grid source 1, current 1, transformer `j`, load 2. -/
example : (Circuit.vStandAlone 1 1 1 I 0 2).im ≠ 0 := by
  have h : Circuit.vStandAlone 1 1 1 I 0 2 = ⟨6 / 5, 2 / 5⟩ := by
    unfold Circuit.vStandAlone
    have h2 : (I + 2 : ℂ) ≠ 0 := by intro h; have := congrArg Complex.im h; simp at this
    have e : (⟨6 / 5, 2 / 5⟩ : ℂ) = 6 / 5 + 2 / 5 * I := by
      apply Complex.ext <;> simp
    rw [e]
    simp only [ofReal_one, mul_one, div_one, one_mul, mul_zero, add_zero]
    field_simp
    linear_combination (-2 : ℂ) * I_sq
  rw [h]; norm_num

/-- Parameters and operating point of an example: the 50 kVA instance on a stiff grid at 0.5 p.u., full insolation, zero reactive power. -/
noncomputable def exPar60 : Par := { exPar with wbase := 2 * Real.pi * 60 }
/-- see `exPar60`. -/
noncomputable def exOp : Op :=
  { Vdc := 11/10, Ppv := ppvOf exPar60 exInp (11/10), Q_ref := 0, Zf := ((1/100 : ℝ) : ℂ) + I * ((1/10 : ℝ) : ℂ), va := fun _ => 1/2, vb := fun _ => exInp.vb, vc := fun _ => exInp.vc }

/-- The hypotheses of `C88_steady_single`, `C88_single_exact` and `C88_rotating_single` are met: a zero residual exists and the example input fits it. -/
theorem exists_op : ∃ x, residual1 exOp x = 0 ∧ Fits exPar60 exOp exInp (iaOf x) 0 0 ∧ exInp.va.im = 0 ∧ exInp.t = 0 := by
  have hP : 0 ≤ exOp.Ppv := by
    show 0 ≤ max 0 _ / (PV.exMod.Sbase)
    apply div_nonneg (le_max_left _ _)
    norm_num [PV.exMod]
  obtain ⟨x, hx⟩ := (C88_operating_point_exists exOp (1/2) (1/100) (1/10) (by norm_num) (by norm_num) (by norm_num [exOp]) (by intro i; simp [exOp]) rfl).2 (by
    have : exOp.Q_ref = 0 := rfl
    rw [this]; norm_num; linarith)
  refine ⟨x, hx, ⟨by norm_num [exPar60, exPar], rfl, ?_, rfl, rfl, rfl, rfl, rfl, rfl, rfl⟩, ?_, rfl⟩
  · show ((1/100 : ℝ) : ℂ) + I * ((1/10 : ℝ) : ℂ) = _
    rfl
  · show ((1/2 : ℂ)).im = 0
    norm_num

/-- C88, three-phase: on a stiff symmetric grid with voltage `V > 0` at angle zero and positive PV power a vector with zero residual exists (balanced option) whenever a third of the power
and reactive power is a single-phase operating point. -/
theorem C88_operating_point_exists_three (o : Op) (V R X : ℝ) (hV : 0 < V) (hR : 0 < R) (hD : o.Vdc ≠ 0) (hva : ∀ i, o.va i = (V : ℂ))
    (hvb : ∀ i, o.vb i = Phasor.ub (V : ℂ)) (hvc : ∀ i, o.vc i = Phasor.uc (V : ℂ)) (hZ : o.Zf = (R : ℂ) + I * (X : ℂ)) (hP : 0 < o.Ppv)
    (h : 4 * R * (R * (2 * (o.Q_ref / 3) / V) ^ 2 - 2 * (o.Ppv / 3)) ≤ V ^ 2) : ∃ x, residual3 false o x = 0 := by
  obtain ⟨x, hx⟩ := (C88_operating_point_exists { o with Ppv := o.Ppv / 3, Q_ref := o.Q_ref / 3 } V R X hV hR hD hva hZ).2 h
  obtain ⟨h1, h2, h3⟩ := (residual1_zero _ x).1 hx
  refine ⟨x, ?_⟩
  have hm : maOf x ≠ 0 := by
    intro h0
    have h1' : (sPh (maOf x * ((o.Vdc / 2 : ℝ) : ℂ)) (iaOf x)).re = o.Ppv / 3 := h1
    rw [h0] at h1'
    simp [sPh] at h1'
    linarith
  have eb : mbOf false x * ((o.Vdc / 2 : ℝ) : ℂ) = Phasor.ub (maOf x * ((o.Vdc / 2 : ℝ) : ℂ)) := by
    show Phasor.ub (maOf x) * _ = _; unfold Phasor.ub; ring
  have ec : mcOf false x * ((o.Vdc / 2 : ℝ) : ℂ) = Phasor.uc (maOf x * ((o.Vdc / 2 : ℝ) : ℂ)) := by
    show Phasor.uc (maOf x) * _ = _; unfold Phasor.uc; ring
  have hvt : maOf x * ((o.Vdc / 2 : ℝ) : ℂ) = (V : ℂ) + o.Zf * iaOf x := by rw [← hva (iaOf x)]; exact h3
  have h1' : (sPh (maOf x * ((o.Vdc / 2 : ℝ) : ℂ)) (iaOf x)).re = o.Ppv / 3 := h1
  have h2' : (sPh (o.va (iaOf x)) (iaOf x)).im = o.Q_ref / 3 := h2
  rw [hva] at h2'
  unfold residual3
  simp only [sCalc_div]
  rw [show mbOf false x = Phasor.ub (maOf x) from rfl, show mcOf false x = Phasor.uc (maOf x) from rfl, C88_balance_term_vanishes _ _ hm]
  rw [show mbOf false x = Phasor.ub (maOf x) from rfl] at eb
  rw [show mcOf false x = Phasor.uc (maOf x) from rfl] at ec
  rw [eb, ec, show ibOf false x = Phasor.ub (iaOf x) from rfl, show icOf false x = Phasor.uc (iaOf x) from rfl, hva, hvb, hvc, C52_three_phase_power, C52_three_phase_power]
  have e1 : (3 * sPh (maOf x * ((o.Vdc / 2 : ℝ) : ℂ)) (iaOf x)).re = o.Ppv := by
    rw [show (3 : ℂ) = ((3 : ℝ) : ℂ) by norm_num, re_ofReal_mul, h1']; ring
  have e2 : (3 * sPh (V : ℂ) (iaOf x)).im = o.Q_ref := by
    rw [show (3 : ℂ) = ((3 : ℝ) : ℂ) by norm_num, im_ofReal_mul, h2']; ring
  have e3 : iaOf x + Phasor.ub (iaOf x) + Phasor.uc (iaOf x) = 0 := (C47_phase_shift (iaOf x)).2.2.2.2.1
  have d1 : maOf x * ((o.Vdc / 2 : ℝ) : ℂ) - (V : ℂ) - iaOf x * o.Zf = 0 := by rw [hvt]; ring
  have d2 : Phasor.ub (maOf x * ((o.Vdc / 2 : ℝ) : ℂ)) - Phasor.ub (V : ℂ) - Phasor.ub (iaOf x) * o.Zf = 0 := by rw [hvt]; unfold Phasor.ub; ring
  have d3 : Phasor.uc (maOf x * ((o.Vdc / 2 : ℝ) : ℂ)) - Phasor.uc (V : ℂ) - Phasor.uc (iaOf x) * o.Zf = 0 := by rw [hvt]; unfold Phasor.uc; ring
  rw [e1, e2, e3, d1, d2, d3]
  simp

end SS
end Ode
end PvDer
