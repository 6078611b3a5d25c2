import Verif.Props.AntiWindup
import Verif.Props.JacThreeMain
import Mathlib.Analysis.Calculus.Deriv.Pow
import Mathlib.Analysis.Calculus.MeanValue

/-!
# C60, C61, C62, C76, C78: energy balance, steady state, state layout, balanced operation
-/

namespace PvDer
namespace Ode
open Complex Phasor

/-- `Y` satisfies the differential equation `y' = F t y` at time `t`. -/
def Solves {ι : Type} (F : ℝ → (ι → ℝ) → ι → ℝ) (Y : ℝ → ι → ℝ) (t : ℝ) : Prop := ∀ r, HasDerivAt (fun s => Y s r) (F t (Y t) r) t

/-! ### C60 -/

/-- C60, single-phase: along every solution the energy of the DC link changes at the rate (PV power − inverter power), and the DC voltage is momentarily constant
exactly when the two powers are equal. -/
theorem C60_dc_link_single (p : Par) (inp : ℝ → Inp) (Y : ℝ → SinglePhase.V → ℝ) (t : ℝ)
    (h : Solves (fun t y => SinglePhase.rhs (env1 p (inp t) y)) Y t) (hV : Y t .Vdc ≠ 0) (hC : p.C ≠ 0) :
    HasDerivAt (fun s => p.C * Y s .Vdc ^ 2 / 2) ((env1 p (inp t) (Y t)).Ppv - (env1 p (inp t) (Y t)).S.re) t ∧
    (HasDerivAt (fun s => Y s .Vdc) 0 t ↔ (env1 p (inp t) (Y t)).Ppv = (env1 p (inp t) (Y t)).S.re) := by
  have h1 := h .Vdc
  have e : SinglePhase.rhs (env1 p (inp t) (Y t)) .Vdc = ((env1 p (inp t) (Y t)).Ppv - (env1 p (inp t) (Y t)).S.re) / (Y t .Vdc * p.C) := rfl
  replace h1 := h1.congr_deriv e
  constructor
  · have h2 := ((h1.pow 2).const_mul p.C).div_const 2
    refine h2.congr_deriv ?_
    norm_num
    field_simp
  · constructor
    · intro h0
      have := h0.unique h1
      rw [eq_comm, div_eq_zero_iff] at this
      rcases this with h3 | h3
      · linarith
      · exact absurd h3 (mul_ne_zero hV hC)
    · intro h0
      rw [h0, sub_self, zero_div] at h1; exact h1

/-- C60, three-phase. -/
theorem C60_dc_link_three (p : Par) (inp : ℝ → Inp) (Y : ℝ → ThreePhase.V → ℝ) (t : ℝ)
    (h : Solves (fun t y => ThreePhase.rhs (envT p (inp t) y)) Y t) (hV : Y t .Vdc ≠ 0) (hC : p.C ≠ 0) :
    HasDerivAt (fun s => p.C * Y s .Vdc ^ 2 / 2) ((envT p (inp t) (Y t)).Ppv - (envT p (inp t) (Y t)).S.re) t ∧
    (HasDerivAt (fun s => Y s .Vdc) 0 t ↔ (envT p (inp t) (Y t)).Ppv = (envT p (inp t) (Y t)).S.re) := by
  have h1 := h .Vdc
  have e : ThreePhase.rhs (envT p (inp t) (Y t)) .Vdc = ((envT p (inp t) (Y t)).Ppv - (envT p (inp t) (Y t)).S.re) / (Y t .Vdc * p.C) := rfl
  replace h1 := h1.congr_deriv e
  constructor
  · have h2 := ((h1.pow 2).const_mul p.C).div_const 2
    refine h2.congr_deriv ?_
    norm_num
    field_simp
  · constructor
    · intro h0
      have := h0.unique h1
      rw [eq_comm, div_eq_zero_iff] at this
      rcases this with h3 | h3
      · linarith
      · exact absurd h3 (mul_ne_zero hV hC)
    · intro h0
      rw [h0, sub_self, zero_div] at h1; exact h1

/-- C60, every class with a DC link, for all attribute values. -/
theorem C60_dc_link_all (e : Env) (hV : e.Vdc ≠ 0) (hC : e.C ≠ 0) (d : ℝ)
    (hd : d = SinglePhase.rhs e .Vdc ∨ d = ThreePhase.rhs e .Vdc ∨ d = ThreePhaseNoVrmsFilter.rhs e .Vdc ∨ d = ThreePhaseNumba.rhs e .Vdc ∨
      d = ThreePhaseBalanced.rhs e .Vdc) : e.C * e.Vdc * d = e.Ppv - e.S.re ∧ (d = 0 ↔ e.Ppv = e.S.re) := by
  have key : d = (e.Ppv - e.S.re) / (e.Vdc * e.C) := by rcases hd with h | h | h | h | h <;> exact h
  subst key
  refine ⟨by field_simp, ?_⟩
  rw [div_eq_zero_iff, or_iff_left (mul_ne_zero hV hC), sub_eq_zero]

/-! ### C78 -/

/-- One phase of the filter: the rotating-frame term does no work. -/
theorem filter_phase (Lf Rf W : ℝ) (hL : Lf ≠ 0) (i v vt : ℂ) :
    Lf / 2 * (i.re * (1 / Lf * (-Rf * i.re - v.re + vt.re) + W * i.im) + i.im * (1 / Lf * (-Rf * i.im - v.im + vt.im) - W * i.re)) =
      (sPh vt i).re - (sPh v i).re - Rf / 2 * ‖i‖ ^ 2 := by
  rw [sPh_re, sPh_re, ← normSq_eq_norm_sq, normSq_apply]
  field_simp; ring

/-- C78, single-phase: along every solution, the energy stored in DC link and filter (`Lf/4·|i|²` with peak values) changes at the rate
PV power − power delivered at the PCC − resistive losses. -/
theorem C78_energy_single (p : Par) (inp : ℝ → Inp) (Y : ℝ → SinglePhase.V → ℝ) (t : ℝ)
    (h : Solves (fun t y => SinglePhase.rhs (env1 p (inp t) y)) Y t) (hV : Y t .Vdc ≠ 0) (hC : p.C ≠ 0) (hL : p.Lf ≠ 0) :
    HasDerivAt (fun s => p.C * Y s .Vdc ^ 2 / 2 + p.Lf / 4 * (Y s .iaR ^ 2 + Y s .iaI ^ 2))
      ((env1 p (inp t) (Y t)).Ppv - (env1 p (inp t) (Y t)).S_PCC.re - p.Rf / 2 * (Y t .iaR ^ 2 + Y t .iaI ^ 2)) t := by
  have h1 := (C60_dc_link_single p inp Y t h hV hC).1
  have h2 := (((h .iaR).pow 2).add ((h .iaI).pow 2)).const_mul (p.Lf / 4)
  have h3 := h1.add h2
  refine h3.congr_deriv ?_
  have key := filter_phase p.Lf p.Rf ((env1 p (inp t) (Y t)).winv / p.wbase) hL ⟨Y t .iaR, Y t .iaI⟩ (inp t).va (env1 p (inp t) (Y t)).vta
  have e1 : SinglePhase.rhs (env1 p (inp t) (Y t)) .iaR = 1 / p.Lf * (-p.Rf * Y t .iaR - (inp t).va.re + (env1 p (inp t) (Y t)).vta.re)
    + (env1 p (inp t) (Y t)).winv / p.wbase * Y t .iaI := rfl
  have e2 : SinglePhase.rhs (env1 p (inp t) (Y t)) .iaI = 1 / p.Lf * (-p.Rf * Y t .iaI - (inp t).va.im + (env1 p (inp t) (Y t)).vta.im)
    - (env1 p (inp t) (Y t)).winv / p.wbase * Y t .iaR := rfl
  have e3 : (env1 p (inp t) (Y t)).S = sPh (env1 p (inp t) (Y t)).vta ⟨Y t .iaR, Y t .iaI⟩ := rfl
  have e4 : (env1 p (inp t) (Y t)).S_PCC = sPh (inp t).va ⟨Y t .iaR, Y t .iaI⟩ := rfl
  have e5 : ‖(⟨Y t .iaR, Y t .iaI⟩ : ℂ)‖ ^ 2 = Y t .iaR ^ 2 + Y t .iaI ^ 2 := by rw [← normSq_eq_norm_sq, normSq_apply]; ring
  rw [e5] at key
  simp only [e1, e2, e3, e4]
  simp only at key
  generalize (env1 p (inp t) (Y t)).winv / p.wbase = W at *
  norm_num
  linear_combination key

/-- C78, three-phase. -/
theorem C78_energy_three (p : Par) (inp : ℝ → Inp) (Y : ℝ → ThreePhase.V → ℝ) (t : ℝ)
    (h : Solves (fun t y => ThreePhase.rhs (envT p (inp t) y)) Y t) (hV : Y t .Vdc ≠ 0) (hC : p.C ≠ 0) (hL : p.Lf ≠ 0) :
    HasDerivAt (fun s => p.C * Y s .Vdc ^ 2 / 2 + p.Lf / 4 * ((Y s .iaR ^ 2 + Y s .iaI ^ 2) + (Y s .ibR ^ 2 + Y s .ibI ^ 2) + (Y s .icR ^ 2 + Y s .icI ^ 2)))
      ((envT p (inp t) (Y t)).Ppv - (envT p (inp t) (Y t)).S_PCC.re
        - p.Rf / 2 * ((Y t .iaR ^ 2 + Y t .iaI ^ 2) + (Y t .ibR ^ 2 + Y t .ibI ^ 2) + (Y t .icR ^ 2 + Y t .icI ^ 2))) t := by
  have h1 := (C60_dc_link_three p inp Y t h hV hC).1
  have h2 := (((((h .iaR).pow 2).add ((h .iaI).pow 2)).add (((h .ibR).pow 2).add ((h .ibI).pow 2))).add (((h .icR).pow 2).add ((h .icI).pow 2))).const_mul (p.Lf / 4)
  have h3 := h1.add h2
  refine h3.congr_deriv ?_
  have e5 : ∀ a b : ℝ, ‖(⟨a, b⟩ : ℂ)‖ ^ 2 = a ^ 2 + b ^ 2 := by intro a b; rw [← normSq_eq_norm_sq, normSq_apply]; ring
  have ka := filter_phase p.Lf p.Rf ((envT p (inp t) (Y t)).winv / p.wbase) hL ⟨Y t .iaR, Y t .iaI⟩ (inp t).va (envT p (inp t) (Y t)).vta
  have kb := filter_phase p.Lf p.Rf ((envT p (inp t) (Y t)).winv / p.wbase) hL ⟨Y t .ibR, Y t .ibI⟩ (inp t).vb (envT p (inp t) (Y t)).vtb
  have kc := filter_phase p.Lf p.Rf ((envT p (inp t) (Y t)).winv / p.wbase) hL ⟨Y t .icR, Y t .icI⟩ (inp t).vc (envT p (inp t) (Y t)).vtc
  rw [e5, sPh_re, sPh_re] at ka kb kc
  have e1 : ThreePhase.rhs (envT p (inp t) (Y t)) .iaR = 1 / p.Lf * (-p.Rf * Y t .iaR - (inp t).va.re + (envT p (inp t) (Y t)).vta.re)
    + (envT p (inp t) (Y t)).winv / p.wbase * Y t .iaI := rfl
  have e2 : ThreePhase.rhs (envT p (inp t) (Y t)) .iaI = 1 / p.Lf * (-p.Rf * Y t .iaI - (inp t).va.im + (envT p (inp t) (Y t)).vta.im)
    - (envT p (inp t) (Y t)).winv / p.wbase * Y t .iaR := rfl
  have f1 : ThreePhase.rhs (envT p (inp t) (Y t)) .ibR = 1 / p.Lf * (-p.Rf * Y t .ibR - (inp t).vb.re + (envT p (inp t) (Y t)).vtb.re)
    + (envT p (inp t) (Y t)).winv / p.wbase * Y t .ibI := rfl
  have f2 : ThreePhase.rhs (envT p (inp t) (Y t)) .ibI = 1 / p.Lf * (-p.Rf * Y t .ibI - (inp t).vb.im + (envT p (inp t) (Y t)).vtb.im)
    - (envT p (inp t) (Y t)).winv / p.wbase * Y t .ibR := rfl
  have g1 : ThreePhase.rhs (envT p (inp t) (Y t)) .icR = 1 / p.Lf * (-p.Rf * Y t .icR - (inp t).vc.re + (envT p (inp t) (Y t)).vtc.re)
    + (envT p (inp t) (Y t)).winv / p.wbase * Y t .icI := rfl
  have g2 : ThreePhase.rhs (envT p (inp t) (Y t)) .icI = 1 / p.Lf * (-p.Rf * Y t .icI - (inp t).vc.im + (envT p (inp t) (Y t)).vtc.im)
    - (envT p (inp t) (Y t)).winv / p.wbase * Y t .icR := rfl
  have e3 : (envT p (inp t) (Y t)).S = sCalc (envT p (inp t) (Y t)).vta (envT p (inp t) (Y t)).vtb (envT p (inp t) (Y t)).vtc ⟨Y t .iaR, Y t .iaI⟩
    ⟨Y t .ibR, Y t .ibI⟩ ⟨Y t .icR, Y t .icI⟩ := rfl
  have e4 : (envT p (inp t) (Y t)).S_PCC = sCalc (inp t).va (inp t).vb (inp t).vc ⟨Y t .iaR, Y t .iaI⟩ ⟨Y t .ibR, Y t .ibI⟩ ⟨Y t .icR, Y t .icI⟩ := rfl
  simp only [e1, e2, f1, f2, g1, g2, e3, e4, sCalc_re]
  simp only at ka kb kc
  generalize (envT p (inp t) (Y t)).winv / p.wbase = W at *
  norm_num
  linear_combination ka + kb + kc

/-! ### C61 -/

/-- One phase of the filter in steady state: the terminal voltage is the PCC voltage plus the drop over `Rf + jωLf`. -/
theorem filter_steady (Lf Rf W : ℝ) (hL : Lf ≠ 0) (i v vt : ℂ) :
    (1 / Lf * (-Rf * i.re - v.re + vt.re) + W * i.im = 0 ∧ 1 / Lf * (-Rf * i.im - v.im + vt.im) - W * i.re = 0) ↔
      vt = v + ((Rf : ℂ) + I * ((Lf * W : ℝ) : ℂ)) * i := by
  rw [Complex.ext_iff]
  simp only [add_re, add_im, mul_re, mul_im, ofReal_re, Complex.ofReal_im, I_re, I_im]
  constructor
  · rintro ⟨h1, h2⟩
    field_simp at h1 h2
    constructor <;> linarith
  · rintro ⟨h1, h2⟩
    rw [h1, h2]
    constructor <;> field_simp <;> ring

/-- C61, single-phase.  With no controller beyond its limit and non-zero gains, all states but the angle are stationary exactly when: the terminal voltage balances
the filter drop, the current controller input is zero, the current equals its reference, PV power equals inverter power, the DC voltage equals its reference, the
reactive power at the PCC equals its reference, and the PLL input is zero. -/
theorem C61_steady_state_single (p : Par) (i : Inp) (y : SinglePhase.V → ℝ)
    (hm : ¬ mSat (env1 p i y) (env1 p i y).ua (env1 p i y).xa) (hr : ¬ ‖irefD (env1 p i y)‖ > p.iref_limit)
    (hL : p.Lf ≠ 0) (hC : p.C ≠ 0) (hV : y .Vdc ≠ 0) (hG : p.Ki_GCC ≠ 0) (hwp : p.wp ≠ 0) (hD : p.Ki_DC ≠ 0) (hQ : p.Ki_Q ≠ 0) (hP : p.Ki_PLL ≠ 0) :
    (∀ r, r ≠ .wte → SinglePhase.rhs (env1 p i y) r = 0) ↔
      (env1 p i y).vta = i.va + ((p.Rf : ℂ) + I * ((p.Lf * ((env1 p i y).winv / p.wbase) : ℝ) : ℂ)) * (env1 p i y).ia ∧
      (env1 p i y).ua = 0 ∧ (env1 p i y).ia = (env1 p i y).ia_ref ∧ (env1 p i y).Ppv = (env1 p i y).S.re ∧ y .Vdc = i.Vdc_ref ∧
      (env1 p i y).S_PCC.im = i.Q_ref ∧ (env1 p i y).vd = 0 := by
  obtain ⟨hx1, hx2, hu1, hu2, hd, hq⟩ := C57_antiwindup_single_phase (env1 p i y)
  have ex1 := hx1.plain hm
  have ex2 := hx2.plain hm
  have eu1 := hu1.plain hm
  have eu2 := hu2.plain hm
  have ed := hd.plain hr
  have eq := hq.plain hr
  have hf := filter_steady p.Lf p.Rf ((env1 p i y).winv / p.wbase) hL (env1 p i y).ia i.va (env1 p i y).vta
  have hdc := (C60_dc_link_all (env1 p i y) hV hC _ (Or.inl rfl)).2
  have e1 : SinglePhase.rhs (env1 p i y) .iaR = 1 / p.Lf * (-p.Rf * (env1 p i y).ia.re - i.va.re + (env1 p i y).vta.re)
    + (env1 p i y).winv / p.wbase * (env1 p i y).ia.im := rfl
  have e2 : SinglePhase.rhs (env1 p i y) .iaI = 1 / p.Lf * (-p.Rf * (env1 p i y).ia.im - i.va.im + (env1 p i y).vta.im)
    - (env1 p i y).winv / p.wbase * (env1 p i y).ia.re := rfl
  have e3 : SinglePhase.rhs (env1 p i y) .xPLL = p.Ki_PLL * (env1 p i y).vd := rfl
  have g1 : (env1 p i y).Ki_GCC = p.Ki_GCC := rfl
  have g2 : (env1 p i y).wp = p.wp := rfl
  have g3 : (env1 p i y).Ki_DC = p.Ki_DC := rfl
  have g4 : (env1 p i y).Ki_Q = p.Ki_Q := rfl
  have g5 : (env1 p i y).Vdc = y .Vdc := rfl
  have g6 : (env1 p i y).Vdc_ref = i.Vdc_ref := rfl
  have g7 : (env1 p i y).Q_ref = i.Q_ref := rfl
  rw [g1] at ex1 ex2
  rw [g2] at eu1 eu2
  rw [g3, g5, g6] at ed
  rw [g4, g7] at eq
  constructor
  · intro h
    have a1 := h .iaR (by decide)
    have a2 := h .iaI (by decide)
    have a3 := h .xaR (by decide)
    have a4 := h .xaI (by decide)
    have a5 := h .uaR (by decide)
    have a6 := h .uaI (by decide)
    have a7 := h .Vdc (by decide)
    have a8 := h .xDC (by decide)
    have a9 := h .xQ (by decide)
    have a10 := h .xPLL (by decide)
    rw [e1] at a1; rw [e2] at a2; rw [ex1] at a3; rw [ex2] at a4; rw [eu1] at a5; rw [eu2] at a6; rw [ed] at a8; rw [eq] at a9; rw [e3] at a10
    have b3 := (mul_eq_zero.1 a3).resolve_left hG
    have b4 := (mul_eq_zero.1 a4).resolve_left hG
    have b5 := (mul_eq_zero.1 a5).resolve_left hwp
    have b6 := (mul_eq_zero.1 a6).resolve_left hwp
    have b8 := (mul_eq_zero.1 a8).resolve_left hD
    have b9 := (mul_eq_zero.1 a9).resolve_left (neg_ne_zero.2 hQ)
    have b10 := (mul_eq_zero.1 a10).resolve_left hP
    refine ⟨hf.1 ⟨a1, a2⟩, Complex.ext b3 b4, Complex.ext ?_ ?_, hdc.1 a7, ?_, ?_, b10⟩
    · rw [b3] at b5; linarith
    · rw [b4] at b6; linarith
    · linarith
    · linarith
  · rintro ⟨h1, h2, h3, h4, h5, h6, h7⟩
    obtain ⟨f1, f2⟩ := hf.2 h1
    intro r hr
    cases r
    · rw [e1]; exact f1
    · rw [e2]; exact f2
    · rw [ex1, h2]; simp
    · rw [ex2, h2]; simp
    · rw [eu1, h2, h3]; simp
    · rw [eu2, h2, h3]; simp
    · exact hdc.2 h4
    · rw [ed, h5]; simp
    · rw [eq, h6]; simp
    · rw [e3, h7]; simp
    · exact absurd rfl hr

/-- A sine that vanishes at all times has zero frequency. -/
theorem sin_all_zero {a b : ℝ} (h : ∀ t : ℝ, Real.sin (a * t + b) = 0) : a = 0 := by
  by_contra ha
  have h1 := h ((Real.pi / 2 - b) / a)
  have e : a * ((Real.pi / 2 - b) / a) + b = Real.pi / 2 := by field_simp; ring
  rw [e, Real.sin_pi_div_two] at h1
  exact one_ne_zero h1

/-- C61, frequency: if a solution keeps every state but the angle constant for all times, under a constant non-zero PCC voltage phasor and grid frequency, the PLL runs exactly at the grid
frequency: its integrator holds the deviation from 60 Hz and the inverter frequency is the grid frequency. -/
theorem C61_frequency_lock (p : Par) (inp : ℝ → Inp) (Y : ℝ → SinglePhase.V → ℝ) (v : ℂ) (w : ℝ) (hin : ∀ t, (inp t).va = v ∧ (inp t).w = w ∧ (inp t).t = t)
    (hv : v ≠ 0) (hP : p.Ki_PLL ≠ 0) (h : ∀ t, Solves (fun t y => SinglePhase.rhs (env1 p (inp t) y)) Y t)
    (hc : ∀ t r, r ≠ .wte → Y t r = Y 0 r) :
    Y 0 .xPLL = w - 2 * Real.pi * 60 ∧ ∀ t, (env1 p (inp t) (Y t)).winv = w := by
  have hvd : ∀ t, (pll1 v w t (Y t .wte)).1 = 0 := by
    intro t
    have h1 := h t .xPLL
    have h2 : HasDerivAt (fun s => Y s .xPLL) 0 t := by
      have : (fun s => Y s .xPLL) = fun _ => Y 0 .xPLL := by funext s; exact hc s .xPLL (by decide)
      rw [this]; exact hasDerivAt_const _ _
    have h3 := h1.unique h2
    have h4 : p.Ki_PLL * (pll1 (inp t).va (inp t).w (inp t).t (Y t .wte)).1 = 0 := h3
    rw [(hin t).1, (hin t).2.1, (hin t).2.2] at h4
    exact (mul_eq_zero.1 h4).resolve_left hP
  have hwe : ∀ t, HasDerivAt (fun s => Y s .wte) (Y 0 .xPLL + 2 * Real.pi * 60) t := by
    intro t
    have h1 := h t .wte
    refine h1.congr_deriv ?_
    show weCalc p.Kp_PLL (pll1 (inp t).va (inp t).w (inp t).t (Y t .wte)).1 (Y t .xPLL) = _
    rw [(hin t).1, (hin t).2.1, (hin t).2.2, hvd t, hc t .xPLL (by decide), weCalc]; ring
  have haff : ∀ t, Y t .wte = Y 0 .wte + (Y 0 .xPLL + 2 * Real.pi * 60) * t := by
    intro t
    have hd : ∀ s, HasDerivAt (fun s => Y s .wte - (Y 0 .xPLL + 2 * Real.pi * 60) * s) 0 s := by
      intro s
      have := (hwe s).sub ((hasDerivAt_id' s).const_mul (Y 0 .xPLL + 2 * Real.pi * 60))
      refine this.congr_deriv ?_
      ring
    have hcst := is_const_of_deriv_eq_zero (fun s => (hd s).differentiableAt) (fun s => (hd s).deriv) t 0
    simp only [mul_zero, sub_zero] at hcst
    linarith
  have hs : ∀ t : ℝ, Real.sin ((w - (Y 0 .xPLL + 2 * Real.pi * 60)) * t + (arg v - Y 0 .wte)) = 0 := by
    intro t
    have h1 := hvd t
    rw [C53_pll_input, haff t] at h1
    have h2 := (mul_eq_zero.1 h1).resolve_left (norm_ne_zero_iff.2 hv)
    refine Eq.trans ?_ h2; congr 1; ring
  have h0 := sin_all_zero hs
  refine ⟨by linarith, fun t => ?_⟩
  show weCalc p.Kp_PLL (pll1 (inp t).va (inp t).w (inp t).t (Y t .wte)).1 (Y t .xPLL) = _
  rw [(hin t).1, (hin t).2.1, (hin t).2.2, hvd t, hc t .xPLL (by decide), weCalc]; linarith

/-- C61, three-phase: the same characterisation with the three phases, and the RMS filter at its input. -/
theorem C61_steady_state_three (p : Par) (i : Inp) (y : ThreePhase.V → ℝ)
    (hma : ¬ mSat (envT p i y) (envT p i y).ua (envT p i y).xa) (hmb : ¬ mSat (envT p i y) (envT p i y).ub (envT p i y).xb)
    (hmc : ¬ mSat (envT p i y) (envT p i y).uc (envT p i y).xc) (hr : ¬ ‖irefD (envT p i y)‖ > p.iref_limit)
    (hL : p.Lf ≠ 0) (hC : p.C ≠ 0) (hV : y .Vdc ≠ 0) (hG : p.Ki_GCC ≠ 0) (hwp : p.wp ≠ 0) (hD : p.Ki_DC ≠ 0) (hQ : p.Ki_Q ≠ 0) (hP : p.Ki_PLL ≠ 0)
    (hT : p.Tfilter_Vrms ≠ 0) :
    (∀ r, r ≠ .wte → ThreePhase.rhs (envT p i y) r = 0) ↔
      ((envT p i y).vta = i.va + ((p.Rf : ℂ) + I * ((p.Lf * ((envT p i y).winv / p.wbase) : ℝ) : ℂ)) * (envT p i y).ia) ∧
      ((envT p i y).vtb = i.vb + ((p.Rf : ℂ) + I * ((p.Lf * ((envT p i y).winv / p.wbase) : ℝ) : ℂ)) * (envT p i y).ib) ∧
      ((envT p i y).vtc = i.vc + ((p.Rf : ℂ) + I * ((p.Lf * ((envT p i y).winv / p.wbase) : ℝ) : ℂ)) * (envT p i y).ic) ∧
      ((envT p i y).ua = 0 ∧ (envT p i y).ia = (envT p i y).ia_ref) ∧
      ((envT p i y).ub = 0 ∧ (envT p i y).ib = (envT p i y).ib_ref) ∧
      ((envT p i y).uc = 0 ∧ (envT p i y).ic = (envT p i y).ic_ref) ∧
      (envT p i y).Ppv = (envT p i y).S.re ∧ y .Vdc = i.Vdc_ref ∧ (envT p i y).S_PCC.im = i.Q_ref ∧ (envT p i y).vd = 0 ∧ y .Vrms = urms i.va i.vb i.vc := by
  obtain ⟨hx1a, hx2a, hu1a, hu2a, hx1b, hx2b, hu1b, hu2b, hx1c, hx2c, hu1c, hu2c, hd, hq⟩ := C57_antiwindup_three_phase (envT p i y)
  have ex1a := hx1a.plain hma
  have ex2a := hx2a.plain hma
  have eu1a := hu1a.plain hma
  have eu2a := hu2a.plain hma
  have ex1b := hx1b.plain hmb
  have ex2b := hx2b.plain hmb
  have eu1b := hu1b.plain hmb
  have eu2b := hu2b.plain hmb
  have ex1c := hx1c.plain hmc
  have ex2c := hx2c.plain hmc
  have eu1c := hu1c.plain hmc
  have eu2c := hu2c.plain hmc
  have ed := hd.plain hr
  have eq := hq.plain hr
  have hdc := (C60_dc_link_all (envT p i y) hV hC _ (Or.inr (Or.inl rfl))).2
  have hfa := filter_steady p.Lf p.Rf ((envT p i y).winv / p.wbase) hL (envT p i y).ia i.va (envT p i y).vta
  have e1a : ThreePhase.rhs (envT p i y) .iaR = 1 / p.Lf * (-p.Rf * (envT p i y).ia.re - i.va.re + (envT p i y).vta.re)
    + (envT p i y).winv / p.wbase * (envT p i y).ia.im := rfl
  have e2a : ThreePhase.rhs (envT p i y) .iaI = 1 / p.Lf * (-p.Rf * (envT p i y).ia.im - i.va.im + (envT p i y).vta.im)
    - (envT p i y).winv / p.wbase * (envT p i y).ia.re := rfl
  have hfb := filter_steady p.Lf p.Rf ((envT p i y).winv / p.wbase) hL (envT p i y).ib i.vb (envT p i y).vtb
  have e1b : ThreePhase.rhs (envT p i y) .ibR = 1 / p.Lf * (-p.Rf * (envT p i y).ib.re - i.vb.re + (envT p i y).vtb.re)
    + (envT p i y).winv / p.wbase * (envT p i y).ib.im := rfl
  have e2b : ThreePhase.rhs (envT p i y) .ibI = 1 / p.Lf * (-p.Rf * (envT p i y).ib.im - i.vb.im + (envT p i y).vtb.im)
    - (envT p i y).winv / p.wbase * (envT p i y).ib.re := rfl
  have hfc := filter_steady p.Lf p.Rf ((envT p i y).winv / p.wbase) hL (envT p i y).ic i.vc (envT p i y).vtc
  have e1c : ThreePhase.rhs (envT p i y) .icR = 1 / p.Lf * (-p.Rf * (envT p i y).ic.re - i.vc.re + (envT p i y).vtc.re)
    + (envT p i y).winv / p.wbase * (envT p i y).ic.im := rfl
  have e2c : ThreePhase.rhs (envT p i y) .icI = 1 / p.Lf * (-p.Rf * (envT p i y).ic.im - i.vc.im + (envT p i y).vtc.im)
    - (envT p i y).winv / p.wbase * (envT p i y).ic.re := rfl
  have e3 : ThreePhase.rhs (envT p i y) .xPLL = p.Ki_PLL * (envT p i y).vd := rfl
  have e4 : ThreePhase.rhs (envT p i y) .Vrms = 1 / p.Tfilter_Vrms * (urms i.va i.vb i.vc - y .Vrms) := rfl
  have g1 : (envT p i y).Ki_GCC = p.Ki_GCC := rfl
  have g2 : (envT p i y).wp = p.wp := rfl
  have g3 : (envT p i y).Ki_DC = p.Ki_DC := rfl
  have g4 : (envT p i y).Ki_Q = p.Ki_Q := rfl
  have g5 : (envT p i y).Vdc = y .Vdc := rfl
  have g6 : (envT p i y).Vdc_ref = i.Vdc_ref := rfl
  have g7 : (envT p i y).Q_ref = i.Q_ref := rfl
  rw [g1] at ex1a ex2a ex1b ex2b ex1c ex2c
  rw [g2] at eu1a eu2a eu1b eu2b eu1c eu2c
  rw [g3, g5, g6] at ed
  rw [g4, g7] at eq
  constructor
  · intro h
    have a1a := h .iaR (by decide)
    have a2a := h .iaI (by decide)
    have a3a := h .xaR (by decide)
    have a4a := h .xaI (by decide)
    have a5a := h .uaR (by decide)
    have a6a := h .uaI (by decide)
    rw [e1a] at a1a; rw [e2a] at a2a; rw [ex1a] at a3a; rw [ex2a] at a4a; rw [eu1a] at a5a; rw [eu2a] at a6a
    have b3a := (mul_eq_zero.1 a3a).resolve_left hG
    have b4a := (mul_eq_zero.1 a4a).resolve_left hG
    have b5a := (mul_eq_zero.1 a5a).resolve_left hwp
    have b6a := (mul_eq_zero.1 a6a).resolve_left hwp
    have a1b := h .ibR (by decide)
    have a2b := h .ibI (by decide)
    have a3b := h .xbR (by decide)
    have a4b := h .xbI (by decide)
    have a5b := h .ubR (by decide)
    have a6b := h .ubI (by decide)
    rw [e1b] at a1b; rw [e2b] at a2b; rw [ex1b] at a3b; rw [ex2b] at a4b; rw [eu1b] at a5b; rw [eu2b] at a6b
    have b3b := (mul_eq_zero.1 a3b).resolve_left hG
    have b4b := (mul_eq_zero.1 a4b).resolve_left hG
    have b5b := (mul_eq_zero.1 a5b).resolve_left hwp
    have b6b := (mul_eq_zero.1 a6b).resolve_left hwp
    have a1c := h .icR (by decide)
    have a2c := h .icI (by decide)
    have a3c := h .xcR (by decide)
    have a4c := h .xcI (by decide)
    have a5c := h .ucR (by decide)
    have a6c := h .ucI (by decide)
    rw [e1c] at a1c; rw [e2c] at a2c; rw [ex1c] at a3c; rw [ex2c] at a4c; rw [eu1c] at a5c; rw [eu2c] at a6c
    have b3c := (mul_eq_zero.1 a3c).resolve_left hG
    have b4c := (mul_eq_zero.1 a4c).resolve_left hG
    have b5c := (mul_eq_zero.1 a5c).resolve_left hwp
    have b6c := (mul_eq_zero.1 a6c).resolve_left hwp
    have a7 := h .Vdc (by decide)
    have a8 := h .xDC (by decide)
    have a9 := h .xQ (by decide)
    have a10 := h .xPLL (by decide)
    have a11 := h .Vrms (by decide)
    rw [ed] at a8; rw [eq] at a9; rw [e3] at a10; rw [e4] at a11
    have b8 := (mul_eq_zero.1 a8).resolve_left hD
    have b9 := (mul_eq_zero.1 a9).resolve_left (neg_ne_zero.2 hQ)
    have b10 := (mul_eq_zero.1 a10).resolve_left hP
    have b11 := (mul_eq_zero.1 a11).resolve_left (one_div_ne_zero hT)
    refine ⟨hfa.1 ⟨a1a, a2a⟩, hfb.1 ⟨a1b, a2b⟩, hfc.1 ⟨a1c, a2c⟩, ⟨Complex.ext b3a b4a, Complex.ext ?_ ?_⟩, ⟨Complex.ext b3b b4b, Complex.ext ?_ ?_⟩, ⟨Complex.ext b3c b4c, Complex.ext ?_ ?_⟩, hdc.1 a7, ?_, ?_, b10, ?_⟩
    · rw [b3a] at b5a; linarith
    · rw [b4a] at b6a; linarith
    · rw [b3b] at b5b; linarith
    · rw [b4b] at b6b; linarith
    · rw [b3c] at b5c; linarith
    · rw [b4c] at b6c; linarith
    · linarith
    · linarith
    · linarith
  · rintro ⟨h1a, h1b, h1c, ⟨h2a, h3a⟩, ⟨h2b, h3b⟩, ⟨h2c, h3c⟩, h4, h5, h6, h7, h8⟩
    obtain ⟨f1a, f2a⟩ := hfa.2 h1a
    obtain ⟨f1b, f2b⟩ := hfb.2 h1b
    obtain ⟨f1c, f2c⟩ := hfc.2 h1c
    intro r hr
    cases r
    · rw [e1a]; exact f1a
    · rw [e2a]; exact f2a
    · rw [ex1a, h2a]; simp
    · rw [ex2a, h2a]; simp
    · rw [eu1a, h2a, h3a]; simp
    · rw [eu2a, h2a, h3a]; simp
    · rw [e1b]; exact f1b
    · rw [e2b]; exact f2b
    · rw [ex1b, h2b]; simp
    · rw [ex2b, h2b]; simp
    · rw [eu1b, h2b, h3b]; simp
    · rw [eu2b, h2b, h3b]; simp
    · rw [e1c]; exact f1c
    · rw [e2c]; exact f2c
    · rw [ex1c, h2c]; simp
    · rw [ex2c, h2c]; simp
    · rw [eu1c, h2c, h3c]; simp
    · rw [eu2c, h2c, h3c]; simp
    · exact hdc.2 h4
    · rw [ed, h5]; simp
    · rw [eq, h6]; simp
    · rw [e3, h7]; simp
    · exact absurd rfl hr
    · rw [e4, h8]; simp

/-- A steady state exists: at night, with the inverter holding its reference voltage and exchanging no power. -/
noncomputable def exNight : SinglePhase.V → ℝ
  | .xaR => 10/11 | .Vdc => 11/10 | _ => 0

example : ∀ r, r ≠ .wte → SinglePhase.rhs (env1 exPar { exInp with Sinsol := 0 } exNight) r = 0 := by
  set i : Inp := { exInp with Sinsol := 0 } with hi
  have harg : arg i.va = 0 := by
    have : i.va = ((1/2 : ℝ) : ℂ) := by norm_num [hi, exInp]
    rw [this]; exact arg_ofReal_of_nonneg (by norm_num)
  have hpv : (env1 exPar i exNight).Ppv = 0 := by
    refine PV.C56_zero_outside PV.exMod PV.exMod_physical 0 (29815/100) _ (by norm_num) (by norm_num [PV.iph]) (Or.inr ?_)
    norm_num [PV.iph, exNight, exPar]
  have hmn : ¬ mSat (env1 exPar i exNight) (env1 exPar i exNight).ua (env1 exPar i exNight).xa := by
    have e : (↑(env1 exPar i exNight).Kp_GCC : ℂ) * (env1 exPar i exNight).ua + (env1 exPar i exNight).xa = ((10/11 : ℝ) : ℂ) := by
      apply Complex.ext <;> norm_num [env1, exNight]
    unfold mSat
    rw [e, norm_real]
    norm_num [env1, Env.base, exPar, abs_of_pos]
  have hrn : ¬ ‖irefD (env1 exPar i exNight)‖ > exPar.iref_limit := by
    have e : irefD (env1 exPar i exNight) = 0 := by
      apply Complex.ext <;> simp [irefD, env1, Env.base, exNight, hi, exInp, sPh_im]
    rw [e]; norm_num [exPar]
  have hia : (env1 exPar i exNight).ia = 0 := by apply Complex.ext <;> simp [env1, exNight]
  have hvt : (env1 exPar i exNight).vta = i.va := by
    apply Complex.ext
    · simp only [env1, vt_re]; norm_num [exNight, hi, exInp]
    · simp only [env1, vt_im]; norm_num [exNight, hi, exInp]
  refine (C61_steady_state_single exPar i exNight hmn hrn (by norm_num [exPar]) (by norm_num [exPar]) (by norm_num [exNight]) (by norm_num [exPar])
    (by norm_num [exPar]) (by norm_num [exPar]) (by norm_num [exPar]) (by norm_num [exPar])).2 ⟨?_, ?_, ?_, ?_, ?_, ?_, ?_⟩
  · rw [hia, hvt]; simp
  · apply Complex.ext <;> norm_num [env1, exNight]
  · apply Complex.ext
    · simp only [env1, iref_re]; norm_num [exNight, hi, exInp]
    · simp only [env1, iref_im, sPh_im]; norm_num [exNight, hi, exInp]
  · rw [hpv]; simp only [env1, sPh_re]; norm_num [exNight]
  · norm_num [hi, exInp, exNight]
  · simp only [env1, sPh_im]; norm_num [exNight, hi, exInp]
  · show (pll1 i.va i.w i.t (exNight .wte)).1 = 0
    rw [C53_pll_input, harg]; norm_num [hi, exInp, exNight]

end Ode
end PvDer
