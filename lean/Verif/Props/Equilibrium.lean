import Verif.Props.OdeProps
/-!
# C61 for the remaining classes (steady states that meet the hypotheses exist: `C117_operating_point_*`)
The steady-state characterisation of the classes without RMS filter, with compiled update functions, with balanced phases and with constant DC voltage, and the frequency lock of all classes.
-/
namespace PvDer
namespace Ode
open Complex Phasor

/-- The six rows of one phase vanish exactly when the terminal voltage balances the filter, the compensator is at rest and the current equals its reference. -/
theorem phase_steady {Lf Rf W Ki wp : ℝ} (hL : Lf ≠ 0) (hG : Ki ≠ 0) (hwp : wp ≠ 0) {i v vt u ref : ℂ} {d1 d2 d3 d4 d5 d6 : ℝ}
    (e1 : d1 = 1 / Lf * (-Rf * i.re - v.re + vt.re) + W * i.im) (e2 : d2 = 1 / Lf * (-Rf * i.im - v.im + vt.im) - W * i.re)
    (e3 : d3 = Ki * u.re) (e4 : d4 = Ki * u.im) (e5 : d5 = wp * (-u.re + ref.re - i.re)) (e6 : d6 = wp * (-u.im + ref.im - i.im)) :
    (d1 = 0 ∧ d2 = 0 ∧ d3 = 0 ∧ d4 = 0 ∧ d5 = 0 ∧ d6 = 0) ↔ vt = v + ((Rf : ℂ) + I * ((Lf * W : ℝ) : ℂ)) * i ∧ u = 0 ∧ i = ref := by
  have hf := filter_steady Lf Rf W hL i v vt
  constructor
  · rintro ⟨a1, a2, a3, a4, a5, a6⟩
    rw [e1] at a1; rw [e2] at a2; rw [e3] at a3; rw [e4] at a4; rw [e5] at a5; rw [e6] at a6
    have b3 := (mul_eq_zero.1 a3).resolve_left hG
    have b4 := (mul_eq_zero.1 a4).resolve_left hG
    have b5 := (mul_eq_zero.1 a5).resolve_left hwp
    have b6 := (mul_eq_zero.1 a6).resolve_left hwp
    refine ⟨hf.1 ⟨a1, a2⟩, Complex.ext b3 b4, Complex.ext ?_ ?_⟩
    · rw [b3] at b5; linarith
    · rw [b4] at b6; linarith
  · rintro ⟨h1, h2, h3⟩
    obtain ⟨f1, f2⟩ := hf.2 h1
    refine ⟨e1.trans f1, e2.trans f2, ?_, ?_, ?_, ?_⟩
    · rw [e3, h2]; simp
    · rw [e4, h2]; simp
    · rw [e5, h2, h3]; simp
    · rw [e6, h2, h3]; simp

theorem gain_steady {k d a b : ℝ} (hk : k ≠ 0) (e : d = k * (a - b)) : d = 0 ↔ b = a := by
  rw [e, mul_eq_zero, or_iff_right hk, sub_eq_zero, eq_comm]

/-- C61, three-phase without RMS filter. -/
theorem C61_steady_state_no_filter (p : Par) (i : Inp) (y : ThreePhaseNoVrmsFilter.V → ℝ)
    (hma : ¬ mSat (envN p i y) (envN p i y).ua (envN p i y).xa) (hmb : ¬ mSat (envN p i y) (envN p i y).ub (envN p i y).xb) (hmc : ¬ mSat (envN p i y) (envN p i y).uc (envN p i y).xc) (hr : ¬ ‖irefD (envN p i y)‖ > p.iref_limit)
    (hL : p.Lf ≠ 0) (hG : p.Ki_GCC ≠ 0) (hwp : p.wp ≠ 0) (hQ : p.Ki_Q ≠ 0) (hP : p.Ki_PLL ≠ 0) (hC : p.C ≠ 0) (hV : y .Vdc ≠ 0) (hD : p.Ki_DC ≠ 0) :
    (∀ r, r ≠ .wte → ThreePhaseNoVrmsFilter.rhs (envN p i y) r = 0) ↔
      ((envN p i y).vta = i.va + ((p.Rf : ℂ) + I * ((p.Lf * ((envN p i y).winv / p.wbase) : ℝ) : ℂ)) * (envN p i y).ia ∧ (envN p i y).ua = 0 ∧ (envN p i y).ia = (envN p i y).ia_ref) ∧
      ((envN p i y).vtb = i.vb + ((p.Rf : ℂ) + I * ((p.Lf * ((envN p i y).winv / p.wbase) : ℝ) : ℂ)) * (envN p i y).ib ∧ (envN p i y).ub = 0 ∧ (envN p i y).ib = (envN p i y).ib_ref) ∧
      ((envN p i y).vtc = i.vc + ((p.Rf : ℂ) + I * ((p.Lf * ((envN p i y).winv / p.wbase) : ℝ) : ℂ)) * (envN p i y).ic ∧ (envN p i y).uc = 0 ∧ (envN p i y).ic = (envN p i y).ic_ref) ∧
      (envN p i y).S.re = (envN p i y).Ppv ∧ y .Vdc = i.Vdc_ref ∧ (envN p i y).S_PCC.im = i.Q_ref ∧ (envN p i y).vd = 0 := by
  obtain ⟨hx1a, hx2a, hu1a, hu2a, hx1b, hx2b, hu1b, hu2b, hx1c, hx2c, hu1c, hu2c, hd, hq⟩ := C57_antiwindup_no_filter (envN p i y)
  have Pa := phase_steady (Rf := p.Rf) (W := (envN p i y).winv / p.wbase) (v := i.va) (vt := (envN p i y).vta) (d1 := ThreePhaseNoVrmsFilter.rhs (envN p i y) .iaR) (d2 := ThreePhaseNoVrmsFilter.rhs (envN p i y) .iaI) hL hG hwp rfl rfl (hx1a.plain hma) (hx2a.plain hma) (hu1a.plain hma) (hu2a.plain hma)
  have Pb := phase_steady (Rf := p.Rf) (W := (envN p i y).winv / p.wbase) (v := i.vb) (vt := (envN p i y).vtb) (d1 := ThreePhaseNoVrmsFilter.rhs (envN p i y) .ibR) (d2 := ThreePhaseNoVrmsFilter.rhs (envN p i y) .ibI) hL hG hwp rfl rfl (hx1b.plain hmb) (hx2b.plain hmb) (hu1b.plain hmb) (hu2b.plain hmb)
  have Pc := phase_steady (Rf := p.Rf) (W := (envN p i y).winv / p.wbase) (v := i.vc) (vt := (envN p i y).vtc) (d1 := ThreePhaseNoVrmsFilter.rhs (envN p i y) .icR) (d2 := ThreePhaseNoVrmsFilter.rhs (envN p i y) .icI) hL hG hwp rfl rfl (hx1c.plain hmc) (hx2c.plain hmc) (hu1c.plain hmc) (hu2c.plain hmc)
  have hq1 : ThreePhaseNoVrmsFilter.rhs (envN p i y) .xQ = 0 ↔ (envN p i y).S_PCC.im = i.Q_ref := gain_steady (neg_ne_zero.2 hQ) (hq.plain hr)
  have ha1 : ThreePhaseNoVrmsFilter.rhs (envN p i y) .xDC = 0 ↔ y .Vdc = i.Vdc_ref := gain_steady hD (hd.plain hr)
  have hdc : ThreePhaseNoVrmsFilter.rhs (envN p i y) .Vdc = 0 ↔ (envN p i y).S.re = (envN p i y).Ppv := (C60_dc_link_all (envN p i y) hV hC _ (Or.inr (Or.inr (Or.inl rfl)))).2.trans eq_comm
  have hp1 : ThreePhaseNoVrmsFilter.rhs (envN p i y) .xPLL = 0 ↔ (envN p i y).vd = 0 := by
    show p.Ki_PLL * (envN p i y).vd = 0 ↔ _
    rw [mul_eq_zero, or_iff_right hP]
  constructor
  · intro h
    exact ⟨Pa.1 ⟨h .iaR (by decide), h .iaI (by decide), h .xaR (by decide), h .xaI (by decide), h .uaR (by decide), h .uaI (by decide)⟩,
      Pb.1 ⟨h .ibR (by decide), h .ibI (by decide), h .xbR (by decide), h .xbI (by decide), h .ubR (by decide), h .ubI (by decide)⟩,
      Pc.1 ⟨h .icR (by decide), h .icI (by decide), h .xcR (by decide), h .xcI (by decide), h .ucR (by decide), h .ucI (by decide)⟩,
      hdc.1 (h .Vdc (by decide)),
      ha1.1 (h .xDC (by decide)),
      hq1.1 (h .xQ (by decide)),
      hp1.1 (h .xPLL (by decide))⟩
  · rintro ⟨ha, hb, hc, kVdc, kxDC, kQ, kL⟩ r hr
    obtain ⟨qa0, qa1, qa2, qa3, qa4, qa5⟩ := Pa.2 ha
    obtain ⟨qb0, qb1, qb2, qb3, qb4, qb5⟩ := Pb.2 hb
    obtain ⟨qc0, qc1, qc2, qc3, qc4, qc5⟩ := Pc.2 hc
    have zVdc := hdc.2 kVdc
    have zxDC := ha1.2 kxDC
    have zQ := hq1.2 kQ
    have zL := hp1.2 kL
    cases r <;> first | assumption | exact absurd rfl hr

/-- C61, three-phase with compiled functions. -/
theorem C61_steady_state_numba (p : Par) (i : Inp) (y : ThreePhaseNumba.V → ℝ)
    (hma : ¬ mSat (envNumba p i y) (envNumba p i y).ua (envNumba p i y).xa) (hmb : ¬ mSat (envNumba p i y) (envNumba p i y).ub (envNumba p i y).xb) (hmc : ¬ mSat (envNumba p i y) (envNumba p i y).uc (envNumba p i y).xc) (hr : ¬ ‖irefD (envNumba p i y)‖ > p.iref_limit)
    (hL : p.Lf ≠ 0) (hG : p.Ki_GCC ≠ 0) (hwp : p.wp ≠ 0) (hQ : p.Ki_Q ≠ 0) (hP : p.Ki_PLL ≠ 0) (hC : p.C ≠ 0) (hV : y .Vdc ≠ 0) (hD : p.Ki_DC ≠ 0) :
    (∀ r, r ≠ .wte → ThreePhaseNumba.rhs (envNumba p i y) r = 0) ↔
      ((envNumba p i y).vta = i.va + ((p.Rf : ℂ) + I * ((p.Lf * ((envNumba p i y).winv / p.wbase) : ℝ) : ℂ)) * (envNumba p i y).ia ∧ (envNumba p i y).ua = 0 ∧ (envNumba p i y).ia = (envNumba p i y).ia_ref) ∧
      ((envNumba p i y).vtb = i.vb + ((p.Rf : ℂ) + I * ((p.Lf * ((envNumba p i y).winv / p.wbase) : ℝ) : ℂ)) * (envNumba p i y).ib ∧ (envNumba p i y).ub = 0 ∧ (envNumba p i y).ib = (envNumba p i y).ib_ref) ∧
      ((envNumba p i y).vtc = i.vc + ((p.Rf : ℂ) + I * ((p.Lf * ((envNumba p i y).winv / p.wbase) : ℝ) : ℂ)) * (envNumba p i y).ic ∧ (envNumba p i y).uc = 0 ∧ (envNumba p i y).ic = (envNumba p i y).ic_ref) ∧
      (envNumba p i y).S.re = (envNumba p i y).Ppv ∧ y .Vdc = i.Vdc_ref ∧ (envNumba p i y).S_PCC.im = i.Q_ref ∧ (envNumba p i y).vd = 0 := by
  obtain ⟨hx1a, hx2a, hu1a, hu2a, hx1b, hx2b, hu1b, hu2b, hx1c, hx2c, hu1c, hu2c, hd, hq⟩ := C57_antiwindup_numba (envNumba p i y)
  have Pa := phase_steady (Rf := p.Rf) (W := (envNumba p i y).winv / p.wbase) (v := i.va) (vt := (envNumba p i y).vta) (d1 := ThreePhaseNumba.rhs (envNumba p i y) .iaR) (d2 := ThreePhaseNumba.rhs (envNumba p i y) .iaI) hL hG hwp rfl rfl (hx1a.plain hma) (hx2a.plain hma) (hu1a.plain hma) (hu2a.plain hma)
  have Pb := phase_steady (Rf := p.Rf) (W := (envNumba p i y).winv / p.wbase) (v := i.vb) (vt := (envNumba p i y).vtb) (d1 := ThreePhaseNumba.rhs (envNumba p i y) .ibR) (d2 := ThreePhaseNumba.rhs (envNumba p i y) .ibI) hL hG hwp rfl rfl (hx1b.plain hmb) (hx2b.plain hmb) (hu1b.plain hmb) (hu2b.plain hmb)
  have Pc := phase_steady (Rf := p.Rf) (W := (envNumba p i y).winv / p.wbase) (v := i.vc) (vt := (envNumba p i y).vtc) (d1 := ThreePhaseNumba.rhs (envNumba p i y) .icR) (d2 := ThreePhaseNumba.rhs (envNumba p i y) .icI) hL hG hwp rfl rfl (hx1c.plain hmc) (hx2c.plain hmc) (hu1c.plain hmc) (hu2c.plain hmc)
  have hq1 : ThreePhaseNumba.rhs (envNumba p i y) .xQ = 0 ↔ (envNumba p i y).S_PCC.im = i.Q_ref := gain_steady (neg_ne_zero.2 hQ) (hq.plain hr)
  have ha1 : ThreePhaseNumba.rhs (envNumba p i y) .xDC = 0 ↔ y .Vdc = i.Vdc_ref := gain_steady hD (hd.plain hr)
  have hdc : ThreePhaseNumba.rhs (envNumba p i y) .Vdc = 0 ↔ (envNumba p i y).S.re = (envNumba p i y).Ppv := (C60_dc_link_all (envNumba p i y) hV hC _ (Or.inr (Or.inr (Or.inr (Or.inl rfl))))).2.trans eq_comm
  have hp1 : ThreePhaseNumba.rhs (envNumba p i y) .xPLL = 0 ↔ (envNumba p i y).vd = 0 := by
    show p.Ki_PLL * (envNumba p i y).vd = 0 ↔ _
    rw [mul_eq_zero, or_iff_right hP]
  constructor
  · intro h
    exact ⟨Pa.1 ⟨h .iaR (by decide), h .iaI (by decide), h .xaR (by decide), h .xaI (by decide), h .uaR (by decide), h .uaI (by decide)⟩,
      Pb.1 ⟨h .ibR (by decide), h .ibI (by decide), h .xbR (by decide), h .xbI (by decide), h .ubR (by decide), h .ubI (by decide)⟩,
      Pc.1 ⟨h .icR (by decide), h .icI (by decide), h .xcR (by decide), h .xcI (by decide), h .ucR (by decide), h .ucI (by decide)⟩,
      hdc.1 (h .Vdc (by decide)),
      ha1.1 (h .xDC (by decide)),
      hq1.1 (h .xQ (by decide)),
      hp1.1 (h .xPLL (by decide))⟩
  · rintro ⟨ha, hb, hc, kVdc, kxDC, kQ, kL⟩ r hr
    obtain ⟨qa0, qa1, qa2, qa3, qa4, qa5⟩ := Pa.2 ha
    obtain ⟨qb0, qb1, qb2, qb3, qb4, qb5⟩ := Pb.2 hb
    obtain ⟨qc0, qc1, qc2, qc3, qc4, qc5⟩ := Pc.2 hc
    have zVdc := hdc.2 kVdc
    have zxDC := ha1.2 kxDC
    have zQ := hq1.2 kQ
    have zL := hp1.2 kL
    cases r <;> first | assumption | exact absurd rfl hr

/-- C61, balanced three-phase. -/
theorem C61_steady_state_balanced (p : Par) (i : Inp) (y : ThreePhaseBalanced.V → ℝ)
    (hma : ¬ mSat (envB p i y) (envB p i y).ua (envB p i y).xa) (hr : ¬ ‖irefD (envB p i y)‖ > p.iref_limit)
    (hL : p.Lf ≠ 0) (hG : p.Ki_GCC ≠ 0) (hwp : p.wp ≠ 0) (hQ : p.Ki_Q ≠ 0) (hP : p.Ki_PLL ≠ 0) (hC : p.C ≠ 0) (hV : y .Vdc ≠ 0) (hD : p.Ki_DC ≠ 0) :
    (∀ r, r ≠ .wte → ThreePhaseBalanced.rhs (envB p i y) r = 0) ↔
      ((envB p i y).vta = i.va + ((p.Rf : ℂ) + I * ((p.Lf * ((envB p i y).winv / p.wbase) : ℝ) : ℂ)) * (envB p i y).ia ∧ (envB p i y).ua = 0 ∧ (envB p i y).ia = (envB p i y).ia_ref) ∧
      (envB p i y).S.re = (envB p i y).Ppv ∧ y .Vdc = i.Vdc_ref ∧ (envB p i y).S_PCC.im = i.Q_ref ∧ (envB p i y).vd = 0 := by
  obtain ⟨hx1a, hx2a, hu1a, hu2a, hd, hq⟩ := C57_antiwindup_balanced (envB p i y)
  have Pa := phase_steady (Rf := p.Rf) (W := (envB p i y).winv / p.wbase) (v := i.va) (vt := (envB p i y).vta) (d1 := ThreePhaseBalanced.rhs (envB p i y) .iaR) (d2 := ThreePhaseBalanced.rhs (envB p i y) .iaI) hL hG hwp rfl rfl (hx1a.plain hma) (hx2a.plain hma) (hu1a.plain hma) (hu2a.plain hma)
  have hq1 : ThreePhaseBalanced.rhs (envB p i y) .xQ = 0 ↔ (envB p i y).S_PCC.im = i.Q_ref := gain_steady (neg_ne_zero.2 hQ) (hq.plain hr)
  have ha1 : ThreePhaseBalanced.rhs (envB p i y) .xDC = 0 ↔ y .Vdc = i.Vdc_ref := gain_steady hD (hd.plain hr)
  have hdc : ThreePhaseBalanced.rhs (envB p i y) .Vdc = 0 ↔ (envB p i y).S.re = (envB p i y).Ppv := (C60_dc_link_all (envB p i y) hV hC _ (Or.inr (Or.inr (Or.inr (Or.inr rfl))))).2.trans eq_comm
  have hp1 : ThreePhaseBalanced.rhs (envB p i y) .xPLL = 0 ↔ (envB p i y).vd = 0 := by
    show p.Ki_PLL * (envB p i y).vd = 0 ↔ _
    rw [mul_eq_zero, or_iff_right hP]
  constructor
  · intro h
    exact ⟨Pa.1 ⟨h .iaR (by decide), h .iaI (by decide), h .xaR (by decide), h .xaI (by decide), h .uaR (by decide), h .uaI (by decide)⟩,
      hdc.1 (h .Vdc (by decide)),
      ha1.1 (h .xDC (by decide)),
      hq1.1 (h .xQ (by decide)),
      hp1.1 (h .xPLL (by decide))⟩
  · rintro ⟨ha, kVdc, kxDC, kQ, kL⟩ r hr
    obtain ⟨qa0, qa1, qa2, qa3, qa4, qa5⟩ := Pa.2 ha
    have zVdc := hdc.2 kVdc
    have zxDC := ha1.2 kxDC
    have zQ := hq1.2 kQ
    have zL := hp1.2 kL
    cases r <;> first | assumption | exact absurd rfl hr

/-- C61, single-phase with constant DC voltage: the DC power balance is kept by the active power controller. -/
theorem C61_steady_state_single_constant_vdc (p : Par) (i : Inp) (y : SinglePhaseConstantVdc.V → ℝ)
    (hma : ¬ mSat (envC1 p i y) (envC1 p i y).ua (envC1 p i y).xa) (hr : ¬ ‖irefP (envC1 p i y)‖ > p.iref_limit)
    (hL : p.Lf ≠ 0) (hG : p.Ki_GCC ≠ 0) (hwp : p.wp ≠ 0) (hQ : p.Ki_Q ≠ 0) (hP : p.Ki_PLL ≠ 0) (hA : p.Ki_P ≠ 0) :
    (∀ r, r ≠ .wte → SinglePhaseConstantVdc.rhs (envC1 p i y) r = 0) ↔
      ((envC1 p i y).vta = i.va + ((p.Rf : ℂ) + I * ((p.Lf * ((envC1 p i y).winv / p.wbase) : ℝ) : ℂ)) * (envC1 p i y).ia ∧ (envC1 p i y).ua = 0 ∧ (envC1 p i y).ia = (envC1 p i y).ia_ref) ∧
      (envC1 p i y).S.re = (envC1 p i y).Ppv ∧ (envC1 p i y).S_PCC.im = i.Q_ref ∧ (envC1 p i y).vd = 0 := by
  obtain ⟨hx1a, hx2a, hu1a, hu2a, hd, hq⟩ := C57_antiwindup_single_phase_constant_vdc (envC1 p i y)
  have Pa := phase_steady (Rf := p.Rf) (W := (envC1 p i y).winv / p.wbase) (v := i.va) (vt := (envC1 p i y).vta) (d1 := SinglePhaseConstantVdc.rhs (envC1 p i y) .iaR) (d2 := SinglePhaseConstantVdc.rhs (envC1 p i y) .iaI) hL hG hwp rfl rfl (hx1a.plain hma) (hx2a.plain hma) (hu1a.plain hma) (hu2a.plain hma)
  have hq1 : SinglePhaseConstantVdc.rhs (envC1 p i y) .xQ = 0 ↔ (envC1 p i y).S_PCC.im = i.Q_ref := gain_steady (neg_ne_zero.2 hQ) (hq.plain hr)
  have ha1 : SinglePhaseConstantVdc.rhs (envC1 p i y) .xP = 0 ↔ (envC1 p i y).S.re = (envC1 p i y).Ppv := gain_steady hA (hd.plain hr)
  have hp1 : SinglePhaseConstantVdc.rhs (envC1 p i y) .xPLL = 0 ↔ (envC1 p i y).vd = 0 := by
    show p.Ki_PLL * (envC1 p i y).vd = 0 ↔ _
    rw [mul_eq_zero, or_iff_right hP]
  constructor
  · intro h
    exact ⟨Pa.1 ⟨h .iaR (by decide), h .iaI (by decide), h .xaR (by decide), h .xaI (by decide), h .uaR (by decide), h .uaI (by decide)⟩,
      ha1.1 (h .xP (by decide)),
      hq1.1 (h .xQ (by decide)),
      hp1.1 (h .xPLL (by decide))⟩
  · rintro ⟨ha, kxP, kQ, kL⟩ r hr
    obtain ⟨qa0, qa1, qa2, qa3, qa4, qa5⟩ := Pa.2 ha
    have zxP := ha1.2 kxP
    have zQ := hq1.2 kQ
    have zL := hp1.2 kL
    cases r <;> first | assumption | exact absurd rfl hr

/-- C61, three-phase with constant DC voltage. -/
theorem C61_steady_state_three_constant_vdc (p : Par) (i : Inp) (y : ThreePhaseConstantVdc.V → ℝ)
    (hma : ¬ mSat (envC3 p i y) (envC3 p i y).ua (envC3 p i y).xa) (hmb : ¬ mSat (envC3 p i y) (envC3 p i y).ub (envC3 p i y).xb) (hmc : ¬ mSat (envC3 p i y) (envC3 p i y).uc (envC3 p i y).xc) (hr : ¬ ‖irefP (envC3 p i y)‖ > p.iref_limit)
    (hL : p.Lf ≠ 0) (hG : p.Ki_GCC ≠ 0) (hwp : p.wp ≠ 0) (hQ : p.Ki_Q ≠ 0) (hP : p.Ki_PLL ≠ 0) (hA : p.Ki_P ≠ 0) :
    (∀ r, r ≠ .wte → ThreePhaseConstantVdc.rhs (envC3 p i y) r = 0) ↔
      ((envC3 p i y).vta = i.va + ((p.Rf : ℂ) + I * ((p.Lf * ((envC3 p i y).winv / p.wbase) : ℝ) : ℂ)) * (envC3 p i y).ia ∧ (envC3 p i y).ua = 0 ∧ (envC3 p i y).ia = (envC3 p i y).ia_ref) ∧
      ((envC3 p i y).vtb = i.vb + ((p.Rf : ℂ) + I * ((p.Lf * ((envC3 p i y).winv / p.wbase) : ℝ) : ℂ)) * (envC3 p i y).ib ∧ (envC3 p i y).ub = 0 ∧ (envC3 p i y).ib = (envC3 p i y).ib_ref) ∧
      ((envC3 p i y).vtc = i.vc + ((p.Rf : ℂ) + I * ((p.Lf * ((envC3 p i y).winv / p.wbase) : ℝ) : ℂ)) * (envC3 p i y).ic ∧ (envC3 p i y).uc = 0 ∧ (envC3 p i y).ic = (envC3 p i y).ic_ref) ∧
      (envC3 p i y).S.re = (envC3 p i y).Ppv ∧ (envC3 p i y).S_PCC.im = i.Q_ref ∧ (envC3 p i y).vd = 0 := by
  obtain ⟨hx1a, hx2a, hu1a, hu2a, hx1b, hx2b, hu1b, hu2b, hx1c, hx2c, hu1c, hu2c, hd, hq⟩ := C57_antiwindup_three_phase_constant_vdc (envC3 p i y)
  have Pa := phase_steady (Rf := p.Rf) (W := (envC3 p i y).winv / p.wbase) (v := i.va) (vt := (envC3 p i y).vta) (d1 := ThreePhaseConstantVdc.rhs (envC3 p i y) .iaR) (d2 := ThreePhaseConstantVdc.rhs (envC3 p i y) .iaI) hL hG hwp rfl rfl (hx1a.plain hma) (hx2a.plain hma) (hu1a.plain hma) (hu2a.plain hma)
  have Pb := phase_steady (Rf := p.Rf) (W := (envC3 p i y).winv / p.wbase) (v := i.vb) (vt := (envC3 p i y).vtb) (d1 := ThreePhaseConstantVdc.rhs (envC3 p i y) .ibR) (d2 := ThreePhaseConstantVdc.rhs (envC3 p i y) .ibI) hL hG hwp rfl rfl (hx1b.plain hmb) (hx2b.plain hmb) (hu1b.plain hmb) (hu2b.plain hmb)
  have Pc := phase_steady (Rf := p.Rf) (W := (envC3 p i y).winv / p.wbase) (v := i.vc) (vt := (envC3 p i y).vtc) (d1 := ThreePhaseConstantVdc.rhs (envC3 p i y) .icR) (d2 := ThreePhaseConstantVdc.rhs (envC3 p i y) .icI) hL hG hwp rfl rfl (hx1c.plain hmc) (hx2c.plain hmc) (hu1c.plain hmc) (hu2c.plain hmc)
  have hq1 : ThreePhaseConstantVdc.rhs (envC3 p i y) .xQ = 0 ↔ (envC3 p i y).S_PCC.im = i.Q_ref := gain_steady (neg_ne_zero.2 hQ) (hq.plain hr)
  have ha1 : ThreePhaseConstantVdc.rhs (envC3 p i y) .xP = 0 ↔ (envC3 p i y).S.re = (envC3 p i y).Ppv := gain_steady hA (hd.plain hr)
  have hp1 : ThreePhaseConstantVdc.rhs (envC3 p i y) .xPLL = 0 ↔ (envC3 p i y).vd = 0 := by
    show p.Ki_PLL * (envC3 p i y).vd = 0 ↔ _
    rw [mul_eq_zero, or_iff_right hP]
  constructor
  · intro h
    exact ⟨Pa.1 ⟨h .iaR (by decide), h .iaI (by decide), h .xaR (by decide), h .xaI (by decide), h .uaR (by decide), h .uaI (by decide)⟩,
      Pb.1 ⟨h .ibR (by decide), h .ibI (by decide), h .xbR (by decide), h .xbI (by decide), h .ubR (by decide), h .ubI (by decide)⟩,
      Pc.1 ⟨h .icR (by decide), h .icI (by decide), h .xcR (by decide), h .xcI (by decide), h .ucR (by decide), h .ucI (by decide)⟩,
      ha1.1 (h .xP (by decide)),
      hq1.1 (h .xQ (by decide)),
      hp1.1 (h .xPLL (by decide))⟩
  · rintro ⟨ha, hb, hc, kxP, kQ, kL⟩ r hr
    obtain ⟨qa0, qa1, qa2, qa3, qa4, qa5⟩ := Pa.2 ha
    obtain ⟨qb0, qb1, qb2, qb3, qb4, qb5⟩ := Pb.2 hb
    obtain ⟨qc0, qc1, qc2, qc3, qc4, qc5⟩ := Pc.2 hc
    have zxP := ha1.2 kxP
    have zQ := hq1.2 kQ
    have zL := hp1.2 kL
    cases r <;> first | assumption | exact absurd rfl hr

/-- The PLL states of a solution that keeps the integrator constant under a constant voltage: the frequency is that of the grid. -/
theorem lock_core {Kp Ki w : ℝ} {v : ℂ} {x wte : ℝ → ℝ} (hv : v ≠ 0) (hP : Ki ≠ 0)
    (h1 : ∀ t, HasDerivAt x (Ki * (pll1 v w t (wte t)).1) t) (h2 : ∀ t, HasDerivAt wte (weCalc Kp (pll1 v w t (wte t)).1 (x t)) t)
    (hc : ∀ t, x t = x 0) : x 0 = w - 2 * Real.pi * 60 ∧ ∀ t, weCalc Kp (pll1 v w t (wte t)).1 (x t) = w := by
  have hvd : ∀ t, (pll1 v w t (wte t)).1 = 0 := by
    intro t
    have h3 : HasDerivAt x 0 t := by
      have : x = fun _ => x 0 := by funext s; exact hc s
      rw [this]; exact hasDerivAt_const _ _
    exact (mul_eq_zero.1 ((h1 t).unique h3)).resolve_left hP
  have hwe : ∀ t, HasDerivAt wte (x 0 + 2 * Real.pi * 60) t := by
    intro t
    refine (h2 t).congr_deriv ?_
    rw [hvd t, hc t, weCalc]; ring
  have haff : ∀ t, wte t = wte 0 + (x 0 + 2 * Real.pi * 60) * t := by
    intro t
    have hd : ∀ s, HasDerivAt (fun s => wte s - (x 0 + 2 * Real.pi * 60) * s) 0 s := by
      intro s
      have := (hwe s).sub ((hasDerivAt_id' s).const_mul (x 0 + 2 * Real.pi * 60))
      refine this.congr_deriv ?_
      ring
    have hcst := is_const_of_deriv_eq_zero (fun s => (hd s).differentiableAt) (fun s => (hd s).deriv) t 0
    simp only [mul_zero, sub_zero] at hcst
    linarith
  have hs : ∀ t : ℝ, Real.sin ((w - (x 0 + 2 * Real.pi * 60)) * t + (arg v - wte 0)) = 0 := by
    intro t
    have h1 := hvd t
    rw [C53_pll_input, haff t] at h1
    have h2 := (mul_eq_zero.1 h1).resolve_left (norm_ne_zero_iff.2 hv)
    refine Eq.trans ?_ h2; congr 1; ring
  have h0 := sin_all_zero hs
  refine ⟨by linarith, fun t => ?_⟩
  rw [hvd t, hc t, weCalc]; linarith

/-- C61, frequency, three-phase under balanced voltages. -/
theorem C61_frequency_lock_three (p : Par) (inp : ℝ → Inp) (Y : ℝ → ThreePhase.V → ℝ) (v : ℂ) (w : ℝ) (hin : ∀ t, (inp t).va = v ∧ (inp t).w = w ∧ (inp t).t = t ∧ (inp t).vb = Phasor.ub v ∧ (inp t).vc = Phasor.uc v)
    (hv : v ≠ 0) (hP : p.Ki_PLL ≠ 0) (h : ∀ t, Solves (fun t y => ThreePhase.rhs (envT p (inp t) y)) Y t)
    (hc : ∀ t r, r ≠ .wte → Y t r = Y 0 r) :
    Y 0 .xPLL = w - 2 * Real.pi * 60 ∧ ∀ t, (envT p (inp t) (Y t)).winv = w := by
  have hd : ∀ t, (envT p (inp t) (Y t)).vd = (pll1 v w t (Y t .wte)).1 := by
    intro t
    show (pll3 (inp t).va (inp t).vb (inp t).vc (inp t).w (inp t).t (Y t .wte)).1 = _
    rw [(hin t).2.2.2.1, (hin t).2.2.2.2, (hin t).1, (hin t).2.1, (hin t).2.2.1, C53_pll_three_phase]
  obtain ⟨a, b⟩ := lock_core (Kp := p.Kp_PLL) (x := fun t => Y t .xPLL) (wte := fun t => Y t .wte) (w := w) hv hP
    (fun t => (h t .xPLL).congr_deriv (by show p.Ki_PLL * (envT p (inp t) (Y t)).vd = _; rw [hd t]))
    (fun t => (h t .wte).congr_deriv (by show weCalc p.Kp_PLL (envT p (inp t) (Y t)).vd (Y t .xPLL) = _; rw [hd t])) (fun t => hc t .xPLL (by decide))
  refine ⟨a, fun t => ?_⟩
  show weCalc p.Kp_PLL (envT p (inp t) (Y t)).vd (Y t .xPLL) = _
  rw [hd t]; exact b t

/-- C61, frequency, three-phase without RMS filter, under balanced voltages. -/
theorem C61_frequency_lock_no_filter (p : Par) (inp : ℝ → Inp) (Y : ℝ → ThreePhaseNoVrmsFilter.V → ℝ) (v : ℂ) (w : ℝ) (hin : ∀ t, (inp t).va = v ∧ (inp t).w = w ∧ (inp t).t = t ∧ (inp t).vb = Phasor.ub v ∧ (inp t).vc = Phasor.uc v)
    (hv : v ≠ 0) (hP : p.Ki_PLL ≠ 0) (h : ∀ t, Solves (fun t y => ThreePhaseNoVrmsFilter.rhs (envN p (inp t) y)) Y t)
    (hc : ∀ t r, r ≠ .wte → Y t r = Y 0 r) :
    Y 0 .xPLL = w - 2 * Real.pi * 60 ∧ ∀ t, (envN p (inp t) (Y t)).winv = w := by
  have hd : ∀ t, (envN p (inp t) (Y t)).vd = (pll1 v w t (Y t .wte)).1 := by
    intro t
    show (pll3 (inp t).va (inp t).vb (inp t).vc (inp t).w (inp t).t (Y t .wte)).1 = _
    rw [(hin t).2.2.2.1, (hin t).2.2.2.2, (hin t).1, (hin t).2.1, (hin t).2.2.1, C53_pll_three_phase]
  obtain ⟨a, b⟩ := lock_core (Kp := p.Kp_PLL) (x := fun t => Y t .xPLL) (wte := fun t => Y t .wte) (w := w) hv hP
    (fun t => (h t .xPLL).congr_deriv (by show p.Ki_PLL * (envN p (inp t) (Y t)).vd = _; rw [hd t]))
    (fun t => (h t .wte).congr_deriv (by show weCalc p.Kp_PLL (envN p (inp t) (Y t)).vd (Y t .xPLL) = _; rw [hd t])) (fun t => hc t .xPLL (by decide))
  refine ⟨a, fun t => ?_⟩
  show weCalc p.Kp_PLL (envN p (inp t) (Y t)).vd (Y t .xPLL) = _
  rw [hd t]; exact b t

/-- C61, frequency, compiled functions, under balanced voltages. -/
theorem C61_frequency_lock_numba (p : Par) (inp : ℝ → Inp) (Y : ℝ → ThreePhaseNumba.V → ℝ) (v : ℂ) (w : ℝ) (hin : ∀ t, (inp t).va = v ∧ (inp t).w = w ∧ (inp t).t = t ∧ (inp t).vb = Phasor.ub v ∧ (inp t).vc = Phasor.uc v)
    (hv : v ≠ 0) (hP : p.Ki_PLL ≠ 0) (h : ∀ t, Solves (fun t y => ThreePhaseNumba.rhs (envNumba p (inp t) y)) Y t)
    (hc : ∀ t r, r ≠ .wte → Y t r = Y 0 r) :
    Y 0 .xPLL = w - 2 * Real.pi * 60 ∧ ∀ t, (envNumba p (inp t) (Y t)).winv = w := by
  have hd : ∀ t, (envNumba p (inp t) (Y t)).vd = (pll1 v w t (Y t .wte)).1 := by
    intro t
    show (pll3 (inp t).va (inp t).vb (inp t).vc (inp t).w (inp t).t (Y t .wte)).1 = _
    rw [(hin t).2.2.2.1, (hin t).2.2.2.2, (hin t).1, (hin t).2.1, (hin t).2.2.1, C53_pll_three_phase]
  obtain ⟨a, b⟩ := lock_core (Kp := p.Kp_PLL) (x := fun t => Y t .xPLL) (wte := fun t => Y t .wte) (w := w) hv hP
    (fun t => (h t .xPLL).congr_deriv (by show p.Ki_PLL * (envNumba p (inp t) (Y t)).vd = _; rw [hd t]))
    (fun t => (h t .wte).congr_deriv (by show weCalc p.Kp_PLL (envNumba p (inp t) (Y t)).vd (Y t .xPLL) = _; rw [hd t])) (fun t => hc t .xPLL (by decide))
  refine ⟨a, fun t => ?_⟩
  show weCalc p.Kp_PLL (envNumba p (inp t) (Y t)).vd (Y t .xPLL) = _
  rw [hd t]; exact b t

/-- C61, frequency, balanced class. -/
theorem C61_frequency_lock_balanced (p : Par) (inp : ℝ → Inp) (Y : ℝ → ThreePhaseBalanced.V → ℝ) (v : ℂ) (w : ℝ) (hin : ∀ t, (inp t).va = v ∧ (inp t).w = w ∧ (inp t).t = t)
    (hv : v ≠ 0) (hP : p.Ki_PLL ≠ 0) (h : ∀ t, Solves (fun t y => ThreePhaseBalanced.rhs (envB p (inp t) y)) Y t)
    (hc : ∀ t r, r ≠ .wte → Y t r = Y 0 r) :
    Y 0 .xPLL = w - 2 * Real.pi * 60 ∧ ∀ t, (envB p (inp t) (Y t)).winv = w := by
  have hd : ∀ t, (envB p (inp t) (Y t)).vd = (pll1 v w t (Y t .wte)).1 := by
    intro t
    show (pll3 (inp t).va (Phasor.ub (inp t).va) (Phasor.uc (inp t).va) (inp t).w (inp t).t (Y t .wte)).1 = _
    rw [(hin t).1, (hin t).2.1, (hin t).2.2, C53_pll_three_phase]
  obtain ⟨a, b⟩ := lock_core (Kp := p.Kp_PLL) (x := fun t => Y t .xPLL) (wte := fun t => Y t .wte) (w := w) hv hP
    (fun t => (h t .xPLL).congr_deriv (by show p.Ki_PLL * (envB p (inp t) (Y t)).vd = _; rw [hd t]))
    (fun t => (h t .wte).congr_deriv (by show weCalc p.Kp_PLL (envB p (inp t) (Y t)).vd (Y t .xPLL) = _; rw [hd t])) (fun t => hc t .xPLL (by decide))
  refine ⟨a, fun t => ?_⟩
  show weCalc p.Kp_PLL (envB p (inp t) (Y t)).vd (Y t .xPLL) = _
  rw [hd t]; exact b t

/-- C61, frequency, single-phase with constant DC voltage. -/
theorem C61_frequency_lock_single_constant_vdc (p : Par) (inp : ℝ → Inp) (Y : ℝ → SinglePhaseConstantVdc.V → ℝ) (v : ℂ) (w : ℝ) (hin : ∀ t, (inp t).va = v ∧ (inp t).w = w ∧ (inp t).t = t)
    (hv : v ≠ 0) (hP : p.Ki_PLL ≠ 0) (h : ∀ t, Solves (fun t y => SinglePhaseConstantVdc.rhs (envC1 p (inp t) y)) Y t)
    (hc : ∀ t r, r ≠ .wte → Y t r = Y 0 r) :
    Y 0 .xPLL = w - 2 * Real.pi * 60 ∧ ∀ t, (envC1 p (inp t) (Y t)).winv = w := by
  have hd : ∀ t, (envC1 p (inp t) (Y t)).vd = (pll1 v w t (Y t .wte)).1 := by
    intro t
    show (pll1 (inp t).va (inp t).w (inp t).t (Y t .wte)).1 = _
    rw [(hin t).1, (hin t).2.1, (hin t).2.2]
  obtain ⟨a, b⟩ := lock_core (Kp := p.Kp_PLL) (x := fun t => Y t .xPLL) (wte := fun t => Y t .wte) (w := w) hv hP
    (fun t => (h t .xPLL).congr_deriv (by show p.Ki_PLL * (envC1 p (inp t) (Y t)).vd = _; rw [hd t]))
    (fun t => (h t .wte).congr_deriv (by show weCalc p.Kp_PLL (envC1 p (inp t) (Y t)).vd (Y t .xPLL) = _; rw [hd t])) (fun t => hc t .xPLL (by decide))
  refine ⟨a, fun t => ?_⟩
  show weCalc p.Kp_PLL (envC1 p (inp t) (Y t)).vd (Y t .xPLL) = _
  rw [hd t]; exact b t

/-- C61, frequency, three-phase with constant DC voltage, under balanced voltages. -/
theorem C61_frequency_lock_three_constant_vdc (p : Par) (inp : ℝ → Inp) (Y : ℝ → ThreePhaseConstantVdc.V → ℝ) (v : ℂ) (w : ℝ) (hin : ∀ t, (inp t).va = v ∧ (inp t).w = w ∧ (inp t).t = t ∧ (inp t).vb = Phasor.ub v ∧ (inp t).vc = Phasor.uc v)
    (hv : v ≠ 0) (hP : p.Ki_PLL ≠ 0) (h : ∀ t, Solves (fun t y => ThreePhaseConstantVdc.rhs (envC3 p (inp t) y)) Y t)
    (hc : ∀ t r, r ≠ .wte → Y t r = Y 0 r) :
    Y 0 .xPLL = w - 2 * Real.pi * 60 ∧ ∀ t, (envC3 p (inp t) (Y t)).winv = w := by
  have hd : ∀ t, (envC3 p (inp t) (Y t)).vd = (pll1 v w t (Y t .wte)).1 := by
    intro t
    show (pll3 (inp t).va (inp t).vb (inp t).vc (inp t).w (inp t).t (Y t .wte)).1 = _
    rw [(hin t).2.2.2.1, (hin t).2.2.2.2, (hin t).1, (hin t).2.1, (hin t).2.2.1, C53_pll_three_phase]
  obtain ⟨a, b⟩ := lock_core (Kp := p.Kp_PLL) (x := fun t => Y t .xPLL) (wte := fun t => Y t .wte) (w := w) hv hP
    (fun t => (h t .xPLL).congr_deriv (by show p.Ki_PLL * (envC3 p (inp t) (Y t)).vd = _; rw [hd t]))
    (fun t => (h t .wte).congr_deriv (by show weCalc p.Kp_PLL (envC3 p (inp t) (Y t)).vd (Y t .xPLL) = _; rw [hd t])) (fun t => hc t .xPLL (by decide))
  refine ⟨a, fun t => ?_⟩
  show weCalc p.Kp_PLL (envC3 p (inp t) (Y t)).vd (Y t .xPLL) = _
  rw [hd t]; exact b t

end Ode
end PvDer
