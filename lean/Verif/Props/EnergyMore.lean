import Verif.Props.OdeProps
/-!
# C60 and C78 for the remaining classes
-/
namespace PvDer
namespace Ode
open Complex Phasor

/-- The energy of a filter inductor and its power balance, for one phase. -/
theorem phase_energy {Lf Rf W : ℝ} (hL : Lf ≠ 0) {x y : ℝ → ℝ} {dx dy t : ℝ} {v vt : ℂ} (hx : HasDerivAt x dx t) (hy : HasDerivAt y dy t)
    (e1 : dx = 1 / Lf * (-Rf * x t - v.re + vt.re) + W * y t) (e2 : dy = 1 / Lf * (-Rf * y t - v.im + vt.im) - W * x t) :
    HasDerivAt (fun s => Lf / 4 * (x s ^ 2 + y s ^ 2)) ((sPh vt ⟨x t, y t⟩).re - (sPh v ⟨x t, y t⟩).re - Rf / 2 * (x t ^ 2 + y t ^ 2)) t := by
  have h := (((hx.pow 2).add (hy.pow 2)).const_mul (Lf / 4))
  refine h.congr_deriv ?_
  rw [e1, e2, sPh_re, sPh_re]
  norm_num
  field_simp
  ring

/-- The energy of the DC link capacitor. -/
theorem link_energy {C P S : ℝ} (hC : C ≠ 0) {V : ℝ → ℝ} {d t : ℝ} (hV : V t ≠ 0) (h : HasDerivAt V d t) (e : C * V t * d = P - S) :
    HasDerivAt (fun s => C * V s ^ 2 / 2) (P - S) t ∧ (HasDerivAt V 0 t ↔ P = S) := by
  constructor
  · have := ((h.pow 2).const_mul C).div_const 2
    refine this.congr_deriv ?_
    rw [← e]; norm_num; ring
  · constructor
    · intro h0
      have := h.unique h0
      rw [this, mul_zero] at e; linarith
    · intro hp
      have : d = 0 := by
        have h2 : C * V t * d = 0 := by rw [e, hp, sub_self]
        exact (mul_eq_zero.1 h2).resolve_left (mul_ne_zero hC hV)
      rw [← this]; exact h

/-- In the balanced class the terminal voltages of phases b and c are those of phase a, turned. -/
theorem balanced_terminal (p : Par) (i : Inp) (y : ThreePhaseBalanced.V → ℝ) : (envB p i y).vtb = Phasor.ub (envB p i y).vta ∧ (envB p i y).vtc = Phasor.uc (envB p i y).vta := by
  constructor
  · show vtOf p (Phasor.ub _) (Phasor.ub _) (y .Vdc) = Phasor.ub (vtOf p _ _ (y .Vdc))
    simp only [vtOf, duty, Phasor.ub]; ring
  · show vtOf p (Phasor.uc _) (Phasor.uc _) (y .Vdc) = Phasor.uc (vtOf p _ _ (y .Vdc))
    simp only [vtOf, duty, Phasor.uc]; ring

/-- C60, three-phase without RMS filter. -/
theorem C60_dc_link_no_filter (p : Par) (inp : ℝ → Inp) (Y : ℝ → ThreePhaseNoVrmsFilter.V → ℝ) (t : ℝ)
    (h : Solves (fun t y => ThreePhaseNoVrmsFilter.rhs (envN p (inp t) y)) Y t) (hV : Y t .Vdc ≠ 0) (hC : p.C ≠ 0) :
    HasDerivAt (fun s => p.C * Y s .Vdc ^ 2 / 2) ((envN p (inp t) (Y t)).Ppv - (envN p (inp t) (Y t)).S.re) t ∧
      (HasDerivAt (fun s => Y s .Vdc) 0 t ↔ (envN p (inp t) (Y t)).Ppv = (envN p (inp t) (Y t)).S.re) :=
  link_energy hC hV (h .Vdc) (C60_dc_link_all (envN p (inp t) (Y t)) hV hC _ (Or.inr (Or.inr (Or.inl rfl)))).1

/-- C78, three-phase without RMS filter. -/
theorem C78_energy_no_filter (p : Par) (inp : ℝ → Inp) (Y : ℝ → ThreePhaseNoVrmsFilter.V → ℝ) (t : ℝ)
    (h : Solves (fun t y => ThreePhaseNoVrmsFilter.rhs (envN p (inp t) y)) Y t) (hV : Y t .Vdc ≠ 0) (hC : p.C ≠ 0) (hL : p.Lf ≠ 0) :
    HasDerivAt (fun s => p.C * Y s .Vdc ^ 2 / 2 + (p.Lf / 4 * ((Y s .iaR ^ 2 + Y s .iaI ^ 2) + (Y s .ibR ^ 2 + Y s .ibI ^ 2) + (Y s .icR ^ 2 + Y s .icI ^ 2))))
      ((envN p (inp t) (Y t)).Ppv - (envN p (inp t) (Y t)).S_PCC.re - (p.Rf / 2 * ((Y t .iaR ^ 2 + Y t .iaI ^ 2) + (Y t .ibR ^ 2 + Y t .ibI ^ 2) + (Y t .icR ^ 2 + Y t .icI ^ 2)))) t := by
  have ka := phase_energy (Lf := p.Lf) (Rf := p.Rf) (W := (envN p (inp t) (Y t)).winv / p.wbase) (v := (inp t).va) (vt := (envN p (inp t) (Y t)).vta) hL (h .iaR) (h .iaI) rfl rfl
  have kb := phase_energy (Lf := p.Lf) (Rf := p.Rf) (W := (envN p (inp t) (Y t)).winv / p.wbase) (v := (inp t).vb) (vt := (envN p (inp t) (Y t)).vtb) hL (h .ibR) (h .ibI) rfl rfl
  have kc := phase_energy (Lf := p.Lf) (Rf := p.Rf) (W := (envN p (inp t) (Y t)).winv / p.wbase) (v := (inp t).vc) (vt := (envN p (inp t) (Y t)).vtc) hL (h .icR) (h .icI) rfl rfl
  have e1 : (envN p (inp t) (Y t)).S.re = (sPh (envN p (inp t) (Y t)).vta ⟨Y t .iaR, Y t .iaI⟩).re + (sPh (envN p (inp t) (Y t)).vtb ⟨Y t .ibR, Y t .ibI⟩).re + (sPh (envN p (inp t) (Y t)).vtc ⟨Y t .icR, Y t .icI⟩).re := by
    have e : (envN p (inp t) (Y t)).S = sCalc (envN p (inp t) (Y t)).vta (envN p (inp t) (Y t)).vtb (envN p (inp t) (Y t)).vtc ⟨Y t .iaR, Y t .iaI⟩ ⟨Y t .ibR, Y t .ibI⟩ ⟨Y t .icR, Y t .icI⟩ := rfl
    rw [e, sCalc_re, sPh_re, sPh_re, sPh_re]; ring
  have e2 : (envN p (inp t) (Y t)).S_PCC.re = (sPh (inp t).va ⟨Y t .iaR, Y t .iaI⟩).re + (sPh (inp t).vb ⟨Y t .ibR, Y t .ibI⟩).re + (sPh (inp t).vc ⟨Y t .icR, Y t .icI⟩).re := by
    have e : (envN p (inp t) (Y t)).S_PCC = sCalc (inp t).va (inp t).vb (inp t).vc ⟨Y t .iaR, Y t .iaI⟩ ⟨Y t .ibR, Y t .ibI⟩ ⟨Y t .icR, Y t .icI⟩ := rfl
    rw [e, sCalc_re, sPh_re, sPh_re, sPh_re]; ring
  have hd := (C60_dc_link_no_filter p inp Y t h hV hC).1
  have hs := (hd.add ((ka.add kb).add kc))
  refine HasDerivAt.congr_deriv (f' := _) (HasDerivAt.congr_of_eventuallyEq hs (Filter.Eventually.of_forall fun s => ?_)) ?_
  · simp only [Pi.add_apply]; ring
  · rw [e1, e2]; ring

/-- C60, three-phase with compiled functions. -/
theorem C60_dc_link_numba (p : Par) (inp : ℝ → Inp) (Y : ℝ → ThreePhaseNumba.V → ℝ) (t : ℝ)
    (h : Solves (fun t y => ThreePhaseNumba.rhs (envNumba p (inp t) y)) Y t) (hV : Y t .Vdc ≠ 0) (hC : p.C ≠ 0) :
    HasDerivAt (fun s => p.C * Y s .Vdc ^ 2 / 2) ((envNumba p (inp t) (Y t)).Ppv - (envNumba p (inp t) (Y t)).S.re) t ∧
      (HasDerivAt (fun s => Y s .Vdc) 0 t ↔ (envNumba p (inp t) (Y t)).Ppv = (envNumba p (inp t) (Y t)).S.re) :=
  link_energy hC hV (h .Vdc) (C60_dc_link_all (envNumba p (inp t) (Y t)) hV hC _ (Or.inr (Or.inr (Or.inr (Or.inl rfl))))).1

/-- C78, three-phase with compiled functions. -/
theorem C78_energy_numba (p : Par) (inp : ℝ → Inp) (Y : ℝ → ThreePhaseNumba.V → ℝ) (t : ℝ)
    (h : Solves (fun t y => ThreePhaseNumba.rhs (envNumba p (inp t) y)) Y t) (hV : Y t .Vdc ≠ 0) (hC : p.C ≠ 0) (hL : p.Lf ≠ 0) :
    HasDerivAt (fun s => p.C * Y s .Vdc ^ 2 / 2 + (p.Lf / 4 * ((Y s .iaR ^ 2 + Y s .iaI ^ 2) + (Y s .ibR ^ 2 + Y s .ibI ^ 2) + (Y s .icR ^ 2 + Y s .icI ^ 2))))
      ((envNumba p (inp t) (Y t)).Ppv - (envNumba p (inp t) (Y t)).S_PCC.re - (p.Rf / 2 * ((Y t .iaR ^ 2 + Y t .iaI ^ 2) + (Y t .ibR ^ 2 + Y t .ibI ^ 2) + (Y t .icR ^ 2 + Y t .icI ^ 2)))) t := by
  have ka := phase_energy (Lf := p.Lf) (Rf := p.Rf) (W := (envNumba p (inp t) (Y t)).winv / p.wbase) (v := (inp t).va) (vt := (envNumba p (inp t) (Y t)).vta) hL (h .iaR) (h .iaI) rfl rfl
  have kb := phase_energy (Lf := p.Lf) (Rf := p.Rf) (W := (envNumba p (inp t) (Y t)).winv / p.wbase) (v := (inp t).vb) (vt := (envNumba p (inp t) (Y t)).vtb) hL (h .ibR) (h .ibI) rfl rfl
  have kc := phase_energy (Lf := p.Lf) (Rf := p.Rf) (W := (envNumba p (inp t) (Y t)).winv / p.wbase) (v := (inp t).vc) (vt := (envNumba p (inp t) (Y t)).vtc) hL (h .icR) (h .icI) rfl rfl
  have e1 : (envNumba p (inp t) (Y t)).S.re = (sPh (envNumba p (inp t) (Y t)).vta ⟨Y t .iaR, Y t .iaI⟩).re + (sPh (envNumba p (inp t) (Y t)).vtb ⟨Y t .ibR, Y t .ibI⟩).re + (sPh (envNumba p (inp t) (Y t)).vtc ⟨Y t .icR, Y t .icI⟩).re := by
    have e : (envNumba p (inp t) (Y t)).S = sCalc (envNumba p (inp t) (Y t)).vta (envNumba p (inp t) (Y t)).vtb (envNumba p (inp t) (Y t)).vtc ⟨Y t .iaR, Y t .iaI⟩ ⟨Y t .ibR, Y t .ibI⟩ ⟨Y t .icR, Y t .icI⟩ := rfl
    rw [e, sCalc_re, sPh_re, sPh_re, sPh_re]; ring
  have e2 : (envNumba p (inp t) (Y t)).S_PCC.re = (sPh (inp t).va ⟨Y t .iaR, Y t .iaI⟩).re + (sPh (inp t).vb ⟨Y t .ibR, Y t .ibI⟩).re + (sPh (inp t).vc ⟨Y t .icR, Y t .icI⟩).re := by
    have e : (envNumba p (inp t) (Y t)).S_PCC = sCalc (inp t).va (inp t).vb (inp t).vc ⟨Y t .iaR, Y t .iaI⟩ ⟨Y t .ibR, Y t .ibI⟩ ⟨Y t .icR, Y t .icI⟩ := rfl
    rw [e, sCalc_re, sPh_re, sPh_re, sPh_re]; ring
  have hd := (C60_dc_link_numba p inp Y t h hV hC).1
  have hs := (hd.add ((ka.add kb).add kc))
  refine HasDerivAt.congr_deriv (f' := _) (HasDerivAt.congr_of_eventuallyEq hs (Filter.Eventually.of_forall fun s => ?_)) ?_
  · simp only [Pi.add_apply]; ring
  · rw [e1, e2]; ring

/-- C60, balanced three-phase: three times the energy and the losses of phase a. -/
theorem C60_dc_link_balanced (p : Par) (inp : ℝ → Inp) (Y : ℝ → ThreePhaseBalanced.V → ℝ) (t : ℝ)
    (h : Solves (fun t y => ThreePhaseBalanced.rhs (envB p (inp t) y)) Y t) (hV : Y t .Vdc ≠ 0) (hC : p.C ≠ 0) :
    HasDerivAt (fun s => p.C * Y s .Vdc ^ 2 / 2) ((envB p (inp t) (Y t)).Ppv - (envB p (inp t) (Y t)).S.re) t ∧
      (HasDerivAt (fun s => Y s .Vdc) 0 t ↔ (envB p (inp t) (Y t)).Ppv = (envB p (inp t) (Y t)).S.re) :=
  link_energy hC hV (h .Vdc) (C60_dc_link_all (envB p (inp t) (Y t)) hV hC _ (Or.inr (Or.inr (Or.inr (Or.inr rfl))))).1

/-- C78, balanced three-phase: three times the energy and the losses of phase a. -/
theorem C78_energy_balanced (p : Par) (inp : ℝ → Inp) (Y : ℝ → ThreePhaseBalanced.V → ℝ) (t : ℝ)
    (h : Solves (fun t y => ThreePhaseBalanced.rhs (envB p (inp t) y)) Y t) (hV : Y t .Vdc ≠ 0) (hC : p.C ≠ 0) (hL : p.Lf ≠ 0) :
    HasDerivAt (fun s => p.C * Y s .Vdc ^ 2 / 2 + 3 * (p.Lf / 4 * ((Y s .iaR ^ 2 + Y s .iaI ^ 2))))
      ((envB p (inp t) (Y t)).Ppv - (envB p (inp t) (Y t)).S_PCC.re - 3 * (p.Rf / 2 * ((Y t .iaR ^ 2 + Y t .iaI ^ 2)))) t := by
  have ka := phase_energy (Lf := p.Lf) (Rf := p.Rf) (W := (envB p (inp t) (Y t)).winv / p.wbase) (v := (inp t).va) (vt := (envB p (inp t) (Y t)).vta) hL (h .iaR) (h .iaI) rfl rfl
  have e1 : (envB p (inp t) (Y t)).S = 3 * sPh (envB p (inp t) (Y t)).vta ⟨Y t .iaR, Y t .iaI⟩ := by
    have e : (envB p (inp t) (Y t)).S = sCalc (envB p (inp t) (Y t)).vta (envB p (inp t) (Y t)).vtb (envB p (inp t) (Y t)).vtc ⟨Y t .iaR, Y t .iaI⟩ (Phasor.ub ⟨Y t .iaR, Y t .iaI⟩) (Phasor.uc ⟨Y t .iaR, Y t .iaI⟩) := rfl
    have e' : (envB p (inp t) (Y t)).vtb = Phasor.ub (envB p (inp t) (Y t)).vta ∧ (envB p (inp t) (Y t)).vtc = Phasor.uc (envB p (inp t) (Y t)).vta := balanced_terminal p (inp t) (Y t)
    rw [e, e'.1, e'.2, C52_three_phase_power]
  have e2 : (envB p (inp t) (Y t)).S_PCC = 3 * sPh (inp t).va ⟨Y t .iaR, Y t .iaI⟩ := by
    have e : (envB p (inp t) (Y t)).S_PCC = sCalc (inp t).va (Phasor.ub (inp t).va) (Phasor.uc (inp t).va) ⟨Y t .iaR, Y t .iaI⟩ (Phasor.ub ⟨Y t .iaR, Y t .iaI⟩) (Phasor.uc ⟨Y t .iaR, Y t .iaI⟩) := rfl
    rw [e, C52_three_phase_power]
  have h3 : ∀ z : ℂ, (3 * z).re = 3 * z.re := fun z => by simp
  have hd := (C60_dc_link_balanced p inp Y t h hV hC).1
  refine (hd.add (ka.const_mul 3)).congr_deriv ?_
  rw [e1, e2, h3, h3]; ring

/-- C78, single-phase with constant DC voltage (the energy is that of the filter, the source the inverter power). -/
theorem C78_energy_single_constant_vdc (p : Par) (inp : ℝ → Inp) (Y : ℝ → SinglePhaseConstantVdc.V → ℝ) (t : ℝ)
    (h : Solves (fun t y => SinglePhaseConstantVdc.rhs (envC1 p (inp t) y)) Y t) (hL : p.Lf ≠ 0) :
    HasDerivAt (fun s => (p.Lf / 4 * ((Y s .iaR ^ 2 + Y s .iaI ^ 2))))
      ((envC1 p (inp t) (Y t)).S.re - (envC1 p (inp t) (Y t)).S_PCC.re - (p.Rf / 2 * ((Y t .iaR ^ 2 + Y t .iaI ^ 2)))) t := by
  have ka := phase_energy (Lf := p.Lf) (Rf := p.Rf) (W := (envC1 p (inp t) (Y t)).winv / p.wbase) (v := (inp t).va) (vt := (envC1 p (inp t) (Y t)).vta) hL (h .iaR) (h .iaI) rfl rfl
  exact ka

/-- C78, three-phase with constant DC voltage. -/
theorem C78_energy_three_constant_vdc (p : Par) (inp : ℝ → Inp) (Y : ℝ → ThreePhaseConstantVdc.V → ℝ) (t : ℝ)
    (h : Solves (fun t y => ThreePhaseConstantVdc.rhs (envC3 p (inp t) y)) Y t) (hL : p.Lf ≠ 0) :
    HasDerivAt (fun s => (p.Lf / 4 * ((Y s .iaR ^ 2 + Y s .iaI ^ 2) + (Y s .ibR ^ 2 + Y s .ibI ^ 2) + (Y s .icR ^ 2 + Y s .icI ^ 2))))
      ((envC3 p (inp t) (Y t)).S.re - (envC3 p (inp t) (Y t)).S_PCC.re - (p.Rf / 2 * ((Y t .iaR ^ 2 + Y t .iaI ^ 2) + (Y t .ibR ^ 2 + Y t .ibI ^ 2) + (Y t .icR ^ 2 + Y t .icI ^ 2)))) t := by
  have ka := phase_energy (Lf := p.Lf) (Rf := p.Rf) (W := (envC3 p (inp t) (Y t)).winv / p.wbase) (v := (inp t).va) (vt := (envC3 p (inp t) (Y t)).vta) hL (h .iaR) (h .iaI) rfl rfl
  have kb := phase_energy (Lf := p.Lf) (Rf := p.Rf) (W := (envC3 p (inp t) (Y t)).winv / p.wbase) (v := (inp t).vb) (vt := (envC3 p (inp t) (Y t)).vtb) hL (h .ibR) (h .ibI) rfl rfl
  have kc := phase_energy (Lf := p.Lf) (Rf := p.Rf) (W := (envC3 p (inp t) (Y t)).winv / p.wbase) (v := (inp t).vc) (vt := (envC3 p (inp t) (Y t)).vtc) hL (h .icR) (h .icI) rfl rfl
  have e1 : (envC3 p (inp t) (Y t)).S.re = (sPh (envC3 p (inp t) (Y t)).vta ⟨Y t .iaR, Y t .iaI⟩).re + (sPh (envC3 p (inp t) (Y t)).vtb ⟨Y t .ibR, Y t .ibI⟩).re + (sPh (envC3 p (inp t) (Y t)).vtc ⟨Y t .icR, Y t .icI⟩).re := by
    have e : (envC3 p (inp t) (Y t)).S = sCalc (envC3 p (inp t) (Y t)).vta (envC3 p (inp t) (Y t)).vtb (envC3 p (inp t) (Y t)).vtc ⟨Y t .iaR, Y t .iaI⟩ ⟨Y t .ibR, Y t .ibI⟩ ⟨Y t .icR, Y t .icI⟩ := rfl
    rw [e, sCalc_re, sPh_re, sPh_re, sPh_re]; ring
  have e2 : (envC3 p (inp t) (Y t)).S_PCC.re = (sPh (inp t).va ⟨Y t .iaR, Y t .iaI⟩).re + (sPh (inp t).vb ⟨Y t .ibR, Y t .ibI⟩).re + (sPh (inp t).vc ⟨Y t .icR, Y t .icI⟩).re := by
    have e : (envC3 p (inp t) (Y t)).S_PCC = sCalc (inp t).va (inp t).vb (inp t).vc ⟨Y t .iaR, Y t .iaI⟩ ⟨Y t .ibR, Y t .ibI⟩ ⟨Y t .icR, Y t .icI⟩ := rfl
    rw [e, sCalc_re, sPh_re, sPh_re, sPh_re]; ring
  have hs := ((ka.add kb).add kc)
  refine HasDerivAt.congr_deriv (f' := _) (HasDerivAt.congr_of_eventuallyEq hs (Filter.Eventually.of_forall fun s => ?_)) ?_
  · simp only [Pi.add_apply]; ring
  · rw [e2, e1]; ring

end Ode
end PvDer
