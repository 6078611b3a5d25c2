import Verif.Props.ParRun
import Verif.Props.OdeProps
/-!
C132: the filter and DC-link equations in volts, amperes, watts, ohms, henries, farads — and in which unit of time.
-/
namespace PvDer
namespace Config
open Ode Complex

/-! ### Specification -/

/-- The series filter of one phase (resistance `R`, inductance `L`) between terminal voltage `Vt` and grid voltage `V`, in a frame turning at `w` radians per unit of time, where one second is `κ` units of
time. `κ = 1` is the law in seconds. -/
def FilterLaw (κ L R w : ℝ) (I V Vt dI : ℂ) : Prop := (κ * L : ℝ) * dI = Vt - V - R * I - Complex.I * (w * L : ℝ) * I

/-- The DC-link capacitor, charged by `Ppv` and discharged by `P`. -/
def LinkLaw (κ C Vdc dVdc Ppv P : ℝ) : Prop := κ * C * Vdc * dVdc = Ppv - P

/-! ### The equations of the code -/

theorem filter_law {Lf Rf w L R : ℝ} (hL : Lf = L * (2 * Real.pi * 60) / 5) (hR : Rf = R / 5) (L0 : L ≠ 0) (i v vt : ℂ) {a b : ℝ}
    (ha : a = 1 / Lf * (-Rf * i.re - v.re + vt.re) + w / (2 * Real.pi * 60) * i.im) (hb : b = 1 / Lf * (-Rf * i.im - v.im + vt.im) - w / (2 * Real.pi * 60) * i.re) :
    FilterLaw (2 * Real.pi * 60) L R w (100 * i) (500 * v) (500 * vt) (100 * ⟨a, b⟩) := by
  have p0 : Real.pi ≠ 0 := Real.pi_ne_zero
  unfold FilterLaw
  subst hL hR
  apply Complex.ext
  · simp only [Complex.mul_re, Complex.mul_im, Complex.sub_re, Complex.ofReal_re, Complex.ofReal_im, Complex.I_re, Complex.I_im, Complex.re_ofNat, Complex.im_ofNat, ha, hb]
    field_simp
    ring
  · simp only [Complex.mul_re, Complex.mul_im, Complex.sub_im, Complex.ofReal_re, Complex.ofReal_im, Complex.I_re, Complex.I_im, Complex.re_ofNat, Complex.im_ofNat, ha, hb]
    field_simp
    ring

theorem link_law {Cp C Vdc Ppv P : ℝ} (hC : Cp = C * (2 * Real.pi * 60) * 5) (C0 : C ≠ 0) (V0 : Vdc ≠ 0) :
    LinkLaw (2 * Real.pi * 60) C (500 * Vdc) (500 * ((Ppv - P) / (Vdc * Cp))) (50000 * Ppv) (50000 * P) := by
  have p0 : Real.pi ≠ 0 := Real.pi_ne_zero
  unfold LinkLaw
  subst hC
  field_simp
  ring

/-- C132, class `SolarPVDERThreePhase`: the law holds with the inductance, resistance and capacitance configured, if one second counts as 2π·60 units of time. -/
theorem C132_three_partial {c : Cfg} {kw : Args} {N : ℕ} {p : Par} (h : Constants .three c kw N p) {L R : ℚ} (hL : Configured .three c kw "circuit_parameters" "Lf_actual" L)
    (hR : Configured .three c kw "circuit_parameters" "Rf_actual" R) (L0 : L ≠ 0) {C : ℚ} (hC : Configured .three c kw "circuit_parameters" "C_actual" C) (C0 : C ≠ 0) (i : Inp) (y : ThreePhase.V → ℝ) :
    FilterLaw (2 * Real.pi * 60) L R (envT p i y).winv (100 * ⟨y .iaR, y .iaI⟩) (500 * i.va) (500 * (envT p i y).vta)
      (100 * ⟨ThreePhase.rhs (envT p i y) .iaR, ThreePhase.rhs (envT p i y) .iaI⟩) ∧
    FilterLaw (2 * Real.pi * 60) L R (envT p i y).winv (100 * ⟨y .ibR, y .ibI⟩) (500 * i.vb) (500 * (envT p i y).vtb)
      (100 * ⟨ThreePhase.rhs (envT p i y) .ibR, ThreePhase.rhs (envT p i y) .ibI⟩) ∧
    FilterLaw (2 * Real.pi * 60) L R (envT p i y).winv (100 * ⟨y .icR, y .icI⟩) (500 * i.vc) (500 * (envT p i y).vtc)
      (100 * ⟨ThreePhase.rhs (envT p i y) .icR, ThreePhase.rhs (envT p i y) .icI⟩) ∧
    (y .Vdc ≠ 0 → LinkLaw (2 * Real.pi * 60) C (500 * y .Vdc) (500 * ThreePhase.rhs (envT p i y) .Vdc) (50000 * (envT p i y).Ppv) (50000 * (envT p i y).S.re)) := by
  have l0 : (L : ℝ) ≠ 0 := by exact_mod_cast L0
  have c0 : (C : ℝ) ≠ 0 := by exact_mod_cast C0
  have hw : p.wbase = 2 * Real.pi * 60 := h.fixed.2.2.2.1
  exact ⟨filter_law (h.Lf L hL) (h.Rf R hR) l0 _ _ _ (by rw [← hw]; rfl) (by rw [← hw]; rfl),
    filter_law (h.Lf L hL) (h.Rf R hR) l0 _ _ _ (by rw [← hw]; rfl) (by rw [← hw]; rfl),
    filter_law (h.Lf L hL) (h.Rf R hR) l0 _ _ _ (by rw [← hw]; rfl) (by rw [← hw]; rfl),
    fun v0 => link_law (h.C C hC) c0 v0⟩

/-- C132, class `SolarPVDERThreePhaseNoVrmsFilter`: the law holds with the inductance, resistance and capacitance configured, if one second counts as 2π·60 units of time. -/
theorem C132_no_filter_partial {c : Cfg} {kw : Args} {N : ℕ} {p : Par} (h : Constants .noFilter c kw N p) {L R : ℚ} (hL : Configured .noFilter c kw "circuit_parameters" "Lf_actual" L)
    (hR : Configured .noFilter c kw "circuit_parameters" "Rf_actual" R) (L0 : L ≠ 0) {C : ℚ} (hC : Configured .noFilter c kw "circuit_parameters" "C_actual" C) (C0 : C ≠ 0) (i : Inp) (y : ThreePhaseNoVrmsFilter.V → ℝ) :
    FilterLaw (2 * Real.pi * 60) L R (envN p i y).winv (100 * ⟨y .iaR, y .iaI⟩) (500 * i.va) (500 * (envN p i y).vta)
      (100 * ⟨ThreePhaseNoVrmsFilter.rhs (envN p i y) .iaR, ThreePhaseNoVrmsFilter.rhs (envN p i y) .iaI⟩) ∧
    FilterLaw (2 * Real.pi * 60) L R (envN p i y).winv (100 * ⟨y .ibR, y .ibI⟩) (500 * i.vb) (500 * (envN p i y).vtb)
      (100 * ⟨ThreePhaseNoVrmsFilter.rhs (envN p i y) .ibR, ThreePhaseNoVrmsFilter.rhs (envN p i y) .ibI⟩) ∧
    FilterLaw (2 * Real.pi * 60) L R (envN p i y).winv (100 * ⟨y .icR, y .icI⟩) (500 * i.vc) (500 * (envN p i y).vtc)
      (100 * ⟨ThreePhaseNoVrmsFilter.rhs (envN p i y) .icR, ThreePhaseNoVrmsFilter.rhs (envN p i y) .icI⟩) ∧
    (y .Vdc ≠ 0 → LinkLaw (2 * Real.pi * 60) C (500 * y .Vdc) (500 * ThreePhaseNoVrmsFilter.rhs (envN p i y) .Vdc) (50000 * (envN p i y).Ppv) (50000 * (envN p i y).S.re)) := by
  have l0 : (L : ℝ) ≠ 0 := by exact_mod_cast L0
  have c0 : (C : ℝ) ≠ 0 := by exact_mod_cast C0
  have hw : p.wbase = 2 * Real.pi * 60 := h.fixed.2.2.2.1
  exact ⟨filter_law (h.Lf L hL) (h.Rf R hR) l0 _ _ _ (by rw [← hw]; rfl) (by rw [← hw]; rfl),
    filter_law (h.Lf L hL) (h.Rf R hR) l0 _ _ _ (by rw [← hw]; rfl) (by rw [← hw]; rfl),
    filter_law (h.Lf L hL) (h.Rf R hR) l0 _ _ _ (by rw [← hw]; rfl) (by rw [← hw]; rfl),
    fun v0 => link_law (h.C C hC) c0 v0⟩

/-- C132, class `SolarPVDERThreePhaseNumba`: the law holds with the inductance, resistance and capacitance configured, if one second counts as 2π·60 units of time. -/
theorem C132_numba_partial {c : Cfg} {kw : Args} {N : ℕ} {p : Par} (h : Constants .numba c kw N p) {L R : ℚ} (hL : Configured .numba c kw "circuit_parameters" "Lf_actual" L)
    (hR : Configured .numba c kw "circuit_parameters" "Rf_actual" R) (L0 : L ≠ 0) {C : ℚ} (hC : Configured .numba c kw "circuit_parameters" "C_actual" C) (C0 : C ≠ 0) (i : Inp) (y : ThreePhaseNumba.V → ℝ) :
    FilterLaw (2 * Real.pi * 60) L R (envNumba p i y).winv (100 * ⟨y .iaR, y .iaI⟩) (500 * i.va) (500 * (envNumba p i y).vta)
      (100 * ⟨ThreePhaseNumba.rhs (envNumba p i y) .iaR, ThreePhaseNumba.rhs (envNumba p i y) .iaI⟩) ∧
    FilterLaw (2 * Real.pi * 60) L R (envNumba p i y).winv (100 * ⟨y .ibR, y .ibI⟩) (500 * i.vb) (500 * (envNumba p i y).vtb)
      (100 * ⟨ThreePhaseNumba.rhs (envNumba p i y) .ibR, ThreePhaseNumba.rhs (envNumba p i y) .ibI⟩) ∧
    FilterLaw (2 * Real.pi * 60) L R (envNumba p i y).winv (100 * ⟨y .icR, y .icI⟩) (500 * i.vc) (500 * (envNumba p i y).vtc)
      (100 * ⟨ThreePhaseNumba.rhs (envNumba p i y) .icR, ThreePhaseNumba.rhs (envNumba p i y) .icI⟩) ∧
    (y .Vdc ≠ 0 → LinkLaw (2 * Real.pi * 60) C (500 * y .Vdc) (500 * ThreePhaseNumba.rhs (envNumba p i y) .Vdc) (50000 * (envNumba p i y).Ppv) (50000 * (envNumba p i y).S.re)) := by
  have l0 : (L : ℝ) ≠ 0 := by exact_mod_cast L0
  have c0 : (C : ℝ) ≠ 0 := by exact_mod_cast C0
  have hw : p.wbase = 2 * Real.pi * 60 := h.fixed.2.2.2.1
  exact ⟨filter_law (h.Lf L hL) (h.Rf R hR) l0 _ _ _ (by rw [← hw]; rfl) (by rw [← hw]; rfl),
    filter_law (h.Lf L hL) (h.Rf R hR) l0 _ _ _ (by rw [← hw]; rfl) (by rw [← hw]; rfl),
    filter_law (h.Lf L hL) (h.Rf R hR) l0 _ _ _ (by rw [← hw]; rfl) (by rw [← hw]; rfl),
    fun v0 => link_law (h.C C hC) c0 v0⟩

/-- C132, class `SolarPVDERThreePhaseBalanced`: the law holds with the inductance, resistance and capacitance configured, if one second counts as 2π·60 units of time. -/
theorem C132_balanced_partial {c : Cfg} {kw : Args} {N : ℕ} {p : Par} (h : Constants .balanced c kw N p) {L R : ℚ} (hL : Configured .balanced c kw "circuit_parameters" "Lf_actual" L)
    (hR : Configured .balanced c kw "circuit_parameters" "Rf_actual" R) (L0 : L ≠ 0) {C : ℚ} (hC : Configured .balanced c kw "circuit_parameters" "C_actual" C) (C0 : C ≠ 0) (i : Inp) (y : ThreePhaseBalanced.V → ℝ) :
    FilterLaw (2 * Real.pi * 60) L R (envB p i y).winv (100 * ⟨y .iaR, y .iaI⟩) (500 * i.va) (500 * (envB p i y).vta)
      (100 * ⟨ThreePhaseBalanced.rhs (envB p i y) .iaR, ThreePhaseBalanced.rhs (envB p i y) .iaI⟩) ∧
    (y .Vdc ≠ 0 → LinkLaw (2 * Real.pi * 60) C (500 * y .Vdc) (500 * ThreePhaseBalanced.rhs (envB p i y) .Vdc) (50000 * (envB p i y).Ppv) (50000 * (envB p i y).S.re)) := by
  have l0 : (L : ℝ) ≠ 0 := by exact_mod_cast L0
  have c0 : (C : ℝ) ≠ 0 := by exact_mod_cast C0
  have hw : p.wbase = 2 * Real.pi * 60 := h.fixed.2.2.2.1
  exact ⟨filter_law (h.Lf L hL) (h.Rf R hR) l0 _ _ _ (by rw [← hw]; rfl) (by rw [← hw]; rfl),
    fun v0 => link_law (h.C C hC) c0 v0⟩

/-- C132, class `SolarPVDERSinglePhase`: the law holds with the inductance, resistance and capacitance configured, if one second counts as 2π·60 units of time. -/
theorem C132_single_partial {c : Cfg} {kw : Args} {N : ℕ} {p : Par} (h : Constants .single c kw N p) {L R : ℚ} (hL : Configured .single c kw "circuit_parameters" "Lf_actual" L)
    (hR : Configured .single c kw "circuit_parameters" "Rf_actual" R) (L0 : L ≠ 0) {C : ℚ} (hC : Configured .single c kw "circuit_parameters" "C_actual" C) (C0 : C ≠ 0) (i : Inp) (y : SinglePhase.V → ℝ) :
    FilterLaw (2 * Real.pi * 60) L R (env1 p i y).winv (100 * ⟨y .iaR, y .iaI⟩) (500 * i.va) (500 * (env1 p i y).vta)
      (100 * ⟨SinglePhase.rhs (env1 p i y) .iaR, SinglePhase.rhs (env1 p i y) .iaI⟩) ∧
    (y .Vdc ≠ 0 → LinkLaw (2 * Real.pi * 60) C (500 * y .Vdc) (500 * SinglePhase.rhs (env1 p i y) .Vdc) (50000 * (env1 p i y).Ppv) (50000 * (env1 p i y).S.re)) := by
  have l0 : (L : ℝ) ≠ 0 := by exact_mod_cast L0
  have c0 : (C : ℝ) ≠ 0 := by exact_mod_cast C0
  have hw : p.wbase = 2 * Real.pi * 60 := h.fixed.2.2.2.1
  exact ⟨filter_law (h.Lf L hL) (h.Rf R hR) l0 _ _ _ (by rw [← hw]; rfl) (by rw [← hw]; rfl),
    fun v0 => link_law (h.C C hC) c0 v0⟩

/-- C132, class `SolarPVDERSinglePhaseConstantVdc`: the law holds with the inductance and resistance configured, if one second counts as 2π·60 units of time. -/
theorem C132_single_constant_vdc_partial {c : Cfg} {kw : Args} {N : ℕ} {p : Par} (h : Constants .constVdc1 c kw N p) {L R : ℚ} (hL : Configured .constVdc1 c kw "circuit_parameters" "Lf_actual" L)
    (hR : Configured .constVdc1 c kw "circuit_parameters" "Rf_actual" R) (L0 : L ≠ 0) (i : Inp) (y : SinglePhaseConstantVdc.V → ℝ) :
    FilterLaw (2 * Real.pi * 60) L R (envC1 p i y).winv (100 * ⟨y .iaR, y .iaI⟩) (500 * i.va) (500 * (envC1 p i y).vta)
      (100 * ⟨SinglePhaseConstantVdc.rhs (envC1 p i y) .iaR, SinglePhaseConstantVdc.rhs (envC1 p i y) .iaI⟩) := by
  have l0 : (L : ℝ) ≠ 0 := by exact_mod_cast L0
  have hw : p.wbase = 2 * Real.pi * 60 := h.fixed.2.2.2.1
  exact filter_law (h.Lf L hL) (h.Rf R hR) l0 _ _ _ (by rw [← hw]; rfl) (by rw [← hw]; rfl)

/-- C132, class `SolarPVDERThreePhaseConstantVdc`: the law holds with the inductance and resistance configured, if one second counts as 2π·60 units of time. -/
theorem C132_three_constant_vdc_partial {c : Cfg} {kw : Args} {N : ℕ} {p : Par} (h : Constants .constVdc3 c kw N p) {L R : ℚ} (hL : Configured .constVdc3 c kw "circuit_parameters" "Lf_actual" L)
    (hR : Configured .constVdc3 c kw "circuit_parameters" "Rf_actual" R) (L0 : L ≠ 0) (i : Inp) (y : ThreePhaseConstantVdc.V → ℝ) :
    FilterLaw (2 * Real.pi * 60) L R (envC3 p i y).winv (100 * ⟨y .iaR, y .iaI⟩) (500 * i.va) (500 * (envC3 p i y).vta)
      (100 * ⟨ThreePhaseConstantVdc.rhs (envC3 p i y) .iaR, ThreePhaseConstantVdc.rhs (envC3 p i y) .iaI⟩) ∧
    FilterLaw (2 * Real.pi * 60) L R (envC3 p i y).winv (100 * ⟨y .ibR, y .ibI⟩) (500 * i.vb) (500 * (envC3 p i y).vtb)
      (100 * ⟨ThreePhaseConstantVdc.rhs (envC3 p i y) .ibR, ThreePhaseConstantVdc.rhs (envC3 p i y) .ibI⟩) ∧
    FilterLaw (2 * Real.pi * 60) L R (envC3 p i y).winv (100 * ⟨y .icR, y .icI⟩) (500 * i.vc) (500 * (envC3 p i y).vtc)
      (100 * ⟨ThreePhaseConstantVdc.rhs (envC3 p i y) .icR, ThreePhaseConstantVdc.rhs (envC3 p i y) .icI⟩) := by
  have l0 : (L : ℝ) ≠ 0 := by exact_mod_cast L0
  have hw : p.wbase = 2 * Real.pi * 60 := h.fixed.2.2.2.1
  exact ⟨filter_law (h.Lf L hL) (h.Rf R hR) l0 _ _ _ (by rw [← hw]; rfl) (by rw [← hw]; rfl),
    filter_law (h.Lf L hL) (h.Rf R hR) l0 _ _ _ (by rw [← hw]; rfl) (by rw [← hw]; rfl),
    filter_law (h.Lf L hL) (h.Rf R hR) l0 _ _ _ (by rw [← hw]; rfl) (by rw [← hw]; rfl)⟩

/-! ### What this means in seconds -/

/-- **C132, in seconds.** Where the law holds with one second counted as `κ ≠ 1` units, it holds in seconds only at moments at which the current does not change. -/
theorem C132_filter_not_in_seconds {κ L R w : ℝ} {I V Vt dI : ℂ} (h : FilterLaw κ L R w I V Vt dI) (hκ : κ ≠ 1) (hL : L ≠ 0) : FilterLaw 1 L R w I V Vt dI ↔ dI = 0 := by
  unfold FilterLaw at *
  rw [← h]
  have k : ((κ - 1) * L : ℝ) ≠ 0 := mul_ne_zero (sub_ne_zero.2 hκ) hL
  constructor
  · intro e
    have : (((κ - 1) * L : ℝ) : ℂ) * dI = 0 := by push_cast at e ⊢; linear_combination -e
    exact (mul_eq_zero.1 this).resolve_left (by exact_mod_cast k)
  · rintro rfl; simp

/-- … and likewise for the DC link: only where the powers balance. -/
theorem C132_link_not_in_seconds {κ C Vdc dVdc Ppv P : ℝ} (h : LinkLaw κ C Vdc dVdc Ppv P) (hκ : κ ≠ 1) (hκ0 : κ ≠ 0) : LinkLaw 1 C Vdc dVdc Ppv P ↔ Ppv = P := by
  unfold LinkLaw at *
  constructor
  · intro e
    have : (κ - 1) * (Ppv - P) = 0 := by rw [← e] at h ⊢; linear_combination h
    exact sub_eq_zero.1 ((mul_eq_zero.1 this).resolve_left (sub_ne_zero.2 hκ))
  · intro e
    rw [e, sub_self] at h ⊢
    rcases mul_eq_zero.1 h with h | h
    · rcases mul_eq_zero.1 h with h | h
      · rw [(mul_eq_zero.1 h).resolve_left hκ0]; ring
      · rw [h]; ring
    · rw [h]; ring

theorem kappa_ne : (2 * Real.pi * 60 : ℝ) ≠ 1 ∧ (2 * Real.pi * 60 : ℝ) ≠ 0 := by
  constructor
  · have := Real.two_le_pi; intro h; linarith
  · have := Real.pi_pos; positivity

/-- **C132 (energy).** Along every solution of the three-phase equations the energy in the configured capacitor, in joules, changes at 1/(2π·60) of the power surplus in watts. -/
theorem C132_energy_three {c : Cfg} {kw : Args} {N : ℕ} {p : Par} (h : Constants .three c kw N p) {C : ℚ} (hC : Configured .three c kw "circuit_parameters" "C_actual" C) (C0 : C ≠ 0)
    (inp : ℝ → Inp) (Y : ℝ → ThreePhase.V → ℝ) (t : ℝ) (hY : Solves (fun t y => ThreePhase.rhs (envT p (inp t) y)) Y t) (V0 : Y t .Vdc ≠ 0) :
    HasDerivAt (fun s => (1 / 2 : ℝ) * C * (500 * Y s .Vdc) ^ 2) ((50000 * (envT p (inp t) (Y t)).Ppv - 50000 * (envT p (inp t) (Y t)).S.re) / (2 * Real.pi * 60)) t := by
  have c0 : (C : ℝ) ≠ 0 := by exact_mod_cast C0
  have hd : HasDerivAt (fun s => Y s .Vdc) (ThreePhase.rhs (envT p (inp t) (Y t)) .Vdc) t := hY .Vdc
  have hl : LinkLaw (2 * Real.pi * 60) C (500 * Y t .Vdc) (500 * ThreePhase.rhs (envT p (inp t) (Y t)) .Vdc) (50000 * (envT p (inp t) (Y t)).Ppv) (50000 * (envT p (inp t) (Y t)).S.re) :=
    link_law (h.C C hC) c0 V0
  have k := ((hd.const_mul 500).pow 2).const_mul ((1 / 2 : ℝ) * C)
  refine k.congr_deriv ?_
  rw [eq_div_iff kappa_ne.2, ← hl]
  simp
  ring

/-- **C132, refuted in seconds.** For every configuration of the three-phase class with a filter inductance there are a state and a grid voltage at which the law in seconds is false: currents at rest, grid
voltage 1 per unit. -/
theorem C132_refuted_three {c : Cfg} {kw : Args} {N : ℕ} {p : Par} (h : Constants .three c kw N p) {L R : ℚ} (hL : Configured .three c kw "circuit_parameters" "Lf_actual" L)
    (hR : Configured .three c kw "circuit_parameters" "Rf_actual" R) (L0 : L ≠ 0) (i : Inp) (hv : i.va = 1) :
    ¬ FilterLaw 1 L R (envT p i 0).winv (100 * ⟨0, 0⟩) (500 * i.va) (500 * (envT p i 0).vta) (100 * ⟨ThreePhase.rhs (envT p i 0) .iaR, ThreePhase.rhs (envT p i 0) .iaI⟩) := by
  have l0 : (L : ℝ) ≠ 0 := by exact_mod_cast L0
  have hw : p.wbase = 2 * Real.pi * 60 := h.fixed.2.2.2.1
  have k : FilterLaw (2 * Real.pi * 60) L R (envT p i 0).winv (100 * ⟨0, 0⟩) (500 * i.va) (500 * (envT p i 0).vta)
      (100 * ⟨ThreePhase.rhs (envT p i 0) .iaR, ThreePhase.rhs (envT p i 0) .iaI⟩) :=
    filter_law (h.Lf L hL) (h.Rf R hR) l0 _ _ _ (by rw [← hw]; rfl) (by rw [← hw]; rfl)
  rw [C132_filter_not_in_seconds k kappa_ne.1 l0]
  intro e
  have e := (mul_eq_zero.1 e).resolve_left (by norm_num)
  have e := congrArg Complex.re e
  have hz : (envT p i 0).vta.re = 0 := by
    show (vtOf p ⟨0, 0⟩ ⟨0, 0⟩ 0).re = 0
    simp [vtOf]
  have : 1 / p.Lf * (-p.Rf * 0 - i.va.re + (envT p i 0).vta.re) + (envT p i 0).winv / p.wbase * 0 = 0 := e
  rw [hz, hv, h.Lf L hL] at this
  have pi0 := Real.pi_pos
  have : (1 / ((L : ℝ) * (2 * Real.pi * 60) / 5)) = 0 := by simpa using this
  exact absurd this (one_div_ne_zero (div_ne_zero (mul_ne_zero l0 kappa_ne.2) (by norm_num)))

end Config
end PvDer
