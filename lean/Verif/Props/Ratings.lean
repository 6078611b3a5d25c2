import Verif.Model.Ratings
import Verif.Props.Circuit
import Verif.Props.Phasor
import Verif.Lemmas.OdeGrad
import Mathlib.Tactic.FieldSimp
import Mathlib.Tactic.Positivity

/-!
# Properties C90 (ratings and circuit parameters), C91 (circuit parameter check), C92 (`validate_model`)
-/

namespace PvDer
namespace Ratings
open Complex Circuit Phasor

theorem sq2 : Real.sqrt 2 * Real.sqrt 2 = 2 := Real.mul_self_sqrt (by norm_num)
theorem sq2_pos : 0 < Real.sqrt 2 := by positivity

/-- Positive base values and nameplate values. -/
structure Good (n : Nameplate) (b : Base) : Prop where
  V : 0 < b.Vbase
  S : 0 < b.Sbase
  w : 0 < b.wbase
  Vr : 0 < n.Vrmsrated
  np : 0 < n.nPhases

/-- C90: rated peak voltage times rated peak current, over two, times the number of phases is the rated apparent power, in volt-ampere and in per unit. -/
theorem C90_rated_power (n : Nameplate) (b : Base) (h : Good n b) :
    n.nPhases * (Varated n * Iarated n / 2) = n.Srated ∧ n.nPhases * (Vanominal n b * (Iarated n / b.Ibase) / 2) = Snominal n b := by
  obtain ⟨h1, h2, h3, h4, h5⟩ := h
  have h6 := sq2_pos
  have h7 := sq2
  have hI : Iarated n = n.Srated / (n.nPhases * n.Vrmsrated) * Real.sqrt 2 := by
    unfold Iarated Varated
    rw [mul_div_assoc, div_self h6.ne', mul_one]
  constructor
  · rw [hI]; unfold Varated
    field_simp
    rw [Real.sq_sqrt (by norm_num)]; ring
  · rw [hI]; unfold Vanominal Varated Base.Ibase Snominal
    field_simp
    rw [Real.sq_sqrt (by norm_num)]; ring

/-- C90: three symmetric phasors at nominal voltage and rated current carry the nominal apparent power (three-phase models). -/
theorem C90_rated_power_phasors (n : Nameplate) (b : Base) (h : Good n b) (hn : n.nPhases = 3) (v i : ℂ) (hv : ‖v‖ = Vanominal n b)
    (hi : ‖i‖ = Iarated n / b.Ibase) : ‖sCalc v (ub v) (uc v) i (ub i) (uc i)‖ = Snominal n b := by
  have := (C90_rated_power n b h).2
  rw [C52_three_phase_power]
  unfold sPh
  rw [norm_mul, norm_mul, norm_mul, RCLike.norm_conj, hv, hi]
  rw [hn] at this
  norm_num
  linarith

/-- C90: the reference RMS voltage is the rated RMS voltage in per unit, and a symmetric set of phasors at nominal magnitude measures exactly that. -/
theorem C90_reference_voltage (n : Nameplate) (b : Base) (v : ℂ) (hv : ‖v‖ = Vanominal n b) :
    Vrms_ref n b = n.Vrmsrated / b.Vbase ∧ urms v (ub v) (uc v) = Vrms_ref n b ∧ urms1 v = Vrms_ref n b ∧ urmsMin v (ub v) (uc v) = Vrms_ref n b := by
  have h6 := sq2_pos
  obtain ⟨e1, e2⟩ := C50_balanced v
  have h1 : urms1 v = Vrms_ref n b := by unfold urms1 Vrms_ref; rw [hv]
  refine ⟨?_, e1.trans h1, h1, e2.trans h1⟩
  unfold Vrms_ref Vanominal Varated
  field_simp

/-- C90: the current reference limit is the overload factor times the rated current: at nominal voltage it allows the overload factor times the nominal power. -/
theorem C90_current_limit (n : Nameplate) (b : Base) (h : Good n b) :
    n.nPhases * (Vanominal n b * iref_limit n b / 2) = n.Ioverload * Snominal n b := by
  rw [← (C90_rated_power n b h).2]; unfold iref_limit; ring

/-- C90: the ramp gradients are the configured fractions of rated current per second, in per unit. -/
theorem C90_ramp_gradients (n : Nameplate) (b : Base) : rampR n b = n.gradReal * (Iarated n / b.Ibase) ∧ rampI n b = n.gradImag * (Iarated n / b.Ibase) := by
  unfold rampR rampI; constructor <;> ring

/-- C90: the filter impedance is `Rf + j Lf`, the reactance equals the per-unit inductance, and the per-unit values are those obtained from the actual ones by the base values. -/
theorem C90_filter (n : Nameplate) (b : Base) (h : Good n b) :
    Zf n b = (Rf n b : ℂ) + I * (Lf n b : ℂ) ∧ Xf n b = Lf n b ∧ Rf n b * b.Zbase = n.Rf ∧ Lf n b * b.Lbase = n.Lf ∧ C n b * b.Cbase = n.C := by
  obtain ⟨h1, h2, h3, h4, h5⟩ := h
  have hZ : 0 < b.Zbase := by unfold Base.Zbase; positivity
  have hL : 0 < b.Lbase := by unfold Base.Lbase; positivity
  have hC : 0 < b.Cbase := by unfold Base.Cbase; positivity
  have hZc : (b.Zbase : ℂ) ≠ 0 := by exact_mod_cast hZ.ne'
  have hX : Xf n b = Lf n b := by
    unfold Xf Lf Base.Lbase
    field_simp
  refine ⟨?_, hX, ?_, ?_, ?_⟩
  · rw [← hX]; unfold Zf Rf Xf
    push_cast
    field_simp
  · unfold Rf; field_simp
  · unfold Lf; field_simp
  · unfold C; field_simp

/-- C90: at the 60 Hz base the transformer impedance is `R1 + j L1`. -/
theorem C90_transformer (n : Nameplate) (b : Base) (h : Good n b) (hw : b.wbase = 2 * Real.pi * 60) : Z1 n b = (R1 n b : ℂ) + I * (L1 n b : ℂ) := by
  obtain ⟨h1, h2, h3, h4, h5⟩ := h
  have hZ : 0 < b.Zbase := by unfold Base.Zbase; positivity
  have hL : L1 n b = n.Z1.im / b.Zbase := by
    unfold L1 Base.Lbase
    rw [← hw]
    field_simp
  rw [hL]; unfold Z1 R1
  apply Complex.ext <;> simp

/-- C90, wrong: the load inductance is computed from the transformer impedance: the stored load resistance and inductance describe the load only if the load happens to have the
reactance of the transformer. -/
theorem C90_load_inductance_wrong (n : Nameplate) (b : Base) (h : Good n b) (hw : b.wbase = 2 * Real.pi * 60) (sa : Bool) (ev : ℂ) :
    Zload1 sa ev b = (Rload1 sa ev b : ℂ) + I * (Lload1 n b : ℂ) ↔ (Zload1_actual sa ev).im = n.Z1.im := by
  obtain ⟨h1, h2, h3, h4, h5⟩ := h
  have hZ : 0 < b.Zbase := by unfold Base.Zbase; positivity
  have hL : Lload1 n b = n.Z1.im / b.Zbase := by
    unfold Lload1 Base.Lbase
    rw [← hw]
    field_simp
  rw [hL]; unfold Zload1 Rload1
  rw [Complex.ext_iff]
  simp
  constructor
  · intro h; field_simp at h; exact h
  · intro h; rw [h]

/-- C90: outside stand-alone mode the load is ten megaohm, whatever the events say. -/
theorem C90_no_load (ev ev' : ℂ) : Zload1_actual false ev = Zload1_actual false ev' ∧ Zload1_actual true ev = ev := ⟨rfl, rfl⟩

/-- C90: the transformer maps the rated inverter voltage to the rated grid voltage. -/
theorem C90_turns_ratio (n : Nameplate) (V : ℝ) (hV : 0 < n.Vrmsrated) : turns n V * Varated n = V := by
  have : 0 < Varated n := by unfold Varated; positivity
  unfold turns; field_simp

/-! ### C91 -/

/-- C91: the capacitor message is right: acceptable exactly when the capacitance is at least the recommended one. -/
theorem C91_capacitor_message (n : Nameplate) (hV : 0 < n.Vdcrated) (hL : 0 < n.Lf) (hC : 0 < n.C) (hf : 0 < n.fswitching) :
    capacitorMessage n = .acceptable ↔ recommendedC n ≤ n.C := by
  have e : ripplePct n = 100 * (recommendedC n / 100) / n.C := by
    unfold ripplePct recommendedC; field_simp
  unfold capacitorMessage
  have : (if ripplePct n ≤ 1 then Verdict.acceptable else Verdict.warning) = .acceptable ↔ ripplePct n ≤ 1 := by split_ifs <;> simp_all
  rw [this, e, div_le_one hC]
  constructor <;> intro h <;> linarith

/-- C91, wrong: the inductor messages are exchanged: an inductance is called acceptable exactly when it is below the minimum, that is when the ripple exceeds ten percent of rated
current. -/
theorem C91_inductor_message_inverted (n : Nameplate) (hL : 0 < n.Lf) (hf : 0 < n.fswitching) (hI : 0 < Iarated n) :
    (inductorMessage n = .acceptable ↔ n.Lf < LfMin n) ∧ (inductorMessage n = .acceptable ↔ ripple n > 1 / 10 * Iarated n) := by
  have e : (if ripple n > 1 / 10 * Iarated n then Verdict.acceptable else Verdict.warning) = .acceptable ↔ ripple n > 1 / 10 * Iarated n := by
    split_ifs <;> simp_all
  refine ⟨?_, e⟩
  unfold inductorMessage
  rw [e]
  unfold ripple LfMin
  rw [gt_iff_lt, lt_div_iff₀ (by positivity), lt_div_iff₀ (by positivity)]
  constructor <;> intro h <;> linarith

/-! ### C92 -/

theorem ptRMS_eq (v i : ℂ) : ptRMS v i = (sPh v i).re ∧ qtRMS v i = (sPh v i).im := by
  have h7 := sq2
  have h6 := sq2_pos
  have hv1 := Complex.norm_mul_cos_arg v
  have hv2 := Complex.norm_mul_sin_arg v
  have hi1 := Complex.norm_mul_cos_arg i
  have hi2 := Complex.norm_mul_sin_arg i
  have hs : ‖v‖ / Real.sqrt 2 * (‖i‖ / Real.sqrt 2) = ‖v‖ * ‖i‖ / 2 := by rw [div_mul_div_comm, h7]
  constructor
  · unfold ptRMS
    rw [hs, Real.cos_sub, Ode.sPh_re, ← hv1, ← hv2, ← hi1, ← hi2]; ring
  · unfold qtRMS
    rw [hs, Real.sin_sub, Ode.sPh_im, ← hv1, ← hv2, ← hi1, ← hi2]; ring

/-- C92: for the single-phase classes and for the class `SolarPVDERThreePhase` the powers from RMS values and angles equal the phasor powers, so the printed output errors are zero in
every state. -/
theorem C92_output_power_partial (vta vtb vtc ia ib ic : ℂ) :
    Pt_RMS false vta vtb vtc ia ib ic = (sPh vta ia).re ∧ Qt_RMS false vta vtb vtc ia ib ic = (sPh vta ia).im ∧
    Pt_RMS true vta vtb vtc ia ib ic = (sCalc vta vtb vtc ia ib ic).re ∧ Qt_RMS true vta vtb vtc ia ib ic = (sCalc vta vtb vtc ia ib ic).im := by
  refine ⟨(ptRMS_eq _ _).1, (ptRMS_eq _ _).2, ?_, ?_⟩
  · show ptRMS vta ia + ptRMS vtb ib + ptRMS vtc ic = _
    rw [(ptRMS_eq _ _).1, (ptRMS_eq _ _).1, (ptRMS_eq _ _).1, Ode.sPh_re, Ode.sPh_re, Ode.sPh_re, Ode.sCalc_re]; ring
  · show qtRMS vta ia + qtRMS vtb ib + qtRMS vtc ic = _
    rw [(ptRMS_eq _ _).2, (ptRMS_eq _ _).2, (ptRMS_eq _ _).2, Ode.sPh_im, Ode.sPh_im, Ode.sPh_im, Ode.sCalc_im]; ring

/-- C92, false for the other three-phase classes: only phase a enters the RMS power; for symmetric quantities the printed error is two thirds of the power. -/
theorem C92_other_three_phase_wrong (v i : ℂ) :
    (sCalc v (ub v) (uc v) i (ub i) (uc i)).re - Pt_RMS false v (ub v) (uc v) i (ub i) (uc i) = 2 / 3 * (sCalc v (ub v) (uc v) i (ub i) (uc i)).re := by
  rw [(C92_output_power_partial v (ub v) (uc v) i (ub i) (uc i)).1, C52_three_phase_power]
  rw [show (3 : ℂ) = ((3 : ℝ) : ℂ) by norm_num, re_ofReal_mul]; ring

/-- C92: the filter loss errors are zero when the filter is in steady state (terminal voltage = PCC voltage + `(Rf + j Xf)` × current). -/
theorem C92_filter_loss_steady (Rf Xf : ℝ) (va vb vc ia ib ic : ℂ) :
    let Z : ℂ := (Rf : ℂ) + I * (Xf : ℂ)
    let S := sCalc (va + Z * ia) (vb + Z * ib) (vc + Z * ic) ia ib ic - sCalc va vb vc ia ib ic
    S.re = Pf_RMS 3 (urms ia ib ic) Rf ∧ S.im = Qf_RMS 3 (urms ia ib ic) Xf := by
  intro Z S
  have hu : urms ia ib ic ^ 2 = (‖ia‖ ^ 2 + ‖ib‖ ^ 2 + ‖ic‖ ^ 2) / 6 := by
    unfold urms
    rw [div_pow, Real.sq_sqrt (by positivity), Real.sq_sqrt (by norm_num)]; ring
  have hn : ∀ z : ℂ, ‖z‖ ^ 2 = z.re ^ 2 + z.im ^ 2 := by intro z; rw [Complex.sq_norm, Complex.normSq_apply]; ring
  unfold Pf_RMS Qf_RMS
  rw [hu, hn, hn, hn]
  constructor
  · show (sCalc _ _ _ _ _ _ - sCalc _ _ _ _ _ _).re = _
    rw [sub_re, Ode.sCalc_re, Ode.sCalc_re]
    simp only [Z, add_re, add_im, mul_re, mul_im, ofReal_re, Complex.ofReal_im, I_re, I_im]
    ring
  · show (sCalc _ _ _ _ _ _ - sCalc _ _ _ _ _ _).im = _
    rw [sub_im, Ode.sCalc_im, Ode.sCalc_im]
    simp only [Z, add_re, add_im, mul_re, mul_im, ofReal_re, Complex.ofReal_im, I_re, I_im]
    ring

/-- C92, but not during transients: terminal voltage 1 above the PCC voltage with zero resistance. -/
theorem C92_filter_loss_transient : ∃ vta va ia : ℂ, (sCalc vta 0 0 ia 0 0 - sCalc va 0 0 ia 0 0).re ≠ Pf_RMS 3 (urms ia 0 0) 0 := by
  refine ⟨1, 0, 1, ?_⟩
  unfold Pf_RMS
  rw [sub_re, Ode.sCalc_re, Ode.sCalc_re]
  simp

/-- Non-vacuity: the 50 kVA three-phase nameplate with the default base values. -/
noncomputable def exPlate : Nameplate := ⟨50000, 550, 177, 13/10, 1, 1, 1/500, 1/4000, 3/10000, ⟨19/10000, 19/1000⟩, 3, 10000⟩

example : Good exPlate Base.default := by
  constructor <;> simp [exPlate, Base.default, Real.pi_pos]

end Ratings
end PvDer
