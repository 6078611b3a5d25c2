import Verif.Model.Measured
import Verif.Model.Ode
import Verif.Props.Phasor
import Verif.Props.Circuit
import Mathlib.Tactic.Linarith
import Mathlib.Tactic.LinearCombination
import Mathlib.Tactic.Positivity

/-!
# C123: the measured power, voltage and current fit together
-/

namespace PvDer
namespace Measured

open Complex Phasor Circuit

theorem sqrt_two_pos : 0 < Real.sqrt 2 := Real.sqrt_pos.2 (by norm_num)

theorem urms_sq (a b c : ℂ) : 6 * urms a b c ^ 2 = ‖a‖ ^ 2 + ‖b‖ ^ 2 + ‖c‖ ^ 2 := by
  have h : 0 ≤ (‖a‖ ^ 2 + ‖b‖ ^ 2 + ‖c‖ ^ 2) / 3 := by positivity
  simp only [urms, div_pow, Real.sq_sqrt h, Real.sq_sqrt (show (0 : ℝ) ≤ 2 by norm_num)]
  ring

theorem urms_nonneg (a b c : ℂ) : 0 ≤ urms a b c := by unfold urms; positivity

theorem urms_same (a : ℂ) : urms a a a = ‖a‖ / Real.sqrt 2 := by
  unfold urms
  rw [show (‖a‖ ^ 2 + ‖a‖ ^ 2 + ‖a‖ ^ 2) / 3 = ‖a‖ ^ 2 by ring, Real.sqrt_sq (norm_nonneg a)]

/-- Cauchy–Schwarz for three pairs of nonnegative numbers. -/
theorem cs3 (a b c x y z : ℝ) : (a * x + b * y + c * z) ^ 2 ≤ (a ^ 2 + b ^ 2 + c ^ 2) * (x ^ 2 + y ^ 2 + z ^ 2) := by
  nlinarith [sq_nonneg (a * y - b * x), sq_nonneg (a * z - c * x), sq_nonneg (b * z - c * y)]

theorem sCalc_le (va vb vc ia ib ic : ℂ) : ‖sCalc va vb vc ia ib ic‖ ≤ 3 * urms va vb vc * urms ia ib ic := by
  have h1 : ‖sCalc va vb vc ia ib ic‖ ≤ 1 / 2 * (‖va‖ * ‖ia‖ + ‖vb‖ * ‖ib‖ + ‖vc‖ * ‖ic‖) := by
    unfold sCalc
    rw [mul_one, norm_mul]
    have h2 : ‖(1 / 2 : ℂ)‖ = 1 / 2 := by norm_num
    rw [h2]
    have h3 : ‖va * (starRingEnd ℂ) ia + vb * (starRingEnd ℂ) ib + vc * (starRingEnd ℂ) ic‖ ≤ ‖va‖ * ‖ia‖ + ‖vb‖ * ‖ib‖ + ‖vc‖ * ‖ic‖ := by
      refine (norm_add_le _ _).trans (add_le_add ((norm_add_le _ _).trans (add_le_add ?_ ?_)) ?_) <;> rw [norm_mul, Complex.norm_conj]
    linarith
  refine h1.trans ?_
  have hn : 0 ≤ 3 * urms va vb vc * urms ia ib ic := mul_nonneg (mul_nonneg (by norm_num) (urms_nonneg _ _ _)) (urms_nonneg _ _ _)
  refine le_of_sq_le_sq ?_ hn
  have e1 := urms_sq va vb vc
  have e2 := urms_sq ia ib ic
  have hc := cs3 ‖va‖ ‖vb‖ ‖vc‖ ‖ia‖ ‖ib‖ ‖ic‖
  rw [← e1, ← e2] at hc
  calc (1 / 2 * (‖va‖ * ‖ia‖ + ‖vb‖ * ‖ib‖ + ‖vc‖ * ‖ic‖)) ^ 2
      = 1 / 4 * (‖va‖ * ‖ia‖ + ‖vb‖ * ‖ib‖ + ‖vc‖ * ‖ic‖) ^ 2 := by ring
    _ ≤ 1 / 4 * (6 * urms va vb vc ^ 2 * (6 * urms ia ib ic ^ 2)) := by linarith
    _ = (3 * urms va vb vc * urms ia ib ic) ^ 2 := by ring

/-- C123: in a single-phase class the magnitude of the inverter and PCC powers is RMS voltage times RMS current, and the minimum RMS voltage is the RMS voltage. -/
theorem C123_single_phase (s : Inst) :
    ∃ S SP vt v i, S_calc .single s = .ok S ∧ S_PCC_calc .single s = .ok SP ∧ updateRms .single s = .ok (vt, v, v, i) ∧ ‖S‖ = vt * i ∧ ‖SP‖ = v * i ∧
      vt = ‖s.vta‖ / Real.sqrt 2 ∧ v = ‖s.va‖ / Real.sqrt 2 ∧ i = ‖s.ia‖ / Real.sqrt 2 := by
  refine ⟨_, _, _, _, _, rfl, rfl, rfl, ?_, ?_, urms_same _, urms_same _, urms_same _⟩
  all_goals
    rw [urms_same, urms_same]
    simp only [mul_one, norm_mul, Complex.norm_conj]
    have h2 : ‖(1 / 2 : ℂ)‖ = 1 / 2 := by norm_num
    have h3 := Real.mul_self_sqrt (show (0 : ℝ) ≤ 2 by norm_num)
    rw [h2, div_mul_div_comm, h3]
    ring

/-- C123: in a three-phase class no power can exceed three times RMS voltage times RMS current; the PCC power is the sum of the phase powers. -/
theorem C123_three_phase (s : Inst) (k : Kind) (hk : k ≠ .single) (vtb vb ib vtc vc ic : ℂ) (hb : s.bc = some ((vtb, vb, ib), (vtc, vc, ic))) :
    ∃ S SP vt v vm i pa pb pc, S_calc k s = .ok S ∧ S_PCC_calc k s = .ok SP ∧ updateRms k s = .ok (vt, v, vm, i) ∧ phasePowers s = .ok (pa, pb, pc) ∧
      ‖S‖ ≤ 3 * vt * i ∧ ‖SP‖ ≤ 3 * v * i ∧ SP = pa + pb + pc ∧ ‖pa‖ = ‖s.va‖ / Real.sqrt 2 * (‖s.ia‖ / Real.sqrt 2) ∧ vm ≤ v ∧ 0 ≤ vm := by
  have hm := C50_rms_ordered s.va vb vc
  have hs2 := Real.mul_self_sqrt (show (0 : ℝ) ≤ 2 by norm_num)
  have hpa : ‖sPh s.va s.ia‖ = ‖s.va‖ / Real.sqrt 2 * (‖s.ia‖ / Real.sqrt 2) := by
    have h2 : ‖(1 / 2 : ℂ)‖ = 1 / 2 := by norm_num
    simp only [sPh, norm_mul, Complex.norm_conj]
    rw [h2, div_mul_div_comm, hs2]; ring
  have hsum : (1 / 2 : ℂ) * (s.va * (starRingEnd ℂ) s.ia + vb * (starRingEnd ℂ) ib + vc * (starRingEnd ℂ) ic) * 1 = sPh s.va s.ia + sPh vb ib + sPh vc ic := by
    simp only [sPh]; ring
  cases k
  · exact absurd rfl hk
  · refine ⟨sCalc s.vta vtb vtc s.ia ib ic, sCalc s.va vb vc s.ia ib ic, urms s.vta vtb vtc, urms s.va vb vc, urmsMin s.va vb vc, urms s.ia ib ic,
      sPh s.va s.ia, sPh vb ib, sPh vc ic, ?_, ?_, ?_, ?_, sCalc_le _ _ _ _ _ _, sCalc_le _ _ _ _ _ _, hsum, hpa, hm.2.1, hm.1⟩
    · simp only [S_calc, hb]; rfl
    · simp only [S_PCC_calc, hb]; rfl
    · simp only [updateRms, Vtrms_calc, Vrms_calc, Vrms_min_calc, Irms_calc, hb]; rfl
    · simp only [phasePowers, hb]
  · refine ⟨sCalc s.vta vtb vtc s.ia ib ic, sCalc s.va vb vc s.ia ib ic, urms s.vta vtb vtc, urms s.va vb vc, urms s.va vb vc, urms s.ia ib ic,
      sPh s.va s.ia, sPh vb ib, sPh vc ic, ?_, ?_, ?_, ?_, sCalc_le _ _ _ _ _ _, sCalc_le _ _ _ _ _ _, hsum, hpa, le_refl _, urms_nonneg _ _ _⟩
    · simp only [S_calc, hb]; rfl
    · simp only [S_PCC_calc, hb]; rfl
    · simp only [updateRms, Vtrms_calc, Vrms_calc, Irms_calc, hb]; rfl
    · simp only [phasePowers, hb]

theorem norm_ub_sub (v : ℂ) : ‖v - Phasor.ub v‖ = Real.sqrt 3 * ‖v‖ := by
  have h : v - Phasor.ub v = v * (1 - ej (-(2 / 3) * Real.pi)) := by unfold Phasor.ub; ring
  rw [h, norm_mul, mul_comm]
  congr 1
  have h1 : ej (-(2 / 3) * Real.pi) = ((-(1 / 2) : ℝ) : ℂ) + ((-(Real.sqrt 3 / 2) : ℝ) : ℂ) * I := by
    unfold ej
    rw [mul_comm, Complex.exp_mul_I, ← Complex.ofReal_cos, ← Complex.ofReal_sin]
    have e : -(2 / 3) * Real.pi = -(Real.pi - Real.pi / 3) := by ring
    rw [e, Real.cos_neg, Real.sin_neg, Real.cos_pi_sub, Real.sin_pi_sub, Real.cos_pi_div_three, Real.sin_pi_div_three]
  rw [h1]
  have h2 : (1 : ℂ) - (((-(1 / 2) : ℝ) : ℂ) + ((-(Real.sqrt 3 / 2) : ℝ) : ℂ) * I) = ⟨3 / 2, Real.sqrt 3 / 2⟩ := by
    apply Complex.ext <;> simp <;> norm_num
  have h3 : ‖(⟨3 / 2, Real.sqrt 3 / 2⟩ : ℂ)‖ ^ 2 = Real.sqrt 3 ^ 2 := by
    rw [Complex.sq_norm, Complex.normSq_apply]
    have := Real.mul_self_sqrt (show (0 : ℝ) ≤ 3 by norm_num)
    nlinarith
  rw [h2]
  exact (pow_left_inj₀ (norm_nonneg _) (Real.sqrt_nonneg 3) (by norm_num)).1 h3

/-- C123: in balanced operation both powers attain the bound, and every line-to-line RMS voltage is `√3` times the RMS voltage. -/
theorem C123_balanced (s : Inst) (k : Kind) (hk : k ≠ .single)
    (hb : s.bc = some ((Phasor.ub s.vta, Phasor.ub s.va, Phasor.ub s.ia), (Phasor.uc s.vta, Phasor.uc s.va, Phasor.uc s.ia))) :
    ∃ S SP vt v i vtab vab, S_calc k s = .ok S ∧ S_PCC_calc k s = .ok SP ∧ updateRms k s = .ok (vt, v, v, i) ∧ Vtabrms_calc k s = .ok vtab ∧
      Vabrms_calc k s = .ok vab ∧ ‖S‖ = 3 * vt * i ∧ ‖SP‖ = 3 * v * i ∧ vtab = Real.sqrt 3 * vt ∧ vab = Real.sqrt 3 * v := by
  have hs2 := Real.mul_self_sqrt (show (0 : ℝ) ≤ 2 by norm_num)
  have hp : ∀ v i : ℂ, ‖sCalc v (Phasor.ub v) (Phasor.uc v) i (Phasor.ub i) (Phasor.uc i)‖ =
      3 * urms v (Phasor.ub v) (Phasor.uc v) * urms i (Phasor.ub i) (Phasor.uc i) := by
    intro v i
    rw [C52_three_phase_power, (C50_balanced v).1, (C50_balanced i).1]
    have h2 : ‖(1 / 2 : ℂ)‖ = 1 / 2 := by norm_num
    have h3 : ‖(3 : ℂ)‖ = 3 := by norm_num
    simp only [sPh, norm_mul, Complex.norm_conj, urms1]
    rw [h2, h3, mul_assoc (3 : ℝ), div_mul_div_comm, hs2]; ring
  have hl : ∀ v : ℂ, ‖v - Phasor.ub v‖ / Real.sqrt 2 = Real.sqrt 3 * urms v (Phasor.ub v) (Phasor.uc v) := by
    intro v; rw [norm_ub_sub, (C50_balanced v).1, urms1]; ring
  have hr : updateRms k s = .ok (urms s.vta (Phasor.ub s.vta) (Phasor.uc s.vta), urms s.va (Phasor.ub s.va) (Phasor.uc s.va),
      urms s.va (Phasor.ub s.va) (Phasor.uc s.va), urms s.ia (Phasor.ub s.ia) (Phasor.uc s.ia)) := by
    cases k
    · exact absurd rfl hk
    · simp only [updateRms, Vtrms_calc, Vrms_calc, Vrms_min_calc, Irms_calc, hb]
      have := (C50_balanced s.va).2.trans (C50_balanced s.va).1.symm
      rw [this]; rfl
    · simp only [updateRms, Vtrms_calc, Vrms_calc, Irms_calc, hb]; rfl
  refine ⟨sCalc s.vta (Phasor.ub s.vta) (Phasor.uc s.vta) s.ia (Phasor.ub s.ia) (Phasor.uc s.ia),
    sCalc s.va (Phasor.ub s.va) (Phasor.uc s.va) s.ia (Phasor.ub s.ia) (Phasor.uc s.ia), _, _, _, _, _, ?_, ?_, hr, ?_, ?_, hp _ _, hp _ _, hl _, hl _⟩
  · cases k <;> first | exact absurd rfl hk | (simp only [S_calc, hb]; rfl)
  · cases k <;> first | exact absurd rfl hk | (simp only [S_PCC_calc, hb]; rfl)
  · cases k <;> first | exact absurd rfl hk | (simp only [Vtabrms_calc, hb])
  · simp only [Vabrms_calc, hb]

/-- C123: the load and grid-source powers of a three-phase class are the sums over the phases, of a single-phase class those of phase a: the quantities of the power balance
C55. -/
theorem C123_stand_alone (s : Inst) (k : Kind) :
    (k = .single → S_load1_calc k s = .ok (sLoad s.va s.ZL) ∧ S_G_calc k s = .ok (sG s.va s.ia s.vag s.ZL s.a)) ∧
    (k ≠ .single → ∀ vtb vb ib vtc vc ic, s.bc = some ((vtb, vb, ib), (vtc, vc, ic)) →
      S_load1_calc k s = .ok (sLoad s.va s.ZL + sLoad vb s.ZL + sLoad vc s.ZL) ∧
      S_G_calc k s = .ok (sG s.va s.ia s.vag s.ZL s.a + sG vb ib s.vbg s.ZL s.a + sG vc ic s.vcg s.ZL s.a)) := by
  constructor
  · rintro rfl
    refine ⟨rfl, ?_⟩
    simp only [S_G_calc, sG, mul_assoc]
  · intro hk vtb vb ib vtc vc ic hb
    constructor <;> cases k <;> first | exact absurd rfl hk | skip
    all_goals
      simp only [S_load1_calc, S_G_calc, hb, sLoad, sG]
      congr 1
      ring

/-- C123: the line-to-line method of the single-phase classes can only fail: it reads a phase the instance does not have. -/
theorem C123_single_phase_line_voltage (s : Inst) (h : s.bc = none) : Vabrms_calc .single s = .error .attributeError := by simp only [Vabrms_calc, h]

/-- C123: none of the other measurements raises on an instance with the phases of its class. -/
theorem C123_measurements_total (s : Inst) (k : Kind) (h : k = .single ∨ s.bc ≠ none) :
    (∃ x, S_calc k s = .ok x) ∧ (∃ x, S_PCC_calc k s = .ok x) ∧ (∃ x, S_load1_calc k s = .ok x) ∧ (∃ x, S_G_calc k s = .ok x) ∧ (∃ x, updateRms k s = .ok x) := by
  rcases h with rfl | h
  · exact ⟨⟨_, rfl⟩, ⟨_, rfl⟩, ⟨_, rfl⟩, ⟨_, rfl⟩, ⟨_, rfl⟩⟩
  · rcases hb : s.bc with _ | ⟨⟨vtb, vb, ib⟩, ⟨vtc, vc, ic⟩⟩
    · exact absurd hb h
    · cases k <;> simp only [S_calc, S_PCC_calc, S_load1_calc, S_G_calc, updateRms, Vtrms_calc, Vrms_calc, Vrms_min_calc, Irms_calc, hb] <;>
        exact ⟨⟨_, rfl⟩, ⟨_, rfl⟩, ⟨_, rfl⟩, ⟨_, rfl⟩, ⟨_, rfl⟩⟩

/-! ## The filter between inverter and PCC -/

/-- The instance as the attributes of an evaluation show it (stand-alone quantities are not used). -/
noncomputable def inst1 (e : Ode.Env) : Inst := ⟨e.vta, e.va, e.ia, none, 0, 0, 0, 1, 1⟩

/-- See `inst1`. -/
noncomputable def inst3 (e : Ode.Env) : Inst := ⟨e.vta, e.va, e.ia, some ((e.vtb, e.vb, e.ib), (e.vtc, e.vc, e.ic)), 0, 0, 0, 1, 1⟩

/-- The powers in the ODE model are the measured ones. -/
theorem C123_model_powers (p : Ode.Par) (i : Ode.Inp) :
    (∀ y, S_calc .single (inst1 (Ode.env1 p i y)) = .ok (Ode.env1 p i y).S ∧ S_PCC_calc .single (inst1 (Ode.env1 p i y)) = .ok (Ode.env1 p i y).S_PCC) ∧
    (∀ y, S_calc .single (inst1 (Ode.envC1 p i y)) = .ok (Ode.envC1 p i y).S ∧ S_PCC_calc .single (inst1 (Ode.envC1 p i y)) = .ok (Ode.envC1 p i y).S_PCC) ∧
    (∀ y, S_calc .three (inst3 (Ode.envT p i y)) = .ok (Ode.envT p i y).S ∧ S_PCC_calc .three (inst3 (Ode.envT p i y)) = .ok (Ode.envT p i y).S_PCC) ∧
    (∀ y, S_calc .three (inst3 (Ode.envN p i y)) = .ok (Ode.envN p i y).S ∧ S_PCC_calc .three (inst3 (Ode.envN p i y)) = .ok (Ode.envN p i y).S_PCC) ∧
    (∀ y, S_calc .three (inst3 (Ode.envC3 p i y)) = .ok (Ode.envC3 p i y).S ∧ S_PCC_calc .three (inst3 (Ode.envC3 p i y)) = .ok (Ode.envC3 p i y).S_PCC) ∧
    (∀ y, S_calc .balanced (inst3 (Ode.envB p i y)) = .ok (Ode.envB p i y).S ∧ S_PCC_calc .balanced (inst3 (Ode.envB p i y)) = .ok (Ode.envB p i y).S_PCC) := by
  have e : ∀ v i : ℂ, (1 / 2 : ℂ) * (v * (starRingEnd ℂ) i) * 1 = sPh v i := fun v i => by simp only [sPh, mul_one]
  refine ⟨fun y => ⟨?_, rfl⟩, fun y => ⟨?_, rfl⟩, fun y => ⟨rfl, rfl⟩, fun y => ⟨rfl, rfl⟩, fun y => ⟨rfl, rfl⟩, fun y => ⟨rfl, rfl⟩⟩ <;>
    exact congrArg Except.ok (e _ _)

theorem drop (L R w : ℝ) (hL : L ≠ 0) (i v vt : ℂ) (hr : 1 / L * (-R * i.re - v.re + vt.re) + w * i.im = 0) (hi : 1 / L * (-R * i.im - v.im + vt.im) - w * i.re = 0) :
    vt - v = ((R : ℂ) + I * (w * L)) * i := by
  have h1 : -R * i.re - v.re + vt.re + L * w * i.im = 0 := by
    have := congrArg (fun z => L * z) hr
    simp only [mul_zero] at this
    field_simp at this
    linarith
  have h2 : -R * i.im - v.im + vt.im - L * w * i.re = 0 := by
    have := congrArg (fun z => L * z) hi
    simp only [mul_zero] at this
    field_simp at this
    linarith
  apply Complex.ext <;> simp <;> linarith

theorem mul_conj_norm (z i : ℂ) : z * i * (starRingEnd ℂ) i = z * ((‖i‖ ^ 2 : ℝ) : ℂ) := by
  rw [mul_assoc, Complex.mul_conj, ← Complex.sq_norm]

/-- C123: whenever the current is at rest, the power lost between inverter and PCC is the squared RMS current times the filter impedance at inverter frequency: in
particular the active losses are `Irms²·Rf` (single phase) … -/
theorem C123_filter_losses_single (p : Ode.Par) (i : Ode.Inp) (y : Ode.SinglePhase.V → ℝ) (hL : p.Lf ≠ 0)
    (hR : Ode.SinglePhase.rhs (Ode.env1 p i y) .iaR = 0) (hI : Ode.SinglePhase.rhs (Ode.env1 p i y) .iaI = 0) :
    let e := Ode.env1 p i y
    e.S - e.S_PCC = ((p.Rf : ℂ) + I * ((e.winv / p.wbase : ℝ) * p.Lf)) * ((urms e.ia e.ia e.ia ^ 2 : ℝ) : ℂ) ∧
      e.S.re - e.S_PCC.re = p.Rf * urms e.ia e.ia e.ia ^ 2 := by
  intro e
  have hd : e.vta - e.va = ((p.Rf : ℂ) + I * ((e.winv / p.wbase : ℝ) * p.Lf)) * e.ia := drop p.Lf p.Rf (e.winv / p.wbase) hL e.ia e.va e.vta hR hI
  have hu := urms_sq e.ia e.ia e.ia
  have key : e.S - e.S_PCC = ((p.Rf : ℂ) + I * ((e.winv / p.wbase : ℝ) * p.Lf)) * ((urms e.ia e.ia e.ia ^ 2 : ℝ) : ℂ) := by
    have h1 : e.S - e.S_PCC = (1 / 2) * ((e.vta - e.va) * (starRingEnd ℂ) e.ia) := by
      show sPh e.vta e.ia - sPh e.va e.ia = _
      simp only [sPh]; ring
    have hu2 : (urms e.ia e.ia e.ia ^ 2 : ℝ) = 1 / 2 * ‖e.ia‖ ^ 2 := by linarith
    rw [h1, hd, mul_conj_norm, hu2]
    push_cast
    ring
  refine ⟨key, ?_⟩
  have := congrArg Complex.re key
  rw [Complex.sub_re, Complex.mul_re, Complex.ofReal_im, mul_zero, sub_zero, Complex.ofReal_re] at this
  rw [this]
  simp

/-- … and `3·Irms²·Rf` (three phases). -/
theorem C123_filter_losses_three (p : Ode.Par) (i : Ode.Inp) (y : Ode.ThreePhase.V → ℝ) (hL : p.Lf ≠ 0)
    (h0 : ∀ r, r = Ode.ThreePhase.V.iaR ∨ r = .iaI ∨ r = .ibR ∨ r = .ibI ∨ r = .icR ∨ r = .icI → Ode.ThreePhase.rhs (Ode.envT p i y) r = 0) :
    let e := Ode.envT p i y
    e.S - e.S_PCC = 3 * (((p.Rf : ℂ) + I * ((e.winv / p.wbase : ℝ) * p.Lf)) * ((urms e.ia e.ib e.ic ^ 2 : ℝ) : ℂ)) ∧
      e.S.re - e.S_PCC.re = 3 * (p.Rf * urms e.ia e.ib e.ic ^ 2) := by
  intro e
  have ha : e.vta - e.va = ((p.Rf : ℂ) + I * ((e.winv / p.wbase : ℝ) * p.Lf)) * e.ia :=
    drop p.Lf p.Rf (e.winv / p.wbase) hL e.ia e.va e.vta (h0 .iaR (by simp)) (h0 .iaI (by simp))
  have hb : e.vtb - e.vb = ((p.Rf : ℂ) + I * ((e.winv / p.wbase : ℝ) * p.Lf)) * e.ib :=
    drop p.Lf p.Rf (e.winv / p.wbase) hL e.ib e.vb e.vtb (h0 .ibR (by simp)) (h0 .ibI (by simp))
  have hc : e.vtc - e.vc = ((p.Rf : ℂ) + I * ((e.winv / p.wbase : ℝ) * p.Lf)) * e.ic :=
    drop p.Lf p.Rf (e.winv / p.wbase) hL e.ic e.vc e.vtc (h0 .icR (by simp)) (h0 .icI (by simp))
  have hu := urms_sq e.ia e.ib e.ic
  have key : e.S - e.S_PCC = 3 * (((p.Rf : ℂ) + I * ((e.winv / p.wbase : ℝ) * p.Lf)) * ((urms e.ia e.ib e.ic ^ 2 : ℝ) : ℂ)) := by
    have h1 : e.S - e.S_PCC = (1 / 2) * ((e.vta - e.va) * (starRingEnd ℂ) e.ia + (e.vtb - e.vb) * (starRingEnd ℂ) e.ib + (e.vtc - e.vc) * (starRingEnd ℂ) e.ic) := by
      show sCalc e.vta e.vtb e.vtc e.ia e.ib e.ic - sCalc e.va e.vb e.vc e.ia e.ib e.ic = _
      simp only [sCalc]; ring
    have hu2 : (urms e.ia e.ib e.ic ^ 2 : ℝ) = 1 / 6 * (‖e.ia‖ ^ 2 + ‖e.ib‖ ^ 2 + ‖e.ic‖ ^ 2) := by linarith
    rw [h1, ha, hb, hc, mul_conj_norm, mul_conj_norm, mul_conj_norm, hu2]
    push_cast
    ring
  refine ⟨key, ?_⟩
  have := congrArg Complex.re key
  rw [Complex.sub_re, Complex.mul_re, Complex.mul_re, Complex.ofReal_im, mul_zero, sub_zero, Complex.ofReal_re] at this
  rw [this]
  simp

/-- A concrete instance: 1 p.u. behind a unit current at 90°, and its other two phases. -/
example : ∃ s : Inst, s.bc = some ((Phasor.ub s.vta, Phasor.ub s.va, Phasor.ub s.ia), (Phasor.uc s.vta, Phasor.uc s.va, Phasor.uc s.ia)) ∧ s.va ≠ 0 ∧ s.ia ≠ s.va :=
  ⟨⟨1, 1, I, some ((Phasor.ub 1, Phasor.ub 1, Phasor.ub I), (Phasor.uc 1, Phasor.uc 1, Phasor.uc I)), 1, 1, 1, 1, 1⟩, rfl, one_ne_zero, by
    intro h; simpa using congrArg Complex.re h⟩

end Measured
end PvDer
