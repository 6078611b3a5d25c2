import Verif.Lemmas.Decay
import Verif.Props.StaysBalanced
import Verif.Props.Windup

/-!
# C112: after a disconnection the currents die out

A disconnected DER (tripped, or in momentary cessation) has zero references and no PV power, but stays electrically connected to a terminal voltage.  Along every solution of
each model class under a constant terminal voltage (balanced or not): the inverter currents and the controller errors tend to zero, the DC voltage settles, and the duty cycles
settle at the values that balance the terminal voltage.  The only condition on the initial state is that its energy leaves room below the duty cycle limit.
-/

namespace PvDer
namespace Ode
open Complex Phasor Filter Topology

/-- Positive circuit elements and gains; the integrator of the current controller is slower than its input filter. -/
structure DecayPar (p : Par) : Prop where
  Lf : 0 < p.Lf
  Rf : 0 < p.Rf
  Ki : 0 < p.Ki_GCC
  wp : 0 < p.wp
  gain : p.Ki_GCC < p.Kp_GCC * p.wp

/-- Energy of one phase of a disconnected inverter with terminal voltage `v`, measured from the rest state at DC voltage `V0`: filter current, integrator and input filter of
the current controller.  It vanishes exactly if the current is zero and the inverter voltage balances the terminal voltage. -/
noncomputable def phaseEnergy (p : Par) (V0 : ℝ) (v i u x : ℂ) : ℝ :=
  p.Lf / 2 * ‖i‖ ^ 2 +
    V0 / 2 * (‖x - ((2 / V0 : ℝ) : ℂ) * v + ((p.Ki_GCC / p.wp : ℝ) : ℂ) * u‖ ^ 2 / (2 * p.Ki_GCC) + (p.Kp_GCC - p.Ki_GCC / p.wp) * ‖u‖ ^ 2 / (2 * p.wp))

/-- Largest duty cycle an inverter with terminal voltage `v` can reach with energy `E`, shared by `g` equal phases. -/
noncomputable def dutyReach (p : Par) (g V0 : ℝ) (v : ℂ) (E : ℝ) : ℝ := 2 * ‖v‖ / V0 + Real.sqrt (4 * p.Kp_GCC * p.wp / (g * V0) * E)

/-- One phase dies out: current bounded by the initial energy, duty cycle below its limit at all times, current and filtered current error tend to zero. -/
structure PhaseDies (p : Par) (g E : ℝ) (i u x : ℝ → ℂ) : Prop where
  current : ∀ t, 0 ≤ t → g * (p.Lf / 2) * ‖i t‖ ^ 2 ≤ E
  duty : ∀ t, 0 ≤ t → ‖duty p (u t) (x t)‖ < p.m_limit
  dies : Tendsto i atTop (𝓝 0)
  error : Tendsto u atTop (𝓝 0)

theorem reDeriv {f : ℝ → ℂ} {d : ℂ} {t : ℝ} (h : HasDerivAt f d t) : HasDerivAt (fun s => (f s).re) d.re t := Complex.reCLM.hasFDerivAt.comp_hasDerivAt t h
theorem imDeriv {f : ℝ → ℂ} {d : ℂ} {t : ℝ} (h : HasDerivAt f d t) : HasDerivAt (fun s => (f s).im) d.im t := Complex.imCLM.hasFDerivAt.comp_hasDerivAt t h

theorem tendsto_mk {f : ℝ → ℂ} {z : ℂ} (h1 : Tendsto (fun t => (f t).re) atTop (𝓝 z.re)) (h2 : Tendsto (fun t => (f t).im) atTop (𝓝 z.im)) : Tendsto f atTop (𝓝 z) := by
  have h3 := ((Complex.continuous_ofReal.tendsto _).comp h1).add (((Complex.continuous_ofReal.tendsto _).comp h2).mul_const I)
  rw [Complex.re_add_im] at h3
  exact h3.congr (fun t => by simp)

/-- The data for the energy argument. -/
noncomputable def decayDat (p : Par) (Cc g V0 : ℝ) {ι : Type} (v : ι → ℂ) : Decay.Dat ι :=
  { g := g, L := p.Lf, R := p.Rf, C := Cc, Kp := p.Kp_GCC, Ki := p.Ki_GCC, wp := p.wp, ψ0 := V0, vR := fun k => (v k).re, vI := fun k => (v k).im }

/-- The trajectory for the energy argument. -/
noncomputable def decayTrj {ι : Type} (i u x : ι → ℝ → ℂ) (ψ : ℝ → ℝ) : Decay.Trj ι :=
  { iR := fun k t => (i k t).re, iI := fun k t => (i k t).im, uR := fun k t => (u k t).re, uI := fun k t => (u k t).im,
    xR := fun k t => (x k t).re, xI := fun k t => (x k t).im, ψ := ψ }

theorem comp_eq (p : Par) (Cc g V0 : ℝ) {ι : Type} (vv : ι → ℂ) (v i u x : ℂ) :
    Decay.comp (decayDat p Cc g V0 vv) v.re i.re u.re x.re + Decay.comp (decayDat p Cc g V0 vv) v.im i.im u.im x.im = phaseEnergy p V0 v i u x := by
  unfold Decay.comp phaseEnergy
  simp only [decayDat, ← Complex.normSq_eq_norm_sq, Complex.normSq_apply]
  simp only [add_re, add_im, sub_re, sub_im, mul_re, mul_im, ofReal_re, Complex.ofReal_im]
  ring

theorem energy_eq (p : Par) (Cc g V0 : ℝ) {ι : Type} [Fintype ι] (v : ι → ℂ) (i u x : ι → ℝ → ℂ) (ψ : ℝ → ℝ) (t : ℝ) :
    Decay.energy (decayDat p Cc g V0 v) (decayTrj i u x ψ) t = g * ∑ k, phaseEnergy p V0 (v k) (i k t) (u k t) (x k t) + Cc * (ψ t - V0) ^ 2 := by
  unfold Decay.energy
  simp only [decayTrj]
  show g * _ + Cc * (ψ t - V0) ^ 2 = _
  congr 2
  exact Finset.sum_congr rfl (fun k _ => comp_eq p Cc g V0 v (v k) (i k t) (u k t) (x k t))

variable (p : Par) (inp : ℝ → Inp)

theorem sPhVt_re (u x i : ℂ) (V : ℝ) : (sPh (vtOf p u x V) i).re = V / 4 * (duty p u x * (starRingEnd ℂ) i).re := by
  have : sPh (vtOf p u x V) i = ((V / 4 : ℝ) : ℂ) * (duty p u x * (starRingEnd ℂ) i) := by unfold sPh vtOf; push_cast; ring
  rw [this, re_ofReal_mul]

theorem sCalcVt_re (ua xa ia ub xb ib uc xc ic : ℂ) (V : ℝ) : (sCalc (vtOf p ua xa V) (vtOf p ub xb V) (vtOf p uc xc V) ia ib ic).re =
    V / 4 * ((duty p ua xa * (starRingEnd ℂ) ia).re + (duty p ub xb * (starRingEnd ℂ) ib).re + (duty p uc xc * (starRingEnd ℂ) ic).re) := by
  have : sCalc (vtOf p ua xa V) (vtOf p ub xb V) (vtOf p uc xc V) ia ib ic =
      ((V / 4 : ℝ) : ℂ) * (duty p ua xa * (starRingEnd ℂ) ia + duty p ub xb * (starRingEnd ℂ) ib + duty p uc xc * (starRingEnd ℂ) ic) := by unfold sCalc vtOf; push_cast; ring
  rw [this, re_ofReal_mul, add_re, add_re]

theorem sBal_re (u x i : ℂ) (V : ℝ) : (sCalc (vtOf p u x V) (vtOf p (Phasor.ub u) (Phasor.ub x) V) (vtOf p (Phasor.uc u) (Phasor.uc x) V) i (Phasor.ub i) (Phasor.uc i)).re =
    V / 4 * (3 * (duty p u x * (starRingEnd ℂ) i).re) := by
  have e1 : vtOf p (Phasor.ub u) (Phasor.ub x) V = Phasor.ub (vtOf p u x V) := by unfold vtOf duty Phasor.ub; ring
  have e2 : vtOf p (Phasor.uc u) (Phasor.uc x) V = Phasor.uc (vtOf p u x V) := by unfold vtOf duty Phasor.uc; ring
  have e3 : ((3 : ℂ) * sPh (vtOf p u x V) i).re = 3 * (sPh (vtOf p u x V) i).re := by simp
  rw [e1, e2, C52_three_phase_power, e3, sPhVt_re]
  ring

/-- The argument common to all classes. -/
theorem dies_out {ι : Type} [Fintype ι] (hp : DecayPar p) {g V0 E Cc : ℝ} (hCc : 0 < Cc) (hg : 0 < g) (hV0 : 0 < V0) {v : ι → ℂ} {i u x : ι → ℝ → ℂ} {ψ w d : ℝ → ℝ}
    (hph : ∀ k t, 0 ≤ t → ‖duty p (u k t) (x k t)‖ ≤ p.m_limit →
      Defect.Phase p.Lf p.Rf p.Kp_GCC p.Ki_GCC p.wp ψ w (fun _ => v k) (fun _ => 0) (i k) (x k) (u k) t)
    (hcu : ∀ k t, 0 ≤ t → ContinuousAt (u k) t ∧ ContinuousAt (x k) t)
    (hψ : ∀ t, 0 ≤ t → HasDerivAt ψ (d t) t)
    (hl : (∀ t, 0 ≤ t → 0 < ψ t → 4 * Cc * d t + g * ∑ k, (duty p (u k t) (x k t) * (starRingEnd ℂ) (i k t)).re = 0) ∨ (∀ t, 0 ≤ t → d t = 0 ∧ ψ t = V0))
    (hE : g * ∑ k, phaseEnergy p V0 (v k) (i k 0) (u k 0) (x k 0) + Cc * (ψ 0 - V0) ^ 2 = E)
    (hm : ∀ k, dutyReach p g V0 (v k) E < p.m_limit) (hC : E < Cc * V0 ^ 2) :
    (∀ k, PhaseDies p g E (i k) (u k) (x k)) ∧ (∀ t, 0 ≤ t → |ψ t - V0| ≤ Real.sqrt (E / Cc)) ∧
    ((∃ B, ∀ t, 0 ≤ t → |w t| ≤ B) → ∃ l, 0 < l ∧ Tendsto ψ atTop (𝓝 l) ∧ ∀ k, Tendsto (x k) atTop (𝓝 (((2 / l : ℝ) : ℂ) * v k))) := by
  set a := decayDat p Cc g V0 v with ha
  set y := decayTrj i u x ψ with hy
  have hok : a.Ok := ⟨hg, hp.Lf, hp.Rf, hCc, hp.Ki, hp.wp, hV0, hp.gain⟩
  have hE0 : Decay.energy a y 0 = E := by rw [ha, hy, energy_eq]; exact hE
  have hmeq : ∀ k t, y.m a k t = duty p (u k t) (x k t) := by
    intro k t
    apply Complex.ext <;> simp [Decay.Trj.m, duty, hy, ha, decayTrj, decayDat]
  have hlk : ∀ t, 0 ≤ t → 0 < ψ t → (∀ k, ((a.Kp * y.uR k t + y.xR k t) * y.iR k t + (a.Kp * y.uI k t + y.xI k t) * y.iI k t) =
      (duty p (u k t) (x k t) * (starRingEnd ℂ) (i k t)).re) := by
    intro t _ _ k
    simp [duty, hy, ha, decayTrj, decayDat]
  have heq : ∀ t, 0 ≤ t → (∀ k, ‖y.m a k t‖ ≤ p.m_limit) → 0 < y.ψ t → Decay.Eqs a y w d t := by
    intro t ht hsat hpos
    have hk : ∀ k, Defect.Phase p.Lf p.Rf p.Kp_GCC p.Ki_GCC p.wp ψ w (fun _ => v k) (fun _ => 0) (i k) (x k) (u k) t := fun k => hph k t ht (by rw [← hmeq]; exact hsat k)
    refine ⟨fun k => (reDeriv (hk k).di).congr_deriv ?_, fun k => (imDeriv (hk k).di).congr_deriv ?_, fun k => (reDeriv (hk k).du).congr_deriv ?_,
      fun k => (imDeriv (hk k).du).congr_deriv ?_, fun k => (reDeriv (hk k).dx).congr_deriv ?_, fun k => (imDeriv (hk k).dx).congr_deriv ?_, hψ t ht, ?_⟩
    · simp [hy, ha, decayTrj, decayDat]
    · simp [hy, ha, decayTrj, decayDat]
    · simp [hy, ha, decayTrj, decayDat]
    · simp [hy, ha, decayTrj, decayDat]
    · simp [hy, ha, decayTrj, decayDat]
    · simp [hy, ha, decayTrj, decayDat]
    · rcases hl with hl | hl
      · have := hl t ht hpos
        rw [← Finset.sum_congr rfl (fun k _ => hlk t ht hpos k)] at this
        show _ * (4 * Cc * d t + g * _) = 0
        rw [this, mul_zero]
      · show (ψ t - V0) * _ = 0
        rw [(hl t ht).2, sub_self, zero_mul]
  have hroom := Decay.room hok (y := y) (w := w) (d := d) (mlim := p.m_limit)
    (fun k t ht => by
      obtain ⟨h1, h2⟩ := hcu k t ht
      exact ⟨Complex.continuous_re.continuousAt.comp h1, Complex.continuous_im.continuousAt.comp h1, Complex.continuous_re.continuousAt.comp h2,
        Complex.continuous_im.continuousAt.comp h2⟩)
    (fun t ht => (hψ t ht).continuousAt) heq (fun k => by rw [hE0]; exact hm k) (by rw [hE0]; exact hC)
  set lo := V0 - Real.sqrt (E / Cc) with hlo
  have hlo0 : 0 < lo := by
    have : Real.sqrt (E / Cc) < V0 := by
      rw [Real.sqrt_lt' hV0, div_lt_iff₀ hCc]; linarith
    linarith
  have hψlo : ∀ t, 0 ≤ t → lo ≤ ψ t := fun t ht => by have := (hroom t ht).2; rw [hE0] at this; exact this
  have hdut : ∀ k t, 0 ≤ t → ‖duty p (u k t) (x k t)‖ < p.m_limit := fun k t ht => by
    have h1 := (hroom t ht).1 k
    rw [hE0, hmeq] at h1
    exact lt_of_le_of_lt h1 (hm k)
  have hrun : Decay.Run a y w d := ⟨hok, fun t ht => heq t ht (fun k => by rw [hmeq]; exact (hdut k t ht).le) (hlo0.trans_le (hψlo t ht))⟩
  have hlink : Decay.Run.Link a y d := by
    rcases hl with hl | hl
    · refine Or.inl (fun t ht => ?_)
      have hpos := hlo0.trans_le (hψlo t ht)
      have := hl t ht hpos
      rw [← Finset.sum_congr rfl (fun k _ => hlk t ht hpos k)] at this
      exact this
    · exact Or.inr hl
  have hle : ∀ t, 0 ≤ t → Decay.energy a y t ≤ E := fun t ht => by rw [← hE0]; exact hrun.le ht
  refine ⟨fun k => ⟨fun t ht => ?_, hdut k, ?_, ?_⟩, fun t ht => ?_, fun hw => ?_⟩
  · have h1 := (Decay.phase_le hok y t k).trans (hle t ht)
    have b1 := (Decay.comp_bounds hok (a.vR k) (y.iR k t) (y.uR k t) (y.xR k t)).1
    have b2 := (Decay.comp_bounds hok (a.vI k) (y.iI k t) (y.uI k t) (y.xI k t)).1
    have b3 : g * (a.L / 2 * y.iR k t ^ 2 + a.L / 2 * y.iI k t ^ 2) ≤ E := le_trans (mul_le_mul_of_nonneg_left (add_le_add b1 b2) hg.le) h1
    have e : ‖i k t‖ ^ 2 = y.iR k t ^ 2 + y.iI k t ^ 2 := by
      rw [← Complex.normSq_eq_norm_sq, Complex.normSq_apply]; simp [hy, decayTrj]; ring
    rw [e]
    have : a.L = p.Lf := rfl
    rw [this] at b3
    linarith
  · exact tendsto_mk (hrun.vanish k).1 (hrun.vanish k).2.1
  · exact tendsto_mk (hrun.vanish k).2.2.1 (hrun.vanish k).2.2.2
  · have h1 := (Decay.cap_le hok y t).trans (hle t ht)
    have h2 : (ψ t - V0) ^ 2 ≤ E / Cc := by
      rw [le_div_iff₀ hCc]
      have : Cc * (ψ t - V0) ^ 2 ≤ E := h1
      linarith
    exact Real.abs_le_sqrt h2
  · obtain ⟨B, hB⟩ := hw
    have hwb : Decay.Bdd w := ⟨B, (abs_nonneg _).trans (hB 0 le_rfl), hB⟩
    obtain ⟨l, hll, hlt⟩ := hrun.ψ_settles hlink hwb hlo0 hψlo
    have hl0 : 0 < l := hlo0.trans_le hll
    refine ⟨l, hl0, hlt, fun k => ?_⟩
    obtain ⟨s1, s2⟩ := hrun.x_settles hlink hwb hl0 hlt k
    refine tendsto_mk ?_ ?_
    · rw [show (((2 / l : ℝ) : ℂ) * v k).re = 2 * a.vR k / l by rw [re_ofReal_mul]; show _ = 2 * (v k).re / l; ring]
      exact s1
    · rw [show (((2 / l : ℝ) : ℂ) * v k).im = 2 * a.vI k / l by rw [im_ofReal_mul]; show _ = 2 * (v k).im / l; ring]
      exact s2


/-- C112 for the class `SinglePhase`. -/
theorem C112_current_dies_single (hp : DecayPar p) (hCp : 0 < p.C) (Y : ℝ → SinglePhase.V → ℝ) (V0 : ℝ) (hV0 : 0 < V0) (va : ℂ) (hg : ∀ t, 0 ≤ t → (inp t).va = va)
    (h : ∀ t, 0 ≤ t → Solves (fun t y => SinglePhase.rhs (disc (env1 p (inp t) y))) Y t)
    (E : ℝ) (hE : E = phaseEnergy p V0 va ⟨Y 0 .iaR, Y 0 .iaI⟩ ⟨Y 0 .uaR, Y 0 .uaI⟩ ⟨Y 0 .xaR, Y 0 .xaI⟩ + p.C * (Y 0 .Vdc - V0) ^ 2)
    (hma : dutyReach p 1 V0 va E < p.m_limit) (hC : E < p.C * V0 ^ 2) :
    PhaseDies p 1 E (fun t => ⟨Y t .iaR, Y t .iaI⟩) (fun t => ⟨Y t .uaR, Y t .uaI⟩) (fun t => ⟨Y t .xaR, Y t .xaI⟩) ∧
    (∀ t, 0 ≤ t → |Y t .Vdc - V0| ≤ Real.sqrt (E / p.C)) ∧
    ((∃ B, ∀ t, 0 ≤ t → |(env1 p (inp t) (Y t)).winv| ≤ B) → ∃ l, 0 < l ∧ Tendsto (fun t => Y t .Vdc) atTop (𝓝 l) ∧ Tendsto (fun t => (⟨Y t .xaR, Y t .xaI⟩ : ℂ)) atTop (𝓝 (((2 / l : ℝ) : ℂ) * va))) := by
  have hw : ∀ {B : ℝ}, (∀ t, 0 ≤ t → |(env1 p (inp t) (Y t)).winv| ≤ B) → ∃ B, ∀ t, 0 ≤ t → |(env1 p (inp t) (Y t)).winv / p.wbase| ≤ B := by
    intro B hB
    refine ⟨B / |p.wbase|, fun t ht => ?_⟩
    rw [abs_div]
    exact div_le_div_of_nonneg_right (hB t ht) (abs_nonneg _)
  have Pa : ∀ s, 0 ≤ s → ‖duty p ⟨Y s .uaR, Y s .uaI⟩ ⟨Y s .xaR, Y s .xaI⟩‖ ≤ p.m_limit →
      Defect.Phase p.Lf p.Rf p.Kp_GCC p.Ki_GCC p.wp (fun t => Y t .Vdc) (fun t => (env1 p (inp t) (Y t)).winv / p.wbase) (fun _ => va) (fun _ => 0)
        (fun t => ⟨Y t .iaR, Y t .iaI⟩) (fun t => ⟨Y t .xaR, Y t .xaI⟩) (fun t => ⟨Y t .uaR, Y t .uaI⟩) s := by
    intro s hs hsat
    have cs := connIf_state false (env1 p (inp s) (Y s))
    have hd := h s hs
    have aw := C57_antiwindup_single_phase (disc (env1 p (inp s) (Y s)))
    have ns : ¬ mSat (disc (env1 p (inp s) (Y s))) (disc (env1 p (inp s) (Y s))).ua (disc (env1 p (inp s) (Y s))).xa := by
      show ¬ mSat (connIf false _) (connIf false _).ua (connIf false _).xa
      simp only [mSat, cs]; exact not_lt.2 hsat
    have hv : (env1 p (inp s) (Y s)).va = va := (hg s hs)
    have e3 := aw.1.plain ns
    have e4 := aw.2.1.plain ns
    have e5 := aw.2.2.1.plain ns
    have e6 := aw.2.2.2.1.plain ns
    refine phase_of p (vt := (env1 p (inp s) (Y s)).vta) rfl ((hd .iaR).congr_deriv ?_) ((hd .iaI).congr_deriv ?_) ((hd .xaR).congr_deriv ?_) ((hd .xaI).congr_deriv ?_)
      ((hd .uaR).congr_deriv ?_) ((hd .uaI).congr_deriv ?_)
    · show SinglePhase.rhs (connIf false _) _ = _
      simp only [SinglePhase.rhs, cs, hv]; rfl
    · show SinglePhase.rhs (connIf false _) _ = _
      simp only [SinglePhase.rhs, cs, hv]; rfl
    · beta_reduce; rw [e3]; rfl
    · beta_reduce; rw [e4]; rfl
    · beta_reduce; rw [e5]; rfl
    · beta_reduce; rw [e6]; rfl
  have key := dies_out p hp (ι := Unit) (g := 1) (V0 := V0) (E := E) (Cc := p.C) hCp (by norm_num) hV0
    (v := (fun _ => va)) (i := (fun _ => fun t => ⟨Y t .iaR, Y t .iaI⟩)) (u := (fun _ => fun t => ⟨Y t .uaR, Y t .uaI⟩))
    (x := (fun _ => fun t => ⟨Y t .xaR, Y t .xaI⟩)) (ψ := fun t => Y t .Vdc) (w := fun t => (env1 p (inp t) (Y t)).winv / p.wbase) (d := fun t => SinglePhase.rhs (disc (env1 p (inp t) (Y t))) .Vdc)
    (fun _ => Pa)
    (fun _ => fun t ht => ⟨continuousAt_mk (h t ht .uaR) (h t ht .uaI), continuousAt_mk (h t ht .xaR) (h t ht .xaI)⟩)
    (fun t ht => h t ht .Vdc)
    (Or.inl (fun t ht hpos => by
      have e : SinglePhase.rhs (disc (env1 p (inp t) (Y t))) .Vdc = (0 - (env1 p (inp t) (Y t)).S.re) / (Y t .Vdc * p.C) := rfl
      have hS := sPhVt_re p (⟨Y t .uaR, Y t .uaI⟩) (⟨Y t .xaR, Y t .xaI⟩) (⟨Y t .iaR, Y t .iaI⟩) (Y t .Vdc)
      have hS' : (env1 p (inp t) (Y t)).S.re = _ := hS
      rw [e, hS']
      simp only [Finset.univ_unique, Finset.sum_const, Finset.card_singleton, one_smul, Fin.sum_univ_three, Matrix.cons_val_zero, Matrix.cons_val_one, Matrix.cons_val]
      have : Y t .Vdc ≠ 0 := ne_of_gt hpos
      field_simp
      ring))
    (by
      rw [hE]
      simp only [Finset.univ_unique, Finset.sum_const, Finset.card_singleton, one_smul, Fin.sum_univ_three, Matrix.cons_val_zero, Matrix.cons_val_one, Matrix.cons_val]
      try ring)
    (fun _ => hma)
    hC
  exact ⟨key.1 (), key.2.1, fun ⟨B, hB⟩ => by
    obtain ⟨l, h1, h2, h3⟩ := key.2.2 (hw hB)
    exact ⟨l, h1, h2, h3 ()⟩⟩

/-- C112 for the class `ThreePhase`. -/
theorem C112_current_dies_three (hp : DecayPar p) (hCp : 0 < p.C) (Y : ℝ → ThreePhase.V → ℝ) (V0 : ℝ) (hV0 : 0 < V0) (va vb vc : ℂ) (hg : ∀ t, 0 ≤ t → (inp t).va = va ∧ (inp t).vb = vb ∧ (inp t).vc = vc)
    (h : ∀ t, 0 ≤ t → Solves (fun t y => ThreePhase.rhs (disc (envT p (inp t) y))) Y t)
    (E : ℝ) (hE : E = phaseEnergy p V0 va ⟨Y 0 .iaR, Y 0 .iaI⟩ ⟨Y 0 .uaR, Y 0 .uaI⟩ ⟨Y 0 .xaR, Y 0 .xaI⟩ + phaseEnergy p V0 vb ⟨Y 0 .ibR, Y 0 .ibI⟩ ⟨Y 0 .ubR, Y 0 .ubI⟩ ⟨Y 0 .xbR, Y 0 .xbI⟩ + phaseEnergy p V0 vc ⟨Y 0 .icR, Y 0 .icI⟩ ⟨Y 0 .ucR, Y 0 .ucI⟩ ⟨Y 0 .xcR, Y 0 .xcI⟩ + p.C * (Y 0 .Vdc - V0) ^ 2)
    (hma : dutyReach p 1 V0 va E < p.m_limit) (hmb : dutyReach p 1 V0 vb E < p.m_limit) (hmc : dutyReach p 1 V0 vc E < p.m_limit) (hC : E < p.C * V0 ^ 2) :
    PhaseDies p 1 E (fun t => ⟨Y t .iaR, Y t .iaI⟩) (fun t => ⟨Y t .uaR, Y t .uaI⟩) (fun t => ⟨Y t .xaR, Y t .xaI⟩) ∧ PhaseDies p 1 E (fun t => ⟨Y t .ibR, Y t .ibI⟩) (fun t => ⟨Y t .ubR, Y t .ubI⟩) (fun t => ⟨Y t .xbR, Y t .xbI⟩) ∧ PhaseDies p 1 E (fun t => ⟨Y t .icR, Y t .icI⟩) (fun t => ⟨Y t .ucR, Y t .ucI⟩) (fun t => ⟨Y t .xcR, Y t .xcI⟩) ∧
    (∀ t, 0 ≤ t → |Y t .Vdc - V0| ≤ Real.sqrt (E / p.C)) ∧
    ((∃ B, ∀ t, 0 ≤ t → |(envT p (inp t) (Y t)).winv| ≤ B) → ∃ l, 0 < l ∧ Tendsto (fun t => Y t .Vdc) atTop (𝓝 l) ∧ Tendsto (fun t => (⟨Y t .xaR, Y t .xaI⟩ : ℂ)) atTop (𝓝 (((2 / l : ℝ) : ℂ) * va)) ∧ Tendsto (fun t => (⟨Y t .xbR, Y t .xbI⟩ : ℂ)) atTop (𝓝 (((2 / l : ℝ) : ℂ) * vb)) ∧ Tendsto (fun t => (⟨Y t .xcR, Y t .xcI⟩ : ℂ)) atTop (𝓝 (((2 / l : ℝ) : ℂ) * vc))) := by
  have hw : ∀ {B : ℝ}, (∀ t, 0 ≤ t → |(envT p (inp t) (Y t)).winv| ≤ B) → ∃ B, ∀ t, 0 ≤ t → |(envT p (inp t) (Y t)).winv / p.wbase| ≤ B := by
    intro B hB
    refine ⟨B / |p.wbase|, fun t ht => ?_⟩
    rw [abs_div]
    exact div_le_div_of_nonneg_right (hB t ht) (abs_nonneg _)
  have Pa : ∀ s, 0 ≤ s → ‖duty p ⟨Y s .uaR, Y s .uaI⟩ ⟨Y s .xaR, Y s .xaI⟩‖ ≤ p.m_limit →
      Defect.Phase p.Lf p.Rf p.Kp_GCC p.Ki_GCC p.wp (fun t => Y t .Vdc) (fun t => (envT p (inp t) (Y t)).winv / p.wbase) (fun _ => va) (fun _ => 0)
        (fun t => ⟨Y t .iaR, Y t .iaI⟩) (fun t => ⟨Y t .xaR, Y t .xaI⟩) (fun t => ⟨Y t .uaR, Y t .uaI⟩) s := by
    intro s hs hsat
    have cs := connIf_state false (envT p (inp s) (Y s))
    have hd := h s hs
    have aw := C57_antiwindup_three_phase (disc (envT p (inp s) (Y s)))
    have ns : ¬ mSat (disc (envT p (inp s) (Y s))) (disc (envT p (inp s) (Y s))).ua (disc (envT p (inp s) (Y s))).xa := by
      show ¬ mSat (connIf false _) (connIf false _).ua (connIf false _).xa
      simp only [mSat, cs]; exact not_lt.2 hsat
    have hv : (envT p (inp s) (Y s)).va = va := (hg s hs).1
    have e3 := aw.1.plain ns
    have e4 := aw.2.1.plain ns
    have e5 := aw.2.2.1.plain ns
    have e6 := aw.2.2.2.1.plain ns
    refine phase_of p (vt := (envT p (inp s) (Y s)).vta) rfl ((hd .iaR).congr_deriv ?_) ((hd .iaI).congr_deriv ?_) ((hd .xaR).congr_deriv ?_) ((hd .xaI).congr_deriv ?_)
      ((hd .uaR).congr_deriv ?_) ((hd .uaI).congr_deriv ?_)
    · show ThreePhase.rhs (connIf false _) _ = _
      simp only [ThreePhase.rhs, cs, hv]; rfl
    · show ThreePhase.rhs (connIf false _) _ = _
      simp only [ThreePhase.rhs, cs, hv]; rfl
    · beta_reduce; rw [e3]; rfl
    · beta_reduce; rw [e4]; rfl
    · beta_reduce; rw [e5]; rfl
    · beta_reduce; rw [e6]; rfl
  have Pb : ∀ s, 0 ≤ s → ‖duty p ⟨Y s .ubR, Y s .ubI⟩ ⟨Y s .xbR, Y s .xbI⟩‖ ≤ p.m_limit →
      Defect.Phase p.Lf p.Rf p.Kp_GCC p.Ki_GCC p.wp (fun t => Y t .Vdc) (fun t => (envT p (inp t) (Y t)).winv / p.wbase) (fun _ => vb) (fun _ => 0)
        (fun t => ⟨Y t .ibR, Y t .ibI⟩) (fun t => ⟨Y t .xbR, Y t .xbI⟩) (fun t => ⟨Y t .ubR, Y t .ubI⟩) s := by
    intro s hs hsat
    have cs := connIf_state false (envT p (inp s) (Y s))
    have hd := h s hs
    have aw := C57_antiwindup_three_phase (disc (envT p (inp s) (Y s)))
    have ns : ¬ mSat (disc (envT p (inp s) (Y s))) (disc (envT p (inp s) (Y s))).ub (disc (envT p (inp s) (Y s))).xb := by
      show ¬ mSat (connIf false _) (connIf false _).ub (connIf false _).xb
      simp only [mSat, cs]; exact not_lt.2 hsat
    have hv : (envT p (inp s) (Y s)).vb = vb := (hg s hs).2.1
    have e3 := aw.2.2.2.2.1.plain ns
    have e4 := aw.2.2.2.2.2.1.plain ns
    have e5 := aw.2.2.2.2.2.2.1.plain ns
    have e6 := aw.2.2.2.2.2.2.2.1.plain ns
    refine phase_of p (vt := (envT p (inp s) (Y s)).vtb) rfl ((hd .ibR).congr_deriv ?_) ((hd .ibI).congr_deriv ?_) ((hd .xbR).congr_deriv ?_) ((hd .xbI).congr_deriv ?_)
      ((hd .ubR).congr_deriv ?_) ((hd .ubI).congr_deriv ?_)
    · show ThreePhase.rhs (connIf false _) _ = _
      simp only [ThreePhase.rhs, cs, hv]; rfl
    · show ThreePhase.rhs (connIf false _) _ = _
      simp only [ThreePhase.rhs, cs, hv]; rfl
    · beta_reduce; rw [e3]; rfl
    · beta_reduce; rw [e4]; rfl
    · beta_reduce; rw [e5]; rfl
    · beta_reduce; rw [e6]; rfl
  have Pc : ∀ s, 0 ≤ s → ‖duty p ⟨Y s .ucR, Y s .ucI⟩ ⟨Y s .xcR, Y s .xcI⟩‖ ≤ p.m_limit →
      Defect.Phase p.Lf p.Rf p.Kp_GCC p.Ki_GCC p.wp (fun t => Y t .Vdc) (fun t => (envT p (inp t) (Y t)).winv / p.wbase) (fun _ => vc) (fun _ => 0)
        (fun t => ⟨Y t .icR, Y t .icI⟩) (fun t => ⟨Y t .xcR, Y t .xcI⟩) (fun t => ⟨Y t .ucR, Y t .ucI⟩) s := by
    intro s hs hsat
    have cs := connIf_state false (envT p (inp s) (Y s))
    have hd := h s hs
    have aw := C57_antiwindup_three_phase (disc (envT p (inp s) (Y s)))
    have ns : ¬ mSat (disc (envT p (inp s) (Y s))) (disc (envT p (inp s) (Y s))).uc (disc (envT p (inp s) (Y s))).xc := by
      show ¬ mSat (connIf false _) (connIf false _).uc (connIf false _).xc
      simp only [mSat, cs]; exact not_lt.2 hsat
    have hv : (envT p (inp s) (Y s)).vc = vc := (hg s hs).2.2
    have e3 := aw.2.2.2.2.2.2.2.2.1.plain ns
    have e4 := aw.2.2.2.2.2.2.2.2.2.1.plain ns
    have e5 := aw.2.2.2.2.2.2.2.2.2.2.1.plain ns
    have e6 := aw.2.2.2.2.2.2.2.2.2.2.2.1.plain ns
    refine phase_of p (vt := (envT p (inp s) (Y s)).vtc) rfl ((hd .icR).congr_deriv ?_) ((hd .icI).congr_deriv ?_) ((hd .xcR).congr_deriv ?_) ((hd .xcI).congr_deriv ?_)
      ((hd .ucR).congr_deriv ?_) ((hd .ucI).congr_deriv ?_)
    · show ThreePhase.rhs (connIf false _) _ = _
      simp only [ThreePhase.rhs, cs, hv]; rfl
    · show ThreePhase.rhs (connIf false _) _ = _
      simp only [ThreePhase.rhs, cs, hv]; rfl
    · beta_reduce; rw [e3]; rfl
    · beta_reduce; rw [e4]; rfl
    · beta_reduce; rw [e5]; rfl
    · beta_reduce; rw [e6]; rfl
  have key := dies_out p hp (ι := Fin 3) (g := 1) (V0 := V0) (E := E) (Cc := p.C) hCp (by norm_num) hV0
    (v := ![va, vb, vc]) (i := ![fun t => ⟨Y t .iaR, Y t .iaI⟩, fun t => ⟨Y t .ibR, Y t .ibI⟩, fun t => ⟨Y t .icR, Y t .icI⟩]) (u := ![fun t => ⟨Y t .uaR, Y t .uaI⟩, fun t => ⟨Y t .ubR, Y t .ubI⟩, fun t => ⟨Y t .ucR, Y t .ucI⟩])
    (x := ![fun t => ⟨Y t .xaR, Y t .xaI⟩, fun t => ⟨Y t .xbR, Y t .xbI⟩, fun t => ⟨Y t .xcR, Y t .xcI⟩]) (ψ := fun t => Y t .Vdc) (w := fun t => (envT p (inp t) (Y t)).winv / p.wbase) (d := fun t => ThreePhase.rhs (disc (envT p (inp t) (Y t))) .Vdc)
    (fun k => by fin_cases k; exacts [Pa, Pb, Pc])
    (fun k => by fin_cases k; exacts [fun t ht => ⟨continuousAt_mk (h t ht .uaR) (h t ht .uaI), continuousAt_mk (h t ht .xaR) (h t ht .xaI)⟩, fun t ht => ⟨continuousAt_mk (h t ht .ubR) (h t ht .ubI), continuousAt_mk (h t ht .xbR) (h t ht .xbI)⟩, fun t ht => ⟨continuousAt_mk (h t ht .ucR) (h t ht .ucI), continuousAt_mk (h t ht .xcR) (h t ht .xcI)⟩])
    (fun t ht => h t ht .Vdc)
    (Or.inl (fun t ht hpos => by
      have e : ThreePhase.rhs (disc (envT p (inp t) (Y t))) .Vdc = (0 - (envT p (inp t) (Y t)).S.re) / (Y t .Vdc * p.C) := rfl
      have hS := sCalcVt_re p (⟨Y t .uaR, Y t .uaI⟩) (⟨Y t .xaR, Y t .xaI⟩) (⟨Y t .iaR, Y t .iaI⟩) (⟨Y t .ubR, Y t .ubI⟩) (⟨Y t .xbR, Y t .xbI⟩) (⟨Y t .ibR, Y t .ibI⟩) (⟨Y t .ucR, Y t .ucI⟩) (⟨Y t .xcR, Y t .xcI⟩) (⟨Y t .icR, Y t .icI⟩) (Y t .Vdc)
      have hS' : (envT p (inp t) (Y t)).S.re = _ := hS
      rw [e, hS']
      simp only [Finset.univ_unique, Finset.sum_const, Finset.card_singleton, one_smul, Fin.sum_univ_three, Matrix.cons_val_zero, Matrix.cons_val_one, Matrix.cons_val]
      have : Y t .Vdc ≠ 0 := ne_of_gt hpos
      field_simp
      ring))
    (by
      rw [hE]
      simp only [Finset.univ_unique, Finset.sum_const, Finset.card_singleton, one_smul, Fin.sum_univ_three, Matrix.cons_val_zero, Matrix.cons_val_one, Matrix.cons_val]
      try ring)
    (fun k => by fin_cases k; exacts [hma, hmb, hmc])
    hC
  exact ⟨key.1 0, key.1 1, key.1 2, key.2.1, fun ⟨B, hB⟩ => by
    obtain ⟨l, h1, h2, h3⟩ := key.2.2 (hw hB)
    exact ⟨l, h1, h2, h3 0, h3 1, h3 2⟩⟩

/-- C112 for the class `ThreePhaseNoVrmsFilter`. -/
theorem C112_current_dies_three_no_filter (hp : DecayPar p) (hCp : 0 < p.C) (Y : ℝ → ThreePhaseNoVrmsFilter.V → ℝ) (V0 : ℝ) (hV0 : 0 < V0) (va vb vc : ℂ) (hg : ∀ t, 0 ≤ t → (inp t).va = va ∧ (inp t).vb = vb ∧ (inp t).vc = vc)
    (h : ∀ t, 0 ≤ t → Solves (fun t y => ThreePhaseNoVrmsFilter.rhs (disc (envN p (inp t) y))) Y t)
    (E : ℝ) (hE : E = phaseEnergy p V0 va ⟨Y 0 .iaR, Y 0 .iaI⟩ ⟨Y 0 .uaR, Y 0 .uaI⟩ ⟨Y 0 .xaR, Y 0 .xaI⟩ + phaseEnergy p V0 vb ⟨Y 0 .ibR, Y 0 .ibI⟩ ⟨Y 0 .ubR, Y 0 .ubI⟩ ⟨Y 0 .xbR, Y 0 .xbI⟩ + phaseEnergy p V0 vc ⟨Y 0 .icR, Y 0 .icI⟩ ⟨Y 0 .ucR, Y 0 .ucI⟩ ⟨Y 0 .xcR, Y 0 .xcI⟩ + p.C * (Y 0 .Vdc - V0) ^ 2)
    (hma : dutyReach p 1 V0 va E < p.m_limit) (hmb : dutyReach p 1 V0 vb E < p.m_limit) (hmc : dutyReach p 1 V0 vc E < p.m_limit) (hC : E < p.C * V0 ^ 2) :
    PhaseDies p 1 E (fun t => ⟨Y t .iaR, Y t .iaI⟩) (fun t => ⟨Y t .uaR, Y t .uaI⟩) (fun t => ⟨Y t .xaR, Y t .xaI⟩) ∧ PhaseDies p 1 E (fun t => ⟨Y t .ibR, Y t .ibI⟩) (fun t => ⟨Y t .ubR, Y t .ubI⟩) (fun t => ⟨Y t .xbR, Y t .xbI⟩) ∧ PhaseDies p 1 E (fun t => ⟨Y t .icR, Y t .icI⟩) (fun t => ⟨Y t .ucR, Y t .ucI⟩) (fun t => ⟨Y t .xcR, Y t .xcI⟩) ∧
    (∀ t, 0 ≤ t → |Y t .Vdc - V0| ≤ Real.sqrt (E / p.C)) ∧
    ((∃ B, ∀ t, 0 ≤ t → |(envN p (inp t) (Y t)).winv| ≤ B) → ∃ l, 0 < l ∧ Tendsto (fun t => Y t .Vdc) atTop (𝓝 l) ∧ Tendsto (fun t => (⟨Y t .xaR, Y t .xaI⟩ : ℂ)) atTop (𝓝 (((2 / l : ℝ) : ℂ) * va)) ∧ Tendsto (fun t => (⟨Y t .xbR, Y t .xbI⟩ : ℂ)) atTop (𝓝 (((2 / l : ℝ) : ℂ) * vb)) ∧ Tendsto (fun t => (⟨Y t .xcR, Y t .xcI⟩ : ℂ)) atTop (𝓝 (((2 / l : ℝ) : ℂ) * vc))) := by
  have hw : ∀ {B : ℝ}, (∀ t, 0 ≤ t → |(envN p (inp t) (Y t)).winv| ≤ B) → ∃ B, ∀ t, 0 ≤ t → |(envN p (inp t) (Y t)).winv / p.wbase| ≤ B := by
    intro B hB
    refine ⟨B / |p.wbase|, fun t ht => ?_⟩
    rw [abs_div]
    exact div_le_div_of_nonneg_right (hB t ht) (abs_nonneg _)
  have Pa : ∀ s, 0 ≤ s → ‖duty p ⟨Y s .uaR, Y s .uaI⟩ ⟨Y s .xaR, Y s .xaI⟩‖ ≤ p.m_limit →
      Defect.Phase p.Lf p.Rf p.Kp_GCC p.Ki_GCC p.wp (fun t => Y t .Vdc) (fun t => (envN p (inp t) (Y t)).winv / p.wbase) (fun _ => va) (fun _ => 0)
        (fun t => ⟨Y t .iaR, Y t .iaI⟩) (fun t => ⟨Y t .xaR, Y t .xaI⟩) (fun t => ⟨Y t .uaR, Y t .uaI⟩) s := by
    intro s hs hsat
    have cs := connIf_state false (envN p (inp s) (Y s))
    have hd := h s hs
    have aw := C57_antiwindup_no_filter (disc (envN p (inp s) (Y s)))
    have ns : ¬ mSat (disc (envN p (inp s) (Y s))) (disc (envN p (inp s) (Y s))).ua (disc (envN p (inp s) (Y s))).xa := by
      show ¬ mSat (connIf false _) (connIf false _).ua (connIf false _).xa
      simp only [mSat, cs]; exact not_lt.2 hsat
    have hv : (envN p (inp s) (Y s)).va = va := (hg s hs).1
    have e3 := aw.1.plain ns
    have e4 := aw.2.1.plain ns
    have e5 := aw.2.2.1.plain ns
    have e6 := aw.2.2.2.1.plain ns
    refine phase_of p (vt := (envN p (inp s) (Y s)).vta) rfl ((hd .iaR).congr_deriv ?_) ((hd .iaI).congr_deriv ?_) ((hd .xaR).congr_deriv ?_) ((hd .xaI).congr_deriv ?_)
      ((hd .uaR).congr_deriv ?_) ((hd .uaI).congr_deriv ?_)
    · show ThreePhaseNoVrmsFilter.rhs (connIf false _) _ = _
      simp only [ThreePhaseNoVrmsFilter.rhs, cs, hv]; rfl
    · show ThreePhaseNoVrmsFilter.rhs (connIf false _) _ = _
      simp only [ThreePhaseNoVrmsFilter.rhs, cs, hv]; rfl
    · beta_reduce; rw [e3]; rfl
    · beta_reduce; rw [e4]; rfl
    · beta_reduce; rw [e5]; rfl
    · beta_reduce; rw [e6]; rfl
  have Pb : ∀ s, 0 ≤ s → ‖duty p ⟨Y s .ubR, Y s .ubI⟩ ⟨Y s .xbR, Y s .xbI⟩‖ ≤ p.m_limit →
      Defect.Phase p.Lf p.Rf p.Kp_GCC p.Ki_GCC p.wp (fun t => Y t .Vdc) (fun t => (envN p (inp t) (Y t)).winv / p.wbase) (fun _ => vb) (fun _ => 0)
        (fun t => ⟨Y t .ibR, Y t .ibI⟩) (fun t => ⟨Y t .xbR, Y t .xbI⟩) (fun t => ⟨Y t .ubR, Y t .ubI⟩) s := by
    intro s hs hsat
    have cs := connIf_state false (envN p (inp s) (Y s))
    have hd := h s hs
    have aw := C57_antiwindup_no_filter (disc (envN p (inp s) (Y s)))
    have ns : ¬ mSat (disc (envN p (inp s) (Y s))) (disc (envN p (inp s) (Y s))).ub (disc (envN p (inp s) (Y s))).xb := by
      show ¬ mSat (connIf false _) (connIf false _).ub (connIf false _).xb
      simp only [mSat, cs]; exact not_lt.2 hsat
    have hv : (envN p (inp s) (Y s)).vb = vb := (hg s hs).2.1
    have e3 := aw.2.2.2.2.1.plain ns
    have e4 := aw.2.2.2.2.2.1.plain ns
    have e5 := aw.2.2.2.2.2.2.1.plain ns
    have e6 := aw.2.2.2.2.2.2.2.1.plain ns
    refine phase_of p (vt := (envN p (inp s) (Y s)).vtb) rfl ((hd .ibR).congr_deriv ?_) ((hd .ibI).congr_deriv ?_) ((hd .xbR).congr_deriv ?_) ((hd .xbI).congr_deriv ?_)
      ((hd .ubR).congr_deriv ?_) ((hd .ubI).congr_deriv ?_)
    · show ThreePhaseNoVrmsFilter.rhs (connIf false _) _ = _
      simp only [ThreePhaseNoVrmsFilter.rhs, cs, hv]; rfl
    · show ThreePhaseNoVrmsFilter.rhs (connIf false _) _ = _
      simp only [ThreePhaseNoVrmsFilter.rhs, cs, hv]; rfl
    · beta_reduce; rw [e3]; rfl
    · beta_reduce; rw [e4]; rfl
    · beta_reduce; rw [e5]; rfl
    · beta_reduce; rw [e6]; rfl
  have Pc : ∀ s, 0 ≤ s → ‖duty p ⟨Y s .ucR, Y s .ucI⟩ ⟨Y s .xcR, Y s .xcI⟩‖ ≤ p.m_limit →
      Defect.Phase p.Lf p.Rf p.Kp_GCC p.Ki_GCC p.wp (fun t => Y t .Vdc) (fun t => (envN p (inp t) (Y t)).winv / p.wbase) (fun _ => vc) (fun _ => 0)
        (fun t => ⟨Y t .icR, Y t .icI⟩) (fun t => ⟨Y t .xcR, Y t .xcI⟩) (fun t => ⟨Y t .ucR, Y t .ucI⟩) s := by
    intro s hs hsat
    have cs := connIf_state false (envN p (inp s) (Y s))
    have hd := h s hs
    have aw := C57_antiwindup_no_filter (disc (envN p (inp s) (Y s)))
    have ns : ¬ mSat (disc (envN p (inp s) (Y s))) (disc (envN p (inp s) (Y s))).uc (disc (envN p (inp s) (Y s))).xc := by
      show ¬ mSat (connIf false _) (connIf false _).uc (connIf false _).xc
      simp only [mSat, cs]; exact not_lt.2 hsat
    have hv : (envN p (inp s) (Y s)).vc = vc := (hg s hs).2.2
    have e3 := aw.2.2.2.2.2.2.2.2.1.plain ns
    have e4 := aw.2.2.2.2.2.2.2.2.2.1.plain ns
    have e5 := aw.2.2.2.2.2.2.2.2.2.2.1.plain ns
    have e6 := aw.2.2.2.2.2.2.2.2.2.2.2.1.plain ns
    refine phase_of p (vt := (envN p (inp s) (Y s)).vtc) rfl ((hd .icR).congr_deriv ?_) ((hd .icI).congr_deriv ?_) ((hd .xcR).congr_deriv ?_) ((hd .xcI).congr_deriv ?_)
      ((hd .ucR).congr_deriv ?_) ((hd .ucI).congr_deriv ?_)
    · show ThreePhaseNoVrmsFilter.rhs (connIf false _) _ = _
      simp only [ThreePhaseNoVrmsFilter.rhs, cs, hv]; rfl
    · show ThreePhaseNoVrmsFilter.rhs (connIf false _) _ = _
      simp only [ThreePhaseNoVrmsFilter.rhs, cs, hv]; rfl
    · beta_reduce; rw [e3]; rfl
    · beta_reduce; rw [e4]; rfl
    · beta_reduce; rw [e5]; rfl
    · beta_reduce; rw [e6]; rfl
  have key := dies_out p hp (ι := Fin 3) (g := 1) (V0 := V0) (E := E) (Cc := p.C) hCp (by norm_num) hV0
    (v := ![va, vb, vc]) (i := ![fun t => ⟨Y t .iaR, Y t .iaI⟩, fun t => ⟨Y t .ibR, Y t .ibI⟩, fun t => ⟨Y t .icR, Y t .icI⟩]) (u := ![fun t => ⟨Y t .uaR, Y t .uaI⟩, fun t => ⟨Y t .ubR, Y t .ubI⟩, fun t => ⟨Y t .ucR, Y t .ucI⟩])
    (x := ![fun t => ⟨Y t .xaR, Y t .xaI⟩, fun t => ⟨Y t .xbR, Y t .xbI⟩, fun t => ⟨Y t .xcR, Y t .xcI⟩]) (ψ := fun t => Y t .Vdc) (w := fun t => (envN p (inp t) (Y t)).winv / p.wbase) (d := fun t => ThreePhaseNoVrmsFilter.rhs (disc (envN p (inp t) (Y t))) .Vdc)
    (fun k => by fin_cases k; exacts [Pa, Pb, Pc])
    (fun k => by fin_cases k; exacts [fun t ht => ⟨continuousAt_mk (h t ht .uaR) (h t ht .uaI), continuousAt_mk (h t ht .xaR) (h t ht .xaI)⟩, fun t ht => ⟨continuousAt_mk (h t ht .ubR) (h t ht .ubI), continuousAt_mk (h t ht .xbR) (h t ht .xbI)⟩, fun t ht => ⟨continuousAt_mk (h t ht .ucR) (h t ht .ucI), continuousAt_mk (h t ht .xcR) (h t ht .xcI)⟩])
    (fun t ht => h t ht .Vdc)
    (Or.inl (fun t ht hpos => by
      have e : ThreePhaseNoVrmsFilter.rhs (disc (envN p (inp t) (Y t))) .Vdc = (0 - (envN p (inp t) (Y t)).S.re) / (Y t .Vdc * p.C) := rfl
      have hS := sCalcVt_re p (⟨Y t .uaR, Y t .uaI⟩) (⟨Y t .xaR, Y t .xaI⟩) (⟨Y t .iaR, Y t .iaI⟩) (⟨Y t .ubR, Y t .ubI⟩) (⟨Y t .xbR, Y t .xbI⟩) (⟨Y t .ibR, Y t .ibI⟩) (⟨Y t .ucR, Y t .ucI⟩) (⟨Y t .xcR, Y t .xcI⟩) (⟨Y t .icR, Y t .icI⟩) (Y t .Vdc)
      have hS' : (envN p (inp t) (Y t)).S.re = _ := hS
      rw [e, hS']
      simp only [Finset.univ_unique, Finset.sum_const, Finset.card_singleton, one_smul, Fin.sum_univ_three, Matrix.cons_val_zero, Matrix.cons_val_one, Matrix.cons_val]
      have : Y t .Vdc ≠ 0 := ne_of_gt hpos
      field_simp
      ring))
    (by
      rw [hE]
      simp only [Finset.univ_unique, Finset.sum_const, Finset.card_singleton, one_smul, Fin.sum_univ_three, Matrix.cons_val_zero, Matrix.cons_val_one, Matrix.cons_val]
      try ring)
    (fun k => by fin_cases k; exacts [hma, hmb, hmc])
    hC
  exact ⟨key.1 0, key.1 1, key.1 2, key.2.1, fun ⟨B, hB⟩ => by
    obtain ⟨l, h1, h2, h3⟩ := key.2.2 (hw hB)
    exact ⟨l, h1, h2, h3 0, h3 1, h3 2⟩⟩

/-- C112 for the class `ThreePhaseNumba`. -/
theorem C112_current_dies_three_numba (hp : DecayPar p) (hCp : 0 < p.C) (Y : ℝ → ThreePhaseNumba.V → ℝ) (V0 : ℝ) (hV0 : 0 < V0) (va vb vc : ℂ) (hg : ∀ t, 0 ≤ t → (inp t).va = va ∧ (inp t).vb = vb ∧ (inp t).vc = vc)
    (h : ∀ t, 0 ≤ t → Solves (fun t y => ThreePhaseNumba.rhs (disc (envNumba p (inp t) y))) Y t)
    (E : ℝ) (hE : E = phaseEnergy p V0 va ⟨Y 0 .iaR, Y 0 .iaI⟩ ⟨Y 0 .uaR, Y 0 .uaI⟩ ⟨Y 0 .xaR, Y 0 .xaI⟩ + phaseEnergy p V0 vb ⟨Y 0 .ibR, Y 0 .ibI⟩ ⟨Y 0 .ubR, Y 0 .ubI⟩ ⟨Y 0 .xbR, Y 0 .xbI⟩ + phaseEnergy p V0 vc ⟨Y 0 .icR, Y 0 .icI⟩ ⟨Y 0 .ucR, Y 0 .ucI⟩ ⟨Y 0 .xcR, Y 0 .xcI⟩ + p.C * (Y 0 .Vdc - V0) ^ 2)
    (hma : dutyReach p 1 V0 va E < p.m_limit) (hmb : dutyReach p 1 V0 vb E < p.m_limit) (hmc : dutyReach p 1 V0 vc E < p.m_limit) (hC : E < p.C * V0 ^ 2) :
    PhaseDies p 1 E (fun t => ⟨Y t .iaR, Y t .iaI⟩) (fun t => ⟨Y t .uaR, Y t .uaI⟩) (fun t => ⟨Y t .xaR, Y t .xaI⟩) ∧ PhaseDies p 1 E (fun t => ⟨Y t .ibR, Y t .ibI⟩) (fun t => ⟨Y t .ubR, Y t .ubI⟩) (fun t => ⟨Y t .xbR, Y t .xbI⟩) ∧ PhaseDies p 1 E (fun t => ⟨Y t .icR, Y t .icI⟩) (fun t => ⟨Y t .ucR, Y t .ucI⟩) (fun t => ⟨Y t .xcR, Y t .xcI⟩) ∧
    (∀ t, 0 ≤ t → |Y t .Vdc - V0| ≤ Real.sqrt (E / p.C)) ∧
    ((∃ B, ∀ t, 0 ≤ t → |(envNumba p (inp t) (Y t)).winv| ≤ B) → ∃ l, 0 < l ∧ Tendsto (fun t => Y t .Vdc) atTop (𝓝 l) ∧ Tendsto (fun t => (⟨Y t .xaR, Y t .xaI⟩ : ℂ)) atTop (𝓝 (((2 / l : ℝ) : ℂ) * va)) ∧ Tendsto (fun t => (⟨Y t .xbR, Y t .xbI⟩ : ℂ)) atTop (𝓝 (((2 / l : ℝ) : ℂ) * vb)) ∧ Tendsto (fun t => (⟨Y t .xcR, Y t .xcI⟩ : ℂ)) atTop (𝓝 (((2 / l : ℝ) : ℂ) * vc))) := by
  have hw : ∀ {B : ℝ}, (∀ t, 0 ≤ t → |(envNumba p (inp t) (Y t)).winv| ≤ B) → ∃ B, ∀ t, 0 ≤ t → |(envNumba p (inp t) (Y t)).winv / p.wbase| ≤ B := by
    intro B hB
    refine ⟨B / |p.wbase|, fun t ht => ?_⟩
    rw [abs_div]
    exact div_le_div_of_nonneg_right (hB t ht) (abs_nonneg _)
  have Pa : ∀ s, 0 ≤ s → ‖duty p ⟨Y s .uaR, Y s .uaI⟩ ⟨Y s .xaR, Y s .xaI⟩‖ ≤ p.m_limit →
      Defect.Phase p.Lf p.Rf p.Kp_GCC p.Ki_GCC p.wp (fun t => Y t .Vdc) (fun t => (envNumba p (inp t) (Y t)).winv / p.wbase) (fun _ => va) (fun _ => 0)
        (fun t => ⟨Y t .iaR, Y t .iaI⟩) (fun t => ⟨Y t .xaR, Y t .xaI⟩) (fun t => ⟨Y t .uaR, Y t .uaI⟩) s := by
    intro s hs hsat
    have cs := connIf_state false (envNumba p (inp s) (Y s))
    have hd := h s hs
    have aw := C57_antiwindup_numba (disc (envNumba p (inp s) (Y s)))
    have ns : ¬ mSat (disc (envNumba p (inp s) (Y s))) (disc (envNumba p (inp s) (Y s))).ua (disc (envNumba p (inp s) (Y s))).xa := by
      show ¬ mSat (connIf false _) (connIf false _).ua (connIf false _).xa
      simp only [mSat, cs]; exact not_lt.2 hsat
    have hv : (envNumba p (inp s) (Y s)).va = va := (hg s hs).1
    have e3 := aw.1.plain ns
    have e4 := aw.2.1.plain ns
    have e5 := aw.2.2.1.plain ns
    have e6 := aw.2.2.2.1.plain ns
    refine phase_of p (vt := (envNumba p (inp s) (Y s)).vta) rfl ((hd .iaR).congr_deriv ?_) ((hd .iaI).congr_deriv ?_) ((hd .xaR).congr_deriv ?_) ((hd .xaI).congr_deriv ?_)
      ((hd .uaR).congr_deriv ?_) ((hd .uaI).congr_deriv ?_)
    · show ThreePhaseNumba.rhs (connIf false _) _ = _
      simp only [ThreePhaseNumba.rhs, cs, hv]; rfl
    · show ThreePhaseNumba.rhs (connIf false _) _ = _
      simp only [ThreePhaseNumba.rhs, cs, hv]; rfl
    · beta_reduce; rw [e3]; rfl
    · beta_reduce; rw [e4]; rfl
    · beta_reduce; rw [e5]; rfl
    · beta_reduce; rw [e6]; rfl
  have Pb : ∀ s, 0 ≤ s → ‖duty p ⟨Y s .ubR, Y s .ubI⟩ ⟨Y s .xbR, Y s .xbI⟩‖ ≤ p.m_limit →
      Defect.Phase p.Lf p.Rf p.Kp_GCC p.Ki_GCC p.wp (fun t => Y t .Vdc) (fun t => (envNumba p (inp t) (Y t)).winv / p.wbase) (fun _ => vb) (fun _ => 0)
        (fun t => ⟨Y t .ibR, Y t .ibI⟩) (fun t => ⟨Y t .xbR, Y t .xbI⟩) (fun t => ⟨Y t .ubR, Y t .ubI⟩) s := by
    intro s hs hsat
    have cs := connIf_state false (envNumba p (inp s) (Y s))
    have hd := h s hs
    have aw := C57_antiwindup_numba (disc (envNumba p (inp s) (Y s)))
    have ns : ¬ mSat (disc (envNumba p (inp s) (Y s))) (disc (envNumba p (inp s) (Y s))).ub (disc (envNumba p (inp s) (Y s))).xb := by
      show ¬ mSat (connIf false _) (connIf false _).ub (connIf false _).xb
      simp only [mSat, cs]; exact not_lt.2 hsat
    have hv : (envNumba p (inp s) (Y s)).vb = vb := (hg s hs).2.1
    have e3 := aw.2.2.2.2.1.plain ns
    have e4 := aw.2.2.2.2.2.1.plain ns
    have e5 := aw.2.2.2.2.2.2.1.plain ns
    have e6 := aw.2.2.2.2.2.2.2.1.plain ns
    refine phase_of p (vt := (envNumba p (inp s) (Y s)).vtb) rfl ((hd .ibR).congr_deriv ?_) ((hd .ibI).congr_deriv ?_) ((hd .xbR).congr_deriv ?_) ((hd .xbI).congr_deriv ?_)
      ((hd .ubR).congr_deriv ?_) ((hd .ubI).congr_deriv ?_)
    · show ThreePhaseNumba.rhs (connIf false _) _ = _
      simp only [ThreePhaseNumba.rhs, cs, hv]; rfl
    · show ThreePhaseNumba.rhs (connIf false _) _ = _
      simp only [ThreePhaseNumba.rhs, cs, hv]; rfl
    · beta_reduce; rw [e3]; rfl
    · beta_reduce; rw [e4]; rfl
    · beta_reduce; rw [e5]; rfl
    · beta_reduce; rw [e6]; rfl
  have Pc : ∀ s, 0 ≤ s → ‖duty p ⟨Y s .ucR, Y s .ucI⟩ ⟨Y s .xcR, Y s .xcI⟩‖ ≤ p.m_limit →
      Defect.Phase p.Lf p.Rf p.Kp_GCC p.Ki_GCC p.wp (fun t => Y t .Vdc) (fun t => (envNumba p (inp t) (Y t)).winv / p.wbase) (fun _ => vc) (fun _ => 0)
        (fun t => ⟨Y t .icR, Y t .icI⟩) (fun t => ⟨Y t .xcR, Y t .xcI⟩) (fun t => ⟨Y t .ucR, Y t .ucI⟩) s := by
    intro s hs hsat
    have cs := connIf_state false (envNumba p (inp s) (Y s))
    have hd := h s hs
    have aw := C57_antiwindup_numba (disc (envNumba p (inp s) (Y s)))
    have ns : ¬ mSat (disc (envNumba p (inp s) (Y s))) (disc (envNumba p (inp s) (Y s))).uc (disc (envNumba p (inp s) (Y s))).xc := by
      show ¬ mSat (connIf false _) (connIf false _).uc (connIf false _).xc
      simp only [mSat, cs]; exact not_lt.2 hsat
    have hv : (envNumba p (inp s) (Y s)).vc = vc := (hg s hs).2.2
    have e3 := aw.2.2.2.2.2.2.2.2.1.plain ns
    have e4 := aw.2.2.2.2.2.2.2.2.2.1.plain ns
    have e5 := aw.2.2.2.2.2.2.2.2.2.2.1.plain ns
    have e6 := aw.2.2.2.2.2.2.2.2.2.2.2.1.plain ns
    refine phase_of p (vt := (envNumba p (inp s) (Y s)).vtc) rfl ((hd .icR).congr_deriv ?_) ((hd .icI).congr_deriv ?_) ((hd .xcR).congr_deriv ?_) ((hd .xcI).congr_deriv ?_)
      ((hd .ucR).congr_deriv ?_) ((hd .ucI).congr_deriv ?_)
    · show ThreePhaseNumba.rhs (connIf false _) _ = _
      simp only [ThreePhaseNumba.rhs, cs, hv]; rfl
    · show ThreePhaseNumba.rhs (connIf false _) _ = _
      simp only [ThreePhaseNumba.rhs, cs, hv]; rfl
    · beta_reduce; rw [e3]; rfl
    · beta_reduce; rw [e4]; rfl
    · beta_reduce; rw [e5]; rfl
    · beta_reduce; rw [e6]; rfl
  have key := dies_out p hp (ι := Fin 3) (g := 1) (V0 := V0) (E := E) (Cc := p.C) hCp (by norm_num) hV0
    (v := ![va, vb, vc]) (i := ![fun t => ⟨Y t .iaR, Y t .iaI⟩, fun t => ⟨Y t .ibR, Y t .ibI⟩, fun t => ⟨Y t .icR, Y t .icI⟩]) (u := ![fun t => ⟨Y t .uaR, Y t .uaI⟩, fun t => ⟨Y t .ubR, Y t .ubI⟩, fun t => ⟨Y t .ucR, Y t .ucI⟩])
    (x := ![fun t => ⟨Y t .xaR, Y t .xaI⟩, fun t => ⟨Y t .xbR, Y t .xbI⟩, fun t => ⟨Y t .xcR, Y t .xcI⟩]) (ψ := fun t => Y t .Vdc) (w := fun t => (envNumba p (inp t) (Y t)).winv / p.wbase) (d := fun t => ThreePhaseNumba.rhs (disc (envNumba p (inp t) (Y t))) .Vdc)
    (fun k => by fin_cases k; exacts [Pa, Pb, Pc])
    (fun k => by fin_cases k; exacts [fun t ht => ⟨continuousAt_mk (h t ht .uaR) (h t ht .uaI), continuousAt_mk (h t ht .xaR) (h t ht .xaI)⟩, fun t ht => ⟨continuousAt_mk (h t ht .ubR) (h t ht .ubI), continuousAt_mk (h t ht .xbR) (h t ht .xbI)⟩, fun t ht => ⟨continuousAt_mk (h t ht .ucR) (h t ht .ucI), continuousAt_mk (h t ht .xcR) (h t ht .xcI)⟩])
    (fun t ht => h t ht .Vdc)
    (Or.inl (fun t ht hpos => by
      have e : ThreePhaseNumba.rhs (disc (envNumba p (inp t) (Y t))) .Vdc = (0 - (envNumba p (inp t) (Y t)).S.re) / (Y t .Vdc * p.C) := rfl
      have hS := sCalcVt_re p (⟨Y t .uaR, Y t .uaI⟩) (⟨Y t .xaR, Y t .xaI⟩) (⟨Y t .iaR, Y t .iaI⟩) (⟨Y t .ubR, Y t .ubI⟩) (⟨Y t .xbR, Y t .xbI⟩) (⟨Y t .ibR, Y t .ibI⟩) (⟨Y t .ucR, Y t .ucI⟩) (⟨Y t .xcR, Y t .xcI⟩) (⟨Y t .icR, Y t .icI⟩) (Y t .Vdc)
      have hS' : (envNumba p (inp t) (Y t)).S.re = _ := hS
      rw [e, hS']
      simp only [Finset.univ_unique, Finset.sum_const, Finset.card_singleton, one_smul, Fin.sum_univ_three, Matrix.cons_val_zero, Matrix.cons_val_one, Matrix.cons_val]
      have : Y t .Vdc ≠ 0 := ne_of_gt hpos
      field_simp
      ring))
    (by
      rw [hE]
      simp only [Finset.univ_unique, Finset.sum_const, Finset.card_singleton, one_smul, Fin.sum_univ_three, Matrix.cons_val_zero, Matrix.cons_val_one, Matrix.cons_val]
      try ring)
    (fun k => by fin_cases k; exacts [hma, hmb, hmc])
    hC
  exact ⟨key.1 0, key.1 1, key.1 2, key.2.1, fun ⟨B, hB⟩ => by
    obtain ⟨l, h1, h2, h3⟩ := key.2.2 (hw hB)
    exact ⟨l, h1, h2, h3 0, h3 1, h3 2⟩⟩

/-- C112 for the class `ThreePhaseBalanced`. -/
theorem C112_current_dies_balanced (hp : DecayPar p) (hCp : 0 < p.C) (Y : ℝ → ThreePhaseBalanced.V → ℝ) (V0 : ℝ) (hV0 : 0 < V0) (va : ℂ) (hg : ∀ t, 0 ≤ t → (inp t).va = va)
    (h : ∀ t, 0 ≤ t → Solves (fun t y => ThreePhaseBalanced.rhs (disc (envB p (inp t) y))) Y t)
    (E : ℝ) (hE : E = 3 * phaseEnergy p V0 va ⟨Y 0 .iaR, Y 0 .iaI⟩ ⟨Y 0 .uaR, Y 0 .uaI⟩ ⟨Y 0 .xaR, Y 0 .xaI⟩ + p.C * (Y 0 .Vdc - V0) ^ 2)
    (hma : dutyReach p 3 V0 va E < p.m_limit) (hC : E < p.C * V0 ^ 2) :
    PhaseDies p 3 E (fun t => ⟨Y t .iaR, Y t .iaI⟩) (fun t => ⟨Y t .uaR, Y t .uaI⟩) (fun t => ⟨Y t .xaR, Y t .xaI⟩) ∧
    (∀ t, 0 ≤ t → |Y t .Vdc - V0| ≤ Real.sqrt (E / p.C)) ∧
    ((∃ B, ∀ t, 0 ≤ t → |(envB p (inp t) (Y t)).winv| ≤ B) → ∃ l, 0 < l ∧ Tendsto (fun t => Y t .Vdc) atTop (𝓝 l) ∧ Tendsto (fun t => (⟨Y t .xaR, Y t .xaI⟩ : ℂ)) atTop (𝓝 (((2 / l : ℝ) : ℂ) * va))) := by
  have hw : ∀ {B : ℝ}, (∀ t, 0 ≤ t → |(envB p (inp t) (Y t)).winv| ≤ B) → ∃ B, ∀ t, 0 ≤ t → |(envB p (inp t) (Y t)).winv / p.wbase| ≤ B := by
    intro B hB
    refine ⟨B / |p.wbase|, fun t ht => ?_⟩
    rw [abs_div]
    exact div_le_div_of_nonneg_right (hB t ht) (abs_nonneg _)
  have Pa : ∀ s, 0 ≤ s → ‖duty p ⟨Y s .uaR, Y s .uaI⟩ ⟨Y s .xaR, Y s .xaI⟩‖ ≤ p.m_limit →
      Defect.Phase p.Lf p.Rf p.Kp_GCC p.Ki_GCC p.wp (fun t => Y t .Vdc) (fun t => (envB p (inp t) (Y t)).winv / p.wbase) (fun _ => va) (fun _ => 0)
        (fun t => ⟨Y t .iaR, Y t .iaI⟩) (fun t => ⟨Y t .xaR, Y t .xaI⟩) (fun t => ⟨Y t .uaR, Y t .uaI⟩) s := by
    intro s hs hsat
    have cs := connIf_state false (envB p (inp s) (Y s))
    have hd := h s hs
    have aw := C57_antiwindup_balanced (disc (envB p (inp s) (Y s)))
    have ns : ¬ mSat (disc (envB p (inp s) (Y s))) (disc (envB p (inp s) (Y s))).ua (disc (envB p (inp s) (Y s))).xa := by
      show ¬ mSat (connIf false _) (connIf false _).ua (connIf false _).xa
      simp only [mSat, cs]; exact not_lt.2 hsat
    have hv : (envB p (inp s) (Y s)).va = va := (hg s hs)
    have e3 := aw.1.plain ns
    have e4 := aw.2.1.plain ns
    have e5 := aw.2.2.1.plain ns
    have e6 := aw.2.2.2.1.plain ns
    refine phase_of p (vt := (envB p (inp s) (Y s)).vta) rfl ((hd .iaR).congr_deriv ?_) ((hd .iaI).congr_deriv ?_) ((hd .xaR).congr_deriv ?_) ((hd .xaI).congr_deriv ?_)
      ((hd .uaR).congr_deriv ?_) ((hd .uaI).congr_deriv ?_)
    · show ThreePhaseBalanced.rhs (connIf false _) _ = _
      simp only [ThreePhaseBalanced.rhs, cs, hv]; rfl
    · show ThreePhaseBalanced.rhs (connIf false _) _ = _
      simp only [ThreePhaseBalanced.rhs, cs, hv]; rfl
    · beta_reduce; rw [e3]; rfl
    · beta_reduce; rw [e4]; rfl
    · beta_reduce; rw [e5]; rfl
    · beta_reduce; rw [e6]; rfl
  have key := dies_out p hp (ι := Unit) (g := 3) (V0 := V0) (E := E) (Cc := p.C) hCp (by norm_num) hV0
    (v := (fun _ => va)) (i := (fun _ => fun t => ⟨Y t .iaR, Y t .iaI⟩)) (u := (fun _ => fun t => ⟨Y t .uaR, Y t .uaI⟩))
    (x := (fun _ => fun t => ⟨Y t .xaR, Y t .xaI⟩)) (ψ := fun t => Y t .Vdc) (w := fun t => (envB p (inp t) (Y t)).winv / p.wbase) (d := fun t => ThreePhaseBalanced.rhs (disc (envB p (inp t) (Y t))) .Vdc)
    (fun _ => Pa)
    (fun _ => fun t ht => ⟨continuousAt_mk (h t ht .uaR) (h t ht .uaI), continuousAt_mk (h t ht .xaR) (h t ht .xaI)⟩)
    (fun t ht => h t ht .Vdc)
    (Or.inl (fun t ht hpos => by
      have e : ThreePhaseBalanced.rhs (disc (envB p (inp t) (Y t))) .Vdc = (0 - (envB p (inp t) (Y t)).S.re) / (Y t .Vdc * p.C) := rfl
      have hS := sBal_re p (⟨Y t .uaR, Y t .uaI⟩) (⟨Y t .xaR, Y t .xaI⟩) (⟨Y t .iaR, Y t .iaI⟩) (Y t .Vdc)
      have hS' : (envB p (inp t) (Y t)).S.re = _ := hS
      rw [e, hS']
      simp only [Finset.univ_unique, Finset.sum_const, Finset.card_singleton, one_smul, Fin.sum_univ_three, Matrix.cons_val_zero, Matrix.cons_val_one, Matrix.cons_val]
      have : Y t .Vdc ≠ 0 := ne_of_gt hpos
      field_simp
      ring))
    (by
      rw [hE]
      simp only [Finset.univ_unique, Finset.sum_const, Finset.card_singleton, one_smul, Fin.sum_univ_three, Matrix.cons_val_zero, Matrix.cons_val_one, Matrix.cons_val]
      try ring)
    (fun _ => hma)
    hC
  exact ⟨key.1 (), key.2.1, fun ⟨B, hB⟩ => by
    obtain ⟨l, h1, h2, h3⟩ := key.2.2 (hw hB)
    exact ⟨l, h1, h2, h3 ()⟩⟩

/-- C112 for the class `SinglePhaseConstantVdc`. -/
theorem C112_current_dies_single_constant_vdc (hp : DecayPar p) (Y : ℝ → SinglePhaseConstantVdc.V → ℝ) (V0 : ℝ) (hV0 : 0 < V0) (va : ℂ) (hg : ∀ t, 0 ≤ t → (inp t).va = va ∧ (inp t).Vdc0 = V0)
    (h : ∀ t, 0 ≤ t → Solves (fun t y => SinglePhaseConstantVdc.rhs (disc (envC1 p (inp t) y))) Y t)
    (E : ℝ) (hE : E = phaseEnergy p V0 va ⟨Y 0 .iaR, Y 0 .iaI⟩ ⟨Y 0 .uaR, Y 0 .uaI⟩ ⟨Y 0 .xaR, Y 0 .xaI⟩)
    (hma : dutyReach p 1 V0 va E < p.m_limit) :
    PhaseDies p 1 E (fun t => ⟨Y t .iaR, Y t .iaI⟩) (fun t => ⟨Y t .uaR, Y t .uaI⟩) (fun t => ⟨Y t .xaR, Y t .xaI⟩) ∧
    ((∃ B, ∀ t, 0 ≤ t → |(envC1 p (inp t) (Y t)).winv| ≤ B) → Tendsto (fun t => (⟨Y t .xaR, Y t .xaI⟩ : ℂ)) atTop (𝓝 (((2 / V0 : ℝ) : ℂ) * va))) := by
  have hw : ∀ {B : ℝ}, (∀ t, 0 ≤ t → |(envC1 p (inp t) (Y t)).winv| ≤ B) → ∃ B, ∀ t, 0 ≤ t → |(envC1 p (inp t) (Y t)).winv / p.wbase| ≤ B := by
    intro B hB
    refine ⟨B / |p.wbase|, fun t ht => ?_⟩
    rw [abs_div]
    exact div_le_div_of_nonneg_right (hB t ht) (abs_nonneg _)
  have Pa : ∀ s, 0 ≤ s → ‖duty p ⟨Y s .uaR, Y s .uaI⟩ ⟨Y s .xaR, Y s .xaI⟩‖ ≤ p.m_limit →
      Defect.Phase p.Lf p.Rf p.Kp_GCC p.Ki_GCC p.wp (fun _ => V0) (fun t => (envC1 p (inp t) (Y t)).winv / p.wbase) (fun _ => va) (fun _ => 0)
        (fun t => ⟨Y t .iaR, Y t .iaI⟩) (fun t => ⟨Y t .xaR, Y t .xaI⟩) (fun t => ⟨Y t .uaR, Y t .uaI⟩) s := by
    intro s hs hsat
    have cs := connIf_state false (envC1 p (inp s) (Y s))
    have hd := h s hs
    have aw := C57_antiwindup_single_phase_constant_vdc (disc (envC1 p (inp s) (Y s)))
    have ns : ¬ mSat (disc (envC1 p (inp s) (Y s))) (disc (envC1 p (inp s) (Y s))).ua (disc (envC1 p (inp s) (Y s))).xa := by
      show ¬ mSat (connIf false _) (connIf false _).ua (connIf false _).xa
      simp only [mSat, cs]; exact not_lt.2 hsat
    have hv : (envC1 p (inp s) (Y s)).va = va := (hg s hs).1
    have e3 := aw.1.plain ns
    have e4 := aw.2.1.plain ns
    have e5 := aw.2.2.1.plain ns
    have e6 := aw.2.2.2.1.plain ns
    refine phase_of p (vt := (envC1 p (inp s) (Y s)).vta) (by show vtOf p _ _ (inp s).Vdc0 = _; rw [(hg s hs).2]) ((hd .iaR).congr_deriv ?_) ((hd .iaI).congr_deriv ?_) ((hd .xaR).congr_deriv ?_) ((hd .xaI).congr_deriv ?_)
      ((hd .uaR).congr_deriv ?_) ((hd .uaI).congr_deriv ?_)
    · show SinglePhaseConstantVdc.rhs (connIf false _) _ = _
      simp only [SinglePhaseConstantVdc.rhs, cs, hv]; rfl
    · show SinglePhaseConstantVdc.rhs (connIf false _) _ = _
      simp only [SinglePhaseConstantVdc.rhs, cs, hv]; rfl
    · beta_reduce; rw [e3]; rfl
    · beta_reduce; rw [e4]; rfl
    · beta_reduce; rw [e5]; rfl
    · beta_reduce; rw [e6]; rfl
  have key := dies_out p hp (ι := Unit) (g := 1) (V0 := V0) (E := E) (Cc := |E| / V0 ^ 2 + 1) (by positivity) (by norm_num) hV0
    (v := (fun _ => va)) (i := (fun _ => fun t => ⟨Y t .iaR, Y t .iaI⟩)) (u := (fun _ => fun t => ⟨Y t .uaR, Y t .uaI⟩))
    (x := (fun _ => fun t => ⟨Y t .xaR, Y t .xaI⟩)) (ψ := fun _ => V0) (w := fun t => (envC1 p (inp t) (Y t)).winv / p.wbase) (d := fun _ => 0)
    (fun _ => Pa)
    (fun _ => fun t ht => ⟨continuousAt_mk (h t ht .uaR) (h t ht .uaI), continuousAt_mk (h t ht .xaR) (h t ht .xaI)⟩)
    (fun t _ => hasDerivAt_const t V0)
    (Or.inr (fun t _ => ⟨rfl, rfl⟩))
    (by
      rw [hE]
      simp only [Finset.univ_unique, Finset.sum_const, Finset.card_singleton, one_smul, Fin.sum_univ_three, Matrix.cons_val_zero, Matrix.cons_val_one, Matrix.cons_val]
      try ring)
    (fun _ => hma)
    (by have := le_abs_self E; field_simp; nlinarith [sq_nonneg V0, pow_pos hV0 2])
  exact ⟨key.1 (), fun ⟨B, hB⟩ => by
    obtain ⟨l, h1, h2, h3⟩ := key.2.2 (hw hB)
    have : l = V0 := tendsto_nhds_unique h2 tendsto_const_nhds
    subst this
    exact h3 ()⟩

/-- C112 for the class `ThreePhaseConstantVdc`. -/
theorem C112_current_dies_three_constant_vdc (hp : DecayPar p) (Y : ℝ → ThreePhaseConstantVdc.V → ℝ) (V0 : ℝ) (hV0 : 0 < V0) (va vb vc : ℂ) (hg : ∀ t, 0 ≤ t → (inp t).va = va ∧ (inp t).vb = vb ∧ (inp t).vc = vc ∧ (inp t).Vdc0 = V0)
    (h : ∀ t, 0 ≤ t → Solves (fun t y => ThreePhaseConstantVdc.rhs (disc (envC3 p (inp t) y))) Y t)
    (E : ℝ) (hE : E = phaseEnergy p V0 va ⟨Y 0 .iaR, Y 0 .iaI⟩ ⟨Y 0 .uaR, Y 0 .uaI⟩ ⟨Y 0 .xaR, Y 0 .xaI⟩ + phaseEnergy p V0 vb ⟨Y 0 .ibR, Y 0 .ibI⟩ ⟨Y 0 .ubR, Y 0 .ubI⟩ ⟨Y 0 .xbR, Y 0 .xbI⟩ + phaseEnergy p V0 vc ⟨Y 0 .icR, Y 0 .icI⟩ ⟨Y 0 .ucR, Y 0 .ucI⟩ ⟨Y 0 .xcR, Y 0 .xcI⟩)
    (hma : dutyReach p 1 V0 va E < p.m_limit) (hmb : dutyReach p 1 V0 vb E < p.m_limit) (hmc : dutyReach p 1 V0 vc E < p.m_limit) :
    PhaseDies p 1 E (fun t => ⟨Y t .iaR, Y t .iaI⟩) (fun t => ⟨Y t .uaR, Y t .uaI⟩) (fun t => ⟨Y t .xaR, Y t .xaI⟩) ∧ PhaseDies p 1 E (fun t => ⟨Y t .ibR, Y t .ibI⟩) (fun t => ⟨Y t .ubR, Y t .ubI⟩) (fun t => ⟨Y t .xbR, Y t .xbI⟩) ∧ PhaseDies p 1 E (fun t => ⟨Y t .icR, Y t .icI⟩) (fun t => ⟨Y t .ucR, Y t .ucI⟩) (fun t => ⟨Y t .xcR, Y t .xcI⟩) ∧
    ((∃ B, ∀ t, 0 ≤ t → |(envC3 p (inp t) (Y t)).winv| ≤ B) → Tendsto (fun t => (⟨Y t .xaR, Y t .xaI⟩ : ℂ)) atTop (𝓝 (((2 / V0 : ℝ) : ℂ) * va)) ∧ Tendsto (fun t => (⟨Y t .xbR, Y t .xbI⟩ : ℂ)) atTop (𝓝 (((2 / V0 : ℝ) : ℂ) * vb)) ∧ Tendsto (fun t => (⟨Y t .xcR, Y t .xcI⟩ : ℂ)) atTop (𝓝 (((2 / V0 : ℝ) : ℂ) * vc))) := by
  have hw : ∀ {B : ℝ}, (∀ t, 0 ≤ t → |(envC3 p (inp t) (Y t)).winv| ≤ B) → ∃ B, ∀ t, 0 ≤ t → |(envC3 p (inp t) (Y t)).winv / p.wbase| ≤ B := by
    intro B hB
    refine ⟨B / |p.wbase|, fun t ht => ?_⟩
    rw [abs_div]
    exact div_le_div_of_nonneg_right (hB t ht) (abs_nonneg _)
  have Pa : ∀ s, 0 ≤ s → ‖duty p ⟨Y s .uaR, Y s .uaI⟩ ⟨Y s .xaR, Y s .xaI⟩‖ ≤ p.m_limit →
      Defect.Phase p.Lf p.Rf p.Kp_GCC p.Ki_GCC p.wp (fun _ => V0) (fun t => (envC3 p (inp t) (Y t)).winv / p.wbase) (fun _ => va) (fun _ => 0)
        (fun t => ⟨Y t .iaR, Y t .iaI⟩) (fun t => ⟨Y t .xaR, Y t .xaI⟩) (fun t => ⟨Y t .uaR, Y t .uaI⟩) s := by
    intro s hs hsat
    have cs := connIf_state false (envC3 p (inp s) (Y s))
    have hd := h s hs
    have aw := C57_antiwindup_three_phase_constant_vdc (disc (envC3 p (inp s) (Y s)))
    have ns : ¬ mSat (disc (envC3 p (inp s) (Y s))) (disc (envC3 p (inp s) (Y s))).ua (disc (envC3 p (inp s) (Y s))).xa := by
      show ¬ mSat (connIf false _) (connIf false _).ua (connIf false _).xa
      simp only [mSat, cs]; exact not_lt.2 hsat
    have hv : (envC3 p (inp s) (Y s)).va = va := (hg s hs).1
    have e3 := aw.1.plain ns
    have e4 := aw.2.1.plain ns
    have e5 := aw.2.2.1.plain ns
    have e6 := aw.2.2.2.1.plain ns
    refine phase_of p (vt := (envC3 p (inp s) (Y s)).vta) (by show vtOf p _ _ (inp s).Vdc0 = _; rw [(hg s hs).2.2.2]) ((hd .iaR).congr_deriv ?_) ((hd .iaI).congr_deriv ?_) ((hd .xaR).congr_deriv ?_) ((hd .xaI).congr_deriv ?_)
      ((hd .uaR).congr_deriv ?_) ((hd .uaI).congr_deriv ?_)
    · show ThreePhaseConstantVdc.rhs (connIf false _) _ = _
      simp only [ThreePhaseConstantVdc.rhs, cs, hv]; rfl
    · show ThreePhaseConstantVdc.rhs (connIf false _) _ = _
      simp only [ThreePhaseConstantVdc.rhs, cs, hv]; rfl
    · beta_reduce; rw [e3]; rfl
    · beta_reduce; rw [e4]; rfl
    · beta_reduce; rw [e5]; rfl
    · beta_reduce; rw [e6]; rfl
  have Pb : ∀ s, 0 ≤ s → ‖duty p ⟨Y s .ubR, Y s .ubI⟩ ⟨Y s .xbR, Y s .xbI⟩‖ ≤ p.m_limit →
      Defect.Phase p.Lf p.Rf p.Kp_GCC p.Ki_GCC p.wp (fun _ => V0) (fun t => (envC3 p (inp t) (Y t)).winv / p.wbase) (fun _ => vb) (fun _ => 0)
        (fun t => ⟨Y t .ibR, Y t .ibI⟩) (fun t => ⟨Y t .xbR, Y t .xbI⟩) (fun t => ⟨Y t .ubR, Y t .ubI⟩) s := by
    intro s hs hsat
    have cs := connIf_state false (envC3 p (inp s) (Y s))
    have hd := h s hs
    have aw := C57_antiwindup_three_phase_constant_vdc (disc (envC3 p (inp s) (Y s)))
    have ns : ¬ mSat (disc (envC3 p (inp s) (Y s))) (disc (envC3 p (inp s) (Y s))).ub (disc (envC3 p (inp s) (Y s))).xb := by
      show ¬ mSat (connIf false _) (connIf false _).ub (connIf false _).xb
      simp only [mSat, cs]; exact not_lt.2 hsat
    have hv : (envC3 p (inp s) (Y s)).vb = vb := (hg s hs).2.1
    have e3 := aw.2.2.2.2.1.plain ns
    have e4 := aw.2.2.2.2.2.1.plain ns
    have e5 := aw.2.2.2.2.2.2.1.plain ns
    have e6 := aw.2.2.2.2.2.2.2.1.plain ns
    refine phase_of p (vt := (envC3 p (inp s) (Y s)).vtb) (by show vtOf p _ _ (inp s).Vdc0 = _; rw [(hg s hs).2.2.2]) ((hd .ibR).congr_deriv ?_) ((hd .ibI).congr_deriv ?_) ((hd .xbR).congr_deriv ?_) ((hd .xbI).congr_deriv ?_)
      ((hd .ubR).congr_deriv ?_) ((hd .ubI).congr_deriv ?_)
    · show ThreePhaseConstantVdc.rhs (connIf false _) _ = _
      simp only [ThreePhaseConstantVdc.rhs, cs, hv]; rfl
    · show ThreePhaseConstantVdc.rhs (connIf false _) _ = _
      simp only [ThreePhaseConstantVdc.rhs, cs, hv]; rfl
    · beta_reduce; rw [e3]; rfl
    · beta_reduce; rw [e4]; rfl
    · beta_reduce; rw [e5]; rfl
    · beta_reduce; rw [e6]; rfl
  have Pc : ∀ s, 0 ≤ s → ‖duty p ⟨Y s .ucR, Y s .ucI⟩ ⟨Y s .xcR, Y s .xcI⟩‖ ≤ p.m_limit →
      Defect.Phase p.Lf p.Rf p.Kp_GCC p.Ki_GCC p.wp (fun _ => V0) (fun t => (envC3 p (inp t) (Y t)).winv / p.wbase) (fun _ => vc) (fun _ => 0)
        (fun t => ⟨Y t .icR, Y t .icI⟩) (fun t => ⟨Y t .xcR, Y t .xcI⟩) (fun t => ⟨Y t .ucR, Y t .ucI⟩) s := by
    intro s hs hsat
    have cs := connIf_state false (envC3 p (inp s) (Y s))
    have hd := h s hs
    have aw := C57_antiwindup_three_phase_constant_vdc (disc (envC3 p (inp s) (Y s)))
    have ns : ¬ mSat (disc (envC3 p (inp s) (Y s))) (disc (envC3 p (inp s) (Y s))).uc (disc (envC3 p (inp s) (Y s))).xc := by
      show ¬ mSat (connIf false _) (connIf false _).uc (connIf false _).xc
      simp only [mSat, cs]; exact not_lt.2 hsat
    have hv : (envC3 p (inp s) (Y s)).vc = vc := (hg s hs).2.2.1
    have e3 := aw.2.2.2.2.2.2.2.2.1.plain ns
    have e4 := aw.2.2.2.2.2.2.2.2.2.1.plain ns
    have e5 := aw.2.2.2.2.2.2.2.2.2.2.1.plain ns
    have e6 := aw.2.2.2.2.2.2.2.2.2.2.2.1.plain ns
    refine phase_of p (vt := (envC3 p (inp s) (Y s)).vtc) (by show vtOf p _ _ (inp s).Vdc0 = _; rw [(hg s hs).2.2.2]) ((hd .icR).congr_deriv ?_) ((hd .icI).congr_deriv ?_) ((hd .xcR).congr_deriv ?_) ((hd .xcI).congr_deriv ?_)
      ((hd .ucR).congr_deriv ?_) ((hd .ucI).congr_deriv ?_)
    · show ThreePhaseConstantVdc.rhs (connIf false _) _ = _
      simp only [ThreePhaseConstantVdc.rhs, cs, hv]; rfl
    · show ThreePhaseConstantVdc.rhs (connIf false _) _ = _
      simp only [ThreePhaseConstantVdc.rhs, cs, hv]; rfl
    · beta_reduce; rw [e3]; rfl
    · beta_reduce; rw [e4]; rfl
    · beta_reduce; rw [e5]; rfl
    · beta_reduce; rw [e6]; rfl
  have key := dies_out p hp (ι := Fin 3) (g := 1) (V0 := V0) (E := E) (Cc := |E| / V0 ^ 2 + 1) (by positivity) (by norm_num) hV0
    (v := ![va, vb, vc]) (i := ![fun t => ⟨Y t .iaR, Y t .iaI⟩, fun t => ⟨Y t .ibR, Y t .ibI⟩, fun t => ⟨Y t .icR, Y t .icI⟩]) (u := ![fun t => ⟨Y t .uaR, Y t .uaI⟩, fun t => ⟨Y t .ubR, Y t .ubI⟩, fun t => ⟨Y t .ucR, Y t .ucI⟩])
    (x := ![fun t => ⟨Y t .xaR, Y t .xaI⟩, fun t => ⟨Y t .xbR, Y t .xbI⟩, fun t => ⟨Y t .xcR, Y t .xcI⟩]) (ψ := fun _ => V0) (w := fun t => (envC3 p (inp t) (Y t)).winv / p.wbase) (d := fun _ => 0)
    (fun k => by fin_cases k; exacts [Pa, Pb, Pc])
    (fun k => by fin_cases k; exacts [fun t ht => ⟨continuousAt_mk (h t ht .uaR) (h t ht .uaI), continuousAt_mk (h t ht .xaR) (h t ht .xaI)⟩, fun t ht => ⟨continuousAt_mk (h t ht .ubR) (h t ht .ubI), continuousAt_mk (h t ht .xbR) (h t ht .xbI)⟩, fun t ht => ⟨continuousAt_mk (h t ht .ucR) (h t ht .ucI), continuousAt_mk (h t ht .xcR) (h t ht .xcI)⟩])
    (fun t _ => hasDerivAt_const t V0)
    (Or.inr (fun t _ => ⟨rfl, rfl⟩))
    (by
      rw [hE]
      simp only [Finset.univ_unique, Finset.sum_const, Finset.card_singleton, one_smul, Fin.sum_univ_three, Matrix.cons_val_zero, Matrix.cons_val_one, Matrix.cons_val]
      try ring)
    (fun k => by fin_cases k; exacts [hma, hmb, hmc])
    (by have := le_abs_self E; field_simp; nlinarith [sq_nonneg V0, pow_pos hV0 2])
  exact ⟨key.1 0, key.1 1, key.1 2, fun ⟨B, hB⟩ => by
    obtain ⟨l, h1, h2, h3⟩ := key.2.2 (hw hB)
    have : l = V0 := tendsto_nhds_unique h2 tendsto_const_nhds
    subst this
    exact ⟨h3 0, h3 1, h3 2⟩⟩

/-! ### With a steady grid: the PLL locks (C108), so everything settles -/

/-- A PLL that locks has a bounded frequency. -/
theorem we_bounded {p : Par} {v : ℂ} {w : ℝ} {X W : ℝ → ℝ} (hX : ∀ t, 0 ≤ t → ContinuousAt X t) (hW : ∀ t, 0 ≤ t → ContinuousAt W t) (hl : Locks p v w X W) :
    ∃ B, ∀ t, 0 ≤ t → |weCalc p.Kp_PLL (pll1 v w t (W t)).1 (X t)| ≤ B := by
  set f := fun t => weCalc p.Kp_PLL (pll1 v w t (W t)).1 (X t) with hf
  have hc : ∀ t, 0 ≤ t → ContinuousAt f t := by
    intro t ht
    have e : f = fun t => p.Kp_PLL * (‖v‖ * Real.sin (w * t + arg v - W t)) + X t + 2 * Real.pi * 60 := by
      funext s; simp only [hf, weCalc, C53_pll_input]
    rw [e]
    have h1 : ContinuousAt (fun s => w * s + arg v - W s) t := ((continuousAt_const.mul continuousAt_id).add continuousAt_const).sub (hW t ht)
    exact ((continuousAt_const.mul (continuousAt_const.mul (Real.continuous_sin.continuousAt.comp h1))).add (hX t ht)).add continuousAt_const
  have hl2 := hl.2.1
  rw [Metric.tendsto_atTop] at hl2
  obtain ⟨N, hN⟩ := hl2 1 one_pos
  obtain ⟨M, hM⟩ := bounded_on (f := f) (T := max N 0) (fun t ht => hc t ht.1)
  refine ⟨max M (|w| + 1), fun t ht => ?_⟩
  rcases le_total t (max N 0) with h | h
  · exact (hM t ⟨ht, h⟩).trans (le_max_left _ _)
  · have h1 := hN t ((le_max_left _ _).trans h)
    rw [Real.dist_eq] at h1
    have h2 := abs_sub_abs_le_abs_sub (f t) w
    refine le_trans ?_ (le_max_right _ _)
    show |f t| ≤ _
    have h3 : |f t - w| < 1 := h1
    linarith


/-- C112 for the class `SinglePhase` in a steady balanced grid. -/
theorem C112_settles_single (hp : DecayPar p) (hCp : 0 < p.C) (Y : ℝ → SinglePhase.V → ℝ) (V0 : ℝ) (hV0 : 0 < V0) (v : ℂ) (w : ℝ) (hg : SteadyGrid v w inp) (hv : v ≠ 0)
    (hKp : 0 < p.Kp_PLL) (hKi : 0 < p.Ki_PLL)
    (h : ∀ t, 0 ≤ t → Solves (fun t y => SinglePhase.rhs (disc (env1 p (inp t) y))) Y t)
    (E : ℝ) (hE : E = phaseEnergy p V0 v ⟨Y 0 .iaR, Y 0 .iaI⟩ ⟨Y 0 .uaR, Y 0 .uaI⟩ ⟨Y 0 .xaR, Y 0 .xaI⟩ + p.C * (Y 0 .Vdc - V0) ^ 2)
    (hm : dutyReach p 1 V0 v E < p.m_limit) (hC : E < p.C * V0 ^ 2) :
    ∃ l, 0 < l ∧ Tendsto (fun t => Y t .Vdc) atTop (𝓝 l) ∧ Tendsto (fun t => (⟨Y t .xaR, Y t .xaI⟩ : ℂ)) atTop (𝓝 (((2 / l : ℝ) : ℂ) * v)) := by
  have hl := C108_pll_locks_single p inp (fun _ => false) v w Y hg hv hKp hKi h
  obtain ⟨B, hB⟩ := we_bounded (fun t ht => (h t ht .xPLL).continuousAt) (fun t ht => (h t ht .wte).continuousAt) hl
  have hwb : ∃ B, ∀ t, 0 ≤ t → |(env1 p (inp t) (Y t)).winv| ≤ B := ⟨B, fun t ht => by
    have e : (env1 p (inp t) (Y t)).winv = weCalc p.Kp_PLL (pll1 v w t (Y t .wte)).1 (Y t .xPLL) := by
      simp only [env1, (hg t ht).1, (hg t ht).2.2.2.1, (hg t ht).2.2.2.2]
    rw [e]
    exact hB t ht⟩
  have hub : dutyReach p 1 V0 (Phasor.ub v) E = dutyReach p 1 V0 v E := by unfold dutyReach; rw [(C47_phase_shift v).1]
  have huc : dutyReach p 1 V0 (Phasor.uc v) E = dutyReach p 1 V0 v E := by unfold dutyReach; rw [(C47_phase_shift v).2.1]
  exact (C112_current_dies_single p inp hp hCp Y V0 hV0 v (fun t ht => (hg t ht).1) h E hE hm hC).2.2 hwb

/-- C112 for the class `ThreePhase` in a steady balanced grid. -/
theorem C112_settles_three (hp : DecayPar p) (hCp : 0 < p.C) (Y : ℝ → ThreePhase.V → ℝ) (V0 : ℝ) (hV0 : 0 < V0) (v : ℂ) (w : ℝ) (hg : SteadyGrid v w inp) (hv : v ≠ 0)
    (hKp : 0 < p.Kp_PLL) (hKi : 0 < p.Ki_PLL)
    (h : ∀ t, 0 ≤ t → Solves (fun t y => ThreePhase.rhs (disc (envT p (inp t) y))) Y t)
    (E : ℝ) (hE : E = phaseEnergy p V0 v ⟨Y 0 .iaR, Y 0 .iaI⟩ ⟨Y 0 .uaR, Y 0 .uaI⟩ ⟨Y 0 .xaR, Y 0 .xaI⟩ + phaseEnergy p V0 (Phasor.ub v) ⟨Y 0 .ibR, Y 0 .ibI⟩ ⟨Y 0 .ubR, Y 0 .ubI⟩ ⟨Y 0 .xbR, Y 0 .xbI⟩ + phaseEnergy p V0 (Phasor.uc v) ⟨Y 0 .icR, Y 0 .icI⟩ ⟨Y 0 .ucR, Y 0 .ucI⟩ ⟨Y 0 .xcR, Y 0 .xcI⟩ + p.C * (Y 0 .Vdc - V0) ^ 2)
    (hm : dutyReach p 1 V0 v E < p.m_limit) (hC : E < p.C * V0 ^ 2) :
    ∃ l, 0 < l ∧ Tendsto (fun t => Y t .Vdc) atTop (𝓝 l) ∧ Tendsto (fun t => (⟨Y t .xaR, Y t .xaI⟩ : ℂ)) atTop (𝓝 (((2 / l : ℝ) : ℂ) * v)) ∧ Tendsto (fun t => (⟨Y t .xbR, Y t .xbI⟩ : ℂ)) atTop (𝓝 (((2 / l : ℝ) : ℂ) * (Phasor.ub v))) ∧ Tendsto (fun t => (⟨Y t .xcR, Y t .xcI⟩ : ℂ)) atTop (𝓝 (((2 / l : ℝ) : ℂ) * (Phasor.uc v))) := by
  have hl := C108_pll_locks_three p inp (fun _ => false) v w Y hg hv hKp hKi h
  obtain ⟨B, hB⟩ := we_bounded (fun t ht => (h t ht .xPLL).continuousAt) (fun t ht => (h t ht .wte).continuousAt) hl
  have hwb : ∃ B, ∀ t, 0 ≤ t → |(envT p (inp t) (Y t)).winv| ≤ B := ⟨B, fun t ht => by
    have e : (envT p (inp t) (Y t)).winv = weCalc p.Kp_PLL (pll1 v w t (Y t .wte)).1 (Y t .xPLL) := by
      simp only [envT, env3, pll3_steady inp v w ht hg]
    rw [e]
    exact hB t ht⟩
  have hub : dutyReach p 1 V0 (Phasor.ub v) E = dutyReach p 1 V0 v E := by unfold dutyReach; rw [(C47_phase_shift v).1]
  have huc : dutyReach p 1 V0 (Phasor.uc v) E = dutyReach p 1 V0 v E := by unfold dutyReach; rw [(C47_phase_shift v).2.1]
  exact (C112_current_dies_three p inp hp hCp Y V0 hV0 v (Phasor.ub v) (Phasor.uc v) (fun t ht => ⟨(hg t ht).1, (hg t ht).2.1, (hg t ht).2.2.1⟩) h E hE hm (hub ▸ hm) (huc ▸ hm) hC).2.2.2.2 hwb

/-- C112 for the class `ThreePhaseNoVrmsFilter` in a steady balanced grid. -/
theorem C112_settles_three_no_filter (hp : DecayPar p) (hCp : 0 < p.C) (Y : ℝ → ThreePhaseNoVrmsFilter.V → ℝ) (V0 : ℝ) (hV0 : 0 < V0) (v : ℂ) (w : ℝ) (hg : SteadyGrid v w inp) (hv : v ≠ 0)
    (hKp : 0 < p.Kp_PLL) (hKi : 0 < p.Ki_PLL)
    (h : ∀ t, 0 ≤ t → Solves (fun t y => ThreePhaseNoVrmsFilter.rhs (disc (envN p (inp t) y))) Y t)
    (E : ℝ) (hE : E = phaseEnergy p V0 v ⟨Y 0 .iaR, Y 0 .iaI⟩ ⟨Y 0 .uaR, Y 0 .uaI⟩ ⟨Y 0 .xaR, Y 0 .xaI⟩ + phaseEnergy p V0 (Phasor.ub v) ⟨Y 0 .ibR, Y 0 .ibI⟩ ⟨Y 0 .ubR, Y 0 .ubI⟩ ⟨Y 0 .xbR, Y 0 .xbI⟩ + phaseEnergy p V0 (Phasor.uc v) ⟨Y 0 .icR, Y 0 .icI⟩ ⟨Y 0 .ucR, Y 0 .ucI⟩ ⟨Y 0 .xcR, Y 0 .xcI⟩ + p.C * (Y 0 .Vdc - V0) ^ 2)
    (hm : dutyReach p 1 V0 v E < p.m_limit) (hC : E < p.C * V0 ^ 2) :
    ∃ l, 0 < l ∧ Tendsto (fun t => Y t .Vdc) atTop (𝓝 l) ∧ Tendsto (fun t => (⟨Y t .xaR, Y t .xaI⟩ : ℂ)) atTop (𝓝 (((2 / l : ℝ) : ℂ) * v)) ∧ Tendsto (fun t => (⟨Y t .xbR, Y t .xbI⟩ : ℂ)) atTop (𝓝 (((2 / l : ℝ) : ℂ) * (Phasor.ub v))) ∧ Tendsto (fun t => (⟨Y t .xcR, Y t .xcI⟩ : ℂ)) atTop (𝓝 (((2 / l : ℝ) : ℂ) * (Phasor.uc v))) := by
  have hl := C108_pll_locks_three_no_filter p inp (fun _ => false) v w Y hg hv hKp hKi h
  obtain ⟨B, hB⟩ := we_bounded (fun t ht => (h t ht .xPLL).continuousAt) (fun t ht => (h t ht .wte).continuousAt) hl
  have hwb : ∃ B, ∀ t, 0 ≤ t → |(envN p (inp t) (Y t)).winv| ≤ B := ⟨B, fun t ht => by
    have e : (envN p (inp t) (Y t)).winv = weCalc p.Kp_PLL (pll1 v w t (Y t .wte)).1 (Y t .xPLL) := by
      simp only [envN, env3, pll3_steady inp v w ht hg]
    rw [e]
    exact hB t ht⟩
  have hub : dutyReach p 1 V0 (Phasor.ub v) E = dutyReach p 1 V0 v E := by unfold dutyReach; rw [(C47_phase_shift v).1]
  have huc : dutyReach p 1 V0 (Phasor.uc v) E = dutyReach p 1 V0 v E := by unfold dutyReach; rw [(C47_phase_shift v).2.1]
  exact (C112_current_dies_three_no_filter p inp hp hCp Y V0 hV0 v (Phasor.ub v) (Phasor.uc v) (fun t ht => ⟨(hg t ht).1, (hg t ht).2.1, (hg t ht).2.2.1⟩) h E hE hm (hub ▸ hm) (huc ▸ hm) hC).2.2.2.2 hwb

/-- C112 for the class `ThreePhaseNumba` in a steady balanced grid. -/
theorem C112_settles_three_numba (hp : DecayPar p) (hCp : 0 < p.C) (Y : ℝ → ThreePhaseNumba.V → ℝ) (V0 : ℝ) (hV0 : 0 < V0) (v : ℂ) (w : ℝ) (hg : SteadyGrid v w inp) (hv : v ≠ 0)
    (hKp : 0 < p.Kp_PLL) (hKi : 0 < p.Ki_PLL)
    (h : ∀ t, 0 ≤ t → Solves (fun t y => ThreePhaseNumba.rhs (disc (envNumba p (inp t) y))) Y t)
    (E : ℝ) (hE : E = phaseEnergy p V0 v ⟨Y 0 .iaR, Y 0 .iaI⟩ ⟨Y 0 .uaR, Y 0 .uaI⟩ ⟨Y 0 .xaR, Y 0 .xaI⟩ + phaseEnergy p V0 (Phasor.ub v) ⟨Y 0 .ibR, Y 0 .ibI⟩ ⟨Y 0 .ubR, Y 0 .ubI⟩ ⟨Y 0 .xbR, Y 0 .xbI⟩ + phaseEnergy p V0 (Phasor.uc v) ⟨Y 0 .icR, Y 0 .icI⟩ ⟨Y 0 .ucR, Y 0 .ucI⟩ ⟨Y 0 .xcR, Y 0 .xcI⟩ + p.C * (Y 0 .Vdc - V0) ^ 2)
    (hm : dutyReach p 1 V0 v E < p.m_limit) (hC : E < p.C * V0 ^ 2) :
    ∃ l, 0 < l ∧ Tendsto (fun t => Y t .Vdc) atTop (𝓝 l) ∧ Tendsto (fun t => (⟨Y t .xaR, Y t .xaI⟩ : ℂ)) atTop (𝓝 (((2 / l : ℝ) : ℂ) * v)) ∧ Tendsto (fun t => (⟨Y t .xbR, Y t .xbI⟩ : ℂ)) atTop (𝓝 (((2 / l : ℝ) : ℂ) * (Phasor.ub v))) ∧ Tendsto (fun t => (⟨Y t .xcR, Y t .xcI⟩ : ℂ)) atTop (𝓝 (((2 / l : ℝ) : ℂ) * (Phasor.uc v))) := by
  have hl := C108_pll_locks_three_numba p inp (fun _ => false) v w Y hg hv hKp hKi h
  obtain ⟨B, hB⟩ := we_bounded (fun t ht => (h t ht .xPLL).continuousAt) (fun t ht => (h t ht .wte).continuousAt) hl
  have hwb : ∃ B, ∀ t, 0 ≤ t → |(envNumba p (inp t) (Y t)).winv| ≤ B := ⟨B, fun t ht => by
    have e : (envNumba p (inp t) (Y t)).winv = weCalc p.Kp_PLL (pll1 v w t (Y t .wte)).1 (Y t .xPLL) := by
      simp only [envNumba, env3, pll3_steady inp v w ht hg]
    rw [e]
    exact hB t ht⟩
  have hub : dutyReach p 1 V0 (Phasor.ub v) E = dutyReach p 1 V0 v E := by unfold dutyReach; rw [(C47_phase_shift v).1]
  have huc : dutyReach p 1 V0 (Phasor.uc v) E = dutyReach p 1 V0 v E := by unfold dutyReach; rw [(C47_phase_shift v).2.1]
  exact (C112_current_dies_three_numba p inp hp hCp Y V0 hV0 v (Phasor.ub v) (Phasor.uc v) (fun t ht => ⟨(hg t ht).1, (hg t ht).2.1, (hg t ht).2.2.1⟩) h E hE hm (hub ▸ hm) (huc ▸ hm) hC).2.2.2.2 hwb

/-- C112 for the class `ThreePhaseBalanced` in a steady balanced grid. -/
theorem C112_settles_balanced (hp : DecayPar p) (hCp : 0 < p.C) (Y : ℝ → ThreePhaseBalanced.V → ℝ) (V0 : ℝ) (hV0 : 0 < V0) (v : ℂ) (w : ℝ) (hg : SteadyGrid v w inp) (hv : v ≠ 0)
    (hKp : 0 < p.Kp_PLL) (hKi : 0 < p.Ki_PLL)
    (h : ∀ t, 0 ≤ t → Solves (fun t y => ThreePhaseBalanced.rhs (disc (envB p (inp t) y))) Y t)
    (E : ℝ) (hE : E = 3 * phaseEnergy p V0 v ⟨Y 0 .iaR, Y 0 .iaI⟩ ⟨Y 0 .uaR, Y 0 .uaI⟩ ⟨Y 0 .xaR, Y 0 .xaI⟩ + p.C * (Y 0 .Vdc - V0) ^ 2)
    (hm : dutyReach p 3 V0 v E < p.m_limit) (hC : E < p.C * V0 ^ 2) :
    ∃ l, 0 < l ∧ Tendsto (fun t => Y t .Vdc) atTop (𝓝 l) ∧ Tendsto (fun t => (⟨Y t .xaR, Y t .xaI⟩ : ℂ)) atTop (𝓝 (((2 / l : ℝ) : ℂ) * v)) := by
  have hl := C108_pll_locks_balanced p inp (fun _ => false) v w Y hg hv hKp hKi h
  obtain ⟨B, hB⟩ := we_bounded (fun t ht => (h t ht .xPLL).continuousAt) (fun t ht => (h t ht .wte).continuousAt) hl
  have hwb : ∃ B, ∀ t, 0 ≤ t → |(envB p (inp t) (Y t)).winv| ≤ B := ⟨B, fun t ht => by
    have e : (envB p (inp t) (Y t)).winv = weCalc p.Kp_PLL (pll1 v w t (Y t .wte)).1 (Y t .xPLL) := by
      simp only [envB, env3, (hg t ht).1, (hg t ht).2.2.2.1, (hg t ht).2.2.2.2, C53_pll_three_phase]
    rw [e]
    exact hB t ht⟩
  have hub : dutyReach p 3 V0 (Phasor.ub v) E = dutyReach p 3 V0 v E := by unfold dutyReach; rw [(C47_phase_shift v).1]
  have huc : dutyReach p 3 V0 (Phasor.uc v) E = dutyReach p 3 V0 v E := by unfold dutyReach; rw [(C47_phase_shift v).2.1]
  exact (C112_current_dies_balanced p inp hp hCp Y V0 hV0 v (fun t ht => (hg t ht).1) h E hE hm hC).2.2 hwb

/-- C112 for the class `SinglePhaseConstantVdc` in a steady balanced grid. -/
theorem C112_settles_single_constant_vdc (hp : DecayPar p) (Y : ℝ → SinglePhaseConstantVdc.V → ℝ) (V0 : ℝ) (hV0 : 0 < V0) (v : ℂ) (w : ℝ) (hg : SteadyGrid v w inp) (hdc : ∀ t, 0 ≤ t → (inp t).Vdc0 = V0) (hv : v ≠ 0)
    (hKp : 0 < p.Kp_PLL) (hKi : 0 < p.Ki_PLL)
    (h : ∀ t, 0 ≤ t → Solves (fun t y => SinglePhaseConstantVdc.rhs (disc (envC1 p (inp t) y))) Y t)
    (E : ℝ) (hE : E = phaseEnergy p V0 v ⟨Y 0 .iaR, Y 0 .iaI⟩ ⟨Y 0 .uaR, Y 0 .uaI⟩ ⟨Y 0 .xaR, Y 0 .xaI⟩)
    (hm : dutyReach p 1 V0 v E < p.m_limit) :
    Tendsto (fun t => (⟨Y t .xaR, Y t .xaI⟩ : ℂ)) atTop (𝓝 (((2 / V0 : ℝ) : ℂ) * v)) := by
  have hl := C108_pll_locks_single_constant_vdc p inp (fun _ => false) v w Y hg hv hKp hKi h
  obtain ⟨B, hB⟩ := we_bounded (fun t ht => (h t ht .xPLL).continuousAt) (fun t ht => (h t ht .wte).continuousAt) hl
  have hwb : ∃ B, ∀ t, 0 ≤ t → |(envC1 p (inp t) (Y t)).winv| ≤ B := ⟨B, fun t ht => by
    have e : (envC1 p (inp t) (Y t)).winv = weCalc p.Kp_PLL (pll1 v w t (Y t .wte)).1 (Y t .xPLL) := by
      simp only [envC1, (hg t ht).1, (hg t ht).2.2.2.1, (hg t ht).2.2.2.2]
    rw [e]
    exact hB t ht⟩
  have hub : dutyReach p 1 V0 (Phasor.ub v) E = dutyReach p 1 V0 v E := by unfold dutyReach; rw [(C47_phase_shift v).1]
  have huc : dutyReach p 1 V0 (Phasor.uc v) E = dutyReach p 1 V0 v E := by unfold dutyReach; rw [(C47_phase_shift v).2.1]
  exact (C112_current_dies_single_constant_vdc p inp hp Y V0 hV0 v (fun t ht => ⟨(hg t ht).1, hdc t ht⟩) h E hE hm).2 hwb

/-- C112 for the class `ThreePhaseConstantVdc` in a steady balanced grid. -/
theorem C112_settles_three_constant_vdc (hp : DecayPar p) (Y : ℝ → ThreePhaseConstantVdc.V → ℝ) (V0 : ℝ) (hV0 : 0 < V0) (v : ℂ) (w : ℝ) (hg : SteadyGrid v w inp) (hdc : ∀ t, 0 ≤ t → (inp t).Vdc0 = V0) (hv : v ≠ 0)
    (hKp : 0 < p.Kp_PLL) (hKi : 0 < p.Ki_PLL)
    (h : ∀ t, 0 ≤ t → Solves (fun t y => ThreePhaseConstantVdc.rhs (disc (envC3 p (inp t) y))) Y t)
    (E : ℝ) (hE : E = phaseEnergy p V0 v ⟨Y 0 .iaR, Y 0 .iaI⟩ ⟨Y 0 .uaR, Y 0 .uaI⟩ ⟨Y 0 .xaR, Y 0 .xaI⟩ + phaseEnergy p V0 (Phasor.ub v) ⟨Y 0 .ibR, Y 0 .ibI⟩ ⟨Y 0 .ubR, Y 0 .ubI⟩ ⟨Y 0 .xbR, Y 0 .xbI⟩ + phaseEnergy p V0 (Phasor.uc v) ⟨Y 0 .icR, Y 0 .icI⟩ ⟨Y 0 .ucR, Y 0 .ucI⟩ ⟨Y 0 .xcR, Y 0 .xcI⟩)
    (hm : dutyReach p 1 V0 v E < p.m_limit) :
    Tendsto (fun t => (⟨Y t .xaR, Y t .xaI⟩ : ℂ)) atTop (𝓝 (((2 / V0 : ℝ) : ℂ) * v)) ∧ Tendsto (fun t => (⟨Y t .xbR, Y t .xbI⟩ : ℂ)) atTop (𝓝 (((2 / V0 : ℝ) : ℂ) * (Phasor.ub v))) ∧ Tendsto (fun t => (⟨Y t .xcR, Y t .xcI⟩ : ℂ)) atTop (𝓝 (((2 / V0 : ℝ) : ℂ) * (Phasor.uc v))) := by
  have hl := C108_pll_locks_three_constant_vdc p inp (fun _ => false) v w Y hg hv hKp hKi h
  obtain ⟨B, hB⟩ := we_bounded (fun t ht => (h t ht .xPLL).continuousAt) (fun t ht => (h t ht .wte).continuousAt) hl
  have hwb : ∃ B, ∀ t, 0 ≤ t → |(envC3 p (inp t) (Y t)).winv| ≤ B := ⟨B, fun t ht => by
    have e : (envC3 p (inp t) (Y t)).winv = weCalc p.Kp_PLL (pll1 v w t (Y t .wte)).1 (Y t .xPLL) := by
      simp only [envC3, pll3_steady inp v w ht hg]
    rw [e]
    exact hB t ht⟩
  have hub : dutyReach p 1 V0 (Phasor.ub v) E = dutyReach p 1 V0 v E := by unfold dutyReach; rw [(C47_phase_shift v).1]
  have huc : dutyReach p 1 V0 (Phasor.uc v) E = dutyReach p 1 V0 v E := by unfold dutyReach; rw [(C47_phase_shift v).2.1]
  exact (C112_current_dies_three_constant_vdc p inp hp Y V0 hV0 v (Phasor.ub v) (Phasor.uc v) (fun t ht => ⟨(hg t ht).1, (hg t ht).2.1, (hg t ht).2.2.1, hdc t ht⟩) h E hE hm (hub ▸ hm) (huc ▸ hm)).2.2.2 hwb

/-! ## A concrete case: an explicit solution of the constant-Vdc single-phase class, with nonzero initial current -/

/-- Gains for the example. -/
noncomputable def dyPar : Par := { exPar with Lf := 1/10, Rf := 1, Kp_GCC := 1, Ki_GCC := 19/10, wp := 2, Kp_P := 0, Ki_P := 0, Kp_Q := 0, Ki_Q := 0, m_limit := 4 }

/-- Constant terminal voltage 1/2 and DC voltage 1. -/
noncomputable def dyInp (t : ℝ) : Inp := { exInp with va := 1/2, w := 0, t := t, Vdc0 := 1 }

/-- The current dies out as `exp (-t)`. -/
noncomputable def dyY (t : ℝ) : SinglePhaseConstantVdc.V → ℝ
  | .iaR => Real.exp (-t)
  | .uaR => -2 * Real.exp (-t)
  | .xaR => 1 + 19/5 * Real.exp (-t)
  | .xPLL => -(2 * Real.pi * 60)
  | _ => 0

theorem dyVd (t : ℝ) : (pll1 (1/2) 0 t 0).1 = 0 := by
  rw [C53_pll_input]
  have : arg (1/2 : ℂ) = 0 := by
    have h := Complex.arg_ofReal_of_nonneg (x := 1/2) (by norm_num)
    push_cast at h
    exact h
  rw [this]
  simp

theorem dyVt (e : ℝ) : vtOf dyPar ⟨-2 * e, 0⟩ ⟨1 + 19/5 * e, 0⟩ 1 = ⟨1/2 + 9/10 * e, 0⟩ := by
  unfold vtOf duty
  apply Complex.ext
  · simp [dyPar]; ring
  · simp [dyPar]

theorem dyUnsat (e : ℝ) (h0 : 0 ≤ e) (h1 : e ≤ 1) : ¬ (‖((dyPar.Kp_GCC : ℝ) : ℂ) * (⟨-2 * e, 0⟩ : ℂ) + (⟨1 + 19/5 * e, 0⟩ : ℂ)‖ > dyPar.m_limit) := by
  rw [not_lt]
  have : ((dyPar.Kp_GCC : ℝ) : ℂ) * (⟨-2 * e, 0⟩ : ℂ) + (⟨1 + 19/5 * e, 0⟩ : ℂ) = ((1 + 9/5 * e : ℝ) : ℂ) := by
    apply Complex.ext
    · simp [dyPar]; ring
    · simp [dyPar]
  rw [this, Complex.norm_real, Real.norm_eq_abs, abs_of_nonneg (by positivity)]
  show _ ≤ (4 : ℝ)
  linarith

theorem dy_solves (t : ℝ) (ht : 0 ≤ t) : Solves (fun t y => SinglePhaseConstantVdc.rhs (disc (envC1 dyPar (dyInp t) y))) dyY t := by
  have he : HasDerivAt (fun s => Real.exp (-s)) (-Real.exp (-t)) t := by
    simpa using (hasDerivAt_neg t).exp
  have hle : Real.exp (-t) ≤ 1 := Real.exp_le_one_iff.2 (by linarith)
  have hpos := Real.exp_pos (-t)
  have hvt := dyVt (Real.exp (-t))
  have hu := dyUnsat (Real.exp (-t)) hpos.le hle
  have hvd := dyVd t
  intro r
  cases r
  case iaR =>
    refine he.congr_deriv ?_
    simp only [SinglePhaseConstantVdc.rhs, disc, envC1, dyY, dyInp, hvd, hvt, Env.base]
    simp [dyPar, weCalc]; ring
  case uaR =>
    refine (he.const_mul (-2)).congr_deriv ?_
    simp only [SinglePhaseConstantVdc.rhs, disc, envC1, dyY, dyInp, Env.base]
    refine Eq.trans ?_ (if_neg hu).symm
    simp [dyPar]; ring
  case xaR =>
    refine ((he.const_mul (19/5)).const_add 1).congr_deriv ?_
    simp only [SinglePhaseConstantVdc.rhs, disc, envC1, dyY, dyInp, Env.base]
    refine Eq.trans ?_ (if_neg hu).symm
    simp [dyPar]; ring
  all_goals
    simp only [dyY]
    refine (hasDerivAt_const t _).congr_deriv ?_
    symm
    simp only [SinglePhaseConstantVdc.rhs, disc, envC1, dyY, dyInp, hvd, hvt, Env.base]
    simp [dyPar, weCalc]

theorem dy_energy : phaseEnergy dyPar 1 (1/2) ⟨dyY 0 .iaR, dyY 0 .iaI⟩ ⟨dyY 0 .uaR, dyY 0 .uaI⟩ ⟨dyY 0 .xaR, dyY 0 .xaI⟩ = 11/20 := by
  unfold phaseEnergy
  simp only [dyY, dyPar, ← Complex.normSq_eq_norm_sq, Complex.normSq_apply]
  simp
  norm_num

/-- The theorem applies to the explicit solution: its current starts at 1 and dies out. -/
theorem C112_example : dyY 0 .iaR = 1 ∧ PhaseDies dyPar 1 (11/20) (fun t => ⟨dyY t .iaR, dyY t .iaI⟩) (fun t => ⟨dyY t .uaR, dyY t .uaI⟩) (fun t => ⟨dyY t .xaR, dyY t .xaI⟩) := by
  refine ⟨by simp [dyY], (C112_current_dies_single_constant_vdc dyPar dyInp ?_ dyY 1 one_pos (1/2) (fun t _ => ⟨rfl, rfl⟩) dy_solves _ dy_energy.symm ?_).1⟩
  · constructor <;> norm_num [dyPar]
  · unfold dutyReach
    have : Real.sqrt (4 * dyPar.Kp_GCC * dyPar.wp / (1 * 1) * (11/20)) < 5/2 := by
      rw [Real.sqrt_lt' (by norm_num)]
      norm_num [dyPar]
    have h2 : dyPar.m_limit = 4 := rfl
    rw [h2]
    norm_num at this ⊢
    linarith

end Ode
end PvDer
