import Verif.Props.ClosedLoop
import Verif.Props.Circuit
import Verif.Lemmas.OdeEx
import Mathlib.Analysis.Real.Pi.Bounds

/-!
# C124 for shipped inverters

The certificates of `Props/ClosedLoop` hold for the gains and filters that ship with the simulator, over the whole range of grid voltages, frequencies and loads of normal operation.
-/

namespace PvDer
namespace PV

/-- Any power is delivered at some insolation. -/
theorem ppv_onto (m : Mod) (T Vd P : ℝ) (hI : 0 < m.Iscr + m.Kv * (T - m.T0)) (hN : 0 < m.Np) (hV : 0 < Vd) (hS : 0 < m.Sbase) (hP : 0 ≤ P) : ∃ Sinsol, ppv m Sinsol T Vd = P := by
  refine ⟨100 * ((P * m.Sbase / Vd + m.Np * m.Irs * (Real.exp ((m.q * Vd) / (m.k * T * m.A * m.Ns)) - 1)) / (m.Np * (m.Iscr + m.Kv * (T - m.T0)))), ?_⟩
  have e : ipv m (100 * ((P * m.Sbase / Vd + m.Np * m.Irs * (Real.exp ((m.q * Vd) / (m.k * T * m.A * m.Ns)) - 1)) / (m.Np * (m.Iscr + m.Kv * (T - m.T0))))) T Vd = P * m.Sbase / Vd := by
    unfold ipv iph
    generalize Real.exp _ = x
    generalize m.Iscr + m.Kv * (T - m.T0) = y at *
    field_simp
    ring
  unfold ppv
  rw [e, div_mul_cancel₀ _ hV.ne', max_eq_right (by positivity), mul_div_cancel_right₀ _ hS.ne']
end PV

namespace Ode
open Complex Phasor LocStab

/-- Operating conditions exist for every power that a current carries. -/
theorem operating_exists (p : Par) (v w U i : ℝ) (hI : 0 < p.mod.Iscr) (hN : 0 < p.mod.Np) (hS : 0 < p.mod.Sbase) (hV : 0 < min p.Vdcmpp_max (U * p.Vdcbase)) (hv : 0 ≤ v) (hR : 0 ≤ p.Rf) (hi : 0 ≤ i) :
    ∃ inp, Operating p v w U i inp := by
  obtain ⟨S, hS⟩ := PV.ppv_onto p.mod p.mod.T0 _ (1 / 2 * (v * i + p.Rf * i ^ 2)) (by rw [sub_self, mul_zero, add_zero]; exact hI) hN hV hS (by positivity)
  exact ⟨fun t => { exInp with va := v, vb := ub v, vc := uc v, w := w, t := t, Q_ref := 0, Vdc0 := U, Sinsol := S, Tactual := p.mod.T0 },
    fun t _ => ⟨rfl, rfl, rfl, rfl, rfl⟩, fun _ _ => rfl, fun _ _ => rfl, fun _ _ => hS⟩

namespace SinglePhaseConstantVdc

/-- Gains and filter of the shipped 10 kVA unit with constant DC voltage (config_der.json 121-139; filter in per unit, grid_components.py 12-20). -/
structure Unit10 (p : Par) : Prop where
  Kp : p.Kp_GCC = 12000
  Ki : p.Ki_GCC = 4000
  wp : p.wp = 200000
  KpP : p.Kp_P = 1 / 10
  KiP : p.Ki_P = 40
  KpQ : p.Kp_Q = 4 / 100
  KiQ : p.Ki_Q = 2
  Rf : p.Rf = 2 / 1000 / 5
  Lf : p.Lf = 25 / 1000000 * (2 * Real.pi * 60) / 5
  wbase : p.wbase = 2 * Real.pi * 60
  KpPLL : 0 < p.Kp_PLL
  KiPLL : 0 < p.Ki_PLL

theorem Unit10.ok {p : Par} (h : Unit10 p) {v w U i : ℝ} (v0 : 2 / 5 ≤ v) (v1 : v ≤ 3 / 5) (w1 : |w / p.wbase| ≤ 6 / 5) (U0 : 1 ≤ U) (U1 : U ≤ 8 / 5) (i0 : 0 ≤ i) (i1 : i ≤ 26 / 25) :
    LoopOk (loopPar p v w U i) 8 5000 100000000 := by
  have L0 : 188 / 100000 ≤ p.Lf := by rw [h.Lf]; linarith [Real.pi_gt_d2]
  have L1 : p.Lf ≤ 189 / 100000 := by rw [h.Lf]; linarith [Real.pi_lt_d2]
  have ek : (loopPar p v w U i).k = 2400000000 := by
    show p.Kp_GCC * p.wp = _
    rw [h.Kp, h.wp]; norm_num
  have eκ : (loopPar p v w U i).κ = 1 / 3 := by
    show p.Ki_GCC / p.Kp_GCC = _
    rw [h.Kp, h.Ki]; norm_num
  have eρ : (loopPar p v w U i).ρ = 200000 - 1 / 3 := by
    unfold LoopPar.ρ
    rw [eκ]
    show p.wp - _ = _
    rw [h.wp]
  have eα1 : (loopPar p v w U i).α1 = 1 + 20 * i * p.Lf + 1 / 20 * (v + 1 / 2500 * i) := by
    show 1 + 1 / 2 * p.Ki_P * i * p.Lf + 1 / 2 * p.Kp_P * (v + p.Rf * i) = _
    rw [h.KiP, h.KpP, h.Rf]; ring
  have eα2 : (loopPar p v w U i).α2 = 1 + 1 / 50 * v := by
    show 1 + 1 / 2 * p.Kp_Q * v = _
    rw [h.KpQ]; ring
  have iL : i * p.Lf ≤ 26 / 25 * (189 / 100000) := by gcongr
  have iL0 : 0 ≤ i * p.Lf := by positivity
  have α1l : 1 ≤ (loopPar p v w U i).α1 := by rw [eα1]; nlinarith
  have α1u : (loopPar p v w U i).α1 ≤ 6 / 5 := by rw [eα1]; linarith
  have α2l : 1 ≤ (loopPar p v w U i).α2 := by rw [eα2]; linarith
  have α2u : (loopPar p v w U i).α2 ≤ 6 / 5 := by rw [eα2]; linarith
  have eβ1 : (loopPar p v w U i).β1 = 20 * (v + 2 * (1 / 2500) * i) / (loopPar p v w U i).α1 := by
    show 1 / 2 * p.Ki_P * (v + 2 * p.Rf * i) / _ = _
    rw [h.KiP, h.Rf]; norm_num
  have eβ2 : (loopPar p v w U i).β2 = v / (loopPar p v w U i).α2 := by
    show 1 / 2 * p.Ki_Q * v / _ = _
    rw [h.KiQ]; norm_num
  have α1p : 0 < (loopPar p v w U i).α1 := by linarith
  have α2p : 0 < (loopPar p v w U i).α2 := by linarith
  have β1p : 0 < (loopPar p v w U i).β1 := by rw [eβ1]; apply div_pos _ α1p; nlinarith
  have β2p : 0 < (loopPar p v w U i).β2 := by rw [eβ2]; apply div_pos _ α2p; linarith
  have β1u : (loopPar p v w U i).β1 ≤ 13 := by rw [eβ1, div_le_iff₀ α1p]; nlinarith
  have β2u : (loopPar p v w U i).β2 ≤ 13 := by rw [eβ2, div_le_iff₀ α2p]; nlinarith
  have k1e : (loopPar p v w U i).k1 = 2400000000 * (loopPar p v w U i).α1 := by unfold LoopPar.k1; rw [ek]
  have k2e : (loopPar p v w U i).k2 = 2400000000 * (loopPar p v w U i).α2 := by unfold LoopPar.k2; rw [ek]
  have gi0 : 0 ≤ U * i := by positivity
  have gi1 : U * i ≤ 8 / 5 * (26 / 25) := by gcongr
  have eρ1 : (loopPar p v w U i).ρ1 = 200000 - 1 / 3 + 60000000 * (U * i) := by
    unfold LoopPar.ρ1
    rw [ek, eρ]
    show _ + 2400000000 * (1 / 2 * p.Kp_P) * (U / 2) * i = _
    rw [h.KpP]; ring
  have eη : (loopPar p v w U i).η = 120000000 * (i * p.Lf) * (w / p.wbase) := by
    unfold LoopPar.η
    rw [ek]
    show 2400000000 * (1 / 2 * p.Kp_P) * p.Lf * (w / p.wbase) * i = _
    rw [h.KpP]; ring
  have ηu : |(loopPar p v w U i).η| ≤ 300000 := by
    rw [eη, abs_mul, abs_of_nonneg (by positivity)]
    calc 120000000 * (i * p.Lf) * |w / p.wbase| ≤ 120000000 * (26 / 25 * (189 / 100000)) * (6 / 5) := by gcongr
      _ ≤ 300000 := by norm_num
  have Xu : |p.Lf * (w / p.wbase)| ≤ 3 / 1000 := by
    have : 0 < p.Lf := by linarith
    rw [abs_mul, abs_of_pos this]
    calc p.Lf * |w / p.wbase| ≤ (189 / 100000) * (6 / 5) := by gcongr
      _ ≤ 3 / 1000 := by norm_num
  have Ru : ∀ β : ℝ, 0 < β → β ≤ 13 → |p.Rf - p.Lf * β| ≤ 3 / 100 := by
    intro β b0 b1
    have x1 : p.Lf * β ≤ 189 / 100000 * 13 := by gcongr
    have x2 : 0 ≤ p.Lf * β := by have : 0 < p.Lf := by linarith
                                 positivity
    rw [h.Rf, abs_le]
    constructor <;> linarith
  have eg : (loopPar p v w U i).g = U / 2 := rfl
  have eL : (loopPar p v w U i).L = p.Lf := rfl
  have eR : (loopPar p v w U i).R = p.Rf := rfl
  have ew : (loopPar p v w U i).w0 = w / p.wbase := rfl
  have a1 : AxisOk (loopPar p v w U i).k1 (loopPar p v w U i).g (loopPar p v w U i).L (loopPar p v w U i).ρ (loopPar p v w U i).ρ1 (loopPar p v w U i).κ 8 5000 := by
    rw [k1e, eg, eL, eρ, eρ1, eκ]
    refine AxisOk.of_bounds (k0 := 2400000000) (g0 := 1 / 2) (g1 := 4 / 5) (L0 := 188 / 100000) (L1 := 189 / 100000) (ρ0 := 199999) (ρ1 := 200000)
      (by linarith) (by norm_num) (by linarith) (by linarith) (by norm_num) L0 L1 (by norm_num) (by norm_num) (by norm_num) (by linarith) (by norm_num) (by norm_num) (by norm_num) (by norm_num)
      (by linarith) (by norm_num) (by norm_num) (by norm_num) (by norm_num) (by norm_num) (by norm_num)
  have a2 : AxisOk (loopPar p v w U i).k2 (loopPar p v w U i).g (loopPar p v w U i).L (loopPar p v w U i).ρ (loopPar p v w U i).ρ (loopPar p v w U i).κ 8 5000 := by
    rw [k2e, eg, eL, eρ, eκ]
    refine AxisOk.of_bounds (k0 := 2400000000) (g0 := 1 / 2) (g1 := 4 / 5) (L0 := 188 / 100000) (L1 := 189 / 100000) (ρ0 := 199999) (ρ1 := 200000)
      (by linarith) (by norm_num) (by linarith) (by linarith) (by norm_num) L0 L1 (by norm_num) (by norm_num) (by norm_num) (by norm_num) (by norm_num) (by norm_num) (by norm_num) (by norm_num)
      (by linarith) (by norm_num) (by norm_num) (by norm_num) (by norm_num) (by norm_num) (by norm_num)
  have e1 : ∀ k ρa R R0 B : ℝ, 0 < k → k ≤ 2880000000 → 199999 ≤ ρa → |R| ≤ R0 → 8 * 2880000000 * R0 ^ 2 / (8 * (1 / 2) ^ 2) + 8 * 8 ^ 2 * R0 ^ 2 / ((188 / 100000) ^ 2 * 199999) ≤ B → lossE k (U / 2) p.Lf ρa 8 R ≤ B :=
    fun k ρa R R0 B hk hk' hρ hR hB => lossE_le hk (by norm_num) (by norm_num) (by norm_num) (by norm_num) hk' (by linarith) L0 hρ hR hB
  have ρ1l : 199999 ≤ (loopPar p v w U i).ρ1 := by rw [eρ1]; linarith
  have ρl : 199999 ≤ (loopPar p v w U i).ρ := by rw [eρ]; norm_num
  have k1p := a1.pk
  have k2p := a2.pk
  have k1u : (loopPar p v w U i).k1 ≤ 2880000000 := by rw [k1e]; linarith
  have k2u : (loopPar p v w U i).k2 ≤ 2880000000 := by rw [k2e]; linarith
  have k1l : 2400000000 ≤ (loopPar p v w U i).k1 := by rw [k1e]; linarith
  have k2l : 2400000000 ≤ (loopPar p v w U i).k2 := by rw [k2e]; linarith
  have nn : ∀ k : ℝ, 2400000000 ≤ k → 60 * (100000000 : ℝ) * ((loopPar p v w U i).ρ / k) ^ 2 ≤ 5000 := by
    intro k hk
    have : (loopPar p v w U i).ρ / k ≤ 200000 / 2400000000 := by
      rw [eρ]; gcongr; norm_num
    have h0 : 0 ≤ (loopPar p v w U i).ρ / k := by
      rw [eρ]; apply div_nonneg <;> linarith
    calc 60 * (100000000 : ℝ) * ((loopPar p v w U i).ρ / k) ^ 2 ≤ 60 * (100000000 : ℝ) * (200000 / 2400000000) ^ 2 := by gcongr
      _ ≤ 5000 := by norm_num
  have vp : 0 < v := by linarith
  refine ⟨?_, α1p, α2p, β1p, β2p, a1, a2, by norm_num, ?_, ?_, by linarith, by linarith, nn _ k1l, nn _ k2l, mul_pos h.KpPLL vp, mul_pos h.KiPLL vp⟩
  · show 0 < p.Kp_GCC
    rw [h.Kp]; norm_num
  · rw [eg, eL, eR, ew]
    have q1 := e1 _ _ _ _ 20000000 k1p k1u ρ1l (Ru _ β1p β1u) (by norm_num)
    have q2 := e1 _ _ _ _ 20000000 k2p k2u ρl Xu (by norm_num)
    linarith
  · rw [eg, eL, eR, ew]
    have q1 := e1 _ _ _ _ 20000000 k2p k2u ρl (Ru _ β2p β2u) (by norm_num)
    have q2 := e1 _ _ _ _ 20000000 k1p k1u ρ1l Xu (by norm_num)
    have q3 := lossH_le (B := 20000000) (ε := 8) (by norm_num) (by norm_num) (by norm_num) k1l ρ1l ηu (by norm_num)
    linarith

/-- The duty cycle of the operating point is within its limit. -/
theorem Unit10.duty {p : Par} (h : Unit10 p) {v w U i : ℝ} (v0 : 2 / 5 ≤ v) (v1 : v ≤ 3 / 5) (w1 : |w / p.wbase| ≤ 6 / 5) (U1 : 5 / 4 ≤ U) (i0 : 0 ≤ i) (i1 : i ≤ 26 / 25) :
    ‖(⟨(v + p.Rf * i) / (U / 2), p.Lf * (w / p.wbase) * i / (U / 2)⟩ : ℂ)‖ < 1 := by
  refine (norm_mk_le _ _).trans_lt ?_
  have L1 : p.Lf ≤ 189 / 100000 := by rw [h.Lf]; linarith [Real.pi_lt_d2]
  have L0 : 0 ≤ p.Lf := by rw [h.Lf]; positivity
  have hU : 0 < U / 2 := by linarith
  have x1 : |p.Lf * (w / p.wbase) * i| ≤ 1 / 100 := by
    rw [abs_mul, abs_mul, abs_of_nonneg L0, abs_of_nonneg i0]
    calc p.Lf * |w / p.wbase| * i ≤ (189 / 100000) * (6 / 5) * (26 / 25) := by gcongr
      _ ≤ 1 / 100 := by norm_num
  rw [abs_div _ (U / 2), abs_div _ (U / 2), abs_of_pos hU, ← add_div, div_lt_one hU, abs_of_nonneg (by rw [h.Rf]; positivity), h.Rf]
  linarith

/-- C124 for the shipped 10 kVA unit with constant DC voltage, at every grid voltage of 0.4 to 0.6 per unit (nominal 0.5), every frequency up to 1.2 per unit, every DC voltage of 1.25 to 1.6
per unit and every load below the current limit (1.039 per unit): one radius, overshoot and rate for all solutions. -/
theorem C124_shipped_single_constant_vdc {p : Par} (h : Unit10 p) (hm : p.m_limit = 1) (hl : p.iref_limit ≤ 26 / 25) {v w U i : ℝ} (v0 : 2 / 5 ≤ v) (v1 : v ≤ 3 / 5) (w1 : |w / p.wbase| ≤ 6 / 5)
    (U0 : 5 / 4 ≤ U) (U1 : U ≤ 8 / 5) (i0 : 0 ≤ i) (i1 : i < p.iref_limit) :
    ∃ δ > 0, ∃ M > 0, ∃ a > 0, ∀ (inp : ℝ → Inp) (Y : ℝ → V → ℝ), Operating p v w U i inp → (∀ t, 0 ≤ t → Solves (fun t y => rhs (envC1 p (inp t) y)) Y t) →
      ‖Y 0 - rest p v w U i 0‖ ≤ δ → ∀ t, 0 ≤ t → ‖Y t - rest p v w U i t‖ ≤ M * ‖Y 0 - rest p v w U i 0‖ * Real.exp (-a * t) :=
  C124_settles_single_constant_vdc (by linarith) (by linarith) (h.ok v0 v1 w1 (by linarith) U1 i0 (by linarith)) (by rw [hm]; exact h.duty v0 v1 w1 U0 i0 (by linarith)) (by rw [abs_of_nonneg i0]; exact i1)

/-- The 10 kVA unit. -/
noncomputable def par10 : Par :=
  { Lf := 25 / 1000000 * (2 * Real.pi * 60) / 5, Rf := 2 / 1000 / 5, C := 1/2, Kp_GCC := 12000, Ki_GCC := 4000, wp := 200000, Kp_DC := -4, Ki_DC := -20, Kp_P := 1 / 10, Ki_P := 40, Kp_Q := 4 / 100, Ki_Q := 2,
    Kp_PLL := 180, Ki_PLL := 320, m_limit := 1, iref_limit := 103 / 100, wbase := 2 * Real.pi * 60, Tfilter_Vrms := 1/100, Vdcbase := 500, Vdcmpp_max := 800, mod := PV.exMod }

/-- Conditions under which the unit operates, and a solution with a non-zero current. -/
example : ∃ inp, Operating par10 (1 / 2) (2 * Real.pi * 60) (3 / 2) 1 inp ∧ ∀ t, 0 ≤ t → Solves (fun t y => rhs (envC1 par10 (inp t) y)) (rest par10 (1 / 2) (2 * Real.pi * 60) (3 / 2) 1) t := by
  have h : Unit10 par10 := by constructor <;> first | rfl | norm_num [par10]
  obtain ⟨inp, ho⟩ := operating_exists par10 (1 / 2) (2 * Real.pi * 60) (3 / 2) 1 (by norm_num [par10, PV.exMod]) (by norm_num [par10, PV.exMod]) (by norm_num [par10, PV.exMod])
    (by norm_num [par10]) (by norm_num) (by norm_num [par10]) (by norm_num)
  have w1 : |2 * Real.pi * 60 / par10.wbase| ≤ 6 / 5 := by
    rw [h.wbase, div_self (by positivity)]; norm_num
  refine ⟨inp, ho, fun t ht => C124_rest (by norm_num) (by norm_num) ?_ ?_ (by norm_num [par10]) ho t ht⟩
  · rw [h.Lf]; positivity
  · exact h.duty (by norm_num) (by norm_num) w1 (by norm_num) (by norm_num) (by norm_num)

end SinglePhaseConstantVdc
end Ode
end PvDer
