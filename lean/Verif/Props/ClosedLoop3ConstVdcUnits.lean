import Verif.Props.ClosedLoop3ConstVdc
import Verif.Props.ClosedLoop3Units

/-!
# C124 for the shipped three-phase unit with constant DC voltage
-/

namespace PvDer
namespace Ode
open Complex Phasor LocStab

/-- Operating conditions exist for every power that currents carry. -/
theorem operating3_exists (p : Par) (v w U i : ℝ) (hI : 0 < p.mod.Iscr) (hN : 0 < p.mod.Np) (hS : 0 < p.mod.Sbase) (hV : 0 < min p.Vdcmpp_max (U * p.Vdcbase)) (hv : 0 ≤ v) (hR : 0 ≤ p.Rf) (hi : 0 ≤ i) :
    ∃ inp, Operating3 p v w U i inp := by
  obtain ⟨S, hS⟩ := PV.ppv_onto p.mod p.mod.T0 _ (3 / 2 * (v * i + p.Rf * i ^ 2)) (by rw [sub_self, mul_zero, add_zero]; exact hI) hN hV hS (by positivity)
  exact ⟨fun t => { exInp with va := v, vb := ub v, vc := uc v, w := w, t := t, Q_ref := 0, Vdc0 := U, Sinsol := S, Tactual := p.mod.T0 },
    fun t _ => ⟨rfl, rfl, rfl, rfl, rfl⟩, fun _ _ => rfl, fun _ _ => rfl, fun _ _ => hS⟩

namespace ThreePhaseConstantVdc

/-- Gains and filter of the shipped 50 kVA unit with constant DC voltage (config_der.json 141-148; filter in per unit, grid_components.py 12-20). -/
structure Unit50 (p : Par) : Prop where
  Kp : p.Kp_GCC = 6000
  Ki : p.Ki_GCC = 2000
  wp : p.wp = 200000
  KpP : p.Kp_P = 1 / 10
  KiP : p.Ki_P = 2
  KpQ : p.Kp_Q = 1 / 5
  KiQ : p.Ki_Q = 10
  Rf : p.Rf = 2 / 1000 / 5
  Lf : p.Lf = 25 / 1000000 * (2 * Real.pi * 60) / 5
  wbase : p.wbase = 2 * Real.pi * 60
  KpPLL : 0 < p.Kp_PLL
  KiPLL : 0 < p.Ki_PLL

set_option maxHeartbeats 1000000 in
theorem Unit50.ok {p : Par} (h : Unit50 p) {v w U i : ℝ} (v0 : 2 / 5 ≤ v) (v1 : v ≤ 13 / 25) (w1 : |w / p.wbase| ≤ 6 / 5) (U0 : 21 / 20 ≤ U) (U1 : U ≤ 13 / 10) (i0 : 0 ≤ i) (i1 : i ≤ 174 / 100) :
    LoopOk (par p v w U i) 2 5000 30000000 := by
  obtain ⟨L0, L1⟩ := shipped_L h.Lf
  have ek : (par p v w U i).k = 1200000000 := by
    show p.Kp_GCC * p.wp = _
    rw [h.Kp, h.wp]; norm_num
  have eκ : (par p v w U i).κ = 1 / 3 := by
    show p.Ki_GCC / p.Kp_GCC = _
    rw [h.Kp, h.Ki]; norm_num
  have eρ : (par p v w U i).ρ = 200000 - 1 / 3 := by
    unfold LoopPar.ρ
    rw [eκ]
    show p.wp - _ = _
    rw [h.wp]
  have eα1 : (par p v w U i).α1 = 1 + 3 * i * p.Lf + 3 / 20 * (v + 1 / 2500 * i) := by
    show 1 + 3 / 2 * p.Ki_P * i * p.Lf + 3 / 2 * p.Kp_P * (v + p.Rf * i) = _
    rw [h.KiP, h.KpP, h.Rf]; ring
  have eα2 : (par p v w U i).α2 = 1 + 3 / 10 * v := by
    show 1 + 3 / 2 * p.Kp_Q * v = _
    rw [h.KpQ]; ring
  have iL : i * p.Lf ≤ 174 / 100 * (189 / 100000) := by gcongr
  have iL0 : 0 ≤ i * p.Lf := by positivity
  have α1l : 1 ≤ (par p v w U i).α1 := by rw [eα1]; nlinarith
  have α1u : (par p v w U i).α1 ≤ 6 / 5 := by rw [eα1]; linarith
  have α2l : 1 ≤ (par p v w U i).α2 := by rw [eα2]; linarith
  have α2u : (par p v w U i).α2 ≤ 6 / 5 := by rw [eα2]; linarith
  have eβ1 : (par p v w U i).β1 = 3 * (v + 2 * (1 / 2500) * i) / (par p v w U i).α1 := by
    show 3 / 2 * p.Ki_P * (v + 2 * p.Rf * i) / _ = _
    rw [h.KiP, h.Rf]; norm_num
  have eβ2 : (par p v w U i).β2 = 15 * v / (par p v w U i).α2 := by
    show 3 / 2 * p.Ki_Q * v / _ = _
    rw [h.KiQ]; norm_num
  have α1p : 0 < (par p v w U i).α1 := by linarith
  have α2p : 0 < (par p v w U i).α2 := by linarith
  have β1p : 0 < (par p v w U i).β1 := by rw [eβ1]; apply div_pos _ α1p; nlinarith
  have β2p : 0 < (par p v w U i).β2 := by rw [eβ2]; apply div_pos _ α2p; linarith
  have β1u : (par p v w U i).β1 ≤ 8 := by rw [eβ1, div_le_iff₀ α1p]; nlinarith
  have β2u : (par p v w U i).β2 ≤ 8 := by rw [eβ2, div_le_iff₀ α2p]; nlinarith
  have k1e : (par p v w U i).k1 = 1200000000 * (par p v w U i).α1 := by unfold LoopPar.k1; rw [ek]
  have k2e : (par p v w U i).k2 = 1200000000 * (par p v w U i).α2 := by unfold LoopPar.k2; rw [ek]
  have gi0 : 0 ≤ U * i := by positivity
  have gi1 : U * i ≤ 13 / 10 * (174 / 100) := by gcongr
  have eρ1 : (par p v w U i).ρ1 = 200000 - 1 / 3 + 90000000 * (U * i) := by
    unfold LoopPar.ρ1
    rw [ek, eρ]
    show _ + 1200000000 * (3 / 2 * p.Kp_P) * (U / 2) * i = _
    rw [h.KpP]; ring
  have eη : (par p v w U i).η = 180000000 * (i * p.Lf) * (w / p.wbase) := by
    unfold LoopPar.η
    rw [ek]
    show 1200000000 * (3 / 2 * p.Kp_P) * p.Lf * (w / p.wbase) * i = _
    rw [h.KpP]; ring
  have ηu : |(par p v w U i).η| ≤ 711000 := by
    rw [eη, abs_mul, abs_of_nonneg (by positivity)]
    calc 180000000 * (i * p.Lf) * |w / p.wbase| ≤ 180000000 * (174 / 100 * (189 / 100000)) * (6 / 5) := by gcongr
      _ ≤ 711000 := by norm_num
  have Xu : |p.Lf * (w / p.wbase)| ≤ 3 / 1000 := by
    have : 0 < p.Lf := by linarith
    rw [abs_mul, abs_of_pos this]
    calc p.Lf * |w / p.wbase| ≤ (189 / 100000) * (6 / 5) := by gcongr
      _ ≤ 3 / 1000 := by norm_num
  have Ru : ∀ β : ℝ, 0 < β → β ≤ 8 → |p.Rf - p.Lf * β| ≤ 2 / 100 := by
    intro β b0 b1
    have x1 : p.Lf * β ≤ 189 / 100000 * 8 := by gcongr
    have x2 : 0 ≤ p.Lf * β := by have : 0 < p.Lf := by linarith
                                 positivity
    rw [h.Rf, abs_le]
    constructor <;> linarith
  have eg : (par p v w U i).g = U / 2 := rfl
  have eL : (par p v w U i).L = p.Lf := rfl
  have eR : (par p v w U i).R = p.Rf := rfl
  have ew : (par p v w U i).w0 = w / p.wbase := rfl
  have a1 : AxisOk (par p v w U i).k1 (par p v w U i).g (par p v w U i).L (par p v w U i).ρ (par p v w U i).ρ1 (par p v w U i).κ 2 5000 := by
    rw [k1e, eg, eL, eρ, eρ1, eκ]
    refine AxisOk.of_bounds (k0 := 1200000000) (g0 := 21 / 40) (g1 := 13 / 20) (L0 := 188 / 100000) (L1 := 189 / 100000) (ρ0 := 199999) (ρ1 := 200000)
      (by linarith) (by norm_num) (by linarith) (by linarith) (by norm_num) L0 L1 (by norm_num) (by norm_num) (by norm_num) (by linarith) (by norm_num) (by norm_num) (by norm_num) (by norm_num)
      (by linarith) (by norm_num) (by norm_num) (by norm_num) (by norm_num) (by norm_num) (by norm_num)
  have a2 : AxisOk (par p v w U i).k2 (par p v w U i).g (par p v w U i).L (par p v w U i).ρ (par p v w U i).ρ (par p v w U i).κ 2 5000 := by
    rw [k2e, eg, eL, eρ, eκ]
    refine AxisOk.of_bounds (k0 := 1200000000) (g0 := 21 / 40) (g1 := 13 / 20) (L0 := 188 / 100000) (L1 := 189 / 100000) (ρ0 := 199999) (ρ1 := 200000)
      (by linarith) (by norm_num) (by linarith) (by linarith) (by norm_num) L0 L1 (by norm_num) (by norm_num) (by norm_num) (by norm_num) (by norm_num) (by norm_num) (by norm_num) (by norm_num)
      (by linarith) (by norm_num) (by norm_num) (by norm_num) (by norm_num) (by norm_num) (by norm_num)
  have e1 : ∀ k ρa R R0 B : ℝ, 0 < k → k ≤ 1440000000 → 199999 ≤ ρa → |R| ≤ R0 → 8 * 1440000000 * R0 ^ 2 / (2 * (21 / 40) ^ 2) + 8 * 2 ^ 2 * R0 ^ 2 / ((188 / 100000) ^ 2 * 199999) ≤ B → lossE k (U / 2) p.Lf ρa 2 R ≤ B :=
    fun k ρa R R0 B hk hk' hρ hR hB => lossE_le hk (by norm_num) (by norm_num) (by norm_num) (by norm_num) hk' (by linarith) L0 hρ hR hB
  have ρ1l : 199999 ≤ (par p v w U i).ρ1 := by rw [eρ1]; linarith
  have ρl : 199999 ≤ (par p v w U i).ρ := by rw [eρ]; norm_num
  have k1p := a1.pk
  have k2p := a2.pk
  have k1u : (par p v w U i).k1 ≤ 1440000000 := by rw [k1e]; linarith
  have k2u : (par p v w U i).k2 ≤ 1440000000 := by rw [k2e]; linarith
  have k1l : 1200000000 ≤ (par p v w U i).k1 := by rw [k1e]; linarith
  have k2l : 1200000000 ≤ (par p v w U i).k2 := by rw [k2e]; linarith
  have nn : ∀ k : ℝ, 1200000000 ≤ k → 60 * (30000000 : ℝ) * ((par p v w U i).ρ / k) ^ 2 ≤ 5000 := by
    intro k hk
    have : (par p v w U i).ρ / k ≤ 200000 / 1200000000 := by
      rw [eρ]; gcongr; norm_num
    have h0 : 0 ≤ (par p v w U i).ρ / k := by
      rw [eρ]; apply div_nonneg <;> linarith
    calc 60 * (30000000 : ℝ) * ((par p v w U i).ρ / k) ^ 2 ≤ 60 * (30000000 : ℝ) * (200000 / 1200000000) ^ 2 := by gcongr
      _ ≤ 5000 := by norm_num
  have vp : 0 < v := by linarith
  refine ⟨?_, α1p, α2p, β1p, β2p, a1, a2, by norm_num, ?_, ?_, by linarith, by linarith, nn _ k1l, nn _ k2l, mul_pos h.KpPLL vp, mul_pos h.KiPLL vp⟩
  · show 0 < p.Kp_GCC
    rw [h.Kp]; norm_num
  · rw [eg, eL, eR, ew]
    have q1 := e1 _ _ _ _ 9000000 k1p k1u ρ1l (Ru _ β1p β1u) (by norm_num)
    have q2 := e1 _ _ _ _ 300000 k2p k2u ρl Xu (by norm_num)
    linarith
  · rw [eg, eL, eR, ew]
    have q1 := e1 _ _ _ _ 9000000 k2p k2u ρl (Ru _ β2p β2u) (by norm_num)
    have q2 := e1 _ _ _ _ 300000 k1p k1u ρ1l Xu (by norm_num)
    have q3 := lossH_le (B := 20400000) (ε := 2) (by norm_num) (by norm_num) (by norm_num) k1l ρ1l ηu (by norm_num)
    linarith

theorem Unit50.phase_ok {p : Par} (h : Unit50 p) {v w U i : ℝ} (w1 : |w / p.wbase| ≤ 6 / 5) (U0 : 21 / 20 ≤ U) (U1 : U ≤ 13 / 10) : PhOk (ofLoop (par p v w U i)) 32 5000 10000 := by
  obtain ⟨L0, L1⟩ := shipped_L h.Lf
  have eκ : (ofLoop (par p v w U i)).κ = 1 / 3 := by
    show p.Ki_GCC / p.Kp_GCC = _
    rw [h.Kp, h.Ki]; norm_num
  have eρ : (ofLoop (par p v w U i)).ρ = 200000 - 1 / 3 := by
    show p.wp - (ofLoop (par p v w U i)).κ = _
    rw [eκ, h.wp]
  have ek : (ofLoop (par p v w U i)).k = 1200000000 := by
    show p.Kp_GCC * p.wp = _
    rw [h.Kp, h.wp]; norm_num
  refine ph_of_bounds (k0 := 1200000000) (k9 := 1200000000) (g0 := 21 / 40) (g1 := 13 / 20) (L0 := 188 / 100000) (L1 := 189 / 100000) (ρ0 := 199999) (ρ9 := 200000) (R9 := 1 / 2500) (X9 := 23 / 10000) (B1 := 1270000000)
    ?_ ?_ ?_ ?_ ?_ ?_ ?_ ?_ ?_ ?_ ?_ ?_ L0 L1 ?_ ?_ ?_ ?_ ?_ ?_ ?_ ?_ ?_ ?_ ?_ ?_ ?_ ?_ ?_ ?_
  · show 0 < p.Kp_GCC
    rw [h.Kp]; norm_num
  · rw [eκ]; norm_num
  · norm_num
  · norm_num
  · norm_num
  · norm_num
  · rw [ek]
  · rw [ek]
  · norm_num
  · show _ ≤ U / 2
    linarith
  · show U / 2 ≤ _
    linarith
  · norm_num
  · norm_num
  · rw [eρ]; norm_num
  · rw [eρ]; norm_num
  · show |p.Rf| ≤ _
    rw [h.Rf]; norm_num [abs_of_pos]
  · show |p.Lf * (w / p.wbase)| ≤ _
    rw [abs_mul, abs_of_pos (by linarith : 0 < p.Lf)]
    calc p.Lf * |w / p.wbase| ≤ 189 / 100000 * (6 / 5) := by gcongr
      _ ≤ _ := by norm_num
  all_goals first | (rw [eκ]; norm_num) | norm_num

/-- C124 for the shipped 50 kVA unit with constant DC voltage, at every grid voltage of 0.4 to 0.52 per unit (nominal 0.5), every frequency up to 1.2 per unit, every DC voltage of 1.05 to 1.3
per unit that covers the grid voltage, and every load below the current limit (1.736 per unit): one radius, overshoot and rate for all solutions. -/
theorem C124_shipped_three_constant_vdc {p : Par} (h : Unit50 p) (hm : p.m_limit = 1) (hl : p.iref_limit ≤ 174 / 100) {v w U i : ℝ} (v0 : 2 / 5 ≤ v) (v1 : v ≤ 13 / 25) (w1 : |w / p.wbase| ≤ 6 / 5)
    (U0 : 21 / 20 ≤ U) (vU : 2 * v + 1 / 100 ≤ U) (U1 : U ≤ 13 / 10) (i0 : 0 ≤ i) (i1 : i < p.iref_limit) :
    ∃ δ > 0, ∃ M > 0, ∃ a > 0, ∀ (inp : ℝ → Inp) (Y : ℝ → V → ℝ), Operating3 p v w U i inp → (∀ t, 0 ≤ t → Solves (fun t y => rhs (envC3 p (inp t) y)) Y t) →
      ‖Y 0 - rest p v w U i 0‖ ≤ δ → ∀ t, 0 ≤ t → ‖Y t - rest p v w U i t‖ ≤ M * ‖Y 0 - rest p v w U i 0‖ * Real.exp (-a * t) :=
  C124_settles_three_constant_vdc (by linarith) (by linarith) (h.ok v0 v1 w1 U0 U1 i0 (by linarith)) (h.phase_ok w1 U0 U1) (by rw [hm]; exact shipped_duty h.Rf h.Lf (by linarith) w1 (by linarith) vU i0 (by linarith)) (by rw [abs_of_nonneg i0]; exact i1)

/-- The 50 kVA unit. -/
noncomputable def par50c : Par :=
  { Lf := 25 / 1000000 * (2 * Real.pi * 60) / 5, Rf := 2 / 1000 / 5, C := 1/2, Kp_GCC := 6000, Ki_GCC := 2000, wp := 200000, Kp_DC := -2, Ki_DC := -10, Kp_P := 1 / 10, Ki_P := 2, Kp_Q := 1 / 5, Ki_Q := 10,
    Kp_PLL := 180, Ki_PLL := 320, m_limit := 1, iref_limit := 173 / 100, wbase := 2 * Real.pi * 60, Tfilter_Vrms := 1/100, Vdcbase := 500, Vdcmpp_max := 650, mod := PV.exMod }

/-- Conditions under which the unit operates, and a solution with a non-zero current. -/
example : ∃ inp, Operating3 par50c (1 / 2) (2 * Real.pi * 60) (11 / 10) 1 inp ∧ ∀ t, 0 ≤ t → Solves (fun t y => rhs (envC3 par50c (inp t) y)) (rest par50c (1 / 2) (2 * Real.pi * 60) (11 / 10) 1) t := by
  have h : Unit50 par50c := by constructor <;> first | rfl | norm_num [par50c]
  obtain ⟨inp, ho⟩ := operating3_exists par50c (1 / 2) (2 * Real.pi * 60) (11 / 10) 1 (by norm_num [par50c, PV.exMod]) (by norm_num [par50c, PV.exMod]) (by norm_num [par50c, PV.exMod])
    (by norm_num [par50c]) (by norm_num) (by norm_num [par50c]) (by norm_num)
  have w1 : |2 * Real.pi * 60 / par50c.wbase| ≤ 6 / 5 := by
    rw [h.wbase, div_self (by positivity)]; norm_num
  refine ⟨inp, ho, fun t ht => C124_rest_three_constant_vdc (by norm_num) (by norm_num) ?_ ?_ (by norm_num [par50c]) ho t ht⟩
  · rw [h.Lf]; positivity
  · exact shipped_duty h.Rf h.Lf (by norm_num) w1 (by norm_num) (by norm_num) (by norm_num) (by norm_num)

end ThreePhaseConstantVdc
end Ode
end PvDer
