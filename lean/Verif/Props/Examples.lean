import Verif.Props.WellPosed
import Verif.Props.PhysicalUnits
import Verif.Props.ShippedUse
import Verif.Props.Ratings
import Verif.Props.ParamDict
import Verif.Props.FreqEst
import Verif.Props.RTCess
/-!
Concrete cases of the hypotheses of C22, C60, C70, C78, C89, C91 and C132: solutions of the equations, stores, angle sequences and configurations that satisfy them.
-/
namespace PvDer

namespace Ode
open Complex Phasor

/-- **C60, C78, example.** A solution of the single-phase equations that starts at 550 V DC: the hypotheses of both energy balances hold at time zero, so the stored energy changes there
at the rate PV power − power at the PCC − losses. -/
theorem C78_example : ∃ Y : ℝ → SinglePhase.V → ℝ,
    Solves (fun t y => SinglePhase.rhs (env1 exPar { exInp with t := t } y)) Y 0 ∧ Y 0 .Vdc = 11 / 10 ∧ exPar.C ≠ 0 ∧ exPar.Lf ≠ 0 ∧
    HasDerivAt (fun s => exPar.C * Y s .Vdc ^ 2 / 2 + exPar.Lf / 4 * (Y s .iaR ^ 2 + Y s .iaI ^ 2))
      ((env1 exPar { exInp with t := 0 } (Y 0)).Ppv - (env1 exPar { exInp with t := 0 } (Y 0)).S_PCC.re - exPar.Rf / 2 * (Y 0 .iaR ^ 2 + Y 0 .iaI ^ 2)) 0 := by
  obtain ⟨ε, hε, _, Y, h0, hY⟩ := C113_example_start
  have h1 : Solves (fun t y => SinglePhase.rhs (env1 exPar { exInp with t := t } y)) Y 0 := hY 0 ⟨le_refl _, hε.le⟩
  have hv : Y 0 .Vdc = 11 / 10 := by rw [h0]; simp
  have hC : exPar.C ≠ 0 := by norm_num [exPar]
  have hL : exPar.Lf ≠ 0 := by norm_num [exPar]
  exact ⟨Y, h1, hv, hC, hL, C78_energy_single exPar (fun t => { exInp with t := t }) Y 0 h1 (by rw [hv]; norm_num) hC hL⟩

/-- **C60, example.** The same solution for the DC link alone; the PV power is positive there, so with no current the DC voltage is not constant. -/
theorem C60_example : ∃ Y : ℝ → SinglePhase.V → ℝ,
    Solves (fun t y => SinglePhase.rhs (env1 exPar { exInp with t := t } y)) Y 0 ∧ Y 0 .Vdc ≠ 0 ∧ exPar.C ≠ 0 ∧ ¬ HasDerivAt (fun s => Y s .Vdc) 0 0 := by
  obtain ⟨ε, hε, _, Y, h0, hY⟩ := C113_example_start
  have h1 : Solves (fun t y => SinglePhase.rhs (env1 exPar { exInp with t := t } y)) Y 0 := hY 0 ⟨le_refl _, hε.le⟩
  have hv : Y 0 .Vdc = 11 / 10 := by rw [h0]; simp
  have hC : exPar.C ≠ 0 := by norm_num [exPar]
  refine ⟨Y, h1, by rw [hv]; norm_num, hC, ?_⟩
  rw [(C60_dc_link_single exPar (fun t => { exInp with t := t }) Y 0 h1 (by rw [hv]; norm_num) hC).2, h0]
  have hS : (env1 exPar { exInp with t := 0 } (fun r => if r = SinglePhase.V.Vdc then 11 / 10 else 0)).S.re = 0 := by
    simp [env1, Env.base, sPh, show (⟨0, 0⟩ : ℂ) = 0 from rfl]
  have hP : 0 < (env1 exPar { exInp with t := 0 } (fun r => if r = SinglePhase.V.Vdc then 11 / 10 else 0)).Ppv := by
    show 0 < PV.ppv PV.exMod 100 (29815 / 100) (min 650 ((if SinglePhase.V.Vdc = SinglePhase.V.Vdc then (11 : ℝ) / 10 else 0) * 500))
    rw [if_pos rfl, min_eq_right (by norm_num : (11 / 10 : ℝ) * 500 ≤ 650)]
    have h2 : 0 < PV.ipv PV.exMod 100 (29815 / 100) (11 / 10 * 500) * (11 / 10 * 500) := mul_pos exMod_pv (by norm_num)
    unfold PV.ppv
    rw [max_eq_right h2.le]
    exact div_pos h2 (by norm_num [PV.exMod])
  rw [hS]
  exact hP.ne'

end Ode

namespace Config
namespace Shipped

/-- **C132, example.** The shipped 50 kVA configuration satisfies the hypotheses. -/
theorem C132_example : ∃ e : Electrical, Constants .three c_50 (kwOf [("gridModel", .grid 1)]) 3 (e.par 3 Circuit.Base.default) ∧
    Configured .three c_50 (kwOf [("gridModel", .grid 1)]) "circuit_parameters" "Lf_actual" (25 / 1000000) ∧
    Configured .three c_50 (kwOf [("gridModel", .grid 1)]) "circuit_parameters" "Rf_actual" (2 / 1000) ∧
    Configured .three c_50 (kwOf [("gridModel", .grid 1)]) "circuit_parameters" "C_actual" (300 / 1000000) := by
  obtain ⟨hk, s, e, hs, he⟩ := C131_example
  have hc := C131_constants hs (c := c_50) rfl (by decide +kernel) he
  rw [show phasesOf (template .three) = 3 by decide +kernel] at hc
  have g (comp p : String) {q : ℚ} (h : fileNum .three c_50 comp p = some q) := fileNum_configured (kw := kwOf [("gridModel", .grid 1)]) h (hk p)
  exact ⟨e, hc, g _ _ (by decide +kernel), g _ _ (by decide +kernel), g _ _ (by decide +kernel)⟩

end Shipped
end Config

namespace Ratings

/-- **C91, example.** The 50 kVA unit: the hypotheses hold and the capacitor is reported acceptable. -/
theorem C91_example : 0 < exPlate.Vdcrated ∧ 0 < exPlate.Lf ∧ 0 < exPlate.C ∧ 0 < exPlate.fswitching ∧ 0 < Iarated exPlate ∧ capacitorMessage exPlate = .acceptable := by
  refine ⟨by norm_num [exPlate], by norm_num [exPlate], by norm_num [exPlate], by norm_num [exPlate], ?_, ?_⟩
  · unfold Iarated Varated exPlate
    positivity
  · unfold capacitorMessage ripplePct
    rw [if_pos]
    norm_num [exPlate]

end Ratings

namespace FreqEst

/-- **C89, example.** The voltage angle passes the cut of the argument between two calls: the hypotheses of `C89_wrap` hold with `ε = π / 4`. -/
theorem C89_example : ∃ x y : ℝ × ℂ, ([x] ++ [y]).Pairwise (fun a b => a.1 < b.1) ∧ (∀ z ∈ [x] ++ [y], 0 < z.1) ∧
    Complex.arg x.2 = Real.pi - Real.pi / 4 ∧ Complex.arg y.2 = -Real.pi + Real.pi / 4 := by
  refine ⟨(1, Complex.exp ((Real.pi - Real.pi / 4 : ℝ) * Complex.I)), (2, Complex.exp ((-Real.pi + Real.pi / 4 : ℝ) * Complex.I)), by simp, by simp, ?_, ?_⟩
  · exact Complex.arg_exp_mul_I _ |>.trans (by rw [toIocMod_eq_self]; constructor <;> linarith [Real.pi_pos])
  · exact Complex.arg_exp_mul_I _ |>.trans (by rw [toIocMod_eq_self]; constructor <;> linarith [Real.pi_pos])

end FreqEst

namespace RT

/-- **C22, example.** One cessation level at 0.88 p.u. whose flag is set; at 0.5 p.u. the flag stays, as `C22_cessation_kept_partial` says. -/
theorem C22_example : let s : VRT ℚ := ⟨[⟨88/100, 5, 1/10, .cessation, 1, false⟩], false, true⟩
    (∀ z ∈ s.zones, ¬ ((1/2 : ℚ) > z.Vthr * 1 ∧ z.tStart > 0)) ∧ (lvrt (1/2) 1 (1/2) 2 s).mc = true := by
  decide +kernel

end RT

namespace Params

/-- **C70, example.** A store with the entries of two DERs: updating one gain of the first changes that gain and nothing of the second. -/
theorem C70_example :
    let s : Store ℕ := fun _ => [("50", [("Kp_GCC", some 1), ("Ki_GCC", some 2)]), ("51", [("Kp_GCC", some 3)])]
    let r := update .three "50" "controller_gains" [("Kp_GCC", some 9)] s
    (∀ t, (get (s t) "50").isSome) ∧ defaultID .three = .ok "50" ∧ val r.1 .gains "50" "Kp_GCC" = some (some 9) ∧ val r.1 .gains "50" "Ki_GCC" = some (some 2) ∧
      val r.1 .gains "51" "Kp_GCC" = some (some 3) ∧ val r.1 .circuit "50" "Kp_GCC" = some (some 1) := by
  refine ⟨fun t => rfl, rfl, ?_, ?_, ?_, ?_⟩ <;> decide +kernel

end Params
end PvDer
