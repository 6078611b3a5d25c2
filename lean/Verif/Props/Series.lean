import Verif.Props.Sim
import Verif.Props.Circuit

/-!
# C79: reported time series are the quantities the model used at the same state
-/

namespace PvDer
namespace Sim

open Complex Phasor Ode

/-- State vector as a function of the state name, given the order of the names. -/
def stateOf {V : Type} [DecidableEq V] (l : List V) (row : List ℝ) : V → ℝ := fun v => row.getD (l.idxOf v) 0

/-- The measured quantities that the collection code reads, for parameters `p` and inputs `i` of an evaluation at time `i.t`; the PV power at other times is an
arbitrary function `q` (schedules change it). -/
noncomputable def ctxOf (p : Par) (i : Inp) (q : ℝ → ℝ → ℝ) : Ctx := ⟨p.Kp_GCC, i.Vdc0, i.va, i.vb, i.vc, fun t V => if t = i.t then ppvOf p i V else q t V⟩

/-- What the reported values at one time point must be: the DER model's own attributes `e` at that state. -/
structure Agrees (p : Par) (three : Bool) (e : Env) (pt : Tr → ℂ) : Prop where
  Vdc : pt .Vdc = (e.Vdc : ℂ)
  ia : pt .ia = e.ia
  ma : pt .ma = duty p e.ua e.xa
  maAbs : pt .maAbs = (‖duty p e.ua e.xa‖ : ℂ)
  vta : pt .vta = e.vta
  va : pt .va = e.va
  S : pt .S = e.S
  SPCC : pt .SPCC = e.S_PCC
  Vrms : pt .Vrms = (e.Vrms : ℂ)
  Ppv : pt .Ppv = (e.Ppv : ℂ)
  ib : three = true → pt .ib = e.ib
  ic : three = true → pt .ic = e.ic
  mb : three = true → pt .mb = duty p e.ub e.xb
  mc : three = true → pt .mc = duty p e.uc e.xc
  vtb : three = true → pt .vtb = e.vtb
  vtc : three = true → pt .vtc = e.vtc
  Irms : three = true → pt .Irms = (urms e.ia e.ib e.ic : ℂ)
  Vtrms : three = true → pt .Vtrms = (urms e.vta e.vtb e.vtc : ℂ)
  vb : three = true → pt .vb = e.vb
  vc : three = true → pt .vc = e.vc
  mbAbs : three = true → pt .mbAbs = (‖duty p e.ub e.xb‖ : ℂ)
  mcAbs : three = true → pt .mcAbs = (‖duty p e.uc e.xc‖ : ℂ)
  Varms : pt .Varms = (‖e.va‖ / √2 : ℝ)
  Vbrms : three = true → pt .Vbrms = (‖e.vb‖ / √2 : ℝ)
  Vcrms : three = true → pt .Vcrms = (‖e.vc‖ / √2 : ℝ)
  Irms1 : three = false → pt .Irms = (‖e.ia‖ / √2 : ℝ)
  Vtrms1 : three = false → pt .Vtrms = (‖e.vta‖ / √2 : ℝ)

set_option linter.unusedSimpArgs false

theorem mkI (a b : ℝ) : (a : ℂ) + I * b = ⟨a, b⟩ := by apply Complex.ext <;> simp

theorem sCalc_eq (va vb vc ia ib ic : ℂ) : sCalc va vb vc ia ib ic =
    (1 / 2) * (va * (starRingEnd ℂ) ia + vb * (starRingEnd ℂ) ib + vc * (starRingEnd ℂ) ic) := by simp [sCalc]

theorem sPh_eq (v i : ℂ) : sPh v i = (1 / 2) * (v * (starRingEnd ℂ) i) := rfl

theorem cx_eq (x : Ctx) (mt : Mt) (a b : At) (row : List ℝ) : cx x mt a b row = ⟨at_ x mt a row, at_ x mt b row⟩ := mkI _ _

theorem urms_self (a : ℂ) : urms a a a = ‖a‖ / √2 := by
  unfold urms
  rw [show (‖a‖ ^ 2 + ‖a‖ ^ 2 + ‖a‖ ^ 2) / 3 = ‖a‖ ^ 2 by ring, Real.sqrt_sq (norm_nonneg _)]

/-- Closing one field of `Agrees` (proof automation only). -/
macro "agree" : tactic => `(tactic| first
  | (simp only [point, vtSer, mOf, cx_eq, isThree, if_true, Bool.false_eq_true, if_false, ← sCalc_eq, ← sPh_eq]; rfl)
  | (simp only [point, ctxOf, if_true]; rfl)
  | (simp only [point, vtSer, mOf, cx_eq, urms_self, urms1, isThree, if_true, Bool.false_eq_true, if_false]; rfl)
  | (exfalso; simp_all; done))

/-- C79 (single phase): at every solution row, every reported trajectory value equals the attribute the DER model computes at that state. -/
theorem C79_single_phase (p : Par) (i : Inp) (q : ℝ → ℝ → ℝ) (row : List ℝ) :
    Agrees p false (env1 p i (stateOf SinglePhase.varInd row)) (point (ctxOf p i q) .single i.t row) := by
  constructor <;> (try intro h) <;> agree

/-- C79 (single phase constant vdc): at every solution row, every reported trajectory value equals the attribute the DER model computes at that state. -/
theorem C79_single_phase_constant_vdc (p : Par) (i : Inp) (q : ℝ → ℝ → ℝ) (row : List ℝ) :
    Agrees p false (envC1 p i (stateOf SinglePhaseConstantVdc.varInd row)) (point (ctxOf p i q) .constVdc1 i.t row) := by
  constructor <;> (try intro h) <;> agree

/-- C79 (three phase): at every solution row, every reported trajectory value equals the attribute the DER model computes at that state. -/
theorem C79_three_phase (p : Par) (i : Inp) (q : ℝ → ℝ → ℝ) (row : List ℝ) :
    Agrees p true (envT p i (stateOf ThreePhase.varInd row)) (point (ctxOf p i q) .three i.t row) := by
  constructor <;> (try intro h) <;> agree

/-- C79 (no filter): at every solution row, every reported trajectory value equals the attribute the DER model computes at that state. -/
theorem C79_no_filter (p : Par) (i : Inp) (q : ℝ → ℝ → ℝ) (row : List ℝ) :
    Agrees p true (envN p i (stateOf ThreePhaseNoVrmsFilter.varInd row)) (point (ctxOf p i q) .noFilter i.t row) := by
  constructor <;> (try intro h) <;> agree

/-- C79 (numba): at every solution row, every reported trajectory value equals the attribute the DER model computes at that state. -/
theorem C79_numba (p : Par) (i : Inp) (q : ℝ → ℝ → ℝ) (row : List ℝ) :
    Agrees p true (envNumba p i (stateOf ThreePhaseNumba.varInd row)) (point (ctxOf p i q) .numba i.t row) := by
  constructor <;> (try intro h) <;> agree

/-- C79 (three phase constant vdc): at every solution row, every reported trajectory value equals the attribute the DER model computes at that state. -/
theorem C79_three_phase_constant_vdc (p : Par) (i : Inp) (q : ℝ → ℝ → ℝ) (row : List ℝ) :
    Agrees p true (envC3 p i (stateOf ThreePhaseConstantVdc.varInd row)) (point (ctxOf p i q) .constVdc3 i.t row) := by
  constructor <;> (try intro h) <;> agree

/-- C79 (balanced): at every solution row, every reported trajectory value equals the attribute the DER model computes at that state. -/
theorem C79_balanced (p : Par) (i : Inp) (q : ℝ → ℝ → ℝ) (row : List ℝ) :
    Agrees p true (envB p i (stateOf ThreePhaseBalanced.varInd row)) (point (ctxOf p { i with vb := Phasor.ub i.va, vc := Phasor.uc i.va } q) .balanced i.t row) := by
  constructor <;> (try intro h) <;> agree

/-- C79: reported filtered RMS voltage of the three-phase class is the filter state. -/
theorem C79_filtered_rms (p : Par) (i : Inp) (q : ℝ → ℝ → ℝ) (row : List ℝ) :
    point (ctxOf p i q) .three i.t row .VrmsFilter = ((envT p i (stateOf ThreePhase.varInd row)).Vrms_filter : ℂ) := rfl

/-! ## Stand-alone mode -/

/-- C79: the reported low-voltage side voltage is the model's own. -/
theorem C79_standalone_lv (vg i : ℂ) (a : ℝ) (Z1 Z2 ZL : ℂ) : vLVser vg i a Z1 Z2 ZL = Circuit.vStandAlone vg i a Z1 Z2 ZL := rfl

/-- C79: reported low- and high-voltage side voltages together satisfy Kirchhoff's laws: the transformer drop between them is `Z1` times the current leaving the PCC,
the line drop is `Z2` times that current referred to the high-voltage side. -/
theorem C79_standalone_hv (vg i : ℂ) (a : ℝ) (Z1 Z2 ZL v : ℂ) (ha : a ≠ 0) (hL : ZL ≠ 0) (hd : (a * a : ℂ) * (Z1 + ZL) + Z2 ≠ 0)
    (hv : v = vLVser vg i a Z1 Z2 ZL) :
    v = vHVser vg i v a Z2 ZL / a + (i - v / ZL) * Z1 ∧ vHVser vg i v a Z2 ZL - vg = (i - v / ZL) / a * Z2 := by
  have ha' : (a : ℂ) ≠ 0 := by exact_mod_cast ha
  have e : v * ((a * a : ℂ) * (Z1 + ZL) + Z2) = ((vg + (i / a) * Z2) / a + i * Z1) * (ZL * a * a) := by
    rw [hv, vLVser, mul_assoc, div_mul_cancel₀ _ hd]
  constructor
  · unfold vHVser
    field_simp at e ⊢
    linear_combination e
  · unfold vHVser
    field_simp
    ring

/-- C79: the single-phase grid power series is the model's own. -/
theorem C79_standalone_grid_power_single (va ia vag ZL : ℂ) (a : ℝ) : sGser1 va ia vag ZL a = Circuit.sG va ia vag ZL a := by
  unfold sGser1 Circuit.sG; ring

/-- C79 is false for the three-phase grid power series: it differs from the model's grid power by half the contribution of phases b and c, so it agrees only if
that contribution vanishes … -/
theorem C79_grid_power_series_wrong (va vb vc ia ib ic vag vbg vcg ZL : ℂ) (a : ℝ) :
    sGser3 va vb vc ia ib ic vag vbg vcg ZL a = sG3 va vb vc ia ib ic vag vbg vcg ZL a + (Circuit.sG vb ib vbg ZL a + Circuit.sG vc ic vcg ZL a) ∧
    (sGser3 va vb vc ia ib ic vag vbg vcg ZL a = sG3 va vb vc ia ib ic vag vbg vcg ZL a ↔ Circuit.sG vb ib vbg ZL a + Circuit.sG vc ic vcg ZL a = 0) := by
  have h : sGser3 va vb vc ia ib ic vag vbg vcg ZL a
      = sG3 va vb vc ia ib ic vag vbg vcg ZL a + (Circuit.sG vb ib vbg ZL a + Circuit.sG vc ic vcg ZL a) := by
    unfold sGser3 sG3 Circuit.sG; ring
  refine ⟨h, ?_⟩
  rw [h]
  constructor
  · intro e; linear_combination e
  · intro e; rw [e, add_zero]

/-- C79 (load power): the recorded load power of a three-phase DER is the power the model computes, the sum over the phases of minus the power into the load impedance,
and together with the power of the inverter it is the power that leaves towards the grid. -/
theorem C79_load_power_series (va vb vc ia ib ic ZL : ℂ) :
    sLoadSer3 va vb vc ZL = Circuit.sLoad va ZL + Circuit.sLoad vb ZL + Circuit.sLoad vc ZL ∧
    (ZL ≠ 0 → sLoadSer3 va vb vc ZL * (starRingEnd ℂ) ZL = -(1 / 2) * ((Complex.normSq va + Complex.normSq vb + Complex.normSq vc : ℝ) : ℂ)) ∧
    (1 / 2) * (va * (starRingEnd ℂ) ia + vb * (starRingEnd ℂ) ib + vc * (starRingEnd ℂ) ic) + sLoadSer3 va vb vc ZL =
      (1 / 2) * (va * (starRingEnd ℂ) (ia - va / ZL) + vb * (starRingEnd ℂ) (ib - vb / ZL) + vc * (starRingEnd ℂ) (ic - vc / ZL)) := by
  refine ⟨by unfold sLoadSer3 Circuit.sLoad; ring, ?_, ?_⟩
  · intro h
    have h' : (starRingEnd ℂ) ZL ≠ 0 := by simpa using h
    unfold sLoadSer3
    simp only [map_neg, map_div₀, Complex.ofReal_add, ← Complex.mul_conj]
    field_simp
    ring
  · unfold sLoadSer3
    simp only [map_sub, map_neg]
    ring

/-- … and for balanced operation the reported grid power is five thirds of the true one. -/
theorem C79_grid_power_series_factor (va ia vag ZL : ℂ) (a : ℝ) :
    sGser3 va (ub va) (uc va) ia (ub ia) (uc ia) vag (ub vag) (uc vag) ZL a
      = 5 / 3 * sG3 va (ub va) (uc va) ia (ub ia) (uc ia) vag (ub vag) (uc vag) ZL a := by
  have hb : (starRingEnd ℂ) (-(ub ia - ub va / ZL) / a) * ub vag = (starRingEnd ℂ) (-(ia - va / ZL) / a) * vag := by
    have : -(ub ia - ub va / ZL) / (a : ℂ) = ub (-(ia - va / ZL) / a) := by unfold ub; ring
    rw [this]
    have h1 := conj_b3
    have h2 := ab3
    unfold a3 b3 at *
    unfold ub
    rw [map_mul, h1]
    linear_combination (starRingEnd ℂ) (-(ia - va / ZL) / a) * vag * h2
  have hc : (starRingEnd ℂ) (-(uc ia - uc va / ZL) / a) * uc vag = (starRingEnd ℂ) (-(ia - va / ZL) / a) * vag := by
    have : -(uc ia - uc va / ZL) / (a : ℂ) = uc (-(ia - va / ZL) / a) := by unfold uc; ring
    rw [this]
    have h1 := conj_a3
    have h2 := ab3
    unfold a3 b3 at *
    unfold uc
    rw [map_mul, h1]
    linear_combination (starRingEnd ℂ) (-(ia - va / ZL) / a) * vag * h2
  unfold sGser3 sG3
  linear_combination (1 - 5 / 6) * hb + (1 - 5 / 6) * hc

/-- A case with non-zero grid power: 1 + (2/3)·… is visible. -/
theorem C79_grid_power_series_example : sG3 1 (ub 1) (uc 1) 2 (ub 2) (uc 2) 1 (ub 1) (uc 1) 1 1 ≠ 0 := by
  have h := C79_grid_power_series_factor 1 2 1 1 1
  have h' := (C79_grid_power_series_wrong 1 (ub 1) (uc 1) 2 (ub 2) (uc 2) 1 (ub 1) (uc 1) 1 1).1
  intro h0
  rw [h0] at h h'
  rw [h] at h'
  have e1 := ab3
  have h1 := conj_a3
  have h2 := conj_b3
  unfold Circuit.sG ub uc at h'
  unfold a3 b3 at *
  simp only [map_mul, map_neg, map_sub, map_div₀, conj_ofReal, map_one, map_ofNat, h1, h2, ofReal_one, div_one, one_mul] at h'
  have : (1:ℂ) = 0 := by linear_combination h' + (-1) * e1
  exact one_ne_zero this

end Sim
end PvDer
