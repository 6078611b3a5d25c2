import Verif.Lemmas.LocLip
import Verif.Props.Windup
import Verif.Lemmas.OdeEx
import Verif.Props.DiesOut

/-!
# C113: simulations are well posed while no limiter is active

For each model class: as long as no limiter is active and the DC voltage is positive, a trajectory is determined by its initial state, a small error in the initial
state has a bounded effect (at most exponential growth), and a trajectory exists until it reaches the boundary of any given set of such states.
-/

namespace PvDer
namespace Ode
open Complex Phasor Set LocLip Filter Topology

/-- The inputs are bounded by `B` on `[0, T]`, and the temperature is bounded away from zero. -/
structure InpBounded (inp : ℝ → Inp) (T B : ℝ) : Prop where
  pos : 0 < B
  va : ∀ t ∈ Icc 0 T, ‖(inp t).va‖ ≤ B
  vb : ∀ t ∈ Icc 0 T, ‖(inp t).vb‖ ≤ B
  vc : ∀ t ∈ Icc 0 T, ‖(inp t).vc‖ ≤ B
  Vdc_ref : ∀ t ∈ Icc 0 T, |(inp t).Vdc_ref| ≤ B
  Q_ref : ∀ t ∈ Icc 0 T, |(inp t).Q_ref| ≤ B
  Sinsol : ∀ t ∈ Icc 0 T, |(inp t).Sinsol| ≤ B
  Vdc0 : ∀ t ∈ Icc 0 T, |(inp t).Vdc0| ≤ B
  hot : ∀ t ∈ Icc 0 T, |(inp t).Tactual| ≤ B
  warm : ∀ t ∈ Icc 0 T, B⁻¹ ≤ (inp t).Tactual

/-- The inputs are continuous on `[0, T]`. -/
structure InpCont (inp : ℝ → Inp) (T : ℝ) : Prop where
  va : ContinuousOn (fun t => (inp t).va) (Icc 0 T)
  vb : ContinuousOn (fun t => (inp t).vb) (Icc 0 T)
  vc : ContinuousOn (fun t => (inp t).vc) (Icc 0 T)
  w : ContinuousOn (fun t => (inp t).w) (Icc 0 T)
  t : ContinuousOn (fun t => (inp t).t) (Icc 0 T)
  Vdc_ref : ContinuousOn (fun t => (inp t).Vdc_ref) (Icc 0 T)
  Q_ref : ContinuousOn (fun t => (inp t).Q_ref) (Icc 0 T)
  Sinsol : ContinuousOn (fun t => (inp t).Sinsol) (Icc 0 T)
  Vdc0 : ContinuousOn (fun t => (inp t).Vdc0) (Icc 0 T)
  Tactual : ContinuousOn (fun t => (inp t).Tactual) (Icc 0 T)

/-- Margin `η` of a phase to the modulation limit. -/
def PhaseMargin (η : ℝ) (e : Env) (u x : ℂ) : Prop := ‖(e.Kp_GCC : ℂ) * u + x‖ + η ≤ e.m_limit

/-- No limiter is active, with margin `η`: classes with a DC voltage controller, one phase and three phases (the DC voltage is positive with the same margin). -/
def MarginD1 (η : ℝ) (e : Env) : Prop := PhaseMargin η e e.ua e.xa ∧ ‖irefD e‖ + η ≤ e.iref_limit ∧ η ≤ e.Vdc
/-- see `MarginD1`. -/
def MarginD3 (η : ℝ) (e : Env) : Prop := PhaseMargin η e e.ua e.xa ∧ PhaseMargin η e e.ub e.xb ∧ PhaseMargin η e e.uc e.xc ∧ ‖irefD e‖ + η ≤ e.iref_limit ∧ η ≤ e.Vdc
/-- No limiter is active, with margin `η`: classes with an active power controller. -/
def MarginP1 (η : ℝ) (e : Env) : Prop := PhaseMargin η e e.ua e.xa ∧ ‖irefP e‖ + η ≤ e.iref_limit
/-- see `MarginP1`. -/
def MarginP3 (η : ℝ) (e : Env) : Prop := PhaseMargin η e e.ua e.xa ∧ PhaseMargin η e e.ub e.xb ∧ PhaseMargin η e e.uc e.xc ∧ ‖irefP e‖ + η ≤ e.iref_limit

macro "bl" : tactic => `(tactic| repeat' first
  | assumption
  | exact BL.const _
  | apply BL.add
  | apply BL.sub
  | apply BL.mul
  | apply BL.neg
  | apply BL.re
  | apply BL.im
  | apply BL.conj
  | apply BL.ofReal
  | apply BL.norm
  | apply BL.cmk
  | (refine BL.ite_false (by assumption) ?_))

/-- All attributes used by the derivative rows are bounded and Lipschitz. -/
structure EnvBL {Y : Type} [NormedAddCommGroup Y] (C : Prop) (T : Set ℝ) (S : ℝ → Set Y) (e : ℝ → Y → Env) : Prop where
  f_ia : BL C T S (fun t y => (e t y).ia)
  f_ib : BL C T S (fun t y => (e t y).ib)
  f_ic : BL C T S (fun t y => (e t y).ic)
  f_xa : BL C T S (fun t y => (e t y).xa)
  f_xb : BL C T S (fun t y => (e t y).xb)
  f_xc : BL C T S (fun t y => (e t y).xc)
  f_ua : BL C T S (fun t y => (e t y).ua)
  f_ub : BL C T S (fun t y => (e t y).ub)
  f_uc : BL C T S (fun t y => (e t y).uc)
  f_va : BL C T S (fun t y => (e t y).va)
  f_vb : BL C T S (fun t y => (e t y).vb)
  f_vc : BL C T S (fun t y => (e t y).vc)
  f_vta : BL C T S (fun t y => (e t y).vta)
  f_vtb : BL C T S (fun t y => (e t y).vtb)
  f_vtc : BL C T S (fun t y => (e t y).vtc)
  f_ia_ref : BL C T S (fun t y => (e t y).ia_ref)
  f_ib_ref : BL C T S (fun t y => (e t y).ib_ref)
  f_ic_ref : BL C T S (fun t y => (e t y).ic_ref)
  f_S : BL C T S (fun t y => (e t y).S)
  f_S_PCC : BL C T S (fun t y => (e t y).S_PCC)
  f_Vdc : BL C T S (fun t y => (e t y).Vdc)
  f_xDC : BL C T S (fun t y => (e t y).xDC)
  f_xP : BL C T S (fun t y => (e t y).xP)
  f_xQ : BL C T S (fun t y => (e t y).xQ)
  f_xPLL : BL C T S (fun t y => (e t y).xPLL)
  f_Vrms : BL C T S (fun t y => (e t y).Vrms)
  f_Vrms_filter : BL C T S (fun t y => (e t y).Vrms_filter)
  f_vd : BL C T S (fun t y => (e t y).vd)
  f_we : BL C T S (fun t y => (e t y).we)
  f_winv : BL C T S (fun t y => (e t y).winv)
  f_Ppv : BL C T S (fun t y => (e t y).Ppv)
  f_Vdc_ref : BL C T S (fun t y => (e t y).Vdc_ref)
  f_Q_ref : BL C T S (fun t y => (e t y).Q_ref)
  f_Rf : BL C T S (fun t y => (e t y).Rf)
  f_Kp_GCC : BL C T S (fun t y => (e t y).Kp_GCC)
  f_Ki_GCC : BL C T S (fun t y => (e t y).Ki_GCC)
  f_wp : BL C T S (fun t y => (e t y).wp)
  f_Kp_DC : BL C T S (fun t y => (e t y).Kp_DC)
  f_Ki_DC : BL C T S (fun t y => (e t y).Ki_DC)
  f_Kp_P : BL C T S (fun t y => (e t y).Kp_P)
  f_Ki_P : BL C T S (fun t y => (e t y).Ki_P)
  f_Kp_Q : BL C T S (fun t y => (e t y).Kp_Q)
  f_Ki_Q : BL C T S (fun t y => (e t y).Ki_Q)
  f_Ki_PLL : BL C T S (fun t y => (e t y).Ki_PLL)
  f_m_limit : BL C T S (fun t y => (e t y).m_limit)
  f_iref_limit : BL C T S (fun t y => (e t y).iref_limit)
  iLf : BL C T S (fun t y => (e t y).Lf⁻¹)
  iwbase : BL C T S (fun t y => (e t y).wbase⁻¹)
  iC : BL C T S (fun t y => (e t y).C⁻¹)
  iTfilter_Vrms : BL C T S (fun t y => (e t y).Tfilter_Vrms⁻¹)

theorem EnvBL.connIf {Y : Type} [NormedAddCommGroup Y] {C : Prop} {T : Set ℝ} {S : ℝ → Set Y} {e : ℝ → Y → Env} {conn : ℝ → Bool} (hc : C → ∃ c, ∀ t, conn t = c) (h : EnvBL C T S e) :
    EnvBL C T S (fun t y => Ode.connIf (conn t) (e t y)) := by
  have sw : ∀ {X : Type} [NormedAddCommGroup X] (π : Env → X), BL C T S (fun t y => π (e t y)) → BL C T S (fun t y => π (disc (e t y))) →
      BL C T S (fun t y => π (Ode.connIf (conn t) (e t y))) := by
    intro X _ π h1 h2
    refine (BL.switch hc h1 h2).congr (fun t _ y _ => ?_)
    unfold Ode.connIf
    split <;> rfl
  exact {
    f_ia := sw (fun e => e.ia) h.f_ia (h.f_ia)
    f_ib := sw (fun e => e.ib) h.f_ib (h.f_ib)
    f_ic := sw (fun e => e.ic) h.f_ic (h.f_ic)
    f_xa := sw (fun e => e.xa) h.f_xa (h.f_xa)
    f_xb := sw (fun e => e.xb) h.f_xb (h.f_xb)
    f_xc := sw (fun e => e.xc) h.f_xc (h.f_xc)
    f_ua := sw (fun e => e.ua) h.f_ua (h.f_ua)
    f_ub := sw (fun e => e.ub) h.f_ub (h.f_ub)
    f_uc := sw (fun e => e.uc) h.f_uc (h.f_uc)
    f_va := sw (fun e => e.va) h.f_va (h.f_va)
    f_vb := sw (fun e => e.vb) h.f_vb (h.f_vb)
    f_vc := sw (fun e => e.vc) h.f_vc (h.f_vc)
    f_vta := sw (fun e => e.vta) h.f_vta (h.f_vta)
    f_vtb := sw (fun e => e.vtb) h.f_vtb (h.f_vtb)
    f_vtc := sw (fun e => e.vtc) h.f_vtc (h.f_vtc)
    f_ia_ref := sw (fun e => e.ia_ref) h.f_ia_ref (BL.const _)
    f_ib_ref := sw (fun e => e.ib_ref) h.f_ib_ref (BL.const _)
    f_ic_ref := sw (fun e => e.ic_ref) h.f_ic_ref (BL.const _)
    f_S := sw (fun e => e.S) h.f_S (h.f_S)
    f_S_PCC := sw (fun e => e.S_PCC) h.f_S_PCC (h.f_S_PCC)
    f_Vdc := sw (fun e => e.Vdc) h.f_Vdc (h.f_Vdc)
    f_xDC := sw (fun e => e.xDC) h.f_xDC (h.f_xDC)
    f_xP := sw (fun e => e.xP) h.f_xP (h.f_xP)
    f_xQ := sw (fun e => e.xQ) h.f_xQ (h.f_xQ)
    f_xPLL := sw (fun e => e.xPLL) h.f_xPLL (h.f_xPLL)
    f_Vrms := sw (fun e => e.Vrms) h.f_Vrms (h.f_Vrms)
    f_Vrms_filter := sw (fun e => e.Vrms_filter) h.f_Vrms_filter (h.f_Vrms_filter)
    f_vd := sw (fun e => e.vd) h.f_vd (h.f_vd)
    f_we := sw (fun e => e.we) h.f_we (h.f_we)
    f_winv := sw (fun e => e.winv) h.f_winv (h.f_winv)
    f_Ppv := sw (fun e => e.Ppv) h.f_Ppv (BL.const _)
    f_Vdc_ref := sw (fun e => e.Vdc_ref) h.f_Vdc_ref (h.f_Vdc)
    f_Q_ref := sw (fun e => e.Q_ref) h.f_Q_ref (BL.const _)
    f_Rf := sw (fun e => e.Rf) h.f_Rf (h.f_Rf)
    f_Kp_GCC := sw (fun e => e.Kp_GCC) h.f_Kp_GCC (h.f_Kp_GCC)
    f_Ki_GCC := sw (fun e => e.Ki_GCC) h.f_Ki_GCC (h.f_Ki_GCC)
    f_wp := sw (fun e => e.wp) h.f_wp (h.f_wp)
    f_Kp_DC := sw (fun e => e.Kp_DC) h.f_Kp_DC (h.f_Kp_DC)
    f_Ki_DC := sw (fun e => e.Ki_DC) h.f_Ki_DC (h.f_Ki_DC)
    f_Kp_P := sw (fun e => e.Kp_P) h.f_Kp_P (h.f_Kp_P)
    f_Ki_P := sw (fun e => e.Ki_P) h.f_Ki_P (h.f_Ki_P)
    f_Kp_Q := sw (fun e => e.Kp_Q) h.f_Kp_Q (h.f_Kp_Q)
    f_Ki_Q := sw (fun e => e.Ki_Q) h.f_Ki_Q (h.f_Ki_Q)
    f_Ki_PLL := sw (fun e => e.Ki_PLL) h.f_Ki_PLL (h.f_Ki_PLL)
    f_m_limit := sw (fun e => e.m_limit) h.f_m_limit (h.f_m_limit)
    f_iref_limit := sw (fun e => e.iref_limit) h.f_iref_limit (h.f_iref_limit)
    iLf := sw (fun e => e.Lf⁻¹) h.iLf h.iLf
    iwbase := sw (fun e => e.wbase⁻¹) h.iwbase h.iwbase
    iC := sw (fun e => e.C⁻¹) h.iC h.iC
    iTfilter_Vrms := sw (fun e => e.Tfilter_Vrms⁻¹) h.iTfilter_Vrms h.iTfilter_Vrms
  }

/-- The time-dependent inputs, as functions of time. -/
structure InpBL (C : Prop) (T : ℝ) (inp : ℝ → Inp) : Prop where
  va : (∃ B, ∀ t ∈ Icc 0 T, ‖(inp t).va‖ ≤ B) ∧ (C → ContinuousOn (fun t => (inp t).va) (Icc 0 T))
  vb : (∃ B, ∀ t ∈ Icc 0 T, ‖(inp t).vb‖ ≤ B) ∧ (C → ContinuousOn (fun t => (inp t).vb) (Icc 0 T))
  vc : (∃ B, ∀ t ∈ Icc 0 T, ‖(inp t).vc‖ ≤ B) ∧ (C → ContinuousOn (fun t => (inp t).vc) (Icc 0 T))
  Vdc_ref : (∃ B, ∀ t ∈ Icc 0 T, ‖(inp t).Vdc_ref‖ ≤ B) ∧ (C → ContinuousOn (fun t => (inp t).Vdc_ref) (Icc 0 T))
  Q_ref : (∃ B, ∀ t ∈ Icc 0 T, ‖(inp t).Q_ref‖ ≤ B) ∧ (C → ContinuousOn (fun t => (inp t).Q_ref) (Icc 0 T))
  Sinsol : (∃ B, ∀ t ∈ Icc 0 T, ‖(inp t).Sinsol‖ ≤ B) ∧ (C → ContinuousOn (fun t => (inp t).Sinsol) (Icc 0 T))
  Vdc0 : (∃ B, ∀ t ∈ Icc 0 T, ‖(inp t).Vdc0‖ ≤ B) ∧ (C → ContinuousOn (fun t => (inp t).Vdc0) (Icc 0 T))
  Tactual : (∃ B, ∀ t ∈ Icc 0 T, ‖(inp t).Tactual‖ ≤ B) ∧ (C → ContinuousOn (fun t => (inp t).Tactual) (Icc 0 T))
  Tinv : (∃ B, ∀ t ∈ Icc 0 T, ‖(inp t).Tactual⁻¹‖ ≤ B) ∧ (C → ContinuousOn (fun t => (inp t).Tactual⁻¹) (Icc 0 T))
  angle : C → ContinuousOn (fun t => (inp t).w * (inp t).t) (Icc 0 T)

theorem InpBounded.bl {inp : ℝ → Inp} {T B : ℝ} (h : InpBounded inp T B) {C : Prop} (hc : C → InpCont inp T) : InpBL C T inp :=
  { va := ⟨⟨B, h.va⟩, fun c => (hc c).va⟩
    vb := ⟨⟨B, h.vb⟩, fun c => (hc c).vb⟩
    vc := ⟨⟨B, h.vc⟩, fun c => (hc c).vc⟩
    Vdc_ref := ⟨⟨B, h.Vdc_ref⟩, fun c => (hc c).Vdc_ref⟩
    Q_ref := ⟨⟨B, h.Q_ref⟩, fun c => (hc c).Q_ref⟩
    Sinsol := ⟨⟨B, h.Sinsol⟩, fun c => (hc c).Sinsol⟩
    Vdc0 := ⟨⟨B, h.Vdc0⟩, fun c => (hc c).Vdc0⟩
    Tactual := ⟨⟨B, h.hot⟩, fun c => (hc c).Tactual⟩
    Tinv := ⟨⟨B, fun t ht => by
        have hp : 0 < (inp t).Tactual := lt_of_lt_of_le (inv_pos.2 h.pos) (h.warm t ht)
        rw [Real.norm_eq_abs, abs_of_pos (inv_pos.2 hp)]
        exact inv_le_of_inv_le₀ h.pos (h.warm t ht)⟩,
      fun c => (hc c).Tactual.inv₀ (fun t ht => (lt_of_lt_of_le (inv_pos.2 h.pos) (h.warm t ht)).ne')⟩
    angle := fun c => (hc c).w.mul (hc c).t }

theorem toTime_eq (u : ℂ) (w t : ℝ) : toTime u w t = (u * ej (w * t - Real.pi / 2)).re := by
  unfold toTime
  have h1 : (u : ℂ) = ‖u‖ * ej (arg u) := by
    conv_lhs => rw [← Complex.norm_mul_exp_arg_mul_I u]
    unfold ej; rw [mul_comm I]
  have h2 : ej (w * t + arg u - Real.pi / 2) = ej (arg u) * ej (w * t - Real.pi / 2) := by
    unfold ej; rw [← Complex.exp_add]; congr 1; push_cast; ring
  rw [h2]
  conv_rhs => rw [h1]
  rw [mul_assoc, Complex.re_ofReal_mul]

theorem ej_norm (x : ℝ) : ‖ej x‖ = 1 := by
  unfold ej; rw [mul_comm]; exact Complex.norm_exp_ofReal_mul_I x

theorem ej_cont : Continuous ej := by unfold ej; fun_prop

section
variable {ι : Type} [Fintype ι] {C : Prop} {T : ℝ} {S : ℝ → Set (ι → ℝ)} {inp : ℝ → Inp} (p : Par)

theorem toTimeBL {v : ℝ → ℂ} (hv : (∃ B, ∀ t ∈ Icc 0 T, ‖v t‖ ≤ B) ∧ (C → ContinuousOn v (Icc 0 T))) (ha : C → ContinuousOn (fun t => (inp t).w * (inp t).t) (Icc 0 T)) :
    BL C (Icc 0 T) S (fun t _ => toTime (v t) (inp t).w (inp t).t) := by
  obtain ⟨⟨B, hB⟩, hc⟩ := hv
  refine BL.time ⟨B, fun t ht => ?_⟩ (fun c => ?_)
  · rw [toTime_eq]
    refine (Complex.abs_re_le_norm _).trans ?_
    rw [norm_mul, ej_norm, mul_one]; exact hB t ht
  · simp only [toTime_eq]
    exact Complex.continuous_re.comp_continuousOn ((hc c).mul (ej_cont.comp_continuousOn ((ha c).sub continuousOn_const)))

theorem ejBL {f : ℝ → (ι → ℝ) → ℝ} (hf : BL C (Icc 0 T) S f) : BL C (Icc 0 T) S (fun t y => ej (f t y)) := by
  have h := hf.cos.cmk hf.sin
  refine h.congr (fun t _ y _ => ?_)
  unfold ej; rw [mul_comm, Complex.exp_mul_I]
  apply Complex.ext
  · simp [Complex.cos_ofReal_re]
  · simp [Complex.sin_ofReal_re]

theorem pll1BL (hi : InpBL C T inp) {wte : ℝ → (ι → ℝ) → ℝ} (hw : BL C (Icc 0 T) S wte) : BL C (Icc 0 T) S (fun t y => (pll1 (inp t).va (inp t).w (inp t).t (wte t y)).1) := by
  have h1 := toTimeBL (S := S) hi.va hi.angle
  have h2 : BL C (Icc 0 T) S (fun t _ => toTime ((inp t).va * Complex.exp (-(I * ((Real.pi : ℂ) / 2)))) (inp t).w (inp t).t) := by
    refine toTimeBL ⟨?_, fun c => (hi.va.2 c).mul continuousOn_const⟩ hi.angle
    obtain ⟨B, hB⟩ := hi.va.1
    refine ⟨B, fun t ht => ?_⟩
    have : -(I * ((Real.pi : ℂ) / 2)) = ((-(Real.pi / 2) : ℝ) : ℂ) * I := by push_cast; ring
    rw [norm_mul, this, Complex.norm_exp_ofReal_mul_I, mul_one]; exact hB t ht
  have h3 := ejBL hw.neg
  have h4 := (((h1.ofReal).add ((BL.const I).mul h2.ofReal)).mul h3).re
  refine h4.congr (fun t _ y _ => ?_)
  simp only [pll1, alphaBetaToDq]
  have e1 : -I * ((Real.pi : ℂ) / 2) = -(I * ((Real.pi : ℂ) / 2)) := by ring
  have e2 : Complex.exp (-I * (wte t y : ℂ)) = ej (-wte t y) := by unfold ej; congr 1; push_cast; ring
  rw [e1, e2]

theorem pll3BL (hi : InpBL C T inp) {wte : ℝ → (ι → ℝ) → ℝ} (hw : BL C (Icc 0 T) S wte) :
    BL C (Icc 0 T) S (fun t y => (pll3 (inp t).va (inp t).vb (inp t).vc (inp t).w (inp t).t (wte t y)).1) := by
  have h1 := toTimeBL (S := S) hi.va hi.angle
  have h2 := toTimeBL (S := S) hi.vb hi.angle
  have h3 := toTimeBL (S := S) hi.vc hi.angle
  have h4 := ejBL hw.neg
  simp only [pll3, abcToDq0, space]
  bl

theorem ppvBL (hi : InpBL C T inp) {V : ℝ → (ι → ℝ) → ℝ} (hV : BL C (Icc 0 T) S V) : BL C (Icc 0 T) S (fun t y => ppvOf p (inp t) (V t y)) := by
  have hs : BL C (Icc 0 T) S (fun t _ => (inp t).Sinsol) := BL.time hi.Sinsol.1 hi.Sinsol.2
  have hT : BL C (Icc 0 T) S (fun t _ => (inp t).Tactual) := BL.time hi.Tactual.1 hi.Tactual.2
  have hTi : BL C (Icc 0 T) S (fun t _ => (inp t).Tactual⁻¹) := BL.time hi.Tinv.1 hi.Tinv.2
  have hm : BL C (Icc 0 T) S (fun t y => min p.Vdcmpp_max (V t y * p.Vdcbase)) := (hV.mul (BL.const _)).minc _
  have he : BL C (Icc 0 T) S (fun t y => Real.exp ((p.mod.q * min p.Vdcmpp_max (V t y * p.Vdcbase)) * (p.mod.k⁻¹ * (inp t).Tactual⁻¹ * p.mod.A⁻¹ * p.mod.Ns⁻¹))) := by
    apply BL.exp; bl
  have h : BL C (Icc 0 T) S (fun t y => max 0 ((p.mod.Np * ((p.mod.Iscr + p.mod.Kv * ((inp t).Tactual - p.mod.T0)) * ((inp t).Sinsol * 100⁻¹)) -
      p.mod.Np * p.mod.Irs * (Real.exp ((p.mod.q * min p.Vdcmpp_max (V t y * p.Vdcbase)) * (p.mod.k⁻¹ * (inp t).Tactual⁻¹ * p.mod.A⁻¹ * p.mod.Ns⁻¹)) - 1)) *
      min p.Vdcmpp_max (V t y * p.Vdcbase)) * p.mod.Sbase⁻¹) := by
    apply BL.mul
    · apply BL.max0; bl
    · bl
  refine h.congr (fun t _ y _ => ?_)
  simp only [ppvOf, PV.ppv, PV.ipv, PV.iph, div_eq_mul_inv, mul_inv]

theorem weBL {vd x : ℝ → (ι → ℝ) → ℝ} (h1 : BL C (Icc 0 T) S vd) (h2 : BL C (Icc 0 T) S x) : BL C (Icc 0 T) S (fun t y => weCalc p.Kp_PLL (vd t y) (x t y)) := by
  simp only [weCalc]; bl
theorem vtBL {u x : ℝ → (ι → ℝ) → ℂ} {V : ℝ → (ι → ℝ) → ℝ} (h1 : BL C (Icc 0 T) S u) (h2 : BL C (Icc 0 T) S x) (h3 : BL C (Icc 0 T) S V) :
    BL C (Icc 0 T) S (fun t y => vtOf p (u t y) (x t y) (V t y)) := by
  simp only [vtOf, duty, div_eq_mul_inv]; bl
theorem sPhBL {v i : ℝ → (ι → ℝ) → ℂ} (h1 : BL C (Icc 0 T) S v) (h2 : BL C (Icc 0 T) S i) : BL C (Icc 0 T) S (fun t y => sPh (v t y) (i t y)) := by
  simp only [sPh]; bl
theorem sCalcBL {v1 v2 v3 i1 i2 i3 : ℝ → (ι → ℝ) → ℂ} (h1 : BL C (Icc 0 T) S v1) (h2 : BL C (Icc 0 T) S v2) (h3 : BL C (Icc 0 T) S v3) (h4 : BL C (Icc 0 T) S i1)
    (h5 : BL C (Icc 0 T) S i2) (h6 : BL C (Icc 0 T) S i3) : BL C (Icc 0 T) S (fun t y => sCalc (v1 t y) (v2 t y) (v3 t y) (i1 t y) (i2 t y) (i3 t y)) := by
  simp only [sCalc]; bl
theorem ubBL {v : ℝ → (ι → ℝ) → ℂ} (h1 : BL C (Icc 0 T) S v) : BL C (Icc 0 T) S (fun t y => Phasor.ub (v t y)) := by
  simp only [Phasor.ub]; bl
theorem ucBL {v : ℝ → (ι → ℝ) → ℂ} (h1 : BL C (Icc 0 T) S v) : BL C (Icc 0 T) S (fun t y => Phasor.uc (v t y)) := by
  simp only [Phasor.uc]; bl
theorem irefBL (hi : InpBL C T inp) {V xD xQ : ℝ → (ι → ℝ) → ℝ} {s : ℝ → (ι → ℝ) → ℂ} (h1 : BL C (Icc 0 T) S V) (h2 : BL C (Icc 0 T) S xD) (h3 : BL C (Icc 0 T) S xQ)
    (h4 : BL C (Icc 0 T) S s) : BL C (Icc 0 T) S (fun t y => irefOf p (inp t) (V t y) (xD t y) (xQ t y) (s t y)) := by
  have hv : BL C (Icc 0 T) S (fun t _ => (inp t).Vdc_ref) := BL.time hi.Vdc_ref.1 hi.Vdc_ref.2
  have hq : BL C (Icc 0 T) S (fun t _ => (inp t).Q_ref) := BL.time hi.Q_ref.1 hi.Q_ref.2
  simp only [irefOf]; bl
theorem irefPBL (hi : InpBL C T inp) {P xD xQ : ℝ → (ι → ℝ) → ℝ} {s s' : ℝ → (ι → ℝ) → ℂ} (h1 : BL C (Icc 0 T) S P) (h2 : BL C (Icc 0 T) S xD) (h3 : BL C (Icc 0 T) S xQ)
    (h4 : BL C (Icc 0 T) S s) (h5 : BL C (Icc 0 T) S s') : BL C (Icc 0 T) S (fun t y => irefPOf p (inp t) (P t y) (xD t y) (xQ t y) (s t y) (s' t y)) := by
  have hq : BL C (Icc 0 T) S (fun t _ => (inp t).Q_ref) := BL.time hi.Q_ref.1 hi.Q_ref.2
  simp only [irefPOf]; bl
theorem urmsBL {v1 v2 v3 : ℝ → ℂ} (h1 : (∃ B, ∀ t ∈ Icc 0 T, ‖v1 t‖ ≤ B) ∧ (C → ContinuousOn v1 (Icc 0 T))) (h2 : (∃ B, ∀ t ∈ Icc 0 T, ‖v2 t‖ ≤ B) ∧ (C → ContinuousOn v2 (Icc 0 T)))
    (h3 : (∃ B, ∀ t ∈ Icc 0 T, ‖v3 t‖ ≤ B) ∧ (C → ContinuousOn v3 (Icc 0 T))) : BL C (Icc 0 T) S (fun t _ => urms (v1 t) (v2 t) (v3 t)) := by
  obtain ⟨⟨B1, hB1⟩, c1⟩ := h1
  obtain ⟨⟨B2, hB2⟩, c2⟩ := h2
  obtain ⟨⟨B3, hB3⟩, c3⟩ := h3
  refine BL.time ⟨Real.sqrt ((B1 ^ 2 + B2 ^ 2 + B3 ^ 2) / 3) / Real.sqrt 2, fun t ht => ?_⟩ (fun c => ?_)
  · unfold urms
    rw [Real.norm_eq_abs, abs_of_nonneg (by positivity)]
    have a1 := pow_le_pow_left₀ (norm_nonneg _) (hB1 t ht) 2
    have a2 := pow_le_pow_left₀ (norm_nonneg _) (hB2 t ht) 2
    have a3 := pow_le_pow_left₀ (norm_nonneg _) (hB3 t ht) 2
    exact div_le_div_of_nonneg_right (Real.sqrt_le_sqrt (by linarith)) (Real.sqrt_nonneg _)
  · unfold urms
    exact (Real.continuous_sqrt.comp_continuousOn (((((c1 c).norm.pow 2).add ((c2 c).norm.pow 2)).add ((c3 c).norm.pow 2)).div_const 3)).div_const _

theorem env1BL {S : ℝ → Set (SinglePhase.V → ℝ)} (hi : InpBL C T inp) (hS : ∃ R, ∀ t ∈ Icc 0 T, ∀ y ∈ S t, ‖y‖ ≤ R) : EnvBL C (Icc 0 T) S (fun t y => env1 p (inp t) y) := by
  obtain ⟨R, hR⟩ := hS
  have co : ∀ r, BL C (Icc 0 T) S (fun _ y => y r) := fun r => BL.coord hR r
  have ia := (co .iaR).cmk (co .iaI)
  have xa := (co .xaR).cmk (co .xaI)
  have ua := (co .uaR).cmk (co .uaI)
  have va : BL C (Icc 0 T) S (fun t _ => (inp t).va) := BL.time hi.va.1 hi.va.2
  have vb : BL C (Icc 0 T) S (fun t _ => (inp t).vb) := BL.time hi.vb.1 hi.vb.2
  have vc : BL C (Icc 0 T) S (fun t _ => (inp t).vc) := BL.time hi.vc.1 hi.vc.2
  have Vdc_ref : BL C (Icc 0 T) S (fun t _ => (inp t).Vdc_ref) := BL.time hi.Vdc_ref.1 hi.Vdc_ref.2
  have Q_ref : BL C (Icc 0 T) S (fun t _ => (inp t).Q_ref) := BL.time hi.Q_ref.1 hi.Q_ref.2
  have Vdc0 : BL C (Icc 0 T) S (fun t _ => (inp t).Vdc0) := BL.time hi.Vdc0.1 hi.Vdc0.2
  have vta := vtBL p ua xa (co .Vdc)
  have vd := pll1BL hi (co .wte)
  have we := weBL p vd (co .xPLL)
  exact {
    f_ia := ia
    f_ib := BL.const _
    f_ic := BL.const _
    f_xa := xa
    f_xb := BL.const _
    f_xc := BL.const _
    f_ua := ua
    f_ub := BL.const _
    f_uc := BL.const _
    f_va := va
    f_vb := vb
    f_vc := vc
    f_vta := vta
    f_vtb := BL.const _
    f_vtc := BL.const _
    f_ia_ref := irefBL p hi (co .Vdc) (co .xDC) (co .xQ) (sPhBL va ia)
    f_ib_ref := BL.const _
    f_ic_ref := BL.const _
    f_S := sPhBL vta ia
    f_S_PCC := sPhBL va ia
    f_Vdc := co .Vdc
    f_xDC := co .xDC
    f_xP := BL.const _
    f_xQ := co .xQ
    f_xPLL := co .xPLL
    f_Vrms := urmsBL hi.va hi.va hi.va
    f_Vrms_filter := BL.const _
    f_vd := vd
    f_we := we
    f_winv := we
    f_Ppv := ppvBL p hi (co .Vdc)
    f_Vdc_ref := Vdc_ref
    f_Q_ref := Q_ref
    f_Rf := BL.const _
    f_Kp_GCC := BL.const _
    f_Ki_GCC := BL.const _
    f_wp := BL.const _
    f_Kp_DC := BL.const _
    f_Ki_DC := BL.const _
    f_Kp_P := BL.const _
    f_Ki_P := BL.const _
    f_Kp_Q := BL.const _
    f_Ki_Q := BL.const _
    f_Ki_PLL := BL.const _
    f_m_limit := BL.const _
    f_iref_limit := BL.const _
    iLf := BL.const (p.Lf)⁻¹
    iwbase := BL.const (p.wbase)⁻¹
    iC := BL.const (p.C)⁻¹
    iTfilter_Vrms := BL.const (p.Tfilter_Vrms)⁻¹
  }

theorem envC1BL {S : ℝ → Set (SinglePhaseConstantVdc.V → ℝ)} (hi : InpBL C T inp) (hS : ∃ R, ∀ t ∈ Icc 0 T, ∀ y ∈ S t, ‖y‖ ≤ R) : EnvBL C (Icc 0 T) S (fun t y => envC1 p (inp t) y) := by
  obtain ⟨R, hR⟩ := hS
  have co : ∀ r, BL C (Icc 0 T) S (fun _ y => y r) := fun r => BL.coord hR r
  have ia := (co .iaR).cmk (co .iaI)
  have xa := (co .xaR).cmk (co .xaI)
  have ua := (co .uaR).cmk (co .uaI)
  have va : BL C (Icc 0 T) S (fun t _ => (inp t).va) := BL.time hi.va.1 hi.va.2
  have vb : BL C (Icc 0 T) S (fun t _ => (inp t).vb) := BL.time hi.vb.1 hi.vb.2
  have vc : BL C (Icc 0 T) S (fun t _ => (inp t).vc) := BL.time hi.vc.1 hi.vc.2
  have Vdc_ref : BL C (Icc 0 T) S (fun t _ => (inp t).Vdc_ref) := BL.time hi.Vdc_ref.1 hi.Vdc_ref.2
  have Q_ref : BL C (Icc 0 T) S (fun t _ => (inp t).Q_ref) := BL.time hi.Q_ref.1 hi.Q_ref.2
  have Vdc0 : BL C (Icc 0 T) S (fun t _ => (inp t).Vdc0) := BL.time hi.Vdc0.1 hi.Vdc0.2
  have vta := vtBL p ua xa Vdc0
  have vd := pll1BL hi (co .wte)
  have we := weBL p vd (co .xPLL)
  have pp := ppvBL p hi Vdc0
  exact {
    f_ia := ia
    f_ib := BL.const _
    f_ic := BL.const _
    f_xa := xa
    f_xb := BL.const _
    f_xc := BL.const _
    f_ua := ua
    f_ub := BL.const _
    f_uc := BL.const _
    f_va := va
    f_vb := vb
    f_vc := vc
    f_vta := vta
    f_vtb := BL.const _
    f_vtc := BL.const _
    f_ia_ref := irefPBL p hi pp (co .xP) (co .xQ) (sPhBL vta ia) (sPhBL va ia)
    f_ib_ref := BL.const _
    f_ic_ref := BL.const _
    f_S := sPhBL vta ia
    f_S_PCC := sPhBL va ia
    f_Vdc := Vdc0
    f_xDC := BL.const _
    f_xP := co .xP
    f_xQ := co .xQ
    f_xPLL := co .xPLL
    f_Vrms := urmsBL hi.va hi.va hi.va
    f_Vrms_filter := BL.const _
    f_vd := vd
    f_we := we
    f_winv := we
    f_Ppv := pp
    f_Vdc_ref := Vdc_ref
    f_Q_ref := Q_ref
    f_Rf := BL.const _
    f_Kp_GCC := BL.const _
    f_Ki_GCC := BL.const _
    f_wp := BL.const _
    f_Kp_DC := BL.const _
    f_Ki_DC := BL.const _
    f_Kp_P := BL.const _
    f_Ki_P := BL.const _
    f_Kp_Q := BL.const _
    f_Ki_Q := BL.const _
    f_Ki_PLL := BL.const _
    f_m_limit := BL.const _
    f_iref_limit := BL.const _
    iLf := BL.const (p.Lf)⁻¹
    iwbase := BL.const (p.wbase)⁻¹
    iC := BL.const (p.C)⁻¹
    iTfilter_Vrms := BL.const (p.Tfilter_Vrms)⁻¹
  }

theorem env3BL (hi : InpBL C T inp) {ia xa ua ib xb ub ic xc uc : ℝ → (ι → ℝ) → ℂ} {Vdc xDC xQ xPLL wte vf : ℝ → (ι → ℝ) → ℝ}
    (hia : BL C (Icc 0 T) S ia)
    (hxa : BL C (Icc 0 T) S xa)
    (hua : BL C (Icc 0 T) S ua)
    (hib : BL C (Icc 0 T) S ib)
    (hxb : BL C (Icc 0 T) S xb)
    (hub : BL C (Icc 0 T) S ub)
    (hic : BL C (Icc 0 T) S ic)
    (hxc : BL C (Icc 0 T) S xc)
    (huc : BL C (Icc 0 T) S uc)
    (hVdc : BL C (Icc 0 T) S Vdc)
    (hxDC : BL C (Icc 0 T) S xDC)
    (hxQ : BL C (Icc 0 T) S xQ)
    (hxPLL : BL C (Icc 0 T) S xPLL)
    (hwte : BL C (Icc 0 T) S wte)
    (hvf : BL C (Icc 0 T) S vf) :
    EnvBL C (Icc 0 T) S (fun t y => env3 p (inp t) (ia t y) (xa t y) (ua t y) (ib t y) (xb t y) (ub t y) (ic t y) (xc t y) (uc t y) (Vdc t y) (xDC t y) (xQ t y) (xPLL t y) (wte t y) (vf t y)) := by
  have va : BL C (Icc 0 T) S (fun t _ => (inp t).va) := BL.time hi.va.1 hi.va.2
  have vb : BL C (Icc 0 T) S (fun t _ => (inp t).vb) := BL.time hi.vb.1 hi.vb.2
  have vc : BL C (Icc 0 T) S (fun t _ => (inp t).vc) := BL.time hi.vc.1 hi.vc.2
  have Vdc_ref : BL C (Icc 0 T) S (fun t _ => (inp t).Vdc_ref) := BL.time hi.Vdc_ref.1 hi.Vdc_ref.2
  have Q_ref : BL C (Icc 0 T) S (fun t _ => (inp t).Q_ref) := BL.time hi.Q_ref.1 hi.Q_ref.2
  have Vdc0 : BL C (Icc 0 T) S (fun t _ => (inp t).Vdc0) := BL.time hi.Vdc0.1 hi.Vdc0.2
  have vta := vtBL p hua hxa hVdc
  have vtb := vtBL p hub hxb hVdc
  have vtc := vtBL p huc hxc hVdc
  have vd := pll3BL hi hwte
  have we := weBL p vd hxPLL
  have SP := sCalcBL va vb vc hia hib hic
  have iref := irefBL p hi hVdc hxDC hxQ SP
  exact {
    f_ia := hia
    f_ib := hib
    f_ic := hic
    f_xa := hxa
    f_xb := hxb
    f_xc := hxc
    f_ua := hua
    f_ub := hub
    f_uc := huc
    f_va := va
    f_vb := vb
    f_vc := vc
    f_vta := vta
    f_vtb := vtb
    f_vtc := vtc
    f_ia_ref := iref
    f_ib_ref := ubBL iref
    f_ic_ref := ucBL iref
    f_S := sCalcBL vta vtb vtc hia hib hic
    f_S_PCC := SP
    f_Vdc := hVdc
    f_xDC := hxDC
    f_xP := BL.const _
    f_xQ := hxQ
    f_xPLL := hxPLL
    f_Vrms := urmsBL hi.va hi.vb hi.vc
    f_Vrms_filter := hvf
    f_vd := vd
    f_we := we
    f_winv := we
    f_Ppv := ppvBL p hi hVdc
    f_Vdc_ref := Vdc_ref
    f_Q_ref := Q_ref
    f_Rf := BL.const _
    f_Kp_GCC := BL.const _
    f_Ki_GCC := BL.const _
    f_wp := BL.const _
    f_Kp_DC := BL.const _
    f_Ki_DC := BL.const _
    f_Kp_P := BL.const _
    f_Ki_P := BL.const _
    f_Kp_Q := BL.const _
    f_Ki_Q := BL.const _
    f_Ki_PLL := BL.const _
    f_m_limit := BL.const _
    f_iref_limit := BL.const _
    iLf := BL.const (p.Lf)⁻¹
    iwbase := BL.const (p.wbase)⁻¹
    iC := BL.const (p.C)⁻¹
    iTfilter_Vrms := BL.const (p.Tfilter_Vrms)⁻¹
  }

theorem envC3BL {S : ℝ → Set (ThreePhaseConstantVdc.V → ℝ)} (hi : InpBL C T inp) (hS : ∃ R, ∀ t ∈ Icc 0 T, ∀ y ∈ S t, ‖y‖ ≤ R) : EnvBL C (Icc 0 T) S (fun t y => envC3 p (inp t) y) := by
  obtain ⟨R, hR⟩ := hS
  have co : ∀ r, BL C (Icc 0 T) S (fun _ y => y r) := fun r => BL.coord hR r
  have hia := (co .iaR).cmk (co .iaI)
  have hxa := (co .xaR).cmk (co .xaI)
  have hua := (co .uaR).cmk (co .uaI)
  have hib := (co .ibR).cmk (co .ibI)
  have hxb := (co .xbR).cmk (co .xbI)
  have hub := (co .ubR).cmk (co .ubI)
  have hic := (co .icR).cmk (co .icI)
  have hxc := (co .xcR).cmk (co .xcI)
  have huc := (co .ucR).cmk (co .ucI)
  have va : BL C (Icc 0 T) S (fun t _ => (inp t).va) := BL.time hi.va.1 hi.va.2
  have vb : BL C (Icc 0 T) S (fun t _ => (inp t).vb) := BL.time hi.vb.1 hi.vb.2
  have vc : BL C (Icc 0 T) S (fun t _ => (inp t).vc) := BL.time hi.vc.1 hi.vc.2
  have Vdc_ref : BL C (Icc 0 T) S (fun t _ => (inp t).Vdc_ref) := BL.time hi.Vdc_ref.1 hi.Vdc_ref.2
  have Q_ref : BL C (Icc 0 T) S (fun t _ => (inp t).Q_ref) := BL.time hi.Q_ref.1 hi.Q_ref.2
  have Vdc0 : BL C (Icc 0 T) S (fun t _ => (inp t).Vdc0) := BL.time hi.Vdc0.1 hi.Vdc0.2
  have vta := vtBL p hua hxa Vdc0
  have vtb := vtBL p hub hxb Vdc0
  have vtc := vtBL p huc hxc Vdc0
  have vd := pll3BL hi (co .wte)
  have we := weBL p vd (co .xPLL)
  have pp := ppvBL p hi Vdc0
  have SS := sCalcBL vta vtb vtc hia hib hic
  have SP := sCalcBL va vb vc hia hib hic
  have iref := irefPBL p hi pp (co .xP) (co .xQ) SS SP
  exact {
    f_ia := hia
    f_ib := hib
    f_ic := hic
    f_xa := hxa
    f_xb := hxb
    f_xc := hxc
    f_ua := hua
    f_ub := hub
    f_uc := huc
    f_va := va
    f_vb := vb
    f_vc := vc
    f_vta := vta
    f_vtb := vtb
    f_vtc := vtc
    f_ia_ref := iref
    f_ib_ref := ubBL iref
    f_ic_ref := ucBL iref
    f_S := SS
    f_S_PCC := SP
    f_Vdc := Vdc0
    f_xDC := BL.const _
    f_xP := co .xP
    f_xQ := co .xQ
    f_xPLL := co .xPLL
    f_Vrms := urmsBL hi.va hi.vb hi.vc
    f_Vrms_filter := BL.const _
    f_vd := vd
    f_we := we
    f_winv := we
    f_Ppv := pp
    f_Vdc_ref := Vdc_ref
    f_Q_ref := Q_ref
    f_Rf := BL.const _
    f_Kp_GCC := BL.const _
    f_Ki_GCC := BL.const _
    f_wp := BL.const _
    f_Kp_DC := BL.const _
    f_Ki_DC := BL.const _
    f_Kp_P := BL.const _
    f_Ki_P := BL.const _
    f_Kp_Q := BL.const _
    f_Ki_Q := BL.const _
    f_Ki_PLL := BL.const _
    f_m_limit := BL.const _
    f_iref_limit := BL.const _
    iLf := BL.const (p.Lf)⁻¹
    iwbase := BL.const (p.wbase)⁻¹
    iC := BL.const (p.C)⁻¹
    iTfilter_Vrms := BL.const (p.Tfilter_Vrms)⁻¹
  }

theorem envTBL {S : ℝ → Set (ThreePhase.V → ℝ)} (hi : InpBL C T inp) (hS : ∃ R, ∀ t ∈ Icc 0 T, ∀ y ∈ S t, ‖y‖ ≤ R) : EnvBL C (Icc 0 T) S (fun t y => envT p (inp t) y) := by
  obtain ⟨R, hR⟩ := hS
  have co : ∀ r, BL C (Icc 0 T) S (fun _ y => y r) := fun r => BL.coord hR r
  exact env3BL p hi ((co .iaR).cmk (co .iaI)) ((co .xaR).cmk (co .xaI)) ((co .uaR).cmk (co .uaI)) ((co .ibR).cmk (co .ibI)) ((co .xbR).cmk (co .xbI)) ((co .ubR).cmk (co .ubI)) ((co .icR).cmk (co .icI)) ((co .xcR).cmk (co .xcI)) ((co .ucR).cmk (co .ucI)) (co .Vdc) (co .xDC) (co .xQ) (co .xPLL) (co .wte) (co .Vrms)

theorem envNBL {S : ℝ → Set (ThreePhaseNoVrmsFilter.V → ℝ)} (hi : InpBL C T inp) (hS : ∃ R, ∀ t ∈ Icc 0 T, ∀ y ∈ S t, ‖y‖ ≤ R) : EnvBL C (Icc 0 T) S (fun t y => envN p (inp t) y) := by
  obtain ⟨R, hR⟩ := hS
  have co : ∀ r, BL C (Icc 0 T) S (fun _ y => y r) := fun r => BL.coord hR r
  exact env3BL p hi ((co .iaR).cmk (co .iaI)) ((co .xaR).cmk (co .xaI)) ((co .uaR).cmk (co .uaI)) ((co .ibR).cmk (co .ibI)) ((co .xbR).cmk (co .xbI)) ((co .ubR).cmk (co .ubI)) ((co .icR).cmk (co .icI)) ((co .xcR).cmk (co .xcI)) ((co .ucR).cmk (co .ucI)) (co .Vdc) (co .xDC) (co .xQ) (co .xPLL) (co .wte) (BL.const 0)

theorem envNumbaBL {S : ℝ → Set (ThreePhaseNumba.V → ℝ)} (hi : InpBL C T inp) (hS : ∃ R, ∀ t ∈ Icc 0 T, ∀ y ∈ S t, ‖y‖ ≤ R) : EnvBL C (Icc 0 T) S (fun t y => envNumba p (inp t) y) := by
  obtain ⟨R, hR⟩ := hS
  have co : ∀ r, BL C (Icc 0 T) S (fun _ y => y r) := fun r => BL.coord hR r
  exact env3BL p hi ((co .iaR).cmk (co .iaI)) ((co .xaR).cmk (co .xaI)) ((co .uaR).cmk (co .uaI)) ((co .ibR).cmk (co .ibI)) ((co .xbR).cmk (co .xbI)) ((co .ubR).cmk (co .ubI)) ((co .icR).cmk (co .icI)) ((co .xcR).cmk (co .xcI)) ((co .ucR).cmk (co .ucI)) (co .Vdc) (co .xDC) (co .xQ) (co .xPLL) (co .wte) (BL.const 0)

theorem InpBL.bal (hi : InpBL C T inp) : InpBL C T (fun t => { inp t with vb := Phasor.ub (inp t).va, vc := Phasor.uc (inp t).va }) := by
  have n1 : ∀ v, ‖Phasor.ub v‖ = ‖v‖ := fun v => (C47_phase_shift v).1
  have n2 : ∀ v, ‖Phasor.uc v‖ = ‖v‖ := fun v => (C47_phase_shift v).2.1
  exact {
    va := hi.va
    vb := ⟨by simpa only [n1] using hi.va.1, fun c => (hi.va.2 c).mul continuousOn_const⟩
    vc := ⟨by simpa only [n2] using hi.va.1, fun c => (hi.va.2 c).mul continuousOn_const⟩
    Vdc_ref := hi.Vdc_ref
    Q_ref := hi.Q_ref
    Sinsol := hi.Sinsol
    Vdc0 := hi.Vdc0
    Tactual := hi.Tactual
    Tinv := hi.Tinv
    angle := hi.angle }

theorem envBBL {S : ℝ → Set (ThreePhaseBalanced.V → ℝ)} (hi : InpBL C T inp) (hS : ∃ R, ∀ t ∈ Icc 0 T, ∀ y ∈ S t, ‖y‖ ≤ R) : EnvBL C (Icc 0 T) S (fun t y => envB p (inp t) y) := by
  obtain ⟨R, hR⟩ := hS
  have co : ∀ r, BL C (Icc 0 T) S (fun _ y => y r) := fun r => BL.coord hR r
  have ia := (co .iaR).cmk (co .iaI)
  have xa := (co .xaR).cmk (co .xaI)
  have ua := (co .uaR).cmk (co .uaI)
  exact env3BL p hi.bal ia xa ua (ubBL ia) (ubBL xa) (ubBL ua) (ucBL ia) (ucBL xa) (ucBL ua) (co .Vdc) (co .xDC) (co .xQ) (co .xPLL) (co .wte) (BL.const 0)

end


/-! ## From margins to regularity near a set of states -/

theorem regular {ι κ : Type} [Fintype ι] [Fintype κ] {C : Prop} {T : Set ℝ} {F : ℝ → (ι → ℝ) → ι → ℝ} {G : κ → ℝ → (ι → ℝ) → ℝ}
    (hG : ∀ R k, BL C T (fun _ => {y | ‖y‖ ≤ R}) (G k))
    (hF : ∀ R δ, 0 < δ → ∀ r, BL C T (fun t => {y | ‖y‖ ≤ R ∧ ∀ k, G k t y ≤ -δ}) (fun t y => F t y r))
    {K : ℝ → Set (ι → ℝ)} {R η : ℝ} (hη : 0 < η) (hK : ∀ t ∈ T, ∀ y ∈ K t, ‖y‖ ≤ R ∧ ∀ k, G k t y ≤ -η) :
    ∃ ρ > 0, ∃ B L, 0 ≤ B ∧ 0 ≤ L ∧ (∀ t ∈ T, ∀ y, (∃ k ∈ K t, ‖y - k‖ ≤ ρ) → ‖F t y‖ ≤ B) ∧
      (∀ t ∈ T, ∀ y z, (∃ k ∈ K t, ‖y - k‖ ≤ ρ) → (∃ k ∈ K t, ‖z - k‖ ≤ ρ) → ‖F t y - F t z‖ ≤ L * ‖y - z‖) ∧
      (C → ∀ y, (∀ t ∈ T, ∃ k ∈ K t, ‖y - k‖ ≤ ρ) → ContinuousOn (fun t => F t y) T) := by
  choose M hM using fun k => (hG (R + 1) k).lip
  set M' := ∑ k, |M k| with hM'
  have hM0 : 0 ≤ M' := Finset.sum_nonneg (fun k _ => abs_nonneg _)
  have hMk : ∀ k, M k ≤ M' := fun k => (le_abs_self _).trans (Finset.single_le_sum (f := fun k => |M k|) (fun k _ => abs_nonneg _) (Finset.mem_univ k))
  set ρ := min 1 (η / (2 * (M' + 1))) with hρ
  have hρ0 : 0 < ρ := lt_min one_pos (by positivity)
  have near : ∀ t ∈ T, ∀ y, (∃ k ∈ K t, ‖y - k‖ ≤ ρ) → y ∈ {y | ‖y‖ ≤ R + 1 ∧ ∀ k, G k t y ≤ -(η / 2)} := by
    rintro t ht y ⟨z, hz, hyz⟩
    obtain ⟨h1, h2⟩ := hK t ht z hz
    have hy1 : ‖y‖ ≤ R + 1 := by
      have a := norm_add_le z (y - z)
      rw [add_sub_cancel] at a
      have b : ρ ≤ 1 := min_le_left _ _
      linarith
    refine ⟨hy1, fun k => ?_⟩
    have h3 := hM k t ht y hy1 z (by show ‖z‖ ≤ R + 1; linarith)
    have h4 : M k * ‖y - z‖ ≤ M' * ρ := mul_le_mul (hMk k) hyz (norm_nonneg _) hM0
    have h5 : M' * ρ ≤ η / 2 := by
      have : ρ ≤ η / (2 * (M' + 1)) := min_le_right _ _
      calc M' * ρ ≤ (M' + 1) * (η / (2 * (M' + 1))) := mul_le_mul (by linarith) this hρ0.le (by linarith)
        _ = η / 2 := by field_simp
    have h6 := (le_abs_self _).trans (h3.trans (h4.trans h5))
    have := h2 k
    linarith
  obtain ⟨B, L, hB, hL, h1, h2, h3⟩ := LocLip.vector (hF (R + 1) (η / 2) (by linarith))
  refine ⟨ρ, hρ0, B, L, hB, hL, fun t ht y hy => h1 t ht y (near t ht y hy), fun t ht y z hy hz => h2 t ht y (near t ht y hy) z (near t ht z hz),
    fun c y hy => (h3 c y).mono (fun t ht => ⟨ht, near t ht y (hy t ht)⟩)⟩

theorem solves_iff {ι : Type} [Fintype ι] {F : ℝ → (ι → ℝ) → ι → ℝ} {Y : ℝ → ι → ℝ} {t : ℝ} : Solves F Y t ↔ HasDerivAt Y (F t (Y t)) t := hasDerivAt_pi.symm

theorem bounded_traj {ι : Type} [Fintype ι] {F : ℝ → (ι → ℝ) → ι → ℝ} {Y : ℝ → ι → ℝ} {T : ℝ} (h : ∀ t ∈ Icc 0 T, Solves F Y t) : ∃ R, ∀ t ∈ Icc 0 T, ‖Y t‖ ≤ R :=
  isCompact_Icc.exists_bound_of_continuousOn (fun t ht => (solves_iff.1 (h t ht)).continuousAt.continuousWithinAt)

/-- Small errors in the initial state have a bounded effect. -/
theorem depends {ι κ : Type} [Fintype ι] [Fintype κ] {C : Prop} {T : ℝ} {F : ℝ → (ι → ℝ) → ι → ℝ} {G : κ → ℝ → (ι → ℝ) → ℝ}
    (hG : ∀ R k, BL C (Icc 0 T) (fun _ => {y | ‖y‖ ≤ R}) (G k))
    (hF : ∀ R δ, 0 < δ → ∀ r, BL C (Icc 0 T) (fun t => {y | ‖y‖ ≤ R ∧ ∀ k, G k t y ≤ -δ}) (fun t y => F t y r))
    {Y : ℝ → ι → ℝ} (hY : ∀ t ∈ Icc 0 T, Solves F Y t) {η : ℝ} (hη : 0 < η) (hm : ∀ t ∈ Icc 0 T, ∀ k, G k t (Y t) ≤ -η) :
    ∃ ρ > 0, ∃ L, ∀ Z : ℝ → ι → ℝ, (∀ t ∈ Icc 0 T, Solves F Z t) → ‖Z 0 - Y 0‖ < ρ → ∀ t ∈ Icc 0 T, ‖Z t - Y t‖ ≤ ‖Z 0 - Y 0‖ * Real.exp (L * t) := by
  obtain ⟨R, hR⟩ := bounded_traj hY
  obtain ⟨ρ, hρ, B, L, hB, hL, _, h2, _⟩ := regular hG hF (K := fun t => {Y t}) hη (by
    intro t ht y hy
    have e : y = Y t := hy
    subst e
    exact ⟨hR t ht, hm t ht⟩)
  refine ⟨ρ * Real.exp (-(L * T)), by positivity, L, fun Z hZ h0 => ?_⟩
  refine dependence hρ hL (fun t ht y z hy hz => h2 t ht y z ⟨_, rfl, hy⟩ ⟨_, rfl, hz⟩) (fun t ht => solves_iff.1 (hY t ht)) (fun t ht => solves_iff.1 (hZ t ht)) ?_
  have := mul_lt_mul_of_pos_right h0 (Real.exp_pos (L * T))
  rwa [mul_assoc, ← Real.exp_add, neg_add_cancel, Real.exp_zero, mul_one] at this

/-- A trajectory from a state of a compact set `K` on which no limiter is active exists until it reaches the boundary of `K`. -/
theorem exists_until_margin {ι κ : Type} [Fintype ι] [Fintype κ] {C : Prop} (hC : C) {T T0 : ℝ} (hT : 0 ≤ T) (hsub : Icc 0 T ⊆ Icc 0 T0) {F : ℝ → (ι → ℝ) → ι → ℝ} {G : κ → ℝ → (ι → ℝ) → ℝ}
    (hG : ∀ R k, BL C (Icc 0 T0) (fun _ => {y | ‖y‖ ≤ R}) (G k))
    (hF : ∀ R δ, 0 < δ → ∀ r, BL C (Icc 0 T0) (fun t => {y | ‖y‖ ≤ R ∧ ∀ k, G k t y ≤ -δ}) (fun t y => F t y r))
    {K : Set (ι → ℝ)} (hK : IsCompact K) {η : ℝ} (hη : 0 < η) (hm : ∀ t ∈ Icc 0 T, ∀ y ∈ K, ∀ k, G k t y ≤ -η) {y0 : ι → ℝ} (hy0 : y0 ∈ K) :
    ∃ Y : ℝ → ι → ℝ, Y 0 = y0 ∧ ((∀ t ∈ Icc 0 T, Solves F Y t ∧ Y t ∈ K) ∨
      ∃ T' ∈ Icc 0 T, (∀ t ∈ Icc 0 T', Solves F Y t ∧ Y t ∈ K) ∧ Y T' ∈ frontier K) := by
  obtain ⟨R, hR⟩ := hK.isBounded.exists_norm_le
  replace hG := fun R k => (hG R k).times hsub
  replace hF := fun R δ hδ r => (hF R δ hδ r).times hsub
  obtain ⟨ρ, hρ, B, L, hB, hL, h1, h2, h3⟩ := regular hG hF (K := fun _ => K) hη (fun t ht y hy => ⟨hR y hy, hm t ht y hy⟩)
  have near : ∀ y, Metric.infDist y K < ρ → ∃ k ∈ K, ‖y - k‖ ≤ ρ := by
    intro y hy
    obtain ⟨k, hk, hlt⟩ := (Metric.infDist_lt_iff ⟨y0, hy0⟩).1 hy
    exact ⟨k, hk, by rw [← dist_eq_norm]; exact hlt.le⟩
  obtain ⟨Y, hY0, hY⟩ := exists_until hK.isClosed hT hρ hB hL (fun t ht y z hy hz => h2 t ht y z (near y hy) (near z hz)) (fun t ht y hy => h1 t ht y (near y hy))
    (fun y hy => h3 hC y (fun t _ => near y hy)) hy0
  refine ⟨Y, hY0, ?_⟩
  simp only [solves_iff]
  exact hY

/-- A trajectory from a state of a compact set `K` on which no limiter is active exists until it reaches the boundary of `K`. -/
theorem exists_traj {ι κ : Type} [Fintype ι] [Fintype κ] {C : Prop} (hC : C) {T : ℝ} (hT : 0 ≤ T) {F : ℝ → (ι → ℝ) → ι → ℝ} {G : κ → ℝ → (ι → ℝ) → ℝ}
    (hG : ∀ R k, BL C (Icc 0 T) (fun _ => {y | ‖y‖ ≤ R}) (G k))
    (hF : ∀ R δ, 0 < δ → ∀ r, BL C (Icc 0 T) (fun t => {y | ‖y‖ ≤ R ∧ ∀ k, G k t y ≤ -δ}) (fun t y => F t y r))
    {K : Set (ι → ℝ)} (hK : IsCompact K) {η : ℝ} (hη : 0 < η) (hm : ∀ t ∈ Icc 0 T, ∀ y ∈ K, ∀ k, G k t y ≤ -η) {y0 : ι → ℝ} (hy0 : y0 ∈ K) :
    ∃ Y : ℝ → ι → ℝ, Y 0 = y0 ∧ ((∀ t ∈ Icc 0 T, Solves F Y t ∧ Y t ∈ K) ∨
      ∃ T' ∈ Icc 0 T, (∀ t ∈ Icc 0 T', Solves F Y t ∧ Y t ∈ K) ∧ Y T' ∈ frontier K) := by
  exact exists_until_margin hC hT subset_rfl hG hF hK hη hm hy0


/-- From a state at which no limiter is active a trajectory exists for some time. -/
theorem exists_local {ι κ : Type} [Fintype ι] [Fintype κ] {C : Prop} (hC : C) {T : ℝ} (hT : 0 < T) {F : ℝ → (ι → ℝ) → ι → ℝ} {G : κ → ℝ → (ι → ℝ) → ℝ}
    (hG : ∀ R k, BL C (Icc 0 T) (fun _ => {y | ‖y‖ ≤ R}) (G k))
    (hF : ∀ R δ, 0 < δ → ∀ r, BL C (Icc 0 T) (fun t => {y | ‖y‖ ≤ R ∧ ∀ k, G k t y ≤ -δ}) (fun t y => F t y r))
    {y0 : ι → ℝ} {η : ℝ} (hη : 0 < η) (hm : ∀ k, G k 0 y0 ≤ -η) :
    ∃ ε > 0, ε ≤ T ∧ ∃ Y : ℝ → ι → ℝ, Y 0 = y0 ∧ ∀ t ∈ Icc 0 ε, Solves F Y t := by
  choose M hM using fun k => (hG (‖y0‖ + 1) k).lip
  set M' := ∑ k, |M k| with hM'
  have hM0 : 0 ≤ M' := Finset.sum_nonneg (fun k _ => abs_nonneg _)
  have hMk : ∀ k, M k ≤ M' := fun k => (le_abs_self _).trans (Finset.single_le_sum (f := fun k => |M k|) (fun k _ => abs_nonneg _) (Finset.mem_univ k))
  set ρ := min 1 (η / (4 * (M' + 1))) with hρ
  have hρ0 : 0 < ρ := lt_min one_pos (by positivity)
  have hin : ∀ y ∈ Metric.closedBall y0 ρ, ‖y‖ ≤ ‖y0‖ + 1 := by
    intro y hy
    have a := norm_add_le y0 (y - y0)
    rw [add_sub_cancel] at a
    have b : ρ ≤ 1 := min_le_left _ _
    have c : ‖y - y0‖ ≤ ρ := by rwa [← dist_eq_norm]
    linarith
  have hy0 : ‖y0‖ ≤ ‖y0‖ + 1 := by linarith
  have hct : ∀ k, ∃ d > 0, ∀ t ∈ Icc 0 T, t < d → G k t y0 ≤ -(3 * η / 4) := by
    intro k
    have h1 := ((hG (‖y0‖ + 1) k).ct hC y0).mono (fun t (ht : t ∈ Icc 0 T) => ⟨ht, hy0⟩) 0 ⟨le_rfl, hT.le⟩
    have h2 := h1.eventually (gt_mem_nhds (show G k 0 y0 < -(3 * η / 4) by have := hm k; linarith))
    obtain ⟨d, hd, hb⟩ := Metric.mem_nhdsWithin_iff.1 h2
    exact ⟨d, hd, fun t ht htd => (hb (show t ∈ Metric.ball 0 d ∩ Icc 0 T from ⟨by rw [Metric.mem_ball, Real.dist_eq, sub_zero, abs_of_nonneg ht.1]; exact htd, ht⟩) : G k t y0 < _).le⟩
  choose d hd hdm using hct
  obtain ⟨ε, hε, hεT, hεd⟩ : ∃ ε > 0, ε ≤ T ∧ ∀ k, ε < d k := by
    rcases isEmpty_or_nonempty κ with he | hne
    · exact ⟨T, hT, le_rfl, fun k => (he.false k).elim⟩
    · have hmin := (Finset.lt_inf'_iff (Finset.univ_nonempty (α := κ)) (f := d) (a := (0 : ℝ))).2 (fun k _ => hd k)
      refine ⟨min T (Finset.univ.inf' Finset.univ_nonempty d / 2), lt_min hT (by linarith), min_le_left _ _, fun k => ?_⟩
      have := Finset.inf'_le d (Finset.mem_univ k)
      exact lt_of_le_of_lt (min_le_right _ _) (by linarith)
  have hmar : ∀ t ∈ Icc 0 ε, ∀ y ∈ Metric.closedBall y0 ρ, ∀ k, G k t y ≤ -(η / 2) := by
    intro t ht y hy k
    have htT : t ∈ Icc 0 T := ⟨ht.1, ht.2.trans hεT⟩
    have h3 := hM k t htT y (hin y hy) y0 hy0
    have h4 : M k * ‖y - y0‖ ≤ M' * ρ := mul_le_mul (hMk k) (by rwa [← dist_eq_norm]) (norm_nonneg _) hM0
    have h5 : M' * ρ ≤ η / 4 := by
      have : ρ ≤ η / (4 * (M' + 1)) := min_le_right _ _
      calc M' * ρ ≤ (M' + 1) * (η / (4 * (M' + 1))) := mul_le_mul (by linarith) this hρ0.le (by linarith)
        _ = η / 4 := by field_simp
    have h6 := (le_abs_self _).trans (h3.trans (h4.trans h5))
    have h7 := hdm k t htT (lt_of_le_of_lt ht.2 (hεd k))
    linarith
  have sub : Icc 0 ε ⊆ Icc 0 T := Icc_subset_Icc_right hεT
  obtain ⟨Y, hY0, hY⟩ := exists_until_margin hC hε.le sub hG hF (isCompact_closedBall y0 ρ) (half_pos hη) hmar (Metric.mem_closedBall_self hρ0.le)
  rcases hY with hY | ⟨T', hT', hY, hfr⟩
  · exact ⟨ε, hε, hεT, Y, hY0, fun t ht => (hY t ht).1⟩
  · refine ⟨T', lt_of_le_of_ne hT'.1 ?_, hT'.2.trans hεT, Y, hY0, fun t ht => (hY t ht).1⟩
    rintro rfl
    rw [hY0, frontier_closedBall _ hρ0.ne'] at hfr
    simp [hρ0.ne] at hfr

theorem InpCont.bounded {inp : ℝ → Inp} {T : ℝ} (h : InpCont inp T) (hT : ∀ t ∈ Icc 0 T, 0 < (inp t).Tactual) : ∃ B, InpBounded inp T B := by
  have cpt : IsCompact (Icc (0 : ℝ) T) := isCompact_Icc
  have inv := h.Tactual.inv₀ (fun t ht => (hT t ht).ne')
  obtain ⟨b1, h1⟩ := cpt.exists_bound_of_continuousOn h.va
  obtain ⟨b2, h2⟩ := cpt.exists_bound_of_continuousOn h.vb
  obtain ⟨b3, h3⟩ := cpt.exists_bound_of_continuousOn h.vc
  obtain ⟨b4, h4⟩ := cpt.exists_bound_of_continuousOn h.Vdc_ref
  obtain ⟨b5, h5⟩ := cpt.exists_bound_of_continuousOn h.Q_ref
  obtain ⟨b6, h6⟩ := cpt.exists_bound_of_continuousOn h.Sinsol
  obtain ⟨b7, h7⟩ := cpt.exists_bound_of_continuousOn h.Vdc0
  obtain ⟨b8, h8⟩ := cpt.exists_bound_of_continuousOn h.Tactual
  obtain ⟨b9, h9⟩ := cpt.exists_bound_of_continuousOn inv
  have le : ∀ {b : ℝ}, b ∈ [b1, b2, b3, b4, b5, b6, b7, b8, b9] → b ≤ ([b1, b2, b3, b4, b5, b6, b7, b8, b9].map (fun x => |x|)).sum + 1 := by
    intro b hb
    have h1 := List.single_le_sum (l := [b1, b2, b3, b4, b5, b6, b7, b8, b9].map (fun x => |x|)) (by
      intro x hx
      obtain ⟨y, _, rfl⟩ := List.mem_map.1 hx
      exact abs_nonneg y) |b| (List.mem_map.2 ⟨b, hb, rfl⟩)
    have := le_abs_self b
    linarith
  have pos : 0 < ([b1, b2, b3, b4, b5, b6, b7, b8, b9].map (fun x => |x|)).sum + 1 := by
    have : 0 ≤ ([b1, b2, b3, b4, b5, b6, b7, b8, b9].map (fun x => |x|)).sum := List.sum_nonneg (by
      intro x hx
      obtain ⟨y, _, rfl⟩ := List.mem_map.1 hx
      exact abs_nonneg y)
    linarith
  refine ⟨_, pos, fun t ht => (h1 t ht).trans (le (by simp)), fun t ht => (h2 t ht).trans (le (by simp)), fun t ht => (h3 t ht).trans (le (by simp)),
    fun t ht => (h4 t ht).trans (le (by simp)), fun t ht => (h5 t ht).trans (le (by simp)), fun t ht => (h6 t ht).trans (le (by simp)),
    fun t ht => (h7 t ht).trans (le (by simp)), fun t ht => (h8 t ht).trans (le (by simp)), fun t ht => ?_⟩
  have a := (le_abs_self _).trans ((h9 t ht).trans (le (by simp)))
  have b := hT t ht
  exact inv_le_of_inv_le₀ b a

theorem rows_single {ι : Type} [Fintype ι] {C : Prop} {T : Set ℝ} {S : ℝ → Set (ι → ℝ)} {e : ℝ → (ι → ℝ) → Env} (h : EnvBL C T S e)
    (hma : ∀ t ∈ T, ∀ y ∈ S t, ¬ (‖(((e t y).Kp_GCC : ℝ) : ℂ) * (e t y).ua + (e t y).xa‖ > (e t y).m_limit))
    (hir : ∀ t ∈ T, ∀ y ∈ S t, ¬ (‖((((e t y).xDC + ((e t y).Kp_DC * ((e t y).Vdc_ref - (e t y).Vdc))) : ℝ) : ℂ) + (Complex.I * ((((e t y).xQ - ((e t y).Kp_Q * ((e t y).Q_ref - ((e t y).S_PCC).im))) : ℝ) : ℂ))‖ > (e t y).iref_limit))
    (iV : BL C T S (fun t y => (e t y).Vdc⁻¹)) (r : SinglePhase.V) :
    BL C T S (fun t y => SinglePhase.rhs (e t y) r) := by
  obtain ⟨f_ia, f_ib, f_ic, f_xa, f_xb, f_xc, f_ua, f_ub, f_uc, f_va, f_vb, f_vc, f_vta, f_vtb, f_vtc, f_ia_ref, f_ib_ref, f_ic_ref, f_S, f_S_PCC, f_Vdc, f_xDC, f_xP, f_xQ, f_xPLL, f_Vrms, f_Vrms_filter, f_vd, f_we, f_winv, f_Ppv, f_Vdc_ref, f_Q_ref, f_Rf, f_Kp_GCC, f_Ki_GCC, f_wp, f_Kp_DC, f_Ki_DC, f_Kp_P, f_Ki_P, f_Kp_Q, f_Ki_Q, f_Ki_PLL, f_m_limit, f_iref_limit, iLf, iwbase, iC, iTfilter_Vrms⟩ := h
  cases r <;> simp only [SinglePhase.rhs, div_eq_mul_inv, mul_inv] <;> bl

/-- The limiters of the class `SinglePhase`, and the DC voltage. -/
noncomputable def lim_single (p : Par) (inp : ℝ → Inp) (conn : ℝ → Bool) : Fin 3 → ℝ → (SinglePhase.V → ℝ) → ℝ :=
  ![fun t y => ‖((((connIf (conn t) (env1 p (inp t) y)).Kp_GCC : ℝ)) : ℂ) * (connIf (conn t) (env1 p (inp t) y)).ua + (connIf (conn t) (env1 p (inp t) y)).xa‖ - (connIf (conn t) (env1 p (inp t) y)).m_limit,
    fun t y => ‖irefD (connIf (conn t) (env1 p (inp t) y))‖ - (connIf (conn t) (env1 p (inp t) y)).iref_limit,
    fun t y => -(connIf (conn t) (env1 p (inp t) y)).Vdc]

theorem lim_single_iff {p : Par} {inp : ℝ → Inp} {conn : ℝ → Bool} {t η : ℝ} {y : SinglePhase.V → ℝ} : (∀ k, lim_single p inp conn k t y ≤ -η) ↔ MarginD1 η (connIf (conn t) (env1 p (inp t) y)) := by
  unfold MarginD1 PhaseMargin lim_single
  simp only [Fin.forall_fin_succ, IsEmpty.forall_iff, and_true, Matrix.cons_val_zero, Matrix.cons_val_succ]
  constructor
  · rintro ⟨h0, h1, h2⟩
    refine ⟨?_, ?_, ?_⟩ <;> linarith
  · rintro ⟨h0, h1, h2⟩
    refine ⟨?_, ?_, ?_⟩ <;> linarith

theorem limBL_single {p : Par} {inp : ℝ → Inp} {conn : ℝ → Bool} {C : Prop} {T : ℝ} (hi : InpBL C T inp) (hc : C → ∃ c, ∀ t, conn t = c) (R : ℝ) (k : Fin 3) :
    BL C (Icc 0 T) (fun _ => {y | ‖y‖ ≤ R}) (lim_single p inp conn k) := by
  have h := (env1BL p hi (S := fun _ => {y | ‖y‖ ≤ R}) ⟨R, fun t _ y hy => hy⟩).connIf hc
  obtain ⟨f_ia, f_ib, f_ic, f_xa, f_xb, f_xc, f_ua, f_ub, f_uc, f_va, f_vb, f_vc, f_vta, f_vtb, f_vtc, f_ia_ref, f_ib_ref, f_ic_ref, f_S, f_S_PCC, f_Vdc, f_xDC, f_xP, f_xQ, f_xPLL, f_Vrms, f_Vrms_filter, f_vd, f_we, f_winv, f_Ppv, f_Vdc_ref, f_Q_ref, f_Rf, f_Kp_GCC, f_Ki_GCC, f_wp, f_Kp_DC, f_Ki_DC, f_Kp_P, f_Ki_P, f_Kp_Q, f_Ki_Q, f_Ki_PLL, f_m_limit, f_iref_limit, iLf, iwbase, iC, iTfilter_Vrms⟩ := h
  fin_cases k
  · show BL C (Icc 0 T) _ (fun t y => ‖((((connIf (conn t) (env1 p (inp t) y)).Kp_GCC : ℝ)) : ℂ) * (connIf (conn t) (env1 p (inp t) y)).ua + (connIf (conn t) (env1 p (inp t) y)).xa‖ - (connIf (conn t) (env1 p (inp t) y)).m_limit)
    bl
  · show BL C (Icc 0 T) _ (fun t y => ‖irefD (connIf (conn t) (env1 p (inp t) y))‖ - (connIf (conn t) (env1 p (inp t) y)).iref_limit)
    simp only [irefD]; bl
  · show BL C (Icc 0 T) _ (fun t y => -(connIf (conn t) (env1 p (inp t) y)).Vdc)
    bl

theorem rhsBL_single {p : Par} {inp : ℝ → Inp} {conn : ℝ → Bool} {C : Prop} {T : ℝ} (hi : InpBL C T inp) (hc : C → ∃ c, ∀ t, conn t = c) (R δ : ℝ) (hδ : 0 < δ) (r : SinglePhase.V) :
    BL C (Icc 0 T) (fun t => {y | ‖y‖ ≤ R ∧ ∀ k, lim_single p inp conn k t y ≤ -δ}) (fun t y => SinglePhase.rhs (connIf (conn t) (env1 p (inp t) y)) r) := by
  have h := (env1BL p hi (S := fun t => {y | ‖y‖ ≤ R ∧ ∀ k, lim_single p inp conn k t y ≤ -δ}) ⟨R, fun t _ y hy => hy.1⟩).connIf hc
  have hl : ∀ t ∈ Icc 0 T, ∀ y ∈ {y | ‖y‖ ≤ R ∧ ∀ k, lim_single p inp conn k t y ≤ -δ}, MarginD1 δ (connIf (conn t) (env1 p (inp t) y)) := fun t _ y hy => lim_single_iff.1 hy.2
  refine rows_single h
    (fun t ht y hy => by have := (hl t ht y hy).1; rw [not_lt]; unfold PhaseMargin at this; linarith)
    (fun t ht y hy => by have := (hl t ht y hy).2.1; rw [not_lt]; unfold irefD at this; linarith)
    (h.f_Vdc.inv hδ (fun t ht y hy => (hl t ht y hy).2.2))
    r

/-- C113, class `SinglePhase`: a small error in the initial state has a bounded effect, as long as no limiter is active along the undisturbed trajectory. -/
theorem C113_depends_single (p : Par) (inp : ℝ → Inp) (conn : ℝ → Bool) (T : ℝ) (hin : ∃ B, InpBounded inp T B) (Y : ℝ → SinglePhase.V → ℝ)
    (hY : ∀ t ∈ Icc 0 T, Solves (fun t y => SinglePhase.rhs (connIf (conn t) (env1 p (inp t) y))) Y t) (η : ℝ) (hη : 0 < η)
    (hm : ∀ t ∈ Icc 0 T, MarginD1 η (connIf (conn t) (env1 p (inp t) (Y t)))) :
    ∃ ρ > 0, ∃ L, ∀ Z : ℝ → SinglePhase.V → ℝ, (∀ t ∈ Icc 0 T, Solves (fun t y => SinglePhase.rhs (connIf (conn t) (env1 p (inp t) y))) Z t) → ‖Z 0 - Y 0‖ < ρ →
      ∀ t ∈ Icc 0 T, ‖Z t - Y t‖ ≤ ‖Z 0 - Y 0‖ * Real.exp (L * t) := by
  obtain ⟨B, hB⟩ := hin
  have hi := hB.bl (C := False) (fun c => c.elim)
  exact depends (limBL_single hi (fun c => c.elim)) (rhsBL_single hi (fun c => c.elim)) hY hη (fun t ht => lim_single_iff.2 (hm t ht))

/-- C113, class `SinglePhase`: the trajectory is determined by its initial state, as long as no limiter is active along it. -/
theorem C113_unique_single (p : Par) (inp : ℝ → Inp) (conn : ℝ → Bool) (T : ℝ) (hin : ∃ B, InpBounded inp T B) (Y Z : ℝ → SinglePhase.V → ℝ)
    (hY : ∀ t ∈ Icc 0 T, Solves (fun t y => SinglePhase.rhs (connIf (conn t) (env1 p (inp t) y))) Y t) (hZ : ∀ t ∈ Icc 0 T, Solves (fun t y => SinglePhase.rhs (connIf (conn t) (env1 p (inp t) y))) Z t)
    (η : ℝ) (hη : 0 < η) (hm : ∀ t ∈ Icc 0 T, MarginD1 η (connIf (conn t) (env1 p (inp t) (Y t)))) (h0 : Z 0 = Y 0) : ∀ t ∈ Icc 0 T, Z t = Y t := by
  intro t ht
  obtain ⟨ρ, hρ, L, h⟩ := C113_depends_single p inp conn T hin Y hY η hη hm
  have := h Z hZ (by rw [h0, sub_self, norm_zero]; exact hρ) t ht
  rw [h0, sub_self, norm_zero, zero_mul] at this
  exact sub_eq_zero.1 (norm_le_zero_iff.1 this)

/-- C113, class `SinglePhase`: with continuous inputs, from every state at which no limiter is active and the DC voltage is positive a trajectory exists for some time. -/
theorem C113_starts_single (p : Par) (inp : ℝ → Inp) (c : Bool) (T : ℝ) (hT : 0 < T) (hin : InpCont inp T) (hTa : ∀ t ∈ Icc 0 T, 0 < (inp t).Tactual)
    (y0 : SinglePhase.V → ℝ) (η : ℝ) (hη : 0 < η) (hm : MarginD1 η (connIf c (env1 p (inp 0) y0))) :
    ∃ ε > 0, ε ≤ T ∧ ∃ Y : ℝ → SinglePhase.V → ℝ, Y 0 = y0 ∧ ∀ t ∈ Icc 0 ε, Solves (fun t y => SinglePhase.rhs (connIf c (env1 p (inp t) y))) Y t := by
  obtain ⟨B, hB⟩ := hin.bounded hTa
  have hi := hB.bl (C := True) (fun _ => hin)
  exact exists_local trivial hT (limBL_single (conn := fun _ => c) hi (fun _ => ⟨c, fun _ => rfl⟩)) (rhsBL_single (conn := fun _ => c) hi (fun _ => ⟨c, fun _ => rfl⟩)) hη
    (lim_single_iff.2 hm)

/-- C113, class `SinglePhase`: with continuous inputs, a trajectory from a state of a compact set `K` on which no limiter is active exists until it reaches the boundary of `K`. -/
theorem C113_exists_single (p : Par) (inp : ℝ → Inp) (c : Bool) (T : ℝ) (hT : 0 ≤ T) (hin : InpCont inp T) (hTa : ∀ t ∈ Icc 0 T, 0 < (inp t).Tactual)
    (K : Set (SinglePhase.V → ℝ)) (hK : IsCompact K) (η : ℝ) (hη : 0 < η) (hm : ∀ t ∈ Icc 0 T, ∀ y ∈ K, MarginD1 η (connIf c (env1 p (inp t) y)))
    (y0 : SinglePhase.V → ℝ) (hy0 : y0 ∈ K) :
    ∃ Y : ℝ → SinglePhase.V → ℝ, Y 0 = y0 ∧ ((∀ t ∈ Icc 0 T, Solves (fun t y => SinglePhase.rhs (connIf c (env1 p (inp t) y))) Y t ∧ Y t ∈ K) ∨
      ∃ T' ∈ Icc 0 T, (∀ t ∈ Icc 0 T', Solves (fun t y => SinglePhase.rhs (connIf c (env1 p (inp t) y))) Y t ∧ Y t ∈ K) ∧ Y T' ∈ frontier K) := by
  obtain ⟨B, hB⟩ := hin.bounded hTa
  have hi := hB.bl (C := True) (fun _ => hin)
  exact exists_traj trivial hT (limBL_single (conn := fun _ => c) hi (fun _ => ⟨c, fun _ => rfl⟩)) (rhsBL_single (conn := fun _ => c) hi (fun _ => ⟨c, fun _ => rfl⟩)) hK hη
    (fun t ht y hy => lim_single_iff.2 (hm t ht y hy)) hy0

theorem rows_three {ι : Type} [Fintype ι] {C : Prop} {T : Set ℝ} {S : ℝ → Set (ι → ℝ)} {e : ℝ → (ι → ℝ) → Env} (h : EnvBL C T S e)
    (hma : ∀ t ∈ T, ∀ y ∈ S t, ¬ (‖(((e t y).Kp_GCC : ℝ) : ℂ) * (e t y).ua + (e t y).xa‖ > (e t y).m_limit))
    (hmb : ∀ t ∈ T, ∀ y ∈ S t, ¬ (‖(((e t y).Kp_GCC : ℝ) : ℂ) * (e t y).ub + (e t y).xb‖ > (e t y).m_limit))
    (hmc : ∀ t ∈ T, ∀ y ∈ S t, ¬ (‖(((e t y).Kp_GCC : ℝ) : ℂ) * (e t y).uc + (e t y).xc‖ > (e t y).m_limit))
    (hir : ∀ t ∈ T, ∀ y ∈ S t, ¬ (‖((((e t y).xDC + ((e t y).Kp_DC * ((e t y).Vdc_ref - (e t y).Vdc))) : ℝ) : ℂ) + (Complex.I * ((((e t y).xQ - ((e t y).Kp_Q * ((e t y).Q_ref - ((e t y).S_PCC).im))) : ℝ) : ℂ))‖ > (e t y).iref_limit))
    (iV : BL C T S (fun t y => (e t y).Vdc⁻¹)) (r : ThreePhase.V) :
    BL C T S (fun t y => ThreePhase.rhs (e t y) r) := by
  obtain ⟨f_ia, f_ib, f_ic, f_xa, f_xb, f_xc, f_ua, f_ub, f_uc, f_va, f_vb, f_vc, f_vta, f_vtb, f_vtc, f_ia_ref, f_ib_ref, f_ic_ref, f_S, f_S_PCC, f_Vdc, f_xDC, f_xP, f_xQ, f_xPLL, f_Vrms, f_Vrms_filter, f_vd, f_we, f_winv, f_Ppv, f_Vdc_ref, f_Q_ref, f_Rf, f_Kp_GCC, f_Ki_GCC, f_wp, f_Kp_DC, f_Ki_DC, f_Kp_P, f_Ki_P, f_Kp_Q, f_Ki_Q, f_Ki_PLL, f_m_limit, f_iref_limit, iLf, iwbase, iC, iTfilter_Vrms⟩ := h
  cases r <;> simp only [ThreePhase.rhs, div_eq_mul_inv, mul_inv] <;> bl

/-- The limiters of the class `ThreePhase`, and the DC voltage. -/
noncomputable def lim_three (p : Par) (inp : ℝ → Inp) (conn : ℝ → Bool) : Fin 5 → ℝ → (ThreePhase.V → ℝ) → ℝ :=
  ![fun t y => ‖((((connIf (conn t) (envT p (inp t) y)).Kp_GCC : ℝ)) : ℂ) * (connIf (conn t) (envT p (inp t) y)).ua + (connIf (conn t) (envT p (inp t) y)).xa‖ - (connIf (conn t) (envT p (inp t) y)).m_limit,
    fun t y => ‖((((connIf (conn t) (envT p (inp t) y)).Kp_GCC : ℝ)) : ℂ) * (connIf (conn t) (envT p (inp t) y)).ub + (connIf (conn t) (envT p (inp t) y)).xb‖ - (connIf (conn t) (envT p (inp t) y)).m_limit,
    fun t y => ‖((((connIf (conn t) (envT p (inp t) y)).Kp_GCC : ℝ)) : ℂ) * (connIf (conn t) (envT p (inp t) y)).uc + (connIf (conn t) (envT p (inp t) y)).xc‖ - (connIf (conn t) (envT p (inp t) y)).m_limit,
    fun t y => ‖irefD (connIf (conn t) (envT p (inp t) y))‖ - (connIf (conn t) (envT p (inp t) y)).iref_limit,
    fun t y => -(connIf (conn t) (envT p (inp t) y)).Vdc]

theorem lim_three_iff {p : Par} {inp : ℝ → Inp} {conn : ℝ → Bool} {t η : ℝ} {y : ThreePhase.V → ℝ} : (∀ k, lim_three p inp conn k t y ≤ -η) ↔ MarginD3 η (connIf (conn t) (envT p (inp t) y)) := by
  unfold MarginD3 PhaseMargin lim_three
  simp only [Fin.forall_fin_succ, IsEmpty.forall_iff, and_true, Matrix.cons_val_zero, Matrix.cons_val_succ]
  constructor
  · rintro ⟨h0, h1, h2, h3, h4⟩
    refine ⟨?_, ?_, ?_, ?_, ?_⟩ <;> linarith
  · rintro ⟨h0, h1, h2, h3, h4⟩
    refine ⟨?_, ?_, ?_, ?_, ?_⟩ <;> linarith

theorem limBL_three {p : Par} {inp : ℝ → Inp} {conn : ℝ → Bool} {C : Prop} {T : ℝ} (hi : InpBL C T inp) (hc : C → ∃ c, ∀ t, conn t = c) (R : ℝ) (k : Fin 5) :
    BL C (Icc 0 T) (fun _ => {y | ‖y‖ ≤ R}) (lim_three p inp conn k) := by
  have h := (envTBL p hi (S := fun _ => {y | ‖y‖ ≤ R}) ⟨R, fun t _ y hy => hy⟩).connIf hc
  obtain ⟨f_ia, f_ib, f_ic, f_xa, f_xb, f_xc, f_ua, f_ub, f_uc, f_va, f_vb, f_vc, f_vta, f_vtb, f_vtc, f_ia_ref, f_ib_ref, f_ic_ref, f_S, f_S_PCC, f_Vdc, f_xDC, f_xP, f_xQ, f_xPLL, f_Vrms, f_Vrms_filter, f_vd, f_we, f_winv, f_Ppv, f_Vdc_ref, f_Q_ref, f_Rf, f_Kp_GCC, f_Ki_GCC, f_wp, f_Kp_DC, f_Ki_DC, f_Kp_P, f_Ki_P, f_Kp_Q, f_Ki_Q, f_Ki_PLL, f_m_limit, f_iref_limit, iLf, iwbase, iC, iTfilter_Vrms⟩ := h
  fin_cases k
  · show BL C (Icc 0 T) _ (fun t y => ‖((((connIf (conn t) (envT p (inp t) y)).Kp_GCC : ℝ)) : ℂ) * (connIf (conn t) (envT p (inp t) y)).ua + (connIf (conn t) (envT p (inp t) y)).xa‖ - (connIf (conn t) (envT p (inp t) y)).m_limit)
    bl
  · show BL C (Icc 0 T) _ (fun t y => ‖((((connIf (conn t) (envT p (inp t) y)).Kp_GCC : ℝ)) : ℂ) * (connIf (conn t) (envT p (inp t) y)).ub + (connIf (conn t) (envT p (inp t) y)).xb‖ - (connIf (conn t) (envT p (inp t) y)).m_limit)
    bl
  · show BL C (Icc 0 T) _ (fun t y => ‖((((connIf (conn t) (envT p (inp t) y)).Kp_GCC : ℝ)) : ℂ) * (connIf (conn t) (envT p (inp t) y)).uc + (connIf (conn t) (envT p (inp t) y)).xc‖ - (connIf (conn t) (envT p (inp t) y)).m_limit)
    bl
  · show BL C (Icc 0 T) _ (fun t y => ‖irefD (connIf (conn t) (envT p (inp t) y))‖ - (connIf (conn t) (envT p (inp t) y)).iref_limit)
    simp only [irefD]; bl
  · show BL C (Icc 0 T) _ (fun t y => -(connIf (conn t) (envT p (inp t) y)).Vdc)
    bl

theorem rhsBL_three {p : Par} {inp : ℝ → Inp} {conn : ℝ → Bool} {C : Prop} {T : ℝ} (hi : InpBL C T inp) (hc : C → ∃ c, ∀ t, conn t = c) (R δ : ℝ) (hδ : 0 < δ) (r : ThreePhase.V) :
    BL C (Icc 0 T) (fun t => {y | ‖y‖ ≤ R ∧ ∀ k, lim_three p inp conn k t y ≤ -δ}) (fun t y => ThreePhase.rhs (connIf (conn t) (envT p (inp t) y)) r) := by
  have h := (envTBL p hi (S := fun t => {y | ‖y‖ ≤ R ∧ ∀ k, lim_three p inp conn k t y ≤ -δ}) ⟨R, fun t _ y hy => hy.1⟩).connIf hc
  have hl : ∀ t ∈ Icc 0 T, ∀ y ∈ {y | ‖y‖ ≤ R ∧ ∀ k, lim_three p inp conn k t y ≤ -δ}, MarginD3 δ (connIf (conn t) (envT p (inp t) y)) := fun t _ y hy => lim_three_iff.1 hy.2
  refine rows_three h
    (fun t ht y hy => by have := (hl t ht y hy).1; rw [not_lt]; unfold PhaseMargin at this; linarith)
    (fun t ht y hy => by have := (hl t ht y hy).2.1; rw [not_lt]; unfold PhaseMargin at this; linarith)
    (fun t ht y hy => by have := (hl t ht y hy).2.2.1; rw [not_lt]; unfold PhaseMargin at this; linarith)
    (fun t ht y hy => by have := (hl t ht y hy).2.2.2.1; rw [not_lt]; unfold irefD at this; linarith)
    (h.f_Vdc.inv hδ (fun t ht y hy => (hl t ht y hy).2.2.2.2))
    r

/-- C113, class `ThreePhase`: a small error in the initial state has a bounded effect, as long as no limiter is active along the undisturbed trajectory. -/
theorem C113_depends_three (p : Par) (inp : ℝ → Inp) (conn : ℝ → Bool) (T : ℝ) (hin : ∃ B, InpBounded inp T B) (Y : ℝ → ThreePhase.V → ℝ)
    (hY : ∀ t ∈ Icc 0 T, Solves (fun t y => ThreePhase.rhs (connIf (conn t) (envT p (inp t) y))) Y t) (η : ℝ) (hη : 0 < η)
    (hm : ∀ t ∈ Icc 0 T, MarginD3 η (connIf (conn t) (envT p (inp t) (Y t)))) :
    ∃ ρ > 0, ∃ L, ∀ Z : ℝ → ThreePhase.V → ℝ, (∀ t ∈ Icc 0 T, Solves (fun t y => ThreePhase.rhs (connIf (conn t) (envT p (inp t) y))) Z t) → ‖Z 0 - Y 0‖ < ρ →
      ∀ t ∈ Icc 0 T, ‖Z t - Y t‖ ≤ ‖Z 0 - Y 0‖ * Real.exp (L * t) := by
  obtain ⟨B, hB⟩ := hin
  have hi := hB.bl (C := False) (fun c => c.elim)
  exact depends (limBL_three hi (fun c => c.elim)) (rhsBL_three hi (fun c => c.elim)) hY hη (fun t ht => lim_three_iff.2 (hm t ht))

/-- C113, class `ThreePhase`: the trajectory is determined by its initial state, as long as no limiter is active along it. -/
theorem C113_unique_three (p : Par) (inp : ℝ → Inp) (conn : ℝ → Bool) (T : ℝ) (hin : ∃ B, InpBounded inp T B) (Y Z : ℝ → ThreePhase.V → ℝ)
    (hY : ∀ t ∈ Icc 0 T, Solves (fun t y => ThreePhase.rhs (connIf (conn t) (envT p (inp t) y))) Y t) (hZ : ∀ t ∈ Icc 0 T, Solves (fun t y => ThreePhase.rhs (connIf (conn t) (envT p (inp t) y))) Z t)
    (η : ℝ) (hη : 0 < η) (hm : ∀ t ∈ Icc 0 T, MarginD3 η (connIf (conn t) (envT p (inp t) (Y t)))) (h0 : Z 0 = Y 0) : ∀ t ∈ Icc 0 T, Z t = Y t := by
  intro t ht
  obtain ⟨ρ, hρ, L, h⟩ := C113_depends_three p inp conn T hin Y hY η hη hm
  have := h Z hZ (by rw [h0, sub_self, norm_zero]; exact hρ) t ht
  rw [h0, sub_self, norm_zero, zero_mul] at this
  exact sub_eq_zero.1 (norm_le_zero_iff.1 this)

/-- C113, class `ThreePhase`: with continuous inputs, from every state at which no limiter is active and the DC voltage is positive a trajectory exists for some time. -/
theorem C113_starts_three (p : Par) (inp : ℝ → Inp) (c : Bool) (T : ℝ) (hT : 0 < T) (hin : InpCont inp T) (hTa : ∀ t ∈ Icc 0 T, 0 < (inp t).Tactual)
    (y0 : ThreePhase.V → ℝ) (η : ℝ) (hη : 0 < η) (hm : MarginD3 η (connIf c (envT p (inp 0) y0))) :
    ∃ ε > 0, ε ≤ T ∧ ∃ Y : ℝ → ThreePhase.V → ℝ, Y 0 = y0 ∧ ∀ t ∈ Icc 0 ε, Solves (fun t y => ThreePhase.rhs (connIf c (envT p (inp t) y))) Y t := by
  obtain ⟨B, hB⟩ := hin.bounded hTa
  have hi := hB.bl (C := True) (fun _ => hin)
  exact exists_local trivial hT (limBL_three (conn := fun _ => c) hi (fun _ => ⟨c, fun _ => rfl⟩)) (rhsBL_three (conn := fun _ => c) hi (fun _ => ⟨c, fun _ => rfl⟩)) hη
    (lim_three_iff.2 hm)

/-- C113, class `ThreePhase`: with continuous inputs, a trajectory from a state of a compact set `K` on which no limiter is active exists until it reaches the boundary of `K`. -/
theorem C113_exists_three (p : Par) (inp : ℝ → Inp) (c : Bool) (T : ℝ) (hT : 0 ≤ T) (hin : InpCont inp T) (hTa : ∀ t ∈ Icc 0 T, 0 < (inp t).Tactual)
    (K : Set (ThreePhase.V → ℝ)) (hK : IsCompact K) (η : ℝ) (hη : 0 < η) (hm : ∀ t ∈ Icc 0 T, ∀ y ∈ K, MarginD3 η (connIf c (envT p (inp t) y)))
    (y0 : ThreePhase.V → ℝ) (hy0 : y0 ∈ K) :
    ∃ Y : ℝ → ThreePhase.V → ℝ, Y 0 = y0 ∧ ((∀ t ∈ Icc 0 T, Solves (fun t y => ThreePhase.rhs (connIf c (envT p (inp t) y))) Y t ∧ Y t ∈ K) ∨
      ∃ T' ∈ Icc 0 T, (∀ t ∈ Icc 0 T', Solves (fun t y => ThreePhase.rhs (connIf c (envT p (inp t) y))) Y t ∧ Y t ∈ K) ∧ Y T' ∈ frontier K) := by
  obtain ⟨B, hB⟩ := hin.bounded hTa
  have hi := hB.bl (C := True) (fun _ => hin)
  exact exists_traj trivial hT (limBL_three (conn := fun _ => c) hi (fun _ => ⟨c, fun _ => rfl⟩)) (rhsBL_three (conn := fun _ => c) hi (fun _ => ⟨c, fun _ => rfl⟩)) hK hη
    (fun t ht y hy => lim_three_iff.2 (hm t ht y hy)) hy0

theorem rows_three_no_filter {ι : Type} [Fintype ι] {C : Prop} {T : Set ℝ} {S : ℝ → Set (ι → ℝ)} {e : ℝ → (ι → ℝ) → Env} (h : EnvBL C T S e)
    (hma : ∀ t ∈ T, ∀ y ∈ S t, ¬ (‖(((e t y).Kp_GCC : ℝ) : ℂ) * (e t y).ua + (e t y).xa‖ > (e t y).m_limit))
    (hmb : ∀ t ∈ T, ∀ y ∈ S t, ¬ (‖(((e t y).Kp_GCC : ℝ) : ℂ) * (e t y).ub + (e t y).xb‖ > (e t y).m_limit))
    (hmc : ∀ t ∈ T, ∀ y ∈ S t, ¬ (‖(((e t y).Kp_GCC : ℝ) : ℂ) * (e t y).uc + (e t y).xc‖ > (e t y).m_limit))
    (hir : ∀ t ∈ T, ∀ y ∈ S t, ¬ (‖((((e t y).xDC + ((e t y).Kp_DC * ((e t y).Vdc_ref - (e t y).Vdc))) : ℝ) : ℂ) + (Complex.I * ((((e t y).xQ - ((e t y).Kp_Q * ((e t y).Q_ref - ((e t y).S_PCC).im))) : ℝ) : ℂ))‖ > (e t y).iref_limit))
    (iV : BL C T S (fun t y => (e t y).Vdc⁻¹)) (r : ThreePhaseNoVrmsFilter.V) :
    BL C T S (fun t y => ThreePhaseNoVrmsFilter.rhs (e t y) r) := by
  obtain ⟨f_ia, f_ib, f_ic, f_xa, f_xb, f_xc, f_ua, f_ub, f_uc, f_va, f_vb, f_vc, f_vta, f_vtb, f_vtc, f_ia_ref, f_ib_ref, f_ic_ref, f_S, f_S_PCC, f_Vdc, f_xDC, f_xP, f_xQ, f_xPLL, f_Vrms, f_Vrms_filter, f_vd, f_we, f_winv, f_Ppv, f_Vdc_ref, f_Q_ref, f_Rf, f_Kp_GCC, f_Ki_GCC, f_wp, f_Kp_DC, f_Ki_DC, f_Kp_P, f_Ki_P, f_Kp_Q, f_Ki_Q, f_Ki_PLL, f_m_limit, f_iref_limit, iLf, iwbase, iC, iTfilter_Vrms⟩ := h
  cases r <;> simp only [ThreePhaseNoVrmsFilter.rhs, div_eq_mul_inv, mul_inv] <;> bl

/-- The limiters of the class `ThreePhaseNoVrmsFilter`, and the DC voltage. -/
noncomputable def lim_three_no_filter (p : Par) (inp : ℝ → Inp) (conn : ℝ → Bool) : Fin 5 → ℝ → (ThreePhaseNoVrmsFilter.V → ℝ) → ℝ :=
  ![fun t y => ‖((((connIf (conn t) (envN p (inp t) y)).Kp_GCC : ℝ)) : ℂ) * (connIf (conn t) (envN p (inp t) y)).ua + (connIf (conn t) (envN p (inp t) y)).xa‖ - (connIf (conn t) (envN p (inp t) y)).m_limit,
    fun t y => ‖((((connIf (conn t) (envN p (inp t) y)).Kp_GCC : ℝ)) : ℂ) * (connIf (conn t) (envN p (inp t) y)).ub + (connIf (conn t) (envN p (inp t) y)).xb‖ - (connIf (conn t) (envN p (inp t) y)).m_limit,
    fun t y => ‖((((connIf (conn t) (envN p (inp t) y)).Kp_GCC : ℝ)) : ℂ) * (connIf (conn t) (envN p (inp t) y)).uc + (connIf (conn t) (envN p (inp t) y)).xc‖ - (connIf (conn t) (envN p (inp t) y)).m_limit,
    fun t y => ‖irefD (connIf (conn t) (envN p (inp t) y))‖ - (connIf (conn t) (envN p (inp t) y)).iref_limit,
    fun t y => -(connIf (conn t) (envN p (inp t) y)).Vdc]

theorem lim_three_no_filter_iff {p : Par} {inp : ℝ → Inp} {conn : ℝ → Bool} {t η : ℝ} {y : ThreePhaseNoVrmsFilter.V → ℝ} : (∀ k, lim_three_no_filter p inp conn k t y ≤ -η) ↔ MarginD3 η (connIf (conn t) (envN p (inp t) y)) := by
  unfold MarginD3 PhaseMargin lim_three_no_filter
  simp only [Fin.forall_fin_succ, IsEmpty.forall_iff, and_true, Matrix.cons_val_zero, Matrix.cons_val_succ]
  constructor
  · rintro ⟨h0, h1, h2, h3, h4⟩
    refine ⟨?_, ?_, ?_, ?_, ?_⟩ <;> linarith
  · rintro ⟨h0, h1, h2, h3, h4⟩
    refine ⟨?_, ?_, ?_, ?_, ?_⟩ <;> linarith

theorem limBL_three_no_filter {p : Par} {inp : ℝ → Inp} {conn : ℝ → Bool} {C : Prop} {T : ℝ} (hi : InpBL C T inp) (hc : C → ∃ c, ∀ t, conn t = c) (R : ℝ) (k : Fin 5) :
    BL C (Icc 0 T) (fun _ => {y | ‖y‖ ≤ R}) (lim_three_no_filter p inp conn k) := by
  have h := (envNBL p hi (S := fun _ => {y | ‖y‖ ≤ R}) ⟨R, fun t _ y hy => hy⟩).connIf hc
  obtain ⟨f_ia, f_ib, f_ic, f_xa, f_xb, f_xc, f_ua, f_ub, f_uc, f_va, f_vb, f_vc, f_vta, f_vtb, f_vtc, f_ia_ref, f_ib_ref, f_ic_ref, f_S, f_S_PCC, f_Vdc, f_xDC, f_xP, f_xQ, f_xPLL, f_Vrms, f_Vrms_filter, f_vd, f_we, f_winv, f_Ppv, f_Vdc_ref, f_Q_ref, f_Rf, f_Kp_GCC, f_Ki_GCC, f_wp, f_Kp_DC, f_Ki_DC, f_Kp_P, f_Ki_P, f_Kp_Q, f_Ki_Q, f_Ki_PLL, f_m_limit, f_iref_limit, iLf, iwbase, iC, iTfilter_Vrms⟩ := h
  fin_cases k
  · show BL C (Icc 0 T) _ (fun t y => ‖((((connIf (conn t) (envN p (inp t) y)).Kp_GCC : ℝ)) : ℂ) * (connIf (conn t) (envN p (inp t) y)).ua + (connIf (conn t) (envN p (inp t) y)).xa‖ - (connIf (conn t) (envN p (inp t) y)).m_limit)
    bl
  · show BL C (Icc 0 T) _ (fun t y => ‖((((connIf (conn t) (envN p (inp t) y)).Kp_GCC : ℝ)) : ℂ) * (connIf (conn t) (envN p (inp t) y)).ub + (connIf (conn t) (envN p (inp t) y)).xb‖ - (connIf (conn t) (envN p (inp t) y)).m_limit)
    bl
  · show BL C (Icc 0 T) _ (fun t y => ‖((((connIf (conn t) (envN p (inp t) y)).Kp_GCC : ℝ)) : ℂ) * (connIf (conn t) (envN p (inp t) y)).uc + (connIf (conn t) (envN p (inp t) y)).xc‖ - (connIf (conn t) (envN p (inp t) y)).m_limit)
    bl
  · show BL C (Icc 0 T) _ (fun t y => ‖irefD (connIf (conn t) (envN p (inp t) y))‖ - (connIf (conn t) (envN p (inp t) y)).iref_limit)
    simp only [irefD]; bl
  · show BL C (Icc 0 T) _ (fun t y => -(connIf (conn t) (envN p (inp t) y)).Vdc)
    bl

theorem rhsBL_three_no_filter {p : Par} {inp : ℝ → Inp} {conn : ℝ → Bool} {C : Prop} {T : ℝ} (hi : InpBL C T inp) (hc : C → ∃ c, ∀ t, conn t = c) (R δ : ℝ) (hδ : 0 < δ) (r : ThreePhaseNoVrmsFilter.V) :
    BL C (Icc 0 T) (fun t => {y | ‖y‖ ≤ R ∧ ∀ k, lim_three_no_filter p inp conn k t y ≤ -δ}) (fun t y => ThreePhaseNoVrmsFilter.rhs (connIf (conn t) (envN p (inp t) y)) r) := by
  have h := (envNBL p hi (S := fun t => {y | ‖y‖ ≤ R ∧ ∀ k, lim_three_no_filter p inp conn k t y ≤ -δ}) ⟨R, fun t _ y hy => hy.1⟩).connIf hc
  have hl : ∀ t ∈ Icc 0 T, ∀ y ∈ {y | ‖y‖ ≤ R ∧ ∀ k, lim_three_no_filter p inp conn k t y ≤ -δ}, MarginD3 δ (connIf (conn t) (envN p (inp t) y)) := fun t _ y hy => lim_three_no_filter_iff.1 hy.2
  refine rows_three_no_filter h
    (fun t ht y hy => by have := (hl t ht y hy).1; rw [not_lt]; unfold PhaseMargin at this; linarith)
    (fun t ht y hy => by have := (hl t ht y hy).2.1; rw [not_lt]; unfold PhaseMargin at this; linarith)
    (fun t ht y hy => by have := (hl t ht y hy).2.2.1; rw [not_lt]; unfold PhaseMargin at this; linarith)
    (fun t ht y hy => by have := (hl t ht y hy).2.2.2.1; rw [not_lt]; unfold irefD at this; linarith)
    (h.f_Vdc.inv hδ (fun t ht y hy => (hl t ht y hy).2.2.2.2))
    r

/-- C113, class `ThreePhaseNoVrmsFilter`: a small error in the initial state has a bounded effect, as long as no limiter is active along the undisturbed trajectory. -/
theorem C113_depends_three_no_filter (p : Par) (inp : ℝ → Inp) (conn : ℝ → Bool) (T : ℝ) (hin : ∃ B, InpBounded inp T B) (Y : ℝ → ThreePhaseNoVrmsFilter.V → ℝ)
    (hY : ∀ t ∈ Icc 0 T, Solves (fun t y => ThreePhaseNoVrmsFilter.rhs (connIf (conn t) (envN p (inp t) y))) Y t) (η : ℝ) (hη : 0 < η)
    (hm : ∀ t ∈ Icc 0 T, MarginD3 η (connIf (conn t) (envN p (inp t) (Y t)))) :
    ∃ ρ > 0, ∃ L, ∀ Z : ℝ → ThreePhaseNoVrmsFilter.V → ℝ, (∀ t ∈ Icc 0 T, Solves (fun t y => ThreePhaseNoVrmsFilter.rhs (connIf (conn t) (envN p (inp t) y))) Z t) → ‖Z 0 - Y 0‖ < ρ →
      ∀ t ∈ Icc 0 T, ‖Z t - Y t‖ ≤ ‖Z 0 - Y 0‖ * Real.exp (L * t) := by
  obtain ⟨B, hB⟩ := hin
  have hi := hB.bl (C := False) (fun c => c.elim)
  exact depends (limBL_three_no_filter hi (fun c => c.elim)) (rhsBL_three_no_filter hi (fun c => c.elim)) hY hη (fun t ht => lim_three_no_filter_iff.2 (hm t ht))

/-- C113, class `ThreePhaseNoVrmsFilter`: the trajectory is determined by its initial state, as long as no limiter is active along it. -/
theorem C113_unique_three_no_filter (p : Par) (inp : ℝ → Inp) (conn : ℝ → Bool) (T : ℝ) (hin : ∃ B, InpBounded inp T B) (Y Z : ℝ → ThreePhaseNoVrmsFilter.V → ℝ)
    (hY : ∀ t ∈ Icc 0 T, Solves (fun t y => ThreePhaseNoVrmsFilter.rhs (connIf (conn t) (envN p (inp t) y))) Y t) (hZ : ∀ t ∈ Icc 0 T, Solves (fun t y => ThreePhaseNoVrmsFilter.rhs (connIf (conn t) (envN p (inp t) y))) Z t)
    (η : ℝ) (hη : 0 < η) (hm : ∀ t ∈ Icc 0 T, MarginD3 η (connIf (conn t) (envN p (inp t) (Y t)))) (h0 : Z 0 = Y 0) : ∀ t ∈ Icc 0 T, Z t = Y t := by
  intro t ht
  obtain ⟨ρ, hρ, L, h⟩ := C113_depends_three_no_filter p inp conn T hin Y hY η hη hm
  have := h Z hZ (by rw [h0, sub_self, norm_zero]; exact hρ) t ht
  rw [h0, sub_self, norm_zero, zero_mul] at this
  exact sub_eq_zero.1 (norm_le_zero_iff.1 this)

/-- C113, class `ThreePhaseNoVrmsFilter`: with continuous inputs, from every state at which no limiter is active and the DC voltage is positive a trajectory exists for some time. -/
theorem C113_starts_three_no_filter (p : Par) (inp : ℝ → Inp) (c : Bool) (T : ℝ) (hT : 0 < T) (hin : InpCont inp T) (hTa : ∀ t ∈ Icc 0 T, 0 < (inp t).Tactual)
    (y0 : ThreePhaseNoVrmsFilter.V → ℝ) (η : ℝ) (hη : 0 < η) (hm : MarginD3 η (connIf c (envN p (inp 0) y0))) :
    ∃ ε > 0, ε ≤ T ∧ ∃ Y : ℝ → ThreePhaseNoVrmsFilter.V → ℝ, Y 0 = y0 ∧ ∀ t ∈ Icc 0 ε, Solves (fun t y => ThreePhaseNoVrmsFilter.rhs (connIf c (envN p (inp t) y))) Y t := by
  obtain ⟨B, hB⟩ := hin.bounded hTa
  have hi := hB.bl (C := True) (fun _ => hin)
  exact exists_local trivial hT (limBL_three_no_filter (conn := fun _ => c) hi (fun _ => ⟨c, fun _ => rfl⟩)) (rhsBL_three_no_filter (conn := fun _ => c) hi (fun _ => ⟨c, fun _ => rfl⟩)) hη
    (lim_three_no_filter_iff.2 hm)

/-- C113, class `ThreePhaseNoVrmsFilter`: with continuous inputs, a trajectory from a state of a compact set `K` on which no limiter is active exists until it reaches the boundary of `K`. -/
theorem C113_exists_three_no_filter (p : Par) (inp : ℝ → Inp) (c : Bool) (T : ℝ) (hT : 0 ≤ T) (hin : InpCont inp T) (hTa : ∀ t ∈ Icc 0 T, 0 < (inp t).Tactual)
    (K : Set (ThreePhaseNoVrmsFilter.V → ℝ)) (hK : IsCompact K) (η : ℝ) (hη : 0 < η) (hm : ∀ t ∈ Icc 0 T, ∀ y ∈ K, MarginD3 η (connIf c (envN p (inp t) y)))
    (y0 : ThreePhaseNoVrmsFilter.V → ℝ) (hy0 : y0 ∈ K) :
    ∃ Y : ℝ → ThreePhaseNoVrmsFilter.V → ℝ, Y 0 = y0 ∧ ((∀ t ∈ Icc 0 T, Solves (fun t y => ThreePhaseNoVrmsFilter.rhs (connIf c (envN p (inp t) y))) Y t ∧ Y t ∈ K) ∨
      ∃ T' ∈ Icc 0 T, (∀ t ∈ Icc 0 T', Solves (fun t y => ThreePhaseNoVrmsFilter.rhs (connIf c (envN p (inp t) y))) Y t ∧ Y t ∈ K) ∧ Y T' ∈ frontier K) := by
  obtain ⟨B, hB⟩ := hin.bounded hTa
  have hi := hB.bl (C := True) (fun _ => hin)
  exact exists_traj trivial hT (limBL_three_no_filter (conn := fun _ => c) hi (fun _ => ⟨c, fun _ => rfl⟩)) (rhsBL_three_no_filter (conn := fun _ => c) hi (fun _ => ⟨c, fun _ => rfl⟩)) hK hη
    (fun t ht y hy => lim_three_no_filter_iff.2 (hm t ht y hy)) hy0

theorem rows_three_numba {ι : Type} [Fintype ι] {C : Prop} {T : Set ℝ} {S : ℝ → Set (ι → ℝ)} {e : ℝ → (ι → ℝ) → Env} (h : EnvBL C T S e)
    (hma : ∀ t ∈ T, ∀ y ∈ S t, ¬ (‖(((e t y).Kp_GCC : ℝ) : ℂ) * (e t y).ua + (e t y).xa‖ > (e t y).m_limit))
    (hmb : ∀ t ∈ T, ∀ y ∈ S t, ¬ (‖(((e t y).Kp_GCC : ℝ) : ℂ) * (e t y).ub + (e t y).xb‖ > (e t y).m_limit))
    (hmc : ∀ t ∈ T, ∀ y ∈ S t, ¬ (‖(((e t y).Kp_GCC : ℝ) : ℂ) * (e t y).uc + (e t y).xc‖ > (e t y).m_limit))
    (hir : ∀ t ∈ T, ∀ y ∈ S t, ¬ (‖((((e t y).xDC + ((e t y).Kp_DC * ((e t y).Vdc_ref - (e t y).Vdc))) : ℝ) : ℂ) + (Complex.I * ((((e t y).xQ - ((e t y).Kp_Q * ((e t y).Q_ref - ((e t y).S_PCC).im))) : ℝ) : ℂ))‖ > (e t y).iref_limit))
    (iV : BL C T S (fun t y => (e t y).Vdc⁻¹)) (r : ThreePhaseNumba.V) :
    BL C T S (fun t y => ThreePhaseNumba.rhs (e t y) r) := by
  obtain ⟨f_ia, f_ib, f_ic, f_xa, f_xb, f_xc, f_ua, f_ub, f_uc, f_va, f_vb, f_vc, f_vta, f_vtb, f_vtc, f_ia_ref, f_ib_ref, f_ic_ref, f_S, f_S_PCC, f_Vdc, f_xDC, f_xP, f_xQ, f_xPLL, f_Vrms, f_Vrms_filter, f_vd, f_we, f_winv, f_Ppv, f_Vdc_ref, f_Q_ref, f_Rf, f_Kp_GCC, f_Ki_GCC, f_wp, f_Kp_DC, f_Ki_DC, f_Kp_P, f_Ki_P, f_Kp_Q, f_Ki_Q, f_Ki_PLL, f_m_limit, f_iref_limit, iLf, iwbase, iC, iTfilter_Vrms⟩ := h
  cases r <;> simp only [ThreePhaseNumba.rhs, div_eq_mul_inv, mul_inv] <;> bl

/-- The limiters of the class `ThreePhaseNumba`, and the DC voltage. -/
noncomputable def lim_three_numba (p : Par) (inp : ℝ → Inp) (conn : ℝ → Bool) : Fin 5 → ℝ → (ThreePhaseNumba.V → ℝ) → ℝ :=
  ![fun t y => ‖((((connIf (conn t) (envNumba p (inp t) y)).Kp_GCC : ℝ)) : ℂ) * (connIf (conn t) (envNumba p (inp t) y)).ua + (connIf (conn t) (envNumba p (inp t) y)).xa‖ - (connIf (conn t) (envNumba p (inp t) y)).m_limit,
    fun t y => ‖((((connIf (conn t) (envNumba p (inp t) y)).Kp_GCC : ℝ)) : ℂ) * (connIf (conn t) (envNumba p (inp t) y)).ub + (connIf (conn t) (envNumba p (inp t) y)).xb‖ - (connIf (conn t) (envNumba p (inp t) y)).m_limit,
    fun t y => ‖((((connIf (conn t) (envNumba p (inp t) y)).Kp_GCC : ℝ)) : ℂ) * (connIf (conn t) (envNumba p (inp t) y)).uc + (connIf (conn t) (envNumba p (inp t) y)).xc‖ - (connIf (conn t) (envNumba p (inp t) y)).m_limit,
    fun t y => ‖irefD (connIf (conn t) (envNumba p (inp t) y))‖ - (connIf (conn t) (envNumba p (inp t) y)).iref_limit,
    fun t y => -(connIf (conn t) (envNumba p (inp t) y)).Vdc]

theorem lim_three_numba_iff {p : Par} {inp : ℝ → Inp} {conn : ℝ → Bool} {t η : ℝ} {y : ThreePhaseNumba.V → ℝ} : (∀ k, lim_three_numba p inp conn k t y ≤ -η) ↔ MarginD3 η (connIf (conn t) (envNumba p (inp t) y)) := by
  unfold MarginD3 PhaseMargin lim_three_numba
  simp only [Fin.forall_fin_succ, IsEmpty.forall_iff, and_true, Matrix.cons_val_zero, Matrix.cons_val_succ]
  constructor
  · rintro ⟨h0, h1, h2, h3, h4⟩
    refine ⟨?_, ?_, ?_, ?_, ?_⟩ <;> linarith
  · rintro ⟨h0, h1, h2, h3, h4⟩
    refine ⟨?_, ?_, ?_, ?_, ?_⟩ <;> linarith

theorem limBL_three_numba {p : Par} {inp : ℝ → Inp} {conn : ℝ → Bool} {C : Prop} {T : ℝ} (hi : InpBL C T inp) (hc : C → ∃ c, ∀ t, conn t = c) (R : ℝ) (k : Fin 5) :
    BL C (Icc 0 T) (fun _ => {y | ‖y‖ ≤ R}) (lim_three_numba p inp conn k) := by
  have h := (envNumbaBL p hi (S := fun _ => {y | ‖y‖ ≤ R}) ⟨R, fun t _ y hy => hy⟩).connIf hc
  obtain ⟨f_ia, f_ib, f_ic, f_xa, f_xb, f_xc, f_ua, f_ub, f_uc, f_va, f_vb, f_vc, f_vta, f_vtb, f_vtc, f_ia_ref, f_ib_ref, f_ic_ref, f_S, f_S_PCC, f_Vdc, f_xDC, f_xP, f_xQ, f_xPLL, f_Vrms, f_Vrms_filter, f_vd, f_we, f_winv, f_Ppv, f_Vdc_ref, f_Q_ref, f_Rf, f_Kp_GCC, f_Ki_GCC, f_wp, f_Kp_DC, f_Ki_DC, f_Kp_P, f_Ki_P, f_Kp_Q, f_Ki_Q, f_Ki_PLL, f_m_limit, f_iref_limit, iLf, iwbase, iC, iTfilter_Vrms⟩ := h
  fin_cases k
  · show BL C (Icc 0 T) _ (fun t y => ‖((((connIf (conn t) (envNumba p (inp t) y)).Kp_GCC : ℝ)) : ℂ) * (connIf (conn t) (envNumba p (inp t) y)).ua + (connIf (conn t) (envNumba p (inp t) y)).xa‖ - (connIf (conn t) (envNumba p (inp t) y)).m_limit)
    bl
  · show BL C (Icc 0 T) _ (fun t y => ‖((((connIf (conn t) (envNumba p (inp t) y)).Kp_GCC : ℝ)) : ℂ) * (connIf (conn t) (envNumba p (inp t) y)).ub + (connIf (conn t) (envNumba p (inp t) y)).xb‖ - (connIf (conn t) (envNumba p (inp t) y)).m_limit)
    bl
  · show BL C (Icc 0 T) _ (fun t y => ‖((((connIf (conn t) (envNumba p (inp t) y)).Kp_GCC : ℝ)) : ℂ) * (connIf (conn t) (envNumba p (inp t) y)).uc + (connIf (conn t) (envNumba p (inp t) y)).xc‖ - (connIf (conn t) (envNumba p (inp t) y)).m_limit)
    bl
  · show BL C (Icc 0 T) _ (fun t y => ‖irefD (connIf (conn t) (envNumba p (inp t) y))‖ - (connIf (conn t) (envNumba p (inp t) y)).iref_limit)
    simp only [irefD]; bl
  · show BL C (Icc 0 T) _ (fun t y => -(connIf (conn t) (envNumba p (inp t) y)).Vdc)
    bl

theorem rhsBL_three_numba {p : Par} {inp : ℝ → Inp} {conn : ℝ → Bool} {C : Prop} {T : ℝ} (hi : InpBL C T inp) (hc : C → ∃ c, ∀ t, conn t = c) (R δ : ℝ) (hδ : 0 < δ) (r : ThreePhaseNumba.V) :
    BL C (Icc 0 T) (fun t => {y | ‖y‖ ≤ R ∧ ∀ k, lim_three_numba p inp conn k t y ≤ -δ}) (fun t y => ThreePhaseNumba.rhs (connIf (conn t) (envNumba p (inp t) y)) r) := by
  have h := (envNumbaBL p hi (S := fun t => {y | ‖y‖ ≤ R ∧ ∀ k, lim_three_numba p inp conn k t y ≤ -δ}) ⟨R, fun t _ y hy => hy.1⟩).connIf hc
  have hl : ∀ t ∈ Icc 0 T, ∀ y ∈ {y | ‖y‖ ≤ R ∧ ∀ k, lim_three_numba p inp conn k t y ≤ -δ}, MarginD3 δ (connIf (conn t) (envNumba p (inp t) y)) := fun t _ y hy => lim_three_numba_iff.1 hy.2
  refine rows_three_numba h
    (fun t ht y hy => by have := (hl t ht y hy).1; rw [not_lt]; unfold PhaseMargin at this; linarith)
    (fun t ht y hy => by have := (hl t ht y hy).2.1; rw [not_lt]; unfold PhaseMargin at this; linarith)
    (fun t ht y hy => by have := (hl t ht y hy).2.2.1; rw [not_lt]; unfold PhaseMargin at this; linarith)
    (fun t ht y hy => by have := (hl t ht y hy).2.2.2.1; rw [not_lt]; unfold irefD at this; linarith)
    (h.f_Vdc.inv hδ (fun t ht y hy => (hl t ht y hy).2.2.2.2))
    r

/-- C113, class `ThreePhaseNumba`: a small error in the initial state has a bounded effect, as long as no limiter is active along the undisturbed trajectory. -/
theorem C113_depends_three_numba (p : Par) (inp : ℝ → Inp) (conn : ℝ → Bool) (T : ℝ) (hin : ∃ B, InpBounded inp T B) (Y : ℝ → ThreePhaseNumba.V → ℝ)
    (hY : ∀ t ∈ Icc 0 T, Solves (fun t y => ThreePhaseNumba.rhs (connIf (conn t) (envNumba p (inp t) y))) Y t) (η : ℝ) (hη : 0 < η)
    (hm : ∀ t ∈ Icc 0 T, MarginD3 η (connIf (conn t) (envNumba p (inp t) (Y t)))) :
    ∃ ρ > 0, ∃ L, ∀ Z : ℝ → ThreePhaseNumba.V → ℝ, (∀ t ∈ Icc 0 T, Solves (fun t y => ThreePhaseNumba.rhs (connIf (conn t) (envNumba p (inp t) y))) Z t) → ‖Z 0 - Y 0‖ < ρ →
      ∀ t ∈ Icc 0 T, ‖Z t - Y t‖ ≤ ‖Z 0 - Y 0‖ * Real.exp (L * t) := by
  obtain ⟨B, hB⟩ := hin
  have hi := hB.bl (C := False) (fun c => c.elim)
  exact depends (limBL_three_numba hi (fun c => c.elim)) (rhsBL_three_numba hi (fun c => c.elim)) hY hη (fun t ht => lim_three_numba_iff.2 (hm t ht))

/-- C113, class `ThreePhaseNumba`: the trajectory is determined by its initial state, as long as no limiter is active along it. -/
theorem C113_unique_three_numba (p : Par) (inp : ℝ → Inp) (conn : ℝ → Bool) (T : ℝ) (hin : ∃ B, InpBounded inp T B) (Y Z : ℝ → ThreePhaseNumba.V → ℝ)
    (hY : ∀ t ∈ Icc 0 T, Solves (fun t y => ThreePhaseNumba.rhs (connIf (conn t) (envNumba p (inp t) y))) Y t) (hZ : ∀ t ∈ Icc 0 T, Solves (fun t y => ThreePhaseNumba.rhs (connIf (conn t) (envNumba p (inp t) y))) Z t)
    (η : ℝ) (hη : 0 < η) (hm : ∀ t ∈ Icc 0 T, MarginD3 η (connIf (conn t) (envNumba p (inp t) (Y t)))) (h0 : Z 0 = Y 0) : ∀ t ∈ Icc 0 T, Z t = Y t := by
  intro t ht
  obtain ⟨ρ, hρ, L, h⟩ := C113_depends_three_numba p inp conn T hin Y hY η hη hm
  have := h Z hZ (by rw [h0, sub_self, norm_zero]; exact hρ) t ht
  rw [h0, sub_self, norm_zero, zero_mul] at this
  exact sub_eq_zero.1 (norm_le_zero_iff.1 this)

/-- C113, class `ThreePhaseNumba`: with continuous inputs, from every state at which no limiter is active and the DC voltage is positive a trajectory exists for some time. -/
theorem C113_starts_three_numba (p : Par) (inp : ℝ → Inp) (c : Bool) (T : ℝ) (hT : 0 < T) (hin : InpCont inp T) (hTa : ∀ t ∈ Icc 0 T, 0 < (inp t).Tactual)
    (y0 : ThreePhaseNumba.V → ℝ) (η : ℝ) (hη : 0 < η) (hm : MarginD3 η (connIf c (envNumba p (inp 0) y0))) :
    ∃ ε > 0, ε ≤ T ∧ ∃ Y : ℝ → ThreePhaseNumba.V → ℝ, Y 0 = y0 ∧ ∀ t ∈ Icc 0 ε, Solves (fun t y => ThreePhaseNumba.rhs (connIf c (envNumba p (inp t) y))) Y t := by
  obtain ⟨B, hB⟩ := hin.bounded hTa
  have hi := hB.bl (C := True) (fun _ => hin)
  exact exists_local trivial hT (limBL_three_numba (conn := fun _ => c) hi (fun _ => ⟨c, fun _ => rfl⟩)) (rhsBL_three_numba (conn := fun _ => c) hi (fun _ => ⟨c, fun _ => rfl⟩)) hη
    (lim_three_numba_iff.2 hm)

/-- C113, class `ThreePhaseNumba`: with continuous inputs, a trajectory from a state of a compact set `K` on which no limiter is active exists until it reaches the boundary of `K`. -/
theorem C113_exists_three_numba (p : Par) (inp : ℝ → Inp) (c : Bool) (T : ℝ) (hT : 0 ≤ T) (hin : InpCont inp T) (hTa : ∀ t ∈ Icc 0 T, 0 < (inp t).Tactual)
    (K : Set (ThreePhaseNumba.V → ℝ)) (hK : IsCompact K) (η : ℝ) (hη : 0 < η) (hm : ∀ t ∈ Icc 0 T, ∀ y ∈ K, MarginD3 η (connIf c (envNumba p (inp t) y)))
    (y0 : ThreePhaseNumba.V → ℝ) (hy0 : y0 ∈ K) :
    ∃ Y : ℝ → ThreePhaseNumba.V → ℝ, Y 0 = y0 ∧ ((∀ t ∈ Icc 0 T, Solves (fun t y => ThreePhaseNumba.rhs (connIf c (envNumba p (inp t) y))) Y t ∧ Y t ∈ K) ∨
      ∃ T' ∈ Icc 0 T, (∀ t ∈ Icc 0 T', Solves (fun t y => ThreePhaseNumba.rhs (connIf c (envNumba p (inp t) y))) Y t ∧ Y t ∈ K) ∧ Y T' ∈ frontier K) := by
  obtain ⟨B, hB⟩ := hin.bounded hTa
  have hi := hB.bl (C := True) (fun _ => hin)
  exact exists_traj trivial hT (limBL_three_numba (conn := fun _ => c) hi (fun _ => ⟨c, fun _ => rfl⟩)) (rhsBL_three_numba (conn := fun _ => c) hi (fun _ => ⟨c, fun _ => rfl⟩)) hK hη
    (fun t ht y hy => lim_three_numba_iff.2 (hm t ht y hy)) hy0

theorem rows_balanced {ι : Type} [Fintype ι] {C : Prop} {T : Set ℝ} {S : ℝ → Set (ι → ℝ)} {e : ℝ → (ι → ℝ) → Env} (h : EnvBL C T S e)
    (hma : ∀ t ∈ T, ∀ y ∈ S t, ¬ (‖(((e t y).Kp_GCC : ℝ) : ℂ) * (e t y).ua + (e t y).xa‖ > (e t y).m_limit))
    (hir : ∀ t ∈ T, ∀ y ∈ S t, ¬ (‖((((e t y).xDC + ((e t y).Kp_DC * ((e t y).Vdc_ref - (e t y).Vdc))) : ℝ) : ℂ) + (Complex.I * ((((e t y).xQ - ((e t y).Kp_Q * ((e t y).Q_ref - ((e t y).S_PCC).im))) : ℝ) : ℂ))‖ > (e t y).iref_limit))
    (iV : BL C T S (fun t y => (e t y).Vdc⁻¹)) (r : ThreePhaseBalanced.V) :
    BL C T S (fun t y => ThreePhaseBalanced.rhs (e t y) r) := by
  obtain ⟨f_ia, f_ib, f_ic, f_xa, f_xb, f_xc, f_ua, f_ub, f_uc, f_va, f_vb, f_vc, f_vta, f_vtb, f_vtc, f_ia_ref, f_ib_ref, f_ic_ref, f_S, f_S_PCC, f_Vdc, f_xDC, f_xP, f_xQ, f_xPLL, f_Vrms, f_Vrms_filter, f_vd, f_we, f_winv, f_Ppv, f_Vdc_ref, f_Q_ref, f_Rf, f_Kp_GCC, f_Ki_GCC, f_wp, f_Kp_DC, f_Ki_DC, f_Kp_P, f_Ki_P, f_Kp_Q, f_Ki_Q, f_Ki_PLL, f_m_limit, f_iref_limit, iLf, iwbase, iC, iTfilter_Vrms⟩ := h
  cases r <;> simp only [ThreePhaseBalanced.rhs, div_eq_mul_inv, mul_inv] <;> bl

/-- The limiters of the class `ThreePhaseBalanced`, and the DC voltage. -/
noncomputable def lim_balanced (p : Par) (inp : ℝ → Inp) (conn : ℝ → Bool) : Fin 3 → ℝ → (ThreePhaseBalanced.V → ℝ) → ℝ :=
  ![fun t y => ‖((((connIf (conn t) (envB p (inp t) y)).Kp_GCC : ℝ)) : ℂ) * (connIf (conn t) (envB p (inp t) y)).ua + (connIf (conn t) (envB p (inp t) y)).xa‖ - (connIf (conn t) (envB p (inp t) y)).m_limit,
    fun t y => ‖irefD (connIf (conn t) (envB p (inp t) y))‖ - (connIf (conn t) (envB p (inp t) y)).iref_limit,
    fun t y => -(connIf (conn t) (envB p (inp t) y)).Vdc]

theorem lim_balanced_iff {p : Par} {inp : ℝ → Inp} {conn : ℝ → Bool} {t η : ℝ} {y : ThreePhaseBalanced.V → ℝ} : (∀ k, lim_balanced p inp conn k t y ≤ -η) ↔ MarginD1 η (connIf (conn t) (envB p (inp t) y)) := by
  unfold MarginD1 PhaseMargin lim_balanced
  simp only [Fin.forall_fin_succ, IsEmpty.forall_iff, and_true, Matrix.cons_val_zero, Matrix.cons_val_succ]
  constructor
  · rintro ⟨h0, h1, h2⟩
    refine ⟨?_, ?_, ?_⟩ <;> linarith
  · rintro ⟨h0, h1, h2⟩
    refine ⟨?_, ?_, ?_⟩ <;> linarith

theorem limBL_balanced {p : Par} {inp : ℝ → Inp} {conn : ℝ → Bool} {C : Prop} {T : ℝ} (hi : InpBL C T inp) (hc : C → ∃ c, ∀ t, conn t = c) (R : ℝ) (k : Fin 3) :
    BL C (Icc 0 T) (fun _ => {y | ‖y‖ ≤ R}) (lim_balanced p inp conn k) := by
  have h := (envBBL p hi (S := fun _ => {y | ‖y‖ ≤ R}) ⟨R, fun t _ y hy => hy⟩).connIf hc
  obtain ⟨f_ia, f_ib, f_ic, f_xa, f_xb, f_xc, f_ua, f_ub, f_uc, f_va, f_vb, f_vc, f_vta, f_vtb, f_vtc, f_ia_ref, f_ib_ref, f_ic_ref, f_S, f_S_PCC, f_Vdc, f_xDC, f_xP, f_xQ, f_xPLL, f_Vrms, f_Vrms_filter, f_vd, f_we, f_winv, f_Ppv, f_Vdc_ref, f_Q_ref, f_Rf, f_Kp_GCC, f_Ki_GCC, f_wp, f_Kp_DC, f_Ki_DC, f_Kp_P, f_Ki_P, f_Kp_Q, f_Ki_Q, f_Ki_PLL, f_m_limit, f_iref_limit, iLf, iwbase, iC, iTfilter_Vrms⟩ := h
  fin_cases k
  · show BL C (Icc 0 T) _ (fun t y => ‖((((connIf (conn t) (envB p (inp t) y)).Kp_GCC : ℝ)) : ℂ) * (connIf (conn t) (envB p (inp t) y)).ua + (connIf (conn t) (envB p (inp t) y)).xa‖ - (connIf (conn t) (envB p (inp t) y)).m_limit)
    bl
  · show BL C (Icc 0 T) _ (fun t y => ‖irefD (connIf (conn t) (envB p (inp t) y))‖ - (connIf (conn t) (envB p (inp t) y)).iref_limit)
    simp only [irefD]; bl
  · show BL C (Icc 0 T) _ (fun t y => -(connIf (conn t) (envB p (inp t) y)).Vdc)
    bl

theorem rhsBL_balanced {p : Par} {inp : ℝ → Inp} {conn : ℝ → Bool} {C : Prop} {T : ℝ} (hi : InpBL C T inp) (hc : C → ∃ c, ∀ t, conn t = c) (R δ : ℝ) (hδ : 0 < δ) (r : ThreePhaseBalanced.V) :
    BL C (Icc 0 T) (fun t => {y | ‖y‖ ≤ R ∧ ∀ k, lim_balanced p inp conn k t y ≤ -δ}) (fun t y => ThreePhaseBalanced.rhs (connIf (conn t) (envB p (inp t) y)) r) := by
  have h := (envBBL p hi (S := fun t => {y | ‖y‖ ≤ R ∧ ∀ k, lim_balanced p inp conn k t y ≤ -δ}) ⟨R, fun t _ y hy => hy.1⟩).connIf hc
  have hl : ∀ t ∈ Icc 0 T, ∀ y ∈ {y | ‖y‖ ≤ R ∧ ∀ k, lim_balanced p inp conn k t y ≤ -δ}, MarginD1 δ (connIf (conn t) (envB p (inp t) y)) := fun t _ y hy => lim_balanced_iff.1 hy.2
  refine rows_balanced h
    (fun t ht y hy => by have := (hl t ht y hy).1; rw [not_lt]; unfold PhaseMargin at this; linarith)
    (fun t ht y hy => by have := (hl t ht y hy).2.1; rw [not_lt]; unfold irefD at this; linarith)
    (h.f_Vdc.inv hδ (fun t ht y hy => (hl t ht y hy).2.2))
    r

/-- C113, class `ThreePhaseBalanced`: a small error in the initial state has a bounded effect, as long as no limiter is active along the undisturbed trajectory. -/
theorem C113_depends_balanced (p : Par) (inp : ℝ → Inp) (conn : ℝ → Bool) (T : ℝ) (hin : ∃ B, InpBounded inp T B) (Y : ℝ → ThreePhaseBalanced.V → ℝ)
    (hY : ∀ t ∈ Icc 0 T, Solves (fun t y => ThreePhaseBalanced.rhs (connIf (conn t) (envB p (inp t) y))) Y t) (η : ℝ) (hη : 0 < η)
    (hm : ∀ t ∈ Icc 0 T, MarginD1 η (connIf (conn t) (envB p (inp t) (Y t)))) :
    ∃ ρ > 0, ∃ L, ∀ Z : ℝ → ThreePhaseBalanced.V → ℝ, (∀ t ∈ Icc 0 T, Solves (fun t y => ThreePhaseBalanced.rhs (connIf (conn t) (envB p (inp t) y))) Z t) → ‖Z 0 - Y 0‖ < ρ →
      ∀ t ∈ Icc 0 T, ‖Z t - Y t‖ ≤ ‖Z 0 - Y 0‖ * Real.exp (L * t) := by
  obtain ⟨B, hB⟩ := hin
  have hi := hB.bl (C := False) (fun c => c.elim)
  exact depends (limBL_balanced hi (fun c => c.elim)) (rhsBL_balanced hi (fun c => c.elim)) hY hη (fun t ht => lim_balanced_iff.2 (hm t ht))

/-- C113, class `ThreePhaseBalanced`: the trajectory is determined by its initial state, as long as no limiter is active along it. -/
theorem C113_unique_balanced (p : Par) (inp : ℝ → Inp) (conn : ℝ → Bool) (T : ℝ) (hin : ∃ B, InpBounded inp T B) (Y Z : ℝ → ThreePhaseBalanced.V → ℝ)
    (hY : ∀ t ∈ Icc 0 T, Solves (fun t y => ThreePhaseBalanced.rhs (connIf (conn t) (envB p (inp t) y))) Y t) (hZ : ∀ t ∈ Icc 0 T, Solves (fun t y => ThreePhaseBalanced.rhs (connIf (conn t) (envB p (inp t) y))) Z t)
    (η : ℝ) (hη : 0 < η) (hm : ∀ t ∈ Icc 0 T, MarginD1 η (connIf (conn t) (envB p (inp t) (Y t)))) (h0 : Z 0 = Y 0) : ∀ t ∈ Icc 0 T, Z t = Y t := by
  intro t ht
  obtain ⟨ρ, hρ, L, h⟩ := C113_depends_balanced p inp conn T hin Y hY η hη hm
  have := h Z hZ (by rw [h0, sub_self, norm_zero]; exact hρ) t ht
  rw [h0, sub_self, norm_zero, zero_mul] at this
  exact sub_eq_zero.1 (norm_le_zero_iff.1 this)

/-- C113, class `ThreePhaseBalanced`: with continuous inputs, from every state at which no limiter is active and the DC voltage is positive a trajectory exists for some time. -/
theorem C113_starts_balanced (p : Par) (inp : ℝ → Inp) (c : Bool) (T : ℝ) (hT : 0 < T) (hin : InpCont inp T) (hTa : ∀ t ∈ Icc 0 T, 0 < (inp t).Tactual)
    (y0 : ThreePhaseBalanced.V → ℝ) (η : ℝ) (hη : 0 < η) (hm : MarginD1 η (connIf c (envB p (inp 0) y0))) :
    ∃ ε > 0, ε ≤ T ∧ ∃ Y : ℝ → ThreePhaseBalanced.V → ℝ, Y 0 = y0 ∧ ∀ t ∈ Icc 0 ε, Solves (fun t y => ThreePhaseBalanced.rhs (connIf c (envB p (inp t) y))) Y t := by
  obtain ⟨B, hB⟩ := hin.bounded hTa
  have hi := hB.bl (C := True) (fun _ => hin)
  exact exists_local trivial hT (limBL_balanced (conn := fun _ => c) hi (fun _ => ⟨c, fun _ => rfl⟩)) (rhsBL_balanced (conn := fun _ => c) hi (fun _ => ⟨c, fun _ => rfl⟩)) hη
    (lim_balanced_iff.2 hm)

/-- C113, class `ThreePhaseBalanced`: with continuous inputs, a trajectory from a state of a compact set `K` on which no limiter is active exists until it reaches the boundary of `K`. -/
theorem C113_exists_balanced (p : Par) (inp : ℝ → Inp) (c : Bool) (T : ℝ) (hT : 0 ≤ T) (hin : InpCont inp T) (hTa : ∀ t ∈ Icc 0 T, 0 < (inp t).Tactual)
    (K : Set (ThreePhaseBalanced.V → ℝ)) (hK : IsCompact K) (η : ℝ) (hη : 0 < η) (hm : ∀ t ∈ Icc 0 T, ∀ y ∈ K, MarginD1 η (connIf c (envB p (inp t) y)))
    (y0 : ThreePhaseBalanced.V → ℝ) (hy0 : y0 ∈ K) :
    ∃ Y : ℝ → ThreePhaseBalanced.V → ℝ, Y 0 = y0 ∧ ((∀ t ∈ Icc 0 T, Solves (fun t y => ThreePhaseBalanced.rhs (connIf c (envB p (inp t) y))) Y t ∧ Y t ∈ K) ∨
      ∃ T' ∈ Icc 0 T, (∀ t ∈ Icc 0 T', Solves (fun t y => ThreePhaseBalanced.rhs (connIf c (envB p (inp t) y))) Y t ∧ Y t ∈ K) ∧ Y T' ∈ frontier K) := by
  obtain ⟨B, hB⟩ := hin.bounded hTa
  have hi := hB.bl (C := True) (fun _ => hin)
  exact exists_traj trivial hT (limBL_balanced (conn := fun _ => c) hi (fun _ => ⟨c, fun _ => rfl⟩)) (rhsBL_balanced (conn := fun _ => c) hi (fun _ => ⟨c, fun _ => rfl⟩)) hK hη
    (fun t ht y hy => lim_balanced_iff.2 (hm t ht y hy)) hy0

theorem rows_single_constant_vdc {ι : Type} [Fintype ι] {C : Prop} {T : Set ℝ} {S : ℝ → Set (ι → ℝ)} {e : ℝ → (ι → ℝ) → Env} (h : EnvBL C T S e)
    (hma : ∀ t ∈ T, ∀ y ∈ S t, ¬ (‖(((e t y).Kp_GCC : ℝ) : ℂ) * (e t y).ua + (e t y).xa‖ > (e t y).m_limit))
    (hir : ∀ t ∈ T, ∀ y ∈ S t, ¬ (‖((((e t y).xP + ((e t y).Kp_P * ((e t y).Ppv - ((e t y).S).re))) : ℝ) : ℂ) + (Complex.I * ((((e t y).xQ - ((e t y).Kp_Q * ((e t y).Q_ref - ((e t y).S_PCC).im))) : ℝ) : ℂ))‖ > (e t y).iref_limit)) (r : SinglePhaseConstantVdc.V) :
    BL C T S (fun t y => SinglePhaseConstantVdc.rhs (e t y) r) := by
  obtain ⟨f_ia, f_ib, f_ic, f_xa, f_xb, f_xc, f_ua, f_ub, f_uc, f_va, f_vb, f_vc, f_vta, f_vtb, f_vtc, f_ia_ref, f_ib_ref, f_ic_ref, f_S, f_S_PCC, f_Vdc, f_xDC, f_xP, f_xQ, f_xPLL, f_Vrms, f_Vrms_filter, f_vd, f_we, f_winv, f_Ppv, f_Vdc_ref, f_Q_ref, f_Rf, f_Kp_GCC, f_Ki_GCC, f_wp, f_Kp_DC, f_Ki_DC, f_Kp_P, f_Ki_P, f_Kp_Q, f_Ki_Q, f_Ki_PLL, f_m_limit, f_iref_limit, iLf, iwbase, iC, iTfilter_Vrms⟩ := h
  cases r <;> simp only [SinglePhaseConstantVdc.rhs, div_eq_mul_inv, mul_inv] <;> bl

/-- The limiters of the class `SinglePhaseConstantVdc`, and the DC voltage. -/
noncomputable def lim_single_constant_vdc (p : Par) (inp : ℝ → Inp) (conn : ℝ → Bool) : Fin 2 → ℝ → (SinglePhaseConstantVdc.V → ℝ) → ℝ :=
  ![fun t y => ‖((((connIf (conn t) (envC1 p (inp t) y)).Kp_GCC : ℝ)) : ℂ) * (connIf (conn t) (envC1 p (inp t) y)).ua + (connIf (conn t) (envC1 p (inp t) y)).xa‖ - (connIf (conn t) (envC1 p (inp t) y)).m_limit,
    fun t y => ‖irefP (connIf (conn t) (envC1 p (inp t) y))‖ - (connIf (conn t) (envC1 p (inp t) y)).iref_limit]

theorem lim_single_constant_vdc_iff {p : Par} {inp : ℝ → Inp} {conn : ℝ → Bool} {t η : ℝ} {y : SinglePhaseConstantVdc.V → ℝ} : (∀ k, lim_single_constant_vdc p inp conn k t y ≤ -η) ↔ MarginP1 η (connIf (conn t) (envC1 p (inp t) y)) := by
  unfold MarginP1 PhaseMargin lim_single_constant_vdc
  simp only [Fin.forall_fin_succ, IsEmpty.forall_iff, and_true, Matrix.cons_val_zero, Matrix.cons_val_succ]
  constructor
  · rintro ⟨h0, h1⟩
    refine ⟨?_, ?_⟩ <;> linarith
  · rintro ⟨h0, h1⟩
    refine ⟨?_, ?_⟩ <;> linarith

theorem limBL_single_constant_vdc {p : Par} {inp : ℝ → Inp} {conn : ℝ → Bool} {C : Prop} {T : ℝ} (hi : InpBL C T inp) (hc : C → ∃ c, ∀ t, conn t = c) (R : ℝ) (k : Fin 2) :
    BL C (Icc 0 T) (fun _ => {y | ‖y‖ ≤ R}) (lim_single_constant_vdc p inp conn k) := by
  have h := (envC1BL p hi (S := fun _ => {y | ‖y‖ ≤ R}) ⟨R, fun t _ y hy => hy⟩).connIf hc
  obtain ⟨f_ia, f_ib, f_ic, f_xa, f_xb, f_xc, f_ua, f_ub, f_uc, f_va, f_vb, f_vc, f_vta, f_vtb, f_vtc, f_ia_ref, f_ib_ref, f_ic_ref, f_S, f_S_PCC, f_Vdc, f_xDC, f_xP, f_xQ, f_xPLL, f_Vrms, f_Vrms_filter, f_vd, f_we, f_winv, f_Ppv, f_Vdc_ref, f_Q_ref, f_Rf, f_Kp_GCC, f_Ki_GCC, f_wp, f_Kp_DC, f_Ki_DC, f_Kp_P, f_Ki_P, f_Kp_Q, f_Ki_Q, f_Ki_PLL, f_m_limit, f_iref_limit, iLf, iwbase, iC, iTfilter_Vrms⟩ := h
  fin_cases k
  · show BL C (Icc 0 T) _ (fun t y => ‖((((connIf (conn t) (envC1 p (inp t) y)).Kp_GCC : ℝ)) : ℂ) * (connIf (conn t) (envC1 p (inp t) y)).ua + (connIf (conn t) (envC1 p (inp t) y)).xa‖ - (connIf (conn t) (envC1 p (inp t) y)).m_limit)
    bl
  · show BL C (Icc 0 T) _ (fun t y => ‖irefP (connIf (conn t) (envC1 p (inp t) y))‖ - (connIf (conn t) (envC1 p (inp t) y)).iref_limit)
    simp only [irefP]; bl

theorem rhsBL_single_constant_vdc {p : Par} {inp : ℝ → Inp} {conn : ℝ → Bool} {C : Prop} {T : ℝ} (hi : InpBL C T inp) (hc : C → ∃ c, ∀ t, conn t = c) (R δ : ℝ) (hδ : 0 < δ) (r : SinglePhaseConstantVdc.V) :
    BL C (Icc 0 T) (fun t => {y | ‖y‖ ≤ R ∧ ∀ k, lim_single_constant_vdc p inp conn k t y ≤ -δ}) (fun t y => SinglePhaseConstantVdc.rhs (connIf (conn t) (envC1 p (inp t) y)) r) := by
  have h := (envC1BL p hi (S := fun t => {y | ‖y‖ ≤ R ∧ ∀ k, lim_single_constant_vdc p inp conn k t y ≤ -δ}) ⟨R, fun t _ y hy => hy.1⟩).connIf hc
  have hl : ∀ t ∈ Icc 0 T, ∀ y ∈ {y | ‖y‖ ≤ R ∧ ∀ k, lim_single_constant_vdc p inp conn k t y ≤ -δ}, MarginP1 δ (connIf (conn t) (envC1 p (inp t) y)) := fun t _ y hy => lim_single_constant_vdc_iff.1 hy.2
  refine rows_single_constant_vdc h
    (fun t ht y hy => by have := (hl t ht y hy).1; rw [not_lt]; unfold PhaseMargin at this; linarith)
    (fun t ht y hy => by have := (hl t ht y hy).2; rw [not_lt]; unfold irefP at this; linarith)
    r

/-- C113, class `SinglePhaseConstantVdc`: a small error in the initial state has a bounded effect, as long as no limiter is active along the undisturbed trajectory. -/
theorem C113_depends_single_constant_vdc (p : Par) (inp : ℝ → Inp) (conn : ℝ → Bool) (T : ℝ) (hin : ∃ B, InpBounded inp T B) (Y : ℝ → SinglePhaseConstantVdc.V → ℝ)
    (hY : ∀ t ∈ Icc 0 T, Solves (fun t y => SinglePhaseConstantVdc.rhs (connIf (conn t) (envC1 p (inp t) y))) Y t) (η : ℝ) (hη : 0 < η)
    (hm : ∀ t ∈ Icc 0 T, MarginP1 η (connIf (conn t) (envC1 p (inp t) (Y t)))) :
    ∃ ρ > 0, ∃ L, ∀ Z : ℝ → SinglePhaseConstantVdc.V → ℝ, (∀ t ∈ Icc 0 T, Solves (fun t y => SinglePhaseConstantVdc.rhs (connIf (conn t) (envC1 p (inp t) y))) Z t) → ‖Z 0 - Y 0‖ < ρ →
      ∀ t ∈ Icc 0 T, ‖Z t - Y t‖ ≤ ‖Z 0 - Y 0‖ * Real.exp (L * t) := by
  obtain ⟨B, hB⟩ := hin
  have hi := hB.bl (C := False) (fun c => c.elim)
  exact depends (limBL_single_constant_vdc hi (fun c => c.elim)) (rhsBL_single_constant_vdc hi (fun c => c.elim)) hY hη (fun t ht => lim_single_constant_vdc_iff.2 (hm t ht))

/-- C113, class `SinglePhaseConstantVdc`: the trajectory is determined by its initial state, as long as no limiter is active along it. -/
theorem C113_unique_single_constant_vdc (p : Par) (inp : ℝ → Inp) (conn : ℝ → Bool) (T : ℝ) (hin : ∃ B, InpBounded inp T B) (Y Z : ℝ → SinglePhaseConstantVdc.V → ℝ)
    (hY : ∀ t ∈ Icc 0 T, Solves (fun t y => SinglePhaseConstantVdc.rhs (connIf (conn t) (envC1 p (inp t) y))) Y t) (hZ : ∀ t ∈ Icc 0 T, Solves (fun t y => SinglePhaseConstantVdc.rhs (connIf (conn t) (envC1 p (inp t) y))) Z t)
    (η : ℝ) (hη : 0 < η) (hm : ∀ t ∈ Icc 0 T, MarginP1 η (connIf (conn t) (envC1 p (inp t) (Y t)))) (h0 : Z 0 = Y 0) : ∀ t ∈ Icc 0 T, Z t = Y t := by
  intro t ht
  obtain ⟨ρ, hρ, L, h⟩ := C113_depends_single_constant_vdc p inp conn T hin Y hY η hη hm
  have := h Z hZ (by rw [h0, sub_self, norm_zero]; exact hρ) t ht
  rw [h0, sub_self, norm_zero, zero_mul] at this
  exact sub_eq_zero.1 (norm_le_zero_iff.1 this)

/-- C113, class `SinglePhaseConstantVdc`: with continuous inputs, from every state at which no limiter is active and the DC voltage is positive a trajectory exists for some time. -/
theorem C113_starts_single_constant_vdc (p : Par) (inp : ℝ → Inp) (c : Bool) (T : ℝ) (hT : 0 < T) (hin : InpCont inp T) (hTa : ∀ t ∈ Icc 0 T, 0 < (inp t).Tactual)
    (y0 : SinglePhaseConstantVdc.V → ℝ) (η : ℝ) (hη : 0 < η) (hm : MarginP1 η (connIf c (envC1 p (inp 0) y0))) :
    ∃ ε > 0, ε ≤ T ∧ ∃ Y : ℝ → SinglePhaseConstantVdc.V → ℝ, Y 0 = y0 ∧ ∀ t ∈ Icc 0 ε, Solves (fun t y => SinglePhaseConstantVdc.rhs (connIf c (envC1 p (inp t) y))) Y t := by
  obtain ⟨B, hB⟩ := hin.bounded hTa
  have hi := hB.bl (C := True) (fun _ => hin)
  exact exists_local trivial hT (limBL_single_constant_vdc (conn := fun _ => c) hi (fun _ => ⟨c, fun _ => rfl⟩)) (rhsBL_single_constant_vdc (conn := fun _ => c) hi (fun _ => ⟨c, fun _ => rfl⟩)) hη
    (lim_single_constant_vdc_iff.2 hm)

/-- C113, class `SinglePhaseConstantVdc`: with continuous inputs, a trajectory from a state of a compact set `K` on which no limiter is active exists until it reaches the boundary of `K`. -/
theorem C113_exists_single_constant_vdc (p : Par) (inp : ℝ → Inp) (c : Bool) (T : ℝ) (hT : 0 ≤ T) (hin : InpCont inp T) (hTa : ∀ t ∈ Icc 0 T, 0 < (inp t).Tactual)
    (K : Set (SinglePhaseConstantVdc.V → ℝ)) (hK : IsCompact K) (η : ℝ) (hη : 0 < η) (hm : ∀ t ∈ Icc 0 T, ∀ y ∈ K, MarginP1 η (connIf c (envC1 p (inp t) y)))
    (y0 : SinglePhaseConstantVdc.V → ℝ) (hy0 : y0 ∈ K) :
    ∃ Y : ℝ → SinglePhaseConstantVdc.V → ℝ, Y 0 = y0 ∧ ((∀ t ∈ Icc 0 T, Solves (fun t y => SinglePhaseConstantVdc.rhs (connIf c (envC1 p (inp t) y))) Y t ∧ Y t ∈ K) ∨
      ∃ T' ∈ Icc 0 T, (∀ t ∈ Icc 0 T', Solves (fun t y => SinglePhaseConstantVdc.rhs (connIf c (envC1 p (inp t) y))) Y t ∧ Y t ∈ K) ∧ Y T' ∈ frontier K) := by
  obtain ⟨B, hB⟩ := hin.bounded hTa
  have hi := hB.bl (C := True) (fun _ => hin)
  exact exists_traj trivial hT (limBL_single_constant_vdc (conn := fun _ => c) hi (fun _ => ⟨c, fun _ => rfl⟩)) (rhsBL_single_constant_vdc (conn := fun _ => c) hi (fun _ => ⟨c, fun _ => rfl⟩)) hK hη
    (fun t ht y hy => lim_single_constant_vdc_iff.2 (hm t ht y hy)) hy0

theorem rows_three_constant_vdc {ι : Type} [Fintype ι] {C : Prop} {T : Set ℝ} {S : ℝ → Set (ι → ℝ)} {e : ℝ → (ι → ℝ) → Env} (h : EnvBL C T S e)
    (hma : ∀ t ∈ T, ∀ y ∈ S t, ¬ (‖(((e t y).Kp_GCC : ℝ) : ℂ) * (e t y).ua + (e t y).xa‖ > (e t y).m_limit))
    (hmb : ∀ t ∈ T, ∀ y ∈ S t, ¬ (‖(((e t y).Kp_GCC : ℝ) : ℂ) * (e t y).ub + (e t y).xb‖ > (e t y).m_limit))
    (hmc : ∀ t ∈ T, ∀ y ∈ S t, ¬ (‖(((e t y).Kp_GCC : ℝ) : ℂ) * (e t y).uc + (e t y).xc‖ > (e t y).m_limit))
    (hir : ∀ t ∈ T, ∀ y ∈ S t, ¬ (‖((((e t y).xP + ((e t y).Kp_P * ((e t y).Ppv - ((e t y).S).re))) : ℝ) : ℂ) + (Complex.I * ((((e t y).xQ - ((e t y).Kp_Q * ((e t y).Q_ref - ((e t y).S_PCC).im))) : ℝ) : ℂ))‖ > (e t y).iref_limit)) (r : ThreePhaseConstantVdc.V) :
    BL C T S (fun t y => ThreePhaseConstantVdc.rhs (e t y) r) := by
  obtain ⟨f_ia, f_ib, f_ic, f_xa, f_xb, f_xc, f_ua, f_ub, f_uc, f_va, f_vb, f_vc, f_vta, f_vtb, f_vtc, f_ia_ref, f_ib_ref, f_ic_ref, f_S, f_S_PCC, f_Vdc, f_xDC, f_xP, f_xQ, f_xPLL, f_Vrms, f_Vrms_filter, f_vd, f_we, f_winv, f_Ppv, f_Vdc_ref, f_Q_ref, f_Rf, f_Kp_GCC, f_Ki_GCC, f_wp, f_Kp_DC, f_Ki_DC, f_Kp_P, f_Ki_P, f_Kp_Q, f_Ki_Q, f_Ki_PLL, f_m_limit, f_iref_limit, iLf, iwbase, iC, iTfilter_Vrms⟩ := h
  cases r <;> simp only [ThreePhaseConstantVdc.rhs, div_eq_mul_inv, mul_inv] <;> bl

/-- The limiters of the class `ThreePhaseConstantVdc`, and the DC voltage. -/
noncomputable def lim_three_constant_vdc (p : Par) (inp : ℝ → Inp) (conn : ℝ → Bool) : Fin 4 → ℝ → (ThreePhaseConstantVdc.V → ℝ) → ℝ :=
  ![fun t y => ‖((((connIf (conn t) (envC3 p (inp t) y)).Kp_GCC : ℝ)) : ℂ) * (connIf (conn t) (envC3 p (inp t) y)).ua + (connIf (conn t) (envC3 p (inp t) y)).xa‖ - (connIf (conn t) (envC3 p (inp t) y)).m_limit,
    fun t y => ‖((((connIf (conn t) (envC3 p (inp t) y)).Kp_GCC : ℝ)) : ℂ) * (connIf (conn t) (envC3 p (inp t) y)).ub + (connIf (conn t) (envC3 p (inp t) y)).xb‖ - (connIf (conn t) (envC3 p (inp t) y)).m_limit,
    fun t y => ‖((((connIf (conn t) (envC3 p (inp t) y)).Kp_GCC : ℝ)) : ℂ) * (connIf (conn t) (envC3 p (inp t) y)).uc + (connIf (conn t) (envC3 p (inp t) y)).xc‖ - (connIf (conn t) (envC3 p (inp t) y)).m_limit,
    fun t y => ‖irefP (connIf (conn t) (envC3 p (inp t) y))‖ - (connIf (conn t) (envC3 p (inp t) y)).iref_limit]

theorem lim_three_constant_vdc_iff {p : Par} {inp : ℝ → Inp} {conn : ℝ → Bool} {t η : ℝ} {y : ThreePhaseConstantVdc.V → ℝ} : (∀ k, lim_three_constant_vdc p inp conn k t y ≤ -η) ↔ MarginP3 η (connIf (conn t) (envC3 p (inp t) y)) := by
  unfold MarginP3 PhaseMargin lim_three_constant_vdc
  simp only [Fin.forall_fin_succ, IsEmpty.forall_iff, and_true, Matrix.cons_val_zero, Matrix.cons_val_succ]
  constructor
  · rintro ⟨h0, h1, h2, h3⟩
    refine ⟨?_, ?_, ?_, ?_⟩ <;> linarith
  · rintro ⟨h0, h1, h2, h3⟩
    refine ⟨?_, ?_, ?_, ?_⟩ <;> linarith

theorem limBL_three_constant_vdc {p : Par} {inp : ℝ → Inp} {conn : ℝ → Bool} {C : Prop} {T : ℝ} (hi : InpBL C T inp) (hc : C → ∃ c, ∀ t, conn t = c) (R : ℝ) (k : Fin 4) :
    BL C (Icc 0 T) (fun _ => {y | ‖y‖ ≤ R}) (lim_three_constant_vdc p inp conn k) := by
  have h := (envC3BL p hi (S := fun _ => {y | ‖y‖ ≤ R}) ⟨R, fun t _ y hy => hy⟩).connIf hc
  obtain ⟨f_ia, f_ib, f_ic, f_xa, f_xb, f_xc, f_ua, f_ub, f_uc, f_va, f_vb, f_vc, f_vta, f_vtb, f_vtc, f_ia_ref, f_ib_ref, f_ic_ref, f_S, f_S_PCC, f_Vdc, f_xDC, f_xP, f_xQ, f_xPLL, f_Vrms, f_Vrms_filter, f_vd, f_we, f_winv, f_Ppv, f_Vdc_ref, f_Q_ref, f_Rf, f_Kp_GCC, f_Ki_GCC, f_wp, f_Kp_DC, f_Ki_DC, f_Kp_P, f_Ki_P, f_Kp_Q, f_Ki_Q, f_Ki_PLL, f_m_limit, f_iref_limit, iLf, iwbase, iC, iTfilter_Vrms⟩ := h
  fin_cases k
  · show BL C (Icc 0 T) _ (fun t y => ‖((((connIf (conn t) (envC3 p (inp t) y)).Kp_GCC : ℝ)) : ℂ) * (connIf (conn t) (envC3 p (inp t) y)).ua + (connIf (conn t) (envC3 p (inp t) y)).xa‖ - (connIf (conn t) (envC3 p (inp t) y)).m_limit)
    bl
  · show BL C (Icc 0 T) _ (fun t y => ‖((((connIf (conn t) (envC3 p (inp t) y)).Kp_GCC : ℝ)) : ℂ) * (connIf (conn t) (envC3 p (inp t) y)).ub + (connIf (conn t) (envC3 p (inp t) y)).xb‖ - (connIf (conn t) (envC3 p (inp t) y)).m_limit)
    bl
  · show BL C (Icc 0 T) _ (fun t y => ‖((((connIf (conn t) (envC3 p (inp t) y)).Kp_GCC : ℝ)) : ℂ) * (connIf (conn t) (envC3 p (inp t) y)).uc + (connIf (conn t) (envC3 p (inp t) y)).xc‖ - (connIf (conn t) (envC3 p (inp t) y)).m_limit)
    bl
  · show BL C (Icc 0 T) _ (fun t y => ‖irefP (connIf (conn t) (envC3 p (inp t) y))‖ - (connIf (conn t) (envC3 p (inp t) y)).iref_limit)
    simp only [irefP]; bl

theorem rhsBL_three_constant_vdc {p : Par} {inp : ℝ → Inp} {conn : ℝ → Bool} {C : Prop} {T : ℝ} (hi : InpBL C T inp) (hc : C → ∃ c, ∀ t, conn t = c) (R δ : ℝ) (hδ : 0 < δ) (r : ThreePhaseConstantVdc.V) :
    BL C (Icc 0 T) (fun t => {y | ‖y‖ ≤ R ∧ ∀ k, lim_three_constant_vdc p inp conn k t y ≤ -δ}) (fun t y => ThreePhaseConstantVdc.rhs (connIf (conn t) (envC3 p (inp t) y)) r) := by
  have h := (envC3BL p hi (S := fun t => {y | ‖y‖ ≤ R ∧ ∀ k, lim_three_constant_vdc p inp conn k t y ≤ -δ}) ⟨R, fun t _ y hy => hy.1⟩).connIf hc
  have hl : ∀ t ∈ Icc 0 T, ∀ y ∈ {y | ‖y‖ ≤ R ∧ ∀ k, lim_three_constant_vdc p inp conn k t y ≤ -δ}, MarginP3 δ (connIf (conn t) (envC3 p (inp t) y)) := fun t _ y hy => lim_three_constant_vdc_iff.1 hy.2
  refine rows_three_constant_vdc h
    (fun t ht y hy => by have := (hl t ht y hy).1; rw [not_lt]; unfold PhaseMargin at this; linarith)
    (fun t ht y hy => by have := (hl t ht y hy).2.1; rw [not_lt]; unfold PhaseMargin at this; linarith)
    (fun t ht y hy => by have := (hl t ht y hy).2.2.1; rw [not_lt]; unfold PhaseMargin at this; linarith)
    (fun t ht y hy => by have := (hl t ht y hy).2.2.2; rw [not_lt]; unfold irefP at this; linarith)
    r

/-- C113, class `ThreePhaseConstantVdc`: a small error in the initial state has a bounded effect, as long as no limiter is active along the undisturbed trajectory. -/
theorem C113_depends_three_constant_vdc (p : Par) (inp : ℝ → Inp) (conn : ℝ → Bool) (T : ℝ) (hin : ∃ B, InpBounded inp T B) (Y : ℝ → ThreePhaseConstantVdc.V → ℝ)
    (hY : ∀ t ∈ Icc 0 T, Solves (fun t y => ThreePhaseConstantVdc.rhs (connIf (conn t) (envC3 p (inp t) y))) Y t) (η : ℝ) (hη : 0 < η)
    (hm : ∀ t ∈ Icc 0 T, MarginP3 η (connIf (conn t) (envC3 p (inp t) (Y t)))) :
    ∃ ρ > 0, ∃ L, ∀ Z : ℝ → ThreePhaseConstantVdc.V → ℝ, (∀ t ∈ Icc 0 T, Solves (fun t y => ThreePhaseConstantVdc.rhs (connIf (conn t) (envC3 p (inp t) y))) Z t) → ‖Z 0 - Y 0‖ < ρ →
      ∀ t ∈ Icc 0 T, ‖Z t - Y t‖ ≤ ‖Z 0 - Y 0‖ * Real.exp (L * t) := by
  obtain ⟨B, hB⟩ := hin
  have hi := hB.bl (C := False) (fun c => c.elim)
  exact depends (limBL_three_constant_vdc hi (fun c => c.elim)) (rhsBL_three_constant_vdc hi (fun c => c.elim)) hY hη (fun t ht => lim_three_constant_vdc_iff.2 (hm t ht))

/-- C113, class `ThreePhaseConstantVdc`: the trajectory is determined by its initial state, as long as no limiter is active along it. -/
theorem C113_unique_three_constant_vdc (p : Par) (inp : ℝ → Inp) (conn : ℝ → Bool) (T : ℝ) (hin : ∃ B, InpBounded inp T B) (Y Z : ℝ → ThreePhaseConstantVdc.V → ℝ)
    (hY : ∀ t ∈ Icc 0 T, Solves (fun t y => ThreePhaseConstantVdc.rhs (connIf (conn t) (envC3 p (inp t) y))) Y t) (hZ : ∀ t ∈ Icc 0 T, Solves (fun t y => ThreePhaseConstantVdc.rhs (connIf (conn t) (envC3 p (inp t) y))) Z t)
    (η : ℝ) (hη : 0 < η) (hm : ∀ t ∈ Icc 0 T, MarginP3 η (connIf (conn t) (envC3 p (inp t) (Y t)))) (h0 : Z 0 = Y 0) : ∀ t ∈ Icc 0 T, Z t = Y t := by
  intro t ht
  obtain ⟨ρ, hρ, L, h⟩ := C113_depends_three_constant_vdc p inp conn T hin Y hY η hη hm
  have := h Z hZ (by rw [h0, sub_self, norm_zero]; exact hρ) t ht
  rw [h0, sub_self, norm_zero, zero_mul] at this
  exact sub_eq_zero.1 (norm_le_zero_iff.1 this)

/-- C113, class `ThreePhaseConstantVdc`: with continuous inputs, from every state at which no limiter is active and the DC voltage is positive a trajectory exists for some time. -/
theorem C113_starts_three_constant_vdc (p : Par) (inp : ℝ → Inp) (c : Bool) (T : ℝ) (hT : 0 < T) (hin : InpCont inp T) (hTa : ∀ t ∈ Icc 0 T, 0 < (inp t).Tactual)
    (y0 : ThreePhaseConstantVdc.V → ℝ) (η : ℝ) (hη : 0 < η) (hm : MarginP3 η (connIf c (envC3 p (inp 0) y0))) :
    ∃ ε > 0, ε ≤ T ∧ ∃ Y : ℝ → ThreePhaseConstantVdc.V → ℝ, Y 0 = y0 ∧ ∀ t ∈ Icc 0 ε, Solves (fun t y => ThreePhaseConstantVdc.rhs (connIf c (envC3 p (inp t) y))) Y t := by
  obtain ⟨B, hB⟩ := hin.bounded hTa
  have hi := hB.bl (C := True) (fun _ => hin)
  exact exists_local trivial hT (limBL_three_constant_vdc (conn := fun _ => c) hi (fun _ => ⟨c, fun _ => rfl⟩)) (rhsBL_three_constant_vdc (conn := fun _ => c) hi (fun _ => ⟨c, fun _ => rfl⟩)) hη
    (lim_three_constant_vdc_iff.2 hm)

/-- C113, class `ThreePhaseConstantVdc`: with continuous inputs, a trajectory from a state of a compact set `K` on which no limiter is active exists until it reaches the boundary of `K`. -/
theorem C113_exists_three_constant_vdc (p : Par) (inp : ℝ → Inp) (c : Bool) (T : ℝ) (hT : 0 ≤ T) (hin : InpCont inp T) (hTa : ∀ t ∈ Icc 0 T, 0 < (inp t).Tactual)
    (K : Set (ThreePhaseConstantVdc.V → ℝ)) (hK : IsCompact K) (η : ℝ) (hη : 0 < η) (hm : ∀ t ∈ Icc 0 T, ∀ y ∈ K, MarginP3 η (connIf c (envC3 p (inp t) y)))
    (y0 : ThreePhaseConstantVdc.V → ℝ) (hy0 : y0 ∈ K) :
    ∃ Y : ℝ → ThreePhaseConstantVdc.V → ℝ, Y 0 = y0 ∧ ((∀ t ∈ Icc 0 T, Solves (fun t y => ThreePhaseConstantVdc.rhs (connIf c (envC3 p (inp t) y))) Y t ∧ Y t ∈ K) ∨
      ∃ T' ∈ Icc 0 T, (∀ t ∈ Icc 0 T', Solves (fun t y => ThreePhaseConstantVdc.rhs (connIf c (envC3 p (inp t) y))) Y t ∧ Y t ∈ K) ∧ Y T' ∈ frontier K) := by
  obtain ⟨B, hB⟩ := hin.bounded hTa
  have hi := hB.bl (C := True) (fun _ => hin)
  exact exists_traj trivial hT (limBL_three_constant_vdc (conn := fun _ => c) hi (fun _ => ⟨c, fun _ => rfl⟩)) (rhsBL_three_constant_vdc (conn := fun _ => c) hi (fun _ => ⟨c, fun _ => rfl⟩)) hK hη
    (fun t ht y hy => lim_three_constant_vdc_iff.2 (hm t ht y hy)) hy0

/-! ## Concrete cases -/

theorem exInp_cont (T : ℝ) : InpCont (fun t => { exInp with t := t }) T := by
  constructor <;> first | exact continuousOn_const | exact continuousOn_id

/-- At rest at nominal DC voltage, connected: no limiter is active, so a trajectory starts there. -/
theorem C113_example_start : ∃ ε > 0, ε ≤ 1 ∧ ∃ Y : ℝ → SinglePhase.V → ℝ, Y 0 = (fun r => if r = .Vdc then 11/10 else 0) ∧
    ∀ t ∈ Icc 0 ε, Solves (fun t y => SinglePhase.rhs (connIf true (env1 exPar { exInp with t := t } y))) Y t := by
  refine C113_starts_single exPar (fun t => { exInp with t := t }) true 1 one_pos (exInp_cont 1) (fun t _ => by norm_num [exInp]) _ (1/2) (by norm_num) ?_
  have h0 : (⟨0, 0⟩ : ℂ) = 0 := rfl
  refine ⟨?_, ?_, ?_⟩
  · simp [PhaseMargin, connIf, env1, exPar, h0]; norm_num [Env.base]
  · simp [irefD, connIf, env1, exPar, exInp, h0, sPh, Env.base]; norm_num
  · simp [connIf, env1]; norm_num

/-- The explicit decaying solution is the only one from its initial state, on every horizon. -/
theorem C113_example_unique (T : ℝ) (Z : ℝ → SinglePhaseConstantVdc.V → ℝ)
    (hZ : ∀ t ∈ Icc 0 T, Solves (fun t y => SinglePhaseConstantVdc.rhs (connIf false (envC1 dyPar (dyInp t) y))) Z t) (h0 : Z 0 = dyY 0) :
    ∀ t ∈ Icc 0 T, Z t = dyY t := by
  refine C113_unique_single_constant_vdc dyPar dyInp (fun _ => false) T ⟨1000, ?_⟩ dyY Z (fun t ht => dy_solves t ht.1) hZ 1 one_pos ?_ h0
  · constructor
    case pos => norm_num
    all_goals
      intro t _
      first
        | (simp only [dyInp, exInp, C47_phase_shift]; norm_num; done)
        | (simp only [dyInp, exInp, (C47_phase_shift _).1]; norm_num; done)
        | (simp only [dyInp, exInp, (C47_phase_shift _).2.1]; norm_num; done)
        | (norm_num [dyInp, exInp]; done)
  · intro t ht
    have hle : Real.exp (-t) ≤ 1 := Real.exp_le_one_iff.2 (by linarith [ht.1])
    have hpos := Real.exp_pos (-t)
    refine ⟨?_, ?_⟩
    · show ‖((dyPar.Kp_GCC : ℝ) : ℂ) * (⟨-2 * Real.exp (-t), 0⟩ : ℂ) + (⟨1 + 19/5 * Real.exp (-t), 0⟩ : ℂ)‖ + 1 ≤ dyPar.m_limit
      have : ((dyPar.Kp_GCC : ℝ) : ℂ) * (⟨-2 * Real.exp (-t), 0⟩ : ℂ) + (⟨1 + 19/5 * Real.exp (-t), 0⟩ : ℂ) = ((1 + 9/5 * Real.exp (-t) : ℝ) : ℂ) := by
        generalize Real.exp (-t) = e
        apply Complex.ext
        · simp [dyPar]; ring
        · simp [dyPar]
      rw [this, Complex.norm_real, Real.norm_eq_abs, abs_of_nonneg (by positivity)]
      show _ ≤ (4 : ℝ)
      linarith
    · have e0 : irefP (connIf false (envC1 dyPar (dyInp t) (dyY t))) = 0 := by
        simp [irefP, connIf, disc, envC1, dyPar, dyY, Env.base]
      rw [e0, norm_zero]
      show (0 : ℝ) + 1 ≤ 3/2
      norm_num

end Ode
end PvDer
