import Verif.Model.SteadyState
import Verif.Props.OdeProps
import Verif.Props.Phasor
import Verif.Lemmas.OdeEx

/-!
# Property C88: steady-state initialisation
-/

set_option linter.unusedSimpArgs false

namespace PvDer
namespace Ode
namespace SS
open Complex Phasor

/-! ### Stationary attributes -/

/-- One phase is at rest: no controller input, current at its reference, filter equation balanced at synchronous speed. -/
structure Rest (e : Env) (i v vt u iref : ℂ) : Prop where
  u : u = 0
  iref : iref = i
  filt : vt = v + ((e.Rf : ℂ) + I * (e.Lf : ℂ)) * i

/-- Everything but the phases. -/
structure Outer (e : Env) : Prop where
  L : e.Lf ≠ 0
  w : e.winv = e.wbase
  wb : e.wbase ≠ 0
  P : e.Ppv = e.S.re
  Q : e.S_PCC.im = e.Q_ref
  vd : e.vd = 0

theorem filt_zero {e : Env} (h : Outer e) {i v vt u iref : ℂ} (hr : Rest e i v vt u iref) :
    (((1 : ℝ) / e.Lf) * ((((-e.Rf) * i.re) - v.re) + vt.re)) + ((e.winv / e.wbase) * i.im) = 0 ∧
    (((1 : ℝ) / e.Lf) * ((((-e.Rf) * i.im) - v.im) + vt.im)) - ((e.winv / e.wbase) * i.re) = 0 := by
  rw [filter_steady e.Lf e.Rf (e.winv / e.wbase) h.L, h.w, div_self h.wb, mul_one]
  exact hr.filt

theorem rest_single {e : Env} (h : Outer e) (ha : Rest e e.ia e.va e.vta e.ua e.ia_ref) (hV : e.Vdc_ref = e.Vdc) :
    ∀ r, r ≠ .wte → SinglePhase.rhs e r = 0 := by
  obtain ⟨f1, f2⟩ := filt_zero h ha
  intro r hr
  cases r <;> first
    | exact absurd rfl hr
    | (simp only [SinglePhase.rhs, ha.u, ha.iref, hV, h.P, h.Q, h.vd, f1, f2] <;> simp)

theorem rest_c1 {e : Env} (h : Outer e) (ha : Rest e e.ia e.va e.vta e.ua e.ia_ref) :
    ∀ r, r ≠ .wte → SinglePhaseConstantVdc.rhs e r = 0 := by
  obtain ⟨f1, f2⟩ := filt_zero h ha
  intro r hr
  cases r <;> first
    | exact absurd rfl hr
    | (simp only [SinglePhaseConstantVdc.rhs, ha.u, ha.iref, h.P, h.Q, h.vd, f1, f2] <;> simp)

theorem rest_balanced {e : Env} (h : Outer e) (ha : Rest e e.ia e.va e.vta e.ua e.ia_ref) (hV : e.Vdc_ref = e.Vdc) :
    ∀ r, r ≠ .wte → ThreePhaseBalanced.rhs e r = 0 := by
  obtain ⟨f1, f2⟩ := filt_zero h ha
  intro r hr
  cases r <;> first
    | exact absurd rfl hr
    | (simp only [ThreePhaseBalanced.rhs, ha.u, ha.iref, hV, h.P, h.Q, h.vd, f1, f2] <;> simp)

theorem rest_three {e : Env} (h : Outer e) (ha : Rest e e.ia e.va e.vta e.ua e.ia_ref) (hb : Rest e e.ib e.vb e.vtb e.ub e.ib_ref)
    (hc : Rest e e.ic e.vc e.vtc e.uc e.ic_ref) (hV : e.Vdc_ref = e.Vdc) (hF : e.Vrms_filter = e.Vrms) :
    ∀ r, r ≠ .wte → ThreePhase.rhs e r = 0 := by
  obtain ⟨f1, f2⟩ := filt_zero h ha
  obtain ⟨f3, f4⟩ := filt_zero h hb
  obtain ⟨f5, f6⟩ := filt_zero h hc
  intro r hr
  cases r <;> first
    | exact absurd rfl hr
    | (simp only [ThreePhase.rhs, ha.u, ha.iref, hb.u, hb.iref, hc.u, hc.iref, hV, h.P, h.Q, h.vd, hF, f1, f2, f3, f4, f5, f6] <;> simp)

theorem rest_noFilter {e : Env} (h : Outer e) (ha : Rest e e.ia e.va e.vta e.ua e.ia_ref) (hb : Rest e e.ib e.vb e.vtb e.ub e.ib_ref)
    (hc : Rest e e.ic e.vc e.vtc e.uc e.ic_ref) (hV : e.Vdc_ref = e.Vdc) :
    ∀ r, r ≠ .wte → ThreePhaseNoVrmsFilter.rhs e r = 0 := by
  obtain ⟨f1, f2⟩ := filt_zero h ha
  obtain ⟨f3, f4⟩ := filt_zero h hb
  obtain ⟨f5, f6⟩ := filt_zero h hc
  intro r hr
  cases r <;> first
    | exact absurd rfl hr
    | (simp only [ThreePhaseNoVrmsFilter.rhs, ha.u, ha.iref, hb.u, hb.iref, hc.u, hc.iref, hV, h.P, h.Q, h.vd, f1, f2, f3, f4, f5, f6] <;> simp)

theorem rest_numba {e : Env} (h : Outer e) (ha : Rest e e.ia e.va e.vta e.ua e.ia_ref) (hb : Rest e e.ib e.vb e.vtb e.ub e.ib_ref)
    (hc : Rest e e.ic e.vc e.vtc e.uc e.ic_ref) (hV : e.Vdc_ref = e.Vdc) :
    ∀ r, r ≠ .wte → ThreePhaseNumba.rhs e r = 0 := by
  obtain ⟨f1, f2⟩ := filt_zero h ha
  obtain ⟨f3, f4⟩ := filt_zero h hb
  obtain ⟨f5, f6⟩ := filt_zero h hc
  intro r hr
  cases r <;> first
    | exact absurd rfl hr
    | (simp only [ThreePhaseNumba.rhs, ha.u, ha.iref, hb.u, hb.iref, hc.u, hc.iref, hV, h.P, h.Q, h.vd, f1, f2, f3, f4, f5, f6] <;> simp)

theorem rest_c3 {e : Env} (h : Outer e) (ha : Rest e e.ia e.va e.vta e.ua e.ia_ref) (hb : Rest e e.ib e.vb e.vtb e.ub e.ib_ref)
    (hc : Rest e e.ic e.vc e.vtc e.uc e.ic_ref) :
    ∀ r, r ≠ .wte → ThreePhaseConstantVdc.rhs e r = 0 := by
  obtain ⟨f1, f2⟩ := filt_zero h ha
  obtain ⟨f3, f4⟩ := filt_zero h hb
  obtain ⟨f5, f6⟩ := filt_zero h hc
  intro r hr
  cases r <;> first
    | exact absurd rfl hr
    | (simp only [ThreePhaseConstantVdc.rhs, ha.u, ha.iref, hb.u, hb.iref, hc.u, hc.iref, h.P, h.Q, h.vd, f1, f2, f3, f4, f5, f6] <;> simp)

/-! ### Reading the residual -/

/-- A solution of the single-phase operating point: power drawn from the PV module, reactive power at its reference, filter voltage drop. -/
structure Point1 (o : Op) (vt va ia : ℂ) : Prop where
  P : (sPh vt ia).re = o.Ppv
  Q : (sPh va ia).im = o.Q_ref
  drop : vt = va + o.Zf * ia

theorem sPh_div (v i : ℂ) : v * (starRingEnd ℂ) i / 2 = sPh v i := by unfold sPh; ring

theorem residual1_zero (o : Op) (x : ℕ → ℝ) :
    residual1 o x = 0 ↔ Point1 o (maOf x * ((o.Vdc / 2 : ℝ) : ℂ)) (o.va (iaOf x)) (iaOf x) := by
  unfold residual1
  simp only [sPh_div]
  constructor
  · intro h
    have h1 := sq_nonneg ((sPh (maOf x * ((o.Vdc / 2 : ℝ) : ℂ)) (iaOf x)).re - o.Ppv)
    have h2 := sq_nonneg ((sPh (o.va (iaOf x)) (iaOf x)).im - o.Q_ref)
    have h3 := sq_nonneg ‖maOf x * ((o.Vdc / 2 : ℝ) : ℂ) - o.va (iaOf x) - iaOf x * o.Zf‖
    have e1 := pow_eq_zero_iff (two_ne_zero) |>.1 (by linarith : ((sPh (maOf x * ((o.Vdc / 2 : ℝ) : ℂ)) (iaOf x)).re - o.Ppv) ^ 2 = 0)
    have e2 := pow_eq_zero_iff (two_ne_zero) |>.1 (by linarith : ((sPh (o.va (iaOf x)) (iaOf x)).im - o.Q_ref) ^ 2 = 0)
    have e3 := pow_eq_zero_iff (two_ne_zero) |>.1 (by linarith : ‖maOf x * ((o.Vdc / 2 : ℝ) : ℂ) - o.va (iaOf x) - iaOf x * o.Zf‖ ^ 2 = 0)
    rw [norm_eq_zero] at e3
    exact ⟨by linarith, by linarith, by linear_combination e3⟩
  · rintro ⟨h1, h2, h3⟩
    rw [h1, h2, h3]
    have : o.va (iaOf x) + o.Zf * iaOf x - o.va (iaOf x) - iaOf x * o.Zf = 0 := by ring
    rw [this]; simp

/-- A solution of the three-phase operating point. -/
structure Point3 (o : Op) (vta vtb vtc va vb vc ia ib ic : ℂ) : Prop where
  P : (sCalc vta vtb vtc ia ib ic).re = o.Ppv
  Q : (sCalc va vb vc ia ib ic).im = o.Q_ref
  dropa : vta = va + o.Zf * ia
  dropb : vtb = vb + o.Zf * ib
  dropc : vtc = vc + o.Zf * ic
  kcl : ia + ib + ic = 0

theorem mError_nonneg (unb : Bool) (a b c d : ℂ) : 0 ≤ mError unb a b c d := by
  unfold mError; split_ifs <;> positivity

theorem sCalc_div (a b c x y z : ℂ) : a * (starRingEnd ℂ) x / 2 + (b * (starRingEnd ℂ) y + c * (starRingEnd ℂ) z) / 2 = sCalc a b c x y z := by
  unfold sCalc; ring

theorem residual3_zero (unb : Bool) (o : Op) (x : ℕ → ℝ) (h : residual3 unb o x = 0) :
    Point3 o (maOf x * ((o.Vdc / 2 : ℝ) : ℂ)) (mbOf unb x * ((o.Vdc / 2 : ℝ) : ℂ)) (mcOf unb x * ((o.Vdc / 2 : ℝ) : ℂ)) (o.va (iaOf x)) (o.vb (ibOf unb x))
      (o.vc (icOf unb x)) (iaOf x) (ibOf unb x) (icOf unb x) := by
  unfold residual3 at h
  simp only [sCalc_div] at h
  generalize hvta : maOf x * ((o.Vdc / 2 : ℝ) : ℂ) = vta at *
  generalize hvtb : mbOf unb x * ((o.Vdc / 2 : ℝ) : ℂ) = vtb at *
  generalize hvtc : mcOf unb x * ((o.Vdc / 2 : ℝ) : ℂ) = vtc at *
  generalize o.va (iaOf x) = va at *
  generalize o.vb (ibOf unb x) = vb at *
  generalize o.vc (icOf unb x) = vc at *
  generalize iaOf x = ia at *
  generalize ibOf unb x = ib at *
  generalize icOf unb x = ic at *
  have h0 := mError_nonneg unb (maOf x) (mbOf unb x) (mcOf unb x) (va + vb + vc - (vta + vtb + vtc))
  generalize mError unb (maOf x) (mbOf unb x) (mcOf unb x) (va + vb + vc - (vta + vtb + vtc)) = m at *
  have h1 := sq_nonneg ((sCalc vta vtb vtc ia ib ic).re - o.Ppv)
  have h2 := sq_nonneg ((sCalc va vb vc ia ib ic).im - o.Q_ref)
  have h3 := sq_nonneg (‖ia + ib + ic‖ + ‖vta - va - ia * o.Zf‖ + ‖vtb - vb - ib * o.Zf‖ + ‖vtc - vc - ic * o.Zf‖)
  have e1 := pow_eq_zero_iff (two_ne_zero) |>.1 (by linarith : ((sCalc vta vtb vtc ia ib ic).re - o.Ppv) ^ 2 = 0)
  have e2 := pow_eq_zero_iff (two_ne_zero) |>.1 (by linarith : ((sCalc va vb vc ia ib ic).im - o.Q_ref) ^ 2 = 0)
  have e3 := pow_eq_zero_iff (two_ne_zero) |>.1
    (by linarith : (‖ia + ib + ic‖ + ‖vta - va - ia * o.Zf‖ + ‖vtb - vb - ib * o.Zf‖ + ‖vtc - vc - ic * o.Zf‖) ^ 2 = 0)
  have n0 := norm_nonneg (ia + ib + ic)
  have n1 := norm_nonneg (vta - va - ia * o.Zf)
  have n2 := norm_nonneg (vtb - vb - ib * o.Zf)
  have n3 := norm_nonneg (vtc - vc - ic * o.Zf)
  have z0 := norm_eq_zero.1 (by linarith : ‖ia + ib + ic‖ = 0)
  have z1 := norm_eq_zero.1 (by linarith : ‖vta - va - ia * o.Zf‖ = 0)
  have z2 := norm_eq_zero.1 (by linarith : ‖vtb - vb - ib * o.Zf‖ = 0)
  have z3 := norm_eq_zero.1 (by linarith : ‖vtc - vc - ic * o.Zf‖ = 0)
  exact ⟨by linarith, by linarith, by linear_combination z1, by linear_combination z2, by linear_combination z3, z0⟩

/-! ### The theorems -/

/-- The evaluation `i` belongs to the operating point `o` of the DER with parameters `p`: 60 Hz base, filter impedance of the parameters, the references and PV power used when the
operating point was computed, the PCC voltages seen by the residual, evaluated at the initial angle. -/
structure Fits (p : Par) (o : Op) (i : Inp) (ia ib ic : ℂ) : Prop where
  L : p.Lf ≠ 0
  wb : p.wbase = 2 * Real.pi * 60
  Z : o.Zf = (p.Rf : ℂ) + I * (p.Lf : ℂ)
  V : i.Vdc_ref = o.Vdc
  V0 : i.Vdc0 = o.Vdc
  Q : i.Q_ref = o.Q_ref
  P : o.Ppv = ppvOf p i o.Vdc
  va : i.va = o.va ia
  vb : i.vb = o.vb ib
  vc : i.vc = o.vc ic

theorem pi60 : (2 * Real.pi * 60 : ℝ) ≠ 0 := by positivity

/-- The initial state with another angle. -/
noncomputable def at1 (θ : ℝ) (y : SinglePhase.V → ℝ) : SinglePhase.V → ℝ
  | .wte => θ
  | r => y r

theorem at1_init (o : Op) (x : ℕ → ℝ) (last : ℂ) : at1 (2 * Real.pi) (init1 o x last) = init1 o x last := by
  funext r; cases r <;> rfl

/-- The single-phase derivatives at any angle. -/
theorem steady_single_at (θ : ℝ) (p : Par) (o : Op) (i : Inp) (x : ℕ → ℝ) (last : ℂ) (hr : residual1 o x = 0) (hl : last = iaOf x) (hf : Fits p o i (iaOf x) 0 0)
    (hv : (pll1 i.va i.w i.t θ).1 = 0) :
    (∀ r, r ≠ .wte → SinglePhase.rhs (env1 p i (at1 θ (init1 o x last))) r = 0) ∧ SinglePhase.rhs (env1 p i (at1 θ (init1 o x last))) .wte = 2 * Real.pi * 60 := by
  subst hl
  obtain ⟨hP, hQ, hd⟩ := (residual1_zero o x).1 hr
  have hvt : (env1 p i (at1 θ (init1 o x (iaOf x)))).vta = maOf x * ((o.Vdc / 2 : ℝ) : ℂ) := by
    show vtOf p ⟨0, 0⟩ (maOf x) o.Vdc = _
    have h0 : (⟨0, 0⟩ : ℂ) = 0 := rfl
    unfold vtOf duty; rw [h0]; simp
  have hS : (env1 p i (at1 θ (init1 o x (iaOf x)))).S = sPh (maOf x * ((o.Vdc / 2 : ℝ) : ℂ)) (iaOf x) := by rw [← hvt]; rfl
  have hSP : (env1 p i (at1 θ (init1 o x (iaOf x)))).S_PCC = sPh i.va (iaOf x) := rfl
  have hQ' : (env1 p i (at1 θ (init1 o x (iaOf x)))).S_PCC.im = i.Q_ref := by rw [hSP, hf.va, hQ, hf.Q]
  have hwe : (env1 p i (at1 θ (init1 o x (iaOf x)))).winv = 2 * Real.pi * 60 := by
    show weCalc p.Kp_PLL (pll1 i.va i.w i.t θ).1 0 = _
    rw [hv]; unfold weCalc; ring
  refine ⟨rest_single ⟨hf.L, ?_, ?_, ?_, hQ', hv⟩ ⟨rfl, ?_, ?_⟩ hf.V, hwe⟩
  · rw [hwe]; exact hf.wb.symm
  · show p.wbase ≠ 0; rw [hf.wb]; exact pi60
  · show ppvOf p i o.Vdc = _; rw [hS, hP, hf.P]
  · show irefOf p i o.Vdc (iaOf x).re (iaOf x).im (sPh i.va (iaOf x)) = iaOf x
    rw [hSP] at hQ'
    apply Complex.ext
    · rw [iref_re, hf.V]; ring
    · rw [iref_im, hQ']; ring
  · rw [hvt, hd, hf.Z]
    show o.va (iaOf x) + _ = i.va + _
    rw [hf.va]; rfl


/-- C88, single phase: if the residual of the returned vector is zero, it is also the last point evaluated, and the PLL input is zero, every derivative but that of the angle vanishes and
the angle runs at 60 Hz. -/
theorem C88_steady_single (p : Par) (o : Op) (i : Inp) (x : ℕ → ℝ) (last : ℂ) (hr : residual1 o x = 0) (hl : last = iaOf x) (hf : Fits p o i (iaOf x) 0 0)
    (hv : (pll1 i.va i.w i.t (2 * Real.pi)).1 = 0) :
    (∀ r, r ≠ .wte → SinglePhase.rhs (env1 p i (init1 o x last)) r = 0) ∧ SinglePhase.rhs (env1 p i (init1 o x last)) .wte = 2 * Real.pi * 60 := by
  have h := steady_single_at (2 * Real.pi) p o i x last hr hl hf hv
  rw [at1_init] at h
  exact h

/-- C88, single phase with constant DC voltage. -/
theorem C88_steady_single_constant_Vdc (p : Par) (o : Op) (i : Inp) (x : ℕ → ℝ) (last : ℂ) (hr : residual1 o x = 0) (hl : last = iaOf x) (hf : Fits p o i (iaOf x) 0 0)
    (hv : (pll1 i.va i.w i.t (2 * Real.pi)).1 = 0) :
    (∀ r, r ≠ .wte → SinglePhaseConstantVdc.rhs (envC1 p i (initC1 x last)) r = 0) ∧
      SinglePhaseConstantVdc.rhs (envC1 p i (initC1 x last)) .wte = 2 * Real.pi * 60 := by
  subst hl
  obtain ⟨hP, hQ, hd⟩ := (residual1_zero o x).1 hr
  have hvt : (envC1 p i (initC1 x (iaOf x))).vta = maOf x * ((o.Vdc / 2 : ℝ) : ℂ) := by
    show vtOf p ⟨0, 0⟩ (maOf x) i.Vdc0 = _
    have h0 : (⟨0, 0⟩ : ℂ) = 0 := rfl
    unfold vtOf duty; rw [h0, hf.V0]; simp
  have hS : (envC1 p i (initC1 x (iaOf x))).S = sPh (maOf x * ((o.Vdc / 2 : ℝ) : ℂ)) (iaOf x) := by rw [← hvt]; rfl
  have hSP : (envC1 p i (initC1 x (iaOf x))).S_PCC = sPh i.va (iaOf x) := rfl
  have hQ' : (envC1 p i (initC1 x (iaOf x))).S_PCC.im = i.Q_ref := by rw [hSP, hf.va, hQ, hf.Q]
  have hPP : (envC1 p i (initC1 x (iaOf x))).Ppv = (envC1 p i (initC1 x (iaOf x))).S.re := by
    show ppvOf p i i.Vdc0 = _; rw [hS, hP, hf.P, hf.V0]
  have hwe : (envC1 p i (initC1 x (iaOf x))).winv = 2 * Real.pi * 60 := by
    show weCalc p.Kp_PLL (pll1 i.va i.w i.t (2 * Real.pi)).1 0 = _
    rw [hv]; unfold weCalc; ring
  refine ⟨rest_c1 ⟨hf.L, ?_, ?_, hPP, hQ', hv⟩ ⟨rfl, ?_, ?_⟩, hwe⟩
  · rw [hwe]; exact hf.wb.symm
  · show p.wbase ≠ 0; rw [hf.wb]; exact pi60
  · show irefPOf p i (envC1 p i (initC1 x (iaOf x))).Ppv (iaOf x).re (iaOf x).im (envC1 p i (initC1 x (iaOf x))).S (sPh i.va (iaOf x)) = iaOf x
    rw [hSP] at hQ'
    apply Complex.ext
    · rw [irefP_re, hPP]; ring
    · rw [irefP_im, hQ']; ring
  · rw [hvt, hd, hf.Z]
    show o.va (iaOf x) + _ = i.va + _
    rw [hf.va]; rfl

/-- The attributes computed from a three-phase operating point whose currents are symmetric. -/
theorem env3_rest (p : Par) (o : Op) (i : Inp) (ma mb mc ia ib ic : ℂ) (θ F : ℝ)
    (h : Point3 o (ma * ((o.Vdc / 2 : ℝ) : ℂ)) (mb * ((o.Vdc / 2 : ℝ) : ℂ)) (mc * ((o.Vdc / 2 : ℝ) : ℂ)) (o.va ia) (o.vb ib) (o.vc ic) ia ib ic)
    (hf : Fits p o i ia ib ic) (hv : (pll3 i.va i.vb i.vc i.w i.t θ).1 = 0) (hb : ib = Phasor.ub ia) (hc : ic = Phasor.uc ia) :
    let e := env3 p i ia ma 0 ib mb 0 ic mc 0 o.Vdc ia.re ia.im 0 θ F
    Outer e ∧ Rest e e.ia e.va e.vta e.ua e.ia_ref ∧ Rest e e.ib e.vb e.vtb e.ub e.ib_ref ∧ Rest e e.ic e.vc e.vtc e.uc e.ic_ref ∧ e.Vdc_ref = e.Vdc ∧
      e.we = 2 * Real.pi * 60 := by
  intro e
  obtain ⟨hP, hQ, da, db, dc, _⟩ := h
  have vt : ∀ m : ℂ, vtOf p 0 m o.Vdc = m * ((o.Vdc / 2 : ℝ) : ℂ) := by intro m; unfold vtOf duty; simp
  have hS : e.S = sCalc (ma * ((o.Vdc / 2 : ℝ) : ℂ)) (mb * ((o.Vdc / 2 : ℝ) : ℂ)) (mc * ((o.Vdc / 2 : ℝ) : ℂ)) ia ib ic := by
    rw [← vt, ← vt, ← vt]; rfl
  have hSP : e.S_PCC = sCalc i.va i.vb i.vc ia ib ic := rfl
  have hQ' : e.S_PCC.im = i.Q_ref := by rw [hSP, hf.va, hf.vb, hf.vc, hQ, hf.Q]
  have hwe : e.we = 2 * Real.pi * 60 := by
    show weCalc p.Kp_PLL (pll3 i.va i.vb i.vc i.w i.t θ).1 0 = _
    rw [hv]; unfold weCalc; ring
  have hi : e.ia_ref = ia := by
    show irefOf p i o.Vdc ia.re ia.im (sCalc i.va i.vb i.vc ia ib ic) = ia
    rw [hSP] at hQ'
    apply Complex.ext
    · rw [iref_re, hf.V]; ring
    · rw [iref_im, hQ']; ring
  refine ⟨⟨hf.L, ?_, ?_, ?_, hQ', hv⟩, ⟨rfl, hi, ?_⟩, ⟨rfl, ?_, ?_⟩, ⟨rfl, ?_, ?_⟩, hf.V, hwe⟩
  · show e.we = p.wbase; rw [hwe]; exact hf.wb.symm
  · show p.wbase ≠ 0; rw [hf.wb]; exact pi60
  · show ppvOf p i o.Vdc = _; rw [hS, hP, hf.P]
  · show vtOf p 0 ma o.Vdc = i.va + ((p.Rf : ℂ) + I * (p.Lf : ℂ)) * ia
    rw [vt, da, hf.Z, hf.va]
  · show Phasor.ub e.ia_ref = ib
    rw [hi, hb]
  · show vtOf p 0 mb o.Vdc = i.vb + ((p.Rf : ℂ) + I * (p.Lf : ℂ)) * ib
    rw [vt, db, hf.Z, hf.vb]
  · show Phasor.uc e.ia_ref = ic
    rw [hi, hc]
  · show vtOf p 0 mc o.Vdc = i.vc + ((p.Rf : ℂ) + I * (p.Lf : ℂ)) * ic
    rw [vt, dc, hf.Z, hf.vc]

/-- C88, three-phase classes (with RMS filter, without, and numba): zero residual, symmetric currents (automatic unless `allow_unbalanced_m`), last evaluated point returned, PLL input
zero: every derivative but that of the angle vanishes. -/
theorem C88_steady_three (p : Par) (o : Op) (i : Inp) (unb : Bool) (x : ℕ → ℝ) (last : ℂ) (hr : residual3 unb o x = 0) (hl : last = iaOf x)
    (hf : Fits p o i (iaOf x) (ibOf unb x) (icOf unb x)) (hv : (pll3 i.va i.vb i.vc i.w i.t (2 * Real.pi)).1 = 0)
    (hb : ibOf unb x = Phasor.ub (iaOf x)) (hc : icOf unb x = Phasor.uc (iaOf x)) :
    ((∀ r, r ≠ .wte → ThreePhase.rhs (envT p i (initT unb o x last)) r = 0) ∧ ThreePhase.rhs (envT p i (initT unb o x last)) .wte = 2 * Real.pi * 60) ∧
    ((∀ r, r ≠ .wte → ThreePhaseNoVrmsFilter.rhs (envN p i (initN unb o x last)) r = 0) ∧
      ThreePhaseNoVrmsFilter.rhs (envN p i (initN unb o x last)) .wte = 2 * Real.pi * 60) ∧
    ((∀ r, r ≠ .wte → ThreePhaseNumba.rhs (envNumba p i (initNumba unb o x last)) r = 0) ∧
      ThreePhaseNumba.rhs (envNumba p i (initNumba unb o x last)) .wte = 2 * Real.pi * 60) := by
  subst hl
  have hp := residual3_zero unb o x hr
  obtain ⟨h1, h2, h3, h4, h5, h6⟩ := env3_rest p o i _ _ _ _ _ _ (2 * Real.pi) (urms (o.va (iaOf x)) (o.vb (ibOf unb x)) (o.vc (icOf unb x))) hp hf hv hb hc
  obtain ⟨g1, g2, g3, g4, g5, g6⟩ := env3_rest p o i _ _ _ _ _ _ (2 * Real.pi) 0 hp hf hv hb hc
  refine ⟨⟨rest_three h1 h2 h3 h4 h5 ?_, h6⟩, ⟨rest_noFilter g1 g2 g3 g4 g5, g6⟩, ⟨rest_numba g1 g2 g3 g4 g5, g6⟩⟩
  show urms (o.va (iaOf x)) (o.vb (ibOf unb x)) (o.vc (icOf unb x)) = urms i.va i.vb i.vc
  rw [hf.va, hf.vb, hf.vc]

/-- C88: without `allow_unbalanced_m` the currents are symmetric by construction … -/
theorem C88_balanced_option_currents (x : ℕ → ℝ) : ibOf false x = Phasor.ub (iaOf x) ∧ icOf false x = Phasor.uc (iaOf x) := ⟨rfl, rfl⟩

/-- … so a zero residual exists only if the PCC voltages are a symmetric set too: on an unbalanced grid no vector makes the residual vanish. -/
theorem C88_balanced_option_needs_balanced_grid (o : Op) (x : ℕ → ℝ) (h : residual3 false o x = 0) :
    o.vb (ibOf false x) = Phasor.ub (o.va (iaOf x)) ∧ o.vc (icOf false x) = Phasor.uc (o.va (iaOf x)) := by
  obtain ⟨_, _, da, db, dc, _⟩ := residual3_zero false o x h
  have eb : mbOf false x * ((o.Vdc / 2 : ℝ) : ℂ) = Phasor.ub (maOf x * ((o.Vdc / 2 : ℝ) : ℂ)) := by
    show Phasor.ub (maOf x) * _ = _; unfold Phasor.ub; ring
  have ec : mcOf false x * ((o.Vdc / 2 : ℝ) : ℂ) = Phasor.uc (maOf x * ((o.Vdc / 2 : ℝ) : ℂ)) := by
    show Phasor.uc (maOf x) * _ = _; unfold Phasor.uc; ring
  have ib : ibOf false x = Phasor.ub (iaOf x) := rfl
  have ic : icOf false x = Phasor.uc (iaOf x) := rfl
  constructor
  · have : o.vb (ibOf false x) = Phasor.ub (maOf x * ((o.Vdc / 2 : ℝ) : ℂ)) - o.Zf * Phasor.ub (iaOf x) := by rw [← eb, db, ib]; ring
    rw [this, da]; unfold Phasor.ub; ring
  · have : o.vc (icOf false x) = Phasor.uc (maOf x * ((o.Vdc / 2 : ℝ) : ℂ)) - o.Zf * Phasor.uc (iaOf x) := by rw [← ec, dc, ic]; ring
    rw [this, da]; unfold Phasor.uc; ring

/-- C88, balanced class. -/
theorem C88_steady_balanced (p : Par) (o : Op) (i : Inp) (x : ℕ → ℝ) (last : ℂ) (hr : residual3 false o x = 0) (hl : last = iaOf x)
    (hf : Fits p o i (iaOf x) (ibOf false x) (icOf false x)) (hv : (pll1 i.va i.w i.t (2 * Real.pi)).1 = 0) :
    (∀ r, r ≠ .wte → ThreePhaseBalanced.rhs (envB p i (initB o x last)) r = 0) ∧
      ThreePhaseBalanced.rhs (envB p i (initB o x last)) .wte = 2 * Real.pi * 60 := by
  subst hl
  have hp := residual3_zero false o x hr
  obtain ⟨gb, gc⟩ := C88_balanced_option_needs_balanced_grid o x hr
  have hi : ({ i with vb := Phasor.ub i.va, vc := Phasor.uc i.va } : Inp) = i := by
    obtain ⟨va, vb, vc, w, t, Vdc_ref, Q_ref, Sinsol, Tactual, Vdc0⟩ := i
    have h1 : vb = Phasor.ub va := hf.vb.trans (gb.trans (congrArg Phasor.ub hf.va.symm))
    have h2 : vc = Phasor.uc va := hf.vc.trans (gc.trans (congrArg Phasor.uc hf.va.symm))
    rw [h1, h2]
  have hv' : (pll3 i.va i.vb i.vc i.w i.t (2 * Real.pi)).1 = 0 := by
    rw [hf.vb, gb, hf.vc, gc, ← hf.va, C53_pll_three_phase]; exact hv
  obtain ⟨g1, g2, g3, g4, g5, g6⟩ := env3_rest p o i _ _ _ _ _ _ (2 * Real.pi) 0 hp hf hv' rfl rfl
  have he : envB p i (initB o x (iaOf x)) = env3 p i (iaOf x) (maOf x) 0 (ibOf false x) (mbOf false x) 0 (icOf false x) (mcOf false x) 0 o.Vdc
      (iaOf x).re (iaOf x).im 0 (2 * Real.pi) 0 := by
    have z1 : Phasor.ub 0 = 0 := by unfold Phasor.ub; simp
    have z2 : Phasor.uc 0 = 0 := by unfold Phasor.uc; simp
    show env3 p { i with vb := Phasor.ub i.va, vc := Phasor.uc i.va } (iaOf x) (maOf x) 0 (Phasor.ub (iaOf x)) (Phasor.ub (maOf x)) (Phasor.ub 0) (Phasor.uc (iaOf x))
      (Phasor.uc (maOf x)) (Phasor.uc 0) o.Vdc (iaOf x).re (iaOf x).im 0 (2 * Real.pi) 0 = _
    rw [hi, z1, z2]; rfl
  rw [he]
  exact ⟨rest_balanced g1 g2 g5, g6⟩

/-- C88, three-phase with constant DC voltage. -/
theorem C88_steady_three_constant_Vdc (p : Par) (o : Op) (i : Inp) (unb : Bool) (x : ℕ → ℝ) (last : ℂ) (hr : residual3 unb o x = 0) (hl : last = iaOf x)
    (hf : Fits p o i (iaOf x) (ibOf unb x) (icOf unb x)) (hv : (pll3 i.va i.vb i.vc i.w i.t (2 * Real.pi)).1 = 0)
    (hb : ibOf unb x = Phasor.ub (iaOf x)) (hc : icOf unb x = Phasor.uc (iaOf x)) :
    (∀ r, r ≠ .wte → ThreePhaseConstantVdc.rhs (envC3 p i (initC3 unb x last)) r = 0) ∧
      ThreePhaseConstantVdc.rhs (envC3 p i (initC3 unb x last)) .wte = 2 * Real.pi * 60 := by
  subst hl
  obtain ⟨hP, hQ, da, db, dc, _⟩ := residual3_zero unb o x hr
  have vt : ∀ m : ℂ, vtOf p ⟨0, 0⟩ m i.Vdc0 = m * ((o.Vdc / 2 : ℝ) : ℂ) := by
    intro m
    have h0 : (⟨0, 0⟩ : ℂ) = 0 := rfl
    unfold vtOf duty; rw [h0, hf.V0]; simp
  generalize he : envC3 p i (initC3 unb x (iaOf x)) = e
  have hS : e.S = sCalc (maOf x * ((o.Vdc / 2 : ℝ) : ℂ)) (mbOf unb x * ((o.Vdc / 2 : ℝ) : ℂ)) (mcOf unb x * ((o.Vdc / 2 : ℝ) : ℂ)) (iaOf x) (ibOf unb x) (icOf unb x) := by
    rw [← vt, ← vt, ← vt, ← he]; rfl
  have hSP : e.S_PCC = sCalc i.va i.vb i.vc (iaOf x) (ibOf unb x) (icOf unb x) := by rw [← he]; rfl
  have hQ' : (sCalc i.va i.vb i.vc (iaOf x) (ibOf unb x) (icOf unb x)).im = i.Q_ref := by rw [hf.va, hf.vb, hf.vc, hQ, hf.Q]
  have hPP : ppvOf p i i.Vdc0 = e.S.re := by rw [hS, hP, hf.P, hf.V0]
  have hwe : e.we = 2 * Real.pi * 60 := by
    rw [← he]
    show weCalc p.Kp_PLL (pll3 i.va i.vb i.vc i.w i.t (2 * Real.pi)).1 0 = _
    rw [hv]; unfold weCalc; ring
  have hi : e.ia_ref = iaOf x := by
    have : e.ia_ref = irefPOf p i (ppvOf p i i.Vdc0) (iaOf x).re (iaOf x).im e.S (sCalc i.va i.vb i.vc (iaOf x) (ibOf unb x) (icOf unb x)) := by rw [← he]; rfl
    rw [this]
    apply Complex.ext
    · rw [irefP_re, hPP]; ring
    · rw [irefP_im, hQ']; ring
  have hib : e.ib_ref = Phasor.ub e.ia_ref := by rw [← he]; rfl
  have hic : e.ic_ref = Phasor.uc e.ia_ref := by rw [← he]; rfl
  refine ⟨rest_c3 ⟨?_, ?_, ?_, ?_, ?_, ?_⟩ ⟨?_, ?_, ?_⟩ ⟨?_, ?_, ?_⟩ ⟨?_, ?_, ?_⟩, hwe⟩
  · rw [← he]; exact hf.L
  · have : e.winv = e.we := by rw [← he]; rfl
    rw [this, hwe, ← he]; exact hf.wb.symm
  · rw [← he]; show p.wbase ≠ 0; rw [hf.wb]; exact pi60
  · have : e.Ppv = ppvOf p i i.Vdc0 := by rw [← he]; rfl
    rw [this, hPP]
  · rw [hSP, hQ', ← he]; rfl
  · rw [← he]; exact hv
  · rw [← he]; rfl
  · rw [hi, ← he]; rfl
  · rw [← he]
    show vtOf p ⟨0, 0⟩ (maOf x) i.Vdc0 = i.va + ((p.Rf : ℂ) + I * (p.Lf : ℂ)) * iaOf x
    rw [vt, da, hf.Z, hf.va]
  · rw [← he]; rfl
  · rw [hib, hi, ← hb, ← he]; rfl
  · rw [← he]
    show vtOf p ⟨0, 0⟩ (mbOf unb x) i.Vdc0 = i.vb + ((p.Rf : ℂ) + I * (p.Lf : ℂ)) * ibOf unb x
    rw [vt, db, hf.Z, hf.vb]
  · rw [← he]; rfl
  · rw [hic, hi, ← hc, ← he]; rfl
  · rw [← he]
    show vtOf p ⟨0, 0⟩ (mcOf unb x) i.Vdc0 = i.vc + ((p.Rf : ℂ) + I * (p.Lf : ℂ)) * icOf unb x
    rw [vt, dc, hf.Z, hf.vc]

end SS
end Ode
end PvDer
