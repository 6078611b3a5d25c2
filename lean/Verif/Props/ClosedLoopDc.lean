import Verif.Lemmas.DcLoop
import Verif.Props.ClosedLoop
import Verif.Props.Balanced

/-!
# C124 for the classes that control their DC voltage

Single-phase and balanced three-phase: both are the same loop on the states of phase a, with the power of one or of three phases (`G`).
-/

namespace PvDer
namespace Ode
open Complex Phasor LocStab

/-- Constant operating conditions of a model that controls its DC voltage: grid voltage `v` (angle zero) and frequency `w`, DC reference `U`, no reactive power demand, the PV characteristic `F` (power over
DC voltage); at the reference it delivers the power that the current `i` carries in each of `G` phases: what the grid takes plus the filter losses. -/
structure OperatingDc (G : ℝ) (p : Par) (v w U i : ℝ) (F : ℝ → ℝ) (inp : ℝ → Inp) : Prop where
  grid : SteadyGrid (v : ℂ) w inp
  dc : ∀ t, 0 ≤ t → (inp t).Vdc_ref = U
  q : ∀ t, 0 ≤ t → (inp t).Q_ref = 0
  pv : ∀ t, 0 ≤ t → ∀ x, ppvOf p (inp t) x = F x
  power : F U = G / 2 * (v * i + p.Rf * i ^ 2)

namespace DcLoop
open SinglePhase (V rhs)

/-- The parameters of the linearised loop; `F'` is the slope of the PV characteristic. -/
noncomputable def par (G : ℝ) (p : Par) (v w U i F' : ℝ) : DcPar where
  R := p.Rf
  L := p.Lf
  g := U / 2
  w0 := w / p.wbase
  wb := p.wbase
  v := v
  i := i
  Kp := p.Kp_GCC
  Ki := p.Ki_GCC
  wp := p.wp
  a1 := -p.Kp_DC
  a2 := -p.Ki_DC
  cs := G / (2 * U * p.C)
  ϑ := -F' / (U * p.C)
  QP := G / 2 * p.Kp_Q * v
  QI := G / 2 * p.Ki_Q * v
  Kv := p.Kp_PLL * v
  J := p.Ki_PLL * v

/-- The operating point at time `t`. -/
noncomputable def rest (p : Par) (v w U i t : ℝ) : V → ℝ
  | .iaR => i
  | .iaI => 0
  | .xaR => (v + p.Rf * i) / (U / 2)
  | .xaI => p.Lf * (w / p.wbase) * i / (U / 2)
  | .uaR => 0
  | .uaI => 0
  | .Vdc => U
  | .xDC => i
  | .xQ => 0
  | .xPLL => w - 2 * Real.pi * 60
  | .wte => w * t

/-- Deviations by name. -/
def dev (z : V → ℝ) : DevDc := ⟨z .iaR, z .iaI, z .xaR, z .xaI, z .uaR, z .uaI, z .Vdc, z .xDC, z .xQ, z .xPLL, z .wte⟩

/-- Linear part. -/
noncomputable def lin (P : DcPar) (z : V → ℝ) : V → ℝ
  | .iaR => (P.lin (dev z)).e1
  | .iaI => (P.lin (dev z)).e2
  | .xaR => (P.lin (dev z)).ξ1
  | .xaI => (P.lin (dev z)).ξ2
  | .uaR => (P.lin (dev z)).u1
  | .uaI => (P.lin (dev z)).u2
  | .Vdc => (P.lin (dev z)).s
  | .xDC => (P.lin (dev z)).x
  | .xQ => (P.lin (dev z)).q
  | .xPLL => (P.lin (dev z)).χ
  | .wte => (P.lin (dev z)).φ

theorem dev_lin (P : DcPar) (z : V → ℝ) : dev (lin P z) = P.lin (dev z) := rfl

/-- Terms of second order; `H` is the PV current into the DC link, `H'` its slope. -/
noncomputable def rem (P : DcPar) (U κ : ℝ) (H : ℝ → ℝ) (H' : ℝ) : V → (V → ℝ) → ℝ
  | .iaR, z => 1 / P.wb * ((z .xPLL - P.Kv * Real.sin (z .wte)) * z .iaI) + 1 / (2 * P.L) * (P.D1 (dev z) * z .Vdc)
  | .iaI, z => -(1 / P.wb) * ((z .xPLL - P.Kv * Real.sin (z .wte)) * z .iaR) + P.i / P.wb * P.Kv * (Real.sin (z .wte) - z .wte) + 1 / (2 * P.L) * (P.D2 (dev z) * z .Vdc)
  | .Vdc, z => (H (U + z .Vdc) - H U - H' * z .Vdc) - κ * (P.D1 (dev z) * z .iaR + P.D2 (dev z) * z .iaI)
  | .xPLL, z => -P.J * (Real.sin (z .wte) - z .wte)
  | .wte, z => -P.Kv * (Real.sin (z .wte) - z .wte)
  | _, _ => 0

theorem rem_O2 (P : DcPar) {U κ : ℝ} {H : ℝ → ℝ} {H' : ℝ} (hH : Smooth H U H') (j : V) : O2 (rem P U κ H H' j) := by
  have c := fun j : V => O1.coord j
  have D1 : O1 (fun z : V → ℝ => P.D1 (dev z)) := ((c .uaR).smul P.Kp).add (c .xaR)
  have D2 : O1 (fun z : V → ℝ => P.D2 (dev z)) := ((c .uaI).smul P.Kp).add (c .xaI)
  have ω : O1 (fun z : V → ℝ => z .xPLL - P.Kv * Real.sin (z .wte)) := (c .xPLL).sub ((c .wte).sin.smul P.Kv)
  have s : O2 (fun z : V → ℝ => Real.sin (z .wte) - z .wte) := O2.sin (c .wte)
  cases j
  · exact ((ω.mul (c .iaI)).smul _).add ((D1.mul (c .Vdc)).smul _)
  · exact (((ω.mul (c .iaR)).smul _).add (s.smul _)).add ((D2.mul (c .Vdc)).smul _)
  · exact O2.zero
  · exact O2.zero
  · exact O2.zero
  · exact O2.zero
  · exact (hH.O2 (c .Vdc)).sub (((D1.mul (c .iaR)).add (D2.mul (c .iaI))).smul _)
  · exact O2.zero
  · exact O2.zero
  · exact s.smul _
  · exact s.smul _

/-- The deviations do not reach the limiters, and the DC voltage stays positive. -/
def Inside (G : ℝ) (p : Par) (v w U i : ℝ) (z : V → ℝ) : Prop :=
  |p.Kp_GCC * z .uaR + z .xaR| + |p.Kp_GCC * z .uaI + z .xaI| < p.m_limit - ‖(⟨(v + p.Rf * i) / (U / 2), p.Lf * (w / p.wbase) * i / (U / 2)⟩ : ℂ)‖ ∧
  |z .xDC - p.Kp_DC * z .Vdc| + |z .xQ - p.Kp_Q * (G / 2 * v * z .iaI)| < p.iref_limit - |i| ∧ |z .Vdc| < U

variable {G : ℝ} {p : Par} {v w U i : ℝ}

theorem inside_near (hU : 0 < U) (hm : ‖(⟨(v + p.Rf * i) / (U / 2), p.Lf * (w / p.wbase) * i / (U / 2)⟩ : ℂ)‖ < p.m_limit) (hi : |i| < p.iref_limit) : Near (Inside G p v w U i) := by
  have c := fun j : V => O1.coord j
  have D1 : O1 (fun z : V → ℝ => p.Kp_GCC * z .uaR + z .xaR) := ((c .uaR).smul _).add (c .xaR)
  have D2 : O1 (fun z : V → ℝ => p.Kp_GCC * z .uaI + z .xaI) := ((c .uaI).smul _).add (c .xaI)
  have h1 := (D1.abs.add D2.abs).small (sub_pos.2 hm)
  have h2 := (((c .xDC).sub ((c .Vdc).smul p.Kp_DC)).abs.add ((c .xQ).sub (((c .iaI).smul (G / 2 * v)).smul p.Kp_Q)).abs).small (sub_pos.2 hi)
  exact ((h1.and h2).and ((c .Vdc).small hU)).mono (fun z hz => ⟨(le_abs_self _).trans_lt hz.1.1, (le_abs_self _).trans_lt hz.1.2, hz.2⟩)

/-- The attributes that the rows read, for the operating conditions: shared by the single-phase and the balanced class. -/
structure Looks (G : ℝ) (p : Par) (v w U : ℝ) (F : ℝ → ℝ) (t : ℝ) (y : V → ℝ) (e : Env) : Prop where
  ia : e.ia = ⟨y .iaR, y .iaI⟩
  xa : e.xa = ⟨y .xaR, y .xaI⟩
  ua : e.ua = ⟨y .uaR, y .uaI⟩
  va : e.va = (v : ℂ)
  vta : e.vta = vtOf p e.ua e.xa (y .Vdc)
  S : e.S.re = G * (sPh e.vta e.ia).re
  SP : e.S_PCC.im = G * (sPh e.va e.ia).im
  Vdc : e.Vdc = y .Vdc
  xDC : e.xDC = y .xDC
  xQ : e.xQ = y .xQ
  iref : e.ia_ref = irefD e
  Ppv : e.Ppv = F (y .Vdc)
  vd : e.vd = -(v * Real.sin (y .wte - w * t))
  we : e.we = weCalc p.Kp_PLL e.vd (y .xPLL)
  winv : e.winv = e.we
  Vref : e.Vdc_ref = U
  Qref : e.Q_ref = 0
  circuit : e.Lf = p.Lf ∧ e.Rf = p.Rf ∧ e.C = p.C ∧ e.wbase = p.wbase
  gains : e.Kp_GCC = p.Kp_GCC ∧ e.Ki_GCC = p.Ki_GCC ∧ e.wp = p.wp ∧ e.Kp_DC = p.Kp_DC ∧ e.Ki_DC = p.Ki_DC ∧ e.Kp_Q = p.Kp_Q ∧ e.Ki_Q = p.Ki_Q ∧ e.Ki_PLL = p.Ki_PLL
  limits : e.m_limit = p.m_limit ∧ e.iref_limit = p.iref_limit

theorem looks_single (hv : 0 < v) {F : ℝ → ℝ} {inp : ℝ → Inp} (ho : OperatingDc 1 p v w U i F inp) {t : ℝ} (ht : 0 ≤ t) (y : V → ℝ) : Looks 1 p v w U F t y (env1 p (inp t) y) := by
  obtain ⟨g1, -, -, g4, g5⟩ := ho.grid t ht
  refine ⟨rfl, rfl, rfl, g1, rfl, (one_mul _).symm, (one_mul _).symm, rfl, rfl, rfl, rfl, ho.pv t ht _, ?_, rfl, rfl, ho.dc t ht, ho.q t ht, ⟨rfl, rfl, rfl, rfl⟩,
    ⟨rfl, rfl, rfl, rfl, rfl, rfl, rfl, rfl⟩, ⟨rfl, rfl⟩⟩
  show (pll1 (inp t).va (inp t).w (inp t).t (y .wte)).1 = _
  rw [g1, g4, g5]
  have := pll1_steady hv w t (y .wte - w * t)
  rwa [add_sub_cancel] at this

/-- The rows around the operating point. -/
theorem rows (hU : 0 < U) (hL : p.Lf ≠ 0) (hC : p.C ≠ 0) {F : ℝ → ℝ} (F' : ℝ) (hF : F U = G / 2 * (v * i + p.Rf * i ^ 2)) {t : ℝ} (z : V → ℝ) (hz : Inside G p v w U i z) {e : Env}
    (h : Looks G p v w U F t (fun j => rest p v w U i t j + z j) e) (j : V) :
    rhs e j = (if j = .wte then w else 0) + (lin (par G p v w U i F') z j + rem (par G p v w U i F') U (G / (4 * p.C)) (fun x => 1 / p.C * (F x / x)) (1 / p.C * (F' / U - F U / U ^ 2)) j z) := by
  obtain ⟨cL, cR, cC, cw⟩ := h.circuit
  obtain ⟨gKp, gKi, gwp, gKd, gKid, gKq, gKiq, gKpll⟩ := h.gains
  obtain ⟨lm, li⟩ := h.limits
  obtain ⟨z1, z2, z3⟩ := hz
  have hU' := hU.ne'
  have hs : 0 < U + z .Vdc := by have := (abs_lt.1 z3).1; linarith
  have eV : e.Vdc = U + z .Vdc := h.Vdc
  have eva : e.va = (v : ℂ) := h.va
  have evd : e.vd = -(v * Real.sin (z .wte)) := by
    rw [h.vd]
    show -(v * Real.sin (w * t + z .wte - w * t)) = _
    rw [add_sub_cancel_left]
  have ewe : e.we = w + (z .xPLL - p.Kp_PLL * v * Real.sin (z .wte)) := by
    rw [h.we, evd, weCalc]
    show _ + (w - 2 * Real.pi * 60 + z .xPLL) + _ = _
    ring
  have ewi : e.winv = e.we := h.winv
  have eia : e.ia = ⟨i + z .iaR, 0 + z .iaI⟩ := h.ia
  have eua : e.ua = ⟨0 + z .uaR, 0 + z .uaI⟩ := h.ua
  have exa : e.xa = ⟨(v + p.Rf * i) / (U / 2) + z .xaR, p.Lf * (w / p.wbase) * i / (U / 2) + z .xaI⟩ := h.xa
  set M1 := (v + p.Rf * i) / (U / 2) with hM1
  set M2 := p.Lf * (w / p.wbase) * i / (U / 2) with hM2
  have evt : e.vta = ⟨(M1 + (p.Kp_GCC * z .uaR + z .xaR)) * ((U + z .Vdc) / 2), (M2 + (p.Kp_GCC * z .uaI + z .xaI)) * ((U + z .Vdc) / 2)⟩ := by
    rw [h.vta, eua, exa, vtOf, duty]
    show _ * (((U + z .Vdc) / 2 : ℝ) : ℂ) = _
    rw [mul_comm]
    apply Complex.ext
    · simp only [Complex.re_ofReal_mul, Complex.add_re]
      ring
    · simp only [Complex.im_ofReal_mul, Complex.add_im]
      ring
  have eS : e.S.re = G * (1 / 2 * ((M1 + (p.Kp_GCC * z .uaR + z .xaR)) * ((U + z .Vdc) / 2) * (i + z .iaR) + (M2 + (p.Kp_GCC * z .uaI + z .xaI)) * ((U + z .Vdc) / 2) * (0 + z .iaI))) := by
    rw [h.S, sPh_re, evt, eia]
  have eSP : e.S_PCC.im = -(G / 2 * v * z .iaI) := by
    rw [h.SP, sPh_im, eva, eia]
    simp only [Complex.ofReal_re, Complex.ofReal_im]
    ring
  have ePp : e.Ppv = F (U + z .Vdc) := h.Ppv
  have eQ : e.Q_ref = 0 := h.Qref
  have eir : irefD e = ⟨i + (z .xDC - p.Kp_DC * z .Vdc), z .xQ - p.Kp_Q * (G / 2 * v * z .iaI)⟩ := by
    have e1 : e.xDC = i + z .xDC := h.xDC
    have e3 : e.xQ = 0 + z .xQ := h.xQ
    unfold irefD
    rw [h.Vref, eV, eQ, eSP, e1, e3, gKd, gKq]
    apply Complex.ext
    · simp only [Complex.add_re, Complex.ofReal_re, Complex.mul_re, Complex.I_re, Complex.I_im, Complex.ofReal_im]
      ring
    · simp only [Complex.add_im, Complex.ofReal_re, Complex.mul_im, Complex.I_re, Complex.I_im, Complex.ofReal_im]
      ring
  have eiar : e.ia_ref = irefD e := h.iref
  have ns : ¬ mSat e e.ua e.xa := by
    rw [mSat, gt_iff_lt, not_lt, gKp, lm, eua, exa]
    have h1 : (p.Kp_GCC : ℂ) * ⟨0 + z .uaR, 0 + z .uaI⟩ + ⟨M1 + z .xaR, M2 + z .xaI⟩ = ⟨M1, M2⟩ + ⟨p.Kp_GCC * z .uaR + z .xaR, p.Kp_GCC * z .uaI + z .xaI⟩ := by
      apply Complex.ext
      · simp only [Complex.re_ofReal_mul, Complex.add_re]
        ring
      · simp only [Complex.im_ofReal_mul, Complex.add_im]
        ring
    rw [h1]
    refine (norm_add_le _ _).trans ?_
    have h2 := norm_mk_le (p.Kp_GCC * z .uaR + z .xaR) (p.Kp_GCC * z .uaI + z .xaI)
    linarith
  have ni : ¬ ‖irefD e‖ > e.iref_limit := by
    rw [gt_iff_lt, not_lt, eir, li]
    refine (norm_mk_le _ _).trans ?_
    have h4 := abs_add_le i (z .xDC - p.Kp_DC * z .Vdc)
    linarith
  have aw := C57_antiwindup_single_phase e
  have m1 : (par G p v w U i F').m1 = M1 := rfl
  have m2 : (par G p v w U i F').m2 = M2 := rfl
  have b1 : M1 * (U / 2) = v + p.Rf * i := by rw [hM1]; field_simp
  have b2 : M2 * (U / 2) = p.Lf * (w / p.wbase) * i := by rw [hM2]; field_simp
  cases j
  · simp only [rhs, lin, rem, DcPar.lin, reduceCtorEq, if_false, ewi, ewe, evt, eia, eva, m1, cL, cR, cw]
    show 1 / p.Lf * (-p.Rf * (i + z .iaR) - (v : ℂ).re + (M1 + (p.Kp_GCC * z .uaR + z .xaR)) * ((U + z .Vdc) / 2)) + (w + (z .xPLL - p.Kp_PLL * v * Real.sin (z .wte))) / p.wbase * (0 + z .iaI) = _
    simp only [Complex.ofReal_re, DcPar.D1, par, dev]
    have q : -p.Rf * (i + z .iaR) - v + (M1 + (p.Kp_GCC * z .uaR + z .xaR)) * ((U + z .Vdc) / 2) =
        -p.Rf * z .iaR + U / 2 * (p.Kp_GCC * z .uaR + z .xaR) + 1 / 2 * M1 * z .Vdc + 1 / 2 * ((p.Kp_GCC * z .uaR + z .xaR) * z .Vdc) := by linear_combination b1
    rw [q]
    clear_value M1 M2
    field_simp
    ring
  · simp only [rhs, lin, rem, DcPar.lin, reduceCtorEq, if_false, ewi, ewe, evt, eia, eva, m2, cL, cR, cw]
    show 1 / p.Lf * (-p.Rf * (0 + z .iaI) - (v : ℂ).im + (M2 + (p.Kp_GCC * z .uaI + z .xaI)) * ((U + z .Vdc) / 2)) - (w + (z .xPLL - p.Kp_PLL * v * Real.sin (z .wte))) / p.wbase * (i + z .iaR) = _
    simp only [Complex.ofReal_im, DcPar.D2, par, dev]
    have q : -p.Rf * (0 + z .iaI) - 0 + (M2 + (p.Kp_GCC * z .uaI + z .xaI)) * ((U + z .Vdc) / 2) =
        -p.Rf * z .iaI + p.Lf * (w / p.wbase) * i + U / 2 * (p.Kp_GCC * z .uaI + z .xaI) + 1 / 2 * M2 * z .Vdc + 1 / 2 * ((p.Kp_GCC * z .uaI + z .xaI) * z .Vdc) := by linear_combination b2
    rw [q]
    clear_value M1 M2
    field_simp
    ring
  · rw [aw.1.plain ns, gKi, eua]
    show p.Ki_GCC * (0 + z .uaR) = 0 + (p.Ki_GCC * z .uaR + 0)
    ring
  · rw [aw.2.1.plain ns, gKi, eua]
    show p.Ki_GCC * (0 + z .uaI) = 0 + (p.Ki_GCC * z .uaI + 0)
    ring
  · rw [aw.2.2.1.plain ns, eiar, eir, eua, eia, gwp]
    show p.wp * (-(0 + z .uaR) + (i + (z .xDC - p.Kp_DC * z .Vdc)) - (i + z .iaR)) = 0 + (p.wp * (-z .uaR + (z .xDC + -p.Kp_DC * z .Vdc) - z .iaR) + 0)
    ring
  · rw [aw.2.2.2.1.plain ns, eiar, eir, eua, eia, gwp]
    show p.wp * (-(0 + z .uaI) + (z .xQ - p.Kp_Q * (G / 2 * v * z .iaI)) - (0 + z .iaI)) = 0 + (p.wp * (-z .uaI + (z .xQ - G / 2 * p.Kp_Q * v * z .iaI) - z .iaI) + 0)
    ring
  · simp only [rhs, lin, rem, DcPar.lin, reduceCtorEq, if_false]
    rw [ePp, eS, eV, cC, hF, m1]
    have q2 : 1 / p.C * (G / 2 * (v * i + p.Rf * i ^ 2) / U) = G / (4 * p.C) * (M1 * i) := by
      rw [show v * i + p.Rf * i ^ 2 = (v + p.Rf * i) * i by ring, ← b1]; field_simp; ring
    have q3 : 1 / p.C * (F' / U - G / 2 * (v * i + p.Rf * i ^ 2) / U ^ 2) = F' / (U * p.C) - G / (4 * p.C * U) * (M1 * i) := by
      rw [show v * i + p.Rf * i ^ 2 = (v + p.Rf * i) * i by ring, ← b1]; field_simp; ring
    rw [q3]
    rw [q2]
    have q5 : (par G p v w U i F').σ (dev z) = U / 2 * (M1 * z .iaR + i * (p.Kp_GCC * z .uaR + z .xaR) + M2 * z .iaI) := by
      show (v + p.Rf * i) * z .iaR + U / 2 * i * (p.Kp_GCC * z .uaR + z .xaR) + p.Lf * (w / p.wbase) * i * z .iaI = _
      linear_combination (-z .iaR) * b1 - z .iaI * b2
    rw [q5]
    have q6 : (F (U + z .Vdc) - G * (1 / 2 * ((M1 + (p.Kp_GCC * z .uaR + z .xaR)) * ((U + z .Vdc) / 2) * (i + z .iaR) + (M2 + (p.Kp_GCC * z .uaI + z .xaI)) * ((U + z .Vdc) / 2) * (0 + z .iaI)))) / ((U + z .Vdc) * p.C) =
        1 / p.C * (F (U + z .Vdc) / (U + z .Vdc)) - G / (4 * p.C) * ((M1 + (p.Kp_GCC * z .uaR + z .xaR)) * (i + z .iaR) + (M2 + (p.Kp_GCC * z .uaI + z .xaI)) * z .iaI) := by
      field_simp
      ring
    rw [q6]
    generalize F (U + z .Vdc) / (U + z .Vdc) = f
    have k1 : (par G p v w U i F').ϑ = -F' / (U * p.C) := rfl
    have k2 : (par G p v w U i F').cs = G / (2 * U * p.C) := rfl
    have k3 : (par G p v w U i F').i = i := rfl
    have k4 : (par G p v w U i F').D1 (dev z) = p.Kp_GCC * z .uaR + z .xaR := rfl
    have k5 : (par G p v w U i F').D2 (dev z) = p.Kp_GCC * z .uaI + z .xaI := rfl
    have k6 : (dev z).s = z .Vdc := rfl
    rw [k1, k2, k3, k4, k5, k6]
    clear_value M1 M2
    field_simp
    ring
  · rw [aw.2.2.2.2.1.plain ni, h.Vref, eV, gKid]
    show p.Ki_DC * (U - (U + z .Vdc)) = 0 + (-p.Ki_DC * z .Vdc + 0)
    ring
  · rw [aw.2.2.2.2.2.plain ni, eQ, eSP, gKiq]
    show -p.Ki_Q * (0 - -(G / 2 * v * z .iaI)) = 0 + (-(G / 2 * p.Ki_Q * v) * z .iaI + 0)
    ring
  · show e.Ki_PLL * e.vd = 0 + (-(p.Ki_PLL * v) * z .wte + -(p.Ki_PLL * v) * (Real.sin (z .wte) - z .wte))
    rw [evd, gKpll]
    ring
  · show e.we = (if V.wte = V.wte then w else 0) + (z .xPLL - p.Kp_PLL * v * z .wte + -(p.Kp_PLL * v) * (Real.sin (z .wte) - z .wte))
    rw [ewe, if_pos rfl]
    ring

theorem isLin_forms (P : DcPar) (ε : ℝ) : IsLinearMap ℝ (fun z : V → ℝ => P.forms ε (dev z)) := by
  constructor
  · intro x y
    funext j
    rcases j with (j | j) | (j | j) <;> fin_cases j <;>
      simp [DcPar.forms, axisForms, DcPar.r1, DcPar.r2, DcPar.h1, DcPar.h2, DcPar.Dh, DcPar.ξh, DcPar.ŝ, DcPar.D1, DcPar.D2, dev] <;> ring
  · intro c x
    funext j
    rcases j with (j | j) | (j | j) <;> fin_cases j <;>
      simp [DcPar.forms, axisForms, DcPar.r1, DcPar.r2, DcPar.h1, DcPar.h2, DcPar.Dh, DcPar.ξh, DcPar.ŝ, DcPar.D1, DcPar.D2, dev] <;> ring

theorem isLin_sizes (P : DcPar) : IsLinearMap ℝ (fun z : V → ℝ => P.sizes (dev z)) := by
  constructor
  · intro x y
    funext j
    rcases j with (j | j) | j <;> fin_cases j <;>
      simp [DcPar.sizes, DcPar.r1, DcPar.r2, DcPar.h1, DcPar.h2, DcPar.Dh, DcPar.ξh, DcPar.ŝ, DcPar.D1, DcPar.D2, dev] <;> ring
  · intro c x
    funext j
    rcases j with (j | j) | j <;> fin_cases j <;>
      simp [DcPar.sizes, DcPar.r1, DcPar.r2, DcPar.h1, DcPar.h2, DcPar.Dh, DcPar.ξh, DcPar.ŝ, DcPar.D1, DcPar.D2, dev] <;> ring

theorem dev_zero {z : V → ℝ} (h : dev z = ⟨0, 0, 0, 0, 0, 0, 0, 0, 0, 0, 0⟩) : z = 0 := by
  have h' := h
  simp only [dev, DevDc.mk.injEq] at h'
  obtain ⟨h1, h2, h3, h4, h5, h6, h7, h8, h9, h10, h11⟩ := h'
  funext j
  cases j <;> assumption

theorem rest_deriv (t : ℝ) (j : V) : HasDerivAt (fun s => rest p v w U i s j) (if j = .wte then w else 0) t := by
  cases j <;> simp only [rest, reduceCtorEq, if_false, if_true] <;> first | exact hasDerivAt_const t _ | skip
  simpa using (hasDerivAt_id t).const_mul w

/-- Stability of any equations whose rows are those of a loop with the attributes `Looks`. -/
theorem settles (hU : 0 < U) (hC : p.C ≠ 0) {F : ℝ → ℝ} {F' : ℝ} (hF : F U = G / 2 * (v * i + p.Rf * i ^ 2)) (hS : Smooth F U F') {ε N E : ℝ} (cert : DcOk (par G p v w U i F') ε N E)
    (hm : ‖(⟨(v + p.Rf * i) / (U / 2), p.Lf * (w / p.wbase) * i / (U / 2)⟩ : ℂ)‖ < p.m_limit) (hi : |i| < p.iref_limit) :
    ∃ δ > 0, ∃ M > 0, ∃ a > 0, ∀ (e : ℝ → (V → ℝ) → Env) (Y : ℝ → V → ℝ), (∀ t, 0 ≤ t → ∀ y, Looks G p v w U F t y (e t y)) → (∀ t, 0 ≤ t → Solves (fun t y => rhs (e t y)) Y t) →
      ‖Y 0 - rest p v w U i 0‖ ≤ δ → ∀ t, 0 ≤ t → ‖Y t - rest p v w U i t‖ ≤ M * ‖Y 0 - rest p v w U i 0‖ * Real.exp (-a * t) := by
  have hL : p.Lf ≠ 0 := cert.a1.pL.ne'
  have hH : Smooth (fun x => 1 / p.C * (F x / x)) U (1 / p.C * (F' / U - F U / U ^ 2)) := (hS.div_self hU).const_mul (1 / p.C)
  obtain ⟨δ, hδ, M, hM, a, ha, main⟩ := stable ((par G p v w U i F').weights ε N E) (dc_weights_pos cert) (fun z : V → ℝ => (par G p v w U i F').forms ε (dev z)) (isLin_forms _ _)
    (fun z hz => dev_zero (dc_forms_inj cert _ hz)) (fun z : V → ℝ => (par G p v w U i F').sizes (dev z)) (isLin_sizes _) (fun z hz => dev_zero (dc_sizes_inj cert _ hz))
    (lin (par G p v w U i F')) (rt_pos cert) (fun z => by rw [dev_lin]; exact dc_dis cert (dev z)) _ (rem_O2 (par G p v w U i F') (κ := G / (4 * p.C)) hH) (inside_near (G := G) hU hm hi)
  refine ⟨δ, hδ, M, hM, a, ha, fun e Y ho hY h0 => ?_⟩
  refine main (fun t => Y t - rest p v w U i t) (fun t j => rhs (e t (Y t)) j - if j = .wte then w else 0) (fun t ht j => (hY t ht j).sub (rest_deriv t j)) (fun t ht hz j => ?_) h0
  have e1 : (fun j => rest p v w U i t j + (Y t - rest p v w U i t) j) = Y t := by
    funext j; simp
  have r := rows hU hL hC F' hF _ hz (e := e t (Y t)) (by rw [e1]; exact ho t ht _) j
  rw [r, add_sub_cancel_left]

/-- The operating point solves any equations whose rows are those of a loop with the attributes `Looks`. -/
theorem rest_solves (hU : 0 < U) (hL : p.Lf ≠ 0) (hC : p.C ≠ 0) {F : ℝ → ℝ} (hF : F U = G / 2 * (v * i + p.Rf * i ^ 2))
    (hm : ‖(⟨(v + p.Rf * i) / (U / 2), p.Lf * (w / p.wbase) * i / (U / 2)⟩ : ℂ)‖ < p.m_limit) (hi : |i| < p.iref_limit)
    (e : ℝ → (V → ℝ) → Env) (t : ℝ) (he : Looks G p v w U F t (rest p v w U i t) (e t (rest p v w U i t))) : Solves (fun t y => rhs (e t y)) (rest p v w U i) t := by
  intro j
  have h0 : Inside G p v w U i 0 := by
    obtain ⟨η, hη, h⟩ := inside_near (G := G) hU hm hi
    exact h 0 (by simpa using hη.le)
  have e1 : (fun j => rest p v w U i t j + (0 : V → ℝ) j) = rest p v w U i t := by
    funext j; simp
  have r := rows hU hL hC 0 hF 0 h0 (e := e t (rest p v w U i t)) (by rw [e1]; exact he) j
  have l0 : ∀ P : DcPar, ∀ κ H', lin P 0 j + rem P U κ (fun x => 1 / p.C * (F x / x)) H' j 0 = 0 := by
    intro P κ H'
    cases j <;> simp [lin, rem, DcPar.lin, DcPar.σ, DcPar.D1, DcPar.D2, dev]
  rw [l0, add_zero] at r
  beta_reduce
  rw [r]
  exact rest_deriv t j

end DcLoop

namespace SinglePhase
open DcLoop (rest par)
variable {p : Par} {v w U i : ℝ}

/-- C124: the operating point is a solution of the single-phase model. -/
theorem C124_rest_single (hv : 0 < v) (hU : 0 < U) (hL : p.Lf ≠ 0) (hC : p.C ≠ 0) (hm : ‖(⟨(v + p.Rf * i) / (U / 2), p.Lf * (w / p.wbase) * i / (U / 2)⟩ : ℂ)‖ < p.m_limit) (hi : |i| < p.iref_limit)
    {F : ℝ → ℝ} {inp : ℝ → Inp} (ho : OperatingDc 1 p v w U i F inp) (t : ℝ) (ht : 0 ≤ t) : Solves (fun t y => rhs (env1 p (inp t) y)) (rest p v w U i) t :=
  DcLoop.rest_solves hU hL hC ho.power hm hi (fun t y => env1 p (inp t) y) t (DcLoop.looks_single hv ho ht _)

/-- C124: local exponential stability of the single-phase model. -/
theorem C124_settles_single (hv : 0 < v) (hU : 0 < U) (hC : p.C ≠ 0) {F : ℝ → ℝ} {F' : ℝ} (hF : F U = 1 / 2 * (v * i + p.Rf * i ^ 2)) (hS : Smooth F U F') {ε N E : ℝ} (cert : DcOk (par 1 p v w U i F') ε N E)
    (hm : ‖(⟨(v + p.Rf * i) / (U / 2), p.Lf * (w / p.wbase) * i / (U / 2)⟩ : ℂ)‖ < p.m_limit) (hi : |i| < p.iref_limit) :
    ∃ δ > 0, ∃ M > 0, ∃ a > 0, ∀ (inp : ℝ → Inp) (Y : ℝ → V → ℝ), OperatingDc 1 p v w U i F inp → (∀ t, 0 ≤ t → Solves (fun t y => rhs (env1 p (inp t) y)) Y t) →
      ‖Y 0 - rest p v w U i 0‖ ≤ δ → ∀ t, 0 ≤ t → ‖Y t - rest p v w U i t‖ ≤ M * ‖Y 0 - rest p v w U i 0‖ * Real.exp (-a * t) := by
  obtain ⟨δ, hδ, M, hM, a, ha, main⟩ := DcLoop.settles hU hC hF hS cert hm hi
  exact ⟨δ, hδ, M, hM, a, ha, fun inp Y ho hY => main (fun t y => env1 p (inp t) y) Y (fun t ht y => DcLoop.looks_single hv ho ht y) hY⟩

end SinglePhase
namespace ThreePhaseBalanced
open DcLoop (rest par Looks)

/-- The states of the balanced class are those of the single-phase class. -/
def toS : V → SinglePhase.V
  | .iaR => .iaR
  | .iaI => .iaI
  | .xaR => .xaR
  | .xaI => .xaI
  | .uaR => .uaR
  | .uaI => .uaI
  | .Vdc => .Vdc
  | .xDC => .xDC
  | .xQ => .xQ
  | .xPLL => .xPLL
  | .wte => .wte

/-- see `toS`. -/
def ofS : SinglePhase.V → V
  | .iaR => .iaR
  | .iaI => .iaI
  | .xaR => .xaR
  | .xaI => .xaI
  | .uaR => .uaR
  | .uaI => .uaI
  | .Vdc => .Vdc
  | .xDC => .xDC
  | .xQ => .xQ
  | .xPLL => .xPLL
  | .wte => .wte

theorem toS_ofS (j : SinglePhase.V) : toS (ofS j) = j := by cases j <;> rfl
theorem ofS_toS (j : V) : ofS (toS j) = j := by cases j <;> rfl

theorem rhs_same (e : Env) (j : V) : rhs e j = SinglePhase.rhs e (toS j) := by
  cases j <;> rfl

theorem norm_ofS (z : V → ℝ) : ‖fun j => z (ofS j)‖ = ‖z‖ := by
  apply le_antisymm
  · exact (pi_norm_le_iff_of_nonneg (norm_nonneg z)).2 (fun j => norm_le_pi_norm z (ofS j))
  · refine (pi_norm_le_iff_of_nonneg (norm_nonneg _)).2 (fun j => ?_)
    have := norm_le_pi_norm (fun j => z (ofS j)) (toS j)
    rwa [ofS_toS] at this

variable {p : Par} {v w U i : ℝ}

theorem looks_balanced (hv : 0 < v) {F : ℝ → ℝ} {inp : ℝ → Inp} (ho : OperatingDc 3 p v w U i F inp) {t : ℝ} (ht : 0 ≤ t) (y : V → ℝ) :
    Looks 3 p v w U F t (fun j => y (ofS j)) (envB p (inp t) y) := by
  obtain ⟨g1, g2, g3, g4, g5⟩ := ho.grid t ht
  have hu : ∀ x : ℂ, (3 : ℂ) * x = ((3 : ℝ) : ℂ) * x := fun x => by norm_num
  have du : ∀ x y : ℂ, vtOf p (ub x) (ub y) = fun r => ub (vtOf p x y r) := fun x y => by
    funext r; simp only [vtOf, duty, Phasor.ub]; ring
  have dc : ∀ x y : ℂ, vtOf p (uc x) (uc y) = fun r => uc (vtOf p x y r) := fun x y => by
    funext r; simp only [vtOf, duty, Phasor.uc]; ring
  refine ⟨rfl, rfl, rfl, g1, rfl, ?_, ?_, rfl, rfl, rfl, rfl, ho.pv t ht _, ?_, rfl, rfl, ho.dc t ht, ho.q t ht, ⟨rfl, rfl, rfl, rfl⟩, ⟨rfl, rfl, rfl, rfl, rfl, rfl, rfl, rfl⟩, ⟨rfl, rfl⟩⟩
  · simp only [envB, env3, du, dc]
    rw [C52_three_phase_power, hu, Complex.re_ofReal_mul]
  · simp only [envB, env3, Env.base]
    rw [C52_three_phase_power, hu, Complex.im_ofReal_mul]
  · show (pll3 (inp t).va (ub (inp t).va) (uc (inp t).va) (inp t).w (inp t).t (y .wte)).1 = _
    have := pll3_steady inp (v : ℂ) w ht ho.grid (y .wte)
    rw [g2, g3] at this
    rw [g1] at this ⊢
    rw [this]
    have := pll1_steady hv w t (y .wte - w * t)
    rwa [add_sub_cancel] at this

/-- C124: the operating point is a solution of the balanced model. -/
theorem C124_rest_balanced (hv : 0 < v) (hU : 0 < U) (hL : p.Lf ≠ 0) (hC : p.C ≠ 0) (hm : ‖(⟨(v + p.Rf * i) / (U / 2), p.Lf * (w / p.wbase) * i / (U / 2)⟩ : ℂ)‖ < p.m_limit) (hi : |i| < p.iref_limit)
    {F : ℝ → ℝ} {inp : ℝ → Inp} (ho : OperatingDc 3 p v w U i F inp) (t : ℝ) (ht : 0 ≤ t) : Solves (fun t y => rhs (envB p (inp t) y)) (fun t j => rest p v w U i t (toS j)) t := by
  intro j
  have e1 : (fun k => rest p v w U i t (toS (ofS k))) = rest p v w U i t := by funext k; rw [toS_ofS]
  have h := looks_balanced hv ho ht (fun j => rest p v w U i t (toS j))
  rw [e1] at h
  have := DcLoop.rest_solves hU hL hC ho.power hm hi (fun t y => envB p (inp t) (fun j => y (toS j))) t h (toS j)
  beta_reduce at this ⊢
  rw [rhs_same]
  exact this

/-- C124: local exponential stability of the balanced model. -/
theorem C124_settles_balanced (hv : 0 < v) (hU : 0 < U) (hC : p.C ≠ 0) {F : ℝ → ℝ} {F' : ℝ} (hF : F U = 3 / 2 * (v * i + p.Rf * i ^ 2)) (hS : Smooth F U F') {ε N E : ℝ} (cert : DcOk (par 3 p v w U i F') ε N E)
    (hm : ‖(⟨(v + p.Rf * i) / (U / 2), p.Lf * (w / p.wbase) * i / (U / 2)⟩ : ℂ)‖ < p.m_limit) (hi : |i| < p.iref_limit) :
    ∃ δ > 0, ∃ M > 0, ∃ a > 0, ∀ (inp : ℝ → Inp) (Y : ℝ → V → ℝ), OperatingDc 3 p v w U i F inp → (∀ t, 0 ≤ t → Solves (fun t y => rhs (envB p (inp t) y)) Y t) →
      ‖Y 0 - fun j => rest p v w U i 0 (toS j)‖ ≤ δ →
      ∀ t, 0 ≤ t → ‖Y t - fun j => rest p v w U i t (toS j)‖ ≤ M * ‖Y 0 - fun j => rest p v w U i 0 (toS j)‖ * Real.exp (-a * t) := by
  obtain ⟨δ, hδ, M, hM, a, ha, main⟩ := DcLoop.settles hU hC hF hS cert hm hi
  refine ⟨δ, hδ, M, hM, a, ha, fun inp Y ho hY => ?_⟩
  have nrm : ∀ t, ‖(fun j => Y t (ofS j)) - rest p v w U i t‖ = ‖Y t - fun j => rest p v w U i t (toS j)‖ := by
    intro t
    rw [← norm_ofS]
    congr 1
    funext j
    simp only [Pi.sub_apply, toS_ofS]
  have := main (fun t y => envB p (inp t) (fun j => y (toS j))) (fun t j => Y t (ofS j)) (fun t ht y => ?_) (fun t ht j => ?_)
  · simp only [nrm] at this
    exact this
  · have h := looks_balanced hv ho ht (fun j => y (toS j))
    simp only [toS_ofS] at h
    exact h
  · have h := hY t ht (ofS j)
    beta_reduce at h ⊢
    rw [rhs_same, toS_ofS] at h
    simp only [ofS_toS]
    exact h

end ThreePhaseBalanced
end Ode
end PvDer
