import Verif.Lemmas.ClosedLoop
import Verif.Lemmas.Remainder
import Verif.Props.Pll
import Verif.Props.AntiWindup

/-!
# C124: the closed loop is locally exponentially stable

On a steady grid, with constant DC voltage and PV power and no reactive power demand, the model has a steady operating point; every solution of the full nonlinear model (limiters included) that starts
close enough to it converges to it exponentially — with one radius, one overshoot factor and one rate for all of them.
-/

namespace PvDer
namespace Ode
open Complex Phasor LocStab

/-- Constant operating conditions of a model with constant DC voltage: grid voltage `v` (angle zero) and frequency `w`, DC voltage `V`, no reactive power demand, and a PV power that the current `i`
carries: what the grid takes plus the filter losses. -/
structure Operating (p : Par) (v w V i : ℝ) (inp : ℝ → Inp) : Prop where
  grid : SteadyGrid (v : ℂ) w inp
  dc : ∀ t, 0 ≤ t → (inp t).Vdc0 = V
  q : ∀ t, 0 ≤ t → (inp t).Q_ref = 0
  pv : ∀ t, 0 ≤ t → ppvOf p (inp t) V = 1 / 2 * (v * i + p.Rf * i ^ 2)

/-- The parameters of the linearised loop, single-phase. -/
noncomputable def loopPar (p : Par) (v w V i : ℝ) : LoopPar where
  R := p.Rf
  L := p.Lf
  g := V / 2
  w0 := w / p.wbase
  wb := p.wbase
  v := v
  i := i
  Kp := p.Kp_GCC
  Ki := p.Ki_GCC
  wp := p.wp
  PP := 1 / 2 * p.Kp_P
  PI := 1 / 2 * p.Ki_P
  QP := 1 / 2 * p.Kp_Q * v
  QI := 1 / 2 * p.Ki_Q * v
  Kv := p.Kp_PLL * v
  J := p.Ki_PLL * v

/-- The phase locked loop of the single-phase models on a steady grid, at the angle error `φ`. -/
theorem pll1_steady {v : ℝ} (hv : 0 < v) (w t φ : ℝ) : (pll1 (v : ℂ) w t (w * t + φ)).1 = -(v * Real.sin φ) := by
  rw [C53_pll_input]
  have : arg (v : ℂ) = 0 := arg_ofReal_of_nonneg hv.le
  rw [this, Complex.norm_real, Real.norm_of_nonneg hv.le, show w * t + 0 - (w * t + φ) = -φ by ring, Real.sin_neg]
  ring

theorem norm_mk_le (a b : ℝ) : ‖(⟨a, b⟩ : ℂ)‖ ≤ |a| + |b| := by
  have := Complex.norm_le_abs_re_add_abs_im ⟨a, b⟩
  exact this

namespace SinglePhaseConstantVdc
variable (p : Par) (v w U i : ℝ)

/-- The operating point at time `t`: the current carries the power, the duty cycle balances grid voltage and filter, the phase locked loop turns with the grid. -/
noncomputable def rest (t : ℝ) : V → ℝ
  | .iaR => i
  | .iaI => 0
  | .xaR => (v + p.Rf * i) / (U / 2)
  | .xaI => p.Lf * (w / p.wbase) * i / (U / 2)
  | .uaR => 0
  | .uaI => 0
  | .xP => i
  | .xQ => 0
  | .xPLL => w - 2 * Real.pi * 60
  | .wte => w * t

/-- Deviations by name. -/
def dev (z : V → ℝ) : Dev := ⟨z .iaR, z .iaI, z .xaR, z .xaI, z .uaR, z .uaI, z .xP, z .xQ, z .xPLL, z .wte⟩

/-- Linear part. -/
noncomputable def lin (P : LoopPar) (z : V → ℝ) : V → ℝ
  | .iaR => (P.lin (dev z)).e1
  | .iaI => (P.lin (dev z)).e2
  | .xaR => (P.lin (dev z)).ξ1
  | .xaI => (P.lin (dev z)).ξ2
  | .uaR => (P.lin (dev z)).u1
  | .uaI => (P.lin (dev z)).u2
  | .xP => (P.lin (dev z)).p
  | .xQ => (P.lin (dev z)).q
  | .xPLL => (P.lin (dev z)).χ
  | .wte => (P.lin (dev z)).φ

theorem dev_lin (P : LoopPar) (z : V → ℝ) : dev (lin P z) = P.lin (dev z) := rfl

/-- Power of the deviations with each other. -/
def cross (P : LoopPar) (d : Dev) : ℝ := P.g * (P.D1 d * d.e1 + P.D2 d * d.e2)

/-- Terms of second order. -/
noncomputable def rem (P : LoopPar) : V → (V → ℝ) → ℝ
  | .iaR, z => 1 / P.wb * ((z .xPLL - P.Kv * Real.sin (z .wte)) * z .iaI)
  | .iaI, z => -(1 / P.wb) * ((z .xPLL - P.Kv * Real.sin (z .wte)) * z .iaR) + P.i / P.wb * P.Kv * (Real.sin (z .wte) - z .wte)
  | .xaR, _ => 0
  | .xaI, _ => 0
  | .uaR, z => -(P.wp * P.PP) * cross P (dev z)
  | .uaI, _ => 0
  | .xP, z => -P.PI * cross P (dev z)
  | .xQ, _ => 0
  | .xPLL, z => -P.J * (Real.sin (z .wte) - z .wte)
  | .wte, z => -P.Kv * (Real.sin (z .wte) - z .wte)

theorem rem_O2 (P : LoopPar) (j : V) : O2 (rem P j) := by
  have c := fun j : V => O1.coord j
  have D1 : O1 (fun z : V → ℝ => P.D1 (dev z)) := ((c .uaR).smul P.Kp).add (c .xaR)
  have D2 : O1 (fun z : V → ℝ => P.D2 (dev z)) := ((c .uaI).smul P.Kp).add (c .xaI)
  have X : O2 (fun z : V → ℝ => cross P (dev z)) := ((D1.mul (c .iaR)).add (D2.mul (c .iaI))).smul P.g
  have ω : O1 (fun z : V → ℝ => z .xPLL - P.Kv * Real.sin (z .wte)) := (c .xPLL).sub ((c .wte).sin.smul P.Kv)
  have s : O2 (fun z : V → ℝ => Real.sin (z .wte) - z .wte) := O2.sin (c .wte)
  cases j
  · exact (ω.mul (c .iaI)).smul _
  · exact ((ω.mul (c .iaR)).smul _).add (s.smul _)
  · exact O2.zero
  · exact O2.zero
  · exact X.smul _
  · exact O2.zero
  · exact X.smul _
  · exact O2.zero
  · exact s.smul _
  · exact s.smul _

/-- The deviations do not reach the limiters. -/
def Inside (z : V → ℝ) : Prop :=
  |p.Kp_GCC * z .uaR + z .xaR| + |p.Kp_GCC * z .uaI + z .xaI| < p.m_limit - ‖(⟨(v + p.Rf * i) / (U / 2), p.Lf * (w / p.wbase) * i / (U / 2)⟩ : ℂ)‖ ∧
  |z .xP - p.Kp_P * (1 / 2 * ((loopPar p v w U i).σ (dev z) + cross (loopPar p v w U i) (dev z)))| + |z .xQ - p.Kp_Q * (1 / 2 * v * z .iaI)| < p.iref_limit - |i|

theorem inside_near (hm : ‖(⟨(v + p.Rf * i) / (U / 2), p.Lf * (w / p.wbase) * i / (U / 2)⟩ : ℂ)‖ < p.m_limit) (hi : |i| < p.iref_limit) : Near (Inside p v w U i) := by
  have c := fun j : V => O1.coord j
  have D1 : O1 (fun z : V → ℝ => p.Kp_GCC * z .uaR + z .xaR) := ((c .uaR).smul _).add (c .xaR)
  have D2 : O1 (fun z : V → ℝ => p.Kp_GCC * z .uaI + z .xaI) := ((c .uaI).smul _).add (c .xaI)
  have X : O1 (fun z : V → ℝ => cross (loopPar p v w U i) (dev z)) := (((D1.mul (c .iaR)).add (D2.mul (c .iaI))).smul (U / 2)).O1
  have S : O1 (fun z : V → ℝ => (loopPar p v w U i).σ (dev z)) := (((c .iaR).smul _).add (D1.smul _)).add ((c .iaI).smul _)
  have h1 := (D1.abs.add D2.abs).small (sub_pos.2 hm)
  have h2 := (((c .xP).sub (((S.add X).smul (1 / 2)).smul p.Kp_P)).abs.add ((c .xQ).sub (((c .iaI).smul (1 / 2 * v)).smul p.Kp_Q)).abs).small (sub_pos.2 hi)
  exact (h1.and h2).mono (fun z hz => ⟨(le_abs_self _).trans_lt hz.1, (le_abs_self _).trans_lt hz.2⟩)

variable {p v w U i}

/-- The rows of the model around the operating point. -/
theorem rows (hv : 0 < v) (hU : 0 < U) (hL : p.Lf ≠ 0) {inp : ℝ → Inp} (ho : Operating p v w U i inp) {t : ℝ} (ht : 0 ≤ t) (z : V → ℝ) (hz : Inside p v w U i z) (j : V) :
    rhs (envC1 p (inp t) (fun j => rest p v w U i t j + z j)) j = (if j = .wte then w else 0) + (lin (loopPar p v w U i) z j + rem (loopPar p v w U i) j z) := by
  obtain ⟨g1, -, -, g4, g5⟩ := ho.grid t ht
  have gd := ho.dc t ht
  have gq := ho.q t ht
  have gp := ho.pv t ht
  have hU' := hU.ne'
  set y : V → ℝ := fun j => rest p v w U i t j + z j with hy
  set e := envC1 p (inp t) y with he
  have eV : e.Vdc = U := gd
  have eva : e.va = (v : ℂ) := g1
  have evd : e.vd = -(v * Real.sin (z .wte)) := by
    show (pll1 (inp t).va (inp t).w (inp t).t (y .wte)).1 = _
    rw [g1, g4, g5]
    exact pll1_steady hv w t (z .wte)
  have ewe : e.we = w + (z .xPLL - p.Kp_PLL * v * Real.sin (z .wte)) := by
    show weCalc p.Kp_PLL e.vd (y .xPLL) = _
    rw [evd, weCalc]
    show _ + (w - 2 * Real.pi * 60 + z .xPLL) + _ = _
    ring
  have ewi : e.winv = e.we := rfl
  have evt : e.vta = ⟨v + p.Rf * i + U / 2 * (p.Kp_GCC * z .uaR + z .xaR), p.Lf * (w / p.wbase) * i + U / 2 * (p.Kp_GCC * z .uaI + z .xaI)⟩ := by
    show vtOf p ⟨y .uaR, y .uaI⟩ ⟨y .xaR, y .xaI⟩ (inp t).Vdc0 = _
    rw [gd, vtOf, duty, mul_comm]
    apply Complex.ext
    · simp only [Complex.re_ofReal_mul, Complex.add_re]
      show U / 2 * (p.Kp_GCC * (0 + z .uaR) + ((v + p.Rf * i) / (U / 2) + z .xaR)) = _
      field_simp
      ring
    · simp only [Complex.im_ofReal_mul, Complex.add_im]
      show U / 2 * (p.Kp_GCC * (0 + z .uaI) + (p.Lf * (w / p.wbase) * i / (U / 2) + z .xaI)) = _
      field_simp
      ring
  have eia : e.ia = ⟨i + z .iaR, 0 + z .iaI⟩ := rfl
  have eS : e.S.re = 1 / 2 * (v * i + p.Rf * i ^ 2) + 1 / 2 * ((loopPar p v w U i).σ (dev z) + cross (loopPar p v w U i) (dev z)) := by
    show (sPh e.vta e.ia).re = _
    rw [sPh_re, evt, eia]
    show 1 / 2 * ((v + p.Rf * i + U / 2 * (p.Kp_GCC * z .uaR + z .xaR)) * (i + z .iaR) + (p.Lf * (w / p.wbase) * i + U / 2 * (p.Kp_GCC * z .uaI + z .xaI)) * (0 + z .iaI)) = _
    simp only [LoopPar.σ, cross, LoopPar.D1, LoopPar.D2, loopPar, dev]
    ring
  have eSP : e.S_PCC.im = -(1 / 2 * v * z .iaI) := by
    show (sPh e.va e.ia).im = _
    rw [sPh_im, eva, eia]
    simp only [Complex.ofReal_re, Complex.ofReal_im]
    ring
  have ePp : e.Ppv = 1 / 2 * (v * i + p.Rf * i ^ 2) := by
    show ppvOf p (inp t) (inp t).Vdc0 = _
    rw [gd, gp]
  have eQ : e.Q_ref = 0 := gq
  have eP : e.Ppv - e.S.re = -(1 / 2 * ((loopPar p v w U i).σ (dev z) + cross (loopPar p v w U i) (dev z))) := by rw [ePp, eS]; ring
  have eir : irefP e = ⟨i + (z .xP - p.Kp_P * (1 / 2 * ((loopPar p v w U i).σ (dev z) + cross (loopPar p v w U i) (dev z)))), z .xQ - p.Kp_Q * (1 / 2 * v * z .iaI)⟩ := by
    have e1 : e.xP = i + z .xP := rfl
    have e2 : e.Kp_P = p.Kp_P := rfl
    have e3 : e.xQ = 0 + z .xQ := rfl
    have e4 : e.Kp_Q = p.Kp_Q := rfl
    unfold irefP
    rw [eP, eQ, eSP, e1, e2, e3, e4]
    apply Complex.ext
    · simp only [Complex.add_re, Complex.ofReal_re, Complex.mul_re, Complex.I_re, Complex.I_im, Complex.ofReal_im]
      ring
    · simp only [Complex.add_im, Complex.ofReal_re, Complex.mul_im, Complex.I_re, Complex.I_im, Complex.ofReal_im]
      ring
  have eiar : e.ia_ref = irefP e := rfl
  have ns : ¬ mSat e e.ua e.xa := by
    rw [mSat, gt_iff_lt, not_lt]
    have h1 : (e.Kp_GCC : ℂ) * e.ua + e.xa = ⟨(v + p.Rf * i) / (U / 2), p.Lf * (w / p.wbase) * i / (U / 2)⟩ + ⟨p.Kp_GCC * z .uaR + z .xaR, p.Kp_GCC * z .uaI + z .xaI⟩ := by
      apply Complex.ext
      · simp only [Complex.re_ofReal_mul, Complex.add_re]
        show p.Kp_GCC * (0 + z .uaR) + ((v + p.Rf * i) / (U / 2) + z .xaR) = _
        ring
      · simp only [Complex.im_ofReal_mul, Complex.add_im]
        show p.Kp_GCC * (0 + z .uaI) + (p.Lf * (w / p.wbase) * i / (U / 2) + z .xaI) = _
        ring
    rw [h1]
    refine (norm_add_le _ _).trans ?_
    have h2 := norm_mk_le (p.Kp_GCC * z .uaR + z .xaR) (p.Kp_GCC * z .uaI + z .xaI)
    have h3 := hz.1
    show _ ≤ p.m_limit
    linarith
  have ni : ¬ ‖irefP e‖ > e.iref_limit := by
    rw [gt_iff_lt, not_lt, eir]
    refine (norm_mk_le _ _).trans ?_
    have h3 := hz.2
    have h4 := abs_add_le i (z .xP - p.Kp_P * (1 / 2 * ((loopPar p v w U i).σ (dev z) + cross (loopPar p v w U i) (dev z))))
    show _ ≤ p.iref_limit
    linarith
  have aw := C57_antiwindup_single_phase_constant_vdc e
  cases j
  · simp only [rhs, lin, rem, LoopPar.lin, reduceCtorEq, if_false, ewi, ewe, evt, eia, eva]
    show 1 / p.Lf * (-p.Rf * (i + z .iaR) - (v : ℂ).re + (v + p.Rf * i + U / 2 * (p.Kp_GCC * z .uaR + z .xaR))) + (w + (z .xPLL - p.Kp_PLL * v * Real.sin (z .wte))) / p.wbase * (0 + z .iaI) = _
    simp only [Complex.ofReal_re, LoopPar.D1, loopPar, dev]
    field_simp
    ring
  · simp only [rhs, lin, rem, LoopPar.lin, reduceCtorEq, if_false, ewi, ewe, evt, eia, eva]
    show 1 / p.Lf * (-p.Rf * (0 + z .iaI) - (v : ℂ).im + (p.Lf * (w / p.wbase) * i + U / 2 * (p.Kp_GCC * z .uaI + z .xaI))) - (w + (z .xPLL - p.Kp_PLL * v * Real.sin (z .wte))) / p.wbase * (i + z .iaR) = _
    simp only [Complex.ofReal_im, LoopPar.D2, loopPar, dev]
    field_simp
    ring
  · rw [aw.1.plain ns]
    show p.Ki_GCC * (0 + z .uaR) = 0 + (p.Ki_GCC * z .uaR + 0)
    ring
  · rw [aw.2.1.plain ns]
    show p.Ki_GCC * (0 + z .uaI) = 0 + (p.Ki_GCC * z .uaI + 0)
    ring
  · rw [aw.2.2.1.plain ns, eiar, eir]
    show p.wp * (-(0 + z .uaR) + (i + (z .xP - p.Kp_P * (1 / 2 * ((loopPar p v w U i).σ (dev z) + cross (loopPar p v w U i) (dev z))))) - (i + z .iaR)) =
      0 + (p.wp * (-z .uaR + (z .xP - 1 / 2 * p.Kp_P * (loopPar p v w U i).σ (dev z)) - z .iaR) + -(p.wp * (1 / 2 * p.Kp_P)) * cross (loopPar p v w U i) (dev z))
    ring
  · rw [aw.2.2.2.1.plain ns, eiar, eir]
    show p.wp * (-(0 + z .uaI) + (z .xQ - p.Kp_Q * (1 / 2 * v * z .iaI)) - (0 + z .iaI)) = 0 + (p.wp * (-z .uaI + (z .xQ - 1 / 2 * p.Kp_Q * v * z .iaI) - z .iaI) + 0)
    ring
  · rw [aw.2.2.2.2.1.plain ni, eP]
    show p.Ki_P * -(1 / 2 * ((loopPar p v w U i).σ (dev z) + cross (loopPar p v w U i) (dev z))) =
      0 + (-(1 / 2 * p.Ki_P) * (loopPar p v w U i).σ (dev z) + -(1 / 2 * p.Ki_P) * cross (loopPar p v w U i) (dev z))
    ring
  · rw [aw.2.2.2.2.2.plain ni, eQ, eSP]
    show -p.Ki_Q * (0 - -(1 / 2 * v * z .iaI)) = 0 + (-(1 / 2 * p.Ki_Q * v) * z .iaI + 0)
    ring
  · show p.Ki_PLL * e.vd = 0 + (-(p.Ki_PLL * v) * z .wte + -(p.Ki_PLL * v) * (Real.sin (z .wte) - z .wte))
    rw [evd]
    ring
  · show e.we = (if V.wte = V.wte then w else 0) + (z .xPLL - p.Kp_PLL * v * z .wte + -(p.Kp_PLL * v) * (Real.sin (z .wte) - z .wte))
    rw [ewe, if_pos rfl]
    ring

/-- C124: the operating point is a solution. -/
theorem C124_rest (hv : 0 < v) (hU : 0 < U) (hL : p.Lf ≠ 0) (hm : ‖(⟨(v + p.Rf * i) / (U / 2), p.Lf * (w / p.wbase) * i / (U / 2)⟩ : ℂ)‖ < p.m_limit) (hi : |i| < p.iref_limit)
    {inp : ℝ → Inp} (ho : Operating p v w U i inp) (t : ℝ) (ht : 0 ≤ t) : Solves (fun t y => rhs (envC1 p (inp t) y)) (rest p v w U i) t := by
  intro j
  have h0 : Inside p v w U i 0 := by
    obtain ⟨η, hη, h⟩ := inside_near p v w U i hm hi
    exact h 0 (by simpa using hη.le)
  have r := rows hv hU hL ho ht 0 h0 j
  have l0 : lin (loopPar p v w U i) 0 j + rem (loopPar p v w U i) j 0 = 0 := by
    cases j <;> simp [lin, rem, LoopPar.lin, LoopPar.σ, LoopPar.D1, LoopPar.D2, dev, cross]
  rw [l0, add_zero] at r
  have r' : rhs (envC1 p (inp t) (rest p v w U i t)) j = if j = .wte then w else 0 := by
    rw [← r]; congr 2; funext k; simp
  beta_reduce
  rw [r']
  cases j <;> simp only [rest, reduceCtorEq, if_false, if_true] <;> first | exact hasDerivAt_const t _ | skip
  simpa using (hasDerivAt_id t).const_mul w

theorem isLin_forms (P : LoopPar) (ε : ℝ) : IsLinearMap ℝ (fun z : V → ℝ => P.forms ε (dev z)) := by
  constructor
  · intro x y
    funext j
    rcases j with (j | j) | j <;> fin_cases j <;> simp [LoopPar.forms, axisForms, LoopPar.r1, LoopPar.r2, LoopPar.h1, LoopPar.h2, LoopPar.D1, LoopPar.D2, dev] <;> ring
  · intro c x
    funext j
    rcases j with (j | j) | j <;> fin_cases j <;> simp [LoopPar.forms, axisForms, LoopPar.r1, LoopPar.r2, LoopPar.h1, LoopPar.h2, LoopPar.D1, LoopPar.D2, dev] <;> ring

theorem isLin_sizes (P : LoopPar) : IsLinearMap ℝ (fun z : V → ℝ => P.sizes (dev z)) := by
  constructor
  · intro x y
    funext j
    rcases j with (j | j) | j <;> fin_cases j <;> simp [LoopPar.sizes, LoopPar.r1, LoopPar.r2, LoopPar.h1, LoopPar.h2, LoopPar.D1, LoopPar.D2, dev] <;> ring
  · intro c x
    funext j
    rcases j with (j | j) | j <;> fin_cases j <;> simp [LoopPar.sizes, LoopPar.r1, LoopPar.r2, LoopPar.h1, LoopPar.h2, LoopPar.D1, LoopPar.D2, dev] <;> ring

theorem dev_zero {z : V → ℝ} (h : dev z = ⟨0, 0, 0, 0, 0, 0, 0, 0, 0, 0⟩) : z = 0 := by
  have h' := h
  simp only [dev, Dev.mk.injEq] at h'
  obtain ⟨h1, h2, h3, h4, h5, h6, h7, h8, h9, h10⟩ := h'
  funext j
  cases j <;> assumption

/-- C124: local exponential stability of the single-phase model with constant DC voltage. -/
theorem C124_settles_single_constant_vdc (hv : 0 < v) (hU : 0 < U) {ε N E : ℝ} (cert : LoopOk (loopPar p v w U i) ε N E)
    (hm : ‖(⟨(v + p.Rf * i) / (U / 2), p.Lf * (w / p.wbase) * i / (U / 2)⟩ : ℂ)‖ < p.m_limit) (hi : |i| < p.iref_limit) :
    ∃ δ > 0, ∃ M > 0, ∃ a > 0, ∀ (inp : ℝ → Inp) (Y : ℝ → V → ℝ), Operating p v w U i inp → (∀ t, 0 ≤ t → Solves (fun t y => rhs (envC1 p (inp t) y)) Y t) →
      ‖Y 0 - rest p v w U i 0‖ ≤ δ → ∀ t, 0 ≤ t → ‖Y t - rest p v w U i t‖ ≤ M * ‖Y 0 - rest p v w U i 0‖ * Real.exp (-a * t) := by
  have hL : p.Lf ≠ 0 := cert.a1.pL.ne'
  obtain ⟨δ, hδ, M, hM, a, ha, main⟩ := stable ((loopPar p v w U i).weights ε N E) (weights_pos cert) (fun z : V → ℝ => (loopPar p v w U i).forms ε (dev z)) (isLin_forms _ _)
    (fun z hz => dev_zero (forms_inj cert _ hz)) (fun z : V → ℝ => (loopPar p v w U i).sizes (dev z)) (isLin_sizes _) (fun z hz => dev_zero (sizes_inj cert _ hz))
    (lin (loopPar p v w U i)) (c_pos cert) (fun z => by rw [dev_lin]; exact loop_dis cert (dev z)) (rem (loopPar p v w U i)) (rem_O2 _) (inside_near p v w U i hm hi)
  refine ⟨δ, hδ, M, hM, a, ha, fun inp Y ho hY h0 => ?_⟩
  refine main (fun t => Y t - rest p v w U i t) (fun t j => rhs (envC1 p (inp t) (Y t)) j - if j = .wte then w else 0) (fun t ht j => ?_) (fun t ht hz j => ?_) h0
  · have h1 := hY t ht j
    have h2 : HasDerivAt (fun s => rest p v w U i s j) (if j = .wte then w else 0) t := by
      cases j <;> simp only [rest, reduceCtorEq, if_false, if_true] <;> first | exact hasDerivAt_const t _ | skip
      simpa using (hasDerivAt_id t).const_mul w
    exact h1.sub h2
  · have r := rows hv hU hL ho ht _ hz j
    have e : (fun j => rest p v w U i t j + (Y t - rest p v w U i t) j) = Y t := by
      funext j; simp
    rw [e] at r
    rw [r, add_sub_cancel_left]

end SinglePhaseConstantVdc
end Ode
end PvDer
