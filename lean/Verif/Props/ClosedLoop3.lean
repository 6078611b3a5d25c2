import Verif.Lemmas.ThreeLoop
import Verif.Props.ClosedLoopDc

/-!
# C124 for the three-phase classes

Each phase has its own current loop; the three share the DC link, the outer loops and the phase locked loop.  In the frame of its own grid phase every phase sees the same equations: the mean of the phases
behaves like the balanced class, and the differences between phases decay on their own.
-/

namespace PvDer
namespace Ode
open Complex Phasor LocStab

/-- Cosine and sine of the angle of phase b (`ub 1`) and c (`uc 1`). -/
noncomputable def cb : ℝ := (Phasor.ub 1).re
/-- see `cb`. -/
noncomputable def sb : ℝ := (Phasor.ub 1).im
/-- see `cb`. -/
noncomputable def cc : ℝ := (Phasor.uc 1).re
/-- see `cb`. -/
noncomputable def sc : ℝ := (Phasor.uc 1).im

theorem ub_turn (x : ℂ) : Phasor.ub x = ⟨x.re * cb - x.im * sb, x.re * sb + x.im * cb⟩ := by
  have h : Phasor.ub x = x * Phasor.ub 1 := by unfold Phasor.ub; ring
  rw [h]
  apply Complex.ext <;> simp only [Complex.mul_re, Complex.mul_im, cb, sb]

theorem uc_turn (x : ℂ) : Phasor.uc x = ⟨x.re * cc - x.im * sc, x.re * sc + x.im * cc⟩ := by
  have h : Phasor.uc x = x * Phasor.uc 1 := by unfold Phasor.uc; ring
  rw [h]
  apply Complex.ext <;> simp only [Complex.mul_re, Complex.mul_im, cc, sc]

theorem csb : cb ^ 2 + sb ^ 2 = 1 := by
  have h : ‖Phasor.ub 1‖ ^ 2 = 1 := by rw [(C47_phase_shift 1).1]; simp
  rw [← Complex.normSq_eq_norm_sq, Complex.normSq_apply] at h
  unfold cb sb
  linarith

theorem csc : cc ^ 2 + sc ^ 2 = 1 := by
  have h : ‖Phasor.uc 1‖ ^ 2 = 1 := by rw [(C47_phase_shift 1).2.1]; simp
  rw [← Complex.normSq_eq_norm_sq, Complex.normSq_apply] at h
  unfold cc sc
  linarith

namespace Loop3
open ThreePhaseNoVrmsFilter (V rhs)
open DcLoop (par)

/-- The states of phase a. -/
def phA : Ph → V
  | .iR => .iaR
  | .iI => .iaI
  | .xR => .xaR
  | .xI => .xaI
  | .uR => .uaR
  | .uI => .uaI
/-- The states of phase b. -/
def phB : Ph → V
  | .iR => .ibR
  | .iI => .ibI
  | .xR => .xbR
  | .xI => .xbI
  | .uR => .ubR
  | .uI => .ubI
/-- The states of phase c. -/
def phC : Ph → V
  | .iR => .icR
  | .iI => .icI
  | .xR => .xcR
  | .xI => .xcI
  | .uR => .ucR
  | .uI => .ucI

/-- Current loop of one phase. -/
noncomputable def ofDc (P : DcPar) : PhPar where
  R := P.R
  L := P.L
  g := P.g
  w0 := P.w0
  wb := P.wb
  i := P.i
  M1 := P.m1
  M2 := P.m2
  Kp := P.Kp
  Ki := P.Ki
  wp := P.wp

/-- Phases in the frame of phase a. -/
noncomputable def qa (z : V → ℝ) : Ph → ℝ := fun j => z (phA j)
/-- see `qa`. -/
noncomputable def qb (z : V → ℝ) : Ph → ℝ := PhPar.rot cb sb (fun j => z (phB j))
/-- see `qa`. -/
noncomputable def qc (z : V → ℝ) : Ph → ℝ := PhPar.rot cc sc (fun j => z (phC j))
/-- Their mean. -/
noncomputable def qm (z : V → ℝ) : Ph → ℝ := fun j => (qa z j + qb z j + qc z j) / 3

/-- The mean mode: states like those of one phase. -/
noncomputable def mean (z : V → ℝ) : SinglePhase.V → ℝ
  | .iaR => qm z .iR
  | .iaI => qm z .iI
  | .xaR => qm z .xR
  | .xaI => qm z .xI
  | .uaR => qm z .uR
  | .uaI => qm z .uI
  | .Vdc => z .Vdc
  | .xDC => z .xDC
  | .xQ => z .xQ
  | .xPLL => z .xPLL
  | .wte => z .wte

/-- Linear part, one phase. -/
noncomputable def linP (P : DcPar) (c s : ℝ) (z : V → ℝ) (f : Ph → V) : Ph → ℝ :=
  (ofDc P).lin c s (z .Vdc) (z .xPLL - P.Kv * z .wte) (z .xDC + P.a1 * z .Vdc) (z .xQ - P.QP * qm z .iI) (fun j => z (f j))

/-- Linear part. -/
noncomputable def lin (P : DcPar) (z : V → ℝ) : V → ℝ
  | .iaR => linP P 1 0 z phA .iR
  | .iaI => linP P 1 0 z phA .iI
  | .xaR => linP P 1 0 z phA .xR
  | .xaI => linP P 1 0 z phA .xI
  | .uaR => linP P 1 0 z phA .uR
  | .uaI => linP P 1 0 z phA .uI
  | .ibR => linP P cb sb z phB .iR
  | .ibI => linP P cb sb z phB .iI
  | .xbR => linP P cb sb z phB .xR
  | .xbI => linP P cb sb z phB .xI
  | .ubR => linP P cb sb z phB .uR
  | .ubI => linP P cb sb z phB .uI
  | .icR => linP P cc sc z phC .iR
  | .icI => linP P cc sc z phC .iI
  | .xcR => linP P cc sc z phC .xR
  | .xcI => linP P cc sc z phC .xI
  | .ucR => linP P cc sc z phC .uR
  | .ucI => linP P cc sc z phC .uI
  | .Vdc => DcLoop.lin P (mean z) .Vdc
  | .xDC => DcLoop.lin P (mean z) .xDC
  | .xQ => DcLoop.lin P (mean z) .xQ
  | .xPLL => DcLoop.lin P (mean z) .xPLL
  | .wte => DcLoop.lin P (mean z) .wte

theorem lin_phA (P : DcPar) (z : V → ℝ) (j : Ph) : lin P z (phA j) = linP P 1 0 z phA j := by cases j <;> rfl
theorem lin_phB (P : DcPar) (z : V → ℝ) (j : Ph) : lin P z (phB j) = linP P cb sb z phB j := by cases j <;> rfl
theorem lin_phC (P : DcPar) (z : V → ℝ) (j : Ph) : lin P z (phC j) = linP P cc sc z phC j := by cases j <;> rfl

/-- What the phases have in common. -/
noncomputable def com (P : DcPar) (z : V → ℝ) (q : Ph → ℝ) : Ph → ℝ :=
  (ofDc P).lin 1 0 (z .Vdc) (z .xPLL - P.Kv * z .wte) (z .xDC + P.a1 * z .Vdc) (z .xQ - P.QP * qm z .iI) q

theorem qa_lin (P : DcPar) (z : V → ℝ) (j : Ph) : qa (lin P z) j = com P z (qa z) j := lin_phA P z j
theorem qb_lin (P : DcPar) (z : V → ℝ) (j : Ph) : qb (lin P z) j = com P z (qb z) j := by
  have e : (fun j => lin P z (phB j)) = linP P cb sb z phB := funext (lin_phB P z)
  unfold qb
  rw [e]
  exact (ofDc P).rot_lin csb _ _ _ _ _ j
theorem qc_lin (P : DcPar) (z : V → ℝ) (j : Ph) : qc (lin P z) j = com P z (qc z) j := by
  have e : (fun j => lin P z (phC j)) = linP P cc sc z phC := funext (lin_phC P z)
  unfold qc
  rw [e]
  exact (ofDc P).rot_lin csc _ _ _ _ _ j
theorem qm_lin (P : DcPar) (z : V → ℝ) (j : Ph) : qm (lin P z) j = com P z (qm z) j := by
  unfold qm
  rw [qa_lin, qb_lin, qc_lin]
  exact (ofDc P).lin_mean _ _ _ _ _ _ _ j

theorem mean_lin (P : DcPar) (z : V → ℝ) : mean (lin P z) = DcLoop.lin P (mean z) := by
  funext j
  cases j
  case Vdc | xDC | xQ | xPLL | wte => rfl
  all_goals
    show qm (lin P z) _ = _
    rw [qm_lin]
    simp only [com, PhPar.lin, DcLoop.lin, DcPar.lin, DcPar.D1, DcPar.D2, DcLoop.dev, mean, ofDc]
    try ring

/-- The modes: mean, b minus a, c minus a. -/
noncomputable def modes (z : V → ℝ) : SinglePhase.V ⊕ (Ph ⊕ Ph) → ℝ := Sum.elim (mean z) (Sum.elim (fun j => qb z j - qa z j) (fun j => qc z j - qa z j))

theorem modes_isLin : IsLinearMap ℝ modes := by
  constructor
  · intro x y
    funext j
    rcases j with j | j | j <;> cases j <;> simp [modes, mean, qm, qa, qb, qc, PhPar.rot] <;> ring
  · intro r x
    funext j
    rcases j with j | j | j <;> cases j <;> simp [modes, mean, qm, qa, qb, qc, PhPar.rot] <;> ring

theorem modes_zero (z : V → ℝ) (h : modes z = 0) : z = 0 := by
  have m : ∀ j, mean z j = 0 := fun j => congrFun h (.inl j)
  have b : ∀ j, qb z j - qa z j = 0 := fun j => congrFun h (.inr (.inl j))
  have c : ∀ j, qc z j - qa z j = 0 := fun j => congrFun h (.inr (.inr j))
  have m' : ∀ j, qm z j = 0 := by
    intro j
    cases j
    · exact m .iaR
    · exact m .iaI
    · exact m .xaR
    · exact m .xaI
    · exact m .uaR
    · exact m .uaI
  have a0 : ∀ j, qa z j = 0 := by
    intro j
    have h1 := m' j
    have h2 := b j
    have h3 := c j
    unfold qm at h1
    linarith
  have b0 : qb z = 0 := funext (fun j => by have h1 := b j; rw [a0 j, sub_zero] at h1; exact h1)
  have c0 : qc z = 0 := funext (fun j => by have h1 := c j; rw [a0 j, sub_zero] at h1; exact h1)
  have b1 := congrFun (PhPar.rot_zero csb b0)
  have c1 := congrFun (PhPar.rot_zero csc c0)
  funext j
  cases j
  · exact a0 .iR
  · exact a0 .iI
  · exact a0 .xR
  · exact a0 .xI
  · exact a0 .uR
  · exact a0 .uI
  · exact b1 .iR
  · exact b1 .iI
  · exact b1 .xR
  · exact b1 .xI
  · exact b1 .uR
  · exact b1 .uI
  · exact c1 .iR
  · exact c1 .iI
  · exact c1 .xR
  · exact c1 .xI
  · exact c1 .uR
  · exact c1 .uI
  · exact m .Vdc
  · exact m .xDC
  · exact m .xQ
  · exact m .xPLL
  · exact m .wte

theorem dc_Dis {P : DcPar} {ε N E : ℝ} (cert : DcOk P ε N E) : Dis (DcLoop.lin P) :=
  ⟨_, _, inferInstance, inferInstance, P.weights ε N E, fun z => P.forms ε (DcLoop.dev z), fun z => P.sizes (DcLoop.dev z), _, dc_weights_pos cert, DcLoop.isLin_forms _ _,
    fun z hz => DcLoop.dev_zero (dc_forms_inj cert _ hz), DcLoop.isLin_sizes _, fun z hz => DcLoop.dev_zero (dc_sizes_inj cert _ hz), rt_pos cert, fun z => by beta_reduce; rw [DcLoop.dev_lin]; exact dc_dis cert _⟩

theorem dis {P : DcPar} {ε N E ε' N' E' : ℝ} (cert : DcOk P ε N E) (cert' : PhOk (ofDc P) ε' N' E') : Dis (lin P) := by
  refine ((dc_Dis cert).sum ((ph_dis cert').sum (ph_dis cert'))).pull modes modes_isLin modes_zero (fun z => ?_)
  funext j
  rcases j with j | j | j
  · exact congrFun (mean_lin P z) j
  · show qb (lin P z) j - qa (lin P z) j = _
    rw [qb_lin, qa_lin]
    exact (ofDc P).lin_sub _ _ _ _ _ _ j
  · show qc (lin P z) j - qa (lin P z) j = _
    rw [qc_lin, qa_lin]
    exact (ofDc P).lin_sub _ _ _ _ _ _ j

/-- The operating point of one phase. -/
noncomputable def restP (p : Par) (v w U i c s : ℝ) : Ph → ℝ
  | .iR => i * c
  | .iI => i * s
  | .xR => (v + p.Rf * i) / (U / 2) * c - p.Lf * (w / p.wbase) * i / (U / 2) * s
  | .xI => (v + p.Rf * i) / (U / 2) * s + p.Lf * (w / p.wbase) * i / (U / 2) * c
  | .uR => 0
  | .uI => 0

/-- The operating point at time `t`: each phase turned into the direction of its grid voltage. -/
noncomputable def rest (p : Par) (v w U i t : ℝ) : V → ℝ
  | .iaR => restP p v w U i 1 0 .iR
  | .iaI => restP p v w U i 1 0 .iI
  | .xaR => restP p v w U i 1 0 .xR
  | .xaI => restP p v w U i 1 0 .xI
  | .uaR => restP p v w U i 1 0 .uR
  | .uaI => restP p v w U i 1 0 .uI
  | .ibR => restP p v w U i cb sb .iR
  | .ibI => restP p v w U i cb sb .iI
  | .xbR => restP p v w U i cb sb .xR
  | .xbI => restP p v w U i cb sb .xI
  | .ubR => restP p v w U i cb sb .uR
  | .ubI => restP p v w U i cb sb .uI
  | .icR => restP p v w U i cc sc .iR
  | .icI => restP p v w U i cc sc .iI
  | .xcR => restP p v w U i cc sc .xR
  | .xcI => restP p v w U i cc sc .xI
  | .ucR => restP p v w U i cc sc .uR
  | .ucI => restP p v w U i cc sc .uI
  | .Vdc => U
  | .xDC => i
  | .xQ => 0
  | .xPLL => w - 2 * Real.pi * 60
  | .wte => w * t

/-- Terms of second order of one phase. -/
noncomputable def remP (P : DcPar) (c s V χ φ : ℝ) (q : Ph → ℝ) : Ph → ℝ
  | .iR => 1 / P.wb * ((χ - P.Kv * Real.sin φ) * q .iI) + -(P.i * s / P.wb * P.Kv) * (Real.sin φ - φ) + 1 / (2 * P.L) * ((P.Kp * q .uR + q .xR) * V)
  | .iI => -(1 / P.wb) * ((χ - P.Kv * Real.sin φ) * q .iR) + P.i * c / P.wb * P.Kv * (Real.sin φ - φ) + 1 / (2 * P.L) * ((P.Kp * q .uI + q .xI) * V)
  | _ => 0

/-- Product of the deviations of duty cycle and current of one phase. -/
noncomputable def pw (P : DcPar) (q : Ph → ℝ) : ℝ := (P.Kp * q .uR + q .xR) * q .iR + (P.Kp * q .uI + q .xI) * q .iI

/-- Terms of second order; `H` is the PV current into the DC link, `H'` its slope. -/
noncomputable def rem (P : DcPar) (U κ : ℝ) (H : ℝ → ℝ) (H' : ℝ) : V → (V → ℝ) → ℝ
  | .iaR, z => remP P 1 0 (z .Vdc) (z .xPLL) (z .wte) (fun j => z (phA j)) .iR
  | .iaI, z => remP P 1 0 (z .Vdc) (z .xPLL) (z .wte) (fun j => z (phA j)) .iI
  | .ibR, z => remP P cb sb (z .Vdc) (z .xPLL) (z .wte) (fun j => z (phB j)) .iR
  | .ibI, z => remP P cb sb (z .Vdc) (z .xPLL) (z .wte) (fun j => z (phB j)) .iI
  | .icR, z => remP P cc sc (z .Vdc) (z .xPLL) (z .wte) (fun j => z (phC j)) .iR
  | .icI, z => remP P cc sc (z .Vdc) (z .xPLL) (z .wte) (fun j => z (phC j)) .iI
  | .Vdc, z => (H (U + z .Vdc) - H U - H' * z .Vdc) - κ * (pw P (fun j => z (phA j)) + pw P (fun j => z (phB j)) + pw P (fun j => z (phC j)))
  | .xPLL, z => -P.J * (Real.sin (z .wte) - z .wte)
  | .wte, z => -P.Kv * (Real.sin (z .wte) - z .wte)
  | _, _ => 0

theorem rem_O2 (P : DcPar) {U κ : ℝ} {H : ℝ → ℝ} {H' : ℝ} (hH : Smooth H U H') (j : V) : O2 (rem P U κ H H' j) := by
  have c := fun j : V => O1.coord j
  have D : ∀ a b : V, O1 (fun z : V → ℝ => P.Kp * z a + z b) := fun a b => ((c a).smul P.Kp).add (c b)
  have ω : O1 (fun z : V → ℝ => z .xPLL - P.Kv * Real.sin (z .wte)) := (c .xPLL).sub ((c .wte).sin.smul P.Kv)
  have s : O2 (fun z : V → ℝ => Real.sin (z .wte) - z .wte) := O2.sin (c .wte)
  have pq : ∀ f : Ph → V, O2 (fun z : V → ℝ => pw P (fun j => z (f j))) := fun f => ((D _ _).mul (c _)).add ((D _ _).mul (c _))
  have r : ∀ (x y : ℝ) (f : Ph → V) (k : Ph), O2 (fun z : V → ℝ => remP P x y (z .Vdc) (z .xPLL) (z .wte) (fun j => z (f j)) k) := by
    intro x y f k
    cases k
    · exact (((ω.mul (c _)).smul _).add (s.smul _)).add (((D _ _).mul (c .Vdc)).smul _)
    · exact (((ω.mul (c _)).smul _).add (s.smul _)).add (((D _ _).mul (c .Vdc)).smul _)
    all_goals exact O2.zero
  cases j
  case iaR => exact r 1 0 phA .iR
  case iaI => exact r 1 0 phA .iI
  case ibR => exact r cb sb phB .iR
  case ibI => exact r cb sb phB .iI
  case icR => exact r cc sc phC .iR
  case icI => exact r cc sc phC .iI
  case Vdc => exact (hH.O2 (c .Vdc)).sub (((((pq phA).add (pq phB)).add (pq phC))).smul _)
  case xPLL | wte => exact s.smul _
  all_goals exact O2.zero

/-- The deviations do not reach the limiters, and the DC voltage stays positive. -/
def Inside (p : Par) (v w U i : ℝ) (z : V → ℝ) : Prop :=
  (∀ f : Ph → V, f = phA ∨ f = phB ∨ f = phC →
    |p.Kp_GCC * z (f .uR) + z (f .xR)| + |p.Kp_GCC * z (f .uI) + z (f .xI)| < p.m_limit - ‖(⟨(v + p.Rf * i) / (U / 2), p.Lf * (w / p.wbase) * i / (U / 2)⟩ : ℂ)‖) ∧
  |z .xDC - p.Kp_DC * z .Vdc| + |z .xQ - p.Kp_Q * (3 / 2 * v * qm z .iI)| < p.iref_limit - |i| ∧ |z .Vdc| < U

variable {p : Par} {v w U i : ℝ}

theorem O1_rot {x y : ℝ} {f : Ph → V} (k : Ph) : O1 (fun z : V → ℝ => PhPar.rot x y (fun j => z (f j)) k) := by
  have c := fun j : V => O1.coord j
  cases k
  · exact ((c _).smul _).add ((c _).smul _)
  · exact ((c _).smul _).sub ((c _).smul _)
  · exact ((c _).smul _).add ((c _).smul _)
  · exact ((c _).smul _).sub ((c _).smul _)
  · exact ((c _).smul _).add ((c _).smul _)
  · exact ((c _).smul _).sub ((c _).smul _)

theorem O1_qm (k : Ph) : O1 (fun z : V → ℝ => qm z k) := by
  have h : O1 (fun z : V → ℝ => 1 / 3 * (qa z k + qb z k + qc z k)) := (((O1.coord (phA k)).add (O1_rot k)).add (O1_rot k)).smul _
  have e : (fun z : V → ℝ => qm z k) = fun z : V → ℝ => 1 / 3 * (qa z k + qb z k + qc z k) := by
    funext z; unfold qm; ring
  rw [e]; exact h

theorem inside_near (hU : 0 < U) (hm : ‖(⟨(v + p.Rf * i) / (U / 2), p.Lf * (w / p.wbase) * i / (U / 2)⟩ : ℂ)‖ < p.m_limit) (hi : |i| < p.iref_limit) : Near (Inside p v w U i) := by
  have c := fun j : V => O1.coord j
  have D : ∀ a b : V, O1 (fun z : V → ℝ => p.Kp_GCC * z a + z b) := fun a b => ((c a).smul _).add (c b)
  have h1 := fun f : Ph → V => ((D (f .uR) (f .xR)).abs.add (D (f .uI) (f .xI)).abs).small (sub_pos.2 hm)
  have h2 := (((c .xDC).sub ((c .Vdc).smul p.Kp_DC)).abs.add ((c .xQ).sub (((O1_qm .iI).smul (3 / 2 * v)).smul p.Kp_Q)).abs).small (sub_pos.2 hi)
  refine (((((h1 phA).and (h1 phB)).and (h1 phC)).and h2).and ((c .Vdc).small hU)).mono (fun z hz => ⟨fun f hf => ?_, (le_abs_self _).trans_lt hz.1.2, hz.2⟩)
  rcases hf with rfl | rfl | rfl
  · exact (le_abs_self _).trans_lt hz.1.1.1.1
  · exact (le_abs_self _).trans_lt hz.1.1.1.2
  · exact (le_abs_self _).trans_lt hz.1.1.2

/-- The attributes that the rows read, for the operating conditions: shared by the three-phase classes. -/
structure Looks (p : Par) (v w U : ℝ) (F : ℝ → ℝ) (t : ℝ) (y : V → ℝ) (e : Env) : Prop where
  ia : e.ia = ⟨y .iaR, y .iaI⟩
  xa : e.xa = ⟨y .xaR, y .xaI⟩
  ua : e.ua = ⟨y .uaR, y .uaI⟩
  ib : e.ib = ⟨y .ibR, y .ibI⟩
  xb : e.xb = ⟨y .xbR, y .xbI⟩
  ub : e.ub = ⟨y .ubR, y .ubI⟩
  ic : e.ic = ⟨y .icR, y .icI⟩
  xc : e.xc = ⟨y .xcR, y .xcI⟩
  uc : e.uc = ⟨y .ucR, y .ucI⟩
  va : e.va = (v : ℂ)
  vb : e.vb = Phasor.ub (v : ℂ)
  vc : e.vc = Phasor.uc (v : ℂ)
  vta : e.vta = vtOf p e.ua e.xa (y .Vdc)
  vtb : e.vtb = vtOf p e.ub e.xb (y .Vdc)
  vtc : e.vtc = vtOf p e.uc e.xc (y .Vdc)
  S : e.S = sCalc e.vta e.vtb e.vtc e.ia e.ib e.ic
  SP : e.S_PCC = sCalc e.va e.vb e.vc e.ia e.ib e.ic
  Vdc : e.Vdc = y .Vdc
  xDC : e.xDC = y .xDC
  xQ : e.xQ = y .xQ
  iref : e.ia_ref = irefD e ∧ e.ib_ref = Phasor.ub (irefD e) ∧ e.ic_ref = Phasor.uc (irefD e)
  Ppv : e.Ppv = F (y .Vdc)
  vd : e.vd = -(v * Real.sin (y .wte - w * t))
  we : e.we = weCalc p.Kp_PLL e.vd (y .xPLL)
  winv : e.winv = e.we
  Vref : e.Vdc_ref = U
  Qref : e.Q_ref = 0
  circuit : e.Lf = p.Lf ∧ e.Rf = p.Rf ∧ e.C = p.C ∧ e.wbase = p.wbase
  gains : e.Kp_GCC = p.Kp_GCC ∧ e.Ki_GCC = p.Ki_GCC ∧ e.wp = p.wp ∧ e.Kp_DC = p.Kp_DC ∧ e.Ki_DC = p.Ki_DC ∧ e.Kp_Q = p.Kp_Q ∧ e.Ki_Q = p.Ki_Q ∧ e.Ki_PLL = p.Ki_PLL
  limits : e.m_limit = p.m_limit ∧ e.iref_limit = p.iref_limit

theorem looks_env3 (hv : 0 < v) {F : ℝ → ℝ} {inp : ℝ → Inp} (ho : OperatingDc 3 p v w U i F inp) {t : ℝ} (ht : 0 ≤ t) (y : V → ℝ) (r : ℝ) :
    Looks p v w U F t y (env3 p (inp t) ⟨y .iaR, y .iaI⟩ ⟨y .xaR, y .xaI⟩ ⟨y .uaR, y .uaI⟩ ⟨y .ibR, y .ibI⟩ ⟨y .xbR, y .xbI⟩ ⟨y .ubR, y .ubI⟩ ⟨y .icR, y .icI⟩ ⟨y .xcR, y .xcI⟩
      ⟨y .ucR, y .ucI⟩ (y .Vdc) (y .xDC) (y .xQ) (y .xPLL) (y .wte) r) := by
  obtain ⟨g1, g2, g3, g4, g5⟩ := ho.grid t ht
  refine ⟨rfl, rfl, rfl, rfl, rfl, rfl, rfl, rfl, rfl, g1, g2, g3, rfl, rfl, rfl, rfl, rfl, rfl, rfl, rfl, ⟨rfl, rfl, rfl⟩, ho.pv t ht _, ?_, rfl, rfl, ho.dc t ht, ho.q t ht, ⟨rfl, rfl, rfl, rfl⟩,
    ⟨rfl, rfl, rfl, rfl, rfl, rfl, rfl, rfl⟩, ⟨rfl, rfl⟩⟩
  show (pll3 (inp t).va (inp t).vb (inp t).vc (inp t).w (inp t).t (y .wte)).1 = _
  have := pll3_steady inp (v : ℂ) w ht ho.grid (y .wte)
  rw [this]
  have := pll1_steady hv w t (y .wte - w * t)
  rwa [add_sub_cancel] at this

section phase
variable {c s : ℝ} (hcs : c ^ 2 + s ^ 2 = 1) (F' : ℝ) (z : V → ℝ) (f : Ph → V)

theorem phase_iR (hU : U ≠ 0) (hL : p.Lf ≠ 0) : 1 / p.Lf * (-p.Rf * (i * c + z (f .iR)) - v * c +
      ((v + p.Rf * i) / (U / 2) * c - p.Lf * (w / p.wbase) * i / (U / 2) * s + (p.Kp_GCC * z (f .uR) + z (f .xR))) * ((U + z .Vdc) / 2)) +
      (w + (z .xPLL - p.Kp_PLL * v * Real.sin (z .wte))) / p.wbase * (i * s + z (f .iI)) =
    linP (par 3 p v w U i F') c s z f .iR + remP (par 3 p v w U i F') c s (z .Vdc) (z .xPLL) (z .wte) (fun j => z (f j)) .iR := by
  have m1 : (par 3 p v w U i F').m1 = (v + p.Rf * i) / (U / 2) := rfl
  have m2 : (par 3 p v w U i F').m2 = p.Lf * (w / p.wbase) * i / (U / 2) := rfl
  simp only [linP, remP, PhPar.lin, ofDc, m1, m2]
  have b1 : (v + p.Rf * i) / (U / 2) * (U / 2) = v + p.Rf * i := by field_simp
  have b2 : p.Lf * (w / p.wbase) * i / (U / 2) * (U / 2) = p.Lf * (w / p.wbase) * i := by field_simp
  generalize (v + p.Rf * i) / (U / 2) = M1 at *
  generalize p.Lf * (w / p.wbase) * i / (U / 2) = M2 at *
  have q : -p.Rf * (i * c + z (f .iR)) - v * c + (M1 * c - M2 * s + (p.Kp_GCC * z (f .uR) + z (f .xR))) * ((U + z .Vdc) / 2) =
      -p.Rf * z (f .iR) + U / 2 * (p.Kp_GCC * z (f .uR) + z (f .xR)) + 1 / 2 * (M1 * c - M2 * s) * z .Vdc + 1 / 2 * ((p.Kp_GCC * z (f .uR) + z (f .xR)) * z .Vdc) - p.Lf * (w / p.wbase) * i * s := by
    linear_combination c * b1 - s * b2
  rw [q]
  simp only [par]
  field_simp
  ring

theorem phase_iI (hU : U ≠ 0) (hL : p.Lf ≠ 0) : 1 / p.Lf * (-p.Rf * (i * s + z (f .iI)) - v * s +
      ((v + p.Rf * i) / (U / 2) * s + p.Lf * (w / p.wbase) * i / (U / 2) * c + (p.Kp_GCC * z (f .uI) + z (f .xI))) * ((U + z .Vdc) / 2)) -
      (w + (z .xPLL - p.Kp_PLL * v * Real.sin (z .wte))) / p.wbase * (i * c + z (f .iR)) =
    linP (par 3 p v w U i F') c s z f .iI + remP (par 3 p v w U i F') c s (z .Vdc) (z .xPLL) (z .wte) (fun j => z (f j)) .iI := by
  have m1 : (par 3 p v w U i F').m1 = (v + p.Rf * i) / (U / 2) := rfl
  have m2 : (par 3 p v w U i F').m2 = p.Lf * (w / p.wbase) * i / (U / 2) := rfl
  simp only [linP, remP, PhPar.lin, ofDc, m1, m2]
  have b1 : (v + p.Rf * i) / (U / 2) * (U / 2) = v + p.Rf * i := by field_simp
  have b2 : p.Lf * (w / p.wbase) * i / (U / 2) * (U / 2) = p.Lf * (w / p.wbase) * i := by field_simp
  generalize (v + p.Rf * i) / (U / 2) = M1 at *
  generalize p.Lf * (w / p.wbase) * i / (U / 2) = M2 at *
  have q : -p.Rf * (i * s + z (f .iI)) - v * s + (M1 * s + M2 * c + (p.Kp_GCC * z (f .uI) + z (f .xI))) * ((U + z .Vdc) / 2) =
      -p.Rf * z (f .iI) + U / 2 * (p.Kp_GCC * z (f .uI) + z (f .xI)) + 1 / 2 * (M1 * s + M2 * c) * z .Vdc + 1 / 2 * ((p.Kp_GCC * z (f .uI) + z (f .xI)) * z .Vdc) + p.Lf * (w / p.wbase) * i * c := by
    linear_combination s * b1 + c * b2
  rw [q]
  simp only [par]
  field_simp
  ring

include hcs in
/-- Voltage and power of one phase. -/
theorem phase_power : ((v + p.Rf * i) / (U / 2) * c - p.Lf * (w / p.wbase) * i / (U / 2) * s + (p.Kp_GCC * z (f .uR) + z (f .xR))) * (i * c + z (f .iR)) +
      ((v + p.Rf * i) / (U / 2) * s + p.Lf * (w / p.wbase) * i / (U / 2) * c + (p.Kp_GCC * z (f .uI) + z (f .xI))) * (i * s + z (f .iI)) =
    (v + p.Rf * i) / (U / 2) * i + ((v + p.Rf * i) / (U / 2) * PhPar.rot c s (fun j => z (f j)) .iR + p.Lf * (w / p.wbase) * i / (U / 2) * PhPar.rot c s (fun j => z (f j)) .iI +
      i * (p.Kp_GCC * PhPar.rot c s (fun j => z (f j)) .uR + PhPar.rot c s (fun j => z (f j)) .xR)) + pw (par 3 p v w U i F') (fun j => z (f j)) := by
  simp only [PhPar.rot, pw, par]
  generalize (v + p.Rf * i) / (U / 2) = M1
  generalize p.Lf * (w / p.wbase) * i / (U / 2) = M2
  linear_combination (M1 * i) * hcs

include hcs in
theorem phase_unsat (M1 M2 : ℝ) : ‖(⟨M1 * c - M2 * s, M1 * s + M2 * c⟩ : ℂ)‖ = ‖(⟨M1, M2⟩ : ℂ)‖ := by
  rw [← abs_of_nonneg (norm_nonneg _), ← abs_of_nonneg (norm_nonneg (⟨M1, M2⟩ : ℂ)), ← sq_eq_sq_iff_abs_eq_abs, ← Complex.normSq_eq_norm_sq, ← Complex.normSq_eq_norm_sq, Complex.normSq_apply, Complex.normSq_apply]
  dsimp only
  linear_combination (M1 ^ 2 + M2 ^ 2) * hcs
end phase

/-- Duty cycle of a phase inside the limit. -/
theorem unsat {c s : ℝ} (hcs : c ^ 2 + s ^ 2 = 1) {M1 M2 K : ℝ} {uR uI xR xI lim : ℝ} (h : |K * uR + xR| + |K * uI + xI| < lim - ‖(⟨M1, M2⟩ : ℂ)‖) :
    ¬ ‖((K : ℝ) : ℂ) * ⟨0 + uR, 0 + uI⟩ + ⟨M1 * c - M2 * s + xR, M1 * s + M2 * c + xI⟩‖ > lim := by
  rw [gt_iff_lt, not_lt]
  have h1 : ((K : ℝ) : ℂ) * ⟨0 + uR, 0 + uI⟩ + ⟨M1 * c - M2 * s + xR, M1 * s + M2 * c + xI⟩ = ⟨M1 * c - M2 * s, M1 * s + M2 * c⟩ + ⟨K * uR + xR, K * uI + xI⟩ := by
    apply Complex.ext
    · simp only [Complex.re_ofReal_mul, Complex.add_re]
      ring
    · simp only [Complex.im_ofReal_mul, Complex.add_im]
      ring
  rw [h1]
  refine (norm_add_le _ _).trans ?_
  rw [phase_unsat hcs]
  have h2 := norm_mk_le (K * uR + xR) (K * uI + xI)
  linarith

/-- Terminal voltage of a phase. -/
theorem vt_eq (M N uR uI xR xI U' : ℝ) : vtOf p ⟨0 + uR, 0 + uI⟩ ⟨M + xR, N + xI⟩ U' = ⟨(M + (p.Kp_GCC * uR + xR)) * (U' / 2), (N + (p.Kp_GCC * uI + xI)) * (U' / 2)⟩ := by
  rw [vtOf, duty, mul_comm]
  apply Complex.ext
  · simp only [Complex.re_ofReal_mul, Complex.add_re]
    ring
  · simp only [Complex.im_ofReal_mul, Complex.add_im]
    ring

/-- The rows around the operating point. -/
theorem rows (hU : 0 < U) (hL : p.Lf ≠ 0) (hC : p.C ≠ 0) {F : ℝ → ℝ} (F' : ℝ) (hF : F U = 3 / 2 * (v * i + p.Rf * i ^ 2)) {t : ℝ} (z : V → ℝ) (hz : Inside p v w U i z) {e : Env}
    (h : Looks p v w U F t (fun j => rest p v w U i t j + z j) e) (j : V) :
    rhs e j = (if j = .wte then w else 0) + (lin (par 3 p v w U i F') z j + rem (par 3 p v w U i F') U (1 / (4 * p.C)) (fun x => 1 / p.C * (F x / x)) (1 / p.C * (F' / U - F U / U ^ 2)) j z) := by
  obtain ⟨cL, cR, cC, cw⟩ := h.circuit
  obtain ⟨gKp, gKi, gwp, gKd, gKid, gKq, gKiq, gKpll⟩ := h.gains
  obtain ⟨lm, li⟩ := h.limits
  obtain ⟨z1, z2, z3⟩ := hz
  have hU' := hU.ne'
  have hs : 0 < U + z .Vdc := by have := (abs_lt.1 z3).1; linarith
  have eV : e.Vdc = U + z .Vdc := h.Vdc
  have eva : e.va = ⟨v * 1, v * 0⟩ := by rw [h.va]; apply Complex.ext <;> simp
  have evb : e.vb = ⟨v * cb, v * sb⟩ := by rw [h.vb, ub_turn]; apply Complex.ext <;> simp
  have evc : e.vc = ⟨v * cc, v * sc⟩ := by rw [h.vc, uc_turn]; apply Complex.ext <;> simp
  have evd : e.vd = -(v * Real.sin (z .wte)) := by
    rw [h.vd]
    show -(v * Real.sin (w * t + z .wte - w * t)) = _
    rw [add_sub_cancel_left]
  have ewe : e.we = w + (z .xPLL - p.Kp_PLL * v * Real.sin (z .wte)) := by
    rw [h.we, evd, weCalc]
    show _ + (w - 2 * Real.pi * 60 + z .xPLL) + _ = _
    ring
  have ewi : e.winv = e.we := h.winv
  have eia : e.ia = ⟨i * 1 + z .iaR, i * 0 + z .iaI⟩ := h.ia
  have eib : e.ib = ⟨i * cb + z .ibR, i * sb + z .ibI⟩ := h.ib
  have eic : e.ic = ⟨i * cc + z .icR, i * sc + z .icI⟩ := h.ic
  have eua : e.ua = ⟨0 + z .uaR, 0 + z .uaI⟩ := h.ua
  have eub : e.ub = ⟨0 + z .ubR, 0 + z .ubI⟩ := h.ub
  have euc : e.uc = ⟨0 + z .ucR, 0 + z .ucI⟩ := h.uc
  have pI := fun (c s : ℝ) (f : Ph → V) => phase_iR (p := p) (v := v) (w := w) (U := U) (i := i) (c := c) (s := s) F' z f hU' hL
  have pJ := fun (c s : ℝ) (f : Ph → V) => phase_iI (p := p) (v := v) (w := w) (U := U) (i := i) (c := c) (s := s) F' z f hU' hL
  have pPa := phase_power (p := p) (v := v) (w := w) (U := U) (i := i) (c := 1) (s := 0) (by norm_num) F' z phA
  have pPb := phase_power (p := p) (v := v) (w := w) (U := U) (i := i) csb F' z phB
  have pPc := phase_power (p := p) (v := v) (w := w) (U := U) (i := i) csc F' z phC
  set M1 := (v + p.Rf * i) / (U / 2) with hM1
  set M2 := p.Lf * (w / p.wbase) * i / (U / 2) with hM2
  have exa : e.xa = ⟨M1 * 1 - M2 * 0 + z .xaR, M1 * 0 + M2 * 1 + z .xaI⟩ := h.xa
  have exb : e.xb = ⟨M1 * cb - M2 * sb + z .xbR, M1 * sb + M2 * cb + z .xbI⟩ := h.xb
  have exc : e.xc = ⟨M1 * cc - M2 * sc + z .xcR, M1 * sc + M2 * cc + z .xcI⟩ := h.xc
  have evta : e.vta = ⟨(M1 * 1 - M2 * 0 + (p.Kp_GCC * z .uaR + z .xaR)) * ((U + z .Vdc) / 2), (M1 * 0 + M2 * 1 + (p.Kp_GCC * z .uaI + z .xaI)) * ((U + z .Vdc) / 2)⟩ := by
    rw [h.vta, eua, exa]; exact vt_eq _ _ _ _ _ _ _
  have evtb : e.vtb = ⟨(M1 * cb - M2 * sb + (p.Kp_GCC * z .ubR + z .xbR)) * ((U + z .Vdc) / 2), (M1 * sb + M2 * cb + (p.Kp_GCC * z .ubI + z .xbI)) * ((U + z .Vdc) / 2)⟩ := by
    rw [h.vtb, eub, exb]; exact vt_eq _ _ _ _ _ _ _
  have evtc : e.vtc = ⟨(M1 * cc - M2 * sc + (p.Kp_GCC * z .ucR + z .xcR)) * ((U + z .Vdc) / 2), (M1 * sc + M2 * cc + (p.Kp_GCC * z .ucI + z .xcI)) * ((U + z .Vdc) / 2)⟩ := by
    rw [h.vtc, euc, exc]; exact vt_eq _ _ _ _ _ _ _
  have eS : e.S.re = (U + z .Vdc) / 4 * (3 * (M1 * i) + 3 * (M1 * qm z .iR + M2 * qm z .iI + i * (p.Kp_GCC * qm z .uR + qm z .xR)) +
      (pw (par 3 p v w U i F') (fun j => z (phA j)) + pw (par 3 p v w U i F') (fun j => z (phB j)) + pw (par 3 p v w U i F') (fun j => z (phC j)))) := by
    rw [h.S, sCalc_re, evta, evtb, evtc, eia, eib, eic]
    dsimp only
    have r1 : ∀ k, PhPar.rot 1 0 (fun j => z (phA j)) k = qa z k := by intro k; cases k <;> simp [PhPar.rot, qa]
    rw [r1, r1, r1, r1] at pPa
    have e1 : ∀ k, 3 * qm z k = qa z k + PhPar.rot cb sb (fun j => z (phB j)) k + PhPar.rot cc sc (fun j => z (phC j)) k := by
      intro k; unfold qm qb qc; ring
    have e2 : 3 * (M1 * qm z .iR + M2 * qm z .iI + i * (p.Kp_GCC * qm z .uR + qm z .xR)) = M1 * (3 * qm z .iR) + M2 * (3 * qm z .iI) + i * (p.Kp_GCC * (3 * qm z .uR) + 3 * qm z .xR) := by ring
    rw [e2, e1, e1, e1, e1]
    simp only [phA, phB, phC] at pPa pPb pPc ⊢
    generalize pw (par 3 p v w U i F') _ = w1 at *
    clear_value M1 M2
    linear_combination (U + z .Vdc) / 4 * pPa + (U + z .Vdc) / 4 * pPb + (U + z .Vdc) / 4 * pPc
  have eSP : e.S_PCC.im = -(3 / 2 * v * qm z .iI) := by
    rw [h.SP, sCalc_im, eva, evb, evc, eia, eib, eic]
    dsimp only
    simp only [qm, qa, qb, qc, PhPar.rot, phA, phB, phC]
    ring
  have ePp : e.Ppv = F (U + z .Vdc) := h.Ppv
  have eQ : e.Q_ref = 0 := h.Qref
  have eir : irefD e = ⟨i + (z .xDC - p.Kp_DC * z .Vdc), z .xQ - p.Kp_Q * (3 / 2 * v * qm z .iI)⟩ := by
    have e1 : e.xDC = i + z .xDC := h.xDC
    have e3 : e.xQ = 0 + z .xQ := h.xQ
    unfold irefD
    rw [h.Vref, eV, eQ, eSP, e1, e3, gKd, gKq]
    apply Complex.ext
    · simp only [Complex.add_re, Complex.ofReal_re, Complex.mul_re, Complex.I_re, Complex.I_im, Complex.ofReal_im]
      ring
    · simp only [Complex.add_im, Complex.ofReal_re, Complex.mul_im, Complex.I_re, Complex.I_im, Complex.ofReal_im]
      ring
  obtain ⟨eiar, eibr, eicr⟩ := h.iref
  rw [eir] at eiar
  rw [eir, ub_turn] at eibr
  rw [eir, uc_turn] at eicr
  dsimp only at eibr eicr
  have nsa : ¬ mSat e e.ua e.xa := by
    rw [mSat, gKp, lm, eua, exa]; exact unsat (by norm_num) (z1 phA (Or.inl rfl))
  have nsb : ¬ mSat e e.ub e.xb := by
    rw [mSat, gKp, lm, eub, exb]; exact unsat csb (z1 phB (Or.inr (Or.inl rfl)))
  have nsc : ¬ mSat e e.uc e.xc := by
    rw [mSat, gKp, lm, euc, exc]; exact unsat csc (z1 phC (Or.inr (Or.inr rfl)))
  have ni : ¬ ‖irefD e‖ > e.iref_limit := by
    rw [gt_iff_lt, not_lt, eir, li]
    refine (norm_mk_le _ _).trans ?_
    have h4 := abs_add_le i (z .xDC - p.Kp_DC * z .Vdc)
    linarith
  have b1 : M1 * (U / 2) = v + p.Rf * i := by rw [hM1]; field_simp
  have b2 : M2 * (U / 2) = p.Lf * (w / p.wbase) * i := by rw [hM2]; field_simp
  obtain ⟨a1, a2, a3, a4, a5, a6, a7, a8, a9, a10, a11, a12, a13, a14⟩ := C57_antiwindup_no_filter e
  cases j
  case iaR =>
    have r : rhs e .iaR = 1 / e.Lf * (-e.Rf * e.ia.re - e.va.re + e.vta.re) + e.winv / e.wbase * e.ia.im := rfl
    rw [r, ewi, ewe, evta, eia, eva, cL, cR, cw, if_neg (by decide), zero_add]
    exact pI 1 0 phA
  case iaI =>
    have r : rhs e .iaI = 1 / e.Lf * (-e.Rf * e.ia.im - e.va.im + e.vta.im) - e.winv / e.wbase * e.ia.re := rfl
    rw [r, ewi, ewe, evta, eia, eva, cL, cR, cw, if_neg (by decide), zero_add]
    exact pJ 1 0 phA
  case ibR =>
    have r : rhs e .ibR = 1 / e.Lf * (-e.Rf * e.ib.re - e.vb.re + e.vtb.re) + e.winv / e.wbase * e.ib.im := rfl
    rw [r, ewi, ewe, evtb, eib, evb, cL, cR, cw, if_neg (by decide), zero_add]
    exact pI cb sb phB
  case ibI =>
    have r : rhs e .ibI = 1 / e.Lf * (-e.Rf * e.ib.im - e.vb.im + e.vtb.im) - e.winv / e.wbase * e.ib.re := rfl
    rw [r, ewi, ewe, evtb, eib, evb, cL, cR, cw, if_neg (by decide), zero_add]
    exact pJ cb sb phB
  case icR =>
    have r : rhs e .icR = 1 / e.Lf * (-e.Rf * e.ic.re - e.vc.re + e.vtc.re) + e.winv / e.wbase * e.ic.im := rfl
    rw [r, ewi, ewe, evtc, eic, evc, cL, cR, cw, if_neg (by decide), zero_add]
    exact pI cc sc phC
  case icI =>
    have r : rhs e .icI = 1 / e.Lf * (-e.Rf * e.ic.im - e.vc.im + e.vtc.im) - e.winv / e.wbase * e.ic.re := rfl
    rw [r, ewi, ewe, evtc, eic, evc, cL, cR, cw, if_neg (by decide), zero_add]
    exact pJ cc sc phC
  case xaR =>
    rw [a1.plain nsa, gKi, eua]
    show p.Ki_GCC * (0 + z .uaR) = 0 + (p.Ki_GCC * z .uaR + 0)
    ring
  case xaI =>
    rw [a2.plain nsa, gKi, eua]
    show p.Ki_GCC * (0 + z .uaI) = 0 + (p.Ki_GCC * z .uaI + 0)
    ring
  case uaR =>
    rw [a3.plain nsa, eiar, eua, eia, gwp]
    show p.wp * (-(0 + z .uaR) + (i + (z .xDC - p.Kp_DC * z .Vdc)) - (i * 1 + z .iaR)) =
      0 + (p.wp * (-z .uaR + ((z .xDC + -p.Kp_DC * z .Vdc) * 1 - (z .xQ - 3 / 2 * p.Kp_Q * v * qm z .iI) * 0) - z .iaR) + 0)
    ring
  case uaI =>
    rw [a4.plain nsa, eiar, eua, eia, gwp]
    show p.wp * (-(0 + z .uaI) + (z .xQ - p.Kp_Q * (3 / 2 * v * qm z .iI)) - (i * 0 + z .iaI)) =
      0 + (p.wp * (-z .uaI + ((z .xDC + -p.Kp_DC * z .Vdc) * 0 + (z .xQ - 3 / 2 * p.Kp_Q * v * qm z .iI) * 1) - z .iaI) + 0)
    ring
  case xbR =>
    rw [a5.plain nsb, gKi, eub]
    show p.Ki_GCC * (0 + z .ubR) = 0 + (p.Ki_GCC * z .ubR + 0)
    ring
  case xbI =>
    rw [a6.plain nsb, gKi, eub]
    show p.Ki_GCC * (0 + z .ubI) = 0 + (p.Ki_GCC * z .ubI + 0)
    ring
  case ubR =>
    rw [a7.plain nsb, eibr, eub, eib, gwp]
    show p.wp * (-(0 + z .ubR) + ((i + (z .xDC - p.Kp_DC * z .Vdc)) * cb - (z .xQ - p.Kp_Q * (3 / 2 * v * qm z .iI)) * sb) - (i * cb + z .ibR)) =
      0 + (p.wp * (-z .ubR + ((z .xDC + -p.Kp_DC * z .Vdc) * cb - (z .xQ - 3 / 2 * p.Kp_Q * v * qm z .iI) * sb) - z .ibR) + 0)
    ring
  case ubI =>
    rw [a8.plain nsb, eibr, eub, eib, gwp]
    show p.wp * (-(0 + z .ubI) + ((i + (z .xDC - p.Kp_DC * z .Vdc)) * sb + (z .xQ - p.Kp_Q * (3 / 2 * v * qm z .iI)) * cb) - (i * sb + z .ibI)) =
      0 + (p.wp * (-z .ubI + ((z .xDC + -p.Kp_DC * z .Vdc) * sb + (z .xQ - 3 / 2 * p.Kp_Q * v * qm z .iI) * cb) - z .ibI) + 0)
    ring
  case xcR =>
    rw [a9.plain nsc, gKi, euc]
    show p.Ki_GCC * (0 + z .ucR) = 0 + (p.Ki_GCC * z .ucR + 0)
    ring
  case xcI =>
    rw [a10.plain nsc, gKi, euc]
    show p.Ki_GCC * (0 + z .ucI) = 0 + (p.Ki_GCC * z .ucI + 0)
    ring
  case ucR =>
    rw [a11.plain nsc, eicr, euc, eic, gwp]
    show p.wp * (-(0 + z .ucR) + ((i + (z .xDC - p.Kp_DC * z .Vdc)) * cc - (z .xQ - p.Kp_Q * (3 / 2 * v * qm z .iI)) * sc) - (i * cc + z .icR)) =
      0 + (p.wp * (-z .ucR + ((z .xDC + -p.Kp_DC * z .Vdc) * cc - (z .xQ - 3 / 2 * p.Kp_Q * v * qm z .iI) * sc) - z .icR) + 0)
    ring
  case ucI =>
    rw [a12.plain nsc, eicr, euc, eic, gwp]
    show p.wp * (-(0 + z .ucI) + ((i + (z .xDC - p.Kp_DC * z .Vdc)) * sc + (z .xQ - p.Kp_Q * (3 / 2 * v * qm z .iI)) * cc) - (i * sc + z .icI)) =
      0 + (p.wp * (-z .ucI + ((z .xDC + -p.Kp_DC * z .Vdc) * sc + (z .xQ - 3 / 2 * p.Kp_Q * v * qm z .iI) * cc) - z .icI) + 0)
    ring
  case Vdc =>
    simp only [rhs, lin, rem, DcLoop.lin, DcPar.lin, reduceCtorEq, if_false]
    rw [ePp, eS, eV, cC, hF]
    have m1 : (par 3 p v w U i F').m1 = M1 := rfl
    rw [m1]
    have q2 : 1 / p.C * (3 / 2 * (v * i + p.Rf * i ^ 2) / U) = 3 / (4 * p.C) * (M1 * i) := by
      rw [show v * i + p.Rf * i ^ 2 = (v + p.Rf * i) * i by ring, ← b1]; field_simp; ring
    have q3 : 1 / p.C * (F' / U - 3 / 2 * (v * i + p.Rf * i ^ 2) / U ^ 2) = F' / (U * p.C) - 3 / (4 * p.C * U) * (M1 * i) := by
      rw [show v * i + p.Rf * i ^ 2 = (v + p.Rf * i) * i by ring, ← b1]; field_simp; ring
    rw [q3]
    rw [q2]
    have q5 : (par 3 p v w U i F').σ (DcLoop.dev (mean z)) = U / 2 * (M1 * qm z .iR + i * (p.Kp_GCC * qm z .uR + qm z .xR) + M2 * qm z .iI) := by
      show (v + p.Rf * i) * qm z .iR + U / 2 * i * (p.Kp_GCC * qm z .uR + qm z .xR) + p.Lf * (w / p.wbase) * i * qm z .iI = _
      linear_combination (-qm z .iR) * b1 - qm z .iI * b2
    rw [q5]
    have k1 : (par 3 p v w U i F').ϑ = -F' / (U * p.C) := rfl
    have k2 : (par 3 p v w U i F').cs = 3 / (2 * U * p.C) := rfl
    have k3 : (par 3 p v w U i F').i = i := rfl
    have k6 : (DcLoop.dev (mean z)).s = z .Vdc := rfl
    rw [k1, k2, k3, k6]
    clear_value M1 M2
    generalize pw (par 3 p v w U i F') (fun j => z (phA j)) + pw (par 3 p v w U i F') (fun j => z (phB j)) + pw (par 3 p v w U i F') (fun j => z (phC j)) = pp
    generalize p.Kp_GCC * qm z .uR + qm z .xR = D
    generalize qm z .iR = x1
    generalize qm z .iI = x2
    generalize F (U + z .Vdc) = f
    field_simp
    ring
  case xDC =>
    rw [a13.plain ni, h.Vref, eV, gKid]
    show p.Ki_DC * (U - (U + z .Vdc)) = 0 + (-p.Ki_DC * z .Vdc + 0)
    ring
  case xQ =>
    rw [a14.plain ni, eQ, eSP, gKiq]
    show -p.Ki_Q * (0 - -(3 / 2 * v * qm z .iI)) = 0 + (-(3 / 2 * p.Ki_Q * v) * qm z .iI + 0)
    ring
  case xPLL =>
    show e.Ki_PLL * e.vd = 0 + (-(p.Ki_PLL * v) * z .wte + -(p.Ki_PLL * v) * (Real.sin (z .wte) - z .wte))
    rw [evd, gKpll]
    ring
  case wte =>
    show e.we = (if V.wte = V.wte then w else 0) + (z .xPLL - p.Kp_PLL * v * z .wte + -(p.Kp_PLL * v) * (Real.sin (z .wte) - z .wte))
    rw [ewe, if_pos rfl]
    ring

theorem rest_deriv (t : ℝ) (j : V) : HasDerivAt (fun s => rest p v w U i s j) (if j = .wte then w else 0) t := by
  cases j <;> simp only [rest, reduceCtorEq, if_false, if_true] <;> first | exact hasDerivAt_const t _ | skip
  simpa using (hasDerivAt_id t).const_mul w

/-- Stability of any equations whose rows are those of a loop with the attributes `Looks`. -/
theorem settles (hU : 0 < U) (hC : p.C ≠ 0) {F : ℝ → ℝ} {F' : ℝ} (hF : F U = 3 / 2 * (v * i + p.Rf * i ^ 2)) (hS : Smooth F U F') {ε N E ε' N' E' : ℝ} (cert : DcOk (par 3 p v w U i F') ε N E)
    (cert' : PhOk (ofDc (par 3 p v w U i F')) ε' N' E')
    (hm : ‖(⟨(v + p.Rf * i) / (U / 2), p.Lf * (w / p.wbase) * i / (U / 2)⟩ : ℂ)‖ < p.m_limit) (hi : |i| < p.iref_limit) :
    ∃ δ > 0, ∃ M > 0, ∃ a > 0, ∀ (e : ℝ → (V → ℝ) → Env) (Y : ℝ → V → ℝ), (∀ t, 0 ≤ t → ∀ y, Looks p v w U F t y (e t y)) → (∀ t, 0 ≤ t → Solves (fun t y => rhs (e t y)) Y t) →
      ‖Y 0 - rest p v w U i 0‖ ≤ δ → ∀ t, 0 ≤ t → ‖Y t - rest p v w U i t‖ ≤ M * ‖Y 0 - rest p v w U i 0‖ * Real.exp (-a * t) := by
  have hL : p.Lf ≠ 0 := cert.a1.pL.ne'
  have hH : Smooth (fun x => 1 / p.C * (F x / x)) U (1 / p.C * (F' / U - F U / U ^ 2)) := (hS.div_self hU).const_mul (1 / p.C)
  obtain ⟨δ, hδ, M, hM, a, ha, main⟩ := (dis cert cert').stable _ (rem_O2 (par 3 p v w U i F') (κ := 1 / (4 * p.C)) hH) (inside_near hU hm hi)
  refine ⟨δ, hδ, M, hM, a, ha, fun e Y ho hY h0 => ?_⟩
  refine main (fun t => Y t - rest p v w U i t) (fun t j => rhs (e t (Y t)) j - if j = .wte then w else 0) (fun t ht j => (hY t ht j).sub (rest_deriv t j)) (fun t ht hz j => ?_) h0
  have e1 : (fun j => rest p v w U i t j + (Y t - rest p v w U i t) j) = Y t := by
    funext j; simp
  have r := rows hU hL hC F' hF _ hz (e := e t (Y t)) (by rw [e1]; exact ho t ht _) j
  rw [r, add_sub_cancel_left]

theorem mean_zero : mean 0 = 0 := by
  funext j
  cases j <;> simp [mean, qm, qa, qb, qc, PhPar.rot]

/-- The operating point solves any equations whose rows are those of a loop with the attributes `Looks`. -/
theorem rest_solves (hU : 0 < U) (hL : p.Lf ≠ 0) (hC : p.C ≠ 0) {F : ℝ → ℝ} (hF : F U = 3 / 2 * (v * i + p.Rf * i ^ 2))
    (hm : ‖(⟨(v + p.Rf * i) / (U / 2), p.Lf * (w / p.wbase) * i / (U / 2)⟩ : ℂ)‖ < p.m_limit) (hi : |i| < p.iref_limit)
    (e : ℝ → (V → ℝ) → Env) (t : ℝ) (he : Looks p v w U F t (rest p v w U i t) (e t (rest p v w U i t))) : Solves (fun t y => rhs (e t y)) (rest p v w U i) t := by
  intro j
  have h0 : Inside p v w U i 0 := by
    obtain ⟨η, hη, h⟩ := inside_near hU hm hi
    exact h 0 (by simpa using hη.le)
  have e1 : (fun j => rest p v w U i t j + (0 : V → ℝ) j) = rest p v w U i t := by
    funext j; simp
  have r := rows hU hL hC 0 hF 0 h0 (e := e t (rest p v w U i t)) (by rw [e1]; exact he) j
  have l0 : ∀ P : DcPar, ∀ κ H', lin P 0 j + rem P U κ (fun x => 1 / p.C * (F x / x)) H' j 0 = 0 := by
    intro P κ H'
    have q0 : qm (0 : V → ℝ) .iI = 0 := by simp [qm, qa, qb, qc, PhPar.rot]
    cases j <;> simp [lin, linP, PhPar.lin, rem, remP, pw, mean_zero, DcLoop.lin, DcPar.lin, DcPar.σ, DcPar.D1, DcPar.D2, DcLoop.dev, q0]
  rw [l0, add_zero] at r
  beta_reduce
  rw [r]
  exact rest_deriv t j

end Loop3

namespace ThreePhaseNoVrmsFilter
open Loop3 (rest ofDc)
open DcLoop (par)
variable {p : Par} {v w U i : ℝ}

/-- C124: the operating point is a solution of the three-phase model without RMS filter. -/
theorem C124_rest_no_filter (hv : 0 < v) (hU : 0 < U) (hL : p.Lf ≠ 0) (hC : p.C ≠ 0) (hm : ‖(⟨(v + p.Rf * i) / (U / 2), p.Lf * (w / p.wbase) * i / (U / 2)⟩ : ℂ)‖ < p.m_limit) (hi : |i| < p.iref_limit)
    {F : ℝ → ℝ} {inp : ℝ → Inp} (ho : OperatingDc 3 p v w U i F inp) (t : ℝ) (ht : 0 ≤ t) : Solves (fun t y => rhs (envN p (inp t) y)) (rest p v w U i) t :=
  Loop3.rest_solves hU hL hC ho.power hm hi (fun t y => envN p (inp t) y) t (Loop3.looks_env3 hv ho ht _ 0)

/-- C124: local exponential stability of the three-phase model without RMS filter. -/
theorem C124_settles_no_filter (hv : 0 < v) (hU : 0 < U) (hC : p.C ≠ 0) {F : ℝ → ℝ} {F' : ℝ} (hF : F U = 3 / 2 * (v * i + p.Rf * i ^ 2)) (hS : Smooth F U F') {ε N E ε' N' E' : ℝ}
    (cert : DcOk (par 3 p v w U i F') ε N E) (cert' : PhOk (ofDc (par 3 p v w U i F')) ε' N' E')
    (hm : ‖(⟨(v + p.Rf * i) / (U / 2), p.Lf * (w / p.wbase) * i / (U / 2)⟩ : ℂ)‖ < p.m_limit) (hi : |i| < p.iref_limit) :
    ∃ δ > 0, ∃ M > 0, ∃ a > 0, ∀ (inp : ℝ → Inp) (Y : ℝ → V → ℝ), OperatingDc 3 p v w U i F inp → (∀ t, 0 ≤ t → Solves (fun t y => rhs (envN p (inp t) y)) Y t) →
      ‖Y 0 - rest p v w U i 0‖ ≤ δ → ∀ t, 0 ≤ t → ‖Y t - rest p v w U i t‖ ≤ M * ‖Y 0 - rest p v w U i 0‖ * Real.exp (-a * t) := by
  obtain ⟨δ, hδ, M, hM, a, ha, main⟩ := Loop3.settles hU hC hF hS cert cert' hm hi
  exact ⟨δ, hδ, M, hM, a, ha, fun inp Y ho hY => main (fun t y => envN p (inp t) y) Y (fun t ht y => Loop3.looks_env3 hv ho ht y 0) hY⟩

end ThreePhaseNoVrmsFilter

namespace ThreePhaseNumba
open Loop3 (rest ofDc)
open DcLoop (par)

/-- The states of the numba class are those of the class without RMS filter. -/
def toN : V → ThreePhaseNoVrmsFilter.V
  | .iaR => .iaR | .iaI => .iaI | .xaR => .xaR | .xaI => .xaI | .uaR => .uaR | .uaI => .uaI
  | .ibR => .ibR | .ibI => .ibI | .xbR => .xbR | .xbI => .xbI | .ubR => .ubR | .ubI => .ubI
  | .icR => .icR | .icI => .icI | .xcR => .xcR | .xcI => .xcI | .ucR => .ucR | .ucI => .ucI
  | .Vdc => .Vdc | .xDC => .xDC | .xQ => .xQ | .xPLL => .xPLL | .wte => .wte

/-- see `toN`. -/
def ofN : ThreePhaseNoVrmsFilter.V → V
  | .iaR => .iaR | .iaI => .iaI | .xaR => .xaR | .xaI => .xaI | .uaR => .uaR | .uaI => .uaI
  | .ibR => .ibR | .ibI => .ibI | .xbR => .xbR | .xbI => .xbI | .ubR => .ubR | .ubI => .ubI
  | .icR => .icR | .icI => .icI | .xcR => .xcR | .xcI => .xcI | .ucR => .ucR | .ucI => .ucI
  | .Vdc => .Vdc | .xDC => .xDC | .xQ => .xQ | .xPLL => .xPLL | .wte => .wte

theorem toN_ofN (j : ThreePhaseNoVrmsFilter.V) : toN (ofN j) = j := by cases j <;> rfl
theorem ofN_toN (j : V) : ofN (toN j) = j := by cases j <;> rfl

theorem rhs_same (e : Env) (j : V) : rhs e j = ThreePhaseNoVrmsFilter.rhs e (toN j) := by
  cases j <;> rfl

theorem norm_ofN (z : V → ℝ) : ‖fun j => z (ofN j)‖ = ‖z‖ := by
  apply le_antisymm
  · exact (pi_norm_le_iff_of_nonneg (norm_nonneg z)).2 (fun j => norm_le_pi_norm z (ofN j))
  · refine (pi_norm_le_iff_of_nonneg (norm_nonneg _)).2 (fun j => ?_)
    have := norm_le_pi_norm (fun j => z (ofN j)) (toN j)
    rwa [ofN_toN] at this

variable {p : Par} {v w U i : ℝ}

/-- C124: the operating point is a solution of the numba model. -/
theorem C124_rest_numba (hv : 0 < v) (hU : 0 < U) (hL : p.Lf ≠ 0) (hC : p.C ≠ 0) (hm : ‖(⟨(v + p.Rf * i) / (U / 2), p.Lf * (w / p.wbase) * i / (U / 2)⟩ : ℂ)‖ < p.m_limit) (hi : |i| < p.iref_limit)
    {F : ℝ → ℝ} {inp : ℝ → Inp} (ho : OperatingDc 3 p v w U i F inp) (t : ℝ) (ht : 0 ≤ t) : Solves (fun t y => rhs (envNumba p (inp t) y)) (fun t j => rest p v w U i t (toN j)) t := by
  intro j
  have := Loop3.rest_solves hU hL hC ho.power hm hi (fun t y => envN p (inp t) y) t (Loop3.looks_env3 hv ho ht _ 0) (toN j)
  beta_reduce at this ⊢
  rw [rhs_same]
  exact this

/-- C124: local exponential stability of the numba model. -/
theorem C124_settles_numba (hv : 0 < v) (hU : 0 < U) (hC : p.C ≠ 0) {F : ℝ → ℝ} {F' : ℝ} (hF : F U = 3 / 2 * (v * i + p.Rf * i ^ 2)) (hS : Smooth F U F') {ε N E ε' N' E' : ℝ}
    (cert : DcOk (par 3 p v w U i F') ε N E) (cert' : PhOk (ofDc (par 3 p v w U i F')) ε' N' E')
    (hm : ‖(⟨(v + p.Rf * i) / (U / 2), p.Lf * (w / p.wbase) * i / (U / 2)⟩ : ℂ)‖ < p.m_limit) (hi : |i| < p.iref_limit) :
    ∃ δ > 0, ∃ M > 0, ∃ a > 0, ∀ (inp : ℝ → Inp) (Y : ℝ → V → ℝ), OperatingDc 3 p v w U i F inp → (∀ t, 0 ≤ t → Solves (fun t y => rhs (envNumba p (inp t) y)) Y t) →
      ‖Y 0 - fun j => rest p v w U i 0 (toN j)‖ ≤ δ →
      ∀ t, 0 ≤ t → ‖Y t - fun j => rest p v w U i t (toN j)‖ ≤ M * ‖Y 0 - fun j => rest p v w U i 0 (toN j)‖ * Real.exp (-a * t) := by
  obtain ⟨δ, hδ, M, hM, a, ha, main⟩ := Loop3.settles hU hC hF hS cert cert' hm hi
  refine ⟨δ, hδ, M, hM, a, ha, fun inp Y ho hY => ?_⟩
  have nrm : ∀ t, ‖(fun j => Y t (ofN j)) - rest p v w U i t‖ = ‖Y t - fun j => rest p v w U i t (toN j)‖ := by
    intro t
    rw [← norm_ofN]
    congr 1
    funext j
    simp only [Pi.sub_apply, toN_ofN]
  have := main (fun t y => envN p (inp t) y) (fun t j => Y t (ofN j)) (fun t ht y => Loop3.looks_env3 hv ho ht y 0) (fun t ht j => ?_)
  · simp only [nrm] at this
    exact this
  · have h := hY t ht (ofN j)
    beta_reduce at h ⊢
    rw [rhs_same, toN_ofN] at h
    exact h

end ThreePhaseNumba
end Ode
end PvDer
