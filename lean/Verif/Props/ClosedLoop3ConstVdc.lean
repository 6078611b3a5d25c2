import Verif.Props.ClosedLoop3

/-!
# C124 for the three-phase class with constant DC voltage

Like `Props/ClosedLoop3`, with the active power loop of the single-phase class with constant DC voltage in place of the DC link.
-/

namespace PvDer
namespace Ode
open Complex Phasor LocStab

/-- Constant operating conditions of the three-phase model with constant DC voltage: balanced grid voltage `v` (phase a at angle zero) and frequency `w`, DC voltage `V`, no reactive power demand,
and a PV power that the currents of amplitude `i` carry: what the grid takes plus the filter losses of the three phases. -/
structure Operating3 (p : Par) (v w V i : ℝ) (inp : ℝ → Inp) : Prop where
  grid : SteadyGrid (v : ℂ) w inp
  dc : ∀ t, 0 ≤ t → (inp t).Vdc0 = V
  q : ∀ t, 0 ≤ t → (inp t).Q_ref = 0
  pv : ∀ t, 0 ≤ t → ppvOf p (inp t) V = 3 / 2 * (v * i + p.Rf * i ^ 2)

namespace ThreePhaseConstantVdc

/-- The parameters of the linearised loop of the mean of the phases. -/
noncomputable def par (p : Par) (v w V i : ℝ) : LoopPar where
  R := p.Rf
  L := p.Lf
  g := V / 2
  w0 := w / p.wbase
  wb := p.wbase
  v := v
  i := i
  Kp := p.Kp_GCC
  Ki := p.Ki_GCC
  wp := p.wp
  PP := 3 / 2 * p.Kp_P
  PI := 3 / 2 * p.Ki_P
  QP := 3 / 2 * p.Kp_Q * v
  QI := 3 / 2 * p.Ki_Q * v
  Kv := p.Kp_PLL * v
  J := p.Ki_PLL * v

/-- The states of phase a. -/
def phA : Ph → V
  | .iR => .iaR
  | .iI => .iaI
  | .xR => .xaR
  | .xI => .xaI
  | .uR => .uaR
  | .uI => .uaI
/-- The states of phase b. -/
def phB : Ph → V
  | .iR => .ibR
  | .iI => .ibI
  | .xR => .xbR
  | .xI => .xbI
  | .uR => .ubR
  | .uI => .ubI
/-- The states of phase c. -/
def phC : Ph → V
  | .iR => .icR
  | .iI => .icI
  | .xR => .xcR
  | .xI => .xcI
  | .uR => .ucR
  | .uI => .ucI

/-- Current loop of one phase. -/
noncomputable def ofLoop (P : LoopPar) : PhPar where
  R := P.R
  L := P.L
  g := P.g
  w0 := P.w0
  wb := P.wb
  i := P.i
  M1 := 0
  M2 := 0
  Kp := P.Kp
  Ki := P.Ki
  wp := P.wp

/-- Phases in the frame of phase a. -/
noncomputable def qa (z : V → ℝ) : Ph → ℝ := fun j => z (phA j)
/-- see `qa`. -/
noncomputable def qb (z : V → ℝ) : Ph → ℝ := PhPar.rot cb sb (fun j => z (phB j))
/-- see `qa`. -/
noncomputable def qc (z : V → ℝ) : Ph → ℝ := PhPar.rot cc sc (fun j => z (phC j))
/-- Their mean. -/
noncomputable def qm (z : V → ℝ) : Ph → ℝ := fun j => (qa z j + qb z j + qc z j) / 3

/-- The mean mode: states like those of one phase. -/
noncomputable def mean (z : V → ℝ) : SinglePhaseConstantVdc.V → ℝ
  | .iaR => qm z .iR
  | .iaI => qm z .iI
  | .xaR => qm z .xR
  | .xaI => qm z .xI
  | .uaR => qm z .uR
  | .uaI => qm z .uI
  | .xP => z .xP
  | .xQ => z .xQ
  | .xPLL => z .xPLL
  | .wte => z .wte

/-- Deviation of the power, first order, per phase. -/
noncomputable def σ (P : LoopPar) (z : V → ℝ) : ℝ := P.σ (SinglePhaseConstantVdc.dev (mean z))

/-- Linear part, one phase. -/
noncomputable def linP (P : LoopPar) (c s : ℝ) (z : V → ℝ) (f : Ph → V) : Ph → ℝ :=
  (ofLoop P).lin c s 0 (z .xPLL - P.Kv * z .wte) (z .xP - P.PP * σ P z) (z .xQ - P.QP * qm z .iI) (fun j => z (f j))

/-- Linear part. -/
noncomputable def lin (P : LoopPar) (z : V → ℝ) : V → ℝ
  | .iaR => linP P 1 0 z phA .iR
  | .iaI => linP P 1 0 z phA .iI
  | .xaR => linP P 1 0 z phA .xR
  | .xaI => linP P 1 0 z phA .xI
  | .uaR => linP P 1 0 z phA .uR
  | .uaI => linP P 1 0 z phA .uI
  | .ibR => linP P cb sb z phB .iR
  | .ibI => linP P cb sb z phB .iI
  | .xbR => linP P cb sb z phB .xR
  | .xbI => linP P cb sb z phB .xI
  | .ubR => linP P cb sb z phB .uR
  | .ubI => linP P cb sb z phB .uI
  | .icR => linP P cc sc z phC .iR
  | .icI => linP P cc sc z phC .iI
  | .xcR => linP P cc sc z phC .xR
  | .xcI => linP P cc sc z phC .xI
  | .ucR => linP P cc sc z phC .uR
  | .ucI => linP P cc sc z phC .uI
  | .xP => SinglePhaseConstantVdc.lin P (mean z) .xP
  | .xQ => SinglePhaseConstantVdc.lin P (mean z) .xQ
  | .xPLL => SinglePhaseConstantVdc.lin P (mean z) .xPLL
  | .wte => SinglePhaseConstantVdc.lin P (mean z) .wte

theorem lin_phA (P : LoopPar) (z : V → ℝ) (j : Ph) : lin P z (phA j) = linP P 1 0 z phA j := by cases j <;> rfl
theorem lin_phB (P : LoopPar) (z : V → ℝ) (j : Ph) : lin P z (phB j) = linP P cb sb z phB j := by cases j <;> rfl
theorem lin_phC (P : LoopPar) (z : V → ℝ) (j : Ph) : lin P z (phC j) = linP P cc sc z phC j := by cases j <;> rfl

/-- What the phases have in common. -/
noncomputable def com (P : LoopPar) (z : V → ℝ) (q : Ph → ℝ) : Ph → ℝ :=
  (ofLoop P).lin 1 0 0 (z .xPLL - P.Kv * z .wte) (z .xP - P.PP * σ P z) (z .xQ - P.QP * qm z .iI) q

theorem qa_lin (P : LoopPar) (z : V → ℝ) (j : Ph) : qa (lin P z) j = com P z (qa z) j := lin_phA P z j
theorem qb_lin (P : LoopPar) (z : V → ℝ) (j : Ph) : qb (lin P z) j = com P z (qb z) j := by
  have e : (fun j => lin P z (phB j)) = linP P cb sb z phB := funext (lin_phB P z)
  unfold qb
  rw [e]
  exact (ofLoop P).rot_lin csb _ _ _ _ _ j
theorem qc_lin (P : LoopPar) (z : V → ℝ) (j : Ph) : qc (lin P z) j = com P z (qc z) j := by
  have e : (fun j => lin P z (phC j)) = linP P cc sc z phC := funext (lin_phC P z)
  unfold qc
  rw [e]
  exact (ofLoop P).rot_lin csc _ _ _ _ _ j
theorem qm_lin (P : LoopPar) (z : V → ℝ) (j : Ph) : qm (lin P z) j = com P z (qm z) j := by
  unfold qm
  rw [qa_lin, qb_lin, qc_lin]
  exact (ofLoop P).lin_mean _ _ _ _ _ _ _ j

theorem mean_lin (P : LoopPar) (z : V → ℝ) : mean (lin P z) = SinglePhaseConstantVdc.lin P (mean z) := by
  funext j
  cases j
  case xP | xQ | xPLL | wte => rfl
  all_goals
    show qm (lin P z) _ = _
    rw [qm_lin]
    simp only [com, PhPar.lin, SinglePhaseConstantVdc.lin, LoopPar.lin, LoopPar.D1, LoopPar.D2, SinglePhaseConstantVdc.dev, mean, ofLoop, σ]
    try ring

/-- The modes: mean, b minus a, c minus a. -/
noncomputable def modes (z : V → ℝ) : SinglePhaseConstantVdc.V ⊕ (Ph ⊕ Ph) → ℝ := Sum.elim (mean z) (Sum.elim (fun j => qb z j - qa z j) (fun j => qc z j - qa z j))

theorem modes_isLin : IsLinearMap ℝ modes := by
  constructor
  · intro x y
    funext j
    rcases j with j | j | j <;> cases j <;> simp [modes, mean, qm, qa, qb, qc, PhPar.rot] <;> ring
  · intro r x
    funext j
    rcases j with j | j | j <;> cases j <;> simp [modes, mean, qm, qa, qb, qc, PhPar.rot] <;> ring

theorem modes_zero (z : V → ℝ) (h : modes z = 0) : z = 0 := by
  have m : ∀ j, mean z j = 0 := fun j => congrFun h (.inl j)
  have b : ∀ j, qb z j - qa z j = 0 := fun j => congrFun h (.inr (.inl j))
  have c : ∀ j, qc z j - qa z j = 0 := fun j => congrFun h (.inr (.inr j))
  have m' : ∀ j, qm z j = 0 := by
    intro j
    cases j
    · exact m .iaR
    · exact m .iaI
    · exact m .xaR
    · exact m .xaI
    · exact m .uaR
    · exact m .uaI
  have a0 : ∀ j, qa z j = 0 := by
    intro j
    have h1 := m' j
    have h2 := b j
    have h3 := c j
    unfold qm at h1
    linarith
  have b0 : qb z = 0 := funext (fun j => by have h1 := b j; rw [a0 j, sub_zero] at h1; exact h1)
  have c0 : qc z = 0 := funext (fun j => by have h1 := c j; rw [a0 j, sub_zero] at h1; exact h1)
  have b1 := congrFun (PhPar.rot_zero csb b0)
  have c1 := congrFun (PhPar.rot_zero csc c0)
  funext j
  cases j
  · exact a0 .iR
  · exact a0 .iI
  · exact a0 .xR
  · exact a0 .xI
  · exact a0 .uR
  · exact a0 .uI
  · exact b1 .iR
  · exact b1 .iI
  · exact b1 .xR
  · exact b1 .xI
  · exact b1 .uR
  · exact b1 .uI
  · exact c1 .iR
  · exact c1 .iI
  · exact c1 .xR
  · exact c1 .xI
  · exact c1 .uR
  · exact c1 .uI
  · exact m .xP
  · exact m .xQ
  · exact m .xPLL
  · exact m .wte

theorem loop_Dis {P : LoopPar} {ε N E : ℝ} (cert : LoopOk P ε N E) : Dis (SinglePhaseConstantVdc.lin P) :=
  ⟨_, _, inferInstance, inferInstance, P.weights ε N E, fun z => P.forms ε (SinglePhaseConstantVdc.dev z), fun z => P.sizes (SinglePhaseConstantVdc.dev z), _, weights_pos cert,
    SinglePhaseConstantVdc.isLin_forms _ _, fun z hz => SinglePhaseConstantVdc.dev_zero (forms_inj cert _ hz), SinglePhaseConstantVdc.isLin_sizes _,
    fun z hz => SinglePhaseConstantVdc.dev_zero (sizes_inj cert _ hz), c_pos cert, fun z => by beta_reduce; rw [SinglePhaseConstantVdc.dev_lin]; exact loop_dis cert _⟩

theorem dis {P : LoopPar} {ε N E ε' N' E' : ℝ} (cert : LoopOk P ε N E) (cert' : PhOk (ofLoop P) ε' N' E') : Dis (lin P) := by
  refine ((loop_Dis cert).sum ((ph_dis cert').sum (ph_dis cert'))).pull modes modes_isLin modes_zero (fun z => ?_)
  funext j
  rcases j with j | j | j
  · exact congrFun (mean_lin P z) j
  · show qb (lin P z) j - qa (lin P z) j = _
    rw [qb_lin, qa_lin]
    exact (ofLoop P).lin_sub _ _ _ _ _ _ j
  · show qc (lin P z) j - qa (lin P z) j = _
    rw [qc_lin, qa_lin]
    exact (ofLoop P).lin_sub _ _ _ _ _ _ j

/-- The operating point at time `t`: each phase turned into the direction of its grid voltage. -/
noncomputable def rest (p : Par) (v w U i t : ℝ) : V → ℝ
  | .iaR => Loop3.restP p v w U i 1 0 .iR
  | .iaI => Loop3.restP p v w U i 1 0 .iI
  | .xaR => Loop3.restP p v w U i 1 0 .xR
  | .xaI => Loop3.restP p v w U i 1 0 .xI
  | .uaR => Loop3.restP p v w U i 1 0 .uR
  | .uaI => Loop3.restP p v w U i 1 0 .uI
  | .ibR => Loop3.restP p v w U i cb sb .iR
  | .ibI => Loop3.restP p v w U i cb sb .iI
  | .xbR => Loop3.restP p v w U i cb sb .xR
  | .xbI => Loop3.restP p v w U i cb sb .xI
  | .ubR => Loop3.restP p v w U i cb sb .uR
  | .ubI => Loop3.restP p v w U i cb sb .uI
  | .icR => Loop3.restP p v w U i cc sc .iR
  | .icI => Loop3.restP p v w U i cc sc .iI
  | .xcR => Loop3.restP p v w U i cc sc .xR
  | .xcI => Loop3.restP p v w U i cc sc .xI
  | .ucR => Loop3.restP p v w U i cc sc .uR
  | .ucI => Loop3.restP p v w U i cc sc .uI
  | .xP => i
  | .xQ => 0
  | .xPLL => w - 2 * Real.pi * 60
  | .wte => w * t

/-- Product of the deviations of duty cycle and current of one phase. -/
noncomputable def pw (P : LoopPar) (q : Ph → ℝ) : ℝ := (P.Kp * q .uR + q .xR) * q .iR + (P.Kp * q .uI + q .xI) * q .iI

/-- Power of the deviations with each other, per phase. -/
noncomputable def cross (P : LoopPar) (z : V → ℝ) : ℝ := P.g / 3 * (pw P (fun j => z (phA j)) + pw P (fun j => z (phB j)) + pw P (fun j => z (phC j)))

/-- Terms of second order of one phase; `X` is the power of the deviations. -/
noncomputable def remP (P : LoopPar) (c s X χ φ : ℝ) (q : Ph → ℝ) : Ph → ℝ
  | .iR => 1 / P.wb * ((χ - P.Kv * Real.sin φ) * q .iI) + -(P.i * s / P.wb * P.Kv) * (Real.sin φ - φ)
  | .iI => -(1 / P.wb) * ((χ - P.Kv * Real.sin φ) * q .iR) + P.i * c / P.wb * P.Kv * (Real.sin φ - φ)
  | .uR => -(P.wp * P.PP * c) * X
  | .uI => -(P.wp * P.PP * s) * X
  | _ => 0

/-- Terms of second order. -/
noncomputable def rem (P : LoopPar) : V → (V → ℝ) → ℝ
  | .iaR, z => remP P 1 0 (cross P z) (z .xPLL) (z .wte) (fun j => z (phA j)) .iR
  | .iaI, z => remP P 1 0 (cross P z) (z .xPLL) (z .wte) (fun j => z (phA j)) .iI
  | .uaR, z => remP P 1 0 (cross P z) (z .xPLL) (z .wte) (fun j => z (phA j)) .uR
  | .uaI, z => remP P 1 0 (cross P z) (z .xPLL) (z .wte) (fun j => z (phA j)) .uI
  | .ibR, z => remP P cb sb (cross P z) (z .xPLL) (z .wte) (fun j => z (phB j)) .iR
  | .ibI, z => remP P cb sb (cross P z) (z .xPLL) (z .wte) (fun j => z (phB j)) .iI
  | .ubR, z => remP P cb sb (cross P z) (z .xPLL) (z .wte) (fun j => z (phB j)) .uR
  | .ubI, z => remP P cb sb (cross P z) (z .xPLL) (z .wte) (fun j => z (phB j)) .uI
  | .icR, z => remP P cc sc (cross P z) (z .xPLL) (z .wte) (fun j => z (phC j)) .iR
  | .icI, z => remP P cc sc (cross P z) (z .xPLL) (z .wte) (fun j => z (phC j)) .iI
  | .ucR, z => remP P cc sc (cross P z) (z .xPLL) (z .wte) (fun j => z (phC j)) .uR
  | .ucI, z => remP P cc sc (cross P z) (z .xPLL) (z .wte) (fun j => z (phC j)) .uI
  | .xP, z => -P.PI * cross P z
  | .xPLL, z => -P.J * (Real.sin (z .wte) - z .wte)
  | .wte, z => -P.Kv * (Real.sin (z .wte) - z .wte)
  | _, _ => 0

theorem cross_O2 (P : LoopPar) : O2 (fun z : V → ℝ => cross P z) := by
  have c := fun j : V => O1.coord j
  have D : ∀ a b : V, O1 (fun z : V → ℝ => P.Kp * z a + z b) := fun a b => ((c a).smul P.Kp).add (c b)
  have pq : ∀ f : Ph → V, O2 (fun z : V → ℝ => pw P (fun j => z (f j))) := fun f => ((D _ _).mul (c _)).add ((D _ _).mul (c _))
  exact (((pq phA).add (pq phB)).add (pq phC)).smul _

theorem rem_O2 (P : LoopPar) (j : V) : O2 (rem P j) := by
  have c := fun j : V => O1.coord j
  have ω : O1 (fun z : V → ℝ => z .xPLL - P.Kv * Real.sin (z .wte)) := (c .xPLL).sub ((c .wte).sin.smul P.Kv)
  have s : O2 (fun z : V → ℝ => Real.sin (z .wte) - z .wte) := O2.sin (c .wte)
  have r : ∀ (x y : ℝ) (f : Ph → V) (k : Ph), O2 (fun z : V → ℝ => remP P x y (cross P z) (z .xPLL) (z .wte) (fun j => z (f j)) k) := by
    intro x y f k
    cases k
    · exact ((ω.mul (c _)).smul _).add (s.smul _)
    · exact ((ω.mul (c _)).smul _).add (s.smul _)
    · exact O2.zero
    · exact O2.zero
    · exact (cross_O2 P).smul _
    · exact (cross_O2 P).smul _
  cases j
  case iaR => exact r 1 0 phA .iR
  case iaI => exact r 1 0 phA .iI
  case uaR => exact r 1 0 phA .uR
  case uaI => exact r 1 0 phA .uI
  case ibR => exact r cb sb phB .iR
  case ibI => exact r cb sb phB .iI
  case ubR => exact r cb sb phB .uR
  case ubI => exact r cb sb phB .uI
  case icR => exact r cc sc phC .iR
  case icI => exact r cc sc phC .iI
  case ucR => exact r cc sc phC .uR
  case ucI => exact r cc sc phC .uI
  case xP => exact (cross_O2 P).smul _
  case xPLL | wte => exact s.smul _
  all_goals exact O2.zero

/-- The deviations do not reach the limiters. -/
def Inside (p : Par) (v w U i : ℝ) (z : V → ℝ) : Prop :=
  (∀ f : Ph → V, f = phA ∨ f = phB ∨ f = phC →
    |p.Kp_GCC * z (f .uR) + z (f .xR)| + |p.Kp_GCC * z (f .uI) + z (f .xI)| < p.m_limit - ‖(⟨(v + p.Rf * i) / (U / 2), p.Lf * (w / p.wbase) * i / (U / 2)⟩ : ℂ)‖) ∧
  |z .xP - p.Kp_P * (3 / 2 * (σ (par p v w U i) z + cross (par p v w U i) z))| + |z .xQ - p.Kp_Q * (3 / 2 * v * qm z .iI)| < p.iref_limit - |i|

variable {p : Par} {v w U i : ℝ}

theorem O1_rot {x y : ℝ} {f : Ph → V} (k : Ph) : O1 (fun z : V → ℝ => PhPar.rot x y (fun j => z (f j)) k) := by
  have c := fun j : V => O1.coord j
  cases k
  · exact ((c _).smul _).add ((c _).smul _)
  · exact ((c _).smul _).sub ((c _).smul _)
  · exact ((c _).smul _).add ((c _).smul _)
  · exact ((c _).smul _).sub ((c _).smul _)
  · exact ((c _).smul _).add ((c _).smul _)
  · exact ((c _).smul _).sub ((c _).smul _)

theorem O1_qm (k : Ph) : O1 (fun z : V → ℝ => qm z k) := by
  have h : O1 (fun z : V → ℝ => 1 / 3 * (qa z k + qb z k + qc z k)) := (((O1.coord (phA k)).add (O1_rot k)).add (O1_rot k)).smul _
  have e : (fun z : V → ℝ => qm z k) = fun z : V → ℝ => 1 / 3 * (qa z k + qb z k + qc z k) := by
    funext z; unfold qm; ring
  rw [e]; exact h

theorem O1_σ (P : LoopPar) : O1 (fun z : V → ℝ => σ P z) :=
  (((O1_qm .iR).smul (P.v + P.R * P.i)).add ((((O1_qm .uR).smul P.Kp).add (O1_qm .xR)).smul (P.g * P.i))).add ((O1_qm .iI).smul (P.L * P.w0 * P.i))

theorem inside_near (hm : ‖(⟨(v + p.Rf * i) / (U / 2), p.Lf * (w / p.wbase) * i / (U / 2)⟩ : ℂ)‖ < p.m_limit) (hi : |i| < p.iref_limit) : Near (Inside p v w U i) := by
  have c := fun j : V => O1.coord j
  have D : ∀ a b : V, O1 (fun z : V → ℝ => p.Kp_GCC * z a + z b) := fun a b => ((c a).smul _).add (c b)
  have h1 := fun f : Ph → V => ((D (f .uR) (f .xR)).abs.add (D (f .uI) (f .xI)).abs).small (sub_pos.2 hm)
  have h2 := (((c .xP).sub ((((O1_σ (par p v w U i)).add (cross_O2 (par p v w U i)).O1).smul (3 / 2)).smul p.Kp_P)).abs.add ((c .xQ).sub (((O1_qm .iI).smul (3 / 2 * v)).smul p.Kp_Q)).abs).small (sub_pos.2 hi)
  refine ((((h1 phA).and (h1 phB)).and (h1 phC)).and h2).mono (fun z hz => ⟨fun f hf => ?_, (le_abs_self _).trans_lt hz.2⟩)
  rcases hf with rfl | rfl | rfl
  · exact (le_abs_self _).trans_lt hz.1.1.1
  · exact (le_abs_self _).trans_lt hz.1.1.2
  · exact (le_abs_self _).trans_lt hz.1.2

section phase
variable {c s : ℝ} (hcs : c ^ 2 + s ^ 2 = 1) (z : V → ℝ) (f : Ph → V)

theorem phase_iR (hU : U ≠ 0) (hL : p.Lf ≠ 0) : 1 / p.Lf * (-p.Rf * (i * c + z (f .iR)) - v * c +
      ((v + p.Rf * i) / (U / 2) * c - p.Lf * (w / p.wbase) * i / (U / 2) * s + (p.Kp_GCC * z (f .uR) + z (f .xR))) * (U / 2)) +
      (w + (z .xPLL - p.Kp_PLL * v * Real.sin (z .wte))) / p.wbase * (i * s + z (f .iI)) =
    linP (par p v w U i) c s z f .iR + remP (par p v w U i) c s (cross (par p v w U i) z) (z .xPLL) (z .wte) (fun j => z (f j)) .iR := by
  simp only [linP, remP, PhPar.lin, ofLoop]
  have b1 : (v + p.Rf * i) / (U / 2) * (U / 2) = v + p.Rf * i := by field_simp
  have b2 : p.Lf * (w / p.wbase) * i / (U / 2) * (U / 2) = p.Lf * (w / p.wbase) * i := by field_simp
  generalize (v + p.Rf * i) / (U / 2) = M1 at *
  generalize p.Lf * (w / p.wbase) * i / (U / 2) = M2 at *
  have q : -p.Rf * (i * c + z (f .iR)) - v * c + (M1 * c - M2 * s + (p.Kp_GCC * z (f .uR) + z (f .xR))) * (U / 2) =
      -p.Rf * z (f .iR) + U / 2 * (p.Kp_GCC * z (f .uR) + z (f .xR)) - p.Lf * (w / p.wbase) * i * s := by
    linear_combination c * b1 - s * b2
  rw [q]
  simp only [par]
  field_simp
  ring

theorem phase_iI (hU : U ≠ 0) (hL : p.Lf ≠ 0) : 1 / p.Lf * (-p.Rf * (i * s + z (f .iI)) - v * s +
      ((v + p.Rf * i) / (U / 2) * s + p.Lf * (w / p.wbase) * i / (U / 2) * c + (p.Kp_GCC * z (f .uI) + z (f .xI))) * (U / 2)) -
      (w + (z .xPLL - p.Kp_PLL * v * Real.sin (z .wte))) / p.wbase * (i * c + z (f .iR)) =
    linP (par p v w U i) c s z f .iI + remP (par p v w U i) c s (cross (par p v w U i) z) (z .xPLL) (z .wte) (fun j => z (f j)) .iI := by
  simp only [linP, remP, PhPar.lin, ofLoop]
  have b1 : (v + p.Rf * i) / (U / 2) * (U / 2) = v + p.Rf * i := by field_simp
  have b2 : p.Lf * (w / p.wbase) * i / (U / 2) * (U / 2) = p.Lf * (w / p.wbase) * i := by field_simp
  generalize (v + p.Rf * i) / (U / 2) = M1 at *
  generalize p.Lf * (w / p.wbase) * i / (U / 2) = M2 at *
  have q : -p.Rf * (i * s + z (f .iI)) - v * s + (M1 * s + M2 * c + (p.Kp_GCC * z (f .uI) + z (f .xI))) * (U / 2) =
      -p.Rf * z (f .iI) + U / 2 * (p.Kp_GCC * z (f .uI) + z (f .xI)) + p.Lf * (w / p.wbase) * i * c := by
    linear_combination s * b1 + c * b2
  rw [q]
  simp only [par]
  field_simp
  ring

include hcs in
/-- Voltage and power of one phase. -/
theorem phase_power (M1 M2 K : ℝ) : (M1 * c - M2 * s + (K * z (f .uR) + z (f .xR))) * (i * c + z (f .iR)) + (M1 * s + M2 * c + (K * z (f .uI) + z (f .xI))) * (i * s + z (f .iI)) =
    M1 * i + (M1 * PhPar.rot c s (fun j => z (f j)) .iR + M2 * PhPar.rot c s (fun j => z (f j)) .iI +
      i * (K * PhPar.rot c s (fun j => z (f j)) .uR + PhPar.rot c s (fun j => z (f j)) .xR)) + ((K * z (f .uR) + z (f .xR)) * z (f .iR) + (K * z (f .uI) + z (f .xI)) * z (f .iI)) := by
  simp only [PhPar.rot]
  linear_combination (M1 * i) * hcs
end phase

/-- The rows of the model around the operating point. -/
theorem rows (hv : 0 < v) (hU : 0 < U) (hL : p.Lf ≠ 0) {inp : ℝ → Inp} (ho : Operating3 p v w U i inp) {t : ℝ} (ht : 0 ≤ t) (z : V → ℝ) (hz : Inside p v w U i z) (j : V) :
    rhs (envC3 p (inp t) (fun j => rest p v w U i t j + z j)) j = (if j = .wte then w else 0) + (lin (par p v w U i) z j + rem (par p v w U i) j z) := by
  obtain ⟨g1, g2, g3, g4, g5⟩ := ho.grid t ht
  have gd := ho.dc t ht
  have gq := ho.q t ht
  have gp := ho.pv t ht
  have hU' := hU.ne'
  obtain ⟨z1, z2⟩ := hz
  set y : V → ℝ := fun j => rest p v w U i t j + z j with hy
  set e := envC3 p (inp t) y with he
  have cL : e.Lf = p.Lf := rfl
  have cR : e.Rf = p.Rf := rfl
  have cw : e.wbase = p.wbase := rfl
  have gKi : e.Ki_GCC = p.Ki_GCC := rfl
  have gKp : e.Kp_GCC = p.Kp_GCC := rfl
  have gwp : e.wp = p.wp := rfl
  have lm : e.m_limit = p.m_limit := rfl
  have li : e.iref_limit = p.iref_limit := rfl
  have eva : e.va = ⟨v * 1, v * 0⟩ := by rw [show e.va = (v : ℂ) from g1]; apply Complex.ext <;> simp
  have evb : e.vb = ⟨v * cb, v * sb⟩ := by rw [show e.vb = Phasor.ub (v : ℂ) from g2, ub_turn]; apply Complex.ext <;> simp
  have evc : e.vc = ⟨v * cc, v * sc⟩ := by rw [show e.vc = Phasor.uc (v : ℂ) from g3, uc_turn]; apply Complex.ext <;> simp
  have evd : e.vd = -(v * Real.sin (z .wte)) := by
    show (pll3 (inp t).va (inp t).vb (inp t).vc (inp t).w (inp t).t (y .wte)).1 = _
    rw [pll3_steady inp (v : ℂ) w ht ho.grid (y .wte)]
    exact pll1_steady hv w t (z .wte)
  have ewe : e.we = w + (z .xPLL - p.Kp_PLL * v * Real.sin (z .wte)) := by
    show weCalc p.Kp_PLL e.vd (y .xPLL) = _
    rw [evd, weCalc]
    show _ + (w - 2 * Real.pi * 60 + z .xPLL) + _ = _
    ring
  have ewi : e.winv = e.we := rfl
  have eia : e.ia = ⟨i * 1 + z .iaR, i * 0 + z .iaI⟩ := rfl
  have eib : e.ib = ⟨i * cb + z .ibR, i * sb + z .ibI⟩ := rfl
  have eic : e.ic = ⟨i * cc + z .icR, i * sc + z .icI⟩ := rfl
  have eua : e.ua = ⟨0 + z .uaR, 0 + z .uaI⟩ := rfl
  have eub : e.ub = ⟨0 + z .ubR, 0 + z .ubI⟩ := rfl
  have euc : e.uc = ⟨0 + z .ucR, 0 + z .ucI⟩ := rfl
  have pI := fun (c s : ℝ) (f : Ph → V) => phase_iR (p := p) (v := v) (w := w) (U := U) (i := i) (c := c) (s := s) z f hU' hL
  have pJ := fun (c s : ℝ) (f : Ph → V) => phase_iI (p := p) (v := v) (w := w) (U := U) (i := i) (c := c) (s := s) z f hU' hL
  have eσ : σ (par p v w U i) z = (v + p.Rf * i) * qm z .iR + U / 2 * i * (p.Kp_GCC * qm z .uR + qm z .xR) + p.Lf * (w / p.wbase) * i * qm z .iI := rfl
  set M1 := (v + p.Rf * i) / (U / 2) with hM1
  set M2 := p.Lf * (w / p.wbase) * i / (U / 2) with hM2
  have exa : e.xa = ⟨M1 * 1 - M2 * 0 + z .xaR, M1 * 0 + M2 * 1 + z .xaI⟩ := rfl
  have exb : e.xb = ⟨M1 * cb - M2 * sb + z .xbR, M1 * sb + M2 * cb + z .xbI⟩ := rfl
  have exc : e.xc = ⟨M1 * cc - M2 * sc + z .xcR, M1 * sc + M2 * cc + z .xcI⟩ := rfl
  have evta : e.vta = ⟨(M1 * 1 - M2 * 0 + (p.Kp_GCC * z .uaR + z .xaR)) * (U / 2), (M1 * 0 + M2 * 1 + (p.Kp_GCC * z .uaI + z .xaI)) * (U / 2)⟩ := by
    rw [show e.vta = vtOf p e.ua e.xa (inp t).Vdc0 from rfl, eua, exa, gd]; exact Loop3.vt_eq _ _ _ _ _ _ _
  have evtb : e.vtb = ⟨(M1 * cb - M2 * sb + (p.Kp_GCC * z .ubR + z .xbR)) * (U / 2), (M1 * sb + M2 * cb + (p.Kp_GCC * z .ubI + z .xbI)) * (U / 2)⟩ := by
    rw [show e.vtb = vtOf p e.ub e.xb (inp t).Vdc0 from rfl, eub, exb, gd]; exact Loop3.vt_eq _ _ _ _ _ _ _
  have evtc : e.vtc = ⟨(M1 * cc - M2 * sc + (p.Kp_GCC * z .ucR + z .xcR)) * (U / 2), (M1 * sc + M2 * cc + (p.Kp_GCC * z .ucI + z .xcI)) * (U / 2)⟩ := by
    rw [show e.vtc = vtOf p e.uc e.xc (inp t).Vdc0 from rfl, euc, exc, gd]; exact Loop3.vt_eq _ _ _ _ _ _ _
  have pPa := phase_power (i := i) (c := 1) (s := 0) (by norm_num) z phA M1 M2 p.Kp_GCC
  have pPb := phase_power (i := i) csb z phB M1 M2 p.Kp_GCC
  have pPc := phase_power (i := i) csc z phC M1 M2 p.Kp_GCC
  have b1 : M1 * (U / 2) = v + p.Rf * i := by rw [hM1]; field_simp
  have b2 : M2 * (U / 2) = p.Lf * (w / p.wbase) * i := by rw [hM2]; field_simp
  have eX : cross (par p v w U i) z = U / 6 * (((p.Kp_GCC * z .uaR + z .xaR) * z .iaR + (p.Kp_GCC * z .uaI + z .xaI) * z .iaI) + ((p.Kp_GCC * z .ubR + z .xbR) * z .ibR + (p.Kp_GCC * z .ubI + z .xbI) * z .ibI) +
      ((p.Kp_GCC * z .ucR + z .xcR) * z .icR + (p.Kp_GCC * z .ucI + z .xcI) * z .icI)) := by
    simp only [cross, pw, par, phA, phB, phC]
    ring
  have eS : e.S.re = 3 / 2 * (v * i + p.Rf * i ^ 2) + 3 / 2 * (σ (par p v w U i) z + cross (par p v w U i) z) := by
    rw [show e.S = sCalc e.vta e.vtb e.vtc e.ia e.ib e.ic from rfl, sCalc_re, evta, evtb, evtc, eia, eib, eic, eσ, eX]
    dsimp only
    have r1 : ∀ k, PhPar.rot 1 0 (fun j => z (phA j)) k = qa z k := by intro k; cases k <;> simp [PhPar.rot, qa]
    rw [r1, r1, r1, r1] at pPa
    have e1 : ∀ k, qm z k = (qa z k + PhPar.rot cb sb (fun j => z (phB j)) k + PhPar.rot cc sc (fun j => z (phC j)) k) / 3 := by
      intro k; unfold qm qb qc; ring
    rw [e1, e1, e1, e1]
    simp only [phA, phB, phC] at pPa pPb pPc ⊢
    rw [show v * i + p.Rf * i ^ 2 = (v + p.Rf * i) * i by ring, ← b1, ← b2]
    clear_value M1 M2
    linear_combination U / 4 * pPa + U / 4 * pPb + U / 4 * pPc
  have eSP : e.S_PCC.im = -(3 / 2 * v * qm z .iI) := by
    rw [show e.S_PCC = sCalc e.va e.vb e.vc e.ia e.ib e.ic from rfl, sCalc_im, eva, evb, evc, eia, eib, eic]
    dsimp only
    simp only [qm, qa, qb, qc, PhPar.rot, phA, phB, phC]
    ring
  have ePp : e.Ppv = 3 / 2 * (v * i + p.Rf * i ^ 2) := by
    show ppvOf p (inp t) (inp t).Vdc0 = _
    rw [gd, gp]
  have eQ : e.Q_ref = 0 := gq
  have eP : e.Ppv - e.S.re = -(3 / 2 * (σ (par p v w U i) z + cross (par p v w U i) z)) := by rw [ePp, eS]; ring
  have eir : irefP e = ⟨i + (z .xP - p.Kp_P * (3 / 2 * (σ (par p v w U i) z + cross (par p v w U i) z))), z .xQ - p.Kp_Q * (3 / 2 * v * qm z .iI)⟩ := by
    have e1 : e.xP = i + z .xP := rfl
    have e2 : e.Kp_P = p.Kp_P := rfl
    have e3 : e.xQ = 0 + z .xQ := rfl
    have e4 : e.Kp_Q = p.Kp_Q := rfl
    unfold irefP
    rw [eP, eQ, eSP, e1, e2, e3, e4]
    apply Complex.ext
    · simp only [Complex.add_re, Complex.ofReal_re, Complex.mul_re, Complex.I_re, Complex.I_im, Complex.ofReal_im]
      ring
    · simp only [Complex.add_im, Complex.ofReal_re, Complex.mul_im, Complex.I_re, Complex.I_im, Complex.ofReal_im]
      ring
  have eiar : e.ia_ref = irefP e := rfl
  have eibr : e.ib_ref = Phasor.ub (irefP e) := rfl
  have eicr : e.ic_ref = Phasor.uc (irefP e) := rfl
  have ePP : (par p v w U i).PP = 3 / 2 * p.Kp_P := rfl
  have eQP : (par p v w U i).QP = 3 / 2 * p.Kp_Q * v := rfl
  have ewp : (par p v w U i).wp = p.wp := rfl
  have ni : ¬ ‖irefP e‖ > e.iref_limit := by
    rw [gt_iff_lt, not_lt, eir, li]
    refine (norm_mk_le _ _).trans ?_
    have h4 := abs_add_le i (z .xP - p.Kp_P * (3 / 2 * (σ (par p v w U i) z + cross (par p v w U i) z)))
    linarith
  rw [eir] at eiar
  rw [eir, ub_turn] at eibr
  rw [eir, uc_turn] at eicr
  dsimp only at eibr eicr
  have nsa : ¬ mSat e e.ua e.xa := by
    rw [mSat, gKp, lm, eua, exa]; exact Loop3.unsat (by norm_num) (z1 phA (Or.inl rfl))
  have nsb : ¬ mSat e e.ub e.xb := by
    rw [mSat, gKp, lm, eub, exb]; exact Loop3.unsat csb (z1 phB (Or.inr (Or.inl rfl)))
  have nsc : ¬ mSat e e.uc e.xc := by
    rw [mSat, gKp, lm, euc, exc]; exact Loop3.unsat csc (z1 phC (Or.inr (Or.inr rfl)))
  obtain ⟨a1, a2, a3, a4, a5, a6, a7, a8, a9, a10, a11, a12, a13, a14⟩ := C57_antiwindup_three_phase_constant_vdc e
  have uR : ∀ (c s : ℝ) (f : Ph → V), p.wp * (-(0 + z (f .uR)) + ((i + (z .xP - p.Kp_P * (3 / 2 * (σ (par p v w U i) z + cross (par p v w U i) z)))) * c -
      (z .xQ - p.Kp_Q * (3 / 2 * v * qm z .iI)) * s) - (i * c + z (f .iR))) =
      0 + (linP (par p v w U i) c s z f .uR + remP (par p v w U i) c s (cross (par p v w U i) z) (z .xPLL) (z .wte) (fun j => z (f j)) .uR) := by
    intro c s f
    have w' : (ofLoop (par p v w U i)).wp = p.wp := rfl
    simp only [linP, remP, PhPar.lin, w']
    rw [ePP, eQP, ewp]
    ring
  have uI : ∀ (c s : ℝ) (f : Ph → V), p.wp * (-(0 + z (f .uI)) + ((i + (z .xP - p.Kp_P * (3 / 2 * (σ (par p v w U i) z + cross (par p v w U i) z)))) * s +
      (z .xQ - p.Kp_Q * (3 / 2 * v * qm z .iI)) * c) - (i * s + z (f .iI))) =
      0 + (linP (par p v w U i) c s z f .uI + remP (par p v w U i) c s (cross (par p v w U i) z) (z .xPLL) (z .wte) (fun j => z (f j)) .uI) := by
    intro c s f
    have w' : (ofLoop (par p v w U i)).wp = p.wp := rfl
    simp only [linP, remP, PhPar.lin, w']
    rw [ePP, eQP, ewp]
    ring
  cases j
  case iaR =>
    have r : rhs e .iaR = 1 / e.Lf * (-e.Rf * e.ia.re - e.va.re + e.vta.re) + e.winv / e.wbase * e.ia.im := rfl
    rw [r, ewi, ewe, evta, eia, eva, cL, cR, cw, if_neg (by decide), zero_add]
    exact pI 1 0 phA
  case iaI =>
    have r : rhs e .iaI = 1 / e.Lf * (-e.Rf * e.ia.im - e.va.im + e.vta.im) - e.winv / e.wbase * e.ia.re := rfl
    rw [r, ewi, ewe, evta, eia, eva, cL, cR, cw, if_neg (by decide), zero_add]
    exact pJ 1 0 phA
  case xaR =>
    rw [a1.plain nsa, gKi, eua]
    show p.Ki_GCC * (0 + z .uaR) = 0 + (p.Ki_GCC * z .uaR + 0)
    ring
  case xaI =>
    rw [a2.plain nsa, gKi, eua]
    show p.Ki_GCC * (0 + z .uaI) = 0 + (p.Ki_GCC * z .uaI + 0)
    ring
  case uaR =>
    rw [a3.plain nsa, eiar, eua, eia, gwp, if_neg (by decide)]
    refine Eq.trans ?_ (uR 1 0 phA)
    simp only [phA]
    ring
  case uaI =>
    rw [a4.plain nsa, eiar, eua, eia, gwp, if_neg (by decide)]
    refine Eq.trans ?_ (uI 1 0 phA)
    simp only [phA]
    ring
  case ibR =>
    have r : rhs e .ibR = 1 / e.Lf * (-e.Rf * e.ib.re - e.vb.re + e.vtb.re) + e.winv / e.wbase * e.ib.im := rfl
    rw [r, ewi, ewe, evtb, eib, evb, cL, cR, cw, if_neg (by decide), zero_add]
    exact pI cb sb phB
  case ibI =>
    have r : rhs e .ibI = 1 / e.Lf * (-e.Rf * e.ib.im - e.vb.im + e.vtb.im) - e.winv / e.wbase * e.ib.re := rfl
    rw [r, ewi, ewe, evtb, eib, evb, cL, cR, cw, if_neg (by decide), zero_add]
    exact pJ cb sb phB
  case xbR =>
    rw [a5.plain nsb, gKi, eub]
    show p.Ki_GCC * (0 + z .ubR) = 0 + (p.Ki_GCC * z .ubR + 0)
    ring
  case xbI =>
    rw [a6.plain nsb, gKi, eub]
    show p.Ki_GCC * (0 + z .ubI) = 0 + (p.Ki_GCC * z .ubI + 0)
    ring
  case ubR =>
    rw [a7.plain nsb, eibr, eub, eib, gwp, if_neg (by decide)]
    refine Eq.trans ?_ (uR cb sb phB)
    simp only [phB]
  case ubI =>
    rw [a8.plain nsb, eibr, eub, eib, gwp, if_neg (by decide)]
    refine Eq.trans ?_ (uI cb sb phB)
    simp only [phB]
  case icR =>
    have r : rhs e .icR = 1 / e.Lf * (-e.Rf * e.ic.re - e.vc.re + e.vtc.re) + e.winv / e.wbase * e.ic.im := rfl
    rw [r, ewi, ewe, evtc, eic, evc, cL, cR, cw, if_neg (by decide), zero_add]
    exact pI cc sc phC
  case icI =>
    have r : rhs e .icI = 1 / e.Lf * (-e.Rf * e.ic.im - e.vc.im + e.vtc.im) - e.winv / e.wbase * e.ic.re := rfl
    rw [r, ewi, ewe, evtc, eic, evc, cL, cR, cw, if_neg (by decide), zero_add]
    exact pJ cc sc phC
  case xcR =>
    rw [a9.plain nsc, gKi, euc]
    show p.Ki_GCC * (0 + z .ucR) = 0 + (p.Ki_GCC * z .ucR + 0)
    ring
  case xcI =>
    rw [a10.plain nsc, gKi, euc]
    show p.Ki_GCC * (0 + z .ucI) = 0 + (p.Ki_GCC * z .ucI + 0)
    ring
  case ucR =>
    rw [a11.plain nsc, eicr, euc, eic, gwp, if_neg (by decide)]
    refine Eq.trans ?_ (uR cc sc phC)
    simp only [phC]
  case ucI =>
    rw [a12.plain nsc, eicr, euc, eic, gwp, if_neg (by decide)]
    refine Eq.trans ?_ (uI cc sc phC)
    simp only [phC]
  case xP =>
    rw [a13.plain ni, eP]
    show p.Ki_P * -(3 / 2 * (σ (par p v w U i) z + cross (par p v w U i) z)) = 0 + (-(3 / 2 * p.Ki_P) * σ (par p v w U i) z + -(3 / 2 * p.Ki_P) * cross (par p v w U i) z)
    ring
  case xQ =>
    rw [a14.plain ni, eQ, eSP]
    show -p.Ki_Q * (0 - -(3 / 2 * v * qm z .iI)) = 0 + (-(3 / 2 * p.Ki_Q * v) * qm z .iI + 0)
    ring
  case xPLL =>
    show p.Ki_PLL * e.vd = 0 + (-(p.Ki_PLL * v) * z .wte + -(p.Ki_PLL * v) * (Real.sin (z .wte) - z .wte))
    rw [evd]
    ring
  case wte =>
    show e.we = (if V.wte = V.wte then w else 0) + (z .xPLL - p.Kp_PLL * v * z .wte + -(p.Kp_PLL * v) * (Real.sin (z .wte) - z .wte))
    rw [ewe, if_pos rfl]
    ring

theorem rest_deriv (t : ℝ) (j : V) : HasDerivAt (fun s => rest p v w U i s j) (if j = .wte then w else 0) t := by
  cases j <;> simp only [rest, reduceCtorEq, if_false, if_true] <;> first | exact hasDerivAt_const t _ | skip
  simpa using (hasDerivAt_id t).const_mul w

theorem mean_zero : mean 0 = 0 := by
  funext j
  cases j <;> simp [mean, qm, qa, qb, qc, PhPar.rot]

/-- C124: the operating point is a solution of the three-phase model with constant DC voltage. -/
theorem C124_rest_three_constant_vdc (hv : 0 < v) (hU : 0 < U) (hL : p.Lf ≠ 0) (hm : ‖(⟨(v + p.Rf * i) / (U / 2), p.Lf * (w / p.wbase) * i / (U / 2)⟩ : ℂ)‖ < p.m_limit) (hi : |i| < p.iref_limit)
    {inp : ℝ → Inp} (ho : Operating3 p v w U i inp) (t : ℝ) (ht : 0 ≤ t) : Solves (fun t y => rhs (envC3 p (inp t) y)) (rest p v w U i) t := by
  intro j
  have h0 : Inside p v w U i 0 := by
    obtain ⟨η, hη, h⟩ := inside_near hm hi
    exact h 0 (by simpa using hη.le)
  have r := rows hv hU hL ho ht 0 h0 j
  have l0 : ∀ P : LoopPar, lin P 0 j + rem P j 0 = 0 := by
    intro P
    have q0 : ∀ k, qm (0 : V → ℝ) k = 0 := by intro k; cases k <;> simp [qm, qa, qb, qc, PhPar.rot]
    have s0 : σ P (0 : V → ℝ) = 0 := by simp [σ, LoopPar.σ, LoopPar.D1, SinglePhaseConstantVdc.dev, mean_zero]
    cases j <;> simp [lin, linP, PhPar.lin, rem, remP, pw, cross, mean_zero, SinglePhaseConstantVdc.lin, LoopPar.lin, LoopPar.σ, LoopPar.D1, LoopPar.D2, SinglePhaseConstantVdc.dev, q0, s0]
  rw [l0, add_zero] at r
  have r' : rhs (envC3 p (inp t) (rest p v w U i t)) j = if j = .wte then w else 0 := by
    rw [← r]; congr 2; funext k; simp
  beta_reduce
  rw [r']
  exact rest_deriv t j

/-- C124: local exponential stability of the three-phase model with constant DC voltage. -/
theorem C124_settles_three_constant_vdc (hv : 0 < v) (hU : 0 < U) {ε N E ε' N' E' : ℝ} (cert : LoopOk (par p v w U i) ε N E) (cert' : PhOk (ofLoop (par p v w U i)) ε' N' E')
    (hm : ‖(⟨(v + p.Rf * i) / (U / 2), p.Lf * (w / p.wbase) * i / (U / 2)⟩ : ℂ)‖ < p.m_limit) (hi : |i| < p.iref_limit) :
    ∃ δ > 0, ∃ M > 0, ∃ a > 0, ∀ (inp : ℝ → Inp) (Y : ℝ → V → ℝ), Operating3 p v w U i inp → (∀ t, 0 ≤ t → Solves (fun t y => rhs (envC3 p (inp t) y)) Y t) →
      ‖Y 0 - rest p v w U i 0‖ ≤ δ → ∀ t, 0 ≤ t → ‖Y t - rest p v w U i t‖ ≤ M * ‖Y 0 - rest p v w U i 0‖ * Real.exp (-a * t) := by
  have hL : p.Lf ≠ 0 := cert.a1.pL.ne'
  obtain ⟨δ, hδ, M, hM, a, ha, main⟩ := (dis cert cert').stable _ (rem_O2 (par p v w U i)) (inside_near hm hi)
  refine ⟨δ, hδ, M, hM, a, ha, fun inp Y ho hY h0 => ?_⟩
  refine main (fun t => Y t - rest p v w U i t) (fun t j => rhs (envC3 p (inp t) (Y t)) j - if j = .wte then w else 0) (fun t ht j => (hY t ht j).sub (rest_deriv t j)) (fun t ht hz j => ?_) h0
  have r := rows hv hU hL ho ht _ hz j
  have e : (fun j => rest p v w U i t j + (Y t - rest p v w U i t) j) = Y t := by
    funext j; simp
  rw [e] at r
  rw [r, add_sub_cancel_left]

end ThreePhaseConstantVdc
end Ode
end PvDer
