import Verif.Lemmas.CurrentLoop
import Mathlib.Algebra.BigOperators.Fin
import Mathlib.Data.Fintype.BigOperators
import Mathlib.Tactic.NormNum
import Mathlib.Tactic.FinCases
import Mathlib.Tactic.Tauto
import Mathlib.Tactic.GCongr
import Mathlib.LinearAlgebra.Matrix.Notation

/-!
# The linearised closed loop of an inverter with constant DC voltage

Deviations from an operating point with current `i` in phase with the voltage `v`: current, controller, power and reactive power integrators, phase locked loop.  `forms` are the terms of an energy
whose rate `loop_dis` bounds.
-/

namespace PvDer
namespace LocStab

/-- Parameters of the linearised loop: filter `R`, `L`; half the DC voltage `g`; frequency `w0` (per unit) and its base `wb`; voltage `v` and current `i`; current controller; power controllers as they
act on the deviations; phase locked loop. -/
structure LoopPar where
  R : ℝ
  L : ℝ
  g : ℝ
  w0 : ℝ
  wb : ℝ
  v : ℝ
  i : ℝ
  Kp : ℝ
  Ki : ℝ
  wp : ℝ
  PP : ℝ
  PI : ℝ
  QP : ℝ
  QI : ℝ
  Kv : ℝ
  J : ℝ

/-- Deviations from the operating point. -/
@[ext] structure Dev where
  e1 : ℝ
  e2 : ℝ
  ξ1 : ℝ
  ξ2 : ℝ
  u1 : ℝ
  u2 : ℝ
  p : ℝ
  q : ℝ
  χ : ℝ
  φ : ℝ

/-- Deviation of the duty cycle. -/
def LoopPar.D1 (P : LoopPar) (d : Dev) : ℝ := P.Kp * d.u1 + d.ξ1
/-- see `D1`. -/
def LoopPar.D2 (P : LoopPar) (d : Dev) : ℝ := P.Kp * d.u2 + d.ξ2
/-- Deviation of the inverter power, first order. -/
def LoopPar.σ (P : LoopPar) (d : Dev) : ℝ := (P.v + P.R * P.i) * d.e1 + P.g * P.i * P.D1 d + P.L * P.w0 * P.i * d.e2

/-- The linearised equations. -/
noncomputable def LoopPar.lin (P : LoopPar) (d : Dev) : Dev where
  e1 := (-P.R * d.e1 + P.g * P.D1 d) / P.L + P.w0 * d.e2
  e2 := (-P.R * d.e2 + P.g * P.D2 d) / P.L - P.w0 * d.e1 - P.i / P.wb * (d.χ - P.Kv * d.φ)
  ξ1 := P.Ki * d.u1
  ξ2 := P.Ki * d.u2
  u1 := P.wp * (-d.u1 + (d.p - P.PP * P.σ d) - d.e1)
  u2 := P.wp * (-d.u2 + (d.q - P.QP * d.e2) - d.e2)
  p := -P.PI * P.σ d
  q := -P.QI * d.e2
  χ := -P.J * d.φ
  φ := d.χ - P.Kv * d.φ

namespace LoopPar
variable (P : LoopPar)

noncomputable def κ : ℝ := P.Ki / P.Kp
noncomputable def ρ : ℝ := P.wp - P.κ
noncomputable def k : ℝ := P.Kp * P.wp
noncomputable def α1 : ℝ := 1 + P.PI * P.i * P.L + P.PP * (P.v + P.R * P.i)
noncomputable def α2 : ℝ := 1 + P.QP
noncomputable def β1 : ℝ := P.PI * (P.v + 2 * P.R * P.i) / P.α1
noncomputable def β2 : ℝ := P.QI / P.α2
noncomputable def ρ1 : ℝ := P.ρ + P.k * P.PP * P.g * P.i
noncomputable def k1 : ℝ := P.k * P.α1
noncomputable def k2 : ℝ := P.k * P.α2
noncomputable def η : ℝ := P.k * P.PP * P.L * P.w0 * P.i
noncomputable def h1 (d : Dev) : ℝ := (d.p + P.PI * P.i * P.L * d.e1) / P.α1
noncomputable def h2 (d : Dev) : ℝ := d.q / P.α2
noncomputable def r1 (d : Dev) : ℝ := d.e1 - P.h1 d - P.ρ / P.k1 * d.ξ1
noncomputable def r2 (d : Dev) : ℝ := d.e2 - P.h2 d - P.ρ / P.k2 * d.ξ2

end LoopPar

/-- Certificate: weights `ε`, `N`, `E` for which the loop dissipates. -/
structure LoopOk (P : LoopPar) (ε N E : ℝ) : Prop where
  Kp : 0 < P.Kp
  α1 : 0 < P.α1
  α2 : 0 < P.α2
  β1 : 0 < P.β1
  β2 : 0 < P.β2
  a1 : AxisOk P.k1 P.g P.L P.ρ P.ρ1 P.κ ε N
  a2 : AxisOk P.k2 P.g P.L P.ρ P.ρ P.κ ε N
  pE : 0 < E
  E1 : lossE P.k1 P.g P.L P.ρ1 ε (P.R - P.L * P.β1) + lossE P.k2 P.g P.L P.ρ ε (P.L * P.w0) ≤ E
  E2 : lossE P.k2 P.g P.L P.ρ ε (P.R - P.L * P.β2) + lossE P.k1 P.g P.L P.ρ1 ε (P.L * P.w0) + lossH P.k1 P.ρ1 ε P.η ≤ E
  s1 : 60 * E ≤ ε * P.k1
  s2 : 60 * E ≤ ε * P.k2
  n1 : 60 * E * (P.ρ / P.k1) ^ 2 ≤ N
  n2 : 60 * E * (P.ρ / P.k2) ^ 2 ≤ N
  Kv : 0 < P.Kv
  J : 0 < P.J

/-- Index of the terms of the energy: axis one, axis two, phase locked loop. -/
abbrev Idx := (Fin 4 ⊕ Fin 4) ⊕ Fin 4
/-- Index of the terms that bound the dissipation. -/
abbrev Idx' := (Fin 4 ⊕ Fin 4) ⊕ Fin 2

noncomputable def axisForms (ε r D ξ h : ℝ) : Fin 4 → ℝ := ![D + ε * r, r, ξ, h]
noncomputable def axisWeights (k g L κ β ε N E : ℝ) : Fin 4 → ℝ := ![1 / 2, 1 / 2 * (k * L / g - ε ^ 2), 1 / 2 * (N / κ), 6 * E / β]

theorem axisWeights_pos {k g L ρ ρa κ ε N : ℝ} (h : AxisOk k g L ρ ρa κ ε N) {E β : ℝ} (hE : 0 < E) (hβ : 0 < β) (j : Fin 4) : 0 < axisWeights k g L κ β ε N E j := by
  have hp : 0 < k * L / g - ε ^ 2 := by
    have := h.pk; have := h.pg; have := h.pL; have := h.pρa; have := h.pε
    rw [sub_pos, lt_div_iff₀ h.pg]
    have a : 2 * ε * ρa * L ≤ k * L := by have := h.c9; gcongr
    have b : 2 * ε * (8 * ε * g) ≤ 2 * ε * (ρa * L) := by have := h.c10; gcongr
    have c : 0 < ε ^ 2 * g := by positivity
    nlinarith
  have := h.pN
  have := h.pκ
  fin_cases j <;> simp [axisWeights] <;> first | positivity | linarith

/-- The rate of the energy of one axis. -/
theorem axisForms_rate {k g L ρ ρa κ ε N E β R X η r D ξ h e x y f : ℝ} (hL : L ≠ 0) (hκ : κ ≠ 0) (hβ : β ≠ 0) :
    ∑ j, 2 * axisWeights k g L κ β ε N E j * axisForms ε r D ξ h j *
      axisForms ε ((g * D - R * e + X * x - L * (ρ / k) * κ * (D - ξ) + f) / L) (-ρa * D - k * r - η * y) (κ * (D - ξ)) (-β * e) j =
    axisRate k g L ρ ρa κ ε N E R X η r D ξ h e x y f := by
  rw [Fin.sum_univ_four]
  simp only [axisWeights, axisForms, axisRate, Matrix.cons_val]
  generalize g * D - R * e + X * x - L * (ρ / k) * κ * (D - ξ) + f = T
  have e1 : 2 * (1 / 2 * (N / κ)) * ξ * (κ * (D - ξ)) = N * ξ * (D - ξ) := by field_simp
  have e2 : 2 * (6 * E / β) * h * (-β * e) = -12 * E * h * e := by field_simp; ring
  have e3 : k * L / g * (T / L) = k / g * T := by field_simp
  linear_combination e1 + e2 + r * e3

namespace LoopPar
variable (P : LoopPar) (ε N E : ℝ)

noncomputable def F : ℝ := lossE P.k2 P.g P.L P.ρ ε 1 * (P.L * P.i / P.wb) ^ 2 * (1 + P.Kv ^ 2)
noncomputable def W3 : ℝ := (P.F ε + 1) / (P.J * P.Kv)

/-- Terms of the energy. -/
noncomputable def forms (d : Dev) : Idx → ℝ :=
  Sum.elim (Sum.elim (axisForms ε (P.r1 d) (P.D1 d) d.ξ1 (P.h1 d)) (axisForms ε (P.r2 d) (P.D2 d) d.ξ2 (P.h2 d))) ![d.φ, d.χ, d.χ, P.J * d.φ - P.Kv * d.χ]

/-- Weights of the energy. -/
noncomputable def weights : Idx → ℝ :=
  Sum.elim (Sum.elim (axisWeights P.k1 P.g P.L P.κ P.β1 ε N E) (axisWeights P.k2 P.g P.L P.κ P.β2 ε N E)) ![P.W3 ε * P.J, P.W3 ε * P.J, P.W3 ε, P.W3 ε]

/-- Terms that bound the dissipation. -/
noncomputable def sizes (d : Dev) : Idx' → ℝ :=
  Sum.elim (Sum.elim ![P.r1 d, P.D1 d, d.ξ1, P.h1 d] ![P.r2 d, P.D2 d, d.ξ2, P.h2 d]) ![d.φ, d.χ]

/-- Rate of dissipation. -/
noncomputable def c : ℝ := min (min (min (1 / 4 * ε * P.k1) (1 / 4 * ε * P.k2)) (min (1 / 8 * P.ρ1) (1 / 8 * P.ρ))) (min (min (3 / 8 * N) (3 * E)) 1)
end LoopPar

section
variable {P : LoopPar} {ε N E : ℝ}

theorem F_nonneg (h : LoopOk P ε N E) : 0 ≤ P.F ε := by
  have := h.a2.pk; have := h.a2.pg; have := h.a2.pL; have := h.a2.pρ; have := h.a2.pε
  unfold LoopPar.F lossE
  positivity

theorem W3_pos (h : LoopOk P ε N E) : 0 < P.W3 ε := by
  have := F_nonneg h; have := h.J; have := h.Kv
  unfold LoopPar.W3
  positivity

theorem weights_pos (h : LoopOk P ε N E) (j : Idx) : 0 < P.weights ε N E j := by
  have w := W3_pos h
  have := h.J
  rcases j with (j | j) | j
  · exact axisWeights_pos h.a1 h.pE h.β1 j
  · exact axisWeights_pos h.a2 h.pE h.β2 j
  · fin_cases j <;> simp [LoopPar.weights] <;> positivity

theorem c_pos (h : LoopOk P ε N E) : 0 < P.c ε N E := by
  have := h.a1.pk; have := h.a2.pk; have := h.a1.pε; have := h.a1.pρa; have := h.a2.pρa; have := h.a1.pN; have := h.pE
  unfold LoopPar.c
  simp only [lt_min_iff]
  refine ⟨⟨⟨?_, ?_⟩, ⟨?_, ?_⟩⟩, ⟨⟨?_, ?_⟩, ?_⟩⟩ <;> positivity

theorem lin_D1 (h : LoopOk P ε N E) (d : Dev) : P.D1 (P.lin d) = -P.ρ1 * P.D1 d - P.k1 * P.r1 d - P.η * d.e2 := by
  have hK := h.Kp.ne'
  have ha := h.α1.ne'
  have hk : P.k1 ≠ 0 := h.a1.pk.ne'
  have e1 : P.k1 * P.r1 d = P.k1 * d.e1 - P.k * (d.p + P.PI * P.i * P.L * d.e1) - P.ρ * d.ξ1 := by
    have x1 : P.k1 * P.h1 d = P.k * (d.p + P.PI * P.i * P.L * d.e1) := by
      unfold LoopPar.k1 LoopPar.h1; field_simp
    have x2 : P.k1 * (P.ρ / P.k1 * d.ξ1) = P.ρ * d.ξ1 := by field_simp
    unfold LoopPar.r1
    linear_combination -x1 - x2
  rw [e1]
  have e2 : P.Ki * d.u1 = P.κ * (P.D1 d - d.ξ1) := by unfold LoopPar.κ LoopPar.D1; field_simp; ring
  have e3 : P.Kp * P.wp * d.u1 = P.wp * (P.D1 d - d.ξ1) := by unfold LoopPar.D1; ring
  have e4 : P.D1 (P.lin d) = P.Kp * (P.wp * (-d.u1 + (d.p - P.PP * P.σ d) - d.e1)) + P.Ki * d.u1 := rfl
  rw [e4]
  unfold LoopPar.ρ1 LoopPar.η LoopPar.k1 LoopPar.α1 LoopPar.k LoopPar.ρ LoopPar.σ
  linear_combination e2 - e3

theorem lin_D2 (h : LoopOk P ε N E) (d : Dev) : P.D2 (P.lin d) = -P.ρ * P.D2 d - P.k2 * P.r2 d - 0 * 0 := by
  have hK := h.Kp.ne'
  have ha := h.α2.ne'
  have hk : P.k2 ≠ 0 := h.a2.pk.ne'
  have e1 : P.k2 * P.r2 d = P.k2 * d.e2 - P.k * d.q - P.ρ * d.ξ2 := by
    have x1 : P.k2 * P.h2 d = P.k * d.q := by
      unfold LoopPar.k2 LoopPar.h2; field_simp
    have x2 : P.k2 * (P.ρ / P.k2 * d.ξ2) = P.ρ * d.ξ2 := by field_simp
    unfold LoopPar.r2
    linear_combination -x1 - x2
  rw [e1]
  have e2 : P.Ki * d.u2 = P.κ * (P.D2 d - d.ξ2) := by unfold LoopPar.κ LoopPar.D2; field_simp; ring
  have e3 : P.Kp * P.wp * d.u2 = P.wp * (P.D2 d - d.ξ2) := by unfold LoopPar.D2; ring
  have e4 : P.D2 (P.lin d) = P.Kp * (P.wp * (-d.u2 + (d.q - P.QP * d.e2) - d.e2)) + P.Ki * d.u2 := rfl
  rw [e4]
  unfold LoopPar.k2 LoopPar.α2 LoopPar.k LoopPar.ρ
  linear_combination e2 - e3

theorem lin_ξ1 (h : LoopOk P ε N E) (d : Dev) : (P.lin d).ξ1 = P.κ * (P.D1 d - d.ξ1) := by
  have hK := h.Kp.ne'
  show P.Ki * d.u1 = _
  unfold LoopPar.κ LoopPar.D1; field_simp; ring

theorem lin_ξ2 (h : LoopOk P ε N E) (d : Dev) : (P.lin d).ξ2 = P.κ * (P.D2 d - d.ξ2) := by
  have hK := h.Kp.ne'
  show P.Ki * d.u2 = _
  unfold LoopPar.κ LoopPar.D2; field_simp; ring

theorem lin_h1 (h : LoopOk P ε N E) (d : Dev) : P.h1 (P.lin d) = -P.β1 * d.e1 := by
  have ha := h.α1.ne'
  have hL := h.a1.pL.ne'
  show (-P.PI * P.σ d + P.PI * P.i * P.L * ((-P.R * d.e1 + P.g * P.D1 d) / P.L + P.w0 * d.e2)) / P.α1 = _
  unfold LoopPar.β1 LoopPar.σ
  field_simp
  ring

theorem lin_h2 (d : Dev) : P.h2 (P.lin d) = -P.β2 * d.e2 := by
  show (-P.QI * d.e2) / P.α2 = _
  unfold LoopPar.β2
  ring

theorem lin_r1 (h : LoopOk P ε N E) (d : Dev) : P.r1 (P.lin d) =
    (P.g * P.D1 d - (P.R - P.L * P.β1) * d.e1 + P.L * P.w0 * d.e2 - P.L * (P.ρ / P.k1) * P.κ * (P.D1 d - d.ξ1) + 0) / P.L := by
  have hL := h.a1.pL.ne'
  have e : P.r1 (P.lin d) = (-P.R * d.e1 + P.g * P.D1 d) / P.L + P.w0 * d.e2 - P.h1 (P.lin d) - P.ρ / P.k1 * (P.lin d).ξ1 := rfl
  rw [e, lin_h1 h, lin_ξ1 h]
  generalize P.ρ / P.k1 = τ
  field_simp
  ring

theorem lin_r2 (h : LoopOk P ε N E) (d : Dev) : P.r2 (P.lin d) =
    (P.g * P.D2 d - (P.R - P.L * P.β2) * d.e2 + -(P.L * P.w0) * d.e1 - P.L * (P.ρ / P.k2) * P.κ * (P.D2 d - d.ξ2) + -(P.L * P.i / P.wb * (d.χ - P.Kv * d.φ))) / P.L := by
  have hL := h.a1.pL.ne'
  have e : P.r2 (P.lin d) = (-P.R * d.e2 + P.g * P.D2 d) / P.L - P.w0 * d.e1 - P.i / P.wb * (d.χ - P.Kv * d.φ) - P.h2 (P.lin d) - P.ρ / P.k2 * (P.lin d).ξ2 := rfl
  rw [e, lin_h2, lin_ξ2 h]
  generalize P.ρ / P.k2 = τ
  rw [eq_div_iff hL, show P.L * P.i / P.wb = P.L * (P.i / P.wb) by ring]
  generalize P.i / P.wb = y
  field_simp
  ring

/-- The energy of the linearised loop decreases. -/
theorem loop_dis (h : LoopOk P ε N E) (d : Dev) :
    ∑ j, 2 * P.weights ε N E j * P.forms ε d j * P.forms ε (P.lin d) j ≤ -P.c ε N E * ∑ j, (P.sizes d j) ^ 2 := by
  have hL := h.a1.pL.ne'
  have hκ := h.a1.pκ.ne'
  have w := W3_pos h
  have hJ := h.J
  have hKv := h.Kv
  have A1 : ∑ j, 2 * axisWeights P.k1 P.g P.L P.κ P.β1 ε N E j * axisForms ε (P.r1 d) (P.D1 d) d.ξ1 (P.h1 d) j *
      axisForms ε (P.r1 (P.lin d)) (P.D1 (P.lin d)) (P.lin d).ξ1 (P.h1 (P.lin d)) j =
      axisRate P.k1 P.g P.L P.ρ P.ρ1 P.κ ε N E (P.R - P.L * P.β1) (P.L * P.w0) P.η (P.r1 d) (P.D1 d) d.ξ1 (P.h1 d) d.e1 d.e2 d.e2 0 := by
    rw [lin_r1 h, lin_D1 h, lin_ξ1 h, lin_h1 h]
    exact axisForms_rate hL hκ h.β1.ne'
  have A2 : ∑ j, 2 * axisWeights P.k2 P.g P.L P.κ P.β2 ε N E j * axisForms ε (P.r2 d) (P.D2 d) d.ξ2 (P.h2 d) j *
      axisForms ε (P.r2 (P.lin d)) (P.D2 (P.lin d)) (P.lin d).ξ2 (P.h2 (P.lin d)) j =
      axisRate P.k2 P.g P.L P.ρ P.ρ P.κ ε N E (P.R - P.L * P.β2) (-(P.L * P.w0)) 0 (P.r2 d) (P.D2 d) d.ξ2 (P.h2 d) d.e2 d.e1 0
        (-(P.L * P.i / P.wb * (d.χ - P.Kv * d.φ))) := by
    rw [lin_r2 h, lin_D2 h, lin_ξ2 h, lin_h2]
    exact axisForms_rate hL hκ h.β2.ne'
  have T := twoAxes h.a1 h.a2 h.E1 h.E2 h.s1 h.s2 h.n1 h.n2 (P.r1 d) (P.D1 d) d.ξ1 (P.h1 d) d.e1 (P.r2 d) (P.D2 d) d.ξ2 (P.h2 d) d.e2 0
    (-(P.L * P.i / P.wb * (d.χ - P.Kv * d.φ))) (by unfold LoopPar.r1; ring) (by unfold LoopPar.r2; ring)
  have A3 : ∑ j : Fin 4, 2 * (![P.W3 ε * P.J, P.W3 ε * P.J, P.W3 ε, P.W3 ε] : Fin 4 → ℝ) j * (![d.φ, d.χ, d.χ, P.J * d.φ - P.Kv * d.χ] : Fin 4 → ℝ) j *
      (![(P.lin d).φ, (P.lin d).χ, (P.lin d).χ, P.J * (P.lin d).φ - P.Kv * (P.lin d).χ] : Fin 4 → ℝ) j = -2 * (P.F ε + 1) * (d.φ ^ 2 + d.χ ^ 2) := by
    rw [Fin.sum_univ_four]
    have e : P.W3 ε * (P.J * P.Kv) = P.F ε + 1 := by unfold LoopPar.W3; field_simp
    simp only [Matrix.cons_val, LoopPar.lin]
    linear_combination (-2) * (d.φ ^ 2 + d.χ ^ 2) * e
  have A4 : lossE P.k2 P.g P.L P.ρ ε 1 * (-(P.L * P.i / P.wb * (d.χ - P.Kv * d.φ))) ^ 2 ≤ P.F ε * (d.φ ^ 2 + d.χ ^ 2) := by
    have l0 : 0 ≤ lossE P.k2 P.g P.L P.ρ ε 1 := by
      have := h.a2.pk; have := h.a2.pg; have := h.a2.pL; have := h.a2.pρ; have := h.a2.pε
      unfold lossE
      positivity
    have y : (d.χ - P.Kv * d.φ) ^ 2 ≤ (1 + P.Kv ^ 2) * (d.φ ^ 2 + d.χ ^ 2) := by nlinarith [sq_nonneg (d.φ + P.Kv * d.χ)]
    have : lossE P.k2 P.g P.L P.ρ ε 1 * (P.L * P.i / P.wb) ^ 2 * (d.χ - P.Kv * d.φ) ^ 2 ≤ lossE P.k2 P.g P.L P.ρ ε 1 * (P.L * P.i / P.wb) ^ 2 * ((1 + P.Kv ^ 2) * (d.φ ^ 2 + d.χ ^ 2)) := by gcongr
    unfold LoopPar.F
    linear_combination this
  have F0 := F_nonneg h
  have tot : ∑ j, 2 * P.weights ε N E j * P.forms ε d j * P.forms ε (P.lin d) j =
      axisRate P.k1 P.g P.L P.ρ P.ρ1 P.κ ε N E (P.R - P.L * P.β1) (P.L * P.w0) P.η (P.r1 d) (P.D1 d) d.ξ1 (P.h1 d) d.e1 d.e2 d.e2 0 +
      axisRate P.k2 P.g P.L P.ρ P.ρ P.κ ε N E (P.R - P.L * P.β2) (-(P.L * P.w0)) 0 (P.r2 d) (P.D2 d) d.ξ2 (P.h2 d) d.e2 d.e1 0
        (-(P.L * P.i / P.wb * (d.χ - P.Kv * d.φ))) + -2 * (P.F ε + 1) * (d.φ ^ 2 + d.χ ^ 2) := by
    rw [← A1, ← A2, ← A3, Fintype.sum_sum_type, Fintype.sum_sum_type]
    rfl
  have siz : ∑ j, (P.sizes d j) ^ 2 = P.r1 d ^ 2 + P.D1 d ^ 2 + d.ξ1 ^ 2 + P.h1 d ^ 2 + (P.r2 d ^ 2 + P.D2 d ^ 2 + d.ξ2 ^ 2 + P.h2 d ^ 2) + (d.φ ^ 2 + d.χ ^ 2) := by
    rw [Fintype.sum_sum_type, Fintype.sum_sum_type, Fin.sum_univ_four, Fin.sum_univ_four, Fin.sum_univ_two]
    simp [LoopPar.sizes]
  rw [tot, siz]
  have hc : P.c ε N E ≤ 1 / 4 * ε * P.k1 ∧ P.c ε N E ≤ 1 / 4 * ε * P.k2 ∧ P.c ε N E ≤ 1 / 8 * P.ρ1 ∧ P.c ε N E ≤ 1 / 8 * P.ρ ∧ P.c ε N E ≤ 3 / 8 * N ∧ P.c ε N E ≤ 3 * E ∧ P.c ε N E ≤ 1 := by
    have : P.c ε N E ≤ P.c ε N E := le_refl _
    conv at this => rhs; unfold LoopPar.c
    simp only [le_min_iff] at this
    tauto
  obtain ⟨c1, c2, c3, c4, c5, c6, c7⟩ := hc
  have m1 := mul_le_mul_of_nonneg_right c1 (sq_nonneg (P.r1 d))
  have m2 := mul_le_mul_of_nonneg_right c2 (sq_nonneg (P.r2 d))
  have m3 := mul_le_mul_of_nonneg_right c3 (sq_nonneg (P.D1 d))
  have m4 := mul_le_mul_of_nonneg_right c4 (sq_nonneg (P.D2 d))
  have m5 := mul_le_mul_of_nonneg_right c5 (sq_nonneg d.ξ1)
  have m5' := mul_le_mul_of_nonneg_right c5 (sq_nonneg d.ξ2)
  have m6 := mul_le_mul_of_nonneg_right c6 (sq_nonneg (P.h1 d))
  have m6' := mul_le_mul_of_nonneg_right c6 (sq_nonneg (P.h2 d))
  have m7 := mul_le_mul_of_nonneg_right c7 (add_nonneg (sq_nonneg d.φ) (sq_nonneg d.χ))
  have m8 : 0 ≤ P.F ε * (d.φ ^ 2 + d.χ ^ 2) := by positivity
  have m9 : 0 ≤ d.φ ^ 2 + d.χ ^ 2 := by positivity
  linear_combination T + A4 + m1 + m2 + m3 + m4 + m5 + m5' + m6 + m6' + m7 + m8 + m9

/-- The deviations that the dissipation sees are all of them. -/
theorem sizes_inj (h : LoopOk P ε N E) (d : Dev) (hd : ∀ j, P.sizes d j = 0) : d = ⟨0, 0, 0, 0, 0, 0, 0, 0, 0, 0⟩ := by
  have r1 : P.r1 d = 0 := hd (.inl (.inl 0))
  have D1 : P.D1 d = 0 := hd (.inl (.inl 1))
  have ξ1 : d.ξ1 = 0 := hd (.inl (.inl 2))
  have h1 : P.h1 d = 0 := hd (.inl (.inl 3))
  have r2 : P.r2 d = 0 := hd (.inl (.inr 0))
  have D2 : P.D2 d = 0 := hd (.inl (.inr 1))
  have ξ2 : d.ξ2 = 0 := hd (.inl (.inr 2))
  have h2 : P.h2 d = 0 := hd (.inl (.inr 3))
  have φ : d.φ = 0 := hd (.inr 0)
  have χ : d.χ = 0 := hd (.inr 1)
  have e1 : d.e1 = 0 := by unfold LoopPar.r1 at r1; rw [h1, ξ1] at r1; linarith
  have e2 : d.e2 = 0 := by unfold LoopPar.r2 at r2; rw [h2, ξ2] at r2; linarith
  have u1 : d.u1 = 0 := by
    unfold LoopPar.D1 at D1; rw [ξ1, add_zero] at D1
    exact (mul_eq_zero.1 D1).resolve_left h.Kp.ne'
  have u2 : d.u2 = 0 := by
    unfold LoopPar.D2 at D2; rw [ξ2, add_zero] at D2
    exact (mul_eq_zero.1 D2).resolve_left h.Kp.ne'
  have p : d.p = 0 := by
    unfold LoopPar.h1 at h1; rw [e1, mul_zero, add_zero] at h1
    exact (div_eq_zero_iff.1 h1).resolve_right h.α1.ne'
  have q : d.q = 0 := by
    unfold LoopPar.h2 at h2
    exact (div_eq_zero_iff.1 h2).resolve_right h.α2.ne'
  exact Dev.ext e1 e2 ξ1 ξ2 u1 u2 p q χ φ

theorem forms_inj (h : LoopOk P ε N E) (d : Dev) (hd : ∀ j, P.forms ε d j = 0) : d = ⟨0, 0, 0, 0, 0, 0, 0, 0, 0, 0⟩ := by
  refine sizes_inj h d (fun j => ?_)
  have r1 : P.r1 d = 0 := hd (.inl (.inl 1))
  have r2 : P.r2 d = 0 := hd (.inl (.inr 1))
  have D1 : P.D1 d + ε * P.r1 d = 0 := hd (.inl (.inl 0))
  have D2 : P.D2 d + ε * P.r2 d = 0 := hd (.inl (.inr 0))
  rw [r1, mul_zero, add_zero] at D1
  rw [r2, mul_zero, add_zero] at D2
  rcases j with (j | j) | j
  · fin_cases j
    · exact r1
    · exact D1
    · exact hd (.inl (.inl 2))
    · exact hd (.inl (.inl 3))
  · fin_cases j
    · exact r2
    · exact D2
    · exact hd (.inl (.inr 2))
    · exact hd (.inl (.inr 3))
  · fin_cases j
    · exact hd (.inr 0)
    · exact hd (.inr 1)
end
theorem lossE_le {k g L ρa ε R K g0 L0 ρ0 R0 B : ℝ} (hk : 0 < k) (hg : 0 < g0) (hL : 0 < L0) (hρ : 0 < ρ0) (hε : 0 < ε) (h1 : k ≤ K) (h2 : g0 ≤ g) (h3 : L0 ≤ L) (h4 : ρ0 ≤ ρa) (h5 : |R| ≤ R0)
    (hB : 8 * K * R0 ^ 2 / (ε * g0 ^ 2) + 8 * ε ^ 2 * R0 ^ 2 / (L0 ^ 2 * ρ0) ≤ B) : lossE k g L ρa ε R ≤ B := by
  refine le_trans ?_ hB
  have h6 : R ^ 2 ≤ R0 ^ 2 := by rw [← sq_abs]; gcongr
  have hK : 0 < K := by linarith
  unfold lossE
  gcongr

theorem lossH_le {k ρa ε η k0 ρ0 η0 B : ℝ} (hk : 0 < k0) (hρ : 0 < ρ0) (hε : 0 < ε) (h1 : k0 ≤ k) (h4 : ρ0 ≤ ρa) (h5 : |η| ≤ η0) (hB : 8 * η0 ^ 2 / ρ0 + 8 * ε * η0 ^ 2 / k0 ≤ B) :
    lossH k ρa ε η ≤ B := by
  refine le_trans ?_ hB
  have h6 : η ^ 2 ≤ η0 ^ 2 := by rw [← sq_abs]; gcongr
  unfold lossH
  gcongr

/-- The conditions on one axis from bounds on its parameters. -/
theorem AxisOk.of_bounds {k g L ρ ρa κ ε N k0 g0 g1 L0 L1 ρ0 ρ1 : ℝ} (hk : k0 ≤ k) (pk : 0 < k0) (hg : g0 ≤ g) (hg' : g ≤ g1) (pg : 0 < g0) (hL : L0 ≤ L) (hL' : L ≤ L1) (pL : 0 < L0)
    (hρ : 0 < ρ) (hρ1 : ρ ≤ ρ1) (hρa : ρ0 ≤ ρa) (pρ : 0 < ρ0) (hκ : 0 < κ) (hε : 0 < ε) (hN : 0 < N) (c9 : 2 * ε * ρa ≤ k) (c10 : 8 * ε * g1 ≤ ρ0 * L0)
    (c5 : 256 * (ρ1 * L1 * κ / g0) ^ 2 ≤ ε * k0 * ρ0) (c5' : 256 * (ρ1 * L1 * κ / g0) ^ 2 ≤ ε * k0 * N) (c13 : 32 * (ε * (ρ1 / k0) * κ) ≤ ρ0) (c13' : 256 * (ε * (ρ1 / k0) * κ) ^ 2 ≤ ρ0 * N) (c15 : 32 * N ≤ ρ0) :
    AxisOk k g L ρ ρa κ ε N := by
  have a1 : 0 < k := by linarith
  have a2 : 0 < g := by linarith
  have a3 : 0 < L := by linarith
  have a4 : 0 < ρa := by linarith
  have a5 : 0 < ρ1 := by linarith
  have a6 : 0 < L1 := by linarith
  have b : ρ * L * κ / g ≤ ρ1 * L1 * κ / g0 := by gcongr
  have b' : (ρ * L * κ / g) ^ 2 ≤ (ρ1 * L1 * κ / g0) ^ 2 := by gcongr
  have d : ε * (ρ / k) * κ ≤ ε * (ρ1 / k0) * κ := by gcongr
  have d' : (ε * (ρ / k) * κ) ^ 2 ≤ (ε * (ρ1 / k0) * κ) ^ 2 := by gcongr
  have f1 : ε * k0 * ρ0 ≤ ε * k * ρa := by gcongr
  have f2 : ε * k0 * N ≤ ε * k * N := by gcongr
  have f3 : ρ0 * N ≤ ρa * N := by gcongr
  have f4 : ρ0 * L0 ≤ ρa * L := by gcongr
  have f5 : 8 * ε * g ≤ 8 * ε * g1 := by gcongr
  exact ⟨a1, a2, a3, hρ, a4, hκ, hε, hN, c9, by linarith, by linarith, by linarith, by linarith, by linarith, by linarith⟩

end LocStab
end PvDer
