import Verif.Lemmas.ClosedLoop

/-!
# The linearised closed loop of an inverter that controls its DC voltage

Like `Lemmas/ClosedLoop`, with the DC link and its controller in place of the power controller.  The duty cycle and its integrator are measured from the values that compensate the DC voltage deviation.
-/

namespace PvDer
namespace LocStab

/-- Parameters: filter, operating point (`g` half the DC voltage), current controller, DC controller (`a1`, `a2` minus its gains), DC link: `cs` voltage change per inverter power, `ϑ` self-damping by the PV
characteristic; reactive power controller and phase locked loop. -/
structure DcPar where
  R : ℝ
  L : ℝ
  g : ℝ
  w0 : ℝ
  wb : ℝ
  v : ℝ
  i : ℝ
  Kp : ℝ
  Ki : ℝ
  wp : ℝ
  a1 : ℝ
  a2 : ℝ
  cs : ℝ
  ϑ : ℝ
  QP : ℝ
  QI : ℝ
  Kv : ℝ
  J : ℝ

/-- Deviations from the operating point. -/
@[ext] structure DevDc where
  e1 : ℝ
  e2 : ℝ
  ξ1 : ℝ
  ξ2 : ℝ
  u1 : ℝ
  u2 : ℝ
  s : ℝ
  x : ℝ
  q : ℝ
  χ : ℝ
  φ : ℝ

namespace DcPar
variable (P : DcPar)

/-- Duty cycle at the operating point. -/
noncomputable def m1 : ℝ := (P.v + P.R * P.i) / P.g
/-- see `m1`. -/
noncomputable def m2 : ℝ := P.L * P.w0 * P.i / P.g
/-- Deviation of the duty cycle. -/
def D1 (d : DevDc) : ℝ := P.Kp * d.u1 + d.ξ1
/-- see `D1`. -/
def D2 (d : DevDc) : ℝ := P.Kp * d.u2 + d.ξ2
/-- Deviation of the inverter power at the operating DC voltage, first order. -/
def σ (d : DevDc) : ℝ := (P.v + P.R * P.i) * d.e1 + P.g * P.i * P.D1 d + P.L * P.w0 * P.i * d.e2

/-- The linearised equations. -/
noncomputable def lin (d : DevDc) : DevDc where
  e1 := (-P.R * d.e1 + P.g * P.D1 d + 1 / 2 * P.m1 * d.s) / P.L + P.w0 * d.e2
  e2 := (-P.R * d.e2 + P.g * P.D2 d + 1 / 2 * P.m2 * d.s) / P.L - P.w0 * d.e1 - P.i / P.wb * (d.χ - P.Kv * d.φ)
  ξ1 := P.Ki * d.u1
  ξ2 := P.Ki * d.u2
  u1 := P.wp * (-d.u1 + (d.x + P.a1 * d.s) - d.e1)
  u2 := P.wp * (-d.u2 + (d.q - P.QP * d.e2) - d.e2)
  s := -(P.ϑ + P.cs * P.i * P.m1 / 2) * d.s - P.cs * P.σ d
  x := P.a2 * d.s
  q := -P.QI * d.e2
  χ := -P.J * d.φ
  φ := d.χ - P.Kv * d.φ

noncomputable def κ : ℝ := P.Ki / P.Kp
noncomputable def ρ : ℝ := P.wp - P.κ
noncomputable def k : ℝ := P.Kp * P.wp
noncomputable def γ : ℝ := P.cs * P.i * P.L
noncomputable def α1 : ℝ := 1 + P.a1 * P.γ
noncomputable def α2 : ℝ := 1 + P.QP
noncomputable def μ : ℝ := P.m1 / (2 * P.g)
/-- `b'` of the derivation. -/
noncomputable def b : ℝ := P.cs * (P.v + 2 * P.R * P.i) - P.ϑ * P.γ
noncomputable def c : ℝ := (P.a2 - P.a1 * P.ϑ) / P.α1
noncomputable def β1 : ℝ := (P.a2 * P.γ - P.a1 * P.ϑ * P.γ + P.a1 * (P.cs * (P.v + 2 * P.R * P.i))) / P.α1
noncomputable def β2 : ℝ := P.QI / P.α2
noncomputable def det : ℝ := P.ϑ * P.β1 + P.b * P.c
noncomputable def T : ℝ := P.ϑ + P.β1
noncomputable def k1 : ℝ := P.k * P.α1
noncomputable def k2 : ℝ := P.k * P.α2
noncomputable def ŝ (d : DevDc) : ℝ := d.s + P.γ * d.e1
noncomputable def Dh (d : DevDc) : ℝ := P.D1 d + P.μ * P.ŝ d
noncomputable def ξh (d : DevDc) : ℝ := d.ξ1 + P.μ * P.ŝ d
noncomputable def h1 (d : DevDc) : ℝ := (d.x + P.a1 * P.ŝ d) / P.α1
noncomputable def h2 (d : DevDc) : ℝ := d.q / P.α2
noncomputable def r1 (d : DevDc) : ℝ := d.e1 - P.h1 d - P.ρ / P.k1 * P.ξh d
noncomputable def r2 (d : DevDc) : ℝ := d.e2 - P.h2 d - P.ρ / P.k2 * d.ξ2
/-- Rate of `ŝ`. -/
noncomputable def n (d : DevDc) : ℝ := -P.ϑ * P.ŝ d - P.b * d.e1
noncomputable def R1 : ℝ := P.R + 1 / 2 * P.m1 * P.γ - P.L * P.β1
noncomputable def R2 : ℝ := P.R - P.L * P.β2
noncomputable def X : ℝ := P.L * P.w0
noncomputable def X2 : ℝ := P.X + 1 / 2 * P.m2 * P.γ
noncomputable def f1 (d : DevDc) : ℝ := -P.L * P.c * P.ŝ d - P.L * (P.ρ / P.k1) * P.μ * P.n d
noncomputable def f2 (d : DevDc) : ℝ := 1 / 2 * P.m2 * P.ŝ d - P.L * P.i / P.wb * (d.χ - P.Kv * d.φ)
/-- Coefficient of `n²` in the losses. -/
noncomputable def Z (ε N : ℝ) : ℝ := P.μ ^ 2 * (lossH P.k1 P.ρ ε 1 + 2 * P.L ^ 2 * (P.ρ / P.k1) ^ 2 * lossE P.k1 P.g P.L P.ρ ε 1 + 2 * N / P.κ ^ 2)
noncomputable def Γ : ℝ := 10 * (((P.b + P.c) / P.T) ^ 2 + 1)
end DcPar

/-- Certificate: weights `ε`, `N`, `E` for which the loop dissipates. -/
structure DcOk (P : DcPar) (ε N E : ℝ) : Prop where
  Kp : 0 < P.Kp
  α1 : 0 < P.α1
  α2 : 0 < P.α2
  β2 : 0 < P.β2
  det : 0 < P.det
  T : 0 < P.T
  a1 : AxisOk P.k1 P.g P.L P.ρ P.ρ P.κ ε N
  a2 : AxisOk P.k2 P.g P.L P.ρ P.ρ P.κ ε N
  pE : 0 < E
  E1 : lossE P.k1 P.g P.L P.ρ ε P.R1 + lossE P.k2 P.g P.L P.ρ ε P.X2 + 2 * P.Z ε N * P.b ^ 2 ≤ E
  E2 : lossE P.k2 P.g P.L P.ρ ε P.R2 + lossE P.k1 P.g P.L P.ρ ε P.X ≤ E
  Es : 2 * P.Z ε N * P.ϑ ^ 2 + 2 * lossE P.k1 P.g P.L P.ρ ε 1 * (P.L * P.c) ^ 2 + 1 / 2 * P.m2 ^ 2 * lossE P.k2 P.g P.L P.ρ ε 1 ≤ E
  s1 : 4 * (3 + P.Γ) * E ≤ ε * P.k1
  s2 : 60 * E ≤ ε * P.k2
  n1 : 4 * (3 + P.Γ) * E * (P.ρ / P.k1) ^ 2 ≤ N
  n2 : 60 * E * (P.ρ / P.k2) ^ 2 ≤ N
  Kv : 0 < P.Kv
  J : 0 < P.J

section
variable {P : DcPar} {ε N E : ℝ}

theorem dc_ŝ (h : DcOk P ε N E) (d : DevDc) : P.ŝ (P.lin d) = P.n d := by
  have hL := h.a1.pL.ne'
  have hg := h.a1.pg.ne'
  show -(P.ϑ + P.cs * P.i * P.m1 / 2) * d.s - P.cs * P.σ d + P.γ * ((-P.R * d.e1 + P.g * P.D1 d + 1 / 2 * P.m1 * d.s) / P.L + P.w0 * d.e2) = -P.ϑ * (d.s + P.γ * d.e1) - P.b * d.e1
  unfold DcPar.γ DcPar.b DcPar.σ
  unfold DcPar.γ
  generalize P.m1 = m
  field_simp
  ring

theorem dc_D1 (h : DcOk P ε N E) (d : DevDc) : P.Dh (P.lin d) = -P.ρ * P.Dh d - P.k1 * P.r1 d - 1 * -(P.μ * P.n d) := by
  have hK := h.Kp.ne'
  have ha := h.α1.ne'
  have hk : P.k1 ≠ 0 := h.a1.pk.ne'
  have e1 : P.k1 * P.r1 d = P.k1 * d.e1 - P.k * (d.x + P.a1 * P.ŝ d) - P.ρ * P.ξh d := by
    have x1 : P.k1 * P.h1 d = P.k * (d.x + P.a1 * P.ŝ d) := by
      unfold DcPar.k1 DcPar.h1; field_simp
    have x2 : P.k1 * (P.ρ / P.k1 * P.ξh d) = P.ρ * P.ξh d := by field_simp
    unfold DcPar.r1
    linear_combination -x1 - x2
  rw [e1]
  have e2 : P.Ki * d.u1 = P.κ * (P.D1 d - d.ξ1) := by unfold DcPar.κ DcPar.D1; field_simp; ring
  have e3 : P.Kp * P.wp * d.u1 = P.wp * (P.D1 d - d.ξ1) := by unfold DcPar.D1; ring
  have e4 : P.Dh (P.lin d) = P.Kp * (P.wp * (-d.u1 + (d.x + P.a1 * d.s) - d.e1)) + P.Ki * d.u1 + P.μ * P.ŝ (P.lin d) := rfl
  rw [e4, dc_ŝ h]
  unfold DcPar.k1 DcPar.α1 DcPar.k DcPar.ρ DcPar.Dh DcPar.ξh DcPar.ŝ
  linear_combination e2 - e3

theorem dc_D2 (h : DcOk P ε N E) (d : DevDc) : P.D2 (P.lin d) = -P.ρ * P.D2 d - P.k2 * P.r2 d - 0 * 0 := by
  have hK := h.Kp.ne'
  have ha := h.α2.ne'
  have hk : P.k2 ≠ 0 := h.a2.pk.ne'
  have e1 : P.k2 * P.r2 d = P.k2 * d.e2 - P.k * d.q - P.ρ * d.ξ2 := by
    have x1 : P.k2 * P.h2 d = P.k * d.q := by
      unfold DcPar.k2 DcPar.h2; field_simp
    have x2 : P.k2 * (P.ρ / P.k2 * d.ξ2) = P.ρ * d.ξ2 := by field_simp
    unfold DcPar.r2
    linear_combination -x1 - x2
  rw [e1]
  have e2 : P.Ki * d.u2 = P.κ * (P.D2 d - d.ξ2) := by unfold DcPar.κ DcPar.D2; field_simp; ring
  have e3 : P.Kp * P.wp * d.u2 = P.wp * (P.D2 d - d.ξ2) := by unfold DcPar.D2; ring
  have e4 : P.D2 (P.lin d) = P.Kp * (P.wp * (-d.u2 + (d.q - P.QP * d.e2) - d.e2)) + P.Ki * d.u2 := rfl
  rw [e4]
  unfold DcPar.k2 DcPar.α2 DcPar.k DcPar.ρ
  linear_combination e2 - e3

theorem dc_ξ1 (h : DcOk P ε N E) (d : DevDc) : P.ξh (P.lin d) = P.κ * (P.Dh d - P.ξh d) + P.μ * P.n d := by
  have hK := h.Kp.ne'
  have e : P.ξh (P.lin d) = P.Ki * d.u1 + P.μ * P.ŝ (P.lin d) := rfl
  rw [e, dc_ŝ h]
  unfold DcPar.κ DcPar.Dh DcPar.ξh DcPar.D1; field_simp; ring

theorem dc_ξ2 (h : DcOk P ε N E) (d : DevDc) : (P.lin d).ξ2 = P.κ * (P.D2 d - d.ξ2) := by
  have hK := h.Kp.ne'
  show P.Ki * d.u2 = _
  unfold DcPar.κ DcPar.D2; field_simp; ring

theorem dc_h1 (h : DcOk P ε N E) (d : DevDc) : P.h1 (P.lin d) = P.c * P.ŝ d - P.β1 * d.e1 := by
  have ha := h.α1.ne'
  have e : P.h1 (P.lin d) = (P.a2 * d.s + P.a1 * P.ŝ (P.lin d)) / P.α1 := rfl
  rw [e, dc_ŝ h]
  unfold DcPar.n DcPar.c DcPar.β1 DcPar.b DcPar.ŝ
  generalize P.α1 = α at *
  field_simp
  ring

theorem dc_h2 (d : DevDc) : P.h2 (P.lin d) = -P.β2 * d.e2 := by
  show (-P.QI * d.e2) / P.α2 = _
  unfold DcPar.β2
  ring

theorem dc_r1 (h : DcOk P ε N E) (d : DevDc) : P.r1 (P.lin d) =
    (P.g * P.Dh d - P.R1 * d.e1 + P.X * d.e2 - P.L * (P.ρ / P.k1) * P.κ * (P.Dh d - P.ξh d) + P.f1 d) / P.L := by
  have hL := h.a1.pL.ne'
  have hg := h.a1.pg.ne'
  have e : P.r1 (P.lin d) = (-P.R * d.e1 + P.g * P.D1 d + 1 / 2 * P.m1 * d.s) / P.L + P.w0 * d.e2 - P.h1 (P.lin d) - P.ρ / P.k1 * P.ξh (P.lin d) := rfl
  rw [e, dc_h1 h, dc_ξ1 h]
  unfold DcPar.f1 DcPar.R1 DcPar.X
  generalize P.ρ / P.k1 = τ
  generalize P.n d = n
  have hμ : P.g * P.μ = 1 / 2 * P.m1 := by unfold DcPar.μ; field_simp
  rw [eq_div_iff hL]
  have e2 : P.D1 d = P.Dh d - P.μ * P.ŝ d := by unfold DcPar.Dh; ring
  rw [e2]
  generalize P.ξh d = ξ
  have e3 : d.s = P.ŝ d - P.γ * d.e1 := by unfold DcPar.ŝ; ring
  rw [e3]
  generalize P.Dh d = D
  generalize P.ŝ d = ss
  field_simp
  linear_combination (-2 * ss) * hμ

theorem dc_r2 (h : DcOk P ε N E) (d : DevDc) : P.r2 (P.lin d) =
    (P.g * P.D2 d - P.R2 * d.e2 + -P.X2 * d.e1 - P.L * (P.ρ / P.k2) * P.κ * (P.D2 d - d.ξ2) + P.f2 d) / P.L := by
  have hL := h.a1.pL.ne'
  have e : P.r2 (P.lin d) = (-P.R * d.e2 + P.g * P.D2 d + 1 / 2 * P.m2 * d.s) / P.L - P.w0 * d.e1 - P.i / P.wb * (d.χ - P.Kv * d.φ) - P.h2 (P.lin d) - P.ρ / P.k2 * (P.lin d).ξ2 := rfl
  rw [e, dc_h2, dc_ξ2 h]
  unfold DcPar.f2 DcPar.R2 DcPar.X2 DcPar.X DcPar.ŝ
  generalize P.ρ / P.k2 = τ
  rw [eq_div_iff hL, show P.L * P.i / P.wb = P.L * (P.i / P.wb) by ring]
  generalize P.i / P.wb = y
  field_simp
  ring

/-- The rate of the energy of an axis whose integrator has a further input `ν`. -/
theorem axisForms_rate' {k g L ρ ρa κ ε N R X η r D ξ e x y f ν : ℝ} (hL : L ≠ 0) (hκ : κ ≠ 0) :
    ∑ j, 2 * axisWeights k g L κ 1 ε N 1 j * axisForms ε r D ξ 0 j *
      axisForms ε ((g * D - R * e + X * x - L * (ρ / k) * κ * (D - ξ) + f) / L) (-ρa * D - k * r - η * y) (κ * (D - ξ) + ν) 0 j =
    axisRate k g L ρ ρa κ ε N 0 R X η r D ξ 0 e x y f + N / κ * ξ * ν := by
  rw [Fin.sum_univ_four]
  simp only [axisWeights, axisForms, axisRate, Matrix.cons_val]
  generalize g * D - R * e + X * x - L * (ρ / k) * κ * (D - ξ) + f = T
  have e1 : 2 * (1 / 2 * (N / κ)) * ξ * (κ * (D - ξ)) = N * ξ * (D - ξ) := by field_simp
  have e3 : k * L / g * (T / L) = k / g * T := by field_simp
  linear_combination e1 + r * e3

namespace DcPar
variable (P : DcPar) (ε N E : ℝ)

noncomputable def F : ℝ := 2 * lossE P.k2 P.g P.L P.ρ ε 1 * (P.L * P.i / P.wb) ^ 2 * (1 + P.Kv ^ 2)
noncomputable def W3 : ℝ := (P.F ε + 1) / (P.J * P.Kv)
noncomputable def W : ℝ := 5 * E / (P.det * P.T)
end DcPar

/-- Index of the terms of the energy: axis one, axis two; DC link, phase locked loop. -/
abbrev IdxDc := (Fin 4 ⊕ Fin 4) ⊕ (Fin 4 ⊕ Fin 4)
/-- Index of the terms that bound the dissipation. -/
abbrev IdxDc' := (Fin 3 ⊕ Fin 4) ⊕ Fin 4

namespace DcPar
variable (P : DcPar) (ε N E : ℝ)

/-- Terms of the energy. -/
noncomputable def forms (d : DevDc) : IdxDc → ℝ :=
  Sum.elim (Sum.elim (axisForms ε (P.r1 d) (P.Dh d) (P.ξh d) 0) (axisForms ε (P.r2 d) (P.D2 d) d.ξ2 (P.h2 d)))
    (Sum.elim ![P.ŝ d, P.h1 d, P.β1 * P.ŝ d - P.b * P.h1 d, P.c * P.ŝ d + P.ϑ * P.h1 d] ![d.φ, d.χ, d.χ, P.J * d.φ - P.Kv * d.χ])

/-- Weights of the energy. -/
noncomputable def weights : IdxDc → ℝ :=
  Sum.elim (Sum.elim (axisWeights P.k1 P.g P.L P.κ 1 ε N 1) (axisWeights P.k2 P.g P.L P.κ P.β2 ε N E))
    (Sum.elim ![P.W E * P.det, P.W E * P.det, P.W E, P.W E] ![P.W3 ε * P.J, P.W3 ε * P.J, P.W3 ε, P.W3 ε])

/-- Terms that bound the dissipation. -/
noncomputable def sizes (d : DevDc) : IdxDc' → ℝ :=
  Sum.elim (Sum.elim ![P.r1 d, P.Dh d, P.ξh d] ![P.r2 d, P.D2 d, d.ξ2, P.h2 d]) ![P.ŝ d, P.h1 d, d.φ, d.χ]

/-- Rate of dissipation. -/
noncomputable def rt : ℝ := min (min (min (1 / 4 * ε * P.k1) (1 / 4 * ε * P.k2)) (1 / 8 * P.ρ)) (min (min (1 / 4 * N) (2 * E)) 1)
end DcPar

theorem lossE_nonneg {k g L ρ ρa κ ε N : ℝ} (h : AxisOk k g L ρ ρa κ ε N) (R : ℝ) : 0 ≤ lossE k g L ρa ε R := by
  have := h.pk; have := h.pg; have := h.pL; have := h.pρa; have := h.pε
  unfold lossE
  positivity

theorem lossH_nonneg {k g L ρ ρa κ ε N : ℝ} (h : AxisOk k g L ρ ρa κ ε N) (R : ℝ) : 0 ≤ lossH k ρa ε R := by
  have := h.pk; have := h.pg; have := h.pL; have := h.pρa; have := h.pε
  unfold lossH
  positivity

theorem dcF_nonneg (h : DcOk P ε N E) : 0 ≤ P.F ε := by
  have := lossE_nonneg h.a2 1
  unfold DcPar.F
  positivity

theorem dcW3_pos (h : DcOk P ε N E) : 0 < P.W3 ε := by
  have := dcF_nonneg h; have := h.J; have := h.Kv
  unfold DcPar.W3
  positivity

theorem dcW_pos (h : DcOk P ε N E) : 0 < P.W E := by
  have := h.pE; have := h.det; have := h.T
  unfold DcPar.W
  positivity

theorem dc_weights_pos (h : DcOk P ε N E) (j : IdxDc) : 0 < P.weights ε N E j := by
  have w3 := dcW3_pos h
  have w := dcW_pos h
  have := h.J
  have := h.det
  rcases j with (j | j) | (j | j)
  · exact axisWeights_pos h.a1 one_pos one_pos j
  · exact axisWeights_pos h.a2 h.pE h.β2 j
  · fin_cases j <;> simp [DcPar.weights] <;> positivity
  · fin_cases j <;> simp [DcPar.weights] <;> positivity

theorem rt_pos (h : DcOk P ε N E) : 0 < P.rt ε N E := by
  have := h.a1.pk; have := h.a2.pk; have := h.a1.pε; have := h.a1.pρa; have := h.a1.pN; have := h.pE
  unfold DcPar.rt
  simp only [lt_min_iff]
  refine ⟨⟨⟨?_, ?_⟩, ?_⟩, ⟨⟨?_, ?_⟩, ?_⟩⟩ <;> positivity

/-- The slow part: DC voltage and reference state. -/
theorem slow_rate (W det T ϑ b c β s h y e : ℝ) (hd : det = ϑ * β + b * c) (hT : T = ϑ + β) (he : e = h + y) :
    2 * (W * det) * s * (-ϑ * s - b * e) + 2 * (W * det) * h * (c * s - β * e) + 2 * W * (β * s - b * h) * (β * (-ϑ * s - b * e) - b * (c * s - β * e)) +
      2 * W * (c * s + ϑ * h) * (c * (-ϑ * s - b * e) + ϑ * (c * s - β * e)) =
    -2 * (W * (det * T)) * (s ^ 2 + h ^ 2) - 2 * (W * det) * ((b + c) * s + T * h) * y := by
  subst hd hT he
  ring

/-- The slow part against its coupling. -/
theorem slow_le {E W det T bc s h r τ ξ : ℝ} (hE : 0 < E) (hT : 0 < T) (eW : W * (det * T) = 5 * E) :
    -2 * (W * (det * T)) * (s ^ 2 + h ^ 2) - 2 * (W * det) * (bc * s + T * h) * (r + τ * ξ) ≤ -5 * E * (s ^ 2 + h ^ 2) + 10 * ((bc / T) ^ 2 + 1) * E * (r ^ 2 + τ ^ 2 * ξ ^ 2) := by
  obtain ⟨G, rfl⟩ : ∃ G, bc = G * T := ⟨bc / T, by field_simp⟩
  rw [mul_div_cancel_right₀ _ hT.ne', eW]
  have e : 2 * (W * det) * (G * T * s + T * h) * (r + τ * ξ) = 10 * E * (G * s + h) * (r + τ * ξ) := by
    linear_combination (2 * (G * s + h) * (r + τ * ξ)) * eW
  rw [e]
  have s1 : 0 ≤ 5 * E * (s + G * (r + τ * ξ)) ^ 2 := by positivity
  have s2 : 0 ≤ 5 * E * (h + (r + τ * ξ)) ^ 2 := by positivity
  have s3 : 0 ≤ 5 * E * (G ^ 2 + 1) * (r - τ * ξ) ^ 2 := by positivity
  linear_combination s1 + s2 + s3

theorem dc_tot (h : DcOk P ε N E) (d : DevDc) : ∑ j, 2 * P.weights ε N E j * P.forms ε d j * P.forms ε (P.lin d) j =
      (axisRate P.k1 P.g P.L P.ρ P.ρ P.κ ε N 0 P.R1 P.X 1 (P.r1 d) (P.Dh d) (P.ξh d) 0 d.e1 d.e2 (-(P.μ * P.n d)) (P.f1 d) + N / P.κ * P.ξh d * (P.μ * P.n d) +
      axisRate P.k2 P.g P.L P.ρ P.ρ P.κ ε N E P.R2 (-P.X2) 0 (P.r2 d) (P.D2 d) d.ξ2 (P.h2 d) d.e2 d.e1 0 (P.f2 d)) +
      (-2 * (P.W E * (P.det * P.T)) * (P.ŝ d ^ 2 + P.h1 d ^ 2) - 2 * (P.W E * P.det) * ((P.b + P.c) * P.ŝ d + P.T * P.h1 d) * (P.r1 d + P.ρ / P.k1 * P.ξh d) +
        -2 * (P.F ε + 1) * (d.φ ^ 2 + d.χ ^ 2)) := by
  have hL := h.a1.pL.ne'
  have hκ := h.a1.pκ.ne'
  have hJ := h.J
  have hKv := h.Kv
  have A1 : ∑ j, 2 * axisWeights P.k1 P.g P.L P.κ 1 ε N 1 j * axisForms ε (P.r1 d) (P.Dh d) (P.ξh d) 0 j *
      axisForms ε (P.r1 (P.lin d)) (P.Dh (P.lin d)) (P.ξh (P.lin d)) 0 j =
      axisRate P.k1 P.g P.L P.ρ P.ρ P.κ ε N 0 P.R1 P.X 1 (P.r1 d) (P.Dh d) (P.ξh d) 0 d.e1 d.e2 (-(P.μ * P.n d)) (P.f1 d) + N / P.κ * P.ξh d * (P.μ * P.n d) := by
    rw [dc_r1 h, dc_D1 h, dc_ξ1 h]
    exact axisForms_rate' hL hκ
  have A2 : ∑ j, 2 * axisWeights P.k2 P.g P.L P.κ P.β2 ε N E j * axisForms ε (P.r2 d) (P.D2 d) d.ξ2 (P.h2 d) j *
      axisForms ε (P.r2 (P.lin d)) (P.D2 (P.lin d)) (P.lin d).ξ2 (P.h2 (P.lin d)) j =
      axisRate P.k2 P.g P.L P.ρ P.ρ P.κ ε N E P.R2 (-P.X2) 0 (P.r2 d) (P.D2 d) d.ξ2 (P.h2 d) d.e2 d.e1 0 (P.f2 d) := by
    rw [dc_r2 h, dc_D2 h, dc_ξ2 h, dc_h2]
    exact axisForms_rate hL hκ h.β2.ne'
  have A3 : ∑ j : Fin 4, 2 * (![P.W3 ε * P.J, P.W3 ε * P.J, P.W3 ε, P.W3 ε] : Fin 4 → ℝ) j * (![d.φ, d.χ, d.χ, P.J * d.φ - P.Kv * d.χ] : Fin 4 → ℝ) j *
      (![(P.lin d).φ, (P.lin d).χ, (P.lin d).χ, P.J * (P.lin d).φ - P.Kv * (P.lin d).χ] : Fin 4 → ℝ) j = -2 * (P.F ε + 1) * (d.φ ^ 2 + d.χ ^ 2) := by
    rw [Fin.sum_univ_four]
    have e : P.W3 ε * (P.J * P.Kv) = P.F ε + 1 := by unfold DcPar.W3; field_simp
    simp only [Matrix.cons_val, DcPar.lin]
    linear_combination (-2) * (d.φ ^ 2 + d.χ ^ 2) * e
  have A4 : ∑ j : Fin 4, 2 * (![P.W E * P.det, P.W E * P.det, P.W E, P.W E] : Fin 4 → ℝ) j *
      (![P.ŝ d, P.h1 d, P.β1 * P.ŝ d - P.b * P.h1 d, P.c * P.ŝ d + P.ϑ * P.h1 d] : Fin 4 → ℝ) j *
      (![P.ŝ (P.lin d), P.h1 (P.lin d), P.β1 * P.ŝ (P.lin d) - P.b * P.h1 (P.lin d), P.c * P.ŝ (P.lin d) + P.ϑ * P.h1 (P.lin d)] : Fin 4 → ℝ) j =
      -2 * (P.W E * (P.det * P.T)) * (P.ŝ d ^ 2 + P.h1 d ^ 2) - 2 * (P.W E * P.det) * ((P.b + P.c) * P.ŝ d + P.T * P.h1 d) * (P.r1 d + P.ρ / P.k1 * P.ξh d) := by
    rw [Fin.sum_univ_four, dc_ŝ h, dc_h1 h]
    simp only [Matrix.cons_val]
    exact slow_rate (P.W E) P.det P.T P.ϑ P.b P.c P.β1 (P.ŝ d) (P.h1 d) _ d.e1 rfl rfl (by unfold DcPar.r1; ring)
  rw [← A1, ← A2, ← A3, ← A4, Fintype.sum_sum_type, Fintype.sum_sum_type, Fintype.sum_sum_type]
  rfl

theorem dc_siz (P : DcPar) (d : DevDc) : ∑ j, (P.sizes d j) ^ 2 =
    P.r1 d ^ 2 + P.Dh d ^ 2 + P.ξh d ^ 2 + (P.r2 d ^ 2 + P.D2 d ^ 2 + d.ξ2 ^ 2 + P.h2 d ^ 2) + (P.ŝ d ^ 2 + P.h1 d ^ 2 + d.φ ^ 2 + d.χ ^ 2) := by
  rw [Fintype.sum_sum_type, Fintype.sum_sum_type, Fin.sum_univ_four, Fin.sum_univ_four, Fin.sum_univ_three]
  simp [DcPar.sizes]

theorem dc_B6 (h : DcOk P ε N E) (d : DevDc) : lossE P.k1 P.g P.L P.ρ ε 1 * P.f1 d ^ 2 ≤ 2 * lossE P.k1 P.g P.L P.ρ ε 1 * (P.L * P.c) ^ 2 * P.ŝ d ^ 2 +
      lossE P.k1 P.g P.L P.ρ ε 1 * 2 * P.L ^ 2 * (P.ρ / P.k1) ^ 2 * (P.μ * P.n d) ^ 2 := by
  have L1 := lossE_nonneg h.a1 1
  unfold DcPar.f1
  generalize lossE P.k1 P.g P.L P.ρ ε 1 = A at *
  generalize P.ρ / P.k1 = τ
  generalize P.n d = n
  have : 0 ≤ A * (P.L * P.c * P.ŝ d - P.L * τ * P.μ * n) ^ 2 := by positivity
  linear_combination this

theorem dc_Z (h : DcOk P ε N E) : 0 ≤ P.Z ε N := by
  have LH := lossH_nonneg h.a1 1
  have L1 := lossE_nonneg h.a1 1
  have hN := h.a1.pN
  unfold DcPar.Z
  positivity

theorem dc_B8 (h : DcOk P ε N E) (d : DevDc) : lossH P.k1 P.ρ ε 1 * (-(P.μ * P.n d)) ^ 2 + lossE P.k1 P.g P.L P.ρ ε 1 * 2 * P.L ^ 2 * (P.ρ / P.k1) ^ 2 * (P.μ * P.n d) ^ 2 +
      2 * N / P.κ ^ 2 * (P.μ * P.n d) ^ 2 ≤ 2 * P.Z ε N * P.ϑ ^ 2 * P.ŝ d ^ 2 + 2 * P.Z ε N * P.b ^ 2 * d.e1 ^ 2 := by
  have Z0 := dc_Z h
  have e : lossH P.k1 P.ρ ε 1 * (-(P.μ * P.n d)) ^ 2 + lossE P.k1 P.g P.L P.ρ ε 1 * 2 * P.L ^ 2 * (P.ρ / P.k1) ^ 2 * (P.μ * P.n d) ^ 2 + 2 * N / P.κ ^ 2 * (P.μ * P.n d) ^ 2 =
      P.Z ε N * P.n d ^ 2 := by
    unfold DcPar.Z
    generalize lossH P.k1 P.ρ ε 1 = A
    generalize lossE P.k1 P.g P.L P.ρ ε 1 = B
    generalize P.ρ / P.k1 = τ
    generalize 2 * N / P.κ ^ 2 = C
    ring
  rw [e]
  generalize P.Z ε N = Z at *
  have : 0 ≤ Z * (P.ϑ * P.ŝ d - P.b * d.e1) ^ 2 := by positivity
  unfold DcPar.n
  linear_combination this

theorem dc_B9 (h : DcOk P ε N E) (d : DevDc) :
    lossE P.k2 P.g P.L P.ρ ε 1 * P.f2 d ^ 2 ≤ 1 / 2 * P.m2 ^ 2 * lossE P.k2 P.g P.L P.ρ ε 1 * P.ŝ d ^ 2 + P.F ε * (d.φ ^ 2 + d.χ ^ 2) := by
  have L2 := lossE_nonneg h.a2 1
  unfold DcPar.F DcPar.f2
  generalize lossE P.k2 P.g P.L P.ρ ε 1 = A at *
  generalize P.L * P.i / P.wb = B
  have t1 : 0 ≤ 2 * A * B ^ 2 * (d.φ + P.Kv * d.χ) ^ 2 := by positivity
  have t2 : 0 ≤ A * (1 / 2 * P.m2 * P.ŝ d + B * (d.χ - P.Kv * d.φ)) ^ 2 := by positivity
  linear_combination t1 + t2

theorem dc_rt (P : DcPar) (ε N E : ℝ) : P.rt ε N E ≤ 1 / 4 * ε * P.k1 ∧ P.rt ε N E ≤ 1 / 4 * ε * P.k2 ∧ P.rt ε N E ≤ 1 / 8 * P.ρ ∧ P.rt ε N E ≤ 1 / 4 * N ∧ P.rt ε N E ≤ 2 * E ∧ P.rt ε N E ≤ 1 := by
  have : P.rt ε N E ≤ P.rt ε N E := le_refl _
  conv at this => rhs; unfold DcPar.rt
  simp only [le_min_iff] at this
  tauto

/-- The balance of all terms. -/
theorem dc_sum {E N ε k1 k2 ρ τ1 τ2 Γ F rt eR1 eX eX2 eR2 e11 e21 lH Z ϑ b Lc m2 κN : ℝ} {r1 D1 ξ1 r2 D2 ξ2 h1 h2 s φ χ x1 x2 f1 f2 : ℝ}
    (hE : 0 < E) (hN : 0 < N) (hF : 0 ≤ F) (he1 : x1 = h1 + r1 + τ1 * ξ1) (he2 : x2 = h2 + r2 + τ2 * ξ2)
    (pE1 : eR1 + eX2 + 2 * Z * b ^ 2 ≤ E) (pE2 : eR2 + eX ≤ E) (pEs : 2 * Z * ϑ ^ 2 + 2 * e11 * Lc ^ 2 + 1 / 2 * m2 ^ 2 * e21 ≤ E)
    (s1 : 4 * (3 + Γ) * E ≤ ε * k1) (s2 : 60 * E ≤ ε * k2) (n1 : 4 * (3 + Γ) * E * τ1 ^ 2 ≤ N) (n2 : 60 * E * τ2 ^ 2 ≤ N)
    (c1 : rt ≤ 1 / 4 * ε * k1) (c2 : rt ≤ 1 / 4 * ε * k2) (c3 : rt ≤ 1 / 8 * ρ) (c4 : rt ≤ 1 / 4 * N) (c5 : rt ≤ 2 * E) (c6 : rt ≤ 1)
    (g6 : e11 * f1 ^ 2 ≤ 2 * e11 * Lc ^ 2 * s ^ 2 + lH) (g8 : κN + lH ≤ 2 * Z * ϑ ^ 2 * s ^ 2 + 2 * Z * b ^ 2 * x1 ^ 2) (g9 : e21 * f2 ^ 2 ≤ 1 / 2 * m2 ^ 2 * e21 * s ^ 2 + F * (φ ^ 2 + χ ^ 2)) :
    (-(1 / 2) * ε * k1 * r1 ^ 2 - 1 / 8 * ρ * D1 ^ 2 - 5 / 8 * N * ξ1 ^ 2 + eR1 * x1 ^ 2 + eX * x2 ^ 2 + e11 * f1 ^ 2 + (N / 8 * ξ1 ^ 2 + κN)) +
      (-(1 / 2) * ε * k2 * r2 ^ 2 - 1 / 8 * ρ * D2 ^ 2 - 5 / 8 * N * ξ2 ^ 2 + eR2 * x2 ^ 2 + eX2 * x1 ^ 2 + e21 * f2 ^ 2 + E * (-12 * h2 * x2)) +
      (-5 * E * (s ^ 2 + h1 ^ 2) + Γ * E * (r1 ^ 2 + τ1 ^ 2 * ξ1 ^ 2) + -2 * (F + 1) * (φ ^ 2 + χ ^ 2)) ≤
    -rt * (r1 ^ 2 + D1 ^ 2 + ξ1 ^ 2 + (r2 ^ 2 + D2 ^ 2 + ξ2 ^ 2 + h2 ^ 2) + (s ^ 2 + h1 ^ 2 + φ ^ 2 + χ ^ 2)) := by
  have q1 := mul_le_mul_of_nonneg_right pE1 (sq_nonneg x1)
  have q2 := mul_le_mul_of_nonneg_right pE2 (sq_nonneg x2)
  have q3 := mul_le_mul_of_nonneg_right pEs (sq_nonneg s)
  have w1 : E * x1 ^ 2 ≤ E * (3 * (h1 ^ 2 + r1 ^ 2 + τ1 ^ 2 * ξ1 ^ 2)) := by
    rw [he1]; exact mul_le_mul_of_nonneg_left e_sq hE.le
  have w2 : E * x2 ^ 2 ≤ E * (3 * (h2 ^ 2 + r2 ^ 2 + τ2 ^ 2 * ξ2 ^ 2)) := by
    rw [he2]; exact mul_le_mul_of_nonneg_left e_sq hE.le
  have v2 : E * (-12 * h2 * x2) ≤ E * (-6 * h2 ^ 2 + 12 * (r2 ^ 2 + τ2 ^ 2 * ξ2 ^ 2)) := by
    refine mul_le_mul_of_nonneg_left ?_ hE.le
    rw [he2]
    nlinarith [sq_nonneg (h2 + r2 + τ2 * ξ2), sq_nonneg (r2 - τ2 * ξ2)]
  clear he1 he2
  have b1 := mul_le_mul_of_nonneg_right s1 (sq_nonneg r1)
  have b2 := mul_le_mul_of_nonneg_right s2 (sq_nonneg r2)
  have b3 := mul_le_mul_of_nonneg_right n1 (sq_nonneg ξ1)
  have b4 := mul_le_mul_of_nonneg_right n2 (sq_nonneg ξ2)
  have m1 := mul_le_mul_of_nonneg_right c1 (sq_nonneg r1)
  have m2' := mul_le_mul_of_nonneg_right c2 (sq_nonneg r2)
  have m3 := mul_le_mul_of_nonneg_right c3 (add_nonneg (sq_nonneg D1) (sq_nonneg D2))
  have m4 := mul_le_mul_of_nonneg_right c4 (add_nonneg (sq_nonneg ξ1) (sq_nonneg ξ2))
  have m5 := mul_le_mul_of_nonneg_right c5 (add_nonneg (add_nonneg (sq_nonneg h1) (sq_nonneg h2)) (sq_nonneg s))
  have m6 := mul_le_mul_of_nonneg_right c6 (add_nonneg (sq_nonneg φ) (sq_nonneg χ))
  have m7 : 0 ≤ E * h2 ^ 2 := by positivity
  have m7' : 0 ≤ E * s ^ 2 := by positivity
  have m8 : 0 ≤ F * (φ ^ 2 + χ ^ 2) := by positivity
  have m9 : 0 ≤ φ ^ 2 + χ ^ 2 := by positivity
  have m11 : 0 ≤ N * ξ2 ^ 2 := by positivity
  linear_combination g6 + g8 + g9 + q1 + q2 + q3 + w1 + w2 + v2 + 1 / 4 * b1 + 1 / 4 * b2 + 1 / 4 * b3 + 1 / 4 * b4 + m1 + m2' + m3 + m4 + m5 + m6 + m7 + 2 * m7' + m8 + m9 + 1 / 8 * m11

/-- The energy of the linearised loop decreases. -/
theorem dc_dis (h : DcOk P ε N E) (d : DevDc) :
    ∑ j, 2 * P.weights ε N E j * P.forms ε d j * P.forms ε (P.lin d) j ≤ -P.rt ε N E * ∑ j, (P.sizes d j) ^ 2 := by
  obtain ⟨c1, c2, c3, c4, c5, c6⟩ := dc_rt P ε N E
  have hN := h.a1.pN
  have hκ := h.a1.pκ
  have hdet := h.det
  have hT := h.T
  have x1 : lossE P.k2 P.g P.L P.ρ ε (-P.X2) = lossE P.k2 P.g P.L P.ρ ε P.X2 := by unfold lossE; rw [neg_sq]
  have g1 := axis h.a1 P.R1 P.X 1 (P.r1 d) (P.Dh d) (P.ξh d) d.e1 d.e2 (-(P.μ * P.n d)) (P.f1 d)
  have g2 := axis h.a2 P.R2 (-P.X2) 0 (P.r2 d) (P.D2 d) d.ξ2 d.e2 d.e1 0 (P.f2 d)
  rw [x1] at g2
  have B5 : N / P.κ * P.ξh d * (P.μ * P.n d) ≤ N / 8 * P.ξh d ^ 2 + 2 * N / P.κ ^ 2 * (P.μ * P.n d) ^ 2 :=
    young _ _ (by positivity) (by apply le_of_eq; field_simp; ring)
  have B4 := slow_le (bc := P.b + P.c) (s := P.ŝ d) (h := P.h1 d) (r := P.r1 d) (τ := P.ρ / P.k1) (ξ := P.ξh d) h.pE hT (show P.W E * (P.det * P.T) = 5 * E by unfold DcPar.W; field_simp)
  have fin := dc_sum (κN := lossH P.k1 P.ρ ε 1 * (-(P.μ * P.n d)) ^ 2 + 2 * N / P.κ ^ 2 * (P.μ * P.n d) ^ 2) (D1 := P.Dh d) (D2 := P.D2 d) h.pE hN (dcF_nonneg h)
    (show d.e1 = P.h1 d + P.r1 d + P.ρ / P.k1 * P.ξh d by unfold DcPar.r1; ring) (show d.e2 = P.h2 d + P.r2 d + P.ρ / P.k2 * d.ξ2 by unfold DcPar.r2; ring)
    h.E1 h.E2 h.Es h.s1 h.s2 h.n1 h.n2 c1 c2 c3 c4 c5 c6 (dc_B6 h d) (by have := dc_B8 h d; rw [add_right_comm] at this; exact this) (dc_B9 h d)
  rw [dc_tot h, dc_siz, axisRate_eq h.a1.pg.ne', axisRate_eq h.a2.pg.ne']
  refine le_trans (add_le_add (add_le_add (add_le_add (add_le_add_left g1 _) B5) (add_le_add_left g2 _)) (add_le_add B4 (le_refl _))) (le_trans (le_of_eq ?_) fin)
  unfold DcPar.Γ
  ring

/-- The deviations that the dissipation sees are all of them. -/
theorem dc_sizes_inj (h : DcOk P ε N E) (d : DevDc) (hd : ∀ j, P.sizes d j = 0) : d = ⟨0, 0, 0, 0, 0, 0, 0, 0, 0, 0, 0⟩ := by
  have r1 : P.r1 d = 0 := hd (.inl (.inl 0))
  have D1 : P.Dh d = 0 := hd (.inl (.inl 1))
  have ξh : P.ξh d = 0 := hd (.inl (.inl 2))
  have r2 : P.r2 d = 0 := hd (.inl (.inr 0))
  have D2 : P.D2 d = 0 := hd (.inl (.inr 1))
  have ξ2 : d.ξ2 = 0 := hd (.inl (.inr 2))
  have h2 : P.h2 d = 0 := hd (.inl (.inr 3))
  have ŝ : P.ŝ d = 0 := hd (.inr 0)
  have h1 : P.h1 d = 0 := hd (.inr 1)
  have φ : d.φ = 0 := hd (.inr 2)
  have χ : d.χ = 0 := hd (.inr 3)
  have e1 : d.e1 = 0 := by unfold DcPar.r1 at r1; rw [h1, ξh] at r1; linarith
  have e2 : d.e2 = 0 := by unfold DcPar.r2 at r2; rw [h2, ξ2] at r2; linarith
  have s : d.s = 0 := by unfold DcPar.ŝ at ŝ; rw [e1] at ŝ; linarith
  have ξ1 : d.ξ1 = 0 := by unfold DcPar.ξh at ξh; rw [ŝ] at ξh; linarith
  have u1 : d.u1 = 0 := by
    unfold DcPar.Dh DcPar.D1 at D1; rw [ξ1, ŝ, mul_zero, add_zero, add_zero] at D1
    exact (mul_eq_zero.1 D1).resolve_left h.Kp.ne'
  have u2 : d.u2 = 0 := by
    unfold DcPar.D2 at D2; rw [ξ2, add_zero] at D2
    exact (mul_eq_zero.1 D2).resolve_left h.Kp.ne'
  have x : d.x = 0 := by
    unfold DcPar.h1 at h1; rw [ŝ, mul_zero, add_zero] at h1
    exact (div_eq_zero_iff.1 h1).resolve_right h.α1.ne'
  have q : d.q = 0 := by
    unfold DcPar.h2 at h2
    exact (div_eq_zero_iff.1 h2).resolve_right h.α2.ne'
  exact DevDc.ext e1 e2 ξ1 ξ2 u1 u2 s x q χ φ

theorem dc_forms_inj (h : DcOk P ε N E) (d : DevDc) (hd : ∀ j, P.forms ε d j = 0) : d = ⟨0, 0, 0, 0, 0, 0, 0, 0, 0, 0, 0⟩ := by
  refine dc_sizes_inj h d (fun j => ?_)
  have r1 : P.r1 d = 0 := hd (.inl (.inl 1))
  have r2 : P.r2 d = 0 := hd (.inl (.inr 1))
  have D1 : P.Dh d + ε * P.r1 d = 0 := hd (.inl (.inl 0))
  have D2 : P.D2 d + ε * P.r2 d = 0 := hd (.inl (.inr 0))
  rw [r1, mul_zero, add_zero] at D1
  rw [r2, mul_zero, add_zero] at D2
  rcases j with (j | j) | j
  · fin_cases j
    · exact r1
    · exact D1
    · exact hd (.inl (.inl 2))
  · fin_cases j
    · exact r2
    · exact D2
    · exact hd (.inl (.inr 2))
    · exact hd (.inl (.inr 3))
  · fin_cases j
    · exact hd (.inr (.inl 0))
    · exact hd (.inr (.inl 1))
    · exact hd (.inr (.inr 0))
    · exact hd (.inr (.inr 1))

namespace DcPar
variable (P : DcPar)
/-- Rate at which a current change moves the DC voltage. -/
noncomputable def x : ℝ := P.cs * (P.v + 2 * P.R * P.i)
end DcPar

theorem dc_T_eq (hα : P.α1 ≠ 0) : P.T = (P.ϑ + P.a2 * P.γ + P.a1 * P.x) / P.α1 := by
  have : P.α1 = 1 + P.a1 * P.γ := rfl
  rw [eq_div_iff hα]
  unfold DcPar.T DcPar.β1 DcPar.x
  field_simp
  rw [this]
  ring

theorem dc_det_eq (hα : P.α1 ≠ 0) : P.det = P.a2 * P.x / P.α1 := by
  rw [eq_div_iff hα]
  unfold DcPar.det DcPar.β1 DcPar.c DcPar.x DcPar.b
  field_simp
  ring

theorem dc_bc_eq (hα : P.α1 ≠ 0) : P.b + P.c = (P.α1 * (P.x - P.ϑ * P.γ) + P.a2 - P.a1 * P.ϑ) / P.α1 := by
  rw [eq_div_iff hα]
  unfold DcPar.c DcPar.x DcPar.b
  field_simp
  ring

theorem dc_Γ_le (hα : 0 < P.α1) (hD : 0 < P.ϑ + P.a2 * P.γ + P.a1 * P.x) {r : ℝ} (h : |P.α1 * (P.x - P.ϑ * P.γ) + P.a2 - P.a1 * P.ϑ| ≤ r * (P.ϑ + P.a2 * P.γ + P.a1 * P.x)) :
    P.Γ ≤ 10 * (r ^ 2 + 1) := by
  unfold DcPar.Γ
  rw [dc_T_eq hα.ne', dc_bc_eq hα.ne', div_div_div_cancel_right₀ hα.ne']
  have : ((P.α1 * (P.x - P.ϑ * P.γ) + P.a2 - P.a1 * P.ϑ) / (P.ϑ + P.a2 * P.γ + P.a1 * P.x)) ^ 2 ≤ r ^ 2 := by
    rw [← sq_abs, abs_div, abs_of_pos hD]
    have h0 : |P.α1 * (P.x - P.ϑ * P.γ) + P.a2 - P.a1 * P.ϑ| / (P.ϑ + P.a2 * P.γ + P.a1 * P.x) ≤ r := by rw [div_le_iff₀ hD]; exact h
    gcongr
  linarith

theorem dc_Z_le (hN : 0 < N) (hκ : 0 < P.κ) {μ0 h0 l0 : ℝ} (hμ : |P.μ| ≤ μ0) (hH : lossH P.k1 P.ρ ε 1 ≤ h0) (hE : 2 * P.L ^ 2 * (P.ρ / P.k1) ^ 2 * lossE P.k1 P.g P.L P.ρ ε 1 ≤ l0)
    (h0' : 0 ≤ h0) (l0' : 0 ≤ l0) : P.Z ε N ≤ μ0 ^ 2 * (h0 + l0 + 2 * N / P.κ ^ 2) := by
  unfold DcPar.Z
  have h1 : P.μ ^ 2 ≤ μ0 ^ 2 := by rw [← sq_abs]; gcongr
  calc P.μ ^ 2 * (lossH P.k1 P.ρ ε 1 + 2 * P.L ^ 2 * (P.ρ / P.k1) ^ 2 * lossE P.k1 P.g P.L P.ρ ε 1 + 2 * N / P.κ ^ 2) ≤ P.μ ^ 2 * (h0 + l0 + 2 * N / P.κ ^ 2) := by gcongr
    _ ≤ μ0 ^ 2 * (h0 + l0 + 2 * N / P.κ ^ 2) := by gcongr

/-- The certificate from bounds on the parameters. -/
theorem DcOk.of_bounds {k0 k9 g0 g1 L0 L1 ρ0 ρ9 α9 ϑ9 b9 c9 μ9 r9 R19 R29 X9 X29 m29 z9 B1 h9 l9 : ℝ} (Kp : 0 < P.Kp) (hκ : 0 < P.κ) (hε : 0 < ε) (hN : 0 < N) (hE : 0 < E)
    (k0' : 0 < k0) (hk : k0 ≤ P.k) (hk' : P.k * α9 ≤ k9) (g0' : 0 < g0) (hg : g0 ≤ P.g) (hg' : P.g ≤ g1) (L0' : 0 < L0) (hL : L0 ≤ P.L) (hL' : P.L ≤ L1) (ρ0' : 0 < ρ0) (hρ : ρ0 ≤ P.ρ) (hρ' : P.ρ ≤ ρ9)
    (hα1 : 1 ≤ P.α1) (hα1' : P.α1 ≤ α9) (hα2 : 1 ≤ P.α2) (hα2' : P.α2 ≤ α9) (hQ : 0 < P.QI) (ha2 : 0 < P.a2) (hx : 0 < P.x) (hD : 0 < P.ϑ + P.a2 * P.γ + P.a1 * P.x)
    (hr : |P.α1 * (P.x - P.ϑ * P.γ) + P.a2 - P.a1 * P.ϑ| ≤ r9 * (P.ϑ + P.a2 * P.γ + P.a1 * P.x))
    (hϑ : |P.ϑ| ≤ ϑ9) (hb : |P.b| ≤ b9) (hc : |P.c| ≤ c9) (hμ : |P.μ| ≤ μ9) (hR1 : |P.R1| ≤ R19) (hR2 : |P.R2| ≤ R29) (hX : |P.X| ≤ X9) (hX2 : |P.X2| ≤ X29) (hm2 : |P.m2| ≤ m29)
    (c1 : 2 * ε * ρ9 ≤ k0) (c2 : 8 * ε * g1 ≤ ρ0 * L0) (c3 : 256 * (ρ9 * L1 * P.κ / g0) ^ 2 ≤ ε * k0 * ρ0) (c4 : 256 * (ρ9 * L1 * P.κ / g0) ^ 2 ≤ ε * k0 * N)
    (c5 : 32 * (ε * (ρ9 / k0) * P.κ) ≤ ρ0) (c6 : 256 * (ε * (ρ9 / k0) * P.κ) ^ 2 ≤ ρ0 * N) (c7 : 32 * N ≤ ρ0)
    (d0 : 8 * k9 / (ε * g0 ^ 2) + 8 * ε ^ 2 / (L0 ^ 2 * ρ0) ≤ B1) (dh : 8 / ρ0 + 8 * ε / k0 ≤ h9) (dl : 2 * L1 ^ 2 * (ρ9 / k0) ^ 2 * B1 ≤ l9) (dz : μ9 ^ 2 * (h9 + l9 + 2 * N / P.κ ^ 2) ≤ z9)
    (e1 : B1 * R19 ^ 2 + B1 * X29 ^ 2 + 2 * z9 * b9 ^ 2 ≤ E) (e2 : B1 * R29 ^ 2 + B1 * X9 ^ 2 ≤ E) (es : 2 * z9 * ϑ9 ^ 2 + 2 * B1 * (L1 * c9) ^ 2 + 1 / 2 * m29 ^ 2 * B1 ≤ E)
    (f1 : 4 * (3 + 10 * (r9 ^ 2 + 1)) * E ≤ ε * k0) (f2 : 60 * E ≤ ε * k0) (f3 : 4 * (3 + 10 * (r9 ^ 2 + 1)) * E * (ρ9 / k0) ^ 2 ≤ N) (f4 : 60 * E * (ρ9 / k0) ^ 2 ≤ N)
    (hKv : 0 < P.Kv) (hJ : 0 < P.J) : DcOk P ε N E := by
  have α1p : 0 < P.α1 := by linarith
  have α2p : 0 < P.α2 := by linarith
  have kp : 0 < P.k := by linarith
  have ρp : 0 < P.ρ := by linarith
  have k1e : P.k1 = P.k * P.α1 := rfl
  have k2e : P.k2 = P.k * P.α2 := rfl
  have k1l : k0 ≤ P.k1 := hk.trans (le_mul_of_one_le_right kp.le hα1)
  have k2l : k0 ≤ P.k2 := hk.trans (le_mul_of_one_le_right kp.le hα2)
  have k1u : P.k1 ≤ k9 := (mul_le_mul_of_nonneg_left hα1' kp.le).trans hk'
  have k2u : P.k2 ≤ k9 := (mul_le_mul_of_nonneg_left hα2' kp.le).trans hk'
  have k1p : 0 < P.k1 := by linarith
  have k2p : 0 < P.k2 := by linarith
  have ax : ∀ k, k0 ≤ k → AxisOk k P.g P.L P.ρ P.ρ P.κ ε N := fun k hk =>
    AxisOk.of_bounds hk k0' hg hg' g0' hL hL' L0' ρp hρ' hρ ρ0' hκ hε hN (((mul_le_mul_of_nonneg_left hρ' (by linarith)).trans c1).trans hk) c2 c3 c4 c5 c6 c7
  have B1p : 0 ≤ B1 := by
    have : 0 < k9 := by linarith
    refine le_trans ?_ d0
    positivity
  have le : ∀ k R R9, 0 < k → k ≤ k9 → |R| ≤ R9 → lossE k P.g P.L P.ρ ε R ≤ B1 * R9 ^ 2 := by
    intro k R R9 hk hk9 hR
    refine lossE_le hk g0' L0' ρ0' hε hk9 hg hL hρ hR ?_
    have := mul_le_mul_of_nonneg_right d0 (sq_nonneg R9)
    refine le_trans (le_of_eq ?_) this
    ring
  have le1 : ∀ k, 0 < k → k ≤ k9 → lossE k P.g P.L P.ρ ε 1 ≤ B1 := by
    intro k hk hk9
    have := le k 1 1 hk hk9 (by norm_num)
    rwa [one_pow, mul_one] at this
  have τ1 : (P.ρ / P.k1) ^ 2 ≤ (ρ9 / k0) ^ 2 := by gcongr; linarith
  have τ2 : (P.ρ / P.k2) ^ 2 ≤ (ρ9 / k0) ^ 2 := by gcongr; linarith
  have lh : lossH P.k1 P.ρ ε 1 ≤ h9 := lossH_le (η0 := 1) k0' ρ0' hε k1l hρ (by norm_num) (by simpa using dh)
  have L1nn := lossE_nonneg (ax _ k1l) 1
  have ll : 2 * P.L ^ 2 * (P.ρ / P.k1) ^ 2 * lossE P.k1 P.g P.L P.ρ ε 1 ≤ l9 := by
    refine le_trans ?_ dl
    have := le1 _ k1p k1u
    have : 0 < P.L := by linarith
    gcongr
  have hz : P.Z ε N ≤ z9 := le_trans (dc_Z_le hN hκ hμ lh ll ((lossH_nonneg (ax _ k1l) 1).trans lh) ((by positivity : (0:ℝ) ≤ _).trans ll)) dz
  have z0 : 0 ≤ z9 := by
    refine le_trans ?_ hz
    have := lossH_nonneg (ax _ k1l) 1
    unfold DcPar.Z
    positivity
  have Γle := dc_Γ_le α1p hD hr
  have Γ0 : 0 ≤ P.Γ := by unfold DcPar.Γ; positivity
  have bb : P.b ^ 2 ≤ b9 ^ 2 := by rw [← sq_abs]; gcongr
  have ϑϑ : P.ϑ ^ 2 ≤ ϑ9 ^ 2 := by rw [← sq_abs]; gcongr
  have cc : (P.L * P.c) ^ 2 ≤ (L1 * c9) ^ 2 := by
    have : 0 < P.L := by linarith
    have : 0 < L1 := by linarith
    rw [mul_pow, mul_pow, ← sq_abs P.c]; gcongr
  have mm : P.m2 ^ 2 ≤ m29 ^ 2 := by rw [← sq_abs]; gcongr
  refine ⟨Kp, α1p, α2p, div_pos hQ α2p, ?_, ?_, ax _ k1l, ax _ k2l, hE, ?_, ?_, ?_, ?_, ?_, ?_, ?_, hKv, hJ⟩
  · rw [dc_det_eq α1p.ne']; positivity
  · rw [dc_T_eq α1p.ne']; positivity
  · have := le _ _ _ k1p k1u hR1
    have := le _ _ _ k2p k2u hX2
    have : 2 * P.Z ε N * P.b ^ 2 ≤ 2 * z9 * b9 ^ 2 := by gcongr
    linarith
  · have := le _ _ _ k2p k2u hR2
    have := le _ _ _ k1p k1u hX
    linarith
  · have L2nn := lossE_nonneg (ax _ k2l) 1
    have q1 := le1 _ k1p k1u
    have q2 := le1 _ k2p k2u
    have : 2 * P.Z ε N * P.ϑ ^ 2 ≤ 2 * z9 * ϑ9 ^ 2 := by gcongr
    have : 2 * lossE P.k1 P.g P.L P.ρ ε 1 * (P.L * P.c) ^ 2 ≤ 2 * B1 * (L1 * c9) ^ 2 := by gcongr
    have : 1 / 2 * P.m2 ^ 2 * lossE P.k2 P.g P.L P.ρ ε 1 ≤ 1 / 2 * m29 ^ 2 * B1 := by gcongr
    linarith
  · calc 4 * (3 + P.Γ) * E ≤ 4 * (3 + 10 * (r9 ^ 2 + 1)) * E := by gcongr
      _ ≤ ε * k0 := f1
      _ ≤ ε * P.k1 := by gcongr
  · calc 60 * E ≤ ε * k0 := f2
      _ ≤ ε * P.k2 := by gcongr
  · calc 4 * (3 + P.Γ) * E * (P.ρ / P.k1) ^ 2 ≤ 4 * (3 + 10 * (r9 ^ 2 + 1)) * E * (ρ9 / k0) ^ 2 := by gcongr
      _ ≤ N := f3
  · calc 60 * E * (P.ρ / P.k2) ^ 2 ≤ 60 * E * (ρ9 / k0) ^ 2 := by gcongr
      _ ≤ N := f4
end
end LocStab
end PvDer
