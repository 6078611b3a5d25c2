import Mathlib.Data.Real.Basic
import Mathlib.Tactic.Linarith
import Mathlib.Tactic.Ring
import Mathlib.Tactic.FieldSimp
import Mathlib.Tactic.Positivity
import Mathlib.Tactic.LinearCombination

/-!
# The dissipation inequality of one axis of the current loop

Deviations from an operating point, after a change of coordinates: `r` tracking error, `D` duty cycle, `ξ` controller integrator; `e` current of the same axis, `x` and `y`
current of the other axis, `f` voltage deviation from outside the loop.
-/

namespace PvDer
namespace LocStab

/-- Young's inequality with a condition on the coefficients. -/
theorem young {c A B : ℝ} (x y : ℝ) (hA : 0 < A) (h : c ^ 2 ≤ 4 * A * B) : c * x * y ≤ A * x ^ 2 + B * y ^ 2 := by
  have h1 : 0 ≤ (2 * A * x - c * y) ^ 2 := sq_nonneg _
  have h2 : c ^ 2 * y ^ 2 ≤ 4 * A * B * y ^ 2 := by gcongr
  have h3 : 0 ≤ 4 * A * (A * x ^ 2 + B * y ^ 2 - c * x * y) := by nlinarith
  have h4 : 0 < 4 * A := by positivity
  have := nonneg_of_mul_nonneg_right h3 h4
  linarith

/-- … with the smallest second coefficient. -/
theorem young' {c A : ℝ} (x y : ℝ) (hA : 0 < A) : c * x * y ≤ A * x ^ 2 + c ^ 2 / (4 * A) * y ^ 2 :=
  young x y hA (by rw [mul_div_cancel₀]; positivity)

/-- What the parameters of one axis have to satisfy: loop gain `k`, filter `L`, half the DC voltage `g`, damping `ρ` (of the controller filter) and `ρa` (of this axis), integrator
rate `κ`, weights `ε` and `N` of the energy. -/
structure AxisOk (k g L ρ ρa κ ε N : ℝ) : Prop where
  pk : 0 < k
  pg : 0 < g
  pL : 0 < L
  pρ : 0 < ρ
  pρa : 0 < ρa
  pκ : 0 < κ
  pε : 0 < ε
  pN : 0 < N
  c9 : 2 * ε * ρa ≤ k
  c10 : 8 * ε * g ≤ ρa * L
  c5D : 256 * (ρ * L * κ / g) ^ 2 ≤ ε * k * ρa
  c5ξ : 256 * (ρ * L * κ / g) ^ 2 ≤ ε * k * N
  c13 : 32 * (ε * (ρ / k) * κ) ≤ ρa
  c13ξ : 256 * (ε * (ρ / k) * κ) ^ 2 ≤ ρa * N
  c15 : 32 * N ≤ ρa

/-- The loss coefficients of the coupling. -/
noncomputable def lossE (k g L ρa ε R : ℝ) : ℝ := 8 * k * R ^ 2 / (ε * g ^ 2) + 8 * ε ^ 2 * R ^ 2 / (L ^ 2 * ρa)
/-- see `lossE`. -/
noncomputable def lossH (k ρa ε η : ℝ) : ℝ := 8 * η ^ 2 / ρa + 8 * ε * η ^ 2 / k

theorem axis {k g L ρ ρa κ ε N : ℝ} (h : AxisOk k g L ρ ρa κ ε N) (R X η r D ξ e x y f : ℝ) :
    k / g * r * (-R * e + X * x - L * (ρ / k) * κ * (D - ξ) + f) - ρa * D ^ 2 - η * D * y +
      ε * (-ρa * r * D - k * r ^ 2 - η * r * y + D / L * (g * D - R * e + X * x - L * (ρ / k) * κ * (D - ξ) + f)) + N * ξ * (D - ξ) ≤
    -(1 / 2) * ε * k * r ^ 2 - 1 / 8 * ρa * D ^ 2 - 5 / 8 * N * ξ ^ 2 + lossE k g L ρa ε R * e ^ 2 + lossE k g L ρa ε X * x ^ 2 + lossH k ρa ε η * y ^ 2 + lossE k g L ρa ε 1 * f ^ 2 := by
  obtain ⟨hk, hg, hL, hρ, hρa, hκ, hε, hN, c9, c10, c5D, c5ξ, c13, c13ξ, c15⟩ := h
  have hA : 0 < ε * k / 32 := by positivity
  have hB : 0 < ρa / 32 := by positivity
  have t1 := young' (c := -(k / g * R)) r e hA
  have t2 := young' (c := k / g * X) r x hA
  have t3 := young' (c := k / g) r f hA
  have t4 := young' (c := -(ε * η)) r y hA
  have t5 := young (c := -(ρ * L * κ / g)) (B := ρa / 32) r D hA (by linear_combination (1 / 256) * c5D)
  have t6 := young (c := ρ * L * κ / g) (B := N / 32) r ξ hA (by linear_combination (1 / 256) * c5ξ)
  have t9 := young (c := -(ε * ρa)) (A := ε * k / 4) (B := ρa / 2) r D (by positivity) (by
    have : ε * ρa * (2 * ε * ρa) ≤ ε * ρa * k := by gcongr
    linear_combination (1 / 2) * this)
  have u1 := young' (c := -(ε / L * R)) D e hB
  have u2 := young' (c := ε / L * X) D x hB
  have u3 := young' (c := ε / L) D f hB
  have u4 := young' (c := -η) D y hB
  have u5 : ε * g / L * D ^ 2 ≤ ρa / 8 * D ^ 2 := by
    have : ε * g / L ≤ ρa / 8 := by rw [div_le_iff₀ hL]; linarith
    gcongr
  have u6 : -(ε * (ρ / k) * κ) * D ^ 2 ≤ 0 := by
    have : 0 ≤ ε * (ρ / k) * κ * D ^ 2 := by positivity
    linarith
  have u7 := young (c := ε * (ρ / k) * κ) (B := N / 32) D ξ hB (by linear_combination (1 / 256) * c13ξ)
  have u8 := young (c := N) (B := N / 4) D ξ hB (by linear_combination (1 / 32) * mul_le_mul_of_nonneg_left c15 hN.le)
  have s1 : (-(k / g * R)) ^ 2 / (4 * (ε * k / 32)) + (-(ε / L * R)) ^ 2 / (4 * (ρa / 32)) = lossE k g L ρa ε R := by
    unfold lossE; field_simp; ring
  have s2 : (k / g * X) ^ 2 / (4 * (ε * k / 32)) + (ε / L * X) ^ 2 / (4 * (ρa / 32)) = lossE k g L ρa ε X := by
    unfold lossE; field_simp; ring
  have s3 : (k / g) ^ 2 / (4 * (ε * k / 32)) + (ε / L) ^ 2 / (4 * (ρa / 32)) = lossE k g L ρa ε 1 := by
    unfold lossE; field_simp; ring
  have s4 : (-(ε * η)) ^ 2 / (4 * (ε * k / 32)) + (-η) ^ 2 / (4 * (ρa / 32)) = lossH k ρa ε η := by
    unfold lossH; field_simp; ring
  rw [← s1, ← s2, ← s3, ← s4]
  have id1 : k / g * r * (-R * e + X * x - L * (ρ / k) * κ * (D - ξ) + f) - ρa * D ^ 2 - η * D * y +
      ε * (-ρa * r * D - k * r ^ 2 - η * r * y + D / L * (g * D - R * e + X * x - L * (ρ / k) * κ * (D - ξ) + f)) + N * ξ * (D - ξ) =
      -(k / g * R) * r * e + k / g * X * r * x + k / g * r * f + -(ε * η) * r * y + -(ρ * L * κ / g) * r * D + ρ * L * κ / g * r * ξ + -(ε * ρa) * r * D - ε * k * r ^ 2 - ρa * D ^ 2 +
      (-(ε / L * R) * D * e + ε / L * X * D * x + ε / L * D * f + -η * D * y + ε * g / L * D ^ 2 + -(ε * (ρ / k) * κ) * D ^ 2 + ε * (ρ / k) * κ * D * ξ + N * D * ξ) - N * ξ ^ 2 := by
    field_simp
    ring
  rw [id1]
  have p1 : 0 ≤ ε * k * r ^ 2 := by positivity
  have p2 : 0 ≤ ρa * D ^ 2 := by positivity
  have p3 : 0 ≤ N * ξ ^ 2 := by positivity
  linear_combination t1 + t2 + t3 + t4 + t5 + t6 + t9 + u1 + u2 + u3 + u4 + u5 + u6 + u7 + u8 + 1 / 16 * p1 + 1 / 32 * p2 + 1 / 16 * p3

/-- Energy rate of one axis with its reference state `h`: the linear equations of the axis put into the energy
`½(kL/g)r² + ½D² + εrD + ½(N/κ)ξ² + ½(12E/β)h²`. -/
noncomputable def axisRate (k g L ρ ρa κ ε N E R X η r D ξ h e x y f : ℝ) : ℝ :=
  k / g * r * (g * D - R * e + X * x - L * (ρ / k) * κ * (D - ξ) + f) + D * (-ρa * D - k * r - η * y) +
    ε * (r * (-ρa * D - k * r - η * y) + D / L * (g * D - R * e + X * x - L * (ρ / k) * κ * (D - ξ) + f)) + N * ξ * (D - ξ) - 12 * E * h * e

theorem axisRate_eq {k g L ρ ρa κ ε N E R X η r D ξ h e x y f : ℝ} (hg : g ≠ 0) :
    axisRate k g L ρ ρa κ ε N E R X η r D ξ h e x y f = k / g * r * (-R * e + X * x - L * (ρ / k) * κ * (D - ξ) + f) - ρa * D ^ 2 - η * D * y +
      ε * (-ρa * r * D - k * r ^ 2 - η * r * y + D / L * (g * D - R * e + X * x - L * (ρ / k) * κ * (D - ξ) + f)) + N * ξ * (D - ξ) + E * (-12 * h * e) := by
  have : k / g * r * (g * D) = k * r * D := by
    rw [div_mul_eq_mul_div, div_mul_eq_mul_div, div_eq_iff hg]
    ring
  unfold axisRate
  linear_combination this

theorem e_sq {h r τ ξ : ℝ} : (h + r + τ * ξ) ^ 2 ≤ 3 * (h ^ 2 + r ^ 2 + τ ^ 2 * ξ ^ 2) := by
  nlinarith [sq_nonneg (h - r), sq_nonneg (h - τ * ξ), sq_nonneg (r - τ * ξ)]

/-- Both axes together: the losses of the loops exceed what the coupling and the slow reference states feed in. -/
theorem twoAxes {k1 k2 g L ρ ρ1 κ ε N E R1 R2 X η : ℝ} (a1 : AxisOk k1 g L ρ ρ1 κ ε N) (a2 : AxisOk k2 g L ρ ρ κ ε N)
    (hE1 : lossE k1 g L ρ1 ε R1 + lossE k2 g L ρ ε X ≤ E) (hE2 : lossE k2 g L ρ ε R2 + lossE k1 g L ρ1 ε X + lossH k1 ρ1 ε η ≤ E)
    (s1 : 60 * E ≤ ε * k1) (s2 : 60 * E ≤ ε * k2) (n1 : 60 * E * (ρ / k1) ^ 2 ≤ N) (n2 : 60 * E * (ρ / k2) ^ 2 ≤ N)
    (r1 D1 ξ1 h1 e1 r2 D2 ξ2 h2 e2 f1 f2 : ℝ) (he1 : e1 = h1 + r1 + ρ / k1 * ξ1) (he2 : e2 = h2 + r2 + ρ / k2 * ξ2) :
    axisRate k1 g L ρ ρ1 κ ε N E R1 X η r1 D1 ξ1 h1 e1 e2 e2 f1 + axisRate k2 g L ρ ρ κ ε N E R2 (-X) 0 r2 D2 ξ2 h2 e2 e1 0 f2 ≤
      -(1 / 4 * ε * k1 * r1 ^ 2 + 1 / 8 * ρ1 * D1 ^ 2 + 3 / 8 * N * ξ1 ^ 2 + 3 * E * h1 ^ 2) - (1 / 4 * ε * k2 * r2 ^ 2 + 1 / 8 * ρ * D2 ^ 2 + 3 / 8 * N * ξ2 ^ 2 + 3 * E * h2 ^ 2) +
      lossE k1 g L ρ1 ε 1 * f1 ^ 2 + lossE k2 g L ρ ε 1 * f2 ^ 2 := by
  have g1 := axis a1 R1 X η r1 D1 ξ1 e1 e2 e2 f1
  have g2 := axis a2 R2 (-X) 0 r2 D2 ξ2 e2 e1 0 f2
  have x1 : lossE k2 g L ρ ε (-X) = lossE k2 g L ρ ε X := by unfold lossE; rw [neg_sq]
  rw [x1] at g2
  have hE : 0 ≤ E := by
    refine le_trans ?_ hE1
    have := a1.pk; have := a1.pε; have := a1.pg; have := a1.pL; have := a1.pρa; have := a2.pk; have := a2.pρ
    unfold lossE
    positivity
  have q1 : lossE k1 g L ρ1 ε R1 * e1 ^ 2 + lossE k2 g L ρ ε X * e1 ^ 2 ≤ E * e1 ^ 2 := by
    rw [← add_mul]; gcongr
  have q2 : lossE k2 g L ρ ε R2 * e2 ^ 2 + lossE k1 g L ρ1 ε X * e2 ^ 2 + lossH k1 ρ1 ε η * e2 ^ 2 ≤ E * e2 ^ 2 := by
    rw [← add_mul, ← add_mul]; gcongr
  have w1 : E * e1 ^ 2 ≤ E * (3 * (h1 ^ 2 + r1 ^ 2 + (ρ / k1) ^ 2 * ξ1 ^ 2)) := by
    rw [he1]; exact mul_le_mul_of_nonneg_left e_sq hE
  have w2 : E * e2 ^ 2 ≤ E * (3 * (h2 ^ 2 + r2 ^ 2 + (ρ / k2) ^ 2 * ξ2 ^ 2)) := by
    rw [he2]; exact mul_le_mul_of_nonneg_left e_sq hE
  have v : ∀ h r b ξ : ℝ, -12 * h * (h + r + b * ξ) ≤ -6 * h ^ 2 + 12 * (r ^ 2 + b ^ 2 * ξ ^ 2) := by
    intro h r b ξ
    nlinarith [sq_nonneg (h + r + b * ξ), sq_nonneg (r - b * ξ)]
  have v1 : E * (-12 * h1 * e1) ≤ E * (-6 * h1 ^ 2 + 12 * (r1 ^ 2 + (ρ / k1) ^ 2 * ξ1 ^ 2)) := by
    rw [he1]; exact mul_le_mul_of_nonneg_left (v _ _ _ _) hE
  have v2 : E * (-12 * h2 * e2) ≤ E * (-6 * h2 ^ 2 + 12 * (r2 ^ 2 + (ρ / k2) ^ 2 * ξ2 ^ 2)) := by
    rw [he2]; exact mul_le_mul_of_nonneg_left (v _ _ _ _) hE
  have b1 := mul_le_mul_of_nonneg_right s1 (sq_nonneg r1)
  have b2 := mul_le_mul_of_nonneg_right s2 (sq_nonneg r2)
  have b3 := mul_le_mul_of_nonneg_right n1 (sq_nonneg ξ1)
  have b4 := mul_le_mul_of_nonneg_right n2 (sq_nonneg ξ2)
  rw [axisRate_eq a1.pg.ne', axisRate_eq a2.pg.ne']
  refine le_trans (add_le_add (add_le_add_left g1 _) (add_le_add_left g2 _)) ?_
  generalize lossE k1 g L ρ1 ε R1 = A1 at *
  generalize lossE k1 g L ρ1 ε X = A2 at *
  generalize lossE k2 g L ρ ε X = A3 at *
  generalize lossE k2 g L ρ ε R2 = A4 at *
  generalize lossE k1 g L ρ1 ε 1 = A5 at *
  generalize lossE k2 g L ρ ε 1 = A6 at *
  generalize lossH k1 ρ1 ε η = A7 at *
  generalize ρ / k1 = τ1 at *
  generalize ρ / k2 = τ2 at *
  clear g1 g2 v he1 he2 hE1 hE2 s1 s2 n1 n2 a1 a2 x1
  linear_combination q1 + q2 + w1 + w2 + v1 + v2 + 1 / 4 * b1 + 1 / 4 * b2 + 1 / 4 * b3 + 1 / 4 * b4
end LocStab
end PvDer
