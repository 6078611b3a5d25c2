import Verif.Lemmas.DcLoop
import Verif.Lemmas.Remainder

/-!
# Dissipative linear equations: sums, changes of coordinates, three phases

The deviations of three phases split into their mean in the rotating frame, which behaves like one phase, and two differences, which see neither the outer loops nor the DC link.
-/

namespace PvDer
namespace LocStab

/-- Equations with a positive definite quadratic energy that decreases at a positive definite rate. -/
def Dis {ι : Type} (A : (ι → ℝ) → ι → ℝ) : Prop :=
  ∃ (κ κ' : Type) (_ : Fintype κ) (_ : Fintype κ') (w : κ → ℝ) (ℓ : (ι → ℝ) → κ → ℝ) (m : (ι → ℝ) → κ' → ℝ) (c : ℝ), (∀ j, 0 < w j) ∧ IsLinearMap ℝ ℓ ∧ (∀ z, (∀ j, ℓ z j = 0) → z = 0) ∧
    IsLinearMap ℝ m ∧ (∀ z, (∀ j, m z j = 0) → z = 0) ∧ 0 < c ∧ ∀ z, ∑ j, 2 * w j * ℓ z j * ℓ (A z) j ≤ -c * ∑ j, (m z j) ^ 2

theorem Dis.stable {ι : Type} [Fintype ι] {A : (ι → ℝ) → ι → ℝ} (h : Dis A) (Rm : ι → (ι → ℝ) → ℝ) (hR : ∀ i, O2 (Rm i)) {Q : (ι → ℝ) → Prop} (hQ : Near Q) :
    ∃ δ > 0, ∃ M > 0, ∃ a > 0, ∀ z z' : ℝ → ι → ℝ, (∀ t, 0 ≤ t → ∀ i, HasDerivAt (fun s => z s i) (z' t i) t) →
      (∀ t, 0 ≤ t → Q (z t) → ∀ i, z' t i = A (z t) i + Rm i (z t)) → ‖z 0‖ ≤ δ → ∀ t, 0 ≤ t → ‖z t‖ ≤ M * ‖z 0‖ * Real.exp (-a * t) := by
  obtain ⟨κ, κ', i1, i2, w, ℓ, m, c, hw, hℓ, inj, hm, injm, hc, dis⟩ := h
  exact LocStab.stable w hw ℓ hℓ inj m hm injm A hc dis Rm hR hQ

/-- Change of coordinates. -/
theorem Dis.pull {ι ι' : Type} {A : (ι → ℝ) → ι → ℝ} {A' : (ι' → ℝ) → ι' → ℝ} (h : Dis A') (T : (ι → ℝ) → ι' → ℝ) (hT : IsLinearMap ℝ T) (inj : ∀ z, T z = 0 → z = 0) (e : ∀ z, T (A z) = A' (T z)) : Dis A := by
  obtain ⟨κ, κ', i1, i2, w, ℓ, m, c, hw, hℓ, injℓ, hm, injm, hc, dis⟩ := h
  refine ⟨κ, κ', i1, i2, w, fun z => ℓ (T z), fun z => m (T z), c, hw, ?_, fun z hz => inj z (injℓ _ hz), ?_, fun z hz => inj z (injm _ hz), hc, fun z => ?_⟩
  · exact ⟨fun x y => by rw [hT.map_add, hℓ.map_add], fun r x => by rw [hT.map_smul, hℓ.map_smul]⟩
  · exact ⟨fun x y => by rw [hT.map_add, hm.map_add], fun r x => by rw [hT.map_smul, hm.map_smul]⟩
  · beta_reduce
    rw [e]; exact dis _

/-- Two systems side by side. -/
theorem Dis.sum {ι ι' : Type} {A : (ι → ℝ) → ι → ℝ} {A' : (ι' → ℝ) → ι' → ℝ} (h : Dis A) (h' : Dis A') : Dis (fun z : ι ⊕ ι' → ℝ => Sum.elim (A (fun j => z (.inl j))) (A' (fun j => z (.inr j)))) := by
  obtain ⟨κ, κ', i1, i2, w, ℓ, m, c, hw, hℓ, inj, hm, injm, hc, dis⟩ := h
  obtain ⟨μ, μ', j1, j2, w', ℓ', m', c', hw', hℓ', inj', hm', injm', hc', dis'⟩ := h'
  have lin : ∀ {κ μ : Type} {ℓ : (ι → ℝ) → κ → ℝ} {ℓ' : (ι' → ℝ) → μ → ℝ}, IsLinearMap ℝ ℓ → IsLinearMap ℝ ℓ' → IsLinearMap ℝ (fun z : ι ⊕ ι' → ℝ => Sum.elim (ℓ (fun j => z (.inl j))) (ℓ' (fun j => z (.inr j)))) := by
    intro κ μ ℓ ℓ' h1 h2
    refine ⟨fun x y => ?_, fun r x => ?_⟩
    · funext j
      rcases j with j | j
      · exact congrFun (h1.map_add (fun j => x (.inl j)) (fun j => y (.inl j))) j
      · exact congrFun (h2.map_add (fun j => x (.inr j)) (fun j => y (.inr j))) j
    · funext j
      rcases j with j | j
      · exact congrFun (h1.map_smul r (fun j => x (.inl j))) j
      · exact congrFun (h2.map_smul r (fun j => x (.inr j))) j
  have injs : ∀ {κ μ : Type} {ℓ : (ι → ℝ) → κ → ℝ} {ℓ' : (ι' → ℝ) → μ → ℝ}, (∀ z, (∀ j, ℓ z j = 0) → z = 0) → (∀ z, (∀ j, ℓ' z j = 0) → z = 0) →
      ∀ z : ι ⊕ ι' → ℝ, (∀ j, Sum.elim (ℓ (fun j => z (.inl j))) (ℓ' (fun j => z (.inr j))) j = 0) → z = 0 := by
    intro κ μ ℓ ℓ' h1 h2 z hz
    funext j
    rcases j with j | j
    · exact congrFun (h1 _ (fun k => hz (.inl k))) j
    · exact congrFun (h2 _ (fun k => hz (.inr k))) j
  refine ⟨κ ⊕ μ, κ' ⊕ μ', inferInstance, inferInstance, Sum.elim w w', _, _, min c c', fun j => ?_, lin hℓ hℓ', injs inj inj', lin hm hm', injs injm injm', lt_min hc hc', fun z => ?_⟩
  · rcases j with j | j
    · exact hw j
    · exact hw' j
  · rw [Fintype.sum_sum_type, Fintype.sum_sum_type]
    have d1 := dis (fun j => z (.inl j))
    have d2 := dis' (fun j => z (.inr j))
    have s1 : 0 ≤ ∑ j, (m (fun j => z (.inl j)) j) ^ 2 := Finset.sum_nonneg (fun j _ => sq_nonneg _)
    have s2 : 0 ≤ ∑ j, (m' (fun j => z (.inr j)) j) ^ 2 := Finset.sum_nonneg (fun j _ => sq_nonneg _)
    simp only [Sum.elim_inl, Sum.elim_inr]
    have q1 := mul_le_mul_of_nonneg_right (min_le_left c c') s1
    have q2 := mul_le_mul_of_nonneg_right (min_le_right c c') s2
    linarith

/-- The states of one phase. -/
inductive Ph
  | iR | iI | xR | xI | uR | uI
  deriving DecidableEq

instance : Fintype Ph := ⟨{.iR, .iI, .xR, .xI, .uR, .uI}, fun x => by cases x <;> simp⟩

/-- Parameters of the current loop of one phase. -/
structure PhPar where
  R : ℝ
  L : ℝ
  g : ℝ
  w0 : ℝ
  wb : ℝ
  i : ℝ
  M1 : ℝ
  M2 : ℝ
  Kp : ℝ
  Ki : ℝ
  wp : ℝ

namespace PhPar
variable (P : PhPar)

/-- Linearised equations of a phase whose operating point is turned by the angle with cosine `c` and sine `s`: `V` is the deviation of the DC voltage, `δ` of the frequency, `hR`, `hI` of the reference. -/
noncomputable def lin (c s V δ hR hI : ℝ) (q : Ph → ℝ) : Ph → ℝ
  | .iR => (-P.R * q .iR + P.g * (P.Kp * q .uR + q .xR) + 1 / 2 * (P.M1 * c - P.M2 * s) * V) / P.L + P.w0 * q .iI + P.i * s / P.wb * δ
  | .iI => (-P.R * q .iI + P.g * (P.Kp * q .uI + q .xI) + 1 / 2 * (P.M1 * s + P.M2 * c) * V) / P.L - P.w0 * q .iR - P.i * c / P.wb * δ
  | .xR => P.Ki * q .uR
  | .xI => P.Ki * q .uI
  | .uR => P.wp * (-q .uR + (hR * c - hI * s) - q .iR)
  | .uI => P.wp * (-q .uI + (hR * s + hI * c) - q .iI)

/-- Turning back. -/
def rot (c s : ℝ) (q : Ph → ℝ) : Ph → ℝ
  | .iR => c * q .iR + s * q .iI
  | .iI => c * q .iI - s * q .iR
  | .xR => c * q .xR + s * q .xI
  | .xI => c * q .xI - s * q .xR
  | .uR => c * q .uR + s * q .uI
  | .uI => c * q .uI - s * q .uR

theorem rot_lin {c s : ℝ} (h : c ^ 2 + s ^ 2 = 1) (V δ hR hI : ℝ) (q : Ph → ℝ) (j : Ph) : rot c s (P.lin c s V δ hR hI q) j = P.lin 1 0 V δ hR hI (rot c s q) j := by
  cases j <;> simp only [rot, lin]
  · linear_combination (1 / 2 * P.M1 * V / P.L) * h
  · linear_combination (1 / 2 * P.M2 * V / P.L - P.i / P.wb * δ) * h
  · ring
  · ring
  · linear_combination (P.wp * hR) * h
  · linear_combination (P.wp * hI) * h

theorem rot_zero {c s : ℝ} (h : c ^ 2 + s ^ 2 = 1) {q : Ph → ℝ} (hq : rot c s q = 0) : q = 0 := by
  have e := fun j => congrFun hq j
  have a : ∀ x y : ℝ, c * x + s * y = 0 → c * y - s * x = 0 → x = 0 ∧ y = 0 := fun x y h1 h2 =>
    ⟨by linear_combination c * h1 - s * h2 - x * h, by linear_combination s * h1 + c * h2 - y * h⟩
  obtain ⟨i1, i2⟩ := a _ _ (e .iR) (e .iI)
  obtain ⟨x1, x2⟩ := a _ _ (e .xR) (e .xI)
  obtain ⟨u1, u2⟩ := a _ _ (e .uR) (e .uI)
  funext j
  cases j <;> assumption

theorem rot_isLin (c s : ℝ) : IsLinearMap ℝ (rot c s) := by
  constructor
  · intro x y
    funext j
    cases j <;> simp only [rot, Pi.add_apply] <;> ring
  · intro r x
    funext j
    cases j <;> simp only [rot, Pi.smul_apply, smul_eq_mul] <;> ring

theorem lin_sub (V δ hR hI : ℝ) (q q' : Ph → ℝ) (j : Ph) : P.lin 1 0 V δ hR hI q j - P.lin 1 0 V δ hR hI q' j = P.lin 1 0 0 0 0 0 (fun j => q j - q' j) j := by
  cases j <;> simp only [lin] <;> ring

theorem lin_mean (V δ hR hI : ℝ) (q q' q'' : Ph → ℝ) (j : Ph) :
    (P.lin 1 0 V δ hR hI q j + P.lin 1 0 V δ hR hI q' j + P.lin 1 0 V δ hR hI q'' j) / 3 = P.lin 1 0 V δ hR hI (fun j => (q j + q' j + q'' j) / 3) j := by
  cases j <;> simp only [lin] <;> ring

noncomputable def κ : ℝ := P.Ki / P.Kp
noncomputable def ρ : ℝ := P.wp - P.κ
noncomputable def k : ℝ := P.Kp * P.wp
end PhPar

/-- Certificate for the differences of the phases. -/
structure PhOk (P : PhPar) (ε N E : ℝ) : Prop where
  Kp : 0 < P.Kp
  ax : AxisOk P.k P.g P.L P.ρ P.ρ P.κ ε N
  pE : 0 < E
  E1 : lossE P.k P.g P.L P.ρ ε P.R + lossE P.k P.g P.L P.ρ ε (P.L * P.w0) ≤ E
  s : 60 * E ≤ ε * P.k
  n : 60 * E * (P.ρ / P.k) ^ 2 ≤ N

theorem ph_dis {P : PhPar} {ε N E : ℝ} (h : PhOk P ε N E) : Dis (P.lin 1 0 0 0 0 0) := by
  have hk := h.ax.pk
  have hL := h.ax.pL
  have hg := h.ax.pg
  have hκ := h.ax.pκ
  have hρ := h.ax.pρ
  have hε := h.ax.pε
  have hN := h.ax.pN
  have hKp := h.Kp
  have eKi : P.Ki = P.κ * P.Kp := by unfold PhPar.κ; field_simp
  have ewp : P.wp = P.k / P.Kp := by unfold PhPar.k; field_simp
  have eρ : P.ρ = P.wp - P.κ := rfl
  refine ⟨Fin 4 ⊕ Fin 4, Fin 3 ⊕ Fin 3, inferInstance, inferInstance, Sum.elim (axisWeights P.k P.g P.L P.κ 1 ε N 1) (axisWeights P.k P.g P.L P.κ 1 ε N 1),
    fun q => Sum.elim (axisForms ε (q .iR - P.ρ / P.k * q .xR) (P.Kp * q .uR + q .xR) (q .xR) 0) (axisForms ε (q .iI - P.ρ / P.k * q .xI) (P.Kp * q .uI + q .xI) (q .xI) 0),
    fun q => Sum.elim ![q .iR - P.ρ / P.k * q .xR, P.Kp * q .uR + q .xR, q .xR] ![q .iI - P.ρ / P.k * q .xI, P.Kp * q .uI + q .xI, q .xI],
    min (1 / 4 * ε * P.k) (min (1 / 8 * P.ρ) (3 / 8 * N)), ?_, ?_, ?_, ?_, ?_, by positivity, ?_⟩
  · intro j
    rcases j with j | j
    · exact axisWeights_pos h.ax one_pos one_pos j
    · exact axisWeights_pos h.ax one_pos one_pos j
  · constructor
    · intro x y
      funext j
      rcases j with j | j <;> fin_cases j <;> simp [axisForms] <;> ring
    · intro r x
      funext j
      rcases j with j | j <;> fin_cases j <;> simp [axisForms] <;> ring
  · intro q hq
    have a0 : q .iR - P.ρ / P.k * q .xR = 0 := hq (.inl 1)
    have a1 : P.Kp * q .uR + q .xR + ε * (q .iR - P.ρ / P.k * q .xR) = 0 := hq (.inl 0)
    have a2 : q .xR = 0 := hq (.inl 2)
    have b0 : q .iI - P.ρ / P.k * q .xI = 0 := hq (.inr 1)
    have b1 : P.Kp * q .uI + q .xI + ε * (q .iI - P.ρ / P.k * q .xI) = 0 := hq (.inr 0)
    have b2 : q .xI = 0 := hq (.inr 2)
    rw [a0, a2, mul_zero, add_zero, add_zero] at a1
    rw [b0, b2, mul_zero, add_zero, add_zero] at b1
    rw [a2, mul_zero, sub_zero] at a0
    rw [b2, mul_zero, sub_zero] at b0
    have a3 := (mul_eq_zero.1 a1).resolve_left hKp.ne'
    have b3 := (mul_eq_zero.1 b1).resolve_left hKp.ne'
    funext j
    cases j <;> assumption
  · constructor
    · intro x y
      funext j
      rcases j with j | j <;> fin_cases j <;> simp <;> ring
    · intro r x
      funext j
      rcases j with j | j <;> fin_cases j <;> simp <;> ring
  · intro q hq
    have a0 : q .iR - P.ρ / P.k * q .xR = 0 := hq (.inl 0)
    have a1 : P.Kp * q .uR + q .xR = 0 := hq (.inl 1)
    have a2 : q .xR = 0 := hq (.inl 2)
    have b0 : q .iI - P.ρ / P.k * q .xI = 0 := hq (.inr 0)
    have b1 : P.Kp * q .uI + q .xI = 0 := hq (.inr 1)
    have b2 : q .xI = 0 := hq (.inr 2)
    rw [a2, add_zero] at a1
    rw [b2, add_zero] at b1
    rw [a2, mul_zero, sub_zero] at a0
    rw [b2, mul_zero, sub_zero] at b0
    have a3 := (mul_eq_zero.1 a1).resolve_left hKp.ne'
    have b3 := (mul_eq_zero.1 b1).resolve_left hKp.ne'
    funext j
    cases j <;> assumption
  · intro q
    have row : ∀ e x u ξ X : ℝ, (-P.R * e + P.g * (P.Kp * u + ξ)) / P.L + X / P.L * x - P.ρ / P.k * (P.Ki * u) =
        (P.g * (P.Kp * u + ξ) - P.R * e + X * x - P.L * (P.ρ / P.k) * P.κ * (P.Kp * u + ξ - ξ) + 0) / P.L := by
      intro e x u ξ X
      rw [eKi]
      field_simp
      ring
    have rowD : ∀ e u ξ : ℝ, P.Kp * (P.wp * (-u + 0 - e)) + P.Ki * u = -P.ρ * (P.Kp * u + ξ) - P.k * (e - P.ρ / P.k * ξ) - 0 * 0 := by
      intro e u ξ
      have e2 : P.k * (P.ρ / P.k) = P.ρ := by field_simp
      have e3 : P.k = P.Kp * P.wp := rfl
      linear_combination -ξ * e2 + u * eKi + P.Kp * u * eρ + e * e3
    have i1 : P.lin 1 0 0 0 0 0 q .iR - P.ρ / P.k * P.lin 1 0 0 0 0 0 q .xR =
        (P.g * (P.Kp * q .uR + q .xR) - P.R * q .iR + P.L * P.w0 * q .iI - P.L * (P.ρ / P.k) * P.κ * (P.Kp * q .uR + q .xR - q .xR) + 0) / P.L := by
      rw [← row]
      simp only [PhPar.lin]
      field_simp
      ring
    have i2 : P.lin 1 0 0 0 0 0 q .iI - P.ρ / P.k * P.lin 1 0 0 0 0 0 q .xI =
        (P.g * (P.Kp * q .uI + q .xI) - P.R * q .iI + -(P.L * P.w0) * q .iR - P.L * (P.ρ / P.k) * P.κ * (P.Kp * q .uI + q .xI - q .xI) + 0) / P.L := by
      rw [← row]
      simp only [PhPar.lin]
      field_simp
      ring
    have d1 : P.Kp * P.lin 1 0 0 0 0 0 q .uR + P.lin 1 0 0 0 0 0 q .xR = -P.ρ * (P.Kp * q .uR + q .xR) - P.k * (q .iR - P.ρ / P.k * q .xR) - 0 * 0 := by
      rw [← rowD]
      simp only [PhPar.lin]
      ring
    have d2 : P.Kp * P.lin 1 0 0 0 0 0 q .uI + P.lin 1 0 0 0 0 0 q .xI = -P.ρ * (P.Kp * q .uI + q .xI) - P.k * (q .iI - P.ρ / P.k * q .xI) - 0 * 0 := by
      rw [← rowD]
      simp only [PhPar.lin]
      ring
    have x1 : P.lin 1 0 0 0 0 0 q .xR = P.κ * (P.Kp * q .uR + q .xR - q .xR) + 0 := by
      simp only [PhPar.lin]
      rw [eKi]
      ring
    have x2 : P.lin 1 0 0 0 0 0 q .xI = P.κ * (P.Kp * q .uI + q .xI - q .xI) + 0 := by
      simp only [PhPar.lin]
      rw [eKi]
      ring
    rw [Fintype.sum_sum_type, Fintype.sum_sum_type]
    simp only [Sum.elim_inl, Sum.elim_inr]
    rw [i1, i2, d1, d2, x1, x2, axisForms_rate' hL.ne' hκ.ne', axisForms_rate' hL.ne' hκ.ne', Fin.sum_univ_three, Fin.sum_univ_three]
    simp only [Matrix.cons_val]
    have xx : lossE P.k P.g P.L P.ρ ε (-(P.L * P.w0)) = lossE P.k P.g P.L P.ρ ε (P.L * P.w0) := by unfold lossE; rw [neg_sq]
    have z0 : lossH P.k P.ρ ε 0 = 0 := by unfold lossH; simp
    have two := twoAxes (E := E) (η := 0) h.ax h.ax h.E1 (by rw [z0, add_zero]; exact h.E1) h.s h.s h.n h.n (q .iR - P.ρ / P.k * q .xR) (P.Kp * q .uR + q .xR) (q .xR) 0 (q .iR)
      (q .iI - P.ρ / P.k * q .xI) (P.Kp * q .uI + q .xI) (q .xI) 0 (q .iI) 0 0 (by ring) (by ring)
    have c0 : ∀ E' R X η r D ξ e x y f : ℝ, axisRate P.k P.g P.L P.ρ P.ρ P.κ ε N E' R X η r D ξ 0 e x y f = axisRate P.k P.g P.L P.ρ P.ρ P.κ ε N 0 R X η r D ξ 0 e x y f := by
      intro E' R X η r D ξ e x y f
      unfold axisRate
      ring
    have c1 : ∀ R X r D ξ e x y f : ℝ, axisRate P.k P.g P.L P.ρ P.ρ P.κ ε N 0 R X 0 r D ξ 0 e x y f = axisRate P.k P.g P.L P.ρ P.ρ P.κ ε N 0 R X 0 r D ξ 0 e x 0 f := by
      intro R X r D ξ e x y f
      unfold axisRate
      ring
    rw [c0 E, c0 E, c1] at two
    have m1 : min (1 / 4 * ε * P.k) (min (1 / 8 * P.ρ) (3 / 8 * N)) ≤ 1 / 4 * ε * P.k := min_le_left _ _
    have m2 : min (1 / 4 * ε * P.k) (min (1 / 8 * P.ρ) (3 / 8 * N)) ≤ 1 / 8 * P.ρ := (min_le_right _ _).trans (min_le_left _ _)
    have m3 : min (1 / 4 * ε * P.k) (min (1 / 8 * P.ρ) (3 / 8 * N)) ≤ 3 / 8 * N := (min_le_right _ _).trans (min_le_right _ _)
    generalize min (1 / 4 * ε * P.k) (min (1 / 8 * P.ρ) (3 / 8 * N)) = μ at *
    generalize q .iR - P.ρ / P.k * q .xR = r1 at *
    generalize q .iI - P.ρ / P.k * q .xI = r2 at *
    generalize P.Kp * q .uR + q .xR = D1 at *
    generalize P.Kp * q .uI + q .xI = D2 at *
    have t1 := mul_le_mul_of_nonneg_right m1 (sq_nonneg r1)
    have t2 := mul_le_mul_of_nonneg_right m1 (sq_nonneg r2)
    have t3 := mul_le_mul_of_nonneg_right m2 (sq_nonneg D1)
    have t4 := mul_le_mul_of_nonneg_right m2 (sq_nonneg D2)
    have t5 := mul_le_mul_of_nonneg_right m3 (sq_nonneg (q .xR))
    have t6 := mul_le_mul_of_nonneg_right m3 (sq_nonneg (q .xI))
    linear_combination two + t1 + t2 + t3 + t4 + t5 + t6

end LocStab
end PvDer
