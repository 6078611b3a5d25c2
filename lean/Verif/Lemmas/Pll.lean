import Mathlib.Analysis.Calculus.MeanValue
import Mathlib.Analysis.SpecialFunctions.Trigonometric.Deriv
import Mathlib.Analysis.SpecialFunctions.Trigonometric.Bounds
import Mathlib.Topology.Order.MonotoneConvergence
import Mathlib.Tactic.Linarith
import Mathlib.Tactic.Ring
import Mathlib.Tactic.FieldSimp
import Mathlib.Tactic.Positivity
import Mathlib.Tactic.LinearCombination

/-!
# Real analysis for the phase-locked loop: an energy function, and a version of Barbalat's lemma
-/

namespace PvDer
namespace Pll
open Filter Topology Set

/-- A function with bounded derivative on `[0, ∞)` is Lipschitz there. -/
theorem lipschitz_of_deriv {f h : ℝ → ℝ} {D : ℝ} (hd : ∀ t, 0 ≤ t → HasDerivAt f (h t) t) (hb : ∀ t, 0 ≤ t → |h t| ≤ D) {s t : ℝ} (hs : 0 ≤ s) (ht : 0 ≤ t) :
    |f s - f t| ≤ D * |s - t| := by
  have := Convex.norm_image_sub_le_of_norm_hasDerivWithin_le (f := f) (f' := h) (s := Ici (0 : ℝ)) (C := D)
    (fun x hx => (hd x hx).hasDerivWithinAt) (fun x hx => by simpa using hb x hx) (convex_Ici 0) (mem_Ici.2 ht) (mem_Ici.2 hs)
  simpa using this

/-- Barbalat: if `f` converges and its derivative is Lipschitz on `[0, ∞)`, the derivative tends to zero. -/
theorem barbalat {f h : ℝ → ℝ} {l M : ℝ} (hd : ∀ t, 0 ≤ t → HasDerivAt f (h t) t) (hf : Tendsto f atTop (𝓝 l)) (hM : 0 ≤ M)
    (hL : ∀ s t, 0 ≤ s → 0 ≤ t → |h s - h t| ≤ M * |s - t|) : Tendsto h atTop (𝓝 0) := by
  rw [Metric.tendsto_atTop]
  intro ε hε
  set δ := ε / (2 * (M + 1)) with hδ
  have hδ0 : 0 < δ := by positivity
  have hMδ : M * δ ≤ ε / 2 := by
    have h1 : (M + 1) * δ = ε / 2 := by rw [hδ]; field_simp
    nlinarith
  rw [Metric.tendsto_atTop] at hf
  obtain ⟨N, hN⟩ := hf (δ * ε / 4) (by positivity)
  refine ⟨max N 0, fun t ht => ?_⟩
  have ht0 : 0 ≤ t := (le_max_right _ _).trans ht
  have htN : N ≤ t := (le_max_left _ _).trans ht
  have hlt : t < t + δ := by linarith
  obtain ⟨c, hc, hce⟩ := exists_hasDerivAt_eq_slope f h hlt (fun x hx => (hd x (ht0.trans hx.1)).continuousAt.continuousWithinAt)
    (fun x hx => hd x (ht0.trans hx.1.le))
  have h1 := hN t htN
  have h2 := hN (t + δ) (by linarith)
  rw [Real.dist_eq] at h1 h2
  have h3 : |f (t + δ) - f t| < δ * ε / 2 := by
    have : f (t + δ) - f t = (f (t + δ) - l) - (f t - l) := by ring
    rw [this]
    calc _ ≤ |f (t + δ) - l| + |f t - l| := abs_sub _ _
      _ < δ * ε / 4 + δ * ε / 4 := add_lt_add h2 h1
      _ = δ * ε / 2 := by ring
  have h4 : |h c| < ε / 2 := by
    rw [hce, add_sub_cancel_left, abs_div, abs_of_pos hδ0, div_lt_iff₀ hδ0]
    linarith
  have h5 : |h t - h c| ≤ ε / 2 := by
    refine (hL t c ht0 (ht0.trans hc.1.le)).trans (le_trans ?_ hMδ)
    refine mul_le_mul_of_nonneg_left ?_ hM
    rw [abs_sub_comm, abs_of_pos (by linarith [hc.1])]; linarith [hc.2]
  rw [Real.dist_eq, sub_zero]
  have : h t = (h t - h c) + h c := by ring
  rw [this]
  exact (abs_add_le _ _).trans_lt (by linarith)

/-- Energy of the loop with phase error `a` and integrator error `z`: it vanishes exactly at lock. -/
noncomputable def energy (V Ki a z : ℝ) : ℝ := V * (1 - Real.cos a) + z ^ 2 / (2 * Ki)

/-- The loop: phase error `θ`, integrator error `z`. -/
structure Loop (V Kp Ki : ℝ) (θ z : ℝ → ℝ) : Prop where
  hV : 0 < V
  hKp : 0 < Kp
  hKi : 0 < Ki
  dθ : ∀ t, 0 ≤ t → HasDerivAt θ (-(Kp * (V * Real.sin (θ t))) - z t) t
  dz : ∀ t, 0 ≤ t → HasDerivAt z (Ki * (V * Real.sin (θ t))) t

variable {V Kp Ki : ℝ} {θ z : ℝ → ℝ}

theorem Loop.denergy (L : Loop V Kp Ki θ z) {t : ℝ} (ht : 0 ≤ t) :
    HasDerivAt (fun s => energy V Ki (θ s) (z s)) (-(Kp * (V * Real.sin (θ t)) ^ 2)) t := by
  have hK := L.hKi.ne'
  have h1 := ((L.dθ t ht).cos.const_sub 1).const_mul V
  have h2 := ((L.dz t ht).pow 2).div_const (2 * Ki)
  refine (h1.add h2).congr_deriv ?_
  field_simp
  simp
  ring

theorem energy_nonneg (hV : 0 < V) (hK : 0 < Ki) (a b : ℝ) : 0 ≤ energy V Ki a b := by
  unfold energy
  have := Real.cos_le_one a
  have : 0 ≤ V * (1 - Real.cos a) := mul_nonneg hV.le (by linarith)
  positivity

theorem Loop.anti (L : Loop V Kp Ki θ z) : AntitoneOn (fun s => energy V Ki (θ s) (z s)) (Ici 0) := by
  refine antitoneOn_of_deriv_nonpos (convex_Ici 0) (fun t ht => (L.denergy ht).continuousAt.continuousWithinAt)
    (fun t ht => (L.denergy (interior_subset ht)).differentiableAt.differentiableWithinAt) (fun t ht => ?_)
  rw [(L.denergy (interior_subset ht)).deriv]
  have := L.hKp
  have : 0 ≤ Kp * (V * Real.sin (θ t)) ^ 2 := by positivity
  linarith

theorem Loop.le (L : Loop V Kp Ki θ z) {t : ℝ} (ht : 0 ≤ t) : energy V Ki (θ t) (z t) ≤ energy V Ki (θ 0) (z 0) :=
  L.anti (mem_Ici.2 le_rfl) (mem_Ici.2 ht) ht

theorem Loop.z_sq (L : Loop V Kp Ki θ z) {t : ℝ} (ht : 0 ≤ t) : z t ^ 2 ≤ 2 * Ki * energy V Ki (θ 0) (z 0) := by
  have h := L.le ht
  have hV := L.hV
  have hK := L.hKi
  have h1 : z t ^ 2 / (2 * Ki) ≤ energy V Ki (θ 0) (z 0) := by
    refine le_trans ?_ h
    unfold energy
    have := Real.cos_le_one (θ t)
    have : 0 ≤ V * (1 - Real.cos (θ t)) := mul_nonneg hV.le (by linarith)
    linarith
  rw [div_le_iff₀ (by positivity)] at h1
  linarith

/-- Bound of the integrator error. -/
noncomputable def zMax (Ki E : ℝ) : ℝ := Real.sqrt (2 * Ki * E)

theorem Loop.z_abs (L : Loop V Kp Ki θ z) {t : ℝ} (ht : 0 ≤ t) : |z t| ≤ zMax Ki (energy V Ki (θ 0) (z 0)) :=
  Real.abs_le_sqrt (L.z_sq ht)

theorem Loop.dθ_abs (L : Loop V Kp Ki θ z) {t : ℝ} (ht : 0 ≤ t) :
    |-(Kp * (V * Real.sin (θ t))) - z t| ≤ Kp * V + zMax Ki (energy V Ki (θ 0) (z 0)) := by
  have hV := L.hV; have hK := L.hKp
  refine (abs_sub _ _).trans (add_le_add ?_ (L.z_abs ht))
  rw [abs_neg, ← mul_assoc, abs_mul, abs_of_pos (mul_pos hK hV)]
  exact mul_le_of_le_one_right (by positivity) (Real.abs_sin_le_one _)

theorem Loop.θ_lip (L : Loop V Kp Ki θ z) {s t : ℝ} (hs : 0 ≤ s) (ht : 0 ≤ t) :
    |θ s - θ t| ≤ (Kp * V + zMax Ki (energy V Ki (θ 0) (z 0))) * |s - t| :=
  lipschitz_of_deriv (fun t ht => L.dθ t ht) (fun _ h => L.dθ_abs h) hs ht

theorem sin_lip (a b : ℝ) : |Real.sin a - Real.sin b| ≤ |a - b| := by
  have h := Convex.norm_image_sub_le_of_norm_hasDerivWithin_le (f := Real.sin) (f' := Real.cos) (s := univ) (C := 1)
    (fun x _ => (Real.hasDerivAt_sin x).hasDerivWithinAt) (fun x _ => by simpa using Real.abs_cos_le_one x) convex_univ (mem_univ b) (mem_univ a)
  simpa using h

theorem cos_lip (a b : ℝ) : |Real.cos a - Real.cos b| ≤ |a - b| := by
  have h := Convex.norm_image_sub_le_of_norm_hasDerivWithin_le (f := Real.cos) (f' := fun x => -Real.sin x) (s := univ) (C := 1)
    (fun x _ => (Real.hasDerivAt_cos x).hasDerivWithinAt) (fun x _ => by simpa using Real.abs_sin_le_one x) convex_univ (mem_univ b) (mem_univ a)
  simpa using h

theorem zMax_nonneg (Ki E : ℝ) : 0 ≤ zMax Ki E := Real.sqrt_nonneg _

theorem Loop.energy_tendsto (L : Loop V Kp Ki θ z) : ∃ l, Tendsto (fun s => energy V Ki (θ s) (z s)) atTop (𝓝 l) := by
  have ha : Antitone (fun s => energy V Ki (θ (max s 0)) (z (max s 0))) := by
    intro a b hab
    exact L.anti (mem_Ici.2 (le_max_right _ _)) (mem_Ici.2 (le_max_right _ _)) (max_le_max_right 0 hab)
  have hb : BddBelow (range (fun s => energy V Ki (θ (max s 0)) (z (max s 0)))) := by
    refine ⟨0, ?_⟩
    rintro _ ⟨s, rfl⟩
    exact energy_nonneg L.hV L.hKi _ _
  refine ⟨_, (tendsto_atTop_ciInf ha hb).congr' ?_⟩
  filter_upwards [eventually_ge_atTop (0 : ℝ)] with s hs
  rw [max_eq_left hs]

/-- The detector output tends to zero, from every initial state. -/
theorem Loop.sin_tendsto (L : Loop V Kp Ki θ z) : Tendsto (fun t => Real.sin (θ t)) atTop (𝓝 0) := by
  obtain ⟨l, hl⟩ := L.energy_tendsto
  set D := Kp * V + zMax Ki (energy V Ki (θ 0) (z 0)) with hD
  have hV := L.hV; have hK := L.hKp
  have hD0 : 0 ≤ D := by have := zMax_nonneg Ki (energy V Ki (θ 0) (z 0)); positivity
  have h := barbalat (M := Kp * V ^ 2 * (2 * D)) (fun t ht => L.denergy ht) hl (by positivity) (by
    intro s t hs ht
    have e : -(Kp * (V * Real.sin (θ s)) ^ 2) - -(Kp * (V * Real.sin (θ t)) ^ 2) =
        Kp * V ^ 2 * ((Real.sin (θ t) + Real.sin (θ s)) * (Real.sin (θ t) - Real.sin (θ s))) := by ring
    rw [e, abs_mul, abs_of_pos (by positivity), mul_assoc (Kp * V ^ 2)]
    refine mul_le_mul_of_nonneg_left ?_ (by positivity)
    rw [abs_mul, mul_assoc]
    refine mul_le_mul ?_ ?_ (abs_nonneg _) (by norm_num)
    · refine (abs_add_le _ _).trans ?_
      have := Real.abs_sin_le_one (θ t); have := Real.abs_sin_le_one (θ s); linarith
    · refine (sin_lip _ _).trans ((L.θ_lip ht hs).trans ?_)
      rw [abs_sub_comm t s])
  have h2 : Tendsto (fun t => Real.sin (θ t) ^ 2) atTop (𝓝 0) := by
    have := h.const_mul (-(1 / (Kp * V ^ 2)))
    rw [mul_zero] at this
    refine this.congr (fun t => ?_)
    field_simp
  have h3 := (Real.continuous_sqrt.tendsto 0).comp h2
  rw [Real.sqrt_zero] at h3
  refine (tendsto_zero_iff_abs_tendsto_zero _).2 (h3.congr (fun t => ?_))
  simp [Real.sqrt_sq_eq_abs]

/-- The integrator error tends to zero, from every initial state. -/
theorem Loop.z_tendsto (L : Loop V Kp Ki θ z) : Tendsto z atTop (𝓝 0) := by
  have hs := L.sin_tendsto
  set E0 := energy V Ki (θ 0) (z 0) with hE0
  set D := Kp * V + zMax Ki E0 with hD
  have hV := L.hV; have hK := L.hKp; have hKi := L.hKi
  have hD0 : 0 ≤ D := by have := zMax_nonneg Ki E0; positivity
  set M := D * D + (Kp * V * D + Ki * V) with hM
  have hsin : ∀ s t, 0 ≤ s → 0 ≤ t → |Real.sin (θ s) - Real.sin (θ t)| ≤ D * |s - t| := fun s t h1 h2 => (sin_lip _ _).trans (L.θ_lip h1 h2)
  have hzl : ∀ s t, 0 ≤ s → 0 ≤ t → |z s - z t| ≤ Ki * V * |s - t| := fun s t h1 h2 =>
    lipschitz_of_deriv (fun t ht => L.dz t ht) (fun t _ => by
      rw [← mul_assoc, abs_mul, abs_of_pos (mul_pos hKi hV)]
      exact mul_le_of_le_one_right (by positivity) (Real.abs_sin_le_one _)) h1 h2
  have h := barbalat (f := fun t => Real.sin (θ t)) (h := fun t => Real.cos (θ t) * (-(Kp * (V * Real.sin (θ t))) - z t)) (M := M)
    (fun t ht => (L.dθ t ht).sin) hs (by positivity) (by
      intro s t h1 h2
      set a := -(Kp * (V * Real.sin (θ s))) - z s with ha
      set b := -(Kp * (V * Real.sin (θ t))) - z t with hb
      have hab : |a - b| ≤ (Kp * V * D + Ki * V) * |s - t| := by
        have e : a - b = Kp * V * (Real.sin (θ t) - Real.sin (θ s)) + (z t - z s) := by rw [ha, hb]; ring
        rw [e]
        refine (abs_add_le _ _).trans ?_
        rw [abs_mul, abs_of_pos (mul_pos hK hV), add_mul, mul_assoc (Kp * V)]
        refine add_le_add (mul_le_mul_of_nonneg_left ?_ (by positivity)) ?_
        · rw [abs_sub_comm]; exact hsin s t h1 h2
        · rw [abs_sub_comm]; exact hzl s t h1 h2
      have hcab : |Real.cos (θ s) - Real.cos (θ t)| ≤ D * |s - t| := (cos_lip _ _).trans (L.θ_lip h1 h2)
      have e : Real.cos (θ s) * a - Real.cos (θ t) * b = (Real.cos (θ s) - Real.cos (θ t)) * a + Real.cos (θ t) * (a - b) := by ring
      rw [e, hM, add_mul]
      refine (abs_add_le _ _).trans (add_le_add ?_ ?_)
      · rw [abs_mul]
        calc _ ≤ (D * |s - t|) * D := mul_le_mul hcab (L.dθ_abs h1) (abs_nonneg _) (by positivity)
          _ = _ := by ring
      · rw [abs_mul]
        calc _ ≤ 1 * |a - b| := mul_le_mul_of_nonneg_right (Real.abs_cos_le_one _) (abs_nonneg _)
          _ ≤ _ := by rw [one_mul]; exact hab)
  -- cos² → 1, hence θ' → 0
  have h2 : Tendsto (fun t => Real.cos (θ t) * (Real.cos (θ t) * (-(Kp * (V * Real.sin (θ t))) - z t)) +
      Real.sin (θ t) * (Real.sin (θ t) * (-(Kp * (V * Real.sin (θ t))) - z t))) atTop (𝓝 (0 + 0)) := by
    refine Tendsto.add ?_ ?_
    · refine squeeze_zero_norm (a := fun t => |Real.cos (θ t) * (-(Kp * (V * Real.sin (θ t))) - z t)|) (fun t => ?_) ?_
      · rw [Real.norm_eq_abs, abs_mul]
        exact mul_le_of_le_one_left (abs_nonneg _) (Real.abs_cos_le_one _)
      · exact (tendsto_zero_iff_abs_tendsto_zero _).1 h
    · refine squeeze_zero_norm' (a := fun t => |Real.sin (θ t)| * D) ?_ ?_
      · filter_upwards [eventually_ge_atTop (0 : ℝ)] with t ht
        rw [Real.norm_eq_abs, abs_mul]
        refine mul_le_mul_of_nonneg_left ?_ (abs_nonneg _)
        rw [abs_mul]
        calc _ ≤ 1 * D := mul_le_mul (Real.abs_sin_le_one _) (L.dθ_abs ht) (abs_nonneg _) zero_le_one
          _ = D := one_mul D
      · have := ((tendsto_zero_iff_abs_tendsto_zero _).1 hs).mul_const D
        simpa using this
  rw [add_zero] at h2
  have h3 := (h2.neg).sub (hs.const_mul (Kp * V))
  rw [neg_zero, mul_zero, sub_zero] at h3
  refine h3.congr (fun t => ?_)
  have := Real.sin_sq_add_cos_sq (θ t)
  linear_combination (Kp * V * Real.sin (θ t) + z t) * this

/-- Below the separatrix energy the phase error never leaves `(-π, π)`: no cycle slip. -/
theorem Loop.no_slip (L : Loop V Kp Ki θ z) (h0 : |θ 0| < Real.pi) (hE : energy V Ki (θ 0) (z 0) < 2 * V) {t : ℝ} (ht : 0 ≤ t) : |θ t| < Real.pi := by
  by_contra hc
  have hc := not_lt.1 hc
  have hcont : ContinuousOn (fun s => |θ s|) (Icc 0 t) := fun s hs => ((L.dθ s hs.1).continuousAt.abs).continuousWithinAt
  obtain ⟨s, hs, hse⟩ := intermediate_value_Icc ht hcont ⟨h0.le, hc⟩
  have h1 := L.le hs.1
  have hcos : Real.cos (θ s) = -1 := by
    have : Real.cos |θ s| = -1 := by simp only at hse; rw [hse, Real.cos_pi]
    rwa [Real.cos_abs] at this
  have hKi := L.hKi
  have h2 : 2 * V ≤ energy V Ki (θ s) (z s) := by
    unfold energy; rw [hcos]
    have : 0 ≤ z s ^ 2 / (2 * Ki) := by positivity
    linarith
  linarith

/-- Below the separatrix energy the phase error tends to zero. -/
theorem Loop.θ_tendsto (L : Loop V Kp Ki θ z) (h0 : |θ 0| < Real.pi) (hE : energy V Ki (θ 0) (z 0) < 2 * V) : Tendsto θ atTop (𝓝 0) := by
  have hV := L.hV; have hKi := L.hKi
  set E0 := energy V Ki (θ 0) (z 0) with hE0
  have hc0 : 0 < 2 - E0 / V := by
    have : E0 / V < 2 := by rw [div_lt_iff₀ hV]; exact hE
    linarith
  have hcos : ∀ t, 0 ≤ t → 2 - E0 / V ≤ 1 + Real.cos (θ t) := by
    intro t ht
    have h1 := L.le ht
    have h2 : V * (1 - Real.cos (θ t)) ≤ E0 := by
      refine le_trans ?_ h1
      unfold energy
      have : 0 ≤ z t ^ 2 / (2 * Ki) := by positivity
      linarith
    have h3 : 1 - Real.cos (θ t) ≤ E0 / V := by rw [le_div_iff₀ hV]; linarith
    linarith
  have hs2 : Tendsto (fun t => Real.pi ^ 2 / 2 * (Real.sin (θ t) ^ 2 / (2 - E0 / V))) atTop (𝓝 0) := by
    have := ((L.sin_tendsto.pow 2).div_const (2 - E0 / V)).const_mul (Real.pi ^ 2 / 2)
    simpa using this
  have hsq : Tendsto (fun t => θ t ^ 2) atTop (𝓝 0) := by
    refine squeeze_zero' (Eventually.of_forall fun t => sq_nonneg _) ?_ hs2
    filter_upwards [eventually_ge_atTop (0 : ℝ)] with t ht
    have h1 := Real.cos_le_one_sub_mul_cos_sq (L.no_slip h0 hE ht).le
    have h2 : 1 - Real.cos (θ t) ≤ Real.sin (θ t) ^ 2 / (2 - E0 / V) := by
      rw [le_div_iff₀ hc0]
      have h3 := hcos t ht
      have h4 := Real.sin_sq_add_cos_sq (θ t)
      have h5 : 0 ≤ 1 - Real.cos (θ t) := by linarith [Real.cos_le_one (θ t)]
      nlinarith
    have hp := Real.pi_pos
    have h6 : 2 / Real.pi ^ 2 * θ t ^ 2 ≤ 1 - Real.cos (θ t) := by linarith
    have h7 : θ t ^ 2 = Real.pi ^ 2 / 2 * (2 / Real.pi ^ 2 * θ t ^ 2) := by field_simp
    rw [h7]
    exact mul_le_mul_of_nonneg_left (h6.trans h2) (by positivity)
  have h3 := (Real.continuous_sqrt.tendsto 0).comp hsq
  rw [Real.sqrt_zero] at h3
  refine (tendsto_zero_iff_abs_tendsto_zero _).2 (h3.congr (fun t => ?_))
  simp [Real.sqrt_sq_eq_abs]

end Pll
end PvDer
