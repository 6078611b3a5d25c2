import Verif.Lemmas.Decay
import Mathlib.Analysis.Normed.Module.FiniteDimension
import Mathlib.Analysis.SpecialFunctions.ExpDeriv
import Mathlib.Analysis.Calculus.Deriv.Prod

/-!
# Local exponential stability from a quadratic energy function

`lyapunov`: if a sum of squares of linear forms (with no common zero) decreases along the linear part of a system, then solutions of the full system that start near
the origin decay exponentially, whatever the terms of second order are.
-/

namespace PvDer
namespace LocStab
open Filter Topology Set Finset

/-- Exponential decay of an energy `V` that controls the size `W` of the state, when it is known to decrease only while the state is small. -/
theorem local_decay {V V' W : ℝ → ℝ} {c1 c2 c3 η : ℝ} (h1 : 0 < c1) (h2 : 0 < c2) (h3 : 0 < c3) (hη : 0 < η) (hV : ∀ t, 0 ≤ t → HasDerivAt V (V' t) t)
    (lo : ∀ t, 0 ≤ t → c1 * W t ≤ V t) (hi : ∀ t, 0 ≤ t → V t ≤ c2 * W t) (dis : ∀ t, 0 ≤ t → W t ≤ η → V' t ≤ -c3 * W t) (h0 : V 0 ≤ c1 * η / 2) :
    ∀ t, 0 ≤ t → V t ≤ V 0 * Real.exp (-(c3 / c2) * t) := by
  set a := c3 / c2 with ha
  have ha0 : 0 < a := div_pos h3 h2
  -- as long as the energy is at most `c1 η`, it decays
  have step : ∀ T : ℝ, 0 ≤ T → (∀ t ∈ Set.Icc 0 T, V t ≤ c1 * η) → V T ≤ V 0 * Real.exp (-a * T) := by
    intro T hT hb
    have hD : ∀ t ∈ Set.Icc 0 T, HasDerivAt (fun t => V t * Real.exp (a * t)) (V' t * Real.exp (a * t) + V t * (Real.exp (a * t) * a)) t := by
      intro t ht
      have h2 : HasDerivAt (fun t => Real.exp (a * t)) (Real.exp (a * t) * a) t := by
        have := ((hasDerivAt_id t).const_mul a).exp
        simpa using this
      exact (hV t ht.1).mul h2
    have hanti : AntitoneOn (fun t => V t * Real.exp (a * t)) (Set.Icc 0 T) := by
      refine antitoneOn_of_hasDerivWithinAt_nonpos (convex_Icc 0 T) (fun t ht => (hD t ht).continuousAt.continuousWithinAt)
        (fun t ht => (hD t (interior_subset ht)).hasDerivWithinAt) (fun t ht => ?_)
      have ht' := interior_subset ht
      have hW : W t ≤ η := by
        have := (lo t ht'.1).trans (hb t ht')
        exact le_of_mul_le_mul_left this h1
      have e1 := dis t ht'.1 hW
      have e2 := hi t ht'.1
      have e3 : V' t + V t * a ≤ 0 := by
        have : V t * a ≤ c3 * W t := by
          rw [ha, mul_div_assoc', div_le_iff₀ h2]
          nlinarith
        linarith
      have : V' t * Real.exp (a * t) + V t * (Real.exp (a * t) * a) = (V' t + V t * a) * Real.exp (a * t) := by ring
      rw [this]
      exact mul_nonpos_of_nonpos_of_nonneg e3 (Real.exp_pos _).le
    have := hanti (Set.left_mem_Icc.2 hT) (Set.right_mem_Icc.2 hT) hT
    simp only [mul_zero, Real.exp_zero, mul_one] at this
    rw [neg_mul, Real.exp_neg, ← div_eq_mul_inv, le_div_iff₀ (Real.exp_pos _)]
    exact this
  have h00 : 0 ≤ V 0 ∨ V 0 < 0 := le_or_gt 0 (V 0)
  have hst := Decay.stays (κ := Unit) (q := fun _ => V) (c := fun _ => c1 * η) (c' := fun _ => c1 * η / 2) (fun _ => by nlinarith [mul_pos h1 hη])
    (fun _ t ht => (hV t ht).continuousAt) (fun _ => h0) (fun T hT hb _ => by
      have := step T hT (fun t ht => hb t ht ())
      rcases h00 with h | h
      · refine this.trans (le_trans (mul_le_of_le_one_right h ?_) h0)
        rw [Real.exp_le_one_iff]
        nlinarith
      · have : V 0 * Real.exp (-a * T) < 0 := mul_neg_of_neg_of_pos h (Real.exp_pos _)
        have := mul_pos h1 hη
        linarith)
  intro t ht
  refine step t ht (fun s hs => ?_)
  have := hst s hs.1 ()
  have := mul_pos h1 hη

  linarith

variable {ι κ : Type} [Fintype ι] [Fintype κ]

/-- The energy: a sum of squares of linear forms. -/
noncomputable def energy (ℓ : (ι → ℝ) →ₗ[ℝ] (κ → ℝ)) (z : ι → ℝ) : ℝ := ∑ j, (ℓ z j) ^ 2

/-- The rate of change of the energy at `z` in direction `δ`. -/
noncomputable def rate (ℓ : (ι → ℝ) →ₗ[ℝ] (κ → ℝ)) (z δ : ι → ℝ) : ℝ := ∑ j, 2 * ℓ z j * ℓ δ j

theorem rate_bound (ℓ : (ι → ℝ) →ₗ[ℝ] (κ → ℝ)) : ∃ C, 0 ≤ C ∧ ∀ z δ, |rate ℓ z δ| ≤ C * ‖z‖ * ‖δ‖ := by
  set L := LinearMap.toContinuousLinearMap ℓ with hL
  refine ⟨∑ _j : κ, 2 * ‖L‖ * ‖L‖, by positivity, fun z δ => ?_⟩
  unfold rate
  refine (Finset.abs_sum_le_sum_abs _ _).trans ?_
  rw [Finset.sum_mul, Finset.sum_mul]
  refine Finset.sum_le_sum (fun j _ => ?_)
  have h1 : |ℓ z j| ≤ ‖L‖ * ‖z‖ := (norm_le_pi_norm (ℓ z) j).trans (L.le_opNorm z)
  have h2 : |ℓ δ j| ≤ ‖L‖ * ‖δ‖ := (norm_le_pi_norm (ℓ δ) j).trans (L.le_opNorm δ)
  rw [abs_mul, abs_mul, abs_two]
  calc 2 * |ℓ z j| * |ℓ δ j| ≤ 2 * (‖L‖ * ‖z‖) * (‖L‖ * ‖δ‖) := by gcongr
    _ = _ := by ring

theorem energy_le (ℓ : (ι → ℝ) →ₗ[ℝ] (κ → ℝ)) : ∃ C, 0 < C ∧ ∀ z, energy ℓ z ≤ C * ‖z‖ ^ 2 := by
  obtain ⟨C, hC0, hC⟩ := rate_bound ℓ
  refine ⟨C / 2 + 1, by positivity, fun z => ?_⟩
  have h1 : rate ℓ z z = 2 * energy ℓ z := by
    unfold rate energy
    rw [Finset.mul_sum]
    exact Finset.sum_congr rfl (fun j _ => by ring)
  have h2 := (le_abs_self _).trans (hC z z)
  rw [h1] at h2
  nlinarith [sq_nonneg ‖z‖]

theorem le_energy (ℓ : (ι → ℝ) →ₗ[ℝ] (κ → ℝ)) (inj : ∀ z, ℓ z = 0 → z = 0) : ∃ c, 0 < c ∧ ∀ z, c * ‖z‖ ^ 2 ≤ energy ℓ z := by
  set L := LinearMap.toContinuousLinearMap ℓ with hL
  have hker : LinearMap.ker ℓ = ⊥ := by
    rw [LinearMap.ker_eq_bot']
    exact inj
  obtain ⟨K, hK0, hK⟩ := ℓ.exists_antilipschitzWith hker
  refine ⟨1 / (K : ℝ) ^ 2, by positivity, fun z => ?_⟩
  have h1 : ‖z‖ ≤ K * ‖ℓ z‖ := by
    have := hK.le_mul_dist z 0
    simpa [dist_eq_norm] using this
  have h2 : ‖ℓ z‖ ^ 2 ≤ energy ℓ z := by
    by_cases hne : Nonempty κ
    · obtain ⟨j, _, hj⟩ := Finset.exists_max_image Finset.univ (fun j => ‖ℓ z j‖) Finset.univ_nonempty
      have : ‖ℓ z‖ ≤ ‖ℓ z j‖ := (pi_norm_le_iff_of_nonneg (norm_nonneg _)).2 (fun i => hj i (Finset.mem_univ _))
      calc ‖ℓ z‖ ^ 2 ≤ ‖ℓ z j‖ ^ 2 := by gcongr
        _ = (ℓ z j) ^ 2 := by rw [Real.norm_eq_abs, sq_abs]
        _ ≤ _ := Finset.single_le_sum (f := fun j => (ℓ z j) ^ 2) (fun _ _ => sq_nonneg _) (Finset.mem_univ j)
    · have := not_nonempty_iff.1 hne
      have : ℓ z = 0 := Subsingleton.elim _ _
      rw [this, norm_zero]
      unfold energy
      simp
  have hKp : (0 : ℝ) < K := hK0
  rw [one_div, inv_mul_le_iff₀ (by positivity)]
  calc ‖z‖ ^ 2 ≤ (K * ‖ℓ z‖) ^ 2 := by gcongr
    _ = K ^ 2 * ‖ℓ z‖ ^ 2 := by ring
    _ ≤ _ := by gcongr

theorem energy_deriv (ℓ : (ι → ℝ) →ₗ[ℝ] (κ → ℝ)) {z z' : ℝ → ι → ℝ} {t : ℝ} (h : ∀ i, HasDerivAt (fun s => z s i) (z' t i) t) :
    HasDerivAt (fun s => energy ℓ (z s)) (rate ℓ (z t) (z' t)) t := by
  have hz : HasDerivAt z (z' t) t := hasDerivAt_pi.2 h
  have hl : ∀ j, HasDerivAt (fun s => ℓ (z s) j) (ℓ (z' t) j) t := by
    have := (LinearMap.toContinuousLinearMap ℓ).hasFDerivAt.comp_hasDerivAt t hz
    exact hasDerivAt_pi.1 this
  unfold energy rate
  refine HasDerivAt.fun_sum (fun j _ => ?_)
  refine ((hl j).pow 2).congr_deriv ?_
  push_cast
  ring

/-- Lyapunov's indirect method with a quadratic energy. -/
theorem lyapunov (ℓ : (ι → ℝ) →ₗ[ℝ] (κ → ℝ)) (inj : ∀ z, ℓ z = 0 → z = 0) (A : (ι → ℝ) → ι → ℝ) {c : ℝ} (hc : 0 < c)
    (dis : ∀ z, rate ℓ z (A z) ≤ -c * energy ℓ z) (K η0 : ℝ) (hη0 : 0 < η0) :
    ∃ δ > 0, ∃ M > 0, ∃ a > 0, ∀ z z' : ℝ → ι → ℝ, (∀ t, 0 ≤ t → ∀ i, HasDerivAt (fun s => z s i) (z' t i) t) →
      (∀ t, 0 ≤ t → ‖z t‖ ≤ η0 → ∀ i, |z' t i - A (z t) i| ≤ K * ‖z t‖ ^ 2) → ‖z 0‖ ≤ δ → ∀ t, 0 ≤ t → ‖z t‖ ≤ M * ‖z 0‖ * Real.exp (-a * t) := by
  obtain ⟨C, hC0, hC⟩ := rate_bound ℓ
  obtain ⟨c2, h2, hhi⟩ := energy_le ℓ
  obtain ⟨c1, h1, hlo⟩ := le_energy ℓ inj
  -- the size below which second-order terms are harmless
  set K' := |K| + 1 with hK'
  have hK0 : 0 < K' := by positivity
  set r := min η0 (c * c1 / (2 * (C + 1) * K')) with hr
  have hr0 : 0 < r := lt_min hη0 (by positivity)
  set δ := Real.sqrt (c1 * r ^ 2 / (2 * c2)) with hδ
  have hδ0 : 0 < δ := Real.sqrt_pos.2 (by positivity)
  refine ⟨δ, hδ0, Real.sqrt (c2 / c1), Real.sqrt_pos.2 (by positivity), (c * c1 / 2) / c2 / 2, by positivity, ?_⟩
  intro z z' hz hn hz0 t ht
  have key := local_decay (V := fun t => energy ℓ (z t)) (V' := fun t => rate ℓ (z t) (z' t)) (W := fun t => ‖z t‖ ^ 2) (c1 := c1) (c2 := c2) (c3 := c * c1 / 2) (η := r ^ 2)
    h1 h2 (by positivity) (by positivity) (fun t ht => energy_deriv ℓ (hz t ht)) (fun t _ => hlo _) (fun t _ => hhi _) (fun t ht hW => by
      have hzr : ‖z t‖ ≤ r := le_of_sq_le_sq hW hr0.le
      have hzη : ‖z t‖ ≤ η0 := hzr.trans (min_le_left _ _)
      set n : ι → ℝ := fun i => z' t i - A (z t) i with hnd
      have hsplit : z' t = A (z t) + n := by
        funext i
        simp only [hnd, Pi.add_apply]
        ring
      have hnb : ‖n‖ ≤ K' * ‖z t‖ ^ 2 := by
        refine (pi_norm_le_iff_of_nonneg (by positivity)).2 (fun i => ?_)
        refine (hn t ht hzη i).trans ?_
        have : K ≤ K' := (le_abs_self K).trans (by rw [hK']; linarith)
        gcongr
      have hadd : rate ℓ (z t) (A (z t) + n) = rate ℓ (z t) (A (z t)) + rate ℓ (z t) n := by
        unfold rate
        rw [← Finset.sum_add_distrib]
        refine Finset.sum_congr rfl (fun j _ => ?_)
        rw [map_add, Pi.add_apply]
        ring
      have e1 := dis (z t)
      have e2 := hlo (z t)
      have e3 := (le_abs_self _).trans (hC (z t) n)
      have e4 : C * ‖z t‖ * ‖n‖ ≤ c * c1 / 2 * ‖z t‖ ^ 2 := by
        have : C * ‖z t‖ * ‖n‖ ≤ (C + 1) * r * (K' * ‖z t‖ ^ 2) := by
          gcongr
          linarith
        refine this.trans ?_
        have hrr : r ≤ c * c1 / (2 * (C + 1) * K') := min_le_right _ _
        rw [le_div_iff₀ (by positivity)] at hrr
        have : (C + 1) * r * K' ≤ c * c1 / 2 := by linarith
        calc (C + 1) * r * (K' * ‖z t‖ ^ 2) = ((C + 1) * r * K') * ‖z t‖ ^ 2 := by ring
          _ ≤ _ := by gcongr
      show rate ℓ (z t) (z' t) ≤ -(c * c1 / 2) * ‖z t‖ ^ 2
      rw [hsplit, hadd]
      have : c * (c1 * ‖z t‖ ^ 2) ≤ c * energy ℓ (z t) := by gcongr
      linarith) (by
      have : ‖z 0‖ ^ 2 ≤ c1 * r ^ 2 / (2 * c2) := by
        calc ‖z 0‖ ^ 2 ≤ δ ^ 2 := by gcongr
          _ = _ := Real.sq_sqrt (by positivity)
      have e := hhi (z 0)
      calc energy ℓ (z 0) ≤ c2 * ‖z 0‖ ^ 2 := e
        _ ≤ c2 * (c1 * r ^ 2 / (2 * c2)) := by gcongr
        _ = c1 * r ^ 2 / 2 := by field_simp) t ht
  have e1 := hlo (z t)
  have e2 := hhi (z 0)
  set a := c * c1 / 2 / c2 with ha
  have e3 : c1 * ‖z t‖ ^ 2 ≤ c2 * ‖z 0‖ ^ 2 * Real.exp (-a * t) := by
    refine e1.trans (key.trans ?_)
    gcongr
  have hs : (Real.sqrt (c2 / c1) * ‖z 0‖ * Real.exp (-(a / 2) * t)) ^ 2 = c2 / c1 * ‖z 0‖ ^ 2 * Real.exp (-a * t) := by
    rw [mul_pow, mul_pow, Real.sq_sqrt (by positivity), ← Real.exp_nat_mul]
    congr 2
    push_cast
    ring
  refine le_of_sq_le_sq ?_ (by positivity)
  rw [hs]
  have : c2 / c1 * ‖z 0‖ ^ 2 * Real.exp (-a * t) = (c2 * ‖z 0‖ ^ 2 * Real.exp (-a * t)) / c1 := by ring
  rw [this, le_div_iff₀ h1]
  linarith

/-- The same with weights, functions instead of linear maps, and a loss measured by other linear forms. -/
theorem lyapunovW {κ' : Type} [Fintype κ'] (w : κ → ℝ) (hw : ∀ j, 0 < w j) (ℓ : (ι → ℝ) → κ → ℝ) (hℓ : IsLinearMap ℝ ℓ) (inj : ∀ z, (∀ j, ℓ z j = 0) → z = 0)
    (m : (ι → ℝ) → κ' → ℝ) (hm : IsLinearMap ℝ m) (injm : ∀ z, (∀ j, m z j = 0) → z = 0) (A : (ι → ℝ) → ι → ℝ) {c : ℝ} (hc : 0 < c)
    (dis : ∀ z, ∑ j, 2 * w j * ℓ z j * ℓ (A z) j ≤ -c * ∑ j, (m z j) ^ 2) (K η0 : ℝ) (hη0 : 0 < η0) :
    ∃ δ > 0, ∃ M > 0, ∃ a > 0, ∀ z z' : ℝ → ι → ℝ, (∀ t, 0 ≤ t → ∀ i, HasDerivAt (fun s => z s i) (z' t i) t) →
      (∀ t, 0 ≤ t → ‖z t‖ ≤ η0 → ∀ i, |z' t i - A (z t) i| ≤ K * ‖z t‖ ^ 2) → ‖z 0‖ ≤ δ → ∀ t, 0 ≤ t → ‖z t‖ ≤ M * ‖z 0‖ * Real.exp (-a * t) := by
  set L : (ι → ℝ) →ₗ[ℝ] (κ → ℝ) := LinearMap.pi (fun j => Real.sqrt (w j) • (LinearMap.proj j ∘ₗ hℓ.mk' ℓ)) with hL
  have hLa : ∀ z j, L z j = Real.sqrt (w j) * ℓ z j := fun z j => by simp [hL]
  have hLinj : ∀ z, L z = 0 → z = 0 := by
    intro z hz
    refine inj z (fun j => ?_)
    have := congrFun hz j
    rw [hLa] at this
    exact (mul_eq_zero.1 this).resolve_left (Real.sqrt_pos.2 (hw j)).ne'
  obtain ⟨c2, h2, hhi⟩ := energy_le L
  obtain ⟨c1, h1, hlo⟩ := le_energy (hm.mk' m) (fun z hz => injm z (fun j => congrFun hz j))
  refine lyapunov L hLinj A (c := c * c1 / c2) (by positivity) (fun z => ?_) K η0 hη0
  have e1 : rate L z (A z) = ∑ j, 2 * w j * ℓ z j * ℓ (A z) j := by
    unfold rate
    refine Finset.sum_congr rfl (fun j _ => ?_)
    rw [hLa, hLa]
    have := Real.mul_self_sqrt (hw j).le
    linear_combination 2 * ℓ z j * ℓ (A z) j * this
  have e2 : energy (hm.mk' m) z = ∑ j, (m z j) ^ 2 := rfl
  rw [e1]
  refine (dis z).trans ?_
  rw [← e2]
  have e3 := hlo z
  have e4 := hhi z
  have e5 : c * c1 / c2 * energy L z ≤ c * energy (hm.mk' m) z := by
    calc c * c1 / c2 * energy L z ≤ c * c1 / c2 * (c2 * ‖z‖ ^ 2) := by gcongr
      _ = c * (c1 * ‖z‖ ^ 2) := by field_simp
      _ ≤ _ := by gcongr
  linarith
end LocStab
end PvDer
