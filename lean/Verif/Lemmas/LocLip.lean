import Mathlib.Analysis.ODE.Gronwall
import Mathlib.Analysis.ODE.ExistUnique
import Mathlib.Topology.MetricSpace.HausdorffDistance
import Mathlib.Analysis.SpecialFunctions.Trigonometric.Deriv
import Mathlib.Analysis.SpecialFunctions.ExpDeriv
import Mathlib.Analysis.Complex.Norm
import Mathlib.Tactic.Linarith
import Mathlib.Tactic.Positivity
import Mathlib.Tactic.Ring
import Mathlib.Tactic.NoncommRing
import Mathlib.Tactic.FieldSimp
import Mathlib.Tactic.FunProp
import Mathlib.Analysis.Calculus.MeanValue

/-!
# Fields that are bounded and Lipschitz, uniformly in time, and what that gives for solutions
-/

namespace PvDer
namespace LocLip
open Set Metric
open scoped NNReal

section abstract
variable {E : Type*} [NormedAddCommGroup E] [NormedSpace ℝ E]

/-- Solutions that start close to a solution `Y` stay close, if the field is Lipschitz near `Y`. -/
theorem dependence {F : ℝ → E → E} {Y : ℝ → E} {T ρ L : ℝ} (hρ : 0 < ρ) (hL0 : 0 ≤ L)
    (hL : ∀ t ∈ Icc 0 T, ∀ y z, ‖y - Y t‖ ≤ ρ → ‖z - Y t‖ ≤ ρ → ‖F t y - F t z‖ ≤ L * ‖y - z‖)
    (hY : ∀ t ∈ Icc 0 T, HasDerivAt Y (F t (Y t)) t) {Z : ℝ → E} (hZ : ∀ t ∈ Icc 0 T, HasDerivAt Z (F t (Z t)) t)
    (h0 : ‖Z 0 - Y 0‖ * Real.exp (L * T) < ρ) : ∀ t ∈ Icc 0 T, ‖Z t - Y t‖ ≤ ‖Z 0 - Y 0‖ * Real.exp (L * t) := by
  intro t1 ht1
  have hT0 : 0 ≤ T := ht1.1.trans ht1.2
  have hcY : ∀ t ∈ Icc 0 T, ContinuousAt Y t := fun t ht => (hY t ht).continuousAt
  have hcZ : ∀ t ∈ Icc 0 T, ContinuousAt Z t := fun t ht => (hZ t ht).continuousAt
  -- Gronwall on an initial segment on which the solutions are close
  have seg : ∀ b ∈ Icc 0 T, (∀ t ∈ Ico 0 b, ‖Z t - Y t‖ ≤ ρ) → ∀ t ∈ Icc 0 b, ‖Z t - Y t‖ ≤ ‖Z 0 - Y 0‖ * Real.exp (L * t) := by
    intro b hb hclose t ht
    have key := dist_le_of_trajectories_ODE_of_mem (v := F) (s := fun t => closedBall (Y t) ρ) (K := ⟨L, hL0⟩) (f := Z) (g := Y) (a := 0) (b := b)
      (δ := ‖Z 0 - Y 0‖)
      (fun t ht => LipschitzOnWith.of_dist_le_mul (fun y hy z hz => by
        rw [dist_eq_norm, dist_eq_norm]
        exact hL t ⟨ht.1, ht.2.le.trans hb.2⟩ y z (by simpa [dist_eq_norm] using hy) (by simpa [dist_eq_norm] using hz)))
      (fun t ht => (hcZ t ⟨ht.1, ht.2.trans hb.2⟩).continuousWithinAt)
      (fun t ht => (hZ t ⟨ht.1, ht.2.le.trans hb.2⟩).hasDerivWithinAt)
      (fun t ht => by simpa [dist_eq_norm] using hclose t ht)
      (fun t ht => (hcY t ⟨ht.1, ht.2.trans hb.2⟩).continuousWithinAt)
      (fun t ht => (hY t ⟨ht.1, ht.2.le.trans hb.2⟩).hasDerivWithinAt)
      (fun t ht => by simp [hρ.le])
      (by rw [dist_eq_norm]) t ht
    rw [dist_eq_norm, sub_zero] at key
    exact key
  have hlt : ∀ b ∈ Icc 0 T, (∀ t ∈ Ico 0 b, ‖Z t - Y t‖ ≤ ρ) → ‖Z b - Y b‖ < ρ := by
    intro b hb hclose
    refine lt_of_le_of_lt (seg b hb hclose b ⟨hb.1, le_rfl⟩) (lt_of_le_of_lt ?_ h0)
    exact mul_le_mul_of_nonneg_left (Real.exp_le_exp.2 (mul_le_mul_of_nonneg_left hb.2 hL0)) (norm_nonneg _)
  -- continuation
  by_contra hcon
  have hbad : ∃ t ∈ Icc 0 T, ρ < ‖Z t - Y t‖ := by
    by_contra hnone
    push Not at hnone
    exact hcon (seg T ⟨hT0, le_rfl⟩ (fun t ht => hnone t ⟨ht.1, ht.2.le⟩) t1 ht1)
  set A := {t : ℝ | t ∈ Icc 0 T ∧ ρ < ‖Z t - Y t‖} with hA
  have hne : A.Nonempty := hbad
  have hbb : BddBelow A := ⟨0, fun t ht => ht.1.1⟩
  set s := sInf A with hs
  obtain ⟨t2, ht2, hb2⟩ := hbad
  have hs0 : 0 ≤ s := le_csInf hne (fun t ht => ht.1.1)
  have hsT : s ≤ T := (csInf_le hbb ⟨ht2, hb2⟩).trans ht2.2
  have hbefore : ∀ t ∈ Ico 0 s, ‖Z t - Y t‖ ≤ ρ := by
    intro t ht
    by_contra hc
    push Not at hc
    exact absurd (csInf_le hbb ⟨⟨ht.1, ht.2.le.trans hsT⟩, hc⟩) (not_le.2 ht.2)
  have hsl := hlt s ⟨hs0, hsT⟩ hbefore
  have hcont : ContinuousAt (fun t => ‖Z t - Y t‖) s := ((hcZ s ⟨hs0, hsT⟩).sub (hcY s ⟨hs0, hsT⟩)).norm
  have hev := hcont.eventually (gt_mem_nhds hsl)
  obtain ⟨ε, hε, hball⟩ := Metric.eventually_nhds_iff.1 hev
  obtain ⟨t3, ht3, hlt3⟩ := exists_lt_of_csInf_lt hne (show sInf A < s + ε by rw [← hs]; linarith)
  have hge : s ≤ t3 := csInf_le hbb ht3
  have := hball (show dist t3 s < ε by rw [Real.dist_eq, abs_of_nonneg (by linarith)]; linarith)
  exact absurd ht3.2 (not_lt.2 this.le)

/-- Existence until the boundary of a closed set of states is reached. -/
theorem exists_until [CompleteSpace E] {F : ℝ → E → E} {K : Set E} (hK : IsClosed K) {T ρ B L : ℝ} (hT : 0 ≤ T) (hρ : 0 < ρ) (hB0 : 0 ≤ B) (hL0 : 0 ≤ L)
    (hL : ∀ t ∈ Icc 0 T, ∀ y z, infDist y K < ρ → infDist z K < ρ → ‖F t y - F t z‖ ≤ L * ‖y - z‖)
    (hB : ∀ t ∈ Icc 0 T, ∀ y, infDist y K < ρ → ‖F t y‖ ≤ B)
    (hc : ∀ y, infDist y K < ρ → ContinuousOn (fun t => F t y) (Icc 0 T)) {y0 : E} (hy0 : y0 ∈ K) :
    ∃ Y : ℝ → E, Y 0 = y0 ∧ ((∀ t ∈ Icc 0 T, HasDerivAt Y (F t (Y t)) t ∧ Y t ∈ K) ∨
      ∃ T' ∈ Icc 0 T, (∀ t ∈ Icc 0 T', HasDerivAt Y (F t (Y t)) t ∧ Y t ∈ K) ∧ Y T' ∈ frontier K) := by
  set χ : E → ℝ := fun y => max 0 (1 - infDist y K / ρ) with hχ
  have hχ0 : ∀ y, 0 ≤ χ y := fun y => le_max_left _ _
  have hχ1 : ∀ y, χ y ≤ 1 := fun y => max_le zero_le_one (by have : 0 ≤ infDist y K / ρ := div_nonneg infDist_nonneg hρ.le; linarith)
  have hχout : ∀ y, ¬ infDist y K < ρ → χ y = 0 := by
    intro y hy
    refine max_eq_left ?_
    have : 1 ≤ infDist y K / ρ := (one_le_div hρ).2 (not_lt.1 hy)
    linarith
  have hχin : ∀ y ∈ K, χ y = 1 := by
    intro y hy
    simp [hχ, infDist_zero_of_mem hy]
  have hχL : ∀ y z, |χ y - χ z| ≤ 1 / ρ * ‖y - z‖ := by
    intro y z
    have h0 : |χ y - χ z| ≤ |(1 - infDist y K / ρ) - (1 - infDist z K / ρ)| := by
      simp only [hχ, max_comm (0 : ℝ)]
      exact abs_max_sub_max_le_abs _ _ _
    refine h0.trans ?_
    have h1 : |infDist y K - infDist z K| ≤ ‖y - z‖ := by
      rw [abs_le]
      have a1 : infDist y K ≤ infDist z K + dist y z := infDist_le_infDist_add_dist
      have a2 : infDist z K ≤ infDist y K + dist z y := infDist_le_infDist_add_dist
      rw [dist_eq_norm] at a1
      rw [dist_comm, dist_eq_norm] at a2
      constructor <;> linarith
    have h2 : (1 - infDist y K / ρ) - (1 - infDist z K / ρ) = -((infDist y K - infDist z K) / ρ) := by ring
    rw [h2, abs_neg, abs_div, abs_of_pos hρ, div_eq_inv_mul, one_div]
    exact mul_le_mul_of_nonneg_left h1 (inv_nonneg.2 hρ.le)
  set clamp : ℝ → ℝ := fun t => max 0 (min T t) with hcl
  have hclm : ∀ t, clamp t ∈ Icc 0 T := fun t => ⟨le_max_left _ _, max_le hT (min_le_left _ _)⟩
  have hcli : ∀ t ∈ Icc 0 T, clamp t = t := by
    intro t ht
    simp [hcl, min_eq_right ht.2, max_eq_right ht.1]
  have hclc : Continuous clamp := by fun_prop
  set G : ℝ → E → E := fun t y => χ y • F (clamp t) y with hG
  have hGB : ∀ t y, ‖G t y‖ ≤ B := by
    intro t y
    rw [hG]; simp only [norm_smul, Real.norm_eq_abs, abs_of_nonneg (hχ0 y)]
    by_cases h : infDist y K < ρ
    · calc χ y * ‖F (clamp t) y‖ ≤ 1 * B := mul_le_mul (hχ1 y) (hB _ (hclm t) y h) (norm_nonneg _) zero_le_one
        _ = B := one_mul B
    · rw [hχout y h, zero_mul]; exact hB0
  have half : ∀ t y z, infDist y K < ρ → ¬ infDist z K < ρ → ‖G t y - G t z‖ ≤ (L + B / ρ) * ‖y - z‖ := by
    intro t y z hy hz
    have h1 : G t z = 0 := by rw [hG]; simp [hχout z hz]
    have h2 := hχL y z
    rw [hχout z hz, sub_zero, abs_of_nonneg (hχ0 y)] at h2
    rw [h1, sub_zero]
    rw [hG]; simp only [norm_smul, Real.norm_eq_abs, abs_of_nonneg (hχ0 y)]
    calc χ y * ‖F (clamp t) y‖ ≤ (1 / ρ * ‖y - z‖) * B := mul_le_mul h2 (hB _ (hclm t) y hy) (norm_nonneg _) (by positivity)
      _ = B / ρ * ‖y - z‖ := by ring
      _ ≤ (L + B / ρ) * ‖y - z‖ := mul_le_mul_of_nonneg_right (by linarith) (norm_nonneg _)
  have hGL : ∀ t y z, ‖G t y - G t z‖ ≤ (L + B / ρ) * ‖y - z‖ := by
    intro t y z
    by_cases hy : infDist y K < ρ
    · by_cases hz : infDist z K < ρ
      · have h1 : G t y - G t z = χ y • (F (clamp t) y - F (clamp t) z) + (χ y - χ z) • F (clamp t) z := by
          rw [hG]; simp only [smul_sub, sub_smul]; abel
        rw [h1]
        refine (norm_add_le _ _).trans ?_
        rw [norm_smul, norm_smul, Real.norm_eq_abs, Real.norm_eq_abs, abs_of_nonneg (hχ0 y)]
        have a1 : χ y * ‖F (clamp t) y - F (clamp t) z‖ ≤ 1 * (L * ‖y - z‖) := mul_le_mul (hχ1 y) (hL _ (hclm t) y z hy hz) (norm_nonneg _) zero_le_one
        have a2 : |χ y - χ z| * ‖F (clamp t) z‖ ≤ (1 / ρ * ‖y - z‖) * B := mul_le_mul (hχL y z) (hB _ (hclm t) z hz) (norm_nonneg _) (by positivity)
        have a3 : (L + B / ρ) * ‖y - z‖ = 1 * (L * ‖y - z‖) + (1 / ρ * ‖y - z‖) * B := by ring
        linarith
      · exact half t y z hy hz
    · by_cases hz : infDist z K < ρ
      · rw [norm_sub_rev, norm_sub_rev y z]
        exact half t z y hz hy
      · have h1 : G t y = 0 := by rw [hG]; simp [hχout y hy]
        have h2 : G t z = 0 := by rw [hG]; simp [hχout z hz]
        rw [h1, h2, sub_zero, norm_zero]
        positivity
  have hGc : ∀ y, Continuous (fun t => G t y) := by
    intro y
    by_cases hy : infDist y K < ρ
    · have : Continuous (fun t => F (clamp t) y) := (hc y hy).comp_continuous hclc hclm
      exact this.const_smul (χ y)
    · have : (fun t => G t y) = fun _ => 0 := by funext t; rw [hG]; simp [hχout y hy]
      rw [this]; exact continuous_const
  have hpl : IsPicardLindelof G (tmin := -1) (tmax := T + 1) ⟨0, by constructor <;> linarith⟩ y0 (⟨B * (T + 1), by positivity⟩ : ℝ≥0) 0 ⟨B, hB0⟩ ⟨L + B / ρ, by positivity⟩ := by
    refine ⟨fun t _ => LipschitzOnWith.of_dist_le_mul (fun y _ z _ => ?_), fun y _ => (hGc y).continuousOn, fun t _ y _ => hGB t y, ?_⟩
    · rw [dist_eq_norm, dist_eq_norm]; exact hGL t y z
    · have : max (T + 1 - 0) ((0 : ℝ) - (-1)) = T + 1 := by rw [max_eq_left]; ring; linarith
      show B * max (T + 1 - 0) ((0 : ℝ) - (-1)) ≤ B * (T + 1) - 0
      rw [this, sub_zero]
  obtain ⟨Y, hY0, hY⟩ := hpl.exists_eq_forall_mem_Icc_hasDerivWithinAt₀
  have hd : ∀ t ∈ Icc 0 T, HasDerivAt Y (G t (Y t)) t := fun t ht =>
    (hY t ⟨by linarith [ht.1], by linarith [ht.2]⟩).hasDerivAt (Icc_mem_nhds (by linarith [ht.1]) (by linarith [ht.2]))
  have hsol : ∀ t ∈ Icc 0 T, Y t ∈ K → HasDerivAt Y (F t (Y t)) t := by
    intro t ht hk
    have := hd t ht
    have e : G t (Y t) = F t (Y t) := by rw [hG]; simp only [hχin _ hk, one_smul, hcli t ht]
    rwa [e] at this
  refine ⟨Y, hY0, ?_⟩
  by_cases hall : ∀ t ∈ Icc 0 T, Y t ∈ K
  · exact Or.inl (fun t ht => ⟨hsol t ht (hall t ht), hall t ht⟩)
  · right
    push Not at hall
    obtain ⟨t2, ht2, hb2⟩ := hall
    set A := {t : ℝ | t ∈ Icc 0 T ∧ Y t ∉ K} with hA
    have hne : A.Nonempty := ⟨t2, ht2, hb2⟩
    have hbb : BddBelow A := ⟨0, fun t ht => ht.1.1⟩
    set s := sInf A with hs
    have hs0 : 0 ≤ s := le_csInf hne (fun t ht => ht.1.1)
    have hsT : s ≤ T := (csInf_le hbb ⟨ht2, hb2⟩).trans ht2.2
    have hcs : ContinuousAt Y s := (hd s ⟨hs0, hsT⟩).continuousAt
    have hbefore : ∀ t ∈ Ico 0 s, Y t ∈ K := by
      intro t ht
      by_contra hc'
      exact absurd (csInf_le hbb ⟨⟨ht.1, ht.2.le.trans hsT⟩, hc'⟩) (not_le.2 ht.2)
    have hsK : Y s ∈ K := by
      rcases eq_or_lt_of_le hs0 with h | h
      · rw [← h, show Y 0 = y0 from hY0]; exact hy0
      · have h1 : s ∈ closure (Ico 0 s) := by rw [closure_Ico h.ne]; exact ⟨hs0, le_rfl⟩
        have h2 := hcs.continuousWithinAt.mem_closure_image h1
        have h3 : Y '' Ico 0 s ⊆ K := by rintro _ ⟨t, ht, rfl⟩; exact hbefore t ht
        exact hK.closure_subset_iff.2 h3 h2
    have hnotint : Y s ∉ interior K := by
      intro hi
      have hev := hcs.eventually (isOpen_interior.mem_nhds hi)
      obtain ⟨ε, hε, hball⟩ := Metric.eventually_nhds_iff.1 hev
      obtain ⟨t3, ht3, hlt3⟩ := exists_lt_of_csInf_lt hne (show sInf A < s + ε by rw [← hs]; linarith)
      have hge : s ≤ t3 := csInf_le hbb ht3
      exact ht3.2 (interior_subset (hball (show dist t3 s < ε by rw [Real.dist_eq, abs_of_nonneg (by linarith)]; linarith)))
    refine ⟨s, ⟨hs0, hsT⟩, fun t ht => ?_, ?_⟩
    · have hk : Y t ∈ K := by
        rcases eq_or_lt_of_le ht.2 with h | h
        · rw [h]; exact hsK
        · exact hbefore t ⟨ht.1, h⟩
      exact ⟨hsol t ⟨ht.1, ht.2.trans hsT⟩ hk, hk⟩
    · rw [hK.frontier_eq]; exact ⟨hsK, hnotint⟩

end abstract

/-! ## Algebra of bounded Lipschitz functions of time and state -/

section algebra
variable {Y : Type*} [NormedAddCommGroup Y] {E : Type*} [NormedAddCommGroup E]

/-- On the times `T` and the states `S t`: `f` is bounded, Lipschitz in the state with one constant for all times, and, if `C` holds, continuous in time. -/
structure BL (C : Prop) (T : Set ℝ) (S : ℝ → Set Y) (f : ℝ → Y → E) : Prop where
  bd : ∃ B, ∀ t ∈ T, ∀ y ∈ S t, ‖f t y‖ ≤ B
  lip : ∃ L, ∀ t ∈ T, ∀ y ∈ S t, ∀ z ∈ S t, ‖f t y - f t z‖ ≤ L * ‖y - z‖
  ct : C → ∀ y, ContinuousOn (fun t => f t y) {t | t ∈ T ∧ y ∈ S t}

namespace BL
variable {C : Prop} {T : Set ℝ} {S : ℝ → Set Y} {f g : ℝ → Y → E}

theorem mono {S' : ℝ → Set Y} (h : BL C T S f) (hs : ∀ t, S' t ⊆ S t) : BL C T S' f := by
  obtain ⟨⟨B, hB⟩, ⟨L, hL⟩, hc⟩ := h
  exact ⟨⟨B, fun t ht y hy => hB t ht y (hs t hy)⟩, ⟨L, fun t ht y hy z hz => hL t ht y (hs t hy) z (hs t hz)⟩, fun c y => (hc c y).mono (fun t ht => ⟨ht.1, hs t ht.2⟩)⟩

theorem congr (h : BL C T S g) (e : ∀ t ∈ T, ∀ y ∈ S t, f t y = g t y) : BL C T S f := by
  obtain ⟨⟨B, hB⟩, ⟨L, hL⟩, hc⟩ := h
  refine ⟨⟨B, fun t ht y hy => ?_⟩, ⟨L, fun t ht y hy z hz => ?_⟩, fun c y => ?_⟩
  · rw [e t ht y hy]; exact hB t ht y hy
  · rw [e t ht y hy, e t ht z hz]; exact hL t ht y hy z hz
  · exact (hc c y).congr (fun t ht => e t ht.1 y ht.2)

/-- Fewer times. -/
theorem times {T' : Set ℝ} (h : BL C T S f) (hT : T' ⊆ T) : BL C T' S f := by
  obtain ⟨⟨B, hB⟩, ⟨L, hL⟩, hc⟩ := h
  exact ⟨⟨B, fun t ht => hB t (hT ht)⟩, ⟨L, fun t ht => hL t (hT ht)⟩, fun c y => (hc c y).mono (fun t ht => ⟨hT ht.1, ht.2⟩)⟩

/-- A function of time only. -/
theorem time {h : ℝ → E} (hb : ∃ B, ∀ t ∈ T, ‖h t‖ ≤ B) (hc : C → ContinuousOn h T) : BL C T S (fun t _ => h t) := by
  obtain ⟨B, hB⟩ := hb
  refine ⟨⟨B, fun t ht _ _ => hB t ht⟩, ⟨0, fun t _ y _ z _ => ?_⟩, fun c _ => (hc c).mono (fun t ht => ht.1)⟩
  simp

theorem const (a : E) : BL C T S (fun _ _ => a) := time ⟨‖a‖, fun _ _ => le_rfl⟩ (fun _ => continuousOn_const)

theorem add (hf : BL C T S f) (hg : BL C T S g) : BL C T S (fun t y => f t y + g t y) := by
  obtain ⟨⟨B, hB⟩, ⟨L, hL⟩, hc⟩ := hf
  obtain ⟨⟨B', hB'⟩, ⟨L', hL'⟩, hc'⟩ := hg
  refine ⟨⟨B + B', fun t ht y hy => (norm_add_le _ _).trans (add_le_add (hB t ht y hy) (hB' t ht y hy))⟩, ⟨L + L', fun t ht y hy z hz => ?_⟩,
    fun c y => (hc c y).add (hc' c y)⟩
  have e : f t y + g t y - (f t z + g t z) = (f t y - f t z) + (g t y - g t z) := by abel
  rw [e, add_mul]
  exact (norm_add_le _ _).trans (add_le_add (hL t ht y hy z hz) (hL' t ht y hy z hz))

theorem neg (hf : BL C T S f) : BL C T S (fun t y => -f t y) := by
  obtain ⟨⟨B, hB⟩, ⟨L, hL⟩, hc⟩ := hf
  refine ⟨⟨B, fun t ht y hy => by rw [norm_neg]; exact hB t ht y hy⟩, ⟨L, fun t ht y hy z hz => ?_⟩, fun c y => (hc c y).neg⟩
  have e : -f t y - -f t z = -(f t y - f t z) := by abel
  rw [e, norm_neg]; exact hL t ht y hy z hz

theorem sub (hf : BL C T S f) (hg : BL C T S g) : BL C T S (fun t y => f t y - g t y) := by
  simpa only [sub_eq_add_neg] using hf.add hg.neg

theorem mul {A : Type*} [NormedRing A] {f g : ℝ → Y → A} (hf : BL C T S f) (hg : BL C T S g) : BL C T S (fun t y => f t y * g t y) := by
  obtain ⟨⟨B, hB⟩, ⟨L, hL⟩, hc⟩ := hf
  obtain ⟨⟨B', hB'⟩, ⟨L', hL'⟩, hc'⟩ := hg
  refine ⟨⟨B * B', fun t ht y hy => ?_⟩, ⟨L * B' + B * L', fun t ht y hy z hz => ?_⟩, fun c y => (hc c y).mul (hc' c y)⟩
  · exact (norm_mul_le _ _).trans (mul_le_mul (hB t ht y hy) (hB' t ht y hy) (norm_nonneg _) ((norm_nonneg _).trans (hB t ht y hy)))
  · have e : f t y * g t y - f t z * g t z = (f t y - f t z) * g t y + f t z * (g t y - g t z) := by noncomm_ring
    rw [e]
    refine (norm_add_le _ _).trans ?_
    have h1 : ‖(f t y - f t z) * g t y‖ ≤ (L * ‖y - z‖) * B' :=
      (norm_mul_le _ _).trans (mul_le_mul (hL t ht y hy z hz) (hB' t ht y hy) (norm_nonneg _) ((norm_nonneg _).trans (hL t ht y hy z hz)))
    have h2 : ‖f t z * (g t y - g t z)‖ ≤ B * (L' * ‖y - z‖) :=
      (norm_mul_le _ _).trans (mul_le_mul (hB t ht z hz) (hL' t ht y hy z hz) (norm_nonneg _) ((norm_nonneg _).trans (hB t ht z hz)))
    have e2 : (L * B' + B * L') * ‖y - z‖ = (L * ‖y - z‖) * B' + B * (L' * ‖y - z‖) := by ring
    rw [e2]; exact add_le_add h1 h2

/-- Composition with a function that is continuous and Lipschitz on bounded sets. -/
theorem comp {E' : Type*} [NormedAddCommGroup E'] {φ : E → E'} (hf : BL C T S f) (hφ : ∀ B : ℝ, ∃ L, ∀ x y, ‖x‖ ≤ B → ‖y‖ ≤ B → ‖φ x - φ y‖ ≤ L * ‖x - y‖)
    (hc : Continuous φ) : BL C T S (fun t y => φ (f t y)) := by
  obtain ⟨⟨B, hB⟩, ⟨L, hL⟩, hct⟩ := hf
  obtain ⟨M, hM⟩ := hφ (max B 0)
  have hb : ∀ t ∈ T, ∀ y ∈ S t, ‖f t y‖ ≤ max B 0 := fun t ht y hy => (hB t ht y hy).trans (le_max_left _ _)
  refine ⟨⟨‖φ 0‖ + |M| * max B 0, fun t ht y hy => ?_⟩, ⟨|M| * L, fun t ht y hy z hz => ?_⟩, fun c y => hc.comp_continuousOn (hct c y)⟩
  · have h1 := hM (f t y) 0 (hb t ht y hy) (by simp)
    rw [sub_zero] at h1
    have h2 : ‖φ (f t y)‖ ≤ ‖φ 0‖ + ‖φ (f t y) - φ 0‖ := by
      have := norm_add_le (φ 0) (φ (f t y) - φ 0)
      rwa [add_sub_cancel] at this
    have h3 : M * ‖f t y‖ ≤ |M| * max B 0 := mul_le_mul (le_abs_self M) (hb t ht y hy) (norm_nonneg _) (abs_nonneg _)
    linarith
  · have h1 := hM (f t y) (f t z) (hb t ht y hy) (hb t ht z hz)
    calc ‖φ (f t y) - φ (f t z)‖ ≤ M * ‖f t y - f t z‖ := h1
      _ ≤ |M| * ‖f t y - f t z‖ := mul_le_mul_of_nonneg_right (le_abs_self M) (norm_nonneg _)
      _ ≤ |M| * (L * ‖y - z‖) := mul_le_mul_of_nonneg_left (hL t ht y hy z hz) (abs_nonneg _)
      _ = |M| * L * ‖y - z‖ := by ring

theorem re {f : ℝ → Y → ℂ} (hf : BL C T S f) : BL C T S (fun t y => (f t y).re) :=
  hf.comp (φ := Complex.re) (fun _ => ⟨1, fun x y _ _ => by rw [one_mul, ← Complex.sub_re]; exact Complex.abs_re_le_norm _⟩) Complex.continuous_re
theorem im {f : ℝ → Y → ℂ} (hf : BL C T S f) : BL C T S (fun t y => (f t y).im) :=
  hf.comp (φ := Complex.im) (fun _ => ⟨1, fun x y _ _ => by rw [one_mul, ← Complex.sub_im]; exact Complex.abs_im_le_norm _⟩) Complex.continuous_im
theorem conj {f : ℝ → Y → ℂ} (hf : BL C T S f) : BL C T S (fun t y => (starRingEnd ℂ) (f t y)) :=
  hf.comp (φ := starRingEnd ℂ) (fun _ => ⟨1, fun x y _ _ => by rw [one_mul, ← map_sub]; exact (Complex.norm_conj _).le⟩) Complex.continuous_conj
theorem ofReal {f : ℝ → Y → ℝ} (hf : BL C T S f) : BL C T S (fun t y => ((f t y : ℝ) : ℂ)) :=
  hf.comp (φ := fun x : ℝ => (x : ℂ)) (fun _ => ⟨1, fun x y _ _ => by rw [one_mul, ← Complex.ofReal_sub, Complex.norm_real]⟩) Complex.continuous_ofReal
theorem norm (hf : BL C T S f) : BL C T S (fun t y => ‖f t y‖) :=
  hf.comp (φ := fun x : E => ‖x‖) (fun _ => ⟨1, fun x y _ _ => by rw [one_mul, Real.norm_eq_abs]; exact abs_norm_sub_norm_le x y⟩) continuous_norm
theorem cmk {f g : ℝ → Y → ℝ} (hf : BL C T S f) (hg : BL C T S g) : BL C T S (fun t y => (⟨f t y, g t y⟩ : ℂ)) := by
  refine (hf.ofReal.add (hg.ofReal.mul (const Complex.I))).congr (fun t _ y _ => ?_)
  apply Complex.ext <;> simp
theorem max0 {f : ℝ → Y → ℝ} (hf : BL C T S f) : BL C T S (fun t y => max 0 (f t y)) :=
  hf.comp (φ := fun x : ℝ => max 0 x) (fun _ => ⟨1, fun x y _ _ => by
    rw [one_mul, Real.norm_eq_abs, Real.norm_eq_abs, max_comm 0 x, max_comm 0 y]; exact abs_max_sub_max_le_abs x y 0⟩) (by fun_prop)
theorem minc {f : ℝ → Y → ℝ} (a : ℝ) (hf : BL C T S f) : BL C T S (fun t y => min a (f t y)) :=
  hf.comp (φ := fun x : ℝ => min a x) (fun _ => ⟨1, fun x y _ _ => by
    rw [one_mul, Real.norm_eq_abs, Real.norm_eq_abs, min_comm a x, min_comm a y]; exact (abs_min_sub_min_le_max x a y a).trans (by simp)⟩) (by fun_prop)
theorem exp {f : ℝ → Y → ℝ} (hf : BL C T S f) : BL C T S (fun t y => Real.exp (f t y)) :=
  hf.comp (φ := Real.exp) (fun B => ⟨Real.exp B, fun x y hx hy => by
    refine Convex.norm_image_sub_le_of_norm_hasDerivWithin_le (f := Real.exp) (f' := Real.exp) (s := closedBall 0 B)
      (fun z _ => (Real.hasDerivAt_exp z).hasDerivWithinAt) (fun z hz => ?_) (convex_closedBall 0 B) (by simpa using hy) (by simpa using hx)
    rw [Real.norm_eq_abs, abs_of_pos (Real.exp_pos z)]
    refine Real.exp_le_exp.2 ((le_abs_self z).trans ?_)
    simpa using hz⟩) Real.continuous_exp
theorem cos {f : ℝ → Y → ℝ} (hf : BL C T S f) : BL C T S (fun t y => Real.cos (f t y)) :=
  hf.comp (φ := Real.cos) (fun _ => ⟨1, fun _ _ _ _ => Convex.norm_image_sub_le_of_norm_hasDerivWithin_le (f := Real.cos) (f' := fun z => -Real.sin z) (s := univ)
      (fun z _ => (Real.hasDerivAt_cos z).hasDerivWithinAt) (fun z _ => by rw [norm_neg]; exact Real.abs_sin_le_one z) convex_univ (mem_univ _) (mem_univ _)⟩) Real.continuous_cos
theorem sin {f : ℝ → Y → ℝ} (hf : BL C T S f) : BL C T S (fun t y => Real.sin (f t y)) :=
  hf.comp (φ := Real.sin) (fun _ => ⟨1, fun _ _ _ _ => Convex.norm_image_sub_le_of_norm_hasDerivWithin_le (f := Real.sin) (f' := Real.cos) (s := univ)
      (fun z _ => (Real.hasDerivAt_sin z).hasDerivWithinAt) (fun z _ => Real.abs_cos_le_one z) convex_univ (mem_univ _) (mem_univ _)⟩) Real.continuous_sin

/-- Reciprocal of a function bounded away from zero. -/
theorem inv {f : ℝ → Y → ℝ} (hf : BL C T S f) {δ : ℝ} (hδ : 0 < δ) (hd : ∀ t ∈ T, ∀ y ∈ S t, δ ≤ f t y) : BL C T S (fun t y => (f t y)⁻¹) := by
  obtain ⟨⟨B, hB⟩, ⟨L, hL⟩, hc⟩ := hf
  refine ⟨⟨δ⁻¹, fun t ht y hy => ?_⟩, ⟨δ⁻¹ * δ⁻¹ * L, fun t ht y hy z hz => ?_⟩, fun c y => (hc c y).inv₀ (fun t ht => (hδ.trans_le (hd t ht.1 y ht.2)).ne')⟩
  · rw [norm_inv, Real.norm_eq_abs, abs_of_pos (hδ.trans_le (hd t ht y hy))]
    exact inv_anti₀ hδ (hd t ht y hy)
  · have hy0 := hδ.trans_le (hd t ht y hy)
    have hz0 := hδ.trans_le (hd t ht z hz)
    have e : (f t y)⁻¹ - (f t z)⁻¹ = -((f t y)⁻¹ * (f t z)⁻¹ * (f t y - f t z)) := by field_simp; ring
    rw [e, norm_neg, norm_mul, norm_mul, norm_inv, norm_inv, Real.norm_eq_abs, Real.norm_eq_abs, abs_of_pos hy0, abs_of_pos hz0, mul_assoc (δ⁻¹ * δ⁻¹)]
    refine mul_le_mul (mul_le_mul (inv_anti₀ hδ (hd t ht y hy)) (inv_anti₀ hδ (hd t ht z hz)) (by positivity) (by positivity)) (hL t ht y hy z hz) (norm_nonneg _) (by positivity)

/-- A limiter that is inactive on `S`. -/
theorem ite_false {c : ℝ → Y → Prop} [∀ t y, Decidable (c t y)] (hc : ∀ t ∈ T, ∀ y ∈ S t, ¬ c t y) (hg : BL C T S g) : BL C T S (fun t y => if c t y then f t y else g t y) :=
  hg.congr (fun t ht y hy => if_neg (hc t ht y hy))

/-- Switching in time. -/
theorem switch {b : ℝ → Bool} (hb : C → ∃ c, ∀ t, b t = c) (hf : BL C T S f) (hg : BL C T S g) : BL C T S (fun t y => if b t = true then f t y else g t y) := by
  obtain ⟨⟨B, hB⟩, ⟨L, hL⟩, hc⟩ := hf
  obtain ⟨⟨B', hB'⟩, ⟨L', hL'⟩, hc'⟩ := hg
  refine ⟨⟨max B B', fun t ht y hy => ?_⟩, ⟨max L L', fun t ht y hy z hz => ?_⟩, fun c y => ?_⟩
  · split
    · exact (hB t ht y hy).trans (le_max_left _ _)
    · exact (hB' t ht y hy).trans (le_max_right _ _)
  · split
    · exact (hL t ht y hy z hz).trans (mul_le_mul_of_nonneg_right (le_max_left _ _) (norm_nonneg _))
    · exact (hL' t ht y hy z hz).trans (mul_le_mul_of_nonneg_right (le_max_right _ _) (norm_nonneg _))
  · obtain ⟨d, hd⟩ := hb c
    simp only [hd]
    cases d
    · simpa using hc' c y
    · simpa using hc c y

/-- A coordinate of the state, on bounded states. -/
theorem coord {ι : Type*} [Fintype ι] {S : ℝ → Set (ι → ℝ)} {R : ℝ} (hS : ∀ t ∈ T, ∀ y ∈ S t, ‖y‖ ≤ R) (r : ι) : BL C T S (fun _ y => y r) := by
  refine ⟨⟨R, fun t ht y hy => (norm_le_pi_norm y r).trans (hS t ht y hy)⟩, ⟨1, fun t _ y _ z _ => ?_⟩, fun _ _ => continuousOn_const⟩
  rw [one_mul]
  exact norm_le_pi_norm (y - z) r

end BL

/-- From the rows to the vector. -/
theorem vector {ι : Type*} [Fintype ι] {C : Prop} {T : Set ℝ} {S : ℝ → Set (ι → ℝ)} {F : ℝ → (ι → ℝ) → ι → ℝ} (h : ∀ r, BL C T S (fun t y => F t y r)) :
    ∃ B L, 0 ≤ B ∧ 0 ≤ L ∧ (∀ t ∈ T, ∀ y ∈ S t, ‖F t y‖ ≤ B) ∧ (∀ t ∈ T, ∀ y ∈ S t, ∀ z ∈ S t, ‖F t y - F t z‖ ≤ L * ‖y - z‖) ∧
      (C → ∀ y, ContinuousOn (fun t => F t y) {t | t ∈ T ∧ y ∈ S t}) := by
  choose B hB using fun r => (h r).bd
  choose L hL using fun r => (h r).lip
  have hB0 : 0 ≤ ∑ r, |B r| := Finset.sum_nonneg (fun r _ => abs_nonneg _)
  have hL0 : 0 ≤ ∑ r, |L r| := Finset.sum_nonneg (fun r _ => abs_nonneg _)
  refine ⟨∑ r, |B r|, ∑ r, |L r|, hB0, hL0, fun t ht y hy => ?_, fun t ht y hy z hz => ?_, fun c y => ?_⟩
  · refine (pi_norm_le_iff_of_nonneg hB0).2 (fun r => (hB r t ht y hy).trans ?_)
    exact (le_abs_self _).trans (Finset.single_le_sum (f := fun r => |B r|) (fun r _ => abs_nonneg _) (Finset.mem_univ r))
  · refine (pi_norm_le_iff_of_nonneg (by positivity)).2 (fun r => (hL r t ht y hy z hz).trans ?_)
    refine mul_le_mul_of_nonneg_right ?_ (norm_nonneg _)
    exact (le_abs_self _).trans (Finset.single_le_sum (f := fun r => |L r|) (fun r _ => abs_nonneg _) (Finset.mem_univ r))
  · exact continuousOn_pi.2 (fun r => (h r).ct c y)

end algebra

end LocLip
end PvDer
