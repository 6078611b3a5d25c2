import Mathlib.Analysis.Complex.RealDeriv
import Mathlib.Analysis.SpecialFunctions.ExpDeriv
import Mathlib.Analysis.Calculus.Deriv.MeanValue
import Mathlib.Analysis.Complex.Norm
import Mathlib.Tactic.Linarith
import Mathlib.Tactic.Ring
import Mathlib.Tactic.LinearCombination
import Mathlib.Tactic.Positivity

/-!
# The difference between two phases obeys a linear equation

Two phases with the same filter, current controller, DC voltage and frequency, whose voltages and references differ by a constant factor `ρ`.
-/

namespace PvDer
namespace Defect
open Complex Set

/-- Complex derivative from the derivatives of the parts. -/
theorem hasDerivAt_mk {f g : ℝ → ℝ} {a b t : ℝ} (hf : HasDerivAt f a t) (hg : HasDerivAt g b t) :
    HasDerivAt (fun s => (⟨f s, g s⟩ : ℂ)) ⟨a, b⟩ t := by
  have h1 := hf.ofReal_comp.add (hg.ofReal_comp.mul_const I)
  have e : (fun s => (⟨f s, g s⟩ : ℂ)) = fun s => ((f s : ℂ) + (g s : ℂ) * I) := by
    funext s; apply Complex.ext <;> simp
  rw [e]
  refine h1.congr_deriv ?_
  apply Complex.ext <;> simp

/-- One phase in unsaturated operation at time `t`: filter current, integrator and input filter of the current controller. -/
structure Phase (Lf Rf Kp Ki wp : ℝ) (V W : ℝ → ℝ) (v r i x u : ℝ → ℂ) (t : ℝ) : Prop where
  di : HasDerivAt i (((1 / Lf : ℝ) : ℂ) * (-(Rf : ℂ) * i t - v t + (((Kp : ℝ) : ℂ) * u t + x t) * ((V t / 2 : ℝ) : ℂ)) - I * (W t : ℂ) * i t) t
  dx : HasDerivAt x ((Ki : ℂ) * u t) t
  du : HasDerivAt u ((wp : ℂ) * (-u t + r t - i t)) t

/-- Size of the difference between phase b and the rotated phase a. -/
noncomputable def size (ρ : ℂ) (i x u i' x' u' : ℂ) : ℝ := normSq (i' - ρ * i) + normSq (x' - ρ * x) + normSq (u' - ρ * u)

/-- Growth rate of the difference for a DC voltage up to `M`. -/
noncomputable def rate (Lf Rf Kp Ki wp M : ℝ) : ℝ := 2 * |Rf / Lf| + M / |Lf| * (|Kp| + 1) + 2 * |Ki| + 4 * |wp|

theorem normSq_deriv {f : ℝ → ℂ} {d : ℂ} {t : ℝ} (h : HasDerivAt f d t) : HasDerivAt (fun s => normSq (f s)) (2 * ((starRingEnd ℂ) (f t) * d).re) t := by
  have hre : HasDerivAt (fun s => (f s).re) d.re t := (Complex.reCLM.hasFDerivAt.comp_hasDerivAt t h)
  have him : HasDerivAt (fun s => (f s).im) d.im t := (Complex.imCLM.hasFDerivAt.comp_hasDerivAt t h)
  have h1 := (hre.mul hre).add (him.mul him)
  refine (h1.congr_deriv ?_).congr_of_eventuallyEq (Filter.Eventually.of_forall fun s => ?_)
  · simp [mul_re]; ring
  · simp [normSq_apply]

theorem re_conj_mul_le (a b : ℂ) : |((starRingEnd ℂ) a * b).re| ≤ (normSq a + normSq b) / 2 := by
  rw [abs_le]
  simp only [normSq_apply, mul_re, conj_re, conj_im]
  constructor
  · nlinarith [sq_nonneg (a.re + b.re), sq_nonneg (a.im + b.im)]
  · nlinarith [sq_nonneg (a.re - b.re), sq_nonneg (a.im - b.im)]

variable {Lf Rf Kp Ki wp : ℝ} {V W : ℝ → ℝ} {v r i x u v' r' i' x' u' : ℝ → ℂ} {ρ : ℂ}

/-- The difference grows at most exponentially. -/
theorem size_deriv {t M : ℝ} (ha : Phase Lf Rf Kp Ki wp V W v r i x u t) (hb : Phase Lf Rf Kp Ki wp V W v' r' i' x' u' t)
    (hv : v' t = ρ * v t) (hr : r' t = ρ * r t) (hM : |V t| ≤ M) :
    ∃ d, HasDerivAt (fun s => size ρ (i s) (x s) (u s) (i' s) (x' s) (u' s)) d t ∧
      d ≤ rate Lf Rf Kp Ki wp M * size ρ (i t) (x t) (u t) (i' t) (x' t) (u' t) := by
  have h1 := normSq_deriv (hb.di.sub (ha.di.const_mul ρ))
  have h2 := normSq_deriv (hb.dx.sub (ha.dx.const_mul ρ))
  have h3 := normSq_deriv (hb.du.sub (ha.du.const_mul ρ))
  refine ⟨_, (h1.add h2).add h3, ?_⟩
  simp only [Pi.sub_apply]
  set a := i' t - ρ * i t with hia
  set b := x' t - ρ * x t with hib
  set c := u' t - ρ * u t with hic
  have e1 : ((1 / Lf : ℝ) : ℂ) * (-(Rf : ℂ) * i' t - v' t + ((Kp : ℂ) * u' t + x' t) * ((V t / 2 : ℝ) : ℂ)) - I * (W t : ℂ) * i' t
      - ρ * (((1 / Lf : ℝ) : ℂ) * (-(Rf : ℂ) * i t - v t + ((Kp : ℂ) * u t + x t) * ((V t / 2 : ℝ) : ℂ)) - I * (W t : ℂ) * i t) =
      ((-(Rf / Lf) : ℝ) : ℂ) * a + ((V t / (2 * Lf) * Kp : ℝ) : ℂ) * c + ((V t / (2 * Lf) : ℝ) : ℂ) * b - ((W t : ℝ) : ℂ) * (I * a) := by
    rw [hv, hia, hib, hic]; push_cast; ring
  have e2 : (Ki : ℂ) * u' t - ρ * ((Ki : ℂ) * u t) = ((Ki : ℝ) : ℂ) * c := by rw [hic]; ring
  have e3 : (wp : ℂ) * (-u' t + r' t - i' t) - ρ * ((wp : ℂ) * (-u t + r t - i t)) = ((-wp : ℝ) : ℂ) * c + ((-wp : ℝ) : ℂ) * a := by
    rw [hr, hia, hic]; push_cast; ring
  have hrm : ∀ (k : ℝ) (y z : ℂ), ((starRingEnd ℂ) y * ((k : ℂ) * z)).re = k * ((starRingEnd ℂ) y * z).re := by
    intro k y z; simp [mul_re]; ring
  have haa : ∀ y : ℂ, ((starRingEnd ℂ) y * y).re = normSq y := by intro y; simp [normSq_apply, mul_re]
  have hIa : ((starRingEnd ℂ) a * (I * a)).re = 0 := by simp [mul_re]; ring
  rw [e1, e2, e3]
  simp only [mul_add, mul_sub, add_re, sub_re, hrm, haa, hIa]
  have sa := normSq_nonneg a
  have sb := normSq_nonneg b
  have sc := normSq_nonneg c
  have hac := re_conj_mul_le a c
  have hab := re_conj_mul_le a b
  have hbc := re_conj_mul_le b c
  have hca := re_conj_mul_le c a
  set N := size ρ (i t) (x t) (u t) (i' t) (x' t) (u' t) with hN
  have hN' : N = normSq a + normSq b + normSq c := rfl
  have bnd : ∀ k q : ℝ, |q| ≤ N → k * q ≤ |k| * N := fun k q hq =>
    (le_abs_self _).trans (by rw [abs_mul]; exact mul_le_mul_of_nonneg_left hq (abs_nonneg k))
  have q1 := bnd (-(Rf / Lf)) (normSq a) (by rw [abs_of_nonneg sa]; linarith)
  have q2 := bnd (V t / (2 * Lf) * Kp) ((starRingEnd ℂ) a * c).re (by linarith)
  have q3 := bnd (V t / (2 * Lf)) ((starRingEnd ℂ) a * b).re (by linarith)
  have q4 := bnd Ki ((starRingEnd ℂ) b * c).re (by linarith)
  have q5 := bnd (-wp) (normSq c) (by rw [abs_of_nonneg sc]; linarith)
  have q6 := bnd (-wp) ((starRingEnd ℂ) c * a).re (by linarith)
  have hN0 : 0 ≤ N := by linarith
  have hVL : |V t / (2 * Lf)| ≤ M / |Lf| / 2 := by
    rw [abs_div, abs_mul, abs_two]
    have : |V t| / (2 * |Lf|) = |V t| / |Lf| / 2 := by rw [div_div, mul_comm]
    rw [this]
    exact div_le_div_of_nonneg_right (div_le_div_of_nonneg_right hM (abs_nonneg _)) (by norm_num)
  have hVL1 : |V t / (2 * Lf)| * N ≤ M / |Lf| / 2 * N := mul_le_mul_of_nonneg_right hVL hN0
  have hVL2 : |V t / (2 * Lf) * Kp| * N ≤ M / |Lf| / 2 * |Kp| * N := by
    rw [abs_mul]
    exact mul_le_mul_of_nonneg_right (mul_le_mul_of_nonneg_right hVL (abs_nonneg _)) hN0
  rw [abs_neg] at q1 q5 q6
  unfold rate
  have : (2 * |Rf / Lf| + M / |Lf| * (|Kp| + 1) + 2 * |Ki| + 4 * |wp|) * N =
      2 * (|Rf / Lf| * N) + 2 * (M / |Lf| / 2 * |Kp| * N) + 2 * (M / |Lf| / 2 * N) + 2 * (|Ki| * N) + 2 * (|wp| * N) + 2 * (|wp| * N) := by ring
  rw [this]
  linarith

theorem size_nonneg (ρ a b c a' b' c' : ℂ) : 0 ≤ size ρ a b c a' b' c' := by
  have := normSq_nonneg (a' - ρ * a); have := normSq_nonneg (b' - ρ * b); have := normSq_nonneg (c' - ρ * c)
  unfold size; positivity

/-- Gronwall for the difference of two phases. -/
theorem size_le {t0 T M : ℝ} (ha : ∀ t ∈ Icc t0 T, Phase Lf Rf Kp Ki wp V W v r i x u t) (hb : ∀ t ∈ Icc t0 T, Phase Lf Rf Kp Ki wp V W v' r' i' x' u' t)
    (hv : ∀ t ∈ Icc t0 T, v' t = ρ * v t) (hr : ∀ t ∈ Icc t0 T, r' t = ρ * r t) (hM : ∀ t ∈ Icc t0 T, |V t| ≤ M) {t : ℝ} (ht : t ∈ Icc t0 T) :
    size ρ (i t) (x t) (u t) (i' t) (x' t) (u' t) ≤
      size ρ (i t0) (x t0) (u t0) (i' t0) (x' t0) (u' t0) * Real.exp (rate Lf Rf Kp Ki wp M * (t - t0)) := by
  set K := rate Lf Rf Kp Ki wp M with hK
  set N := fun s => size ρ (i s) (x s) (u s) (i' s) (x' s) (u' s) with hN
  have hd : ∀ s ∈ Icc t0 T, ∃ d, HasDerivAt N d s ∧ d ≤ K * N s := fun s hs => size_deriv (ha s hs) (hb s hs) (hv s hs) (hr s hs) (hM s hs)
  have hg : ∀ s ∈ Icc t0 T, ∃ d, HasDerivAt (fun s => N s * Real.exp (-(K * s))) d s ∧ d ≤ 0 := by
    intro s hs
    obtain ⟨d, h1, h2⟩ := hd s hs
    have h3 := h1.mul (((hasDerivAt_id' s).const_mul K).neg.exp)
    refine ⟨_, h3, ?_⟩
    have he := Real.exp_pos (-(K * s))
    have : (d - K * N s) * Real.exp (-(K * s)) ≤ 0 := mul_nonpos_of_nonpos_of_nonneg (by linarith) he.le
    simp only [Pi.neg_apply]
    linarith
  have hanti : AntitoneOn (fun s => N s * Real.exp (-(K * s))) (Icc t0 T) := by
    refine antitoneOn_of_deriv_nonpos (convex_Icc t0 T) (fun s hs => ?_) (fun s hs => ?_) (fun s hs => ?_)
    · obtain ⟨d, h, -⟩ := hg s hs; exact h.continuousAt.continuousWithinAt
    · obtain ⟨d, h, -⟩ := hg s (interior_subset hs); exact h.differentiableAt.differentiableWithinAt
    · obtain ⟨d, h, h'⟩ := hg s (interior_subset hs); rw [h.deriv]; exact h'
  have h := hanti ⟨le_rfl, ht.1.trans ht.2⟩ ht ht.1
  have he : Real.exp (-(K * t)) * Real.exp (K * t) = 1 := by rw [← Real.exp_add]; simp
  have h2 := mul_le_mul_of_nonneg_right h (Real.exp_pos (K * t)).le
  simp only [] at h2
  rw [mul_assoc, he, mul_one, mul_assoc, ← Real.exp_add] at h2
  have e2 : -(K * t0) + K * t = K * (t - t0) := by ring
  rw [e2] at h2
  exact h2

/-- No difference at the beginning, no difference later. -/
theorem stays {t0 T M : ℝ} (ha : ∀ t ∈ Icc t0 T, Phase Lf Rf Kp Ki wp V W v r i x u t) (hb : ∀ t ∈ Icc t0 T, Phase Lf Rf Kp Ki wp V W v' r' i' x' u' t)
    (hv : ∀ t ∈ Icc t0 T, v' t = ρ * v t) (hr : ∀ t ∈ Icc t0 T, r' t = ρ * r t) (hM : ∀ t ∈ Icc t0 T, |V t| ≤ M)
    (h0 : i' t0 = ρ * i t0 ∧ x' t0 = ρ * x t0 ∧ u' t0 = ρ * u t0) {t : ℝ} (ht : t ∈ Icc t0 T) : i' t = ρ * i t ∧ x' t = ρ * x t ∧ u' t = ρ * u t := by
  have h := size_le ha hb hv hr hM ht
  have e0 : size ρ (i t0) (x t0) (u t0) (i' t0) (x' t0) (u' t0) = 0 := by simp [size, h0]
  rw [e0, zero_mul] at h
  have n1 := normSq_nonneg (i' t - ρ * i t)
  have n2 := normSq_nonneg (x' t - ρ * x t)
  have n3 := normSq_nonneg (u' t - ρ * u t)
  unfold size at h
  refine ⟨sub_eq_zero.1 (normSq_eq_zero.1 ?_), sub_eq_zero.1 (normSq_eq_zero.1 ?_), sub_eq_zero.1 (normSq_eq_zero.1 ?_)⟩ <;> linarith

/-- The same when phase b is only known to follow its equations while its modulation is within the limit `m`, and phase a is strictly below it. -/
theorem stays_of_unsat {t0 T M m : ℝ} (ha : ∀ t ∈ Icc t0 T, Phase Lf Rf Kp Ki wp V W v r i x u t)
    (hb : ∀ t ∈ Icc t0 T, ‖(Kp : ℂ) * u' t + x' t‖ ≤ m → Phase Lf Rf Kp Ki wp V W v' r' i' x' u' t)
    (hlt : ∀ t ∈ Icc t0 T, ‖(Kp : ℂ) * u t + x t‖ < m) (hρ : ‖ρ‖ = 1)
    (ci : ∀ t ∈ Icc t0 T, ContinuousAt i' t) (cx : ∀ t ∈ Icc t0 T, ContinuousAt x' t) (cu : ∀ t ∈ Icc t0 T, ContinuousAt u' t)
    (hv : ∀ t ∈ Icc t0 T, v' t = ρ * v t) (hr : ∀ t ∈ Icc t0 T, r' t = ρ * r t) (hM : ∀ t ∈ Icc t0 T, |V t| ≤ M)
    (h0 : i' t0 = ρ * i t0 ∧ x' t0 = ρ * x t0 ∧ u' t0 = ρ * u t0) {t : ℝ} (ht : t ∈ Icc t0 T) : i' t = ρ * i t ∧ x' t = ρ * x t ∧ u' t = ρ * u t := by
  have hci : ∀ s ∈ Icc t0 T, ContinuousAt i s := fun s hs => (ha s hs).di.continuousAt
  have hcx : ∀ s ∈ Icc t0 T, ContinuousAt x s := fun s hs => (ha s hs).dx.continuousAt
  have hcu : ∀ s ∈ Icc t0 T, ContinuousAt u s := fun s hs => (ha s hs).du.continuousAt
  have key : Icc t0 T ⊆ {s | i' s = ρ * i s ∧ x' s = ρ * x s ∧ u' s = ρ * u s} := by
    refine IsClosed.Icc_subset_of_forall_exists_gt ?_ h0 ?_
    · have e : {s | i' s = ρ * i s ∧ x' s = ρ * x s ∧ u' s = ρ * u s} ∩ Icc t0 T =
          Icc t0 T ∩ (fun s => (i' s - ρ * i s, x' s - ρ * x s, u' s - ρ * u s)) ⁻¹' {0} := by
        ext s
        simp only [mem_inter_iff, mem_ofPred_eq, mem_preimage, mem_singleton_iff, Prod.mk_eq_zero, sub_eq_zero]
        tauto
      rw [e]
      refine ContinuousOn.preimage_isClosed_of_isClosed (fun s hs => ContinuousAt.continuousWithinAt ?_) isClosed_Icc isClosed_singleton
      exact ((ci s hs).sub (continuousAt_const.mul (hci s hs))).prodMk
        (((cx s hs).sub (continuousAt_const.mul (hcx s hs))).prodMk ((cu s hs).sub (continuousAt_const.mul (hcu s hs))))
    · rintro s ⟨hs, hsI⟩ y hy
      have hsm : s ∈ Icc t0 T := ⟨hsI.1, hsI.2.le⟩
      have hlt' : ‖(Kp : ℂ) * u' s + x' s‖ < m := by
        have : (Kp : ℂ) * u' s + x' s = ρ * ((Kp : ℂ) * u s + x s) := by rw [hs.2.1, hs.2.2]; ring
        rw [this, norm_mul, hρ, one_mul]; exact hlt s hsm
      have hev : ∀ᶠ z in nhds s, ‖(Kp : ℂ) * u' z + x' z‖ < m :=
        ((continuousAt_const.mul (cu s hsm)).add (cx s hsm)).norm.eventually_lt continuousAt_const hlt'
      obtain ⟨δ, hδ, hball⟩ := Metric.eventually_nhds_iff.1 hev
      set e := min (s + δ / 2) (min y T) with he
      have hse : s < e := lt_min (by linarith) (lt_min hy hsI.2)
      have heT : e ≤ T := (min_le_right _ _).trans (min_le_right _ _)
      have hsub : ∀ z ∈ Icc s e, z ∈ Icc t0 T := fun z hz => ⟨hsI.1.trans hz.1, hz.2.trans heT⟩
      have hu : ∀ z ∈ Icc s e, ‖(Kp : ℂ) * u' z + x' z‖ < m := by
        intro z hz
        apply hball
        rw [Real.dist_eq, abs_of_nonneg (by linarith [hz.1])]
        have : z ≤ s + δ / 2 := hz.2.trans (min_le_left _ _)
        linarith
      refine ⟨e, ?_, hse, (min_le_right _ _).trans (min_le_left _ _)⟩
      exact stays (fun z hz => ha z (hsub z hz)) (fun z hz => hb z (hsub z hz) (hu z hz).le) (fun z hz => hv z (hsub z hz))
        (fun z hz => hr z (hsub z hz)) (fun z hz => hM z (hsub z hz)) hs ⟨hse.le, le_rfl⟩
  exact key ht

end Defect
end PvDer
