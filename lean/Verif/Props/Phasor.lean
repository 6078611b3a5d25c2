import Verif.Model.Phasor
import Mathlib.Tactic.LinearCombination
import Mathlib.Tactic.FieldSimp
import Mathlib.Tactic.Linarith
import Mathlib.Tactic.NormNum

/-!
# Properties C47–C53: phasor and transformation formulas
-/

namespace PvDer
namespace Phasor

open Complex

theorem ej_eq (x : ℝ) : ej x = (Real.cos x : ℂ) + (Real.sin x : ℂ) * I := by
  unfold ej
  rw [mul_comm, exp_mul_I, ofReal_cos, ofReal_sin]

theorem ej_re (x : ℝ) : (ej x).re = Real.cos x := by rw [ej_eq]; simp [-ofReal_cos, -ofReal_sin]
theorem ej_im (x : ℝ) : (ej x).im = Real.sin x := by rw [ej_eq]; simp [-ofReal_cos, -ofReal_sin]
theorem ej_add (x y : ℝ) : ej (x + y) = ej x * ej y := by unfold ej; rw [← exp_add]; congr 1; push_cast; ring
theorem ej_zero : ej 0 = 1 := by simp [ej]
theorem ej_neg_mul (x : ℝ) : ej (-x) * ej x = 1 := by rw [← ej_add]; simp [ej_zero]
theorem norm_ej (x : ℝ) : ‖ej x‖ = 1 := by unfold ej; rw [mul_comm]; exact norm_exp_ofReal_mul_I x
theorem conj_ej (x : ℝ) : (starRingEnd ℂ) (ej x) = ej (-x) := by
  apply Complex.ext <;> simp [ej_re, ej_im]

theorem cos23 : Real.cos (2 / 3 * Real.pi) = -(1 / 2) := by
  have : 2 / 3 * Real.pi = Real.pi - Real.pi / 3 := by ring
  rw [this, Real.cos_pi_sub, Real.cos_pi_div_three]
theorem sin23 : Real.sin (2 / 3 * Real.pi) = Real.sqrt 3 / 2 := by
  have : 2 / 3 * Real.pi = Real.pi - Real.pi / 3 := by ring
  rw [this, Real.sin_pi_sub, Real.sin_pi_div_three]

/-- The rotation by +120°. -/
noncomputable def a3 : ℂ := ej ((2 / 3) * Real.pi)
/-- The rotation by -120°. -/
noncomputable def b3 : ℂ := ej (-(2 / 3) * Real.pi)

theorem b3_eq : b3 = ej (-((2 / 3) * Real.pi)) := by unfold b3; congr 1; ring
theorem ab3 : b3 * a3 = 1 := by rw [b3_eq, a3]; exact ej_neg_mul _
theorem sum3 : 1 + a3 + b3 = 0 := by
  apply Complex.ext
  · rw [b3_eq, a3]; simp only [add_re, one_re, ej_re, Real.cos_neg, cos23]; norm_num
  · rw [b3_eq, a3]; simp only [add_im, one_im, ej_im, Real.sin_neg, zero_im]; ring
theorem a3_sq : a3 ^ 2 = b3 := by linear_combination a3 * sum3 - ab3 - sum3
theorem b3_sq : b3 ^ 2 = a3 := by linear_combination b3 * sum3 - ab3 - sum3
theorem a3_cube : a3 ^ 3 = 1 := by linear_combination a3 * a3_sq + ab3
theorem ej43 : ej ((4 / 3) * Real.pi) = b3 := by
  have : (4 / 3) * Real.pi = (2 / 3) * Real.pi + (2 / 3) * Real.pi := by ring
  rw [this, ej_add, ← a3_sq, a3]; ring
theorem norm_a3 : ‖a3‖ = 1 := norm_ej _
theorem norm_b3 : ‖b3‖ = 1 := norm_ej _
theorem conj_a3 : (starRingEnd ℂ) a3 = b3 := by rw [a3, conj_ej, b3_eq]
theorem conj_b3 : (starRingEnd ℂ) b3 = a3 := by rw [← conj_a3, conj_conj]

/-! ### C47 -/

/-- C47: the phase shift operators preserve magnitude, are mutually inverse, three shifts are the identity, and the three phases of a balanced system sum to
zero. -/
theorem C47_phase_shift (u : ℂ) :
    ‖ub u‖ = ‖u‖ ∧ ‖uc u‖ = ‖u‖ ∧ ub (uc u) = u ∧ uc (ub u) = u ∧ u + ub u + uc u = 0 ∧ ub (ub (ub u)) = u ∧ ub (ub u) = uc u := by
  have hb : ∀ x, ub x = x * b3 := fun x => rfl
  have hc : ∀ x, uc x = x * a3 := fun x => rfl
  simp only [hb, hc, norm_mul, norm_a3, norm_b3, mul_one]
  refine ⟨trivial, trivial, ?_, ?_, ?_, ?_, ?_⟩
  · linear_combination u * ab3
  · linear_combination u * ab3
  · linear_combination u * sum3
  · linear_combination u * b3 * b3_sq + u * ab3
  · linear_combination u * b3_sq

/-- C47: the shift really is -120° / +120°: for a non-zero phasor the quotient is the unit phasor at that angle. -/
theorem C47_angle (u : ℂ) (hu : u ≠ 0) :
    ub u / u = ⟨-(1 / 2), -(Real.sqrt 3 / 2)⟩ ∧ uc u / u = ⟨-(1 / 2), Real.sqrt 3 / 2⟩ := by
  have hb : ub u = u * b3 := rfl
  have hc : uc u = u * a3 := rfl
  rw [hb, hc, mul_div_cancel_left₀ _ hu, mul_div_cancel_left₀ _ hu, b3_eq, a3]
  constructor
  · apply Complex.ext
    · rw [ej_re, Real.cos_neg, cos23]
    · rw [ej_im, Real.sin_neg, sin23]
  · apply Complex.ext
    · rw [ej_re, cos23]
    · rw [ej_im, sin23]

/-! ### C48 -/

theorem space_re (a b c wt : ℝ) : (space a b c wt).re =
    2 / 3 * (a * Real.cos wt + b * Real.cos (wt - 2 / 3 * Real.pi) + c * Real.cos (wt + 2 / 3 * Real.pi)) := by
  have e : space a b c wt = ((2 / 3 : ℝ) : ℂ) * ((a : ℂ) * ej (-wt) + (b : ℂ) * ej (2 / 3 * Real.pi - wt) + (c : ℂ) * ej (-(2 / 3) * Real.pi - wt)) := by
    unfold space
    rw [sub_eq_add_neg, sub_eq_add_neg, ej_add, ej_add]; push_cast; ring
  rw [e, re_ofReal_mul]
  simp only [add_re, re_ofReal_mul, ej_re]
  rw [Real.cos_neg, ← Real.cos_neg (2 / 3 * Real.pi - wt), ← Real.cos_neg (-(2 / 3) * Real.pi - wt)]
  congr 4 <;> ring_nf

theorem space_im (a b c wt : ℝ) : (space a b c wt).im =
    -(2 / 3) * (a * Real.sin wt + b * Real.sin (wt - 2 / 3 * Real.pi) + c * Real.sin (wt + 2 / 3 * Real.pi)) := by
  have e : space a b c wt = ((2 / 3 : ℝ) : ℂ) * ((a : ℂ) * ej (-wt) + (b : ℂ) * ej (2 / 3 * Real.pi - wt) + (c : ℂ) * ej (-(2 / 3) * Real.pi - wt)) := by
    unfold space
    rw [sub_eq_add_neg, sub_eq_add_neg, ej_add, ej_add]; push_cast; ring
  rw [e, im_ofReal_mul]
  simp only [add_im, im_ofReal_mul, ej_im]
  have h1 : 2 / 3 * Real.pi - wt = -(wt - 2 / 3 * Real.pi) := by ring
  have h2 : -(2 / 3) * Real.pi - wt = -(wt + 2 / 3 * Real.pi) := by ring
  rw [h1, h2, Real.sin_neg, Real.sin_neg, Real.sin_neg]
  ring

theorem sq3 : Real.sqrt 3 * Real.sqrt 3 = 3 := Real.mul_self_sqrt (by norm_num)

/-- C48: transforming to d-q-0 and back is the identity … -/
theorem C48_round_trip_abc (a b c wt : ℝ) :
    dq0ToAbc (abcToDq0 a b c wt).1 (abcToDq0 a b c wt).2.1 (abcToDq0 a b c wt).2.2 wt = (a, b, c) := by
  have h1 := Real.sin_sq_add_cos_sq wt
  have h3 := sq3
  simp only [abcToDq0, dq0ToAbc, space_re, space_im, Real.cos_sub, Real.cos_add, Real.sin_sub, Real.sin_add, cos23, sin23, Prod.mk.injEq]
  generalize Real.sin wt = s at *
  generalize Real.cos wt = k at *
  generalize Real.sqrt 3 = r at *
  refine ⟨?_, ?_, ?_⟩
  · linear_combination (2 / 3 * a - 1 / 3 * b - 1 / 3 * c) * h1
  · linear_combination (-1 / 3 * a + 1 / 6 * b + 1 / 6 * c + (b - c) / 6 * r ^ 2) * h1 + (b - c) / 6 * h3
  · linear_combination (-1 / 3 * a + 1 / 6 * b + 1 / 6 * c - (b - c) / 6 * r ^ 2) * h1 - (b - c) / 6 * h3

/-- … and conversely. -/
theorem C48_round_trip_dq0 (d q z wt : ℝ) :
    abcToDq0 (dq0ToAbc d q z wt).1 (dq0ToAbc d q z wt).2.1 (dq0ToAbc d q z wt).2.2 wt = (d, q, z) := by
  have h1 := Real.sin_sq_add_cos_sq wt
  have h3 := sq3
  simp only [abcToDq0, dq0ToAbc, space_re, space_im, Real.cos_sub, Real.cos_add, Real.sin_sub, Real.sin_add, cos23, sin23, Prod.mk.injEq]
  generalize Real.sin wt = s at *
  generalize Real.cos wt = k at *
  generalize Real.sqrt 3 = r at *
  refine ⟨?_, ?_, ?_⟩
  · linear_combination (d + d / 3 * (r * r - 3)) * h1 + (-d * k ^ 2 / 3 + d / 3 + k * q * s / 3) * h3
  · linear_combination q * h1 + (d * k * s / 3 + k ^ 2 * q / 3) * h3
  · ring

example : abcToDq0 1 (-(1/2)) (-(1/2)) 0 = (1, 0, 0) := by
  simp only [abcToDq0, space_re, space_im, Real.cos_sub, Real.cos_add, Real.sin_sub, Real.sin_add, cos23, sin23, Real.cos_zero, Real.sin_zero]
  norm_num

/-! ### C49 -/

/-- C49: `phasor_to_symmetrical` is invertible: the phasors are recovered from the components by the Fortescue synthesis … -/
theorem C49_symmetrical_invertible (a b c : ℂ) :
    let u := symm a b c
    u.1 + u.2.1 + u.2.2 = a ∧ u.1 + ub u.2.1 + uc u.2.2 = b ∧ u.1 + uc u.2.1 + ub u.2.2 = c := by
  intro u
  have hb : ∀ x, ub x = x * b3 := fun x => rfl
  have hc : ∀ x, uc x = x * a3 := fun x => rfl
  have ha : ej (2 / 3 * Real.pi) = a3 := rfl
  simp only [u, symm, hb, hc, ej43, ha]
  refine ⟨?_, ?_, ?_⟩
  · linear_combination (1 / 3) * (b + c) * sum3
  · linear_combination (1 / 3) * (a + c) * sum3 + (2 / 3 * b) * ab3 + (1 / 3 * c) * (a3_sq + b3_sq)
  · linear_combination (1 / 3) * (a + b) * sum3 + (2 / 3 * c) * ab3 + (1 / 3 * b) * (a3_sq + b3_sq)

/-- … and every triple of components arises. -/
theorem C49_symmetrical_surjective (u0 u1 u2 : ℂ) :
    symm (u0 + u1 + u2) (u0 + ub u1 + uc u2) (u0 + uc u1 + ub u2) = (u0, u1, u2) := by
  have hb : ∀ x, ub x = x * b3 := fun x => rfl
  have hc : ∀ x, uc x = x * a3 := fun x => rfl
  have ha : ej (2 / 3 * Real.pi) = a3 := rfl
  simp only [symm, hb, hc, ej43, ha, Prod.mk.injEq]
  refine ⟨?_, ?_, ?_⟩
  · linear_combination (1 / 3) * (u1 + u2) * sum3
  · linear_combination (1 / 3) * (u0 + u2) * sum3 + (2 / 3 * u1) * ab3 + (1 / 3 * u2) * (a3_sq + b3_sq)
  · linear_combination (1 / 3) * (u0 + u1) * sum3 + (2 / 3 * u2) * ab3 + (1 / 3 * u1) * (a3_sq + b3_sq)

/-- C49 (the part that holds): phase a is the sum of its sequence phasors; phases b and c are off by a multiple of the negative sequence component, so the
sums are right for all three phases exactly when that component vanishes. -/
theorem C49_sequence_sum_partial (a b c : ℂ) :
    (zeroSeq a b c).1 + (posSeq a b c).1 + (negSeq a b c).1 = a ∧
    ((zeroSeq a b c).2.1 + (posSeq a b c).2.1 + (negSeq a b c).2.1 = b ↔ (symm a b c).2.2 = 0) ∧
    ((zeroSeq a b c).2.2 + (posSeq a b c).2.2 + (negSeq a b c).2.2 = c ↔ (symm a b c).2.2 = 0) := by
  obtain ⟨h1, h2, h3⟩ := C49_symmetrical_invertible a b c
  have hb : ∀ x, ub x = x * b3 := fun x => rfl
  have hc : ∀ x, uc x = x * a3 := fun x => rfl
  have ha : ej (2 / 3 * Real.pi) = a3 := rfl
  have hne : b3 - a3 ≠ 0 := by
    intro h
    have := congrArg Complex.im h
    rw [b3_eq, a3, sub_im, ej_im, ej_im, Real.sin_neg, sin23] at this
    have h3 : 0 < Real.sqrt 3 := Real.sqrt_pos.2 (by norm_num)
    simp only [zero_im] at this
    linarith
  simp only [hb, hc] at h2 h3
  simp only [zeroSeq, posSeq, negSeq, ej43, ha]
  generalize symm a b c = u at *
  refine ⟨h1, ⟨fun h => ?_, fun h => ?_⟩, ⟨fun h => ?_, fun h => ?_⟩⟩
  · have : u.2.2 * (b3 - a3) = 0 := by linear_combination h - h2
    exact (mul_eq_zero.1 this).resolve_right hne
  · rw [h] at h2 ⊢; linear_combination h2
  · have : u.2.2 * (b3 - a3) = 0 := by linear_combination h3 - h
    exact (mul_eq_zero.1 this).resolve_right hne
  · rw [h] at h3 ⊢; linear_combination h3

/-- The refutation: for every purely negative-sequence system `(u, uc u, ub u)` the synthesized phase b is wrong. -/
theorem C49_negative_sequence_wrong (u : ℂ) (hu : u ≠ 0) :
    (zeroSeq u (uc u) (ub u)).2.1 + (posSeq u (uc u) (ub u)).2.1 + (negSeq u (uc u) (ub u)).2.1 ≠ uc u := by
  rw [Ne, (C49_sequence_sum_partial u (uc u) (ub u)).2.1]
  have := C49_symmetrical_surjective 0 0 u
  have h0 : ub 0 = 0 ∧ uc 0 = 0 := by simp [ub, uc]
  rw [h0.1, h0.2] at this
  simp only [zero_add] at this
  rw [this]
  exact hu

/-- A balanced system has only the positive sequence component. -/
theorem C49_balanced (u : ℂ) : symm u (ub u) (uc u) = (0, u, 0) := by
  have := C49_symmetrical_surjective 0 u 0
  have h0 : ub 0 = 0 ∧ uc 0 = 0 := by simp [ub, uc]
  rw [h0.1, h0.2] at this
  simpa using this

/-! ### C50 -/

/-- C50: minimum phase rms ≤ rms ≤ maximum phase rms, all non-negative. -/
theorem C50_rms_ordered (a b c : ℂ) :
    0 ≤ urmsMin a b c ∧ urmsMin a b c ≤ urms a b c ∧ urms a b c ≤ max (max (urms1 a) (urms1 b)) (urms1 c) ∧
    urmsMin a b c = min (min (urms1 a) (urms1 b)) (urms1 c) := by
  have h2 : 0 < Real.sqrt 2 := Real.sqrt_pos.2 (by norm_num)
  set m := min (min ‖a‖ ‖b‖) ‖c‖ with hm
  set M := max (max ‖a‖ ‖b‖) ‖c‖ with hM
  have hm0 : 0 ≤ m := le_min (le_min (norm_nonneg _) (norm_nonneg _)) (norm_nonneg _)
  have ma : m ≤ ‖a‖ := (min_le_left _ _).trans (min_le_left _ _)
  have mb : m ≤ ‖b‖ := (min_le_left _ _).trans (min_le_right _ _)
  have mc : m ≤ ‖c‖ := min_le_right _ _
  have Ma : ‖a‖ ≤ M := (le_max_left _ _).trans (le_max_left _ _)
  have Mb : ‖b‖ ≤ M := (le_max_right _ _).trans (le_max_left _ _)
  have Mc : ‖c‖ ≤ M := le_max_right _ _
  have hM0 : 0 ≤ M := (norm_nonneg _).trans Ma
  have na := norm_nonneg a
  have nb := norm_nonneg b
  have nc := norm_nonneg c
  refine ⟨div_nonneg hm0 h2.le, ?_, ?_, ?_⟩
  · unfold urmsMin urms
    refine div_le_div_of_nonneg_right ?_ h2.le
    refine Real.le_sqrt_of_sq_le ?_
    rw [← hm]
    nlinarith
  · have : max (max (urms1 a) (urms1 b)) (urms1 c) = M / Real.sqrt 2 := by
      unfold urms1
      rw [← max_div_div_right h2.le, ← max_div_div_right h2.le]
    rw [this]
    unfold urms
    refine div_le_div_of_nonneg_right ?_ h2.le
    rw [Real.sqrt_le_left hM0]
    nlinarith
  · unfold urmsMin urms1
    rw [← min_div_div_right h2.le, ← min_div_div_right h2.le]

/-- C50: for balanced phasors the three measures coincide. -/
theorem C50_balanced (u : ℂ) : urms u (ub u) (uc u) = urms1 u ∧ urmsMin u (ub u) (uc u) = urms1 u := by
  obtain ⟨hb, hc, _⟩ := C47_phase_shift u
  unfold urms urmsMin urms1
  rw [hb, hc]
  constructor
  · have : (‖u‖ ^ 2 + ‖u‖ ^ 2 + ‖u‖ ^ 2) / 3 = ‖u‖ ^ 2 := by ring
    rw [this, Real.sqrt_sq (norm_nonneg _)]
  · simp

/-- C50: equality of the average and the minimum characterises equal magnitudes. -/
theorem C50_min_eq_iff (a b c : ℂ) : urmsMin a b c = urms a b c ↔ ‖a‖ = ‖b‖ ∧ ‖b‖ = ‖c‖ := by
  have h2 : 0 < Real.sqrt 2 := Real.sqrt_pos.2 (by norm_num)
  have na := norm_nonneg a
  have nb := norm_nonneg b
  have nc := norm_nonneg c
  unfold urmsMin urms
  rw [div_left_inj' h2.ne']
  constructor
  · intro h
    set m := min (min ‖a‖ ‖b‖) ‖c‖ with hm
    have hm0 : 0 ≤ m := le_min (le_min na nb) nc
    have ma : m ≤ ‖a‖ := (min_le_left _ _).trans (min_le_left _ _)
    have mb : m ≤ ‖b‖ := (min_le_left _ _).trans (min_le_right _ _)
    have mc : m ≤ ‖c‖ := min_le_right _ _
    have hs : m ^ 2 = (‖a‖ ^ 2 + ‖b‖ ^ 2 + ‖c‖ ^ 2) / 3 := by rw [h, Real.sq_sqrt (by positivity)]
    have ea : m ^ 2 ≤ ‖a‖ ^ 2 := by nlinarith
    have eb : m ^ 2 ≤ ‖b‖ ^ 2 := by nlinarith
    have ec : m ^ 2 ≤ ‖c‖ ^ 2 := by nlinarith
    have ha : ‖a‖ = m := by
      have : ‖a‖ ^ 2 = m ^ 2 := by linarith
      exact (sq_eq_sq₀ na hm0).1 this
    have hb : ‖b‖ = m := by
      have : ‖b‖ ^ 2 = m ^ 2 := by linarith
      exact (sq_eq_sq₀ nb hm0).1 this
    have hc : ‖c‖ = m := by
      have : ‖c‖ ^ 2 = m ^ 2 := by linarith
      exact (sq_eq_sq₀ nc hm0).1 this
    exact ⟨by rw [ha, hb], by rw [hb, hc]⟩
  · rintro ⟨h1, h2⟩
    rw [h1, h2]
    have : (‖c‖ ^ 2 + ‖c‖ ^ 2 + ‖c‖ ^ 2) / 3 = ‖c‖ ^ 2 := by ring
    rw [this, Real.sqrt_sq nc]; simp

/-! ### C51 -/

theorem polar (z : ℂ) : (‖z‖ : ℂ) * ej (arg z) = z := by unfold ej; rw [mul_comm I]; exact norm_mul_exp_arg_mul_I z

/-- C51: for `0 ≤ low < high` the result has magnitude exactly the clamped magnitude (hence in `[low, high]`), the phase is kept (the result is a non-negative
multiple of the unit phasor of `z`), and the function is the identity inside the limits. -/
theorem C51_limit_complex (z : ℂ) (low high : ℝ) (h0 : 0 ≤ low) (hlt : low < high) :
    ∃ r, limitComplex z low high = .ok r ∧ ‖r‖ = min (max ‖z‖ low) high ∧ low ≤ ‖r‖ ∧ ‖r‖ ≤ high ∧ r = (‖r‖ : ℂ) * exp (I * arg z) ∧
      (low ≤ ‖z‖ → ‖z‖ ≤ high → r = z) := by
  have hr0 : 0 ≤ min (max ‖z‖ low) high := le_min (h0.trans (le_max_right _ _)) (h0.trans hlt.le)
  have hn : ‖((min (max ‖z‖ low) high : ℝ) : ℂ) * ej (arg z)‖ = min (max ‖z‖ low) high := by
    rw [norm_mul, norm_ej, mul_one, norm_real, Real.norm_of_nonneg hr0]
  refine ⟨_, by unfold limitComplex; rw [if_pos hlt], hn, ?_, ?_, ?_, ?_⟩
  · rw [hn]; exact le_min (le_max_right _ _) hlt.le
  · rw [hn]; exact min_le_right _ _
  · rw [hn]; rfl
  · intro h1 h2
    rw [max_eq_left h1, min_eq_left h2, polar]

/-- C51: with the default arguments `(-1, 1)` the function clips to the unit disc. -/
theorem C51_limit_complex_default (z : ℂ) :
    ∃ r, limitComplex z (-1) 1 = .ok r ∧ ‖r‖ = min ‖z‖ 1 ∧ (‖z‖ ≤ 1 → r = z) ∧ r = (‖r‖ : ℂ) * exp (I * arg z) := by
  have hmx : max ‖z‖ (-1) = ‖z‖ := max_eq_left (by linarith [norm_nonneg z])
  have hr0 : 0 ≤ min ‖z‖ 1 := le_min (norm_nonneg _) (by norm_num)
  have hn : ‖((min ‖z‖ 1 : ℝ) : ℂ) * ej (arg z)‖ = min ‖z‖ 1 := by
    rw [norm_mul, norm_ej, mul_one, norm_real, Real.norm_of_nonneg hr0]
  refine ⟨((min ‖z‖ 1 : ℝ) : ℂ) * ej (arg z), by unfold limitComplex; rw [if_pos (by norm_num), hmx], hn, ?_, ?_⟩
  · intro h; rw [min_eq_left h, polar]
  · rw [hn]; rfl

/-- C51: equal or inverted limits are rejected. -/
theorem C51_bad_limits (z : ℂ) (low high : ℝ) (h : high ≤ low) : limitComplex z low high = .error .assertionError := by
  unfold limitComplex; rw [if_neg (not_lt.2 h)]

/-- With a negative upper limit the bound fails: the magnitude is `|high|`, above `high`. -/
theorem C51_negative_high (z : ℂ) (low high : ℝ) (hlt : low < high) (hh : high < 0) :
    ∃ r, limitComplex z low high = .ok r ∧ ‖r‖ = -high := by
  refine ⟨_, by unfold limitComplex; rw [if_pos hlt], ?_⟩
  have : min (max ‖z‖ low) high = high := min_eq_right (hh.le.trans ((norm_nonneg z).trans (le_max_left _ _)))
  rw [this, norm_mul, norm_ej, mul_one, norm_real, Real.norm_of_nonpos hh.le]

/-! ### C52 -/

/-- C52: for balanced voltages and currents the three-phase power is three times the single-phase one. -/
theorem C52_three_phase_power (v i : ℂ) : sCalc v (ub v) (uc v) i (ub i) (uc i) = 3 * sPh v i := by
  have hb : ∀ x, ub x = x * b3 := fun x => rfl
  have hc : ∀ x, uc x = x * a3 := fun x => rfl
  simp only [sCalc, sPh, hb, hc, map_mul, conj_a3, conj_b3]
  linear_combination (v * (starRingEnd ℂ) i) * ab3

theorem toTime_eq (u : ℂ) (w t : ℝ) : toTime u w t = (u * ej (w * t)).im := by
  have h : (u * ej (w * t)) = (‖u‖ : ℂ) * ej (w * t + arg u) := by
    rw [ej_add]
    linear_combination (-(ej (w * t))) * polar u
  rw [h, im_ofReal_mul, ej_im, toTime, ej_re, Real.cos_sub_pi_div_two]

/-- The time-domain signal of a phasor: `|u|·sin(w t + angle u)`. -/
theorem toTime_sin (u : ℂ) (w t : ℝ) : toTime u w t = ‖u‖ * Real.sin (w * t + arg u) := by
  rw [toTime, ej_re, Real.cos_sub_pi_div_two]

theorem ofReal_im (z : ℂ) : ((z.im : ℝ) : ℂ) = (z - (starRingEnd ℂ) z) / 2 * (-I) := by
  apply Complex.ext <;> simp

/-- The d-q space vector of any (unbalanced) three-phase phasor system: positive sequence minus the conjugate of the negative sequence. -/
theorem space_eq (a b c : ℂ) (w t wte : ℝ) :
    space (toTime a w t) (toTime b w t) (toTime c w t) wte =
      -I * ((symm a b c).2.1 * ej (w * t - wte) - (starRingEnd ℂ) (symm a b c).2.2 * ej (-(w * t) - wte)) := by
  have ha : ej (2 / 3 * Real.pi) = a3 := rfl
  have hb : ej (-(2 / 3) * Real.pi) = b3 := rfl
  rw [sub_eq_add_neg (w * t), sub_eq_add_neg (-(w * t)), ej_add, ej_add]
  simp only [space, symm, toTime_eq, ofReal_im, map_mul, map_add, conj_ej, ej43, ha, hb, conj_a3, conj_b3, map_div₀, map_one, map_ofNat]
  ring

/-- C52: with the d-q components of both signals at any instant and PLL angle, `(3/2)(v_dq · conj i_dq)` is the apparent power. -/
theorem C52_dq_power (v i : ℂ) (w t wte : ℝ) :
    let V := pll3 v (ub v) (uc v) w t wte
    let J := pll3 i (ub i) (uc i) w t wte
    (3 / 2 : ℂ) * ((V.1 + I * V.2.1) * (starRingEnd ℂ) (J.1 + I * J.2.1)) = sCalc v (ub v) (uc v) i (ub i) (uc i) := by
  intro V J
  have key : ∀ u : ℂ, ((pll3 u (ub u) (uc u) w t wte).1 : ℂ) + I * (pll3 u (ub u) (uc u) w t wte).2.1 = -I * (u * ej (w * t - wte)) := by
    intro u
    have h := space_eq u (ub u) (uc u) w t wte
    rw [C49_balanced] at h
    simp only [map_zero, zero_mul, sub_zero] at h
    rw [← h]
    simp only [pll3, abcToDq0]
    conv_rhs => rw [← re_add_im (space (toTime u w t) (toTime (ub u) w t) (toTime (uc u) w t) wte)]
    ring
  rw [C52_three_phase_power]
  simp only [V, J, key, map_mul, map_neg, conj_I, conj_ej, sPh]
  have h1 := ej_neg_mul (w * t - wte)
  have hI : I * I = -1 := I_mul_I
  linear_combination (3 / 2 * v * (starRingEnd ℂ) i) * h1 + (-(3 / 2) * v * (starRingEnd ℂ) i * ej (w * t - wte) * ej (-(w * t - wte))) * hI

/-- C52: instantaneous power is preserved by the transform for arbitrary signals: `va·ia+vb·ib+vc·ic = 3/2(vd·id+vq·iq)+3·v0·i0`. -/
theorem C52_park_power (a b c x y z wt : ℝ) :
    let V := abcToDq0 a b c wt
    let J := abcToDq0 x y z wt
    a * x + b * y + c * z = 3 / 2 * (V.1 * J.1 + V.2.1 * J.2.1) + 3 * (V.2.2 * J.2.2) := by
  intro V J
  have h1 := C48_round_trip_abc a b c wt
  have h2 := C48_round_trip_abc x y z wt
  have e1 : (abcToDq0 a b c wt) = V := rfl
  have e2 : (abcToDq0 x y z wt) = J := rfl
  rw [e1] at h1
  rw [e2] at h2
  generalize V = V at *
  generalize J = J at *
  simp only [dq0ToAbc, Prod.mk.injEq, Real.cos_sub, Real.cos_add, Real.sin_sub, Real.sin_add, cos23, sin23] at h1 h2
  rw [← h1.1, ← h1.2.1, ← h1.2.2, ← h2.1, ← h2.2.1, ← h2.2.2]
  have hs := Real.sin_sq_add_cos_sq wt
  have h3 := sq3
  generalize Real.sin wt = s at *
  generalize Real.cos wt = k at *
  generalize Real.sqrt 3 = r at *
  obtain ⟨d, q, e⟩ := V
  obtain ⟨d', q', e'⟩ := J
  simp only
  have hr : r ^ 2 = 3 := by rw [sq]; exact h3
  have hk : k ^ 2 = 1 - s ^ 2 := by linarith
  ring_nf
  simp only [hr, hk]
  ring

/-! ### C53 -/

/-- C53 (single-phase): with `θ = w·t + angle(va) - wte` the PLL sees `vd = |va|·sin θ`, `vq = -|va|·cos θ`. -/
theorem C53_pll_input (va : ℂ) (w t wte : ℝ) :
    pll1 va w t wte = (‖va‖ * Real.sin (w * t + arg va - wte), -(‖va‖ * Real.cos (w * t + arg va - wte))) := by
  have hq : exp (-I * (Real.pi / 2)) = -I := by
    have : -I * ((Real.pi : ℂ) / 2) = -((Real.pi : ℂ) / 2 * I) := by ring
    rw [this, exp_neg, exp_pi_div_two_mul_I]; simp
  have hj : exp (-I * (wte : ℂ)) = ej (-wte) := by unfold ej; congr 1; push_cast; ring
  have h : ((toTime va w t : ℝ) : ℂ) + I * ((toTime (va * exp (-I * (Real.pi / 2))) w t : ℝ) : ℂ) = -I * (‖va‖ * ej (w * t + arg va)) := by
    rw [hq, toTime_eq, toTime_eq, ej_add]
    have hz : va * ej (w * t) = (‖va‖ : ℂ) * (ej (w * t) * ej (arg va)) := by linear_combination (-(ej (w * t))) * polar va
    rw [← hz]
    have : va * -I * ej (w * t) = -I * (va * ej (w * t)) := by ring
    rw [this]
    apply Complex.ext <;> simp
  have h2 : (-I * (‖va‖ * ej (w * t + arg va))) * ej (-wte) = (‖va‖ : ℂ) * (-I * ej (w * t + arg va - wte)) := by
    rw [sub_eq_add_neg, ej_add _ (-wte)]; ring
  unfold pll1 alphaBetaToDq
  rw [h, hj, h2, re_ofReal_mul, im_ofReal_mul]
  simp [ej_re, ej_im]

/-- C53: zero exactly at phase lock (modulo half turns), bounded by the magnitude, and no information is lost. -/
theorem C53_pll_lock (va : ℂ) (hva : va ≠ 0) (w t wte : ℝ) :
    ((pll1 va w t wte).1 = 0 ↔ ∃ n : ℤ, (n : ℝ) * Real.pi = w * t + arg va - wte) ∧ |(pll1 va w t wte).1| ≤ ‖va‖ ∧
    (pll1 va w t wte).1 ^ 2 + (pll1 va w t wte).2 ^ 2 = ‖va‖ ^ 2 := by
  have hn : 0 < ‖va‖ := norm_pos_iff.2 hva
  rw [C53_pll_input]
  refine ⟨?_, ?_, ?_⟩
  · simp only [mul_eq_zero, hn.ne', false_or]
    exact Real.sin_eq_zero_iff
  · simp only
    rw [abs_mul, abs_of_pos hn]
    calc ‖va‖ * |Real.sin _| ≤ ‖va‖ * 1 := mul_le_mul_of_nonneg_left (Real.abs_sin_le_one _) hn.le
      _ = ‖va‖ := mul_one _
  · simp only
    have := Real.sin_sq_add_cos_sq (w * t + arg va - wte)
    linear_combination ‖va‖ ^ 2 * this

/-- C53 (three-phase, balanced voltages): the PLL sees the same `vd`, `vq`, and no zero component. -/
theorem C53_pll_three_phase (va : ℂ) (w t wte : ℝ) :
    pll3 va (ub va) (uc va) w t wte = ((pll1 va w t wte).1, (pll1 va w t wte).2, 0) := by
  have h := space_eq va (ub va) (uc va) w t wte
  rw [C49_balanced] at h
  simp only [map_zero, zero_mul, sub_zero] at h
  have h2 : -I * (va * ej (w * t - wte)) = (‖va‖ : ℂ) * (-I * ej (w * t + arg va - wte)) := by
    have : w * t + arg va - wte = arg va + (w * t - wte) := by ring
    rw [this, ej_add]
    linear_combination (I * ej (w * t - wte)) * polar va
  have h0 : toTime va w t + toTime (ub va) w t + toTime (uc va) w t = 0 := by
    simp only [toTime_eq, ← add_im, ← add_mul]
    rw [(C47_phase_shift va).2.2.2.2.1]; simp
  unfold pll3 abcToDq0
  rw [h, h2, h0, C53_pll_input, re_ofReal_mul, im_ofReal_mul]
  simp [ej_re, ej_im]

/-- C53 (three-phase, unbalanced voltages): the PLL input is the positive sequence's `|u1| sin(w t + angle u1 - wte)` plus a ripple at twice the frequency of
amplitude exactly `|u2|`; the zero sequence has no effect. -/
theorem C53_pll_unbalanced (va vb vc : ℂ) (w t wte : ℝ) :
    (pll3 va vb vc w t wte).1 = ‖(symm va vb vc).2.1‖ * Real.sin (w * t + arg (symm va vb vc).2.1 - wte) +
      ‖(symm va vb vc).2.2‖ * Real.sin (w * t + arg (symm va vb vc).2.2 + wte) := by
  have h := space_eq va vb vc w t wte
  generalize (symm va vb vc).2.1 = u1 at *
  generalize (symm va vb vc).2.2 = u2 at *
  have e1 : u1 * ej (w * t - wte) = (‖u1‖ : ℂ) * ej (w * t + arg u1 - wte) := by
    have : w * t + arg u1 - wte = arg u1 + (w * t - wte) := by ring
    rw [this, ej_add]
    linear_combination (-ej (w * t - wte)) * polar u1
  have e2 : (starRingEnd ℂ) u2 * ej (-(w * t) - wte) = (‖u2‖ : ℂ) * ej (-(w * t + arg u2 + wte)) := by
    have : -(w * t + arg u2 + wte) = -(arg u2) + (-(w * t) - wte) := by ring
    rw [this, ej_add]
    have hp : (starRingEnd ℂ) u2 = (‖u2‖ : ℂ) * ej (-(arg u2)) := by
      conv_lhs => rw [← polar u2]
      rw [map_mul, conj_ofReal, conj_ej]
    rw [hp]; ring
  have h1 : (pll3 va vb vc w t wte).1 = (space (toTime va w t) (toTime vb w t) (toTime vc w t) wte).re := rfl
  rw [h1, h, e1, e2]
  have : -I * ((‖u1‖ : ℂ) * ej (w * t + arg u1 - wte) - (‖u2‖ : ℂ) * ej (-(w * t + arg u2 + wte))) =
      (‖u1‖ : ℂ) * (-I * ej (w * t + arg u1 - wte)) + (‖u2‖ : ℂ) * (I * ej (-(w * t + arg u2 + wte))) := by ring
  rw [this, add_re, re_ofReal_mul, re_ofReal_mul]
  simp only [neg_mul, neg_re, mul_re, I_re, I_im, ej_re, ej_im, Real.sin_neg]
  ring

/-- The frequency equals nominal exactly when the PLL filter output vanishes. -/
theorem C53_frequency (Kp vd x : ℝ) : weCalc Kp vd x = 2 * Real.pi * 60 ↔ x = -(Kp * vd) := by
  unfold weCalc; constructor <;> intro h <;> linarith

example : (pll1 1 1 0 0).1 = 0 ∧ (pll1 I 1 0 0).1 = 1 := by
  rw [C53_pll_input, C53_pll_input]; simp

end Phasor
end PvDer
