import Verif.Props.SteadyExact

/-!
# Property C114: unbalance and relative phase

`Uunbalance_calc` and `relative_phase_calc` (utility_functions.py), the folding of relative phases and the balance term of the steady-state objective built on them.
-/

namespace PvDer
namespace Ode
namespace SS

open Complex Phasor

/-- C114: on positive magnitudes the unbalance is the largest of the three pairwise differences relative to the mean: it bounds all three and one of them attains it. -/
theorem C114_unbalance_largest_difference (a b c : ℝ) (ha : 0 < a) (hb : 0 < b) (hc : 0 < c) :
    |a - b| / ((a + b + c) / 3) ≤ unbalance a b c ∧ |b - c| / ((a + b + c) / 3) ≤ unbalance a b c ∧ |a - c| / ((a + b + c) / 3) ≤ unbalance a b c ∧
      (unbalance a b c = |a - b| / ((a + b + c) / 3) ∨ unbalance a b c = |b - c| / ((a + b + c) / 3) ∨ unbalance a b c = |a - c| / ((a + b + c) / 3)) := by
  have hm : 0 < (a + b + c) / 3 := by positivity
  have k1 : |a - b| ≤ max (max a b) c - min (min a b) c := by
    rw [abs_le]; constructor <;> rcases max_cases a b with ⟨e1, _⟩ | ⟨e1, _⟩ <;> rcases min_cases a b with ⟨e2, _⟩ | ⟨e2, _⟩ <;> rw [e1, e2] <;>
      rcases max_cases a c with ⟨e3, _⟩ | ⟨e3, _⟩ <;> rcases min_cases a c with ⟨e4, _⟩ | ⟨e4, _⟩ <;>
      rcases max_cases b c with ⟨e5, _⟩ | ⟨e5, _⟩ <;> rcases min_cases b c with ⟨e6, _⟩ | ⟨e6, _⟩ <;> simp only [e3, e4, e5, e6] <;> linarith
  have k2 : |b - c| ≤ max (max a b) c - min (min a b) c := by
    have h1 : b ≤ max (max a b) c := (le_max_right a b).trans (le_max_left _ _)
    have h2 : c ≤ max (max a b) c := le_max_right _ _
    have h3 : min (min a b) c ≤ b := (min_le_left _ _).trans (min_le_right a b)
    have h4 : min (min a b) c ≤ c := min_le_right _ _
    rw [abs_le]; constructor <;> linarith
  have k3 : |a - c| ≤ max (max a b) c - min (min a b) c := by
    have h1 : a ≤ max (max a b) c := (le_max_left a b).trans (le_max_left _ _)
    have h2 : c ≤ max (max a b) c := le_max_right _ _
    have h3 : min (min a b) c ≤ a := (min_le_left _ _).trans (min_le_left a b)
    have h4 : min (min a b) c ≤ c := min_le_right _ _
    rw [abs_le]; constructor <;> linarith
  refine ⟨div_le_div_of_nonneg_right k1 hm.le, div_le_div_of_nonneg_right k2 hm.le, div_le_div_of_nonneg_right k3 hm.le, ?_⟩
  have key : max (max a b) c - min (min a b) c = |a - b| ∨ max (max a b) c - min (min a b) c = |b - c| ∨ max (max a b) c - min (min a b) c = |a - c| := by
    rcases le_total a b with h1 | h1 <;> rcases le_total b c with h2 | h2 <;> rcases le_total a c with h3 | h3 <;>
      simp only [max_eq_left, max_eq_right, min_eq_left, min_eq_right, h1, h2, h3]
    · right; right; rw [abs_of_nonpos (by linarith)]; ring
    · right; right; rw [abs_of_nonneg (by linarith)]; linarith
    · left; rw [abs_of_nonpos (by linarith)]; ring
    · right; left; rw [abs_of_nonneg (by linarith)]
    · right; left; rw [abs_of_nonpos (by linarith)]; ring
    · left; rw [abs_of_nonneg (by linarith)]
    · right; right; rw [abs_of_nonpos (by linarith)]; linarith
    · right; right; rw [abs_of_nonneg (by linarith)]
  unfold unbalance
  rcases key with h | h | h
  · left; rw [h]
  · right; left; rw [h]
  · right; right; rw [h]

/-- C114: the unbalance of positive magnitudes lies in `[0, 3)`, vanishes exactly for equal magnitudes, and does not depend on the order of the phases or the unit. -/
theorem C114_unbalance (a b c : ℝ) (ha : 0 < a) (hb : 0 < b) (hc : 0 < c) :
    0 ≤ unbalance a b c ∧ unbalance a b c < 3 ∧ (unbalance a b c = 0 ↔ a = b ∧ b = c) ∧ unbalance a b c = unbalance b a c ∧ unbalance a b c = unbalance a c b ∧
      (∀ k, 0 < k → unbalance (k * a) (k * b) (k * c) = unbalance a b c) := by
  have hm : 0 < (a + b + c) / 3 := by positivity
  obtain ⟨g1, g2, g3, g4⟩ := C114_unbalance_largest_difference a b c ha hb hc
  have lt3 : ∀ x, |x| < a + b + c → |x| / ((a + b + c) / 3) < 3 := fun x hx => by rw [div_lt_iff₀ hm]; linarith
  have l1 : |a - b| < a + b + c := by rw [abs_lt]; constructor <;> linarith
  have l2 : |b - c| < a + b + c := by rw [abs_lt]; constructor <;> linarith
  have l3 : |a - c| < a + b + c := by rw [abs_lt]; constructor <;> linarith
  have h0 : 0 ≤ unbalance a b c := le_trans (div_nonneg (abs_nonneg _) hm.le) g1
  refine ⟨h0, ?_, ⟨fun h => ?_, fun ⟨h1, h2⟩ => ?_⟩, ?_, ?_, fun k hk => ?_⟩
  · rcases g4 with h | h | h <;> rw [h]
    exacts [lt3 _ l1, lt3 _ l2, lt3 _ l3]
  · rw [h] at g1 g2
    have z1 : |a - b| = 0 := by
      have := (div_le_iff₀ hm).1 g1; rw [zero_mul] at this; exact le_antisymm this (abs_nonneg _)
    have z2 : |b - c| = 0 := by
      have := (div_le_iff₀ hm).1 g2; rw [zero_mul] at this; exact le_antisymm this (abs_nonneg _)
    exact ⟨by linarith [abs_eq_zero.1 z1], by linarith [abs_eq_zero.1 z2]⟩
  · subst h1; subst h2; unfold unbalance; simp
  · unfold unbalance; rw [max_comm a b, min_comm a b]; congr 1; ring
  · unfold unbalance; rw [max_assoc, max_comm b c, ← max_assoc, min_assoc, min_comm b c, ← min_assoc]; congr 1; ring
  · unfold unbalance
    rw [← mul_max_of_nonneg _ _ hk.le, ← mul_max_of_nonneg _ _ hk.le, ← mul_min_of_nonneg _ _ hk.le, ← mul_min_of_nonneg _ _ hk.le, ← mul_sub,
      show (k * a + k * b + k * c) / 3 = k * ((a + b + c) / 3) by ring, mul_div_mul_left _ _ hk.ne']

/-- Concrete case: magnitudes 0.9, 1, 1.1 have an unbalance of 20 %. -/
theorem C114_unbalance_example : unbalance (9/10) 1 (11/10) = 1/5 ∧ (0:ℝ) < 9/10 := by
  constructor
  · unfold unbalance; rw [max_eq_right (by norm_num : (9/10:ℝ) ≤ 1), min_eq_left (by norm_num : (9/10:ℝ) ≤ 1), max_eq_right (by norm_num : (1:ℝ) ≤ 11/10),
      min_eq_left (by norm_num : (9/10:ℝ) ≤ 11/10)]; norm_num
  · norm_num

/-! ### Relative phase -/

/-- C114: the relative phase is in `[0, 2π)` and differs from the difference of the arguments by a multiple of `2π`. -/
theorem C114_relative_phase_range (u v : ℂ) : 0 ≤ relPhase u v ∧ relPhase u v < 2 * Real.pi ∧ ∃ k : ℤ, arg u - arg v = relPhase u v + 2 * Real.pi * k := by
  have hpi := Real.pi_pos
  unfold relPhase
  set d := (arg u - arg v) * (180 / Real.pi) with hd
  have h1 := Int.floor_le (d / 360)
  have h2 := Int.lt_floor_add_one (d / 360)
  have e1 : 0 ≤ d - 360 * ⌊d / 360⌋ := by
    have : d / 360 * 360 = d := by ring
    nlinarith
  have e2 : d - 360 * ⌊d / 360⌋ < 360 := by
    have : d / 360 * 360 = d := by ring
    nlinarith
  refine ⟨mul_nonneg e1 (by positivity), ?_, ⌊d / 360⌋, ?_⟩
  · calc (d - 360 * ⌊d / 360⌋) * (Real.pi / 180) < 360 * (Real.pi / 180) := mul_lt_mul_of_pos_right e2 (by positivity)
      _ = 2 * Real.pi := by ring
  · have : d * (Real.pi / 180) = arg u - arg v := by rw [hd]; field_simp
    linear_combination -this

theorem ej_int (k : ℤ) : ej (2 * Real.pi * k) = 1 := by
  unfold ej
  rw [show I * ((2 * Real.pi * k : ℝ) : ℂ) = k * (2 * Real.pi * I) by push_cast; ring]
  exact Complex.exp_int_mul_two_pi_mul_I k

theorem ej_addm (x y : ℝ) : ej (x + y) = ej x * ej y := by unfold ej; rw [← Complex.exp_add]; congr 1; push_cast; ring

theorem polar (u : ℂ) : u = ‖u‖ * ej (arg u) := by
  unfold ej; rw [mul_comm I]; exact (Complex.norm_mul_exp_arg_mul_I u).symm

/-- C114: it is the angle that turns the direction of the second phasor into that of the first. -/
theorem C114_relative_phase_turns (u v : ℂ) : (‖v‖ : ℂ) * u = (‖u‖ : ℂ) * (v * ej (relPhase u v)) := by
  obtain ⟨-, -, k, hk⟩ := C114_relative_phase_range u v
  have e : ej (arg u) = ej (arg v) * ej (relPhase u v) := by
    rw [← ej_addm, show arg u = (arg v + relPhase u v) + 2 * Real.pi * k by linarith, ej_addm, ej_int, mul_one]
  calc (‖v‖ : ℂ) * u = ‖v‖ * (‖u‖ * ej (arg u)) := by rw [← polar u]
    _ = ‖u‖ * ((‖v‖ * ej (arg v)) * ej (relPhase u v)) := by rw [e]; ring
    _ = _ := by rw [← polar v]

/-- C114: positive scalings of the phasors do not change it, and a common rotation of both does not either. -/
theorem C114_relative_phase_invariant (u v : ℂ) (hu : u ≠ 0) (hv : v ≠ 0) :
    (∀ r s : ℝ, 0 < r → 0 < s → relPhase (r * u) (s * v) = relPhase u v) ∧ (∀ φ : ℝ, -Real.pi < φ → φ ≤ Real.pi → relPhase (u * ej φ) (v * ej φ) = relPhase u v) := by
  obtain ⟨h0, h1, k, hk⟩ := C114_relative_phase_range u v
  constructor
  · intro r s hr hs
    refine relPhase_of h0 h1 k ?_
    rw [Complex.arg_real_mul _ hr, Complex.arg_real_mul _ hs]; exact hk
  · intro φ p1 p2
    obtain ⟨m, hm⟩ := arg_rot u hu φ p1 p2
    obtain ⟨n, hn⟩ := arg_rot v hv φ p1 p2
    refine relPhase_of h0 h1 (k + m - n) ?_
    push_cast; linarith

/-- C114: exchanging the phasors gives the complementary angle (or again zero). -/
theorem C114_relative_phase_exchange (u v : ℂ) : relPhase v u = if relPhase u v = 0 then 0 else 2 * Real.pi - relPhase u v := by
  obtain ⟨h0, h1, k, hk⟩ := C114_relative_phase_range u v
  split_ifs with h
  · exact relPhase_of le_rfl (by positivity) (-k) (by push_cast; rw [h] at hk; linarith)
  · have : 0 < relPhase u v := lt_of_le_of_ne h0 (Ne.symm h)
    exact relPhase_of (by linarith) (by linarith) (-k - 1) (by push_cast; linarith)

/-- C114: the folded relative phase used by the steady-state solver is the unsigned angle between the two phasors: in `[0, π]`, the same in both orders, with cosine
`Re(u·conj v)/(‖u‖‖v‖)`. -/
theorem C114_folded_phase (u v : ℂ) (hu : u ≠ 0) (hv : v ≠ 0) :
    0 ≤ fold180 (relPhase u v) ∧ fold180 (relPhase u v) ≤ Real.pi ∧ fold180 (relPhase u v) = fold180 (relPhase v u) ∧
      Real.cos (fold180 (relPhase u v)) = (u * (starRingEnd ℂ) v).re / (‖u‖ * ‖v‖) := by
  have hpi := Real.pi_pos
  obtain ⟨h0, h1, -⟩ := C114_relative_phase_range u v
  have hform : ∀ x, 0 ≤ x → x < 2 * Real.pi → fold180 x = if x > Real.pi then 2 * Real.pi - x else x := fun x _ hx => by
    unfold fold180; split_ifs
    · rw [abs_of_neg (by linarith)]; ring
    · rfl
  have hcos : Real.cos (fold180 (relPhase u v)) = Real.cos (relPhase u v) := by
    rw [hform _ h0 h1]; split_ifs
    · rw [Real.cos_two_pi_sub]
    · rfl
  refine ⟨?_, ?_, ?_, ?_⟩
  · rw [hform _ h0 h1]; split_ifs <;> linarith
  · rw [hform _ h0 h1]; split_ifs <;> linarith
  · obtain ⟨g0, g1, -⟩ := C114_relative_phase_range v u
    rw [hform _ h0 h1, hform _ g0 g1, C114_relative_phase_exchange u v]
    by_cases hz : relPhase u v = 0
    · simp [hz]
    · simp only [if_neg hz]
      split_ifs <;> linarith
  · rw [hcos]
    have nu : (‖u‖ : ℝ) ≠ 0 := norm_ne_zero_iff.2 hu
    have nv : (‖v‖ : ℝ) ≠ 0 := norm_ne_zero_iff.2 hv
    have ht := C114_relative_phase_turns u v
    have h2 : (‖v‖ : ℂ) * (u * (starRingEnd ℂ) v) = ((‖u‖ * ‖v‖ ^ 2 : ℝ) : ℂ) * ej (relPhase u v) := by
      calc (‖v‖ : ℂ) * (u * (starRingEnd ℂ) v) = ((‖v‖ : ℂ) * u) * (starRingEnd ℂ) v := by ring
        _ = (‖u‖ : ℂ) * (v * (starRingEnd ℂ) v) * ej (relPhase u v) := by rw [ht]; ring
        _ = _ := by rw [Complex.mul_conj, Complex.normSq_eq_norm_sq]; push_cast; ring
    have h3 := congrArg Complex.re h2
    rw [Complex.re_ofReal_mul, Complex.re_ofReal_mul] at h3
    have hre : (ej (relPhase u v)).re = Real.cos (relPhase u v) := by unfold ej; rw [mul_comm, Complex.exp_ofReal_mul_I_re]
    rw [hre] at h3
    rw [eq_div_iff (mul_ne_zero nu nv)]
    apply mul_left_cancel₀ nv
    linarith

/-- C114: the balance term of the steady-state objective vanishes exactly when the three duty cycles form a balanced triple, in positive or in negative sequence. -/
theorem C114_balance_term_zero_iff (ma mb mc d : ℂ) (hm : ma ≠ 0) :
    mError false ma mb mc d = 0 ↔ (mb = Phasor.ub ma ∧ mc = Phasor.uc ma) ∨ (mb = Phasor.uc ma ∧ mc = Phasor.ub ma) := by
  have hpi := Real.pi_pos
  have hd : d120 = 2 / 3 * Real.pi := by unfold d120; ring
  -- a phasor of the same size at ±120° is one of the two shifts
  have dir : ∀ u v : ℂ, u ≠ 0 → ‖u‖ = ‖v‖ → fold180 (relPhase u v) = 2 / 3 * Real.pi → v = Phasor.ub u ∨ v = Phasor.uc u := by
    intro u v hu hn hf
    have nu : (‖u‖ : ℂ) ≠ 0 := by exact_mod_cast norm_ne_zero_iff.2 hu
    obtain ⟨h0, h1, -⟩ := C114_relative_phase_range u v
    have ht := C114_relative_phase_turns u v
    rw [← hn] at ht
    have ht' : u = v * ej (relPhase u v) := mul_left_cancel₀ nu ht
    have back : v = u * ej (-relPhase u v) := by
      calc v = v * (ej (relPhase u v) * ej (-relPhase u v)) := by rw [← ej_addm]; simp [ej]
        _ = (v * ej (relPhase u v)) * ej (-relPhase u v) := by ring
        _ = _ := by rw [← ht']
    have hr : relPhase u v = 2 / 3 * Real.pi ∨ relPhase u v = 4 / 3 * Real.pi := by
      unfold fold180 at hf
      split_ifs at hf
      · right; rw [abs_of_neg (by linarith)] at hf; linarith
      · left; exact hf
    rcases hr with h | h
    · left; rw [h] at back; rw [back]; unfold Phasor.ub; congr 2; ring
    · right; rw [h] at back; rw [back]; unfold Phasor.uc
      rw [show -(4 / 3 * Real.pi) = (2 / 3) * Real.pi + 2 * Real.pi * ((-1 : ℤ) : ℝ) by push_cast; ring, ej_addm, ej_int, mul_one]
  constructor
  · intro h
    unfold mError at h
    simp only [Bool.false_eq_true, if_false, hd] at h
    have z : fold180 (relPhase ma mb) - 2 / 3 * Real.pi = 0 ∧ fold180 (relPhase ma mc) - 2 / 3 * Real.pi = 0 ∧ fold180 (relPhase mb mc) - 2 / 3 * Real.pi = 0 ∧
        ‖ma‖ - ‖mb‖ = 0 ∧ ‖ma‖ - ‖mc‖ = 0 ∧ ‖mb‖ - ‖mc‖ = 0 := by
      refine ⟨?_, ?_, ?_, ?_, ?_, ?_⟩ <;> · apply pow_eq_zero_iff (two_ne_zero) |>.1; nlinarith [sq_nonneg (fold180 (relPhase ma mb) - 2 / 3 * Real.pi), sq_nonneg (fold180 (relPhase ma mc) - 2 / 3 * Real.pi), sq_nonneg (fold180 (relPhase mb mc) - 2 / 3 * Real.pi), sq_nonneg (‖ma‖ - ‖mb‖), sq_nonneg (‖ma‖ - ‖mc‖), sq_nonneg (‖mb‖ - ‖mc‖)]
    obtain ⟨z1, z2, z3, z4, z5, z6⟩ := z
    have hne : mb ≠ mc := by
      intro e
      rw [e] at z3
      have : relPhase mc mc = 0 := relPhase_of le_rfl (by positivity) 0 (by simp)
      rw [this] at z3
      unfold fold180 at z3; rw [if_neg (by linarith)] at z3; linarith
    rcases dir ma mb hm (by linarith) (by linarith) with h1 | h1 <;> rcases dir ma mc hm (by linarith) (by linarith) with h2 | h2
    · exact absurd (h1.trans h2.symm) hne
    · exact .inl ⟨h1, h2⟩
    · exact .inr ⟨h1, h2⟩
    · exact absurd (h1.trans h2.symm) hne
  · rintro (⟨h1, h2⟩ | ⟨h1, h2⟩)
    · rw [h1, h2]; exact C88_balance_term_vanishes ma d hm
    · have hb : Phasor.ub ma ≠ 0 := by unfold Phasor.ub ej; exact mul_ne_zero hm (Complex.exp_ne_zero _)
      have hc : Phasor.uc ma ≠ 0 := by unfold Phasor.uc ej; exact mul_ne_zero hm (Complex.exp_ne_zero _)
      have base := C88_balance_term_vanishes ma d hm
      rw [h1, h2]
      unfold mError at base ⊢
      simp only [Bool.false_eq_true, if_false] at base ⊢
      rw [(C114_folded_phase (Phasor.uc ma) (Phasor.ub ma) hc hb).2.2.1]
      linarith [sq_nonneg (‖ma‖ - ‖Phasor.ub ma‖), show (‖Phasor.uc ma‖ - ‖Phasor.ub ma‖) ^ 2 = (‖Phasor.ub ma‖ - ‖Phasor.uc ma‖) ^ 2 by ring]

/-- Concrete case: the relative phase of a quarter turn, in both orders. -/
theorem C114_relative_phase_example : relPhase I 1 = Real.pi / 2 ∧ relPhase 1 I = 3 * Real.pi / 2 ∧ fold180 (relPhase 1 I) = Real.pi / 2 := by
  have hpi := Real.pi_pos
  have h1 : relPhase I 1 = Real.pi / 2 := relPhase_of (by positivity) (by linarith) 0 (by simp)
  have h2 : relPhase 1 I = 3 * Real.pi / 2 := by
    rw [C114_relative_phase_exchange I 1, h1, if_neg (by positivity)]; ring
  refine ⟨h1, h2, ?_⟩
  rw [h2]; unfold fold180; rw [if_pos (by linarith), abs_of_neg (by linarith)]; ring

end SS
end Ode
end PvDer
