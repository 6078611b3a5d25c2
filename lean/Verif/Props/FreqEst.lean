import Verif.Model.FreqEst
import Mathlib.Tactic.Linarith
import Mathlib.Tactic.FieldSimp
import Mathlib.Tactic.Ring
import Mathlib.Tactic.Positivity
import Mathlib.Analysis.Real.Pi.Bounds

/-!
# Property C89: the frequency estimated from the voltage angle
-/

namespace PvDer
namespace FreqEst

theorem estCalc_eq (dt w a b : ℝ) (hdt : dt ≠ 0) : estCalc dt w a b = w + (a - b) / dt := by
  unfold estCalc
  have := Real.pi_pos
  field_simp

/-- C89: whatever the history, the estimate is the nominal frequency plus the total angle change since the start divided by the assumed step: the increments of successive evaluations add up. -/
theorem C89_estimate_telescopes (dt : ℝ) (hdt : dt ≠ 0) (v0 : ℂ) (h : List (ℝ × ℂ)) :
    (run dt (.init v0) h).wmeas = 2 * Real.pi * 60 + (Complex.arg (run dt (.init v0) h).vPrev - Complex.arg v0) / dt := by
  have key : ∀ h, (run dt (.init v0) h).west = (run dt (.init v0) h).wmeas ∧
      (run dt (.init v0) h).wmeas = 2 * Real.pi * 60 + (Complex.arg (run dt (.init v0) h).vPrev - Complex.arg v0) / dt := by
    intro h
    induction h using List.reverseRecOn with
    | nil => simp [run, St.init]
    | append_singleton h x ih =>
      have e : run dt (.init v0) (h ++ [x]) = step dt (run dt (.init v0) h) x := by simp [run]
      rw [e]
      generalize run dt (.init v0) h = s at *
      obtain ⟨i1, i2⟩ := ih
      refine ⟨rfl, ?_⟩
      unfold step estimate
      split_ifs with h1 h2
      · simp only; rw [estCalc_eq _ _ _ _ hdt, i2]; ring
      · simp only; rw [i1]; exact i2
      · simp only; rw [i1]; exact i2
  exact (key h).2

/-- The angle in effect: that of the last sample of an increasing history, if the times are positive. -/
theorem last_angle (dt : ℝ) (v0 : ℂ) (h : List (ℝ × ℂ)) (x : ℝ × ℂ) (hinc : (h ++ [x]).Pairwise (fun a b => a.1 < b.1)) (hpos : ∀ y ∈ h ++ [x], 0 < y.1) :
    Complex.arg (run dt (.init v0) (h ++ [x])).vPrev = Complex.arg x.2 := by
  have htp : ∀ h : List (ℝ × ℂ), (run dt (.init v0) h).tPrev = 0 ∨ ∃ y ∈ h, (run dt (.init v0) h).tPrev = y.1 := by
    intro h
    induction h using List.reverseRecOn with
    | nil => left; rfl
    | append_singleton h x ih =>
      have e : run dt (.init v0) (h ++ [x]) = step dt (run dt (.init v0) h) x := by simp [run]
      rw [e]
      have : (step dt (run dt (.init v0) h) x).tPrev = (run dt (.init v0) h).tPrev ∨ (step dt (run dt (.init v0) h) x).tPrev = x.1 := by
        unfold step estimate
        split_ifs
        · right; rfl
        · left; rfl
        · left; rfl
      rcases this with h1 | h1
      · rw [h1]
        rcases ih with h2 | ⟨y, hy, h2⟩
        · left; exact h2
        · right; exact ⟨y, by simp [hy], h2⟩
      · right; exact ⟨x, by simp, h1⟩
  have hlt : x.1 > (run dt (.init v0) h).tPrev := by
    rcases htp h with h2 | ⟨y, hy, h2⟩
    · rw [h2]; exact hpos x (by simp)
    · rw [h2]
      rw [List.pairwise_append] at hinc
      exact hinc.2.2 y hy x (by simp)
  have e : run dt (.init v0) (h ++ [x]) = step dt (run dt (.init v0) h) x := by simp [run]
  rw [e]
  unfold step estimate
  rw [if_pos hlt]
  split_ifs with h2
  · rfl
  · simp only
    have : Complex.arg (run dt (.init v0) h).vPrev - Complex.arg x.2 = 0 := by
      by_contra hne
      exact h2 (abs_pos.2 hne)
    linarith

/-- C89: so with increasing evaluation times the reported frequency depends only on the first and the present angle. -/
theorem C89_estimate_from_angle (dt : ℝ) (hdt : dt ≠ 0) (v0 : ℂ) (h : List (ℝ × ℂ)) (x : ℝ × ℂ) (hinc : (h ++ [x]).Pairwise (fun a b => a.1 < b.1))
    (hpos : ∀ y ∈ h ++ [x], 0 < y.1) :
    (run dt (.init v0) (h ++ [x])).wmeas = 2 * Real.pi * 60 + (Complex.arg x.2 - Complex.arg v0) / dt := by
  rw [C89_estimate_telescopes dt hdt, last_angle dt v0 h x hinc hpos]

/-- C89: it can never leave a band of one revolution per assumed step around 60 Hz. -/
theorem C89_estimate_bounded (dt : ℝ) (hdt : 0 < dt) (v0 : ℂ) (h : List (ℝ × ℂ)) :
    |(run dt (.init v0) h).wmeas - 2 * Real.pi * 60| < 2 * Real.pi / dt := by
  rw [C89_estimate_telescopes dt hdt.ne']
  have a1 := Complex.neg_pi_lt_arg (run dt (.init v0) h).vPrev
  have a2 := Complex.arg_le_pi (run dt (.init v0) h).vPrev
  have b1 := Complex.neg_pi_lt_arg v0
  have b2 := Complex.arg_le_pi v0
  rw [add_sub_cancel_left, abs_div, abs_of_pos hdt]
  apply div_lt_div_of_pos_right _ hdt
  rw [abs_lt]
  constructor <;> linarith

/-- C89: a constant angle keeps the estimate where it is, and before the first change it is 60 Hz. -/
theorem C89_constant_angle (dt : ℝ) (v0 : ℂ) (h : List (ℝ × ℂ)) (hc : ∀ y ∈ h, Complex.arg y.2 = Complex.arg v0) :
    (run dt (.init v0) h).wmeas = 2 * Real.pi * 60 := by
  have key : ∀ h : List (ℝ × ℂ), (∀ y ∈ h, Complex.arg y.2 = Complex.arg v0) → run dt (.init v0) h = .init v0 := by
    intro h
    induction h using List.reverseRecOn with
    | nil => intro _; rfl
    | append_singleton h x ih =>
      intro hc
      have e : run dt (.init v0) (h ++ [x]) = step dt (run dt (.init v0) h) x := by simp [run]
      rw [e, ih (fun y hy => hc y (by simp [hy]))]
      have hx := hc x (by simp)
      unfold step estimate
      have : ¬ |Complex.arg (St.init v0).vPrev - Complex.arg x.2| > 0 := by
        show ¬ |Complex.arg v0 - Complex.arg x.2| > 0
        rw [hx]; simp
      simp only [if_neg this, ite_self]
      rfl
  rw [key h hc]; rfl

/-- C89, what a user expects: a grid running `δ` rad/s off nominal, sampled every assumed step (the angle grows by `δ dt` per sample), is reported as `2π60 + δ`.  The second
sample is already reported with twice the offset, the `n`-th with `n` times. -/
theorem C89_frequency_offset_accumulates (dt δ : ℝ) (hdt : 0 < dt) (n : ℕ) (hn : |δ * dt| * n ≤ 3) :
    let h : List (ℝ × ℂ) := (List.range n).map fun k : ℕ => (((k : ℝ) + 1) * dt, Complex.exp (((((k : ℝ) + 1) * (δ * dt) : ℝ) : ℂ) * Complex.I))
    (run dt (.init 1) h).wmeas = 2 * Real.pi * 60 + n * δ := by
  intro h
  cases n with
  | zero => simp [h, run, St.init]
  | succ m =>
    have hsplit : h = ((List.range m).map fun k : ℕ => (((k : ℝ) + 1) * dt, Complex.exp (((((k : ℝ) + 1) * (δ * dt) : ℝ) : ℂ) * Complex.I))) ++
        [(((m : ℝ) + 1) * dt, Complex.exp (((((m : ℝ) + 1) * (δ * dt) : ℝ) : ℂ) * Complex.I))] := by
      simp [h, List.range_succ]
    have hinc : h.Pairwise (fun a b => a.1 < b.1) := by
      simp only [h]
      rw [List.pairwise_map]
      refine List.Pairwise.imp ?_ List.pairwise_lt_range
      intro a b hab
      have : (a : ℝ) < b := by exact_mod_cast hab
      simp only
      nlinarith
    have hpos : ∀ y ∈ h, 0 < y.1 := by
      intro y hy
      simp only [h, List.mem_map] at hy
      obtain ⟨k, _, rfl⟩ := hy
      simp only
      positivity
    rw [hsplit] at hinc hpos ⊢
    rw [C89_estimate_from_angle dt hdt.ne' 1 _ _ hinc hpos]
    have hb : |((m : ℝ) + 1) * (δ * dt)| ≤ 3 := by
      rw [abs_mul, abs_of_pos (by positivity : (0 : ℝ) < (m : ℝ) + 1)]
      push_cast at hn; linarith
    have hpi := Real.pi_gt_three
    obtain ⟨hb1, hb2⟩ := abs_le.1 hb
    have harg : Complex.arg (Complex.exp (((((m : ℝ) + 1) * (δ * dt) : ℝ) : ℂ) * Complex.I)) = ((m : ℝ) + 1) * (δ * dt) := by
      rw [Complex.arg_exp_mul_I]
      exact (toIocMod_eq_self _).2 ⟨by linarith, by linarith⟩
    simp only
    rw [harg, Complex.arg_one]
    push_cast
    field_simp
    ring

/-- Negation of the expectation: at 1 ms steps with an offset of 1 rad/s the tenth estimate is 10 rad/s off. -/
theorem C89_offset_wrong : ∃ h : List (ℝ × ℂ), h.length = 10 ∧ (run (1 / 1000) (.init 1) h).wmeas = 2 * Real.pi * 60 + 10 ∧
    ∀ k (hk : k < h.length), h[k].1 = ((k : ℝ) + 1) * (1 / 1000) ∧ h[k].2 = Complex.exp (((((k : ℝ) + 1) * (1 / 1000) : ℝ) : ℂ) * Complex.I) := by
  have := C89_frequency_offset_accumulates (1 / 1000) 1 (by norm_num) 10 (by norm_num)
  refine ⟨(List.range 10).map fun k : ℕ => (((k : ℝ) + 1) * (1 / 1000), Complex.exp (((((k : ℝ) + 1) * (1 * (1 / 1000)) : ℝ) : ℂ) * Complex.I)), by simp,
    this.trans (by norm_num), ?_⟩
  intro k hk
  simp

/-- C89: no unwrapping.  When the angle passes 180°, the estimate jumps down by (nearly) a full revolution per step. -/
theorem C89_wrap (dt : ℝ) (hdt : 0 < dt) (v0 : ℂ) (h : List (ℝ × ℂ)) (x y : ℝ × ℂ) (hinc : (h ++ [x] ++ [y]).Pairwise (fun a b => a.1 < b.1))
    (hpos : ∀ z ∈ h ++ [x] ++ [y], 0 < z.1) (ε : ℝ) (hx : Complex.arg x.2 = Real.pi - ε) (hy : Complex.arg y.2 = -Real.pi + ε) :
    (run dt (.init v0) (h ++ [x] ++ [y])).wmeas = (run dt (.init v0) (h ++ [x])).wmeas - (2 * Real.pi - 2 * ε) / dt := by
  have hinc' : (h ++ [x]).Pairwise (fun a b => a.1 < b.1) := (List.pairwise_append.1 hinc).1
  rw [C89_estimate_from_angle dt hdt.ne' v0 _ y hinc hpos, C89_estimate_from_angle dt hdt.ne' v0 h x hinc' (fun z hz => hpos z (by simp at hz ⊢; tauto)), hx, hy]
  field_simp
  ring

/-- C89: without the estimate the frequency is that of the grid model in stand-alone mode and the external one otherwise. -/
theorem C89_source (sa : Bool) (e g x : ℝ) : wgridCalc false sa e g x = (if sa = true then g else x) ∧ wgridCalc true sa e g x = e := ⟨rfl, rfl⟩

end FreqEst
end PvDer
