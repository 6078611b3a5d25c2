import Verif.Model.SeriesTools
import Verif.Props.Phasor
import Mathlib.Analysis.Complex.ExponentialBounds
import Mathlib.Tactic.IntervalCases

/-!
# Property C115: time constant and limiting of recorded series
-/

namespace PvDer
namespace SeriesTools

open Complex Phasor

variable {K : Type*} [Field K] [LinearOrder K] [IsStrictOrderedRing K]

/-- What a report of the tool means: sample `i` is the first one below 37 % of the first plus 63 % of the last value, and its time (relative to the event) is reported. -/
def FirstBelow (ts ys : List K) (te : K) (i : ℕ) (r : K × K × K) : Prop :=
  ∃ y0 yl t y, ys.head? = some y0 ∧ ys.getLast? = some yl ∧ ts[i]? = some t ∧ ys[i]? = some y ∧ r = (t - te, y, (37/100) * y0 + (63/100) * yl) ∧
    y < (37/100) * y0 + (63/100) * yl ∧ ∀ j y', j < i → ys[j]? = some y' → (37/100) * y0 + (63/100) * yl ≤ y'

omit [IsStrictOrderedRing K] in
theorem threshold_eq {ys : List K} {y0 yl : K} [IsStrictOrderedRing K] (h0 : ys.head? = some y0) (hl : ys.getLast? = some yl) :
    threshold ys = (37/100) * y0 + (63/100) * yl := by
  unfold threshold
  have e1 : ys.headD 0 = y0 := by rw [List.headD_eq_head?_getD, h0]; rfl
  have e2 : ys.getLastD 0 = yl := by rw [List.getLastD_eq_getLast?, hl]; rfl
  rw [e1, e2]; ring

omit [Field K] [LinearOrder K] [IsStrictOrderedRing K] in
theorem ends {ys : List K} {i : ℕ} {y : K} (h : ys[i]? = some y) : ∃ y0 yl, ys.head? = some y0 ∧ ys.getLast? = some yl := by
  cases ys with
  | nil => simp at h
  | cons a l => exact ⟨a, (a :: l).getLast (by simp), rfl, List.getLast?_eq_getLast_of_ne_nil (by simp)⟩

/-- C115: the tool reports exactly the first sample that has fallen below the 63 % threshold, and nothing when there is none (the two lists having equal length). -/
theorem C115_first_sample_below (ts ys : List K) (te : K) (hlen : ts.length = ys.length) (r : K × K × K) :
    timeConstant ts ys te = some r ↔ ∃ i, FirstBelow ts ys te i r := by
  unfold timeConstant
  rw [Option.map_eq_some_iff]
  constructor
  · rintro ⟨p, hp, rfl⟩
    rw [List.find?_eq_some_iff_getElem] at hp
    obtain ⟨hlt, i, hi, hpi, hbefore⟩ := hp
    have hi' := hi
    rw [List.length_zip] at hi'
    have it : i < ts.length := by omega
    have iy : i < ys.length := by omega
    rw [List.getElem_zip] at hpi
    have hy : ys[i]? = some p.2 := by rw [List.getElem?_eq_getElem iy, ← hpi]
    have ht : ts[i]? = some p.1 := by rw [List.getElem?_eq_getElem it, ← hpi]
    obtain ⟨y0, yl, h0, hl⟩ := ends hy
    refine ⟨i, y0, yl, p.1, p.2, h0, hl, ht, hy, by rw [threshold_eq h0 hl], ?_, fun j y' hj hy' => ?_⟩
    · rw [← threshold_eq h0 hl]; simpa using hlt
    · have jy : j < ys.length := by omega
      have jt : j < ts.length := by omega
      have := hbefore j hj
      rw [List.getElem_zip] at this
      rw [List.getElem?_eq_getElem jy, Option.some.injEq] at hy'
      rw [← threshold_eq h0 hl]
      simpa [hy'] using this
  · rintro ⟨i, y0, yl, t, y, h0, hl, ht, hy, rfl, hlt, hb⟩
    obtain ⟨it, et⟩ := List.getElem?_eq_some_iff.1 ht
    obtain ⟨iy, ey⟩ := List.getElem?_eq_some_iff.1 hy
    refine ⟨(t, y), ?_, by rw [threshold_eq h0 hl]⟩
    rw [List.find?_eq_some_iff_getElem]
    refine ⟨by rw [threshold_eq h0 hl]; simpa using hlt, i, by rw [List.length_zip]; omega, by rw [List.getElem_zip, et, ey], fun j hj => ?_⟩
    rw [List.getElem_zip, threshold_eq h0 hl]
    have jy : j < ys.length := by omega
    have := hb j ys[j] hj (List.getElem?_eq_getElem jy)
    simpa using this

/-- C115: a report is made for every series that ends below its first value. -/
theorem C115_falling_reports (ts ys : List K) (te y0 yl : K) (hlen : ts.length = ys.length) (h0 : ys.head? = some y0) (hl : ys.getLast? = some yl) (hf : yl < y0) :
    ∃ r, timeConstant ts ys te = some r := by
  have hthr := threshold_eq h0 hl
  have hne : ys ≠ [] := by rintro rfl; simp at h0
  have hpos : 0 < ys.length := List.length_pos_iff.2 hne
  have : (ts.zip ys).find? (fun p => decide (p.2 < threshold ys)) ≠ none := by
    intro hn
    rw [List.find?_eq_none] at hn
    have hi : ys.length - 1 < (ts.zip ys).length := by rw [List.length_zip]; omega
    have := hn _ (List.getElem_mem hi)
    rw [List.getElem_zip] at this
    have e : ys[ys.length - 1]'(by omega) = yl := by
      rw [List.getLast?_eq_getElem?] at hl
      obtain ⟨_, h⟩ := List.getElem?_eq_some_iff.1 hl
      exact h
    simp only [e, hthr, decide_eq_true_eq, not_lt] at this
    linarith
  obtain ⟨p, hp⟩ := Option.ne_none_iff_exists'.1 this
  exact ⟨_, by unfold timeConstant; rw [hp]; rfl⟩

/-- C115 (a defect): for a series that ends above its first value the first sample is reported, whatever the response looks like. -/
theorem C115_rising_reports_first_sample (t0 : K) (ts : List K) (y0 : K) (ys : List K) (te yl : K) (hl : (y0 :: ys).getLast? = some yl) (hr : y0 < yl) :
    timeConstant (t0 :: ts) (y0 :: ys) te = some (t0 - te, y0, (37/100) * y0 + (63/100) * yl) := by
  have hthr := threshold_eq (ys := y0 :: ys) rfl hl
  unfold timeConstant
  rw [hthr, List.zip_cons_cons, List.find?_cons_of_pos (by simp only [decide_eq_true_eq]; linarith)]
  rfl

/-- C115: nothing is reported for a series that starts at its end value and never goes below it. -/
theorem C115_flat_reports_nothing (ts ys : List K) (te y0 : K) (hlen : ts.length = ys.length) (h0 : ys.head? = some y0) (hl : ys.getLast? = some y0)
    (hge : ∀ y ∈ ys, y0 ≤ y) : timeConstant ts ys te = none := by
  rcases h : timeConstant ts ys te with _ | r
  · rfl
  · obtain ⟨i, a, b, t, y, ha, hb, -, hy, -, hlt, -⟩ := (C115_first_sample_below ts ys te hlen r).1 h
    rw [h0, Option.some.injEq] at ha; rw [hl, Option.some.injEq] at hb; subst ha; subst hb
    have := hge y (List.mem_of_getElem? hy)
    linarith

/-- C115 (accuracy): for samples of a strictly decreasing response the crossing of the 63 % level lies in the sampling interval before the reported time. -/
theorem C115_crossing_bracketed (f : K → K) (hf : ∀ s t, s < t → f t < f s) (ts : List K) (te : K) (r : K × K × K) (y0 yl tc : K)
    (h0 : (ts.map f).head? = some y0) (hl : (ts.map f).getLast? = some yl) (htc : f tc = (37/100) * y0 + (63/100) * yl)
    (h : timeConstant ts (ts.map f) te = some r) : tc < r.1 + te ∧ ∃ i : ℕ, ts[i]? = some (r.1 + te) ∧ ∀ j t', j < i → ts[j]? = some t' → t' ≤ tc := by
  obtain ⟨i, a, b, t, y, ha, hb, ht, hy, hr, hlt, hbef⟩ := (C115_first_sample_below ts _ te (by simp) r).1 h
  rw [h0, Option.some.injEq] at ha; rw [hl, Option.some.injEq] at hb; subst ha; subst hb
  have ey : y = f t := by rw [List.getElem?_map, ht] at hy; exact (Option.some.inj hy).symm
  have er : r.1 + te = t := by rw [hr]; simp
  rw [← htc] at hlt hbef
  refine ⟨?_, i, by rw [er]; exact ht, fun j t' hj hjt => ?_⟩
  · rw [er]
    rcases lt_trichotomy tc t with c | c | c
    · exact c
    · rw [ey, c] at hlt; exact absurd hlt (lt_irrefl _)
    · have := hf _ _ c; rw [ey] at hlt; exact absurd hlt (not_lt.2 this.le)
  · have := hbef j (f t') hj (by rw [List.getElem?_map, hjt]; rfl)
    by_contra c
    exact absurd (hf _ _ (not_le.1 c)) (not_lt.2 this)

/-- C115 (first-order response): for `y(t) = yf + A·exp(-(t-te)/τ)`, recorded from the event on for a time `T`, the level is crossed at
`te - τ·log(1 - 0.63(1 - exp(-T/τ)))`, strictly between the event and `te + τ`: the recorded window makes the tool report less than the true time constant
(up to the sampling interval). -/
theorem C115_first_order_underestimates (yf A τ te T : ℝ) (hτ : 0 < τ) (hT : 0 < T) :
    ∃ tc, yf + A * Real.exp (-(tc - te) / τ) = (37/100) * (yf + A * Real.exp (-(te - te) / τ)) + (63/100) * (yf + A * Real.exp (-((te + T) - te) / τ)) ∧
      te < tc ∧ tc < te + τ ∧ tc = te - τ * Real.log (1 - (63/100) * (1 - Real.exp (-T / τ))) := by
  set q := Real.exp (-T / τ) with hq
  have q0 : 0 < q := Real.exp_pos _
  have q1 : q < 1 := by rw [hq, Real.exp_lt_one_iff]; exact div_neg_of_neg_of_pos (by linarith) hτ
  have p0 : 0 < 1 - (63/100) * (1 - q) := by linarith
  refine ⟨te - τ * Real.log (1 - (63/100) * (1 - q)), ?_, ?_, ?_, rfl⟩
  · rw [show -(te - τ * Real.log (1 - (63/100) * (1 - q)) - te) / τ = Real.log (1 - (63/100) * (1 - q)) by field_simp; ring, Real.exp_log p0,
      show -(te - te) / τ = 0 by simp, Real.exp_zero, show -((te + T) - te) / τ = -T / τ by ring, ← hq]
    ring
  · have : Real.log (1 - (63/100) * (1 - q)) < 0 := Real.log_neg p0 (by linarith)
    nlinarith
  · have : -1 < Real.log (1 - (63/100) * (1 - q)) := by
      rw [Real.lt_log_iff_exp_lt p0]
      have := Real.exp_neg_one_lt_d9
      linarith
    nlinarith

/-- C115 (first-order response, end to end): the tool makes a report and every sample before the reported one is strictly earlier than one true time constant after the event:
the reported value exceeds the true one by at most one sampling interval. -/
theorem C115_first_order_report (yf A τ te T : ℝ) (hA : 0 < A) (hτ : 0 < τ) (hT : 0 < T) (ts : List ℝ) (h0 : ts.head? = some te) (hl : ts.getLast? = some (te + T)) :
    ∃ r, timeConstant ts (ts.map fun t => yf + A * Real.exp (-(t - te) / τ)) te = some r ∧ 0 < r.1 ∧
      ∃ i : ℕ, ts[i]? = some (r.1 + te) ∧ ∀ j t', j < i → ts[j]? = some t' → t' < te + τ := by
  set f : ℝ → ℝ := fun t => yf + A * Real.exp (-(t - te) / τ) with hfdef
  have hf : ∀ s t, s < t → f t < f s := fun s t hst => by
    have : Real.exp (-(t - te) / τ) < Real.exp (-(s - te) / τ) := Real.exp_lt_exp.2 (div_lt_div_of_pos_right (by linarith) hτ)
    simp only [hfdef]; nlinarith
  have g0 : (ts.map f).head? = some (f te) := by rw [List.head?_map, h0]; rfl
  have gl : (ts.map f).getLast? = some (f (te + T)) := by rw [List.getLast?_map, hl]; rfl
  obtain ⟨r, hr⟩ := C115_falling_reports ts (ts.map f) te _ _ (by simp) g0 gl (hf _ _ (by linarith))
  obtain ⟨tc, e, l1, l2, -⟩ := C115_first_order_underestimates yf A τ te T hτ hT
  obtain ⟨b1, i, b2, b3⟩ := C115_crossing_bracketed f hf ts te r _ _ tc g0 gl e hr
  exact ⟨r, hr, by linarith, i, b2, fun j t' hj ht => lt_of_le_of_lt (b3 j t' hj ht) l2⟩

/-- Concrete case: a falling series of four samples, event at 1. -/
theorem C115_example : timeConstant ([1, 2, 3, 4] : List ℚ) [10, 5, 2, 1] 1 = some (2 - 1 + 1, 2, 433/100) ∧
    timeConstant ([1, 2, 3, 4] : List ℚ) [1, 2, 5, 10] 1 = some (0, 1, 667/100) := by
  constructor <;> decide +kernel

/-- C115: limiting a recorded series is the limiter used during the simulation, applied to every sample; both raise together for crossed limits. -/
theorem C115_limit_series (z : List ℂ) (low high : ℝ) (hz : z ≠ []) : limitSeries z low high = z.mapM (fun x => limitComplex x low high) := by
  unfold limitSeries limitComplex
  by_cases h : low < high
  · simp only [if_pos h]
    have e : ∀ x : ℂ, ((min (max ‖x‖ low) high * Real.cos (arg x) : ℝ) : ℂ) + ((min (max ‖x‖ low) high * Real.sin (arg x) : ℝ) : ℂ) * I =
        ((min (max ‖x‖ low) high : ℝ) : ℂ) * ej (arg x) := fun x => by
      unfold ej; rw [mul_comm I, Complex.exp_mul_I]; push_cast; ring
    simp only [e]
    exact (List.mapM_pure (m := Except Err)).symm
  · simp only [if_neg h]
    cases z with
    | nil => exact absurd rfl hz
    | cons a l => rfl

/-- C115: so every limited sample has a magnitude within the limits (for non-negative bounds) and samples already within stay as they are. -/
theorem C115_limit_series_bounds (z : List ℂ) (low high : ℝ) (h0 : 0 ≤ low) (h : low < high) :
    ∃ w, limitSeries z low high = .ok w ∧ List.Forall₂ (fun x y => ‖y‖ = min (max ‖x‖ low) high ∧ (low ≤ ‖x‖ → ‖x‖ ≤ high → y = x)) z w := by
  unfold limitSeries
  rw [if_pos h]
  refine ⟨_, rfl, ?_⟩
  rw [List.forall₂_map_right_iff]
  refine List.forall₂_same.2 fun x _ => ?_
  have e : ((min (max ‖x‖ low) high * Real.cos (arg x) : ℝ) : ℂ) + ((min (max ‖x‖ low) high * Real.sin (arg x) : ℝ) : ℂ) * I =
      ((min (max ‖x‖ low) high : ℝ) : ℂ) * Complex.exp (arg x * I) := by
    rw [Complex.exp_mul_I]; push_cast; ring
  have hn : 0 ≤ min (max ‖x‖ low) high := le_min (le_max_of_le_left (norm_nonneg x)) (h0.trans h.le)
  rw [e]
  refine ⟨by rw [norm_mul, Complex.norm_exp_ofReal_mul_I, Complex.norm_of_nonneg hn, mul_one], fun h1 h2 => ?_⟩
  rw [max_eq_left h1, min_eq_left h2]
  exact Complex.norm_mul_exp_arg_mul_I x

end SeriesTools
end PvDer
