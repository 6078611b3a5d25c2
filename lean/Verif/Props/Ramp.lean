import Verif.Model.Ramp
import Mathlib.Tactic.Linarith
import Mathlib.Tactic.FieldSimp
import Mathlib.Tactic.Ring
import Mathlib.Tactic.NormNum
import Mathlib.Algebra.Order.Ring.Rat

/-!
# Properties C41, C42: current reference ramp limiter
-/

set_option linter.unusedSectionVars false

namespace PvDer
namespace Ramp

variable {K : Type} [Field K] [LinearOrder K] [IsStrictOrderedRing K]

/-! ### Specification -/

/-- `new` is what a slope limiter with maximum gradient `g` may output after `dt` seconds, starting from `prev` with target `cmd`: it moves towards the
target, by at most `g*dt`, without overshoot, and as far as the limit allows. -/
structure Limits (g dt prev cmd new : K) : Prop where
  step : |new - prev| ≤ g * dt
  between : (prev ≤ new ∧ new ≤ cmd) ∨ (cmd ≤ new ∧ new ≤ prev)
  full : |cmd - prev| ≤ g * dt → new = cmd
  saturated : g * dt ≤ |cmd - prev| → |new - prev| = g * dt

theorem comp_pos {dt g prev cmd : K} (hdt : 0 < dt) (hg : 0 ≤ g) :
    comp dt g prev cmd = if 0 ≤ cmd - prev then prev + min (cmd - prev) (g * dt) else prev - min (prev - cmd) (g * dt) := by
  have hm : min (|cmd - prev| / dt) g * dt = min |cmd - prev| (g * dt) := by
    rw [min_mul_of_nonneg _ _ hdt.le, div_mul_cancel₀ _ hdt.ne']
  have hn : 0 ≤ min |cmd - prev| (g * dt) := le_min (abs_nonneg _) (mul_nonneg hg hdt.le)
  unfold comp copysign
  rw [hm, abs_of_nonneg hn]
  split_ifs with h
  · rw [abs_of_nonneg h]
  · have : |cmd - prev| = prev - cmd := by rw [abs_of_neg (not_le.1 h)]; ring
    rw [this]; ring

theorem comp_limits {dt g prev cmd : K} (hdt : 0 < dt) (hg : 0 ≤ g) : Limits g dt prev cmd (comp dt g prev cmd) := by
  have hgd : 0 ≤ g * dt := mul_nonneg hg hdt.le
  rw [comp_pos hdt hg]
  split_ifs with h
  · have e : prev + min (cmd - prev) (g * dt) - prev = min (cmd - prev) (g * dt) := by ring
    have hn : 0 ≤ min (cmd - prev) (g * dt) := le_min h hgd
    constructor
    · rw [e, abs_of_nonneg hn]; exact min_le_right _ _
    · left; have := min_le_left (cmd - prev) (g * dt); constructor <;> linarith
    · intro hf; rw [abs_of_nonneg h] at hf; rw [min_eq_left hf]; ring
    · intro hf; rw [abs_of_nonneg h] at hf; rw [e, abs_of_nonneg hn, min_eq_right hf]
  · have hlt := not_le.1 h
    have ha : |cmd - prev| = prev - cmd := by rw [abs_of_neg hlt]; ring
    have e : prev - min (prev - cmd) (g * dt) - prev = -min (prev - cmd) (g * dt) := by ring
    have hn : 0 ≤ min (prev - cmd) (g * dt) := le_min (by linarith) hgd
    constructor
    · rw [e, abs_neg, abs_of_nonneg hn]; exact min_le_right _ _
    · right; have := min_le_left (prev - cmd) (g * dt); constructor <;> linarith
    · intro hf; rw [ha] at hf; rw [min_eq_left hf]; ring
    · intro hf; rw [ha] at hf; rw [e, abs_neg, abs_of_nonneg hn, min_eq_right hf]

/-! ### C41 -/

/-- C41: for every previous reference, command, non-negative gradients and advancing time, both components of the new reference are exactly what a slope
limiter with the configured gradient outputs (in every model family). -/
theorem C41_ramp_limited (f : Family) (gR gI : K) (s : St K) (i : Inp K) (hR : 0 ≤ gR) (hI : 0 ≤ gI) (ht : s.tiref < i.t) :
    Limits gR (i.t - s.tiref) s.refR i.cmdR (updateIref f true gR gI s i).refR ∧
      Limits gI (i.t - s.tiref) s.refI i.cmdI (updateIref f true gR gI s i).refI := by
  have hdt : 0 < i.t - s.tiref := sub_pos.2 ht
  have : (updateIref f true gR gI s i).refR = comp (i.t - s.tiref) gR s.refR i.cmdR := by simp [updateIref, limited, ht]
  rw [this]
  have : (updateIref f true gR gI s i).refI = comp (i.t - s.tiref) gI s.refI i.cmdI := by simp [updateIref, limited, ht]
  rw [this]
  exact ⟨comp_limits hdt hR, comp_limits hdt hI⟩

/-- The specification determines the output. -/
theorem C41_spec_deterministic (g dt prev cmd a b : K) (ha : Limits g dt prev cmd a) (hb : Limits g dt prev cmd b) : a = b := by
  rcases le_total |cmd - prev| (g * dt) with h | h
  · rw [ha.full h, hb.full h]
  · have e1 := ha.saturated h
    have e2 := hb.saturated h
    rcases ha.between with ⟨p, q⟩ | ⟨p, q⟩ <;> rcases hb.between with ⟨r, w⟩ | ⟨r, w⟩
    · rw [abs_of_nonneg (by linarith)] at e1 e2; linarith
    · have : a = prev := by linarith
      have : b = prev := by linarith
      rw [‹a = prev›, ‹b = prev›]
    · have : a = prev := by linarith
      have : b = prev := by linarith
      rw [‹a = prev›, ‹b = prev›]
    · rw [abs_of_nonpos (by linarith)] at e1 e2; linarith

/-- At the recorded time itself the reference is unchanged; without the limiter the reference is the command. -/
theorem C41_same_time (f : Family) (gR gI : K) (s : St K) (i : Inp K) :
    (i.t = s.tiref → updateIref f true gR gI s i = s) ∧
    ((updateIref f false gR gI s i).refR = i.cmdR ∧ (updateIref f false gR gI s i).refI = i.cmdI) := by
  refine ⟨fun h => ?_, rfl, rfl⟩
  cases f <;> simp [updateIref, limited, h]

/-- Going back in time the limiter does not limit: the reference jumps to the command. -/
theorem C41_back_in_time_jumps (f : Family) (gR gI : K) (s : St K) (i : Inp K) (hR : 0 ≤ gR) (hI : 0 ≤ gI) (ht : i.t < s.tiref) :
    (updateIref f true gR gI s i).refR = i.cmdR ∧ (updateIref f true gR gI s i).refI = i.cmdI := by
  have hdt : i.t - s.tiref < 0 := sub_neg.2 ht
  have key : ∀ g prev cmd : K, 0 ≤ g → comp (i.t - s.tiref) g prev cmd = cmd := by
    intro g prev cmd hg
    have hle : |cmd - prev| / (i.t - s.tiref) ≤ g := le_trans (div_nonpos_of_nonneg_of_nonpos (abs_nonneg _) hdt.le) hg
    unfold comp copysign
    rw [min_eq_left hle, div_mul_cancel₀ _ hdt.ne, abs_abs]
    split_ifs with h
    · rw [abs_of_nonneg h]; ring
    · rw [abs_of_neg (not_le.1 h)]; ring
  have hn : ¬ s.tiref < i.t := not_lt.2 ht.le
  constructor
  · have : (updateIref f true gR gI s i).refR = comp (i.t - s.tiref) gR i.iaR i.cmdR := by simp [updateIref, limited, ht, hn]
    rw [this, key _ _ _ hR]
  · have : (updateIref f true gR gI s i).refI = comp (i.t - s.tiref) gI i.iaI i.cmdI := by simp [updateIref, limited, ht, hn]
    rw [this, key _ _ _ hI]

example : updateIref .threePhase true (1:ℚ) 2 ⟨0, 1, 0⟩ ⟨1/2, 3, 1/2, 0, 0⟩ = ⟨1/2, 1/2, 1/2⟩ := by decide +kernel

/-! ### C42 -/

/-- The evaluation times do not decrease, starting from `t0`. -/
def Forward (t0 : K) : List (Inp K) → Prop
  | [] => True
  | i :: l => t0 ≤ i.t ∧ Forward i.t l

/-- C42: three-phase models: over every forward run, whatever the commands, the reference changes by at most gradient × elapsed time (so also between
any two evaluations of a longer run: start at the earlier one). -/
theorem C42_slope_bounded (gR gI : K) (hR : 0 ≤ gR) (hI : 0 ≤ gI) (s : St K) (l : List (Inp K)) (hf : Forward s.tiref l) :
    let s' := run .threePhase true gR gI s l
    s.tiref ≤ s'.tiref ∧ |s'.refR - s.refR| ≤ gR * (s'.tiref - s.tiref) ∧ |s'.refI - s.refI| ≤ gI * (s'.tiref - s.tiref) ∧
      s'.tiref = ((l.map Inp.t).getLast?).getD s.tiref := by
  intro s'
  show s.tiref ≤ (run .threePhase true gR gI s l).tiref ∧ _
  simp only [s']
  induction l generalizing s with
  | nil => simp [run]
  | cons i l ih =>
    obtain ⟨h1, h2⟩ := hf
    have hstep : (updateIref .threePhase true gR gI s i).tiref = i.t := rfl
    have hone : |(updateIref .threePhase true gR gI s i).refR - s.refR| ≤ gR * (i.t - s.tiref) ∧
        |(updateIref .threePhase true gR gI s i).refI - s.refI| ≤ gI * (i.t - s.tiref) := by
      rcases h1.lt_or_eq with h | h
      · have := C41_ramp_limited .threePhase gR gI s i hR hI h
        exact ⟨this.1.step, this.2.step⟩
      · rw [(C41_same_time .threePhase gR gI s i).1 h.symm]; simp [h]
    obtain ⟨a, b, c, d⟩ := ih (updateIref .threePhase true gR gI s i) (hstep ▸ h2)
    have hrun : run .threePhase true gR gI s (i :: l) = run .threePhase true gR gI (updateIref .threePhase true gR gI s i) l := rfl
    rw [hrun]
    generalize run .threePhase true gR gI (updateIref .threePhase true gR gI s i) l = z at *
    rw [hstep] at a b c d
    refine ⟨h1.trans a, ?_, ?_, ?_⟩
    · have : z.refR - s.refR = (z.refR - (updateIref .threePhase true gR gI s i).refR) + ((updateIref .threePhase true gR gI s i).refR - s.refR) := by ring
      rw [this]
      refine (abs_add_le _ _).trans ?_
      have : gR * (z.tiref - s.tiref) = gR * (z.tiref - i.t) + gR * (i.t - s.tiref) := by ring
      rw [this]
      exact add_le_add b hone.1
    · have : z.refI - s.refI = (z.refI - (updateIref .threePhase true gR gI s i).refI) + ((updateIref .threePhase true gR gI s i).refI - s.refI) := by ring
      rw [this]
      refine (abs_add_le _ _).trans ?_
      have : gI * (z.tiref - s.tiref) = gI * (z.tiref - i.t) + gI * (i.t - s.tiref) := by ring
      rw [this]
      exact add_le_add c hone.2
    · rw [d]
      cases l with
      | nil => simp
      | cons j l => simp [List.getLast?_cons]

/-- C42, tracking: if the command is constant, the run reaches it as soon as the elapsed time suffices. -/
theorem C42_reaches_command (gR gI : K) (hR : 0 ≤ gR) (hI : 0 ≤ gI) (cR cI : K) (s : St K) (l : List (Inp K)) (hf : Forward s.tiref l)
    (hc : ∀ i ∈ l, i.cmdR = cR ∧ i.cmdI = cI) :
    let s' := run .threePhase true gR gI s l
    |cR - s'.refR| = max 0 (|cR - s.refR| - gR * (s'.tiref - s.tiref)) ∧ |cI - s'.refI| = max 0 (|cI - s.refI| - gI * (s'.tiref - s.tiref)) := by
  intro s'
  simp only [s']
  have dist : ∀ g dt prev cmd new : K, 0 ≤ g * dt → Limits g dt prev cmd new → |cmd - new| = max 0 (|cmd - prev| - g * dt) := by
    intro g dt prev cmd new hgd h
    rcases le_total |cmd - prev| (g * dt) with hh | hh
    · rw [h.full hh, max_eq_left (by linarith)]; simp
    · rw [max_eq_right (by linarith), ← h.saturated hh]
      rcases h.between with ⟨p, q⟩ | ⟨p, q⟩
      · rw [abs_of_nonneg (by linarith), abs_of_nonneg (by linarith), abs_of_nonneg (by linarith)]; ring
      · rw [abs_of_nonpos (by linarith), abs_of_nonpos (by linarith), abs_of_nonpos (by linarith)]; ring
  induction l generalizing s with
  | nil => simp [run]
  | cons i l ih =>
    obtain ⟨h1, h2⟩ := hf
    have hrun : run .threePhase true gR gI s (i :: l) = run .threePhase true gR gI (updateIref .threePhase true gR gI s i) l := rfl
    obtain ⟨c1, c2⟩ := hc i (by simp)
    have hone : |cR - (updateIref .threePhase true gR gI s i).refR| = max 0 (|cR - s.refR| - gR * (i.t - s.tiref)) ∧
        |cI - (updateIref .threePhase true gR gI s i).refI| = max 0 (|cI - s.refI| - gI * (i.t - s.tiref)) := by
      rcases h1.lt_or_eq with h | h
      · have := C41_ramp_limited .threePhase gR gI s i hR hI h
        rw [c1, c2] at this
        have hdt : 0 ≤ i.t - s.tiref := by linarith
        exact ⟨dist _ _ _ _ _ (mul_nonneg hR hdt) this.1, dist _ _ _ _ _ (mul_nonneg hI hdt) this.2⟩
      · rw [(C41_same_time .threePhase gR gI s i).1 h.symm]; simp [h]
    have hb := (C42_slope_bounded gR gI hR hI (updateIref .threePhase true gR gI s i) l h2).1
    obtain ⟨a, b⟩ := ih (updateIref .threePhase true gR gI s i) h2 (fun j hj => hc j (by simp [hj]))
    rw [hrun]
    generalize run .threePhase true gR gI (updateIref .threePhase true gR gI s i) l = z at *
    have hstep : (updateIref .threePhase true gR gI s i).tiref = i.t := rfl
    rw [hstep] at a b hb
    have comb : ∀ g d : K, 0 ≤ g → max 0 (max 0 (d - g * (i.t - s.tiref)) - g * (z.tiref - i.t)) = max 0 (d - g * (z.tiref - s.tiref)) := by
      intro g d hg
      have hn : 0 ≤ g * (z.tiref - i.t) := mul_nonneg hg (by linarith)
      have e : g * (z.tiref - s.tiref) = g * (i.t - s.tiref) + g * (z.tiref - i.t) := by ring
      rw [e]
      rcases le_total (d - g * (i.t - s.tiref)) 0 with h | h
      · rw [max_eq_left h, max_eq_left (by linarith), max_eq_left (by linarith)]
      · rw [max_eq_right h]; congr 1; ring
    rw [a, b, hone.1, hone.2, comb gR _ hR, comb gI _ hI]
    exact ⟨rfl, rfl⟩

/-- The single-phase models never record the evaluation time … -/
theorem C42_single_phase_never_records (lim : Bool) (gR gI : K) (s : St K) (l : List (Inp K)) : (run .singlePhase lim gR gI s l).tiref = s.tiref := by
  induction l generalizing s with
  | nil => rfl
  | cons i l ih => exact ih _

/-- … so the bound fails there: for every gradient `g > 0` and every bound `B` there is a run after which the slope between the last two evaluations
(1 ms apart, on a reference at rest) exceeds `B`. -/
theorem C42_single_phase_unbounded (g B : K) (hg : 0 < g) :
    ∃ t c : K, 0 < t ∧
      let s := run .singlePhase true g g ⟨0, 0, 0⟩ [⟨t, 0, 0, 0, 0⟩]
      s = ⟨0, 0, 0⟩ ∧ B * (1 / 1000) < |(run .singlePhase true g g s [⟨t + 1 / 1000, c, 0, 0, 0⟩]).refR - s.refR| := by
  set c : K := |B| + 1 with hc
  have hcp : 0 < c := by positivity
  refine ⟨c / g, c, by positivity, ?_⟩
  have ht : (0:K) < c / g := by positivity
  have e1 : run .singlePhase true g g ⟨0, 0, 0⟩ [⟨c / g, 0, 0, 0, 0⟩] = (⟨0, 0, 0⟩ : St K) := by
    have := C41_ramp_limited .singlePhase g g (⟨0, 0, 0⟩ : St K) ⟨c / g, 0, 0, 0, 0⟩ hg.le hg.le ht
    have hh : |(0:K) - 0| ≤ g * (c / g - 0) := by simp; positivity
    show updateIref .singlePhase true g g ⟨0, 0, 0⟩ ⟨c / g, 0, 0, 0, 0⟩ = _
    have a := this.1.full hh
    have b := this.2.full hh
    have d : (updateIref .singlePhase true g g ⟨0, 0, 0⟩ (⟨c / g, 0, 0, 0, 0⟩ : Inp K)).tiref = 0 := rfl
    generalize updateIref .singlePhase true g g ⟨0, 0, 0⟩ (⟨c / g, 0, 0, 0, 0⟩ : Inp K) = z at *
    cases z
    simp_all
  refine ⟨e1, ?_⟩
  rw [e1]
  show B * (1 / 1000) < |(updateIref .singlePhase true g g ⟨0, 0, 0⟩ (⟨c / g + 1 / 1000, c, 0, 0, 0⟩ : Inp K)).refR - 0|
  have hp : (0:K) < c / g + 1 / 1000 := by positivity
  have := C41_ramp_limited .singlePhase g g (⟨0, 0, 0⟩ : St K) ⟨c / g + 1 / 1000, c, 0, 0, 0⟩ hg.le hg.le hp
  have hgc : g * (c / g) = c := by field_simp
  rw [this.1.full (by show |c - 0| ≤ g * (c / g + 1 / 1000 - 0); rw [sub_zero, sub_zero, abs_of_pos hcp, mul_add, hgc]; linarith [hg])]
  show B * (1 / 1000) < |c - 0|
  rw [sub_zero, abs_of_pos hcp, hc]
  have := le_abs_self B
  have := abs_nonneg B
  linarith

example : Forward (0:ℚ) [⟨1, 5, 0, 0, 0⟩, ⟨2, -5, 0, 0, 0⟩, ⟨2, 7, 0, 0, 0⟩] ∧
    run .threePhase true (1:ℚ) 1 ⟨0, 0, 0⟩ [⟨1, 5, 0, 0, 0⟩, ⟨2, -5, 0, 0, 0⟩, ⟨2, 7, 0, 0, 0⟩] = ⟨0, 0, 2⟩ := by
  refine ⟨?_, by decide +kernel⟩
  norm_num [Forward]

end Ramp
end PvDer
