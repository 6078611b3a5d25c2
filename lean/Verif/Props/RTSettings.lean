import Verif.Model.RideThrough
import Mathlib.Tactic.Linarith

/-!
# Properties C25–C26: feasibility of ride-through settings
-/

set_option linter.unusedSectionVars false

namespace PvDer
namespace RT

variable {K : Type} [Field K] [LinearOrder K] [IsStrictOrderedRing K]

/-- Specification: a feasible low-voltage table. -/
structure FeasibleLV (L : VLim K) (zs : List (Zone K)) : Prop where
  range : ∀ z ∈ zs, 0 < z.Vthr ∧ z.Vthr < 1 ∧ z.Vthr < L.Vhigh
  time : ∀ z ∈ zs, 0 < z.tThr ∧ z.tThr < L.tHigh
  mode : ∀ z ∈ zs, z.mode = .mandatory ∨ z.mode = .cessation
  order : zs.Pairwise (fun z z' => z'.Vthr ≤ z.Vthr)

/-- Specification: a feasible high-voltage table. -/
structure FeasibleHV (L : VLim K) (zs : List (Zone K)) : Prop where
  range : ∀ z ∈ zs, 0 < z.Vthr ∧ 1 < z.Vthr ∧ z.Vthr < L.Vhigh
  time : ∀ z ∈ zs, 0 < z.tThr ∧ z.tThr < L.tHigh
  mode : ∀ z ∈ zs, z.mode = .mandatory ∨ z.mode = .cessation
  order : zs.Pairwise (fun z z' => z.Vthr ≤ z'.Vthr)

theorem isDescending_iff (l : List K) : isDescending l = true ↔ l.Pairwise (fun a b => b ≤ a) := by
  unfold isDescending
  rw [decide_eq_true_iff]
  have : Std.Total (fun a b : K => b ≤ a) := ⟨fun a b => le_total b a⟩
  have : IsTrans K (fun a b : K => b ≤ a) := ⟨fun a b c h1 h2 => le_trans h2 h1⟩
  constructor
  · intro h
    rw [h]
    exact List.pairwise_insertionSort _ l
  · intro h
    exact (List.Pairwise.insertionSort_eq h).symm

theorem isAscending_iff (l : List K) : isAscending l = true ↔ l.Pairwise (fun a b => a ≤ b) := by
  unfold isAscending
  rw [decide_eq_true_iff]
  constructor
  · intro h
    rw [h]
    exact List.pairwise_insertionSort _ l
  · intro h
    exact (List.Pairwise.insertionSort_eq h).symm

theorem mode_iff (m : Mode) : m ≠ .other ↔ m = .mandatory ∨ m = .cessation := by cases m <;> simp

theorem checkZones_lv (L : VLim K) (acc : List K) (hacc : acc.Pairwise (fun a b => b ≤ a)) (zs : List (Zone K)) :
    checkZones L true acc zs = .ok () ↔
      (∀ z ∈ zs, 0 < z.Vthr ∧ z.Vthr < 1 ∧ z.Vthr < L.Vhigh) ∧ (∀ z ∈ zs, 0 < z.tThr ∧ z.tThr < L.tHigh) ∧
      (∀ z ∈ zs, z.mode = .mandatory ∨ z.mode = .cessation) ∧ (acc ++ zs.map (·.Vthr)).Pairwise (fun a b => b ≤ a) := by
  induction zs generalizing acc with
  | nil => simp [checkZones, hacc]
  | cons z zs ih =>
    simp only [checkZones, if_true]
    have happ : acc ++ (z :: zs).map (·.Vthr) = (acc ++ [z.Vthr]) ++ zs.map (·.Vthr) := by simp
    rw [happ]
    by_cases hd : (acc ++ [z.Vthr]).Pairwise (fun a b => b ≤ a)
    · have hd' := (isDescending_iff _).2 hd
      rw [hd']
      have := ih _ hd
      by_cases h1 : z.Vthr ≥ 1
      · simp only [h1, decide_true, Bool.true_or, if_true]
        refine ⟨fun h => by simp at h, fun h => absurd (h.1 z (by simp)).2.1 (not_lt.2 h1)⟩
      by_cases h2 : z.Vthr ≤ 0
      · simp only [h1, decide_false, Bool.not_true, Bool.or_false, Bool.false_eq_true, if_false, h2, if_true]
        refine ⟨fun h => by simp at h, fun h => absurd (h.1 z (by simp)).1 (not_lt.2 h2)⟩
      by_cases h3 : z.Vthr ≥ L.Vhigh
      · simp only [h1, decide_false, Bool.not_true, Bool.or_false, Bool.false_eq_true, if_false, h2, h3, if_true]
        refine ⟨fun h => by simp at h, fun h => absurd (h.1 z (by simp)).2.2 (not_lt.2 h3)⟩
      by_cases h4 : z.tThr ≤ 0
      · simp only [h1, decide_false, Bool.not_true, Bool.or_false, Bool.false_eq_true, if_false, h2, h3, h4, if_true]
        refine ⟨fun h => by simp at h, fun h => absurd (h.2.1 z (by simp)).1 (not_lt.2 h4)⟩
      by_cases h5 : z.tThr ≥ L.tHigh
      · simp only [h1, decide_false, Bool.not_true, Bool.or_false, Bool.false_eq_true, if_false, h2, h3, h4, h5, if_true]
        refine ⟨fun h => by simp at h, fun h => absurd (h.2.1 z (by simp)).2 (not_lt.2 h5)⟩
      by_cases h6 : z.mode = .other
      · simp only [h1, decide_false, Bool.not_true, Bool.or_false, Bool.false_eq_true, if_false, h2, h3, h4, h5, h6, if_true]
        refine ⟨fun h => by simp at h, fun h => absurd h6 ((mode_iff _).2 (h.2.2.1 z (by simp)))⟩
      simp only [h1, decide_false, Bool.not_true, Bool.or_false, Bool.false_eq_true, if_false, h2, h3, h4, h5, h6]
      rw [this]
      have hm := (mode_iff _).1 h6
      simp only [not_le, ge_iff_le] at h1 h2 h3 h4 h5
      simp only [List.forall_mem_cons]
      exact ⟨fun h => ⟨⟨⟨h2, h1, h3⟩, h.1⟩, ⟨⟨h4, h5⟩, h.2.1⟩, ⟨hm, h.2.2.1⟩, h.2.2.2⟩,
        fun h => ⟨h.1.2, h.2.1.2, h.2.2.1.2, h.2.2.2⟩⟩
    · have hd' : isDescending (acc ++ [z.Vthr]) = false := by
        rw [← Bool.not_eq_true, isDescending_iff]; exact hd
      rw [hd']
      simp only [Bool.not_false, Bool.or_true, if_true]
      refine ⟨fun h => by simp at h, fun h => absurd (List.pairwise_append.1 h.2.2.2).1 hd⟩

theorem checkZones_hv (L : VLim K) (acc : List K) (hacc : acc.Pairwise (fun a b => a ≤ b)) (zs : List (Zone K)) :
    checkZones L false acc zs = .ok () ↔
      (∀ z ∈ zs, 0 < z.Vthr ∧ 1 < z.Vthr ∧ z.Vthr < L.Vhigh) ∧ (∀ z ∈ zs, 0 < z.tThr ∧ z.tThr < L.tHigh) ∧
      (∀ z ∈ zs, z.mode = .mandatory ∨ z.mode = .cessation) ∧ (acc ++ zs.map (·.Vthr)).Pairwise (fun a b => a ≤ b) := by
  induction zs generalizing acc with
  | nil => simp [checkZones, hacc]
  | cons z zs ih =>
    simp only [checkZones, Bool.false_eq_true, if_false]
    have happ : acc ++ (z :: zs).map (·.Vthr) = (acc ++ [z.Vthr]) ++ zs.map (·.Vthr) := by simp
    rw [happ]
    by_cases hd : (acc ++ [z.Vthr]).Pairwise (fun a b => a ≤ b)
    · have hd' := (isAscending_iff _).2 hd
      rw [hd']
      have := ih _ hd
      by_cases h1 : z.Vthr ≤ 1
      · simp only [h1, decide_true, Bool.true_or, if_true]
        refine ⟨fun h => by simp at h, fun h => absurd (h.1 z (by simp)).2.1 (not_lt.2 h1)⟩
      by_cases h2 : z.Vthr ≤ 0
      · simp only [h1, decide_false, Bool.not_true, Bool.or_false, Bool.false_eq_true, if_false, h2, if_true]
        refine ⟨fun h => by simp at h, fun h => absurd (h.1 z (by simp)).1 (not_lt.2 h2)⟩
      by_cases h3 : z.Vthr ≥ L.Vhigh
      · simp only [h1, decide_false, Bool.not_true, Bool.or_false, Bool.false_eq_true, if_false, h2, h3, if_true]
        refine ⟨fun h => by simp at h, fun h => absurd (h.1 z (by simp)).2.2 (not_lt.2 h3)⟩
      by_cases h4 : z.tThr ≤ 0
      · simp only [h1, decide_false, Bool.not_true, Bool.or_false, Bool.false_eq_true, if_false, h2, h3, h4, if_true]
        refine ⟨fun h => by simp at h, fun h => absurd (h.2.1 z (by simp)).1 (not_lt.2 h4)⟩
      by_cases h5 : z.tThr ≥ L.tHigh
      · simp only [h1, decide_false, Bool.not_true, Bool.or_false, Bool.false_eq_true, if_false, h2, h3, h4, h5, if_true]
        refine ⟨fun h => by simp at h, fun h => absurd (h.2.1 z (by simp)).2 (not_lt.2 h5)⟩
      by_cases h6 : z.mode = .other
      · simp only [h1, decide_false, Bool.not_true, Bool.or_false, Bool.false_eq_true, if_false, h2, h3, h4, h5, h6, if_true]
        refine ⟨fun h => by simp at h, fun h => absurd h6 ((mode_iff _).2 (h.2.2.1 z (by simp)))⟩
      simp only [h1, decide_false, Bool.not_true, Bool.or_false, Bool.false_eq_true, if_false, h2, h3, h4, h5, h6]
      rw [this]
      have hm := (mode_iff _).1 h6
      simp only [not_le, ge_iff_le] at h1 h2 h3 h4 h5
      simp only [List.forall_mem_cons]
      exact ⟨fun h => ⟨⟨⟨h2, h1, h3⟩, h.1⟩, ⟨⟨h4, h5⟩, h.2.1⟩, ⟨hm, h.2.2.1⟩, h.2.2.2⟩,
        fun h => ⟨h.1.2, h.2.1.2, h.2.2.1.2, h.2.2.2⟩⟩
    · have hd' : isAscending (acc ++ [z.Vthr]) = false := by
        rw [← Bool.not_eq_true, isAscending_iff]; exact hd
      rw [hd']
      simp only [Bool.not_false, Bool.or_true, if_true]
      refine ⟨fun h => by simp at h, fun h => absurd (List.pairwise_append.1 h.2.2.2).1 hd⟩

/-- C25: the settings check accepts exactly the feasible tables. -/
theorem C25_check_accepts_iff_feasible (L : VLim K) (lv hv : List (Zone K)) (dd rd : K) :
    checkVRT L lv hv dd rd = .ok () ↔ FeasibleLV L lv ∧ FeasibleHV L hv ∧ L.discLow ≤ dd ∧ L.recoLow ≤ rd := by
  have h1 := checkZones_lv L [] List.Pairwise.nil lv
  have h2 := checkZones_hv L [] List.Pairwise.nil hv
  simp only [List.nil_append, List.pairwise_map] at h1 h2
  have e1 : checkZones L true [] lv = .ok () ↔ FeasibleLV L lv :=
    h1.trans ⟨fun h => ⟨h.1, h.2.1, h.2.2.1, h.2.2.2⟩, fun h => ⟨h.range, h.time, h.mode, h.order⟩⟩
  have e2 : checkZones L false [] hv = .ok () ↔ FeasibleHV L hv :=
    h2.trans ⟨fun h => ⟨h.1, h.2.1, h.2.2.1, h.2.2.2⟩, fun h => ⟨h.range, h.time, h.mode, h.order⟩⟩
  rw [← e1, ← e2]
  unfold checkVRT
  cases hc1 : checkZones L true [] lv with
  | error e => simp
  | ok _ =>
    cases hc2 : checkZones L false [] hv with
    | error e => simp only; split_ifs <;> simp
    | ok _ => simp only [true_and]; split_ifs <;> simp_all

/-- Every rejected table is rejected with `ValueError`. -/
theorem C25_rejection_is_value_error (L : VLim K) (lv hv : List (Zone K)) (dd rd : K) (e : Err) (h : checkVRT L lv hv dd rd = .error e) :
    e = .valueError := by
  have key : ∀ (b : Bool) (zs : List (Zone K)) (acc : List K) (e : Err), checkZones L b acc zs = .error e → e = .valueError := by
    intro b zs
    induction zs with
    | nil => intro acc e h; simp [checkZones] at h
    | cons z zs ih =>
      intro acc e h
      simp only [checkZones] at h
      generalize hX : (if b = true then decide (z.Vthr ≥ 1) || !isDescending (acc ++ [z.Vthr])
        else decide (z.Vthr ≤ 1) || !isAscending (acc ++ [z.Vthr])) = X at h
      split_ifs at h
      all_goals first
        | exact ih _ _ h
        | (injection h with h; exact h.symm)
  unfold checkVRT at h
  cases hc1 : checkZones L true [] lv with
  | error e' => rw [hc1] at h; injection h with h; rw [← h]; exact key _ _ _ _ hc1
  | ok _ =>
    cases hc2 : checkZones L false [] hv with
    | error e' =>
      rw [hc1, hc2] at h
      simp only at h
      split_ifs at h
      all_goals (injection h with h; rw [← h])
      exact key _ _ _ _ hc2
    | ok _ =>
      rw [hc1, hc2] at h
      simp only at h
      split_ifs at h
      all_goals (injection h with h; rw [← h])

/-- Limits of DER_features.py 22-27. -/
def exLim : VLim ℚ := ⟨3/2, 100, 1/120, 1/10⟩
/-- A feasible table. -/
def exLV : List (Zone ℚ) := [⟨88/100, 5, 1/10, .mandatory, 0, false⟩, ⟨1/2, 1, 1/10, .cessation, 0, false⟩]
/-- A feasible table. -/
def exHV : List (Zone ℚ) := [⟨11/10, 3, 1/10, .mandatory, 0, false⟩, ⟨12/10, 1, 1/10, .cessation, 0, false⟩]

example : checkVRT exLim exLV exHV (1/60) 2 = .ok () ∧ checkVRT exLim exLV.reverse exHV (1/60) 2 = .error .valueError ∧
    checkVRT exLim exLV exHV (1/60) (1/20) = .error .valueError := by decide +kernel

/-- C26: with accepted settings and a positive reference voltage, no voltage violates an LV and an HV zone at once. -/
theorem C26_no_simultaneous_lv_hv {L : VLim K} {lv hv : List (Zone K)} {dd rd Vref V : K} (h : checkVRT L lv hv dd rd = .ok ())
    (hV : 0 < Vref) {z : Zone K} (hz : z ∈ lv) {z' : Zone K} (hz' : z' ∈ hv) (h1 : V < z.Vthr * Vref) : ¬ z'.Vthr * Vref < V := by
  obtain ⟨f1, f2, _⟩ := (C25_check_accepts_iff_feasible L lv hv dd rd).1 h
  have a := (f1.range z hz).2.1
  have b := (f2.range z' hz').2.1
  have : z.Vthr * Vref < z'.Vthr * Vref := mul_lt_mul_of_pos_right (lt_trans a b) hV
  intro hc
  exact lt_irrefl _ (lt_trans (lt_trans this hc) h1)

/-- C26: violating a deeper LV zone violates every shallower one. -/
theorem C26_lv_nested {L : VLim K} {lv hv : List (Zone K)} {dd rd Vref V : K} (h : checkVRT L lv hv dd rd = .ok ())
    (hV : 0 < Vref) {p q r : List (Zone K)} {z z' : Zone K} (he : lv = p ++ z :: q ++ z' :: r) (h1 : V < z'.Vthr * Vref) : V < z.Vthr * Vref := by
  obtain ⟨f1, _⟩ := (C25_check_accepts_iff_feasible L lv hv dd rd).1 h
  have := f1.order
  rw [he, List.append_assoc, List.pairwise_append] at this
  have h2 := this.2.1
  rw [List.cons_append, List.pairwise_cons] at h2
  exact lt_of_lt_of_le h1 (mul_le_mul_of_nonneg_right (h2.1 z' (by simp)) hV.le)

/-- C26: violating a deeper HV zone violates every shallower one. -/
theorem C26_hv_nested {L : VLim K} {lv hv : List (Zone K)} {dd rd Vref V : K} (h : checkVRT L lv hv dd rd = .ok ())
    (hV : 0 < Vref) {p q r : List (Zone K)} {z z' : Zone K} (he : hv = p ++ z :: q ++ z' :: r) (h1 : z'.Vthr * Vref < V) : z.Vthr * Vref < V := by
  obtain ⟨_, f1, _⟩ := (C25_check_accepts_iff_feasible L lv hv dd rd).1 h
  have := f1.order
  rw [he, List.append_assoc, List.pairwise_append] at this
  have h2 := this.2.1
  rw [List.cons_append, List.pairwise_cons] at h2
  exact lt_of_le_of_lt (mul_le_mul_of_nonneg_right (h2.1 z' (by simp)) hV.le) h1

example : exLV = [] ++ ⟨88/100, 5, 1/10, .mandatory, 0, false⟩ :: [] ++ ⟨1/2, 1, 1/10, .cessation, 0, false⟩ :: [] ∧
    (2/5 : ℚ) < 1/2 * 1 := by decide +kernel

end RT
end PvDer
