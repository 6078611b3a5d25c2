import Verif.Model.VoltVar
import Mathlib.Tactic.Linarith
import Mathlib.Tactic.NormNum
import Mathlib.Tactic.FieldSimp
import Mathlib.Tactic.Ring

/-!
# Properties C37–C40: Volt-VAR
-/

set_option linter.unusedSectionVars false

namespace PvDer
namespace VoltVar

variable {K : Type} [Field K] [LinearOrder K] [IsStrictOrderedRing K]

theorem mInject_val : (mInject : K) = -(22 / 3) := by norm_num [mInject, Q2, Q1, V2, V1]
theorem mAbsorb_val : (mAbsorb : K) = -(22 / 3) := by norm_num [mAbsorb, Q3, Q4, V3, V4]
theorem cInject_val : (cInject : K) = 22 / 3 * (98 / 100) := by rw [cInject, mInject_val]; norm_num [Q2, V2]
theorem cAbsorb_val : (cAbsorb : K) = 22 / 3 * (102 / 100) := by rw [cAbsorb, mAbsorb_val]; norm_num [Q4, V4]

theorem injectRange_iff {Vref V dV : K} : injectRange Vref V dV = true ↔ (92 / 100 - dV) * Vref ≤ V ∧ V ≤ (98 / 100 + dV) * Vref := by
  unfold injectRange; rw [Bool.and_eq_true, decide_eq_true_iff, decide_eq_true_iff]; exact Iff.rfl

theorem absorbRange_iff {Vref V dV : K} : absorbRange Vref V dV = true ↔ (102 / 100 - dV) * Vref ≤ V ∧ V ≤ (108 / 100 + dV) * Vref := by
  unfold absorbRange; rw [Bool.and_eq_true, decide_eq_true_iff, decide_eq_true_iff]; exact Iff.rfl

/-! ### Specification of the characteristic -/

/-- The IEEE 1547-2018 category B characteristic (per unit of nominal apparent power, as a function of per-unit voltage): piecewise linear through
(0.92, 0.44), (0.98, 0), (1.02, 0), (1.08, -0.44). -/
def curve (v : K) : K :=
  if v ≤ 98 / 100 then 44 / 100 * (98 / 100 - v) / (98 / 100 - 92 / 100)
  else if v ≤ 102 / 100 then 0
  else -(44 / 100) * (v - 102 / 100) / (108 / 100 - 102 / 100)

/-! ### C37 -/

theorem qInject_le {Vref Snom Qlim Qref V : K} (hQ : 0 ≤ Qlim) (h : injectRange Vref V 0 = true) :
    0 ≤ qInject Vref Snom Qlim Qref V ∧ qInject Vref Snom Qlim Qref V ≤ Qlim := by
  unfold qInject
  rw [if_pos h]
  exact ⟨le_min hQ (le_max_left _ _), min_le_left _ _⟩

theorem qAbsorb_le {Vref Snom Qlim Qref V : K} (hQ : 0 ≤ Qlim) (h : absorbRange Vref V 0 = true) :
    -Qlim ≤ qAbsorb Vref Snom Qlim Qref V ∧ qAbsorb Vref Snom Qlim Qref V ≤ 0 := by
  unfold qAbsorb
  rw [if_pos h]
  exact ⟨le_max_left _ _, max_le (by linarith) (min_le_left _ _)⟩

/-- C37: the reactive capability: `0 ≤ Qlimit`, and together with the active power it stays inside the apparent power rating (whenever the
active power itself does). -/
theorem C37_qlimit_capability (Snom P n Xf : ℝ) (ia : ℂ) (hP : |P| ≤ Snom) (hn : 0 ≤ n) (hX : 0 ≤ Xf) :
    0 ≤ qlimit Snom P n Xf ia ∧ qlimit Snom P n Xf ia ≤ Real.sqrt (Snom ^ 2 - P ^ 2) ∧
      P ^ 2 + qlimit Snom P n Xf ia ^ 2 ≤ Snom ^ 2 := by
  have h0 : 0 ≤ qlimit Snom P n Xf ia := le_max_left _ _
  obtain ⟨h1, h2⟩ := abs_le.1 hP
  have hcl : max (-Snom) (min P Snom) = P := by rw [min_eq_left h2, max_eq_right h1]
  have hle : qlimit Snom P n Xf ia ≤ Real.sqrt (Snom ^ 2 - P ^ 2) := by
    unfold qlimit
    rw [hcl]
    refine max_le (Real.sqrt_nonneg _) ?_
    have : 0 ≤ n * Xf * (‖ia‖ / Real.sqrt 2) ^ 2 := mul_nonneg (mul_nonneg hn hX) (sq_nonneg _)
    linarith
  refine ⟨h0, hle, ?_⟩
  have hsq : 0 ≤ Snom ^ 2 - P ^ 2 := by nlinarith
  have := mul_self_le_mul_self h0 hle
  rw [Real.mul_self_sqrt hsq] at this
  nlinarith

/-- The limit is finite and correct also for an over-loaded inverter: `0 ≤ Qlimit ≤ Snom` for every active power. -/
theorem C37_qlimit_any_power (Snom P n Xf : ℝ) (ia : ℂ) (hS : 0 ≤ Snom) (hn : 0 ≤ n) (hX : 0 ≤ Xf) :
    0 ≤ qlimit Snom P n Xf ia ∧ qlimit Snom P n Xf ia ≤ Snom := by
  refine ⟨le_max_left _ _, max_le hS ?_⟩
  have h1 : 0 ≤ n * Xf * (‖ia‖ / Real.sqrt 2) ^ 2 := mul_nonneg (mul_nonneg hn hX) (sq_nonneg _)
  have h2 : Real.sqrt (Snom ^ 2 - (max (-Snom) (min P Snom)) ^ 2) ≤ Snom := by
    rw [Real.sqrt_le_left hS]
    have := sq_nonneg (max (-Snom) (min P Snom))
    linarith
  linarith

/-- C37: for every advancing evaluation with the voltage in a segment of the curve, the reference returned is within `±Qlimit` and the resulting operating
point is inside the apparent power rating. -/
theorem C37_reference_within_capability (Vref Snom t V P n Xf : ℝ) (ia : ℂ) (s : St ℝ) (hP : |P| ≤ Snom) (hn : 0 ≤ n) (hX : 0 ≤ Xf)
    (hVref : 0 < Vref) (ht : t > s.t) (hseg : injectRange Vref V 0 = true ∨ absorbRange Vref V 0 = true) :
    |(logic Vref Snom t V (qlimit Snom P n Xf ia) s).2| ≤ qlimit Snom P n Xf ia ∧
      P ^ 2 + (logic Vref Snom t V (qlimit Snom P n Xf ia) s).2 ^ 2 ≤ Snom ^ 2 := by
  obtain ⟨h0, _, h2⟩ := C37_qlimit_capability Snom P n Xf ia hP hn hX
  generalize qlimit Snom P n Xf ia = Q at *
  have key : |(logic Vref Snom t V Q s).2| ≤ Q := by
    rcases hseg with h | h
    · have hi : injectRange Vref V deadband = true := by
        rw [injectRange_iff] at h ⊢
        have : (deadband : ℝ) = 1 / 100 := rfl
        rw [this]
        constructor <;> nlinarith
      have hq := qInject_le (Snom := Snom) (Qref := s.Qref) h0 h
      have : (logic Vref Snom t V Q s).2 = qInject Vref Snom Q s.Qref V := by
        unfold logic
        rw [if_pos ht]
        split_ifs <;> rfl
      rw [this, abs_le]
      exact ⟨by linarith, hq.2⟩
    · have hni : ¬ injectRange Vref V deadband = true := by
        rw [absorbRange_iff] at h
        rw [injectRange_iff]
        have : (deadband : ℝ) = 1 / 100 := rfl
        rw [this]
        intro hh
        nlinarith
      have ha : absorbRange Vref V deadband = true := by
        rw [absorbRange_iff] at h ⊢
        have : (deadband : ℝ) = 1 / 100 := rfl
        rw [this]
        constructor <;> nlinarith
      have hq := qAbsorb_le (Snom := Snom) (Qref := s.Qref) h0 h
      have : (logic Vref Snom t V Q s).2 = qAbsorb Vref Snom Q s.Qref V := by
        unfold logic
        rw [if_pos ht]
        split_ifs <;> rfl
      rw [this, abs_le]
      exact ⟨hq.1, by linarith [hq.2]⟩
  refine ⟨key, ?_⟩
  have := sq_le_sq' (by linarith [abs_nonneg (logic Vref Snom t V Q s).2]) key
  rw [sq_abs] at this
  linarith

/-- Defect next to C37: the *held* reference of the dead-band fringe is not re-limited, so after the capability shrinks it can exceed `Qlimit`. -/
theorem C37_held_reference_exceeds_limit :
    ∃ (s : St ℚ) (t V Qlim : ℚ), 0 ≤ Qlim ∧ t > s.t ∧ Qlim < (logic 1 1 t V Qlim s).2 ∧
      s = updateQref true false 1 1 1 (92/100) (44/100) ⟨0, false, 0⟩ :=
  ⟨updateQref true false 1 1 1 (92/100) (44/100) ⟨0, false, 0⟩, 2, 915/1000, 1/10, by decide +kernel⟩

example : injectRange (1:ℚ) (95/100) 0 = true ∧ absorbRange (1:ℚ) (105/100) 0 = true := by decide +kernel

/-! ### C38 -/

theorem qInject_curve {Vref Snom Qlim Qref V : K} (hVref : 0 < Vref) (hS : 0 ≤ Snom) (h : injectRange Vref V 0 = true)
    (hlim : curve (V / Vref) * Snom ≤ Qlim) : qInject Vref Snom Qlim Qref V = curve (V / Vref) * Snom ∧ 0 ≤ curve (V / Vref) := by
  have h' := injectRange_iff.1 h
  have hv : V / Vref ≤ 98 / 100 := by rw [div_le_iff₀ hVref]; linarith [h'.2]
  have hc : curve (V / Vref) = V / Vref * mInject + cInject := by
    unfold curve
    rw [if_pos hv, mInject_val, cInject_val]
    ring
  have hc0 : 0 ≤ curve (V / Vref) := by
    rw [hc, mInject_val, cInject_val]; linarith
  refine ⟨?_, hc0⟩
  unfold qInject
  rw [if_pos h, ← hc, max_eq_right (mul_nonneg hc0 hS), min_eq_right hlim]

theorem qAbsorb_curve {Vref Snom Qlim Qref V : K} (hVref : 0 < Vref) (hS : 0 ≤ Snom) (h : absorbRange Vref V 0 = true)
    (hlim : -Qlim ≤ curve (V / Vref) * Snom) : qAbsorb Vref Snom Qlim Qref V = curve (V / Vref) * Snom ∧ curve (V / Vref) ≤ 0 := by
  have h' := absorbRange_iff.1 h
  have hv : 102 / 100 ≤ V / Vref := by rw [le_div_iff₀ hVref]; linarith [h'.1]
  have hc : curve (V / Vref) = V / Vref * mAbsorb + cAbsorb := by
    unfold curve
    rw [if_neg (by intro hh; linarith), mAbsorb_val, cAbsorb_val]
    split_ifs with h2
    · have : V / Vref = 102 / 100 := le_antisymm h2 hv
      rw [this]; norm_num
    · ring
  have hc0 : curve (V / Vref) ≤ 0 := by
    rw [hc, mAbsorb_val, cAbsorb_val]; linarith
  refine ⟨?_, hc0⟩
  unfold qAbsorb
  rw [if_pos h, ← hc, min_eq_right (mul_nonpos_of_nonpos_of_nonneg hc0 hS), max_eq_right hlim]

/-- C38: for every advancing evaluation with the voltage in the low (high) segment and the limit not active, the reference is exactly the standard's
characteristic times the rating; it is non-negative (injection) in the low and non-positive (absorption) in the high segment. -/
theorem C38_follows_curve (Vref Snom t V Qlim : K) (s : St K) (hVref : 0 < Vref) (hS : 0 ≤ Snom) (ht : t > s.t)
    (hlim : |curve (V / Vref) * Snom| ≤ Qlim) :
    (92 / 100 * Vref ≤ V → V ≤ 98 / 100 * Vref →
      (logic Vref Snom t V Qlim s).2 = curve (V / Vref) * Snom ∧ 0 ≤ (logic Vref Snom t V Qlim s).2) ∧
    (102 / 100 * Vref ≤ V → V ≤ 108 / 100 * Vref →
      (logic Vref Snom t V Qlim s).2 = curve (V / Vref) * Snom ∧ (logic Vref Snom t V Qlim s).2 ≤ 0) := by
  have hdb : (deadband : K) = 1 / 100 := rfl
  obtain ⟨hl1, hl2⟩ := abs_le.1 hlim
  constructor
  · intro h1 h2
    have h : injectRange Vref V 0 = true := injectRange_iff.2 ⟨by linarith, by linarith⟩
    have hi : injectRange Vref V deadband = true := injectRange_iff.2 ⟨by rw [hdb]; nlinarith, by rw [hdb]; nlinarith⟩
    have hq := qInject_curve (Qref := s.Qref) hVref hS h hl2
    have : (logic Vref Snom t V Qlim s).2 = qInject Vref Snom Qlim s.Qref V := by
      unfold logic
      rw [if_pos ht]
      split_ifs <;> rfl
    rw [this, hq.1]
    exact ⟨rfl, mul_nonneg hq.2 hS⟩
  · intro h1 h2
    have h : absorbRange Vref V 0 = true := absorbRange_iff.2 ⟨by linarith, by linarith⟩
    have hni : ¬ injectRange Vref V deadband = true := by
      rw [injectRange_iff, hdb]
      intro hh
      nlinarith
    have ha : absorbRange Vref V deadband = true := absorbRange_iff.2 ⟨by rw [hdb]; nlinarith, by rw [hdb]; nlinarith⟩
    have hq := qAbsorb_curve (Qref := s.Qref) hVref hS h hl1
    have : (logic Vref Snom t V Qlim s).2 = qAbsorb Vref Snom Qlim s.Qref V := by
      unfold logic
      rw [if_pos ht]
      split_ifs <;> rfl
    rw [this, hq.1]
    exact ⟨rfl, mul_nonpos_of_nonpos_of_nonneg hq.2 hS⟩

/-- C38: the corner points. -/
theorem C38_corner_points : curve (92/100 : K) = 44/100 ∧ curve (98/100 : K) = 0 ∧ curve (102/100 : K) = 0 ∧ curve (108/100 : K) = -(44/100) := by
  refine ⟨?_, ?_, ?_, ?_⟩ <;> norm_num [curve]

/-- C38: with or without an active limit the reference is non-increasing in the voltage within each segment. -/
theorem C38_monotone (Vref Snom Qlim Qref V V' : K) (hVref : 0 < Vref) (hS : 0 ≤ Snom) (hVV : V ≤ V') :
    (injectRange Vref V 0 = true → injectRange Vref V' 0 = true → qInject Vref Snom Qlim Qref V' ≤ qInject Vref Snom Qlim Qref V) ∧
    (absorbRange Vref V 0 = true → absorbRange Vref V' 0 = true → qAbsorb Vref Snom Qlim Qref V' ≤ qAbsorb Vref Snom Qlim Qref V) := by
  have hd : V / Vref ≤ V' / Vref := by rw [div_le_div_iff_of_pos_right hVref]; exact hVV
  constructor
  · intro h h'
    unfold qInject
    rw [if_pos h, if_pos h', mInject_val, cInject_val]
    refine min_le_min le_rfl (max_le_max le_rfl (mul_le_mul_of_nonneg_right ?_ hS))
    linarith
  · intro h h'
    unfold qAbsorb
    rw [if_pos h, if_pos h', mAbsorb_val, cAbsorb_val]
    refine max_le_max le_rfl (min_le_min le_rfl (mul_le_mul_of_nonneg_right ?_ hS))
    linarith

example : (logic (1:ℚ) 1 1 (95/100) 1 ⟨0, false, 0⟩).2 = 22/100 ∧ (logic (1:ℚ) 1 1 (107/100) 1 ⟨0, false, 0⟩).2 = -(44/120*1) := by decide +kernel

/-! ### C39 -/

/-- C39: outside both dead-band extended segments (in particular in the 0.99–1.01 dead band, below 0.91 and above 1.09) an advancing evaluation returns 0 and
leaves the controller inactive. -/
theorem C39_zero_outside (Vref Snom t V Qlim : K) (s : St K) (ht : t > s.t)
    (h1 : V < 91 / 100 * Vref ∨ 99 / 100 * Vref < V) (h2 : V < 101 / 100 * Vref ∨ 109 / 100 * Vref < V) :
    logic Vref Snom t V Qlim s = (⟨t, false, s.Qref⟩, 0) := by
  have hdb : (deadband : K) = 1 / 100 := rfl
  have e1 : (92 / 100 - 1 / 100 : K) = 91 / 100 := by norm_num
  have e2 : (98 / 100 + 1 / 100 : K) = 99 / 100 := by norm_num
  have e3 : (102 / 100 - 1 / 100 : K) = 101 / 100 := by norm_num
  have e4 : (108 / 100 + 1 / 100 : K) = 109 / 100 := by norm_num
  have hi : ¬ injectRange Vref V deadband = true := by
    rw [injectRange_iff, hdb, e1, e2]
    rintro ⟨a, b⟩
    rcases h1 with h1 | h1
    · exact absurd a (not_le.2 h1)
    · exact absurd b (not_le.2 h1)
  have ha : ¬ absorbRange Vref V deadband = true := by
    rw [absorbRange_iff, hdb, e3, e4]
    rintro ⟨a, b⟩
    rcases h2 with h2 | h2
    · exact absurd a (not_le.2 h2)
    · exact absurd b (not_le.2 h2)
  unfold logic
  rw [if_pos ht, if_neg hi, if_neg hi, if_neg ha, if_neg ha]
  split_ifs with h
  · rfl
  · have : s.active = false := by simpa using h
    rw [← this]

/-- C39: inside an extended segment the controller becomes (or stays) active … -/
theorem C39_active_inside (Vref Snom t V Qlim : K) (s : St K) (ht : t > s.t)
    (h : (91 / 100 * Vref ≤ V ∧ V ≤ 99 / 100 * Vref) ∨ (101 / 100 * Vref ≤ V ∧ V ≤ 109 / 100 * Vref)) :
    (logic Vref Snom t V Qlim s).1 = ⟨t, true, s.Qref⟩ := by
  have hdb : (deadband : K) = 1 / 100 := rfl
  have e1 : (92 / 100 - 1 / 100 : K) = 91 / 100 := by norm_num
  have e2 : (98 / 100 + 1 / 100 : K) = 99 / 100 := by norm_num
  have e3 : (102 / 100 - 1 / 100 : K) = 101 / 100 := by norm_num
  have e4 : (108 / 100 + 1 / 100 : K) = 109 / 100 := by norm_num
  have hor : injectRange Vref V deadband = true ∨ absorbRange Vref V deadband = true := by
    rw [injectRange_iff, absorbRange_iff, hdb, e1, e2, e3, e4]; exact h
  unfold logic
  rw [if_pos ht]
  by_cases hac : s.active = true
  · rw [if_pos hac]
    split_ifs with a b
    · simp [hac]
    · simp [hac]
    · simp_all
  · rw [if_neg hac]
    split_ifs with a b
    · rfl
    · rfl
    · simp_all

/-- … in the dead-band fringe (the part of an extended segment outside the segment) the previous reference is held … -/
theorem C39_fringe_holds (Vref Snom t V Qlim : K) (s : St K) (hVref : 0 < Vref) (ht : t > s.t)
    (h : (91 / 100 * Vref ≤ V ∧ V < 92 / 100 * Vref) ∨ (98 / 100 * Vref < V ∧ V ≤ 99 / 100 * Vref) ∨
      (101 / 100 * Vref ≤ V ∧ V < 102 / 100 * Vref) ∨ (108 / 100 * Vref < V ∧ V ≤ 109 / 100 * Vref)) :
    (logic Vref Snom t V Qlim s).2 = s.Qref := by
  have hdb : (deadband : K) = 1 / 100 := rfl
  have hi0 : injectRange Vref V deadband = true → ¬ injectRange Vref V 0 = true := by
    rw [injectRange_iff, injectRange_iff, hdb]
    rintro ⟨a, b⟩ ⟨c, d⟩
    rcases h with ⟨p, q⟩ | ⟨p, q⟩ | ⟨p, q⟩ | ⟨p, q⟩ <;> linarith
  have ha0 : absorbRange Vref V deadband = true → ¬ absorbRange Vref V 0 = true := by
    rw [absorbRange_iff, absorbRange_iff, hdb]
    rintro ⟨a, b⟩ ⟨c, d⟩
    rcases h with ⟨p, q⟩ | ⟨p, q⟩ | ⟨p, q⟩ | ⟨p, q⟩ <;> linarith
  have hor : injectRange Vref V deadband = true ∨ absorbRange Vref V deadband = true := by
    rw [injectRange_iff, absorbRange_iff, hdb]
    rcases h with ⟨p, q⟩ | ⟨p, q⟩ | ⟨p, q⟩ | ⟨p, q⟩
    · left; constructor <;> linarith
    · left; constructor <;> linarith
    · right; constructor <;> linarith
    · right; constructor <;> linarith
  have q1 : injectRange Vref V deadband = true → qInject Vref Snom Qlim s.Qref V = s.Qref := fun a => by
    unfold qInject; rw [if_neg (hi0 a)]
  have q2 : absorbRange Vref V deadband = true → qAbsorb Vref Snom Qlim s.Qref V = s.Qref := fun a => by
    unfold qAbsorb; rw [if_neg (ha0 a)]
  unfold logic
  rw [if_pos ht]
  split_ifs with a b c d e
  · exact q1 b
  · exact q2 c
  · simp_all
  · exact q1 d
  · exact q2 e
  · simp_all

/-- … and a non-advancing evaluation changes nothing. -/
theorem C39_old_time (Vref Snom t V Qlim : K) (s : St K) (ht : t ≤ s.t) :
    logic Vref Snom t V Qlim s = (s, s.Qref) ∧ updateQref true false Vref Snom t V Qlim s = s := by
  have : logic Vref Snom t V Qlim s = (s, s.Qref) := by unfold logic; rw [if_neg (not_lt.2 ht)]
  exact ⟨this, by simp [updateQref, this]⟩

/-! ### C40 -/

/-- What can happen to the reference between two points of a run: an evaluation of `update_Qref` (with any measured voltage and any capability), or the
disconnection logic zeroing it (DER_features.py 242). -/
inductive Op (K : Type)
  | update (enable : Bool) (t V Qlim : K)
  | zero

/-- One step. -/
def stepOp (Vref Snom : K) (s : St K) : Op K → St K
  | .update en t V Qlim => updateQref en false Vref Snom t V Qlim s
  | .zero => { s with Qref := 0 }

theorem logic_bound {Vref Snom t V Qlim : K} {s : St K} (hVref : 0 < Vref) (hS : 0 ≤ Snom) (hQ : 0 ≤ Qlim) (hs : |s.Qref| ≤ 44 / 100 * Snom) :
    |(logic Vref Snom t V Qlim s).2| ≤ 44 / 100 * Snom := by
  have hB : 0 ≤ 44 / 100 * Snom := by positivity
  have q1 : |qInject Vref Snom Qlim s.Qref V| ≤ 44 / 100 * Snom := by
    unfold qInject
    split_ifs with h
    · have h' := injectRange_iff.1 h
      have hv : 92 / 100 ≤ V / Vref := by rw [le_div_iff₀ hVref]; linarith [h'.1]
      rw [abs_le]
      refine ⟨le_trans (by linarith) (le_min hQ (le_max_left _ _)), le_trans (min_le_right _ _) (max_le hB ?_)⟩
      rw [mInject_val, cInject_val]
      refine mul_le_mul_of_nonneg_right ?_ hS
      linarith
    · exact hs
  have q2 : |qAbsorb Vref Snom Qlim s.Qref V| ≤ 44 / 100 * Snom := by
    unfold qAbsorb
    split_ifs with h
    · have h' := absorbRange_iff.1 h
      have hv : V / Vref ≤ 108 / 100 := by rw [div_le_iff₀ hVref]; linarith [h'.2]
      rw [abs_le]
      refine ⟨le_trans (le_min (by linarith) ?_) (le_max_right _ _), le_trans (max_le (by linarith) (min_le_left _ _)) hB⟩
      rw [mAbsorb_val, cAbsorb_val]
      nlinarith
    · exact hs
  unfold logic
  split_ifs
  · exact q1
  · exact q2
  · simpa using hB
  · exact q1
  · exact q2
  · simpa using hB
  · exact hs

/-- C40: starting from a zero reference (or any within the bound), along every run of Volt-VAR evaluations and disconnections of any length,
`|Q_ref| ≤ 0.44·Snominal`. -/
theorem C40_reference_bounded (Vref Snom : K) (hVref : 0 < Vref) (hS : 0 ≤ Snom) (s : St K) (hs : |s.Qref| ≤ 44 / 100 * Snom) (ops : List (Op K))
    (hops : ∀ en t V Qlim, Op.update en t V Qlim ∈ ops → 0 ≤ Qlim) : |(ops.foldl (stepOp Vref Snom) s).Qref| ≤ 44 / 100 * Snom := by
  induction ops generalizing s with
  | nil => exact hs
  | cons o ops ih =>
    rw [List.foldl_cons]
    refine ih _ ?_ (fun en t V Q h => hops en t V Q (by simp [h]))
    have hB : 0 ≤ 44 / 100 * Snom := by positivity
    cases o with
    | zero => simpa [stepOp] using hB
    | update en t V Qlim =>
      simp only [stepOp, updateQref]
      cases en with
      | true => exact logic_bound hVref hS (hops true t V Qlim (by simp)) hs
      | false => simpa using hB

example : ([Op.update true 1 (92/100) (44/100), Op.zero, Op.update true 2 (107/100) (1/10), Op.update true 3 (1085/1000) 1].foldl (stepOp (1:ℚ) 1)
    ⟨0, false, 0⟩) = ⟨3, true, -(1/10)⟩ := by decide +kernel

end VoltVar
end PvDer
