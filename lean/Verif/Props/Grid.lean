import Verif.Model.Grid
import Verif.Props.Events
import Verif.Props.Phasor
import Mathlib.Tactic.Linarith
import Mathlib.Tactic.NormNum
import Mathlib.Tactic.Positivity

/-!
# Property C65: the grid source follows the scheduled events forward in time
-/

namespace PvDer
namespace Grid

open Complex Phasor Events

theorem update_Va (g : GSt) (t : ℝ) (v : GridVal ℝ) : (update g t v).Va = if g.Va ≠ phasorOf v ∧ g.tV ≤ t then phasorOf v else g.Va := by
  have e : ‖g.Va - phasorOf v‖ > 0 ↔ g.Va ≠ phasorOf v := by rw [gt_iff_lt, norm_pos_iff, sub_ne_zero]
  unfold update
  simp only [e, ge_iff_le]
  split_ifs <;> rfl

theorem update_tV (g : GSt) (t : ℝ) (v : GridVal ℝ) : (update g t v).tV = if g.Va ≠ phasorOf v ∧ g.tV ≤ t then t else g.tV := by
  have e : ‖g.Va - phasorOf v‖ > 0 ↔ g.Va ≠ phasorOf v := by rw [gt_iff_lt, norm_pos_iff, sub_ne_zero]
  unfold update
  simp only [e, ge_iff_le]
  split_ifs <;> rfl

theorem update_w (g : GSt) (t : ℝ) (v : GridVal ℝ) : (update g t v).w = if g.w ≠ omegaOf v ∧ g.tF ≤ t then omegaOf v else g.w := by
  have e : ∀ x : ℝ, |x - omegaOf v| > 0 ↔ x ≠ omegaOf v := fun x => by rw [gt_iff_lt, abs_pos, sub_ne_zero]
  unfold update
  simp only [e, ge_iff_le]
  by_cases h : ‖g.Va - phasorOf v‖ > 0 ∧ g.tV ≤ t
  · simp only [if_pos h]; split_ifs <;> rfl
  · simp only [if_neg h]; split_ifs <;> rfl

theorem update_tF (g : GSt) (t : ℝ) (v : GridVal ℝ) : (update g t v).tF = if g.w ≠ omegaOf v ∧ g.tF ≤ t then t else g.tF := by
  have e : ∀ x : ℝ, |x - omegaOf v| > 0 ↔ x ≠ omegaOf v := fun x => by rw [gt_iff_lt, abs_pos, sub_ne_zero]
  unfold update
  simp only [e, ge_iff_le]
  by_cases h : ‖g.Va - phasorOf v‖ > 0 ∧ g.tV ≤ t
  · simp only [if_pos h]; split_ifs <;> rfl
  · simp only [if_neg h]; split_ifs <;> rfl

/-- The configured unbalance holds: phases b and c are the rotated, scaled phase a, both for the set-points and for the source voltages. -/
structure Unbalanced (rb rc : ℝ) (g : GSt) : Prop where
  b : g.vb = (g.va * rb) * ej (-(2 / 3) * Real.pi)
  c : g.vc = (g.va * rc) * ej ((2 / 3) * Real.pi)
  setA : g.va = g.Va
  setB : g.vb = g.Vb
  setC : g.vc = g.Vc
  rb : g.rb = rb
  rc : g.rc = rc

theorem unbalanced_update {rb rc : ℝ} {g : GSt} (h : Unbalanced rb rc g) (t : ℝ) (v : GridVal ℝ) : Unbalanced rb rc (update g t v) := by
  obtain ⟨hb, hc, h1, h2, h3, h4, h5⟩ := h
  unfold update
  by_cases c1 : ‖g.Va - phasorOf v‖ > 0 ∧ t ≥ g.tV
  · simp only [if_pos c1]
    split_ifs <;> exact ⟨by simp only [ub, h4], by simp only [uc, h5], rfl, rfl, rfl, h4, h5⟩
  · simp only [if_neg c1]
    split_ifs <;> exact ⟨by rw [← h2, hb, h1], by rw [← h3, hc, h1], rfl, rfl, rfl, h4, h5⟩

/-- C65: whatever is scheduled and whatever the (even non-monotone) times of evaluation, the source keeps the configured unbalance ratios. -/
theorem C65_unbalance_kept (rb rc : ℝ) (v0 : GridVal ℝ) (h : List (ℝ × GridVal ℝ)) : Unbalanced rb rc (runU (ctor rb rc v0) h) := by
  have h0 : Unbalanced rb rc (ctor rb rc v0) := ⟨rfl, rfl, rfl, rfl, rfl, rfl, rfl⟩
  unfold runU
  generalize ctor rb rc v0 = g at h0
  induction h generalizing g with
  | nil => exact h0
  | cons x xs ih => exact ih _ (unbalanced_update h0 x.1 x.2)

/-- C65: magnitudes of phases b and c are the ratios times that of phase a. -/
theorem C65_magnitudes (rb rc : ℝ) (hb : 0 ≤ rb) (hc : 0 ≤ rc) (v0 : GridVal ℝ) (h : List (ℝ × GridVal ℝ)) :
    let g := runU (ctor rb rc v0) h
    ‖g.vb‖ = rb * ‖g.va‖ ∧ ‖g.vc‖ = rc * ‖g.va‖ := by
  intro g
  obtain ⟨h1, h2, -⟩ := C65_unbalance_kept rb rc v0 h
  constructor
  · rw [h1, norm_mul, norm_mul, norm_ej, Complex.norm_of_nonneg hb]; ring
  · rw [h2, norm_mul, norm_mul, norm_ej, Complex.norm_of_nonneg hc]; ring

/-- C65: an evaluation changes the voltage only if the scheduled value differs and the time is not before the last change; then it becomes the scheduled value. -/
theorem C65_change_only_forward (g : GSt) (t : ℝ) (v : GridVal ℝ) :
    ((update g t v).Va ≠ g.Va → g.tV ≤ t ∧ (update g t v).Va = phasorOf v ∧ (update g t v).tV = t) ∧
    ((update g t v).w ≠ g.w → g.tF ≤ t ∧ (update g t v).w = omegaOf v ∧ (update g t v).tF = t) ∧
    (t < g.tV → (update g t v).Va = g.Va ∧ (update g t v).tV = g.tV) ∧ (t < g.tF → (update g t v).w = g.w ∧ (update g t v).tF = g.tF) := by
  rw [update_Va, update_tV, update_w, update_tF]
  refine ⟨fun h => ?_, fun h => ?_, fun h => ?_, fun h => ?_⟩
  · split_ifs at h ⊢ with c
    · exact ⟨c.2, rfl, rfl⟩
    · exact absurd rfl h
  · split_ifs at h ⊢ with c
    · exact ⟨c.2, rfl, rfl⟩
    · exact absurd rfl h
  · have : ¬(g.Va ≠ phasorOf v ∧ g.tV ≤ t) := fun x => absurd x.2 (not_le.2 h)
    simp [this]
  · have : ¬(g.w ≠ omegaOf v ∧ g.tF ≤ t) := fun x => absurd x.2 (not_le.2 h)
    simp [this]

/-- C65: the times of the last changes never decrease. -/
theorem C65_times_monotone (g : GSt) (h : List (ℝ × GridVal ℝ)) : g.tV ≤ (runU g h).tV ∧ g.tF ≤ (runU g h).tF := by
  unfold runU
  induction h generalizing g with
  | nil => exact ⟨le_rfl, le_rfl⟩
  | cons x xs ih =>
    have := ih (update g x.1 x.2)
    have h1 : g.tV ≤ (update g x.1 x.2).tV := by rw [update_tV]; split_ifs with c; exacts [c.2, le_rfl]
    have h2 : g.tF ≤ (update g x.1 x.2).tF := by rw [update_tF]; split_ifs with c; exacts [c.2, le_rfl]
    exact ⟨h1.trans this.1, h2.trans this.2⟩

/-- C65: at a time not before the last changes the source takes exactly the scheduled voltage and frequency. -/
theorem C65_follows (g : GSt) (t : ℝ) (v : GridVal ℝ) (h1 : g.tV ≤ t) (h2 : g.tF ≤ t) :
    (update g t v).va = phasorOf v ∧ (update g t v).w = omegaOf v ∧ (update g t v).tV ≤ t ∧ (update g t v).tF ≤ t := by
  have hv : (update g t v).va = (update g t v).Va := by unfold update; rfl
  rw [hv, update_Va, update_w, update_tV, update_tF]
  refine ⟨?_, ?_, ?_, ?_⟩
  · split_ifs with c
    · rfl
    · exact not_not.1 fun hn => c ⟨hn, h1⟩
  · split_ifs with c
    · rfl
    · exact not_not.1 fun hn => c ⟨hn, h2⟩
  · split_ifs; exacts [le_rfl, h1]
  · split_ifs; exacts [le_rfl, h2]

/-- Norm of the phasor: magnitude times `Vgridrated/Vbase`. -/
theorem norm_phasorOf (v : GridVal ℝ) : ‖phasorOf v‖ = |v.V| * scale := by
  have hs : (0:ℝ) ≤ scale := by unfold scale; norm_num
  unfold phasorOf
  rw [norm_mul, norm_mul, norm_ej, Complex.norm_real, Complex.norm_of_nonneg hs, mul_one, Real.norm_eq_abs]

/-- C65: the phase-a source voltage of a scheduled triple is the phasor of the scheduled magnitude (scaled by `20415/500`) at the scheduled angle. -/
theorem C65_phasor (v : GridVal ℝ) : (phasorOf v).re = v.V * (20415 / 500) * Real.cos v.ang ∧ (phasorOf v).im = v.V * (20415 / 500) * Real.sin v.ang := by
  have e : phasorOf v = ((v.V * (20415 / 500) : ℝ) : ℂ) * Complex.exp (v.ang * I) := by
    unfold phasorOf ej scale; push_cast; rw [mul_comm I]; ring
  rw [e, Complex.re_ofReal_mul, Complex.im_ofReal_mul, Complex.exp_ofReal_mul_I_re, Complex.exp_ofReal_mul_I_im]
  exact ⟨rfl, rfl⟩

/-- C65: the RMS value computed at construction takes all three phases with their unbalance ratios into account: it is the scheduled magnitude times
`√((1 + rb² + rc²)/6)`, which is the single-phase value `|V|/√2` for unit ratios. -/
theorem C65_rms_at_construction (rb rc : ℝ) (v : GridVal ℝ) :
    (ctor rb rc v).vrms ^ 2 = (v.V * (20415 / 500)) ^ 2 * (1 + rb ^ 2 + rc ^ 2) / 6 ∧ 0 ≤ (ctor rb rc v).vrms := by
  have hs : ‖phasorOf v‖ ^ 2 = (v.V * (20415 / 500)) ^ 2 := by
    rw [norm_phasorOf, mul_pow, sq_abs, mul_pow]; rfl
  have hb : ‖Phasor.ub (phasorOf v * rb)‖ ^ 2 = (v.V * (20415 / 500)) ^ 2 * rb ^ 2 := by
    rw [(C47_phase_shift _).1, norm_mul, mul_pow, hs, Complex.norm_real, Real.norm_eq_abs, sq_abs]
  have hc : ‖Phasor.uc (phasorOf v * rc)‖ ^ 2 = (v.V * (20415 / 500)) ^ 2 * rc ^ 2 := by
    rw [(C47_phase_shift _).2.1, norm_mul, mul_pow, hs, Complex.norm_real, Real.norm_eq_abs, sq_abs]
  constructor
  · show (urms (phasorOf v) (Phasor.ub (phasorOf v * rb)) (Phasor.uc (phasorOf v * rc))) ^ 2 = _
    unfold urms
    rw [div_pow, Real.sq_sqrt (by positivity), Real.sq_sqrt (by norm_num), hs, hb, hc]; ring
  · exact div_nonneg (Real.sqrt_nonneg _) (Real.sqrt_nonneg _)

/-- C65 (end to end): build a grid on an events object with reset counters and evaluate it along forward, dense times; after every evaluation no error is
raised, the magnitude of phase a is the scheduled magnitude scaled to the grid rating, the frequency is the scheduled one, and the unbalance ratios hold. -/
theorem C65_end_to_end {c : Cfg ℝ} (hov : c.overrideAngle = true) {sp : EvSpec ℝ} {s : St ℝ} (hr : ReachableUnder c sp s) (hen : s.gridEnable = true)
    (rb rc : ℝ) (ts : List ℝ) (hd : Dense (s.grid.map fun e => (⟨e.T, (e.v.V, e.v.f)⟩ : Ev ℝ (ℝ × ℝ))) none (0 :: ts)) :
    ∃ ev g, new c sp (resetCounters s) rb rc = (ev, .ok g) ∧ Unbalanced rb rc g ∧
      List.Forall₂ (fun t (r : GSt × Except Err Unit) => r.2 = .ok () ∧ Unbalanced rb rc r.1 ∧ ∃ V f,
        Correct (s.grid.map fun e => (⟨e.T, (e.v.V, e.v.f)⟩ : Ev ℝ (ℝ × ℝ))) (sp.voltage.dflt, sp.freq.dflt) t (V, f) ∧
          ‖r.1.va‖ = |V| * (20415 / 500) ∧ r.1.w = 2 * Real.pi * f) ts (traj c sp (ev, g) ts) := by
  have hp := C08_grid_playback hov hr hen (0 :: ts) hd
  unfold gridPlay at hp
  obtain ⟨⟨v0, hv0, -⟩, hrest⟩ := List.forall₂_cons.1 hp
  have hsorted : List.Pairwise (· ≤ ·) (0 :: ts) ∧ ∀ t ∈ ts, (0:ℝ) ≤ t := by
    have : ∀ (l : List (Ev ℝ (ℝ × ℝ))) (ts : List ℝ) (p : Option ℝ), Dense l p ts → ts.Pairwise (· ≤ ·) ∧ ∀ a, p = some a → ∀ t ∈ ts, a ≤ t := by
      intro l ts
      induction ts with
      | nil => intro p _; exact ⟨List.Pairwise.nil, by simp⟩
      | cons t ts ih =>
        intro p h
        obtain ⟨h1, -, h3⟩ := h
        obtain ⟨i1, i2⟩ := ih _ h3
        refine ⟨List.pairwise_cons.2 ⟨fun u hu => i2 t rfl u hu, i1⟩, ?_⟩
        intro a ha u hu
        rcases List.mem_cons.1 hu with rfl | hu
        · exact h1 a ha
        · exact (h1 a ha).trans (i2 t rfl u hu)
    have h := (this _ _ _ hd).1
    exact ⟨h, fun t ht => (List.pairwise_cons.1 h).1 t ht⟩
  refine ⟨(gridEvents c sp (resetCounters s) 0).1, ctor rb rc v0, ?_, ⟨rfl, rfl, rfl, rfl, rfl, rfl, rfl⟩, ?_⟩
  · unfold new
    generalize gridEvents c sp (resetCounters s) 0 = r at hv0
    obtain ⟨e, r⟩ := r
    simp only at hv0
    rw [hv0]
  · have hu : Unbalanced rb rc (ctor rb rc v0) := ⟨rfl, rfl, rfl, rfl, rfl, rfl, rfl⟩
    have key : ∀ (ts : List ℝ) (ev : St ℝ) (g : GSt), Unbalanced rb rc g → ts.Pairwise (· ≤ ·) → (∀ t ∈ ts, g.tV ≤ t ∧ g.tF ≤ t) →
        List.Forall₂ (fun t r => ∃ v : GridVal ℝ, r = Except.ok v ∧
          Correct (s.grid.map fun e => (⟨e.T, (e.v.V, e.v.f)⟩ : Ev ℝ (ℝ × ℝ))) (sp.voltage.dflt, sp.freq.dflt) t (v.V, v.f)) ts (gridPlay c sp ev ts) →
        List.Forall₂ (fun t (r : GSt × Except Err Unit) => r.2 = .ok () ∧ Unbalanced rb rc r.1 ∧ ∃ V f,
        Correct (s.grid.map fun e => (⟨e.T, (e.v.V, e.v.f)⟩ : Ev ℝ (ℝ × ℝ))) (sp.voltage.dflt, sp.freq.dflt) t (V, f) ∧
          ‖r.1.va‖ = |V| * (20415 / 500) ∧ r.1.w = 2 * Real.pi * f) ts (traj c sp (ev, g) ts) := by
      intro ts
      induction ts with
      | nil => intros; exact List.Forall₂.nil
      | cons t ts ih =>
        intro ev g hu hs ht hf
        unfold gridPlay at hf
        obtain ⟨⟨v, hv, hcor⟩, hf'⟩ := List.forall₂_cons.1 hf
        unfold traj
        have hst : steadyState c sp (ev, g) t = (((gridEvents c sp ev t).1, update g t v), .ok ()) := by
          unfold steadyState
          simp only
          generalize gridEvents c sp ev t = r at hv
          obtain ⟨e, r⟩ := r
          simp only at hv
          rw [hv]
        rw [hst]
        obtain ⟨f1, f2, f3, f4⟩ := C65_follows g t v (ht t (by simp)).1 (ht t (by simp)).2
        refine List.Forall₂.cons ⟨rfl, unbalanced_update hu t v, v.V, v.f, hcor, ?_, f2⟩ ?_
        · show ‖(update g t v).va‖ = _
          rw [f1, norm_phasorOf, scale]
        · refine ih _ _ (unbalanced_update hu t v) (List.pairwise_cons.1 hs).2 ?_ hf'
          intro u hu'
          have := (List.pairwise_cons.1 hs).1 u hu'
          exact ⟨f3.trans this, f4.trans this⟩
    exact key ts _ _ hu (List.pairwise_cons.1 hsorted.1).2 (fun t ht => ⟨hsorted.2 t ht, hsorted.2 t ht⟩) hrest

/-- C65: an evaluation at a time before the last voltage change (an adaptive solver stepping back) keeps the newer voltage, whatever is scheduled. -/
theorem C65_step_back_ignored (g : GSt) (t t' : ℝ) (v v' : GridVal ℝ) (hne : g.Va ≠ phasorOf v) (ht : g.tV ≤ t) (hb : t' < t) :
    (update (update g t v) t' v').va = phasorOf v := by
  have hv : ∀ g : GSt, (update g t' v').va = (update g t' v').Va := by intro g; unfold update; rfl
  have h1 : (update g t v).Va = phasorOf v := by rw [update_Va, if_pos ⟨hne, ht⟩]
  have h2 : (update g t v).tV = t := by rw [update_tV, if_pos ⟨hne, ht⟩]
  rw [hv, update_Va, if_neg, h1]
  rw [h2]
  exact fun h => absurd h.2 (not_le.2 hb)

/-- C65: the RMS value computed at construction is never updated. -/
theorem C65_rms_not_updated (g : GSt) (h : List (ℝ × GridVal ℝ)) : (runU g h).vrms = g.vrms := by
  unfold runU
  induction h generalizing g with
  | nil => rfl
  | cons x xs ih =>
    refine (ih (update g x.1 x.2)).trans ?_
    unfold update
    by_cases c1 : ‖g.Va - phasorOf x.2‖ > 0 ∧ x.1 ≥ g.tV
    · simp only [if_pos c1]; split_ifs <;> rfl
    · simp only [if_neg c1]; split_ifs <;> rfl

/-- A concrete case: one sag at 1 s to 0.9 pu, evaluated at 0.5 s and 1.5 s. -/
noncomputable def exEv : St ℝ := run ⟨2 * Real.pi, 1 / 100, true⟩ (init true true true) [(defaultSpec (2 * Real.pi), .addGrid 1 (9/10) 0 60)]

theorem C65_example : ReachableUnder ⟨2 * Real.pi, 1 / 100, true⟩ (defaultSpec (2 * Real.pi)) exEv ∧ exEv.gridEnable = true ∧
    exEv.grid = [⟨1, ⟨9/10, 0, 60⟩⟩] ∧ Dense (exEv.grid.map fun e => (⟨e.T, (e.v.V, e.v.f)⟩ : Ev ℝ (ℝ × ℝ))) none [0, 1/2, 3/2] := by
  have hg : exEv = updateTotals { (init true true true : St ℝ) with grid := [⟨1, ⟨9/10, 0, 60⟩⟩] } := by
    unfold exEv run
    simp only [List.foldl_cons, List.foldl_nil, step, addGrid]
    rw [if_neg (by norm_num [defaultSpec]), if_neg (by norm_num [defaultSpec])]
    simp [addTimed, removeAt, removeLoop, sortByT, init]
  refine ⟨⟨true, true, true, [.addGrid 1 (9/10) 0 60], rfl⟩, by rw [hg]; rfl, by rw [hg]; rfl, ?_⟩
  rw [hg]
  simp only [updateTotals, List.map_cons, List.map_nil, Dense, AfterPrev, List.mem_singleton]
  norm_num
  simp

end Grid
end PvDer
