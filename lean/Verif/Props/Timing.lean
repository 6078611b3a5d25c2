import Verif.Props.EvalRide
import Verif.Props.MinRide

/-!
# Property C155: how accurate the trip times are

The ride-through logic only looks at the voltage at the evaluations the solver makes.  If these are never more than `δ` apart, then a zone with time threshold `T` trips at the latest `T + 2δ`
after the voltage has fallen below its level, the output is cut `δ` plus the disconnection delay later, and a zone does not trip if in every stretch of length `T` the voltage
recovers for at least `δ`.
-/

namespace PvDer
namespace RT

/-- (Specification.) No evaluation is more than `δ` later than the one made before it (it may be earlier, when the solver steps back); `p` is the time at the start. -/
def Fine {K : Type} [Add K] [LE K] (δ : K) : K → List K → Prop
  | _, [] => True
  | p, t :: l => t ≤ p + δ ∧ Fine δ t l

theorem fine_append {K : Type} [Add K] [LE K] {δ p : K} {l l' : List K} (h : Fine δ p (l ++ l')) : Fine δ p l := by
  induction l generalizing p with
  | nil => trivial
  | cons t l ih => exact ⟨h.1, ih h.2⟩

/-- In every interval of length `δ` there is an evaluation that the logic looks at. -/
theorem fine_cross {K : Type} [Field K] [LinearOrder K] [IsStrictOrderedRing K] {δ : K} {h : List (K × K)} {p lock τ : K} (hf : Fine δ p (h.map (·.1))) (hp : p ≤ lock) (hl : lock ≤ τ) (hx : ∃ x ∈ h, τ < x.1) :
    ∃ x ∈ records lock h, τ < x.1 ∧ x.1 ≤ τ + δ := by
  induction h generalizing p lock with
  | nil => simp at hx
  | cons y ys ih =>
    obtain ⟨h1, h2⟩ := hf
    unfold records
    by_cases hy : y.1 > lock
    · rw [if_pos hy]
      by_cases ht : τ < y.1
      · exact ⟨y, List.mem_cons_self, ht, by linarith⟩
      · obtain ⟨x, hx, hlt⟩ := hx
        have hxs : x ∈ ys := by
          rcases List.mem_cons.1 hx with rfl | hx
          · exact absurd hlt ht
          · exact hx
        obtain ⟨w, hw, hw'⟩ := ih h2 le_rfl (not_lt.1 ht) ⟨x, hxs, hlt⟩
        exact ⟨w, List.mem_cons_of_mem _ hw, hw'⟩
    · rw [if_neg hy]
      obtain ⟨x, hx, hlt⟩ := hx
      have hxs : x ∈ ys := by
        rcases List.mem_cons.1 hx with rfl | hx
        · exact absurd (lt_of_le_of_lt hl hlt) hy
        · exact hx
      exact ih h2 (not_lt.1 hy) hl ⟨x, hxs, hlt⟩

theorem rec_mem {lock : ℝ} {h : List (ℝ × ℝ)} {x : ℝ × ℝ} (hx : x ∈ records lock h) : x ∈ h := by
  induction h generalizing lock with
  | nil => exact hx
  | cons y ys ih =>
    unfold records at hx
    split_ifs at hx
    · rcases List.mem_cons.1 hx with rfl | hx
      · exact List.mem_cons_self
      · exact List.mem_cons_of_mem _ (ih hx)
    · exact List.mem_cons_of_mem _ (ih hx)

theorem between {L : List (ℝ × ℝ)} (hi : Increasing L) {x y : ℝ × ℝ} (hx : x ∈ L) (hy : y ∈ L) (hlt : x.1 < y.1) :
    ∃ p q r, L = p ++ x :: q ++ y :: r ∧ ∀ z ∈ q, x.1 < z.1 ∧ z.1 < y.1 := by
  obtain ⟨p, s, rfl⟩ := List.append_of_mem hx
  unfold Increasing at hi
  rw [List.pairwise_append, List.pairwise_cons] at hi
  obtain ⟨-, ⟨h2, h3⟩, h4⟩ := hi
  have hys : y ∈ s := by
    rcases List.mem_append.1 hy with hy | hy
    · exact absurd (h4 y hy x List.mem_cons_self) (not_lt.2 hlt.le)
    · rcases List.mem_cons.1 hy with rfl | hy
      · exact absurd hlt (lt_irrefl _)
      · exact hy
  obtain ⟨q, r, rfl⟩ := List.append_of_mem hys
  refine ⟨p, q, r, by simp, fun z hz => ⟨h2 z (by simp [hz]), ?_⟩⟩
  rw [List.pairwise_append] at h3
  exact h3.2.2 z hz y List.mem_cons_self

theorem after_increasing {L : List (ℝ × ℝ)} (hi : Increasing L) (tS : ℝ) : Increasing (after tS L) := List.Pairwise.filter _ hi

/-- The samples the logic looks at during a dip that lasts long enough. -/
theorem long_dip {δ T a tS : ℝ} {h : List (ℝ × ℝ)} {P : ℝ × ℝ → Prop} (hf : Fine δ 0 (h.map (·.1))) (ha : 0 ≤ a) (hS : tS ≤ a) (hT : 0 ≤ T) (hδ : 0 ≤ δ)
    (hP : ∀ x ∈ h, a < x.1 → x.1 ≤ a + T + 2 * δ → P x) (hr : ∃ x ∈ h, a + T + δ < x.1) :
    ∃ p q r x y, after tS (records 0 h) = p ++ x :: q ++ y :: r ∧ P x ∧ P y ∧ (∀ z ∈ q, P z) ∧ y.1 - x.1 > T := by
  obtain ⟨w, hw, hlt⟩ := hr
  obtain ⟨x, hx, x1, x2⟩ := fine_cross (τ := a) hf le_rfl ha ⟨w, hw, by linarith⟩
  obtain ⟨y, hy, y1, y2⟩ := fine_cross (τ := a + T + δ) hf le_rfl (by linarith) ⟨w, hw, hlt⟩
  have mem : ∀ z ∈ records 0 h, a < z.1 → z ∈ after tS (records 0 h) := fun z hz hlt => by
    unfold after
    rw [List.mem_filter]
    exact ⟨hz, by simpa using lt_of_le_of_lt hS hlt⟩
  obtain ⟨p, q, r, e, hq⟩ := between (after_increasing (records_increasing 0 h) tS) (mem x hx x1) (mem y hy (by linarith)) (by linarith)
  refine ⟨p, q, r, x, y, e, hP x (rec_mem hx) x1 (by linarith), hP y (rec_mem hy) (by linarith) (by linarith), fun z hz => ?_, by linarith⟩
  obtain ⟨z1, z2⟩ := hq z hz
  have hz' : z ∈ after tS (records 0 h) := by rw [e]; simp [hz]
  unfold after at hz'
  exact hP z (rec_mem (List.mem_filter.1 hz').1) (by linarith) (by linarith)

/-- If the voltage recovers for `δ` between any two low samples that are too far apart, there are no two such samples with nothing healthy in between. -/
theorem recovers {δ tS : ℝ} {G : ℝ → Prop} {h : List (ℝ × ℝ)} {P R : ℝ × ℝ → Prop} (hf : Fine δ 0 (h.map (·.1))) (hδ : 0 ≤ δ)
    (hP : ∀ x ∈ h, ∀ y ∈ h, P x → 0 < x.1 → tS < x.1 → G (y.1 - x.1) → ∃ u, x.1 ≤ u ∧ u + δ < y.1 ∧ ∀ z ∈ h, u < z.1 → z.1 ≤ u + δ → ¬ R z) :
    ¬ ∃ p q r x y, after tS (records 0 h) = p ++ x :: q ++ y :: r ∧ P x ∧ P y ∧ (∀ z ∈ q, R z) ∧ G (y.1 - x.1) := by
  rintro ⟨p, q, r, x, y, e, hx, hy, hq, hT⟩
  have xm : x ∈ after tS (records 0 h) := by rw [e]; simp
  have ym : y ∈ after tS (records 0 h) := by rw [e]; simp
  unfold after at xm ym
  rw [List.mem_filter] at xm ym
  have xS : tS < x.1 := by simpa using xm.2
  obtain ⟨u, u1, u2, u3⟩ := hP x (rec_mem xm.1) y (rec_mem ym.1) hx (records_gt 0 h x xm.1) xS hT
  obtain ⟨z, hz, z1, z2⟩ := fine_cross (τ := u) hf le_rfl (le_trans (records_gt 0 h x xm.1).le u1) ⟨y, rec_mem ym.1, by linarith⟩
  have zm : z ∈ after tS (records 0 h) := by
    unfold after
    rw [List.mem_filter]
    exact ⟨hz, by simpa using lt_of_lt_of_le xS (le_trans u1 z1.le)⟩
  have hinc := after_increasing (records_increasing 0 h) tS
  rw [e] at zm hinc
  unfold Increasing at hinc
  rw [List.append_assoc, List.cons_append, List.pairwise_append, List.pairwise_cons, List.pairwise_append, List.pairwise_cons] at hinc
  obtain ⟨-, ⟨h2, h3, h5, h6⟩, h4⟩ := hinc
  have zq : z ∈ q := by
    simp only [List.append_assoc, List.cons_append, List.mem_append, List.mem_cons] at zm
    rcases zm with hz | rfl | hz | rfl | hz
    · exact absurd (h4 z hz x List.mem_cons_self) (by linarith)
    · exact absurd z1 (by linarith)
    · exact hz
    · linarith
    · exact absurd (h5.1 z hz) (by linarith)
  exact u3 z (rec_mem hz) z1 z2 (hq z zq)

end RT

namespace Eval
open Complex Phasor Ode

variable {k : Cls} {g : SCfg} {h : Hid} {f : Call k → ℝ}

/-- (Specification.) The evaluations start at time 0 and are never more than `δ` apart. -/
def FineCalls (δ : ℝ) (l : List (Call k)) : Prop := RT.Fine δ 0 (l.map Call.t)

theorem fine_samples {δ : ℝ} {l : List (Call k)} (hl : FineCalls δ l) : RT.Fine δ 0 ((l.map fun c => (c.t, f c)).map (·.1)) := by
  rw [List.map_map]
  exact hl

/-- C155: undervoltage.  The evaluations are at most `δ` apart, and from time `a` on (after `t_stable`) every evaluation sees a voltage below the level of a zone.  Then the DER has tripped
once the evaluations have gone beyond `a + T + δ`, so at the latest at time `a + T + 2δ`. -/
theorem C155_low_voltage_trips_in_time (hf : Sees k g f) (hi : RT.IsInit h.rt) (hen : h.rt.lvEnable = true) (l : List (Call k)) (hok : Ok k g h l) {δ a : ℝ} (hδ : 0 ≤ δ) (hl : FineCalls δ l)
    (ha : 0 ≤ a) (hS : g.tStable ≤ a) {z : RT.Zone ℝ} (hz : z ∈ h.rt.lv.zones) (hT : 0 ≤ z.tThr) (hlow : ∀ c ∈ l, a < c.t → c.t ≤ a + z.tThr + 2 * δ → f c < z.Vthr * g.Vref)
    (hr : ∃ c ∈ l, a + z.tThr + δ < c.t) : (run k g h l).rt.lv.trip = true := by
  rw [C96_lv_trip_iff hf hi hen l hok]
  obtain ⟨c, hc, hct⟩ := hr
  obtain ⟨p, q, r, x, y, e, e1, e2, e3, e4⟩ := RT.long_dip (P := fun x => x.2 < z.Vthr * g.Vref) (tS := g.tStable) (fine_samples (f := f) hl) ha hS hT hδ (by
    intro x hx
    obtain ⟨d, hd, rfl⟩ := List.mem_map.1 hx
    exact hlow d hd) ⟨(c.t, f c), List.mem_map_of_mem (f := fun c : Call k => (c.t, f c)) hc, hct⟩
  exact ⟨z, hz, p, q, r, x, y, e, e1, e2, fun w hw => (e3 w hw).le, e4⟩

/-- C155: overvoltage, likewise. -/
theorem C155_high_voltage_trips_in_time (hf : Sees k g f) (hi : RT.IsInit h.rt) (hen : h.rt.hvEnable = true) (l : List (Call k)) (hok : Ok k g h l) {δ a : ℝ} (hδ : 0 ≤ δ) (hl : FineCalls δ l)
    (ha : 0 ≤ a) (hS : g.tStable ≤ a) {z : RT.Zone ℝ} (hz : z ∈ h.rt.hv.zones) (hT : 0 ≤ z.tThr) (hhigh : ∀ c ∈ l, a < c.t → c.t ≤ a + z.tThr + 2 * δ → z.Vthr * g.Vref < f c)
    (hr : ∃ c ∈ l, a + z.tThr + δ < c.t) : (run k g h l).rt.hv.trip = true := by
  rw [C96_hv_trip_iff hf hi hen l hok]
  obtain ⟨c, hc, hct⟩ := hr
  obtain ⟨p, q, r, x, y, e, e1, e2, e3, e4⟩ := RT.long_dip (P := fun x => z.Vthr * g.Vref < x.2) (tS := g.tStable) (fine_samples (f := f) hl) ha hS hT hδ (by
    intro x hx
    obtain ⟨d, hd, rfl⟩ := List.mem_map.1 hx
    exact hhigh d hd) ⟨(c.t, f c), List.mem_map_of_mem (f := fun c : Call k => (c.t, f c)) hc, hct⟩
  exact ⟨z, hz, p, q, r, x, y, e, e1, e2, fun w hw => (e3 w hw).le, e4⟩

/-- C155: dips that do not add up.  If within `T` after each evaluation that sees a voltage below the level of a zone the voltage is above that level for at least `δ`, the zones do not trip. -/
theorem C155_recovery_prevents_low_voltage_trip (hf : Sees k g f) (hi : RT.IsInit h.rt) (hen : h.rt.lvEnable = true) (l : List (Call k)) (hok : Ok k g h l) {δ : ℝ} (hδ : 0 ≤ δ) (hl : FineCalls δ l)
    (hrec : ∀ z ∈ h.rt.lv.zones, ∀ c ∈ l, f c < z.Vthr * g.Vref → g.tStable < c.t → (∃ d ∈ l, c.t + z.tThr < d.t) →
      ∃ u, c.t ≤ u ∧ u + δ ≤ c.t + z.tThr ∧ ∀ d ∈ l, u < d.t → d.t ≤ u + δ → z.Vthr * g.Vref < f d) : (run k g h l).rt.lv.trip = false := by
  rw [← Bool.not_eq_true, C96_lv_trip_iff hf hi hen l hok]
  rintro ⟨z, hz, he⟩
  refine RT.recovers (P := fun x => x.2 < z.Vthr * g.Vref) (R := fun x => x.2 ≤ z.Vthr * g.Vref) (G := fun d => d > z.tThr) (fine_samples (f := f) hl) hδ ?_ he
  intro x hx y hy hx2 _ hxS hyt
  obtain ⟨c, hc, rfl⟩ := List.mem_map.1 hx
  obtain ⟨d, hd, rfl⟩ := List.mem_map.1 hy
  replace hyt : d.t - c.t > z.tThr := hyt
  obtain ⟨u, u1, u2, u3⟩ := hrec z hz c hc hx2 hxS ⟨d, hd, by linarith⟩
  refine ⟨u, u1, by show _ < d.t; linarith, ?_⟩
  intro w hw w1 w2
  obtain ⟨e, he, rfl⟩ := List.mem_map.1 hw
  exact not_le.2 (u3 e he w1 w2)

/-- C155: likewise for swells. -/
theorem C155_recovery_prevents_high_voltage_trip (hf : Sees k g f) (hi : RT.IsInit h.rt) (hen : h.rt.hvEnable = true) (l : List (Call k)) (hok : Ok k g h l) {δ : ℝ} (hδ : 0 ≤ δ) (hl : FineCalls δ l)
    (hrec : ∀ z ∈ h.rt.hv.zones, ∀ c ∈ l, z.Vthr * g.Vref < f c → g.tStable < c.t → (∃ d ∈ l, c.t + z.tThr < d.t) →
      ∃ u, c.t ≤ u ∧ u + δ ≤ c.t + z.tThr ∧ ∀ d ∈ l, u < d.t → d.t ≤ u + δ → f d < z.Vthr * g.Vref) : (run k g h l).rt.hv.trip = false := by
  rw [← Bool.not_eq_true, C96_hv_trip_iff hf hi hen l hok]
  rintro ⟨z, hz, he⟩
  refine RT.recovers (P := fun x => x.2 > z.Vthr * g.Vref) (R := fun x => x.2 ≥ z.Vthr * g.Vref) (G := fun d => d > z.tThr) (fine_samples (f := f) hl) hδ ?_ he
  intro x hx y hy hx2 _ hxS hyt
  obtain ⟨c, hc, rfl⟩ := List.mem_map.1 hx
  obtain ⟨d, hd, rfl⟩ := List.mem_map.1 hy
  replace hyt : d.t - c.t > z.tThr := hyt
  obtain ⟨u, u1, u2, u3⟩ := hrec z hz c hc hx2 hxS ⟨d, hd, by linarith⟩
  refine ⟨u, u1, by show _ < d.t; linarith, ?_⟩
  intro w hw w1 w2
  obtain ⟨e, he, rfl⟩ := List.mem_map.1 hw
  exact not_le.2 (u3 e he w1 w2)

/-- C155: a dip that is no longer than a zone allows never trips that zone, wherever the evaluations are. -/
theorem C155_short_dip (hf : Sees k g f) (hi : RT.IsInit h.rt) (hen : h.rt.lvEnable = true) (l : List (Call k)) (hok : Ok k g h l)
    (hdip : ∀ z ∈ h.rt.lv.zones, ∃ a, ∀ c ∈ l, f c < z.Vthr * g.Vref → a ≤ c.t ∧ c.t ≤ a + z.tThr) : (run k g h l).rt.lv.trip = false := by
  rw [← Bool.not_eq_true, C96_lv_trip_iff hf hi hen l hok]
  rintro ⟨z, hz, p, q, r, x, y, e, e1, e2, -, e4⟩
  obtain ⟨a, ha⟩ := hdip z hz
  have mem : ∀ w ∈ RT.after g.tStable (RT.records 0 (l.map fun c => (c.t, f c))), w.2 < z.Vthr * g.Vref → a ≤ w.1 ∧ w.1 ≤ a + z.tThr := by
    intro w hw hlt
    unfold RT.after at hw
    obtain ⟨c, hc, rfl⟩ := List.mem_map.1 (RT.rec_mem (List.mem_filter.1 hw).1)
    exact ha c hc hlt
  obtain ⟨x1, -⟩ := mem x (by rw [e]; simp) e1
  obtain ⟨-, y2⟩ := mem y (by rw [e]; simp) e2
  linarith

/-- C155: likewise for a swell. -/
theorem C155_short_swell (hf : Sees k g f) (hi : RT.IsInit h.rt) (hen : h.rt.hvEnable = true) (l : List (Call k)) (hok : Ok k g h l)
    (hdip : ∀ z ∈ h.rt.hv.zones, ∃ a, ∀ c ∈ l, z.Vthr * g.Vref < f c → a ≤ c.t ∧ c.t ≤ a + z.tThr) : (run k g h l).rt.hv.trip = false := by
  rw [← Bool.not_eq_true, C96_hv_trip_iff hf hi hen l hok]
  rintro ⟨z, hz, p, q, r, x, y, e, e1, e2, -, e4⟩
  obtain ⟨a, ha⟩ := hdip z hz
  have mem : ∀ w ∈ RT.after g.tStable (RT.records 0 (l.map fun c => (c.t, f c))), w.2 > z.Vthr * g.Vref → a ≤ w.1 ∧ w.1 ≤ a + z.tThr := by
    intro w hw hlt
    unfold RT.after at hw
    obtain ⟨c, hc, rfl⟩ := List.mem_map.1 (RT.rec_mem (List.mem_filter.1 hw).1)
    exact ha c hc hlt
  obtain ⟨x1, -⟩ := mem x (by rw [e]; simp) e1
  obtain ⟨-, y2⟩ := mem y (by rw [e]; simp) e2
  linarith

/-- C155: staying connected.  No zone may trip before its minimum ride-through time; if the voltage comes back to the healthy side of a zone's level for at least `δ` in less than that minimum time
after each evaluation that sees it on the wrong side, the DER neither trips nor ceases to operate. -/
theorem C155_stays_connected (hf : Sees k g f) (hi : RT.IsInit h.rt) (hlf : h.rt.lfEnable = false) (l : List (Call k)) (hok : Ok k g h l) {δ : ℝ} (hδ : 0 ≤ δ) (hl : FineCalls δ l)
    (hlv : ∀ z ∈ h.rt.lv.zones, z.tMin ≤ z.tThr ∧ ∀ c ∈ l, f c < z.Vthr * g.Vref → g.tStable < c.t → (∃ d ∈ l, c.t + z.tMin ≤ d.t) →
      ∃ u, c.t ≤ u ∧ u + δ < c.t + z.tMin ∧ ∀ d ∈ l, u < d.t → d.t ≤ u + δ → z.Vthr * g.Vref < f d)
    (hhv : ∀ z ∈ h.rt.hv.zones, z.tMin ≤ z.tThr ∧ ∀ c ∈ l, z.Vthr * g.Vref < f c → g.tStable < c.t → (∃ d ∈ l, c.t + z.tMin ≤ d.t) →
      ∃ u, c.t ≤ u ∧ u + δ < c.t + z.tMin ∧ ∀ d ∈ l, u < d.t → d.t ≤ u + δ → f d < z.Vthr * g.Vref) :
    (run k g h l).rt.connected = true ∧ (run k g h l).rt.trip = false ∧ (run k g h l).rt.mc = false := by
  obtain ⟨ins, h1, h2⟩ := run_rt hf l h hok
  have := RT.rides_through (c := g.rt.unit) (isInit_strip hi) hlf ins (fun z hz => ⟨(hlv z hz).1, ?_⟩) (fun z hz => ⟨(hhv z hz).1, ?_⟩)
  · rw [← h2] at this
    exact this
  · rw [h1]
    intro he
    refine RT.recovers (P := fun x => x.2 < z.Vthr * g.Vref) (R := fun x => x.2 ≤ z.Vthr * g.Vref) (G := fun d => d ≥ z.tMin) (fine_samples (f := f) hl) hδ ?_ he
    intro x hx y hy hx2 _ hxS hyt
    obtain ⟨c, hc, rfl⟩ := List.mem_map.1 hx
    obtain ⟨d, hd, rfl⟩ := List.mem_map.1 hy
    replace hyt : d.t - c.t ≥ z.tMin := hyt
    obtain ⟨u, u1, u2, u3⟩ := (hlv z hz).2 c hc hx2 hxS ⟨d, hd, by linarith⟩
    refine ⟨u, u1, by show _ < d.t; linarith, ?_⟩
    intro w hw w1 w2
    obtain ⟨e, he, rfl⟩ := List.mem_map.1 hw
    exact not_le.2 (u3 e he w1 w2)
  · rw [h1]
    intro he
    refine RT.recovers (P := fun x => x.2 > z.Vthr * g.Vref) (R := fun x => x.2 ≥ z.Vthr * g.Vref) (G := fun d => d ≥ z.tMin) (fine_samples (f := f) hl) hδ ?_ he
    intro x hx y hy hx2 _ hxS hyt
    obtain ⟨c, hc, rfl⟩ := List.mem_map.1 hx
    obtain ⟨d, hd, rfl⟩ := List.mem_map.1 hy
    replace hyt : d.t - c.t ≥ z.tMin := hyt
    obtain ⟨u, u1, u2, u3⟩ := (hhv z hz).2 c hc hx2 hxS ⟨d, hd, by linarith⟩
    refine ⟨u, u1, by show _ < d.t; linarith, ?_⟩
    intro w hw w1 w2
    obtain ⟨e, he, rfl⟩ := List.mem_map.1 hw
    exact not_le.2 (u3 e he w1 w2)

theorem split_first {K α : Type} [LinearOrder K] (t : α → K) (τ : K) (l : List α) (hx : ∃ x ∈ l, τ < t x) : ∃ p x q, l = p ++ x :: q ∧ (∀ y ∈ p, t y ≤ τ) ∧ τ < t x := by
  induction l with
  | nil => simp at hx
  | cons y l ih =>
    by_cases hy : τ < t y
    · exact ⟨[], y, l, rfl, by simp, hy⟩
    · obtain ⟨x, hx, hlt⟩ := hx
      have hxl : x ∈ l := by
        rcases List.mem_cons.1 hx with rfl | hx
        · exact absurd hlt hy
        · exact hx
      obtain ⟨p, x', q, e, h1, h2⟩ := ih ⟨x, hxl, hlt⟩
      refine ⟨y :: p, x', q, by rw [e]; rfl, ?_, h2⟩
      intro w hw
      rcases List.mem_cons.1 hw with rfl | hw
      · exact not_lt.1 hy
      · exact h1 w hw

theorem fine_next {K : Type} [Field K] [LinearOrder K] [IsStrictOrderedRing K] {δ p b : K} {l l' : List K} {t : K} (h : RT.Fine δ p (l ++ t :: l')) (hp : p ≤ b) (hl : ∀ x ∈ l, x ≤ b) : t ≤ b + δ := by
  induction l generalizing p with
  | nil => have := h.1; linarith
  | cons x l ih => exact ih h.2 (hl x (by simp)) (fun y hy => hl y (by simp [hy]))

/-- C155: from the voltage to the output.  The evaluations are at most `δ` apart; from `a` on every evaluation sees a voltage below the level of a low-voltage zone (or above that of a
high-voltage zone), for `T + 2δ`.  Then in each evaluation made after the time `a + T + 3δ + ` disconnection delay has been reached the DER is disconnected and feeds in nothing. -/
theorem C155_output_cut_in_time (hf : Sees k g f) (hi : RT.IsInit h.rt) (hlf : h.rt.lfEnable = false) (hdd : 0 < g.discDelay) (l : List (Call k)) (c : Call k) (hok : Ok k g h (l ++ [c]))
    {δ a T : ℝ} (hδ : 0 ≤ δ) (hl : FineCalls δ l) (ha : 0 ≤ a) (hS : g.tStable ≤ a) (hT : 0 ≤ T)
    (hdip : (h.rt.lvEnable = true ∧ ∃ z ∈ h.rt.lv.zones, z.tThr = T ∧ ∀ c ∈ l, a < c.t → c.t ≤ a + T + 2 * δ → f c < z.Vthr * g.Vref) ∨
      (h.rt.hvEnable = true ∧ ∃ z ∈ h.rt.hv.zones, z.tThr = T ∧ ∀ c ∈ l, a < c.t → c.t ≤ a + T + 2 * δ → z.Vthr * g.Vref < f c))
    (hr : ∃ c1 ∈ l, a + T + 3 * δ + g.discDelay ≤ c1.t) :
    (run k g h (l ++ [c])).rt.connected = false ∧
    ∃ e, (evalEnv k g c (run k g h l)).2 = .ok e ∧ e.Ppv = 0 ∧ e.Q_ref = 0 ∧ e.ia_ref = 0 ∧ e.ib_ref = 0 ∧ e.ic_ref = 0 ∧ e.Vdc_ref = e.Vdc := by
  obtain ⟨c1, hc1, hct⟩ := hr
  obtain ⟨p, c0, q, rfl, hp, hc0⟩ := split_first Call.t (a + T + 2 * δ) l ⟨c1, hc1, by linarith⟩
  have hnext : c0.t ≤ a + T + 2 * δ + δ := by
    unfold FineCalls at hl
    rw [List.map_append, List.map_cons] at hl
    refine fine_next hl (by linarith) ?_
    intro x hx
    obtain ⟨y, hy, rfl⟩ := List.mem_map.1 hx
    exact hp y hy
  have hq : c1 ∈ q := by
    rcases List.mem_append.1 hc1 with hc | hc
    · exact absurd (hp c1 hc) (by linarith)
    · rcases List.mem_cons.1 hc with rfl | hc
      · linarith
      · exact hc
  -- an evaluation late enough has been made before `c0`
  have hl' := fine_samples (f := f) hl
  have key : ∀ P : ℝ × ℝ → Prop, (∀ d ∈ p ++ c0 :: q, a < d.t → d.t ≤ a + T + 2 * δ → P (d.t, f d)) →
      ∃ p' q' r x y, RT.after g.tStable (RT.records 0 (p.map fun c => (c.t, f c))) = p' ++ x :: q' ++ y :: r ∧ P x ∧ P y ∧ (∀ z ∈ q', P z) ∧ y.1 - x.1 > T := by
    intro P hP
    have hfp : RT.Fine δ 0 ((p.map fun c => (c.t, f c)).map (·.1)) := by
      rw [List.map_append, List.map_append] at hl'
      exact RT.fine_append hl'
    refine RT.long_dip hfp ha hS hT hδ ?_ ?_
    · intro x hx
      obtain ⟨d, hd, rfl⟩ := List.mem_map.1 hx
      exact hP d (by simp [hd])
    · have hl2 : RT.Fine δ 0 (((p ++ [c0]).map fun c => (c.t, f c)).map (·.1)) := by
        have e : p ++ c0 :: q = (p ++ [c0]) ++ q := by simp
        rw [e, List.map_append, List.map_append] at hl'
        exact RT.fine_append hl'
      obtain ⟨x, hx, x1, x2⟩ := RT.fine_cross (τ := a + T + δ) hl2 le_rfl (by linarith) ⟨(c0.t, f c0), by simp, by show a + T + δ < c0.t; linarith⟩
      have := RT.rec_mem hx
      rw [List.map_append, List.mem_append] at this
      rcases this with hm | hm
      · exact ⟨x, hm, x1⟩
      · simp only [List.map_cons, List.map_nil, List.mem_singleton] at hm
        rw [hm] at x2
        exact absurd x2 (by show ¬ c0.t ≤ _; linarith)
  have e : (p ++ c0 :: q) ++ [c] = p ++ c0 :: (q ++ [c]) := by simp
  rw [e] at hok ⊢
  refine C96_trip_cuts_output hf hi hlf hdd p q c0 c1 c hok ?_ (fun x hx => lt_of_le_of_lt (hp x hx) hc0) (by linarith) hq (by linarith)
  rcases hdip with ⟨hen, z, hz, hzT, hv⟩ | ⟨hen, z, hz, hzT, hv⟩
  · refine Or.inl ⟨hen, z, hz, ?_⟩
    obtain ⟨p', q', r, x, y, e, e1, e2, e3, e4⟩ := key (fun x => x.2 < z.Vthr * g.Vref) hv
    exact ⟨p', q', r, x, y, e, e1, e2, fun w hw => (e3 w hw).le, by rw [hzT]; exact e4⟩
  · refine Or.inr ⟨hen, z, hz, ?_⟩
    obtain ⟨p', q', r, x, y, e, e1, e2, e3, e4⟩ := key (fun x => x.2 > z.Vthr * g.Vref) hv
    exact ⟨p', q', r, x, y, e, e1, e2, fun w hw => (e3 w hw).le, by rw [hzT]; exact e4⟩

/-! ### Examples: the three-phase class in loop mode, one zone with level 0.88 and 5 s, evaluated every 2 s -/

theorem ex_low : urmsMin (1 / 5 : ℂ) (ub (1 / 5)) (uc (1 / 5)) < 88 / 100 * (1 / 3) := by
  rw [(C50_balanced _).2]
  unfold urms1
  have h2 : (0:ℝ) < Real.sqrt 2 := by positivity
  have h1 : (1:ℝ) ≤ Real.sqrt 2 := by rw [Real.one_le_sqrt]; norm_num
  have hn : ‖(1 / 5 : ℂ)‖ = 1 / 5 := by norm_num
  rw [hn, div_lt_iff₀ h2]
  nlinarith

theorem ex_high : 88 / 100 * (1 / 3) < urmsMin (1 / 2 : ℂ) (ub (1 / 2)) (uc (1 / 2)) ∧ urmsMin (1 / 2 : ℂ) (ub (1 / 2)) (uc (1 / 2)) < 11 / 10 * (1 / 3) := by
  rw [(C50_balanced _).2]
  unfold urms1
  have h2 : (0:ℝ) < Real.sqrt 2 := by positivity
  have h1 : Real.sqrt 2 ≤ 3 / 2 := by rw [Real.sqrt_le_left (by norm_num)]; norm_num
  have h3 : 14 / 10 ≤ Real.sqrt 2 := Real.le_sqrt_of_sq_le (by norm_num)
  have hn : ‖(1 / 2 : ℂ)‖ = 1 / 2 := by norm_num
  rw [hn, lt_div_iff₀ h2, div_lt_iff₀ h2]
  constructor <;> nlinarith

/-- A call of `ODE_model` at time `t` with the phase voltage that the signal `V` has at that time. -/
noncomputable def callAt (y : ThreePhase.V → ℝ) (V : ℝ → ℂ) (t : ℝ) : Call three := ⟨false, y, t, V t, ub (V t), uc (V t), 377⟩

/-- 0.2 p.u. from 1 s on. -/
noncomputable def dipFrom1 (t : ℝ) : ℂ := if 1 ≤ t then 1 / 5 else 1 / 2

/-- The same, but for one second, between 3.5 s and 4.5 s, the voltage is healthy. -/
noncomputable def dipWithRecovery (t : ℝ) : ℂ := if 7 / 2 < t ∧ t < 9 / 2 then 1 / 2 else if 1 ≤ t then 1 / 5 else 1 / 2

theorem ex_ok (l : List (Call three)) : Ok three (exG exPar false) (exH (exG exPar false) (exEv (exG exPar false))) l := by
  refine C99_no_exception (ex_good three exPar false (Or.inl rfl) exOps ?_) _
  intro o ho
  simp only [exOps, List.mem_cons, List.not_mem_nil, or_false] at ho
  rcases ho with rfl | rfl | rfl <;> rfl

/-- C155, a concrete case: evaluations every 2 s, the voltage falls at 1 s; the evaluation after the one at 13 s finds the DER disconnected. -/
theorem C155_example (y : ThreePhase.V → ℝ) (c : Call three) (g : SCfg) (hg : g = exG exPar false) (h : Hid) (hh : h = exH g (exEv g)) (l : List (Call three))
    (hl : l = [1, 3, 5, 7, 9, 11, 13].map (callAt y dipFrom1)) : (run three g h (l ++ [c])).rt.connected = false := by
  have hsee : Sees three g (fun c => urmsMin c.va c.vb c.vc) := by rw [hg]; exact C96_sees_minimum (by simp [unbalancedClasses]) rfl rfl
  refine (C155_output_cut_in_time (δ := 2) (a := 1) (T := 5) hsee (by rw [hh, hg]; exact exRT_init) (by rw [hh]; rfl) (by rw [hg]; norm_num [exG]) l c
    (by rw [hh, hg]; exact ex_ok _) (by norm_num) (by rw [hl]; simp only [FineCalls, callAt, List.map_cons, List.map_nil, RT.Fine]; norm_num) (by norm_num) (by rw [hg]; norm_num [exG]) (by norm_num)
    (Or.inl ⟨by rw [hh]; rfl, ⟨88 / 100, 5, 1 / 10, .mandatory, 0, false⟩, by rw [hh]; simp [exH, exRT], rfl, ?_⟩) ?_).1
  · intro d hd h1 _
    rw [hl] at hd
    obtain ⟨t, ht, rfl⟩ := List.mem_map.1 hd
    have : dipFrom1 t = 1 / 5 := by unfold dipFrom1; exact if_pos (le_of_lt h1)
    show urmsMin (dipFrom1 t) (ub (dipFrom1 t)) (uc (dipFrom1 t)) < _
    rw [this, hg]
    exact ex_low
  · refine ⟨callAt y dipFrom1 13, by rw [hl]; simp, ?_⟩
    rw [hg]
    show (1:ℝ) + 5 + 3 * 2 + 1 / 60 ≤ 13
    norm_num

/-- C155: the tolerance is needed.  With the same evaluations, a recovery for one second, between two evaluations, is not seen: the voltage is never below the level for more than 5 s
without interruption up to 9 s, but the DER has tripped then. -/
theorem C155_unseen_recovery (y : ThreePhase.V → ℝ) (g : SCfg) (hg : g = exG exPar false) (h : Hid) (hh : h = exH g (exEv g)) (l : List (Call three))
    (hl : l = [1, 3, 5, 7, 9].map (callAt y dipWithRecovery)) :
    (run three g h l).rt.lv.trip = true ∧ ∀ s : ℝ, s + 5 ≤ 9 → ∃ u, s ≤ u ∧ u ≤ s + 5 ∧ 88 / 100 * g.Vref < urmsMin (dipWithRecovery u) (ub (dipWithRecovery u)) (uc (dipWithRecovery u)) := by
  have hsee : Sees three g (fun c => urmsMin c.va c.vb c.vc) := by rw [hg]; exact C96_sees_minimum (by simp [unbalancedClasses]) rfl rfl
  constructor
  · refine C155_low_voltage_trips_in_time (δ := 2) (a := 1) hsee (by rw [hh, hg]; exact exRT_init) (by rw [hh]; rfl) l (by rw [hh, hg]; exact ex_ok _) (by norm_num)
      (by rw [hl]; simp only [FineCalls, callAt, List.map_cons, List.map_nil, RT.Fine]; norm_num) (by norm_num) (by rw [hg]; norm_num [exG]) (z := ⟨88 / 100, 5, 1 / 10, .mandatory, 0, false⟩)
      (by rw [hh]; simp [exH, exRT]) (by norm_num) ?_ ⟨callAt y dipWithRecovery 9, by rw [hl]; simp, by show (1:ℝ) + 5 + 2 < 9; norm_num⟩
    intro d hd _ _
    rw [hl] at hd
    obtain ⟨t, ht, rfl⟩ := List.mem_map.1 hd
    have : dipWithRecovery t = 1 / 5 := by
      simp only [List.mem_cons, List.not_mem_nil, or_false] at ht
      rcases ht with rfl | rfl | rfl | rfl | rfl <;> unfold dipWithRecovery <;> rw [if_neg (by norm_num), if_pos (by norm_num)]
    show urmsMin (dipWithRecovery t) (ub (dipWithRecovery t)) (uc (dipWithRecovery t)) < _
    rw [this, hg]
    exact ex_low
  · intro s hs
    have hgood : ∀ u, dipWithRecovery u = 1 / 2 → 88 / 100 * g.Vref < urmsMin (dipWithRecovery u) (ub (dipWithRecovery u)) (uc (dipWithRecovery u)) := by
      intro u hu
      rw [hu, hg]
      exact ex_high.1
    by_cases h1 : s < 1
    · exact ⟨s, le_rfl, by linarith, hgood s (by unfold dipWithRecovery; split_ifs <;> first | rfl | linarith)⟩
    · have h2 := not_lt.1 h1
      by_cases h3 : s ≤ 4
      · exact ⟨4, h3, by linarith, hgood 4 (by unfold dipWithRecovery; exact if_pos (by norm_num))⟩
      · linarith

/-- 0.2 p.u. from 1 s to 3 s and from 6 s to 8 s. -/
noncomputable def twoDips (t : ℝ) : ℂ := if (1 ≤ t ∧ t ≤ 3) ∨ (6 ≤ t ∧ t ≤ 8) then 1 / 5 else 1 / 2

/-- C155, a concrete case: evaluations every second, two dips with a recovery in between: no trip. -/
theorem C155_example_recovery (y : ThreePhase.V → ℝ) (g : SCfg) (hg : g = exG exPar false) (h : Hid) (hh : h = exH g (exEv g)) (l : List (Call three))
    (hl : l = [1, 2, 3, 4, 5, 6, 7, 8, 9, 10].map (callAt y twoDips)) : (run three g h l).rt.lv.trip = false := by
  have hsee : Sees three g (fun c => urmsMin c.va c.vb c.vc) := by rw [hg]; exact C96_sees_minimum (by simp [unbalancedClasses]) rfl rfl
  refine C155_recovery_prevents_low_voltage_trip (δ := 1) hsee (by rw [hh, hg]; exact exRT_init) (by rw [hh]; rfl) l (by rw [hh, hg]; exact ex_ok _) (by norm_num)
      (by rw [hl]; simp only [FineCalls, callAt, List.map_cons, List.map_nil, RT.Fine]; norm_num) ?_
  intro z hz c hc hlow _ hd
  obtain rfl : z = ⟨88 / 100, 5, 1 / 10, .mandatory, 0, false⟩ := by rw [hh] at hz; simpa [exH, exRT] using hz
  rw [hl] at hc hd
  obtain ⟨d, hd, hdt⟩ := hd
  obtain ⟨t, ht, rfl⟩ := List.mem_map.1 hc
  obtain ⟨t', ht', rfl⟩ := List.mem_map.1 hd
  replace hdt : t + 5 < t' := hdt
  replace hlow : urmsMin (twoDips t) (ub (twoDips t)) (uc (twoDips t)) < 88 / 100 * g.Vref := hlow
  have hle : t' ≤ 10 := by
    simp only [List.mem_cons, List.not_mem_nil, or_false] at ht'
    rcases ht' with rfl | rfl | rfl | rfl | rfl | rfl | rfl | rfl | rfl | rfl <;> norm_num
  have ht2 : 1 ≤ t ∧ t ≤ 3 := by
    by_contra hn
    have : twoDips t = 1 / 2 := by
      unfold twoDips
      refine if_neg ?_
      rintro (h1 | h1)
      · exact hn h1
      · linarith [h1.1]
    rw [this, hg] at hlow
    exact absurd hlow (not_lt.2 ex_high.1.le)
  refine ⟨3, ht2.2, ?_, ?_⟩
  · show (3:ℝ) + 1 ≤ t + 5
    linarith
  · intro e he h1 h2
    rw [hl] at he
    obtain ⟨s, hs, rfl⟩ := List.mem_map.1 he
    replace h1 : 3 < s := h1
    replace h2 : s ≤ 3 + 1 := h2
    have : twoDips s = 1 / 2 := by
      unfold twoDips
      refine if_neg ?_
      rintro (h1 | h1)
      · linarith [h1.2]
      · linarith [h1.1]
    show _ < urmsMin (twoDips s) (ub (twoDips s)) (uc (twoDips s))
    rw [this, hg]
    exact ex_high.1

/-- C155, a concrete case: with a minimum ride-through time of 4 s instead of 0.1 s the DER stays connected through both dips. -/
theorem C155_example_connected (y : ThreePhase.V → ℝ) (g : SCfg) (hg : g = exG exPar false) (h : Hid)
    (hh : h = { exH g (exEv g) with rt := { exRT with lv := ⟨[⟨88 / 100, 5, 4, .cessation, 0, false⟩], false, false⟩ } }) (l : List (Call three))
    (hl : l = [1, 2, 3, 4, 5, 6, 7, 8, 9, 10].map (callAt y twoDips)) : (run three g h l).rt.connected = true := by
  have hsee : Sees three g (fun c => urmsMin c.va c.vb c.vc) := by rw [hg]; exact C96_sees_minimum (by simp [unbalancedClasses]) rfl rfl
  have hgood : Good three g h := by
    rw [hh, hg]
    have := ex_good three exPar false (Or.inl rfl) exOps (by
      intro o ho
      simp only [exOps, List.mem_cons, List.not_mem_nil, or_false] at ho
      rcases ho with rfl | rfl | rfl <;> rfl)
    exact ⟨this.override, this.msg, this.ev, this.dc, this.lf, this.ramp, this.meas, this.filt⟩
  refine (C155_stays_connected (δ := 1) hsee (by rw [hh]; constructor <;> simp [exRT, RT.Zone.fresh]) (by rw [hh]; rfl) l (C99_no_exception hgood _) (by norm_num)
      (by rw [hl]; simp only [FineCalls, callAt, List.map_cons, List.map_nil, RT.Fine]; norm_num) ?_ ?_).1
  · intro z hz
    obtain rfl : z = ⟨88 / 100, 5, 4, .cessation, 0, false⟩ := by rw [hh] at hz; simpa using hz
    refine ⟨by norm_num, ?_⟩
    intro c hc hlow _ hd
    rw [hl] at hc hd
    obtain ⟨d, hd, hdt⟩ := hd
    obtain ⟨t, ht, rfl⟩ := List.mem_map.1 hc
    obtain ⟨t', ht', rfl⟩ := List.mem_map.1 hd
    replace hlow : urmsMin (twoDips t) (ub (twoDips t)) (uc (twoDips t)) < 88 / 100 * g.Vref := hlow
    have ht2 : (1 ≤ t ∧ t ≤ 3) ∨ (6 ≤ t ∧ t ≤ 8) := by
      by_contra hn
      have : twoDips t = 1 / 2 := by unfold twoDips; exact if_neg hn
      rw [this, hg] at hlow
      exact absurd hlow (not_lt.2 ex_high.1.le)
    have rest : ∀ b, t ≤ b → b < t + 3 → (∀ s, b < s → s ≤ b + 1 → ¬ ((1 ≤ s ∧ s ≤ 3) ∨ (6 ≤ s ∧ s ≤ 8))) → ∃ u, (callAt y twoDips t).t ≤ u ∧ u + 1 < (callAt y twoDips t).t + 4 ∧
        ∀ d ∈ l, u < d.t → d.t ≤ u + 1 → 88 / 100 * g.Vref < urmsMin d.va d.vb d.vc := by
      intro b h1 h2 h3
      refine ⟨b, h1, by show b + 1 < t + 4; linarith, ?_⟩
      intro e he h4 h5
      rw [hl] at he
      obtain ⟨s, hs, rfl⟩ := List.mem_map.1 he
      have : twoDips s = 1 / 2 := by unfold twoDips; exact if_neg (h3 s h4 h5)
      show _ < urmsMin (twoDips s) (ub (twoDips s)) (uc (twoDips s))
      rw [this, hg]
      exact ex_high.1
    rcases ht2 with ht2 | ht2
    · refine rest 3 ht2.2 (by linarith [ht2.1]) ?_
      rintro s h1 h2 (h3 | h3)
      · linarith [h3.2]
      · linarith [h3.1]
    · refine rest 8 ht2.2 (by linarith [ht2.1]) ?_
      rintro s h1 h2 (h3 | h3)
      · linarith [h3.2]
      · linarith [h3.2]
  · intro z hz
    obtain rfl : z = ⟨11 / 10, 3, 1 / 10, .mandatory, 0, false⟩ := by rw [hh] at hz; simpa [exRT] using hz
    refine ⟨by norm_num, ?_⟩
    intro c hc hhigh
    rw [hl] at hc
    obtain ⟨t, ht, rfl⟩ := List.mem_map.1 hc
    replace hhigh : 11 / 10 * g.Vref < urmsMin (twoDips t) (ub (twoDips t)) (uc (twoDips t)) := hhigh
    rw [hg] at hhigh
    exfalso
    by_cases h1 : (1 ≤ t ∧ t ≤ 3) ∨ (6 ≤ t ∧ t ≤ 8)
    · have : twoDips t = 1 / 5 := by unfold twoDips; exact if_pos h1
      rw [this] at hhigh
      have := ex_low
      replace hhigh : 11 / 10 * (1 / 3) < urmsMin (1 / 5) (ub (1 / 5)) (uc (1 / 5)) := hhigh
      linarith
    · have : twoDips t = 1 / 2 := by unfold twoDips; exact if_neg h1
      rw [this] at hhigh
      exact absurd hhigh (not_lt.2 ex_high.2.le)

end Eval
end PvDer
