import Verif.Lemmas.RTRun

/-!
# Properties C16–C18: voltage trips
-/

set_option linter.unusedSectionVars false

namespace PvDer
namespace RT

variable {K W : Type} [Field K] [LinearOrder K] [IsStrictOrderedRing K]

/-! ### Concrete configuration used in the cases below -/

/-- t_stable 0.5 s, Vrms_ref 1, delays 1/60 s and 2 s, no DC ramp. -/
def exCfg : Cfg ℚ Unit := ⟨1/2, 1, 1/60, 2, false, 1/50, fun _ _ => ((), .ok ())⟩
/-- References as recomputed by the other parts of the model. -/
def exRefs : Refs ℚ := ⟨1/10, 1, 1, 1, (1, 0), (0, 1), (1, 1)⟩
/-- Two LV zones (mandatory 0.88 p.u./5 s, cessation 0.5 p.u./1 s) and one HV zone (1.1 p.u./3 s). -/
def exSt : St ℚ Unit :=
  { lvEnable := true, hvEnable := true, lfEnable := false
    lv := ⟨[⟨88/100, 5, 1/10, .mandatory, 0, false⟩, ⟨1/2, 1, 1/10, .cessation, 0, false⟩], false, false⟩
    hv := ⟨[⟨11/10, 3, 1/10, .mandatory, 0, false⟩], false, false⟩
    lf := [⟨57, 16/100, 0⟩, ⟨595/10, 300, 0⟩], lfTrip := false, rtLock := 0, connLock := 0, tDisc := 0, tReco := 0
    trip := false, mc := false, connected := true, voltVar := true, voltWatt := false, refs := exRefs, w := () }
/-- An evaluation at time `t` with measured voltage `V`. -/
def exInp (t V : ℚ) : Inp ℚ := ⟨t, V, 60, exRefs⟩

theorem exSt_init : IsInit exSt := by
  constructor <;> simp [exSt, Zone.fresh]

/-! ### C16, C17 -/

/-- C16: for every zone table and *every* sequence of evaluations (times need not be monotone: the logic only looks at the evaluations
that advance time), the low-voltage trip flag is set iff for some configured zone two of the samples after `t_stable` are below the zone
threshold, more than the zone's time threshold apart, with no sample above the threshold in between. -/
theorem C16_lv_trip_iff {c : Cfg K W} {s : St K W} (hi : IsInit s) (hen : s.lvEnable = true) (h : List (Inp K)) :
    (run c s h).lv.trip = true ↔
      ∃ z ∈ s.lv.zones, Exceeds (z.Vthr * c.Vref) z.tThr (after c.tStable (records 0 (samples h))) := by
  have hr := (run_vrt c s h).1
  rw [if_pos hen, hi.rl] at hr
  rw [hr, lvRun_trip (fun z hz => (hi.lvz z hz).2) hi.lvt, List.any_eq_true]
  constructor
  · rintro ⟨z, hz, hb⟩
    exact ⟨z, hz, (zRun_inv (hi.lvz z hz) _ (records_increasing 0 _) (records_gt 0 _)).breach.1 hb⟩
  · rintro ⟨z, hz, hb⟩
    exact ⟨z, hz, (zRun_inv (hi.lvz z hz) _ (records_increasing 0 _) (records_gt 0 _)).breach.2 hb⟩

/-- C16 for strictly increasing positive evaluation times: no sample is dropped. -/
theorem C16_lv_trip_iff_increasing {c : Cfg K W} {s : St K W} (hi : IsInit s) (hen : s.lvEnable = true) (h : List (Inp K))
    (hinc : Increasing (samples h)) (hpos : ∀ x ∈ samples h, 0 < x.1) :
    (run c s h).lv.trip = true ↔ ∃ z ∈ s.lv.zones, Exceeds (z.Vthr * c.Vref) z.tThr (after c.tStable (samples h)) := by
  rw [C16_lv_trip_iff hi hen h, records_eq 0 _ hinc hpos]

/-- C17: mirror image for high voltage. -/
theorem C17_hv_trip_iff {c : Cfg K W} {s : St K W} (hi : IsInit s) (hen : s.hvEnable = true) (h : List (Inp K)) :
    (run c s h).hv.trip = true ↔
      ∃ z ∈ s.hv.zones, ExceedsHigh (z.Vthr * c.Vref) z.tThr (after c.tStable (records 0 (samples h))) := by
  have hr := (run_vrt c s h).2.1
  rw [if_pos hen, hi.rl, hvRun_neg] at hr
  have hfz : ∀ z ∈ s.hv.neg.zones, z.fresh := by
    intro z hz
    obtain ⟨y, hy, rfl⟩ := List.mem_map.1 hz
    exact hi.hvz y hy
  have ht : (lvRun c.tStable c.Vref s.hv.neg (negH (records 0 (samples h)))).neg.trip
      = s.hv.neg.zones.any (fun z => (zRun c.tStable c.Vref z (negH (records 0 (samples h)))).breach) :=
    lvRun_trip (fun z hz => (hfz z hz).2) hi.hvt _
  have hinc : Increasing (negH (records 0 (samples h))) := by
    unfold Increasing negH
    rw [List.pairwise_map]
    exact records_increasing 0 _
  have hpos : ∀ x ∈ negH (records 0 (samples h)), 0 < x.1 := by
    intro x hx
    obtain ⟨y, hy, rfl⟩ := List.mem_map.1 hx
    exact records_gt 0 _ y hy
  have key : ∀ z ∈ s.hv.zones, ((zRun c.tStable c.Vref z.neg (negH (records 0 (samples h)))).breach = true ↔
      ExceedsHigh (z.Vthr * c.Vref) z.tThr (after c.tStable (records 0 (samples h)))) := by
    intro z hz
    have := (zRun_inv (tStable := c.tStable) (Vref := c.Vref) (z := z.neg) (hi.hvz z hz) _ hinc hpos).breach
    rw [this, after_neg, show z.neg.Vthr * c.Vref = -(z.Vthr * c.Vref) by simp [Zone.neg], exceeds_neg]
    rfl
  rw [hr, ht, List.any_eq_true]
  constructor
  · rintro ⟨z, hz, hb⟩
    obtain ⟨y, hy, rfl⟩ := List.mem_map.1 hz
    exact ⟨y, hy, (key y hy).1 hb⟩
  · rintro ⟨y, hy, hb⟩
    exact ⟨y.neg, List.mem_map.2 ⟨y, hy, rfl⟩, (key y hy).2 hb⟩

/-- With increasing positive evaluation times every evaluation counts. -/
theorem C17_hv_trip_iff_increasing {c : Cfg K W} {s : St K W} (hi : IsInit s) (hen : s.hvEnable = true) (h : List (Inp K))
    (hinc : Increasing (samples h)) (hpos : ∀ x ∈ samples h, 0 < x.1) :
    (run c s h).hv.trip = true ↔ ∃ z ∈ s.hv.zones, ExceedsHigh (z.Vthr * c.Vref) z.tThr (after c.tStable (samples h)) := by
  rw [C17_hv_trip_iff hi hen h, records_eq 0 _ hinc hpos]

theorem updateFlags_off (c : Cfg K W) (t V f : K) (s : St K W) (hlf : s.lfEnable = false) (h : t > s.rtLock) :
    (updateFlags c t V f s).1.trip = ((updateFlags c t V f s).1.lv.trip || (updateFlags c t V f s).1.hv.trip) ∧
    (updateFlags c t V f s).1.mc = ((updateFlags c t V f s).1.lv.mc || (updateFlags c t V f s).1.hv.mc) := by
  rw [updateFlags_eq c t V f s h, hlf]
  exact ⟨rfl, rfl⟩

/-- The DER trip flag is the disjunction of the two (after any sequence of evaluations with the frequency logic off). -/
theorem der_flags {c : Cfg K W} {s : St K W} (hi : IsInit s) (hlf : s.lfEnable = false) (h : List (Inp K)) :
    (run c s h).trip = ((run c s h).lv.trip || (run c s h).hv.trip) ∧
    (run c s h).mc = ((run c s h).lv.mc || (run c s h).hv.mc) := by
  induction h using List.reverseRecOn with
  | nil => simp [run, hi.trip, hi.mc, hi.lvt, hi.hvt, hi.lvm, hi.hvm]
  | append_singleton h i ih =>
    rw [run_snoc]
    by_cases ht : i.t > (run c s h).rtLock
    · have hk := eval_keeps c (run c s h) i
      have hlf' : (run c s h).lfEnable = false := (run_vrt c s h).2.2.2.2.trans hlf
      have hu := updateFlags_off c i.t i.V i.f { run c s h with refs := i.refs } hlf' ht
      exact ⟨by rw [hk.1, hk.2.1, hk.2.2.2.2.2.2.1]; exact hu.1,
        by rw [hk.1, hk.2.1, hk.2.2.2.2.2.2.2]; exact hu.2⟩
    · obtain ⟨e1, e2, _, _, _, _, e7, e8⟩ := eval_old c (run c s h) i (not_lt.1 ht)
      rw [e1, e2, e7, e8]
      exact ih

example : IsInit exSt ∧ (run exCfg exSt [exInp 1 (4/5), exInp 3 (4/5), exInp 7 (88/100), exInp 8 (7/10)]).lv.trip = true ∧
    (run exCfg exSt [exInp 1 (4/5), exInp 3 (4/5), exInp 5 (89/100), exInp 6 (7/10), exInp 11 (7/10)]).lv.trip = false ∧
    (run exCfg exSt [exInp 1 (12/10), exInp 5 (12/10)]).hv.trip = true :=
  ⟨exSt_init, by decide +kernel⟩

/-! ### C18 -/

theorem lvrt_latch {tStable Vref V t : K} {s : VRT K} (h : s.trip = true) : (lvrt tStable Vref V t s).trip = true := by
  rw [lvrt_trip, h]; rfl

theorem hvrt_latch {tStable Vref V t : K} {s : VRT K} (h : s.trip = true) : (hvrt tStable Vref V t s).trip = true := by
  rw [hvrt_neg]
  exact lvrt_latch (s := s.neg) h

/-- C18, one evaluation in any state whatsoever: the voltage trip flags are never cleared. -/
theorem C18_vrt_trip_latched_step (c : Cfg K W) (s : St K W) (i : Inp K) :
    (s.lv.trip = true → (eval c s i).1.lv.trip = true) ∧ (s.hv.trip = true → (eval c s i).1.hv.trip = true) := by
  by_cases ht : i.t > s.rtLock
  · obtain ⟨e1, e2, _⟩ := eval_vrt c s i ht
    rw [e1, e2]
    refine ⟨fun h => ?_, fun h => ?_⟩ <;> split_ifs
    · exact lvrt_latch h
    · exact h
    · exact hvrt_latch h
    · exact h
  · obtain ⟨e1, e2, _⟩ := eval_old c s i (not_lt.1 ht)
    rw [e1, e2]
    exact ⟨id, id⟩

theorem trip_inv_step (c : Cfg K W) (s : St K W) (i : Inp K) (hs : s.trip = true → s.lv.trip = true ∨ s.hv.trip = true) :
    (s.trip = true → (eval c s i).1.trip = true) ∧
      ((eval c s i).1.trip = true → (eval c s i).1.lv.trip = true ∨ (eval c s i).1.hv.trip = true) := by
  have hl := C18_vrt_trip_latched_step c s i
  by_cases ht : i.t > s.rtLock
  · have hk := eval_keeps c s i
    have hcase : (eval c s i).1.trip = s.trip ∨ (eval c s i).1.trip = ((eval c s i).1.lv.trip || (eval c s i).1.hv.trip) := by
      rw [hk.1, hk.2.1, hk.2.2.2.2.2.2.1, updateFlags_eq c i.t i.V i.f { s with refs := i.refs } ht]
      simp only
      split
      · left
        split_ifs
        · exact (frt_keeps c i.f i.t _).2.2.2.2.2.2.1
        · rfl
      · right; rfl
    rcases hcase with h | h
    · rw [h]
      exact ⟨id, fun h' => (hs h').imp hl.1 hl.2⟩
    · rw [h]
      refine ⟨fun h' => ?_, fun h' => by simpa using h'⟩
      rcases hs h' with h1 | h1
      · simp [hl.1 h1]
      · simp [hl.2 h1]
  · obtain ⟨e1, e2, _, _, _, _, e7, _⟩ := eval_old c s i (not_lt.1 ht)
    rw [e1, e2, e7]
    exact ⟨id, hs⟩

/-- C18: along every run from initialisation, once `DER_TRIP` is set it stays set in every continuation (frequency logic on or off,
exceptions or not). -/
theorem C18_trip_latched {c : Cfg K W} {s : St K W} (hi : IsInit s) (h h' : List (Inp K)) (htrip : (run c s h).trip = true) :
    (run c s (h ++ h')).trip = true := by
  have key : ∀ (h : List (Inp K)), (run c s h).trip = true → (run c s h).lv.trip = true ∨ (run c s h).hv.trip = true := by
    intro h
    induction h using List.reverseRecOn with
    | nil => intro hh; simp [run, hi.trip] at hh
    | append_singleton h i ih => rw [run_snoc]; exact (trip_inv_step c _ i ih).2
  induction h' using List.reverseRecOn with
  | nil => simpa using htrip
  | append_singleton h' i ih =>
    rw [← List.append_assoc, run_snoc]
    exact (trip_inv_step c _ i (key _)).1 ih

example : (run exCfg exSt [exInp 1 (4/5), exInp 8 (7/10)]).trip = true ∧
    (run exCfg exSt [exInp 1 (4/5), exInp 8 (7/10), exInp 9 1, exInp 10 1]).trip = true := by decide +kernel

end RT
end PvDer
