import Verif.Props.RTTrip

/-!
# Properties C21–C24: cessation, independence, monotonicity
-/

set_option linter.unusedSectionVars false

namespace PvDer
namespace RT

variable {K W : Type} [Field K] [LinearOrder K] [IsStrictOrderedRing K]

/-! ### C21 -/

theorem lvZone_mc {Vref V t : K} {z : Zone K} {trip mc : Bool} (h : (lvZone Vref V t z trip mc).2.2 = true) (hmc : mc = false) :
    z.mode = .cessation ∧ V < z.Vthr * Vref ∧ z.breach = false ∧ z.tStart ≠ 0 ∧ z.tMin ≤ t - z.tStart ∧ t - z.tStart ≤ z.tThr := by
  unfold lvZone at h
  split_ifs at h <;> simp_all

theorem loop_mc {Vref V t : K} {zs : List (Zone K)} {trip mc : Bool} (h : (loopZones (lvZone Vref V t) zs trip mc).2.2 = true)
    (hmc : mc = false) :
    ∃ z ∈ zs, z.mode = .cessation ∧ V < z.Vthr * Vref ∧ z.breach = false ∧ z.tStart ≠ 0 ∧ z.tMin ≤ t - z.tStart ∧ t - z.tStart ≤ z.tThr := by
  induction zs generalizing trip mc with
  | nil => simp [loopZones, hmc] at h
  | cons z zs ih =>
    simp only [loopZones] at h
    cases hz : (lvZone Vref V t z trip mc).2.2 with
    | true => exact ⟨z, by simp, lvZone_mc hz hmc⟩
    | false =>
      obtain ⟨y, hy, hh⟩ := ih h hz
      exact ⟨y, by simp [hy], hh⟩

/-- Low-voltage part of C21 on the level of the zone logic. -/
theorem lv_mc_allowed {tStable Vref : K} {s : VRT K} (hz : ∀ z ∈ s.zones, z.fresh) (h : List (K × K)) (x : K × K)
    (hinc : Increasing (h ++ [x])) (hpos : ∀ y ∈ h ++ [x], 0 < y.1)
    (h0 : (lvRun tStable Vref s h).mc = false) (h1 : (lvRun tStable Vref s (h ++ [x])).mc = true) :
    ∃ z ∈ s.zones, z.mode = .cessation ∧ x.2 < z.Vthr * Vref ∧
      ∃ τ, LowSince (z.Vthr * Vref) (after tStable h) τ ∧ z.tMin ≤ x.1 - τ ∧ x.1 - τ ≤ z.tThr := by
  rw [lvRun_snoc] at h1
  unfold lvrt at h1
  split_ifs at h1 with hst
  · simp only at h1
    obtain ⟨z', hz', hm, hV, hb, hne, hmin, hmax⟩ := loop_mc h1 h0
    rw [lvRun_zones] at hz'
    obtain ⟨z, hzm, rfl⟩ := List.mem_map.1 hz'
    obtain ⟨c1, c2, c3, c4⟩ := zRun_cfg tStable Vref z h
    unfold Increasing at hinc
    rw [List.pairwise_append] at hinc
    have hinv := zRun_inv (tStable := tStable) (Vref := Vref) (hz z hzm) h hinc.1 (fun y hy => hpos y (by simp [hy]))
    rw [c4] at hm
    rw [c1] at hV
    rw [c3] at hmin
    rw [c2] at hmax
    rcases hinv.timer hb with ⟨h00, _⟩ | ⟨_, hls, _⟩
    · exact absurd h00 hne
    · exact ⟨z, hzm, hm, hV, _, hls, hmin, hmax⟩
  · rw [h0] at h1; simp at h1

/-- C21: when an evaluation raises low-voltage momentary cessation, some configured zone is in cessation mode, its threshold is violated
now, and the voltage has been not above that threshold since a time `τ` with `t_min_ridethrough ≤ t - τ ≤ t_threshold`. -/
theorem C21_lv_cessation_allowed {c : Cfg K W} {s : St K W} (hi : IsInit s) (hen : s.lvEnable = true) (h : List (Inp K)) (i : Inp K)
    (hinc : Increasing (samples (h ++ [i]))) (hpos : ∀ x ∈ samples (h ++ [i]), 0 < x.1)
    (h0 : (run c s h).lv.mc = false) (h1 : (run c s (h ++ [i])).lv.mc = true) :
    ∃ z ∈ s.lv.zones, z.mode = .cessation ∧ i.V < z.Vthr * c.Vref ∧
      ∃ τ, LowSince (z.Vthr * c.Vref) (after c.tStable (samples h)) τ ∧ z.tMin ≤ i.t - τ ∧ i.t - τ ≤ z.tThr := by
  have hs : samples (h ++ [i]) = samples h ++ [(i.t, i.V)] := by simp [samples]
  rw [hs] at hinc hpos
  have hinc' := hinc
  unfold Increasing at hinc'
  rw [List.pairwise_append] at hinc'
  have hr := (run_vrt c s h).1
  have hr' := (run_vrt c s (h ++ [i])).1
  rw [if_pos hen, hi.rl, hs, records_eq 0 _ hinc hpos] at hr'
  rw [if_pos hen, hi.rl, records_eq 0 _ hinc'.1 (fun x hx => hpos x (by simp [hx]))] at hr
  rw [hr] at h0
  rw [hr'] at h1
  exact lv_mc_allowed hi.lvz _ _ hinc hpos h0 h1

/-- C21 for high voltage. -/
theorem C21_hv_cessation_allowed {c : Cfg K W} {s : St K W} (hi : IsInit s) (hen : s.hvEnable = true) (h : List (Inp K)) (i : Inp K)
    (hinc : Increasing (samples (h ++ [i]))) (hpos : ∀ x ∈ samples (h ++ [i]), 0 < x.1)
    (h0 : (run c s h).hv.mc = false) (h1 : (run c s (h ++ [i])).hv.mc = true) :
    ∃ z ∈ s.hv.zones, z.mode = .cessation ∧ i.V > z.Vthr * c.Vref ∧
      ∃ τ, HighSince (z.Vthr * c.Vref) (after c.tStable (samples h)) τ ∧ z.tMin ≤ i.t - τ ∧ i.t - τ ≤ z.tThr := by
  have hs : samples (h ++ [i]) = samples h ++ [(i.t, i.V)] := by simp [samples]
  rw [hs] at hinc hpos
  have hinc' := hinc
  unfold Increasing at hinc'
  rw [List.pairwise_append] at hinc'
  have hr := (run_vrt c s h).2.1
  have hr' := (run_vrt c s (h ++ [i])).2.1
  rw [if_pos hen, hi.rl, hs, records_eq 0 _ hinc hpos, hvRun_neg] at hr'
  rw [if_pos hen, hi.rl, records_eq 0 _ hinc'.1 (fun x hx => hpos x (by simp [hx])), hvRun_neg] at hr
  rw [hr] at h0
  rw [hr'] at h1
  have hn : negH (samples h ++ [(i.t, i.V)]) = negH (samples h) ++ [(i.t, -i.V)] := by simp [negH]
  rw [hn] at h1
  have hinc2 : Increasing (negH (samples h) ++ [(i.t, -i.V)]) := by
    rw [← hn]
    unfold Increasing negH
    rw [List.pairwise_map]
    exact hinc
  have hpos2 : ∀ x ∈ negH (samples h) ++ [(i.t, -i.V)], 0 < x.1 := by
    rw [← hn]
    intro x hx
    obtain ⟨y, hy, rfl⟩ := List.mem_map.1 hx
    exact hpos y hy
  obtain ⟨z', hz', hm, hV, τ, ⟨p, q, a, he, hat, ha, hq⟩, hmin, hmax⟩ :=
    lv_mc_allowed (s := s.hv.neg) (tStable := c.tStable) (Vref := c.Vref)
      (by intro z hz; obtain ⟨y, hy, rfl⟩ := List.mem_map.1 hz; exact hi.hvz y hy) (negH (samples h)) (i.t, -i.V) hinc2 hpos2 h0 h1
  obtain ⟨z, hz, rfl⟩ := List.mem_map.1 hz'
  have hthr : z.neg.Vthr * c.Vref = -(z.Vthr * c.Vref) := by simp [Zone.neg]
  rw [hthr] at hV ha hq
  refine ⟨z, hz, hm, by simp only at hV; linarith, τ, ⟨negH p, negH q, (a.1, -a.2), ?_, hat, by simp only; linarith, ?_⟩, hmin, hmax⟩
  · rw [after_neg] at he
    have hinv : ∀ l : List (K × K), negH (negH l) = l := by intro l; simp [negH, Function.comp_def]
    rw [← hinv (after c.tStable (samples h)), he]; simp [negH]
  · intro x hx
    obtain ⟨y, hy, rfl⟩ := List.mem_map.1 hx
    have := hq y hy
    simp only; linarith

example : (run exCfg exSt [exInp 1 (2/5)]).lv.mc = false ∧ (run exCfg exSt [exInp 1 (2/5), exInp (3/2) (2/5)]).lv.mc = true := by decide +kernel

/-! ### C22 -/

theorem lvZone_mc_kept {Vref V t : K} {z : Zone K} {trip : Bool} (hno : ¬ (V > z.Vthr * Vref ∧ z.tStart > 0)) :
    (lvZone Vref V t z trip true).2.2 = true := by
  unfold lvZone
  split_ifs <;> simp_all

/-- C22 restricted to evaluations in which no running zone timer sees the voltage recover above its own threshold: the low-voltage
cessation flag is kept.  `_partial`: with several zones the recovery of a *deeper* zone clears the common flag although the zone that
raised it is still violated, see `C22_deeper_zone_clears_flag`. -/
theorem C22_cessation_kept_partial (tStable Vref V t : K) (s : VRT K) (hmc : s.mc = true)
    (hno : ∀ z ∈ s.zones, ¬ (V > z.Vthr * Vref ∧ z.tStart > 0)) : (lvrt tStable Vref V t s).mc = true := by
  have key : ∀ (zs : List (Zone K)) (trip : Bool), (∀ z ∈ zs, ¬ (V > z.Vthr * Vref ∧ z.tStart > 0)) →
      (loopZones (lvZone Vref V t) zs trip true).2.2 = true := by
    intro zs
    induction zs with
    | nil => intro _ _; rfl
    | cons z zs ih =>
      intro trip h
      simp only [loopZones]
      rw [lvZone_mc_kept (h z (by simp))]
      exact ih _ (fun y hy => h y (by simp [hy]))
  unfold lvrt
  split_ifs
  · simp only [hmc]; exact key _ _ hno
  · exact hmc

/-- In particular with a single zone C22 holds in full: the flag stays while the voltage is not above the zone threshold. -/
theorem C22_single_zone (tStable Vref V t : K) (z : Zone K) (trip : Bool) (hV : V ≤ z.Vthr * Vref) :
    (lvrt tStable Vref V t ⟨[z], trip, true⟩).mc = true :=
  C22_cessation_kept_partial tStable Vref V t _ rfl (by
    intro y hy
    rw [List.mem_singleton.1 hy]
    exact fun h => absurd h.1 (not_lt.2 hV))

/-- C22 is false for two zones: zone 1 (0.88 p.u., cessation) raises the flag; the voltage recovers from 0.4 to 0.6 p.u., which is
still in zone 1 but above zone 2 (0.5 p.u.), and the flag is cleared. -/
theorem C22_deeper_zone_clears_flag :
    let s : VRT ℚ := ⟨[⟨88/100, 5, 1/10, .cessation, 0, false⟩, ⟨1/2, 1, 1/10, .mandatory, 0, false⟩], false, false⟩
    (lvRun (1/2) 1 s [(1, 2/5), (3/2, 2/5)]).mc = true ∧ (lvRun (1/2) 1 s [(1, 2/5), (3/2, 2/5), (8/5, 3/5)]).mc = false := by
  decide +kernel

/-- C22 for high voltage: unless a running zone timer sees the voltage below its threshold, the flag is kept. -/
theorem C22_hv_cessation_kept_partial (tStable Vref V t : K) (s : VRT K) (hmc : s.mc = true)
    (hno : ∀ z ∈ s.zones, ¬ (V < z.Vthr * Vref ∧ z.tStart > 0)) : (hvrt tStable Vref V t s).mc = true := by
  rw [hvrt_neg]
  refine C22_cessation_kept_partial tStable Vref (-V) t s.neg hmc fun z hz => ?_
  obtain ⟨y, hy, rfl⟩ := List.mem_map.1 hz
  rintro ⟨h1, h2⟩
  refine hno y hy ⟨?_, h2⟩
  have : -V > -y.Vthr * Vref := h1
  linarith

/-- With a single high-voltage zone C22 holds in full. -/
theorem C22_hv_single_zone (tStable Vref V t : K) (z : Zone K) (trip : Bool) (hV : z.Vthr * Vref ≤ V) :
    (hvrt tStable Vref V t ⟨[z], trip, true⟩).mc = true :=
  C22_hv_cessation_kept_partial tStable Vref V t _ rfl (by
    intro y hy
    rw [List.mem_singleton.1 hy]
    exact fun h => absurd h.1 (not_lt.2 hV))

/-! ### C23 -/

/-- C23: the fate of a zone (its new entry, in particular timer and breach status) is a function of that zone and the voltage history
alone — the other zones, their order and the flags play no role. -/
theorem C23_zone_independent (tStable Vref : K) (h : List (K × K)) :
    ∃ F : Zone K → Zone K, ∀ (zs : List (Zone K)) (trip mc : Bool), (lvRun tStable Vref ⟨zs, trip, mc⟩ h).zones = zs.map F :=
  ⟨fun z => zRun tStable Vref z h, fun _ _ _ => lvRun_zones tStable Vref _ h⟩

/-- The same for high voltage. -/
theorem C23_hv_zone_independent (tStable Vref : K) (h : List (K × K)) :
    ∃ F : Zone K → Zone K, ∀ (zs : List (Zone K)) (trip mc : Bool), (hvRun tStable Vref ⟨zs, trip, mc⟩ h).zones = zs.map F := by
  obtain ⟨F, hF⟩ := C23_zone_independent tStable Vref (negH h)
  refine ⟨fun z => (F z.neg).neg, fun zs trip mc => ?_⟩
  rw [hvRun_neg]
  show ((lvRun tStable Vref ⟨zs.map Zone.neg, trip, mc⟩ (negH h)).zones).map Zone.neg = _
  rw [hF, List.map_map, List.map_map]
  rfl

/-- C23: permuting the zone table permutes the result and yields the same trip decision. -/
theorem C23_order_irrelevant (tStable Vref : K) (h : List (K × K)) (zs zs' : List (Zone K)) (hp : zs.Perm zs')
    (hf : ∀ z ∈ zs, z.breach = false) (mc : Bool) :
    (lvRun tStable Vref ⟨zs, false, mc⟩ h).zones.Perm (lvRun tStable Vref ⟨zs', false, mc⟩ h).zones ∧
    (lvRun tStable Vref ⟨zs, false, mc⟩ h).trip = (lvRun tStable Vref ⟨zs', false, mc⟩ h).trip := by
  refine ⟨?_, ?_⟩
  · rw [lvRun_zones, lvRun_zones]; exact hp.map _
  · have hf' : ∀ z ∈ zs', z.breach = false := fun z hz => hf z (hp.mem_iff.2 hz)
    rw [lvRun_trip hf rfl, lvRun_trip hf' rfl, Bool.eq_iff_iff, List.any_eq_true, List.any_eq_true]
    constructor
    · rintro ⟨z, hz, hb⟩; exact ⟨z, hp.mem_iff.1 hz, hb⟩
    · rintro ⟨z, hz, hb⟩; exact ⟨z, hp.mem_iff.2 hz, hb⟩

/-- C23 for high voltage. -/
theorem C23_hv_order_irrelevant (tStable Vref : K) (h : List (K × K)) (zs zs' : List (Zone K)) (hp : zs.Perm zs')
    (hf : ∀ z ∈ zs, z.breach = false) (mc : Bool) :
    (hvRun tStable Vref ⟨zs, false, mc⟩ h).zones.Perm (hvRun tStable Vref ⟨zs', false, mc⟩ h).zones ∧
    (hvRun tStable Vref ⟨zs, false, mc⟩ h).trip = (hvRun tStable Vref ⟨zs', false, mc⟩ h).trip := by
  have := C23_order_irrelevant tStable Vref (negH h) (zs.map Zone.neg) (zs'.map Zone.neg) (hp.map _)
    (by intro z hz; obtain ⟨y, hy, rfl⟩ := List.mem_map.1 hz; exact hf y hy) mc
  rw [hvRun_neg, hvRun_neg]
  exact ⟨this.1.map _, this.2⟩

example : (lvRun (1/2) 1 ⟨exSt.lv.zones, false, false⟩ [(1, 4/5), (8, 7/10)]).trip = true ∧
    (lvRun (1/2) 1 ⟨exSt.lv.zones.reverse, false, true⟩ [(1, 4/5), (8, 7/10)]).trip = true := by decide +kernel

/-! ### C24 -/

/-- Two sequences of evaluations at the same times, the second with voltages at most those of the first. -/
def Below (h h' : List (Inp K)) : Prop := List.Forall₂ (fun i i' => i.t = i'.t ∧ i'.V ≤ i.V) h h'

theorem forall₂_split {α β : Type} {R : α → β → Prop} {p m : List α} {l : List β} (h : List.Forall₂ R (p ++ m) l) :
    ∃ p' m', l = p' ++ m' ∧ List.Forall₂ R p p' ∧ List.Forall₂ R m m' := by
  induction p generalizing l with
  | nil => exact ⟨[], l, rfl, .nil, h⟩
  | cons x p ih =>
    cases h with
    | cons hx h =>
      obtain ⟨p', m', rfl, h1, h2⟩ := ih h
      exact ⟨_ :: p', m', rfl, .cons hx h1, h2⟩

theorem exceeds_mono {thr tThr : K} {l l' : List (K × K)} (hb : List.Forall₂ (fun x x' => x.1 = x'.1 ∧ x'.2 ≤ x.2) l l')
    (he : Exceeds thr tThr l) : Exceeds thr tThr l' := by
  obtain ⟨p, q, r, a, b, rfl, ha, hbb, hq, ht⟩ := he
  rw [List.append_assoc] at hb
  obtain ⟨p', m', rfl, hp, hm⟩ : ∃ p' m', l' = p' ++ m' ∧
      List.Forall₂ (fun x x' : K × K => x.1 = x'.1 ∧ x'.2 ≤ x.2) p p' ∧
      List.Forall₂ (fun x x' : K × K => x.1 = x'.1 ∧ x'.2 ≤ x.2) (a :: q ++ b :: r) m' :=
    forall₂_split hb
  rw [List.cons_append] at hm
  cases hm with
  | cons hab hm =>
    rename_i a' m''
    obtain ⟨q', r'', rfl, hq', hr⟩ : ∃ q' r'', m'' = q' ++ r'' ∧
        List.Forall₂ (fun x x' : K × K => x.1 = x'.1 ∧ x'.2 ≤ x.2) q q' ∧
        List.Forall₂ (fun x x' : K × K => x.1 = x'.1 ∧ x'.2 ≤ x.2) (b :: r) r'' :=
      forall₂_split hm
    cases hr with
    | cons hbb' hr =>
      rename_i b' r'
      refine ⟨p', q', r', a', b', by simp, lt_of_le_of_lt hab.2 ha, lt_of_le_of_lt hbb'.2 hbb, ?_, ?_⟩
      · intro x' hx'
        have : ∀ (q q' : List (K × K)), List.Forall₂ (fun x x' : K × K => x.1 = x'.1 ∧ x'.2 ≤ x.2) q q' → (∀ x ∈ q, x.2 ≤ thr) →
            ∀ x' ∈ q', x'.2 ≤ thr := by
          intro q q' hqq
          induction hqq with
          | nil => simp
          | cons h _ ih =>
            intro hall x' hx'
            rcases List.mem_cons.1 hx' with rfl | hx'
            · exact le_trans h.2 (hall _ (by simp))
            · exact ih (fun y hy => hall y (by simp [hy])) x' hx'
        exact this q q' hq' hq x' hx'
      · rw [← hab.1, ← hbb'.1]; exact ht

theorem records_mono {l l' : List (K × K)} (hb : List.Forall₂ (fun x x' => x.1 = x'.1 ∧ x'.2 ≤ x.2) l l') (lock : K) :
    List.Forall₂ (fun x x' => x.1 = x'.1 ∧ x'.2 ≤ x.2) (records lock l) (records lock l') := by
  induction hb generalizing lock with
  | nil => exact List.Forall₂.nil
  | cons h _ ih =>
    unfold records
    rw [← h.1]
    split_ifs
    · exact List.Forall₂.cons h (ih _)
    · exact ih _

theorem after_mono {l l' : List (K × K)} (hb : List.Forall₂ (fun x x' => x.1 = x'.1 ∧ x'.2 ≤ x.2) l l') (tS : K) :
    List.Forall₂ (fun x x' => x.1 = x'.1 ∧ x'.2 ≤ x.2) (after tS l) (after tS l') := by
  unfold after
  induction hb with
  | nil => exact List.Forall₂.nil
  | cons h _ ih =>
    rw [List.filter_cons, List.filter_cons, ← h.1]
    split_ifs
    · exact List.Forall₂.cons h ih
    · exact ih

theorem samples_below {h h' : List (Inp K)} (hb : Below h h') :
    List.Forall₂ (fun x x' : K × K => x.1 = x'.1 ∧ x'.2 ≤ x.2) (samples h) (samples h') := by
  unfold samples
  rw [List.forall₂_map_left_iff, List.forall₂_map_right_iff]
  exact hb

/-- C24: if voltages are pointwise lower, a low-voltage trip under the higher ones implies one under the lower ones (apply it to a
prefix for "by the same evaluation"). -/
theorem C24_lower_voltage_trips {c c' : Cfg K W} (hc : c'.tStable = c.tStable ∧ c'.Vref = c.Vref) {s s' : St K W} (hi : IsInit s) (hi' : IsInit s')
    (hz : s'.lv.zones = s.lv.zones) (hen : s.lvEnable = true) (hen' : s'.lvEnable = true) {h h' : List (Inp K)} (hb : Below h h')
    (ht : (run c s h).lv.trip = true) : (run c' s' h').lv.trip = true := by
  rw [C16_lv_trip_iff hi hen] at ht
  rw [C16_lv_trip_iff hi' hen', hz, hc.1, hc.2]
  obtain ⟨z, hzm, he⟩ := ht
  exact ⟨z, hzm, exceeds_mono (after_mono (records_mono (samples_below hb) 0) _) he⟩

/-- C24 for high voltage: pointwise higher voltages preserve a high-voltage trip. -/
theorem C24_higher_voltage_trips {c : Cfg K W} {s : St K W} (hi : IsInit s) (hen : s.hvEnable = true) {h h' : List (Inp K)} (hb : Below h' h)
    (ht : (run c s h).hv.trip = true) : (run c s h').hv.trip = true := by
  rw [C17_hv_trip_iff hi hen] at ht ⊢
  obtain ⟨z, hzm, he⟩ := ht
  refine ⟨z, hzm, ?_⟩
  rw [← exceeds_neg] at he ⊢
  refine exceeds_mono ?_ he
  unfold negH
  rw [List.forall₂_map_left_iff, List.forall₂_map_right_iff]
  have h0 := after_mono (records_mono (samples_below hb) 0) c.tStable
  have : ∀ (l l' : List (K × K)), List.Forall₂ (fun x x' : K × K => x.1 = x'.1 ∧ x'.2 ≤ x.2) l l' →
      List.Forall₂ (fun x x' : K × K => x.1 = x'.1 ∧ -x'.2 ≤ -x.2) l' l := by
    intro l l' hl
    induction hl with
    | nil => exact List.Forall₂.nil
    | cons h _ ih => exact List.Forall₂.cons ⟨h.1.symm, neg_le_neg h.2⟩ ih
  exact this _ _ h0

example : Below [exInp 1 (4/5), exInp 8 (7/10)] [exInp 1 (3/5), exInp 8 (7/10)] ∧
    (run exCfg exSt [exInp 1 (4/5), exInp 8 (7/10)]).lv.trip = true := by
  refine ⟨?_, by decide +kernel⟩
  unfold Below
  refine .cons ⟨rfl, by norm_num [exInp]⟩ (.cons ⟨rfl, by norm_num [exInp]⟩ .nil)
end RT
end PvDer
