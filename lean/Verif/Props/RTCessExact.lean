import Verif.Props.RTCess

/-!
# Property C87: the momentary cessation flag, exactly

`Sets` and `Clears` say, in terms of the voltage history alone, when a zone demands cessation and when it calls the cessation off.
-/

set_option linter.unusedSectionVars false

namespace PvDer
namespace RT

variable {K W : Type} [Field K] [LinearOrder K] [IsStrictOrderedRing K]

/-- At time `t` with voltage `V` after history `h`: the zone (threshold `thr`, trip time `tThr`) is violated, has not tripped, and is continuously violated since a
first time `τ` with `tMin ≤ t - τ ≤ tThr`. -/
def Demands (thr tThr tMin : K) (h : List (K × K)) (t V : K) : Prop :=
  V < thr ∧ ¬ Exceeds thr tThr h ∧ ∃ τ, LowSince thr h τ ∧ (∀ τ', LowSince thr h τ' → τ ≤ τ') ∧ tMin ≤ t - τ ∧ t - τ ≤ tThr

/-- The voltage just rose above the threshold of a zone that was violated and has not tripped. -/
def CallsOff (thr tThr : K) (h : List (K × K)) (V : K) : Prop := V > thr ∧ ¬ Exceeds thr tThr h ∧ ∃ τ, LowSince thr h τ

/-- Mirror images. -/
def DemandsHigh (thr tThr tMin : K) (h : List (K × K)) (t V : K) : Prop :=
  V > thr ∧ ¬ ExceedsHigh thr tThr h ∧ ∃ τ, HighSince thr h τ ∧ (∀ τ', HighSince thr h τ' → τ ≤ τ') ∧ tMin ≤ t - τ ∧ t - τ ≤ tThr

/-- see `DemandsHigh`. -/
def CallsOffHigh (thr tThr : K) (h : List (K × K)) (V : K) : Prop := V < thr ∧ ¬ ExceedsHigh thr tThr h ∧ ∃ τ, HighSince thr h τ

/-- Once breached the timer stays at zero. -/
theorem zRun_breach_timer {tStable Vref : K} {z : Zone K} (hz : z.fresh) (h : List (K × K)) :
    (zRun tStable Vref z h).breach = true → (zRun tStable Vref z h).tStart = 0 := by
  induction h using List.reverseRecOn with
  | nil => intro hb; exact hz.1
  | append_singleton h x ih =>
    rw [zRun_snoc]
    split_ifs with hx
    · unfold lvZ lvZone
      split_ifs <;> simp_all
    · exact ih

/-- What one zone does to the flag. -/
theorem lvZone_flag (Vref V t : K) (z : Zone K) (trip mc : Bool) :
    (lvZone Vref V t z trip mc).2.2 = true ↔
      (mc = true ∧ ¬ (V > z.Vthr * Vref ∧ 0 < z.tStart)) ∨
      (z.mode = .cessation ∧ V < z.Vthr * Vref ∧ z.breach = false ∧ z.tStart ≠ 0 ∧ z.tMin ≤ t - z.tStart ∧ t - z.tStart ≤ z.tThr) := by
  unfold lvZone
  by_cases hV : V < z.Vthr * Vref
  · have hV' : ¬ V > z.Vthr * Vref := not_lt.2 hV.le
    split_ifs <;> simp_all
  · split_ifs <;> simp_all

theorem loop_flag (Vref V t : K) (zs : List (Zone K)) (trip mc : Bool) :
    (loopZones (lvZone Vref V t) zs trip mc).2.2 = true ↔
      (mc = true ∧ ∀ y ∈ zs, ¬ (V > y.Vthr * Vref ∧ 0 < y.tStart)) ∨
      ∃ p z q, zs = p ++ z :: q ∧ (z.mode = .cessation ∧ V < z.Vthr * Vref ∧ z.breach = false ∧ z.tStart ≠ 0 ∧ z.tMin ≤ t - z.tStart ∧ t - z.tStart ≤ z.tThr) ∧
        ∀ y ∈ q, ¬ (V > y.Vthr * Vref ∧ 0 < y.tStart) := by
  induction zs generalizing trip mc with
  | nil => simp [loopZones]
  | cons z zs ih =>
    simp only [loopZones]
    rw [ih, lvZone_flag]
    constructor
    · rintro (⟨⟨hm, hc⟩ | hs, hq⟩ | ⟨p, y, q, rfl, hs, hq⟩)
      · left; refine ⟨hm, ?_⟩
        intro y hy
        rcases List.mem_cons.1 hy with rfl | hy
        · exact hc
        · exact hq y hy
      · right; exact ⟨[], z, zs, rfl, hs, hq⟩
      · right; exact ⟨z :: p, y, q, rfl, hs, hq⟩
    · rintro (⟨hm, hq⟩ | ⟨p, y, q, he, hs, hq⟩)
      · left; exact ⟨Or.inl ⟨hm, hq z (by simp)⟩, fun y hy => hq y (by simp [hy])⟩
      · cases p with
        | nil =>
          obtain ⟨rfl, rfl⟩ := List.cons.inj he
          left; exact ⟨Or.inr hs, hq⟩
        | cons a p =>
          obtain ⟨rfl, rfl⟩ := List.cons.inj he
          right; exact ⟨p, y, q, rfl, hs, hq⟩

/-- The timers of a run in terms of the history. -/
theorem zone_sets {tStable Vref : K} {z : Zone K} (hz : z.fresh) (h : List (K × K)) (hinc : Increasing h) (hpos : ∀ x ∈ h, 0 < x.1) (t V : K) :
    (V < z.Vthr * Vref ∧ (zRun tStable Vref z h).breach = false ∧ (zRun tStable Vref z h).tStart ≠ 0 ∧ z.tMin ≤ t - (zRun tStable Vref z h).tStart ∧
      t - (zRun tStable Vref z h).tStart ≤ z.tThr) ↔ Demands (z.Vthr * Vref) z.tThr z.tMin (after tStable h) t V := by
  have hinv := zRun_inv (tStable := tStable) (Vref := Vref) hz h hinc hpos
  constructor
  · rintro ⟨hV, hb, hne, h1, h2⟩
    refine ⟨hV, fun he => ?_, ?_⟩
    · rw [hinv.breach.2 he] at hb; cases hb
    · rcases hinv.timer hb with ⟨h00, _⟩ | ⟨_, hls, hmin⟩
      · exact absurd h00 hne
      · exact ⟨_, hls, hmin, h1, h2⟩
  · rintro ⟨hV, hne, τ, hl, hmin, h1, h2⟩
    have hb : (zRun tStable Vref z h).breach = false := by
      cases hb : (zRun tStable Vref z h).breach with
      | false => rfl
      | true => exact absurd (hinv.breach.1 hb) hne
    rcases hinv.timer hb with ⟨_, hno⟩ | ⟨hp, hls, hm⟩
    · exact absurd hl (hno τ)
    · have : (zRun tStable Vref z h).tStart = τ := le_antisymm (hm τ hl) (hmin _ hls)
      exact ⟨hV, hb, hp.ne', by rw [this]; exact h1, by rw [this]; exact h2⟩

theorem zone_clears {tStable Vref : K} {z : Zone K} (hz : z.fresh) (h : List (K × K)) (hinc : Increasing h) (hpos : ∀ x ∈ h, 0 < x.1) (V : K) :
    (V > z.Vthr * Vref ∧ 0 < (zRun tStable Vref z h).tStart) ↔ CallsOff (z.Vthr * Vref) z.tThr (after tStable h) V := by
  have hinv := zRun_inv (tStable := tStable) (Vref := Vref) hz h hinc hpos
  constructor
  · rintro ⟨hV, hp⟩
    have hb : (zRun tStable Vref z h).breach = false := by
      cases hb : (zRun tStable Vref z h).breach with
      | false => rfl
      | true => rw [zRun_breach_timer hz h hb] at hp; exact absurd hp (lt_irrefl _)
    refine ⟨hV, fun he => ?_, ?_⟩
    · rw [hinv.breach.2 he] at hb; cases hb
    · rcases hinv.timer hb with ⟨h00, _⟩ | ⟨_, hls, _⟩
      · exact absurd h00 hp.ne'
      · exact ⟨_, hls⟩
  · rintro ⟨hV, hne, τ, hl⟩
    have hb : (zRun tStable Vref z h).breach = false := by
      cases hb : (zRun tStable Vref z h).breach with
      | false => rfl
      | true => exact absurd (hinv.breach.1 hb) hne
    rcases hinv.timer hb with ⟨_, hno⟩ | ⟨hp, _⟩
    · exact absurd hl (hno τ)
    · exact ⟨hV, hp⟩

/-- The flag after one more active sample, on the level of the zone logic. -/
theorem lv_flag_exact {tStable Vref : K} {s : VRT K} (hz : ∀ z ∈ s.zones, z.fresh) (h : List (K × K)) (x : K × K)
    (hinc : Increasing (h ++ [x])) (hpos : ∀ y ∈ h ++ [x], 0 < y.1) (hx : tStable < x.1) :
    (lvRun tStable Vref s (h ++ [x])).mc = true ↔
      ((lvRun tStable Vref s h).mc = true ∧ ∀ y ∈ s.zones, ¬ CallsOff (y.Vthr * Vref) y.tThr (after tStable h) x.2) ∨
      ∃ p z q, s.zones = p ++ z :: q ∧ z.mode = .cessation ∧ Demands (z.Vthr * Vref) z.tThr z.tMin (after tStable h) x.1 x.2 ∧
        ∀ y ∈ q, ¬ CallsOff (y.Vthr * Vref) y.tThr (after tStable h) x.2 := by
  unfold Increasing at hinc
  rw [List.pairwise_append] at hinc
  have hpos' : ∀ y ∈ h, 0 < y.1 := fun y hy => hpos y (by simp [hy])
  rw [lvRun_snoc]
  unfold lvrt
  rw [if_pos hx]
  simp only
  rw [loop_flag, lvRun_zones]
  have hset : ∀ z ∈ s.zones, ∀ V, (((zRun tStable Vref z h).mode = .cessation ∧ V < (zRun tStable Vref z h).Vthr * Vref ∧ (zRun tStable Vref z h).breach = false ∧
      (zRun tStable Vref z h).tStart ≠ 0 ∧ (zRun tStable Vref z h).tMin ≤ x.1 - (zRun tStable Vref z h).tStart ∧
      x.1 - (zRun tStable Vref z h).tStart ≤ (zRun tStable Vref z h).tThr) ↔
      (z.mode = .cessation ∧ Demands (z.Vthr * Vref) z.tThr z.tMin (after tStable h) x.1 V)) := by
    intro z hzm V
    obtain ⟨c1, c2, c3, c4⟩ := zRun_cfg tStable Vref z h
    rw [c1, c2, c3, c4, ← zone_sets (hz z hzm) h hinc.1 hpos']
  have hclr : ∀ z ∈ s.zones, ∀ V, ((V > (zRun tStable Vref z h).Vthr * Vref ∧ 0 < (zRun tStable Vref z h).tStart) ↔
      CallsOff (z.Vthr * Vref) z.tThr (after tStable h) V) := by
    intro z hzm V
    rw [(zRun_cfg tStable Vref z h).1, zone_clears (hz z hzm) h hinc.1 hpos']
  apply or_congr
  · apply and_congr Iff.rfl
    constructor
    · intro hh y hy hc
      exact hh _ (List.mem_map_of_mem hy) ((hclr y hy _).2 hc)
    · intro hh y' hy'
      obtain ⟨y, hy, rfl⟩ := List.mem_map.1 hy'
      rw [hclr y hy]
      exact hh y hy
  · constructor
    · rintro ⟨p', z', q', he, hs, hq⟩
      obtain ⟨p, r, hr, rfl, hr2⟩ := List.map_eq_append_iff.1 he
      obtain ⟨z, q, rfl, rfl, rfl⟩ := List.map_eq_cons_iff.1 hr2
      have hzm : z ∈ s.zones := by rw [hr]; simp
      rw [hset z hzm] at hs
      refine ⟨p, z, q, hr, hs.1, hs.2, ?_⟩
      intro y hy hc
      exact hq _ (List.mem_map_of_mem hy) ((hclr y (by rw [hr]; simp [hy]) _).2 hc)
    · rintro ⟨p, z, q, hr, hm, hd, hq⟩
      refine ⟨p.map (fun z => zRun tStable Vref z h), zRun tStable Vref z h, q.map (fun z => zRun tStable Vref z h), by rw [hr]; simp, ?_, ?_⟩
      · exact (hset z (by rw [hr]; simp) _).2 ⟨hm, hd⟩
      · intro y' hy'
        obtain ⟨y, hy, rfl⟩ := List.mem_map.1 hy'
        rw [hclr y (by rw [hr]; simp [hy])]
        exact hq y hy

/-- C87: along any history with increasing positive evaluation times, the low-voltage cessation flag after an evaluation later than `t_stable` is set exactly when it was set and no
zone calls it off, or some cessation zone demands it and no zone after it in the table calls it off. -/
theorem C87_lv_cessation_exact {c : Cfg K W} {s : St K W} (hi : IsInit s) (hen : s.lvEnable = true) (h : List (Inp K)) (i : Inp K)
    (hinc : Increasing (samples (h ++ [i]))) (hpos : ∀ x ∈ samples (h ++ [i]), 0 < x.1) (ht : c.tStable < i.t) :
    (run c s (h ++ [i])).lv.mc = true ↔
      ((run c s h).lv.mc = true ∧ ∀ y ∈ s.lv.zones, ¬ CallsOff (y.Vthr * c.Vref) y.tThr (after c.tStable (samples h)) i.V) ∨
      ∃ p z q, s.lv.zones = p ++ z :: q ∧ z.mode = .cessation ∧ Demands (z.Vthr * c.Vref) z.tThr z.tMin (after c.tStable (samples h)) i.t i.V ∧
        ∀ y ∈ q, ¬ CallsOff (y.Vthr * c.Vref) y.tThr (after c.tStable (samples h)) i.V := by
  have hs : samples (h ++ [i]) = samples h ++ [(i.t, i.V)] := by simp [samples]
  rw [hs] at hinc hpos
  have hinc' := hinc
  unfold Increasing at hinc'
  rw [List.pairwise_append] at hinc'
  have hr := (run_vrt c s h).1
  have hr' := (run_vrt c s (h ++ [i])).1
  rw [if_pos hen, hi.rl, hs, records_eq 0 _ hinc hpos] at hr'
  rw [if_pos hen, hi.rl, records_eq 0 _ hinc'.1 (fun x hx => hpos x (by simp [hx]))] at hr
  rw [hr, hr']
  exact lv_flag_exact hi.lvz (samples h) (i.t, i.V) hinc hpos ht

theorem highSince_neg (thr : K) (h : List (K × K)) (τ : K) : LowSince (-thr) (negH h) τ ↔ HighSince thr h τ := by
  have hinv : ∀ l : List (K × K), negH (negH l) = l := by intro l; simp [negH, Function.comp_def]
  constructor
  · rintro ⟨p, q, a, he, hat, ha, hq⟩
    refine ⟨negH p, negH q, (a.1, -a.2), ?_, hat, by simp only; linarith, ?_⟩
    · rw [← hinv h, he]; simp [negH]
    · intro x hx
      obtain ⟨y, hy, rfl⟩ := List.mem_map.1 hx
      have := hq y hy
      simp only; linarith
  · rintro ⟨p, q, a, rfl, hat, ha, hq⟩
    refine ⟨negH p, negH q, (a.1, -a.2), by simp [negH], hat, by simp only; linarith, ?_⟩
    intro x hx
    obtain ⟨y, hy, rfl⟩ := List.mem_map.1 hx
    have := hq y hy
    simp only; linarith

/-- C87 for high voltage. -/
theorem C87_hv_cessation_exact {c : Cfg K W} {s : St K W} (hi : IsInit s) (hen : s.hvEnable = true) (h : List (Inp K)) (i : Inp K)
    (hinc : Increasing (samples (h ++ [i]))) (hpos : ∀ x ∈ samples (h ++ [i]), 0 < x.1) (ht : c.tStable < i.t) :
    (run c s (h ++ [i])).hv.mc = true ↔
      ((run c s h).hv.mc = true ∧ ∀ y ∈ s.hv.zones, ¬ CallsOffHigh (y.Vthr * c.Vref) y.tThr (after c.tStable (samples h)) i.V) ∨
      ∃ p z q, s.hv.zones = p ++ z :: q ∧ z.mode = .cessation ∧ DemandsHigh (z.Vthr * c.Vref) z.tThr z.tMin (after c.tStable (samples h)) i.t i.V ∧
        ∀ y ∈ q, ¬ CallsOffHigh (y.Vthr * c.Vref) y.tThr (after c.tStable (samples h)) i.V := by
  have hs : samples (h ++ [i]) = samples h ++ [(i.t, i.V)] := by simp [samples]
  rw [hs] at hinc hpos
  have hinc' := hinc
  unfold Increasing at hinc'
  rw [List.pairwise_append] at hinc'
  have hr := (run_vrt c s h).2.1
  have hr' := (run_vrt c s (h ++ [i])).2.1
  rw [if_pos hen, hi.rl, hs, records_eq 0 _ hinc hpos, hvRun_neg] at hr'
  rw [if_pos hen, hi.rl, records_eq 0 _ hinc'.1 (fun x hx => hpos x (by simp [hx])), hvRun_neg] at hr
  have hn : negH (samples h ++ [(i.t, i.V)]) = negH (samples h) ++ [(i.t, -i.V)] := by simp [negH]
  rw [hn] at hr'
  have hinc2 : Increasing (negH (samples h) ++ [(i.t, -i.V)]) := by
    rw [← hn]; unfold Increasing negH; rw [List.pairwise_map]; exact hinc
  have hpos2 : ∀ x ∈ negH (samples h) ++ [(i.t, -i.V)], 0 < x.1 := by
    rw [← hn]
    intro x hx
    obtain ⟨y, hy, rfl⟩ := List.mem_map.1 hx
    exact hpos y hy
  have key := lv_flag_exact (s := s.hv.neg) (tStable := c.tStable) (Vref := c.Vref)
      (by intro z hz; obtain ⟨y, hy, rfl⟩ := List.mem_map.1 hz; exact hi.hvz y hy) (negH (samples h)) (i.t, -i.V) hinc2 hpos2 ht
  have hD : ∀ z : Zone K, ∀ tm, Demands (z.neg.Vthr * c.Vref) z.neg.tThr tm (after c.tStable (negH (samples h))) i.t (-i.V) ↔
      DemandsHigh (z.Vthr * c.Vref) z.tThr tm (after c.tStable (samples h)) i.t i.V := by
    intro z tm
    have hthr : z.neg.Vthr * c.Vref = -(z.Vthr * c.Vref) := by simp [Zone.neg]
    unfold Demands DemandsHigh
    rw [hthr, after_neg, exceeds_neg]
    simp only [highSince_neg, neg_lt_neg_iff, gt_iff_lt]
    rfl
  have hC : ∀ z : Zone K, CallsOff (z.neg.Vthr * c.Vref) z.neg.tThr (after c.tStable (negH (samples h))) (-i.V) ↔
      CallsOffHigh (z.Vthr * c.Vref) z.tThr (after c.tStable (samples h)) i.V := by
    intro z
    have hthr : z.neg.Vthr * c.Vref = -(z.Vthr * c.Vref) := by simp [Zone.neg]
    unfold CallsOff CallsOffHigh
    rw [hthr, after_neg, exceeds_neg]
    simp only [highSince_neg, gt_iff_lt, neg_lt_neg_iff]
    rfl
  rw [hr, hr']
  refine key.trans (or_congr (and_congr Iff.rfl ?_) ?_)
  · constructor
    · intro hh y hy
      rw [← hC]; exact hh _ (List.mem_map_of_mem hy)
    · intro hh y' hy'
      obtain ⟨y, hy, rfl⟩ := List.mem_map.1 hy'
      rw [hC]; exact hh y hy
  · constructor
    · rintro ⟨p', z', q', he, hm, hd, hq⟩
      obtain ⟨p, r, hr, rfl, hr2⟩ := List.map_eq_append_iff.1 he
      obtain ⟨z, q, rfl, rfl, rfl⟩ := List.map_eq_cons_iff.1 hr2
      refine ⟨p, z, q, hr, hm, (hD z _).1 hd, ?_⟩
      intro y hy
      rw [← hC]; exact hq _ (List.mem_map_of_mem hy)
    · rintro ⟨p, z, q, hr, hm, hd, hq⟩
      refine ⟨p.map Zone.neg, z.neg, q.map Zone.neg, by unfold VRT.neg; rw [hr]; simp, hm, (hD z _).2 hd, ?_⟩
      intro y' hy'
      obtain ⟨y, hy, rfl⟩ := List.mem_map.1 hy'
      rw [hC]; exact hq y hy

/-- Not vacuous: in the example table the cessation zone demands cessation after 0.5 s at 0.4 p.u. and the flag is set, and it is called off on recovery. -/
example : (run exCfg exSt [exInp 1 (2/5), exInp (3/2) (2/5)]).lv.mc = true ∧
    (run exCfg exSt [exInp 1 (2/5), exInp (3/2) (2/5), exInp 2 1]).lv.mc = false := by decide +kernel

end RT
end PvDer
