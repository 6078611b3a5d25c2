import Verif.Props.RTTrip

/-!
# Properties C19–C20: healthy voltages, re-evaluation
-/

set_option linter.unusedSectionVars false

namespace PvDer
namespace RT

variable {K W : Type} [Field K] [LinearOrder K] [IsStrictOrderedRing K]

/-! ### C19 -/

theorem lvZone_healthy {Vref V t : K} {z : Zone K} (hz : z.fresh) (hV : z.Vthr * Vref ≤ V) (trip mc : Bool) :
    lvZone Vref V t z trip mc = (z, trip, mc) := by
  unfold lvZone
  rw [if_neg (fun h => absurd h.1 (not_lt.2 hV))]
  split_ifs with h1 h2
  · exact absurd h2 (by rw [hz.1]; exact lt_irrefl _)
  · rfl
  · rfl

theorem loop_healthy {Vref V t : K} {zs : List (Zone K)} (hz : ∀ z ∈ zs, z.fresh ∧ z.Vthr * Vref ≤ V) (trip mc : Bool) :
    loopZones (lvZone Vref V t) zs trip mc = (zs, trip, mc) := by
  induction zs generalizing trip mc with
  | nil => rfl
  | cons z zs ih =>
    simp only [loopZones]
    rw [lvZone_healthy (hz z (by simp)).1 (hz z (by simp)).2, ih (fun y hy => hz y (by simp [hy]))]

theorem lvrt_healthy {tStable Vref V t : K} {s : VRT K} (hz : ∀ z ∈ s.zones, z.fresh ∧ z.Vthr * Vref ≤ V) :
    lvrt tStable Vref V t s = s := by
  unfold lvrt
  split_ifs
  · simp only [loop_healthy hz]
  · rfl

theorem hvrt_healthy {tStable Vref V t : K} {s : VRT K} (hz : ∀ z ∈ s.zones, z.fresh ∧ V ≤ z.Vthr * Vref) :
    hvrt tStable Vref V t s = s := by
  rw [hvrt_neg, lvrt_healthy, vneg_neg]
  intro z hzm
  obtain ⟨y, hy, rfl⟩ := List.mem_map.1 hzm
  obtain ⟨h1, h2⟩ := hz y hy
  refine ⟨h1, ?_⟩
  simp only [Zone.neg, neg_mul]
  linarith

/-- C19: if every measured voltage lies between (or on) the thresholds then, along a run of any length, no evaluation raises, no trip or
cessation flag and no zone timer is ever touched and the DER stays connected. -/
theorem C19_healthy_never_trips {c : Cfg K W} {s : St K W} (hi : IsInit s) (hlf : s.lfEnable = false) (h : List (Inp K))
    (hV : ∀ i ∈ h, (∀ z ∈ s.lv.zones, z.Vthr * c.Vref ≤ i.V) ∧ (∀ z ∈ s.hv.zones, i.V ≤ z.Vthr * c.Vref)) :
    (run c s h).connected = true ∧ (run c s h).trip = false ∧ (run c s h).mc = false ∧
      (run c s h).lv = s.lv ∧ (run c s h).hv = s.hv ∧ (run c s h).tDisc = 0 ∧
      (∀ p i q, h = p ++ i :: q → (eval c (run c s p) i).2 = .ok ()) := by
  have main : ∀ (s' : St K W), s'.lv = s.lv → s'.hv = s.hv → s'.lfEnable = false → s'.connected = true → s'.trip = false → s'.mc = false →
      s'.tDisc = 0 → ∀ i ∈ h, (eval c s' i).2 = .ok () ∧ (eval c s' i).1.lv = s.lv ∧ (eval c s' i).1.hv = s.hv ∧
        (eval c s' i).1.lfEnable = false ∧ (eval c s' i).1.connected = true ∧ (eval c s' i).1.trip = false ∧ (eval c s' i).1.mc = false ∧
        (eval c s' i).1.tDisc = 0 := by
    intro s' e1 e2 e3 e4 e5 e6 e7 i hih
    obtain ⟨hl, hh⟩ := hV i hih
    have hlv : ∀ t, lvrt c.tStable c.Vref i.V t s.lv = s.lv := fun t => lvrt_healthy (fun z hz => ⟨hi.lvz z hz, hl z hz⟩)
    have hhv : ∀ t, hvrt c.tStable c.Vref i.V t s.hv = s.hv := fun t => hvrt_healthy (fun z hz => ⟨hi.hvz z hz, hh z hz⟩)
    have huf : ∃ lock, updateFlags c i.t i.V i.f { s' with refs := i.refs } =
        ({ s' with refs := i.refs, rtLock := lock }, .ok ()) := by
      by_cases ht : i.t > s'.rtLock
      · refine ⟨i.t, ?_⟩
        rw [updateFlags_eq c i.t i.V i.f { s' with refs := i.refs } ht]
        simp only [vrtStep, e1, e2, e3, hlv, hhv, ite_self, Bool.false_eq_true, if_false, hi.lvt, hi.hvt, hi.lvm, hi.hvm, Bool.or_false, e5, e6]
      · refine ⟨s'.rtLock, ?_⟩
        rw [updateFlags_lock c i.t i.V i.f { s' with refs := i.refs } (not_lt.1 ht)]
    obtain ⟨lock, huf⟩ := huf
    have hev : ∃ cl, eval c s' i = ({ s' with refs := i.refs, rtLock := lock, connLock := cl }, .ok ()) := by
      unfold eval
      rw [huf]
      simp only
      unfold disconnectOrReconnect
      by_cases ht : i.t > s'.connLock
      · refine ⟨i.t, ?_⟩
        simp [ht, e4, e5, e6]
      · refine ⟨s'.connLock, ?_⟩
        simp [ht, e4]
    obtain ⟨cl, hev⟩ := hev
    rw [hev]
    exact ⟨rfl, e1, e2, e3, e4, e5, e6, e7⟩
  have hrun : ∀ l : List (Inp K), (∀ i ∈ l, i ∈ h) → (run c s l).lv = s.lv ∧ (run c s l).hv = s.hv ∧ (run c s l).lfEnable = false ∧
      (run c s l).connected = true ∧ (run c s l).trip = false ∧ (run c s l).mc = false ∧ (run c s l).tDisc = 0 := by
    intro l
    induction l using List.reverseRecOn with
    | nil => intro _; exact ⟨rfl, rfl, hlf, hi.conn, hi.trip, hi.mc, hi.td⟩
    | append_singleton l i ih =>
      intro hl
      obtain ⟨a1, a2, a3, a4, a5, a6, a7⟩ := ih (fun j hj => hl j (by simp [hj]))
      rw [run_snoc]
      exact (main _ a1 a2 a3 a4 a5 a6 a7 i (hl i (by simp))).2
  obtain ⟨a1, a2, a3, a4, a5, a6, a7⟩ := hrun h (fun _ hi => hi)
  refine ⟨a4, a5, a6, a1, a2, a7, fun p i q he => ?_⟩
  obtain ⟨a1, a2, a3, a4, a5, a6, a7⟩ := hrun p (fun j hj => by rw [he]; simp [hj])
  exact (main _ a1 a2 a3 a4 a5 a6 a7 i (by rw [he]; simp)).1

example : ∀ i ∈ [exInp 1 (88/100), exInp 2 (11/10), exInp 9 1], (∀ z ∈ exSt.lv.zones, z.Vthr * exCfg.Vref ≤ i.V) ∧
    (∀ z ∈ exSt.hv.zones, i.V ≤ z.Vthr * exCfg.Vref) := by decide +kernel

/-! ### C20 -/

/-- C20: an evaluation at a time not beyond the last evaluated one changes no ride-through timer or flag, in any state. -/
theorem C20_old_time_noop (c : Cfg K W) (t V f : K) (s : St K W) (h : t ≤ s.rtLock) : updateFlags c t V f s = (s, .ok ()) :=
  updateFlags_lock c t V f s h

/-- C20: before `t_stable` the zone tables and the trip/cessation flags of the voltage logic are untouched, in any state. -/
theorem C20_before_stable (c : Cfg K W) (t V f : K) (s : St K W) (h : t ≤ c.tStable) :
    (updateFlags c t V f s).1.lv = s.lv ∧ (updateFlags c t V f s).1.hv = s.hv := by
  by_cases ht : t > s.rtLock
  · obtain ⟨e1, e2, _⟩ := updateFlags_vrt c t V f s ht
    rw [e1, e2]
    unfold lvrt hvrt
    rw [if_neg (not_lt.2 h), if_neg (not_lt.2 h)]
    exact ⟨ite_self _, ite_self _⟩
  · rw [updateFlags_lock c t V f s (not_lt.1 ht)]; exact ⟨rfl, rfl⟩

/-- C20: evaluating the model twice at the same point (ODE right-hand side, then Jacobian) is the same as evaluating it once. -/
theorem C20_reevaluation_idempotent (c : Cfg K W) (s : St K W) (i : Inp K) (hok : (eval c s i).2 = .ok ()) :
    eval c (eval c s i).1 i = ((eval c s i).1, .ok ()) := by
  set s1 := updateFlags c i.t i.V i.f { s with refs := i.refs } with hs1
  have hok1 : s1.2 = .ok () := by
    unfold eval at hok
    rw [← hs1] at hok
    simp only at hok
    cases h : s1.2 with
    | ok _ => rfl
    | error e => rw [h] at hok; simp at hok
  have hev : eval c s i = disconnectOrReconnect c i.t s1.1 := by
    unfold eval; rw [← hs1]; simp only [hok1]
  have hrefs1 : s1.1.refs = i.refs := by
    rw [hs1]
    by_cases ht : i.t > s.rtLock
    · rw [updateFlags_eq c i.t i.V i.f { s with refs := i.refs } ht]
      have hfr : ∀ s' : St K W, (frt c i.f i.t s').1.refs = s'.refs := by
        intro s'
        unfold frt reconnectLogic
        split_ifs <;> rfl
      simp only
      split_ifs
      · split
        · rw [hfr]; rfl
        · simp only [hfr]; rfl
      · rfl
    · rw [updateFlags_lock c i.t i.V i.f { s with refs := i.refs } (not_lt.1 ht)]
  have hlock1 : i.t ≤ s1.1.rtLock := by
    rw [hs1]
    by_cases ht : i.t > s.rtLock
    · exact le_of_eq (updateFlags_vrt c i.t i.V i.f { s with refs := i.refs } ht).2.2.1.symm
    · rw [updateFlags_lock c i.t i.V i.f { s with refs := i.refs } (not_lt.1 ht)]; exact not_lt.1 ht
  -- shape of the connection step
  have hshape : ∃ s2 : St K W, i.t ≤ s2.connLock ∧ s2.refs = i.refs ∧ s2.rtLock = s1.1.rtLock ∧
      (disconnectOrReconnect c i.t s1.1).1 = (if s2.connected = false then disconnect s2 else s2) := by
    rw [hev] at hok
    unfold disconnectOrReconnect at hok ⊢
    by_cases ht : i.t > s1.1.connLock
    · simp only [ht, if_true] at hok ⊢
      set r : St K W × Except Err Unit := if s1.1.connected = true then
          if (s1.1.trip || s1.1.mc) = true then disconnectLogic c i.t { s1.1 with connLock := i.t } else ({ s1.1 with connLock := i.t }, .ok ())
        else if s1.1.trip = false then reconnectLogic c i.t { s1.1 with connLock := i.t } else ({ s1.1 with connLock := i.t }, .ok ()) with hr
      have hk : r.1.connLock = i.t ∧ r.1.refs = i.refs ∧ r.1.rtLock = s1.1.rtLock := by
        rw [hr]
        split_ifs
        · refine ⟨(disconnectLogic_keeps c i.t _).2.2.2.2.2.2.2.2.2.2, ?_, (disconnectLogic_keeps c i.t _).2.2.1⟩
          unfold disconnectLogic; split_ifs <;> exact hrefs1
        · exact ⟨rfl, hrefs1, rfl⟩
        · refine ⟨(reconnect_keeps c i.t _).2.2.2.2.2.2.2.2.2.2, ?_, (reconnect_keeps c i.t _).2.2.1⟩
          unfold reconnectLogic; split_ifs <;> exact hrefs1
        · exact ⟨rfl, hrefs1, rfl⟩
      refine ⟨r.1, le_of_eq hk.1.symm, hk.2.1, hk.2.2, ?_⟩
      cases hr2 : r.2 with
      | error e => rw [hr2] at hok; simp at hok
      | ok _ => simp only; split_ifs <;> rfl
    · simp only [ht, if_false]
      refine ⟨s1.1, not_lt.1 ht, hrefs1, rfl, ?_⟩
      split_ifs <;> rfl
  obtain ⟨s2, h1, h2, h3, h4⟩ := hshape
  rw [hev, h4]
  have hd : ∀ s' : St K W, i.t ≤ s'.rtLock → i.t ≤ s'.connLock →
      eval c s' i = (if s'.connected = false then disconnect { s' with refs := i.refs } else { s' with refs := i.refs }, .ok ()) := by
    intro s' hl hc
    unfold eval
    rw [updateFlags_lock c i.t i.V i.f { s' with refs := i.refs } hl]
    simp only
    unfold disconnectOrReconnect
    rw [if_neg (show ¬ i.t > s'.connLock from not_lt.2 hc)]
    simp only
    split_ifs <;> rfl
  by_cases hc : s2.connected = false
  · rw [if_pos hc, hd (disconnect s2) (by show i.t ≤ s2.rtLock; rw [h3]; exact hlock1) h1, if_pos (show (disconnect s2).connected = false from hc)]
    simp only [disconnect, h2]
  · rw [if_neg hc, hd s2 (by rw [h3]; exact hlock1) h1, if_neg hc]
    rw [← h2]

/-- Consequence (a defect): the lock is only set at construction, so when a second simulation restarts time at 0 on the same instance, the
ride-through flags, timers and zone tables stay frozen until time passes the end of the first simulation. -/
theorem C20_second_run_is_blind (c : Cfg K W) (s : St K W) (h : List (Inp K)) (hle : ∀ i ∈ h, i.t ≤ s.rtLock) :
    (run c s h).lv = s.lv ∧ (run c s h).hv = s.hv ∧ (run c s h).trip = s.trip ∧ (run c s h).mc = s.mc ∧ (run c s h).rtLock = s.rtLock := by
  induction h generalizing s with
  | nil => exact ⟨rfl, rfl, rfl, rfl, rfl⟩
  | cons i is ih =>
    obtain ⟨e1, e2, e3, _, _, _, e7, e8⟩ := eval_old c s i (hle i (by simp))
    have := ih (eval c s i).1 (fun j hj => by rw [e3]; exact hle j (by simp [hj]))
    rw [e1, e2, e3, e7, e8] at this
    exact this

example : (run exCfg exSt [exInp 20 1, exInp 1 0, exInp 10 0]).trip = false ∧
    (eval exCfg (run exCfg exSt [exInp 1 (4/5)]) (exInp 8 (7/10))).2 = .ok () := by decide +kernel

end RT
end PvDer
