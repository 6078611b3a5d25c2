import Verif.Model.Display
import Verif.Props.ConfigRun
import Verif.Props.ShippedUse
import Verif.Props.MinRide
import Verif.Props.EvalRefs
import Mathlib.Order.Bounds.Basic
/-!
C137: `check_anomaly`, `show_RT_settings` and `show_RT_flags`.
-/
set_option linter.unusedSectionVars false
namespace PvDer

namespace RT
variable {K : Type} [Field K] [LinearOrder K] [IsStrictOrderedRing K]

/-- The timer of a breached zone is stopped. -/
def Stopped (z : Zone K) : Prop := z.breach = true → z.tStart = 0

theorem lvZ_stopped {Vref V t : K} {z : Zone K} (h : Stopped z) : Stopped (lvZ Vref V t z) := by
  unfold Stopped lvZ lvZone at *
  split_ifs <;> simp_all

theorem zRun_stopped {tStable Vref : K} {z : Zone K} (h : Stopped z) (l : List (K × K)) : Stopped (zRun tStable Vref z l) := by
  induction l generalizing z with
  | nil => exact h
  | cons x xs ih =>
    unfold zRun at ih ⊢
    rw [List.foldl_cons]
    apply ih
    split_ifs
    · exact lvZ_stopped h
    · exact h

/-- The timer of a zone runs iff the zone has not tripped and the voltage is low; it then holds the time since when. -/
theorem timer_iff {tStable Vref : K} {z : Zone K} (hz : z.fresh) (h : List (K × K)) (hinc : Increasing h) (hpos : ∀ x ∈ h, 0 < x.1) (τ : K) :
    (0 < (zRun tStable Vref z h).tStart ∧ (zRun tStable Vref z h).tStart = τ) ↔
      ¬ Exceeds (z.Vthr * Vref) z.tThr (after tStable h) ∧ IsLeast {τ | LowSince (z.Vthr * Vref) (after tStable h) τ} τ := by
  have hi := zRun_inv (tStable := tStable) (Vref := Vref) hz h hinc hpos
  have hs : Stopped (zRun tStable Vref z h) := zRun_stopped (fun hb => hz.1) h
  constructor
  · rintro ⟨h0, rfl⟩
    have hb : (zRun tStable Vref z h).breach = false := by
      cases hb : (zRun tStable Vref z h).breach with
      | false => rfl
      | true => exact absurd (hs hb) h0.ne'
    refine ⟨fun he => by rw [hi.breach.2 he] at hb; simp at hb, ?_⟩
    rcases hi.timer hb with ⟨h1, _⟩ | ⟨_, h1, h2⟩
    · exact absurd h1 h0.ne'
    · exact ⟨h1, fun τ hτ => h2 τ hτ⟩
  · rintro ⟨h1, h2, h3⟩
    have hb : (zRun tStable Vref z h).breach = false := by
      cases hb : (zRun tStable Vref z h).breach with
      | false => rfl
      | true => exact absurd (hi.breach.1 hb) h1
    rcases hi.timer hb with ⟨_, h4⟩ | ⟨h4, h5, h6⟩
    · exact absurd h2 (h4 τ)
    · exact ⟨h4, le_antisymm (h6 τ h2) (h3 h5)⟩

theorem records_mem {lock : K} {h : List (K × K)} {x : K × K} (hx : x ∈ records lock h) : x ∈ h := by
  induction h generalizing lock with
  | nil => exact hx
  | cons y ys ih =>
    unfold records at hx
    split_ifs at hx
    · rcases List.mem_cons.1 hx with rfl | hx
      · exact List.mem_cons_self
      · exact List.mem_cons_of_mem _ (ih hx)
    · exact List.mem_cons_of_mem _ (ih hx)

/-- The settings of the low-frequency levels. -/
def lfSettings {W : Type} (s : St K W) : List (K × K) := s.lf.map fun z => (z.F, z.tLimit)

theorem frt_settings {W : Type} (c : Cfg K W) (f t : K) (s : St K W) : lfSettings (frt c f t s).1 = lfSettings s := by
  have e1 : ∀ z : LfZone K, (lfStart f t z).F = z.F ∧ (lfStart f t z).tLimit = z.tLimit := fun z => by unfold lfStart; split_ifs <;> exact ⟨rfl, rfl⟩
  have e2 : ∀ z : LfZone K, (lfReset c.delF f z).F = z.F ∧ (lfReset c.delF f z).tLimit = z.tLimit := fun z => by unfold lfReset; split_ifs <;> exact ⟨rfl, rfl⟩
  have e3 : ∀ z : LfZone K, (lfClear f t z).F = z.F ∧ (lfClear f t z).tLimit = z.tLimit := fun z => by unfold lfClear; split_ifs <;> exact ⟨rfl, rfl⟩
  unfold frt lfSettings
  split_ifs
  · simp [Function.comp_def, e1, e2, e3]
  · rw [(reconnect_keeps c t s).2.2.2.2.2.2.2.2.1]
  · simp [Function.comp_def]

theorem eval_settings {W : Type} (c : Cfg K W) (s : St K W) (i : Inp K) : lfSettings (eval c s i).1 = lfSettings s := by
  have h1 : lfSettings (eval c s i).1 = lfSettings (updateFlags c i.t i.V i.f { s with refs := i.refs }).1 := by
    unfold eval
    dsimp only
    split
    · rfl
    · unfold lfSettings
      rw [(dor_keeps c i.t _).2.2.2.2.2.2.2.2.1]
  rw [h1]
  by_cases ht : i.t > s.rtLock
  · rw [updateFlags_eq c i.t i.V i.f { s with refs := i.refs } ht]
    have hv : lfSettings (vrtStep c i.t i.V { s with refs := i.refs }) = lfSettings s := by unfold vrtStep lfSettings; rfl
    dsimp only
    by_cases hl : s.lfEnable = true
    · rw [if_pos hl]
      have := frt_settings c i.f i.t (vrtStep c i.t i.V { s with refs := i.refs })
      split <;> exact this.trans hv
    · rw [if_neg hl]
      exact hv
  · rw [updateFlags_lock c i.t i.V i.f { s with refs := i.refs } (not_lt.1 ht)]
    rfl

theorem run_settings {W : Type} (c : Cfg K W) (s : St K W) (h : List (Inp K)) : lfSettings (run c s h) = lfSettings s := by
  induction h generalizing s with
  | nil => rfl
  | cons i is ih => exact (ih (eval c s i).1).trans (eval_settings c s i)

end RT

namespace Display
open Eval

variable {k : Cls} {g : SCfg} {h : Hid} {f : Call k → ℝ}

theorem run_zones (hf : Sees k g f) (hi : RT.IsInit h.rt) (hen : h.rt.lvEnable = true) (l : List (Call k)) (hok : Ok k g h l) :
    (run k g h l).rt.lv.zones = h.rt.lv.zones.map fun z => RT.zRun g.tStable g.Vref z (RT.records 0 (l.map fun c => (c.t, f c))) := by
  obtain ⟨ins, h1, h2⟩ := run_rt hf l h hok
  have h3 : (run k g h l).rt.lv.zones = (RT.run g.rt.unit (RT.strip h.rt) ins).lv.zones := by rw [← h2]; rfl
  have hr := (RT.run_vrt g.rt.unit (RT.strip h.rt) ins).1
  rw [if_pos (show (RT.strip h.rt).lvEnable = true from hen), (isInit_strip hi).rl, h1] at hr
  rw [h3, hr, RT.lvRun_zones]
  rfl

/-- **C137 (`check_anomaly`).** After any sequence of evaluations that raise nothing the method reports a time, level and threshold iff the voltage has been below the threshold of
this level since that time — the first such time — and the level has not tripped. `_partial`: high-voltage levels, and low-voltage levels that have tripped, are never reported. -/
theorem C137_anomaly_partial (hf : Sees k g f) (hi : RT.IsInit h.rt) (hen : h.rt.lvEnable = true) (l : List (Call k)) (hok : Ok k g h l) (lk : List String) (τ : ℝ) (key : String) (V : ℝ) :
    let H := RT.after g.tStable (RT.records 0 (l.map fun c => (c.t, f c)))
    (τ, key, V) ∈ ((checkAnomaly lk (run k g h l).rt.lv).map fun x => (x.1, x.2.1, x.2.2.Vthr)) ↔
      ∃ z, (key, z) ∈ lk.zip h.rt.lv.zones ∧ z.Vthr = V ∧ IsLeast {τ | RT.LowSince (z.Vthr * g.Vref) H τ} τ ∧ ¬ RT.Exceeds (z.Vthr * g.Vref) z.tThr H := by
  intro H
  have e : lk.zip (run k g h l).rt.lv.zones = (lk.zip h.rt.lv.zones).map fun kz => (kz.1, RT.zRun g.tStable g.Vref kz.2 (RT.records 0 (l.map fun c => (c.t, f c)))) := by
    rw [run_zones hf hi hen l hok, List.zip_map_right]; rfl
  have key' : ∀ kz ∈ lk.zip h.rt.lv.zones, ∀ τ, _ := fun kz hk τ =>
    RT.timer_iff (tStable := g.tStable) (Vref := g.Vref) (hi.lvz kz.2 (List.of_mem_zip hk).2) (RT.records 0 (l.map fun c => (c.t, f c))) (RT.records_increasing 0 _) (RT.records_gt 0 _) τ
  unfold checkAnomaly
  rw [e]
  simp only [List.mem_map, List.mem_filterMap]
  constructor
  · rintro ⟨x, ⟨kz', ⟨kz, hk, rfl⟩, hx⟩, hy⟩
    split_ifs at hx with hp
    simp only [Option.some.injEq] at hx
    subst hx
    simp only [Prod.mk.injEq] at hy
    obtain ⟨y1, y2, y3⟩ := hy
    obtain ⟨q1, q2⟩ := (key' kz hk τ).1 ⟨hp, y1⟩
    refine ⟨kz.2, ?_, ?_, q2, q1⟩
    · rw [← y2]; exact hk
    · rw [← y3]; exact (RT.zRun_cfg _ _ _ _).1.symm
  · rintro ⟨z, hk, hV, q2, q1⟩
    obtain ⟨p1, p2⟩ := (key' (key, z) hk τ).2 ⟨q1, q2⟩
    refine ⟨_, ⟨_, ⟨(key, z), hk, rfl⟩, if_pos p1⟩, ?_⟩
    simp only [Prod.mk.injEq, true_and]
    exact ⟨p2, (RT.zRun_cfg _ _ _ _).1.trans hV⟩

/-- **C137, what is missed.** Once every low-voltage level has tripped nothing is reported, however low the voltage is; neither is a high voltage, however high. -/
theorem C137_anomaly_missed (hf : Sees k g f) (hi : RT.IsInit h.rt) (hen : h.rt.lvEnable = true) (l : List (Call k)) (hok : Ok k g h l) (lk : List String)
    (hm : ∀ z ∈ h.rt.lv.zones, RT.Exceeds (z.Vthr * g.Vref) z.tThr (RT.after g.tStable (RT.records 0 (l.map fun c => (c.t, f c)))) ∨
      ∀ c ∈ l, z.Vthr * g.Vref ≤ f c) :
    checkAnomaly lk (run k g h l).rt.lv = [] := by
  rw [List.eq_nil_iff_forall_not_mem]
  intro x hx
  have hx' : (x.1, x.2.1, x.2.2.Vthr) ∈ ((checkAnomaly lk (run k g h l).rt.lv).map fun x => (x.1, x.2.1, x.2.2.Vthr)) := List.mem_map.2 ⟨x, hx, rfl⟩
  obtain ⟨z, hk, _, ⟨⟨p, q, a, he, _, ha, _⟩, _⟩, h2⟩ := (C137_anomaly_partial hf hi hen l hok lk _ _ _).1 hx'
  rcases hm z (List.of_mem_zip hk).2 with h3 | h3
  · exact h2 h3
  · have ha' : a ∈ RT.after g.tStable (RT.records 0 (l.map fun c => (c.t, f c))) := by rw [he]; simp
    have ha'' := RT.records_mem (List.mem_filter.1 ha').1
    obtain ⟨c, hc, rfl⟩ := List.mem_map.1 ha''
    exact absurd (h3 c hc) (not_le.2 ha)

/-- **C137 (`show_RT_flags`).** What the five displayed flags mean after any sequence of evaluations that raise nothing (voltage logic enabled, frequency logic off, as after
construction): the DER trip flag is displayed as set iff the voltage the logic saw exceeded the time limit of some low- or high-voltage level; the DER cessation flag iff one of the other
two is; the low-voltage (high-voltage) cessation flag only if the voltage stayed below (above) a cessation level for its minimum ride-through time; and the DER is displayed as
disconnected only if the last evaluation worked with PV power, reactive power and current references zero. -/
theorem C137_flags (hf : Sees k g f) (hi : RT.IsInit h.rt) (hlv : h.rt.lvEnable = true) (hhv : h.rt.hvEnable = true) (hlf : h.rt.lfEnable = false) (p : List (Call k)) (c : Call k)
    (hok : Ok k g h (p ++ [c])) :
    let H := RT.after g.tStable (RT.records 0 ((p ++ [c]).map fun c => (c.t, f c)))
    ∃ der lv hv conn trip : Bool,
      showRTFlags (run k g h (p ++ [c])).rt =
        [.flag "DER_MOMENTARY_CESSATION" der, .flag "LVRT_MOMENTARY_CESSATION" lv, .flag "HVRT_MOMENTARY_CESSATION" hv, .flag "DER_CONNECTED" conn, .flag "DER_TRIP" trip] ∧
      (trip = true ↔ (∃ z ∈ h.rt.lv.zones, RT.Exceeds (z.Vthr * g.Vref) z.tThr H) ∨ ∃ z ∈ h.rt.hv.zones, RT.ExceedsHigh (z.Vthr * g.Vref) z.tThr H) ∧
      (der = true ↔ lv = true ∨ hv = true) ∧
      (lv = true → ∃ z ∈ h.rt.lv.zones, z.mode = .cessation ∧ RT.Lasts (z.Vthr * g.Vref) z.tMin H) ∧
      (hv = true → ∃ z ∈ h.rt.hv.zones, z.mode = .cessation ∧ RT.LastsHigh (z.Vthr * g.Vref) z.tMin H) ∧
      (conn = false → ∃ e, (evalEnv k g c (run k g h p)).2 = .ok e ∧ e.Ppv = 0 ∧ e.Q_ref = 0 ∧ e.ia_ref = 0 ∧ e.ib_ref = 0 ∧ e.ic_ref = 0 ∧ e.Vdc_ref = e.Vdc) := by
  intro H
  refine ⟨_, _, _, _, _, rfl, ?_, ?_, ?_, ?_, ?_⟩
  · obtain ⟨ins, h1, h2⟩ := run_rt hf _ h hok
    have ht : (run k g h (p ++ [c])).rt.trip = ((run k g h (p ++ [c])).rt.lv.trip || (run k g h (p ++ [c])).rt.hv.trip) := by
      have := (RT.der_flags (c := g.rt.unit) (isInit_strip hi) hlf ins).1
      rw [← h2] at this
      exact this
    rw [ht, Bool.or_eq_true, C96_lv_trip_iff hf hi hlv _ hok, C96_hv_trip_iff hf hi hhv _ hok]
  · obtain ⟨ins, h1, h2⟩ := run_rt hf _ h hok
    have ht : (run k g h (p ++ [c])).rt.mc = ((run k g h (p ++ [c])).rt.lv.mc || (run k g h (p ++ [c])).rt.hv.mc) := by
      have := (RT.der_flags (c := g.rt.unit) (isInit_strip hi) hlf ins).2
      rw [← h2] at this
      exact this
    rw [ht, Bool.or_eq_true]
  · intro hm
    by_contra hn
    obtain ⟨ins, h1, h2⟩ := run_rt hf _ h hok
    have hr := (RT.run_vrt g.rt.unit (RT.strip h.rt) ins).1
    rw [if_pos (show (RT.strip h.rt).lvEnable = true from hlv), (isInit_strip hi).rl, h1] at hr
    have h3 : (run k g h (p ++ [c])).rt.lv.mc = (RT.run g.rt.unit (RT.strip h.rt) ins).lv.mc := by rw [← h2]; rfl
    have h4 : (RT.lvRun g.tStable g.Vref h.rt.lv (RT.records 0 ((p ++ [c]).map fun c => (c.t, f c)))).mc = true := by
      rw [h3, hr] at hm; exact hm
    rw [RT.lv_no_mc (hi.lvz) hi.lvm _ (RT.records_increasing 0 _) (RT.records_gt 0 _) (fun z hz hc _ hl => hn ⟨z, hz, hc, hl⟩)] at h4
    cases h4
  · intro hm
    by_contra hn
    obtain ⟨ins, h1, h2⟩ := run_rt hf _ h hok
    have hr := (RT.run_vrt g.rt.unit (RT.strip h.rt) ins).2.1
    rw [if_pos (show (RT.strip h.rt).hvEnable = true from hhv), (isInit_strip hi).rl, h1] at hr
    have h3 : (run k g h (p ++ [c])).rt.hv.mc = (RT.run g.rt.unit (RT.strip h.rt) ins).hv.mc := by rw [← h2]; rfl
    have h4 : (RT.hvRun g.tStable g.Vref h.rt.hv (RT.records 0 ((p ++ [c]).map fun c => (c.t, f c)))).mc = true := by
      rw [h3, hr] at hm; exact hm
    rw [RT.hv_no_mc (hi.hvz) hi.hvm _ (RT.records_increasing 0 _) (RT.records_gt 0 _) (fun z hz hc _ hl => hn ⟨z, hz, hc, hl⟩)] at h4
    cases h4
  · intro hconn
    obtain ⟨e, he⟩ := ((ok_append _ _ _).1 hok).2.1
    rw [run_append] at hconn
    obtain ⟨e0, he0⟩ := eval_disconnected he hconn
    exact ⟨e, he, by rw [he0]; rfl, by rw [he0]; rfl, by rw [he0]; rfl, by rw [he0]; rfl, by rw [he0]; rfl, by rw [he0]; rfl⟩

/-- **C137 (`show_RT_flags`), undisturbed.** As long as the voltage never leaves the band the display reads: no cessation, connected, not tripped. -/
theorem C137_flags_healthy (hf : Sees k g f) (hi : RT.IsInit h.rt) (hlf : h.rt.lfEnable = false) (l : List (Call k)) (hok : Ok k g h l)
    (hV : ∀ c ∈ l, (∀ z ∈ h.rt.lv.zones, z.Vthr * g.Vref ≤ f c) ∧ (∀ z ∈ h.rt.hv.zones, f c ≤ z.Vthr * g.Vref)) :
    showRTFlags (run k g h l).rt = [.flag "DER_MOMENTARY_CESSATION" false, .flag "LVRT_MOMENTARY_CESSATION" false, .flag "HVRT_MOMENTARY_CESSATION" false,
      .flag "DER_CONNECTED" true, .flag "DER_TRIP" false] := by
  obtain ⟨h1, h2, h3⟩ := C96_healthy_stays_connected hf hi hlf l hok hV
  obtain ⟨ins, _, h4⟩ := run_rt hf l h hok
  have h5 := (RT.der_flags (c := g.rt.unit) (isInit_strip hi) hlf ins).2
  rw [← h4] at h5
  have h6 : (run k g h l).rt.mc = ((run k g h l).rt.lv.mc || (run k g h l).rt.hv.mc) := h5
  rw [h3, eq_comm, Bool.or_eq_false_iff] at h6
  unfold showRTFlags
  rw [h1, h2, h3, h6.1, h6.2]

/-! ### `show_RT_settings` -/

section
open Config
variable {m : Sim.Mt} {file : File} {id : String} {kw : Args} {x : Built} {c : Config.Cfg} {intOk : String → Bool} {v : Start} {b : Circuit.Base}

/-- One displayed line: level, threshold, time, minimum ride-through time, mode. -/
abbrev Row := String × ℚ × ℚ × ℚ × RT.Mode

/-- The line shows the settings of a level of the configuration: the numbers as configured, and the configured mode if it is one of the two known words. -/
def Shows (kv : String × Leaf) (r : Row) : Prop :=
  r.1 = kv.1 ∧ ∃ d, kv.2 = .level d ∧ Reads d "V_threshold" r.2.1 ∧ Reads d "t_threshold" r.2.2.1 ∧ Reads d "t_min_ridethrough" r.2.2.2.1 ∧
    ∀ w, w = "mandatory_operation" ∨ w = "momentary_cessation" → (d "mode" = some (.str w) ↔ modeText r.2.2.2.2 = w)

theorem mode_shown {d : String → Option PVal} {md : RT.Mode} (h : levelMode d = .ok md) {w : String} (hw : w = "mandatory_operation" ∨ w = "momentary_cessation") :
    d "mode" = some (.str w) ↔ modeText md = w := by
  have n1 : ("momentary_cessation" : String) ≠ "mandatory_operation" := by decide +kernel
  have n2 : ("" : String) ≠ "mandatory_operation" := by decide +kernel
  have n3 : ("" : String) ≠ "momentary_cessation" := by decide +kernel
  unfold levelMode at h
  cases hd : d "mode" with
  | none => rw [hd] at h; simp at h
  | some u =>
    rw [hd] at h
    cases u <;> simp at h
    case str s =>
      subst h
      simp only [Option.some.injEq, PVal.str.injEq]
      by_cases h1 : s = "mandatory_operation"
      · rw [if_pos h1]; subst h1; rfl
      · rw [if_neg h1]
        by_cases h2 : s = "momentary_cessation"
        · rw [if_pos h2]; subst h2; rfl
        · rw [if_neg h2]
          simp only [modeText]
          rcases hw with rfl | rfl
          · simp [h1, n2]
          · simp [h2, n3]
    all_goals
      subst h
      simp only [modeText]
      rcases hw with rfl | rfl <;> simp [n2, n3]

theorem rows_exist {body body' : Body} {zs : List (RT.Zone ℚ)} (h1 : body.mapM fillLevel = .ok body') (h2 : body'.mapM readZone = .ok zs) :
    ∃ rows : List Row, List.Forall₂ Shows body rows ∧ (body.map Prod.fst).zip zs = rows.zipWith (fun r z => (r.1, z)) zs ∧
      List.Forall₂ (fun (r : Row) (z : RT.Zone ℚ) => z.Vthr = r.2.1 ∧ z.tThr = r.2.2.1 ∧ z.tMin = r.2.2.2.1 ∧ z.mode = r.2.2.2.2) rows zs := by
  have f1 := mapM_forall2 h1
  have f2 := mapM_forall2 h2
  clear h1 h2
  induction f1 generalizing zs with
  | nil => cases f2; exact ⟨[], .nil, rfl, .nil⟩
  | @cons kv kv' l l' hk hl ih =>
    cases f2 with
    | @cons _ z _ zs hz hzs =>
      obtain ⟨rows, r1, r2, r3⟩ := ih hzs
      obtain ⟨d, d', e1, e2, e3, e4, _⟩ := fillLevel_reads hk
      obtain ⟨d'', q0, q1, q2, q3, q4, _⟩ := readZone_ok hz
      rw [e2, Leaf.level.injEq] at q0
      subst q0
      have rd : ∀ {k q}, k ≠ "t_start" → k ≠ "threshold_breach" → Reads d' k q → Reads d k q := by
        rintro k q a1 a2 ⟨u, u1, u2⟩
        exact ⟨u, by rw [← e4 k a1 a2]; exact u1, u2⟩
      have lm : levelMode d = .ok z.mode := by
        unfold levelMode at q4 ⊢
        rw [e4 "mode" (by decide +kernel) (by decide +kernel)] at q4
        exact q4
      refine ⟨(kv.1, z.Vthr, z.tThr, z.tMin, z.mode) :: rows, .cons ⟨rfl, d, e1, rd (by decide +kernel) (by decide +kernel) q1, rd (by decide +kernel) (by decide +kernel) q2,
        rd (by decide +kernel) (by decide +kernel) q3, fun w hw => mode_shown lm hw⟩ r1, ?_, .cons ⟨rfl, rfl, rfl, rfl⟩ r3⟩
      simp only [List.map_cons, List.zip_cons_cons, List.zipWith_cons_cons, r2]

/-- The printed items of the lines. -/
noncomputable def rowItems (rows : List Row) : List Item :=
  rows.flatMap fun r => [.text r.1, .num "Vthreshold" r.2.1 2, .num "tthreshold" r.2.2.1 2, .num "tminridethrough" r.2.2.2.1 3, .text (modeText r.2.2.2.2)]

theorem rows_items {rows : List Row} {zs : List (RT.Zone ℚ)} (h : List.Forall₂ (fun (r : Row) (z : RT.Zone ℚ) => z.Vthr = r.2.1 ∧ z.tThr = r.2.2.1 ∧ z.tMin = r.2.2.2.1 ∧ z.mode = r.2.2.2.2) rows zs)
    (F : RT.Zone ℝ → RT.Zone ℝ) (hF : ∀ z, (F z).Vthr = z.Vthr ∧ (F z).tThr = z.tThr ∧ (F z).tMin = z.tMin ∧ (F z).mode = z.mode) :
    levelRows ((rows.zipWith (fun r z => (r.1, z)) zs).map fun kz => (kz.1, F (zoneR kz.2))) = rowItems rows := by
  induction h with
  | nil => rfl
  | @cons r z rows zs hr _ ih =>
    obtain ⟨a1, a2, a3, a4⟩ := hr
    obtain ⟨b1, b2, b3, b4⟩ := hF (zoneR z)
    unfold levelRows rowItems at ih ⊢
    simp only [List.zipWith_cons_cons, List.map_cons, List.flatMap_cons, ih, b1, b2, b3, b4]
    simp only [zoneR, a1, a2, a3, a4]


/-- The state of the low- and high-voltage levels after a run: only timers and breach marks have changed. -/
theorem run_tables {g : SCfg} {h : Hid} {k : Cls} {f : Call k → ℝ} (hf : Sees k g f) (l : List (Call k)) (hok : Ok k g h l) :
    (∃ F : RT.Zone ℝ → RT.Zone ℝ, (∀ z, (F z).Vthr = z.Vthr ∧ (F z).tThr = z.tThr ∧ (F z).tMin = z.tMin ∧ (F z).mode = z.mode) ∧ (run k g h l).rt.lv.zones = h.rt.lv.zones.map F) ∧
    (∃ F : RT.Zone ℝ → RT.Zone ℝ, (∀ z, (F z).Vthr = z.Vthr ∧ (F z).tThr = z.tThr ∧ (F z).tMin = z.tMin ∧ (F z).mode = z.mode) ∧ (run k g h l).rt.hv.zones = h.rt.hv.zones.map F) ∧
    (run k g h l).rt.lvEnable = h.rt.lvEnable ∧ (run k g h l).rt.hvEnable = h.rt.hvEnable ∧ (run k g h l).rt.lfEnable = h.rt.lfEnable := by
  obtain ⟨ins, h1, h2⟩ := run_rt hf l h hok
  have hr := RT.run_vrt g.rt.unit (RT.strip h.rt) ins
  rw [← h2] at hr
  obtain ⟨r1, r2, r3, r4, r5⟩ := hr
  refine ⟨?_, ?_, r3, r4, r5⟩
  · by_cases he : (RT.strip h.rt).lvEnable = true
    · rw [if_pos he] at r1
      refine ⟨fun z => RT.zRun g.rt.unit.tStable g.rt.unit.Vref z (RT.records (RT.strip h.rt).rtLock (RT.samples ins)), fun z => RT.zRun_cfg _ _ z _, ?_⟩
      · have := congrArg RT.VRT.zones r1
        rw [RT.lvRun_zones] at this
        exact this
    · rw [if_neg he] at r1
      exact ⟨id, fun z => ⟨rfl, rfl, rfl, rfl⟩, by rw [List.map_id]; exact congrArg RT.VRT.zones r1⟩
  · by_cases he : (RT.strip h.rt).hvEnable = true
    · rw [if_pos he] at r2
      refine ⟨fun z => (RT.zRun g.rt.unit.tStable g.rt.unit.Vref z.neg (RT.negH (RT.records (RT.strip h.rt).rtLock (RT.samples ins)))).neg, fun z => ?_, ?_⟩
      · obtain ⟨c1, c2, c3, c4⟩ := RT.zRun_cfg g.rt.unit.tStable g.rt.unit.Vref z.neg (RT.negH (RT.records (RT.strip h.rt).rtLock (RT.samples ins)))
        refine ⟨?_, c2, c3, c4⟩
        show -(RT.zRun _ _ _ _).Vthr = _
        rw [c1]; exact neg_neg _
      · have := congrArg RT.VRT.zones r2
        rw [RT.hvRun_neg] at this
        refine Eq.trans this ?_
        show (RT.lvRun _ _ _ _).zones.map _ = _
        rw [RT.lvRun_zones]
        show List.map _ (List.map _ (List.map _ _)) = _
        rw [List.map_map, List.map_map]
        rfl
    · rw [if_neg he] at r2
      exact ⟨id, fun z => ⟨rfl, rfl, rfl, rfl⟩, by rw [List.map_id]; exact congrArg RT.VRT.zones r2⟩

/-- **C137 (settings, low voltage).** For every configuration file, DER and arguments with which the constructor succeeds, and after every sequence of evaluations that raise nothing:
`show_RT_settings('LVRT')` shows the rated RMS voltage in volts, the switch, the two flags and one line per level of the DER's `LVRT` block, in the order of the block, with the
configured numbers; then the two delays. -/
theorem C137_settings_lv {g : SCfg} {h : Hid} (hb : construct (template m) file id kw = .ok x) (hf : file id = some c) (hst : start intOk x.setup = .ok v)
    (hs : Starts v b g h) (hV : 0 < b.Vbase) {body : Body} (hbl : blockFor file c "LVRT" = some body)
    {k : Cls} {f : Call k → ℝ} (hsee : Sees k g f) (l : List (Call k)) (hok : Ok k g h l) (name : String) (hk : List String) (inst perUnit : Bool) :
    ∃ rows, List.Forall₂ Shows body rows ∧ showRTSettings name b.Vbase g.rt (body.map Prod.fst) hk inst (run k g h l).rt "LVRT" perUnit =
      ([.text name, .flag "LVRT_ENABLE" true, .flag "LVRT_TRIP" (run k g h l).rt.lv.trip, .flag "LVRT_MOMENTARY_CESSATION" (run k g h l).rt.lv.mc, .num "Vrms_ref" v.Vrms 2] ++
        rowItems rows ++ [.num "OUTPUT_CESSATION_DELAY" g.discDelay 0, .num "OUTPUT_RESTORE_DELAY" g.recoDelay 0], none) := by
  obtain ⟨body', q1, q2⟩ := start_levels hb hf hst (.inl rfl) hbl
  rw [if_pos rfl] at q2
  obtain ⟨rows, r1, r2, r3⟩ := rows_exist q1 q2
  refine ⟨rows, r1, ?_⟩
  obtain ⟨⟨F, F1, F2⟩, _, e1, _⟩ := run_tables hsee l hok
  obtain ⟨vv, vw, refs, w, hrt⟩ := hs.rt
  have hz : (body.map Prod.fst).zip (run k g h l).rt.lv.zones = ((rows.zipWith (fun r z => (r.1, z)) v.vrt.lv).map fun kz => (kz.1, F (zoneR kz.2))) := by
    rw [F2, hrt, ← r2]
    show List.zip _ (List.map F (List.map zoneR v.vrt.lv)) = _
    rw [List.map_map, List.zip_map_right]
    rfl
  have he : (run k g h l).rt.lvEnable = true := by rw [e1, hrt]; rfl
  have hvr : g.rt.Vref * b.Vbase = v.Vrms := by have := vref_volts hs hV 1; rw [one_mul, one_mul] at this; exact this
  unfold showRTSettings
  rw [hz, rows_items r3 F F1, he, hvr]
  rfl

/-- **C137 (settings, high voltage).** -/
theorem C137_settings_hv {g : SCfg} {h : Hid} (hb : construct (template m) file id kw = .ok x) (hf : file id = some c) (hst : start intOk x.setup = .ok v)
    (hs : Starts v b g h) (hV : 0 < b.Vbase) {body : Body} (hbl : blockFor file c "HVRT" = some body)
    {k : Cls} {f : Call k → ℝ} (hsee : Sees k g f) (l : List (Call k)) (hok : Ok k g h l) (name : String) (lk : List String) (inst perUnit : Bool) :
    ∃ rows, List.Forall₂ Shows body rows ∧ showRTSettings name b.Vbase g.rt lk (body.map Prod.fst) inst (run k g h l).rt "HVRT" perUnit =
      ([.text name, .flag "HVRT_ENABLE" true, .flag "HVRT_TRIP" (run k g h l).rt.hv.trip, .flag "HVRT_MOMENTARY_CESSATION" (run k g h l).rt.hv.mc, .num "Vrms_ref" v.Vrms 2] ++
        rowItems rows ++ [.num "OUTPUT_CESSATION_DELAY" g.discDelay 0, .num "OUTPUT_RESTORE_DELAY" g.recoDelay 0], none) := by
  obtain ⟨body', q1, q2⟩ := start_levels hb hf hst (.inr rfl) hbl
  rw [if_neg (by decide +kernel)] at q2
  obtain ⟨rows, r1, r2, r3⟩ := rows_exist q1 q2
  refine ⟨rows, r1, ?_⟩
  obtain ⟨_, ⟨F, F1, F2⟩, _, e1, _⟩ := run_tables hsee l hok
  obtain ⟨vv, vw, refs, w, hrt⟩ := hs.rt
  have hz : (body.map Prod.fst).zip (run k g h l).rt.hv.zones = ((rows.zipWith (fun r z => (r.1, z)) v.vrt.hv).map fun kz => (kz.1, F (zoneR kz.2))) := by
    rw [F2, hrt, ← r2]
    show List.zip _ (List.map F (List.map zoneR v.vrt.hv)) = _
    rw [List.map_map, List.zip_map_right]
    rfl
  have he : (run k g h l).rt.hvEnable = true := by rw [e1, hrt]; rfl
  have hvr : g.rt.Vref * b.Vbase = v.Vrms := by have := vref_volts hs hV 1; rw [one_mul, one_mul] at this; exact this
  unfold showRTSettings
  rw [if_neg (by decide +kernel), if_pos rfl, hz, rows_items r3 F F1, he, hvr]
  rfl

/-- **C137 (settings, low frequency).** The two levels of the DER's `LFRT` block are shown with the configured frequencies; the time limits are the configured ones, or half a second
each when `FRT_INSTANTANEOUS_TRIP` is set. (For blocks with the two levels `1` and `2` in this order, as in the template.) -/
theorem C137_settings_lf {g : SCfg} {h : Hid} (hb : construct (template m) file id kw = .ok x) (hf : file id = some c) (hst : start intOk x.setup = .ok v)
    (hs : Starts v b g h) {d1 d2 : String → Option PVal} (hbl : blockFor file c "LFRT" = some [("1", .level d1), ("2", .level d2)]) {fd : Body} (hfd : blockFor file c "FRT_delays" = some fd)
    {inst : Bool} (hin : delayFlag fd "FRT_INSTANTANEOUS_TRIP" = .ok inst)
    {k : Cls} {f : Call k → ℝ} (hsee : Sees k g f) (l : List (Call k)) (hok : Ok k g h l) (name : String) (lk hk : List String) (perUnit : Bool) :
    ∃ F1 F2 t1 t2 : ℚ, Reads d1 "F_LF" F1 ∧ Reads d2 "F_LF" F2 ∧ Reads d1 "t_LF_limit" t1 ∧ Reads d2 "t_LF_limit" t2 ∧
      showRTSettings name b.Vbase g.rt lk hk inst (run k g h l).rt "LFRT" perUnit =
      ([.text name, .num "f_ref" 60 2, .num "F_LF1" F1 2, .num "F_LF2" F2 2, .num "t_LF1" (if inst then 1 / 2 else t1) 2, .num "t_LF2" (if inst then 1 / 2 else t2) 2, .flag "LFRT_ENABLE" false,
        .flag "LFRT_TRIP" (run k g h l).rt.lfTrip, .flag "FRT_INSTANTANEOUS_TRIP" inst, .num "OUTPUT_CESSATION_DELAY" g.discDelay 0, .num "OUTPUT_RESTORE_DELAY" g.recoDelay 0], none) := by
  obtain ⟨_, _, _, _, h5⟩ := start_ok hst
  have hsrc := (C67_source (construct_setup hb) hf).2.1
  unfold frtInit at h5
  obtain ⟨lfb, h1, h5⟩ := bind_ok h5
  obtain ⟨_, _, h5⟩ := bind_ok h5
  obtain ⟨fd', h2, h5⟩ := bind_ok h5
  obtain ⟨inst', h3, h5⟩ := bind_ok h5
  obtain ⟨_, _, h5⟩ := bind_ok h5
  obtain ⟨_, _, h5⟩ := bind_ok h5
  have e1 : blockFor file c "LFRT" = some lfb := by
    unfold blockFor
    rw [← hsrc "LFRT" (by simp)]
    exact need_ok h1
  have e2 : blockFor file c "FRT_delays" = some fd' := by
    unfold blockFor
    rw [← hsrc "FRT_delays" (by simp)]
    exact need_ok h2
  rw [hbl, Option.some.injEq] at e1
  rw [hfd, Option.some.injEq] at e2
  subst e1
  subst e2
  rw [hin, Except.ok.injEq] at h3
  subst h3
  have h6 := mapM_forall2 h5
  obtain ⟨z1, z2, g1, g2, hz⟩ : ∃ z1 z2, readLf inst ("1", .level d1) = .ok z1 ∧ readLf inst ("2", .level d2) = .ok z2 ∧ v.lf = [z1, z2] := by
    generalize v.lf = zs at h6
    cases h6 with
    | cons a h7 =>
      cases h7 with
      | cons a' h8 => cases h8; exact ⟨_, _, a, a', rfl⟩
  have rd : ∀ {key : String} {d : String → Option PVal} {z : RT.LfZone ℚ}, (key = "1" ∨ key = "2") → readLf inst (key, .level d) = .ok z →
      Reads d "F_LF" z.F ∧ ∃ t, Reads d "t_LF_limit" t ∧ z.tLimit = if inst then 1 / 2 else t := by
    intro key d z hkey e
    unfold readLf at e
    dsimp only at e
    obtain ⟨F, f1, e⟩ := bind_ok e
    obtain ⟨t, f2, e⟩ := bind_ok e
    obtain ⟨ts, _, e⟩ := bind_ok e
    simp only [pure, Except.pure, Except.ok.injEq] at e
    subst e
    refine ⟨levelNum_ok f1, t, levelNum_ok f2, ?_⟩
    have : (decide (key = "1") || decide (key = "2")) = true := by rcases hkey with rfl | rfl <;> decide +kernel
    simp only [this, Bool.and_true]
    split_ifs <;> norm_num
  obtain ⟨r1, t1, r2, r3⟩ := rd (.inl rfl) g1
  obtain ⟨r4, t2, r5, r6⟩ := rd (.inr rfl) g2
  refine ⟨z1.F, z2.F, t1, t2, r1, r4, r2, r5, ?_⟩
  obtain ⟨ins, _, hins⟩ := run_rt hsee l h hok
  obtain ⟨vv, vw, refs, w, hrt⟩ := hs.rt
  have hset := RT.run_settings g.rt.unit (RT.strip h.rt) ins
  rw [← hins] at hset
  have hset : ((run k g h l).rt.lf.map fun z => (z.F, z.tLimit)) = [((z1.F : ℝ), (z1.tLimit : ℝ)), (z2.F, z2.tLimit)] := by
    refine Eq.trans hset ?_
    show (h.rt.lf.map fun z => (z.F, z.tLimit)) = _
    rw [hrt]
    show ((v.lf.map fun z => (⟨z.F, z.tLimit, z.tStart⟩ : RT.LfZone ℝ)).map fun z => (z.F, z.tLimit)) = _
    rw [hz]
    rfl
  have he : (run k g h l).rt.lfEnable = false := by rw [(run_tables hsee l hok).2.2.2.2, hrt]; rfl
  unfold showRTSettings
  rw [if_neg (by decide +kernel), if_neg (by decide +kernel), if_pos rfl, he]
  have cast : ∀ (z : RT.LfZone ℚ) (t : ℚ), z.tLimit = (if inst then 1 / 2 else t) → (z.tLimit : ℝ) = if inst then 1 / 2 else (t : ℝ) := by
    intro z t e
    rw [e]
    split_ifs <;> norm_num
  rw [cast z1 t1 r3, cast z2 t2 r6] at hset
  match hlf : (run k g h l).rt.lf with
  | [] => rw [hlf] at hset; simp at hset
  | [_] => rw [hlf] at hset; simp at hset
  | _ :: _ :: _ :: _ => rw [hlf] at hset; simp at hset
  | [y1, y2] =>
    rw [hlf] at hset
    simp only [List.map_cons, List.map_nil, List.cons.injEq, Prod.mk.injEq, and_true] at hset
    obtain ⟨⟨a1, a2⟩, a3, a4⟩ := hset
    simp only [a1, a2, a3, a4]
    rfl

/-- **C137, what is false.** The switch `PER_UNIT` has no effect: asked for volts, the method shows the per-unit thresholds. -/
theorem C137_per_unit_ignored {W : Type} (name : String) (Vbase : ℝ) (cf : RT.Cfg ℝ W) (lk hk : List String) (inst : Bool) (s : RT.St ℝ W) (ty : String) :
    showRTSettings name Vbase cf lk hk inst s ty false = showRTSettings name Vbase cf lk hk inst s ty true := rfl

/-- **C137, what is false.** The high-frequency settings cannot be shown; neither can anything else but the three known kinds. -/
theorem C137_unknown {W : Type} (name : String) (Vbase : ℝ) (cf : RT.Cfg ℝ W) (lk hk : List String) (inst : Bool) (s : RT.St ℝ W) {ty : String} (perUnit : Bool)
    (ht : ty ∉ ["LVRT", "HVRT", "LFRT"]) : showRTSettings name Vbase cf lk hk inst s ty perUnit = ([], some .valueError) := by
  simp only [List.mem_cons, List.not_mem_nil, or_false, not_or] at ht
  unfold showRTSettings
  rw [if_neg ht.1, if_neg ht.2.1, if_neg ht.2.2]

example : "HFRT" ∉ ["LVRT", "HVRT", "LFRT"] := by decide +kernel

end

/-- **C137, example for the flags.** A dip at 1 s, 2 s, 3 s and recovery at 4 s: the hypotheses of `C137_flags` hold and the DER is displayed as disconnected. -/
theorem C137_flags_example (y1 y2 y3 y4 : Ode.ThreePhase.V → ℝ) :
    let g := exG Ode.exPar false
    let h : Hid := { exH g (exEv g) with rt := exMc ⟨[], ⟨0, 0, 11 / 10, 2⟩⟩ 0 0 0 0 false true ⟨0, 11 / 10, 11 / 10, 0, (0, 0), (0, 0), (0, 0)⟩ }
    let p := [exCallU y1 1 (1 / 10), exCallU y2 2 (1 / 10), exCallU y3 3 (1 / 10)]
    RT.IsInit h.rt ∧ h.rt.lvEnable = true ∧ h.rt.hvEnable = true ∧ h.rt.lfEnable = false ∧ Ok three g h (p ++ [exCallU y4 4 (1 / 3)]) ∧
      Sees three g (fun c => Phasor.urmsMin c.va c.vb c.vc) ∧
      .flag "DER_CONNECTED" false ∈ showRTFlags (run three g h (p ++ [exCallU y4 4 (1 / 3)])).rt := by
  intro g h p
  obtain ⟨hi, hlf, _, _, hok, hc, _⟩ := C97_example y1 y2 y3 y4 y4
  have hok : Ok three g h (p ++ [exCallU y4 4 (1 / 3)]) := by
    rw [show p ++ exCallU y4 4 (1 / 3) :: [exCallU y4 7 (1 / 3)] = (p ++ [exCallU y4 4 (1 / 3)]) ++ [exCallU y4 7 (1 / 3)] by simp] at hok
    exact ((ok_append _ _ _).1 hok).1
  refine ⟨hi, rfl, rfl, hlf, hok, C96_sees_minimum (by simp [unbalancedClasses]) rfl rfl, ?_⟩
  unfold showRTFlags
  rw [hc]
  simp

/-- **C137, example.** A dip at 1 s, 2 s, 3 s: `check_anomaly` reports that it began at 1 s. -/
theorem C137_example (y1 y2 y3 : Ode.ThreePhase.V → ℝ) :
    let g := exG Ode.exPar false
    let h : Hid := { exH g (exEv g) with rt := exMc ⟨[], ⟨0, 0, 11 / 10, 2⟩⟩ 0 0 0 0 false true ⟨0, 11 / 10, 11 / 10, 0, (0, 0), (0, 0), (0, 0)⟩ }
    let l := [exCallU y1 1 (1 / 10), exCallU y2 2 (1 / 10), exCallU y3 3 (1 / 10)]
    RT.IsInit h.rt ∧ h.rt.lvEnable = true ∧ Ok three g h l ∧ Sees three g (fun c => Phasor.urmsMin c.va c.vb c.vc) ∧
      ∃ V, (1, "1", V) ∈ ((checkAnomaly ["1"] (run three g h l).rt.lv).map fun x => (x.1, x.2.1, x.2.2.Vthr)) := by
  intro g h l
  obtain ⟨hi, _, _, _, hok, _⟩ := C97_example y1 y2 y3 y3 y3
  have hok : Ok three g h l := ((ok_append _ _ _).1 hok).1
  have hsee : Sees three g (fun c => Phasor.urmsMin c.va c.vb c.vc) := C96_sees_minimum (by simp [unbalancedClasses]) rfl rfl
  have hen : h.rt.lvEnable = true := rfl
  refine ⟨hi, hen, hok, hsee, 1 / 2, ?_⟩
  refine (C137_anomaly_partial (h := h) hsee hi hen l hok ["1"] 1 "1" (1 / 2)).2 ?_
  have hH : RT.after g.tStable (RT.records 0 (l.map fun c => (c.t, Phasor.urmsMin c.va c.vb c.vc))) = [(1, 1 / 10), (2, 1 / 10), (3, 1 / 10)] := by
    simp only [l, List.map_cons, List.map_nil, exCallU_rms _ _ _ (show (0:ℝ) ≤ 1 / 10 by norm_num)]
    simp only [exCallU, RT.records, RT.after, g, exG]
    norm_num
  rw [hH]
  have hthr : (1 / 2 : ℝ) * g.Vref = 1 / 6 := by show (1 / 2 : ℝ) * (1 / 3) = _; norm_num
  refine ⟨⟨1 / 2, 100, 1 / 10, .cessation, 0, false⟩, by simp [h, exMc], rfl, ⟨?_, ?_⟩, ?_⟩
  · show RT.LowSince ((1 / 2 : ℝ) * g.Vref) _ _
    rw [hthr]
    exact ⟨[], [(2, 1 / 10), (3, 1 / 10)], (1, 1 / 10), rfl, rfl, by norm_num, by norm_num⟩
  · rintro τ ⟨p, q, a, e, rfl, _⟩
    have : a ∈ [((1 : ℝ), (1 / 10 : ℝ)), (2, 1 / 10), (3, 1 / 10)] := by rw [e]; simp
    simp only [List.mem_cons, List.not_mem_nil, or_false] at this
    rcases this with rfl | rfl | rfl <;> norm_num
  · rintro ⟨p, q, r, a, b, e, _, _, _, ht⟩
    have ha : a ∈ [((1 : ℝ), (1 / 10 : ℝ)), (2, 1 / 10), (3, 1 / 10)] := by rw [e]; simp
    have hb : b ∈ [((1 : ℝ), (1 / 10 : ℝ)), (2, 1 / 10), (3, 1 / 10)] := by rw [e]; simp
    simp only [List.mem_cons, List.not_mem_nil, or_false] at ha hb
    rcases ha with rfl | rfl | rfl <;> rcases hb with rfl | rfl | rfl <;> norm_num at ht

open Config Config.Shipped in
/-- **C137, why not in full.** The shipped unit `50` at 150 V — 0.85 of its rated voltage, below the 0.88 of its first level — from 1 s on: after 6.5 s `check_anomaly` reports nothing. -/
theorem C137_anomaly_refuted (y : Ode.ThreePhase.V → ℝ) (hy : y .Vrms = 3 / 10) (lk : List String) :
    ∃ x c v g h, construct (template .three) file "50" (kwOf [("gridModel", .grid 1)]) = .ok x ∧ file "50" = some c ∧ start digit x.setup = .ok v ∧ Starts v ⟨500, 50000, 377⟩ g h ∧
      Ok Eval.three g h ([1, 13 / 2, 7, 8, 9].map fun t => ⟨false, y, t, 1, 1, 1, 377⟩) ∧ (3 / 10 : ℝ) * 500 < 88 / 100 * v.Vrms ∧
      checkAnomaly lk (Eval.run Eval.three g h ([1, 13 / 2, 7, 8, 9].map fun t => ⟨false, y, t, 1, 1, 1, 377⟩)).rt.lv = [] := by
  obtain ⟨x, c, v, g, h, hx, hc, hv, hp, hs, hsee, hok, _, _⟩ := C134_shipped_trips_early y hy
  obtain ⟨hi, en, _, _⟩ := C130_starts_fresh hx hc hv hp hs
  have hex : (shippedStart .three "50").map (fun v => (v.vrt.lv.map fun z => (z.Vthr, z.tThr), v.tStable, v.Vrms)) = .ok ([(88/100, 5), (7/10, 7/2), (1/2, 1/4)], 1/2, 177) := by
    decide +kernel
  have hm : (v.vrt.lv.map fun z => (z.Vthr, z.tThr)) = [(88/100, 5), (7/10, 7/2), (1/2, 1/4)] ∧ v.tStable = 1/2 ∧ v.Vrms = 177 := by
    unfold shippedStart at hex
    simp only [bind, Except.bind, hx, hv, Except.map, Except.ok.injEq, Prod.mk.injEq] at hex
    exact hex
  obtain ⟨m1, m2, m3⟩ := hm
  refine ⟨x, c, v, g, h, hx, hc, hv, hs, hok, by rw [m3]; norm_num, C137_anomaly_missed hsee hi en _ hok lk ?_⟩
  have hVref : g.Vref = 177 / 500 := by
    rw [hs.Vref, m3]
    have : Real.sqrt 2 ≠ 0 := by positivity
    field_simp
    norm_num
  intro z hz
  obtain ⟨vv, vw, refs, w, hrt⟩ := hs.rt
  rw [hrt] at hz
  obtain ⟨z', hz', rfl⟩ := List.mem_map.1 (show z ∈ v.vrt.lv.map zoneR from hz)
  have hz2 : (z'.Vthr, z'.tThr) ∈ (v.vrt.lv.map fun z => (z.Vthr, z.tThr)) := List.mem_map.2 ⟨z', hz', rfl⟩
  rw [m1] at hz2
  simp only [List.mem_cons, List.not_mem_nil, or_false, Prod.mk.injEq] at hz2
  have hHealthy : ∀ q : ℚ, z'.Vthr = q → (q : ℝ) * (177 / 500) ≤ 3 / 10 → ∀ c ∈ ([1, 13 / 2, 7, 8, 9].map fun t => (⟨false, y, t, 1, 1, 1, 377⟩ : Call Eval.three)), (zoneR z').Vthr * g.Vref ≤ c.y .Vrms := by
    intro q hq hle c hc
    obtain ⟨t, _, rfl⟩ := List.mem_map.1 hc
    rw [hVref]
    show (z'.Vthr : ℝ) * (177 / 500) ≤ y .Vrms
    rw [hq, hy]
    exact hle
  rcases hz2 with ⟨h1, h2⟩ | ⟨h1, h2⟩ | ⟨h1, h2⟩
  · left
    have hH : RT.after g.tStable (RT.records 0 (([1, 13 / 2, 7, 8, 9].map fun t => (⟨false, y, t, 1, 1, 1, 377⟩ : Call Eval.three)).map fun c => (c.t, c.y .Vrms))) =
        [(1, 3 / 10), (13 / 2, 3 / 10), (7, 3 / 10), (8, 3 / 10), (9, 3 / 10)] := by
      rw [hs.tStable, m2]
      simp only [List.map_cons, List.map_nil, hy, RT.records, RT.after]
      norm_num
    rw [hH, hVref]
    show RT.Exceeds ((z'.Vthr : ℝ) * (177 / 500)) z'.tThr _
    rw [h1, h2]
    exact ⟨[], [], [(7, 3 / 10), (8, 3 / 10), (9, 3 / 10)], (1, 3 / 10), (13 / 2, 3 / 10), rfl, by norm_num, by norm_num, by simp, by norm_num⟩
  · exact .inr (hHealthy _ h1 (by norm_num))
  · exact .inr (hHealthy _ h1 (by norm_num))

end Display
end PvDer
