import Verif.Props.ShippedUse
import Verif.Props.RTCessExact
/-!
C134: the minimum ride-through times.
-/
set_option linter.unusedSectionVars false
namespace PvDer
namespace RT
variable {K W : Type} [Field K] [LinearOrder K] [IsStrictOrderedRing K]

/-- The voltage was below the threshold at two samples at least `M` apart and not above it in between: a dip that has lasted `M`. -/
def Lasts (thr M : K) (h : List (K × K)) : Prop :=
  ∃ p q r a b, h = p ++ a :: q ++ b :: r ∧ a.2 < thr ∧ b.2 < thr ∧ (∀ x ∈ q, x.2 ≤ thr) ∧ b.1 - a.1 ≥ M

/-- Mirror image: a swell that has lasted `M`. -/
def LastsHigh (thr M : K) (h : List (K × K)) : Prop :=
  ∃ p q r a b, h = p ++ a :: q ++ b :: r ∧ a.2 > thr ∧ b.2 > thr ∧ (∀ x ∈ q, x.2 ≥ thr) ∧ b.1 - a.1 ≥ M

theorem Lasts.of_exceeds {thr M T : K} {h : List (K × K)} (hMT : M ≤ T) (he : Exceeds thr T h) : Lasts thr M h := by
  obtain ⟨p, q, r, a, b, e, h1, h2, h3, h4⟩ := he
  exact ⟨p, q, r, a, b, e, h1, h2, h3, (hMT.trans_lt h4).le⟩

theorem Lasts.append {thr M : K} {h : List (K × K)} (he : Lasts thr M h) (r' : List (K × K)) : Lasts thr M (h ++ r') := by
  obtain ⟨p, q, r, a, b, rfl, h1, h2, h3, h4⟩ := he
  exact ⟨p, q, r ++ r', a, b, by simp, h1, h2, h3, h4⟩

theorem lastsHigh_neg (thr M : K) (h : List (K × K)) : Lasts (-thr) M (negH h) ↔ LastsHigh thr M h := by
  have hinv : ∀ l : List (K × K), negH (negH l) = l := by intro l; simp [negH, Function.comp_def]
  constructor
  · rintro ⟨p, q, r, a, b, he, h1, h2, h3, h4⟩
    refine ⟨negH p, negH q, negH r, (a.1, -a.2), (b.1, -b.2), ?_, by simp only; linarith, by simp only; linarith, ?_, h4⟩
    · rw [← hinv h, he]; simp [negH]
    · intro x hx
      obtain ⟨y, hy, rfl⟩ := List.mem_map.1 hx
      have := h3 y hy
      simp only; linarith
  · rintro ⟨p, q, r, a, b, rfl, h1, h2, h3, h4⟩
    refine ⟨negH p, negH q, negH r, (a.1, -a.2), (b.1, -b.2), by simp [negH], by simp only; linarith, by simp only; linarith, ?_, h4⟩
    intro x hx
    obtain ⟨y, hy, rfl⟩ := List.mem_map.1 hx
    have := h3 y hy
    simp only; linarith

theorem after_append (ts : K) (l l' : List (K × K)) : after ts (l ++ l') = after ts l ++ after ts l' := by simp [after]

theorem min_records_snoc (lock : K) (l : List (K × K)) (x : K × K) : records lock (l ++ [x]) = records lock l ∨ records lock (l ++ [x]) = records lock l ++ [x] := by
  induction l generalizing lock with
  | nil =>
    simp only [List.nil_append, records]
    split_ifs <;> simp
  | cons y l ih =>
    simp only [List.cons_append, records]
    split_ifs
    · rcases ih y.1 with e | e <;> simp [e]
    · exact ih lock

/-- No zone's dip lasts its minimum time: the cessation flag stays off. -/
theorem lv_no_mc {ts Vref : K} {s : VRT K} (hz : ∀ z ∈ s.zones, z.fresh) (hm : s.mc = false) (l : List (K × K)) (hinc : Increasing l) (hpos : ∀ x ∈ l, 0 < x.1)
    (hl : ∀ z ∈ s.zones, z.mode = .cessation → z.tMin ≤ z.tThr → ¬ Lasts (z.Vthr * Vref) z.tMin (after ts l)) : (lvRun ts Vref s l).mc = false := by
  induction l using List.reverseRecOn with
  | nil => exact hm
  | append_singleton l x ih =>
    have hi := hinc
    unfold Increasing at hi
    rw [List.pairwise_append] at hi
    have h0 := ih hi.1 (fun y hy => hpos y (by simp [hy])) (fun z hzm hc hmt he => hl z hzm hc hmt (by rw [after_append]; exact he.append _))
    by_contra h1
    rw [Bool.not_eq_false] at h1
    by_cases hx : ts < x.1
    · obtain ⟨z, hzm, hc, hV, τ, ⟨p, q, a, e, rfl, ha, hq⟩, hmin, hmax⟩ := lv_mc_allowed hz l x hinc hpos h0 h1
      refine hl z hzm hc (hmin.trans hmax) ⟨p, q, [], a, x, ?_, ha, hV, hq, hmin⟩
      rw [after_append, e]
      simp [after, hx]
    · rw [lvRun_snoc] at h1
      unfold lvrt at h1
      rw [if_neg hx] at h1
      rw [h0] at h1
      simp at h1

theorem hv_no_mc {ts Vref : K} {s : VRT K} (hz : ∀ z ∈ s.zones, z.fresh) (hm : s.mc = false) (l : List (K × K)) (hinc : Increasing l) (hpos : ∀ x ∈ l, 0 < x.1)
    (hl : ∀ z ∈ s.zones, z.mode = .cessation → z.tMin ≤ z.tThr → ¬ LastsHigh (z.Vthr * Vref) z.tMin (after ts l)) : (hvRun ts Vref s l).mc = false := by
  rw [hvRun_neg]
  refine lv_no_mc (s := s.neg) ?_ hm (negH l) ?_ ?_ ?_
  · intro z hz'
    obtain ⟨y, hy, rfl⟩ := List.mem_map.1 hz'
    exact hz y hy
  · unfold Increasing negH; rw [List.pairwise_map]; exact hinc
  · intro x hx
    obtain ⟨y, hy, rfl⟩ := List.mem_map.1 hx
    exact hpos y hy
  · intro z hz' hc hmt
    obtain ⟨y, hy, rfl⟩ := List.mem_map.1 hz'
    have e : y.neg.Vthr * Vref = -(y.Vthr * Vref) := by simp [Zone.neg]
    rw [e, after_neg, show y.neg.tMin = y.tMin from rfl, lastsHigh_neg]
    exact hl y hy hc hmt

/-- Along a history none of whose dips and swells lasts as long as a level's minimum ride-through time, nothing is flagged and the DER stays connected, provided no level's trip time is shorter than its
minimum ride-through time. -/
theorem rides_through {c : Cfg K W} {s : St K W} (hi : IsInit s) (hlf : s.lfEnable = false) (h : List (Inp K))
    (hl : ∀ z ∈ s.lv.zones, z.tMin ≤ z.tThr ∧ ¬ Lasts (z.Vthr * c.Vref) z.tMin (after c.tStable (records 0 (samples h))))
    (hh : ∀ z ∈ s.hv.zones, z.tMin ≤ z.tThr ∧ ¬ LastsHigh (z.Vthr * c.Vref) z.tMin (after c.tStable (records 0 (samples h)))) :
    (run c s h).connected = true ∧ (run c s h).trip = false ∧ (run c s h).mc = false := by
  have flags : ∀ h : List (Inp K), (∀ z ∈ s.lv.zones, z.tMin ≤ z.tThr ∧ ¬ Lasts (z.Vthr * c.Vref) z.tMin (after c.tStable (records 0 (samples h)))) →
      (∀ z ∈ s.hv.zones, z.tMin ≤ z.tThr ∧ ¬ LastsHigh (z.Vthr * c.Vref) z.tMin (after c.tStable (records 0 (samples h)))) →
      (run c s h).trip = false ∧ (run c s h).mc = false := by
    intro h hl hh
    obtain ⟨f1, f2⟩ := der_flags (c := c) hi hlf h
    obtain ⟨r1, r2, _⟩ := run_vrt c s h
    have a1 : (run c s h).lv.trip = false := by
      by_contra hc
      rw [Bool.not_eq_false] at hc
      by_cases hen : s.lvEnable = true
      · obtain ⟨z, hz, he⟩ := (C16_lv_trip_iff hi hen h).1 hc
        exact (hl z hz).2 (.of_exceeds (hl z hz).1 he)
      · rw [r1, if_neg hen, hi.lvt] at hc
        simp at hc
    have a2 : (run c s h).hv.trip = false := by
      by_contra hc
      rw [Bool.not_eq_false] at hc
      by_cases hen : s.hvEnable = true
      · obtain ⟨z, hz, he⟩ := (C17_hv_trip_iff hi hen h).1 hc
        refine (hh z hz).2 ?_
        obtain ⟨p, q, r, a, b, e, h1, h2, h3, h4⟩ := he
        exact ⟨p, q, r, a, b, e, h1, h2, h3, ((hh z hz).1.trans_lt h4).le⟩
      · rw [r2, if_neg hen, hi.hvt] at hc
        simp at hc
    have a3 : (run c s h).lv.mc = false := by
      rw [r1]
      split_ifs
      · rw [hi.rl]
        exact lv_no_mc hi.lvz hi.lvm _ (records_increasing 0 _) (records_gt 0 _) fun z hz _ _ => (hl z hz).2
      · exact hi.lvm
    have a4 : (run c s h).hv.mc = false := by
      rw [r2]
      split_ifs
      · rw [hi.rl]
        exact hv_no_mc hi.hvz hi.hvm _ (records_increasing 0 _) (records_gt 0 _) fun z hz _ _ => (hh z hz).2
      · exact hi.hvm
    rw [f1, f2, a1, a2, a3, a4]
    simp
  refine ⟨?_, flags h hl hh⟩
  induction h using List.reverseRecOn with
  | nil => exact hi.conn
  | append_singleton h i ih =>
    have hs : samples (h ++ [i]) = samples h ++ [(i.t, i.V)] := by simp [samples]
    have mono : ∃ r, after c.tStable (records 0 (samples (h ++ [i]))) = after c.tStable (records 0 (samples h)) ++ r := by
      rw [hs]
      rcases min_records_snoc 0 (samples h) (i.t, i.V) with e | e
      · exact ⟨[], by rw [e]; simp⟩
      · exact ⟨_, by rw [e, after_append]⟩
    obtain ⟨r, hr⟩ := mono
    have hc := ih (fun z hz => ⟨(hl z hz).1, fun he => (hl z hz).2 (by rw [hr]; exact he.append r)⟩)
      (fun z hz => ⟨(hh z hz).1, fun he => (hh z hz).2 (by
        rw [hr]
        obtain ⟨p, q, r', a, b, e, h1, h2, h3, h4⟩ := he
        exact ⟨p, q, r' ++ r, a, b, by rw [e]; simp, h1, h2, h3, h4⟩)⟩)
    by_contra hd
    rw [Bool.not_eq_true] at hd
    have := (C28_disconnect_needs_flag_and_delay hi h i hc hd).1
    obtain ⟨f1, f2⟩ := flags _ hl hh
    unfold Flagged at this
    rw [f1, f2] at this
    simp at this

end RT

namespace Config
open Eval (Sees Ok Call Hid SCfg)

theorem lasts_scale {s : ℝ} (hs : 0 < s) (thr T : ℝ) (l : List (ℝ × ℝ)) : RT.Lasts (thr * s) T (l.map fun x => (x.1, x.2 * s)) ↔ RT.Lasts thr T l := by
  constructor
  · rintro ⟨p, q, r, a, b, e, h1, h2, h3, h4⟩
    rw [List.map_eq_append_iff] at e
    obtain ⟨l1, r', rfl, e1, e2⟩ := e
    obtain ⟨b0, r0, rfl, rfl, rfl⟩ := List.map_eq_cons_iff.1 e2
    rw [List.map_eq_append_iff] at e1
    obtain ⟨p0, l2, rfl, rfl, e3⟩ := e1
    obtain ⟨a0, q0, rfl, rfl, rfl⟩ := List.map_eq_cons_iff.1 e3
    refine ⟨p0, q0, r0, a0, b0, rfl, lt_of_mul_lt_mul_right h1 hs.le, lt_of_mul_lt_mul_right h2 hs.le, ?_, h4⟩
    intro x hx
    exact le_of_mul_le_mul_right (h3 _ (List.mem_map_of_mem hx)) hs
  · rintro ⟨p, q, r, a, b, rfl, h1, h2, h3, h4⟩
    refine ⟨p.map fun x => (x.1, x.2 * s), q.map fun x => (x.1, x.2 * s), r.map fun x => (x.1, x.2 * s), (a.1, a.2 * s), (b.1, b.2 * s), by simp,
      mul_lt_mul_of_pos_right h1 hs, mul_lt_mul_of_pos_right h2 hs, ?_, h4⟩
    intro x hx
    obtain ⟨y, hy, rfl⟩ := List.mem_map.1 hx
    exact mul_le_mul_of_nonneg_right (h3 y hy) hs.le

theorem lastsHigh_scale {s : ℝ} (hs : 0 < s) (thr T : ℝ) (l : List (ℝ × ℝ)) : RT.LastsHigh (thr * s) T (l.map fun x => (x.1, x.2 * s)) ↔ RT.LastsHigh thr T l := by
  have : RT.negH (l.map fun x => (x.1, x.2 * s)) = (RT.negH l).map fun x => (x.1, x.2 * s) := by simp [RT.negH]
  rw [← RT.lastsHigh_neg, ← RT.lastsHigh_neg, ← neg_mul, this, lasts_scale hs]

section
variable {m : Sim.Mt} {file : File} {id : String} {kw : Args} {c : Cfg} {x : Built} {intOk : String → Bool} {v : Start} {b : Circuit.Base} {g : SCfg} {h : Hid}

/-- The samples of a run in volts: those of the evaluations after `t_stable` that advance time. -/
noncomputable def volts (v : Start) (b : Circuit.Base) {k : Eval.Cls} (f : Call k → ℝ) (l : List (Call k)) : List (ℝ × ℝ) :=
  RT.after v.tStable (RT.records 0 (l.map fun c => (c.t, f c * b.Vbase)))

/-- **C134, what holds.** If no level has a trip time shorter than its minimum ride-through time, and no dip below a level's threshold (no swell above it) lasts as long as the level's
`t_min_ridethrough`, the DER stays connected, and nothing is flagged. `_partial`: without the first condition it is false, and the condition fails for the shipped settings (`C134_shipped_trips_early`). -/
theorem C134_min_ridethrough_partial (hb : construct (template m) file id kw = .ok x) (hf : file id = some c) (hst : start intOk x.setup = .ok v)
    (hp : PlainBlocks file c) (hs : Starts v b g h) (hV : 0 < b.Vbase) {lb hbk : Body} (hbl : blockFor file c "LVRT" = some lb) (hbh : blockFor file c "HVRT" = some hbk)
    {k : Eval.Cls} {f : Call k → ℝ} (hsee : Sees k g f) (l : List (Call k)) (hok : Ok k g h l)
    (hl : ∀ key d V T M, (key, Leaf.level d) ∈ lb → Reads d "V_threshold" V → Reads d "t_threshold" T → Reads d "t_min_ridethrough" M →
      M ≤ T ∧ ¬ RT.Lasts ((V : ℝ) * v.Vrms) M (volts v b f l))
    (hh : ∀ key d V T M, (key, Leaf.level d) ∈ hbk → Reads d "V_threshold" V → Reads d "t_threshold" T → Reads d "t_min_ridethrough" M →
      M ≤ T ∧ ¬ RT.LastsHigh ((V : ℝ) * v.Vrms) M (volts v b f l)) :
    (Eval.run k g h l).rt.connected = true ∧ (Eval.run k g h l).rt.trip = false ∧ (Eval.run k g h l).rt.mc = false := by
  obtain ⟨hi, _, _, e3⟩ := C130_starts_fresh hb hf hst hp hs
  obtain ⟨vv, vw, refs, w, e⟩ := hs.rt
  have e1 : h.rt.lv.zones = v.vrt.lv.map zoneR := by rw [e]; rfl
  have e2 : h.rt.hv.zones = v.vrt.hv.map zoneR := by rw [e]; rfl
  have hm : (l.map fun c => (c.t, f c * b.Vbase)) = (l.map fun c => (c.t, f c)).map fun x => (x.1, x.2 * b.Vbase) := by simp
  have key : volts v b f l = (RT.after g.tStable (RT.records 0 (l.map fun c => (c.t, f c)))).map fun x => (x.1, x.2 * b.Vbase) := by
    unfold volts
    rw [hm, records_scale, after_scale, hs.tStable]
  obtain ⟨ins, h1, h2⟩ := Eval.run_rt hsee l h hok
  have := RT.rides_through (c := g.rt.unit) (Eval.isInit_strip hi) e3 ins (by
    intro z hz
    have hz' : z ∈ h.rt.lv.zones := hz
    rw [e1] at hz'
    obtain ⟨y, hy, rfl⟩ := List.mem_map.1 hz'
    obtain ⟨b', q1, q2⟩ := start_levels hb hf hst (Or.inl rfl) hbl
    rw [if_pos rfl] at q2
    obtain ⟨kk, d, k1, k2, k3, k4, _⟩ := (zones_of_block q1 q2).1 y hy
    obtain ⟨a1, a2⟩ := hl kk d _ _ _ k1 k2 k3 k4
    refine ⟨by show (y.tMin : ℝ) ≤ y.tThr; exact_mod_cast a1, ?_⟩
    rw [key, ← vref_volts hs hV, lasts_scale hV] at a2
    rw [h1]
    exact a2) (by
    intro z hz
    have hz' : z ∈ h.rt.hv.zones := hz
    rw [e2] at hz'
    obtain ⟨y, hy, rfl⟩ := List.mem_map.1 hz'
    obtain ⟨b', q1, q2⟩ := start_levels hb hf hst (Or.inr rfl) hbh
    rw [if_neg (by decide +kernel)] at q2
    obtain ⟨kk, d, k1, k2, k3, k4, _⟩ := (zones_of_block q1 q2).1 y hy
    obtain ⟨a1, a2⟩ := hh kk d _ _ _ k1 k2 k3 k4
    refine ⟨by show (y.tMin : ℝ) ≤ y.tThr; exact_mod_cast a1, ?_⟩
    rw [key, ← vref_volts hs hV, lastsHigh_scale hV] at a2
    rw [h1]
    exact a2)
  rw [← h2] at this
  exact this

/-- **C134 (default settings).** A DER whose configuration says nothing about voltage ride-through stays connected through every dip below 0.88 of the rated voltage shorter than 2 s, below 0.7
shorter than 1 s and below 0.5 shorter than 0.5 s, and through every swell above 1.06 shorter than 0.5 s. -/
theorem C134_default_rides_through (hb : construct (template m) file id kw = .ok x) (hf : file id = some c) (hst : start intOk x.setup = .ok v)
    (hp : PlainBlocks file c) (hs : Starts v b g h) (hV : 0 < b.Vbase) (hR : 0 ≤ v.Vrms) (hn1 : c.rt "LVRT" = none) (hn2 : c.rt "HVRT" = none)
    {k : Eval.Cls} {f : Call k → ℝ} (hsee : Sees k g f) (l : List (Call k)) (hok : Ok k g h l)
    (h1 : ¬ RT.Lasts ((88 / 100 : ℝ) * v.Vrms) 2 (volts v b f l)) (h2 : ¬ RT.Lasts ((7 / 10 : ℝ) * v.Vrms) 1 (volts v b f l)) (h3 : ¬ RT.Lasts ((1 / 2 : ℝ) * v.Vrms) (1 / 2) (volts v b f l))
    (h4 : ¬ RT.LastsHigh ((106 / 100 : ℝ) * v.Vrms) (1 / 2) (volts v b f l)) :
    (Eval.run k g h l).rt.connected = true := by
  have hbl : blockFor file c "LVRT" = some [("1", vLevel (88/100) 5 2 true "mandatory_operation"), ("2", vLevel (7/10) (35/10) 1 true "mandatory_operation"),
      ("3", vLevel (1/2) 1 (1/2) false "momentary_cessation")] := by
    unfold blockFor; rw [hn1]; rfl
  have hbh : blockFor file c "HVRT" = some [("1", vLevel (106/100) 1 (1/2) false "mandatory_operation"), ("2", vLevel (112/100) (1/2) (1/2) false "mandatory_operation")] := by
    unfold blockFor; rw [hn2]; rfl
  have h5 : ¬ RT.LastsHigh ((112 / 100 : ℝ) * v.Vrms) (1 / 2) (volts v b f l) := by
    rintro ⟨p, q, r, a, b', e, a1, a2, a3, a4⟩
    have hR' : (0:ℝ) ≤ v.Vrms := by exact_mod_cast hR
    have hle : (106 / 100 : ℝ) * v.Vrms ≤ 112 / 100 * v.Vrms := by nlinarith
    exact h4 ⟨p, q, r, a, b', e, lt_of_le_of_lt hle a1, lt_of_le_of_lt hle a2, fun x hx => hle.trans (a3 x hx), a4⟩
  refine (C134_min_ridethrough_partial hb hf hst hp hs hV hbl hbh hsee l hok ?_ ?_).1
  · intro key d V T M hm hVr hTr hMr
    simp only [List.mem_cons, List.not_mem_nil, or_false, Prod.mk.injEq] at hm
    rcases hm with ⟨_, e⟩ | ⟨_, e⟩ | ⟨_, e⟩ <;> unfold vLevel at e <;> rw [Leaf.level.injEq] at e <;> subst e
    · obtain rfl : V = 88/100 := reads_unique hVr ⟨_, rfl, rfl⟩
      obtain rfl : T = 5 := reads_unique hTr ⟨_, rfl, rfl⟩
      obtain rfl : M = 2 := reads_unique hMr ⟨_, rfl, rfl⟩
      exact ⟨by norm_num, by push_cast; exact h1⟩
    · obtain rfl : V = 7/10 := reads_unique hVr ⟨_, rfl, rfl⟩
      obtain rfl : T = 35/10 := reads_unique hTr ⟨_, rfl, rfl⟩
      obtain rfl : M = 1 := reads_unique hMr ⟨_, rfl, rfl⟩
      exact ⟨by norm_num, by push_cast; exact h2⟩
    · obtain rfl : V = 1/2 := reads_unique hVr ⟨_, rfl, rfl⟩
      obtain rfl : T = 1 := reads_unique hTr ⟨_, rfl, rfl⟩
      obtain rfl : M = 1/2 := reads_unique hMr ⟨_, rfl, rfl⟩
      exact ⟨by norm_num, by push_cast; exact h3⟩
  · intro key d V T M hm hVr hTr hMr
    simp only [List.mem_cons, List.not_mem_nil, or_false, Prod.mk.injEq] at hm
    rcases hm with ⟨_, e⟩ | ⟨_, e⟩ <;> unfold vLevel at e <;> rw [Leaf.level.injEq] at e <;> subst e
    · obtain rfl : V = 106/100 := reads_unique hVr ⟨_, rfl, rfl⟩
      obtain rfl : T = 1 := reads_unique hTr ⟨_, rfl, rfl⟩
      obtain rfl : M = 1/2 := reads_unique hMr ⟨_, rfl, rfl⟩
      exact ⟨by norm_num, by push_cast; exact h4⟩
    · obtain rfl : V = 112/100 := reads_unique hVr ⟨_, rfl, rfl⟩
      obtain rfl : T = 1/2 := reads_unique hTr ⟨_, rfl, rfl⟩
      obtain rfl : M = 1/2 := reads_unique hMr ⟨_, rfl, rfl⟩
      exact ⟨by norm_num, by push_cast; exact h5⟩

end

namespace Shipped
variable {m : Sim.Mt} {id : String} {kw : Args} {x : Built} {intOk : String → Bool} {v : Start} {b : Circuit.Base} {g : SCfg} {h : Hid}

/-- The shipped low-voltage settings (`LVRT_1547cat3`), as the entries that use them see them. -/
theorem cat3_blocks {c : Cfg} (hi : id ∈ ["50", "250", "50_balanced"]) (hf : file id = some c) :
    PlainBlocks file c ∧ blockFor file c "LVRT" = c_LVRT_1547cat3.config ∧ c.rt "HVRT" = none := by
  have hl : blockFor file c "LVRT" = c_LVRT_1547cat3.config ∧ c.rt "HVRT" = none ∧ c.rt "LFRT" = none := by
    simp only [List.mem_cons, List.not_mem_nil, or_false] at hi
    rcases hi with rfl | rfl | rfl <;> cases hf <;> exact ⟨rfl, rfl, rfl⟩
  obtain ⟨h1, h2, h3⟩ := hl
  refine ⟨⟨?_, ?_, ?_⟩, h1, h2⟩
  · intro body hb
    rw [h1] at hb
    have hb : some _ = some body := hb
    rw [Option.some.injEq] at hb
    subst hb
    intro kv hm d hd
    simp only [List.mem_cons, List.not_mem_nil, or_false] at hm
    rcases hm with rfl | rfl | rfl <;> rw [Leaf.level.injEq] at hd <;> subst hd <;> exact ⟨Or.inr ⟨_, rfl, rfl⟩, Or.inr ⟨_, rfl, rfl⟩⟩
  · intro body hb
    have hbl : blockFor file c "HVRT" = some [("1", vLevel (106/100) 1 (1/2) false "mandatory_operation"), ("2", vLevel (112/100) (1/2) (1/2) false "mandatory_operation")] := by
      unfold blockFor; rw [h2]; rfl
    rw [hbl, Option.some.injEq] at hb
    subst hb
    intro kv hm d hd
    simp only [List.mem_cons, List.not_mem_nil, or_false] at hm
    rcases hm with rfl | rfl <;> unfold vLevel at hd <;> rw [Leaf.level.injEq] at hd <;> subst hd <;> exact ⟨Or.inr ⟨_, rfl, rfl⟩, Or.inr ⟨_, rfl, rfl⟩⟩
  · intro body hb kv hm d hd
    have hb' : rtTemplate "LFRT" = ⟨some body, none⟩ := by
      unfold blockFor designated at hb
      rw [h3] at hb
      simpa [rtTemplate] using hb
    simp [rtTemplate] at hb'
    subst hb'
    simp only [List.mem_cons, List.not_mem_nil, or_false] at hm
    rcases hm with rfl | rfl <;> unfold fLevel at hd <;> rw [Leaf.level.injEq] at hd <;> subst hd <;> exact ⟨_, rfl, rfl⟩

/-- **C134 (shipped settings, trip).** The shipped units `50`, `250` and `50_balanced` trip on low voltage iff the voltage was below 0.88 times the rated voltage for more than 5 s, below 0.7 times for more than
3.5 s or below 0.5 times for more than 0.25 s. -/
theorem C134_shipped_lv_trip (hi : id ∈ ["50", "250", "50_balanced"]) (hb : construct (template m) file id kw = .ok x) (hst : start intOk x.setup = .ok v)
    (hs : Starts v b g h) (hV : 0 < b.Vbase) {k : Eval.Cls} {f : Call k → ℝ} (hsee : Sees k g f) (l : List (Call k)) (hok : Ok k g h l) :
    (Eval.run k g h l).rt.lv.trip = true ↔
      ∃ p ∈ [((88 / 100 : ℝ), (5 : ℝ)), (7 / 10, 7 / 2), (1 / 2, 1 / 4)], RT.Exceeds (p.1 * v.Vrms) p.2 (volts v b f l) := by
  obtain ⟨c, hf⟩ : ∃ c, file id = some c := by
    simp only [List.mem_cons, List.not_mem_nil, or_false] at hi
    rcases hi with rfl | rfl | rfl <;> exact ⟨_, rfl⟩
  obtain ⟨hp, hbl, _⟩ := cat3_blocks hi hf
  rw [C130_lv_trip_as_configured hb hf hst hp hs hV hbl hsee l hok]
  unfold volts
  constructor
  · rintro ⟨key, d, V, T, hm, hVr, hTr, he⟩
    simp only [List.mem_cons, List.not_mem_nil, or_false, Prod.mk.injEq] at hm
    rcases hm with ⟨_, e⟩ | ⟨_, e⟩ | ⟨_, e⟩ <;> rw [Leaf.level.injEq] at e <;> subst e
    · obtain rfl : V = 22/25 := reads_unique hVr ⟨_, rfl, rfl⟩
      obtain rfl : T = 5 := reads_unique hTr ⟨_, rfl, rfl⟩
      refine ⟨(88/100, 5), by simp, ?_⟩
      push_cast at he
      norm_num at he ⊢
      exact he
    · obtain rfl : V = 7/10 := reads_unique hVr ⟨_, rfl, rfl⟩
      obtain rfl : T = 7/2 := reads_unique hTr ⟨_, rfl, rfl⟩
      refine ⟨(7/10, 7/2), by simp, ?_⟩
      push_cast at he
      exact he
    · obtain rfl : V = 1/2 := reads_unique hVr ⟨_, rfl, rfl⟩
      obtain rfl : T = 1/4 := reads_unique hTr ⟨_, rfl, rfl⟩
      refine ⟨(1/2, 1/4), by simp, ?_⟩
      push_cast at he
      exact he
  · rintro ⟨p, hm, he⟩
    simp only [List.mem_cons, List.not_mem_nil, or_false] at hm
    rcases hm with rfl | rfl | rfl
    · refine ⟨"1", _, 22/25, 5, by simp only [List.mem_cons]; left; rfl, ⟨_, rfl, rfl⟩, ⟨_, rfl, rfl⟩, ?_⟩
      push_cast
      norm_num at he ⊢
      exact he
    · refine ⟨"2", _, 7/10, 7/2, by simp only [List.mem_cons]; right; left; rfl, ⟨_, rfl, rfl⟩, ⟨_, rfl, rfl⟩, ?_⟩
      push_cast
      exact he
    · refine ⟨"3", _, 1/2, 1/4, by simp only [List.mem_cons]; right; right; left; rfl, ⟨_, rfl, rfl⟩, ⟨_, rfl, rfl⟩, ?_⟩
      push_cast
      exact he

/-- **C134 (shipped settings, cessation).** Their levels `1` and `3`, although declared as momentary-cessation levels, never cause momentary cessation (their trip times come first): while the
low-voltage cessation flag is set, there has been a dip below 0.7 times the rated voltage that lasted 2.5 s. -/
theorem C134_shipped_cessation (hi : id ∈ ["50", "250", "50_balanced"]) (hb : construct (template m) file id kw = .ok x) (hst : start intOk x.setup = .ok v)
    (hs : Starts v b g h) (hV : 0 < b.Vbase) {k : Eval.Cls} {f : Call k → ℝ} (hsee : Sees k g f) (l : List (Call k)) (hok : Ok k g h l)
    (hmc : (Eval.run k g h l).rt.lv.mc = true) : RT.Lasts ((7 / 10 : ℝ) * v.Vrms) (5 / 2) (volts v b f l) := by
  obtain ⟨c, hf⟩ : ∃ c, file id = some c := by
    simp only [List.mem_cons, List.not_mem_nil, or_false] at hi
    rcases hi with rfl | rfl | rfl <;> exact ⟨_, rfl⟩
  obtain ⟨hp, hbl, _⟩ := cat3_blocks hi hf
  obtain ⟨hi', e3, _, _⟩ := C130_starts_fresh hb hf hst hp hs
  obtain ⟨vv, vw, refs, w, e⟩ := hs.rt
  have e1 : h.rt.lv.zones = v.vrt.lv.map zoneR := by rw [e]; rfl
  have hm : (l.map fun c => (c.t, f c * b.Vbase)) = (l.map fun c => (c.t, f c)).map fun x => (x.1, x.2 * b.Vbase) := by simp
  have key : volts v b f l = (RT.after g.tStable (RT.records 0 (l.map fun c => (c.t, f c)))).map fun x => (x.1, x.2 * b.Vbase) := by
    unfold volts
    rw [hm, records_scale, after_scale, hs.tStable]
  obtain ⟨ins, h1, h2⟩ := Eval.run_rt hsee l h hok
  obtain ⟨s1, _⟩ := RT.run_vrt g.rt.unit (RT.strip h.rt) ins
  rw [← h2, h1] at s1
  have s1 : (Eval.run k g h l).rt.lv = RT.lvRun g.tStable g.Vref h.rt.lv (RT.records h.rt.rtLock (l.map fun c => (c.t, f c))) := by
    have := s1; rw [if_pos (show (RT.strip h.rt).lvEnable = true from e3)] at this; exact this
  by_contra hno
  have : (Eval.run k g h l).rt.lv.mc = false := by
    rw [s1, hi'.rl]
    refine RT.lv_no_mc hi'.lvz hi'.lvm _ (RT.records_increasing 0 _) (RT.records_gt 0 _) ?_
    intro z hz _ hmt
    rw [e1] at hz
    obtain ⟨y, hy, rfl⟩ := List.mem_map.1 hz
    obtain ⟨b', q1, q2⟩ := start_levels hb hf hst (Or.inl rfl) hbl
    rw [if_pos rfl] at q2
    obtain ⟨kk, d, k1, k2, k3, k4, _⟩ := (zones_of_block q1 q2).1 y hy
    have hmt : (y.tMin : ℝ) ≤ y.tThr := hmt
    simp only [List.mem_cons, List.not_mem_nil, or_false, Prod.mk.injEq] at k1
    rcases k1 with ⟨_, e⟩ | ⟨_, e⟩ | ⟨_, e⟩ <;> rw [Leaf.level.injEq] at e <;> subst e
    · have a1 : y.tMin = 20 := reads_unique k4 ⟨_, rfl, rfl⟩
      have a2 : y.tThr = 5 := reads_unique k3 ⟨_, rfl, rfl⟩
      rw [a1, a2] at hmt
      norm_num at hmt
    · have a1 : y.tMin = 5/2 := reads_unique k4 ⟨_, rfl, rfl⟩
      have a2 : y.Vthr = 7/10 := reads_unique k2 ⟨_, rfl, rfl⟩
      intro he
      refine hno ?_
      rw [key]
      have he : RT.Lasts ((y.Vthr : ℝ) * g.Vref) y.tMin (RT.after g.tStable (RT.records 0 (l.map fun c => (c.t, f c)))) := he
      rw [← lasts_scale hV, vref_volts hs hV, a1, a2] at he
      push_cast at he
      exact he
    · have a1 : y.tMin = 1 := reads_unique k4 ⟨_, rfl, rfl⟩
      have a2 : y.tThr = 1/4 := reads_unique k3 ⟨_, rfl, rfl⟩
      rw [a1, a2] at hmt
      norm_num at hmt
  rw [this] at hmc
  simp at hmc

/-- The shipped entries of the classes they name start, with these settings. -/
def shippedStart (m : Sim.Mt) (id : String) : Except Err Start := do
  let x ← construct (template m) file id (kwOf [("gridModel", .grid 1)])
  start digit x.setup

theorem C134_shipped_start :
    (shippedStart .three "50").map (fun v => (v.vrt.disc, v.vrt.reco, v.vrt.restore, v.meas, v.tStable, v.Vrms)) = .ok (1/100, 1/10, false, .filtered, 1/2, 177) ∧
    (shippedStart .three "250").map (fun v => (v.vrt.disc, v.vrt.reco, v.vrt.restore, v.meas, v.tStable, v.Vrms)) = .ok (1/100, 175/100, false, .filtered, 1/2, 230) ∧
    (shippedStart .balanced "50_balanced").map (fun v => (v.vrt.disc, v.vrt.reco, v.vrt.restore, v.meas, v.tStable, v.Vrms)) = .ok (1/100, 175/100, false, .minimum, 1/2, 177) := by
  refine ⟨?_, ?_, ?_⟩ <;> decide +kernel

/-- **C134, why not in full.** The shipped unit `50`: a dip to 150 V (0.85 of the rated 177 V), seen at 1 s, 6.5 s, 7 s, 8 s and 9 s, lasts 8 s; the only level it violates has a minimum ride-through
time of 20 s, the others are never violated — and the unit has tripped and is disconnected. -/
theorem C134_shipped_trips_early (y : Ode.ThreePhase.V → ℝ) (hy : y .Vrms = 3 / 10) :
    ∃ x c v g h, construct (template .three) file "50" (kwOf [("gridModel", .grid 1)]) = .ok x ∧ file "50" = some c ∧ start digit x.setup = .ok v ∧
      PlainBlocks file c ∧ Starts v ⟨500, 50000, 377⟩ g h ∧ Sees Eval.three g (fun c => c.y .Vrms) ∧
      Ok Eval.three g h ([1, 13 / 2, 7, 8, 9].map fun t => ⟨false, y, t, 1, 1, 1, 377⟩) ∧
      (∀ key d V M, (key, Leaf.level d) ∈ (blockFor file c "LVRT").getD [] → Reads d "V_threshold" V → Reads d "t_min_ridethrough" M →
        ¬ RT.Lasts ((V : ℝ) * v.Vrms) M (volts v ⟨500, 50000, 377⟩ (fun c : Call Eval.three => c.y .Vrms) ([1, 13 / 2, 7, 8, 9].map fun t => ⟨false, y, t, 1, 1, 1, 377⟩))) ∧
      (Eval.run Eval.three g h ([1, 13 / 2, 7, 8, 9].map fun t => ⟨false, y, t, 1, 1, 1, 377⟩)).rt.connected = false := by
  have hex := C134_shipped_start.1
  obtain ⟨x, hx, v, hv, hm⟩ : ∃ x, construct (template .three) file "50" (kwOf [("gridModel", .grid 1)]) = .ok x ∧ ∃ v, start digit x.setup = .ok v ∧
      (fun v : Start => (v.vrt.disc, v.vrt.reco, v.vrt.restore, v.meas, v.tStable, v.Vrms)) v = (1/100, 1/10, false, .filtered, 1/2, 177) := by
    unfold shippedStart at hex
    cases hx : construct (template .three) file "50" (kwOf [("gridModel", .grid 1)]) with
    | error e => rw [hx] at hex; simp [bind, Except.bind, Except.map] at hex
    | ok x =>
      rw [hx] at hex
      cases hv : start digit x.setup with
      | error e => simp [bind, Except.bind, Except.map, hv] at hex
      | ok v =>
        simp only [bind, Except.bind, Except.map, hv, Except.ok.injEq] at hex
        exact ⟨x, rfl, v, hv, hex⟩
  simp only [Prod.mk.injEq] at hm
  obtain ⟨m2, _, m4, m5, m6, m7⟩ := hm
  obtain ⟨c, hc⟩ : ∃ c, file "50" = some c := ⟨_, rfl⟩
  obtain ⟨hp, hbl, _⟩ := cat3_blocks (id := "50") (by simp) hc
  let b : Circuit.Base := ⟨500, 50000, 377⟩
  let g : SCfg := { Eval.exG Ode.exPar true with
    tStable := v.tStable, Vref := (v.Vrms : ℝ) * Real.sqrt 2 / b.Vbase / Real.sqrt 2, discDelay := v.vrt.disc, recoDelay := v.vrt.reco, restoreVdc := v.vrt.restore,
    meas := v.meas }
  let h : Hid := { Eval.exH (Eval.exG Ode.exPar true) (Eval.exEv (Eval.exG Ode.exPar true)) with rt := v.rt false false Eval.exRT.refs Eval.exRT.w }
  have hs : Starts v b g h := ⟨⟨_, _, _, _, rfl⟩, rfl, rfl, rfl, rfl, rfl, rfl⟩
  have hsee : Sees Eval.three g (fun c => c.y .Vrms) := Eval.C96_sees_filtered m5
  have hno : ∀ o ∈ Eval.exOps, o.isRemoval = false := by
    intro o ho
    simp only [Eval.exOps, List.mem_cons, List.not_mem_nil, or_false] at ho
    rcases ho with rfl | rfl | rfl <;> rfl
  have good0 := Eval.ex_good Eval.three Ode.exPar true (Or.inl rfl) Eval.exOps hno
  have good : Eval.Good Eval.three g h :=
    { override := good0.override, msg := good0.msg, ev := good0.ev, dc := good0.dc, lf := rfl, ramp := m4
      meas := by show v.meas ≠ .invalid; rw [m5]; exact Eval.Meas.noConfusion, filt := fun _ => Or.inr (fun y => by simp [Eval.three]) }
  let mk : ℝ → Call Eval.three := fun t => ⟨false, y, t, 1, 1, 1, 377⟩
  have hok := Eval.C99_no_exception good (([1, 13 / 2, 7, 8, 9] : List ℝ).map mk)
  have hvolt : ∀ l : List ℝ, (∀ t ∈ l, 1 / 2 < t) → l.Pairwise (· < ·) → volts v b (fun c : Call Eval.three => c.y .Vrms) (l.map mk) = l.map fun t => (t, 150) := by
    intro l hl hlt
    unfold volts
    have e : (l.map mk).map (fun c => (c.t, c.y .Vrms * b.Vbase)) = l.map fun t => (t, (150:ℝ)) := by
      simp only [List.map_map]
      refine List.map_congr_left fun t _ => ?_
      simp only [Function.comp, mk, hy, b]
      norm_num
    rw [e, RT.records_eq 0]
    · unfold RT.after
      rw [List.filter_eq_self]
      intro z hz
      obtain ⟨t, ht, rfl⟩ := List.mem_map.1 hz
      have := hl t ht
      simp only [m6, decide_eq_true_eq]
      push_cast
      exact this
    · unfold RT.Increasing; rw [List.pairwise_map]; exact hlt
    · intro z hz
      obtain ⟨t, ht, rfl⟩ := List.mem_map.1 hz
      have := hl t ht
      simp only
      linarith
  refine ⟨x, c, v, g, h, hx, hc, hv, hp, hs, hsee, hok, ?_, ?_⟩
  · intro key d V M hmem hVr hMr
    rw [hvolt _ (by norm_num) (by norm_num [List.pairwise_cons]), m7]
    rw [hbl] at hmem
    have hmem : (key, Leaf.level d) ∈ [_, _, _] := hmem
    simp only [List.mem_cons, List.not_mem_nil, or_false, Prod.mk.injEq] at hmem
    rintro ⟨p, q, r, a, b', e, a1, a2, _, a4⟩
    have ha : a ∈ ([1, 13 / 2, 7, 8, 9] : List ℝ).map fun t => (t, (150:ℝ)) := by rw [e]; simp
    have hb' : b' ∈ ([1, 13 / 2, 7, 8, 9] : List ℝ).map fun t => (t, (150:ℝ)) := by rw [e]; simp
    obtain ⟨t1, ht1, rfl⟩ := List.mem_map.1 ha
    obtain ⟨t2, ht2, rfl⟩ := List.mem_map.1 hb'
    rcases hmem with ⟨_, e⟩ | ⟨_, e⟩ | ⟨_, e⟩ <;> rw [Leaf.level.injEq] at e <;> subst e
    · obtain rfl : M = 20 := reads_unique hMr ⟨_, rfl, rfl⟩
      have b1 : (1:ℝ) ≤ t1 := by
        simp only [List.mem_cons, List.not_mem_nil, or_false] at ht1
        rcases ht1 with rfl | rfl | rfl | rfl | rfl <;> norm_num
      have b2 : t2 ≤ (9:ℝ) := by
        simp only [List.mem_cons, List.not_mem_nil, or_false] at ht2
        rcases ht2 with rfl | rfl | rfl | rfl | rfl <;> norm_num
      push_cast at a4
      linarith
    · obtain rfl : V = 7/10 := reads_unique hVr ⟨_, rfl, rfl⟩
      push_cast at a1
      norm_num at a1
    · obtain rfl : V = 1/2 := reads_unique hVr ⟨_, rfl, rfl⟩
      push_cast at a1
      norm_num at a1
  · obtain ⟨hi, en, _, elf⟩ := C130_starts_fresh hx hc hv hp hs
    have hok' : Ok Eval.three g h (([1, 13 / 2].map mk) ++ mk 7 :: ([mk 8] ++ [mk 9])) := hok
    have hdd : g.discDelay = 1 / 100 := by show (v.vrt.disc : ℝ) = _; rw [m2]; norm_num
    have htrip : ∃ z ∈ h.rt.lv.zones, RT.Exceeds (z.Vthr * g.Vref) z.tThr (RT.after g.tStable (RT.records 0 (([1, 13 / 2].map mk).map fun c => (c.t, c.y .Vrms)))) := by
      rw [← Eval.C96_lv_trip_iff hsee hi en _ ((Eval.ok_append _ _ _).1 hok').1,
        C134_shipped_lv_trip (id := "50") (by simp) hx hv hs (by norm_num [b]) hsee _ ((Eval.ok_append _ _ _).1 hok').1]
      refine ⟨(88/100, 5), by simp, ?_⟩
      rw [hvolt _ (by norm_num) (by norm_num [List.pairwise_cons]), m7]
      exact ⟨[], [], [], (1, 150), (13/2, 150), rfl, by norm_num, by norm_num, by simp, by norm_num⟩
    refine (Eval.C96_trip_cuts_output hsee hi elf (by rw [hdd]; norm_num) _ [mk 8] (mk 7) (mk 8) (mk 9) hok' (.inl ⟨en, htrip⟩) ?_ ?_ (by simp) ?_).1
    · intro z hz
      simp only [List.map_cons, List.map_nil, List.mem_cons, List.not_mem_nil, or_false] at hz
      rcases hz with rfl | rfl <;> norm_num [mk]
    · norm_num [mk]
    · rw [hdd]; norm_num [mk]

end Shipped
end Config
end PvDer
