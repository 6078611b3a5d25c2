import Verif.Props.Timing
import Verif.Props.Reconnection

/-!
# Property C156: how soon the DER is back after a disturbance

As soon as the voltage is on the healthy side of all levels the cessation flag is called off (unless the DER has tripped), and then the DER is connected again at the latest
`output_restore_delay + 2δ` after the recovery, if the evaluations are at most `δ` apart.
-/

set_option linter.unusedSectionVars false

namespace PvDer
namespace RT

variable {K W : Type} [Field K] [LinearOrder K] [IsStrictOrderedRing K]

/-- While the cessation flag is set and nothing has tripped, the timer of some zone is running (and no timer is negative). -/
def Timed (s : VRT K) : Prop := (∀ z ∈ s.zones, 0 ≤ z.tStart) ∧ (s.mc = true → s.trip = true ∨ ∃ z ∈ s.zones, 0 < z.tStart)

theorem loop_trip_mono (Vref V t : K) (zs : List (Zone K)) (mc : Bool) : (loopZones (lvZone Vref V t) zs true mc).2.1 = true := by
  rw [loop_trip]
  rfl

theorem lvZone_timer (Vref V t : K) (z : Zone K) (trip mc : Bool) (ht : 0 < t) (hz : 0 ≤ z.tStart) :
    0 ≤ (lvZone Vref V t z trip mc).1.tStart ∧
    ((lvZone Vref V t z trip mc).2.2 = true → (lvZone Vref V t z trip mc).2.1 = true ∨ 0 < (lvZone Vref V t z trip mc).1.tStart ∨ (mc = true ∧ ¬ 0 < z.tStart)) := by
  unfold lvZone
  by_cases h1 : V < z.Vthr * Vref ∧ z.breach = false
  · rw [if_pos h1]
    by_cases h2 : z.tStart = 0
    · rw [if_pos h2]
      exact ⟨ht.le, fun _ => Or.inr (Or.inl ht)⟩
    · rw [if_neg h2]
      have hp : 0 < z.tStart := lt_of_le_of_ne hz (Ne.symm h2)
      split_ifs
      · exact ⟨hz, fun _ => Or.inr (Or.inl hp)⟩
      · exact ⟨hz, fun _ => Or.inr (Or.inl hp)⟩
      · exact ⟨hz, fun _ => Or.inr (Or.inl hp)⟩
      · exact ⟨le_rfl, fun _ => Or.inl rfl⟩
      · exact ⟨hz, fun _ => Or.inr (Or.inl hp)⟩
  · rw [if_neg h1]
    split_ifs with h2 h3
    · exact ⟨le_rfl, fun h => absurd h (by simp)⟩
    · exact ⟨hz, fun h => Or.inr (Or.inr ⟨h, h3⟩)⟩
    · refine ⟨hz, fun h => ?_⟩
      by_cases hp : 0 < z.tStart
      · exact Or.inr (Or.inl hp)
      · exact Or.inr (Or.inr ⟨h, hp⟩)

theorem loop_timer (Vref V t : K) (ht : 0 < t) (zs : List (Zone K)) (trip mc : Bool) (hz : ∀ z ∈ zs, 0 ≤ z.tStart) :
    (∀ z ∈ (loopZones (lvZone Vref V t) zs trip mc).1, 0 ≤ z.tStart) ∧
    ((loopZones (lvZone Vref V t) zs trip mc).2.2 = true → (loopZones (lvZone Vref V t) zs trip mc).2.1 = true ∨
      (∃ z ∈ (loopZones (lvZone Vref V t) zs trip mc).1, 0 < z.tStart) ∨ (mc = true ∧ ∀ z ∈ zs, ¬ 0 < z.tStart)) := by
  induction zs generalizing trip mc with
  | nil => exact ⟨by simp [loopZones], fun h => Or.inr (Or.inr ⟨h, by simp⟩)⟩
  | cons z zs ih =>
    obtain ⟨a1, a2⟩ := lvZone_timer Vref V t z trip mc ht (hz z (by simp))
    obtain ⟨b1, b2⟩ := ih (lvZone Vref V t z trip mc).2.1 (lvZone Vref V t z trip mc).2.2 (fun y hy => hz y (by simp [hy]))
    simp only [loopZones]
    refine ⟨?_, fun h => ?_⟩
    · intro y hy
      rcases List.mem_cons.1 hy with rfl | hy
      · exact a1
      · exact b1 y hy
    · rcases b2 h with h1 | ⟨y, hy, hp⟩ | ⟨h1, h2⟩
      · exact Or.inl h1
      · exact Or.inr (Or.inl ⟨y, by simp [hy], hp⟩)
      · rcases a2 h1 with h3 | h3 | ⟨h3, h4⟩
        · left
          rw [h3]
          exact loop_trip_mono _ _ _ _ _
        · exact Or.inr (Or.inl ⟨_, by simp, h3⟩)
        · refine Or.inr (Or.inr ⟨h3, ?_⟩)
          intro y hy
          rcases List.mem_cons.1 hy with rfl | hy
          · exact h4
          · exact h2 y hy

theorem timed_lvrt {tStable Vref V t : K} {s : VRT K} (hs : Timed s) (ht : 0 < t) : Timed (lvrt tStable Vref V t s) := by
  unfold lvrt
  split_ifs
  · obtain ⟨a, b⟩ := loop_timer Vref V t ht s.zones s.trip s.mc hs.1
    refine ⟨a, fun h => ?_⟩
    rcases b h with h1 | h1 | ⟨h1, h2⟩
    · exact Or.inl h1
    · exact Or.inr h1
    · rcases hs.2 h1 with h3 | ⟨z, hz, hp⟩
      · left
        show (loopZones (lvZone Vref V t) s.zones s.trip s.mc).2.1 = true
        rw [h3]
        exact loop_trip_mono _ _ _ _ _
      · exact absurd hp (h2 z hz)
  · exact hs

theorem timed_lvRun {tStable Vref : K} {s : VRT K} (hs : Timed s) (l : List (K × K)) (hpos : ∀ x ∈ l, 0 < x.1) : Timed (lvRun tStable Vref s l) := by
  induction l using List.reverseRecOn with
  | nil => exact hs
  | append_singleton l x ih =>
    rw [lvRun_snoc]
    exact timed_lvrt (ih fun y hy => hpos y (by simp [hy])) (hpos x (by simp))

/-- An evaluation on the healthy side of all levels: whether the flag is on afterwards. -/
theorem loop_healthy_mc (Vref V t : K) (zs : List (Zone K)) (trip mc : Bool) (hz : ∀ z ∈ zs, 0 ≤ z.tStart) (hV : ∀ z ∈ zs, z.Vthr * Vref < V) :
    (loopZones (lvZone Vref V t) zs trip mc).2.1 = trip ∧ ((loopZones (lvZone Vref V t) zs trip mc).2.2 = true → mc = true ∧ ∀ z ∈ zs, ¬ 0 < z.tStart) := by
  induction zs generalizing mc with
  | nil => exact ⟨rfl, fun h => ⟨h, by simp⟩⟩
  | cons z zs ih =>
    have hv := hV z (by simp)
    have e : lvZone Vref V t z trip mc = (if z.tStart > 0 then ({ z with tStart := 0 }, trip, false) else (z, trip, mc)) := by
      unfold lvZone
      rw [if_neg (fun h => absurd h.1 (not_lt.2 hv.le)), if_pos hv]
    simp only [loopZones]
    rw [e]
    by_cases h1 : z.tStart > 0
    · rw [if_pos h1]
      obtain ⟨a, b⟩ := ih false (fun y hy => hz y (by simp [hy])) (fun y hy => hV y (by simp [hy]))
      exact ⟨a, fun h => absurd (b h).1 (by simp)⟩
    · rw [if_neg h1]
      obtain ⟨a, b⟩ := ih mc (fun y hy => hz y (by simp [hy])) (fun y hy => hV y (by simp [hy]))
      refine ⟨a, fun h => ⟨(b h).1, ?_⟩⟩
      intro y hy
      rcases List.mem_cons.1 hy with rfl | hy
      · exact h1
      · exact (b h).2 y hy

/-- The last sample looked at is on the healthy side of all levels and nothing has tripped: the flag is off. -/
theorem lv_called_off {tStable Vref : K} {s : VRT K} (hs : Timed s) (l : List (K × K)) (x : K × K) (hpos : ∀ y ∈ l ++ [x], 0 < y.1) (ht : tStable < x.1)
    (hV : ∀ z ∈ s.zones, z.Vthr * Vref < x.2) (hn : (lvRun tStable Vref s (l ++ [x])).trip = false) : (lvRun tStable Vref s (l ++ [x])).mc = false := by
  have hT := timed_lvRun (tStable := tStable) (Vref := Vref) hs l (fun y hy => hpos y (by simp [hy]))
  have hV' : ∀ z ∈ (lvRun tStable Vref s l).zones, z.Vthr * Vref < x.2 := by
    intro z hz
    rw [lvRun_zones] at hz
    obtain ⟨y, hy, rfl⟩ := List.mem_map.1 hz
    rw [(zRun_cfg tStable Vref y l).1]
    exact hV y hy
  rw [lvRun_snoc] at hn ⊢
  generalize lvRun tStable Vref s l = r at hT hV' hn ⊢
  unfold lvrt at hn ⊢
  rw [if_pos ht] at hn ⊢
  obtain ⟨a, b⟩ := loop_healthy_mc Vref x.2 x.1 r.zones r.trip r.mc hT.1 hV'
  by_contra hc
  rw [Bool.not_eq_false] at hc
  obtain ⟨h1, h2⟩ := b hc
  rcases hT.2 h1 with h3 | ⟨z, hz, hp⟩
  · have : (loopZones (lvZone Vref x.2 x.1) r.zones r.trip r.mc).2.1 = false := hn
    rw [a, h3] at this
    simp at this
  · exact h2 z hz hp

theorem timed_init {s : VRT K} (hz : ∀ z ∈ s.zones, z.fresh) (hm : s.mc = false) : Timed s := by
  refine ⟨fun z h => (hz z h).1.ge, fun h => ?_⟩
  rw [hm] at h
  exact absurd h (by simp)

theorem hv_called_off {tStable Vref : K} {s : VRT K} (hz : ∀ z ∈ s.zones, z.fresh) (hm : s.mc = false) (l : List (K × K)) (x : K × K) (hpos : ∀ y ∈ l ++ [x], 0 < y.1) (ht : tStable < x.1)
    (hV : ∀ z ∈ s.zones, x.2 < z.Vthr * Vref) (hn : (hvRun tStable Vref s (l ++ [x])).trip = false) : (hvRun tStable Vref s (l ++ [x])).mc = false := by
  rw [hvRun_neg] at hn ⊢
  have e : negH (l ++ [x]) = negH l ++ [(x.1, -x.2)] := by simp [negH]
  rw [e] at hn ⊢
  refine lv_called_off (s := s.neg) (timed_init ?_ hm) (negH l) (x.1, -x.2) ?_ ht ?_ hn
  · intro z hz'
    obtain ⟨y, hy, rfl⟩ := List.mem_map.1 hz'
    exact hz y hy
  · intro y hy
    rw [← e] at hy
    obtain ⟨w, hw, rfl⟩ := List.mem_map.1 hy
    exact hpos w hw
  · intro z hz'
    obtain ⟨y, hy, rfl⟩ := List.mem_map.1 hz'
    have := hV y hy
    show -y.Vthr * Vref < -x.2
    linarith

theorem records_reach {lock : K} {h : List (K × K)} {x : K × K} (hx : x ∈ h) (hl : lock < x.1) : ∃ y ∈ records lock h, x.1 ≤ y.1 := by
  induction h generalizing lock with
  | nil => simp at hx
  | cons y ys ih =>
    unfold records
    by_cases hy : y.1 > lock
    · rw [if_pos hy]
      rcases List.mem_cons.1 hx with rfl | hx
      · exact ⟨x, by simp, le_rfl⟩
      · by_cases h2 : y.1 < x.1
        · obtain ⟨w, hw, hw'⟩ := ih hx h2
          exact ⟨w, by simp [hw], hw'⟩
        · exact ⟨y, by simp, not_lt.1 h2⟩
    · rw [if_neg hy]
      rcases List.mem_cons.1 hx with rfl | hx
      · exact absurd hl hy
      · exact ih hx hl

theorem mem_records {lock : K} {h : List (K × K)} {x : K × K} (hx : x ∈ records lock h) : x ∈ h := by
  induction h generalizing lock with
  | nil => exact hx
  | cons y ys ih =>
    unfold records at hx
    split_ifs at hx
    · rcases List.mem_cons.1 hx with rfl | hx
      · exact List.mem_cons_self
      · exact List.mem_cons_of_mem _ (ih hx)
    · exact List.mem_cons_of_mem _ (ih hx)

/-- C156: every evaluation after time `b` sees a voltage on the healthy side of all levels, at least one has been made, and nothing has tripped: neither flag is set. -/
theorem C156_flags_called_off {c : Cfg K W} {s : St K W} (hi : IsInit s) (hlf : s.lfEnable = false) (h : List (Inp K)) {b : K} (hb : 0 ≤ b) (hS : c.tStable ≤ b) (hr : ∃ i ∈ h, b < i.t)
    (hV : ∀ i ∈ h, b < i.t → (∀ z ∈ s.lv.zones, z.Vthr * c.Vref < i.V) ∧ (∀ z ∈ s.hv.zones, i.V < z.Vthr * c.Vref)) (hn : (run c s h).trip = false) : ¬ Flagged c s h := by
  obtain ⟨f1, f2⟩ := der_flags (c := c) hi hlf h
  obtain ⟨r1, r2, -⟩ := run_vrt c s h
  rw [hi.rl] at r1 r2
  rw [f1, Bool.or_eq_false_iff] at hn
  obtain ⟨i, hih, hit⟩ := hr
  obtain ⟨x0, hx0, hle⟩ := records_reach (lock := (0 : K)) (x := (i.t, i.V)) (h := samples h) (List.mem_map_of_mem (f := fun i : Inp K => (i.t, i.V)) hih) (lt_of_le_of_lt hb hit)
  have hinc := records_increasing 0 (samples h)
  have hpos := records_gt 0 (samples h)
  have hmem : ∀ x ∈ records 0 (samples h), x ∈ samples h := fun x hx => mem_records hx
  generalize records 0 (samples h) = L at r1 r2 hx0 hinc hpos hmem
  rcases L.eq_nil_or_concat with rfl | ⟨l, x, rfl⟩
  · simp at hx0
  rw [List.concat_eq_append] at r1 r2 hx0 hinc hpos hmem
  have hxb : b < x.1 := by
    rcases List.mem_append.1 hx0 with h0 | h0
    · unfold Increasing at hinc
      rw [List.pairwise_append] at hinc
      have := hinc.2.2 x0 h0 x (by simp)
      exact lt_trans (lt_of_lt_of_le hit hle) this
    · rw [List.mem_singleton] at h0
      rw [← h0]
      exact lt_of_lt_of_le hit hle
  obtain ⟨j, hj, hjx⟩ := List.mem_map.1 (hmem x (by simp))
  obtain ⟨v1, v2⟩ := hV j hj (by rw [← hjx] at hxb; exact hxb)
  have ejV : j.V = x.2 := by rw [← hjx]
  rw [ejV] at v1 v2
  have m1 : (run c s h).lv.mc = false := by
    rw [r1] at hn ⊢
    by_cases he : s.lvEnable = true
    · rw [if_pos he] at hn ⊢
      exact lv_called_off (timed_init hi.lvz hi.lvm) l x hpos (lt_of_le_of_lt hS hxb) v1 hn.1
    · rw [if_neg he]
      exact hi.lvm
  have m2 : (run c s h).hv.mc = false := by
    rw [r2] at hn ⊢
    by_cases he : s.hvEnable = true
    · rw [if_pos he] at hn ⊢
      exact hv_called_off hi.hvz hi.hvm l x hpos (lt_of_le_of_lt hS hxb) v2 hn.2
    · rw [if_neg he]
      exact hi.hvm
  unfold Flagged
  rw [f1, f2, m1, m2, hn.1, hn.2]
  simp

theorem connLock_lt {c : Cfg K W} {s : St K W} (hi : IsInit s) (hlf : s.lfEnable = false) (h : List (Inp K)) {τ : K} (hpos : 0 < τ) (hlate : ∀ x ∈ h, x.t < τ) : (run c s h).connLock < τ := by
  induction h using List.reverseRecOn with
  | nil => show s.connLock < τ; rw [hi.cl]; exact hpos
  | append_singleton h x ih =>
    have := ih (fun y hy => hlate y (by simp [hy]))
    rw [run_snoc]
    have he := (eval_conn c (run c s h) x (run_basic hi hlf _).1).1
    have : (eval c (run c s h) x).1.connLock = max _ _ := (congrArg Conn.lock he).trans (connStep_lock _ _ _ _ _ _)
    rw [this]
    exact max_lt (by assumption) (hlate x (by simp))

/-- C156: evaluations at most `δ` apart; after time `b` the voltage is healthy; then a DER that has not tripped is connected once the evaluations have gone beyond `b + δ +` restore delay. -/
theorem C156_reconnects_in_time {c : Cfg K W} {s : St K W} (hi : IsInit s) (hlf : s.lfEnable = false) (hrd : 0 ≤ c.recoDelay) (h : List (Inp K)) {b δ : K} (hδ : 0 ≤ δ) (hf : Fine δ 0 (h.map Inp.t)) (hb : 0 ≤ b)
    (hS : c.tStable ≤ b) (hV : ∀ i ∈ h, b < i.t → (∀ z ∈ s.lv.zones, z.Vthr * c.Vref < i.V) ∧ (∀ z ∈ s.hv.zones, i.V < z.Vthr * c.Vref)) (hn : (run c s h).trip = false)
    (hr : ∃ i ∈ h, b + δ + c.recoDelay < i.t) : (run c s h).connected = true := by
  obtain ⟨i, hih, hit⟩ := hr
  obtain ⟨p, j, q, rfl, hp, hj⟩ := Eval.split_first Inp.t b h ⟨i, hih, by linarith⟩
  have hnext : j.t ≤ b + δ := by
    rw [List.map_append, List.map_cons] at hf
    refine Eval.fine_next hf hb ?_
    intro x hx
    obtain ⟨y, hy, rfl⟩ := List.mem_map.1 hx
    exact hp y hy
  have hq : i ∈ q := by
    rcases List.mem_append.1 hih with hc | hc
    · exact absurd (hp i hc) (by linarith)
    · rcases List.mem_cons.1 hc with rfl | hc
      · linarith
      · exact hc
  refine C32_recovered_reconnects hi hlf hrd p j q (connLock_lt hi hlf p (by linarith) (fun x hx => lt_of_le_of_lt (hp x hx) hj)) ?_ i hq (by linarith)
  intro q1 q2 e
  subst e
  refine C156_flags_called_off hi hlf _ hb hS ⟨j, by simp, hj⟩ (fun x hx => hV x ?_) ?_
  · simp only [List.mem_append, List.mem_cons] at hx ⊢
    tauto
  · by_contra hc
    rw [Bool.not_eq_false] at hc
    have := C18_trip_latched hi (p ++ j :: q1) q2 hc
    have e : p ++ j :: (q1 ++ q2) = (p ++ j :: q1) ++ q2 := by simp
    rw [e, this] at hn
    simp at hn

/-- C156, a concrete case: ceased at 2 s because of a dip, evaluated at most 1.5 s apart, healthy after 2 s, restore delay 2 s: back at 6 s. -/
theorem C156_example : (run exCfg exSt (exDip.take 3)).connected = false ∧ (run exCfg exSt (exDip ++ [exInp 6 1])).connected = true := by
  refine ⟨by decide +kernel, C156_reconnects_in_time (b := 2) (δ := 3 / 2) exSt_init rfl (by decide +kernel) _ (by norm_num) ?_ (by norm_num) (by decide +kernel) (by decide +kernel) (by decide +kernel)
    ⟨exInp 6 1, by simp, by decide +kernel⟩⟩
  simp only [exDip, exInp, List.cons_append, List.nil_append, List.map_cons, List.map_nil, Fine]
  norm_num

/-- C156: a voltage that comes back exactly to the level, not beyond it, is not counted as healthy: with a single level 0.5 the flag is never called off and the DER does not come back. -/
theorem C156_exactly_at_the_level :
    let s : St ℚ Unit := { exSt with lv := ⟨[⟨1/2, 1, 1/10, .cessation, 0, false⟩], false, false⟩ }
    let l := [exInp 1 (2/5), exInp (3/2) (2/5), exInp 2 (2/5), exInp (5/2) (1/2), exInp 4 (1/2), exInp 100 (1/2)]
    (run exCfg s l).connected = false ∧ (run exCfg s l).trip = false ∧ (run exCfg s (l ++ [exInp 101 (51/100), exInp 104 (51/100)])).connected = true := by
  decide +kernel

end RT

namespace Eval
open Complex Phasor Ode

variable {k : Cls} {g : SCfg} {h : Hid} {f : Call k → ℝ}

/-- C156 for the evaluations of a DER: after time `b` every evaluation sees a voltage on the healthy side of all levels.  Once the evaluations have gone beyond `b + δ +` restore delay, so at the
latest at `b + 2δ +` restore delay, the DER is connected, or it has tripped. -/
theorem C156_back_in_time (hf : Sees k g f) (hi : RT.IsInit h.rt) (hlf : h.rt.lfEnable = false) (hrd : 0 ≤ g.recoDelay) (l : List (Call k)) (hok : Ok k g h l) {b δ : ℝ} (hδ : 0 ≤ δ)
    (hl : FineCalls δ l) (hb : 0 ≤ b) (hS : g.tStable ≤ b) (hV : ∀ c ∈ l, b < c.t → (∀ z ∈ h.rt.lv.zones, z.Vthr * g.Vref < f c) ∧ (∀ z ∈ h.rt.hv.zones, f c < z.Vthr * g.Vref))
    (hr : ∃ c ∈ l, b + δ + g.recoDelay < c.t) : (run k g h l).rt.connected = true ∨ (run k g h l).rt.trip = true := by
  obtain ⟨ins, h1, h2⟩ := run_rt hf l h hok
  by_cases ht : (run k g h l).rt.trip = true
  · exact Or.inr ht
  left
  rw [Bool.not_eq_true] at ht
  have ht' : (RT.run g.rt.unit (RT.strip h.rt) ins).trip = false := by rw [← h2]; exact ht
  have key : ∀ i ∈ ins, ∃ c ∈ l, c.t = i.t ∧ f c = i.V := by
    intro i hii
    have hm : (i.t, i.V) ∈ RT.samples ins := List.mem_map_of_mem (f := fun i : RT.Inp ℝ => (i.t, i.V)) hii
    rw [h1] at hm
    obtain ⟨c, hc, he⟩ := List.mem_map.1 hm
    simp only [Prod.mk.injEq] at he
    exact ⟨c, hc, he.1, he.2⟩
  have hfine : RT.Fine δ 0 (ins.map RT.Inp.t) := by
    have e : ins.map RT.Inp.t = (RT.samples ins).map (·.1) := by unfold RT.samples; rw [List.map_map]; rfl
    rw [e, h1]
    exact fine_samples hl
  have := RT.C156_reconnects_in_time (c := g.rt.unit) (isInit_strip hi) hlf hrd ins hδ hfine hb hS (by
    intro i hii hit
    obtain ⟨c, hc, e1, e2⟩ := key i hii
    rw [← e2]
    exact hV c hc (by rw [e1]; exact hit)) ht' (by
    obtain ⟨c, hc, hct⟩ := hr
    have hm : (c.t, f c) ∈ RT.samples ins := by rw [h1]; exact List.mem_map_of_mem (f := fun c : Call k => (c.t, f c)) hc
    obtain ⟨i, hii, he⟩ := List.mem_map.1 hm
    simp only [Prod.mk.injEq] at he
    exact ⟨i, hii, by rw [he.1]; exact hct⟩)
  have h3 : (RT.strip (run k g h l).rt).connected = true := by rw [h2]; exact this
  exact h3

end Eval
end PvDer
