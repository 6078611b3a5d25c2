import Verif.Props.RecoverTiming
import Verif.Props.RTCessExact

/-!
# Property C157: how soon a DER ceases to operate

If the evaluations are at most `δ` apart, and from time `a` on the voltage stays on the wrong side of the level of a cessation zone (and does not cross the level of another zone), then
the zone demands cessation at the latest `tMin + 2δ` later, where `tMin` is its minimum ride-through time, and the DER is disconnected at the latest `δ` plus the disconnection delay after that.
-/

set_option linter.unusedSectionVars false

namespace PvDer
namespace RT

variable {K W : Type} [Field K] [LinearOrder K] [IsStrictOrderedRing K]

theorem lowSince_last {thr τ : K} {l : List (K × K)} {x : K × K} (h : LowSince thr (l ++ [x]) τ) : x.2 ≤ thr := by
  obtain ⟨p, q, a, e, -, h1, h2⟩ := h
  rcases q.eq_nil_or_concat with rfl | ⟨q', y, rfl⟩
  · have := List.append_inj_right' e (by simp)
    simp only [List.cons.injEq, and_true] at this
    rw [this]
    exact h1.le
  · rw [List.concat_eq_append, ← List.cons_append, ← List.append_assoc] at e
    have := List.append_inj_right' e (by simp)
    simp only [List.cons.injEq, and_true] at this
    rw [this]
    exact h2 y (by simp)

theorem after_self {tS : K} {l : List (K × K)} (h : ∀ x ∈ l, tS < x.1) : after tS l = l := by
  unfold after
  rw [List.filter_eq_self]
  intro x hx
  simpa using h x hx

/-- The voltage has been below the level of the cessation zone `z` since `x0`, without crossing another level; `x` is at least the minimum time later. -/
theorem lv_ceases {tStable Vref : K} {s : VRT K} (hz : ∀ z ∈ s.zones, z.fresh) (ht : s.trip = false) (A B : List (K × K)) (x0 x : K × K) (hinc : Increasing (A ++ x0 :: B ++ [x]))
    (hpos : ∀ y ∈ A ++ x0 :: B ++ [x], 0 < y.1) (hS : tStable < x0.1) {z : Zone K} (hzm : z ∈ s.zones) (hc : z.mode = .cessation) (hlow : ∀ y ∈ x0 :: B ++ [x], y.2 < z.Vthr * Vref)
    (hside : ∀ y ∈ s.zones, (∀ r ∈ x0 :: B ++ [x], r.2 < y.Vthr * Vref) ∨ (∀ r ∈ x0 :: B ++ [x], y.Vthr * Vref < r.2)) (hmin : z.tMin ≤ x.1 - x0.1) :
    (lvRun tStable Vref s (A ++ x0 :: B ++ [x])).mc = true ∨ (lvRun tStable Vref s (A ++ x0 :: B ++ [x])).trip = true := by
  have hinc' := hinc
  unfold Increasing at hinc'
  rw [List.pairwise_append, List.pairwise_append, List.pairwise_cons] at hinc'
  obtain ⟨⟨-, ⟨h2, -⟩, -⟩, -, h3⟩ := hinc'
  have hx : x0.1 < x.1 := h3 x0 (by simp) x (by simp)
  by_cases htr : (lvRun tStable Vref s (A ++ x0 :: B ++ [x])).trip = true
  · exact Or.inr htr
  left
  have hnoex : ¬ Exceeds (z.Vthr * Vref) z.tThr (after tStable (A ++ x0 :: B ++ [x])) := by
    intro he
    apply htr
    rw [lvRun_trip (fun y hy => (hz y hy).2) ht, List.any_eq_true]
    exact ⟨z, hzm, (zRun_inv (hz z hzm) _ hinc hpos).breach.2 he⟩
  have hB : after tStable (x0 :: B) = x0 :: B := after_self (by
    intro y hy
    rcases List.mem_cons.1 hy with rfl | hy
    · exact hS
    · exact lt_trans hS (h2 y hy))
  have hX : after tStable [x] = [x] := after_self (by simpa using lt_trans hS hx)
  rw [after_append, after_append, hB, hX] at hnoex
  have hno2 : ¬ Exceeds (z.Vthr * Vref) z.tThr (after tStable (A ++ x0 :: B)) := by
    rw [after_append, hB]
    rintro ⟨p, q, r, u, v, e, e1, e2, e3, e4⟩
    exact hnoex ⟨p, q, r ++ [x], u, v, by rw [e]; simp, e1, e2, e3, e4⟩
  have hpos' : ∀ y ∈ A ++ x0 :: B, 0 < y.1 := fun y hy => hpos y (by rw [List.mem_append]; exact Or.inl hy)
  have hincp : Increasing (A ++ x0 :: B) := by
    unfold Increasing at hinc ⊢
    rw [List.pairwise_append] at hinc
    exact hinc.1
  have hl0 : LowSince (z.Vthr * Vref) (after tStable (A ++ x0 :: B)) x0.1 := by
    rw [after_append, hB]
    exact ⟨_, B, x0, rfl, rfl, hlow x0 (by simp), fun y hy => (hlow y (by simp [hy])).le⟩
  have hinv := zRun_inv (tStable := tStable) (Vref := Vref) (hz z hzm) _ hincp hpos'
  have hb : (zRun tStable Vref z (A ++ x0 :: B)).breach = false := by
    rw [← Bool.not_eq_true, hinv.breach]
    exact hno2
  obtain ⟨τ, hτ, hτm⟩ : ∃ τ, LowSince (z.Vthr * Vref) (after tStable (A ++ x0 :: B)) τ ∧ ∀ τ', LowSince (z.Vthr * Vref) (after tStable (A ++ x0 :: B)) τ' → τ ≤ τ' := by
    rcases hinv.timer hb with ⟨-, h⟩ | ⟨-, h, h'⟩
    · exact absurd hl0 (h _)
    · exact ⟨_, h, h'⟩
  have hτ0 : τ ≤ x0.1 := hτm _ hl0
  have hD : Demands (z.Vthr * Vref) z.tThr z.tMin (after tStable (A ++ x0 :: B)) x.1 x.2 := by
    refine ⟨hlow x (by simp), hno2, τ, hτ, hτm, by linarith, ?_⟩
    by_contra hn
    obtain ⟨p, q, u, e, e1, e2, e3⟩ := hτ
    rw [after_append, hB] at e
    refine hnoex ⟨p, q, [], u, x, by rw [e], e2, hlow x (by simp), e3, ?_⟩
    rw [e1]
    exact not_le.1 hn
  obtain ⟨p, q, hpq⟩ := List.append_of_mem hzm
  rw [lv_flag_exact hz (A ++ x0 :: B) x hinc hpos (lt_trans hS hx)]
  refine Or.inr ⟨p, z, q, hpq, hc, hD, ?_⟩
  rintro y hy ⟨c1, -, τ', c3⟩
  rcases hside y (by rw [hpq]; simp [hy]) with h | h
  · exact absurd (h x (by simp)) (not_lt.2 c1.le)
  · rw [after_append, hB] at c3
    rcases B.eq_nil_or_concat with rfl | ⟨B', w, rfl⟩
    · have := lowSince_last c3
      exact absurd (h x0 (by simp)) (not_lt.2 this)
    · rw [List.concat_eq_append, ← List.cons_append, ← List.append_assoc] at c3
      have := lowSince_last c3
      exact absurd (h w (by simp)) (not_lt.2 this)

/-- Mirror image. -/
theorem hv_ceases {tStable Vref : K} {s : VRT K} (hz : ∀ z ∈ s.zones, z.fresh) (ht : s.trip = false) (A B : List (K × K)) (x0 x : K × K) (hinc : Increasing (A ++ x0 :: B ++ [x]))
    (hpos : ∀ y ∈ A ++ x0 :: B ++ [x], 0 < y.1) (hS : tStable < x0.1) {z : Zone K} (hzm : z ∈ s.zones) (hc : z.mode = .cessation) (hhigh : ∀ y ∈ x0 :: B ++ [x], z.Vthr * Vref < y.2)
    (hside : ∀ y ∈ s.zones, (∀ r ∈ x0 :: B ++ [x], y.Vthr * Vref < r.2) ∨ (∀ r ∈ x0 :: B ++ [x], r.2 < y.Vthr * Vref)) (hmin : z.tMin ≤ x.1 - x0.1) :
    (hvRun tStable Vref s (A ++ x0 :: B ++ [x])).mc = true ∨ (hvRun tStable Vref s (A ++ x0 :: B ++ [x])).trip = true := by
  rw [hvRun_neg]
  have e : negH (A ++ x0 :: B ++ [x]) = negH A ++ (x0.1, -x0.2) :: negH B ++ [(x.1, -x.2)] := by simp [negH]
  have e' : (x0.1, -x0.2) :: negH B ++ [(x.1, -x.2)] = (x0 :: B ++ [x]).map (fun y => (y.1, -y.2)) := by simp [negH]
  have key := lv_ceases (s := s.neg) (tStable := tStable) (Vref := Vref) (z := z.neg) (by
      intro y hy
      obtain ⟨w, hw, rfl⟩ := List.mem_map.1 hy
      exact hz w hw) ht (negH A) (negH B) (x0.1, -x0.2) (x.1, -x.2) (by
      rw [← e]
      unfold Increasing negH
      rw [List.pairwise_map]
      exact hinc) (by
      rw [← e]
      intro y hy
      obtain ⟨w, hw, rfl⟩ := List.mem_map.1 hy
      exact hpos w hw) hS (List.mem_map_of_mem hzm) hc (by
      rw [e']
      intro y hy
      obtain ⟨w, hw, rfl⟩ := List.mem_map.1 hy
      have := hhigh w hw
      show -w.2 < -z.Vthr * Vref
      linarith) (by
      intro y hy
      obtain ⟨v, hv, rfl⟩ := List.mem_map.1 hy
      rw [e']
      rcases hside v hv with h | h
      · left
        intro r hr
        obtain ⟨w, hw, rfl⟩ := List.mem_map.1 hr
        have := h w hw
        show -w.2 < -v.Vthr * Vref
        linarith
      · right
        intro r hr
        obtain ⟨w, hw, rfl⟩ := List.mem_map.1 hr
        have := h w hw
        show -v.Vthr * Vref < -w.2
        linarith) hmin
  rw [← e] at key
  exact key

/-- The samples the logic looks at: one at most `δ` after `a`, and the last one beyond a given time. -/
theorem dip_records {δ a T : K} {h : List (K × K)} (hδ : 0 ≤ δ) (hT : 0 ≤ T) (hf : Fine δ 0 (h.map (·.1))) (ha : 0 ≤ a) (hr : ∃ x ∈ h, a + δ + T < x.1) :
    ∃ A x0 B x, records 0 h = A ++ x0 :: B ++ [x] ∧ a < x0.1 ∧ x0.1 ≤ a + δ ∧ a + δ + T < x.1 := by
  obtain ⟨w, hw, hlt⟩ := hr
  obtain ⟨x0, hx0, h1, h2⟩ := fine_cross (τ := a) hf le_rfl ha ⟨w, hw, by linarith⟩
  obtain ⟨y, hy, hyw⟩ := records_reach (lock := (0 : K)) hw (by linarith)
  have hinc := records_increasing 0 h
  generalize records 0 h = L at hx0 hy hinc
  rcases L.eq_nil_or_concat with rfl | ⟨l, x, rfl⟩
  · simp at hx0
  rw [List.concat_eq_append] at hx0 hy hinc ⊢
  have hxl : w.1 ≤ x.1 := by
    rcases List.mem_append.1 hy with h0 | h0
    · unfold Increasing at hinc
      rw [List.pairwise_append] at hinc
      exact le_trans hyw (hinc.2.2 y h0 x (by simp)).le
    · rw [List.mem_singleton] at h0
      rw [← h0]
      exact hyw
  have hl : x0 ∈ l := by
    rcases List.mem_append.1 hx0 with h0 | h0
    · exact h0
    · rw [List.mem_singleton] at h0
      subst h0
      linarith
  obtain ⟨A, B, rfl⟩ := List.append_of_mem hl
  exact ⟨A, x0, B, x, rfl, h1, h2, by linarith⟩

/-- (Specification.) From `a` on the voltage stays on the wrong side of the level of a cessation zone with minimum time `tm`, low or high, and on the same side of every other level. -/
def Demanded (c : Cfg K W) (s : St K W) (a tm : K) (h : List (K × K)) : Prop :=
  (s.lvEnable = true ∧ ∃ z ∈ s.lv.zones, z.mode = .cessation ∧ z.tMin ≤ tm ∧ (∀ x ∈ h, a < x.1 → x.2 < z.Vthr * c.Vref) ∧
    ∀ y ∈ s.lv.zones, (∀ x ∈ h, a < x.1 → x.2 < y.Vthr * c.Vref) ∨ (∀ x ∈ h, a < x.1 → y.Vthr * c.Vref < x.2)) ∨
  (s.hvEnable = true ∧ ∃ z ∈ s.hv.zones, z.mode = .cessation ∧ z.tMin ≤ tm ∧ (∀ x ∈ h, a < x.1 → z.Vthr * c.Vref < x.2) ∧
    ∀ y ∈ s.hv.zones, (∀ x ∈ h, a < x.1 → y.Vthr * c.Vref < x.2) ∨ (∀ x ∈ h, a < x.1 → x.2 < y.Vthr * c.Vref))

theorem demanded_mono {c : Cfg K W} {s : St K W} {a tm : K} {h h' : List (K × K)} (hs : ∀ x ∈ h', x ∈ h) (hD : Demanded c s a tm h) : Demanded c s a tm h' := by
  rcases hD with ⟨h1, z, h2, h3, h4, h5, h6⟩ | ⟨h1, z, h2, h3, h4, h5, h6⟩
  · exact Or.inl ⟨h1, z, h2, h3, h4, fun x hx => h5 x (hs x hx), fun y hy => (h6 y hy).imp (fun g x hx => g x (hs x hx)) (fun g x hx => g x (hs x hx))⟩
  · exact Or.inr ⟨h1, z, h2, h3, h4, fun x hx => h5 x (hs x hx), fun y hy => (h6 y hy).imp (fun g x hx => g x (hs x hx)) (fun g x hx => g x (hs x hx))⟩

/-- C157: once the evaluations have gone beyond `a + δ + tMin` the DER is told to cease operation (or has tripped). -/
theorem C157_demanded_in_time {c : Cfg K W} {s : St K W} (hi : IsInit s) (hlf : s.lfEnable = false) (h : List (Inp K)) {a δ tm : K} (hδ : 0 ≤ δ) (htm : 0 ≤ tm) (hf : Fine δ 0 (h.map Inp.t))
    (ha : 0 ≤ a) (hS : c.tStable ≤ a) (hD : Demanded c s a tm (samples h)) (hr : ∃ i ∈ h, a + δ + tm < i.t) : Flagged c s h := by
  obtain ⟨f1, f2⟩ := der_flags (c := c) hi hlf h
  obtain ⟨r1, r2, -⟩ := run_vrt c s h
  rw [hi.rl] at r1 r2
  obtain ⟨i, hih, hit⟩ := hr
  have e : (samples h).map (·.1) = h.map Inp.t := by unfold samples; rw [List.map_map]; rfl
  obtain ⟨A, x0, B, x, hR, b1, b2, b3⟩ := dip_records (h := samples h) hδ htm (by rw [e]; exact hf) ha ⟨(i.t, i.V), List.mem_map_of_mem (f := fun i : Inp K => (i.t, i.V)) hih, hit⟩
  have hinc := records_increasing 0 (samples h)
  have hpos := records_gt 0 (samples h)
  have hmem : ∀ y ∈ records 0 (samples h), y ∈ samples h := fun y hy => mem_records hy
  rw [hR] at r1 r2 hinc hpos hmem
  have hlate : ∀ y ∈ x0 :: B ++ [x], y ∈ samples h ∧ a < y.1 := by
    intro y hy
    refine ⟨hmem y (by rw [List.append_assoc]; exact List.mem_append_right _ hy), ?_⟩
    have hinc' := hinc
    unfold Increasing at hinc'
    rw [List.append_assoc, List.cons_append, List.pairwise_append, List.pairwise_cons] at hinc'
    rcases List.mem_cons.1 (by simpa using hy : y ∈ x0 :: (B ++ [x])) with rfl | hy
    · exact b1
    · exact lt_trans b1 (hinc'.2.1.1 y hy)
  unfold Flagged
  rw [f1, f2]
  rcases hD with ⟨he, z, hz, hm, ht, hlow, hside⟩ | ⟨he, z, hz, hm, ht, hlow, hside⟩
  · rw [if_pos he] at r1
    have key := lv_ceases (tStable := c.tStable) (Vref := c.Vref) hi.lvz hi.lvt A B x0 x hinc hpos (lt_of_le_of_lt hS b1) hz hm (fun y hy => hlow y (hlate y hy).1 (hlate y hy).2)
      (fun y hy => (hside y hy).imp (fun g r hr => g r (hlate r hr).1 (hlate r hr).2) (fun g r hr => g r (hlate r hr).1 (hlate r hr).2)) (by linarith)
    rw [← r1] at key
    rcases key with k | k
    · right; rw [k]; rfl
    · left; rw [k]; rfl
  · rw [if_pos he] at r2
    have key := hv_ceases (tStable := c.tStable) (Vref := c.Vref) hi.hvz hi.hvt A B x0 x hinc hpos (lt_of_le_of_lt hS b1) hz hm (fun y hy => hlow y (hlate y hy).1 (hlate y hy).2)
      (fun y hy => (hside y hy).imp (fun g r hr => g r (hlate r hr).1 (hlate r hr).2) (fun g r hr => g r (hlate r hr).1 (hlate r hr).2)) (by linarith)
    rw [← r2] at key
    rcases key with k | k
    · right; rw [k]; simp
    · left; rw [k]; simp

/-- C157: and once they have gone beyond `a + 2δ + tMin +` disconnection delay it is disconnected. -/
theorem C157_ceases_in_time {c : Cfg K W} {s : St K W} (hi : IsInit s) (hlf : s.lfEnable = false) (hdd : 0 < c.discDelay) (h : List (Inp K)) {a δ tm : K} (hδ : 0 ≤ δ) (htm : 0 ≤ tm)
    (hf : Fine δ 0 (h.map Inp.t)) (ha : 0 ≤ a) (hS : c.tStable ≤ a) (hD : Demanded c s a tm (samples h)) (hr : ∃ i ∈ h, a + 2 * δ + tm + c.discDelay ≤ i.t) : (run c s h).connected = false := by
  obtain ⟨i, hih, hit⟩ := hr
  obtain ⟨p, j, q, rfl, hp, hj⟩ := Eval.split_first Inp.t (a + δ + tm) h ⟨i, hih, by linarith⟩
  have hnext : j.t ≤ a + δ + tm + δ := by
    rw [List.map_append, List.map_cons] at hf
    refine Eval.fine_next hf (by linarith) ?_
    intro x hx
    obtain ⟨y, hy, rfl⟩ := List.mem_map.1 hx
    exact hp y hy
  have hq : i ∈ q := by
    rcases List.mem_append.1 hih with hc | hc
    · exact absurd (hp i hc) (by linarith)
    · rcases List.mem_cons.1 hc with rfl | hc
      · linarith
      · exact hc
  refine C30_flagged_disconnects hi hlf hdd p j q (fun x hx => lt_of_le_of_lt (hp x hx) hj) (by linarith) ?_ i hq (by linarith)
  intro q1 q2 e
  subst e
  refine C157_demanded_in_time hi hlf (p ++ j :: q1) hδ htm ?_ ha hS (demanded_mono ?_ hD) ⟨j, by simp, hj⟩
  · have e : (p ++ j :: (q1 ++ q2)).map Inp.t = (p ++ j :: q1).map Inp.t ++ q2.map Inp.t := by simp
    rw [e] at hf
    exact fine_append hf
  · intro x hx
    obtain ⟨y, hy, rfl⟩ := List.mem_map.1 hx
    refine List.mem_map_of_mem (f := fun i : Inp K => (i.t, i.V)) ?_
    simp only [List.mem_append, List.mem_cons] at hy ⊢
    tauto

/-- C157, a concrete case: at 0.4 p.u. from 1 s on, evaluated every half second, minimum time 0.1 s, disconnection delay 1/60 s: off at 2.5 s. -/
theorem C157_example : (run exCfg exSt ([1/2, 1, 3/2, 2, 5/2].map fun t => exInp t (if t < 1 then 1 else 2/5))).connected = false := by
  refine C157_ceases_in_time (a := 99/100) (δ := 1/2) (tm := 1/10) exSt_init rfl (by decide +kernel) _ (by norm_num) (by norm_num) ?_ (by norm_num) (by decide +kernel)
    (Or.inl ⟨rfl, ⟨1/2, 1, 1/10, .cessation, 0, false⟩, by decide +kernel, rfl, le_rfl, by decide +kernel, ?_⟩) ⟨exInp (5/2) (if (5/2 : ℚ) < 1 then 1 else 2/5), List.mem_map_of_mem (f := fun t : ℚ => exInp t (if t < 1 then 1 else 2/5)) (by simp), by decide +kernel⟩
  · simp only [exInp, List.map_cons, List.map_nil, Fine]
    norm_num
  · intro y hy
    left
    revert y
    decide +kernel

/-- A cessation zone at 0.88 p.u. and two deeper zones. -/
def exDeep : St ℚ Unit :=
  { exSt with lv := ⟨[⟨88/100, 100, 1/10, .cessation, 0, false⟩, ⟨7/10, 100, 1/10, .mandatory, 0, false⟩, ⟨1/2, 100, 1/10, .mandatory, 0, false⟩], false, false⟩ }

theorem exDeep_init : IsInit exDeep := by
  constructor <;> simp [exDeep, exSt, Zone.fresh]

/-- C157: the voltage must not cross other levels.  The voltage falls from 1 to 0.4 p.u. just before 1 s and stays below 0.88 p.u., the level of a cessation zone with minimum time 0.1 s; evaluations every 0.1 s,
disconnection delay 0.2 s.  But it rises above 0.5 and 0.7 p.u., the levels of other zones, and this calls off the cessation that the first zone demands, so that the DER is still connected at 1.6 s, instead of off at 1.5 s at the latest. -/
theorem C157_crossing_refuted :
    let l := [exInp 1 (2/5), exInp (11/10) (3/5), exInp (12/10) (4/5), exInp (13/10) (2/5), exInp (14/10) (2/5), exInp (15/10) (3/5), exInp (16/10) (4/5)]
    let c : Cfg ℚ Unit := { exCfg with discDelay := 1/5 }
    (∀ i ∈ l, i.V < 88/100 * c.Vref) ∧ 99/100 + 2 * (1/10) + 1/10 + c.discDelay ≤ 16/10 ∧ (run c exDeep l).connected = true ∧
      (run c exDeep (l.map fun i => { i with V := 2/5 })).connected = false ∧ (run c exDeep (l.map fun i => { i with V := 4/5 })).connected = false := by
  decide +kernel

end RT

namespace Eval
open Complex Phasor Ode

variable {k : Cls} {g : SCfg} {h : Hid} {f : Call k → ℝ}

/-- C157 for the evaluations of a DER: from `a` on every evaluation sees a voltage below the level of a cessation zone (above that of a high-voltage one) and on the same side of every other level.
In an evaluation made when `a + 2δ + tMin +` disconnection delay has been reached the DER is disconnected and feeds in nothing. -/
theorem C157_output_cut_in_time (hf : Sees k g f) (hi : RT.IsInit h.rt) (hlf : h.rt.lfEnable = false) (hdd : 0 < g.discDelay) (l : List (Call k)) (c : Call k) (hok : Ok k g h (l ++ [c]))
    {δ a tm : ℝ} (hδ : 0 ≤ δ) (htm : 0 ≤ tm) (hl : FineCalls δ (l ++ [c])) (ha : 0 ≤ a) (hS : g.tStable ≤ a)
    (hdip : (h.rt.lvEnable = true ∧ ∃ z ∈ h.rt.lv.zones, z.mode = .cessation ∧ z.tMin ≤ tm ∧ (∀ d ∈ l ++ [c], a < d.t → f d < z.Vthr * g.Vref) ∧
        ∀ y ∈ h.rt.lv.zones, (∀ d ∈ l ++ [c], a < d.t → f d < y.Vthr * g.Vref) ∨ (∀ d ∈ l ++ [c], a < d.t → y.Vthr * g.Vref < f d)) ∨
      (h.rt.hvEnable = true ∧ ∃ z ∈ h.rt.hv.zones, z.mode = .cessation ∧ z.tMin ≤ tm ∧ (∀ d ∈ l ++ [c], a < d.t → z.Vthr * g.Vref < f d) ∧
        ∀ y ∈ h.rt.hv.zones, (∀ d ∈ l ++ [c], a < d.t → y.Vthr * g.Vref < f d) ∨ (∀ d ∈ l ++ [c], a < d.t → f d < y.Vthr * g.Vref)))
    (hr : ∃ d ∈ l ++ [c], a + 2 * δ + tm + g.discDelay ≤ d.t) :
    (run k g h (l ++ [c])).rt.connected = false ∧
    ∃ e, (evalEnv k g c (run k g h l)).2 = .ok e ∧ e.Ppv = 0 ∧ e.Q_ref = 0 ∧ e.ia_ref = 0 ∧ e.ib_ref = 0 ∧ e.ic_ref = 0 ∧ e.Vdc_ref = e.Vdc := by
  obtain ⟨ins, h1, h2⟩ := run_rt hf _ h hok
  have hfine : RT.Fine δ 0 (ins.map RT.Inp.t) := by
    have e : ins.map RT.Inp.t = (RT.samples ins).map (·.1) := by unfold RT.samples; rw [List.map_map]; rfl
    rw [e, h1]
    exact fine_samples hl
  have key : ∀ {P : ℝ × ℝ → Prop}, (∀ d ∈ l ++ [c], a < d.t → P (d.t, f d)) → ∀ x ∈ RT.samples ins, a < x.1 → P x := by
    intro P hP x hx hax
    rw [h1] at hx
    obtain ⟨d, hd, rfl⟩ := List.mem_map.1 hx
    exact hP d hd hax
  have hconn : (run k g h (l ++ [c])).rt.connected = false := by
    have := RT.C157_ceases_in_time (c := g.rt.unit) (isInit_strip hi) hlf hdd ins hδ htm hfine ha hS (by
      rcases hdip with ⟨g1, z, g2, g3, g4, g5, g6⟩ | ⟨g1, z, g2, g3, g4, g5, g6⟩
      · exact Or.inl ⟨g1, z, g2, g3, g4, key (P := fun x => x.2 < z.Vthr * g.Vref) g5,
          fun y hy => (g6 y hy).imp (key (P := fun x => x.2 < y.Vthr * g.Vref)) (key (P := fun x => y.Vthr * g.Vref < x.2))⟩
      · exact Or.inr ⟨g1, z, g2, g3, g4, key (P := fun x => z.Vthr * g.Vref < x.2) g5,
          fun y hy => (g6 y hy).imp (key (P := fun x => y.Vthr * g.Vref < x.2)) (key (P := fun x => x.2 < y.Vthr * g.Vref))⟩) (by
      obtain ⟨d, hd, hdt⟩ := hr
      have hm : (d.t, f d) ∈ RT.samples ins := by rw [h1]; exact List.mem_map_of_mem (f := fun c : Call k => (c.t, f c)) hd
      obtain ⟨i, hii, he⟩ := List.mem_map.1 hm
      simp only [Prod.mk.injEq] at he
      exact ⟨i, hii, by rw [he.1]; exact hdt⟩)
    have h3 : (RT.strip (run k g h (l ++ [c])).rt).connected = false := by rw [h2]; exact this
    exact h3
  refine ⟨hconn, ?_⟩
  obtain ⟨e, he⟩ := ((ok_append _ _ _).1 hok).2.1
  rw [run_append] at hconn
  obtain ⟨e0, he0⟩ := eval_disconnected he hconn
  exact ⟨e, he, by rw [he0]; rfl, by rw [he0]; rfl, by rw [he0]; rfl, by rw [he0]; rfl, by rw [he0]; rfl, by rw [he0]; rfl⟩

/-- C157, a concrete case with the three-phase class: a cessation zone 0.88 p.u. with minimum time 1/10 s, evaluations every second, the voltage falls at 1 s: off at 4 s. -/
theorem C157_example_der (y : ThreePhase.V → ℝ) (g : SCfg) (hg : g = exG exPar false) (h : Hid)
    (hh : h = { exH g (exEv g) with rt := { exRT with lv := ⟨[⟨88 / 100, 5, 1 / 10, .cessation, 0, false⟩], false, false⟩ } }) (l : List (Call three))
    (hl : l = [1, 2, 3].map (callAt y dipFrom1)) : (run three g h (l ++ [callAt y dipFrom1 4])).rt.connected = false := by
  have hsee : Sees three g (fun c => urmsMin c.va c.vb c.vc) := by rw [hg]; exact C96_sees_minimum (by simp [unbalancedClasses]) rfl rfl
  have hgood : Good three g h := by
    rw [hh, hg]
    have := ex_good three exPar false (Or.inl rfl) exOps (by
      intro o ho
      simp only [exOps, List.mem_cons, List.not_mem_nil, or_false] at ho
      rcases ho with rfl | rfl | rfl <;> rfl)
    exact ⟨this.override, this.msg, this.ev, this.dc, this.lf, this.ramp, this.meas, this.filt⟩
  have hlow : ∀ d ∈ l ++ [callAt y dipFrom1 4], (3 / 4 : ℝ) < d.t → urmsMin d.va d.vb d.vc < 88 / 100 * g.Vref := by
    intro d hd _
    have e : l ++ [callAt y dipFrom1 4] = [1, 2, 3, 4].map (callAt y dipFrom1) := by rw [hl]; rfl
    rw [e] at hd
    obtain ⟨t, ht, rfl⟩ := List.mem_map.1 hd
    have : dipFrom1 t = 1 / 5 := by
      unfold dipFrom1
      refine if_pos ?_
      simp only [List.mem_cons, List.not_mem_nil, or_false] at ht
      rcases ht with rfl | rfl | rfl | rfl <;> norm_num
    show urmsMin (dipFrom1 t) (ub (dipFrom1 t)) (uc (dipFrom1 t)) < _
    rw [this, hg]
    exact ex_low
  refine (C157_output_cut_in_time (δ := 1) (a := 3 / 4) (tm := 1 / 10) hsee (by rw [hh]; constructor <;> simp [exRT, RT.Zone.fresh]) (by rw [hh]; rfl) (by rw [hg]; norm_num [exG]) l _
    (C99_no_exception hgood _) (by norm_num) (by norm_num) (by rw [hl]; simp only [FineCalls, callAt, List.map_cons, List.map_nil, List.cons_append, List.nil_append, RT.Fine]; norm_num) (by norm_num)
    (by rw [hg]; norm_num [exG]) (Or.inl ⟨by rw [hh]; rfl, ⟨88 / 100, 5, 1 / 10, .cessation, 0, false⟩, by rw [hh]; simp, rfl, le_rfl, hlow, ?_⟩)
    ⟨callAt y dipFrom1 4, by simp, by rw [hg]; show (3 / 4 : ℝ) + 2 * 1 + 1 / 10 + 1 / 60 ≤ 4; norm_num⟩).1
  intro z hz
  left
  obtain rfl : z = ⟨88 / 100, 5, 1 / 10, .cessation, 0, false⟩ := by rw [hh] at hz; simpa using hz
  exact hlow

end Eval
end PvDer
