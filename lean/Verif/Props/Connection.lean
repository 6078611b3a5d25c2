import Verif.Lemmas.Conn
import Verif.Props.RTTrip

/-!
# Properties C27–C32: disconnection and reconnection
-/

set_option linter.unusedSectionVars false

namespace PvDer
namespace RT

variable {K W : Type} [Field K] [LinearOrder K] [IsStrictOrderedRing K]

/-- The trip or momentary-cessation flag is set after the evaluations `h`. -/
def Flagged (c : Cfg K W) (s : St K W) (h : List (Inp K)) : Prop := (run c s h).trip = true ∨ (run c s h).mc = true

/-! ### C27 -/

theorem connStep_tripped (dd rd t : K) (mc : Bool) (x : Conn K) (hx : x.connected = false) : (connStep dd rd t true mc x).connected = false := by
  unfold connStep
  split_ifs <;> simp_all

/-- C27 (frequency ride-through disabled, the default): a tripped and disconnected DER stays disconnected for ever.  `_partial`: with the
frequency ride-through enabled it is false, see `C27_frequency_logic_reconnects`. -/
theorem C27_tripped_stays_disconnected_partial {c : Cfg K W} {s : St K W} (hi : IsInit s) (hlf : s.lfEnable = false) (h h' : List (Inp K))
    (ht : (run c s h).trip = true) (hd : (run c s h).connected = false) :
    (run c s (h ++ h')).connected = false ∧ (run c s (h ++ h')).trip = true := by
  refine ⟨?_, C18_trip_latched hi h h' ht⟩
  induction h' using List.reverseRecOn with
  | nil => simpa using hd
  | append_singleton h' i ih =>
    have htr := C18_trip_latched hi h (h' ++ [i]) ht
    rw [← List.append_assoc, run_snoc] at htr ⊢
    have he := (eval_conn c (run c s (h ++ h')) i (run_basic hi hlf _).1).1
    rw [htr] at he
    have := congrArg Conn.connected he
    exact this.trans (connStep_tripped _ _ _ _ _ ih)

example : (run exCfg exSt [exInp 1 (4/5), exInp 8 (7/10), exInp 9 1]).trip = true ∧
    (run exCfg exSt [exInp 1 (4/5), exInp 8 (7/10), exInp 9 1]).connected = false := by decide +kernel

/-- C27 is false once the frequency logic is enabled and has tripped: it calls the reconnection logic without looking at the trip flag, so
a DER disconnected by a (latched) voltage trip is connected again. -/
theorem C27_frequency_logic_reconnects :
    ∃ (s : St ℚ Unit) (h h' : List (Inp ℚ)), IsInit s ∧ (run exCfg s h).trip = true ∧ (run exCfg s h).connected = false ∧
      (run exCfg s (h ++ h')).trip = true ∧ (run exCfg s (h ++ h')).connected = true := by
  refine ⟨{ exSt with lfEnable := true },
    [exInp 1 (4/5), exInp 8 (7/10), exInp 9 1],
    [{ exInp 10 1 with f := 50 }, { exInp 11 1 with f := 50 }, exInp 12 1, exInp 20 1], ?_, by decide +kernel⟩
  constructor <;> simp [exSt, Zone.fresh]

omit [IsStrictOrderedRing K] in
theorem updateFlags_conn_untripped (c : Cfg K W) (t V f : K) (s : St K W) (hlf : s.lfTrip = false) : (updateFlags c t V f s).1.connected = s.connected := by
  unfold updateFlags
  split_ifs with h1
  · dsimp only
    have hf : ∀ s3 : St K W, s3.lfTrip = false → s3.connected = s.connected →
        (if s3.lfEnable then frt c f t s3 else (s3, .ok ())).1.connected = s.connected := by
      intro s3 a b
      split_ifs with h2
      · unfold frt
        split_ifs with h3
        · exact b
        · exact b
      · exact b
    have key : ∀ r : St K W × Except Err Unit, r.1.connected = s.connected →
        (match r.2 with
          | .error e => (r.1, Except.error e)
          | .ok _ => ({ r.1 with trip := r.1.lv.trip || r.1.hv.trip, mc := r.1.lv.mc || r.1.hv.mc }, .ok ())).1.connected = s.connected := by
      rintro ⟨s', r⟩ hr
      cases r <;> exact hr
    apply key
    apply hf
    · split_ifs <;> exact hlf
    · split_ifs <;> rfl
  · rfl

omit [IsStrictOrderedRing K] in
theorem dor_tripped (c : Cfg K W) (t : K) (s : St K W) (ht : s.trip = true) (hc : s.connected = false) : (disconnectOrReconnect c t s).1.connected = false := by
  unfold disconnectOrReconnect
  simp only [hc, ht, Bool.false_eq_true, if_false]
  by_cases h1 : t > s.connLock
  · simp only [if_pos h1, Bool.true_eq_false, if_false, if_true]; rfl
  · simp only [if_neg h1, hc, if_true]; exact hc

/-- C27 with the frequency ride-through enabled: as long as the frequency function itself has not tripped, a tripped and disconnected DER stays disconnected. -/
theorem C27_tripped_stays_until_frequency_trip_partial {c : Cfg K W} {s : St K W} (hi : IsInit s) (h h' : List (Inp K))
    (ht : (run c s h).trip = true) (hd : (run c s h).connected = false) (hlf : ∀ p q, h' = p ++ q → (run c s (h ++ p)).lfTrip = false) :
    (run c s (h ++ h')).connected = false ∧ (run c s (h ++ h')).trip = true := by
  refine ⟨?_, C18_trip_latched hi h h' ht⟩
  induction h' using List.reverseRecOn with
  | nil => simpa using hd
  | append_singleton h' i ih =>
    have htr := C18_trip_latched hi h (h' ++ [i]) ht
    have hprev := ih (fun p q hpq => hlf p (q ++ [i]) (by rw [hpq]; simp))
    have hl := hlf h' [i] rfl
    rw [← List.append_assoc, run_snoc] at htr ⊢
    have hu := updateFlags_conn_untripped c i.t i.V i.f { run c s (h ++ h') with refs := i.refs } hl
    have hdt : ∀ s1 : St K W, (disconnectOrReconnect c i.t s1).1.trip = s1.trip := by
      intro s1; exact (dor_keeps c i.t s1).2.2.2.2.2.2.1
    unfold eval at htr ⊢
    dsimp only at htr ⊢
    rcases hq : updateFlags c i.t i.V i.f { run c s (h ++ h') with refs := i.refs } with ⟨s1, r⟩
    rw [hq] at hu htr
    have hu : s1.connected = (run c s (h ++ h')).connected := hu
    cases r with
    | error e => exact hu.trans hprev
    | ok _ =>
      dsimp only at htr ⊢
      rw [hdt] at htr
      exact dor_tripped c i.t s1 htr (hu.trans hprev)
example : let s : St ℚ Unit := { exSt with lfEnable := true }
    (run exCfg s [exInp 1 (4/5), exInp 8 (7/10), exInp 9 1]).trip = true ∧ (run exCfg s [exInp 1 (4/5), exInp 8 (7/10), exInp 9 1]).connected = false ∧
      (run exCfg s ([exInp 1 (4/5), exInp 8 (7/10), exInp 9 1] ++ [exInp 20 1])).lfTrip = false := by decide +kernel

/-! ### C28 -/

theorem updateFlags_disc (c : Cfg K W) (t V f : K) (s : St K W) :
    (updateFlags c t V f s).1.tDisc = s.tDisc ∧ (s.connected = true → (updateFlags c t V f s).1.connected = true) ∧
    (updateFlags c t V f s).1.connLock = s.connLock := by
  have hr : ∀ s' : St K W, (reconnectLogic c t s').1.tDisc = s'.tDisc ∧ (s'.connected = true → (reconnectLogic c t s').1.connected = true) ∧
      (reconnectLogic c t s').1.connLock = s'.connLock := by
    intro s'
    unfold reconnectLogic
    split_ifs <;> simp_all
  have hf : ∀ s' : St K W, (frt c f t s').1.tDisc = s'.tDisc ∧ (s'.connected = true → (frt c f t s').1.connected = true) ∧
      (frt c f t s').1.connLock = s'.connLock := by
    intro s'
    unfold frt
    split_ifs
    · exact ⟨rfl, id, rfl⟩
    · exact hr s'
    · exact ⟨rfl, id, rfl⟩
  by_cases h : t > s.rtLock
  · rw [updateFlags_eq c t V f s h]
    simp only
    by_cases hl : s.lfEnable = true
    · simp only [hl, if_true]
      split <;> exact hf (vrtStep c t V s)
    · simp only [hl]
      exact ⟨rfl, id, rfl⟩
  · rw [updateFlags_lock c t V f s (not_lt.1 h)]
    exact ⟨rfl, id, rfl⟩

/-- One evaluation either leaves `tDisc` alone and does not disconnect, or works on the flags it leaves behind. -/
theorem eval_disc (c : Cfg K W) (s : St K W) (i : Inp K) :
    ((eval c s i).1.tDisc = s.tDisc ∧ (s.connected = true → (eval c s i).1.connected = true)) ∨
    (((eval c s i).1.trip = true ∨ (eval c s i).1.mc = true) ∧ i.t > s.connLock ∧
      ((s.tDisc = 0 ∧ (eval c s i).1.tDisc = i.t ∧ (eval c s i).1.connected = true) ∨
       (s.tDisc ≠ 0 ∧ c.discDelay ≤ i.t - s.tDisc ∧ (eval c s i).1.tDisc = 0 ∧ (eval c s i).1.connected = false))) := by
  have hk := eval_keeps c s i
  rw [hk.2.2.2.2.2.2.1, hk.2.2.2.2.2.2.2]
  obtain ⟨d1, d2, d3⟩ := updateFlags_disc c i.t i.V i.f { s with refs := i.refs }
  unfold eval
  simp only
  generalize updateFlags c i.t i.V i.f { s with refs := i.refs } = u at *
  split
  · exact Or.inl ⟨d1, d2⟩
  · have hc := dor_conn c i.t u.1
    generalize (disconnectOrReconnect c i.t u.1).1 = v at *
    have e1 : v.connected = _ := congrArg Conn.connected hc
    have e2 : v.tDisc = _ := congrArg Conn.tDisc hc
    rw [e1, e2]
    have p1 : u.1.conn.connected = u.1.connected := rfl
    have p2 : u.1.conn.tDisc = u.1.tDisc := rfl
    have p4 : u.1.conn.lock = u.1.connLock := rfl
    unfold connStep
    rw [p1, p2, p4, d1, d3]
    simp only at d1 d2 d3
    split_ifs with h1 h2 h3 h4 h5
    · right
      exact ⟨by simpa using h3, h1, Or.inl ⟨h4, rfl, h2⟩⟩
    · left; exact ⟨rfl, fun _ => h2⟩
    · right
      exact ⟨by simpa using h3, h1, Or.inr ⟨h4, not_lt.1 h5, rfl, rfl⟩⟩
    all_goals left
    all_goals refine ⟨by first | exact rfl | exact d1, fun hs => ?_⟩
    all_goals first
      | exact d2 hs
      | rfl

theorem timer_start {c : Cfg K W} {s : St K W} (hi : IsInit s) (h : List (Inp K)) :
    (run c s h).tDisc = 0 ∨ ∃ p j q, h = p ++ j :: q ∧ j.t = (run c s h).tDisc ∧ Flagged c s (p ++ [j]) := by
  induction h using List.reverseRecOn with
  | nil => left; exact hi.td
  | append_singleton h i ih =>
    rcases eval_disc c (run c s h) i with ⟨h1, _⟩ | ⟨hf, _, ⟨_, h1, _⟩ | ⟨_, _, h1, _⟩⟩
    · rw [run_snoc, h1]
      rcases ih with h0 | ⟨p, j, q, rfl, hj, hfl⟩
      · exact Or.inl h0
      · exact Or.inr ⟨p, j, q ++ [i], by simp, hj, hfl⟩
    · right
      refine ⟨h, i, [], rfl, ?_, ?_⟩
      · rw [run_snoc, h1]
      · unfold Flagged; rw [run_snoc]; exact hf
    · left; rw [run_snoc, h1]

/-- C28: whenever an evaluation disconnects a connected DER, the trip or cessation flag is set at that evaluation, and the timer was
started by an earlier flagged evaluation at least `output_cessation_delay` before (frequency logic on or off). -/
theorem C28_disconnect_needs_flag_and_delay {c : Cfg K W} {s : St K W} (hi : IsInit s) (h : List (Inp K)) (i : Inp K)
    (hc : (run c s h).connected = true) (hd : (run c s (h ++ [i])).connected = false) :
    Flagged c s (h ++ [i]) ∧ ∃ p j q, h = p ++ j :: q ∧ Flagged c s (p ++ [j]) ∧ c.discDelay ≤ i.t - j.t := by
  rw [run_snoc] at hd
  rcases eval_disc c (run c s h) i with ⟨_, h1⟩ | ⟨hf, _, ⟨_, _, h1⟩ | ⟨h0, h1, _⟩⟩
  · rw [h1 hc] at hd; simp at hd
  · rw [h1] at hd; simp at hd
  · refine ⟨by unfold Flagged; rw [run_snoc]; exact hf, ?_⟩
    rcases timer_start hi h with hz | ⟨p, j, q, he, hj, hfl⟩
    · exact absurd hz h0
    · exact ⟨p, j, q, he, hfl, by rw [hj]; exact h1⟩

example : (run exCfg exSt [exInp 1 (4/5), exInp 8 (7/10)]).connected = true ∧
    (run exCfg exSt ([exInp 1 (4/5), exInp 8 (7/10)] ++ [exInp 9 1])).connected = false := by decide +kernel

/-! ### C29 -/

/-- C29 when the flag, once set, stays set (as for a trip): the flag was set at every evaluation during the preceding
`output_cessation_delay`.  `_partial`: without that hypothesis it is false, see `C29_stale_timer`. -/
theorem C29_continuous_flag_partial {c : Cfg K W} {s : St K W} (hi : IsInit s) (h : List (Inp K)) (i : Inp K)
    (hinc : Increasing (samples (h ++ [i])))
    (hmono : ∀ p j q, h = p ++ j :: q → Flagged c s p → Flagged c s (p ++ [j]))
    (hc : (run c s h).connected = true) (hd : (run c s (h ++ [i])).connected = false) :
    ∀ p j q, h = p ++ j :: q → i.t - j.t ≤ c.discDelay → Flagged c s (p ++ [j]) := by
  obtain ⟨_, p0, j0, q0, he0, hf0, hd0⟩ := C28_disconnect_needs_flag_and_delay hi h i hc hd
  have hlater : ∀ q1 q2, q0 = q1 ++ q2 → Flagged c s (p0 ++ j0 :: q1) := by
    intro q1
    induction q1 using List.reverseRecOn with
    | nil => intro _ _; exact hf0
    | append_singleton q1 x ih =>
      intro q2 hq
      have := hmono (p0 ++ j0 :: q1) x q2 (by rw [he0, hq]; simp) (ih ([x] ++ q2) (by rw [hq]; simp))
      simpa using this
  intro p j q he hle
  have hlt : j0.t ≤ j.t := by linarith
  rw [he0] at he
  rcases List.append_eq_append_iff.1 he with ⟨a, ha1, ha2⟩ | ⟨a, ha1, ha2⟩
  · cases a with
    | nil =>
      simp only [List.nil_append, List.cons.injEq] at ha2
      rw [ha1, ← ha2.1]; simpa using hf0
    | cons x a =>
      simp only [List.cons_append, List.cons.injEq] at ha2
      have := hlater (a ++ [j]) q (by rw [ha2.2]; simp)
      rw [ha1, ← ha2.1]; simpa using this
  · cases a with
    | nil =>
      simp only [List.nil_append, List.cons.injEq] at ha2
      rw [← ha2.1] at hf0
      simp only [List.append_nil] at ha1
      rw [ha1] at hf0; exact hf0
    | cons x a =>
      -- `j` strictly before `j0`: contradicts the times
      exfalso
      simp only [List.cons_append, List.cons.injEq] at ha2
      rw [he0, ha1, ← ha2.1] at hinc
      unfold Increasing samples at hinc
      rw [List.pairwise_map] at hinc
      simp only [List.append_assoc, List.cons_append] at hinc
      rw [List.pairwise_append] at hinc
      have h2 := hinc.2.1
      rw [List.pairwise_cons] at h2
      have := h2.1 j0 (by simp)
      exact absurd hlt (not_le.2 this)

/-- C29 is false in general: the disconnect timer is not reset when the flag clears. With a delay of 1 s, a momentary cessation flagged at
the single evaluation t = 3/2 starts the timer; the voltage recovers; a second anomaly flagged at t = 49/5 disconnects the DER at once
although the flag was clear at the evaluations t = 48/5 and t = 97/10 less than the delay before. -/
theorem C29_stale_timer :
    let c : Cfg ℚ Unit := { exCfg with discDelay := 1 }
    let p := [exInp 1 (2/5), exInp (3/2) (2/5), exInp 2 1]
    let j := exInp (48/5) 1
    let q := [exInp (97/10) (2/5)]
    let i := exInp (49/5) (2/5)
    IsInit exSt ∧ exSt.lfEnable = false ∧ (run c exSt (p ++ j :: q)).connected = true ∧ (run c exSt ((p ++ j :: q) ++ [i])).connected = false ∧
      i.t - j.t ≤ c.discDelay ∧ ¬ Flagged c exSt (p ++ [j]) := by
  refine ⟨exSt_init, ?_⟩
  unfold Flagged
  decide +kernel

/-! ### C30 -/

/-- Invariant used for C30. -/
theorem c30_inv {c : Cfg K W} {s0 : St K W} (hi : IsInit s0) (hlf : s0.lfEnable = false) (hdd : 0 < c.discDelay) (h : List (Inp K)) (j : Inp K)
    (hnew : (run c s0 h).connLock < j.t) (q : List (Inp K))
    (hf : ∀ q1 q2, q = q1 ++ q2 → Flagged c s0 (h ++ j :: q1)) :
    (run c s0 (h ++ j :: q)).connected = false ∨
      ((run c s0 (h ++ j :: q)).tDisc ≠ 0 ∧ (run c s0 (h ++ j :: q)).tDisc ≤ j.t ∧
        (run c s0 (h ++ j :: q)).connLock - (run c s0 (h ++ j :: q)).tDisc < c.discDelay ∧
        (∀ x ∈ j :: q, x.t ≤ (run c s0 (h ++ j :: q)).connLock)) := by
  induction q using List.reverseRecOn with
  | nil =>
    obtain ⟨a1, a2, a3, a4, a5, a6, a7, a8, a9⟩ := run_basic (c := c) hi hlf h
    have hfl := hf [] [] rfl
    unfold Flagged at hfl
    rw [run_snoc] at hfl ⊢
    have he := (eval_conn c (run c s0 h) j a1).1
    generalize (eval c (run c s0 h) j).1 = s2 at *
    generalize run c s0 h = s1 at *
    have e1 : s2.connected = _ := congrArg Conn.connected he
    have e2 : s2.tDisc = _ := congrArg Conn.tDisc he
    have e3 : s2.connLock = max s1.connLock j.t := (congrArg Conn.lock he).trans (connStep_lock _ _ _ _ _ _)
    rw [max_eq_right hnew.le] at e3
    rw [e1, e2, e3]
    have hfl' : (s2.trip || s2.mc) = true := by simpa using hfl
    have hpos : 0 < j.t := lt_of_le_of_lt a3 hnew
    unfold connStep
    rw [show s1.conn.lock = s1.connLock from rfl, if_pos hnew, show s1.conn.connected = s1.connected from rfl, hfl']
    simp only [if_true]
    by_cases hc : s1.connected = true
    · rw [if_pos hc, show s1.conn.tDisc = s1.tDisc from rfl]
      split_ifs with h1 h2
      · right; exact ⟨hpos.ne', le_refl _, by simpa using hdd, by simp⟩
      · right; exact ⟨h1, le_trans a5 hnew.le, h2, by simp⟩
      · left; rfl
    · left
      rw [if_neg hc]
      have hc' : s1.connected = false := by simpa using hc
      rcases hfl with hh | hh
      · rw [hh]; exact hc'
      · rw [hh]; simp only [if_true]; split_ifs <;> exact hc'
  | append_singleton q i ih =>
    have ih' := ih (fun q1 q2 hq => hf q1 (q2 ++ [i]) (by rw [hq]; simp))
    have happ : h ++ j :: (q ++ [i]) = (h ++ j :: q) ++ [i] := by simp
    have hfl := hf (q ++ [i]) [] (by simp)
    obtain ⟨a1, a2, a3, a4, a5, a6, a7, a8, a9⟩ := run_basic (c := c) hi hlf (h ++ j :: q)
    unfold Flagged at hfl
    rw [happ, run_snoc] at hfl ⊢
    have he := (eval_conn c (run c s0 (h ++ j :: q)) i a1).1
    generalize (eval c (run c s0 (h ++ j :: q)) i).1 = s2 at *
    generalize run c s0 (h ++ j :: q) = s1 at *
    have e1 : s2.connected = _ := congrArg Conn.connected he
    have e2 : s2.tDisc = _ := congrArg Conn.tDisc he
    have e3 : s2.connLock = max s1.connLock i.t := (congrArg Conn.lock he).trans (connStep_lock _ _ _ _ _ _)
    rw [e1, e2, e3]
    have hfl' : (s2.trip || s2.mc) = true := by simpa using hfl
    unfold connStep
    rw [show s1.conn.lock = s1.connLock from rfl, show s1.conn.connected = s1.connected from rfl, hfl']
    simp only [if_true]
    by_cases hnew' : i.t > s1.connLock
    · rw [if_pos hnew', max_eq_right hnew'.le]
      by_cases hc : s1.connected = true
      · rw [if_pos hc, show s1.conn.tDisc = s1.tDisc from rfl]
        rcases ih' with ih' | ⟨b1, b2, b3, b4⟩
        · rw [hc] at ih'; simp at ih'
        rw [if_neg b1]
        split_ifs with h2
        · right
          refine ⟨b1, b2, h2, ?_⟩
          intro x hx
          rw [← List.cons_append] at hx
          rcases List.mem_append.1 hx with hx | hx
          · exact le_trans (b4 x hx) hnew'.le
          · rw [List.mem_singleton.1 hx]
        · left; rfl
      · left
        rw [if_neg hc]
        have hc' : s1.connected = false := by simpa using hc
        rcases hfl with hh | hh
        · rw [hh]; exact hc'
        · rw [hh]; simp only [if_true]; split_ifs <;> exact hc'
    · rw [if_neg hnew', max_eq_left (not_lt.1 hnew')]
      rcases ih' with ih' | ⟨b1, b2, b3, b4⟩
      · left; exact ih'
      · right
        refine ⟨b1, b2, b3, ?_⟩
        intro x hx
        rw [← List.cons_append] at hx
        rcases List.mem_append.1 hx with hx | hx
        · exact b4 x hx
        · rw [List.mem_singleton.1 hx]; exact not_lt.1 hnew'

/-- C30: after any history, if from an evaluation `j` (later than everything before) onwards the flag is set at every evaluation, the DER is
disconnected as soon as some evaluation is at least `output_cessation_delay` after `j` (and stays so). With `C28` this determines the
moment of disconnection. Frequency logic disabled (default); delay positive (enforced by the settings check). -/
theorem C30_flagged_disconnects {c : Cfg K W} {s0 : St K W} (hi : IsInit s0) (hlf : s0.lfEnable = false) (hdd : 0 < c.discDelay)
    (h : List (Inp K)) (j : Inp K) (q : List (Inp K)) (hlate : ∀ x ∈ h, x.t < j.t) (hpos : 0 < j.t)
    (hf : ∀ q1 q2, q = q1 ++ q2 → Flagged c s0 (h ++ j :: q1)) (i : Inp K) (hiq : i ∈ q) (hdelay : c.discDelay ≤ i.t - j.t) :
    (run c s0 (h ++ j :: q)).connected = false := by
  have hlock : (run c s0 h).connLock < j.t := by
    clear hf hiq hdelay
    induction h using List.reverseRecOn with
    | nil => show s0.connLock < j.t; rw [hi.cl]; exact hpos
    | append_singleton h x ih =>
      have := ih (fun y hy => hlate y (by simp [hy]))
      rw [run_snoc]
      have he := (eval_conn c (run c s0 h) x (run_basic hi hlf _).1).1
      have : (eval c (run c s0 h) x).1.connLock = max _ _ := (congrArg Conn.lock he).trans (connStep_lock _ _ _ _ _ _)
      rw [this]
      exact max_lt (by assumption) (hlate x (by simp))
  rcases c30_inv hi hlf hdd h j hlock q hf with h1 | ⟨b1, b2, b3, b4⟩
  · exact h1
  · have := b4 i (by simp [hiq])
    exfalso
    linarith

example : (∀ n ∈ [1, 2, 3], Flagged exCfg exSt ([exInp 1 (4/5), exInp 8 (7/10), exInp 9 (7/10), exInp 10 1].take (n + 1))) ∧
    (run exCfg exSt [exInp 1 (4/5), exInp 8 (7/10), exInp 9 (7/10)]).connected = false := by
  unfold Flagged
  decide +kernel

end RT
end PvDer
