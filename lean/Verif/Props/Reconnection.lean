import Verif.Props.Connection

/-!
# Properties C31–C35: reconnection, references while disconnected, assertions
-/

set_option linter.unusedSectionVars false

namespace PvDer
namespace RT

variable {K W : Type} [Field K] [LinearOrder K] [IsStrictOrderedRing K]

/-! ### C31 -/

/-- Effect of a non-advancing evaluation on flags and connection state. -/
theorem eval_skip {c : Cfg K W} {s : St K W} {i : Inp K} (hlf : s.lfEnable = false) (h1 : i.t ≤ s.rtLock) (h2 : i.t ≤ s.connLock) :
    (eval c s i).1.conn = s.conn ∧ (eval c s i).1.trip = s.trip ∧ (eval c s i).1.mc = s.mc := by
  obtain ⟨_, _, _, _, _, _, e7, e8⟩ := eval_old c s i h1
  refine ⟨?_, e7, e8⟩
  rw [(eval_conn c s i hlf).1]
  unfold connStep
  exact if_neg (not_lt.2 h2)

/-- Between `j` and the end of `p ++ j :: q`, every evaluation left the DER disconnected and without flags. -/
def Undisturbed (c : Cfg K W) (s : St K W) (p : List (Inp K)) (j : Inp K) (q : List (Inp K)) : Prop :=
  ∀ q1 q2, q = q1 ++ q2 → ¬ Flagged c s (p ++ j :: q1) ∧ (run c s (p ++ j :: q1)).connected = false

theorem undisturbed_snoc {c : Cfg K W} {s : St K W} {p : List (Inp K)} {j : Inp K} {q : List (Inp K)} {i : Inp K} (h : Undisturbed c s p j q)
    (hf : ¬ Flagged c s (p ++ j :: (q ++ [i]))) (hc : (run c s (p ++ j :: (q ++ [i]))).connected = false) : Undisturbed c s p j (q ++ [i]) := by
  intro q1 q2 hq
  rcases List.eq_nil_or_concat q2 with rfl | ⟨q2', x, rfl⟩
  · rw [List.append_nil] at hq
    rw [← hq]; exact ⟨hf, hc⟩
  · rw [List.concat_eq_append, ← List.append_assoc] at hq
    exact h q1 q2' (List.append_inj_left' hq rfl)

theorem not_flagged {c : Cfg K W} {s : St K W} {h : List (Inp K)} (h1 : (run c s h).trip = false) (h2 : (run c s h).mc = false) :
    ¬ Flagged c s h := by unfold Flagged; simp [h1, h2]

theorem reco_timer {c : Cfg K W} {s : St K W} (hi : IsInit s) (hlf : s.lfEnable = false) (h : List (Inp K)) :
    (run c s h).trip = true ∨ (run c s h).tReco = 0 ∨ ((run c s h).connected = false ∧
      ∃ p j q, h = p ++ j :: q ∧ j.t = (run c s h).tReco ∧ Undisturbed c s p j q) := by
  induction h using List.reverseRecOn with
  | nil => right; left; exact hi.tr
  | append_singleton h i ih =>
    obtain ⟨a1, a2, a3, a4, a5, a6, a7, a8, a9⟩ := run_basic (c := c) hi hlf h
    by_cases htr : (eval c (run c s h) i).1.trip = true
    · left; rw [run_snoc]; exact htr
    right
    have htr' : (eval c (run c s h) i).1.trip = false := by simpa using htr
    have htr0 : ¬ (run c s h).trip = true := fun hh => htr (by
      have := C18_trip_latched (c := c) hi h [i] hh
      rwa [run_snoc] at this)
    have ih := ih.resolve_left htr0
    -- extension of the witness
    have ext : (eval c (run c s h) i).1.tReco = (run c s h).tReco → (eval c (run c s h) i).1.connected = (run c s h).connected →
        ((run c s h).tReco = 0 ∨ (eval c (run c s h) i).1.mc = false) →
        ((run c s (h ++ [i])).tReco = 0 ∨ ((run c s (h ++ [i])).connected = false ∧ ∃ p j q, h ++ [i] = p ++ j :: q ∧
          j.t = (run c s (h ++ [i])).tReco ∧ Undisturbed c s p j q)) := by
      intro b1 b2 b3
      rw [run_snoc, b1]
      rcases ih with h0 | ⟨hc, p, j, q, he, hj, hall⟩
      · exact Or.inl h0
      · rcases b3 with b3 | b3
        · exact Or.inl b3
        · have happ : p ++ j :: (q ++ [i]) = h ++ [i] := by rw [he]; simp
          refine Or.inr ⟨b2.trans hc, p, j, q ++ [i], happ.symm, hj, undisturbed_snoc hall ?_ ?_⟩
          · rw [happ]; exact not_flagged (by rw [run_snoc]; exact htr') (by rw [run_snoc]; exact b3)
          · rw [happ, run_snoc]; exact b2.trans hc
    by_cases ht : i.t > (run c s h).connLock
    · have he := (eval_conn c (run c s h) i a1).1
      have e1 : (eval c (run c s h) i).1.connected = _ := congrArg Conn.connected he
      have e3 : (eval c (run c s h) i).1.tReco = _ := congrArg Conn.tReco he
      unfold connStep at e1 e3
      rw [show (run c s h).conn.lock = (run c s h).connLock from rfl, if_pos ht] at e1 e3
      rw [show (run c s h).conn.connected = (run c s h).connected from rfl] at e1 e3
      rw [show (run c s h).conn.tReco = (run c s h).tReco from rfl] at e1 e3
      by_cases hc : (run c s h).connected = true
      · left
        rw [run_snoc, e3, if_pos hc]
        split_ifs <;> exact a8 hc
      · rw [if_neg hc, if_neg htr] at e1 e3
        have hc' : (run c s h).connected = false := by simpa using hc
        have hpos : i.t > 0 := lt_of_le_of_lt a3 ht
        by_cases hm : (eval c (run c s h) i).1.mc = true
        · left
          rw [run_snoc, e3, if_pos hm]
          split_ifs with h0
          · rfl
          · exact le_antisymm (not_lt.1 h0) a6
        · have hm' : (eval c (run c s h) i).1.mc = false := by simpa using hm
          rw [if_neg hm, if_pos hpos] at e1 e3
          by_cases h0 : (run c s h).tReco > 0
          · rw [if_pos h0] at e1 e3
            by_cases hd : i.t - (run c s h).tReco > c.recoDelay
            · left; rw [run_snoc, e3, if_pos hd]
            · rw [if_neg hd] at e1 e3
              exact ext e3 e1 (Or.inr hm')
          · have hz : (run c s h).tReco = 0 := le_antisymm (not_lt.1 h0) a6
            rw [if_neg h0, if_pos hz] at e1 e3
            right
            rw [run_snoc]
            refine ⟨e1.trans hc', h, i, [], rfl, e3.symm, ?_⟩
            intro q1 q2 hq
            rw [(List.append_eq_nil_iff.1 hq.symm).1]
            exact ⟨not_flagged (by rw [run_snoc]; exact htr') (by rw [run_snoc]; exact hm'), by rw [run_snoc]; exact e1.trans hc'⟩
    · obtain ⟨k1, k2, k3⟩ := eval_skip (c := c) a1 (by rw [a2]; exact not_lt.1 ht) (not_lt.1 ht)
      refine ext (congrArg Conn.tReco k1) (congrArg Conn.connected k1) ?_
      rcases ih with h0 | ⟨hc, p, j, q, he, hj, hall⟩
      · exact Or.inl h0
      · right
        rw [k3]
        have := (hall q [] (by simp)).1
        rw [← he] at this
        unfold Flagged at this
        simpa using fun hh => this (Or.inr hh)

/-- C31: whenever an evaluation reconnects the DER, there is an evaluation `j` more than `output_restore_delay` earlier such that from `j` up to and
including the reconnecting evaluation neither the trip nor the cessation flag was set at any evaluation, and the DER was disconnected all
the while.  (Frequency ride-through disabled, the default.) -/
theorem C31_reconnect_needs_undisturbed_delay {c : Cfg K W} {s : St K W} (hi : IsInit s) (hlf : s.lfEnable = false) (h : List (Inp K)) (i : Inp K)
    (hd : (run c s h).connected = false) (hc : (run c s (h ++ [i])).connected = true) :
    ¬ Flagged c s (h ++ [i]) ∧ ∃ p j q, h = p ++ j :: q ∧ c.recoDelay < i.t - j.t ∧ Undisturbed c s p j q := by
  obtain ⟨a1, a2, a3, a4, a5, a6, a7, a8, a9⟩ := run_basic (c := c) hi hlf h
  rw [run_snoc] at hc
  have he := (eval_conn c (run c s h) i a1).1
  have e1 : (eval c (run c s h) i).1.connected = _ := congrArg Conn.connected he
  rw [hc] at e1
  unfold connStep at e1
  rw [show (run c s h).conn.lock = (run c s h).connLock from rfl, show (run c s h).conn.connected = (run c s h).connected from rfl, hd,
    show (run c s h).conn.tReco = (run c s h).tReco from rfl] at e1
  simp only [Bool.false_eq_true, if_false] at e1
  have hcc : (run c s h).conn.connected = false := hd
  split_ifs at e1 with h1 h2 h3 h4 h5 h6 h7 h8
  all_goals first
    | (simp [hcc] at e1; done)
    | skip
  have htr : (eval c (run c s h) i).1.trip = false := by simpa using h2
  refine ⟨not_flagged (by rw [run_snoc]; exact htr) (by rw [run_snoc]; simpa using h3), ?_⟩
  rcases reco_timer (c := c) hi hlf h with hh | hh | ⟨_, p, j, q, hp, hj, hu⟩
  · have := C18_trip_latched (c := c) hi h [i] hh
    rw [run_snoc, htr] at this; simp at this
  · rw [hh] at h6; exact absurd h6 (lt_irrefl _)
  · exact ⟨p, j, q, hp, by rw [hj]; exact h7, hu⟩

/-! ### C32 -/

/-- C32: after any history that leaves the DER disconnected, if no flag is set at any later evaluation, the DER is connected as soon as some
evaluation is more than `output_restore_delay` after the first healthy one `j`; it then stays connected. (Frequency ride-through disabled,
the default; delay non-negative, enforced by the settings check.) -/
theorem C32_recovered_reconnects {c : Cfg K W} {s : St K W} (hi : IsInit s) (hlf : s.lfEnable = false) (hrd : 0 ≤ c.recoDelay)
    (h : List (Inp K)) (j : Inp K) (q : List (Inp K)) (hlate : (run c s h).connLock < j.t)
    (hf : ∀ q1 q2, q = q1 ++ q2 → ¬ Flagged c s (h ++ j :: q1)) (i : Inp K) (hiq : i ∈ q) (hdelay : c.recoDelay < i.t - j.t) :
    (run c s (h ++ j :: q)).connected = true := by
  have inv : (run c s (h ++ j :: q)).connected = true ∨
      (0 < (run c s (h ++ j :: q)).tReco ∧ (run c s (h ++ j :: q)).tReco ≤ j.t ∧
        (run c s (h ++ j :: q)).connLock - (run c s (h ++ j :: q)).tReco ≤ c.recoDelay ∧
        (∀ x ∈ j :: q, x.t ≤ (run c s (h ++ j :: q)).connLock)) := by
    clear hiq hdelay
    induction q using List.reverseRecOn with
    | nil =>
      obtain ⟨a1, a2, a3, a4, a5, a6, a7, a8, a9⟩ := run_basic (c := c) hi hlf h
      have hfl := hf [] [] rfl
      unfold Flagged at hfl
      rw [run_snoc] at hfl ⊢
      have he := (eval_conn c (run c s h) j a1).1
      generalize (eval c (run c s h) j).1 = s2 at *
      generalize run c s h = s1 at *
      have e1 : s2.connected = _ := congrArg Conn.connected he
      have e2 : s2.tReco = _ := congrArg Conn.tReco he
      have e3 : s2.connLock = max s1.connLock j.t := (congrArg Conn.lock he).trans (connStep_lock _ _ _ _ _ _)
      rw [max_eq_right hlate.le] at e3
      rw [e1, e2, e3]
      have hpos : j.t > 0 := lt_of_le_of_lt a3 hlate
      have hnt : s2.trip = false := by simpa using fun hh => hfl (Or.inl hh)
      have hnm : s2.mc = false := by simpa using fun hh => hfl (Or.inr hh)
      unfold connStep
      rw [show s1.conn.lock = s1.connLock from rfl, if_pos hlate, show s1.conn.connected = s1.connected from rfl, hnt, hnm,
        show s1.conn.tReco = s1.tReco from rfl]
      simp only [Bool.or_self, Bool.false_eq_true, if_false, if_pos hpos]
      by_cases hc : s1.connected = true
      · left; rw [if_pos hc]; exact hc
      · rw [if_neg hc]
        split_ifs with h1 h2 h3
        · left; rfl
        · right; exact ⟨h1, le_trans a7 hlate.le, not_lt.1 h2, by simp⟩
        · right; exact ⟨hpos, le_refl _, by simpa using hrd, by simp⟩
        · exact absurd (le_antisymm (not_lt.1 h1) a6) h3
    | append_singleton q i ih =>
      have ih' := ih (fun q1 q2 hq => hf q1 (q2 ++ [i]) (by rw [hq]; simp))
      have happ : h ++ j :: (q ++ [i]) = (h ++ j :: q) ++ [i] := by simp
      have hfl := hf (q ++ [i]) [] (by simp)
      obtain ⟨a1, a2, a3, a4, a5, a6, a7, a8, a9⟩ := run_basic (c := c) hi hlf (h ++ j :: q)
      unfold Flagged at hfl
      rw [happ, run_snoc] at hfl ⊢
      have he := (eval_conn c (run c s (h ++ j :: q)) i a1).1
      generalize (eval c (run c s (h ++ j :: q)) i).1 = s2 at *
      generalize run c s (h ++ j :: q) = s1 at *
      have e1 : s2.connected = _ := congrArg Conn.connected he
      have e2 : s2.tReco = _ := congrArg Conn.tReco he
      have e3 : s2.connLock = max s1.connLock i.t := (congrArg Conn.lock he).trans (connStep_lock _ _ _ _ _ _)
      rw [e1, e2, e3]
      have hnt : s2.trip = false := by simpa using fun hh => hfl (Or.inl hh)
      have hnm : s2.mc = false := by simpa using fun hh => hfl (Or.inr hh)
      unfold connStep
      rw [show s1.conn.lock = s1.connLock from rfl, show s1.conn.connected = s1.connected from rfl, hnt, hnm,
        show s1.conn.tReco = s1.tReco from rfl]
      simp only [Bool.or_self, Bool.false_eq_true, if_false]
      have hmem : ∀ M : K, (∀ x ∈ j :: q, x.t ≤ M) → i.t ≤ M → ∀ x ∈ j :: (q ++ [i]), x.t ≤ M := by
        intro M h1 h2 x hx
        rw [← List.cons_append] at hx
        rcases List.mem_append.1 hx with hx | hx
        · exact h1 x hx
        · rw [List.mem_singleton.1 hx]; exact h2
      by_cases hnew : i.t > s1.connLock
      · have hpos : i.t > 0 := lt_of_le_of_lt a3 hnew
        rw [if_pos hnew, max_eq_right hnew.le]
        by_cases hc : s1.connected = true
        · left; rw [if_pos hc]; exact hc
        · rcases ih' with ih' | ⟨b1, b2, b3, b4⟩
          · exact absurd ih' hc
          rw [if_neg hc, if_pos hpos, if_pos b1]
          split_ifs with h2
          · left; rfl
          · right; exact ⟨b1, b2, not_lt.1 h2, hmem _ (fun x hx => le_trans (b4 x hx) hnew.le) (le_refl _)⟩
      · rw [if_neg hnew, max_eq_left (not_lt.1 hnew)]
        rcases ih' with ih' | ⟨b1, b2, b3, b4⟩
        · left; exact ih'
        · right; exact ⟨b1, b2, b3, hmem _ b4 (not_lt.1 hnew)⟩
  rcases inv with h1 | ⟨b1, b2, b3, b4⟩
  · exact h1
  · have := b4 i (by simp [hiq])
    exfalso
    linarith

/-- A short anomaly: disconnected by momentary cessation at t = 2, reconnected at t = 5. -/
def exDip : List (Inp ℚ) := [exInp 1 (2/5), exInp (3/2) (2/5), exInp 2 (2/5), exInp (5/2) 1, exInp 4 1, exInp 5 1]

example : (run exCfg exSt (exDip.take 3)).connected = false ∧ (run exCfg exSt (exDip.take 5)).connected = false ∧
    (run exCfg exSt exDip).connected = true ∧ (run exCfg exSt (exDip.take 3)).connLock < 5/2 ∧
    (∀ n ∈ [4, 5, 6], ¬ Flagged exCfg exSt (exDip.take n)) := by
  unfold Flagged
  decide +kernel

/-! ### C33 -/

/-- C33: whenever an evaluation of the connection logic leaves the DER disconnected — in any state, with any settings — it has zeroed the reactive power reference,
all current references and the PV power, pinned the DC reference to the present DC voltage, and disabled Volt-VAR and Volt-Watt. -/
theorem C33_disconnected_refs_zero (c : Cfg K W) (t : K) (s : St K W) (h : (disconnectOrReconnect c t s).1.connected = false) :
    let s' := (disconnectOrReconnect c t s).1
    s'.refs.Qref = 0 ∧ s'.refs.Ppv = 0 ∧ s'.refs.ia = (0, 0) ∧ s'.refs.ib = (0, 0) ∧ s'.refs.ic = (0, 0) ∧
      s'.refs.VdcRef = s.refs.Vdc ∧ s'.refs.Vdc = s.refs.Vdc ∧ s'.voltVar = false ∧ s'.voltWatt = false := by
  have hd : ∀ s : St K W, (disconnectLogic c t s).1.refs = s.refs := by intro s; unfold disconnectLogic; split_ifs <;> rfl
  have hr : ∀ s : St K W, (reconnectLogic c t s).1.refs = s.refs := by intro s; unfold reconnectLogic; split_ifs <;> rfl
  have hde : ∀ s : St K W, s.connected = true → (disconnectLogic c t s).2 = .ok () := by
    intro s hs; unfold disconnectLogic; rw [if_neg (by simp [hs])]; split_ifs <;> rfl
  have hre : ∀ s : St K W, s.connected = false → (reconnectLogic c t s).1.connected = false → (reconnectLogic c t s).2 = .ok () := by
    intro s hs; unfold reconnectLogic; rw [if_neg (by simp [hs])]; split_ifs <;> simp
  revert h
  unfold disconnectOrReconnect
  generalize hR : (if t > s.connLock then
      let s1 := { s with connLock := t }
      if s1.connected then
        if s1.trip || s1.mc then disconnectLogic c t s1 else (s1, .ok ())
      else
        if s1.trip = false then reconnectLogic c t s1 else (s1, .ok ())
    else ((s, .ok ()) : St K W × Except Err Unit)) = R
  have hrefs : R.1.refs = s.refs := by
    rw [← hR]
    simp only
    split_ifs
    · exact hd _
    · rfl
    · exact hr _
    · rfl
    · rfl
  have hok : R.1.connected = false → R.2 = .ok () := by
    rw [← hR]
    simp only
    split_ifs with h1 h2 h3 h4
    · exact fun _ => hde _ h2
    · exact fun _ => rfl
    · exact hre _ (by simpa using h2)
    · exact fun _ => rfl
    · exact fun _ => rfl
  simp only
  cases hR2 : R.2 with
  | error e => intro h; simp only at h; rw [hok h] at hR2; simp at hR2
  | ok _ =>
    simp only
    split_ifs with hcon
    · intro _
      have hv : R.1.refs.Vdc = s.refs.Vdc := congrArg Refs.Vdc hrefs
      exact ⟨rfl, rfl, rfl, rfl, rfl, hv, hv, rfl, rfl⟩
    · intro h; exact absurd h hcon

example : (run exCfg exSt (exDip.take 4)).connected = false ∧ (run exCfg exSt (exDip.take 4)).refs = ⟨0, 1, 1, 0, (0, 0), (0, 0), (0, 0)⟩ := by
  decide +kernel

/-! ### C34 -/

theorem eval_voltVar (c : Cfg K W) (s : St K W) (i : Inp K) :
    (s.voltVar = false → (eval c s i).1.voltVar = false) ∧
    ((eval c s i).2 = .ok () → (eval c s i).1.connected = false → (eval c s i).1.voltVar = false) := by
  have hr : ∀ (t : K) (s : St K W), (reconnectLogic c t s).1.voltVar = s.voltVar := by
    intro t s; unfold reconnectLogic; split_ifs <;> rfl
  have hd : ∀ (t : K) (s : St K W), (disconnectLogic c t s).1.voltVar = s.voltVar := by
    intro t s; unfold disconnectLogic; split_ifs <;> rfl
  have hu : ∀ (t V f : K) (s : St K W), (updateFlags c t V f s).1.voltVar = s.voltVar := by
    intro t V f s
    have hf : ∀ s : St K W, (frt c f t s).1.voltVar = s.voltVar := by
      intro s; unfold frt; split_ifs
      · rfl
      · exact hr _ _
      · rfl
    by_cases h : t > s.rtLock
    · rw [updateFlags_eq c t V f s h]
      simp only
      by_cases hl : s.lfEnable = true
      · simp only [hl, if_true]
        split <;> exact hf (vrtStep c t V s)
      · simp only [hl]; rfl
    · rw [updateFlags_lock c t V f s (not_lt.1 h)]
  have hdor : ∀ (t : K) (s : St K W), s.voltVar = false → (disconnectOrReconnect c t s).1.voltVar = false := by
    intro t s hs
    unfold disconnectOrReconnect
    simp only
    split_ifs
    all_goals split
    all_goals (try simp only [disconnect])
    all_goals first
      | rfl
      | exact hs
      | exact (hd _ _).trans hs
      | exact (hr _ _).trans hs
  constructor
  · intro hs
    unfold eval
    simp only
    split
    · rw [hu]; exact hs
    · exact hdor _ _ (by rw [hu]; exact hs)
  · unfold eval
    simp only
    split
    · intro h; simp at h
    · intro _ h
      exact (C33_disconnected_refs_zero c i.t _ h).2.2.2.2.2.2.2.1

/-- C34 is false for *every* run: once an evaluation (that did not raise) has left the DER disconnected, Volt-VAR is off at every later point of every continuation,
reconnected or not. -/
theorem C34_volt_var_lost (c : Cfg K W) (s : St K W) (h : List (Inp K)) (i : Inp K) (h' : List (Inp K))
    (hok : (eval c (run c s h) i).2 = .ok ()) (hd : (run c s (h ++ [i])).connected = false) :
    (run c s ((h ++ [i]) ++ h')).voltVar = false := by
  induction h' using List.reverseRecOn with
  | nil =>
    rw [List.append_nil, run_snoc]
    rw [run_snoc] at hd
    exact (eval_voltVar c _ i).2 hok hd
  | append_singleton h' x ih =>
    rw [← List.append_assoc, run_snoc]
    exact (eval_voltVar c _ x).1 ih

/-- Concrete: Volt-VAR enabled, momentary cessation, recovery and reconnection — Volt-VAR is off. -/
theorem C34_volt_var_lost_witness :
    exSt.voltVar = true ∧ (run exCfg exSt (exDip.take 3)).connected = false ∧ (run exCfg exSt exDip).connected = true ∧
      (run exCfg exSt exDip).voltVar = false := by decide +kernel

/-- C34 as far as it holds: while the DER is not disconnected, Volt-VAR stays as set by the user. -/
theorem C34_volt_var_kept_partial (c : Cfg K W) (t : K) (s : St K W) (h : (disconnectOrReconnect c t s).1.connected = true) :
    (disconnectOrReconnect c t s).1.voltVar = s.voltVar := by
  have hr : ∀ (s : St K W), (reconnectLogic c t s).1.voltVar = s.voltVar := by
    intro s; unfold reconnectLogic; split_ifs <;> rfl
  have hd : ∀ (s : St K W), (disconnectLogic c t s).1.voltVar = s.voltVar := by
    intro s; unfold disconnectLogic; split_ifs <;> rfl
  revert h
  unfold disconnectOrReconnect
  generalize hR : (if t > s.connLock then
      let s1 := { s with connLock := t }
      if s1.connected then
        if s1.trip || s1.mc then disconnectLogic c t s1 else (s1, .ok ())
      else
        if s1.trip = false then reconnectLogic c t s1 else (s1, .ok ())
    else ((s, .ok ()) : St K W × Except Err Unit)) = R
  have hv : R.1.voltVar = s.voltVar := by
    rw [← hR]
    simp only
    split_ifs
    · exact hd _
    · rfl
    · exact hr _
    · rfl
    · rfl
  simp only
  split
  · intro _; exact hv
  · split_ifs with hcon
    · intro h
      have : (disconnect R.1).connected = R.1.connected := rfl
      simp only [this, hcon] at h
      simp at h
    · intro _; exact hv

/-! ### C35 -/

/-- C35: the connection logic never trips over its own assertions, in any state: if it raises, the DC ramp started on reconnection raised. -/
theorem C35_no_assertion (c : Cfg K W) (t : K) (s : St K W) (e : Err) (h : (disconnectOrReconnect c t s).2 = .error e) :
    c.restoreVdc = true ∧ (c.ramp t s.w).2 = .error e := by
  have hde : ∀ s : St K W, s.connected = true → (disconnectLogic c t s).2 = .ok () := by
    intro s hs; unfold disconnectLogic; rw [if_neg (by simp [hs])]; split_ifs <;> rfl
  have hre : ∀ s : St K W, s.connected = false → (reconnectLogic c t s).2 = .error e → c.restoreVdc = true ∧ (c.ramp t s.w).2 = .error e := by
    intro s hs
    unfold reconnectLogic
    rw [if_neg (by simp [hs])]
    split_ifs <;> simp_all
  revert h
  unfold disconnectOrReconnect
  generalize hR : (if t > s.connLock then
      let s1 := { s with connLock := t }
      if s1.connected then
        if s1.trip || s1.mc then disconnectLogic c t s1 else (s1, .ok ())
      else
        if s1.trip = false then reconnectLogic c t s1 else (s1, .ok ())
    else ((s, .ok ()) : St K W × Except Err Unit)) = R
  have key : R.2 = .error e → c.restoreVdc = true ∧ (c.ramp t s.w).2 = .error e := by
    rw [← hR]
    simp only
    split_ifs with h1 h2 h3 h4
    · intro h; rw [hde { s with connLock := t } h2] at h; simp at h
    · intro h; simp at h
    · exact hre _ (by simpa using h2)
    · intro h; simp at h
    · intro h; simp at h
  simp only
  cases hR2 : R.2 with
  | error e' => intro h; simp only at h; exact key (by rw [hR2]; exact h)
  | ok _ => simp only; split_ifs <;> (intro h; simp at h)

/-- C35, defect: when the low-frequency logic has tripped while the DER is connected, every later advancing evaluation raises an
assertion error … -/
theorem C35_frequency_trip_raises (c : Cfg K W) (s : St K W) (i : Inp K) (hen : s.lfEnable = true) (htr : s.lfTrip = true)
    (hc : s.connected = true) (ht : i.t > s.rtLock) (hst : i.t > c.tStable) : (eval c s i).2 = .error .assertionError ∧ (eval c s i).1.connected = true := by
  have hu : ∀ s' : St K W, s'.lfEnable = true → s'.lfTrip = true → s'.connected = true → i.t > s'.rtLock →
      updateFlags c i.t i.V i.f s' = (vrtStep c i.t i.V s', .error .assertionError) := by
    intro s' hen htr hc ht
    rw [updateFlags_eq c i.t i.V i.f s' ht]
    have hfr : frt c i.f i.t (vrtStep c i.t i.V s') = (vrtStep c i.t i.V s', .error .assertionError) := by
      unfold frt
      rw [if_pos hst, if_neg (by simp [vrtStep, htr])]
      unfold reconnectLogic
      rw [if_pos (by simpa [vrtStep] using hc)]
    rw [if_pos hen, hfr]
  unfold eval
  rw [hu { s with refs := i.refs } hen htr hc ht]
  exact ⟨rfl, hc⟩

/-- … and a frequency trip alone never disconnects the DER: any evaluation that disconnects carries a voltage trip or cessation flag. -/
theorem C35_frequency_trip_never_disconnects (c : Cfg K W) (s : St K W) (i : Inp K) (hc : s.connected = true)
    (hnf : (eval c s i).1.trip = false) (hnm : (eval c s i).1.mc = false) : (eval c s i).1.connected = true := by
  rcases eval_disc c s i with ⟨_, h⟩ | ⟨h, _⟩
  · exact h hc
  · rw [hnf, hnm] at h; simp at h

example : (run exCfg { exSt with lfEnable := true } [{ exInp 1 1 with f := 50 }, { exInp 2 1 with f := 50 }]).lfTrip = true ∧
    (eval exCfg (run exCfg { exSt with lfEnable := true } [{ exInp 1 1 with f := 50 }, { exInp 2 1 with f := 50 }]) (exInp 3 1)).2
      = .error .assertionError := by decide +kernel

end RT
end PvDer
