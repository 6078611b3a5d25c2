import Verif.Lemmas.RTRun
import Mathlib.Tactic.Linarith

set_option linter.unusedSectionVars false

namespace PvDer
namespace RT

variable {K W : Type} [Field K] [LinearOrder K] [IsStrictOrderedRing K]

/-- The part of the state that the connection logic looks at or changes. -/
structure Conn (K : Type) where
  connected : Bool
  tDisc : K
  tReco : K
  lock : K

/-- Connection part of a state. -/
def St.conn (s : St K W) : Conn K := ⟨s.connected, s.tDisc, s.tReco, s.connLock⟩

/-- Connection step as a function of the flags (equal to the code, see `dor_conn`). -/
def connStep (dd rd t : K) (trip mc : Bool) (x : Conn K) : Conn K :=
  if t > x.lock then
    if x.connected then
      if trip || mc then
        if x.tDisc = 0 then { x with lock := t, tDisc := t }
        else if t - x.tDisc < dd then { x with lock := t }
        else { x with lock := t, tDisc := 0, connected := false }
      else { x with lock := t }
    else if trip then { x with lock := t }
    else if mc then (if x.tReco > 0 then { x with lock := t, tReco := 0 } else { x with lock := t })
    else if t > 0 then
      if x.tReco > 0 then
        if t - x.tReco > rd then { x with lock := t, connected := true, tReco := 0 } else { x with lock := t }
      else if x.tReco = 0 then { x with lock := t, tReco := t }
      else { x with lock := t }
    else { x with lock := t }
  else x

theorem disconnect_conn (s : St K W) : (disconnect s).conn = s.conn := rfl

theorem dor_conn (c : Cfg K W) (t : K) (s : St K W) :
    (disconnectOrReconnect c t s).1.conn = connStep c.discDelay c.recoDelay t s.trip s.mc s.conn := by
  have hfin : ∀ r : St K W × Except Err Unit,
      (match r.2 with
        | .error e => ((r.1, .error e) : St K W × Except Err Unit)
        | .ok _ => if r.1.connected = false then (disconnect r.1, .ok ()) else (r.1, .ok ())).1.conn = r.1.conn := by
    intro r
    split
    · rfl
    · split_ifs
      · exact disconnect_conn _
      · rfl
  unfold disconnectOrReconnect
  refine Eq.trans (hfin _) ?_
  simp only
  unfold connStep
  by_cases ht : t > s.connLock
  · have ht' : t > s.conn.lock := ht
    rw [if_pos ht, if_pos ht']
    by_cases hc : s.connected = true
    · have hc' : s.conn.connected = true := hc
      rw [if_pos hc, if_pos hc']
      split_ifs with h1 h2 h3
      · unfold disconnectLogic
        rw [if_neg (by simp [hc]), if_pos (show s.tDisc = 0 from h2)]; rfl
      · unfold disconnectLogic
        rw [if_neg (by simp [hc]), if_neg (show ¬ s.tDisc = 0 from h2), if_pos (show t - s.tDisc < _ from h3)]; rfl
      · unfold disconnectLogic
        rw [if_neg (by simp [hc]), if_neg (show ¬ s.tDisc = 0 from h2), if_neg (show ¬ t - s.tDisc < _ from h3),
          if_pos (not_lt.1 (show ¬ t - s.tDisc < _ from h3))]; rfl
      · rfl
    · have hc' : ¬ s.conn.connected = true := hc
      rw [if_neg hc, if_neg hc']
      by_cases htr : s.trip = true
      · rw [if_neg (by simp [htr]), if_pos htr]; rfl
      · rw [if_pos (by simpa using htr), if_neg htr]
        unfold reconnectLogic
        rw [if_neg (show ¬ s.connected = true from hc)]
        by_cases hm : s.mc = true
        · rw [if_pos hm, if_pos hm]
          by_cases hr : s.tReco > 0
          · rw [if_pos hr, if_pos (show s.conn.tReco > 0 from hr)]; rfl
          · rw [if_neg hr, if_neg (show ¬ s.conn.tReco > 0 from hr)]; rfl
        · rw [if_neg hm, if_neg hm]
          by_cases h0 : t > 0
          · rw [if_pos h0, if_pos h0]
            by_cases hr : s.tReco > 0
            · rw [if_pos hr, if_pos (show s.conn.tReco > 0 from hr)]
              by_cases hd : t - s.tReco > c.recoDelay
              · rw [if_pos hd, if_pos (show t - s.conn.tReco > c.recoDelay from hd)]
                split_ifs <;> rfl
              · rw [if_neg hd, if_neg (show ¬ t - s.conn.tReco > c.recoDelay from hd)]; rfl
            · rw [if_neg hr, if_neg (show ¬ s.conn.tReco > 0 from hr)]
              by_cases hz : s.tReco = 0
              · rw [if_pos hz, if_pos (show s.conn.tReco = 0 from hz)]; rfl
              · rw [if_neg hz, if_neg (show ¬ s.conn.tReco = 0 from hz)]; rfl
          · rw [if_neg h0, if_neg h0]; rfl
  · have ht' : ¬ t > s.conn.lock := ht
    rw [if_neg ht, if_neg ht']

theorem updateFlags_conn (c : Cfg K W) (t V f : K) (s : St K W) (hlf : s.lfEnable = false) :
    (updateFlags c t V f s).1.conn = s.conn ∧ (updateFlags c t V f s).2 = .ok () ∧ (updateFlags c t V f s).1.lfEnable = false ∧
    (updateFlags c t V f s).1.rtLock = max s.rtLock t := by
  by_cases h : t > s.rtLock
  · rw [updateFlags_eq c t V f s h, hlf]
    exact ⟨rfl, rfl, hlf, (max_eq_right h.le).symm⟩
  · rw [updateFlags_lock c t V f s (not_lt.1 h)]
    exact ⟨rfl, rfl, hlf, (max_eq_left (not_lt.1 h)).symm⟩

/-- With the frequency logic off, one evaluation acts on the connection state through the flags it leaves behind. -/
theorem eval_conn (c : Cfg K W) (s : St K W) (i : Inp K) (hlf : s.lfEnable = false) :
    (eval c s i).1.conn = connStep c.discDelay c.recoDelay i.t (eval c s i).1.trip (eval c s i).1.mc s.conn ∧
    (eval c s i).1.rtLock = max s.rtLock i.t ∧ (eval c s i).1.lfEnable = false := by
  obtain ⟨h1, h2, h3, h4⟩ := updateFlags_conn c i.t i.V i.f { s with refs := i.refs } hlf
  have hk := eval_keeps c s i
  refine ⟨?_, hk.2.2.1.trans h4, hk.2.2.2.2.2.1.trans h3⟩
  rw [hk.2.2.2.2.2.2.1, hk.2.2.2.2.2.2.2]
  have hev : eval c s i = disconnectOrReconnect c i.t (updateFlags c i.t i.V i.f { s with refs := i.refs }).1 := by
    unfold eval; simp only [h2]
  rw [hev, dor_conn, h1]
  rfl

theorem connStep_lock (dd rd t : K) (trip mc : Bool) (x : Conn K) : (connStep dd rd t trip mc x).lock = max x.lock t := by
  unfold connStep
  by_cases h : t > x.lock
  · rw [if_pos h, max_eq_right h.le]; split_ifs <;> rfl
  · rw [if_neg h, max_eq_left (not_lt.1 h)]

/-- Basic facts of a run with the frequency logic off. -/
theorem run_basic {c : Cfg K W} {s : St K W} (hi : IsInit s) (hlf : s.lfEnable = false) (h : List (Inp K)) :
    (run c s h).lfEnable = false ∧ (run c s h).rtLock = (run c s h).connLock ∧ 0 ≤ (run c s h).connLock ∧
    0 ≤ (run c s h).tDisc ∧ (run c s h).tDisc ≤ (run c s h).connLock ∧
    0 ≤ (run c s h).tReco ∧ (run c s h).tReco ≤ (run c s h).connLock ∧ ((run c s h).connected = true → (run c s h).tReco = 0) ∧
    ((run c s h).connected = false → (run c s h).tDisc = 0) := by
  induction h using List.reverseRecOn with
  | nil => simp [run, hlf, hi.rl, hi.cl, hi.td, hi.tr, hi.conn]
  | append_singleton h i ih =>
    rw [run_snoc]
    obtain ⟨a1, a2, a3, a4, a5, a6, a7, a8, a9⟩ := ih
    obtain ⟨b1, b2, b3⟩ := eval_conn c (run c s h) i a1
    generalize (eval c (run c s h) i).1 = s2 at *
    generalize run c s h = s1 at *
    have e1 : s2.connected = (connStep c.discDelay c.recoDelay i.t s2.trip s2.mc s1.conn).connected := congrArg Conn.connected b1
    have e2 : s2.tDisc = (connStep c.discDelay c.recoDelay i.t s2.trip s2.mc s1.conn).tDisc := congrArg Conn.tDisc b1
    have e3 : s2.tReco = (connStep c.discDelay c.recoDelay i.t s2.trip s2.mc s1.conn).tReco := congrArg Conn.tReco b1
    have e4 : s2.connLock = max s1.connLock i.t := (congrArg Conn.lock b1).trans (connStep_lock _ _ _ _ _ _)
    have hm1 : s1.connLock ≤ max s1.connLock i.t := le_max_left _ _
    have hm2 : i.t ≤ max s1.connLock i.t := le_max_right _ _
    refine ⟨b3, by rw [b2, e4, a2], by rw [e4]; exact le_trans a3 hm1, ?_⟩
    have p1 : s1.conn.connected = s1.connected := rfl
    have p2 : s1.conn.tDisc = s1.tDisc := rfl
    have p3 : s1.conn.tReco = s1.tReco := rfl
    have p4 : s1.conn.lock = s1.connLock := rfl
    rw [e4, e1, e2, e3]
    unfold connStep
    rw [p1, p2, p3, p4]
    have q1 : s1.tDisc ≤ max s1.connLock i.t := le_trans a5 hm1
    have q2 : s1.tReco ≤ max s1.connLock i.t := le_trans a7 hm1
    have q3 : (0:K) ≤ max s1.connLock i.t := le_trans a3 hm1
    split_ifs with ht
    all_goals simp only [p1, p2, p3]
    all_goals first
      | exact ⟨a4, q1, a6, q2, a8, a9⟩
      | skip
    all_goals have q4 : 0 ≤ i.t := le_trans a3 (le_of_lt ht)
    all_goals refine ⟨?_, ?_, ?_, ?_, ?_, ?_⟩
    all_goals first
      | assumption
      | exact le_refl _
      | exact fun _ => rfl
      | (intro hh; simp_all)

end RT
end PvDer
