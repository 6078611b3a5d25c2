import Verif.Model.Multi
import Verif.Props.Frequency
/-!
C85: instances do not influence each other. C86: the instantaneous-trip switch.
-/
namespace PvDer
namespace RT
variable {K W : Type} [Field K] [LinearOrder K]

/-- The evaluations of instance `i` in an interleaving, in order. -/
def own (i : Nat) (h : List (Nat × Inp K)) : List (Inp K) := (h.filter fun e => e.1 = i).map Prod.snd

theorem own_cons (i : Nat) (e : Nat × Inp K) (h : List (Nat × Inp K)) : own i (e :: h) = if e.1 = i then e.2 :: own i h else own i h := by
  unfold own
  by_cases he : e.1 = i <;> simp [he]

theorem step_cfg (w : World K W) (e : Nat × Inp K) : (w.step e).cfg = w.cfg ∧ (w.step e).ref = w.ref := ⟨rfl, rfl⟩

theorem view_step_self (w : World K W) (e : Nat × Inp K) : (w.step e).view e.1 = (eval (w.cfg e.1) (w.view e.1) e.2).1 := by
  unfold World.step World.view
  simp

/-- **C85 (own table).** If no other instance uses the same frequency table object, then under every interleaving of evaluations of any number of instances, an instance ends in exactly the state it would reach alone,
with only its own evaluations. -/
theorem C85_own_table_independent (w : World K W) (i : Nat) (hr : ∀ j, j ≠ i → w.ref j ≠ w.ref i) (h : List (Nat × Inp K)) :
    (w.run h).view i = run (w.cfg i) (w.view i) (own i h) := by
  induction h generalizing w with
  | nil => rfl
  | cons e h ih =>
    have := ih (w.step e) hr
    rw [own_cons]
    change ((w.step e).run h).view i = _
    rw [this]
    by_cases he : e.1 = i
    · subst he
      rw [if_pos rfl, view_step_self]
      rfl
    · rw [if_neg he]
      congr 1
      unfold World.step World.view
      simp [Ne.symm he, Ne.symm (hr e.1 he)]

/-- The state with the frequency table left out. -/
def St.noLf (s : St K W) : St K W := { s with lf := [] }

theorem eval_noLf (c : Cfg K W) (s : St K W) (i : Inp K) (h : s.lfEnable = false) (z : List (LfZone K)) :
    (eval c { s with lf := z } i).1 = { (eval c s i).1 with lf := z } ∧ (eval c s i).1.lfEnable = false ∧ (eval c s i).1.lf = s.lf := by
  have h2 : ∀ (t : K) (s : St K W), (reconnectLogic c t { s with lf := z }) = ({ (reconnectLogic c t s).1 with lf := z }, (reconnectLogic c t s).2) ∧
      (reconnectLogic c t s).1.lfEnable = s.lfEnable ∧ (reconnectLogic c t s).1.lf = s.lf := by
    intro t s
    unfold reconnectLogic
    simp only
    split_ifs <;> simp
  have h3 : ∀ (t : K) (s : St K W), (disconnectLogic c t { s with lf := z }) = ({ (disconnectLogic c t s).1 with lf := z }, (disconnectLogic c t s).2) ∧
      (disconnectLogic c t s).1.lfEnable = s.lfEnable ∧ (disconnectLogic c t s).1.lf = s.lf := by
    intro t s
    unfold disconnectLogic
    simp only
    split_ifs <;> simp
  have h4 : ∀ (t : K) (s : St K W), (disconnectOrReconnect c t { s with lf := z }) = ({ (disconnectOrReconnect c t s).1 with lf := z }, (disconnectOrReconnect c t s).2) ∧
      (disconnectOrReconnect c t s).1.lfEnable = s.lfEnable ∧ (disconnectOrReconnect c t s).1.lf = s.lf := by
    intro t s
    have h2' := h2 t { s with connLock := t }
    have h3' := h3 t { s with connLock := t }
    let fin : St K W × Except Err Unit → St K W × Except Err Unit := fun r =>
      match r.2 with
      | .error e => (r.1, .error e)
      | .ok _ => if r.1.connected = false then (disconnect r.1, .ok ()) else (r.1, .ok ())
    have hfin : ∀ r : St K W × Except Err Unit, fin ({ r.1 with lf := z }, r.2) = ({ (fin r).1 with lf := z }, (fin r).2) ∧
        (fin r).1.lfEnable = r.1.lfEnable ∧ (fin r).1.lf = r.1.lf := by
      rintro ⟨r, q⟩
      cases q with
      | error e => exact ⟨rfl, rfl, rfl⟩
      | ok u =>
        simp only [fin]
        split_ifs <;> simp [disconnect]
    let inner : St K W → St K W × Except Err Unit := fun s =>
      if t > s.connLock then
        let s1 := { s with connLock := t }
        if s1.connected then
          if s1.trip || s1.mc then disconnectLogic c t s1 else (s1, .ok ())
        else
          if s1.trip = false then reconnectLogic c t s1 else (s1, .ok ())
      else (s, .ok ())
    have hin : inner { s with lf := z } = ({ (inner s).1 with lf := z }, (inner s).2) ∧ (inner s).1.lfEnable = s.lfEnable ∧ (inner s).1.lf = s.lf := by
      simp only [inner]
      split_ifs
      · exact h3'
      · exact ⟨rfl, rfl, rfl⟩
      · exact h2'
      · exact ⟨rfl, rfl, rfl⟩
      · exact ⟨rfl, rfl, rfl⟩
    change fin (inner { s with lf := z }) = ({ (fin (inner s)).1 with lf := z }, (fin (inner s)).2) ∧ (fin (inner s)).1.lfEnable = s.lfEnable ∧ (fin (inner s)).1.lf = s.lf
    rw [hin.1]
    refine ⟨(hfin (inner s)).1, by rw [(hfin _).2.1, hin.2.1], by rw [(hfin _).2.2, hin.2.2]⟩
  have h5 : ∀ s : St K W, s.lfEnable = false → updateFlags c i.t i.V i.f { s with lf := z } = ({ (updateFlags c i.t i.V i.f s).1 with lf := z }, (updateFlags c i.t i.V i.f s).2) ∧
      (updateFlags c i.t i.V i.f s).1.lfEnable = false ∧ (updateFlags c i.t i.V i.f s).1.lf = s.lf ∧ (updateFlags c i.t i.V i.f s).2 = .ok () := by
    intro s hs
    unfold updateFlags
    by_cases a : i.t > s.rtLock
    · cases hl : s.lvEnable <;> cases hh : s.hvEnable <;> simp [a, hs, hl, hh]
    · simp [a, hs]
  obtain ⟨a1, a2, a3, a4⟩ := h5 { s with refs := i.refs } h
  simp only at a1 a3
  unfold eval
  simp only [a1, a4]
  obtain ⟨b1, b2, b3⟩ := h4 i.t (updateFlags c i.t i.V i.f { s with refs := i.refs }).1
  refine ⟨by rw [b1], by rw [b2, a2], by rw [b3, a3]⟩

/-- **C85 (frequency logic off, the default).** An instance whose low-frequency logic is disabled behaves, apart from the contents of the shared frequency table, as if it were alone, whatever the other instances do and even if
they use the same table. -/
theorem C85_disabled_independent (w : World K W) (i : Nat) (hi : (w.inst i).lfEnable = false) (h : List (Nat × Inp K)) :
    ((w.run h).view i).noLf = (run (w.cfg i) (w.view i) (own i h)).noLf := by
  have key : ∀ (h : List (Nat × Inp K)) (w : World K W) (s : St K W), (w.inst i).lfEnable = false → (w.view i).noLf = s.noLf →
      ((w.run h).view i).noLf = (run (w.cfg i) s (own i h)).noLf := by
    intro h
    induction h with
    | nil => intro w s _ hs; exact hs
    | cons e h ih =>
      intro w s hen hs
      rw [own_cons]
      change ((w.step e).run h |>.view i).noLf = _
      by_cases he : e.1 = i
      · subst he
        rw [if_pos rfl]
        have hv : (w.view e.1).lfEnable = false := hen
        have hse : w.view e.1 = { s with lf := (w.view e.1).lf } := by
          have : { (w.view e.1).noLf with lf := (w.view e.1).lf } = { s.noLf with lf := (w.view e.1).lf } := by rw [hs]
          exact this
        have hsen : s.lfEnable = false := by
          have := congrArg St.lfEnable hse
          rw [hv] at this
          exact this.symm
        refine ih (w.step e) (eval (w.cfg e.1) s e.2).1 ?_ ?_
        · simp only [World.step, if_true]
          exact (eval_noLf (w.cfg e.1) (w.view e.1) e.2 hv []).2.1
        · rw [view_step_self, hse, (eval_noLf (w.cfg e.1) s e.2 hsen _).1]
          rfl
      · rw [if_neg he]
        refine ih (w.step e) s ?_ ?_
        · simp only [World.step, if_neg (Ne.symm he)]
          exact hen
        · rw [← hs]
          unfold World.step World.view St.noLf
          simp [Ne.symm he]
  exact key h w (w.view i) hi rfl

/-- **C85 (voltage ride-through).** With any sharing of the frequency tables and with the frequency logic on or off, the voltage ride-through zones, timers and flags of an instance depend only on its own evaluations. -/
theorem C85_voltage_independent [IsStrictOrderedRing K] (w : World K W) (i : Nat) (h : List (Nat × Inp K)) :
    ((w.run h).view i).lv = (run (w.cfg i) (w.view i) (own i h)).lv ∧ ((w.run h).view i).hv = (run (w.cfg i) (w.view i) (own i h)).hv := by
  have key : ∀ (h : List (Nat × Inp K)) (w : World K W) (s : St K W), ((w.view i).lv = s.lv ∧ (w.view i).hv = s.hv ∧ (w.view i).rtLock = s.rtLock ∧ (w.view i).lvEnable = s.lvEnable ∧ (w.view i).hvEnable = s.hvEnable) →
      ((w.run h).view i).lv = (run (w.cfg i) s (own i h)).lv ∧ ((w.run h).view i).hv = (run (w.cfg i) s (own i h)).hv := by
    intro h
    induction h with
    | nil => intro w s hs; exact ⟨hs.1, hs.2.1⟩
    | cons e h ih =>
      intro w s hs
      rw [own_cons]
      change (((w.step e).run h).view i).lv = _ ∧ (((w.step e).run h).view i).hv = _
      by_cases he : e.1 = i
      · subst he
        rw [if_pos rfl]
        refine ih (w.step e) (eval (w.cfg e.1) s e.2).1 ?_
        rw [view_step_self]
        have k1 := run_vrt (w.cfg e.1) (w.view e.1) [e.2]
        have k2 := run_vrt (w.cfg e.1) s [e.2]
        have l1 := run_rtLock (w.cfg e.1) (w.view e.1) [e.2]
        have l2 := run_rtLock (w.cfg e.1) s [e.2]
        simp only [run, List.foldl_cons, List.foldl_nil] at k1 k2 l1 l2
        obtain ⟨e1, e2, e3, e4, e5⟩ := hs
        rw [e1, e2, e3, e4, e5] at k1
        refine ⟨by rw [k1.1, k2.1], by rw [k1.2.1, k2.2.1], ?_, by rw [k1.2.2.1, k2.2.2.1], by rw [k1.2.2.2.1, k2.2.2.2.1]⟩
        rw [l1, l2, e3]
      · rw [if_neg he]
        refine ih (w.step e) s ?_
        unfold World.step World.view
        simp only [if_neg (Ne.symm he)]
        exact hs
  exact key h w (w.view i) ⟨rfl, rfl, rfl, rfl, rfl⟩

/-- Two instances constructed without `LFRT` settings of their own, low-frequency logic enabled. -/
def exWorld : World ℚ Unit := ⟨fun _ => exCfg, fun _ => exLf, fun k => frtRef false k, fun _ => [⟨57, 1, 0⟩, ⟨588/10, 299, 0⟩]⟩

/-- Refuted part (C85): with the default settings, instances share the module-level frequency table. Here instance 2 sees a frequency of 56 Hz only at 5 s and would not trip alone, but trips because instance 1 saw 56 Hz at 1 s. -/
theorem C85_shared_table_refuted :
    ((exWorld.run [(1, { exInp 1 1 with f := 56 }), (2, { exInp 5 1 with f := 56 })]).view 2).lfTrip = true ∧
    (run exCfg (exWorld.view 2) [{ exInp 5 1 with f := 56 }]).lfTrip = false := by
  decide +kernel

/-- … and conversely a healthy instance clears the timer of a neighbour, which then fails to trip although alone it would. -/
theorem C85_shared_table_masks_trip :
    ((exWorld.run [(1, { exInp 1 1 with f := 56 }), (2, { exInp 2 1 with f := 60 }), (1, { exInp 3 1 with f := 56 })]).view 1).lfTrip = false ∧
    (run exCfg (exWorld.view 1) [{ exInp 1 1 with f := 56 }, { exInp 3 1 with f := 56 }]).lfTrip = true := by
  decide +kernel

/-- Non-vacuity of `C85_own_table_independent`: instance 2 with settings of its own. -/
example : ∀ j, j ≠ 2 → (fun k => frtRef (k = 2) k : Nat → Nat) j ≠ (fun k => frtRef (k = 2) k : Nat → Nat) 2 := by
  intro j hj
  simp [frtRef, hj, moduleObject]

/-- Status of C85: instances are independent if their frequency tables are distinct objects (configured in the file) or the frequency logic is off; what is missing is the default table with the logic on, where the claim is
false (`C85_shared_table_refuted`). -/
theorem C85_independent_partial (w : World K W) (i : Nat) (hi : (∀ j, j ≠ i → w.ref j ≠ w.ref i) ∨ (w.inst i).lfEnable = false) (h : List (Nat × Inp K)) :
    ((w.run h).view i).noLf = (run (w.cfg i) (w.view i) (own i h)).noLf := by
  rcases hi with hr | hi
  · rw [C85_own_table_independent w i hr]
  · exact C85_disabled_independent w i hi h

/-! ### C86 -/

/-- Two-level tables, as `check_LFRT_settings` requires. -/
def TwoLevels (l : List (LfZone K)) : Prop := ∃ a b r, l = a :: b :: r

/-- **C86 (on).** Switching instantaneous trip on sets both low-frequency time limits to half a second and changes nothing else in the table. -/
theorem C86_on (w : World K W) (i : Nat) (a b : LfZone K) (r : List (LfZone K)) (h : w.heap (w.ref i) = a :: b :: r) :
    ((w.setInstTrip i true).view i).lf = { a with tLimit := 30 * (1/60) } :: { b with tLimit := 30 * (1/60) } :: r := by
  simp [World.view, World.setInstTrip, RT.setInstTrip, h]

/-- **C86 (off is a no-op).** Switching it off never changes the table, since the "configured" limits it copies are the very entries it overwrites. -/
theorem C86_off_noop (w : World K W) (i : Nat) : (w.setInstTrip i false).heap = w.heap := by
  funext r
  simp only [World.setInstTrip]
  split_ifs with h
  · unfold RT.setInstTrip
    rcases w.heap r with _ | ⟨a, _ | ⟨b, l⟩⟩ <;> simp
  · rfl

/-- **C86 (refuted).** So the configured limits are lost for good: on followed by off leaves half a second, for every table. -/
theorem C86_not_restored (w : World K W) (i : Nat) : ((w.setInstTrip i true).setInstTrip i false).heap = (w.setInstTrip i true).heap :=
  C86_off_noop _ i

/-- **C86 (leaks to other instances).** The switch of one instance changes the limits of every instance that shares the table, in particular of all instances with default settings. -/
theorem C86_affects_sharers (w : World K W) (i j : Nat) (on : Bool) (h : w.ref j = w.ref i) :
    ((w.setInstTrip i on).view j).lf = ((w.setInstTrip i on).view i).lf := by
  simp [World.view, World.setInstTrip, h]

/-- In particular of every instance set up without settings of its own, whatever object `a`, `b` it would have been given. -/
theorem C86_affects_defaults (w : World K W) (i j a b : Nat) (on : Bool) (hi : w.ref i = frtRef false a) (hj : w.ref j = frtRef false b) :
    ((w.setInstTrip i on).view j).lf = ((w.setInstTrip i on).view i).lf :=
  C86_affects_sharers w i j on (by rw [hi, hj]; rfl)

/-- … and of no other. -/
theorem C86_others_unaffected (w : World K W) (i j : Nat) (on : Bool) (h : w.ref j ≠ w.ref i) : (w.setInstTrip i on).view j = w.view j := by
  simp [World.view, World.setInstTrip, h]

example : (((exWorld.setInstTrip 1 true).setInstTrip 1 false).view 2).lf = [⟨57, 1/2, 0⟩, ⟨588/10, 1/2, 0⟩] := by
  decide +kernel

end RT
end PvDer
