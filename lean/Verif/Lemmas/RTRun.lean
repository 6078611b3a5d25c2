import Verif.Lemmas.Zone

set_option linter.unusedSectionVars false

namespace PvDer
namespace RT

variable {K W : Type} [Field K] [LinearOrder K] [IsStrictOrderedRing K]

theorem records_gt (lock : K) (h : List (K × K)) : ∀ x ∈ records lock h, lock < x.1 := by
  induction h generalizing lock with
  | nil => simp [records]
  | cons y ys ih =>
    unfold records
    split_ifs with hy
    · intro x hx
      rcases List.mem_cons.1 hx with rfl | hx
      · exact hy
      · exact lt_trans hy (ih y.1 x hx)
    · exact ih lock

theorem records_increasing (lock : K) (h : List (K × K)) : Increasing (records lock h) := by
  induction h generalizing lock with
  | nil => exact List.Pairwise.nil
  | cons y ys ih =>
    unfold records
    split_ifs with hy
    · exact List.Pairwise.cons (fun x hx => records_gt y.1 ys x hx) (ih y.1)
    · exact ih lock

/-- On strictly increasing times after `lock` every sample is a record. -/
theorem records_eq (lock : K) (h : List (K × K)) (hinc : Increasing h) (hl : ∀ x ∈ h, lock < x.1) : records lock h = h := by
  induction h generalizing lock with
  | nil => rfl
  | cons y ys ih =>
    unfold Increasing at hinc
    rw [List.pairwise_cons] at hinc
    unfold records
    rw [if_pos (hl y (by simp)), ih y.1 hinc.2 hinc.1]

/-! ### Fields not touched by the connection logic -/

theorem reconnect_keeps (c : Cfg K W) (t : K) (s : St K W) :
    (reconnectLogic c t s).1.lv = s.lv ∧ (reconnectLogic c t s).1.hv = s.hv ∧ (reconnectLogic c t s).1.rtLock = s.rtLock ∧
    (reconnectLogic c t s).1.lvEnable = s.lvEnable ∧ (reconnectLogic c t s).1.hvEnable = s.hvEnable ∧
    (reconnectLogic c t s).1.lfEnable = s.lfEnable ∧ (reconnectLogic c t s).1.trip = s.trip ∧ (reconnectLogic c t s).1.mc = s.mc ∧
    (reconnectLogic c t s).1.lf = s.lf ∧ (reconnectLogic c t s).1.lfTrip = s.lfTrip ∧ (reconnectLogic c t s).1.connLock = s.connLock := by
  unfold reconnectLogic
  split_ifs <;> simp

theorem disconnectLogic_keeps (c : Cfg K W) (t : K) (s : St K W) :
    (disconnectLogic c t s).1.lv = s.lv ∧ (disconnectLogic c t s).1.hv = s.hv ∧ (disconnectLogic c t s).1.rtLock = s.rtLock ∧
    (disconnectLogic c t s).1.lvEnable = s.lvEnable ∧ (disconnectLogic c t s).1.hvEnable = s.hvEnable ∧
    (disconnectLogic c t s).1.lfEnable = s.lfEnable ∧ (disconnectLogic c t s).1.trip = s.trip ∧ (disconnectLogic c t s).1.mc = s.mc ∧
    (disconnectLogic c t s).1.lf = s.lf ∧ (disconnectLogic c t s).1.lfTrip = s.lfTrip ∧ (disconnectLogic c t s).1.connLock = s.connLock := by
  unfold disconnectLogic
  split_ifs <;> simp

theorem dor_keeps (c : Cfg K W) (t : K) (s : St K W) :
    (disconnectOrReconnect c t s).1.lv = s.lv ∧ (disconnectOrReconnect c t s).1.hv = s.hv ∧ (disconnectOrReconnect c t s).1.rtLock = s.rtLock ∧
    (disconnectOrReconnect c t s).1.lvEnable = s.lvEnable ∧ (disconnectOrReconnect c t s).1.hvEnable = s.hvEnable ∧
    (disconnectOrReconnect c t s).1.lfEnable = s.lfEnable ∧ (disconnectOrReconnect c t s).1.trip = s.trip ∧
    (disconnectOrReconnect c t s).1.mc = s.mc ∧
    (disconnectOrReconnect c t s).1.lf = s.lf ∧ (disconnectOrReconnect c t s).1.lfTrip = s.lfTrip := by
  have h1 := disconnectLogic_keeps c t { s with connLock := t }
  have h2 := reconnect_keeps c t { s with connLock := t }
  unfold disconnectOrReconnect
  simp only
  split_ifs
  all_goals split
  all_goals (try simp only [disconnect])
  all_goals first
    | exact ⟨h1.1, h1.2.1, h1.2.2.1, h1.2.2.2.1, h1.2.2.2.2.1, h1.2.2.2.2.2.1, h1.2.2.2.2.2.2.1, h1.2.2.2.2.2.2.2.1, h1.2.2.2.2.2.2.2.2.1, h1.2.2.2.2.2.2.2.2.2.1⟩
    | exact ⟨h2.1, h2.2.1, h2.2.2.1, h2.2.2.2.1, h2.2.2.2.2.1, h2.2.2.2.2.2.1, h2.2.2.2.2.2.2.1, h2.2.2.2.2.2.2.2.1, h2.2.2.2.2.2.2.2.2.1, h2.2.2.2.2.2.2.2.2.2.1⟩
    | simp

theorem frt_keeps (c : Cfg K W) (f t : K) (s : St K W) :
    (frt c f t s).1.lv = s.lv ∧ (frt c f t s).1.hv = s.hv ∧ (frt c f t s).1.rtLock = s.rtLock ∧ (frt c f t s).1.lvEnable = s.lvEnable ∧
    (frt c f t s).1.hvEnable = s.hvEnable ∧ (frt c f t s).1.lfEnable = s.lfEnable ∧ (frt c f t s).1.trip = s.trip ∧ (frt c f t s).1.mc = s.mc := by
  have h2 := reconnect_keeps c t s
  unfold frt
  split_ifs
  · exact ⟨rfl, rfl, rfl, rfl, rfl, rfl, rfl, rfl⟩
  · exact ⟨h2.1, h2.2.1, h2.2.2.1, h2.2.2.2.1, h2.2.2.2.2.1, h2.2.2.2.2.2.1, h2.2.2.2.2.2.2.1, h2.2.2.2.2.2.2.2.1⟩
  · exact ⟨rfl, rfl, rfl, rfl, rfl, rfl, rfl, rfl⟩

/-- The state just before the frequency logic in `update_ridethrough_flags`. -/
def vrtStep (c : Cfg K W) (t V : K) (s : St K W) : St K W :=
  { s with rtLock := t, lv := if s.lvEnable then lvrt c.tStable c.Vref V t s.lv else s.lv,
           hv := if s.hvEnable then hvrt c.tStable c.Vref V t s.hv else s.hv }

theorem updateFlags_eq (c : Cfg K W) (t V f : K) (s : St K W) (h : t > s.rtLock) :
    updateFlags c t V f s =
      (let r : St K W × Except Err Unit := if s.lfEnable then frt c f t (vrtStep c t V s) else (vrtStep c t V s, .ok ())
       match r.2 with
       | .error e => (r.1, .error e)
       | .ok _ => ({ r.1 with trip := r.1.lv.trip || r.1.hv.trip, mc := r.1.lv.mc || r.1.hv.mc }, .ok ())) := by
  unfold updateFlags vrtStep
  rw [if_pos h]
  simp only
  split_ifs <;> rfl

theorem updateFlags_lock (c : Cfg K W) (t V f : K) (s : St K W) (h : t ≤ s.rtLock) : updateFlags c t V f s = (s, .ok ()) := by
  unfold updateFlags
  rw [if_neg (not_lt.2 h)]

theorem updateFlags_vrt (c : Cfg K W) (t V f : K) (s : St K W) (h : t > s.rtLock) :
    (updateFlags c t V f s).1.lv = (if s.lvEnable then lvrt c.tStable c.Vref V t s.lv else s.lv) ∧
    (updateFlags c t V f s).1.hv = (if s.hvEnable then hvrt c.tStable c.Vref V t s.hv else s.hv) ∧
    (updateFlags c t V f s).1.rtLock = t ∧ (updateFlags c t V f s).1.lvEnable = s.lvEnable ∧
    (updateFlags c t V f s).1.hvEnable = s.hvEnable ∧ (updateFlags c t V f s).1.lfEnable = s.lfEnable := by
  rw [updateFlags_eq c t V f s h]
  have hk := frt_keeps c f t (vrtStep c t V s)
  by_cases hl : s.lfEnable = true
  · simp only [hl, if_true]
    split
    · exact ⟨hk.1, hk.2.1, hk.2.2.1, hk.2.2.2.1, hk.2.2.2.2.1, hk.2.2.2.2.2.1.trans hl⟩
    · exact ⟨hk.1, hk.2.1, hk.2.2.1, hk.2.2.2.1, hk.2.2.2.2.1, hk.2.2.2.2.2.1.trans hl⟩
  · simp only [hl]
    exact ⟨rfl, rfl, rfl, rfl, rfl, by simpa [vrtStep] using hl⟩

theorem eval_keeps (c : Cfg K W) (s : St K W) (i : Inp K) :
    (eval c s i).1.lv = (updateFlags c i.t i.V i.f { s with refs := i.refs }).1.lv ∧
    (eval c s i).1.hv = (updateFlags c i.t i.V i.f { s with refs := i.refs }).1.hv ∧
    (eval c s i).1.rtLock = (updateFlags c i.t i.V i.f { s with refs := i.refs }).1.rtLock ∧
    (eval c s i).1.lvEnable = (updateFlags c i.t i.V i.f { s with refs := i.refs }).1.lvEnable ∧
    (eval c s i).1.hvEnable = (updateFlags c i.t i.V i.f { s with refs := i.refs }).1.hvEnable ∧
    (eval c s i).1.lfEnable = (updateFlags c i.t i.V i.f { s with refs := i.refs }).1.lfEnable ∧
    (eval c s i).1.trip = (updateFlags c i.t i.V i.f { s with refs := i.refs }).1.trip ∧
    (eval c s i).1.mc = (updateFlags c i.t i.V i.f { s with refs := i.refs }).1.mc := by
  unfold eval
  simp only
  split
  · simp
  · have h := dor_keeps c i.t (updateFlags c i.t i.V i.f { s with refs := i.refs }).1
    exact ⟨h.1, h.2.1, h.2.2.1, h.2.2.2.1, h.2.2.2.2.1, h.2.2.2.2.2.1, h.2.2.2.2.2.2.1, h.2.2.2.2.2.2.2.1⟩

theorem eval_vrt (c : Cfg K W) (s : St K W) (i : Inp K) (h : i.t > s.rtLock) :
    (eval c s i).1.lv = (if s.lvEnable then lvrt c.tStable c.Vref i.V i.t s.lv else s.lv) ∧
    (eval c s i).1.hv = (if s.hvEnable then hvrt c.tStable c.Vref i.V i.t s.hv else s.hv) ∧
    (eval c s i).1.rtLock = i.t ∧ (eval c s i).1.lvEnable = s.lvEnable ∧
    (eval c s i).1.hvEnable = s.hvEnable ∧ (eval c s i).1.lfEnable = s.lfEnable := by
  have h1 := eval_keeps c s i
  have h2 := updateFlags_vrt c i.t i.V i.f { s with refs := i.refs } h
  exact ⟨h1.1.trans h2.1, h1.2.1.trans h2.2.1, h1.2.2.1.trans h2.2.2.1, h1.2.2.2.1.trans h2.2.2.2.1, h1.2.2.2.2.1.trans h2.2.2.2.2.1,
    h1.2.2.2.2.2.1.trans h2.2.2.2.2.2⟩

theorem eval_old (c : Cfg K W) (s : St K W) (i : Inp K) (h : i.t ≤ s.rtLock) :
    (eval c s i).1.lv = s.lv ∧ (eval c s i).1.hv = s.hv ∧ (eval c s i).1.rtLock = s.rtLock ∧ (eval c s i).1.lvEnable = s.lvEnable ∧
    (eval c s i).1.hvEnable = s.hvEnable ∧ (eval c s i).1.lfEnable = s.lfEnable ∧ (eval c s i).1.trip = s.trip ∧ (eval c s i).1.mc = s.mc := by
  have h1 := eval_keeps c s i
  rw [updateFlags_lock c i.t i.V i.f { s with refs := i.refs } h] at h1
  exact h1

/-- The (time, voltage) samples of a sequence of evaluations. -/
def samples (h : List (Inp K)) : List (K × K) := h.map (fun i => (i.t, i.V))

/-- The voltage ride-through part of a run is a run over the records. -/
theorem run_vrt (c : Cfg K W) (s : St K W) (h : List (Inp K)) :
    (run c s h).lv = (if s.lvEnable then lvRun c.tStable c.Vref s.lv (records s.rtLock (samples h)) else s.lv) ∧
    (run c s h).hv = (if s.hvEnable then hvRun c.tStable c.Vref s.hv (records s.rtLock (samples h)) else s.hv) ∧
    (run c s h).lvEnable = s.lvEnable ∧ (run c s h).hvEnable = s.hvEnable ∧ (run c s h).lfEnable = s.lfEnable := by
  induction h generalizing s with
  | nil => simp [run, samples, records, lvRun, hvRun]
  | cons i is ih =>
    have := ih (eval c s i).1
    have hr : run c s (i :: is) = run c (eval c s i).1 is := rfl
    rw [hr]
    have hs : samples (i :: is) = (i.t, i.V) :: samples is := rfl
    rw [hs]
    by_cases ht : i.t > s.rtLock
    · obtain ⟨e1, e2, e3, e4, e5, e6⟩ := eval_vrt c s i ht
      rw [e1, e2, e3, e4, e5, e6] at this
      have hrec : records s.rtLock ((i.t, i.V) :: samples is) = (i.t, i.V) :: records i.t (samples is) := by
        show (if i.t > s.rtLock then _ else _) = _
        rw [if_pos ht]
      rw [hrec]
      refine ⟨?_, ?_, this.2.2.1, this.2.2.2.1, this.2.2.2.2⟩
      · rw [this.1]; split_ifs <;> rfl
      · rw [this.2.1]; split_ifs <;> rfl
    · obtain ⟨e1, e2, e3, e4, e5, e6, _, _⟩ := eval_old c s i (not_lt.1 ht)
      rw [e1, e2, e3, e4, e5, e6] at this
      have hrec : records s.rtLock ((i.t, i.V) :: samples is) = records s.rtLock (samples is) := by
        show (if i.t > s.rtLock then _ else _) = _
        rw [if_neg ht]
      rw [hrec]
      exact this

theorem run_snoc (c : Cfg K W) (s : St K W) (h : List (Inp K)) (i : Inp K) : run c s (h ++ [i]) = (eval c (run c s h) i).1 := by
  unfold run; rw [List.foldl_append]; rfl

theorem run_append (c : Cfg K W) (s : St K W) (h h' : List (Inp K)) : run c s (h ++ h') = run c (run c s h) h' := by
  unfold run; rw [List.foldl_append]

end RT
end PvDer
