import Verif.Props.SessionTotal
import Verif.Props.VoltVarRun

/-!
# Property C129: ride-through and Volt-VAR in repeated runs
-/

namespace PvDer

namespace RT
variable {K W : Type} [Field K] [LinearOrder K] [IsStrictOrderedRing K]

/-- All that the protection remembers and decides is the same in both states: timers, marks, trip and cessation flags, connection, enabled functions. -/
structure Frozen (s s' : St K W) : Prop where
  lv : s'.lv = s.lv
  hv : s'.hv = s.hv
  lf : s'.lf = s.lf
  lfTrip : s'.lfTrip = s.lfTrip
  trip : s'.trip = s.trip
  mc : s'.mc = s.mc
  connected : s'.connected = s.connected
  tDisc : s'.tDisc = s.tDisc
  tReco : s'.tReco = s.tReco
  rtLock : s'.rtLock = s.rtLock
  connLock : s'.connLock = s.connLock

omit [Field K] [LinearOrder K] [IsStrictOrderedRing K] in
theorem Frozen.trans {s s' s'' : St K W} (a : Frozen s s') (b : Frozen s' s'') : Frozen s s'' :=
  ⟨b.lv.trans a.lv, b.hv.trans a.hv, b.lf.trans a.lf, b.lfTrip.trans a.lfTrip, b.trip.trans a.trip, b.mc.trans a.mc, b.connected.trans a.connected,
    b.tDisc.trans a.tDisc, b.tReco.trans a.tReco, b.rtLock.trans a.rtLock, b.connLock.trans a.connLock⟩

/-- A time not later than those already seen: nothing happens. -/
theorem eval_past (c : Cfg K W) (s : St K W) (i : Inp K) (h1 : i.t ≤ s.rtLock) (h2 : i.t ≤ s.connLock) : Frozen s (eval c s i).1 := by
  have hu := updateFlags_lock c i.t i.V i.f { s with refs := i.refs } h1
  have hin : inner c i.t { s with refs := i.refs } = ({ s with refs := i.refs }, .ok ()) := by
    unfold inner; rw [if_neg (not_lt.2 h2)]
  unfold eval
  dsimp only
  rw [hu]
  dsimp only
  rw [connect_eq, hin]
  dsimp only
  split_ifs <;> constructor <;> rfl

/-- A successful evaluation moves both clocks to the latest time seen. -/
theorem eval_clocks (c : Cfg K W) (s : St K W) (i : Inp K) (h : (eval c s i).2 = .ok ()) :
    (eval c s i).1.rtLock = max s.rtLock i.t ∧ (eval c s i).1.connLock = max s.connLock i.t := by
  have hr : ∀ s : St K W, (reconnectLogic c i.t s).1.connLock = s.connLock := by
    intro s; unfold reconnectLogic; split_ifs <;> rfl
  have hd : ∀ s : St K W, (disconnectLogic c i.t s).1.connLock = s.connLock := by
    intro s; unfold disconnectLogic; split_ifs <;> rfl
  have hu : (updateFlags c i.t i.V i.f { s with refs := i.refs }).1.connLock = s.connLock ∧
      (updateFlags c i.t i.V i.f { s with refs := i.refs }).1.rtLock = max s.rtLock i.t := by
    by_cases ht : i.t > s.rtLock
    · refine ⟨?_, (updateFlags_vrt c i.t i.V i.f { s with refs := i.refs } ht).2.2.1.trans (max_eq_right ht.le).symm⟩
      rw [updateFlags_eq c i.t i.V i.f { s with refs := i.refs } ht]
      have hfr : ∀ s' : St K W, (frt c i.f i.t s').1.connLock = s'.connLock := by
        intro s'; unfold frt; split_ifs <;> first | rfl | exact hr _
      dsimp only
      split_ifs
      · split <;> exact hfr _
      · rfl
    · rw [updateFlags_lock c i.t i.V i.f { s with refs := i.refs } (not_lt.1 ht)]
      exact ⟨rfl, (max_eq_left (not_lt.1 ht)).symm⟩
  have he : eval c s i = disconnectOrReconnect c i.t (updateFlags c i.t i.V i.f { s with refs := i.refs }).1 := by
    unfold eval at h ⊢
    dsimp only at h ⊢
    cases hq : (updateFlags c i.t i.V i.f { s with refs := i.refs }).2 with
    | error e => rw [hq] at h; simp at h
    | ok u => rfl
  have hin : ∀ s : St K W, (inner c i.t s).1.connLock = max s.connLock i.t := by
    intro s
    unfold inner
    split_ifs with a <;> first | exact (hd _).trans (max_eq_right a.le).symm | exact (hr _).trans (max_eq_right a.le).symm | exact (max_eq_right a.le).symm | exact (max_eq_left (not_lt.1 a)).symm
  rw [he]
  refine ⟨(dor_keeps c i.t _).2.2.1.trans hu.2, ?_⟩
  rw [connect_eq]
  cases hq : (inner c i.t (updateFlags c i.t i.V i.f { s with refs := i.refs }).1).2 with
  | error e => dsimp only; rw [hin, hu.1]
  | ok u =>
    dsimp only
    split_ifs
    · show (inner c i.t _).1.connLock = _; rw [hin, hu.1]
    · rw [hin, hu.1]

end RT

namespace Eval
open Complex Phasor Ode
variable {k : Cls} {g : SCfg} {h : Hid} {c : Call k} {e : Env}

theorem eval_clocks (he : (evalEnv k g c h).2 = .ok e) :
    (evalEnv k g c h).1.rt.rtLock = max h.rt.rtLock c.t ∧ (evalEnv k g c h).1.rt.connLock = max h.rt.connLock c.t := by
  obtain ⟨h5, _, _, _, hs, ho⟩ := eval_rt he
  have := RT.eval_clocks _ _ _ ho
  rw [← hs] at this
  exact this

theorem eval_past (he : (evalEnv k g c h).2 = .ok e) (h1 : c.t ≤ h.rt.rtLock) (h2 : c.t ≤ h.rt.connLock) : RT.Frozen h.rt (evalEnv k g c h).1.rt := by
  obtain ⟨h5, _, _, _, hs, ho⟩ := eval_rt he
  have f := RT.eval_past g.rt.unit (RT.strip h.rt) ⟨c.t, measVal k g h5 (envC k g c h5), (envC k g c h5).we / (2 * Real.pi), refsOf (envC k g c h5)⟩ h1 h2
  rw [← hs] at f
  exact ⟨f.lv, f.hv, f.lf, f.lfTrip, f.trip, f.mc, f.connected, f.tDisc, f.tReco, f.rtLock, f.connLock⟩

/-- C129: every time evaluated is remembered, and the clocks never go back. -/
theorem C129_clocks (l : List (Call k)) (hok : Ok k g h l) :
    h.rt.rtLock ≤ (run k g h l).rt.rtLock ∧ h.rt.connLock ≤ (run k g h l).rt.connLock ∧
      ∀ c ∈ l, c.t ≤ (run k g h l).rt.rtLock ∧ c.t ≤ (run k g h l).rt.connLock := by
  induction l generalizing h with
  | nil => exact ⟨le_rfl, le_rfl, by simp⟩
  | cons c l ih =>
    obtain ⟨⟨e, he⟩, ho⟩ := hok
    obtain ⟨c1, c2⟩ := eval_clocks he
    obtain ⟨i1, i2, i3⟩ := ih ho
    rw [c1] at i1
    rw [c2] at i2
    obtain ⟨a1, a2⟩ := max_le_iff.1 i1
    obtain ⟨b1, b2⟩ := max_le_iff.1 i2
    refine ⟨a1, b1, fun x hx => ?_⟩
    rcases List.mem_cons.1 hx with rfl | hx
    · exact ⟨a2, b2⟩
    · exact i3 x hx

/-- C129: any number of evaluations at times up to the latest one already evaluated leave the protection as it is, whatever voltages and frequencies they bring. -/
theorem C129_frozen (l : List (Call k)) (hok : Ok k g h l) (hp : ∀ c ∈ l, c.t ≤ h.rt.rtLock ∧ c.t ≤ h.rt.connLock) : RT.Frozen h.rt (run k g h l).rt := by
  induction l generalizing h with
  | nil => constructor <;> rfl
  | cons c l ih =>
    obtain ⟨⟨e, he⟩, ho⟩ := hok
    have f := eval_past he (hp c (by simp)).1 (hp c (by simp)).2
    exact f.trans (ih ho (fun x hx => by rw [f.rtLock, f.connLock]; exact hp x (by simp [hx])))

/-- C129: Volt-VAR control that is on was on before. -/
theorem C129_volt_var_on (hk : k ∈ classes) (l : List (Call k)) (hok : Ok k g h l) (hv : (run k g h l).rt.voltVar = true) : h.rt.voltVar = true := by
  have off : ∀ (l : List (Call k)) (h : Hid), Ok k g h l → h.rt.voltVar = false → (run k g h l).rt.voltVar = false := by
    intro l
    induction l with
    | nil => intro h _ hh; exact hh
    | cons c l ih =>
      intro h ho hh
      obtain ⟨⟨e, he⟩, ho'⟩ := ho
      obtain ⟨_, _, _, q4, q5⟩ := eval_q hk he
      refine ih _ ho' ?_
      cases hc : (evalEnv k g c h).1.rt.connected with
      | true => rw [(q4 hc).2, hh]
      | false => exact (q5 hc).2
  cases hh : h.rt.voltVar with
  | true => rfl
  | false => exact absurd (off l h hok hh) (by rw [hv]; simp)

/-- C129: the Volt-VAR clock. -/
theorem C129_volt_var_clock (hk : k ∈ classes) (l : List (Call k)) (hok : Ok k g h l) (hv : (run k g h l).rt.voltVar = true) :
    h.vvT ≤ (run k g h l).vvT ∧ ∀ c ∈ l, c.t ≤ (run k g h l).vvT := by
  induction l generalizing h with
  | nil => exact ⟨le_rfl, by simp⟩
  | cons c l ih =>
    obtain ⟨⟨e, he⟩, ho⟩ := hok
    obtain ⟨i1, i2⟩ := ih ho hv
    have off : ∀ (l : List (Call k)) (h : Hid), Ok k g h l → h.rt.voltVar = false → (run k g h l).rt.voltVar = false := by
      intro l
      induction l with
      | nil => intro h _ hh; exact hh
      | cons c l ih =>
        intro h ho hh
        obtain ⟨⟨e, he⟩, ho'⟩ := ho
        obtain ⟨_, _, _, q4, q5⟩ := eval_q hk he
        refine ih _ ho' ?_
        cases hc : (evalEnv k g c h).1.rt.connected with
        | true => rw [(q4 hc).2, hh]
        | false => exact (q5 hc).2
    have hv0 : h.rt.voltVar = true := by
      cases hh : h.rt.voltVar with
      | true => rfl
      | false => exact absurd (off (c :: l) h ⟨⟨e, he⟩, ho⟩ hh) (by rw [hv]; simp)
    obtain ⟨q1, _⟩ := eval_q hk he
    have hm : (evalEnv k g c h).1.vvT = max h.vvT c.t := by
      rw [q1, hv0]
      simp only [VoltVar.updateQref, VoltVar.logic, if_true]
      by_cases ht : c.t > h.vvT
      · rw [if_pos ht, max_eq_right ht.le]
        split_ifs <;> rfl
      · rw [if_neg ht, max_eq_left (not_lt.1 ht)]
    rw [hm] at i1
    obtain ⟨a1, a2⟩ := max_le_iff.1 i1
    refine ⟨a1, fun x hx => ?_⟩
    rcases List.mem_cons.1 hx with rfl | hx
    · exact a2
    · exact i2 x hx

/-- C129: evaluations at times not later than the Volt-VAR clock use one and the same reactive power reference, whatever the voltage. -/
theorem C129_volt_var_frozen (hk : k ∈ classes) (p : List (Call k)) (c : Call k) (hok : Ok k g h (p ++ [c])) (hv : (run k g h (p ++ [c])).rt.voltVar = true)
    (hp : ∀ x ∈ p ++ [c], x.t ≤ h.vvT) : ∃ e, (evalEnv k g c (run k g h p)).2 = .ok e ∧ e.Q_ref = h.rt.refs.Qref := by
  have step : ∀ (h : Hid) (c : Call k) (e : Env), (evalEnv k g c h).2 = .ok e → (evalEnv k g c h).1.rt.voltVar = true → c.t ≤ h.vvT →
      e.Q_ref = h.rt.refs.Qref ∧ (evalEnv k g c h).1.rt.refs.Qref = h.rt.refs.Qref ∧ (evalEnv k g c h).1.vvT = h.vvT ∧ h.rt.voltVar = true := by
    intro h c e he hv ht
    obtain ⟨_, _, q3, q4, q5⟩ := eval_q hk he
    have hc : (evalEnv k g c h).1.rt.connected = true := by
      cases hc : (evalEnv k g c h).1.rt.connected with
      | true => rfl
      | false => have := (q5 hc).2; rw [hv] at this; simp at this
    have hv0 : h.rt.voltVar = true := by rw [← (q4 hc).2]; exact hv
    obtain ⟨o1, o2, _⟩ := C128_old_time hk he hc hv0 ht
    exact ⟨o1, by rw [← q3, o1], o2, hv0⟩
  have off : ∀ (l : List (Call k)) (h : Hid), Ok k g h l → h.rt.voltVar = false → (run k g h l).rt.voltVar = false := by
    intro l
    induction l with
    | nil => intro h _ hh; exact hh
    | cons c l ih =>
      intro h ho hh
      obtain ⟨⟨e, he⟩, ho'⟩ := ho
      obtain ⟨_, _, _, q4, q5⟩ := eval_q hk he
      refine ih _ ho' ?_
      cases hc : (evalEnv k g c h).1.rt.connected with
      | true => rw [(q4 hc).2, hh]
      | false => exact (q5 hc).2
  induction p generalizing h with
  | nil =>
    obtain ⟨⟨e, he⟩, _⟩ := hok
    exact ⟨e, he, (step h c e he hv (hp c (by simp))).1⟩
  | cons x p ih =>
    obtain ⟨⟨e, he⟩, ho⟩ := hok
    have hv1 : (evalEnv k g x h).1.rt.voltVar = true := by
      cases hh : (evalEnv k g x h).1.rt.voltVar with
      | true => rfl
      | false => exact absurd (off (p ++ [c]) _ ho hh) (by have : run k g (evalEnv k g x h).1 (p ++ [c]) = run k g h (x :: p ++ [c]) := rfl; rw [this, hv]; simp)
    obtain ⟨_, s2, s3, _⟩ := step h x e he hv1 (hp x (by simp))
    obtain ⟨e', he', hq⟩ := ih ho hv (fun z hz => by rw [s3]; exact hp z (by simp at hz ⊢; tauto))
    exact ⟨e', he', hq.trans s2⟩

end Eval

namespace Session
open Eval Ode

variable {k : Cls} {c c' : Cfg k} {sv sv' : Solver k} {s : Sess k}

theorem finish_rt (ts : List ℝ) (rows : List (k.V → ℝ)) (s : Sess k) : (finish c ts rows s).1.h.rt = s.h.rt ∧ (finish c ts rows s).1.h.vvT = s.h.vvT := by
  have hp : ∀ (sv : List (Events.SolarVal ℝ)) (h : Hid), (putSun c.g sv h).rt = h.rt ∧ (putSun c.g sv h).vvT = h.vvT := by
    intro sv h; unfold putSun; split <;> exact ⟨rfl, rfl⟩
  unfold finish
  split
  · unfold collectSeries
    dsimp only
    split
    · split
      · exact ⟨rfl, rfl⟩
      · split
        · exact ⟨rfl, rfl⟩
        · split
          · exact ⟨rfl, rfl⟩
          · exact hp _ _
    · split
      · exact ⟨rfl, rfl⟩
      · exact hp _ _
  · exact ⟨rfl, rfl⟩

/-- What one completed simulation leaves of the clocks. -/
theorem sim_clocks (hret : (runSim c sv s).2 = .ok ()) :
    s.h.rt.rtLock ≤ (runSim c sv s).1.h.rt.rtLock ∧ s.h.rt.connLock ≤ (runSim c sv s).1.h.rt.connLock ∧
      ∀ cl ∈ trace c.g c.J c.x (sv s.y c.ts) s.h, cl.t ≤ (runSim c sv s).1.h.rt.rtLock ∧ cl.t ≤ (runSim c sv s).1.h.rt.connLock := by
  obtain ⟨h, y, rows, mused, he, _, hr⟩ := runSim_ok hret
  have ht := exec_trace (g := c.g) (h := s.h) c.J c.x (sv s.y c.ts) s.y
  rw [he] at ht
  obtain ⟨t1, t2⟩ := ht
  obtain ⟨l1, l2, l3⟩ := C129_clocks _ (t2 _ rfl)
  have hrt := (finish_rt (c := c) c.ts rows { s with t := c.ts, rows := [s.y], h := resets h, y := y, conv := some true }).1
  rw [hr, hrt]
  rw [← t1] at l1 l2 l3
  exact ⟨l1, l2, l3⟩

theorem acts_clocks (l : List (Act k)) (s : Sess k) (hret : AllReturn c s l) :
    s.h.rt.rtLock ≤ (acts c s l).h.rt.rtLock ∧ s.h.rt.connLock ≤ (acts c s l).h.rt.connLock := by
  induction l generalizing s with
  | nil => exact ⟨le_rfl, le_rfl⟩
  | cons a l ih =>
    obtain ⟨h1, h2⟩ := hret
    obtain ⟨i1, i2⟩ := ih _ h2
    cases a with
    | sim sv => obtain ⟨b1, b2, _⟩ := sim_clocks h1; exact ⟨b1.trans i1, b2.trans i2⟩
    | edit o => exact ⟨i1, i2⟩

/-- C129 in a session: a simulation (`sv`) with evaluation `cl`, then any edits and simulations (`b`), then a run with any solver and any settings, grid voltages
and inputs `c'`.  Up to the time of `cl` that run is unprotected: nothing any of its evaluations brings starts a timer, trips, disconnects or reconnects the DER. -/
theorem C129_second_run_unprotected (a b : List (Act k)) (hret : AllReturn c s (a ++ .sim sv :: b)) {cl : Call k}
    (hcl : cl ∈ trace c.g c.J c.x (sv (acts c s a).y c.ts) (acts c s a).h) {r : List (k.V → ℝ) × List Int}
    (hok : (exec c'.g c'.J c'.x (sv' (acts c s (a ++ .sim sv :: b)).y c'.ts) ((acts c s (a ++ .sim sv :: b)).h, (acts c s (a ++ .sim sv :: b)).y)).2 = .ok r)
    (p q : List (Call k)) (htr : trace c'.g c'.J c'.x (sv' (acts c s (a ++ .sim sv :: b)).y c'.ts) (acts c s (a ++ .sim sv :: b)).h = p ++ q)
    (hp : ∀ x ∈ p, x.t ≤ cl.t) :
    RT.Frozen (acts c s (a ++ .sim sv :: b)).h.rt (run k c'.g (acts c s (a ++ .sim sv :: b)).h p).rt := by
  have split : ∀ (a : List (Act k)) (s : Sess k) (l : List (Act k)), AllReturn c s (a ++ l) → AllReturn c (acts c s a) l ∧ acts c s (a ++ l) = acts c (acts c s a) l := by
    intro a
    induction a with
    | nil => intro s l h; exact ⟨h, rfl⟩
    | cons x a ih => intro s l h; exact ih _ l h.2
  obtain ⟨⟨h1, h2⟩, e1⟩ := split a s _ hret
  obtain ⟨_, _, c3⟩ := sim_clocks (c := c) (sv := sv) (s := acts c s a) h1
  obtain ⟨d1, d2⟩ := acts_clocks b _ h2
  have hlk : cl.t ≤ (acts c s (a ++ .sim sv :: b)).h.rt.rtLock ∧ cl.t ≤ (acts c s (a ++ .sim sv :: b)).h.rt.connLock := by
    rw [e1]
    exact ⟨(c3 cl hcl).1.trans d1, (c3 cl hcl).2.trans d2⟩
  have ht := (exec_trace (g := c'.g) (h := (acts c s (a ++ .sim sv :: b)).h) c'.J c'.x (sv' (acts c s (a ++ .sim sv :: b)).y c'.ts) (acts c s (a ++ .sim sv :: b)).y).2 r hok
  rw [htr] at ht
  exact C129_frozen p ((ok_append _ _ _).1 ht).1 (fun x hx => ⟨(hp x hx).trans hlk.1, (hp x hx).trans hlk.2⟩)

/-- The Volt-VAR clock and flag over one completed simulation. -/
theorem sim_volt_var (hk : k ∈ classes) (hret : (runSim c sv s).2 = .ok ()) (hv : (runSim c sv s).1.h.rt.voltVar = true) :
    s.h.rt.voltVar = true ∧ s.h.vvT ≤ (runSim c sv s).1.h.vvT ∧ ∀ cl ∈ trace c.g c.J c.x (sv s.y c.ts) s.h, cl.t ≤ (runSim c sv s).1.h.vvT := by
  obtain ⟨h, y, rows, mused, he, _, hr⟩ := runSim_ok hret
  have ht := exec_trace (g := c.g) (h := s.h) c.J c.x (sv s.y c.ts) s.y
  rw [he] at ht
  obtain ⟨t1, t2⟩ := ht
  obtain ⟨f1, f2⟩ := finish_rt (c := c) c.ts rows { s with t := c.ts, rows := [s.y], h := resets h, y := y, conv := some true }
  rw [hr, f1] at hv
  rw [hr, f2]
  have hv : h.rt.voltVar = true := hv
  have t1 : h = run k c.g s.h (trace c.g c.J c.x (sv s.y c.ts) s.h) := t1
  rw [t1] at hv
  obtain ⟨l1, l2⟩ := C129_volt_var_clock hk _ (t2 _ rfl) hv
  rw [← t1] at l1 l2
  exact ⟨C129_volt_var_on hk _ (t2 _ rfl) hv, l1, l2⟩

theorem acts_volt_var (hk : k ∈ classes) (l : List (Act k)) (s : Sess k) (hret : AllReturn c s l) (hv : (acts c s l).h.rt.voltVar = true) :
    s.h.rt.voltVar = true ∧ s.h.vvT ≤ (acts c s l).h.vvT := by
  induction l generalizing s with
  | nil => exact ⟨hv, le_rfl⟩
  | cons a l ih =>
    obtain ⟨h1, h2⟩ := hret
    obtain ⟨i1, i2⟩ := ih _ h2 hv
    cases a with
    | sim sv => obtain ⟨b1, b2, _⟩ := sim_volt_var hk h1 i1; exact ⟨b1, b2.trans i2⟩
    | edit o => exact ⟨i1, i2⟩

/-- C129 in a session, Volt-VAR control: up to the latest time `cl` of an earlier simulation, all evaluations of a later run use the reactive power reference the earlier
runs left behind, whatever the voltages are. -/
theorem C129_second_run_volt_var (hk : k ∈ classes) (a b : List (Act k)) (hret : AllReturn c s (a ++ .sim sv :: b)) {cl : Call k}
    (hcl : cl ∈ trace c.g c.J c.x (sv (acts c s a).y c.ts) (acts c s a).h) {r : List (k.V → ℝ) × List Int}
    (hok : (exec c'.g c'.J c'.x (sv' (acts c s (a ++ .sim sv :: b)).y c'.ts) ((acts c s (a ++ .sim sv :: b)).h, (acts c s (a ++ .sim sv :: b)).y)).2 = .ok r)
    (p q : List (Call k)) (x : Call k)
    (htr : trace c'.g c'.J c'.x (sv' (acts c s (a ++ .sim sv :: b)).y c'.ts) (acts c s (a ++ .sim sv :: b)).h = p ++ x :: q)
    (hp : ∀ z ∈ p ++ [x], z.t ≤ cl.t) (hv : (run k c'.g (acts c s (a ++ .sim sv :: b)).h (p ++ [x])).rt.voltVar = true) :
    ∃ e, (evalEnv k c'.g x (run k c'.g (acts c s (a ++ .sim sv :: b)).h p)).2 = .ok e ∧ e.Q_ref = (acts c s (a ++ .sim sv :: b)).h.rt.refs.Qref := by
  have split : ∀ (a : List (Act k)) (s : Sess k) (l : List (Act k)), AllReturn c s (a ++ l) → AllReturn c (acts c s a) l ∧ acts c s (a ++ l) = acts c (acts c s a) l := by
    intro a
    induction a with
    | nil => intro s l h; exact ⟨h, rfl⟩
    | cons x a ih => intro s l h; exact ih _ l h.2
  obtain ⟨⟨h1, h2⟩, e1⟩ := split a s _ hret
  have ht := (exec_trace (g := c'.g) (h := (acts c s (a ++ .sim sv :: b)).h) c'.J c'.x (sv' (acts c s (a ++ .sim sv :: b)).y c'.ts) (acts c s (a ++ .sim sv :: b)).y).2 r hok
  rw [htr, show p ++ x :: q = (p ++ [x]) ++ q by simp] at ht
  have ho := ((ok_append _ _ _).1 ht).1
  have hv0 := C129_volt_var_on hk _ ho hv
  rw [e1] at hv0
  obtain ⟨d1, d2⟩ := acts_volt_var hk b _ h2 hv0
  obtain ⟨_, _, c3⟩ := sim_volt_var (c := c) (sv := sv) (s := acts c s a) hk h1 d1
  have hlk : cl.t ≤ (acts c s (a ++ .sim sv :: b)).h.vvT := by rw [e1]; exact (c3 cl hcl).trans d2
  exact C129_volt_var_frozen hk p x ho hv (fun z hz => (hp z hz).trans hlk)

/-! ### A concrete case -/

theorem sim_rt (hret : (runSim c sv s).2 = .ok ()) : (runSim c sv s).1.h.rt = (resets (run k c.g s.h (trace c.g c.J c.x (sv s.y c.ts) s.h))).rt := by
  obtain ⟨h, y, rows, mused, he, _, hr⟩ := runSim_ok hret
  have ht := exec_trace (g := c.g) (h := s.h) c.J c.x (sv s.y c.ts) s.y
  rw [he] at ht
  rw [hr, (finish_rt (c := c) c.ts rows { s with t := c.ts, rows := [s.y], h := resets h, y := y, conv := some true }).1]
  exact congrArg (fun h => (resets h).rt) ht.1

/-- The settings of the example with terminal voltage `u` (RMS, per unit of the rated one) in all phases. -/
noncomputable def exAtV (u : ℝ) : Cfg three :=
  { exC false with x := ⟨((u * Real.sqrt 2 : ℝ) : ℂ), Phasor.ub ((u * Real.sqrt 2 : ℝ) : ℂ), Phasor.uc ((u * Real.sqrt 2 : ℝ) : ℂ), 377⟩ }

theorem exAtV_rms (u : ℝ) (hu : 0 ≤ u) (y : three.V → ℝ) (t : ℝ) :
    Phasor.urmsMin (mkCall (k := three) (exAtV u).x false y t).va (mkCall (k := three) (exAtV u).x false y t).vb (mkCall (k := three) (exAtV u).x false y t).vc = u :=
  exCallU_rms y t u hu

/-- C129, concrete: a three-phase DER at rated voltage, simulated to 11 s; then the same DER with the terminal voltage at zero from the start, simulated again to 11 s.
A DER fresh from its constructor is disconnected at the end of that second simulation (its low-voltage zone allows 5 s); the one that was simulated before is still
connected and has not tripped. -/
theorem C129_example (y : three.V → ℝ) :
    let s1 := (runSim (exAtV (1 / 3)) (askAt 1 [1, 11]) (exS false y)).1
    (runSim (exAtV (1 / 3)) (askAt 1 [1, 11]) (exS false y)).2 = .ok () ∧
      (runSim (exAtV 0) (askAt 1 [1, 2, 8, 9, 10, 11]) (exS false y)).2 = .ok () ∧ (runSim (exAtV 0) (askAt 1 [1, 2, 8, 9, 10, 11]) (exS false y)).1.h.rt.connected = false ∧
      (runSim (exAtV 0) (askAt 1 [1, 2, 8, 9, 10, 11]) s1).2 = .ok () ∧ (runSim (exAtV 0) (askAt 1 [1, 2, 8, 9, 10, 11]) s1).1.h.rt.connected = true ∧
      (runSim (exAtV 0) (askAt 1 [1, 2, 8, 9, 10, 11]) s1).1.h.rt.trip = false := by
  intro s1
  have hR : ∀ h : Hid, (resets h).rt.connected = h.rt.connected := fun _ => rfl
  have hT : ∀ h : Hid, (resets h).rt.trip = h.rt.trip := fun _ => rfl
  have hg : Good three (exG exPar false) (exS false y).h := exS_good false y
  have hinit : RT.IsInit (exS false y).h.rt := exRT_init
  have hsees : Sees three (exG exPar false) (fun c => Phasor.urmsMin c.va c.vb c.vc) := C96_sees_minimum (by simp [unbalancedClasses]) rfl rfl
  obtain ⟨r1, g1⟩ := runSim_good (c := exAtV (1 / 3)) (sv := askAt 1 [1, 11]) (s := exS false y) hg (askAt_healthy _ _ _)
  obtain ⟨r2, _⟩ := runSim_good (c := exAtV 0) (sv := askAt 1 [1, 2, 8, 9, 10, 11]) (s := exS false y) hg (askAt_healthy _ _ _)
  obtain ⟨r3, _⟩ := runSim_good (c := exAtV 0) (sv := askAt 1 [1, 2, 8, 9, 10, 11]) (s := s1) g1 (askAt_healthy _ _ _)
  have t1 := (askAt_trace (exG exPar false) (exAtV (1 / 3)).J (exAtV (1 / 3)).x 1 [1, 11] (exS false y).y (exAtV (1 / 3)).ts (exS false y).h hg (exS false y).y).1
  have t2 := (askAt_trace (exG exPar false) (exAtV 0).J (exAtV 0).x 1 [1, 2, 8, 9, 10, 11] (exS false y).y (exAtV 0).ts (exS false y).h hg (exS false y).y).1
  have t3 := (askAt_trace (exG exPar false) (exAtV 0).J (exAtV 0).x 1 [1, 2, 8, 9, 10, 11] s1.y (exAtV 0).ts s1.h g1 s1.y).1
  have q1 : s1.h.rt = (resets (run three (exG exPar false) (exS false y).h ([1, 11].map (mkCall (exAtV (1 / 3)).x false (exS false y).y)))).rt := by
    have := sim_rt r1; rw [show (exAtV (1 / 3)).g = exG exPar false from rfl, t1] at this; exact this
  have q3 : (runSim (exAtV 0) (askAt 1 [1, 2, 8, 9, 10, 11]) s1).1.h.rt = (resets (run three (exG exPar false) s1.h ([1, 2, 8, 9, 10, 11].map (mkCall (exAtV 0).x false s1.y)))).rt := by
    have := sim_rt r3; rw [show (exAtV 0).g = exG exPar false from rfl, t3] at this; exact this
  -- the first simulation: nothing happens, the clocks are at 11 s
  have hs := C96_healthy_stays_connected (f := fun c => Phasor.urmsMin c.va c.vb c.vc) hsees hinit rfl _
    (C99_no_exception hg ([1, 11].map (mkCall (exAtV (1 / 3)).x false (exS false y).y))) (by
      intro c hc
      obtain ⟨t, _, rfl⟩ := List.mem_map.1 hc
      rw [exAtV_rms _ (by norm_num)]
      refine ⟨?_, ?_⟩ <;> intro z hz
      · have : z = ⟨88 / 100, 5, 1 / 10, .mandatory, 0, false⟩ := by simpa [exS, exH, exRT] using hz
        subst this; norm_num [exG]
      · have : z = ⟨11 / 10, 3, 1 / 10, .mandatory, 0, false⟩ := by simpa [exS, exH, exRT] using hz
        subst this; norm_num [exG])
  have hs : s1.h.rt.connected = true ∧ s1.h.rt.trip = false ∧ s1.h.rt.mc = false := by rw [q1]; exact hs
  obtain ⟨_, _, c3⟩ := sim_clocks r1
  rw [show (exAtV (1 / 3)).g = exG exPar false from rfl, t1] at c3
  have hlk := c3 (mkCall (exAtV (1 / 3)).x false (exS false y).y 11) (by simp)
  have g1 : Good three (exG exPar false) s1.h := g1
  have hlk : 11 ≤ s1.h.rt.rtLock ∧ 11 ≤ s1.h.rt.connLock := hlk
  clear_value s1
  have hfr := C129_frozen _ (C99_no_exception g1 ([1, 2, 8, 9, 10, 11].map (mkCall (exAtV 0).x false s1.y))) (by
    intro c hc
    obtain ⟨t, ht, rfl⟩ := List.mem_map.1 hc
    have : t ≤ 11 := by
      simp only [List.mem_cons, List.not_mem_nil, or_false] at ht
      rcases ht with rfl | rfl | rfl | rfl | rfl | rfl <;> norm_num
    exact ⟨this.trans hlk.1, this.trans hlk.2⟩)
  refine ⟨r1, r2, ?_, r3, ?_, ?_⟩
  · have := sim_rt r2
    rw [show (exAtV 0).g = exG exPar false from rfl, t2] at this
    rw [this]
    have hlow : (0:ℝ) < 88 / 100 * (1 / 3) := by norm_num
    rw [hR, show ([1, 2, 8, 9, 10, 11] : List ℝ).map (mkCall (exAtV 0).x false (exS false y).y) = ([1, 2, 8].map (mkCall (exAtV 0).x false y)) ++
      mkCall (exAtV 0).x false y 9 :: ([mkCall (exAtV 0).x false y 10] ++ [mkCall (exAtV 0).x false y 11]) from rfl]
    refine (C96_trip_cuts_output (f := fun c => Phasor.urmsMin c.va c.vb c.vc) hsees hinit rfl (show (0:ℝ) < 1 / 60 by norm_num)
      ([1, 2, 8].map (mkCall (exAtV 0).x false y)) [mkCall (exAtV 0).x false y 10] (mkCall (exAtV 0).x false y 9) (mkCall (exAtV 0).x false y 10)
      (mkCall (exAtV 0).x false y 11) (C99_no_exception hg _) (Or.inl ⟨rfl, ⟨88 / 100, 5, 1 / 10, .mandatory, 0, false⟩, by simp [exS, exH, exRT], ?_⟩) ?_ ?_ ?_ ?_).1
    · have hrec : RT.after (exG exPar false).tStable (RT.records 0 (([1, 2, 8].map (mkCall (exAtV 0).x false y)).map fun c => (c.t, Phasor.urmsMin c.va c.vb c.vc))) =
          [(1, 0), (2, 0), (8, 0)] := by
        have hv := fun t => exAtV_rms 0 le_rfl y t
        simp only [List.map_cons, List.map_nil, hv, show ∀ t, (mkCall (k := three) (exAtV 0).x false y t).t = t from fun _ => rfl, RT.records, RT.after, exG]
        norm_num
      rw [hrec]
      refine ⟨[], [(2, 0)], [], (1, 0), (8, 0), rfl, hlow, hlow, ?_, by norm_num⟩
      intro x hx
      simp only [List.mem_singleton] at hx
      rw [hx]
      exact hlow.le
    · intro x hx
      obtain ⟨t, ht, rfl⟩ := List.mem_map.1 hx
      show t < 9
      simp only [List.mem_cons, List.not_mem_nil, or_false] at ht
      rcases ht with rfl | rfl | rfl <;> norm_num
    · show (0:ℝ) < 9; norm_num
    · simp
    · show (1 / 60 : ℝ) ≤ 10 - 9; norm_num
  · rw [q3, hR]; exact hfr.connected.trans hs.1
  · rw [q3, hT]; exact hfr.trip.trans hs.2.1

/-- While the DER stays connected, Volt-VAR control stays as it is. -/
theorem connected_volt_var {g : SCfg} {h : Hid} (hk : k ∈ classes) (l : List (Call k)) (hok : Ok k g h l)
    (hc : ∀ l1 l2, l = l1 ++ l2 → (run k g h l1).rt.connected = true) : (run k g h l).rt.voltVar = h.rt.voltVar := by
  induction l using List.reverseRecOn with
  | nil => rfl
  | append_singleton l c ih =>
    obtain ⟨o1, ⟨e, he⟩, _⟩ := (ok_append _ _ _).1 hok
    have h1 := hc (l ++ [c]) [] (by simp)
    rw [run_append] at h1 ⊢
    obtain ⟨_, _, _, q4, _⟩ := eval_q hk he
    exact ((q4 h1).2).trans (ih o1 (fun l1 l2 e => hc l1 (l2 ++ [c]) (by simp [e])))

/-- The DER of the example with Volt-VAR control switched on by the user. -/
noncomputable def exSV (y : three.V → ℝ) : Sess three := { exS false y with h := { (exS false y).h with rt := { exRT with voltVar := true } } }

/-- C129, concrete (Volt-VAR): simulated to 11 s at rated voltage with Volt-VAR control on, and simulated again to 11 s at 95 % of it: the second run keeps Volt-VAR on
and uses the reactive power reference of the end of the first run throughout. -/
theorem C129_volt_var_example (y : three.V → ℝ) :
    let s1 := (runSim (exAtV (1 / 3)) (askAt 1 [1, 11]) (exSV y)).1
    (runSim (exAtV (1 / 3)) (askAt 1 [1, 11]) (exSV y)).2 = .ok () ∧ s1.h.rt.voltVar = true ∧
      ∀ (p q : List ℝ) (t : ℝ), [1, 2, 8, 11] = p ++ t :: q →
        ∃ e, (evalEnv three (exG exPar false) (mkCall (exAtV (95 / 300)).x false s1.y t) (run three (exG exPar false) s1.h (p.map (mkCall (exAtV (95 / 300)).x false s1.y)))).2 = .ok e ∧
          e.Q_ref = s1.h.rt.refs.Qref := by
  intro s1
  have hk : three ∈ classes := by simp [classes]
  have hg : Good three (exG exPar false) (exSV y).h := by
    have := exS_good false y
    exact { this with }
  have hinit : RT.IsInit (exSV y).h.rt := by
    have := exRT_init
    exact { this with }
  have hsees : Sees three (exG exPar false) (fun c => Phasor.urmsMin c.va c.vb c.vc) := C96_sees_minimum (by simp [unbalancedClasses]) rfl rfl
  obtain ⟨r1, g1⟩ := runSim_good (c := exAtV (1 / 3)) (sv := askAt 1 [1, 11]) (s := exSV y) hg (askAt_healthy _ _ _)
  have t1 := (askAt_trace (exG exPar false) (exAtV (1 / 3)).J (exAtV (1 / 3)).x 1 [1, 11] (exSV y).y (exAtV (1 / 3)).ts (exSV y).h hg (exSV y).y).1
  have q1 : s1.h.rt = (resets (run three (exG exPar false) (exSV y).h ([1, 11].map (mkCall (exAtV (1 / 3)).x false (exSV y).y)))).rt := by
    have := sim_rt r1; rw [show (exAtV (1 / 3)).g = exG exPar false from rfl, t1] at this; exact this
  have hs : ∀ l : List ℝ, (run three (exG exPar false) (exSV y).h (l.map (mkCall (exAtV (1 / 3)).x false (exSV y).y))).rt.connected = true := fun l =>
    (C96_healthy_stays_connected (f := fun c => Phasor.urmsMin c.va c.vb c.vc) hsees hinit rfl _
    (C99_no_exception hg (l.map (mkCall (exAtV (1 / 3)).x false (exSV y).y))) (by
      intro c hc
      obtain ⟨t, _, rfl⟩ := List.mem_map.1 hc
      rw [exAtV_rms _ (by norm_num)]
      refine ⟨?_, ?_⟩ <;> intro z hz
      · have : z = ⟨88 / 100, 5, 1 / 10, .mandatory, 0, false⟩ := by simpa [exSV, exS, exH, exRT] using hz
        subst this; norm_num [exG]
      · have : z = ⟨11 / 10, 3, 1 / 10, .mandatory, 0, false⟩ := by simpa [exSV, exS, exH, exRT] using hz
        subst this; norm_num [exG])).1
  have hv1 : s1.h.rt.voltVar = true := by
    rw [q1]
    have := connected_volt_var (h := (exSV y).h) hk _ (C99_no_exception hg ([1, 11].map (mkCall (exAtV (1 / 3)).x false (exSV y).y))) (by
      intro l1 l2 e
      obtain ⟨m1, m2, _, e1, _⟩ := List.map_eq_append_iff.1 e
      rw [← e1]; exact hs m1)
    exact this
  have hc1 : s1.h.rt.connected = true := by rw [q1]; exact hs _
  obtain ⟨_, _, c3⟩ := sim_clocks r1
  obtain ⟨_, _, v3⟩ := sim_volt_var hk r1 hv1
  rw [show (exAtV (1 / 3)).g = exG exPar false from rfl, t1] at c3 v3
  have hlk := c3 (mkCall (exAtV (1 / 3)).x false (exSV y).y 11) (by simp)
  have hvk := v3 (mkCall (exAtV (1 / 3)).x false (exSV y).y 11) (by simp)
  have hlk : 11 ≤ s1.h.rt.rtLock ∧ 11 ≤ s1.h.rt.connLock := hlk
  have hvk : 11 ≤ s1.h.vvT := hvk
  have g1 : Good three (exG exPar false) s1.h := g1
  refine ⟨r1, hv1, ?_⟩
  clear_value s1
  intro p q t hpq
  have hle : ∀ z ∈ p ++ [t], z ≤ 11 := by
    intro z hz
    have : z ∈ ([1, 2, 8, 11] : List ℝ) := by rw [hpq]; simp at hz ⊢; tauto
    simp only [List.mem_cons, List.not_mem_nil, or_false] at this
    rcases this with rfl | rfl | rfl | rfl <;> norm_num
  have hle' : ∀ x ∈ p.map (mkCall (exAtV (95 / 300)).x false s1.y) ++ [mkCall (exAtV (95 / 300)).x false s1.y t], x.t ≤ 11 := by
    intro x hx
    rw [show p.map (mkCall (exAtV (95 / 300)).x false s1.y) ++ [mkCall (exAtV (95 / 300)).x false s1.y t] = (p ++ [t]).map (mkCall (exAtV (95 / 300)).x false s1.y) by simp] at hx
    obtain ⟨z, hz, rfl⟩ := List.mem_map.1 hx
    exact hle z hz
  have ho := C99_no_exception g1 (p.map (mkCall (exAtV (95 / 300)).x false s1.y) ++ [mkCall (exAtV (95 / 300)).x false s1.y t])
  refine C129_volt_var_frozen hk _ _ ho ?_ (fun x hx => (hle' x hx).trans hvk)
  rw [connected_volt_var hk _ ho, hv1]
  intro l1 l2 e
  rw [e] at hle' ho
  have hf := C129_frozen l1 ((ok_append _ _ _).1 ho).1 (fun c hc => ⟨(hle' c (by simp [hc])).trans hlk.1, (hle' c (by simp [hc])).trans hlk.2⟩)
  exact hf.connected.trans hc1

end Session
end PvDer
