import Verif.Model.Session
import Verif.Props.EvalRefs

/-!
# Lemmas on whole runs: the solver seen as a sequence of calls, what a run does to the events object
-/

namespace PvDer
namespace Session
open Complex Phasor Ode Eval

variable {k : Cls} {g : SCfg} {h : Hid}

/-- A property of the events object that every query keeps. -/
structure Kept (g : SCfg) (P : Events.St ℝ → Prop) : Prop where
  grid : ∀ ev t, P ev → P (Events.gridEvents g.evc g.sp ev t).1
  solar : ∀ ev t, P ev → P (Events.solarEvents g.sp ev t).1
  load : ∀ ev t, P ev → P (Events.loadEvents ev t).1

theorem solar_ev (t : ℝ) : (solarStage k g t h).1.ev = (Events.solarEvents g.sp h.ev t).1 := by
  unfold solarStage
  rcases Events.solarEvents g.sp h.ev t with ⟨ev, r⟩
  cases r with
  | error x => rfl
  | ok v => dsimp only; split_ifs <;> rfl

theorem load_ev (j : Bool) (t : ℝ) : (loadStage k g j t h).1.ev = h.ev ∨ (loadStage k g j t h).1.ev = (Events.loadEvents h.ev t).1 := by
  unfold loadStage
  split
  · right
    rcases Events.loadEvents h.ev t with ⟨ev, r⟩
    cases r with
    | error x => rfl
    | ok v => dsimp only; split_ifs <;> rfl
  · left; rfl

theorem dc_ev (t : ℝ) : (dcStage k t h).1.ev = h.ev := by
  unfold dcStage
  split
  · rcases VdcRef.updateRef (wNow h) t with ⟨w, r⟩
    cases r <;> rfl
  · rfl

theorem rt_ev (c : Call k) : (rtStage k g c h).1.ev = h.ev := by
  unfold rtStage
  dsimp only
  split
  · rfl
  · split <;> rfl

theorem andThen_kept {α β : Type} {P : Events.St ℝ → Prop} {r : Hid × Except Err α} {f : α → Hid → Hid × Except Err β} (h0 : P r.1.ev)
    (hf : ∀ a h, P h.ev → P (f a h).1.ev) : P (andThen r f).1.ev := by
  rcases r with ⟨h, r⟩
  cases r with
  | error e => exact h0
  | ok a => exact hf a h h0

/-- One evaluation, failing or not, keeps what queries keep. -/
theorem eval_kept {P : Events.St ℝ → Prop} (hP : Kept g P) (c : Call k) (h0 : P h.ev) : P (evalEnv k g c h).1.ev := by
  unfold evalEnv
  refine andThen_kept (by rw [grid_events]; split; exacts [hP.grid _ _ h0, h0]) fun _ h1 p1 => ?_
  refine andThen_kept (by rw [solar_ev]; exact hP.solar _ _ p1) fun _ h2 p2 => ?_
  refine andThen_kept ?_ fun _ h3 p3 => ?_
  · rcases load_ev (k := k) (g := g) (h := h2) c.jac c.t with e | e <;> rw [e]
    exacts [p2, hP.load _ _ p2]
  refine andThen_kept (by rw [dc_ev]; exact p3) fun _ h4 p4 => ?_
  rw [rt_ev, freq_ev]; exact p4

theorem run_kept {P : Events.St ℝ → Prop} (hP : Kept g P) (l : List (Call k)) (h0 : P h.ev) : P (run k g h l).ev := by
  induction l generalizing h with
  | nil => exact h0
  | cons c l ih => exact ih (eval_kept hP c h0)

/-- Running the solver is evaluating the calls of its trace; if it returns, no evaluation failed. -/
theorem exec_trace (J : Env → k.V → k.V → ℝ) (x : Ext) (S : Strat k) (y : k.V → ℝ) :
    (exec g J x S (h, y)).1.1 = run k g h (trace g J x S h) ∧ (∀ r, (exec g J x S (h, y)).2 = .ok r → Ok k g h (trace g J x S h)) := by
  induction S generalizing h y with
  | done r m => exact ⟨rfl, fun _ _ => trivial⟩
  | ask j y' t next ih =>
    unfold exec trace
    dsimp only
    rcases hq : evalEnv k g (mkCall x j y' t) h with ⟨h', r⟩
    cases r with
    | error e =>
      refine ⟨?_, fun r hr => by simp at hr⟩
      simp only [run, List.foldl_cons, List.foldl_nil, hq]
    | ok e =>
      dsimp only
      obtain ⟨i1, i2⟩ := ih (if j then .inr (J e) else .inl (k.rhs e)) (h := h') _
      refine ⟨?_, fun r hr => ⟨⟨e, by rw [hq]⟩, ?_⟩⟩
      · refine i1.trans ?_; simp only [run, List.foldl_cons, hq]
      · rw [hq]; exact i2 r hr

theorem queryAll_kept {α : Type} {P : Events.St ℝ → Prop} {q : Events.St ℝ → ℝ → Events.St ℝ × Except Err α} (hq : ∀ ev t, P ev → P (q ev t).1)
    (ts : List ℝ) (ev : Events.St ℝ) (h0 : P ev) : P (queryAll q ev ts).1 := by
  induction ts generalizing ev with
  | nil => exact h0
  | cons t ts ih =>
    have h1 := hq ev t h0
    unfold queryAll
    rcases hx : q ev t with ⟨ev', r⟩
    rw [hx] at h1
    cases r with
    | error e => exact h1
    | ok v =>
      dsimp only
      have h2 := ih ev' h1
      rcases hy : queryAll q ev' ts with ⟨ev'', r'⟩
      rw [hy] at h2
      cases r' <;> exact h2

/-- The answers of `queryAll` are those of the sequence of queries, as far as they are successful. -/
theorem queryAll_ok {α : Type} {q : Events.St ℝ → ℝ → Events.St ℝ × Except Err α} (play : Events.St ℝ → List ℝ → List (Except Err α))
    (hp0 : ∀ ev, play ev [] = []) (hp : ∀ ev t ts, play ev (t :: ts) = (q ev t).2 :: play (q ev t).1 ts)
    {ts : List ℝ} {ev ev' : Events.St ℝ} {vs : List α} (h : queryAll q ev ts = (ev', .ok vs)) : play ev ts = vs.map .ok := by
  induction ts generalizing ev vs with
  | nil =>
    simp only [queryAll, Prod.mk.injEq, Except.ok.injEq] at h
    rw [← h.2, hp0]; rfl
  | cons t ts ih =>
    unfold queryAll at h
    rw [hp]
    rcases hx : q ev t with ⟨ev1, r⟩
    rw [hx] at h
    cases r with
    | error e => simp at h
    | ok v =>
      dsimp only at h
      rcases hy : queryAll q ev1 ts with ⟨ev2, r'⟩
      rw [hy] at h
      cases r' with
      | error e => simp at h
      | ok vs' =>
        simp only [Prod.mk.injEq, Except.ok.injEq] at h
        obtain ⟨rfl, rfl⟩ := h
        simp [ih hy]

end Session
end PvDer
