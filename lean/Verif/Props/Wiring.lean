import Verif.Model.Wiring
import Verif.Props.AfterFailure
import Verif.Props.GridRun

/-!
# Which schedule a simulation follows when the objects are not the same (C154)

`Model/Wiring.lean`: the DER, the grid and the simulation object each refer to an events object, and the DER and the simulation to a grid.
-/

namespace PvDer
namespace Wiring

open Complex Phasor Ode Eval Session

variable {k : Cls} {I J : Type} [DecidableEq I] [DecidableEq J] {w : Wires I J} {g : SCfg} {W : World k I J}

/-- The documented use: one events object, one grid. -/
structure One (w : Wires I J) : Prop where
  ev : w.simEv = w.derEv
  grid : w.simGrid = w.derGrid
  src : w.gridEv w.derGrid = w.derEv

theorem evalEnv_rest (c : Call k) (h : Hid) : evalEnv k g c h = andThen (gridStage g c.t h) (fun _ h1 => evalRest k g c h1) := rfl

omit [DecidableEq I] [DecidableEq J] in
theorem one_sim (o : One w) : w.sim g = w.der g := by
  unfold Wires.sim Wires.der
  rw [o.ev, o.grid]

theorem gridCall_one (o : One w) (t : ℝ) : derView w (gridCall w g t W).1 = (gridStage (w.der g) t (derView w W)).1 ∧ (gridCall w g t W).2 = (gridStage (w.der g) t (derView w W)).2 ∧
    (gridCall w g t W).1.s = W.s := by
  unfold gridCall gridStage
  by_cases hs : g.standAlone = true
  · rw [if_pos hs, if_pos (show (w.der g).standAlone = true from hs)]
    simp only [derView, o.grid, o.src, Function.update_self, Wires.der]
    exact ⟨trivial, trivial, trivial⟩
  · rw [if_neg hs, if_neg (show ¬(w.der g).standAlone = true from hs)]
    exact ⟨rfl, rfl, rfl⟩

theorem derCall_view (c : Call k) : derView w (derCall w g c W).1 = (evalRest k (w.der g) c (derView w W)).1 ∧ (derCall w g c W).2 = (evalRest k (w.der g) c (derView w W)).2 := by
  unfold derCall
  refine ⟨?_, rfl⟩
  simp only [derView, Function.update_self]

/-- One evaluation in the documented use. -/
theorem evalW_one (o : One w) (c : Call k) : derView w (evalW w g c W).1 = (evalEnv k (w.der g) c (derView w W)).1 ∧ (evalW w g c W).2 = (evalEnv k (w.der g) c (derView w W)).2 ∧
    (evalW w g c W).1.s.y = (match (gridStage (w.der g) c.t (derView w W)).2 with | .ok _ => c.y | .error _ => W.s.y) ∧
    ∃ h y, (evalW w g c W).1.s = { W.s with h := h, y := y } := by
  obtain ⟨a1, a2, a3⟩ := gridCall_one (g := g) (W := W) o c.t
  rw [evalEnv_rest]
  unfold evalW
  rcases hx : gridCall w g c.t W with ⟨W1, r⟩
  rcases hy : gridStage (w.der g) c.t (derView w W) with ⟨h1, r'⟩
  rw [hx, hy] at a1 a2
  rw [hx] at a3
  dsimp only at a1 a2 a3
  subst a2
  cases r with
  | error e => exact ⟨a1, rfl, by rw [a3], W.s.h, W.s.y, by rw [a3]⟩
  | ok u =>
    obtain ⟨b1, b2⟩ := derCall_view (w := w) (g := g) (W := W1) c
    rw [a1] at b1 b2
    exact ⟨b1, b2, rfl, (evalRest k (w.der g) c (derView w W1)).1, c.y, by rw [← a3]; rfl⟩

/-- The session as the DER sees it. -/
def view (w : Wires I J) (W : World k I J) : Sess k := { W.s with h := derView w W }

theorem execW_one (o : One w) (Jm : Env → k.V → k.V → ℝ) (x : Ext) (S : Strat k) :
    exec (w.der g) Jm x S ((view w W).h, (view w W).y) = (((view w (execW w g Jm x S W).1).h, (view w (execW w g Jm x S W).1).y), (execW w g Jm x S W).2) ∧
    traceW w g Jm x S W = trace (w.der g) Jm x S (view w W).h ∧ ∃ h y, (execW w g Jm x S W).1.s = { W.s with h := h, y := y } := by
  induction S generalizing W with
  | done r m => exact ⟨rfl, rfl, W.s.h, W.s.y, rfl⟩
  | ask j y t next ih =>
    obtain ⟨a1, a2, a3, h0, y0, a4⟩ := evalW_one (g := g) (W := W) o (mkCall x j y t)
    unfold exec execW traceW trace
    rcases hx : evalW w g (mkCall x j y t) W with ⟨W1, r⟩
    rcases hy : evalEnv k (w.der g) (mkCall x j y t) (view w W).h with ⟨h1, r'⟩
    rw [show (view w W).h = derView w W from rfl] at hy
    rw [hx, hy] at a1 a2
    rw [hx] at a3 a4
    dsimp only at a1 a2 a3 a4
    subst a2 a1
    cases r with
    | error e =>
      refine ⟨?_, rfl, h0, y0, a4⟩
      refine Prod.ext (Prod.ext rfl ?_) rfl
      exact a3.symm
    | ok e =>
      dsimp only
      obtain ⟨b1, b2, h2, y2, b3⟩ := ih (if j then .inr (Jm e) else .inl (k.rhs e)) (W := W1)
      refine ⟨?_, ?_, h2, y2, by rw [b3, a4]⟩
      · rw [← b1]
        show exec _ _ _ _ (derView w W1, _) = exec _ _ _ _ (derView w W1, W1.s.y)
        rw [a3]
        rfl
      · rw [b2]; rfl

theorem check_view {s : Sess k} (ts : List ℝ) (mused : List Int) (h : Hid) :
    (check ts mused { s with h := h }).1 = { (check ts mused s).1 with h := h } ∧ (check ts mused { s with h := h }).2 = (check ts mused s).2 := by
  unfold check
  split_ifs <;> exact ⟨rfl, rfl⟩

omit [DecidableEq J] in
theorem resets_one (o : One w) : view w (resetsW w W) = { view w W with h := resets (view w W).h } := by
  unfold view resetsW derView resets
  rw [o.ev]
  simp only [Function.update_self]

theorem finish_one (o : One w) (c : Cfg k) (ts : List ℝ) (rows : List (k.V → ℝ)) :
    view w (finishW w c ts rows W).1 = (finish { c with g := w.der c.g } ts rows (view w W)).1 ∧ (finishW w c ts rows W).2 = (finish { c with g := w.der c.g } ts rows (view w W)).2 := by
  have hv : simView w W = view w W := by
    unfold simView view derView
    rw [o.ev, o.grid]
  unfold finishW
  rw [hv, one_sim o]
  refine ⟨?_, rfl⟩
  unfold view derView
  dsimp only
  rw [o.ev, o.grid]
  simp only [Function.update_self]

/-- C154: one events object and one grid: the simulation is the one of `Model/Session.lean`, so that all that is proved there about runs holds for the references. -/
theorem C154_one_of_each (o : One w) (c : Cfg k) (sv : Solver k) : view w (runSimW w c sv W).1 = (runSim { c with g := w.der c.g } sv (view w W)).1 ∧
    (runSimW w c sv W).2 = (runSim { c with g := w.der c.g } sv (view w W)).2 := by
  obtain ⟨b1, _, h0, y0, b3⟩ := execW_one (g := c.g) (W := { W with s := { W.s with t := c.ts, rows := [W.s.y] } }) o c.J c.x (sv W.s.y c.ts)
  unfold runSimW runSim
  rcases hx : execW w c.g c.J c.x (sv W.s.y c.ts) { W with s := { W.s with t := c.ts, rows := [W.s.y] } } with ⟨W1, r⟩
  rw [hx] at b1 b3
  dsimp only at b1 b3
  have e1 : exec (w.der c.g) c.J c.x (sv (view w W).y c.ts) ((view w W).h, (view w W).y) = (((view w W1).h, (view w W1).y), r) := b1
  rw [e1]
  have hs : ({ view w W with t := c.ts, rows := [(view w W).y], h := (view w W1).h, y := (view w W1).y } : Sess k) = view w W1 := by
    unfold view
    dsimp only
    rw [b3]
  cases r with
  | error e => exact ⟨hs.symm, rfl⟩
  | ok p =>
    obtain ⟨rows, mused⟩ := p
    dsimp only
    rw [hs]
    obtain ⟨d1, d2⟩ := check_view (s := W1.s) c.ts mused (derView w W1)
    rw [show ({ W1.s with h := derView w W1 } : Sess k) = view w W1 from rfl] at d1 d2
    rcases hy : check c.ts mused W1.s with ⟨s1, r1⟩
    rcases hz : check c.ts mused (view w W1) with ⟨s2, r2⟩
    rw [hy, hz] at d1 d2
    dsimp only at d1 d2
    subst d2
    have hh : s1.h = W1.s.h := by
      have := check_source (s := W1.s) c.ts mused
      rw [hy] at this
      exact this
    have hv : view w ({ W1 with s := s1 } : World k I J) = s2 := by
      rw [d1]
      unfold view derView
      dsimp only
      rw [hh]
    cases r2 with
    | error e => exact ⟨hv, rfl⟩
    | ok u =>
      dsimp only
      obtain ⟨f1, f2⟩ := finish_one (W := resetsW w { W1 with s := s1 }) o c c.ts rows
      rw [resets_one o, hv] at f1 f2
      exact ⟨f1, f2⟩

/-! ### What an evaluation touches -/

theorem rest_grid (c : Call k) (h : Hid) : (evalRest k g c h).1.grid = h.grid := by
  unfold evalRest
  refine andThen_grid (P := fun G => G = h.grid) (by rw [solar_grid]; rfl) fun _ h2 p2 => ?_
  refine andThen_grid (P := fun G => G = h.grid) (by rw [load_grid]; exact p2) fun _ h3 p3 => ?_
  refine andThen_grid (P := fun G => G = h.grid) (by rw [dc_grid]; exact p3) fun _ h4 p4 => ?_
  rw [rt_grid]
  unfold freqStage
  split <;> exact p4

theorem rest_kept {P : Events.St ℝ → Prop} (hs : ∀ ev t, P ev → P (Events.solarEvents g.sp ev t).1) (hl : ∀ ev t, P ev → P (Events.loadEvents ev t).1) (c : Call k) {h : Hid} (h0 : P h.ev) :
    P (evalRest k g c h).1.ev := by
  unfold evalRest
  refine andThen_kept (by rw [solar_ev]; exact hs _ _ h0) fun _ h2 p2 => ?_
  refine andThen_kept ?_ fun _ h3 p3 => ?_
  · rcases load_ev (k := k) (g := g) (h := h2) c.jac c.t with e | e <;> rw [e]
    exacts [p2, hl _ _ p2]
  refine andThen_kept (by rw [dc_ev]; exact p3) fun _ h4 p4 => ?_
  rw [rt_ev]
  unfold freqStage
  split <;> exact p4

theorem gridCall_s (t : ℝ) : (gridCall w g t W).1.s = W.s := by
  unfold gridCall
  split <;> rfl

theorem gridCall_evs (t : ℝ) (i : I) : (gridCall w g t W).1.evs i =
    if g.standAlone = true ∧ i = w.gridEv w.simGrid then (Events.gridEvents (w.evc i) (w.sp i) (W.evs i) t).1 else W.evs i := by
  unfold gridCall
  by_cases hs : g.standAlone = true
  · rw [if_pos hs]
    dsimp only
    by_cases hi : i = w.gridEv w.simGrid
    · subst hi
      rw [Function.update_self, if_pos ⟨hs, rfl⟩]
      unfold Grid.steadyState
      dsimp only
      rcases Events.gridEvents (w.evc (w.gridEv w.simGrid)) (w.sp (w.gridEv w.simGrid)) (W.evs (w.gridEv w.simGrid)) t with ⟨ev, r⟩
      cases r <;> rfl
    · rw [Function.update_of_ne hi, if_neg fun h => hi h.2]
  · rw [if_neg hs, if_neg fun h => hs h.1]

theorem gridCall_grids (t : ℝ) {j : J} (hj : j ≠ w.simGrid) : (gridCall w g t W).1.grids j = W.grids j := by
  unfold gridCall
  split
  · exact Function.update_of_ne hj _ _
  · rfl

theorem derCall_grids (c : Call k) (j : J) : (derCall w g c W).1.grids j = W.grids j := by
  unfold derCall
  dsimp only
  rw [rest_grid]
  by_cases hj : j = w.derGrid
  · subst hj; rw [Function.update_self]; rfl
  · exact Function.update_of_ne hj _ _

theorem derCall_evs (c : Call k) {i : I} (hi : i ≠ w.derEv) : (derCall w g c W).1.evs i = W.evs i := by
  unfold derCall
  exact Function.update_of_ne hi _ _

theorem evalW_grids (c : Call k) {j : J} (hj : j ≠ w.simGrid) : (evalW w g c W).1.grids j = W.grids j := by
  have h0 := gridCall_grids (g := g) (W := W) c.t hj
  unfold evalW
  generalize gridCall w g c.t W = R at h0 ⊢
  obtain ⟨W1, r⟩ := R
  cases r with
  | error e => exact h0
  | ok u => exact (derCall_grids c j).trans h0

/-- What the queries of one events object keep is kept by an evaluation. -/
theorem evalW_kept {P : Events.St ℝ → Prop} (i : I) (hg : ∀ ev t, P ev → P (Events.gridEvents (w.evc i) (w.sp i) ev t).1) (hs : ∀ ev t, P ev → P (Events.solarEvents (w.sp i) ev t).1)
    (hl : ∀ ev t, P ev → P (Events.loadEvents ev t).1) (c : Call k) (h0 : P (W.evs i)) : P ((evalW w g c W).1.evs i) := by
  have h1 : P ((gridCall w g c.t W).1.evs i) := by
    rw [gridCall_evs]
    split
    · exact hg _ _ h0
    · exact h0
  unfold evalW
  generalize gridCall w g c.t W = R at h1 ⊢
  obtain ⟨W1, r⟩ := R
  cases r with
  | error e => exact h1
  | ok u =>
    show P ((derCall w g c W1).1.evs i)
    by_cases hi : i = w.derEv
    · subst hi
      unfold derCall
      dsimp only
      rw [Function.update_self]
      exact rest_kept (g := w.der g) hs hl c h1
    · rw [derCall_evs c hi]; exact h1

theorem execW_inv {P : World k I J → Prop} (Jm : Env → k.V → k.V → ℝ) (x : Ext) (hP : ∀ c W, P W → P (evalW w g c W).1) (S : Strat k) (h0 : P W) : P (execW w g Jm x S W).1 := by
  induction S generalizing W with
  | done r m => exact h0
  | ask j y t next ih =>
    have h1 := hP (mkCall x j y t) W h0
    unfold execW
    generalize evalW w g (mkCall x j y t) W = R at h1 ⊢
    obtain ⟨W1, r⟩ := R
    cases r with
    | error e => exact h1
    | ok e => exact ih _ h1

/-- A run in terms of its parts. -/
theorem runSimW_inv {P : World k I J → Prop} (c : Cfg k) (sv : Solver k) (hP : ∀ cl W, P W → P (evalW w c.g cl W).1) (hs : ∀ W s, s.h = W.s.h → P W → P { W with s := s })
    (hr : ∀ W, P W → P (resetsW w W)) (hf : ∀ ts rows W, P W → P (finishW w c ts rows W).1) (h0 : P W) : P (runSimW w c sv W).1 := by
  have h1 : P (execW w c.g c.J c.x (sv W.s.y c.ts) { W with s := { W.s with t := c.ts, rows := [W.s.y] } }).1 := execW_inv c.J c.x hP _ (hs W _ rfl h0)
  unfold runSimW
  generalize execW w c.g c.J c.x (sv W.s.y c.ts) { W with s := { W.s with t := c.ts, rows := [W.s.y] } } = R at h1 ⊢
  obtain ⟨W1, r⟩ := R
  cases r with
  | error e => exact h1
  | ok p =>
    obtain ⟨rows, mused⟩ := p
    dsimp only
    have hh := check_source (s := W1.s) c.ts mused
    generalize check c.ts mused W1.s = R at hh ⊢
    obtain ⟨s1, r1⟩ := R
    cases r1 with
    | error e => exact hs W1 s1 hh h1
    | ok u => exact hf _ _ _ (hr _ (hs W1 s1 hh h1))

/-- C154: the DER is given another grid than the simulation: no simulation, whatever its outcome, changes the grid the DER takes its source from. -/
theorem C154_source_frozen (hne : w.derGrid ≠ w.simGrid) (c : Cfg k) (l : List (Solver k)) : (runsW w c l W).grids w.derGrid = W.grids w.derGrid := by
  induction l generalizing W with
  | nil => rfl
  | cons sv l ih =>
    refine (ih (W := (runSimW w c sv W).1)).trans ?_
    refine runSimW_inv (P := fun W' => W'.grids w.derGrid = W.grids w.derGrid) c sv (fun cl W' h => (evalW_grids cl hne).trans h) (fun W' s _ h => h) (fun W' h => h) (fun ts rows W' h => ?_) rfl
    unfold finishW
    dsimp only
    rw [Function.update_of_ne hne]
    exact h

theorem rest_ok {c : Call k} {h : Hid} {e : Env} (he : (evalRest k g c h).2 = .ok e) :
    ∃ h2 h3 h4, solarStage k g c.t (stateStage k c.y h) = (h2, .ok ()) ∧
      loadStage k g c.jac c.t h2 = (h3, .ok ()) ∧ dcStage k c.t (qStage k g c h3) = (h4, .ok ()) ∧
      evalRest k g c h = rtStage k g c (freqStage k g c (irefStage k g c h4)) := by
  unfold evalRest at he ⊢
  rcases e2 : solarStage k g c.t (stateStage k c.y h) with ⟨h2, r2⟩
  rw [e2] at he
  cases r2 with
  | error x => simp [andThen] at he
  | ok u =>
    simp only [andThen] at he ⊢
    rcases e3 : loadStage k g c.jac c.t h2 with ⟨h3, r3⟩
    rw [e3] at he
    cases r3 with
    | error x => simp at he
    | ok u =>
      simp only at he ⊢
      rcases e4 : dcStage k c.t (qStage k g c h3) with ⟨h4, r4⟩
      rw [e4] at he
      cases r4 with
      | error x => simp at he
      | ok u => exact ⟨h2, h3, h4, rfl, e3, e4, rfl⟩

theorem rest_uses_source (hk : k ∈ classes) (hsa : g.standAlone = true) (c : Call k) {h : Hid} {e : Env} (he : (evalRest k g c h).2 = .ok e) :
    e.va = Circuit.vStandAlone h.grid.va (k.cur c.y).1 g.a g.Z1 g.Z2 (evalRest k g c h).1.Zload1 ∧ (g.useEst = false → e.wgrid_measured = h.grid.w) := by
  have hgr := rest_grid (g := g) c h
  obtain ⟨h2, h3, h4, e2, e3, e4, e5⟩ := rest_ok he
  have he' := he
  rw [e5] at he'
  obtain ⟨-, -, b3, b4⟩ := rt_ok he'
  have hg : h.grid = (freqStage k g c (irefStage k g c h4)).grid := by rw [← hgr, e5, b3]
  have hz : (evalRest k g c h).1.Zload1 = (freqStage k g c (irefStage k g c h4)).Zload1 := by rw [e5, b3]
  have hva : e.va = (envC k g c (freqStage k g c (irefStage k g c h4))).va := by rw [b4]; split_ifs <;> rfl
  have hw : e.wgrid_measured = (envC k g c (freqStage k g c (irefStage k g c h4))).wgrid_measured := by rw [b4]; split_ifs <;> rfl
  constructor
  · rw [hva, envC_va hk, hsa, hg, hz]; rfl
  · intro hu
    rw [hw, hg]
    have : (envC k g c (freqStage k g c (irefStage k g c h4))).wgrid_measured = (freqStage k g c (irefStage k g c h4)).fe.wmeas := by
      unfold envC envP
      dsimp only
      split_ifs <;> exact class_wgrid hk _ _ _
    rw [this]
    unfold freqStage
    rw [if_neg (by simp [hu])]
    dsimp only
    rw [if_pos hsa]

theorem evalW_ok {c : Call k} {e : Env} (he : (evalW w g c W).2 = .ok e) : (gridCall w g c.t W).2 = .ok () ∧ evalW w g c W = derCall w g c (gridCall w g c.t W).1 := by
  unfold evalW at he ⊢
  generalize gridCall w g c.t W = R at he ⊢
  obtain ⟨W1, r⟩ := R
  cases r with
  | error x => simp at he
  | ok u => exact ⟨rfl, rfl⟩

/-- C154: then every evaluation computes with the voltage and frequency that this grid had before the first simulation: the grid events, of whatever events object, do not reach the DER. -/
theorem C154_grid_events_ignored (hk : k ∈ classes) (hne : w.derGrid ≠ w.simGrid) (hsa : g.standAlone = true) (c : Call k) {e : Env} (he : (evalW w g c W).2 = .ok e) :
    e.va = Circuit.vStandAlone (W.grids w.derGrid).va (k.cur c.y).1 g.a g.Z1 (w.Z2 w.derGrid) (evalW w g c W).1.s.h.Zload1 ∧ (g.useEst = false → e.wgrid_measured = (W.grids w.derGrid).w) := by
  obtain ⟨-, h2⟩ := evalW_ok he
  rw [h2] at he ⊢
  obtain ⟨a, b⟩ := rest_uses_source (g := w.der g) hk hsa c (h := derView w (gridCall w g c.t W).1) he
  have hg : (derView w (gridCall w g c.t W).1).grid = W.grids w.derGrid := gridCall_grids c.t hne
  rw [hg] at a b
  exact ⟨a, b⟩

/-- C154: the voltage events do reach the grid of the simulation, and only it: after an evaluation at a time not before its last change its voltage is the one its own events object schedules,
its unbalance is its own, and so is its frequency. -/
theorem C154_source_of_the_simulation (hne : w.derGrid ≠ w.simGrid) (hsa : g.standAlone = true) (c : Call k) {e : Env} (he : (evalW w g c W).2 = .ok e) :
    (∃ v, (Events.gridEvents (w.evc (w.gridEv w.simGrid)) (w.sp (w.gridEv w.simGrid)) (W.evs (w.gridEv w.simGrid)) c.t).2 = .ok v ∧
      ((W.grids w.simGrid).tV ≤ c.t → ((evalW w g c W).1.grids w.simGrid).va = Grid.phasorOf v) ∧ ((W.grids w.simGrid).tF ≤ c.t → ((evalW w g c W).1.grids w.simGrid).w = Grid.omegaOf v)) ∧
    ((evalW w g c W).1.grids w.simGrid).rb = (W.grids w.simGrid).rb ∧ ((evalW w g c W).1.grids w.simGrid).rc = (W.grids w.simGrid).rc ∧
    (c.t < (W.grids w.simGrid).tV → ((evalW w g c W).1.grids w.simGrid).va = (W.grids w.simGrid).Va) ∧ ∀ j, j ≠ w.simGrid → (evalW w g c W).1.grids j = W.grids j := by
  obtain ⟨h1, h2⟩ := evalW_ok he
  have hs : (evalW w g c W).1.grids w.simGrid = (gridCall w g c.t W).1.grids w.simGrid := by
    rw [h2, derCall_grids]
  have hu : ∃ v, (Events.gridEvents (w.evc (w.gridEv w.simGrid)) (w.sp (w.gridEv w.simGrid)) (W.evs (w.gridEv w.simGrid)) c.t).2 = .ok v ∧
      (gridCall w g c.t W).1.grids w.simGrid = Grid.update (W.grids w.simGrid) c.t v := by
    unfold gridCall at h1 ⊢
    rw [if_pos hsa] at h1 ⊢
    dsimp only at h1 ⊢
    rw [Function.update_self]
    unfold Grid.steadyState at h1 ⊢
    dsimp only at h1 ⊢
    generalize Events.gridEvents (w.evc (w.gridEv w.simGrid)) (w.sp (w.gridEv w.simGrid)) (W.evs (w.gridEv w.simGrid)) c.t = R at h1 ⊢
    obtain ⟨ev, r⟩ := R
    cases r with
    | error e => simp at h1
    | ok v => exact ⟨v, rfl, rfl⟩
  obtain ⟨v, hv, hG⟩ := hu
  rw [hs, hG]
  refine ⟨⟨v, hv, fun ht => ?_, fun ht => ?_⟩, ?_, ?_, fun ht => ?_, fun j hj => evalW_grids c hj⟩
  · show (Grid.update (W.grids w.simGrid) c.t v).Va = _
    rw [Grid.update_Va]
    split_ifs with hc
    · rfl
    · by_contra hn
      exact hc ⟨hn, ht⟩
  · rw [Grid.update_w]
    split_ifs with hc
    · rfl
    · by_contra hn
      exact hc ⟨hn, ht⟩
  · unfold Grid.update
    dsimp only
    split_ifs <;> rfl
  · unfold Grid.update
    dsimp only
    split_ifs <;> rfl
  · show (Grid.update (W.grids w.simGrid) c.t v).Va = _
    rw [Grid.update_Va, if_neg (fun hc => absurd hc.2 (not_le.2 ht))]

/-! ### The schedule of the simulation's events object does not reach the trajectory -/

/-- The same objects, but another schedule (or other counters) in the events object of the simulation. -/
def withSim (w : Wires I J) (E : Events.St ℝ) (W : World k I J) : World k I J := { W with evs := Function.update W.evs w.simEv E }

theorem evalW_withSim (h1 : w.derEv ≠ w.simEv) (h2 : g.standAlone = true → w.gridEv w.simGrid ≠ w.simEv) (E : Events.St ℝ) (c : Call k) :
    evalW w g c (withSim w E W) = (withSim w E (evalW w g c W).1, (evalW w g c W).2) := by
  have hg : gridCall w g c.t (withSim w E W) = (withSim w E (gridCall w g c.t W).1, (gridCall w g c.t W).2) := by
    unfold gridCall
    by_cases hs : g.standAlone = true
    · rw [if_pos hs, if_pos hs]
      unfold withSim
      dsimp only
      rw [Function.update_of_ne (h2 hs), Function.update_comm (h2 hs)]
    · rw [if_neg hs, if_neg hs]
  unfold evalW
  rw [hg]
  rcases gridCall w g c.t W with ⟨W1, r⟩
  cases r with
  | error e => rfl
  | ok u =>
    dsimp only
    have hv : derView w (withSim w E W1) = derView w W1 := by
      unfold derView withSim
      dsimp only
      rw [Function.update_of_ne h1]
    unfold derCall
    rw [hv]
    unfold withSim
    dsimp only
    rw [Function.update_comm h1]

theorem execW_withSim (h1 : w.derEv ≠ w.simEv) (h2 : g.standAlone = true → w.gridEv w.simGrid ≠ w.simEv) (E : Events.St ℝ) (Jm : Env → k.V → k.V → ℝ) (x : Ext) (S : Strat k) :
    execW w g Jm x S (withSim w E W) = (withSim w E (execW w g Jm x S W).1, (execW w g Jm x S W).2) := by
  induction S generalizing W with
  | done r m => rfl
  | ask j y t next ih =>
    unfold execW
    rw [evalW_withSim h1 h2]
    rcases evalW w g (mkCall x j y t) W with ⟨W1, r⟩
    cases r with
    | error e => rfl
    | ok e => exact ih _

theorem finish_keeps {c : Cfg k} {s : Sess k} (ts : List ℝ) (rows : List (k.V → ℝ)) :
    (finish c ts rows s).1.rows = rows ∧ (finish c ts rows s).1.conv = s.conv ∧ (finish c ts rows s).1.fails = s.fails := by
  unfold finish
  split
  · unfold collectSeries
    dsimp only
    split
    · split
      · exact ⟨rfl, rfl, rfl⟩
      · split
        · exact ⟨rfl, rfl, rfl⟩
        · split <;> exact ⟨rfl, rfl, rfl⟩
    · split <;> exact ⟨rfl, rfl, rfl⟩
  · exact ⟨rfl, rfl, rfl⟩

/-- C154: with an events object of its own, not used by the DER or the grid, the simulation computes the same trajectory whatever is scheduled there. -/
theorem C154_schedule_without_effect (h1 : w.derEv ≠ w.simEv) (c : Cfg k) (h2 : c.g.standAlone = true → w.gridEv w.simGrid ≠ w.simEv) (E : Events.St ℝ) (sv : Solver k) :
    (runSimW w c sv (withSim w E W)).1.s.rows = (runSimW w c sv W).1.s.rows ∧ (runSimW w c sv (withSim w E W)).1.s.conv = (runSimW w c sv W).1.s.conv ∧
      (runSimW w c sv (withSim w E W)).1.s.fails = (runSimW w c sv W).1.s.fails := by
  have he := execW_withSim (W := { W with s := { W.s with t := c.ts, rows := [W.s.y] } }) h1 h2 E c.J c.x (sv W.s.y c.ts)
  unfold runSimW
  have e0 : ({ withSim w E W with s := { (withSim w E W).s with t := c.ts, rows := [(withSim w E W).s.y] } } : World k I J) =
    withSim w E { W with s := { W.s with t := c.ts, rows := [W.s.y] } } := rfl
  have e1 : (withSim w E W).s.y = W.s.y := rfl
  rw [e0, e1, he]
  rcases execW w c.g c.J c.x (sv W.s.y c.ts) { W with s := { W.s with t := c.ts, rows := [W.s.y] } } with ⟨W1, r⟩
  cases r with
  | error e => exact ⟨rfl, rfl, rfl⟩
  | ok p =>
    obtain ⟨rows, mused⟩ := p
    dsimp only
    rw [show (withSim w E W1).s = W1.s from rfl]
    rcases check c.ts mused W1.s with ⟨s1, r1⟩
    cases r1 with
    | error e => exact ⟨rfl, rfl, rfl⟩
    | ok u =>
      dsimp only
      unfold finishW
      obtain ⟨a1, a2, a3⟩ := finish_keeps (c := { c with g := w.sim c.g }) (s := simView w (resetsW w { withSim w E W1 with s := s1 })) c.ts rows
      obtain ⟨b1, b2, b3⟩ := finish_keeps (c := { c with g := w.sim c.g }) (s := simView w (resetsW w { W1 with s := s1 })) c.ts rows
      exact ⟨a1.trans b1.symm, a2.trans b2.symm, a3.trans b3.symm⟩

/-! ### The report -/

/-- A run that returns normally: its report is that of a run with the objects of the simulation. -/
theorem runSimW_ok {c : Cfg k} {sv : Solver k} (hret : (runSimW w c sv W).2 = .ok ()) :
    ∃ W1 rows mused, execW w c.g c.J c.x (sv W.s.y c.ts) { W with s := { W.s with t := c.ts, rows := [W.s.y] } } = (W1, .ok (rows, mused)) ∧
      (runSim { c with g := w.sim c.g } (fun _ _ => .done rows mused) (simView w W1)).2 = .ok () ∧
      (runSimW w c sv W).1.s.rep = (runSim { c with g := w.sim c.g } (fun _ _ => .done rows mused) (simView w W1)).1.rep ∧ (runSimW w c sv W).1.s.rows = rows := by
  unfold runSimW at hret ⊢
  rcases hx : execW w c.g c.J c.x (sv W.s.y c.ts) { W with s := { W.s with t := c.ts, rows := [W.s.y] } } with ⟨W1, r⟩
  rw [hx] at hret
  cases r with
  | error e => simp at hret
  | ok p =>
    obtain ⟨rows, mused⟩ := p
    refine ⟨W1, rows, mused, rfl, ?_⟩
    dsimp only at hret ⊢
    unfold runSim exec
    dsimp only
    unfold check at hret ⊢
    by_cases hm : mused.any badStatus = true
    · exfalso
      rw [if_pos hm] at hret
      split_ifs at hret
    · rw [if_neg hm] at hret ⊢
      dsimp only at hret ⊢
      rw [if_neg hm]
      dsimp only
      have key : ∀ (c : Cfg k) (s s' : Sess k), s'.h = s.h → s'.y = s.y → s'.rep = s.rep →
          (finish c c.ts rows s').2 = (finish c c.ts rows s).2 ∧ (finish c c.ts rows s').1.rep = (finish c c.ts rows s).1.rep := by
        intro c s s' a1 a2 a3
        unfold finish
        by_cases hc : c.coll = true
        · rw [if_pos hc, if_pos hc]
          unfold collectSeries
          dsimp only
          rw [a1, a2]
          by_cases hsa : c.g.standAlone = true
          · rw [if_pos hsa, if_pos hsa]
            rcases queryAll (Events.gridEvents c.g.evc c.g.sp) s.h.ev c.ts with ⟨ev, r⟩
            cases r with
            | error e => exact ⟨rfl, a3⟩
            | ok gv =>
              dsimp only
              rcases queryAll Events.loadEvents (resetUnless c.loop ev) c.ts with ⟨ev1, r1⟩
              cases r1 with
              | error e => exact ⟨rfl, a3⟩
              | ok lv =>
                dsimp only
                rcases queryAll (Events.solarEvents c.g.sp) (resetUnless c.loop ev1) c.ts with ⟨ev2, r2⟩
                cases r2 with
                | error e => exact ⟨rfl, a3⟩
                | ok vs => exact ⟨rfl, rfl⟩
          · rw [if_neg hsa, if_neg hsa]
            rcases queryAll (Events.solarEvents c.g.sp) s.h.ev c.ts with ⟨ev, r⟩
            cases r with
            | error e => exact ⟨rfl, a3⟩
            | ok vs => exact ⟨rfl, rfl⟩
        · rw [if_neg hc, if_neg hc]
          exact ⟨rfl, a3⟩
      have hh : (simView w (resetsW w { W1 with s := { W1.s with conv := some true } })).h = resets (simView w W1).h := by
        unfold simView resetsW resets
        simp only [Function.update_self]
      obtain ⟨k1, k2⟩ := key { c with g := w.sim c.g } (simView w (resetsW w { W1 with s := { W1.s with conv := some true } }))
        { simView w W1 with t := c.ts, rows := [(simView w W1).y], conv := some true, h := resets (simView w W1).h } hh.symm rfl rfl
      refine ⟨k1.trans hret, k2.symm, ?_⟩
      exact (finish_keeps (c := { c with g := w.sim c.g }) c.ts rows).1

/-- C154: the reported insolation (and the PV power computed from it) is that scheduled in the events object of the simulation, whatever the DER uses. -/
theorem C154_report_follows_simulation {c : Cfg k} {sv : Solver k} (hl : c.loop = false) (hcoll : c.coll = true) (hov : (w.evc w.simEv).overrideAngle = true)
    (hr : Events.ReachableUnder (w.evc w.simEv) (w.sp w.simEv) (W.evs w.simEv)) (hen : (W.evs w.simEv).solarEnable = true) (hd : Dense (W.evs w.simEv).solar none c.ts)
    (hret : (runSimW w c sv W).2 = .ok ()) :
    ∃ r, (runSimW w c sv W).1.s.rep = some r ∧
      List.Forall₂ (fun t x => ∃ v, Correct (W.evs w.simEv).solar ⟨(w.sp w.simEv).insolation.dflt, 29815 / 100⟩ t v ∧ x = v.Sinsol) c.ts r.sinsol ∧
      List.Forall₂ (fun (q : ℝ × (k.V → ℝ)) p => ∃ v, Correct (W.evs w.simEv).solar ⟨(w.sp w.simEv).insolation.dflt, 29815 / 100⟩ q.1 v ∧
        p = PV.ppv c.g.p.mod v.Sinsol v.Tactual (min c.g.p.Vdcmpp_max (k.vdc q.2 c.g.Vdc0 * c.g.p.Vdcbase))) (c.ts.zip (runSimW w c sv W).1.s.rows) r.ppv := by
  obtain ⟨W1, rows, mused, hx, h2, h3, h4⟩ := runSimW_ok hret
  have hP := kept_sched (g := w.sim c.g) hov (W.evs w.simEv)
  have h0 : SameSched (w.sim c.g) (W.evs w.simEv) (W1.evs w.simEv) := by
    have := execW_inv (w := w) (g := c.g) (P := fun W' : World k I J => SameSched (w.sim c.g) (W.evs w.simEv) (W'.evs w.simEv)) c.J c.x
      (fun cl W' h => evalW_kept w.simEv hP.grid hP.solar hP.load cl h) (sv W.s.y c.ts) (W := { W with s := { W.s with t := c.ts, rows := [W.s.y] } }) ⟨hr, ⟨rfl, rfl, rfl, rfl⟩, rfl, rfl⟩
    rw [hx] at this
    exact this
  have hsol : (simView w W1).h.ev.solar = (W.evs w.simEv).solar := h0.lists.1
  obtain ⟨r, rows', a1, a2, _, a4, a5⟩ := C104_weather_series (c := { c with g := w.sim c.g }) (sv := fun _ _ => .done rows mused) (s := simView w W1) hl hcoll hov h0.reach
    (h0.lists.2.2.1.trans hen) (by rw [hsol]; exact hd) h2
  rw [hsol] at a4 a5
  have hrows : rows' = rows := by
    obtain ⟨h', y', rows2, mused2, b1, _, b2⟩ := runSim_ok h2
    simp only [exec, Prod.mk.injEq, Except.ok.injEq] at b1
    rw [b2] at a2
    rw [← a2, b1.2.1]
    exact (finish_keeps _ _).1
  rw [hrows] at a5
  exact ⟨r, h3.trans a1, a4, by rw [h4]; exact a5⟩

/-! ### The weather the DER computes with -/

theorem rest_solar {c : Call k} {h : Hid} {e : Env} (he : (evalRest k g c h).2 = .ok e) (hi : Events.Inv h.ev) (hen : h.ev.solarEnable = true) :
    ∃ v, playback h.ev.solar h.ev.solar.length h.ev.solarCtr ⟨g.sp.insolation.dflt, 29815 / 100⟩ c.t = ((evalRest k g c h).1.ev.solarCtr, .ok v) ∧
      (evalRest k g c h).1.ev.solar = h.ev.solar ∧ (evalRest k g c h).1.ev.solarEnable = true ∧ Events.Inv (evalRest k g c h).1.ev ∧
      ∃ h5 : Hid, evalRest k g c h = rtStage k g c h5 ∧ h5.Sinsol = v.Sinsol ∧ h5.Tactual = v.Tactual ∧ (SunOk g h → SunOk g h5) := by
  obtain ⟨h2, h3, h4, e2, e3, e4, e5⟩ := rest_ok he
  obtain ⟨v, v1, v2, v3, _, _, v4⟩ := solar_ok e2
  have v1' : Events.solarEvents g.sp h.ev c.t = (h2.ev, .ok v) := v1
  have hi2 : Events.Inv h2.ev := by have := Events.inv_solarEvents (sp := g.sp) hi c.t; rw [v1'] at this; exact this
  have sf := Events.solarEvents_frame g.sp h.ev c.t
  rw [v1'] at sf
  have v1'' := v1'
  rw [Events.solarEvents_enabled g.sp h.ev hi hen] at v1''
  simp only [Prod.mk.injEq] at v1''
  obtain ⟨l1, l2, l3, l4, l5, l6⟩ := load_solar (k := k) (g := g) (h := h2) c.jac c.t
  have l7 := load_inv (k := k) (g := g) (h := h2) c.jac c.t hi2
  rw [e3] at l1 l2 l3 l4 l5 l6 l7
  simp only at l1 l2 l3 l4 l5 l6 l7
  obtain ⟨f1, f2, f3, f4, _, _⟩ := late_frame e4
  rw [e5] at he
  obtain ⟨_, _, b3, _⟩ := rt_ok he
  have hctr : h2.ev.solarCtr = (playback h.ev.solar h.ev.solar.length h.ev.solarCtr ⟨g.sp.insolation.dflt, 29815 / 100⟩ c.t).1 := by rw [← v1''.1]
  have r1 : (evalRest k g c h).1.ev = h3.ev := by rw [e5, b3]; exact f1
  refine ⟨v, ?_, ?_, ?_, ?_, _, e5, f2.trans (l1.trans v2), f3.trans (l2.trans v3), fun hI => ?_⟩
  · rw [r1, l5, hctr, ← v1''.2]
  · rw [r1, l4]; exact sf.1
  · rw [r1, l6]; exact sf.2.2.1.trans hen
  · rw [r1]; exact l7
  · unfold SunOk
    rw [f2, f3, f4, l1, l2, l3]
    exact v4 fun _ => hI

theorem rest_sun (c : Call k) {h : Hid} {e : Env} (he : (evalRest k g c h).2 = .ok e) (hi : Events.Inv h.ev) (hen : h.ev.solarEnable = true) (hI : SunOk g h) : SunOk g (evalRest k g c h).1 := by
  obtain ⟨v, _, _, _, _, h5, w1, _, _, w4⟩ := rest_solar he hi hen
  have := w4 hI
  rw [w1] at he ⊢
  obtain ⟨_, _, b3, _⟩ := rt_ok he
  rw [b3]
  exact this

/-- One evaluation. -/
theorem wpos_eval {c : Call k} {e : Env} {S : List (Ev ℝ (Events.SolarVal ℝ))} {prev : Option ℝ} (hP : Pos S prev (W.evs w.derEv)) (hI : SunOk g W.s.h)
    (he : (evalW w g c W).2 = .ok e) (hd : ∀ e ∈ S, ∀ e' ∈ S, AfterPrev prev e.T → e.T ≤ c.t → AfterPrev prev e'.T → e'.T ≤ c.t → e = e') :
    Pos S (some (latest prev c.t)) ((evalW w g c W).1.evs w.derEv) ∧ SunOk g (evalW w g c W).1.s.h ∧
      ∃ v, Shown S ⟨(w.sp w.derEv).insolation.dflt, 29815 / 100⟩ c.t (asked prev) (∀ e ∈ S, c.t < e.T) v ∧
        (k ∈ classes → e.Ppv = if (evalW w g c W).1.s.h.rt.connected = true then PV.ppv g.p.mod v.Sinsol v.Tactual (min g.p.Vdcmpp_max (e.Vdc * g.p.Vdcbase)) else 0) := by
  have hP1 : Pos S prev ((gridCall w g c.t W).1.evs w.derEv) := by
    rw [gridCall_evs]
    split
    · have hf := Events.gridEvents_frame (w.evc w.derEv) (w.sp w.derEv) (W.evs w.derEv) c.t
      exact ⟨hf.1.trans hP.lst, hf.2.2.1.trans hP.en, Events.inv_gridEvents hP.inv _, fun h => hf.2.1.trans (hP.ctr h)⟩
    · exact hP
  have hI1 : SunOk (w.der g) (derView w (gridCall w g c.t W).1) := by
    have : (gridCall w g c.t W).1.s = W.s := gridCall_s _
    unfold SunOk derView
    dsimp only
    rw [this]
    exact hI
  obtain ⟨-, h2⟩ := evalW_ok he
  rw [h2] at he ⊢
  generalize (gridCall w g c.t W).1 = W1 at *
  have he' : (evalRest k (w.der g) c (derView w W1)).2 = .ok e := he
  have hev : (derCall w g c W1).1.evs w.derEv = (evalRest k (w.der g) c (derView w W1)).1.ev := by unfold derCall; exact Function.update_self ..
  have hh : (derCall w g c W1).1.s.h = (evalRest k (w.der g) c (derView w W1)).1 := rfl
  rw [hev, hh]
  have hsun := rest_sun c he' hP1.inv hP1.en hI1
  obtain ⟨v, v1, v2, v3, v4, h5, w1, w2, w3, w4⟩ := rest_solar he' hP1.inv hP1.en
  have hl : (derView w W1).ev.solar = S := hP1.lst
  rw [hl] at v1 v2
  have hs : StrictSorted S := by rw [← hP1.lst]; exact hP1.inv.solarS
  obtain ⟨a1, a2⟩ := pos_play hs (ctr := (derView w W1).ev.solarCtr) hP1.ctr v1 hd
  refine ⟨⟨v2, v3, v4, a1⟩, hsun, v, a2, fun hk => ?_⟩
  have b4 := w4 hI1
  rw [w1] at he' ⊢
  obtain ⟨_, _, _, b5⟩ := rt_ok he'
  split
  · rename_i hcon
    rw [hcon] at b5
    rw [b5]
    have := envC_ppv (g := w.der g) hk c h5 b4
    rw [w2, w3] at this
    exact this
  · rename_i hcon
    rw [b5, if_neg hcon]
    rfl

/-- All evaluations of the sequence succeed. -/
def OkW (w : Wires I J) (g : SCfg) (W : World k I J) : List (Call k) → Prop
  | [] => True
  | c :: l => (∃ e, (evalW w g c W).2 = .ok e) ∧ OkW w g (evalW w g c W).1 l

theorem okW_append (l l' : List (Call k)) (W : World k I J) : OkW w g W (l ++ l') ↔ OkW w g W l ∧ OkW w g (runW w g W l) l' := by
  induction l generalizing W with
  | nil => simp [OkW, runW]
  | cons c l ih =>
    simp only [List.cons_append, OkW, ih, and_assoc]
    rfl

theorem execW_trace (Jm : Env → k.V → k.V → ℝ) (x : Ext) (S : Strat k) : (execW w g Jm x S W).1 = runW w g W (traceW w g Jm x S W) ∧
    ∀ r, (execW w g Jm x S W).2 = .ok r → OkW w g W (traceW w g Jm x S W) := by
  induction S generalizing W with
  | done r m => exact ⟨rfl, fun _ _ => trivial⟩
  | ask j y t next ih =>
    unfold execW traceW
    rcases hx : evalW w g (mkCall x j y t) W with ⟨W1, r⟩
    cases r with
    | error e =>
      refine ⟨?_, fun r h => by simp at h⟩
      show W1 = (evalW w g (mkCall x j y t) W).1
      rw [hx]
    | ok e =>
      dsimp only
      obtain ⟨a, b⟩ := ih (if j then .inr (Jm e) else .inl (k.rhs e)) (W := W1)
      refine ⟨?_, fun r h => ⟨⟨e, by rw [hx]⟩, by rw [hx]; exact b r h⟩⟩
      rw [a]
      show _ = runW w g (evalW w g (mkCall x j y t) W).1 _
      rw [hx]

theorem wpos_run {S : List (Ev ℝ (Events.SolarVal ℝ))} {prev : Option ℝ} (hP : Pos S prev (W.evs w.derEv)) (hI : SunOk g W.s.h) (l : List (Call k)) (hok : OkW w g W l)
    (hd : Steps S prev (l.map Call.t)) : Pos S (latestOf prev (l.map Call.t)) ((runW w g W l).evs w.derEv) ∧ SunOk g (runW w g W l).s.h := by
  induction l generalizing W prev with
  | nil => exact ⟨hP, hI⟩
  | cons cl l ih =>
    obtain ⟨⟨e, he⟩, ho⟩ := hok
    obtain ⟨a, b, _⟩ := wpos_eval hP hI he hd.1
    exact ih a b ho hd.2

/-- The objects when the solver starts, and the evaluations of a run. -/
def startW (c : Cfg k) (W : World k I J) : World k I J := { W with s := { W.s with t := c.ts, rows := [W.s.y] } }
/-- see `startW`. -/
noncomputable def callsOf (w : Wires I J) (c : Cfg k) (sv : Solver k) (W : World k I J) : List (Call k) := traceW w c.g c.J c.x (sv W.s.y c.ts) (startW c W)

/-- In all these runs the solver comes to its end; it may report success or failure. -/
def Ended (w : Wires I J) (c : Cfg k) (W : World k I J) : List (Solver k) → Prop
  | [] => True
  | sv :: l => (∃ r, (execW w c.g c.J c.x (sv W.s.y c.ts) (startW c W)).2 = .ok r) ∧ Ended w c (runSimW w c sv W).1 l

/-- The evaluations of these runs. -/
noncomputable def allCalls (w : Wires I J) (c : Cfg k) (W : World k I J) : List (Solver k) → List (Call k)
  | [] => []
  | sv :: l => callsOf w c sv W ++ allCalls w c (runSimW w c sv W).1 l

theorem finishW_der (hne : w.derEv ≠ w.simEv) (c : Cfg k) (ts : List ℝ) (rows : List (k.V → ℝ)) (hI : SunOk c.g W.s.h) :
    (finishW w c ts rows W).1.evs w.derEv = W.evs w.derEv ∧ SunOk c.g (finishW w c ts rows W).1.s.h := by
  refine ⟨by unfold finishW; exact Function.update_of_ne hne _ _, ?_⟩
  show SunOk (w.sim c.g) (finish { c with g := w.sim c.g } ts rows (simView w W)).1.h
  unfold finish
  split
  · exact (collect_facts (c := { c with g := w.sim c.g }) (s := { simView w W with t := ts, rows := rows }) (P := fun _ => True) ⟨fun _ _ _ => trivial, fun _ _ _ => trivial, fun _ _ _ => trivial⟩
      (fun _ _ => trivial) ts rows trivial hI).2.1
  · exact hI

theorem wpos_sim (hne : w.derEv ≠ w.simEv) {c : Cfg k} {sv : Solver k} {S : List (Ev ℝ (Events.SolarVal ℝ))} {prev : Option ℝ} (hP : Pos S prev (W.evs w.derEv)) (hI : SunOk c.g W.s.h)
    {r : List (k.V → ℝ) × List Int} (he : (execW w c.g c.J c.x (sv W.s.y c.ts) (startW c W)).2 = .ok r) (hd : Steps S prev ((callsOf w c sv W).map Call.t)) :
    Pos S (latestOf prev ((callsOf w c sv W).map Call.t)) ((runSimW w c sv W).1.evs w.derEv) ∧ SunOk c.g (runSimW w c sv W).1.s.h := by
  obtain ⟨t1, t2⟩ := execW_trace (w := w) (g := c.g) (W := startW c W) c.J c.x (sv W.s.y c.ts)
  obtain ⟨p1, p2⟩ := wpos_run (W := startW c W) hP hI (callsOf w c sv W) (t2 r he) hd
  rw [show runW w c.g (startW c W) (callsOf w c sv W) = _ from t1.symm] at p1 p2
  unfold runSimW
  rw [show ({ W with s := { W.s with t := c.ts, rows := [W.s.y] } } : World k I J) = startW c W from rfl]
  generalize execW w c.g c.J c.x (sv W.s.y c.ts) (startW c W) = R at p1 p2 he ⊢
  obtain ⟨W1, r'⟩ := R
  dsimp only at he
  subst he
  obtain ⟨rows, mused⟩ := r
  dsimp only
  have hh := check_source (s := W1.s) c.ts mused
  generalize check c.ts mused W1.s = Q at hh ⊢
  obtain ⟨s1, r1⟩ := Q
  have hI1 : SunOk c.g s1.h := by rw [show s1.h = W1.s.h from hh]; exact p2
  cases r1 with
  | error e => exact ⟨p1, hI1⟩
  | ok u =>
    dsimp only
    obtain ⟨f1, f2⟩ := finishW_der (W := resetsW w { W1 with s := s1 }) hne c c.ts rows hI1
    refine ⟨?_, f2⟩
    rw [f1]
    show Pos S _ (Function.update W1.evs w.simEv _ w.derEv)
    rw [Function.update_of_ne hne]
    exact p1

theorem wpos_sims (hne : w.derEv ≠ w.simEv) {c : Cfg k} {S : List (Ev ℝ (Events.SolarVal ℝ))} {prev : Option ℝ} (hP : Pos S prev (W.evs w.derEv)) (hI : SunOk c.g W.s.h)
    (l : List (Solver k)) (he : Ended w c W l) (hd : Steps S prev ((allCalls w c W l).map Call.t)) :
    Pos S (latestOf prev ((allCalls w c W l).map Call.t)) ((runsW w c l W).evs w.derEv) ∧ SunOk c.g (runsW w c l W).s.h := by
  induction l generalizing W prev with
  | nil => exact ⟨hP, hI⟩
  | cons sv l ih =>
    obtain ⟨⟨r, hr⟩, he⟩ := he
    show Pos S (latestOf prev ((callsOf w c sv W ++ allCalls w c (runSimW w c sv W).1 l).map Call.t)) _ ∧ _
    have hd' : Steps S prev ((callsOf w c sv W ++ allCalls w c (runSimW w c sv W).1 l).map Call.t) := hd
    rw [List.map_append, steps_append] at hd'
    rw [List.map_append, latestOf_append]
    obtain ⟨a, b⟩ := wpos_sim hne hP hI hr hd'.1
    exact ih a b he hd'.2

/-- C154: the DER has an events object that is not the one of the simulation.  Then the weather it computes with comes from its own events object, whose counters no simulation resets: at each
evaluation of any run it is the weather scheduled there for that time, or for a later time that has been evaluated before, in this run or in *any earlier run*, successful or not
(`Shown`; see `C153_right_beyond` and `C153_stale_before`). -/
theorem C154_weather_of_the_der (hk : k ∈ classes) (hne : w.derEv ≠ w.simEv) (hi : Events.Inv (W.evs w.derEv)) (hen : (W.evs w.derEv).solarEnable = true) (hc : (W.evs w.derEv).solarCtr = 0)
    {c : Cfg k} (hI : SunOk c.g W.s.h) (l : List (Solver k)) (he : Ended w c W l) (W' : World k I J) (hW' : W' = runsW w c l W) (sv : Solver k) {r : List (k.V → ℝ) × List Int}
    (hok : (execW w c.g c.J c.x (sv W'.s.y c.ts) (startW c W')).2 = .ok r) (p : List (Call k)) (cl : Call k) (q : List (Call k)) (htr : callsOf w c sv W' = p ++ cl :: q)
    (hd : Steps (W.evs w.derEv).solar none ((allCalls w c W l ++ (p ++ cl :: q)).map Call.t)) :
    ∃ v e, Shown (W.evs w.derEv).solar ⟨(w.sp w.derEv).insolation.dflt, 29815 / 100⟩ cl.t (fun τ => ∃ u ∈ allCalls w c W l ++ p, τ ≤ u.t) (∀ e ∈ (W.evs w.derEv).solar, cl.t < e.T) v ∧
      (evalW w c.g cl (runW w c.g (startW c W') p)).2 = .ok e ∧
      e.Ppv = if (runW w c.g (startW c W') (p ++ [cl])).s.h.rt.connected = true then
        PV.ppv c.g.p.mod v.Sinsol v.Tactual (min c.g.p.Vdcmpp_max (e.Vdc * c.g.p.Vdcbase)) else 0 := by
  have hP0 : Pos (W.evs w.derEv).solar none (W.evs w.derEv) := by
    refine ⟨rfl, hen, hi, fun hne => ?_⟩
    rw [hc]
    have : 0 < (W.evs w.derEv).solar.length := List.length_pos_iff.2 hne
    simp only [posOf]
    omega
  rw [List.map_append, steps_append] at hd
  obtain ⟨a, b⟩ := wpos_sims hne hP0 hI l he hd.1
  rw [← hW'] at a b
  have hokW := (execW_trace (w := w) (g := c.g) (W := startW c W') c.J c.x (sv W'.s.y c.ts)).2 r hok
  rw [show traceW w c.g c.J c.x (sv W'.s.y c.ts) (startW c W') = p ++ cl :: q from htr] at hokW
  obtain ⟨o1, ⟨e, he'⟩, _⟩ := (okW_append ..).1 hokW
  have hd2 := hd.2
  rw [List.map_append, steps_append] at hd2
  obtain ⟨a2, b2⟩ := wpos_run (W := startW c W') a b p o1 hd2.1
  obtain ⟨_, _, v, v1, v4⟩ := wpos_eval a2 b2 he' hd2.2.1
  refine ⟨v, e, v1.congr fun τ => ?_, he', ?_⟩
  · rw [← latestOf_append, ← List.map_append, asked_latestOf]
    constructor
    · rintro (⟨a, ha, _⟩ | ⟨u, hu, hle⟩)
      · cases ha
      · obtain ⟨a, ha, rfl⟩ := List.mem_map.1 hu
        exact ⟨a, ha, hle⟩
    · rintro ⟨a, ha, hle⟩
      exact Or.inr ⟨_, List.mem_map_of_mem ha, hle⟩
  · rw [v4 hk]
    have : runW w c.g (startW c W') (p ++ [cl]) = (evalW w c.g cl (runW w c.g (startW c W') p)).1 := by unfold runW; rw [List.foldl_append]; rfl
    rw [this]

/-! ### No exception -/

theorem rest_good {h : Hid} (hg : Good k g h) (c : Call k) : (∃ e, (evalRest k g c h).2 = .ok e) ∧ Good k g (evalRest k g c h).1 := by
  obtain ⟨h2, e2, g2⟩ := solar_good (k := k) (h := stateStage k c.y h) hg.ev c.t
  obtain ⟨h3, e3, g3⟩ := load_good (k := k) (h := h2) hg.msg g2 c.jac c.t
  have a2 : h2.rt = h.rt := by have := solar_rt (k := k) (g := g) (h := stateStage k c.y h) c.t; rw [e2] at this; exact this
  have a3 : h3.rt = h.rt := by have := load_rt (k := k) (g := g) (h := h2) c.jac c.t; rw [e3] at this; exact this.trans a2
  have f2 : h2.filt = (stateStage k c.y h).filt := by have := solar_filt (k := k) (g := g) (h := stateStage k c.y h) c.t; rw [e2] at this; exact this
  have f3 : h3.filt = (stateStage k c.y h).filt := by have := load_filt (k := k) (g := g) (h := h2) c.jac c.t; rw [e3] at this; exact this.trans f2
  have hw : DcGood (qStage k g c h3).rt.w := by show DcGood h3.rt.w; rw [a3]; exact hg.dc
  obtain ⟨h4, e4, g4, ev4⟩ := dc_good (k := k) hw c.t
  obtain ⟨w, v, h4e⟩ := dc_rt e4
  have f4 : h4.filt = (stateStage k c.y h).filt := by rw [h4e]; exact f3
  have ee : evalRest k g c h = rtStage k g c (freqStage k g c (irefStage k g c h4)) := by
    unfold evalRest
    rw [e2]; simp only [andThen]
    rw [e3]; simp only
    rw [e4]
  set h5 := freqStage k g c (irefStage k g c h4) with hh5
  have r5 : h5.rt.w = h4.rt.w := by rw [hh5, freq_rt]; rfl
  have f5 : h5.filt = (stateStage k c.y h).filt := by rw [hh5, freq_filt]; exact f4
  have v5 : EvGood g.sp h5.ev := by
    have : h5.ev = h4.ev := by rw [hh5]; unfold freqStage; split <;> rfl
    rw [this, ev4]; exact g3
  have l5 : h5.rt.lfEnable = false := by
    rw [hh5, freq_rt]
    show h4.rt.lfEnable = false
    rw [h4e]
    show h3.rt.lfEnable = false
    rw [a3]; exact hg.lf
  have fnn : g.meas = .filtered → h5.filt ≠ none := by
    intro hm
    rw [f5]
    unfold stateStage
    dsimp only
    rcases hg.filt hm with hf | hf
    · cases hy : k.filt c.y with
      | some x => simp
      | none => exact hf
    · cases hy : k.filt c.y with
      | some x => simp
      | none => exact absurd hy (hf _)
  have hmeas : ∀ en, ∃ v, measured k g h5 en = .ok v := by
    intro en
    unfold measured
    cases hm : g.meas with
    | minimum => exact ⟨_, rfl⟩
    | average => exact ⟨_, rfl⟩
    | invalid => exact absurd hm hg.meas
    | filtered =>
      cases hf : h5.filt with
      | none => exact absurd hf (fnn hm)
      | some x => exact ⟨x, rfl⟩
  have hmc : measCheck k g c.t h5 (envC k g c h5) = .ok () := by
    unfold measCheck
    obtain ⟨v, hv⟩ := hmeas (envC k g c h5)
    rw [hv]
    split_ifs <;> rfl
  obtain ⟨t1, t2, t3⟩ := RT.eval_total g.rt h5.rt ⟨c.t, measVal k g h5 (envC k g c h5), (envC k g c h5).we / (2 * Real.pi), refsOf (envC k g c h5)⟩ l5 hg.ramp
  have er : rtStage k g c h5 = ({ h5 with rt := (RT.eval g.rt h5.rt ⟨c.t, measVal k g h5 (envC k g c h5), (envC k g c h5).we / (2 * Real.pi), refsOf (envC k g c h5)⟩).1 },
      .ok (if (RT.eval g.rt h5.rt ⟨c.t, measVal k g h5 (envC k g c h5), (envC k g c h5).we / (2 * Real.pi), refsOf (envC k g c h5)⟩).1.connected then envC k g c h5
        else disc (envC k g c h5))) := by
    simp only [rtStage, hmc, t1]
  rw [ee, er]
  refine ⟨⟨_, rfl⟩, hg.override, hg.msg, v5, ?_, t3, hg.ramp, hg.meas, fun hm => Or.inl (fnn hm)⟩
  show DcGood (RT.eval g.rt h5.rt _).1.w
  rw [t2, r5]
  exact g4

/-- The objects are in order: every events object, and the DER (`Good`). -/
structure GoodW (w : Wires I J) (g : SCfg) (W : World k I J) : Prop where
  ov : ∀ i, (w.evc i).overrideAngle = true
  evs : ∀ i, EvGood (w.sp i) (W.evs i)
  der : Good k (w.der g) (derView w W)

omit [DecidableEq I] [DecidableEq J] in
theorem goodW_of {W' : World k I J} (hg : GoodW w g W) (he : ∀ i, EvGood (w.sp i) (W'.evs i)) {h : Hid} (hh : Good k (w.der g) h) (h1 : W'.s.h.rt = h.rt) (h2 : W'.s.h.filt = h.filt) : GoodW w g W' :=
  ⟨hg.ov, he, { hh with ev := he w.derEv, dc := by show DcGood W'.s.h.rt.w; rw [h1]; exact hh.dc, lf := by show W'.s.h.rt.lfEnable = false; rw [h1]; exact hh.lf,
                        filt := by show _ → W'.s.h.filt ≠ none ∨ _; rw [h2]; exact hh.filt }⟩

theorem goodW_step (hg : GoodW w g W) (c : Call k) : (∃ e, (evalW w g c W).2 = .ok e) ∧ GoodW w g (evalW w g c W).1 := by
  have g1 : GoodW w g (gridCall w g c.t W).1 := by
    refine goodW_of hg (fun i => ?_) hg.der (by rw [gridCall_s]; rfl) (by rw [gridCall_s]; rfl)
    rw [gridCall_evs]
    split
    · exact (evGood_query (cc := w.evc i) (hg.evs i) c.t).1
    · exact hg.evs i
  have o1 : (gridCall w g c.t W).2 = .ok () := by
    unfold gridCall
    split
    · obtain ⟨v, hv⟩ := Events.gridEvents_ok (c := w.evc (w.gridEv w.simGrid)) (hg.ov _) (hg.evs (w.gridEv w.simGrid)).inv (hg.evs _).lim (hg.evs _).tight.grid c.t
      unfold Grid.steadyState
      dsimp only
      rcases hx : Events.gridEvents (w.evc (w.gridEv w.simGrid)) (w.sp (w.gridEv w.simGrid)) (W.evs (w.gridEv w.simGrid)) c.t with ⟨ev, r⟩
      rw [hx] at hv
      dsimp only at hv
      subst hv
      rfl
    · rfl
  unfold evalW
  generalize gridCall w g c.t W = R at g1 o1 ⊢
  obtain ⟨W1, r⟩ := R
  dsimp only at o1
  subst o1
  dsimp only
  obtain ⟨r1, r2⟩ := rest_good g1.der c
  refine ⟨r1, goodW_of g1 (fun i => ?_) r2 rfl rfl⟩
  by_cases hi : i = w.derEv
  · subst hi
    unfold derCall
    dsimp only
    rw [Function.update_self]
    exact r2.ev
  · rw [derCall_evs c hi]; exact g1.evs i

theorem execW_good (hg : GoodW w g W) (Jm : Env → k.V → k.V → ℝ) (x : Ext) (S : Strat k) (hS : Healthy S) :
    ∃ W1 rows mused, execW w g Jm x S W = (W1, .ok (rows, mused)) ∧ GoodW w g W1 ∧ ∀ m ∈ mused, ¬ Failed m := by
  induction S generalizing W with
  | done r m => exact ⟨W, r, m, rfl, hg, hS⟩
  | ask j y t next ih =>
    obtain ⟨⟨e, he⟩, hg'⟩ := goodW_step hg (mkCall x j y t)
    unfold execW
    rcases hq : evalW w g (mkCall x j y t) W with ⟨W1, r⟩
    rw [hq] at he hg'
    simp only at he
    subst he
    exact ih _ hg' (hS _)

/-- C154: whatever objects are used where, no simulation raises an exception. -/
theorem C154_no_exception {c : Cfg k} {sv : Solver k} (hg : GoodW w c.g W) (hS : Healthy (sv W.s.y c.ts)) : (runSimW w c sv W).2 = .ok () ∧ GoodW w c.g (runSimW w c sv W).1 := by
  have hg0 : GoodW w c.g ({ W with s := { W.s with t := c.ts, rows := [W.s.y] } } : World k I J) := goodW_of hg hg.evs hg.der rfl rfl
  obtain ⟨W1, rows, mused, he, hg', hf⟩ := execW_good hg0 c.J c.x (sv W.s.y c.ts) hS
  have hany : ¬ (mused.any badStatus = true) := by
    intro hc
    obtain ⟨m, hm, hF⟩ := List.any_eq_true.1 hc
    exact hf m hm ((badStatus_iff m).1 hF)
  unfold runSimW
  rw [he]
  dsimp only
  unfold check
  rw [if_neg hany]
  dsimp only
  have hd2 : Good k (w.der c.g) (derView w ({ W1 with s := { W1.s with h := { W1.s.h with rt := { W1.s.h.rt with w := VdcRef.reset W1.s.h.rt.w } } } } : World k I J)) :=
    { hg'.der with dc := ⟨hg'.der.dc.1, hg'.der.dc.2, le_rfl, Or.inl rfl⟩ }
  have hev : ∀ i, EvGood (w.sp i) ((resetsW w ({ W1 with s := { W1.s with conv := some true } } : World k I J)).evs i) := by
    intro i
    show EvGood (w.sp i) (Function.update W1.evs w.simEv (Events.resetCounters (W1.evs w.simEv)) i)
    by_cases hi : i = w.simEv
    · subst hi
      rw [Function.update_self]
      exact evGood_reset (w.evc w.simEv) (hg'.evs w.simEv)
    · rw [Function.update_of_ne hi]
      exact hg'.evs i
  have hr : GoodW w c.g (resetsW w ({ W1 with s := { W1.s with conv := some true } } : World k I J)) := goodW_of hg' hev hd2 rfl rfl
  generalize resetsW w ({ W1 with s := { W1.s with conv := some true } } : World k I J) = W2 at hr
  have hs : Good k (w.sim c.g) (simView w W2).h :=
    { override := hr.ov w.simEv, msg := hr.der.msg, ev := hr.evs w.simEv, dc := hr.der.dc, lf := hr.der.lf, ramp := hr.der.ramp, meas := hr.der.meas, filt := hr.der.filt }
  have hfin : (finish { c with g := w.sim c.g } c.ts rows (simView w W2)).2 = .ok () ∧ Good k (w.sim c.g) (finish { c with g := w.sim c.g } c.ts rows (simView w W2)).1.h := by
    unfold finish
    split
    · exact collect_good (c := { c with g := w.sim c.g }) (s := { simView w W2 with t := c.ts, rows := rows }) hs c.ts rows
    · exact ⟨rfl, hs⟩
  unfold finishW
  refine ⟨hfin.1, hr.ov, fun i => ?_, ?_⟩
  · dsimp only
    by_cases hi : i = w.simEv
    · subst hi
      rw [Function.update_self]
      exact hfin.2.ev
    · rw [Function.update_of_ne hi]
      exact hr.evs i
  · have hd : EvGood (w.sp w.derEv) (Function.update W2.evs w.simEv (finish { c with g := w.sim c.g } c.ts rows (simView w W2)).1.h.ev w.derEv) := by
      by_cases hi : w.derEv = w.simEv
      · have h2 := hfin.2.ev
        rw [hi, Function.update_self]
        exact h2
      · rw [Function.update_of_ne hi]
        exact hr.evs _
    exact { override := hr.ov w.derEv, msg := hr.der.msg, ev := hd, dc := hfin.2.dc, lf := hfin.2.lf, ramp := hr.der.ramp, meas := hr.der.meas, filt := hfin.2.filt }

/-! ### Examples -/

theorem askAtW (hg : GoodW w g W) (Jm : Env → k.V → k.V → ℝ) (x : Ext) (m : Int) (l : List ℝ) (y : k.V → ℝ) (ts : List ℝ) :
    traceW w g Jm x (askAt m l y ts) W = l.map (mkCall x false y) ∧ (execW w g Jm x (askAt m l y ts) W).2 = .ok ([y, y], [m]) := by
  induction l generalizing W with
  | nil => exact ⟨rfl, rfl⟩
  | cons t l ih =>
    obtain ⟨⟨e, he⟩, hg'⟩ := goodW_step hg (mkCall x false y t)
    unfold askAt traceW execW
    rcases hq : evalW w g (mkCall x false y t) W with ⟨W1, r⟩
    rw [hq] at he hg'
    simp only at he
    subst he
    dsimp only
    have := ih hg'
    exact ⟨by rw [this.1]; rfl, this.2⟩

/-- Two events objects and two grids: the DER has the first of each (`false`), the simulation the second, and each grid has its events object. -/
noncomputable def exWi : Wires Bool Bool :=
  ⟨false, true, false, true, id, fun _ => (exG exPar true).evc, fun _ => (exG exPar true).sp, fun _ => (exG exPar true).Z2⟩

/-- The schedule `E` in the events object of the DER; insolation events at 1, 2 and 3 s and a grid event at 1 s in that of the simulation. -/
noncomputable def exWorld (E : Events.St ℝ) (y : three.V → ℝ) : World three Bool Bool :=
  ⟨fun i => if i then exEv3 (exG exPar true) else E, fun _ => (exS true y).h.grid, exS true y⟩

theorem exWorld_good (E : Events.St ℝ) (hE : EvGood (exG exPar true).sp E) (y : three.V → ℝ) : GoodW exWi (exC true).g (exWorld E y) := by
  have hg := exS_good true y
  refine ⟨fun _ => hg.override, fun i => ?_, ?_⟩
  · cases i
    · exact hE
    · exact hg.ev
  · exact { hg with ev := hE }

/-- C154: the documented use is one events object for all; separate objects with *the same* schedule are not equivalent.  Two events objects with the insolations 50, 60 and 70 from 1, 2 and 3 s: the second
simulation of two, evaluated at 1.5 s, computes with the insolation of a later event (60 or 70). -/
theorem C154_same_schedules_refuted (y : three.V → ℝ) (W W1 : World three Bool Bool) (hW : W = exWorld (exEv3 (exG exPar true)) y)
    (hW1 : W1 = (runSimW exWi (exC true) (askAt 1 [1, 2]) W).1) :
    (∀ i, W.evs i = exEv3 (exG exPar true)) ∧ (runSimW exWi (exC true) (askAt 1 [1, 2]) W).2 = .ok () ∧ (runSimW exWi (exC true) (askAt 1 [3 / 2]) W1).2 = .ok () ∧
    callsOf exWi (exC true) (askAt 1 [3 / 2]) W1 = [mkCall (exC true).x false W1.s.y (3 / 2)] ∧
    (∃ (v : Events.SolarVal ℝ) (e : Env), (evalW exWi (exC true).g (mkCall (exC true).x false W1.s.y (3 / 2)) (startW (exC true) W1)).2 = .ok e ∧
      e.Ppv = (if (evalW exWi (exC true).g (mkCall (exC true).x false W1.s.y (3 / 2)) (startW (exC true) W1)).1.s.h.rt.connected = true then
        PV.ppv exPar.mod v.Sinsol v.Tactual (min exPar.Vdcmpp_max (e.Vdc * exPar.Vdcbase)) else 0) ∧ (v.Sinsol = 60 ∨ v.Sinsol = 70)) ∧
    ∀ v, Correct (exEv3 (exG exPar true)).solar ⟨100, 29815 / 100⟩ (3 / 2) v → v.Sinsol = 50 := by
  have hEg : EvGood (exG exPar true).sp (exEv3 (exG exPar true)) := (exS_good true y).ev
  have hg : GoodW exWi (exC true).g W := by rw [hW]; exact exWorld_good _ hEg y
  have hall : ∀ i, W.evs i = exEv3 (exG exPar true) := by intro i; rw [hW]; cases i <;> rfl
  obtain ⟨r1, g1⟩ := C154_no_exception (c := exC true) (sv := askAt 1 [1, 2]) hg (askAt_healthy _ _ _)
  rw [← hW1] at g1
  obtain ⟨r2, _⟩ := C154_no_exception (c := exC true) (sv := askAt 1 [3 / 2]) g1 (askAt_healthy _ _ _)
  have gs : GoodW exWi (exC true).g (startW (exC true) W) := goodW_of hg hg.evs hg.der rfl rfl
  have gs1 : GoodW exWi (exC true).g (startW (exC true) W1) := goodW_of g1 g1.evs g1.der rfl rfl
  obtain ⟨t1, t2⟩ := askAtW gs (exC true).J (exC true).x 1 [1, 2] W.s.y (exC true).ts
  obtain ⟨t3, t4⟩ := askAtW gs1 (exC true).J (exC true).x 1 [3 / 2] W1.s.y (exC true).ts
  have hsol : (exEv3 (exG exPar true)).solar = [⟨1, ⟨50, 300⟩⟩, ⟨2, ⟨60, 300⟩⟩, ⟨3, ⟨70, 300⟩⟩] := by rw [exEv3_eq]
  have hd : W.evs exWi.derEv = exEv3 (exG exPar true) := hall _
  have hcalls : allCalls exWi (exC true) W [askAt 1 [1, 2]] = ([1, 2] : List ℝ).map (mkCall (exC true).x false W.s.y) := by
    show callsOf exWi (exC true) (askAt 1 [1, 2]) W ++ [] = _
    rw [List.append_nil]
    exact t1
  have hsun : SunOk (exC true).g W.s.h := by rw [hW]; exact (exS_between true y).sun
  obtain ⟨v, e, v1, v2, v3⟩ := C154_weather_of_the_der (w := exWi) (W := W) (k := three) (c := exC true) (by simp [classes]) (by decide) (by rw [hd]; exact hEg.inv)
    (by rw [hd, exEv3_eq]; rfl) (by rw [hd, exEv3_eq]; rfl) hsun [askAt 1 [1, 2]] ⟨⟨_, t2⟩, trivial⟩ W1 hW1 (askAt 1 [3 / 2]) t4 [] (mkCall (exC true).x false W1.s.y (3 / 2)) [] t3 (by
      rw [hcalls, hd, hsol]
      refine ⟨?_, ?_, ?_, trivial⟩
      all_goals
        intro e he e' he' a1 a2 b1 b2
        simp only [List.mem_cons, List.not_mem_nil, or_false] at he he'
        simp only [AfterPrev, latest, mkCall] at a1 b1 a2 b2
        rcases he with rfl | rfl | rfl <;> rcases he' with rfl | rfl | rfl <;> first | rfl | (exfalso; first | (norm_num at a1; done) | (norm_num at a2; done) | (norm_num at b1; done) | (norm_num at b2; done)))
  rw [hcalls, hd, hsol] at v1
  have hst := C153_stale_before v1 ⟨⟨1, ⟨50, 300⟩⟩, by simp, by show (1 : ℝ) ≤ 3 / 2; norm_num⟩
    ⟨⟨2, ⟨60, 300⟩⟩, by simp, by show (3 / 2 : ℝ) < 2; norm_num, ⟨mkCall (exC true).x false W.s.y 2, by simp, le_rfl⟩, ⟨3, ⟨70, 300⟩⟩, by simp, by norm_num⟩
  refine ⟨hall, r1, r2, t3, ⟨v, e, v2, v3, ?_⟩, ?_⟩
  · obtain ⟨ev, hev, hlt, rfl⟩ := hst
    simp only [List.mem_cons, List.not_mem_nil, or_false] at hev
    rcases hev with rfl | rfl | rfl
    · exact absurd hlt (by show ¬ (3 / 2 : ℝ) < 1; norm_num)
    · exact Or.inl rfl
    · exact Or.inr rfl
  · rintro v (⟨ev, ⟨hm, hle, hmax⟩, rfl⟩ | ⟨hall, _⟩)
    · rw [hsol] at hm hmax
      simp only [List.mem_cons, List.not_mem_nil, or_false] at hm
      rcases hm with rfl | rfl | rfl
      · rfl
      · exact absurd hle (by norm_num)
      · exact absurd hle (by norm_num)
    · exact absurd (hall ⟨1, ⟨50, 300⟩⟩ (by rw [hsol]; simp)) (by norm_num)

/-- C154: the insolation events are added to the events object given to the simulation, the DER was created with another one: the report shows the insolation 50 at 1 s, while the PV power
fed into the simulation at 1 s is that of the default insolation 100, and the DER sees no voltage change at 2 s although the source of the simulation was lowered to 0.9 at 1 s. -/
theorem C154_reported_not_simulated_refuted (y : three.V → ℝ) (W : World three Bool Bool) (hW : W = exWorld (Events.init true true true) y) (c : Cfg three)
    (hc : c = { exC true with coll := true, ts := [0, 1, 2, 3, 4] }) :
    (runSimW exWi c (askAt 1 [1, 2]) W).2 = .ok () ∧ (∃ r a l, (runSimW exWi c (askAt 1 [1, 2]) W).1.s.rep = some r ∧ r.sinsol = a :: 50 :: l) ∧
    (∃ e : Env, (evalW exWi c.g (mkCall c.x false W.s.y 1) (startW c W)).2 = .ok e ∧
      e.Ppv = (if (evalW exWi c.g (mkCall c.x false W.s.y 1) (startW c W)).1.s.h.rt.connected = true then
        PV.ppv exPar.mod 100 (29815 / 100) (min exPar.Vdcmpp_max (e.Vdc * exPar.Vdcbase)) else 0)) ∧
    (∃ e : Env, (evalW exWi c.g (mkCall c.x false W.s.y 2) (evalW exWi c.g (mkCall c.x false W.s.y 1) (startW c W)).1).2 = .ok e ∧
      e.va = Circuit.vStandAlone (W.grids false).va (three.cur W.s.y).1 c.g.a c.g.Z1 c.g.Z2
        (evalW exWi c.g (mkCall c.x false W.s.y 2) (evalW exWi c.g (mkCall c.x false W.s.y 1) (startW c W)).1).1.s.h.Zload1) := by
  have hEg : EvGood (exG exPar true).sp (Events.init true true true) := (ex_good three exPar true (Or.inl rfl) [] (by simp)).ev
  have hg : GoodW exWi c.g W := by rw [hW, hc]; exact exWorld_good _ hEg y
  obtain ⟨r1, -⟩ := C154_no_exception (c := c) (sv := askAt 1 [1, 2]) hg (askAt_healthy _ _ _)
  have gs : GoodW exWi c.g (startW c W) := goodW_of hg hg.evs hg.der rfl rfl
  obtain ⟨⟨e1, he1⟩, gs1⟩ := goodW_step gs (mkCall c.x false W.s.y 1)
  obtain ⟨⟨e2, he2⟩, -⟩ := goodW_step gs1 (mkCall c.x false W.s.y 2)
  have hs : W.evs exWi.simEv = exEv3 (exG exPar true) := by rw [hW]; rfl
  have hd : W.evs exWi.derEv = Events.init true true true := by rw [hW]; rfl
  have hsol : (exEv3 (exG exPar true)).solar = [⟨1, ⟨50, 300⟩⟩, ⟨2, ⟨60, 300⟩⟩, ⟨3, ⟨70, 300⟩⟩] := by rw [exEv3_eq]
  refine ⟨r1, ?_, ⟨e1, he1, ?_⟩, ⟨e2, he2, ?_⟩⟩
  · obtain ⟨-, -, d, -⟩ := C104_example true y
    obtain ⟨r, h1, h2, -⟩ := C154_report_follows_simulation (w := exWi) (W := W) (c := c) (sv := askAt 1 [1, 2]) (by rw [hc]; rfl) (by rw [hc]) rfl
      (by rw [hs]; exact ⟨true, true, true, exOps3, rfl⟩) (by rw [hs, exEv3_eq]; rfl) (by rw [hs, hc]; exact d) r1
    rw [hs, hc, hsol] at h2
    rw [h1]
    generalize hq : r.sinsol = q at h2
    cases h2 with
    | cons _ h2 =>
      cases h2 with
      | cons h _ =>
        obtain ⟨v, hv, rfl⟩ := h
        have : v.Sinsol = 50 := by
          rcases hv with ⟨ev, ⟨hm, hle, hmax⟩, rfl⟩ | ⟨hno, _⟩
          · simp only [List.mem_cons, List.not_mem_nil, or_false] at hm
            rcases hm with rfl | rfl | rfl
            · rfl
            · exact absurd hle (by norm_num)
            · exact absurd hle (by norm_num)
          · exact absurd (hno ⟨1, ⟨50, 300⟩⟩ (by simp)) (by norm_num)
        rw [this] at hq
        exact ⟨r, _, _, rfl, hq⟩
  · have hsun : SunOk c.g (startW c W).s.h := by rw [hW, hc]; exact (exS_between true y).sun
    have hP : Pos ([] : List (Ev ℝ (Events.SolarVal ℝ))) none ((startW c W).evs exWi.derEv) := by
      show Pos [] none (W.evs exWi.derEv)
      rw [hd]
      exact ⟨rfl, rfl, hEg.inv, fun h => absurd rfl h⟩
    obtain ⟨-, -, v, v1, v2⟩ := wpos_eval hP hsun he1 (by simp)
    have hv : v = ⟨100, 29815 / 100⟩ := by
      rcases v1.2.1 (Or.inl (by simp)) with ⟨ev, ⟨hm, _⟩, _⟩ | ⟨_, hv⟩
      · simp at hm
      · exact hv
    have := v2 (by simp [classes])
    rw [hv, hc] at this
    rw [hc]
    exact this
  · have := (C154_grid_events_ignored (w := exWi) (k := three) (by simp [classes]) (by decide) (by rw [hc]; rfl) (mkCall c.x false W.s.y 2) he2).1
    rw [evalW_grids _ (by decide)] at this
    rw [this, hc]
    rfl
end Wiring
end PvDer
