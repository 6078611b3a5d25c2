import Verif.Props.SessionReport
import Verif.Props.EvalPure

/-!
# Property C107: under healthy voltage the solution of a run depends only on its initial state, the solver and the measurements
-/

namespace PvDer
namespace Session
open Complex Phasor Ode Eval

variable {k : Cls} {g : SCfg} {h : Hid} {c : Cfg k} {s : Sess k}

/-- The solver uses no Jacobian (`jacFlag=False`). -/
def NoJac : Strat k → Prop
  | .done _ _ => True
  | .ask j _ _ next => j = false ∧ ∀ a, NoJac (next a)

/-- What the solver returns when its questions are answered by a fixed function of state and time. -/
def solve (F : (k.V → ℝ) → ℝ → k.V → ℝ) : Strat k → List (k.V → ℝ) × List Int
  | .done r m => (r, m)
  | .ask _ y t next => solve F (next (.inl (F y t)))

/-- C107: with the history-dependent features off, no DC reference events, insolation events disabled and healthy voltage, the solution returned by the solver is
obtained from the right-hand side as a fixed function of state, time and measurements — whatever evaluations were made before (`p`: earlier steps of a co-simulation
with other voltages, rejected steps, other runs), and although every evaluation changes hidden attributes. -/
theorem C107_run_is_history_free {f : Call k → ℝ} (hk : k ∈ classes) (hg : Plain g) (hs : PlainSt g h) (hf : Sees k g f) (hi : RT.IsInit h.rt)
    (hsol : h.ev.solarEnable = false) (hgood : Good k g h) (J : Env → k.V → k.V → ℝ) (x : Ext) (S : Strat k) (hS : NoJac S) (y : k.V → ℝ) (p : List (Call k))
    (hp : ∀ c' ∈ p, (∀ z ∈ h.rt.lv.zones, z.Vthr * g.Vref ≤ f c') ∧ (∀ z ∈ h.rt.hv.zones, f c' ≤ z.Vthr * g.Vref))
    (hx : ∀ y t, (∀ z ∈ h.rt.lv.zones, z.Vthr * g.Vref ≤ f (mkCall x false y t)) ∧ (∀ z ∈ h.rt.hv.zones, f (mkCall x false y t) ≤ z.Vthr * g.Vref)) :
    (exec g J x S (run k g h p, y)).2 =
      .ok (solve (fun y t => k.rhs (k.env g.p (loopInp g (mkCall x false y t) ⟨g.sp.insolation.dflt, 29815 / 100⟩ h.rt.refs.VdcRef) y)) S) := by
  induction S generalizing p y with
  | done r m => rfl
  | ask j y1 t next ih =>
    obtain ⟨rfl, hn⟩ := hS
    have hall : ∀ c' ∈ p ++ [mkCall x false y1 t], (∀ z ∈ h.rt.lv.zones, z.Vthr * g.Vref ≤ f c') ∧ (∀ z ∈ h.rt.hv.zones, f c' ≤ z.Vthr * g.Vref) := by
      intro c' hc'
      rcases List.mem_append.1 hc' with hc' | hc'
      · exact hp c' hc'
      · rw [List.mem_singleton.1 hc']; exact hx y1 t
    have hd := C95_derivative_history_free hk hg hs hf hi hsol p (mkCall x false y1 t) (C99_no_exception hgood _) hall
    have hrun : run k g h (p ++ [mkCall x false y1 t]) = (evalEnv k g (mkCall x false y1 t) (run k g h p)).1 := by rw [run_append]; rfl
    unfold exec
    dsimp only
    unfold Eval.deriv at hd
    rcases hq : evalEnv k g (mkCall x false y1 t) (run k g h p) with ⟨h1, r⟩
    rw [hq] at hd hrun
    cases r with
    | error e => simp at hd
    | ok e =>
      simp only [Except.ok.injEq] at hd
      dsimp only
      simp only [Bool.false_eq_true, if_false]
      rw [hd]
      have := ih (.inl (k.rhs (k.env g.p (loopInp g (mkCall x false y1 t) ⟨g.sp.insolation.dflt, 29815 / 100⟩ h.rt.refs.VdcRef) y1))) (hn _)
        (match (gridStage g t (run k g h p)).2 with | .ok _ => y1 | .error _ => y) (p ++ [mkCall x false y1 t]) hall
      rw [hrun] at this
      exact this

/-- What the solver returns when its questions for derivatives are answered by `F` and its questions for Jacobians by `G`. -/
def solveJ (F : (k.V → ℝ) → ℝ → k.V → ℝ) (G : (k.V → ℝ) → ℝ → k.V → k.V → ℝ) : Strat k → List (k.V → ℝ) × List Int
  | .done r m => (r, m)
  | .ask j y t next => solveJ F G (next (if j then .inr (G y t) else .inl (F y t)))

/-- **C107 with a Jacobian.** The same for every solver, with `jacFlag` on or off: derivatives and Jacobians are both answered by fixed functions of state and time, so the solution is determined
by the initial state, the measurements and the solver. -/
theorem C107_with_jacobian {f : Call k → ℝ} (hk : k ∈ classes) (hg : Plain g) (hs : PlainSt g h) (hf : Sees k g f) (hi : RT.IsInit h.rt)
    (hsol : h.ev.solarEnable = false) (hgood : Good k g h) (J : Env → k.V → k.V → ℝ) (x : Ext) (S : Strat k) (y : k.V → ℝ) (p : List (Call k))
    (hp : ∀ c' ∈ p, (∀ z ∈ h.rt.lv.zones, z.Vthr * g.Vref ≤ f c') ∧ (∀ z ∈ h.rt.hv.zones, f c' ≤ z.Vthr * g.Vref))
    (hx : ∀ j y t, (∀ z ∈ h.rt.lv.zones, z.Vthr * g.Vref ≤ f (mkCall x j y t)) ∧ (∀ z ∈ h.rt.hv.zones, f (mkCall x j y t) ≤ z.Vthr * g.Vref)) :
    (exec g J x S (run k g h p, y)).2 =
      .ok (solveJ (fun y t => k.rhs (k.env g.p (loopInp g (mkCall x false y t) ⟨g.sp.insolation.dflt, 29815 / 100⟩ h.rt.refs.VdcRef) y))
        (fun y t => J (phased (k.env g.p (loopInp g (mkCall x true y t) ⟨g.sp.insolation.dflt, 29815 / 100⟩ h.rt.refs.VdcRef) y))) S) := by
  induction S generalizing p y with
  | done r m => rfl
  | ask j y1 t next ih =>
    have hall : ∀ c' ∈ p ++ [mkCall x j y1 t], (∀ z ∈ h.rt.lv.zones, z.Vthr * g.Vref ≤ f c') ∧ (∀ z ∈ h.rt.hv.zones, f c' ≤ z.Vthr * g.Vref) := by
      intro c' hc'
      rcases List.mem_append.1 hc' with hc' | hc'
      · exact hp c' hc'
      · rw [List.mem_singleton.1 hc']; exact hx j y1 t
    have hd := env_history_free hk hg hs hf hi hsol p (mkCall x j y1 t) (C99_no_exception hgood _) hall
    have hrun : run k g h (p ++ [mkCall x j y1 t]) = (evalEnv k g (mkCall x j y1 t) (run k g h p)).1 := by rw [run_append]; rfl
    unfold exec
    dsimp only
    rcases hq : evalEnv k g (mkCall x j y1 t) (run k g h p) with ⟨h1, r⟩
    rw [hq] at hd hrun
    dsimp only at hd hrun
    subst hd
    dsimp only
    have hr : k.rhs (phased (k.env g.p (loopInp g (mkCall x j y1 t) ⟨g.sp.insolation.dflt, 29815 / 100⟩ h.rt.refs.VdcRef) (mkCall x j y1 t).y)) =
        k.rhs (k.env g.p (loopInp g (mkCall x j y1 t) ⟨g.sp.insolation.dflt, 29815 / 100⟩ h.rt.refs.VdcRef) y1) := class_rhs hk _ _ _
    rw [hr]
    have := ih (if j then .inr (J (phased (k.env g.p (loopInp g (mkCall x true y1 t) ⟨g.sp.insolation.dflt, 29815 / 100⟩ h.rt.refs.VdcRef) y1)))
        else .inl (k.rhs (k.env g.p (loopInp g (mkCall x false y1 t) ⟨g.sp.insolation.dflt, 29815 / 100⟩ h.rt.refs.VdcRef) y1)))
      (match (gridStage g t (run k g h p)).2 with | .ok _ => y1 | .error _ => y) (p ++ [mkCall x j y1 t]) hall
    rw [hrun] at this
    exact this

/-- C107, consequence: two runs with the same solver, initial state and measurements but different histories return the same solution. -/
theorem C107_same_solution {f : Call k → ℝ} (hk : k ∈ classes) (hg : Plain g) (hs : PlainSt g h) (hf : Sees k g f) (hi : RT.IsInit h.rt)
    (hsol : h.ev.solarEnable = false) (hgood : Good k g h) (J : Env → k.V → k.V → ℝ) (x : Ext) (S : Strat k) (y y' : k.V → ℝ) (p p' : List (Call k))
    (hp : ∀ c' ∈ p ++ p', (∀ z ∈ h.rt.lv.zones, z.Vthr * g.Vref ≤ f c') ∧ (∀ z ∈ h.rt.hv.zones, f c' ≤ z.Vthr * g.Vref))
    (hx : ∀ j y t, (∀ z ∈ h.rt.lv.zones, z.Vthr * g.Vref ≤ f (mkCall x j y t)) ∧ (∀ z ∈ h.rt.hv.zones, f (mkCall x j y t) ≤ z.Vthr * g.Vref)) :
    (exec g J x S (run k g h p, y)).2 = (exec g J x S (run k g h p', y')).2 := by
  rw [C107_with_jacobian hk hg hs hf hi hsol hgood J x S y p (fun c' hc' => hp c' (by simp [hc'])) hx,
    C107_with_jacobian hk hg hs hf hi hsol hgood J x S y' p' (fun c' hc' => hp c' (by simp [hc'])) hx]

theorem askAt_noJac (m : Int) (l : List ℝ) (y : k.V → ℝ) (ts : List ℝ) : NoJac (askAt (k := k) m l y ts) := by
  induction l with
  | nil => trivial
  | cons t l ih => exact ⟨rfl, fun _ => ih⟩

/-- The hypotheses of C107 are met: C95's example, with half the nominal phase voltage as measurement (0.354 p.u. RMS, healthy). -/
theorem C107_example :
    let g := exG exPar false
    let h := { exH g (Events.init false false false) with ev := Events.init false false false }
    let x : Ext := ⟨1 / 2, ub (1 / 2), uc (1 / 2), 377⟩
    three ∈ classes ∧ Plain g ∧ PlainSt g h ∧ Sees three g (fun c => urmsMin c.va c.vb c.vc) ∧ RT.IsInit h.rt ∧ h.ev.solarEnable = false ∧ Good three g h ∧
      ∀ (j : Bool) (y : three.V → ℝ) (t : ℝ), (∀ z ∈ h.rt.lv.zones, z.Vthr * g.Vref ≤ urmsMin (mkCall (k := three) x j y t).va (mkCall (k := three) x j y t).vb (mkCall (k := three) x j y t).vc) ∧
        (∀ z ∈ h.rt.hv.zones, urmsMin (mkCall (k := three) x j y t).va (mkCall (k := three) x j y t).vb (mkCall (k := three) x j y t).vc ≤ z.Vthr * g.Vref) := by
  intro g h x
  obtain ⟨a, b, d, e, f, _, _⟩ := C95_example [] (by simp)
  refine ⟨by simp [classes], a, b, d, e, f, ?_, ?_⟩
  · have hG := ex_good three exPar false (Or.inl rfl) [] (by simp)
    refine ⟨hG.override, hG.msg, ?_, hG.dc, hG.lf, hG.ramp, hG.meas, hG.filt⟩
    exact C99_events_good (cc := g.evc) (sp := g.sp) false false false [] (by simp)
  · intro j y t
    have := healthy_half
    show (∀ z ∈ exRT.lv.zones, z.Vthr * (exG exPar false).Vref ≤ urmsMin (1 / 2 : ℂ) (ub (1 / 2)) (uc (1 / 2))) ∧
      (∀ z ∈ exRT.hv.zones, urmsMin (1 / 2 : ℂ) (ub (1 / 2)) (uc (1 / 2)) ≤ z.Vthr * (exG exPar false).Vref)
    constructor <;> intro z hz <;> simp only [exRT, List.mem_singleton] at hz <;> subst hz <;> simp only [exG] <;> linarith

end Session
end PvDer
