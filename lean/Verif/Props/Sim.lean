import Verif.Model.Sim
import Verif.Props.Phasor
import Mathlib.Tactic.LinearCombination
import Mathlib.Tactic.Linarith
import Mathlib.Tactic.IntervalCases
import Mathlib.Tactic.NormNum
import Mathlib.Tactic.FieldSimp
import Mathlib.Tactic.Positivity
import Mathlib.Algebra.Order.Floor.Semiring

/-!
# C62–C64, C79–C81: state layout, loop mode, trajectories, time grid
-/

namespace PvDer
namespace Sim

open Complex Phasor

/-! ## List helpers -/

theorem range_getD (l : List ℝ) (n : Nat) (h : l.length = n) : (List.range n).map (fun k => c k l) = l := by
  apply List.ext_getElem
  · simp [h]
  · intro k h1 h2
    simp [c, List.getD_eq_getElem?_getD, List.getElem?_eq_getElem h2]

theorem mapM_some {α β : Type} (g : α → Option β) (f : α → β) (l : List α) (h : ∀ a ∈ l, g a = some (f a)) : l.mapM g = some (l.map f) := by
  induction l with
  | nil => rfl
  | cons a l ih =>
    rw [List.mapM_cons, h a (by simp), ih (fun b hb => h b (by simp [hb]))]; rfl

/-- The function of a row that `y0` reads through attribute `a`, when `collect_states` sets `a`. -/
noncomputable def rd (v : ℝ) (mt : Mt) (a : At) : List ℝ → ℝ := match collectTab v mt a with | some f => f | none => fun _ => 0

theorem rd_map (v : ℝ) (mt : Mt) (h : mt ≠ .three) (row : List ℝ) :
    (y0Attrs mt).map (fun a => rd v mt a row) = (List.range (width mt)).map (fun k => c k row) := by
  cases mt <;> first | exact absurd rfl h | rfl

theorem rd_some (v : ℝ) (mt : Mt) (h : mt ≠ .three) : ∀ a ∈ y0Attrs mt, collectTab v mt a = some (rd v mt a) := by
  intro a ha
  cases mt <;> first
    | exact absurd rfl h
    | (simp only [y0Attrs, List.mem_cons, List.not_mem_nil, or_false] at ha
       rcases ha with rfl | rfl | rfl | rfl | rfl | rfl | rfl | rfl | rfl | rfl | rfl | rfl | rfl | rfl | rfl | rfl | rfl | rfl | rfl | rfl | rfl | rfl | rfl <;> rfl)

/-! ## C62: state layout -/

/-- Names of the state vector of each class: `y0` of the DER model, unpacking in `ODE_model`, order of the returned derivatives (generated from the source). -/
def names : Mt → List String × List String × List String
  | .single => (Ode.SinglePhase.y0Names, Ode.SinglePhase.unpackNames, Ode.SinglePhase.resultNames)
  | .constVdc1 => (Ode.SinglePhaseConstantVdc.y0Names, Ode.SinglePhaseConstantVdc.unpackNames, Ode.SinglePhaseConstantVdc.resultNames)
  | .three => (Ode.ThreePhase.y0Names, Ode.ThreePhase.unpackNames, Ode.ThreePhase.resultNames)
  | .noFilter => (Ode.ThreePhaseNoVrmsFilter.y0Names, Ode.ThreePhaseNoVrmsFilter.unpackNames, Ode.ThreePhaseNoVrmsFilter.resultNames)
  | .numba => (Ode.ThreePhaseNumba.y0Names, Ode.ThreePhaseNumba.unpackNames, Ode.ThreePhaseNumba.resultNames)
  | .balanced => (Ode.ThreePhaseBalanced.y0Names, Ode.ThreePhaseBalanced.unpackNames, Ode.ThreePhaseBalanced.resultNames)
  | .constVdc3 => (Ode.ThreePhaseConstantVdc.y0Names, Ode.ThreePhaseConstantVdc.unpackNames, Ode.ThreePhaseConstantVdc.resultNames)

/-- Keys of the Jacobian index table in insertion order (generated from `initialize_jacobian`). -/
def jacNames : Mt → List String
  | .single => Ode.SinglePhase.varIndNames
  | .constVdc1 => Ode.SinglePhaseConstantVdc.varIndNames
  | .three => Ode.ThreePhase.varIndNames
  | .noFilter => Ode.ThreePhaseNoVrmsFilter.varIndNames
  | .numba => Ode.ThreePhaseNumba.varIndNames
  | .balanced => Ode.ThreePhaseBalanced.varIndNames
  | .constVdc3 => Ode.ThreePhaseConstantVdc.varIndNames

/-- State name of a simulation attribute. -/
def At.name : At → String
  | .iaR => "iaR" | .iaI => "iaI" | .xaR => "xaR" | .xaI => "xaI" | .uaR => "uaR" | .uaI => "uaI"
  | .ibR => "ibR" | .ibI => "ibI" | .xbR => "xbR" | .xbI => "xbI" | .ubR => "ubR" | .ubI => "ubI"
  | .icR => "icR" | .icI => "icI" | .xcR => "xcR" | .xcI => "xcI" | .ucR => "ucR" | .ucI => "ucI"
  | .Vdc => "Vdc" | .xDC => "xDC" | .xP => "xP" | .xQ => "xQ" | .xPLL => "xPLL" | .wte => "wte" | .VrmsFilter => "Vrms_filter" | .VrmsFilterT => "Vrms_filter"

/-- C62: for every class, the DER's initial state list, the unpacking in the derivative function, the derivative list and the simulation's `y0` use one and the same
order without repetition, of length `n_ODE`. -/
theorem C62_order (mt : Mt) : (names mt).2.1 = (names mt).1 ∧ (names mt).2.2 = (names mt).1 ∧ (y0Attrs mt).map At.name = (names mt).1 ∧
    (names mt).1.Nodup ∧ (names mt).1.length = width mt := by
  cases mt <;> decide +kernel

/-- C62: the Jacobian index table has the same order (its key for the filtered RMS voltage is spelled `Vrms`), so row and column `k` belong to state `k`;
it is a bijection onto `0..n-1`. -/
theorem C62_jacobian_order (mt : Mt) : (jacNames mt).Nodup ∧ (jacNames mt).length = width mt ∧
    (jacNames mt).map (fun s => if s = "Vrms" then "Vrms_filter" else s) = (names mt).1 ∧ (mt ≠ .three → jacNames mt = (names mt).1) := by
  cases mt <;> decide +kernel

theorem colIdx_eq (v : ℝ) (mt : Mt) (a : At) (k : Nat) (h : (y0Attrs mt)[k]? = some a ∨ (mt = .three ∧ a = .VrmsFilterT ∧ k = 23)) (ha : a ≠ .VrmsFilter) :
    collectTab v mt a = some (c k) := by
  rcases h with h | ⟨rfl, rfl, rfl⟩
  · have hk : k < (y0Attrs mt).length := by
      by_contra hc
      rw [List.getElem?_eq_none (by omega)] at h; exact absurd h (by simp)
    have hk' : k < 24 := by cases mt <;> simp [y0Attrs] at hk <;> omega
    cases mt <;> interval_cases k <;> first
      | (simp [y0Attrs] at hk; done)
      | (simp only [y0Attrs, List.getElem?_cons_zero, List.getElem?_cons_succ, Option.some.injEq] at h; subst h; first | rfl | exact absurd rfl ha)
  · rfl

/-- C62: `collect_states` puts column `k` of the solution into the attribute named after state `k` (attributes that are not state columns: rotated phases of
the balanced class, constant DC voltage). -/
theorem C62_columns (v : ℝ) (mt : Mt) (a : At) (k : Nat) (ha : a ≠ .VrmsFilter) (hk : (names mt).1[k]? = some a.name) :
    collectTab v mt a = some (c k) := by
  have h3 := (C62_order mt).2.2.1
  rw [← h3, List.getElem?_map] at hk
  have hinj : ∀ b : At, b.name = a.name → b = a ∨ (b = .VrmsFilter ∧ a = .VrmsFilterT) ∨ (a = .VrmsFilter) := by
    intro b; revert ha; cases a <;> cases b <;> first | (intro _ _; simp; done) | (intro _ h; exact absurd h (by decide +kernel))
  cases hb : (y0Attrs mt)[k]? with
  | none => rw [hb] at hk; simp at hk
  | some b =>
    rw [hb] at hk
    simp only [Option.map_some, Option.some.injEq] at hk
    rcases hinj b hk with rfl | ⟨rfl, rfl⟩ | h
    · exact colIdx_eq v mt _ k (Or.inl hb) ha
    · have hk' : k < 24 := by
        have : k < (y0Attrs mt).length := by
          by_contra hc
          rw [List.getElem?_eq_none (by omega)] at hb; exact absurd hb (by simp)
        cases mt <;> simp [y0Attrs] at this <;> omega
      have : mt = .three ∧ k = 23 := by
        cases mt <;> interval_cases k <;> first | exact ⟨rfl, rfl⟩ | (exfalso; revert hb; decide)
      exact colIdx_eq v mt _ k (Or.inr ⟨this.1, rfl, this.2⟩) ha
    · exact absurd h ha

/-- C62: right after construction the simulation's `y0` is the DER model's `y0`, for every class and state. -/
theorem C62_initial (v : ℝ) (mt : Mt) (y : List ℝ) (hy : y.length = width mt) (st : Store) : simY0 mt (initY0 v mt y st) = some y := by
  have h1 : ∀ a ∈ y0Attrs mt, ∃ f, initTab v mt a = some f := by
    intro a ha
    by_cases h : mt = .three
    · subst h
      simp only [y0Attrs, List.mem_cons, List.not_mem_nil, or_false] at ha
      rcases ha with rfl | rfl | rfl | rfl | rfl | rfl | rfl | rfl | rfl | rfl | rfl | rfl | rfl | rfl | rfl | rfl | rfl | rfl | rfl | rfl | rfl | rfl | rfl |
        rfl <;> exact ⟨_, rfl⟩
    · have : initTab v mt a = collectTab v mt a := by cases mt <;> first | rfl | exact absurd rfl h
      exact ⟨_, this.trans (rd_some v mt h a ha)⟩
  have h2 : (y0Attrs mt).map (fun a => ((initTab v mt a).getD fun _ => 0) y) = (List.range (width mt)).map (fun k => c k y) := by
    cases mt <;> rfl
  unfold simY0
  rw [mapM_some _ (fun a => ((initTab v mt a).getD fun _ => 0) y), h2, range_getD y _ hy]
  intro a ha
  obtain ⟨f, hf⟩ := h1 a ha
  simp [initY0, hf]

/-- The hypotheses of `C62_initial` are met by every class's template start vector; one instance with distinct entries. -/
theorem C62_initial_example : simY0 .single (initY0 0 .single [1, 2, 3, 4, 5, 6, 7, 8, 9, 10, 11] fun _ => []) = some [1, 2, 3, 4, 5, 6, 7, 8, 9, 10, 11] :=
  C62_initial _ _ _ rfl _

/-! ## C63: loop mode -/

theorem last_collect (v : ℝ) (mt : Mt) (a : At) (f : List ℝ → ℝ) (hf : collectTab v mt a = some f) (sol : List (List ℝ)) (r : List ℝ)
    (hr : sol.getLast? = some r) (st : Store) : (collectStates v mt sol st a).getLast? = some (f r) := by
  simp [collectStates, hf, List.getLast?_map, hr]

/-- C63: after an interval has been collected, `y0` is the last row of the solution, for every class except the one with RMS filter, every solution and every
previous content of the object. -/
theorem C63_continues (v : ℝ) (mt : Mt) (h : mt ≠ .three) (sol : List (List ℝ)) (r : List ℝ) (hr : sol.getLast? = some r) (hw : r.length = width mt)
    (st : Store) : simY0 mt (collectStates v mt sol st) = some r := by
  unfold simY0
  rw [mapM_some _ (fun a => rd v mt a r), rd_map v mt h, range_getD r _ hw]
  intro a ha
  exact last_collect v mt a _ (rd_some v mt h a ha) sol r hr st

/-- C63, class with RMS filter: `y0` is the last row except for the filtered RMS voltage, which stays at the value it had when the object was created
(`collect_states` writes `Vrms_filter_t`, `y0` reads `Vrms_filter`). Missing for the full property: that last entry. -/
theorem C63_three_phase_partial (v : ℝ) (sol : List (List ℝ)) (r : List ℝ) (hr : sol.getLast? = some r) (hw : r.length = 24)
    (st : Store) (f : ℝ) (hf : (st .VrmsFilter).getLast? = some f) :
    simY0 .three (collectStates v .three sol st) = some (r.take 23 ++ [f]) ∧ (collectStates v .three sol st .VrmsFilter).getLast? = some f := by
  refine ⟨?_, hf⟩
  have h2 : (y0Attrs .three).map (fun a => if a = .VrmsFilter then f else rd v .three a r) = (List.range 23).map (fun k => c k r) ++ [f] := rfl
  unfold simY0
  rw [mapM_some _ (fun a => if a = .VrmsFilter then f else rd v .three a r), h2]
  · congr 2
    apply List.ext_getElem
    · simp [hw]
    · intro k h1 h2
      have h3 : k < 23 := by simpa using h1
      have h4 : k < r.length := by omega
      simp [c, List.getD_eq_getElem?_getD, List.getElem?_eq_getElem h4]
  · intro a ha
    simp only [y0Attrs, List.mem_cons, List.not_mem_nil, or_false] at ha
    rcases ha with rfl | rfl | rfl | rfl | rfl | rfl | rfl | rfl | rfl | rfl | rfl | rfl | rfl | rfl | rfl | rfl | rfl | rfl | rfl | rfl | rfl | rfl | rfl | rfl <;>
      first
        | exact hf
        | (rw [if_neg (by decide)]; refine last_collect v .three _ (rd v .three _) ?_ sol r hr st; rfl)

/-- C63: the claim is false for the class with RMS filter: whatever the previous intervals were, as soon as the filter state has moved away from its initial value the
next interval does not start from the last state. -/
theorem C63_three_phase_stale (v : ℝ) (sol : List (List ℝ)) (r : List ℝ) (hr : sol.getLast? = some r) (hw : r.length = 24) (st : Store) (f : ℝ)
    (hf : (st .VrmsFilter).getLast? = some f) (hne : r.getLast? ≠ some f) : simY0 .three (collectStates v .three sol st) ≠ some r := by
  rw [(C63_three_phase_partial v sol r hr hw st f hf).1]
  intro h
  apply hne
  rw [← Option.some.inj h]; simp

/-- A stale start exists: filter initialised at 1, last value 0.8. -/
theorem C63_three_phase_stale_example : ∃ (sol : List (List ℝ)) (r : List ℝ) (st : Store), sol.getLast? = some r ∧ r.length = 24 ∧
    simY0 .three (collectStates 0 .three sol st) ≠ some r := by
  refine ⟨[List.replicate 23 0 ++ [4 / 5]], List.replicate 23 0 ++ [4 / 5], initY0 0 .three (List.replicate 23 0 ++ [1]) (fun _ => []), rfl, by simp, ?_⟩
  refine C63_three_phase_stale 0 _ _ rfl (by simp) _ 1 rfl ?_
  simp; norm_num

theorem zipWith_map_self {α β γ : Type} (f : α → β → γ) (g : α → β) (l : List α) : List.zipWith f l (l.map g) = l.map fun a => f a (g a) := by
  induction l with
  | nil => rfl
  | cons a l ih => simp [ih]

/-- C63: two consecutive loop-mode calls, with arbitrary solvers and inputs, at any point of any history: the second solver call starts from the last row produced by
the first (every class but the one with RMS filter). -/
theorem C63_two_calls (mt : Mt) (h : mt ≠ .three) (coll1 coll2 : Bool) (x1 x2 : Ctx) (sv1 sv2 : Solver) (ts1 ts2 : List ℝ) (s s1 : St) (y r : List ℝ)
    (hy : simY0 mt s.st = some y) (h1 : step coll1 mt x1 sv1 ts1 s = some s1) (hr : (sv1 y ts1).getLast? = some r) (hw : r.length = width mt) :
    step coll2 mt x2 sv2 ts2 s1 = some (collect coll2 mt x2 ts2 (sv2 r ts2) s1) := by
  simp only [step, hy, Option.map_some, Option.some.injEq] at h1
  have : simY0 mt s1.st = some r := by
    subst h1
    unfold collect
    split <;> exact C63_continues x1.v mt h _ r hr hw _
  simp [step, this]

/-- C63: asking for the trajectories in between does not disturb this, for intervals of at least two points. -/
theorem C63_after_get_trajectories (mt : Mt) (h : mt ≠ .three) (x : Ctx) (ts : List ℝ) (rows : List (List ℝ)) (s : St) (r : List ℝ)
    (hl : ts.length = rows.length) (h2 : 2 ≤ ts.length) (hr : rows.getLast? = some r) (hw : r.length = width mt) :
    simY0 mt (getTraj mt (collect true mt x ts rows s)).1.st = some r := by
  have hV : Tr.Vdc ∈ stored mt := by simp [stored]
  have key : ((s.acc .Vdc ++ (series x mt ts rows .Vdc).drop 1).map Complex.re).getLast? = some (at_ x mt .Vdc r) := by
    have hlen : (series x mt ts rows .Vdc).length = ts.length := by simp [series, hl]
    have hne : (series x mt ts rows .Vdc).drop 1 ≠ [] := by
      intro hc
      have := congrArg List.length hc
      simp [hlen] at this; omega
    rw [List.getLast?_map, List.getLast?_append]
    have h3 : ((series x mt ts rows .Vdc).drop 1).getLast? = some ((at_ x mt .Vdc r : ℝ) : ℂ) := by
      rw [List.getLast?_drop]
      simp only [hlen]
      rw [if_neg (by omega)]
      have : series x mt ts rows .Vdc = rows.map fun q => ((at_ x mt .Vdc q : ℝ) : ℂ) := by
        have aux : ∀ (ts : List ℝ) (rows : List (List ℝ)), ts.length = rows.length →
            List.zipWith (fun t r => point x mt t r .Vdc) ts rows = rows.map fun q => ((at_ x mt .Vdc q : ℝ) : ℂ) := by
          intro ts
          induction ts with
          | nil => intro rows h; cases rows with | nil => rfl | cons _ _ => simp at h
          | cons t ts ih => intro rows h; cases rows with
            | nil => simp at h
            | cons q rows => simp only [List.zipWith_cons_cons, List.map_cons, ih rows (by simpa using h)]; rfl
        exact aux ts rows hl
      rw [this, List.getLast?_map, hr]; rfl
    rw [h3]; simp
  unfold simY0
  rw [mapM_some _ (fun a => rd x.v mt a r), rd_map x.v mt h, range_getD r _ hw]
  intro a ha
  have hc := rd_some x.v mt h a ha
  by_cases hV' : a = .Vdc
  · subst hV'
    simp only [getTraj, invert, collect, if_true, hV]
    rw [key]
    simp [at_, hc]
  · have hF : a ≠ .VrmsFilterT := by
      rintro rfl
      cases mt <;> simp [y0Attrs] at ha
    simp only [getTraj, invert, collect, if_true, hV', hF, if_false, false_and]
    exact last_collect x.v mt a _ hc rows r hr _

/-! ### Splitting a run into intervals -/

/-- Grids `runs` follow each other: the first starts at `a`, each starts where the previous one ended, the last ends at `b`. -/
inductive Chained : ℝ → List (List ℝ) → ℝ → Prop
  | nil (a : ℝ) : Chained a [] a
  | cons (a b d : ℝ) (g : List ℝ) (gs : List (List ℝ)) (h1 : g.head? = some a) (h2 : g.getLast? = some b) (h : Chained b gs d) : Chained a (g :: gs) d

/-- A history of loop-mode calls. -/
noncomputable def runAll (mt : Mt) (x : Ctx) (sv : Solver) : List (List ℝ) → St → Option St
  | [], s => some s
  | g :: gs, s => (step true mt x sv g s).bind (runAll mt x sv gs)

/-- C63: splitting a simulation into any number of intervals of any lengths gives the same states and trajectories as the exact solution from the first state:
for a solver that follows a flow, the final state is the flow at the end time, and every stored trajectory is extended by its values along that flow
at the merged time grid without repeated joints. -/
theorem C63_split_run (mt : Mt) (h : mt ≠ .three) (x : Ctx) (φ : ℝ → ℝ → List ℝ → List ℝ) (hlen : ∀ a b y, y.length = width mt → (φ a b y).length = width mt)
    (hφ : ∀ a b d y, φ b d (φ a b y) = φ a d y) (sv : Solver) (hsv : ∀ y ts a, ts.head? = some a → sv y ts = ts.map fun t => φ a t y)
    (runs : List (List ℝ)) (a b : ℝ) (hc : Chained a runs b) :
    ∀ (s : St) (y0 y : List ℝ) (a0 : ℝ), simY0 mt s.st = some y → y.length = width mt → y = φ a0 a y0 →
    ∃ s', runAll mt x sv runs s = some s' ∧ (runs ≠ [] → simY0 mt s'.st = some (φ a0 b y0)) ∧
      s'.accT = s.accT ++ runs.flatMap (List.drop 1) ∧
      ∀ k ∈ stored mt, s'.acc k = s.acc k ++ (runs.flatMap (List.drop 1)).map fun t => point x mt t (φ a0 t y0) k := by
  induction hc with
  | nil a => intro s y0 y a0 hy _ _; exact ⟨s, rfl, by simp, by simp, by simp⟩
  | cons a b d g gs h1 h2 hg ih =>
    intro s y0 y a0 hy hw hy0
    have e1 : sv y g = g.map fun t => φ a0 t y0 := by
      rw [hsv y g a h1]; subst hy0; simp [hφ]
    have hlast : (sv y g).getLast? = some (φ a0 b y0) := by rw [e1, List.getLast?_map, h2]; rfl
    have hwb : (φ a0 b y0).length = width mt := by
      have := hlen a b y hw
      rwa [hy0, hφ] at this
    have hs1 : step true mt x sv g s = some (collect true mt x g (sv y g) s) := by simp [step, hy]
    have hy1 : simY0 mt (collect true mt x g (sv y g) s).st = some (φ a0 b y0) := by
      simp only [collect, if_true]
      exact C63_continues x.v mt h _ _ hlast hwb _
    obtain ⟨s', e, hs', hT, hK⟩ := ih (collect true mt x g (sv y g) s) y0 (φ a0 b y0) a0 hy1 hwb rfl
    refine ⟨s', by simp [runAll, hs1, e], ?_, ?_, ?_⟩
    · intro _
      by_cases hgs : gs = []
      · subst hgs
        cases hg
        simp only [runAll, Option.some.injEq] at e
        rw [← e]; exact hy1
      · exact hs' hgs
    · rw [hT]; simp [collect, List.append_assoc]
    · intro k hk
      rw [hK k hk]
      have : series x mt g (sv y g) k = g.map fun t => point x mt t (φ a0 t y0) k := by rw [e1]; exact zipWith_map_self _ _ _
      simp [collect, hk, this, List.append_assoc]

/-- The hypotheses of `C63_split_run` are satisfiable: a flow that adds the elapsed time to every state, two intervals. -/
theorem C63_split_run_example : ∃ φ : ℝ → ℝ → List ℝ → List ℝ, (∀ a b y, y.length = width .single → (φ a b y).length = width .single) ∧
    (∀ a b d y, φ b d (φ a b y) = φ a d y) ∧ Chained 0 [[0, 1, 2], [2, 5]] 5 ∧ φ 0 1 [0] ≠ [0] := by
  refine ⟨fun a b y => y.map (· + (b - a)), by simp, ?_, ?_, by simp⟩
  · intro a b d y; simp only [List.map_map]; congr 1; funext z; simp only [Function.comp]; ring
  · exact .cons 0 2 5 _ _ rfl rfl (.cons 2 5 5 _ _ rfl rfl (.nil 5))

/-! ## C64: trajectories -/

/-- One interval as seen by the collection code: context, times, solution rows. -/
structure Intv where
  x : Ctx
  ts : List ℝ
  rows : List (List ℝ)

/-- The solver contract used: one row per requested time. -/
def Intv.Ok (i : Intv) : Prop := i.rows.length = i.ts.length

/-- Loop-mode history of collected intervals. -/
noncomputable def collectAll (mt : Mt) (l : List Intv) (s : St) : St := l.foldl (fun s i => collect true mt i.x i.ts i.rows s) s

/-- C64: content of the accumulated trajectories after any history: the initial value followed by, for each interval, the values at all its points but the first. -/
theorem C64_content (mt : Mt) (l : List Intv) (s : St) (k : Tr) (hk : k ∈ stored mt) :
    (collectAll mt l s).acc k = s.acc k ++ l.flatMap (fun i => (series i.x mt i.ts i.rows k).drop 1) ∧
    (collectAll mt l s).accT = s.accT ++ l.flatMap (fun i => i.ts.drop 1) := by
  induction l generalizing s with
  | nil => simp [collectAll]
  | cons i l ih =>
    have := ih (collect true mt i.x i.ts i.rows s)
    simp only [collectAll, List.foldl_cons] at this ⊢
    rw [this.1, this.2]
    simp [collect, hk, List.append_assoc]

theorem dict_sub_stored (mt : Mt) : ∀ k ∈ dictKeys mt, k ∈ stored mt ∧ k ∈ inverted mt := by
  cases mt <;> decide

theorem collectAll_sized (mt : Mt) (l : List Intv) (s : St) (h : l ≠ []) : (collectAll mt l s).unsized = false := by
  have aux : ∀ (l : List Intv) (s : St), s.unsized = false → (collectAll mt l s).unsized = false := by
    intro l
    induction l with
    | nil => intro s hs; exact hs
    | cons i l ih => intro s _; exact ih _ rfl
  cases l with
  | nil => exact absurd rfl h
  | cons i l => exact aux l _ rfl

/-- What a user finds in the returned dictionary, by class: DC voltage, PV power, inverter and PCC power, RMS current and voltages, and the phase quantities (current, duty cycle,
terminal and PCC voltage) of phase a — of phases b and c for the three-phase classes —; the filtered RMS voltage for the class that has the filter. -/
def Documented (mt : Mt) : Tr → Prop
  | .Vdc | .Ppv | .S | .SPCC | .Irms | .Vtrms | .Vrms => True
  | .ia | .ma | .vta | .va => True
  | .ib | .mb | .vtb | .vb | .ic | .mc | .vtc | .vc => mt ≠ .single ∧ mt ≠ .constVdc1
  | .VrmsFilter => mt = .three
  | .maAbs | .mbAbs | .mcAbs | .Varms | .Vbrms | .Vcrms => False

/-- C64: the dictionary has exactly the documented keys, each once. -/
theorem C64_keys (mt : Mt) : (∀ k, k ∈ dictKeys mt ↔ Documented mt k) ∧ (dictKeys mt).Nodup := by
  constructor
  · intro k
    cases mt <;> cases k <;> simp [dictKeys, Documented, isThree]
  · cases mt <;> decide

/-- C64: after any non-empty history of intervals of any lengths, `get_trajectories` succeeds and returns for each key a trajectory of exactly as many points as the
time vector, namely one plus the sum over the intervals of their number of points minus one. -/
theorem C64_lengths (mt : Mt) (v : ℝ) (y0 : List ℝ) (m0 : Tr → ℂ) (l : List Intv) (hne : l ≠ []) (hok : ∀ i ∈ l, i.Ok) :
    ∃ d, (getTraj mt (collectAll mt l (init v mt y0 m0))).2 = .ok d ∧ (∀ k, (∃ w, (k, w) ∈ d) ↔ Documented mt k) ∧ (d.map Prod.fst).Nodup ∧
      (getTraj mt (collectAll mt l (init v mt y0 m0))).1.tt.length = 1 + (l.map fun i => i.ts.length - 1).sum ∧
      ∀ q ∈ d, q.2.length = (getTraj mt (collectAll mt l (init v mt y0 m0))).1.tt.length ∧
        q.2 = m0 q.1 :: l.flatMap (fun i => (series i.x mt i.ts i.rows q.1).drop 1) := by
  have hT : (collectAll mt l (init v mt y0 m0)).accT = [0] ++ l.flatMap (fun i => i.ts.drop 1) :=
    (C64_content mt l (init v mt y0 m0) .Vdc (by simp [stored])).2
  have hlen : ∀ k, (l.flatMap (fun i => (series i.x mt i.ts i.rows k).drop 1)).length = (l.map fun i => i.ts.length - 1).sum := by
    intro k
    rw [List.length_flatMap]
    congr 1
    apply List.map_congr_left
    intro i hi
    have := hok i hi
    unfold Intv.Ok at this
    simp [series, this]
  have htt : (getTraj mt (collectAll mt l (init v mt y0 m0))).1.tt.length = 1 + (l.map fun i => i.ts.length - 1).sum := by
    simp only [getTraj, invert, hT, List.length_append, List.length_singleton, List.length_flatMap]
    congr 2
    apply List.map_congr_left; intro i _; simp
  have hk : ∀ k ∈ dictKeys mt, (invert mt (collectAll mt l (init v mt y0 m0))).tr k = m0 k :: l.flatMap (fun i => (series i.x mt i.ts i.rows k).drop 1) := by
    intro k hk
    obtain ⟨h1, h2⟩ := dict_sub_stored mt k hk
    simp only [invert, h2, if_true]
    rw [(C64_content mt l _ k h1).1]; rfl
  have hok' : (getTraj mt (collectAll mt l (init v mt y0 m0))).2
      = .ok ((dictKeys mt).map fun k => (k, (invert mt (collectAll mt l (init v mt y0 m0))).tr k)) := by
    simp only [getTraj]
    rw [collectAll_sized mt l _ hne]
    simp only [Bool.false_eq_true, if_false]
    rw [if_pos]
    rw [List.all_eq_true]
    intro k hk'
    have h3 : (invert mt (collectAll mt l (init v mt y0 m0))).tt.length = 1 + (l.map fun i => i.ts.length - 1).sum := htt
    rw [hk k hk', h3]
    simp only [List.length_cons, hlen, Nat.add_comm, beq_self_eq_true]
  refine ⟨_, hok', ?_, by simpa [Function.comp_def] using (C64_keys mt).2, htt, ?_⟩
  · intro k
    rw [← (C64_keys mt).1 k]
    constructor
    · rintro ⟨w, hw⟩
      rw [List.mem_map] at hw
      obtain ⟨k', hk', e⟩ := hw
      rw [← (Prod.mk.inj e).1]; exact hk'
    · intro hk
      exact ⟨_, List.mem_map.2 ⟨k, hk, rfl⟩⟩
  intro q hq
  rw [List.mem_map] at hq
  obtain ⟨k, hk', rfl⟩ := hq
  refine ⟨?_, hk k hk'⟩
  simp only [hk k hk', htt, List.length_cons, hlen, Nat.add_comm]

/-- C64: before the first collected interval the stored arrays are zero-dimensional and `get_trajectories` raises `TypeError`. -/
theorem C64_nothing_collected (mt : Mt) (v : ℝ) (y0 : List ℝ) (m0 : Tr → ℂ) : (getTraj mt (init v mt y0 m0)).2 = .error .typeError := rfl

/-- The merged time vector of chained, strictly increasing intervals is strictly increasing. -/
theorem chained_sorted {a b : ℝ} {gs : List (List ℝ)} (h : Chained a gs b) (hs : ∀ g ∈ gs, g.Pairwise (· < ·)) :
    (a :: gs.flatMap (List.drop 1)).Pairwise (· < ·) := by
  induction h with
  | nil a => simp
  | cons a b d g gs h1 h2 hg ih =>
    have hgs := ih (fun g' hg' => hs g' (by simp [hg']))
    have hgp := hs g (by simp)
    have hgd : g = a :: g.drop 1 := by
      cases g with
      | nil => simp at h1
      | cons z g => simp at h1; subst h1; rfl
    rw [List.flatMap_cons, ← List.cons_append, ← hgd, List.pairwise_append]
    rw [List.pairwise_cons] at hgs
    refine ⟨hgp, hgs.2, ?_⟩
    intro u hu w hw
    have h3 : b < w := hgs.1 w hw
    have h4 : u ≤ b := by
      have hd := List.dropLast_append_getLast? b h2
      rw [← hd] at hu hgp
      rw [List.mem_append, List.mem_singleton] at hu
      rw [List.pairwise_append] at hgp
      rcases hu with hu | rfl
      · exact le_of_lt (hgp.2.2 u hu b (by simp))
      · exact le_refl _
    exact lt_of_le_of_lt h4 h3

/-- C64: if the first interval starts at 0 and each later one starts where its predecessor ended, the returned time vector is strictly increasing: joints are not duplicated
and nothing is out of order. -/
theorem C64_time_strictly_increasing (mt : Mt) (v : ℝ) (y0 : List ℝ) (m0 : Tr → ℂ) (l : List Intv) (b : ℝ) (hc : Chained 0 (l.map Intv.ts) b)
    (hs : ∀ i ∈ l, i.ts.Pairwise (· < ·)) : (getTraj mt (collectAll mt l (init v mt y0 m0))).1.tt.Pairwise (· < ·) := by
  have hT : (collectAll mt l (init v mt y0 m0)).accT = [0] ++ l.flatMap (fun i => i.ts.drop 1) :=
    (C64_content mt l (init v mt y0 m0) .Vdc (by simp [stored])).2
  have := chained_sorted hc (by simpa using hs)
  simp only [getTraj, invert, hT, List.singleton_append]
  simpa [List.flatMap_map] using this

theorem C64_example : Chained 0 [[0, 1], [1, 2, 4]] 4 ∧ ([0, 1] : List ℝ).Pairwise (· < ·) ∧ ([1, 2, 4] : List ℝ).Pairwise (· < ·) := by
  refine ⟨.cons 0 1 4 _ _ rfl rfl (.cons 1 4 4 _ _ rfl rfl (.nil 4)), ?_, ?_⟩ <;> norm_num

/-! ## C80: time grid -/

/-- C80: the time grid starts at `tStart`, has constant step `tInc`, and ends in `[tStop, tStop + tInc)`: the whole horizon is simulated. -/
theorem C80_grid (tStart tStop tInc : ℝ) (hi : 0 < tInc) (hs : tStart ≤ tStop) :
    (tGrid tStart tStop tInc).head? = some tStart ∧
    (∀ k (h : k < (tGrid tStart tStop tInc).length), (tGrid tStart tStop tInc)[k] = tStart + k * tInc) ∧
    (∃ e, (tGrid tStart tStop tInc).getLast? = some e ∧ tStop ≤ e ∧ e < tStop + tInc) ∧
    (tGrid tStart tStop tInc).Pairwise (· < ·) := by
  have hq : 1 ≤ (tStop + tInc - tStart) / tInc := by rw [le_div_iff₀ hi]; linarith
  obtain ⟨n, hn⟩ : ∃ n, ⌈(tStop + tInc - tStart) / tInc⌉₊ = n + 1 := by
    have : 0 < ⌈(tStop + tInc - tStart) / tInc⌉₊ := Nat.ceil_pos.mpr (by linarith)
    exact ⟨_, (Nat.succ_pred_eq_of_pos this).symm⟩
  have hle := Nat.le_ceil ((tStop + tInc - tStart) / tInc)
  have hlt := Nat.ceil_lt_add_one (show 0 ≤ (tStop + tInc - tStart) / tInc by linarith)
  rw [hn] at hle hlt
  push_cast at hle hlt
  rw [div_le_iff₀ hi] at hle
  have hlt' : (n : ℝ) * tInc < tStop + tInc - tStart := by
    have : (n : ℝ) < (tStop + tInc - tStart) / tInc := by linarith
    rwa [lt_div_iff₀ hi] at this
  have hL : (tGrid tStart tStop tInc).length = n + 1 := by simp [tGrid, hn]
  refine ⟨?_, ?_, ⟨tStart + n * tInc, ?_, by nlinarith, by linarith⟩, ?_⟩
  · simp [tGrid, hn, List.range_succ_eq_map]
  · intro k h; simp [tGrid]
  · simp [tGrid, hn, List.range_succ]
  · unfold tGrid
    rw [List.pairwise_map]
    refine List.Pairwise.imp ?_ (List.pairwise_lt_range)
    intro p q hpq
    have : (p : ℝ) < q := by exact_mod_cast hpq
    nlinarith

theorem C80_example : (0:ℝ) < 1 / 1000 ∧ (0:ℝ) ≤ 1 / 2 := by norm_num

/-- C80: a grid for an empty or reversed horizon still has at most one point beyond the start: nothing is simulated past `tStop + tInc`. -/
theorem C80_bounds (tStart tStop tInc : ℝ) (hi : 0 < tInc) : ∀ t ∈ tGrid tStart tStop tInc, tStart ≤ t ∧ t < tStop + tInc := by
  intro t ht
  simp only [tGrid, List.mem_map, List.mem_range] at ht
  obtain ⟨k, hk, rfl⟩ := ht
  rw [Nat.lt_ceil, lt_div_iff₀ hi] at hk
  have : (0:ℝ) ≤ k := by positivity
  constructor
  · nlinarith
  · linarith

/-- C80: the second advertised solver cannot be used: the constructor calls `initialize_solver`, which reads `y0`, before any state array exists, so construction raises
for every class (dynamic_simulation.py 58, 78; simulation_utilities.py 426-428). -/
theorem C80_second_solver_unavailable (mt : Mt) : simY0 mt (fun _ => []) = none := by cases mt <;> rfl

/-! ## C81: arguments of a loop-mode call -/

/-- C81: a loop-mode call is accepted exactly when phase A voltage, initial state and times have the right types; otherwise it raises `ValueError` and keeps the
previous voltages. -/
theorem C81_accepts (mt : Mt) (a : Arg ℂ) (b cc : Option ℂ) (y0 t : Arg (List ℝ)) (old : ℂ × Option ℂ × Option ℂ) :
    (∃ w, loopArgs mt a b cc y0 t old = .ok w) ↔ (∃ z, a = .val z) ∧ (∃ z, y0 = .val z) ∧ (∃ z, t = .val z) := by
  cases a <;> cases y0 <;> cases t <;> simp [loopArgs]

theorem C81_rejects (mt : Mt) (a : Arg ℂ) (b cc : Option ℂ) (y0 t : Arg (List ℝ)) (old : ℂ × Option ℂ × Option ℂ)
    (h : a = .other ∨ y0 = .other ∨ t = .other) : loopArgs mt a b cc y0 t old = .error .valueError := by
  rcases h with rfl | rfl | rfl
  · rfl
  · cases a <;> rfl
  · cases a <;> cases y0 <;> rfl

/-- C81: the accepted voltages: phase A is always the given one; unbalanced classes take B and C as given; the balanced class derives a balanced
set from A; single-phase classes keep B and C. -/
theorem C81_voltages (mt : Mt) (a : ℂ) (b cc : Option ℂ) (old : ℂ × Option ℂ × Option ℂ) (y t : List ℝ) :
    ∃ w, loopArgs mt (.val a) b cc (.val y) (.val t) old = .ok w ∧ w.1 = a ∧
      (isThree mt = true → mt ≠ .balanced → w.2 = (b, cc)) ∧
      (mt = .balanced → ∃ vb vc, w.2 = (some vb, some vc) ∧ a + vb + vc = 0 ∧ ‖vb‖ = ‖a‖ ∧ ‖vc‖ = ‖a‖) ∧
      (isThree mt = false → w.2 = old.2) := by
  refine ⟨_, rfl, ?_, ?_, ?_, ?_⟩
  · cases mt <;> rfl
  · cases mt <;> simp [measure, isThree]
  · rintro rfl
    refine ⟨ub a, uc a, rfl, ?_, ?_, ?_⟩
    · have := sum3; unfold a3 b3 at this; unfold ub uc; linear_combination a * this
    · simp [ub, norm_ej]
    · simp [uc, norm_ej]
  · cases mt <;> simp [measure, isThree]

end Sim
end PvDer
