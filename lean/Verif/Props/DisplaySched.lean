import Verif.Model.Display
import Verif.Props.Events
import Verif.Props.VdcRef
/-!
C138, C139: `show_references`, `show_events` and the debugging switches of a simulation.
-/
set_option linter.unusedSectionVars false
namespace PvDer
namespace Display

/-! ### C138: references -/

section
open VdcRef

/-- Adding references one after the other; rejected ones leave everything as it was. -/
noncomputable def addAll (c : VdcRef.Cfg ℝ) (s : VdcRef.St ℝ) (adds : List (ℝ × ℝ)) : VdcRef.St ℝ := adds.foldl (fun s a => (addRef c s a.1 a.2).1) s

/-- The last acceptable reference (in volts) added for the time `T`. -/
def LastAdded (c : VdcRef.Cfg ℝ) (adds : List (ℝ × ℝ)) (T V : ℝ) : Prop :=
  ∃ p q, adds = p ++ (T, V) :: q ∧ (c.vmin ≤ V ∧ V ≤ c.vmax) ∧ ∀ x ∈ q, x.1 = T → ¬ (c.vmin ≤ x.2 ∧ x.2 ≤ c.vmax)

theorem lastAdded_snoc (c : VdcRef.Cfg ℝ) (adds : List (ℝ × ℝ)) (a : ℝ × ℝ) (T V : ℝ) :
    LastAdded c (adds ++ [a]) T V ↔ if c.vmin ≤ a.2 ∧ a.2 ≤ c.vmax then (T = a.1 ∧ V = a.2) ∨ (T ≠ a.1 ∧ LastAdded c adds T V) else LastAdded c adds T V := by
  constructor
  · rintro ⟨p, q, he, hV, hq⟩
    rcases List.eq_nil_or_concat q with rfl | ⟨q', x, rfl⟩
    · obtain ⟨h1, h2⟩ := List.append_inj' he rfl
      simp only [List.cons.injEq, and_true] at h2
      subst h2
      rw [if_pos hV]
      exact .inl ⟨rfl, rfl⟩
    · have he' : adds ++ [a] = (p ++ (T, V) :: q') ++ [x] := by rw [he]; simp
      obtain ⟨h1, h2⟩ := List.append_inj' he' rfl
      simp only [List.cons.injEq, and_true] at h2
      subst h2
      have hl : LastAdded c adds T V := ⟨p, q', h1, hV, fun y hy => hq y (by simp [hy])⟩
      split_ifs with hx
      · exact .inr ⟨fun hT => hq a (by simp) hT.symm hx, hl⟩
      · exact hl
  · intro h
    have ext : LastAdded c adds T V → (T = a.1 → ¬ (c.vmin ≤ a.2 ∧ a.2 ≤ c.vmax)) → LastAdded c (adds ++ [a]) T V := by
      rintro ⟨p, q, rfl, hV, hq⟩ ha
      refine ⟨p, q ++ [a], by simp, hV, ?_⟩
      intro x hx hT
      rcases List.mem_append.1 hx with hx | hx
      · exact hq x hx hT
      · rw [List.mem_singleton.1 hx] at hT ⊢
        exact ha hT.symm
    split_ifs at h with ha
    · rcases h with ⟨rfl, rfl⟩ | ⟨hne, h⟩
      · exact ⟨adds, [], rfl, ha, by simp⟩
      · exact ext h (fun e => absurd e hne)
    · exact ext h (fun _ => ha)

/-- **C138 (references).** After adding any sequence of DC voltage references, in volts, to a DER without references, `show_references` shows, in the order of time and each time
once, exactly the last acceptable reference added for each time — in volts, as given — and their number. -/
theorem C138_references (c : VdcRef.Cfg ℝ) (hb : c.base ≠ 0) (s : VdcRef.St ℝ) (hs : s.lst = []) (adds : List (ℝ × ℝ)) :
    let shown := showReferences c (addAll c s adds)
    shown.1 = shown.2.length ∧ shown.2.Pairwise (fun x y => x.1 < y.1) ∧ ∀ T V, (T, V) ∈ shown.2 ↔ LastAdded c adds T V := by
  intro shown
  have key : StrictSorted (addAll c s adds).lst ∧ ∀ T V, Holds (addAll c s adds).lst T (V / c.base) ↔ LastAdded c adds T V := by
    induction adds using List.reverseRecOn with
    | nil =>
      show StrictSorted s.lst ∧ ∀ T V, Holds s.lst T (V / c.base) ↔ _
      rw [hs]
      refine ⟨List.Pairwise.nil, fun T V => ⟨?_, ?_⟩⟩
      · intro h; unfold Holds at h; simp at h
      · rintro ⟨p, q, he, _⟩; simp at he
    | append_singleton adds a ih =>
      obtain ⟨h1, h2⟩ := ih
      have e : addAll c s (adds ++ [a]) = (addRef c (addAll c s adds) a.1 a.2).1 := by unfold addAll; rw [List.foldl_append]; rfl
      obtain ⟨a1, a2, a3⟩ := C43_add c (addAll c s adds) h1 a.1 a.2
      rw [e]
      by_cases hok : c.vmin ≤ a.2 ∧ a.2 ≤ c.vmax
      · obtain ⟨b1, b2⟩ := a3 (a1.2 hok)
        refine ⟨b1, fun T V => ?_⟩
        rw [b2, lastAdded_snoc, if_pos hok, h2, div_left_inj' hb]
      · have := a2 (fun h => hok (a1.1 h))
        rw [this]
        refine ⟨h1, fun T V => ?_⟩
        rw [lastAdded_snoc, if_neg hok]
        exact h2 T V
  refine ⟨by simp [shown, showReferences], ?_, fun T V => ?_⟩
  · show ((addAll c s adds).lst.map _).Pairwise _
    rw [List.pairwise_map]
    exact key.1
  · rw [← key.2 T V]
    show (T, V) ∈ (addAll c s adds).lst.map _ ↔ _
    rw [List.mem_map]
    constructor
    · rintro ⟨e, he, hx⟩
      simp only [Prod.mk.injEq] at hx
      obtain ⟨rfl, rfl⟩ := hx
      show (⟨e.T, e.v * c.base / c.base⟩ : Ev ℝ ℝ) ∈ _
      rw [mul_div_cancel_right₀ _ hb]
      exact he
    · intro he
      exact ⟨_, he, by simp [div_mul_cancel₀ _ hb]⟩

/-- Non-trivial case: of three references two are for the same time, one is too large. -/
example : LastAdded ⟨450, 650, 500, 1⟩ [(1, 500), (1, 600), (1, 700), (2, 550)] 1 600 :=
  ⟨[(1, 500)], [(1, 700), (2, 550)], rfl, by norm_num, by norm_num⟩
end

/-! ### C138: events -/

section
open Events
variable {K : Type} [Field K] [LinearOrder K] [IsStrictOrderedRing K]

/-- Time of a displayed line. -/
def Line.time : Line K → K
  | .solar T _ _ => T
  | .grid T _ _ _ => T
  | .load T _ _ => T

/-- The line of an event. -/
def lineOf (e : Ev K (SolarVal K ⊕ GridVal K ⊕ LoadVal K)) : Line K :=
  match e.v with
  | .inl v => .solar e.T v.Sinsol v.Tactual
  | .inr (.inl v) => .grid e.T v.V v.ang v.f
  | .inr (.inr v) => .load e.T v.Zre v.Zim

theorem eventLines_eq (e : Ev K (SolarVal K ⊕ GridVal K ⊕ LoadVal K)) : eventLines e = .ok [lineOf e] := by
  obtain ⟨T, v⟩ := e
  have k1 : (["T", "Sinsol", "Tactual"] : List String).contains "Tactual" = true ∧ (["T", "Sinsol", "Tactual"] : List String).contains "fgrid" = false ∧
    (["T", "Sinsol", "Tactual"] : List String).contains "Zload1_actual" = false := by decide +kernel
  have k2 : (["T", "Vgrid", "Vgrid_angle", "fgrid"] : List String).contains "Tactual" = false ∧ (["T", "Vgrid", "Vgrid_angle", "fgrid"] : List String).contains "fgrid" = true ∧
    (["T", "Vgrid", "Vgrid_angle", "fgrid"] : List String).contains "Zload1_actual" = false := by decide +kernel
  have k3 : (["T", "Zload1_actual"] : List String).contains "Tactual" = false ∧ (["T", "Zload1_actual"] : List String).contains "fgrid" = false ∧
    (["T", "Zload1_actual"] : List String).contains "Zload1_actual" = true := by decide +kernel
  rcases v with v | v | v
  · simp only [eventLines, eventKeys, k1, lineOf]; rfl
  · simp only [eventLines, eventKeys, k2, lineOf]; rfl
  · simp only [eventLines, eventKeys, k3, lineOf]; rfl

/-- **C138 (events).** `show_events` never raises. It shows every solar, grid and load event once, with its time and values, in the order of time, and the numbers of solar and of grid
events (the load events are not counted in either). -/
theorem C138_events (s : Events.St K) : ∃ lines, showEvents s = .ok (s.solar.length, s.grid.length, lines) ∧
    lines.Pairwise (fun a b => a.time ≤ b.time) ∧
    lines.Perm (s.solar.map (fun e => .solar e.T e.v.Sinsol e.v.Tactual) ++ s.grid.map (fun e => .grid e.T e.v.V e.v.ang e.v.f) ++ s.load.map (fun e => .load e.T e.v.Zre e.v.Zim)) := by
  have h : ∀ l : List (Ev K (SolarVal K ⊕ GridVal K ⊕ LoadVal K)), l.mapM eventLines = .ok (l.map fun e => [lineOf e]) := by
    intro l
    induction l with
    | nil => rfl
    | cons e l ih => rw [List.mapM_cons, eventLines_eq, ih]; rfl
  refine ⟨(merged s).map lineOf, ?_, ?_, ?_⟩
  · unfold showEvents
    rw [h]
    have : ((merged s).map fun e => [lineOf e]).flatten = (merged s).map lineOf := by
      generalize merged s = l
      induction l with
      | nil => rfl
      | cons e l ih => simp [ih]
    simp only [bind, Except.bind, pure, Except.pure, this]
  · rw [List.pairwise_map]
    have ht : ∀ e : Ev K (SolarVal K ⊕ GridVal K ⊕ LoadVal K), (lineOf e).time = e.T := by rintro ⟨T, v | v | v⟩ <;> rfl
    simp only [ht]
    exact (C15_merged_complete_ordered s).2
  · refine ((C15_merged_complete_ordered s).1.map lineOf).trans ?_
    simp only [List.map_append, List.map_map]
    exact List.Perm.refl _

end

/-! ### C139: debugging switches -/

/-- **C139.** If a derivative evaluation succeeds without debugging, then with debugging it gives the same value or raises `AttributeError`; it raises iff the master switch is on and
either voltages or controllers are to be shown, or, connected to an external grid, currents or powers. `_partial`: so the debug output of voltages or controllers never works, that of
currents and powers only in stand-alone operation. -/
theorem C139_debug_partial {α : Type} (standAlone : Bool) (d : Debug) (y : α) :
    (withDebug standAlone d (.ok y) = .ok y ∨ withDebug standAlone d (.ok y) = .error .attributeError) ∧
    (withDebug standAlone d (.ok y) = .error .attributeError ↔
      d.simulation = true ∧ (d.voltages = true ∨ d.controllers = true ∨ (standAlone = false ∧ (d.currents = true ∨ d.power = true)))) := by
  obtain ⟨a, b, c, p, e, f⟩ := d
  cases standAlone <;> cases a <;> cases b <;> cases c <;> cases p <;> cases e <;> simp [withDebug, debugOutput, bind, Except.bind, pure, Except.pure]

/-- **C139.** An evaluation that fails without debugging fails with it, with the same exception; the switches other than the master switch alone have no effect. -/
theorem C139_debug_other {α : Type} (standAlone : Bool) (d : Debug) (r : Except Err α) :
    (∀ e, r = .error e → withDebug standAlone d r = .error e) ∧ (d.simulation = false → withDebug standAlone d r = r) := by
  constructor
  · rintro e rfl; rfl
  · intro h
    unfold withDebug
    rw [h]
    cases r <;> rfl

/-- **C139, why not in full.** Switching on the display of voltages makes every derivative evaluation, hence every simulation, fail; it works without. -/
theorem C139_refuted {α : Type} (standAlone : Bool) (y : α) :
    withDebug standAlone ⟨true, true, false, false, false, false⟩ (.ok y) = .error .attributeError ∧
    withDebug standAlone ⟨true, false, false, false, false, true⟩ (.ok y) = .ok y := ⟨rfl, rfl⟩

end Display
end PvDer
