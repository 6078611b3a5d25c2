import Verif.Props.Events
import Mathlib.Algebra.Order.Archimedean.Basic
import Mathlib.Tactic.Linarith
import Mathlib.Tactic.Positivity
import Mathlib.Tactic.FieldSimp
import Mathlib.Data.Rat.Floor

/-!
# Properties C12–C14: shared specification, ramps, random events
-/

set_option linter.unusedSectionVars false

namespace PvDer
namespace Events

variable {K : Type} [Field K] [LinearOrder K] [IsStrictOrderedRing K]

/-! ### C12 -/

/-- C12 is false, for every process state: raising the minimum insolation through instance `i` makes every other instance `j` reject
an insolation it accepted just before. -/
theorem C12_spec_is_shared (c : Cfg K) (w : World K) (i j : Nat) (T S Ta x : K)
    (_hacc : (addSolar w.spec (w.inst j) T S Ta).2 = .ok ()) (hx : S < x) :
    let w' := wstep c w (.updateSpec i [(some .insolation, .min, x)])
    (addSolar w'.spec (w'.inst j) T S Ta).2 = .error .valueError := by
  intro w'
  have h := (C04_add_solar w'.spec (w'.inst j) T S Ta)
  have hmin : w'.spec.insolation.min = x := rfl
  have hnot : (addSolar w'.spec (w'.inst j) T S Ta).2 ≠ .ok () := by
    intro hok
    have := (h.1.1 hok).1.1
    rw [hmin] at this
    exact absurd this (not_le.2 hx)
  rw [h.2 hnot]

/-- C12 restricted to calls other than `update_events_spec`: whatever is called on other instances, instance `j` keeps its state and
accepts exactly the same events.  `_partial`: with `update_events_spec` it is false, see `C12_spec_is_shared`. -/
theorem C12_isolation_partial (c : Cfg K) (w : World K) (j : Nat) (calls : List (Nat × Op K)) (hj : ∀ x ∈ calls, x.1 ≠ j) :
    let w' := (calls.map fun x => WOp.call x.1 x.2).foldl (wstep c) w
    w'.inst j = w.inst j ∧
      (∀ T S Ta, (addSolar w'.spec (w'.inst j) T S Ta).2 = (addSolar w.spec (w.inst j) T S Ta).2) ∧
      (∀ T V a f, (addGrid w'.spec (w'.inst j) T V a f).2 = (addGrid w.spec (w.inst j) T V a f).2) := by
  intro w'
  have key : w'.inst j = w.inst j ∧ w'.spec = w.spec := by
    show ((calls.map fun x => WOp.call x.1 x.2).foldl (wstep c) w).inst j = w.inst j ∧
      ((calls.map fun x => WOp.call x.1 x.2).foldl (wstep c) w).spec = w.spec
    clear w'
    induction calls generalizing w with
    | nil => exact ⟨rfl, rfl⟩
    | cons x xs ih =>
      have := ih (wstep c w (.call x.1 x.2)) (fun y hy => hj y (by simp [hy]))
      simp only [List.map_cons, List.foldl_cons]
      refine ⟨this.1.trans ?_, this.2⟩
      simp only [wstep]
      rw [Function.update_of_ne (hj x (by simp)).symm]
  rw [key.1, key.2]
  exact ⟨rfl, fun _ _ _ => rfl, fun _ _ _ _ => rfl⟩

/-- `update_events_spec` with an unknown first-level key raises and changes nothing; with known keys it changes exactly the
addressed entries (here: one entry). -/
theorem C12_update_spec (sp : EvSpec K) (k : Key1) (x : K) (u : List (Option Key1 × Key2 × K)) :
    ((∃ e ∈ u, e.1 = none) → updateSpec sp u = (sp, .error .assertionError)) ∧
    (updateSpec sp [(some k, .other, x)]).1 = sp ∧ (updateSpec sp [(some k, .other, x)]).2 = .ok () := by
  refine ⟨?_, ?_, rfl⟩
  · rintro ⟨e, he, hn⟩
    unfold updateSpec
    rw [if_pos]
    rw [List.any_eq_true]
    exact ⟨e, he, by rw [hn]; rfl⟩
  · cases k <;> rfl

/-- C12, what an instance's own calls do: after any interleaving of calls on any instances (none of them `update_events_spec`), instance `j` is exactly as if only its own calls had been made. -/
theorem C12_own_calls (c : Cfg K) (w : World K) (j : Nat) (calls : List (Nat × Op K)) :
    ((calls.map fun x => WOp.call x.1 x.2).foldl (wstep c) w).inst j =
      ((calls.filter fun x => x.1 = j).map Prod.snd).foldl (step c w.spec) (w.inst j) := by
  induction calls generalizing w with
  | nil => rfl
  | cons x xs ih =>
    rw [List.map_cons, List.foldl_cons, ih]
    by_cases h : x.1 = j
    · subst h
      simp [wstep]
    · simp [wstep, h, Function.update_of_ne (Ne.symm h)]

/-- The three limits of a quantity, read from the dictionary. -/
def readSpec (sp : EvSpec K) (k1 : Key1) (k2 : Key2) : Option K :=
  let r := match k1 with | .insolation => sp.insolation | .voltage => sp.voltage | .angle => sp.angle | .freq => sp.freq
  match k2 with | .dflt => some r.dflt | .min => some r.min | .max => some r.max | .other => none

theorem readSpec_set (sp : EvSpec K) (q k1 : Key1) (e2 k2 : Key2) (x : K) (hk : k2 ≠ .other) :
    readSpec (sp.set q e2 x) k1 k2 = if q = k1 ∧ e2 = k2 then some x else readSpec sp k1 k2 := by
  cases q <;> cases k1 <;> cases e2 <;> cases k2 <;> first | rfl | exact absurd rfl hk

/-- C12, `update_events_spec` with known first-level keys: every limit holds the last value the call gave for it, and is unchanged if the call gave none. -/
theorem C12_update_spec_exact (sp : EvSpec K) (u : List (Option Key1 × Key2 × K)) (hu : ∀ e ∈ u, e.1 ≠ none) (k1 : Key1) (k2 : Key2) (hk : k2 ≠ .other) :
    (updateSpec sp u).2 = .ok () ∧
    readSpec (updateSpec sp u).1 k1 k2 = match u.reverse.find? (fun e => e.1 = some k1 ∧ e.2.1 = k2) with
      | some e => some e.2.2
      | none => readSpec sp k1 k2 := by
  have hany : u.any (fun x => x.1.isNone) = false := by
    rw [List.any_eq_false]
    intro x hx h
    exact hu x hx (Option.isNone_iff_eq_none.1 h)
  unfold updateSpec
  rw [hany]
  simp only [Bool.false_eq_true, if_false, true_and]
  clear hany
  induction u using List.reverseRecOn with
  | nil => rfl
  | append_singleton xs e ih =>
    rw [List.foldl_append, List.reverse_append]
    simp only [List.foldl_cons, List.foldl_nil, List.reverse_cons, List.reverse_nil, List.nil_append, List.singleton_append, List.find?_cons]
    obtain ⟨e1, e2, x⟩ := e
    cases e1 with
    | none => exact absurd rfl (hu (none, e2, x) (by simp))
    | some q =>
      have ih := ih fun y hy => hu y (by simp [hy])
      rw [readSpec_set _ q k1 e2 k2 x hk]
      by_cases h : q = k1 ∧ e2 = k2
      · obtain ⟨rfl, rfl⟩ := h
        simp
      · have hd : decide (some q = some k1 ∧ e2 = k2) = false := by simpa using h
        rw [if_neg h, ih]
        simp only [hd]

/-- Two live instances under the default specification. -/
def exWorld : World ℚ := ⟨exSpec, fun _ => exState⟩

example : (addSolar exWorld.spec (exWorld.inst 1) 3 40 300).2 = .ok () ∧ (40 : ℚ) < 50 := by decide +kernel

/-! ### C14 -/

/-- C14: for every outcome of the generator (`0 ≤ u < 1`), every list of times and every specification with ordered ranges and 60 Hz
allowed, creating random events never raises. -/
theorem C14_random_events_feasible (sp : EvSpec K) (h1 : sp.insolation.min ≤ sp.insolation.max) (h2 : sp.voltage.min ≤ sp.voltage.max)
    (h3 : sp.freq.min ≤ 60 ∧ (60 : K) ≤ sp.freq.max) (draws : List (K × Draw K))
    (hu : ∀ x ∈ draws, ∀ u, (x.2 = .insolation u ∨ x.2 = .voltage u) → 0 ≤ u ∧ u < 1) (s : St K) :
    (createRandom sp s draws).2 = .ok () := by
  have hr : ∀ (a b u : K), a ≤ b → 0 ≤ u → u < 1 → a ≤ a + u * (b - a) ∧ a + u * (b - a) ≤ b := by
    intro a b u hab h0 h1
    have hba : 0 ≤ b - a := sub_nonneg.2 hab
    have hp := mul_nonneg h0 hba
    have hq := mul_nonneg (sub_nonneg.2 h1.le) hba
    constructor
    · linarith
    · have : b - (a + u * (b - a)) = (1 - u) * (b - a) := by ring
      linarith
  induction draws generalizing s with
  | nil => rfl
  | cons x xs ih =>
    obtain ⟨t, d⟩ := x
    have hxs := fun y hy => hu y (List.mem_cons_of_mem _ hy)
    have hstep : (addRandom sp s t d).2 = .ok () := by
      cases d with
      | insolation u =>
        obtain ⟨h0, hlt⟩ := hu _ (List.mem_cons_self) u (Or.inl rfl)
        refine (C04_add_solar sp s t _ _).1.2 ⟨hr _ _ u h1 h0 hlt, ?_, ?_⟩ <;> norm_num
      | voltage u =>
        obtain ⟨h0, hlt⟩ := hu _ (List.mem_cons_self) u (Or.inr rfl)
        exact (C04_add_grid sp s t _ _ _).1.2 ⟨hr _ _ u h2 h0 hlt, h3⟩
      | other => rfl
    unfold createRandom
    split
    · rename_i s' e he
      simp only at he
      rw [he] at hstep
      simp at hstep
    · exact ih hxs _

example : (createRandom exSpec exState [(1, .insolation 0), (2, .voltage (99/100)), (3, .other)]).2 = .ok () := by decide +kernel

/-! ### C13 -/

theorem addSolarList_ok (sp : EvSpec K) (xs : List (K × K)) (hx : ∀ x ∈ xs, sp.insolation.min ≤ x.2 ∧ x.2 ≤ sp.insolation.max)
    (hT : xs.Pairwise (fun a b => a.1 < b.1)) (s : St K) (hs : StrictSorted s.solar) :
    (addSolarList sp s xs).2 = .ok () ∧ StrictSorted (addSolarList sp s xs).1.solar ∧
      (addSolarList sp s xs).1.grid = s.grid ∧ (addSolarList sp s xs).1.load = s.load ∧
      ∀ T v, Holds (addSolarList sp s xs).1.solar T v ↔
        (∃ x ∈ xs, x.1 = T ∧ v = ⟨x.2, 29815 / 100⟩) ∨ ((∀ x ∈ xs, x.1 ≠ T) ∧ Holds s.solar T v) := by
  induction xs generalizing s with
  | nil => exact ⟨rfl, hs, rfl, rfl, by simp [addSolarList]⟩
  | cons x xs ih =>
    rw [List.pairwise_cons] at hT
    have hok : (addSolar sp s x.1 x.2 TactualDefault).2 = .ok () := by
      refine (C04_add_solar sp s x.1 x.2 TactualDefault).1.2 ⟨hx x (by simp), ?_, ?_⟩ <;> norm_num [TactualDefault]
    have heq : addSolar sp s x.1 x.2 TactualDefault =
        (updateTotals { s with solar := addTimed x.1 ⟨x.2, 29815 / 100⟩ s.solar }, .ok ()) := by
      have h := hok
      unfold addSolar at h ⊢
      split_ifs at h ⊢
      rfl
    unfold addSolarList
    rw [heq]
    simp only
    obtain ⟨i1, i2, i3, i4, i5⟩ := ih (fun y hy => hx y (by simp [hy])) hT.2
      (updateTotals { s with solar := addTimed x.1 ⟨x.2, 29815 / 100⟩ s.solar }) (addTimed_sorted _ _ hs)
    refine ⟨i1, i2, i3, i4, ?_⟩
    intro T v
    rw [i5 T v]
    have hm : Holds (updateTotals { s with solar := addTimed x.1 ⟨x.2, 29815 / 100⟩ s.solar }).solar T v ↔
        (T = x.1 ∧ v = ⟨x.2, 29815 / 100⟩) ∨ (T ≠ x.1 ∧ Holds s.solar T v) := C03_map_update hs x.1 _ T v
    rw [hm]
    constructor
    · rintro (⟨y, hy, rfl, rfl⟩ | ⟨hn, ⟨rfl, rfl⟩ | ⟨hne, hh⟩⟩)
      · exact Or.inl ⟨y, by simp [hy], rfl, rfl⟩
      · exact Or.inl ⟨x, by simp, rfl, rfl⟩
      · right
        refine ⟨?_, hh⟩
        intro y hy
        rcases List.mem_cons.1 hy with rfl | hy
        · exact hne.symm
        · exact hn y hy
    · rintro (⟨y, hy, hyT, rfl⟩ | ⟨hn, hh⟩)
      · rcases List.mem_cons.1 hy with rfl | hy
        · right
          refine ⟨?_, Or.inl ⟨hyT.symm, rfl⟩⟩
          intro z hz
          rw [← hyT]
          exact (ne_of_lt (hT.1 z hz)).symm
        · exact Or.inl ⟨y, hy, hyT, rfl⟩
      · exact Or.inr ⟨fun y hy => hn y (by simp [hy]), Or.inr ⟨(hn x (by simp)).symm, hh⟩⟩

/-- C13.  Let a feasible present value `S` (what the query at `tstart` returns) and a feasible target be given, `tstep > 0`.  Then the ramp
never raises, and there are points `ramp i`, `i < n`, such that the new schedule is the old one overwritten at exactly those points:
the times are `tstart + i·tstep`, they fill `[tstart, tstop)` (`n` is the largest possible number), values lie between `S` and the target,
change in equal steps, start at `S` and (for `n ≥ 2`) end at the target. -/
theorem C13_insolation_ramp [FloorSemiring K] {c : Cfg K} {s : St K} (h : Reachable c s) (sp : EvSpec K) (tstart tstop target tstep : K)
    (hstep : 0 < tstep) (S : SolarVal K) (hS : (solarEvents sp s tstart).2 = .ok S)
    (hSl : sp.insolation.min ≤ S.Sinsol ∧ S.Sinsol ≤ sp.insolation.max)
    (hTl : sp.insolation.min ≤ target ∧ target ≤ sp.insolation.max) :
    let r := insolationRamp sp s tstart tstop target tstep
    r.2 = .ok () ∧ StrictSorted r.1.solar ∧ r.1.grid = s.grid ∧ r.1.load = s.load ∧
    ∃ (n : Nat) (val : Nat → K),
      (∀ i : Nat, i < n ↔ tstart + i * tstep < tstop) ∧
      (0 < n → val 0 = S.Sinsol) ∧ (2 ≤ n → val (n - 1) = target) ∧
      (∀ i < n, min S.Sinsol target ≤ val i ∧ val i ≤ max S.Sinsol target) ∧
      (∀ i, i + 2 < n → val (i + 2) - val (i + 1) = val (i + 1) - val i) ∧
      (∀ T v, Holds r.1.solar T v ↔
        (∃ i < n, T = tstart + i * tstep ∧ v = ⟨val i, 29815 / 100⟩) ∨
        ((∀ i < n, T ≠ tstart + i * tstep) ∧ Holds s.solar T v)) := by
  intro r
  have hi := inv_reachable h
  set s1 := (solarEvents sp s tstart).1 with hs1
  have hs1s : s1.solar = s.solar ∧ s1.grid = s.grid ∧ s1.load = s.load := by
    rw [hs1]; unfold solarEvents; split <;> exact ⟨rfl, rfl, rfl⟩
  have hq : solarEvents sp s tstart = (s1, .ok S) := by rw [← hS]
  set n := ⌈(tstop - tstart) / tstep⌉₊ with hn
  set val : Nat → K := fun i => if n = 1 then S.Sinsol else S.Sinsol + (i : K) * ((target - S.Sinsol) / ((n : K) - 1)) with hval
  have hr : r = addSolarList sp s1 ((List.range n).map fun (i : Nat) => (tstart + (i : K) * tstep, val i)) := by
    show insolationRamp sp s tstart tstop target tstep = _
    unfold insolationRamp
    rw [hq]
    simp only [if_neg hstep.ne']
    congr 1
    unfold arange linspace
    rw [List.length_map, List.length_range, List.zip_map']
  have hnlt : ∀ i : Nat, i < n ↔ tstart + i * tstep < tstop := by
    intro i
    rw [hn, Nat.lt_ceil, lt_div_iff₀ hstep]
    constructor <;> intro h <;> linarith
  have hfrac : ∀ i < n, n ≠ 1 → 0 ≤ (i : K) / ((n : K) - 1) ∧ (i : K) / ((n : K) - 1) ≤ 1 := by
    intro i hin hn1
    have h2 : 2 ≤ n := by omega
    have h2' : (2 : K) ≤ n := by exact_mod_cast h2
    have hpos : (0 : K) < (n : K) - 1 := by linarith
    refine ⟨by positivity, ?_⟩
    rw [div_le_one hpos]
    have : (i : K) + 1 ≤ n := by exact_mod_cast hin
    linarith
  have hbet : ∀ i < n, min S.Sinsol target ≤ val i ∧ val i ≤ max S.Sinsol target := by
    intro i hin
    simp only [hval]
    split
    · exact ⟨min_le_left _ _, le_max_left _ _⟩
    · rename_i hn1
      obtain ⟨f0, f1⟩ := hfrac i hin hn1
      have he : S.Sinsol + (i : K) * ((target - S.Sinsol) / ((n : K) - 1)) =
          S.Sinsol + (i : K) / ((n : K) - 1) * (target - S.Sinsol) := by ring
      rw [he]
      set f := (i : K) / ((n : K) - 1)
      rcases le_total S.Sinsol target with hle | hle
      · rw [min_eq_left hle, max_eq_right hle]
        have := mul_nonneg f0 (sub_nonneg.2 hle)
        have := mul_nonneg (sub_nonneg.2 f1) (sub_nonneg.2 hle)
        constructor <;> nlinarith
      · rw [min_eq_right hle, max_eq_left hle]
        have := mul_nonneg f0 (sub_nonneg.2 hle)
        have := mul_nonneg (sub_nonneg.2 f1) (sub_nonneg.2 hle)
        constructor <;> nlinarith
  have hxs : ∀ x ∈ (List.range n).map (fun (i : Nat) => (tstart + (i : K) * tstep, val i)),
      sp.insolation.min ≤ x.2 ∧ x.2 ≤ sp.insolation.max := by
    intro x hx
    obtain ⟨i, hin, rfl⟩ := List.mem_map.1 hx
    obtain ⟨b1, b2⟩ := hbet i (List.mem_range.1 hin)
    exact ⟨le_trans (le_min hSl.1 hTl.1) b1, le_trans b2 (max_le hSl.2 hTl.2)⟩
  have hpw : ((List.range n).map (fun (i : Nat) => (tstart + (i : K) * tstep, val i))).Pairwise (fun a b => a.1 < b.1) := by
    rw [List.pairwise_map]
    refine List.pairwise_lt_range.imp ?_
    intro a b hab
    have : (a : K) < b := by exact_mod_cast hab
    have := mul_lt_mul_of_pos_right this hstep
    simp only
    linarith
  obtain ⟨k1, k2, k3, k4, k5⟩ := addSolarList_ok sp _ hxs hpw s1 (hs1s.1 ▸ hi.solarS)
  rw [hr]
  refine ⟨k1, k2, k3.trans hs1s.2.1, k4.trans hs1s.2.2, n, val, hnlt, ?_, ?_, hbet, ?_, ?_⟩
  · intro _; simp [hval]
  · intro h2
    have h2' : (2 : K) ≤ n := by exact_mod_cast h2
    have hpos : (n : K) - 1 ≠ 0 := by intro h; linarith
    simp only [hval]
    rw [if_neg (by omega), Nat.cast_sub (by omega)]
    field_simp
    push_cast
    ring
  · intro i hin
    simp only [hval]
    rw [if_neg (by omega), if_neg (by omega), if_neg (by omega)]
    push_cast
    ring
  · intro T v
    rw [k5 T v, hs1s.1]
    constructor
    · rintro (⟨x, hx, rfl, rfl⟩ | ⟨hne, hh⟩)
      · obtain ⟨i, hin, rfl⟩ := List.mem_map.1 hx
        exact Or.inl ⟨i, List.mem_range.1 hin, rfl, rfl⟩
      · refine Or.inr ⟨?_, hh⟩
        intro i hin he
        exact hne _ (List.mem_map.2 ⟨i, List.mem_range.2 hin, rfl⟩) he.symm
    · rintro (⟨i, hin, rfl, rfl⟩ | ⟨hne, hh⟩)
      · exact Or.inl ⟨_, List.mem_map.2 ⟨i, List.mem_range.2 hin, rfl⟩, rfl, rfl⟩
      · refine Or.inr ⟨?_, hh⟩
        intro x hx he
        obtain ⟨i, hin, rfl⟩ := List.mem_map.1 hx
        exact hne i (List.mem_range.1 hin) he.symm

example : Reachable exCfg exState ∧ (solarEvents exSpec exState 6).2 = .ok ⟨60, 310⟩ ∧
    (insolationRamp exSpec exState 6 7 80 (1/4)).1.solar.map (fun e => (e.T, e.v.Sinsol)) =
      [(2, 50), (5, 60), (6, 60), (25/4, 60 + 20/3), (13/2, 60 + 40/3), (27/4, 80)] :=
  ⟨exState_reachable.reachable, by decide +kernel, by decide +kernel⟩

/-- `voltage_ramp` never works: with a non-empty time range it raises `TypeError` (when the grid query succeeds) and adds no event. -/
theorem C13_voltage_ramp_never_works [FloorSemiring K] (c : Cfg K) (sp : EvSpec K) (s : St K) (tstart tstop tstep : K) (hstep : 0 < tstep)
    (hlt : tstart < tstop) (v : GridVal K) (hq : (gridEvents c sp s tstart).2 = .ok v) :
    voltageRamp c sp s tstart tstop tstep = ((gridEvents c sp s tstart).1, .error .typeError) := by
  unfold voltageRamp
  have hq' : gridEvents c sp s tstart = ((gridEvents c sp s tstart).1, .ok v) := by rw [← hq]
  rw [hq']
  simp only [if_neg hstep.ne']
  have hpos : 0 < ⌈(tstop - tstart) / tstep⌉₊ := Nat.ceil_pos.2 (div_pos (sub_pos.2 hlt) hstep)
  obtain ⟨m, hm⟩ : ∃ m, ⌈(tstop - tstart) / tstep⌉₊ = m + 1 := ⟨_, (Nat.succ_pred_eq_of_pos hpos).symm⟩
  unfold arange
  rw [hm, List.range_succ_eq_map]
  rfl

end Events
end PvDer
