import Verif.Props.VdcRef
import Verif.Lemmas.Events
import Verif.Props.Restore

/-!
# Property C160: the DC reference schedule is one list for all DERs of a process

`Vdc_ref_list` is a class attribute that is only mutated in place (DER_utilities.py 43, 564-566), while `Vdc_ref_total` and `Vdc_ref_counter` become
attributes of the instance on assignment (568, 587).  So each DER replays the *common* schedule with a total of its own, the one it had when it last
scheduled a reference itself.
-/

set_option linter.unusedSectionVars false

namespace PvDer
namespace VdcRef

variable {K : Type} [Field K] [LinearOrder K] [IsStrictOrderedRing K]

/-- Calls by which a user schedules references. -/
def Op.schedules : Op K → Bool
  | .add _ _ => true
  | .ramp _ _ => true
  | _ => false

/-- The process after a history of calls on any DERs. -/
def after [FloorSemiring K] (c : Nat → Cfg K) (ref : Nat → K) (calls : List (Nat × Op K)) : World K := calls.foldl (wstep c) (winit ref)

/-- What DER `i` sees of the process: the common list and its own variables. -/
def World.view (w : World K) (i : Nat) : St K := ⟨w.lst, w.inst i⟩

/-! ### The stored totals -/

theorem update_frame (s : St K) (t : K) : (updateRef s t).1.lst = s.lst ∧ (updateRef s t).1.inst.total = s.inst.total := by
  unfold updateRef getRef
  generalize playback s.lst s.inst.total s.inst.ctr s.inst.ref t = r
  obtain ⟨c, r⟩ := r
  cases r <;> exact ⟨rfl, rfl⟩

/-- The list is canonical and the total of the acting instance does not exceed its length. -/
def Sane (s : St K) : Prop := StrictSorted s.lst ∧ 0 ≤ s.inst.total ∧ s.inst.total ≤ s.lst.length

theorem sane_add {c : Cfg K} {s : St K} (h : Sane s) (t V : K) :
    Sane (addRef c s t V).1 ∧ s.lst.length ≤ (addRef c s t V).1.lst.length := by
  unfold addRef
  split_ifs
  · exact ⟨h, le_rfl⟩
  · exact ⟨⟨addTimed_sorted _ _ h.1, by simp, by simp⟩, Events.length_addTimed_ge h.1 _ _⟩

theorem sane_addLoop {c : Cfg K} (vs : List K) : ∀ (ts : List K) {s : St K}, Sane s →
    Sane (addLoop c s ts vs).1 ∧ s.lst.length ≤ (addLoop c s ts vs).1.lst.length := by
  induction vs with
  | nil => intro ts s h; cases ts <;> exact ⟨h, le_rfl⟩
  | cons v vs ih =>
    intro ts s h
    cases ts with
    | nil => exact ⟨h, le_rfl⟩
    | cons t ts =>
      have hg := sane_add (c := c) h t v
      unfold addLoop
      generalize addRef c s t v = r at hg
      obtain ⟨s', e⟩ := r
      cases e with
      | error e => exact hg
      | ok _ => exact ⟨(ih ts hg.1).1, hg.2.trans (ih ts hg.1).2⟩

theorem sane_ramp [FloorSemiring K] {c : Cfg K} {s : St K} (h : Sane s) (t target : K) :
    Sane (ramp c s t target).1 ∧ s.lst.length ≤ (ramp c s t target).1.lst.length := by
  have hl : (getRef s t).1.lst = s.lst ∧ (getRef s t).1.inst.total = s.inst.total := ⟨rfl, rfl⟩
  unfold ramp
  generalize getRef s t = r at hl
  obtain ⟨s1, e⟩ := r
  simp only at hl
  have h1 : Sane s1 := by unfold Sane; rw [hl.1, hl.2]; exact h
  rw [← hl.1]
  cases e with
  | error e => exact ⟨h1, le_rfl⟩
  | ok v =>
    simp only
    generalize (if v * c.base > target then -s1.inst.del else s1.inst.del) = del
    split_ifs
    · exact sane_add h1 _ _
    · exact ⟨h1, le_rfl⟩
    · exact ⟨h1, le_rfl⟩
    · exact sane_addLoop _ _ (s := { s1 with inst := { s1.inst with del := del } }) h1

theorem sane_step [FloorSemiring K] {c : Cfg K} {s : St K} (h : Sane s) (o : Op K) :
    Sane (step c s o) ∧ s.lst.length ≤ (step c s o).lst.length := by
  cases o with
  | add t V => exact sane_add h t V
  | get t => exact ⟨h, le_rfl⟩
  | update t =>
    have hu := update_frame s t
    show Sane (updateRef s t).1 ∧ s.lst.length ≤ (updateRef s t).1.lst.length
    unfold Sane
    rw [hu.1, hu.2]
    exact ⟨h, le_rfl⟩
  | ramp t target => exact sane_ramp h t target
  | reset => exact ⟨h, le_rfl⟩

theorem world_sane [FloorSemiring K] (c : Nat → Cfg K) (calls : List (Nat × Op K)) : ∀ (w : World K), (∀ j, Sane (w.view j)) →
    (∀ j, Sane ((calls.foldl (wstep c) w).view j)) ∧ w.lst.length ≤ (calls.foldl (wstep c) w).lst.length := by
  induction calls with
  | nil => intro w h; exact ⟨h, le_rfl⟩
  | cons x l ih =>
    intro w h
    rw [List.foldl_cons]
    have hx := sane_step (c := c x.1) (h x.1) x.2
    have hw : ∀ j, Sane ((wstep c w x).view j) := by
      intro j
      by_cases hj : j = x.1
      · have : (wstep c w x).view j = step (c x.1) (w.view x.1) x.2 := by simp [wstep, World.view, hj]
        rw [this]; exact hx.1
      · have h2 : (wstep c w x).view j = ⟨(step (c x.1) (w.view x.1) x.2).lst, w.inst j⟩ := by simp [wstep, World.view, hj]
        rw [h2]
        refine ⟨hx.1.1, (h j).2.1, (h j).2.2.trans ?_⟩
        have : (w.view x.1).lst.length = (w.view j).lst.length := rfl
        rw [this] at hx
        exact_mod_cast hx.2
    obtain ⟨a, b⟩ := ih _ hw
    exact ⟨a, le_trans hx.2 b⟩

theorem after_sane [FloorSemiring K] (c : Nat → Cfg K) (ref : Nat → K) (calls : List (Nat × Op K)) (j : Nat) : Sane ((after c ref calls).view j) :=
  (world_sane c calls (winit ref) (fun _ => ⟨List.Pairwise.nil, le_rfl, le_rfl⟩)).1 j

/-- The total of DER `i` is changed only by calls with which DER `i` schedules references. -/
theorem total_kept [FloorSemiring K] (c : Nat → Cfg K) (i : Nat) (calls : List (Nat × Op K)) (hq : ∀ x ∈ calls, x.1 = i → x.2.schedules = false) :
    ∀ w : World K, ((calls.foldl (wstep c) w).inst i).total = (w.inst i).total := by
  induction calls with
  | nil => intro w; rfl
  | cons x l ih =>
    intro w
    rw [List.foldl_cons, ih (fun y hy => hq y (by simp [hy]))]
    by_cases hx : i = x.1
    · have hs := hq x (by simp) hx.symm
      have hi : (wstep c w x).inst i = (step (c x.1) (w.view x.1) x.2).inst := by simp [wstep, World.view, hx]
      rw [hi]
      obtain ⟨j, o⟩ := x
      simp only at hx hs ⊢
      subst hx
      cases o with
      | add _ _ => simp [Op.schedules] at hs
      | ramp _ _ => simp [Op.schedules] at hs
      | get t => rfl
      | update t => exact (update_frame _ t).2
      | reset => rfl
    · simp [wstep, hx]

/-! ### A stale total cuts the schedule off -/

theorem pyGet_take {β : Type} (l : List β) (n : Nat) (i : Nat) (h : i < n) : pyGet (l.take n) (i : Int) = pyGet l (i : Int) := by
  rw [pyGet_nat, pyGet_nat, List.getElem?_take, if_pos h]

theorem playback_take (l : List (Ev K K)) (n : Nat) (hn : 1 ≤ n) (i : Nat) (hi : i < n) (d t : K) :
    playback l (n : Int) (i : Int) d t = playback (l.take n) (n : Int) (i : Int) d t ∧
    ∃ i' < n, (playback l (n : Int) (i : Int) d t).1 = ((i' : Nat) : Int) := by
  cases l with
  | nil => exact ⟨by simp, i, hi, rfl⟩
  | cons e0 l' =>
    have ht : (e0 :: l').take n = e0 :: l'.take (n - 1) := by
      obtain ⟨m, rfl⟩ : ∃ m, n = m + 1 := ⟨n - 1, by omega⟩
      simp
    have hg := pyGet_take (e0 :: l') n i hi
    have hg' : 1 ≤ i → pyGet ((e0 :: l').take n) ((i : Int) - 1) = pyGet (e0 :: l') ((i : Int) - 1) := by
      intro h1
      have : ((i : Int) - 1) = ((i - 1 : Nat) : Int) := by omega
      rw [this]
      exact pyGet_take _ n _ (by omega)
    constructor
    · rw [ht] at hg hg' ⊢
      unfold playback
      simp only [hg]
      by_cases h0 : t < e0.T
      · simp only [if_pos h0]
      · simp only [if_neg h0]
        cases hp : pyGet (e0 :: l') (i : Int) with
        | none => rfl
        | some ec =>
          simp only
          by_cases h1 : t < ec.T ∧ (i : Int) ≥ 1
          · simp only [if_pos h1]
            rw [hg' (by omega)]
          · simp only [if_neg h1]
    · unfold playback
      simp only
      split_ifs with h0
      · exact ⟨i, hi, rfl⟩
      · cases hp : pyGet (e0 :: l') (i : Int) with
        | none => exact ⟨i, hi, rfl⟩
        | some ec =>
          simp only
          split_ifs with h1 h2
          · cases pyGet (e0 :: l') ((i : Int) - 1) <;> exact ⟨i, hi, rfl⟩
          · exact ⟨min (n - 1) (i + 1), by omega, by simp only; omega⟩
          · exact ⟨i, hi, rfl⟩

theorem playSeq_take (l : List (Ev K K)) (n : Nat) (hn : 1 ≤ n) (d : K) (ts : List K) : ∀ (i : Nat), i < n →
    playSeq l (n : Int) (i : Int) d ts = playSeq (l.take n) (n : Int) (i : Int) d ts := by
  induction ts with
  | nil => intro i _; rfl
  | cons t ts ih =>
    intro i hi
    obtain ⟨h1, i', h2, h3⟩ := playback_take l n hn i hi d t
    unfold playSeq
    rw [← h1, h3, ih i' h2]

theorem stale_total (s : St K) (hs : StrictSorted s.lst) (n : Nat) (hn : 1 ≤ n) (hl : n ≤ s.lst.length) (hT : s.inst.total = n) (ts : List K)
    (hd : Dense (s.lst.take n) none ts) :
    List.Forall₂ (fun t r => ∃ v, r = Except.ok v ∧ Correct (s.lst.take n) s.inst.ref t v) ts (updSeq (reset s) ts) := by
  rw [updSeq_eq _ _ (dense_forward hd).2]
  have e : playSeq (reset s).lst (reset s).inst.total (reset s).inst.ctr (reset s).inst.ref ts = playSeq (s.lst.take n) (n : Int) ((0 : Nat) : Int) s.inst.ref ts := by
    rw [← playSeq_take s.lst n hn s.inst.ref ts 0 (by omega), ← hT]
    rfl
  rw [e]
  have hlen : (s.lst.take n).length = n := by simp [hl]
  have hs' : StrictSorted (s.lst.take n) := List.Pairwise.sublist (List.take_sublist _ _) hs
  have := Events.playSeq_reset_dense (total := (n : Int)) hs' (fun _ => by rw [hlen]) s.inst.ref ts hd
  exact this

/-- C160: let DER `i` schedule a reference successfully when — this one counted — `n` references are in the common schedule, and afterwards schedule
none itself, while the other DERs of the process do whatever they like.  Then in every later run (forward, not jumping over two references between two
evaluations) DER `i` follows exactly the `n` *earliest* references of the common schedule — its own and other DERs' — and ignores the rest, its own
latest ones included. -/
theorem C160_first_references_only [FloorSemiring K] (c : Nat → Cfg K) (ref : Nat → K) (i : Nat) (p q : List (Nat × Op K)) (t V : K)
    (hok : (addRef (c i) ((after c ref p).view i) t V).2 = .ok ())
    (hq : ∀ x ∈ q, x.1 = i → x.2.schedules = false) (ts : List K) :
    let n := (after c ref (p ++ [(i, .add t V)])).lst.length
    let w := after c ref (p ++ (i, .add t V) :: q)
    n ≤ w.lst.length ∧ (Dense (w.lst.take n) none ts →
      List.Forall₂ (fun u r => ∃ v, r = Except.ok v ∧ Correct (w.lst.take n) (w.inst i).ref u v) ts (updSeq (reset (w.view i)) ts)) := by
  intro n w
  have hw : w = q.foldl (wstep c) (after c ref (p ++ [(i, .add t V)])) := by
    show after c ref (p ++ (i, .add t V) :: q) = _
    rw [List.append_cons]
    unfold after
    rw [List.foldl_append (l' := q)]
  have hone : after c ref (p ++ [(i, .add t V)]) = wstep c (after c ref p) (i, .add t V) := by
    unfold after; rw [List.foldl_append]; rfl
  have hle : n ≤ w.lst.length := by
    rw [hw]
    exact (world_sane c q _ (fun j => after_sane c ref _ j)).2
  have hT : (w.inst i).total = n := by
    rw [hw, total_kept c i q hq]
    show _ = ((after c ref (p ++ [(i, .add t V)])).lst.length : Int)
    rw [hone]
    have : (wstep c (after c ref p) (i, .add t V)).inst i = (addRef (c i) ((after c ref p).view i) t V).1.inst ∧
        (wstep c (after c ref p) (i, .add t V)).lst = (addRef (c i) ((after c ref p).view i) t V).1.lst := by
      simp [wstep, step, World.view]
    rw [this.1, this.2]
    unfold addRef at hok ⊢
    split_ifs at hok ⊢
    rfl
  have hn : 1 ≤ n := by
    show 1 ≤ (after c ref (p ++ [(i, .add t V)])).lst.length
    rw [hone]
    show 1 ≤ (addRef (c i) ((after c ref p).view i) t V).1.lst.length
    have h := (C43_add (c i) ((after c ref p).view i) (after_sane c ref p i).1 t V).2.2 hok
    exact List.length_pos_of_mem ((h.2 t (V / (c i).base)).2 (Or.inl ⟨rfl, rfl⟩))
  exact ⟨hle, fun hd => stale_total (w.view i) (after_sane c ref _ i).1 n hn hle hT ts hd⟩

/-! ### A DER that never scheduled a reference itself -/

theorem updSeq_early (s : St K) {e0 : Ev K K} {l : List (Ev K K)} (hl : s.lst = e0 :: l) (p ts : List K) (hp : ∀ t ∈ p, t < e0.T) :
    updSeq s (p ++ ts) = p.map (fun _ => .ok s.inst.ref) ++ updSeq s ts := by
  induction p with
  | nil => rfl
  | cons t p ih =>
    have h : updateRef s t = (s, .ok s.inst.ref) := by
      have : playback s.lst s.inst.total s.inst.ctr s.inst.ref t = (s.inst.ctr, .ok s.inst.ref) := by
        rw [hl]; simp only [playback, if_pos (hp t (by simp))]
      unfold updateRef getRef
      rw [this]
    rw [List.cons_append, updSeq, h, List.map_cons, List.cons_append]
    simp only
    rw [ih (fun u hu => hp u (by simp [hu]))]

theorem updSeq_lost (s : St K) {e0 : Ev K K} {l : List (Ev K K)} (hl : s.lst = e0 :: l) (hT : s.inst.total = 0) (hc : s.inst.ctr = -1)
    (ts : List K) (ht : ∀ t ∈ ts, e0.T ≤ t) :
    updSeq s ts = ts.map (fun t => if ((e0 :: l).getLast (by simp)).T ≤ t then .ok ((e0 :: l).getLast (by simp)).v else .error .unboundLocal) := by
  induction ts generalizing s with
  | nil => rfl
  | cons t ts ih =>
    have hlast : pyGet (e0 :: l) (-1) = some ((e0 :: l).getLast (by simp)) := by
      unfold pyGet
      simp [List.getLast_eq_getElem]
    have hpb : playback s.lst s.inst.total s.inst.ctr s.inst.ref t =
        (-1, if ((e0 :: l).getLast (by simp)).T ≤ t then .ok ((e0 :: l).getLast (by simp)).v else .error .unboundLocal) := by
      rw [hl, hT, hc]
      unfold playback
      simp only [if_neg (not_lt.2 (ht t (by simp))), hlast]
      have : ¬ (t < ((e0 :: l).getLast (by simp)).T ∧ (-1 : Int) ≥ 1) := by omega
      rw [if_neg this]
      by_cases h : ((e0 :: l).getLast (by simp)).T ≤ t
      · rw [if_pos h, if_pos h]; rfl
      · rw [if_neg h, if_neg h]
    rw [updSeq, List.map_cons]
    have h2 : (updateRef s t).2 = (if ((e0 :: l).getLast (by simp)).T ≤ t then .ok ((e0 :: l).getLast (by simp)).v else .error .unboundLocal) := by
      unfold updateRef getRef
      rw [hpb]
      split_ifs <;> rfl
    have h1 : (updateRef s t).1.inst.ctr = -1 := by
      unfold updateRef getRef
      rw [hpb]
      split_ifs <;> rfl
    rw [h2, ih _ ((update_frame s t).1.trans hl) ((update_frame s t).2.trans hT) h1 (fun u hu => ht u (by simp [hu]))]

theorem updSeq_foreign (s : St K) {e0 : Ev K K} {l : List (Ev K K)} (hl : s.lst = e0 :: l) (hT : s.inst.total = 0)
    (p : List K) (u : K) (q : List K) (hp : ∀ t ∈ p, t < e0.T) (hu : e0.T ≤ u) (hq : ∀ t ∈ q, e0.T ≤ t) :
    updSeq (reset s) (p ++ u :: q) = p.map (fun _ => .ok s.inst.ref) ++ .ok e0.v ::
      q.map (fun t => if ((e0 :: l).getLast (by simp)).T ≤ t then .ok ((e0 :: l).getLast (by simp)).v else .error .unboundLocal) := by
  rw [updSeq_early (reset s) hl p _ hp]
  congr 1
  have hpb : playback (reset s).lst (reset s).inst.total (reset s).inst.ctr (reset s).inst.ref u = (-1, .ok e0.v) := by
    show playback s.lst s.inst.total 0 s.inst.ref u = (-1, .ok e0.v)
    rw [hl, hT]
    unfold playback
    have h0 : pyGet (e0 :: l) 0 = some e0 := rfl
    simp only [if_neg (not_lt.2 hu), h0]
    rw [if_neg (fun h : u < e0.T ∧ (0 : Int) ≥ 1 => absurd h.1 (not_lt.2 hu)), if_pos hu]
    rfl
  rw [updSeq]
  have h2 : (updateRef (reset s) u).2 = .ok e0.v := by
    unfold updateRef getRef; rw [hpb]
  have h1 : (updateRef (reset s) u).1.inst.ctr = -1 := by
    unfold updateRef getRef; rw [hpb]
  rw [h2, updSeq_lost _ ((update_frame (reset s) u).1.trans hl) ((update_frame (reset s) u).2.trans hT) h1 q hq]

/-- The earliest and latest entries of a canonical schedule are its ends. -/
theorem ends_of {L l : List (Ev K K)} {a e0 e1 : Ev K K} (hs : StrictSorted L) (hl : L = a :: l) (h0 : e0 ∈ L) (h1 : e1 ∈ L) (hmin : ∀ e ∈ L, e0.T ≤ e.T)
    (hmax : ∀ e ∈ L, e.T ≤ e1.T) : e0 = a ∧ e1 = (a :: l).getLast (by simp) := by
  constructor
  · refine hs.eq_of_T h0 (by rw [hl]; simp) (le_antisymm (hmin a (by rw [hl]; simp)) ?_)
    rw [hl] at hs h0
    rcases List.mem_cons.1 h0 with rfl | h0
    · exact le_rfl
    · exact le_of_lt ((List.pairwise_cons.1 hs).1 e0 h0)
  · refine hs.eq_of_T h1 (by rw [hl]; exact List.getLast_mem _) (le_antisymm ?_ (hmax _ (by rw [hl]; exact List.getLast_mem _)))
    rw [hl] at hs h1
    obtain ⟨j, hj, rfl⟩ := List.getElem_of_mem h1
    rw [List.getLast_eq_getElem]
    rcases Nat.lt_or_eq_of_le (show j ≤ (a :: l).length - 1 by omega) with hlt | heq
    · exact le_of_lt ((List.pairwise_iff_getElem.1 hs) j _ hj (by omega) hlt)
    · simp only [heq, le_refl]

/-- C160: a DER that never scheduled a reference itself, in a process in which other DERs scheduled some (`e0` the earliest, `e1` the latest).  In every
run from reset counters it keeps its own reference before `e0`; its first evaluation at or after `e0` gives it the reference `e0` of the other DER; and
each later evaluation fails with `UnboundLocalError` before `e1` and gives `e1` from then on. -/
theorem C160_foreign_schedule [FloorSemiring K] (c : Nat → Cfg K) (ref : Nat → K) (i : Nat) (calls : List (Nat × Op K))
    (hi : ∀ x ∈ calls, x.1 = i → x.2.schedules = false) (e0 e1 : Ev K K) (h0 : e0 ∈ (after c ref calls).lst) (h1 : e1 ∈ (after c ref calls).lst)
    (hmin : ∀ e ∈ (after c ref calls).lst, e0.T ≤ e.T) (hmax : ∀ e ∈ (after c ref calls).lst, e.T ≤ e1.T)
    (p : List K) (u : K) (q : List K) (hp : ∀ t ∈ p, t < e0.T) (hu : e0.T ≤ u) (hq : ∀ t ∈ q, e0.T ≤ t) :
    updSeq (reset ((after c ref calls).view i)) (p ++ u :: q) = p.map (fun _ => .ok ((after c ref calls).inst i).ref) ++ .ok e0.v ::
      q.map (fun t => if e1.T ≤ t then .ok e1.v else .error .unboundLocal) := by
  have hT : ((after c ref calls).view i).inst.total = 0 := total_kept c i calls hi (winit ref)
  have hs := (after_sane c ref calls i).1
  have hs' : StrictSorted (after c ref calls).lst := hs
  cases hl : (after c ref calls).lst with
  | nil => rw [hl] at h0; simp at h0
  | cons a l =>
    obtain ⟨ha, hb⟩ := ends_of hs' hl h0 h1 hmin hmax
    subst ha
    have := updSeq_foreign ((after c ref calls).view i) (e0 := e0) (l := l) hl hT p u q hp hu hq
    rw [this, ← hb]
    rfl

/-- C160: so as soon as other DERs have scheduled references at two different times, the *second* evaluation of such a DER between the earliest and the
latest of them fails. -/
theorem C160_second_evaluation_fails [FloorSemiring K] (c : Nat → Cfg K) (ref : Nat → K) (i : Nat) (calls : List (Nat × Op K))
    (hi : ∀ x ∈ calls, x.1 = i → x.2.schedules = false) (e0 e1 : Ev K K) (h0 : e0 ∈ (after c ref calls).lst) (h1 : e1 ∈ (after c ref calls).lst)
    (hmin : ∀ e ∈ (after c ref calls).lst, e0.T ≤ e.T) (hmax : ∀ e ∈ (after c ref calls).lst, e.T ≤ e1.T)
    (p : List K) (u u' : K) (q : List K) (hp : ∀ t ∈ p, t < e0.T) (hu : e0.T ≤ u) (hu' : u ≤ u') (hlt : u' < e1.T) (hq : ∀ t ∈ q, u' ≤ t) :
    (updSeq (reset ((after c ref calls).view i)) (p ++ u :: u' :: q))[p.length + 1]? = some (.error .unboundLocal) := by
  have hq' : ∀ t ∈ u' :: q, e0.T ≤ t := by
    intro t ht
    rcases List.mem_cons.1 ht with rfl | ht
    · exact hu.trans hu'
    · exact (hu.trans hu').trans (hq t ht)
  rw [C160_foreign_schedule c ref i calls hi e0 e1 h0 h1 hmin hmax p u (u' :: q) hp hu hq', List.getElem?_append_right (by simp)]
  simp [not_le.2 hlt]

/-- A single reference of another DER does no such harm: the DER just follows it. -/
theorem C160_single_foreign_reference [FloorSemiring K] (c : Nat → Cfg K) (ref : Nat → K) (i : Nat) (calls : List (Nat × Op K))
    (hi : ∀ x ∈ calls, x.1 = i → x.2.schedules = false) (e0 : Ev K K) (h0 : (after c ref calls).lst = [e0]) (ts : List K) (hf : ts.Pairwise (· ≤ ·)) :
    updSeq (reset ((after c ref calls).view i)) ts = ts.map (fun t => if e0.T ≤ t then .ok e0.v else .ok ((after c ref calls).inst i).ref) := by
  obtain ⟨p, q, rfl, hp, hq⟩ : ∃ p q : List K, ts = p ++ q ∧ (∀ t ∈ p, t < e0.T) ∧ ∀ t ∈ q, e0.T ≤ t := by
    clear hi
    induction ts with
    | nil => exact ⟨[], [], rfl, by simp, by simp⟩
    | cons t ts ih =>
      rw [List.pairwise_cons] at hf
      by_cases ht : t < e0.T
      · obtain ⟨p, q, rfl, hp, hq⟩ := ih hf.2
        exact ⟨t :: p, q, rfl, by simpa [ht] using hp, hq⟩
      · refine ⟨[], t :: ts, rfl, by simp, fun u hu => ?_⟩
        rw [not_lt] at ht
        rcases List.mem_cons.1 hu with rfl | hu
        · exact ht
        · exact ht.trans (hf.1 u hu)
  have hpm : p.map (fun t => if e0.T ≤ t then (.ok e0.v : Except Err K) else .ok ((after c ref calls).inst i).ref) =
      p.map (fun _ => .ok ((after c ref calls).inst i).ref) := List.map_congr_left (fun t ht => by rw [if_neg (not_le.2 (hp t ht))])
  have hqm : ∀ x : Except Err K, q.map (fun t => if e0.T ≤ t then (.ok e0.v : Except Err K) else x) = q.map (fun _ => .ok e0.v) :=
    fun x => List.map_congr_left (fun t ht => by rw [if_pos (hq t ht)])
  rw [List.map_append, hpm, hqm]
  cases q with
  | nil =>
    have := updSeq_early (reset ((after c ref calls).view i)) (e0 := e0) (l := []) h0 p [] hp
    rw [this]
    rfl
  | cons u q =>
    have h := C160_foreign_schedule c ref i calls hi e0 e0 (by rw [h0]; simp) (by rw [h0]; simp) (by rw [h0]; simp) (by rw [h0]; simp) p u q hp (hq u (by simp))
      (fun t ht => hq t (by simp [ht]))
    rw [h]
    congr 1
    rw [List.map_cons]
    congr 1
    exact List.map_congr_left (fun t ht => by rw [if_pos (hq t (by simp [ht]))])

/-- C160, ramps: when a DER `j` — by `Vdc_ref_ramp`, or by reconnecting with DC voltage restoration — starts a ramp from its reference to a target more than two
steps of 2 V away, in a process in which nothing was scheduled before, then for (at least) as long as the ramp lasts minus one step every *other* DER evaluates once
and fails from its second evaluation on. -/
theorem C160_ramp_disturbs_others [FloorSemiring K] (c : Nat → Cfg K) (ref : Nat → K) (i j : Nat) (hij : i ≠ j) (hb : (c j).base ≠ 0) (hdT : 0 < (c j).delT)
    (hdT1 : (c j).delT ≤ 1) (t0 target : K) (hfar : 2 < |ref j * (c j).base - target|)
    (hv : (c j).vmin ≤ ref j * (c j).base ∧ ref j * (c j).base ≤ (c j).vmax) (ht : (c j).vmin ≤ target ∧ target ≤ (c j).vmax)
    (u u' : K) (hu : t0 ≤ u) (hu' : u ≤ u') (hend : u' - t0 < (|ref j * (c j).base - target| / 2 - 1) * (c j).delT) (q : List K) (hq : ∀ t ∈ q, u' ≤ t) :
    (updSeq (reset ((after c ref [(j, .ramp t0 target)]).view i)) (u :: u' :: q))[1]? = some (.error .unboundLocal) := by
  obtain ⟨-, hsort, -, n, val, hn, hlast, hval, hstep, hmem⟩ := C45_ramp_partial (c j) hb hdT hdT1 ⟨[], ⟨0, 0, ref j, 2⟩⟩ List.Pairwise.nil t0 target (ref j) rfl
    (by norm_num) hfar hv ht
  have hlst : (after c ref [(j, .ramp t0 target)]).lst = (ramp (c j) ⟨[], ⟨0, 0, ref j, 2⟩⟩ t0 target).1.lst := rfl
  set L := (ramp (c j) ⟨[], ⟨0, 0, ref j, 2⟩⟩ t0 target).1.lst with hL
  set sg : K := if ref j * (c j).base > target then -1 else 1 with hsg
  have hsize : |ref j * (c j).base - target| ≤ (n : K) * 2 := by
    have h2 := hval (n - 2) (by omega)
    have h3 := (hstep (n - 2) (by omega)).2
    rw [show n - 2 + 1 = n - 1 by omega, hlast, h2] at h3
    have hc : ((n - 2 : Nat) : K) = (n : K) - 2 := by
      rw [Nat.cast_sub hn]; norm_num
    rw [hc] at h3
    have hsq : sg * sg = 1 := by rw [hsg]; split_ifs <;> norm_num
    have habs : |ref j * (c j).base - target| = sg * (target - ref j * (c j).base) := by
      rw [hsg]
      split_ifs with h
      · rw [abs_of_pos (by linarith)]; ring
      · rw [abs_of_nonpos (by linarith)]; ring
    rw [habs]
    have : sg * (target - (ref j * (c j).base + sg * ((n : K) - 2 + 1) * 2)) = sg * (target - ref j * (c j).base) - (sg * sg) * (((n : K) - 1) * 2) := by ring
    rw [show (⟨[], ⟨0, 0, ref j, 2⟩⟩ : St K).inst.del = 2 from rfl, this, hsq] at h3
    linarith
  have hm : ∀ e ∈ L, ∃ k < n, e.T = t0 + k * (c j).delT := by
    intro e he
    rcases (hmem e.T e.v).1 he with ⟨k, hk, h1, -⟩ | ⟨-, h⟩
    · exact ⟨k, hk, h1⟩
    · exact absurd h (by simp [Holds])
  have h0 : (⟨t0, val 0 / (c j).base⟩ : Ev K K) ∈ L := (hmem _ _).2 (Or.inl ⟨0, by omega, by simp, rfl⟩)
  have h1 : (⟨t0 + ((n - 1 : Nat) : K) * (c j).delT, val (n - 1) / (c j).base⟩ : Ev K K) ∈ L := (hmem _ _).2 (Or.inl ⟨n - 1, by omega, rfl, rfl⟩)
  refine C160_second_evaluation_fails c ref i [(j, .ramp t0 target)] ?_ _ _ (by rw [hlst]; exact h0) (by rw [hlst]; exact h1) ?_ ?_ [] u u' q (by simp) hu hu' ?_ hq
  · intro x hx hxi
    simp only [List.mem_cons, List.not_mem_nil, or_false] at hx
    subst hx
    exact absurd hxi.symm hij
  · rw [hlst]
    intro e he
    obtain ⟨k, -, hk⟩ := hm e he
    rw [hk]
    have : 0 ≤ (k : K) * (c j).delT := mul_nonneg (Nat.cast_nonneg _) hdT.le
    simpa using this
  · rw [hlst]
    intro e he
    obtain ⟨k, hk, hk'⟩ := hm e he
    rw [hk']
    have hkn : (k : K) ≤ ((n - 1 : Nat) : K) := by exact_mod_cast (by omega : k ≤ n - 1)
    have := mul_le_mul_of_nonneg_right hkn hdT.le
    simpa using this
  · have hc : ((n - 1 : Nat) : K) = (n : K) - 1 := by rw [Nat.cast_sub (by omega)]; norm_num
    have h4 : |ref j * (c j).base - target| / 2 - 1 ≤ ((n - 1 : Nat) : K) := by rw [hc]; linarith
    have := mul_le_mul_of_nonneg_right h4 hdT.le
    show u' < t0 + ((n - 1 : Nat) : K) * (c j).delT
    linarith

example : (updSeq (reset ((after exC (fun _ => 7/5) [(0, .ramp 1 690)]).view 1)) [1, 3/2, 2, 4]) =
    [.ok (349/250), .error .unboundLocal, .error .unboundLocal, .ok (69/50)] := by decide +kernel

/-- A concrete case of the cut-off: DER 1 schedules 600 V at 5 s; then DER 0 schedules 700 V at 2 s.  DER 1 now follows DER 0's reference (outside its own
limits) and never its own. -/
theorem C160_example_cut_off :
    let w := after exC (fun _ => 11/10) [(1, .add 5 600), (0, .add 2 700)]
    (w.lst.map fun e => (e.T, e.v * 500)) = [(2, 700), (5, 600)] ∧ (exC 1).vmax < 700 ∧
    updSeq (reset (w.view 1)) [1, 2, 3, 4, 5, 6, 7] = [.ok (11/10), .ok (7/5), .ok (7/5), .ok (7/5), .ok (7/5), .ok (7/5), .ok (7/5)] := by decide +kernel

/-- A concrete case of the failure: DER 0 schedules references at 2 s and 5 s; DER 1, which scheduled nothing, gets the first and then fails. -/
theorem C160_example_fails :
    let w := after exC (fun _ => 11/10) [(0, .add 5 750), (0, .add 2 700)]
    updSeq (reset (w.view 1)) [1, 2, 3, 4, 5, 6] = [.ok (11/10), .ok (7/5), .error .unboundLocal, .error .unboundLocal, .ok (3/2), .ok (3/2)] := by decide +kernel

end VdcRef

namespace Eval
open Complex Phasor Ode VdcRef

variable {k : Cls} {g : SCfg} {h : Hid}

/-- The conditions of C99 except those on the DC reference schedule. -/
structure GoodElse (k : Cls) (g : SCfg) (h : Hid) : Prop where
  override : g.evc.overrideAngle = true
  msg : k.loadMsg = true ∨ g.standAlone = false
  ev : EvGood g.sp h.ev
  lf : h.rt.lfEnable = false
  ramp : g.restoreVdc = false
  meas : g.meas ≠ .invalid
  filt : g.meas = .filtered → h.filt ≠ none ∨ ∀ y, k.filt y ≠ none

theorem Good.else (hg : Good k g h) : GoodElse k g h := ⟨hg.override, hg.msg, hg.ev, hg.lf, hg.ramp, hg.meas, hg.filt⟩

/-- Under those conditions an evaluation raises exactly when the reference query does, and it leaves the reference variables as that query does. -/
theorem eval_by_refs (hg : GoodElse k g h) (hdc : k.dcRef = true) (c : Call k) :
    (∀ v, (updateRef (wNow h) c.t).2 = .ok v → (∃ e, (evalEnv k g c h).2 = .ok e) ∧ (evalEnv k g c h).1.rt.w = (updateRef (wNow h) c.t).1 ∧
      GoodElse k g (evalEnv k g c h).1) ∧
    (∀ x, (updateRef (wNow h) c.t).2 = .error x → (evalEnv k g c h).2 = .error x) := by
  have g0 : ∃ h', gridStage g c.t h = (h', .ok ()) ∧ EvGood g.sp h'.ev ∧ h'.filt = h.filt := by
    unfold gridStage Grid.steadyState
    split
    · obtain ⟨v, hv⟩ := Events.gridEvents_ok hg.override hg.ev.inv hg.ev.lim hg.ev.tight.grid c.t
      have := (evGood_query (cc := g.evc) hg.ev c.t).1
      rcases hq : Events.gridEvents g.evc g.sp h.ev c.t with ⟨ev, r⟩
      rw [hq] at hv this
      simp only at hv
      subst hv
      exact ⟨_, rfl, this, rfl⟩
    · exact ⟨h, rfl, hg.ev, rfl⟩
  obtain ⟨h1, e1, g1, f1⟩ := g0
  obtain ⟨h2, e2, g2⟩ := solar_good (k := k) (h := stateStage k c.y h1) g1 c.t
  obtain ⟨h3, e3, g3⟩ := load_good (k := k) (h := h2) hg.msg g2 c.jac c.t
  have a1 : h1.rt = h.rt := by have := grid_rt (g := g) (h := h) c.t; rw [e1] at this; exact this
  have a2 : h2.rt = h.rt := by have := solar_rt (k := k) (g := g) (h := stateStage k c.y h1) c.t; rw [e2] at this; exact this.trans a1
  have a3 : h3.rt = h.rt := by have := load_rt (k := k) (g := g) (h := h2) c.jac c.t; rw [e3] at this; exact this.trans a2
  have f2 : h2.filt = (stateStage k c.y h1).filt := by have := solar_filt (k := k) (g := g) (h := stateStage k c.y h1) c.t; rw [e2] at this; exact this
  have f3 : h3.filt = (stateStage k c.y h1).filt := by have := load_filt (k := k) (g := g) (h := h2) c.jac c.t; rw [e3] at this; exact this.trans f2
  have hw : wNow (qStage k g c h3) = wNow h := by
    show wNow { h3 with rt := { h3.rt with refs := { h3.rt.refs with Qref := _ } } } = _
    unfold wNow; rw [a3]
  constructor
  · intro v hv
    obtain ⟨h4, e4, w4, ev4⟩ : ∃ h4, dcStage k c.t (qStage k g c h3) = (h4, .ok ()) ∧ h4.rt.w = (updateRef (wNow h) c.t).1 ∧ h4.ev = h3.ev := by
      unfold dcStage
      rw [if_pos hdc, hw]
      generalize updateRef (wNow h) c.t = r at hv ⊢
      obtain ⟨w, r⟩ := r
      simp only at hv
      subst hv
      exact ⟨_, rfl, rfl, rfl⟩
    obtain ⟨w, v', h4e⟩ := dc_rt e4
    have f4 : h4.filt = (stateStage k c.y h1).filt := by rw [h4e]; exact f3
    have ee : evalEnv k g c h = rtStage k g c (freqStage k g c (irefStage k g c h4)) := by
      unfold evalEnv
      rw [e1]; simp only [andThen]
      rw [e2]; simp only
      rw [e3]; simp only
      rw [e4]
    set h5 := freqStage k g c (irefStage k g c h4) with hh5
    have r5 : h5.rt.w = h4.rt.w := by rw [hh5, freq_rt]; rfl
    have f5 : h5.filt = (stateStage k c.y h1).filt := by rw [hh5, freq_filt]; exact f4
    have v5 : EvGood g.sp h5.ev := by
      rw [hh5, freq_ev]
      show EvGood g.sp h4.ev
      rw [ev4]; exact g3
    have l5 : h5.rt.lfEnable = false := by
      rw [hh5, freq_rt]
      show h4.rt.lfEnable = false
      rw [h4e]
      show h3.rt.lfEnable = false
      rw [a3]; exact hg.lf
    have fnn : g.meas = .filtered → h5.filt ≠ none := by
      intro hm
      rw [f5]
      unfold stateStage
      dsimp only
      rcases hg.filt hm with hf | hf
      · cases hy : k.filt c.y with
        | some x => simp
        | none => simp only; rw [f1]; exact hf
      · cases hy : k.filt c.y with
        | some x => simp
        | none => exact absurd hy (hf _)
    have hmeas : ∀ en, ∃ v, measured k g h5 en = .ok v := by
      intro en
      unfold measured
      cases hm : g.meas with
      | minimum => exact ⟨_, rfl⟩
      | average => exact ⟨_, rfl⟩
      | invalid => exact absurd hm hg.meas
      | filtered =>
        cases hf : h5.filt with
        | none => exact absurd hf (fnn hm)
        | some x => exact ⟨x, rfl⟩
    have hmc : measCheck k g c.t h5 (envC k g c h5) = .ok () := by
      unfold measCheck
      obtain ⟨v, hv⟩ := hmeas (envC k g c h5)
      rw [hv]
      split_ifs <;> rfl
    obtain ⟨t1, t2, t3⟩ := RT.eval_total g.rt h5.rt ⟨c.t, measVal k g h5 (envC k g c h5), (envC k g c h5).we / (2 * Real.pi), refsOf (envC k g c h5)⟩ l5 hg.ramp
    have er : rtStage k g c h5 = ({ h5 with rt := (RT.eval g.rt h5.rt ⟨c.t, measVal k g h5 (envC k g c h5), (envC k g c h5).we / (2 * Real.pi), refsOf (envC k g c h5)⟩).1 },
        .ok (if (RT.eval g.rt h5.rt ⟨c.t, measVal k g h5 (envC k g c h5), (envC k g c h5).we / (2 * Real.pi), refsOf (envC k g c h5)⟩).1.connected then envC k g c h5
          else disc (envC k g c h5))) := by
      simp only [rtStage, hmc, t1]
    rw [ee, er]
    refine ⟨⟨_, rfl⟩, ?_, hg.override, hg.msg, v5, t3, hg.ramp, hg.meas, fun hm => Or.inl (fnn hm)⟩
    show (RT.eval g.rt h5.rt _).1.w = _
    rw [t2, r5, w4]
  · intro x hx
    have e4 : (dcStage k c.t (qStage k g c h3)).2 = .error x := by
      unfold dcStage
      rw [if_pos hdc, hw]
      generalize updateRef (wNow h) c.t = r at hx ⊢
      obtain ⟨w, r⟩ := r
      simp only at hx
      subst hx
      rfl
    unfold evalEnv
    rw [e1]; simp only [andThen]
    rw [e2]; simp only
    rw [e3]; simp only
    generalize dcStage k c.t (qStage k g c h3) = r at e4 ⊢
    obtain ⟨w, r⟩ := r
    simp only at e4
    subst e4
    rfl

/-- C160 at the level of the equations: a DER of a class with DC reference that scheduled no reference itself, while other DERs of the process scheduled
references from `e0` to `e1` (everything else in order).  Its first evaluation at or after `e0` succeeds, with or without disconnection, and each further
evaluation before `e1` raises `UnboundLocalError`. -/
theorem C160_equations_fail (hg : GoodElse k g h) (hdc : k.dcRef = true) (cf : Nat → VdcRef.Cfg ℝ) (ref : Nat → ℝ) (i : Nat)
    (calls : List (Nat × VdcRef.Op ℝ)) (hi : ∀ x ∈ calls, x.1 = i → x.2.schedules = false)
    (hw : h.rt.w = reset ((VdcRef.after cf ref calls).view i)) (e0 e1 : Ev ℝ ℝ)
    (h0 : e0 ∈ (VdcRef.after cf ref calls).lst) (h1 : e1 ∈ (VdcRef.after cf ref calls).lst)
    (hmin : ∀ e ∈ (VdcRef.after cf ref calls).lst, e0.T ≤ e.T) (hmax : ∀ e ∈ (VdcRef.after cf ref calls).lst, e.T ≤ e1.T)
    (c1 c2 : Call k) (ht1 : e0.T ≤ c1.t) (ht2 : e0.T ≤ c2.t) (hlt : c2.t < e1.T) :
    (∃ env, (evalEnv k g c1 h).2 = .ok env) ∧ (evalEnv k g c2 (evalEnv k g c1 h).1).2 = .error .unboundLocal := by
  have hs : StrictSorted (VdcRef.after cf ref calls).lst := (after_sane cf ref calls i).1
  have hT : ((VdcRef.after cf ref calls).view i).inst.total = 0 := total_kept cf i calls hi (winit ref)
  cases hl : (VdcRef.after cf ref calls).lst with
  | nil => rw [hl] at h0; simp at h0
  | cons a l =>
    obtain ⟨ha, hb⟩ := ends_of hs hl h0 h1 hmin hmax
    subst ha
    have hl1 : (wNow h).lst = e0 :: l := by unfold wNow; rw [hw]; exact hl
    have hT1 : (wNow h).inst.total = 0 := by unfold wNow; rw [hw]; exact hT
    have hc1 : (wNow h).inst.ctr = 0 := by unfold wNow; rw [hw]; rfl
    have hpb : playback (wNow h).lst (wNow h).inst.total (wNow h).inst.ctr (wNow h).inst.ref c1.t = (-1, .ok e0.v) := by
      rw [hl1, hT1, hc1]
      unfold playback
      have hg0 : pyGet (e0 :: l) 0 = some e0 := rfl
      simp only [if_neg (not_lt.2 ht1), hg0]
      rw [if_neg (fun hh : c1.t < e0.T ∧ (0 : Int) ≥ 1 => absurd hh.1 (not_lt.2 ht1)), if_pos ht1]
      rfl
    have hctr : (updateRef (wNow h) c1.t).1.inst.ctr = -1 := by unfold updateRef getRef; rw [hpb]
    have hok : (updateRef (wNow h) c1.t).2 = .ok e0.v := by unfold updateRef getRef; rw [hpb]
    obtain ⟨r1, r2, r3⟩ := (eval_by_refs hg hdc c1).1 _ hok
    refine ⟨r1, (eval_by_refs r3 hdc c2).2 _ ?_⟩
    have lost := updSeq_lost (wNow (evalEnv k g c1 h).1) (e0 := e0) (l := l)
      (by show (evalEnv k g c1 h).1.rt.w.lst = _; rw [r2, (update_frame _ _).1, hl1])
      (by show (evalEnv k g c1 h).1.rt.w.inst.total = _; rw [r2, (update_frame _ _).2, hT1])
      (by show (evalEnv k g c1 h).1.rt.w.inst.ctr = _; rw [r2, hctr]) [c2.t] (by simpa using ht2)
    rw [← hb] at lost
    simpa [updSeq, not_le.2 hlt] using lost

/-- The configuration of C99 with any events added by the user, in a process in which another DER scheduled 600 V at 2 s and 620 V at 5 s: the evaluation at 3 s
succeeds, the one at 4 s fails. -/
theorem C160_equations_example (k : Cls) (hdc : k.dcRef = true) (p : Par) (sa : Bool) (hm : k.loadMsg = true ∨ sa = false) (ops : List (Events.Op ℝ))
    (hno : ∀ o ∈ ops, o.isRemoval = false) (c1 c2 : Call k) (h3 : c1.t = 3) (h4 : c2.t = 4) :
    let g := exG p sa
    let H := exH g (Events.run g.evc (Events.init true true true) (ops.map fun o => (g.sp, o)))
    let cf : Nat → VdcRef.Cfg ℝ := fun _ => g.vdcCfg
    let w := VdcRef.after cf (fun _ => 11 / 10) [(0, .add 2 600), (0, .add 5 620)]
    let h : Hid := { H with rt := { H.rt with w := reset (w.view 1) } }
    (∃ env, (evalEnv k g c1 h).2 = .ok env) ∧ (evalEnv k g c2 (evalEnv k g c1 h).1).2 = .error .unboundLocal := by
  intro g H cf w h
  have hG : GoodElse k g h := by
    have := (ex_good k p sa hm ops hno).else
    exact ⟨this.override, this.msg, this.ev, this.lf, this.ramp, this.meas, this.filt⟩
  have hl : w.lst = [⟨2, 600 / 500⟩, ⟨5, 620 / 500⟩] := by
    simp only [w, VdcRef.after, List.foldl, wstep, step, addRef, winit, cf, g, exG]
    norm_num [addTimed, removeAt, removeLoop, sortByT, List.insertionSort, List.orderedInsert]
  refine C160_equations_fail hG hdc cf (fun _ => 11 / 10) 1 [(0, .add 2 600), (0, .add 5 620)] (by simp) rfl ⟨2, 600 / 500⟩ ⟨5, 620 / 500⟩ ?_ ?_ ?_ ?_ c1 c2 ?_ ?_ ?_
  · show _ ∈ w.lst; rw [hl]; simp
  · show _ ∈ w.lst; rw [hl]; simp
  · show ∀ e ∈ w.lst, _; rw [hl]; simp; norm_num
  · show ∀ e ∈ w.lst, _; rw [hl]; simp; norm_num
  · rw [h3]; norm_num
  · rw [h4]; norm_num
  · rw [h4]; norm_num

end Eval
end PvDer
