import Verif.Model.VdcRef
import Verif.Props.Events
import Mathlib.Tactic.Linarith
import Mathlib.Tactic.FieldSimp
import Mathlib.Tactic.Ring
import Mathlib.Tactic.LinearCombination
import Mathlib.Tactic.NormNum
import Mathlib.Tactic.Positivity
import Mathlib.Data.Rat.Floor

/-!
# Properties C43–C46: the DC link voltage reference
-/

set_option linter.unusedSectionVars false

namespace PvDer
namespace VdcRef

variable {K : Type} [Field K] [LinearOrder K] [IsStrictOrderedRing K]

/-! ### C43 -/

/-- C43: a reference is accepted exactly when feasible; then the schedule (as a map) is updated at exactly that time; otherwise `ValueError` and nothing
changes. -/
theorem C43_add (c : Cfg K) (s : St K) (hs : StrictSorted s.lst) (t V : K) :
    ((addRef c s t V).2 = .ok () ↔ c.vmin ≤ V ∧ V ≤ c.vmax) ∧
    ((addRef c s t V).2 ≠ .ok () → addRef c s t V = (s, .error .valueError)) ∧
    ((addRef c s t V).2 = .ok () → StrictSorted (addRef c s t V).1.lst ∧
      ∀ T v, Holds (addRef c s t V).1.lst T v ↔ (T = t ∧ v = V / c.base) ∨ (T ≠ t ∧ Holds s.lst T v)) := by
  unfold addRef
  split_ifs with h
  · refine ⟨⟨by simp, fun hh => ?_⟩, fun _ => rfl, by simp⟩
    rcases h with h | h
    · exact absurd hh.1 (not_le.2 h)
    · exact absurd hh.2 (not_le.2 h)
  · push Not at h
    exact ⟨⟨fun _ => h, fun _ => rfl⟩, fun hh => absurd rfl hh,
      fun _ => ⟨addTimed_sorted _ _ hs, fun T v => Events.C03_map_update hs t _ T v⟩⟩

/-- The schedule `l` is canonical and each entry is feasible for some instance accepted by `P`. -/
def Good (c : Nat → Cfg K) (P : Nat → Prop) (l : List (Ev K K)) : Prop :=
  StrictSorted l ∧ ∀ e ∈ l, ∃ j, P j ∧ (c j).vmin ≤ e.v * (c j).base ∧ e.v * (c j).base ≤ (c j).vmax

theorem good_add {c : Nat → Cfg K} {P : Nat → Prop} {j : Nat} (hj : P j) (hb : (c j).base ≠ 0) {s : St K} (h : Good c P s.lst) (t V : K) :
    Good c P (addRef (c j) s t V).1.lst := by
  unfold addRef
  split_ifs with hh
  · exact h
  · push Not at hh
    refine ⟨addTimed_sorted _ _ h.1, fun e he => ?_⟩
    rcases (mem_addTimed _ _ h.1 e).1 he with rfl | ⟨he, _⟩
    · exact ⟨j, hj, by rw [div_mul_cancel₀ _ hb]; exact hh.1, by rw [div_mul_cancel₀ _ hb]; exact hh.2⟩
    · exact h.2 e he

theorem good_addLoop {c : Nat → Cfg K} {P : Nat → Prop} {j : Nat} (hj : P j) (hb : (c j).base ≠ 0) (ts vs : List K) {s : St K}
    (h : Good c P s.lst) : Good c P (addLoop (c j) s ts vs).1.lst := by
  induction vs generalizing s ts with
  | nil => cases ts <;> exact h
  | cons v vs ih =>
    cases ts with
    | nil => exact h
    | cons t ts =>
      have hg := good_add hj hb h t v
      unfold addLoop
      generalize addRef (c j) s t v = r at hg
      obtain ⟨s', e⟩ := r
      cases e with
      | error e => exact hg
      | ok _ => exact ih ts hg

theorem good_ramp [FloorSemiring K] {c : Nat → Cfg K} {P : Nat → Prop} {j : Nat} (hj : P j) (hb : (c j).base ≠ 0) {s : St K}
    (h : Good c P s.lst) (t target : K) : Good c P (ramp (c j) s t target).1.lst := by
  have hl : (getRef s t).1.lst = s.lst := rfl
  unfold ramp
  generalize getRef s t = r at hl
  obtain ⟨s1, e⟩ := r
  simp only at hl
  rw [← hl] at h
  cases e with
  | error e => exact h
  | ok v =>
    simp only
    generalize hd : (if v * (c j).base > target then -s1.inst.del else s1.inst.del) = del
    split_ifs
    · exact good_add hj hb h _ _
    · exact h
    · exact h
    · exact good_addLoop hj hb _ _ h

theorem good_step [FloorSemiring K] {c : Nat → Cfg K} {P : Nat → Prop} {j : Nat} (hj : P j) (hb : (c j).base ≠ 0) {s : St K}
    (h : Good c P s.lst) (o : Op K) : Good c P (step (c j) s o).lst := by
  cases o with
  | add t V => exact good_add hj hb h t V
  | get t => exact h
  | update t =>
    have : (updateRef s t).1.lst = s.lst := by unfold updateRef; split <;> (rename_i hh; rw [← (show (getRef s t).1.lst = s.lst from rfl), hh])
    show Good c P (updateRef s t).1.lst
    rw [this]; exact h
  | ramp t target => exact good_ramp hj hb h t target
  | reset => exact h

/-- C43: after every history of calls (adds, queries, updates, ramps — succeeding or failing, on any instances) the schedule is strictly increasing in
time, and each stored reference is within the limits of one of the instances used. -/
theorem C43_canonical_feasible [FloorSemiring K] (c : Nat → Cfg K) (hb : ∀ j, (c j).base ≠ 0) (ref : Nat → K) (calls : List (Nat × Op K)) :
    let w := calls.foldl (wstep c) (winit ref)
    StrictSorted w.lst ∧ ∀ e ∈ w.lst, ∃ j, (∃ x ∈ calls, x.1 = j) ∧ (c j).vmin ≤ e.v * (c j).base ∧ e.v * (c j).base ≤ (c j).vmax := by
  intro w
  have key : ∀ (l : List (Nat × Op K)) (w : World K), (∀ x ∈ l, x ∈ calls) → Good c (fun j => ∃ x ∈ calls, x.1 = j) w.lst →
      Good c (fun j => ∃ x ∈ calls, x.1 = j) (l.foldl (wstep c) w).lst := by
    intro l
    induction l with
    | nil => intro w _ h; exact h
    | cons x l ih =>
      intro w hl h
      rw [List.foldl_cons]
      refine ih _ (fun y hy => hl y (by simp [hy])) ?_
      exact good_step (s := ⟨w.lst, w.inst x.1⟩) (c := c) (j := x.1) ⟨x, hl x (by simp), rfl⟩ (hb _) h x.2
  exact key calls (winit ref) (fun _ h => h) ⟨List.Pairwise.nil, by simp [winit]⟩

/-- C43 for one DER: if only one instance is used, every stored reference lies between `Vdcmpp_min` and `Vdcmpp_max`. -/
theorem C43_one_instance [FloorSemiring K] (c : Nat → Cfg K) (hb : ∀ j, (c j).base ≠ 0) (ref : Nat → K) (i : Nat) (calls : List (Op K)) :
    let w := (calls.map fun o => (i, o)).foldl (wstep c) (winit ref)
    StrictSorted w.lst ∧ ∀ e ∈ w.lst, (c i).vmin ≤ e.v * (c i).base ∧ e.v * (c i).base ≤ (c i).vmax := by
  intro w
  obtain ⟨h1, h2⟩ := C43_canonical_feasible c hb ref (calls.map fun o => (i, o))
  refine ⟨h1, fun e he => ?_⟩
  obtain ⟨j, ⟨x, hx, rfl⟩, h⟩ := h2 e he
  obtain ⟨o, _, rfl⟩ := List.mem_map.1 hx
  exact h

/-- Limits of two DERs used in the concrete cases (the '10' and '50' modules, base 500 V). -/
def exC : Nat → Cfg ℚ := fun j => if j = 0 then ⟨650, 800, 500, 1/2⟩ else ⟨520, 640, 500, 1/2⟩

/-- Defect (class attribute): a reference added on DER 0 is in the schedule of DER 1, outside the latter's limits, and is returned there … -/
theorem C43_shared_between_instances :
    let w := [(0, Op.add 1 750)].foldl (wstep exC) (winit fun _ => 11/10)
    (∃ e ∈ w.lst, (exC 1).vmax < e.v * (exC 1).base) ∧ (getRef ⟨w.lst, w.inst 1⟩ 2).2 = .ok (750 / 500) := by decide +kernel

/-- … and leaves the other DER's counter at -1, because its stored total is still 0. -/
theorem C43_shared_breaks_counter :
    let w := [(0, Op.add 1 750), (1, Op.get 2)].foldl (wstep exC) (winit fun _ => 11/10)
    (w.inst 1).ctr = -1 := by decide +kernel

example : (([(0, Op.add 5 700), (0, .add 1 750), (0, .add 5 660), (0, .add 3 900), (0, .ramp 6 746), (0, .update 2)].foldl (wstep exC)
    (winit fun _ => 7/5)).lst.map fun e => (e.T, e.v * 500)) = [(1, 750), (5, 660), (6, 748), (13/2, 746)] := by decide +kernel

/-! ### C44 -/

theorem playback_dflt {l : List (Ev K K)} {e0 : Ev K K} {l' : List (Ev K K)} (hl : l = e0 :: l') (total ctr : Int) (d d' t : K) (ht : e0.T ≤ t) :
    playback l total ctr d t = playback l total ctr d' t := by
  subst hl
  unfold playback
  simp only [if_neg (not_lt.2 ht)]

theorem playSeq_dflt {l : List (Ev K K)} {e0 : Ev K K} {l' : List (Ev K K)} (hl : l = e0 :: l') (total ctr : Int) (d d' : K) (ts : List K)
    (ht : ∀ t ∈ ts, e0.T ≤ t) : playSeq l total ctr d ts = playSeq l total ctr d' ts := by
  induction ts generalizing ctr with
  | nil => rfl
  | cons t ts ih =>
    unfold playSeq
    rw [playback_dflt hl total ctr d d' t (ht t (by simp)), ih _ (fun t h => ht t (by simp [h]))]

/-- Storing the result back into the present reference does not disturb a forward query sequence. -/
theorem updSeq_eq (s : St K) (ts : List K) (hf : ts.Pairwise (· ≤ ·)) :
    updSeq s ts = playSeq s.lst s.inst.total s.inst.ctr s.inst.ref ts := by
  induction ts generalizing s with
  | nil => rfl
  | cons t ts ih =>
    rw [List.pairwise_cons] at hf
    have h2 : (updateRef s t).2 = (playback s.lst s.inst.total s.inst.ctr s.inst.ref t).2 := by
      unfold updateRef getRef
      generalize playback s.lst s.inst.total s.inst.ctr s.inst.ref t = r
      obtain ⟨c, r⟩ := r
      cases r <;> rfl
    have h1 : (updateRef s t).1.lst = s.lst ∧ (updateRef s t).1.inst.total = s.inst.total ∧
        (updateRef s t).1.inst.ctr = (playback s.lst s.inst.total s.inst.ctr s.inst.ref t).1 ∧
        (∀ v, (playback s.lst s.inst.total s.inst.ctr s.inst.ref t).2 = .ok v → (updateRef s t).1.inst.ref = v) ∧
        (∀ e, (playback s.lst s.inst.total s.inst.ctr s.inst.ref t).2 = .error e → (updateRef s t).1.inst.ref = s.inst.ref) := by
      unfold updateRef getRef
      generalize playback s.lst s.inst.total s.inst.ctr s.inst.ref t = r
      obtain ⟨c, r⟩ := r
      cases r <;> simp
    unfold updSeq playSeq
    rw [h2, ih _ hf.2, h1.1, h1.2.1, h1.2.2.1]
    congr 1
    cases hl : s.lst with
    | nil =>
      have hp : playback s.lst s.inst.total s.inst.ctr s.inst.ref t = (s.inst.ctr, .ok s.inst.ref) := by rw [hl]; rfl
      rw [h1.2.2.2.1 s.inst.ref (by rw [hp])]
    | cons e0 l' =>
      by_cases ht : t < e0.T
      · have hp : playback s.lst s.inst.total s.inst.ctr s.inst.ref t = (s.inst.ctr, .ok s.inst.ref) := by
          rw [hl]; simp only [playback, if_pos ht]
        rw [h1.2.2.2.1 s.inst.ref (by rw [hp])]
      · rw [not_lt] at ht
        exact playSeq_dflt rfl _ _ _ _ _ (fun t' h' => ht.trans (hf.1 t' h'))

theorem dense_forward {α : Type} {l : List (Ev K α)} {prev : Option K} {ts : List K} (h : Dense l prev ts) :
    (∀ a, prev = some a → ∀ t ∈ ts, a ≤ t) ∧ ts.Pairwise (· ≤ ·) := by
  induction ts generalizing prev with
  | nil => exact ⟨by simp, List.Pairwise.nil⟩
  | cons t ts ih =>
    obtain ⟨h1, h2, h3⟩ := h
    obtain ⟨a, b⟩ := ih h3
    refine ⟨fun x hx t' ht' => ?_, List.pairwise_cons.2 ⟨a t rfl, b⟩⟩
    rcases List.mem_cons.1 ht' with rfl | ht'
    · exact h1 x hx
    · exact (h1 x hx).trans (a t rfl t' ht')

/-- C44: with reset counter and a schedule this instance filled (its total is the list length), along every dense forward sequence of `update_Vdc_ref`
calls of any length, each returns — and stores — the latest reference with time ≤ query time, and the present reference before the first entry.  (Same for
`get_Vdc_ref`.) -/
theorem C44_playback (s : St K) (hs : StrictSorted s.lst) (hT : s.lst ≠ [] → s.inst.total = s.lst.length) (ts : List K) (hd : Dense s.lst none ts) :
    List.Forall₂ (fun t r => ∃ v, r = Except.ok v ∧ Correct s.lst s.inst.ref t v) ts (updSeq (reset s) ts) ∧
    List.Forall₂ (fun t r => ∃ v, r = Except.ok v ∧ Correct s.lst s.inst.ref t v) ts (playSeq s.lst s.inst.total 0 s.inst.ref ts) := by
  have h := Events.playSeq_reset_dense hs hT s.inst.ref ts hd
  refine ⟨?_, h⟩
  rw [updSeq_eq _ _ (dense_forward hd).2]
  exact h

/-- C44: along arbitrary forward sequences no query fails or returns a future reference. -/
theorem C44_no_future (s : St K) (hs : StrictSorted s.lst) (hT : s.lst ≠ [] → s.inst.total = s.lst.length) (ts : List K)
    (hf : ts.Pairwise (· ≤ ·)) :
    List.Forall₂ (fun t r => ∃ v, r = Except.ok v ∧ (v = s.inst.ref ∨ ∃ e ∈ s.lst, e.T ≤ t ∧ v = e.v)) ts (updSeq (reset s) ts) := by
  rw [updSeq_eq _ _ hf]
  exact Events.playSeq_past hs hT _ ts hf

/-- The hypothesis on the total holds after any history of calls on a single instance that starts with an empty list. -/
theorem C44_total_matches [FloorSemiring K] (c : Cfg K) (ref del : K) (ops : List (Op K)) :
    let s := ops.foldl (step c) ⟨[], ⟨0, 0, ref, del⟩⟩
    StrictSorted s.lst ∧ s.inst.total = s.lst.length := by
  have hadd : ∀ (s : St K) t V, (StrictSorted s.lst ∧ s.inst.total = s.lst.length) →
      (StrictSorted (addRef c s t V).1.lst ∧ (addRef c s t V).1.inst.total = (addRef c s t V).1.lst.length) := by
    intro s t V h
    unfold addRef
    split_ifs
    · exact h
    · exact ⟨addTimed_sorted _ _ h.1, rfl⟩
  have hloop : ∀ (vs ts : List K) (s : St K), (StrictSorted s.lst ∧ s.inst.total = s.lst.length) →
      (StrictSorted (addLoop c s ts vs).1.lst ∧ (addLoop c s ts vs).1.inst.total = (addLoop c s ts vs).1.lst.length) := by
    intro vs
    induction vs with
    | nil => intro ts s h; cases ts <;> exact h
    | cons v vs ih =>
      intro ts s h
      cases ts with
      | nil => exact h
      | cons t ts =>
        have hg := hadd s t v h
        unfold addLoop
        generalize addRef c s t v = r at hg
        obtain ⟨s', e⟩ := r
        cases e with
        | error e => exact hg
        | ok _ => exact ih ts _ hg
  have hstep : ∀ (s : St K) o, (StrictSorted s.lst ∧ s.inst.total = s.lst.length) →
      (StrictSorted (step c s o).lst ∧ (step c s o).inst.total = (step c s o).lst.length) := by
    intro s o h
    cases o with
    | add t V => exact hadd s t V h
    | get t => exact h
    | update t =>
      show StrictSorted (updateRef s t).1.lst ∧ (updateRef s t).1.inst.total = (updateRef s t).1.lst.length
      unfold updateRef getRef
      generalize playback s.lst s.inst.total s.inst.ctr s.inst.ref t = r
      obtain ⟨c, r⟩ := r
      cases r <;> exact h
    | ramp t target =>
      show StrictSorted (ramp c s t target).1.lst ∧ (ramp c s t target).1.inst.total = (ramp c s t target).1.lst.length
      unfold ramp getRef
      generalize playback s.lst s.inst.total s.inst.ctr s.inst.ref t = r
      obtain ⟨c', r⟩ := r
      cases r with
      | error e => exact h
      | ok v =>
        simp only
        generalize (if v * c.base > target then -s.inst.del else s.inst.del) = del
        split_ifs
        · exact hadd _ _ _ h
        · exact h
        · exact h
        · exact hloop _ _ _ h
    | reset => exact h
  intro s
  show StrictSorted s.lst ∧ _
  simp only [s]
  have : ∀ (l : List (Op K)) (s : St K), (StrictSorted s.lst ∧ s.inst.total = s.lst.length) →
      (StrictSorted (l.foldl (step c) s).lst ∧ (l.foldl (step c) s).inst.total = (l.foldl (step c) s).lst.length) := by
    intro l
    induction l with
    | nil => intro s h; exact h
    | cons o l ih => intro s h; exact ih _ (hstep s o h)
  exact this ops _ ⟨List.Pairwise.nil, rfl⟩

/-- Concrete schedule for C44. -/
def exSt : St ℚ := [Op.add 1 700, .add 2 720, .add 3 740].foldl (step (exC 0)) ⟨[], ⟨0, 0, 7/5, 2⟩⟩

example : StrictSorted exSt.lst ∧ exSt.inst.total = exSt.lst.length ∧
    updSeq (reset exSt) [0, 1, 3/2, 2, 3, 4] = [.ok (7/5), .ok (7/5), .ok (7/5), .ok (36/25), .ok (37/25), .ok (37/25)] := by
  refine ⟨(C44_total_matches (exC 0) (7/5) 2 _).1, (C44_total_matches (exC 0) (7/5) 2 _).2, by decide +kernel⟩

/-! ### C45 -/

theorem addLoop_ok (c : Cfg K) (ts vs : List K) (hlen : vs.length ≤ ts.length) (hv : ∀ v ∈ vs, c.vmin ≤ v ∧ v ≤ c.vmax)
    (hT : ts.Pairwise (· < ·)) (s : St K) (hs : StrictSorted s.lst) :
    (addLoop c s ts vs).2 = .ok () ∧ StrictSorted (addLoop c s ts vs).1.lst ∧ (addLoop c s ts vs).1.inst.del = s.inst.del ∧
      (addLoop c s ts vs).1.inst.ref = s.inst.ref ∧
      ∀ T v, Holds (addLoop c s ts vs).1.lst T v ↔
        (∃ x ∈ ts.zip vs, x.1 = T ∧ v = x.2 / c.base) ∨ ((∀ x ∈ ts.zip vs, x.1 ≠ T) ∧ Holds s.lst T v) := by
  induction vs generalizing s ts with
  | nil => cases ts <;> exact ⟨rfl, hs, rfl, rfl, by simp [addLoop]⟩
  | cons v0 vs ih =>
    cases ts with
    | nil => simp at hlen
    | cons t ts =>
      rw [List.pairwise_cons] at hT
      have hvv := hv v0 (by simp)
      have heq : addRef c s t v0 = (⟨addTimed t (v0 / c.base) s.lst, { s.inst with total := (addTimed t (v0 / c.base) s.lst).length }⟩, .ok ()) := by
        unfold addRef
        rw [if_neg (by push Not; exact hvv)]
      unfold addLoop
      rw [heq]
      simp only
      obtain ⟨i1, i2, i3, i3', i4⟩ := ih ts (by simpa using hlen) (fun y hy => hv y (by simp [hy])) hT.2
        ⟨addTimed t (v0 / c.base) s.lst, { s.inst with total := (addTimed t (v0 / c.base) s.lst).length }⟩ (addTimed_sorted _ _ hs)
      refine ⟨i1, i2, i3, i3', ?_⟩
      intro T v
      rw [i4 T v]
      have hm : Holds (addTimed t (v0 / c.base) s.lst) T v ↔ (T = t ∧ v = v0 / c.base) ∨ (T ≠ t ∧ Holds s.lst T v) := Events.C03_map_update hs t _ T v
      rw [hm, List.zip_cons_cons]
      constructor
      · rintro (⟨y, hy, rfl, rfl⟩ | ⟨hn, ⟨rfl, rfl⟩ | ⟨hne, hh⟩⟩)
        · exact Or.inl ⟨y, by simp [hy], rfl, rfl⟩
        · exact Or.inl ⟨(T, v0), by simp, rfl, rfl⟩
        · right
          refine ⟨?_, hh⟩
          intro y hy
          rcases List.mem_cons.1 hy with rfl | hy
          · exact hne.symm
          · exact hn y hy
      · rintro (⟨y, hy, hyT, rfl⟩ | ⟨hn, hh⟩)
        · rcases List.mem_cons.1 hy with rfl | hy
          · right
            refine ⟨?_, Or.inl ⟨hyT.symm, rfl⟩⟩
            intro z hz
            rw [← hyT]
            exact (ne_of_lt (hT.1 z.1 (List.of_mem_zip hz).1)).symm
          · exact Or.inl ⟨y, hy, hyT, rfl⟩
        · exact Or.inr ⟨fun y hy => hn y (by simp [hy]), Or.inr ⟨(hn (t, v0) (by simp)).symm, hh⟩⟩

theorem arange_pairwise [FloorSemiring K] (a b d : K) (hd : 0 < d) : (arange a b d).Pairwise (· < ·) := by
  unfold arange
  rw [List.pairwise_map]
  refine List.pairwise_lt_range.imp ?_
  intro x y hxy
  have : (x : K) < y := by exact_mod_cast hxy
  have := mul_lt_mul_of_pos_right this hd
  linarith

/-- C45 (the part that holds).  With a positive step (as initially), a start value `v·base` (what the query at `tstart` returns) further than one step from
the target, and feasible start and target, `Vdc_ref_ramp` succeeds in either direction: the schedule is overwritten at exactly the `n` points
`tstart + i·delT` with references moving monotonically, one step at a time, from one step off the start to exactly the target.  What is missing for the full
claim: the step stored afterwards is negative after a downward ramp, see `C45_second_ramp_fails` and `C45_negative_step_always_fails`. -/
theorem C45_ramp_partial [FloorSemiring K] (c : Cfg K) (hb : c.base ≠ 0) (hdT : 0 < c.delT) (hdT1 : c.delT ≤ 1) (s : St K) (hs : StrictSorted s.lst)
    (tstart target v : K) (hq : (getRef s tstart).2 = .ok v) (hdel : 0 < s.inst.del) (hfar : s.inst.del < |v * c.base - target|)
    (hv : c.vmin ≤ v * c.base ∧ v * c.base ≤ c.vmax) (ht : c.vmin ≤ target ∧ target ≤ c.vmax) :
    let r := ramp c s tstart target
    let sg : K := if v * c.base > target then -1 else 1
    r.2 = .ok () ∧ StrictSorted r.1.lst ∧ r.1.inst.del = sg * s.inst.del ∧
    ∃ (n : Nat) (val : Nat → K), 2 ≤ n ∧ val (n - 1) = target ∧
      (∀ i, i + 1 < n → val i = v * c.base + sg * ((i : K) + 1) * s.inst.del) ∧
      (∀ i, i + 1 < n → 0 < sg * (val (i + 1) - val i)  ∧ sg * (val (i + 1) - val i) ≤ s.inst.del) ∧
      (∀ T w, Holds r.1.lst T w ↔ (∃ i < n, T = tstart + i * c.delT ∧ w = val i / c.base) ∨
        ((∀ i < n, T ≠ tstart + i * c.delT) ∧ Holds s.lst T w)) := by
  intro r sg
  set S := v * c.base with hS
  have hq' : getRef s tstart = ((getRef s tstart).1, .ok v) := by rw [← hq]
  have hl1 : (getRef s tstart).1.lst = s.lst := rfl
  have hd1 : (getRef s tstart).1.inst.del = s.inst.del := rfl
  generalize (getRef s tstart).1 = s1 at hq' hl1 hd1
  have hsg : sg = 1 ∨ sg = -1 := by simp only [sg]; split_ifs <;> simp
  have hsq : sg * sg = 1 := by rcases hsg with h | h <;> rw [h] <;> ring
  have hdist : |S - target| = sg * (target - S) := by
    simp only [sg]
    split_ifs with h
    · rw [abs_of_pos (by linarith)]; ring
    · rw [abs_of_nonpos (by linarith)]; ring
  set d := s.inst.del with hd
  have hdelv : (if S > target then -d else d) = sg * d := by simp only [sg]; split_ifs <;> ring
  have hne0 : sg * d ≠ 0 := mul_ne_zero (by rcases hsg with h | h <;> rw [h] <;> norm_num) hdel.ne'
  set D := sg * (target - S) with hD
  have hDd : d < D := by rw [← hdist]; exact hfar
  set n := ⌈D / d⌉₊ with hn
  have hquot : (target + sg * d - (S + sg * d)) / (sg * d) = D / d := by
    rw [hD, div_eq_div_iff hne0 hdel.ne']
    linear_combination (-(target - S) * d) * hsq
  have hrng : arange (S + sg * d) (target + sg * d) (sg * d) = (List.range n).map (fun i : Nat => S + sg * d + (i : K) * (sg * d)) := by
    unfold arange; rw [hquot]
  have hlt : ∀ i : Nat, i < n ↔ (i : K) * d < D := by
    intro i; rw [hn, Nat.lt_ceil, lt_div_iff₀ hdel]
  have hn2 : 2 ≤ n := (hlt 1).2 (by simpa using hDd)
  set rng := arange (S + sg * d) (target + sg * d) (sg * d) with hrngd
  have hlen : rng.length = n := by rw [hrng]; simp
  have hne : rng ≠ [] := by intro h; rw [h] at hlen; simp at hlen; omega
  set val : Nat → K := fun i => if i + 1 < n then S + sg * ((i : K) + 1) * d else target with hval
  have hvals : rng.dropLast ++ [target] = (List.range n).map val := by
    obtain ⟨m, hm⟩ : ∃ m, n = m + 1 := ⟨n - 1, by omega⟩
    rw [hrng, hm, List.range_succ, List.map_append, List.map_append]
    simp only [List.map_cons, List.map_nil, List.dropLast_concat]
    congr 1
    · apply List.map_congr_left
      intro i hi
      have := List.mem_range.1 hi
      simp only [hval, hm]
      rw [if_pos (by omega)]; ring
    · simp only [hval, hm]; simp
  have htr : ∃ m, n ≤ m ∧ arange tstart (tstart + (rng.length : K)) c.delT = (List.range m).map (fun i : Nat => tstart + (i : K) * c.delT) := by
    refine ⟨_, ?_, rfl⟩
    rw [hlen]
    have : (n : K) ≤ (tstart + (n : K) - tstart) / c.delT := by
      rw [le_div_iff₀ hdT]
      have : (n : K) * c.delT ≤ n * 1 := mul_le_mul_of_nonneg_left hdT1 (Nat.cast_nonneg _)
      linarith
    exact_mod_cast this.trans (Nat.le_ceil _)
  obtain ⟨m, hnm, htr⟩ := htr
  set s2 : St K := { s1 with inst := { s1.inst with del := sg * d } } with hs2
  have hr : r = addLoop c s2 ((List.range m).map (fun i : Nat => tstart + (i : K) * c.delT)) ((List.range n).map val) := by
    show ramp c s tstart target = _
    unfold ramp
    rw [hq']
    simp only
    rw [hd1, if_neg (not_le.2 hfar), hdelv, if_neg hne0, if_neg hne, htr, hvals]
  have hstep : ∀ i, i + 1 < n → 0 < sg * (val (i + 1) - val i) ∧ sg * (val (i + 1) - val i) ≤ d := by
    intro i hi
    have h1 : ((i + 1 : Nat) : K) * d < D := (hlt (i + 1)).1 hi
    push_cast at h1
    simp only [hval]
    rw [if_pos hi]
    split_ifs with h2
    · have : sg * (S + sg * (((i + 1 : Nat) : K) + 1) * d - (S + sg * ((i : K) + 1) * d)) = d := by
        push_cast; linear_combination d * hsq
      rw [this]; exact ⟨hdel, le_rfl⟩
    · have h3 : ¬ ((i + 2 : Nat) : K) * d < D := fun h => h2 ((hlt (i + 2)).2 h)
      push_cast at h3
      have : sg * (target - (S + sg * ((i : K) + 1) * d)) = D - ((i : K) + 1) * d := by
        rw [hD]; linear_combination (-((i : K) + 1) * d) * hsq
      rw [this]
      constructor
      · linarith
      · linarith
  have hfeas : ∀ w ∈ (List.range n).map val, c.vmin ≤ w ∧ w ≤ c.vmax := by
    intro w hw
    obtain ⟨i, hi, rfl⟩ := List.mem_map.1 hw
    simp only [hval]
    split_ifs with h
    · have h1 : ((i + 1 : Nat) : K) * d < D := (hlt (i + 1)).1 h
      push_cast at h1
      have h0 : 0 ≤ ((i : K) + 1) * d := by positivity
      rw [hD] at h1
      rcases hsg with hh | hh <;> rw [hh] at h1 ⊢
      · constructor <;> linarith [hv.1, hv.2, ht.1, ht.2]
      · constructor <;> linarith [hv.1, hv.2, ht.1, ht.2]
    · exact ht
  have hpw : ((List.range m).map (fun i : Nat => tstart + (i : K) * c.delT)).Pairwise (· < ·) := htr ▸ arange_pairwise _ _ _ hdT
  obtain ⟨k1, k2, k3, _, k4⟩ := addLoop_ok c _ _ (by simpa using hnm) hfeas hpw s2 (by rw [hs2]; simp only; rw [hl1]; exact hs)
  have hzip : ((List.range m).map (fun i : Nat => tstart + (i : K) * c.delT)).zip ((List.range n).map val) =
      (List.range n).map (fun i : Nat => (tstart + (i : K) * c.delT, val i)) := by
    apply List.ext_getElem
    · simp; omega
    · intro i h1 h2; simp
  rw [hr]
  refine ⟨k1, k2, k3, n, val, hn2, ?_, ?_, hstep, ?_⟩
  · simp only [hval]; rw [if_neg (by omega)]
  · intro i hi; simp only [hval]; rw [if_pos hi]
  · intro T w
    rw [k4 T w, hzip]
    have : s2.lst = s.lst := hl1
    rw [this]
    constructor
    · rintro (⟨x, hx, rfl, rfl⟩ | ⟨hne, hh⟩)
      · obtain ⟨i, hin, rfl⟩ := List.mem_map.1 hx
        exact Or.inl ⟨i, List.mem_range.1 hin, rfl, rfl⟩
      · exact Or.inr ⟨fun i hin he => hne _ (List.mem_map.2 ⟨i, List.mem_range.2 hin, rfl⟩) he.symm, hh⟩
    · rintro (⟨i, hin, rfl, rfl⟩ | ⟨hne, hh⟩)
      · exact Or.inl ⟨_, List.mem_map.2 ⟨i, List.mem_range.2 hin, rfl⟩, rfl, rfl⟩
      · refine Or.inr ⟨?_, hh⟩
        intro x hx he
        obtain ⟨i, hin, rfl⟩ := List.mem_map.1 hx
        exact hne i (List.mem_range.1 hin) he.symm

/-- Short ramps (target within one step): the target is scheduled at once. -/
theorem C45_short_ramp [FloorSemiring K] (c : Cfg K) (s : St K) (tstart target v : K) (hq : (getRef s tstart).2 = .ok v)
    (hnear : |v * c.base - target| ≤ s.inst.del) : ramp c s tstart target = addRef c (getRef s tstart).1 tstart target := by
  have hq' : getRef s tstart = ((getRef s tstart).1, .ok v) := by rw [← hq]
  have hd1 : (getRef s tstart).1.inst.del = s.inst.del := rfl
  unfold ramp
  rw [hq']
  simp only
  rw [hd1, if_pos hnear]

/-- The defect, part 1: with a negative step *every* ramp — up, down, or to the present value — fails with `IndexError` and schedules nothing. -/
theorem C45_negative_step_always_fails [FloorSemiring K] (c : Cfg K) (s : St K) (tstart target v : K) (hq : (getRef s tstart).2 = .ok v)
    (hdel : s.inst.del < 0) :
    (ramp c s tstart target).2 = .error .indexError ∧ (ramp c s tstart target).1.lst = s.lst ∧
      (ramp c s tstart target).1.inst.del = if v * c.base > target then -s.inst.del else s.inst.del := by
  have hq' : getRef s tstart = ((getRef s tstart).1, .ok v) := by rw [← hq]
  have hl1 : (getRef s tstart).1.lst = s.lst := rfl
  have hd1 : (getRef s tstart).1.inst.del = s.inst.del := rfl
  generalize (getRef s tstart).1 = s1 at hq' hl1 hd1
  unfold ramp
  rw [hq']
  simp only
  rw [hd1, if_neg (not_le.2 (lt_of_lt_of_le hdel (abs_nonneg _)))]
  have hempty : ∀ del : K, (0 < del ∧ target ≤ v * c.base) ∨ (del < 0 ∧ v * c.base ≤ target) →
      arange (v * c.base + del) (target + del) del = [] := by
    intro del h
    unfold arange
    have : ⌈(target + del - (v * c.base + del)) / del⌉₊ = 0 := by
      rw [Nat.ceil_eq_zero]
      rcases h with ⟨a, b⟩ | ⟨a, b⟩
      · exact div_nonpos_of_nonpos_of_nonneg (by linarith) a.le
      · exact div_nonpos_of_nonneg_of_nonpos (by linarith) a.le
    rw [this]; rfl
  split_ifs with h1 h2 h3 h4 h5
  · linarith
  · exact ⟨rfl, hl1, rfl⟩
  · exact absurd (hempty _ (Or.inl ⟨by linarith, h1.le⟩)) h3
  · exact absurd h4 hdel.ne
  · exact ⟨rfl, hl1, rfl⟩
  · exact absurd (hempty _ (Or.inr ⟨hdel, not_lt.1 h1⟩)) h5

/-- The defect, part 2: a successful downward ramp leaves a negative step, hence the very next ramp fails, whatever its direction. -/
theorem C45_second_ramp_fails [FloorSemiring K] (c : Cfg K) (hb : c.base ≠ 0) (hdT : 0 < c.delT) (hdT1 : c.delT ≤ 1) (s : St K)
    (hs : StrictSorted s.lst) (tstart target v : K) (hq : (getRef s tstart).2 = .ok v) (hdel : 0 < s.inst.del)
    (hdown : s.inst.del < v * c.base - target) (hv : v * c.base ≤ c.vmax) (ht : c.vmin ≤ target)
    (tstart' target' v' : K) (hq' : (getRef (ramp c s tstart target).1 tstart').2 = .ok v') :
    (ramp c s tstart target).2 = .ok () ∧ (ramp c (ramp c s tstart target).1 tstart' target').2 = .error .indexError := by
  have hpos : 0 < v * c.base - target := hdel.trans hdown
  obtain ⟨h1, _, h3, _⟩ := C45_ramp_partial c hb hdT hdT1 s hs tstart target v hq hdel (by rw [abs_of_pos hpos]; exact hdown)
    ⟨by linarith, hv⟩ ⟨ht, by linarith⟩
  refine ⟨h1, (C45_negative_step_always_fails c _ tstart' target' v' hq' ?_).1⟩
  rw [h3, if_pos (by linarith)]
  linarith

/-- The refutation of the full claim on a concrete DER: 700 V → 690 V works, then 690 V → 660 V raises, although all set-points are feasible. -/
theorem C45_refuted :
    let s0 : St ℚ := ⟨[], ⟨0, 0, 7/5, 2⟩⟩
    let s1 := (ramp (exC 0) s0 1 690).1
    (ramp (exC 0) s0 1 690).2 = .ok () ∧ s1.lst.map (fun e => (e.T, e.v * 500)) = [(1, 698), (3/2, 696), (2, 694), (5/2, 692), (3, 690)] ∧
      (ramp (exC 0) (reset s1) 10 660).2 = .error .indexError := by decide +kernel

/-! ### C46 -/

/-- C46: for every insolation, polynomial and rating the MPP reference lies in `[Vdcmpp_min, Vdcmpp_max]/Vdcbase`, and it is the unclamped value whenever
that is feasible. -/
theorem C46_mpp_clamped (c : Cfg K) (hb : 0 < c.base) (hle : c.vmin ≤ c.vmax) (usePoly : Bool) (z : List K) (x vr : K) :
    (c.vmin / c.base ≤ mppTable c usePoly z x vr ∧ mppTable c usePoly z x vr ≤ c.vmax / c.base) ∧
    (usePoly = true → c.vmin ≤ polyval z x → polyval z x ≤ c.vmax → mppTable c usePoly z x vr = polyval z x / c.base) ∧
    (usePoly = false → c.vmin ≤ vr → vr ≤ c.vmax → mppTable c usePoly z x vr = vr / c.base) := by
  unfold mppTable
  refine ⟨⟨?_, ?_⟩, ?_, ?_⟩
  · exact div_le_div_of_nonneg_right (le_max_right _ _) hb.le
  · exact div_le_div_of_nonneg_right (max_le (min_le_right _ _) hle) hb.le
  · rintro rfl h1 h2; simp [min_eq_left h2, max_eq_left h1]
  · rintro rfl h1 h2; simp [min_eq_left h2, max_eq_left h1]

/-- The polynomial evaluated is the fitted cubic. -/
theorem C46_polyval_cubic (a b c d x : K) : polyval [a, b, c, d] x = a * x ^ 3 + b * x ^ 2 + c * x + d := by
  simp [polyval]; ring

/-- With inverted limits the code returns `Vdcmpp_min`, i.e. the clamp is not symmetric. -/
theorem C46_inverted_limits (c : Cfg K) (h : c.vmax < c.vmin) (usePoly : Bool) (z : List K) (x vr : K) :
    mppTable c usePoly z x vr = c.vmin / c.base := by
  unfold mppTable
  rw [max_eq_right ((min_le_right _ _).trans h.le)]

/-- `MPP_table` clamps, but the set-point used with `MPPT_ENABLE` (`Vdcmpp`, from the solver) is not clamped: a solution outside the limits is used as is. -/
theorem C46_mppt_setpoint_not_clamped : ∃ v : ℚ, (exC 0).vmax / (exC 0).base < setVdcRef (exC 0) true v (7/5) := ⟨900, by decide +kernel⟩

/-- The set-point in per unit stands for exactly the voltage it was derived from: with MPPT the value times the base is the solver's `Vdcmpp` in volt,
without MPPT it is the nominal value (already per unit), whatever `Vdcmpp` is. -/
theorem C46_setpoint_per_unit (c : Cfg K) (hb : c.base ≠ 0) (v n : K) :
    setVdcRef c true v n * c.base = v ∧ setVdcRef c false v n = n := by
  constructor
  · simp only [setVdcRef, if_true]; exact div_mul_cancel₀ v hb
  · simp [setVdcRef]

example : mppTable (exC 0) true [0, 0, 1, 600] 100 0 = 700 / 500 ∧ mppTable (exC 0) true [0, 0, 10, 600] 100 0 = 800 / 500 := by decide +kernel

end VdcRef
end PvDer
