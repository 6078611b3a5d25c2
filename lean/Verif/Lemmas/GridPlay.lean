import Verif.Lemmas.Events
import Verif.Lemmas.PlaySeq
import Mathlib.Tactic.Ring

set_option linter.unusedSectionVars false

namespace PvDer

theorem addTimed_set {K α : Type} [LinearOrder K] [DecidableEq α] {l : List (Ev K α)} (hs : StrictSorted l) (i : Nat)
    (hi : i < l.length) (v : α) : addTimed l[i].T v l = l.set i ⟨l[i].T, v⟩ := by
  have hl : l = l.take i ++ l[i] :: l.drop (i + 1) := by
    rw [List.getElem_cons_drop, List.take_append_drop]
  have h1 := addTimed_existing l[i].T v l[i].v (l.take i) (l.drop (i+1)) (by
    have : (⟨l[i].T, l[i].v⟩ : Ev K α) = l[i] := rfl
    rw [this, ← hl]; exact hs)
  have h2 : (⟨l[i].T, l[i].v⟩ : Ev K α) = l[i] := rfl
  rw [h2, ← hl] at h1
  rw [h1, List.set_eq_take_append_cons_drop, if_pos hi]

namespace Events
variable {K : Type} [Field K] [LinearOrder K]

/-- The part of a grid schedule that queries must not change: times, magnitudes and frequencies. -/
def key (l : List (Ev K (GridVal K))) : List (K × K × K) := l.map (fun e => (e.T, e.v.V, e.v.f))

/-- The schedule without its angles. -/
def noAngle (l : List (Ev K (GridVal K))) : List (Ev K (K × K)) := l.map (fun e => ⟨e.T, (e.v.V, e.v.f)⟩)

theorem cnt_noAngle (l : List (Ev K (GridVal K))) (t : K) : cnt (noAngle l) t = cnt l t := by
  unfold cnt noAngle
  rw [List.filter_map, List.length_map]; rfl

theorem strictSorted_noAngle {l : List (Ev K (GridVal K))} (h : StrictSorted l) : StrictSorted (noAngle l) := by
  unfold StrictSorted noAngle at *
  rw [List.pairwise_map]
  exact h

theorem noAngle_set (l : List (Ev K (GridVal K))) (i : Nat) (hi : i < l.length) (a : K) :
    noAngle (l.set i ⟨l[i].T, ⟨l[i].v.V, a, l[i].v.f⟩⟩) = noAngle l := by
  unfold noAngle
  rw [List.map_set]
  apply List.ext_getElem
  · simp
  · intro n h1 h2
    rw [List.getElem_set]
    split
    · rename_i h; subst h; simp
    · rfl

/-- Everything a grid query may change when the angle is overridden. -/
theorem gridEvents_cases {c : Cfg K} (hov : c.overrideAngle = true) {sp : EvSpec K} {s : St K} (hi : Inv s) (hl : Limits sp s)
    (hen : s.gridEnable = true) (hne : s.grid ≠ []) (hc : s.gridCtr < s.grid.length) (t : K) :
    ∃ n : Nat, ∃ hn : n < s.grid.length, s.gridCtr = n ∧
      ((t < s.grid[n].T ∧ n = 0 ∧ gridEvents c sp s t = (s, .ok (gridDefault sp))) ∨
       (t < s.grid[n].T ∧ 1 ≤ n ∧ ∃ e, s.grid[n-1]? = some e ∧ gridEvents c sp s t = (s, .ok e.v)) ∨
       (s.grid[n].T ≤ t ∧ (∃ last, s.grid.getLast? = some last ∧ last.T + 3/1000 ≤ t) ∧
          gridEvents c sp s t = ({ s with gridCtr := min (s.gridTotal - 1) ((n:Int) + 1) }, .ok s.grid[n].v)) ∨
       (s.grid[n].T ≤ t ∧ (∃ last, s.grid.getLast? = some last ∧ t < last.T + 3/1000) ∧ ∃ old : GridVal K,
          ((n = 0 ∧ old = gridDefault sp) ∨ (1 ≤ n ∧ ∃ e, s.grid[n-1]? = some e ∧ old = e.v)) ∧
          gridEvents c sp s t =
            ({ updateTotals { s with grid := s.grid.set n ⟨s.grid[n].T, ⟨s.grid[n].v.V, old.ang + c.twoPi * (s.grid[n].v.f - old.f) * c.delT, s.grid[n].v.f⟩⟩ }
                with gridCtr := min ((s.grid.length : Int) - 1) ((n:Int) + 1) },
             .ok ⟨s.grid[n].v.V, old.ang + c.twoPi * (s.grid[n].v.f - old.f) * c.delT, s.grid[n].v.f⟩))) := by
  obtain ⟨n, hn0⟩ : ∃ n : Nat, s.gridCtr = n := ⟨s.gridCtr.toNat, by have := hi.gridC; omega⟩
  have hn : n < s.grid.length := by omega
  refine ⟨n, hn, hn0, ?_⟩
  obtain ⟨e0, rest, hg⟩ : ∃ e0 rest, s.grid = e0 :: rest := by
    cases h : s.grid with
    | nil => exact absurd h hne
    | cons a b => exact ⟨a, b, rfl⟩
  have hlast : s.grid.getLast? = some ((e0 :: rest).getLast (List.cons_ne_nil _ _)) := by
    rw [hg, List.getLast?_eq_getLast_of_ne_nil]
  have hunf : gridEvents c sp s t = 
      (match pyGet s.grid s.gridCtr with
      | none => (s, .error .indexError)
      | some ec =>
        if t < ec.T ∧ s.gridCtr = 0 then (s, .ok (gridDefault sp))
        else if t < ec.T ∧ s.gridCtr ≥ 1 then
          match pyGet s.grid (s.gridCtr - 1) with
          | none => (s, .error .indexError)
          | some ep => (s, .ok ep.v)
        else if t ≥ ec.T then
          if t < ((e0 :: rest).getLast (List.cons_ne_nil _ _)).T + 3 / 1000 then
            match gridPrev sp s with
            | none => (s, .error .indexError)
            | some old =>
              let new : GridVal K :=
                if c.overrideAngle then ⟨ec.v.V, old.ang + c.twoPi * (ec.v.f - old.f) * c.delT, ec.v.f⟩
                else ⟨ec.v.V, ec.v.ang, 60 + (ec.v.ang - old.ang) / (c.twoPi * c.delT)⟩
              match addGrid sp s ec.T new.V new.ang new.f with
              | (s', .error e) => (s', .error e)
              | (s', .ok _) => ({ s' with gridCtr := min (s'.gridTotal - 1) (s'.gridCtr + 1) }, .ok new)
          else ({ s with gridCtr := min (s.gridTotal - 1) (s.gridCtr + 1) }, .ok ec.v)
        else (s, .error .unboundLocal)) := by
    conv_lhs => unfold gridEvents
    split
    · rename_i h; rw [hen] at h; simp at h
    · rename_i h; rw [hg] at h; simp at h
    · rename_i x y e0' rest' h1 h2
      rw [hg] at h2
      obtain ⟨rfl, rfl⟩ := List.cons.inj h2
      rfl
  rw [hunf, hn0, pyGet_nat, List.getElem?_eq_getElem hn]
  simp only [hov, if_true]
  by_cases ht : t < s.grid[n].T
  · by_cases hz : n = 0
    · left
      refine ⟨ht, hz, ?_⟩
      rw [if_pos ⟨ht, by omega⟩]
    · right; left
      have h1 : n - 1 < s.grid.length := by omega
      refine ⟨ht, by omega, s.grid[n-1], List.getElem?_eq_getElem h1, ?_⟩
      rw [if_neg (by omega), if_pos ⟨ht, by omega⟩]
      have : (n : Int) - 1 = ((n - 1 : Nat) : Int) := by omega
      rw [this, pyGet_nat, List.getElem?_eq_getElem h1]
  · have htle := not_lt.1 ht
    rw [if_neg (fun h => ht h.1), if_neg (fun h => ht h.1), if_pos htle]
    right; right
    by_cases hw : t < ((e0 :: rest).getLast (List.cons_ne_nil _ _)).T + 3 / 1000
    · right
      refine ⟨htle, ⟨_, hlast, hw⟩, ?_⟩
      rw [if_pos hw]
      have hlim := hl.grid _ (List.getElem_mem hn)
      obtain ⟨old, hold, hold2⟩ : ∃ old, gridPrev sp s = some old ∧
          ((n = 0 ∧ old = gridDefault sp) ∨ (1 ≤ n ∧ ∃ e, s.grid[n-1]? = some e ∧ old = e.v)) := by
        unfold gridPrev
        by_cases hz : n = 0
        · exact ⟨gridDefault sp, by rw [if_pos (by omega)], Or.inl ⟨hz, rfl⟩⟩
        · have h1 : n - 1 < s.grid.length := by omega
          refine ⟨s.grid[n-1].v, ?_, Or.inr ⟨by omega, _, List.getElem?_eq_getElem h1, rfl⟩⟩
          rw [if_neg (by omega), hn0]
          have : (n : Int) - 1 = ((n - 1 : Nat) : Int) := by omega
          rw [this, pyGet_nat, List.getElem?_eq_getElem h1]
          rfl
      refine ⟨old, hold2, ?_⟩
      rw [hold]
      simp only
      have hadd : addGrid sp s s.grid[n].T s.grid[n].v.V (old.ang + c.twoPi * (s.grid[n].v.f - old.f) * c.delT) s.grid[n].v.f =
          (updateTotals { s with grid := s.grid.set n ⟨s.grid[n].T, ⟨s.grid[n].v.V, old.ang + c.twoPi * (s.grid[n].v.f - old.f) * c.delT, s.grid[n].v.f⟩⟩ }, .ok ()) := by
        unfold addGrid
        rw [if_neg (by push Not; exact ⟨hlim.1, hlim.2.1⟩), if_neg (by push Not; exact ⟨hlim.2.2.1, hlim.2.2.2⟩)]
        rw [addTimed_set hi.gridS n hn]
      rw [hadd]
      simp only [updateTotals, List.length_set, hn0]
    · left
      refine ⟨htle, ⟨_, hlast, not_lt.1 hw⟩, ?_⟩
      rw [if_neg hw]

/-- `noAngle` value shown at effective position `j`. -/
theorem gridEvents_step {c : Cfg K} (hov : c.overrideAngle = true) {sp : EvSpec K} {s : St K} (hi : Inv s) (hl : Limits sp s)
    (hen : s.gridEnable = true) (hne : s.grid ≠ []) (t : K) (j : Nat) (hj : j ≤ cnt s.grid t)
    (hc : s.gridCtr = min ((s.grid.length : Int) - 1) (j : Int)) :
    ∃ s' v, gridEvents c sp s t = (s', .ok v) ∧ noAngle s'.grid = noAngle s.grid ∧ s'.gridEnable = true ∧
      s'.gridCtr = min ((s.grid.length : Int) - 1) ((min (cnt s.grid t) (j + 1) : Nat) : Int) ∧
      (v.V, v.f) = valAt (noAngle s.grid) (sp.voltage.dflt, sp.freq.dflt) (min (cnt s.grid t) (j + 1)) := by
  have hpos : 0 < s.grid.length := List.length_pos_of_ne_nil hne
  have hcl := cnt_le s.grid t
  obtain ⟨n, hn, hn0, hcases⟩ := gridEvents_cases hov hi hl hen hne (by omega) t
  have hval : ∀ i (h : i < s.grid.length), valAt (noAngle s.grid) (sp.voltage.dflt, sp.freq.dflt) (i+1) = (s.grid[i].v.V, s.grid[i].v.f) := by
    intro i h
    have : (noAngle s.grid)[i]? = some ⟨s.grid[i].T, (s.grid[i].v.V, s.grid[i].v.f)⟩ := by
      unfold noAngle; rw [List.getElem?_map, List.getElem?_eq_getElem h]; rfl
    simp [valAt, this]
  have hnj : (n = j ∧ j < s.grid.length) ∨ (n + 1 = s.grid.length ∧ j = s.grid.length) := by
    rcases Nat.lt_or_ge j s.grid.length with h | h
    · left; omega
    · right; omega
  rcases hcases with ⟨ht, hz, he⟩ | ⟨ht, h1, e, hee, he⟩ | ⟨ht, _, he⟩ | ⟨ht, _, old, _, he⟩
  · have hk : ¬ n < cnt s.grid t := by rw [← getElem_le_iff hi.gridS t n hn]; exact not_le.2 ht
    refine ⟨s, _, he, rfl, hen, ?_, ?_⟩
    · rw [hc]; congr 2; omega
    · have : min (cnt s.grid t) (j+1) = 0 := by omega
      rw [this]; rfl
  · have hk : ¬ n < cnt s.grid t := by rw [← getElem_le_iff hi.gridS t n hn]; exact not_le.2 ht
    have hnj' : n = j := by omega
    have h1' : n - 1 < s.grid.length := by omega
    refine ⟨s, _, he, rfl, hen, ?_, ?_⟩
    · rw [hc]; congr 2; omega
    · have : min (cnt s.grid t) (j+1) = (n - 1) + 1 := by omega
      rw [this, hval (n-1) h1']
      rw [List.getElem?_eq_getElem h1'] at hee
      rw [← Option.some.inj hee]
  · have hk : n < cnt s.grid t := by rw [← getElem_le_iff hi.gridS t n hn]; exact ht
    have hm : min (cnt s.grid t) (j+1) = n + 1 := by omega
    refine ⟨_, _, he, rfl, hen, ?_, ?_⟩
    · rw [hm]; simp only [hi.gridT]; push_cast; rfl
    · rw [hm, hval n hn]
  · have hk : n < cnt s.grid t := by rw [← getElem_le_iff hi.gridS t n hn]; exact ht
    have hm : min (cnt s.grid t) (j+1) = n + 1 := by omega
    refine ⟨_, _, he, ?_, hen, ?_, ?_⟩
    · exact noAngle_set s.grid n hn _
    · rw [hm]; push_cast; rfl
    · rw [hm, hval n hn]

theorem noAngle_length {l l' : List (Ev K (GridVal K))} (h : noAngle l = noAngle l') : l.length = l'.length := by
  have := congrArg List.length h
  simpa [noAngle] using this

theorem cnt_of_noAngle {l l' : List (Ev K (GridVal K))} (h : noAngle l = noAngle l') (t : K) : cnt l t = cnt l' t := by
  rw [← cnt_noAngle, h, cnt_noAngle]

/-- Dense playback of the grid schedule. -/
theorem gridPlay_dense {c : Cfg K} (hov : c.overrideAngle = true) {sp : EvSpec K} (g : List (Ev K (K × K))) (hne : g ≠ [])
    (ts : List K) (prev : Option K) (hd : Dense g prev ts) :
    ∀ s : St K, Inv s → Limits sp s → s.gridEnable = true → noAngle s.grid = g →
      s.gridCtr = min ((s.grid.length : Int) - 1) (posOf g prev : Int) →
    List.Forall₂ (fun t r => ∃ v : GridVal K, r = Except.ok v ∧ Correct g (sp.voltage.dflt, sp.freq.dflt) t (v.V, v.f)) ts
      (gridPlay c sp s ts) := by
  induction ts generalizing prev with
  | nil => intros; exact List.Forall₂.nil
  | cons t ts ih =>
    intro s hi hl hen hg hc
    obtain ⟨h1, h2, h3⟩ := hd
    have hsg : StrictSorted g := hg ▸ strictSorted_noAngle hi.gridS
    have hb := cnt_le_succ_of_dense hsg prev t h1 h2
    have hcg : cnt g t = cnt s.grid t := by rw [← hg, cnt_noAngle]
    have hne' : s.grid ≠ [] := by
      intro h; rw [h] at hg; exact hne hg.symm
    obtain ⟨s', v, he, hna, hen', hc', hv⟩ := gridEvents_step hov hi hl hen hne' t (posOf g prev) (by omega) hc
    have hm : min (cnt s.grid t) (posOf g prev + 1) = cnt g t := by omega
    rw [hm] at hc' hv
    have hs' : s' = (step c sp s (.queryGrid t)) := by simp only [step]; rw [he]
    unfold gridPlay
    rw [he]
    refine List.Forall₂.cons ⟨v, rfl, ?_⟩ ?_
    · rw [hv, hg]; exact correct_valAt hsg _ t
    · apply ih (some t) h3 s'
      · rw [hs']; exact inv_step hi _
      · rw [hs']; exact limits_step hi hl _
      · exact hen'
      · rw [hna, hg]
      · rw [hc', noAngle_length hna]; rfl

/-! ### Angles -/

/-- The angle expected for frequency `f`. -/
def angleFor (c : Cfg K) (sp : EvSpec K) (f : K) : K := sp.angle.dflt + c.twoPi * (f - sp.freq.dflt) * c.delT

theorem gridPlay_angle {c : Cfg K} (hov : c.overrideAngle = true) {sp : EvSpec K} (g : List (Ev K (K × K))) (hne : g ≠ [])
    (ts : List K) (hw : ∀ t ∈ ts, ∃ last ∈ g, t < last.T + 3/1000) [IsStrictOrderedRing K] :
    ∀ s : St K, Inv s → Limits sp s → s.gridEnable = true → noAngle s.grid = g → s.gridCtr < s.grid.length →
      (∀ i (hi : i < s.grid.length), (i : Int) < s.gridCtr → s.grid[i].v.ang = angleFor c sp s.grid[i].v.f) →
    List.Forall₂ (fun _ r => ∃ v : GridVal K, r = Except.ok v ∧ v.ang = angleFor c sp v.f) ts (gridPlay c sp s ts) := by
  induction ts with
  | nil => intros; exact List.Forall₂.nil
  | cons t ts ih =>
    intro s hi hl hen hg hc hang
    have hne' : s.grid ≠ [] := by intro h; rw [h] at hg; exact hne hg.symm
    have hpos : 0 < s.grid.length := List.length_pos_of_ne_nil hne'
    obtain ⟨n, hn, hn0, hcases⟩ := gridEvents_cases hov hi hl hen hne' hc t
    have hinv : Inv (gridEvents c sp s t).1 := inv_step (c := c) (sp := sp) hi (.queryGrid t)
    have hlim : Limits sp (gridEvents c sp s t).1 := limits_step (c := c) hi hl (.queryGrid t)
    have hwts : ∀ t ∈ ts, ∃ last ∈ g, t < last.T + 3/1000 := fun u hu => hw u (by simp [hu])
    unfold gridPlay
    rcases hcases with ⟨ht, hz, he⟩ | ⟨ht, h1, e, hee, he⟩ | ⟨ht, ⟨last, hlast, hlt⟩, he⟩ | ⟨ht, _, old, hold, he⟩
    · rw [he]
      refine List.Forall₂.cons ⟨_, rfl, ?_⟩ (ih hwts s hi hl hen hg hc hang)
      simp [gridDefault, angleFor]
    · rw [he]
      have h1' : n - 1 < s.grid.length := by omega
      rw [List.getElem?_eq_getElem h1'] at hee
      refine List.Forall₂.cons ⟨_, rfl, ?_⟩ (ih hwts s hi hl hen hg hc hang)
      rw [← Option.some.inj hee]
      exact hang (n-1) h1' (by omega)
    · exfalso
      obtain ⟨x, hx, hxt⟩ := hw t (by simp)
      rw [← hg] at hx
      unfold noAngle at hx
      obtain ⟨y, hy, rfl⟩ := List.mem_map.1 hx
      simp only at hxt
      obtain ⟨i, hil, rfl⟩ := List.getElem_of_mem hy
      have hle : s.grid[i].T ≤ last.T := by
        rw [List.getLast?_eq_getElem?] at hlast
        have h2 : s.grid.length - 1 < s.grid.length := by omega
        rw [List.getElem?_eq_getElem h2] at hlast
        rw [← Option.some.inj hlast]
        rcases Nat.lt_or_eq_of_le (show i ≤ s.grid.length - 1 by omega) with h | h
        · exact le_of_lt ((List.pairwise_iff_getElem.1 hi.gridS) _ _ hil h2 h)
        · subst h; exact le_rfl
      linarith
    · have hnew : old.ang + c.twoPi * (s.grid[n].v.f - old.f) * c.delT = angleFor c sp s.grid[n].v.f := by
        rcases hold with ⟨hz, rfl⟩ | ⟨h1, e, hee, rfl⟩
        · rfl
        · have h1' : n - 1 < s.grid.length := by omega
          rw [List.getElem?_eq_getElem h1'] at hee
          have := hang (n-1) h1' (by omega)
          rw [← Option.some.inj hee, this]
          unfold angleFor
          ring
      rw [he] at hinv hlim ⊢
      refine List.Forall₂.cons ⟨_, rfl, hnew⟩ (ih hwts _ hinv hlim hen ?_ ?_ ?_)
      · rw [← hg]; exact noAngle_set s.grid n hn _
      · simp only [updateTotals, List.length_set]; omega
      · intro i hil hic
        simp only [updateTotals, List.length_set] at hil hic ⊢
        rw [List.getElem_set]
        split
        · exact hnew
        · exact hang i hil (by omega)

end Events
end PvDer
