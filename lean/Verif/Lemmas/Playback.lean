import Verif.Lemmas.Timed

set_option linter.unusedSectionVars false

namespace PvDer

theorem pyGet_nat {β : Type} (l : List β) (n : Nat) : pyGet l (n : Int) = l[n]? := by simp [pyGet]

theorem pyGet_mem {β : Type} {l : List β} {i : Int} {x : β} (h : pyGet l i = some x) : x ∈ l := by
  unfold pyGet at h
  split at h
  · exact List.mem_of_getElem? h
  · split at h
    · exact List.mem_of_getElem? h
    · simp at h

section
variable {K α : Type} [LinearOrder K]

/-- Number of entries at or before `t`. -/
def cnt (l : List (Ev K α)) (t : K) : Nat := (l.filter (fun e => decide (e.T ≤ t))).length

theorem cnt_le (l : List (Ev K α)) (t : K) : cnt l t ≤ l.length := List.length_filter_le _ _

theorem cnt_mono (l : List (Ev K α)) {a b : K} (h : a ≤ b) : cnt l a ≤ cnt l b := by
  unfold cnt
  rw [← List.countP_eq_length_filter, ← List.countP_eq_length_filter]
  apply List.countP_mono_left
  intro x _ hx
  simp only [decide_eq_true_eq] at *
  exact le_trans hx h

theorem cnt_cons (e : Ev K α) (l : List (Ev K α)) (t : K) :
    cnt (e :: l) t = (if e.T ≤ t then 1 else 0) + cnt l t := by
  unfold cnt
  rw [List.filter_cons]
  by_cases h : e.T ≤ t
  · simp [h]; omega
  · simp [h]

theorem getElem_le_iff {l : List (Ev K α)} (hs : StrictSorted l) (t : K) (i : Nat) (hi : i < l.length) :
    l[i].T ≤ t ↔ i < cnt l t := by
  induction l generalizing i with
  | nil => simp at hi
  | cons e l ih =>
    unfold StrictSorted at hs
    rw [List.pairwise_cons] at hs
    rw [cnt_cons]
    cases i with
    | zero =>
      simp only [List.getElem_cons_zero]
      constructor
      · intro h; simp [h]
      · intro h
        by_contra hc
        simp only [hc, if_false, Nat.zero_add] at h
        have : l.filter (fun e => decide (e.T ≤ t)) = [] := by
          rw [List.filter_eq_nil_iff]
          intro x hx
          simp only [decide_eq_true_eq]
          exact not_le.2 (lt_trans (not_le.1 hc) (hs.1 x hx))
        unfold cnt at h
        rw [this] at h
        simp at h
    | succ i =>
      simp only [List.getElem_cons_succ]
      have hi' : i < l.length := by simpa using hi
      rw [ih hs.2 i hi']
      constructor
      · intro h
        have : e.T ≤ t := le_trans (le_of_lt (hs.1 _ (List.getElem_mem hi'))) ((ih hs.2 i hi').2 h)
        simp only [this, if_true]; omega
      · intro h
        by_cases hc : e.T ≤ t
        · simp only [hc, if_true] at h; omega
        · simp only [hc, if_false] at h; omega

/-- Value shown when `j` entries are considered past. -/
def valAt (l : List (Ev K α)) (dflt : α) : Nat → α
  | 0 => dflt
  | j + 1 => match l[j]? with
    | some e => e.v
    | none => dflt

theorem correct_valAt {l : List (Ev K α)} (hs : StrictSorted l) (dflt : α) (t : K) :
    Correct l dflt t (valAt l dflt (cnt l t)) := by
  rcases Nat.eq_zero_or_pos (cnt l t) with h | h
  · right
    refine ⟨?_, by rw [h]; rfl⟩
    intro e he
    by_contra hc
    have : e ∈ l.filter (fun e => decide (e.T ≤ t)) := by simp [he, not_lt.1 hc]
    have : 0 < cnt l t := List.length_pos_of_mem this
    omega
  · left
    obtain ⟨j, hj⟩ : ∃ j, cnt l t = j + 1 := ⟨cnt l t - 1, by omega⟩
    have hjl : j < l.length := by have := cnt_le l t; omega
    refine ⟨l[j], ⟨List.getElem_mem _, (getElem_le_iff hs t j hjl).2 (by omega), ?_⟩, ?_⟩
    · intro e' he' hle
      obtain ⟨i, hi, rfl⟩ := List.getElem_of_mem he'
      have h1 := (getElem_le_iff hs t i hi).1 hle
      rcases Nat.lt_or_eq_of_le (show i ≤ j by omega) with hij | rfl
      · unfold StrictSorted at hs
        exact le_of_lt ((List.pairwise_iff_getElem.1 hs) i j hi hjl hij)
      · exact le_rfl
    · rw [hj]; simp [valAt, hjl]

/-- Uniqueness of the correct value. -/
theorem Correct.unique {l : List (Ev K α)} (hs : StrictSorted l) {dflt : α} {t : K} {v w : α}
    (hv : Correct l dflt t v) (hw : Correct l dflt t w) : v = w := by
  classical
  rcases hv with ⟨e, he, rfl⟩ | ⟨hn, rfl⟩ <;> rcases hw with ⟨e', he', rfl⟩ | ⟨hn', rfl⟩
  · have : e = e' := hs.eq_of_T he.1 he'.1 (le_antisymm (he'.2.2 e he.1 he.2.1) (he.2.2 e' he'.1 he'.2.1))
    rw [this]
  · exact absurd (hn' e he.1) (not_lt.2 he.2.1)
  · exact absurd (hn e' he'.1) (not_lt.2 he'.2.1)
  · rfl

/-- One forward query: the effective position `j` moves towards the true position by at most one. -/
theorem playback_step {l : List (Ev K α)} (hs : StrictSorted l) (hne : l ≠ []) (dflt : α) (t : K) (j : Nat)
    (hj : j ≤ cnt l t) :
    playback l (l.length : Int) (min ((l.length : Int) - 1) (j : Int)) dflt t =
      (min ((l.length : Int) - 1) ((min (cnt l t) (j + 1) : Nat) : Int), .ok (valAt l dflt (min (cnt l t) (j + 1)))) := by
  have hle := cnt_le l t
  have hpos : 0 < l.length := List.length_pos_of_ne_nil hne
  obtain ⟨e0, rest, hl⟩ : ∃ e0 rest, l = e0 :: rest := by
    cases l with
    | nil => exact absurd rfl hne
    | cons a b => exact ⟨a, b, rfl⟩
  have h0 : l[0] = e0 := by subst hl; rfl
  have hunf : ∀ (c : Int), playback l (l.length : Int) c dflt t =
      (if t < l[0].T then (c, .ok dflt)
       else match pyGet l c with
        | none => (c, .error .indexError)
        | some ec =>
          if t < ec.T ∧ c ≥ 1 then
            match pyGet l (c - 1) with
            | none => (c, .error .indexError)
            | some ep => (c, .ok ep.v)
          else if t ≥ ec.T then (min ((l.length : Int) - 1) (c + 1), .ok ec.v)
          else (c, .error .unboundLocal)) := by
    intro c; subst hl; rfl
  rw [hunf]
  by_cases hk : cnt l t = 0
  · have hj0 : j = 0 := by omega
    have : t < l[0].T := by
      rw [← not_le, getElem_le_iff hs t 0 hpos]; omega
    rw [if_pos this, hk, hj0]
    simp [valAt]
  · have : ¬ t < l[0].T := by
      rw [not_lt, getElem_le_iff hs t 0 hpos]; omega
    rw [if_neg this]
    rcases Nat.lt_or_ge j l.length with hjl | hjl
    · have hmin : min ((l.length : Int) - 1) (j : Int) = (j : Int) := by omega
      rw [hmin, pyGet_nat, List.getElem?_eq_getElem hjl]
      rcases Nat.lt_or_ge j (cnt l t) with hjk | hjk
      · have hT : l[j].T ≤ t := (getElem_le_iff hs t j hjl).2 hjk
        have hm : min (cnt l t) (j + 1) = j + 1 := by omega
        simp only [not_lt.2 hT, false_and, if_false, ge_iff_le, hT, if_true, hm]
        simp [valAt, hjl]
      · have hjk' : j = cnt l t := by omega
        have hT : t < l[j].T := by rw [← not_le, getElem_le_iff hs t j hjl]; omega
        have hj1 : (j : Int) ≥ 1 := by omega
        have hm : min (cnt l t) (j + 1) = j := by omega
        have hcast : (j : Int) - 1 = ((j - 1 : Nat) : Int) := by omega
        have hp : j - 1 < l.length := by omega
        simp only [hT, hj1, and_self, if_true, hm, hcast, pyGet_nat, List.getElem?_eq_getElem hp]
        rw [hmin]
        obtain ⟨i, rfl⟩ : ∃ i, j = i + 1 := ⟨j - 1, by omega⟩
        have hi : i < l.length := by omega
        simp [valAt, hi]
    · have hj' : j = l.length := by omega
      have hk' : cnt l t = l.length := by omega
      have hmin : min ((l.length : Int) - 1) (j : Int) = ((l.length - 1 : Nat) : Int) := by omega
      have hp : l.length - 1 < l.length := by omega
      rw [hmin, pyGet_nat, List.getElem?_eq_getElem hp]
      have hT : l[l.length - 1].T ≤ t := (getElem_le_iff hs t _ hp).2 (by omega)
      have hm : min (cnt l t) (j + 1) = l.length := by omega
      simp only [not_lt.2 hT, false_and, if_false, ge_iff_le, hT, if_true, hm]
      have h2 : min ((l.length : Int) - 1) (((l.length - 1 : Nat) : Int) + 1) = min ((l.length : Int) - 1) (l.length : Int) := by omega
      rw [h2]
      obtain ⟨i, hi⟩ : ∃ i, l.length = i + 1 := ⟨l.length - 1, by omega⟩
      congr 2
      have : l.length - 1 = i := by omega
      simp [hi, valAt]

theorem playback_nil (total ctr : Int) (dflt : α) (t : K) :
    playback ([] : List (Ev K α)) total ctr dflt t = (ctr, .ok dflt) := rfl

/-- A query never invents a value, whatever the counter. -/
theorem playback_mem (l : List (Ev K α)) (total ctr : Int) (dflt : α) (t : K) (v : α)
    (h : (playback l total ctr dflt t).2 = .ok v) : v = dflt ∨ ∃ e ∈ l, v = e.v := by
  unfold playback at h
  split at h
  · left; simpa using h.symm
  · rename_i e0 rest
    split at h
    · left; simpa using h.symm
    · split at h
      · simp at h
      · rename_i ec hec
        split at h
        · split at h
          · simp at h
          · rename_i ep hep
            right
            exact ⟨ep, pyGet_mem hep, by simpa using h.symm⟩
        · split at h
          · right; exact ⟨ec, pyGet_mem hec, by simpa using h.symm⟩
          · simp at h

/-- With a counter inside the list no query raises (for a sorted list). -/
theorem playback_ok {l : List (Ev K α)} (hs : StrictSorted l) (ctr : Int) (h0 : 0 ≤ ctr)
    (hc : l ≠ [] → ctr < l.length) (dflt : α) (t : K) :
    ∃ c' v, playback l (l.length : Int) ctr dflt t = (c', .ok v) ∧ 0 ≤ c' ∧ (l ≠ [] → c' < l.length) := by
  cases l with
  | nil => exact ⟨ctr, dflt, rfl, h0, by simp⟩
  | cons e0 rest =>
    have hc := hc (by simp)
    unfold playback
    simp only
    split
    · exact ⟨_, _, rfl, h0, fun _ => hc⟩
    · rename_i ht
      obtain ⟨n, rfl⟩ : ∃ n : Nat, ctr = n := ⟨ctr.toNat, by omega⟩
      have hn : n < (e0 :: rest).length := by omega
      rw [pyGet_nat, List.getElem?_eq_getElem hn]
      simp only
      split
      · rename_i h
        have h2 : (n : Int) - 1 = ((n - 1 : Nat) : Int) := by omega
        have hn' : n - 1 < (e0 :: rest).length := by omega
        rw [h2, pyGet_nat, List.getElem?_eq_getElem hn']
        exact ⟨_, _, rfl, by omega, fun _ => by omega⟩
      · rename_i h
        split
        · refine ⟨_, _, rfl, ?_, fun _ => ?_⟩
          · omega
          · omega
        · rename_i h3
          exfalso
          have hn0 : n = 0 := by
            by_contra hne
            exact h ⟨not_le.1 h3, by omega⟩
          subst hn0
          exact h3 (by simpa using ht)

end
end PvDer
