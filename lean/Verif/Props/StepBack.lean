import Verif.Props.Events
import Verif.Props.EvalSched

/-!
# Property C120: schedules under solver step-backs

A variable-step solver evaluates the model at times that are not monotone: a rejected step is retried at an *earlier* time; and several models may share one
events object, so that the times asked are an interleaving.  The schedule queries move a counter that only goes up.  What do they return then?
-/

set_option linter.unusedSectionVars false

namespace PvDer

/-! ## Specification -/

section
variable {K α : Type} [LinearOrder K]

/-- The latest time asked, after `t` has been asked too. -/
def latest : Option K → K → K
  | none, t => t
  | some a, t => max a t

/-- Queries in any order of times; each of them passes at most one entry that no earlier query has passed. -/
def Steps (l : List (Ev K α)) : Option K → List K → Prop
  | _, [] => True
  | prev, t :: ts =>
    (∀ e ∈ l, ∀ e' ∈ l, AfterPrev prev e.T → e.T ≤ t → AfterPrev prev e'.T → e'.T ≤ t → e = e') ∧
    Steps l (some (latest prev t)) ts

/-- What a query at `t` shows.  `B τ`: some earlier query asked for a time at or after `τ`.  `E`: the query recognises that `t` is before the whole schedule.
1. the value is that of the schedule at `t`, or at some time between `t` and an earlier query;
2. it is the value at `t` itself if nothing but the last entry has been passed after `t`, or if `E`;
3. otherwise it is the value of an entry that is still in the future at `t`. -/
def Shown (l : List (Ev K α)) (dflt : α) (t : K) (B : K → Prop) (E : Prop) (v : α) : Prop :=
  (∃ τ, t ≤ τ ∧ (τ = t ∨ B τ) ∧ Correct l dflt τ v) ∧
  ((∀ e ∈ l, t < e.T → B e.T → ∀ e' ∈ l, e'.T ≤ e.T) ∨ E → Correct l dflt t v) ∧
  (¬ E → (∃ e ∈ l, t < e.T ∧ B e.T ∧ ∃ e' ∈ l, e.T < e'.T) → ∃ e ∈ l, t < e.T ∧ B e.T ∧ v = e.v)

theorem Shown.congr {l : List (Ev K α)} {dflt : α} {t : K} {B B' : K → Prop} {E : Prop} {v : α} (h : ∀ τ, B τ ↔ B' τ)
    (hs : Shown l dflt t B E v) : Shown l dflt t B' E v := by
  have : B = B' := funext fun τ => propext (h τ)
  rw [← this]; exact hs

/-! ## One query -/

theorem valAt_get (l : List (Ev K α)) (dflt : α) (i : Nat) (hi : i < l.length) : valAt l dflt (i + 1) = l[i].v := by
  simp [valAt, hi]

theorem cnt_getElem {l : List (Ev K α)} (hs : StrictSorted l) (i : Nat) (hil : i < l.length) : cnt l l[i].T = i + 1 := by
  have h1 : i < cnt l l[i].T := (getElem_le_iff hs _ i hil).1 le_rfl
  have h2 : ¬ (i + 1 < cnt l l[i].T) := by
    intro h
    have hl : i + 1 < l.length := by have := cnt_le l l[i].T; omega
    have h3 := (getElem_le_iff hs l[i].T (i+1) hl).2 h
    have h4 : l[i].T < l[i+1].T := (List.pairwise_iff_getElem.1 hs) _ _ hil hl (by omega)
    exact absurd h3 (not_le.2 h4)
  omega

/-- What is shown when nothing has been passed beyond `t`. -/
theorem shown_forward {l : List (Ev K α)} (hs : StrictSorted l) (dflt : α) (t : K) (B : K → Prop) (E : Prop)
    (hB : ∀ e ∈ l, t < e.T → ¬ B e.T) : Shown l dflt t B E (valAt l dflt (cnt l t)) := by
  refine ⟨⟨t, le_rfl, Or.inl rfl, correct_valAt hs dflt t⟩, fun _ => correct_valAt hs dflt t, ?_⟩
  rintro _ ⟨e, he, h1, h2, _⟩
  exact absurd h2 (hB e he h1)

/-- What is shown when the position is `c`, at least the true position `k` and at most the position `j` of the latest time asked, and not the end. -/
theorem shown_back {l : List (Ev K α)} (hs : StrictSorted l) (dflt : α) (t a : K) (E : Prop) (c : Nat) (hE : E → c = cnt l t)
    (hc : c = min (l.length - 1) (cnt l a)) (hk : cnt l t ≤ c) :
    Shown l dflt t (fun τ => τ ≤ a) E (valAt l dflt c) := by
  have hja := cnt_le l a
  refine ⟨?_, ?_, ?_⟩
  · rcases Nat.eq_or_lt_of_le hk with h | h
    · exact ⟨t, le_rfl, Or.inl rfl, h ▸ correct_valAt hs dflt t⟩
    · have hi : c - 1 < l.length := by omega
      refine ⟨l[c - 1].T, le_of_lt ?_, Or.inr ?_, ?_⟩
      · rw [← not_le, getElem_le_iff hs t _ hi]; omega
      · show l[c - 1].T ≤ a
        rw [getElem_le_iff hs a _ hi]; omega
      · have h2 := correct_valAt hs dflt l[c - 1].T
        rw [cnt_getElem hs _ hi] at h2
        have h3 : c - 1 + 1 = c := by omega
        rwa [h3] at h2
  · intro h
    have hck : c = cnt l t := by
      rcases h with h | h
      · by_contra hne
        have hlt : cnt l t < c := by omega
        have hi : c - 1 < l.length := by omega
        have hi' : c < l.length := by omega
        have h1 := h l[c - 1] (List.getElem_mem hi) (by rw [← not_le, getElem_le_iff hs t _ hi]; omega)
          (by show l[c - 1].T ≤ a; rw [getElem_le_iff hs a _ hi]; omega) l[c] (List.getElem_mem hi')
        have h2 : l[c - 1].T < l[c].T := (List.pairwise_iff_getElem.1 hs) _ _ hi hi' (by omega)
        exact absurd h1 (not_le.2 h2)
      · exact hE h
    rw [hck]; exact correct_valAt hs dflt t
  · rintro _ ⟨e, he, h1, h2, e', he', h3⟩
    obtain ⟨i, hi, rfl⟩ := List.getElem_of_mem he
    obtain ⟨i', hi', rfl⟩ := List.getElem_of_mem he'
    have g1 : cnt l t ≤ i := by
      by_contra hc'
      exact absurd ((getElem_le_iff hs t i hi).2 (by omega)) (not_le.2 h1)
    have g2 : i < cnt l a := (getElem_le_iff hs a i hi).1 h2
    have g3 : i < i' := by
      by_contra hc'
      rcases Nat.eq_or_lt_of_le (not_lt.1 hc') with h | h
      · subst h; exact lt_irrefl _ h3
      · exact absurd h3 (not_lt.2 (le_of_lt ((List.pairwise_iff_getElem.1 hs) _ _ hi' hi h)))
    have hcl : c - 1 < l.length := by omega
    refine ⟨l[c - 1], List.getElem_mem hcl, ?_, ?_, ?_⟩
    · rw [← not_le, getElem_le_iff hs t _ hcl]; omega
    · show l[c - 1].T ≤ a
      rw [getElem_le_iff hs a _ hcl]; omega
    · rw [← valAt_get l dflt _ hcl]
      congr 1; omega

/-- "Some earlier query asked for a time at or after `τ`", in terms of the latest time asked. -/
def asked (prev : Option K) (τ : K) : Prop := ∃ a, prev = some a ∧ τ ≤ a

theorem asked_latest (prev : Option K) (t τ : K) : asked (some (latest prev t)) τ ↔ τ ≤ t ∨ asked prev τ := by
  unfold asked latest
  cases prev with
  | none => simp
  | some a => simp; tauto

/-- The position never moves back. -/
theorem cnt_max (l : List (Ev K α)) (a t : K) : cnt l (max a t) = max (cnt l a) (cnt l t) := by
  rcases le_total a t with h | h
  · rw [max_eq_right h, max_eq_right (cnt_mono l h)]
  · rw [max_eq_left h, max_eq_left (cnt_mono l h)]

theorem posOf_latest (l : List (Ev K α)) (prev : Option K) (t : K) :
    posOf l (some (latest prev t)) = max (posOf l prev) (cnt l t) := by
  cases prev with
  | none => simp [latest, posOf]
  | some a => simp only [latest, posOf]; exact cnt_max l a t

theorem step_bound {l : List (Ev K α)} (hs : StrictSorted l) (prev : Option K) (t : K)
    (hd : ∀ e ∈ l, ∀ e' ∈ l, AfterPrev prev e.T → e.T ≤ t → AfterPrev prev e'.T → e'.T ≤ t → e = e') :
    cnt l t ≤ posOf l prev + 1 := by
  by_cases hp : ∀ a, prev = some a → a ≤ t
  · exact (cnt_le_succ_of_dense hs prev t hp hd).2
  · push Not at hp
    obtain ⟨a, rfl, ha⟩ := hp
    have := cnt_mono l (le_of_lt ha)
    simp only [posOf]; omega

/-- No entry has been passed beyond `t` when the positions agree. -/
theorem none_passed {l : List (Ev K α)} (hs : StrictSorted l) (prev : Option K) (t : K) (h : posOf l prev ≤ cnt l t) :
    ∀ e ∈ l, t < e.T → ¬ asked prev e.T := by
  rintro e he ht ⟨a, rfl, ha⟩
  obtain ⟨i, hi, rfl⟩ := List.getElem_of_mem he
  have h1 := (getElem_le_iff hs a i hi).1 ha
  simp only [posOf] at h
  exact absurd ((getElem_le_iff hs t i hi).2 (by omega)) (not_le.2 ht)

theorem shown_back' {l : List (Ev K α)} (hs : StrictSorted l) (dflt : α) (t : K) (prev : Option K) (E : Prop) (c : Nat) (hE : E → c = cnt l t)
    (hc : c = min (l.length - 1) (posOf l prev)) (hk : cnt l t ≤ c) (hp : cnt l t < posOf l prev) :
    Shown l dflt t (asked prev) E (valAt l dflt c) := by
  cases prev with
  | none => simp [posOf] at hp
  | some a =>
    refine (shown_back hs dflt t a E c hE hc hk).congr ?_
    intro τ
    simp [asked]

/-- One query of a solar, load or reference schedule, at any time. -/
theorem playback_any {l : List (Ev K α)} (hs : StrictSorted l) (hne : l ≠ []) (dflt : α) (prev : Option K) (t : K)
    (hd : ∀ e ∈ l, ∀ e' ∈ l, AfterPrev prev e.T → e.T ≤ t → AfterPrev prev e'.T → e'.T ≤ t → e = e') :
    ∃ v, playback l (l.length : Int) (min ((l.length : Int) - 1) (posOf l prev : Int)) dflt t =
        (min ((l.length : Int) - 1) (posOf l (some (latest prev t)) : Int), .ok v) ∧
      Shown l dflt t (asked prev) (∀ e ∈ l, t < e.T) v := by
  have hb := step_bound hs prev t hd
  rw [posOf_latest]
  by_cases hj : posOf l prev ≤ cnt l t
  · refine ⟨_, ?_, shown_forward hs dflt t _ _ (none_passed hs prev t hj)⟩
    rw [playback_step hs hne dflt t _ hj]
    have : min (cnt l t) (posOf l prev + 1) = cnt l t := by omega
    rw [this, max_eq_right hj]
  · push Not at hj
    rw [max_eq_left (le_of_lt hj)]
    have hpos : 0 < l.length := List.length_pos_of_ne_nil hne
    have hpl : posOf l prev ≤ l.length := by
      cases prev with
      | none => simp [posOf]
      | some a => exact cnt_le l a
    obtain ⟨e0, rest, hl⟩ : ∃ e0 rest, l = e0 :: rest := by
      cases l with
      | nil => exact absurd rfl hne
      | cons a b => exact ⟨a, b, rfl⟩
    have hunf : ∀ (c : Int), playback l (l.length : Int) c dflt t =
        (if t < l[0].T then (c, .ok dflt)
         else match pyGet l c with
          | none => (c, .error .indexError)
          | some ec =>
            if t < ec.T ∧ c ≥ 1 then
              match pyGet l (c - 1) with
              | none => (c, .error .indexError)
              | some ep => (c, .ok ep.v)
            else if t ≥ ec.T then (min ((l.length : Int) - 1) (c + 1), .ok ec.v)
            else (c, .error .unboundLocal)) := by
      intro c; subst hl; rfl
    rw [hunf]
    by_cases h0 : t < l[0].T
    · rw [if_pos h0]
      have hall : ∀ e ∈ l, t < e.T := by
        intro e he
        obtain ⟨i, hi, rfl⟩ := List.getElem_of_mem he
        rcases Nat.eq_zero_or_pos i with h | h
        · subst h; exact h0
        · exact lt_trans h0 ((List.pairwise_iff_getElem.1 hs) _ _ hpos hi h)
      have hcor : Correct l dflt t dflt := Or.inr ⟨hall, rfl⟩
      exact ⟨dflt, rfl, ⟨t, le_rfl, Or.inl rfl, hcor⟩, fun _ => hcor, fun hn => absurd hall hn⟩
    · rw [if_neg h0]
      have hk0 : 0 < cnt l t := by
        rw [← getElem_le_iff hs t 0 hpos]; exact not_lt.1 h0
      obtain ⟨c, hc⟩ : ∃ c : Nat, c = min (l.length - 1) (posOf l prev) := ⟨_, rfl⟩
      have hci : min ((l.length : Int) - 1) (posOf l prev : Int) = (c : Int) := by omega
      have hcl : c < l.length := by omega
      have hkc : cnt l t ≤ c := by omega
      have hcl' : c - 1 < l.length := by omega
      have hT : t < l[c].T := by rw [← not_le, getElem_le_iff hs t c hcl]; omega
      have hcast : (c : Int) - 1 = ((c - 1 : Nat) : Int) := by omega
      rw [hci, pyGet_nat, List.getElem?_eq_getElem hcl]
      have hc1 : (c : Int) ≥ 1 := by omega
      simp only [hT, hc1, and_self, if_true, hcast, pyGet_nat, List.getElem?_eq_getElem hcl']
      refine ⟨l[c - 1].v, rfl, ?_⟩
      have := shown_back' hs dflt t prev (∀ e ∈ l, t < e.T) c
        (fun h => absurd (h _ (List.getElem_mem hpos)) h0) hc hkc hj
      have h3 : c = (c - 1) + 1 := by omega
      rw [h3, valAt_get l dflt _ hcl'] at this
      exact this

/-- Queries of a whole sequence. -/
theorem playSeq_any {l : List (Ev K α)} (hs : StrictSorted l) (hne : l ≠ []) (dflt : α) (p : List K) (t : K) (q : List K) :
    ∀ prev : Option K, Steps l prev (p ++ t :: q) →
    ∃ v, (playSeq l (l.length : Int) (min ((l.length : Int) - 1) (posOf l prev : Int)) dflt (p ++ t :: q))[p.length]? = some (.ok v) ∧
      Shown l dflt t (fun τ => asked prev τ ∨ ∃ u ∈ p, τ ≤ u) (∀ e ∈ l, t < e.T) v := by
  induction p with
  | nil =>
    intro prev hst
    obtain ⟨v, h1, h2⟩ := playback_any hs hne dflt prev t hst.1
    refine ⟨v, ?_, h2.congr (by simp)⟩
    simp [playSeq, h1]
  | cons u p ih =>
    intro prev hst
    obtain ⟨w, h1, _⟩ := playback_any hs hne dflt prev u hst.1
    obtain ⟨v, h2, h3⟩ := ih _ hst.2
    refine ⟨v, ?_, h3.congr ?_⟩
    · simp only [List.cons_append, playSeq, List.length_cons, List.getElem?_cons_succ, h1]
      exact h2
    · intro τ
      rw [asked_latest]
      simp only [List.mem_cons, exists_eq_or_imp]
      tauto

theorem playSeq_reset_any {l : List (Ev K α)} (hs : StrictSorted l) {total : Int} (hT : l ≠ [] → total = l.length) (dflt : α)
    (p : List K) (t : K) (q : List K) (hd : Steps l none (p ++ t :: q)) :
    ∃ v, (playSeq l total 0 dflt (p ++ t :: q))[p.length]? = some (.ok v) ∧
      Shown l dflt t (fun τ => ∃ u ∈ p, τ ≤ u) (∀ e ∈ l, t < e.T) v := by
  by_cases hne : l = []
  · subst hne
    have h1 : ∀ (p : List K), (playSeq ([] : List (Ev K α)) total 0 dflt (p ++ t :: q))[p.length]? = some (.ok dflt) := by
      intro p
      induction p with
      | nil => rfl
      | cons u p ih => exact ih
    have hcor : Correct ([] : List (Ev K α)) dflt t dflt := Or.inr ⟨by simp, rfl⟩
    exact ⟨dflt, h1 p, ⟨t, le_rfl, Or.inl rfl, hcor⟩, fun _ => hcor, by simp⟩
  · obtain ⟨v, h1, h2⟩ := playSeq_any hs hne dflt p t q none hd
    have h0 : min ((l.length : Int) - 1) ((posOf l (none : Option K) : Nat) : Int) = 0 := by
      have : 0 < l.length := List.length_pos_of_ne_nil hne
      simp only [posOf]; omega
    rw [h0, ← hT hne] at h1
    exact ⟨v, h1, h2.congr (by simp [asked])⟩

end

namespace Events
variable {K : Type} [Field K] [LinearOrder K]

/-- One grid query, at any time. -/
theorem gridEvents_any {c : Cfg K} (hov : c.overrideAngle = true) {sp : EvSpec K} {s : St K} (hi : Inv s) (hl : Limits sp s)
    (hen : s.gridEnable = true) (hne : s.grid ≠ []) (prev : Option K) (t : K)
    (hd : ∀ e ∈ noAngle s.grid, ∀ e' ∈ noAngle s.grid, AfterPrev prev e.T → e.T ≤ t → AfterPrev prev e'.T → e'.T ≤ t → e = e')
    (hc : s.gridCtr = min ((s.grid.length : Int) - 1) (posOf (noAngle s.grid) prev : Int)) :
    ∃ s' v, gridEvents c sp s t = (s', .ok v) ∧ noAngle s'.grid = noAngle s.grid ∧ s'.gridEnable = true ∧
      s'.gridCtr = min ((s.grid.length : Int) - 1) (posOf (noAngle s.grid) (some (latest prev t)) : Int) ∧
      Shown (noAngle s.grid) (sp.voltage.dflt, sp.freq.dflt) t (asked prev) False (v.V, v.f) := by
  have hsg : StrictSorted (noAngle s.grid) := strictSorted_noAngle hi.gridS
  have hb := step_bound hsg prev t hd
  have hlen : (noAngle s.grid).length = s.grid.length := by simp [noAngle]
  rw [posOf_latest]
  by_cases hj : posOf (noAngle s.grid) prev ≤ cnt (noAngle s.grid) t
  · obtain ⟨s', v, h1, h2, h3, h4, h5⟩ := gridEvents_step hov hi hl hen hne t _ (by rw [← cnt_noAngle]; exact hj) hc
    rw [← cnt_noAngle] at h4 h5
    have hm : min (cnt (noAngle s.grid) t) (posOf (noAngle s.grid) prev + 1) = cnt (noAngle s.grid) t := by omega
    rw [hm] at h4 h5
    refine ⟨s', v, h1, h2, h3, ?_, ?_⟩
    · rw [h4, max_eq_right hj]
    · rw [h5]; exact shown_forward hsg _ t _ _ (none_passed hsg prev t hj)
  · push Not at hj
    rw [max_eq_left (le_of_lt hj)]
    have hpos : 0 < s.grid.length := List.length_pos_of_ne_nil hne
    have hpl : posOf (noAngle s.grid) prev ≤ s.grid.length := by
      cases prev with
      | none => simp [posOf]
      | some a => rw [← hlen]; exact cnt_le _ a
    obtain ⟨n, hn, hn0, hcases⟩ := gridEvents_cases hov hi hl hen hne (by omega) t
    have hcn : n = min ((noAngle s.grid).length - 1) (posOf (noAngle s.grid) prev) := by omega
    have hkn : cnt (noAngle s.grid) t ≤ n := by omega
    have hT : t < s.grid[n].T := by
      rw [← not_le, getElem_le_iff hi.gridS t n hn, ← cnt_noAngle]; omega
    have hsh := shown_back' hsg (sp.voltage.dflt, sp.freq.dflt) t prev False n (fun h => h.elim) hcn hkn hj
    rcases hcases with ⟨_, hz, he⟩ | ⟨_, h1, e, hee, he⟩ | ⟨ht, _, he⟩ | ⟨ht, _, old, _, he⟩
    · refine ⟨s, _, he, rfl, hen, hc, ?_⟩
      subst hz
      exact hsh
    · refine ⟨s, _, he, rfl, hen, hc, ?_⟩
      have h1' : n - 1 < s.grid.length := by omega
      have h1'' : n - 1 < (noAngle s.grid).length := by omega
      have h3 : n = (n - 1) + 1 := by omega
      rw [h3, valAt_get _ _ _ h1''] at hsh
      rw [List.getElem?_eq_getElem h1'] at hee
      rw [← Option.some.inj hee]
      simpa [noAngle] using hsh
    · exact absurd ht (not_le.2 hT)
    · exact absurd ht (not_le.2 hT)

theorem gridPlay_any {c : Cfg K} (hov : c.overrideAngle = true) {sp : EvSpec K} (g : List (Ev K (K × K))) (hne : g ≠ [])
    (p : List K) (t : K) (q : List K) :
    ∀ (prev : Option K) (s : St K), Steps g prev (p ++ t :: q) → Inv s → Limits sp s → s.gridEnable = true → noAngle s.grid = g →
      s.gridCtr = min ((s.grid.length : Int) - 1) (posOf g prev : Int) →
    ∃ v : GridVal K, (gridPlay c sp s (p ++ t :: q))[p.length]? = some (.ok v) ∧
      Shown g (sp.voltage.dflt, sp.freq.dflt) t (fun τ => asked prev τ ∨ ∃ u ∈ p, τ ≤ u) False (v.V, v.f) := by
  induction p with
  | nil =>
    intro prev s hst hi hl hen hg hc
    subst hg
    have hne' : s.grid ≠ [] := by intro h; rw [h] at hne; exact hne rfl
    obtain ⟨s', v, he, _, _, _, hv⟩ := gridEvents_any hov hi hl hen hne' prev t hst.1 hc
    refine ⟨v, ?_, hv.congr (by simp)⟩
    simp [gridPlay, he]
  | cons u p ih =>
    intro prev s hst hi hl hen hg hc
    subst hg
    have hne' : s.grid ≠ [] := by intro h; rw [h] at hne; exact hne rfl
    obtain ⟨s', w, he, hna, hen', hc', _⟩ := gridEvents_any hov hi hl hen hne' prev u hst.1 hc
    have hs' : s' = (step c sp s (.queryGrid u)) := by simp only [step]; rw [he]
    obtain ⟨v, h2, h3⟩ := ih _ s' hst.2 (by rw [hs']; exact inv_step hi _) (by rw [hs']; exact limits_step hi hl _) hen' hna
      (by rw [hc', noAngle_length hna])
    refine ⟨v, ?_, h3.congr ?_⟩
    · simp only [List.cons_append, gridPlay, List.length_cons, List.getElem?_cons_succ, he]
      exact h2
    · intro τ
      rw [asked_latest]
      simp only [List.mem_cons, exists_eq_or_imp]
      tauto

/-! ## C120 -/

/-- C120, insolation: from reset counters, queried at times in any order that pass at most one new entry each, the query for `t` returns the scheduled value at
`t` or at a time between `t` and an earlier query; the value at `t` itself whenever only the last entry (or nothing) has been passed after `t` or `t` precedes
the schedule; and in every other case the value of an event that is still in the future at `t`. -/
theorem C120_solar_step_back {c : Cfg K} {s : St K} (h : Reachable c s) (hen : s.solarEnable = true) (sp : EvSpec K) (p : List K) (t : K) (q : List K)
    (hd : Steps s.solar none (p ++ t :: q)) :
    ∃ v, (solarPlay sp (resetCounters s) (p ++ t :: q))[p.length]? = some (.ok v) ∧
      Shown s.solar ⟨sp.insolation.dflt, 29815 / 100⟩ t (fun τ => ∃ u ∈ p, τ ≤ u) (∀ e ∈ s.solar, t < e.T) v := by
  have hi := inv_reachable h
  rw [solarPlay_eq sp (resetCounters s) hen _]
  exact playSeq_reset_any hi.solarS hi.solarT _ p t q hd

/-- C120, load. -/
theorem C120_load_step_back {c : Cfg K} {s : St K} (h : Reachable c s) (hen : s.loadEnable = true) (p : List K) (t : K) (q : List K)
    (hd : Steps s.load none (p ++ t :: q)) :
    ∃ v, (loadPlay (resetCounters s) (p ++ t :: q))[p.length]? = some (.ok v) ∧
      Shown s.load ⟨10000000, 0⟩ t (fun τ => ∃ u ∈ p, τ ≤ u) (∀ e ∈ s.load, t < e.T) v := by
  have hi := inv_reachable h
  rw [loadPlay_eq (resetCounters s) hen _]
  exact playSeq_reset_any hi.loadS hi.loadT _ p t q hd

/-- C120, grid: the same for voltage magnitude and frequency, except that a query before the whole schedule is not recognised as such. -/
theorem C120_grid_step_back {c : Cfg K} (hov : c.overrideAngle = true) {sp : EvSpec K} {s : St K} (h : ReachableUnder c sp s)
    (hen : s.gridEnable = true) (p : List K) (t : K) (q : List K)
    (hd : Steps (s.grid.map fun e => (⟨e.T, (e.v.V, e.v.f)⟩ : Ev K (K × K))) none (p ++ t :: q)) :
    ∃ v : GridVal K, (gridPlay c sp (resetCounters s) (p ++ t :: q))[p.length]? = some (.ok v) ∧
      Shown (s.grid.map fun e => (⟨e.T, (e.v.V, e.v.f)⟩ : Ev K (K × K))) (sp.voltage.dflt, sp.freq.dflt) t (fun τ => ∃ u ∈ p, τ ≤ u) False (v.V, v.f) := by
  obtain ⟨hi, hl⟩ := limits_reachable h
  by_cases hne : s.grid = []
  · have hf := gridPlay_nil c sp (resetCounters s) hne hen (p ++ t :: q)
    have hp : p.length < (p ++ t :: q).length := by simp
    have hg := hf.get hp (by rw [← hf.length_eq]; exact hp)
    refine ⟨gridDefault sp, ?_, ?_⟩
    · rw [List.getElem?_eq_getElem (by rw [← hf.length_eq]; exact hp)]
      exact congrArg some hg
    · have hcor : Correct (s.grid.map fun e => (⟨e.T, (e.v.V, e.v.f)⟩ : Ev K (K × K))) (sp.voltage.dflt, sp.freq.dflt) t
          ((gridDefault sp).V, (gridDefault sp).f) := Or.inr ⟨by simp [hne], rfl⟩
      exact ⟨⟨t, le_rfl, Or.inl rfl, hcor⟩, fun _ => hcor, by simp [hne]⟩
  · have hne' : noAngle s.grid ≠ [] := by simpa [noAngle] using hne
    have hp : 0 < s.grid.length := List.length_pos_of_ne_nil hne
    obtain ⟨v, h1, h2⟩ := gridPlay_any hov (noAngle s.grid) hne' p t q none (resetCounters s) hd (inv_step (c := c) (sp := sp) hi .reset)
      (limits_resetCounters hl) hen rfl (by simp only [posOf, resetCounters]; omega)
    exact ⟨v, h1, h2.congr (by simp [asked])⟩

/-- C120, in short: a step back across no event at all is harmless.  If no entry lies between `t` and an earlier, later-in-time query, every schedule answers
with its value at `t`. -/
theorem C120_small_step_back {c : Cfg K} (hov : c.overrideAngle = true) {sp : EvSpec K} {s : St K} (h : ReachableUnder c sp s)
    (hs : s.solarEnable = true) (hg : s.gridEnable = true) (hl : s.loadEnable = true) (p : List K) (t : K) (q : List K)
    (ds : Steps s.solar none (p ++ t :: q)) (dl : Steps s.load none (p ++ t :: q))
    (dg : Steps (s.grid.map fun e => (⟨e.T, (e.v.V, e.v.f)⟩ : Ev K (K × K))) none (p ++ t :: q))
    (ns : ∀ e ∈ s.solar, ∀ u ∈ p, ¬ (t < e.T ∧ e.T ≤ u)) (nl : ∀ e ∈ s.load, ∀ u ∈ p, ¬ (t < e.T ∧ e.T ≤ u))
    (ng : ∀ e ∈ s.grid, ∀ u ∈ p, ¬ (t < e.T ∧ e.T ≤ u)) :
    (∃ v, (solarPlay sp (resetCounters s) (p ++ t :: q))[p.length]? = some (.ok v) ∧ Correct s.solar ⟨sp.insolation.dflt, 29815 / 100⟩ t v) ∧
    (∃ v, (loadPlay (resetCounters s) (p ++ t :: q))[p.length]? = some (.ok v) ∧ Correct s.load ⟨10000000, 0⟩ t v) ∧
    (∃ v : GridVal K, (gridPlay c sp (resetCounters s) (p ++ t :: q))[p.length]? = some (.ok v) ∧
      Correct (s.grid.map fun e => (⟨e.T, (e.v.V, e.v.f)⟩ : Ev K (K × K))) (sp.voltage.dflt, sp.freq.dflt) t (v.V, v.f)) := by
  have hr : Reachable c s := by
    obtain ⟨a, b, d, ops, h⟩ := h
    exact ⟨a, b, d, _, h⟩
  refine ⟨?_, ?_, ?_⟩
  · obtain ⟨v, h1, _, h2, _⟩ := C120_solar_step_back hr hs sp p t q ds
    exact ⟨v, h1, h2 (Or.inl fun e he a1 ⟨u, hu, a2⟩ => absurd ⟨a1, a2⟩ (ns e he u hu))⟩
  · obtain ⟨v, h1, _, h2, _⟩ := C120_load_step_back hr hl p t q dl
    exact ⟨v, h1, h2 (Or.inl fun e he a1 ⟨u, hu, a2⟩ => absurd ⟨a1, a2⟩ (nl e he u hu))⟩
  · obtain ⟨v, h1, _, h2, _⟩ := C120_grid_step_back hov h hg p t q dg
    refine ⟨v, h1, h2 (Or.inl fun e he a1 ⟨u, hu, a2⟩ => ?_)⟩
    obtain ⟨e', he', rfl⟩ := List.mem_map.1 he
    exact absurd ⟨a1, a2⟩ (ng e' he' u hu)

/-- Forward sequences are a special case: `Dense` (C07, C08) implies `Steps`. -/
theorem dense_steps {α : Type} {l : List (Ev K α)} : ∀ {prev : Option K} {ts : List K}, Dense l prev ts → Steps l prev ts
  | _, [], _ => trivial
  | none, t :: ts, h => ⟨h.2.1, dense_steps h.2.2⟩
  | some a, t :: ts, h => ⟨h.2.1, by
      have : latest (some a) t = t := max_eq_right (h.1 a rfl)
      rw [this]; exact dense_steps h.2.2⟩

/-! ### Concrete cases -/

/-- Three events of each kind, at times 2, 5 and 8. -/
def sbOps : List (Op ℚ) :=
  [.addSolar 2 50 300, .addSolar 5 60 300, .addSolar 8 70 300, .addLoad 2 20 0, .addLoad 5 30 0, .addLoad 8 40 0,
   .addGrid 2 (9/10) 0 60, .addGrid 5 (8/10) 0 60, .addGrid 8 (7/10) 0 60]
def sbState : St ℚ := run exCfg (init true true true) (sbOps.map fun o => (exSpec, o))
theorem sbState_reachable : ReachableUnder exCfg exSpec sbState := ⟨true, true, true, sbOps, rfl⟩
theorem sbSolar : sbState.solar = [⟨2, ⟨50, 300⟩⟩, ⟨5, ⟨60, 300⟩⟩, ⟨8, ⟨70, 300⟩⟩] := by decide +kernel

/-- The hypothesis `Steps` is met by a sequence with step-backs across events. -/
theorem C120_example_steps : Steps sbState.solar none [1, 3, 6, 4, 6, 9, 7, 4, 1] := by
  rw [sbSolar]
  simp only [Steps, AfterPrev, latest, List.mem_cons, List.not_mem_nil, or_false]
  norm_num

/-- A step-back over an event that is not the last shows the future value: at 4 the insolation scheduled is 50, the answer is 60; a step back over the last event
(9 → 7) is answered correctly; before the schedule (1) the insolation and the load answer correctly, the grid does not. -/
theorem C120_step_back_shows_future :
    solarPlay exSpec (resetCounters sbState) [1, 3, 6, 4, 6, 9, 7, 4, 1] =
      [.ok ⟨100, 29815/100⟩, .ok ⟨50, 300⟩, .ok ⟨60, 300⟩, .ok ⟨60, 300⟩, .ok ⟨60, 300⟩, .ok ⟨70, 300⟩, .ok ⟨60, 300⟩, .ok ⟨60, 300⟩, .ok ⟨100, 29815/100⟩] ∧
    (loadPlay (resetCounters sbState) [3, 6, 4, 1]) = [.ok ⟨20, 0⟩, .ok ⟨30, 0⟩, .ok ⟨30, 0⟩, .ok ⟨10000000, 0⟩] ∧
    (gridPlay exCfg exSpec (resetCounters sbState) [3, 6, 4, 1]).map (fun r => match r with | .ok v => v.V | .error _ => 0) = [9/10, 8/10, 8/10, 8/10] := by
  decide +kernel

/-- Two simulations that share one events object: the first asks 1, 3, 6, 9; the second starts at 3 without a reset and is given the insolation scheduled for 5. -/
theorem C120_shared_object :
    (solarPlay exSpec (resetCounters sbState) ([1, 3, 6, 9] ++ [3]))[4]? = some (.ok ⟨60, 300⟩) ∧
    Correct sbState.solar ⟨100, 29815/100⟩ 3 ⟨50, 300⟩ := by
  refine ⟨by decide +kernel, Or.inl ⟨⟨2, ⟨50, 300⟩⟩, ?_, rfl⟩⟩
  rw [sbSolar]
  refine ⟨by simp, by norm_num, ?_⟩
  intro e he
  simp only [List.mem_cons, List.not_mem_nil, or_false] at he
  rcases he with rfl | rfl | rfl <;> norm_num

end Events

/-! ### The evaluations of a simulation -/

namespace Eval
open Complex Phasor Ode
variable {k : Cls} {g : SCfg} {h : Hid}

/-- C120, through a whole simulation: start from an events object in any reachable state with reset counters; let the solver call the ODE and Jacobian methods
at times in *any order* that pass at most one new insolation event each.  Every evaluation `c` uses the insolation and temperature the schedule has at its time
or at a time between it and an earlier evaluation — exactly those of its own time unless a step back crossed an event other than the last. -/
theorem C120_pv_power_step_back {cc : Events.Cfg ℝ} {s : Events.St ℝ} (hs : Events.Reachable cc s) (hen : s.solarEnable = true)
    (hev : h.ev = Events.resetCounters s) (hI : h.Iph = PV.iph g.p.mod h.Sinsol h.Tactual) (p : List (Call k)) (c : Call k) (q : List (Call k))
    (hok : Ok k g h (p ++ c :: q)) (hd : Steps s.solar none ((p ++ c :: q).map Call.t)) :
    ∃ v : Events.SolarVal ℝ, (run k g h (p ++ [c])).Sinsol = v.Sinsol ∧ (run k g h (p ++ [c])).Tactual = v.Tactual ∧
      Shown s.solar ⟨g.sp.insolation.dflt, 29815 / 100⟩ c.t (fun τ => ∃ c' ∈ p, τ ≤ c'.t) (∀ e ∈ s.solar, c.t < e.T) v := by
  have hi : Events.Inv h.ev := by rw [hev]; exact Events.inv_step (c := cc) (sp := g.sp) (Events.inv_reachable hs) .reset
  have hsol : h.ev.solar = s.solar := by rw [hev]; rfl
  have hctr : h.ev.solarCtr = 0 := by rw [hev]; rfl
  obtain ⟨v, e, a1, a2, a3, _⟩ := run_solar hi (by rw [hev]; exact hen) p c q hok (fun _ => hI)
  rw [hsol, hctr] at a1
  rw [List.map_append, List.map_cons] at a1 hd
  obtain ⟨w, b1, b2⟩ := playSeq_reset_any (total := (s.solar.length : Int)) (Events.inv_reachable hs).solarS (fun _ => rfl)
    (⟨g.sp.insolation.dflt, 29815 / 100⟩ : Events.SolarVal ℝ) _ _ _ hd
  rw [List.length_map] at b1
  rw [a1] at b1
  cases Option.some.inj b1
  exact ⟨v, a2, a3, b2.congr (by simp)⟩

/-- Its hypotheses are met: evaluations at 0, 2, 1/2 (a step back across the event at 1), 3. -/
theorem C120_example_run (y : ThreePhase.V → ℝ) :
    let g := exG exPar true
    let h := exH g (exEv g)
    let mk : Bool → ℝ → Call three := fun j t => ⟨j, y, t, 0, 0, 0, 377⟩
    let l := [mk false 0, mk false 2, mk true (1 / 2), mk false 3]
    Events.Reachable g.evc (exEv g) ∧ (exEv g).solarEnable = true ∧ h.ev = Events.resetCounters (exEv g) ∧
      h.Iph = PV.iph g.p.mod h.Sinsol h.Tactual ∧ Ok three g h l ∧ Steps (exEv g).solar none (l.map Call.t) := by
  intro g h mk l
  have hno : ∀ o ∈ exOps, o.isRemoval = false := by
    intro o ho
    simp only [exOps, List.mem_cons, List.not_mem_nil, or_false] at ho
    rcases ho with rfl | rfl | rfl <;> rfl
  refine ⟨⟨true, true, true, _, rfl⟩, ?_, ?_, rfl, ?_, ?_⟩
  · show (exEv (exG exPar true)).solarEnable = true; rw [exEv_eq]; rfl
  · show exEv (exG exPar true) = _; rw [exEv_eq]; rfl
  · exact C99_no_exception (ex_good three exPar true (Or.inl rfl) exOps hno) l
  · show Steps (exEv (exG exPar true)).solar none _
    rw [exEv_eq]
    simp only [l, mk, List.map_cons, List.map_nil, Steps, AfterPrev, latest, List.mem_singleton]
    norm_num

end Eval
end PvDer
