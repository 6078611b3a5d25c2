import Verif.Lemmas.RTRun
import Verif.Props.RTTrip
import Mathlib.Tactic.Linarith

/-!
# Property C36: low-frequency trip characterisation
-/

set_option linter.unusedSectionVars false

namespace PvDer
namespace RT

variable {K W : Type} [Field K] [LinearOrder K] [IsStrictOrderedRing K]

/-- Specification: the frequency was below `F` at sample `a`, never above `F + del` until sample `b`, at or below `F` at `b`, and `b` is at least
`lim` after `a`. Samples are (time, frequency). -/
def LowFreq (F del lim : K) (h : List (K × K)) : Prop :=
  ∃ p q r a b, h = p ++ a :: q ++ b :: r ∧ a.2 < F ∧ b.2 ≤ F ∧ (∀ x ∈ q, x.2 ≤ F + del) ∧ lim ≤ b.1 - a.1

/-- Specification: below `F` at time `τ` and never above `F + del` since. -/
def LowFreqSince (F del : K) (h : List (K × K)) (τ : K) : Prop :=
  ∃ p q a, h = p ++ a :: q ∧ a.1 = τ ∧ a.2 < F ∧ ∀ x ∈ q, x.2 ≤ F + del

theorem lowFreq_snoc {F del lim : K} {h : List (K × K)} {x : K × K} :
    LowFreq F del lim (h ++ [x]) ↔ LowFreq F del lim h ∨ (∃ τ, LowFreqSince F del h τ ∧ x.2 ≤ F ∧ lim ≤ x.1 - τ) := by
  constructor
  · rintro ⟨p, q, r, a, b, he, ha, hb, hq, ht⟩
    rcases List.eq_nil_or_concat r with rfl | ⟨r', y, rfl⟩
    · have h2 := List.append_inj' he rfl
      right
      have hx : x = b := by simpa using h2.2
      subst hx
      exact ⟨a.1, ⟨p, q, a, h2.1, rfl, ha, hq⟩, hb, ht⟩
    · left
      rw [List.concat_eq_append] at he
      have h2 : h = p ++ a :: q ++ b :: r' := (List.append_inj' (s₁ := h) (t₁ := [x]) (s₂ := p ++ a :: q ++ b :: r') (t₂ := [y]) (by rw [he]; simp) rfl).1
      exact ⟨p, q, r', a, b, h2, ha, hb, hq, ht⟩
  · rintro (⟨p, q, r, a, b, he, ha, hb, hq, ht⟩ | ⟨τ, ⟨p, q, a, he, rfl, ha, hq⟩, hx, ht⟩)
    · exact ⟨p, q, r ++ [x], a, b, by rw [he]; simp, ha, hb, hq, ht⟩
    · exact ⟨p, q, [], a, x, by rw [he], ha, hx, hq, ht⟩

theorem lowFreqSince_snoc {F del : K} (_hdel : 0 ≤ del) {h : List (K × K)} {x : K × K} {τ : K} :
    LowFreqSince F del (h ++ [x]) τ ↔ (LowFreqSince F del h τ ∧ x.2 ≤ F + del) ∨ (x.1 = τ ∧ x.2 < F) := by
  constructor
  · rintro ⟨p, q, a, he, rfl, ha, hq⟩
    rcases List.eq_nil_or_concat q with rfl | ⟨q', y, rfl⟩
    · have h2 := List.append_inj' he rfl
      have hx : x = a := by simpa using h2.2
      subst hx
      exact Or.inr ⟨rfl, ha⟩
    · rw [List.concat_eq_append] at he hq
      have h2 := List.append_inj' (s₁ := h) (t₁ := [x]) (s₂ := p ++ a :: q') (t₂ := [y]) (by rw [he]; simp) rfl
      have hx : x = y := by simpa using h2.2
      subst hx
      exact Or.inl ⟨⟨p, q', a, h2.1, rfl, ha, fun z hz => hq z (by simp [hz])⟩, hq x (by simp)⟩
  · rintro (⟨⟨p, q, a, he, rfl, ha, hq⟩, hx⟩ | ⟨rfl, hx⟩)
    · refine ⟨p, q ++ [x], a, by rw [he]; simp, rfl, ha, ?_⟩
      intro z hz
      rcases List.mem_append.1 hz with hz | hz
      · exact hq z hz
      · rw [List.mem_singleton.1 hz]; exact hx
    · exact ⟨h, [], x, rfl, rfl, hx, by simp⟩

/-- Timer invariant of an untripped zone. -/
structure LfInv (del : K) (z0 z : LfZone K) (h : List (K × K)) : Prop where
  F : z.F = z0.F
  lim : z.tLimit = z0.tLimit
  timer : (z.tStart = 0 ∧ ∀ τ, ¬ LowFreqSince z0.F del h τ) ∨
    (0 < z.tStart ∧ LowFreqSince z0.F del h z.tStart ∧ ∀ τ, LowFreqSince z0.F del h τ → z.tStart ≤ τ)
  quiet : ¬ LowFreq z0.F del z0.tLimit h

/-- The zone after the first two loops of `FRT`. -/
def lfMid (del f t : K) (z : LfZone K) : LfZone K := lfReset del f (lfStart f t z)

theorem lfMid_timer {del : K} (hdel : 0 ≤ del) {z0 z : LfZone K} {h : List (K × K)} (hz : LfInv del z0 z h) (x : K × K)
    (hlast : ∀ y ∈ h, y.1 < x.1) (hpos : 0 < x.1) :
    (lfMid del x.2 x.1 z).F = z0.F ∧ (lfMid del x.2 x.1 z).tLimit = z0.tLimit ∧
    (((lfMid del x.2 x.1 z).tStart = 0 ∧ ∀ τ, ¬ LowFreqSince z0.F del (h ++ [x]) τ) ∨
    (0 < (lfMid del x.2 x.1 z).tStart ∧ LowFreqSince z0.F del (h ++ [x]) (lfMid del x.2 x.1 z).tStart ∧
      ∀ τ, LowFreqSince z0.F del (h ++ [x]) τ → (lfMid del x.2 x.1 z).tStart ≤ τ)) := by
  have hF := hz.F
  have hL := hz.lim
  have hle : ∀ τ, LowFreqSince z0.F del h τ → τ < x.1 := by
    rintro τ ⟨p, q, a, he, rfl, _, _⟩
    exact hlast a (by rw [he]; simp)
  rcases hz.timer with ⟨t0, hno⟩ | ⟨t0, hls, hmin⟩
  · by_cases hx : x.2 < z.F
    · have h1 : lfStart x.2 x.1 z = { z with tStart := x.1 } := by unfold lfStart; rw [if_pos ⟨t0, hx⟩]
      have h2 : lfMid del x.2 x.1 z = { z with tStart := x.1 } := by
        unfold lfMid; rw [h1]; unfold lfReset; rw [if_neg]
        rintro ⟨h3, _⟩
        have h3 : x.2 > z.F + del := h3
        linarith
      rw [h2]
      refine ⟨hF, hL, Or.inr ⟨hpos, (lowFreqSince_snoc hdel).2 (Or.inr ⟨rfl, by rw [← hF]; exact hx⟩), ?_⟩⟩
      intro τ hτ
      rcases (lowFreqSince_snoc hdel).1 hτ with ⟨h3, _⟩ | ⟨h3, _⟩
      · exact absurd h3 (hno τ)
      · exact le_of_eq h3
    · have h1 : lfStart x.2 x.1 z = z := by unfold lfStart; rw [if_neg (fun hh => hx hh.2)]
      have h2 : lfMid del x.2 x.1 z = z := by
        unfold lfMid; rw [h1]; unfold lfReset; rw [if_neg]
        rintro ⟨_, h3⟩
        rw [t0] at h3; exact lt_irrefl _ h3
      rw [h2]
      refine ⟨hF, hL, Or.inl ⟨t0, ?_⟩⟩
      intro τ hτ
      rcases (lowFreqSince_snoc hdel).1 hτ with ⟨h3, _⟩ | ⟨_, h3⟩
      · exact hno τ h3
      · exact hx (by rw [hF]; exact h3)
  · have h1 : lfStart x.2 x.1 z = z := by unfold lfStart; rw [if_neg (fun hh => t0.ne' hh.1)]
    by_cases hx : x.2 > z.F + del
    · have h2 : lfMid del x.2 x.1 z = { z with tStart := 0 } := by
        unfold lfMid; rw [h1]; unfold lfReset; rw [if_pos ⟨hx, t0⟩]
      rw [h2]
      refine ⟨hF, hL, Or.inl ⟨rfl, ?_⟩⟩
      intro τ hτ
      rw [hF] at hx
      rcases (lowFreqSince_snoc hdel).1 hτ with ⟨_, h3⟩ | ⟨_, h3⟩ <;> linarith
    · have h2 : lfMid del x.2 x.1 z = z := by
        unfold lfMid; rw [h1]; unfold lfReset; rw [if_neg (fun hh => hx hh.1)]
      rw [h2]
      rw [hF] at hx
      refine ⟨hF, hL, Or.inr ⟨t0, (lowFreqSince_snoc hdel).2 (Or.inl ⟨hls, not_lt.1 hx⟩), ?_⟩⟩
      intro τ hτ
      rcases (lowFreqSince_snoc hdel).1 hτ with ⟨h3, _⟩ | ⟨h3, _⟩
      · exact hmin τ h3
      · rw [← h3]; exact (hle _ hls).le

theorem lfTrips_iff {del : K} (hdel : 0 ≤ del) {z0 z : LfZone K} {h : List (K × K)} (hz : LfInv del z0 z h) (hlim : 0 < z0.tLimit) (x : K × K)
    (hlast : ∀ y ∈ h, y.1 < x.1) (hpos : 0 < x.1) :
    lfTrips x.2 x.1 (lfMid del x.2 x.1 z) = true ↔ LowFreq z0.F del z0.tLimit (h ++ [x]) := by
  obtain ⟨hF, hL, ht⟩ := lfMid_timer hdel hz x hlast hpos
  unfold lfTrips
  rw [decide_eq_true_iff, hF, hL, lowFreq_snoc]
  constructor
  · rintro ⟨h1, h2, h3⟩
    right
    rcases ht with ⟨t0, _⟩ | ⟨_, hls, _⟩
    · rw [t0] at h3; exact absurd h3 (lt_irrefl _)
    · rcases (lowFreqSince_snoc hdel).1 hls with ⟨h4, _⟩ | ⟨h4, _⟩
      · exact ⟨_, h4, h1, h2⟩
      · exfalso; linarith
  · rintro (h1 | ⟨τ, h1, h2, h3⟩)
    · exact absurd h1 hz.quiet
    · have h4 : LowFreqSince z0.F del (h ++ [x]) τ := (lowFreqSince_snoc hdel).2 (Or.inl ⟨h1, by linarith⟩)
      rcases ht with ⟨_, hno⟩ | ⟨t0, _, hmin⟩
      · exact absurd h4 (hno τ)
      · have := hmin τ h4
        exact ⟨h2, by linarith, t0⟩

theorem lfInv_step {del : K} (hdel : 0 ≤ del) {z0 z : LfZone K} {h : List (K × K)} (hz : LfInv del z0 z h) (hlim : 0 < z0.tLimit) (x : K × K)
    (hlast : ∀ y ∈ h, y.1 < x.1) (hpos : 0 < x.1) (hnt : lfTrips x.2 x.1 (lfMid del x.2 x.1 z) = false) :
    LfInv del z0 (lfClear x.2 x.1 (lfMid del x.2 x.1 z)) (h ++ [x]) := by
  obtain ⟨hF, hL, ht⟩ := lfMid_timer hdel hz x hlast hpos
  have hcl : lfClear x.2 x.1 (lfMid del x.2 x.1 z) = lfMid del x.2 x.1 z := by unfold lfClear; rw [hnt]; rfl
  rw [hcl]
  refine ⟨hF, hL, ht, ?_⟩
  rw [← lfTrips_iff hdel hz hlim x hlast hpos, hnt]
  simp

/-- The (time, frequency) samples of a sequence of evaluations. -/
def fsamples (h : List (Inp K)) : List (K × K) := h.map (fun i => (i.t, i.f))

/-- The low-frequency part of one evaluation. -/
theorem eval_lf (c : Cfg K W) (s : St K W) (i : Inp K) (hen : s.lfEnable = true) (ht : i.t > s.rtLock) :
    (eval c s i).1.lf = (if i.t > c.tStable then (if s.lfTrip = false then (s.lf.map (lfMid c.delF i.f i.t)).map (lfClear i.f i.t) else s.lf)
        else s.lf.map (fun z => { z with tStart := 0 })) ∧
    (eval c s i).1.lfTrip = (if i.t > c.tStable then (if s.lfTrip = false then (s.lf.map (lfMid c.delF i.f i.t)).any (lfTrips i.f i.t) else true)
        else false) := by
  have hfrt : ∀ s' : St K W, s'.lf = s.lf → s'.lfTrip = s.lfTrip →
      (frt c i.f i.t s').1.lf = (if i.t > c.tStable then (if s.lfTrip = false then (s.lf.map (lfMid c.delF i.f i.t)).map (lfClear i.f i.t) else s.lf)
        else s.lf.map (fun z => { z with tStart := 0 })) ∧
      (frt c i.f i.t s').1.lfTrip = (if i.t > c.tStable then (if s.lfTrip = false then (s.lf.map (lfMid c.delF i.f i.t)).any (lfTrips i.f i.t) else true)
        else false) := by
    intro s' h1 h2
    have hmid : (s'.lf.map (lfStart i.f i.t)).map (lfReset c.delF i.f) = s.lf.map (lfMid c.delF i.f i.t) := by
      rw [List.map_map, h1]; rfl
    unfold frt
    rw [h2]
    split_ifs with a b
    · simp only [hmid]; exact ⟨trivial, trivial⟩
    · have hk := reconnect_keeps c i.t s'
      refine ⟨hk.2.2.2.2.2.2.2.2.1.trans h1, ?_⟩
      rw [hk.2.2.2.2.2.2.2.2.2.1, h2]; simpa using b
    · rw [h1]; exact ⟨rfl, rfl⟩
  have hu : (updateFlags c i.t i.V i.f { s with refs := i.refs }).1.lf = (frt c i.f i.t (vrtStep c i.t i.V { s with refs := i.refs })).1.lf ∧
      (updateFlags c i.t i.V i.f { s with refs := i.refs }).1.lfTrip = (frt c i.f i.t (vrtStep c i.t i.V { s with refs := i.refs })).1.lfTrip := by
    rw [updateFlags_eq c i.t i.V i.f { s with refs := i.refs } ht]
    rw [if_pos (show ({ s with refs := i.refs } : St K W).lfEnable = true from hen)]
    simp only
    split <;> exact ⟨rfl, rfl⟩
  have hev : (eval c s i).1.lf = (updateFlags c i.t i.V i.f { s with refs := i.refs }).1.lf ∧
      (eval c s i).1.lfTrip = (updateFlags c i.t i.V i.f { s with refs := i.refs }).1.lfTrip := by
    unfold eval
    simp only
    split
    · exact ⟨rfl, rfl⟩
    · have := dor_keeps c i.t (updateFlags c i.t i.V i.f { s with refs := i.refs }).1
      exact ⟨this.2.2.2.2.2.2.2.2.1, this.2.2.2.2.2.2.2.2.2⟩
  rw [hev.1, hev.2, hu.1, hu.2]
  exact hfrt _ rfl rfl

theorem eval_lf_old (c : Cfg K W) (s : St K W) (i : Inp K) (ht : i.t ≤ s.rtLock) :
    (eval c s i).1.lf = s.lf ∧ (eval c s i).1.lfTrip = s.lfTrip := by
  unfold eval
  rw [updateFlags_lock c i.t i.V i.f { s with refs := i.refs } ht]
  have := dor_keeps c i.t { s with refs := i.refs }
  exact ⟨this.2.2.2.2.2.2.2.2.1, this.2.2.2.2.2.2.2.2.2⟩

theorem records_snoc (lock : K) (h : List (K × K)) (x : K × K) :
    records lock (h ++ [x]) = if x.1 > (h.map (·.1)).foldl max lock then records lock h ++ [x] else records lock h := by
  induction h generalizing lock with
  | nil => simp [records]
  | cons y ys ih =>
    simp only [List.cons_append, records, List.map_cons, List.foldl_cons]
    by_cases hy : y.1 > lock
    · rw [if_pos hy, if_pos hy, ih, max_eq_right hy.le]; split_ifs <;> rfl
    · rw [if_neg hy, if_neg hy, ih, max_eq_left (not_lt.1 hy)]

theorem run_rtLock (c : Cfg K W) (s : St K W) (h : List (Inp K)) : (run c s h).rtLock = (h.map (·.t)).foldl max s.rtLock := by
  induction h using List.reverseRecOn with
  | nil => rfl
  | append_singleton h i ih =>
    rw [run_snoc, List.map_append, List.foldl_append, ← ih]
    by_cases ht : i.t > (run c s h).rtLock
    · rw [(eval_vrt c _ i ht).2.2.1]; exact (max_eq_right ht.le).symm
    · rw [(eval_old c _ i (not_lt.1 ht)).2.2.1]; exact (max_eq_left (not_lt.1 ht)).symm

/-- The invariant behind C36. -/
theorem lf_run_inv {c : Cfg K W} {s : St K W} (hi : IsInit s) (hen : s.lfEnable = true) (hdel : 0 ≤ c.delF) (hlim : ∀ z ∈ s.lf, 0 < z.tLimit)
    (h : List (Inp K)) :
    ((run c s h).lfTrip = true ∧ (∃ z ∈ s.lf, LowFreq z.F c.delF z.tLimit (after c.tStable (records 0 (fsamples h)))) ∧
        c.tStable < (run c s h).rtLock) ∨
    ((run c s h).lfTrip = false ∧ List.Forall₂ (fun z0 z => LfInv c.delF z0 z (after c.tStable (records 0 (fsamples h)))) s.lf (run c s h).lf) := by
  induction h using List.reverseRecOn with
  | nil =>
    right
    refine ⟨hi.lft, ?_⟩
    have : ∀ l : List (LfZone K), (∀ z ∈ l, z.tStart = 0) → List.Forall₂ (fun z0 z => LfInv c.delF z0 z []) l l := by
      intro l
      induction l with
      | nil => intro _; exact .nil
      | cons z l ih =>
        intro hl
        refine .cons ⟨rfl, rfl, Or.inl ⟨hl z (by simp), ?_⟩, ?_⟩ (ih (fun y hy => hl y (by simp [hy])))
        · rintro τ ⟨p, q, a, he, _⟩; simp at he
        · rintro ⟨p, q, r, a, b, he, _⟩; simp at he
    exact this s.lf hi.lfz
  | append_singleton h i ih =>
    have hen' : (run c s h).lfEnable = true := (run_vrt c s h).2.2.2.2.trans hen
    have hlock : (run c s h).rtLock = ((fsamples h).map (·.1)).foldl max 0 := by
      rw [run_rtLock, hi.rl]; congr 1; simp [fsamples, Function.comp_def]
    have hfs : fsamples (h ++ [i]) = fsamples h ++ [(i.t, i.f)] := by simp [fsamples]
    rw [run_snoc, hfs, records_snoc]
    by_cases ht : i.t > (run c s h).rtLock
    · have ht' : i.t > ((fsamples h).map (·.1)).foldl max 0 := by rw [← hlock]; exact ht
      rw [if_pos ht']
      obtain ⟨e1, e2⟩ := eval_lf c (run c s h) i hen' ht
      rw [e1, e2, (eval_vrt c _ i ht).2.2.1]
      have hafter : after c.tStable (records 0 (fsamples h) ++ [(i.t, i.f)]) =
          if i.t > c.tStable then after c.tStable (records 0 (fsamples h)) ++ [(i.t, i.f)] else after c.tStable (records 0 (fsamples h)) := by
        unfold after
        rw [List.filter_append]
        by_cases hst : i.t > c.tStable
        · rw [if_pos hst]; simp [hst]
        · rw [if_neg hst]; simp [hst]
      rw [hafter]
      -- every earlier record is strictly earlier
      have hmax : ∀ (l : List K) (m : K), m ≤ l.foldl max m ∧ ∀ y ∈ l, y ≤ l.foldl max m := by
        intro l
        induction l with
        | nil => intro m; simp
        | cons a l ih =>
          intro m
          obtain ⟨b1, b2⟩ := ih (max m a)
          refine ⟨le_trans (le_max_left _ _) b1, ?_⟩
          intro y hy
          rcases List.mem_cons.1 hy with rfl | hy
          · exact le_trans (le_max_right _ _) b1
          · exact b2 y hy
      have hsub : ∀ (l : List (K × K)) (m : K), ∀ y ∈ records m l, y ∈ l := by
        intro l
        induction l with
        | nil => intro m y hy; simp [records] at hy
        | cons a l ih =>
          intro m y hy
          unfold records at hy
          split_ifs at hy
          · rcases List.mem_cons.1 hy with rfl | hy
            · simp
            · simp [ih _ y hy]
          · simp [ih _ y hy]
      have hlast : ∀ y ∈ after c.tStable (records 0 (fsamples h)), y.1 < i.t := by
        intro y hy
        have hy' := hsub _ _ y (List.mem_filter.1 hy).1
        exact lt_of_le_of_lt ((hmax _ 0).2 y.1 (List.mem_map.2 ⟨y, hy', rfl⟩)) ht'
      have hpos : 0 < i.t := lt_of_le_of_lt (hmax ((fsamples h).map (·.1)) 0).1 ht'
      by_cases hst : i.t > c.tStable
      · simp only [if_pos hst]
        rcases ih with ⟨b1, ⟨z, hz, hlow⟩, _⟩ | ⟨b1, b2⟩
        · left
          rw [b1]
          exact ⟨by simp, ⟨z, hz, lowFreq_snoc.2 (Or.inl hlow)⟩, hst⟩
        · rw [b1]
          simp only [if_true]
          have key : ∀ (l0 l : List (LfZone K)), (∀ z ∈ l0, 0 < z.tLimit) →
              List.Forall₂ (fun z0 z => LfInv c.delF z0 z (after c.tStable (records 0 (fsamples h)))) l0 l →
              ((l.map (lfMid c.delF i.f i.t)).any (lfTrips i.f i.t) = true ∧
                ∃ z ∈ l0, LowFreq z.F c.delF z.tLimit (after c.tStable (records 0 (fsamples h)) ++ [(i.t, i.f)])) ∨
              ((l.map (lfMid c.delF i.f i.t)).any (lfTrips i.f i.t) = false ∧
                List.Forall₂ (fun z0 z => LfInv c.delF z0 z (after c.tStable (records 0 (fsamples h)) ++ [(i.t, i.f)])) l0
                  ((l.map (lfMid c.delF i.f i.t)).map (lfClear i.f i.t))) := by
            intro l0 l hl0 hf
            induction hf with
            | nil => right; exact ⟨rfl, .nil⟩
            | cons hz hf ih =>
              rename_i z0 z l0 l
              have hl := hl0 z0 (by simp)
              cases htz : lfTrips i.f i.t (lfMid c.delF i.f i.t z) with
              | true =>
                left
                refine ⟨by simp [htz], z0, by simp, ?_⟩
                exact (lfTrips_iff hdel hz hl (i.t, i.f) hlast hpos).1 htz
              | false =>
                rcases ih (fun y hy => hl0 y (by simp [hy])) with ⟨c1, y, hy, c2⟩ | ⟨c1, c2⟩
                · left
                  refine ⟨?_, y, by simp [hy], c2⟩
                  rw [List.map_cons, List.any_cons, c1, Bool.or_true]
                · right
                  refine ⟨?_, .cons (lfInv_step hdel hz hl (i.t, i.f) hlast hpos htz) c2⟩
                  rw [List.map_cons, List.any_cons, c1, htz]; rfl
          rcases key _ _ hlim b2 with ⟨c1, c2⟩ | ⟨c1, c2⟩
          · left; exact ⟨c1, c2, hst⟩
          · right; exact ⟨c1, c2⟩
      · simp only [if_neg hst]
        rcases ih with ⟨_, _, b3⟩ | ⟨_, b2⟩
        · exact absurd (lt_trans b3 ht) hst
        · right
          refine ⟨trivial, ?_⟩
          have hnil : after c.tStable (records 0 (fsamples h)) = [] := by
            unfold after
            rw [List.filter_eq_nil_iff]
            intro y hy
            have hy' := hsub _ _ y hy
            have h1 := lt_of_le_of_lt ((hmax _ 0).2 y.1 (List.mem_map.2 ⟨y, hy', rfl⟩)) ht'
            simpa using le_trans h1.le (not_lt.1 hst)
          rw [hnil] at b2 ⊢
          have : ∀ (l0 l : List (LfZone K)), List.Forall₂ (fun z0 z => LfInv c.delF z0 z []) l0 l →
              List.Forall₂ (fun z0 z => LfInv c.delF z0 z []) l0 (l.map (fun z => { z with tStart := 0 })) := by
            intro l0 l hf
            induction hf with
            | nil => exact .nil
            | cons hz hf ih =>
              refine .cons ⟨hz.F, hz.lim, Or.inl ⟨rfl, ?_⟩, hz.quiet⟩ ih
              rintro τ ⟨p, q, a, he, _⟩; simp at he
          exact this _ _ b2
    · have ht' : ¬ i.t > ((fsamples h).map (·.1)).foldl max 0 := by rw [← hlock]; exact ht
      rw [if_neg ht']
      obtain ⟨e1, e2⟩ := eval_lf_old c (run c s h) i (not_lt.1 ht)
      rw [e1, e2, (eval_old c _ i (not_lt.1 ht)).2.2.1]
      exact ih

/-- C36: for every sequence of evaluations, `LFRT_TRIP` is set iff for some zone the PLL frequency was below `F_LF` at one of the advancing samples
after `t_stable`, not above `F_LF + del_f` in between, and at or below `F_LF` at a sample at least `t_LF_limit` later. -/
theorem C36_lf_trip_iff {c : Cfg K W} {s : St K W} (hi : IsInit s) (hen : s.lfEnable = true) (hdel : 0 ≤ c.delF)
    (hlim : ∀ z ∈ s.lf, 0 < z.tLimit) (h : List (Inp K)) :
    (run c s h).lfTrip = true ↔ ∃ z ∈ s.lf, LowFreq z.F c.delF z.tLimit (after c.tStable (records 0 (fsamples h))) := by
  rcases lf_run_inv hi hen hdel hlim h with ⟨h1, h2, _⟩ | ⟨h1, h2⟩
  · exact ⟨fun _ => h2, fun _ => h1⟩
  · refine ⟨fun hh => by rw [h1] at hh; simp at hh, ?_⟩
    rintro ⟨z, hz, hlow⟩
    exfalso
    have : ∀ (l0 l : List (LfZone K)), List.Forall₂ (fun z0 z => LfInv c.delF z0 z (after c.tStable (records 0 (fsamples h)))) l0 l →
        ∀ z ∈ l0, ¬ LowFreq z.F c.delF z.tLimit (after c.tStable (records 0 (fsamples h))) := by
      intro l0 l hf
      induction hf with
      | nil => simp
      | cons hz hf ih =>
        intro y hy
        rcases List.mem_cons.1 hy with rfl | hy
        · exact hz.quiet
        · exact ih y hy
    exact this _ _ h2 z hz hlow

/-- C36, "does trip": a frequency that stays below `F_LF` for `t_LF_limit` seconds of advancing samples trips. -/
theorem C36_sustained_low_frequency_trips {c : Cfg K W} {s : St K W} (hi : IsInit s) (hen : s.lfEnable = true) (hdel : 0 ≤ c.delF)
    (hlim : ∀ z ∈ s.lf, 0 < z.tLimit) (h : List (Inp K)) (hinc : Increasing (fsamples h)) (hpos : ∀ x ∈ fsamples h, 0 < x.1)
    (hstab : ∀ x ∈ fsamples h, c.tStable < x.1) {z : LfZone K} (hz : z ∈ s.lf) {p q r : List (Inp K)} {a b : Inp K}
    (he : h = p ++ a :: q ++ b :: r) (hlow : ∀ i ∈ a :: q ++ [b], i.f < z.F) (hlong : z.tLimit ≤ b.t - a.t) : (run c s h).lfTrip = true := by
  rw [C36_lf_trip_iff hi hen hdel hlim, records_eq 0 _ hinc hpos]
  refine ⟨z, hz, ?_⟩
  have haf : after c.tStable (fsamples h) = fsamples h := List.filter_eq_self.2 (fun x hx => by simpa using hstab x hx)
  rw [haf, he]
  refine ⟨fsamples p, fsamples q, fsamples r, (a.t, a.f), (b.t, b.f), by simp [fsamples], hlow a (by simp), (hlow b (by simp)).le, ?_, hlong⟩
  intro x hx
  obtain ⟨y, hy, rfl⟩ := List.mem_map.1 hx
  have := hlow y (by simp [hy])
  simp only
  linarith

/-- A state with the frequency logic enabled. -/
def exLf : St ℚ Unit := { exSt with lfEnable := true }

example : IsInit exLf ∧ (run exCfg exLf [{ exInp 1 1 with f := 50 }, { exInp 2 1 with f := 50 }]).lfTrip = true ∧
    (run exCfg exLf [{ exInp 1 1 with f := 58 }, { exInp 200 1 with f := 60 }, { exInp 301 1 with f := 58 }]).lfTrip = false ∧
    (∀ z ∈ exLf.lf, 0 < z.tLimit) := by
  refine ⟨?_, by decide +kernel⟩
  constructor <;> simp [exLf, exSt, Zone.fresh]

end RT
end PvDer
