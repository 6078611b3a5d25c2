import Verif.Props.Edits
import Verif.Props.Loop

/-!
# Property C147: editing the schedules in the middle of a co-simulation

In loop mode the host calls `run_simulation` again and again and may add events in between; the counters of the events object are never reset.
-/

set_option linter.unusedSectionVars false

namespace PvDer

section
variable {K α : Type} [LinearOrder K] [DecidableEq α]

/-- The situation after a query or an addition. -/
def Played.next (σ : Played K α) : Edit K α → Played K α
  | .put T v => ⟨addTimed T v σ.l, σ.prev, true⟩
  | .ask t => ⟨σ.l, some (latest σ.prev t), false⟩

theorem next_sorted {σ : Played K α} (hs : StrictSorted σ.l) (e : Edit K α) : StrictSorted (σ.next e).l := by
  cases e with
  | put T v => exact addTimed_sorted T v hs
  | ask t => exact hs

theorem next_next {σ : Played K α} (hs : StrictSorted σ.l) (e : Edit K α) : σ.Next e (σ.next e) := by
  cases e with
  | put T v => exact ⟨isPut_addTimed hs T v, rfl, rfl⟩
  | ask t => 
    refine ⟨rfl, ?_, rfl⟩
    show some (latest σ.prev t) = _
    cases σ.prev <;> rfl

theorem next_unique {σ σ' : Played K α} (hs : StrictSorted σ.l) {e : Edit K α} (h : σ.Next e σ') : σ' = σ.next e := by
  cases e with
  | put T v =>
    obtain ⟨h1, h2, h3⟩ := h
    rcases σ' with ⟨l, p, w⟩
    simp only at h1 h2 h3
    rw [Played.next, h2, h3, isPut_unique h1 (isPut_addTimed hs T v)]
  | ask t =>
    obtain ⟨h1, h2, h3⟩ := h
    rcases σ' with ⟨l, p, w⟩
    simp only at h1 h2 h3
    subst h1 h2 h3
    rw [Played.next]
    cases σ.prev <;> rfl

/-- The situation after a sequence of queries and additions. -/
def Played.nexts (σ : Played K α) (es : List (Edit K α)) : Played K α := es.foldl Played.next σ

theorem nexts_append (σ : Played K α) (a b : List (Edit K α)) : σ.nexts (a ++ b) = (σ.nexts a).nexts b := by simp [Played.nexts]

theorem tidyAny_append {σ : Played K α} (hs : StrictSorted σ.l) (a b : List (Edit K α)) (h : TidyAny σ (a ++ b)) : TidyAny σ a ∧ TidyAny (σ.nexts a) b := by
  induction a generalizing σ with
  | nil => exact ⟨trivial, h⟩
  | cons e a ih =>
    obtain ⟨h1, h2⟩ := h
    obtain ⟨i1, i2⟩ := ih (next_sorted hs e) (h2 _ (next_next hs e))
    refine ⟨⟨h1, fun σ' hn => ?_⟩, i2⟩
    rw [next_unique hs hn]; exact i1

/-- The playback is where it should be, or (after an addition) at most one event behind. -/
def Okay (σ : Played K α) (c : Int) : Prop := ∃ k j, PosAt σ.l c σ.prev k j ∧ k ≤ if σ.w then 1 else 0

theorem okay_put {σ : Played K α} {c : Int} (h : Okay σ c) (T : K) (v : α) (ha : AfterPrev σ.prev T) : Okay (σ.next (.put T v)) c := by
  obtain ⟨k, j, h1, h2⟩ := h
  obtain ⟨j', hj⟩ := at_put h1 T v
  refine ⟨_, j', hj, ?_⟩
  have h3 : ¬ ∃ a, σ.prev = some a ∧ T ≤ a := by
    rintro ⟨a, h3, h4⟩
    rw [h3] at ha
    exact absurd ha (not_lt.2 h4)
  unfold lagPut
  rw [if_neg h3]
  have : k ≤ 1 := by split at h2 <;> omega
  simp only [Played.next, if_true]
  split
  · exact this
  · split <;> omega

theorem fresh_zero {l : List (Ev K α)} {prev : Option K} {t : K} (h : ∀ e ∈ l, AfterPrev prev e.T → t < e.T) : fresh l prev t = 0 := by
  unfold fresh
  rw [List.length_eq_zero_iff, List.filter_eq_nil_iff]
  intro e he hc
  cases prev with
  | none =>
    simp only [Bool.and_true, decide_eq_true_eq] at hc
    exact absurd (h e he trivial) (not_lt.2 hc)
  | some a =>
    simp only [Bool.and_eq_true, decide_eq_true_eq] at hc
    exact absurd (h e he hc.2) (not_lt.2 hc.1)

theorem okay_ask {σ : Played K α} {c c' : Int} (h : Okay σ c) {dflt v : α} {t : K} (hp : playback σ.l σ.l.length c dflt t = (c', .ok v))
    (hd : ∀ e ∈ σ.l, ∀ e' ∈ σ.l, AfterPrev σ.prev e.T → e.T ≤ t → AfterPrev σ.prev e'.T → e'.T ≤ t → e = e')
    (hw : σ.w = true → (∀ a, σ.prev = some a → a ≤ t) ∧ ∀ e ∈ σ.l, AfterPrev σ.prev e.T → t < e.T) :
    Okay (σ.next (.ask t)) c' ∧ Shown σ.l dflt t (asked σ.prev) (∀ e ∈ σ.l, t < e.T) v := by
  obtain ⟨k, j, h1, h2⟩ := h
  by_cases hwt : σ.w = true
  · obtain ⟨g1, g2⟩ := hw hwt
    obtain ⟨j', hj, hv⟩ := at_ask h1 dflt t g1
    rw [hp] at hj hv
    cases hv
    have hk : lagAsk σ.l σ.prev t k = 0 := by
      unfold lagAsk
      rw [fresh_zero g2]
      rw [if_pos hwt] at h2
      omega
    rw [hk] at hj
    have hpos := hj.pos
    simp only [posOf, Nat.add_zero] at hpos
    constructor
    · refine ⟨0, j', ?_, by simp⟩
      have hl : latest σ.prev t = t := by
        cases hq : σ.prev with
        | none => rfl
        | some a => exact max_eq_right (g1 a hq)
      show PosAt σ.l c' (some (latest σ.prev t)) 0 j'
      rw [hl]; exact hj
    · rw [← hpos]
      apply shown_forward h1.sorted
      rintro e he hlt ⟨a, ha, hb⟩
      exact absurd (lt_of_lt_of_le hlt (hb.trans (g1 a ha))) (lt_irrefl _)
  · rw [if_neg hwt] at h2
    have hk : k = 0 := by omega
    subst hk
    have hpj := h1.pos
    simp only [Nat.add_zero] at hpj
    have hc := h1.ctr
    by_cases hne : σ.l = []
    · rw [hne] at hp hc
      have hv : c' = c ∧ v = dflt := by
        have := Prod.mk.inj hp
        refine ⟨this.1.symm, by simpa using this.2.symm⟩
      obtain ⟨rfl, rfl⟩ := hv
      refine ⟨⟨0, 0, ⟨h1.sorted, ?_, ?_⟩, by simp⟩, ?_⟩
      · show c' = if σ.l = [] then 0 else _
        rw [if_pos hne, hc]; simp
      · show posOf σ.l _ = 0
        rw [hne]; rfl
      · rw [hne]
        have hcor : Correct ([] : List (Ev K α)) v t v := Or.inr ⟨by simp, rfl⟩
        exact ⟨⟨t, le_rfl, Or.inl rfl, hcor⟩, fun _ => hcor, by simp⟩
    · rw [if_neg hne, ← hpj] at hc
      obtain ⟨v', a1, a2⟩ := playback_any h1.sorted hne dflt σ.prev t hd
      rw [← hc, hp] at a1
      obtain ⟨rfl, hv⟩ := Prod.mk.inj a1
      cases hv
      refine ⟨⟨0, posOf σ.l (some (latest σ.prev t)), ⟨h1.sorted, ?_, ?_⟩, by simp⟩, a2⟩
      · show _ = if σ.l = [] then (0 : Int) else _
        rw [if_neg hne]; rfl
      · rfl

theorem tidy_ask {σ : Played K α} {t : K} {es : List (Edit K α)} (hs : StrictSorted σ.l) (h : TidyAny σ (.ask t :: es)) :
    ((∀ e ∈ σ.l, ∀ e' ∈ σ.l, AfterPrev σ.prev e.T → e.T ≤ t → AfterPrev σ.prev e'.T → e'.T ≤ t → e = e') ∧
      (σ.w = true → (∀ a, σ.prev = some a → a ≤ t) ∧ ∀ e ∈ σ.l, AfterPrev σ.prev e.T → t < e.T)) ∧ TidyAny (σ.next (.ask t)) es :=
  ⟨h.1, h.2 _ (next_next hs _)⟩

theorem nexts_asks (σ : Played K α) (ts : List K) : (σ.nexts (ts.map Edit.ask)).l = σ.l := by
  induction ts generalizing σ with
  | nil => rfl
  | cons t ts ih => exact ih (σ.next (.ask t))

theorem tidy_cons_ask {l : List (Ev K α)} {prev : Option K} {w : Bool} {t : K} {es : List (Edit K α)}
    (h1 : ∀ e ∈ l, ∀ e' ∈ l, AfterPrev prev e.T → e.T ≤ t → AfterPrev prev e'.T → e'.T ≤ t → e = e')
    (h2 : w = true → (∀ a, prev = some a → a ≤ t) ∧ ∀ e ∈ l, AfterPrev prev e.T → t < e.T) (h : TidyAny ⟨l, some (latest prev t), false⟩ es) :
    TidyAny ⟨l, prev, w⟩ (.ask t :: es) := by
  refine ⟨⟨h1, h2⟩, fun σ' ⟨n1, n2, n3⟩ => ?_⟩
  rcases σ' with ⟨l', p', w'⟩
  simp only at n1 n2 n3
  subst n1 n2 n3
  cases prev <;> exact h

theorem tidy_cons_put {l l' : List (Ev K α)} {prev : Option K} {w : Bool} {T : K} {v : α} {es : List (Edit K α)}
    (h1 : IsPut l T v l') (h2 : AfterPrev prev T) (h : TidyAny ⟨l', prev, true⟩ es) : TidyAny ⟨l, prev, w⟩ (.put T v :: es) := by
  refine ⟨h2, fun σ' ⟨n1, n2, n3⟩ => ?_⟩
  rcases σ' with ⟨l2, p', w'⟩
  simp only at n1 n2 n3
  subst n2 n3
  rw [isPut_unique n1 h1]; exact h

/-- The latest time asked after a sequence: nothing later than what some query asked for. -/
theorem asked_nexts (σ : Played K α) (es : List (Edit K α)) (τ : K) : asked (σ.nexts es).prev τ → asked σ.prev τ ∨ ∃ u, Edit.ask u ∈ es ∧ τ ≤ u := by
  induction es generalizing σ with
  | nil => exact Or.inl
  | cons e es ih =>
    intro h
    rcases ih (σ.next e) h with h | ⟨u, hu, h⟩
    · cases e with
      | put T v => exact Or.inl h
      | ask t =>
        rcases (asked_latest σ.prev t τ).1 h with h | h
        · exact Or.inr ⟨t, List.mem_cons_self, h⟩
        · exact Or.inl h
    · exact Or.inr ⟨u, List.mem_cons_of_mem _ hu, h⟩

end

namespace Session
open Complex Phasor Ode Eval Config

variable {mt : Sim.Mt} {c : Cfg (clsOf mt)} {w : Co (clsOf mt)}

/-! ## Specification: what happens to the insolation schedule -/

/-- The solar schedule's share of an action: the times asked by a call (evaluations and reported times), or an edit. -/
noncomputable def actEdits (mt : Sim.Mt) (c : Cfg (clsOf mt)) (w : Co (clsOf mt)) : LAct (clsOf mt) → List (Edit ℝ (Events.SolarVal ℝ))
  | .call a => (stepAsks mt c w a).map Edit.ask
  | .edit o => (Events.solarEdit c.g.sp o).toList

/-- The same for the whole co-simulation. -/
noncomputable def coEdits (mt : Sim.Mt) (c : Cfg (clsOf mt)) (w : Co (clsOf mt)) : List (LAct (clsOf mt)) → List (Edit ℝ (Events.SolarVal ℝ))
  | [] => []
  | a :: l => actEdits mt c w a ++ coEdits mt c (coAct mt c w a).1 l

/-- The calls on the events object that may come in the middle of a co-simulation. -/
def LAct.okay {k : Cls} : LAct k → Prop
  | .call _ => True
  | .edit o => o.underWay = true

/-! ## The invariant -/

structure PosE (σ : Played ℝ (Events.SolarVal ℝ)) (ev : Events.St ℝ) : Prop where
  lst : ev.solar = σ.l
  en : ev.solarEnable = true
  inv : Events.Inv ev
  at_ : Okay σ ev.solarCtr

theorem PosE.sorted {σ : Played ℝ (Events.SolarVal ℝ)} {ev : Events.St ℝ} (h : PosE σ ev) : StrictSorted σ.l := by
  rw [← h.lst]; exact h.inv.solarS

theorem posE_eval {k : Cls} {g : SCfg} {h : Hid} {cl : Call k} {e : Env} {σ : Played ℝ (Events.SolarVal ℝ)} (hP : PosE σ h.ev)
    (he : (evalEnv k g cl h).2 = .ok e) {es : List (Edit ℝ (Events.SolarVal ℝ))} (hd : TidyAny σ (.ask cl.t :: es)) :
    PosE (σ.next (.ask cl.t)) (evalEnv k g cl h).1.ev ∧
      ∃ v, Shown σ.l ⟨g.sp.insolation.dflt, 29815 / 100⟩ cl.t (asked σ.prev) (∀ e ∈ σ.l, cl.t < e.T) v ∧ (evalEnv k g cl h).1.Sinsol = v.Sinsol ∧ (evalEnv k g cl h).1.Tactual = v.Tactual ∧
        (k ∈ classes → SunOk g h → e.Ppv = if (evalEnv k g cl h).1.rt.connected = true then
          PV.ppv g.p.mod v.Sinsol v.Tactual (min g.p.Vdcmpp_max (e.Vdc * g.p.Vdcbase)) else 0) := by
  obtain ⟨v, v1, v2, v3, v4, v5, v6, v7, h5, w1, w2, w3, w4⟩ := eval_solar he hP.inv hP.en
  rw [hP.lst] at v1 v2
  obtain ⟨⟨d1, d2⟩, _⟩ := tidy_ask hP.sorted hd
  obtain ⟨a1, a2⟩ := okay_ask hP.at_ v1 d1 d2
  refine ⟨⟨v2, v3, v4, a1⟩, v, a2, v5, v6, fun hk hI => ?_⟩
  split
  · rename_i hcon
    have b4 : h5.Iph = PV.iph g.p.mod h5.Sinsol h5.Tactual := by rw [w4, w2, w3]; exact v7 fun _ => hI
    rw [w1] at hcon he
    obtain ⟨_, _, _, he'⟩ := rt_ok he
    rw [hcon] at he'
    rw [he']
    have := envC_ppv (g := g) hk cl h5 b4
    rw [w2, w3] at this
    exact this
  · rename_i hcon
    obtain ⟨e0, he0⟩ := eval_disconnected he (by simpa using hcon)
    rw [he0]; rfl

theorem posE_run {k : Cls} {g : SCfg} {h : Hid} {σ : Played ℝ (Events.SolarVal ℝ)} (hP : PosE σ h.ev) (l : List (Call k)) (hok : Ok k g h l)
    (hd : TidyAny σ ((l.map Call.t).map Edit.ask)) : PosE (σ.nexts ((l.map Call.t).map Edit.ask)) (run k g h l).ev := by
  induction l generalizing h σ with
  | nil => exact hP
  | cons cl l ih =>
    obtain ⟨⟨e, he⟩, ho⟩ := hok
    exact ih (posE_eval hP he hd).1 ho (tidy_ask hP.sorted hd).2

theorem posE_query {sp : Events.EvSpec ℝ} {σ : Played ℝ (Events.SolarVal ℝ)} {ev : Events.St ℝ} (hP : PosE σ ev) (ts : List ℝ)
    (hd : TidyAny σ (ts.map Edit.ask)) {vs : List (Events.SolarVal ℝ)} {ev' : Events.St ℝ} (hq : queryAll (Events.solarEvents sp) ev ts = (ev', .ok vs)) :
    PosE (σ.nexts (ts.map Edit.ask)) ev' := by
  induction ts generalizing ev σ vs with
  | nil => simp only [queryAll, Prod.mk.injEq] at hq; rw [← hq.1]; exact hP
  | cons t ts ih =>
    unfold queryAll at hq
    have hen := Events.solarEvents_enabled sp ev hP.inv hP.en t
    have hinv := Events.inv_solarEvents (sp := sp) hP.inv t
    obtain ⟨⟨d1, d2⟩, d3⟩ := tidy_ask hP.sorted hd
    rcases hx : Events.solarEvents sp ev t with ⟨ev1, r⟩
    rw [hx] at hq hen hinv
    cases r with
    | error e => simp at hq
    | ok v =>
      dsimp only at hq
      rcases hy : queryAll (Events.solarEvents sp) ev1 ts with ⟨ev2, r'⟩
      rw [hy] at hq
      cases r' with
      | error e => simp at hq
      | ok vs' =>
        simp only [Prod.mk.injEq, Except.ok.injEq] at hq
        obtain ⟨rfl, _⟩ := hq
        have hpb : playback σ.l σ.l.length ev.solarCtr ⟨sp.insolation.dflt, 29815 / 100⟩ t = (ev1.solarCtr, .ok v) := by
          rw [← hP.lst]
          have h1 := hen
          simp only [Prod.mk.injEq] at h1
          rw [h1.1]
          exact Prod.ext rfl h1.2.symm
        have hfr := hen
        simp only [Prod.mk.injEq] at hfr
        obtain ⟨a1, _⟩ := okay_ask hP.at_ hpb d1 d2
        refine ih (σ := σ.next (.ask t)) ⟨?_, ?_, hinv, a1⟩ d3 hy
        · rw [hfr.1]; exact hP.lst
        · rw [hfr.1]; exact hP.en

/-- One call. -/
theorem posE_step (hsa : c.g.standAlone = false) (hl : c.loop = true) {σ : Played ℝ (Events.SolarVal ℝ)} (hP : PosE σ w.s.h.ev)
    (a : LStep (clsOf mt)) (hret : (coStep mt c w a).2 = .ok ()) (hd : TidyAny σ ((stepAsks mt c w a).map Edit.ask)) :
    PosE (σ.nexts ((stepAsks mt c w a).map Edit.ask)) (coStep mt c w a).1.s.h.ev := by
  obtain ⟨y, rows, mused, _, hok, hr⟩ := runLoop_ok hret
  have hret' := hret
  unfold stepAsks at hd ⊢
  rw [List.map_append] at hd ⊢
  obtain ⟨d1, d2⟩ := tidyAny_append hP.sorted _ _ hd
  have h1 := posE_run hP (stepCalls mt c w a) hok d1
  rw [nexts_append]
  show PosE _ (runLoop c a.sv (w.x.measure mt a.va a.vb a.vc) a.y0 a.ts w.s).1.h.ev
  have hret'' : (runLoop c a.sv (w.x.measure mt a.va a.vb a.vc) a.y0 a.ts w.s).2 = .ok () := hret'
  rw [hr] at hret'' ⊢
  unfold finish at hret'' ⊢
  by_cases hcoll : c.coll = true
  · simp only [hcoll, if_true] at hret'' d2 ⊢
    unfold collectSeries at hret'' ⊢
    rw [if_neg (by simp [hsa])] at hret'' ⊢
    dsimp only at hret'' ⊢
    rcases hx : queryAll (Events.solarEvents c.g.sp) (run (clsOf mt) c.g w.s.h (trace c.g c.J (w.x.measure mt a.va a.vb a.vc) (a.sv a.y0 a.ts) w.s.h)).ev a.ts with ⟨ev, r⟩
    rw [hx] at hret''
    cases r with
    | error e => simp at hret''
    | ok vs =>
      show PosE _ (resetUnless c.loop ev)
      rw [hl]
      exact posE_query h1 a.ts d2 hx
  · simp only [hcoll] at d2 ⊢
    exact h1

/-- One call on the events object. -/
theorem posE_edit {σ : Played ℝ (Events.SolarVal ℝ)} (hP : PosE σ w.s.h.ev) (o : Events.Op ℝ) (ho : o.underWay = true)
    (hd : TidyAny σ (Events.solarEdit c.g.sp o).toList) :
    PosE (σ.nexts (Events.solarEdit c.g.sp o).toList) (Events.step c.g.evc c.g.sp w.s.h.ev o) := by
  have hi := Events.inv_step (c := c.g.evc) (sp := c.g.sp) hP.inv o
  rcases he : Events.solarEdit c.g.sp o with _ | e
  · obtain ⟨h1, h2, h3⟩ := Events.solar_frame c.g.evc c.g.sp w.s.h.ev o ho he
    exact ⟨h1.trans hP.lst, h3.trans hP.en, hi, by rw [h2]; exact hP.at_⟩
  · rw [he] at hd
    cases o with
    | addSolar T S Ta =>
      simp only [Events.solarEdit] at he
      split at he
      · rename_i h
        cases he
        have hst : Events.step c.g.evc c.g.sp w.s.h.ev (.addSolar T S Ta) = Events.updateTotals { w.s.h.ev with solar := addTimed T ⟨S, Ta⟩ w.s.h.ev.solar } := by
          simp only [Events.step, Events.addSolar]
          rw [if_neg (by push Not; exact ⟨h.1, h.2.1⟩), if_neg (by push Not; exact ⟨h.2.2.2, h.2.2.1⟩)]
        refine ⟨?_, ?_, hi, ?_⟩
        · rw [hst]
          show addTimed T _ w.s.h.ev.solar = addTimed T _ σ.l
          rw [hP.lst]
        · rw [hst]; exact hP.en
        · rw [hst]; exact okay_put hP.at_ T _ hd.1
      · cases he
    | querySolar t =>
      simp only [Events.solarEdit, Option.some.injEq] at he
      subst he
      have hen := Events.solarEvents_enabled c.g.sp w.s.h.ev hP.inv hP.en t
      obtain ⟨⟨d1, d2⟩, _⟩ := tidy_ask hP.sorted hd
      have hb : 0 ≤ w.s.h.ev.solarCtr ∧ (w.s.h.ev.solar ≠ [] → w.s.h.ev.solarCtr < w.s.h.ev.solar.length) := by
        refine ⟨hP.inv.solarC, fun hne => ?_⟩
        obtain ⟨k, j, h1, _⟩ := hP.at_
        have hc := h1.ctr
        rw [← hP.lst, if_neg hne] at hc
        have := List.length_pos_of_ne_nil hne
        omega
      obtain ⟨c', v, hpb, _, _⟩ := playback_ok hP.inv.solarS w.s.h.ev.solarCtr hb.1 hb.2 (⟨c.g.sp.insolation.dflt, 29815 / 100⟩ : Events.SolarVal ℝ) t
      have hst : Events.step c.g.evc c.g.sp w.s.h.ev (.querySolar t) = { w.s.h.ev with solarCtr := c' } := by
        show (Events.solarEvents c.g.sp w.s.h.ev t).1 = _
        rw [hen, hpb]
      rw [hst] at hi ⊢
      rw [hP.lst] at hpb
      exact ⟨hP.lst, hP.en, hi, (okay_ask hP.at_ hpb d1 d2).1⟩
    | _ => simp [Events.solarEdit] at he

theorem posE_acts (hsa : c.g.standAlone = false) (hl : c.loop = true) {σ : Played ℝ (Events.SolarVal ℝ)} (hP : PosE σ w.s.h.ev)
    (l : List (LAct (clsOf mt))) (ho : ∀ a ∈ l, a.okay) (hret : CoActReturn mt c w l) (hd : TidyAny σ (coEdits mt c w l)) :
    PosE (σ.nexts (coEdits mt c w l)) (coActs mt c w l).s.h.ev := by
  induction l generalizing w σ with
  | nil => exact hP
  | cons a l ih =>
    obtain ⟨d1, d2⟩ := tidyAny_append hP.sorted _ _ hd
    have h1 : PosE (σ.nexts (actEdits mt c w a)) (coAct mt c w a).1.s.h.ev := by
      cases a with
      | call a => exact posE_step hsa hl hP a hret.1 d1
      | edit o => exact posE_edit hP o (ho _ List.mem_cons_self) d1
    have h2 := ih h1 (fun b hb => ho b (List.mem_cons_of_mem _ hb)) hret.2 d2
    show PosE (σ.nexts (actEdits mt c w a ++ coEdits mt c (coAct mt c w a).1 l)) _
    rw [nexts_append]
    exact h2

/-! ## The schedule in force -/

theorem step_facts {P : Events.St ℝ → Prop} (hk : Kept c.g P) (hR : ∀ ev, P ev → P (Events.resetCounters ev)) (a : LStep (clsOf mt))
    (hret : (coStep mt c w a).2 = .ok ()) (h0 : P w.s.h.ev) (hI : SunOk c.g w.s.h) :
    P (coStep mt c w a).1.s.h.ev ∧ SunOk c.g (coStep mt c w a).1.s.h := by
  obtain ⟨y, rows, mused, _, hok, hr⟩ := runLoop_ok hret
  have h1 := run_sun _ hok hI
  have h2 := run_kept hk (trace c.g c.J (w.x.measure mt a.va a.vb a.vc) (a.sv a.y0 a.ts) w.s.h) h0
  show P (runLoop c a.sv (w.x.measure mt a.va a.vb a.vc) a.y0 a.ts w.s).1.h.ev ∧ SunOk c.g (runLoop c a.sv (w.x.measure mt a.va a.vb a.vc) a.y0 a.ts w.s).1.h
  rw [hr]
  unfold finish
  split
  · exact And.imp_right And.left (collect_facts (c := { c with x := w.x.measure mt a.va a.vb a.vc }) (P := P) hk hR a.ts rows h2 h1)
  · exact ⟨h2, h1⟩

theorem kept_solar (S : List (Ev ℝ (Events.SolarVal ℝ))) : Kept c.g (fun ev => ev.solar = S ∧ Events.Inv ev) := by
  refine ⟨fun ev t h => ?_, fun ev t h => ?_, fun ev t h => ?_⟩
  · exact ⟨(Events.grid_solar_frame c.g.evc c.g.sp ev t).1.trans h.1, Events.inv_gridEvents h.2 t⟩
  · exact ⟨(Events.solarEvents_frame c.g.sp ev t).1.trans h.1, Events.inv_solarEvents h.2 t⟩
  · exact ⟨(Events.loadEvents_frame ev t).1.trans h.1, Events.inv_loadEvents h.2 t⟩

theorem call_solar (a : LStep (clsOf mt)) (hret : (coStep mt c w a).2 = .ok ()) (hi : Events.Inv w.s.h.ev) (hI : SunOk c.g w.s.h) :
    ((coStep mt c w a).1.s.h.ev.solar = w.s.h.ev.solar ∧ Events.Inv (coStep mt c w a).1.s.h.ev) ∧ SunOk c.g (coStep mt c w a).1.s.h :=
  step_facts (kept_solar w.s.h.ev.solar) (fun _ h => ⟨h.1, Events.inv_step (c := c.g.evc) (sp := c.g.sp) h.2 .reset⟩) a hret ⟨rfl, hi⟩ hI

theorem sun_acts (l : List (LAct (clsOf mt))) (hret : CoActReturn mt c w l) (hi : Events.Inv w.s.h.ev) (hI : SunOk c.g w.s.h) : SunOk c.g (coActs mt c w l).s.h := by
  induction l generalizing w with
  | nil => exact hI
  | cons a l ih =>
    cases a with
    | call a =>
      obtain ⟨⟨_, h1⟩, h2⟩ := call_solar a hret.1 hi hI
      exact ih hret.2 h1 h2
    | edit o => exact ih (w := (coAct mt c w (.edit o)).1) hret.2 (Events.inv_step hi o) hI

/-- The accepted additions to the insolation schedule, in order. -/
noncomputable def additions {k : Cls} (sp : Events.EvSpec ℝ) : List (LAct k) → List (Ev ℝ (Events.SolarVal ℝ))
  | [] => []
  | .edit (.addSolar T S Ta) :: l => if sp.insolation.min ≤ S ∧ S ≤ sp.insolation.max ∧ 250 ≤ Ta ∧ Ta ≤ 375 then ⟨T, ⟨S, Ta⟩⟩ :: additions sp l else additions sp l
  | _ :: l => additions sp l

/-- C147: the schedule in force after any number of calls and edits is the original one updated by the accepted additions: for each time stamp the last addition counts. -/
theorem C147_schedule (hr : Events.Reachable c.g.evc w.s.h.ev) (hI : SunOk c.g w.s.h) (l : List (LAct (clsOf mt))) (ho : ∀ a ∈ l, a.okay) (hret : CoActReturn mt c w l)
    (e : Ev ℝ (Events.SolarVal ℝ)) :
    e ∈ (coActs mt c w l).s.h.ev.solar ↔
      (∃ p q, additions c.g.sp l = p ++ e :: q ∧ ∀ e' ∈ q, e'.T ≠ e.T) ∨ (e ∈ w.s.h.ev.solar ∧ ∀ e' ∈ additions c.g.sp l, e'.T ≠ e.T) := by
  have hi := Events.inv_reachable hr
  clear hr
  induction l generalizing w with
  | nil => 
    show e ∈ w.s.h.ev.solar ↔ _
    simp [additions]
  | cons a l ih =>
    have ho' : ∀ b ∈ l, b.okay := fun b hb => ho b (List.mem_cons_of_mem _ hb)
    have hoa := ho a List.mem_cons_self
    show e ∈ (coActs mt c (coAct mt c w a).1 l).s.h.ev.solar ↔ _
    cases a with
    | call a =>
      obtain ⟨⟨h1, h2⟩, h3⟩ := call_solar a hret.1 hi hI
      refine (ih h3 ho' hret.2 h2).trans ?_
      show _ ∨ (e ∈ (coStep mt c w a).1.s.h.ev.solar ∧ _) ↔ _
      rw [h1]; rfl
    | edit o =>
      have h2 : Events.Inv (coAct mt c w (.edit o)).1.s.h.ev := Events.inv_step hi o
      refine (ih (w := (coAct mt c w (.edit o)).1) hI ho' hret.2 h2).trans ?_
      show _ ∨ (e ∈ (Events.step c.g.evc c.g.sp w.s.h.ev o).solar ∧ _) ↔ _
      rcases he : Events.solarEdit c.g.sp o with _ | x
      · obtain ⟨h3, _, _⟩ := Events.solar_frame c.g.evc c.g.sp w.s.h.ev o hoa he
        rw [h3]
        have : additions c.g.sp (LAct.edit (k := clsOf mt) o :: l) = additions c.g.sp l := by
          cases o with
          | addSolar T S Ta =>
            simp only [Events.solarEdit] at he
            split at he
            · cases he
            · rename_i h; simp only [additions]; rw [if_neg h]
          | _ => rfl
        rw [this]
      · cases o with
        | addSolar T S Ta =>
          simp only [Events.solarEdit] at he
          split at he
          · rename_i h
            have hst : Events.step c.g.evc c.g.sp w.s.h.ev (.addSolar T S Ta) = Events.updateTotals { w.s.h.ev with solar := addTimed T ⟨S, Ta⟩ w.s.h.ev.solar } := by
              simp only [Events.step, Events.addSolar]
              rw [if_neg (by push Not; exact ⟨h.1, h.2.1⟩), if_neg (by push Not; exact ⟨h.2.2.2, h.2.2.1⟩)]
            have had : additions c.g.sp (LAct.edit (k := clsOf mt) (.addSolar T S Ta) :: l) = ⟨T, ⟨S, Ta⟩⟩ :: additions c.g.sp l := by
              simp only [additions]; rw [if_pos h]
            have hm : e ∈ (Events.step c.g.evc c.g.sp w.s.h.ev (.addSolar T S Ta)).solar ↔ e = ⟨T, ⟨S, Ta⟩⟩ ∨ (e ∈ w.s.h.ev.solar ∧ e.T ≠ T) := by
              rw [hst]; exact mem_addTimed T _ hi.solarS e
            rw [hm, had]
            generalize additions c.g.sp l = A
            constructor
            · rintro (⟨p, q, rfl, h2⟩ | ⟨rfl | ⟨h1, h2⟩, h3⟩)
              · exact Or.inl ⟨⟨T, ⟨S, Ta⟩⟩ :: p, q, rfl, h2⟩
              · exact Or.inl ⟨[], A, rfl, h3⟩
              · right
                refine ⟨h1, fun e' he' => ?_⟩
                rcases List.mem_cons.1 he' with rfl | he'
                · exact fun hh => h2 hh.symm
                · exact h3 e' he'
            · rintro (⟨p, q, h1, h2⟩ | ⟨h1, h2⟩)
              · cases p with
                | nil =>
                  simp only [List.nil_append, List.cons.injEq] at h1
                  obtain ⟨rfl, rfl⟩ := h1
                  exact Or.inr ⟨Or.inl rfl, h2⟩
                | cons x p =>
                  simp only [List.cons_append, List.cons.injEq] at h1
                  exact Or.inl ⟨p, q, h1.2, h2⟩
              · exact Or.inr ⟨Or.inr ⟨h1, fun hh => h2 ⟨T, ⟨S, Ta⟩⟩ List.mem_cons_self hh.symm⟩, fun e' he' => h2 e' (List.mem_cons_of_mem _ he')⟩
          · cases he
        | querySolar t =>
          have : (Events.step c.g.evc c.g.sp w.s.h.ev (.querySolar t)).solar = w.s.h.ev.solar := (Events.solarEvents_frame c.g.sp w.s.h.ev t).1
          rw [this]; rfl
        | _ => simp [Events.solarEdit] at he

/-- C147: in a co-simulation with editing between the calls, an evaluation that is not earlier than the times asked so far uses the weather that the schedule in force
holds for its time, and computes the PV power from it — provided the use is tidy (`TidyAny`). -/
theorem C147_follows_schedule (hsa : c.g.standAlone = false) (hl : c.loop = true) (hr : Events.Reachable c.g.evc w.s.h.ev)
    (hz : w.s.h.ev = Events.resetCounters w.s.h.ev) (hen : w.s.h.ev.solarEnable = true) (hI : SunOk c.g w.s.h) (l : List (LAct (clsOf mt))) (ho : ∀ a ∈ l, a.okay)
    (hret : CoActReturn mt c w l) (a : LStep (clsOf mt)) (hok : Ok (clsOf mt) c.g (coActs mt c w l).s.h (stepCalls mt c (coActs mt c w l) a))
    (p q : List (Call (clsOf mt))) (cl : Call (clsOf mt)) (htr : stepCalls mt c (coActs mt c w l) a = p ++ cl :: q)
    (hd : TidyAny ⟨w.s.h.ev.solar, none, false⟩ (coEdits mt c w l ++ ((p.map Call.t).map Edit.ask ++ [Edit.ask cl.t])))
    (hfwd : (∀ u, Edit.ask u ∈ coEdits mt c w l → u ≤ cl.t) ∧ ∀ b ∈ p, b.t ≤ cl.t) :
    ∃ v e, Correct (coActs mt c w l).s.h.ev.solar ⟨c.g.sp.insolation.dflt, 29815 / 100⟩ cl.t v ∧
      (evalEnv (clsOf mt) c.g cl (run (clsOf mt) c.g (coActs mt c w l).s.h p)).2 = .ok e ∧
      e.Ppv = (if (run (clsOf mt) c.g (coActs mt c w l).s.h (p ++ [cl])).rt.connected = true then
        PV.ppv c.g.p.mod v.Sinsol v.Tactual (min c.g.p.Vdcmpp_max (e.Vdc * c.g.p.Vdcbase)) else 0) := by
  have hi := Events.inv_reachable hr
  have h0 : PosE ⟨w.s.h.ev.solar, none, false⟩ w.s.h.ev := by
    refine ⟨rfl, hen, hi, 0, 0, ?_, le_rfl⟩
    have hc : w.s.h.ev.solarCtr = 0 := by rw [hz]; rfl
    rw [hc]
    exact Events.posAt_start hi.solarS
  obtain ⟨d1, d2⟩ := tidyAny_append h0.sorted _ _ hd
  have h1 := posE_acts hsa hl h0 l ho hret d1
  obtain ⟨d2, d3⟩ := tidyAny_append h1.sorted _ _ d2
  rw [htr] at hok
  obtain ⟨o1, o2⟩ := (ok_append _ _ _).1 hok
  have h2 := posE_run h1 p o1 d2
  have h3 := run_sun p o1 (sun_acts l hret hi hI)
  obtain ⟨⟨e, he⟩, _⟩ := o2
  obtain ⟨_, v, v1, _, _, v4⟩ := posE_eval h2 he d3
  have hrun : run (clsOf mt) c.g (coActs mt c w l).s.h (p ++ [cl]) = (evalEnv (clsOf mt) c.g cl (run (clsOf mt) c.g (coActs mt c w l).s.h p)).1 := by
    rw [run_append]; rfl
  have hlst : (((⟨w.s.h.ev.solar, none, false⟩ : Played ℝ (Events.SolarVal ℝ)).nexts (coEdits mt c w l)).nexts ((p.map Call.t).map Edit.ask)).l = (coActs mt c w l).s.h.ev.solar := by
    rw [h1.lst]
    exact nexts_asks _ _
  rw [hlst] at v1
  rw [hrun]
  refine ⟨v, e, v1.2.1 (Or.inl ?_), he, v4 (clsOf_mem mt) h3⟩
  intro e he hlt hasked
  rcases asked_nexts _ _ _ hasked with h | ⟨u, hu, h⟩
  · rcases asked_nexts _ _ _ h with ⟨_, h, _⟩ | ⟨u, hu, h⟩
    · simp at h
    · exact absurd (lt_of_lt_of_le hlt (h.trans (hfwd.1 u hu))) (lt_irrefl _)
  · obtain ⟨b, hb, hbu⟩ := List.mem_map.1 hu
    obtain ⟨b', hb', rfl⟩ := List.mem_map.1 hb
    cases hbu
    exact absurd (lt_of_lt_of_le hlt (h.trans (hfwd.2 b' hb'))) (lt_irrefl _)

/-! ## No exception; the protection does not notice the edits -/

/-- C147: adding, resetting, enabling and querying between the calls of a co-simulation never leads to an exception in a later call (removals may, C10). -/
theorem C147_no_exception (hg : Good (clsOf mt) c.g w.s.h) (l : List (LAct (clsOf mt))) (hS : ∀ a, LAct.call a ∈ l → Healthy (a.sv a.y0 a.ts))
    (hq : ∀ o, LAct.edit (k := clsOf mt) o ∈ l → o.isRemoval = false) :
    CoActReturn mt c w l ∧ Good (clsOf mt) c.g (coActs mt c w l).s.h := by
  induction l generalizing w with
  | nil => exact ⟨trivial, hg⟩
  | cons a l ih =>
    have h1 : (coAct mt c w a).2 = .ok () ∧ Good (clsOf mt) c.g (coAct mt c w a).1.s.h := by
      cases a with
      | call a => exact runLoop_good (c := c) (sv := a.sv) (x := w.x.measure mt a.va a.vb a.vc) (y0 := a.y0) (ts := a.ts) hg (hS a List.mem_cons_self)
      | edit o =>
        exact ⟨rfl, { hg with ev := ⟨Events.inv_step hg.ev.inv o, Events.limits_step hg.ev.inv hg.ev.lim o,
          Events.tight_step (c := c.g.evc) (sp := c.g.sp) hg.ev.inv hg.ev.tight o (hq o List.mem_cons_self)⟩ }⟩
    obtain ⟨i1, i2⟩ := ih (w := (coAct mt c w a).1) h1.2 (fun b hb => hS b (List.mem_cons_of_mem _ hb)) (fun o h => hq o (List.mem_cons_of_mem _ h))
    exact ⟨⟨h1.1, i1⟩, i2⟩

/-- The evaluations of the whole co-simulation. -/
noncomputable def actCalls (mt : Sim.Mt) (c : Cfg (clsOf mt)) (w : Co (clsOf mt)) : List (LAct (clsOf mt)) → List (Call (clsOf mt))
  | [] => []
  | .call a :: l => stepCalls mt c w a ++ actCalls mt c (coAct mt c w (.call a)).1 l
  | .edit o :: l => actCalls mt c (coAct mt c w (.edit o)).1 l

theorem coActs_rt {f : Call (clsOf mt) → ℝ} (hf : Sees (clsOf mt) c.g f) (l : List (LAct (clsOf mt))) (hret : CoActReturn mt c w l) :
    ∃ ins : List (RT.Inp ℝ), RT.samples ins = (actCalls mt c w l).map (fun cl => (cl.t, f cl)) ∧
      RT.strip (coActs mt c w l).s.h.rt = RT.run c.g.rt.unit (RT.strip w.s.h.rt) ins := by
  induction l generalizing w with
  | nil => exact ⟨[], rfl, rfl⟩
  | cons a l ih =>
    cases a with
    | edit o =>
      obtain ⟨i2, b1, b2⟩ := ih (w := (coAct mt c w (.edit o)).1) hret.2
      exact ⟨i2, b1, b2⟩
    | call a =>
      obtain ⟨y, rows, mused, _, hok, hr⟩ := runLoop_ok hret.1
      have hrt : (coStep mt c w a).1.s.h.rt = (run (clsOf mt) c.g w.s.h (stepCalls mt c w a)).rt := runLoop_rt hret.1
      obtain ⟨i1, a1, a2⟩ := run_rt hf (stepCalls mt c w a) w.s.h hok
      obtain ⟨i2, b1, b2⟩ := ih (w := (coStep mt c w a).1) hret.2
      refine ⟨i1 ++ i2, ?_, ?_⟩
      · show RT.samples (i1 ++ i2) = (stepCalls mt c w a ++ actCalls mt c (coStep mt c w a).1 l).map _
        rw [List.map_append, ← a1, ← b1]; simp [RT.samples]
      · show RT.strip (coActs mt c (coStep mt c w a).1 l).s.h.rt = _
        rw [b2, hrt, a2]; simp [RT.run]

/-- C147: editing the schedules does not disturb the voltage timers: the low-voltage trip flag is set after the co-simulation iff the evaluations of its calls, taken
as one history, exceed a zone. -/
theorem C147_lv_trip_iff {f : Call (clsOf mt) → ℝ} (hf : Sees (clsOf mt) c.g f) (hi : RT.IsInit w.s.h.rt) (hen : w.s.h.rt.lvEnable = true)
    (l : List (LAct (clsOf mt))) (hret : CoActReturn mt c w l) :
    (coActs mt c w l).s.h.rt.lv.trip = true ↔
      ∃ z ∈ w.s.h.rt.lv.zones, RT.Exceeds (z.Vthr * c.g.Vref) z.tThr (RT.after c.g.tStable (RT.records 0 ((actCalls mt c w l).map fun cl => (cl.t, f cl)))) := by
  obtain ⟨ins, h1, h2⟩ := coActs_rt hf l hret
  have h3 : (coActs mt c w l).s.h.rt.lv.trip = (RT.run c.g.rt.unit (RT.strip w.s.h.rt) ins).lv.trip := by rw [← h2]; rfl
  rw [h3, RT.C16_lv_trip_iff (isInit_strip hi) hen ins, h1]
  rfl

/-- C147: mirror image for high voltage. -/
theorem C147_hv_trip_iff {f : Call (clsOf mt) → ℝ} (hf : Sees (clsOf mt) c.g f) (hi : RT.IsInit w.s.h.rt) (hen : w.s.h.rt.hvEnable = true)
    (l : List (LAct (clsOf mt))) (hret : CoActReturn mt c w l) :
    (coActs mt c w l).s.h.rt.hv.trip = true ↔
      ∃ z ∈ w.s.h.rt.hv.zones, RT.ExceedsHigh (z.Vthr * c.g.Vref) z.tThr (RT.after c.g.tStable (RT.records 0 ((actCalls mt c w l).map fun cl => (cl.t, f cl)))) := by
  obtain ⟨ins, h1, h2⟩ := coActs_rt hf l hret
  have h3 : (coActs mt c w l).s.h.rt.hv.trip = (RT.run c.g.rt.unit (RT.strip w.s.h.rt) ins).hv.trip := by rw [← h2]; rfl
  rw [h3, RT.C17_hv_trip_iff (isInit_strip hi) hen ins, h1]
  rfl

/-! ## Example -/

/-- Insolation events at 1, 2 and 3 s.  A call over [0, 1]; the host replaces the event of 2 s and adds one at 5/2 s; the next call evaluates at 1 s and 9/4 s. -/
theorem C147_example (y : three.V → ℝ) :
    let l : List (LAct (clsOf .three)) := [.call (exStep y (1 / 2) [1 / 2, 1] [0, 1]), .edit (.addSolar 2 40 300), .edit (.addSolar (5 / 2) 30 300)]
    let a := exStep y (1 / 2) [1, 9 / 4] [1, 9 / 4]
    Events.Reachable exLC.g.evc (exLW y).s.h.ev ∧ (exLW y).s.h.ev = Events.resetCounters (exLW y).s.h.ev ∧ (exLW y).s.h.ev.solarEnable = true ∧ SunOk exLC.g (exLW y).s.h ∧
      (∀ x ∈ l, x.okay) ∧ CoActReturn .three exLC (exLW y) l ∧
      Ok (clsOf .three) exLC.g (coActs .three exLC (exLW y) l).s.h (stepCalls .three exLC (coActs .three exLC (exLW y) l) a) ∧
      stepCalls .three exLC (coActs .three exLC (exLW y) l) a = [mkCall (k := three) ⟨1 / 2, ub (1 / 2), uc (1 / 2), 377⟩ false y 1] ++
        mkCall (k := three) ⟨1 / 2, ub (1 / 2), uc (1 / 2), 377⟩ false y (9 / 4) :: [] ∧
      coEdits .three exLC (exLW y) l = [.ask (1 / 2), .ask 1, .ask 0, .ask 1, .put 2 ⟨40, 300⟩, .put (5 / 2) ⟨30, 300⟩] ∧
      TidyAny ⟨(exLW y).s.h.ev.solar, none, false⟩ (coEdits .three exLC (exLW y) l ++ ([Edit.ask 1] ++ [.ask (9 / 4)])) ∧
      (coActs .three exLC (exLW y) l).s.h.ev.solar = [⟨1, ⟨50, 300⟩⟩, ⟨2, ⟨40, 300⟩⟩, ⟨5 / 2, ⟨30, 300⟩⟩, ⟨3, ⟨70, 300⟩⟩] := by
  intro l a
  have hg : Good (clsOf .three) exLC.g (exLW y).s.h := exS_good false y
  have hS : ∀ a, LAct.call a ∈ l → Healthy (a.sv a.y0 a.ts) := by
    intro a ha
    simp only [l, List.mem_cons, List.not_mem_nil, or_false, LAct.call.injEq, reduceCtorEq] at ha
    subst ha; exact exStep_healthy _ _ _ _
  have hq : ∀ o, LAct.edit (k := clsOf .three) o ∈ l → o.isRemoval = false := by
    intro o hoo
    simp only [l, List.mem_cons, List.not_mem_nil, or_false, LAct.edit.injEq, reduceCtorEq, false_or] at hoo
    rcases hoo with rfl | rfl <;> rfl
  obtain ⟨hret, g1⟩ := C147_no_exception (mt := .three) (c := exLC) (w := exLW y) hg l hS hq
  have hb := exS_between false y
  have hx : (coActs .three exLC (exLW y) l).x.w = 377 := rfl
  have c1 := exStep_calls (w := exLW y) y (1 / 2) [1 / 2, 1] [0, 1] hg
  have c2 := exStep_calls (w := coActs .three exLC (exLW y) l) y (1 / 2) [1, 9 / 4] [1, 9 / 4] g1
  have s1 : exLC.g.sp.insolation.min ≤ 40 ∧ 40 ≤ exLC.g.sp.insolation.max ∧ (250 : ℝ) ≤ 300 ∧ (300 : ℝ) ≤ 375 := by
    simp [exLC, exC, exG, Events.defaultSpec]; norm_num
  have s2 : exLC.g.sp.insolation.min ≤ 30 ∧ 30 ≤ exLC.g.sp.insolation.max ∧ (250 : ℝ) ≤ 300 ∧ (300 : ℝ) ≤ 375 := by
    simp [exLC, exC, exG, Events.defaultSpec]; norm_num
  have p1 : IsPut ([⟨1, ⟨50, 300⟩⟩, ⟨2, ⟨60, 300⟩⟩, ⟨3, ⟨70, 300⟩⟩] : List (Ev ℝ (Events.SolarVal ℝ))) 2 ⟨40, 300⟩ [⟨1, ⟨50, 300⟩⟩, ⟨2, ⟨40, 300⟩⟩, ⟨3, ⟨70, 300⟩⟩] := by
    refine ⟨by simp [StrictSorted]; norm_num, fun e => ?_⟩
    simp only [List.mem_cons, List.not_mem_nil, or_false]
    constructor
    · rintro (rfl | rfl | rfl) <;> norm_num
    · rintro (rfl | ⟨rfl | rfl | rfl, h⟩) <;> first | (exfalso; norm_num at h; done) | norm_num
  have p2 : IsPut ([⟨1, ⟨50, 300⟩⟩, ⟨2, ⟨40, 300⟩⟩, ⟨3, ⟨70, 300⟩⟩] : List (Ev ℝ (Events.SolarVal ℝ))) (5 / 2) ⟨30, 300⟩
      [⟨1, ⟨50, 300⟩⟩, ⟨2, ⟨40, 300⟩⟩, ⟨5 / 2, ⟨30, 300⟩⟩, ⟨3, ⟨70, 300⟩⟩] := by
    refine ⟨by simp [StrictSorted]; norm_num, fun e => ?_⟩
    simp only [List.mem_cons, List.not_mem_nil, or_false]
    constructor
    · rintro (rfl | rfl | rfl | rfl) <;> norm_num
    · rintro (rfl | ⟨rfl | rfl | rfl, h⟩) <;> first | (exfalso; norm_num at h; done) | norm_num
  have e1 : Events.solarEdit exLC.g.sp (.addSolar 2 40 300) = some (.put 2 ⟨40, 300⟩) := by
    show (if (_ : Prop) then _ else _) = _
    rw [if_pos s1]
  have e2 : Events.solarEdit exLC.g.sp (.addSolar (5 / 2) 30 300) = some (.put (5 / 2) ⟨30, 300⟩) := by
    show (if (_ : Prop) then _ else _) = _
    rw [if_pos s2]
  have ha : coEdits .three exLC (exLW y) l = [.ask (1 / 2), .ask 1, .ask 0, .ask 1, .put 2 ⟨40, 300⟩, .put (5 / 2) ⟨30, 300⟩] := by
    show ((stepCalls .three exLC (exLW y) (exStep y (1 / 2) [1 / 2, 1] [0, 1])).map Call.t ++ [0, 1]).map Edit.ask ++ ((Events.solarEdit exLC.g.sp (.addSolar 2 40 300)).toList ++
      ((Events.solarEdit exLC.g.sp (.addSolar (5 / 2) 30 300)).toList ++ [])) = _
    rw [c1, e1, e2]; rfl
  have hsol : (exLW y).s.h.ev.solar = [⟨1, ⟨50, 300⟩⟩, ⟨2, ⟨60, 300⟩⟩, ⟨3, ⟨70, 300⟩⟩] := by
    show (exEv3 (exG exPar false)).solar = _; rw [exEv3_eq]
  have hoks : ∀ x ∈ l, x.okay := by
    intro x hxl
    simp only [l, List.mem_cons, List.not_mem_nil, or_false] at hxl
    rcases hxl with rfl | rfl | rfl <;> trivial
  refine ⟨hb.reach, hb.ctr, ?_, hb.sun, hoks, hret, C99_no_exception (k := three) g1 _, ?_, ha, ?_, ?_⟩
  · show (exEv3 (exG exPar false)).solarEnable = true; rw [exEv3_eq]; rfl
  · show stepCalls .three exLC (coActs .three exLC (exLW y) l) (exStep y (1 / 2) [1, 9 / 4] [1, 9 / 4]) = _
    rw [c2, hx]; rfl
  · rw [ha, hsol]
    show TidyAny (⟨[⟨1, ⟨50, 300⟩⟩, ⟨2, ⟨60, 300⟩⟩, ⟨3, ⟨70, 300⟩⟩], none, false⟩ : Played ℝ (Events.SolarVal ℝ)) [.ask (1 / 2), .ask 1, .ask 0, .ask 1, .put 2 ⟨40, 300⟩, .put (5 / 2) ⟨30, 300⟩, .ask 1, .ask (9 / 4)]
    refine tidy_cons_ask ?_ (by simp) (tidy_cons_ask ?_ (by simp) (tidy_cons_ask ?_ (by simp) (tidy_cons_ask ?_ (by simp) (tidy_cons_put p1 ?_ (tidy_cons_put p2 ?_
      (tidy_cons_ask ?_ (fun _ => ⟨?_, ?_⟩) (tidy_cons_ask ?_ (by simp) trivial)))))))
    all_goals simp only [AfterPrev, latest, List.mem_cons, List.not_mem_nil, or_false]
    all_goals norm_num
  · have h := C147_schedule (mt := .three) (c := exLC) (w := exLW y) hb.reach hb.sun l hoks hret
    have hA : additions exLC.g.sp l = ([⟨2, ⟨40, 300⟩⟩, ⟨5 / 2, ⟨30, 300⟩⟩] : List (Ev ℝ (Events.SolarVal ℝ))) := by
      simp only [l, additions]
      rw [if_pos s1, if_pos s2]
    refine StrictSorted.ext g1.ev.inv.solarS p2.1 fun e => ?_
    rw [h e, p2.2, p1.2, hA, hsol]
    constructor
    · rintro (⟨p, q, h1, h2⟩ | ⟨h1, h2⟩)
      · match p, q, h1, h2 with
        | [], q, h1, h2 =>
          simp only [List.nil_append, List.cons.injEq] at h1
          obtain ⟨rfl, rfl⟩ := h1
          right; norm_num
        | [x], q, h1, h2 =>
          simp only [List.cons_append, List.nil_append, List.cons.injEq] at h1
          exact Or.inl h1.2.1.symm
        | x :: x' :: p, q, h1, h2 => simp at h1
      · exact Or.inr ⟨Or.inr ⟨h1, fun hh => h2 _ List.mem_cons_self hh.symm⟩, fun hh => h2 _ (List.mem_cons_of_mem _ List.mem_cons_self) hh.symm⟩
    · rintro (rfl | ⟨rfl | ⟨h1, h2⟩, h3⟩)
      · exact Or.inl ⟨[⟨2, ⟨40, 300⟩⟩], [], rfl, by simp⟩
      · exact Or.inl ⟨[], [⟨5 / 2, ⟨30, 300⟩⟩], rfl, by norm_num⟩
      · right
        refine ⟨h1, fun e' he' => ?_⟩
        simp only [List.mem_cons, List.not_mem_nil, or_false] at he'
        rcases he' with rfl | rfl
        · exact fun hh => h2 hh.symm
        · exact fun hh => h3 hh.symm

end Session
end PvDer
