import Verif.Spec.Config
import Mathlib.Data.List.Nodup
import Mathlib.Data.List.Lookmap
import Mathlib.Tactic.Basic
/-! Lemmas about the configuration model. -/
namespace PvDer
namespace Config

/-- Value picked among the four sources. -/
def chosen (a : Args) (c par : Cfg) (comp p : String) (d : PVal) : Option PVal :=
  a p <|> entry c comp p <|> entry par comp p <|> some d

theorem look_ok {c : Cfg} {comp p : String} {o : Option PVal} (h : look c comp p = .ok o) : entry c comp p = o := by
  unfold look at h; unfold entry
  split at h <;> simp_all

theorem look?_ok {c : Cfg} {comp p : String} {o : Option PVal} (h : look? c comp p = .ok o) : entry c comp p = o := by
  unfold look? at h; unfold entry
  split at h <;> simp_all

theorem bind_ok {α β : Type} {x : Except Err α} {f : α → Except Err β} {b : β} (h : (x >>= f) = .ok b) :
    ∃ a, x = .ok a ∧ f a = .ok b := by
  cases x with
  | error e => simp [bind, Except.bind] at h
  | ok a => exact ⟨a, rfl, h⟩

theorem updateParam_ok {pr : List (String × List Ty)} {c par : Cfg} {a : Args} {comp : String} {r r' : Resolved} {pd : String × PVal}
    (h : updateParam pr c par a comp r pd = .ok r') :
    ∃ v ts, chosen a c par comp pd.1 pd.2 = some v ∧ r' = r.put comp pd.1 v ∧ pr.lookup pd.1 = some ts ∧
      (isInstance v ts = true ∨ (a pd.1 = none ∧ entry c comp pd.1 = none ∧ entry par comp pd.1 = none)) := by
  unfold updateParam at h
  split at h
  · cases h
  · rename_i ts hts
    split at h
    · rename_i v hv
      split at h
      · rename_i hi
        cases h
        exact ⟨v, ts, by simp [chosen, hv], rfl, hts, .inl hi⟩
      · cases h
    · rename_i hv
      obtain ⟨o, ho, h⟩ := bind_ok h
      have he := look_ok ho
      cases o with
      | some v =>
        simp only at h
        split at h
        · rename_i hi
          cases h
          exact ⟨v, ts, by simp [chosen, hv, he], rfl, hts, .inl hi⟩
        · cases h
      | none =>
        simp only at h
        obtain ⟨o2, ho2, h⟩ := bind_ok h
        have he2 := look_ok ho2
        cases o2 with
        | some v =>
          simp only at h
          split at h
          · rename_i hi
            cases h
            exact ⟨v, ts, by simp [chosen, hv, he, he2], rfl, hts, .inl hi⟩
          · cases h
        | none =>
          simp only at h
          cases h
          exact ⟨pd.2, ts, by simp [chosen, hv, he, he2], rfl, hts, .inr ⟨hv, he, he2⟩⟩

theorem updateComp_ok {pr : List (String × List Ty)} {c par : Cfg} {a : Args} {comp : String} :
    ∀ {ps : List (String × PVal)} {r r' : Resolved}, ps.foldlM (updateParam pr c par a comp) r = .ok r' → (ps.map Prod.fst).Nodup →
      (∀ pd ∈ ps, r' comp pd.1 = chosen a c par comp pd.1 pd.2) ∧
      (∀ k q, (k ≠ comp ∨ q ∉ ps.map Prod.fst) → r' k q = r k q) ∧
      (∀ pd ∈ ps, ∃ v ts, chosen a c par comp pd.1 pd.2 = some v ∧ pr.lookup pd.1 = some ts ∧
        (isInstance v ts = true ∨ (a pd.1 = none ∧ entry c comp pd.1 = none ∧ entry par comp pd.1 = none)))
  | [], r, r', h, _ => by
    simp [List.foldlM, pure, Except.pure] at h
    subst h
    exact ⟨by simp, by simp, by simp⟩
  | pd :: ps, r, r', h, hn => by
    rw [List.foldlM_cons] at h
    obtain ⟨r1, h1, h2⟩ := bind_ok h
    obtain ⟨v, ts, hc, hr, ht, hi⟩ := updateParam_ok h1
    rw [List.map_cons, List.nodup_cons] at hn
    obtain ⟨ih1, ih2, ih3⟩ := updateComp_ok h2 hn.2
    refine ⟨?_, ?_, ?_⟩
    · intro x hx
      rcases List.mem_cons.1 hx with rfl | hx
      · rw [ih2 comp x.1 (.inr hn.1), hr, hc]
        simp [Resolved.put]
      · exact ih1 x hx
    · intro k q hk
      rw [ih2 k q (by
        rcases hk with h | h
        · exact .inl h
        · exact .inr (fun hm => h (List.mem_cons_of_mem _ hm))), hr]
      simp only [Resolved.put]
      rw [if_neg]
      rintro ⟨rfl, rfl⟩
      rcases hk with h | h
      · exact h rfl
      · exact h (List.mem_cons_self ..)
    · intro x hx
      rcases List.mem_cons.1 hx with rfl | hx
      · exact ⟨v, ts, hc, ht, hi⟩
      · exact ih3 x hx

theorem updateAll_ok {pr : List (String × List Ty)} {c par : Cfg} {a : Args} :
    ∀ {T : Template} {r r' : Resolved}, T.foldlM (updateComp pr c par a) r = .ok r' → WF T →
      (∀ comp p d, HasParam T comp p d → r' comp p = chosen a c par comp p d) ∧
      (∀ comp p, (∀ d, ¬ HasParam T comp p d) → r' comp p = r comp p) ∧
      (∀ comp p d, HasParam T comp p d → ∃ v ts, chosen a c par comp p d = some v ∧ pr.lookup p = some ts ∧
        (isInstance v ts = true ∨ (a p = none ∧ entry c comp p = none ∧ entry par comp p = none)))
  | [], r, r', h, _ => by
    simp [List.foldlM, pure, Except.pure] at h
    subst h
    exact ⟨by simp [HasParam], by simp, by simp [HasParam]⟩
  | cp :: T, r, r', h, hw => by
    rw [List.foldlM_cons] at h
    obtain ⟨r1, h1, h2⟩ := bind_ok h
    obtain ⟨hw1, hw2⟩ := hw
    rw [List.map_cons, List.nodup_cons] at hw1
    obtain ⟨c1, c2, c3⟩ := updateComp_ok (comp := cp.1) h1 (hw2 cp (List.mem_cons_self ..))
    obtain ⟨ih1, ih2, ih3⟩ := updateAll_ok h2 ⟨hw1.2, fun x hx => hw2 x (List.mem_cons_of_mem _ hx)⟩
    have hno : ∀ p d, ¬ HasParam T cp.1 p d := by
      rintro p d ⟨ps, hm, _⟩
      exact hw1.1 (List.mem_map.2 ⟨_, hm, rfl⟩)
    refine ⟨?_, ?_, ?_⟩
    · rintro comp p d ⟨ps, hm, hp⟩
      rcases List.mem_cons.1 hm with rfl | hm
      · rw [ih2 _ _ (hno p)]
        exact c1 _ hp
      · exact ih1 _ _ _ ⟨ps, hm, hp⟩
    · intro comp p hn
      rw [ih2 comp p (fun d ⟨ps, hm, hp⟩ => hn d ⟨ps, List.mem_cons_of_mem _ hm, hp⟩)]
      apply c2
      by_cases hcp : comp = cp.1
      · right
        intro hmem
        obtain ⟨pd, hpd, rfl⟩ := List.mem_map.1 hmem
        exact hn pd.2 ⟨cp.2, by rw [hcp]; exact List.mem_cons_self .., hpd⟩
      · exact .inl hcp
    · rintro comp p d ⟨ps, hm, hp⟩
      rcases List.mem_cons.1 hm with rfl | hm
      · exact c3 _ hp
      · exact ih3 _ _ _ ⟨ps, hm, hp⟩

theorem updateParam_accepts {pr : List (String × List Ty)} {c par : Cfg} {a : Args} {comp : String} {pd : String × PVal}
    (hc : ∃ d, c.entries comp = some (.comp d)) (hpar : ∃ d, par.entries comp = some (.comp d)) (ht : ∃ ts, pr.lookup pd.1 = some ts ∧
      ∀ v, (a pd.1 <|> entry c comp pd.1 <|> entry par comp pd.1) = some v → isInstance v ts = true) (r : Resolved) :
    ∃ r', updateParam pr c par a comp r pd = .ok r' := by
  obtain ⟨d1, h1⟩ := hc
  obtain ⟨d2, h2⟩ := hpar
  obtain ⟨ts, hts, hv⟩ := ht
  simp only [entry, h1, h2] at hv
  unfold updateParam
  simp only [hts, look, h1, h2, bind, Except.bind]
  cases ha : a pd.1 with
  | some v => simp [hv v (by simp [ha])]
  | none =>
    cases hc : d1 pd.1 with
    | some v => simp [hv v (by simp [ha, hc])]
    | none =>
      cases hp : d2 pd.1 with
      | some v => simp [hv v (by simp [ha, hc, hp])]
      | none => simp

theorem updateComp_accepts {pr : List (String × List Ty)} {c par : Cfg} {a : Args} {comp : String} :
    ∀ {ps : List (String × PVal)}, (∀ pd ∈ ps, (∃ d, c.entries comp = some (.comp d)) ∧ (∃ d, par.entries comp = some (.comp d)) ∧ ∃ ts, pr.lookup pd.1 = some ts ∧
      ∀ v, (a pd.1 <|> entry c comp pd.1 <|> entry par comp pd.1) = some v → isInstance v ts = true) → ∀ r : Resolved,
    ∃ r', ps.foldlM (updateParam pr c par a comp) r = .ok r'
  | [], _, r => ⟨r, rfl⟩
  | pd :: ps, h, r => by
    obtain ⟨h1, h2, h3⟩ := h pd (List.mem_cons_self ..)
    obtain ⟨r1, hr1⟩ := updateParam_accepts h1 h2 h3 r
    obtain ⟨r2, hr2⟩ := updateComp_accepts (fun x hx => h x (List.mem_cons_of_mem _ hx)) r1
    exact ⟨r2, by rw [List.foldlM_cons, hr1]; exact hr2⟩

theorem updateAll_accepts {pr : List (String × List Ty)} {c par : Cfg} {a : Args} :
    ∀ {T : Template}, (∀ cp ∈ T, ∀ pd ∈ cp.2, (∃ d, c.entries cp.1 = some (.comp d)) ∧ (∃ d, par.entries cp.1 = some (.comp d)) ∧ ∃ ts, pr.lookup pd.1 = some ts ∧
      ∀ v, (a pd.1 <|> entry c cp.1 pd.1 <|> entry par cp.1 pd.1) = some v → isInstance v ts = true) → ∀ r : Resolved,
    ∃ r', T.foldlM (updateComp pr c par a) r = .ok r'
  | [], _, r => ⟨r, rfl⟩
  | cp :: T, h, r => by
    obtain ⟨r1, hr1⟩ := updateComp_accepts (h cp (List.mem_cons_self ..)) r
    obtain ⟨r2, hr2⟩ := updateAll_accepts (fun x hx => h x (List.mem_cons_of_mem _ hx)) r1
    exact ⟨r2, by rw [List.foldlM_cons, updateComp, hr1]; exact hr2⟩

theorem entry_completed (T : Template) (c : Cfg) (comp p : String) : entry (completed T c) comp p = entry c comp p := by
  unfold entry completed
  simp only
  cases c.entries comp with
  | some n => rfl
  | none => by_cases h : comp ∈ T.map Prod.fst <;> simp [h]

theorem entry_put {c : Cfg} {comp p : String} {v : PVal} (q r : String) (hc : ∀ w, c.entries comp ≠ some (.leaf w)) :
    entry (c.put comp p v) q r = if q = comp ∧ r = p then some v else entry c q r := by
  unfold entry Cfg.put
  simp only
  by_cases hq : q = comp
  · subst hq
    simp only [if_true, true_and]
    cases hce : c.entries q with
    | none => by_cases hr : r = p <;> simp [hr]
    | some n =>
      cases n with
      | leaf w => exact absurd hce (hc w)
      | comp d => by_cases hr : r = p <;> simp [hr]
  · simp [hq]

theorem updateSpec_ok {par c c' : Cfg} {s : String × String} (h : updateSpec par c s = .ok c') :
    (∀ k, k ≠ s.1 → c'.entries k = c.entries k) ∧ c'.rt = c.rt ∧
    (∀ comp p, (entry c' comp p <|> entry par comp p) = (entry c comp p <|> entry par comp p)) ∧
    (entry c s.1 s.2).isSome ∨ (entry par s.1 s.2).isSome ∧ (∀ k, k ≠ s.1 → c'.entries k = c.entries k) ∧ c'.rt = c.rt ∧
    (∀ comp p, (entry c' comp p <|> entry par comp p) = (entry c comp p <|> entry par comp p)) := by
  unfold updateSpec at h
  obtain ⟨o, ho, h⟩ := bind_ok h
  have he := look?_ok ho
  cases o with
  | some v =>
    simp only at h
    cases h
    exact .inl ⟨fun _ _ => rfl, rfl, fun _ _ => rfl, by simp [he]⟩
  | none =>
    simp only at h
    obtain ⟨o2, ho2, h⟩ := bind_ok h
    have he2 := look?_ok ho2
    cases o2 with
    | none => simp at h
    | some v =>
      simp only at h
      cases h
      have hc : ∀ w, c.entries s.1 ≠ some (.leaf w) := by
        intro w hw
        simp [look?, hw] at ho
      refine .inr ⟨by simp [he2], ?_, rfl, ?_⟩
      · intro k hk
        simp [Cfg.put, hk]
      · intro comp p
        rw [entry_put comp p hc]
        split
        · rename_i hh
          obtain ⟨rfl, rfl⟩ := hh
          simp [he, he2]
        · rfl

theorem updateSpec_ok' {par c c' : Cfg} {s : String × String} (h : updateSpec par c s = .ok c') :
    (∀ k, k ≠ s.1 → c'.entries k = c.entries k) ∧ c'.rt = c.rt ∧
    (∀ comp p, (entry c' comp p <|> entry par comp p) = (entry c comp p <|> entry par comp p)) ∧
    (entry c s.1 s.2 <|> entry par s.1 s.2).isSome := by
  rcases updateSpec_ok h with ⟨a, b, c, d⟩ | ⟨d, a, b, c⟩
  · refine ⟨a, b, c, ?_⟩
    cases he : entry _ s.1 s.2 <;> simp_all
  · refine ⟨a, b, c, ?_⟩
    cases he : entry _ s.1 s.2 <;> simp_all

theorem updateSpecs_ok {par c c' : Cfg} (h : updateSpecs c par = .ok c') :
    (∀ k, k ≠ "basic_specs" → k ≠ "inverter_ratings" → c'.entries k = c.entries k) ∧ c'.rt = c.rt ∧
    (∀ comp p, (entry c' comp p <|> entry par comp p) = (entry c comp p <|> entry par comp p)) ∧
    (∀ s ∈ requiredSpecs, (entry c s.1 s.2 <|> entry par s.1 s.2).isSome) := by
  unfold updateSpecs requiredSpecs at h
  rw [List.foldlM_cons] at h
  obtain ⟨c1, h1, h⟩ := bind_ok h
  rw [List.foldlM_cons] at h
  obtain ⟨c2, h2, h⟩ := bind_ok h
  rw [List.foldlM_cons] at h
  obtain ⟨c3, h3, h⟩ := bind_ok h
  simp [List.foldlM, pure, Except.pure] at h
  subst h
  obtain ⟨a1, b1, d1, e1⟩ := updateSpec_ok' h1
  obtain ⟨a2, b2, d2, e2⟩ := updateSpec_ok' h2
  obtain ⟨a3, b3, d3, e3⟩ := updateSpec_ok' h3
  refine ⟨fun k hk hk' => by rw [a3 k hk', a2 k hk', a1 k hk], by rw [b3, b2, b1], fun comp p => by rw [d3, d2, d1], ?_⟩
  intro s hs
  simp only [requiredSpecs, List.mem_cons, List.not_mem_nil, or_false] at hs
  rcases hs with rfl | rfl | rfl
  · exact e1
  · rw [← d1]; exact e2
  · rw [← d1, ← d2]; exact e3

/-- Everything the rest of the set-up sees of `create_DER_config`. -/
theorem createConfig_ok {named : Bool} {T : Template} {file : File} {id : String} {c par : Cfg}
    (h : createConfig named T file id = .ok (c, par)) :
    ∃ c0 par0, file id = some c0 ∧ parentConfig named file (c0.entries "parent_config") = .ok par0 ∧
      (∀ k, k ∉ T.map Prod.fst → k ≠ "basic_specs" → k ≠ "inverter_ratings" → c.entries k = c0.entries k) ∧
      c.rt = c0.rt ∧ par.rt = par0.rt ∧
      (∀ comp p, (entry c comp p <|> entry par comp p) = (entry c0 comp p <|> entry par0 comp p)) ∧
      (∀ s ∈ requiredSpecs, (entry c0 s.1 s.2 <|> entry par0 s.1 s.2).isSome) := by
  unfold createConfig at h
  obtain ⟨c0, h0, h⟩ := bind_ok h
  obtain ⟨par0, h1, h⟩ := bind_ok h
  obtain ⟨c1, h2, h⟩ := bind_ok h
  simp only [pure, Except.pure, Except.ok.injEq, Prod.mk.injEq] at h
  obtain ⟨rfl, rfl⟩ := h
  have hf : file id = some c0 := by
    unfold getConfig at h0
    split at h0 <;> simp_all
  obtain ⟨a, b, d, e⟩ := updateSpecs_ok h2
  refine ⟨c0, par0, hf, h1, ?_, by rw [b]; rfl, rfl, ?_, ?_⟩
  · intro k hk h1 h2
    rw [a k h1 h2]
    unfold completed
    simp only
    cases c0.entries k <;> simp [hk]
  · intro comp p
    rw [d, entry_completed, entry_completed]
  · intro s hs
    have := e s hs
    rwa [entry_completed, entry_completed] at this

theorem chosen_congr {a : Args} {c par c0 par0 : Cfg} {comp p : String} (d : PVal)
    (h : (entry c comp p <|> entry par comp p) = (entry c0 comp p <|> entry par0 comp p)) :
    chosen a c par comp p d = (a p <|> entry c0 comp p <|> entry par0 comp p <|> some d) := by
  unfold chosen
  revert h
  cases a p <;> cases entry c comp p <;> cases entry par comp p <;> cases entry c0 comp p <;> cases entry par0 comp p <;> simp

/-! Arguments. -/

theorem argStep_ne (c : Cfg) (kw acc : Args) (s : String × List Ty × Option PVal) (k : String) (hk : k ≠ s.1) : argStep c kw acc s k = acc k := by
  obtain ⟨s1, ts, df⟩ := s
  unfold argStep
  simp only at hk ⊢
  cases kw s1 with
  | some v => by_cases h : isInstance v ts = true <;> simp [h, hk]
  | none =>
    cases c.entries s1 with
    | none => cases df <;> simp [hk]
    | some n =>
      cases n with
      | leaf v => by_cases h : isInstance v ts = true <;> simp [h, hk]
      | comp d => by_cases h : isInstance .dict ts = true <;> simp [h, hk]

theorem argStep_eq (c : Cfg) (kw acc acc' : Args) (s : String × List Ty × Option PVal) (h : acc s.1 = acc' s.1) :
    argStep c kw acc s s.1 = argStep c kw acc' s s.1 := by
  obtain ⟨s1, ts, df⟩ := s
  unfold argStep
  simp only at h ⊢
  cases kw s1 with
  | some v => by_cases h' : isInstance v ts = true <;> simp [h', h]
  | none =>
    cases c.entries s1 with
    | none => cases df <;> simp [h]
    | some n =>
      cases n with
      | leaf v => by_cases h' : isInstance v ts = true <;> simp [h', h]
      | comp d => by_cases h' : isInstance .dict ts = true <;> simp [h', h]

theorem args_fold (c : Cfg) (kw : Args) :
    ∀ (sp : List (String × List Ty × Option PVal)) (acc : Args) (k : String), k ∉ sp.map Prod.fst → sp.foldl (argStep c kw) acc k = acc k
  | [], _, _, _ => rfl
  | s :: sp, acc, k, hk => by
    rw [List.map_cons, List.mem_cons, not_or] at hk
    rw [List.foldl_cons, args_fold c kw sp _ k hk.2]
    exact argStep_ne c kw acc s k hk.1

/-- Value an argument takes. -/
theorem args_value (c : Cfg) (kw : Args) :
    ∀ (sp : List (String × List Ty × Option PVal)) (acc : Args), (sp.map Prod.fst).Nodup → ∀ s ∈ sp, acc s.1 = none →
      sp.foldl (argStep c kw) acc s.1 = argStep c kw (fun _ => none) s s.1
  | [], _, _, s, hs, _ => by simp at hs
  | t :: sp, acc, hn, s, hs, ha => by
    rw [List.map_cons, List.nodup_cons] at hn
    rw [List.foldl_cons]
    rcases List.mem_cons.1 hs with rfl | hs
    · rw [args_fold c kw sp _ _ hn.1]
      exact argStep_eq c kw _ _ s ha
    · refine args_value c kw sp _ hn.2 s hs ?_
      have hne : s.1 ≠ t.1 := fun e => hn.1 (e ▸ List.mem_map.2 ⟨s, hs, rfl⟩)
      have := args_fold c kw [t] acc s.1 (by simpa using hne)
      simpa [ha] using this

theorem args_of_mem {c : Cfg} {kw : Args} {s : String × List Ty × Option PVal} (hs : s ∈ argSpec) :
    getArguments argSpec c kw s.1 = argStep c kw (fun _ => none) s s.1 :=
  args_value c kw argSpec _ (by decide +kernel) s hs rfl

theorem args_of_not_mem {c : Cfg} {kw : Args} {k : String} (hk : k ∉ argSpec.map Prod.fst) : getArguments argSpec c kw k = none :=
  args_fold c kw argSpec _ k hk

end Config
end PvDer
