import Verif.Props.Config
import Verif.Model.SetupMsg
import Verif.Model.Gen.Shipped
/-!
C164: the entries of a configuration that are read, and that all others - misspelt ones among them - have no effect.
-/
namespace PvDer
namespace Config

/-! ### Specification -/

/-- The set-up knows an entry `p` of the component `comp`: the template of the class lists it, or it is one of the three required ratings. -/
def Known (T : Template) (comp p : String) : Prop :=
  (∃ d, HasParam T comp p d) ∨ (comp, p) ∈ [("basic_specs", "model_type"), ("inverter_ratings", "Srated"), ("inverter_ratings", "Vrmsrated")]

/-- A name at the top level of a configuration that the set-up knows: a component of the template, an argument, or the parent configuration. -/
def KnownTop (T : Template) (k : String) : Prop :=
  k ∈ T.map Prod.fst ∨ k ∈ argSpec.map Prod.fst ∨ k ∈ ["basic_specs", "inverter_ratings", "parent_config"]

/-- The same plain value, or two component dictionaries that agree on the names in `P`, or both absent. -/
inductive SameNode (P : String → Prop) : Option Node → Option Node → Prop
  | absent : SameNode P none none
  | plain (v : PVal) : SameNode P (some (.leaf v)) (some (.leaf v))
  | dict (d d' : String → Option PVal) (h : ∀ p, P p → d p = d' p) : SameNode P (some (.comp d)) (some (.comp d'))

/-- Two configurations with the same known entries and the same ride-through entries. -/
structure SameKnown (T : Template) (c c' : Cfg) : Prop where
  top : ∀ k, KnownTop T k → SameNode (Known T k) (c.entries k) (c'.entries k)
  rt : c.rt = c'.rt

/-- Two files in which the design `id` has the same known entries, and every identifier has the same `config` block (referred to by ride-through entries). -/
structure SameFile (T : Template) (id : String) (f f' : File) : Prop where
  own : match f id, f' id with
    | some c, some c' => SameKnown T c c'
    | none, none => True
    | _, _ => False
  blocks : ∀ x, (f x).map Cfg.config = (f' x).map Cfg.config

/-! ### Reading -/

theorem SameNode.refl (P : String → Prop) (n : Option Node) : SameNode P n n := by
  cases n with
  | none => exact .absent
  | some n => cases n with
    | leaf v => exact .plain v
    | comp d => exact .dict d d fun _ _ => rfl

theorem SameKnown.refl (T : Template) (c : Cfg) : SameKnown T c c := ⟨fun _ _ => .refl _ _, rfl⟩

theorem same_look {T : Template} {c c' : Cfg} (h : SameKnown T c c') {comp p : String} (hk : KnownTop T comp) (hp : Known T comp p) :
    look c comp p = look c' comp p := by
  have := h.top comp hk
  unfold look
  generalize c.entries comp = x at this ⊢
  generalize c'.entries comp = y at this ⊢
  cases this with
  | absent => rfl
  | plain v => rfl
  | dict d d' e => simp only [e p hp]

theorem same_look? {T : Template} {c c' : Cfg} (h : SameKnown T c c') {comp p : String} (hk : KnownTop T comp) (hp : Known T comp p) :
    look? c comp p = look? c' comp p := by
  have := h.top comp hk
  unfold look?
  generalize c.entries comp = x at this ⊢
  generalize c'.entries comp = y at this ⊢
  cases this with
  | absent => rfl
  | plain v => rfl
  | dict d d' e => simp only [e p hp]

theorem same_completed {T : Template} {c c' : Cfg} (h : SameKnown T c c') : SameKnown T (completed T c) (completed T c') := by
  refine ⟨fun k hk => ?_, h.rt⟩
  have := h.top k hk
  unfold completed
  dsimp only
  generalize c.entries k = x at this ⊢
  generalize c'.entries k = y at this ⊢
  cases this with
  | absent => exact .refl _ _
  | plain v => exact .plain v
  | dict d d' e => exact .dict d d' e

theorem same_put {T : Template} {c c' : Cfg} (h : SameKnown T c c') {comp : String} (hk : KnownTop T comp) (p : String) (v : PVal) :
    SameKnown T (c.put comp p v) (c'.put comp p v) := by
  refine ⟨fun k hk' => ?_, h.rt⟩
  have h1 := h.top k hk'
  have h2 := h.top comp hk
  unfold Cfg.put
  dsimp only
  by_cases e : k = comp
  · subst e
    rw [if_pos rfl, if_pos rfl]
    generalize c.entries k = x at h2 ⊢
    generalize c'.entries k = y at h2 ⊢
    cases h2 with
    | absent => exact .refl _ _
    | plain w => exact .refl _ _
    | dict d d' e =>
      refine .dict _ _ fun q hq => ?_
      split
      · rfl
      · exact e q hq
  · rw [if_neg e, if_neg e]; exact h1

/-- Both fail in the same way, or both succeed with related results. -/
inductive SameRes {α : Type} (R : α → α → Prop) : Except Err α → Except Err α → Prop
  | err (e : Err) : SameRes R (.error e) (.error e)
  | ok (a b : α) (h : R a b) : SameRes R (.ok a) (.ok b)

theorem SameRes.bind {α β : Type} {R : α → α → Prop} {S : β → β → Prop} {x y : Except Err α} {f g : α → Except Err β} (h : SameRes R x y)
    (hf : ∀ a b, R a b → SameRes S (f a) (g b)) : SameRes S (x >>= f) (y >>= g) := by
  cases h with
  | err e => exact .err e
  | ok a b h => exact hf a b h

theorem SameRes.eq {α : Type} {x y : Except Err α} (h : SameRes (fun a b => a = b) x y) : x = y := by
  cases h with
  | err e => rfl
  | ok a b h => rw [h]

theorem SameRes.rfl' {α : Type} {R : α → α → Prop} (hR : ∀ a, R a a) (x : Except Err α) : SameRes R x x := by
  cases x with
  | error e => exact .err e
  | ok a => exact .ok a a (hR a)

theorem same_updateSpec {T : Template} {par c c' : Cfg} (h : SameKnown T c c') (s : String × String) (hs : s ∈ requiredSpecs) :
    SameRes (SameKnown T) (updateSpec par c s) (updateSpec par c' s) := by
  have hk : KnownTop T s.1 := by
    simp only [requiredSpecs, List.mem_cons, List.not_mem_nil, or_false] at hs
    rcases hs with rfl | rfl | rfl <;> exact .inr (.inr (by simp))
  have hp : Known T s.1 s.2 := .inr hs
  unfold updateSpec
  rw [same_look? h hk hp]
  cases look? c' s.1 s.2 with
  | error e => exact .err e
  | ok o =>
    cases o with
    | some v => exact .ok _ _ h
    | none =>
      simp only [bind, Except.bind]
      cases look? par s.1 s.2 with
      | error e => exact .err e
      | ok o =>
        cases o with
        | some v => exact .ok _ _ (same_put h hk s.2 v)
        | none => exact .err _

theorem same_updateSpecs {T : Template} {par : Cfg} : ∀ (l : List (String × String)) (_ : ∀ s ∈ l, s ∈ requiredSpecs) {c c' : Cfg}, SameKnown T c c' →
    SameRes (SameKnown T) (l.foldlM (updateSpec par) c) (l.foldlM (updateSpec par) c')
  | [], _, _, _, h => .ok _ _ h
  | s :: l, hl, _, _, h => by
    rw [List.foldlM_cons, List.foldlM_cons]
    exact (same_updateSpec h s (hl s (by simp))).bind fun _ _ h' => same_updateSpecs l (fun s hs => hl s (List.mem_cons_of_mem _ hs)) h'

theorem same_parent {T : Template} {c c' : Cfg} (h : SameKnown T c c') (f f' : File) :
    parentConfig false f (parentId c) = parentConfig false f' (parentId c') := by
  have := h.top "parent_config" (.inr (.inr (by simp)))
  unfold parentId
  generalize c.entries "parent_config" = x at this ⊢
  generalize c'.entries "parent_config" = y at this ⊢
  cases this with
  | absent => rfl
  | plain v => simp [parentConfig]
  | dict d d' e => rfl

theorem same_createConfig {T : Template} {id : String} {f f' : File} (h : SameFile T id f f') :
    SameRes (fun x y => SameKnown T x.1 y.1 ∧ x.2 = y.2) (createConfig false T f id) (createConfig false T f' id) := by
  have ho := h.own
  unfold createConfig getConfig
  revert ho
  cases f id with
  | none =>
    cases f' id with
    | none => intro _; exact .err _
    | some c' => exact False.elim
  | some c =>
    cases f' id with
    | none => exact False.elim
    | some c' =>
      intro ho
      dsimp only at ho
      simp only [bind, Except.bind]
      rw [same_parent ho f f']
      cases parentConfig false f' (parentId c') with
      | error e => exact .err e
      | ok par =>
        dsimp only
        have := same_updateSpecs (par := completed T par) requiredSpecs (fun _ h => h) (same_completed ho)
        unfold updateSpecs
        revert this
        generalize List.foldlM (updateSpec (completed T par)) (completed T c) requiredSpecs = x
        generalize List.foldlM (updateSpec (completed T par)) (completed T c') requiredSpecs = y
        intro this
        cases this with
        | err e => exact .err e
        | ok a b hab => exact .ok _ _ ⟨hab, rfl⟩

theorem same_arguments {T : Template} {c c' : Cfg} (h : SameKnown T c c') (kw : Args) : getArguments argSpec c kw = getArguments argSpec c' kw := by
  unfold getArguments
  apply List.foldl_ext
  intro acc s hs
  have := h.top s.1 (.inr (.inl (List.mem_map.2 ⟨s, hs, rfl⟩)))
  unfold argStep
  generalize c.entries s.1 = x at this ⊢
  generalize c'.entries s.1 = y at this ⊢
  cases this with
  | absent => rfl
  | plain v => rfl
  | dict d d' e => rfl

theorem same_check {T : Template} {c c' : Cfg} (h : SameKnown T c c') : checkConfig T c = checkConfig T c' := by
  have h1 : (T.map Prod.fst).all (fun k => (c.entries k).isSome) = (T.map Prod.fst).all (fun k => (c'.entries k).isSome) := by
    rw [Bool.eq_iff_iff, List.all_eq_true, List.all_eq_true]
    refine forall₂_congr fun k hk => ?_
    have := h.top k (.inl hk)
    generalize c.entries k = x at this ⊢
    generalize c'.entries k = y at this ⊢
    cases this <;> simp
  have := h.top "parent_config" (.inr (.inr (by simp)))
  unfold checkConfig
  rw [h1]
  generalize c.entries "parent_config" = x at this ⊢
  generalize c'.entries "parent_config" = y at this ⊢
  cases this <;> rfl

theorem same_params {T : Template} {c c' : Cfg} (h : SameKnown T c c') (par : Cfg) (a : Args) (r : Resolved) :
    T.foldlM (updateComp props c par a) r = T.foldlM (updateComp props c' par a) r := by
  have step : ∀ cp ∈ T, ∀ r, updateComp props c par a r cp = updateComp props c' par a r cp := by
    intro cp hcp r
    unfold updateComp
    have hk : KnownTop T cp.1 := .inl (List.mem_map.2 ⟨cp, hcp, rfl⟩)
    have one : ∀ pd ∈ cp.2, ∀ r, updateParam props c par a cp.1 r pd = updateParam props c' par a cp.1 r pd := by
      intro pd hpd r
      unfold updateParam
      rw [same_look h hk (.inl ⟨pd.2, cp.2, hcp, hpd⟩)]
    have : ∀ (l : List (String × PVal)), (∀ pd ∈ l, pd ∈ cp.2) → ∀ r, l.foldlM (updateParam props c par a cp.1) r = l.foldlM (updateParam props c' par a cp.1) r := by
      intro l
      induction l with
      | nil => intro _ r; rfl
      | cons pd l ih =>
        intro hl r
        rw [List.foldlM_cons, List.foldlM_cons, one pd (hl pd (by simp)) r]
        refine congrArg _ (funext fun r' => ih (fun q hq => hl q (List.mem_cons_of_mem _ hq)) r')
    exact this cp.2 (fun _ h => h) r
  have : ∀ (l : Template), (∀ cp ∈ l, cp ∈ T) → ∀ r, l.foldlM (updateComp props c par a) r = l.foldlM (updateComp props c' par a) r := by
    intro l
    induction l with
    | nil => intro _ r; rfl
    | cons cp l ih =>
      intro hl r
      rw [List.foldlM_cons, List.foldlM_cons, step cp (hl cp (by simp)) r]
      refine congrArg _ (funext fun r' => ih (fun q hq => hl q (List.mem_cons_of_mem _ hq)) r')
  exact this T (fun _ h => h) r

theorem same_update {T : Template} {c c' : Cfg} (h : SameKnown T c c') (par : Cfg) (a : Args) : updateConfig T props c par a = updateConfig T props c' par a := by
  have hr : resolveRT c par = resolveRT c' par := by
    funext n
    unfold resolveRT
    rw [h.rt]
  unfold updateConfig
  rw [same_check h, same_params h, hr]

theorem same_pick {f f' : File} (h : ∀ x, (f x).map Cfg.config = (f' x).map Cfg.config) (n : RTNode) : pickRT f n = pickRT f' n := by
  unfold pickRT
  cases n.config with
  | some b => rfl
  | none =>
    cases n.configId with
    | none => rfl
    | some id =>
      have := h id
      dsimp only
      cases h1 : f id <;> cases h2 : f' id <;> simp [h1, h2] at this ⊢
      rw [this]

theorem same_updateRT {f f' : File} (h : ∀ x, (f x).map Cfg.config = (f' x).map Cfg.config) (rt : String → RTNode) : updateRT f rt = updateRT f' rt := by
  unfold updateRT
  simp only [same_pick h]

/-! ### The property -/

/-- **C164 (only known entries count).** Two files with the same known entries for a design, however they differ otherwise, give the same set-up: the same arguments, parameters, ride-through settings and
line impedance, or the same exception; and the same messages. -/
theorem C164_only_known_entries {T : Template} {id : String} {f f' : File} (h : SameFile T id f f') (cls : String) (kw : Args) :
    setupDER T f id kw = setupDER T f' id kw ∧ setupMsgs T cls f id kw = setupMsgs T cls f' id kw := by
  refine ⟨SameRes.eq ?_, SameRes.eq ?_⟩
  · refine (same_createConfig h).bind fun x y hxy => ?_
    obtain ⟨c, par⟩ := x
    obtain ⟨c', par'⟩ := y
    obtain ⟨hc, hpar⟩ := hxy
    dsimp only at hc hpar ⊢
    subst hpar
    rw [same_arguments hc, same_update hc]
    simp only [same_updateRT h.blocks]
    exact .rfl' (fun _ => rfl) _
  · refine (same_createConfig h).bind fun x y hxy => ?_
    obtain ⟨c, par⟩ := x
    obtain ⟨c', par'⟩ := y
    obtain ⟨hc, hpar⟩ := hxy
    dsimp only at hc hpar ⊢
    subst hpar
    have hm : checkModelType cls c par = checkModelType cls c' par := by
      unfold checkModelType
      rw [same_look hc (.inr (.inr (by simp))) (.inr (by simp))]
    rw [same_arguments hc, same_update hc, hm]
    exact .rfl' (fun _ => rfl) _

/-- The file with the design `id` replaced. -/
def File.set (f : File) (id : String) (c : Cfg) : File := fun x => if x = id then some c else f x

/-- **C164 (misspelt parameters).** Whatever is written in a component of a design under a name that is none of the component's parameters - added, changed or deleted - has no effect, and raises nothing. -/
theorem C164_misspelt_parameter {m : Sim.Mt} {id comp p : String} {f : File} {c : Cfg} {d d' : String → Option PVal} (hf : f id = some c) (hc : c.entries comp = some (.comp d))
    (hp : ¬ Known (template m) comp p) (hd : ∀ q, q ≠ p → d' q = d q) (cls : String) (kw : Args) :
    setupDER (template m) (f.set id { c with entries := fun k => if k = comp then some (.comp d') else c.entries k }) id kw = setupDER (template m) f id kw ∧
    setupMsgs (template m) cls (f.set id { c with entries := fun k => if k = comp then some (.comp d') else c.entries k }) id kw = setupMsgs (template m) cls f id kw := by
  refine C164_only_known_entries ⟨?_, ?_⟩ cls kw
  · simp only [File.set, if_pos, hf]
    refine ⟨fun k _ => ?_, rfl⟩
    dsimp only
    by_cases e : k = comp
    · subst e
      rw [if_pos rfl, hc]
      refine .dict _ _ fun q hq => hd q ?_
      rintro rfl
      exact hp hq
    · rw [if_neg e]; exact .refl _ _
  · intro x
    unfold File.set
    by_cases e : x = id
    · subst e; rw [if_pos rfl, hf]; rfl
    · rw [if_neg e]

/-- **C164 (misspelt components and arguments).** Nor has anything at the top level of a design under a name that is no component, no argument and not `parent_config`. -/
theorem C164_misspelt_top_level {m : Sim.Mt} {id k : String} {f : File} {c : Cfg} (hf : f id = some c) (hk : ¬ KnownTop (template m) k) (n : Option Node) (cls : String) (kw : Args) :
    setupDER (template m) (f.set id { c with entries := fun j => if j = k then n else c.entries j }) id kw = setupDER (template m) f id kw ∧
    setupMsgs (template m) cls (f.set id { c with entries := fun j => if j = k then n else c.entries j }) id kw = setupMsgs (template m) cls f id kw := by
  refine C164_only_known_entries ⟨?_, ?_⟩ cls kw
  · simp only [File.set, if_pos, hf]
    refine ⟨fun j hj => ?_, rfl⟩
    dsimp only
    rw [if_neg (by rintro rfl; exact hk hj)]
    exact .refl _ _
  · intro x
    unfold File.set
    by_cases e : x = id
    · subst e; rw [if_pos rfl, hf]; rfl
    · rw [if_neg e]

/-- **C164 (other designs).** The set-up of a design is not influenced by the other designs of the file: replacing one changes nothing, unless it holds a ride-through block. -/
theorem C164_other_designs (m : Sim.Mt) {id x : String} (f : File) (hx : x ≠ id) {c c' : Cfg} (hf : f x = some c) (hb : c.config = c'.config) (cls : String) (kw : Args) :
    setupDER (template m) (f.set x c') id kw = setupDER (template m) f id kw ∧ setupMsgs (template m) cls (f.set x c') id kw = setupMsgs (template m) cls f id kw := by
  refine C164_only_known_entries ⟨?_, ?_⟩ cls kw
  · simp only [File.set, if_neg (Ne.symm hx)]
    cases f id with
    | none => trivial
    | some c => exact .refl _ _
  · intro y
    unfold File.set
    by_cases e : y = x
    · subst e; rw [if_pos rfl, hf]; simp [hb]
    · rw [if_neg e]

/-- **C164 (the default is used instead).** A parameter that is missing under its right name gets the keyword argument, else the template's default, whatever else the component contains. -/
theorem C164_default_instead {m : Sim.Mt} {f : File} {id : String} {kw : Args} {s : Setup} {c : Cfg} (h : setupDER (template m) f id kw = .ok s) (hf : f id = some c)
    {comp p : String} {dflt : PVal} (hp : HasParam (template m) comp p dflt) {d : String → Option PVal} (hc : c.entries comp = some (.comp d)) (hd : d p = none) :
    s.design.cfg comp p = (s.args p <|> some dflt) := by
  obtain ⟨c', hf', _, h3, _⟩ := C66_setup h
  rw [hf] at hf'
  cases hf'
  rw [h3 comp p dflt hp]
  simp [entry, hc, hd]

/-- **C164 (the known entries are all needed).** Every known parameter does matter: with a value of its declared type in the design, and no argument for it, the instance has that value - so changing the
entry changes the instance. -/
theorem C164_known_entries_matter {m : Sim.Mt} {f f' : File} {id : String} {kw : Args} {s s' : Setup} {c c' : Cfg} (h : setupDER (template m) f id kw = .ok s)
    (h' : setupDER (template m) f' id kw = .ok s') (hf : f id = some c) (hf' : f' id = some c') {comp p : String} {dflt : PVal} (hp : HasParam (template m) comp p dflt)
    (ha : s.args p = none) (ha' : s'.args p = none) {d d' : String → Option PVal} (hc : c.entries comp = some (.comp d)) (hc' : c'.entries comp = some (.comp d')) {v v' : PVal}
    (hd : d p = some v) (hd' : d' p = some v') (hne : v ≠ v') : s.design.cfg comp p ≠ s'.design.cfg comp p := by
  obtain ⟨_, e, _, h3, _⟩ := C66_setup h
  obtain ⟨_, e', _, h3', _⟩ := C66_setup h'
  rw [hf] at e
  cases e
  rw [hf'] at e'
  cases e'
  rw [h3 comp p dflt hp, h3' comp p dflt hp, ha, ha']
  simp [entry, hc, hc', hd, hd', hne]

theorem not_known {T : Template} {comp p : String} (h : ∀ cp ∈ T, cp.1 = comp → ∀ pd ∈ cp.2, pd.1 ≠ p)
    (h' : (comp, p) ∉ [("basic_specs", "model_type"), ("inverter_ratings", "Srated"), ("inverter_ratings", "Vrmsrated")]) : ¬ Known T comp p := by
  rintro (⟨d, ps, hm, hd⟩ | h2)
  · exact h _ hm rfl _ hd rfl
  · exact h' h2

/-- The design of the example file, its misspelt entry `unknown` changed. -/
def exMore : Cfg := cfgOf [("parent_config", .str ""), ("verbosity", .str "WARNING")]
  [("basic_specs", [("model_type", .str "SolarPVDERThreePhase")]), ("inverter_ratings", [("Srated", .float 50000), ("Vrmsrated", .float 177)]),
    ("controller_gains", [("Kp_Q", .float (3/10)), ("unknown", .str "rubbish")])] [("LVRT", ⟨none, some "LV"⟩)]

/-- The same with `Kp_Q` misspelt. -/
def exLess : Cfg := cfgOf [("parent_config", .str ""), ("verbosity", .str "WARNING")]
  [("basic_specs", [("model_type", .str "SolarPVDERThreePhase")]), ("inverter_ratings", [("Srated", .float 50000), ("Vrmsrated", .float 177)]),
    ("controller_gains", [("Kp_q", .float (3/10))])] [("LVRT", ⟨none, some "LV"⟩)]

/-- Both names are unknown; the set-up of the first design succeeds, as that of the original, and gives the configured gain; that of the second succeeds too, with the default gain. -/
theorem C164_example :
    ¬ Known (template .three) "controller_gains" "unknown" ∧ ¬ Known (template .three) "controller_gains" "Kp_q" ∧
    readParam (setupDER (template .three) (exFile.set "50" exMore) "50" (kwOf [])) "controller_gains" "Kp_Q" = .ok (some (.float (3/10))) ∧
    readParam (setupDER (template .three) exFile "50" (kwOf [])) "controller_gains" "Kp_Q" = .ok (some (.float (3/10))) ∧
    readParam (setupDER (template .three) (exFile.set "50" exLess) "50" (kwOf [])) "controller_gains" "Kp_Q" = .ok (some (.float (1/5))) := by
  refine ⟨not_known (by decide +kernel) (by decide +kernel), not_known (by decide +kernel) (by decide +kernel), ?_⟩
  decide +kernel

/-- The hypothesis of the first theorem is met by these two different files. -/
theorem C164_example_same : SameFile (template .three) "50" exFile (exFile.set "50" exMore) ∧ entry exMore "controller_gains" "unknown" = some (.str "rubbish") ∧
    (exFile "50").map (fun c => entry c "controller_gains" "unknown") = some (some (.int 7)) := by
  refine ⟨⟨?_, ?_⟩, by decide +kernel, by decide +kernel⟩
  · simp only [File.set, if_pos, exFile]
    refine ⟨fun k _ => ?_, rfl⟩
    by_cases e : k = "controller_gains"
    · subst e
      have e1 : (cfgOf [("parent_config", .str ""), ("verbosity", .str "WARNING")]
        [("basic_specs", [("model_type", .str "SolarPVDERThreePhase")]), ("inverter_ratings", [("Srated", .float 50000), ("Vrmsrated", .float 177)]),
         ("controller_gains", [("Kp_Q", .float (3/10)), ("unknown", .int 7)])] [("LVRT", ⟨none, some "LV"⟩)]).entries "controller_gains" =
        some (.comp (dictOf [("Kp_Q", .float (3/10)), ("unknown", .int 7)])) := rfl
      have e2 : exMore.entries "controller_gains" = some (.comp (dictOf [("Kp_Q", .float (3/10)), ("unknown", .str "rubbish")])) := rfl
      rw [e1, e2]
      refine .dict _ _ fun q hq => ?_
      have hn : q ≠ "unknown" := by
        rintro rfl
        exact not_known (by decide +kernel) (by decide +kernel) hq
      by_cases h : q = "Kp_Q"
      · subst h; rfl
      · have b1 : (q == "Kp_Q") = false := by simpa using h
        have b2 : (q == "unknown") = false := by simpa using hn
        simp [dictOf, List.lookup, b1, b2]
    · have : exMore.entries k = (cfgOf [("parent_config", .str ""), ("verbosity", .str "WARNING")]
        [("basic_specs", [("model_type", .str "SolarPVDERThreePhase")]), ("inverter_ratings", [("Srated", .float 50000), ("Vrmsrated", .float 177)]),
         ("controller_gains", [("Kp_Q", .float (3/10)), ("unknown", .int 7)])] [("LVRT", ⟨none, some "LV"⟩)]).entries k := by
        have b : (k == "controller_gains") = false := by simpa using e
        simp [exMore, cfgOf, List.lookup, b]
      rw [this]
      exact .refl _ _
  · intro x
    unfold File.set
    by_cases e : x = "50"
    · subst e; rfl
    · rw [if_neg e]

/-- Every entry of the lists is known. -/
def AllKnown (T : Template) (comps : List (String × List (String × PVal))) : Prop :=
  ∀ cp ∈ comps, ∀ pd ∈ cp.2, ∃ cp' ∈ T, cp'.1 = cp.1 ∧ ∃ pd' ∈ cp'.2, pd'.1 = pd.1
instance (T : Template) (comps : List (String × List (String × PVal))) : Decidable (AllKnown T comps) := inferInstanceAs (Decidable (∀ _ ∈ _, _))

theorem lookup_in {α : Type} {k : String} {v : α} : ∀ {l : List (String × α)}, l.lookup k = some v → (k, v) ∈ l
  | [], h => by simp at h
  | (a, b) :: l, h => by
    rw [List.lookup_cons] at h
    by_cases e : k = a
    · subst e; simp at h; simp [h]
    · have b : (k == a) = false := by simpa using e
      rw [b] at h
      exact List.mem_cons_of_mem _ (lookup_in h)

theorem known_of_all {T : Template} {lv : List (String × PVal)} {comps : List (String × List (String × PVal))} {rt : List (String × RTNode)} (h : AllKnown T comps)
    {comp p : String} {v : PVal} (he : entry (cfgOf lv comps rt) comp p = some v) : Known T comp p := by
  unfold entry cfgOf at he
  dsimp only at he
  cases hl : lv.lookup comp with
  | some w => simp [hl] at he
  | none =>
    cases hc : comps.lookup comp with
    | none => simp [hl, hc] at he
    | some ps =>
      simp only [hl, hc, Option.map_some] at he
      obtain ⟨cp', h1, h2, pd', h3, h4⟩ := h _ (lookup_in hc) _ (lookup_in (l := ps) he)
      obtain ⟨a, b⟩ := cp'
      obtain ⟨q, d⟩ := pd'
      dsimp only at h2 h3 h4
      subst h2 h4
      exact .inl ⟨d, b, h1, h3⟩

/-- **C164 (the shipped file).** In the shipped file every entry of a design that names no parent is known to the class the design names, with two exceptions: the DC capacitance and the initial DC controller state of the
constant-DC-voltage design of 10 kVA, which are written there and ignored. -/
theorem C164_shipped {comp p : String} {v : PVal} :
    (entry Shipped.c_50 comp p = some v → Known (template .three) comp p) ∧ (entry Shipped.c_250 comp p = some v → Known (template .three) comp p) ∧
    (entry Shipped.c_10 comp p = some v → Known (template .single) comp p) ∧ (entry Shipped.c_1 comp p = some v → Known (template .single) comp p) ∧
    (entry Shipped.c_50_balanced comp p = some v → Known (template .balanced) comp p) ∧ (entry Shipped.c_50_constantVdc comp p = some v → Known (template .constVdc3) comp p) ∧
    (entry Shipped.c_10_constantVdc comp p = some v → (Known (template .constVdc1) comp p ↔ ¬ (comp = "circuit_parameters" ∧ p = "C_actual") ∧ ¬ (comp = "initial_states" ∧ p = "xDC"))) ∧
    (entry Shipped.c_10_constantVdc "circuit_parameters" "C_actual").isSome ∧ (entry Shipped.c_10_constantVdc "initial_states" "xDC").isSome := by
  refine ⟨known_of_all (by decide +kernel), known_of_all (by decide +kernel), known_of_all (by decide +kernel), known_of_all (by decide +kernel), known_of_all (by decide +kernel),
    known_of_all (by decide +kernel), fun h => ⟨?_, ?_⟩, by decide +kernel, by decide +kernel⟩
  · intro hk
    constructor
    · rintro ⟨rfl, rfl⟩
      exact not_known (by decide +kernel) (by decide +kernel) hk
    · rintro ⟨rfl, rfl⟩
      exact not_known (by decide +kernel) (by decide +kernel) hk
  · rintro ⟨h1, h2⟩
    by_contra hn
    have : Known (template .constVdc1 ++ [("circuit_parameters", [("C_actual", .int 0)]), ("initial_states", [("xDC", .int 0)])]) comp p := known_of_all (by decide +kernel) h
    rcases this with ⟨d, ps, hm, hd⟩ | h3
    · rcases List.mem_append.1 hm with hm | hm
      · exact hn (.inl ⟨d, ps, hm, hd⟩)
      · simp only [List.mem_cons, List.not_mem_nil, or_false, Prod.mk.injEq] at hm
        rcases hm with ⟨rfl, rfl⟩ | ⟨rfl, rfl⟩ <;> simp only [List.mem_cons, List.not_mem_nil, or_false, Prod.mk.injEq] at hd
        · exact h1 ⟨rfl, hd.1⟩
        · exact h2 ⟨rfl, hd.1⟩
    · exact hn (.inr h3)

end Config
end PvDer
