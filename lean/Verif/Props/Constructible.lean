import Verif.Props.Construct
import Verif.Props.ConfigRT
/-!
C82, positive part: complete, parent-free configurations of the three-phase classes do construct.
-/
namespace PvDer
namespace Config

/-! ### Specification -/

/-- The settings a user must give in every level of a ride-through entry (the remaining ones, `t_start` and `threshold_breach`, are filled in). -/
def userKeys : String → List String
  | "LVRT" => ["V_threshold", "t_threshold", "t_min_ridethrough", "mode"]
  | "HVRT" => ["V_threshold", "t_threshold", "t_min_ridethrough", "mode"]
  | "LFRT" => ["F_LF", "t_LF_limit", "t_LFstart"]
  | "HFRT" => ["F_HF", "t_HF_limit", "t_HFstart"]
  | _ => []

/-- A ride-through body made of level dictionaries with all user settings. -/
def LevelsGiven (n : String) (b : Body) : Prop := ∀ kv ∈ b, ∃ d, kv.2 = .level d ∧ ∀ k ∈ userKeys n, (d k).isSome

/-- A complete, parent-free, well-typed configuration for class `m`: components are dictionaries, the three required entries are there, every entry of a template parameter has the declared type, and
each ride-through entry that is present designates settings with all user keys. -/
structure Complete (m : Sim.Mt) (file : File) (c : Cfg) : Prop where
  noParent : NoParent c
  shape : ∀ comp p d v, HasParam (template m) comp p d → c.entries comp ≠ some (.leaf v)
  modelType : (entry c "basic_specs" "model_type").isSome
  srated : (entry c "inverter_ratings" "Srated").isSome
  vrms : (entry c "inverter_ratings" "Vrmsrated").isSome
  types : ∀ comp p d ts v, HasParam (template m) comp p d → props.lookup p = some ts → entry c comp p = some v → isInstance v ts = true
  rt : ∀ n ∈ rtNames, ∀ node, c.rt n = some node → ∃ b, designated file node = some b ∧ (n ∈ ["LVRT", "HVRT", "LFRT", "HFRT"] → LevelsGiven n b)

/-- The value the user gave for an argument: the keyword, else the top-level entry of the configuration. -/
def givenArg (c : Cfg) (kw : Args) (k : String) : Option PVal :=
  kw k <|> (match c.entries k with | some (.leaf v) => some v | _ => none)

/-- Arguments of listed types, with a logging level name as verbosity, and the grid data of the mode: a grid object when stand-alone (the default), otherwise frequency and phase voltages (phase a alone for the
balanced class). -/
structure ArgsOK (m : Sim.Mt) (c : Cfg) (kw : Args) : Prop where
  typed : ∀ k ts df v, (k, ts, df) ∈ argSpec → kw k = some v → isInstance v ts = true
  top : ∀ k ts df n, (k, ts, df) ∈ argSpec → c.entries k = some n → ∃ v, n = .leaf v ∧ isInstance v ts = true
  verb : ∀ v, givenArg c kw "verbosity" = some v → ∃ s, v = .str s ∧ s ∈ ["DEBUG", "INFO", "WARNING", "ERROR", "CRITICAL"]
  alone : givenArg c kw "standAlone" ≠ some (.bool false) → (givenArg c kw "gridModel").isSome
  meas : givenArg c kw "standAlone" = some (.bool false) → (givenArg c kw "gridFrequency").isSome ∧ (givenArg c kw "gridVoltagePhaseA").isSome ∧
    (m ≠ .balanced → (givenArg c kw "gridVoltagePhaseB").isSome ∧ (givenArg c kw "gridVoltagePhaseC").isSome)

/-! ### Steps -/

theorem parent_ok {named : Bool} {file : File} {c : Cfg} (h : NoParent c) : parentConfig named file (parentId c) = .ok Cfg.empty := by
  unfold parentId
  rcases h with h | h <;> rw [h] <;> simp [parentConfig, truthy]

theorem updateSpec_id {par c : Cfg} {s : String × String} (h : (entry c s.1 s.2).isSome) : updateSpec par c s = .ok c := by
  unfold updateSpec look?
  unfold entry at h
  cases hc : c.entries s.1 with
  | none => simp [hc] at h
  | some n =>
    cases n with
    | leaf v => simp [hc] at h
    | comp d =>
      simp only [hc] at h
      obtain ⟨v, hv⟩ := Option.isSome_iff_exists.1 h
      simp [hv, bind, Except.bind]

theorem createConfig_complete {m : Sim.Mt} {file : File} {id : String} {c : Cfg} (hf : file id = some c) (hc : Complete m file c) :
    createConfig false (template m) file id = .ok (completed (template m) c, completed (template m) Cfg.empty) := by
  have e := entry_completed (template m) c
  have h1 := hc.modelType
  have h2 := hc.srated
  have h3 := hc.vrms
  rw [← e] at h1 h2 h3
  unfold createConfig getConfig
  simp only [hf, bind, Except.bind, parent_ok hc.noParent]
  unfold updateSpecs requiredSpecs
  simp only [List.foldlM_cons, List.foldlM_nil, bind, Except.bind, pure, Except.pure]
  rw [updateSpec_id h1]
  simp only
  rw [updateSpec_id h2]
  simp only
  rw [updateSpec_id h3]

theorem argNames_free (m : Sim.Mt) : ∀ s ∈ argSpec, s.1 ∉ (template m).map Prod.fst := by
  cases m <;> decide +kernel

theorem completed_arg {m : Sim.Mt} {c : Cfg} {k : String} (hk : k ∈ argSpec.map Prod.fst) : (completed (template m) c).entries k = c.entries k := by
  obtain ⟨s, hs, rfl⟩ := List.mem_map.1 hk
  have := argNames_free m s hs
  unfold completed
  simp only
  cases c.entries s.1 <;> simp [this]

/-- Under `ArgsOK` every argument is what the user gave, else its default. -/
theorem args_given {m : Sim.Mt} {c : Cfg} {kw : Args} (h : ArgsOK m c kw) {k : String} {ts : List Ty} {df : Option PVal} (hk : (k, ts, df) ∈ argSpec) :
    getArguments argSpec (completed (template m) c) kw k = (givenArg c kw k <|> df) := by
  have hval := args_of_mem (c := completed (template m) c) (kw := kw) hk
  have hce : (completed (template m) c).entries k = c.entries k := completed_arg (List.mem_map.2 ⟨_, hk, rfl⟩)
  simp only at hval
  rw [hval]
  unfold argStep givenArg
  simp only [hce]
  cases hkw : kw k with
  | some v => simp [h.typed _ _ _ _ hk hkw]
  | none =>
    cases hn : c.entries k with
    | none => cases df <;> simp
    | some n =>
      obtain ⟨v, rfl, hv⟩ := h.top _ _ _ _ hk hn
      simp [hv]

theorem given_typed {m : Sim.Mt} {c : Cfg} {kw : Args} (h : ArgsOK m c kw) {k : String} {ts : List Ty} {df : Option PVal} (hk : (k, ts, df) ∈ argSpec) {v : PVal}
    (hv : givenArg c kw k = some v) : isInstance v ts = true := by
  unfold givenArg at hv
  cases hkw : kw k with
  | some w => simp [hkw] at hv; exact hv ▸ h.typed _ _ _ _ hk hkw
  | none =>
    cases hn : c.entries k with
    | none => simp [hkw, hn] at hv
    | some n =>
      obtain ⟨w, rfl, hw⟩ := h.top _ _ _ _ hk hn
      simp [hkw, hn] at hv
      exact hv ▸ hw

/-- Argument types and declared parameter types agree. -/
theorem argTypes (m : Sim.Mt) : ∀ s ∈ argSpec, (∃ cp ∈ template m, ∃ pd ∈ cp.2, pd.1 = s.1) → props.lookup s.1 = some s.2.1 ∧ s.2.2 = none := by
  cases m <;> decide +kernel

theorem design_ok {m : Sim.Mt} {file : File} {c : Cfg} {kw : Args} (hc : Complete m file c) (ha : ArgsOK m c kw) :
    ∃ d, updateConfig (template m) props (completed (template m) c) (completed (template m) Cfg.empty) (getArguments argSpec (completed (template m) c) kw) = .ok d := by
  refine C66_accepts m ?_ ?_ ?_
  · intro cp hcp hne
    have hmem : cp.1 ∈ (template m).map Prod.fst := List.mem_map.2 ⟨cp, hcp, rfl⟩
    constructor
    · obtain ⟨pd, hpd⟩ := List.exists_mem_of_ne_nil _ hne
      unfold completed
      simp only
      cases hce : c.entries cp.1 with
      | none => exact ⟨_, by simp [hmem]; rfl⟩
      | some n =>
        cases n with
        | leaf v => exact absurd hce (hc.shape cp.1 pd.1 pd.2 v ⟨cp.2, hcp, hpd⟩)
        | comp d => exact ⟨d, rfl⟩
    · exact ⟨fun _ => none, by simp [completed, Cfg.empty, hmem]⟩
  · have : "parent_config" ∈ (template m).map Prod.fst := by cases m <;> decide +kernel
    unfold completed
    simp only
    cases c.entries "parent_config" <;> simp [this]
  · intro comp p dflt ts v hp hts hv
    rw [entry_completed, entry_completed] at hv
    have he : entry Cfg.empty comp p = none := rfl
    rw [he] at hv
    by_cases hm : p ∈ argSpec.map Prod.fst
    · obtain ⟨⟨q, ats, df⟩, hs, rfl⟩ := List.mem_map.1 hm
      obtain ⟨ps, hps, hpd⟩ := hp
      obtain ⟨e1, e2⟩ := argTypes m _ hs ⟨_, hps, _, hpd, rfl⟩
      simp only at e1 e2 hv
      rw [hts] at e1
      cases e1
      subst e2
      rw [args_given ha hs] at hv
      cases hg : givenArg c kw q with
      | some w =>
        simp [hg] at hv
        exact hv ▸ given_typed ha hs hg
      | none =>
        simp [hg] at hv
        exact hc.types _ _ _ _ _ ⟨ps, hps, hpd⟩ hts hv
    · rw [args_of_not_mem hm] at hv
      simp at hv
      exact hc.types _ _ _ _ _ hp hts hv

theorem pickRT_designated {file : File} {node : RTNode} {b : Body} (h : designated file node = some b) : pickRT file node = .ok (some b) := by
  obtain ⟨cf, ci⟩ := node
  unfold designated at h
  unfold pickRT
  cases cf with
  | some x => cases ci <;> simpa using h
  | none =>
    cases ci with
    | none => simp at h
    | some i =>
      simp only at h ⊢
      cases hf : file i with
      | none => simp [hf] at h
      | some c =>
        simp [hf] at h
        simp [h]

/-- Every ride-through name of a complete configuration (own entry or template) designates good settings. -/
theorem rt_good {m : Sim.Mt} {file : File} {c : Cfg} (hc : Complete m file c) {n : String} (hn : n ∈ rtNames) :
    ∃ b, designated file (resolveRT (completed (template m) c) (completed (template m) Cfg.empty) n) = some b ∧ (n ∈ ["LVRT", "HVRT", "LFRT", "HFRT"] → LevelsGiven n b) := by
  have hr : resolveRT (completed (template m) c) (completed (template m) Cfg.empty) n = (match c.rt n with | some x => x | none => rtTemplate n) := by
    unfold resolveRT completed Cfg.empty
    cases c.rt n <;> rfl
  rw [hr]
  cases hx : c.rt n with
  | some node => exact hc.rt n hn node hx
  | none =>
    simp only [rtNames, List.mem_cons, List.not_mem_nil, or_false] at hn
    rcases hn with rfl | rfl | rfl | rfl | rfl | rfl
    · exact ⟨_, rfl, fun _ => by simp [LevelsGiven, userKeys, vLevel]⟩
    · exact ⟨_, rfl, fun _ => by simp [LevelsGiven, userKeys, vLevel]⟩
    · exact ⟨_, rfl, by simp⟩
    · exact ⟨_, rfl, fun _ => by simp [LevelsGiven, userKeys, fLevel]⟩
    · exact ⟨_, rfl, fun _ => by simp [LevelsGiven, userKeys, fLevel]⟩
    · exact ⟨_, rfl, by simp⟩

theorem fill_ok {n : String} (hn : n = "LVRT" ∨ n = "HVRT") : ∀ {b : Body}, LevelsGiven n b → ∃ b', b.mapM fillLevel = .ok b' ∧ checkLevels (levelKeys n) b' = true
  | [], _ => ⟨[], rfl, rfl⟩
  | kv :: b, h => by
    obtain ⟨b', h1, h2⟩ := fill_ok hn (b := b) (fun x hx => h x (List.mem_cons_of_mem _ hx))
    obtain ⟨d, hd, hk⟩ := h kv (List.mem_cons_self ..)
    obtain ⟨k, lf⟩ := kv
    simp only at hd
    subst hd
    refine ⟨(k, .level (fill (fill d "t_start" (.float 0)) "threshold_breach" (.bool false))) :: b', ?_, ?_⟩
    · rw [List.mapM_cons]
      simp [fillLevel, h1, bind, Except.bind, pure, Except.pure]
    · unfold checkLevels at h2 ⊢
      rw [List.all_cons, h2, Bool.and_true]
      simp only
      have f1 : ∀ (d : String → Option PVal) q k v, (d q).isSome → (fill d k v q).isSome := by
        intro d q k v hq
        unfold fill
        split
        · split <;> rfl
        · exact hq
      have f2 : ∀ (d : String → Option PVal) k v, (fill d k v k).isSome := by
        intro d k v
        unfold fill
        simp only [if_true]
        split <;> rfl
      have g : ∀ q ∈ ["V_threshold", "t_threshold", "t_min_ridethrough", "mode", "t_start", "threshold_breach"],
          (fill (fill d "t_start" (.float 0)) "threshold_breach" (.bool false) q).isSome := by
        intro q hq
        simp only [List.mem_cons, List.not_mem_nil, or_false] at hq
        have hk' : ∀ q ∈ ["V_threshold", "t_threshold", "t_min_ridethrough", "mode"], (d q).isSome := by
          rcases hn with rfl | rfl <;> exact hk
        rcases hq with rfl | rfl | rfl | rfl | rfl | rfl
        · exact f1 _ _ _ _ (f1 _ _ _ _ (hk' _ (by simp)))
        · exact f1 _ _ _ _ (f1 _ _ _ _ (hk' _ (by simp)))
        · exact f1 _ _ _ _ (f1 _ _ _ _ (hk' _ (by simp)))
        · exact f1 _ _ _ _ (f1 _ _ _ _ (hk' _ (by simp)))
        · exact f1 _ _ _ _ (f2 _ _ _)
        · exact f2 _ _ _
      rw [List.all_eq_true]
      intro q hq
      refine g q ?_
      rcases hn with rfl | rfl <;> exact hq

theorem check_given {n : String} (hn : n = "LFRT" ∨ n = "HFRT") {b : Body} (h : LevelsGiven n b) : checkLevels (levelKeys n) b = true := by
  unfold checkLevels
  rw [List.all_eq_true]
  intro kv hkv
  obtain ⟨d, hd, hk⟩ := h kv hkv
  rw [hd]
  simp only
  rw [List.all_eq_true]
  intro q hq
  refine hk q ?_
  rcases hn with rfl | rfl <;> exact hq

theorem rt_ok' {file : File} {rt : String → RTNode} (h : ∀ n ∈ rtNames, ∃ b, designated file (rt n) = some b ∧ (n ∈ ["LVRT", "HVRT", "LFRT", "HFRT"] → LevelsGiven n b)) :
    ∃ r, updateRT file rt = .ok r ∧ checkRT r = .ok () := by
  obtain ⟨b1, d1, g1⟩ := h "LVRT" (by decide)
  obtain ⟨b2, d2, g2⟩ := h "HVRT" (by decide)
  obtain ⟨b3, d3, _⟩ := h "VRT_delays" (by decide)
  obtain ⟨b4, d4, g4⟩ := h "LFRT" (by decide)
  obtain ⟨b5, d5, g5⟩ := h "HFRT" (by decide)
  obtain ⟨b6, d6, _⟩ := h "FRT_delays" (by decide)
  obtain ⟨l, hl, cl⟩ := fill_ok (.inl rfl) (g1 (by decide))
  obtain ⟨l', hl', cl'⟩ := fill_ok (.inr rfl) (g2 (by decide))
  have c4 := check_given (.inl rfl) (g4 (by decide))
  have c5 := check_given (.inr rfl) (g5 (by decide))
  refine ⟨_, by
    unfold updateRT
    simp only [pickRT_designated d1, pickRT_designated d2, pickRT_designated d3, pickRT_designated d4, pickRT_designated d5, pickRT_designated d6, need, hl, hl',
      bind, Except.bind, pure, Except.pure]; rfl, ?_⟩
  simp [checkRT, need, cl, cl', c4, c5, bind, Except.bind, pure, Except.pure, List.forM]

/-! ### C82 -/

/-- **C82 (three-phase classes construct).** For each of the five three-phase classes, every file, every complete parent-free configuration in it and every well-typed set of arguments with the grid data of its
mode: construction succeeds, in the mode asked for, and every template parameter has the value the user gave — as an argument if it is a listed one, else in the configuration, else the template default. -/
theorem C82_constructs {m : Sim.Mt} (hm : Sim.isThree m = true) {file : File} {id : String} {c : Cfg} {kw : Args} (hf : file id = some c) (hc : Complete m file c) (ha : ArgsOK m c kw) :
    ∃ b, construct (template m) file id kw = .ok b ∧
      (b.standAlone = false ↔ givenArg c kw "standAlone" = some (.bool false)) ∧
      ∀ comp p d, HasParam (template m) comp p d →
        b.setup.design.cfg comp p = ((if p ∈ argSpec.map Prod.fst then givenArg c kw p else none) <|> entry c comp p <|> some d) := by
  obtain ⟨d, hd⟩ := design_ok hc ha
  have hdrt : d.rt = resolveRT (completed (template m) c) (completed (template m) Cfg.empty) := by
    have h := hd
    unfold updateConfig at h
    obtain ⟨_, _, h⟩ := bind_ok h
    obtain ⟨r, hr, h⟩ := bind_ok h
    obtain ⟨z, hz, h⟩ := bind_ok h
    cases h; rfl
  obtain ⟨r, hr, hrc⟩ := rt_ok' (file := file) (rt := d.rt) (by rw [hdrt]; exact fun n hn => rt_good hc hn)
  have hA : ∀ {k : String} {ts : List Ty} {df : Option PVal}, (k, ts, df) ∈ argSpec →
      getArguments argSpec (completed (template m) c) kw k = (givenArg c kw k <|> df) := fun hk => args_given ha hk
  have hid : checkIdentifier (getArguments argSpec (completed (template m) c) kw) = .ok () := by
    unfold checkIdentifier
    rw [hA (k := "identifier") (ts := [.str]) (df := some (.str "")) (by decide)]
    cases givenArg c kw "identifier" <;> rfl
  have hvb : checkVerbosity (getArguments argSpec (completed (template m) c) kw) = .ok () := by
    unfold checkVerbosity
    rw [hA (k := "verbosity") (ts := [.str, .int]) (df := some (.str "INFO")) (by decide)]
    cases hg : givenArg c kw "verbosity" with
    | none => rfl
    | some v =>
      obtain ⟨s, rfl, hs⟩ := ha.verb v hg
      simp only [Option.orElse_eq_orElse, Option.orElse_eq_or, Option.some_or]
      rw [if_pos hs]
  have hset : setupDER (template m) file id kw = .ok ⟨getArguments argSpec (completed (template m) c) kw, d, r⟩ := by
    unfold setupDER
    simp only [createConfig_complete hf hc, hid, hvb, hd, hr, hrc, bind, Except.bind, pure, Except.pure]
  have hsa : ∃ bsa : Bool, getArguments argSpec (completed (template m) c) kw "standAlone" = some (.bool bsa) ∧ (bsa = false ↔ givenArg c kw "standAlone" = some (.bool false)) := by
    rw [hA (k := "standAlone") (ts := [.bool]) (df := some (.bool true)) (by decide)]
    cases hg : givenArg c kw "standAlone" with
    | none => exact ⟨true, rfl, by simp⟩
    | some v =>
      have := given_typed ha (k := "standAlone") (ts := [.bool]) (df := some (.bool true)) (by decide) hg
      cases v <;> simp [isInstance, hasTy] at this
      exact ⟨_, rfl, by simp⟩
  obtain ⟨bsa, hsa, hsb⟩ := hsa
  have hfl : ∃ y z, initFlags (getArguments argSpec (completed (template m) c) kw) = .ok (.bool bsa, y, z) := by
    unfold initFlags
    rw [hsa, hA (k := "steadyStateInitialization") (ts := [.bool]) (df := some (.bool true)) (by decide),
      hA (k := "allowUnbalancedM") (ts := [.bool]) (df := some (.bool false)) (by decide)]
    cases givenArg c kw "steadyStateInitialization" <;> cases givenArg c kw "allowUnbalancedM" <;> exact ⟨_, _, rfl⟩
  obtain ⟨y, z, hfl⟩ := hfl
  have hgr : ∃ g, attachGrid bsa (getArguments argSpec (completed (template m) c) kw) = .ok g := by
    unfold attachGrid
    cases hb : bsa with
    | false => exact ⟨_, rfl⟩
    | true =>
      rw [hA (k := "gridModel") (ts := [.grid]) (df := none) (by decide)]
      obtain ⟨g, hg⟩ := Option.isSome_iff_exists.1 (ha.alone (by rw [ne_eq, ← hsb, hb]; simp))
      exact ⟨some g, by simp [hg]⟩
  obtain ⟨g, hgr⟩ := hgr
  have hms : ∃ ms, initMeas 3 (decide (m ≠ .balanced)) bsa (getArguments argSpec (completed (template m) c) kw) = .ok ms := by
    unfold initMeas
    cases hb : bsa with
    | true => exact ⟨_, rfl⟩
    | false =>
      obtain ⟨h1, h2, h3⟩ := ha.meas (hsb.1 hb)
      obtain ⟨f, hfq⟩ := Option.isSome_iff_exists.1 h1
      obtain ⟨va, hva⟩ := Option.isSome_iff_exists.1 h2
      rw [hA (k := "gridFrequency") (ts := [.int, .float]) (df := none) (by decide), hA (k := "gridVoltagePhaseA") (ts := [.complex]) (df := none) (by decide),
        hA (k := "gridVoltagePhaseB") (ts := [.complex]) (df := none) (by decide), hA (k := "gridVoltagePhaseC") (ts := [.complex]) (df := none) (by decide)]
      by_cases hbal : m = .balanced
      · exact ⟨⟨some f, .given va, .derived, .derived⟩, by simp [hfq, hva, hbal]⟩
      · obtain ⟨h4, h5⟩ := h3 hbal
        obtain ⟨vb, hvb'⟩ := Option.isSome_iff_exists.1 h4
        obtain ⟨vc, hvc⟩ := Option.isSome_iff_exists.1 h5
        exact ⟨⟨some f, .given va, .given vb, .given vc⟩, by simp [hfq, hva, hvb', hvc, hbal]⟩
  obtain ⟨ms, hms⟩ := hms
  refine ⟨⟨⟨getArguments argSpec (completed (template m) c) kw, d, r⟩, bsa, g, ms⟩, ?_, hsb, ?_⟩
  · unfold construct
    simp only [hset, C82_three_phase_specs_partial hm, hfl, bind, Except.bind, flag, truthy]
    rw [hgr]
    simp only []
    rw [show (3 : ℤ).toNat = 3 from rfl, hms]
    rfl
  · intro comp p dd hp
    obtain ⟨c', hf', _, h1, _⟩ := C66_setup hset
    rw [hf] at hf'
    cases hf'
    rw [h1 comp p dd hp]
    congr 1
    by_cases hmem : p ∈ argSpec.map Prod.fst
    · rw [if_pos hmem]
      obtain ⟨⟨q, ats, df⟩, hs, rfl⟩ := List.mem_map.1 hmem
      obtain ⟨ps, hps, hpd⟩ := hp
      obtain ⟨_, e2⟩ := argTypes m _ hs ⟨_, hps, _, hpd, rfl⟩
      simp only at e2 ⊢
      subst e2
      rw [hA hs]
      simp
    · rw [if_neg hmem]
      exact args_of_not_mem hmem

/-- **C82 (wrapper constructs).** Through the wrapper the same holds for the three classes it can give, when the configuration names that class. -/
theorem C82_wrapper_constructs {m : Sim.Mt} (hm : m = .three ∨ m = .balanced ∨ m = .numba) {file : File} {id : String} {c : Cfg} {kw : Args} (hf : file id = some c)
    (hc : Complete m file c) (ha : ArgsOK m c kw) (hname : entry c "basic_specs" "model_type" = some (.str (className m))) :
    ∃ b, wrapper file id kw = .ok (m, b) ∧ construct (template m) file id kw = .ok b := by
  obtain ⟨b, hb, _⟩ := C82_constructs (m := m) (by rcases hm with rfl | rfl | rfl <;> rfl) hf hc ha
  refine ⟨b, ?_, hb⟩
  have hw : wrapperConfig file id = .ok c := by
    unfold wrapperConfig getConfig
    simp only [hf, bind, Except.bind, parent_ok hc.noParent]
    unfold updateSpecs requiredSpecs
    simp only [List.foldlM_cons, List.foldlM_nil, bind, Except.bind, pure, Except.pure]
    rw [updateSpec_id hc.modelType]
    simp only
    rw [updateSpec_id hc.srated]
    simp only
    rw [updateSpec_id hc.vrms]
  have hl : look c "basic_specs" "model_type" = .ok (some (.str (className m))) := by
    unfold look
    unfold entry at hname
    cases hce : c.entries "basic_specs" with
    | none => simp [hce] at hname
    | some n =>
      cases n with
      | leaf v => simp [hce] at hname
      | comp d => simp [hce] at hname; simp [hname]
  have hd : dispatch (className m) = .ok m := by rcases hm with rfl | rfl | rfl <;> decide +kernel
  unfold wrapper
  simp only [hw, hl, hd, hb, bind, Except.bind, pure, Except.pure]

/-- Non-vacuity: the example file's configuration "50" is complete, and stand-alone arguments are accepted. -/
theorem C82_example : Complete .three exFile (cfgOf [("parent_config", .str ""), ("verbosity", .str "WARNING")]
      [("basic_specs", [("model_type", .str "SolarPVDERThreePhase")]), ("inverter_ratings", [("Srated", .float 50000), ("Vrmsrated", .float 177)]),
       ("controller_gains", [("Kp_Q", .float (3/10)), ("unknown", .int 7)])] [("LVRT", ⟨none, some "LV"⟩)]) := by
  have key : ∀ cp ∈ template .three, ∀ pd ∈ cp.2, List.lookup cp.1 [("parent_config", PVal.str ""), ("verbosity", .str "WARNING")] = none ∧
      ∀ v ∈ ((([("basic_specs", [("model_type", PVal.str "SolarPVDERThreePhase")]), ("inverter_ratings", [("Srated", .float 50000), ("Vrmsrated", .float 177)]),
       ("controller_gains", [("Kp_Q", .float (3/10)), ("unknown", .int 7)])].lookup cp.1).bind fun l => l.lookup pd.1).toList), ∀ ts ∈ (props.lookup pd.1).toList, isInstance v ts = true := by
    decide +kernel
  refine ⟨.inr rfl, ?_, by decide +kernel, by decide +kernel, by decide +kernel, ?_, ?_⟩
  · rintro comp p d v ⟨ps, h1, h2⟩ h
    have := (key _ h1 _ h2).1
    unfold cfgOf at h
    simp only at h this
    rw [this] at h
    simp only [Option.map_eq_some_iff] at h
    obtain ⟨_, _, h⟩ := h
    cases h
  · rintro comp p d ts v ⟨ps, h1, h2⟩ hts hv
    have := key _ h1 _ h2
    simp only at this
    refine this.2 v ?_ ts (by rw [hts]; simp)
    unfold entry cfgOf at hv
    simp only [this.1] at hv
    rw [Option.mem_toList]
    revert hv
    generalize List.lookup comp _ = x
    cases x with
    | none => simp
    | some l => simp [dictOf]
  · intro n hn node hnode
    simp only [rtNames, List.mem_cons, List.not_mem_nil, or_false] at hn
    rcases hn with rfl | rfl | rfl | rfl | rfl | rfl
    · have : node = ⟨none, some "LV"⟩ := by
        have : (some (⟨none, some "LV"⟩ : RTNode)) = some node := hnode
        exact (Option.some.inj this).symm
      subst this
      refine ⟨_, rfl, fun _ kv hkv => ?_⟩
      simp only [List.mem_cons, List.not_mem_nil, or_false] at hkv
      subst hkv
      exact ⟨_, rfl, by decide +kernel⟩
    all_goals exact absurd hnode (by simp [cfgOf, List.lookup])

/-- … with a grid object as argument. -/
theorem C82_example_args : ArgsOK .three (cfgOf [("parent_config", .str ""), ("verbosity", .str "WARNING")]
      [("basic_specs", [("model_type", .str "SolarPVDERThreePhase")]), ("inverter_ratings", [("Srated", .float 50000), ("Vrmsrated", .float 177)]),
       ("controller_gains", [("Kp_Q", .float (3/10)), ("unknown", .int 7)])] [("LVRT", ⟨none, some "LV"⟩)]) (kwOf [("gridModel", .grid 1), ("Srated", .float 60000)]) := by
  have k1 : ∀ s ∈ argSpec, ∀ v ∈ (kwOf [("gridModel", .grid 1), ("Srated", .float 60000)] s.1).toList, isInstance v s.2.1 = true := by decide +kernel
  have k2 : ∀ s ∈ argSpec, s.1 = "verbosity" ∨ (List.lookup s.1 [("parent_config", PVal.str ""), ("verbosity", .str "WARNING")] = none ∧
      List.lookup s.1 [("basic_specs", [("model_type", PVal.str "SolarPVDERThreePhase")]), ("inverter_ratings", [("Srated", .float 50000), ("Vrmsrated", .float 177)]),
       ("controller_gains", [("Kp_Q", .float (3/10)), ("unknown", .int 7)])] = none) := by decide +kernel
  refine ⟨?_, ?_, ?_, ?_, ?_⟩
  · intro k ts df v hk hv
    exact k1 _ hk v (by rw [hv]; simp)
  · intro k ts df n hk hn
    rcases k2 _ hk with h | ⟨h1, h2⟩
    · simp only at h
      subst h
      have e : some (Node.leaf (.str "WARNING")) = some n := hn
      have e := (Option.some.inj e).symm
      have e3 : ∀ s ∈ argSpec, s.1 = "verbosity" → isInstance (.str "WARNING") s.2.1 = true := by decide +kernel
      exact ⟨_, e, e3 _ hk rfl⟩
    · exfalso
      unfold cfgOf at hn
      simp only at hn h1 h2
      rw [h1, h2] at hn
      cases hn
  · intro v hv
    have e : some (PVal.str "WARNING") = some v := hv
    exact ⟨"WARNING", (Option.some.inj e).symm, by decide⟩
  · intro _; decide +kernel
  · intro h
    have e : (none : Option PVal) = some (.bool false) := h
    cases e

end Config
end PvDer
