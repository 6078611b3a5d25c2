import Verif.Props.Constructible
import Verif.Props.Shipped
import Verif.Props.ConfigRun
/-!
C133: which of the shipped configurations can be used.
-/
namespace PvDer
namespace Config
namespace Shipped

/-- Well-typed keyword arguments with the grid data of their mode: a grid object when stand-alone (the default), otherwise frequency and phase voltages (phase a alone for the balanced class). -/
structure Given (m : Sim.Mt) (kw : Args) : Prop where
  typed : ∀ k ts df v, (k, ts, df) ∈ argSpec → kw k = some v → isInstance v ts = true
  verb : ∀ v, kw "verbosity" = some v → ∃ s, v = .str s ∧ s ∈ ["DEBUG", "INFO", "WARNING", "ERROR", "CRITICAL"]
  alone : kw "standAlone" ≠ some (.bool false) → (kw "gridModel").isSome
  meas : kw "standAlone" = some (.bool false) → (kw "gridFrequency").isSome ∧ (kw "gridVoltagePhaseA").isSome ∧
    (m ≠ .balanced → (kw "gridVoltagePhaseB").isSome ∧ (kw "gridVoltagePhaseC").isSome)

/-- Completeness of a configuration given by lists, from finite checks. -/
theorem complete_of {m : Sim.Mt} {tops : List (String × PVal)} {comps : List (String × List (String × PVal))} {rts : List (String × RTNode)}
    (hp : tops.lookup "parent_config" = some (.str "")) (hm : (entry (cfgOf tops comps rts) "basic_specs" "model_type").isSome)
    (hs : (entry (cfgOf tops comps rts) "inverter_ratings" "Srated").isSome) (hv : (entry (cfgOf tops comps rts) "inverter_ratings" "Vrmsrated").isSome)
    (key : ∀ cp ∈ template m, ∀ pd ∈ cp.2, tops.lookup cp.1 = none ∧
      ∀ v ∈ ((comps.lookup cp.1).bind fun l => l.lookup pd.1).toList, ∀ ts ∈ (props.lookup pd.1).toList, isInstance v ts = true)
    (hrt : ∀ n ∈ rtNames, ∀ node, rts.lookup n = some node → (n, node) = ("LVRT", ⟨none, some "LVRT_1547cat3"⟩) ∨ (n, node) = ("VRT_delays", ⟨none, some "VRT_delay_cat3"⟩)) :
    Complete m file (cfgOf tops comps rts) := by
  refine ⟨.inr ?_, ?_, hm, hs, hv, ?_, ?_⟩
  · unfold cfgOf; simp only [hp]
  · rintro comp p d v ⟨ps, h1, h2⟩ h
    have := (key _ h1 _ h2).1
    unfold cfgOf at h
    simp only at h this
    rw [this] at h
    simp only [Option.map_eq_some_iff] at h
    obtain ⟨_, _, h⟩ := h
    cases h
  · rintro comp p d ts v ⟨ps, h1, h2⟩ hts hv
    have := key _ h1 _ h2
    simp only at this
    refine this.2 v ?_ ts (by rw [hts]; simp)
    unfold entry cfgOf at hv
    simp only [this.1] at hv
    rw [Option.mem_toList]
    revert hv
    generalize List.lookup comp _ = x
    cases x with
    | none => simp
    | some l => simp [dictOf]
  · intro n hn node hnode
    rcases hrt n hn node hnode with e | e
    · cases e
      refine ⟨_, rfl, fun _ kv hkv => ?_⟩
      simp only [List.mem_cons, List.not_mem_nil, or_false] at hkv
      rcases hkv with rfl | rfl | rfl
      all_goals exact ⟨_, rfl, by decide +kernel⟩
    · cases e
      exact ⟨_, rfl, fun h => absurd h (by decide)⟩

theorem args_of {m : Sim.Mt} {kw : Args} (h : Given m kw) {tops : List (String × PVal)} {comps : List (String × List (String × PVal))} {rts : List (String × RTNode)}
    (hv : tops.lookup "verbosity" = none ∨ tops.lookup "verbosity" = some (.str "INFO") ∨ tops.lookup "verbosity" = some (.str "WARNING"))
    (hc : ∀ s ∈ argSpec, (s.1 = "verbosity" ∨ tops.lookup s.1 = none) ∧ comps.lookup s.1 = none) : ArgsOK m (cfgOf tops comps rts) kw := by
  have other : ∀ k ts df, (k, ts, df) ∈ argSpec → k ≠ "verbosity" → givenArg (cfgOf tops comps rts) kw k = kw k := by
    intro k ts df hk hne
    obtain ⟨a, b⟩ := hc _ hk
    have a := a.resolve_left hne
    unfold givenArg cfgOf
    simp only at a b
    simp only [a, b, Option.map_none]
    cases kw k <;> rfl
  have mem : ∀ k ∈ ["standAlone", "gridModel", "gridFrequency", "gridVoltagePhaseA", "gridVoltagePhaseB", "gridVoltagePhaseC"], givenArg (cfgOf tops comps rts) kw k = kw k := by
    intro k hk
    have : ∀ k ∈ ["standAlone", "gridModel", "gridFrequency", "gridVoltagePhaseA", "gridVoltagePhaseB", "gridVoltagePhaseC"], k ≠ "verbosity" ∧ ∃ s ∈ argSpec, s.1 = k := by decide +kernel
    obtain ⟨hne, ⟨k', ts, df⟩, hs, rfl⟩ := this k hk
    exact other _ ts df hs hne
  refine ⟨h.typed, ?_, ?_, ?_, ?_⟩
  · intro k ts df n hk hn
    have e3 : ∀ s ∈ argSpec, s.1 = "verbosity" → isInstance (.str "WARNING") s.2.1 = true ∧ isInstance (.str "INFO") s.2.1 = true := by decide +kernel
    obtain ⟨a, b⟩ := hc _ hk
    unfold cfgOf at hn
    simp only at a b hn
    rcases a with rfl | a
    · rcases hv with hv | hv | hv
      · rw [hv, b] at hn; cases hn
      · rw [hv] at hn; cases hn; exact ⟨_, rfl, (e3 _ hk rfl).2⟩
      · rw [hv] at hn; cases hn; exact ⟨_, rfl, (e3 _ hk rfl).1⟩
    · rw [a, b] at hn; cases hn
  · intro v hg
    have b : comps.lookup "verbosity" = none := by
      have : ∃ s ∈ argSpec, s.1 = "verbosity" := by decide +kernel
      obtain ⟨s, hs, e⟩ := this
      rw [← e]; exact (hc s hs).2
    unfold givenArg at hg
    cases hk : kw "verbosity" with
    | some u =>
      rw [hk] at hg
      cases hg
      exact h.verb _ hk
    | none =>
      rw [hk] at hg
      unfold cfgOf at hg
      simp only at hg
      rcases hv with hv | hv | hv
      · rw [hv, b] at hg; cases hg
      · rw [hv] at hg; cases hg; exact ⟨_, rfl, by decide⟩
      · rw [hv] at hg; cases hg; exact ⟨_, rfl, by decide⟩
  · rw [mem _ (by decide), mem _ (by decide)]; exact h.alone
  · rw [mem "standAlone" (by decide), mem _ (by decide), mem _ (by decide), mem _ (by decide), mem _ (by decide)]; exact h.meas

theorem usable {m : Sim.Mt} {kw : Args} (hg : Given m kw) {id : String} (h : (m, id) ∈ [(Sim.Mt.three, "50"), (.noFilter, "50"), (.numba, "50"), (.three, "250"), (.noFilter, "250"),
    (.numba, "250"), (.balanced, "50_balanced"), (.constVdc3, "50_constantVdc")]) :
    ∃ c, file id = some c ∧ Complete m file c ∧ ArgsOK m c kw ∧ c.entries "standAlone" = none := by
  have rt0 : ∀ n ∈ rtNames, ∀ node, ([] : List (String × RTNode)).lookup n = some node →
      (n, node) = ("LVRT", ⟨none, some "LVRT_1547cat3"⟩) ∨ (n, node) = ("VRT_delays", ⟨none, some "VRT_delay_cat3"⟩) := by intro n _ node h; cases h
  have rt1 : ∀ n ∈ rtNames, ∀ node, ([("LVRT", ⟨none, some "LVRT_1547cat3"⟩)] : List (String × RTNode)).lookup n = some node →
      (n, node) = ("LVRT", ⟨none, some "LVRT_1547cat3"⟩) ∨ (n, node) = ("VRT_delays", ⟨none, some "VRT_delay_cat3"⟩) := by
    intro n _ node h
    rw [List.lookup_cons] at h
    by_cases e : n = "LVRT"
    · subst e; simp at h; subst h; exact .inl rfl
    · simp [beq_eq_false_iff_ne.2 e] at h
  have rt2 : ∀ n ∈ rtNames, ∀ node, ([("LVRT", ⟨none, some "LVRT_1547cat3"⟩), ("VRT_delays", ⟨none, some "VRT_delay_cat3"⟩)] : List (String × RTNode)).lookup n = some node →
      (n, node) = ("LVRT", ⟨none, some "LVRT_1547cat3"⟩) ∨ (n, node) = ("VRT_delays", ⟨none, some "VRT_delay_cat3"⟩) := by
    intro n _ node h
    rw [List.lookup_cons] at h
    by_cases e : n = "LVRT"
    · subst e; simp at h; subst h; exact .inl rfl
    · rw [beq_eq_false_iff_ne.2 e] at h
      rw [List.lookup_cons] at h
      by_cases e : n = "VRT_delays"
      · subst e; simp at h; subst h; exact .inr rfl
      · simp [beq_eq_false_iff_ne.2 e] at h
  simp only [List.mem_cons, Prod.mk.injEq, List.not_mem_nil, or_false] at h
  rcases h with ⟨rfl, rfl⟩ | ⟨rfl, rfl⟩ | ⟨rfl, rfl⟩ | ⟨rfl, rfl⟩ | ⟨rfl, rfl⟩ | ⟨rfl, rfl⟩ | ⟨rfl, rfl⟩ | ⟨rfl, rfl⟩
  all_goals
    refine ⟨_, rfl, complete_of rfl (by decide +kernel) (by decide +kernel) (by decide +kernel) (by decide +kernel) ?_,
      args_of hg (by decide +kernel) (by decide +kernel), rfl⟩
    first | exact rt0 | exact rt1 | exact rt2

/-- **C133 (construction).** With well-typed arguments and the grid data of the mode, these shipped configurations construct in these classes, in the mode asked for, and every parameter of the
class has the argument's value if it is a listed argument that was given, else the value in the file, else the class default. -/
theorem C133_constructs {m : Sim.Mt} {kw : Args} (hg : Given m kw) {id : String} (h : (m, id) ∈ [(Sim.Mt.three, "50"), (.noFilter, "50"), (.numba, "50"), (.three, "250"), (.noFilter, "250"),
    (.numba, "250"), (.balanced, "50_balanced"), (.constVdc3, "50_constantVdc")]) :
    ∃ b c, construct (template m) file id kw = .ok b ∧ file id = some c ∧ (b.standAlone = false ↔ kw "standAlone" = some (.bool false)) ∧
      ∀ comp p d, HasParam (template m) comp p d → b.setup.design.cfg comp p = ((if p ∈ argSpec.map Prod.fst then givenArg c kw p else none) <|> entry c comp p <|> some d) := by
  have h3 : Sim.isThree m = true := by
    simp only [List.mem_cons, Prod.mk.injEq, List.not_mem_nil, or_false] at h
    rcases h with ⟨rfl, rfl⟩ | ⟨rfl, rfl⟩ | ⟨rfl, rfl⟩ | ⟨rfl, rfl⟩ | ⟨rfl, rfl⟩ | ⟨rfl, rfl⟩ | ⟨rfl, rfl⟩ | ⟨rfl, rfl⟩ <;> rfl
  obtain ⟨c, hf, hc, ha, hn⟩ := usable hg h
  obtain ⟨b, hb, hsa, hpar⟩ := C82_constructs h3 hf hc ha
  refine ⟨b, c, hb, hf, ?_, hpar⟩
  rw [hsa]
  unfold givenArg
  rw [hn]
  cases kw "standAlone" <;> simp

/-- The identifiers in the shipped file that have a parent. -/
theorem C133_parents_fail (T : Template) (kw : Args) {id : String} (h : id ∈ ["50_numba", "50_type1", "250_numba"]) :
    construct T file id kw = .error .attributeError ∧ wrapper file id kw = .error .attributeError := by
  simp only [List.mem_cons, List.not_mem_nil, or_false] at h
  constructor
  · unfold construct
    have : setupDER T file id kw = .error .attributeError := by
      rcases h with rfl | rfl | rfl
      · exact C66_parent_unusable T file _ kw c_50_numba rfl (s := "50") (by decide) rfl
      · exact C66_parent_unusable T file _ kw c_50_type1 rfl (s := "50") (by decide) rfl
      · exact C66_parent_unusable T file _ kw c_250_numba rfl (s := "250") (by decide) rfl
    rw [this]; rfl
  · have : wrapperConfig file id = .error .attributeError := by
      rcases h with rfl | rfl | rfl <;> rfl
    unfold wrapper
    rw [this]; rfl

/-- **C133 (wrapper).** Through the wrapper, with well-typed arguments and the grid data of the mode, exactly three of the twelve identifiers of the shipped file — and no other identifier — give a DER,
each of the class its entry names. -/
theorem C133_wrapper_iff {kw : Args} (hg : Given .three kw) (id : String) (m : Sim.Mt) :
    (∃ b, wrapper file id kw = .ok (m, b)) ↔ (m, id) ∈ [(Sim.Mt.three, "50"), (.three, "250"), (.balanced, "50_balanced")] := by
  constructor
  · rintro ⟨b, hb⟩
    obtain ⟨c, hf, hn⟩ := C82_wrapper_named hb
    have hm := C82_wrapper_classes hb
    have hp : id ∉ ["50_numba", "50_type1", "250_numba"] := by
      intro h
      rw [(C133_parents_fail (template .three) kw h).2] at hb
      cases hb
    unfold file at hf
    split at hf
    all_goals first | (cases hf; done) | skip
    all_goals simp only [Option.some.injEq] at hf
    all_goals subst hf
    all_goals first | exact absurd (by decide) hp | skip
    all_goals rcases hm with rfl | rfl | rfl
    all_goals first
      | decide
      | (exfalso; revert hn; decide +kernel)
  · intro h
    have hb : Given .balanced kw := ⟨hg.typed, hg.verb, hg.alone, fun h => ⟨(hg.meas h).1, (hg.meas h).2.1, fun h => absurd rfl h⟩⟩
    simp only [List.mem_cons, Prod.mk.injEq, List.not_mem_nil, or_false] at h
    rcases h with ⟨rfl, rfl⟩ | ⟨rfl, rfl⟩ | ⟨rfl, rfl⟩
    · obtain ⟨c, hf, hc, ha, _⟩ := usable hg (id := "50") (by decide)
      cases hf
      obtain ⟨b, hb, _⟩ := C82_wrapper_constructs (id := "50") (.inl rfl) rfl hc ha (by decide +kernel)
      exact ⟨b, hb⟩
    · obtain ⟨c, hf, hc, ha, _⟩ := usable hg (id := "250") (by decide)
      cases hf
      obtain ⟨b, hb, _⟩ := C82_wrapper_constructs (id := "250") (.inl rfl) rfl hc ha (by decide +kernel)
      exact ⟨b, hb⟩
    · obtain ⟨c, hf, hc, ha, _⟩ := usable hb (id := "50_balanced") (by decide)
      cases hf
      obtain ⟨b, hb, _⟩ := C82_wrapper_constructs (id := "50_balanced") (.inr (.inl rfl)) rfl hc ha (by decide +kernel)
      exact ⟨b, hb⟩

/-- **C133, status.** The stated property — every DER entry of the shipped file can be instantiated — holds of four of the ten entries, for the class each names; the other six fail for all arguments
(those that name no class of their own — `50_type1` — by `C133_parents_fail`). -/
theorem C133_entries_partial (kw : Args) (hg : Given .three kw) {id : String} {c : Cfg} {m : Sim.Mt} (hf : file id = some c)
    (hn : entry c "basic_specs" "model_type" = some (.str (className m))) :
    (∃ b, construct (template m) file id kw = .ok b) ↔ id ∈ ["50", "250", "50_balanced", "50_constantVdc"] := by
  constructor
  · rintro ⟨b, hb⟩
    have hs : m ≠ .single ∧ m ≠ .constVdc1 := ⟨fun h => C82_single_phase_unconstructible (.inl h) _ _ _ _ hb, fun h => C82_single_phase_unconstructible (.inr h) _ _ _ _ hb⟩
    have hp : id ∉ ["50_numba", "50_type1", "250_numba"] := by
      intro h
      rw [(C133_parents_fail (template m) kw h).1] at hb
      cases hb
    unfold file at hf
    split at hf
    all_goals first | (cases hf; done) | skip
    all_goals simp only [Option.some.injEq] at hf
    all_goals subst hf
    all_goals first | exact absurd (by decide) hp | decide | skip
    all_goals exfalso
    all_goals cases m
    all_goals first
      | exact hs.1 rfl
      | exact hs.2 rfl
      | (revert hn; decide +kernel)
  · intro h
    have hb : Given .balanced kw := ⟨hg.typed, hg.verb, hg.alone, fun h => ⟨(hg.meas h).1, (hg.meas h).2.1, fun h => absurd rfl h⟩⟩
    have hc : Given .constVdc3 kw := ⟨hg.typed, hg.verb, hg.alone, fun h => ⟨(hg.meas h).1, (hg.meas h).2.1, fun _ => (hg.meas h).2.2 (by decide)⟩⟩
    simp only [List.mem_cons, List.not_mem_nil, or_false] at h
    rcases h with rfl | rfl | rfl | rfl
    · cases hf
      have hm : m = .three := by
        have e : some (PVal.str "SolarPVDERThreePhase") = some (.str (className m)) := hn
        cases m <;> first | rfl | (exfalso; revert e; decide +kernel)
      subst hm
      obtain ⟨b, _, h, _⟩ := C133_constructs hg (id := "50") (by decide)
      exact ⟨b, h⟩
    · cases hf
      have hm : m = .three := by
        have e : some (PVal.str "SolarPVDERThreePhase") = some (.str (className m)) := hn
        cases m <;> first | rfl | (exfalso; revert e; decide +kernel)
      subst hm
      obtain ⟨b, _, h, _⟩ := C133_constructs hg (id := "250") (by decide)
      exact ⟨b, h⟩
    · cases hf
      have hm : m = .balanced := by
        have e : some (PVal.str "SolarPVDERThreePhaseBalanced") = some (.str (className m)) := hn
        cases m <;> first | rfl | (exfalso; revert e; decide +kernel)
      subst hm
      obtain ⟨b, _, h, _⟩ := C133_constructs hb (id := "50_balanced") (by decide)
      exact ⟨b, h⟩
    · cases hf
      have hm : m = .constVdc3 := by
        have e : some (PVal.str "SolarPVDERThreePhaseConstantVdc") = some (.str (className m)) := hn
        cases m <;> first | rfl | (exfalso; revert e; decide +kernel)
      subst hm
      obtain ⟨b, _, h, _⟩ := C133_constructs hc (id := "50_constantVdc") (by decide)
      exact ⟨b, h⟩

/-- Non-vacuity: a stand-alone DER on grid object 1. -/
theorem exGiven : Given .three (kwOf [("gridModel", .grid 1)]) := by
  have k1 : ∀ s ∈ argSpec, ∀ v ∈ (kwOf [("gridModel", .grid 1)] s.1).toList, isInstance v s.2.1 = true := by decide +kernel
  refine ⟨fun k ts df v hk hv => k1 _ hk v (by rw [hv]; simp), ?_, fun _ => rfl, ?_⟩
  · intro v h
    have e : (none : Option PVal) = some v := h
    cases e
  · intro h
    have e : (none : Option PVal) = some (.bool false) := h
    cases e

/-- … which the whole chain accepts, from the file to the constants: the hypotheses of `C131_shipped_50` and `C124_from_file_50` are met. -/
theorem C131_example : NoOverride (kwOf [("gridModel", .grid 1)]) ∧
    ∃ s e, setupDER (template .three) file "50" (kwOf [("gridModel", .grid 1)]) = .ok s ∧ electrical (template .three) Circuit.Base.default true 0 s.design = .ok e := by
  have hk : NoOverride (kwOf [("gridModel", .grid 1)]) := by unfold NoOverride; decide +kernel
  refine ⟨hk, ?_⟩
  obtain ⟨b, _, h, _⟩ := C133_constructs exGiven (id := "50") (by decide)
  have h := construct_setup h
  obtain ⟨e, he⟩ := (C131_shipped_50_accepted (sa := true) (vpcc := 0) (.inl rfl) h hk).2 (by simp)
  exact ⟨_, e, h, he⟩

/-- The same for the three-phase configuration with constant DC voltage. -/
theorem C131_example_constant_vdc :
    ∃ s e, setupDER (template .constVdc3) file "50_constantVdc" (kwOf [("gridModel", .grid 1)]) = .ok s ∧ electrical (template .constVdc3) Circuit.Base.default true 0 s.design = .ok e := by
  obtain ⟨hk, _⟩ := C131_example
  have hg : Given .constVdc3 (kwOf [("gridModel", .grid 1)]) := ⟨exGiven.typed, exGiven.verb, exGiven.alone, fun h => ⟨(exGiven.meas h).1, (exGiven.meas h).2.1, fun _ => (exGiven.meas h).2.2 (by decide)⟩⟩
  obtain ⟨b, _, h, _⟩ := C133_constructs hg (id := "50_constantVdc") (by decide)
  have h := construct_setup h
  obtain ⟨e, he⟩ := (C131_shipped_three_constant_vdc_accepted (sa := true) (vpcc := 0) h hk).2 (by simp)
  exact ⟨_, e, h, he⟩

end Shipped
end Config
end PvDer
