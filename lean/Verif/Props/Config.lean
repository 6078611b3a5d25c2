import Verif.Lemmas.Config
/-!
C66: where the parameters of a DER come from.
-/
namespace PvDer
namespace Config

/-! ### A concrete configuration file -/

/-- A component dictionary from a list. -/
def dictOf (l : List (String × PVal)) : String → Option PVal := fun k => l.lookup k

/-- A configuration from lists. -/
def cfgOf (leaves : List (String × PVal)) (comps : List (String × List (String × PVal))) (rt : List (String × RTNode)) : Cfg :=
  ⟨fun k => match leaves.lookup k with
      | some v => some (.leaf v)
      | none => (comps.lookup k).map fun d => .comp (dictOf d),
   fun k => rt.lookup k, none⟩

/-- A shared ride-through block. -/
def blockOf (b : Body) : Cfg := ⟨fun _ => none, fun _ => none, some b⟩

/-- An example file with a full configuration "50", a child "50_type1" of it, a mistyped configuration and a ride-through block. -/
def exFile : File
  | "50" => some (cfgOf [("parent_config", .str ""), ("verbosity", .str "WARNING")]
      [("basic_specs", [("model_type", .str "SolarPVDERThreePhase")]), ("inverter_ratings", [("Srated", .float 50000), ("Vrmsrated", .float 177)]),
       ("controller_gains", [("Kp_Q", .float (3/10)), ("unknown", .int 7)])] [("LVRT", ⟨none, some "LV"⟩)])
  | "50_type1" => some (cfgOf [("parent_config", .str "50")] [("inverter_ratings", [("Ioverload", .float (3/2))])] [])
  | "bad" => some (cfgOf [] [("basic_specs", [("model_type", .str "SolarPVDERThreePhase")]),
      ("inverter_ratings", [("Srated", .str "50e3"), ("Vrmsrated", .float 177)])] [])
  | "LV" => some (blockOf [("1", .level (dictOf [("V_threshold", .float (8/10)), ("t_threshold", .float 2), ("t_min_ridethrough", .float 1), ("mode", .str "mandatory_operation")]))])
  | _ => none

/-- Keyword arguments from a list. -/
def kwOf (l : List (String × PVal)) : Args := fun k => l.lookup k

/-- Read one resolved parameter. -/
def readParam (x : Except Err Setup) (comp p : String) : Except Err (Option PVal) := x.map fun s => s.design.cfg comp p

/-- Every shipped template is a well-formed dictionary literal. -/
theorem templates_wf (m : Sim.Mt) : WF (template m) := by
  cases m <;> decide +kernel

/-- **C66 (parameters).** `update_DER_config` with any own configuration, parent configuration and arguments: if it succeeds, every parameter of the template gets the
argument if there is one, else the own entry, else the parent's entry, else the template default; and the instance has no other parameters. -/
theorem C66_precedence {T : Template} (hT : WF T) {pr : List (String × List Ty)} {c par : Cfg} {a : Args} {d : Design}
    (h : updateConfig T pr c par a = .ok d) :
    (∀ comp p dflt, HasParam T comp p dflt →
      d.cfg comp p = (a p <|> entry c comp p <|> entry par comp p <|> some dflt)) ∧
    (∀ comp p, (∀ dflt, ¬ HasParam T comp p dflt) → d.cfg comp p = none) := by
  unfold updateConfig at h
  obtain ⟨_, _, h⟩ := bind_ok h
  obtain ⟨r, hr, h⟩ := bind_ok h
  obtain ⟨z, hz, h⟩ := bind_ok h
  cases h
  obtain ⟨h1, h2, _⟩ := updateAll_ok hr hT
  exact ⟨h1, fun comp p hn => h2 comp p hn⟩

/-- **C66 (types).** If `update_DER_config` succeeds, every parameter is a declared one and its value has the declared type unless it is the template's own default. -/
theorem C66_types {T : Template} (hT : WF T) {pr : List (String × List Ty)} {c par : Cfg} {a : Args} {d : Design}
    (h : updateConfig T pr c par a = .ok d) {comp p : String} {dflt : PVal} (hp : HasParam T comp p dflt) :
    ∃ v ts, d.cfg comp p = some v ∧ pr.lookup p = some ts ∧
      (isInstance v ts = true ∨ (a p = none ∧ entry c comp p = none ∧ entry par comp p = none ∧ v = dflt)) := by
  unfold updateConfig at h
  obtain ⟨_, _, h⟩ := bind_ok h
  obtain ⟨r, hr, h⟩ := bind_ok h
  obtain ⟨z, hz, h⟩ := bind_ok h
  cases h
  obtain ⟨h1, _, h3⟩ := updateAll_ok hr hT
  obtain ⟨v, ts, hv, ht, hi⟩ := h3 comp p dflt hp
  refine ⟨v, ts, by rw [← hv]; exact h1 comp p dflt hp, ht, ?_⟩
  rcases hi with hi | ⟨x, y, z⟩
  · exact .inl hi
  · refine .inr ⟨x, y, z, ?_⟩
    simp [chosen, x, y, z] at hv
    exact hv.symm

/-- **C66 (wrong types raise).** A wrong-typed value in the source that takes precedence makes `update_DER_config` fail. -/
theorem C66_wrong_type_rejected {T : Template} (hT : WF T) {pr : List (String × List Ty)} {c par : Cfg} {a : Args} {comp p : String} {dflt v : PVal}
    {ts : List Ty} (hp : HasParam T comp p dflt) (hts : pr.lookup p = some ts) (hv : isInstance v ts = false)
    (hsrc : (a p <|> entry c comp p <|> entry par comp p) = some v) (d : Design) : updateConfig T pr c par a ≠ .ok d := by
  intro h
  obtain ⟨w, ts', hw, ht, hi⟩ := C66_types hT h hp
  have := (C66_precedence hT h).1 comp p dflt hp
  rw [hts] at ht
  cases ht
  rw [hw] at this
  revert this hsrc
  rcases hi with hi | ⟨x, y, z, _⟩
  · cases a p <;> cases entry c comp p <;> cases entry par comp p <;> simp <;> rintro rfl <;> rintro rfl <;> simp [hv] at hi
  · simp [x, y, z]

/-- **C66 (whole set-up).** A successful set-up has found the configuration, that configuration names no parent, the three required ratings are in it, and each parameter is the
argument, else the configuration's entry, else the template's default. -/
theorem C66_setup {m : Sim.Mt} {file : File} {id : String} {kw : Args} {s : Setup} (h : setupDER (template m) file id kw = .ok s) :
    ∃ c, file id = some c ∧
      (∀ r ∈ requiredSpecs, (entry c r.1 r.2).isSome) ∧
      (∀ comp p dflt, HasParam (template m) comp p dflt → s.design.cfg comp p = (s.args p <|> entry c comp p <|> some dflt)) ∧
      (∀ comp p, (∀ dflt, ¬ HasParam (template m) comp p dflt) → s.design.cfg comp p = none) := by
  unfold setupDER at h
  obtain ⟨⟨c, par⟩, hc, h⟩ := bind_ok h
  obtain ⟨_, _, h⟩ := bind_ok h
  obtain ⟨_, _, h⟩ := bind_ok h
  obtain ⟨d, hd, h⟩ := bind_ok h
  obtain ⟨rt, _, h⟩ := bind_ok h
  obtain ⟨_, _, h⟩ := bind_ok h
  cases h
  obtain ⟨c0, par0, hf, hpar, _, _, _, hent, hreq⟩ := createConfig_ok hc
  obtain ⟨p1, p2⟩ := C66_precedence (templates_wf m) hd
  have hpe : ∀ comp p, entry par0 comp p = none := by
    intro comp p
    unfold parentConfig at hpar
    split at hpar
    · cases hpar; rfl
    · simp at hpar
    · split at hpar
      · simp at hpar
      · cases hpar; rfl
  refine ⟨c0, hf, ?_, ?_, p2⟩
  · intro r hr
    have := hreq r hr
    simpa [hpe] using this
  · intro comp p dflt hp
    simp only
    rw [p1 comp p dflt hp]
    have := chosen_congr (a := getArguments argSpec c kw) dflt (hent comp p)
    unfold chosen at this
    rw [this, hpe]
    simp

/-- **C66 (arguments).** What the arguments contain: a keyword argument of a listed name and accepted type; nothing if its type is not accepted; if no such keyword argument was given, the
top-level configuration entry of that name, under the same type test; else the listed default. -/
theorem C66_arguments {m : Sim.Mt} {file : File} {id : String} {kw : Args} {s : Setup} {c : Cfg} (h : setupDER (template m) file id kw = .ok s) (hf : file id = some c)
    {k : String} {ts : List Ty} {dflt : Option PVal} (hk : (k, ts, dflt) ∈ argSpec) :
    (∀ v, kw k = some v → isInstance v ts = true → s.args k = some v) ∧
    (∀ v, kw k = some v → isInstance v ts = false → s.args k = none) ∧
    (∀ v, kw k = none → c.entries k = some (.leaf v) → isInstance v ts = true → s.args k = some v) ∧
    (∀ v, kw k = none → c.entries k = some (.leaf v) → isInstance v ts = false → s.args k = none) ∧
    (kw k = none → c.entries k = none → s.args k = dflt) := by
  unfold setupDER at h
  obtain ⟨⟨c', par⟩, hc, h⟩ := bind_ok h
  obtain ⟨_, _, h⟩ := bind_ok h
  obtain ⟨_, _, h⟩ := bind_ok h
  obtain ⟨d, hd, h⟩ := bind_ok h
  obtain ⟨rt, _, h⟩ := bind_ok h
  obtain ⟨_, _, h⟩ := bind_ok h
  cases h
  obtain ⟨c0, par0, hf', _, hk', _, _, _, _⟩ := createConfig_ok hc
  rw [hf] at hf'
  cases hf'
  have hdis : ∀ s ∈ argSpec, s.1 ∉ (template m).map Prod.fst ∧ s.1 ≠ "basic_specs" ∧ s.1 ≠ "inverter_ratings" := by
    cases m <;> decide +kernel
  obtain ⟨e1, e2, e3⟩ := hdis _ hk
  have hce : c'.entries k = c.entries k := hk' k e1 e2 e3
  have hval := args_of_mem (c := c') (kw := kw) hk
  simp only at hval ⊢
  rw [hval]
  unfold argStep
  simp only [hce]
  refine ⟨?_, ?_, ?_, ?_, ?_⟩
  · intro v hv hi; simp [hv, hi]
  · intro v hv hi; simp [hv, hi]
  · intro v hv hc hi; simp [hv, hc, hi]
  · intro v hv hc hi; simp [hv, hc, hi]
  · intro hv hc; cases dflt <;> simp [hv, hc]

/-- **C66 (ignored keywords).** A keyword argument whose name is not a listed one reaches nothing: the whole set-up is unchanged by it. -/
theorem C66_unlisted_keyword_ignored (T : Template) (file : File) (id : String) (kw kw' : Args) (h : ∀ k ∈ argSpec.map Prod.fst, kw k = kw' k) :
    setupDER T file id kw = setupDER T file id kw' := by
  have : ∀ c, getArguments argSpec c kw = getArguments argSpec c kw' := by
    intro c
    unfold getArguments
    apply List.foldl_ext
    intro acc s hs
    unfold argStep
    rw [h s.1 (List.mem_map.2 ⟨s, hs, rfl⟩)]
  unfold setupDER
  simp only [this]

/-- **C66 (what can be overridden).** Of all template parameters of all classes exactly `Srated`, `Vrmsrated` and `Vdcrated` are argument names. -/
theorem C66_overridable (m : Sim.Mt) (p : String) :
    (p ∈ argSpec.map Prod.fst ∧ ∃ comp dflt, HasParam (template m) comp p dflt) ↔ p = "Srated" ∨ p = "Vrmsrated" ∨ p = "Vdcrated" := by
  have h1 : ∀ s ∈ argSpec, (∃ cp ∈ template m, ∃ pd ∈ cp.2, pd.1 = s.1) → s.1 = "Srated" ∨ s.1 = "Vrmsrated" ∨ s.1 = "Vdcrated" := by
    cases m <;> decide +kernel
  have h2 : ∀ q ∈ ["Srated", "Vrmsrated", "Vdcrated"], q ∈ argSpec.map Prod.fst ∧ ∃ cp ∈ template m, ∃ pd ∈ cp.2, pd.1 = q := by
    cases m <;> decide +kernel
  constructor
  · rintro ⟨hp, comp, dflt, ps, hm, hpd⟩
    obtain ⟨s, hs, rfl⟩ := List.mem_map.1 hp
    exact h1 s hs ⟨_, hm, _, hpd, rfl⟩
  · intro hp
    obtain ⟨a, cp, hcp, pd, hpd, rfl⟩ := h2 p (by rcases hp with rfl | rfl | rfl <;> simp)
    exact ⟨a, cp.1, pd.2, cp.2, hcp, hpd⟩

/-- **C66 (all parameters known).** Every template parameter of every class has a declared type: the assertion in `update_DER_parameter` never fires. -/
theorem C66_all_declared (m : Sim.Mt) {comp p : String} {d : PVal} (h : HasParam (template m) comp p d) : ∃ ts, props.lookup p = some ts := by
  have : ∀ cp ∈ template m, ∀ pd ∈ cp.2, (props.lookup pd.1).isSome := by cases m <;> decide +kernel
  obtain ⟨ps, hm, hp⟩ := h
  exact Option.isSome_iff_exists.1 (this _ hm _ hp)

/-- **C66 (nothing else is rejected).** For every shipped class: if each component that has parameters is a dictionary in the (completed) own and parent configurations, and every value in the source that takes
precedence has the declared type, then `update_DER_config` succeeds. -/
theorem C66_accepts (m : Sim.Mt) {c par : Cfg} {a : Args}
    (hshape : ∀ cp ∈ template m, cp.2 ≠ [] → (∃ d, c.entries cp.1 = some (.comp d)) ∧ ∃ d, par.entries cp.1 = some (.comp d))
    (hpc : (c.entries "parent_config").isSome)
    (htype : ∀ comp p dflt ts v, HasParam (template m) comp p dflt → props.lookup p = some ts →
      (a p <|> entry c comp p <|> entry par comp p) = some v → isInstance v ts = true) :
    ∃ d, updateConfig (template m) props c par a = .ok d := by
  have hcheck : checkConfig (template m) c = .ok () := by
    unfold checkConfig
    rw [if_pos]
    rw [List.all_eq_true]
    intro k hk
    obtain ⟨cp, hcp, rfl⟩ := List.mem_map.1 hk
    have hall : ∀ cp ∈ template m, cp.2 = [] → cp.1 = "parent_config" := by cases m <;> decide +kernel
    by_cases h : cp.2 = []
    · rw [hall cp hcp h]; exact hpc
    · obtain ⟨⟨d, hd⟩, _⟩ := hshape cp hcp h
      simp [hd]
  have hall : ∃ r, (template m).foldlM (updateComp props c par a) (fun _ _ => none) = .ok r := by
    refine updateAll_accepts (fun cp hcp pd hpd => ?_) _
    obtain ⟨ts, hts⟩ := C66_all_declared m ⟨cp.2, hcp, hpd⟩
    obtain ⟨h1, h2⟩ := hshape cp hcp (by intro h; rw [h] at hpd; simp at hpd)
    exact ⟨h1, h2, ts, hts, fun v hv => htype cp.1 pd.1 pd.2 ts v ⟨cp.2, hcp, hpd⟩ hts hv⟩
  obtain ⟨r, hr⟩ := hall
  obtain ⟨p1, _, p3⟩ := updateAll_ok hr (templates_wf m)
  have hn : ∀ p ∈ ["R1_actual", "X1_actual"], ∃ v q, r "circuit_parameters" p = some v ∧ num v = some q := by
    intro p hp
    have hin : ∀ p ∈ ["R1_actual", "X1_actual"], ∃ cp ∈ template m, cp.1 = "circuit_parameters" ∧ ∃ pd ∈ cp.2, pd.1 = p ∧ (num pd.2).isSome := by
      cases m <;> decide +kernel
    obtain ⟨cp, hcp, hc1, pd, hpd, rfl, hnum⟩ := hin p hp
    have hP : HasParam (template m) "circuit_parameters" pd.1 pd.2 := ⟨cp.2, by rw [← hc1]; exact hcp, hpd⟩
    obtain ⟨v, ts, hv, hts, hi⟩ := p3 _ _ _ hP
    have htsv : ∀ p ∈ ["R1_actual", "X1_actual"], props.lookup p = some [.int, .float] := by decide +kernel
    rw [htsv _ hp] at hts
    cases hts
    rw [p1 _ _ _ hP]
    rcases hi with hi | ⟨x, y, z⟩
    · refine ⟨v, ?_⟩
      cases v <;> simp [isInstance, hasTy] at hi <;> simp [num, hv]
    · obtain ⟨q, hq⟩ := Option.isSome_iff_exists.1 hnum
      exact ⟨pd.2, q, by simp [chosen, x, y, z], hq⟩
  obtain ⟨v1, q1, h1, h1'⟩ := hn "R1_actual" (by simp)
  obtain ⟨v2, q2, h2, h2'⟩ := hn "X1_actual" (by simp)
  refine ⟨⟨r, resolveRT c par, (q1, q2)⟩, ?_⟩
  simp only [updateConfig, hcheck, hr, z1Of, h1, h2, h1', h2', bind, Except.bind, pure, Except.pure]

/-- **C66 (kinds of values).** What the type test means for each kind of Python value: a whole number (or a truth value, which Python counts as one) and a decimal number are kept as a rating or a frequency, nothing else;
an initial controller state (`xDC0`, `xP0`, `xQ0`) is kept only when written as a decimal number — a whole number such as `xQ0=1` is dropped —, a grid voltage only when complex, a switch only when a truth value. -/
theorem C66_kinds {m : Sim.Mt} {file : File} {id : String} {kw : Args} {s : Setup} {c : Cfg} (h : setupDER (template m) file id kw = .ok s) (hf : file id = some c) :
    (∀ k ∈ ["Srated", "powerRating", "Vrmsrated", "VrmsRating", "Vdcrated", "gridFrequency"],
      (∀ n, kw k = some (.int n) → s.args k = some (.int n)) ∧ (∀ b, kw k = some (.bool b) → s.args k = some (.bool b)) ∧ (∀ q, kw k = some (.float q) → s.args k = some (.float q)) ∧
      (∀ v, kw k = some v → (∀ n, v ≠ .int n) → (∀ b, v ≠ .bool b) → (∀ q, v ≠ .float q) → s.args k = none)) ∧
    (∀ k ∈ ["xDC0", "xP0", "xQ0"], (∀ q, kw k = some (.float q) → s.args k = some (.float q)) ∧ (∀ v, kw k = some v → (∀ q, v ≠ .float q) → s.args k = none)) ∧
    (∀ k ∈ ["gridVoltagePhaseA", "gridVoltagePhaseB", "gridVoltagePhaseC", "ia0", "xa0", "ua0"],
      (∀ a b, kw k = some (.complex a b) → s.args k = some (.complex a b)) ∧ (∀ v, kw k = some v → (∀ a b, v ≠ .complex a b) → s.args k = none)) ∧
    (∀ k ∈ ["standAlone", "steadyStateInitialization", "allowUnbalancedM"],
      (∀ b, kw k = some (.bool b) → s.args k = some (.bool b)) ∧ (∀ v, kw k = some v → (∀ b, v ≠ .bool b) → s.args k = none)) := by
  have key : ∀ {k : String} {ts : List Ty} {d : Option PVal}, (k, ts, d) ∈ argSpec →
      ∀ v, kw k = some v → s.args k = if isInstance v ts then some v else none := by
    intro k ts d hk v hv
    obtain ⟨h1, h2, _⟩ := C66_arguments h hf hk
    by_cases e : isInstance v ts = true
    · rw [if_pos e]; exact h1 v hv e
    · rw [if_neg e]; exact h2 v hv (by simpa using e)
  have m1 : ∀ k ∈ ["Srated", "powerRating", "Vrmsrated", "VrmsRating", "Vdcrated", "gridFrequency"], (k, [Ty.int, Ty.float], (none : Option PVal)) ∈ argSpec := by decide +kernel
  have m2 : ∀ k ∈ ["xDC0", "xP0", "xQ0"], (k, [Ty.float], (none : Option PVal)) ∈ argSpec := by decide +kernel
  have m3 : ∀ k ∈ ["gridVoltagePhaseA", "gridVoltagePhaseB", "gridVoltagePhaseC", "ia0", "xa0", "ua0"], (k, [Ty.complex], (none : Option PVal)) ∈ argSpec := by decide +kernel
  have m4 : ∀ k ∈ ["standAlone", "steadyStateInitialization", "allowUnbalancedM"], ∃ d, (k, [Ty.bool], d) ∈ argSpec := by
    intro k hk
    have : ∀ k ∈ ["standAlone", "steadyStateInitialization", "allowUnbalancedM"], (argSpec.any fun e => decide (e.1 = k ∧ e.2.1 = [Ty.bool])) = true := by decide +kernel
    obtain ⟨⟨a, b, d⟩, he, e⟩ := List.any_eq_true.1 (this k hk)
    simp only [decide_eq_true_eq] at e
    obtain ⟨rfl, rfl⟩ := e
    exact ⟨d, he⟩
  refine ⟨fun k hk => ?_, fun k hk => ?_, fun k hk => ?_, fun k hk => ?_⟩
  · have := key (m1 k hk)
    refine ⟨fun n e => by rw [this _ e]; rfl, fun n e => by rw [this _ e]; rfl, fun n e => by rw [this _ e]; rfl, fun v e h1 h2 h3 => ?_⟩
    rw [this _ e]
    cases v <;> first | rfl | exact absurd rfl (h1 _) | exact absurd rfl (h2 _) | exact absurd rfl (h3 _)
  · have := key (m2 k hk)
    refine ⟨fun n e => by rw [this _ e]; rfl, fun v e h1 => ?_⟩
    rw [this _ e]
    cases v <;> first | rfl | exact absurd rfl (h1 _)
  · have := key (m3 k hk)
    refine ⟨fun n b e => by rw [this _ e]; rfl, fun v e h1 => ?_⟩
    rw [this _ e]
    cases v <;> first | rfl | exact absurd rfl (h1 _ _)
  · obtain ⟨d, hd⟩ := m4 k hk
    have := key hd
    refine ⟨fun n e => by rw [this _ e]; rfl, fun v e h1 => ?_⟩
    rw [this _ e]
    cases v <;> first | rfl | exact absurd rfl (h1 _)

/-- Such a set-up exists, and drops a whole-number initial state. -/
example : (setupDER (template .three) exFile "50" (kwOf [("xQ0", .int 1), ("Srated", .int 60000)])).map (fun s => (s.args "xQ0", s.args "Srated")) = .ok (none, some (.int 60000)) := by
  decide +kernel

/-- **C66 (impedance).** The line impedance the instance uses is `R1_actual + j X1_actual` of the resolved parameters. -/
theorem C66_impedance {T : Template} {pr : List (String × List Ty)} {c par : Cfg} {a : Args} {d : Design} (h : updateConfig T pr c par a = .ok d) :
    ∃ r x, d.cfg "circuit_parameters" "R1_actual" = some r ∧ d.cfg "circuit_parameters" "X1_actual" = some x ∧ num r = some d.z1.1 ∧ num x = some d.z1.2 := by
  unfold updateConfig at h
  obtain ⟨_, _, h⟩ := bind_ok h
  obtain ⟨r, hr, h⟩ := bind_ok h
  obtain ⟨z, hz, h⟩ := bind_ok h
  cases h
  unfold z1Of at hz
  split at hz
  · rename_i a b ha hb
    split at hz
    · rename_i x y hx hy
      cases hz
      exact ⟨a, b, ha, hb, hx, hy⟩
    · cases hz
  · cases hz

/-- The three facts above on the example: an accepted keyword, a configuration entry, a default, and an unknown key. -/
example : readParam (setupDER (template .three) exFile "50" (kwOf [("Srated", .float 60000), ("Kp_Q", .float 9)])) "inverter_ratings" "Srated" = .ok (some (.float 60000)) ∧
    readParam (setupDER (template .three) exFile "50" (kwOf [("Srated", .float 60000), ("Kp_Q", .float 9)])) "controller_gains" "Kp_Q" = .ok (some (.float (3/10))) ∧
    readParam (setupDER (template .three) exFile "50" (kwOf [("Srated", .float 60000), ("Kp_Q", .float 9)])) "controller_gains" "Ki_Q" = .ok (some (.float 10)) ∧
    readParam (setupDER (template .three) exFile "50" (kwOf [("Srated", .float 60000), ("Kp_Q", .float 9)])) "controller_gains" "unknown" = .ok none := by
  decide +kernel

/-- Refuted part: a keyword argument of the wrong type does not raise; it is dropped and the configuration's value is used. -/
theorem C66_wrong_kwarg_accepted :
    readParam (setupDER (template .three) exFile "50" (kwOf [("Srated", .str "60e3")])) "inverter_ratings" "Srated" = .ok (some (.float 50000)) := by
  decide +kernel

/-- … and the wrong type in the configuration does raise `ValueError`. -/
example : readParam (setupDER (template .three) exFile "bad" (kwOf [])) "inverter_ratings" "Srated" = .error .valueError := by
  decide +kernel

/-- Refuted part: a keyword argument for a parameter that is no listed argument is ignored. -/
theorem C66_kwarg_ignored :
    readParam (setupDER (template .three) exFile "50" (kwOf [("Kp_Q", .float 9)])) "controller_gains" "Kp_Q" = .ok (some (.float (3/10))) := by
  decide +kernel

/-- Refuted part: a DER configuration that names a parent cannot be used at all. The set-up reads `self.name` for a log message before any name has been assigned and stops with
`AttributeError`, for every file, every such configuration and all arguments. -/
theorem C66_parent_unusable (T : Template) (file : File) (id : String) (kw : Args) (c : Cfg) (hf : file id = some c) {s : String} (hs : s ≠ "")
    (hp : c.entries "parent_config" = some (.leaf (.str s))) : setupDER T file id kw = .error .attributeError := by
  simp [setupDER, createConfig, getConfig, hf, parentId, hp, parentConfig, truthy, hs, bind, Except.bind]

/-- The example file has such a configuration (as the shipped `config_der.json` has: `50_numba`, `50_type1`, `250_numba`). -/
example : readParam (setupDER (template .three) exFile "50_type1" (kwOf [])) "inverter_ratings" "Srated" = .error .attributeError := by
  decide +kernel

/-- **C66, status.** The stated property holds of the resolution step for all four sources (`C66_precedence`), but of the whole set-up only without parents, for listed keyword arguments, and with
wrong-typed keyword arguments dropped: for every class, file, ID and keywords, a set-up succeeds only if no parent is named, and then each parameter is the well-typed keyword argument if the name is listed,
else the configuration entry or default. Missing from the English claim: parents, unlisted keywords and the rejection of wrong-typed keywords (refuted above). -/
theorem C66_setup_partial {m : Sim.Mt} {file : File} {id : String} {kw : Args} {s : Setup} {c : Cfg} (h : setupDER (template m) file id kw = .ok s) (hf : file id = some c) :
    (∀ w, c.entries "parent_config" = some (.leaf (.str w)) → w = "") ∧
    ∀ comp p dflt, HasParam (template m) comp p dflt → c.entries p = none →
      ((∀ v ts df, kw p = some v → (p, ts, df) ∈ argSpec → isInstance v ts = true → s.design.cfg comp p = some v) ∧
       ((p ∉ argSpec.map Prod.fst ∨ kw p = none) → s.design.cfg comp p = (entry c comp p <|> some dflt))) := by
  constructor
  · intro w hw
    by_contra hne
    rw [C66_parent_unusable _ file id kw c hf hne hw] at h
    cases h
  · intro comp p dflt hp hce
    obtain ⟨c', hf', _, h1, _⟩ := C66_setup h
    rw [hf] at hf'
    cases hf'
    rw [h1 comp p dflt hp]
    constructor
    · intro v ts df hv hm hi
      rw [(C66_arguments h hf hm).1 v hv hi]
      simp
    · intro hk
      have : s.args p = none := by
        by_cases hm : p ∈ argSpec.map Prod.fst
        · have hkn : kw p = none := by
            rcases hk with hk | hk
            · exact absurd hm hk
            · exact hk
          obtain ⟨⟨q, ts, df⟩, hs, rfl⟩ := List.mem_map.1 hm
          rw [(C66_arguments h hf hs).2.2.2.2 hkn hce]
          have hq : q = "Srated" ∨ q = "Vrmsrated" ∨ q = "Vdcrated" := (C66_overridable m q).1 ⟨hm, comp, dflt, hp⟩
          have : ∀ s ∈ argSpec, s.1 = "Srated" ∨ s.1 = "Vrmsrated" ∨ s.1 = "Vdcrated" → s.2.2 = none := by decide +kernel
          exact this _ hs hq
        · unfold setupDER at h
          obtain ⟨⟨c', par⟩, hc, h⟩ := bind_ok h
          obtain ⟨_, _, h⟩ := bind_ok h
          obtain ⟨_, _, h⟩ := bind_ok h
          obtain ⟨d, hd, h⟩ := bind_ok h
          obtain ⟨rt, _, h⟩ := bind_ok h
          obtain ⟨_, _, h⟩ := bind_ok h
          cases h
          exact args_of_not_mem hm
      rw [this]
      simp

end Config
end PvDer
