import Verif.Props.Config
import Mathlib.Tactic.Linarith
import Mathlib.Tactic.NormNum
import Mathlib.Tactic.Positivity
import Mathlib.Data.Real.Basic
/-!
C68 (model dispatch), C69 (voltage ratings), C82–C84 (construction).
-/
namespace PvDer
namespace Config

/-! ### C68 -/

/-- **C68.** The wrapper's dispatch: exactly five type names give a class, and it is the class of that name; two other class names fail with `NameError`; every other string is rejected with `ValueError`. -/
theorem C68_dispatch_partial (t : String) :
    (∀ m, dispatch t = .ok m ↔ t = className m ∧ m ≠ .noFilter ∧ m ≠ .constVdc3) ∧
    (dispatch t = .error .nameError ↔ t = className .noFilter ∨ t = className .constVdc3) ∧
    (dispatch t = .error .valueError ↔ ∀ m, t ≠ className m) := by
  unfold dispatch
  by_cases h1 : t = "SolarPVDERThreePhase"
  · subst h1
    refine ⟨?_, by simp [className], ?_⟩
    · intro m; cases m <;> simp [className]
    · simp only [if_true, reduceCtorEq, false_iff, not_forall, not_not]; exact ⟨.three, rfl⟩
  by_cases h2 : t = "SolarPVDERThreePhaseNoVrmsFilter"
  · subst h2
    refine ⟨?_, by simp [className], ?_⟩
    · intro m; cases m <;> simp [className]
    · simp [className]; exact ⟨.noFilter, rfl⟩
  by_cases h3 : t = "SolarPVDERThreePhaseConstantVdc"
  · subst h3
    refine ⟨?_, by simp [className], ?_⟩
    · intro m; cases m <;> simp [className]
    · simp [className]; exact ⟨.constVdc3, rfl⟩
  by_cases h4 : t = "SolarPVDERThreePhaseBalanced"
  · subst h4
    refine ⟨?_, by simp [className], ?_⟩
    · intro m; cases m <;> simp [className]
    · simp [className]; exact ⟨.balanced, rfl⟩
  by_cases h5 : t = "SolarPVDERSinglePhase"
  · subst h5
    refine ⟨?_, by simp [className], ?_⟩
    · intro m; cases m <;> simp [className]
    · simp [className]; exact ⟨.single, rfl⟩
  by_cases h6 : t = "SolarPVDERSinglePhaseConstantVdc"
  · subst h6
    refine ⟨?_, by simp [className], ?_⟩
    · intro m; cases m <;> simp [className]
    · simp [className]; exact ⟨.constVdc1, rfl⟩
  by_cases h7 : t = "SolarPVDERThreePhaseNumba"
  · subst h7
    refine ⟨?_, by simp [className], ?_⟩
    · intro m; cases m <;> simp [className]
    · simp [className]; exact ⟨.numba, rfl⟩
  simp only [h1, h2, h3, h4, h5, h6, h7, if_false, reduceCtorEq, false_iff, true_iff]
  refine ⟨?_, by simp [className, h2, h3], ?_⟩
  · intro m
    cases m <;> simp [className, h1, h2, h3, h4, h5, h6, h7]
  · intro m
    cases m <;> simp [className, h1, h2, h3, h4, h5, h6, h7]

/-- **C68 (advertised short names).** None of the names the documentation lists as model types (`templates.model_types`) is accepted. -/
theorem C68_short_names_rejected : ∀ t ∈ ["SinglePhase", "SinglePhaseConstantVdc", "ThreePhaseUnbalanced", "ThreePhaseUnbalancedConstantVdc", "ThreePhaseBalanced", "ThreePhaseUnbalancedNumba",
    "ThreePhaseUnbalancedNoVrmsFilter"], dispatch t = .error .valueError := by
  decide +kernel

/-! ### C69 -/

/-- **C69.** `check_voltage` accepts exactly when, outside stand-alone mode, the external voltage is within 10 % of nominal, and both the rated DC voltage and the minimum maximum-power voltage let the
inverter reach the rated AC peak `varated` with a duty cycle of at most `m`. -/
theorem C69_check_voltage {K : Type*} [Field K] [LinearOrder K] [IsStrictOrderedRing K] (sa : Bool) {vpcc vanom m vdc vmin va : K} (hva : 0 < vanom) (hdc : 0 < vdc) (hmin : 0 < vmin) :
    checkVoltage sa vpcc vanom m vdc vmin va = .ok () ↔
      (sa = false → 9/10 * vanom ≤ vpcc ∧ vpcc ≤ 11/10 * vanom) ∧ va / (vdc / 2) ≤ m ∧ va / (vmin / 2) ≤ m := by
  unfold checkVoltage
  have h1 : (|vpcc - vanom| / vanom > 1/10) ↔ ¬ (9/10 * vanom ≤ vpcc ∧ vpcc ≤ 11/10 * vanom) := by
    rw [gt_iff_lt, lt_div_iff₀ hva, ← not_le, not_iff_not, abs_le]
    constructor
    · rintro ⟨a, b⟩; constructor <;> linarith
    · rintro ⟨a, b⟩; constructor <;> linarith
  have h2 : ∀ d : K, 0 < d → (va / (d / 2) ≤ m ↔ ¬ m * (d / 2) < va) := by
    intro d hd
    rw [div_le_iff₀ (by positivity), not_lt]
  rw [h2 vdc hdc, h2 vmin hmin]
  cases sa with
  | true => by_cases a : m * (vdc / 2) < va <;> by_cases b : m * (vmin / 2) < va <;> simp [a, b]
  | false =>
    simp only [h1]
    by_cases c : 9/10 * vanom ≤ vpcc ∧ vpcc ≤ 11/10 * vanom
    · by_cases a : m * (vdc / 2) < va <;> by_cases b : m * (vmin / 2) < va <;> simp [a, b, c]
    · simp [c]

/-- **C69 (failure).** Every rejection is a `ValueError`. -/
theorem C69_error {K : Type*} [Field K] [LinearOrder K] (sa : Bool) {vpcc vanom m vdc vmin va : K} {e : Err} (h : checkVoltage sa vpcc vanom m vdc vmin va = .error e) : e = .valueError := by
  unfold checkVoltage at h
  split_ifs at h <;> simp_all

/-- Non-vacuity: the shipped 50 kVA ratings with nominal voltage pass, 400 V DC does not. -/
example : checkVoltage (K := ℚ) false (1/2) (1/2) (96/100) 550 525 250 = .ok () ∧ checkVoltage (K := ℚ) false (1/2) (1/2) (96/100) 400 525 250 = .error .valueError := by
  constructor <;> decide +kernel

/-! ### C82: construction of the classes -/

/-- **C82 (single-phase classes).** No single-phase DER can be constructed: their templates have no `unbalanced` entry, which the constructor reads. -/
theorem C82_single_phase_unconstructible {m : Sim.Mt} (hm : m = .single ∨ m = .constVdc1) (file : File) (id : String) (kw : Args) (b : Built) :
    construct (template m) file id kw ≠ .ok b := by
  intro h
  unfold construct at h
  obtain ⟨s, _, h⟩ := bind_ok h
  obtain ⟨x, hx, h⟩ := bind_ok h
  have : initBasicSpecs (template m) = .error .keyError := by
    rcases hm with rfl | rfl <;> decide +kernel
  rw [this] at hx
  cases hx

/-- **C82 (three-phase classes).** All five three-phase classes pass that step, with the equation count, phase count and balance flag of their class. -/
theorem C82_three_phase_specs_partial {m : Sim.Mt} (hm : Sim.isThree m = true) :
    initBasicSpecs (template m) = .ok (.int (Sim.width m), .int 3, .bool (m ≠ .balanced)) := by
  cases m <;> simp [Sim.isThree] at hm <;> decide +kernel

/-- **C82 (wrapper).** Through the wrapper only three of the seven classes can be obtained. -/
theorem C82_wrapper_classes {file : File} {id : String} {kw : Args} {m : Sim.Mt} {b : Built} (h : wrapper file id kw = .ok (m, b)) : m = .three ∨ m = .balanced ∨ m = .numba := by
  unfold wrapper at h
  obtain ⟨c, _, h⟩ := bind_ok h
  obtain ⟨o, _, h⟩ := bind_ok h
  cases o with
  | none => simp at h
  | some v =>
    simp only at h
    obtain ⟨m', hm', h⟩ := bind_ok h
    obtain ⟨b', hb', h⟩ := bind_ok h
    simp only [pure, Except.pure, Except.ok.injEq, Prod.mk.injEq] at h
    obtain ⟨rfl, rfl⟩ := h
    have hd := ((C68_dispatch_partial _).1 m').1 hm'
    cases m' with
    | single => exact absurd hb' (C82_single_phase_unconstructible (.inl rfl) _ _ _ _)
    | constVdc1 => exact absurd hb' (C82_single_phase_unconstructible (.inr rfl) _ _ _ _)
    | three => simp
    | noFilter => exact absurd rfl hd.2.1
    | numba => simp
    | balanced => simp
    | constVdc3 => exact absurd rfl hd.2.2

/-- **C82 (wrapper, right class).** The class instantiated is the one the configuration names. -/
theorem C82_wrapper_named {file : File} {id : String} {kw : Args} {m : Sim.Mt} {b : Built} (h : wrapper file id kw = .ok (m, b)) :
    ∃ c, file id = some c ∧ entry c "basic_specs" "model_type" = some (.str (className m)) := by
  unfold wrapper at h
  obtain ⟨c, hc, h⟩ := bind_ok h
  obtain ⟨o, ho, h⟩ := bind_ok h
  cases o with
  | none => simp at h
  | some v =>
    simp only at h
    obtain ⟨m', hm', h⟩ := bind_ok h
    obtain ⟨b', hb', h⟩ := bind_ok h
    simp only [pure, Except.pure, Except.ok.injEq, Prod.mk.injEq] at h
    obtain ⟨rfl, rfl⟩ := h
    have hd := (((C68_dispatch_partial _).1 m').1 hm').1
    have hv : v = .str (className m') := by
      revert hd
      cases v <;> simp <;> cases m' <;> simp [className]
    unfold wrapperConfig at hc
    obtain ⟨c0, h0, hc⟩ := bind_ok hc
    obtain ⟨par0, hpar, hc⟩ := bind_ok hc
    have hf : file id = some c0 := by
      unfold getConfig at h0
      split at h0 <;> simp_all
    have hpe : ∀ comp p, entry par0 comp p = none := by
      intro comp p
      unfold parentConfig at hpar
      split at hpar
      · cases hpar; rfl
      · simp at hpar
      · split at hpar
        · simp at hpar
        · cases hpar; rfl
    refine ⟨c0, hf, ?_⟩
    have h1 := (updateSpecs_ok hc).2.2.1 "basic_specs" "model_type"
    rw [hpe] at h1
    have h2 := look_ok ho
    rw [h2, hv] at h1
    simpa using h1.symm

/-- Non-vacuity: the wrapper builds the example configuration. -/
example : (wrapper exFile "50" (kwOf [("standAlone", .bool true), ("gridModel", .grid 1)])).map (fun x => x.1) = .ok .three := by
  decide +kernel

/-! ### C83: grid arguments -/

/-- **C83 (stand-alone).** A constructed stand-alone DER has the grid object it was given. -/
theorem C83_standalone_grid {m : Sim.Mt} {file : File} {id : String} {kw : Args} {b : Built} (h : construct (template m) file id kw = .ok b) (hs : b.standAlone = true) :
    ∃ g, b.setup.args "gridModel" = some g ∧ b.grid = some g := by
  unfold construct at h
  obtain ⟨s, _, h⟩ := bind_ok h
  obtain ⟨x, hx, h⟩ := bind_ok h
  obtain ⟨y, hy, h⟩ := bind_ok h
  obtain ⟨g, hg, h⟩ := bind_ok h
  obtain ⟨ms, hm, h⟩ := bind_ok h
  cases h
  simp only at hs ⊢
  unfold attachGrid at hg
  rw [hs] at hg
  simp only [if_true] at hg
  cases hga : s.args "gridModel" with
  | none => simp [hga] at hg
  | some w => exact ⟨w, rfl, by simp [hga] at hg; exact hg.symm⟩

/-- **C83 (external grid).** A constructed DER that is not stand-alone has frequency and phase a voltage as given; phases b and c are as given for the unbalanced classes and derived from phase a for the balanced
one. In particular a missing measurement prevents construction. -/
theorem C83_external_grid {m : Sim.Mt} {file : File} {id : String} {kw : Args} {b : Built} (h : construct (template m) file id kw = .ok b) (hs : b.standAlone = false) :
    ∃ f va, b.setup.args "gridFrequency" = some f ∧ b.setup.args "gridVoltagePhaseA" = some va ∧ b.meas.f = some f ∧ b.meas.a = .given va ∧
      (m = .balanced → b.meas.b = .derived ∧ b.meas.c = .derived) ∧
      (m ≠ .balanced → ∃ vb vc, b.setup.args "gridVoltagePhaseB" = some vb ∧ b.setup.args "gridVoltagePhaseC" = some vc ∧ b.meas.b = .given vb ∧ b.meas.c = .given vc) := by
  have h3 : Sim.isThree m = true := by
    by_contra hn
    have : m = .single ∨ m = .constVdc1 := by cases m <;> simp [Sim.isThree] at hn <;> simp
    exact C82_single_phase_unconstructible this _ _ _ _ h
  unfold construct at h
  obtain ⟨s, _, h⟩ := bind_ok h
  rw [C82_three_phase_specs_partial h3] at h
  obtain ⟨x, hx, h⟩ := bind_ok h
  cases hx
  obtain ⟨⟨sa, y2, y3⟩, hy, h⟩ := bind_ok h
  simp only at h
  obtain ⟨g, hg, h⟩ := bind_ok h
  obtain ⟨ms, hm, h⟩ := bind_ok h
  cases h
  simp only at hs ⊢
  unfold initMeas at hm
  simp only [hs] at hm
  cases hf : s.args "gridFrequency" with
  | none => simp [hf] at hm
  | some f =>
    cases ha : s.args "gridVoltagePhaseA" with
    | none => simp [hf, ha] at hm
    | some va =>
      by_cases hb : m = .balanced
      · subst hb
        simp [hf, ha, flag, truthy] at hm
        subst hm
        exact ⟨f, va, rfl, rfl, rfl, rfl, fun _ => ⟨rfl, rfl⟩, fun h => absurd rfl h⟩
      · cases hvb : s.args "gridVoltagePhaseB" with
        | none => simp [hf, ha, hvb, flag, truthy, hb] at hm
        | some vb =>
          cases hvc : s.args "gridVoltagePhaseC" with
          | none => simp [hf, ha, hvb, hvc, flag, truthy, hb] at hm
          | some vc =>
            simp [hf, ha, hvb, hvc, flag, truthy, hb] at hm
            subst hm
            exact ⟨f, va, rfl, rfl, rfl, rfl, fun h => absurd h hb, fun _ => ⟨vb, vc, rfl, rfl, rfl, rfl⟩⟩

/-- Non-vacuity of the external-grid case. -/
example : (construct (template .three) exFile "50" (kwOf [("standAlone", .bool false), ("gridFrequency", .float 377), ("gridVoltagePhaseA", .complex 250 0),
      ("gridVoltagePhaseB", .complex (-125) (-216)), ("gridVoltagePhaseC", .complex (-125) 216)])).map (fun b => b.meas) =
    .ok ⟨some (.float 377), .given (.complex 250 0), .given (.complex (-125) (-216)), .given (.complex (-125) 216)⟩ := by
  decide +kernel

/-- … and of its failure when phase c is missing, or given as a real number. -/
example : (construct (template .three) exFile "50" (kwOf [("standAlone", .bool false), ("gridFrequency", .float 377), ("gridVoltagePhaseA", .complex 250 0),
      ("gridVoltagePhaseB", .complex (-125) (-216)), ("gridVoltagePhaseC", .float 250)])).map (fun b => b.meas) = .error .valueError := by
  decide +kernel

/-! ### C84: initial states -/

/-- **C84.** The initial-state keyword arguments never reach the model: whatever the user passes, the set-up's arguments contain none of the names the initialisation reads, so every initial state comes from
the configuration's `initial_states`. -/
theorem C84_initial_state_keywords_ignored {m : Sim.Mt} {file : File} {id : String} {kw : Args} {s : Setup} (h : setupDER (template m) file id kw = .ok s) :
    ∀ n ∈ ["ia", "xa", "ua", "xDC", "xP", "xQ", "xPLL", "wte"], initialState s.args s.design.cfg n = s.design.cfg "initial_states" n := by
  intro n hn
  have hnot : n ∉ argSpec.map Prod.fst := by
    revert n; decide +kernel
  unfold setupDER at h
  obtain ⟨⟨c', par⟩, hc, h⟩ := bind_ok h
  obtain ⟨_, _, h⟩ := bind_ok h
  obtain ⟨_, _, h⟩ := bind_ok h
  obtain ⟨d, hd, h⟩ := bind_ok h
  obtain ⟨rt, _, h⟩ := bind_ok h
  obtain ⟨_, _, h⟩ := bind_ok h
  cases h
  simp only [initialState]
  rw [args_of_not_mem hnot]

/-- Refuted claim: passing `xQ0=1.0`, a documented argument that the type check accepts, leaves the initial state at the template's 0. -/
theorem C84_xQ0_refuted :
    (setupDER (template .three) exFile "50" (kwOf [("xQ0", .float 1)])).map (fun s => (s.args "xQ0", initialState s.args s.design.cfg "xQ")) = .ok (some (.float 1), some (.float 0)) := by
  decide +kernel

end Config
end PvDer
