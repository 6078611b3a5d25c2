import Verif.Model.SetupMsg
import Verif.Props.Config
import Verif.Props.Construct
import Verif.Model.Sim
import Verif.Model.Gen.Shipped

/-!
# C163: which configuration mismatches are reported

The set-up compares the configured model type, phase count and equation count with those of the class, and only says so.
-/

namespace PvDer
namespace Config

/-- Number of phases of a class. -/
def phaseCount (m : Sim.Mt) : ℕ := if Sim.isThree m then 3 else 1

/-- Number of initial states the template of a class lists: one less than its equations for the model with the RMS filter, whose state `Vrms` has no entry. -/
def stateCount (m : Sim.Mt) : ℕ := if m = .three then 23 else Sim.width m

/-- What the templates say about their dimensions. -/
theorem template_specs (m : Sim.Mt) : ∃ bs st l, (template m).lookup "basic_specs" = some bs ∧ (template m).lookup "initial_states" = some st ∧
    bs.lookup "n_phases" = some (.int (phaseCount m)) ∧ bs.lookup "n_ODE" = some (.int (Sim.width m)) ∧ bs.lookup "phases" = some l ∧
    lenOf l = .ok (phaseCount m) ∧ st.length = stateCount m := by
  refine ⟨((template m).lookup "basic_specs").getD [], ((template m).lookup "initial_states").getD [], ((((template m).lookup "basic_specs").getD []).lookup "phases").getD .none, ?_⟩
  cases m <;> exact ⟨by decide +kernel, by decide +kernel, by decide +kernel, by decide +kernel, by decide +kernel, by decide +kernel, by decide +kernel⟩

/-- C163: a set-up that succeeds says that the model type is another one exactly when the configuration's is not the name of the class; that the number of phases or of equations is invalid exactly when the configuration has such an entry that differs from the number of the class; that other phases were found together with the former; that other states were found exactly when the number of equations, as configured or by default, is not the number of initial states of the template. The message that no model type was found never appears. -/
theorem C163_setup_messages {m : Sim.Mt} {file : File} {id : String} {kw : Args} {s : Setup} {c : Cfg} (h : setupDER (template m) file id kw = .ok s) (hf : file id = some c) :
    ∃ l, setupMsgs (template m) (className m) file id kw = .ok l ∧
      (SetupMsg.modelType ∈ l ↔ entry c "basic_specs" "model_type" ≠ some (.str (className m))) ∧
      (SetupMsg.phases ∈ l ↔ ∃ v, entry c "basic_specs" "n_phases" = some v ∧ num v ≠ some (phaseCount m : ℚ)) ∧
      (SetupMsg.odes ∈ l ↔ ∃ v, entry c "basic_specs" "n_ODE" = some v ∧ num v ≠ some (Sim.width m : ℚ)) ∧
      (SetupMsg.phaseList ∈ l ↔ SetupMsg.phases ∈ l) ∧
      (SetupMsg.states ∈ l ↔ num ((entry c "basic_specs" "n_ODE").getD (.int (Sim.width m))) ≠ some (stateCount m : ℚ)) ∧ SetupMsg.noModelType ∉ l := by
  obtain ⟨c', hf', hreq, hval, _⟩ := C66_setup h
  rw [hf] at hf'
  cases hf'
  unfold setupDER at h
  obtain ⟨⟨c1, par⟩, hc, h⟩ := bind_ok h
  obtain ⟨_, hi, h⟩ := bind_ok h
  obtain ⟨_, hv, h⟩ := bind_ok h
  obtain ⟨d, hd, h⟩ := bind_ok h
  obtain ⟨rt, _, h⟩ := bind_ok h
  obtain ⟨_, _, h⟩ := bind_ok h
  cases h
  simp only at hval
  obtain ⟨c0, par0, hf0, hpar, _, _, _, hent, _⟩ := createConfig_ok hc
  rw [hf] at hf0
  cases hf0
  have hpe : ∀ comp p, entry par0 comp p = none := by
    intro comp p
    unfold parentConfig at hpar
    split at hpar
    · cases hpar; rfl
    · simp at hpar
    · split at hpar
      · simp at hpar
      · cases hpar; rfl
  have ht : ∃ v, entry c "basic_specs" "model_type" = some v := Option.isSome_iff_exists.1 (hreq ("basic_specs", "model_type") (by decide))
  obtain ⟨t, ht⟩ := ht
  have hne : ∀ k ∈ ["n_phases", "n_ODE"], k ∉ argSpec.map Prod.fst := by decide +kernel
  have hp : HasParam (template m) "basic_specs" "n_phases" (.int (phaseCount m)) ∧ HasParam (template m) "basic_specs" "n_ODE" (.int (Sim.width m)) := by
    have : ∀ m, ((template m).any fun cp => decide (cp.1 = "basic_specs") && (cp.2.any fun pd => decide (pd = ("n_phases", .int (phaseCount m)))) && (cp.2.any fun pd => decide (pd = ("n_ODE", .int (Sim.width m))))) = true := by
      intro m; cases m <;> decide +kernel
    obtain ⟨⟨k, ps⟩, hm, e⟩ := List.any_eq_true.1 (this m)
    simp only [Bool.and_eq_true, decide_eq_true_eq, List.any_eq_true] at e
    obtain ⟨⟨rfl, x, hx, rfl⟩, y, hy, rfl⟩ := e
    exact ⟨⟨ps, hm, hx⟩, ⟨ps, hm, hy⟩⟩
  have v1 := hval _ _ _ hp.1
  have v2 := hval _ _ _ hp.2
  rw [args_of_not_mem (hne _ (by simp))] at v1 v2
  have hpc : ∀ comp p, entry par comp p = none := by
    unfold createConfig at hc
    obtain ⟨c2, h0, hc⟩ := bind_ok hc
    obtain ⟨par2, h1, hc⟩ := bind_ok hc
    obtain ⟨c3, h2, hc⟩ := bind_ok hc
    simp only [pure, Except.pure, Except.ok.injEq, Prod.mk.injEq] at hc
    obtain ⟨rfl, rfl⟩ := hc
    have : c2 = c := by
      unfold getConfig at h0
      rw [hf] at h0
      cases h0; rfl
    subst this
    unfold parentId at h1
    rw [hpar] at h1
    cases h1
    intro comp p
    rw [entry_completed, hpe]
  have e1 : entry c1 "basic_specs" "model_type" = some t := by
    have := hent "basic_specs" "model_type"
    rw [hpc, hpe, ht] at this
    revert this
    cases entry c1 "basic_specs" "model_type" <;> simp
  have lk : look c1 "basic_specs" "model_type" = .ok (some t) := by
    unfold look
    unfold entry at e1
    split at e1
    · rename_i d' hd'
      rw [hd']
      simp only [e1]
    · cases e1
  have m1 : checkModelType (className m) c1 par = .ok (if t = .str (className m) then [] else [.modelType]) := by
    unfold checkModelType
    rw [lk]; rfl
  obtain ⟨n1, k1, h1⟩ : ∃ n, d.cfg "basic_specs" "n_phases" = some n ∧ (num n ≠ some (phaseCount m : ℚ) ↔ ∃ v, entry c "basic_specs" "n_phases" = some v ∧ num v ≠ some (phaseCount m : ℚ)) := by
    rw [v1]
    cases entry c "basic_specs" "n_phases" with
    | none => exact ⟨_, rfl, by simp [num]⟩
    | some v => exact ⟨v, rfl, by simp⟩
  obtain ⟨n2, k2, h2', h2⟩ : ∃ n, d.cfg "basic_specs" "n_ODE" = some n ∧ (entry c "basic_specs" "n_ODE").getD (.int (Sim.width m)) = n ∧ (num n ≠ some (Sim.width m : ℚ) ↔ ∃ v, entry c "basic_specs" "n_ODE" = some v ∧ num v ≠ some (Sim.width m : ℚ)) := by
    rw [v2]
    cases entry c "basic_specs" "n_ODE" with
    | none => exact ⟨_, rfl, rfl, by simp [num]⟩
    | some v => exact ⟨v, rfl, rfl, by simp⟩
  have m2 : checkBasicSpecs (template m) d.cfg = .ok ((if eqNum n1 (phaseCount m) then [] else [.phases]) ++ (if eqNum n1 (phaseCount m) then [] else [.phaseList]) ++
      (if eqNum n2 (Sim.width m) then [] else [.odes]) ++ (if eqNum n2 (stateCount m) then [] else [.states])) := by
    obtain ⟨bs, st, l, q1, q2, q3, q4, q5, q6, q7⟩ := template_specs m
    unfold checkBasicSpecs
    rw [k1, k2, q1, q2]
    simp only [q3, q4, q5, q6, q7, num, bind, Except.bind, pure, Except.pure, Int.cast_natCast]
  refine ⟨(if t = .str (className m) then [] else [.modelType]) ++ ((if eqNum n1 (phaseCount m) then [] else [.phases]) ++ (if eqNum n1 (phaseCount m) then [] else [.phaseList]) ++
      (if eqNum n2 (Sim.width m) then [] else [.odes]) ++ (if eqNum n2 (stateCount m) then [] else [.states])), ?_, ?_⟩
  · unfold setupMsgs
    rw [hc]
    simp only [bind, Except.bind, hi, hv, m1, hd, m2, pure, Except.pure]
  · rw [← h1, ← h2, ht, h2']
    unfold eqNum
    by_cases g1 : t = .str (className m) <;> by_cases g2 : num n1 = some (phaseCount m : ℚ) <;> by_cases g3 : num n2 = some (Sim.width m : ℚ) <;>
      by_cases g4 : num n2 = some (stateCount m : ℚ) <;> simp [g1, g2, g3, g4]

theorem params_of (m : Sim.Mt) : HasParam (template m) "basic_specs" "n_phases" (.int (phaseCount m)) ∧ HasParam (template m) "basic_specs" "n_ODE" (.int (Sim.width m)) := by
  have : ∀ m, ((template m).any fun cp => decide (cp.1 = "basic_specs") && (cp.2.any fun pd => decide (pd = ("n_phases", .int (phaseCount m)))) && (cp.2.any fun pd => decide (pd = ("n_ODE", .int (Sim.width m))))) = true := by
    intro m; cases m <;> decide +kernel
  obtain ⟨⟨k, ps⟩, hm, e⟩ := List.any_eq_true.1 (this m)
  simp only [Bool.and_eq_true, decide_eq_true_eq, List.any_eq_true] at e
  obtain ⟨⟨rfl, x, hx, rfl⟩, y, hy, rfl⟩ := e
  exact ⟨⟨ps, hm, hx⟩, ⟨ps, hm, hy⟩⟩

/-- C163: a configuration that gets as far as the check of its model type has one; one without is rejected before. -/
theorem C163_type_found {T : Template} {file : File} {id : String} {c par : Cfg} (h : createConfig false T file id = .ok (c, par)) (cls : String) :
    ∃ v, look c "basic_specs" "model_type" = .ok (some v) ∧ checkModelType cls c par = .ok (if v = .str cls then [] else [.modelType]) := by
  obtain ⟨c0, par0, hf0, hpar, _, _, _, hent, hreq⟩ := createConfig_ok h
  have hpe : ∀ comp p, entry par0 comp p = none := by
    intro comp p
    unfold parentConfig at hpar
    split at hpar
    · cases hpar; rfl
    · simp at hpar
    · split at hpar
      · simp at hpar
      · cases hpar; rfl
  have hpc : ∀ comp p, entry par comp p = none := by
    unfold createConfig at h
    obtain ⟨c2, h0, hc⟩ := bind_ok h
    obtain ⟨par2, h1, hc⟩ := bind_ok hc
    obtain ⟨c3, h2, hc⟩ := bind_ok hc
    simp only [pure, Except.pure, Except.ok.injEq, Prod.mk.injEq] at hc
    obtain ⟨rfl, rfl⟩ := hc
    have : c2 = c0 := by
      unfold getConfig at h0
      rw [hf0] at h0
      cases h0; rfl
    subst this
    unfold parentId at h1
    rw [hpar] at h1
    cases h1
    intro comp p
    rw [entry_completed, hpe]
  have h1 := hreq ("basic_specs", "model_type") (by decide)
  rw [← hent, hpc] at h1
  obtain ⟨v, hv⟩ : ∃ v, entry c "basic_specs" "model_type" = some v := by
    cases hx : entry c "basic_specs" "model_type" with
    | none => rw [hx] at h1; simp at h1
    | some v => exact ⟨v, rfl⟩
  have lk : look c "basic_specs" "model_type" = .ok (some v) := by
    unfold look
    unfold entry at hv
    split at hv
    · rename_i d' hd'
      rw [hd']
      simp only [hv]
    · cases hv
  refine ⟨v, lk, ?_⟩
  unfold checkModelType
  rw [lk]; rfl

/-- C163: the two checks never raise, whatever is configured: where the set-up with its messages stops, it stops for another reason, with the same exception as without them. -/
theorem C163_never_raises (m : Sim.Mt) (cls : String) (file : File) (id : String) (kw : Args) (e : Err) (h : setupMsgs (template m) cls file id kw = .error e) :
    setupDER (template m) file id kw = .error e := by
  unfold setupMsgs at h
  unfold setupDER
  cases hc : createConfig false (template m) file id with
  | error e' => rw [hc] at h; simp only [bind, Except.bind] at h ⊢; exact congrArg _ (Except.error.inj h)
  | ok x =>
    obtain ⟨c, par⟩ := x
    rw [hc] at h
    simp only [bind, Except.bind] at h ⊢
    cases hi : checkIdentifier (getArguments argSpec c kw) with
    | error e' => rw [hi] at h; simp only at h ⊢; exact congrArg _ (Except.error.inj h)
    | ok _ =>
      rw [hi] at h
      cases hv : checkVerbosity (getArguments argSpec c kw) with
      | error e' => rw [hv] at h; simp only at h ⊢; exact congrArg _ (Except.error.inj h)
      | ok _ =>
        rw [hv] at h
        obtain ⟨v, _, hm⟩ := C163_type_found hc cls
        rw [hm] at h
        cases hd : updateConfig (template m) props c par (getArguments argSpec c kw) with
        | error e' => rw [hd] at h; simp only at h ⊢; exact congrArg _ (Except.error.inj h)
        | ok d =>
          rw [hd] at h
          exfalso
          obtain ⟨p1, p2⟩ := params_of m
          have v1 := (C66_precedence (templates_wf m) hd).1 _ _ _ p1
          have v2 := (C66_precedence (templates_wf m) hd).1 _ _ _ p2
          obtain ⟨n1, k1⟩ : ∃ n, d.cfg "basic_specs" "n_phases" = some n := by
            rw [v1]
            cases getArguments argSpec c kw "n_phases" <;> cases entry c "basic_specs" "n_phases" <;> cases entry par "basic_specs" "n_phases" <;> simp
          obtain ⟨n2, k2⟩ : ∃ n, d.cfg "basic_specs" "n_ODE" = some n := by
            rw [v2]
            cases getArguments argSpec c kw "n_ODE" <;> cases entry c "basic_specs" "n_ODE" <;> cases entry par "basic_specs" "n_ODE" <;> simp
          obtain ⟨bs, st, l, q1, q2, q3, q4, q5, q6, q7⟩ := template_specs m
          obtain ⟨w, m2⟩ : ∃ w, checkBasicSpecs (template m) d.cfg = .ok w := by
            unfold checkBasicSpecs
            rw [k1, k2, q1, q2]
            simp only [q3, q4, q5, q6, num, bind, Except.bind, pure, Except.pure]
            exact ⟨_, rfl⟩
          simp only [m2, pure, Except.pure] at h
          cases h

/-- … for instance for an unknown design. -/
example : setupMsgs (template .single) (className .single) (fun _ => none) "x" (kwOf []) = .error .keyError := by decide +kernel

/-- A single-phase configuration with wrong counts. -/
def exMismatch : File
  | "x" => some (cfgOf [("parent_config", .str "")] [("basic_specs", [("model_type", .str "SolarPVDERSinglePhase"), ("n_phases", .int 1), ("n_ODE", .bool true)]),
      ("inverter_ratings", [("Srated", .float 50000), ("Vrmsrated", .float 177)])] [("LVRT", ⟨none, some "LV"⟩)])
  | "LV" => exFile "LV"
  | _ => none

/-- C163: such a configuration is not rejected: it is accepted for a three-phase model, and everything is said. -/
theorem C163_not_rejected :
    setupMsgs (template .three) (className .three) exMismatch "x" (kwOf []) = .ok [.modelType, .phases, .phaseList, .odes, .states] ∧
    (readParam (setupDER (template .three) exMismatch "x" (kwOf [])) "basic_specs" "n_phases") = .ok (some (.int 1)) := by
  decide +kernel

/-- … and the design is used with the counts of the class: the dimensions an instance works with do not depend on the configuration. -/
theorem C163_counts_of_class {m : Sim.Mt} (hm : Sim.isThree m = true) : initBasicSpecs (template m) = .ok (.int (Sim.width m), .int (phaseCount m), .bool (m ≠ .balanced)) := by
  cases m <;> simp [Sim.isThree] at hm <;> decide +kernel

/-- C163: with verbosity `CRITICAL` none of it is seen. -/
theorem C163_silenced (a : Args) (l : List SetupMsg) : printed a l = [] ↔ l = [] ∨ a "verbosity" = some (.str "CRITICAL") := by
  unfold printed
  split
  · simp_all
  · simp_all

/-- C163: for every class but the three-phase model with RMS filter, a set-up is silent exactly when the configuration names the class and has no other counts. -/
theorem C163_silent {m : Sim.Mt} (hm : m ≠ .three) {file : File} {id : String} {kw : Args} {s : Setup} {c : Cfg} (h : setupDER (template m) file id kw = .ok s) (hf : file id = some c) :
    setupMsgs (template m) (className m) file id kw = .ok [] ↔
      entry c "basic_specs" "model_type" = some (.str (className m)) ∧ (∀ v, entry c "basic_specs" "n_phases" = some v → num v = some (phaseCount m : ℚ)) ∧
        (∀ v, entry c "basic_specs" "n_ODE" = some v → num v = some (Sim.width m : ℚ)) := by
  obtain ⟨l, e, a1, a2, a3, a4, a5, a6⟩ := C163_setup_messages h hf
  rw [e]
  have hs : stateCount m = Sim.width m := if_neg hm
  constructor
  · intro h0
    cases h0
    simp only [List.not_mem_nil, false_iff, not_exists, not_and, not_not] at a1 a2 a3
    exact ⟨a1, a2, a3⟩
  · rintro ⟨b1, b2, b3⟩
    have n1 : SetupMsg.modelType ∉ l := fun h => a1.1 h b1
    have n2 : SetupMsg.phases ∉ l := fun h => by obtain ⟨v, x, y⟩ := a2.1 h; exact y (b2 v x)
    have n3 : SetupMsg.odes ∉ l := fun h => by obtain ⟨v, x, y⟩ := a3.1 h; exact y (b3 v x)
    have n4 : SetupMsg.phaseList ∉ l := fun h => n2 (a4.1 h)
    have n5 : SetupMsg.states ∉ l := by
      intro h
      refine a5.1 h ?_
      rw [hs]
      cases hv : entry c "basic_specs" "n_ODE" with
      | none => simp [num]
      | some v => exact b3 v hv
    congr 1
    refine List.eq_nil_iff_forall_not_mem.2 fun x hx => ?_
    cases x
    · exact a6 hx
    · exact n1 hx
    · exact n2 hx
    · exact n4 hx
    · exact n3 hx
    · exact n5 hx

/-- C163: the three-phase model with RMS filter is never silent: its template counts 24 equations and lists 23 initial states, and a configuration that says 23 is told that 23 equations are invalid. -/
theorem C163_three_phase_never_silent {file : File} {id : String} {kw : Args} {s : Setup} {c : Cfg} (h : setupDER (template .three) file id kw = .ok s) (hf : file id = some c) :
    setupMsgs (template .three) (className .three) file id kw ≠ .ok [] := by
  obtain ⟨l, e, _, _, a3, _, a5, _⟩ := C163_setup_messages h hf
  rw [e]
  intro h0
  cases h0
  simp only [List.not_mem_nil, false_iff, not_exists, not_and, not_not] at a3 a5
  cases hv : entry c "basic_specs" "n_ODE" with
  | none => rw [hv] at a5; simp [num, stateCount, Sim.width] at a5
  | some v =>
    have b := a3 v hv
    rw [hv] at a5
    simp only [Option.getD_some] at a5
    rw [b] at a5
    simp [stateCount, Sim.width] at a5

/-- The example of the other configuration properties is told so. -/
example : setupMsgs (template .three) (className .three) exFile "50" (kwOf []) = .ok [.states] := by decide +kernel

/-- A silent set-up. -/
def exBalanced : File
  | "x" => some (cfgOf [("parent_config", .str "")] [("basic_specs", [("model_type", .str "SolarPVDERThreePhaseBalanced"), ("n_ODE", .int 11)]),
      ("inverter_ratings", [("Srated", .float 50000), ("Vrmsrated", .float 177)])] [("LVRT", ⟨none, some "LV"⟩)])
  | "LV" => exFile "LV"
  | _ => none

example : setupMsgs (template .balanced) (className .balanced) exBalanced "x" (kwOf []) = .ok [] ∧
    (readParam (setupDER (template .balanced) exBalanced "x" (kwOf [])) "basic_specs" "n_ODE") = .ok (some (.int 11)) := by decide +kernel

/-- C163 for the shipped configuration file: each design used with its class is silent, except the two of the three-phase model; used with the class without RMS filter or the compiled one these are reported as another model. -/
theorem C163_shipped :
    setupMsgs (template .balanced) (className .balanced) Shipped.file "50_balanced" (kwOf []) = .ok [] ∧
    setupMsgs (template .constVdc3) (className .constVdc3) Shipped.file "50_constantVdc" (kwOf []) = .ok [] ∧
    setupMsgs (template .three) (className .three) Shipped.file "50" (kwOf []) = .ok [.states] ∧
    setupMsgs (template .three) (className .three) Shipped.file "250" (kwOf []) = .ok [.states] ∧
    setupMsgs (template .noFilter) (className .noFilter) Shipped.file "50" (kwOf []) = .ok [.modelType] ∧
    setupMsgs (template .numba) (className .numba) Shipped.file "50" (kwOf []) = .ok [.modelType] := by
  decide +kernel

end Config
end PvDer
