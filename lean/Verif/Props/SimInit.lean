import Verif.Model.SimInit

/-!
# Property C101: which arguments `DynamicSimulation` accepts
-/

namespace PvDer
namespace SimInit

/-- What the documentation of the constructor asks for: a listed solver, a listed class if the Jacobian is to be used, and a grid in stand-alone mode. -/
def Documented (a : Args) : Prop :=
  (a.solver = "odeint" ∨ a.solver = "ode-vode-bdf") ∧
  (a.jac = true → a.derClass = "SolarPVDERThreePhase" ∨ a.derClass = "SolarPVDERThreePhaseNoVrmsFilter" ∨ a.derClass = "SolarPVDERSinglePhase" ∨
    a.derClass = "SolarPVDERThreePhaseBalanced") ∧
  (a.standAlone = true → a.gridGiven = true)

theorem initSolver_odeint : initSolver "odeint" = .ok () := by decide +kernel

/-- C101 (part): with the default solver, exactly the documented arguments are accepted, and the object has the requested solver, Jacobian option and grid. -/
theorem C101_accepts_partial (a : Args) (hs : a.solver = "odeint") :
    ((∃ o, construct a = .ok o) ↔ Documented a) ∧ ∀ o, construct a = .ok o → o = ⟨"odeint", a.jac, a.standAlone⟩ := by
  unfold construct Documented
  rw [hs, initSolver_odeint]
  unfold checkJac
  simp only [jacList, List.mem_cons, List.not_mem_nil, or_false]
  constructor
  · constructor
    · rintro ⟨o, h⟩
      refine ⟨by simp, ?_, ?_⟩
      · intro hj
        by_contra hc
        rw [if_pos ⟨hj, hc⟩] at h
        exact absurd h (by simp [bind, Except.bind])
      · intro hsa
        by_contra hg
        have hg' : a.gridGiven = false := by simpa using hg
        split_ifs at h with h1 h2 h2
        · exact absurd h (by simp [bind, Except.bind])
        · exact absurd h (by simp [bind, Except.bind])
        · exact absurd h (by simp [bind, Except.bind, throw, throwThe, MonadExceptOf.throw])
        · exact h2 ⟨hsa, hg'⟩
    · rintro ⟨_, hj, hg⟩
      rw [if_neg (by rintro ⟨h1, h2⟩; exact h2 (hj h1)), if_neg (by rintro ⟨h1, h2⟩; rw [hg h1] at h2; exact absurd h2 (by simp))]
      exact ⟨_, rfl⟩
  · intro o h
    split_ifs at h with h1 h2 h2
    · exact absurd h (by simp [bind, Except.bind])
    · exact absurd h (by simp [bind, Except.bind])
    · exact absurd h (by simp [bind, Except.bind, throw, throwThe, MonadExceptOf.throw])
    · exact (Except.ok.inj h).symm

/-- C101: with the default solver, undocumented arguments are rejected with `ValueError`. -/
theorem C101_rejects_with_ValueError (a : Args) (hs : a.solver = "odeint") (h : ¬ Documented a) : construct a = .error .valueError := by
  have h1 := (C101_accepts_partial a hs).1
  cases hc : construct a with
  | ok o => exact absurd (h1.1 ⟨o, hc⟩) h
  | error e =>
    unfold construct at hc
    rw [hs, initSolver_odeint] at hc
    unfold checkJac at hc
    split_ifs at hc <;> simp [bind, Except.bind, throw, throwThe, MonadExceptOf.throw, pure, Except.pure] at hc
    all_goals rw [← hc]

/-- C101: the rest of the claim is false. With the second documented solver no simulation can be constructed, whatever the other arguments. -/
theorem C101_second_solver_never_works (a : Args) (hs : a.solver = "ode-vode-bdf") : construct a = .error .attributeError := by
  unfold construct
  rw [hs, show initSolver "ode-vode-bdf" = .error .attributeError from by decide +kernel]
  rfl

/-- C101: an unknown solver gives `AttributeError` and not the assertion with the explaining message. -/
theorem C101_unknown_solver (a : Args) (hs : a.solver ∉ solverList) : construct a = .error .attributeError := by
  unfold construct initSolver
  rw [if_neg hs]
  rfl

/-- Documented arguments of every kind exist, and one of them is accepted, one is not. -/
theorem C101_example : Documented ⟨"SolarPVDERThreePhase", true, true, "odeint", true⟩ ∧
    construct ⟨"SolarPVDERThreePhase", true, true, "odeint", true⟩ = .ok ⟨"odeint", true, true⟩ ∧
    Documented ⟨"SolarPVDERThreePhaseNumba", false, false, "ode-vode-bdf", false⟩ ∧
    construct ⟨"SolarPVDERThreePhaseNumba", false, false, "odeint", true⟩ = .error .valueError := by
  refine ⟨by simp [Documented], by decide +kernel, by simp [Documented], by decide +kernel⟩

end SimInit
end PvDer
