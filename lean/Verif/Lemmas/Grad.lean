import Mathlib.Analysis.Calculus.FDeriv.Mul
import Mathlib.Analysis.Calculus.FDeriv.Pi
import Mathlib.Analysis.Calculus.FDeriv.Add
import Mathlib.Analysis.Calculus.FDeriv.Comp
import Mathlib.Analysis.Calculus.Deriv.Basic
import Mathlib.Analysis.Calculus.Deriv.Comp
import Mathlib.Analysis.Calculus.Deriv.Prod
import Mathlib.Analysis.SpecialFunctions.ExpDeriv
import Mathlib.Topology.Algebra.Order.LiminfLimsup
import Mathlib.Data.Sign.Basic
import Mathlib.Tactic.Ring
import Mathlib.Tactic.Linarith

/-!
# Gradients of functions of finitely many named variables
-/

set_option linter.unusedSectionVars false

namespace PvDer
namespace Grad

variable {ι : Type} [Fintype ι] [DecidableEq ι]

/-- The linear map with coefficients `g`. -/
noncomputable def lin (g : ι → ℝ) : (ι → ℝ) →L[ℝ] ℝ := ∑ j, g j • ContinuousLinearMap.proj j

theorem lin_apply (g v : ι → ℝ) : lin g v = ∑ j, g j * v j := by
  unfold lin; rw [sum_apply]; simp

/-- `f` has total (Fréchet) derivative at `y` with coefficient vector `g`. -/
def HasGrad (f : (ι → ℝ) → ℝ) (g : ι → ℝ) (y : ι → ℝ) : Prop := HasFDerivAt f (lin g) y

theorem lin_zero : lin (fun _ : ι => (0:ℝ)) = 0 := by ext v; rw [lin_apply]; simp
theorem lin_add (g h : ι → ℝ) : lin (fun j => g j + h j) = lin g + lin h := by
  ext v; rw [add_apply, lin_apply, lin_apply, lin_apply, ← Finset.sum_add_distrib]; congr 1; ext j; ring
theorem lin_smul (c : ℝ) (g : ι → ℝ) : lin (fun j => c * g j) = c • lin g := by
  ext v; rw [smul_apply, lin_apply, lin_apply, smul_eq_mul, Finset.mul_sum]; congr 1; ext j; ring

theorem HasGrad.congr {f : (ι → ℝ) → ℝ} {g h : ι → ℝ} {y : ι → ℝ} (H : HasGrad f g y) (e : ∀ j, g j = h j) : HasGrad f h y := by
  rw [← funext e]; exact H

theorem HasGrad.congr_fun {f k : (ι → ℝ) → ℝ} {g : ι → ℝ} {y : ι → ℝ} (H : HasGrad f g y) (e : ∀ z, k z = f z) : HasGrad k g y := by
  rw [funext e]; exact H

theorem HasGrad.congr_ev {f k : (ι → ℝ) → ℝ} {g : ι → ℝ} {y : ι → ℝ} (H : HasGrad f g y) (e : ∀ᶠ z in nhds y, k z = f z) : HasGrad k g y :=
  HasFDerivAt.congr_of_eventuallyEq H e

theorem HasGrad.cont {f : (ι → ℝ) → ℝ} {g : ι → ℝ} {y : ι → ℝ} (H : HasGrad f g y) : ContinuousAt f y := HasFDerivAt.continuousAt H

theorem HasGrad.const (c : ℝ) (y : ι → ℝ) : HasGrad (fun _ => c) (fun _ => 0) y := by
  unfold HasGrad; rw [lin_zero]; exact hasFDerivAt_const c y

theorem HasGrad.proj (j : ι) (y : ι → ℝ) : HasGrad (fun z => z j) (fun k => if k = j then 1 else 0) y := by
  have h := hasFDerivAt_apply (𝕜 := ℝ) (F' := fun _ : ι => ℝ) j y
  have e : lin (fun k => if k = j then (1:ℝ) else 0) = ContinuousLinearMap.proj (R := ℝ) (φ := fun _ : ι => ℝ) j := by
    ext v; rw [lin_apply]; simp
  unfold HasGrad; rw [e]; exact h

theorem HasGrad.add {f k : (ι → ℝ) → ℝ} {g h : ι → ℝ} {y : ι → ℝ} (H : HasGrad f g y) (K : HasGrad k h y) :
    HasGrad (fun z => f z + k z) (fun j => g j + h j) y := by
  unfold HasGrad at *; rw [lin_add]; exact HasFDerivAt.add H K

theorem HasGrad.mul {f k : (ι → ℝ) → ℝ} {g h : ι → ℝ} {y : ι → ℝ} (H : HasGrad f g y) (K : HasGrad k h y) :
    HasGrad (fun z => f z * k z) (fun j => f y * h j + k y * g j) y := by
  unfold HasGrad at *; rw [lin_add (fun j => f y * h j), lin_smul, lin_smul]; exact HasFDerivAt.mul H K

theorem HasGrad.neg {f : (ι → ℝ) → ℝ} {g : ι → ℝ} {y : ι → ℝ} (H : HasGrad f g y) : HasGrad (fun z => -f z) (fun j => -g j) y := by
  have := (HasGrad.const (-1) y).mul H
  refine (this.congr_fun (fun z => ?_)).congr (fun j => ?_) <;> ring

theorem HasGrad.sub {f k : (ι → ℝ) → ℝ} {g h : ι → ℝ} {y : ι → ℝ} (H : HasGrad f g y) (K : HasGrad k h y) :
    HasGrad (fun z => f z - k z) (fun j => g j - h j) y := by
  refine ((H.add K.neg).congr_fun (fun z => ?_)).congr (fun j => ?_) <;> ring

theorem HasGrad.div_const {f : (ι → ℝ) → ℝ} {g : ι → ℝ} {y : ι → ℝ} (H : HasGrad f g y) (c : ℝ) :
    HasGrad (fun z => f z / c) (fun j => g j / c) y := by
  refine (((HasGrad.const (1 / c) y).mul H).congr_fun (fun z => ?_)).congr (fun j => ?_) <;> ring

theorem HasGrad.comp {f : (ι → ℝ) → ℝ} {g : ι → ℝ} {y : ι → ℝ} (H : HasGrad f g y) {φ : ℝ → ℝ} {d : ℝ} (hφ : HasDerivAt φ d (f y)) :
    HasGrad (fun z => φ (f z)) (fun j => d * g j) y := by
  unfold HasGrad at *; rw [lin_smul]; exact HasDerivAt.comp_hasFDerivAt y hφ H

/-- Partial derivatives from the total derivative. -/
theorem HasGrad.partial {f : (ι → ℝ) → ℝ} {g : ι → ℝ} {y : ι → ℝ} (H : HasGrad f g y) (j : ι) :
    HasDerivAt (fun s => f (Function.update y j s)) (g j) (y j) := by
  have h1 : HasDerivAt (fun s : ℝ => Function.update y j s) (Pi.single j 1) (y j) := by
    rw [hasDerivAt_pi]
    intro k
    by_cases hk : k = j
    · subst hk; simp only [Function.update_self, Pi.single_eq_same]; exact hasDerivAt_id' (y k)
    · simp only [Function.update_of_ne hk, Pi.single_eq_of_ne hk]; exact hasDerivAt_const _ _
  have h2 : HasFDerivAt f (lin g) (Function.update y j (y j)) := by rw [Function.update_eq_self]; exact H
  have h3 := h2.comp_hasDerivAt (y j) h1
  have e : lin g (Pi.single j 1) = g j := by rw [lin_apply]; simp [Pi.single_apply]
  rw [e] at h3
  exact h3

/-- The gradient is unique. -/
theorem HasGrad.unique {f : (ι → ℝ) → ℝ} {g h : ι → ℝ} {y : ι → ℝ} (H : HasGrad f g y) (K : HasGrad f h y) (j : ι) : g j = h j :=
  (H.partial j).unique (K.partial j)

theorem sign_eventually {f : (ι → ℝ) → ℝ} {y : ι → ℝ} (hf : ContinuousAt f y) (h0 : f y ≠ 0) :
    ∀ᶠ z in nhds y, SignType.sign (f z) = SignType.sign (f y) := by
  rcases lt_or_gt_of_ne h0 with h | h
  · filter_upwards [hf.eventually (gt_mem_nhds h)] with z hz
    rw [sign_neg hz, sign_neg h]
  · filter_upwards [hf.eventually (lt_mem_nhds h)] with z hz
    rw [sign_pos hz, sign_pos h]

/-- An integrator with the anti-windup switch of the tool, away from the switching surfaces. -/
theorem HasGrad.aw {n f x : (ι → ℝ) → ℝ} {lim : ℝ} {g : ι → ℝ} {y : ι → ℝ} (hf : HasGrad f g y) (hn : ContinuousAt n y) (hx : ContinuousAt x y)
    (h1 : n y ≠ lim) (h2 : n y > lim → f y ≠ 0 ∧ x y ≠ 0) :
    HasGrad (fun z => if n z > lim then (if SignType.sign (f z) = SignType.sign (x z) then 0 else f z) else f z)
      (fun j => if n y > lim then (if SignType.sign (f y) = SignType.sign (x y) then 0 else g j) else g j) y := by
  rcases lt_or_gt_of_ne h1 with h | h
  · have hc : ¬ n y > lim := not_lt.2 h.le
    simp only [if_neg hc]
    refine hf.congr_ev ?_
    filter_upwards [hn.eventually (gt_mem_nhds h)] with z hz
    rw [if_neg (not_lt.2 hz.le)]
  · obtain ⟨hf0, hx0⟩ := h2 h
    have hev : ∀ᶠ z in nhds y, n z > lim ∧ SignType.sign (f z) = SignType.sign (f y) ∧ SignType.sign (x z) = SignType.sign (x y) :=
      (hn.eventually (lt_mem_nhds h)).and ((sign_eventually hf.cont hf0).and (sign_eventually hx hx0))
    simp only [if_pos h]
    by_cases hs : SignType.sign (f y) = SignType.sign (x y)
    · simp only [if_pos hs]
      refine (HasGrad.const 0 y).congr_ev ?_
      filter_upwards [hev] with z hz
      rw [if_pos hz.1, if_pos (by rw [hz.2.1, hz.2.2, hs])]
    · simp only [if_neg hs]
      refine hf.congr_ev ?_
      filter_upwards [hev] with z hz
      rw [if_pos hz.1, if_neg (by rw [hz.2.1, hz.2.2]; exact hs)]

/-- Solve a `HasGrad` goal whose gradient is a metavariable, by structural rules. -/
macro "grad" : tactic =>
  `(tactic| repeat (first
    | assumption
    | exact HasGrad.const _ _
    | exact HasGrad.proj _ _
    | apply HasGrad.add
    | apply HasGrad.sub
    | apply HasGrad.neg
    | apply HasGrad.mul
    | apply HasGrad.div_const))

end Grad
end PvDer
