import Mathlib.Data.Real.Basic
import Mathlib.Logic.Function.Basic
import Mathlib.Algebra.Order.Group.Abs

/-!
# Model of `check_jacobian` (`pvder/DER_check_and_initialize.py` 833-880)

Simplifications: real instead of floating-point arithmetic; `f` is `ODE_model(·,t)` and `J` is `jac_ODE_model(·,t)`, functions of the state alone (with the features of a constructed instance that is so, C95);
the matrix returned last by `jac_ODE_model` is that of `x0` (C58_history_independent).  `np.float` (842) exists only in NumPy before 1.24; later versions raise `AttributeError` there.
-/

namespace PvDer
namespace JacCheck

variable {V : Type} [DecidableEq V]

/-- `eps = 1e-6` (DER_check_and_initialize.py 839). -/
noncomputable def eps : ℝ := 1 / 1000000

/-- `Jn[r,c]`: central difference; `x1`, `x2` are copies of the list `y0` with one entry changed (DER_check_and_initialize.py 842-852). -/
noncomputable def num (f : (V → ℝ) → V → ℝ) (y : V → ℝ) (r c : V) : ℝ :=
  (f (Function.update y c (y c + eps)) r - f (Function.update y c (y c - eps)) r) / (2 * eps)

/-- An entry of `err` after `err=np.abs(Ja-Jn); err[err<1e-2]=0` (DER_check_and_initialize.py 857-858). -/
noncomputable def err (f : (V → ℝ) → V → ℝ) (J : (V → ℝ) → V → V → ℝ) (y : V → ℝ) (r c : V) : ℝ :=
  if |J y r c - num f y r c| < 1 / 100 then 0 else |J y r c - num f y r c|

/-- The entries printed: `np.where(err>0)` (DER_check_and_initialize.py 859, 867-872). -/
def Reported (f : (V → ℝ) → V → ℝ) (J : (V → ℝ) → V → V → ℝ) (y : V → ℝ) (r c : V) : Prop := err f J y r c > 0

/-- `jac_CHECK`: no entry is printed (DER_check_and_initialize.py 861-875). -/
def Passes (f : (V → ℝ) → V → ℝ) (J : (V → ℝ) → V → V → ℝ) (y : V → ℝ) : Prop := ∀ r c, ¬ Reported f J y r c

end JacCheck
end PvDer
