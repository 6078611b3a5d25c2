import Mathlib.Algebra.Order.Field.Basic
import Mathlib.Algebra.Order.Group.Abs

/-!
# Model of the current reference ramp limiter (`pvder/DER_utilities.py` 353-401) and of `update_iref`

Complex numbers are pairs (real, imaginary); exact arithmetic.
-/

namespace PvDer
namespace Ramp

variable {K : Type} [Field K] [LinearOrder K]

/-- `math.copysign(x, d)`.  For `d = 0` the sign is `+` (the argument is a difference of equal floats, which IEEE gives as `+0`). -/
def copysign (x d : K) : K := if 0 ≤ d then |x| else -|x|

/-- One component of `get_iref_actual` (DER_utilities.py 384-392 for the real, 385-398 for the imaginary part; both branches of the `if` in 387-390
and 394-397 compute the same expression).  `dt` is `t - self.t_iref`. -/
def comp (dt grad prev cmd : K) : K := prev + copysign (min (|cmd - prev| / dt) grad * dt) (cmd - prev)

/-- `ia_ref` (real, imaginary part) and `t_iref`. -/
structure St (K : Type) where
  refR : K
  refI : K
  tiref : K
  deriving DecidableEq, Repr

/-- What one evaluation of `update_iref` reads: the time, the command (`ia_ref_calc()` or `ia_ref_activepower_control()`) and the present current `ia`. -/
structure Inp (K : Type) where
  t : K
  cmdR : K
  cmdI : K
  iaR : K
  iaI : K
  deriving DecidableEq, Repr

/-- `get_ramp_limited_iref` (DER_utilities.py 353-378); `gR`, `gI` are `iR_ramp_up_max_gradient`, `iI_ramp_up_max_gradient`. -/
def limited (gR gI : K) (s : St K) (i : Inp K) : K × K :=
  if i.t > s.tiref then (comp (i.t - s.tiref) gR s.refR i.cmdR, comp (i.t - s.tiref) gI s.refI i.cmdI)
  else if i.t < s.tiref then (comp (i.t - s.tiref) gR i.iaR i.cmdR, comp (i.t - s.tiref) gI i.iaI i.cmdI)
  else (s.refR, s.refI)

/-- Which model family: does `update_iref` record the evaluation time?  Yes in the three-phase models (DER_components_three_phase.py 242,
…_balanced.py 240, …_constant_Vdc.py 255, …_no_Vrms_filter.py 241, …_numba.py 386), no in the single-phase ones
(DER_components_single_phase.py 195-204, …_constant_Vdc.py 194-202). -/
inductive Family
  | threePhase | singlePhase
  deriving DecidableEq, Repr

/-- `update_iref` (lines above); `lim` is `current_gradient_limiter`. -/
def updateIref (f : Family) (lim : Bool) (gR gI : K) (s : St K) (i : Inp K) : St K :=
  let r := if lim then limited gR gI s i else (i.cmdR, i.cmdI)
  ⟨r.1, r.2, match f with | .threePhase => i.t | .singlePhase => s.tiref⟩

/-- A run of evaluations. -/
def run (f : Family) (lim : Bool) (gR gI : K) (s : St K) (l : List (Inp K)) : St K := l.foldl (updateIref f lim gR gI) s

end Ramp
end PvDer
