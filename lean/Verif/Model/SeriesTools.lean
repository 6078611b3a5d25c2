import Verif.Model.Phasor

/-!
# Model of the time-series helpers of `utility_functions.py`
-/

namespace PvDer
namespace SeriesTools

variable {K : Type*} [Field K] [LinearOrder K]

/-- The threshold `y_t[0]-(y_t[0]-y_t[-1])*.63` (utility_functions.py 365, 366); only evaluated for a non-empty series (the head and last defaults are never used). -/
def threshold (ys : List K) : K := ys.headD 0 - (ys.headD 0 - ys.getLastD 0) * (63 / 100)

/-- `find_first_order_time_constant` (utility_functions.py 361-369): the three numbers printed (`none`: nothing is printed); `zip` stops at the shorter list. -/
def timeConstant (ts ys : List K) (te : K) : Option (K × K × K) :=
  ((ts.zip ys).find? fun p => decide (p.2 < threshold ys)).map fun p => (p.1 - te, p.2, threshold ys)

/-- `limit_complex_time_series` (utility_functions.py 300-314): magnitude and angle elementwise, then recombined as `r*cos(phi) + r*sin(phi)*1j`. -/
noncomputable def limitSeries (z : List ℂ) (low high : ℝ) : Except Err (List ℂ) :=
  if low < high then
    .ok (z.map fun x => ((min (max ‖x‖ low) high * Real.cos (Complex.arg x) : ℝ) : ℂ) + ((min (max ‖x‖ low) high * Real.sin (Complex.arg x) : ℝ) : ℂ) * Complex.I)
  else .error .assertionError

end SeriesTools
end PvDer
