import Verif.Model.Circuit
import Verif.Model.Eval
import Verif.Model.RTInit
/-!
`PVModule.__init__` and `fit_MPP_poly` (DER_components.py 322-338, 377-401): the insolation, temperature and photocurrent a DER has after construction, and the polynomial for the
maximum power point.
-/
namespace PvDer
namespace PvModule

/-- What the constructor of the module part depends on besides its argument: `MPPT_ENABLE` (DER_utilities.py 38), `USE_POLYNOMIAL_MPP` (DER_components.py 299), the voltage `fsolve`
returns for an insolation and a temperature (`Vdcmpp`, 340-351) and `np.polyfit(·, ·, 3)`. The last two are arbitrary functions here. -/
structure Mpp where
  mppt : Bool
  poly : Bool
  root : ℝ → ℝ → ℝ
  fit : List (ℝ × ℝ) → List ℝ

/-- `Sinsol`, `Tactual`, `Iph` and `z` (`none`: not set). -/
structure St where
  Sinsol : ℝ
  Tactual : ℝ
  Iph : ℝ
  z : Option (List ℝ)

/-- `np.linspace(a, b, n + 1)`. -/
noncomputable def linspace (a b : ℝ) (n : ℕ) : List ℝ := (List.range (n + 1)).map fun i : ℕ => a + (b - a) / n * i

/-- One turn of the loop (387-394): `Vdcmpp` recomputes `Iph`, the sample is recorded. The power `Ppvmpp` is computed but not used. -/
noncomputable def sample (m : PV.Mod) (o : Mpp) (a : St × List (ℝ × ℝ)) (S : ℝ) : St × List (ℝ × ℝ) :=
  ({ a.1 with Sinsol := S, Iph := PV.iph m S a.1.Tactual }, a.2 ++ [(S, o.root S a.1.Tactual)])

/-- `fit_MPP_poly` (377-401): `_MPP_fit_points` is 10, `_S_min` 10 and `_S_max` 100 (300-304). -/
noncomputable def fitPoly (m : PV.Mod) (o : Mpp) (s : St) : St :=
  let r := (linspace 10 100 10).foldl (sample m o) ({ s with Tactual := 29815 / 100 }, [])
  { r.1 with z := some (o.fit r.2) }

/-- `PVModule.__init__` (322-338); `defaults.Tactual` is 298.15 (defaults.py 16). `Iph` is set at the end only; its value before is irrelevant (0 here). -/
noncomputable def create (m : PV.Mod) (o : Mpp) (Sinsol : ℝ) : St :=
  let s : St := ⟨Sinsol, 29815 / 100, 0, none⟩
  let s1 := if o.mppt && o.poly then fitPoly m o s else s
  { s1 with Iph := PV.iph m s1.Sinsol s1.Tactual }

/-- The constructors pass the option `Sinsol` of the completed configuration (e.g. DER_components_three_phase.py 54). -/
noncomputable def createFrom (m : PV.Mod) (o : Mpp) (d : Config.Design) : Except Err St :=
  match Config.number d "basic_options" "Sinsol" with
  | .ok q => .ok (create m o q)
  | .error e => .error e

/-- A DER with these attributes, otherwise as `h`. -/
def St.on (s : St) (h : Eval.Hid) : Eval.Hid := { h with Sinsol := s.Sinsol, Tactual := s.Tactual, Iph := s.Iph }

end PvModule
end PvDer
