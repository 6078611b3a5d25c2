import Verif.Model.Ode

/-!
# Model of `DynamicSimulation` (pvder/dynamic_simulation.py): state layout, collection of the solution, loop mode, trajectories

Arrays are lists; exact real and complex arithmetic.  The ODE solver is an input: a function (or a table of rows) with one row per requested time.
-/

namespace PvDer
namespace Sim

open Complex Phasor

/-- `DER_model_type` = class name (dynamic_simulation.py 55; templates.py 8-9). -/
inductive Mt | single | constVdc1 | three | noFilter | numba | balanced | constVdc3
deriving DecidableEq, Repr

/-- `n_ODE` (templates.py 17, 33, 46, 64, 80, 98, 114). -/
def width : Mt → Nat
  | .single => 11 | .constVdc1 => 10 | .three => 24 | .noFilter => 23 | .numba => 23 | .balanced => 11 | .constVdc3 => 22

/-- `templates.three_phase_models` (templates.py 9). -/
def isThree : Mt → Bool
  | .single => false | .constVdc1 => false | _ => true

/-- Attributes of the simulation object holding state trajectories: `iaR` stands for `iaR_t` and so on; `VrmsFilter` is the attribute `Vrms_filter`,
`VrmsFilterT` the attribute `Vrms_filter_t`. -/
inductive At
  | iaR | iaI | xaR | xaI | uaR | uaI | ibR | ibI | xbR | xbI | ubR | ubI | icR | icI | xcR | xcI | ucR | ucI
  | Vdc | xDC | xP | xQ | xPLL | wte | VrmsFilter | VrmsFilterT
deriving DecidableEq, Repr

/-- The attribute dictionary of the simulation object; `[]` for an attribute that has not been set. -/
abbrev Store := At → List ℝ

/-- `solution[:,k]` for one row (numpy raises `IndexError` outside; the theorems assume rows of length `width`). -/
def c (k : Nat) (row : List ℝ) : ℝ := row.getD k 0

/-- Attributes whose last elements form `DynamicSimulation.y0` (dynamic_simulation.py 89-134). -/
def y0Attrs : Mt → List At
  | .three => [.iaR, .iaI, .xaR, .xaI, .uaR, .uaI, .ibR, .ibI, .xbR, .xbI, .ubR, .ubI, .icR, .icI, .xcR, .xcI, .ucR, .ucI,
      .Vdc, .xDC, .xQ, .xPLL, .wte, .VrmsFilter]
  | .noFilter => [.iaR, .iaI, .xaR, .xaI, .uaR, .uaI, .ibR, .ibI, .xbR, .xbI, .ubR, .ubI, .icR, .icI, .xcR, .xcI, .ucR, .ucI,
      .Vdc, .xDC, .xQ, .xPLL, .wte]
  | .single => [.iaR, .iaI, .xaR, .xaI, .uaR, .uaI, .Vdc, .xDC, .xQ, .xPLL, .wte]
  | .constVdc1 => [.iaR, .iaI, .xaR, .xaI, .uaR, .uaI, .xP, .xQ, .xPLL, .wte]
  | .constVdc3 => [.iaR, .iaI, .xaR, .xaI, .uaR, .uaI, .ibR, .ibI, .xbR, .xbI, .ubR, .ubI, .icR, .icI, .xcR, .xcI, .ucR, .ucI,
      .xP, .xQ, .xPLL, .wte]
  | .balanced => [.iaR, .iaI, .xaR, .xaI, .uaR, .uaI, .Vdc, .xDC, .xQ, .xPLL, .wte]
  | .numba => [.iaR, .iaI, .xaR, .xaI, .uaR, .uaI, .ibR, .ibI, .xbR, .xbI, .ubR, .ubI, .icR, .icI, .xcR, .xcI, .ucR, .ucI,
      .Vdc, .xDC, .xQ, .xPLL, .wte]

/-- `DynamicSimulation.y0` (dynamic_simulation.py 85-138); `none` when an array is missing or empty (`AttributeError`, `IndexError`). -/
def simY0 (mt : Mt) (st : Store) : Option (List ℝ) := (y0Attrs mt).mapM (fun a => (st a).getLast?)

/-- Phase a states (dynamic_simulation.py 766-771; also 167-172). -/
def phaseA : At → Option (List ℝ → ℝ)
  | .iaR => some (c 0) | .iaI => some (c 1) | .xaR => some (c 2) | .xaI => some (c 3) | .uaR => some (c 4) | .uaI => some (c 5)
  | _ => none

/-- Phase b and c states of the unbalanced three-phase classes (dynamic_simulation.py 785-798 and 823-836; also 184-196, 207-219). -/
def phaseBC : At → Option (List ℝ → ℝ)
  | .ibR => some (c 6) | .ibI => some (c 7) | .xbR => some (c 8) | .xbI => some (c 9) | .ubR => some (c 10) | .ubI => some (c 11)
  | .icR => some (c 12) | .icI => some (c 13) | .xcR => some (c 14) | .xcI => some (c 15) | .ucR => some (c 16) | .ucI => some (c 17)
  | _ => none

/-- Phase b and c states of the balanced class: rotations of phase a (dynamic_simulation.py 848-874; also 229-255). -/
noncomputable def phaseRot : At → Option (List ℝ → ℝ)
  | .ibR => some fun r => (ub ⟨c 0 r, c 1 r⟩).re | .ibI => some fun r => (ub ⟨c 0 r, c 1 r⟩).im
  | .xbR => some fun r => (ub ⟨c 2 r, c 3 r⟩).re | .xbI => some fun r => (ub ⟨c 2 r, c 3 r⟩).im
  | .ubR => some fun r => (ub ⟨c 4 r, c 5 r⟩).re | .ubI => some fun r => (ub ⟨c 4 r, c 5 r⟩).im
  | .icR => some fun r => (uc ⟨c 0 r, c 1 r⟩).re | .icI => some fun r => (uc ⟨c 0 r, c 1 r⟩).im
  | .xcR => some fun r => (uc ⟨c 2 r, c 3 r⟩).re | .xcI => some fun r => (uc ⟨c 2 r, c 3 r⟩).im
  | .ucR => some fun r => (uc ⟨c 4 r, c 5 r⟩).re | .ucI => some fun r => (uc ⟨c 4 r, c 5 r⟩).im
  | _ => none

/-- The remaining states (dynamic_simulation.py 773-781, 800-812, 814-821, 838-844, 876-883); `v` is `DER_model.Vdc` of the constant-Vdc classes. -/
def scalars (v : ℝ) : Mt → At → Option (List ℝ → ℝ)
  | .single, .Vdc => some (c 6) | .single, .xDC => some (c 7) | .single, .xQ => some (c 8) | .single, .xPLL => some (c 9) | .single, .wte => some (c 10)
  | .balanced, .Vdc => some (c 6) | .balanced, .xDC => some (c 7) | .balanced, .xQ => some (c 8) | .balanced, .xPLL => some (c 9)
  | .balanced, .wte => some (c 10)
  | .constVdc1, .Vdc => some fun _ => v | .constVdc1, .xP => some (c 6) | .constVdc1, .xQ => some (c 7) | .constVdc1, .xPLL => some (c 8)
  | .constVdc1, .wte => some (c 9)
  | .constVdc3, .Vdc => some fun _ => v | .constVdc3, .xP => some (c 18) | .constVdc3, .xQ => some (c 19) | .constVdc3, .xPLL => some (c 20)
  | .constVdc3, .wte => some (c 21)
  | .three, .Vdc => some (c 18) | .three, .xDC => some (c 19) | .three, .xQ => some (c 20) | .three, .xPLL => some (c 21) | .three, .wte => some (c 22)
  | .three, .VrmsFilterT => some (c 23)
  | .noFilter, .Vdc => some (c 18) | .noFilter, .xDC => some (c 19) | .noFilter, .xQ => some (c 20) | .noFilter, .xPLL => some (c 21)
  | .noFilter, .wte => some (c 22)
  | .numba, .Vdc => some (c 18) | .numba, .xDC => some (c 19) | .numba, .xQ => some (c 20) | .numba, .xPLL => some (c 21) | .numba, .wte => some (c 22)
  | _, _ => none

/-- What `collect_states` assigns (dynamic_simulation.py 762-885): attribute ↦ function of a solution row. -/
noncomputable def collectTab (v : ℝ) (mt : Mt) (a : At) : Option (List ℝ → ℝ) :=
  (phaseA a).or ((match mt with
    | .three | .noFilter | .numba | .constVdc3 => phaseBC a
    | .balanced => phaseRot a
    | .single | .constVdc1 => none).or (scalars v mt a))

/-- `collect_states(solution)` (dynamic_simulation.py 762-885). -/
noncomputable def collectStates (v : ℝ) (mt : Mt) (sol : List (List ℝ)) (st : Store) : Store := fun a =>
  match collectTab v mt a with
  | some f => sol.map f
  | none => st a

/-- What `initialize_y0_t` assigns (dynamic_simulation.py 164-270): as `collect_states`, but the filtered RMS voltage goes to `Vrms_filter` (201). -/
noncomputable def initTab (v : ℝ) (mt : Mt) (a : At) : Option (List ℝ → ℝ) :=
  match mt, a with
  | .three, .VrmsFilterT => none
  | .three, .VrmsFilter => some (c 23)
  | mt, a => collectTab v mt a

/-- `initialize_y0_t()` (dynamic_simulation.py 164-270) with `y0 = DER_model.y0`. -/
noncomputable def initY0 (v : ℝ) (mt : Mt) (y0 : List ℝ) (st : Store) : Store := fun a =>
  match initTab v mt a with
  | some f => [f y0]
  | none => st a

/-! ## Trajectories -/

/-- Trajectory attributes: `ia` stands for `ia_t`, `maAbs` for `ma_absolute_t`, … -/
inductive Tr
  | Vdc | ia | ma | vta | va | maAbs | Varms | mbAbs | mcAbs | Vbrms | Vcrms | ib | mb | vtb | vb | ic | mc | vtc | vc
  | Irms | Vtrms | Vrms | VrmsFilter | Ppv | S | SPCC
deriving DecidableEq, Repr

/-- Trajectories appended to by `collect_last_states` (dynamic_simulation.py 663-703). -/
def stored (mt : Mt) : List Tr :=
  [.Vdc, .ia, .ma, .vta, .va, .maAbs, .Varms] ++
  (if isThree mt then [.mbAbs, .mcAbs, .Vbrms, .Vcrms, .ib, .mb, .vtb, .vb, .ic, .mc, .vtc, .vc] else []) ++
  [.Irms, .Vtrms, .Vrms] ++ (if mt = .three then [.VrmsFilter] else []) ++ [.Ppv, .S, .SPCC]

/-- Trajectories overwritten by `invert_arrays` (dynamic_simulation.py 886-928). -/
def inverted (mt : Mt) : List Tr :=
  [.Vdc, .ia, .ma, .vta, .va, .maAbs, .Varms] ++
  (if isThree mt then [.mbAbs, .mcAbs, .Vbrms, .Vcrms, .ib, .mb, .vtb, .vb, .ic, .mc, .vtc, .vc] else []) ++
  [.Vtrms, .Vrms, .Irms, .Ppv, .S, .SPCC] ++ (if mt = .three then [.VrmsFilter] else [])

/-- Keys of the dictionary returned by `get_trajectories` (dynamic_simulation.py 1011-1022). -/
def dictKeys (mt : Mt) : List Tr :=
  [.ia, .ma, .Vdc, .vta, .va, .Irms, .Vtrms, .Vrms, .Ppv, .S, .SPCC] ++
  (if isThree mt then [.ib, .ic, .mb, .mc, .vtb, .vtc, .vb, .vc] else []) ++ (if mt = .three then [.VrmsFilter] else [])

/-- Quantities read from the DER model when a solution is collected: gain, constant DC voltage, measured PCC voltages (not stand-alone), and the PV power at a
time for a DC voltage (the schedule look-up of `time_series_Ppv`, dynamic_simulation.py 583-600, is an input function here). -/
structure Ctx where
  Kp_GCC : ℝ
  v : ℝ
  vA : ℂ
  vB : ℂ
  vC : ℂ
  ppv : ℝ → ℝ → ℝ

/-- Value of one state attribute at a row (0 if the class has no such state). -/
noncomputable def at_ (x : Ctx) (mt : Mt) (a : At) (row : List ℝ) : ℝ := match collectTab x.v mt a with | some f => f row | none => 0

/-- `ia_t`, `xa_t`, `ua_t`, … from real and imaginary parts (dynamic_simulation.py 714-734). -/
noncomputable def cx (x : Ctx) (mt : Mt) (a b : At) (row : List ℝ) : ℂ := at_ x mt a row + I * at_ x mt b row

/-- `m_time_series` (utility_functions.py 261-267) for each phase (dynamic_simulation.py 383-394). -/
noncomputable def mOf (x : Ctx) (mt : Mt) (uR uI xR xI : At) (row : List ℝ) : ℂ := x.Kp_GCC * cx x mt uR uI row + cx x mt xR xI row

/-- `Vinv_terminal_time_series` (utility_functions.py 253-259). -/
noncomputable def vtSer (x : Ctx) (mt : Mt) (uR uI xR xI : At) (row : List ℝ) : ℂ := mOf x mt uR uI xR xI row * ((at_ x mt .Vdc row / 2 : ℝ) : ℂ)

/-- One point of each trajectory computed by `collect_full_trajectory` when not stand-alone (dynamic_simulation.py 706-760 and the `time_series_*` methods
381-480, 583-620): `time_series_duty_cycle`, `time_series_inv_terminal_voltage` (dynamic_simulation.py 441-449), `time_series_PCC_LV_side_voltage`, `time_series_S`, `time_series_RMS`,
`time_series_Ppv`. -/
noncomputable def point (x : Ctx) (mt : Mt) (t : ℝ) (row : List ℝ) : Tr → ℂ
  | .Vdc => (at_ x mt .Vdc row : ℂ)
  | .ia => cx x mt .iaR .iaI row
  | .ib => cx x mt .ibR .ibI row
  | .ic => cx x mt .icR .icI row
  | .ma => mOf x mt .uaR .uaI .xaR .xaI row
  | .mb => mOf x mt .ubR .ubI .xbR .xbI row
  | .mc => mOf x mt .ucR .ucI .xcR .xcI row
  | .vta => vtSer x mt .uaR .uaI .xaR .xaI row
  | .vtb => vtSer x mt .ubR .ubI .xbR .xbI row
  | .vtc => vtSer x mt .ucR .ucI .xcR .xcI row
  | .va => x.vA
  | .vb => x.vB
  | .vc => x.vC
  | .maAbs => (‖mOf x mt .uaR .uaI .xaR .xaI row‖ : ℂ)
  | .mbAbs => (‖mOf x mt .ubR .ubI .xbR .xbI row‖ : ℂ)
  | .mcAbs => (‖mOf x mt .ucR .ucI .xcR .xcI row‖ : ℂ)
  | .Varms => if isThree mt then (urms1 x.vA : ℂ) else (urms x.vA x.vA x.vA : ℂ)
  | .Vbrms => (urms1 x.vB : ℂ)
  | .Vcrms => (urms1 x.vC : ℂ)
  | .Irms => if isThree mt then (urms (cx x mt .iaR .iaI row) (cx x mt .ibR .ibI row) (cx x mt .icR .icI row) : ℂ)
      else (urms (cx x mt .iaR .iaI row) (cx x mt .iaR .iaI row) (cx x mt .iaR .iaI row) : ℂ)
  | .Vtrms => if isThree mt then
      (urms (vtSer x mt .uaR .uaI .xaR .xaI row) (vtSer x mt .ubR .ubI .xbR .xbI row) (vtSer x mt .ucR .ucI .xcR .xcI row) : ℂ)
      else (urms (vtSer x mt .uaR .uaI .xaR .xaI row) (vtSer x mt .uaR .uaI .xaR .xaI row) (vtSer x mt .uaR .uaI .xaR .xaI row) : ℂ)
  | .Vrms => if isThree mt then (urms x.vA x.vB x.vC : ℂ) else (urms x.vA x.vA x.vA : ℂ)
  | .VrmsFilter => (at_ x mt .VrmsFilterT row : ℂ)
  | .Ppv => (x.ppv t (at_ x mt .Vdc row) : ℂ)
  | .S => if isThree mt then
      (1 / 2) * (vtSer x mt .uaR .uaI .xaR .xaI row * (starRingEnd ℂ) (cx x mt .iaR .iaI row)
        + vtSer x mt .ubR .ubI .xbR .xbI row * (starRingEnd ℂ) (cx x mt .ibR .ibI row)
        + vtSer x mt .ucR .ucI .xcR .xcI row * (starRingEnd ℂ) (cx x mt .icR .icI row))
      else (1 / 2) * (vtSer x mt .uaR .uaI .xaR .xaI row * (starRingEnd ℂ) (cx x mt .iaR .iaI row))
  | .SPCC => if isThree mt then
      (1 / 2) * (x.vA * (starRingEnd ℂ) (cx x mt .iaR .iaI row) + x.vB * (starRingEnd ℂ) (cx x mt .ibR .ibI row)
        + x.vC * (starRingEnd ℂ) (cx x mt .icR .icI row))
      else (1 / 2) * (x.vA * (starRingEnd ℂ) (cx x mt .iaR .iaI row))

/-- The trajectories of one solution (one value per time point). -/
noncomputable def series (x : Ctx) (mt : Mt) (ts : List ℝ) (rows : List (List ℝ)) (k : Tr) : List ℂ := List.zipWith (fun t r => point x mt t r k) ts rows

/-- The simulation object in loop mode. -/
structure St where
  /-- state arrays `iaR_t`, … -/
  st : Store
  /-- trajectory arrays `ia_t`, … -/
  tr : Tr → List ℂ
  /-- accumulated arrays `_ia_t`, … -/
  acc : Tr → List ℂ
  /-- `t_t` -/
  tt : List ℝ
  /-- `_t_t` -/
  accT : List ℝ
  /-- the accumulated arrays still are the 0-dimensional arrays made by `np.array(scalar)`, on which `len` raises `TypeError` -/
  unsized : Bool

/-- `reset_stored_trajectories(); initialize_y0_t()` at construction in loop mode (dynamic_simulation.py 76-78, 272-318): one value per trajectory, taken from
the DER model; `m0` gives those values. -/
noncomputable def init (v : ℝ) (mt : Mt) (y0 : List ℝ) (m0 : Tr → ℂ) : St :=
  { st := initY0 v mt y0 (fun _ => []), tr := fun k => [m0 k], acc := fun k => [m0 k], tt := [], accT := [0], unsized := true }

/-- `collect_simulation_results` in loop mode (dynamic_simulation.py 648-660) or, if `collectSolution` is false, `collect_states` only (972-975). -/
noncomputable def collect (coll : Bool) (mt : Mt) (x : Ctx) (ts : List ℝ) (rows : List (List ℝ)) (s : St) : St :=
  if coll then
    { st := collectStates x.v mt rows s.st
      tr := series x mt ts rows
      acc := fun k => if k ∈ stored mt then s.acc k ++ (series x mt ts rows k).drop 1 else s.acc k
      tt := ts
      accT := s.accT ++ ts.drop 1
      unsized := false }
  else { s with st := collectStates x.v mt rows s.st }

/-- `invert_arrays` (dynamic_simulation.py 886-928). The state array `Vdc_t` is the same attribute as the trajectory `Vdc_t`; being real, its complex copy is
projected. -/
noncomputable def invert (mt : Mt) (s : St) : St :=
  { s with
    st := fun a => if a = .Vdc then (s.acc .Vdc).map Complex.re else if a = .VrmsFilterT ∧ mt = .three then (s.acc .VrmsFilter).map Complex.re else s.st a
    tr := fun k => if k ∈ inverted mt then s.acc k else s.tr k
    tt := s.accT }

/-- `get_trajectories` in loop mode (dynamic_simulation.py 1006-1028): the new state and the dictionary or the exception. -/
noncomputable def getTraj (mt : Mt) (s : St) : St × Except Err (List (Tr × List ℂ)) :=
  let s' := invert mt s
  (s', if s.unsized then .error .typeError
       else if (dictKeys mt).all (fun k => (s'.tr k).length == s'.tt.length) then .ok ((dictKeys mt).map fun k => (k, s'.tr k))
       else .error .assertionError)

/-- An ODE solver: initial state and times to rows (`call_ODE_solver`, simulation_utilities.py 369-405, with `odeint`). -/
abbrev Solver := List ℝ → List ℝ → List (List ℝ)

/-- One loop-mode call by a user who passes `y0 = sim.y0` (dynamic_simulation.py 931-947, 970-975); `none` if `y0` is not available. -/
noncomputable def step (coll : Bool) (mt : Mt) (x : Ctx) (sv : Solver) (ts : List ℝ) (s : St) : Option St :=
  (simY0 mt s.st).map fun y => collect coll mt x ts (sv y ts) s

/-! ## Stand-alone time series -/

/-- `time_series_PCC_LV_side_voltage` in stand-alone mode, one phase at one time point (dynamic_simulation.py 405-425). -/
noncomputable def vLVser (vg i : ℂ) (a : ℝ) (Z1 Z2 ZL : ℂ) : ℂ := ((vg + (i / a) * Z2) / a + i * Z1) * ((ZL * a * a) / ((a * a * (Z1 + ZL)) + Z2))

/-- `time_series_PCC_HV_side_voltage`, one phase (dynamic_simulation.py 370-378). -/
noncomputable def vHVser (vg i v : ℂ) (a : ℝ) (Z2 ZL : ℂ) : ℂ := vg + (i / a) * Z2 - (v / a) * (Z2 / ZL)

/-- `S_G_t` of the single-phase classes (dynamic_simulation.py 602). -/
noncomputable def sGser1 (va ia vag ZL : ℂ) (a : ℝ) : ℂ := (1 / 2) * (starRingEnd ℂ) (-(ia - (va / ZL)) / a) * vag

/-- `S_G_t` of the three-phase classes (dynamic_simulation.py 610): the factor 1/2 multiplies only the first phase. -/
noncomputable def sGser3 (va vb vc ia ib ic vag vbg vcg ZL : ℂ) (a : ℝ) : ℂ :=
  (1 / 2) * (starRingEnd ℂ) (-(ia - (va / ZL)) / a) * vag + (starRingEnd ℂ) (-(ib - (vb / ZL)) / a) * vbg + (starRingEnd ℂ) (-(ic - (vc / ZL)) / a) * vcg

/-- `S_load1_t` of the three-phase classes (dynamic_simulation.py 611). -/
noncomputable def sLoadSer3 (va vb vc ZL : ℂ) : ℂ :=
  (1 / 2) * (va * (starRingEnd ℂ) (-(va / ZL)) + vb * (starRingEnd ℂ) (-(vb / ZL)) + vc * (starRingEnd ℂ) (-(vc / ZL)))

/-- `S_G_calc` of the three-phase classes (DER_components_three_phase.py 101-106). -/
noncomputable def sG3 (va vb vc ia ib ic vag vbg vcg ZL : ℂ) (a : ℝ) : ℂ :=
  (1 / 2) * ((starRingEnd ℂ) (-(ia - (va / ZL)) / a) * vag + (starRingEnd ℂ) (-(ib - (vb / ZL)) / a) * vbg + (starRingEnd ℂ) (-(ic - (vc / ZL)) / a) * vcg)

/-! ## Arguments of `run_simulation` in loop mode -/

/-- A dynamically typed argument: what the `isinstance` tests distinguish. -/
inductive Arg (α : Type) | val (a : α) | other
deriving DecidableEq, Repr

/-- `update_grid_measurements` (dynamic_simulation.py 980-996): new phase voltages of the DER model. -/
noncomputable def measure (mt : Mt) (a : ℂ) (b cc : Option ℂ) (old : ℂ × Option ℂ × Option ℂ) : ℂ × Option ℂ × Option ℂ :=
  match mt with
  | .three | .noFilter | .numba | .constVdc3 => (a, b, cc)
  | .balanced => (a, some (ub a), some (uc a))
  | .single | .constVdc1 => (a, old.2.1, old.2.2)

/-- The guard of `run_simulation` in loop mode (dynamic_simulation.py 937-940). -/
noncomputable def loopArgs (mt : Mt) (a : Arg ℂ) (b cc : Option ℂ) (y0 : Arg (List ℝ)) (t : Arg (List ℝ)) (old : ℂ × Option ℂ × Option ℂ) :
    Except Err (ℂ × Option ℂ × Option ℂ) :=
  match a, y0, t with
  | .val a, .val _, .val _ => .ok (measure mt a b cc old)
  | _, _, _ => .error .valueError

/-! ## Time grid -/

/-- `t_calc` (dynamic_simulation.py 142-150): `np.arange(tStart, tStop+tInc, tInc)` = `tStart + k*tInc` for `k < ceil((stop-start)/step)`. -/
noncomputable def tGrid (tStart tStop tInc : ℝ) : List ℝ := (List.range ⌈(tStop + tInc - tStart) / tInc⌉₊).map fun k : Nat => tStart + (k : ℝ) * tInc

end Sim
end PvDer
