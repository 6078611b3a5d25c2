import Verif.Model.Ode
import Verif.Model.Grid
import Verif.Model.VdcRef
import Verif.Model.VoltVar
import Verif.Model.Ramp
import Verif.Model.FreqEst
import Verif.Model.RideThrough
import Mathlib.Algebra.Order.Archimedean.Real.Basic

/-!
# One whole evaluation: `DynamicSimulation.ODE_model` / `jac_ODE_model` as a function on the hidden state

The solver calls `ODE_model(y,t)` (and `jac_ODE_model(y,t)`) with a state vector and a time; both methods also read and write attributes of the DER, of the grid
and of the events object.  This file puts the sub-models together in the order of the code (dynamic_simulation.py 321-347; DER_components_three_phase.py 264-291,
462-492 and the same lines of the other classes): grid source, solar events and PV power, load (not in the Jacobian), voltages and powers, reactive power
reference, DC voltage reference, current reference, PLL, ride-through flags, connection logic; then derivatives from the resulting attributes.

Simplifications: exact arithmetic; printing is dropped except for the call of `S_load1_calc` in a message, which can fail; `set_Vdc_ref()` (used when the DC
voltage is restored) is the constant `vdcTarget`; attributes that nothing else reads (load current, grid power, RMS of the terminal voltage) are dropped.
-/

namespace PvDer
namespace Eval

open Complex Phasor Ode

/-- What distinguishes the seven model classes in an evaluation. -/
structure Cls where
  V : Type
  /-- phase currents in the state vector -/
  cur : (V → ℝ) → ℂ × ℂ × ℂ
  /-- `Vrms_filter` as part of the state vector (only `SolarPVDERThreePhase`) -/
  filt : (V → ℝ) → Option ℝ
  /-- attributes after the update calls (`Model/Ode.lean`) -/
  env : Par → Ode.Inp → (V → ℝ) → Env
  rhs : Env → V → ℝ
  fam : Ramp.Family
  /-- `Vrms_min` is the smallest phase voltage (else equal to `Vrms`: DER_components_single_phase.py 172, …_balanced.py 197) -/
  minPhases : Bool
  /-- `update_Ppv` uses the stored photocurrent (DER_components_three_phase_numba.py 310), else `Ppv_calc` recomputes it (DER_components.py 369) -/
  cachedIph : Bool
  /-- the class has a method `S_load1_calc` (the numba class has not) -/
  loadMsg : Bool
  /-- `update_Vdc_ref` is called (not in the constant-Vdc classes) -/
  dcRef : Bool
  /-- one value of `Vdc_t`: the state, or the constant of the constant-Vdc classes (dynamic_simulation.py 774, 801, 815, 838, 877) -/
  vdc : (V → ℝ) → ℝ → ℝ
  /-- state attributes of the DER after the collection of a solution whose last row is the second argument: `Vdc` (`time_series_Ppv`, dynamic_simulation.py 582)
  and, if the first argument (stand-alone) is true, `wte` and `xPLL` (`time_series_PLL`, 526-527) -/
  touch : Bool → (V → ℝ) → (V → ℝ) → V → ℝ
  /-- one value of `wte_t` and `xPLL_t` -/
  pllSt : (V → ℝ) → ℝ × ℝ

/-- `SolarPVDERSinglePhase` (DER_components_single_phase.py 134-258). -/
noncomputable def single : Cls :=
  { V := SinglePhase.V, cur := fun y => (⟨y .iaR, y .iaI⟩, 0, 0), filt := fun _ => none, env := env1, rhs := SinglePhase.rhs, fam := .singlePhase,
    minPhases := false, cachedIph := false, loadMsg := true, dcRef := true,
    vdc := fun y _ => y .Vdc, touch := fun sa r y v => match v with | .Vdc => r .Vdc | .wte => if sa then r .wte else y .wte | .xPLL => if sa then r .xPLL else y .xPLL | v => y v,
    pllSt := fun y => (y .wte, y .xPLL) }
/-- `SolarPVDERThreePhase` (DER_components_three_phase.py 149-291). -/
noncomputable def three : Cls :=
  { V := ThreePhase.V, cur := fun y => (⟨y .iaR, y .iaI⟩, ⟨y .ibR, y .ibI⟩, ⟨y .icR, y .icI⟩), filt := fun y => some (y .Vrms), env := envT,
    rhs := ThreePhase.rhs, fam := .threePhase, minPhases := true, cachedIph := false, loadMsg := true, dcRef := true,
    vdc := fun y _ => y .Vdc, touch := fun sa r y v => match v with | .Vdc => r .Vdc | .wte => if sa then r .wte else y .wte | .xPLL => if sa then r .xPLL else y .xPLL | v => y v,
    pllSt := fun y => (y .wte, y .xPLL) }
/-- `SolarPVDERThreePhaseNoVrmsFilter` (DER_components_three_phase_no_Vrms_filter.py 148-290). -/
noncomputable def noFilter : Cls :=
  { V := ThreePhaseNoVrmsFilter.V, cur := fun y => (⟨y .iaR, y .iaI⟩, ⟨y .ibR, y .ibI⟩, ⟨y .icR, y .icI⟩), filt := fun _ => none, env := envN,
    rhs := ThreePhaseNoVrmsFilter.rhs, fam := .threePhase, minPhases := true, cachedIph := false, loadMsg := true, dcRef := true,
    vdc := fun y _ => y .Vdc, touch := fun sa r y v => match v with | .Vdc => r .Vdc | .wte => if sa then r .wte else y .wte | .xPLL => if sa then r .xPLL else y .xPLL | v => y v,
    pllSt := fun y => (y .wte, y .xPLL) }
/-- `SolarPVDERThreePhaseNumba` (DER_components_three_phase_numba.py 299-441). -/
noncomputable def numba : Cls :=
  { V := ThreePhaseNumba.V, cur := fun y => (⟨y .iaR, y .iaI⟩, ⟨y .ibR, y .ibI⟩, ⟨y .icR, y .icI⟩), filt := fun _ => none, env := envNumba,
    rhs := ThreePhaseNumba.rhs, fam := .threePhase, minPhases := true, cachedIph := true, loadMsg := false, dcRef := true,
    vdc := fun y _ => y .Vdc, touch := fun sa r y v => match v with | .Vdc => r .Vdc | .wte => if sa then r .wte else y .wte | .xPLL => if sa then r .xPLL else y .xPLL | v => y v,
    pllSt := fun y => (y .wte, y .xPLL) }
/-- `SolarPVDERThreePhaseBalanced` (DER_components_three_phase_balanced.py 151-293). -/
noncomputable def balanced : Cls :=
  { V := ThreePhaseBalanced.V, cur := fun y => (⟨y .iaR, y .iaI⟩, ub ⟨y .iaR, y .iaI⟩, uc ⟨y .iaR, y .iaI⟩), filt := fun _ => none, env := envB,
    rhs := ThreePhaseBalanced.rhs, fam := .threePhase, minPhases := false, cachedIph := false, loadMsg := true, dcRef := true,
    vdc := fun y _ => y .Vdc, touch := fun sa r y v => match v with | .Vdc => r .Vdc | .wte => if sa then r .wte else y .wte | .xPLL => if sa then r .xPLL else y .xPLL | v => y v,
    pllSt := fun y => (y .wte, y .xPLL) }
/-- `SolarPVDERSinglePhaseConstantVdc` (DER_components_single_phase_constant_Vdc.py 127-258). -/
noncomputable def single0 : Cls :=
  { V := SinglePhaseConstantVdc.V, cur := fun y => (⟨y .iaR, y .iaI⟩, 0, 0), filt := fun _ => none, env := envC1, rhs := SinglePhaseConstantVdc.rhs,
    fam := .singlePhase, minPhases := false, cachedIph := false, loadMsg := true, dcRef := false,
    vdc := fun _ v => v, touch := fun sa r y v => match v with | .wte => if sa then r .wte else y .wte | .xPLL => if sa then r .xPLL else y .xPLL | v => y v,
    pllSt := fun y => (y .wte, y .xPLL) }
/-- `SolarPVDERThreePhaseConstantVdc` (DER_components_three_phase_constant_Vdc.py 151-311). -/
noncomputable def three0 : Cls :=
  { V := ThreePhaseConstantVdc.V, cur := fun y => (⟨y .iaR, y .iaI⟩, ⟨y .ibR, y .ibI⟩, ⟨y .icR, y .icI⟩), filt := fun _ => none, env := envC3,
    rhs := ThreePhaseConstantVdc.rhs, fam := .threePhase, minPhases := true, cachedIph := false, loadMsg := true, dcRef := false,
    vdc := fun _ v => v, touch := fun sa r y v => match v with | .wte => if sa then r .wte else y .wte | .xPLL => if sa then r .xPLL else y .xPLL | v => y v,
    pllSt := fun y => (y .wte, y .xPLL) }

/-- `Vrms_measurement_type` (DER_features.py 413-427). -/
inductive Meas
  | minimum | average | filtered | invalid
  deriving DecidableEq, Repr

/-- Constants of the run. -/
structure SCfg where
  p : Par
  evc : Events.Cfg ℝ
  sp : Events.EvSpec ℝ
  standAlone : Bool
  /-- transformer ratio, transformer and line impedance, `Zbase` -/
  a : ℝ
  Z1 : ℂ
  Z2 : ℂ
  Zbase : ℝ
  useEst : Bool
  dtEst : ℝ
  qExternal : Bool
  Snom : ℝ
  nPhases : ℝ
  Xf : ℝ
  limiter : Bool
  gR : ℝ
  gI : ℝ
  meas : Meas
  vdcCfg : VdcRef.Cfg ℝ
  vdcTarget : ℝ
  Vdc0 : ℝ
  tStable : ℝ
  Vref : ℝ
  discDelay : ℝ
  recoDelay : ℝ
  restoreVdc : Bool
  delF : ℝ

/-- Settings of the ride-through model; the ramp is `Vdc_ref_ramp(t, set_Vdc_ref()*Vbase)` (DER_features.py 277). -/
noncomputable def SCfg.rt (g : SCfg) : RT.Cfg ℝ (VdcRef.St ℝ) :=
  ⟨g.tStable, g.Vref, g.discDelay, g.recoDelay, g.restoreVdc, g.delF, fun t w => VdcRef.ramp g.vdcCfg w t g.vdcTarget⟩

/-- Attributes that survive an evaluation. `rt.refs` holds the references `Q_ref`, `Vdc_ref`, `ia_ref`…; `rt.w` the DC reference list. -/
structure Hid where
  ev : Events.St ℝ
  grid : Grid.GSt
  Sinsol : ℝ
  Tactual : ℝ
  Iph : ℝ
  Zload1 : ℂ
  vvT : ℝ
  vvActive : Bool
  tiref : ℝ
  fe : FreqEst.St
  /-- `Vrms_filter` attribute (`none`: not set) -/
  filt : Option ℝ
  rt : RT.St ℝ (VdcRef.St ℝ)

/-- One call by the solver: which method, the state vector, the time, and the voltages and frequency supplied from outside (loop mode). -/
structure Call (k : Cls) where
  jac : Bool
  y : k.V → ℝ
  t : ℝ
  va : ℂ
  vb : ℂ
  vc : ℂ
  w : ℝ

/-- Sequential composition: an exception ends the evaluation, changes made so far persist. -/
def andThen {α β : Type} (r : Hid × Except Err α) (f : α → Hid → Hid × Except Err β) : Hid × Except Err β :=
  match r with
  | (h, .ok a) => f a h
  | (h, .error e) => (h, .error e)

/-- `grid_model.steady_state_model(t)` in stand-alone mode (dynamic_simulation.py 325-326, 341-342). -/
noncomputable def gridStage (g : SCfg) (t : ℝ) (h : Hid) : Hid × Except Err Unit :=
  if g.standAlone then
    ({ h with ev := (Grid.steadyState g.evc g.sp (h.ev, h.grid) t).1.1, grid := (Grid.steadyState g.evc g.sp (h.ev, h.grid) t).1.2 },
      (Grid.steadyState g.evc g.sp (h.ev, h.grid) t).2)
  else (h, .ok ())

/-- `update_inverter_states` as far as it changes hidden attributes: `Vrms_filter` (DER_components_three_phase.py 170). -/
def stateStage (k : Cls) (y : k.V → ℝ) (h : Hid) : Hid := { h with filt := match k.filt y with | some v => some v | none => h.filt }

open Classical in
/-- First part of `update_Ppv` (DER_utilities.py 298-303, DER_components_three_phase_numba.py 303-308); the condition `abs(a) or abs(b) > 0.0`. -/
noncomputable def solarStage (k : Cls) (g : SCfg) (t : ℝ) (h : Hid) : Hid × Except Err Unit :=
  match Events.solarEvents g.sp h.ev t with
  | (ev, .error e) => ({ h with ev := ev }, .error e)
  | (ev, .ok v) =>
    let h1 : Hid := { h with ev := ev }
    let h2 : Hid := if |h.Sinsol - v.Sinsol| ≠ 0 ∨ |h.Tactual - v.Tactual| > 0 then
        { h1 with Sinsol := v.Sinsol, Tactual := v.Tactual, Iph := PV.iph g.p.mod v.Sinsol v.Tactual } else h1
    (if k.cachedIph then h2 else { h2 with Iph := PV.iph g.p.mod h2.Sinsol h2.Tactual }, .ok ())

open Classical in
/-- `update_Zload1` (DER_utilities.py 332-343): the message calls `S_load1_calc`; not called by the Jacobian code. -/
noncomputable def loadStage (k : Cls) (g : SCfg) (jac : Bool) (t : ℝ) (h : Hid) : Hid × Except Err Unit :=
  if g.standAlone ∧ jac = false then
    match Events.loadEvents h.ev t with
    | (ev, .error e) => ({ h with ev := ev }, .error e)
    | (ev, .ok v) =>
      let Z : ℂ := (⟨v.Zre, v.Zim⟩ : ℂ) / g.Zbase
      if ‖h.Zload1 - Z‖ > 0 then ({ h with ev := ev, Zload1 := Z }, if k.loadMsg then .ok () else .error .attributeError)
      else ({ h with ev := ev }, .ok ())
  else (h, .ok ())

/-- Voltages and other inputs of the evaluation as far as known after `update_Zload1`; `Vdc_ref`, `Q_ref`, frequency filled in by the caller
(`update_voltages`: DER_utilities.py 189-231). -/
noncomputable def inp (k : Cls) (g : SCfg) (c : Call k) (h : Hid) (w Vdc_ref Q_ref : ℝ) : Ode.Inp :=
  { va := Circuit.vaCalc g.standAlone c.va h.grid.va (k.cur c.y).1 g.a g.Z1 g.Z2 h.Zload1,
    vb := Circuit.vaCalc g.standAlone c.vb h.grid.vb (k.cur c.y).2.1 g.a g.Z1 g.Z2 h.Zload1,
    vc := Circuit.vaCalc g.standAlone c.vc h.grid.vc (k.cur c.y).2.2 g.a g.Z1 g.Z2 h.Zload1,
    w := w, t := c.t, Vdc_ref := Vdc_ref, Q_ref := Q_ref, Sinsol := h.Sinsol, Tactual := h.Tactual, Vdc0 := g.Vdc0 }

/-- PV power from an explicit photocurrent (DER_components_three_phase_numba.py 83-96). -/
noncomputable def ppvI (m : PV.Mod) (Iph T V : ℝ) : ℝ := max 0 ((m.Np * Iph - m.Np * m.Irs * (Real.exp ((m.q * V) / (m.k * T * m.A * m.Ns)) - 1)) * V) / m.Sbase

/-- Attributes with PV power as the class computes it. -/
noncomputable def envP (k : Cls) (g : SCfg) (c : Call k) (h : Hid) (w Vdc_ref Q_ref : ℝ) : Env :=
  let e := k.env g.p (inp k g c h w Vdc_ref Q_ref) c.y
  if k.cachedIph then { e with Ppv := ppvI g.p.mod h.Iph h.Tactual (min g.p.Vdcmpp_max (e.Vdc * g.p.Vdcbase)) } else e

/-- `update_Qref` (DER_utilities.py 309-321) with `Vrms` and `S` as just computed (they do not depend on the fields not yet known). -/
noncomputable def qStage (k : Cls) (g : SCfg) (c : Call k) (h : Hid) : Hid :=
  let e := envP k g c h 0 0 0
  let r := VoltVar.updateQref h.rt.voltVar g.qExternal g.Vref g.Snom c.t e.Vrms (VoltVar.qlimit g.Snom e.S.re g.nPhases g.Xf e.ia)
    ⟨h.vvT, h.vvActive, h.rt.refs.Qref⟩
  { h with vvT := r.t, vvActive := r.active, rt := { h.rt with refs := { h.rt.refs with Qref := r.Qref } } }

/-- The DC reference list together with the present `Vdc_ref` (one attribute of the DER, kept in `rt.refs`). -/
def wNow (h : Hid) : VdcRef.St ℝ := { h.rt.w with inst := { h.rt.w.inst with ref := h.rt.refs.VdcRef } }

/-- `update_Vdc_ref` (DER_utilities.py 324-329). -/
noncomputable def dcStage (k : Cls) (t : ℝ) (h : Hid) : Hid × Except Err Unit :=
  if k.dcRef then
    match VdcRef.updateRef (wNow h) t with
    | (w, .ok v) => ({ h with rt := { h.rt with w := w, refs := { h.rt.refs with VdcRef := v } } }, .ok ())
    | (w, .error e) => ({ h with rt := { h.rt with w := w } }, .error e)
  else ({ h with rt := { h.rt with w := wNow h } }, .ok ())

/-- `update_iref` (e.g. DER_components_three_phase.py 231-247). -/
noncomputable def irefStage (k : Cls) (g : SCfg) (c : Call k) (h : Hid) : Hid :=
  let e := envP k g c h 0 h.rt.refs.VdcRef h.rt.refs.Qref
  let r := Ramp.updateIref k.fam g.limiter g.gR g.gI ⟨h.rt.refs.ia.1, h.rt.refs.ia.2, h.tiref⟩ ⟨c.t, e.ia_ref.re, e.ia_ref.im, e.ia.re, e.ia.im⟩
  { h with tiref := r.tiref, rt := { h.rt with refs := { h.rt.refs with ia := (r.refR, r.refI) } } }

/-- `wgrid_calc` (DER_utilities.py 236-271). -/
noncomputable def freqStage (k : Cls) (g : SCfg) (c : Call k) (h : Hid) : Hid :=
  if g.useEst then
    { h with fe := FreqEst.step g.dtEst h.fe (c.t, if g.standAlone then h.grid.va else (inp k g c h 0 0 0).va) }
  else { h with fe := { h.fe with wmeas := if g.standAlone then h.grid.w else c.w } }

/-- Attributes when the ride-through logic starts. -/
noncomputable def envC (k : Cls) (g : SCfg) (c : Call k) (h : Hid) : Env :=
  let ir : ℂ := ⟨h.rt.refs.ia.1, h.rt.refs.ia.2⟩
  { envP k g c h h.fe.wmeas h.rt.refs.VdcRef h.rt.refs.Qref with ia_ref := ir, ib_ref := ub ir, ic_ref := uc ir }

/-- `get_Vrms_measured` (DER_features.py 413-427). -/
noncomputable def measured (k : Cls) (g : SCfg) (h : Hid) (e : Env) : Except Err ℝ :=
  match g.meas with
  | .minimum => .ok (if k.minPhases then urmsMin e.va e.vb e.vc else e.Vrms)
  | .average => .ok e.Vrms
  | .filtered => match h.filt with | some v => .ok v | none => .error .attributeError
  | .invalid => .error .valueError

/-- Pair of real and imaginary part. -/
def pr (z : ℂ) : ℝ × ℝ := (z.re, z.im)

/-- The references the ride-through code may overwrite. -/
noncomputable def refsOf (e : Env) : RT.Refs ℝ := ⟨e.Q_ref, e.Vdc_ref, e.Vdc, e.Ppv, pr e.ia_ref, pr e.ib_ref, pr e.ic_ref⟩

/-- The measured voltage; a failed measurement that is not needed has no effect and is read as 0. -/
noncomputable def measVal (k : Cls) (g : SCfg) (h : Hid) (e : Env) : ℝ := match measured k g h e with | .ok v => v | .error _ => 0

/-- The measurement is taken (and can fail) only if a voltage ride-through function is enabled and the time has advanced (DER_features.py 164-187, 333, 374). -/
noncomputable def measCheck (k : Cls) (g : SCfg) (t : ℝ) (h : Hid) (e : Env) : Except Err Unit :=
  if t > h.rt.rtLock ∧ (h.rt.lvEnable = true ∨ h.rt.hvEnable = true) then (match measured k g h e with | .ok _ => .ok () | .error x => .error x) else .ok ()

/-- `update_ridethrough_flags` and `disconnect_or_reconnect` (DER_features.py 164-208). -/
noncomputable def rtStage (k : Cls) (g : SCfg) (c : Call k) (h : Hid) : Hid × Except Err Env :=
  let e := envC k g c h
  match measCheck k g c.t h e with
  | .error x => ({ h with rt := { h.rt with rtLock := c.t, refs := refsOf e } }, .error x)
  | .ok _ =>
    let r := RT.eval g.rt h.rt ⟨c.t, measVal k g h e, e.we / (2 * Real.pi), refsOf e⟩
    match r.2 with
    | .error x => ({ h with rt := r.1 }, .error x)
    | .ok _ => ({ h with rt := r.1 }, .ok (if r.1.connected then e else disc e))

/-- One call of `ODE_model` or `jac_ODE_model` of the simulation object: new hidden state and the attributes from which the result is computed. -/
noncomputable def evalEnv (k : Cls) (g : SCfg) (c : Call k) (h : Hid) : Hid × Except Err Env :=
  andThen (gridStage g c.t h) fun _ h1 =>
  andThen (solarStage k g c.t (stateStage k c.y h1)) fun _ h2 =>
  andThen (loadStage k g c.jac c.t h2) fun _ h3 =>
  andThen (dcStage k c.t (qStage k g c h3)) fun _ h4 =>
  rtStage k g c (freqStage k g c (irefStage k g c h4))

/-- The derivatives returned by `ODE_model`. -/
noncomputable def deriv (k : Cls) (g : SCfg) (c : Call k) (h : Hid) : Except Err (k.V → ℝ) :=
  match (evalEnv k g c h).2 with
  | .ok e => .ok (k.rhs e)
  | .error x => .error x

/-- Hidden state after a sequence of calls. -/
noncomputable def run (k : Cls) (g : SCfg) (h : Hid) (l : List (Call k)) : Hid := l.foldl (fun h c => (evalEnv k g c h).1) h

/-- All calls of the sequence succeed. -/
def Ok (k : Cls) (g : SCfg) (h : Hid) : List (Call k) → Prop
  | [] => True
  | c :: l => (∃ e, (evalEnv k g c h).2 = .ok e) ∧ Ok k g (evalEnv k g c h).1 l

end Eval
end PvDer
