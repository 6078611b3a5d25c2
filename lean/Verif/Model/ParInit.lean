import Verif.Model.RTInit
/-!
From a configuration to the constants of the equations: `initialize_DER_model` and what it calls.
-/
namespace PvDer
namespace Config

/-- `module_parameters` as read by `initialize_module_parameters` (DER_components.py 403-416). -/
structure ModuleData where
  Np : ℚ
  Ns : ℚ
  mpp0 : ℚ
  mppMin : ℚ
  mppMax : ℚ

/-- `inverter_ratings` as read by `initialize_Sinverter`, `initialize_Vdc`, `initialize_Vac`, `initialize_Iac` (DER_check_and_initialize.py 386-423). -/
structure RatingData where
  S : ℚ
  Vdc : ℚ
  Vrms : ℚ
  over : ℚ
  gradR : ℚ
  gradI : ℚ

/-- `circuit_parameters` as read by `initialize_circuit_parameters` (427-461); the capacitance only where the class has one. -/
structure CircuitData where
  Rf : ℚ
  Lf : ℚ
  C : Option ℚ
  z1 : ℚ × ℚ

/-- `controller_gains` as read by `initialize_controller_gains` (485-516); gains the class does not have stay unset. -/
structure GainData where
  KpGCC : ℚ
  KiGCC : ℚ
  wp : ℚ
  KpDC : Option ℚ
  KiDC : Option ℚ
  KpP : Option ℚ
  KiP : Option ℚ
  KpQ : Option ℚ
  KiQ : Option ℚ
  Tfilter : Option ℚ

/-- `p in templates.DER_design_template[self.DER_model_type][comp]`. -/
def inTemplate (T : Template) (comp p : String) : Bool :=
  match T.lookup comp with
  | some ps => (ps.map Prod.fst).contains p
  | none => false

/-- `if guard in template: self.x = …[p]`. -/
def optional (T : Template) (d : Design) (comp guard p : String) : Except Err (Option ℚ) :=
  if inTemplate T comp guard then do
    let x ← number d comp p
    pure (some x)
  else pure none

/-- `initialize_module_parameters` (DER_components.py 403-416). -/
def readModule (d : Design) : Except Err ModuleData := do
  let np ← number d "module_parameters" "Np"
  let ns ← number d "module_parameters" "Ns"
  let m0 ← number d "module_parameters" "Vdcmpp0"
  let ml ← number d "module_parameters" "Vdcmpp_min"
  let mh ← number d "module_parameters" "Vdcmpp_max"
  pure ⟨np, ns, m0, ml, mh⟩

/-- `initialize_inverter_ratings` (DER_check_and_initialize.py 373-423). -/
def readRatings (d : Design) : Except Err RatingData := do
  let s ← number d "inverter_ratings" "Srated"
  let vdc ← number d "inverter_ratings" "Vdcrated"
  let v ← number d "inverter_ratings" "Vrmsrated"
  let o ← number d "inverter_ratings" "Ioverload"
  let gr ← number d "inverter_ratings" "Iramp_max_gradient_real"
  let gi ← number d "inverter_ratings" "Iramp_max_gradient_imag"
  pure ⟨s, vdc, v, o, gr, gi⟩

/-- `initialize_circuit_parameters` (DER_check_and_initialize.py 427-461). `Z1_actual` was put into the design by `update_DER_config` (76). -/
def readCircuit (T : Template) (d : Design) : Except Err CircuitData := do
  let r ← number d "circuit_parameters" "Rf_actual"
  let l ← number d "circuit_parameters" "Lf_actual"
  let c ← optional T d "circuit_parameters" "C_actual" "C_actual"
  pure ⟨r, l, c, d.z1⟩

/-- `initialize_controller_gains` (DER_check_and_initialize.py 485-516); line 496 guards `Ki_DC` by the presence of `Kp_DC`. -/
def readGains (T : Template) (d : Design) : Except Err GainData := do
  let kp ← number d "controller_gains" "Kp_GCC"
  let ki ← number d "controller_gains" "Ki_GCC"
  let wp ← number d "controller_gains" "wp"
  let kpdc ← optional T d "controller_gains" "Kp_DC" "Kp_DC"
  let kidc ← optional T d "controller_gains" "Kp_DC" "Ki_DC"
  let kpp ← optional T d "controller_gains" "Kp_P" "Kp_P"
  let kip ← optional T d "controller_gains" "Ki_P" "Ki_P"
  let kpq ← optional T d "controller_gains" "Kp_Q" "Kp_Q"
  let kiq ← optional T d "controller_gains" "Ki_Q" "Ki_Q"
  let tf ← optional T d "controller_gains" "Tfilter_Vrms" "Tfilter_Vrms"
  pure ⟨kp, ki, wp, kpdc, kidc, kpp, kip, kpq, kiq, tf⟩

/-- What `initialize_DER_model` and `initialize_basic_options` leave on the instance, as far as it is read from the configuration. -/
structure Electrical where
  module : ModuleData
  rating : RatingData
  circuit : CircuitData
  gain : GainData
  /-- `m_steady_state` -/
  duty : ℚ
  /-- `current_gradient_limiter` -/
  limiter : Bool

/-- `n_phases` (DER_check_and_initialize.py 180: from the template). -/
def phasesOf (T : Template) : ℕ :=
  match T.lookup "basic_specs" with
  | some ps => (match ps.lookup "n_phases" with | some (.int n) => n.toNat | _ => 0)
  | none => 0

/-- `initialize_basic_options` (185-193, the two options used here) and `initialize_DER_model` (DER_check_and_initialize.py 350-371); `vpcc` is the magnitude of the external phase a voltage in
per unit. `check_circuit_parameters` only writes messages. -/
noncomputable def electrical (T : Template) (b : Circuit.Base) (standAlone : Bool) (vpcc : ℝ) (d : Design) : Except Err Electrical := do
  let ms ← number d "basic_options" "m_steady_state"
  let lim ← (match d.cfg "basic_options" "current_gradient_limiter" with | some v => .ok (truthy v) | none => .error .keyError : Except Err Bool)
  let md ← readModule d
  let rt ← readRatings d
  checkVoltage standAlone vpcc ((rt.Vrms : ℝ) * Real.sqrt 2 / b.Vbase) (ms : ℝ) (rt.Vdc : ℝ) (md.mppMin : ℝ) ((rt.Vrms : ℝ) * Real.sqrt 2)
  let ct ← readCircuit T d
  let gn ← readGains T d
  pure ⟨md, rt, ct, gn, ms, lim⟩

/-- The nameplate data in the form of `Model/Ratings.lean`; the switching frequency is not configured (DER_components.py 44). -/
noncomputable def Electrical.plate (e : Electrical) (nPhases : ℕ) : Ratings.Nameplate :=
  { Srated := e.rating.S, Vdcrated := e.rating.Vdc, Vrmsrated := e.rating.Vrms, Ioverload := e.rating.over, gradReal := e.rating.gradR, gradImag := e.rating.gradI
    Rf := e.circuit.Rf, Lf := e.circuit.Lf, C := ((e.circuit.C.getD 0 : ℚ) : ℝ), Z1 := ⟨e.circuit.z1.1, e.circuit.z1.2⟩, nPhases := nPhases, fswitching := 10000 }

/-- The PV module: `Np`, `Ns` configured, the rest constants of the class (DER_components.py 306-312), `Sbase` from `BaseValues`. -/
noncomputable def Electrical.pv (e : Electrical) (b : Circuit.Base) : PV.Mod :=
  ⟨e.module.Np, e.module.Ns, 803/100, 17/10000, 27315/100 + 25, 12/100000000, 1602/10^22, 138/10^25, 192/100, b.Sbase⟩

/-- The constants of the equations: per-unit circuit data and limits (DER_check_and_initialize.py 386-461), gains (485-516), PLL gains and duty limit
(DER_components.py 40-41, DER_utilities.py 33). Simplification: a constant the class does not have is 0; `C131_unused_constants` shows that it is not used. -/
noncomputable def Electrical.par (e : Electrical) (nPhases : ℕ) (b : Circuit.Base) : Ode.Par :=
  let n := e.plate nPhases
  { Lf := Ratings.Lf n b, Rf := Ratings.Rf n b, C := Ratings.C n b, Kp_GCC := e.gain.KpGCC, Ki_GCC := e.gain.KiGCC, wp := e.gain.wp
    Kp_DC := ((e.gain.KpDC.getD 0 : ℚ) : ℝ), Ki_DC := ((e.gain.KiDC.getD 0 : ℚ) : ℝ), Kp_P := ((e.gain.KpP.getD 0 : ℚ) : ℝ), Ki_P := ((e.gain.KiP.getD 0 : ℚ) : ℝ)
    Kp_Q := ((e.gain.KpQ.getD 0 : ℚ) : ℝ), Ki_Q := ((e.gain.KiQ.getD 0 : ℚ) : ℝ), Kp_PLL := 180, Ki_PLL := 320, m_limit := 1
    iref_limit := Ratings.iref_limit n b, wbase := b.wbase, Tfilter_Vrms := ((e.gain.Tfilter.getD 0 : ℚ) : ℝ), Vdcbase := b.Vdcbase, Vdcmpp_max := e.module.mppMax
    mod := e.pv b }

/-- The constants `g` of a simulation are those the constructor derived from the configuration (DER_check_and_initialize.py 386-461; `Vdc` of the constant-Vdc classes
is `Vdcnominal`, 291 and DER_utilities.py 525-534, MPP tracking being off). -/
structure Wired (e : Electrical) (N : ℕ) (b : Circuit.Base) (g : Eval.SCfg) : Prop where
  p : g.p = e.par N b
  Z1 : g.Z1 = Ratings.Z1 (e.plate N) b
  Snom : g.Snom = Ratings.Snominal (e.plate N) b
  nPhases : g.nPhases = N
  Xf : g.Xf = Ratings.Xf (e.plate N) b
  limiter : g.limiter = e.limiter
  gR : g.gR = Ratings.rampR (e.plate N) b
  gI : g.gI = Ratings.rampI (e.plate N) b
  vmin : g.vdcCfg.vmin = e.module.mppMin
  vmax : g.vdcCfg.vmax = e.module.mppMax
  Vdc0 : g.Vdc0 = Ratings.Vdcnominal (e.plate N) b

end Config
end PvDer
