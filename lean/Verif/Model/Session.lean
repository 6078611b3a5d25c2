import Verif.Model.Eval

/-!
# Model of a whole `run_simulation` call, and of sequences of such calls

`Model/Eval.lean` models one evaluation by the solver; `Model/Sim.lean` the arrays.  Here: the solver as an adaptive strategy, the check of its status codes, the
resets after a run, and the re-reading of the event schedules when a solution is collected (dynamic_simulation.py 475-590, 931-975; simulation_utilities.py 369-405,
466-502).  The same events object is used by the DER, the grid and the simulation (the constructors take three references; the documented use passes one object).
Times of the printing code and the plots are not modelled.
-/

namespace PvDer
namespace Session

open Complex Phasor Ode Eval

/-- Answer to the solver: derivatives, or a Jacobian matrix. -/
abbrev Ans (k : Cls) := (k.V → ℝ) ⊕ (k.V → k.V → ℝ)

/-- `scipy.integrate.odeint` as seen by the simulation: it calls `ODE_model` (`jac = false`) or `jac_ODE_model` at states and times of its choice, the choice
depending on the answers so far, and finally returns one row per requested time and the list `infodict['mused']`. -/
inductive Strat (k : Cls)
  | done (rows : List (k.V → ℝ)) (mused : List Int)
  | ask (jac : Bool) (y : k.V → ℝ) (t : ℝ) (next : Ans k → Strat k)

/-- `odeint(derivatives, y, t, …)`. -/
abbrev Solver (k : Cls) := (k.V → ℝ) → List ℝ → Strat k

/-- Voltages and frequency the DER is given from outside: `gridVoltagePhaseA…C`, `gridFrequency`. -/
structure Ext where
  va : ℂ
  vb : ℂ
  vc : ℂ
  w : ℝ

/-- The call made by the solver. -/
def mkCall {k : Cls} (x : Ext) (jac : Bool) (y : k.V → ℝ) (t : ℝ) : Call k := ⟨jac, y, t, x.va, x.vb, x.vc, x.w⟩

/-- Running the solver: hidden attributes and state attributes `ia, xa, …` of the DER (set by `update_inverter_states`, which runs after the grid source), and the
solution or the exception that came out of an evaluation. -/
noncomputable def exec {k : Cls} (g : SCfg) (J : Env → k.V → k.V → ℝ) (x : Ext) : Strat k → Hid × (k.V → ℝ) →
    (Hid × (k.V → ℝ)) × Except Err (List (k.V → ℝ) × List Int)
  | .done r m, s => (s, .ok (r, m))
  | .ask j y t next, s =>
    let y' := match (gridStage g t s.1).2 with | .ok _ => y | .error _ => s.2
    match evalEnv k g (mkCall x j y t) s.1 with
    | (h', .error e) => ((h', y'), .error e)
    | (h', .ok e) => exec g J x (next (if j then .inr (J e) else .inl (k.rhs e))) (h', y')

/-- The calls made. -/
noncomputable def trace {k : Cls} (g : SCfg) (J : Env → k.V → k.V → ℝ) (x : Ext) : Strat k → Hid → List (Call k)
  | .done _ _, _ => []
  | .ask j y t next, h =>
    mkCall x j y t :: (match evalEnv k g (mkCall x j y t) h with
      | (_, .error _) => []
      | (h', .ok e) => trace g J x (next (if j then .inr (J e) else .inl (k.rhs e))) h')

/-- Series reported by `collect_full_trajectory` that need a schedule: grid voltages and frequency, load, PCC voltage, insolation, PV power, PLL quantities. -/
structure Rep where
  vag : List ℂ
  vbg : List ℂ
  vcg : List ℂ
  wgrid : List ℝ
  zload : List ℂ
  va : List ℂ
  vb : List ℂ
  vc : List ℂ
  sinsol : List ℝ
  ppv : List ℝ
  vd : List ℝ
  vq : List ℝ
  we : List ℝ

/-- The simulation object and the objects it uses. -/
structure Sess (k : Cls) where
  h : Hid
  /-- state attributes of the DER model, i.e. `DER_model.y0` -/
  y : k.V → ℝ
  /-- `sim.t` -/
  t : List ℝ
  /-- state arrays -/
  rows : List (k.V → ℝ)
  /-- `SOLVER_CONVERGENCE` (`none`: attribute not set) -/
  conv : Option Bool
  /-- `convergence_failure_list`: `failure_time_point` and `failure_code` of each entry -/
  fails : List (ℝ × Int)
  rep : Option Rep

/-- Constants of a simulation object. -/
structure Cfg (k : Cls) where
  g : SCfg
  J : Env → k.V → k.V → ℝ
  x : Ext
  /-- `t_calc()` -/
  ts : List ℝ
  /-- `collect_solution` -/
  coll : Bool
  loop : Bool

/-- `status == 0 or status > 2` (simulation_utilities.py 470, 472). -/
def badStatus (m : Int) : Bool := m == 0 || decide (m > 2)

/-- `check_simulation` (simulation_utilities.py 466-502), with `DEBUG_SOLVER` off: record of the failure, `ValueError`; `AssertionError` before any record if the
lengths do not fit. -/
noncomputable def check {k : Cls} (ts : List ℝ) (mused : List Int) (s : Sess k) : Sess k × Except Err Unit :=
  if mused.any badStatus then
    if ts.length = mused.length + 1 then
      let i := mused.findIdx badStatus
      ({ s with conv := some false, fails := s.fails ++ [(ts.getD i 0, mused.getD i 0)] }, .error .valueError)
    else (s, .error .assertionError)
  else ({ s with conv := some true }, .ok ())

/-- A query at each time of a list, in order, on the same events object. -/
def queryAll {α : Type} (q : Events.St ℝ → ℝ → Events.St ℝ × Except Err α) : Events.St ℝ → List ℝ → Events.St ℝ × Except Err (List α)
  | ev, [] => (ev, .ok [])
  | ev, t :: ts =>
    match q ev t with
    | (ev', .error e) => (ev', .error e)
    | (ev', .ok v) =>
      match queryAll q ev' ts with
      | (ev'', .error e) => (ev'', .error e)
      | (ev'', .ok vs) => (ev'', .ok (v :: vs))

/-- `reset_event_counters` unless in loop mode (dynamic_simulation.py 510-511, 568-569, 588-589). -/
def resetUnless (loop : Bool) (ev : Events.St ℝ) : Events.St ℝ := if loop then ev else Events.resetCounters ev

/-- Source phasors at one sample of `time_series_standalone_grid` (dynamic_simulation.py 486-488). -/
noncomputable def srcOf (gr : Grid.GSt) (v : Events.GridVal ℝ) : ℂ × ℂ × ℂ :=
  (Grid.phasorOf v, ub (Grid.phasorOf v * gr.rb), uc (Grid.phasorOf v * gr.rc))

/-- Grid attributes after a sample (dynamic_simulation.py 483-488): the sampled voltage and frequency, but not the set-points. -/
noncomputable def putGrid (gr : Grid.GSt) (v : Events.GridVal ℝ) : Grid.GSt :=
  { gr with va := (srcOf gr v).1, vb := (srcOf gr v).2.1, vc := (srcOf gr v).2.2, w := Grid.omegaOf v }

/-- One sample of the PLL series (dynamic_simulation.py 524-545): `vd, vq, we`. -/
noncomputable def pllPoint (k : Cls) (g : SCfg) (va vb vc : ℂ) (w t : ℝ) (y : k.V → ℝ) : ℝ × ℝ × ℝ :=
  let r := match k.fam with
    | .singlePhase => pll1 va w t (k.pllSt y).1
    | .threePhase => ((pll3 va vb vc w t (k.pllSt y).1).1, (pll3 va vb vc w t (k.pllSt y).1).2.1)
  (r.1, r.2, weCalc g.p.Kp_PLL r.1 (k.pllSt y).2)

/-- One sample of the PCC voltage series in stand-alone mode (dynamic_simulation.py 408, 418-419). -/
noncomputable def pccPoint (k : Cls) (g : SCfg) (src : ℂ × ℂ × ℂ) (Z : ℂ) (y : k.V → ℝ) : ℂ × ℂ × ℂ :=
  (Circuit.vStandAlone src.1 (k.cur y).1 g.a g.Z1 g.Z2 Z, Circuit.vStandAlone src.2.1 (k.cur y).2.1 g.a g.Z1 g.Z2 Z,
    Circuit.vStandAlone src.2.2 (k.cur y).2.2 g.a g.Z1 g.Z2 Z)

/-- Weather attributes of the DER after the samples of `time_series_Ppv` (dynamic_simulation.py 581-585): those of the last sample. -/
noncomputable def putSun (g : SCfg) (sv : List (Events.SolarVal ℝ)) (h : Hid) : Hid :=
  match sv.getLast? with
  | some v => { h with Sinsol := v.Sinsol, Tactual := v.Tactual, Iph := PV.iph g.p.mod v.Sinsol v.Tactual }
  | none => h

/-- The schedule-dependent part of `collect_full_trajectory` (dynamic_simulation.py 706-760): grid and load series in stand-alone mode, PCC voltages, PV power, PLL
series in stand-alone mode. -/
noncomputable def collectSeries {k : Cls} (c : Cfg k) (ts : List ℝ) (rows : List (k.V → ℝ)) (s : Sess k) : Sess k × Except Err Unit :=
  let h := s.h
  if c.g.standAlone then
    match queryAll (Events.gridEvents c.g.evc c.g.sp) h.ev ts with
    | (ev, .error e) => ({ s with h := { h with ev := ev } }, .error e)
    | (ev, .ok gv) =>
      let gr := match gv.getLast? with | some v => putGrid h.grid v | none => h.grid
      match queryAll Events.loadEvents (resetUnless c.loop ev) ts with
      | (ev, .error e) => ({ s with h := { h with ev := ev, grid := gr } }, .error e)
      | (ev, .ok lv) =>
        match queryAll (Events.solarEvents c.g.sp) (resetUnless c.loop ev) ts with
        | (ev, .error e) => ({ s with h := { h with ev := ev, grid := gr } }, .error e)
        | (ev, .ok sv) =>
          let src := gv.map (srcOf h.grid)
          let Z := lv.map fun v => (⟨v.Zre, v.Zim⟩ : ℂ) / c.g.Zbase
          let w := gv.map Grid.omegaOf
          let pcc := List.zipWith (fun p y => pccPoint k c.g p.1 p.2 y) (src.zip Z) rows
          let pll := List.zipWith (fun p (q : ℝ × ℝ × (k.V → ℝ)) => pllPoint k c.g p.1 p.2.1 p.2.2 q.1 q.2.1 q.2.2) pcc (w.zip (ts.zip rows))
          ({ s with
              h := { putSun c.g sv h with ev := resetUnless c.loop ev, grid := gr },
              y := (match rows.getLast? with | some r => k.touch true r s.y | none => s.y),
              rep := some ⟨src.map (·.1), src.map (·.2.1), src.map (·.2.2), w, Z, pcc.map (·.1), pcc.map (·.2.1), pcc.map (·.2.2), sv.map (·.Sinsol),
                List.zipWith (fun (v : Events.SolarVal ℝ) y => PV.ppv c.g.p.mod v.Sinsol v.Tactual (min c.g.p.Vdcmpp_max (k.vdc y c.g.Vdc0 * c.g.p.Vdcbase))) sv rows,
                pll.map (·.1), pll.map (·.2.1), pll.map (·.2.2)⟩ }, .ok ())
  else
    match queryAll (Events.solarEvents c.g.sp) h.ev ts with
    | (ev, .error e) => ({ s with h := { h with ev := ev } }, .error e)
    | (ev, .ok sv) =>
      ({ s with
          h := { putSun c.g sv h with ev := resetUnless c.loop ev },
          y := (match rows.getLast? with | some r => k.touch false r s.y | none => s.y),
          rep := some ⟨[], [], [], [], [], ts.map fun _ => c.x.va, ts.map fun _ => c.x.vb, ts.map fun _ => c.x.vc, sv.map (·.Sinsol),
            List.zipWith (fun (v : Events.SolarVal ℝ) y => PV.ppv c.g.p.mod v.Sinsol v.Tactual (min c.g.p.Vdcmpp_max (k.vdc y c.g.Vdc0 * c.g.p.Vdcbase))) sv rows,
            [], [], []⟩ }, .ok ())

/-- `collect_simulation_results` or `collect_states` (dynamic_simulation.py 648-660, 972-975). -/
noncomputable def finish {k : Cls} (c : Cfg k) (ts : List ℝ) (rows : List (k.V → ℝ)) (s : Sess k) : Sess k × Except Err Unit :=
  if c.coll then collectSeries c ts rows { s with t := ts, rows := rows } else ({ s with rows := rows }, .ok ())

/-- Resets at the end of a run (dynamic_simulation.py 969-970). -/
def resets (h : Hid) : Hid := { h with ev := Events.resetCounters h.ev, rt := { h.rt with w := VdcRef.reset h.rt.w } }

/-- `run_simulation()` with `loopMode=False` and the solver `odeint` (dynamic_simulation.py 948-975). -/
noncomputable def runSim {k : Cls} (c : Cfg k) (sv : Solver k) (s : Sess k) : Sess k × Except Err Unit :=
  let s0 : Sess k := { s with t := c.ts, rows := [s.y] }
  match exec c.g c.J c.x (sv s.y c.ts) (s.h, s.y) with
  | ((h, y), .error e) => ({ s0 with h := h, y := y }, .error e)
  | ((h, y), .ok (rows, mused)) =>
    match check c.ts mused { s0 with h := h, y := y } with
    | (s1, .error e) => (s1, .error e)
    | (s1, .ok _) => finish c c.ts rows { s1 with h := resets s1.h }

/-- `run_simulation(gridVoltagePhaseA=…, y0=…, t=…)` with `loopMode=True` and valid arguments (dynamic_simulation.py 934-947, 972-975); `x` holds the new
measurements. -/
noncomputable def runLoop {k : Cls} (c : Cfg k) (sv : Solver k) (x : Ext) (y0 : k.V → ℝ) (ts : List ℝ) (s : Sess k) : Sess k × Except Err Unit :=
  let s0 : Sess k := { s with t := if ts.head? = some 0 then ts else s.t }
  match exec c.g c.J x (sv y0 ts) (s.h, s.y) with
  | ((h, y), .error e) => ({ s0 with h := h, y := y }, .error e)
  | ((h, y), .ok (rows, mused)) =>
    match check ts mused { s0 with h := h, y := y } with
    | (s1, .error e) => (s1, .error e)
    | (s1, .ok _) => finish { c with x := x } ts rows s1

/-- Successive `run_simulation()` calls, possibly with different solvers; exceptions are caught by the user, who carries on. -/
noncomputable def runs {k : Cls} (c : Cfg k) : List (Solver k) → Sess k → Sess k
  | [], s => s
  | sv :: l, s => runs c l (runSim c sv s).1

/-- What a user does with the objects between and during simulations. -/
inductive Act (k : Cls)
  | sim (sv : Solver k)
  | edit (o : Events.Op ℝ)

/-- One action; a call on the events object may raise, the user carries on. -/
noncomputable def act {k : Cls} (c : Cfg k) (s : Sess k) : Act k → Sess k × Except Err Unit
  | .sim sv => runSim c sv s
  | .edit o => ({ s with h := { s.h with ev := Events.step c.g.evc c.g.sp s.h.ev o } }, .ok ())

/-- A sequence of actions. -/
noncomputable def acts {k : Cls} (c : Cfg k) (s : Sess k) (l : List (Act k)) : Sess k := l.foldl (fun s a => (act c s a).1) s

/-- All simulations of the sequence return normally. -/
def AllReturn {k : Cls} (c : Cfg k) (s : Sess k) : List (Act k) → Prop
  | [] => True
  | a :: l => (act c s a).2 = .ok () ∧ AllReturn c (act c s a).1 l

end Session
end PvDer
