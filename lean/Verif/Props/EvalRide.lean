import Verif.Props.EvalSched
import Verif.Props.Connection
import Verif.Props.RTQuiet
import Verif.Props.RTCess

/-!
# Properties C96, C98: ride-through as seen from outside — from the terminal voltages of the calls to trip, disconnection and output
-/

namespace PvDer
namespace Eval
open Complex Phasor Ode

variable {k : Cls} {g : SCfg} {h : Hid} {f : Call k → ℝ}

/-! ### Which voltage the logic sees (loop mode) -/

/-- The classes with three independent phases. -/
noncomputable def unbalancedClasses : List Cls := [three, noFilter, numba, three0]

/-- C96: with the setting "minimum" the logic of a class with three independent phases sees the smallest of the three phase RMS voltages of the call. -/
theorem C96_sees_minimum (hk : k ∈ unbalancedClasses) (hsa : g.standAlone = false) (hm : g.meas = .minimum) :
    Sees k g (fun c => urmsMin c.va c.vb c.vc) := by
  intro c h _
  simp only [unbalancedClasses, List.mem_cons, List.not_mem_nil, or_false] at hk
  rcases hk with rfl | rfl | rfl | rfl <;>
    simp [measVal, measured, hm, three, noFilter, numba, three0, envC, envP, inp, Circuit.vaCalc, hsa, envT, envN, envNumba, envC3, env3, Env.base]

/-- C96: with the setting "average" it sees the RMS value over the three phases. -/
theorem C96_sees_average (hk : k ∈ unbalancedClasses) (hsa : g.standAlone = false) (hm : g.meas = .average) :
    Sees k g (fun c => urms c.va c.vb c.vc) := by
  intro c h _
  simp only [unbalancedClasses, List.mem_cons, List.not_mem_nil, or_false] at hk
  rcases hk with rfl | rfl | rfl | rfl <;>
    simp [measVal, measured, hm, three, noFilter, numba, three0, envC, envP, inp, Circuit.vaCalc, hsa, envT, envN, envNumba, envC3, env3, Env.base]

/-- C96: a single-phase class sees the RMS value of its terminal voltage with either setting. -/
theorem C96_sees_single (hk : k ∈ [single, single0]) (hsa : g.standAlone = false) (hm : g.meas = .minimum ∨ g.meas = .average) :
    Sees k g (fun c => urms c.va c.va c.va) := by
  intro c h _
  simp only [List.mem_cons, List.not_mem_nil, or_false] at hk
  rcases hk with rfl | rfl <;> rcases hm with hm | hm <;>
    simp [measVal, measured, hm, single, single0, envC, envP, inp, Circuit.vaCalc, hsa, env1, envC1, Env.base]

/-- C96: the balanced class sees the RMS value of its terminal voltage with either setting. -/
theorem C96_sees_balanced (hsa : g.standAlone = false) (hm : g.meas = .minimum ∨ g.meas = .average) :
    Sees balanced g (fun c => urms c.va (ub c.va) (uc c.va)) := by
  intro c h _
  rcases hm with hm | hm <;>
    simp [measVal, measured, hm, balanced, envC, envP, inp, Circuit.vaCalc, hsa, envB, env3, Env.base]

/-- C96: with the setting "filtered" the three-phase class sees the state of the RMS filter. -/
theorem C96_sees_filtered (hm : g.meas = .filtered) : Sees three g (fun c => c.y .Vrms) := by
  intro c h hf
  have : h.filt = some (c.y .Vrms) := by rw [hf]; rfl
  simp [measVal, measured, hm, this]

/-! ### C96 -/

/-- C96: for every class, mode and measurement (`f` is the voltage the logic sees, see the lemmas above), every zone table and every sequence of `ODE_model` and
`jac_ODE_model` calls that raise nothing: the low-voltage trip flag is set iff for some zone two of the calls after `t_stable` that advance time show a voltage
below the zone threshold, are more than the zone's time threshold apart, and no call in between shows one above it. -/
theorem C96_lv_trip_iff (hf : Sees k g f) (hi : RT.IsInit h.rt) (hen : h.rt.lvEnable = true) (l : List (Call k)) (hok : Ok k g h l) :
    (run k g h l).rt.lv.trip = true ↔
      ∃ z ∈ h.rt.lv.zones, RT.Exceeds (z.Vthr * g.Vref) z.tThr (RT.after g.tStable (RT.records 0 (l.map fun c => (c.t, f c)))) := by
  obtain ⟨ins, h1, h2⟩ := run_rt hf l h hok
  have h3 : (run k g h l).rt.lv.trip = (RT.run g.rt.unit (RT.strip h.rt) ins).lv.trip := by rw [← h2]; rfl
  rw [h3, RT.C16_lv_trip_iff (isInit_strip hi) hen ins, h1]
  rfl

/-- C96: mirror image for high voltage. -/
theorem C96_hv_trip_iff (hf : Sees k g f) (hi : RT.IsInit h.rt) (hen : h.rt.hvEnable = true) (l : List (Call k)) (hok : Ok k g h l) :
    (run k g h l).rt.hv.trip = true ↔
      ∃ z ∈ h.rt.hv.zones, RT.ExceedsHigh (z.Vthr * g.Vref) z.tThr (RT.after g.tStable (RT.records 0 (l.map fun c => (c.t, f c)))) := by
  obtain ⟨ins, h1, h2⟩ := run_rt hf l h hok
  have h3 : (run k g h l).rt.hv.trip = (RT.run g.rt.unit (RT.strip h.rt) ins).hv.trip := by rw [← h2]; rfl
  rw [h3, RT.C17_hv_trip_iff (isInit_strip hi) hen ins, h1]
  rfl

/-- C96: a DER that only ever sees healthy voltages stays connected, and none of its ride-through flags is ever set. -/
theorem C96_healthy_stays_connected (hf : Sees k g f) (hi : RT.IsInit h.rt) (hlf : h.rt.lfEnable = false) (l : List (Call k)) (hok : Ok k g h l)
    (hV : ∀ c ∈ l, (∀ z ∈ h.rt.lv.zones, z.Vthr * g.Vref ≤ f c) ∧ (∀ z ∈ h.rt.hv.zones, f c ≤ z.Vthr * g.Vref)) :
    (run k g h l).rt.connected = true ∧ (run k g h l).rt.trip = false ∧ (run k g h l).rt.mc = false := by
  obtain ⟨ins, h1, h2⟩ := run_rt hf l h hok
  have := RT.C19_healthy_never_trips (c := g.rt.unit) (isInit_strip hi) hlf ins (by
    intro i hii
    have hm : (i.t, i.V) ∈ RT.samples ins := List.mem_map_of_mem (f := fun i : RT.Inp ℝ => (i.t, i.V)) hii
    rw [h1] at hm
    obtain ⟨c, hc, he⟩ := List.mem_map.1 hm
    simp only [Prod.mk.injEq] at he
    rw [← he.2]
    exact hV c hc)
  rw [← h2] at this
  exact ⟨this.1, this.2.1, this.2.2.1⟩

/-- C96: after an undervoltage (or overvoltage) longer than a zone allows, within the disconnection delay of the next evaluation the output is cut and never
comes back: every evaluation from then on computes its result with PV power, reactive power and current references zero and the DC reference at the DC voltage. -/
theorem C96_trip_cuts_output (hf : Sees k g f) (hi : RT.IsInit h.rt) (hlf : h.rt.lfEnable = false) (hdd : 0 < g.discDelay) (l q : List (Call k)) (c0 c1 c : Call k)
    (hok : Ok k g h (l ++ c0 :: (q ++ [c])))
    (hex : (h.rt.lvEnable = true ∧ ∃ z ∈ h.rt.lv.zones, RT.Exceeds (z.Vthr * g.Vref) z.tThr (RT.after g.tStable (RT.records 0 (l.map fun c => (c.t, f c))))) ∨
      (h.rt.hvEnable = true ∧ ∃ z ∈ h.rt.hv.zones, RT.ExceedsHigh (z.Vthr * g.Vref) z.tThr (RT.after g.tStable (RT.records 0 (l.map fun c => (c.t, f c))))))
    (hlate : ∀ x ∈ l, x.t < c0.t) (hpos : 0 < c0.t) (hc1 : c1 ∈ q) (hdelay : g.discDelay ≤ c1.t - c0.t) :
    (run k g h (l ++ c0 :: (q ++ [c]))).rt.connected = false ∧
    ∃ e, (evalEnv k g c (run k g h (l ++ c0 :: q))).2 = .ok e ∧ e.Ppv = 0 ∧ e.Q_ref = 0 ∧ e.ia_ref = 0 ∧ e.ib_ref = 0 ∧ e.ic_ref = 0 ∧ e.Vdc_ref = e.Vdc := by
  obtain ⟨ins, h1, h2⟩ := run_rt hf _ h hok
  have hlen : ins.length = (l ++ c0 :: (q ++ [c])).length := by
    have := congrArg List.length h1
    simpa [RT.samples] using this
  -- split the inputs
  obtain ⟨a, b, rfl, ha⟩ : ∃ a b, ins = a ++ b ∧ a.length = l.length :=
    ⟨ins.take l.length, ins.drop l.length, (List.take_append_drop _ _).symm, by rw [List.length_take, hlen]; simp⟩
  have hsp : RT.samples a = l.map (fun c => (c.t, f c)) ∧ RT.samples b = (c0 :: (q ++ [c])).map (fun c => (c.t, f c)) := by
    have : RT.samples a ++ RT.samples b = l.map (fun c => (c.t, f c)) ++ (c0 :: (q ++ [c])).map (fun c => (c.t, f c)) := by
      rw [← List.map_append, ← h1]; simp [RT.samples]
    exact List.append_inj this (by simp [RT.samples, ha])
  obtain ⟨i0, b', rfl⟩ : ∃ i0 b', b = i0 :: b' := by
    cases b with
    | nil => simp [RT.samples] at hsp
    | cons x y => exact ⟨x, y, rfl⟩
  have hs0 := hsp.2
  simp only [RT.samples, List.map_cons, List.cons.injEq, Prod.mk.injEq] at hs0
  have hinit := isInit_strip hi
  have htrip : (RT.run g.rt.unit (RT.strip h.rt) a).trip = true := by
    rw [(RT.der_flags hinit hlf a).1]
    rcases hex with ⟨hen, hz⟩ | ⟨hen, hz⟩
    · have := (RT.C16_lv_trip_iff (c := g.rt.unit) hinit hen a).2 (by rw [hsp.1]; exact hz)
      rw [this]; rfl
    · have := (RT.C17_hv_trip_iff (c := g.rt.unit) hinit hen a).2 (by rw [hsp.1]; exact hz)
      rw [this]; simp
  have hdis : (RT.run g.rt.unit (RT.strip h.rt) (a ++ i0 :: b')).connected = false := by
    have hmem : (c1.t, f c1) ∈ b'.map (fun i : RT.Inp ℝ => (i.t, i.V)) := by
      rw [hs0.2]
      exact List.mem_map_of_mem (f := fun c : Call k => (c.t, f c)) (by simp [hc1])
    obtain ⟨i, hib, hit⟩ := List.mem_map.1 hmem
    simp only [Prod.mk.injEq] at hit
    refine RT.C30_flagged_disconnects (c := g.rt.unit) hinit hlf hdd a i0 b' ?_ (by rw [hs0.1.1]; exact hpos) ?_ i hib (by rw [hit.1, hs0.1.1]; exact hdelay)
    · intro x hx
      have : (x.t, x.V) ∈ RT.samples a := List.mem_map_of_mem (f := fun i : RT.Inp ℝ => (i.t, i.V)) hx
      rw [hsp.1] at this
      obtain ⟨y, hy, he⟩ := List.mem_map.1 this
      simp only [Prod.mk.injEq] at he
      rw [← he.1, hs0.1.1]
      exact hlate y hy
    · intro q1 q2 _
      exact Or.inl (RT.C18_trip_latched hinit a (i0 :: q1) htrip)
  have hconn : (run k g h (l ++ c0 :: (q ++ [c]))).rt.connected = false := by
    have h3 : (RT.strip (run k g h (l ++ c0 :: (q ++ [c]))).rt).connected = false := by rw [h2]; exact hdis
    exact h3
  refine ⟨hconn, ?_⟩
  have hsplit : l ++ c0 :: (q ++ [c]) = (l ++ c0 :: q) ++ [c] := by simp
  rw [hsplit] at hok hconn
  obtain ⟨e, he⟩ := ((ok_append _ _ _).1 hok).2.1
  rw [run_append] at hconn
  obtain ⟨e0, he0⟩ := eval_disconnected he hconn
  exact ⟨e, he, by rw [he0]; rfl, by rw [he0]; rfl, by rw [he0]; rfl, by rw [he0]; rfl, by rw [he0]; rfl, by rw [he0]; rfl⟩

/-- A concrete case of C96: the three-phase class in loop mode, terminal voltage dropping to 0.2 p.u. (0.88 p.u. of 1/3 is the threshold) from 1 s on. -/
theorem C96_example (y : ThreePhase.V → ℝ) :
    let g := exG exPar false
    let h := exH g (exEv g)
    let mk : ℝ → ℂ → Call three := fun t v => ⟨false, y, t, v, ub v, uc v, 377⟩
    let l := [mk (3 / 4) (1 / 2), mk 1 (1 / 5), mk 3 (1 / 5), mk 7 (1 / 5)]
    Sees three g (fun c => urmsMin c.va c.vb c.vc) ∧ RT.IsInit h.rt ∧ h.rt.lfEnable = false ∧ h.rt.lvEnable = true ∧
      Ok three g h (l ++ mk 8 (1 / 2) :: ([mk 9 (1 / 2)] ++ [mk 10 (1 / 2)])) ∧
      (∃ z ∈ h.rt.lv.zones, RT.Exceeds (z.Vthr * g.Vref) z.tThr (RT.after g.tStable (RT.records 0 (l.map fun c => (c.t, urmsMin c.va c.vb c.vc))))) ∧
      g.discDelay ≤ (9 : ℝ) - 8 := by
  intro g h mk l
  have hno : ∀ o ∈ exOps, o.isRemoval = false := by
    intro o ho
    simp only [exOps, List.mem_cons, List.not_mem_nil, or_false] at ho
    rcases ho with rfl | rfl | rfl <;> rfl
  have hlow : urmsMin (1 / 5 : ℂ) (ub (1 / 5)) (uc (1 / 5)) < 88 / 100 * (1 / 3) := by
    rw [(C50_balanced _).2]
    unfold urms1
    have h2 : (0:ℝ) < Real.sqrt 2 := by positivity
    have h1 : (1:ℝ) ≤ Real.sqrt 2 := by rw [Real.one_le_sqrt]; norm_num
    have hn : ‖(1 / 5 : ℂ)‖ = 1 / 5 := by norm_num
    rw [hn, div_lt_iff₀ h2]
    nlinarith
  refine ⟨C96_sees_minimum (by simp [unbalancedClasses]) rfl rfl, exRT_init, rfl, rfl, C99_no_exception (ex_good three exPar false (Or.inl rfl) exOps hno) _, ?_, ?_⟩
  · refine ⟨⟨88 / 100, 5, 1 / 10, .mandatory, 0, false⟩, by simp [h, exH, exRT], ?_⟩
    have hrec : RT.after g.tStable (RT.records 0 (l.map fun c => (c.t, urmsMin c.va c.vb c.vc))) = l.map fun c => (c.t, urmsMin c.va c.vb c.vc) := by
      simp only [l, mk, List.map_cons, List.map_nil, RT.records, RT.after, g, exG]
      norm_num
    rw [hrec]
    refine ⟨[(3 / 4, urmsMin (1 / 2 : ℂ) (ub (1 / 2)) (uc (1 / 2)))], [(3, urmsMin (1 / 5 : ℂ) (ub (1 / 5)) (uc (1 / 5)))], [],
      (1, urmsMin (1 / 5 : ℂ) (ub (1 / 5)) (uc (1 / 5))), (7, urmsMin (1 / 5 : ℂ) (ub (1 / 5)) (uc (1 / 5))), rfl, hlow, hlow, ?_, ?_⟩
    · intro x hx
      simp only [List.mem_singleton] at hx
      rw [hx]
      exact hlow.le
    · norm_num
  · norm_num [g, exG]

/-! ### C98: what the logic sees -/

/-- C98: the classes other than `SolarPVDERThreePhase` never update the filtered voltage; with the measurement type 'filtered' the whole run sees the value that
was stored before the run, whatever the terminal voltages do. -/
theorem C98_filtered_frozen (hk3 : k.filt = fun _ => none) (l : List (Call k)) (hok : Ok k g h l) :
    (run k g h l).filt = h.filt := by
  induction l generalizing h with
  | nil => rfl
  | cons c l ih =>
    obtain ⟨⟨e, he⟩, ho⟩ := hok
    show (run k g (evalEnv k g c h).1 l).filt = _
    rw [ih ho]
    obtain ⟨h5, _, hf, hr, _⟩ := eval_rt he
    rw [hr] at he ⊢
    obtain ⟨_, _, hb, _⟩ := rt_ok he
    rw [hb]
    show h5.filt = _
    rw [hf]
    unfold stateStage
    rw [hk3]

/-- The run of the ride-through logic when only the stored filtered value is seen. -/
theorem run_rt_stored (hk3 : k.filt = fun _ => none) (hm : g.meas = .filtered) {v : ℝ} (l : List (Call k)) (h : Hid) (hv : h.filt = some v) (hok : Ok k g h l) :
    ∃ ins : List (RT.Inp ℝ), RT.samples ins = l.map (fun c => (c.t, v)) ∧ RT.strip (run k g h l).rt = RT.run g.rt.unit (RT.strip h.rt) ins := by
  induction l generalizing h with
  | nil => exact ⟨[], rfl, rfl⟩
  | cons c l ih =>
    have hfr : (evalEnv k g c h).1.filt = h.filt := C98_filtered_frozen hk3 [c] ⟨hok.1, trivial⟩
    obtain ⟨⟨e, he⟩, ho⟩ := hok
    obtain ⟨h5, _, hfl, _, hst, _⟩ := eval_rt he
    obtain ⟨ins, h1, h2⟩ := ih _ (hfr.trans hv) ho
    refine ⟨⟨c.t, measVal k g h5 (envC k g c h5), (envC k g c h5).we / (2 * Real.pi), refsOf (envC k g c h5)⟩ :: ins, ?_, h2.trans ?_⟩
    · have hf5 : h5.filt = some v := by rw [hfl, ← hv]; unfold stateStage; rw [hk3]
      have hmv : measVal k g h5 (envC k g c h5) = v := by simp [measVal, measured, hm, hf5]
      show (c.t, measVal k g h5 (envC k g c h5)) :: RT.samples ins = _
      rw [h1, hmv]
      rfl
    · rw [hst]; rfl

/-- C98: consequence. In the six classes without a filter state, with the measurement type 'filtered' the ride-through decision does not depend on the terminal
voltages at all: the DER trips iff the *stored* value lies below a zone threshold and the run lasts longer than the time threshold of the zone. -/
theorem C98_filtered_blind (hk3 : k.filt = fun _ => none) (hm : g.meas = .filtered) {v : ℝ} (hv : h.filt = some v) (hi : RT.IsInit h.rt)
    (hen : h.rt.lvEnable = true) (l : List (Call k)) (hok : Ok k g h l) :
    (run k g h l).rt.lv.trip = true ↔
      ∃ z ∈ h.rt.lv.zones, RT.Exceeds (z.Vthr * g.Vref) z.tThr (RT.after g.tStable (RT.records 0 (l.map fun c => (c.t, v)))) := by
  obtain ⟨ins, h1, h2⟩ := run_rt_stored hk3 hm l h hv hok
  have h3 : (run k g h l).rt.lv.trip = (RT.run g.rt.unit (RT.strip h.rt) ins).lv.trip := by rw [← h2]; rfl
  rw [h3, RT.C16_lv_trip_iff (isInit_strip hi) hen ins, h1]
  rfl

/-- C98: with a healthy stored value such a DER rides through everything, even a total loss of voltage of any length. -/
theorem C98_filtered_never_trips (hk3 : k.filt = fun _ => none) (hm : g.meas = .filtered) {v : ℝ} (hv : h.filt = some v) (hi : RT.IsInit h.rt)
    (hlf : h.rt.lfEnable = false) (hV : (∀ z ∈ h.rt.lv.zones, z.Vthr * g.Vref ≤ v) ∧ (∀ z ∈ h.rt.hv.zones, v ≤ z.Vthr * g.Vref))
    (l : List (Call k)) (hok : Ok k g h l) : (run k g h l).rt.connected = true := by
  obtain ⟨ins, h1, h2⟩ := run_rt_stored hk3 hm l h hv hok
  have := RT.C19_healthy_never_trips (c := g.rt.unit) (isInit_strip hi) hlf ins (by
    intro i hii
    have hmm : (i.t, i.V) ∈ RT.samples ins := List.mem_map_of_mem (f := fun i : RT.Inp ℝ => (i.t, i.V)) hii
    rw [h1] at hmm
    obtain ⟨c, _, he⟩ := List.mem_map.1 hmm
    simp only [Prod.mk.injEq] at he
    rw [← he.2]
    exact hV)
  rw [← h2] at this
  exact this.1

/-- Up to the ride-through stage nothing can go wrong with a good events object and DC schedule. -/
theorem pre_good (hov : g.evc.overrideAngle = true) (hmsg : k.loadMsg = true ∨ g.standAlone = false) (hev : EvGood g.sp h.ev) (hdc : DcGood h.rt.w) (c : Call k) :
    ∃ h5 : Hid, evalEnv k g c h = rtStage k g c h5 ∧ h5.filt = (stateStage k c.y h).filt ∧ ∃ w r, h5.rt = { h.rt with w := w, refs := r } := by
  have hgrid : ∃ h1, gridStage g c.t h = (h1, .ok ()) ∧ EvGood g.sp h1.ev ∧ h1.filt = h.filt := by
    unfold gridStage Grid.steadyState
    split
    · obtain ⟨v, hv⟩ := Events.gridEvents_ok hov hev.inv hev.lim hev.tight.grid c.t
      have := (evGood_query (cc := g.evc) hev c.t).1
      rcases hq : Events.gridEvents g.evc g.sp h.ev c.t with ⟨ev, r⟩
      rw [hq] at hv this
      simp only at hv
      subst hv
      exact ⟨_, rfl, this, rfl⟩
    · exact ⟨h, rfl, hev, rfl⟩
  obtain ⟨h1, e1, g1, f1⟩ := hgrid
  obtain ⟨h2, e2, g2⟩ := solar_good (k := k) (h := stateStage k c.y h1) g1 c.t
  obtain ⟨h3, e3, g3⟩ := load_good (k := k) (h := h2) hmsg g2 c.jac c.t
  have a1 : h1.rt = h.rt := by have := grid_rt (g := g) (h := h) c.t; rw [e1] at this; exact this
  have a2 : h2.rt = h.rt := by have := solar_rt (k := k) (g := g) (h := stateStage k c.y h1) c.t; rw [e2] at this; exact this.trans a1
  have a3 : h3.rt = h.rt := by have := load_rt (k := k) (g := g) (h := h2) c.jac c.t; rw [e3] at this; exact this.trans a2
  have f2 : h2.filt = (stateStage k c.y h1).filt := by have := solar_filt (k := k) (g := g) (h := stateStage k c.y h1) c.t; rw [e2] at this; exact this
  have f3 : h3.filt = (stateStage k c.y h1).filt := by have := load_filt (k := k) (g := g) (h := h2) c.jac c.t; rw [e3] at this; exact this.trans f2
  have hw : DcGood (qStage k g c h3).rt.w := by show DcGood h3.rt.w; rw [a3]; exact hdc
  obtain ⟨h4, e4, g4, ev4⟩ := dc_good (k := k) hw c.t
  obtain ⟨w, v, h4e⟩ := dc_rt e4
  obtain ⟨w', r', hr⟩ := pre_rt e4
  refine ⟨freqStage k g c (irefStage k g c h4), ?_, ?_, w', r', ?_⟩
  · unfold evalEnv
    rw [e1]; simp only [andThen]
    rw [e2]; simp only
    rw [e3]; simp only
    rw [e4]
  · rw [freq_filt]
    show h4.filt = _
    rw [h4e]
    show h3.filt = _
    rw [f3]
    unfold stateStage
    dsimp only
    rw [f1]
  · rw [hr, a3]

/-- C98: an invalid measurement type raises `ValueError`, and the type 'filtered' in a class that has no filtered value raises `AttributeError`, at the first
evaluation that advances time — provided a voltage ride-through function is on. -/
theorem C98_bad_measurement_raises (hov : g.evc.overrideAngle = true) (hmsg : k.loadMsg = true ∨ g.standAlone = false) (hev : EvGood g.sp h.ev)
    (hdc : DcGood h.rt.w) (c : Call k) (hen : h.rt.lvEnable = true ∨ h.rt.hvEnable = true) (ht : h.rt.rtLock < c.t) :
    (g.meas = .invalid → (evalEnv k g c h).2 = .error .valueError) ∧
    (g.meas = .filtered → k.filt c.y = none → h.filt = none → (evalEnv k g c h).2 = .error .attributeError) := by
  obtain ⟨h5, e5, f5, w, r, hr⟩ := pre_good hov hmsg hev hdc c
  rw [e5]
  have hcond : c.t > h5.rt.rtLock ∧ (h5.rt.lvEnable = true ∨ h5.rt.hvEnable = true) := by rw [hr]; exact ⟨ht, hen⟩
  constructor
  · intro hm
    have hk : measCheck k g c.t h5 (envC k g c h5) = .error .valueError := by
      unfold measCheck; rw [if_pos hcond]; simp [measured, hm]
    simp only [rtStage, hk]
  · intro hm hy hf
    have hf5 : h5.filt = none := by rw [f5]; unfold stateStage; simp only [hy, hf]
    have hk : measCheck k g c.t h5 (envC k g c h5) = .error .attributeError := by
      unfold measCheck; rw [if_pos hcond]; simp [measured, hm, hf5]
    simp only [rtStage, hk]

/-- C98: with both voltage ride-through functions off the measurement type does not matter: nothing is raised. -/
theorem C98_unused_measurement_harmless (hov : g.evc.overrideAngle = true) (hmsg : k.loadMsg = true ∨ g.standAlone = false) (hev : EvGood g.sp h.ev)
    (hdc : DcGood h.rt.w) (hlf : h.rt.lfEnable = false) (hrv : g.restoreVdc = false) (c : Call k) (hlv : h.rt.lvEnable = false) (hhv : h.rt.hvEnable = false) :
    ∃ e, (evalEnv k g c h).2 = .ok e := by
  obtain ⟨h5, e5, f5, w, r, hr⟩ := pre_good hov hmsg hev hdc c
  rw [e5]
  have hk : measCheck k g c.t h5 (envC k g c h5) = .ok () := by
    unfold measCheck
    rw [if_neg]
    rw [hr]
    simp [hlv, hhv]
  have := (RT.eval_total g.rt h5.rt ⟨c.t, measVal k g h5 (envC k g c h5), (envC k g c h5).we / (2 * Real.pi), refsOf (envC k g c h5)⟩
    (by rw [hr]; exact hlf) hrv).1
  refine ⟨if (RT.eval g.rt h5.rt ⟨c.t, measVal k g h5 (envC k g c h5), (envC k g c h5).we / (2 * Real.pi), refsOf (envC k g c h5)⟩).1.connected then envC k g c h5
    else disc (envC k g c h5), ?_⟩
  simp only [rtStage, hk, this]

/-- Concrete cases for C98: the no-filter class in the example run with the measurement type 'filtered' and a stored healthy value keeps running connected through
a voltage of zero; without a stored value, or with an invalid type, the first evaluation raises. -/
theorem C98_example (y : ThreePhaseNoVrmsFilter.V → ℝ) (ts : List ℝ) :
    let g : SCfg := { exG exPar false with meas := .filtered }
    let g' : SCfg := { exG exPar false with meas := .invalid }
    let h0 := exH g (exEv g)
    let mk : ℝ → Call noFilter := fun t => ⟨false, y, t, 0, 0, 0, 377⟩
    Ok noFilter g { h0 with filt := some (1 / 3) } (ts.map mk) ∧
    (run noFilter g { h0 with filt := some (1 / 3) } (ts.map mk)).rt.connected = true ∧
    (evalEnv noFilter g (mk 1) { h0 with filt := none }).2 = .error .attributeError ∧
    (evalEnv noFilter g' (mk 1) h0).2 = .error .valueError := by
  intro g g' h0 mk
  have hno : ∀ o ∈ exOps, o.isRemoval = false := by
    intro o ho
    simp only [exOps, List.mem_cons, List.not_mem_nil, or_false] at ho
    rcases ho with rfl | rfl | rfl <;> rfl
  have hG := ex_good noFilter exPar false (Or.inl rfl) exOps hno
  have hok : Ok noFilter g { h0 with filt := some (1 / 3) } (ts.map mk) :=
    C99_no_exception (k := noFilter) (g := g) (h := { h0 with filt := some (1 / 3) })
      ⟨hG.override, hG.msg, hG.ev, hG.dc, hG.lf, hG.ramp, by simp [g], fun _ => Or.inl (by simp)⟩ _
  refine ⟨hok, ?_, ?_, ?_⟩
  · refine C98_filtered_never_trips (k := noFilter) (v := 1 / 3) rfl rfl rfl exRT_init rfl ?_ _ hok
    constructor <;> intro z hz <;> simp [h0, exH, exRT, g, exG] at hz ⊢ <;> rcases hz with rfl | rfl <;> norm_num
  · exact (C98_bad_measurement_raises (k := noFilter) (g := g) (h := { h0 with filt := none }) hG.override hG.msg hG.ev hG.dc (mk 1) (Or.inl rfl) (by show (0:ℝ) < 1; norm_num)).2 rfl rfl rfl
  · exact (C98_bad_measurement_raises (k := noFilter) (g := g') (h := h0) hG.override hG.msg hG.ev hG.dc (mk 1) (Or.inl rfl) (by show (0:ℝ) < 1; norm_num)).1 rfl

end Eval
end PvDer
