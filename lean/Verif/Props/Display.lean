import Verif.Model.Display
import Verif.Props.ParRun
import Verif.Props.ConfigRun
import Verif.Props.Measured
import Verif.Props.Events
import Verif.Props.VdcRef
import Verif.Props.ShippedUse
/-!
C135, C136: `show_PV_DER_parameters` and `show_PV_DER_states`.
-/
set_option linter.unusedSectionVars false
namespace PvDer
namespace Display
open Complex Phasor Circuit

/-! ### C135: parameters -/

section
open Config
variable {m : Sim.Mt} {file : File} {id : String} {kw : Args} {s : Setup} {c : Cfg} (h : setupDER (template m) file id kw = .ok s) (hf : file id = some c)
  (hl : ∀ p ∈ kwRatings, c.entries p = none) {sa : Bool} {vpcc : ℝ} {e : Electrical} (he : electrical (template m) Circuit.Base.default sa vpcc s.design = .ok e)
include h hf hl he

/-- What the instance holds, in terms of the configuration. -/
theorem holds : (Configured m c kw "module_parameters" "Np" e.module.Np ∧ Configured m c kw "module_parameters" "Ns" e.module.Ns ∧ Configured m c kw "module_parameters" "Vdcmpp0" e.module.mpp0 ∧
      Configured m c kw "module_parameters" "Vdcmpp_min" e.module.mppMin ∧ Configured m c kw "module_parameters" "Vdcmpp_max" e.module.mppMax) ∧
    (Configured m c kw "inverter_ratings" "Srated" e.rating.S ∧ Configured m c kw "inverter_ratings" "Vdcrated" e.rating.Vdc ∧ Configured m c kw "inverter_ratings" "Vrmsrated" e.rating.Vrms) ∧
    (Configured m c kw "circuit_parameters" "Rf_actual" e.circuit.Rf ∧ Configured m c kw "circuit_parameters" "Lf_actual" e.circuit.Lf ∧
      (∀ q, Configured m c kw "circuit_parameters" "C_actual" q → e.circuit.C = some q)) ∧
    (Configured m c kw "controller_gains" "Kp_GCC" e.gain.KpGCC ∧ Configured m c kw "controller_gains" "Ki_GCC" e.gain.KiGCC ∧ Configured m c kw "controller_gains" "wp" e.gain.wp) ∧
    (∀ q, Configured m c kw "controller_gains" "Kp_DC" q → e.gain.KpDC = some q) ∧ (∀ q, Configured m c kw "controller_gains" "Ki_DC" q → e.gain.KiDC = some q) ∧
    (∀ q, Configured m c kw "controller_gains" "Kp_P" q → e.gain.KpP = some q) ∧ (∀ q, Configured m c kw "controller_gains" "Ki_P" q → e.gain.KiP = some q) ∧
    (∀ q, Configured m c kw "controller_gains" "Kp_Q" q → e.gain.KpQ = some q) ∧ (∀ q, Configured m c kw "controller_gains" "Ki_Q" q → e.gain.KiQ = some q) := by
  obtain ⟨md, rt, ct, gn, r1, r2, r3, r4, a, ⟨y1, y2, y3, _⟩, ⟨z1, z2, z3, _⟩, w, t4, t5, t6, t7, t8, t9, _⟩ := read_all h hf hl
  obtain ⟨e1, e2, e3, e4⟩ := electrical_parts he
  rw [r1] at e1; rw [r2] at e2; rw [r3] at e3; rw [r4] at e4
  cases e1; cases e2; cases e3; cases e4
  exact ⟨a, ⟨y1, y2, y3⟩, ⟨z1, z2, z3⟩, w, t4, t5, t6, t7, t8, t9⟩


omit hf hl in
/-- The duty cycle used for the rated inverter voltage is the configured one. -/
theorem holds_duty {q : ℚ} (hq : number s.design "basic_options" "m_steady_state" = .ok q) : e.duty = q := by
  unfold electrical at he
  obtain ⟨ms, hms, he⟩ := bind_ok he
  obtain ⟨lim, _, he⟩ := bind_ok he
  obtain ⟨md, h1, he⟩ := bind_ok he
  obtain ⟨rt, h2, he⟩ := bind_ok he
  obtain ⟨_, _, he⟩ := bind_ok he
  obtain ⟨ct, h3, he⟩ := bind_ok he
  obtain ⟨gn, h4, he⟩ := bind_ok he
  cases he
  rw [hq] at hms
  cases hms; rfl

omit h hf hl in
theorem no_capacitor (hc : inTemplate (template m) "circuit_parameters" "C_actual" = false) : e.circuit.C = none := by
  have h3 := (electrical_parts he).2.2.1
  unfold readCircuit at h3
  obtain ⟨r, _, h3⟩ := bind_ok h3
  obtain ⟨l, _, h3⟩ := bind_ok h3
  obtain ⟨o, ho, h3⟩ := bind_ok h3
  have e2 : e.circuit.C = o := by
    have := congrArg (fun x : Except Err CircuitData => match x with | .ok y => y.C | .error _ => none) h3
    exact this.symm
  unfold Config.optional at ho
  rw [hc] at ho
  rw [e2]
  cases ho; rfl

/-- **C135 (module parameters).** -/
theorem C135_module : ∃ Np Ns v0 v1 v2 : ℚ, Configured m c kw "module_parameters" "Np" Np ∧ Configured m c kw "module_parameters" "Ns" Ns ∧
    Configured m c kw "module_parameters" "Vdcmpp0" v0 ∧ Configured m c kw "module_parameters" "Vdcmpp_min" v1 ∧ Configured m c kw "module_parameters" "Vdcmpp_max" v2 ∧
    showParameters (template m) Circuit.Base.default id e (phasesOf (template m)) "module_parameters" =
      ([.text id, .num "Np" Np 0, .num "Ns" Ns 0, .num "Vdcmpp0" v0 3, .num "Vdcmpp_min" v1 3, .num "Vdcmpp_max" v2 3], none) := by
  obtain ⟨⟨a1, a2, a3, a4, a5⟩, _⟩ := holds h hf hl he
  refine ⟨_, _, _, _, _, a1, a2, a3, a4, a5, ?_⟩
  simp [showParameters, andThen, moduleRows]

/-- **C135 (ratings).** The rated power and voltages are the configured ones: the inverter voltage is half the DC voltage times the steady-state duty cycle, the grid-side voltage
the peak of the configured RMS voltage. -/
theorem C135_ratings : ∃ S Vdc V k : ℚ, Configured m c kw "inverter_ratings" "Srated" S ∧ Configured m c kw "inverter_ratings" "Vdcrated" Vdc ∧
    Configured m c kw "inverter_ratings" "Vrmsrated" V ∧ Configured m c kw "basic_options" "m_steady_state" k ∧
    showParameters (template m) Circuit.Base.default id e (phasesOf (template m)) "inverter_ratings" =
      ([.text id, .num "Srated" S 3, .num "Vdcrated" Vdc 3, .num "Vtrated (L-G peak)" (Vdc / 2 * k) 3, .num "Vrated (L-G peak)" (Real.sqrt 2 * V) 3], none) := by
  obtain ⟨_, ⟨a1, a2, a3⟩, _⟩ := holds h hf hl he
  obtain ⟨k, k1, k2⟩ := read_duty h hf hl
  have hk := holds_duty h he k1
  refine ⟨_, _, _, _, a1, a2, a3, k2, ?_⟩
  simp [showParameters, andThen, ratingRows, Electrical.plate, Ratings.Varated, hk, mul_comm]

/-- **C135 (circuit).** In the classes with a DC link the displayed capacitance, inductance and resistance are the configured ones, in farad, henry and ohm. -/
theorem C135_circuit_partial (hm : m ≠ .constVdc1 ∧ m ≠ .constVdc3) : ∃ C L R : ℚ, Configured m c kw "circuit_parameters" "C_actual" C ∧
    Configured m c kw "circuit_parameters" "Lf_actual" L ∧ Configured m c kw "circuit_parameters" "Rf_actual" R ∧
    showParameters (template m) Circuit.Base.default id e (phasesOf (template m)) "circuit_parameters" =
      ([.text id, .num "Cdc" C 9, .num "Lf" L 6, .num "Rf" R 3], none) := by
  obtain ⟨_, _, ⟨a1, a2, a3⟩, _⟩ := holds h hf hl he
  obtain ⟨C, _, hC⟩ := read_number h hf hl (comp := "circuit_parameters") (p := "C_actual")
    (by obtain ⟨h1, h2⟩ := hm; cases m <;> first | exact absurd rfl h1 | exact absurd rfl h2 | decide +kernel) (by decide)
  refine ⟨C, _, _, hC, a2, a1, ?_⟩
  have zb : Circuit.Base.default.Zbase ≠ 0 := by norm_num [Circuit.Base.Zbase, Circuit.Base.default]
  have wb : Circuit.Base.default.wbase ≠ 0 := by
    show 2 * Real.pi * 60 ≠ 0
    have := Real.pi_ne_zero
    positivity
  have lb : Circuit.Base.default.Lbase ≠ 0 := by unfold Circuit.Base.Lbase; exact div_ne_zero zb wb
  have cb : Circuit.Base.default.Cbase ≠ 0 := by unfold Circuit.Base.Cbase; exact div_ne_zero one_ne_zero (mul_ne_zero zb wb)
  have e1 : Ratings.C (e.plate (phasesOf (template m))) Circuit.Base.default * Circuit.Base.default.Cbase = C := by
    unfold Ratings.C
    rw [div_mul_cancel₀ _ cb]
    simp [Electrical.plate, a3 C hC]
  have e2 : Ratings.Lf (e.plate (phasesOf (template m))) Circuit.Base.default * Circuit.Base.default.Lbase = e.circuit.Lf := by
    unfold Ratings.Lf
    rw [div_mul_cancel₀ _ lb]; rfl
  have e3 : Ratings.Rf (e.plate (phasesOf (template m))) Circuit.Base.default * Circuit.Base.default.Zbase = e.circuit.Rf := by
    unfold Ratings.Rf
    rw [div_mul_cancel₀ _ zb]; rfl
  simp only [showParameters, andThen, circuitRows, a3 C hC, e1, e2, e3]
  simp

omit h hf hl in
/-- **C135, what is false.** In the two classes with a constant DC voltage `show_PV_DER_parameters('circuit_parameters')` prints the heading and then raises `AttributeError`: their
resistance and inductance cannot be displayed. `'all'` ends the same way, before the controller gains. -/
theorem C135_circuit_constVdc (hm : m = .constVdc1 ∨ m = .constVdc3) :
    showParameters (template m) Circuit.Base.default id e (phasesOf (template m)) "circuit_parameters" = ([.text id], some .attributeError) ∧
    showParameters (template m) Circuit.Base.default id e (phasesOf (template m)) "all" =
      (.text id :: (moduleRows e).1 ++ (ratingRows e (phasesOf (template m))).1, some .attributeError) := by
  have hn := no_capacitor (m := m) he (by rcases hm with rfl | rfl <;> decide +kernel)
  constructor <;> simp [showParameters, andThen, circuitRows, hn, moduleRows, ratingRows]

/-- **C135 (gains).** In the classes with a DC link the displayed gains are those of the current, DC voltage and reactive power controllers, with the configured values. -/
theorem C135_gains (hm : m ≠ .constVdc1 ∧ m ≠ .constVdc3) : ∃ k1 k2 w d1 d2 q1 q2 : ℚ, Configured m c kw "controller_gains" "Kp_GCC" k1 ∧ Configured m c kw "controller_gains" "Ki_GCC" k2 ∧
    Configured m c kw "controller_gains" "wp" w ∧ Configured m c kw "controller_gains" "Kp_DC" d1 ∧ Configured m c kw "controller_gains" "Ki_DC" d2 ∧
    Configured m c kw "controller_gains" "Kp_Q" q1 ∧ Configured m c kw "controller_gains" "Ki_Q" q2 ∧
    showParameters (template m) Circuit.Base.default id e (phasesOf (template m)) "controller_gains" =
      ([.text id, .text "Current controller", .num "Kp_GCC" k1 3, .num "Ki_GCC" k2 3, .num "wp" w 3, .text "DC link voltage controller", .num "Kp_DC" d1 3, .num "Ki_DC" d2 3,
        .text "Reactive power controller", .num "Kp_Q" q1 3, .num "Ki_Q" q2 3], none) := by
  obtain ⟨_, _, _, ⟨a1, a2, a3⟩, b1, b2, _, _, b5, b6⟩ := holds h hf hl he
  have rd : ∀ p, inTemplate (template m) "controller_gains" p = true → ∃ q, Configured m c kw "controller_gains" p q := fun p hp => by
    obtain ⟨q, _, hq⟩ := read_number h hf hl hp (by decide); exact ⟨q, hq⟩
  obtain ⟨h1, h2⟩ := hm
  have t : ∀ p ∈ ["Kp_GCC", "Ki_GCC", "wp", "Kp_DC", "Ki_DC", "Kp_Q", "Ki_Q"], inTemplate (template m) "controller_gains" p = true := by
    cases m <;> first | exact absurd rfl h1 | exact absurd rfl h2 | decide +kernel
  have t' : ∀ p ∈ ["Kp_P", "Kp_PLL"], inTemplate (template m) "controller_gains" p = false := by
    cases m <;> first | exact absurd rfl h1 | exact absurd rfl h2 | decide +kernel
  obtain ⟨d1, hd1⟩ := rd "Kp_DC" (t _ (by simp))
  obtain ⟨d2, hd2⟩ := rd "Ki_DC" (t _ (by simp))
  obtain ⟨q1, hq1⟩ := rd "Kp_Q" (t _ (by simp))
  obtain ⟨q2, hq2⟩ := rd "Ki_Q" (t _ (by simp))
  refine ⟨_, _, _, d1, d2, q1, q2, a1, a2, a3, hd1, hd2, hq1, hq2, ?_⟩
  have c1 := t "Kp_GCC" (by simp)
  have c2 := t "Ki_GCC" (by simp)
  have c3 := t "wp" (by simp)
  have c4 := t "Kp_DC" (by simp)
  have c5 := t "Ki_DC" (by simp)
  have c6 := t "Kp_Q" (by simp)
  have c7 := t "Ki_Q" (by simp)
  have c8 := t' "Kp_P" (by simp)
  have c9 := t' "Kp_PLL" (by simp)
  have rows : controllerRows (template m) e.gain controllers = ([.text "Current controller", .num "Kp_GCC" e.gain.KpGCC 3, .num "Ki_GCC" e.gain.KiGCC 3, .num "wp" e.gain.wp 3,
      .text "DC link voltage controller", .num "Kp_DC" d1 3, .num "Ki_DC" d2 3, .text "Reactive power controller", .num "Kp_Q" q1 3, .num "Ki_Q" q2 3], none) := by
    simp [controllerRows, controllers, c1, c2, c3, c4, c5, c6, c7, c8, c9, gainRows, gainAttr, b1 d1 hd1, b2 d2 hd2, b5 q1 hq1, b6 q2 hq2]
  simp [showParameters, andThen, rows]

/-- **C135 (gains, constant DC voltage).** -/
theorem C135_gains_constVdc (hm : m = .constVdc1 ∨ m = .constVdc3) : ∃ k1 k2 w p1 p2 q1 q2 : ℚ, Configured m c kw "controller_gains" "Kp_GCC" k1 ∧
    Configured m c kw "controller_gains" "Ki_GCC" k2 ∧ Configured m c kw "controller_gains" "wp" w ∧ Configured m c kw "controller_gains" "Kp_P" p1 ∧
    Configured m c kw "controller_gains" "Ki_P" p2 ∧ Configured m c kw "controller_gains" "Kp_Q" q1 ∧ Configured m c kw "controller_gains" "Ki_Q" q2 ∧
    showParameters (template m) Circuit.Base.default id e (phasesOf (template m)) "controller_gains" =
      ([.text id, .text "Current controller", .num "Kp_GCC" k1 3, .num "Ki_GCC" k2 3, .num "wp" w 3, .text "Active power controller", .num "Kp_P" p1 3, .num "Ki_P" p2 3,
        .text "Reactive power controller", .num "Kp_Q" q1 3, .num "Ki_Q" q2 3], none) := by
  obtain ⟨_, _, _, ⟨a1, a2, a3⟩, _, _, b3, b4, b5, b6⟩ := holds h hf hl he
  have rd : ∀ p, inTemplate (template m) "controller_gains" p = true → ∃ q, Configured m c kw "controller_gains" p q := fun p hp => by
    obtain ⟨q, _, hq⟩ := read_number h hf hl hp (by decide); exact ⟨q, hq⟩
  have t : ∀ p ∈ ["Kp_GCC", "Ki_GCC", "wp", "Kp_P", "Ki_P", "Kp_Q", "Ki_Q"], inTemplate (template m) "controller_gains" p = true := by
    rcases hm with rfl | rfl <;> decide +kernel
  have t' : ∀ p ∈ ["Kp_DC", "Kp_PLL"], inTemplate (template m) "controller_gains" p = false := by
    rcases hm with rfl | rfl <;> decide +kernel
  obtain ⟨d1, hd1⟩ := rd "Kp_P" (t _ (by simp))
  obtain ⟨d2, hd2⟩ := rd "Ki_P" (t _ (by simp))
  obtain ⟨q1, hq1⟩ := rd "Kp_Q" (t _ (by simp))
  obtain ⟨q2, hq2⟩ := rd "Ki_Q" (t _ (by simp))
  refine ⟨_, _, _, d1, d2, q1, q2, a1, a2, a3, hd1, hd2, hq1, hq2, ?_⟩
  have c1 := t "Kp_GCC" (by simp)
  have c2 := t "Ki_GCC" (by simp)
  have c3 := t "wp" (by simp)
  have c4 := t "Kp_P" (by simp)
  have c5 := t "Ki_P" (by simp)
  have c6 := t "Kp_Q" (by simp)
  have c7 := t "Ki_Q" (by simp)
  have c8 := t' "Kp_DC" (by simp)
  have c9 := t' "Kp_PLL" (by simp)
  have rows : controllerRows (template m) e.gain controllers = ([.text "Current controller", .num "Kp_GCC" e.gain.KpGCC 3, .num "Ki_GCC" e.gain.KiGCC 3, .num "wp" e.gain.wp 3,
      .text "Active power controller", .num "Kp_P" d1 3, .num "Ki_P" d2 3, .text "Reactive power controller", .num "Kp_Q" q1 3, .num "Ki_Q" q2 3], none) := by
    simp [controllerRows, controllers, c1, c2, c3, c4, c5, c6, c7, c8, c9, gainRows, gainAttr, b3 d1 hd1, b4 d2 hd2, b5 q1 hq1, b6 q2 hq2]
  simp [showParameters, andThen, rows]

omit h hf hl he in
/-- An unknown parameter type raises `ValueError` and prints nothing. -/
theorem C135_unknown {ty : String} (ht : ty ∉ ["module_parameters", "inverter_ratings", "controller_gains", "circuit_parameters", "all"]) :
    showParameters (template m) Circuit.Base.default id e (phasesOf (template m)) ty = ([], some .valueError) := by
  unfold showParameters
  rw [if_neg ht]

/-- **C135 (everything).** In the classes with a DC link `'all'` shows the four parts one after the other, under one heading. -/
theorem C135_all (hm : m ≠ .constVdc1 ∧ m ≠ .constVdc3) :
    let part := fun ty => (showParameters (template m) Circuit.Base.default id e (phasesOf (template m)) ty).1.tail
    showParameters (template m) Circuit.Base.default id e (phasesOf (template m)) "all" =
      (.text id :: part "module_parameters" ++ part "inverter_ratings" ++ part "circuit_parameters" ++ part "controller_gains", none) := by
  obtain ⟨_, _, _, _, _, _, hc⟩ := C135_circuit_partial h hf hl he hm
  obtain ⟨_, _, _, _, _, _, _, _, _, _, _, _, _, _, hg⟩ := C135_gains h hf hl he hm
  intro part
  have hc' := congrArg Prod.snd hc
  have hg' := congrArg Prod.snd hg
  simp only [showParameters, andThen] at hc' hg'
  have c2 : (circuitRows e (phasesOf (template m)) Circuit.Base.default).2 = none := by
    generalize circuitRows e (phasesOf (template m)) Circuit.Base.default = x at hc' ⊢
    rcases x with ⟨x, _ | y⟩ <;> simp at hc' ⊢
  have g2 : (controllerRows (template m) e.gain controllers).2 = none := by
    generalize controllerRows (template m) e.gain controllers = x at hg' ⊢
    rcases x with ⟨x, _ | y⟩ <;> simp at hg' ⊢
  simp only [part, showParameters, andThen]
  generalize circuitRows e (phasesOf (template m)) Circuit.Base.default = x at c2 ⊢
  generalize controllerRows (template m) e.gain controllers = y at g2 ⊢
  rcases x with ⟨x, x2⟩
  rcases y with ⟨y, y2⟩
  dsimp only at c2 g2
  subst c2; subst g2
  simp [moduleRows, ratingRows]
end

/-- The shipped configuration `50` meets the hypotheses, and its display shows 300 µF, 25 µH, 2 mΩ. -/
theorem C135_example : ∃ s e, Config.setupDER (Config.template .three) Config.Shipped.file "50" (Config.kwOf [("gridModel", .grid 1)]) = .ok s ∧
    Config.electrical (Config.template .three) Circuit.Base.default true 0 s.design = .ok e ∧
    showParameters (Config.template .three) Circuit.Base.default "50" e (Config.phasesOf (Config.template .three)) "circuit_parameters" =
      ([.text "50", .num "Cdc" (3 / 10000) 9, .num "Lf" (25 / 1000000) 6, .num "Rf" (2 / 1000) 3], none) := by
  obtain ⟨hk, s, e, hs, he⟩ := Config.Shipped.C131_example
  refine ⟨s, e, hs, he, ?_⟩
  have g (comp p : String) {q : ℚ} (h : Config.fileNum .three Config.Shipped.c_50 comp p = some q) :=
    Config.fileNum_configured (kw := Config.kwOf [("gridModel", .grid 1)]) h (hk p)
  obtain ⟨C, L, R, h1, h2, h3, h4⟩ := C135_circuit_partial hs (c := Config.Shipped.c_50) rfl (by decide +kernel) he (by decide)
  rw [Config.configured_unique h1 (g _ _ (q := 3 / 10000) (by decide +kernel)), Config.configured_unique h2 (g _ _ (q := 25 / 1000000) (by decide +kernel)),
    Config.configured_unique h3 (g _ _ (q := 2 / 1000) (by decide +kernel))] at h4
  rw [h4]
  norm_num

/-! ### C136: states -/

/-- The attributes hold what the update methods compute from the phasors: powers, RMS values and inverter voltages (Props/Measured, C123). -/
structure Current (k : Measured.Kind) (s : Measured.Inst) (a : Attrs) : Prop where
  S : Measured.S_calc k s = .ok a.S
  SPCC : Measured.S_PCC_calc k s = .ok a.SPCC
  Vtrms : Measured.Vtrms_calc k s = .ok a.Vtrms
  Vrms : Measured.Vrms_calc k s = .ok a.Vrms
  Irms : Measured.Irms_calc k s = .ok a.Irms
  vta : s.vta = a.ma * (a.Vdc / 2)
  bc : match s.bc, a.mbc with
    | none, none => k = .single
    | some ((vtb, _, _), (vtc, _, _)), some (mb, mc) => k ≠ .single ∧ vtb = mb * (a.Vdc / 2) ∧ vtc = mc * (a.Vdc / 2)
    | _, _ => False

/-- RMS value of three phasors (peak values): the root of half the mean square of the magnitudes. -/
def IsRms (r : ℝ) (u v w : ℂ) : Prop := 0 ≤ r ∧ r ^ 2 = (‖u‖ ^ 2 + ‖v‖ ^ 2 + ‖w‖ ^ 2) / 3 / 2

theorem urms_isRms (u v w : ℂ) {b : ℝ} (hb : 0 ≤ b) : IsRms (urms u v w * b) (u * b) (v * b) (w * b) := by
  refine ⟨mul_nonneg (Measured.urms_nonneg _ _ _) hb, ?_⟩
  have := Measured.urms_sq u v w
  simp only [norm_mul, Complex.norm_real, mul_pow, Real.norm_eq_abs, sq_abs]
  linear_combination (b ^ 2 / 6) * this

theorem base_ne {b : Circuit.Base} (hV : 0 < b.Vbase) : (b.Vbase : ℂ) * (b.Ibase : ℂ) = (b.Sbase : ℂ) := by
  rw [← Complex.ofReal_mul]
  congr 1
  unfold Circuit.Base.Ibase
  field_simp

/-- **C136 (three phases).** The four displays of a three-phase DER fit together in volts, amperes and volt-amperes: inverter voltages are duty cycle times half the DC voltage,
powers are half the sum of voltage times conjugate current of the phases (peak phasors), RMS values are those of the displayed phasors, `Vtn`, `In` and `m0` the sums of the phases.
Two labels are wrong: the third inverter voltage is labelled `Vtb` as well, and the value labelled `Vn`, beside the voltages at the point of common coupling, is the sum of the
*inverter* voltages. `_partial`: for the sum of the displayed `Va`, `Vb`, `Vc` this is false, see `C136_neutral`. -/
theorem C136_three_partial {k : Measured.Kind} {s : Measured.Inst} {a : Attrs} {x y : ℂ × ℂ × ℂ} (hbc : s.bc = some (x, y)) (h : Current k s a) {b : Circuit.Base}
    (hV : 0 < b.Vbase) (hS : 0 ≤ b.Sbase) (name : String) :
    ∃ (U Vtrms Vrms Irms Ppv : ℝ) (Ta Tb Tc Va Vb Vc Ia Ib Ic S SPCC ma mb mc : ℂ),
      showStates b name s a "voltage" = ([.text name, .num "Vdc" U 2, .cplx "Vta" Ta 2, .cplx "Vtb" Tb 2, .cplx "Vtb" Tc 2, .cplx "Vtn" (Ta + Tb + Tc) 2,
        .cplx "Va" Va 2, .cplx "Vb" Vb 2, .cplx "Vc" Vc 2, .cplx "Vn" (Ta + Tb + Tc) 2, .num "Vtrms" Vtrms 2, .num "Vpccrms" Vrms 2], none) ∧
      showStates b name s a "current" = ([.text name, .cplx "ia" Ia 2, .cplx "ib" Ib 2, .cplx "ic" Ic 2, .cplx "In" (Ia + Ib + Ic) 2, .num "Irms" Irms 2], none) ∧
      showStates b name s a "power" = ([.text name, .num "Ppv" Ppv 1, .cplx "S" S 1, .cplx "S_PCC" SPCC 1], none) ∧
      showStates b name s a "duty cycle" = ([.text name, .cplx "ma" ma 2, .cplx "mb" mb 2, .cplx "mc" mc 2, .cplx "m0" (ma + mb + mc) 2], none) ∧
      (Ta = ma * (U / 2) ∧ Tb = mb * (U / 2) ∧ Tc = mc * (U / 2)) ∧
      S = 1 / 2 * (Ta * (starRingEnd ℂ) Ia + Tb * (starRingEnd ℂ) Ib + Tc * (starRingEnd ℂ) Ic) ∧
      SPCC = 1 / 2 * (Va * (starRingEnd ℂ) Ia + Vb * (starRingEnd ℂ) Ib + Vc * (starRingEnd ℂ) Ic) ∧
      IsRms Vtrms Ta Tb Tc ∧ IsRms Vrms Va Vb Vc ∧ IsRms Irms Ia Ib Ic ∧
      U = a.Vdc * b.Vbase ∧ Ppv = a.Ppv * b.Sbase ∧ Va = s.va * b.Vbase ∧ Vb = x.2.1 * b.Vbase ∧ Vc = y.2.1 * b.Vbase ∧
      Ia = s.ia * b.Ibase ∧ Ib = x.2.2 * b.Ibase ∧ Ic = y.2.2 * b.Ibase := by
  obtain ⟨vtb, vb, ib⟩ := x
  obtain ⟨vtc, vc, ic⟩ := y
  obtain ⟨h1, h2, h3, h4, h5, h6, h7⟩ := h
  rw [hbc] at h7
  rcases hm : a.mbc with _ | ⟨mb, mc⟩
  · rw [hm] at h7; exact h7.elim
  rw [hm] at h7
  obtain ⟨hk, h8, h9⟩ := h7
  have hI : 0 ≤ b.Ibase := div_nonneg hS hV.le
  have hb := base_ne hV
  have e1 : a.S = 1 / 2 * (s.vta * (starRingEnd ℂ) s.ia + vtb * (starRingEnd ℂ) ib + vtc * (starRingEnd ℂ) ic) := by
    unfold Measured.S_calc at h1
    rw [hbc] at h1
    cases k with
    | single => exact absurd rfl hk
    | three => simp only [Except.ok.injEq] at h1; rw [← h1]; ring
    | balanced => simp only [Except.ok.injEq] at h1; rw [← h1]; ring
  have e2 : a.SPCC = 1 / 2 * (s.va * (starRingEnd ℂ) s.ia + vb * (starRingEnd ℂ) ib + vc * (starRingEnd ℂ) ic) := by
    unfold Measured.S_PCC_calc at h2
    rw [hbc] at h2
    cases k with
    | single => exact absurd rfl hk
    | three => simp only [Except.ok.injEq] at h2; rw [← h2]; ring
    | balanced => simp only [Except.ok.injEq] at h2; rw [← h2]; ring
  have e3 : a.Vtrms = urms s.vta vtb vtc := by
    unfold Measured.Vtrms_calc at h3
    rw [hbc] at h3
    cases k with
    | single => exact absurd rfl hk
    | three => simp only [Except.ok.injEq] at h3; exact h3.symm
    | balanced => simp only [Except.ok.injEq] at h3; exact h3.symm
  have e4 : a.Vrms = urms s.va vb vc := by
    unfold Measured.Vrms_calc at h4
    rw [hbc] at h4
    cases k with
    | single => exact absurd rfl hk
    | three => simp only [Except.ok.injEq] at h4; exact h4.symm
    | balanced => simp only [Except.ok.injEq] at h4; exact h4.symm
  have e5 : a.Irms = urms s.ia ib ic := by
    unfold Measured.Irms_calc at h5
    rw [hbc] at h5
    cases k with
    | single => exact absurd rfl hk
    | three => simp only [Except.ok.injEq] at h5; exact h5.symm
    | balanced => simp only [Except.ok.injEq] at h5; exact h5.symm
  refine ⟨a.Vdc * b.Vbase, a.Vtrms * b.Vbase, a.Vrms * b.Vbase, a.Irms * b.Ibase, a.Ppv * b.Sbase, s.vta * b.Vbase, vtb * b.Vbase, vtc * b.Vbase, s.va * b.Vbase, vb * b.Vbase, vc * b.Vbase,
    s.ia * b.Ibase, ib * b.Ibase, ic * b.Ibase, a.S * b.Sbase, a.SPCC * b.Sbase, a.ma, mb, mc, ?_, ?_, ?_, ?_, ⟨?_, ?_, ?_⟩, ?_, ?_, ?_, ?_, ?_, rfl, rfl, rfl, rfl, rfl, rfl, rfl, rfl⟩
  · simp [showStates, hbc, add_mul]
  · simp [showStates, hbc, add_mul]
  · simp [showStates]
  · simp [showStates, hm]
  · rw [h6]; push_cast; ring
  · rw [h8]; push_cast; ring
  · rw [h9]; push_cast; ring
  · rw [e1, ← hb]; simp only [map_mul, Complex.conj_ofReal]; ring
  · rw [e2, ← hb]; simp only [map_mul, Complex.conj_ofReal]; ring
  · rw [e3]; exact urms_isRms _ _ _ hV.le
  · rw [e4]; exact urms_isRms _ _ _ hV.le
  · rw [e5]; exact urms_isRms _ _ _ hI

/-- **C136 (one phase).** -/
theorem C136_single {s : Measured.Inst} {a : Attrs} (hbc : s.bc = none) (h : Current .single s a) {b : Circuit.Base} (hV : 0 < b.Vbase) (hS : 0 ≤ b.Sbase) (name : String) :
    ∃ (U Vtrms Vrms Irms Ppv : ℝ) (Ta Va Ia S SPCC ma : ℂ),
      showStates b name s a "voltage" = ([.text name, .num "Vdc" U 2, .cplx "Vta" Ta 2, .cplx "Va" Va 2, .num "Vtrms" Vtrms 2, .num "Vpccrms" Vrms 2], none) ∧
      showStates b name s a "current" = ([.text name, .cplx "ia" Ia 2, .num "Irms" Irms 2], none) ∧
      showStates b name s a "power" = ([.text name, .num "Ppv" Ppv 1, .cplx "S" S 1, .cplx "S_PCC" SPCC 1], none) ∧
      showStates b name s a "duty cycle" = ([.text name, .cplx "ma" ma 2], none) ∧
      Ta = ma * (U / 2) ∧ S = 1 / 2 * (Ta * (starRingEnd ℂ) Ia) ∧ SPCC = 1 / 2 * (Va * (starRingEnd ℂ) Ia) ∧
      IsRms Vtrms Ta Ta Ta ∧ IsRms Vrms Va Va Va ∧ IsRms Irms Ia Ia Ia ∧
      U = a.Vdc * b.Vbase ∧ Ppv = a.Ppv * b.Sbase ∧ Va = s.va * b.Vbase ∧ Ia = s.ia * b.Ibase := by
  obtain ⟨h1, h2, h3, h4, h5, h6, h7⟩ := h
  rw [hbc] at h7
  rcases hm : a.mbc with _ | ⟨mb, mc⟩
  swap
  · rw [hm] at h7; exact h7.elim
  have hI : 0 ≤ b.Ibase := div_nonneg hS hV.le
  have hb := base_ne hV
  simp only [Measured.S_calc, Measured.S_PCC_calc, Measured.Vtrms_calc, Measured.Vrms_calc, Measured.Irms_calc, Except.ok.injEq] at h1 h2 h3 h4 h5
  refine ⟨a.Vdc * b.Vbase, a.Vtrms * b.Vbase, a.Vrms * b.Vbase, a.Irms * b.Ibase, a.Ppv * b.Sbase, s.vta * b.Vbase, s.va * b.Vbase,
    s.ia * b.Ibase, a.S * b.Sbase, a.SPCC * b.Sbase, a.ma, ?_, ?_, ?_, ?_, ?_, ?_, ?_, ?_, ?_, ?_, rfl, rfl, rfl, rfl⟩
  · simp [showStates, hbc]
  · simp [showStates, hbc]
  · simp [showStates]
  · simp [showStates, hm]
  · rw [h6]; push_cast; ring
  · rw [← h1, ← hb]; simp only [map_mul, Complex.conj_ofReal]; ring
  · rw [← h2, ← hb]; simp only [map_mul, Complex.conj_ofReal]; ring
  · rw [← h3]; exact urms_isRms _ _ _ hV.le
  · rw [← h4]; exact urms_isRms _ _ _ hV.le
  · rw [← h5]; exact urms_isRms _ _ _ hI

/-- **C136 (the neutral).** The value displayed as `Vn` is the sum of the displayed `Va`, `Vb`, `Vc` iff the voltage drops over the three filters have no zero-sequence component;
so in balanced operation it is right (both are zero). -/
theorem C136_neutral {s : Measured.Inst} {x y : ℂ × ℂ × ℂ} {b : Circuit.Base} (hV : 0 < b.Vbase) :
    (s.vta + x.1 + y.1) * (b.Vbase : ℂ) = s.va * b.Vbase + x.2.1 * b.Vbase + y.2.1 * b.Vbase ↔ (s.vta - s.va) + (x.1 - x.2.1) + (y.1 - y.2.1) = 0 := by
  have hb : (b.Vbase : ℂ) ≠ 0 := by exact_mod_cast hV.ne'
  rw [← add_mul, ← add_mul]
  constructor
  · intro h
    have := mul_right_cancel₀ hb h
    linear_combination this
  · intro h
    rw [show s.vta + x.1 + y.1 = s.va + x.2.1 + y.2.1 by linear_combination h]

/-- An instance with a fault on phase a: `va = 0` while the inverter voltages are balanced. The display says `Vn: 0` although `Va + Vb + Vc` is not zero. -/
noncomputable def exFault : Measured.Inst :=
  { vta := 1, va := 0, ia := 1, bc := some ((ub 1, ub 1, ub 1), (uc 1, uc 1, uc 1)), vag := 1, vbg := ub 1, vcg := uc 1, ZL := 1, a := 1 }

/-- **C136, why not in full.** -/
theorem C136_neutral_wrong (a : Attrs) : ∃ pre post Va Vb Vc N, (showStates Circuit.Base.default "DER" exFault a "voltage").1 =
    pre ++ [.cplx "Va" Va 2, .cplx "Vb" Vb 2, .cplx "Vc" Vc 2, .cplx "Vn" N 2] ++ post ∧ N = 0 ∧ Va + Vb + Vc ≠ 0 := by
  have hz : (1 : ℂ) + ub 1 + uc 1 = 0 := (C47_phase_shift 1).2.2.2.2.1
  refine ⟨[.text "DER", .num "Vdc" (a.Vdc * Circuit.Base.default.Vbase) 2, .cplx "Vta" ((1 : ℂ) * Circuit.Base.default.Vbase) 2, .cplx "Vtb" (ub 1 * Circuit.Base.default.Vbase) 2,
    .cplx "Vtb" (uc 1 * Circuit.Base.default.Vbase) 2, .cplx "Vtn" ((1 + ub 1 + uc 1) * Circuit.Base.default.Vbase) 2],
    [.num "Vtrms" (a.Vtrms * Circuit.Base.default.Vbase) 2, .num "Vpccrms" (a.Vrms * Circuit.Base.default.Vbase) 2],
    0 * Circuit.Base.default.Vbase, ub 1 * Circuit.Base.default.Vbase, uc 1 * Circuit.Base.default.Vbase, (1 + ub 1 + uc 1) * Circuit.Base.default.Vbase, ?_, ?_, ?_⟩
  · simp [showStates, exFault]
  · rw [hz, zero_mul]
  · have : ub 1 + uc 1 = (-1 : ℂ) := by linear_combination hz
    rw [zero_mul, zero_add, ← add_mul, this]
    simp [Circuit.Base.default]

/-- The hypotheses of `C136_three_partial` can be met: the unit with the fault on phase a. -/
example : ∃ (a : Attrs) (x y : ℂ × ℂ × ℂ), exFault.bc = some (x, y) ∧ Current .three exFault a ∧ a.Vdc = 2 :=
  ⟨{ Vdc := 2, Vtrms := urms 1 (ub 1) (uc 1), Vrms := urms 0 (ub 1) (uc 1), Irms := urms 1 (ub 1) (uc 1), Ppv := 1,
     S := (1 / 2) * (1 * (starRingEnd ℂ) 1 + ub 1 * (starRingEnd ℂ) (ub 1) + uc 1 * (starRingEnd ℂ) (uc 1)) * 1,
     SPCC := (1 / 2) * (0 * (starRingEnd ℂ) 1 + ub 1 * (starRingEnd ℂ) (ub 1) + uc 1 * (starRingEnd ℂ) (uc 1)) * 1,
     ma := 1, mbc := some (ub 1, uc 1) }, _, _, rfl, ⟨rfl, rfl, rfl, rfl, rfl, by simp [exFault], by simp [exFault]⟩, rfl⟩

/-- An unknown quantity raises `ValueError` and prints nothing. -/
theorem C136_unknown {b : Circuit.Base} {name : String} {s : Measured.Inst} {a : Attrs} {q : String} (hq : q ∉ ["voltage", "current", "power", "duty cycle"]) :
    showStates b name s a q = ([], some .valueError) := by
  simp only [List.mem_cons, List.not_mem_nil, or_false, not_or] at hq
  simp [showStates, hq.1, hq.2.1, hq.2.2.1, hq.2.2.2]

end Display
end PvDer
