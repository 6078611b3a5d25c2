import Verif.Props.ParRun
import Verif.Props.Constructible
import Verif.Props.ClosedLoop3Units
import Verif.Props.ClosedLoop3ConstVdcUnits
import Verif.Model.Gen.Shipped
/-!
C131 for the configurations that come with the tool, and C124 from the configuration file to the closed loop.
-/
namespace PvDer
namespace Config

/-- The number configured for a parameter when the arguments do not override it: the DER's entry in the file, else the default of the class. -/
def fileNum (m : Sim.Mt) (c : Cfg) (comp p : String) : Option ℚ :=
  ((template m).lookup comp).bind fun ps => (ps.lookup p).bind fun d => (entry c comp p <|> some d).bind num

theorem fileNum_configured {m : Sim.Mt} {c : Cfg} {kw : Args} {comp p : String} {q : ℚ} (h : fileNum m c comp p = some q) (hk : p ∈ kwRatings → kwNumber kw p = none) :
    Configured m c kw comp p q := by
  unfold fileNum at h
  obtain ⟨ps, h1, h⟩ := Option.bind_eq_some_iff.1 h
  obtain ⟨d, h2, h⟩ := Option.bind_eq_some_iff.1 h
  obtain ⟨v, h3, h4⟩ := Option.bind_eq_some_iff.1 h
  refine ⟨d, v, ⟨ps, lookup_mem h1, lookup_mem h2⟩, ?_, h4⟩
  have : (if p ∈ kwRatings then kwNumber kw p else none) = none := by
    split
    · exact hk ‹_›
    · rfl
  rw [this]
  exact h3

theorem sqrt2_bounds : 14142 / 10000 ≤ Real.sqrt 2 ∧ Real.sqrt 2 ≤ 14143 / 10000 :=
  ⟨Real.le_sqrt_of_sq_le (by norm_num), Real.sqrt_le_iff.2 ⟨by norm_num, by norm_num⟩⟩

namespace Shipped

/-- No rating is overridden by a numeric keyword argument. -/
def NoOverride (kw : Args) : Prop := ∀ p ∈ kwRatings, kwNumber kw p = none

/-! ### The constants of the shipped units -/

section
variable {m : Sim.Mt} {kw : Args} {s : Setup} {sa : Bool} {vpcc : ℝ} {e : Electrical}

/-- **C131.** The 50 kVA configuration, for the class it names and the class without RMS filter: gains, filter, DC link, limits and DC voltage range of the equations. -/
theorem C131_shipped_50 (hm : m = .three ∨ m = .noFilter) (hs : setupDER (template m) file "50" kw = .ok s) (hk : NoOverride kw)
    (he : electrical (template m) Circuit.Base.default sa vpcc s.design = .ok e) :
    phasesOf (template m) = 3 ∧ Ode.ThreePhaseBalanced.Unit50 (e.par 3 Circuit.Base.default) ∧ (e.par 3 Circuit.Base.default).m_limit = 1 ∧ 173 / 100 ≤ (e.par 3 Circuit.Base.default).iref_limit ∧ (e.par 3 Circuit.Base.default).iref_limit ≤ 174 / 100 ∧
      (e.par 3 Circuit.Base.default).Vdcbase = 500 ∧ (e.par 3 Circuit.Base.default).Vdcmpp_max = 650 ∧ (e.par 3 Circuit.Base.default).wbase = 2 * Real.pi * 60 ∧ (m = .three → 0 < (e.par 3 Circuit.Base.default).Tfilter_Vrms) := by
  have n3 : phasesOf (template m) = 3 := by rcases hm with rfl | rfl <;> decide +kernel
  have hc := C131_constants hs (c := c_50) rfl (by decide +kernel) he
  rw [n3] at hc
  have g (comp p : String) {q : ℚ} (h : fileNum m c_50 comp p = some q) := fileNum_configured (kw := kw) h (hk p)
  obtain ⟨f1, f2, f3, f4, f5, _⟩ := hc.fixed
  refine ⟨n3, ⟨?_, ?_, ?_, ?_, ?_, ?_, ?_, ?_, ?_, ?_, by rw [f1]; norm_num, by rw [f2]; norm_num⟩, f3, ?_, ?_, f5, ?_, f4, ?_⟩
  · rw [hc.Kp_GCC 6000 (g _ _ (by rcases hm with rfl | rfl <;> decide +kernel))]; norm_num
  · rw [hc.Ki_GCC 2000 (g _ _ (by rcases hm with rfl | rfl <;> decide +kernel))]; norm_num
  · rw [hc.wp 200000 (g _ _ (by rcases hm with rfl | rfl <;> decide +kernel))]; norm_num
  · rw [hc.Kp_DC (-2) (g _ _ (by rcases hm with rfl | rfl <;> decide +kernel))]; norm_num
  · rw [hc.Ki_DC (-10) (g _ _ (by rcases hm with rfl | rfl <;> decide +kernel))]; norm_num
  · rw [hc.Kp_Q (1 / 5) (g _ _ (by rcases hm with rfl | rfl <;> decide +kernel))]; norm_num
  · rw [hc.Ki_Q 10 (g _ _ (by rcases hm with rfl | rfl <;> decide +kernel))]; norm_num
  · rw [hc.Rf (1 / 500) (g _ _ (by rcases hm with rfl | rfl <;> decide +kernel))]; norm_num
  · rw [hc.Lf (1 / 40000) (g _ _ (by rcases hm with rfl | rfl <;> decide +kernel))]; norm_num
  · rw [hc.C (3 / 10000) (g _ _ (by rcases hm with rfl | rfl <;> decide +kernel))]; norm_num
  · rw [hc.limit 50000 177 (13 / 10) (g _ _ (by rcases hm with rfl | rfl <;> decide +kernel)) (g _ _ (by rcases hm with rfl | rfl <;> decide +kernel)) (g _ _ (by rcases hm with rfl | rfl <;> decide +kernel))]
    obtain ⟨s0, s1⟩ := sqrt2_bounds
    push_cast
    linarith
  · rw [hc.limit 50000 177 (13 / 10) (g _ _ (by rcases hm with rfl | rfl <;> decide +kernel)) (g _ _ (by rcases hm with rfl | rfl <;> decide +kernel)) (g _ _ (by rcases hm with rfl | rfl <;> decide +kernel))]
    obtain ⟨s0, s1⟩ := sqrt2_bounds
    push_cast
    linarith
  · rw [hc.mppMax 650 (g _ _ (by rcases hm with rfl | rfl <;> decide +kernel))]; norm_num
  · rintro rfl
    rw [hc.Tfilter (1 / 10) (g _ _ (by decide +kernel))]; norm_num

/-- **C131.** … and its initialisation is accepted: always when stand-alone, otherwise exactly when the external voltage is within 10 % of the rated one. -/
theorem C131_shipped_50_accepted (hm : m = .three ∨ m = .noFilter) (hs : setupDER (template m) file "50" kw = .ok s) (hk : NoOverride kw) :
    (∃ e, electrical (template m) Circuit.Base.default sa vpcc s.design = .ok e) ↔ (sa = false → |vpcc - 177 * Real.sqrt 2 / 500| / (177 * Real.sqrt 2 / 500) ≤ 1 / 10) := by
  have g (comp p : String) {q : ℚ} (h : fileNum m c_50 comp p = some q) := fileNum_configured (kw := kw) h (hk p)
  rw [C131_accepted_iff hs (c := c_50) rfl (by decide +kernel) sa vpcc (V := 177) (Vdc := 550) (Vmin := 525) (k := 24 / 25) (g _ _ (by rcases hm with rfl | rfl <;> decide +kernel)) (g _ _ (by rcases hm with rfl | rfl <;> decide +kernel)) (g _ _ (by rcases hm with rfl | rfl <;> decide +kernel)) (g _ _ (by rcases hm with rfl | rfl <;> decide +kernel))]
  obtain ⟨s0, s1⟩ := sqrt2_bounds
  push_cast
  exact ⟨fun h => h.1, fun h => ⟨h, by linarith, by linarith⟩⟩

/-- **C131.** The 250 kVA configuration, for the class it names and the class without RMS filter: gains, filter, DC link, limits and DC voltage range of the equations. -/
theorem C131_shipped_250 (hm : m = .three ∨ m = .noFilter) (hs : setupDER (template m) file "250" kw = .ok s) (hk : NoOverride kw)
    (he : electrical (template m) Circuit.Base.default sa vpcc s.design = .ok e) :
    phasesOf (template m) = 3 ∧ Ode.ThreePhase.Unit250 (e.par 3 Circuit.Base.default) ∧ (e.par 3 Circuit.Base.default).m_limit = 1 ∧ 666 / 100 ≤ (e.par 3 Circuit.Base.default).iref_limit ∧ (e.par 3 Circuit.Base.default).iref_limit ≤ 667 / 100 ∧
      (e.par 3 Circuit.Base.default).Vdcbase = 500 ∧ (e.par 3 Circuit.Base.default).Vdcmpp_max = 1000 ∧ (e.par 3 Circuit.Base.default).wbase = 2 * Real.pi * 60 ∧ (m = .three → 0 < (e.par 3 Circuit.Base.default).Tfilter_Vrms) := by
  have n3 : phasesOf (template m) = 3 := by rcases hm with rfl | rfl <;> decide +kernel
  have hc := C131_constants hs (c := c_250) rfl (by decide +kernel) he
  rw [n3] at hc
  have g (comp p : String) {q : ℚ} (h : fileNum m c_250 comp p = some q) := fileNum_configured (kw := kw) h (hk p)
  obtain ⟨f1, f2, f3, f4, f5, _⟩ := hc.fixed
  refine ⟨n3, ⟨?_, ?_, ?_, ?_, ?_, ?_, ?_, ?_, ?_, ?_, by rw [f1]; norm_num, by rw [f2]; norm_num⟩, f3, ?_, ?_, f5, ?_, f4, ?_⟩
  · rw [hc.Kp_GCC 6000 (g _ _ (by rcases hm with rfl | rfl <;> decide +kernel))]; norm_num
  · rw [hc.Ki_GCC 2000 (g _ _ (by rcases hm with rfl | rfl <;> decide +kernel))]; norm_num
  · rw [hc.wp 200000 (g _ _ (by rcases hm with rfl | rfl <;> decide +kernel))]; norm_num
  · rw [hc.Kp_DC (-2) (g _ _ (by rcases hm with rfl | rfl <;> decide +kernel))]; norm_num
  · rw [hc.Ki_DC (-10) (g _ _ (by rcases hm with rfl | rfl <;> decide +kernel))]; norm_num
  · rw [hc.Kp_Q (1 / 5) (g _ _ (by rcases hm with rfl | rfl <;> decide +kernel))]; norm_num
  · rw [hc.Ki_Q 10 (g _ _ (by rcases hm with rfl | rfl <;> decide +kernel))]; norm_num
  · rw [hc.Rf (1 / 500) (g _ _ (by rcases hm with rfl | rfl <;> decide +kernel))]; norm_num
  · rw [hc.Lf (3 / 10000) (g _ _ (by rcases hm with rfl | rfl <;> decide +kernel))]; norm_num
  · rw [hc.C (3 / 10000) (g _ _ (by rcases hm with rfl | rfl <;> decide +kernel))]; norm_num
  · rw [hc.limit 250000 230 (13 / 10) (g _ _ (by rcases hm with rfl | rfl <;> decide +kernel)) (g _ _ (by rcases hm with rfl | rfl <;> decide +kernel)) (g _ _ (by rcases hm with rfl | rfl <;> decide +kernel))]
    obtain ⟨s0, s1⟩ := sqrt2_bounds
    push_cast
    linarith
  · rw [hc.limit 250000 230 (13 / 10) (g _ _ (by rcases hm with rfl | rfl <;> decide +kernel)) (g _ _ (by rcases hm with rfl | rfl <;> decide +kernel)) (g _ _ (by rcases hm with rfl | rfl <;> decide +kernel))]
    obtain ⟨s0, s1⟩ := sqrt2_bounds
    push_cast
    linarith
  · rw [hc.mppMax 1000 (g _ _ (by rcases hm with rfl | rfl <;> decide +kernel))]; norm_num
  · rintro rfl
    rw [hc.Tfilter (1 / 10) (g _ _ (by decide +kernel))]; norm_num

/-- **C131.** … and its initialisation is accepted: always when stand-alone, otherwise exactly when the external voltage is within 10 % of the rated one. -/
theorem C131_shipped_250_accepted (hm : m = .three ∨ m = .noFilter) (hs : setupDER (template m) file "250" kw = .ok s) (hk : NoOverride kw) :
    (∃ e, electrical (template m) Circuit.Base.default sa vpcc s.design = .ok e) ↔ (sa = false → |vpcc - 230 * Real.sqrt 2 / 500| / (230 * Real.sqrt 2 / 500) ≤ 1 / 10) := by
  have g (comp p : String) {q : ℚ} (h : fileNum m c_250 comp p = some q) := fileNum_configured (kw := kw) h (hk p)
  rw [C131_accepted_iff hs (c := c_250) rfl (by decide +kernel) sa vpcc (V := 230) (Vdc := 750) (Vmin := 750) (k := 24 / 25) (g _ _ (by rcases hm with rfl | rfl <;> decide +kernel)) (g _ _ (by rcases hm with rfl | rfl <;> decide +kernel)) (g _ _ (by rcases hm with rfl | rfl <;> decide +kernel)) (g _ _ (by rcases hm with rfl | rfl <;> decide +kernel))]
  obtain ⟨s0, s1⟩ := sqrt2_bounds
  push_cast
  exact ⟨fun h => h.1, fun h => ⟨h, by linarith, by linarith⟩⟩

/-- **C131.** The balanced 50 kVA configuration: gains, filter, DC link, limits and DC voltage range of the equations. -/
theorem C131_shipped_balanced (hs : setupDER (template .balanced) file "50_balanced" kw = .ok s) (hk : NoOverride kw)
    (he : electrical (template .balanced) Circuit.Base.default sa vpcc s.design = .ok e) :
    phasesOf (template .balanced) = 3 ∧ Ode.ThreePhaseBalanced.Unit50 (e.par 3 Circuit.Base.default) ∧ (e.par 3 Circuit.Base.default).m_limit = 1 ∧ 173 / 100 ≤ (e.par 3 Circuit.Base.default).iref_limit ∧ (e.par 3 Circuit.Base.default).iref_limit ≤ 174 / 100 ∧
      (e.par 3 Circuit.Base.default).Vdcbase = 500 ∧ (e.par 3 Circuit.Base.default).Vdcmpp_max = 650 ∧ (e.par 3 Circuit.Base.default).wbase = 2 * Real.pi * 60 := by
  have n3 : phasesOf (template .balanced) = 3 := by decide +kernel
  have hc := C131_constants hs (c := c_50_balanced) rfl (by decide +kernel) he
  rw [n3] at hc
  have g (comp p : String) {q : ℚ} (h : fileNum .balanced c_50_balanced comp p = some q) := fileNum_configured (kw := kw) h (hk p)
  obtain ⟨f1, f2, f3, f4, f5, _⟩ := hc.fixed
  refine ⟨n3, ⟨?_, ?_, ?_, ?_, ?_, ?_, ?_, ?_, ?_, ?_, by rw [f1]; norm_num, by rw [f2]; norm_num⟩, f3, ?_, ?_, f5, ?_, f4⟩
  · rw [hc.Kp_GCC 6000 (g _ _ (by decide +kernel))]; norm_num
  · rw [hc.Ki_GCC 2000 (g _ _ (by decide +kernel))]; norm_num
  · rw [hc.wp 200000 (g _ _ (by decide +kernel))]; norm_num
  · rw [hc.Kp_DC (-2) (g _ _ (by decide +kernel))]; norm_num
  · rw [hc.Ki_DC (-10) (g _ _ (by decide +kernel))]; norm_num
  · rw [hc.Kp_Q (1 / 5) (g _ _ (by decide +kernel))]; norm_num
  · rw [hc.Ki_Q 10 (g _ _ (by decide +kernel))]; norm_num
  · rw [hc.Rf (1 / 500) (g _ _ (by decide +kernel))]; norm_num
  · rw [hc.Lf (1 / 40000) (g _ _ (by decide +kernel))]; norm_num
  · rw [hc.C (3 / 10000) (g _ _ (by decide +kernel))]; norm_num
  · rw [hc.limit 50000 177 (13 / 10) (g _ _ (by decide +kernel)) (g _ _ (by decide +kernel)) (g _ _ (by decide +kernel))]
    obtain ⟨s0, s1⟩ := sqrt2_bounds
    push_cast
    linarith
  · rw [hc.limit 50000 177 (13 / 10) (g _ _ (by decide +kernel)) (g _ _ (by decide +kernel)) (g _ _ (by decide +kernel))]
    obtain ⟨s0, s1⟩ := sqrt2_bounds
    push_cast
    linarith
  · rw [hc.mppMax 650 (g _ _ (by decide +kernel))]; norm_num

/-- **C131.** … and its initialisation is accepted: always when stand-alone, otherwise exactly when the external voltage is within 10 % of the rated one. -/
theorem C131_shipped_balanced_accepted (hs : setupDER (template .balanced) file "50_balanced" kw = .ok s) (hk : NoOverride kw) :
    (∃ e, electrical (template .balanced) Circuit.Base.default sa vpcc s.design = .ok e) ↔ (sa = false → |vpcc - 177 * Real.sqrt 2 / 500| / (177 * Real.sqrt 2 / 500) ≤ 1 / 10) := by
  have g (comp p : String) {q : ℚ} (h : fileNum .balanced c_50_balanced comp p = some q) := fileNum_configured (kw := kw) h (hk p)
  rw [C131_accepted_iff hs (c := c_50_balanced) rfl (by decide +kernel) sa vpcc (V := 177) (Vdc := 550) (Vmin := 525) (k := 24 / 25) (g _ _ (by decide +kernel)) (g _ _ (by decide +kernel)) (g _ _ (by decide +kernel)) (g _ _ (by decide +kernel))]
  obtain ⟨s0, s1⟩ := sqrt2_bounds
  push_cast
  exact ⟨fun h => h.1, fun h => ⟨h, by linarith, by linarith⟩⟩

/-- **C131.** The single-phase 10 kVA configuration (its class fails later in the constructor, `C82_single_phase_unconstructible`): gains, filter, DC link, limits and DC voltage range of the equations. -/
theorem C131_shipped_single (hs : setupDER (template .single) file "10" kw = .ok s) (hk : NoOverride kw)
    (he : electrical (template .single) Circuit.Base.default sa vpcc s.design = .ok e) :
    phasesOf (template .single) = 1 ∧ Ode.SinglePhase.Unit10 (e.par 1 Circuit.Base.default) ∧ (e.par 1 Circuit.Base.default).m_limit = 1 ∧ 103 / 100 ≤ (e.par 1 Circuit.Base.default).iref_limit ∧ (e.par 1 Circuit.Base.default).iref_limit ≤ 26 / 25 ∧
      (e.par 1 Circuit.Base.default).Vdcbase = 500 ∧ (e.par 1 Circuit.Base.default).Vdcmpp_max = 800 ∧ (e.par 1 Circuit.Base.default).wbase = 2 * Real.pi * 60 := by
  have n3 : phasesOf (template .single) = 1 := by decide +kernel
  have hc := C131_constants hs (c := c_10) rfl (by decide +kernel) he
  rw [n3] at hc
  have g (comp p : String) {q : ℚ} (h : fileNum .single c_10 comp p = some q) := fileNum_configured (kw := kw) h (hk p)
  obtain ⟨f1, f2, f3, f4, f5, _⟩ := hc.fixed
  refine ⟨n3, ⟨?_, ?_, ?_, ?_, ?_, ?_, ?_, ?_, ?_, ?_, by rw [f1]; norm_num, by rw [f2]; norm_num⟩, f3, ?_, ?_, f5, ?_, f4⟩
  · rw [hc.Kp_GCC 12000 (g _ _ (by decide +kernel))]; norm_num
  · rw [hc.Ki_GCC 4000 (g _ _ (by decide +kernel))]; norm_num
  · rw [hc.wp 200000 (g _ _ (by decide +kernel))]; norm_num
  · rw [hc.Kp_DC (-4) (g _ _ (by decide +kernel))]; norm_num
  · rw [hc.Ki_DC (-20) (g _ _ (by decide +kernel))]; norm_num
  · rw [hc.Kp_Q (2 / 5) (g _ _ (by decide +kernel))]; norm_num
  · rw [hc.Ki_Q 20 (g _ _ (by decide +kernel))]; norm_num
  · rw [hc.Rf (1 / 500) (g _ _ (by decide +kernel))]; norm_num
  · rw [hc.Lf (1 / 40000) (g _ _ (by decide +kernel))]; norm_num
  · rw [hc.C (3 / 100000) (g _ _ (by decide +kernel))]; norm_num
  · rw [hc.limit 10000 177 (13 / 10) (g _ _ (by decide +kernel)) (g _ _ (by decide +kernel)) (g _ _ (by decide +kernel))]
    obtain ⟨s0, s1⟩ := sqrt2_bounds
    push_cast
    linarith
  · rw [hc.limit 10000 177 (13 / 10) (g _ _ (by decide +kernel)) (g _ _ (by decide +kernel)) (g _ _ (by decide +kernel))]
    obtain ⟨s0, s1⟩ := sqrt2_bounds
    push_cast
    linarith
  · rw [hc.mppMax 800 (g _ _ (by decide +kernel))]; norm_num

/-- **C131.** … and its initialisation is accepted: always when stand-alone, otherwise exactly when the external voltage is within 10 % of the rated one. -/
theorem C131_shipped_single_accepted (hs : setupDER (template .single) file "10" kw = .ok s) (hk : NoOverride kw) :
    (∃ e, electrical (template .single) Circuit.Base.default sa vpcc s.design = .ok e) ↔ (sa = false → |vpcc - 177 * Real.sqrt 2 / 500| / (177 * Real.sqrt 2 / 500) ≤ 1 / 10) := by
  have g (comp p : String) {q : ℚ} (h : fileNum .single c_10 comp p = some q) := fileNum_configured (kw := kw) h (hk p)
  rw [C131_accepted_iff hs (c := c_10) rfl (by decide +kernel) sa vpcc (V := 177) (Vdc := 550) (Vmin := 650) (k := 24 / 25) (g _ _ (by decide +kernel)) (g _ _ (by decide +kernel)) (g _ _ (by decide +kernel)) (g _ _ (by decide +kernel))]
  obtain ⟨s0, s1⟩ := sqrt2_bounds
  push_cast
  exact ⟨fun h => h.1, fun h => ⟨h, by linarith, by linarith⟩⟩

/-- **C131.** The single-phase 10 kVA configuration with constant DC voltage (its class fails later in the constructor): gains, filter, DC link, limits and DC voltage range of the equations. -/
theorem C131_shipped_single_constant_vdc (hs : setupDER (template .constVdc1) file "10_constantVdc" kw = .ok s) (hk : NoOverride kw)
    (he : electrical (template .constVdc1) Circuit.Base.default sa vpcc s.design = .ok e) :
    phasesOf (template .constVdc1) = 1 ∧ Ode.SinglePhaseConstantVdc.Unit10 (e.par 1 Circuit.Base.default) ∧ (e.par 1 Circuit.Base.default).m_limit = 1 ∧ 103 / 100 ≤ (e.par 1 Circuit.Base.default).iref_limit ∧ (e.par 1 Circuit.Base.default).iref_limit ≤ 26 / 25 ∧
      (e.par 1 Circuit.Base.default).Vdcbase = 500 ∧ (e.par 1 Circuit.Base.default).Vdcmpp_max = 800 ∧ (e.par 1 Circuit.Base.default).wbase = 2 * Real.pi * 60 := by
  have n3 : phasesOf (template .constVdc1) = 1 := by decide +kernel
  have hc := C131_constants hs (c := c_10_constantVdc) rfl (by decide +kernel) he
  rw [n3] at hc
  have g (comp p : String) {q : ℚ} (h : fileNum .constVdc1 c_10_constantVdc comp p = some q) := fileNum_configured (kw := kw) h (hk p)
  obtain ⟨f1, f2, f3, f4, f5, _⟩ := hc.fixed
  refine ⟨n3, ⟨?_, ?_, ?_, ?_, ?_, ?_, ?_, ?_, ?_, ?_, by rw [f1]; norm_num, by rw [f2]; norm_num⟩, f3, ?_, ?_, f5, ?_, f4⟩
  · rw [hc.Kp_GCC 12000 (g _ _ (by decide +kernel))]; norm_num
  · rw [hc.Ki_GCC 4000 (g _ _ (by decide +kernel))]; norm_num
  · rw [hc.wp 200000 (g _ _ (by decide +kernel))]; norm_num
  · rw [hc.Kp_P (1 / 10) (g _ _ (by decide +kernel))]; norm_num
  · rw [hc.Ki_P 40 (g _ _ (by decide +kernel))]; norm_num
  · rw [hc.Kp_Q (1 / 25) (g _ _ (by decide +kernel))]; norm_num
  · rw [hc.Ki_Q 2 (g _ _ (by decide +kernel))]; norm_num
  · rw [hc.Rf (1 / 500) (g _ _ (by decide +kernel))]; norm_num
  · rw [hc.Lf (1 / 40000) (g _ _ (by decide +kernel))]; norm_num
  · exact f4
  · rw [hc.limit 10000 177 (13 / 10) (g _ _ (by decide +kernel)) (g _ _ (by decide +kernel)) (g _ _ (by decide +kernel))]
    obtain ⟨s0, s1⟩ := sqrt2_bounds
    push_cast
    linarith
  · rw [hc.limit 10000 177 (13 / 10) (g _ _ (by decide +kernel)) (g _ _ (by decide +kernel)) (g _ _ (by decide +kernel))]
    obtain ⟨s0, s1⟩ := sqrt2_bounds
    push_cast
    linarith
  · rw [hc.mppMax 800 (g _ _ (by decide +kernel))]; norm_num

/-- **C131.** … and its initialisation is accepted: always when stand-alone, otherwise exactly when the external voltage is within 10 % of the rated one. -/
theorem C131_shipped_single_constant_vdc_accepted (hs : setupDER (template .constVdc1) file "10_constantVdc" kw = .ok s) (hk : NoOverride kw) :
    (∃ e, electrical (template .constVdc1) Circuit.Base.default sa vpcc s.design = .ok e) ↔ (sa = false → |vpcc - 177 * Real.sqrt 2 / 500| / (177 * Real.sqrt 2 / 500) ≤ 1 / 10) := by
  have g (comp p : String) {q : ℚ} (h : fileNum .constVdc1 c_10_constantVdc comp p = some q) := fileNum_configured (kw := kw) h (hk p)
  rw [C131_accepted_iff hs (c := c_10_constantVdc) rfl (by decide +kernel) sa vpcc (V := 177) (Vdc := 550) (Vmin := 650) (k := 24 / 25) (g _ _ (by decide +kernel)) (g _ _ (by decide +kernel)) (g _ _ (by decide +kernel)) (g _ _ (by decide +kernel))]
  obtain ⟨s0, s1⟩ := sqrt2_bounds
  push_cast
  exact ⟨fun h => h.1, fun h => ⟨h, by linarith, by linarith⟩⟩

/-- **C131.** The three-phase 50 kVA configuration with constant DC voltage: gains, filter, DC link, limits and DC voltage range of the equations. -/
theorem C131_shipped_three_constant_vdc (hs : setupDER (template .constVdc3) file "50_constantVdc" kw = .ok s) (hk : NoOverride kw)
    (he : electrical (template .constVdc3) Circuit.Base.default sa vpcc s.design = .ok e) :
    phasesOf (template .constVdc3) = 3 ∧ Ode.ThreePhaseConstantVdc.Unit50 (e.par 3 Circuit.Base.default) ∧ (e.par 3 Circuit.Base.default).m_limit = 1 ∧ 173 / 100 ≤ (e.par 3 Circuit.Base.default).iref_limit ∧ (e.par 3 Circuit.Base.default).iref_limit ≤ 174 / 100 ∧
      (e.par 3 Circuit.Base.default).Vdcbase = 500 ∧ (e.par 3 Circuit.Base.default).Vdcmpp_max = 650 ∧ (e.par 3 Circuit.Base.default).wbase = 2 * Real.pi * 60 := by
  have n3 : phasesOf (template .constVdc3) = 3 := by decide +kernel
  have hc := C131_constants hs (c := c_50_constantVdc) rfl (by decide +kernel) he
  rw [n3] at hc
  have g (comp p : String) {q : ℚ} (h : fileNum .constVdc3 c_50_constantVdc comp p = some q) := fileNum_configured (kw := kw) h (hk p)
  obtain ⟨f1, f2, f3, f4, f5, _⟩ := hc.fixed
  refine ⟨n3, ⟨?_, ?_, ?_, ?_, ?_, ?_, ?_, ?_, ?_, ?_, by rw [f1]; norm_num, by rw [f2]; norm_num⟩, f3, ?_, ?_, f5, ?_, f4⟩
  · rw [hc.Kp_GCC 6000 (g _ _ (by decide +kernel))]; norm_num
  · rw [hc.Ki_GCC 2000 (g _ _ (by decide +kernel))]; norm_num
  · rw [hc.wp 200000 (g _ _ (by decide +kernel))]; norm_num
  · rw [hc.Kp_P (1 / 10) (g _ _ (by decide +kernel))]; norm_num
  · rw [hc.Ki_P 2 (g _ _ (by decide +kernel))]; norm_num
  · rw [hc.Kp_Q (1 / 5) (g _ _ (by decide +kernel))]; norm_num
  · rw [hc.Ki_Q 10 (g _ _ (by decide +kernel))]; norm_num
  · rw [hc.Rf (1 / 500) (g _ _ (by decide +kernel))]; norm_num
  · rw [hc.Lf (1 / 40000) (g _ _ (by decide +kernel))]; norm_num
  · exact f4
  · rw [hc.limit 50000 177 (13 / 10) (g _ _ (by decide +kernel)) (g _ _ (by decide +kernel)) (g _ _ (by decide +kernel))]
    obtain ⟨s0, s1⟩ := sqrt2_bounds
    push_cast
    linarith
  · rw [hc.limit 50000 177 (13 / 10) (g _ _ (by decide +kernel)) (g _ _ (by decide +kernel)) (g _ _ (by decide +kernel))]
    obtain ⟨s0, s1⟩ := sqrt2_bounds
    push_cast
    linarith
  · rw [hc.mppMax 650 (g _ _ (by decide +kernel))]; norm_num

/-- **C131.** … and its initialisation is accepted: always when stand-alone, otherwise exactly when the external voltage is within 10 % of the rated one. -/
theorem C131_shipped_three_constant_vdc_accepted (hs : setupDER (template .constVdc3) file "50_constantVdc" kw = .ok s) (hk : NoOverride kw) :
    (∃ e, electrical (template .constVdc3) Circuit.Base.default sa vpcc s.design = .ok e) ↔ (sa = false → |vpcc - 177 * Real.sqrt 2 / 500| / (177 * Real.sqrt 2 / 500) ≤ 1 / 10) := by
  have g (comp p : String) {q : ℚ} (h : fileNum .constVdc3 c_50_constantVdc comp p = some q) := fileNum_configured (kw := kw) h (hk p)
  rw [C131_accepted_iff hs (c := c_50_constantVdc) rfl (by decide +kernel) sa vpcc (V := 177) (Vdc := 550) (Vmin := 525) (k := 24 / 25) (g _ _ (by decide +kernel)) (g _ _ (by decide +kernel)) (g _ _ (by decide +kernel)) (g _ _ (by decide +kernel))]
  obtain ⟨s0, s1⟩ := sqrt2_bounds
  push_cast
  exact ⟨fun h => h.1, fun h => ⟨h, by linarith, by linarith⟩⟩

end

/-! ### From the file to the closed loop -/

section
open Ode Eval
variable {kw : Args} {s : Setup} {sa : Bool} {vpcc : ℝ} {e : Electrical}

/-- **C124, from the file.** The shipped 50 kVA unit: whatever the arguments (no rating overridden), if construction gets through, the closed loop with the constants it derived settles
locally and exponentially, for every grid voltage of 2 / 5 to 13 / 25 per unit, frequency up to 1.2 per unit, DC reference of 21 / 20 to 13 / 10 per unit within the module's range, and load
below the current limit that the PV array supplies near its maximum power point. -/
theorem C124_from_file_50 (hs : setupDER (template .three) file "50" kw = .ok s) (hk : NoOverride kw)
    (he : electrical (template .three) Circuit.Base.default sa vpcc s.design = .ok e) {v w U i S T : ℝ} (v0 : 2 / 5 ≤ v) (v1 : v ≤ 13 / 25)
    (w1 : |w / (2 * Real.pi * 60)| ≤ 6 / 5) (U0 : 21 / 20 ≤ U) (vU : 2 * v + 1 / 100 ≤ U) (U1 : U < 13 / 10) (i0 : 0 < i) (i1 : i < (e.par 3 Circuit.Base.default).iref_limit)
    (hP : pvCurve (e.par 3 Circuit.Base.default) S T U = 3 / 2 * (v * i + (e.par 3 Circuit.Base.default).Rf * i ^ 2)) (f0 : -1 ≤ pvSlope (e.par 3 Circuit.Base.default) S T U) (f1 : pvSlope (e.par 3 Circuit.Base.default) S T U ≤ 1 / 2) :
    ∃ δ > 0, ∃ M > 0, ∃ a > 0, ∀ (inp : ℝ → Inp) (Y : ℝ → ThreePhase.V → ℝ), OperatingDc 3 (e.par 3 Circuit.Base.default) v w U i (pvCurve (e.par 3 Circuit.Base.default) S T) inp →
      (∀ t, 0 ≤ t → Solves (fun t y => ThreePhase.rhs (envT (e.par 3 Circuit.Base.default) (inp t) y)) Y t) → ‖Y 0 - ThreePhase.rest (e.par 3 Circuit.Base.default) v w U i 0‖ ≤ δ →
      ∀ t, 0 ≤ t → ‖Y t - ThreePhase.rest (e.par 3 Circuit.Base.default) v w U i t‖ ≤ M * ‖Y 0 - ThreePhase.rest (e.par 3 Circuit.Base.default) v w U i 0‖ * Real.exp (-a * t) := by
  obtain ⟨_, h1, h2, _, h4, h5, h6, h7, h8⟩ := C131_shipped_50 (.inl rfl) hs hk he
  generalize e.par 3 Circuit.Base.default = p at *
  exact ThreePhase.C124_shipped_three_50 h1 h2 h4 (h8 rfl) v0 v1 (by rw [h7]; exact w1) U0 (by linarith) vU (by rw [h5, h6]; linarith) i0 i1 hP f0 f1

/-- **C124, from the file.** The shipped 250 kVA unit (gradient limiter switched off, as `OperatingDc` asks): whatever the arguments (no rating overridden), if construction gets through, the closed loop with the constants it derived settles
locally and exponentially, for every grid voltage of 1 / 2 to 18 / 25 per unit, frequency up to 1.2 per unit, DC reference of 3 / 2 to 2 per unit within the module's range, and load
below the current limit that the PV array supplies near its maximum power point. -/
theorem C124_from_file_250 (hs : setupDER (template .three) file "250" kw = .ok s) (hk : NoOverride kw)
    (he : electrical (template .three) Circuit.Base.default sa vpcc s.design = .ok e) {v w U i S T : ℝ} (v0 : 1 / 2 ≤ v) (v1 : v ≤ 18 / 25)
    (w1 : |w / (2 * Real.pi * 60)| ≤ 6 / 5) (U0 : 3 / 2 ≤ U) (U1 : U < 2) (i0 : 0 < i) (i1 : i < (e.par 3 Circuit.Base.default).iref_limit)
    (hP : pvCurve (e.par 3 Circuit.Base.default) S T U = 3 / 2 * (v * i + (e.par 3 Circuit.Base.default).Rf * i ^ 2)) (f0 : -4 ≤ pvSlope (e.par 3 Circuit.Base.default) S T U) (f1 : pvSlope (e.par 3 Circuit.Base.default) S T U ≤ 1 / 2) :
    ∃ δ > 0, ∃ M > 0, ∃ a > 0, ∀ (inp : ℝ → Inp) (Y : ℝ → ThreePhase.V → ℝ), OperatingDc 3 (e.par 3 Circuit.Base.default) v w U i (pvCurve (e.par 3 Circuit.Base.default) S T) inp →
      (∀ t, 0 ≤ t → Solves (fun t y => ThreePhase.rhs (envT (e.par 3 Circuit.Base.default) (inp t) y)) Y t) → ‖Y 0 - ThreePhase.rest (e.par 3 Circuit.Base.default) v w U i 0‖ ≤ δ →
      ∀ t, 0 ≤ t → ‖Y t - ThreePhase.rest (e.par 3 Circuit.Base.default) v w U i t‖ ≤ M * ‖Y 0 - ThreePhase.rest (e.par 3 Circuit.Base.default) v w U i 0‖ * Real.exp (-a * t) := by
  obtain ⟨_, h1, h2, _, h4, h5, h6, h7, h8⟩ := C131_shipped_250 (.inl rfl) hs hk he
  generalize e.par 3 Circuit.Base.default = p at *
  exact ThreePhase.C124_shipped_three_250 h1 h2 h4 (h8 rfl) v0 v1 (by rw [h7]; exact w1) U0 (by linarith) (by rw [h5, h6]; linarith) i0 i1 hP f0 f1

/-- **C124, from the file.** The shipped 50 kVA unit in the class without RMS filter: whatever the arguments (no rating overridden), if construction gets through, the closed loop with the constants it derived settles
locally and exponentially, for every grid voltage of 2 / 5 to 13 / 25 per unit, frequency up to 1.2 per unit, DC reference of 21 / 20 to 13 / 10 per unit within the module's range, and load
below the current limit that the PV array supplies near its maximum power point. -/
theorem C124_from_file_no_filter_50 (hs : setupDER (template .noFilter) file "50" kw = .ok s) (hk : NoOverride kw)
    (he : electrical (template .noFilter) Circuit.Base.default sa vpcc s.design = .ok e) {v w U i S T : ℝ} (v0 : 2 / 5 ≤ v) (v1 : v ≤ 13 / 25)
    (w1 : |w / (2 * Real.pi * 60)| ≤ 6 / 5) (U0 : 21 / 20 ≤ U) (vU : 2 * v + 1 / 100 ≤ U) (U1 : U < 13 / 10) (i0 : 0 < i) (i1 : i < (e.par 3 Circuit.Base.default).iref_limit)
    (hP : pvCurve (e.par 3 Circuit.Base.default) S T U = 3 / 2 * (v * i + (e.par 3 Circuit.Base.default).Rf * i ^ 2)) (f0 : -1 ≤ pvSlope (e.par 3 Circuit.Base.default) S T U) (f1 : pvSlope (e.par 3 Circuit.Base.default) S T U ≤ 1 / 2) :
    ∃ δ > 0, ∃ M > 0, ∃ a > 0, ∀ (inp : ℝ → Inp) (Y : ℝ → ThreePhaseNoVrmsFilter.V → ℝ), OperatingDc 3 (e.par 3 Circuit.Base.default) v w U i (pvCurve (e.par 3 Circuit.Base.default) S T) inp →
      (∀ t, 0 ≤ t → Solves (fun t y => ThreePhaseNoVrmsFilter.rhs (envN (e.par 3 Circuit.Base.default) (inp t) y)) Y t) → ‖Y 0 - Loop3.rest (e.par 3 Circuit.Base.default) v w U i 0‖ ≤ δ →
      ∀ t, 0 ≤ t → ‖Y t - Loop3.rest (e.par 3 Circuit.Base.default) v w U i t‖ ≤ M * ‖Y 0 - Loop3.rest (e.par 3 Circuit.Base.default) v w U i 0‖ * Real.exp (-a * t) := by
  obtain ⟨_, h1, h2, _, h4, h5, h6, h7, h8⟩ := C131_shipped_50 (.inr rfl) hs hk he
  generalize e.par 3 Circuit.Base.default = p at *
  exact ThreePhaseNoVrmsFilter.C124_shipped_no_filter_50 h1 h2 h4 v0 v1 (by rw [h7]; exact w1) U0 (by linarith) vU (by rw [h5, h6]; linarith) i0 i1 hP f0 f1

/-- **C124, from the file.** The shipped 250 kVA unit in the class without RMS filter: whatever the arguments (no rating overridden), if construction gets through, the closed loop with the constants it derived settles
locally and exponentially, for every grid voltage of 1 / 2 to 18 / 25 per unit, frequency up to 1.2 per unit, DC reference of 3 / 2 to 2 per unit within the module's range, and load
below the current limit that the PV array supplies near its maximum power point. -/
theorem C124_from_file_no_filter_250 (hs : setupDER (template .noFilter) file "250" kw = .ok s) (hk : NoOverride kw)
    (he : electrical (template .noFilter) Circuit.Base.default sa vpcc s.design = .ok e) {v w U i S T : ℝ} (v0 : 1 / 2 ≤ v) (v1 : v ≤ 18 / 25)
    (w1 : |w / (2 * Real.pi * 60)| ≤ 6 / 5) (U0 : 3 / 2 ≤ U) (U1 : U < 2) (i0 : 0 < i) (i1 : i < (e.par 3 Circuit.Base.default).iref_limit)
    (hP : pvCurve (e.par 3 Circuit.Base.default) S T U = 3 / 2 * (v * i + (e.par 3 Circuit.Base.default).Rf * i ^ 2)) (f0 : -4 ≤ pvSlope (e.par 3 Circuit.Base.default) S T U) (f1 : pvSlope (e.par 3 Circuit.Base.default) S T U ≤ 1 / 2) :
    ∃ δ > 0, ∃ M > 0, ∃ a > 0, ∀ (inp : ℝ → Inp) (Y : ℝ → ThreePhaseNoVrmsFilter.V → ℝ), OperatingDc 3 (e.par 3 Circuit.Base.default) v w U i (pvCurve (e.par 3 Circuit.Base.default) S T) inp →
      (∀ t, 0 ≤ t → Solves (fun t y => ThreePhaseNoVrmsFilter.rhs (envN (e.par 3 Circuit.Base.default) (inp t) y)) Y t) → ‖Y 0 - Loop3.rest (e.par 3 Circuit.Base.default) v w U i 0‖ ≤ δ →
      ∀ t, 0 ≤ t → ‖Y t - Loop3.rest (e.par 3 Circuit.Base.default) v w U i t‖ ≤ M * ‖Y 0 - Loop3.rest (e.par 3 Circuit.Base.default) v w U i 0‖ * Real.exp (-a * t) := by
  obtain ⟨_, h1, h2, _, h4, h5, h6, h7, h8⟩ := C131_shipped_250 (.inr rfl) hs hk he
  generalize e.par 3 Circuit.Base.default = p at *
  exact ThreePhaseNoVrmsFilter.C124_shipped_no_filter_250 h1 h2 h4 v0 v1 (by rw [h7]; exact w1) U0 (by linarith) (by rw [h5, h6]; linarith) i0 i1 hP f0 f1

/-- **C124, from the file.** The shipped balanced 50 kVA unit: whatever the arguments (no rating overridden), if construction gets through, the closed loop with the constants it derived settles
locally and exponentially, for every grid voltage of 2 / 5 to 13 / 25 per unit, frequency up to 1.2 per unit, DC reference of 21 / 20 to 13 / 10 per unit within the module's range, and load
below the current limit that the PV array supplies near its maximum power point. -/
theorem C124_from_file_balanced (hs : setupDER (template .balanced) file "50_balanced" kw = .ok s) (hk : NoOverride kw)
    (he : electrical (template .balanced) Circuit.Base.default sa vpcc s.design = .ok e) {v w U i S T : ℝ} (v0 : 2 / 5 ≤ v) (v1 : v ≤ 13 / 25)
    (w1 : |w / (2 * Real.pi * 60)| ≤ 6 / 5) (U0 : 21 / 20 ≤ U) (vU : 2 * v + 1 / 100 ≤ U) (U1 : U < 13 / 10) (i0 : 0 < i) (i1 : i < (e.par 3 Circuit.Base.default).iref_limit)
    (hP : pvCurve (e.par 3 Circuit.Base.default) S T U = 3 / 2 * (v * i + (e.par 3 Circuit.Base.default).Rf * i ^ 2)) (f0 : -1 ≤ pvSlope (e.par 3 Circuit.Base.default) S T U) (f1 : pvSlope (e.par 3 Circuit.Base.default) S T U ≤ 1 / 2) :
    ∃ δ > 0, ∃ M > 0, ∃ a > 0, ∀ (inp : ℝ → Inp) (Y : ℝ → ThreePhaseBalanced.V → ℝ), OperatingDc 3 (e.par 3 Circuit.Base.default) v w U i (pvCurve (e.par 3 Circuit.Base.default) S T) inp →
      (∀ t, 0 ≤ t → Solves (fun t y => ThreePhaseBalanced.rhs (envB (e.par 3 Circuit.Base.default) (inp t) y)) Y t) → ‖Y 0 - fun j => DcLoop.rest (e.par 3 Circuit.Base.default) v w U i 0 (ThreePhaseBalanced.toS j)‖ ≤ δ →
      ∀ t, 0 ≤ t → ‖Y t - fun j => DcLoop.rest (e.par 3 Circuit.Base.default) v w U i t (ThreePhaseBalanced.toS j)‖ ≤ M * ‖Y 0 - fun j => DcLoop.rest (e.par 3 Circuit.Base.default) v w U i 0 (ThreePhaseBalanced.toS j)‖ * Real.exp (-a * t) := by
  obtain ⟨_, h1, h2, _, h4, h5, h6, h7⟩ := C131_shipped_balanced  hs hk he
  generalize e.par 3 Circuit.Base.default = p at *
  exact ThreePhaseBalanced.C124_shipped_balanced h1 h2 h4 v0 v1 (by rw [h7]; exact w1) U0 (by linarith) vU (by rw [h5, h6]; linarith) i0 i1 hP f0 f1

/-- **C124, from the file.** The shipped 50 kVA unit with constant DC voltage: whatever the arguments (no rating overridden), if construction gets through, the closed loop with the constants it derived
settles locally and exponentially, for every grid voltage of 2 / 5 to 13 / 25 per unit, frequency up to 1.2 per unit, DC voltage of 21 / 20 to 13 / 10 per unit that covers the grid voltage, and load below the current limit. -/
theorem C124_from_file_three_constant_vdc (hs : setupDER (template .constVdc3) file "50_constantVdc" kw = .ok s) (hk : NoOverride kw)
    (he : electrical (template .constVdc3) Circuit.Base.default sa vpcc s.design = .ok e) {v w U i : ℝ} (v0 : 2 / 5 ≤ v) (v1 : v ≤ 13 / 25)
    (w1 : |w / (2 * Real.pi * 60)| ≤ 6 / 5) (U0 : 21 / 20 ≤ U) (vU : 2 * v + 1 / 100 ≤ U) (U1 : U ≤ 13 / 10) (i0 : 0 ≤ i) (i1 : i < (e.par 3 Circuit.Base.default).iref_limit) :
    ∃ δ > 0, ∃ M > 0, ∃ a > 0, ∀ (inp : ℝ → Inp) (Y : ℝ → ThreePhaseConstantVdc.V → ℝ), Operating3 (e.par 3 Circuit.Base.default) v w U i inp →
      (∀ t, 0 ≤ t → Solves (fun t y => ThreePhaseConstantVdc.rhs (envC3 (e.par 3 Circuit.Base.default) (inp t) y)) Y t) → ‖Y 0 - ThreePhaseConstantVdc.rest (e.par 3 Circuit.Base.default) v w U i 0‖ ≤ δ →
      ∀ t, 0 ≤ t → ‖Y t - ThreePhaseConstantVdc.rest (e.par 3 Circuit.Base.default) v w U i t‖ ≤ M * ‖Y 0 - ThreePhaseConstantVdc.rest (e.par 3 Circuit.Base.default) v w U i 0‖ * Real.exp (-a * t) := by
  obtain ⟨_, h1, h2, _, h4, h5, h6, h7⟩ := C131_shipped_three_constant_vdc hs hk he
  generalize e.par 3 Circuit.Base.default = p at *
  exact ThreePhaseConstantVdc.C124_shipped_three_constant_vdc h1 h2 h4 v0 v1 (by rw [h7]; exact w1) U0 vU U1 i0 i1

end
end Shipped
end Config
end PvDer
