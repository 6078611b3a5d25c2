import Verif.Model.Recorded
import Verif.Props.Phasor
import Verif.Props.Measured
import Mathlib.Analysis.SpecialFunctions.Complex.Arg

/-!
# C126: recorded RMS values and phase angles

Specification: a trajectory is a list of operating points; the recorded series must be, point by point, what the measurement methods of the instance return there (`Model/Measured.lean`).
-/

namespace PvDer
namespace Recorded
open Complex Phasor Sim

/-- The voltages and currents at one instant: inverter terminal, PCC, current, grid source, HV side. -/
structure Pt where
  vta : ℂ
  va : ℂ
  ia : ℂ
  vtb : ℂ
  vb : ℂ
  ib : ℂ
  vtc : ℂ
  vc : ℂ
  ic : ℂ
  vag : ℂ
  vbg : ℂ
  vcg : ℂ
  vaH : ℂ
  vbH : ℂ
  vcH : ℂ
  ZL : ℂ
  a : ℝ

/-- The instance at that instant. -/
def Pt.inst (mt : Mt) (P : Pt) : Measured.Inst :=
  { vta := P.vta, va := P.va, ia := P.ia, bc := if isThree mt then some ((P.vtb, P.vb, P.ib), (P.vtc, P.vc, P.ic)) else none, vag := P.vag, vbg := P.vbg, vcg := P.vcg, ZL := P.ZL, a := P.a }

def kind : Mt → Measured.Kind
  | .single => .single | .constVdc1 => .single | .balanced => .balanced | _ => .three

/-- The series recorded along a trajectory. -/
def recOf (mt : Mt) (standAlone : Bool) (l : List Pt) : Rec :=
  { vta := l.map (·.vta), va := l.map (·.va), ia := l.map (·.ia)
    bc := if isThree mt then some ((l.map (·.vtb), l.map (·.vb), l.map (·.ib)), (l.map (·.vtc), l.map (·.vc), l.map (·.ic))) else none
    grid := if standAlone then some ((l.map (·.vag), l.map (·.vbg), l.map (·.vcg)), (l.map (·.vaH), l.map (·.vbH), l.map (·.vcH))) else none }

theorem rms_map {α : Type} (l : List α) (f g h : α → ℂ) : rmsSeries (l.map f) (l.map g) (l.map h) = .ok (l.map fun P => urms (f P) (g P) (h P)) := by
  unfold rmsSeries
  rw [if_pos (by simp)]
  congr 1
  induction l with
  | nil => rfl
  | cons P l ih => simp only [List.map_cons, List.zip_cons_cons, List.zipWith_cons_cons, ih, urms]

/-- C126: the RMS series are, at every point of every trajectory, the RMS measurements of the instance at that point; the phase series are those of the phases, and in stand-alone mode the RMS voltages of grid source and
HV side are recorded too. -/
theorem C126_rms (mt : Mt) (sa : Bool) (l : List Pt) :
    ∃ r, timeSeriesRms mt sa (recOf mt sa l) = .ok r ∧
      r.Vt.map Except.ok = l.map (fun P => Measured.Vtrms_calc (kind mt) (P.inst mt)) ∧
      r.V.map Except.ok = l.map (fun P => Measured.Vrms_calc (kind mt) (P.inst mt)) ∧
      r.I.map Except.ok = l.map (fun P => Measured.Irms_calc (kind mt) (P.inst mt)) ∧
      r.Va = l.map (fun P => ‖P.va‖ / Real.sqrt 2) ∧
      r.Vbc = (if isThree mt then some (l.map (fun P => ‖P.vb‖ / Real.sqrt 2), l.map (fun P => ‖P.vc‖ / Real.sqrt 2)) else none) ∧
      r.grid = (if sa then some (l.map (fun P => urms P.vag P.vbg P.vcg), l.map (fun P => urms P.vaH P.vbH P.vcH)) else none) := by
  have one : ∀ z : ℂ, urms z z z = ‖z‖ / Real.sqrt 2 := fun z => by
    unfold urms; rw [show (‖z‖ ^ 2 + ‖z‖ ^ 2 + ‖z‖ ^ 2) / 3 = ‖z‖ ^ 2 by ring, Real.sqrt_sq (norm_nonneg _)]
  have three : isThree mt = true → kind mt ≠ .single := by cases mt <;> simp [isThree, kind]
  have single : isThree mt = false → kind mt = .single := by cases mt <;> simp [isThree, kind]
  have c1 : ∀ k : Measured.Kind, k ≠ .single → ∀ (s : Measured.Inst) (x y : ℂ × ℂ × ℂ), s.bc = some (x, y) → Measured.Vtrms_calc k s = .ok (urms s.vta x.1 y.1) ∧ Measured.Vrms_calc k s = .ok (urms s.va x.2.1 y.2.1) ∧
      Measured.Irms_calc k s = .ok (urms s.ia x.2.2 y.2.2) := by
    intro k hk s x y hs
    cases k
    · exact absurd rfl hk
    all_goals simp [Measured.Vtrms_calc, Measured.Vrms_calc, Measured.Irms_calc, hs]
  cases h3 : isThree mt
  · rw [single h3]
    cases sa
    all_goals
      refine ⟨_, by simp only [timeSeriesRms, recOf, h3, rms_map, if_true, if_false, Bool.false_eq_true, bind, Except.bind, pure, Except.pure]; rfl, ?_⟩
      simp [Measured.Vtrms_calc, Measured.Vrms_calc, Measured.Irms_calc, Pt.inst, one]
  · have hk := three h3
    have c2 : ∀ P : Pt, Measured.Vtrms_calc (kind mt) (P.inst mt) = .ok (urms P.vta P.vtb P.vtc) ∧ Measured.Vrms_calc (kind mt) (P.inst mt) = .ok (urms P.va P.vb P.vc) ∧
        Measured.Irms_calc (kind mt) (P.inst mt) = .ok (urms P.ia P.ib P.ic) := fun P => c1 _ hk (P.inst mt) (P.vtb, P.vb, P.ib) (P.vtc, P.vc, P.ic) (by simp [Pt.inst, h3])
    cases sa
    all_goals
      refine ⟨_, by simp only [timeSeriesRms, recOf, h3, rms_map, if_true, if_false, Bool.false_eq_true, bind, Except.bind, pure, Except.pure]; rfl, ?_⟩
      simp [phRmsSeries, fun P => (c2 P).1, fun P => (c2 P).2.1, fun P => (c2 P).2.2]

/-- The duty-cycle and terminal-voltage series exist exactly for inputs of equal length, have that length, and anything else is rejected. -/
theorem C126_duty_lengths (u x m : List ℂ) (vdc : List ℝ) (Kp : ℝ) :
    ((mSeries u x Kp = .error .assertionError ↔ u.length ≠ x.length) ∧ ∀ r, mSeries u x Kp = .ok r → u.length = x.length ∧ r.length = u.length) ∧
    ((vtSeries m vdc = .error .assertionError ↔ m.length ≠ vdc.length) ∧ ∀ r, vtSeries m vdc = .ok r → m.length = vdc.length ∧ r.length = m.length) := by
  unfold mSeries vtSeries
  constructor <;> (split_ifs with h <;> simp_all)

/-- Series of different lengths are rejected. -/
theorem C126_rms_lengths (a b c : List ℂ) : rmsSeries a b c = .error .assertionError ↔ ¬(a.length = b.length ∧ b.length = c.length) := by
  unfold rmsSeries
  split_ifs with h
  · simp [h]
  · simp only [h, not_false_iff]

/-- Terminal voltage and duty cycle series: the product law at every point, and `ma_absolute_t` its magnitude. -/
theorem C126_terminal_voltage (Kp : ℝ) (l : List (ℂ × ℂ × ℝ)) :
    ∃ m v, mSeries (l.map (·.1)) (l.map (·.2.1)) Kp = .ok m ∧ vtSeries m (l.map (·.2.2)) = .ok v ∧ m = l.map (fun p => (Kp : ℂ) * p.1 + p.2.1) ∧ v = l.map (fun p => (Kp * p.1 + p.2.1) * ((p.2.2 / 2 : ℝ) : ℂ)) ∧
      absSeries v = l.map (fun p => ‖(Kp : ℂ) * p.1 + p.2.1‖ * (|p.2.2| / 2)) := by
  have e1 : mSeries (l.map (·.1)) (l.map (·.2.1)) Kp = .ok (l.map (fun p => Kp * p.1 + p.2.1)) := by
    unfold mSeries
    rw [if_pos (by simp)]
    congr 1
    induction l with
    | nil => rfl
    | cons P l ih => simp only [List.map_cons, List.zipWith_cons_cons, ih]
  have e2 : vtSeries (l.map (fun p => Kp * p.1 + p.2.1)) (l.map (·.2.2)) = .ok (l.map (fun p => (Kp * p.1 + p.2.1) * ((p.2.2 / 2 : ℝ) : ℂ))) := by
    unfold vtSeries
    rw [if_pos (by simp)]
    congr 1
    clear e1
    induction l with
    | nil => rfl
    | cons P l ih => simp only [List.map_cons, List.zipWith_cons_cons, ih]
  refine ⟨_, _, e1, e2, rfl, rfl, ?_⟩
  unfold absSeries
  rw [List.map_map]
  congr 1
  funext p
  simp only [Function.comp, norm_mul, Complex.norm_real, Real.norm_eq_abs, abs_div]
  norm_num

/-- The angle series of a trajectory. -/
noncomputable def anglesOf (mt : Mt) (sa : Bool) (l : List Pt) : Angles :=
  { vta := l.map fun P => arg P.vta, va := l.map fun P => arg P.va
    bc := if isThree mt then some ((l.map fun P => arg P.vtb, l.map fun P => arg P.vb), (l.map fun P => arg P.vtc, l.map fun P => arg P.vc)) else none
    grid := if sa then some (l.map fun P => arg P.vaH, l.map fun P => arg P.vag) else none
    gridBC := if isThree mt ∧ sa then some ((l.map fun P => arg P.vbH, l.map fun P => arg P.vbg), (l.map fun P => arg P.vcH, l.map fun P => arg P.vcg)) else none }

theorem angle_eq (mt : Mt) (sa : Bool) (l : List Pt) : timeSeriesAngle mt sa (recOf mt sa l) = .ok (anglesOf mt sa l) := by
  simp only [timeSeriesAngle, recOf, anglesOf, List.length_map, if_true]
  cases sa <;> cases h3 : isThree mt <;> simp only [if_true, if_false, Bool.false_eq_true, and_true, and_false, List.map_map, bind, Except.bind, pure, Except.pure] <;> rfl

/-- C126: the angle series exist on every trajectory; with the RMS series they determine the voltages: `√2` times the RMS value times `e^{jφ}` is the phasor, with `φ` in (-π, π]. -/
theorem C126_angles (mt : Mt) (sa : Bool) (l : List Pt) :
    ∃ r p, timeSeriesRms mt sa (recOf mt sa l) = .ok r ∧ timeSeriesAngle mt sa (recOf mt sa l) = .ok p ∧
      p.va.length = l.length ∧ p.vta.length = l.length ∧
      (∀ φ ∈ p.va ++ p.vta, -Real.pi < φ ∧ φ ≤ Real.pi) ∧
      List.zipWith (fun (V φ : ℝ) => ((Real.sqrt 2 * V : ℝ) : ℂ) * exp (φ * I)) r.Va p.va = l.map (·.va) ∧
      (isThree mt = true → ∃ Vb Vc tb b tc c, r.Vbc = some (Vb, Vc) ∧ p.bc = some ((tb, b), (tc, c)) ∧
        List.zipWith (fun (V φ : ℝ) => ((Real.sqrt 2 * V : ℝ) : ℂ) * exp (φ * I)) Vb b = l.map (·.vb) ∧ List.zipWith (fun (V φ : ℝ) => ((Real.sqrt 2 * V : ℝ) : ℂ) * exp (φ * I)) Vc c = l.map (·.vc) ∧
        (∀ φ ∈ tb ++ b ++ tc ++ c, -Real.pi < φ ∧ φ ≤ Real.pi)) := by
  obtain ⟨r, hr, -, -, -, hVa, hVbc, -⟩ := C126_rms mt sa l
  have s2 : Real.sqrt 2 ≠ 0 := by positivity
  have pol : ∀ f : Pt → ℂ, List.zipWith (fun (V φ : ℝ) => ((Real.sqrt 2 * V : ℝ) : ℂ) * exp (φ * I)) (l.map fun P => ‖f P‖ / Real.sqrt 2) (l.map fun P => arg (f P)) = l.map f := by
    intro f
    clear hr hVa hVbc
    induction l with
    | nil => rfl
    | cons P l ih =>
      simp only [List.map_cons, List.zipWith_cons_cons]
      rw [ih]
      congr 1
      rw [mul_div_cancel₀ _ s2]
      exact norm_mul_exp_arg_mul_I _
  have rng : ∀ (f : Pt → ℂ), ∀ φ ∈ (l.map fun P => arg (f P)), -Real.pi < φ ∧ φ ≤ Real.pi := by
    intro f φ h
    obtain ⟨z, -, rfl⟩ := List.mem_map.1 h
    exact ⟨neg_pi_lt_arg _, arg_le_pi _⟩
  refine ⟨r, _, hr, angle_eq mt sa l, by simp [anglesOf], by simp [anglesOf], ?_, ?_, ?_⟩
  · intro φ h
    rcases List.mem_append.1 h with h | h
    · exact rng (·.va) φ h
    · exact rng (·.vta) φ h
  · rw [hVa]; exact pol (·.va)
  · intro h3
    rw [if_pos h3] at hVbc
    refine ⟨_, _, _, _, _, _, hVbc, by simp only [anglesOf, h3, if_true]; rfl, pol (·.vb), pol (·.vc), ?_⟩
    intro φ h
    simp only [List.mem_append] at h
    rcases h with ((h | h) | h) | h
    · exact rng (·.vtb) φ h
    · exact rng (·.vb) φ h
    · exact rng (·.vtc) φ h
    · exact rng (·.vc) φ h

/-- In a balanced system the recorded angles of phases b and c are those of phase a shifted by a third of a turn, up to a whole turn (the series jump by 2π when a phasor crosses the negative real axis). -/
theorem C126_balanced_angles (a : ℂ) (ha : a ≠ 0) : ∃ k m : ℤ, arg (ub a) = arg a - 2 * Real.pi / 3 + 2 * Real.pi * k ∧ arg (uc a) = arg a + 2 * Real.pi / 3 + 2 * Real.pi * m := by
  have key : ∀ θ : ℝ, ∃ k : ℤ, arg (a * exp (θ * I)) = arg a + θ + 2 * Real.pi * k := by
    intro θ
    have h1 : ((arg (a * exp (θ * I)) : ℝ) : Real.Angle) = ((arg a + θ : ℝ) : Real.Angle) := by
      rw [arg_mul_coe_angle ha (exp_ne_zero _), Complex.arg_exp_mul_I, Real.Angle.coe_toIocMod, Real.Angle.coe_add]
    obtain ⟨k, hk⟩ := Real.Angle.angle_eq_iff_two_pi_dvd_sub.1 h1
    exact ⟨k, by linarith⟩
  obtain ⟨k, hk⟩ := key (-(2 * Real.pi / 3))
  obtain ⟨m, hm⟩ := key (2 * Real.pi / 3)
  refine ⟨k, m, ?_, ?_⟩
  · rw [← sub_eq_add_neg] at hk
    rw [← hk]; congr 1; unfold ub ej; push_cast; ring_nf
  · rw [← hm]; congr 1; unfold uc ej; push_cast; ring_nf

/-- Active power that a phase delivers from the HV side into the grid source, through the line impedance `Z`. -/
noncomputable def linePower (vH vg Z : ℂ) : ℝ := (1 / 2 * (vH * (starRingEnd ℂ) ((vH - vg) / Z))).re

theorem linePower_eq (vH vg Z : ℂ) : linePower vH vg Z = (Z.re * (‖vH‖ ^ 2 - ‖vH‖ * ‖vg‖ * Real.cos (arg vH - arg vg)) + Z.im * (‖vH‖ * ‖vg‖ * Real.sin (arg vH - arg vg))) / (2 * ‖Z‖ ^ 2) := by
  have hx : ∀ z : ℂ, z.re = ‖z‖ * Real.cos (arg z) := fun z => (norm_mul_cos_arg z).symm
  have hy : ∀ z : ℂ, z.im = ‖z‖ * Real.sin (arg z) := fun z => (norm_mul_sin_arg z).symm
  have e : linePower vH vg Z = (Z.re * (vH.re ^ 2 + vH.im ^ 2 - (vH.re * vg.re + vH.im * vg.im)) + Z.im * (vH.im * vg.re - vH.re * vg.im)) / (2 * ‖Z‖ ^ 2) := by
    unfold linePower
    rw [← normSq_eq_norm_sq]
    simp only [div_eq_mul_inv, inv_def, mul_re, mul_im, conj_re, conj_im, sub_re, sub_im, Complex.ofReal_re, Complex.ofReal_im, one_re, one_im, mul_inv]
    norm_num
    ring
  rw [e, hx vH, hy vH, hx vg, hy vg, Real.cos_sub, Real.sin_sub]
  have := Real.sin_sq_add_cos_sq (arg vH)
  congr 1
  linear_combination (‖vH‖ ^ 2 * Z.re) * this

/-- C126: `P_transfer` is available in stand-alone mode only, and then holds one value per point. -/
theorem C126_power_transfer (mt : Mt) (sa : Bool) (l : List Pt) (Z2 : ℂ) : ∀ r p, timeSeriesRms mt sa (recOf mt sa l) = .ok r → timeSeriesAngle mt sa (recOf mt sa l) = .ok p →
    powerTransfer r p Z2 = if sa then .ok (l.map fun P => urms P.vaH P.vbH P.vcH * urms P.vag P.vbg P.vcg * Real.sin (arg P.vaH - arg P.vag) / ‖Z2‖) else .error .attributeError := by
  intro r p hr hp
  obtain ⟨r', hr', -, -, -, -, -, hg⟩ := C126_rms mt sa l
  rw [hr] at hr'
  obtain rfl : r = r' := by injection hr'
  rw [angle_eq] at hp
  obtain rfl : anglesOf mt sa l = p := by injection hp
  unfold powerTransfer
  rw [hg]
  cases sa
  · simp [anglesOf]
  · simp only [anglesOf, if_true]
    congr 1
    clear hg hr hp hr'
    induction l with
    | nil => rfl
    | cons P l ih => simp only [List.map_cons, List.zip_cons_cons, List.zipWith_cons_cons, ih]

/-- What that value means: with balanced voltages and a lossless line it is the active power of one phase, a third of the power flowing into the grid … -/
theorem C126_lossless_balanced (P : Pt) (X : ℝ) (hX : 0 < X) (hb : P.vbH = ub P.vaH) (hc : P.vcH = uc P.vaH) (gb : P.vbg = ub P.vag) (gc : P.vcg = uc P.vag) :
    3 * (urms P.vaH P.vbH P.vcH * urms P.vag P.vbg P.vcg * Real.sin (arg P.vaH - arg P.vag) / ‖(X : ℂ) * I‖) =
      linePower P.vaH P.vag (X * I) + linePower P.vbH P.vbg (X * I) + linePower P.vcH P.vcg (X * I) := by
  have s2 : Real.sqrt 2 * Real.sqrt 2 = 2 := Real.mul_self_sqrt (by norm_num)
  have bal : ∀ z : ℂ, urms z (ub z) (uc z) = ‖z‖ / Real.sqrt 2 := fun z => by
    unfold urms
    rw [(C47_phase_shift z).1, (C47_phase_shift z).2.1, show (‖z‖ ^ 2 + ‖z‖ ^ 2 + ‖z‖ ^ 2) / 3 = ‖z‖ ^ 2 by ring, Real.sqrt_sq (norm_nonneg _)]
  have turn : ∀ c x y Z : ℂ, ‖c‖ = 1 → linePower (x * c) (y * c) Z = linePower x y Z := by
    intro c x y Z h
    unfold linePower
    have : c * (starRingEnd ℂ) c = 1 := by rw [mul_conj, normSq_eq_norm_sq, h]; norm_num
    rw [show 1 / 2 * (x * c * (starRingEnd ℂ) ((x * c - y * c) / Z)) = 1 / 2 * (x * (starRingEnd ℂ) ((x - y) / Z)) * (c * (starRingEnd ℂ) c) by
      rw [← sub_mul, mul_div_right_comm, map_mul]; ring, this, mul_one]
  have nb : ‖ub 1‖ = 1 := by rw [(C47_phase_shift 1).1, norm_one]
  have nc : ‖uc 1‖ = 1 := by rw [(C47_phase_shift 1).2.1, norm_one]
  have eb : ∀ z, ub z = z * ub 1 := fun z => by unfold ub; ring
  have ec : ∀ z, uc z = z * uc 1 := fun z => by unfold uc; ring
  rw [hb, hc, gb, gc, bal, bal, eb P.vaH, eb P.vag, ec P.vaH, ec P.vag, turn _ _ _ _ nb, turn _ _ _ _ nc, linePower_eq]
  have n : ‖(X : ℂ) * I‖ = X := by rw [norm_mul, norm_I, mul_one, Complex.norm_real, Real.norm_eq_abs, abs_of_pos hX]
  have r1 : ((X : ℂ) * I).re = 0 := by simp
  have r2 : ((X : ℂ) * I).im = X := by simp
  rw [n, r1, r2]
  have : Real.sqrt 2 ≠ 0 := by positivity
  field_simp
  linear_combination (-3 * (‖P.vaH‖ * ‖P.vag‖ * Real.sin (arg P.vaH - arg P.vag)) * X) * s2

/-- … while the resistance of the line (the default grid has 1.61 + 5.54j ohm) is ignored: at equal angles the value is zero whatever the magnitudes, but the line then carries active power. -/
theorem C126_resistance_ignored (P : Pt) (Z2 : ℂ) (h : arg P.vaH = arg P.vag) (hR : 0 < Z2.re) (hV : ‖P.vag‖ < ‖P.vaH‖) :
    urms P.vaH P.vbH P.vcH * urms P.vag P.vbg P.vcg * Real.sin (arg P.vaH - arg P.vag) / ‖Z2‖ = 0 ∧ 0 < linePower P.vaH P.vag Z2 := by
  have hz : 0 < ‖Z2‖ := by
    rw [norm_pos_iff]; rintro rfl; simp at hR
  have h0 := norm_nonneg P.vag
  rw [linePower_eq, h, sub_self, Real.sin_zero, Real.cos_zero]
  refine ⟨by simp, ?_⟩
  rw [mul_zero, mul_zero, add_zero, mul_one, show ‖P.vaH‖ ^ 2 - ‖P.vaH‖ * ‖P.vag‖ = ‖P.vaH‖ * (‖P.vaH‖ - ‖P.vag‖) by ring]
  have : 0 < ‖P.vaH‖ := by linarith
  have : 0 < ‖P.vaH‖ - ‖P.vag‖ := by linarith
  positivity

/-- Beside the theorems: two operating points of a three-phase instance in stand-alone mode, and a line with both magnitudes and angles different. -/
def exPt (x : ℝ) : Pt :=
  { vta := 1, va := x, ia := 2 * x, vtb := 1, vb := -x, ib := -2 * x, vtc := I, vc := x, ic := x, vag := 1, vbg := 1, vcg := 1, vaH := 2, vbH := 1, vcH := 1, ZL := 1, a := 1 }

example : ∃ r p, timeSeriesRms .three true (recOf .three true [exPt 1, exPt 2]) = .ok r ∧ timeSeriesAngle .three true (recOf .three true [exPt 1, exPt 2]) = .ok p ∧ r.Va = [1 / Real.sqrt 2, 2 / Real.sqrt 2] ∧ p.va = [0, 0] ∧
    p.bc = some (([0, 0], [Real.pi, Real.pi]), ([Real.pi / 2, Real.pi / 2], [0, 0])) := by
  obtain ⟨r, hr, -, -, -, hVa, -⟩ := C126_rms .three true [exPt 1, exPt 2]
  have h3 : arg (-2 : ℂ) = Real.pi := by
    have := arg_ofReal_of_neg (x := -2) (by norm_num)
    simpa using this
  refine ⟨r, _, hr, angle_eq _ _ _, ?_, ?_, ?_⟩
  · rw [hVa]; simp [exPt]
  · simp [anglesOf, exPt]
  · simp [anglesOf, exPt, h3, isThree]

example : linePower (exPt 1).vaH (exPt 1).vag (161 / 100 + 554 / 100 * I) ≠ 0 ∧ urms (exPt 1).vaH (exPt 1).vbH (exPt 1).vcH * urms (exPt 1).vag (exPt 1).vbg (exPt 1).vcg * Real.sin (arg (exPt 1).vaH - arg (exPt 1).vag) / ‖(161 / 100 + 554 / 100 * I : ℂ)‖ = 0 := by
  obtain ⟨a, b⟩ := C126_resistance_ignored (exPt 1) (161 / 100 + 554 / 100 * I) (by simp [exPt]) (by norm_num) (by simp [exPt])
  exact ⟨b.ne', a⟩

end Recorded
end PvDer
