import Verif.Lemmas.Pll
import Mathlib.Analysis.Calculus.Deriv.MeanValue
import Mathlib.Analysis.Calculus.Deriv.Add
import Mathlib.Analysis.Calculus.Deriv.Mul
import Mathlib.Analysis.Calculus.Deriv.Pow
import Mathlib.Analysis.Complex.Basic
import Mathlib.Tactic.FunProp

/-!
# Real analysis for C112: an energy function for current loop, filter and DC link with zero references

The converter is bilinear (`duty * Vdc`), but the energy measured from an arbitrary DC voltage `ψ0` (shifted passivity) is exact: the cross terms of filter and DC link
cancel whatever the DC voltage does.
-/

namespace PvDer
namespace Decay
open Filter Topology Set Finset

variable {ι : Type} [Fintype ι]

/-- Parameters: number of identical phase sets `g`, filter `L`, `R`, capacitor `C`, gains, the DC voltage `ψ0` the energy is measured from, the terminal voltages. -/
structure Dat (ι : Type) where
  g : ℝ
  L : ℝ
  R : ℝ
  C : ℝ
  Kp : ℝ
  Ki : ℝ
  wp : ℝ
  ψ0 : ℝ
  vR : ι → ℝ
  vI : ι → ℝ

structure Dat.Ok (a : Dat ι) : Prop where
  g : 0 < a.g
  L : 0 < a.L
  R : 0 < a.R
  C : 0 < a.C
  Ki : 0 < a.Ki
  wp : 0 < a.wp
  ψ0 : 0 < a.ψ0
  gain : a.Ki < a.Kp * a.wp

/-- A trajectory. -/
structure Trj (ι : Type) where
  iR : ι → ℝ → ℝ
  iI : ι → ℝ → ℝ
  uR : ι → ℝ → ℝ
  uI : ι → ℝ → ℝ
  xR : ι → ℝ → ℝ
  xI : ι → ℝ → ℝ
  ψ : ℝ → ℝ

/-- The equations at time `t`, with rotation `w` and DC voltage derivative `d`. -/
structure Eqs (a : Dat ι) (y : Trj ι) (w d : ℝ → ℝ) (t : ℝ) : Prop where
  iR : ∀ k, HasDerivAt (y.iR k) ((1 / a.L) * (-a.R * y.iR k t - a.vR k + (a.Kp * y.uR k t + y.xR k t) * (y.ψ t / 2)) + w t * y.iI k t) t
  iI : ∀ k, HasDerivAt (y.iI k) ((1 / a.L) * (-a.R * y.iI k t - a.vI k + (a.Kp * y.uI k t + y.xI k t) * (y.ψ t / 2)) - w t * y.iR k t) t
  uR : ∀ k, HasDerivAt (y.uR k) (a.wp * (-y.uR k t - y.iR k t)) t
  uI : ∀ k, HasDerivAt (y.uI k) (a.wp * (-y.uI k t - y.iI k t)) t
  xR : ∀ k, HasDerivAt (y.xR k) (a.Ki * y.uR k t) t
  xI : ∀ k, HasDerivAt (y.xI k) (a.Ki * y.uI k t) t
  ψ : HasDerivAt y.ψ (d t) t
  cap : (y.ψ t - a.ψ0) * (4 * a.C * d t + a.g * ∑ k, ((a.Kp * y.uR k t + y.xR k t) * y.iR k t + (a.Kp * y.uI k t + y.xI k t) * y.iI k t)) = 0

/-- Energy of one component of a phase: filter, controller integrator, controller filter. -/
noncomputable def comp (a : Dat ι) (v i u x : ℝ) : ℝ :=
  a.L / 2 * i ^ 2 + a.ψ0 / 2 * ((x - 2 * v / a.ψ0 + a.Ki / a.wp * u) ^ 2 / (2 * a.Ki) + (a.Kp - a.Ki / a.wp) * u ^ 2 / (2 * a.wp))

/-- Total energy. -/
noncomputable def energy (a : Dat ι) (y : Trj ι) (t : ℝ) : ℝ :=
  a.g * ∑ k, (comp a (a.vR k) (y.iR k t) (y.uR k t) (y.xR k t) + comp a (a.vI k) (y.iI k t) (y.uI k t) (y.xI k t)) + a.C * (y.ψ t - a.ψ0) ^ 2

/-- Its loss rate. -/
noncomputable def loss (a : Dat ι) (y : Trj ι) (t : ℝ) : ℝ :=
  a.g * ∑ k, (a.R * (y.iR k t ^ 2 + y.iI k t ^ 2) + a.ψ0 / 2 * (a.Kp - a.Ki / a.wp) * (y.uR k t ^ 2 + y.uI k t ^ 2))

omit [Fintype ι] in
theorem dcomp {a : Dat ι} (v : ℝ) {i u x : ℝ → ℝ} {di du dx t : ℝ} (hi : HasDerivAt i di t) (hu : HasDerivAt u du t) (hx : HasDerivAt x dx t) :
    HasDerivAt (fun s => comp a v (i s) (u s) (x s))
      (a.L * i t * di + a.ψ0 / 2 * ((x t - 2 * v / a.ψ0 + a.Ki / a.wp * u t) * (dx + a.Ki / a.wp * du) / a.Ki + (a.Kp - a.Ki / a.wp) * u t * du / a.wp)) t := by
  have h1 := (hi.pow 2).const_mul (a.L / 2)
  have h2 := ((((hx.sub_const (2 * v / a.ψ0)).add (hu.const_mul (a.Ki / a.wp))).pow 2).div_const (2 * a.Ki)).add
    (((hu.pow 2).const_mul (a.Kp - a.Ki / a.wp)).div_const (2 * a.wp))
  refine (h1.add (h2.const_mul (a.ψ0 / 2))).congr_deriv ?_
  simp only [Pi.add_apply]
  push_cast
  ring

theorem denergy {a : Dat ι} (h : a.Ok) {y : Trj ι} {w d : ℝ → ℝ} {t : ℝ} (e : Eqs a y w d t) : HasDerivAt (energy a y) (-loss a y t) t := by
  have h1 : HasDerivAt (fun s => ∑ k, (comp a (a.vR k) (y.iR k s) (y.uR k s) (y.xR k s) + comp a (a.vI k) (y.iI k s) (y.uI k s) (y.xI k s))) _ t :=
    HasDerivAt.fun_sum (fun k _ => (dcomp (a.vR k) (e.iR k) (e.uR k) (e.xR k)).add (dcomp (a.vI k) (e.iI k) (e.uI k) (e.xI k)))
  have h2 := ((e.ψ.sub_const a.ψ0).pow 2).const_mul a.C
  refine ((h1.const_mul a.g).add h2).congr_deriv ?_
  have hc := e.cap
  have hg := h.g.ne'; have hL := h.L.ne'; have hK := h.Ki.ne'; have hw := h.wp.ne'; have hp := h.ψ0.ne'
  have key : ∀ k, (a.L * y.iR k t * ((1 / a.L) * (-a.R * y.iR k t - a.vR k + (a.Kp * y.uR k t + y.xR k t) * (y.ψ t / 2)) + w t * y.iI k t) +
        a.ψ0 / 2 * ((y.xR k t - 2 * a.vR k / a.ψ0 + a.Ki / a.wp * y.uR k t) * (a.Ki * y.uR k t + a.Ki / a.wp * (a.wp * (-y.uR k t - y.iR k t))) / a.Ki +
          (a.Kp - a.Ki / a.wp) * y.uR k t * (a.wp * (-y.uR k t - y.iR k t)) / a.wp)) +
      (a.L * y.iI k t * ((1 / a.L) * (-a.R * y.iI k t - a.vI k + (a.Kp * y.uI k t + y.xI k t) * (y.ψ t / 2)) - w t * y.iR k t) +
        a.ψ0 / 2 * ((y.xI k t - 2 * a.vI k / a.ψ0 + a.Ki / a.wp * y.uI k t) * (a.Ki * y.uI k t + a.Ki / a.wp * (a.wp * (-y.uI k t - y.iI k t))) / a.Ki +
          (a.Kp - a.Ki / a.wp) * y.uI k t * (a.wp * (-y.uI k t - y.iI k t)) / a.wp)) =
      (y.ψ t - a.ψ0) / 2 * ((a.Kp * y.uR k t + y.xR k t) * y.iR k t + (a.Kp * y.uI k t + y.xI k t) * y.iI k t) -
      (a.R * (y.iR k t ^ 2 + y.iI k t ^ 2) + a.ψ0 / 2 * (a.Kp - a.Ki / a.wp) * (y.uR k t ^ 2 + y.uI k t ^ 2)) := by
    intro k
    field_simp
    ring
  rw [sum_congr rfl (fun k _ => key k), sum_sub_distrib, ← mul_sum, loss]
  push_cast
  linear_combination (1/2) * hc

/-! ### Bounds -/

/-- `Kp - Ki/wp`. -/
noncomputable def Dat.kap (a : Dat ι) : ℝ := a.Kp - a.Ki / a.wp

omit [Fintype ι] in
theorem Dat.Ok.kap {a : Dat ι} (h : a.Ok) : 0 < a.kap := by
  have := h.wp
  have h1 : a.Ki / a.wp < a.Kp := by rw [div_lt_iff₀ h.wp]; exact h.gain
  unfold Dat.kap; linarith

omit [Fintype ι] in
theorem comp_nonneg {a : Dat ι} (h : a.Ok) (v i u x : ℝ) : 0 ≤ comp a v i u x := by
  have := h.kap; have := h.L; have := h.ψ0; have := h.Ki; have := h.wp
  unfold comp
  rw [← Dat.kap]
  positivity

omit [Fintype ι] in
/-- What the energy of a component bounds. -/
theorem comp_bounds {a : Dat ι} (h : a.Ok) (v i u x : ℝ) :
    a.L / 2 * i ^ 2 ≤ comp a v i u x ∧ a.ψ0 / 2 * (a.kap * u ^ 2 / (2 * a.wp)) ≤ comp a v i u x ∧
    a.ψ0 / 2 * ((x - 2 * v / a.ψ0 + a.Ki / a.wp * u) ^ 2 / (2 * a.Ki)) ≤ comp a v i u x ∧
    (a.Kp * u + x - 2 * v / a.ψ0) ^ 2 ≤ 4 * a.Kp * a.wp / a.ψ0 * comp a v i u x := by
  have hk := h.kap; have hL := h.L; have hp := h.ψ0; have hK := h.Ki; have hw := h.wp
  set z := x - 2 * v / a.ψ0 + a.Ki / a.wp * u with hz
  have e : comp a v i u x = a.L / 2 * i ^ 2 + a.ψ0 / 2 * (z ^ 2 / (2 * a.Ki) + a.kap * u ^ 2 / (2 * a.wp)) := rfl
  have p1 : 0 ≤ a.L / 2 * i ^ 2 := by positivity
  have p2 : 0 ≤ a.ψ0 / 2 * (z ^ 2 / (2 * a.Ki)) := by positivity
  have p3 : 0 ≤ a.ψ0 / 2 * (a.kap * u ^ 2 / (2 * a.wp)) := by positivity
  refine ⟨by rw [e]; linarith, by rw [e]; linarith, by rw [e]; linarith, ?_⟩
  have e2 : a.Kp * u + x - 2 * v / a.ψ0 = z + a.kap * u := by rw [hz, Dat.kap]; ring
  have e3 : a.Kp * a.wp = a.Ki + a.wp * a.kap := by rw [Dat.kap]; field_simp; ring
  have hKp : 0 < a.Kp * a.wp := by rw [e3]; positivity
  have h4 : (z + a.kap * u) ^ 2 ≤ 2 * (a.Kp * a.wp) * (z ^ 2 / (2 * a.Ki) + a.kap * u ^ 2 / (2 * a.wp)) := by
    rw [e3]
    have : 2 * (a.Ki + a.wp * a.kap) * (z ^ 2 / (2 * a.Ki) + a.kap * u ^ 2 / (2 * a.wp)) - (z + a.kap * u) ^ 2 =
        a.kap / (a.Ki * a.wp) * (a.wp * z - a.Ki * u) ^ 2 := by field_simp; ring
    have h5 : 0 ≤ a.kap / (a.Ki * a.wp) * (a.wp * z - a.Ki * u) ^ 2 := by positivity
    linarith
  rw [e2]
  refine h4.trans ?_
  have h6 : z ^ 2 / (2 * a.Ki) + a.kap * u ^ 2 / (2 * a.wp) ≤ 2 / a.ψ0 * comp a v i u x := by
    rw [e]
    have : 2 / a.ψ0 * (a.L / 2 * i ^ 2 + a.ψ0 / 2 * (z ^ 2 / (2 * a.Ki) + a.kap * u ^ 2 / (2 * a.wp))) =
      2 / a.ψ0 * (a.L / 2 * i ^ 2) + (z ^ 2 / (2 * a.Ki) + a.kap * u ^ 2 / (2 * a.wp)) := by field_simp
    rw [this]
    have : 0 ≤ 2 / a.ψ0 * (a.L / 2 * i ^ 2) := by positivity
    linarith
  calc _ ≤ 2 * (a.Kp * a.wp) * (2 / a.ψ0 * comp a v i u x) := mul_le_mul_of_nonneg_left h6 (by positivity)
    _ = _ := by ring

theorem phase_le {a : Dat ι} (h : a.Ok) (y : Trj ι) (t : ℝ) (k : ι) :
    a.g * (comp a (a.vR k) (y.iR k t) (y.uR k t) (y.xR k t) + comp a (a.vI k) (y.iI k t) (y.uI k t) (y.xI k t)) ≤ energy a y t := by
  have h1 := single_le_sum (f := fun k => comp a (a.vR k) (y.iR k t) (y.uR k t) (y.xR k t) + comp a (a.vI k) (y.iI k t) (y.uI k t) (y.xI k t))
    (fun k _ => add_nonneg (comp_nonneg h _ _ _ _) (comp_nonneg h _ _ _ _)) (mem_univ k)
  have h2 : 0 ≤ a.C * (y.ψ t - a.ψ0) ^ 2 := by have := h.C; positivity
  have h3 := mul_le_mul_of_nonneg_left h1 h.g.le
  unfold energy
  linarith

theorem energy_nonneg {a : Dat ι} (h : a.Ok) (y : Trj ι) (t : ℝ) : 0 ≤ energy a y t := by
  have h2 : 0 ≤ a.C * (y.ψ t - a.ψ0) ^ 2 := by have := h.C; positivity
  have h3 : 0 ≤ a.g * ∑ k, (comp a (a.vR k) (y.iR k t) (y.uR k t) (y.xR k t) + comp a (a.vI k) (y.iI k t) (y.uI k t) (y.xI k t)) :=
    mul_nonneg h.g.le (sum_nonneg fun k _ => add_nonneg (comp_nonneg h _ _ _ _) (comp_nonneg h _ _ _ _))
  unfold energy
  linarith

theorem cap_le {a : Dat ι} (h : a.Ok) (y : Trj ι) (t : ℝ) : a.C * (y.ψ t - a.ψ0) ^ 2 ≤ energy a y t := by
  have h3 : 0 ≤ a.g * ∑ k, (comp a (a.vR k) (y.iR k t) (y.uR k t) (y.xR k t) + comp a (a.vI k) (y.iI k t) (y.uI k t) (y.xI k t)) :=
    mul_nonneg h.g.le (sum_nonneg fun k _ => add_nonneg (comp_nonneg h _ _ _ _) (comp_nonneg h _ _ _ _))
  unfold energy
  linarith

theorem loss_nonneg {a : Dat ι} (h : a.Ok) (y : Trj ι) (t : ℝ) : 0 ≤ loss a y t := by
  have := h.kap; have := h.R; have := h.ψ0
  unfold loss
  rw [← Dat.kap]
  exact mul_nonneg h.g.le (sum_nonneg fun k _ => by positivity)

theorem energy_anti {a : Dat ι} (h : a.Ok) {y : Trj ι} {w d : ℝ → ℝ} {T : ℝ} (e : ∀ t ∈ Icc 0 T, Eqs a y w d t) :
    ∀ t ∈ Icc 0 T, energy a y t ≤ energy a y 0 := by
  intro t ht
  have hA : AntitoneOn (energy a y) (Icc 0 T) := by
    refine antitoneOn_of_deriv_nonpos (convex_Icc 0 T) (fun t ht => (denergy h (e t ht)).continuousAt.continuousWithinAt)
      (fun t ht => (denergy h (e t (interior_subset ht))).differentiableAt.differentiableWithinAt) (fun t ht => ?_)
    rw [(denergy h (e t (interior_subset ht))).deriv]
    have := loss_nonneg h y t
    linarith
  exact hA ⟨le_rfl, ht.1.trans ht.2⟩ ht ht.1

/-- The duty cycle of phase `k` as a complex number. -/
noncomputable def Trj.m (y : Trj ι) (a : Dat ι) (k : ι) (t : ℝ) : ℂ := ⟨a.Kp * y.uR k t + y.xR k t, a.Kp * y.uI k t + y.xI k t⟩

/-- It stays near the duty cycle that balances the terminal voltage. -/
theorem duty_le {a : Dat ι} (h : a.Ok) (y : Trj ι) (t : ℝ) (k : ι) {E : ℝ} (hE : energy a y t ≤ E) :
    ‖y.m a k t‖ ≤ 2 * ‖(⟨a.vR k, a.vI k⟩ : ℂ)‖ / a.ψ0 + Real.sqrt (4 * a.Kp * a.wp / (a.g * a.ψ0) * E) := by
  have hp := h.ψ0; have hg := h.g; have hw := h.wp
  have hKp : 0 < a.Kp * a.wp := lt_trans h.Ki h.gain
  set v : ℂ := ⟨a.vR k, a.vI k⟩ with hv
  set m0 : ℂ := ((2 / a.ψ0 : ℝ) : ℂ) * v with hm0
  have e1 : ‖m0‖ = 2 * ‖v‖ / a.ψ0 := by
    rw [hm0, norm_mul, Complex.norm_real, Real.norm_eq_abs, abs_of_pos (by positivity)]; ring
  have e2 : ‖y.m a k t - m0‖ ^ 2 = (a.Kp * y.uR k t + y.xR k t - 2 * a.vR k / a.ψ0) ^ 2 + (a.Kp * y.uI k t + y.xI k t - 2 * a.vI k / a.ψ0) ^ 2 := by
    rw [← Complex.normSq_eq_norm_sq, Complex.normSq_apply]
    simp [Trj.m, hm0, hv]
    ring
  have h1 := (comp_bounds h (a.vR k) (y.iR k t) (y.uR k t) (y.xR k t)).2.2.2
  have h2 := (comp_bounds h (a.vI k) (y.iI k t) (y.uI k t) (y.xI k t)).2.2.2
  have h3 := (phase_le h y t k).trans hE
  have h4 : ‖y.m a k t - m0‖ ^ 2 ≤ 4 * a.Kp * a.wp / (a.g * a.ψ0) * E := by
    rw [e2]
    have h5 : 4 * a.Kp * a.wp / a.ψ0 * (comp a (a.vR k) (y.iR k t) (y.uR k t) (y.xR k t) + comp a (a.vI k) (y.iI k t) (y.uI k t) (y.xI k t)) =
        4 * (a.Kp * a.wp) / (a.g * a.ψ0) *
          (a.g * (comp a (a.vR k) (y.iR k t) (y.uR k t) (y.xR k t) + comp a (a.vI k) (y.iI k t) (y.uI k t) (y.xI k t))) := by field_simp
    have h6 : 4 * (a.Kp * a.wp) / (a.g * a.ψ0) *
        (a.g * (comp a (a.vR k) (y.iR k t) (y.uR k t) (y.xR k t) + comp a (a.vI k) (y.iI k t) (y.uI k t) (y.xI k t))) ≤
        4 * (a.Kp * a.wp) / (a.g * a.ψ0) * E := mul_le_mul_of_nonneg_left h3 (by positivity)
    rw [show 4 * a.Kp * a.wp / (a.g * a.ψ0) * E = 4 * (a.Kp * a.wp) / (a.g * a.ψ0) * E by ring]
    linarith
  have h7 : ‖y.m a k t - m0‖ ≤ Real.sqrt (4 * a.Kp * a.wp / (a.g * a.ψ0) * E) := Real.le_sqrt_of_sq_le h4
  calc ‖y.m a k t‖ = ‖m0 + (y.m a k t - m0)‖ := by congr 1; ring
    _ ≤ ‖m0‖ + ‖y.m a k t - m0‖ := norm_add_le _ _
    _ ≤ _ := by rw [e1]; linarith

/-! ### A continuation argument -/

/-- Continuous quantities that start below `c`, and that are at most `c' < c` as long as they have been at most `c`, are always at most `c'`. -/
theorem stays {κ : Type} [Finite κ] {q : κ → ℝ → ℝ} {c c' : κ → ℝ} (hc : ∀ k, c' k < c k) (hq : ∀ k t, 0 ≤ t → ContinuousAt (q k) t) (h0 : ∀ k, q k 0 ≤ c' k)
    (h : ∀ T : ℝ, 0 ≤ T → (∀ t ∈ Set.Icc 0 T, ∀ k, q k t ≤ c k) → ∀ k, q k T ≤ c' k) : ∀ t, 0 ≤ t → ∀ k, q k t ≤ c' k := by
  have key : ∀ t, 0 ≤ t → ∀ k, q k t < c k := by
    by_contra hcon
    push Not at hcon
    obtain ⟨t1, ht1, k1, hq1⟩ := hcon
    set A := ⋃ k, {s | s ∈ Set.Icc 0 t1 ∧ c k ≤ q k s} with hA
    have hAc : IsClosed A := by
      refine isClosed_iUnion_of_finite (fun k => ?_)
      have : {s | s ∈ Set.Icc 0 t1 ∧ c k ≤ q k s} = Set.Icc 0 t1 ∩ q k ⁻¹' Set.Ici (c k) := by ext s; simp
      rw [this]
      have hcont : ContinuousOn (q k) (Set.Icc 0 t1) := fun s hs => (hq k s hs.1).continuousWithinAt
      exact hcont.preimage_isClosed_of_isClosed isClosed_Icc isClosed_Ici
    have hmemA : ∀ s, s ∈ A ↔ ∃ k, s ∈ Set.Icc 0 t1 ∧ c k ≤ q k s := fun s => by simp [hA]
    have hAne : A.Nonempty := ⟨t1, (hmemA _).2 ⟨k1, ⟨ht1, le_rfl⟩, hq1⟩⟩
    have hAb : BddBelow A := ⟨0, fun s hs => by obtain ⟨k, hk, _⟩ := (hmemA s).1 hs; exact hk.1⟩
    have hm := hAc.csInf_mem hAne hAb
    obtain ⟨k2, hk2, hk2c⟩ := (hmemA _).1 hm
    set T := sInf A with hT
    have hbelow : ∀ s, 0 ≤ s → s < T → ∀ k, q k s < c k := by
      intro s hs hsT k
      by_contra hc2
      push Not at hc2
      have : T ≤ s := csInf_le hAb ((hmemA s).2 ⟨k, ⟨hs, hsT.le.trans hk2.2⟩, hc2⟩)
      linarith
    have hT0 : 0 < T := by
      rcases hk2.1.lt_or_eq with h1 | h1
      · exact h1
      · rw [← h1] at hk2c; linarith [h0 k2, hc k2]
    have hTle : ∀ k, q k T ≤ c k := by
      intro k
      have h1 : Tendsto (q k) (𝓝[<] T) (𝓝 (q k T)) := (hq k T hk2.1).tendsto.mono_left nhdsWithin_le_nhds
      refine le_of_tendsto h1 ?_
      filter_upwards [Ioo_mem_nhdsLT hT0] with s hs using (hbelow s hs.1.le hs.2 k).le
    have := h T hk2.1 (fun s hs k => by
      rcases hs.2.lt_or_eq with h1 | h1
      · exact (hbelow s hs.1 h1 k).le
      · rw [h1]; exact hTle k) k2
    linarith [hc k2]
  intro t ht
  exact h t ht (fun s hs k => (key s hs.1 k).le)

/-! ### Bounded functions on `[0, ∞)` -/

/-- Bounded on `[0, ∞)`. -/
def Bdd (f : ℝ → ℝ) : Prop := ∃ B, 0 ≤ B ∧ ∀ t, 0 ≤ t → |f t| ≤ B

theorem Bdd.const (c : ℝ) : Bdd (fun _ => c) := ⟨|c|, abs_nonneg c, fun _ _ => le_rfl⟩
theorem Bdd.add {f g : ℝ → ℝ} (hf : Bdd f) (hg : Bdd g) : Bdd (fun t => f t + g t) := by
  obtain ⟨B, hB, h1⟩ := hf
  obtain ⟨D, hD, h2⟩ := hg
  exact ⟨B + D, add_nonneg hB hD, fun t ht => (abs_add_le _ _).trans (add_le_add (h1 t ht) (h2 t ht))⟩
theorem Bdd.mul {f g : ℝ → ℝ} (hf : Bdd f) (hg : Bdd g) : Bdd (fun t => f t * g t) := by
  obtain ⟨B, hB, h1⟩ := hf
  obtain ⟨D, hD, h2⟩ := hg
  exact ⟨B * D, mul_nonneg hB hD, fun t ht => by rw [abs_mul]; exact mul_le_mul (h1 t ht) (h2 t ht) (abs_nonneg _) hB⟩
theorem Bdd.neg {f : ℝ → ℝ} (hf : Bdd f) : Bdd (fun t => -f t) := by
  obtain ⟨B, hB, h1⟩ := hf
  exact ⟨B, hB, fun t ht => by rw [abs_neg]; exact h1 t ht⟩
theorem Bdd.sub {f g : ℝ → ℝ} (hf : Bdd f) (hg : Bdd g) : Bdd (fun t => f t - g t) := by
  simpa only [sub_eq_add_neg] using hf.add hg.neg
theorem Bdd.sum {f : ι → ℝ → ℝ} (hf : ∀ k, Bdd (f k)) : Bdd (fun t => ∑ k, f k t) := by
  choose B hB h using hf
  exact ⟨∑ k, B k, sum_nonneg fun k _ => hB k, fun t ht => (abs_sum_le_sum_abs _ _).trans (sum_le_sum fun k _ => h k t ht)⟩
theorem Bdd.of_sq {f : ℝ → ℝ} {M : ℝ} (h : ∀ t, 0 ≤ t → f t ^ 2 ≤ M) : Bdd f := ⟨Real.sqrt M, Real.sqrt_nonneg _, fun t ht => Real.abs_le_sqrt (h t ht)⟩
theorem Bdd.congr {f g : ℝ → ℝ} (hf : Bdd f) (h : ∀ t, f t = g t) : Bdd g := by rwa [show g = f from (funext h).symm]

/-- Barbalat's lemma with a vanishing perturbation: if `f` tends to a limit and its derivative is `A + ε` with `A` Lipschitz and `ε → 0`, then `A → 0`. -/
theorem barbalat' {f A ε : ℝ → ℝ} {l : ℝ} {A' : ℝ → ℝ} (hd : ∀ t, 0 ≤ t → HasDerivAt f (A t + ε t) t) (hf : Tendsto f atTop (𝓝 l)) (hA : ∀ t, 0 ≤ t → HasDerivAt A (A' t) t)
    (hA' : Bdd A') (hε : Tendsto ε atTop (𝓝 0)) : Tendsto A atTop (𝓝 0) := by
  obtain ⟨M, hM, hb⟩ := hA'
  have hL : ∀ s t, 0 ≤ s → 0 ≤ t → |A s - A t| ≤ M * |s - t| := fun s t hs ht => Pll.lipschitz_of_deriv hA hb hs ht
  rw [Metric.tendsto_atTop]
  intro r hr
  set δ := r / (4 * (M + 1)) with hδ
  have hδ0 : 0 < δ := by positivity
  have hMδ : M * δ ≤ r / 4 := by
    have h1 : (M + 1) * δ = r / 4 := by rw [hδ]; field_simp
    nlinarith
  rw [Metric.tendsto_atTop] at hf hε
  obtain ⟨N, hN⟩ := hf (δ * r / 8) (by positivity)
  obtain ⟨N', hN'⟩ := hε (r / 4) (by positivity)
  refine ⟨max (max N N') 0, fun t ht => ?_⟩
  have ht0 : 0 ≤ t := (le_max_right _ _).trans ht
  have htN : N ≤ t := (le_max_left _ _).trans ((le_max_left _ _).trans ht)
  have htN' : N' ≤ t := (le_max_right _ _).trans ((le_max_left _ _).trans ht)
  have hlt : t < t + δ := by linarith
  obtain ⟨c, hc, hce⟩ := exists_hasDerivAt_eq_slope f (fun t => A t + ε t) hlt (fun x hx => (hd x (ht0.trans hx.1)).continuousAt.continuousWithinAt)
    (fun x hx => hd x (ht0.trans hx.1.le))
  have h1 := hN t htN
  have h2 := hN (t + δ) (by linarith)
  have h2' := hN' c (by linarith [hc.1])
  rw [Real.dist_eq] at h1 h2 h2'
  rw [sub_zero] at h2'
  have h3 : |f (t + δ) - f t| < δ * r / 4 := by
    have : f (t + δ) - f t = (f (t + δ) - l) - (f t - l) := by ring
    rw [this]
    calc _ ≤ |f (t + δ) - l| + |f t - l| := abs_sub _ _
      _ < δ * r / 8 + δ * r / 8 := add_lt_add h2 h1
      _ = δ * r / 4 := by ring
  have h4 : |A c + ε c| < r / 4 := by
    have : A c + ε c = (f (t + δ) - f t) / δ := by
      have e : t + δ - t = δ := by ring
      rw [e] at hce; exact hce
    rw [this, abs_div, abs_of_pos hδ0, div_lt_iff₀ hδ0]
    linarith
  have h5 : |A t - A c| ≤ r / 4 := by
    refine (hL t c ht0 (ht0.trans hc.1.le)).trans (le_trans ?_ hMδ)
    refine mul_le_mul_of_nonneg_left ?_ hM
    rw [abs_sub_comm, abs_of_pos (by linarith [hc.1])]; linarith [hc.2]
  rw [Real.dist_eq, sub_zero]
  have : A t = (A t - A c) + ((A c + ε c) - ε c) := by ring
  rw [this]
  have h6 := abs_sub (A c + ε c) (ε c)
  have h7 := abs_add_le (A t - A c) ((A c + ε c) - ε c)
  linarith

/-- A trajectory for ever, with bounded energy. -/
structure Run (a : Dat ι) (y : Trj ι) (w d : ℝ → ℝ) : Prop where
  ok : a.Ok
  eqs : ∀ t, 0 ≤ t → Eqs a y w d t

namespace Run
variable {a : Dat ι} {y : Trj ι} {w d : ℝ → ℝ}

theorem le (r : Run a y w d) {t : ℝ} (ht : 0 ≤ t) : energy a y t ≤ energy a y 0 :=
  energy_anti r.ok (fun s hs => r.eqs s hs.1) t ⟨ht, le_rfl⟩

theorem sq_of {a' c E q : ℝ} (hc : 0 < c) (h : c * q ≤ a') (h2 : a' ≤ E) : q ≤ E / c := by
  rw [le_div_iff₀ hc]; linarith

theorem compR_le (r : Run a y w d) (k : ι) {t : ℝ} (ht : 0 ≤ t) : comp a (a.vR k) (y.iR k t) (y.uR k t) (y.xR k t) ≤ energy a y 0 / a.g := by
  have h1 := (phase_le r.ok y t k).trans (r.le ht)
  have h2 := comp_nonneg r.ok (a.vI k) (y.iI k t) (y.uI k t) (y.xI k t)
  rw [le_div_iff₀ r.ok.g]
  have := mul_nonneg r.ok.g.le h2
  linarith

theorem compI_le (r : Run a y w d) (k : ι) {t : ℝ} (ht : 0 ≤ t) : comp a (a.vI k) (y.iI k t) (y.uI k t) (y.xI k t) ≤ energy a y 0 / a.g := by
  have h1 := (phase_le r.ok y t k).trans (r.le ht)
  have h2 := comp_nonneg r.ok (a.vR k) (y.iR k t) (y.uR k t) (y.xR k t)
  rw [le_div_iff₀ r.ok.g]
  have := mul_nonneg r.ok.g.le h2
  linarith

omit [Fintype ι] in
theorem bdd_comp (h : a.Ok) {v E : ℝ} {i u x : ℝ → ℝ} (hE : ∀ t, 0 ≤ t → comp a v (i t) (u t) (x t) ≤ E) : Bdd i ∧ Bdd u ∧ Bdd x := by
  have hk := h.kap; have hL := h.L; have hp := h.ψ0; have hK := h.Ki; have hw := h.wp
  have bi : Bdd i := Bdd.of_sq (M := E / (a.L / 2)) fun t ht => sq_of (by positivity) (comp_bounds h v (i t) (u t) (x t)).1 (hE t ht)
  have bu : Bdd u := Bdd.of_sq (M := E / (a.ψ0 / 2 * (a.kap / (2 * a.wp)))) fun t ht => sq_of (by positivity)
    (le_trans (le_of_eq (by ring)) (comp_bounds h v (i t) (u t) (x t)).2.1) (hE t ht)
  have bz : Bdd (fun t => x t - 2 * v / a.ψ0 + a.Ki / a.wp * u t) := Bdd.of_sq (M := E / (a.ψ0 / 2 * (1 / (2 * a.Ki)))) fun t ht => sq_of (by positivity)
    (le_trans (le_of_eq (by ring)) (comp_bounds h v (i t) (u t) (x t)).2.2.1) (hE t ht)
  exact ⟨bi, bu, ((bz.add (Bdd.const (2 * v / a.ψ0))).sub ((Bdd.const (a.Ki / a.wp)).mul bu)).congr (fun t => by ring)⟩

theorem bddR (r : Run a y w d) (k : ι) : Bdd (y.iR k) ∧ Bdd (y.uR k) ∧ Bdd (y.xR k) := bdd_comp r.ok (fun _ ht => r.compR_le k ht)
theorem bddI (r : Run a y w d) (k : ι) : Bdd (y.iI k) ∧ Bdd (y.uI k) ∧ Bdd (y.xI k) := bdd_comp r.ok (fun _ ht => r.compI_le k ht)

theorem bddψ (r : Run a y w d) : Bdd y.ψ := by
  have h1 : Bdd (fun t => y.ψ t - a.ψ0) := Bdd.of_sq (M := energy a y 0 / a.C) fun t ht => sq_of r.ok.C (cap_le r.ok y t) (r.le ht)
  exact (h1.add (Bdd.const a.ψ0)).congr (fun t => by ring)

theorem energy_tendsto (r : Run a y w d) : ∃ l, Tendsto (energy a y) atTop (𝓝 l) := by
  have hA : AntitoneOn (energy a y) (Ici 0) := by
    refine antitoneOn_of_deriv_nonpos (convex_Ici 0) (fun t ht => (denergy r.ok (r.eqs t ht)).continuousAt.continuousWithinAt)
      (fun t ht => (denergy r.ok (r.eqs t (interior_subset ht))).differentiableAt.differentiableWithinAt) (fun t ht => ?_)
    rw [(denergy r.ok (r.eqs t (interior_subset ht))).deriv]
    have := loss_nonneg r.ok y t
    linarith
  have ha : Antitone (fun s => energy a y (max s 0)) := by
    intro p q hpq
    exact hA (mem_Ici.2 (le_max_right _ _)) (mem_Ici.2 (le_max_right _ _)) (max_le_max_right 0 hpq)
  have hb : BddBelow (Set.range (fun s => energy a y (max s 0))) := ⟨0, by rintro _ ⟨s, rfl⟩; exact energy_nonneg r.ok _ _⟩
  refine ⟨_, (tendsto_atTop_ciInf ha hb).congr' ?_⟩
  filter_upwards [eventually_ge_atTop (0 : ℝ)] with s hs
  rw [max_eq_left hs]

/-- Derivative of the loss. -/
noncomputable def dloss (a : Dat ι) (y : Trj ι) (t : ℝ) : ℝ :=
  a.g * ∑ k, (a.R * ((2 / a.L) * (-a.R * (y.iR k t * y.iR k t + y.iI k t * y.iI k t) - (a.vR k * y.iR k t + a.vI k * y.iI k t) +
      ((a.Kp * y.uR k t + y.xR k t) * y.iR k t + (a.Kp * y.uI k t + y.xI k t) * y.iI k t) * (1 / 2 * y.ψ t))) +
    a.ψ0 / 2 * (a.Kp - a.Ki / a.wp) * (2 * a.wp * (-(y.uR k t * y.uR k t) - y.uR k t * y.iR k t - y.uI k t * y.uI k t - y.uI k t * y.iI k t)))

theorem hdloss (r : Run a y w d) {t : ℝ} (ht : 0 ≤ t) : HasDerivAt (loss a y) (dloss a y t) t := by
  have e := r.eqs t ht
  have h1 : HasDerivAt (fun t => ∑ k, (a.R * (y.iR k t ^ 2 + y.iI k t ^ 2) + a.ψ0 / 2 * (a.Kp - a.Ki / a.wp) * (y.uR k t ^ 2 + y.uI k t ^ 2))) _ t :=
    HasDerivAt.fun_sum (fun k _ => ((((e.iR k).pow 2).add ((e.iI k).pow 2)).const_mul a.R).add
      ((((e.uR k).pow 2).add ((e.uI k).pow 2)).const_mul (a.ψ0 / 2 * (a.Kp - a.Ki / a.wp))))
  refine (h1.const_mul a.g).congr_deriv ?_
  unfold dloss
  congr 1
  refine sum_congr rfl (fun k _ => ?_)
  have := r.ok.L.ne'
  push_cast
  field_simp
  ring

theorem bdd_dloss (r : Run a y w d) : Bdd (dloss a y) := by
  refine (Bdd.const a.g).mul (Bdd.sum (fun k => ?_))
  obtain ⟨iR, uR, xR⟩ := r.bddR k
  obtain ⟨iI, uI, xI⟩ := r.bddI k
  have ψ := r.bddψ
  have c := Bdd.const
  refine Bdd.add ((c _).mul ((c _).mul ?_)) ((c _).mul ((c _).mul ?_))
  · exact (((c _).mul ((iR.mul iR).add (iI.mul iI))).sub (((c _).mul iR).add ((c _).mul iI))).add
      ((((((c _).mul uR).add xR).mul iR).add ((((c _).mul uI).add xI).mul iI)).mul ((c _).mul ψ))
  · exact (((uR.mul uR).neg.sub (uR.mul iR)).sub (uI.mul uI)).sub (uI.mul iI)

theorem loss_tendsto (r : Run a y w d) : Tendsto (loss a y) atTop (𝓝 0) := by
  obtain ⟨l, hl⟩ := r.energy_tendsto
  have h := barbalat' (f := energy a y) (A := fun t => -loss a y t) (ε := fun _ => 0) (A' := fun t => -dloss a y t)
    (fun t ht => by rw [add_zero]; exact denergy r.ok (r.eqs t ht)) hl (fun t ht => (r.hdloss ht).neg) r.bdd_dloss.neg tendsto_const_nhds
  simpa using h.neg

theorem tendsto_of_sq {f g : ℝ → ℝ} {c : ℝ} (hc : 0 < c) (h : ∀ t, c * f t ^ 2 ≤ g t) (hg : Tendsto g atTop (𝓝 0)) : Tendsto f atTop (𝓝 0) := by
  have h1 : Tendsto (fun t => f t ^ 2) atTop (𝓝 0) := by
    refine squeeze_zero (fun t => sq_nonneg _) (g := fun t => 1 / c * g t) (fun t => ?_) (by simpa using hg.const_mul (1 / c))
    have := h t
    rw [one_div, ← div_eq_inv_mul, le_div_iff₀ hc]
    linarith
  have h3 := (Real.continuous_sqrt.tendsto 0).comp h1
  rw [Real.sqrt_zero] at h3
  exact (tendsto_zero_iff_abs_tendsto_zero _).2 (h3.congr (fun t => by simp [Real.sqrt_sq_eq_abs]))

theorem loss_phase (r : Run a y w d) (k : ι) (t : ℝ) :
    a.g * (a.R * (y.iR k t ^ 2 + y.iI k t ^ 2) + a.ψ0 / 2 * a.kap * (y.uR k t ^ 2 + y.uI k t ^ 2)) ≤ loss a y t := by
  have hk := r.ok.kap; have hR := r.ok.R; have hp := r.ok.ψ0
  exact mul_le_mul_of_nonneg_left (single_le_sum (f := fun k => a.R * (y.iR k t ^ 2 + y.iI k t ^ 2) + a.ψ0 / 2 * a.kap * (y.uR k t ^ 2 + y.uI k t ^ 2))
    (fun k _ => by positivity) (mem_univ k)) r.ok.g.le

/-- Currents and filtered errors vanish. -/
theorem vanish (r : Run a y w d) (k : ι) :
    Tendsto (y.iR k) atTop (𝓝 0) ∧ Tendsto (y.iI k) atTop (𝓝 0) ∧ Tendsto (y.uR k) atTop (𝓝 0) ∧ Tendsto (y.uI k) atTop (𝓝 0) := by
  have hk := r.ok.kap; have hR := r.ok.R; have hp := r.ok.ψ0; have hg := r.ok.g
  have hl := r.loss_tendsto
  have c1 : 0 < a.g * a.R := by positivity
  have c2 : 0 < a.g * (a.ψ0 / 2 * a.kap) := by positivity
  refine ⟨tendsto_of_sq c1 (fun t => ?_) hl, tendsto_of_sq c1 (fun t => ?_) hl, tendsto_of_sq c2 (fun t => ?_) hl, tendsto_of_sq c2 (fun t => ?_) hl⟩
  all_goals
    refine le_trans ?_ (r.loss_phase k t)
    rw [mul_assoc]
    refine mul_le_mul_of_nonneg_left ?_ hg.le
    have q1 : 0 ≤ a.R * y.iR k t ^ 2 := by positivity
    have q2 : 0 ≤ a.R * y.iI k t ^ 2 := by positivity
    have q3 : 0 ≤ a.ψ0 / 2 * a.kap * y.uR k t ^ 2 := by positivity
    have q4 : 0 ≤ a.ψ0 / 2 * a.kap * y.uI k t ^ 2 := by positivity
    linarith

theorem _root_.PvDer.Decay.Bdd.mul_tendsto {f g : ℝ → ℝ} (hf : Bdd f) (hg : Tendsto g atTop (𝓝 0)) : Tendsto (fun t => f t * g t) atTop (𝓝 0) := by
  obtain ⟨B, hB, h⟩ := hf
  refine squeeze_zero_norm' (a := fun t => B * |g t|) ?_ ?_
  · filter_upwards [eventually_ge_atTop (0 : ℝ)] with t ht
    rw [Real.norm_eq_abs, abs_mul]
    exact mul_le_mul_of_nonneg_right (h t ht) (abs_nonneg _)
  · simpa using ((tendsto_zero_iff_abs_tendsto_zero _).1 hg).const_mul B

/-- One component: if the current vanishes, the voltage that drives it does. -/
theorem drive {L R Kp Ki wp v : ℝ} (hL : 0 < L) {i j u x ψ w d di : ℝ → ℝ}
    (hi : ∀ t, 0 ≤ t → HasDerivAt i (di t) t) (edi : ∀ t, di t = (1 / L) * (-R * i t - v + (Kp * u t + x t) * (ψ t / 2)) + w t * j t)
    (hu : ∀ t, 0 ≤ t → HasDerivAt u (wp * (-u t - i t)) t) (hx : ∀ t, 0 ≤ t → HasDerivAt x (Ki * u t) t) (hψ : ∀ t, 0 ≤ t → HasDerivAt ψ (d t) t)
    (bi : Bdd i) (bj : Bdd j) (bu : Bdd u) (bx : Bdd x) (bψ : Bdd ψ) (bw : Bdd w) (bd : Bdd d) (ti : Tendsto i atTop (𝓝 0)) (tj : Tendsto j atTop (𝓝 0))
    (tu : Tendsto u atTop (𝓝 0)) : Tendsto (fun t => x t * (ψ t / 2)) atTop (𝓝 v) := by
  have c := Bdd.const
  have bψ2 : Bdd (fun t => ψ t / 2) := ((c (1/2)).mul bψ).congr (fun t => by ring)
  have bdi : Bdd di := (((c (1 / L)).mul ((((c (-R)).mul bi).sub (c v)).add ((((c Kp).mul bu).add bx).mul bψ2))).add (bw.mul bj)).congr (fun t => (edi t).symm)
  have hA := barbalat' (f := i) (A := fun t => (1 / L) * (-R * i t - v + (Kp * u t + x t) * (ψ t / 2))) (ε := fun t => w t * j t)
    (A' := fun t => (1 / L) * (-R * di t + ((Kp * (wp * (-u t - i t)) + Ki * u t) * (ψ t / 2) + (Kp * u t + x t) * (d t / 2))))
    (fun t ht => (hi t ht).congr_deriv (edi t)) ti (fun t ht => by
      refine (((((hi t ht).const_mul (-R)).sub_const v).add ((((hu t ht).const_mul Kp).add (hx t ht)).mul ((hψ t ht).div_const 2))).const_mul (1 / L)).congr_deriv ?_
      simp only [Pi.add_apply])
    ((c _).mul (((c _).mul bdi).add ((((((c Kp).mul ((c wp).mul (bu.neg.sub bi))).add ((c Ki).mul bu))).mul bψ2).add
      ((((c Kp).mul bu).add bx).mul (((c (1/2)).mul bd).congr (fun t => by ring))))))
    (bw.mul_tendsto tj)
  have h1 := hA.const_mul L
  rw [mul_zero] at h1
  have h2 : Tendsto (fun t => L * ((1 / L) * (-R * i t - v + (Kp * u t + x t) * (ψ t / 2))) + R * i t - Kp * ((ψ t / 2) * u t) + v) atTop (𝓝 (0 + R * 0 - Kp * 0 + v)) :=
    (((h1.add (ti.const_mul R))).sub ((bψ2.mul_tendsto tu).const_mul Kp)).add_const v
  rw [show (0 : ℝ) + R * 0 - Kp * 0 + v = v by ring] at h2
  refine h2.congr (fun t => ?_)
  field_simp
  ring

/-- The DC link is discharged by the power of the converter, or held constant. -/
def Link (a : Dat ι) (y : Trj ι) (d : ℝ → ℝ) : Prop :=
  (∀ t, 0 ≤ t → 4 * a.C * d t + a.g * ∑ k, ((a.Kp * y.uR k t + y.xR k t) * y.iR k t + (a.Kp * y.uI k t + y.xI k t) * y.iI k t) = 0) ∨
  (∀ t, 0 ≤ t → d t = 0 ∧ y.ψ t = a.ψ0)

theorem bdd_d (r : Run a y w d) (hl : Link a y d) : Bdd d := by
  rcases hl with hl | hl
  · have hC := r.ok.C
    have hb : Bdd (fun t => -(a.g / (4 * a.C)) * ∑ k, ((a.Kp * y.uR k t + y.xR k t) * y.iR k t + (a.Kp * y.uI k t + y.xI k t) * y.iI k t)) :=
      (Bdd.const _).mul (Bdd.sum fun k => by
        obtain ⟨iR, uR, xR⟩ := r.bddR k
        obtain ⟨iI, uI, xI⟩ := r.bddI k
        have c := Bdd.const
        exact ((((c _).mul uR).add xR).mul iR).add ((((c _).mul uI).add xI).mul iI))
    obtain ⟨B, hB, h⟩ := hb
    refine ⟨B, hB, fun t ht => ?_⟩
    have h1 := hl t ht
    have : d t = -(a.g / (4 * a.C)) * ∑ k, ((a.Kp * y.uR k t + y.xR k t) * y.iR k t + (a.Kp * y.uI k t + y.xI k t) * y.iI k t) := by
      field_simp
      linarith
    rw [this]
    exact h t ht
  · exact ⟨0, le_rfl, fun t ht => by rw [(hl t ht).1]; simp⟩

theorem xψ (r : Run a y w d) (hl : Link a y d) (bw : Bdd w) (k : ι) :
    Tendsto (fun t => y.xR k t * (y.ψ t / 2)) atTop (𝓝 (a.vR k)) ∧ Tendsto (fun t => y.xI k t * (y.ψ t / 2)) atTop (𝓝 (a.vI k)) := by
  obtain ⟨iR, uR, xR⟩ := r.bddR k
  obtain ⟨iI, uI, xI⟩ := r.bddI k
  obtain ⟨tiR, tiI, tuR, tuI⟩ := r.vanish k
  have bd := r.bdd_d hl
  refine ⟨drive (R := a.R) (Kp := a.Kp) (w := w) r.ok.L (fun t ht => (r.eqs t ht).iR k) (fun t => rfl) (fun t ht => (r.eqs t ht).uR k) (fun t ht => (r.eqs t ht).xR k) (fun t ht => (r.eqs t ht).ψ)
      iR iI uR xR r.bddψ bw bd tiR tiI tuR,
    drive (R := a.R) (Kp := a.Kp) (j := y.iR k) (w := fun t => -w t) r.ok.L (fun t ht => (r.eqs t ht).iI k) (fun t => by ring) (fun t ht => (r.eqs t ht).uI k) (fun t ht => (r.eqs t ht).xI k) (fun t ht => (r.eqs t ht).ψ)
      iI iR uI xI r.bddψ bw.neg bd tiI tiR tuI⟩

/-- The part of the energy that does not vanish. -/
noncomputable def rest (a : Dat ι) (y : Trj ι) (t : ℝ) : ℝ :=
  a.g * ∑ k, (a.ψ0 / (4 * a.Ki) * ((y.xR k t - 2 * a.vR k / a.ψ0) ^ 2 + (y.xI k t - 2 * a.vI k / a.ψ0) ^ 2)) + a.C * (y.ψ t - a.ψ0) ^ 2

omit [Fintype ι] in
theorem comp_rest (h : a.Ok) {v : ℝ} {i u x : ℝ → ℝ} (bi : Bdd i) (bu : Bdd u) (bx : Bdd x) (ti : Tendsto i atTop (𝓝 0)) (tu : Tendsto u atTop (𝓝 0)) :
    Tendsto (fun t => comp a v (i t) (u t) (x t) - a.ψ0 / (4 * a.Ki) * (x t - 2 * v / a.ψ0) ^ 2) atTop (𝓝 0) := by
  have c := Bdd.const
  have h1 := ((c (a.L / 2)).mul bi).mul_tendsto ti
  have h2 := ((((c (a.ψ0 / (2 * a.wp))).mul (bx.sub (c (2 * v / a.ψ0)))).add ((c (a.ψ0 * a.Ki / (4 * a.wp ^ 2))).mul bu)).add
    ((c (a.ψ0 / 2 * ((a.Kp - a.Ki / a.wp) / (2 * a.wp)))).mul bu)).mul_tendsto tu
  have h3 := h1.add h2
  rw [add_zero] at h3
  refine h3.congr (fun t => ?_)
  have := h.Ki.ne'; have := h.wp.ne'; have := h.ψ0.ne'
  unfold comp
  field_simp
  ring

theorem rest_tendsto (r : Run a y w d) : ∃ l, Tendsto (rest a y) atTop (𝓝 l) := by
  obtain ⟨l, hl⟩ := r.energy_tendsto
  have h : Tendsto (fun t => ∑ k, ((comp a (a.vR k) (y.iR k t) (y.uR k t) (y.xR k t) - a.ψ0 / (4 * a.Ki) * (y.xR k t - 2 * a.vR k / a.ψ0) ^ 2) +
      (comp a (a.vI k) (y.iI k t) (y.uI k t) (y.xI k t) - a.ψ0 / (4 * a.Ki) * (y.xI k t - 2 * a.vI k / a.ψ0) ^ 2))) atTop (𝓝 (∑ k : ι, (0 + 0))) := by
    refine tendsto_finsetSum _ (fun k _ => ?_)
    obtain ⟨iR, uR, xR⟩ := r.bddR k
    obtain ⟨iI, uI, xI⟩ := r.bddI k
    obtain ⟨tiR, tiI, tuR, tuI⟩ := r.vanish k
    exact (comp_rest r.ok iR uR xR tiR tuR).add (comp_rest r.ok iI uI xI tiI tuI)
  rw [add_zero, sum_const_zero] at h
  have h2 := hl.sub (h.const_mul a.g)
  refine ⟨_, h2.congr (fun t => ?_)⟩
  unfold energy rest
  rw [add_sub_right_comm, ← mul_sub, ← sum_sub_distrib]
  congr 2
  refine sum_congr rfl (fun k _ => ?_)
  ring

/-- The DC voltage settles, if it stays away from zero. -/
theorem ψ_settles (r : Run a y w d) (hl : Link a y d) (bw : Bdd w) {lo : ℝ} (hlo : 0 < lo) (hψ : ∀ t, 0 ≤ t → lo ≤ y.ψ t) :
    ∃ l, lo ≤ l ∧ Tendsto y.ψ atTop (𝓝 l) := by
  rcases hl with hl | hl
  swap
  · exact ⟨a.ψ0, by rw [← (hl 0 le_rfl).2]; exact hψ 0 le_rfl, tendsto_const_nhds.congr' (by filter_upwards [eventually_ge_atTop (0 : ℝ)] with t ht; rw [(hl t ht).2])⟩
  have hp := r.ok.ψ0; have hK := r.ok.Ki; have hC := r.ok.C; have hg := r.ok.g
  -- measure the energy from two voltages
  set a2 : Dat ι := { a with ψ0 := 2 * a.ψ0 } with ha2
  have r2 : Run a2 y w d := ⟨⟨r.ok.g, r.ok.L, r.ok.R, r.ok.C, r.ok.Ki, r.ok.wp, by show 0 < 2 * a.ψ0; linarith, r.ok.gain⟩,
    fun t ht => ⟨(r.eqs t ht).iR, (r.eqs t ht).iI, (r.eqs t ht).uR, (r.eqs t ht).uI, (r.eqs t ht).xR, (r.eqs t ht).xI, (r.eqs t ht).ψ, by
      show (y.ψ t - 2 * a.ψ0) * _ = 0
      rw [hl t ht, mul_zero]⟩⟩
  obtain ⟨l1, h1⟩ := r.rest_tendsto
  obtain ⟨l2, h2⟩ := r2.rest_tendsto
  set c := a.g / a.Ki * ∑ k, (a.vR k ^ 2 + a.vI k ^ 2) with hc
  have hc0 : 0 ≤ c := mul_nonneg (by positivity) (sum_nonneg fun k _ => by positivity)
  have hQ : ∃ q, Tendsto (fun t => a.C * y.ψ t ^ 2 - a.g / a.Ki * ∑ k, (y.xR k t * a.vR k + y.xI k t * a.vI k)) atTop (𝓝 q) := by
    have h3 := ((h1.const_mul 2).sub h2).add_const (2 * (a.C * a.ψ0 ^ 2) - 3 / (2 * a.ψ0) * c)
    refine ⟨_, h3.congr (fun t => ?_)⟩
    have e1 : ∀ (b : ℝ), b ≠ 0 → (∑ k, b / (4 * a.Ki) * ((y.xR k t - 2 * a.vR k / b) ^ 2 + (y.xI k t - 2 * a.vI k / b) ^ 2)) =
        b / (4 * a.Ki) * (∑ k, (y.xR k t ^ 2 + y.xI k t ^ 2)) - 1 / a.Ki * (∑ k, (y.xR k t * a.vR k + y.xI k t * a.vI k)) +
        1 / (a.Ki * b) * ∑ k, (a.vR k ^ 2 + a.vI k ^ 2) := by
      intro b hb
      rw [mul_sum, mul_sum, mul_sum, ← sum_sub_distrib, ← sum_add_distrib]
      refine sum_congr rfl (fun k _ => ?_)
      field_simp
      ring
    unfold rest
    rw [e1 a.ψ0 hp.ne']
    show _ - (a.g * ∑ k, (2 * a.ψ0 / (4 * a.Ki) * ((y.xR k t - 2 * a.vR k / (2 * a.ψ0)) ^ 2 + (y.xI k t - 2 * a.vI k / (2 * a.ψ0)) ^ 2)) + a.C * (y.ψ t - 2 * a.ψ0) ^ 2) + _ = _
    rw [e1 (2 * a.ψ0) (by positivity), hc]
    field_simp
    ring
  obtain ⟨q, hQ⟩ := hQ
  -- the remaining energy as a function of the DC voltage alone
  set H : ℝ → ℝ := fun s => a.C * s ^ 2 - 2 * c / s with hH
  have binv : Bdd (fun t => 1 / y.ψ t) := ⟨1 / lo, by positivity, fun t ht => by
    rw [abs_of_pos (one_div_pos.2 (hlo.trans_le (hψ t ht)))]
    exact one_div_le_one_div_of_le hlo (hψ t ht)⟩
  have hHq : Tendsto (fun t => H (y.ψ t)) atTop (𝓝 q) := by
    have h3 : Tendsto (fun t => ∑ k, (1 / y.ψ t * ((y.xR k t * (y.ψ t / 2) - a.vR k) * (2 * a.vR k) + (y.xI k t * (y.ψ t / 2) - a.vI k) * (2 * a.vI k)))) atTop (𝓝 (∑ k : ι, 0)) := by
      refine tendsto_finsetSum _ (fun k _ => binv.mul_tendsto ?_)
      obtain ⟨t1, t2⟩ := r.xψ (Or.inl hl) bw k
      have := ((t1.sub_const (a.vR k)).mul_const (2 * a.vR k)).add ((t2.sub_const (a.vI k)).mul_const (2 * a.vI k))
      simpa using this
    rw [sum_const_zero] at h3
    have h4 := hQ.add (h3.const_mul (a.g / a.Ki))
    rw [mul_zero, add_zero] at h4
    refine h4.congr' ?_
    filter_upwards [eventually_ge_atTop (0 : ℝ)] with t ht
    have hne : y.ψ t ≠ 0 := (hlo.trans_le (hψ t ht)).ne'
    rw [hH, hc]
    simp only
    have e : ∑ k, (1 / y.ψ t * ((y.xR k t * (y.ψ t / 2) - a.vR k) * (2 * a.vR k) + (y.xI k t * (y.ψ t / 2) - a.vI k) * (2 * a.vI k))) =
        (∑ k, (y.xR k t * a.vR k + y.xI k t * a.vI k)) - 2 / y.ψ t * ∑ k, (a.vR k ^ 2 + a.vI k ^ 2) := by
      rw [mul_sum, ← sum_sub_distrib]
      refine sum_congr rfl (fun k _ => ?_)
      field_simp
      ring
    rw [e]
    ring
  -- it is strictly increasing, so convergence of its value gives convergence of the voltage
  have hinc : ∀ s t, lo ≤ s → s ≤ t → 2 * a.C * lo * (t - s) ≤ H t - H s := by
    intro s t hs hst
    have hs0 : 0 < s := hlo.trans_le hs
    have h5 : 2 * c / t ≤ 2 * c / s := div_le_div_of_nonneg_left (by positivity) hs0 hst
    have h6 : 2 * a.C * lo * (t - s) ≤ a.C * t ^ 2 - a.C * s ^ 2 := by
      have e : a.C * t ^ 2 - a.C * s ^ 2 - 2 * a.C * lo * (t - s) = a.C * ((t - s) * ((t - lo) + (s - lo))) := by ring
      have : 0 ≤ a.C * ((t - s) * ((t - lo) + (s - lo))) := mul_nonneg hC.le (mul_nonneg (by linarith) (by linarith))
      linarith
    simp only [hH]
    linarith
  have hinc' : ∀ s t, lo ≤ s → lo ≤ t → 2 * a.C * lo * |t - s| ≤ |H t - H s| := by
    intro s t hs ht
    rcases le_total s t with h | h
    · rw [abs_of_nonneg (sub_nonneg.2 h)]; exact (hinc s t hs h).trans (le_abs_self _)
    · rw [abs_sub_comm t s, abs_sub_comm (H t), abs_of_nonneg (sub_nonneg.2 h)]; exact (hinc t s ht h).trans (le_abs_self _)
  have hcau : CauchySeq y.ψ := by
    rw [Metric.cauchySeq_iff']
    intro ε hε
    have h7 := hHq.cauchySeq
    rw [Metric.cauchySeq_iff'] at h7
    obtain ⟨N, hN⟩ := h7 (2 * a.C * lo * ε) (by positivity)
    have h8 := hHq.cauchySeq
    rw [Metric.cauchySeq_iff] at h8
    obtain ⟨M, hM⟩ := h8 (2 * a.C * lo * ε) (by positivity)
    refine ⟨max M 0, fun n hn => ?_⟩
    have hn0 : (0 : ℝ) ≤ n := (le_max_right _ _).trans hn
    have h9 := hM n ((le_max_left _ _).trans hn) (max M 0) (le_max_left _ _)
    rw [Real.dist_eq] at h9 ⊢
    have h10 := hinc' _ _ (hψ _ (le_max_right M 0)) (hψ n hn0)
    have h11 : 2 * a.C * lo * |y.ψ n - y.ψ (max M 0)| < 2 * a.C * lo * ε := h10.trans_lt h9
    exact lt_of_mul_lt_mul_left h11 (by positivity)
  obtain ⟨l, hl'⟩ := cauchySeq_tendsto_of_complete hcau
  refine ⟨l, ge_of_tendsto hl' ?_, hl'⟩
  filter_upwards [eventually_ge_atTop (0 : ℝ)] with t ht using hψ t ht

/-- The integrators settle at the duty cycle that balances the terminal voltage. -/
theorem x_settles (r : Run a y w d) (hl : Link a y d) (bw : Bdd w) {l : ℝ} (hl0 : 0 < l) (ht : Tendsto y.ψ atTop (𝓝 l)) (k : ι) :
    Tendsto (y.xR k) atTop (𝓝 (2 * a.vR k / l)) ∧ Tendsto (y.xI k) atTop (𝓝 (2 * a.vI k / l)) := by
  obtain ⟨t1, t2⟩ := r.xψ hl bw k
  have hne : ∀ᶠ t in atTop, y.ψ t ≠ 0 := ht.eventually_ne hl0.ne'
  have h1 := (t1.div (ht.div_const 2) (by positivity))
  have h2 := (t2.div (ht.div_const 2) (by positivity))
  constructor
  · rw [show 2 * a.vR k / l = a.vR k / (l / 2) by field_simp]
    refine h1.congr' ?_
    filter_upwards [hne] with t h
    simp only [Pi.div_apply]
    field_simp
  · rw [show 2 * a.vI k / l = a.vI k / (l / 2) by field_simp]
    refine h2.congr' ?_
    filter_upwards [hne] with t h
    simp only [Pi.div_apply]
    field_simp

end Run

/-! ### From the initial energy alone -/

/-- If the initial energy leaves room below the duty cycle limit and above zero DC voltage, both are kept for ever, and the plain equations with them. -/
theorem room {a : Dat ι} (h : a.Ok) {y : Trj ι} {w d : ℝ → ℝ} {mlim : ℝ}
    (hcu : ∀ k t, 0 ≤ t → ContinuousAt (y.uR k) t ∧ ContinuousAt (y.uI k) t ∧ ContinuousAt (y.xR k) t ∧ ContinuousAt (y.xI k) t)
    (hcψ : ∀ t, 0 ≤ t → ContinuousAt y.ψ t)
    (heq : ∀ t, 0 ≤ t → (∀ k, ‖y.m a k t‖ ≤ mlim) → 0 < y.ψ t → Eqs a y w d t)
    (hm : ∀ k, 2 * ‖(⟨a.vR k, a.vI k⟩ : ℂ)‖ / a.ψ0 + Real.sqrt (4 * a.Kp * a.wp / (a.g * a.ψ0) * energy a y 0) < mlim)
    (hC : energy a y 0 < a.C * a.ψ0 ^ 2) :
    ∀ t, 0 ≤ t → (∀ k, ‖y.m a k t‖ ≤ 2 * ‖(⟨a.vR k, a.vI k⟩ : ℂ)‖ / a.ψ0 + Real.sqrt (4 * a.Kp * a.wp / (a.g * a.ψ0) * energy a y 0)) ∧
      a.ψ0 - Real.sqrt (energy a y 0 / a.C) ≤ y.ψ t := by
  have hp := h.ψ0
  set lo := a.ψ0 - Real.sqrt (energy a y 0 / a.C) with hlo
  have hlo0 : 0 < lo := by
    have : Real.sqrt (energy a y 0 / a.C) < a.ψ0 := by
      rw [Real.sqrt_lt' hp, div_lt_iff₀ h.C]; linarith
    linarith
  have hψlow : ∀ t, energy a y t ≤ energy a y 0 → lo ≤ y.ψ t := by
    intro t ht
    have h1 := (cap_le h y t).trans ht
    have h2 : (y.ψ t - a.ψ0) ^ 2 ≤ energy a y 0 / a.C := by rw [le_div_iff₀ h.C]; linarith
    have h3 := Real.abs_le_sqrt h2
    have h4 := (abs_le.1 h3).1
    linarith
  set q : Option ι → ℝ → ℝ := fun o t => o.elim (-y.ψ t) (fun k => ‖y.m a k t‖) with hq
  set c : Option ι → ℝ := fun o => o.elim (-(lo / 2)) (fun _ => mlim) with hcdef
  set c' : Option ι → ℝ := fun o => o.elim (-lo) (fun k => 2 * ‖(⟨a.vR k, a.vI k⟩ : ℂ)‖ / a.ψ0 + Real.sqrt (4 * a.Kp * a.wp / (a.g * a.ψ0) * energy a y 0)) with hc'def
  have hmain := stays (q := q) (c := c) (c' := c') (fun o => by
      cases o with
      | none => show -lo < -(lo / 2); linarith
      | some k => exact hm k)
    (fun o t ht => by
      cases o with
      | none => exact (hcψ t ht).neg
      | some k =>
        obtain ⟨c1, c2, c3, c4⟩ := hcu k t ht
        have e : (fun t => y.m a k t) = fun t => (((a.Kp * y.uR k t + y.xR k t : ℝ) : ℂ) + ((a.Kp * y.uI k t + y.xI k t : ℝ) : ℂ) * Complex.I) := by
          funext s; apply Complex.ext <;> simp [Trj.m]
        have : ContinuousAt (fun t => y.m a k t) t := by
          rw [e]
          exact (Complex.continuous_ofReal.continuousAt.comp ((continuousAt_const.mul c1).add c3)).add
            ((Complex.continuous_ofReal.continuousAt.comp ((continuousAt_const.mul c2).add c4)).mul continuousAt_const)
        exact this.norm)
    (fun o => by
      cases o with
      | none => show -y.ψ 0 ≤ -lo; have := hψlow 0 le_rfl; linarith
      | some k => exact duty_le h y 0 k le_rfl)
    (fun T hT hb => by
      have hE := energy_anti h (y := y) (w := w) (d := d) (T := T) (fun t ht => heq t ht.1 (fun k => hb t ht (some k)) (by
        have : -y.ψ t ≤ -(lo / 2) := hb t ht none
        linarith)) T ⟨hT, le_rfl⟩
      intro o
      cases o with
      | none => show -y.ψ T ≤ -lo; have := hψlow T hE; linarith
      | some k => exact duty_le h y T k hE)
  intro t ht
  refine ⟨fun k => hmain t ht (some k), ?_⟩
  have : -y.ψ t ≤ -lo := hmain t ht none
  linarith

end Decay
end PvDer
