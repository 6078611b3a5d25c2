import Verif.Props.Tracks
import Verif.Props.Balanced

/-!
# C121: the time origin does not matter (and what does)

The model computes the phase seen by its PLL as `w·t + angle(v) - wte`, with `t` the absolute simulation time and `w` the present grid frequency.  Hence, with a
constant frequency, delaying the start and every input by `τ` delays the whole simulation by `τ`, with the PLL angle ahead by `w·τ`.  With a frequency that changes
this is false, and so it is for a rotation of all phasors: both are shown below.
-/

namespace PvDer
namespace Ode
open Complex Phasor

/-! ## The PLL input -/

theorem pll1_later (v : ℂ) (w t W τ : ℝ) : pll1 v w (t + τ) (W + w * τ) = pll1 v w t W := by
  have h : w * (t + τ) + arg v - (W + w * τ) = w * t + arg v - W := by ring
  rw [C53_pll_input, C53_pll_input, h]

theorem pll3_later (v : ℂ) (w t W τ : ℝ) : pll3 v (Phasor.ub v) (Phasor.uc v) w (t + τ) (W + w * τ) = pll3 v (Phasor.ub v) (Phasor.uc v) w t W := by
  rw [C53_pll_three_phase, C53_pll_three_phase, pll1_later]

/-- Unbalanced voltages: the ripple at twice the grid frequency repeats after half a period. -/
theorem pll3_half_period (va vb vc : ℂ) (w t W τ : ℝ) (n : ℤ) (hn : w * τ = n * Real.pi) :
    (pll3 va vb vc w (t + τ) (W + w * τ)).1 = (pll3 va vb vc w t W).1 := by
  rw [C53_pll_unbalanced, C53_pll_unbalanced]
  have h1 : ∀ a : ℝ, w * (t + τ) + a - (W + w * τ) = w * t + a - W := by intro a; ring
  have h2 : ∀ a : ℝ, w * (t + τ) + a + (W + w * τ) = w * t + a + W + n * (2 * Real.pi) := by intro a; linear_combination 2 * hn
  rw [h1, h2, Real.sin_add_int_mul_two_pi]

/-! ## States and inputs, later -/

/-- The state with the component `k` increased by `α`. -/
def ahead {ι : Type} [DecidableEq ι] (k : ι) (α : ℝ) (y : ι → ℝ) : ι → ℝ := fun r => if r = k then y k + α else y r

/-- The same inputs, asked for at another time. -/
def Inp.at (i : Inp) (t : ℝ) : Inp := { i with t := t }

/-- A delayed solution. -/
theorem solves_later {ι : Type} [DecidableEq ι] (k : ι) (α τ : ℝ) {F F' : ℝ → (ι → ℝ) → ι → ℝ} {Y : ℝ → ι → ℝ} {s : ℝ}
    (h : Solves F Y (s - τ)) (hF : F' s (ahead k α (Y (s - τ))) = F (s - τ) (Y (s - τ))) :
    Solves F' (fun s => ahead k α (Y (s - τ))) s := by
  intro r
  rw [hF]
  have hsub : HasDerivAt (fun s => s - τ) 1 s := (hasDerivAt_id s).sub_const τ
  have hc : ∀ r, HasDerivAt (fun s => Y (s - τ) r) (F (s - τ) (Y (s - τ)) r) s := by
    intro r
    have := (h r).comp s hsub
    rw [mul_one] at this
    exact this
  by_cases hr : r = k
  · subst hr
    have : (fun s => ahead r α (Y (s - τ)) r) = fun s => Y (s - τ) r + α := by funext s; simp [ahead]
    rw [this]
    exact (hc r).add_const α
  · have : (fun s => ahead k α (Y (s - τ)) r) = fun s => Y (s - τ) r := by funext s; simp [ahead, hr]
    rw [this]
    exact hc r

theorem connIf_when (c : Bool) (e : Env) (W T : ℝ) : connIf c { e with wte := W, t := T } = { connIf c e with wte := W, t := T } := by
  cases c <;> rfl

variable (p : Par) (inp : ℝ → Inp) (c : ℝ → Bool) (w : ℝ)

/-! ### single-phase -/

theorem SinglePhase.rhs_when (e : Env) (W T : ℝ) : SinglePhase.rhs { e with wte := W, t := T } = SinglePhase.rhs e := by
  funext r; cases r <;> rfl

theorem env1_when (i : Inp) (y : SinglePhase.V → ℝ) (T α : ℝ)
    (hp : (pll1 i.va i.w T (y .wte + α)).1 = (pll1 i.va i.w i.t (y .wte)).1) :
    env1 p (i.at T) (ahead .wte α y) = { env1 p i y with wte := y .wte + α, t := T } := by
  simp only [env1, ahead, Inp.at, Env.base, reduceCtorEq, if_true, if_false, hp, irefOf, ppvOf]

/-- C121 (single-phase class): with a constant grid frequency the time origin does not matter. -/
theorem C121_time_origin_single (Y : ℝ → SinglePhase.V → ℝ) (S : Set ℝ) (τ : ℝ) (hw : ∀ t ∈ S, (inp t).w = w) (ht : ∀ t ∈ S, (inp t).t = t)
    (h : ∀ t ∈ S, Solves (fun t y => SinglePhase.rhs (connIf (c t) (env1 p (inp t) y))) Y t) :
    ∀ s, s - τ ∈ S → Solves (fun s y => SinglePhase.rhs (connIf (c (s - τ)) (env1 p ((inp (s - τ)).at s) y))) (fun s => ahead .wte (w * τ) (Y (s - τ))) s := by
  intro s hs
  refine solves_later .wte (w * τ) τ (h _ hs) ?_
  rw [env1_when p _ _ _ _ (by
    have := pll1_later (inp (s - τ)).va w (s - τ) (Y (s - τ) .wte) τ
    rw [hw _ hs, ht _ hs]
    rw [sub_add_cancel] at this
    exact congrArg Prod.fst this), connIf_when, SinglePhase.rhs_when]

/-! ### three-phase -/

theorem ThreePhase.rhs_when (e : Env) (W T : ℝ) : ThreePhase.rhs { e with wte := W, t := T } = ThreePhase.rhs e := by
  funext r; cases r <;> rfl

theorem envT_when (i : Inp) (y : ThreePhase.V → ℝ) (T α : ℝ)
    (hp : (pll3 i.va i.vb i.vc i.w T (y .wte + α)).1 = (pll3 i.va i.vb i.vc i.w i.t (y .wte)).1) :
    envT p (i.at T) (ahead .wte α y) = { envT p i y with wte := y .wte + α, t := T } := by
  simp only [envT, env3, ahead, Inp.at, Env.base, reduceCtorEq, if_true, if_false, hp, irefOf, ppvOf]

/-- C121 (three-phase class, balanced terminal voltages). -/
theorem C121_time_origin_three (Y : ℝ → ThreePhase.V → ℝ) (S : Set ℝ) (τ : ℝ) (hw : ∀ t ∈ S, (inp t).w = w) (ht : ∀ t ∈ S, (inp t).t = t) (hb : ∀ t ∈ S, BalancedInp (inp t))
    (h : ∀ t ∈ S, Solves (fun t y => ThreePhase.rhs (connIf (c t) (envT p (inp t) y))) Y t) :
    ∀ s, s - τ ∈ S → Solves (fun s y => ThreePhase.rhs (connIf (c (s - τ)) (envT p ((inp (s - τ)).at s) y))) (fun s => ahead .wte (w * τ) (Y (s - τ))) s := by
  intro s hs
  refine solves_later .wte (w * τ) τ (h _ hs) ?_
  rw [envT_when p _ _ _ _ (by
    have := pll3_later (inp (s - τ)).va w (s - τ) (Y (s - τ) .wte) τ
    rw [hw _ hs, ht _ hs, (hb _ hs).1, (hb _ hs).2]
    rw [sub_add_cancel] at this
    exact congrArg Prod.fst this), connIf_when, ThreePhase.rhs_when]

/-- C121 (three-phase class, any terminal voltages): a delay by a multiple of half a grid period. -/
theorem C121_half_periods_three (Y : ℝ → ThreePhase.V → ℝ) (S : Set ℝ) (τ : ℝ) (n : ℤ) (hn : w * τ = n * Real.pi) (hw : ∀ t ∈ S, (inp t).w = w) (ht : ∀ t ∈ S, (inp t).t = t)
    (h : ∀ t ∈ S, Solves (fun t y => ThreePhase.rhs (connIf (c t) (envT p (inp t) y))) Y t) :
    ∀ s, s - τ ∈ S → Solves (fun s y => ThreePhase.rhs (connIf (c (s - τ)) (envT p ((inp (s - τ)).at s) y))) (fun s => ahead .wte (w * τ) (Y (s - τ))) s := by
  intro s hs
  refine solves_later .wte (w * τ) τ (h _ hs) ?_
  rw [envT_when p _ _ _ _ (by
    have := pll3_half_period (inp (s - τ)).va (inp (s - τ)).vb (inp (s - τ)).vc w (s - τ) (Y (s - τ) .wte) τ n hn
    rw [hw _ hs, ht _ hs]
    rw [sub_add_cancel] at this
    exact this), connIf_when, ThreePhase.rhs_when]

/-! ### three-phase without RMS filter -/

theorem ThreePhaseNoVrmsFilter.rhs_when (e : Env) (W T : ℝ) : ThreePhaseNoVrmsFilter.rhs { e with wte := W, t := T } = ThreePhaseNoVrmsFilter.rhs e := by
  funext r; cases r <;> rfl

theorem envN_when (i : Inp) (y : ThreePhaseNoVrmsFilter.V → ℝ) (T α : ℝ)
    (hp : (pll3 i.va i.vb i.vc i.w T (y .wte + α)).1 = (pll3 i.va i.vb i.vc i.w i.t (y .wte)).1) :
    envN p (i.at T) (ahead .wte α y) = { envN p i y with wte := y .wte + α, t := T } := by
  simp only [envN, env3, ahead, Inp.at, Env.base, reduceCtorEq, if_true, if_false, hp, irefOf, ppvOf]

/-- C121 (three-phase without RMS filter class, balanced terminal voltages). -/
theorem C121_time_origin_three_no_filter (Y : ℝ → ThreePhaseNoVrmsFilter.V → ℝ) (S : Set ℝ) (τ : ℝ) (hw : ∀ t ∈ S, (inp t).w = w) (ht : ∀ t ∈ S, (inp t).t = t) (hb : ∀ t ∈ S, BalancedInp (inp t))
    (h : ∀ t ∈ S, Solves (fun t y => ThreePhaseNoVrmsFilter.rhs (connIf (c t) (envN p (inp t) y))) Y t) :
    ∀ s, s - τ ∈ S → Solves (fun s y => ThreePhaseNoVrmsFilter.rhs (connIf (c (s - τ)) (envN p ((inp (s - τ)).at s) y))) (fun s => ahead .wte (w * τ) (Y (s - τ))) s := by
  intro s hs
  refine solves_later .wte (w * τ) τ (h _ hs) ?_
  rw [envN_when p _ _ _ _ (by
    have := pll3_later (inp (s - τ)).va w (s - τ) (Y (s - τ) .wte) τ
    rw [hw _ hs, ht _ hs, (hb _ hs).1, (hb _ hs).2]
    rw [sub_add_cancel] at this
    exact congrArg Prod.fst this), connIf_when, ThreePhaseNoVrmsFilter.rhs_when]

/-- C121 (three-phase without RMS filter class, any terminal voltages): a delay by a multiple of half a grid period. -/
theorem C121_half_periods_three_no_filter (Y : ℝ → ThreePhaseNoVrmsFilter.V → ℝ) (S : Set ℝ) (τ : ℝ) (n : ℤ) (hn : w * τ = n * Real.pi) (hw : ∀ t ∈ S, (inp t).w = w) (ht : ∀ t ∈ S, (inp t).t = t)
    (h : ∀ t ∈ S, Solves (fun t y => ThreePhaseNoVrmsFilter.rhs (connIf (c t) (envN p (inp t) y))) Y t) :
    ∀ s, s - τ ∈ S → Solves (fun s y => ThreePhaseNoVrmsFilter.rhs (connIf (c (s - τ)) (envN p ((inp (s - τ)).at s) y))) (fun s => ahead .wte (w * τ) (Y (s - τ))) s := by
  intro s hs
  refine solves_later .wte (w * τ) τ (h _ hs) ?_
  rw [envN_when p _ _ _ _ (by
    have := pll3_half_period (inp (s - τ)).va (inp (s - τ)).vb (inp (s - τ)).vc w (s - τ) (Y (s - τ) .wte) τ n hn
    rw [hw _ hs, ht _ hs]
    rw [sub_add_cancel] at this
    exact this), connIf_when, ThreePhaseNoVrmsFilter.rhs_when]

/-! ### numba -/

theorem ThreePhaseNumba.rhs_when (e : Env) (W T : ℝ) : ThreePhaseNumba.rhs { e with wte := W, t := T } = ThreePhaseNumba.rhs e := by
  funext r; cases r <;> rfl

theorem envNumba_when (i : Inp) (y : ThreePhaseNumba.V → ℝ) (T α : ℝ)
    (hp : (pll3 i.va i.vb i.vc i.w T (y .wte + α)).1 = (pll3 i.va i.vb i.vc i.w i.t (y .wte)).1) :
    envNumba p (i.at T) (ahead .wte α y) = { envNumba p i y with wte := y .wte + α, t := T } := by
  simp only [envNumba, env3, ahead, Inp.at, Env.base, reduceCtorEq, if_true, if_false, hp, irefOf, ppvOf]

/-- C121 (numba class, balanced terminal voltages). -/
theorem C121_time_origin_three_numba (Y : ℝ → ThreePhaseNumba.V → ℝ) (S : Set ℝ) (τ : ℝ) (hw : ∀ t ∈ S, (inp t).w = w) (ht : ∀ t ∈ S, (inp t).t = t) (hb : ∀ t ∈ S, BalancedInp (inp t))
    (h : ∀ t ∈ S, Solves (fun t y => ThreePhaseNumba.rhs (connIf (c t) (envNumba p (inp t) y))) Y t) :
    ∀ s, s - τ ∈ S → Solves (fun s y => ThreePhaseNumba.rhs (connIf (c (s - τ)) (envNumba p ((inp (s - τ)).at s) y))) (fun s => ahead .wte (w * τ) (Y (s - τ))) s := by
  intro s hs
  refine solves_later .wte (w * τ) τ (h _ hs) ?_
  rw [envNumba_when p _ _ _ _ (by
    have := pll3_later (inp (s - τ)).va w (s - τ) (Y (s - τ) .wte) τ
    rw [hw _ hs, ht _ hs, (hb _ hs).1, (hb _ hs).2]
    rw [sub_add_cancel] at this
    exact congrArg Prod.fst this), connIf_when, ThreePhaseNumba.rhs_when]

/-- C121 (numba class, any terminal voltages): a delay by a multiple of half a grid period. -/
theorem C121_half_periods_three_numba (Y : ℝ → ThreePhaseNumba.V → ℝ) (S : Set ℝ) (τ : ℝ) (n : ℤ) (hn : w * τ = n * Real.pi) (hw : ∀ t ∈ S, (inp t).w = w) (ht : ∀ t ∈ S, (inp t).t = t)
    (h : ∀ t ∈ S, Solves (fun t y => ThreePhaseNumba.rhs (connIf (c t) (envNumba p (inp t) y))) Y t) :
    ∀ s, s - τ ∈ S → Solves (fun s y => ThreePhaseNumba.rhs (connIf (c (s - τ)) (envNumba p ((inp (s - τ)).at s) y))) (fun s => ahead .wte (w * τ) (Y (s - τ))) s := by
  intro s hs
  refine solves_later .wte (w * τ) τ (h _ hs) ?_
  rw [envNumba_when p _ _ _ _ (by
    have := pll3_half_period (inp (s - τ)).va (inp (s - τ)).vb (inp (s - τ)).vc w (s - τ) (Y (s - τ) .wte) τ n hn
    rw [hw _ hs, ht _ hs]
    rw [sub_add_cancel] at this
    exact this), connIf_when, ThreePhaseNumba.rhs_when]

/-! ### balanced -/

theorem ThreePhaseBalanced.rhs_when (e : Env) (W T : ℝ) : ThreePhaseBalanced.rhs { e with wte := W, t := T } = ThreePhaseBalanced.rhs e := by
  funext r; cases r <;> rfl

theorem envB_when (i : Inp) (y : ThreePhaseBalanced.V → ℝ) (T α : ℝ)
    (hp : (pll3 i.va (Phasor.ub i.va) (Phasor.uc i.va) i.w T (y .wte + α)).1 = (pll3 i.va (Phasor.ub i.va) (Phasor.uc i.va) i.w i.t (y .wte)).1) :
    envB p (i.at T) (ahead .wte α y) = { envB p i y with wte := y .wte + α, t := T } := by
  simp only [envB, env3, ahead, Inp.at, Env.base, reduceCtorEq, if_true, if_false, hp, irefOf, ppvOf]

/-- C121 (balanced class): with a constant grid frequency the time origin does not matter. -/
theorem C121_time_origin_balanced (Y : ℝ → ThreePhaseBalanced.V → ℝ) (S : Set ℝ) (τ : ℝ) (hw : ∀ t ∈ S, (inp t).w = w) (ht : ∀ t ∈ S, (inp t).t = t)
    (h : ∀ t ∈ S, Solves (fun t y => ThreePhaseBalanced.rhs (connIf (c t) (envB p (inp t) y))) Y t) :
    ∀ s, s - τ ∈ S → Solves (fun s y => ThreePhaseBalanced.rhs (connIf (c (s - τ)) (envB p ((inp (s - τ)).at s) y))) (fun s => ahead .wte (w * τ) (Y (s - τ))) s := by
  intro s hs
  refine solves_later .wte (w * τ) τ (h _ hs) ?_
  rw [envB_when p _ _ _ _ (by
    have := pll3_later (inp (s - τ)).va w (s - τ) (Y (s - τ) .wte) τ
    rw [hw _ hs, ht _ hs]
    rw [sub_add_cancel] at this
    exact congrArg Prod.fst this), connIf_when, ThreePhaseBalanced.rhs_when]

/-! ### single-phase constant-Vdc -/

theorem SinglePhaseConstantVdc.rhs_when (e : Env) (W T : ℝ) : SinglePhaseConstantVdc.rhs { e with wte := W, t := T } = SinglePhaseConstantVdc.rhs e := by
  funext r; cases r <;> rfl

theorem envC1_when (i : Inp) (y : SinglePhaseConstantVdc.V → ℝ) (T α : ℝ)
    (hp : (pll1 i.va i.w T (y .wte + α)).1 = (pll1 i.va i.w i.t (y .wte)).1) :
    envC1 p (i.at T) (ahead .wte α y) = { envC1 p i y with wte := y .wte + α, t := T } := by
  simp only [envC1, ahead, Inp.at, Env.base, reduceCtorEq, if_true, if_false, hp, irefPOf, ppvOf]

/-- C121 (single-phase constant-Vdc class): with a constant grid frequency the time origin does not matter. -/
theorem C121_time_origin_single_constant_vdc (Y : ℝ → SinglePhaseConstantVdc.V → ℝ) (S : Set ℝ) (τ : ℝ) (hw : ∀ t ∈ S, (inp t).w = w) (ht : ∀ t ∈ S, (inp t).t = t)
    (h : ∀ t ∈ S, Solves (fun t y => SinglePhaseConstantVdc.rhs (connIf (c t) (envC1 p (inp t) y))) Y t) :
    ∀ s, s - τ ∈ S → Solves (fun s y => SinglePhaseConstantVdc.rhs (connIf (c (s - τ)) (envC1 p ((inp (s - τ)).at s) y))) (fun s => ahead .wte (w * τ) (Y (s - τ))) s := by
  intro s hs
  refine solves_later .wte (w * τ) τ (h _ hs) ?_
  rw [envC1_when p _ _ _ _ (by
    have := pll1_later (inp (s - τ)).va w (s - τ) (Y (s - τ) .wte) τ
    rw [hw _ hs, ht _ hs]
    rw [sub_add_cancel] at this
    exact congrArg Prod.fst this), connIf_when, SinglePhaseConstantVdc.rhs_when]

/-! ### three-phase constant-Vdc -/

theorem ThreePhaseConstantVdc.rhs_when (e : Env) (W T : ℝ) : ThreePhaseConstantVdc.rhs { e with wte := W, t := T } = ThreePhaseConstantVdc.rhs e := by
  funext r; cases r <;> rfl

theorem envC3_when (i : Inp) (y : ThreePhaseConstantVdc.V → ℝ) (T α : ℝ)
    (hp : (pll3 i.va i.vb i.vc i.w T (y .wte + α)).1 = (pll3 i.va i.vb i.vc i.w i.t (y .wte)).1) :
    envC3 p (i.at T) (ahead .wte α y) = { envC3 p i y with wte := y .wte + α, t := T } := by
  simp only [envC3, ahead, Inp.at, Env.base, reduceCtorEq, if_true, if_false, hp, irefPOf, ppvOf]

/-- C121 (three-phase constant-Vdc class, balanced terminal voltages). -/
theorem C121_time_origin_three_constant_vdc (Y : ℝ → ThreePhaseConstantVdc.V → ℝ) (S : Set ℝ) (τ : ℝ) (hw : ∀ t ∈ S, (inp t).w = w) (ht : ∀ t ∈ S, (inp t).t = t) (hb : ∀ t ∈ S, BalancedInp (inp t))
    (h : ∀ t ∈ S, Solves (fun t y => ThreePhaseConstantVdc.rhs (connIf (c t) (envC3 p (inp t) y))) Y t) :
    ∀ s, s - τ ∈ S → Solves (fun s y => ThreePhaseConstantVdc.rhs (connIf (c (s - τ)) (envC3 p ((inp (s - τ)).at s) y))) (fun s => ahead .wte (w * τ) (Y (s - τ))) s := by
  intro s hs
  refine solves_later .wte (w * τ) τ (h _ hs) ?_
  rw [envC3_when p _ _ _ _ (by
    have := pll3_later (inp (s - τ)).va w (s - τ) (Y (s - τ) .wte) τ
    rw [hw _ hs, ht _ hs, (hb _ hs).1, (hb _ hs).2]
    rw [sub_add_cancel] at this
    exact congrArg Prod.fst this), connIf_when, ThreePhaseConstantVdc.rhs_when]

/-- C121 (three-phase constant-Vdc class, any terminal voltages): a delay by a multiple of half a grid period. -/
theorem C121_half_periods_three_constant_vdc (Y : ℝ → ThreePhaseConstantVdc.V → ℝ) (S : Set ℝ) (τ : ℝ) (n : ℤ) (hn : w * τ = n * Real.pi) (hw : ∀ t ∈ S, (inp t).w = w) (ht : ∀ t ∈ S, (inp t).t = t)
    (h : ∀ t ∈ S, Solves (fun t y => ThreePhaseConstantVdc.rhs (connIf (c t) (envC3 p (inp t) y))) Y t) :
    ∀ s, s - τ ∈ S → Solves (fun s y => ThreePhaseConstantVdc.rhs (connIf (c (s - τ)) (envC3 p ((inp (s - τ)).at s) y))) (fun s => ahead .wte (w * τ) (Y (s - τ))) s := by
  intro s hs
  refine solves_later .wte (w * τ) τ (h _ hs) ?_
  rw [envC3_when p _ _ _ _ (by
    have := pll3_half_period (inp (s - τ)).va (inp (s - τ)).vb (inp (s - τ)).vc w (s - τ) (Y (s - τ) .wte) τ n hn
    rw [hw _ hs, ht _ hs]
    rw [sub_add_cancel] at this
    exact this), connIf_when, ThreePhaseConstantVdc.rhs_when]

/-! ## What does matter -/

/-- C121, the boundary: across a change of the grid frequency from `w1` to `w2` a delay by `τ` is invisible to the PLL, with whatever advance `α` of its angle, only
if the two frequencies turn by the same angle (modulo full turns) in `τ`.  So the time origin matters as soon as the frequency changes: the same frequency step
at a later time is a different phase jump. -/
theorem C121_frequency_step_depends_on_time (v : ℂ) (hv : v ≠ 0) (w1 w2 t1 t2 τ α : ℝ)
    (h1 : ∀ W, (pll1 v w1 (t1 + τ) (W + α)).1 = (pll1 v w1 t1 W).1) (h2 : ∀ W, (pll1 v w2 (t2 + τ) (W + α)).1 = (pll1 v w2 t2 W).1) :
    ∃ n : ℤ, (w2 - w1) * τ = n * (2 * Real.pi) := by
  have hn : ‖v‖ ≠ 0 := norm_ne_zero_iff.2 hv
  have key : ∀ w t : ℝ, (∀ W, (pll1 v w (t + τ) (W + α)).1 = (pll1 v w t W).1) → ∃ n : ℤ, w * τ - α = n * (2 * Real.pi) := by
    intro w t h
    have h0 := h (w * t + arg v - Real.pi / 2)
    rw [C53_pll_input, C53_pll_input] at h0
    have e1 : w * (t + τ) + arg v - (w * t + arg v - Real.pi / 2 + α) = w * τ - α + Real.pi / 2 := by ring
    have e2 : w * t + arg v - (w * t + arg v - Real.pi / 2) = Real.pi / 2 := by ring
    simp only [e1, e2, Real.sin_add_pi_div_two, Real.sin_pi_div_two, mul_one] at h0
    have hc : Real.cos (w * τ - α) = 1 := by
      have h0' : ‖v‖ * Real.cos (w * τ - α) = ‖v‖ * 1 := by rw [h0, mul_one]
      exact mul_left_cancel₀ hn h0'
    obtain ⟨n, hn⟩ := (Real.cos_eq_one_iff _).1 hc
    exact ⟨n, hn.symm⟩
  obtain ⟨n1, e1⟩ := key w1 t1 h1
  obtain ⟨n2, e2⟩ := key w2 t2 h2
  refine ⟨n2 - n1, ?_⟩
  push_cast
  linarith

/-- C121, the size of the effect: a PLL locked before a frequency step at time `T` sees, right after it, `|v|·sin((w2-w1)·T)`. -/
theorem C121_frequency_step_jump (v : ℂ) (w1 w2 T W : ℝ) (hlock : W = w1 * T + arg v) :
    (pll1 v w1 T W).1 = 0 ∧ (pll1 v w2 T W).1 = ‖v‖ * Real.sin ((w2 - w1) * T) := by
  rw [C53_pll_input, C53_pll_input, hlock]
  have e1 : w1 * T + arg v - (w1 * T + arg v) = 0 := by ring
  have e2 : w2 * T + arg v - (w1 * T + arg v) = (w2 - w1) * T := by ring
  simp only [e1, e2, Real.sin_zero, mul_zero, and_self]

/-- The same step of 1 Hz is invisible at `T = 1` and a jump of the largest possible size at `T = 1/4`. -/
theorem C121_frequency_step_example (v : ℂ) (w1 : ℝ) :
    (pll1 v (w1 + 2 * Real.pi) 1 (w1 * 1 + arg v)).1 = 0 ∧ (pll1 v (w1 + 2 * Real.pi) (1 / 4) (w1 * (1 / 4) + arg v)).1 = ‖v‖ := by
  rw [(C121_frequency_step_jump v w1 _ 1 _ rfl).2, (C121_frequency_step_jump v w1 _ (1 / 4) _ rfl).2]
  have e1 : (w1 + 2 * Real.pi - w1) * 1 = 2 * Real.pi := by ring
  have e2 : (w1 + 2 * Real.pi - w1) * (1 / 4) = Real.pi / 2 := by ring
  rw [e1, e2, Real.sin_two_pi, Real.sin_pi_div_two]
  simp

/-- All phasors of a single-phase state turned by `ρ`. -/
noncomputable def turned (ρ : ℂ) (y : SinglePhase.V → ℝ) : SinglePhase.V → ℝ
  | .iaR => (ρ * ⟨y .iaR, y .iaI⟩).re
  | .iaI => (ρ * ⟨y .iaR, y .iaI⟩).im
  | .xaR => (ρ * ⟨y .xaR, y .xaI⟩).re
  | .xaI => (ρ * ⟨y .xaR, y .xaI⟩).im
  | .uaR => (ρ * ⟨y .uaR, y .uaI⟩).re
  | .uaI => (ρ * ⟨y .uaR, y .uaI⟩).im
  | r => y r

/-- C121, the reference of angles matters: turn the terminal voltage and all phasors of the state by the same angle (`|ρ| = 1`), below the duty cycle limit.  Powers,
magnitudes and all derivatives turn with them — except that of the current error `u`, which is off by `wp·(1-ρ)·i_ref`: the reference is fixed to angle zero.  So the
grid voltage of the controller design has angle zero; with any other angle the references no longer separate active and reactive power. -/
theorem C121_phase_reference_matters (i : Inp) (y : SinglePhase.V → ℝ) (ρ : ℂ) (hρ : ‖ρ‖ = 1)
    (hm : ‖duty p ⟨y .uaR, y .uaI⟩ ⟨y .xaR, y .xaI⟩‖ ≤ p.m_limit) :
    let e := env1 p i y
    let i' : Inp := { i with va := ρ * i.va }
    let e' := env1 p i' (turned ρ y)
    e'.S = e.S ∧ e'.S_PCC = e.S_PCC ∧ e'.vta = ρ * e.vta ∧ e'.ia_ref = e.ia_ref ∧
    SinglePhase.rhs e' .Vdc = SinglePhase.rhs e .Vdc ∧
    (⟨SinglePhase.rhs e' .xaR, SinglePhase.rhs e' .xaI⟩ : ℂ) = ρ * ⟨SinglePhase.rhs e .xaR, SinglePhase.rhs e .xaI⟩ ∧
    (⟨SinglePhase.rhs e' .uaR, SinglePhase.rhs e' .uaI⟩ : ℂ) =
      ρ * ⟨SinglePhase.rhs e .uaR, SinglePhase.rhs e .uaI⟩ + p.wp * (1 - ρ) * e.ia_ref := by
  intro e i' e'
  have hia : (⟨turned ρ y .iaR, turned ρ y .iaI⟩ : ℂ) = ρ * ⟨y .iaR, y .iaI⟩ := rfl
  have hxa : (⟨turned ρ y .xaR, turned ρ y .xaI⟩ : ℂ) = ρ * ⟨y .xaR, y .xaI⟩ := rfl
  have hua : (⟨turned ρ y .uaR, turned ρ y .uaI⟩ : ℂ) = ρ * ⟨y .uaR, y .uaI⟩ := rfl
  have hr : ρ * (starRingEnd ℂ) ρ = 1 := by
    rw [Complex.mul_conj, Complex.normSq_eq_norm_sq, hρ]; norm_num
  have hduty : duty p (ρ * ⟨y .uaR, y .uaI⟩) (ρ * ⟨y .xaR, y .xaI⟩) = ρ * duty p ⟨y .uaR, y .uaI⟩ ⟨y .xaR, y .xaI⟩ := by unfold duty; ring
  have hvt : e'.vta = ρ * e.vta := by
    show vtOf p ⟨turned ρ y .uaR, turned ρ y .uaI⟩ ⟨turned ρ y .xaR, turned ρ y .xaI⟩ _ = _
    rw [hua, hxa]
    show duty p _ _ * _ = ρ * (duty p _ _ * _)
    rw [hduty, mul_assoc]; rfl
  have hs : ∀ v z : ℂ, sPh (ρ * v) (ρ * z) = sPh v z := by
    intro v z
    unfold sPh
    rw [map_mul]
    linear_combination ((1 / 2 : ℂ) * v * (starRingEnd ℂ) z) * hr
  have hS : e'.S = e.S := by
    show sPh e'.vta ⟨turned ρ y .iaR, turned ρ y .iaI⟩ = _
    rw [hvt, hia, hs]; rfl
  have hSP : e'.S_PCC = e.S_PCC := by
    show sPh (ρ * i.va) ⟨turned ρ y .iaR, turned ρ y .iaI⟩ = _
    rw [hia, hs]; rfl
  have hI : e'.ia_ref = e.ia_ref := by
    show irefOf p i _ _ _ e'.S_PCC = irefOf p i _ _ _ e.S_PCC
    rw [hSP]; rfl
  have hn : ‖ρ * duty p ⟨y .uaR, y .uaI⟩ ⟨y .xaR, y .xaI⟩‖ ≤ p.m_limit := by rw [norm_mul, hρ, one_mul]; exact hm
  have hm1 : ¬ ‖((e.Kp_GCC : ℝ) : ℂ) * e.ua + e.xa‖ > e.m_limit := not_lt.2 hm
  have hm2 : ¬ ‖((e'.Kp_GCC : ℝ) : ℂ) * e'.ua + e'.xa‖ > e'.m_limit := by
    refine not_lt.2 ?_
    show ‖duty p ⟨turned ρ y .uaR, turned ρ y .uaI⟩ ⟨turned ρ y .xaR, turned ρ y .xaI⟩‖ ≤ _
    rw [hua, hxa, hduty]; exact hn
  have eu : e'.ua = ρ * e.ua := hua
  have ei : e'.ia = ρ * e.ia := hia
  have ew : e'.wp = p.wp ∧ e.wp = p.wp ∧ e'.Ki_GCC = e.Ki_GCC := ⟨rfl, rfl, rfl⟩
  refine ⟨hS, hSP, hvt, hI, ?_, ?_, ?_⟩
  · simp only [SinglePhase.rhs, hS]; rfl
  · simp only [SinglePhase.rhs, if_neg hm1, if_neg hm2]
    simp only [eu, ew.2.2]
    apply Complex.ext <;> simp <;> ring
  · simp only [SinglePhase.rhs, if_neg hm1, if_neg hm2]
    simp only [eu, ei, hI, ew.1, ew.2.1]
    apply Complex.ext <;> simp <;> ring

/-- The defect is real: at the reference `1` a quarter turn changes the derivative of `u`. -/
example : (1 : ℝ) * (1 - I) * 1 ≠ (0 : ℂ) := by
  intro h
  have := congrArg Complex.re h
  simp at this

/-- The hypotheses of the first theorems are met by the trajectory of C118's example delayed by one second (any solution will do). -/
theorem C121_example : ∃ (p : Par) (inp : ℝ → Inp) (Y : ℝ → SinglePhaseConstantVdc.V → ℝ) (S : Set ℝ), S = Set.Ici 0 ∧ (∀ t ∈ S, (inp t).w = (inp 0).w) ∧ (∀ t ∈ S, (inp t).t = t) ∧
    (∀ t ∈ S, Solves (fun t y => SinglePhaseConstantVdc.rhs (connIf true (envC1 p (inp t) y))) Y t) ∧ Y 0 ≠ Y 1 :=
  ⟨trPar, dyInp, trY, Set.Ici 0, rfl, fun _ _ => rfl, fun _ _ => rfl, fun t ht => tr_solves t ht, by
    intro h
    have h1 := congrFun h .iaR
    have h0 := C118_example.1
    rw [h0] at h1
    simp [trY] at h1
    have := Real.exp_lt_exp.2 (show (-1 : ℝ) < 0 by norm_num)
    rw [Real.exp_zero] at this
    linarith⟩

end Ode
end PvDer
