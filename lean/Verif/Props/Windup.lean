import Verif.Props.AntiWindup
import Verif.Props.Pll
import Verif.Props.SteadyRotate

/-!
# C111: controller integrators cannot wind up

Along every solution of the model, connected or not: as long as the control errors stay within some bound, every controller state stays within a bound that depends only
on the error bound, the limits and the initial value, however long the error lasts.
-/

namespace PvDer
namespace Ode
open Complex Phasor Set

/-- A solution in the sense needed for switching controllers: continuous, with right derivatives, each of which is the model's derivative or a fraction of it.  Classical
solutions (`Solves`) are of this kind (factor 1), and so are sliding solutions, where a controller rests on its limit because the free derivative pushes it out and the
limited one does not. -/
structure SlidingSolves {V : Type} (F : ℝ → (V → ℝ) → V → ℝ) (Y : ℝ → V → ℝ) (T : ℝ) : Prop where
  cont : ∀ r, ContinuousOn (fun t => Y t r) (Icc 0 T)
  deriv : ∀ r, ∀ t ∈ Ico 0 T, ∃ θ ∈ Icc (0 : ℝ) 1, HasDerivWithinAt (fun s => Y s r) (θ * F t (Y t) r) (Ici t) t

/-- Classical solutions are sliding solutions. -/
theorem SlidingSolves.of_solves {V : Type} {F : ℝ → (V → ℝ) → V → ℝ} {Y : ℝ → V → ℝ} {T : ℝ} (h : ∀ t ∈ Icc 0 T, Solves F Y t) : SlidingSolves F Y T :=
  ⟨fun r t ht => (h t ht r).continuousAt.continuousWithinAt,
    fun r t ht => ⟨1, ⟨zero_le_one, le_rfl⟩, by rw [one_mul]; exact (h t ⟨ht.1, ht.2.le⟩ r).hasDerivWithinAt⟩⟩

/-- One state of a sliding solution. -/
def Moves (x dx : ℝ → ℝ) (T : ℝ) : Prop :=
  ContinuousOn x (Icc 0 T) ∧ ∀ t ∈ Ico 0 T, ∃ θ ∈ Icc (0 : ℝ) 1, HasDerivWithinAt x (θ * dx t) (Ici t) t

/-- A quantity that never moves outwards while it is beyond `B` stays below `B`, or below its initial value. -/
theorem barrier {x dx : ℝ → ℝ} {T B : ℝ} (hmv : Moves x dx T) (hi : ∀ t ∈ Ico 0 T, B < |x t| → dx t * x t ≤ 0) :
    ∀ t ∈ Icc 0 T, |x t| ≤ max |x 0| B := by
  obtain ⟨hcont, hd⟩ := hmv
  intro t ht
  by_contra hlt
  rw [not_le] at hlt
  set M := max |x 0| B with hM
  have hcont' : ContinuousOn (fun s => |x s|) (Icc 0 t) := (hcont.mono (Icc_subset_Icc_right ht.2)).abs
  -- the last time at or below `M`
  set S := {s | s ∈ Icc 0 t ∧ |x s| ≤ M} with hS
  have hSne : (0 : ℝ) ∈ S := ⟨⟨le_rfl, ht.1⟩, le_max_left _ _⟩
  have hSc : IsClosed S := by
    have : S = Icc 0 t ∩ (fun s => |x s|) ⁻¹' Iic M := by ext s; simp [hS]
    rw [this]
    exact hcont'.preimage_isClosed_of_isClosed isClosed_Icc isClosed_Iic
  have hSb : BddAbove S := ⟨t, fun s hs => hs.1.2⟩
  have hmem : sSup S ∈ S := hSc.csSup_mem ⟨0, hSne⟩ hSb
  set a := sSup S with ha
  have hat : a ≤ t := hmem.1.2
  have habove : ∀ s ∈ Ioc a t, M < |x s| := by
    intro s hs
    by_contra hc
    rw [not_lt] at hc
    have : s ≤ a := le_csSup hSb ⟨⟨hmem.1.1.trans hs.1.le, hs.2⟩, hc⟩
    linarith [hs.1]
  -- from any later time on the square does not grow
  have hkey : ∀ b ∈ Ioc a t, x t * x t ≤ x b * x b := by
    intro b hb
    have hb0 : 0 ≤ b := hmem.1.1.trans hb.1.le
    have hch : ∀ s ∈ Ico b t, ∃ d, HasDerivWithinAt (fun s => x s * x s) d (Ici s) s ∧ d ≤ 0 := by
      intro s hs
      have hs' : s ∈ Ico 0 T := ⟨hb0.trans hs.1, lt_of_lt_of_le hs.2 ht.2⟩
      obtain ⟨θ, hθ, h1⟩ := hd s hs'
      refine ⟨_, h1.mul h1, ?_⟩
      have h2 := hi s hs' (lt_of_le_of_lt (le_max_right _ _) (habove s ⟨lt_of_lt_of_le hb.1 hs.1, hs.2.le⟩))
      have : θ * (dx s * x s) ≤ 0 := mul_nonpos_of_nonneg_of_nonpos hθ.1 h2
      linarith
    choose! d hdd hd0 using hch
    have hc2 : ContinuousOn (fun s => x s * x s) (Icc b t) := by
      have := hcont.mono (s := Icc 0 T) (t := Icc b t) (fun s hs => ⟨hb0.trans hs.1, hs.2.trans ht.2⟩)
      exact this.mul this
    have := image_le_of_deriv_right_le_deriv_boundary (f := fun s => x s * x s) (f' := d) (B := fun _ => x b * x b) (B' := fun _ => 0) hc2 hdd le_rfl continuousOn_const
      (fun s _ => hasDerivWithinAt_const _ _ _) hd0 (x := t) ⟨hb.2, le_rfl⟩
    exact this
  have hat' : a < t := lt_of_le_of_ne hat (by intro h; rw [h] at hmem; exact absurd hmem.2 (not_le.2 hlt))
  have h : x t * x t ≤ x a * x a := by
    have hca : ContinuousWithinAt (fun s => x s * x s) (Ioc a t) a := by
      have h1 : ContinuousWithinAt x (Ioc a t) a := (hcont a ⟨hmem.1.1, hat.trans ht.2⟩).mono (fun s hs => ⟨hmem.1.1.trans hs.1.le, hs.2.trans ht.2⟩)
      exact h1.mul h1
    have hne : (nhdsWithin a (Ioc a t)).NeBot := by
      rw [nhdsWithin_Ioc_eq_nhdsGT hat']
      infer_instance
    refine ge_of_tendsto hca ?_
    filter_upwards [self_mem_nhdsWithin] with s hs using hkey s hs
  have h3 : |x t| ≤ |x a| := by
    apply sq_le_sq.1
    simpa [sq] using h
  exact absurd (h3.trans hmem.2) (not_le.2 hlt)

/-- The bound on the states `u` (filtered current error) and `x` (integrator) of the current controller of one phase. -/
def PhaseBounded (p : Par) (E : ℝ) (u0 x0 u x : ℂ) : Prop :=
  |u.re| ≤ max |u0.re| E ∧ |u.im| ≤ max |u0.im| E ∧
  |x.re| ≤ max |x0.re| (p.m_limit + |p.Kp_GCC| * max |u0.re| E) ∧ |x.im| ≤ max |x0.im| (p.m_limit + |p.Kp_GCC| * max |u0.im| E)

/-- One phase. -/
theorem phase_bounded (p : Par) (hw : 0 ≤ p.wp) {T E : ℝ} {uR uI xR xI duR duI dxR dxI rR rI iR iI : ℝ → ℝ}
    (d1 : Moves uR duR T) (d2 : Moves uI duI T) (d3 : Moves xR dxR T) (d4 : Moves xI dxI T)
    (a1 : ∀ t ∈ Icc 0 T, AntiWindup (‖(p.Kp_GCC : ℂ) * ⟨uR t, uI t⟩ + ⟨xR t, xI t⟩‖ > p.m_limit) (uR t) (duR t) (p.wp * (-uR t + rR t - iR t)))
    (a2 : ∀ t ∈ Icc 0 T, AntiWindup (‖(p.Kp_GCC : ℂ) * ⟨uR t, uI t⟩ + ⟨xR t, xI t⟩‖ > p.m_limit) (uI t) (duI t) (p.wp * (-uI t + rI t - iI t)))
    (a3 : ∀ t ∈ Icc 0 T, AntiWindup (‖(p.Kp_GCC : ℂ) * ⟨uR t, uI t⟩ + ⟨xR t, xI t⟩‖ > p.m_limit) (xR t) (dxR t) (p.Ki_GCC * uR t))
    (a4 : ∀ t ∈ Icc 0 T, AntiWindup (‖(p.Kp_GCC : ℂ) * ⟨uR t, uI t⟩ + ⟨xR t, xI t⟩‖ > p.m_limit) (xI t) (dxI t) (p.Ki_GCC * uI t))
    (hE : ∀ t ∈ Icc 0 T, |rR t - iR t| ≤ E ∧ |rI t - iI t| ≤ E) :
    ∀ t ∈ Icc 0 T, PhaseBounded p E ⟨uR 0, uI 0⟩ ⟨xR 0, xI 0⟩ ⟨uR t, uI t⟩ ⟨xR t, xI t⟩ := by
  have filt : ∀ {v r i dv : ℝ} {s : Prop}, AntiWindup s v dv (p.wp * (-v + r - i)) → |r - i| ≤ E → E < |v| → dv * v ≤ 0 := by
    intro v r i dv s a h1 h2
    by_cases hs : s
    · exact a.inward hs
    · rw [a.plain hs]
      have h3 : (r - i) * v ≤ v * v := by
        calc (r - i) * v ≤ |(r - i) * v| := le_abs_self _
          _ = |r - i| * |v| := abs_mul _ _
          _ ≤ |v| * |v| := mul_le_mul_of_nonneg_right (h1.trans h2.le) (abs_nonneg _)
          _ = v * v := abs_mul_abs_self v
      have : p.wp * (-v + r - i) * v = p.wp * ((r - i) * v - v * v) := by ring
      rw [this]
      exact mul_nonpos_of_nonneg_of_nonpos hw (by linarith)
  have b1 := barrier (B := E) d1 (fun t ht h => filt (a1 t (Ico_subset_Icc_self ht)) (hE t (Ico_subset_Icc_self ht)).1 h)
  have b2 := barrier (B := E) d2 (fun t ht h => filt (a2 t (Ico_subset_Icc_self ht)) (hE t (Ico_subset_Icc_self ht)).2 h)
  have b3 := barrier (B := p.m_limit + |p.Kp_GCC| * max |uR 0| E) d3 (fun t ht' h => have ht := Ico_subset_Icc_self ht'; (a3 t ht).inward (by
    refine lt_of_lt_of_le ?_ (abs_re_le_norm _)
    simp only [add_re, mul_re, Complex.ofReal_re, Complex.ofReal_im, zero_mul, sub_zero]
    have h1 : |p.Kp_GCC * uR t| ≤ |p.Kp_GCC| * max |uR 0| E := by rw [abs_mul]; exact mul_le_mul_of_nonneg_left (b1 t ht) (abs_nonneg _)
    have h2 : |xR t| ≤ |p.Kp_GCC * uR t + xR t| + |p.Kp_GCC * uR t| := by
      have := abs_sub (p.Kp_GCC * uR t + xR t) (p.Kp_GCC * uR t)
      simpa using this
    linarith))
  have b4 := barrier (B := p.m_limit + |p.Kp_GCC| * max |uI 0| E) d4 (fun t ht' h => have ht := Ico_subset_Icc_self ht'; (a4 t ht).inward (by
    refine lt_of_lt_of_le ?_ (abs_im_le_norm _)
    simp only [add_im, mul_im, Complex.ofReal_re, Complex.ofReal_im, zero_mul, add_zero]
    have h1 : |p.Kp_GCC * uI t| ≤ |p.Kp_GCC| * max |uI 0| E := by rw [abs_mul]; exact mul_le_mul_of_nonneg_left (b2 t ht) (abs_nonneg _)
    have h2 : |xI t| ≤ |p.Kp_GCC * uI t + xI t| + |p.Kp_GCC * uI t| := by
      have := abs_sub (p.Kp_GCC * uI t + xI t) (p.Kp_GCC * uI t)
      simpa using this
    linarith))
  exact fun t ht => ⟨b1 t ht, b2 t ht, b3 t ht, b4 t ht⟩

/-- The outer loops: `xD` is the integrator of the DC voltage (or active power) controller with gain `K` and error `eD`, `xQ` that of the reactive power controller. -/
theorem outer_bounded {L K KQ T ED EQ : ℝ} {xD xQ dD dQ eD eQ fD fQ : ℝ → ℝ}
    (d1 : Moves xD dD T) (d2 : Moves xQ dQ T)
    (a1 : ∀ t ∈ Icc 0 T, AntiWindup (‖((xD t + K * eD t : ℝ) : ℂ) + I * ((xQ t - KQ * eQ t : ℝ) : ℂ)‖ > L) (xD t) (dD t) (fD t))
    (a2 : ∀ t ∈ Icc 0 T, AntiWindup (‖((xD t + K * eD t : ℝ) : ℂ) + I * ((xQ t - KQ * eQ t : ℝ) : ℂ)‖ > L) (xQ t) (dQ t) (fQ t))
    (hD : ∀ t ∈ Icc 0 T, |eD t| ≤ ED) (hQ : ∀ t ∈ Icc 0 T, |eQ t| ≤ EQ) :
    ∀ t ∈ Icc 0 T, |xD t| ≤ max |xD 0| (L + |K| * ED) ∧ |xQ t| ≤ max |xQ 0| (L + |KQ| * EQ) := by
  have b1 := barrier (B := L + |K| * ED) d1 (fun t ht' h => have ht := Ico_subset_Icc_self ht'; (a1 t ht).inward (by
    refine lt_of_lt_of_le ?_ (abs_re_le_norm _)
    simp only [add_re, mul_re, Complex.ofReal_re, Complex.ofReal_im, I_re, I_im, zero_mul, mul_zero, sub_zero, add_zero]
    have h1 : |K * eD t| ≤ |K| * ED := by rw [abs_mul]; exact mul_le_mul_of_nonneg_left (hD t ht) (abs_nonneg _)
    have h2 : |xD t| ≤ |xD t + K * eD t| + |K * eD t| := by
      have := abs_sub (xD t + K * eD t) (K * eD t)
      simpa using this
    linarith))
  have b2 := barrier (B := L + |KQ| * EQ) d2 (fun t ht' h => have ht := Ico_subset_Icc_self ht'; (a2 t ht).inward (by
    refine lt_of_lt_of_le ?_ (abs_im_le_norm _)
    simp only [add_im, mul_im, Complex.ofReal_re, Complex.ofReal_im, I_re, I_im, zero_mul, one_mul, zero_add]
    have h1 : |KQ * eQ t| ≤ |KQ| * EQ := by rw [abs_mul]; exact mul_le_mul_of_nonneg_left (hQ t ht) (abs_nonneg _)
    have h2 : |xQ t| ≤ |xQ t - KQ * eQ t| + |KQ * eQ t| := by
      have := abs_add_le (xQ t - KQ * eQ t) (KQ * eQ t)
      simpa using this
    linarith))
  exact fun t ht => ⟨b1 t ht, b2 t ht⟩

/-- Attributes that `disc` does not touch, for the controllers. -/
theorem connIf_ctl (c : Bool) (e : Env) : (connIf c e).xDC = e.xDC ∧ (connIf c e).xP = e.xP ∧ (connIf c e).xQ = e.xQ ∧ (connIf c e).Kp_DC = e.Kp_DC ∧
    (connIf c e).Kp_P = e.Kp_P ∧ (connIf c e).Kp_Q = e.Kp_Q ∧ (connIf c e).iref_limit = e.iref_limit ∧ (connIf c e).S_PCC = e.S_PCC ∧ (connIf c e).S = e.S ∧
    (connIf c e).Vdc = e.Vdc := by
  cases c <;> simp [connIf, disc]

/-- Bound on the error of one current controller at an evaluation: reference minus current, both parts. -/
def CurErr (E : ℝ) (ref i : ℂ) : Prop := |ref.re - i.re| ≤ E ∧ |ref.im - i.im| ≤ E

variable (p : Par) (inp : ℝ → Inp) (c : ℝ → Bool)

/-- C111 for the class `SinglePhase`. -/
theorem C111_no_windup_single (hw : 0 ≤ p.wp) (Y : ℝ → SinglePhase.V → ℝ) (T E ED EQ : ℝ)
    (h : SlidingSolves (fun t y => SinglePhase.rhs (connIf (c t) (env1 p (inp t) y))) Y T)
    (hE : ∀ t ∈ Icc 0 T, CurErr E (connIf (c t) (env1 p (inp t) (Y t))).ia_ref (connIf (c t) (env1 p (inp t) (Y t))).ia)
    (hD : ∀ t ∈ Icc 0 T, |(connIf (c t) (env1 p (inp t) (Y t))).Vdc_ref - (connIf (c t) (env1 p (inp t) (Y t))).Vdc| ≤ ED)
    (hQ : ∀ t ∈ Icc 0 T, |(connIf (c t) (env1 p (inp t) (Y t))).Q_ref - (connIf (c t) (env1 p (inp t) (Y t))).S_PCC.im| ≤ EQ) :
    ∀ t ∈ Icc 0 T, PhaseBounded p E ⟨Y 0 .uaR, Y 0 .uaI⟩ ⟨Y 0 .xaR, Y 0 .xaI⟩ ⟨Y t .uaR, Y t .uaI⟩ ⟨Y t .xaR, Y t .xaI⟩ ∧
      |Y t .xDC| ≤ max |Y 0 .xDC| (p.iref_limit + |p.Kp_DC| * ED) ∧
      |Y t .xQ| ≤ max |Y 0 .xQ| (p.iref_limit + |p.Kp_Q| * EQ) := by
  have cs := fun s => connIf_state (c s) (env1 p (inp s) (Y s))
  have ct := fun s => connIf_ctl (c s) (env1 p (inp s) (Y s))
  have ba := phase_bounded p hw (T := T) (E := E) (uR := fun s => Y s .uaR) (uI := fun s => Y s .uaI) (xR := fun s => Y s .xaR) (xI := fun s => Y s .xaI)
    (rR := fun s => (connIf (c s) (env1 p (inp s) (Y s))).ia_ref.re) (rI := fun s => (connIf (c s) (env1 p (inp s) (Y s))).ia_ref.im) (iR := fun s => Y s .iaR) (iI := fun s => Y s .iaI)
    ⟨h.cont .uaR, h.deriv .uaR⟩ ⟨h.cont .uaI, h.deriv .uaI⟩ ⟨h.cont .xaR, h.deriv .xaR⟩ ⟨h.cont .xaI, h.deriv .xaI⟩
    (fun s hs => by have a := (C57_antiwindup_single_phase (connIf (c s) (env1 p (inp s) (Y s)))).2.2.1; simp only [mSat, cs s] at a; exact a)
    (fun s hs => by have a := (C57_antiwindup_single_phase (connIf (c s) (env1 p (inp s) (Y s)))).2.2.2.1; simp only [mSat, cs s] at a; exact a)
    (fun s hs => by have a := (C57_antiwindup_single_phase (connIf (c s) (env1 p (inp s) (Y s)))).1; simp only [mSat, cs s] at a; exact a)
    (fun s hs => by have a := (C57_antiwindup_single_phase (connIf (c s) (env1 p (inp s) (Y s)))).2.1; simp only [mSat, cs s] at a; exact a)
    (fun s hs => by have a := (hE s hs); simp only [CurErr, cs s] at a; exact a)
  have bo := outer_bounded (L := p.iref_limit) (K := p.Kp_DC) (KQ := p.Kp_Q) (T := T) (ED := ED) (EQ := EQ) (xD := fun s => Y s .xDC) (xQ := fun s => Y s .xQ)
    (eD := fun s => (connIf (c s) (env1 p (inp s) (Y s))).Vdc_ref - (connIf (c s) (env1 p (inp s) (Y s))).Vdc) (eQ := fun s => (connIf (c s) (env1 p (inp s) (Y s))).Q_ref - (connIf (c s) (env1 p (inp s) (Y s))).S_PCC.im)
    ⟨h.cont .xDC, h.deriv .xDC⟩ ⟨h.cont .xQ, h.deriv .xQ⟩
    (fun s hs => by have a := (C57_antiwindup_single_phase (connIf (c s) (env1 p (inp s) (Y s)))).2.2.2.2.1; unfold irefD at a; rw [show (connIf (c s) (env1 p (inp s) (Y s))).xDC = Y s .xDC from (ct s).1, show (connIf (c s) (env1 p (inp s) (Y s))).Kp_DC = p.Kp_DC from (ct s).2.2.2.1, show (connIf (c s) (env1 p (inp s) (Y s))).xQ = Y s .xQ from (ct s).2.2.1, show (connIf (c s) (env1 p (inp s) (Y s))).Kp_Q = p.Kp_Q from (ct s).2.2.2.2.2.1, show (connIf (c s) (env1 p (inp s) (Y s))).iref_limit = p.iref_limit from (ct s).2.2.2.2.2.2.1] at a; exact a)
    (fun s hs => by have a := (C57_antiwindup_single_phase (connIf (c s) (env1 p (inp s) (Y s)))).2.2.2.2.2; unfold irefD at a; rw [show (connIf (c s) (env1 p (inp s) (Y s))).xDC = Y s .xDC from (ct s).1, show (connIf (c s) (env1 p (inp s) (Y s))).Kp_DC = p.Kp_DC from (ct s).2.2.2.1, show (connIf (c s) (env1 p (inp s) (Y s))).xQ = Y s .xQ from (ct s).2.2.1, show (connIf (c s) (env1 p (inp s) (Y s))).Kp_Q = p.Kp_Q from (ct s).2.2.2.2.2.1, show (connIf (c s) (env1 p (inp s) (Y s))).iref_limit = p.iref_limit from (ct s).2.2.2.2.2.2.1] at a; exact a)
    hD hQ
  exact fun t ht => ⟨ba t ht, (bo t ht).1, (bo t ht).2⟩

/-- C111 for the class `SinglePhaseConstantVdc`. -/
theorem C111_no_windup_single_constant_vdc (hw : 0 ≤ p.wp) (Y : ℝ → SinglePhaseConstantVdc.V → ℝ) (T E ED EQ : ℝ)
    (h : SlidingSolves (fun t y => SinglePhaseConstantVdc.rhs (connIf (c t) (envC1 p (inp t) y))) Y T)
    (hE : ∀ t ∈ Icc 0 T, CurErr E (connIf (c t) (envC1 p (inp t) (Y t))).ia_ref (connIf (c t) (envC1 p (inp t) (Y t))).ia)
    (hD : ∀ t ∈ Icc 0 T, |(connIf (c t) (envC1 p (inp t) (Y t))).Ppv - (connIf (c t) (envC1 p (inp t) (Y t))).S.re| ≤ ED)
    (hQ : ∀ t ∈ Icc 0 T, |(connIf (c t) (envC1 p (inp t) (Y t))).Q_ref - (connIf (c t) (envC1 p (inp t) (Y t))).S_PCC.im| ≤ EQ) :
    ∀ t ∈ Icc 0 T, PhaseBounded p E ⟨Y 0 .uaR, Y 0 .uaI⟩ ⟨Y 0 .xaR, Y 0 .xaI⟩ ⟨Y t .uaR, Y t .uaI⟩ ⟨Y t .xaR, Y t .xaI⟩ ∧
      |Y t .xP| ≤ max |Y 0 .xP| (p.iref_limit + |p.Kp_P| * ED) ∧
      |Y t .xQ| ≤ max |Y 0 .xQ| (p.iref_limit + |p.Kp_Q| * EQ) := by
  have cs := fun s => connIf_state (c s) (envC1 p (inp s) (Y s))
  have ct := fun s => connIf_ctl (c s) (envC1 p (inp s) (Y s))
  have ba := phase_bounded p hw (T := T) (E := E) (uR := fun s => Y s .uaR) (uI := fun s => Y s .uaI) (xR := fun s => Y s .xaR) (xI := fun s => Y s .xaI)
    (rR := fun s => (connIf (c s) (envC1 p (inp s) (Y s))).ia_ref.re) (rI := fun s => (connIf (c s) (envC1 p (inp s) (Y s))).ia_ref.im) (iR := fun s => Y s .iaR) (iI := fun s => Y s .iaI)
    ⟨h.cont .uaR, h.deriv .uaR⟩ ⟨h.cont .uaI, h.deriv .uaI⟩ ⟨h.cont .xaR, h.deriv .xaR⟩ ⟨h.cont .xaI, h.deriv .xaI⟩
    (fun s hs => by have a := (C57_antiwindup_single_phase_constant_vdc (connIf (c s) (envC1 p (inp s) (Y s)))).2.2.1; simp only [mSat, cs s] at a; exact a)
    (fun s hs => by have a := (C57_antiwindup_single_phase_constant_vdc (connIf (c s) (envC1 p (inp s) (Y s)))).2.2.2.1; simp only [mSat, cs s] at a; exact a)
    (fun s hs => by have a := (C57_antiwindup_single_phase_constant_vdc (connIf (c s) (envC1 p (inp s) (Y s)))).1; simp only [mSat, cs s] at a; exact a)
    (fun s hs => by have a := (C57_antiwindup_single_phase_constant_vdc (connIf (c s) (envC1 p (inp s) (Y s)))).2.1; simp only [mSat, cs s] at a; exact a)
    (fun s hs => by have a := (hE s hs); simp only [CurErr, cs s] at a; exact a)
  have bo := outer_bounded (L := p.iref_limit) (K := p.Kp_P) (KQ := p.Kp_Q) (T := T) (ED := ED) (EQ := EQ) (xD := fun s => Y s .xP) (xQ := fun s => Y s .xQ)
    (eD := fun s => (connIf (c s) (envC1 p (inp s) (Y s))).Ppv - (connIf (c s) (envC1 p (inp s) (Y s))).S.re) (eQ := fun s => (connIf (c s) (envC1 p (inp s) (Y s))).Q_ref - (connIf (c s) (envC1 p (inp s) (Y s))).S_PCC.im)
    ⟨h.cont .xP, h.deriv .xP⟩ ⟨h.cont .xQ, h.deriv .xQ⟩
    (fun s hs => by have a := (C57_antiwindup_single_phase_constant_vdc (connIf (c s) (envC1 p (inp s) (Y s)))).2.2.2.2.1; unfold irefP at a; rw [show (connIf (c s) (envC1 p (inp s) (Y s))).xP = Y s .xP from (ct s).2.1, show (connIf (c s) (envC1 p (inp s) (Y s))).Kp_P = p.Kp_P from (ct s).2.2.2.2.1, show (connIf (c s) (envC1 p (inp s) (Y s))).xQ = Y s .xQ from (ct s).2.2.1, show (connIf (c s) (envC1 p (inp s) (Y s))).Kp_Q = p.Kp_Q from (ct s).2.2.2.2.2.1, show (connIf (c s) (envC1 p (inp s) (Y s))).iref_limit = p.iref_limit from (ct s).2.2.2.2.2.2.1] at a; exact a)
    (fun s hs => by have a := (C57_antiwindup_single_phase_constant_vdc (connIf (c s) (envC1 p (inp s) (Y s)))).2.2.2.2.2; unfold irefP at a; rw [show (connIf (c s) (envC1 p (inp s) (Y s))).xP = Y s .xP from (ct s).2.1, show (connIf (c s) (envC1 p (inp s) (Y s))).Kp_P = p.Kp_P from (ct s).2.2.2.2.1, show (connIf (c s) (envC1 p (inp s) (Y s))).xQ = Y s .xQ from (ct s).2.2.1, show (connIf (c s) (envC1 p (inp s) (Y s))).Kp_Q = p.Kp_Q from (ct s).2.2.2.2.2.1, show (connIf (c s) (envC1 p (inp s) (Y s))).iref_limit = p.iref_limit from (ct s).2.2.2.2.2.2.1] at a; exact a)
    hD hQ
  exact fun t ht => ⟨ba t ht, (bo t ht).1, (bo t ht).2⟩

/-- C111 for the class `ThreePhase`. -/
theorem C111_no_windup_three (hw : 0 ≤ p.wp) (Y : ℝ → ThreePhase.V → ℝ) (T E ED EQ : ℝ)
    (h : SlidingSolves (fun t y => ThreePhase.rhs (connIf (c t) (envT p (inp t) y))) Y T)
    (hE : ∀ t ∈ Icc 0 T, CurErr E (connIf (c t) (envT p (inp t) (Y t))).ia_ref (connIf (c t) (envT p (inp t) (Y t))).ia ∧ CurErr E (connIf (c t) (envT p (inp t) (Y t))).ib_ref (connIf (c t) (envT p (inp t) (Y t))).ib ∧ CurErr E (connIf (c t) (envT p (inp t) (Y t))).ic_ref (connIf (c t) (envT p (inp t) (Y t))).ic)
    (hD : ∀ t ∈ Icc 0 T, |(connIf (c t) (envT p (inp t) (Y t))).Vdc_ref - (connIf (c t) (envT p (inp t) (Y t))).Vdc| ≤ ED)
    (hQ : ∀ t ∈ Icc 0 T, |(connIf (c t) (envT p (inp t) (Y t))).Q_ref - (connIf (c t) (envT p (inp t) (Y t))).S_PCC.im| ≤ EQ) :
    ∀ t ∈ Icc 0 T, PhaseBounded p E ⟨Y 0 .uaR, Y 0 .uaI⟩ ⟨Y 0 .xaR, Y 0 .xaI⟩ ⟨Y t .uaR, Y t .uaI⟩ ⟨Y t .xaR, Y t .xaI⟩ ∧
      PhaseBounded p E ⟨Y 0 .ubR, Y 0 .ubI⟩ ⟨Y 0 .xbR, Y 0 .xbI⟩ ⟨Y t .ubR, Y t .ubI⟩ ⟨Y t .xbR, Y t .xbI⟩ ∧
      PhaseBounded p E ⟨Y 0 .ucR, Y 0 .ucI⟩ ⟨Y 0 .xcR, Y 0 .xcI⟩ ⟨Y t .ucR, Y t .ucI⟩ ⟨Y t .xcR, Y t .xcI⟩ ∧
      |Y t .xDC| ≤ max |Y 0 .xDC| (p.iref_limit + |p.Kp_DC| * ED) ∧
      |Y t .xQ| ≤ max |Y 0 .xQ| (p.iref_limit + |p.Kp_Q| * EQ) := by
  have cs := fun s => connIf_state (c s) (envT p (inp s) (Y s))
  have ct := fun s => connIf_ctl (c s) (envT p (inp s) (Y s))
  have ba := phase_bounded p hw (T := T) (E := E) (uR := fun s => Y s .uaR) (uI := fun s => Y s .uaI) (xR := fun s => Y s .xaR) (xI := fun s => Y s .xaI)
    (rR := fun s => (connIf (c s) (envT p (inp s) (Y s))).ia_ref.re) (rI := fun s => (connIf (c s) (envT p (inp s) (Y s))).ia_ref.im) (iR := fun s => Y s .iaR) (iI := fun s => Y s .iaI)
    ⟨h.cont .uaR, h.deriv .uaR⟩ ⟨h.cont .uaI, h.deriv .uaI⟩ ⟨h.cont .xaR, h.deriv .xaR⟩ ⟨h.cont .xaI, h.deriv .xaI⟩
    (fun s hs => by have a := (C57_antiwindup_three_phase (connIf (c s) (envT p (inp s) (Y s)))).2.2.1; simp only [mSat, cs s] at a; exact a)
    (fun s hs => by have a := (C57_antiwindup_three_phase (connIf (c s) (envT p (inp s) (Y s)))).2.2.2.1; simp only [mSat, cs s] at a; exact a)
    (fun s hs => by have a := (C57_antiwindup_three_phase (connIf (c s) (envT p (inp s) (Y s)))).1; simp only [mSat, cs s] at a; exact a)
    (fun s hs => by have a := (C57_antiwindup_three_phase (connIf (c s) (envT p (inp s) (Y s)))).2.1; simp only [mSat, cs s] at a; exact a)
    (fun s hs => by have a := (hE s hs).1; simp only [CurErr, cs s] at a; exact a)
  have bb := phase_bounded p hw (T := T) (E := E) (uR := fun s => Y s .ubR) (uI := fun s => Y s .ubI) (xR := fun s => Y s .xbR) (xI := fun s => Y s .xbI)
    (rR := fun s => (connIf (c s) (envT p (inp s) (Y s))).ib_ref.re) (rI := fun s => (connIf (c s) (envT p (inp s) (Y s))).ib_ref.im) (iR := fun s => Y s .ibR) (iI := fun s => Y s .ibI)
    ⟨h.cont .ubR, h.deriv .ubR⟩ ⟨h.cont .ubI, h.deriv .ubI⟩ ⟨h.cont .xbR, h.deriv .xbR⟩ ⟨h.cont .xbI, h.deriv .xbI⟩
    (fun s hs => by have a := (C57_antiwindup_three_phase (connIf (c s) (envT p (inp s) (Y s)))).2.2.2.2.2.2.1; simp only [mSat, cs s] at a; exact a)
    (fun s hs => by have a := (C57_antiwindup_three_phase (connIf (c s) (envT p (inp s) (Y s)))).2.2.2.2.2.2.2.1; simp only [mSat, cs s] at a; exact a)
    (fun s hs => by have a := (C57_antiwindup_three_phase (connIf (c s) (envT p (inp s) (Y s)))).2.2.2.2.1; simp only [mSat, cs s] at a; exact a)
    (fun s hs => by have a := (C57_antiwindup_three_phase (connIf (c s) (envT p (inp s) (Y s)))).2.2.2.2.2.1; simp only [mSat, cs s] at a; exact a)
    (fun s hs => by have a := (hE s hs).2.1; simp only [CurErr, cs s] at a; exact a)
  have bc := phase_bounded p hw (T := T) (E := E) (uR := fun s => Y s .ucR) (uI := fun s => Y s .ucI) (xR := fun s => Y s .xcR) (xI := fun s => Y s .xcI)
    (rR := fun s => (connIf (c s) (envT p (inp s) (Y s))).ic_ref.re) (rI := fun s => (connIf (c s) (envT p (inp s) (Y s))).ic_ref.im) (iR := fun s => Y s .icR) (iI := fun s => Y s .icI)
    ⟨h.cont .ucR, h.deriv .ucR⟩ ⟨h.cont .ucI, h.deriv .ucI⟩ ⟨h.cont .xcR, h.deriv .xcR⟩ ⟨h.cont .xcI, h.deriv .xcI⟩
    (fun s hs => by have a := (C57_antiwindup_three_phase (connIf (c s) (envT p (inp s) (Y s)))).2.2.2.2.2.2.2.2.2.2.1; simp only [mSat, cs s] at a; exact a)
    (fun s hs => by have a := (C57_antiwindup_three_phase (connIf (c s) (envT p (inp s) (Y s)))).2.2.2.2.2.2.2.2.2.2.2.1; simp only [mSat, cs s] at a; exact a)
    (fun s hs => by have a := (C57_antiwindup_three_phase (connIf (c s) (envT p (inp s) (Y s)))).2.2.2.2.2.2.2.2.1; simp only [mSat, cs s] at a; exact a)
    (fun s hs => by have a := (C57_antiwindup_three_phase (connIf (c s) (envT p (inp s) (Y s)))).2.2.2.2.2.2.2.2.2.1; simp only [mSat, cs s] at a; exact a)
    (fun s hs => by have a := (hE s hs).2.2; simp only [CurErr, cs s] at a; exact a)
  have bo := outer_bounded (L := p.iref_limit) (K := p.Kp_DC) (KQ := p.Kp_Q) (T := T) (ED := ED) (EQ := EQ) (xD := fun s => Y s .xDC) (xQ := fun s => Y s .xQ)
    (eD := fun s => (connIf (c s) (envT p (inp s) (Y s))).Vdc_ref - (connIf (c s) (envT p (inp s) (Y s))).Vdc) (eQ := fun s => (connIf (c s) (envT p (inp s) (Y s))).Q_ref - (connIf (c s) (envT p (inp s) (Y s))).S_PCC.im)
    ⟨h.cont .xDC, h.deriv .xDC⟩ ⟨h.cont .xQ, h.deriv .xQ⟩
    (fun s hs => by have a := (C57_antiwindup_three_phase (connIf (c s) (envT p (inp s) (Y s)))).2.2.2.2.2.2.2.2.2.2.2.2.1; unfold irefD at a; rw [show (connIf (c s) (envT p (inp s) (Y s))).xDC = Y s .xDC from (ct s).1, show (connIf (c s) (envT p (inp s) (Y s))).Kp_DC = p.Kp_DC from (ct s).2.2.2.1, show (connIf (c s) (envT p (inp s) (Y s))).xQ = Y s .xQ from (ct s).2.2.1, show (connIf (c s) (envT p (inp s) (Y s))).Kp_Q = p.Kp_Q from (ct s).2.2.2.2.2.1, show (connIf (c s) (envT p (inp s) (Y s))).iref_limit = p.iref_limit from (ct s).2.2.2.2.2.2.1] at a; exact a)
    (fun s hs => by have a := (C57_antiwindup_three_phase (connIf (c s) (envT p (inp s) (Y s)))).2.2.2.2.2.2.2.2.2.2.2.2.2; unfold irefD at a; rw [show (connIf (c s) (envT p (inp s) (Y s))).xDC = Y s .xDC from (ct s).1, show (connIf (c s) (envT p (inp s) (Y s))).Kp_DC = p.Kp_DC from (ct s).2.2.2.1, show (connIf (c s) (envT p (inp s) (Y s))).xQ = Y s .xQ from (ct s).2.2.1, show (connIf (c s) (envT p (inp s) (Y s))).Kp_Q = p.Kp_Q from (ct s).2.2.2.2.2.1, show (connIf (c s) (envT p (inp s) (Y s))).iref_limit = p.iref_limit from (ct s).2.2.2.2.2.2.1] at a; exact a)
    hD hQ
  exact fun t ht => ⟨ba t ht, bb t ht, bc t ht, (bo t ht).1, (bo t ht).2⟩

/-- C111 for the class `ThreePhaseNoVrmsFilter`. -/
theorem C111_no_windup_three_no_filter (hw : 0 ≤ p.wp) (Y : ℝ → ThreePhaseNoVrmsFilter.V → ℝ) (T E ED EQ : ℝ)
    (h : SlidingSolves (fun t y => ThreePhaseNoVrmsFilter.rhs (connIf (c t) (envN p (inp t) y))) Y T)
    (hE : ∀ t ∈ Icc 0 T, CurErr E (connIf (c t) (envN p (inp t) (Y t))).ia_ref (connIf (c t) (envN p (inp t) (Y t))).ia ∧ CurErr E (connIf (c t) (envN p (inp t) (Y t))).ib_ref (connIf (c t) (envN p (inp t) (Y t))).ib ∧ CurErr E (connIf (c t) (envN p (inp t) (Y t))).ic_ref (connIf (c t) (envN p (inp t) (Y t))).ic)
    (hD : ∀ t ∈ Icc 0 T, |(connIf (c t) (envN p (inp t) (Y t))).Vdc_ref - (connIf (c t) (envN p (inp t) (Y t))).Vdc| ≤ ED)
    (hQ : ∀ t ∈ Icc 0 T, |(connIf (c t) (envN p (inp t) (Y t))).Q_ref - (connIf (c t) (envN p (inp t) (Y t))).S_PCC.im| ≤ EQ) :
    ∀ t ∈ Icc 0 T, PhaseBounded p E ⟨Y 0 .uaR, Y 0 .uaI⟩ ⟨Y 0 .xaR, Y 0 .xaI⟩ ⟨Y t .uaR, Y t .uaI⟩ ⟨Y t .xaR, Y t .xaI⟩ ∧
      PhaseBounded p E ⟨Y 0 .ubR, Y 0 .ubI⟩ ⟨Y 0 .xbR, Y 0 .xbI⟩ ⟨Y t .ubR, Y t .ubI⟩ ⟨Y t .xbR, Y t .xbI⟩ ∧
      PhaseBounded p E ⟨Y 0 .ucR, Y 0 .ucI⟩ ⟨Y 0 .xcR, Y 0 .xcI⟩ ⟨Y t .ucR, Y t .ucI⟩ ⟨Y t .xcR, Y t .xcI⟩ ∧
      |Y t .xDC| ≤ max |Y 0 .xDC| (p.iref_limit + |p.Kp_DC| * ED) ∧
      |Y t .xQ| ≤ max |Y 0 .xQ| (p.iref_limit + |p.Kp_Q| * EQ) := by
  have cs := fun s => connIf_state (c s) (envN p (inp s) (Y s))
  have ct := fun s => connIf_ctl (c s) (envN p (inp s) (Y s))
  have ba := phase_bounded p hw (T := T) (E := E) (uR := fun s => Y s .uaR) (uI := fun s => Y s .uaI) (xR := fun s => Y s .xaR) (xI := fun s => Y s .xaI)
    (rR := fun s => (connIf (c s) (envN p (inp s) (Y s))).ia_ref.re) (rI := fun s => (connIf (c s) (envN p (inp s) (Y s))).ia_ref.im) (iR := fun s => Y s .iaR) (iI := fun s => Y s .iaI)
    ⟨h.cont .uaR, h.deriv .uaR⟩ ⟨h.cont .uaI, h.deriv .uaI⟩ ⟨h.cont .xaR, h.deriv .xaR⟩ ⟨h.cont .xaI, h.deriv .xaI⟩
    (fun s hs => by have a := (C57_antiwindup_no_filter (connIf (c s) (envN p (inp s) (Y s)))).2.2.1; simp only [mSat, cs s] at a; exact a)
    (fun s hs => by have a := (C57_antiwindup_no_filter (connIf (c s) (envN p (inp s) (Y s)))).2.2.2.1; simp only [mSat, cs s] at a; exact a)
    (fun s hs => by have a := (C57_antiwindup_no_filter (connIf (c s) (envN p (inp s) (Y s)))).1; simp only [mSat, cs s] at a; exact a)
    (fun s hs => by have a := (C57_antiwindup_no_filter (connIf (c s) (envN p (inp s) (Y s)))).2.1; simp only [mSat, cs s] at a; exact a)
    (fun s hs => by have a := (hE s hs).1; simp only [CurErr, cs s] at a; exact a)
  have bb := phase_bounded p hw (T := T) (E := E) (uR := fun s => Y s .ubR) (uI := fun s => Y s .ubI) (xR := fun s => Y s .xbR) (xI := fun s => Y s .xbI)
    (rR := fun s => (connIf (c s) (envN p (inp s) (Y s))).ib_ref.re) (rI := fun s => (connIf (c s) (envN p (inp s) (Y s))).ib_ref.im) (iR := fun s => Y s .ibR) (iI := fun s => Y s .ibI)
    ⟨h.cont .ubR, h.deriv .ubR⟩ ⟨h.cont .ubI, h.deriv .ubI⟩ ⟨h.cont .xbR, h.deriv .xbR⟩ ⟨h.cont .xbI, h.deriv .xbI⟩
    (fun s hs => by have a := (C57_antiwindup_no_filter (connIf (c s) (envN p (inp s) (Y s)))).2.2.2.2.2.2.1; simp only [mSat, cs s] at a; exact a)
    (fun s hs => by have a := (C57_antiwindup_no_filter (connIf (c s) (envN p (inp s) (Y s)))).2.2.2.2.2.2.2.1; simp only [mSat, cs s] at a; exact a)
    (fun s hs => by have a := (C57_antiwindup_no_filter (connIf (c s) (envN p (inp s) (Y s)))).2.2.2.2.1; simp only [mSat, cs s] at a; exact a)
    (fun s hs => by have a := (C57_antiwindup_no_filter (connIf (c s) (envN p (inp s) (Y s)))).2.2.2.2.2.1; simp only [mSat, cs s] at a; exact a)
    (fun s hs => by have a := (hE s hs).2.1; simp only [CurErr, cs s] at a; exact a)
  have bc := phase_bounded p hw (T := T) (E := E) (uR := fun s => Y s .ucR) (uI := fun s => Y s .ucI) (xR := fun s => Y s .xcR) (xI := fun s => Y s .xcI)
    (rR := fun s => (connIf (c s) (envN p (inp s) (Y s))).ic_ref.re) (rI := fun s => (connIf (c s) (envN p (inp s) (Y s))).ic_ref.im) (iR := fun s => Y s .icR) (iI := fun s => Y s .icI)
    ⟨h.cont .ucR, h.deriv .ucR⟩ ⟨h.cont .ucI, h.deriv .ucI⟩ ⟨h.cont .xcR, h.deriv .xcR⟩ ⟨h.cont .xcI, h.deriv .xcI⟩
    (fun s hs => by have a := (C57_antiwindup_no_filter (connIf (c s) (envN p (inp s) (Y s)))).2.2.2.2.2.2.2.2.2.2.1; simp only [mSat, cs s] at a; exact a)
    (fun s hs => by have a := (C57_antiwindup_no_filter (connIf (c s) (envN p (inp s) (Y s)))).2.2.2.2.2.2.2.2.2.2.2.1; simp only [mSat, cs s] at a; exact a)
    (fun s hs => by have a := (C57_antiwindup_no_filter (connIf (c s) (envN p (inp s) (Y s)))).2.2.2.2.2.2.2.2.1; simp only [mSat, cs s] at a; exact a)
    (fun s hs => by have a := (C57_antiwindup_no_filter (connIf (c s) (envN p (inp s) (Y s)))).2.2.2.2.2.2.2.2.2.1; simp only [mSat, cs s] at a; exact a)
    (fun s hs => by have a := (hE s hs).2.2; simp only [CurErr, cs s] at a; exact a)
  have bo := outer_bounded (L := p.iref_limit) (K := p.Kp_DC) (KQ := p.Kp_Q) (T := T) (ED := ED) (EQ := EQ) (xD := fun s => Y s .xDC) (xQ := fun s => Y s .xQ)
    (eD := fun s => (connIf (c s) (envN p (inp s) (Y s))).Vdc_ref - (connIf (c s) (envN p (inp s) (Y s))).Vdc) (eQ := fun s => (connIf (c s) (envN p (inp s) (Y s))).Q_ref - (connIf (c s) (envN p (inp s) (Y s))).S_PCC.im)
    ⟨h.cont .xDC, h.deriv .xDC⟩ ⟨h.cont .xQ, h.deriv .xQ⟩
    (fun s hs => by have a := (C57_antiwindup_no_filter (connIf (c s) (envN p (inp s) (Y s)))).2.2.2.2.2.2.2.2.2.2.2.2.1; unfold irefD at a; rw [show (connIf (c s) (envN p (inp s) (Y s))).xDC = Y s .xDC from (ct s).1, show (connIf (c s) (envN p (inp s) (Y s))).Kp_DC = p.Kp_DC from (ct s).2.2.2.1, show (connIf (c s) (envN p (inp s) (Y s))).xQ = Y s .xQ from (ct s).2.2.1, show (connIf (c s) (envN p (inp s) (Y s))).Kp_Q = p.Kp_Q from (ct s).2.2.2.2.2.1, show (connIf (c s) (envN p (inp s) (Y s))).iref_limit = p.iref_limit from (ct s).2.2.2.2.2.2.1] at a; exact a)
    (fun s hs => by have a := (C57_antiwindup_no_filter (connIf (c s) (envN p (inp s) (Y s)))).2.2.2.2.2.2.2.2.2.2.2.2.2; unfold irefD at a; rw [show (connIf (c s) (envN p (inp s) (Y s))).xDC = Y s .xDC from (ct s).1, show (connIf (c s) (envN p (inp s) (Y s))).Kp_DC = p.Kp_DC from (ct s).2.2.2.1, show (connIf (c s) (envN p (inp s) (Y s))).xQ = Y s .xQ from (ct s).2.2.1, show (connIf (c s) (envN p (inp s) (Y s))).Kp_Q = p.Kp_Q from (ct s).2.2.2.2.2.1, show (connIf (c s) (envN p (inp s) (Y s))).iref_limit = p.iref_limit from (ct s).2.2.2.2.2.2.1] at a; exact a)
    hD hQ
  exact fun t ht => ⟨ba t ht, bb t ht, bc t ht, (bo t ht).1, (bo t ht).2⟩

/-- C111 for the class `ThreePhaseNumba`. -/
theorem C111_no_windup_three_numba (hw : 0 ≤ p.wp) (Y : ℝ → ThreePhaseNumba.V → ℝ) (T E ED EQ : ℝ)
    (h : SlidingSolves (fun t y => ThreePhaseNumba.rhs (connIf (c t) (envNumba p (inp t) y))) Y T)
    (hE : ∀ t ∈ Icc 0 T, CurErr E (connIf (c t) (envNumba p (inp t) (Y t))).ia_ref (connIf (c t) (envNumba p (inp t) (Y t))).ia ∧ CurErr E (connIf (c t) (envNumba p (inp t) (Y t))).ib_ref (connIf (c t) (envNumba p (inp t) (Y t))).ib ∧ CurErr E (connIf (c t) (envNumba p (inp t) (Y t))).ic_ref (connIf (c t) (envNumba p (inp t) (Y t))).ic)
    (hD : ∀ t ∈ Icc 0 T, |(connIf (c t) (envNumba p (inp t) (Y t))).Vdc_ref - (connIf (c t) (envNumba p (inp t) (Y t))).Vdc| ≤ ED)
    (hQ : ∀ t ∈ Icc 0 T, |(connIf (c t) (envNumba p (inp t) (Y t))).Q_ref - (connIf (c t) (envNumba p (inp t) (Y t))).S_PCC.im| ≤ EQ) :
    ∀ t ∈ Icc 0 T, PhaseBounded p E ⟨Y 0 .uaR, Y 0 .uaI⟩ ⟨Y 0 .xaR, Y 0 .xaI⟩ ⟨Y t .uaR, Y t .uaI⟩ ⟨Y t .xaR, Y t .xaI⟩ ∧
      PhaseBounded p E ⟨Y 0 .ubR, Y 0 .ubI⟩ ⟨Y 0 .xbR, Y 0 .xbI⟩ ⟨Y t .ubR, Y t .ubI⟩ ⟨Y t .xbR, Y t .xbI⟩ ∧
      PhaseBounded p E ⟨Y 0 .ucR, Y 0 .ucI⟩ ⟨Y 0 .xcR, Y 0 .xcI⟩ ⟨Y t .ucR, Y t .ucI⟩ ⟨Y t .xcR, Y t .xcI⟩ ∧
      |Y t .xDC| ≤ max |Y 0 .xDC| (p.iref_limit + |p.Kp_DC| * ED) ∧
      |Y t .xQ| ≤ max |Y 0 .xQ| (p.iref_limit + |p.Kp_Q| * EQ) := by
  have cs := fun s => connIf_state (c s) (envNumba p (inp s) (Y s))
  have ct := fun s => connIf_ctl (c s) (envNumba p (inp s) (Y s))
  have ba := phase_bounded p hw (T := T) (E := E) (uR := fun s => Y s .uaR) (uI := fun s => Y s .uaI) (xR := fun s => Y s .xaR) (xI := fun s => Y s .xaI)
    (rR := fun s => (connIf (c s) (envNumba p (inp s) (Y s))).ia_ref.re) (rI := fun s => (connIf (c s) (envNumba p (inp s) (Y s))).ia_ref.im) (iR := fun s => Y s .iaR) (iI := fun s => Y s .iaI)
    ⟨h.cont .uaR, h.deriv .uaR⟩ ⟨h.cont .uaI, h.deriv .uaI⟩ ⟨h.cont .xaR, h.deriv .xaR⟩ ⟨h.cont .xaI, h.deriv .xaI⟩
    (fun s hs => by have a := (C57_antiwindup_numba (connIf (c s) (envNumba p (inp s) (Y s)))).2.2.1; simp only [mSat, cs s] at a; exact a)
    (fun s hs => by have a := (C57_antiwindup_numba (connIf (c s) (envNumba p (inp s) (Y s)))).2.2.2.1; simp only [mSat, cs s] at a; exact a)
    (fun s hs => by have a := (C57_antiwindup_numba (connIf (c s) (envNumba p (inp s) (Y s)))).1; simp only [mSat, cs s] at a; exact a)
    (fun s hs => by have a := (C57_antiwindup_numba (connIf (c s) (envNumba p (inp s) (Y s)))).2.1; simp only [mSat, cs s] at a; exact a)
    (fun s hs => by have a := (hE s hs).1; simp only [CurErr, cs s] at a; exact a)
  have bb := phase_bounded p hw (T := T) (E := E) (uR := fun s => Y s .ubR) (uI := fun s => Y s .ubI) (xR := fun s => Y s .xbR) (xI := fun s => Y s .xbI)
    (rR := fun s => (connIf (c s) (envNumba p (inp s) (Y s))).ib_ref.re) (rI := fun s => (connIf (c s) (envNumba p (inp s) (Y s))).ib_ref.im) (iR := fun s => Y s .ibR) (iI := fun s => Y s .ibI)
    ⟨h.cont .ubR, h.deriv .ubR⟩ ⟨h.cont .ubI, h.deriv .ubI⟩ ⟨h.cont .xbR, h.deriv .xbR⟩ ⟨h.cont .xbI, h.deriv .xbI⟩
    (fun s hs => by have a := (C57_antiwindup_numba (connIf (c s) (envNumba p (inp s) (Y s)))).2.2.2.2.2.2.1; simp only [mSat, cs s] at a; exact a)
    (fun s hs => by have a := (C57_antiwindup_numba (connIf (c s) (envNumba p (inp s) (Y s)))).2.2.2.2.2.2.2.1; simp only [mSat, cs s] at a; exact a)
    (fun s hs => by have a := (C57_antiwindup_numba (connIf (c s) (envNumba p (inp s) (Y s)))).2.2.2.2.1; simp only [mSat, cs s] at a; exact a)
    (fun s hs => by have a := (C57_antiwindup_numba (connIf (c s) (envNumba p (inp s) (Y s)))).2.2.2.2.2.1; simp only [mSat, cs s] at a; exact a)
    (fun s hs => by have a := (hE s hs).2.1; simp only [CurErr, cs s] at a; exact a)
  have bc := phase_bounded p hw (T := T) (E := E) (uR := fun s => Y s .ucR) (uI := fun s => Y s .ucI) (xR := fun s => Y s .xcR) (xI := fun s => Y s .xcI)
    (rR := fun s => (connIf (c s) (envNumba p (inp s) (Y s))).ic_ref.re) (rI := fun s => (connIf (c s) (envNumba p (inp s) (Y s))).ic_ref.im) (iR := fun s => Y s .icR) (iI := fun s => Y s .icI)
    ⟨h.cont .ucR, h.deriv .ucR⟩ ⟨h.cont .ucI, h.deriv .ucI⟩ ⟨h.cont .xcR, h.deriv .xcR⟩ ⟨h.cont .xcI, h.deriv .xcI⟩
    (fun s hs => by have a := (C57_antiwindup_numba (connIf (c s) (envNumba p (inp s) (Y s)))).2.2.2.2.2.2.2.2.2.2.1; simp only [mSat, cs s] at a; exact a)
    (fun s hs => by have a := (C57_antiwindup_numba (connIf (c s) (envNumba p (inp s) (Y s)))).2.2.2.2.2.2.2.2.2.2.2.1; simp only [mSat, cs s] at a; exact a)
    (fun s hs => by have a := (C57_antiwindup_numba (connIf (c s) (envNumba p (inp s) (Y s)))).2.2.2.2.2.2.2.2.1; simp only [mSat, cs s] at a; exact a)
    (fun s hs => by have a := (C57_antiwindup_numba (connIf (c s) (envNumba p (inp s) (Y s)))).2.2.2.2.2.2.2.2.2.1; simp only [mSat, cs s] at a; exact a)
    (fun s hs => by have a := (hE s hs).2.2; simp only [CurErr, cs s] at a; exact a)
  have bo := outer_bounded (L := p.iref_limit) (K := p.Kp_DC) (KQ := p.Kp_Q) (T := T) (ED := ED) (EQ := EQ) (xD := fun s => Y s .xDC) (xQ := fun s => Y s .xQ)
    (eD := fun s => (connIf (c s) (envNumba p (inp s) (Y s))).Vdc_ref - (connIf (c s) (envNumba p (inp s) (Y s))).Vdc) (eQ := fun s => (connIf (c s) (envNumba p (inp s) (Y s))).Q_ref - (connIf (c s) (envNumba p (inp s) (Y s))).S_PCC.im)
    ⟨h.cont .xDC, h.deriv .xDC⟩ ⟨h.cont .xQ, h.deriv .xQ⟩
    (fun s hs => by have a := (C57_antiwindup_numba (connIf (c s) (envNumba p (inp s) (Y s)))).2.2.2.2.2.2.2.2.2.2.2.2.1; unfold irefD at a; rw [show (connIf (c s) (envNumba p (inp s) (Y s))).xDC = Y s .xDC from (ct s).1, show (connIf (c s) (envNumba p (inp s) (Y s))).Kp_DC = p.Kp_DC from (ct s).2.2.2.1, show (connIf (c s) (envNumba p (inp s) (Y s))).xQ = Y s .xQ from (ct s).2.2.1, show (connIf (c s) (envNumba p (inp s) (Y s))).Kp_Q = p.Kp_Q from (ct s).2.2.2.2.2.1, show (connIf (c s) (envNumba p (inp s) (Y s))).iref_limit = p.iref_limit from (ct s).2.2.2.2.2.2.1] at a; exact a)
    (fun s hs => by have a := (C57_antiwindup_numba (connIf (c s) (envNumba p (inp s) (Y s)))).2.2.2.2.2.2.2.2.2.2.2.2.2; unfold irefD at a; rw [show (connIf (c s) (envNumba p (inp s) (Y s))).xDC = Y s .xDC from (ct s).1, show (connIf (c s) (envNumba p (inp s) (Y s))).Kp_DC = p.Kp_DC from (ct s).2.2.2.1, show (connIf (c s) (envNumba p (inp s) (Y s))).xQ = Y s .xQ from (ct s).2.2.1, show (connIf (c s) (envNumba p (inp s) (Y s))).Kp_Q = p.Kp_Q from (ct s).2.2.2.2.2.1, show (connIf (c s) (envNumba p (inp s) (Y s))).iref_limit = p.iref_limit from (ct s).2.2.2.2.2.2.1] at a; exact a)
    hD hQ
  exact fun t ht => ⟨ba t ht, bb t ht, bc t ht, (bo t ht).1, (bo t ht).2⟩

/-- C111 for the class `ThreePhaseBalanced`. -/
theorem C111_no_windup_balanced (hw : 0 ≤ p.wp) (Y : ℝ → ThreePhaseBalanced.V → ℝ) (T E ED EQ : ℝ)
    (h : SlidingSolves (fun t y => ThreePhaseBalanced.rhs (connIf (c t) (envB p (inp t) y))) Y T)
    (hE : ∀ t ∈ Icc 0 T, CurErr E (connIf (c t) (envB p (inp t) (Y t))).ia_ref (connIf (c t) (envB p (inp t) (Y t))).ia)
    (hD : ∀ t ∈ Icc 0 T, |(connIf (c t) (envB p (inp t) (Y t))).Vdc_ref - (connIf (c t) (envB p (inp t) (Y t))).Vdc| ≤ ED)
    (hQ : ∀ t ∈ Icc 0 T, |(connIf (c t) (envB p (inp t) (Y t))).Q_ref - (connIf (c t) (envB p (inp t) (Y t))).S_PCC.im| ≤ EQ) :
    ∀ t ∈ Icc 0 T, PhaseBounded p E ⟨Y 0 .uaR, Y 0 .uaI⟩ ⟨Y 0 .xaR, Y 0 .xaI⟩ ⟨Y t .uaR, Y t .uaI⟩ ⟨Y t .xaR, Y t .xaI⟩ ∧
      |Y t .xDC| ≤ max |Y 0 .xDC| (p.iref_limit + |p.Kp_DC| * ED) ∧
      |Y t .xQ| ≤ max |Y 0 .xQ| (p.iref_limit + |p.Kp_Q| * EQ) := by
  have cs := fun s => connIf_state (c s) (envB p (inp s) (Y s))
  have ct := fun s => connIf_ctl (c s) (envB p (inp s) (Y s))
  have ba := phase_bounded p hw (T := T) (E := E) (uR := fun s => Y s .uaR) (uI := fun s => Y s .uaI) (xR := fun s => Y s .xaR) (xI := fun s => Y s .xaI)
    (rR := fun s => (connIf (c s) (envB p (inp s) (Y s))).ia_ref.re) (rI := fun s => (connIf (c s) (envB p (inp s) (Y s))).ia_ref.im) (iR := fun s => Y s .iaR) (iI := fun s => Y s .iaI)
    ⟨h.cont .uaR, h.deriv .uaR⟩ ⟨h.cont .uaI, h.deriv .uaI⟩ ⟨h.cont .xaR, h.deriv .xaR⟩ ⟨h.cont .xaI, h.deriv .xaI⟩
    (fun s hs => by have a := (C57_antiwindup_balanced (connIf (c s) (envB p (inp s) (Y s)))).2.2.1; simp only [mSat, cs s] at a; exact a)
    (fun s hs => by have a := (C57_antiwindup_balanced (connIf (c s) (envB p (inp s) (Y s)))).2.2.2.1; simp only [mSat, cs s] at a; exact a)
    (fun s hs => by have a := (C57_antiwindup_balanced (connIf (c s) (envB p (inp s) (Y s)))).1; simp only [mSat, cs s] at a; exact a)
    (fun s hs => by have a := (C57_antiwindup_balanced (connIf (c s) (envB p (inp s) (Y s)))).2.1; simp only [mSat, cs s] at a; exact a)
    (fun s hs => by have a := (hE s hs); simp only [CurErr, cs s] at a; exact a)
  have bo := outer_bounded (L := p.iref_limit) (K := p.Kp_DC) (KQ := p.Kp_Q) (T := T) (ED := ED) (EQ := EQ) (xD := fun s => Y s .xDC) (xQ := fun s => Y s .xQ)
    (eD := fun s => (connIf (c s) (envB p (inp s) (Y s))).Vdc_ref - (connIf (c s) (envB p (inp s) (Y s))).Vdc) (eQ := fun s => (connIf (c s) (envB p (inp s) (Y s))).Q_ref - (connIf (c s) (envB p (inp s) (Y s))).S_PCC.im)
    ⟨h.cont .xDC, h.deriv .xDC⟩ ⟨h.cont .xQ, h.deriv .xQ⟩
    (fun s hs => by have a := (C57_antiwindup_balanced (connIf (c s) (envB p (inp s) (Y s)))).2.2.2.2.1; unfold irefD at a; rw [show (connIf (c s) (envB p (inp s) (Y s))).xDC = Y s .xDC from (ct s).1, show (connIf (c s) (envB p (inp s) (Y s))).Kp_DC = p.Kp_DC from (ct s).2.2.2.1, show (connIf (c s) (envB p (inp s) (Y s))).xQ = Y s .xQ from (ct s).2.2.1, show (connIf (c s) (envB p (inp s) (Y s))).Kp_Q = p.Kp_Q from (ct s).2.2.2.2.2.1, show (connIf (c s) (envB p (inp s) (Y s))).iref_limit = p.iref_limit from (ct s).2.2.2.2.2.2.1] at a; exact a)
    (fun s hs => by have a := (C57_antiwindup_balanced (connIf (c s) (envB p (inp s) (Y s)))).2.2.2.2.2; unfold irefD at a; rw [show (connIf (c s) (envB p (inp s) (Y s))).xDC = Y s .xDC from (ct s).1, show (connIf (c s) (envB p (inp s) (Y s))).Kp_DC = p.Kp_DC from (ct s).2.2.2.1, show (connIf (c s) (envB p (inp s) (Y s))).xQ = Y s .xQ from (ct s).2.2.1, show (connIf (c s) (envB p (inp s) (Y s))).Kp_Q = p.Kp_Q from (ct s).2.2.2.2.2.1, show (connIf (c s) (envB p (inp s) (Y s))).iref_limit = p.iref_limit from (ct s).2.2.2.2.2.2.1] at a; exact a)
    hD hQ
  exact fun t ht => ⟨ba t ht, (bo t ht).1, (bo t ht).2⟩

/-- C111 for the class `ThreePhaseConstantVdc`. -/
theorem C111_no_windup_three_constant_vdc (hw : 0 ≤ p.wp) (Y : ℝ → ThreePhaseConstantVdc.V → ℝ) (T E ED EQ : ℝ)
    (h : SlidingSolves (fun t y => ThreePhaseConstantVdc.rhs (connIf (c t) (envC3 p (inp t) y))) Y T)
    (hE : ∀ t ∈ Icc 0 T, CurErr E (connIf (c t) (envC3 p (inp t) (Y t))).ia_ref (connIf (c t) (envC3 p (inp t) (Y t))).ia ∧ CurErr E (connIf (c t) (envC3 p (inp t) (Y t))).ib_ref (connIf (c t) (envC3 p (inp t) (Y t))).ib ∧ CurErr E (connIf (c t) (envC3 p (inp t) (Y t))).ic_ref (connIf (c t) (envC3 p (inp t) (Y t))).ic)
    (hD : ∀ t ∈ Icc 0 T, |(connIf (c t) (envC3 p (inp t) (Y t))).Ppv - (connIf (c t) (envC3 p (inp t) (Y t))).S.re| ≤ ED)
    (hQ : ∀ t ∈ Icc 0 T, |(connIf (c t) (envC3 p (inp t) (Y t))).Q_ref - (connIf (c t) (envC3 p (inp t) (Y t))).S_PCC.im| ≤ EQ) :
    ∀ t ∈ Icc 0 T, PhaseBounded p E ⟨Y 0 .uaR, Y 0 .uaI⟩ ⟨Y 0 .xaR, Y 0 .xaI⟩ ⟨Y t .uaR, Y t .uaI⟩ ⟨Y t .xaR, Y t .xaI⟩ ∧
      PhaseBounded p E ⟨Y 0 .ubR, Y 0 .ubI⟩ ⟨Y 0 .xbR, Y 0 .xbI⟩ ⟨Y t .ubR, Y t .ubI⟩ ⟨Y t .xbR, Y t .xbI⟩ ∧
      PhaseBounded p E ⟨Y 0 .ucR, Y 0 .ucI⟩ ⟨Y 0 .xcR, Y 0 .xcI⟩ ⟨Y t .ucR, Y t .ucI⟩ ⟨Y t .xcR, Y t .xcI⟩ ∧
      |Y t .xP| ≤ max |Y 0 .xP| (p.iref_limit + |p.Kp_P| * ED) ∧
      |Y t .xQ| ≤ max |Y 0 .xQ| (p.iref_limit + |p.Kp_Q| * EQ) := by
  have cs := fun s => connIf_state (c s) (envC3 p (inp s) (Y s))
  have ct := fun s => connIf_ctl (c s) (envC3 p (inp s) (Y s))
  have ba := phase_bounded p hw (T := T) (E := E) (uR := fun s => Y s .uaR) (uI := fun s => Y s .uaI) (xR := fun s => Y s .xaR) (xI := fun s => Y s .xaI)
    (rR := fun s => (connIf (c s) (envC3 p (inp s) (Y s))).ia_ref.re) (rI := fun s => (connIf (c s) (envC3 p (inp s) (Y s))).ia_ref.im) (iR := fun s => Y s .iaR) (iI := fun s => Y s .iaI)
    ⟨h.cont .uaR, h.deriv .uaR⟩ ⟨h.cont .uaI, h.deriv .uaI⟩ ⟨h.cont .xaR, h.deriv .xaR⟩ ⟨h.cont .xaI, h.deriv .xaI⟩
    (fun s hs => by have a := (C57_antiwindup_three_phase_constant_vdc (connIf (c s) (envC3 p (inp s) (Y s)))).2.2.1; simp only [mSat, cs s] at a; exact a)
    (fun s hs => by have a := (C57_antiwindup_three_phase_constant_vdc (connIf (c s) (envC3 p (inp s) (Y s)))).2.2.2.1; simp only [mSat, cs s] at a; exact a)
    (fun s hs => by have a := (C57_antiwindup_three_phase_constant_vdc (connIf (c s) (envC3 p (inp s) (Y s)))).1; simp only [mSat, cs s] at a; exact a)
    (fun s hs => by have a := (C57_antiwindup_three_phase_constant_vdc (connIf (c s) (envC3 p (inp s) (Y s)))).2.1; simp only [mSat, cs s] at a; exact a)
    (fun s hs => by have a := (hE s hs).1; simp only [CurErr, cs s] at a; exact a)
  have bb := phase_bounded p hw (T := T) (E := E) (uR := fun s => Y s .ubR) (uI := fun s => Y s .ubI) (xR := fun s => Y s .xbR) (xI := fun s => Y s .xbI)
    (rR := fun s => (connIf (c s) (envC3 p (inp s) (Y s))).ib_ref.re) (rI := fun s => (connIf (c s) (envC3 p (inp s) (Y s))).ib_ref.im) (iR := fun s => Y s .ibR) (iI := fun s => Y s .ibI)
    ⟨h.cont .ubR, h.deriv .ubR⟩ ⟨h.cont .ubI, h.deriv .ubI⟩ ⟨h.cont .xbR, h.deriv .xbR⟩ ⟨h.cont .xbI, h.deriv .xbI⟩
    (fun s hs => by have a := (C57_antiwindup_three_phase_constant_vdc (connIf (c s) (envC3 p (inp s) (Y s)))).2.2.2.2.2.2.1; simp only [mSat, cs s] at a; exact a)
    (fun s hs => by have a := (C57_antiwindup_three_phase_constant_vdc (connIf (c s) (envC3 p (inp s) (Y s)))).2.2.2.2.2.2.2.1; simp only [mSat, cs s] at a; exact a)
    (fun s hs => by have a := (C57_antiwindup_three_phase_constant_vdc (connIf (c s) (envC3 p (inp s) (Y s)))).2.2.2.2.1; simp only [mSat, cs s] at a; exact a)
    (fun s hs => by have a := (C57_antiwindup_three_phase_constant_vdc (connIf (c s) (envC3 p (inp s) (Y s)))).2.2.2.2.2.1; simp only [mSat, cs s] at a; exact a)
    (fun s hs => by have a := (hE s hs).2.1; simp only [CurErr, cs s] at a; exact a)
  have bc := phase_bounded p hw (T := T) (E := E) (uR := fun s => Y s .ucR) (uI := fun s => Y s .ucI) (xR := fun s => Y s .xcR) (xI := fun s => Y s .xcI)
    (rR := fun s => (connIf (c s) (envC3 p (inp s) (Y s))).ic_ref.re) (rI := fun s => (connIf (c s) (envC3 p (inp s) (Y s))).ic_ref.im) (iR := fun s => Y s .icR) (iI := fun s => Y s .icI)
    ⟨h.cont .ucR, h.deriv .ucR⟩ ⟨h.cont .ucI, h.deriv .ucI⟩ ⟨h.cont .xcR, h.deriv .xcR⟩ ⟨h.cont .xcI, h.deriv .xcI⟩
    (fun s hs => by have a := (C57_antiwindup_three_phase_constant_vdc (connIf (c s) (envC3 p (inp s) (Y s)))).2.2.2.2.2.2.2.2.2.2.1; simp only [mSat, cs s] at a; exact a)
    (fun s hs => by have a := (C57_antiwindup_three_phase_constant_vdc (connIf (c s) (envC3 p (inp s) (Y s)))).2.2.2.2.2.2.2.2.2.2.2.1; simp only [mSat, cs s] at a; exact a)
    (fun s hs => by have a := (C57_antiwindup_three_phase_constant_vdc (connIf (c s) (envC3 p (inp s) (Y s)))).2.2.2.2.2.2.2.2.1; simp only [mSat, cs s] at a; exact a)
    (fun s hs => by have a := (C57_antiwindup_three_phase_constant_vdc (connIf (c s) (envC3 p (inp s) (Y s)))).2.2.2.2.2.2.2.2.2.1; simp only [mSat, cs s] at a; exact a)
    (fun s hs => by have a := (hE s hs).2.2; simp only [CurErr, cs s] at a; exact a)
  have bo := outer_bounded (L := p.iref_limit) (K := p.Kp_P) (KQ := p.Kp_Q) (T := T) (ED := ED) (EQ := EQ) (xD := fun s => Y s .xP) (xQ := fun s => Y s .xQ)
    (eD := fun s => (connIf (c s) (envC3 p (inp s) (Y s))).Ppv - (connIf (c s) (envC3 p (inp s) (Y s))).S.re) (eQ := fun s => (connIf (c s) (envC3 p (inp s) (Y s))).Q_ref - (connIf (c s) (envC3 p (inp s) (Y s))).S_PCC.im)
    ⟨h.cont .xP, h.deriv .xP⟩ ⟨h.cont .xQ, h.deriv .xQ⟩
    (fun s hs => by have a := (C57_antiwindup_three_phase_constant_vdc (connIf (c s) (envC3 p (inp s) (Y s)))).2.2.2.2.2.2.2.2.2.2.2.2.1; unfold irefP at a; rw [show (connIf (c s) (envC3 p (inp s) (Y s))).xP = Y s .xP from (ct s).2.1, show (connIf (c s) (envC3 p (inp s) (Y s))).Kp_P = p.Kp_P from (ct s).2.2.2.2.1, show (connIf (c s) (envC3 p (inp s) (Y s))).xQ = Y s .xQ from (ct s).2.2.1, show (connIf (c s) (envC3 p (inp s) (Y s))).Kp_Q = p.Kp_Q from (ct s).2.2.2.2.2.1, show (connIf (c s) (envC3 p (inp s) (Y s))).iref_limit = p.iref_limit from (ct s).2.2.2.2.2.2.1] at a; exact a)
    (fun s hs => by have a := (C57_antiwindup_three_phase_constant_vdc (connIf (c s) (envC3 p (inp s) (Y s)))).2.2.2.2.2.2.2.2.2.2.2.2.2; unfold irefP at a; rw [show (connIf (c s) (envC3 p (inp s) (Y s))).xP = Y s .xP from (ct s).2.1, show (connIf (c s) (envC3 p (inp s) (Y s))).Kp_P = p.Kp_P from (ct s).2.2.2.2.1, show (connIf (c s) (envC3 p (inp s) (Y s))).xQ = Y s .xQ from (ct s).2.2.1, show (connIf (c s) (envC3 p (inp s) (Y s))).Kp_Q = p.Kp_Q from (ct s).2.2.2.2.2.1, show (connIf (c s) (envC3 p (inp s) (Y s))).iref_limit = p.iref_limit from (ct s).2.2.2.2.2.2.1] at a; exact a)
    hD hQ
  exact fun t ht => ⟨ba t ht, bb t ht, bc t ht, (bo t ht).1, (bo t ht).2⟩

/-- A controller that would wind up: constant controller input `u = 1`, integrator gain 1, no proportional gain, modulation limit 1. -/
noncomputable def windPar : Par := { exPar with Ki_GCC := 1, Kp_GCC := 0, wp := 0, m_limit := 1 }

/-- The grid voltage follows the inverter's own voltage, so that no current flows. -/
noncomputable def windInp (t : ℝ) : Inp := { exInp with va := ((min t 1 / 2 : ℝ) : ℂ), w := 2 * Real.pi * 60, t := t }

/-- The integrator ramps to the limit and rests there. -/
noncomputable def windY (t : ℝ) : SinglePhase.V → ℝ
  | .xaR => min t 1 | .uaR => 1 | .Vdc => 1 | .wte => 2 * Real.pi * 60 * t | _ => 0

theorem windVd (t : ℝ) (ht : 0 ≤ t) : (pll1 (((min t 1 / 2 : ℝ) : ℂ)) (2 * Real.pi * 60) t (2 * Real.pi * 60 * t)).1 = 0 := by
  rw [C53_pll_input]
  have h : 0 ≤ min t 1 / 2 := by have := le_min ht zero_le_one; linarith
  rw [Complex.arg_ofReal_of_nonneg h]
  simp

theorem wind_iv (t : ℝ) : sPh (((min t 1 / 2 : ℝ) : ℂ)) ⟨0, 0⟩ = 0 := by
  have h0 : (⟨0, 0⟩ : ℂ) = 0 := rfl
  rw [h0]; simp [sPh]

/-- C111: a controller with a constant error for ever: a sliding solution of the disconnected single-phase model in which the integrator stops exactly at the bound. -/
theorem C111_example (T : ℝ) : SlidingSolves (fun t y => SinglePhase.rhs (connIf false (env1 windPar (windInp t) y))) windY T ∧
    (∀ t, 1 ≤ t → windY t .xaR = max |windY 0 .xaR| (windPar.m_limit + |windPar.Kp_GCC| * max |windY 0 .uaR| 0)) := by
  have hvt : ∀ t, vtOf windPar ⟨1, 0⟩ ⟨min t 1, 0⟩ 1 = ((min t 1 / 2 : ℝ) : ℂ) := by
    intro t
    unfold vtOf duty
    apply Complex.ext <;> simp [windPar] <;> ring
  have hunsat : ∀ t, 0 ≤ t → ¬ (‖((windPar.Kp_GCC : ℝ) : ℂ) * (⟨1, 0⟩ : ℂ) + (⟨min t 1, 0⟩ : ℂ)‖ > windPar.m_limit) := by
    intro t ht
    rw [not_lt]
    have : ((windPar.Kp_GCC : ℝ) : ℂ) * (⟨1, 0⟩ : ℂ) + (⟨min t 1, 0⟩ : ℂ) = ((min t 1 : ℝ) : ℂ) := by apply Complex.ext <;> simp [windPar]
    rw [this, Complex.norm_real, Real.norm_eq_abs, abs_of_nonneg (le_min ht zero_le_one)]
    exact min_le_right _ _
  refine ⟨⟨fun r => ?_, fun r t ht => ?_⟩, fun t ht => ?_⟩
  · cases r <;> simp only [windY] <;> fun_prop
  · have hvd := windVd t ht.1
    have hS := wind_iv t
    have hv := hvt t
    have hu := hunsat t ht.1
    cases r
    case xaR =>
      have e : SinglePhase.rhs (connIf false (env1 windPar (windInp t) (windY t))) .xaR = 1 := by
        simp only [SinglePhase.rhs, connIf, disc, env1, windY, Env.base]
        refine (if_neg hu).trans ?_
        norm_num [windPar]
      rcases lt_or_ge t 1 with h1 | h1
      · refine ⟨1, ⟨zero_le_one, le_rfl⟩, ?_⟩
        beta_reduce
        rw [e, mul_one]
        have : HasDerivAt (fun s : ℝ => s) 1 t := hasDerivAt_id' t
        refine (this.congr_of_eventuallyEq ?_).hasDerivWithinAt
        filter_upwards [gt_mem_nhds h1] with s hs
        simp [windY, min_eq_left hs.le]
      · refine ⟨0, ⟨le_rfl, zero_le_one⟩, ?_⟩
        beta_reduce
        rw [e, zero_mul]
        refine (hasDerivWithinAt_const t (Ici t) (1 : ℝ)).congr (fun s hs => ?_) ?_
        · simp [windY, min_eq_right (h1.trans hs)]
        · simp [windY, min_eq_right h1]
    case wte =>
      refine ⟨1, ⟨zero_le_one, le_rfl⟩, ?_⟩
      have e : SinglePhase.rhs (connIf false (env1 windPar (windInp t) (windY t))) .wte = 2 * Real.pi * 60 := by
        simp only [SinglePhase.rhs, connIf, disc, env1, windY, windInp, hvd]
        simp [weCalc]
      beta_reduce
      rw [e, one_mul]
      have := ((hasDerivAt_id' t).const_mul (2 * Real.pi * 60)).hasDerivWithinAt (s := Ici t)
      simpa [windY] using this
    all_goals
      refine ⟨1, ⟨zero_le_one, le_rfl⟩, ?_⟩
      have e0 : (fun s => windY s) = windY := rfl
      simp only [windY]
      refine (hasDerivWithinAt_const t (Ici t) _).congr_deriv ?_
      symm
      rw [one_mul]
      simp only [SinglePhase.rhs, connIf, disc, env1, windY, windInp, hvd, hv, hS, Env.base]
      simp [windPar]
  · simp [windY, windPar, min_eq_right ht]

end Ode
end PvDer
