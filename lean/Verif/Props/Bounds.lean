import Verif.Props.Windup
import Verif.Props.EnergyMore
import Mathlib.Algebra.BigOperators.Fin
import Mathlib.Tactic.GCongr

set_option linter.unusedSimpArgs false

/-!
# C149: currents and DC voltage during any disturbance; C150: the open-circuit voltage

C149: whatever the controllers, limiters, references and connection commands do, the energy stored in DC link and filters grows at most at the rate at which the sun
and the grid can deliver it, and a phase current is at most its decaying initial value plus what the voltage across the filter drives through its resistance.

C150: the DC voltage of an inverter that does not draw power from the grid stays at or below the open-circuit voltage of the panel, provided the open-circuit voltage
is within the MPP range of the configuration.  Where it is not (the shipped 10 kVA and 50 kVA modules) the panel keeps feeding at every DC voltage, however high.
-/

namespace PvDer
namespace Ode
open Complex Phasor Set

/-- One state that follows its equation: continuous, with right derivative `dx`. -/
def Runs (x dx : ℝ → ℝ) (T : ℝ) : Prop :=
  ContinuousOn x (Icc 0 T) ∧ ∀ t ∈ Ico 0 T, HasDerivWithinAt x (dx t) (Ici t) t

/-- The states in `rows` follow the model; nothing is asked of the others, so that controllers may switch, slide, saturate or be reset in any way. -/
def Follows {V : Type} (F : ℝ → (V → ℝ) → V → ℝ) (Y : ℝ → V → ℝ) (T : ℝ) (rows : List V) : Prop :=
  ∀ r ∈ rows, Runs (fun t => Y t r) (fun t => F t (Y t) r) T

/-- Classical solutions do. -/
theorem Follows.of_solves {V : Type} {F : ℝ → (V → ℝ) → V → ℝ} {Y : ℝ → V → ℝ} {T : ℝ} (h : ∀ t ∈ Icc 0 T, Solves F Y t) (rows : List V) : Follows F Y T rows :=
  fun r _ => ⟨fun t ht => (h t ht r).continuousAt.continuousWithinAt, fun t ht => (h t ⟨ht.1, ht.2.le⟩ r).hasDerivWithinAt⟩

theorem Runs.growth {x dx : ℝ → ℝ} {T K : ℝ} (h : Runs x dx T) (hK : ∀ t ∈ Ico 0 T, dx t ≤ K) : ∀ t ∈ Icc 0 T, x t ≤ x 0 + K * t := by
  intro t ht
  have := image_le_of_deriv_right_le_deriv_boundary (f := x) (f' := dx) (B := fun s => x 0 + K * s) (B' := fun _ => K) (a := 0) (b := T) h.1 h.2 (by simp)
    (by fun_prop) (fun s _ => by simpa using (((hasDerivWithinAt_id s (Ici s)).const_mul K).const_add (x 0))) hK (x := t) ht
  exact this

theorem Runs.sq {x dx : ℝ → ℝ} {T : ℝ} (h : Runs x dx T) : Runs (fun t => x t ^ 2) (fun t => 2 * x t * dx t) T :=
  ⟨h.1.pow 2, fun t ht => ((h.2 t ht).pow 2).congr_deriv (by norm_num)⟩

theorem Runs.add {x dx y dy : ℝ → ℝ} {T : ℝ} (h : Runs x dx T) (k : Runs y dy T) : Runs (fun t => x t + y t) (fun t => dx t + dy t) T :=
  ⟨h.1.add k.1, fun t ht => (h.2 t ht).add (k.2 t ht)⟩

theorem Runs.smul {x dx : ℝ → ℝ} {T : ℝ} (c : ℝ) (h : Runs x dx T) : Runs (fun t => c * x t) (fun t => c * dx t) T :=
  ⟨h.1.const_mul c, fun t ht => (h.2 t ht).const_mul c⟩

theorem Runs.sum {ι : Type} [Fintype ι] {x dx : ι → ℝ → ℝ} {T : ℝ} (h : ∀ k, Runs (x k) (dx k) T) : Runs (fun t => ∑ k, x k t) (fun t => ∑ k, dx k t) T :=
  ⟨continuousOn_finsetSum _ fun k _ => (h k).1, fun t ht => HasDerivWithinAt.fun_sum fun k _ => (h k).2 t ht⟩

theorem Runs.congr {x dx dx' : ℝ → ℝ} {T : ℝ} (h : Runs x dx T) (e : ∀ t ∈ Ico 0 T, dx t = dx' t) : Runs x dx' T :=
  ⟨h.1, fun t ht => (h.2 t ht).congr_deriv (e t ht)⟩

/-- What a phase can draw from a grid of voltage at most `Vm` after its own losses. -/
theorem draw_le {Rf Vm : ℝ} (hR : 0 < Rf) {v i : ℂ} (hv : ‖v‖ ≤ Vm) : -(sPh v i).re - Rf / 2 * (i.re ^ 2 + i.im ^ 2) ≤ Vm ^ 2 / (8 * Rf) := by
  rw [sPh_re]
  have h1 : v.re ^ 2 + v.im ^ 2 ≤ Vm ^ 2 := by
    have : ‖v‖ ^ 2 ≤ Vm ^ 2 := by gcongr
    rw [← Complex.normSq_eq_norm_sq, Complex.normSq_apply] at this; nlinarith
  rw [le_div_iff₀ (by positivity)]
  nlinarith [sq_nonneg (2 * Rf * i.re + v.re), sq_nonneg (2 * Rf * i.im + v.im)]

/-- The stored energy: capacitor and filters. -/
theorem stored {ι : Type} [Fintype ι] {g Lf Rf C Vm P T : ℝ} (hg : 0 ≤ g) (hL : Lf ≠ 0) (hR : 0 < Rf) {x y dx dy : ι → ℝ → ℝ} {V dV W Pv : ℝ → ℝ} {v vt : ι → ℝ → ℂ}
    (hx : ∀ k, Runs (x k) (dx k) T) (hy : ∀ k, Runs (y k) (dy k) T) (hV : Runs V dV T)
    (ex : ∀ k, ∀ t ∈ Ico 0 T, dx k t = 1 / Lf * (-Rf * x k t - (v k t).re + (vt k t).re) + W t * y k t)
    (ey : ∀ k, ∀ t ∈ Ico 0 T, dy k t = 1 / Lf * (-Rf * y k t - (v k t).im + (vt k t).im) - W t * x k t)
    (eV : ∀ t ∈ Ico 0 T, C * V t * dV t = Pv t - g * ∑ k, (sPh (vt k t) ⟨x k t, y k t⟩).re)
    (hP : ∀ t ∈ Ico 0 T, Pv t ≤ P) (hv : ∀ k, ∀ t ∈ Ico 0 T, ‖v k t‖ ≤ Vm) :
    ∀ t ∈ Icc 0 T, C / 2 * V t ^ 2 + g * ∑ k, Lf / 4 * (x k t ^ 2 + y k t ^ 2) ≤
      C / 2 * V 0 ^ 2 + g * ∑ k, Lf / 4 * (x k 0 ^ 2 + y k 0 ^ 2) + (P + g * (Fintype.card ι * (Vm ^ 2 / (8 * Rf)))) * t := by
  have hE := (hV.sq.smul (C / 2)).add ((Runs.sum fun k => (((hx k).sq.add (hy k).sq).smul (Lf / 4))).smul g)
  refine hE.growth fun t ht => ?_
  have e1 : C / 2 * (2 * V t * dV t) = Pv t - g * ∑ k, (sPh (vt k t) ⟨x k t, y k t⟩).re := by rw [← eV t ht]; ring
  rw [e1]
  have e2 : ∀ k, Lf / 4 * (2 * x k t * dx k t + 2 * y k t * dy k t) = (sPh (vt k t) ⟨x k t, y k t⟩).re + (-(sPh (v k t) ⟨x k t, y k t⟩).re - Rf / 2 * (x k t ^ 2 + y k t ^ 2)) := by
    intro k
    rw [ex k t ht, ey k t ht, sPh_re, sPh_re]
    field_simp
    ring
  rw [Finset.sum_congr rfl (fun k _ => e2 k), Finset.sum_add_distrib, mul_add]
  have e3 : ∑ k, (-(sPh (v k t) ⟨x k t, y k t⟩).re - Rf / 2 * (x k t ^ 2 + y k t ^ 2)) ≤ Fintype.card ι * (Vm ^ 2 / (8 * Rf)) := by
    refine (Finset.sum_le_sum fun k _ => draw_le hR (hv k t ht) (i := ⟨x k t, y k t⟩)).trans ?_
    simp
  have := mul_le_mul_of_nonneg_left e3 hg
  have := hP t ht
  linarith

/-- A driven phase: its current is at most the decaying initial one plus what the voltages drive through the resistance. -/
theorem driven {Lf Rf F T : ℝ} (hL : 0 < Lf) (hR : 0 < Rf) {x y dx dy W : ℝ → ℝ} {v vt : ℝ → ℂ} (hx : Runs x dx T) (hy : Runs y dy T)
    (ex : ∀ t ∈ Ico 0 T, dx t = 1 / Lf * (-Rf * x t - (v t).re + (vt t).re) + W t * y t)
    (ey : ∀ t ∈ Ico 0 T, dy t = 1 / Lf * (-Rf * y t - (v t).im + (vt t).im) - W t * x t)
    (hF : ∀ t ∈ Ico 0 T, ‖vt t - v t‖ ≤ F) :
    ∀ t ∈ Icc 0 T, ‖(⟨x t, y t⟩ : ℂ)‖ ≤ ‖(⟨x 0, y 0⟩ : ℂ)‖ * Real.exp (-(Rf / Lf) * t) + F / Rf * (1 - Real.exp (-(Rf / Lf) * t)) := by
  intro t ht
  have hT : 0 ≤ T := ht.1.trans ht.2
  set a := Rf / Lf with ha
  have ha0 : 0 < a := by positivity
  have nrm : ∀ s, ‖(⟨x s, y s⟩ : ℂ)‖ = Real.sqrt (x s ^ 2 + y s ^ 2) := by
    intro s; rw [Complex.norm_def, Complex.normSq_apply]; congr 1; ring
  refine le_of_forall_pos_le_add fun δ hδ => ?_
  -- the smoothed norm
  obtain ⟨ε, hε, hεδ⟩ : ∃ ε > 0, 2 * ε ≤ δ := ⟨δ / 2, by positivity, by linarith⟩
  set g : ℝ → ℝ := fun s => Real.sqrt (x s ^ 2 + y s ^ 2 + ε ^ 2) with hgd
  have hpos : ∀ s, 0 < x s ^ 2 + y s ^ 2 + ε ^ 2 := fun s => by positivity
  have gpos : ∀ s, 0 < g s := fun s => Real.sqrt_pos.2 (hpos s)
  have gsq : ∀ s, g s ^ 2 = x s ^ 2 + y s ^ 2 + ε ^ 2 := fun s => Real.sq_sqrt (hpos s).le
  have gε : ∀ s, ε ≤ g s := fun s => by
    apply Real.le_sqrt_of_sq_le; nlinarith [sq_nonneg (x s), sq_nonneg (y s)]
  have hq := hx.sq.add hy.sq
  set c := F / Rf + ε with hc
  have hh : Runs (fun s => (g s - c) * Real.exp (a * s)) (fun s => ((2 * x s * dx s + 2 * y s * dy s) / (2 * g s)) * Real.exp (a * s) + (g s - c) * (Real.exp (a * s) * a)) T := by
    constructor
    · refine ContinuousOn.mul (ContinuousOn.sub ?_ continuousOn_const) (by fun_prop)
      exact (hq.1.add continuousOn_const).sqrt
    · intro s hs
      have h1 : HasDerivWithinAt g ((2 * x s * dx s + 2 * y s * dy s) / (2 * g s)) (Ici s) s :=
        ((hq.2 s hs).add_const (ε ^ 2)).sqrt (hpos s).ne'
      have h2 : HasDerivWithinAt (fun s => Real.exp (a * s)) (Real.exp (a * s) * a) (Ici s) s := by
        simpa using (((hasDerivWithinAt_id s (Ici s)).const_mul a).exp)
      exact (h1.sub_const c).mul h2
  have hle := hh.growth (K := 0) (fun s hs => by
    have e0 : 0 < Real.exp (a * s) := Real.exp_pos _
    have key : (2 * x s * dx s + 2 * y s * dy s) / (2 * g s) ≤ -a * (g s - c) := by
      rw [div_le_iff₀ (by linarith [gpos s])]
      have e1 : 2 * x s * dx s + 2 * y s * dy s = 2 / Lf * (-Rf * (x s ^ 2 + y s ^ 2) + (x s * (vt s - v s).re + y s * (vt s - v s).im)) := by
        rw [ex s hs, ey s hs]; simp only [sub_re, sub_im]; ring
      have e2 : x s * (vt s - v s).re + y s * (vt s - v s).im ≤ g s * F := by
        have hF' := hF s hs
        have h0 : x s * (vt s - v s).re + y s * (vt s - v s).im ≤ ‖(⟨x s, y s⟩ : ℂ)‖ * ‖vt s - v s‖ := by
          have := Complex.abs_re_le_norm ((starRingEnd ℂ) (⟨x s, y s⟩ : ℂ) * (vt s - v s))
          rw [norm_mul, Complex.norm_conj] at this
          refine le_trans (le_trans (le_of_eq ?_) (le_abs_self _)) this
          simp [mul_re]
        refine h0.trans (mul_le_mul ?_ hF' (norm_nonneg _) (gpos s).le)
        rw [nrm]; exact Real.sqrt_le_sqrt (by nlinarith [sq_nonneg ε])
      have e3 : x s ^ 2 + y s ^ 2 = g s ^ 2 - ε ^ 2 := by rw [gsq]; ring
      rw [e1, e3]
      have e4 : -a * (g s - c) * (2 * g s) = 2 / Lf * (-Rf * g s ^ 2 + g s * F + Rf * (ε * g s)) := by
        rw [ha, hc]; field_simp; ring
      rw [e4]
      have : ε ^ 2 ≤ ε * g s := by nlinarith [gε s]
      apply mul_le_mul_of_nonneg_left _ (by positivity)
      nlinarith
    nlinarith [mul_le_mul_of_nonneg_right key e0.le]) t ht
  simp only [mul_zero, zero_mul, Real.exp_zero, mul_one, add_zero] at hle
  have e1 : Real.exp (a * t) * Real.exp (-a * t) = 1 := by rw [← Real.exp_add]; simp
  have p1 := Real.exp_pos (-a * t)
  have p2 : Real.exp (-a * t) ≤ 1 := Real.exp_le_one_iff.2 (by nlinarith [ht.1])
  have hle2 : g t - c ≤ (g 0 - c) * Real.exp (-a * t) := by
    have := mul_le_mul_of_nonneg_right hle p1.le
    rw [mul_assoc, e1, mul_one] at this
    exact this
  have n1 : ‖(⟨x t, y t⟩ : ℂ)‖ ≤ g t := by rw [nrm]; exact Real.sqrt_le_sqrt (by nlinarith [sq_nonneg ε])
  have n2 : g 0 ≤ ‖(⟨x 0, y 0⟩ : ℂ)‖ + ε := by
    apply Real.sqrt_le_iff.2 ⟨by positivity, ?_⟩
    have := norm_nonneg (⟨x 0, y 0⟩ : ℂ)
    have e : ‖(⟨x 0, y 0⟩ : ℂ)‖ ^ 2 = x 0 ^ 2 + y 0 ^ 2 := by rw [nrm, Real.sq_sqrt (by positivity)]
    nlinarith
  have n3 : (g 0 - c) * Real.exp (-a * t) ≤ (‖(⟨x 0, y 0⟩ : ℂ)‖ + ε - c) * Real.exp (-a * t) := mul_le_mul_of_nonneg_right (by linarith) p1.le
  have hc' : c = F / Rf + ε := hc
  nlinarith [mul_le_mul_of_nonneg_left p2 hε.le]

/-- Energy in the DC link capacitor and in the filter inductors that carry the currents `is` (peak values). -/
noncomputable def storedEnergy (p : Par) (V : ℝ) (is : List ℂ) : ℝ := p.C / 2 * V ^ 2 + p.Lf / 4 * (is.map fun i => ‖i‖ ^ 2).sum

theorem norm_sq_mk (x y : ℝ) : ‖(⟨x, y⟩ : ℂ)‖ ^ 2 = x ^ 2 + y ^ 2 := by
  rw [← Complex.normSq_eq_norm_sq, Complex.normSq_apply]; ring

/-- C149: what a bound on the stored energy means for voltage and currents. -/
theorem C149_within (p : Par) (hC : 0 < p.C) (hL : 0 < p.Lf) (V : ℝ) (is : List ℂ) (B : ℝ) (h : storedEnergy p V is ≤ B) :
    |V| ≤ Real.sqrt (2 * B / p.C) ∧ ∀ i ∈ is, ‖i‖ ≤ Real.sqrt (4 * B / p.Lf) := by
  unfold storedEnergy at h
  have hs : ∀ i ∈ is, ‖i‖ ^ 2 ≤ (is.map fun i => ‖i‖ ^ 2).sum := fun i hi =>
    List.single_le_sum (by intro x hx; obtain ⟨j, _, rfl⟩ := List.mem_map.1 hx; positivity) _ (List.mem_map.2 ⟨i, hi, rfl⟩)
  have h0 : 0 ≤ (is.map fun i => ‖i‖ ^ 2).sum := List.sum_nonneg (by intro x hx; obtain ⟨j, _, rfl⟩ := List.mem_map.1 hx; positivity)
  constructor
  · apply Real.le_sqrt_of_sq_le
    rw [sq_abs, le_div_iff₀ hC]
    nlinarith [mul_nonneg hL.le h0]
  · intro i hi
    apply Real.le_sqrt_of_sq_le
    rw [le_div_iff₀ hL]
    nlinarith [mul_le_mul_of_nonneg_left (hs i hi) hL.le, mul_nonneg hC.le (sq_nonneg V)]

/-- C149: what the sun can deliver at most, at any DC voltage. -/
theorem C149_sun_limit (p : Par) (i : Inp) (hm : PV.Physical p.mod) (hT : 0 < i.Tactual) (hI : 0 ≤ PV.iph p.mod i.Sinsol i.Tactual) (hM : 0 ≤ p.Vdcmpp_max) (Vdc : ℝ) :
    ppvOf p i Vdc ≤ p.mod.Np * PV.iph p.mod i.Sinsol i.Tactual * p.Vdcmpp_max / p.mod.Sbase := by
  have hS := hm.Sbase; have hN := hm.Np; have hr := hm.Irs
  unfold ppvOf PV.ppv
  apply div_le_div_of_nonneg_right _ hS.le
  have hX : 0 ≤ p.mod.Np * PV.iph p.mod i.Sinsol i.Tactual := by positivity
  refine max_le (by positivity) ?_
  have hm' := min_le_left p.Vdcmpp_max (Vdc * p.Vdcbase)
  set V := min p.Vdcmpp_max (Vdc * p.Vdcbase)
  rw [PV.ipv_eq]
  have hc := PV.coef_pos hm hT
  rcases le_total 0 V with h0 | h0
  · have h1 : 1 ≤ Real.exp (PV.coef p.mod i.Tactual * V) := Real.one_le_exp (by positivity)
    have h2 : p.mod.Np * PV.iph p.mod i.Sinsol i.Tactual - p.mod.Np * p.mod.Irs * (Real.exp (PV.coef p.mod i.Tactual * V) - 1) ≤ p.mod.Np * PV.iph p.mod i.Sinsol i.Tactual := by
      have : 0 ≤ p.mod.Np * p.mod.Irs * (Real.exp (PV.coef p.mod i.Tactual * V) - 1) := by
        apply mul_nonneg (by positivity); linarith
      linarith
    exact mul_le_mul h2 hm' h0 hX
  · have h1 : Real.exp (PV.coef p.mod i.Tactual * V) ≤ 1 := Real.exp_le_one_iff.2 (mul_nonpos_of_nonneg_of_nonpos hc.le h0)
    have h2 : 0 ≤ p.mod.Np * PV.iph p.mod i.Sinsol i.Tactual - p.mod.Np * p.mod.Irs * (Real.exp (PV.coef p.mod i.Tactual * V) - 1) := by
      have : p.mod.Np * p.mod.Irs * (Real.exp (PV.coef p.mod i.Tactual * V) - 1) ≤ 0 := mul_nonpos_of_nonneg_of_nonpos (by positivity) (by linarith)
      linarith
    exact (mul_nonpos_of_nonneg_of_nonpos h2 h0).trans (by positivity)

/-- Power from the panel in connected and disconnected operation. -/
theorem connIf_ppv (c : Bool) (e : Env) : (connIf c e).Ppv = if c then e.Ppv else 0 := by cases c <;> simp [connIf, disc]
theorem connIf_S (c : Bool) (e : Env) : (connIf c e).S = e.S ∧ (connIf c e).Vdc = e.Vdc ∧ (connIf c e).C = e.C := by cases c <;> simp [connIf, disc]
theorem connIf_ppv_le {c : Bool} {e : Env} {P : ℝ} (h0 : 0 ≤ P) (h : e.Ppv ≤ P) : (connIf c e).Ppv ≤ P := by
  rw [connIf_ppv]; split_ifs <;> assumption

/-- One direction of `barrier`: a positive voltage that does not rise while above `B`. -/
theorem ceiling {x dx : ℝ → ℝ} {T B : ℝ} (h : Runs x dx T) (hx : ∀ t ∈ Icc 0 T, 0 < x t) (hi : ∀ t ∈ Ico 0 T, B < x t → dx t ≤ 0) :
    ∀ t ∈ Icc 0 T, x t ≤ max (x 0) B := by
  intro t ht
  have h0 : (0 : ℝ) ∈ Icc 0 T := ⟨le_rfl, ht.1.trans ht.2⟩
  have := barrier (x := x) (dx := dx) (T := T) (B := B) ⟨h.1, fun t ht => ⟨1, ⟨zero_le_one, le_rfl⟩, by rw [one_mul]; exact h.2 t ht⟩⟩
    (fun s hs hb => by
      have hp := hx s (Ico_subset_Icc_self hs)
      rw [abs_of_pos hp] at hb
      exact mul_nonpos_of_nonpos_of_nonneg (hi s hs hb) hp.le) t ht
  rwa [abs_of_pos (hx t ht), abs_of_pos (hx 0 h0)] at this

/-- Open-circuit voltage of the panel in volts: the DC voltage at which its current vanishes. -/
noncomputable def openCircuit (m : PV.Mod) (Sinsol T : ℝ) : ℝ := Real.log (1 + PV.iph m Sinsol T / m.Irs) / PV.coef m T

/-- C150: it is where the current of the panel vanishes. -/
theorem C150_open_circuit (m : PV.Mod) (hm : PV.Physical m) (S T : ℝ) (hT : 0 < T) (hI : 0 ≤ PV.iph m S T) (V : ℝ) : PV.ipv m S T V = 0 ↔ V = openCircuit m S T := by
  have hr := hm.Irs; have hN := hm.Np; have hc := PV.coef_pos hm hT
  have hp : 0 < 1 + PV.iph m S T / m.Irs := by positivity
  unfold openCircuit
  rw [PV.ipv_eq, eq_div_iff hc.ne', mul_comm V]
  have hl : (PV.coef m T * V = Real.log (1 + PV.iph m S T / m.Irs)) ↔ Real.exp (PV.coef m T * V) = 1 + PV.iph m S T / m.Irs := by
    rw [← Real.exp_eq_exp, Real.exp_log hp]
  rw [hl]
  constructor
  · intro h
    have h2 : m.Np * (PV.iph m S T - m.Irs * (Real.exp (PV.coef m T * V) - 1)) = 0 := by linear_combination h
    have h3 := (mul_eq_zero.1 h2).resolve_left hN.ne'
    field_simp; linear_combination -h3
  · intro h
    rw [h]; field_simp; ring

/-- Sunlight whose open-circuit voltage is at most `Voc`, itself within the MPP range. -/
structure SunBelow (p : Par) (i : Inp) (Voc : ℝ) : Prop where
  temp : 0 < i.Tactual
  light : 0 ≤ PV.iph p.mod i.Sinsol i.Tactual
  below : openCircuit p.mod i.Sinsol i.Tactual ≤ Voc
  range : Voc ≤ p.Vdcmpp_max

theorem SunBelow.dark {p : Par} {i : Inp} {Voc : ℝ} (h : SunBelow p i Voc) (hm : PV.Physical p.mod) (hb : 0 < p.Vdcbase) {V : ℝ} (hV : Voc / p.Vdcbase < V) : ppvOf p i V = 0 := by
  rw [div_lt_iff₀ hb] at hV
  unfold ppvOf
  exact PV.C56_zero_outside p.mod hm _ _ _ h.temp h.light (Or.inr (le_min (h.below.trans h.range) (h.below.trans hV.le)))

variable (p : Par) (inp : ℝ → Inp) (c : ℝ → Bool)
/-- C149 for the class `SinglePhase`: stored energy. -/
theorem C149_energy_single (hL : p.Lf ≠ 0) (hR : 0 < p.Rf) (hC : p.C ≠ 0) (Y : ℝ → SinglePhase.V → ℝ) (T Pm Vm : ℝ) (hPm : 0 ≤ Pm)
    (h : Follows (fun t y => SinglePhase.rhs (connIf (c t) (env1 p (inp t) y))) Y T [.iaR, .iaI, .Vdc])
    (hV : ∀ t ∈ Ico 0 T, Y t .Vdc ≠ 0) (hP : ∀ t ∈ Ico 0 T, ppvOf p (inp t) (Y t .Vdc) ≤ Pm) (hv : ∀ t ∈ Ico 0 T, ‖(inp t).va‖ ≤ Vm) :
    ∀ t ∈ Icc 0 T, storedEnergy p (Y t .Vdc) [⟨Y t .iaR, Y t .iaI⟩] ≤ storedEnergy p (Y 0 .Vdc) [⟨Y 0 .iaR, Y 0 .iaI⟩] + (Pm + (Vm ^ 2 / (8 * p.Rf))) * t := by
  intro t ht
  have raR : ∀ t ∈ Ico 0 T, SinglePhase.rhs (connIf (c t) (env1 p (inp t) (Y t))) .iaR = 1 / p.Lf * (-p.Rf * Y t .iaR - (inp t).va.re + (env1 p (inp t) (Y t)).vta.re) + (env1 p (inp t) (Y t)).winv / p.wbase * Y t .iaI := fun t _ => by cases c t <;> rfl
  have raI : ∀ t ∈ Ico 0 T, SinglePhase.rhs (connIf (c t) (env1 p (inp t) (Y t))) .iaI = 1 / p.Lf * (-p.Rf * Y t .iaI - (inp t).va.im + (env1 p (inp t) (Y t)).vta.im) - (env1 p (inp t) (Y t)).winv / p.wbase * Y t .iaR := fun t _ => by cases c t <;> rfl
  have key := stored (ι := Unit) (g := 1) (Lf := p.Lf) (Rf := p.Rf) (C := p.C) (Vm := Vm) (P := Pm) (T := T) (by norm_num) hL hR
    (x := (fun _ : Unit => fun s => Y s .iaR)) (y := (fun _ : Unit => fun s => Y s .iaI))
    (dx := (fun _ : Unit => fun s => SinglePhase.rhs (connIf (c s) (env1 p (inp s) (Y s))) .iaR)) (dy := (fun _ : Unit => fun s => SinglePhase.rhs (connIf (c s) (env1 p (inp s) (Y s))) .iaI))
    (V := fun s => Y s .Vdc) (dV := fun s => SinglePhase.rhs (connIf (c s) (env1 p (inp s) (Y s))) .Vdc) (W := fun s => (env1 p (inp s) (Y s)).winv / p.wbase) (Pv := fun s => (connIf (c s) (env1 p (inp s) (Y s))).Ppv)
    (v := (fun _ : Unit => fun s => (inp s).va)) (vt := (fun _ : Unit => fun s => (env1 p (inp s) (Y s)).vta))
    (fun _ => (h .iaR (by simp))) (fun _ => (h .iaI (by simp))) (h .Vdc (by simp))
    (fun _ => raR) (fun _ => raI)
    (fun t ht => by
      have e3 : (connIf (c t) (env1 p (inp t) (Y t))).S.re = (sPh (env1 p (inp t) (Y t)).vta ⟨Y t .iaR, Y t .iaI⟩).re := by rw [(connIf_S _ _).1]; rfl
      have e4 := (C60_dc_link_all (connIf (c t) (env1 p (inp t) (Y t))) (by rw [(connIf_S _ _).2.1]; exact hV t ht) (by rw [(connIf_S _ _).2.2]; exact hC) _ (Or.inl rfl)).1
      rw [(connIf_S _ _).2.1, (connIf_S _ _).2.2, e3] at e4
      simp only [Finset.univ_unique, Finset.sum_singleton, Fintype.card_unit, one_mul]
      exact e4)
    (fun t ht => connIf_ppv_le hPm (hP t ht))
    (fun _ => fun t ht => hv t ht) t ht
  simp only [Finset.univ_unique, Finset.sum_singleton, Fintype.card_unit] at key
  simp only [storedEnergy, List.map_cons, List.map_nil, List.sum_cons, List.sum_nil, norm_sq_mk]
  push_cast at key
  linarith

/-- C150 for the class `SinglePhase`: the DC voltage of an inverter that does not draw power from the grid stays at or below the open-circuit voltage, or below its initial
value if that was higher. -/
theorem C150_ceiling_single_partial (hC : 0 < p.C) (hm : PV.Physical p.mod) (hb : 0 < p.Vdcbase) (Y : ℝ → SinglePhase.V → ℝ) (T Voc : ℝ)
    (h : Follows (fun t y => SinglePhase.rhs (connIf (c t) (env1 p (inp t) y))) Y T [.Vdc]) (hV : ∀ t ∈ Icc 0 T, 0 < Y t .Vdc) (hs : ∀ t ∈ Ico 0 T, SunBelow p (inp t) Voc)
    (hS : ∀ t ∈ Ico 0 T, Voc / p.Vdcbase < Y t .Vdc → 0 ≤ (env1 p (inp t) (Y t)).S.re) :
    ∀ t ∈ Icc 0 T, Y t .Vdc ≤ max (Y 0 .Vdc) (Voc / p.Vdcbase) := by
  refine ceiling (h .Vdc (by simp)) hV fun t ht hlt => ?_
  have hVt := hV t (Ico_subset_Icc_self ht)
  have e4 := (C60_dc_link_all (connIf (c t) (env1 p (inp t) (Y t))) (by rw [(connIf_S _ _).2.1]; exact hVt.ne') (by rw [(connIf_S _ _).2.2]; exact hC.ne') _ (Or.inl rfl)).1
  have e5 : (connIf (c t) (env1 p (inp t) (Y t))).Ppv ≤ 0 := connIf_ppv_le le_rfl ((hs t ht).dark hm hb hlt).le
  rw [(connIf_S _ _).2.1, (connIf_S _ _).2.2, (connIf_S _ _).1] at e4
  have e6 := hS t ht hlt
  by_contra hc
  rw [not_le] at hc
  have : 0 < p.C * Y t .Vdc * SinglePhase.rhs (connIf (c t) (env1 p (inp t) (Y t))) .Vdc := mul_pos (mul_pos hC hVt) hc
  have e7 : p.C * Y t .Vdc * SinglePhase.rhs (connIf (c t) (env1 p (inp t) (Y t))) .Vdc = (connIf (c t) (env1 p (inp t) (Y t))).Ppv - (env1 p (inp t) (Y t)).S.re := e4
  linarith

/-- C149 for the class `SinglePhase`: a bound on the voltage across the filter bounds the current. -/
theorem C149_current_single (hL : 0 < p.Lf) (hR : 0 < p.Rf) (Y : ℝ → SinglePhase.V → ℝ) (T U : ℝ)
    (h : Follows (fun t y => SinglePhase.rhs (connIf (c t) (env1 p (inp t) y))) Y T [.iaR, .iaI]) (hU : ∀ t ∈ Ico 0 T, ‖(env1 p (inp t) (Y t)).vta - (inp t).va‖ ≤ U) :
    ∀ t ∈ Icc 0 T, ‖(⟨Y t .iaR, Y t .iaI⟩ : ℂ)‖ ≤ ‖(⟨Y 0 .iaR, Y 0 .iaI⟩ : ℂ)‖ * Real.exp (-(p.Rf / p.Lf) * t) + U / p.Rf * (1 - Real.exp (-(p.Rf / p.Lf) * t)) := by
  have raR : ∀ t ∈ Ico 0 T, SinglePhase.rhs (connIf (c t) (env1 p (inp t) (Y t))) .iaR = 1 / p.Lf * (-p.Rf * Y t .iaR - (inp t).va.re + (env1 p (inp t) (Y t)).vta.re) + (env1 p (inp t) (Y t)).winv / p.wbase * Y t .iaI := fun t _ => by cases c t <;> rfl
  have raI : ∀ t ∈ Ico 0 T, SinglePhase.rhs (connIf (c t) (env1 p (inp t) (Y t))) .iaI = 1 / p.Lf * (-p.Rf * Y t .iaI - (inp t).va.im + (env1 p (inp t) (Y t)).vta.im) - (env1 p (inp t) (Y t)).winv / p.wbase * Y t .iaR := fun t _ => by cases c t <;> rfl
  exact fun t ht => driven hL hR (W := fun s => (env1 p (inp s) (Y s)).winv / p.wbase) (v := fun s => (inp s).va) (vt := fun s => (env1 p (inp s) (Y s)).vta) (h .iaR (by simp)) (h .iaI (by simp))
    raR raI (fun t ht => hU t ht) t ht

/-- C149 for the class `ThreePhase`: stored energy. -/
theorem C149_energy_three (hL : p.Lf ≠ 0) (hR : 0 < p.Rf) (hC : p.C ≠ 0) (Y : ℝ → ThreePhase.V → ℝ) (T Pm Vm : ℝ) (hPm : 0 ≤ Pm)
    (h : Follows (fun t y => ThreePhase.rhs (connIf (c t) (envT p (inp t) y))) Y T [.iaR, .iaI, .ibR, .ibI, .icR, .icI, .Vdc])
    (hV : ∀ t ∈ Ico 0 T, Y t .Vdc ≠ 0) (hP : ∀ t ∈ Ico 0 T, ppvOf p (inp t) (Y t .Vdc) ≤ Pm) (hv : ∀ t ∈ Ico 0 T, ‖(inp t).va‖ ≤ Vm ∧ ‖(inp t).vb‖ ≤ Vm ∧ ‖(inp t).vc‖ ≤ Vm) :
    ∀ t ∈ Icc 0 T, storedEnergy p (Y t .Vdc) [⟨Y t .iaR, Y t .iaI⟩, ⟨Y t .ibR, Y t .ibI⟩, ⟨Y t .icR, Y t .icI⟩] ≤ storedEnergy p (Y 0 .Vdc) [⟨Y 0 .iaR, Y 0 .iaI⟩, ⟨Y 0 .ibR, Y 0 .ibI⟩, ⟨Y 0 .icR, Y 0 .icI⟩] + (Pm + 3 * (Vm ^ 2 / (8 * p.Rf))) * t := by
  intro t ht
  have raR : ∀ t ∈ Ico 0 T, ThreePhase.rhs (connIf (c t) (envT p (inp t) (Y t))) .iaR = 1 / p.Lf * (-p.Rf * Y t .iaR - (inp t).va.re + (envT p (inp t) (Y t)).vta.re) + (envT p (inp t) (Y t)).winv / p.wbase * Y t .iaI := fun t _ => by cases c t <;> rfl
  have raI : ∀ t ∈ Ico 0 T, ThreePhase.rhs (connIf (c t) (envT p (inp t) (Y t))) .iaI = 1 / p.Lf * (-p.Rf * Y t .iaI - (inp t).va.im + (envT p (inp t) (Y t)).vta.im) - (envT p (inp t) (Y t)).winv / p.wbase * Y t .iaR := fun t _ => by cases c t <;> rfl
  have rbR : ∀ t ∈ Ico 0 T, ThreePhase.rhs (connIf (c t) (envT p (inp t) (Y t))) .ibR = 1 / p.Lf * (-p.Rf * Y t .ibR - (inp t).vb.re + (envT p (inp t) (Y t)).vtb.re) + (envT p (inp t) (Y t)).winv / p.wbase * Y t .ibI := fun t _ => by cases c t <;> rfl
  have rbI : ∀ t ∈ Ico 0 T, ThreePhase.rhs (connIf (c t) (envT p (inp t) (Y t))) .ibI = 1 / p.Lf * (-p.Rf * Y t .ibI - (inp t).vb.im + (envT p (inp t) (Y t)).vtb.im) - (envT p (inp t) (Y t)).winv / p.wbase * Y t .ibR := fun t _ => by cases c t <;> rfl
  have rcR : ∀ t ∈ Ico 0 T, ThreePhase.rhs (connIf (c t) (envT p (inp t) (Y t))) .icR = 1 / p.Lf * (-p.Rf * Y t .icR - (inp t).vc.re + (envT p (inp t) (Y t)).vtc.re) + (envT p (inp t) (Y t)).winv / p.wbase * Y t .icI := fun t _ => by cases c t <;> rfl
  have rcI : ∀ t ∈ Ico 0 T, ThreePhase.rhs (connIf (c t) (envT p (inp t) (Y t))) .icI = 1 / p.Lf * (-p.Rf * Y t .icI - (inp t).vc.im + (envT p (inp t) (Y t)).vtc.im) - (envT p (inp t) (Y t)).winv / p.wbase * Y t .icR := fun t _ => by cases c t <;> rfl
  have key := stored (ι := Fin 3) (g := 1) (Lf := p.Lf) (Rf := p.Rf) (C := p.C) (Vm := Vm) (P := Pm) (T := T) (by norm_num) hL hR
    (x := (![fun s => Y s .iaR, fun s => Y s .ibR, fun s => Y s .icR] : Fin 3 → ℝ → _)) (y := (![fun s => Y s .iaI, fun s => Y s .ibI, fun s => Y s .icI] : Fin 3 → ℝ → _))
    (dx := (![fun s => ThreePhase.rhs (connIf (c s) (envT p (inp s) (Y s))) .iaR, fun s => ThreePhase.rhs (connIf (c s) (envT p (inp s) (Y s))) .ibR, fun s => ThreePhase.rhs (connIf (c s) (envT p (inp s) (Y s))) .icR] : Fin 3 → ℝ → _)) (dy := (![fun s => ThreePhase.rhs (connIf (c s) (envT p (inp s) (Y s))) .iaI, fun s => ThreePhase.rhs (connIf (c s) (envT p (inp s) (Y s))) .ibI, fun s => ThreePhase.rhs (connIf (c s) (envT p (inp s) (Y s))) .icI] : Fin 3 → ℝ → _))
    (V := fun s => Y s .Vdc) (dV := fun s => ThreePhase.rhs (connIf (c s) (envT p (inp s) (Y s))) .Vdc) (W := fun s => (envT p (inp s) (Y s)).winv / p.wbase) (Pv := fun s => (connIf (c s) (envT p (inp s) (Y s))).Ppv)
    (v := (![fun s => (inp s).va, fun s => (inp s).vb, fun s => (inp s).vc] : Fin 3 → ℝ → _)) (vt := (![fun s => (envT p (inp s) (Y s)).vta, fun s => (envT p (inp s) (Y s)).vtb, fun s => (envT p (inp s) (Y s)).vtc] : Fin 3 → ℝ → _))
    (fun k => by fin_cases k <;> first | exact (h .iaR (by simp)) | exact (h .ibR (by simp)) | exact (h .icR (by simp))) (fun k => by fin_cases k <;> first | exact (h .iaI (by simp)) | exact (h .ibI (by simp)) | exact (h .icI (by simp))) (h .Vdc (by simp))
    (fun k => by fin_cases k <;> first | exact raR | exact rbR | exact rcR) (fun k => by fin_cases k <;> first | exact raI | exact rbI | exact rcI)
    (fun t ht => by
      have e3 : (connIf (c t) (envT p (inp t) (Y t))).S.re = (sPh (envT p (inp t) (Y t)).vta ⟨Y t .iaR, Y t .iaI⟩).re + (sPh (envT p (inp t) (Y t)).vtb ⟨Y t .ibR, Y t .ibI⟩).re + (sPh (envT p (inp t) (Y t)).vtc ⟨Y t .icR, Y t .icI⟩).re := by
        rw [(connIf_S _ _).1]
        have e : (envT p (inp t) (Y t)).S = sCalc (envT p (inp t) (Y t)).vta (envT p (inp t) (Y t)).vtb (envT p (inp t) (Y t)).vtc ⟨Y t .iaR, Y t .iaI⟩ ⟨Y t .ibR, Y t .ibI⟩ ⟨Y t .icR, Y t .icI⟩ := rfl
        rw [e, sCalc_re, sPh_re, sPh_re, sPh_re]; ring
      have e4 := (C60_dc_link_all (connIf (c t) (envT p (inp t) (Y t))) (by rw [(connIf_S _ _).2.1]; exact hV t ht) (by rw [(connIf_S _ _).2.2]; exact hC) _ (Or.inr (Or.inl rfl))).1
      rw [(connIf_S _ _).2.1, (connIf_S _ _).2.2, e3] at e4
      simp only [Fin.sum_univ_three, Matrix.cons_val_zero, Matrix.cons_val_one, Matrix.cons_val_two, Matrix.head_cons, Matrix.tail_cons, Matrix.cons_val, Fintype.card_fin, one_mul]
      exact e4)
    (fun t ht => connIf_ppv_le hPm (hP t ht))
    (fun k => by fin_cases k <;> first | exact fun t ht => (hv t ht).1 | exact fun t ht => (hv t ht).2.1 | exact fun t ht => (hv t ht).2.2) t ht
  simp only [Fin.sum_univ_three, Matrix.cons_val_zero, Matrix.cons_val_one, Matrix.cons_val_two, Matrix.head_cons, Matrix.tail_cons, Matrix.cons_val, Fintype.card_fin] at key
  simp only [storedEnergy, List.map_cons, List.map_nil, List.sum_cons, List.sum_nil, norm_sq_mk]
  push_cast at key
  linarith

/-- C150 for the class `ThreePhase`: the DC voltage of an inverter that does not draw power from the grid stays at or below the open-circuit voltage, or below its initial
value if that was higher. -/
theorem C150_ceiling_three_partial (hC : 0 < p.C) (hm : PV.Physical p.mod) (hb : 0 < p.Vdcbase) (Y : ℝ → ThreePhase.V → ℝ) (T Voc : ℝ)
    (h : Follows (fun t y => ThreePhase.rhs (connIf (c t) (envT p (inp t) y))) Y T [.Vdc]) (hV : ∀ t ∈ Icc 0 T, 0 < Y t .Vdc) (hs : ∀ t ∈ Ico 0 T, SunBelow p (inp t) Voc)
    (hS : ∀ t ∈ Ico 0 T, Voc / p.Vdcbase < Y t .Vdc → 0 ≤ (envT p (inp t) (Y t)).S.re) :
    ∀ t ∈ Icc 0 T, Y t .Vdc ≤ max (Y 0 .Vdc) (Voc / p.Vdcbase) := by
  refine ceiling (h .Vdc (by simp)) hV fun t ht hlt => ?_
  have hVt := hV t (Ico_subset_Icc_self ht)
  have e4 := (C60_dc_link_all (connIf (c t) (envT p (inp t) (Y t))) (by rw [(connIf_S _ _).2.1]; exact hVt.ne') (by rw [(connIf_S _ _).2.2]; exact hC.ne') _ (Or.inr (Or.inl rfl))).1
  have e5 : (connIf (c t) (envT p (inp t) (Y t))).Ppv ≤ 0 := connIf_ppv_le le_rfl ((hs t ht).dark hm hb hlt).le
  rw [(connIf_S _ _).2.1, (connIf_S _ _).2.2, (connIf_S _ _).1] at e4
  have e6 := hS t ht hlt
  by_contra hc
  rw [not_le] at hc
  have : 0 < p.C * Y t .Vdc * ThreePhase.rhs (connIf (c t) (envT p (inp t) (Y t))) .Vdc := mul_pos (mul_pos hC hVt) hc
  have e7 : p.C * Y t .Vdc * ThreePhase.rhs (connIf (c t) (envT p (inp t) (Y t))) .Vdc = (connIf (c t) (envT p (inp t) (Y t))).Ppv - (envT p (inp t) (Y t)).S.re := e4
  linarith

/-- C149 for the class `ThreePhase`: a bound on the voltage across the filter bounds the current. -/
theorem C149_current_three (hL : 0 < p.Lf) (hR : 0 < p.Rf) (Y : ℝ → ThreePhase.V → ℝ) (T U : ℝ)
    (h : Follows (fun t y => ThreePhase.rhs (connIf (c t) (envT p (inp t) y))) Y T [.iaR, .iaI, .ibR, .ibI, .icR, .icI]) (hU : ∀ t ∈ Ico 0 T, ‖(envT p (inp t) (Y t)).vta - (inp t).va‖ ≤ U ∧ ‖(envT p (inp t) (Y t)).vtb - (inp t).vb‖ ≤ U ∧ ‖(envT p (inp t) (Y t)).vtc - (inp t).vc‖ ≤ U) :
    ∀ t ∈ Icc 0 T, ‖(⟨Y t .iaR, Y t .iaI⟩ : ℂ)‖ ≤ ‖(⟨Y 0 .iaR, Y 0 .iaI⟩ : ℂ)‖ * Real.exp (-(p.Rf / p.Lf) * t) + U / p.Rf * (1 - Real.exp (-(p.Rf / p.Lf) * t)) ∧
      ‖(⟨Y t .ibR, Y t .ibI⟩ : ℂ)‖ ≤ ‖(⟨Y 0 .ibR, Y 0 .ibI⟩ : ℂ)‖ * Real.exp (-(p.Rf / p.Lf) * t) + U / p.Rf * (1 - Real.exp (-(p.Rf / p.Lf) * t)) ∧
      ‖(⟨Y t .icR, Y t .icI⟩ : ℂ)‖ ≤ ‖(⟨Y 0 .icR, Y 0 .icI⟩ : ℂ)‖ * Real.exp (-(p.Rf / p.Lf) * t) + U / p.Rf * (1 - Real.exp (-(p.Rf / p.Lf) * t)) := by
  have raR : ∀ t ∈ Ico 0 T, ThreePhase.rhs (connIf (c t) (envT p (inp t) (Y t))) .iaR = 1 / p.Lf * (-p.Rf * Y t .iaR - (inp t).va.re + (envT p (inp t) (Y t)).vta.re) + (envT p (inp t) (Y t)).winv / p.wbase * Y t .iaI := fun t _ => by cases c t <;> rfl
  have raI : ∀ t ∈ Ico 0 T, ThreePhase.rhs (connIf (c t) (envT p (inp t) (Y t))) .iaI = 1 / p.Lf * (-p.Rf * Y t .iaI - (inp t).va.im + (envT p (inp t) (Y t)).vta.im) - (envT p (inp t) (Y t)).winv / p.wbase * Y t .iaR := fun t _ => by cases c t <;> rfl
  have rbR : ∀ t ∈ Ico 0 T, ThreePhase.rhs (connIf (c t) (envT p (inp t) (Y t))) .ibR = 1 / p.Lf * (-p.Rf * Y t .ibR - (inp t).vb.re + (envT p (inp t) (Y t)).vtb.re) + (envT p (inp t) (Y t)).winv / p.wbase * Y t .ibI := fun t _ => by cases c t <;> rfl
  have rbI : ∀ t ∈ Ico 0 T, ThreePhase.rhs (connIf (c t) (envT p (inp t) (Y t))) .ibI = 1 / p.Lf * (-p.Rf * Y t .ibI - (inp t).vb.im + (envT p (inp t) (Y t)).vtb.im) - (envT p (inp t) (Y t)).winv / p.wbase * Y t .ibR := fun t _ => by cases c t <;> rfl
  have rcR : ∀ t ∈ Ico 0 T, ThreePhase.rhs (connIf (c t) (envT p (inp t) (Y t))) .icR = 1 / p.Lf * (-p.Rf * Y t .icR - (inp t).vc.re + (envT p (inp t) (Y t)).vtc.re) + (envT p (inp t) (Y t)).winv / p.wbase * Y t .icI := fun t _ => by cases c t <;> rfl
  have rcI : ∀ t ∈ Ico 0 T, ThreePhase.rhs (connIf (c t) (envT p (inp t) (Y t))) .icI = 1 / p.Lf * (-p.Rf * Y t .icI - (inp t).vc.im + (envT p (inp t) (Y t)).vtc.im) - (envT p (inp t) (Y t)).winv / p.wbase * Y t .icR := fun t _ => by cases c t <;> rfl
  exact fun t ht => ⟨driven hL hR (W := fun s => (envT p (inp s) (Y s)).winv / p.wbase) (v := fun s => (inp s).va) (vt := fun s => (envT p (inp s) (Y s)).vta) (h .iaR (by simp)) (h .iaI (by simp))
    raR raI (fun t ht => (hU t ht).1) t ht,
    driven hL hR (W := fun s => (envT p (inp s) (Y s)).winv / p.wbase) (v := fun s => (inp s).vb) (vt := fun s => (envT p (inp s) (Y s)).vtb) (h .ibR (by simp)) (h .ibI (by simp))
    rbR rbI (fun t ht => (hU t ht).2.1) t ht,
    driven hL hR (W := fun s => (envT p (inp s) (Y s)).winv / p.wbase) (v := fun s => (inp s).vc) (vt := fun s => (envT p (inp s) (Y s)).vtc) (h .icR (by simp)) (h .icI (by simp))
    rcR rcI (fun t ht => (hU t ht).2.2) t ht⟩

/-- C149 for the class `ThreePhaseNoVrmsFilter`: stored energy. -/
theorem C149_energy_three_no_filter (hL : p.Lf ≠ 0) (hR : 0 < p.Rf) (hC : p.C ≠ 0) (Y : ℝ → ThreePhaseNoVrmsFilter.V → ℝ) (T Pm Vm : ℝ) (hPm : 0 ≤ Pm)
    (h : Follows (fun t y => ThreePhaseNoVrmsFilter.rhs (connIf (c t) (envN p (inp t) y))) Y T [.iaR, .iaI, .ibR, .ibI, .icR, .icI, .Vdc])
    (hV : ∀ t ∈ Ico 0 T, Y t .Vdc ≠ 0) (hP : ∀ t ∈ Ico 0 T, ppvOf p (inp t) (Y t .Vdc) ≤ Pm) (hv : ∀ t ∈ Ico 0 T, ‖(inp t).va‖ ≤ Vm ∧ ‖(inp t).vb‖ ≤ Vm ∧ ‖(inp t).vc‖ ≤ Vm) :
    ∀ t ∈ Icc 0 T, storedEnergy p (Y t .Vdc) [⟨Y t .iaR, Y t .iaI⟩, ⟨Y t .ibR, Y t .ibI⟩, ⟨Y t .icR, Y t .icI⟩] ≤ storedEnergy p (Y 0 .Vdc) [⟨Y 0 .iaR, Y 0 .iaI⟩, ⟨Y 0 .ibR, Y 0 .ibI⟩, ⟨Y 0 .icR, Y 0 .icI⟩] + (Pm + 3 * (Vm ^ 2 / (8 * p.Rf))) * t := by
  intro t ht
  have raR : ∀ t ∈ Ico 0 T, ThreePhaseNoVrmsFilter.rhs (connIf (c t) (envN p (inp t) (Y t))) .iaR = 1 / p.Lf * (-p.Rf * Y t .iaR - (inp t).va.re + (envN p (inp t) (Y t)).vta.re) + (envN p (inp t) (Y t)).winv / p.wbase * Y t .iaI := fun t _ => by cases c t <;> rfl
  have raI : ∀ t ∈ Ico 0 T, ThreePhaseNoVrmsFilter.rhs (connIf (c t) (envN p (inp t) (Y t))) .iaI = 1 / p.Lf * (-p.Rf * Y t .iaI - (inp t).va.im + (envN p (inp t) (Y t)).vta.im) - (envN p (inp t) (Y t)).winv / p.wbase * Y t .iaR := fun t _ => by cases c t <;> rfl
  have rbR : ∀ t ∈ Ico 0 T, ThreePhaseNoVrmsFilter.rhs (connIf (c t) (envN p (inp t) (Y t))) .ibR = 1 / p.Lf * (-p.Rf * Y t .ibR - (inp t).vb.re + (envN p (inp t) (Y t)).vtb.re) + (envN p (inp t) (Y t)).winv / p.wbase * Y t .ibI := fun t _ => by cases c t <;> rfl
  have rbI : ∀ t ∈ Ico 0 T, ThreePhaseNoVrmsFilter.rhs (connIf (c t) (envN p (inp t) (Y t))) .ibI = 1 / p.Lf * (-p.Rf * Y t .ibI - (inp t).vb.im + (envN p (inp t) (Y t)).vtb.im) - (envN p (inp t) (Y t)).winv / p.wbase * Y t .ibR := fun t _ => by cases c t <;> rfl
  have rcR : ∀ t ∈ Ico 0 T, ThreePhaseNoVrmsFilter.rhs (connIf (c t) (envN p (inp t) (Y t))) .icR = 1 / p.Lf * (-p.Rf * Y t .icR - (inp t).vc.re + (envN p (inp t) (Y t)).vtc.re) + (envN p (inp t) (Y t)).winv / p.wbase * Y t .icI := fun t _ => by cases c t <;> rfl
  have rcI : ∀ t ∈ Ico 0 T, ThreePhaseNoVrmsFilter.rhs (connIf (c t) (envN p (inp t) (Y t))) .icI = 1 / p.Lf * (-p.Rf * Y t .icI - (inp t).vc.im + (envN p (inp t) (Y t)).vtc.im) - (envN p (inp t) (Y t)).winv / p.wbase * Y t .icR := fun t _ => by cases c t <;> rfl
  have key := stored (ι := Fin 3) (g := 1) (Lf := p.Lf) (Rf := p.Rf) (C := p.C) (Vm := Vm) (P := Pm) (T := T) (by norm_num) hL hR
    (x := (![fun s => Y s .iaR, fun s => Y s .ibR, fun s => Y s .icR] : Fin 3 → ℝ → _)) (y := (![fun s => Y s .iaI, fun s => Y s .ibI, fun s => Y s .icI] : Fin 3 → ℝ → _))
    (dx := (![fun s => ThreePhaseNoVrmsFilter.rhs (connIf (c s) (envN p (inp s) (Y s))) .iaR, fun s => ThreePhaseNoVrmsFilter.rhs (connIf (c s) (envN p (inp s) (Y s))) .ibR, fun s => ThreePhaseNoVrmsFilter.rhs (connIf (c s) (envN p (inp s) (Y s))) .icR] : Fin 3 → ℝ → _)) (dy := (![fun s => ThreePhaseNoVrmsFilter.rhs (connIf (c s) (envN p (inp s) (Y s))) .iaI, fun s => ThreePhaseNoVrmsFilter.rhs (connIf (c s) (envN p (inp s) (Y s))) .ibI, fun s => ThreePhaseNoVrmsFilter.rhs (connIf (c s) (envN p (inp s) (Y s))) .icI] : Fin 3 → ℝ → _))
    (V := fun s => Y s .Vdc) (dV := fun s => ThreePhaseNoVrmsFilter.rhs (connIf (c s) (envN p (inp s) (Y s))) .Vdc) (W := fun s => (envN p (inp s) (Y s)).winv / p.wbase) (Pv := fun s => (connIf (c s) (envN p (inp s) (Y s))).Ppv)
    (v := (![fun s => (inp s).va, fun s => (inp s).vb, fun s => (inp s).vc] : Fin 3 → ℝ → _)) (vt := (![fun s => (envN p (inp s) (Y s)).vta, fun s => (envN p (inp s) (Y s)).vtb, fun s => (envN p (inp s) (Y s)).vtc] : Fin 3 → ℝ → _))
    (fun k => by fin_cases k <;> first | exact (h .iaR (by simp)) | exact (h .ibR (by simp)) | exact (h .icR (by simp))) (fun k => by fin_cases k <;> first | exact (h .iaI (by simp)) | exact (h .ibI (by simp)) | exact (h .icI (by simp))) (h .Vdc (by simp))
    (fun k => by fin_cases k <;> first | exact raR | exact rbR | exact rcR) (fun k => by fin_cases k <;> first | exact raI | exact rbI | exact rcI)
    (fun t ht => by
      have e3 : (connIf (c t) (envN p (inp t) (Y t))).S.re = (sPh (envN p (inp t) (Y t)).vta ⟨Y t .iaR, Y t .iaI⟩).re + (sPh (envN p (inp t) (Y t)).vtb ⟨Y t .ibR, Y t .ibI⟩).re + (sPh (envN p (inp t) (Y t)).vtc ⟨Y t .icR, Y t .icI⟩).re := by
        rw [(connIf_S _ _).1]
        have e : (envN p (inp t) (Y t)).S = sCalc (envN p (inp t) (Y t)).vta (envN p (inp t) (Y t)).vtb (envN p (inp t) (Y t)).vtc ⟨Y t .iaR, Y t .iaI⟩ ⟨Y t .ibR, Y t .ibI⟩ ⟨Y t .icR, Y t .icI⟩ := rfl
        rw [e, sCalc_re, sPh_re, sPh_re, sPh_re]; ring
      have e4 := (C60_dc_link_all (connIf (c t) (envN p (inp t) (Y t))) (by rw [(connIf_S _ _).2.1]; exact hV t ht) (by rw [(connIf_S _ _).2.2]; exact hC) _ (Or.inr (Or.inr (Or.inl rfl)))).1
      rw [(connIf_S _ _).2.1, (connIf_S _ _).2.2, e3] at e4
      simp only [Fin.sum_univ_three, Matrix.cons_val_zero, Matrix.cons_val_one, Matrix.cons_val_two, Matrix.head_cons, Matrix.tail_cons, Matrix.cons_val, Fintype.card_fin, one_mul]
      exact e4)
    (fun t ht => connIf_ppv_le hPm (hP t ht))
    (fun k => by fin_cases k <;> first | exact fun t ht => (hv t ht).1 | exact fun t ht => (hv t ht).2.1 | exact fun t ht => (hv t ht).2.2) t ht
  simp only [Fin.sum_univ_three, Matrix.cons_val_zero, Matrix.cons_val_one, Matrix.cons_val_two, Matrix.head_cons, Matrix.tail_cons, Matrix.cons_val, Fintype.card_fin] at key
  simp only [storedEnergy, List.map_cons, List.map_nil, List.sum_cons, List.sum_nil, norm_sq_mk]
  push_cast at key
  linarith

/-- C150 for the class `ThreePhaseNoVrmsFilter`: the DC voltage of an inverter that does not draw power from the grid stays at or below the open-circuit voltage, or below its initial
value if that was higher. -/
theorem C150_ceiling_three_no_filter_partial (hC : 0 < p.C) (hm : PV.Physical p.mod) (hb : 0 < p.Vdcbase) (Y : ℝ → ThreePhaseNoVrmsFilter.V → ℝ) (T Voc : ℝ)
    (h : Follows (fun t y => ThreePhaseNoVrmsFilter.rhs (connIf (c t) (envN p (inp t) y))) Y T [.Vdc]) (hV : ∀ t ∈ Icc 0 T, 0 < Y t .Vdc) (hs : ∀ t ∈ Ico 0 T, SunBelow p (inp t) Voc)
    (hS : ∀ t ∈ Ico 0 T, Voc / p.Vdcbase < Y t .Vdc → 0 ≤ (envN p (inp t) (Y t)).S.re) :
    ∀ t ∈ Icc 0 T, Y t .Vdc ≤ max (Y 0 .Vdc) (Voc / p.Vdcbase) := by
  refine ceiling (h .Vdc (by simp)) hV fun t ht hlt => ?_
  have hVt := hV t (Ico_subset_Icc_self ht)
  have e4 := (C60_dc_link_all (connIf (c t) (envN p (inp t) (Y t))) (by rw [(connIf_S _ _).2.1]; exact hVt.ne') (by rw [(connIf_S _ _).2.2]; exact hC.ne') _ (Or.inr (Or.inr (Or.inl rfl)))).1
  have e5 : (connIf (c t) (envN p (inp t) (Y t))).Ppv ≤ 0 := connIf_ppv_le le_rfl ((hs t ht).dark hm hb hlt).le
  rw [(connIf_S _ _).2.1, (connIf_S _ _).2.2, (connIf_S _ _).1] at e4
  have e6 := hS t ht hlt
  by_contra hc
  rw [not_le] at hc
  have : 0 < p.C * Y t .Vdc * ThreePhaseNoVrmsFilter.rhs (connIf (c t) (envN p (inp t) (Y t))) .Vdc := mul_pos (mul_pos hC hVt) hc
  have e7 : p.C * Y t .Vdc * ThreePhaseNoVrmsFilter.rhs (connIf (c t) (envN p (inp t) (Y t))) .Vdc = (connIf (c t) (envN p (inp t) (Y t))).Ppv - (envN p (inp t) (Y t)).S.re := e4
  linarith

/-- C149 for the class `ThreePhaseNoVrmsFilter`: a bound on the voltage across the filter bounds the current. -/
theorem C149_current_three_no_filter (hL : 0 < p.Lf) (hR : 0 < p.Rf) (Y : ℝ → ThreePhaseNoVrmsFilter.V → ℝ) (T U : ℝ)
    (h : Follows (fun t y => ThreePhaseNoVrmsFilter.rhs (connIf (c t) (envN p (inp t) y))) Y T [.iaR, .iaI, .ibR, .ibI, .icR, .icI]) (hU : ∀ t ∈ Ico 0 T, ‖(envN p (inp t) (Y t)).vta - (inp t).va‖ ≤ U ∧ ‖(envN p (inp t) (Y t)).vtb - (inp t).vb‖ ≤ U ∧ ‖(envN p (inp t) (Y t)).vtc - (inp t).vc‖ ≤ U) :
    ∀ t ∈ Icc 0 T, ‖(⟨Y t .iaR, Y t .iaI⟩ : ℂ)‖ ≤ ‖(⟨Y 0 .iaR, Y 0 .iaI⟩ : ℂ)‖ * Real.exp (-(p.Rf / p.Lf) * t) + U / p.Rf * (1 - Real.exp (-(p.Rf / p.Lf) * t)) ∧
      ‖(⟨Y t .ibR, Y t .ibI⟩ : ℂ)‖ ≤ ‖(⟨Y 0 .ibR, Y 0 .ibI⟩ : ℂ)‖ * Real.exp (-(p.Rf / p.Lf) * t) + U / p.Rf * (1 - Real.exp (-(p.Rf / p.Lf) * t)) ∧
      ‖(⟨Y t .icR, Y t .icI⟩ : ℂ)‖ ≤ ‖(⟨Y 0 .icR, Y 0 .icI⟩ : ℂ)‖ * Real.exp (-(p.Rf / p.Lf) * t) + U / p.Rf * (1 - Real.exp (-(p.Rf / p.Lf) * t)) := by
  have raR : ∀ t ∈ Ico 0 T, ThreePhaseNoVrmsFilter.rhs (connIf (c t) (envN p (inp t) (Y t))) .iaR = 1 / p.Lf * (-p.Rf * Y t .iaR - (inp t).va.re + (envN p (inp t) (Y t)).vta.re) + (envN p (inp t) (Y t)).winv / p.wbase * Y t .iaI := fun t _ => by cases c t <;> rfl
  have raI : ∀ t ∈ Ico 0 T, ThreePhaseNoVrmsFilter.rhs (connIf (c t) (envN p (inp t) (Y t))) .iaI = 1 / p.Lf * (-p.Rf * Y t .iaI - (inp t).va.im + (envN p (inp t) (Y t)).vta.im) - (envN p (inp t) (Y t)).winv / p.wbase * Y t .iaR := fun t _ => by cases c t <;> rfl
  have rbR : ∀ t ∈ Ico 0 T, ThreePhaseNoVrmsFilter.rhs (connIf (c t) (envN p (inp t) (Y t))) .ibR = 1 / p.Lf * (-p.Rf * Y t .ibR - (inp t).vb.re + (envN p (inp t) (Y t)).vtb.re) + (envN p (inp t) (Y t)).winv / p.wbase * Y t .ibI := fun t _ => by cases c t <;> rfl
  have rbI : ∀ t ∈ Ico 0 T, ThreePhaseNoVrmsFilter.rhs (connIf (c t) (envN p (inp t) (Y t))) .ibI = 1 / p.Lf * (-p.Rf * Y t .ibI - (inp t).vb.im + (envN p (inp t) (Y t)).vtb.im) - (envN p (inp t) (Y t)).winv / p.wbase * Y t .ibR := fun t _ => by cases c t <;> rfl
  have rcR : ∀ t ∈ Ico 0 T, ThreePhaseNoVrmsFilter.rhs (connIf (c t) (envN p (inp t) (Y t))) .icR = 1 / p.Lf * (-p.Rf * Y t .icR - (inp t).vc.re + (envN p (inp t) (Y t)).vtc.re) + (envN p (inp t) (Y t)).winv / p.wbase * Y t .icI := fun t _ => by cases c t <;> rfl
  have rcI : ∀ t ∈ Ico 0 T, ThreePhaseNoVrmsFilter.rhs (connIf (c t) (envN p (inp t) (Y t))) .icI = 1 / p.Lf * (-p.Rf * Y t .icI - (inp t).vc.im + (envN p (inp t) (Y t)).vtc.im) - (envN p (inp t) (Y t)).winv / p.wbase * Y t .icR := fun t _ => by cases c t <;> rfl
  exact fun t ht => ⟨driven hL hR (W := fun s => (envN p (inp s) (Y s)).winv / p.wbase) (v := fun s => (inp s).va) (vt := fun s => (envN p (inp s) (Y s)).vta) (h .iaR (by simp)) (h .iaI (by simp))
    raR raI (fun t ht => (hU t ht).1) t ht,
    driven hL hR (W := fun s => (envN p (inp s) (Y s)).winv / p.wbase) (v := fun s => (inp s).vb) (vt := fun s => (envN p (inp s) (Y s)).vtb) (h .ibR (by simp)) (h .ibI (by simp))
    rbR rbI (fun t ht => (hU t ht).2.1) t ht,
    driven hL hR (W := fun s => (envN p (inp s) (Y s)).winv / p.wbase) (v := fun s => (inp s).vc) (vt := fun s => (envN p (inp s) (Y s)).vtc) (h .icR (by simp)) (h .icI (by simp))
    rcR rcI (fun t ht => (hU t ht).2.2) t ht⟩

/-- C149 for the class `ThreePhaseNumba`: stored energy. -/
theorem C149_energy_three_numba (hL : p.Lf ≠ 0) (hR : 0 < p.Rf) (hC : p.C ≠ 0) (Y : ℝ → ThreePhaseNumba.V → ℝ) (T Pm Vm : ℝ) (hPm : 0 ≤ Pm)
    (h : Follows (fun t y => ThreePhaseNumba.rhs (connIf (c t) (envNumba p (inp t) y))) Y T [.iaR, .iaI, .ibR, .ibI, .icR, .icI, .Vdc])
    (hV : ∀ t ∈ Ico 0 T, Y t .Vdc ≠ 0) (hP : ∀ t ∈ Ico 0 T, ppvOf p (inp t) (Y t .Vdc) ≤ Pm) (hv : ∀ t ∈ Ico 0 T, ‖(inp t).va‖ ≤ Vm ∧ ‖(inp t).vb‖ ≤ Vm ∧ ‖(inp t).vc‖ ≤ Vm) :
    ∀ t ∈ Icc 0 T, storedEnergy p (Y t .Vdc) [⟨Y t .iaR, Y t .iaI⟩, ⟨Y t .ibR, Y t .ibI⟩, ⟨Y t .icR, Y t .icI⟩] ≤ storedEnergy p (Y 0 .Vdc) [⟨Y 0 .iaR, Y 0 .iaI⟩, ⟨Y 0 .ibR, Y 0 .ibI⟩, ⟨Y 0 .icR, Y 0 .icI⟩] + (Pm + 3 * (Vm ^ 2 / (8 * p.Rf))) * t := by
  intro t ht
  have raR : ∀ t ∈ Ico 0 T, ThreePhaseNumba.rhs (connIf (c t) (envNumba p (inp t) (Y t))) .iaR = 1 / p.Lf * (-p.Rf * Y t .iaR - (inp t).va.re + (envNumba p (inp t) (Y t)).vta.re) + (envNumba p (inp t) (Y t)).winv / p.wbase * Y t .iaI := fun t _ => by cases c t <;> rfl
  have raI : ∀ t ∈ Ico 0 T, ThreePhaseNumba.rhs (connIf (c t) (envNumba p (inp t) (Y t))) .iaI = 1 / p.Lf * (-p.Rf * Y t .iaI - (inp t).va.im + (envNumba p (inp t) (Y t)).vta.im) - (envNumba p (inp t) (Y t)).winv / p.wbase * Y t .iaR := fun t _ => by cases c t <;> rfl
  have rbR : ∀ t ∈ Ico 0 T, ThreePhaseNumba.rhs (connIf (c t) (envNumba p (inp t) (Y t))) .ibR = 1 / p.Lf * (-p.Rf * Y t .ibR - (inp t).vb.re + (envNumba p (inp t) (Y t)).vtb.re) + (envNumba p (inp t) (Y t)).winv / p.wbase * Y t .ibI := fun t _ => by cases c t <;> rfl
  have rbI : ∀ t ∈ Ico 0 T, ThreePhaseNumba.rhs (connIf (c t) (envNumba p (inp t) (Y t))) .ibI = 1 / p.Lf * (-p.Rf * Y t .ibI - (inp t).vb.im + (envNumba p (inp t) (Y t)).vtb.im) - (envNumba p (inp t) (Y t)).winv / p.wbase * Y t .ibR := fun t _ => by cases c t <;> rfl
  have rcR : ∀ t ∈ Ico 0 T, ThreePhaseNumba.rhs (connIf (c t) (envNumba p (inp t) (Y t))) .icR = 1 / p.Lf * (-p.Rf * Y t .icR - (inp t).vc.re + (envNumba p (inp t) (Y t)).vtc.re) + (envNumba p (inp t) (Y t)).winv / p.wbase * Y t .icI := fun t _ => by cases c t <;> rfl
  have rcI : ∀ t ∈ Ico 0 T, ThreePhaseNumba.rhs (connIf (c t) (envNumba p (inp t) (Y t))) .icI = 1 / p.Lf * (-p.Rf * Y t .icI - (inp t).vc.im + (envNumba p (inp t) (Y t)).vtc.im) - (envNumba p (inp t) (Y t)).winv / p.wbase * Y t .icR := fun t _ => by cases c t <;> rfl
  have key := stored (ι := Fin 3) (g := 1) (Lf := p.Lf) (Rf := p.Rf) (C := p.C) (Vm := Vm) (P := Pm) (T := T) (by norm_num) hL hR
    (x := (![fun s => Y s .iaR, fun s => Y s .ibR, fun s => Y s .icR] : Fin 3 → ℝ → _)) (y := (![fun s => Y s .iaI, fun s => Y s .ibI, fun s => Y s .icI] : Fin 3 → ℝ → _))
    (dx := (![fun s => ThreePhaseNumba.rhs (connIf (c s) (envNumba p (inp s) (Y s))) .iaR, fun s => ThreePhaseNumba.rhs (connIf (c s) (envNumba p (inp s) (Y s))) .ibR, fun s => ThreePhaseNumba.rhs (connIf (c s) (envNumba p (inp s) (Y s))) .icR] : Fin 3 → ℝ → _)) (dy := (![fun s => ThreePhaseNumba.rhs (connIf (c s) (envNumba p (inp s) (Y s))) .iaI, fun s => ThreePhaseNumba.rhs (connIf (c s) (envNumba p (inp s) (Y s))) .ibI, fun s => ThreePhaseNumba.rhs (connIf (c s) (envNumba p (inp s) (Y s))) .icI] : Fin 3 → ℝ → _))
    (V := fun s => Y s .Vdc) (dV := fun s => ThreePhaseNumba.rhs (connIf (c s) (envNumba p (inp s) (Y s))) .Vdc) (W := fun s => (envNumba p (inp s) (Y s)).winv / p.wbase) (Pv := fun s => (connIf (c s) (envNumba p (inp s) (Y s))).Ppv)
    (v := (![fun s => (inp s).va, fun s => (inp s).vb, fun s => (inp s).vc] : Fin 3 → ℝ → _)) (vt := (![fun s => (envNumba p (inp s) (Y s)).vta, fun s => (envNumba p (inp s) (Y s)).vtb, fun s => (envNumba p (inp s) (Y s)).vtc] : Fin 3 → ℝ → _))
    (fun k => by fin_cases k <;> first | exact (h .iaR (by simp)) | exact (h .ibR (by simp)) | exact (h .icR (by simp))) (fun k => by fin_cases k <;> first | exact (h .iaI (by simp)) | exact (h .ibI (by simp)) | exact (h .icI (by simp))) (h .Vdc (by simp))
    (fun k => by fin_cases k <;> first | exact raR | exact rbR | exact rcR) (fun k => by fin_cases k <;> first | exact raI | exact rbI | exact rcI)
    (fun t ht => by
      have e3 : (connIf (c t) (envNumba p (inp t) (Y t))).S.re = (sPh (envNumba p (inp t) (Y t)).vta ⟨Y t .iaR, Y t .iaI⟩).re + (sPh (envNumba p (inp t) (Y t)).vtb ⟨Y t .ibR, Y t .ibI⟩).re + (sPh (envNumba p (inp t) (Y t)).vtc ⟨Y t .icR, Y t .icI⟩).re := by
        rw [(connIf_S _ _).1]
        have e : (envNumba p (inp t) (Y t)).S = sCalc (envNumba p (inp t) (Y t)).vta (envNumba p (inp t) (Y t)).vtb (envNumba p (inp t) (Y t)).vtc ⟨Y t .iaR, Y t .iaI⟩ ⟨Y t .ibR, Y t .ibI⟩ ⟨Y t .icR, Y t .icI⟩ := rfl
        rw [e, sCalc_re, sPh_re, sPh_re, sPh_re]; ring
      have e4 := (C60_dc_link_all (connIf (c t) (envNumba p (inp t) (Y t))) (by rw [(connIf_S _ _).2.1]; exact hV t ht) (by rw [(connIf_S _ _).2.2]; exact hC) _ (Or.inr (Or.inr (Or.inr (Or.inl rfl))))).1
      rw [(connIf_S _ _).2.1, (connIf_S _ _).2.2, e3] at e4
      simp only [Fin.sum_univ_three, Matrix.cons_val_zero, Matrix.cons_val_one, Matrix.cons_val_two, Matrix.head_cons, Matrix.tail_cons, Matrix.cons_val, Fintype.card_fin, one_mul]
      exact e4)
    (fun t ht => connIf_ppv_le hPm (hP t ht))
    (fun k => by fin_cases k <;> first | exact fun t ht => (hv t ht).1 | exact fun t ht => (hv t ht).2.1 | exact fun t ht => (hv t ht).2.2) t ht
  simp only [Fin.sum_univ_three, Matrix.cons_val_zero, Matrix.cons_val_one, Matrix.cons_val_two, Matrix.head_cons, Matrix.tail_cons, Matrix.cons_val, Fintype.card_fin] at key
  simp only [storedEnergy, List.map_cons, List.map_nil, List.sum_cons, List.sum_nil, norm_sq_mk]
  push_cast at key
  linarith

/-- C150 for the class `ThreePhaseNumba`: the DC voltage of an inverter that does not draw power from the grid stays at or below the open-circuit voltage, or below its initial
value if that was higher. -/
theorem C150_ceiling_three_numba_partial (hC : 0 < p.C) (hm : PV.Physical p.mod) (hb : 0 < p.Vdcbase) (Y : ℝ → ThreePhaseNumba.V → ℝ) (T Voc : ℝ)
    (h : Follows (fun t y => ThreePhaseNumba.rhs (connIf (c t) (envNumba p (inp t) y))) Y T [.Vdc]) (hV : ∀ t ∈ Icc 0 T, 0 < Y t .Vdc) (hs : ∀ t ∈ Ico 0 T, SunBelow p (inp t) Voc)
    (hS : ∀ t ∈ Ico 0 T, Voc / p.Vdcbase < Y t .Vdc → 0 ≤ (envNumba p (inp t) (Y t)).S.re) :
    ∀ t ∈ Icc 0 T, Y t .Vdc ≤ max (Y 0 .Vdc) (Voc / p.Vdcbase) := by
  refine ceiling (h .Vdc (by simp)) hV fun t ht hlt => ?_
  have hVt := hV t (Ico_subset_Icc_self ht)
  have e4 := (C60_dc_link_all (connIf (c t) (envNumba p (inp t) (Y t))) (by rw [(connIf_S _ _).2.1]; exact hVt.ne') (by rw [(connIf_S _ _).2.2]; exact hC.ne') _ (Or.inr (Or.inr (Or.inr (Or.inl rfl))))).1
  have e5 : (connIf (c t) (envNumba p (inp t) (Y t))).Ppv ≤ 0 := connIf_ppv_le le_rfl ((hs t ht).dark hm hb hlt).le
  rw [(connIf_S _ _).2.1, (connIf_S _ _).2.2, (connIf_S _ _).1] at e4
  have e6 := hS t ht hlt
  by_contra hc
  rw [not_le] at hc
  have : 0 < p.C * Y t .Vdc * ThreePhaseNumba.rhs (connIf (c t) (envNumba p (inp t) (Y t))) .Vdc := mul_pos (mul_pos hC hVt) hc
  have e7 : p.C * Y t .Vdc * ThreePhaseNumba.rhs (connIf (c t) (envNumba p (inp t) (Y t))) .Vdc = (connIf (c t) (envNumba p (inp t) (Y t))).Ppv - (envNumba p (inp t) (Y t)).S.re := e4
  linarith

/-- C149 for the class `ThreePhaseNumba`: a bound on the voltage across the filter bounds the current. -/
theorem C149_current_three_numba (hL : 0 < p.Lf) (hR : 0 < p.Rf) (Y : ℝ → ThreePhaseNumba.V → ℝ) (T U : ℝ)
    (h : Follows (fun t y => ThreePhaseNumba.rhs (connIf (c t) (envNumba p (inp t) y))) Y T [.iaR, .iaI, .ibR, .ibI, .icR, .icI]) (hU : ∀ t ∈ Ico 0 T, ‖(envNumba p (inp t) (Y t)).vta - (inp t).va‖ ≤ U ∧ ‖(envNumba p (inp t) (Y t)).vtb - (inp t).vb‖ ≤ U ∧ ‖(envNumba p (inp t) (Y t)).vtc - (inp t).vc‖ ≤ U) :
    ∀ t ∈ Icc 0 T, ‖(⟨Y t .iaR, Y t .iaI⟩ : ℂ)‖ ≤ ‖(⟨Y 0 .iaR, Y 0 .iaI⟩ : ℂ)‖ * Real.exp (-(p.Rf / p.Lf) * t) + U / p.Rf * (1 - Real.exp (-(p.Rf / p.Lf) * t)) ∧
      ‖(⟨Y t .ibR, Y t .ibI⟩ : ℂ)‖ ≤ ‖(⟨Y 0 .ibR, Y 0 .ibI⟩ : ℂ)‖ * Real.exp (-(p.Rf / p.Lf) * t) + U / p.Rf * (1 - Real.exp (-(p.Rf / p.Lf) * t)) ∧
      ‖(⟨Y t .icR, Y t .icI⟩ : ℂ)‖ ≤ ‖(⟨Y 0 .icR, Y 0 .icI⟩ : ℂ)‖ * Real.exp (-(p.Rf / p.Lf) * t) + U / p.Rf * (1 - Real.exp (-(p.Rf / p.Lf) * t)) := by
  have raR : ∀ t ∈ Ico 0 T, ThreePhaseNumba.rhs (connIf (c t) (envNumba p (inp t) (Y t))) .iaR = 1 / p.Lf * (-p.Rf * Y t .iaR - (inp t).va.re + (envNumba p (inp t) (Y t)).vta.re) + (envNumba p (inp t) (Y t)).winv / p.wbase * Y t .iaI := fun t _ => by cases c t <;> rfl
  have raI : ∀ t ∈ Ico 0 T, ThreePhaseNumba.rhs (connIf (c t) (envNumba p (inp t) (Y t))) .iaI = 1 / p.Lf * (-p.Rf * Y t .iaI - (inp t).va.im + (envNumba p (inp t) (Y t)).vta.im) - (envNumba p (inp t) (Y t)).winv / p.wbase * Y t .iaR := fun t _ => by cases c t <;> rfl
  have rbR : ∀ t ∈ Ico 0 T, ThreePhaseNumba.rhs (connIf (c t) (envNumba p (inp t) (Y t))) .ibR = 1 / p.Lf * (-p.Rf * Y t .ibR - (inp t).vb.re + (envNumba p (inp t) (Y t)).vtb.re) + (envNumba p (inp t) (Y t)).winv / p.wbase * Y t .ibI := fun t _ => by cases c t <;> rfl
  have rbI : ∀ t ∈ Ico 0 T, ThreePhaseNumba.rhs (connIf (c t) (envNumba p (inp t) (Y t))) .ibI = 1 / p.Lf * (-p.Rf * Y t .ibI - (inp t).vb.im + (envNumba p (inp t) (Y t)).vtb.im) - (envNumba p (inp t) (Y t)).winv / p.wbase * Y t .ibR := fun t _ => by cases c t <;> rfl
  have rcR : ∀ t ∈ Ico 0 T, ThreePhaseNumba.rhs (connIf (c t) (envNumba p (inp t) (Y t))) .icR = 1 / p.Lf * (-p.Rf * Y t .icR - (inp t).vc.re + (envNumba p (inp t) (Y t)).vtc.re) + (envNumba p (inp t) (Y t)).winv / p.wbase * Y t .icI := fun t _ => by cases c t <;> rfl
  have rcI : ∀ t ∈ Ico 0 T, ThreePhaseNumba.rhs (connIf (c t) (envNumba p (inp t) (Y t))) .icI = 1 / p.Lf * (-p.Rf * Y t .icI - (inp t).vc.im + (envNumba p (inp t) (Y t)).vtc.im) - (envNumba p (inp t) (Y t)).winv / p.wbase * Y t .icR := fun t _ => by cases c t <;> rfl
  exact fun t ht => ⟨driven hL hR (W := fun s => (envNumba p (inp s) (Y s)).winv / p.wbase) (v := fun s => (inp s).va) (vt := fun s => (envNumba p (inp s) (Y s)).vta) (h .iaR (by simp)) (h .iaI (by simp))
    raR raI (fun t ht => (hU t ht).1) t ht,
    driven hL hR (W := fun s => (envNumba p (inp s) (Y s)).winv / p.wbase) (v := fun s => (inp s).vb) (vt := fun s => (envNumba p (inp s) (Y s)).vtb) (h .ibR (by simp)) (h .ibI (by simp))
    rbR rbI (fun t ht => (hU t ht).2.1) t ht,
    driven hL hR (W := fun s => (envNumba p (inp s) (Y s)).winv / p.wbase) (v := fun s => (inp s).vc) (vt := fun s => (envNumba p (inp s) (Y s)).vtc) (h .icR (by simp)) (h .icI (by simp))
    rcR rcI (fun t ht => (hU t ht).2.2) t ht⟩

/-- C149 for the class `ThreePhaseBalanced`: stored energy. -/
theorem C149_energy_balanced (hL : p.Lf ≠ 0) (hR : 0 < p.Rf) (hC : p.C ≠ 0) (Y : ℝ → ThreePhaseBalanced.V → ℝ) (T Pm Vm : ℝ) (hPm : 0 ≤ Pm)
    (h : Follows (fun t y => ThreePhaseBalanced.rhs (connIf (c t) (envB p (inp t) y))) Y T [.iaR, .iaI, .Vdc])
    (hV : ∀ t ∈ Ico 0 T, Y t .Vdc ≠ 0) (hP : ∀ t ∈ Ico 0 T, ppvOf p (inp t) (Y t .Vdc) ≤ Pm) (hv : ∀ t ∈ Ico 0 T, ‖(inp t).va‖ ≤ Vm) :
    ∀ t ∈ Icc 0 T, storedEnergy p (Y t .Vdc) [⟨Y t .iaR, Y t .iaI⟩, Phasor.ub ⟨Y t .iaR, Y t .iaI⟩, Phasor.uc ⟨Y t .iaR, Y t .iaI⟩] ≤ storedEnergy p (Y 0 .Vdc) [⟨Y 0 .iaR, Y 0 .iaI⟩, Phasor.ub ⟨Y 0 .iaR, Y 0 .iaI⟩, Phasor.uc ⟨Y 0 .iaR, Y 0 .iaI⟩] + (Pm + 3 * (Vm ^ 2 / (8 * p.Rf))) * t := by
  intro t ht
  have raR : ∀ t ∈ Ico 0 T, ThreePhaseBalanced.rhs (connIf (c t) (envB p (inp t) (Y t))) .iaR = 1 / p.Lf * (-p.Rf * Y t .iaR - (inp t).va.re + (envB p (inp t) (Y t)).vta.re) + (envB p (inp t) (Y t)).winv / p.wbase * Y t .iaI := fun t _ => by cases c t <;> rfl
  have raI : ∀ t ∈ Ico 0 T, ThreePhaseBalanced.rhs (connIf (c t) (envB p (inp t) (Y t))) .iaI = 1 / p.Lf * (-p.Rf * Y t .iaI - (inp t).va.im + (envB p (inp t) (Y t)).vta.im) - (envB p (inp t) (Y t)).winv / p.wbase * Y t .iaR := fun t _ => by cases c t <;> rfl
  have key := stored (ι := Unit) (g := 3) (Lf := p.Lf) (Rf := p.Rf) (C := p.C) (Vm := Vm) (P := Pm) (T := T) (by norm_num) hL hR
    (x := (fun _ : Unit => fun s => Y s .iaR)) (y := (fun _ : Unit => fun s => Y s .iaI))
    (dx := (fun _ : Unit => fun s => ThreePhaseBalanced.rhs (connIf (c s) (envB p (inp s) (Y s))) .iaR)) (dy := (fun _ : Unit => fun s => ThreePhaseBalanced.rhs (connIf (c s) (envB p (inp s) (Y s))) .iaI))
    (V := fun s => Y s .Vdc) (dV := fun s => ThreePhaseBalanced.rhs (connIf (c s) (envB p (inp s) (Y s))) .Vdc) (W := fun s => (envB p (inp s) (Y s)).winv / p.wbase) (Pv := fun s => (connIf (c s) (envB p (inp s) (Y s))).Ppv)
    (v := (fun _ : Unit => fun s => (inp s).va)) (vt := (fun _ : Unit => fun s => (envB p (inp s) (Y s)).vta))
    (fun _ => (h .iaR (by simp))) (fun _ => (h .iaI (by simp))) (h .Vdc (by simp))
    (fun _ => raR) (fun _ => raI)
    (fun t ht => by
      have e3 : (connIf (c t) (envB p (inp t) (Y t))).S.re = 3 * (sPh (envB p (inp t) (Y t)).vta ⟨Y t .iaR, Y t .iaI⟩).re := by
        rw [(connIf_S _ _).1]
        have e : (envB p (inp t) (Y t)).S = sCalc (envB p (inp t) (Y t)).vta (envB p (inp t) (Y t)).vtb (envB p (inp t) (Y t)).vtc ⟨Y t .iaR, Y t .iaI⟩ (Phasor.ub ⟨Y t .iaR, Y t .iaI⟩) (Phasor.uc ⟨Y t .iaR, Y t .iaI⟩) := rfl
        rw [e, (balanced_terminal p (inp t) (Y t)).1, (balanced_terminal p (inp t) (Y t)).2, C52_three_phase_power]; simp
      have e4 := (C60_dc_link_all (connIf (c t) (envB p (inp t) (Y t))) (by rw [(connIf_S _ _).2.1]; exact hV t ht) (by rw [(connIf_S _ _).2.2]; exact hC) _ (Or.inr (Or.inr (Or.inr (Or.inr rfl))))).1
      rw [(connIf_S _ _).2.1, (connIf_S _ _).2.2, e3] at e4
      simp only [Finset.univ_unique, Finset.sum_singleton, Fintype.card_unit, one_mul]
      exact e4)
    (fun t ht => connIf_ppv_le hPm (hP t ht))
    (fun _ => fun t ht => hv t ht) t ht
  simp only [Finset.univ_unique, Finset.sum_singleton, Fintype.card_unit] at key
  simp only [storedEnergy, List.map_cons, List.map_nil, List.sum_cons, List.sum_nil, (C47_phase_shift _).1, (C47_phase_shift _).2.1, norm_sq_mk]
  push_cast at key
  linarith

/-- C150 for the class `ThreePhaseBalanced`: the DC voltage of an inverter that does not draw power from the grid stays at or below the open-circuit voltage, or below its initial
value if that was higher. -/
theorem C150_ceiling_balanced_partial (hC : 0 < p.C) (hm : PV.Physical p.mod) (hb : 0 < p.Vdcbase) (Y : ℝ → ThreePhaseBalanced.V → ℝ) (T Voc : ℝ)
    (h : Follows (fun t y => ThreePhaseBalanced.rhs (connIf (c t) (envB p (inp t) y))) Y T [.Vdc]) (hV : ∀ t ∈ Icc 0 T, 0 < Y t .Vdc) (hs : ∀ t ∈ Ico 0 T, SunBelow p (inp t) Voc)
    (hS : ∀ t ∈ Ico 0 T, Voc / p.Vdcbase < Y t .Vdc → 0 ≤ (envB p (inp t) (Y t)).S.re) :
    ∀ t ∈ Icc 0 T, Y t .Vdc ≤ max (Y 0 .Vdc) (Voc / p.Vdcbase) := by
  refine ceiling (h .Vdc (by simp)) hV fun t ht hlt => ?_
  have hVt := hV t (Ico_subset_Icc_self ht)
  have e4 := (C60_dc_link_all (connIf (c t) (envB p (inp t) (Y t))) (by rw [(connIf_S _ _).2.1]; exact hVt.ne') (by rw [(connIf_S _ _).2.2]; exact hC.ne') _ (Or.inr (Or.inr (Or.inr (Or.inr rfl))))).1
  have e5 : (connIf (c t) (envB p (inp t) (Y t))).Ppv ≤ 0 := connIf_ppv_le le_rfl ((hs t ht).dark hm hb hlt).le
  rw [(connIf_S _ _).2.1, (connIf_S _ _).2.2, (connIf_S _ _).1] at e4
  have e6 := hS t ht hlt
  by_contra hc
  rw [not_le] at hc
  have : 0 < p.C * Y t .Vdc * ThreePhaseBalanced.rhs (connIf (c t) (envB p (inp t) (Y t))) .Vdc := mul_pos (mul_pos hC hVt) hc
  have e7 : p.C * Y t .Vdc * ThreePhaseBalanced.rhs (connIf (c t) (envB p (inp t) (Y t))) .Vdc = (connIf (c t) (envB p (inp t) (Y t))).Ppv - (envB p (inp t) (Y t)).S.re := e4
  linarith

/-- C149 for the class `ThreePhaseBalanced`: a bound on the voltage across the filter bounds the current. -/
theorem C149_current_balanced (hL : 0 < p.Lf) (hR : 0 < p.Rf) (Y : ℝ → ThreePhaseBalanced.V → ℝ) (T U : ℝ)
    (h : Follows (fun t y => ThreePhaseBalanced.rhs (connIf (c t) (envB p (inp t) y))) Y T [.iaR, .iaI]) (hU : ∀ t ∈ Ico 0 T, ‖(envB p (inp t) (Y t)).vta - (inp t).va‖ ≤ U) :
    ∀ t ∈ Icc 0 T, ‖(⟨Y t .iaR, Y t .iaI⟩ : ℂ)‖ ≤ ‖(⟨Y 0 .iaR, Y 0 .iaI⟩ : ℂ)‖ * Real.exp (-(p.Rf / p.Lf) * t) + U / p.Rf * (1 - Real.exp (-(p.Rf / p.Lf) * t)) := by
  have raR : ∀ t ∈ Ico 0 T, ThreePhaseBalanced.rhs (connIf (c t) (envB p (inp t) (Y t))) .iaR = 1 / p.Lf * (-p.Rf * Y t .iaR - (inp t).va.re + (envB p (inp t) (Y t)).vta.re) + (envB p (inp t) (Y t)).winv / p.wbase * Y t .iaI := fun t _ => by cases c t <;> rfl
  have raI : ∀ t ∈ Ico 0 T, ThreePhaseBalanced.rhs (connIf (c t) (envB p (inp t) (Y t))) .iaI = 1 / p.Lf * (-p.Rf * Y t .iaI - (inp t).va.im + (envB p (inp t) (Y t)).vta.im) - (envB p (inp t) (Y t)).winv / p.wbase * Y t .iaR := fun t _ => by cases c t <;> rfl
  exact fun t ht => driven hL hR (W := fun s => (envB p (inp s) (Y s)).winv / p.wbase) (v := fun s => (inp s).va) (vt := fun s => (envB p (inp s) (Y s)).vta) (h .iaR (by simp)) (h .iaI (by simp))
    raR raI (fun t ht => hU t ht) t ht

/-- C149 for the class `SinglePhaseConstantVdc`: a bound on the voltage across the filter bounds the current. -/
theorem C149_current_single_constant_vdc (hL : 0 < p.Lf) (hR : 0 < p.Rf) (Y : ℝ → SinglePhaseConstantVdc.V → ℝ) (T U : ℝ)
    (h : Follows (fun t y => SinglePhaseConstantVdc.rhs (connIf (c t) (envC1 p (inp t) y))) Y T [.iaR, .iaI]) (hU : ∀ t ∈ Ico 0 T, ‖(envC1 p (inp t) (Y t)).vta - (inp t).va‖ ≤ U) :
    ∀ t ∈ Icc 0 T, ‖(⟨Y t .iaR, Y t .iaI⟩ : ℂ)‖ ≤ ‖(⟨Y 0 .iaR, Y 0 .iaI⟩ : ℂ)‖ * Real.exp (-(p.Rf / p.Lf) * t) + U / p.Rf * (1 - Real.exp (-(p.Rf / p.Lf) * t)) := by
  have raR : ∀ t ∈ Ico 0 T, SinglePhaseConstantVdc.rhs (connIf (c t) (envC1 p (inp t) (Y t))) .iaR = 1 / p.Lf * (-p.Rf * Y t .iaR - (inp t).va.re + (envC1 p (inp t) (Y t)).vta.re) + (envC1 p (inp t) (Y t)).winv / p.wbase * Y t .iaI := fun t _ => by cases c t <;> rfl
  have raI : ∀ t ∈ Ico 0 T, SinglePhaseConstantVdc.rhs (connIf (c t) (envC1 p (inp t) (Y t))) .iaI = 1 / p.Lf * (-p.Rf * Y t .iaI - (inp t).va.im + (envC1 p (inp t) (Y t)).vta.im) - (envC1 p (inp t) (Y t)).winv / p.wbase * Y t .iaR := fun t _ => by cases c t <;> rfl
  exact fun t ht => driven hL hR (W := fun s => (envC1 p (inp s) (Y s)).winv / p.wbase) (v := fun s => (inp s).va) (vt := fun s => (envC1 p (inp s) (Y s)).vta) (h .iaR (by simp)) (h .iaI (by simp))
    raR raI (fun t ht => hU t ht) t ht

/-- C149 for the class `ThreePhaseConstantVdc`: a bound on the voltage across the filter bounds the current. -/
theorem C149_current_three_constant_vdc (hL : 0 < p.Lf) (hR : 0 < p.Rf) (Y : ℝ → ThreePhaseConstantVdc.V → ℝ) (T U : ℝ)
    (h : Follows (fun t y => ThreePhaseConstantVdc.rhs (connIf (c t) (envC3 p (inp t) y))) Y T [.iaR, .iaI, .ibR, .ibI, .icR, .icI]) (hU : ∀ t ∈ Ico 0 T, ‖(envC3 p (inp t) (Y t)).vta - (inp t).va‖ ≤ U ∧ ‖(envC3 p (inp t) (Y t)).vtb - (inp t).vb‖ ≤ U ∧ ‖(envC3 p (inp t) (Y t)).vtc - (inp t).vc‖ ≤ U) :
    ∀ t ∈ Icc 0 T, ‖(⟨Y t .iaR, Y t .iaI⟩ : ℂ)‖ ≤ ‖(⟨Y 0 .iaR, Y 0 .iaI⟩ : ℂ)‖ * Real.exp (-(p.Rf / p.Lf) * t) + U / p.Rf * (1 - Real.exp (-(p.Rf / p.Lf) * t)) ∧
      ‖(⟨Y t .ibR, Y t .ibI⟩ : ℂ)‖ ≤ ‖(⟨Y 0 .ibR, Y 0 .ibI⟩ : ℂ)‖ * Real.exp (-(p.Rf / p.Lf) * t) + U / p.Rf * (1 - Real.exp (-(p.Rf / p.Lf) * t)) ∧
      ‖(⟨Y t .icR, Y t .icI⟩ : ℂ)‖ ≤ ‖(⟨Y 0 .icR, Y 0 .icI⟩ : ℂ)‖ * Real.exp (-(p.Rf / p.Lf) * t) + U / p.Rf * (1 - Real.exp (-(p.Rf / p.Lf) * t)) := by
  have raR : ∀ t ∈ Ico 0 T, ThreePhaseConstantVdc.rhs (connIf (c t) (envC3 p (inp t) (Y t))) .iaR = 1 / p.Lf * (-p.Rf * Y t .iaR - (inp t).va.re + (envC3 p (inp t) (Y t)).vta.re) + (envC3 p (inp t) (Y t)).winv / p.wbase * Y t .iaI := fun t _ => by cases c t <;> rfl
  have raI : ∀ t ∈ Ico 0 T, ThreePhaseConstantVdc.rhs (connIf (c t) (envC3 p (inp t) (Y t))) .iaI = 1 / p.Lf * (-p.Rf * Y t .iaI - (inp t).va.im + (envC3 p (inp t) (Y t)).vta.im) - (envC3 p (inp t) (Y t)).winv / p.wbase * Y t .iaR := fun t _ => by cases c t <;> rfl
  have rbR : ∀ t ∈ Ico 0 T, ThreePhaseConstantVdc.rhs (connIf (c t) (envC3 p (inp t) (Y t))) .ibR = 1 / p.Lf * (-p.Rf * Y t .ibR - (inp t).vb.re + (envC3 p (inp t) (Y t)).vtb.re) + (envC3 p (inp t) (Y t)).winv / p.wbase * Y t .ibI := fun t _ => by cases c t <;> rfl
  have rbI : ∀ t ∈ Ico 0 T, ThreePhaseConstantVdc.rhs (connIf (c t) (envC3 p (inp t) (Y t))) .ibI = 1 / p.Lf * (-p.Rf * Y t .ibI - (inp t).vb.im + (envC3 p (inp t) (Y t)).vtb.im) - (envC3 p (inp t) (Y t)).winv / p.wbase * Y t .ibR := fun t _ => by cases c t <;> rfl
  have rcR : ∀ t ∈ Ico 0 T, ThreePhaseConstantVdc.rhs (connIf (c t) (envC3 p (inp t) (Y t))) .icR = 1 / p.Lf * (-p.Rf * Y t .icR - (inp t).vc.re + (envC3 p (inp t) (Y t)).vtc.re) + (envC3 p (inp t) (Y t)).winv / p.wbase * Y t .icI := fun t _ => by cases c t <;> rfl
  have rcI : ∀ t ∈ Ico 0 T, ThreePhaseConstantVdc.rhs (connIf (c t) (envC3 p (inp t) (Y t))) .icI = 1 / p.Lf * (-p.Rf * Y t .icI - (inp t).vc.im + (envC3 p (inp t) (Y t)).vtc.im) - (envC3 p (inp t) (Y t)).winv / p.wbase * Y t .icR := fun t _ => by cases c t <;> rfl
  exact fun t ht => ⟨driven hL hR (W := fun s => (envC3 p (inp s) (Y s)).winv / p.wbase) (v := fun s => (inp s).va) (vt := fun s => (envC3 p (inp s) (Y s)).vta) (h .iaR (by simp)) (h .iaI (by simp))
    raR raI (fun t ht => (hU t ht).1) t ht,
    driven hL hR (W := fun s => (envC3 p (inp s) (Y s)).winv / p.wbase) (v := fun s => (inp s).vb) (vt := fun s => (envC3 p (inp s) (Y s)).vtb) (h .ibR (by simp)) (h .ibI (by simp))
    rbR rbI (fun t ht => (hU t ht).2.1) t ht,
    driven hL hR (W := fun s => (envC3 p (inp s) (Y s)).winv / p.wbase) (v := fun s => (inp s).vc) (vt := fun s => (envC3 p (inp s) (Y s)).vtc) (h .icR (by simp)) (h .icI (by simp))
    rcR rcI (fun t ht => (hU t ht).2.2) t ht⟩

end Ode
end PvDer
