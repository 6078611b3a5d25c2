import Verif.Lemmas.Settle

/-!
# A current controller that is not limited tracks a settled reference

Strict Lyapunov function for one phase, with vanishing disturbances from the DC voltage, the frequency and the reference.
-/

namespace PvDer
namespace Track
open Filter Topology Complex

/-- A non-negative function that decays up to a vanishing disturbance tends to zero. -/
theorem decay0 {E E' η : ℝ → ℝ} {a : ℝ} (ha : 0 < a) (hE : ∀ t, 0 ≤ E t) (hd : ∀ᶠ t in atTop, HasDerivAt E (E' t) t)
    (hle : ∀ᶠ t in atTop, E' t ≤ -a * E t + η t) (hη : Tendsto η atTop (𝓝 0)) : Tendsto E atTop (𝓝 0) := by
  refine Metric.tendsto_atTop.2 (fun ε hε => ?_)
  obtain ⟨T, hT⟩ := eventually_atTop.1 ((hd.and hle).and (hη.eventually (gt_mem_nhds (show (0:ℝ) < a * (ε / 2) by positivity))))
  have hanti : AntitoneOn (fun t => (E t - ε / 2) * Real.exp (a * t)) (Set.Ici T) := by
    have hD : ∀ t ∈ Set.Ici T, HasDerivAt (fun t => (E t - ε / 2) * Real.exp (a * t)) (E' t * Real.exp (a * t) + (E t - ε / 2) * (Real.exp (a * t) * a)) t := by
      intro t ht
      have h1 := ((hT t ht).1.1).sub_const (ε / 2)
      have h2 : HasDerivAt (fun t => Real.exp (a * t)) (Real.exp (a * t) * a) t := by
        have := ((hasDerivAt_id t).const_mul a).exp
        simpa using this
      exact h1.mul h2
    refine antitoneOn_of_hasDerivWithinAt_nonpos (convex_Ici T) (fun t ht => (hD t ht).continuousAt.continuousWithinAt)
      (fun t ht => (hD t (interior_subset ht)).hasDerivWithinAt) (fun t ht => ?_)
    have ht' := interior_subset ht
    have h1 := (hT t ht').1.2
    have h2 := (hT t ht').2
    have h3 : E' t + a * (E t - ε / 2) ≤ 0 := by linarith
    have h4 := Real.exp_pos (a * t)
    have : E' t * Real.exp (a * t) + (E t - ε / 2) * (Real.exp (a * t) * a) = (E' t + a * (E t - ε / 2)) * Real.exp (a * t) := by ring
    rw [this]
    exact mul_nonpos_of_nonpos_of_nonneg h3 h4.le
  set K := |(E T - ε / 2) * Real.exp (a * T)| with hK
  have hexp : Tendsto (fun t : ℝ => K * Real.exp (-(a * t))) atTop (𝓝 0) := by
    have := (Real.tendsto_exp_neg_atTop_nhds_zero.comp (tendsto_id.const_mul_atTop ha)).const_mul K
    rw [mul_zero] at this
    exact this
  obtain ⟨S, hS⟩ := eventually_atTop.1 (hexp.eventually (gt_mem_nhds (show (0:ℝ) < ε / 2 by positivity)))
  refine ⟨max T S, fun t ht => ?_⟩
  have hTt : T ≤ t := (le_max_left _ _).trans ht
  have h1 := hanti (Set.mem_Ici.2 le_rfl) (Set.mem_Ici.2 hTt) hTt
  have h2 := hS t ((le_max_right _ _).trans ht)
  have h3 : (E t - ε / 2) * Real.exp (a * t) ≤ K := h1.trans (le_abs_self _)
  have h4 : E t - ε / 2 ≤ K * Real.exp (-(a * t)) := by
    rw [Real.exp_neg, ← div_eq_mul_inv, le_div_iff₀ (Real.exp_pos _)]; exact h3
  rw [Real.dist_eq, sub_zero, abs_of_nonneg (hE t)]
  linarith

/-- Real inner product of complex numbers. -/
noncomputable def pr (a b : ℂ) : ℝ := a.re * b.re + a.im * b.im

theorem pr_le (a b : ℂ) : |pr a b| ≤ ‖a‖ * ‖b‖ := by
  have h : pr a b = (a * (starRingEnd ℂ) b).re := by simp [pr]
  rw [h]
  refine (abs_re_le_norm _).trans ?_
  rw [norm_mul, Complex.norm_conj]

theorem pr_self (a : ℂ) : pr a a = ‖a‖ ^ 2 := by
  rw [← Complex.normSq_eq_norm_sq, Complex.normSq_apply]; rfl

theorem pr_deriv {f g : ℝ → ℂ} {f' g' : ℂ} {t : ℝ} (hf : HasDerivAt f f' t) (hg : HasDerivAt g g' t) :
    HasDerivAt (fun s => pr (f s) (g s)) (pr f' (g t) + pr (f t) g') t := by
  have fr : HasDerivAt (fun s => (f s).re) f'.re t := Complex.reCLM.hasFDerivAt.comp_hasDerivAt t hf
  have fi : HasDerivAt (fun s => (f s).im) f'.im t := Complex.imCLM.hasFDerivAt.comp_hasDerivAt t hf
  have gr : HasDerivAt (fun s => (g s).re) g'.re t := Complex.reCLM.hasFDerivAt.comp_hasDerivAt t hg
  have gi : HasDerivAt (fun s => (g s).im) g'.im t := Complex.imCLM.hasFDerivAt.comp_hasDerivAt t hg
  refine ((fr.mul gr).add (fi.mul gi)).congr_deriv ?_
  unfold pr; ring

/-- Constants of one phase: filter, controller, DC voltage in the limit, bound on the frequency. -/
structure Dat where
  L : ℝ
  R : ℝ
  Ki : ℝ
  wp : ℝ
  κ : ℝ
  ψ : ℝ
  B : ℝ
  ε : ℝ

/-- `ε` is small enough. -/
structure Dat.Ok (a : Dat) : Prop where
  L : 0 < a.L
  R : 0 < a.R
  Ki : 0 < a.Ki
  wp : 0 < a.wp
  κ : 0 < a.κ
  ψ : 0 < a.ψ
  B : 0 ≤ a.B
  ε : 0 < a.ε
  e1 : a.ε * ((a.R / a.L + a.B) ^ 2 * (2 * a.L / a.ψ) + a.Ki) ≤ a.R / 2
  e2 : a.ε * (a.ψ / (2 * a.L) * a.κ ^ 2) ≤ a.ψ * a.κ / 4
  e3 : a.ε ^ 2 / a.L ≤ a.ψ / (8 * a.Ki)

theorem exists_eps (L R Ki wp κ ψ B : ℝ) (hL : 0 < L) (hR : 0 < R) (hKi : 0 < Ki) (hwp : 0 < wp) (hκ : 0 < κ) (hψ : 0 < ψ) (hB : 0 ≤ B) :
    ∃ ε, (Dat.mk L R Ki wp κ ψ B ε).Ok := by
  set q1 := (R / L + B) ^ 2 * (2 * L / ψ) + Ki with hq1
  set q2 := ψ / (2 * L) * κ ^ 2 with hq2
  have p1 : 0 < q1 := by positivity
  have p2 : 0 < q2 := by positivity
  set ε := min (min (R / 2 / q1) (ψ * κ / 4 / q2)) (Real.sqrt (ψ / (8 * Ki) * L)) with hε
  have hpos : 0 < ε := lt_min (lt_min (by positivity) (by positivity)) (Real.sqrt_pos.2 (by positivity))
  refine ⟨ε, hL, hR, hKi, hwp, hκ, hψ, hB, hpos, ?_, ?_, ?_⟩
  · exact (le_div_iff₀ p1).1 ((min_le_left _ _).trans (min_le_left _ _))
  · exact (le_div_iff₀ p2).1 ((min_le_left _ _).trans (min_le_right _ _))
  · show ε ^ 2 / L ≤ ψ / (8 * Ki)
    rw [div_le_iff₀ hL]
    have h1 : ε ≤ Real.sqrt (ψ / (8 * Ki) * L) := min_le_right _ _
    have h2 : ε ^ 2 ≤ Real.sqrt (ψ / (8 * Ki) * L) ^ 2 := pow_le_pow_left₀ hpos.le h1 2
    rwa [Real.sq_sqrt (by positivity)] at h2

/-- The Lyapunov function. -/
noncomputable def lyap (a : Dat) (δ u ζ : ℂ) : ℝ := a.L / 2 * pr δ δ + a.ψ / 2 * (pr ζ ζ / (2 * a.Ki) + a.κ * pr u u / (2 * a.wp)) - a.ε * pr δ ζ

/-- Its derivative along the disturbed error equations. -/
noncomputable def lyapD (a : Dat) (W e : ℝ) (d1 d2 δ u ζ : ℂ) : ℝ :=
  -a.R * pr δ δ + pr δ d1 + e * (a.κ * pr δ u + pr δ ζ) + a.ψ / 2 * (pr ζ d2 + a.κ * pr u d2) - a.ψ / 2 * a.κ * pr u u
    - a.ε * (-(a.R / a.L) * pr δ ζ + (a.ψ / 2 + e) / a.L * (a.κ * pr u ζ + pr ζ ζ) + pr d1 ζ / a.L - W * pr (I * δ) ζ) + a.ε * a.Ki * pr δ δ - a.ε * a.Ki * pr δ d2

theorem lyap_deriv {a : Dat} (ha : a.Ok) {δ u ζ : ℝ → ℂ} {W e : ℝ} {d1 d2 : ℂ} {t : ℝ}
    (hδ : HasDerivAt δ (((1 / a.L : ℝ) : ℂ) * (-(a.R : ℂ) * δ t + ((a.ψ / 2 + e : ℝ) : ℂ) * ((a.κ : ℂ) * u t + ζ t) + d1) - (W : ℂ) * (I * δ t)) t)
    (hu : HasDerivAt u ((a.wp : ℂ) * (-u t - δ t + d2)) t) (hζ : HasDerivAt ζ ((a.Ki : ℂ) * (-δ t + d2)) t) :
    HasDerivAt (fun s => lyap a (δ s) (u s) (ζ s)) (lyapD a W e d1 d2 (δ t) (u t) (ζ t)) t := by
  have h := (((pr_deriv hδ hδ).const_mul (a.L / 2)).add ((((pr_deriv hζ hζ).div_const (2 * a.Ki)).add (((pr_deriv hu hu).const_mul a.κ).div_const (2 * a.wp))).const_mul (a.ψ / 2))).sub
    ((pr_deriv hδ hζ).const_mul a.ε)
  refine h.congr_deriv ?_
  have hL := ha.L.ne'
  have hK := ha.Ki.ne'
  have hw := ha.wp.ne'
  unfold lyapD pr
  simp only [mul_re, mul_im, add_re, add_im, sub_re, sub_im, neg_re, neg_im, ofReal_re, ofReal_im, I_re, I_im]
  field_simp
  ring

theorem lyap_bounds {a : Dat} (ha : a.Ok) (δ u ζ : ℂ) :
    a.L / 4 * ‖δ‖ ^ 2 + a.ψ / (8 * a.Ki) * ‖ζ‖ ^ 2 + a.ψ * a.κ / (4 * a.wp) * ‖u‖ ^ 2 ≤ lyap a δ u ζ ∧
    lyap a δ u ζ ≤ 3 * a.L / 4 * ‖δ‖ ^ 2 + 3 * a.ψ / (8 * a.Ki) * ‖ζ‖ ^ 2 + a.ψ * a.κ / (4 * a.wp) * ‖u‖ ^ 2 := by
  have hL := ha.L
  have h1 := abs_le.1 (pr_le δ ζ)
  have hAZ : a.ε * (‖δ‖ * ‖ζ‖) ≤ a.L / 4 * ‖δ‖ ^ 2 + a.ψ / (8 * a.Ki) * ‖ζ‖ ^ 2 := by
    have h2 : a.ε * (‖δ‖ * ‖ζ‖) ≤ a.L / 4 * ‖δ‖ ^ 2 + a.ε ^ 2 / a.L * ‖ζ‖ ^ 2 := by
      have h3 : 0 ≤ a.L * (‖δ‖ / 2 - a.ε / a.L * ‖ζ‖) ^ 2 := by positivity
      have h4 : a.L * (‖δ‖ / 2 - a.ε / a.L * ‖ζ‖) ^ 2 = a.L / 4 * ‖δ‖ ^ 2 - a.ε * (‖δ‖ * ‖ζ‖) + a.ε ^ 2 / a.L * ‖ζ‖ ^ 2 := by field_simp; ring
      linarith
    have h5 := mul_le_mul_of_nonneg_right ha.e3 (sq_nonneg ‖ζ‖)
    linarith
  have h6 : a.ε * pr δ ζ ≤ a.ε * (‖δ‖ * ‖ζ‖) := mul_le_mul_of_nonneg_left h1.2 ha.ε.le
  have h7 : -(a.ε * (‖δ‖ * ‖ζ‖)) ≤ a.ε * pr δ ζ := by
    have := mul_le_mul_of_nonneg_left h1.1 ha.ε.le
    linarith
  have e : lyap a δ u ζ = a.L / 2 * ‖δ‖ ^ 2 + a.ψ / (4 * a.Ki) * ‖ζ‖ ^ 2 + a.ψ * a.κ / (4 * a.wp) * ‖u‖ ^ 2 - a.ε * pr δ ζ := by
    unfold lyap
    rw [pr_self, pr_self, pr_self]
    have := ha.Ki.ne'; have := ha.wp.ne'
    field_simp; ring
  have h8 : a.ψ / (4 * a.Ki) = 2 * (a.ψ / (8 * a.Ki)) := by have := ha.Ki.ne'; field_simp; ring
  have h9 : 3 * a.ψ / (8 * a.Ki) = 3 * (a.ψ / (8 * a.Ki)) := by ring
  rw [e, h8, h9]
  constructor <;> linarith

/-- Decay rate of the undisturbed system. -/
noncomputable def rate (a : Dat) : ℝ := min (min (a.R / 2) (a.ψ * a.κ / 4)) (a.ε * (a.ψ / (4 * a.L)))

theorem rate_pos {a : Dat} (ha : a.Ok) : 0 < rate a := by
  have := ha.L; have := ha.R; have := ha.ψ; have := ha.κ; have := ha.ε
  exact lt_min (lt_min (by positivity) (by positivity)) (by positivity)

/-- Sensitivity to disturbances. -/
noncomputable def gain (a : Dat) : ℝ := 1 + a.κ + 1 + a.ψ / 2 + a.ψ / 2 * a.κ + a.ε / a.L * (a.κ + 1) + a.ε / a.L + a.ε * a.Ki

theorem young1 {ε ψ L q A Z : ℝ} (hε : 0 < ε) (hψ : 0 < ψ) (hL : 0 < L) : ε * (q * (A * Z)) ≤ ε * (ψ / (8 * L) * Z ^ 2) + ε * (q ^ 2 * (2 * L / ψ) * A ^ 2) := by
  rw [← mul_add]
  refine mul_le_mul_of_nonneg_left ?_ hε.le
  have h : 0 ≤ ψ / (8 * L) * (Z - 4 * L / ψ * q * A) ^ 2 := by positivity
  have h' : ψ / (8 * L) * (Z - 4 * L / ψ * q * A) ^ 2 = ψ / (8 * L) * Z ^ 2 - q * (A * Z) + q ^ 2 * (2 * L / ψ) * A ^ 2 := by field_simp; ring
  linarith

theorem young2 {ε ψ L κ b Z : ℝ} (hε : 0 < ε) (hψ : 0 < ψ) (hL : 0 < L) :
    ε * (ψ / 2 / L * (κ * (b * Z))) ≤ ε * (ψ / (8 * L) * Z ^ 2) + ε * (ψ / (2 * L) * κ ^ 2) * b ^ 2 := by
  have h : 0 ≤ ε * (ψ / (8 * L) * (Z - 2 * κ * b) ^ 2) := by positivity
  have h' : ε * (ψ / (8 * L) * (Z - 2 * κ * b) ^ 2) = ε * (ψ / (8 * L) * Z ^ 2) - ε * (ψ / 2 / L * (κ * (b * Z))) + ε * (ψ / (2 * L) * κ ^ 2) * b ^ 2 := by field_simp; ring
  linarith

/-- The undisturbed part. -/
theorem core_le {a : Dat} (ha : a.Ok) (A b Z : ℝ) :
    -a.R * A ^ 2 - a.ψ / 2 * a.κ * b ^ 2 + a.ε * (a.R / a.L * (A * Z)) + a.ε * (a.ψ / 2 / a.L * (a.κ * (b * Z))) - a.ε * (a.ψ / 2 / a.L * Z ^ 2)
      + a.ε * (a.B * (A * Z)) + a.ε * a.Ki * A ^ 2 ≤ -rate a * (A ^ 2 + b ^ 2 + Z ^ 2) := by
  have hL := ha.L
  have y1 := young1 (q := a.R / a.L + a.B) (A := A) (Z := Z) ha.ε ha.ψ ha.L
  have y2 := young2 (κ := a.κ) (b := b) (Z := Z) ha.ε ha.ψ ha.L
  have z1 := mul_le_mul_of_nonneg_right ha.e1 (sq_nonneg A)
  have z2 := mul_le_mul_of_nonneg_right ha.e2 (sq_nonneg b)
  have r1 : rate a ≤ a.R / 2 := (min_le_left _ _).trans (min_le_left _ _)
  have r2 : rate a ≤ a.ψ * a.κ / 4 := (min_le_left _ _).trans (min_le_right _ _)
  have r3 : rate a ≤ a.ε * (a.ψ / (4 * a.L)) := min_le_right _ _
  have m1 := mul_le_mul_of_nonneg_right r1 (sq_nonneg A)
  have m2 := mul_le_mul_of_nonneg_right r2 (sq_nonneg b)
  have m3 := mul_le_mul_of_nonneg_right r3 (sq_nonneg Z)
  have f1 : a.ε * (a.ψ / 2 / a.L * Z ^ 2) = 2 * (a.ε * (a.ψ / (4 * a.L)) * Z ^ 2) := by field_simp; ring
  have f2 : a.ε * (a.ψ / (8 * a.L) * Z ^ 2) = a.ε * (a.ψ / (4 * a.L)) * Z ^ 2 / 2 := by field_simp; ring
  have s1 : a.ε * (a.R / a.L * (A * Z)) + a.ε * (a.B * (A * Z)) = a.ε * ((a.R / a.L + a.B) * (A * Z)) := by ring
  have s2 : a.ε * ((a.R / a.L + a.B) ^ 2 * (2 * a.L / a.ψ) + a.Ki) * A ^ 2 = a.ε * ((a.R / a.L + a.B) ^ 2 * (2 * a.L / a.ψ) * A ^ 2) + a.ε * a.Ki * A ^ 2 := by ring
  have s3 : -rate a * (A ^ 2 + b ^ 2 + Z ^ 2) = -(rate a * A ^ 2) - rate a * b ^ 2 - rate a * Z ^ 2 := by ring
  have s4 : a.R / 2 * A ^ 2 = a.R * A ^ 2 / 2 := by ring
  have s5 : a.ψ * a.κ / 4 * b ^ 2 = a.ψ / 2 * a.κ * b ^ 2 / 2 := by ring
  have s6 : -a.R * A ^ 2 = -(a.R * A ^ 2) := by ring
  rw [s2, s4] at z1
  rw [s5] at z2
  rw [s4] at m1
  rw [s5] at m2
  rw [s3, s6, f1]
  rw [f2] at y1 y2
  clear r1 r2 r3 f1 f2 s2 s3 s4 s5 s6 ha hL
  generalize a.ε * ((a.R / a.L + a.B) * (A * Z)) = X1 at *
  generalize a.ε * (a.R / a.L * (A * Z)) = X2 at *
  generalize a.ε * (a.B * (A * Z)) = X3 at *
  generalize a.ε * (a.ψ / 2 / a.L * (a.κ * (b * Z))) = X4 at *
  generalize a.ε * ((a.R / a.L + a.B) ^ 2 * (2 * a.L / a.ψ) * A ^ 2) = X5 at *
  generalize a.ε * (a.ψ / (2 * a.L) * a.κ ^ 2) * b ^ 2 = X6 at *
  generalize a.ε * (a.ψ / (4 * a.L)) * Z ^ 2 = X7 at *
  generalize a.ε * a.Ki * A ^ 2 = X8 at *
  generalize a.R * A ^ 2 = X9 at *
  generalize a.ψ / 2 * a.κ * b ^ 2 = X10 at *
  generalize rate a * A ^ 2 = X11 at *
  generalize rate a * b ^ 2 = X12 at *
  generalize rate a * Z ^ 2 = X13 at *
  linarith

theorem ab_le {A b Z : ℝ} : A * b ≤ A ^ 2 + b ^ 2 + Z ^ 2 := by nlinarith [sq_nonneg (A - b), sq_nonneg Z, sq_nonneg (A + b)]

/-- The multiplicative disturbance. -/
theorem dist1_le {a : Dat} (ha : a.Ok) (e A b Z : ℝ) :
    |e| * (a.κ * (A * b) + A * Z) + a.ε * (|e| / a.L * (a.κ * (b * Z) + Z ^ 2)) ≤ |e| * gain a * (A ^ 2 + b ^ 2 + Z ^ 2) := by
  have hL := ha.L; have hψ := ha.ψ; have hκ := ha.κ; have hε := ha.ε; have hK := ha.Ki
  have pe := abs_nonneg e
  have sAb : A * b ≤ A ^ 2 + b ^ 2 + Z ^ 2 := ab_le
  have sAZ : A * Z ≤ A ^ 2 + b ^ 2 + Z ^ 2 := by have := ab_le (A := A) (b := Z) (Z := b); linarith
  have sbZ : b * Z ≤ A ^ 2 + b ^ 2 + Z ^ 2 := by have := ab_le (A := b) (b := Z) (Z := A); linarith
  have sZZ : Z ^ 2 ≤ A ^ 2 + b ^ 2 + Z ^ 2 := by linarith [sq_nonneg b, sq_nonneg A]
  have pN : 0 ≤ A ^ 2 + b ^ 2 + Z ^ 2 := by positivity
  generalize A ^ 2 + b ^ 2 + Z ^ 2 = N at *
  have q1 : |e| * (a.κ * (A * b) + A * Z) ≤ |e| * ((a.κ + 1) * N) := by
    refine mul_le_mul_of_nonneg_left ?_ pe
    have := mul_le_mul_of_nonneg_left sAb hκ.le
    linarith
  have q2 : a.ε * (|e| / a.L * (a.κ * (b * Z) + Z ^ 2)) ≤ |e| * (a.ε / a.L * (a.κ + 1) * N) := by
    have : a.κ * (b * Z) + Z ^ 2 ≤ (a.κ + 1) * N := by
      have := mul_le_mul_of_nonneg_left sbZ hκ.le
      linarith
    have h := mul_le_mul_of_nonneg_left (mul_le_mul_of_nonneg_left this (div_nonneg pe hL.le)) hε.le
    have h' : a.ε * (|e| / a.L * ((a.κ + 1) * N)) = |e| * (a.ε / a.L * (a.κ + 1) * N) := by ring
    exact h.trans h'.le
  have q3 : |e| * ((a.κ + 1) * N) + |e| * (a.ε / a.L * (a.κ + 1) * N) ≤ |e| * gain a * N := by
    have h0 : a.κ + 1 + a.ε / a.L * (a.κ + 1) ≤ gain a := by
      unfold gain
      have h1 : 0 ≤ a.ψ / 2 := by positivity
      have h2 : 0 ≤ a.ψ / 2 * a.κ := by positivity
      have h3 : 0 ≤ a.ε * a.Ki := by positivity
      have h4 : 0 ≤ a.ε / a.L := by positivity
      linarith
    have h := mul_le_mul_of_nonneg_right (mul_le_mul_of_nonneg_left h0 pe) pN
    have h' : |e| * (a.κ + 1 + a.ε / a.L * (a.κ + 1)) * N = |e| * ((a.κ + 1) * N) + |e| * (a.ε / a.L * (a.κ + 1) * N) := by ring
    exact h'.ge.trans h
  exact (add_le_add q1 q2).trans q3

/-- The additive disturbances. -/
theorem dist2_le {a : Dat} (ha : a.Ok) (A b Z D1 D2 : ℝ) (pA : 0 ≤ A) (pb : 0 ≤ b) (pZ : 0 ≤ Z) (p1 : 0 ≤ D1) (p2 : 0 ≤ D2) :
    A * D1 + a.ε * (D1 * Z / a.L) + (a.ψ / 2 * (Z * D2 + a.κ * (b * D2)) + a.ε * a.Ki * (A * D2)) ≤ gain a * (D1 + D2) * (A + b + Z) := by
  have hL := ha.L; have hψ := ha.ψ; have hκ := ha.κ; have hε := ha.ε; have hK := ha.Ki
  have hg0 : 0 ≤ a.ε / a.L * (a.κ + 1) := by positivity
  have hg1 : 0 ≤ a.ψ / 2 := by positivity
  have hg2 : 0 ≤ a.ψ / 2 * a.κ := by positivity
  have hg3 : 0 ≤ a.ε * a.Ki := by positivity
  have hg4 : 0 ≤ a.ε / a.L := by positivity
  have G1 : 1 + a.ε / a.L ≤ gain a := by unfold gain; linarith
  have G2 : a.ψ / 2 + a.ψ / 2 * a.κ + a.ε * a.Ki ≤ gain a := by unfold gain; linarith
  have q4 : A * D1 + a.ε * (D1 * Z / a.L) ≤ gain a * D1 * (A + b + Z) := by
    have h1 : A * D1 + a.ε * (D1 * Z / a.L) ≤ (1 + a.ε / a.L) * D1 * (A + b + Z) := by
      have e1 : (1 + a.ε / a.L) * D1 * (A + b + Z) - (A * D1 + a.ε * (D1 * Z / a.L)) = D1 * (b + Z) + a.ε / a.L * (D1 * (A + b)) := by ring
      have e2 : 0 ≤ D1 * (b + Z) + a.ε / a.L * (D1 * (A + b)) := by positivity
      exact sub_nonneg.1 (e1 ▸ e2)
    exact h1.trans (mul_le_mul_of_nonneg_right (mul_le_mul_of_nonneg_right G1 p1) (by positivity))
  have q5 : a.ψ / 2 * (Z * D2 + a.κ * (b * D2)) + a.ε * a.Ki * (A * D2) ≤ gain a * D2 * (A + b + Z) := by
    have h1 : a.ψ / 2 * (Z * D2 + a.κ * (b * D2)) + a.ε * a.Ki * (A * D2) ≤ (a.ψ / 2 + a.ψ / 2 * a.κ + a.ε * a.Ki) * D2 * (A + b + Z) := by
      have e1 : (a.ψ / 2 + a.ψ / 2 * a.κ + a.ε * a.Ki) * D2 * (A + b + Z) - (a.ψ / 2 * (Z * D2 + a.κ * (b * D2)) + a.ε * a.Ki * (A * D2)) =
        a.ψ / 2 * (D2 * (A + b)) + a.ψ / 2 * a.κ * (D2 * (A + Z)) + a.ε * a.Ki * (D2 * (b + Z)) := by ring
      have e2 : 0 ≤ a.ψ / 2 * (D2 * (A + b)) + a.ψ / 2 * a.κ * (D2 * (A + Z)) + a.ε * a.Ki * (D2 * (b + Z)) := by positivity
      exact sub_nonneg.1 (e1 ▸ e2)
    exact h1.trans (mul_le_mul_of_nonneg_right (mul_le_mul_of_nonneg_right G2 p2) (by positivity))
  have q6 : gain a * (D1 + D2) * (A + b + Z) = gain a * D1 * (A + b + Z) + gain a * D2 * (A + b + Z) := by ring
  rw [q6]
  exact add_le_add q4 q5

/-- The disturbed derivative: decay plus disturbances. -/
theorem lyapD_le {a : Dat} (ha : a.Ok) (W e : ℝ) (hW : |W| ≤ a.B) (d1 d2 δ u ζ : ℂ) :
    lyapD a W e d1 d2 δ u ζ ≤ -rate a * (‖δ‖ ^ 2 + ‖u‖ ^ 2 + ‖ζ‖ ^ 2) + |e| * gain a * (‖δ‖ ^ 2 + ‖u‖ ^ 2 + ‖ζ‖ ^ 2) + gain a * (‖d1‖ + ‖d2‖) * (‖δ‖ + ‖u‖ + ‖ζ‖) := by
  have hL := ha.L; have hR := ha.R; have hψ := ha.ψ; have hκ := ha.κ; have hε := ha.ε; have hK := ha.Ki; have hB := ha.B
  have pe := abs_nonneg e
  have t1 : pr δ d1 ≤ ‖δ‖ * ‖d1‖ := (le_abs_self _).trans (pr_le _ _)
  have t2 : e * (a.κ * pr δ u + pr δ ζ) ≤ |e| * (a.κ * (‖δ‖ * ‖u‖) + ‖δ‖ * ‖ζ‖) := by
    refine (le_abs_self _).trans ?_
    rw [abs_mul]
    refine mul_le_mul_of_nonneg_left ((abs_add_le _ _).trans (add_le_add ?_ (pr_le _ _))) pe
    rw [abs_mul, abs_of_pos hκ]
    exact mul_le_mul_of_nonneg_left (pr_le _ _) hκ.le
  have t3 : a.ψ / 2 * (pr ζ d2 + a.κ * pr u d2) ≤ a.ψ / 2 * (‖ζ‖ * ‖d2‖ + a.κ * (‖u‖ * ‖d2‖)) := by
    refine mul_le_mul_of_nonneg_left (add_le_add ((le_abs_self _).trans (pr_le _ _)) ?_) (by positivity)
    exact mul_le_mul_of_nonneg_left ((le_abs_self _).trans (pr_le _ _)) hκ.le
  have t4 : a.ε * (a.R / a.L * pr δ ζ) ≤ a.ε * (a.R / a.L * (‖δ‖ * ‖ζ‖)) :=
    mul_le_mul_of_nonneg_left (mul_le_mul_of_nonneg_left ((le_abs_self _).trans (pr_le _ _)) (by positivity)) hε.le
  have t5 : -(a.ε * (a.ψ / 2 / a.L * (a.κ * pr u ζ))) ≤ a.ε * (a.ψ / 2 / a.L * (a.κ * (‖u‖ * ‖ζ‖))) := by
    have h0 := (abs_le.1 (pr_le u ζ)).1
    have h : a.ε * (a.ψ / 2 / a.L * (a.κ * (-(‖u‖ * ‖ζ‖)))) ≤ a.ε * (a.ψ / 2 / a.L * (a.κ * pr u ζ)) :=
      mul_le_mul_of_nonneg_left (mul_le_mul_of_nonneg_left (mul_le_mul_of_nonneg_left h0 hκ.le) (by positivity)) hε.le
    have h' : a.ε * (a.ψ / 2 / a.L * (a.κ * (-(‖u‖ * ‖ζ‖)))) = -(a.ε * (a.ψ / 2 / a.L * (a.κ * (‖u‖ * ‖ζ‖)))) := by ring
    rw [h'] at h
    exact neg_le.1 h
  have t6 : -(a.ε * (e / a.L * (a.κ * pr u ζ + pr ζ ζ))) ≤ a.ε * (|e| / a.L * (a.κ * (‖u‖ * ‖ζ‖) + ‖ζ‖ ^ 2)) := by
    refine (neg_le_abs _).trans ?_
    rw [abs_mul, abs_of_pos hε, abs_mul, abs_div, abs_of_pos hL]
    refine mul_le_mul_of_nonneg_left (mul_le_mul_of_nonneg_left ((abs_add_le _ _).trans (add_le_add ?_ ?_)) (by positivity)) hε.le
    · rw [abs_mul, abs_of_pos hκ]
      exact mul_le_mul_of_nonneg_left (pr_le _ _) hκ.le
    · rw [pr_self, abs_of_nonneg (sq_nonneg _)]
  have t7 : -(a.ε * (pr d1 ζ / a.L)) ≤ a.ε * (‖d1‖ * ‖ζ‖ / a.L) := by
    have h0 := (abs_le.1 (pr_le d1 ζ)).1
    have h : a.ε * (-(‖d1‖ * ‖ζ‖) / a.L) ≤ a.ε * (pr d1 ζ / a.L) := mul_le_mul_of_nonneg_left (div_le_div_of_nonneg_right h0 hL.le) hε.le
    have h' : a.ε * (-(‖d1‖ * ‖ζ‖) / a.L) = -(a.ε * (‖d1‖ * ‖ζ‖ / a.L)) := by ring
    rw [h'] at h
    exact neg_le.1 h
  have t8 : a.ε * (W * pr (I * δ) ζ) ≤ a.ε * (a.B * (‖δ‖ * ‖ζ‖)) := by
    refine mul_le_mul_of_nonneg_left ((le_abs_self _).trans ?_) hε.le
    rw [abs_mul]
    refine mul_le_mul hW ((pr_le _ _).trans (le_of_eq ?_)) (abs_nonneg _) hB
    rw [norm_mul, Complex.norm_I, one_mul]
  have t9 : -(a.ε * a.Ki * pr δ d2) ≤ a.ε * a.Ki * (‖δ‖ * ‖d2‖) := by
    have h0 := (abs_le.1 (pr_le δ d2)).1
    have h : a.ε * a.Ki * (-(‖δ‖ * ‖d2‖)) ≤ a.ε * a.Ki * pr δ d2 := mul_le_mul_of_nonneg_left h0 (by positivity)
    rw [mul_neg] at h
    exact neg_le.1 h
  have hexp : lyapD a W e d1 d2 δ u ζ = -a.R * ‖δ‖ ^ 2 + pr δ d1 + e * (a.κ * pr δ u + pr δ ζ) + a.ψ / 2 * (pr ζ d2 + a.κ * pr u d2) - a.ψ / 2 * a.κ * ‖u‖ ^ 2
      + a.ε * (a.R / a.L * pr δ ζ) + -(a.ε * (a.ψ / 2 / a.L * (a.κ * pr u ζ))) - a.ε * (a.ψ / 2 / a.L * ‖ζ‖ ^ 2) + -(a.ε * (e / a.L * (a.κ * pr u ζ + pr ζ ζ)))
      + -(a.ε * (pr d1 ζ / a.L)) + a.ε * (W * pr (I * δ) ζ) + a.ε * a.Ki * ‖δ‖ ^ 2 + -(a.ε * a.Ki * pr δ d2) := by
    unfold lyapD
    rw [← pr_self δ, ← pr_self u, ← pr_self ζ]
    ring
  have c1 := core_le ha ‖δ‖ ‖u‖ ‖ζ‖
  have c2 := dist1_le ha e ‖δ‖ ‖u‖ ‖ζ‖
  have c3 := dist2_le ha ‖δ‖ ‖u‖ ‖ζ‖ ‖d1‖ ‖d2‖ (norm_nonneg _) (norm_nonneg _) (norm_nonneg _) (norm_nonneg _) (norm_nonneg _)
  rw [hexp]
  refine le_trans ?_ (add_le_add (add_le_add c1 c2) c3)
  clear c1 c2 c3 hexp
  generalize pr δ d1 = Y1 at *
  generalize e * (a.κ * pr δ u + pr δ ζ) = Y2 at *
  generalize a.ψ / 2 * (pr ζ d2 + a.κ * pr u d2) = Y3 at *
  generalize a.ε * (a.R / a.L * pr δ ζ) = Y4 at *
  generalize a.ε * (a.ψ / 2 / a.L * (a.κ * pr u ζ)) = Y5 at *
  generalize a.ε * (e / a.L * (a.κ * pr u ζ + pr ζ ζ)) = Y6 at *
  generalize a.ε * (pr d1 ζ / a.L) = Y7 at *
  generalize a.ε * (W * pr (I * δ) ζ) = Y8 at *
  generalize a.ε * a.Ki * pr δ d2 = Y9 at *
  generalize -a.R * ‖δ‖ ^ 2 = Q1 at *
  generalize a.ψ / 2 * a.κ * ‖u‖ ^ 2 = Q2 at *
  generalize a.ε * (a.ψ / 2 / a.L * ‖ζ‖ ^ 2) = Q3 at *
  generalize a.ε * a.Ki * ‖δ‖ ^ 2 = Q4 at *
  generalize ‖δ‖ * ‖d1‖ = B1 at *
  generalize |e| * (a.κ * (‖δ‖ * ‖u‖) + ‖δ‖ * ‖ζ‖) = B2 at *
  generalize a.ψ / 2 * (‖ζ‖ * ‖d2‖ + a.κ * (‖u‖ * ‖d2‖)) = B3 at *
  generalize a.ε * (a.R / a.L * (‖δ‖ * ‖ζ‖)) = B4 at *
  generalize a.ε * (a.ψ / 2 / a.L * (a.κ * (‖u‖ * ‖ζ‖))) = B5 at *
  generalize a.ε * (|e| / a.L * (a.κ * (‖u‖ * ‖ζ‖) + ‖ζ‖ ^ 2)) = B6 at *
  generalize a.ε * (‖d1‖ * ‖ζ‖ / a.L) = B7 at *
  generalize a.ε * (a.B * (‖δ‖ * ‖ζ‖)) = B8 at *
  generalize a.ε * a.Ki * (‖δ‖ * ‖d2‖) = B9 at *
  clear hL hR hψ hκ hε hK hB pe hW ha
  linarith

/-- One phase: current and filtered current error converge, the integrator converges to the duty cycle that balances the terminal voltage and the drop. -/
theorem phase {Lf Rf Kp Ki wp : ℝ} (hL : 0 < Lf) (hR : 0 < Rf) (hKi : 0 < Ki) (hwp : 0 < wp) (hg : Ki < Kp * wp) {V W : ℝ → ℝ} {v r i x u : ℝ → ℂ} {ψ W' : ℝ} {v' r' : ℂ}
    (hψ : 0 < ψ) (h : ∀ᶠ t in atTop, Defect.Phase Lf Rf Kp Ki wp V W v r i x u t)
    (hV : Tendsto V atTop (𝓝 ψ)) (hW : Tendsto W atTop (𝓝 W')) (hv : Tendsto v atTop (𝓝 v')) (hr : Tendsto r atTop (𝓝 r')) :
    Tendsto i atTop (𝓝 r') ∧ Tendsto u atTop (𝓝 0) ∧
    Tendsto x atTop (𝓝 (((2 / ψ : ℝ) : ℂ) * (v' + ((Rf : ℂ) + I * (Lf : ℂ) * (W' : ℂ)) * r'))) := by
  set X := ((2 / ψ : ℝ) : ℂ) * (v' + ((Rf : ℂ) + I * (Lf : ℂ) * (W' : ℂ)) * r') with hX
  set κ := Kp - Ki / wp with hκ
  have hκ0 : 0 < κ := by
    have : Ki / wp < Kp := (div_lt_iff₀ hwp).2 hg
    linarith
  obtain ⟨ε, ha⟩ := exists_eps Lf Rf Ki wp κ ψ (|W'| + 1) hL hR hKi hwp hκ0 hψ (by positivity)
  set a : Dat := ⟨Lf, Rf, Ki, wp, κ, ψ, |W'| + 1, ε⟩ with haD
  set δ : ℝ → ℂ := fun t => i t - r' with hδ
  set ζ : ℝ → ℂ := fun t => x t - X + ((Ki / wp : ℝ) : ℂ) * u t with hζ
  set d1 : ℝ → ℂ := fun t => -(Rf : ℂ) * r' - v t + ((V t / 2 : ℝ) : ℂ) * X - (Lf : ℂ) * (I * (W t : ℂ)) * r' with hd1
  set d2 : ℝ → ℂ := fun t => r t - r' with hd2
  set e : ℝ → ℝ := fun t => V t / 2 - ψ / 2 with he
  have hVc : Tendsto (fun t => ((V t / 2 : ℝ) : ℂ)) atTop (𝓝 ((ψ / 2 : ℝ) : ℂ)) := (Complex.continuous_ofReal.tendsto _).comp (hV.div_const 2)
  have hWc : Tendsto (fun t => (W t : ℂ)) atTop (𝓝 (W' : ℂ)) := (Complex.continuous_ofReal.tendsto _).comp hW
  have l1 : Tendsto d1 atTop (𝓝 0) := by
    have := ((hv.const_sub (-(Rf : ℂ) * r')).add (hVc.mul_const X)).sub ((((hWc.const_mul I).const_mul (Lf : ℂ))).mul_const r')
    have e0 : -(Rf : ℂ) * r' - v' + ((ψ / 2 : ℝ) : ℂ) * X - (Lf : ℂ) * (I * (W' : ℂ)) * r' = 0 := by
      have hψc : (ψ : ℂ) ≠ 0 := by exact_mod_cast hψ.ne'
      rw [hX]; push_cast; field_simp; ring
    rw [e0] at this
    exact this
  have l2 : Tendsto d2 atTop (𝓝 0) := by
    have := hr.sub_const r'
    rwa [sub_self] at this
  have l3 : Tendsto e atTop (𝓝 0) := by
    have := (hV.div_const 2).sub_const (ψ / 2)
    rwa [sub_self] at this
  have hLc : (Lf : ℂ) ≠ 0 := by exact_mod_cast hL.ne'
  have hwc : (wp : ℂ) ≠ 0 := by exact_mod_cast hwp.ne'
  have hder : ∀ᶠ t in atTop, HasDerivAt (fun s => lyap a (δ s) (u s) (ζ s)) (lyapD a (W t) (e t) (d1 t) (d2 t) (δ t) (u t) (ζ t)) t := by
    filter_upwards [h] with t k
    refine lyap_deriv ha ((k.di.sub_const r').congr_deriv ?_) (k.du.congr_deriv ?_) (((k.dx.sub_const X).add (k.du.const_mul ((Ki / wp : ℝ) : ℂ))).congr_deriv ?_)
    · simp only [hd1, hδ, hζ, he, haD, hκ]
      push_cast
      field_simp
      ring
    · simp only [hd2, hδ, haD]; ring
    · simp only [hd2, hδ, haD]; push_cast; field_simp; ring
  have hWb : ∀ᶠ t in atTop, |W t| ≤ |W'| + 1 := ((continuous_abs.tendsto _).comp hW).eventually (ge_mem_nhds (by linarith))
  have hrate := rate_pos ha
  have heb : ∀ᶠ t in atTop, |e t| * gain a ≤ rate a / 4 := by
    have : Tendsto (fun t => |e t| * gain a) atTop (𝓝 (|0| * gain a)) := ((continuous_abs.tendsto _).comp l3).mul_const _
    rw [abs_zero, zero_mul] at this
    exact this.eventually (ge_mem_nhds (by positivity))
  set M := 3 * a.L / 4 + 3 * a.ψ / (8 * a.Ki) + a.ψ * a.κ / (4 * a.wp) with hM
  have m1 : 0 < 3 * a.L / 4 := by have : 0 < a.L := hL; positivity
  have m2 : 0 < 3 * a.ψ / (8 * a.Ki) := by have : 0 < a.ψ := hψ; have : 0 < a.Ki := hKi; positivity
  have m3 : 0 < a.ψ * a.κ / (4 * a.wp) := by have : 0 < a.ψ := hψ; have : 0 < a.κ := hκ0; have : 0 < a.wp := hwp; positivity
  have hM0 : 0 < M := by linarith
  have hEM : ∀ δ u ζ : ℂ, lyap a δ u ζ ≤ M * (‖δ‖ ^ 2 + ‖u‖ ^ 2 + ‖ζ‖ ^ 2) := by
    intro δ u ζ
    refine (lyap_bounds ha δ u ζ).2.trans ?_
    have p1 := sq_nonneg ‖δ‖; have p2 := sq_nonneg ‖u‖; have p3 := sq_nonneg ‖ζ‖
    rw [hM]
    have := mul_nonneg m1.le p2; have := mul_nonneg m1.le p3; have := mul_nonneg m2.le p1; have := mul_nonneg m2.le p2; have := mul_nonneg m3.le p1; have := mul_nonneg m3.le p3
    linarith
  have hlo : ∀ δ u ζ : ℂ, 0 ≤ lyap a δ u ζ := by
    intro δ u ζ
    refine le_trans ?_ (lyap_bounds ha δ u ζ).1
    have : 0 < a.ψ := hψ; have : 0 < a.Ki := hKi; have : 0 < a.κ := hκ0; have : 0 < a.wp := hwp; have : 0 < a.L := hL
    positivity
  have hE0 : Tendsto (fun t => lyap a (δ t) (u t) (ζ t)) atTop (𝓝 0) := by
    refine decay0 (a := rate a / (2 * M)) (η := fun t => 3 * (gain a * (‖d1 t‖ + ‖d2 t‖)) ^ 2 / rate a) (by positivity) (fun t => hlo _ _ _) hder ?_ ?_
    · filter_upwards [hWb, heb] with t w1 w2
      refine (lyapD_le ha (W t) (e t) w1 (d1 t) (d2 t) (δ t) (u t) (ζ t)).trans ?_
      have k1 := hEM (δ t) (u t) (ζ t)
      generalize lyap a (δ t) (u t) (ζ t) = E at *
      generalize gain a * (‖d1 t‖ + ‖d2 t‖) = G at *
      have k2 : (‖δ t‖ + ‖u t‖ + ‖ζ t‖) ^ 2 ≤ 3 * (‖δ t‖ ^ 2 + ‖u t‖ ^ 2 + ‖ζ t‖ ^ 2) := by
        nlinarith [sq_nonneg (‖δ t‖ - ‖u t‖), sq_nonneg (‖δ t‖ - ‖ζ t‖), sq_nonneg (‖u t‖ - ‖ζ t‖)]
      have k3 : 0 ≤ ‖δ t‖ ^ 2 + ‖u t‖ ^ 2 + ‖ζ t‖ ^ 2 := by positivity
      generalize ‖δ t‖ ^ 2 + ‖u t‖ ^ 2 + ‖ζ t‖ ^ 2 = N at *
      generalize ‖δ t‖ + ‖u t‖ + ‖ζ t‖ = S at *
      have k4 : |e t| * gain a * N ≤ rate a / 4 * N := mul_le_mul_of_nonneg_right w2 k3
      have k5 : G * S ≤ rate a / 12 * S ^ 2 + 3 * G ^ 2 / rate a := by
        have q : 0 ≤ rate a / 12 * (S - 6 * G / rate a) ^ 2 := by positivity
        have q' : rate a / 12 * (S - 6 * G / rate a) ^ 2 = rate a / 12 * S ^ 2 - G * S + 3 * G ^ 2 / rate a := by
          have := hrate.ne'
          field_simp; ring
        linarith
      have k6 : rate a / 12 * S ^ 2 ≤ rate a / 4 * N := by
        have := mul_le_mul_of_nonneg_left k2 (show 0 ≤ rate a / 12 by positivity)
        linarith
      have k7 : rate a / (2 * M) * E ≤ rate a / 2 * N := by
        have := mul_le_mul_of_nonneg_left k1 (show 0 ≤ rate a / (2 * M) by positivity)
        have q : rate a / (2 * M) * (M * N) = rate a / 2 * N := by field_simp
        linarith
      have k8 : -(rate a / (2 * M)) * E = -(rate a / (2 * M) * E) := by ring
      rw [k8]
      linarith
    · have n1 : Tendsto (fun t => ‖d1 t‖) atTop (𝓝 0) := by simpa using l1.norm
      have n2 : Tendsto (fun t => ‖d2 t‖) atTop (𝓝 0) := by simpa using l2.norm
      have := ((((n1.add n2).const_mul (gain a)).pow 2).const_mul 3).div_const (rate a)
      simpa using this
  -- from the Lyapunov function to the states
  have sq0 : ∀ {f : ℝ → ℂ} {c : ℝ}, 0 < c → (∀ t, c * ‖f t‖ ^ 2 ≤ lyap a (δ t) (u t) (ζ t)) → Tendsto f atTop (𝓝 0) := by
    intro f c hc hle
    rw [tendsto_zero_iff_norm_tendsto_zero]
    have h1 : Tendsto (fun t => ‖f t‖ ^ 2) atTop (𝓝 0) := by
      refine squeeze_zero (fun t => sq_nonneg _) (fun t => (le_div_iff₀' hc).2 (hle t)) ?_
      have := hE0.div_const c
      rwa [zero_div] at this
    have h2 := (Real.continuous_sqrt.tendsto _).comp h1
    rw [Real.sqrt_zero] at h2
    exact h2.congr (fun t => by simp)
  have cL : 0 < a.L / 4 := by have : 0 < a.L := hL; positivity
  have cK : 0 < a.ψ / (8 * a.Ki) := by have : 0 < a.ψ := hψ; have : 0 < a.Ki := hKi; positivity
  have δ0 : Tendsto δ atTop (𝓝 0) := sq0 cL (fun t => by
    have h1 := (lyap_bounds ha (δ t) (u t) (ζ t)).1
    have h2 := mul_nonneg cK.le (sq_nonneg ‖ζ t‖); have h3 := mul_nonneg m3.le (sq_nonneg ‖u t‖)
    linarith)
  have u0 : Tendsto u atTop (𝓝 0) := sq0 m3 (fun t => by
    have h1 := (lyap_bounds ha (δ t) (u t) (ζ t)).1
    have h2 := mul_nonneg cK.le (sq_nonneg ‖ζ t‖); have h3 := mul_nonneg cL.le (sq_nonneg ‖δ t‖)
    linarith)
  have ζ0 : Tendsto ζ atTop (𝓝 0) := sq0 cK (fun t => by
    have h1 := (lyap_bounds ha (δ t) (u t) (ζ t)).1
    have h2 := mul_nonneg m3.le (sq_nonneg ‖u t‖); have h3 := mul_nonneg cL.le (sq_nonneg ‖δ t‖)
    linarith)
  refine ⟨?_, u0, ?_⟩
  · have := δ0.add_const r'
    rw [zero_add] at this
    exact this.congr (fun t => by simp [hδ])
  · have := (ζ0.sub (u0.const_mul ((Ki / wp : ℝ) : ℂ))).add_const X
    rw [mul_zero, sub_zero, zero_add] at this
    exact this.congr (fun t => by simp [hζ])

end Track
end PvDer
