import Verif.Lemmas.LocStab
import Mathlib.Analysis.SpecialFunctions.Trigonometric.Bounds
import Mathlib.Tactic.GCongr
import Mathlib.Analysis.SpecialFunctions.Exp
import Mathlib.Tactic.FieldSimp

/-!
# First and second order terms in the deviations

Bookkeeping for `lyapunovW`: functions of the deviations that vanish to first (`O1`) or second (`O2`) order at the operating point.
-/

namespace PvDer
namespace LocStab

variable {ι : Type} [Fintype ι]

/-- At most proportional to the deviation, near the operating point. -/
def O1 (f : (ι → ℝ) → ℝ) : Prop := ∃ C, 0 ≤ C ∧ ∃ η, 0 < η ∧ ∀ z, ‖z‖ ≤ η → |f z| ≤ C * ‖z‖
/-- At most proportional to the squared deviation, near the operating point. -/
def O2 (f : (ι → ℝ) → ℝ) : Prop := ∃ C, 0 ≤ C ∧ ∃ η, 0 < η ∧ ∀ z, ‖z‖ ≤ η → |f z| ≤ C * ‖z‖ ^ 2
/-- True of all sufficiently small deviations. -/
def Near (Q : (ι → ℝ) → Prop) : Prop := ∃ η, 0 < η ∧ ∀ z, ‖z‖ ≤ η → Q z

theorem Near.and {Q Q' : (ι → ℝ) → Prop} (h : Near Q) (h' : Near Q') : Near (fun z => Q z ∧ Q' z) := by
  obtain ⟨a, ha, k⟩ := h
  obtain ⟨b, hb, k'⟩ := h'
  exact ⟨min a b, lt_min ha hb, fun z hz => ⟨k z (hz.trans (min_le_left _ _)), k' z (hz.trans (min_le_right _ _))⟩⟩

theorem Near.mono {Q Q' : (ι → ℝ) → Prop} (h : Near Q) (i : ∀ z, Q z → Q' z) : Near Q' := by
  obtain ⟨a, ha, k⟩ := h
  exact ⟨a, ha, fun z hz => i z (k z hz)⟩

theorem Near.all {κ : Type} [Fintype κ] {Q : κ → (ι → ℝ) → Prop} (h : ∀ j, Near (Q j)) : Near (fun z => ∀ j, Q j z) := by
  choose a ha k using h
  by_cases hk : Nonempty κ
  · refine ⟨Finset.univ.inf' Finset.univ_nonempty a, (Finset.lt_inf'_iff _).2 (fun j _ => ha j), fun z hz j => k j z (hz.trans (Finset.inf'_le a (Finset.mem_univ j)))⟩
  · exact ⟨1, one_pos, fun z _ j => absurd ⟨j⟩ hk⟩

theorem O1.coord (i : ι) : O1 (fun z : ι → ℝ => z i) :=
  ⟨1, zero_le_one, 1, one_pos, fun z _ => by rw [one_mul]; exact norm_le_pi_norm z i⟩

theorem O1.zero : O1 (fun _ : ι → ℝ => 0) := ⟨0, le_refl _, 1, one_pos, fun z _ => by simp⟩
theorem O2.zero : O2 (fun _ : ι → ℝ => 0) := ⟨0, le_refl _, 1, one_pos, fun z _ => by simp⟩

variable {f g : (ι → ℝ) → ℝ}

theorem O1.add (hf : O1 f) (hg : O1 g) : O1 (fun z => f z + g z) := by
  obtain ⟨C, hC, a, ha, k⟩ := hf
  obtain ⟨C', hC', b, hb, k'⟩ := hg
  refine ⟨C + C', by positivity, min a b, lt_min ha hb, fun z hz => ?_⟩
  have := k z (hz.trans (min_le_left _ _))
  have := k' z (hz.trans (min_le_right _ _))
  have := abs_add_le (f z) (g z)
  linarith

theorem O2.add (hf : O2 f) (hg : O2 g) : O2 (fun z => f z + g z) := by
  obtain ⟨C, hC, a, ha, k⟩ := hf
  obtain ⟨C', hC', b, hb, k'⟩ := hg
  refine ⟨C + C', by positivity, min a b, lt_min ha hb, fun z hz => ?_⟩
  have := k z (hz.trans (min_le_left _ _))
  have := k' z (hz.trans (min_le_right _ _))
  have := abs_add_le (f z) (g z)
  linarith

theorem O1.smul (c : ℝ) (hf : O1 f) : O1 (fun z => c * f z) := by
  obtain ⟨C, hC, a, ha, k⟩ := hf
  refine ⟨|c| * C, by positivity, a, ha, fun z hz => ?_⟩
  rw [abs_mul, mul_assoc]
  exact mul_le_mul_of_nonneg_left (k z hz) (abs_nonneg c)

theorem O2.smul (c : ℝ) (hf : O2 f) : O2 (fun z => c * f z) := by
  obtain ⟨C, hC, a, ha, k⟩ := hf
  refine ⟨|c| * C, by positivity, a, ha, fun z hz => ?_⟩
  rw [abs_mul, mul_assoc]
  exact mul_le_mul_of_nonneg_left (k z hz) (abs_nonneg c)

theorem O1.neg (hf : O1 f) : O1 (fun z => -f z) := by
  have := hf.smul (-1)
  simpa using this

theorem O2.neg (hf : O2 f) : O2 (fun z => -f z) := by
  have := hf.smul (-1)
  simpa using this

theorem O1.sub (hf : O1 f) (hg : O1 g) : O1 (fun z => f z - g z) := by
  simpa [sub_eq_add_neg] using hf.add hg.neg

theorem O2.sub (hf : O2 f) (hg : O2 g) : O2 (fun z => f z - g z) := by
  simpa [sub_eq_add_neg] using hf.add hg.neg

theorem O1.mul (hf : O1 f) (hg : O1 g) : O2 (fun z => f z * g z) := by
  obtain ⟨C, hC, a, ha, k⟩ := hf
  obtain ⟨C', hC', b, hb, k'⟩ := hg
  refine ⟨C * C', by positivity, min a b, lt_min ha hb, fun z hz => ?_⟩
  have h1 := k z (hz.trans (min_le_left _ _))
  have h2 := k' z (hz.trans (min_le_right _ _))
  rw [abs_mul]
  calc |f z| * |g z| ≤ (C * ‖z‖) * (C' * ‖z‖) := by gcongr
    _ = C * C' * ‖z‖ ^ 2 := by ring

theorem O2.O1 (hf : O2 f) : O1 f := by
  obtain ⟨C, hC, a, ha, k⟩ := hf
  refine ⟨C, hC, min a 1, lt_min ha one_pos, fun z hz => ?_⟩
  have h1 := k z (hz.trans (min_le_left _ _))
  have h2 : ‖z‖ ≤ 1 := hz.trans (min_le_right _ _)
  refine h1.trans ?_
  gcongr
  nlinarith [norm_nonneg z]

theorem O1.small (hf : O1 f) {ε : ℝ} (hε : 0 < ε) : Near (fun z => |f z| < ε) := by
  obtain ⟨C, hC, a, ha, k⟩ := hf
  refine ⟨min a (ε / (C + 1)), lt_min ha (by positivity), fun z hz => ?_⟩
  have h1 := k z (hz.trans (min_le_left _ _))
  have h2 : ‖z‖ ≤ ε / (C + 1) := hz.trans (min_le_right _ _)
  rw [le_div_iff₀ (by positivity)] at h2
  by_cases h0 : ‖z‖ = 0
  · rw [h0, mul_zero] at h1; linarith
  · have : 0 < ‖z‖ := lt_of_le_of_ne (norm_nonneg z) (Ne.symm h0)
    nlinarith

theorem O1.abs (hf : O1 f) : O1 (fun z => |f z|) := by
  obtain ⟨C, hC, a, ha, k⟩ := hf
  exact ⟨C, hC, a, ha, fun z hz => by rw [abs_abs]; exact k z hz⟩

theorem O1.sin (hf : O1 f) : O1 (fun z => Real.sin (f z)) := by
  obtain ⟨C, hC, a, ha, k⟩ := hf
  exact ⟨C, hC, a, ha, fun z hz => (Real.abs_sin_le_abs).trans (k z hz)⟩

/-- The sine to second order. -/
theorem O2.sin (hf : LocStab.O1 f) : O2 (fun z => Real.sin (f z) - f z) := by
  obtain ⟨b, hb, k'⟩ := hf.small one_pos
  obtain ⟨C, hC, a, ha, k⟩ := hf
  refine ⟨C ^ 2, by positivity, min a b, lt_min ha hb, fun z hz => ?_⟩
  have h1 := k z (hz.trans (min_le_left _ _))
  have h2 := (k' z (hz.trans (min_le_right _ _))).le
  have h3 := Real.sin_bound h2
  beta_reduce
  generalize f z = x at *
  have h4 : |x| ^ 3 ≤ |x| ^ 2 := pow_le_pow_of_le_one (abs_nonneg x) h2 (by norm_num)
  have h5 : |x| ^ 5 ≤ |x| ^ 2 := pow_le_pow_of_le_one (abs_nonneg x) h2 (by norm_num)
  have h6 : |Real.sin x - x| ≤ |Real.sin x - (x - x ^ 3 / 6)| + |x ^ 3 / 6| := by
    have := abs_add_le (Real.sin x - (x - x ^ 3 / 6)) (-(x ^ 3 / 6))
    rw [abs_neg, show Real.sin x - (x - x ^ 3 / 6) + -(x ^ 3 / 6) = Real.sin x - x by ring] at this
    exact this
  rw [abs_div, abs_pow] at h6
  have h7 : |x| ^ 2 ≤ (C * ‖z‖) ^ 2 := by gcongr
  have : |(6 : ℝ)| = 6 := by norm_num
  rw [this] at h6
  have h8 : 0 ≤ |x| ^ 2 := by positivity
  rw [mul_pow] at h7
  linarith

theorem O1.congr (hf : O1 f) (h : ∀ z, g z = f z) : O1 g := by rwa [show g = f from funext h]
theorem O2.congr (hf : O2 f) (h : ∀ z, g z = f z) : O2 g := by rwa [show g = f from funext h]

/-- A smooth function of a first order quantity, to second order. -/
theorem O2.comp {F : ℝ → ℝ} {x₀ F' B r : ℝ} (hr : 0 < r) (hB : 0 ≤ B) (hF : ∀ s, |s| ≤ r → |F (x₀ + s) - F x₀ - F' * s| ≤ B * s ^ 2) (hf : LocStab.O1 f) :
    O2 (fun z => F (x₀ + f z) - F x₀ - F' * f z) := by
  obtain ⟨b, hb, k'⟩ := hf.small hr
  obtain ⟨C, hC, a, ha, k⟩ := hf
  refine ⟨B * C ^ 2, by positivity, min a b, lt_min ha hb, fun z hz => ?_⟩
  have h1 := k z (hz.trans (min_le_left _ _))
  have h2 := (k' z (hz.trans (min_le_right _ _))).le
  refine (hF _ h2).trans ?_
  rw [← sq_abs]
  calc B * |f z| ^ 2 ≤ B * (C * ‖z‖) ^ 2 := by gcongr
    _ = B * C ^ 2 * ‖z‖ ^ 2 := by ring

/-- Local exponential stability from an energy, when the rows are linear up to second order near the operating point. -/
theorem stable {κ κ' : Type} [Fintype κ] [Fintype κ'] (w : κ → ℝ) (hw : ∀ j, 0 < w j) (ℓ : (ι → ℝ) → κ → ℝ) (hℓ : IsLinearMap ℝ ℓ) (inj : ∀ z, (∀ j, ℓ z j = 0) → z = 0)
    (m : (ι → ℝ) → κ' → ℝ) (hm : IsLinearMap ℝ m) (injm : ∀ z, (∀ j, m z j = 0) → z = 0) (A : (ι → ℝ) → ι → ℝ) {c : ℝ} (hc : 0 < c)
    (dis : ∀ z, ∑ j, 2 * w j * ℓ z j * ℓ (A z) j ≤ -c * ∑ j, (m z j) ^ 2) (Rm : ι → (ι → ℝ) → ℝ) (hR : ∀ i, O2 (Rm i)) {Q : (ι → ℝ) → Prop} (hQ : Near Q) :
    ∃ δ > 0, ∃ M > 0, ∃ a > 0, ∀ z z' : ℝ → ι → ℝ, (∀ t, 0 ≤ t → ∀ i, HasDerivAt (fun s => z s i) (z' t i) t) →
      (∀ t, 0 ≤ t → Q (z t) → ∀ i, z' t i = A (z t) i + Rm i (z t)) → ‖z 0‖ ≤ δ → ∀ t, 0 ≤ t → ‖z t‖ ≤ M * ‖z 0‖ * Real.exp (-a * t) := by
  choose C hC a ha k using hR
  have hN : Near (fun z => ∀ i, |Rm i z| ≤ C i * ‖z‖ ^ 2) := Near.all (fun i => ⟨a i, ha i, k i⟩)
  obtain ⟨η0, hη0, h⟩ := hQ.and hN
  obtain ⟨δ, hδ, M, hM, α, hα, main⟩ := lyapunovW w hw ℓ hℓ inj m hm injm A hc dis (∑ i, C i) η0 hη0
  refine ⟨δ, hδ, M, hM, α, hα, fun z z' hd hr h0 => main z z' hd (fun t ht hz i => ?_) h0⟩
  obtain ⟨q, n⟩ := h _ hz
  rw [hr t ht q i, add_sub_cancel_left]
  refine (n i).trans ?_
  gcongr
  exact Finset.single_le_sum (f := C) (fun j _ => hC j) (Finset.mem_univ i)

/-- `F` is `F V + F' s` up to second order near `V`. -/
def Smooth (F : ℝ → ℝ) (V F' : ℝ) : Prop := ∃ B, 0 ≤ B ∧ ∃ r, 0 < r ∧ ∀ s, |s| ≤ r → |F (V + s) - F V - F' * s| ≤ B * s ^ 2

theorem Smooth.O2 {F : ℝ → ℝ} {V F' : ℝ} (h : Smooth F V F') (hf : LocStab.O1 f) : LocStab.O2 (fun z => F (V + f z) - F V - F' * f z) := by
  obtain ⟨B, hB, r, hr, k⟩ := h
  exact O2.comp hr hB k hf

theorem Smooth.near {F : ℝ → ℝ} {V F' : ℝ} (h : Smooth F V F') {ε : ℝ} (hε : 0 < ε) : ∃ r, 0 < r ∧ ∀ s, |s| ≤ r → |F (V + s) - F V| < ε := by
  obtain ⟨B, hB, r, hr, k⟩ := h
  refine ⟨min (min r 1) (ε / (B + |F'| + 1)), lt_min (lt_min hr one_pos) (by positivity), fun s hs => ?_⟩
  have h1 := k s (hs.trans ((min_le_left _ _).trans (min_le_left _ _)))
  have h2 : |s| ≤ 1 := hs.trans ((min_le_left _ _).trans (min_le_right _ _))
  have h3 : |s| ≤ ε / (B + |F'| + 1) := hs.trans (min_le_right _ _)
  rw [le_div_iff₀ (by positivity)] at h3
  have h4 : |F (V + s) - F V| ≤ |F (V + s) - F V - F' * s| + |F' * s| := by
    have := abs_add_le (F (V + s) - F V - F' * s) (F' * s)
    rwa [sub_add_cancel] at this
  rw [abs_mul] at h4
  have h5 : B * s ^ 2 ≤ B * |s| := by
    rw [← sq_abs]
    gcongr
    nlinarith [abs_nonneg s]
  rcases (abs_nonneg s).eq_or_lt with h6 | h6
  · rw [← h6] at h4 h5
    linarith
  · nlinarith

theorem Smooth.congr {F G : ℝ → ℝ} {V F' : ℝ} (h : Smooth F V F') {r : ℝ} (hr : 0 < r) (e : ∀ s, |s| ≤ r → G (V + s) = F (V + s)) : Smooth G V F' := by
  obtain ⟨B, hB, r', hr', k⟩ := h
  refine ⟨B, hB, min r r', lt_min hr hr', fun s hs => ?_⟩
  have e0 := e 0 (by simpa using hr.le)
  rw [add_zero] at e0
  rw [e s (hs.trans (min_le_left _ _)), e0]
  exact k s (hs.trans (min_le_right _ _))

/-- A positive quantity is not clipped at zero. -/
theorem Smooth.max_zero {F : ℝ → ℝ} {V F' : ℝ} (h : Smooth F V F') (hp : 0 < F V) : Smooth (fun x => max 0 (F x)) V F' := by
  obtain ⟨r, hr, k⟩ := h.near hp
  refine h.congr hr (fun s hs => max_eq_right ?_)
  have := (abs_lt.1 (k s hs)).1
  linarith

theorem Smooth.const_mul {F : ℝ → ℝ} {V F' : ℝ} (c : ℝ) (h : Smooth F V F') : Smooth (fun x => c * F x) V (c * F') := by
  obtain ⟨B, hB, r, hr, k⟩ := h
  refine ⟨|c| * B, by positivity, r, hr, fun s hs => ?_⟩
  rw [show c * F (V + s) - c * F V - c * F' * s = c * (F (V + s) - F V - F' * s) by ring, abs_mul, mul_assoc]
  exact mul_le_mul_of_nonneg_left (k s hs) (abs_nonneg c)

/-- Rescaled argument. -/
theorem Smooth.scale {F : ℝ → ℝ} {V F' : ℝ} (c : ℝ) (h : Smooth F (V * c) F') : Smooth (fun x => F (x * c)) V (c * F') := by
  obtain ⟨B, hB, r, hr, k⟩ := h
  refine ⟨B * c ^ 2, by positivity, r / (|c| + 1), by positivity, fun s hs => ?_⟩
  rw [le_div_iff₀ (by positivity)] at hs
  have h1 : |s * c| ≤ r := by
    rw [abs_mul]
    nlinarith [abs_nonneg s]
  have := k (s * c) h1
  beta_reduce
  rw [show (V + s) * c = V * c + s * c by ring, show c * F' * s = F' * (s * c) by ring, show B * c ^ 2 * s ^ 2 = B * (s * c) ^ 2 by ring]
  exact this

/-- Division by the argument. -/
theorem Smooth.div_self {F : ℝ → ℝ} {V F' : ℝ} (hV : 0 < V) (h : Smooth F V F') : Smooth (fun x => F x / x) V (F' / V - F V / V ^ 2) := by
  obtain ⟨B, hB, r, hr, k⟩ := h
  refine ⟨(B + |F' / V - F V / V ^ 2|) * (2 / V), by positivity, min r (V / 2), lt_min hr (by positivity), fun s hs => ?_⟩
  have h1 := k s (hs.trans (min_le_left _ _))
  have h2 := abs_le.1 (hs.trans (min_le_right _ _))
  have hs' : V / 2 ≤ V + s := by linarith
  have p : 0 < V + s := by linarith
  have e : F (V + s) / (V + s) - F V / V - (F' / V - F V / V ^ 2) * s = ((F (V + s) - F V - F' * s) - (F' / V - F V / V ^ 2) * s ^ 2) / (V + s) := by
    field_simp
    ring
  beta_reduce
  rw [e, abs_div, abs_of_pos p, div_le_iff₀ p]
  have h3 : |F (V + s) - F V - F' * s - (F' / V - F V / V ^ 2) * s ^ 2| ≤ (B + |F' / V - F V / V ^ 2|) * s ^ 2 := by
    refine (abs_sub _ _).trans ?_
    rw [abs_mul, abs_of_nonneg (sq_nonneg s), add_mul]
    gcongr
  refine h3.trans ?_
  have h4 : 1 ≤ 2 / V * (V + s) := by
    rw [div_mul_eq_mul_div, le_div_iff₀ hV]
    linarith
  have h5 : 0 ≤ (B + |F' / V - F V / V ^ 2|) * s ^ 2 := by positivity
  calc (B + |F' / V - F V / V ^ 2|) * s ^ 2 ≤ (B + |F' / V - F V / V ^ 2|) * s ^ 2 * (2 / V * (V + s)) := le_mul_of_one_le_right h5 h4
    _ = _ := by ring

/-- The power of a photovoltaic characteristic. -/
theorem smooth_pv (a b c V : ℝ) : Smooth (fun x => (a - b * (Real.exp (c * x) - 1)) * x) V (a - b * (Real.exp (c * V) - 1) - b * Real.exp (c * V) * c * V) := by
  refine ⟨|b * Real.exp (c * V)| * (c ^ 2 * (|V| + 1) + |c|), by positivity, min 1 (1 / (|c| + 1)), lt_min one_pos (by positivity), fun s hs => ?_⟩
  have h1 : |s| ≤ 1 := hs.trans (min_le_left _ _)
  have h2 : |s| ≤ 1 / (|c| + 1) := hs.trans (min_le_right _ _)
  rw [le_div_iff₀ (by positivity)] at h2
  have h3 : |c * s| ≤ 1 := by
    rw [abs_mul]; nlinarith [abs_nonneg s]
  have h4 := Real.abs_exp_sub_one_sub_id_le h3
  have e : (a - b * (Real.exp (c * (V + s)) - 1)) * (V + s) - (a - b * (Real.exp (c * V) - 1)) * V - (a - b * (Real.exp (c * V) - 1) - b * Real.exp (c * V) * c * V) * s =
      -(b * Real.exp (c * V)) * ((Real.exp (c * s) - 1 - c * s) * (V + s) + c * s ^ 2) := by
    rw [mul_add c V s, Real.exp_add]
    ring
  beta_reduce
  rw [e, abs_mul, abs_neg, mul_assoc]
  gcongr
  refine (abs_add_le _ _).trans ?_
  rw [abs_mul, abs_mul, abs_of_nonneg (sq_nonneg s), add_mul]
  refine add_le_add_left ?_ _
  have h5 : |V + s| ≤ |V| + 1 := (abs_add_le _ _).trans (by linarith)
  calc |Real.exp (c * s) - 1 - c * s| * |V + s| ≤ (c * s) ^ 2 * (|V| + 1) := by gcongr
    _ = c ^ 2 * (|V| + 1) * s ^ 2 := by ring

end LocStab
end PvDer
