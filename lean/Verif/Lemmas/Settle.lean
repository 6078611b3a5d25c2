import Verif.Lemmas.PhaseDefect
import Verif.Model.Ode
import Mathlib.Tactic.FunProp

/-!
# Limits of solutions of differential equations are rest points
-/

namespace PvDer
namespace Settle
open Filter Topology Complex

/-- If a function and its derivative both converge, the derivative converges to zero. -/
theorem lim0 {f f' : ℝ → ℝ} {a b : ℝ} (hd : ∀ᶠ t in atTop, HasDerivAt f (f' t) t) (hf : Tendsto f atTop (𝓝 a)) (hf' : Tendsto f' atTop (𝓝 b)) : b = 0 := by
  obtain ⟨T, hT⟩ := eventually_atTop.1 hd
  have hmv : ∀ t, T ≤ t → ∃ c, t < c ∧ f' c = f (t + 1) - f t := by
    intro t ht
    obtain ⟨c, hc, he⟩ := exists_hasDerivAt_eq_slope f f' (show t < t + 1 by linarith)
      (fun s hs => (hT s (ht.trans hs.1)).continuousAt.continuousWithinAt) (fun s hs => hT s (ht.trans hs.1.le))
    exact ⟨c, hc.1, by rw [he]; simp⟩
  choose! c hc hce using hmv
  have hct : Tendsto c atTop atTop := tendsto_atTop_mono' _ ((eventually_ge_atTop T).mono (fun t ht => (hc t ht).le)) tendsto_id
  have h1 : Tendsto (fun t => f' (c t)) atTop (𝓝 b) := hf'.comp hct
  have h2 : Tendsto (fun t => f (t + 1) - f t) atTop (𝓝 (a - a)) := (hf.comp (tendsto_atTop_add_const_right _ 1 tendsto_id)).sub hf
  rw [sub_self] at h2
  refine tendsto_nhds_unique h1 (h2.congr' ?_)
  exact (eventually_ge_atTop T).mono (fun t ht => (hce t ht).symm)

theorem lim0c {f f' : ℝ → ℂ} {a b : ℂ} (hd : ∀ᶠ t in atTop, HasDerivAt f (f' t) t) (hf : Tendsto f atTop (𝓝 a)) (hf' : Tendsto f' atTop (𝓝 b)) : b = 0 := by
  apply Complex.ext
  · exact lim0 (f := fun t => (f t).re) (hd.mono (fun t h => Complex.reCLM.hasFDerivAt.comp_hasDerivAt t h)) ((Complex.continuous_re.tendsto _).comp hf)
      ((Complex.continuous_re.tendsto _).comp hf')
  · exact lim0 (f := fun t => (f t).im) (hd.mono (fun t h => Complex.imCLM.hasFDerivAt.comp_hasDerivAt t h)) ((Complex.continuous_im.tendsto _).comp hf)
      ((Complex.continuous_im.tendsto _).comp hf')

/-- One phase that settles: no current error, and the inverter voltage balances the terminal voltage and the drop over the filter. -/
theorem phase {Lf Rf Kp Ki wp : ℝ} (hL : Lf ≠ 0) (hKi : Ki ≠ 0) (hwp : wp ≠ 0) {V W : ℝ → ℝ} {v r i x u : ℝ → ℂ} {V' W' : ℝ} {v' r' i' x' u' : ℂ}
    (h : ∀ᶠ t in atTop, Defect.Phase Lf Rf Kp Ki wp V W v r i x u t)
    (hV : Tendsto V atTop (𝓝 V')) (hW : Tendsto W atTop (𝓝 W')) (hv : Tendsto v atTop (𝓝 v')) (hr : Tendsto r atTop (𝓝 r')) (hi : Tendsto i atTop (𝓝 i'))
    (hx : Tendsto x atTop (𝓝 x')) (hu : Tendsto u atTop (𝓝 u')) :
    u' = 0 ∧ i' = r' ∧ x' * ((V' / 2 : ℝ) : ℂ) = v' + ((Rf : ℂ) + I * (Lf : ℂ) * (W' : ℂ)) * i' := by
  have hVc : Tendsto (fun t => ((V t / 2 : ℝ) : ℂ)) atTop (𝓝 ((V' / 2 : ℝ) : ℂ)) := (Complex.continuous_ofReal.tendsto _).comp (hV.div_const 2)
  have hWc : Tendsto (fun t => (W t : ℂ)) atTop (𝓝 (W' : ℂ)) := (Complex.continuous_ofReal.tendsto _).comp hW
  have e1 := lim0c (h.mono fun t k => k.dx) hx (hu.const_mul (Ki : ℂ))
  have hu0 : u' = 0 := by
    rcases mul_eq_zero.1 e1 with e | e
    · exact absurd (by exact_mod_cast e) hKi
    · exact e
  have e2 := lim0c (h.mono fun t k => k.du) hu (((hu.neg.add hr).sub hi).const_mul (wp : ℂ))
  have hir : i' = r' := by
    rcases mul_eq_zero.1 e2 with e | e
    · exact absurd (by exact_mod_cast e) hwp
    · rw [hu0] at e; linear_combination -e
  have e3 := lim0c (h.mono fun t k => k.di) hi
    (((((hi.const_mul (-(Rf : ℂ))).sub hv).add (((hu.const_mul ((Kp : ℝ) : ℂ)).add hx).mul hVc)).const_mul ((1 / Lf : ℝ) : ℂ)).sub ((hWc.const_mul I).mul hi))
  refine ⟨hu0, hir, ?_⟩
  rw [hu0] at e3
  have hLc : (Lf : ℂ) ≠ 0 := by exact_mod_cast hL
  have e4 : (Lf : ℂ) * (((1 / Lf : ℝ) : ℂ) * (-(Rf : ℂ) * i' - v' + (((Kp : ℝ) : ℂ) * 0 + x') * ((V' / 2 : ℝ) : ℂ)) - I * (W' : ℂ) * i') = 0 := by rw [e3, mul_zero]
  have e5 : (Lf : ℂ) * ((1 / Lf : ℝ) : ℂ) = 1 := by push_cast; field_simp
  linear_combination e4 - (-(Rf : ℂ) * i' - v' + (((Kp : ℝ) : ℂ) * 0 + x') * ((V' / 2 : ℝ) : ℂ)) * e5

open Ode Phasor

theorem sPh_tendsto {v i : ℝ → ℂ} {v' i' : ℂ} (hv : Tendsto v atTop (𝓝 v')) (hi : Tendsto i atTop (𝓝 i')) : Tendsto (fun t => sPh (v t) (i t)) atTop (𝓝 (sPh v' i')) :=
  (hv.mul ((Complex.continuous_conj.tendsto _).comp hi)).const_mul (1 / 2)

theorem sCalc_tendsto {va vb vc ia ib ic : ℝ → ℂ} {va' vb' vc' ia' ib' ic' : ℂ} (hva : Tendsto va atTop (𝓝 va')) (hvb : Tendsto vb atTop (𝓝 vb'))
    (hvc : Tendsto vc atTop (𝓝 vc')) (hia : Tendsto ia atTop (𝓝 ia')) (hib : Tendsto ib atTop (𝓝 ib')) (hic : Tendsto ic atTop (𝓝 ic')) :
    Tendsto (fun t => sCalc (va t) (vb t) (vc t) (ia t) (ib t) (ic t)) atTop (𝓝 (sCalc va' vb' vc' ia' ib' ic')) :=
  ((((hva.mul ((Complex.continuous_conj.tendsto _).comp hia)).add (hvb.mul ((Complex.continuous_conj.tendsto _).comp hib))).add
    (hvc.mul ((Complex.continuous_conj.tendsto _).comp hic))).const_mul (1 / 2)).mul_const 1

theorem duty_tendsto (p : Par) {u x : ℝ → ℂ} {u' x' : ℂ} (hu : Tendsto u atTop (𝓝 u')) (hx : Tendsto x atTop (𝓝 x')) :
    Tendsto (fun t => duty p (u t) (x t)) atTop (𝓝 (duty p u' x')) := (hu.const_mul (p.Kp_GCC : ℂ)).add hx

theorem vtOf_tendsto (p : Par) {u x : ℝ → ℂ} {V : ℝ → ℝ} {u' x' : ℂ} {V' : ℝ} (hu : Tendsto u atTop (𝓝 u')) (hx : Tendsto x atTop (𝓝 x')) (hV : Tendsto V atTop (𝓝 V')) :
    Tendsto (fun t => vtOf p (u t) (x t) (V t)) atTop (𝓝 (vtOf p u' x' V')) :=
  (duty_tendsto p hu hx).mul ((Complex.continuous_ofReal.tendsto _).comp (hV.div_const 2))

theorem ub_tendsto {z : ℝ → ℂ} {z' : ℂ} (h : Tendsto z atTop (𝓝 z')) : Tendsto (fun t => Phasor.ub (z t)) atTop (𝓝 (Phasor.ub z')) := h.mul_const _
theorem uc_tendsto {z : ℝ → ℂ} {z' : ℂ} (h : Tendsto z atTop (𝓝 z')) : Tendsto (fun t => Phasor.uc (z t)) atTop (𝓝 (Phasor.uc z')) := h.mul_const _

theorem ppv_tendsto (p : Par) (i : Inp) {V : ℝ → ℝ} {V' : ℝ} (hV : Tendsto V atTop (𝓝 V')) : Tendsto (fun t => ppvOf p i (V t)) atTop (𝓝 (ppvOf p i V')) := by
  have : Continuous (fun V => ppvOf p i V) := by
    unfold ppvOf PV.ppv PV.ipv
    fun_prop
  exact (this.tendsto V').comp hV

theorem cpx_tendsto {a b : ℝ → ℝ} {a' b' : ℝ} (ha : Tendsto a atTop (𝓝 a')) (hb : Tendsto b atTop (𝓝 b')) :
    Tendsto (fun t => ((a t : ℝ) : ℂ) + I * ((b t : ℝ) : ℂ)) atTop (𝓝 ((a' : ℂ) + I * (b' : ℂ))) :=
  ((Complex.continuous_ofReal.tendsto _).comp ha).add (((Complex.continuous_ofReal.tendsto _).comp hb).const_mul I)

theorem mk_tendsto {a b : ℝ → ℝ} {a' b' : ℝ} (ha : Tendsto a atTop (𝓝 a')) (hb : Tendsto b atTop (𝓝 b')) :
    Tendsto (fun t => (⟨a t, b t⟩ : ℂ)) atTop (𝓝 ⟨a', b'⟩) := by
  have h := cpx_tendsto ha hb
  have e : ∀ x y : ℝ, ((x : ℂ) + I * (y : ℂ)) = ⟨x, y⟩ := by intro x y; apply Complex.ext <;> simp
  rw [e] at h
  exact h.congr (fun t => e _ _)

theorem im_tendsto {z : ℝ → ℂ} {z' : ℂ} (h : Tendsto z atTop (𝓝 z')) : Tendsto (fun t => (z t).im) atTop (𝓝 z'.im) := (Complex.continuous_im.tendsto _).comp h
theorem re_tendsto {z : ℝ → ℂ} {z' : ℂ} (h : Tendsto z atTop (𝓝 z')) : Tendsto (fun t => (z t).re) atTop (𝓝 z'.re) := (Complex.continuous_re.tendsto _).comp h

theorem iref_tendsto (p : Par) (i : Inp) {V xD xQ : ℝ → ℝ} {S : ℝ → ℂ} {V' xD' xQ' : ℝ} {S' : ℂ} (hV : Tendsto V atTop (𝓝 V')) (hD : Tendsto xD atTop (𝓝 xD'))
    (hQ : Tendsto xQ atTop (𝓝 xQ')) (hS : Tendsto S atTop (𝓝 S')) : Tendsto (fun t => irefOf p i (V t) (xD t) (xQ t) (S t)) atTop (𝓝 (irefOf p i V' xD' xQ' S')) :=
  cpx_tendsto (hD.add ((hV.const_sub _).const_mul p.Kp_DC)) (hQ.sub (((im_tendsto hS).const_sub _).const_mul p.Kp_Q))

theorem irefP_tendsto (p : Par) (i : Inp) (P : ℝ) {xP xQ : ℝ → ℝ} {S SP : ℝ → ℂ} {xP' xQ' : ℝ} {S' SP' : ℂ} (hP : Tendsto xP atTop (𝓝 xP'))
    (hQ : Tendsto xQ atTop (𝓝 xQ')) (hS : Tendsto S atTop (𝓝 S')) (hSP : Tendsto SP atTop (𝓝 SP')) :
    Tendsto (fun t => irefPOf p i P (xP t) (xQ t) (S t) (SP t)) atTop (𝓝 (irefPOf p i P xP' xQ' S' SP')) :=
  cpx_tendsto (hP.add (((re_tendsto hS).const_sub _).const_mul p.Kp_P)) (hQ.sub (((im_tendsto hSP).const_sub _).const_mul p.Kp_Q))

theorem norm_lt {z : ℝ → ℂ} {z' : ℂ} (h : Tendsto z atTop (𝓝 z')) {m : ℝ} (hm : ‖z'‖ < m) : ∀ᶠ t in atTop, ‖z t‖ < m :=
  ((continuous_norm.tendsto _).comp h).eventually (gt_mem_nhds hm)

end Settle
end PvDer
