import Verif.Props.ClosedLoopDc
import Verif.Props.ClosedLoopUnits
import Mathlib.Analysis.Complex.ExponentialBounds

/-!
# C124 for shipped inverters that control their DC voltage

The certificates of `Props/ClosedLoopDc` hold for the gains, filters and DC links that ship with the simulator.
-/

namespace PvDer
namespace Ode
open Complex Phasor LocStab

/-- The PV power over the DC voltage (both in per unit) at insolation `S` and temperature `T`. -/
noncomputable def pvCurve (p : Par) (S T : ℝ) (x : ℝ) : ℝ := PV.ppv p.mod S T (min p.Vdcmpp_max (x * p.Vdcbase))

/-- Its slope: zero at the maximum power point. -/
noncomputable def pvSlope (p : Par) (S T U : ℝ) : ℝ := p.Vdcbase / p.mod.Sbase * PV.mppEq p.mod S T (U * p.Vdcbase)

theorem pv_power_pos {p : Par} {S T U : ℝ} (hU : U * p.Vdcbase < p.Vdcmpp_max) (hp : 0 < pvCurve p S T U) :
    0 < PV.ipv p.mod S T (U * p.Vdcbase) * (U * p.Vdcbase) ∧ pvCurve p S T U = PV.ipv p.mod S T (U * p.Vdcbase) * (U * p.Vdcbase) / p.mod.Sbase := by
  unfold pvCurve PV.ppv at hp ⊢
  rw [min_eq_right hU.le] at hp ⊢
  have h0 : 0 < PV.ipv p.mod S T (U * p.Vdcbase) * (U * p.Vdcbase) := by
    by_contra h
    rw [max_eq_left (not_lt.1 h), zero_div] at hp
    exact lt_irrefl _ hp
  exact ⟨h0, by rw [max_eq_right h0.le]⟩

theorem pv_smooth {p : Par} {S T U : ℝ} (hU : U * p.Vdcbase < p.Vdcmpp_max) (hp : 0 < pvCurve p S T U) : Smooth (pvCurve p S T) U (pvSlope p S T U) := by
  obtain ⟨h0, -⟩ := pv_power_pos hU hp
  rw [PV.ipv_eq] at h0
  have h1 := (((smooth_pv (p.mod.Np * PV.iph p.mod S T) (p.mod.Np * p.mod.Irs) (PV.coef p.mod T) (U * p.Vdcbase)).max_zero h0).scale p.Vdcbase).const_mul (1 / p.mod.Sbase)
  have e : 1 / p.mod.Sbase * (p.Vdcbase * (p.mod.Np * PV.iph p.mod S T - p.mod.Np * p.mod.Irs * (Real.exp (PV.coef p.mod T * (U * p.Vdcbase)) - 1) -
      p.mod.Np * p.mod.Irs * Real.exp (PV.coef p.mod T * (U * p.Vdcbase)) * PV.coef p.mod T * (U * p.Vdcbase))) = pvSlope p S T U := by
    unfold pvSlope PV.mppEq
    rw [show p.mod.q * (U * p.Vdcbase) / (p.mod.k * T * p.mod.A * p.mod.Ns) = PV.coef p.mod T * (U * p.Vdcbase) by unfold PV.coef; ring, show p.mod.q / (p.mod.k * T * p.mod.A * p.mod.Ns) = PV.coef p.mod T from rfl]
    ring
  rw [e] at h1
  refine h1.congr (r := (p.Vdcmpp_max - U * p.Vdcbase) / (|p.Vdcbase| + 1)) (div_pos (sub_pos.2 hU) (by positivity)) (fun s hs => ?_)
  rw [le_div_iff₀ (by positivity)] at hs
  have h2 : (U + s) * p.Vdcbase ≤ p.Vdcmpp_max := by
    have h3 : s * p.Vdcbase ≤ |s| * |p.Vdcbase| := by rw [← abs_mul]; exact le_abs_self _
    nlinarith [abs_nonneg s]
  unfold pvCurve PV.ppv
  rw [min_eq_right h2, PV.ipv_eq]
  ring

theorem pv_slope_le {p : Par} (hm : PV.Physical p.mod) {S T U : ℝ} (hT : 0 < T) (hb : 0 < p.Vdcbase) (h0 : 0 < U) (hU : U * p.Vdcbase < p.Vdcmpp_max) (hp : 0 < pvCurve p S T U) :
    pvSlope p S T U ≤ pvCurve p S T U / U := by
  rw [(pv_power_pos hU hp).2, PV.ipv_eq]
  have c := PV.coef_pos hm hT
  have := hm.Np
  have := hm.Irs
  have := hm.Sbase
  have e : pvSlope p S T U = (p.mod.Np * PV.iph p.mod S T - p.mod.Np * p.mod.Irs * (Real.exp (PV.coef p.mod T * (U * p.Vdcbase)) - 1)) * (U * p.Vdcbase) / p.mod.Sbase / U -
      p.Vdcbase / p.mod.Sbase * (p.mod.Np * p.mod.Irs * Real.exp (PV.coef p.mod T * (U * p.Vdcbase)) * PV.coef p.mod T * (U * p.Vdcbase)) := by
    unfold pvSlope PV.mppEq
    rw [show p.mod.q * (U * p.Vdcbase) / (p.mod.k * T * p.mod.A * p.mod.Ns) = PV.coef p.mod T * (U * p.Vdcbase) by unfold PV.coef; ring, show p.mod.q / (p.mod.k * T * p.mod.A * p.mod.Ns) = PV.coef p.mod T from rfl]
    field_simp
    ring
  rw [e]
  have : 0 ≤ p.Vdcbase / p.mod.Sbase * (p.mod.Np * p.mod.Irs * Real.exp (PV.coef p.mod T * (U * p.Vdcbase)) * PV.coef p.mod T * (U * p.Vdcbase)) := by positivity
  linarith

set_option maxHeartbeats 1000000 in
/-- The certificate over the range of the 10 kVA unit. -/
theorem dc10_ok {P : DcPar} (hR : P.R = 1 / 2500) (L0 : 188 / 100000 ≤ P.L) (L1 : P.L ≤ 189 / 100000) (g0 : 13 / 20 ≤ P.g) (g1 : P.g ≤ 4 / 5) (w1 : |P.w0| ≤ 6 / 5) (v0 : 2 / 5 ≤ P.v) (v1 : P.v ≤ 3 / 5)
    (i0 : 0 ≤ P.i) (i1 : P.i ≤ 26 / 25) (hKp : P.Kp = 12000) (hKi : P.Ki = 4000) (hwp : P.wp = 200000) (ha1 : P.a1 = 4) (ha2 : P.a2 = 20) (c0 : 11 / 2 ≤ P.cs) (c1 : P.cs ≤ 682 / 100)
    (t0 : -(4 / 5) * P.x ≤ P.ϑ) (t1 : P.ϑ ≤ 137 / 10) (hQP : P.QP = 1 / 5 * P.v) (hQI : P.QI = 10 * P.v) (hKv : 0 < P.Kv) (hJ : 0 < P.J) : DcOk P 32 5000 40000000 := by
  have ek : P.k = 2400000000 := by unfold DcPar.k; rw [hKp, hwp]; norm_num
  have eκ : P.κ = 1 / 3 := by unfold DcPar.κ; rw [hKp, hKi]; norm_num
  have eρ : P.ρ = 200000 - 1 / 3 := by unfold DcPar.ρ; rw [eκ, hwp]
  have Lp : 0 < P.L := by linarith
  have cp : 0 < P.cs := by linarith
  have ciu : P.cs * P.i ≤ 682 / 100 * (26 / 25) := by gcongr
  have ci0 : 0 ≤ P.cs * P.i := by positivity
  have γ0 : 0 ≤ P.γ := by unfold DcPar.γ; positivity
  have γ1 : P.γ ≤ 135 / 10000 := by
    unfold DcPar.γ
    calc P.cs * P.i * P.L ≤ (682 / 100 * (26 / 25)) * (189 / 100000) := by gcongr
      _ ≤ _ := by norm_num
  have ex : P.x = P.cs * (P.v + 1 / 1250 * P.i) := by unfold DcPar.x; rw [hR]; ring
  have x0 : 11 / 5 ≤ P.x := by
    rw [ex]
    calc (11 / 5 : ℝ) = 11 / 2 * (2 / 5) := by norm_num
      _ ≤ _ := by gcongr; linarith
  have x1 : P.x ≤ 41 / 10 := by
    rw [ex]
    calc P.cs * (P.v + 1 / 1250 * P.i) ≤ 682 / 100 * (3 / 5 + 1 / 1250 * (26 / 25)) := by gcongr
      _ ≤ _ := by norm_num
  have eα : P.α1 = 1 + 4 * P.γ := by unfold DcPar.α1; rw [ha1]
  have eα2 : P.α2 = 1 + 1 / 5 * P.v := by unfold DcPar.α2; rw [hQP]
  have α1 : 1 ≤ P.α1 := by linarith
  have α1' : P.α1 ≤ 106 / 100 := by linarith
  have α2 : 1 ≤ P.α2 := by linarith
  have αγ0 : 0 ≤ P.α1 * P.γ := by positivity
  have αγ1 : P.α1 * P.γ ≤ 15 / 1000 := by
    calc P.α1 * P.γ ≤ 106 / 100 * (135 / 10000) := by gcongr
      _ ≤ _ := by norm_num
  have D : 16 / 5 * P.x ≤ P.ϑ + P.a2 * P.γ + P.a1 * P.x := by rw [ha1, ha2]; linarith
  have αp : 0 < P.α1 := by linarith
  have ϑγ1 : P.ϑ * P.γ ≤ 137 / 10 * (135 / 10000) := by
    calc P.ϑ * P.γ ≤ 137 / 10 * P.γ := by gcongr
      _ ≤ _ := by gcongr
  have ϑγ0 : -(4 / 5 * (41 / 10) * (135 / 10000)) ≤ P.ϑ * P.γ := by
    have h1 : -P.ϑ * P.γ ≤ 4 / 5 * (41 / 10) * P.γ := by gcongr; linarith
    have h2 : 4 / 5 * (41 / 10) * P.γ ≤ 4 / 5 * (41 / 10) * (135 / 10000) := by gcongr
    linarith
  have ϑαγ1 : P.ϑ * (P.α1 * P.γ) ≤ 137 / 10 * (15 / 1000) := by
    calc P.ϑ * (P.α1 * P.γ) ≤ 137 / 10 * (P.α1 * P.γ) := by gcongr
      _ ≤ _ := by gcongr
  have ϑαγ0 : -(4 / 5 * (41 / 10) * (15 / 1000)) ≤ P.ϑ * (P.α1 * P.γ) := by
    have h1 : -P.ϑ * (P.α1 * P.γ) ≤ 4 / 5 * (41 / 10) * (P.α1 * P.γ) := by gcongr; linarith
    have h2 : 4 / 5 * (41 / 10) * (P.α1 * P.γ) ≤ 4 / 5 * (41 / 10) * (15 / 1000) := by gcongr
    linarith
  have αx1 : P.α1 * P.x ≤ 106 / 100 * P.x := by gcongr
  have αx0 : P.x ≤ P.α1 * P.x := le_mul_of_one_le_left (by linarith) α1
  have eb : P.b = P.x - P.ϑ * P.γ := rfl
  have gp : 0 < P.g := by linarith
  have vR0 : 0 ≤ P.v + 1 / 2500 * P.i := by positivity
  have m0 : 0 ≤ P.m1 := by unfold DcPar.m1; rw [hR]; positivity
  have m1 : P.m1 ≤ 925 / 1000 := by unfold DcPar.m1; rw [hR, div_le_iff₀ gp]; linarith
  have Xle : |P.X| ≤ 23 / 10000 := by
    unfold DcPar.X
    rw [abs_mul, abs_of_pos Lp]
    calc P.L * |P.w0| ≤ 189 / 100000 * (6 / 5) := by gcongr
      _ ≤ _ := by norm_num
  have m2 : |P.m2| ≤ 4 / 1000 := by
    show |P.X * P.i / P.g| ≤ _
    rw [abs_div, abs_of_pos gp, div_le_iff₀ gp, abs_mul, abs_of_nonneg i0]
    calc |P.X| * P.i ≤ 23 / 10000 * (26 / 25) := by gcongr
      _ ≤ 4 / 1000 * (13 / 20) := by norm_num
      _ ≤ _ := by gcongr
  have β1e : P.β1 = (20 * P.γ - 4 * (P.ϑ * P.γ) + 4 * P.x) / P.α1 := by
    unfold DcPar.β1; rw [ha1, ha2]
    congr 1
    unfold DcPar.x
    ring
  have β1u : P.β1 ≤ 17 := by rw [β1e, div_le_iff₀ αp]; linarith
  have β1l : 0 ≤ P.β1 := by rw [β1e]; apply div_nonneg _ αp.le; linarith
  have Lβ : P.L * P.β1 ≤ 189 / 100000 * 17 := by gcongr
  have Lβ0 : 0 ≤ P.L * P.β1 := by positivity
  have mγ : P.m1 * P.γ ≤ 925 / 1000 * (135 / 10000) := by gcongr
  have mγ0 : 0 ≤ P.m1 * P.γ := by positivity
  have α2p : 0 < P.α2 := by linarith
  have β2e : P.β2 = 10 * P.v / P.α2 := by unfold DcPar.β2; rw [hQI]
  have β2u : P.β2 ≤ 6 := by rw [β2e, div_le_iff₀ α2p]; linarith
  have β2l : 0 ≤ P.β2 := by rw [β2e]; apply div_nonneg _ α2p.le; linarith
  have Lβ2 : P.L * P.β2 ≤ 189 / 100000 * 6 := by gcongr
  have Lβ20 : 0 ≤ P.L * P.β2 := by positivity
  refine DcOk.of_bounds (k0 := 2400000000) (k9 := 2688000000) (g0 := 13 / 20) (g1 := 4 / 5) (L0 := 188 / 100000) (L1 := 189 / 100000) (ρ0 := 199999) (ρ9 := 200000) (α9 := 112 / 100) (ϑ9 := 137 / 10) (b9 := 43 / 10)
    (c9 := 36) (μ9 := 72 / 100) (r9 := 9 / 2) (R19 := 35 / 1000) (R29 := 12 / 1000) (X9 := 3 / 1000) (X29 := 3 / 1000) (m29 := 4 / 1000) (z9 := 46700) (B1 := 1600000000) (h9 := 5 / 100000) (l9 := 1 / 10000)
    ?_ ?_ ?_ ?_ ?_ ?_ ?_ ?_ ?_ ?_ ?_ ?_ ?_ ?_ ?_ ?_ ?_ ?_ ?_ ?_ ?_ ?_ ?_ ?_ ?_ ?_ ?_ ?_ ?_ ?_ ?_ ?_ ?_ ?_ ?_ ?_ ?_ ?_ ?_ ?_ ?_ ?_ ?_ ?_ ?_ ?_ ?_ ?_ ?_ ?_ ?_ ?_ ?_ ?_ ?_
  · rw [hKp]; norm_num
  · rw [eκ]; norm_num
  · norm_num
  · norm_num
  · norm_num
  · norm_num
  · rw [ek]
  · rw [ek]; norm_num
  · norm_num
  · exact g0
  · exact g1
  · norm_num
  · exact L0
  · exact L1
  · norm_num
  · rw [eρ]; norm_num
  · rw [eρ]; norm_num
  · exact α1
  · linarith
  · exact α2
  · linarith
  · rw [hQI]; linarith
  · rw [ha2]; norm_num
  · linarith
  · linarith
  · rw [abs_le, ha1, ha2]
    constructor <;> linarith
  · rw [abs_le]
    constructor <;> linarith
  · rw [abs_le, eb]
    constructor <;> linarith
  · unfold DcPar.c
    rw [abs_div, abs_of_pos αp, div_le_iff₀ αp, abs_le, ha1, ha2]
    constructor <;> linarith
  · unfold DcPar.μ
    rw [abs_of_nonneg (by positivity), div_le_iff₀ (by positivity)]
    linarith
  · unfold DcPar.R1
    rw [hR, abs_le]
    constructor <;> linarith
  · unfold DcPar.R2
    rw [hR, abs_le]
    constructor <;> linarith
  · linarith
  · unfold DcPar.X2
    refine (abs_add_le _ _).trans ?_
    rw [abs_mul, abs_mul, abs_of_nonneg γ0, abs_of_pos (by norm_num : (0 : ℝ) < 1 / 2)]
    have : 1 / 2 * |P.m2| * P.γ ≤ 1 / 2 * (4 / 1000) * (135 / 10000) := by gcongr
    linarith
  · exact m2
  all_goals first | assumption | (rw [eκ]; norm_num) | norm_num

set_option maxHeartbeats 1000000 in
/-- The certificate over the range of the 50 kVA units. -/
theorem dc50_ok {P : DcPar} (hR : P.R = 1 / 2500) (L0 : 188 / 100000 ≤ P.L) (L1 : P.L ≤ 189 / 100000) (g0 : 21 / 40 ≤ P.g) (g1 : P.g ≤ 13 / 20) (w1 : |P.w0| ≤ 6 / 5) (v0 : 2 / 5 ≤ P.v) (v1 : P.v ≤ 13 / 25)
    (i0 : 0 ≤ P.i) (i1 : P.i ≤ 174 / 100) (hKp : P.Kp = 6000) (hKi : P.Ki = 2000) (hwp : P.wp = 200000) (ha1 : P.a1 = 2) (ha2 : P.a2 = 10) (c0 : 203 / 100 ≤ P.cs) (c1 : P.cs ≤ 254 / 100)
    (t0 : -(85 / 100) ≤ P.ϑ) (t1 : P.ϑ ≤ 169 / 100) (hQP : P.QP = 3 / 10 * P.v) (hQI : P.QI = 15 * P.v) (hKv : 0 < P.Kv) (hJ : 0 < P.J) : DcOk P 32 5000 1900000 := by
  have ek : P.k = 1200000000 := by unfold DcPar.k; rw [hKp, hwp]; norm_num
  have eκ : P.κ = 1 / 3 := by unfold DcPar.κ; rw [hKp, hKi]; norm_num
  have eρ : P.ρ = 200000 - 1 / 3 := by unfold DcPar.ρ; rw [eκ, hwp]
  have Lp : 0 < P.L := by linarith
  have cp : 0 < P.cs := by linarith
  have ciu : P.cs * P.i ≤ 254 / 100 * (174 / 100) := by gcongr
  have ci0 : 0 ≤ P.cs * P.i := by positivity
  have γ0 : 0 ≤ P.γ := by unfold DcPar.γ; positivity
  have γ1 : P.γ ≤ 84 / 10000 := by
    unfold DcPar.γ
    calc P.cs * P.i * P.L ≤ (254 / 100 * (174 / 100)) * (189 / 100000) := by gcongr
      _ ≤ _ := by norm_num
  have ex : P.x = P.cs * (P.v + 1 / 1250 * P.i) := by unfold DcPar.x; rw [hR]; ring
  have x0 : 812 / 1000 ≤ P.x := by
    rw [ex]
    calc (812 / 1000 : ℝ) = 203 / 100 * (2 / 5) := by norm_num
      _ ≤ _ := by gcongr; linarith
  have x1 : P.x ≤ 133 / 100 := by
    rw [ex]
    calc P.cs * (P.v + 1 / 1250 * P.i) ≤ 254 / 100 * (13 / 25 + 1 / 1250 * (174 / 100)) := by gcongr
      _ ≤ _ := by norm_num
  have eα : P.α1 = 1 + 2 * P.γ := by unfold DcPar.α1; rw [ha1]
  have eα2 : P.α2 = 1 + 3 / 10 * P.v := by unfold DcPar.α2; rw [hQP]
  have α1 : 1 ≤ P.α1 := by linarith
  have α1' : P.α1 ≤ 102 / 100 := by linarith
  have α2 : 1 ≤ P.α2 := by linarith
  have αγ0 : 0 ≤ P.α1 * P.γ := by positivity
  have αγ1 : P.α1 * P.γ ≤ 86 / 10000 := by
    calc P.α1 * P.γ ≤ 102 / 100 * (84 / 10000) := by gcongr
      _ ≤ _ := by norm_num
  have D : 774 / 1000 ≤ P.ϑ + P.a2 * P.γ + P.a1 * P.x := by rw [ha1, ha2]; linarith
  have αp : 0 < P.α1 := by linarith
  have ϑγ1 : P.ϑ * P.γ ≤ 169 / 100 * (84 / 10000) := by
    calc P.ϑ * P.γ ≤ 169 / 100 * P.γ := by gcongr
      _ ≤ _ := by gcongr
  have ϑγ0 : -(85 / 100 * (84 / 10000)) ≤ P.ϑ * P.γ := by
    have h1 : -P.ϑ * P.γ ≤ 85 / 100 * P.γ := by gcongr; linarith
    have h2 : 85 / 100 * P.γ ≤ 85 / 100 * (84 / 10000) := by gcongr
    linarith
  have ϑαγ1 : P.ϑ * (P.α1 * P.γ) ≤ 169 / 100 * (86 / 10000) := by
    calc P.ϑ * (P.α1 * P.γ) ≤ 169 / 100 * (P.α1 * P.γ) := by gcongr
      _ ≤ _ := by gcongr
  have ϑαγ0 : -(85 / 100 * (86 / 10000)) ≤ P.ϑ * (P.α1 * P.γ) := by
    have h1 : -P.ϑ * (P.α1 * P.γ) ≤ 85 / 100 * (P.α1 * P.γ) := by gcongr; linarith
    have h2 : 85 / 100 * (P.α1 * P.γ) ≤ 85 / 100 * (86 / 10000) := by gcongr
    linarith
  have αx1 : P.α1 * P.x ≤ 102 / 100 * P.x := by gcongr
  have αx0 : P.x ≤ P.α1 * P.x := le_mul_of_one_le_left (by linarith) α1
  have eb : P.b = P.x - P.ϑ * P.γ := rfl
  have gp : 0 < P.g := by linarith
  have vR0 : 0 ≤ P.v + 1 / 2500 * P.i := by positivity
  have m0 : 0 ≤ P.m1 := by unfold DcPar.m1; rw [hR]; positivity
  have m1 : P.m1 ≤ 995 / 1000 := by unfold DcPar.m1; rw [hR, div_le_iff₀ gp]; linarith
  have Xle : |P.X| ≤ 23 / 10000 := by
    unfold DcPar.X
    rw [abs_mul, abs_of_pos Lp]
    calc P.L * |P.w0| ≤ 189 / 100000 * (6 / 5) := by gcongr
      _ ≤ _ := by norm_num
  have m2 : |P.m2| ≤ 8 / 1000 := by
    show |P.X * P.i / P.g| ≤ _
    rw [abs_div, abs_of_pos gp, div_le_iff₀ gp, abs_mul, abs_of_nonneg i0]
    calc |P.X| * P.i ≤ 23 / 10000 * (174 / 100) := by gcongr
      _ ≤ 8 / 1000 * (21 / 40) := by norm_num
      _ ≤ _ := by gcongr
  have β1e : P.β1 = (10 * P.γ - 2 * (P.ϑ * P.γ) + 2 * P.x) / P.α1 := by
    unfold DcPar.β1; rw [ha1, ha2]
    congr 1
    unfold DcPar.x
    ring
  have β1u : P.β1 ≤ 28 / 10 := by rw [β1e, div_le_iff₀ αp]; linarith
  have β1l : 0 ≤ P.β1 := by rw [β1e]; apply div_nonneg _ αp.le; linarith
  have Lβ : P.L * P.β1 ≤ 189 / 100000 * (28 / 10) := by gcongr
  have Lβ0 : 0 ≤ P.L * P.β1 := by positivity
  have mγ : P.m1 * P.γ ≤ 995 / 1000 * (84 / 10000) := by gcongr
  have mγ0 : 0 ≤ P.m1 * P.γ := by positivity
  have α2p : 0 < P.α2 := by linarith
  have β2e : P.β2 = 15 * P.v / P.α2 := by unfold DcPar.β2; rw [hQI]
  have β2u : P.β2 ≤ 78 / 10 := by rw [β2e, div_le_iff₀ α2p]; linarith
  have β2l : 0 ≤ P.β2 := by rw [β2e]; apply div_nonneg _ α2p.le; linarith
  have Lβ2 : P.L * P.β2 ≤ 189 / 100000 * (78 / 10) := by gcongr
  have Lβ20 : 0 ≤ P.L * P.β2 := by positivity
  refine DcOk.of_bounds (k0 := 1200000000) (k9 := 1392000000) (g0 := 21 / 40) (g1 := 13 / 20) (L0 := 188 / 100000) (L1 := 189 / 100000) (ρ0 := 199999) (ρ9 := 200000) (α9 := 116 / 100) (ϑ9 := 169 / 100) (b9 := 135 / 100)
    (c9 := 12) (μ9 := 95 / 100) (r9 := 17) (R19 := 6 / 1000) (R29 := 15 / 1000) (X9 := 3 / 1000) (X29 := 3 / 1000) (m29 := 8 / 1000) (z9 := 81300) (B1 := 1270000000) (h9 := 5 / 100000) (l9 := 3 / 10000)
    ?_ ?_ ?_ ?_ ?_ ?_ ?_ ?_ ?_ ?_ ?_ ?_ ?_ ?_ ?_ ?_ ?_ ?_ ?_ ?_ ?_ ?_ ?_ ?_ ?_ ?_ ?_ ?_ ?_ ?_ ?_ ?_ ?_ ?_ ?_ ?_ ?_ ?_ ?_ ?_ ?_ ?_ ?_ ?_ ?_ ?_ ?_ ?_ ?_ ?_ ?_ ?_ ?_ ?_ ?_
  · rw [hKp]; norm_num
  · rw [eκ]; norm_num
  · norm_num
  · norm_num
  · norm_num
  · norm_num
  · rw [ek]
  · rw [ek]; norm_num
  · norm_num
  · exact g0
  · exact g1
  · norm_num
  · exact L0
  · exact L1
  · norm_num
  · rw [eρ]; norm_num
  · rw [eρ]; norm_num
  · exact α1
  · linarith
  · exact α2
  · linarith
  · rw [hQI]; linarith
  · rw [ha2]; norm_num
  · linarith
  · linarith
  · rw [abs_le, ha1, ha2]
    constructor <;> linarith
  · rw [abs_le]
    constructor <;> linarith
  · rw [abs_le, eb]
    constructor <;> linarith
  · unfold DcPar.c
    rw [abs_div, abs_of_pos αp, div_le_iff₀ αp, abs_le, ha1, ha2]
    constructor <;> linarith
  · unfold DcPar.μ
    rw [abs_of_nonneg (by positivity), div_le_iff₀ (by positivity)]
    linarith
  · unfold DcPar.R1
    rw [hR, abs_le]
    constructor <;> linarith
  · unfold DcPar.R2
    rw [hR, abs_le]
    constructor <;> linarith
  · linarith
  · unfold DcPar.X2
    refine (abs_add_le _ _).trans ?_
    rw [abs_mul, abs_mul, abs_of_nonneg γ0, abs_of_pos (by norm_num : (0 : ℝ) < 1 / 2)]
    have : 1 / 2 * |P.m2| * P.γ ≤ 1 / 2 * (8 / 1000) * (84 / 10000) := by gcongr
    linarith
  · exact m2
  all_goals first | assumption | (rw [eκ]; norm_num) | norm_num

/-- Bounds that the filter and DC link of the shipped units share. -/
theorem shipped_L {L : ℝ} (h : L = 25 / 1000000 * (2 * Real.pi * 60) / 5) : 188 / 100000 ≤ L ∧ L ≤ 189 / 100000 := by
  rw [h]
  constructor <;> linarith [Real.pi_gt_d2, Real.pi_lt_d2]

/-- The duty cycle of the operating point is within its limit. -/
theorem shipped_duty {p : Par} (hR : p.Rf = 2 / 1000 / 5) (hL : p.Lf = 25 / 1000000 * (2 * Real.pi * 60) / 5) {v w U i : ℝ} (v0 : 0 ≤ v) (w1 : |w / p.wbase| ≤ 6 / 5) (U0 : 0 < U) (hU : 2 * v + 1 / 100 ≤ U) (i0 : 0 ≤ i)
    (i1 : i ≤ 174 / 100) : ‖(⟨(v + p.Rf * i) / (U / 2), p.Lf * (w / p.wbase) * i / (U / 2)⟩ : ℂ)‖ < 1 := by
  refine (norm_mk_le _ _).trans_lt ?_
  obtain ⟨L0, L1⟩ := shipped_L hL
  have hU : 0 < U / 2 := by linarith
  have x1 : |p.Lf * (w / p.wbase) * i| ≤ 4 / 1000 := by
    rw [abs_mul, abs_mul, abs_of_nonneg (by linarith : 0 ≤ p.Lf), abs_of_nonneg i0]
    calc p.Lf * |w / p.wbase| * i ≤ (189 / 100000) * (6 / 5) * (174 / 100) := by gcongr
      _ ≤ 4 / 1000 := by norm_num
  rw [abs_div _ (U / 2), abs_div _ (U / 2), abs_of_pos hU, ← add_div, div_lt_one hU, abs_of_nonneg (by rw [hR]; positivity), hR]
  linarith

namespace SinglePhase
open DcLoop (rest par)

/-- Gains, filter and DC link of the shipped 10 kVA single-phase unit (config_der.json 80-98; per unit: grid_components.py 12-20). -/
structure Unit10 (p : Par) : Prop where
  Kp : p.Kp_GCC = 12000
  Ki : p.Ki_GCC = 4000
  wp : p.wp = 200000
  KpDC : p.Kp_DC = -4
  KiDC : p.Ki_DC = -20
  KpQ : p.Kp_Q = 2 / 5
  KiQ : p.Ki_Q = 20
  Rf : p.Rf = 2 / 1000 / 5
  Lf : p.Lf = 25 / 1000000 * (2 * Real.pi * 60) / 5
  C : p.C = 30 / 1000000 * (2 * Real.pi * 60) * 5
  KpPLL : 0 < p.Kp_PLL
  KiPLL : 0 < p.Ki_PLL

theorem Unit10.ok {p : Par} (h : Unit10 p) {v w U i F' : ℝ} (v0 : 2 / 5 ≤ v) (v1 : v ≤ 3 / 5) (w1 : |w / p.wbase| ≤ 6 / 5) (U0 : 13 / 10 ≤ U) (U1 : U ≤ 8 / 5) (i0 : 0 ≤ i) (i1 : i ≤ 26 / 25) (f0 : -1 ≤ F')
    (f1 : F' * U ≤ 1 / 2 * (v * i + p.Rf * i ^ 2)) : DcOk (par 1 p v w U i F') 32 5000 40000000 := by
  obtain ⟨L0, L1⟩ := shipped_L h.Lf
  have C0 : 565 / 10000 ≤ p.C := by rw [h.C]; linarith [Real.pi_gt_d4]
  have C1 : p.C ≤ 566 / 10000 := by rw [h.C]; linarith [Real.pi_lt_d4]
  have Cp : 0 < p.C := by linarith
  have Up : 0 < U := by linarith
  have vp : 0 < v := by linarith
  have q0 : 13 / 10 * (565 / 10000) ≤ U * p.C := by gcongr
  have q1 : U * p.C ≤ 8 / 5 * (566 / 10000) := by gcongr
  have qp : 0 < U * p.C := by positivity
  refine dc10_ok ?_ L0 L1 ?_ ?_ w1 v0 v1 i0 i1 h.Kp h.Ki h.wp ?_ ?_ ?_ ?_ ?_ ?_ ?_ ?_ (mul_pos h.KpPLL vp) (mul_pos h.KiPLL vp)
  · show p.Rf = _
    rw [h.Rf]; norm_num
  · show _ ≤ U / 2
    linarith
  · show U / 2 ≤ _
    linarith
  · show -p.Kp_DC = _
    rw [h.KpDC]; norm_num
  · show -p.Ki_DC = _
    rw [h.KiDC]; norm_num
  · show _ ≤ 1 / (2 * U * p.C)
    rw [le_div_iff₀ (by positivity)]; linarith
  · show 1 / (2 * U * p.C) ≤ _
    rw [div_le_iff₀ (by positivity)]; linarith
  · show -(4 / 5) * (1 / (2 * U * p.C) * (v + 2 * p.Rf * i)) ≤ -F' / (U * p.C)
    have e : -(4 / 5) * (1 / (2 * U * p.C) * (v + 2 * p.Rf * i)) = -(2 / 5 * (v + 2 * p.Rf * i)) / (U * p.C) := by field_simp; ring
    rw [e]
    have Rp : 0 < p.Rf := by rw [h.Rf]; norm_num
    have k1 : F' * U ≤ 2 / 5 * (v + 2 * p.Rf * i) * U := by
      have j1 : 1 / 2 * (v * i + p.Rf * i ^ 2) = 1 / 2 * (v + p.Rf * i) * i := by ring
      have j2 : 1 / 2 * (v + p.Rf * i) * i ≤ 1 / 2 * (v + 2 * p.Rf * i) * (26 / 25) := by
        gcongr
        nlinarith
      have j3 : 2 / 5 * (v + 2 * p.Rf * i) * (13 / 10) ≤ 2 / 5 * (v + 2 * p.Rf * i) * U := by gcongr
      linarith
    have k2 : F' ≤ 2 / 5 * (v + 2 * p.Rf * i) := le_of_mul_le_mul_right k1 Up
    gcongr
  · show -F' / (U * p.C) ≤ _
    rw [div_le_iff₀ qp]; linarith
  · show 1 / 2 * p.Kp_Q * v = 1 / 5 * v
    rw [h.KpQ]; ring
  · show 1 / 2 * p.Ki_Q * v = 10 * v
    rw [h.KiQ]; ring

/-- C124 for the shipped 10 kVA single-phase unit, at every grid voltage of 0.4 to 0.6 per unit (nominal 0.5), every frequency up to 1.2 per unit, every DC reference of 1.3 to 1.6 per unit below the
limit of the module, every load below the current limit (1.039 per unit) and every insolation and temperature that supply it, unless the module works far beyond its maximum power point (slope -1):
one radius, overshoot and rate for all solutions. -/
theorem C124_shipped_single {p : Par} (h : Unit10 p) (hm : p.m_limit = 1) (hl : p.iref_limit ≤ 26 / 25) (hb : 0 < p.Vdcbase) (hp : PV.Physical p.mod) {v w U i S T : ℝ} (v0 : 2 / 5 ≤ v) (v1 : v ≤ 3 / 5)
    (w1 : |w / p.wbase| ≤ 6 / 5) (U0 : 13 / 10 ≤ U) (U1 : U ≤ 8 / 5) (UV : U * p.Vdcbase < p.Vdcmpp_max) (i0 : 0 < i) (i1 : i < p.iref_limit) (hT : 0 < T)
    (hP : pvCurve p S T U = 1 / 2 * (v * i + p.Rf * i ^ 2)) (hF : -1 ≤ pvSlope p S T U) :
    ∃ δ > 0, ∃ M > 0, ∃ a > 0, ∀ (inp : ℝ → Inp) (Y : ℝ → V → ℝ), OperatingDc 1 p v w U i (pvCurve p S T) inp → (∀ t, 0 ≤ t → Solves (fun t y => rhs (env1 p (inp t) y)) Y t) →
      ‖Y 0 - rest p v w U i 0‖ ≤ δ → ∀ t, 0 ≤ t → ‖Y t - rest p v w U i t‖ ≤ M * ‖Y 0 - rest p v w U i 0‖ * Real.exp (-a * t) := by
  have Rp : 0 < p.Rf := by rw [h.Rf]; norm_num
  have vp : 0 < v := by linarith
  have Up : 0 < U := by linarith
  have pp : 0 < pvCurve p S T U := by rw [hP]; positivity
  have sl := pv_slope_le hp hT hb Up UV pp
  rw [le_div_iff₀ Up, hP] at sl
  refine C124_settles_single vp Up ?_ hP (pv_smooth UV pp) (h.ok v0 v1 w1 U0 U1 i0.le (by linarith) hF sl) ?_ (by rw [abs_of_pos i0]; exact i1)
  · rw [h.C]; positivity
  · rw [hm]; exact shipped_duty h.Rf h.Lf (by linarith) w1 Up (by linarith) i0.le (by linarith)

end SinglePhase

namespace ThreePhaseBalanced
open DcLoop (rest par)

/-- Gains, filter and DC link of the shipped 50 kVA units (config_der.json 2-22, 100-119; per unit: grid_components.py 12-20). -/
structure Unit50 (p : Par) : Prop where
  Kp : p.Kp_GCC = 6000
  Ki : p.Ki_GCC = 2000
  wp : p.wp = 200000
  KpDC : p.Kp_DC = -2
  KiDC : p.Ki_DC = -10
  KpQ : p.Kp_Q = 1 / 5
  KiQ : p.Ki_Q = 10
  Rf : p.Rf = 2 / 1000 / 5
  Lf : p.Lf = 25 / 1000000 * (2 * Real.pi * 60) / 5
  C : p.C = 300 / 1000000 * (2 * Real.pi * 60) * 5
  KpPLL : 0 < p.Kp_PLL
  KiPLL : 0 < p.Ki_PLL

theorem Unit50.ok {p : Par} (h : Unit50 p) {v w U i F' : ℝ} (v0 : 2 / 5 ≤ v) (v1 : v ≤ 13 / 25) (w1 : |w / p.wbase| ≤ 6 / 5) (U0 : 21 / 20 ≤ U) (U1 : U ≤ 13 / 10) (i0 : 0 ≤ i) (i1 : i ≤ 174 / 100) (f0 : -1 ≤ F')
    (f1 : F' ≤ 1 / 2) : DcOk (par 3 p v w U i F') 32 5000 1900000 := by
  obtain ⟨L0, L1⟩ := shipped_L h.Lf
  have C0 : 565 / 1000 ≤ p.C := by rw [h.C]; linarith [Real.pi_gt_d4]
  have C1 : p.C ≤ 566 / 1000 := by rw [h.C]; linarith [Real.pi_lt_d4]
  have Cp : 0 < p.C := by linarith
  have Up : 0 < U := by linarith
  have vp : 0 < v := by linarith
  have q0 : 21 / 20 * (565 / 1000) ≤ U * p.C := by gcongr
  have q1 : U * p.C ≤ 13 / 10 * (566 / 1000) := by gcongr
  have qp : 0 < U * p.C := by positivity
  refine dc50_ok ?_ L0 L1 ?_ ?_ w1 v0 v1 i0 i1 h.Kp h.Ki h.wp ?_ ?_ ?_ ?_ ?_ ?_ ?_ ?_ (mul_pos h.KpPLL vp) (mul_pos h.KiPLL vp)
  · show p.Rf = _
    rw [h.Rf]; norm_num
  · show _ ≤ U / 2
    linarith
  · show U / 2 ≤ _
    linarith
  · show -p.Kp_DC = _
    rw [h.KpDC]; norm_num
  · show -p.Ki_DC = _
    rw [h.KiDC]; norm_num
  · show _ ≤ 3 / (2 * U * p.C)
    rw [le_div_iff₀ (by positivity)]; linarith
  · show 3 / (2 * U * p.C) ≤ _
    rw [div_le_iff₀ (by positivity)]; linarith
  · show _ ≤ -F' / (U * p.C)
    rw [le_div_iff₀ qp]; linarith
  · show -F' / (U * p.C) ≤ _
    rw [div_le_iff₀ qp]; linarith
  · show 3 / 2 * p.Kp_Q * v = 3 / 10 * v
    rw [h.KpQ]; ring
  · show 3 / 2 * p.Ki_Q * v = 15 * v
    rw [h.KiQ]; ring

/-- C124 for the shipped balanced 50 kVA unit, at every grid voltage of 0.4 to 0.52 per unit (nominal 0.5), every frequency up to 1.2 per unit, every DC reference of 1.05 to 1.3 per unit (the range of
its module), every load below the current limit (1.731 per unit) and every insolation and temperature that supply it near the maximum power point (slope between -1 and 1/2). -/
theorem C124_shipped_balanced {p : Par} (h : Unit50 p) (hm : p.m_limit = 1) (hl : p.iref_limit ≤ 174 / 100) {v w U i S T : ℝ} (v0 : 2 / 5 ≤ v) (v1 : v ≤ 13 / 25)
    (w1 : |w / p.wbase| ≤ 6 / 5) (U0 : 21 / 20 ≤ U) (U1 : U ≤ 13 / 10) (vU : 2 * v + 1 / 100 ≤ U) (UV : U * p.Vdcbase < p.Vdcmpp_max) (i0 : 0 < i) (i1 : i < p.iref_limit)
    (hP : pvCurve p S T U = 3 / 2 * (v * i + p.Rf * i ^ 2)) (f0 : -1 ≤ pvSlope p S T U) (f1 : pvSlope p S T U ≤ 1 / 2) :
    ∃ δ > 0, ∃ M > 0, ∃ a > 0, ∀ (inp : ℝ → Inp) (Y : ℝ → V → ℝ), OperatingDc 3 p v w U i (pvCurve p S T) inp → (∀ t, 0 ≤ t → Solves (fun t y => rhs (envB p (inp t) y)) Y t) →
      ‖Y 0 - fun j => rest p v w U i 0 (toS j)‖ ≤ δ →
      ∀ t, 0 ≤ t → ‖Y t - fun j => rest p v w U i t (toS j)‖ ≤ M * ‖Y 0 - fun j => rest p v w U i 0 (toS j)‖ * Real.exp (-a * t) := by
  have Rp : 0 < p.Rf := by rw [h.Rf]; norm_num
  have vp : 0 < v := by linarith
  have Up : 0 < U := by linarith
  have pp : 0 < pvCurve p S T U := by rw [hP]; positivity
  refine C124_settles_balanced vp Up ?_ hP (pv_smooth UV pp) (h.ok v0 v1 w1 U0 U1 i0.le (by linarith) f0 f1) ?_ (by rw [abs_of_pos i0]; exact i1)
  · rw [h.C]; positivity
  · rw [hm]; exact shipped_duty h.Rf h.Lf (by linarith) w1 Up vU i0.le (by linarith)

end ThreePhaseBalanced

/-! ### Shipped units under operating conditions -/

/-- Conditions exist for every power. -/
theorem operatingDc_exists (G : ℝ) (p : Par) (v w U i : ℝ) (hI : 0 < p.mod.Iscr) (hN : 0 < p.mod.Np) (hS : 0 < p.mod.Sbase) (hV : 0 < min p.Vdcmpp_max (U * p.Vdcbase)) (hG : 0 ≤ G) (hv : 0 ≤ v) (hR : 0 ≤ p.Rf) (hi : 0 ≤ i) :
    ∃ S inp, OperatingDc G p v w U i (pvCurve p S p.mod.T0) inp := by
  obtain ⟨S, hS⟩ := PV.ppv_onto p.mod p.mod.T0 _ (G / 2 * (v * i + p.Rf * i ^ 2)) (by rw [sub_self, mul_zero, add_zero]; exact hI) hN hV hS (by positivity)
  exact ⟨S, fun t => { exInp with va := v, vb := ub v, vc := uc v, w := w, t := t, Q_ref := 0, Vdc_ref := U, Sinsol := S, Tactual := p.mod.T0 },
    fun t _ => ⟨rfl, rfl, rfl, rfl, rfl⟩, fun _ _ => rfl, fun _ _ => rfl, fun _ _ _ => rfl, hS⟩

/-- The slope in terms of the power. -/
theorem pv_slope_eq {p : Par} {S T U : ℝ} (h0 : U ≠ 0) (hb : p.Vdcbase ≠ 0) (hS : p.mod.Sbase ≠ 0) (hU : U * p.Vdcbase < p.Vdcmpp_max) (hp : 0 < pvCurve p S T U) :
    pvSlope p S T U = pvCurve p S T U / U - p.Vdcbase / p.mod.Sbase * (p.mod.Np * p.mod.Irs * Real.exp (PV.coef p.mod T * (U * p.Vdcbase)) * (PV.coef p.mod T * (U * p.Vdcbase))) := by
  rw [(pv_power_pos hU hp).2, PV.ipv_eq]
  unfold pvSlope PV.mppEq
  rw [show p.mod.q * (U * p.Vdcbase) / (p.mod.k * T * p.mod.A * p.mod.Ns) = PV.coef p.mod T * (U * p.Vdcbase) by unfold PV.coef; ring, show p.mod.q / (p.mod.k * T * p.mod.A * p.mod.Ns) = PV.coef p.mod T from rfl]
  field_simp
  ring

/-- The shipped 10 kVA unit (config_der.json 80-98, module DER_components.py 302-318). -/
noncomputable def par10dc : Par :=
  { Lf := 25 / 1000000 * (2 * Real.pi * 60) / 5, Rf := 2 / 1000 / 5, C := 30 / 1000000 * (2 * Real.pi * 60) * 5, Kp_GCC := 12000, Ki_GCC := 4000, wp := 200000, Kp_DC := -4, Ki_DC := -20, Kp_P := 0, Ki_P := 0,
    Kp_Q := 2 / 5, Ki_Q := 20, Kp_PLL := 180, Ki_PLL := 320, m_limit := 1, iref_limit := 103 / 100, wbase := 2 * Real.pi * 60, Tfilter_Vrms := 1/100, Vdcbase := 500, Vdcmpp_max := 800,
    mod := { PV.exMod with Np := 2, Ns := 1000 } }

/-- The shipped 50 kVA unit (config_der.json 100-119). -/
noncomputable def par50 : Par :=
  { Lf := 25 / 1000000 * (2 * Real.pi * 60) / 5, Rf := 2 / 1000 / 5, C := 300 / 1000000 * (2 * Real.pi * 60) * 5, Kp_GCC := 6000, Ki_GCC := 2000, wp := 200000, Kp_DC := -2, Ki_DC := -10, Kp_P := 0, Ki_P := 0,
    Kp_Q := 1 / 5, Ki_Q := 10, Kp_PLL := 180, Ki_PLL := 320, m_limit := 1, iref_limit := 173 / 100, wbase := 2 * Real.pi * 60, Tfilter_Vrms := 1/100, Vdcbase := 500, Vdcmpp_max := 650, mod := PV.exMod }

theorem exp15 : 3000000 ≤ Real.exp 15 := by
  have h : Real.exp 15 = Real.exp 1 ^ 15 := by rw [← Real.exp_nat_mul]; norm_num
  rw [h]
  calc (3000000 : ℝ) ≤ (2.7182818283 : ℝ) ^ 15 := by norm_num
    _ ≤ _ := by gcongr; exact Real.exp_one_gt_d9.le

theorem exp16 : Real.exp 16 ≤ 9000000 := by
  have h : Real.exp 16 = Real.exp 1 ^ 16 := by rw [← Real.exp_nat_mul]; norm_num
  rw [h]
  calc Real.exp 1 ^ 16 ≤ (2.7182818286 : ℝ) ^ 16 := by gcongr; exact Real.exp_one_lt_d9.le
    _ ≤ _ := by norm_num

/-- `C124_shipped_single` applies: nominal grid, DC voltage 700 V, current 0.8 per unit. -/
example : SinglePhase.Unit10 par10dc ∧ ∃ S inp, OperatingDc 1 par10dc (1 / 2) (2 * Real.pi * 60) (7 / 5) (4 / 5) (pvCurve par10dc S par10dc.mod.T0) inp ∧ -1 ≤ pvSlope par10dc S par10dc.mod.T0 (7 / 5) ∧
    ∀ t, 0 ≤ t → Solves (fun t y => SinglePhase.rhs (env1 par10dc (inp t) y)) (DcLoop.rest par10dc (1 / 2) (2 * Real.pi * 60) (7 / 5) (4 / 5)) t := by
  have h : SinglePhase.Unit10 par10dc := by constructor <;> first | rfl | norm_num [par10dc]
  obtain ⟨S, inp, ho⟩ := operatingDc_exists 1 par10dc (1 / 2) (2 * Real.pi * 60) (7 / 5) (4 / 5) (by norm_num [par10dc, PV.exMod]) (by norm_num [par10dc, PV.exMod]) (by norm_num [par10dc, PV.exMod])
    (by norm_num [par10dc]) (by norm_num) (by norm_num) (by norm_num [par10dc]) (by norm_num)
  have w1 : |2 * Real.pi * 60 / par10dc.wbase| ≤ 6 / 5 := by
    show |2 * Real.pi * 60 / (2 * Real.pi * 60)| ≤ _
    rw [div_self (by positivity)]; norm_num
  have UV : (7 / 5 : ℝ) * par10dc.Vdcbase < par10dc.Vdcmpp_max := by norm_num [par10dc]
  have pp : 0 < pvCurve par10dc S par10dc.mod.T0 (7 / 5) := by rw [ho.power]; norm_num [par10dc]
  refine ⟨h, S, inp, ho, ?_, fun t ht => SinglePhase.C124_rest_single (by norm_num) (by norm_num) ?_ ?_ ?_ (by norm_num [par10dc]) ho t ht⟩
  · rw [pv_slope_eq (by norm_num) (by norm_num [par10dc]) (by norm_num [par10dc, PV.exMod]) UV pp]
    have c1 : PV.coef par10dc.mod par10dc.mod.T0 * (7 / 5 * par10dc.Vdcbase) ≤ 16 := by norm_num [par10dc, PV.coef, PV.exMod]
    have c0 : 0 ≤ PV.coef par10dc.mod par10dc.mod.T0 * (7 / 5 * par10dc.Vdcbase) := by norm_num [par10dc, PV.coef, PV.exMod]
    have e1 := (Real.exp_le_exp.2 c1).trans exp16
    generalize PV.coef par10dc.mod par10dc.mod.T0 * (7 / 5 * par10dc.Vdcbase) = x at *
    have k : Real.exp x * x ≤ 9000000 * 16 := by gcongr
    have e2 : par10dc.Vdcbase / par10dc.mod.Sbase * (par10dc.mod.Np * par10dc.mod.Irs * Real.exp x * x) = 24 / 10000000000 * (Real.exp x * x) := by
      have q : par10dc.Vdcbase / par10dc.mod.Sbase * (par10dc.mod.Np * par10dc.mod.Irs) = 24 / 10000000000 := by norm_num [par10dc, PV.exMod]
      rw [← q]; ring
    rw [e2]
    have : 0 < pvCurve par10dc S par10dc.mod.T0 (7 / 5) / (7 / 5) := by positivity
    linarith
  · rw [h.Lf]; positivity
  · rw [h.C]; positivity
  · exact shipped_duty h.Rf h.Lf (by norm_num) w1 (by norm_num) (by norm_num) (by norm_num) (by norm_num)

/-- `C124_shipped_balanced` applies: nominal grid, DC voltage 550 V, current 1.2 per unit. -/
example : ThreePhaseBalanced.Unit50 par50 ∧ ∃ S inp, OperatingDc 3 par50 (1 / 2) (2 * Real.pi * 60) (11 / 10) (6 / 5) (pvCurve par50 S par50.mod.T0) inp ∧ -1 ≤ pvSlope par50 S par50.mod.T0 (11 / 10) ∧
    pvSlope par50 S par50.mod.T0 (11 / 10) ≤ 1 / 2 ∧
    ∀ t, 0 ≤ t → Solves (fun t y => ThreePhaseBalanced.rhs (envB par50 (inp t) y)) (fun t j => DcLoop.rest par50 (1 / 2) (2 * Real.pi * 60) (11 / 10) (6 / 5) t (ThreePhaseBalanced.toS j)) t := by
  have h : ThreePhaseBalanced.Unit50 par50 := by constructor <;> first | rfl | norm_num [par50]
  obtain ⟨S, inp, ho⟩ := operatingDc_exists 3 par50 (1 / 2) (2 * Real.pi * 60) (11 / 10) (6 / 5) (by norm_num [par50, PV.exMod]) (by norm_num [par50, PV.exMod]) (by norm_num [par50, PV.exMod])
    (by norm_num [par50]) (by norm_num) (by norm_num) (by norm_num [par50]) (by norm_num)
  have w1 : |2 * Real.pi * 60 / par50.wbase| ≤ 6 / 5 := by
    show |2 * Real.pi * 60 / (2 * Real.pi * 60)| ≤ _
    rw [div_self (by positivity)]; norm_num
  have UV : (11 / 10 : ℝ) * par50.Vdcbase < par50.Vdcmpp_max := by norm_num [par50]
  have hw : pvCurve par50 S par50.mod.T0 (11 / 10) = 3 / 2 * (1 / 2 * (6 / 5) + 2 / 1000 / 5 * (6 / 5) ^ 2) := ho.power
  have pp : 0 < pvCurve par50 S par50.mod.T0 (11 / 10) := by rw [hw]; norm_num
  have c1 : PV.coef par50.mod par50.mod.T0 * (11 / 10 * par50.Vdcbase) ≤ 152 / 10 := by norm_num [par50, PV.coef, PV.exMod]
  have c0 : 15 ≤ PV.coef par50.mod par50.mod.T0 * (11 / 10 * par50.Vdcbase) := by norm_num [par50, PV.coef, PV.exMod]
  have e := pv_slope_eq (by norm_num) (by norm_num [par50]) (by norm_num [par50, PV.exMod]) UV pp
  have e1 := (Real.exp_le_exp.2 (c1.trans (by norm_num : (152 / 10 : ℝ) ≤ 16))).trans exp16
  have e0 := exp15.trans (Real.exp_le_exp.2 c0)
  generalize PV.coef par50.mod par50.mod.T0 * (11 / 10 * par50.Vdcbase) = x at *
  have k : Real.exp x * x ≤ 9000000 * (152 / 10) := by gcongr
  have k0 : 3000000 * 15 ≤ Real.exp x * x := by gcongr
  have e2 : par50.Vdcbase / par50.mod.Sbase * (par50.mod.Np * par50.mod.Irs * Real.exp x * x) = 132 / 10000000000 * (Real.exp x * x) := by
    have q : par50.Vdcbase / par50.mod.Sbase * (par50.mod.Np * par50.mod.Irs) = 132 / 10000000000 := by norm_num [par50, PV.exMod]
    rw [← q]; ring
  rw [e2, hw] at e
  refine ⟨h, S, inp, ho, by linarith, by linarith, fun t ht => ThreePhaseBalanced.C124_rest_balanced (by norm_num) (by norm_num) ?_ ?_ ?_ (by norm_num [par50]) ho t ht⟩
  · rw [h.Lf]; positivity
  · rw [h.C]; positivity
  · exact shipped_duty h.Rf h.Lf (by norm_num) w1 (by norm_num) (by norm_num) (by norm_num) (by norm_num)

end Ode
end PvDer
