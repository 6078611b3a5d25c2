import Verif.Props.EvalRefs
import Verif.Props.VdcRef
import Mathlib.Tactic.IntervalCases

/-!
# Property C127: restoring the DC set-point on reconnection (`restore_Vdc`)
-/

namespace PvDer

namespace RT
variable {K W : Type} [Field K] [LinearOrder K] [IsStrictOrderedRing K]

/-- Without the frequency logic: the ramp is started by exactly the evaluations that reconnect, its exception is the only one, and it acts on the list as it was. -/
theorem eval_restore (c : Cfg K W) (s : St K W) (i : Inp K) (hl : s.lfEnable = false) (hr : c.restoreVdc = true) :
    (s.connected = false → (eval c s i).1.connected = true →
      (eval c s i).1.w = (c.ramp i.t s.w).1 ∧ (eval c s i).2 = (c.ramp i.t s.w).2 ∧ (eval c s i).1.refs = i.refs) ∧
    (¬ (s.connected = false ∧ (eval c s i).1.connected = true) → (eval c s i).1.w = s.w ∧ (eval c s i).2 = .ok ()) ∧
    (eval c s i).1.lfEnable = false := by
  have hu : (updateFlags c i.t i.V i.f { s with refs := i.refs }).2 = .ok () ∧ (updateFlags c i.t i.V i.f { s with refs := i.refs }).1.w = s.w ∧
      (updateFlags c i.t i.V i.f { s with refs := i.refs }).1.lfEnable = false ∧ (updateFlags c i.t i.V i.f { s with refs := i.refs }).1.connected = s.connected ∧
      (updateFlags c i.t i.V i.f { s with refs := i.refs }).1.refs = i.refs := by
    by_cases h : i.t > s.rtLock
    · rw [updateFlags_eq c i.t i.V i.f { s with refs := i.refs } h]
      simp only [hl]
      exact ⟨rfl, rfl, rfl, rfl, rfl⟩
    · rw [updateFlags_lock c i.t i.V i.f { s with refs := i.refs } (not_lt.1 h)]
      exact ⟨rfl, rfl, hl, rfl, rfl⟩
  have he : eval c s i = disconnectOrReconnect c i.t (updateFlags c i.t i.V i.f { s with refs := i.refs }).1 := by
    unfold eval
    dsimp only
    rw [hu.1]
  have hk := (dor_keeps c i.t (updateFlags c i.t i.V i.f { s with refs := i.refs }).1).2.2.2.2.2.1
  rw [he, hk]
  obtain ⟨_, u2, u3, u4, u5⟩ := hu
  clear he hk
  generalize (updateFlags c i.t i.V i.f { s with refs := i.refs }).1 = s1 at u2 u3 u4 u5 ⊢
  rw [← u2, ← u4, ← u5]
  refine ⟨?_, ?_, u3⟩
  · intro hc
    have hin : (inner c i.t s1).1.connected = true → (inner c i.t s1).1.w = (c.ramp i.t s1.w).1 ∧ (inner c i.t s1).2 = (c.ramp i.t s1.w).2 ∧
        (inner c i.t s1).1.refs = s1.refs := by
      unfold inner reconnectLogic
      simp only [hr, hc]
      split_ifs <;> simp_all
    intro h
    rw [connect_eq] at h ⊢
    cases hq : (inner c i.t s1).2 with
    | error e =>
      rw [hq] at h
      obtain ⟨a, b, d⟩ := hin h
      exact ⟨a, by rw [← b, hq], d⟩
    | ok u =>
      rw [hq] at h
      dsimp only at h ⊢
      split_ifs at h ⊢ with hx
      · exact absurd h (by show ¬ (inner c i.t s1).1.connected = true; rw [hx]; simp)
      · obtain ⟨a, b, d⟩ := hin h
        exact ⟨a, by rw [← b, hq], d⟩
  · intro hn
    have hin : ¬ (s1.connected = false ∧ (inner c i.t s1).1.connected = true) → (inner c i.t s1).1.w = s1.w ∧ (inner c i.t s1).2 = .ok () := by
      unfold inner disconnectLogic reconnectLogic
      by_cases hc : s1.connected = true <;> simp only [hr, hc] <;> split_ifs <;> simp_all
    have hcon : (disconnectOrReconnect c i.t s1).1.connected = (inner c i.t s1).1.connected := by
      rw [connect_eq]
      cases hq : (inner c i.t s1).2 with
      | error e => rfl
      | ok u => dsimp only; split_ifs <;> rfl
    rw [hcon] at hn
    obtain ⟨a, b⟩ := hin hn
    rw [connect_eq, b]
    dsimp only
    split_ifs
    · exact ⟨a, rfl⟩
    · exact ⟨a, rfl⟩

end RT

namespace Eval
open Complex Phasor Ode

variable {k : Cls} {g : SCfg} {h : Hid} {c : Call k}

theorem dc_update (hdc : k.dcRef = true) {t : ℝ} {h' : Hid} (e : dcStage k t h = (h', .ok ())) :
    ∃ v, VdcRef.updateRef (wNow h) t = ((VdcRef.updateRef (wNow h) t).1, .ok v) ∧
      h' = { h with rt := { h.rt with w := (VdcRef.updateRef (wNow h) t).1, refs := { h.rt.refs with VdcRef := v } } } := by
  unfold dcStage at e
  rw [if_pos hdc] at e
  rcases hu : VdcRef.updateRef (wNow h) t with ⟨w, r⟩
  rw [hu] at e
  cases r with
  | error x => simp at e
  | ok v => simp only [Prod.mk.injEq, and_true] at e; exact ⟨v, rfl, e.symm⟩

theorem class_qref (hk : k ∈ classes) (p : Par) (i : Ode.Inp) (y : k.V → ℝ) : (k.env p i y).Q_ref = i.Q_ref := by
  simp only [classes, List.mem_cons, List.not_mem_nil, or_false] at hk
  rcases hk with rfl | rfl | rfl | rfl | rfl | rfl | rfl <;> rfl

theorem envC_vdcref (hk : k ∈ classes) (c : Call k) (h : Hid) : (envC k g c h).Vdc_ref = h.rt.refs.VdcRef := by
  unfold envC envP
  dsimp only
  split_ifs
  · exact class_vdcref hk _ _ _
  · exact class_vdcref hk _ _ _

/-- What the stages before the ride-through logic leave behind, if they all succeed. -/
theorem before_rt (hdc : k.dcRef = true) {h1 h2 h3 h4 : Hid} (e1 : gridStage g c.t h = (h1, .ok ()))
    (e2 : solarStage k g c.t (stateStage k c.y h1) = (h2, .ok ())) (e3 : loadStage k g c.jac c.t h2 = (h3, .ok ()))
    (e4 : dcStage k c.t (qStage k g c h3) = (h4, .ok ())) :
    ∃ v, VdcRef.updateRef (wNow h) c.t = ((VdcRef.updateRef (wNow h) c.t).1, .ok v) ∧
      (freqStage k g c (irefStage k g c h4)).rt.w = (VdcRef.updateRef (wNow h) c.t).1 ∧ (freqStage k g c (irefStage k g c h4)).rt.refs.VdcRef = v ∧
      (freqStage k g c (irefStage k g c h4)).rt.connected = h.rt.connected ∧ (freqStage k g c (irefStage k g c h4)).rt.lfEnable = h.rt.lfEnable := by
  have a1 : h1.rt = h.rt := by have := grid_rt (g := g) (h := h) c.t; rw [e1] at this; exact this
  have a2 : h2.rt = h.rt := by have := solar_rt (k := k) (g := g) (h := stateStage k c.y h1) c.t; rw [e2] at this; exact this.trans a1
  have a3 : h3.rt = h.rt := by have := load_rt (k := k) (g := g) (h := h2) c.jac c.t; rw [e3] at this; exact this.trans a2
  have hw : wNow (qStage k g c h3) = wNow h := by
    show wNow { h3 with rt := { h3.rt with refs := { h3.rt.refs with Qref := _ } } } = _
    unfold wNow; rw [a3]
  obtain ⟨v, u1, u2⟩ := dc_update hdc e4
  rw [hw] at u1 u2
  refine ⟨v, u1, ?_⟩
  rw [freq_rt, u2]
  refine ⟨rfl, rfl, ?_, ?_⟩
  · show h3.rt.connected = _; rw [a3]
  · show h3.rt.lfEnable = _; rw [a3]

/-- An evaluation that finds the DER disconnected and leaves it connected (also when it raises). -/
theorem reconnecting (hk : k ∈ classes) (hdc : k.dcRef = true) (hlf : h.rt.lfEnable = false) (hrv : g.restoreVdc = true) (hd : h.rt.connected = false)
    (hc : (evalEnv k g c h).1.rt.connected = true) :
    ∃ v, VdcRef.updateRef (wNow h) c.t = ((VdcRef.updateRef (wNow h) c.t).1, .ok v) ∧
      (evalEnv k g c h).1.rt.w = (VdcRef.ramp g.vdcCfg (VdcRef.updateRef (wNow h) c.t).1 c.t g.vdcTarget).1 ∧ (evalEnv k g c h).1.rt.refs.VdcRef = v ∧
      (evalEnv k g c h).1.rt.lfEnable = false ∧
      (∀ x, (VdcRef.ramp g.vdcCfg (VdcRef.updateRef (wNow h) c.t).1 c.t g.vdcTarget).2 = .error x → (evalEnv k g c h).2 = .error x) ∧
      ((VdcRef.ramp g.vdcCfg (VdcRef.updateRef (wNow h) c.t).1 c.t g.vdcTarget).2 = .ok () → ∃ e, (evalEnv k g c h).2 = .ok e ∧ e.Vdc_ref = v) := by
  have stages : ∃ h1 h2 h3 h4, gridStage g c.t h = (h1, .ok ()) ∧ solarStage k g c.t (stateStage k c.y h1) = (h2, .ok ()) ∧
      loadStage k g c.jac c.t h2 = (h3, .ok ()) ∧ dcStage k c.t (qStage k g c h3) = (h4, .ok ()) ∧
      evalEnv k g c h = rtStage k g c (freqStage k g c (irefStage k g c h4)) := by
    unfold evalEnv at hc ⊢
    rcases e1 : gridStage g c.t h with ⟨h1, r1⟩
    have a1 : h1.rt = h.rt := by have := grid_rt (g := g) (h := h) c.t; rw [e1] at this; exact this
    rw [e1] at hc
    cases r1 with
    | error x => simp only [andThen] at hc; rw [a1, hd] at hc; exact absurd hc (by simp)
    | ok u =>
      simp only [andThen] at hc ⊢
      rcases e2 : solarStage k g c.t (stateStage k c.y h1) with ⟨h2, r2⟩
      have a2 : h2.rt = h.rt := by have := solar_rt (k := k) (g := g) (h := stateStage k c.y h1) c.t; rw [e2] at this; exact this.trans a1
      rw [e2] at hc
      cases r2 with
      | error x => simp only at hc; rw [a2, hd] at hc; exact absurd hc (by simp)
      | ok u =>
        simp only at hc ⊢
        rcases e3 : loadStage k g c.jac c.t h2 with ⟨h3, r3⟩
        have a3 : h3.rt = h.rt := by have := load_rt (k := k) (g := g) (h := h2) c.jac c.t; rw [e3] at this; exact this.trans a2
        rw [e3] at hc
        cases r3 with
        | error x => simp only at hc; rw [a3, hd] at hc; exact absurd hc (by simp)
        | ok u =>
          simp only at hc ⊢
          rcases e4 : dcStage k c.t (qStage k g c h3) with ⟨h4, r4⟩
          rw [e4] at hc
          cases r4 with
          | error x =>
            have a4 : h4.rt.connected = h3.rt.connected := by
              unfold dcStage at e4
              rw [if_pos hdc] at e4
              rcases hu : VdcRef.updateRef (wNow (qStage k g c h3)) c.t with ⟨w, r⟩
              rw [hu] at e4
              cases r with
              | error y => simp only [Prod.mk.injEq] at e4; rw [← e4.1]; rfl
              | ok v => simp at e4
            simp only at hc; rw [a4, a3, hd] at hc; exact absurd hc (by simp)
          | ok u => exact ⟨h1, h2, h3, h4, rfl, e2, e3, e4, rfl⟩
  obtain ⟨h1, h2, h3, h4, e1, e2, e3, e4, e5⟩ := stages
  obtain ⟨v, u1, u2, u3, u4, u5⟩ := before_rt hdc e1 e2 e3 e4
  refine ⟨v, u1, ?_⟩
  rw [e5] at hc ⊢
  generalize freqStage k g c (irefStage k g c h4) = h5 at *
  have hm : measCheck k g c.t h5 (envC k g c h5) = .ok () := by
    cases hm : measCheck k g c.t h5 (envC k g c h5) with
    | error x =>
      simp only [rtStage, hm] at hc
      rw [u4, hd] at hc; exact absurd hc (by simp)
    | ok u => rfl
  have hfst : (rtStage k g c h5).1.rt = (RT.eval g.rt h5.rt ⟨c.t, measVal k g h5 (envC k g c h5), (envC k g c h5).we / (2 * Real.pi), refsOf (envC k g c h5)⟩).1 := by
    unfold rtStage
    dsimp only
    rw [hm]
    dsimp only
    split <;> rfl
  rw [hfst] at hc ⊢
  obtain ⟨r1, _, r3⟩ := RT.eval_restore g.rt h5.rt ⟨c.t, measVal k g h5 (envC k g c h5), (envC k g c h5).we / (2 * Real.pi), refsOf (envC k g c h5)⟩ (u5.trans hlf) hrv
  obtain ⟨w1, w2, w3⟩ := r1 (u4.trans hd) hc
  have hramp : ∀ s, g.rt.ramp c.t s = VdcRef.ramp g.vdcCfg s c.t g.vdcTarget := fun _ => rfl
  dsimp only at w1 w2 w3
  rw [hramp, u2] at w1 w2
  refine ⟨w1, ?_, r3, ?_, ?_⟩
  · rw [w3]; show (envC k g c h5).Vdc_ref = v; rw [envC_vdcref hk, u3]
  · intro x hx
    rw [hx] at w2
    unfold rtStage
    dsimp only
    rw [hm]
    dsimp only
    rw [w2]
  · intro hx
    rw [hx] at w2
    refine ⟨envC k g c h5, ?_, ?_⟩
    · unfold rtStage
      dsimp only
      rw [hm]
      dsimp only
      rw [w2, hc]
      rfl
    · rw [envC_vdcref hk, u3]

/-- A successful evaluation that does not reconnect. -/
theorem not_reconnecting (hk : k ∈ classes) (hdc : k.dcRef = true) (hlf : h.rt.lfEnable = false) (hrv : g.restoreVdc = true) {e : Env} (he : (evalEnv k g c h).2 = .ok e)
    (hn : ¬ (h.rt.connected = false ∧ (evalEnv k g c h).1.rt.connected = true)) :
    ∃ v, VdcRef.updateRef (wNow h) c.t = ((VdcRef.updateRef (wNow h) c.t).1, .ok v) ∧ (evalEnv k g c h).1.rt.w = (VdcRef.updateRef (wNow h) c.t).1 ∧
      (evalEnv k g c h).1.rt.lfEnable = false ∧
      ((evalEnv k g c h).1.rt.connected = true → e.Vdc_ref = v ∧ (evalEnv k g c h).1.rt.refs.VdcRef = v) ∧
      ((evalEnv k g c h).1.rt.connected = false → (evalEnv k g c h).1.rt.refs.VdcRef = e.Vdc) := by
  obtain ⟨h1, h2, h3, h4, e1, e2, e3, e4, e5⟩ := eval_ok he
  obtain ⟨v, u1, u2, u3, u4, u5⟩ := before_rt hdc e1 e2 e3 e4
  refine ⟨v, u1, ?_⟩
  rw [e5] at hn he ⊢
  generalize freqStage k g c (irefStage k g c h4) = h5 at *
  obtain ⟨m1, m2, m3, m4⟩ := rt_ok he
  rw [m3] at hn m4 ⊢
  obtain ⟨_, r2, r3⟩ := RT.eval_restore g.rt h5.rt ⟨c.t, measVal k g h5 (envC k g c h5), (envC k g c h5).we / (2 * Real.pi), refsOf (envC k g c h5)⟩ (u5.trans hlf) hrv
  rw [← u4] at hn
  refine ⟨(r2 hn).1.trans u2, r3, ?_, ?_⟩
  · intro hc
    have hrefs := RT.eval_connected_refs g.rt h5.rt _ m2 hc
    dsimp only at hc m4 ⊢
    rw [hc, if_pos rfl] at m4
    rw [hrefs, m4]
    exact ⟨by rw [envC_vdcref hk, u3], by show (envC k g c h5).Vdc_ref = v; rw [envC_vdcref hk, u3]⟩
  · intro hc
    dsimp only at hc m4 ⊢
    rw [hc] at m4
    have hu := (RT.updateFlags_conn g.rt c.t (measVal k g h5 (envC k g c h5)) ((envC k g c h5).we / (2 * Real.pi)) { h5.rt with refs := refsOf (envC k g c h5) } (u5.trans hlf)).2.1
    have hev : RT.eval g.rt h5.rt ⟨c.t, measVal k g h5 (envC k g c h5), (envC k g c h5).we / (2 * Real.pi), refsOf (envC k g c h5)⟩ =
        RT.disconnectOrReconnect g.rt c.t (RT.updateFlags g.rt c.t (measVal k g h5 (envC k g c h5)) ((envC k g c h5).we / (2 * Real.pi)) { h5.rt with refs := refsOf (envC k g c h5) }).1 := by
      unfold RT.eval
      dsimp only
      rw [hu]
    have huv : (RT.updateFlags g.rt c.t (measVal k g h5 (envC k g c h5)) ((envC k g c h5).we / (2 * Real.pi)) { h5.rt with refs := refsOf (envC k g c h5) }).1.refs = refsOf (envC k g c h5) := by
      by_cases ht : c.t > h5.rt.rtLock
      · rw [RT.updateFlags_eq g.rt c.t _ _ { h5.rt with refs := refsOf (envC k g c h5) } ht]
        simp only [u5.trans hlf]
        rfl
      · rw [RT.updateFlags_lock g.rt c.t _ _ { h5.rt with refs := refsOf (envC k g c h5) } (not_lt.1 ht)]
    rw [hev] at hc ⊢
    obtain ⟨_, _, _, _, _, z6, _⟩ := RT.C33_disconnected_refs_zero g.rt c.t _ hc
    rw [z6, huv, m4]
    rfl

end Eval

namespace VdcRef
variable {K : Type} [Field K] [LinearOrder K] [IsStrictOrderedRing K]

/-- Specification: `i + 1` steps of `d` volts from `V0` towards `target`, but not beyond. -/
def stair (V0 target d : K) (i : Nat) : K := V0 + (if V0 > target then -1 else 1) * min (((i : K) + 1) * d) |target - V0|

/-- Specification: number of steps of a staircase (a single entry if the target is within one step). -/
def stairLen [FloorSemiring K] (V0 target d : K) : Nat := max 1 ⌈|target - V0| / d⌉₊

theorem stair_end (V0 target d : K) (i : Nat) (h : |target - V0| ≤ ((i : K) + 1) * d) : stair V0 target d i = target := by
  unfold stair
  rw [min_eq_right h]
  split_ifs with hc
  · rw [abs_of_neg (by linarith)]; ring
  · rw [abs_of_nonneg (by linarith)]; ring

omit [IsStrictOrderedRing K] in
theorem addLoop_frame (c : Cfg K) (ts vs : List K) (s : St K) :
    (addLoop c s ts vs).1.inst.ctr = s.inst.ctr ∧ (vs ≠ [] → (addLoop c s ts vs).2 = .ok () → (addLoop c s ts vs).1.inst.total = (addLoop c s ts vs).1.lst.length) := by
  induction vs generalizing s ts with
  | nil => cases ts <;> exact ⟨rfl, fun h => absurd rfl h⟩
  | cons v vs ih =>
    cases ts with
    | nil => exact ⟨rfl, fun _ h => by simp [addLoop] at h⟩
    | cons t ts =>
      unfold addLoop
      unfold addRef
      split_ifs with hc
      · exact ⟨rfl, fun _ h => by simp at h⟩
      · dsimp only
        obtain ⟨i1, i2⟩ := ih ts ⟨addTimed t (v / c.base) s.lst, { s.inst with total := (addTimed t (v / c.base) s.lst).length }⟩
        refine ⟨i1, fun _ h => ?_⟩
        by_cases hv : vs = []
        · subst hv
          cases ts <;> rfl
        · exact i2 hv h

/-- A ramp started on an empty schedule. -/
theorem ramp_empty [FloorSemiring K] (c : Cfg K) (hb : c.base ≠ 0) (hdT : 0 < c.delT) (hdT1 : c.delT ≤ 1) (s : St K) (hs : s.lst = []) (t target : K)
    (hdel : 0 < s.inst.del) (hv : c.vmin ≤ s.inst.ref * c.base ∧ s.inst.ref * c.base ≤ c.vmax) (ht : c.vmin ≤ target ∧ target ≤ c.vmax) :
    (ramp c s t target).2 = .ok () ∧ StrictSorted (ramp c s t target).1.lst ∧ (ramp c s t target).1.inst.total = (ramp c s t target).1.lst.length ∧
      (ramp c s t target).1.inst.ctr = s.inst.ctr ∧
      (ramp c s t target).1.inst.del = (if s.inst.ref * c.base - target > s.inst.del then -s.inst.del else s.inst.del) ∧
      ∀ T w, Holds (ramp c s t target).1.lst T w ↔ ∃ i < stairLen (s.inst.ref * c.base) target s.inst.del,
        T = t + i * c.delT ∧ w = stair (s.inst.ref * c.base) target s.inst.del i / c.base := by
  have hg : getRef s t = (s, .ok s.inst.ref) := by
    unfold getRef; rw [hs]; simp only [playback]; rw [← hs]
  have hss : StrictSorted s.lst := by rw [hs]; exact List.Pairwise.nil
  set V0 := s.inst.ref * c.base with hV0
  set d := s.inst.del with hd
  by_cases hfar : d < |V0 - target|
  · obtain ⟨r1, r2, r3, n, val, n2, v1, v2, v3, v4⟩ := C45_ramp_partial c hb hdT hdT1 s hss t target s.inst.ref (by rw [hg]) hdel hfar hv ht
    simp only [← hV0, ← hd] at r1 r2 r3 v1 v2 v3 v4
    have hsg : ((if V0 > target then -1 else 1 : K)) * (target - V0) = |target - V0| := by
      split_ifs with h
      · rw [abs_of_neg (by linarith)]; ring
      · rw [abs_of_nonneg (by linarith)]; ring
    have hsq : ((if V0 > target then -1 else 1 : K)) * (if V0 > target then -1 else 1) = 1 := by split_ifs <;> ring
    have hdelta : |target - V0| = |V0 - target| := abs_sub_comm _ _
    have hn : n = stairLen V0 target d := by
      obtain ⟨m, rfl⟩ : ∃ m, n = m + 2 := ⟨n - 2, by omega⟩
      obtain ⟨a, b⟩ := v3 m (by omega)
      have hl : val (m + 1) = target := v1
      rw [hl, v2 m (by omega)] at a b
      have e : ((if V0 > target then -1 else 1 : K)) * (target - (V0 + (if V0 > target then -1 else 1) * ((m : K) + 1) * d)) = |target - V0| - ((m : K) + 1) * d := by
        rw [← hsg]; linear_combination (-((m : K) + 1) * d) * hsq
      rw [e] at a b
      unfold stairLen
      have : ⌈|target - V0| / d⌉₊ = m + 2 := by
        rw [Nat.ceil_eq_iff (by omega)]
        push_cast
        constructor
        · rw [lt_div_iff₀ hdel]; linarith
        · rw [div_le_iff₀ hdel]; linarith
      rw [this]; omega
    have hval : ∀ i < n, val i = stair V0 target d i := by
      intro i hi
      by_cases h1 : i + 1 < n
      · rw [v2 i h1]
        unfold stair
        have hlt : i + 1 < ⌈|target - V0| / d⌉₊ := by
          rw [hn] at h1; unfold stairLen at h1; omega
        have := (Nat.lt_ceil.1 hlt)
        push_cast at this
        rw [lt_div_iff₀ hdel] at this
        rw [min_eq_left this.le]; ring
      · have : i = n - 1 := by omega
        rw [this, v1, stair_end]
        have : ⌈|target - V0| / d⌉₊ ≤ n := by rw [hn]; unfold stairLen; omega
        have := Nat.ceil_le.1 this
        rw [div_le_iff₀ hdel] at this
        have e : (((n - 1 : Nat) : K) + 1) = n := by
          have : ((n - 1 + 1 : Nat) : K) = n := by congr 1; omega
          push_cast at this; exact this
        rw [e]; exact this
    refine ⟨r1, r2, ?_, ?_, ?_, ?_⟩
    · unfold ramp at r1 ⊢
      rw [hg] at r1 ⊢
      dsimp only at r1 ⊢
      rw [← hV0, ← hd] at r1 ⊢
      rw [if_neg (not_le.2 hfar)] at r1 ⊢
      split_ifs at r1 ⊢ with q1 q2 q3
      all_goals exact (addLoop_frame c _ _ _).2 (by simp) r1
    · unfold ramp
      rw [hg]
      dsimp only
      split_ifs <;> first | rfl | (unfold addRef; split_ifs <;> rfl) | exact (addLoop_frame c _ _ _).1
    · rw [r3]
      by_cases h : V0 > target
      · rw [if_pos h, if_pos (by rw [abs_of_pos (by linarith)] at hfar; exact hfar)]; ring
      · rw [if_neg h, if_neg (by linarith)]; ring
    · intro T w
      rw [v4 T w, hs, ← hn]
      constructor
      · rintro (⟨i, hi, h1, h2⟩ | ⟨_, h⟩)
        · exact ⟨i, hi, h1, by rw [h2, hval i hi]⟩
        · simp [Holds] at h
      · rintro ⟨i, hi, h1, h2⟩
        exact Or.inl ⟨i, hi, h1, by rw [h2, hval i hi]⟩
  · rw [not_lt] at hfar
    rw [C45_short_ramp c s t target s.inst.ref (by rw [hg]) hfar, hg]
    have ha : addRef c s t target = (⟨addTimed t (target / c.base) [], { s.inst with total := (addTimed t (target / c.base) ([] : List (Ev K K))).length }⟩, .ok ()) := by
      unfold addRef
      rw [if_neg (by push Not; exact ht), hs]
    dsimp only
    rw [ha]
    refine ⟨rfl, addTimed_sorted _ _ List.Pairwise.nil, rfl, rfl, ?_, ?_⟩
    · have := (abs_le.1 hfar).2
      rw [if_neg (by linarith)]
    · intro T w
      have hlen : stairLen V0 target d = 1 := by
        unfold stairLen
        have : ⌈|target - V0| / d⌉₊ ≤ 1 := by
          rw [Nat.ceil_le, div_le_iff₀ hdel]
          rw [abs_sub_comm]; simpa using hfar
        omega
      rw [Events.C03_map_update List.Pairwise.nil t (target / c.base) T w, hlen]
      constructor
      · rintro (⟨rfl, rfl⟩ | ⟨_, h⟩)
        · exact ⟨0, by omega, by simp, by rw [stair_end]; rw [abs_sub_comm]; simpa using hfar⟩
        · simp [Holds] at h
      · rintro ⟨i, hi, rfl, rfl⟩
        obtain rfl : i = 0 := by omega
        left
        exact ⟨by simp, by rw [stair_end]; rw [abs_sub_comm]; simpa using hfar⟩

/-- A ramp started on an empty schedule from an infeasible voltage, more than one step outside the range, raises. -/
theorem ramp_infeasible [FloorSemiring K] (c : Cfg K) (hdT : 0 < c.delT) (s : St K) (hs : s.lst = []) (t target : K)
    (hdel : 0 < s.inst.del) (hv : s.inst.ref * c.base < c.vmin - s.inst.del ∨ c.vmax + s.inst.del < s.inst.ref * c.base) (ht : c.vmin ≤ target ∧ target ≤ c.vmax) :
    (ramp c s t target).2 = .error .valueError ∧ (ramp c s t target).1.lst = [] := by
  have hg : getRef s t = (s, .ok s.inst.ref) := by
    unfold getRef; rw [hs]; simp only [playback]; rw [← hs]
  set V0 := s.inst.ref * c.base with hV0
  set d := s.inst.del with hd
  have main : ∀ (s2 : St K) (del : K), s2.lst = [] → del ≠ 0 → 0 < (target - V0) / del → d = |del| → (V0 + del < c.vmin ∨ V0 + del > c.vmax) → 
      d < |V0 - target| →
      arange (V0 + del) (target + del) del ≠ [] ∧ ∀ m : Nat, m ≠ 0 →
      (addLoop c s2 (arange t (t + (m : K)) c.delT) ((arange (V0 + del) (target + del) del).dropLast ++ [target])).2 = .error .valueError ∧
      (addLoop c s2 (arange t (t + (m : K)) c.delT) ((arange (V0 + del) (target + del) del).dropLast ++ [target])).1.lst = [] := by
    intro s2 del hl h0 hq hda hbad hfar
    have hcount : 2 ≤ ⌈(target + del - (V0 + del)) / del⌉₊ := by
      rw [show target + del - (V0 + del) = target - V0 by ring]
      have : 1 < (target - V0) / del := by
        have h1 : (target - V0) / del = |target - V0| / |del| := by rw [← abs_div, abs_of_pos hq]
        rw [h1, lt_div_iff₀ (abs_pos.2 h0), one_mul, ← hda, abs_sub_comm]; exact hfar
      have : 1 < ⌈(target - V0) / del⌉₊ := Nat.lt_ceil.2 (by simpa using this)
      omega
    obtain ⟨j, hj⟩ : ∃ j, ⌈(target + del - (V0 + del)) / del⌉₊ = j + 2 := ⟨_, (Nat.sub_add_cancel hcount).symm⟩
    have hr : arange (V0 + del) (target + del) del = (V0 + del) :: (List.range (j + 1)).map (fun i : Nat => V0 + del + ((i + 1 : Nat) : K) * del) := by
      unfold arange
      rw [hj, List.range_succ_eq_map]
      simp
    refine ⟨by rw [hr]; simp, ?_⟩
    intro m hm
    have htr : ∃ t' ts, arange t (t + (m : K)) c.delT = t' :: ts := by
      unfold arange
      have : 0 < ⌈(t + (m : K) - t) / c.delT⌉₊ := Nat.ceil_pos.2 (div_pos (by
        have : (0 : K) < m := by exact_mod_cast Nat.pos_of_ne_zero hm
        linarith) hdT)
      obtain ⟨q, hq⟩ : ∃ q, ⌈(t + (m : K) - t) / c.delT⌉₊ = q + 1 := ⟨_, (Nat.sub_add_cancel this).symm⟩
      rw [hq, List.range_succ_eq_map]
      exact ⟨_, _, rfl⟩
    obtain ⟨t', ts, htr⟩ := htr
    obtain ⟨b, bs, hbb⟩ : ∃ b bs, (List.range (j + 1)).map (fun i : Nat => V0 + del + ((i + 1 : Nat) : K) * del) = b :: bs := by
      rw [List.range_succ_eq_map]; exact ⟨_, _, rfl⟩
    rw [hr, htr, hbb]
    simp only [List.dropLast_cons_cons, List.cons_append, addLoop, addRef, if_pos hbad]
    exact ⟨trivial, hl⟩
  have hfar : d < |V0 - target| := by
    rcases hv with h | h
    · rw [abs_of_neg (by linarith [ht.1])]; linarith [ht.1]
    · rw [abs_of_pos (by linarith [ht.2])]; linarith [ht.2]
  unfold ramp
  rw [hg]
  dsimp only
  rw [← hV0, ← hd, if_neg (not_le.2 hfar)]
  rcases hv with h | h
  · have hgt : ¬ V0 > target := by linarith [ht.1]
    obtain ⟨m1, m2⟩ := main { s with inst := { s.inst with del := d } } d hs hdel.ne' (div_pos (by linarith [ht.1]) hdel) (abs_of_pos hdel).symm
      (Or.inl (by linarith)) hfar
    simp only [if_neg hgt, if_neg hdel.ne', if_neg m1]
    exact m2 _ (by intro h0; exact m1 (List.length_eq_zero_iff.1 h0))
  · have hgt : V0 > target := by linarith [ht.2]
    obtain ⟨m1, m2⟩ := main { s with inst := { s.inst with del := -d } } (-d) hs (neg_ne_zero.2 hdel.ne') (div_pos_of_neg_of_neg (by linarith [ht.2]) (by linarith))
      (by rw [abs_neg, abs_of_pos hdel]) (Or.inr (by linarith)) hfar
    simp only [if_pos hgt, if_neg (neg_ne_zero.2 hdel.ne'), if_neg m1]
    exact m2 _ (by intro h0; exact m1 (List.length_eq_zero_iff.1 h0))

end VdcRef

namespace Eval
open Complex Phasor Ode VdcRef

variable {k : Cls} {g : SCfg} {h : Hid} {c : Call k}

/-- Settings under which the DC set-point is restored on reconnection: a class with a DC link, `restore_Vdc` on, frequency ride-through off, positive base value,
step time in (0, 1] s (default 0.5 s), feasible set-point. -/
structure Restores (k : Cls) (g : SCfg) : Prop where
  cls : k ∈ classes
  dc : k.dcRef = true
  on : g.restoreVdc = true
  base : 0 < g.vdcCfg.base
  dT : 0 < g.vdcCfg.delT
  dT1 : g.vdcCfg.delT ≤ 1
  target : g.vdcCfg.vmin ≤ g.vdcTarget ∧ g.vdcTarget ≤ g.vdcCfg.vmax

/-- No evaluation of the sequence reconnects the DER. -/
def NoReconnect (k : Cls) (g : SCfg) (h : Hid) (q : List (Call k)) : Prop :=
  ∀ a x b, q = a ++ x :: b → (run k g h a).rt.connected = false → (run k g h (a ++ [x])).rt.connected = false

/-- Evaluation times that do not go back and leave no gap of `δ` or more, starting from `a`. -/
def Close (δ : ℝ) : ℝ → List ℝ → Prop
  | _, [] => True
  | a, t :: ts => a ≤ t ∧ t < a + δ ∧ Close δ t ts

theorem close_ge {δ a : ℝ} {ts : List ℝ} (h : Close δ a ts) : ∀ t ∈ ts, a ≤ t := by
  induction ts generalizing a with
  | nil => simp
  | cons t ts ih =>
    intro x hx
    rcases List.mem_cons.1 hx with rfl | hx
    · exact h.1
    · exact h.1.trans (ih h.2.2 x hx)

/-- A schedule with entries at multiples of `δ` from `t0`. -/
theorem dense_of_close {l : List (Ev ℝ ℝ)} (hs : StrictSorted l) {t0 δ : ℝ} (hδ : 0 < δ) (hl : ∀ e ∈ l, ∃ i : ℕ, e.T = t0 + i * δ) {ts : List ℝ} (hc : Close δ t0 ts) :
    Dense l none ts := by
  have uniq : ∀ e ∈ l, ∀ e' ∈ l, e.T = e'.T → e = e' := by
    intro e he e' he' heq
    by_contra hne
    rcases List.pairwise_iff_getElem.1 hs with hp
    obtain ⟨i, hi, rfl⟩ := List.getElem_of_mem he
    obtain ⟨j, hj, rfl⟩ := List.getElem_of_mem he'
    rcases lt_trichotomy i j with h | h | h
    · exact absurd heq (ne_of_lt (hp i j hi hj h))
    · subst h; exact hne rfl
    · exact absurd heq (ne_of_gt (hp j i hj hi h))
  have gap : ∀ e ∈ l, ∀ e' ∈ l, |e.T - e'.T| < δ → e = e' := by
    intro e he e' he' hlt
    obtain ⟨i, hi⟩ := hl e he
    obtain ⟨j, hj⟩ := hl e' he'
    apply uniq e he e' he'
    rw [hi, hj] at hlt ⊢
    have : |((i : ℤ) - j : ℤ)| < 1 := by
      have h1 : |((i : ℝ) - j)| * δ < 1 * δ := by
        rw [one_mul]
        calc |((i : ℝ) - j)| * δ = |((i : ℝ) - j) * δ| := by rw [abs_mul, abs_of_pos hδ]
          _ = |t0 + i * δ - (t0 + j * δ)| := by congr 1; ring
          _ < δ := hlt
      have h2 := lt_of_mul_lt_mul_right h1 hδ.le
      exact_mod_cast h2
    have : (i : ℤ) = j := by
      rw [Int.abs_lt_one_iff] at this; omega
    have : i = j := by exact_mod_cast this
    rw [this]
  have rest : ∀ (ts : List ℝ) (a : ℝ), Close δ a ts → Dense l (some a) ts := by
    intro ts
    induction ts with
    | nil => intro a _; trivial
    | cons t ts ih =>
      intro a h
      refine ⟨fun b hb => by cases hb; exact h.1, ?_, ih t h.2.2⟩
      intro e he e' he' h1 h2 h3 h4
      simp only [AfterPrev] at h1 h3
      exact gap e he e' he' (abs_lt.2 ⟨by linarith [h.2.1], by linarith [h.2.1]⟩)
  cases ts with
  | nil => trivial
  | cons t ts =>
    refine ⟨by simp, ?_, rest ts t hc.2.2⟩
    intro e he e' he' _ h2 _ h4
    have hge : ∀ e ∈ l, t0 ≤ e.T := by
      intro e he
      obtain ⟨i, hi⟩ := hl e he
      rw [hi]
      have : (0:ℝ) ≤ i * δ := by positivity
      linarith
    exact gap e he e' he' (abs_lt.2 ⟨by linarith [hge e he, hc.2.1], by linarith [hge e' he', hc.2.1]⟩)

theorem updateRef_frame (s : VdcRef.St ℝ) (t : ℝ) :
    (updateRef s t).1.lst = s.lst ∧ (updateRef s t).1.inst.total = s.inst.total ∧ (updateRef s t).1.inst.del = s.inst.del ∧
      (updateRef s t).1.inst.ctr = (playback s.lst s.inst.total s.inst.ctr s.inst.ref t).1 ∧
      (updateRef s t).2 = (playback s.lst s.inst.total s.inst.ctr s.inst.ref t).2 ∧
      ∀ v, (updateRef s t).2 = .ok v → (updateRef s t).1.inst.ref = v := by
  unfold updateRef getRef
  generalize playback s.lst s.inst.total s.inst.ctr s.inst.ref t = r
  obtain ⟨c, r⟩ := r
  cases r <;> simp

/-- Along evaluations that do not reconnect, the schedule stays and is played as a plain query sequence. -/
theorem played (R : Restores k g) (q : List (Call k)) (h : Hid) (hlf : h.rt.lfEnable = false) (hok : Ok k g h q) (hno : NoReconnect k g h q)
    {e0 : Ev ℝ ℝ} {l' : List (Ev ℝ ℝ)} (hl : h.rt.w.lst = e0 :: l') (ht : ∀ c ∈ q, e0.T ≤ c.t) (d : ℝ) :
    (run k g h q).rt.lfEnable = false ∧ (run k g h q).rt.w.lst = h.rt.w.lst ∧ (run k g h q).rt.w.inst.total = h.rt.w.inst.total ∧
      (run k g h q).rt.w.inst.del = h.rt.w.inst.del ∧
      ∃ rs, ∀ ts, playSeq h.rt.w.lst h.rt.w.inst.total h.rt.w.inst.ctr d (q.map (·.t) ++ ts) =
        rs ++ playSeq h.rt.w.lst h.rt.w.inst.total (run k g h q).rt.w.inst.ctr d ts := by
  induction q generalizing h with
  | nil => exact ⟨hlf, rfl, rfl, rfl, [], fun ts => rfl⟩
  | cons c q ih =>
    obtain ⟨⟨e, he⟩, ok2⟩ := hok
    have hn : ¬ (h.rt.connected = false ∧ (evalEnv k g c h).1.rt.connected = true) := by
      rintro ⟨n1, n2⟩
      have := hno [] c q rfl n1
      rw [show run k g h ([] ++ [c]) = (evalEnv k g c h).1 from rfl, n2] at this
      exact absurd this (by simp)
    obtain ⟨v, u1, u2, u3, _, _⟩ := not_reconnecting R.cls R.dc hlf R.on he hn
    obtain ⟨f1, f2, f3, f4, f5, _⟩ := updateRef_frame (wNow h) c.t
    rw [← u2] at f1 f2 f3 f4
    obtain ⟨i1, i2, i3, i4, rs, i5⟩ := ih (evalEnv k g c h).1 u3 ok2
      (fun a x b hq h1 => hno (c :: a) x b (by rw [hq]; rfl) h1) (f1.trans hl) (fun x hx => ht x (List.mem_cons_of_mem _ hx))
    refine ⟨i1, i2.trans f1, i3.trans f2, i4.trans f3, (playback h.rt.w.lst h.rt.w.inst.total h.rt.w.inst.ctr d c.t).2 :: rs, ?_⟩
    intro ts
    have hctr : (evalEnv k g c h).1.rt.w.inst.ctr = (playback h.rt.w.lst h.rt.w.inst.total h.rt.w.inst.ctr d c.t).1 := by
      rw [f4]
      show (playback h.rt.w.lst h.rt.w.inst.total h.rt.w.inst.ctr _ c.t).1 = _
      rw [playback_dflt hl _ _ _ d c.t (ht c (by simp))]
    have := i5 ts
    rw [f1, f2, hctr] at this
    simp only [List.map_cons, List.cons_append, playSeq]
    congr 1

/-- The reference an evaluation at `x` reads, after evaluations that do not reconnect. -/
theorem read_at (R : Restores k g) (q : List (Call k)) (x : Call k) (h : Hid) (hlf : h.rt.lfEnable = false) (hok : Ok k g h q) (hno : NoReconnect k g h q)
    (hs : StrictSorted h.rt.w.lst) (hne : h.rt.w.lst ≠ []) (hT : h.rt.w.inst.total = h.rt.w.lst.length) (hctr : h.rt.w.inst.ctr = 0) {t0 : ℝ}
    (hl : ∀ e ∈ h.rt.w.lst, ∃ i : ℕ, e.T = t0 + i * g.vdcCfg.delT) (h0 : ∃ e ∈ h.rt.w.lst, e.T = t0)
    (hc : Close g.vdcCfg.delT t0 ((q ++ [x]).map (·.t))) :
    ∃ e e', IsLatest h.rt.w.lst x.t e ∧ (updateRef (wNow (run k g h q)) x.t).2 = .ok e.v ∧
      IsLatest h.rt.w.lst x.t e' ∧ (getRef (updateRef (wNow (run k g h q)) x.t).1 x.t).2 = .ok e'.v := by
  obtain ⟨e0, l', hel⟩ : ∃ e0 l', h.rt.w.lst = e0 :: l' := by
    cases hq : h.rt.w.lst with
    | nil => exact absurd hq hne
    | cons a b => exact ⟨a, b, rfl⟩
  have he0 : e0.T = t0 := by
    obtain ⟨e, he, hte⟩ := h0
    obtain ⟨i, hi⟩ := hl e0 (by rw [hel]; simp)
    have hge : t0 ≤ e0.T := by
      rw [hi]
      have := R.dT
      have : (0:ℝ) ≤ i * g.vdcCfg.delT := by positivity
      linarith
    rw [hel] at he hs
    rcases List.mem_cons.1 he with rfl | he
    · exact hte
    · have := (List.pairwise_cons.1 hs).1 e he
      linarith
  have hge := close_ge hc
  have hc2 : Close g.vdcCfg.delT t0 (q.map (·.t) ++ [x.t, x.t]) := by
    have : ∀ (ts : List ℝ) (a : ℝ), Close g.vdcCfg.delT a (ts ++ [x.t]) → Close g.vdcCfg.delT a (ts ++ [x.t, x.t]) := by
      intro ts
      induction ts with
      | nil => intro a h; exact ⟨h.1, h.2.1, le_rfl, by linarith [R.dT], trivial⟩
      | cons t ts ih => intro a h; exact ⟨h.1, h.2.1, ih t h.2.2⟩
    exact this _ _ (by simpa using hc)
  have hd := dense_of_close hs R.dT hl hc2
  have hget : ∀ c ∈ q, e0.T ≤ c.t := fun c hcq => by rw [he0]; exact hge c.t (by simp only [List.map_append, List.mem_append, List.mem_map]; exact Or.inl ⟨c, hcq, rfl⟩)
  have hxt : e0.T ≤ x.t := by rw [he0]; exact hge x.t (by simp)
  obtain ⟨p1, p2, p3, p4, rs, p5⟩ := played R q h hlf hok hno hel hget 0
  have hall := Events.playSeq_reset_dense hs (fun _ => hT) (0:ℝ) _ hd
  have hp := p5 [x.t, x.t]
  rw [hctr] at hp
  rw [hp] at hall
  have hrev := List.forall₂_reverse_iff.2 hall
  simp only [playSeq, List.reverse_append, List.reverse_cons, List.reverse_nil, List.nil_append, List.cons_append] at hrev
  rw [List.forall₂_cons, List.forall₂_cons] at hrev
  obtain ⟨⟨v2, hv2, hcor2⟩, ⟨v, hv, hcor⟩, _⟩ := hrev
  have latest : ∀ v, Correct h.rt.w.lst 0 x.t v → ∃ e, IsLatest h.rt.w.lst x.t e ∧ v = e.v := by
    rintro v (h1 | ⟨hlt, _⟩)
    · exact h1
    · exact absurd (hlt e0 (by rw [hel]; simp)) (not_lt.2 hxt)
  obtain ⟨e, hL, rfl⟩ := latest v hcor
  obtain ⟨e', hL', rfl⟩ := latest v2 hcor2
  refine ⟨e, e', hL, ?_, hL', ?_⟩
  · rw [(updateRef_frame _ _).2.2.2.2.1]
    show (playback (run k g h q).rt.w.lst (run k g h q).rt.w.inst.total (run k g h q).rt.w.inst.ctr _ x.t).2 = _
    rw [p2, p3, playback_dflt hel _ _ _ 0 x.t hxt, hv]
  · obtain ⟨f1, f2, _, f4, _⟩ := updateRef_frame (wNow (run k g h q)) x.t
    show (playback (updateRef (wNow (run k g h q)) x.t).1.lst (updateRef (wNow (run k g h q)) x.t).1.inst.total
      (updateRef (wNow (run k g h q)) x.t).1.inst.ctr (updateRef (wNow (run k g h q)) x.t).1.inst.ref x.t).2 = _
    rw [f1, f2, f4]
    show (playback (run k g h q).rt.w.lst (run k g h q).rt.w.inst.total (playback (run k g h q).rt.w.lst (run k g h q).rt.w.inst.total (run k g h q).rt.w.inst.ctr _ x.t).1
      _ x.t).2 = _
    rw [p2, p3, playback_dflt hel _ (run k g h q).rt.w.inst.ctr _ 0 x.t hxt, playback_dflt hel _ _ _ 0 x.t hxt, hv2]

theorem updateRef_empty (s : VdcRef.St ℝ) (hl : s.lst = []) (t : ℝ) : updateRef s t = (s, .ok s.inst.ref) := by
  unfold updateRef getRef
  rw [hl]
  simp only [playback]
  rw [← hl]

/-- The state of the schedule at the first reconnection. -/
theorem first_state (R : Restores k g) (hlf : h.rt.lfEnable = false) (hl : h.rt.w.lst = []) (c0 c : Call k) {e0 : Env}
    (he0 : (evalEnv k g c0 h).2 = .ok e0) (hd : (evalEnv k g c0 h).1.rt.connected = false) (hc : (evalEnv k g c (evalEnv k g c0 h).1).1.rt.connected = true) :
    ∃ s : VdcRef.St ℝ, s.lst = [] ∧ s.inst.ref = e0.Vdc ∧ s.inst.del = h.rt.w.inst.del ∧ s.inst.ctr = h.rt.w.inst.ctr ∧
      (evalEnv k g c (evalEnv k g c0 h).1).1.rt.w = (ramp g.vdcCfg s c.t g.vdcTarget).1 ∧
      (evalEnv k g c (evalEnv k g c0 h).1).1.rt.lfEnable = false ∧
      (∀ x, (ramp g.vdcCfg s c.t g.vdcTarget).2 = .error x → (evalEnv k g c (evalEnv k g c0 h).1).2 = .error x) ∧
      ((ramp g.vdcCfg s c.t g.vdcTarget).2 = .ok () → ∃ e, (evalEnv k g c (evalEnv k g c0 h).1).2 = .ok e ∧ e.Vdc_ref = e0.Vdc) := by
  obtain ⟨v, u1, u2, u3, _, u5⟩ := not_reconnecting R.cls R.dc hlf R.on he0 (by rintro ⟨_, n⟩; rw [hd] at n; exact absurd n (by simp))
  have hw0 : updateRef (wNow h) c0.t = (wNow h, .ok h.rt.refs.VdcRef) := updateRef_empty (wNow h) hl _
  rw [hw0] at u2
  generalize (evalEnv k g c0 h).1 = h1 at *
  have hl1 : h1.rt.w.lst = [] := by rw [u2]; exact hl
  obtain ⟨v', w1, w2, w3, w4, w5, w6⟩ := reconnecting (c := c) R.cls R.dc u3 R.on hd hc
  have hw1 : updateRef (wNow h1) c.t = (wNow h1, .ok h1.rt.refs.VdcRef) := updateRef_empty (wNow h1) hl1 _
  have hv' : v' = e0.Vdc := by
    have := congrArg Prod.snd (w1.symm.trans hw1)
    rw [← u5 hd]
    exact Except.ok.inj this
  rw [hw1] at w2 w5 w6
  rw [hv'] at w6
  refine ⟨wNow h1, hl1, u5 hd, ?_, ?_, w2, w4, w5, w6⟩
  · show h1.rt.w.inst.del = _; rw [u2]; rfl
  · show h1.rt.w.inst.ctr = _; rw [u2]; rfl

/-- The head of a staircase schedule. -/
theorem stair_head (h : Hid) (hs : StrictSorted h.rt.w.lst) {V0 d t0 : ℝ}
    (hH : ∀ T w, Holds h.rt.w.lst T w ↔ ∃ i < stairLen V0 g.vdcTarget d, T = t0 + i * g.vdcCfg.delT ∧ w = stair V0 g.vdcTarget d i / g.vdcCfg.base)
    {ts : List ℝ} (hc : Close g.vdcCfg.delT t0 ts) : ∃ e l', h.rt.w.lst = e :: l' ∧ ∀ t ∈ ts, e.T ≤ t := by
  have h0 : Holds h.rt.w.lst t0 (stair V0 g.vdcTarget d 0 / g.vdcCfg.base) := (hH _ _).2 ⟨0, by unfold stairLen; omega, by simp, rfl⟩
  cases hq : h.rt.w.lst with
  | nil => rw [hq] at h0; simp [Holds] at h0
  | cons a b =>
    refine ⟨a, b, rfl, ?_⟩
    intro t ht
    rw [hq] at h0 hs
    rcases List.mem_cons.1 h0 with h1 | h1
    · rw [← h1]; exact close_ge hc t ht
    · have := (List.pairwise_cons.1 hs).1 _ h1
      exact this.le.trans (close_ge hc t ht)

/-- What is read from a staircase schedule. -/
theorem read_stair (R : Restores k g) (q : List (Call k)) (x : Call k) (h : Hid) (hlf : h.rt.lfEnable = false) (hok : Ok k g h q) (hno : NoReconnect k g h q)
    (hs : StrictSorted h.rt.w.lst) (hT : h.rt.w.inst.total = h.rt.w.lst.length) (hctr : h.rt.w.inst.ctr = 0) {V0 d t0 : ℝ}
    (hd : 0 < d)
    (hH : ∀ T w, Holds h.rt.w.lst T w ↔ ∃ i < stairLen V0 g.vdcTarget d, T = t0 + i * g.vdcCfg.delT ∧ w = stair V0 g.vdcTarget d i / g.vdcCfg.base)
    (hc : Close g.vdcCfg.delT t0 ((q ++ [x]).map (·.t))) :
    (updateRef (wNow (run k g h q)) x.t).2 = .ok (stair V0 g.vdcTarget d ⌊(x.t - t0) / g.vdcCfg.delT⌋₊ / g.vdcCfg.base) ∧
    (getRef (updateRef (wNow (run k g h q)) x.t).1 x.t).2 = .ok (stair V0 g.vdcTarget d ⌊(x.t - t0) / g.vdcCfg.delT⌋₊ / g.vdcCfg.base) := by
  have h0 : Holds h.rt.w.lst t0 (stair V0 g.vdcTarget d 0 / g.vdcCfg.base) := (hH _ _).2 ⟨0, by unfold stairLen; omega, by simp, rfl⟩
  obtain ⟨e1, e2, hL1, hr1, hL2, hr2⟩ := read_at R q x h hlf hok hno hs (List.ne_nil_of_mem h0) hT hctr
    (fun e he => by obtain ⟨i, _, h1, _⟩ := (hH e.T e.v).1 he; exact ⟨i, h1⟩) ⟨_, h0, rfl⟩ hc
  rw [hr1, hr2]
  suffices key : ∀ e, IsLatest h.rt.w.lst x.t e → e.v = stair V0 g.vdcTarget d ⌊(x.t - t0) / g.vdcCfg.delT⌋₊ / g.vdcCfg.base by
    rw [key e1 hL1, key e2 hL2]; exact ⟨rfl, rfl⟩
  intro e hL
  obtain ⟨i, hi, hiT, hiv⟩ := (hH e.T e.v).1 hL.1
  rw [hiv]
  congr 1
  have hdT := R.dT
  have hxt : t0 ≤ x.t := close_ge hc x.t (by simp)
  have hpos : 0 ≤ (x.t - t0) / g.vdcCfg.delT := div_nonneg (by linarith) hdT.le
  have hile : i ≤ ⌊(x.t - t0) / g.vdcCfg.delT⌋₊ := by
    rw [Nat.le_floor_iff hpos, le_div_iff₀ hdT]
    have := hL.2.1
    rw [hiT] at this; linarith
  by_cases hlast : i + 1 < stairLen V0 g.vdcTarget d
  · have hn : ¬ t0 + ((i + 1 : ℕ) : ℝ) * g.vdcCfg.delT ≤ x.t := by
      intro hle
      have := hL.2.2 ⟨_, _⟩ ((hH _ _).2 ⟨i + 1, hlast, rfl, rfl⟩) hle
      rw [hiT] at this
      push_cast at this
      linarith
    have : ⌊(x.t - t0) / g.vdcCfg.delT⌋₊ < i + 1 := by
      rw [Nat.floor_lt hpos, div_lt_iff₀ hdT]
      linarith [not_le.1 hn]
    have : ⌊(x.t - t0) / g.vdcCfg.delT⌋₊ = i := by omega
    rw [this]
  · have hcover : ∀ j : ℕ, i ≤ j → |g.vdcTarget - V0| ≤ ((j : ℝ) + 1) * d := by
      intro j hj
      have h1 : ⌈|g.vdcTarget - V0| / d⌉₊ ≤ j + 1 := by unfold stairLen at hlast; omega
      have := Nat.ceil_le.1 h1
      rw [div_le_iff₀ hd] at this
      push_cast at this; exact this
    rw [stair_end _ _ _ _ (hcover i le_rfl), stair_end _ _ _ _ (hcover _ hile)]

theorem stair_long {D d τ : ℝ} (hd : 0 < d) (h : D / d ≤ τ) : D ≤ ((⌊τ⌋₊ : ℝ) + 1) * d := by
  rw [div_le_iff₀ hd] at h
  have := (Nat.lt_floor_add_one τ).le
  exact h.trans (mul_le_mul_of_nonneg_right this hd.le)

/-- C127, first reconnection.  The schedule is empty, evaluation `c0` leaves the DER disconnected with DC voltage `e0.Vdc`, evaluation `c` reconnects it.  Then `c`
succeeds, still uses the DC voltage of `c0` as reference, and the schedule becomes the staircase from that voltage to the set-point: one step (`del_Vdc_ref`, 2 V)
every `del_t_Vdc_ref` (0.5 s), beginning at `c.t`, the last step ending exactly at the set-point. -/
theorem C127_first_reconnection (R : Restores k g) (hlf : h.rt.lfEnable = false) (hl : h.rt.w.lst = []) (hdel : 0 < h.rt.w.inst.del) (c0 c : Call k) {e0 : Env}
    (he0 : (evalEnv k g c0 h).2 = .ok e0) (hd : (evalEnv k g c0 h).1.rt.connected = false) (hc : (evalEnv k g c (evalEnv k g c0 h).1).1.rt.connected = true)
    (hv : g.vdcCfg.vmin ≤ e0.Vdc * g.vdcCfg.base ∧ e0.Vdc * g.vdcCfg.base ≤ g.vdcCfg.vmax) :
    (∃ e, (evalEnv k g c (evalEnv k g c0 h).1).2 = .ok e ∧ e.Vdc_ref = e0.Vdc) ∧
    ∀ T w, Holds (evalEnv k g c (evalEnv k g c0 h).1).1.rt.w.lst T w ↔ ∃ i < stairLen (e0.Vdc * g.vdcCfg.base) g.vdcTarget h.rt.w.inst.del,
      T = c.t + i * g.vdcCfg.delT ∧ w = stair (e0.Vdc * g.vdcCfg.base) g.vdcTarget h.rt.w.inst.del i / g.vdcCfg.base := by
  obtain ⟨s, hs1, hs2, hs3, hs4, hs5, hs6⟩ := first_state R hlf hl c0 c he0 hd hc
  obtain ⟨r1, _, _, _, _, r6⟩ := ramp_empty g.vdcCfg R.base.ne' R.dT R.dT1 s hs1 c.t g.vdcTarget (by rw [hs3]; exact hdel) (by rw [hs2]; exact hv) R.target
  obtain ⟨e, he, hev⟩ := (hs6.2.2 r1)
  refine ⟨⟨e, he, hev⟩, ?_⟩
  rw [hs5]
  rw [hs2, hs3] at r6
  exact r6

/-- C127, the restored reference: after the first reconnection, at every evaluation `x` that finds and leaves the DER connected — all evaluations since the
reconnection being successful and less than `del_t_Vdc_ref` apart, none of them reconnecting — the reference used is the staircase value for the time passed. -/
theorem C127_restored_reference (R : Restores k g) (hlf : h.rt.lfEnable = false) (hl : h.rt.w.lst = []) (hctr : h.rt.w.inst.ctr = 0) (hdel : 0 < h.rt.w.inst.del)
    (c0 c : Call k) {e0 : Env} (he0 : (evalEnv k g c0 h).2 = .ok e0) (hd : (evalEnv k g c0 h).1.rt.connected = false)
    (hc : (evalEnv k g c (evalEnv k g c0 h).1).1.rt.connected = true)
    (hv : g.vdcCfg.vmin ≤ e0.Vdc * g.vdcCfg.base ∧ e0.Vdc * g.vdcCfg.base ≤ g.vdcCfg.vmax)
    (q : List (Call k)) (x : Call k) (hok : Ok k g (evalEnv k g c (evalEnv k g c0 h).1).1 (q ++ [x]))
    (hno : NoReconnect k g (evalEnv k g c (evalEnv k g c0 h).1).1 (q ++ [x])) (ht : Close g.vdcCfg.delT c.t ((q ++ [x]).map (·.t)))
    (hx : (run k g (evalEnv k g c (evalEnv k g c0 h).1).1 (q ++ [x])).rt.connected = true) :
    ∃ e, (evalEnv k g x (run k g (evalEnv k g c (evalEnv k g c0 h).1).1 q)).2 = .ok e ∧
      e.Vdc_ref = stair (e0.Vdc * g.vdcCfg.base) g.vdcTarget h.rt.w.inst.del ⌊(x.t - c.t) / g.vdcCfg.delT⌋₊ / g.vdcCfg.base := by
  obtain ⟨s, hs1, hs2, hs3, hs4, hs5, hs6⟩ := first_state R hlf hl c0 c he0 hd hc
  obtain ⟨r1, r2, r3, r4, _, r6⟩ := ramp_empty g.vdcCfg R.base.ne' R.dT R.dT1 s hs1 c.t g.vdcTarget (by rw [hs3]; exact hdel) (by rw [hs2]; exact hv) R.target
  rw [← hs5] at r2 r3 r4 r6
  rw [hs2, hs3] at r6
  rw [hs4, hctr] at r4
  obtain ⟨ok1, ⟨⟨e, he⟩, _⟩⟩ := (ok_append _ _ _).1 hok
  have hlf1 := hs6.1
  generalize (evalEnv k g c (evalEnv k g c0 h).1).1 = h1 at *
  have hno1 : NoReconnect k g h1 q := fun a y b hq => hno a y (b ++ [x]) (by rw [hq]; simp)
  obtain ⟨hread, _⟩ := read_stair R q x h1 hlf1 ok1 hno1 r2 r3 r4 hdel r6 ht
  have hn : ¬ ((run k g h1 q).rt.connected = false ∧ (evalEnv k g x (run k g h1 q)).1.rt.connected = true) := by
    rintro ⟨n1, n2⟩
    have := hno q x [] rfl n1
    rw [run_append] at this
    exact absurd (this.symm.trans n2) (by simp)
  have hlfq : (run k g h1 q).rt.lfEnable = false := by
    obtain ⟨ee, l', hel, hget⟩ := stair_head h1 r2 r6 ht
    exact (played R q h1 hlf1 ok1 hno1 hel (fun y hy => hget y.t (by simp only [List.map_append, List.mem_append, List.mem_map]; exact Or.inl ⟨y, hy, rfl⟩)) 0).1
  obtain ⟨v, u1, u2, u3, u4, _⟩ := not_reconnecting R.cls R.dc hlfq R.on he hn
  refine ⟨e, he, ?_⟩
  rw [run_append] at hx
  rw [(u4 hx).1]
  have : (updateRef (wNow (run k g h1 q)) x.t).2 = .ok v := by rw [u1]
  rw [hread] at this
  rw [← Except.ok.inj this]

/-- C127: once `del_t_Vdc_ref` per started 2 V step has passed, the reference is the nominal set-point again. -/
theorem C127_restored (R : Restores k g) (hlf : h.rt.lfEnable = false) (hl : h.rt.w.lst = []) (hctr : h.rt.w.inst.ctr = 0) (hdel : 0 < h.rt.w.inst.del)
    (c0 c : Call k) {e0 : Env} (he0 : (evalEnv k g c0 h).2 = .ok e0) (hd : (evalEnv k g c0 h).1.rt.connected = false)
    (hc : (evalEnv k g c (evalEnv k g c0 h).1).1.rt.connected = true)
    (hv : g.vdcCfg.vmin ≤ e0.Vdc * g.vdcCfg.base ∧ e0.Vdc * g.vdcCfg.base ≤ g.vdcCfg.vmax)
    (q : List (Call k)) (x : Call k) (hok : Ok k g (evalEnv k g c (evalEnv k g c0 h).1).1 (q ++ [x]))
    (hno : NoReconnect k g (evalEnv k g c (evalEnv k g c0 h).1).1 (q ++ [x])) (ht : Close g.vdcCfg.delT c.t ((q ++ [x]).map (·.t)))
    (hx : (run k g (evalEnv k g c (evalEnv k g c0 h).1).1 (q ++ [x])).rt.connected = true)
    (hlong : |g.vdcTarget - e0.Vdc * g.vdcCfg.base| / h.rt.w.inst.del ≤ (x.t - c.t) / g.vdcCfg.delT) :
    ∃ e, (evalEnv k g x (run k g (evalEnv k g c (evalEnv k g c0 h).1).1 q)).2 = .ok e ∧ e.Vdc_ref = g.vdcTarget / g.vdcCfg.base := by
  obtain ⟨e, he, hev⟩ := C127_restored_reference R hlf hl hctr hdel c0 c he0 hd hc hv q x hok hno ht hx
  refine ⟨e, he, ?_⟩
  rw [hev, stair_end _ _ _ _ (stair_long hdel hlong)]

/-- C127: a DC voltage more than one step outside the permitted range at the last evaluation before the first reconnection makes the reconnecting evaluation raise
`ValueError`: the simulation is aborted by the reconnection. -/
theorem C127_infeasible_voltage_aborts (R : Restores k g) (hlf : h.rt.lfEnable = false) (hl : h.rt.w.lst = []) (hdel : 0 < h.rt.w.inst.del) (c0 c : Call k) {e0 : Env}
    (he0 : (evalEnv k g c0 h).2 = .ok e0) (hd : (evalEnv k g c0 h).1.rt.connected = false) (hc : (evalEnv k g c (evalEnv k g c0 h).1).1.rt.connected = true)
    (hv : e0.Vdc * g.vdcCfg.base < g.vdcCfg.vmin - h.rt.w.inst.del ∨ g.vdcCfg.vmax + h.rt.w.inst.del < e0.Vdc * g.vdcCfg.base) :
    (evalEnv k g c (evalEnv k g c0 h).1).2 = .error .valueError := by
  obtain ⟨s, hs1, hs2, hs3, hs4, hs5, hs6⟩ := first_state R hlf hl c0 c he0 hd hc
  exact hs6.2.1 _ (ramp_infeasible g.vdcCfg R.dT s hs1 c.t g.vdcTarget (by rw [hs3]; exact hdel) (by rw [hs2, hs3]; exact hv) R.target).1

/-- C127, second reconnection: at evaluation `x` the DER reconnects again, the staircase of the first reconnection being finished.  If that one went down by more
than one step, `x` raises `IndexError` (the step has kept its negative sign).  Otherwise `x` succeeds, but nothing is ramped: the reference jumps to the set-point
at once, whatever the DC voltage was while the DER was disconnected, and the schedule only gets an entry at `x.t`. -/
theorem C127_second_reconnection (R : Restores k g) (hlf : h.rt.lfEnable = false) (hl : h.rt.w.lst = []) (hctr : h.rt.w.inst.ctr = 0) (hdel : 0 < h.rt.w.inst.del)
    (c0 c : Call k) {e0 : Env} (he0 : (evalEnv k g c0 h).2 = .ok e0) (hd : (evalEnv k g c0 h).1.rt.connected = false)
    (hc : (evalEnv k g c (evalEnv k g c0 h).1).1.rt.connected = true)
    (hv : g.vdcCfg.vmin ≤ e0.Vdc * g.vdcCfg.base ∧ e0.Vdc * g.vdcCfg.base ≤ g.vdcCfg.vmax)
    (q : List (Call k)) (x : Call k) (hok : Ok k g (evalEnv k g c (evalEnv k g c0 h).1).1 q)
    (hno : NoReconnect k g (evalEnv k g c (evalEnv k g c0 h).1).1 q) (ht : Close g.vdcCfg.delT c.t ((q ++ [x]).map (·.t)))
    (hq : (run k g (evalEnv k g c (evalEnv k g c0 h).1).1 q).rt.connected = false)
    (hx : (evalEnv k g x (run k g (evalEnv k g c (evalEnv k g c0 h).1).1 q)).1.rt.connected = true)
    (hlong : |g.vdcTarget - e0.Vdc * g.vdcCfg.base| / h.rt.w.inst.del ≤ (x.t - c.t) / g.vdcCfg.delT) :
    (h.rt.w.inst.del < e0.Vdc * g.vdcCfg.base - g.vdcTarget →
      (evalEnv k g x (run k g (evalEnv k g c (evalEnv k g c0 h).1).1 q)).2 = .error .indexError) ∧
    (e0.Vdc * g.vdcCfg.base - g.vdcTarget ≤ h.rt.w.inst.del →
      (∃ e, (evalEnv k g x (run k g (evalEnv k g c (evalEnv k g c0 h).1).1 q)).2 = .ok e ∧ e.Vdc_ref = g.vdcTarget / g.vdcCfg.base) ∧
      ∀ T w, Holds (evalEnv k g x (run k g (evalEnv k g c (evalEnv k g c0 h).1).1 q)).1.rt.w.lst T w ↔
        (T = x.t ∧ w = g.vdcTarget / g.vdcCfg.base) ∨ (T ≠ x.t ∧ Holds (run k g (evalEnv k g c (evalEnv k g c0 h).1).1 q).rt.w.lst T w)) := by
  obtain ⟨s, hs1, hs2, hs3, hs4, hs5, hs6⟩ := first_state R hlf hl c0 c he0 hd hc
  obtain ⟨r1, r2, r3, r4, r5, r6⟩ := ramp_empty g.vdcCfg R.base.ne' R.dT R.dT1 s hs1 c.t g.vdcTarget (by rw [hs3]; exact hdel) (by rw [hs2]; exact hv) R.target
  rw [← hs5] at r2 r3 r4 r5 r6
  rw [hs2, hs3] at r5 r6
  rw [hs4, hctr] at r4
  have hlf1 := hs6.1
  generalize (evalEnv k g c (evalEnv k g c0 h).1).1 = h1 at *
  obtain ⟨hr1, hr2⟩ := read_stair R q x h1 hlf1 hok hno r2 r3 r4 hdel r6 ht
  rw [stair_end _ _ _ _ (stair_long hdel hlong)] at hr1 hr2
  obtain ⟨ee, l', hel, hget⟩ := stair_head h1 r2 r6 ht
  obtain ⟨p1, p2, p3, p4, _⟩ := played R q h1 hlf1 hok hno hel
    (fun y hy => hget y.t (by simp only [List.map_append, List.mem_append, List.mem_map]; exact Or.inl ⟨y, hy, rfl⟩)) 0
  obtain ⟨v, u1, u2, u3, u4, u5, u6⟩ := reconnecting (c := x) R.cls R.dc p1 R.on hq hx
  have hv' : v = g.vdcTarget / g.vdcCfg.base := by
    have := congrArg Prod.snd u1
    rw [hr1] at this
    exact (Except.ok.inj this).symm
  obtain ⟨f1, f2, f3, _, _, _⟩ := updateRef_frame (wNow (run k g h1 q)) x.t
  have hdel2 : (updateRef (wNow (run k g h1 q)) x.t).1.inst.del =
      if e0.Vdc * g.vdcCfg.base - g.vdcTarget > h.rt.w.inst.del then -h.rt.w.inst.del else h.rt.w.inst.del := by
    rw [f3]; show (run k g h1 q).rt.w.inst.del = _; rw [p4, r5]
  have hl2 : (updateRef (wNow (run k g h1 q)) x.t).1.lst = (run k g h1 q).rt.w.lst := f1
  generalize (updateRef (wNow (run k g h1 q)) x.t).1 = s2 at *
  constructor
  · intro hdown
    rw [if_pos hdown] at hdel2
    exact u5 _ (C45_negative_step_always_fails g.vdcCfg s2 x.t g.vdcTarget _ hr2 (by rw [hdel2]; linarith)).1
  · intro hup
    rw [if_neg (not_lt.2 hup)] at hdel2
    have hb := R.base.ne'
    have hnear : |g.vdcTarget / g.vdcCfg.base * g.vdcCfg.base - g.vdcTarget| ≤ s2.inst.del := by
      rw [div_mul_cancel₀ _ hb, sub_self, abs_zero, hdel2]; exact hdel.le
    have hramp := C45_short_ramp g.vdcCfg s2 x.t g.vdcTarget _ hr2 hnear
    have hadd : addRef g.vdcCfg (getRef s2 x.t).1 x.t g.vdcTarget = (⟨addTimed x.t (g.vdcTarget / g.vdcCfg.base) s2.lst,
        { (getRef s2 x.t).1.inst with total := (addTimed x.t (g.vdcTarget / g.vdcCfg.base) s2.lst).length }⟩, .ok ()) := by
      unfold addRef
      rw [if_neg (by push Not; exact R.target)]
      rfl
    rw [hramp, hadd] at u2 u6
    refine ⟨?_, ?_⟩
    · obtain ⟨e, he, hev⟩ := u6 rfl
      exact ⟨e, he, hev.trans hv'⟩
    · intro T w
      rw [u2]
      rw [← hl2]
      exact Events.C03_map_update (by rw [hl2, p2]; exact r2) x.t _ T w

end Eval
namespace RT
variable {K W : Type} [Field K] [LinearOrder K] [IsStrictOrderedRing K]

/-- Whether the ramp is started makes no difference to the connection, and none at all to an evaluation that does not reconnect. -/
theorem eval_toggle (c : Cfg K W) (s : St K W) (i : Inp K) (hl : s.lfEnable = false) :
    (eval c s i).1.connected = (eval { c with restoreVdc := false } s i).1.connected ∧
    (¬ (s.connected = false ∧ (eval { c with restoreVdc := false } s i).1.connected = true) → eval c s i = eval { c with restoreVdc := false } s i) := by
  have hu : updateFlags c i.t i.V i.f { s with refs := i.refs } = updateFlags { c with restoreVdc := false } i.t i.V i.f { s with refs := i.refs } := by
    by_cases h : i.t > s.rtLock
    · rw [updateFlags_eq c i.t i.V i.f { s with refs := i.refs } h, updateFlags_eq _ i.t i.V i.f { s with refs := i.refs } h]
      simp only [hl]
      rfl
    · rw [updateFlags_lock c i.t i.V i.f { s with refs := i.refs } (not_lt.1 h), updateFlags_lock _ i.t i.V i.f { s with refs := i.refs } (not_lt.1 h)]
  have hcon := updateFlags_conn c i.t i.V i.f { s with refs := i.refs } hl
  have hok := hcon.2.1
  have hc0 : (updateFlags c i.t i.V i.f { s with refs := i.refs }).1.connected = s.connected := congrArg Conn.connected hcon.1
  have e1 : eval c s i = disconnectOrReconnect c i.t (updateFlags c i.t i.V i.f { s with refs := i.refs }).1 := by
    unfold eval; dsimp only; rw [hok]
  have e2 : eval { c with restoreVdc := false } s i = disconnectOrReconnect { c with restoreVdc := false } i.t (updateFlags c i.t i.V i.f { s with refs := i.refs }).1 := by
    unfold eval; dsimp only; rw [← hu, hok]
  rw [e1, e2]
  clear hcon hok hu e1 e2
  generalize (updateFlags c i.t i.V i.f { s with refs := i.refs }).1 = s1 at hc0 ⊢
  rw [← hc0]
  have hin : (inner c i.t s1).1.connected = (inner { c with restoreVdc := false } i.t s1).1.connected ∧
      (¬ (s1.connected = false ∧ (inner { c with restoreVdc := false } i.t s1).1.connected = true) → inner c i.t s1 = inner { c with restoreVdc := false } i.t s1) := by
    have hdl : ∀ s : St K W, disconnectLogic { c with restoreVdc := false } i.t s = disconnectLogic c i.t s := fun _ => rfl
    unfold inner
    by_cases hc : s1.connected = true
    · simp [hc, hdl]
    · rw [Bool.not_eq_true] at hc
      simp only [hc]
      by_cases h1 : i.t > s1.connLock
      · by_cases h2 : s1.trip = false
        · simp only [if_pos h1, if_pos h2]
          unfold reconnectLogic
          by_cases h3 : s1.mc = true
          · simp only [h3]; exact ⟨rfl, fun _ => rfl⟩
          · by_cases h4 : i.t > 0
            · by_cases h5 : s1.tReco > 0
              · by_cases h6 : i.t - s1.tReco > c.recoDelay
                · simp only [h3, if_pos h4, if_pos h5, if_pos h6]
                  by_cases h7 : c.restoreVdc = true <;> simp [h7]
                · simp only [h3, if_pos h4, if_pos h5, if_neg h6]; exact ⟨rfl, fun _ => rfl⟩
              · simp only [h3, if_pos h4, if_neg h5]; exact ⟨rfl, fun _ => rfl⟩
            · simp only [h3, if_neg h4]; exact ⟨rfl, fun _ => rfl⟩
        · simp only [if_pos h1, if_neg h2]; exact ⟨rfl, fun _ => rfl⟩
      · simp [if_neg h1]
  have hcc : ∀ c : Cfg K W, (disconnectOrReconnect c i.t s1).1.connected = (inner c i.t s1).1.connected := by
    intro c
    rw [connect_eq]
    cases hq : (inner c i.t s1).2 with
    | error e => rfl
    | ok u => dsimp only; split_ifs <;> rfl
  rw [hcc, hcc]
  refine ⟨hin.1, fun hn => ?_⟩
  rw [connect_eq, connect_eq, hin.2 hn]

end RT
namespace Eval
open Complex Phasor Ode VdcRef

variable {k : Cls} {g : SCfg} {h : Hid} {c : Call k}

/-- The end of an evaluation, given the outcome of the ride-through code. -/
noncomputable def closing (h5 : Hid) (E : Env) (r : RT.St ℝ (VdcRef.St ℝ) × Except Err Unit) : Hid × Except Err Env :=
  match r.2 with
  | .error x => ({ h5 with rt := r.1 }, .error x)
  | .ok _ => ({ h5 with rt := r.1 }, .ok (if r.1.connected then E else disc E))

theorem closing_conn (h5 : Hid) (E : Env) (r : RT.St ℝ (VdcRef.St ℝ) × Except Err Unit) : (closing h5 E r).1.rt.connected = r.1.connected := by
  unfold closing; split <;> rfl

theorem rtStage_closing (h5 : Hid) : rtStage k g c h5 = match measCheck k g c.t h5 (envC k g c h5) with
    | .error x => ({ h5 with rt := { h5.rt with rtLock := c.t, refs := refsOf (envC k g c h5) } }, .error x)
    | .ok _ => closing h5 (envC k g c h5)
      (RT.eval g.rt h5.rt ⟨c.t, measVal k g h5 (envC k g c h5), (envC k g c h5).we / (2 * Real.pi), refsOf (envC k g c h5)⟩) := rfl

theorem eval_toggle (hlf : h.rt.lfEnable = false) (c : Call k) :
    (evalEnv k g c h).1.rt.connected = (evalEnv k { g with restoreVdc := false } c h).1.rt.connected ∧
    (¬ (h.rt.connected = false ∧ (evalEnv k { g with restoreVdc := false } c h).1.rt.connected = true) → evalEnv k g c h = evalEnv k { g with restoreVdc := false } c h) := by
  have hst : ∀ h5 : Hid, h5.rt.lfEnable = false → h5.rt.connected = h.rt.connected →
      (rtStage k g c h5).1.rt.connected = (rtStage k { g with restoreVdc := false } c h5).1.rt.connected ∧
      (¬ (h.rt.connected = false ∧ (rtStage k { g with restoreVdc := false } c h5).1.rt.connected = true) →
        rtStage k g c h5 = rtStage k { g with restoreVdc := false } c h5) := by
    intro h5 hl5 hc5
    obtain ⟨t1, t2⟩ := RT.eval_toggle g.rt h5.rt ⟨c.t, measVal k g h5 (envC k g c h5), (envC k g c h5).we / (2 * Real.pi), refsOf (envC k g c h5)⟩ hl5
    have hm : measCheck k { g with restoreVdc := false } c.t h5 (envC k { g with restoreVdc := false } c h5) = measCheck k g c.t h5 (envC k g c h5) := rfl
    have hev : RT.eval ({ g with restoreVdc := false } : SCfg).rt h5.rt ⟨c.t, measVal k { g with restoreVdc := false } h5 (envC k { g with restoreVdc := false } c h5),
        (envC k { g with restoreVdc := false } c h5).we / (2 * Real.pi), refsOf (envC k { g with restoreVdc := false } c h5)⟩ =
        RT.eval { g.rt with restoreVdc := false } h5.rt ⟨c.t, measVal k g h5 (envC k g c h5), (envC k g c h5).we / (2 * Real.pi), refsOf (envC k g c h5)⟩ := rfl
    have henv : envC k { g with restoreVdc := false } c h5 = envC k g c h5 := rfl
    rw [rtStage_closing, rtStage_closing, hm, hev, henv]
    cases measCheck k g c.t h5 (envC k g c h5) with
    | error x => exact ⟨rfl, fun _ => rfl⟩
    | ok u =>
      dsimp only
      rw [closing_conn, closing_conn, ← hc5]
      exact ⟨t1, fun hn => by rw [t2 hn]⟩
  have gs : gridStage { g with restoreVdc := false } c.t h = gridStage g c.t h := rfl
  have ss : ∀ h, solarStage k { g with restoreVdc := false } c.t h = solarStage k g c.t h := fun _ => rfl
  have ls : ∀ h, loadStage k { g with restoreVdc := false } c.jac c.t h = loadStage k g c.jac c.t h := fun _ => rfl
  have qs : ∀ h, qStage k { g with restoreVdc := false } c h = qStage k g c h := fun _ => rfl
  have is : ∀ h, irefStage k { g with restoreVdc := false } c h = irefStage k g c h := fun _ => rfl
  have fs : ∀ h, freqStage k { g with restoreVdc := false } c h = freqStage k g c h := fun _ => rfl
  unfold evalEnv
  simp only [gs, ss, ls, qs, is, fs]
  rcases e1 : gridStage g c.t h with ⟨h1, r1⟩
  have a1 : h1.rt = h.rt := by have := grid_rt (g := g) (h := h) c.t; rw [e1] at this; exact this
  cases r1 with
  | error x => simp only [andThen]; exact ⟨trivial, fun _ => trivial⟩
  | ok u =>
    simp only [andThen]
    rcases e2 : solarStage k g c.t (stateStage k c.y h1) with ⟨h2, r2⟩
    have a2 : h2.rt = h.rt := by have := solar_rt (k := k) (g := g) (h := stateStage k c.y h1) c.t; rw [e2] at this; exact this.trans a1
    cases r2 with
    | error x => simp only; exact ⟨trivial, fun _ => trivial⟩
    | ok u =>
      simp only
      rcases e3 : loadStage k g c.jac c.t h2 with ⟨h3, r3⟩
      have a3 : h3.rt = h.rt := by have := load_rt (k := k) (g := g) (h := h2) c.jac c.t; rw [e3] at this; exact this.trans a2
      cases r3 with
      | error x => simp only; exact ⟨trivial, fun _ => trivial⟩
      | ok u =>
        simp only
        rcases e4 : dcStage k c.t (qStage k g c h3) with ⟨h4, r4⟩
        cases r4 with
        | error x => simp only; exact ⟨trivial, fun _ => trivial⟩
        | ok u =>
          simp only
          obtain ⟨w, r, hr⟩ := pre_rt e4
          exact hst _ (by rw [hr, a3]; exact hlf) (by rw [hr, a3])

/-- The DER of the example of C97 with `restore_Vdc` on. -/
noncomputable def exRestore : SCfg := { exG exPar false with restoreVdc := true }

/-- Initial state of the example: one momentary-cessation zone, empty schedule, step 2 V. -/
noncomputable def exRestoreH : Hid :=
  { exH (exG exPar false) (exEv (exG exPar false)) with rt := exMc ⟨[], ⟨0, 0, 11 / 10, 2⟩⟩ 0 0 0 0 false true ⟨0, 11 / 10, 11 / 10, 0, (0, 0), (0, 0), (0, 0)⟩ }

theorem exRestores : Restores three exRestore := by
  refine ⟨by simp [classes], rfl, rfl, ?_, ?_, ?_, ?_⟩ <;> norm_num [exRestore, exG]

theorem ex_step (H : Hid) (c : Call three) (h1 : H.rt.lfEnable = false) (h2 : H.rt.w.lst = []) (h3 : H.rt.w.inst.ctr = 0) (h4 : H.rt.w.inst.del = 2)
    (hok : ∃ e, (evalEnv three (exG exPar false) c H).2 = .ok e)
    (hn : ¬ (H.rt.connected = false ∧ (evalEnv three (exG exPar false) c H).1.rt.connected = true)) :
    evalEnv three exRestore c H = evalEnv three (exG exPar false) c H ∧ (evalEnv three exRestore c H).1.rt.lfEnable = false ∧
      (evalEnv three exRestore c H).1.rt.w.lst = [] ∧ (evalEnv three exRestore c H).1.rt.w.inst.ctr = 0 ∧ (evalEnv three exRestore c H).1.rt.w.inst.del = 2 := by
  have ht := (eval_toggle (g := exRestore) h1 c).2 hn
  have ht' : evalEnv three exRestore c H = evalEnv three (exG exPar false) c H := ht
  obtain ⟨e, he⟩ := hok
  rw [← ht'] at he hn
  obtain ⟨v, u1, u2, u3, _, _⟩ := not_reconnecting exRestores.cls exRestores.dc h1 exRestores.on he hn
  rw [updateRef_empty (wNow H) h2] at u2
  refine ⟨ht', u3, ?_⟩
  rw [u2]
  exact ⟨h2, h3, h4⟩

/-- Connection of the example of C97 after each of its five calls. -/
theorem ex_connected (y1 y2 y3 y4 y5 : ThreePhase.V → ℝ) (n : ℕ) (hn : n ≤ 5) :
    let L := [exCallU y1 1 (1 / 10), exCallU y2 2 (1 / 10), exCallU y3 3 (1 / 10), exCallU y4 4 (1 / 3), exCallU y5 7 (1 / 3)]
    (run three (exG exPar false) exRestoreH (L.take n)).rt.connected = (n != 3 && n != 4) := by
  intro L
  have hno : ∀ o ∈ exOps, o.isRemoval = false := by
    intro o ho
    simp only [exOps, List.mem_cons, List.not_mem_nil, or_false] at ho
    rcases ho with rfl | rfl | rfl <;> rfl
  have hG := ex_good three exPar false (Or.inl rfl) exOps hno
  have hG' : Good three (exG exPar false) exRestoreH := ⟨hG.override, hG.msg, hG.ev, hG.dc, rfl, hG.ramp, hG.meas, hG.filt⟩
  have hsees : Sees three (exG exPar false) (fun c => urmsMin c.va c.vb c.vc) := C96_sees_minimum (by simp [unbalancedClasses]) rfl rfl
  have hstrip : RT.strip exRestoreH.rt = exMc () 0 0 0 0 false true ⟨0, 11 / 10, 11 / 10, 0, (0, 0), (0, 0), (0, 0)⟩ := rfl
  obtain ⟨ins, e1, e2⟩ := run_rt hsees (L.take n) exRestoreH (C99_no_exception hG' _)
  have hc : (run three (exG exPar false) exRestoreH (L.take n)).rt.connected = (RT.run (exG exPar false).rt.unit (RT.strip exRestoreH.rt) ins).connected := by rw [← e2]; rfl
  rw [hc, hstrip]
  have r10 : (0:ℝ) ≤ 1 / 10 := by norm_num
  have r3 : (0:ℝ) ≤ 1 / 3 := by norm_num
  have hT : RT.samples ins = [((1:ℝ), (1 / 10 : ℝ)), (2, 1 / 10), (3, 1 / 10), (4, 1 / 3), (7, 1 / 3)].take n := by
    rw [e1, List.map_take]
    simp only [L, List.map_cons, List.map_nil, exCallU_rms _ _ _ r10, exCallU_rms _ _ _ r3]
    rfl
  obtain ⟨rest, hrest⟩ : ∃ rest : List (RT.Inp ℝ), RT.samples (ins ++ rest) = [((1:ℝ), (1 / 10 : ℝ)), (2, 1 / 10), (3, 1 / 10), (4, 1 / 3), (7, 1 / 3)] := by
    refine ⟨([((1:ℝ), (1 / 10 : ℝ)), (2, 1 / 10), (3, 1 / 10), (4, 1 / 3), (7, 1 / 3)].drop n).map (fun z => ⟨z.1, z.2, 0, ⟨0, 0, 0, 0, (0, 0), (0, 0), (0, 0)⟩⟩), ?_⟩
    unfold RT.samples at hT ⊢
    rw [List.map_append, hT, List.map_map]
    have : ((fun i : RT.Inp ℝ => (i.t, i.V)) ∘ fun z : ℝ × ℝ => (⟨z.1, z.2, 0, ⟨0, 0, 0, 0, (0, 0), (0, 0), (0, 0)⟩⟩ : RT.Inp ℝ)) = id := rfl
    rw [this, List.map_id, List.take_append_drop]
  have hlen : ins.length = n := by
    have := congrArg List.length hT
    simp only [RT.samples, List.length_map, List.length_take, List.length_cons, List.length_nil] at this
    omega
  have hins : ins = (ins ++ rest).take n := by rw [← hlen]; simp
  generalize ins ++ rest = all at hrest hins
  obtain ⟨j1, j2, j3, j4, j5, rfl⟩ : ∃ i1 i2 i3 i4 i5, all = [i1, i2, i3, i4, i5] := by
    have := congrArg List.length hrest
    simp [RT.samples] at this
    match all, this with
    | [a, b, c, d, e], _ => exact ⟨a, b, c, d, e, rfl⟩
  simp only [RT.samples, List.map_cons, List.map_nil, List.cons.injEq, Prod.mk.injEq, and_true] at hrest
  obtain ⟨q1, q2, q3, q4, q5⟩ := hrest
  obtain ⟨s1, s2, s3, s4, s5⟩ := exMc_run ⟨0, 11 / 10, 11 / 10, 0, (0, 0), (0, 0), (0, 0)⟩ j1 j2 j3 j4 j5 q1 q2 q3 q4 q5
  have step : ∀ (s : RT.St ℝ Unit) (i : RT.Inp ℝ) (l : List (RT.Inp ℝ)), RT.run (exG exPar false).rt.unit s (i :: l) =
      RT.run (exG exPar false).rt.unit (RT.run (exG exPar false).rt.unit s [i]) l := fun _ _ _ => rfl
  rw [hins]
  interval_cases n
  · rfl
  · simp only [List.take]
    rw [s1]; rfl
  · simp only [List.take]
    rw [step, s1, s2]; rfl
  · simp only [List.take]
    rw [step, s1, step, s2, s3]; rfl
  · simp only [List.take]
    rw [step, s1, step, s2, step, s3, s4]; rfl
  · simp only [List.take]
    rw [step, s1, step, s2, step, s3, step, s4, s5]; rfl

/-- Concrete case of C127: an undervoltage of 2 s with momentary cessation, then recovery, `restore_Vdc` on.  The DC voltage (state `Vdc`) at the fourth evaluation,
the last one disconnected, may be anything; at 1.0 p.u. (500 V) the reference climbs 2 V every half second to 550 V, at 1.2 p.u. (600 V) it falls. -/
theorem C127_example (y1 y2 y3 y4 y5 : ThreePhase.V → ℝ) :
    let p := [exCallU y1 1 (1 / 10), exCallU y2 2 (1 / 10), exCallU y3 3 (1 / 10)]
    let h := run three exRestore exRestoreH p
    RT.IsInit exRestoreH.rt ∧ Ok three exRestore exRestoreH p ∧ h.rt.lfEnable = false ∧ h.rt.w.lst = [] ∧ h.rt.w.inst.ctr = 0 ∧ h.rt.w.inst.del = 2 ∧
      (∃ e0, (evalEnv three exRestore (exCallU y4 4 (1 / 3)) h).2 = .ok e0 ∧ e0.Vdc = y4 .Vdc) ∧
      (evalEnv three exRestore (exCallU y4 4 (1 / 3)) h).1.rt.connected = false ∧
      (evalEnv three exRestore (exCallU y5 7 (1 / 3)) (evalEnv three exRestore (exCallU y4 4 (1 / 3)) h).1).1.rt.connected = true := by
  intro p h
  obtain ⟨i1, _, _, _, i5, _, _⟩ := C97_example y1 y2 y3 y4 y5
  have i5' : Ok three (exG exPar false) exRestoreH (p ++ exCallU y4 4 (1 / 3) :: [exCallU y5 7 (1 / 3)]) := i5
  obtain ⟨o1, o2, o3, o4, _⟩ := i5'
  have c0 : exRestoreH.rt.connected = true := ex_connected y1 y2 y3 y4 y5 0 (by omega)
  have c1 : (evalEnv three (exG exPar false) (exCallU y1 1 (1 / 10)) exRestoreH).1.rt.connected = true := ex_connected y1 y2 y3 y4 y5 1 (by omega)
  have c2 := ex_connected y1 y2 y3 y4 y5 2 (by omega)
  have c3 := ex_connected y1 y2 y3 y4 y5 3 (by omega)
  have c4 := ex_connected y1 y2 y3 y4 y5 4 (by omega)
  have c5 := ex_connected y1 y2 y3 y4 y5 5 (by omega)
  simp only [List.take, run, List.foldl] at c2 c3 c4 c5
  obtain ⟨a1, a2, a3, a4, a5⟩ := ex_step exRestoreH (exCallU y1 1 (1 / 10)) rfl rfl rfl rfl o1 (by rw [c0]; simp)
  rw [a1] at a2 a3 a4 a5
  obtain ⟨b1, b2, b3, b4, b5⟩ := ex_step _ (exCallU y2 2 (1 / 10)) a2 a3 a4 a5 o2 (by rw [c1]; simp)
  rw [b1] at b2 b3 b4 b5
  obtain ⟨d1, d2, d3, d4, d5⟩ := ex_step _ (exCallU y3 3 (1 / 10)) b2 b3 b4 b5 o3 (by rw [c2]; simp)
  rw [d1] at d2 d3 d4 d5
  obtain ⟨f1, f2, f3, f4, f5⟩ := ex_step _ (exCallU y4 4 (1 / 3)) d2 d3 d4 d5 o4 (by rw [c4]; simp)
  have hh : h = (evalEnv three (exG exPar false) (exCallU y3 3 (1 / 10)) (evalEnv three (exG exPar false) (exCallU y2 2 (1 / 10))
      (evalEnv three (exG exPar false) (exCallU y1 1 (1 / 10)) exRestoreH).1).1).1 := by
    show (evalEnv three exRestore _ (evalEnv three exRestore _ (evalEnv three exRestore _ exRestoreH).1).1).1 = _
    rw [a1, b1, d1]
  have hok : Ok three exRestore exRestoreH p := by
    refine ⟨by rw [a1]; exact o1, ?_, ?_, trivial⟩
    · rw [a1, b1]; exact o2
    · rw [a1, b1, d1]; exact o3
  rw [hh]
  refine ⟨i1, hok, d2, d3, d4, d5, ?_, ?_, ?_⟩
  · rw [f1]
    obtain ⟨e0, he0⟩ := o4
    refine ⟨e0, he0, ?_⟩
    obtain ⟨h1, h2, h3, h4, _, _, _, _, e5⟩ := eval_ok he0
    rw [e5] at he0
    obtain ⟨_, _, _, b4⟩ := rt_ok he0
    rw [b4]
    split_ifs <;> rfl
  · rw [f1, c4]; rfl
  · rw [f1, (eval_toggle (g := exRestore) (by rw [← f1]; exact f2) (exCallU y5 7 (1 / 3))).1]
    exact c5

/-! ### Constant-DC classes -/

section
variable {k : Cls} {g : SCfg} {h : Hid}

/-- C127: in the constant-DC classes the schedule of DC references is never read: as long as the DER stays connected every evaluation uses the reference set at
construction, whatever has been scheduled (`h.rt.w` is arbitrary). -/
theorem C127_constant_dc_ignores_schedule (hk : k ∈ [single0, three0]) (l : List (Call k)) (c : Call k) (hok : Ok k g h (l ++ [c]))
    (hconn : ∀ a b, l ++ [c] = a ++ b → a ≠ [] → (run k g h a).rt.connected = true) :
    ∃ e, (evalEnv k g c (run k g h l)).2 = .ok e ∧ e.Vdc_ref = h.rt.refs.VdcRef := by
  have hcl : k ∈ classes := by
    simp only [List.mem_cons, List.not_mem_nil, or_false] at hk
    rcases hk with rfl | rfl <;> simp [classes]
  have hdc : k.dcRef = false := by
    simp only [List.mem_cons, List.not_mem_nil, or_false] at hk
    rcases hk with rfl | rfl <;> rfl
  have step : ∀ (h : Hid) (c : Call k) (e : Env), (evalEnv k g c h).2 = .ok e → (evalEnv k g c h).1.rt.connected = true →
      e.Vdc_ref = h.rt.refs.VdcRef ∧ (evalEnv k g c h).1.rt.refs.VdcRef = h.rt.refs.VdcRef := by
    intro h c e he hc
    obtain ⟨h1, h2, h3, h4, e1, e2, e3, e4, e5⟩ := eval_ok he
    have a1 : h1.rt = h.rt := by have := grid_rt (g := g) (h := h) c.t; rw [e1] at this; exact this
    have a2 : h2.rt = h.rt := by have := solar_rt (k := k) (g := g) (h := stateStage k c.y h1) c.t; rw [e2] at this; exact this.trans a1
    have a3 : h3.rt = h.rt := by have := load_rt (k := k) (g := g) (h := h2) c.jac c.t; rw [e3] at this; exact this.trans a2
    have a4 : (freqStage k g c (irefStage k g c h4)).rt.refs.VdcRef = h.rt.refs.VdcRef := by
      unfold dcStage at e4
      rw [if_neg (by simp [hdc])] at e4
      simp only [Prod.mk.injEq, and_true] at e4
      rw [freq_rt, ← e4]
      show h3.rt.refs.VdcRef = _
      rw [a3]
    rw [e5] at he hc ⊢
    generalize freqStage k g c (irefStage k g c h4) = h5 at *
    obtain ⟨_, b2, b3, b4⟩ := rt_ok he
    rw [if_pos hc] at b4
    rw [b3] at hc ⊢
    have := RT.eval_connected_refs _ _ _ b2 hc
    refine ⟨by rw [b4, envC_vdcref hcl, a4], ?_⟩
    rw [this]
    show (envC k g c h5).Vdc_ref = _
    rw [envC_vdcref hcl, a4]
  induction l generalizing h with
  | nil =>
    obtain ⟨⟨e, he⟩, _⟩ := hok
    exact ⟨e, he, (step h c e he (hconn [c] [] rfl (by simp))).1⟩
  | cons x l ih =>
    obtain ⟨⟨e, he⟩, ho⟩ := hok
    have s := (step h x e he (hconn [x] (l ++ [c]) rfl (by simp))).2
    obtain ⟨e', h1, h2⟩ := ih ho (fun a b hab ha => hconn (x :: a) b (by rw [List.cons_append, hab, List.cons_append]) (by simp))
    exact ⟨e', h1, h2.trans s⟩

/-- Concrete case: the three-phase constant-DC class with a scheduled reference of 1.2 p.u. from t = 1 on, called at t = 1, 2 and 3 with rated voltages: it keeps
using its 1.1 p.u. -/
theorem C127_constant_dc_example (y1 y2 y3 : ThreePhaseConstantVdc.V → ℝ) :
    let h0 := exH (exG exPar false) (Events.run (exG exPar false).evc (Events.init true true true) ([].map fun o => ((exG exPar false).sp, o)))
    let h : Hid := { h0 with rt := { h0.rt with w := ⟨[⟨0, 11 / 10⟩, ⟨1, 12 / 10⟩], ⟨2, 0, 11 / 10, 2⟩⟩ } }
    let u : ℂ := ((1 / 3 * Real.sqrt 2 : ℝ) : ℂ)
    let mk := fun (y : ThreePhaseConstantVdc.V → ℝ) (t : ℝ) => (⟨false, y, t, u, ub u, uc u, 377⟩ : Call three0)
    ∃ e, (evalEnv three0 (exG exPar false) (mk y3 3) (run three0 (exG exPar false) h [mk y1 1, mk y2 2])).2 = .ok e ∧ e.Vdc_ref = 11 / 10 := by
  intro h0 h u mk
  have hg0 := ex_good three0 exPar false (Or.inl rfl) [] (by simp)
  have hg : Good three0 (exG exPar false) h :=
    { hg0 with dc := ⟨by simp [h, StrictSorted], fun _ => rfl, le_rfl, Or.inl rfl⟩ }
  have hok := C99_no_exception hg
  have hrms : urmsMin u (ub u) (uc u) = 1 / 3 := exCallU_rms (fun _ => 0) 1 (1 / 3) (by norm_num)
  have hi : RT.IsInit h.rt := by
    constructor <;> simp [h, h0, exH, exRT, RT.Zone.fresh]
  refine C127_constant_dc_ignores_schedule (by simp) _ _ (hok _) fun a b hab _ => ?_
  refine (C96_healthy_stays_connected (C96_sees_minimum (by simp [unbalancedClasses]) rfl rfl) hi rfl a (hok a) fun c hc => ?_).1
  have hc' : c ∈ [mk y1 1, mk y2 2] ++ [mk y3 3] := by rw [hab]; exact List.mem_append_left _ hc
  have : urmsMin c.va c.vb c.vc = 1 / 3 := by
    simp only [List.cons_append, List.nil_append, List.mem_cons, List.not_mem_nil, or_false] at hc'
    rcases hc' with rfl | rfl | rfl <;> exact hrms
  simp only [this]
  constructor <;> intro z hz <;> simp [h, h0, exH, exRT] at hz <;> subst hz <;> norm_num [exG]

end

end Eval
end PvDer
