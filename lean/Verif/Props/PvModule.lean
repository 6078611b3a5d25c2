import Verif.Model.PvModule
import Verif.Props.Circuit
import Verif.Props.VdcRef
import Verif.Props.EvalSched
import Verif.Props.ParRun
/-!
C141: the insolation of a constructed DER, and the polynomial for the maximum power point.
-/
namespace PvDer
namespace PvModule
open Eval

variable {m : PV.Mod} {o : Mpp}

theorem loop_eq (T : ℝ) (l : List ℝ) (hl : l ≠ []) (a : St) (acc : List (ℝ × ℝ)) (ha : a.Tactual = T) :
    l.foldl (sample m o) (a, acc) = ({ a with Sinsol := l.getLast hl, Iph := PV.iph m (l.getLast hl) T }, acc ++ l.map fun S => (S, o.root S T)) := by
  induction l using List.reverseRecOn with
  | nil => exact absurd rfl hl
  | append_singleton l S ih =>
    rw [List.foldl_append]
    by_cases h0 : l = []
    · subst h0
      simp [sample, ha]
    · rw [ih h0]
      simp [sample, ha]

theorem fitPoly_eq (s : St) : fitPoly m o s =
    ⟨100, 29815 / 100, PV.iph m 100 (29815 / 100), some (o.fit ((linspace 10 100 10).map fun S => (S, o.root S (29815 / 100))))⟩ := by
  have hl : linspace 10 100 10 ≠ [] := by simp [linspace]
  have hlast : (linspace 10 100 10).getLast hl = 100 := by
    simp only [linspace, List.getLast_map, List.getLast_range]
    norm_num
  unfold fitPoly
  rw [loop_eq (29815 / 100) _ hl _ _ rfl, hlast]
  rfl

/-- **C141.** Without the polynomial fit (the default) a DER is created at the insolation given, at 298.15 K, with the photocurrent belonging to them; with the fit or without, the
photocurrent belongs to insolation and temperature. `_partial`: see `C141_fit_discards_insolation` and `C141_configured_insolation_unused`. -/
theorem C141_created_partial (S : ℝ) :
    ((o.mppt && o.poly) = false → (create m o S).Sinsol = S ∧ (create m o S).Tactual = 29815 / 100) ∧
    (create m o S).Iph = PV.iph m (create m o S).Sinsol (create m o S).Tactual := by
  constructor
  · intro h
    unfold create
    simp [h]
  · rfl

/-- **C141.** The insolation given is the one of the configuration file, else the template's (100 %): the constructor always gets this far. -/
theorem C141_created_from {mt : Sim.Mt} {file : Config.File} {id : String} {kw : Config.Args} {x : Config.Setup} {c : Config.Cfg}
    (h : Config.setupDER (Config.template mt) file id kw = .ok x) (hf : file id = some c) (hl : ∀ p ∈ Config.kwRatings, c.entries p = none) :
    ∃ q, Config.Configured mt c kw "basic_options" "Sinsol" q ∧ createFrom m o x.design = .ok (create m o q) := by
  obtain ⟨d, hd⟩ := Config.has_of_inTemplate (show Config.inTemplate (Config.template mt) "basic_options" "Sinsol" = true by cases mt <;> decide +kernel)
  have hd' : (Config.num d).isSome := by
    have : ∀ cp ∈ Config.template mt, cp.1 = "basic_options" → ∀ pd ∈ cp.2, pd.1 = "Sinsol" → (Config.num pd.2).isSome := by cases mt <;> decide +kernel
    obtain ⟨ps, h1, h2⟩ := hd
    exact this _ h1 rfl _ h2 rfl
  obtain ⟨q, h1, h2⟩ := Config.number_configured h hf hl hd (by
    rintro v (⟨ts, ht, hi⟩ | rfl)
    · have e : Config.props.lookup "Sinsol" = some [.int, .float] := by decide +kernel
      rw [e, Option.some.injEq] at ht
      subst ht
      cases v <;> first | rfl | simp [Config.isInstance, Config.hasTy] at hi
    · exact hd')
  exact ⟨q, h2, by unfold createFrom; rw [h1]⟩

/-- **C141, what is false.** With maximum power point tracking and the polynomial, every DER is created at 100 % insolation, whatever insolation was asked for. -/
theorem C141_fit_discards_insolation (h1 : o.mppt = true) (h2 : o.poly = true) (S : ℝ) :
    (create m o S).Sinsol = 100 ∧ (create m o S).Tactual = 29815 / 100 ∧ ∀ S', create m o S = create m o S' := by
  unfold create
  simp only [h1, h2, Bool.and_self, if_true, fitPoly_eq]
  exact ⟨trivial, trivial, fun _ => trivial⟩

/-- **C141.** The polynomial is fitted to eleven points at 10 %, 19 %, …, 100 % insolation and 298.15 K; if the solver found roots, each of them is the voltage of maximum power. -/
theorem C141_fit_points (h1 : o.mppt = true) (h2 : o.poly = true) (hm : PV.Physical m) (hI : 0 ≤ m.Iscr + m.Kv * (29815 / 100 - m.T0))
    (hr : ∀ S, 0 ≤ S → PV.mppEq m S (29815 / 100) (o.root S (29815 / 100)) = 0) (S : ℝ) :
    ∃ pts : List (ℝ × ℝ), (create m o S).z = some (o.fit pts) ∧ pts.map Prod.fst = [10, 19, 28, 37, 46, 55, 64, 73, 82, 91, 100] ∧
      ∀ p ∈ pts, ∀ V, PV.ppv m p.1 (29815 / 100) V ≤ PV.ppv m p.1 (29815 / 100) p.2 := by
  have hlin : linspace 10 100 10 = [10, 19, 28, 37, 46, 55, 64, 73, 82, 91, 100] := by
    simp only [linspace, List.range, List.range.loop, List.map]
    norm_num
  refine ⟨(linspace 10 100 10).map fun S => (S, o.root S (29815 / 100)), ?_, ?_, ?_⟩
  · unfold create
    simp only [h1, h2, Bool.and_self, if_true, fitPoly_eq]
  · rw [List.map_map, ← hlin]
    exact List.map_id _
  · intro p hp V
    obtain ⟨S', hS', rfl⟩ := List.mem_map.1 hp
    have h0 : 0 ≤ S' := by
      rw [hlin] at hS'
      simp only [List.mem_cons, List.not_mem_nil, or_false] at hS'
      rcases hS' with rfl | rfl | rfl | rfl | rfl | rfl | rfl | rfl | rfl | rfl | rfl <;> norm_num
    exact PV.C74_root_is_maximum m hm S' (29815 / 100) _ (by norm_num) (mul_nonneg hI (by positivity)) (hr S' h0) V

/-- **C141.** The reference of the MPP table at an insolation is at most as far from the true voltage of maximum power as the polynomial is, if that voltage is in the permitted range. -/
theorem C141_table_error (c : VdcRef.Cfg ℝ) (hb : 0 < c.base) (z : List ℝ) (S v vr : ℝ) (h0 : c.vmin ≤ v) (h1 : v ≤ c.vmax) :
    |VdcRef.mppTable c true z S vr - v / c.base| ≤ |VdcRef.polyval z S - v| / c.base := by
  unfold VdcRef.mppTable
  rw [if_pos rfl, ← sub_div, abs_div, abs_of_pos hb]
  refine div_le_div_of_nonneg_right ?_ hb.le
  generalize VdcRef.polyval z S = p
  rcases le_total p c.vmax with h2 | h2
  · rw [min_eq_left h2]
    rcases le_total p c.vmin with h3 | h3
    · rw [max_eq_right h3, abs_sub_comm, abs_of_nonneg (by linarith), abs_sub_comm, abs_of_nonneg (by linarith)]
      linarith
    · rw [max_eq_left h3]
  · rw [min_eq_right h2, max_eq_left (by linarith), abs_of_nonneg (by linarith), abs_of_nonneg (by linarith)]
    linarith

/-! ### The configured insolation and the evaluations -/

variable {k : Cls} {g : SCfg}

theorem grid_on (s : St) (h : Hid) (t : ℝ) : gridStage g t (s.on h) = (s.on (gridStage g t h).1, (gridStage g t h).2) := by
  unfold gridStage
  split <;> rfl

theorem state_on (s : St) (h : Hid) (y : k.V → ℝ) : stateStage k y (s.on h) = s.on (stateStage k y h) := rfl

theorem solar_on (s s' : St) (hs : s.Iph = PV.iph g.p.mod s.Sinsol s.Tactual) (hs' : s'.Iph = PV.iph g.p.mod s'.Sinsol s'.Tactual) (h : Hid) (t : ℝ) :
    solarStage k g t (s.on h) = solarStage k g t (s'.on h) ∨
      ∃ ev e, solarStage k g t (s.on h) = (s.on { h with ev := ev }, .error e) ∧ solarStage k g t (s'.on h) = (s'.on { h with ev := ev }, .error e) := by
  have key : ∀ (s : St), s.Iph = PV.iph g.p.mod s.Sinsol s.Tactual → ∀ ev v, Events.solarEvents g.sp h.ev t = (ev, .ok v) →
      solarStage k g t (s.on h) = ({ h with ev := ev, Sinsol := v.Sinsol, Tactual := v.Tactual, Iph := PV.iph g.p.mod v.Sinsol v.Tactual }, .ok ()) := by
    intro s hs ev v hq
    unfold solarStage
    rw [show (s.on h).ev = h.ev from rfl, hq]
    dsimp only
    by_cases hc : |(s.on h).Sinsol - v.Sinsol| ≠ 0 ∨ |(s.on h).Tactual - v.Tactual| > 0
    · rw [if_pos hc]
      split <;> rfl
    · rw [if_neg hc]
      push Not at hc
      have e1 : s.Sinsol = v.Sinsol := by have := abs_eq_zero.1 hc.1; simp only [St.on] at this; linarith
      have e2 : s.Tactual = v.Tactual := by have := abs_nonpos_iff.1 hc.2; simp only [St.on] at this; linarith
      split
      · simp only [St.on, hs, e1, e2]
      · simp only [St.on, e1, e2]
  rcases hq : Events.solarEvents g.sp h.ev t with ⟨ev, r⟩
  cases r with
  | ok v => exact .inl ((key s hs ev v hq).trans (key s' hs' ev v hq).symm)
  | error e =>
    right
    refine ⟨ev, e, ?_, ?_⟩
    · unfold solarStage; rw [show (s.on h).ev = h.ev from rfl, hq]; rfl
    · unfold solarStage; rw [show (s'.on h).ev = h.ev from rfl, hq]; rfl

theorem eval_on (s s' : St) (hs : s.Iph = PV.iph g.p.mod s.Sinsol s.Tactual) (hs' : s'.Iph = PV.iph g.p.mod s'.Sinsol s'.Tactual) (h : Hid) (c : Call k) :
    evalEnv k g c (s.on h) = evalEnv k g c (s'.on h) ∨
      ∃ h' e, evalEnv k g c (s.on h) = (s.on h', .error e) ∧ evalEnv k g c (s'.on h) = (s'.on h', .error e) := by
  unfold evalEnv
  rw [grid_on, grid_on]
  cases hr : (gridStage g c.t h).2 with
  | error e => exact .inr ⟨(gridStage g c.t h).1, e, rfl, rfl⟩
  | ok _ =>
    simp only [andThen, state_on]
    rcases solar_on (k := k) s s' hs hs' (stateStage k c.y (gridStage g c.t h).1) c.t with h1 | ⟨ev, e, h1, h2⟩
    · rw [h1]; exact .inl rfl
    · rw [h1, h2]; exact .inr ⟨_, e, rfl, rfl⟩

/-- **C141, what is false.** The configured insolation has no influence on a simulation: for two DERs created with different insolations, otherwise equal, every sequence of evaluations
gives the same values (or the same exception); after the first one that succeeds not even the insolation attribute differs, since it is taken from the events. -/
theorem C141_configured_insolation_unused (S S' : ℝ) (h : Hid) (c : Call k) (l : List (Call k)) :
    let h0 := (create g.p.mod o S).on h
    let h0' := (create g.p.mod o S').on h
    (evalEnv k g c h0).2 = (evalEnv k g c h0').2 ∧ (Ok k g h0 (c :: l) → Ok k g h0' (c :: l) ∧ run k g h0 (c :: l) = run k g h0' (c :: l)) := by
  intro h0 h0'
  rcases eval_on (create g.p.mod o S) (create g.p.mod o S') rfl rfl h c with h1 | ⟨h', e, h1, h2⟩
  · refine ⟨by rw [show evalEnv k g c h0 = _ from h1], fun hok => ?_⟩
    unfold Ok at hok ⊢
    unfold run
    rw [List.foldl_cons, List.foldl_cons, show evalEnv k g c h0' = _ from h1.symm]
    exact ⟨hok, rfl⟩
  · refine ⟨by rw [show evalEnv k g c h0 = _ from h1, show evalEnv k g c h0' = _ from h2], fun hok => ?_⟩
    obtain ⟨⟨x, hx⟩, _⟩ := hok
    rw [show evalEnv k g c h0 = _ from h1] at hx
    cases hx

/-- **C141, example.** The physical module of C74 with exact roots: a DER asked for at 50 % is at 100 % if the polynomial is fitted, at 50 % otherwise; and roots exist. -/
theorem C141_example : ∃ root : ℝ → ℝ → ℝ, (∀ S, 0 ≤ S → PV.mppEq PV.exMod S (29815 / 100) (root S (29815 / 100)) = 0) ∧ PV.Physical PV.exMod ∧
    0 ≤ PV.exMod.Iscr + PV.exMod.Kv * (29815 / 100 - PV.exMod.T0) ∧
    (create PV.exMod ⟨true, true, root, fun _ => []⟩ 50).Sinsol = 100 ∧ (create PV.exMod ⟨false, true, root, fun _ => []⟩ 50).Sinsol = 50 := by
  have h0 : 0 ≤ PV.exMod.Iscr + PV.exMod.Kv * (29815 / 100 - PV.exMod.T0) := by norm_num [PV.exMod]
  have hex : ∀ S : ℝ, ∃ V, 0 ≤ S → PV.mppEq PV.exMod S (29815 / 100) V = 0 := by
    intro S
    by_cases hS : 0 ≤ S
    · obtain ⟨V, _, hV⟩ := PV.C74_root_exists PV.exMod PV.exMod_physical S (29815 / 100) (by norm_num) (mul_nonneg h0 (by positivity))
      exact ⟨V, fun _ => hV⟩
    · exact ⟨0, fun h => absurd h hS⟩
  choose r hr using hex
  exact ⟨fun S _ => r S, hr, PV.exMod_physical, h0, (C141_fit_discards_insolation rfl rfl 50).1, ((C141_created_partial 50).1 rfl).1⟩

end PvModule
end PvDer
