import Verif.Props.MinRide
import Verif.Props.SessionTotal
import Verif.Props.PvModule
/-!
C140: from the configuration file to the end of a session — what the constructor accepts also runs.
-/
set_option linter.unusedSectionVars false
namespace PvDer
namespace Config
open Eval (Ok Call Hid SCfg)

section
variable {m : Sim.Mt} {file : File} {id : String} {kw : Args} {c : Cfg} {x : Built} {intOk : String → Bool} {v : Start} {b : Circuit.Base} {g : SCfg} {h : Hid}

/-- DC voltage references as they are after any calls of `add_Vdc_ref` on a new DER of a new process. -/
def Scheduled (g : SCfg) (w : VdcRef.St ℝ) : Prop :=
  ∃ (r d : ℝ) (l : List (ℝ × ℝ)), w = l.foldl (fun s p => (VdcRef.addRef g.vdcCfg s p.1 p.2).1) ⟨[], ⟨0, 0, r, d⟩⟩

theorem scheduled_good {w : VdcRef.St ℝ} (hw : Scheduled g w) : Eval.DcGood w ∧ w.inst.ctr = 0 := by
  obtain ⟨r, d, l, rfl⟩ := hw
  have key : ∀ (l : List (ℝ × ℝ)) (s : VdcRef.St ℝ), StrictSorted s.lst → (s.lst ≠ [] → s.inst.total = s.lst.length) → s.inst.ctr = 0 →
      Eval.DcGood (l.foldl (fun s p => (VdcRef.addRef g.vdcCfg s p.1 p.2).1) s) ∧ (l.foldl (fun s p => (VdcRef.addRef g.vdcCfg s p.1 p.2).1) s).inst.ctr = 0 := by
    intro l
    induction l with
    | nil => intro s h1 h2 h3; exact ⟨⟨h1, h2, by rw [List.foldl_nil, h3], Or.inl h3⟩, h3⟩
    | cons p l ih =>
      intro s h1 h2 h3
      rw [List.foldl_cons]
      unfold VdcRef.addRef
      split_ifs with hv
      · exact ih s h1 h2 h3
      · refine ih _ ?_ ?_ h3
        · exact addTimed_sorted _ _ h1
        · intro _; rfl
  exact key l _ (by simp [StrictSorted]) (by simp) rfl

/-- The class can evaluate with this measurement type. -/
def CanMeasure (m : Sim.Mt) (t : Eval.Meas) : Prop := t = .minimum ∨ t = .average ∨ t = .filtered ∧ m = .three

theorem starts_good (hb : construct (template m) file id kw = .ok x) (hf : file id = some c) (hst : start intOk x.setup = .ok v) (hp : PlainBlocks file c)
    (hs : Starts v b g h) (hr : v.vrt.restore = false) (hm : CanMeasure m v.meas) (ho : g.evc.overrideAngle = true) (hn : m = .numba → g.standAlone = false)
    (he : Eval.EvGood g.sp h.ev) (hw : Scheduled g h.rt.w) : Eval.Good (clsOf m) g h := by
  obtain ⟨_, _, _, elf⟩ := C130_starts_fresh hb hf hst hp hs
  refine ⟨ho, ?_, he, (scheduled_good hw).1, elf, by rw [hs.restore, hr], ?_, ?_⟩
  · by_cases e : m = .numba
    · exact Or.inr (hn e)
    · left; cases m <;> first | rfl | exact absurd rfl e
  · rw [hs.meas]; rcases hm with e | e | ⟨e, _⟩ <;> rw [e] <;> exact Eval.Meas.noConfusion
  · rw [hs.meas]
    intro e'
    rcases hm with e | e | ⟨_, rfl⟩
    · rw [e] at e'; cases e'
    · rw [e] at e'; cases e'
    · exact Or.inr fun y => by simp [clsOf, Eval.three]

/-- **C140.** A DER the constructor accepted — any configuration file, identifier, class and arguments — whose settings do not ask for the DC voltage ramp and whose measurement type the class
supports evaluates without exception: any number of calls of the right-hand side and the Jacobian, at any states and times in any order, whatever events were scheduled. (Not covered: removed
events after queries, and a load for the compiled class.) -/
theorem C140_constructed_evaluates (hb : construct (template m) file id kw = .ok x) (hf : file id = some c) (hst : start intOk x.setup = .ok v) (hp : PlainBlocks file c)
    (hs : Starts v b g h) (hr : v.vrt.restore = false) (hm : CanMeasure m v.meas) (ho : g.evc.overrideAngle = true) (hn : m = .numba → g.standAlone = false)
    {e1 e2 e3 : Bool} {ops : List (Events.Op ℝ)} (hops : ∀ o ∈ ops, o.isRemoval = false)
    (he : h.ev = Events.run g.evc (Events.init e1 e2 e3) (ops.map fun o => (g.sp, o))) (hw : Scheduled g h.rt.w) (l : List (Call (clsOf m))) : Ok (clsOf m) g h l :=
  Eval.C99_no_exception (starts_good hb hf hst hp hs hr hm ho hn (by rw [he]; exact Eval.C99_events_good e1 e2 e3 ops hops) hw) l

/-- **C140.** … and a session with it — simulations and event editing calls (removals included) in any order and number, the solver doing what it likes but not reporting failure — has no
exception. -/
theorem C140_constructed_session (hb : construct (template m) file id kw = .ok x) (hf : file id = some c) (hst : start intOk x.setup = .ok v) (hp : PlainBlocks file c)
    {sc : Session.Cfg (clsOf m)} {s : Session.Sess (clsOf m)} (hs : Starts v b sc.g s.h) (hr : v.vrt.restore = false) (hm : CanMeasure m v.meas)
    (ho : sc.g.evc.overrideAngle = true) (hn : m = .numba → sc.g.standAlone = false) {e1 e2 e3 : Bool} (he : s.h.ev = Events.init e1 e2 e3) (hw : Scheduled sc.g s.h.rt.w)
    (hsun : s.h.Iph = PV.iph sc.g.p.mod s.h.Sinsol s.h.Tactual) (hl : sc.loop = false) (l : List (Session.Act (clsOf m)))
    (hq : ∀ o, Session.Act.edit o ∈ l → o.isQuery = false) (hS : ∀ sv, Session.Act.sim sv ∈ l → ∀ y, Session.Healthy (sv y sc.ts)) : Session.AllReturn sc s l := by
  have hev : Eval.EvGood sc.g.sp s.h.ev := by
    rw [he]
    exact Eval.C99_events_good (cc := sc.g.evc) e1 e2 e3 [] (by simp)
  refine (Session.C105_no_exception hl ⟨starts_good hb hf hst hp hs hr hm ho hn hev hw, ?_, ?_, hsun⟩ l hq hS).1
  · rw [he]; exact ⟨e1, e2, e3, [], rfl⟩
  · rw [he]; rfl

/-- **C140.** The same with insolation, temperature and photocurrent as the constructor of the PV module leaves them, for every configured insolation, with or without the polynomial fit of the
maximum power point: nothing is left to assume about them. -/
theorem C140_session_after_module (hb : construct (template m) file id kw = .ok x) (hf : file id = some c) (hst : start intOk x.setup = .ok v) (hp : PlainBlocks file c)
    {sc : Session.Cfg (clsOf m)} {s : Session.Sess (clsOf m)} (hs : Starts v b sc.g s.h) (hr : v.vrt.restore = false) (hm : CanMeasure m v.meas)
    (ho : sc.g.evc.overrideAngle = true) (hn : m = .numba → sc.g.standAlone = false) {e1 e2 e3 : Bool} (he : s.h.ev = Events.init e1 e2 e3) (hw : Scheduled sc.g s.h.rt.w)
    (o : PvModule.Mpp) (q : ℝ) (h0 : Hid) (hh : s.h = (PvModule.create sc.g.p.mod o q).on h0) (hl : sc.loop = false) (l : List (Session.Act (clsOf m)))
    (hq : ∀ o, Session.Act.edit o ∈ l → o.isQuery = false) (hS : ∀ sv, Session.Act.sim sv ∈ l → ∀ y, Session.Healthy (sv y sc.ts)) : Session.AllReturn sc s l := by
  refine C140_constructed_session hb hf hst hp hs hr hm ho hn he hw ?_ hl l hq hS
  rw [hh]
  exact (PvModule.C141_created_partial q).2

end

/-! ### The ride-through settings do not depend on the arguments -/

theorem rt_same {m m' : Sim.Mt} {file : File} {id : String} {kw kw' : Args} {s s' : Setup} (h : setupDER (template m) file id kw = .ok s)
    (h' : setupDER (template m') file id kw' = .ok s') : ∀ n ∈ ["LVRT", "HVRT", "VRT_delays", "LFRT", "HFRT", "FRT_delays"], s.rt n = s'.rt n := by
  obtain ⟨c, hf⟩ : ∃ c, file id = some c := by
    unfold setupDER at h
    obtain ⟨⟨c', par⟩, hc, h⟩ := bind_ok h
    obtain ⟨c0, par0, hf', _⟩ := createConfig_ok hc
    exact ⟨c0, hf'⟩
  obtain ⟨_, a1, a2, a3⟩ := C67_source h hf
  obtain ⟨_, b1, b2, b3⟩ := C67_source h' hf
  have lev : ∀ n ∈ ["LVRT", "HVRT"], s.rt n = s'.rt n := by
    intro n hn
    obtain ⟨x, y, p1, p2, p3⟩ := a2 n hn
    obtain ⟨x', y', q1, q2, q3⟩ := b2 n hn
    rw [p1] at q1; cases q1
    rw [p3] at q3; cases q3
    rw [p2, q2]
  intro n hn
  simp only [List.mem_cons, List.not_mem_nil, or_false] at hn
  rcases hn with rfl | rfl | rfl | rfl | rfl | rfl
  · exact lev _ (by decide)
  · exact lev _ (by decide)
  · obtain ⟨x, p1, p2⟩ := a3
    obtain ⟨x', q1, q2⟩ := b3
    rw [p1] at q1; cases q1
    rw [p2, q2]
  · rw [a1 _ (by decide), b1 _ (by decide)]
  · rw [a1 _ (by decide), b1 _ (by decide)]
  · rw [a1 _ (by decide), b1 _ (by decide)]

theorem init_same {m m' : Sim.Mt} {file : File} {id : String} {kw kw' : Args} {s s' : Setup} (h : setupDER (template m) file id kw = .ok s)
    (h' : setupDER (template m') file id kw' = .ok s') (intOk : String → Bool) : vrtInit intOk s.rt = vrtInit intOk s'.rt ∧ frtInit s.rt = frtInit s'.rt := by
  have e := rt_same h h'
  unfold vrtInit frtInit
  rw [e "LVRT" (by decide), e "HVRT" (by decide), e "VRT_delays" (by decide), e "LFRT" (by decide), e "HFRT" (by decide), e "FRT_delays" (by decide)]
  exact ⟨rfl, rfl⟩

namespace Shipped

/-- The usable pairs of class and identifier of the shipped file (C133). -/
def pairs : List (Sim.Mt × String) := [(.three, "50"), (.noFilter, "50"), (.numba, "50"), (.three, "250"), (.noFilter, "250"),
    (.numba, "250"), (.balanced, "50_balanced"), (.constVdc3, "50_constantVdc")]

/-- The value configured for a parameter that no argument overrides: the DER's entry, else the default of the class. -/
def fileVal (m : Sim.Mt) (c : Cfg) (comp p : String) : Option PVal :=
  ((template m).lookup comp).bind fun ps => (ps.lookup p).bind fun d => (entry c comp p <|> some d)

instance (m : Sim.Mt) (t : Eval.Meas) : Decidable (CanMeasure m t) := by unfold CanMeasure; infer_instance

theorem file_entries : ∀ q ∈ pairs, ∀ c, file q.2 = some c →
    (∃ u, fileVal q.1 c "basic_options" "t_stable" = some u ∧ (num u).isSome) ∧ (∃ u, fileVal q.1 c "basic_options" "Vrms_measurement_type" = some u ∧ CanMeasure q.1 (measOf u)) ∧
      (∃ u, fileVal q.1 c "inverter_ratings" "Vrmsrated" = some u ∧ (num u).isSome) ∧ c.entries "Vrmsrated" = none := by
  have k1 : ∀ q ∈ pairs, ((file q.2).bind fun c => (fileVal q.1 c "basic_options" "t_stable").bind num).isSome = true := by decide +kernel
  have k2 : ∀ q ∈ pairs, ∃ u ∈ ((file q.2).bind fun c => (fileVal q.1 c "basic_options" "Vrms_measurement_type")).toList, CanMeasure q.1 (measOf u) := by decide +kernel
  have k3 : ∀ q ∈ pairs, ((file q.2).bind fun c => (fileVal q.1 c "inverter_ratings" "Vrmsrated").bind num).isSome = true := by decide +kernel
  have k4 : ∀ q ∈ pairs, ((file q.2).bind fun c => c.entries "Vrmsrated").isNone = true := by decide +kernel
  intro q hq c hf
  have k1 := k1 q hq
  have k2 := k2 q hq
  have k3 := k3 q hq
  have k4 := k4 q hq
  rw [hf] at k1 k2 k3 k4
  simp only [Option.bind_some] at k1 k2 k3 k4
  refine ⟨?_, ?_, ?_, Option.isNone_iff_eq_none.1 k4⟩
  · obtain ⟨w, hw⟩ := Option.isSome_iff_exists.1 k1
    obtain ⟨u, h1, h2⟩ := Option.bind_eq_some_iff.1 hw
    exact ⟨u, h1, by rw [h2]; rfl⟩
  · obtain ⟨u, hu, hc⟩ := k2
    exact ⟨u, Option.mem_toList.1 hu, hc⟩
  · obtain ⟨w, hw⟩ := Option.isSome_iff_exists.1 k3
    obtain ⟨u, h1, h2⟩ := Option.bind_eq_some_iff.1 hw
    exact ⟨u, h1, by rw [h2]; rfl⟩

theorem default_plain {file : File} {c : Cfg} (h1 : c.rt "LVRT" = none) (h2 : c.rt "HVRT" = none) (h3 : c.rt "LFRT" = none) : PlainBlocks file c := by
  refine ⟨?_, ?_, ?_⟩
  · intro body hb
    have hbl : blockFor file c "LVRT" = some [("1", vLevel (88/100) 5 2 true "mandatory_operation"), ("2", vLevel (7/10) (35/10) 1 true "mandatory_operation"),
        ("3", vLevel (1/2) 1 (1/2) false "momentary_cessation")] := by
      unfold blockFor; rw [h1]; rfl
    rw [hbl, Option.some.injEq] at hb
    subst hb
    intro kv hm d hd
    simp only [List.mem_cons, List.not_mem_nil, or_false] at hm
    rcases hm with rfl | rfl | rfl <;> unfold vLevel at hd <;> rw [Leaf.level.injEq] at hd <;> subst hd <;> exact ⟨Or.inr ⟨_, rfl, rfl⟩, Or.inr ⟨_, rfl, rfl⟩⟩
  · intro body hb
    have hbl : blockFor file c "HVRT" = some [("1", vLevel (106/100) 1 (1/2) false "mandatory_operation"), ("2", vLevel (112/100) (1/2) (1/2) false "mandatory_operation")] := by
      unfold blockFor; rw [h2]; rfl
    rw [hbl, Option.some.injEq] at hb
    subst hb
    intro kv hm d hd
    simp only [List.mem_cons, List.not_mem_nil, or_false] at hm
    rcases hm with rfl | rfl <;> unfold vLevel at hd <;> rw [Leaf.level.injEq] at hd <;> subst hd <;> exact ⟨Or.inr ⟨_, rfl, rfl⟩, Or.inr ⟨_, rfl, rfl⟩⟩
  · intro body hb kv hm d hd
    have hb' : rtTemplate "LFRT" = ⟨some body, none⟩ := by
      unfold blockFor designated at hb
      rw [h3] at hb
      simpa [rtTemplate] using hb
    simp [rtTemplate] at hb'
    subst hb'
    simp only [List.mem_cons, List.not_mem_nil, or_false] at hm
    rcases hm with rfl | rfl <;> unfold fLevel at hd <;> rw [Leaf.level.injEq] at hd <;> subst hd <;> exact ⟨_, rfl, rfl⟩

theorem default_restore : (shippedStart .three "50").map (fun v => v.vrt.restore) = .ok false ∧ (shippedStart .three "250").map (fun v => v.vrt.restore) = .ok false ∧
    (shippedStart .balanced "50_balanced").map (fun v => v.vrt.restore) = .ok false ∧ (shippedStart .constVdc3 "50_constantVdc").map (fun v => v.vrt.restore) = .ok false := by
  refine ⟨?_, ?_, ?_, ?_⟩ <;> decide +kernel

/-- **C140 (shipped units).** Every usable configuration of the shipped file, with any accepted arguments, also passes the initialisation of the ride-through logic, with settings that meet the
conditions of `C140_constructed_evaluates` and `C140_constructed_session`. -/
theorem C140_shipped_start {m : Sim.Mt} {kw : Args} (hg : Given m kw) {id : String} (hi : (m, id) ∈ pairs) :
    ∃ c x v, file id = some c ∧ construct (template m) file id kw = .ok x ∧ start digit x.setup = .ok v ∧ PlainBlocks file c ∧ v.vrt.restore = false ∧ CanMeasure m v.meas := by
  obtain ⟨x, c, hx, hf, _, hpar⟩ := C133_constructs hg hi
  have hset := construct_setup hx
  obtain ⟨r1, r2, r3, r4⟩ := default_restore
  have ref : ∃ m' v0 s0, setupDER (template m') file id (kwOf [("gridModel", .grid 1)]) = .ok s0 ∧ start digit s0 = .ok v0 ∧ v0.vrt.restore = false := by
    have get : ∀ m' id, (shippedStart m' id).map (fun v => v.vrt.restore) = .ok false →
        ∃ v0 s0, setupDER (template m') file id (kwOf [("gridModel", .grid 1)]) = .ok s0 ∧ start digit s0 = .ok v0 ∧ v0.vrt.restore = false := by
      intro m' id hh
      unfold shippedStart at hh
      cases hx : construct (template m') file id (kwOf [("gridModel", .grid 1)]) with
      | error e => rw [hx] at hh; simp [bind, Except.bind, Except.map] at hh
      | ok x =>
        rw [hx] at hh
        cases hv : start digit x.setup with
        | error e => simp [bind, Except.bind, Except.map, hv] at hh
        | ok v =>
          simp only [bind, Except.bind, Except.map, hv, Except.ok.injEq] at hh
          exact ⟨v, x.setup, construct_setup hx, hv, hh⟩
    unfold pairs at hi
    simp only [List.mem_cons, Prod.mk.injEq, List.not_mem_nil, or_false] at hi
    rcases hi with ⟨_, rfl⟩ | ⟨_, rfl⟩ | ⟨_, rfl⟩ | ⟨_, rfl⟩ | ⟨_, rfl⟩ | ⟨_, rfl⟩ | ⟨_, rfl⟩ | ⟨_, rfl⟩
    · exact ⟨_, get _ _ r1⟩
    · exact ⟨_, get _ _ r1⟩
    · exact ⟨_, get _ _ r1⟩
    · exact ⟨_, get _ _ r2⟩
    · exact ⟨_, get _ _ r2⟩
    · exact ⟨_, get _ _ r2⟩
    · exact ⟨_, get _ _ r3⟩
    · exact ⟨_, get _ _ r4⟩
  obtain ⟨m', v0, s0, hs0, hv0, hr0⟩ := ref
  obtain ⟨_, _, _, w1, w2⟩ := start_ok hv0
  obtain ⟨i1, i2⟩ := init_same hset hs0 digit
  rw [w1] at i1
  rw [w2] at i2
  have num_int : ∀ u : PVal, isInstance u [.int, .float] = true → ∃ q, num u = some q := by
    intro u hu
    cases u <;> first | exact ⟨_, rfl⟩ | exact absurd hu (by simp [isInstance, hasTy])
  have plain : ∀ p u, p ∉ argSpec.map Prod.fst → fileVal m c "basic_options" p = some u → x.setup.design.cfg "basic_options" p = some u := by
    intro p u hp hu
    unfold fileVal at hu
    obtain ⟨ps, h1, hu⟩ := Option.bind_eq_some_iff.1 hu
    obtain ⟨d, h2, hu⟩ := Option.bind_eq_some_iff.1 hu
    rw [hpar _ _ d ⟨ps, lookup_mem h1, lookup_mem h2⟩, if_neg hp]
    exact hu
  obtain ⟨a1, a2, a3, a4⟩ := file_entries (m, id) hi c hf
  simp only at a1 a2 a3 a4
  obtain ⟨u1, b1, b2⟩ := a1
  obtain ⟨q1, b2⟩ := Option.isSome_iff_exists.1 b2
  have k1 : number x.setup.design "basic_options" "t_stable" = .ok q1 := by
    unfold number
    rw [plain _ _ (by decide +kernel) b1]
    simp only [b2]
  obtain ⟨u2, b3, b4⟩ := a2
  have k2 := plain "Vrms_measurement_type" u2 (by decide +kernel) b3
  obtain ⟨q3, k3⟩ : ∃ q, number x.setup.design "inverter_ratings" "Vrmsrated" = .ok q := by
    obtain ⟨u, c1, c2⟩ := a3
    unfold fileVal at c1
    obtain ⟨ps, h1, c1⟩ := Option.bind_eq_some_iff.1 c1
    obtain ⟨d, h2, c1⟩ := Option.bind_eq_some_iff.1 c1
    have := hpar "inverter_ratings" "Vrmsrated" d ⟨ps, lookup_mem h1, lookup_mem h2⟩
    rw [if_pos (by decide +kernel)] at this
    have hga : givenArg c kw "Vrmsrated" = kw "Vrmsrated" := by
      unfold givenArg
      rw [a4]
      cases kw "Vrmsrated" <;> rfl
    rw [hga] at this
    cases hk : kw "Vrmsrated" with
    | some w =>
      rw [hk] at this
      obtain ⟨q, hq⟩ := num_int w (hg.typed "Vrmsrated" _ none w (by decide +kernel) hk)
      have this : x.setup.design.cfg "inverter_ratings" "Vrmsrated" = some w := this
      refine ⟨q, ?_⟩
      unfold number
      rw [this]
      simp only [hq]
    | none =>
      rw [hk] at this
      obtain ⟨q, hq⟩ := Option.isSome_iff_exists.1 c2
      have this : x.setup.design.cfg "inverter_ratings" "Vrmsrated" = (entry c "inverter_ratings" "Vrmsrated" <|> some d) := this
      refine ⟨q, ?_⟩
      unfold number
      rw [this, c1]
      simp only [hq]
  refine ⟨c, x, ⟨v0.vrt, v0.lf, q1, q3, measOf u2⟩, hf, hx, ?_, ?_, hr0, b4⟩
  · unfold start
    rw [k1, k2, k3, i1, i2]
    rfl
  · by_cases hid : id = "50_constantVdc"
    · subst hid
      cases hf
      exact default_plain rfl rfl rfl
    · refine (cat3_blocks ?_ hf).1
      revert hi hid
      unfold pairs
      simp only [List.mem_cons, Prod.mk.injEq, List.not_mem_nil, or_false]
      tauto

/-- **C140 (shipped units, sessions).** Hence a session with any of them, from the file to the last simulation, has no exception. -/
theorem C140_shipped_session {m : Sim.Mt} {kw : Args} (hg : Given m kw) {id : String} (hi : (m, id) ∈ pairs) :
    ∃ x v, construct (template m) file id kw = .ok x ∧ start digit x.setup = .ok v ∧
      ∀ (b : Circuit.Base) (sc : Session.Cfg (clsOf m)) (s : Session.Sess (clsOf m)), Starts v b sc.g s.h → sc.g.evc.overrideAngle = true → (m = .numba → sc.g.standAlone = false) →
        (∃ e1 e2 e3, s.h.ev = Events.init e1 e2 e3) → Scheduled sc.g s.h.rt.w → s.h.Iph = PV.iph sc.g.p.mod s.h.Sinsol s.h.Tactual → sc.loop = false →
        ∀ l : List (Session.Act (clsOf m)), (∀ o, Session.Act.edit o ∈ l → o.isQuery = false) → (∀ sv, Session.Act.sim sv ∈ l → ∀ y, Session.Healthy (sv y sc.ts)) →
          Session.AllReturn sc s l := by
  obtain ⟨c, x, v, hf, hx, hv, hp, hr, hm⟩ := C140_shipped_start hg hi
  refine ⟨x, v, hx, hv, ?_⟩
  rintro b sc s hs ho hn ⟨e1, e2, e3, he⟩ hw hsun hl l hq hS
  exact C140_constructed_session hx hf hv hp hs hr hm ho hn he hw hsun hl l hq hS

/-- Conditions met, for every class and identifier, in both modes, with a DC reference scheduled: two simulations with a removal of events in between. -/
theorem C140_example (m : Sim.Mt) (v : Start) (sa : Bool) (y : (clsOf m).V → ℝ) (J : Ode.Env → (clsOf m).V → (clsOf m).V → ℝ) :
    ∃ (sc : Session.Cfg (clsOf m)) (s : Session.Sess (clsOf m)), Starts v ⟨500, 50000, 377⟩ sc.g s.h ∧ sc.g.evc.overrideAngle = true ∧ sc.g.standAlone = sa ∧
      (∃ e1 e2 e3, s.h.ev = Events.init e1 e2 e3) ∧ Scheduled sc.g s.h.rt.w ∧ s.h.rt.w.lst ≠ [] ∧ s.h.Iph = PV.iph sc.g.p.mod s.h.Sinsol s.h.Tactual ∧ sc.loop = false ∧
      ∀ sv, Session.Act.sim sv ∈ ([.sim (Session.askAt 1 [1, 2]), .edit (.removeSolar (some 2) false), .sim (Session.askAt 1 [0, 4])] : List (Session.Act (clsOf m))) →
        ∀ y, Session.Healthy (sv y sc.ts) := by
  let g : SCfg := { Eval.exG Ode.exPar sa with
    tStable := v.tStable, Vref := (v.Vrms : ℝ) * Real.sqrt 2 / 500 / Real.sqrt 2, discDelay := v.vrt.disc, recoDelay := v.vrt.reco, restoreVdc := v.vrt.restore, meas := v.meas }
  let w := (VdcRef.addRef g.vdcCfg ⟨[], ⟨0, 0, 1, 2⟩⟩ 1 g.vdcCfg.vmin).1
  let h : Hid := { Eval.exH (Eval.exG Ode.exPar sa) (Events.init true true true) with rt := v.rt false false Eval.exRT.refs w }
  refine ⟨⟨g, J, ⟨1, 1, 1, 377⟩, [0, 1, 2], false, false⟩, ⟨h, y, [], [], none, [], none⟩, ⟨⟨_, _, _, _, rfl⟩, rfl, rfl, rfl, rfl, rfl, rfl⟩, rfl, rfl, ⟨_, _, _, rfl⟩,
    ⟨1, 2, [(1, g.vdcCfg.vmin)], rfl⟩, ?_, rfl, rfl, ?_⟩
  · show w.lst ≠ []
    simp only [w, VdcRef.addRef]
    rw [if_neg (by simp only [g, Eval.exG]; norm_num)]
    exact addTimed_ne_nil _ _ _
  · intro sv hsv y'
    simp only [List.mem_cons, List.not_mem_nil, or_false, reduceCtorEq, false_or, Session.Act.sim.injEq] at hsv
    rcases hsv with rfl | rfl <;> exact Session.askAt_healthy _ _ _

end Shipped
end Config
end PvDer
