import Verif.Spec.RTSwitch
import Verif.Props.RTTrip
import Verif.Props.RTQuiet
import Verif.Lemmas.Conn
import Verif.Props.EvalRide

/-!
# Property C144: ride-through functions that are switched off and on
-/

set_option linter.unusedSectionVars false

namespace PvDer
namespace RT

variable {K W : Type} [Field K] [LinearOrder K] [IsStrictOrderedRing K]

theorem watched_gt (sel : Bool → Bool → Bool → Bool) (lock : K) (on : Bool) (l : List (Op K)) : ∀ x ∈ watched sel lock on l, lock < x.1 := by
  induction l generalizing lock on with
  | nil => simp [watched]
  | cons o l ih =>
    cases o with
    | switch a b d => exact ih lock _
    | call i =>
      intro x hx
      unfold watched at hx
      by_cases ht : i.t > lock
      · rw [if_pos ht] at hx
        cases on
        · exact lt_trans ht (ih i.t false x (by simpa using hx))
        · simp only [if_true, List.mem_cons] at hx
          rcases hx with rfl | hx
          · exact ht
          · exact lt_trans ht (ih i.t true x hx)
      · rw [if_neg ht] at hx
        exact ih lock on x hx

theorem watched_increasing (sel : Bool → Bool → Bool → Bool) (lock : K) (on : Bool) (l : List (Op K)) : Increasing (watched sel lock on l) := by
  induction l generalizing lock on with
  | nil => simp [watched, Increasing]
  | cons o l ih =>
    cases o with
    | switch a b d => exact ih lock _
    | call i =>
      unfold watched
      by_cases ht : i.t > lock
      · rw [if_pos ht]
        cases on
        · simpa using ih i.t false
        · simp only [if_true]
          exact List.pairwise_cons.2 ⟨fun x hx => watched_gt sel i.t true l x hx, ih i.t true⟩
      · rw [if_neg ht]
        exact ih lock on

/-- The voltage functions of a switched DER are runs over the samples they watch. -/
theorem opRun_vrt (c : Cfg K W) (s : St K W) (l : List (Op K)) :
    (opRun c s l).lv = lvRun c.tStable c.Vref s.lv (watched selLv s.rtLock s.lvEnable l) ∧
    (opRun c s l).hv = hvRun c.tStable c.Vref s.hv (watched selHv s.rtLock s.hvEnable l) := by
  induction l generalizing s with
  | nil => exact ⟨rfl, rfl⟩
  | cons o l ih =>
    cases o with
    | switch a b d => exact ih { s with lvEnable := a, hvEnable := b, lfEnable := d }
    | call i =>
      have hr : opRun c s (.call i :: l) = opRun c (eval c s i).1 l := rfl
      have h := ih (eval c s i).1
      rw [hr]
      unfold watched
      by_cases ht : i.t > s.rtLock
      · obtain ⟨e1, e2, e3, e4, e5, e6⟩ := eval_vrt c s i ht
        rw [if_pos ht, if_pos ht]
        rw [e1, e2, e3, e4, e5] at h
        refine ⟨?_, ?_⟩
        · rw [h.1]; cases s.lvEnable <;> rfl
        · rw [h.2]; cases s.hvEnable <;> rfl
      · obtain ⟨e1, e2, e3, e4, e5, e6, _, _⟩ := eval_old c s i (not_lt.1 ht)
        rw [if_neg ht, if_neg ht]
        rw [e1, e2, e3, e4, e5] at h
        exact h

/-- C144: however the functions are switched on and off, the low-voltage trip flag is set iff for some configured zone two of the samples *taken while the function
was on* are below the threshold, further apart than the zone allows, with no watched sample above the threshold in between. -/
theorem C144_lv_trip_iff {c : Cfg K W} {s : St K W} (hi : IsInit s) (l : List (Op K)) :
    (opRun c s l).lv.trip = true ↔
      ∃ z ∈ s.lv.zones, Exceeds (z.Vthr * c.Vref) z.tThr (after c.tStable (watched selLv 0 s.lvEnable l)) := by
  have hr := (opRun_vrt c s l).1
  rw [hi.rl] at hr
  rw [hr, lvRun_trip (fun z hz => (hi.lvz z hz).2) hi.lvt, List.any_eq_true]
  constructor
  · rintro ⟨z, hz, hb⟩
    exact ⟨z, hz, (zRun_inv (hi.lvz z hz) _ (watched_increasing _ 0 _ l) (watched_gt _ 0 _ l)).breach.1 hb⟩
  · rintro ⟨z, hz, hb⟩
    exact ⟨z, hz, (zRun_inv (hi.lvz z hz) _ (watched_increasing _ 0 _ l) (watched_gt _ 0 _ l)).breach.2 hb⟩

/-- C144: mirror image for high voltage. -/
theorem C144_hv_trip_iff {c : Cfg K W} {s : St K W} (hi : IsInit s) (l : List (Op K)) :
    (opRun c s l).hv.trip = true ↔
      ∃ z ∈ s.hv.zones, ExceedsHigh (z.Vthr * c.Vref) z.tThr (after c.tStable (watched selHv 0 s.hvEnable l)) := by
  have hr := (opRun_vrt c s l).2
  rw [hi.rl, hvRun_neg] at hr
  generalize hw : watched selHv 0 s.hvEnable l = w at hr ⊢
  have hwi : Increasing w := hw ▸ watched_increasing _ 0 _ l
  have hwp : ∀ x ∈ w, 0 < x.1 := hw ▸ watched_gt _ 0 _ l
  have hfz : ∀ z ∈ s.hv.neg.zones, z.fresh := by
    intro z hz
    obtain ⟨y, hy, rfl⟩ := List.mem_map.1 hz
    exact hi.hvz y hy
  have ht : (lvRun c.tStable c.Vref s.hv.neg (negH w)).neg.trip
      = s.hv.neg.zones.any (fun z => (zRun c.tStable c.Vref z (negH w)).breach) :=
    lvRun_trip (fun z hz => (hfz z hz).2) hi.hvt _
  have hinc : Increasing (negH w) := by
    unfold Increasing negH
    rw [List.pairwise_map]
    exact hwi
  have hpos : ∀ x ∈ negH w, 0 < x.1 := by
    intro x hx
    obtain ⟨y, hy, rfl⟩ := List.mem_map.1 hx
    exact hwp y hy
  have key : ∀ z ∈ s.hv.zones, ((zRun c.tStable c.Vref z.neg (negH w)).breach = true ↔ ExceedsHigh (z.Vthr * c.Vref) z.tThr (after c.tStable w)) := by
    intro z hz
    have := (zRun_inv (tStable := c.tStable) (Vref := c.Vref) (z := z.neg) (hi.hvz z hz) _ hinc hpos).breach
    rw [this, after_neg, show z.neg.Vthr * c.Vref = -(z.Vthr * c.Vref) by simp [Zone.neg], exceeds_neg]
    rfl
  rw [hr, ht, List.any_eq_true]
  constructor
  · rintro ⟨z, hz, hb⟩
    obtain ⟨y, hy, rfl⟩ := List.mem_map.1 hz
    exact ⟨y, hy, (key y hy).1 hb⟩
  · rintro ⟨y, hy, hb⟩
    exact ⟨y.neg, List.mem_map.2 ⟨y, hy, rfl⟩, (key y hy).2 hb⟩

/-- One evaluation of an undisturbed DER. -/
theorem quiet_step {c : Cfg K W} {s s' : St K W} (hi : IsInit s) (e1 : s'.lv = s.lv) (e2 : s'.hv = s.hv) (e3 : s'.lfEnable = false) (e4 : s'.connected = true)
    (e5 : s'.trip = false) (e6 : s'.mc = false) (i : Inp K) (hl : s'.lvEnable = true → ∀ z ∈ s.lv.zones, z.Vthr * c.Vref ≤ i.V)
    (hh : s'.hvEnable = true → ∀ z ∈ s.hv.zones, i.V ≤ z.Vthr * c.Vref) :
    ∃ lock cl, eval c s' i = ({ s' with refs := i.refs, rtLock := lock, connLock := cl }, .ok ()) := by
  have hlv : (if s'.lvEnable = true then lvrt c.tStable c.Vref i.V i.t s.lv else s.lv) = s.lv := by
    by_cases h : s'.lvEnable = true
    · rw [if_pos h, lvrt_healthy (fun z hz => ⟨hi.lvz z hz, hl h z hz⟩)]
    · rw [if_neg h]
  have hhv : (if s'.hvEnable = true then hvrt c.tStable c.Vref i.V i.t s.hv else s.hv) = s.hv := by
    by_cases h : s'.hvEnable = true
    · rw [if_pos h, hvrt_healthy (fun z hz => ⟨hi.hvz z hz, hh h z hz⟩)]
    · rw [if_neg h]
  have huf : ∃ lock, updateFlags c i.t i.V i.f { s' with refs := i.refs } = ({ s' with refs := i.refs, rtLock := lock }, .ok ()) := by
    by_cases ht : i.t > s'.rtLock
    · refine ⟨i.t, ?_⟩
      rw [updateFlags_eq c i.t i.V i.f { s' with refs := i.refs } ht]
      simp only [vrtStep, e1, e2, e3, hlv, hhv, Bool.false_eq_true, if_false, hi.lvt, hi.hvt, hi.lvm, hi.hvm, Bool.or_false, e5, e6]
    · refine ⟨s'.rtLock, ?_⟩
      rw [updateFlags_lock c i.t i.V i.f { s' with refs := i.refs } (not_lt.1 ht)]
  obtain ⟨lock, huf⟩ := huf
  refine ⟨lock, ?_⟩
  unfold eval
  rw [huf]
  simp only
  unfold disconnectOrReconnect
  by_cases ht : i.t > s'.connLock
  · refine ⟨i.t, ?_⟩
    simp [ht, e4, e5, e6]
  · refine ⟨s'.connLock, ?_⟩
    simp [ht, e4]

/-- C144: a function that is off does nothing.  Along any history in which every evaluation sees a voltage that is healthy for the functions that are on at that
moment, no evaluation raises, no flag is ever set, the DER stays connected and its references are the ones last computed: while low-voltage ride-through is off the
voltage may be as low as it likes for as long as it likes. -/
theorem C144_off_means_off {c : Cfg K W} {s : St K W} (hi : IsInit s) (hlf : s.lfEnable = false) (l : List (Op K))
    (hV : Unharmed s.lv.zones s.hv.zones c.Vref s.lvEnable s.hvEnable l) :
    (opRun c s l).connected = true ∧ (opRun c s l).trip = false ∧ (opRun c s l).mc = false ∧
    (opRun c s l).lv = s.lv ∧ (opRun c s l).hv = s.hv ∧
    (∀ p o q, l = p ++ o :: q → opOk c (opRun c s p) o ∧ ∀ i, o = .call i → (opStep c (opRun c s p) o).refs = i.refs) := by
  have main : ∀ (l : List (Op K)) (s' : St K W), s'.lv = s.lv → s'.hv = s.hv → s'.lfEnable = false → s'.connected = true → s'.trip = false → s'.mc = false →
      Unharmed s.lv.zones s.hv.zones c.Vref s'.lvEnable s'.hvEnable l →
      (opRun c s' l).connected = true ∧ (opRun c s' l).trip = false ∧ (opRun c s' l).mc = false ∧
      (opRun c s' l).lv = s.lv ∧ (opRun c s' l).hv = s.hv ∧
      (∀ p o q, l = p ++ o :: q → opOk c (opRun c s' p) o ∧ ∀ i, o = .call i → (opStep c (opRun c s' p) o).refs = i.refs) := by
    intro l
    induction l with
    | nil => intro s' e1 e2 _ e4 e5 e6 _; exact ⟨e4, e5, e6, e1, e2, fun p o q h => by simp at h⟩
    | cons o l ih =>
      intro s' e1 e2 e3 e4 e5 e6 hV
      cases o with
      | switch a b d =>
        obtain ⟨hd, hV⟩ := hV
        obtain ⟨r1, r2, r3, r4, r5, r6⟩ := ih { s' with lvEnable := a, hvEnable := b, lfEnable := d } e1 e2 hd e4 e5 e6 hV
        refine ⟨r1, r2, r3, r4, r5, fun p o q h => ?_⟩
        cases p with
        | nil => rw [List.nil_append, List.cons.injEq] at h; obtain ⟨rfl, _⟩ := h; exact ⟨trivial, fun i h => by cases h⟩
        | cons o' p => rw [List.cons_append, List.cons.injEq] at h; obtain ⟨rfl, h⟩ := h; exact r6 p o q h
      | call i =>
        obtain ⟨hl, hh, hV⟩ := hV
        obtain ⟨lock, cl, he⟩ := quiet_step hi e1 e2 e3 e4 e5 e6 i hl hh
        have hs : opStep c s' (.call i) = { s' with refs := i.refs, rtLock := lock, connLock := cl } := congrArg Prod.fst he
        obtain ⟨r1, r2, r3, r4, r5, r6⟩ := ih { s' with refs := i.refs, rtLock := lock, connLock := cl } e1 e2 e3 e4 e5 e6 hV
        have hr : opRun c s' (.call i :: l) = opRun c { s' with refs := i.refs, rtLock := lock, connLock := cl } l := by
          show opRun c (opStep c s' (.call i)) l = _
          rw [hs]
        rw [hr]
        refine ⟨r1, r2, r3, r4, r5, fun p o q h => ?_⟩
        cases p with
        | nil =>
          rw [List.nil_append, List.cons.injEq] at h
          obtain ⟨rfl, _⟩ := h
          refine ⟨congrArg Prod.snd he, fun j hj => ?_⟩
          cases hj
          show (opStep c s' (.call i)).refs = _
          rw [hs]
        | cons o' p =>
          rw [List.cons_append, List.cons.injEq] at h
          obtain ⟨rfl, h⟩ := h
          have hr : opRun c s' (.call i :: p) = opRun c { s' with refs := i.refs, rtLock := lock, connLock := cl } p := by
            show opRun c (opStep c s' (.call i)) p = _
            rw [hs]
          rw [hr]
          exact r6 p o q h
  exact main l s rfl rfl hlf hi.conn hi.trip hi.mc hV

theorem opRun_append (c : Cfg K W) (s : St K W) (l l' : List (Op K)) : opRun c s (l ++ l') = opRun c (opRun c s l) l' := by
  unfold opRun; rw [List.foldl_append]

theorem opRun_snoc (c : Cfg K W) (s : St K W) (l : List (Op K)) (o : Op K) : opRun c s (l ++ [o]) = opStep c (opRun c s l) o := opRun_append c s l [o]

/-- C144: switching a function off does not undo its trip: once the DER trip flag is set it stays set, whatever is switched. -/
theorem C144_trip_latched {c : Cfg K W} {s : St K W} (hi : IsInit s) (l l' : List (Op K)) (ht : (opRun c s l).trip = true) : (opRun c s (l ++ l')).trip = true := by
  have key : ∀ (l : List (Op K)), (opRun c s l).trip = true → (opRun c s l).lv.trip = true ∨ (opRun c s l).hv.trip = true := by
    intro l
    induction l using List.reverseRecOn with
    | nil => intro hh; simp [opRun, hi.trip] at hh
    | append_singleton l o ih =>
      rw [opRun_snoc]
      cases o with
      | call i => exact (trip_inv_step c _ i ih).2
      | switch a b d => exact ih
  induction l' using List.reverseRecOn with
  | nil => simpa using ht
  | append_singleton l' o ih =>
    rw [← List.append_assoc, opRun_snoc]
    cases o with
    | call i => exact (trip_inv_step c _ i (key _)).1 ih
    | switch a b d => exact ih

/-- C144: while the frequency function is off (and stays off), the frequency does not matter: two histories that differ only in the frequencies seen lead to the same
state. -/
theorem C144_frequency_irrelevant {c : Cfg K W} {l l' : List (Op K)} (h : SameButF l l') (hno : NoLf l) (s : St K W) (hlf : s.lfEnable = false) :
    opRun c s l = opRun c s l' := by
  induction h generalizing s with
  | nil => rfl
  | call t V f f' r _ ih =>
    have he : eval c s ⟨t, V, f, r⟩ = eval c s ⟨t, V, f', r⟩ := by
      have hu : updateFlags c t V f { s with refs := r } = updateFlags c t V f' { s with refs := r } := by
        by_cases ht : t > s.rtLock
        · rw [updateFlags_eq c t V f { s with refs := r } ht, updateFlags_eq c t V f' { s with refs := r } ht]
          simp only [hlf, Bool.false_eq_true, if_false]
        · rw [updateFlags_lock c t V f { s with refs := r } (not_lt.1 ht), updateFlags_lock c t V f' { s with refs := r } (not_lt.1 ht)]
      unfold eval
      simp only [hu]
    have hlf' : (eval c s ⟨t, V, f', r⟩).1.lfEnable = false := (eval_conn c s _ hlf).2.2
    show opRun c (eval c s ⟨t, V, f, r⟩).1 _ = opRun c (eval c s ⟨t, V, f', r⟩).1 _
    rw [he]
    exact ih (fun o ho => hno o (by simp [ho])) _ hlf'
  | switch a b d _ ih =>
    have hd : d = false := hno (.switch a b d) (by simp)
    exact ih (fun o ho => hno o (by simp [ho])) _ hd

theorem connStep_ceased (dd rd t : K) (trip : Bool) (x : Conn K) (h : x.connected = false) : (connStep dd rd t trip true x).connected = false := by
  unfold connStep
  split_ifs <;> simp_all

/-- C144, what goes wrong: a DER that is switched off in the middle of a momentary cessation stays disconnected for ever, however healthy the voltage becomes,
because only the switched-off function would end the cessation. -/
theorem C144_off_during_cessation {c : Cfg K W} {s : St K W} (hlv : s.lv.mc = true) (hmc : s.mc = true) (hd : s.connected = false) (hlf : s.lfEnable = false)
    (hen : s.lvEnable = false) (l : List (Op K)) (hnl : NoLv l) (hnf : NoLf l) : (opRun c s l).connected = false := by
  induction l generalizing s with
  | nil => exact hd
  | cons o l ih =>
    have h1 : NoLv l := fun o ho => hnl o (by simp [ho])
    have h2 : NoLf l := fun o ho => hnf o (by simp [ho])
    cases o with
    | switch a b d => exact ih (s := { s with lvEnable := a, hvEnable := b, lfEnable := d }) hlv hmc hd (hnf (.switch a b d) (by simp)) (hnl (.switch a b d) (by simp)) h1 h2
    | call i =>
      show (opRun c (eval c s i).1 l).connected = false
      have hc := eval_conn c s i hlf
      have hmc' : (eval c s i).1.mc = true ∧ (eval c s i).1.lv.mc = true ∧ (eval c s i).1.lvEnable = false := by
        by_cases ht : i.t > s.rtLock
        · obtain ⟨e1, e2, e3, e4, e5, e6⟩ := eval_vrt c s i ht
          rw [hen] at e1
          have hk := (eval_keeps c s i)
          have hu := (updateFlags_off c i.t i.V i.f { s with refs := i.refs } hlf ht).2
          rw [← hk.1, ← hk.2.2.2.2.2.2.2, e1] at hu
          refine ⟨?_, ?_, e4.trans hen⟩
          · rw [hu]; simp [hlv]
          · rw [e1]; simpa using hlv
        · obtain ⟨e1, e2, e3, e4, e5, e6, e7, e8⟩ := eval_old c s i (not_lt.1 ht)
          exact ⟨e8.trans hmc, by rw [e1]; exact hlv, e4.trans hen⟩
      refine ih hmc'.2.1 hmc'.1 ?_ hc.2.2 hmc'.2.2 h1 h2
      have := congrArg Conn.connected hc.1
      rw [hmc'.1] at this
      exact this.trans (connStep_ceased _ _ _ _ _ hd)

/-- Evaluations of the example DER (`exSt`, Props/RTTrip.lean) as operations. -/
def exCall (t V : ℚ) : Op ℚ := .call (exInp t V)

/-- C144, concrete cases.  (1) With low-voltage ride-through off, the example DER (zones 0.88 p.u./5 s and 0.5 p.u./1 s) stays connected through ten minutes at zero
voltage; switched on, it trips.  (2) A pause counts: switched on for one evaluation of a sag, off during seven healthy seconds, on again at a new sag, it trips at once,
although no sag lasted longer than 5 s.  (3) Switched off in the middle of a momentary cessation it is still disconnected ten minutes later at healthy voltage; left on,
it reconnects. -/
theorem C144_example :
    (Unharmed exSt.lv.zones exSt.hv.zones exCfg.Vref false true [exCall 1 0, exCall 600 0] ∧
      (opRun exCfg { exSt with lvEnable := false } [exCall 1 0, exCall 600 0]).connected = true ∧
      (opRun exCfg exSt [exCall 1 0, exCall 600 0]).trip = true) ∧
    ((opRun exCfg exSt [exCall 1 (8/10), .switch false true false, exCall 2 1, exCall 7 1, .switch true true false, exCall 8 (8/10)]).trip = true ∧
      (opRun exCfg exSt [exCall 1 (8/10), exCall 2 1, exCall 7 1, exCall 8 (8/10)]).trip = false) ∧
    ((opRun exCfg exSt [exCall 1 (4/10), exCall (12/10) (4/10), exCall (14/10) (4/10)]).connected = false ∧
      (opRun exCfg exSt [exCall 1 (4/10), exCall (12/10) (4/10), exCall (14/10) (4/10)]).lv.mc = true ∧
      (opRun exCfg exSt [exCall 1 (4/10), exCall (12/10) (4/10), exCall (14/10) (4/10), .switch false true false, exCall 2 1, exCall 5 1, exCall 600 1]).connected = false ∧
      (opRun exCfg exSt [exCall 1 (4/10), exCall (12/10) (4/10), exCall (14/10) (4/10), exCall 2 1, exCall 5 1, exCall 600 1]).connected = true) := by
  refine ⟨⟨?_, by decide +kernel, by decide +kernel⟩, by decide +kernel, by decide +kernel⟩
  simp only [Unharmed, exCall, exInp]
  refine ⟨fun h => by simp at h, fun _ => by decide +kernel, fun h => by simp at h, fun _ => by decide +kernel, trivial⟩

end RT
end PvDer

namespace PvDer
namespace RT

variable {K W : Type} [Field K] [LinearOrder K] [IsStrictOrderedRing K]

theorem opRun_calls (c : Cfg K W) (s : St K W) (l : List (Inp K)) : opRun c s (l.map .call) = run c s l := by
  induction l generalizing s with
  | nil => rfl
  | cons i l ih => exact ih (eval c s i).1

theorem unharmed_calls {lvz hvz : List (Zone K)} {Vref : K} {a b : Bool} {l : List (Inp K)}
    (h : ∀ i ∈ l, (a = true → ∀ z ∈ lvz, z.Vthr * Vref ≤ i.V) ∧ (b = true → ∀ z ∈ hvz, i.V ≤ z.Vthr * Vref)) : Unharmed lvz hvz Vref a b (l.map .call) := by
  induction l with
  | nil => trivial
  | cons i l ih => exact ⟨(h i (by simp)).1, (h i (by simp)).2, ih (fun j hj => h j (by simp [hj]))⟩

end RT

namespace Eval

variable {k : Cls} {g : SCfg} {h : Hid} {f : Call k → ℝ}

/-- C144 in a running simulation of any model class: the functions that are switched off take no part.  If the measured voltages are healthy for the functions that
are on, the DER stays connected, and no evaluation computes with anything but its own references. -/
theorem C144_in_a_simulation (hf : Sees k g f) (hi : RT.IsInit h.rt) (hlf : h.rt.lfEnable = false) (l : List (Call k)) (hok : Ok k g h l)
    (hV : ∀ c ∈ l, (h.rt.lvEnable = true → ∀ z ∈ h.rt.lv.zones, z.Vthr * g.Vref ≤ f c) ∧
      (h.rt.hvEnable = true → ∀ z ∈ h.rt.hv.zones, f c ≤ z.Vthr * g.Vref)) :
    (run k g h l).rt.connected = true ∧ (run k g h l).rt.trip = false ∧ (run k g h l).rt.mc = false := by
  obtain ⟨ins, h1, h2⟩ := run_rt hf l h hok
  have hins : ∀ i ∈ ins, (h.rt.lvEnable = true → ∀ z ∈ h.rt.lv.zones, z.Vthr * g.Vref ≤ i.V) ∧
      (h.rt.hvEnable = true → ∀ z ∈ h.rt.hv.zones, i.V ≤ z.Vthr * g.Vref) := by
    intro i hii
    have hm : (i.t, i.V) ∈ RT.samples ins := List.mem_map_of_mem (f := fun i : RT.Inp ℝ => (i.t, i.V)) hii
    rw [h1] at hm
    obtain ⟨c, hc, he⟩ := List.mem_map.1 hm
    simp only [Prod.mk.injEq] at he
    rw [← he.2]
    exact hV c hc
  have := RT.C144_off_means_off (c := g.rt.unit) (isInit_strip hi) hlf (ins.map .call) (RT.unharmed_calls hins)
  rw [RT.opRun_calls, ← h2] at this
  exact ⟨this.1, this.2.1, this.2.2.1⟩

/-- C144: with both voltage functions off the DER stays connected through every voltage whatsoever. -/
theorem C144_both_off_in_a_simulation (hf : Sees k g f) (hi : RT.IsInit h.rt) (hlf : h.rt.lfEnable = false) (ha : h.rt.lvEnable = false) (hb : h.rt.hvEnable = false)
    (l : List (Call k)) (hok : Ok k g h l) : (run k g h l).rt.connected = true :=
  (C144_in_a_simulation hf hi hlf l hok (fun _ _ => ⟨fun e => by simp [ha] at e, fun e => by simp [hb] at e⟩)).1

/-- Concrete case: the no-filter class of the example configuration with both voltage functions off runs connected through a voltage of zero at any evaluation times;
with them on it trips after a sag of ten seconds. -/
theorem C144_example_simulation (y : Ode.ThreePhaseNoVrmsFilter.V → ℝ) (ts : List ℝ) :
    let g : SCfg := exG Ode.exPar false
    let h0 := exH g (exEv g)
    let off : Hid := { h0 with rt := { h0.rt with lvEnable := false, hvEnable := false } }
    let mk : ℝ → Call noFilter := fun t => ⟨false, y, t, 0, 0, 0, 377⟩
    Ok noFilter g off (ts.map mk) ∧ (run noFilter g off (ts.map mk)).rt.connected = true ∧ (run noFilter g h0 [mk 1, mk 11]).rt.lv.trip = true := by
  intro g h0 off mk
  have hno : ∀ o ∈ exOps, o.isRemoval = false := by
    intro o ho
    simp only [exOps, List.mem_cons, List.not_mem_nil, or_false] at ho
    rcases ho with rfl | rfl | rfl <;> rfl
  have hG := ex_good noFilter Ode.exPar false (Or.inl rfl) exOps hno
  have hok : Ok noFilter g off (ts.map mk) :=
    C99_no_exception (k := noFilter) (g := g) (h := off) ⟨hG.override, hG.msg, hG.ev, hG.dc, hG.lf, hG.ramp, hG.meas, hG.filt⟩ _
  have hs : Sees noFilter g (fun c => Phasor.urmsMin c.va c.vb c.vc) := C96_sees_minimum (by simp [unbalancedClasses]) rfl rfl
  refine ⟨hok, ?_, ?_⟩
  · refine C144_both_off_in_a_simulation hs ?_ rfl rfl rfl _ hok
    have := exRT_init
    exact ⟨this.lvz, this.hvz, this.lvt, this.lvm, this.hvt, this.hvm, this.lfz, this.lft, this.rl, this.cl, this.td, this.tr, this.trip, this.mc, this.conn⟩
  · have hok' : Ok noFilter g h0 [mk 1, mk 11] := C99_no_exception hG _
    rw [C96_lv_trip_iff hs exRT_init rfl _ hok']
    have hz : Phasor.urmsMin 0 0 0 = 0 := by simp [Phasor.urmsMin]
    refine ⟨⟨88 / 100, 5, 1 / 10, .mandatory, 0, false⟩, by simp [h0, exH, exRT], [], [], [], (1, 0), (11, 0), ?_, ?_, ?_, by simp, by norm_num⟩
    · have e : ([mk 1, mk 11].map fun c => (c.t, Phasor.urmsMin c.va c.vb c.vc)) = [((1 : ℝ), (0 : ℝ)), (11, 0)] := by simp [mk, hz]
      rw [e]
      simp only [RT.records, g, exG]
      norm_num [RT.after, RT.records]
    · simp only [g, exG]; norm_num
    · simp only [g, exG]; norm_num

end Eval
end PvDer
