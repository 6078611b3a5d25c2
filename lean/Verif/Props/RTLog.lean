import Verif.Lemmas.RTLog
import Mathlib.Data.List.Induction
import Mathlib.Tactic.Convert
import Mathlib.Data.Rat.Defs

/-!
# C119: the event log is a faithful account of what happened

The messages that the simulation writes about ride-through zones, trips, momentary cessation, disconnection and reconnection (`Model/RTLog.lean`) determine the state of
that logic completely and are only written when their conditions hold (`Spec/RTLog.lean`).
-/

namespace PvDer
namespace RT

variable {K : Type} [Field K] [LinearOrder K] {W : Type}

theorem LogInv.ofInit {c : Cfg K W} {s : St K W} (hs : IsInit s) : LogInv c s.lf.length s :=
  ⟨fun _ => ⟨hs.lft, hs.lfz⟩, .inr ⟨by simp [hs.trip, hs.lvt, hs.hvt], by simp [hs.mc, hs.lvm, hs.hvm]⟩, rfl⟩

/-- **C119** (main). Starting from construction, for any settings and any sequence of evaluations (in any time order, failing ones included), the log reads correctly: every
message is written only when its conditions hold, and the timers, marks and flags at the end are exactly those that a reader of the log obtains by following the messages.  No
timer is started or stopped, no zone tripped and the inverter neither disconnected nor reconnected without a message.  (Provided every frequency zone has one of the
names the printing function knows.) -/
theorem C119_log_faithful (named : Nat → Bool) (c : Cfg K W) (s : St K W) (hs : IsInit s) (hn : ∀ i < s.lf.length, named i = true) (h : List (Inp K)) :
    Reads ⟨c.Vref, c.discDelay, c.recoDelay, c.delF⟩ ⟨s.lv, s.hv, s.lf, s.lfTrip, s.tDisc, s.tReco, s.connected⟩ (logOf named c s h)
      ⟨(run c s h).lv, (run c s h).hv, (run c s h).lf, (run c s h).lfTrip, (run c s h).tDisc, (run c s h).tReco, (run c s h).connected⟩ :=
  (run_reads named c s.lf.length hn h s (LogInv.ofInit hs)).1

/-! ## What a reader may conclude from any log that reads correctly -/

theorem Reads.split {R : Rules K} {o o' : Known K} (l l' : List (Msg K)) (h : Reads R o (l ++ l') o') : ∃ m, Reads R o l m ∧ Reads R m l' o' := by
  induction l generalizing o with
  | nil => exact ⟨o, .nil _, h⟩
  | cons a l ih =>
    cases h with
    | cons _ _ _ _ hm h =>
      obtain ⟨m, h1, h2⟩ := ih h
      exact ⟨m, .cons _ _ _ _ hm h1, h2⟩

/-- Final knowledge is obtained by applying the messages in turn. -/
theorem Reads.fold {R : Rules K} {o o' : Known K} {l : List (Msg K)} (h : Reads R o l o') : o' = l.foldl Known.put o := by
  induction h with
  | nil => rfl
  | cons o o' m l _ _ ih => exact ih

/-- A message that changes the timer of a zone. -/
def Msg.touches (high : Bool) (i : Nat) : Msg K → Prop
  | .zone h j _ _ .entered => h = high ∧ j = i
  | .zone h j _ _ (.reset _) => h = high ∧ j = i
  | .zone h j _ _ (.trip _) => h = high ∧ j = i
  | _ => False

/-- A message announcing the trip of a zone. -/
def Msg.isTrip (high : Bool) (i : Nat) : Msg K → Prop
  | .zone h j _ _ (.trip _) => h = high ∧ j = i
  | _ => False

theorem put_zone (o : Known K) (m : Msg K) (high : Bool) (i : Nat) (z : Zone K) (hz : (o.side high).zones[i]? = some z) :
    ∃ z', ((o.put m).side high).zones[i]? = some z' ∧ z'.Vthr = z.Vthr ∧ z'.tThr = z.tThr ∧ z'.tMin = z.tMin ∧ z'.mode = z.mode ∧
      (z.breach = true → z'.breach = true) ∧ (¬ m.touches high i → z'.tStart = z.tStart) ∧ (m.isTrip high i → z'.breach = true) := by
  rcases m with ⟨h, j, t, V, w⟩ | ⟨j, t, f, w⟩ | _ | _ | _ | _ | _
  · by_cases hh : h = high
    · subst hh
      by_cases hj : j = i
      · subst hj
        cases w <;> refine ⟨_, by simp [Known.put, side_setSide, What.put, hz]; rfl, ?_⟩ <;> simp [Msg.touches, Msg.isTrip]
      · cases w <;> refine ⟨_, by simp [Known.put, side_setSide, What.put, hz, hj]; rfl, ?_⟩ <;> simp [Msg.touches, Msg.isTrip, hj]
    · refine ⟨z, ?_, ?_⟩
      · rw [← hz]; cases h <;> cases high <;> simp_all [Known.put, Known.setSide, Known.side]
      · cases w <;> simp [Msg.touches, Msg.isTrip, hh]
  · cases w <;> exact ⟨z, by rw [← hz]; cases high <;> rfl, by simp [Msg.touches, Msg.isTrip]⟩
  all_goals exact ⟨z, by rw [← hz]; cases high <;> rfl, by simp [Msg.touches, Msg.isTrip]⟩

theorem Reads.zone {R : Rules K} {o o' : Known K} {l : List (Msg K)} (h : Reads R o l o') (high : Bool) (i : Nat) (z : Zone K)
    (hz : (o.side high).zones[i]? = some z) :
    ∃ z', (o'.side high).zones[i]? = some z' ∧ z'.Vthr = z.Vthr ∧ z'.tThr = z.tThr ∧ z'.tMin = z.tMin ∧ z'.mode = z.mode ∧ (z.breach = true → z'.breach = true) := by
  induction h generalizing z with
  | nil => exact ⟨z, hz, by simp⟩
  | cons o o' m l _ _ ih =>
    obtain ⟨z1, h1, a1, a2, a3, a4, a5, _⟩ := put_zone o m high i z hz
    obtain ⟨z2, h2, b1, b2, b3, b4, b5⟩ := ih z1 h1
    exact ⟨z2, h2, b1.trans a1, b2.trans a2, b3.trans a3, b4.trans a4, fun h => b5 (a5 h)⟩

/-- Positions of zones do not appear or disappear. -/
theorem Reads.zone_none {R : Rules K} {o o' : Known K} {l : List (Msg K)} (h : Reads R o l o') (high : Bool) (i : Nat)
    (hz : (o.side high).zones[i]? = none) : (o'.side high).zones[i]? = none := by
  induction h with
  | nil => exact hz
  | cons o o' m l _ _ ih =>
    refine ih ?_
    rcases m with ⟨h, j, t, V, w⟩ | ⟨j, t, f, w⟩ | _ | _ | _ | _ | _
    · by_cases hh : h = high
      · subst hh
        cases w <;> simp only [Known.put, side_setSide, What.put, List.getElem?_modify, hz] <;> simp
      · rw [← hz]; cases h <;> cases high <;> simp_all [Known.put, Known.setSide, Known.side]
    · cases w <;> rw [← hz] <;> cases high <;> rfl
    all_goals rw [← hz]; cases high <;> rfl

/-- A tripped zone writes no second trip message. -/
theorem Reads.no_trip {R : Rules K} {o o' : Known K} {l : List (Msg K)} (h : Reads R o l o') (high : Bool) (i : Nat) (z : Zone K)
    (hz : (o.side high).zones[i]? = some z) (hb : z.breach = true) : ∀ m ∈ l, ¬ m.isTrip high i := by
  induction h generalizing z with
  | nil => simp
  | cons o o' m l hm _ ih =>
    obtain ⟨z1, h1, _, _, _, _, a5, _⟩ := put_zone o m high i z hz
    intro x hx
    rcases List.mem_cons.1 hx with rfl | hx
    · intro ht
      rcases x with ⟨h, j, t, V, w⟩ | _ | _ | _ | _ | _ | _ <;> try exact ht
      cases w <;> simp only [Msg.isTrip] at ht
      obtain ⟨rfl, rfl⟩ := ht
      obtain ⟨z', hz', hw⟩ := hm
      rw [hz] at hz'
      obtain rfl := Option.some.inj hz'
      have := hw.2.1
      rw [hb] at this
      cases this
    · exact ih z1 h1 (a5 hb) x hx

/-- A running timer was started by an `entered` message at the time it shows, and nothing was written about the timer of that zone since. -/
theorem Reads.timer {R : Rules K} {o o' : Known K} (l : List (Msg K)) (h : Reads R o l o') (high : Bool) (i : Nat) (z z' : Zone K)
    (hz : (o.side high).zones[i]? = some z) (hz' : (o'.side high).zones[i]? = some z') (h0 : z.tStart = 0) (h1 : z'.tStart ≠ 0) :
    ∃ a b V, l = a ++ .zone high i z'.tStart V .entered :: b ∧ ∀ m ∈ b, ¬ m.touches high i := by
  induction l using List.reverseRecOn generalizing o' z' with
  | nil =>
    cases h
    rw [hz] at hz'
    obtain rfl := Option.some.inj hz'
    exact absurd h0 h1
  | append_singleton l m ih =>
    obtain ⟨p, hp, hl⟩ := Reads.split l [m] h
    have ho : o' = p.put m := by
      cases hl with | cons _ _ _ _ _ h => cases h; rfl
    subst ho
    obtain ⟨y, hy, _⟩ := hp.zone high i z hz
    obtain ⟨y', hy', _, _, _, _, _, hk, _⟩ := put_zone p m high i y hy
    rw [hz'] at hy'
    obtain rfl := Option.some.inj hy'
    by_cases ht : m.touches high i
    · rcases m with ⟨hg, j, t, V, w⟩ | _ | _ | _ | _ | _ | _ <;> try exact absurd ht id
      have hh : hg = high ∧ j = i := by cases w <;> simp [Msg.touches] at ht ⊢ <;> exact ht
      obtain ⟨rfl, rfl⟩ := hh
      cases w with
      | entered =>
        have : z'.tStart = t := by
          simp [Known.put, side_setSide, What.put, hy] at hz'
          rw [← hz']
        exact ⟨l, [], V, by rw [this], by simp⟩
      | reset e =>
        simp [Known.put, side_setSide, What.put, hy] at hz'
        rw [← hz'] at h1
        exact absurd rfl h1
      | cessation e => exact absurd ht id
      | trip e =>
        simp [Known.put, side_setSide, What.put, hy] at hz'
        rw [← hz'] at h1
        exact absurd rfl h1
    · have e := hk ht
      obtain ⟨a, b, V, hab, hb⟩ := ih hp y hy (e ▸ h1)
      refine ⟨a, b ++ [m], V, by rw [hab, e]; simp, ?_⟩
      intro x hx
      rcases List.mem_append.1 hx with hx | hx
      · exact hb x hx
      · rw [List.mem_singleton.1 hx]; exact ht

/-- **C119** (trips are explained). Every trip message in the log was preceded by the message that the zone was entered, exactly the announced time earlier and longer ago than
the zone's limit, with no message about that zone's timer in between; and it is the only trip message of the zone. -/
theorem C119_trip_explained (named : Nat → Bool) (c : Cfg K W) (s : St K W) (hs : IsInit s) (hn : ∀ i < s.lf.length, named i = true) (h : List (Inp K))
    (high : Bool) (i : Nat) (t V e : K) (l1 l2 : List (Msg K)) (hl : logOf named c s h = l1 ++ .zone high i t V (.trip e) :: l2) :
    (∃ z, (if high then s.hv else s.lv).zones[i]? = some z ∧ z.tThr < e ∧ (if high then V > z.Vthr * c.Vref else V < z.Vthr * c.Vref)) ∧
    (∃ a b V0, l1 = a ++ .zone high i (t - e) V0 .entered :: b ∧ ∀ m ∈ b, ¬ m.touches high i) ∧ ∀ m ∈ l1 ++ l2, ¬ m.isTrip high i := by
  have hr := (run_reads named c s.lf.length hn h s (LogInv.ofInit hs)).1
  rw [hl] at hr
  obtain ⟨p, h1, h2⟩ := Reads.split _ _ hr
  rcases h2 with _ | ⟨_, _, _, _, ⟨z', hz', hw⟩, h3⟩
  obtain ⟨w1, w2, w3, w4, w5⟩ := hw
  have hz : ∃ z, (s.known.side high).zones[i]? = some z := by
    rcases hq : (s.known.side high).zones[i]? with _ | z
    · rw [h1.zone_none high i hq] at hz'; cases hz'
    · exact ⟨z, rfl⟩
  obtain ⟨z, hz⟩ := hz
  obtain ⟨y, hy, e1, e2, _, _, eb⟩ := h1.zone high i z hz
  rw [hz'] at hy
  obtain rfl := Option.some.inj hy
  have h0 : z.tStart = 0 := by
    have : z ∈ (s.known.side high).zones := List.mem_of_getElem? hz
    cases high
    · exact (hs.lvz z this).1
    · exact (hs.hvz z this).1
  have hside : s.known.side high = if high then s.hv else s.lv := by cases high <;> rfl
  refine ⟨⟨z, hside ▸ hz, e2 ▸ w5, ?_⟩, ?_, ?_⟩
  · rw [← e1]; cases high <;> simpa [Beyond, Cfg.rules] using w1
  · obtain ⟨a, b, V0, hab, hb⟩ := h1.timer l1 high i z z' hz hz' h0 w3
    refine ⟨a, b, V0, ?_, hb⟩
    rw [hab, w4]; simp
  · intro m hm
    rcases List.mem_append.1 hm with hm | hm
    · intro ht
      obtain ⟨a, b, rfl⟩ := List.append_of_mem hm
      obtain ⟨q, g1, g2⟩ := Reads.split a (m :: b) h1
      rcases g2 with _ | ⟨_, _, _, _, _, g3⟩
      obtain ⟨y1, hy1, _⟩ := g1.zone high i z hz
      obtain ⟨y2, hy2, _, _, _, _, _, _, hb2⟩ := put_zone q m high i y1 hy1
      obtain ⟨y3, hy3, _, _, _, _, hb3⟩ := g3.zone high i y2 hy2
      rw [hz'] at hy3
      obtain rfl := Option.some.inj hy3
      rw [hb3 (hb2 ht)] at w2
      cases w2
    · obtain ⟨y2, hy2, _, _, _, _, _, _, hb2⟩ := put_zone p (.zone high i t V (.trip e)) high i z' hz'
      exact h3.no_trip high i y2 hy2 (hb2 ⟨rfl, rfl⟩) m hm

theorem Reads.trip_iff {R : Rules K} {o o' : Known K} {l : List (Msg K)} (h : Reads R o l o') (high : Bool) :
    (o'.side high).trip = true ↔ ((o.side high).trip = true ∨ ∃ i t V e, .zone high i t V (.trip e) ∈ l) := by
  induction h with
  | nil => simp
  | cons o o' m l _ _ ih =>
    rw [ih]
    have : ((o.put m).side high).trip = true ↔ ((o.side high).trip = true ∨ ∃ i t V e, m = .zone high i t V (.trip e)) := by
      rcases m with ⟨h, j, t, V, w⟩ | ⟨j, t, f, w⟩ | _ | _ | _ | _ | _
      · by_cases hh : h = high
        · subst hh
          cases w <;> simp [Known.put, side_setSide, What.put]
        · cases w <;> cases h <;> cases high <;> simp_all [Known.put, Known.setSide, Known.side]
      · cases w <;> cases high <;> simp [Known.put, Known.side]
      all_goals cases high <;> simp [Known.put, Known.side]
    rw [this]
    constructor
    · rintro ((h | ⟨i, t, V, e, rfl⟩) | ⟨i, t, V, e, hm⟩)
      · exact .inl h
      · exact .inr ⟨i, t, V, e, by simp⟩
      · exact .inr ⟨i, t, V, e, by simp [hm]⟩
    · rintro (h | ⟨i, t, V, e, hm⟩)
      · exact .inl (.inl h)
      · rcases List.mem_cons.1 hm with hm | hm
        · exact .inl (.inr ⟨i, t, V, e, hm.symm⟩)
        · exact .inr ⟨i, t, V, e, hm⟩

/-- **C119** (no silent trip). A table has tripped exactly when the log has a trip message of one of its zones. -/
theorem C119_trip_iff_logged (named : Nat → Bool) (c : Cfg K W) (s : St K W) (hs : IsInit s) (hn : ∀ i < s.lf.length, named i = true) (h : List (Inp K)) :
    ((run c s h).lv.trip = true ↔ ∃ i t V e, .zone false i t V (.trip e) ∈ logOf named c s h) ∧
    ((run c s h).hv.trip = true ↔ ∃ i t V e, .zone true i t V (.trip e) ∈ logOf named c s h) := by
  have hr := (run_reads named c s.lf.length hn h s (LogInv.ofInit hs)).1
  have h1 := hr.trip_iff false
  have h2 := hr.trip_iff true
  have e1 : (s.known.side false).trip = false := hs.lvt
  have e2 : (s.known.side true).trip = false := hs.hvt
  rw [e1] at h1
  rw [e2] at h2
  simp only [Bool.false_eq_true, false_or] at h1 h2
  exact ⟨h1, h2⟩

/-- Number of disconnections in a log. -/
def downs : List (Msg K) → Nat
  | [] => 0
  | .disconnected _ _ :: l => downs l + 1
  | _ :: l => downs l

/-- Number of reconnections in a log. -/
def ups : List (Msg K) → Nat
  | [] => 0
  | .reconnected _ _ :: l => ups l + 1
  | _ :: l => ups l

theorem Reads.balance {R : Rules K} {o o' : Known K} {l : List (Msg K)} (h : Reads R o l o') :
    downs l + (if o'.connected then 1 else 0) = ups l + (if o.connected then 1 else 0) := by
  induction h with
  | nil => rfl
  | cons o o' m l hm _ ih =>
    rcases m with ⟨h, j, t, V, w⟩ | ⟨j, t, f, w⟩ | _ | _ | _ | _ | _
    · have : (o.put (.zone h j t V w)).connected = o.connected := by cases h <;> rfl
      rw [this] at ih
      simp only [downs, ups]
      convert ih
    · have : (o.put (.lf j t f w)).connected = o.connected := by cases w <;> rfl
      rw [this] at ih
      simp only [downs, ups]
      convert ih
    · exact ih
    · have := hm.1
      simp [downs, ups, Known.put, this] at ih ⊢
      omega
    · exact ih
    · exact ih
    · have := hm.1
      simp [downs, ups, Known.put, this] at ih ⊢
      omega

/-- **C119** (connection). Disconnections and reconnections alternate: after any part of the log there was either the same number of both, and then the inverter is
connected, or one disconnection more, and then it is not.  In particular this holds for the whole log. -/
theorem C119_connection_read (named : Nat → Bool) (c : Cfg K W) (s : St K W) (hs : IsInit s) (hn : ∀ i < s.lf.length, named i = true) (h : List (Inp K)) :
    ((run c s h).connected = true ↔ downs (logOf named c s h) = ups (logOf named c s h)) ∧
    ∀ l1 l2, logOf named c s h = l1 ++ l2 → downs l1 = ups l1 ∨ downs l1 = ups l1 + 1 := by
  have hr := (run_reads named c s.lf.length hn h s (LogInv.ofInit hs)).1
  have hk : s.known.connected = true := hs.conn
  constructor
  · have hb := hr.balance
    rw [hk] at hb
    have : (run c s h).known.connected = (run c s h).connected := rfl
    rw [this] at hb
    cases hc : (run c s h).connected <;> simp [hc] at hb ⊢ <;> omega
  · intro l1 l2 hl
    rw [hl] at hr
    obtain ⟨p, h1, _⟩ := Reads.split _ _ hr
    have hb := h1.balance
    rw [hk] at hb
    cases hc : p.connected <;> simp [hc] at hb <;> omega

/-- A message about the disconnection timer. -/
def Msg.isDisc : Msg K → Prop
  | .discStart _ => True
  | .disconnected _ _ => True
  | _ => False

/-- A message about the reconnection timer. -/
def Msg.isReco : Msg K → Prop
  | .recoStart _ => True
  | .recoReset _ _ => True
  | .reconnected _ _ => True
  | _ => False

theorem put_disc (o : Known K) (m : Msg K) (h : ¬ m.isDisc) : (o.put m).tDisc = o.tDisc := by
  rcases m with ⟨hh, j, t, V, w⟩ | ⟨j, t, f, w⟩ | _ | _ | _ | _ | _
  · cases hh <;> rfl
  · cases w <;> rfl
  · exact absurd trivial h
  · exact absurd trivial h
  all_goals rfl

theorem put_reco (o : Known K) (m : Msg K) (h : ¬ m.isReco) : (o.put m).tReco = o.tReco := by
  rcases m with ⟨hh, j, t, V, w⟩ | ⟨j, t, f, w⟩ | _ | _ | _ | _ | _
  · cases hh <;> rfl
  · cases w <;> rfl
  · rfl
  · rfl
  all_goals exact absurd trivial h

theorem Reads.disc_timer {R : Rules K} {o o' : Known K} (l : List (Msg K)) (h : Reads R o l o') (h0 : o.tDisc = 0) (h1 : o'.tDisc ≠ 0) :
    ∃ a b, l = a ++ .discStart o'.tDisc :: b ∧ ∀ m ∈ b, ¬ m.isDisc := by
  induction l using List.reverseRecOn generalizing o' with
  | nil => cases h; exact absurd h0 h1
  | append_singleton l m ih =>
    obtain ⟨p, hp, hl⟩ := Reads.split l [m] h
    have ho : o' = p.put m := by
      cases hl with | cons _ _ _ _ _ h => cases h; rfl
    subst ho
    by_cases ht : m.isDisc
    · rcases m with _ | _ | t | _ | _ | _ | _ <;> try exact absurd ht id
      · exact ⟨l, [], rfl, by simp⟩
      · exact absurd rfl h1
    · have e := put_disc p m ht
      obtain ⟨a, b, hab, hb⟩ := ih hp (e ▸ h1)
      refine ⟨a, b ++ [m], by rw [e]; conv_lhs => rw [hab]
                              simp, ?_⟩
      intro x hx
      rcases List.mem_append.1 hx with hx | hx
      · exact hb x hx
      · rw [List.mem_singleton.1 hx]; exact ht

theorem Reads.reco_timer {R : Rules K} {o o' : Known K} (l : List (Msg K)) (h : Reads R o l o') (h0 : o.tReco = 0) (h1 : o'.tReco ≠ 0) :
    ∃ a b, l = a ++ .recoStart o'.tReco :: b ∧ ∀ m ∈ b, ¬ m.isReco := by
  induction l using List.reverseRecOn generalizing o' with
  | nil => cases h; exact absurd h0 h1
  | append_singleton l m ih =>
    obtain ⟨p, hp, hl⟩ := Reads.split l [m] h
    have ho : o' = p.put m := by
      cases hl with | cons _ _ _ _ _ h => cases h; rfl
    subst ho
    by_cases ht : m.isReco
    · rcases m with _ | _ | _ | _ | _ | t | _ <;> try exact absurd ht id
      · exact absurd rfl h1
      · exact ⟨l, [], rfl, by simp⟩
      · exact absurd rfl h1
    · have e := put_reco p m ht
      obtain ⟨a, b, hab, hb⟩ := ih hp (e ▸ h1)
      refine ⟨a, b ++ [m], by rw [e]; conv_lhs => rw [hab]
                              simp, ?_⟩
      intro x hx
      rcases List.mem_append.1 hx with hx | hx
      · exact hb x hx
      · rw [List.mem_singleton.1 hx]; exact ht

/-- **C119** (disconnections are explained). Every disconnection message was preceded by the message that the disconnection timer was started, exactly the announced time earlier
and at least the delay ago, with no message about that timer in between. -/
theorem C119_disconnection_explained (named : Nat → Bool) (c : Cfg K W) (s : St K W) (hs : IsInit s) (hn : ∀ i < s.lf.length, named i = true) (h : List (Inp K))
    (t e : K) (l1 l2 : List (Msg K)) (hl : logOf named c s h = l1 ++ .disconnected t e :: l2) :
    c.discDelay ≤ e ∧ ∃ a b, l1 = a ++ .discStart (t - e) :: b ∧ ∀ m ∈ b, ¬ m.isDisc := by
  have hr := (run_reads named c s.lf.length hn h s (LogInv.ofInit hs)).1
  rw [hl] at hr
  obtain ⟨p, h1, h2⟩ := Reads.split _ _ hr
  rcases h2 with _ | ⟨_, _, _, _, ⟨m1, m2, m3, m4, _⟩, h3⟩
  refine ⟨m4, ?_⟩
  obtain ⟨a, b, hab, hb⟩ := h1.disc_timer l1 hs.td m2
  refine ⟨a, b, ?_, hb⟩
  rw [hab, m3]; simp

/-- **C119** (reconnections are explained). Every reconnection message was preceded by the message that the reconnection timer was started, exactly the announced time earlier
and longer ago than the delay, with no message about that timer in between. -/
theorem C119_reconnection_explained (named : Nat → Bool) (c : Cfg K W) (s : St K W) (hs : IsInit s) (hn : ∀ i < s.lf.length, named i = true) (h : List (Inp K))
    (t e : K) (l1 l2 : List (Msg K)) (hl : logOf named c s h = l1 ++ .reconnected t e :: l2) :
    c.recoDelay < e ∧ ∃ a b, l1 = a ++ .recoStart (t - e) :: b ∧ ∀ m ∈ b, ¬ m.isReco := by
  have hr := (run_reads named c s.lf.length hn h s (LogInv.ofInit hs)).1
  rw [hl] at hr
  obtain ⟨p, h1, h2⟩ := Reads.split _ _ hr
  rcases h2 with _ | ⟨_, _, _, _, ⟨m1, m2, m3, m4, _⟩, h3⟩
  refine ⟨m4, ?_⟩
  obtain ⟨a, b, hab, hb⟩ := h1.reco_timer l1 hs.tr m2.ne'
  refine ⟨a, b, ?_, hb⟩
  rw [hab, m3]; simp

/-! ## Order of the messages -/

/-- Time printed in a message. -/
def Msg.time : Msg K → K
  | .zone _ _ t _ _ => t
  | .lf _ t _ _ => t
  | .discStart t => t
  | .disconnected t _ => t
  | .recoReset t _ => t
  | .recoStart t => t
  | .reconnected t _ => t

theorem lfMsgs_time (named : Nat → Bool) (t f : K) (P : LfZone K → Bool) (w : LfZone K → LfWhat K) (zs : List (LfZone K)) :
    ∀ n, ∀ m ∈ lfMsgs named t f P w n zs, m.time = t := by
  induction zs with
  | nil => simp [lfMsgs]
  | cons z zs ih =>
    intro n m hm
    simp only [lfMsgs, List.mem_append] at hm
    rcases hm with hm | hm
    · split_ifs at hm
      · rw [List.mem_singleton.1 hm]; rfl
      · simp at hm
    · exact ih _ m hm

theorem reconnectMsgs_time (c : Cfg K W) (t : K) (s : St K W) : ∀ m ∈ reconnectMsgs c t s, m.time = t := by
  intro m hm
  unfold reconnectMsgs at hm
  split_ifs at hm <;> simp at hm <;> subst hm <;> rfl

theorem disconnectMsgs_time (c : Cfg K W) (t : K) (s : St K W) : ∀ m ∈ disconnectMsgs c t s, m.time = t := by
  intro m hm
  unfold disconnectMsgs at hm
  split_ifs at hm <;> simp at hm <;> subst hm <;> rfl

theorem connMsgs_time (c : Cfg K W) (t : K) (s : St K W) : ∀ m ∈ connMsgs c t s, m.time = t ∧ t > s.connLock := by
  intro m hm
  unfold connMsgs at hm
  split_ifs at hm with h1 h2 h3 h4
  · exact ⟨disconnectMsgs_time c t s m hm, h1⟩
  · simp at hm
  · exact ⟨reconnectMsgs_time c t s m hm, h1⟩
  · simp at hm
  · simp at hm

theorem frtMsgs_time (named : Nat → Bool) (c : Cfg K W) (f t : K) (s : St K W) : ∀ m ∈ frtMsgs named c f t s, m.time = t := by
  intro m hm
  unfold frtMsgs at hm
  split_ifs at hm with h1 h2
  · simp only [List.mem_append] at hm
    rcases hm with hm | hm | hm <;> exact lfMsgs_time _ _ _ _ _ _ _ m hm
  · exact reconnectMsgs_time c t s m hm
  · simp at hm

theorem flagMsgs_time (named : Nat → Bool) (c : Cfg K W) (t V f : K) (s : St K W) : ∀ m ∈ flagMsgs named c t V f s, m.time = t ∧ t > s.rtLock := by
  intro m hm
  unfold flagMsgs at hm
  by_cases h1 : t > s.rtLock
  · rw [if_pos h1] at hm
    refine ⟨?_, h1⟩
    simp only [List.mem_append] at hm
    rcases hm with hm | hm | hm
    · split_ifs at hm
      · unfold lvrtMsgs at hm
        split_ifs at hm
        · simp only [List.mem_map] at hm
          obtain ⟨p, _, rfl⟩ := hm
          rfl
        · simp at hm
      · simp at hm
    · split_ifs at hm
      · unfold hvrtMsgs at hm
        split_ifs at hm
        · simp only [List.mem_map] at hm
          obtain ⟨p, _, rfl⟩ := hm
          rfl
        · simp at hm
      · simp at hm
    · by_cases he : s.lfEnable = true
      · rw [if_pos he] at hm
        exact frtMsgs_time _ _ _ _ _ m hm
      · rw [if_neg he] at hm
        simp at hm
  · rw [if_neg h1] at hm
    simp at hm

theorem reconnect_lock (c : Cfg K W) (t : K) (s : St K W) : (reconnectLogic c t s).1.connLock = s.connLock := by
  unfold reconnectLogic
  split_ifs <;> rfl

theorem disconnectLogic_lock (c : Cfg K W) (t : K) (s : St K W) : (disconnectLogic c t s).1.connLock = s.connLock := by
  unfold disconnectLogic
  split_ifs <;> rfl

theorem conn_lock (c : Cfg K W) (t : K) (s : St K W) : (disconnectOrReconnect c t s).1.connLock = if t > s.connLock then t else s.connLock := by
  have key : ∀ r : St K W × Except Err Unit, (connEnd r).1.connLock = r.1.connLock := by
    rintro ⟨r, _ | _⟩
    · rfl
    · simp only [connEnd]; split_ifs <;> rfl
  rw [conn_eq, key]
  unfold connCore
  split_ifs
  · exact disconnectLogic_lock c t { s with connLock := t }
  · rfl
  · exact reconnect_lock c t { s with connLock := t }
  · rfl
  · rfl

theorem flags_lock (c : Cfg K W) (t V f : K) (s : St K W) :
    (updateFlags c t V f s).1.rtLock = (if t > s.rtLock then t else s.rtLock) ∧ (updateFlags c t V f s).1.connLock = s.connLock ∧
    (updateFlags c t V f s).1.lfEnable = s.lfEnable ∧ (s.lfEnable = false → (updateFlags c t V f s).2 = .ok ()) := by
  have hfrt : ∀ s : St K W, (frt c f t s).1.rtLock = s.rtLock ∧ (frt c f t s).1.connLock = s.connLock ∧ (frt c f t s).1.lfEnable = s.lfEnable := by
    intro s
    refine ⟨(frt_logKeeps c f t s).1, ?_⟩
    unfold frt
    split_ifs
    · exact ⟨rfl, rfl⟩
    · exact ⟨reconnect_lock c t s, (reconnect_keepsL c t s).2.2.2.2.2.2.2.2.2⟩
    · exact ⟨rfl, rfl⟩
  have hm : ∀ r q : St K W × Except Err Unit, q = (match r.2 with
      | .error e => (r.1, .error e)
      | .ok _ => ({ r.1 with trip := r.1.lv.trip || r.1.hv.trip, mc := r.1.lv.mc || r.1.hv.mc }, .ok ())) →
      q.1.rtLock = r.1.rtLock ∧ q.1.connLock = r.1.connLock ∧ q.1.lfEnable = r.1.lfEnable ∧ (r.2 = .ok () → q.2 = .ok ()) := by
    rintro ⟨r, _ | _⟩ q rfl
    · exact ⟨rfl, rfl, rfl, fun h => by cases h⟩
    · exact ⟨rfl, rfl, rfl, fun _ => rfl⟩
  unfold updateFlags
  split_ifs with h
  · obtain ⟨h1, h2, h3, h4⟩ := hm _ _ rfl
    refine ⟨h1.trans ?_, h2.trans ?_, h3.trans ?_, fun he => h4 ?_⟩
    · dsimp only
      split_ifs <;> simp only [hfrt]
    · dsimp only
      split_ifs <;> simp only [hfrt]
    · dsimp only
      split_ifs <;> simp only [hfrt]
    · dsimp only
      split_ifs <;> first | rfl | simp_all
  · exact ⟨rfl, rfl, rfl, fun _ => rfl⟩

theorem eval_lock (c : Cfg K W) (s : St K W) (i : Inp K) (hl : s.rtLock = s.connLock) (hok : (updateFlags c i.t i.V i.f { s with refs := i.refs }).2 = .ok ()) :
    (eval c s i).1.rtLock = (eval c s i).1.connLock ∧ (eval c s i).1.rtLock = if i.t > s.rtLock then i.t else s.rtLock := by
  obtain ⟨h1, h2, _, _⟩ := flags_lock c i.t i.V i.f { s with refs := i.refs }
  unfold eval
  dsimp only
  rcases hq : updateFlags c i.t i.V i.f { s with refs := i.refs } with ⟨a, q⟩
  rw [hq] at h1 h2 hok
  dsimp only at h1 h2 hok
  subst hok
  dsimp only
  rw [conn_lock, (conn_keeps c i.t a).2.2.2.2.1, h1, h2]
  simp only
  rw [hl]
  exact ⟨rfl, trivial⟩

/-- The flag update of every evaluation succeeds. -/
def FlagsOkAll (c : Cfg K W) : St K W → List (Inp K) → Prop
  | _, [] => True
  | s, i :: h => (updateFlags c i.t i.V i.f { s with refs := i.refs }).2 = .ok () ∧ FlagsOkAll c (eval c s i).1 h

theorem times_aux (named : Nat → Bool) (c : Cfg K W) (h : List (Inp K)) : ∀ s : St K W, s.rtLock = s.connLock → FlagsOkAll c s h →
    (∀ m ∈ logOf named c s h, s.rtLock < m.time) ∧ (logOf named c s h).Pairwise fun a b => a.time ≤ b.time := by
  induction h with
  | nil => intro s _ _; exact ⟨by simp [logOf], by simp [logOf]⟩
  | cons i h ih =>
    intro s hl ⟨hok, hrest⟩
    obtain ⟨l1, l2⟩ := eval_lock c s i hl hok
    obtain ⟨a1, a2⟩ := ih _ l1 hrest
    have hm : ∀ m ∈ evalMsgs named c s i, m.time = i.t ∧ i.t > s.rtLock := by
      intro m hm
      unfold evalMsgs at hm
      rcases List.mem_append.1 hm with hm | hm
      · exact flagMsgs_time named c _ _ _ { s with refs := i.refs } m hm
      · obtain ⟨_, h2, _, _⟩ := flags_lock c i.t i.V i.f { s with refs := i.refs }
        rcases hq : updateFlags c i.t i.V i.f { s with refs := i.refs } with ⟨a, q⟩
        rw [hq] at hm h2
        cases q with
        | error e => simp at hm
        | ok u =>
          have := connMsgs_time c i.t a m hm
          dsimp only at h2
          rw [h2, ← hl] at this
          exact this
    constructor
    · intro m hmem
      rcases List.mem_append.1 hmem with h' | h'
      · rw [(hm m h').1]; exact (hm m h').2
      · refine lt_of_le_of_lt ?_ (a1 m h')
        rw [l2]; split_ifs with hh
        · exact le_of_lt hh
        · exact le_rfl
    · simp only [logOf]
      rw [List.pairwise_append]
      refine ⟨?_, a2, ?_⟩
      · refine List.pairwise_of_forall_mem_list fun a ha b hb => ?_
        rw [(hm a ha).1, (hm b hb).1]
      · intro a ha b hb
        have hb' := a1 b hb
        rw [l2, if_pos (hm a ha).2] at hb'
        rw [(hm a ha).1]
        exact hb'.le

theorem flagsOkAll_of_disabled (c : Cfg K W) (h : List (Inp K)) : ∀ s : St K W, s.lfEnable = false → FlagsOkAll c s h := by
  induction h with
  | nil => intro s _; trivial
  | cons i h ih =>
    intro s hl
    obtain ⟨_, _, h3, h4⟩ := flags_lock c i.t i.V i.f { s with refs := i.refs }
    refine ⟨h4 hl, ih _ ?_⟩
    unfold eval
    dsimp only
    rcases hq : updateFlags c i.t i.V i.f { s with refs := i.refs } with ⟨a, q⟩
    rw [hq] at h3
    cases q with
    | error e => exact h3.trans hl
    | ok u => dsimp only; rw [(conn_keeps c i.t a).2.2.2.2.2.2.2.2.2]; exact h3.trans hl

theorem flagsOkAll_of_ok (c : Cfg K W) (h : List (Inp K)) : ∀ s : St K W, (∀ a i b, h = a ++ i :: b → (eval c (run c s a) i).2 = .ok ()) → FlagsOkAll c s h := by
  induction h with
  | nil => intro s _; trivial
  | cons i h ih =>
    intro s hl
    refine ⟨?_, ih _ fun a j b e => ?_⟩
    · have := hl [] i h rfl
      simp only [run, List.foldl_nil] at this
      unfold eval at this
      dsimp only at this
      rcases hq : updateFlags c i.t i.V i.f { s with refs := i.refs } with ⟨a, q⟩
      rw [hq] at this
      cases q with
      | error e => cases this
      | ok u => rfl
    · exact hl (i :: a) j b (by rw [e]; rfl)

/-- **C119** (order). The messages appear in the log in the order of the times they print, even though the solver evaluates out of order: no message is ever written for a
time before that of an earlier message.  This holds without the frequency ride-through (the default), or when no evaluation fails. -/
theorem C119_chronological (named : Nat → Bool) (c : Cfg K W) (s : St K W) (hs : IsInit s) (h : List (Inp K))
    (hok : s.lfEnable = false ∨ ∀ a i b, h = a ++ i :: b → (eval c (run c s a) i).2 = .ok ()) :
    (logOf named c s h).Pairwise (fun a b => a.time ≤ b.time) ∧ ∀ m ∈ logOf named c s h, 0 < m.time := by
  have := times_aux named c h s (by rw [hs.rl, hs.cl]) (hok.elim (flagsOkAll_of_disabled c h s) (flagsOkAll_of_ok c h s))
  rw [hs.rl] at this
  exact ⟨this.2, this.1⟩

/-! ## Concrete log, and the silent frequency zone -/

/-- Settings of the example: reference voltage 100, disconnection after 1, reconnection after 2. -/
def logCfg : Cfg ℚ Unit := ⟨0, 100, 1, 2, false, 0, fun _ w => (w, .ok ())⟩

/-- One low-voltage zone below 0.5 with limit 3, one frequency zone below 57 with limit 2. -/
def logSt (lfEnable : Bool) : St ℚ Unit :=
  { lvEnable := true
    hvEnable := false
    lfEnable := lfEnable
    lv := ⟨[⟨1/2, 3, 0, .mandatory, 0, false⟩], false, false⟩
    hv := ⟨[], false, false⟩
    lf := [⟨57, 2, 0⟩]
    lfTrip := false
    rtLock := 0
    connLock := 0
    tDisc := 0
    tReco := 0
    trip := false
    mc := false
    connected := true
    voltVar := false
    voltWatt := false
    refs := ⟨0, 0, 0, 0, (0, 0), (0, 0), (0, 0)⟩
    w := () }

theorem logSt_init (b : Bool) : IsInit (logSt b) := by
  constructor <;> simp [logSt, Zone.fresh]

/-- Evaluation at a time with a voltage and frequency. -/
def logInp (t V f : ℚ) : Inp ℚ := ⟨t, V, f, ⟨0, 0, 0, 0, (0, 0), (0, 0), (0, 0)⟩⟩

/-- **C119** (example). A dip, recovery, a second dip that trips, an evaluation at an earlier time, disconnection. -/
theorem C119_log_example :
    logOf (fun _ => true) logCfg (logSt false) [logInp 1 40 60, logInp 2 60 60, logInp 3 40 60, logInp 7 40 60, logInp 5 60 60, logInp 8 60 60] =
      [.zone false 0 1 40 .entered, .zone false 0 2 60 (.reset 1), .zone false 0 3 40 .entered, .zone false 0 7 40 (.trip 4), .discStart 7, .disconnected 8 1] := by
  decide +kernel

/-- **C119** (not all zones speak). A frequency zone under a key other than 1, 2 or 3 starts its timer and trips without any message: nothing is logged, yet
the low-frequency trip flag is set. -/
theorem C119_silent_frequency_zone :
    logOf (fun _ => false) logCfg (logSt true) [logInp 1 100 56, logInp 4 100 56] = [] ∧ (run logCfg (logSt true) [logInp 1 100 56, logInp 4 100 56]).lfTrip = true ∧
    logOf (fun _ => true) logCfg (logSt true) [logInp 1 100 56, logInp 4 100 56] = [.lf 0 1 56 .start, .lf 0 4 56 (.trip 3)] := by
  decide +kernel

end RT
end PvDer
