import Verif.Spec.RTLog
import Mathlib.Tactic.Linarith

/-!
# Lemmas about the event log
-/

namespace PvDer
namespace RT

variable {K : Type} [Field K] [LinearOrder K] {W : Type}

/-- What the messages are about, of a state. -/
def St.known (s : St K W) : Known K := ⟨s.lv, s.hv, s.lf, s.lfTrip, s.tDisc, s.tReco, s.connected⟩

theorem Reads.append {R : Rules K} {a b d : Known K} {l l' : List (Msg K)} (h : Reads R a l b) (h' : Reads R b l' d) : Reads R a (l ++ l') d := by
  induction h with
  | nil o => exact h'
  | cons o o' m l hm _ ih => exact .cons _ _ _ _ hm (ih h')

theorem Reads.single {R : Rules K} {a : Known K} {m : Msg K} (h : a.May R m) : Reads R a [m] (a.put m) := .cons _ _ _ _ h (.nil _)

theorem Reads.single' {R : Rules K} {a b : Known K} {m : Msg K} (h : a.May R m) (e : a.put m = b) : Reads R a [m] b := e ▸ .single h

/-- The result of a pass is the effect of its message. -/
def Faithful (high : Bool) (Vref V t : K) (body : Zone K → Bool → Bool → Zone K × Bool × Bool) (msg : Zone K → Bool → Option (What K)) : Prop :=
  ∀ z trip mc, match msg z mc with
    | none => body z trip mc = (z, trip, mc)
    | some w => w.May high Vref V t mc z ∧ ∀ pre post : List (Zone K),
        w.put t pre.length ⟨pre ++ z :: post, trip, mc⟩ = ⟨pre ++ (body z trip mc).1 :: post, (body z trip mc).2.1, (body z trip mc).2.2⟩

theorem modify_mid {α : Type} (pre post : List α) (z : α) (f : α → α) : (pre ++ z :: post).modify pre.length f = pre ++ f z :: post := by
  induction pre with
  | nil => rfl
  | cons a pre ih => simp [ih]

theorem lv_faithful (Vref V t : K) : Faithful false Vref V t (lvZone Vref V t) (lvMsg Vref V t) := by
  intro z trip mc
  unfold lvMsg lvZone
  split_ifs with h1 h2 h3 h4 h5 h6 h7 h8
  · simp_all [What.May, What.put, Beyond, modify_mid]
  · simp_all [What.May, What.put, Beyond, modify_mid]
  · rfl
  · rfl
  · simp_all [What.May, What.put, Beyond, modify_mid]
  · rfl
  · simp_all [What.May, What.put, Beyond, modify_mid]
  · rfl
  · rfl

theorem hv_faithful (Vref V t : K) : Faithful true Vref V t (hvZone Vref V t) (hvMsg Vref V t) := by
  intro z trip mc
  unfold hvMsg hvZone
  split_ifs with h1 h2 h3 h4 h5 h6 h7 h8
  · simp_all [What.May, What.put, Beyond, modify_mid]
  · simp_all [What.May, What.put, Beyond, modify_mid]
  · rfl
  · rfl
  · simp_all [What.May, What.put, Beyond, modify_mid]
  · rfl
  · simp_all [What.May, What.put, Beyond, modify_mid]
  · rfl
  · rfl

theorem side_setSide (o : Known K) (high : Bool) (v : VRT K) : (o.setSide high v).side high = v := by
  cases high <;> rfl

theorem setSide_setSide (o : Known K) (high : Bool) (v v' : VRT K) : (o.setSide high v).setSide high v' = o.setSide high v' := by
  cases high <;> rfl

theorem setSide_side (o : Known K) (high : Bool) : o.setSide high (o.side high) = o := by
  cases high <;> rfl

theorem loop_reads {R : Rules K} {high : Bool} {V t : K} {body : Zone K → Bool → Bool → Zone K × Bool × Bool} {msg : Zone K → Bool → Option (What K)}
    (hf : Faithful high R.Vref V t body msg) (zs : List (Zone K)) :
    ∀ (pre : List (Zone K)) (trip mc : Bool) (o : Known K), o.side high = ⟨pre ++ zs, trip, mc⟩ →
      Reads R o ((loopMsgs body msg pre.length zs trip mc).map fun p => .zone high p.1 t V p.2)
        (o.setSide high ⟨pre ++ (loopZones body zs trip mc).1, (loopZones body zs trip mc).2.1, (loopZones body zs trip mc).2.2⟩) := by
  induction zs with
  | nil =>
    intro pre trip mc o ho
    simp only [loopMsgs, loopZones, List.map_nil]
    rw [← ho, setSide_side]
    exact .nil _
  | cons z zs ih =>
    intro pre trip mc o ho
    have hz := hf z trip mc
    simp only [loopMsgs, loopZones]
    rcases hm : msg z mc with _ | w
    · rw [hm] at hz
      simp only [hz, List.nil_append]
      have := ih (pre ++ [z]) trip mc o (by simpa using ho)
      simpa using this
    · rw [hm] at hz
      simp only at hz
      obtain ⟨hmay, hput⟩ := hz
      simp only [List.cons_append, List.nil_append, List.map_cons]
      refine .cons _ _ _ _ ⟨z, ?_, ?_⟩ ?_
      · rw [ho]; simp
      · rw [ho]; exact hmay
      · simp only [Known.put]
        rw [ho, hput]
        have := ih (pre ++ [(body z trip mc).1]) (body z trip mc).2.1 (body z trip mc).2.2 (o.setSide high ⟨pre ++ (body z trip mc).1 :: zs, (body z trip mc).2.1, (body z trip mc).2.2⟩)
          (by rw [side_setSide]; simp)
        rw [setSide_setSide] at this
        simpa using this

theorem lvrt_reads (R : Rules K) (tStable V t : K) (o : Known K) :
    Reads R o (lvrtMsgs tStable R.Vref V t o.lv) { o with lv := lvrt tStable R.Vref V t o.lv } := by
  unfold lvrtMsgs lvrt
  split_ifs
  · have := loop_reads (R := R) (lv_faithful R.Vref V t) o.lv.zones [] o.lv.trip o.lv.mc o rfl
    simpa [Known.setSide] using this
  · exact .nil _

theorem hvrt_reads (R : Rules K) (tStable V t : K) (o : Known K) :
    Reads R o (hvrtMsgs tStable R.Vref V t o.hv) { o with hv := hvrt tStable R.Vref V t o.hv } := by
  unfold hvrtMsgs hvrt
  split_ifs
  · have := loop_reads (R := R) (hv_faithful R.Vref V t) o.hv.zones [] o.hv.trip o.hv.mc o rfl
    simpa [Known.setSide] using this
  · exact .nil _

/-- All zones of a frequency table have a name the printing function knows. -/
def Named (named : Nat → Bool) (n : Nat) : Prop := ∀ i < n, named i = true

theorem lfStart_reads {R : Rules K} {named : Nat → Bool} (t f : K) (zs : List (LfZone K)) :
    ∀ (pre : List (LfZone K)) (o : Known K), o.lf = pre ++ zs → o.lfTrip = false → Named named o.lf.length →
      Reads R o (lfMsgs named t f (fun z => decide (z.tStart = 0 ∧ f < z.F)) (fun _ => .start) pre.length zs) { o with lf := pre ++ zs.map (lfStart f t) } := by
  induction zs with
  | nil => intro pre o ho ht hn; simp only [lfMsgs, List.map_nil]; rw [← ho]; exact .nil _
  | cons z zs ih =>
    intro pre o ho ht hn
    simp only [lfMsgs, List.map_cons]
    have hnm : named pre.length = true := hn _ (by rw [ho]; simp)
    by_cases hc : z.tStart = 0 ∧ f < z.F
    · simp only [hc, hnm, and_self, decide_true, Bool.and_self, if_true, List.cons_append, List.nil_append]
      refine .cons _ _ _ _ ⟨ht, z, by rw [ho]; simp, hc.1, hc.2⟩ ?_
      simp only [Known.put]
      rw [ho, modify_mid]
      have := ih (pre ++ [lfStart f t z]) { o with lf := pre ++ lfStart f t z :: zs } (by simp) ht (by rw [ho] at hn; simpa using hn)
      simpa [lfStart, hc] using this
    · have hz : lfStart f t z = z := by rw [lfStart, if_neg hc]
      simp only [hc, decide_false, Bool.false_and, Bool.false_eq_true, if_false, List.nil_append, hz]
      have := ih (pre ++ [z]) o (by simpa using ho) ht hn
      simpa using this

theorem lfReset_reads {R : Rules K} {named : Nat → Bool} (t f : K) (zs : List (LfZone K)) :
    ∀ (pre : List (LfZone K)) (o : Known K), o.lf = pre ++ zs → o.lfTrip = false → Named named o.lf.length →
      Reads R o (lfMsgs named t f (fun z => decide (f > z.F + R.delF ∧ z.tStart > 0)) (fun z => .reset (t - z.tStart)) pre.length zs)
        { o with lf := pre ++ zs.map (lfReset R.delF f) } := by
  induction zs with
  | nil => intro pre o ho ht hn; simp only [lfMsgs, List.map_nil]; rw [← ho]; exact .nil _
  | cons z zs ih =>
    intro pre o ho ht hn
    simp only [lfMsgs, List.map_cons]
    have hnm : named pre.length = true := hn _ (by rw [ho]; simp)
    by_cases hc : f > z.F + R.delF ∧ z.tStart > 0
    · simp only [hc, hnm, and_self, decide_true, Bool.and_self, if_true, List.cons_append, List.nil_append]
      refine .cons _ _ _ _ ⟨ht, z, by rw [ho]; simp, hc.2, rfl, hc.1⟩ ?_
      simp only [Known.put]
      rw [ho, modify_mid]
      have := ih (pre ++ [lfReset R.delF f z]) { o with lf := pre ++ lfReset R.delF f z :: zs } (by simp) ht (by rw [ho] at hn; simpa using hn)
      simpa [lfReset, hc] using this
    · have hz : lfReset R.delF f z = z := by rw [lfReset, if_neg hc]
      simp only [hc, decide_false, Bool.false_and, Bool.false_eq_true, if_false, List.nil_append, hz]
      have := ih (pre ++ [z]) o (by simpa using ho) ht hn
      simpa using this

theorem lfTrip_reads {R : Rules K} {named : Nat → Bool} (t f : K) (zs : List (LfZone K)) :
    ∀ (pre : List (LfZone K)) (o : Known K), o.lf = pre ++ zs → Named named o.lf.length →
      Reads R o (lfMsgs named t f (lfTrips f t) (fun z => .trip (t - z.tStart)) pre.length zs)
        { o with lf := pre ++ zs.map (lfClear f t), lfTrip := o.lfTrip || zs.any (lfTrips f t) } := by
  induction zs with
  | nil => intro pre o ho hn; simp only [lfMsgs, List.map_nil, List.any_nil, Bool.or_false]; rw [← ho]; exact .nil _
  | cons z zs ih =>
    intro pre o ho hn
    simp only [lfMsgs, List.map_cons]
    have hnm : named pre.length = true := hn _ (by rw [ho]; simp)
    by_cases hc : lfTrips f t z = true
    · simp only [hc, hnm, Bool.and_self, if_true, List.cons_append, List.nil_append]
      have hc' := hc
      simp only [lfTrips, decide_eq_true_eq] at hc'
      refine .cons _ _ _ _ ⟨z, by rw [ho]; simp, hc'.2.2, rfl, hc'.2.1, hc'.1⟩ ?_
      simp only [Known.put]
      rw [ho, modify_mid]
      have := ih (pre ++ [lfClear f t z]) { o with lf := pre ++ lfClear f t z :: zs, lfTrip := true } (by simp) (by rw [ho] at hn; simpa using hn)
      simpa [lfClear, hc] using this
    · have hz : lfClear f t z = z := by rw [lfClear, if_neg hc]
      simp only [Bool.not_eq_true] at hc
      simp only [hc, Bool.false_and, Bool.false_eq_true, if_false, List.nil_append, hz, List.any_cons, Bool.false_or]
      have := ih (pre ++ [z]) o (by simpa using ho) hn
      simpa using this

/-- Settings a reader needs, of a configuration. -/
def Cfg.rules (c : Cfg K W) : Rules K := ⟨c.Vref, c.discDelay, c.recoDelay, c.delF⟩

/-- The flags used by the connection logic are those of the tables. -/
def FlagsOk (s : St K W) : Prop := s.lfTrip = true ∨ (s.trip = (s.lv.trip || s.hv.trip) ∧ s.mc = (s.lv.mc || s.hv.mc))

theorem reconnect_reads (c : Cfg K W) (t : K) (s : St K W) (hfl : FlagsOk s) (ht : s.lfTrip = true ∨ s.trip = false) :
    Reads c.rules s.known (reconnectMsgs c t s) (reconnectLogic c t s).1.known := by
  unfold reconnectMsgs reconnectLogic
  split_ifs with h1 h2 h3 h4 h5 h6 h7 h8
  · exact .nil _
  · refine .single' ⟨by simpa [St.known] using h1, h3, rfl, ?_⟩ rfl
    rcases hfl with h | ⟨_, h⟩
    · exact .inl h
    · rw [h2] at h; exact .inr (by simpa [St.known] using h.symm)
  · exact .nil _
  · refine .single' ⟨by simpa [St.known] using h1, h5, rfl, h6, ?_⟩ rfl
    rcases hfl with h | ⟨ha, hb⟩
    · exact .inl h
    · rcases ht with h | h
      · exact .inl h
      · rw [h] at ha
        simp only [Bool.not_eq_true] at h2
        rw [h2] at hb
        simp at ha hb
        refine .inr ?_
        simp [Known.anomaly, St.known, ha, hb]
  · refine .single' ⟨by simpa [St.known] using h1, h5, rfl, h6, ?_⟩ rfl
    rcases hfl with h | ⟨ha, hb⟩
    · exact .inl h
    · rcases ht with h | h
      · exact .inl h
      · rw [h] at ha
        simp only [Bool.not_eq_true] at h2
        rw [h2] at hb
        simp at ha hb
        refine .inr ?_
        simp [Known.anomaly, St.known, ha, hb]
  · exact .nil _
  · refine .single' ⟨by simpa [St.known] using h1, h8, h4, ?_⟩ rfl
    rcases hfl with h | ⟨ha, hb⟩
    · exact .inl h
    · rcases ht with h | h
      · exact .inl h
      · rw [h] at ha
        simp only [Bool.not_eq_true] at h2
        rw [h2] at hb
        simp at ha hb
        refine .inr ?_
        simp [Known.anomaly, St.known, ha, hb]
  · exact .nil _
  · exact .nil _

theorem disconnectLogic_reads (c : Cfg K W) (t : K) (s : St K W) (hfl : FlagsOk s) (ht : (s.trip || s.mc) = true) :
    Reads c.rules s.known (disconnectMsgs c t s) (disconnectLogic c t s).1.known := by
  have ha : s.lfTrip = true ∨ s.known.anomaly := by
    rcases hfl with h | ⟨ha, hb⟩
    · exact .inl h
    · refine .inr ?_
      rw [ha, hb] at ht
      simp only [Bool.or_eq_true] at ht
      simp only [Known.anomaly, St.known]
      tauto
  unfold disconnectMsgs disconnectLogic
  split_ifs with h1 h2 h3 h4
  · exact .nil _
  · exact .single' ⟨by simpa [St.known] using h1, h2, ha⟩ rfl
  · exact .nil _
  · exact .single' ⟨by simpa [St.known] using h1, h2, rfl, h4, ha⟩ rfl
  · exact .nil _

/-- The first part of the connection logic. -/
def connCore (c : Cfg K W) (t : K) (s : St K W) : St K W × Except Err Unit :=
  if t > s.connLock then
    if s.connected then
      if s.trip || s.mc then disconnectLogic c t { s with connLock := t } else ({ s with connLock := t }, .ok ())
    else
      if s.trip = false then reconnectLogic c t { s with connLock := t } else ({ s with connLock := t }, .ok ())
  else (s, .ok ())

/-- The second part: zero the references. -/
def connEnd (r : St K W × Except Err Unit) : St K W × Except Err Unit :=
  match r.2 with
  | .error e => (r.1, .error e)
  | .ok _ => if r.1.connected = false then (disconnect r.1, .ok ()) else (r.1, .ok ())

theorem conn_eq (c : Cfg K W) (t : K) (s : St K W) : disconnectOrReconnect c t s = connEnd (connCore c t s) := rfl

theorem connEnd_known (r : St K W × Except Err Unit) : (connEnd r).1.known = r.1.known := by
  obtain ⟨r, _ | _⟩ := r
  · rfl
  · simp only [connEnd]; split_ifs <;> rfl

theorem conn_reads (c : Cfg K W) (t : K) (s : St K W) (hfl : FlagsOk s) :
    Reads c.rules s.known (connMsgs c t s) (disconnectOrReconnect c t s).1.known := by
  rw [conn_eq, connEnd_known]
  unfold connMsgs connCore
  split_ifs with h1 h2 h3 h4
  · exact disconnectLogic_reads c t { s with connLock := t } hfl h3
  · exact .nil _
  · exact reconnect_reads c t { s with connLock := t } hfl (.inr h4)
  · exact .nil _
  · exact .nil _

/-- While the start-up time has not passed, the frequency timers are stopped. -/
def LfIdle (c : Cfg K W) (s : St K W) : Prop := s.rtLock ≤ c.tStable → s.lfTrip = false ∧ ∀ z ∈ s.lf, z.tStart = 0

theorem frt_reads (named : Nat → Bool) (c : Cfg K W) (f t : K) (s : St K W) (hn : Named named s.lf.length) (hfl : FlagsOk s ∨ s.lfTrip = false)
    (hi : t ≤ c.tStable → s.lfTrip = false ∧ ∀ z ∈ s.lf, z.tStart = 0) :
    Reads c.rules s.known (frtMsgs named c f t s) (frt c f t s).1.known := by
  unfold frtMsgs frt
  split_ifs with h1 h2
  · dsimp only
    have a1 := lfStart_reads (R := c.rules) (named := named) t f s.lf [] s.known rfl h2 hn
    have a2 := lfReset_reads (R := c.rules) (named := named) t f (s.lf.map (lfStart f t)) [] { s.known with lf := s.lf.map (lfStart f t) } rfl h2
      (by simpa using hn)
    have a3 := lfTrip_reads (R := c.rules) (named := named) t f ((s.lf.map (lfStart f t)).map (lfReset c.delF f)) []
      { s.known with lf := (s.lf.map (lfStart f t)).map (lfReset c.delF f) } rfl (by simpa using hn)
    have hk : s.known.lfTrip = false := h2
    simp only [hk, Bool.false_or, List.nil_append] at a1 a2 a3
    exact a1.append (a2.append a3)
  · have ht : s.lfTrip = true := by simpa using h2
    exact reconnect_reads c t s (.inl ht) (.inl ht)
  · obtain ⟨ha, hb⟩ := hi (not_lt.1 h1)
    have : s.lf.map (fun z => { z with tStart := 0 }) = s.lf := by
      conv_rhs => rw [← List.map_id s.lf]
      refine List.map_congr_left fun z hz => ?_
      have := hb z hz
      cases z; simp_all
    simp only [St.known, this, ha]
    exact .nil _

theorem reconnect_keepsL (c : Cfg K W) (t : K) (s : St K W) :
    (reconnectLogic c t s).1.lv = s.lv ∧ (reconnectLogic c t s).1.hv = s.hv ∧ (reconnectLogic c t s).1.lf = s.lf ∧ (reconnectLogic c t s).1.lfTrip = s.lfTrip ∧
    (reconnectLogic c t s).1.rtLock = s.rtLock ∧ (reconnectLogic c t s).1.trip = s.trip ∧ (reconnectLogic c t s).1.mc = s.mc ∧
    (reconnectLogic c t s).1.lvEnable = s.lvEnable ∧ (reconnectLogic c t s).1.hvEnable = s.hvEnable ∧ (reconnectLogic c t s).1.lfEnable = s.lfEnable := by
  unfold reconnectLogic
  split_ifs <;> simp

theorem disconnectLogic_keepsL (c : Cfg K W) (t : K) (s : St K W) :
    (disconnectLogic c t s).1.lv = s.lv ∧ (disconnectLogic c t s).1.hv = s.hv ∧ (disconnectLogic c t s).1.lf = s.lf ∧ (disconnectLogic c t s).1.lfTrip = s.lfTrip ∧
    (disconnectLogic c t s).1.rtLock = s.rtLock ∧ (disconnectLogic c t s).1.trip = s.trip ∧ (disconnectLogic c t s).1.mc = s.mc ∧
    (disconnectLogic c t s).1.lvEnable = s.lvEnable ∧ (disconnectLogic c t s).1.hvEnable = s.hvEnable ∧ (disconnectLogic c t s).1.lfEnable = s.lfEnable := by
  unfold disconnectLogic
  split_ifs <;> simp

theorem conn_keeps (c : Cfg K W) (t : K) (s : St K W) :
    (disconnectOrReconnect c t s).1.lv = s.lv ∧ (disconnectOrReconnect c t s).1.hv = s.hv ∧ (disconnectOrReconnect c t s).1.lf = s.lf ∧
    (disconnectOrReconnect c t s).1.lfTrip = s.lfTrip ∧ (disconnectOrReconnect c t s).1.rtLock = s.rtLock ∧
    (disconnectOrReconnect c t s).1.trip = s.trip ∧ (disconnectOrReconnect c t s).1.mc = s.mc ∧
    (disconnectOrReconnect c t s).1.lvEnable = s.lvEnable ∧ (disconnectOrReconnect c t s).1.hvEnable = s.hvEnable ∧ (disconnectOrReconnect c t s).1.lfEnable = s.lfEnable := by
  have key : ∀ r : St K W × Except Err Unit, (connEnd r).1.lv = r.1.lv ∧ (connEnd r).1.hv = r.1.hv ∧ (connEnd r).1.lf = r.1.lf ∧
      (connEnd r).1.lfTrip = r.1.lfTrip ∧ (connEnd r).1.rtLock = r.1.rtLock ∧ (connEnd r).1.trip = r.1.trip ∧ (connEnd r).1.mc = r.1.mc ∧
      (connEnd r).1.lvEnable = r.1.lvEnable ∧ (connEnd r).1.hvEnable = r.1.hvEnable ∧ (connEnd r).1.lfEnable = r.1.lfEnable := by
    rintro ⟨r, _ | _⟩
    · simp [connEnd]
    · simp only [connEnd]; split_ifs <;> simp [disconnect]
  rw [conn_eq]
  simp only [key]
  unfold connCore
  split_ifs with h1 h2 h3 h4
  · exact disconnectLogic_keepsL c t { s with connLock := t }
  · simp
  · exact reconnect_keepsL c t { s with connLock := t }
  · simp
  · simp

/-- Invariant of the state between evaluations. -/
structure LogInv (c : Cfg K W) (n : Nat) (s : St K W) : Prop where
  idle : LfIdle c s
  flags : FlagsOk s
  len : s.lf.length = n

theorem frt_len (c : Cfg K W) (f t : K) (s : St K W) : (frt c f t s).1.lf.length = s.lf.length := by
  unfold frt
  split_ifs
  · simp
  · rw [(reconnect_keepsL c t s).2.2.1]
  · simp

theorem frt_logKeeps (c : Cfg K W) (f t : K) (s : St K W) : (frt c f t s).1.rtLock = s.rtLock ∧ ((frt c f t s).2 ≠ .ok () → (frt c f t s).1.lfTrip = true) ∧
    (t ≤ c.tStable → (frt c f t s).1.lfTrip = false ∧ ∀ z ∈ (frt c f t s).1.lf, z.tStart = 0) := by
  unfold frt
  split_ifs with h1 h2
  · exact ⟨rfl, fun h => absurd rfl h, fun h => absurd h (not_le.2 h1)⟩
  · have := reconnect_keepsL c t s
    exact ⟨this.2.2.2.2.1, fun _ => by rw [this.2.2.2.1]; simpa using h2, fun h => absurd h (not_le.2 h1)⟩
  · refine ⟨rfl, fun h => absurd rfl h, fun _ => ⟨rfl, ?_⟩⟩
    simp

theorem updateFlags_reads (named : Nat → Bool) (c : Cfg K W) (t V f : K) (s : St K W) (n : Nat) (hn : Named named n) (hi : LogInv c n s) :
    Reads c.rules s.known (flagMsgs named c t V f s) (updateFlags c t V f s).1.known ∧ LogInv c n (updateFlags c t V f s).1 := by
  by_cases h : t > s.rtLock
  swap
  · unfold flagMsgs updateFlags
    rw [if_neg h, if_neg h]
    exact ⟨.nil _, hi⟩
  obtain ⟨s2, hs2⟩ : ∃ s2, s2 = (if s.lvEnable then { s with rtLock := t, lv := lvrt c.tStable c.Vref V t s.lv } else { s with rtLock := t }) := ⟨_, rfl⟩
  obtain ⟨s3, hs3⟩ : ∃ s3, s3 = (if s2.hvEnable then { s2 with hv := hvrt c.tStable c.Vref V t s2.hv } else s2) := ⟨_, rfl⟩
  have e2 : s2.hvEnable = s.hvEnable ∧ s2.lfEnable = s.lfEnable ∧ s2.lf = s.lf ∧ s2.lfTrip = s.lfTrip ∧ s2.rtLock = t ∧ s2.hv = s.hv := by
    rw [hs2]; split_ifs <;> simp
  have e3 : s3.lfEnable = s.lfEnable ∧ s3.lf = s.lf ∧ s3.lfTrip = s.lfTrip ∧ s3.rtLock = t := by
    rw [hs3]; split_ifs <;> simp [e2]
  have hidle : t ≤ c.tStable → s3.lfTrip = false ∧ ∀ z ∈ s3.lf, z.tStart = 0 := by
    intro ht
    rw [e3.2.1, e3.2.2.1]
    exact hi.idle (h.le.trans ht)
  have r2 : Reads c.rules s.known (if s.lvEnable then lvrtMsgs c.tStable c.Vref V t s.lv else []) s2.known := by
    rw [hs2]
    split_ifs
    · exact lvrt_reads c.rules c.tStable V t s.known
    · exact .nil _
  have r3 : Reads c.rules s2.known (if s.hvEnable then hvrtMsgs c.tStable c.Vref V t s.hv else []) s3.known := by
    rw [hs3, e2.1]
    split_ifs
    · rw [← e2.2.2.2.2.2]; exact hvrt_reads c.rules c.tStable V t s2.known
    · exact .nil _
  have hf : s3.lfTrip = true ∨ s3.lfTrip = false := by cases s3.lfTrip <;> simp
  have r4 : Reads c.rules s3.known (if s.lfEnable then frtMsgs named c f t s3 else []) (if s3.lfEnable then frt c f t s3 else (s3, .ok ())).1.known := by
    rw [e3.1]
    split_ifs
    · refine frt_reads named c f t s3 (by rw [e3.2.1, hi.len]; exact hn) ?_ hidle
      rcases hf with h | h
      · exact .inl (.inl h)
      · exact .inr h
    · exact .nil _
  have em : flagMsgs named c t V f s = (if s.lvEnable then lvrtMsgs c.tStable c.Vref V t s.lv else []) ++
      ((if s.hvEnable then hvrtMsgs c.tStable c.Vref V t s.hv else []) ++ (if s.lfEnable then frtMsgs named c f t s3 else [])) := by
    unfold flagMsgs
    rw [if_pos h, hs3, hs2]
  obtain ⟨r, hr⟩ : ∃ r : St K W × Except Err Unit, r = (if s3.lfEnable then frt c f t s3 else (s3, .ok ())) := ⟨_, rfl⟩
  have eu : updateFlags c t V f s = (match r.2 with
      | .error e => (r.1, .error e)
      | .ok _ => ({ r.1 with trip := r.1.lv.trip || r.1.hv.trip, mc := r.1.lv.mc || r.1.hv.mc }, .ok ())) := by
    unfold updateFlags
    rw [if_pos h, hr, hs3, hs2]
    rfl
  rw [← hr] at r4
  have er : r.1.rtLock = t ∧ (r.2 ≠ .ok () → r.1.lfTrip = true) ∧ (t ≤ c.tStable → r.1.lfTrip = false ∧ ∀ z ∈ r.1.lf, z.tStart = 0) ∧ r.1.lf.length = n := by
    rw [hr]
    split_ifs
    · have := frt_logKeeps c f t s3
      exact ⟨this.1.trans e3.2.2.2, this.2.1, this.2.2, by rw [frt_len, e3.2.1, hi.len]⟩
    · exact ⟨e3.2.2.2, fun h => absurd rfl h, hidle, by rw [e3.2.1, hi.len]⟩
  rw [em, eu]
  have rr := r2.append (r3.append r4)
  obtain ⟨r1, q⟩ := r
  cases q with
  | error e =>
    refine ⟨rr, fun ht => er.2.2.1 (er.1 ▸ ht), .inl (er.2.1 (by simp)), er.2.2.2⟩
  | ok u =>
    exact ⟨rr, fun ht => er.2.2.1 (er.1 ▸ ht), .inr ⟨rfl, rfl⟩, er.2.2.2⟩

theorem eval_reads (named : Nat → Bool) (c : Cfg K W) (s : St K W) (i : Inp K) (n : Nat) (hn : Named named n) (hi : LogInv c n s) :
    Reads c.rules s.known (evalMsgs named c s i) (eval c s i).1.known ∧ LogInv c n (eval c s i).1 := by
  have hi0 : LogInv c n { s with refs := i.refs } := ⟨hi.idle, hi.flags, hi.len⟩
  obtain ⟨h1, h2⟩ := updateFlags_reads named c i.t i.V i.f { s with refs := i.refs } n hn hi0
  unfold evalMsgs eval
  dsimp only
  rcases hq : updateFlags c i.t i.V i.f { s with refs := i.refs } with ⟨a, q⟩
  rw [hq] at h1 h2
  cases q with
  | error e => exact ⟨by rw [List.append_nil]; exact h1, h2⟩
  | ok u =>
    dsimp only
    have k := conn_keeps c i.t a
    refine ⟨h1.append (conn_reads c i.t a h2.flags), ?_, ?_, ?_⟩
    · simp only [LfIdle, k]; exact h2.idle
    · simp only [FlagsOk, k]; exact h2.flags
    · simp only [k]; exact h2.len

theorem run_reads (named : Nat → Bool) (c : Cfg K W) (n : Nat) (hn : Named named n) (h : List (Inp K)) :
    ∀ s : St K W, LogInv c n s → Reads c.rules s.known (logOf named c s h) (run c s h).known ∧ LogInv c n (run c s h) := by
  induction h with
  | nil => intro s hi; exact ⟨.nil _, hi⟩
  | cons i h ih =>
    intro s hi
    obtain ⟨h1, h2⟩ := eval_reads named c s i n hn hi
    obtain ⟨h3, h4⟩ := ih _ h2
    exact ⟨h1.append h3, h4⟩

end RT
end PvDer
