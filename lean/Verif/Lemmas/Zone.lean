import Verif.Model.RideThrough
import Verif.Spec.RideThrough
import Mathlib.Tactic.Linarith
import Mathlib.Data.List.Induction

set_option linter.unusedSectionVars false

namespace PvDer
namespace RT

variable {K : Type} [Field K] [LinearOrder K] [IsStrictOrderedRing K]

/-! ### Appending one sample to a history -/

theorem exceeds_snoc (thr tThr : K) (h : List (K × K)) (b : K × K) :
    Exceeds thr tThr (h ++ [b]) ↔ Exceeds thr tThr h ∨ (b.2 < thr ∧ ∃ τ, LowSince thr h τ ∧ b.1 - τ > tThr) := by
  constructor
  · rintro ⟨p, q, r, a, c, he, ha, hc, hq, ht⟩
    rcases List.eq_nil_or_concat r with rfl | ⟨r', x, rfl⟩
    · right
      have he' : h ++ [b] = (p ++ a :: q) ++ [c] := by rw [he]
      obtain ⟨h1, h2⟩ := List.append_inj' he' rfl
      simp only [List.cons.injEq, and_true] at h2
      subst h2
      exact ⟨hc, a.1, ⟨p, q, a, h1, rfl, ha, hq⟩, ht⟩
    · left
      have he' : h ++ [b] = (p ++ a :: q ++ c :: r') ++ [x] := by rw [he]; simp
      obtain ⟨h1, h2⟩ := List.append_inj' he' rfl
      exact ⟨p, q, r', a, c, h1, ha, hc, hq, ht⟩
  · rintro (⟨p, q, r, a, c, rfl, ha, hc, hq, ht⟩ | ⟨hb, τ, ⟨p, q, a, rfl, rfl, ha, hq⟩, ht⟩)
    · exact ⟨p, q, r ++ [b], a, c, by simp, ha, hc, hq, ht⟩
    · exact ⟨p, q, [], a, b, by simp, ha, hb, hq, ht⟩

theorem lowSince_snoc (thr : K) (h : List (K × K)) (b : K × K) (τ : K) :
    LowSince thr (h ++ [b]) τ ↔ (b.2 ≤ thr ∧ LowSince thr h τ) ∨ (b.2 < thr ∧ b.1 = τ) := by
  constructor
  · rintro ⟨p, q, a, he, hat, ha, hq⟩
    rcases List.eq_nil_or_concat q with rfl | ⟨q', x, rfl⟩
    · right
      obtain ⟨h1, h2⟩ := List.append_inj' he rfl
      simp only [List.cons.injEq, and_true] at h2
      subst h2
      exact ⟨ha, hat⟩
    · left
      have he' : h ++ [b] = (p ++ a :: q') ++ [x] := by rw [he]; simp
      obtain ⟨h1, h2⟩ := List.append_inj' he' rfl
      simp only [List.cons.injEq, and_true] at h2
      subst h2
      exact ⟨hq _ (by simp), p, q', a, h1, hat, ha, fun x hx => hq x (by simp [hx])⟩
  · rintro (⟨hb, p, q, a, rfl, hat, ha, hq⟩ | ⟨hb, rfl⟩)
    · refine ⟨p, q ++ [b], a, by simp, hat, ha, ?_⟩
      intro x hx
      rcases List.mem_append.1 hx with hx | hx
      · exact hq x hx
      · rw [List.mem_singleton.1 hx]; exact hb
    · exact ⟨h, [], b, rfl, rfl, hb, by simp⟩

theorem lowSince_mem {thr : K} {h : List (K × K)} {τ : K} (hl : LowSince thr h τ) : ∃ x ∈ h, x.1 = τ := by
  obtain ⟨p, q, a, rfl, hat, _⟩ := hl
  exact ⟨a, by simp, hat⟩

/-! ### One zone -/

/-- The zone component of the loop body does not depend on the flags. -/
def lvZ (Vref V t : K) (z : Zone K) : Zone K := (lvZone Vref V t z false false).1

theorem lvZone_fst (Vref V t : K) (z : Zone K) (trip mc : Bool) : (lvZone Vref V t z trip mc).1 = lvZ Vref V t z := by
  unfold lvZ lvZone
  cases trip <;> cases mc <;> split_ifs <;> simp_all

theorem lvZ_cfg (Vref V t : K) (z : Zone K) :
    (lvZ Vref V t z).Vthr = z.Vthr ∧ (lvZ Vref V t z).tThr = z.tThr ∧ (lvZ Vref V t z).tMin = z.tMin ∧ (lvZ Vref V t z).mode = z.mode := by
  unfold lvZ lvZone
  split_ifs <;> simp

/-- The trip flag after a zone: set before, or the zone becomes breached in this evaluation. -/
theorem lvZone_trip (Vref V t : K) (z : Zone K) (trip mc : Bool) :
    (lvZone Vref V t z trip mc).2.1 = (trip || ((lvZ Vref V t z).breach && !z.breach)) := by
  unfold lvZ lvZone
  split_ifs <;> simp_all

/-- The breach status is latched. -/
theorem lvZ_breach (Vref V t : K) (z : Zone K) (h : z.breach = true) : (lvZ Vref V t z).breach = true := by
  unfold lvZ lvZone
  split_ifs <;> simp_all

/-- Invariant of one zone with respect to the (active part of the) history. -/
structure ZInv (thr tThr : K) (h : List (K × K)) (z : Zone K) : Prop where
  breach : z.breach = true ↔ Exceeds thr tThr h
  timer : z.breach = false → (z.tStart = 0 ∧ ∀ τ, ¬ LowSince thr h τ) ∨
    (0 < z.tStart ∧ LowSince thr h z.tStart ∧ ∀ τ, LowSince thr h τ → z.tStart ≤ τ)
  nonneg : 0 ≤ z.tStart

theorem zinv_fresh {thr tThr : K} {z : Zone K} (hz : z.fresh) : ZInv thr tThr [] z := by
  refine ⟨?_, fun _ => Or.inl ⟨hz.1, ?_⟩, le_of_eq hz.1.symm⟩
  · rw [hz.2]
    refine ⟨by simp, ?_⟩
    rintro ⟨p, q, r, a, b, he, _⟩
    simp at he
  · rintro τ ⟨p, q, a, he, _⟩
    simp at he

theorem zinv_step {Vref V t : K} {h : List (K × K)} {z : Zone K} (hi : ZInv (z.Vthr * Vref) z.tThr h z) (ht : 0 < t)
    (hlt : ∀ x ∈ h, x.1 < t) : ZInv (z.Vthr * Vref) z.tThr (h ++ [(t, V)]) (lvZ Vref V t z) := by
  set thr := z.Vthr * Vref with hthr
  have hnb : z.breach = false → ¬ Exceeds thr z.tThr h := by
    intro hb he; rw [hi.breach.2 he] at hb; simp at hb
  have hτ : ∀ τ, LowSince thr h τ → τ < t := by
    intro τ hl
    obtain ⟨x, hx, rfl⟩ := lowSince_mem hl
    exact hlt x hx
  unfold lvZ lvZone
  rw [← hthr]
  by_cases hV : V < thr
  · cases hb : z.breach with
    | true =>
      simp only [Bool.true_eq_false, and_false, if_false, gt_iff_lt, not_lt.2 hV.le]
      refine ⟨?_, by simp [hb], hi.nonneg⟩
      rw [exceeds_snoc]
      simp [hb, hi.breach.1 hb]
    | false =>
      rw [if_pos ⟨hV, rfl⟩]
      rcases hi.timer hb with ⟨h0, hno⟩ | ⟨hpos, hls, hmin⟩
      · rw [if_pos h0]
        refine ⟨?_, fun _ => Or.inr ⟨ht, ?_, ?_⟩, ht.le⟩
        · simp only [hb, Bool.false_eq_true, false_iff]
          rw [exceeds_snoc]
          rintro (he | ⟨_, τ, hl, _⟩)
          · exact hnb hb he
          · exact hno τ hl
        · rw [lowSince_snoc]; exact Or.inr ⟨hV, rfl⟩
        · intro τ hl
          rw [lowSince_snoc] at hl
          rcases hl with ⟨_, hl⟩ | ⟨_, rfl⟩
          · exact absurd hl (hno τ)
          · exact le_rfl
      · rw [if_neg hpos.ne']
        by_cases hle : t - z.tStart ≤ z.tThr
        · rw [if_pos hle]
          have hres : ∀ trip mc : Bool, ZInv thr z.tThr (h ++ [(t, V)]) (z, trip, mc).1 := by
            intro _ _
            refine ⟨?_, fun _ => Or.inr ⟨hpos, ?_, ?_⟩, hi.nonneg⟩
            · simp only [hb, Bool.false_eq_true, false_iff]
              rw [exceeds_snoc]
              rintro (he | ⟨_, τ, hl, hgt⟩)
              · exact hnb hb he
              · have := hmin τ hl
                simp only at hgt
                linarith
            · rw [lowSince_snoc]; exact Or.inl ⟨hV.le, hls⟩
            · intro τ hl
              rw [lowSince_snoc] at hl
              rcases hl with ⟨_, hl⟩ | ⟨_, rfl⟩
              · exact hmin τ hl
              · exact (hτ _ hls).le
          split_ifs <;> exact hres _ _
        · rw [if_neg hle, if_pos (not_le.1 hle).le]
          refine ⟨?_, by simp, le_rfl⟩
          simp only [true_iff]
          rw [exceeds_snoc]
          exact Or.inr ⟨hV, z.tStart, hls, not_le.1 hle⟩
  · rw [if_neg (fun hc => hV hc.1)]
    have hex : Exceeds thr z.tThr (h ++ [(t, V)]) ↔ Exceeds thr z.tThr h := by
      rw [exceeds_snoc]
      constructor
      · rintro (he | ⟨hc, _⟩)
        · exact he
        · exact absurd hc hV
      · exact Or.inl
    by_cases hgt : V > thr
    · rw [if_pos hgt]
      have hno : ∀ τ, ¬ LowSince thr (h ++ [(t, V)]) τ := by
        intro τ hl
        rw [lowSince_snoc] at hl
        rcases hl with ⟨hc, _⟩ | ⟨hc, _⟩
        · exact absurd hgt (not_lt.2 hc)
        · exact absurd hc hV
      split_ifs with hp
      · exact ⟨by rw [hex]; exact hi.breach, fun _ => Or.inl ⟨rfl, hno⟩, le_rfl⟩
      · have h0 : z.tStart = 0 := le_antisymm (not_lt.1 hp) hi.nonneg
        exact ⟨by rw [hex]; exact hi.breach, fun _ => Or.inl ⟨h0, hno⟩, hi.nonneg⟩
    · rw [if_neg hgt]
      have hls' : ∀ τ, LowSince thr (h ++ [(t, V)]) τ ↔ LowSince thr h τ := by
        intro τ
        rw [lowSince_snoc]
        constructor
        · rintro (⟨_, hl⟩ | ⟨hc, _⟩)
          · exact hl
          · exact absurd hc hV
        · intro hl; exact Or.inl ⟨not_lt.1 hgt, hl⟩
      refine ⟨by rw [hex]; exact hi.breach, ?_, hi.nonneg⟩
      intro hb
      simp only [hls']
      exact hi.timer hb

/-! ### The loop over the zones -/

theorem loop_zones (Vref V t : K) (zs : List (Zone K)) (trip mc : Bool) :
    (loopZones (lvZone Vref V t) zs trip mc).1 = zs.map (lvZ Vref V t) := by
  induction zs generalizing trip mc with
  | nil => rfl
  | cons z zs ih => simp only [loopZones, List.map_cons, ih, lvZone_fst]

theorem loop_trip (Vref V t : K) (zs : List (Zone K)) (trip mc : Bool) :
    (loopZones (lvZone Vref V t) zs trip mc).2.1 = (trip || zs.any (fun z => (lvZ Vref V t z).breach && !z.breach)) := by
  induction zs generalizing trip mc with
  | nil => simp [loopZones]
  | cons z zs ih => simp only [loopZones, List.any_cons, ih, lvZone_trip, Bool.or_assoc]

/-! ### A run of the low-voltage logic -/

/-- Run of `LVRT` over a history. -/
def lvRun (tStable Vref : K) (s : VRT K) (h : List (K × K)) : VRT K := h.foldl (fun s x => lvrt tStable Vref x.2 x.1 s) s

/-- Run of one zone. -/
def zRun (tStable Vref : K) (z : Zone K) (h : List (K × K)) : Zone K :=
  h.foldl (fun z x => if x.1 > tStable then lvZ Vref x.2 x.1 z else z) z

theorem lvrt_zones (tStable Vref V t : K) (s : VRT K) :
    (lvrt tStable Vref V t s).zones = s.zones.map (fun z => if t > tStable then lvZ Vref V t z else z) := by
  unfold lvrt
  split_ifs
  · simp only [loop_zones]
  · simp

theorem lvRun_zones (tStable Vref : K) (s : VRT K) (h : List (K × K)) :
    (lvRun tStable Vref s h).zones = s.zones.map (fun z => zRun tStable Vref z h) := by
  induction h generalizing s with
  | nil => simp [lvRun, zRun]
  | cons x xs ih =>
    have := ih (lvrt tStable Vref x.2 x.1 s)
    unfold lvRun at this ⊢
    rw [List.foldl_cons, this, lvrt_zones, List.map_map]
    rfl

theorem zRun_cfg (tStable Vref : K) (z : Zone K) (h : List (K × K)) :
    (zRun tStable Vref z h).Vthr = z.Vthr ∧ (zRun tStable Vref z h).tThr = z.tThr ∧ (zRun tStable Vref z h).tMin = z.tMin ∧
      (zRun tStable Vref z h).mode = z.mode := by
  induction h generalizing z with
  | nil => exact ⟨rfl, rfl, rfl, rfl⟩
  | cons x xs ih =>
    have := ih (if x.1 > tStable then lvZ Vref x.2 x.1 z else z)
    unfold zRun at this ⊢
    rw [List.foldl_cons]
    obtain ⟨a1, a2, a3, a4⟩ := this
    rw [a1, a2, a3, a4]
    split_ifs
    · exact lvZ_cfg Vref x.2 x.1 z
    · exact ⟨rfl, rfl, rfl, rfl⟩

theorem zRun_snoc (tStable Vref : K) (z : Zone K) (h : List (K × K)) (x : K × K) :
    zRun tStable Vref z (h ++ [x]) = if x.1 > tStable then lvZ Vref x.2 x.1 (zRun tStable Vref z h) else zRun tStable Vref z h := by
  unfold zRun; rw [List.foldl_append]; rfl

theorem after_snoc (tStable : K) (h : List (K × K)) (x : K × K) :
    after tStable (h ++ [x]) = if x.1 > tStable then after tStable h ++ [x] else after tStable h := by
  unfold after
  rw [List.filter_append]
  by_cases hx : x.1 > tStable <;> simp [hx]

/-- Main lemma: the zone invariant along a run from a fresh zone. -/
theorem zRun_inv {tStable Vref : K} {z : Zone K} (hz : z.fresh) (h : List (K × K)) (hinc : Increasing h) (hpos : ∀ x ∈ h, 0 < x.1) :
    ZInv (z.Vthr * Vref) z.tThr (after tStable h) (zRun tStable Vref z h) := by
  induction h using List.reverseRecOn with
  | nil => exact zinv_fresh hz
  | append_singleton h x ih =>
    unfold Increasing at hinc
    rw [List.pairwise_append] at hinc
    have ih' := ih hinc.1 (fun y hy => hpos y (by simp [hy]))
    rw [zRun_snoc, after_snoc]
    split_ifs
    · obtain ⟨c1, c2, _, _⟩ := zRun_cfg tStable Vref z h
      have := zinv_step (Vref := Vref) (V := x.2) (t := x.1) (h := after tStable h) (z := zRun tStable Vref z h)
        (by rw [c1, c2]; exact ih') (hpos x (by simp))
        (fun y hy => hinc.2.2 y (List.mem_filter.1 hy).1 x (by simp))
      rw [c1, c2] at this
      exact this
    · exact ih'

theorem lvRun_snoc (tStable Vref : K) (s : VRT K) (h : List (K × K)) (x : K × K) :
    lvRun tStable Vref s (h ++ [x]) = lvrt tStable Vref x.2 x.1 (lvRun tStable Vref s h) := by
  unfold lvRun; rw [List.foldl_append]; rfl

theorem lvrt_trip (tStable Vref V t : K) (s : VRT K) :
    (lvrt tStable Vref V t s).trip = (s.trip || (decide (t > tStable) && s.zones.any (fun z => (lvZ Vref V t z).breach && !z.breach))) := by
  unfold lvrt
  split_ifs with h
  · simp [loop_trip, h]
  · simp [h]

/-- The trip flag equals "some zone is breached". -/
theorem lvRun_trip {tStable Vref : K} {s : VRT K} (hz : ∀ z ∈ s.zones, z.breach = false) (ht : s.trip = false) (h : List (K × K)) :
    (lvRun tStable Vref s h).trip = s.zones.any (fun z => (zRun tStable Vref z h).breach) := by
  induction h using List.reverseRecOn with
  | nil =>
    simp only [lvRun, zRun, List.foldl_nil, ht]
    rw [eq_comm, List.any_eq_false]
    intro z hzm
    simp [hz z hzm]
  | append_singleton h x ih =>
    rw [lvRun_snoc, lvrt_trip, ih, lvRun_zones]
    by_cases hx : x.1 > tStable
    · simp only [zRun_snoc, if_pos hx, hx, decide_true, Bool.true_and, List.any_map]
      rw [Bool.eq_iff_iff]
      simp only [Bool.or_eq_true, List.any_eq_true, Function.comp, Bool.and_eq_true, Bool.not_eq_true']
      constructor
      · rintro (⟨z, hzm, hb⟩ | ⟨z, hzm, hb, _⟩)
        · exact ⟨z, hzm, lvZ_breach _ _ _ _ hb⟩
        · exact ⟨z, hzm, hb⟩
      · rintro ⟨z, hzm, hb⟩
        cases hb' : (zRun tStable Vref z h).breach with
        | true => exact Or.inl ⟨z, hzm, hb'⟩
        | false => exact Or.inr ⟨z, hzm, hb, hb'⟩
    · simp only [zRun_snoc, if_neg hx]
      simp [hx]

/-! ### Mirror image for high voltage -/

/-- Negate the threshold. -/
def Zone.neg (z : Zone K) : Zone K := { z with Vthr := -z.Vthr }

/-- Negate the voltages of a history. -/
def negH (h : List (K × K)) : List (K × K) := h.map (fun x => (x.1, -x.2))

theorem neg_neg_zone (z : Zone K) : z.neg.neg = z := by simp [Zone.neg]

theorem hvZone_neg (Vref V t : K) (z : Zone K) (trip mc : Bool) :
    hvZone Vref V t z trip mc = ((lvZone Vref (-V) t z.neg trip mc).1.neg, (lvZone Vref (-V) t z.neg trip mc).2) := by
  unfold hvZone lvZone
  have e1 : (-V < z.neg.Vthr * Vref) ↔ (V > z.Vthr * Vref) := by simp [Zone.neg]
  have e2 : (-V > z.neg.Vthr * Vref) ↔ (V < z.Vthr * Vref) := by simp [Zone.neg]
  have e3 : z.neg.tStart = z.tStart := rfl
  have e4 : z.neg.breach = z.breach := rfl
  have e5 : z.neg.tThr = z.tThr := rfl
  have e6 : z.neg.tMin = z.tMin := rfl
  have e7 : z.neg.mode = z.mode := rfl
  simp only [e1, e2, e3, e4, e5, e6, e7]
  split_ifs <;> simp only [Zone.neg, neg_neg]

theorem loop_neg (Vref V t : K) (zs : List (Zone K)) (trip mc : Bool) :
    loopZones (hvZone Vref V t) zs trip mc =
      ((loopZones (lvZone Vref (-V) t) (zs.map Zone.neg) trip mc).1.map Zone.neg, (loopZones (lvZone Vref (-V) t) (zs.map Zone.neg) trip mc).2) := by
  induction zs generalizing trip mc with
  | nil => rfl
  | cons z zs ih =>
    simp only [loopZones, List.map_cons, hvZone_neg, ih]

/-- Negate all thresholds. -/
def VRT.neg (s : VRT K) : VRT K := { s with zones := s.zones.map Zone.neg }

theorem hvrt_neg (tStable Vref V t : K) (s : VRT K) : hvrt tStable Vref V t s = (lvrt tStable Vref (-V) t s.neg).neg := by
  unfold hvrt lvrt
  split_ifs
  · simp only [loop_neg, VRT.neg]
  · simp only [VRT.neg, List.map_map]
    have : (Zone.neg ∘ Zone.neg : Zone K → Zone K) = id := by funext z; exact neg_neg_zone z
    rw [this, List.map_id]

theorem vneg_neg (s : VRT K) : s.neg.neg = s := by
  simp only [VRT.neg, List.map_map]
  have : (Zone.neg ∘ Zone.neg : Zone K → Zone K) = id := by funext z; exact neg_neg_zone z
  rw [this, List.map_id]

/-- Run of `HVRT` over a history. -/
def hvRun (tStable Vref : K) (s : VRT K) (h : List (K × K)) : VRT K := h.foldl (fun s x => hvrt tStable Vref x.2 x.1 s) s

theorem hvRun_neg (tStable Vref : K) (s : VRT K) (h : List (K × K)) :
    hvRun tStable Vref s h = (lvRun tStable Vref s.neg (negH h)).neg := by
  induction h generalizing s with
  | nil => exact (vneg_neg s).symm
  | cons x xs ih =>
    have := ih (hvrt tStable Vref x.2 x.1 s)
    unfold hvRun lvRun negH at this ⊢
    rw [List.foldl_cons, this, hvrt_neg, vneg_neg]
    rfl

theorem exceeds_neg (thr tThr : K) (h : List (K × K)) : Exceeds (-thr) tThr (negH h) ↔ ExceedsHigh thr tThr h := by
  constructor
  · rintro ⟨p, q, r, a, b, he, ha, hb, hq, ht⟩
    have hinv : ∀ l : List (K × K), negH (negH l) = l := by intro l; simp [negH, Function.comp_def]
    refine ⟨negH p, negH q, negH r, (a.1, -a.2), (b.1, -b.2), ?_, ?_, ?_, ?_, ht⟩
    · rw [← hinv h, he]; simp [negH]
    · simp only; linarith
    · simp only; linarith
    · intro x hx
      obtain ⟨y, hy, rfl⟩ := List.mem_map.1 hx
      have := hq y hy
      simp only; linarith
  · rintro ⟨p, q, r, a, b, rfl, ha, hb, hq, ht⟩
    refine ⟨negH p, negH q, negH r, (a.1, -a.2), (b.1, -b.2), ?_, ?_, ?_, ?_, ht⟩
    · simp [negH]
    · simp only; linarith
    · simp only; linarith
    · intro x hx
      obtain ⟨y, hy, rfl⟩ := List.mem_map.1 hx
      have := hq y hy
      simp only; linarith

theorem after_neg (tStable : K) (h : List (K × K)) : after tStable (negH h) = negH (after tStable h) := by
  unfold after negH
  rw [List.filter_map]; rfl

end RT
end PvDer
