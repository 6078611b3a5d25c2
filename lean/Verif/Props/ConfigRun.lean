import Verif.Model.RTInit
import Verif.Props.Constructible
import Verif.Props.EvalRide
import Verif.Props.ConfigRT
import Mathlib.Tactic.Linarith
import Mathlib.Tactic.FieldSimp
/-!
C130: the configured ride-through settings are the ones a simulation obeys.
-/
namespace PvDer
namespace Config
open Eval (Sees Ok Call Hid SCfg)

/-! ### Vocabulary -/

/-- A level has a numeric setting. -/
def Reads (d : String → Option PVal) (k : String) (q : ℚ) : Prop := ∃ v, d k = some v ∧ num v = some q

/-- The settings block a DER uses for one ride-through name: its own entry, else the template's. -/
def blockFor (file : File) (c : Cfg) (n : String) : Option Body := designated file ((c.rt n).getD (rtTemplate n))

/-- The levels of a block do not preset the timer and the breach mark (or preset them to their initial values). -/
def Plain (b : Body) : Prop :=
  ∀ kv ∈ b, ∀ d, kv.2 = .level d → (d "t_start" = none ∨ Reads d "t_start" 0) ∧ (d "threshold_breach" = none ∨ ∃ v, d "threshold_breach" = some v ∧ truthy v = false)

/-! ### Reading a block -/

theorem levelNum_ok {d : String → Option PVal} {k : String} {q : ℚ} (h : levelNum d k = .ok q) : Reads d k q := by
  unfold levelNum at h
  cases hd : d k with
  | none => simp [hd] at h
  | some v =>
    cases hn : num v with
    | none => simp [hd, hn] at h
    | some x =>
      simp only [hd, hn, Except.ok.injEq] at h
      exact ⟨v, hd, by rw [hn, h]⟩

theorem reads_unique {d : String → Option PVal} {k : String} {p q : ℚ} (h : Reads d k p) (h' : Reads d k q) : p = q := by
  obtain ⟨v, h1, h2⟩ := h
  obtain ⟨w, h3, h4⟩ := h'
  rw [h1, Option.some.injEq] at h3
  rw [← h3, h2, Option.some.injEq] at h4
  exact h4

theorem readZone_ok {kv : String × Leaf} {z : RT.Zone ℚ} (h : readZone kv = .ok z) :
    ∃ d, kv.2 = .level d ∧ Reads d "V_threshold" z.Vthr ∧ Reads d "t_threshold" z.tThr ∧ Reads d "t_min_ridethrough" z.tMin ∧ levelMode d = .ok z.mode ∧
      Reads d "t_start" z.tStart ∧ ∃ v, d "threshold_breach" = some v ∧ truthy v = z.breach := by
  obtain ⟨k, lf⟩ := kv
  cases lf with
  | val v => simp [readZone] at h
  | level d =>
    unfold readZone at h
    dsimp only at h
    obtain ⟨V, h1, h⟩ := bind_ok h
    obtain ⟨t, h2, h⟩ := bind_ok h
    obtain ⟨m, h3, h⟩ := bind_ok h
    obtain ⟨tm, h4, h⟩ := bind_ok h
    obtain ⟨ts, h5, h⟩ := bind_ok h
    cases hb : d "threshold_breach" with
    | none => simp [hb] at h
    | some b =>
      simp only [hb, pure, Except.pure, Except.ok.injEq] at h
      subst h
      exact ⟨d, rfl, levelNum_ok h1, levelNum_ok h2, levelNum_ok h4, h3, levelNum_ok h5, b, hb, rfl⟩

theorem mapM_mem {α β : Type} {f : α → Except Err β} {l : List α} {l' : List β} (h : l.mapM f = .ok l') :
    (∀ y ∈ l', ∃ x ∈ l, f x = .ok y) ∧ (∀ x ∈ l, ∃ y ∈ l', f x = .ok y) := by
  induction l generalizing l' with
  | nil =>
    simp [pure, Except.pure] at h
    subst h
    simp
  | cons a l ih =>
    rw [List.mapM_cons] at h
    obtain ⟨x, hx, h⟩ := bind_ok h
    obtain ⟨y, hy, h⟩ := bind_ok h
    simp only [pure, Except.pure, Except.ok.injEq] at h
    subst h
    obtain ⟨i1, i2⟩ := ih hy
    constructor
    · intro z hz
      rcases List.mem_cons.1 hz with rfl | hz
      · exact ⟨a, by simp, hx⟩
      · obtain ⟨w, hw, e⟩ := i1 z hz
        exact ⟨w, by simp [hw], e⟩
    · intro z hz
      rcases List.mem_cons.1 hz with rfl | hz
      · exact ⟨x, by simp, hx⟩
      · obtain ⟨w, hw, e⟩ := i2 z hz
        exact ⟨w, by simp [hw], e⟩

theorem mapM_forall2 {α β : Type} {f : α → Except Err β} {l : List α} {l' : List β} (h : l.mapM f = .ok l') : List.Forall₂ (fun x y => f x = .ok y) l l' := by
  induction l generalizing l' with
  | nil =>
    simp [pure, Except.pure] at h
    subst h
    exact .nil
  | cons a l ih =>
    rw [List.mapM_cons] at h
    obtain ⟨x, hx, h⟩ := bind_ok h
    obtain ⟨y, hy, h⟩ := bind_ok h
    simp only [pure, Except.pure, Except.ok.injEq] at h
    subst h
    exact .cons hx (ih hy)

/-- Filling in the timer fields changes nothing else. -/
theorem fillLevel_reads {kv kv' : String × Leaf} (h : fillLevel kv = .ok kv') :
    ∃ d d', kv.2 = .level d ∧ kv'.2 = .level d' ∧ kv'.1 = kv.1 ∧ (∀ k, k ≠ "t_start" → k ≠ "threshold_breach" → d' k = d k) ∧
      d' "t_start" = (d "t_start" <|> some (.float 0)) ∧ d' "threshold_breach" = (d "threshold_breach" <|> some (.bool false)) := by
  obtain ⟨k, lf⟩ := kv
  cases lf with
  | val v => simp [fillLevel] at h
  | level d =>
    simp only [fillLevel, Except.ok.injEq] at h
    subst h
    refine ⟨d, _, rfl, rfl, rfl, ?_, ?_, ?_⟩
    · intro k h1 h2; simp [fill, h1, h2]
    · simp [fill]; cases d "t_start" <;> rfl
    · simp [fill]; cases d "threshold_breach" <;> rfl

/-- The zones read from the completed block are those of the designated block. -/
theorem zones_of_block {b b' : Body} {zs : List (RT.Zone ℚ)} (h1 : b.mapM fillLevel = .ok b') (h2 : b'.mapM readZone = .ok zs) :
    (∀ z ∈ zs, ∃ key d, (key, .level d) ∈ b ∧ Reads d "V_threshold" z.Vthr ∧ Reads d "t_threshold" z.tThr ∧ Reads d "t_min_ridethrough" z.tMin ∧
      levelMode d = .ok z.mode) ∧
    (∀ key d, (key, .level d) ∈ b → ∃ z ∈ zs, Reads d "V_threshold" z.Vthr ∧ Reads d "t_threshold" z.tThr ∧ Reads d "t_min_ridethrough" z.tMin ∧
      levelMode d = .ok z.mode) ∧
    (Plain b → ∀ z ∈ zs, z.tStart = 0 ∧ z.breach = false) := by
  obtain ⟨f1, f2⟩ := mapM_mem h1
  obtain ⟨g1, g2⟩ := mapM_mem h2
  have link : ∀ {x x' : String × Leaf} {z : RT.Zone ℚ}, fillLevel x = .ok x' → readZone x' = .ok z →
      ∃ d, x.2 = .level d ∧ Reads d "V_threshold" z.Vthr ∧ Reads d "t_threshold" z.tThr ∧ Reads d "t_min_ridethrough" z.tMin ∧ levelMode d = .ok z.mode ∧
        (((d "t_start" = none ∨ Reads d "t_start" 0) ∧ (d "threshold_breach" = none ∨ ∃ v, d "threshold_breach" = some v ∧ truthy v = false)) →
          z.tStart = 0 ∧ z.breach = false) := by
    intro x x' z e1 e2
    obtain ⟨d, d', a1, a2, _, a4, a5, a6⟩ := fillLevel_reads e1
    obtain ⟨d'', b1, b2, b3, b4, b5, b6, v, b7, b8⟩ := readZone_ok e2
    have hd : d'' = d' := by rw [a2] at b1; exact (Leaf.level.inj b1).symm
    subst hd
    have hr : ∀ {k q}, k ≠ "t_start" → k ≠ "threshold_breach" → Reads d'' k q → Reads d k q := by
      intro k q n1 n2 ⟨v, h1, h2⟩
      exact ⟨v, by rw [← a4 k n1 n2]; exact h1, h2⟩
    refine ⟨d, a1, hr (by decide +kernel) (by decide +kernel) b2, hr (by decide +kernel) (by decide +kernel) b3, hr (by decide +kernel) (by decide +kernel) b4, ?_, ?_⟩
    · rw [← b5]; unfold levelMode; rw [a4 "mode" (by decide +kernel) (by decide +kernel)]
    · rintro ⟨p1, p2⟩
      constructor
      · refine reads_unique b6 ?_
        unfold Reads
        rw [a5]
        rcases p1 with p1 | ⟨w, p1, p1'⟩
        · exact ⟨.float 0, by rw [p1]; rfl, rfl⟩
        · exact ⟨w, by rw [p1]; rfl, p1'⟩
      · rw [a6] at b7
        rcases p2 with p2 | ⟨w, p2, p2'⟩
        · rw [p2] at b7
          have : v = .bool false := by simpa using b7.symm
          rw [← b8, this]; rfl
        · rw [p2] at b7
          have : v = w := by simpa using b7.symm
          rw [← b8, this]; exact p2'
  refine ⟨?_, ?_, ?_⟩
  · intro z hz
    obtain ⟨x', hx', e2⟩ := g1 z hz
    obtain ⟨x, hx, e1⟩ := f1 x' hx'
    obtain ⟨d, k1, k2, k3, k4, k5, _⟩ := link e1 e2
    exact ⟨x.1, d, by rw [← k1]; exact hx, k2, k3, k4, k5⟩
  · intro key d hm
    obtain ⟨x', hx', e1⟩ := f2 _ hm
    obtain ⟨z, hz, e2⟩ := g2 x' hx'
    obtain ⟨d', k1, k2, k3, k4, k5, _⟩ := link e1 e2
    have : d' = d := (Leaf.level.inj k1).symm
    subst this
    exact ⟨z, hz, k2, k3, k4, k5⟩
  · intro hp z hz
    obtain ⟨x', hx', e2⟩ := g1 z hz
    obtain ⟨x, hx, e1⟩ := f1 x' hx'
    obtain ⟨d, k1, _, _, _, _, k6⟩ := link e1 e2
    exact k6 (hp x hx d k1)

/-- The order of the levels is kept. -/
theorem zones_order {b b' : Body} {zs : List (RT.Zone ℚ)} (h1 : b.mapM fillLevel = .ok b') (h2 : b'.mapM readZone = .ok zs) (R : ℚ → ℚ → Prop)
    (hR : zs.Pairwise fun z z' => R z.Vthr z'.Vthr) :
    b.Pairwise fun x y => ∀ d d' V V', x.2 = .level d → y.2 = .level d' → Reads d "V_threshold" V → Reads d' "V_threshold" V' → R V V' := by
  have f : List.Forall₂ (fun (x : String × Leaf) (z : RT.Zone ℚ) => ∀ d V, x.2 = .level d → Reads d "V_threshold" V → V = z.Vthr) b zs := by
    have g1 := mapM_forall2 h1
    have g2 := mapM_forall2 h2
    clear h1 h2 hR
    induction g1 generalizing zs with
    | nil => cases g2; exact .nil
    | cons e1 _ ih =>
      cases g2 with
      | cons e2 g2 =>
        refine .cons ?_ (ih g2)
        intro d V hd hV
        obtain ⟨d0, d', a1, a2, _, a4, _⟩ := fillLevel_reads e1
        obtain ⟨d'', b1, b2, _⟩ := readZone_ok e2
        have q1 : d0 = d := by rw [hd] at a1; exact (Leaf.level.inj a1).symm
        have q2 : d'' = d' := by rw [a2] at b1; exact (Leaf.level.inj b1).symm
        subst q1 q2
        refine reads_unique hV ?_
        obtain ⟨v, k1, k2⟩ := b2
        exact ⟨v, by rw [← a4 _ (by decide +kernel) (by decide +kernel)]; exact k1, k2⟩
  clear h1 h2
  induction f with
  | nil => exact .nil
  | cons e f ih =>
    rw [List.pairwise_cons] at hR ⊢
    refine ⟨?_, ih hR.2⟩
    intro y hy d d' V V' k1 k2 k3 k4
    rw [e d V k1 k3]
    have hmem : ∀ {l : Body} {l' : List (RT.Zone ℚ)}, List.Forall₂ (fun (x : String × Leaf) (z : RT.Zone ℚ) => ∀ d V, x.2 = .level d → Reads d "V_threshold" V → V = z.Vthr) l l' →
        y ∈ l → ∃ z ∈ l', V' = z.Vthr := by
      intro l l' hf
      induction hf with
      | nil => intro h; cases h
      | cons e' _ ih' =>
        intro h
        rcases List.mem_cons.1 h with rfl | h
        · exact ⟨_, by simp, e' d' V' k2 k4⟩
        · obtain ⟨z, hz, hh⟩ := ih' h
          exact ⟨z, by simp [hz], hh⟩
    obtain ⟨z, hz, e2⟩ := hmem f hy
    rw [e2]
    exact hR.1 z hz

/-! ### Volts instead of per unit -/

theorem records_scale (s lock : ℝ) (l : List (ℝ × ℝ)) : RT.records lock (l.map fun x => (x.1, x.2 * s)) = (RT.records lock l).map fun x => (x.1, x.2 * s) := by
  induction l generalizing lock with
  | nil => rfl
  | cons x l ih =>
    simp only [List.map_cons, RT.records]
    split_ifs
    · simp [ih]
    · exact ih lock

theorem after_scale (s ts : ℝ) (l : List (ℝ × ℝ)) : RT.after ts (l.map fun x => (x.1, x.2 * s)) = (RT.after ts l).map fun x => (x.1, x.2 * s) := by
  simp [RT.after, List.filter_map, Function.comp_def]

theorem exceeds_scale {s : ℝ} (hs : 0 < s) (thr T : ℝ) (l : List (ℝ × ℝ)) : RT.Exceeds (thr * s) T (l.map fun x => (x.1, x.2 * s)) ↔ RT.Exceeds thr T l := by
  constructor
  · rintro ⟨p, q, r, a, b, e, h1, h2, h3, h4⟩
    rw [List.map_eq_append_iff] at e
    obtain ⟨l1, r', rfl, e1, e2⟩ := e
    obtain ⟨b0, r0, rfl, rfl, rfl⟩ := List.map_eq_cons_iff.1 e2
    rw [List.map_eq_append_iff] at e1
    obtain ⟨p0, l2, rfl, rfl, e3⟩ := e1
    obtain ⟨a0, q0, rfl, rfl, rfl⟩ := List.map_eq_cons_iff.1 e3
    refine ⟨p0, q0, r0, a0, b0, rfl, lt_of_mul_lt_mul_right h1 hs.le, lt_of_mul_lt_mul_right h2 hs.le, ?_, h4⟩
    intro x hx
    exact le_of_mul_le_mul_right (h3 _ (List.mem_map_of_mem hx)) hs
  · rintro ⟨p, q, r, a, b, rfl, h1, h2, h3, h4⟩
    refine ⟨p.map fun x => (x.1, x.2 * s), q.map fun x => (x.1, x.2 * s), r.map fun x => (x.1, x.2 * s), (a.1, a.2 * s), (b.1, b.2 * s), by simp,
      mul_lt_mul_of_pos_right h1 hs, mul_lt_mul_of_pos_right h2 hs, ?_, h4⟩
    intro x hx
    obtain ⟨y, hy, rfl⟩ := List.mem_map.1 hx
    exact mul_le_mul_of_nonneg_right (h3 y hy) hs.le

theorem exceedsHigh_scale {s : ℝ} (hs : 0 < s) (thr T : ℝ) (l : List (ℝ × ℝ)) :
    RT.ExceedsHigh (thr * s) T (l.map fun x => (x.1, x.2 * s)) ↔ RT.ExceedsHigh thr T l := by
  constructor
  · rintro ⟨p, q, r, a, b, e, h1, h2, h3, h4⟩
    rw [List.map_eq_append_iff] at e
    obtain ⟨l1, r', rfl, e1, e2⟩ := e
    obtain ⟨b0, r0, rfl, rfl, rfl⟩ := List.map_eq_cons_iff.1 e2
    rw [List.map_eq_append_iff] at e1
    obtain ⟨p0, l2, rfl, rfl, e3⟩ := e1
    obtain ⟨a0, q0, rfl, rfl, rfl⟩ := List.map_eq_cons_iff.1 e3
    refine ⟨p0, q0, r0, a0, b0, rfl, lt_of_mul_lt_mul_right h1 hs.le, lt_of_mul_lt_mul_right h2 hs.le, ?_, h4⟩
    intro x hx
    exact le_of_mul_le_mul_right (h3 _ (List.mem_map_of_mem hx)) hs
  · rintro ⟨p, q, r, a, b, rfl, h1, h2, h3, h4⟩
    refine ⟨p.map fun x => (x.1, x.2 * s), q.map fun x => (x.1, x.2 * s), r.map fun x => (x.1, x.2 * s), (a.1, a.2 * s), (b.1, b.2 * s), by simp,
      mul_lt_mul_of_pos_right h1 hs, mul_lt_mul_of_pos_right h2 hs, ?_, h4⟩
    intro x hx
    obtain ⟨y, hy, rfl⟩ := List.mem_map.1 hx
    exact mul_le_mul_of_nonneg_right (h3 y hy) hs.le

/-! ### The state a simulation starts in -/

section
variable {m : Sim.Mt} {file : File} {id : String} {kw : Args} {c : Cfg} {x : Built} {intOk : String → Bool} {v : Start} {b : Circuit.Base} {g : SCfg} {h : Hid}

theorem construct_setup (hb : construct (template m) file id kw = .ok x) : setupDER (template m) file id kw = .ok x.setup := by
  unfold construct at hb
  obtain ⟨s, hs, hb⟩ := bind_ok hb
  obtain ⟨⟨_, np, ub⟩, _, hb⟩ := bind_ok hb
  obtain ⟨⟨sa, _, _⟩, _, hb⟩ := bind_ok hb
  obtain ⟨g, _, hb⟩ := bind_ok hb
  obtain ⟨mm, _, hb⟩ := bind_ok hb
  simp only [pure, Except.pure, Except.ok.injEq] at hb
  subst hb
  exact hs

theorem start_ok {s : Setup} (hst : start intOk s = .ok v) :
    number s.design "basic_options" "t_stable" = .ok v.tStable ∧ number s.design "inverter_ratings" "Vrmsrated" = .ok v.Vrms ∧
      (∃ mt, s.design.cfg "basic_options" "Vrms_measurement_type" = some mt ∧ v.meas = measOf mt) ∧ vrtInit intOk s.rt = .ok v.vrt ∧ frtInit s.rt = .ok v.lf := by
  unfold start at hst
  obtain ⟨ts, h1, hst⟩ := bind_ok hst
  obtain ⟨mt, h2, hst⟩ := bind_ok hst
  obtain ⟨vr, h3, hst⟩ := bind_ok hst
  obtain ⟨w, h4, hst⟩ := bind_ok hst
  obtain ⟨lf, h5, hst⟩ := bind_ok hst
  simp only [pure, Except.pure, Except.ok.injEq] at hst
  subst hst
  refine ⟨h1, h3, ⟨mt, ?_, rfl⟩, h4, h5⟩
  cases hm : s.design.cfg "basic_options" "Vrms_measurement_type" with
  | none => simp [hm] at h2
  | some y => simp only [hm, Except.ok.injEq] at h2; rw [h2]

theorem vrtInit_ok {r : String → Option Body} {w : VrtInit} (h : vrtInit intOk r = .ok w) :
    ∃ lvb hvb vd, r "LVRT" = some lvb ∧ r "HVRT" = some hvb ∧ r "VRT_delays" = some vd ∧ lvb.mapM readZone = .ok w.lv ∧ hvb.mapM readZone = .ok w.hv ∧
      delayNum vd "output_cessation_delay" = .ok w.disc ∧ delayNum vd "output_restore_delay" = .ok w.reco ∧ delayFlag vd "restore_Vdc" = .ok w.restore ∧
      (∀ kv ∈ lvb ++ hvb, intOk kv.1 = true) ∧ RT.checkVRT vLimits w.lv w.hv w.disc w.reco = .ok () := by
  unfold vrtInit at h
  obtain ⟨lvb, h1, h⟩ := bind_ok h
  obtain ⟨hvb, h2, h⟩ := bind_ok h
  obtain ⟨_, h3, h⟩ := bind_ok h
  obtain ⟨vd, h4, h⟩ := bind_ok h
  obtain ⟨dd, h5, h⟩ := bind_ok h
  obtain ⟨rd, h6, h⟩ := bind_ok h
  obtain ⟨rv, h7, h⟩ := bind_ok h
  obtain ⟨lv, h8, h⟩ := bind_ok h
  obtain ⟨hv, h9, h⟩ := bind_ok h
  obtain ⟨_, h10, h⟩ := bind_ok h
  simp only [pure, Except.pure, Except.ok.injEq] at h
  subst h
  refine ⟨lvb, hvb, vd, need_ok h1, need_ok h2, need_ok h4, h8, h9, h5, h6, h7, ?_, h10⟩
  by_contra hc
  rw [if_neg (by rw [List.all_eq_true]; exact hc)] at h3
  simp at h3

/-- The zone tables of a constructed DER are those of its settings blocks. -/
theorem start_levels (hb : construct (template m) file id kw = .ok x) (hf : file id = some c) (hst : start intOk x.setup = .ok v) {n : String}
    (hn : n = "LVRT" ∨ n = "HVRT") {body : Body} (hbl : blockFor file c n = some body) :
    ∃ body', body.mapM fillLevel = .ok body' ∧ body'.mapM readZone = .ok (if n = "LVRT" then v.vrt.lv else v.vrt.hv) := by
  obtain ⟨_, _, _, h4, _⟩ := start_ok hst
  obtain ⟨lvb, hvb, vd, r1, r2, _, r4, r5, _⟩ := vrtInit_ok h4
  obtain ⟨b1, b2, q1, q2, q3⟩ := (C67_source (construct_setup hb) hf).2.2.1 n (by simpa using hn)
  have : b1 = body := by
    unfold blockFor at hbl
    rw [hbl, Option.some.injEq] at q1
    exact q1.symm
  subst this
  rcases hn with rfl | rfl
  · rw [r1, Option.some.injEq] at q2
    subst q2
    exact ⟨lvb, q3, by simpa using r4⟩
  · rw [r2, Option.some.injEq] at q2
    subst q2
    exact ⟨hvb, q3, by simpa using r5⟩

theorem starts_init (hs : Starts v b g h) (hp : (∀ z ∈ v.vrt.lv, z.tStart = 0 ∧ z.breach = false) ∧ (∀ z ∈ v.vrt.hv, z.tStart = 0 ∧ z.breach = false))
    (hlf : ∀ z ∈ v.lf, z.tStart = 0) : RT.IsInit h.rt := by
  obtain ⟨vv, vw, refs, w, e⟩ := hs.rt
  rw [e]
  constructor <;> try rfl
  · intro z hz
    obtain ⟨y, hy, rfl⟩ := List.mem_map.1 hz
    have := hp.1 y hy
    simp [RT.Zone.fresh, zoneR, this.1, this.2]
  · intro z hz
    obtain ⟨y, hy, rfl⟩ := List.mem_map.1 hz
    have := hp.2 y hy
    simp [RT.Zone.fresh, zoneR, this.1, this.2]
  · intro z hz
    obtain ⟨y, hy, rfl⟩ := List.mem_map.1 hz
    simp [hlf y hy]

theorem vref_volts (hs : Starts v b g h) (hb : 0 < b.Vbase) (V : ℝ) : V * g.Vref * b.Vbase = V * v.Vrms := by
  rw [hs.Vref]
  have : (0:ℝ) < Real.sqrt 2 := by positivity
  field_simp

/-- The blocks of a DER do not preset timers. -/
structure PlainBlocks (file : File) (c : Cfg) : Prop where
  lv : ∀ body, blockFor file c "LVRT" = some body → Plain body
  hv : ∀ body, blockFor file c "HVRT" = some body → Plain body
  lf : ∀ body, blockFor file c "LFRT" = some body → ∀ kv ∈ body, ∀ d, kv.2 = .level d → Reads d "t_LFstart" 0

theorem blocks_exist (hb : construct (template m) file id kw = .ok x) (hf : file id = some c) :
    ∃ lb hb, blockFor file c "LVRT" = some lb ∧ blockFor file c "HVRT" = some hb := by
  obtain ⟨b1, _, q1, _⟩ := (C67_source (construct_setup hb) hf).2.2.1 "LVRT" (by simp)
  obtain ⟨b2, _, q2, _⟩ := (C67_source (construct_setup hb) hf).2.2.1 "HVRT" (by simp)
  exact ⟨b1, b2, q1, q2⟩

/-- C130: a DER whose settings preset no timers starts with all timers stopped and nothing flagged. -/
theorem C130_starts_fresh (hb : construct (template m) file id kw = .ok x) (hf : file id = some c) (hst : start intOk x.setup = .ok v) (hp : PlainBlocks file c)
    (hs : Starts v b g h) : RT.IsInit h.rt ∧ h.rt.lvEnable = true ∧ h.rt.hvEnable = true ∧ h.rt.lfEnable = false := by
  obtain ⟨lb, hbk, e1, e2⟩ := blocks_exist hb hf
  refine ⟨starts_init hs ⟨?_, ?_⟩ ?_, ?_⟩
  · obtain ⟨b', q1, q2⟩ := start_levels hb hf hst (Or.inl rfl) e1
    exact (zones_of_block q1 q2).2.2 (hp.lv _ e1)
  · obtain ⟨b', q1, q2⟩ := start_levels hb hf hst (Or.inr rfl) e2
    rw [if_neg (by decide +kernel)] at q2
    exact (zones_of_block q1 q2).2.2 (hp.hv _ e2)
  · obtain ⟨_, _, _, _, h5⟩ := start_ok hst
    unfold frtInit at h5
    obtain ⟨lfb, h1, h5⟩ := bind_ok h5
    obtain ⟨_, _, h5⟩ := bind_ok h5
    obtain ⟨_, _, h5⟩ := bind_ok h5
    obtain ⟨inst, _, h5⟩ := bind_ok h5
    obtain ⟨_, _, h5⟩ := bind_ok h5
    obtain ⟨_, _, h5⟩ := bind_ok h5
    have hlf : blockFor file c "LFRT" = some lfb := by
      unfold blockFor
      rw [← (C67_source (construct_setup hb) hf).2.1 "LFRT" (by simp)]
      exact need_ok h1
    intro z hz
    obtain ⟨y, hy, e⟩ := (mapM_mem h5).1 z hz
    obtain ⟨k, lf⟩ := y
    cases lf with
    | val u => simp [readLf] at e
    | level d =>
      unfold readLf at e
      dsimp only at e
      obtain ⟨F, _, e⟩ := bind_ok e
      obtain ⟨t, _, e⟩ := bind_ok e
      obtain ⟨ts, g3, e⟩ := bind_ok e
      simp only [pure, Except.pure, Except.ok.injEq] at e
      subst e
      exact reads_unique (levelNum_ok g3) (hp.lf _ hlf _ hy d rfl)
  · obtain ⟨vv, vw, refs, w, e⟩ := hs.rt
    rw [e]
    exact ⟨rfl, rfl, rfl⟩

/-- C130: for every configuration file, DER and arguments with which the constructor succeeds, and every sequence of evaluations that raise nothing: the low-voltage
trip flag is set iff for some level of the DER's `LVRT` block the measured RMS voltage in volts was below `V_threshold` times the rated RMS voltage at two of the
evaluations after `t_stable` that are more than `t_threshold` apart, and not above it in between. -/
theorem C130_lv_trip_as_configured (hb : construct (template m) file id kw = .ok x) (hf : file id = some c) (hst : start intOk x.setup = .ok v)
    (hp : PlainBlocks file c) (hs : Starts v b g h) (hV : 0 < b.Vbase) {body : Body} (hbl : blockFor file c "LVRT" = some body)
    {k : Eval.Cls} {f : Call k → ℝ} (hsee : Sees k g f) (l : List (Call k)) (hok : Ok k g h l) :
    (Eval.run k g h l).rt.lv.trip = true ↔
      ∃ key d V T, (key, Leaf.level d) ∈ body ∧ Reads d "V_threshold" V ∧ Reads d "t_threshold" T ∧
        RT.Exceeds ((V : ℝ) * v.Vrms) T (RT.after v.tStable (RT.records 0 (l.map fun c => (c.t, f c * b.Vbase)))) := by
  obtain ⟨hi, e1, _, _⟩ := C130_starts_fresh hb hf hst hp hs
  obtain ⟨b', q1, q2⟩ := start_levels hb hf hst (Or.inl rfl) hbl
  rw [if_pos rfl] at q2
  obtain ⟨z1, z2, _⟩ := zones_of_block q1 q2
  have hz : h.rt.lv.zones = v.vrt.lv.map zoneR := by obtain ⟨vv, vw, refs, w, e⟩ := hs.rt; rw [e]; rfl
  rw [Eval.C96_lv_trip_iff hsee hi e1 l hok, hz]
  have hm : (l.map fun c => (c.t, f c * b.Vbase)) = (l.map fun c => (c.t, f c)).map fun x => (x.1, x.2 * b.Vbase) := by simp
  have key : ∀ V T : ℚ, RT.Exceeds ((V : ℝ) * g.Vref) T (RT.after g.tStable (RT.records 0 (l.map fun c => (c.t, f c)))) ↔
      RT.Exceeds ((V : ℝ) * v.Vrms) T (RT.after v.tStable (RT.records 0 (l.map fun c => (c.t, f c * b.Vbase)))) := by
    intro V T
    rw [hm, records_scale, after_scale, ← vref_volts hs hV, exceeds_scale hV, hs.tStable]
  constructor
  · rintro ⟨z, hz, he⟩
    obtain ⟨y, hy, rfl⟩ := List.mem_map.1 hz
    obtain ⟨kk, d, k1, k2, k3, _⟩ := z1 y hy
    exact ⟨kk, d, y.Vthr, y.tThr, k1, k2, k3, (key _ _).1 he⟩
  · rintro ⟨kk, d, V, T, k1, k2, k3, he⟩
    obtain ⟨y, hy, j1, j2, _⟩ := z2 kk d k1
    refine ⟨zoneR y, List.mem_map_of_mem hy, ?_⟩
    show RT.Exceeds ((y.Vthr : ℝ) * g.Vref) y.tThr _
    rw [reads_unique j1 k2, reads_unique j2 k3]
    exact (key _ _).2 he

/-- C130, high voltage: the same with the `HVRT` block, above instead of below. -/
theorem C130_hv_trip_as_configured (hb : construct (template m) file id kw = .ok x) (hf : file id = some c) (hst : start intOk x.setup = .ok v)
    (hp : PlainBlocks file c) (hs : Starts v b g h) (hV : 0 < b.Vbase) {body : Body} (hbl : blockFor file c "HVRT" = some body)
    {k : Eval.Cls} {f : Call k → ℝ} (hsee : Sees k g f) (l : List (Call k)) (hok : Ok k g h l) :
    (Eval.run k g h l).rt.hv.trip = true ↔
      ∃ key d V T, (key, Leaf.level d) ∈ body ∧ Reads d "V_threshold" V ∧ Reads d "t_threshold" T ∧
        RT.ExceedsHigh ((V : ℝ) * v.Vrms) T (RT.after v.tStable (RT.records 0 (l.map fun c => (c.t, f c * b.Vbase)))) := by
  obtain ⟨hi, _, e1, _⟩ := C130_starts_fresh hb hf hst hp hs
  obtain ⟨b', q1, q2⟩ := start_levels hb hf hst (Or.inr rfl) hbl
  rw [if_neg (by decide +kernel)] at q2
  obtain ⟨z1, z2, _⟩ := zones_of_block q1 q2
  have hz : h.rt.hv.zones = v.vrt.hv.map zoneR := by obtain ⟨vv, vw, refs, w, e⟩ := hs.rt; rw [e]; rfl
  rw [Eval.C96_hv_trip_iff hsee hi e1 l hok, hz]
  have hm : (l.map fun c => (c.t, f c * b.Vbase)) = (l.map fun c => (c.t, f c)).map fun x => (x.1, x.2 * b.Vbase) := by simp
  have key : ∀ V T : ℚ, RT.ExceedsHigh ((V : ℝ) * g.Vref) T (RT.after g.tStable (RT.records 0 (l.map fun c => (c.t, f c)))) ↔
      RT.ExceedsHigh ((V : ℝ) * v.Vrms) T (RT.after v.tStable (RT.records 0 (l.map fun c => (c.t, f c * b.Vbase)))) := by
    intro V T
    rw [hm, records_scale, after_scale, ← vref_volts hs hV, exceedsHigh_scale hV, hs.tStable]
  constructor
  · rintro ⟨z, hz, he⟩
    obtain ⟨y, hy, rfl⟩ := List.mem_map.1 hz
    obtain ⟨kk, d, k1, k2, k3, _⟩ := z1 y hy
    exact ⟨kk, d, y.Vthr, y.tThr, k1, k2, k3, (key _ _).1 he⟩
  · rintro ⟨kk, d, V, T, k1, k2, k3, he⟩
    obtain ⟨y, hy, j1, j2, _⟩ := z2 kk d k1
    refine ⟨zoneR y, List.mem_map_of_mem hy, ?_⟩
    show RT.ExceedsHigh ((y.Vthr : ℝ) * g.Vref) y.tThr _
    rw [reads_unique j1 k2, reads_unique j2 k3]
    exact (key _ _).2 he

/-- C130: as long as the measured voltage stays between the highest low-voltage and the lowest high-voltage threshold of the configuration, the DER stays connected. -/
theorem C130_healthy_as_configured (hb : construct (template m) file id kw = .ok x) (hf : file id = some c) (hst : start intOk x.setup = .ok v)
    (hp : PlainBlocks file c) (hs : Starts v b g h) (hV : 0 < b.Vbase) {lb hbk : Body} (hbl : blockFor file c "LVRT" = some lb) (hbh : blockFor file c "HVRT" = some hbk)
    {k : Eval.Cls} {f : Call k → ℝ} (hsee : Sees k g f) (l : List (Call k)) (hok : Ok k g h l)
    (hl : ∀ key d V, (key, Leaf.level d) ∈ lb → Reads d "V_threshold" V → ∀ c ∈ l, (V : ℝ) * v.Vrms ≤ f c * b.Vbase)
    (hh : ∀ key d V, (key, Leaf.level d) ∈ hbk → Reads d "V_threshold" V → ∀ c ∈ l, f c * b.Vbase ≤ (V : ℝ) * v.Vrms) :
    (Eval.run k g h l).rt.connected = true := by
  obtain ⟨hi, _, _, e3⟩ := C130_starts_fresh hb hf hst hp hs
  refine (Eval.C96_healthy_stays_connected hsee hi e3 l hok fun c hc => ?_).1
  obtain ⟨vv, vw, refs, w, e⟩ := hs.rt
  rw [e]
  constructor
  · obtain ⟨b', q1, q2⟩ := start_levels hb hf hst (Or.inl rfl) hbl
    rw [if_pos rfl] at q2
    intro z hz
    obtain ⟨y, hy, rfl⟩ := List.mem_map.1 hz
    obtain ⟨kk, d, k1, k2, _⟩ := (zones_of_block q1 q2).1 y hy
    have := hl kk d _ k1 k2 c hc
    rw [← vref_volts hs hV] at this
    exact le_of_mul_le_mul_right this hV
  · obtain ⟨b', q1, q2⟩ := start_levels hb hf hst (Or.inr rfl) hbh
    rw [if_neg (by decide +kernel)] at q2
    intro z hz
    obtain ⟨y, hy, rfl⟩ := List.mem_map.1 hz
    obtain ⟨kk, d, k1, k2, _⟩ := (zones_of_block q1 q2).1 y hy
    have := hh kk d _ k1 k2 c hc
    rw [← vref_volts hs hV] at this
    exact le_of_mul_le_mul_right this hV

/-- C130: the accepted frequency tables are ordered, and the low-frequency function uses the configured frequencies: level 2 of `LFRT` lies strictly above level 1, and so does level 2 of `HFRT`. -/
theorem C130_accepted_frequency_levels (hb : construct (template m) file id kw = .ok x) (hf : file id = some c) (hst : start intOk x.setup = .ok v)
    {lb hbk : Body} (hbl : blockFor file c "LFRT" = some lb) (hbh : blockFor file c "HFRT" = some hbk) :
    (∃ d1 d2 F1 F2, lb.lookup "1" = some (.level d1) ∧ lb.lookup "2" = some (.level d2) ∧ Reads d1 "F_LF" F1 ∧ Reads d2 "F_LF" F2 ∧ F1 < F2) ∧
    (∃ d1 d2 F1 F2, hbk.lookup "1" = some (.level d1) ∧ hbk.lookup "2" = some (.level d2) ∧ Reads d1 "F_HF" F1 ∧ Reads d2 "F_HF" F2 ∧ F1 < F2) ∧
    List.Forall₂ (fun (kv : String × Leaf) (z : RT.LfZone ℚ) => ∃ d, kv.2 = .level d ∧ Reads d "F_LF" z.F) lb v.lf := by
  obtain ⟨_, _, _, _, h5⟩ := start_ok hst
  have hsrc := (C67_source (construct_setup hb) hf).2.1
  unfold frtInit at h5
  obtain ⟨lfb, h1, h5⟩ := bind_ok h5
  obtain ⟨hfb, h2, h5⟩ := bind_ok h5
  obtain ⟨_, _, h5⟩ := bind_ok h5
  obtain ⟨inst, _, h5⟩ := bind_ok h5
  obtain ⟨_, h3, h5⟩ := bind_ok h5
  obtain ⟨_, h4, h6⟩ := bind_ok h5
  clear h5
  have e1 : blockFor file c "LFRT" = some lfb := by
    unfold blockFor
    rw [← hsrc "LFRT" (by simp)]
    exact need_ok h1
  have e2 : blockFor file c "HFRT" = some hfb := by
    unfold blockFor
    rw [← hsrc "HFRT" (by simp)]
    exact need_ok h2
  rw [hbl, Option.some.injEq] at e1
  rw [hbh, Option.some.injEq] at e2
  subst e1
  subst e2
  have ord : ∀ (b : Body) (key : String) (u : Unit), checkOrder b key = .ok u →
      ∃ d1 d2 F1 F2, b.lookup "1" = some (.level d1) ∧ b.lookup "2" = some (.level d2) ∧ Reads d1 key F1 ∧ Reads d2 key F2 ∧ F1 < F2 := by
    intro b key u hu
    unfold checkOrder at hu
    split at hu
    · rename_i d2 d1 q2 q1
      obtain ⟨x2, r2, hu⟩ := bind_ok hu
      obtain ⟨x1, r1, hu⟩ := bind_ok hu
      split_ifs at hu with hlt
      exact ⟨d1, d2, x1, x2, q1, q2, levelNum_ok r1, levelNum_ok r2, hlt⟩
    all_goals simp at hu
  refine ⟨ord _ _ _ h3, ord _ _ _ h4, ?_⟩
  refine (mapM_forall2 h6).imp ?_
  rintro ⟨key, lf⟩ z e
  unfold readLf at e
  split at e
  · simp at e
  · rename_i d hd
    obtain ⟨F, f1, e⟩ := bind_ok e
    obtain ⟨t, f2, e⟩ := bind_ok e
    obtain ⟨ts, _, e⟩ := bind_ok e
    simp only [pure, Except.pure, Except.ok.injEq] at e
    subst e
    exact ⟨d, hd, levelNum_ok f1⟩

/-- C130: every table the constructor accepts is feasible: low-voltage thresholds in descending order between 0 and the rated voltage, high-voltage thresholds in
ascending order between the rated voltage and 1.5 times it, time thresholds between 0 and 100 s, modes known, delays not below their minimum. -/
theorem C130_accepted_settings_feasible (hb : construct (template m) file id kw = .ok x) (hf : file id = some c) (hst : start intOk x.setup = .ok v)
    {lb hbk : Body} (hbl : blockFor file c "LVRT" = some lb) (hbh : blockFor file c "HVRT" = some hbk) :
    (∀ key d, (key, Leaf.level d) ∈ lb → ∃ V T, Reads d "V_threshold" V ∧ Reads d "t_threshold" T ∧ 0 < V ∧ V < 1 ∧ 0 < T ∧ T < 100 ∧
      (d "mode" = some (.str "mandatory_operation") ∨ d "mode" = some (.str "momentary_cessation"))) ∧
    (∀ key d, (key, Leaf.level d) ∈ hbk → ∃ V T, Reads d "V_threshold" V ∧ Reads d "t_threshold" T ∧ 1 < V ∧ V < 3 / 2 ∧ 0 < T ∧ T < 100 ∧
      (d "mode" = some (.str "mandatory_operation") ∨ d "mode" = some (.str "momentary_cessation"))) ∧
    (lb.Pairwise fun x y => ∀ d d' V V', x.2 = .level d → y.2 = .level d' → Reads d "V_threshold" V → Reads d' "V_threshold" V' → V' ≤ V) ∧
    (hbk.Pairwise fun x y => ∀ d d' V V', x.2 = .level d → y.2 = .level d' → Reads d "V_threshold" V → Reads d' "V_threshold" V' → V ≤ V') ∧
    1 / 120 ≤ v.vrt.disc ∧ 1 / 10 ≤ v.vrt.reco := by
  obtain ⟨_, _, _, h4, _⟩ := start_ok hst
  obtain ⟨_, _, _, _, _, _, _, _, _, _, _, _, hck⟩ := vrtInit_ok h4
  obtain ⟨fl, fh, f3, f4⟩ := (RT.C25_check_accepts_iff_feasible _ _ _ _ _).1 hck
  have mode : ∀ (d : String → Option PVal) (mm : RT.Mode), levelMode d = .ok mm → mm = .mandatory ∨ mm = .cessation →
      d "mode" = some (.str "mandatory_operation") ∨ d "mode" = some (.str "momentary_cessation") := by
    intro d mm h1 h2
    unfold levelMode at h1
    split at h1 <;> simp only [Except.ok.injEq, reduceCtorEq] at h1
    · rename_i s hs
      rw [hs]
      split_ifs at h1 with c1 c2
      · left; rw [c1]
      · right; rw [c2]
      · subst h1; simp at h2
    · subst h1; simp at h2
  refine ⟨?_, ?_, ?_, ?_, f3, f4⟩
  · obtain ⟨b', q1, q2⟩ := start_levels hb hf hst (Or.inl rfl) hbl
    rw [if_pos rfl] at q2
    intro key d hm
    obtain ⟨z, hz, j1, j2, _, j4⟩ := (zones_of_block q1 q2).2.1 key d hm
    exact ⟨z.Vthr, z.tThr, j1, j2, (fl.range z hz).1, (fl.range z hz).2.1, (fl.time z hz).1, (fl.time z hz).2, mode d _ j4 (fl.mode z hz)⟩
  · obtain ⟨b', q1, q2⟩ := start_levels hb hf hst (Or.inr rfl) hbh
    rw [if_neg (by decide +kernel)] at q2
    intro key d hm
    obtain ⟨z, hz, j1, j2, _, j4⟩ := (zones_of_block q1 q2).2.1 key d hm
    exact ⟨z.Vthr, z.tThr, j1, j2, (fh.range z hz).2.1, (fh.range z hz).2.2, (fh.time z hz).1, (fh.time z hz).2, mode d _ j4 (fh.mode z hz)⟩
  · obtain ⟨b', q1, q2⟩ := start_levels hb hf hst (Or.inl rfl) hbl
    rw [if_pos rfl] at q2
    exact zones_order q1 q2 (fun V V' => V' ≤ V) fl.order
  · obtain ⟨b', q1, q2⟩ := start_levels hb hf hst (Or.inr rfl) hbh
    rw [if_neg (by decide +kernel)] at q2
    exact zones_order q1 q2 (fun V V' => V ≤ V') fh.order

/-! ### Modes -/

theorem zone_no_mc (Vref V t : ℝ) (z : RT.Zone ℝ) (trip : Bool) (hz : z.mode ≠ .cessation) :
    ((RT.lvZone Vref V t z trip false).1.mode ≠ .cessation ∧ (RT.lvZone Vref V t z trip false).2.2 = false) ∧
    ((RT.hvZone Vref V t z trip false).1.mode ≠ .cessation ∧ (RT.hvZone Vref V t z trip false).2.2 = false) := by
  unfold RT.lvZone RT.hvZone
  constructor <;> split_ifs <;> simp_all

theorem loop_no_mc {body : RT.Zone ℝ → Bool → Bool → RT.Zone ℝ × Bool × Bool}
    (hb : ∀ z trip, z.mode ≠ .cessation → (body z trip false).1.mode ≠ .cessation ∧ (body z trip false).2.2 = false) (zs : List (RT.Zone ℝ)) (trip : Bool)
    (hz : ∀ z ∈ zs, z.mode ≠ .cessation) :
    (RT.loopZones body zs trip false).2.2 = false ∧ ∀ z ∈ (RT.loopZones body zs trip false).1, z.mode ≠ .cessation := by
  induction zs generalizing trip with
  | nil => exact ⟨rfl, by simp [RT.loopZones]⟩
  | cons z zs ih =>
    obtain ⟨a1, a2⟩ := hb z trip (hz z (by simp))
    obtain ⟨b1, b2⟩ := ih (body z trip false).2.1 (fun y hy => hz y (by simp [hy]))
    simp only [RT.loopZones, a2]
    refine ⟨b1, ?_⟩
    intro y hy
    rcases List.mem_cons.1 hy with rfl | hy
    · exact a1
    · exact b2 y hy

theorem run_no_mc (ts Vref : ℝ) (s : RT.VRT ℝ) (hmc : s.mc = false) (hz : ∀ z ∈ s.zones, z.mode ≠ .cessation) (l : List (ℝ × ℝ)) :
    (RT.lvRun ts Vref s l).mc = false ∧ (RT.hvRun ts Vref s l).mc = false := by
  have one : ∀ (s : RT.VRT ℝ) (x : ℝ × ℝ), s.mc = false → (∀ z ∈ s.zones, z.mode ≠ .cessation) →
      ((RT.lvrt ts Vref x.2 x.1 s).mc = false ∧ ∀ z ∈ (RT.lvrt ts Vref x.2 x.1 s).zones, z.mode ≠ .cessation) ∧
      ((RT.hvrt ts Vref x.2 x.1 s).mc = false ∧ ∀ z ∈ (RT.hvrt ts Vref x.2 x.1 s).zones, z.mode ≠ .cessation) := by
    intro s x h1 h2
    unfold RT.lvrt RT.hvrt
    split_ifs
    · rw [h1]
      exact ⟨loop_no_mc (fun z trip hz => (zone_no_mc _ _ _ z trip hz).1) _ _ h2, loop_no_mc (fun z trip hz => (zone_no_mc _ _ _ z trip hz).2) _ _ h2⟩
    · exact ⟨⟨h1, h2⟩, ⟨h1, h2⟩⟩
  constructor
  · induction l generalizing s with
    | nil => exact hmc
    | cons x l ih => exact ih _ (one s x hmc hz).1.1 (one s x hmc hz).1.2
  · induction l generalizing s with
    | nil => exact hmc
    | cons x l ih => exact ih _ (one s x hmc hz).2.1 (one s x hmc hz).2.2

/-- C130: a DER none of whose low-voltage levels has the mode `momentary_cessation` never enters low-voltage momentary cessation; the same for high voltage. -/
theorem C130_cessation_only_if_configured (hb : construct (template m) file id kw = .ok x) (hf : file id = some c) (hst : start intOk x.setup = .ok v)
    (hs : Starts v b g h) {n : String} (hn : n = "LVRT" ∨ n = "HVRT") {body : Body} (hbl : blockFor file c n = some body)
    (hmode : ∀ key d, (key, Leaf.level d) ∈ body → d "mode" ≠ some (.str "momentary_cessation"))
    {k : Eval.Cls} {f : Call k → ℝ} (hsee : Sees k g f) (l : List (Call k)) (hok : Ok k g h l) :
    (if n = "LVRT" then (Eval.run k g h l).rt.lv.mc else (Eval.run k g h l).rt.hv.mc) = false := by
  obtain ⟨b', q1, q2⟩ := start_levels hb hf hst hn hbl
  obtain ⟨vv, vw, refs, w, e⟩ := hs.rt
  obtain ⟨ins, r1, r2⟩ := Eval.run_rt hsee l h hok
  obtain ⟨s1, s2, _⟩ := RT.run_vrt g.rt.unit (RT.strip h.rt) ins
  rw [← r2] at s1 s2
  have hnc : ∀ z ∈ (if n = "LVRT" then v.vrt.lv else v.vrt.hv).map zoneR, z.mode ≠ .cessation := by
    intro z hz hc
    obtain ⟨y, hy, rfl⟩ := List.mem_map.1 hz
    obtain ⟨key, d, k1, _, _, _, k5⟩ := (zones_of_block q1 q2).1 y hy
    have hc' : y.mode = .cessation := hc
    rw [hc'] at k5
    refine hmode key d k1 ?_
    unfold levelMode at k5
    split at k5 <;> simp only [Except.ok.injEq, reduceCtorEq] at k5
    rename_i s hs
    rw [hs]
    split_ifs at k5 with c1 c2
    rw [c2]
  rcases hn with rfl | rfl
  · rw [if_pos rfl] at hnc ⊢
    have : (Eval.run k g h l).rt.lv = RT.lvRun g.tStable g.Vref h.rt.lv (RT.records h.rt.rtLock (RT.samples ins)) := by
      have := s1; rw [if_pos (by rw [e]; rfl)] at this; exact this
    rw [this]
    refine (run_no_mc _ _ _ ?_ ?_ _).1
    · rw [e]; rfl
    · rw [e]; exact hnc
  · rw [if_neg (by decide +kernel)] at hnc ⊢
    have : (Eval.run k g h l).rt.hv = RT.hvRun g.tStable g.Vref h.rt.hv (RT.records h.rt.rtLock (RT.samples ins)) := by
      have := s2; rw [if_pos (by rw [e]; rfl)] at this; exact this
    rw [this]
    refine (run_no_mc _ _ _ ?_ ?_ _).2
    · rw [e]; rfl
    · rw [e]; exact hnc

/-! ### The default settings -/

/-- C130: a DER whose configuration says nothing about low-voltage ride-through trips iff the voltage was below 0.88 times the rated voltage for more than 5 s, below
0.7 times for more than 3.5 s or below 0.5 times for more than 1 s. -/
theorem C130_default_lv_trip (hb : construct (template m) file id kw = .ok x) (hf : file id = some c) (hst : start intOk x.setup = .ok v)
    (hp : PlainBlocks file c) (hs : Starts v b g h) (hV : 0 < b.Vbase) (hnone : c.rt "LVRT" = none)
    {k : Eval.Cls} {f : Call k → ℝ} (hsee : Sees k g f) (l : List (Call k)) (hok : Ok k g h l) :
    (Eval.run k g h l).rt.lv.trip = true ↔
      ∃ p ∈ [((88 / 100 : ℝ), (5 : ℝ)), (7 / 10, 7 / 2), (1 / 2, 1)],
        RT.Exceeds (p.1 * v.Vrms) p.2 (RT.after v.tStable (RT.records 0 (l.map fun c => (c.t, f c * b.Vbase)))) := by
  have hbl : blockFor file c "LVRT" = some [("1", vLevel (88/100) 5 2 true "mandatory_operation"), ("2", vLevel (7/10) (35/10) 1 true "mandatory_operation"),
      ("3", vLevel (1/2) 1 (1/2) false "momentary_cessation")] := by
    unfold blockFor; rw [hnone]; rfl
  rw [C130_lv_trip_as_configured hb hf hst hp hs hV hbl hsee l hok]
  constructor
  · rintro ⟨key, d, V, T, hm, hVr, hTr, he⟩
    simp only [List.mem_cons, List.not_mem_nil, or_false, Prod.mk.injEq] at hm
    rcases hm with ⟨_, e⟩ | ⟨_, e⟩ | ⟨_, e⟩ <;> unfold vLevel at e <;> rw [Leaf.level.injEq] at e <;> subst e
    · have e1 : V = 88/100 := reads_unique hVr ⟨_, rfl, rfl⟩
      have e2 : T = 5 := reads_unique hTr ⟨_, rfl, rfl⟩
      subst e1 e2
      refine ⟨(88/100, 5), by simp, ?_⟩
      push_cast at he
      exact he
    · have e1 : V = 7/10 := reads_unique hVr ⟨_, rfl, rfl⟩
      have e2 : T = 35/10 := reads_unique hTr ⟨_, rfl, rfl⟩
      subst e1 e2
      refine ⟨(7/10, 7/2), by simp, ?_⟩
      push_cast at he
      norm_num at he ⊢
      exact he
    · have e1 : V = 1/2 := reads_unique hVr ⟨_, rfl, rfl⟩
      have e2 : T = 1 := reads_unique hTr ⟨_, rfl, rfl⟩
      subst e1 e2
      refine ⟨(1/2, 1), by simp, ?_⟩
      push_cast at he
      exact he
  · rintro ⟨p, hm, he⟩
    simp only [List.mem_cons, List.not_mem_nil, or_false] at hm
    rcases hm with rfl | rfl | rfl
    · refine ⟨"1", _, 88/100, 5, by simp only [List.mem_cons]; left; rfl, ⟨_, rfl, rfl⟩, ⟨_, rfl, rfl⟩, ?_⟩
      push_cast
      exact he
    · refine ⟨"2", _, 7/10, 35/10, by simp only [List.mem_cons]; right; left; rfl, ⟨_, rfl, rfl⟩, ⟨_, rfl, rfl⟩, ?_⟩
      push_cast
      norm_num at he ⊢
      exact he
    · refine ⟨"3", _, 1/2, 1, by simp only [List.mem_cons]; right; right; left; rfl, ⟨_, rfl, rfl⟩, ⟨_, rfl, rfl⟩, ?_⟩
      push_cast
      exact he

/-- C130: a DER whose configuration says nothing about high-voltage ride-through trips iff the voltage was above 1.06 times the rated voltage for more than 1 s or
above 1.12 times for more than 0.5 s; and it never enters momentary cessation for high voltage. -/
theorem C130_default_hv_trip (hb : construct (template m) file id kw = .ok x) (hf : file id = some c) (hst : start intOk x.setup = .ok v)
    (hp : PlainBlocks file c) (hs : Starts v b g h) (hV : 0 < b.Vbase) (hnone : c.rt "HVRT" = none)
    {k : Eval.Cls} {f : Call k → ℝ} (hsee : Sees k g f) (l : List (Call k)) (hok : Ok k g h l) :
    ((Eval.run k g h l).rt.hv.trip = true ↔
      ∃ p ∈ [((106 / 100 : ℝ), (1 : ℝ)), (112 / 100, 1 / 2)],
        RT.ExceedsHigh (p.1 * v.Vrms) p.2 (RT.after v.tStable (RT.records 0 (l.map fun c => (c.t, f c * b.Vbase))))) ∧
    (Eval.run k g h l).rt.hv.mc = false := by
  have hbl : blockFor file c "HVRT" = some [("1", vLevel (106/100) 1 (1/2) false "mandatory_operation"), ("2", vLevel (112/100) (1/2) (1/2) false "mandatory_operation")] := by
    unfold blockFor; rw [hnone]; rfl
  refine ⟨?_, ?_⟩
  · rw [C130_hv_trip_as_configured hb hf hst hp hs hV hbl hsee l hok]
    constructor
    · rintro ⟨key, d, V, T, hm, hVr, hTr, he⟩
      simp only [List.mem_cons, List.not_mem_nil, or_false, Prod.mk.injEq] at hm
      rcases hm with ⟨_, e⟩ | ⟨_, e⟩ <;> unfold vLevel at e <;> rw [Leaf.level.injEq] at e <;> subst e
      · have e1 : V = 106/100 := reads_unique hVr ⟨_, rfl, rfl⟩
        have e2 : T = 1 := reads_unique hTr ⟨_, rfl, rfl⟩
        subst e1 e2
        refine ⟨(106/100, 1), by simp, ?_⟩
        push_cast at he
        exact he
      · have e1 : V = 112/100 := reads_unique hVr ⟨_, rfl, rfl⟩
        have e2 : T = 1/2 := reads_unique hTr ⟨_, rfl, rfl⟩
        subst e1 e2
        refine ⟨(112/100, 1/2), by simp, ?_⟩
        push_cast at he
        exact he
    · rintro ⟨p, hm, he⟩
      simp only [List.mem_cons, List.not_mem_nil, or_false] at hm
      rcases hm with rfl | rfl
      · refine ⟨"1", _, 106/100, 1, by simp only [List.mem_cons]; left; rfl, ⟨_, rfl, rfl⟩, ⟨_, rfl, rfl⟩, ?_⟩
        push_cast
        exact he
      · refine ⟨"2", _, 112/100, 1/2, by simp only [List.mem_cons]; right; left; rfl, ⟨_, rfl, rfl⟩, ⟨_, rfl, rfl⟩, ?_⟩
        push_cast
        exact he
  · have := C130_cessation_only_if_configured hb hf hst hs (Or.inr rfl) hbl (by
      intro key d hm
      simp only [List.mem_cons, List.not_mem_nil, or_false, Prod.mk.injEq] at hm
      rcases hm with ⟨_, e⟩ | ⟨_, e⟩ <;> unfold vLevel at e <;> rw [Leaf.level.injEq] at e <;> subst e <;> simp) hsee l hok
    rw [if_neg (by decide +kernel)] at this
    exact this

/-! ### Delays -/

theorem delayNum_ok {bd : Body} {k : String} {q : ℚ} (h : delayNum bd k = .ok q) : ∃ u, bd.lookup k = some (.val u) ∧ num u = some q := by
  unfold delayNum at h
  cases hl : bd.lookup k with
  | none => simp [hl] at h
  | some lf =>
    cases lf with
    | level d => simp [hl] at h
    | val u =>
      cases hn : num u with
      | none => simp [hl, hn] at h
      | some y =>
        simp only [hl, hn, Except.ok.injEq] at h
        exact ⟨u, rfl, by rw [hn, h]⟩

/-- C130: the cessation delay, the restore delay and the restore flag of the simulation are those of the `VRT_delays` block; what the block does not mention is
0.01 s, 1.75 s and off. -/
theorem C130_delays_as_configured (hb : construct (template m) file id kw = .ok x) (hf : file id = some c) (hst : start intOk x.setup = .ok v)
    (hs : Starts v b g h) {bd : Body} (hbl : blockFor file c "VRT_delays" = some bd) :
    (∀ u, bd.lookup "output_cessation_delay" = some (.val u) → ∃ q : ℚ, num u = some q ∧ g.discDelay = q) ∧
    (bd.lookup "output_cessation_delay" = none → g.discDelay = 1 / 100) ∧
    (∀ u, bd.lookup "output_restore_delay" = some (.val u) → ∃ q : ℚ, num u = some q ∧ g.recoDelay = q) ∧
    (bd.lookup "output_restore_delay" = none → g.recoDelay = 175 / 100) ∧
    (∀ u, bd.lookup "restore_Vdc" = some (.val u) → g.restoreVdc = truthy u) ∧
    (bd.lookup "restore_Vdc" = none → g.restoreVdc = false) := by
  obtain ⟨_, _, _, h4, _⟩ := start_ok hst
  obtain ⟨_, _, vd, _, _, r3, _, _, r6, r7, r8, _⟩ := vrtInit_ok h4
  obtain ⟨bd', b2, q1, q2, q3⟩ := C67_delays (construct_setup hb) hf
  have e1 : bd' = bd := by
    unfold blockFor at hbl
    rw [hbl, Option.some.injEq] at q1
    exact q1.symm
  subst e1
  have e2 : vd = b2 := by rw [r3, Option.some.injEq] at q2; exact q2
  subst e2
  obtain ⟨u1, p1, p2⟩ := delayNum_ok r6
  obtain ⟨u2, p3, p4⟩ := delayNum_ok r7
  rw [q3] at p1 p3
  rw [hs.disc, hs.reco, hs.restore]
  refine ⟨?_, ?_, ?_, ?_, ?_, ?_⟩
  · intro u hu
    rw [hu] at p1
    have : u1 = u := by simpa using p1.symm
    exact ⟨_, this ▸ p2, rfl⟩
  · intro hu
    rw [hu] at p1
    have e : u1 = .float (1/100) := by simpa [List.lookup] using p1.symm
    rw [e] at p2
    have : v.vrt.disc = 1/100 := by simpa [num] using p2.symm
    rw [this]; norm_num
  · intro u hu
    rw [hu] at p3
    have : u2 = u := by simpa using p3.symm
    exact ⟨_, this ▸ p4, rfl⟩
  · intro hu
    rw [hu] at p3
    have e : u2 = .float (175/100) := by simpa [List.lookup] using p3.symm
    rw [e] at p4
    have : v.vrt.reco = 175/100 := by simpa [num] using p4.symm
    rw [this]; norm_num
  · intro u hu
    unfold delayFlag at r8
    rw [q3, hu] at r8
    simpa using r8.symm
  · intro hu
    unfold delayFlag at r8
    rw [q3, hu] at r8
    simpa [List.lookup, truthy] using r8.symm

/-! ### Preset marks -/

theorem zone_breached (Vref V t : ℝ) (z : RT.Zone ℝ) (trip mc : Bool) (hz : z.breach = true) :
    (RT.lvZone Vref V t z trip mc).1.breach = true ∧ (RT.lvZone Vref V t z trip mc).2.1 = trip := by
  unfold RT.lvZone
  rw [if_neg (by simp [hz])]
  split_ifs <;> exact ⟨hz, rfl⟩

theorem run_breached (ts Vref : ℝ) (s : RT.VRT ℝ) (hz : ∀ z ∈ s.zones, z.breach = true) (l : List (ℝ × ℝ)) : (RT.lvRun ts Vref s l).trip = s.trip := by
  have loop : ∀ (V t : ℝ) (zs : List (RT.Zone ℝ)) (trip mc : Bool), (∀ z ∈ zs, z.breach = true) →
      (RT.loopZones (RT.lvZone Vref V t) zs trip mc).2.1 = trip ∧ ∀ z ∈ (RT.loopZones (RT.lvZone Vref V t) zs trip mc).1, z.breach = true := by
    intro V t zs
    induction zs with
    | nil => intro trip mc _; exact ⟨rfl, by simp [RT.loopZones]⟩
    | cons z zs ih =>
      intro trip mc hz
      obtain ⟨a1, a2⟩ := zone_breached Vref V t z trip mc (hz z (by simp))
      obtain ⟨b1, b2⟩ := ih (RT.lvZone Vref V t z trip mc).2.1 (RT.lvZone Vref V t z trip mc).2.2 (fun y hy => hz y (by simp [hy]))
      simp only [RT.loopZones]
      refine ⟨b1.trans a2, ?_⟩
      intro y hy
      rcases List.mem_cons.1 hy with rfl | hy
      · exact a1
      · exact b2 y hy
  induction l generalizing s with
  | nil => rfl
  | cons x l ih =>
    have : (RT.lvrt ts Vref x.2 x.1 s).trip = s.trip ∧ ∀ z ∈ (RT.lvrt ts Vref x.2 x.1 s).zones, z.breach = true := by
      unfold RT.lvrt
      split_ifs
      · exact loop _ _ _ _ _ hz
      · exact ⟨rfl, hz⟩
    exact (ih _ this.2).trans this.1

/-- C130, the limit of the claim: the constructor also accepts blocks that preset `threshold_breach`. If every low-voltage level of the block does, the DER never
trips on low voltage, whatever the voltage. -/
theorem C130_preset_breach_disables (hb : construct (template m) file id kw = .ok x) (hf : file id = some c) (hst : start intOk x.setup = .ok v)
    (hs : Starts v b g h) {body : Body} (hbl : blockFor file c "LVRT" = some body)
    (hpre : ∀ key d, (key, Leaf.level d) ∈ body → ∃ u, d "threshold_breach" = some u ∧ truthy u = true)
    {k : Eval.Cls} {f : Call k → ℝ} (hsee : Sees k g f) (l : List (Call k)) (hok : Ok k g h l) :
    (Eval.run k g h l).rt.lv.trip = false := by
  obtain ⟨b', q1, q2⟩ := start_levels hb hf hst (Or.inl rfl) hbl
  rw [if_pos rfl] at q2
  obtain ⟨vv, vw, refs, w, e⟩ := hs.rt
  obtain ⟨ins, r1, r2⟩ := Eval.run_rt hsee l h hok
  obtain ⟨s1, _⟩ := RT.run_vrt g.rt.unit (RT.strip h.rt) ins
  rw [← r2] at s1
  have : (Eval.run k g h l).rt.lv = RT.lvRun g.tStable g.Vref h.rt.lv (RT.records h.rt.rtLock (RT.samples ins)) := by
    have := s1; rw [if_pos (by rw [e]; rfl)] at this; exact this
  rw [this, run_breached]
  · rw [e]; rfl
  · rw [e]
    intro z hz
    obtain ⟨y, hy, rfl⟩ := List.mem_map.1 hz
    show y.breach = true
    obtain ⟨x', hx', e2⟩ := (mapM_mem q2).1 y hy
    obtain ⟨x0, hx0, e1⟩ := (mapM_mem q1).1 x' hx'
    obtain ⟨d, d', a1, a2, _, _, _, a6⟩ := fillLevel_reads e1
    obtain ⟨d'', b1, _, _, _, _, _, u, b7, b8⟩ := readZone_ok e2
    have hd : d'' = d' := by rw [a2] at b1; exact (Leaf.level.inj b1).symm
    subst hd
    obtain ⟨u', c1, c2⟩ := hpre x0.1 d (by rw [← a1]; exact hx0)
    rw [a6, c1] at b7
    have : u = u' := by simpa using b7.symm
    rw [← b8, this]
    exact c2

end

/-! ### Concrete cases -/

/-- A file with a DER that has its own low-voltage block, one without ride-through settings, and one with a preset mark. -/
def rideFile : File
  | "50" => exFile "50"
  | "LV" => exFile "LV"
  | "plain" => some (cfgOf [("parent_config", .str ""), ("verbosity", .str "WARNING")]
      [("basic_specs", [("model_type", .str "SolarPVDERThreePhase")]), ("inverter_ratings", [("Srated", .float 50000), ("Vrmsrated", .float 177)])] [])
  | "marked" => some (cfgOf [("parent_config", .str ""), ("verbosity", .str "WARNING")]
      [("basic_specs", [("model_type", .str "SolarPVDERThreePhase")]), ("inverter_ratings", [("Srated", .float 50000), ("Vrmsrated", .float 177)])]
      [("LVRT", ⟨some [("1", .level (dictOf [("V_threshold", .float (8/10)), ("t_threshold", .float 2), ("t_min_ridethrough", .float 1), ("mode", .str "mandatory_operation"),
        ("threshold_breach", .bool true)]))], none⟩)])
  | _ => none

/-- Level numbers for which `int(level)` works. -/
def digit (s : String) : Bool := s ∈ ["0", "1", "2", "3", "4", "5", "6", "7", "8", "9"]

/-- The constructor result of one DER of this file. -/
def ride (id : String) : Except Err Start := do
  let x ← construct (template .three) rideFile id (kwOf [("gridModel", .grid 1)])
  start digit x.setup

/-- The three DERs are constructed; the first uses its own block, the second the defaults, the third its marked block. -/
theorem C130_example_constructs :
    (ride "50").map (fun v => (v.vrt.lv, v.vrt.hv.map (·.Vthr), v.tStable, v.Vrms)) = .ok ([⟨8/10, 2, 1, .mandatory, 0, false⟩], [106/100, 112/100], 1/2, 177) ∧
    (ride "plain").map (fun v => (v.vrt.lv.map fun z => (z.Vthr, z.tThr), v.vrt.disc, v.vrt.reco, v.vrt.restore, v.meas)) =
      .ok ([(88/100, 5), (7/10, 35/10), (1/2, 1)], 1/100, 175/100, false, .filtered) ∧
    (ride "plain").map (fun v => (v.tStable, v.Vrms)) = .ok (1/2, 177) ∧
    (ride "marked").map (fun v => v.vrt.lv.map (·.breach)) = .ok [true] := by
  decide +kernel

theorem plain_blocks {c : Cfg} (hc : rideFile "plain" = some c) : PlainBlocks rideFile c ∧ c.rt "LVRT" = none := by
  have hc' : c = cfgOf [("parent_config", .str ""), ("verbosity", .str "WARNING")]
      [("basic_specs", [("model_type", .str "SolarPVDERThreePhase")]), ("inverter_ratings", [("Srated", .float 50000), ("Vrmsrated", .float 177)])] [] := by
    have e : rideFile "plain" = some (cfgOf [("parent_config", .str ""), ("verbosity", .str "WARNING")]
      [("basic_specs", [("model_type", .str "SolarPVDERThreePhase")]), ("inverter_ratings", [("Srated", .float 50000), ("Vrmsrated", .float 177)])] []) := rfl
    rw [e] at hc
    exact (Option.some.inj hc).symm
  have hn : ∀ n, c.rt n = none := by intro n; rw [hc']; rfl
  refine ⟨⟨?_, ?_, ?_⟩, hn _⟩
  · intro body hb
    have hbl : blockFor rideFile c "LVRT" = some [("1", vLevel (88/100) 5 2 true "mandatory_operation"), ("2", vLevel (7/10) (35/10) 1 true "mandatory_operation"),
        ("3", vLevel (1/2) 1 (1/2) false "momentary_cessation")] := by
      unfold blockFor; rw [hn]; rfl
    rw [hbl, Option.some.injEq] at hb
    subst hb
    intro kv hm d hd
    simp only [List.mem_cons, List.not_mem_nil, or_false] at hm
    rcases hm with rfl | rfl | rfl <;> unfold vLevel at hd <;> rw [Leaf.level.injEq] at hd <;> subst hd <;> exact ⟨Or.inr ⟨_, rfl, rfl⟩, Or.inr ⟨_, rfl, rfl⟩⟩
  · intro body hb
    have hbl : blockFor rideFile c "HVRT" = some [("1", vLevel (106/100) 1 (1/2) false "mandatory_operation"), ("2", vLevel (112/100) (1/2) (1/2) false "mandatory_operation")] := by
      unfold blockFor; rw [hn]; rfl
    rw [hbl, Option.some.injEq] at hb
    subst hb
    intro kv hm d hd
    simp only [List.mem_cons, List.not_mem_nil, or_false] at hm
    rcases hm with rfl | rfl <;> unfold vLevel at hd <;> rw [Leaf.level.injEq] at hd <;> subst hd <;> exact ⟨Or.inr ⟨_, rfl, rfl⟩, Or.inr ⟨_, rfl, rfl⟩⟩
  · intro body hb kv hm d hd
    have hb' : rtTemplate "LFRT" = ⟨some body, none⟩ := by
      unfold blockFor designated at hb
      rw [hn] at hb
      simpa [rtTemplate] using hb
    simp [rtTemplate] at hb'
    subst hb'
    simp only [List.mem_cons, List.not_mem_nil, or_false] at hm
    rcases hm with rfl | rfl <;> unfold fLevel at hd <;> rw [Leaf.level.injEq] at hd <;> subst hd <;> exact ⟨_, rfl, rfl⟩

/-- A concrete case of C130: the DER `plain` in loop mode (base voltage 500 V, filtered measurement); its filtered voltage is 100 V (0.56 of the rated 177 V) at
1 s, 3 s and 5 s. It trips: level `2` of the default table allows 3.5 s. -/
theorem C130_example_trips (y : Ode.ThreePhase.V → ℝ) (hy : y .Vrms = 1 / 5) :
    ∃ x c v g h, construct (template .three) rideFile "plain" (kwOf [("gridModel", .grid 1)]) = .ok x ∧ rideFile "plain" = some c ∧ start digit x.setup = .ok v ∧
      PlainBlocks rideFile c ∧ Starts v ⟨500, 50000, 377⟩ g h ∧ c.rt "LVRT" = none ∧ Sees Eval.three g (fun c => c.y .Vrms) ∧
      Ok Eval.three g h ([1, 3, 5].map fun t => ⟨false, y, t, 1, 1, 1, 377⟩) ∧
      (Eval.run Eval.three g h ([1, 3, 5].map fun t => ⟨false, y, t, 1, 1, 1, 377⟩)).rt.lv.trip = true := by
  have hex := C130_example_constructs.2.1
  have hex2 := C130_example_constructs.2.2.1
  obtain ⟨x, hx, v, hv, hm⟩ : ∃ x, construct (template .three) rideFile "plain" (kwOf [("gridModel", .grid 1)]) = .ok x ∧ ∃ v, start digit x.setup = .ok v ∧
      (fun v : Start => (v.vrt.lv.map fun z => (z.Vthr, z.tThr), v.vrt.disc, v.vrt.reco, v.vrt.restore, v.meas, v.tStable, v.Vrms)) v =
        ([(88/100, 5), (7/10, 35/10), (1/2, 1)], 1/100, 175/100, false, .filtered, 1/2, 177) := by
    unfold ride at hex hex2
    cases hx : construct (template .three) rideFile "plain" (kwOf [("gridModel", .grid 1)]) with
    | error e => rw [hx] at hex; simp [bind, Except.bind, Except.map] at hex
    | ok x =>
      rw [hx] at hex hex2
      cases hv : start digit x.setup with
      | error e => simp [bind, Except.bind, Except.map, hv] at hex
      | ok v =>
        simp only [bind, Except.bind, Except.map, hv, Except.ok.injEq, Prod.mk.injEq] at hex hex2
        refine ⟨x, rfl, v, hv, ?_⟩
        simp only [Prod.mk.injEq]
        exact ⟨hex.1, hex.2.1, hex.2.2.1, hex.2.2.2.1, hex.2.2.2.2, hex2.1, hex2.2⟩
  simp only [Prod.mk.injEq] at hm
  obtain ⟨_, _, _, m4, m5, m6, m7⟩ := hm
  obtain ⟨c, hc⟩ : ∃ c, rideFile "plain" = some c := ⟨_, rfl⟩
  obtain ⟨hp, hl⟩ := plain_blocks hc
  let b : Circuit.Base := ⟨500, 50000, 377⟩
  let g : SCfg := { Eval.exG Ode.exPar false with
    tStable := v.tStable, Vref := (v.Vrms : ℝ) * Real.sqrt 2 / b.Vbase / Real.sqrt 2, discDelay := v.vrt.disc, recoDelay := v.vrt.reco, restoreVdc := v.vrt.restore,
    meas := v.meas }
  let h : Hid := { Eval.exH (Eval.exG Ode.exPar false) (Eval.exEv (Eval.exG Ode.exPar false)) with rt := v.rt false false Eval.exRT.refs Eval.exRT.w }
  have hs : Starts v b g h := ⟨⟨_, _, _, _, rfl⟩, rfl, rfl, rfl, rfl, rfl, rfl⟩
  have hsee : Sees Eval.three g (fun c => c.y .Vrms) := Eval.C96_sees_filtered m5
  have hno : ∀ o ∈ Eval.exOps, o.isRemoval = false := by
    intro o ho
    simp only [Eval.exOps, List.mem_cons, List.not_mem_nil, or_false] at ho
    rcases ho with rfl | rfl | rfl <;> rfl
  have good0 := Eval.ex_good Eval.three Ode.exPar false (Or.inl rfl) Eval.exOps hno
  have good : Eval.Good Eval.three g h :=
    { override := good0.override, msg := good0.msg, ev := good0.ev, dc := good0.dc, lf := rfl, ramp := m4
      meas := by show v.meas ≠ .invalid; rw [m5]; exact Eval.Meas.noConfusion, filt := fun _ => Or.inr (fun y => by simp [Eval.three]) }
  have hok := Eval.C99_no_exception good (([1, 3, 5] : List ℝ).map fun t => (⟨false, y, t, 1, 1, 1, 377⟩ : Call Eval.three))
  refine ⟨x, c, v, g, h, hx, hc, hv, hp, hs, hl, hsee, hok, ?_⟩
  rw [C130_default_lv_trip hx hc hv hp hs (by norm_num [b]) hl hsee _ hok]
  refine ⟨(7 / 10, 7 / 2), by simp, ?_⟩
  have hrec : RT.after (v.tStable : ℝ) (RT.records 0 ((([1, 3, 5] : List ℝ).map fun t => (⟨false, y, t, 1, 1, 1, 377⟩ : Call Eval.three)).map
      fun c => (c.t, c.y .Vrms * b.Vbase))) = [(1, 100), (3, 100), (5, 100)] := by
    simp only [List.map_cons, List.map_nil, RT.records, RT.after, m6, hy, b]
    norm_num
  rw [hrec]
  refine ⟨[], [(3, 100)], [], (1, 100), (5, 100), rfl, ?_, ?_, ?_, ?_⟩
  · rw [m7]; norm_num
  · rw [m7]; norm_num
  · intro z hz
    simp only [List.mem_singleton] at hz
    rw [hz, m7]; norm_num
  · norm_num

end Config
end PvDer
