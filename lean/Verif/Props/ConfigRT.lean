import Verif.Props.Config
import Verif.Props.RTSettings
import Mathlib.Tactic.Linarith
import Mathlib.Tactic.NormNum
import Mathlib.Data.Real.Basic
/-!
C67: ride-through configuration.
-/
namespace PvDer
namespace Config

/-! ### C67 -/

/-- The settings a ride-through entry designates: its inline `config`, else the shared block its `config_id` names. -/
def designated (file : File) (n : RTNode) : Option Body :=
  n.config <|> n.configId.bind fun id => (file id).bind fun c => c.config

theorem pickRT_ok {file : File} {n : RTNode} {o : Option Body} (h : pickRT file n = .ok o) : o = designated file n := by
  unfold pickRT at h
  unfold designated
  obtain ⟨cf, ci⟩ := n
  cases cf with
  | some b =>
    have : o = some b := by cases ci <;> simp at h <;> exact h.symm
    simp [this]
  | none =>
    cases ci with
    | none => simp at h; simp [← h]
    | some id =>
      simp only at h ⊢
      cases hf : file id with
      | none => simp [hf] at h
      | some c =>
        cases hc : c.config with
        | none => simp [hf, hc] at h
        | some b => simp [hf, hc] at h; simp [hf, hc, ← h]

theorem need_ok {o : Option Body} {b : Body} (h : need o = .ok b) : o = some b := by
  unfold need at h
  cases o <;> simp_all

theorem mapM_fill {b b' : Body} (h : b.mapM fillLevel = .ok b') :
    b'.map Prod.fst = b.map Prod.fst ∧ ∀ lvl, (∃ d, b.lookup lvl = some (.level d) ∧
      b'.lookup lvl = some (.level (fill (fill d "t_start" (.float 0)) "threshold_breach" (.bool false)))) ∨ (b.lookup lvl = none ∧ b'.lookup lvl = none) := by
  induction b generalizing b' with
  | nil =>
    simp [pure, Except.pure] at h
    subst h
    simp
  | cons kv b ih =>
    rw [List.mapM_cons] at h
    obtain ⟨x, hx, h⟩ := bind_ok h
    obtain ⟨y, hy, h⟩ := bind_ok h
    simp only [pure, Except.pure, Except.ok.injEq] at h
    subst h
    obtain ⟨i1, i2⟩ := ih hy
    obtain ⟨k, lf⟩ := kv
    cases lf with
    | val v => simp [fillLevel] at hx
    | level d =>
      simp only [fillLevel, Except.ok.injEq] at hx
      subst hx
      refine ⟨by simp [i1], ?_⟩
      intro lvl
      by_cases hl : lvl = k
      · subst hl
        left
        exact ⟨d, by simp [List.lookup], by simp [List.lookup]⟩
      · have : (lvl == k) = false := by simpa using hl
        simpa [List.lookup, this] using i2 lvl

/-- **C67 (source of the settings).** After a successful set-up the own configuration's ride-through entry decides if there is one, else the template; its inline `config` is used if present, else the block
named by `config_id`. For the frequency settings and the delay flags of `FRT_delays` the instance holds exactly these settings. -/
theorem C67_source {m : Sim.Mt} {file : File} {id : String} {kw : Args} {s : Setup} {c : Cfg} (h : setupDER (template m) file id kw = .ok s) (hf : file id = some c) :
    (∀ n, s.design.rt n = (c.rt n).getD (rtTemplate n)) ∧
    (∀ n ∈ ["LFRT", "HFRT", "FRT_delays"], s.rt n = designated file ((c.rt n).getD (rtTemplate n))) ∧
    (∀ n ∈ ["LVRT", "HVRT"], ∃ b b', designated file ((c.rt n).getD (rtTemplate n)) = some b ∧ s.rt n = some b' ∧ b.mapM fillLevel = .ok b') ∧
    (∃ b, designated file ((c.rt "VRT_delays").getD (rtTemplate "VRT_delays")) = some b ∧
      s.rt "VRT_delays" = some (fillDelays b ((rtTemplate "VRT_delays").config.getD []))) := by
  unfold setupDER at h
  obtain ⟨⟨c', par⟩, hc, h⟩ := bind_ok h
  obtain ⟨_, _, h⟩ := bind_ok h
  obtain ⟨_, _, h⟩ := bind_ok h
  obtain ⟨d, hd, h⟩ := bind_ok h
  obtain ⟨rt, hrt, h⟩ := bind_ok h
  obtain ⟨_, _, h⟩ := bind_ok h
  cases h
  obtain ⟨c0, par0, hf', hpar, _, hcrt, hprt, _, _⟩ := createConfig_ok hc
  rw [hf] at hf'
  cases hf'
  have hdr : d.rt = resolveRT c' par := by
    unfold updateConfig at hd
    obtain ⟨_, _, hd⟩ := bind_ok hd
    obtain ⟨r, hr, hd⟩ := bind_ok hd
    obtain ⟨z, hz, hd⟩ := bind_ok hd
    cases hd
    rfl
  have hp0 : ∀ n, par.rt n = none := by
    intro n
    rw [hprt]
    unfold parentConfig at hpar
    split at hpar
    · cases hpar; rfl
    · simp at hpar
    · split at hpar
      · simp at hpar
      · cases hpar; rfl
  have hres : ∀ n, d.rt n = (c.rt n).getD (rtTemplate n) := by
    intro n
    rw [hdr]
    unfold resolveRT
    rw [hcrt, hp0]
    cases c.rt n <;> simp
  unfold updateRT at hrt
  obtain ⟨lv0, h1, hrt⟩ := bind_ok hrt
  obtain ⟨hv0, h2, hrt⟩ := bind_ok hrt
  obtain ⟨vd0, h3, hrt⟩ := bind_ok hrt
  obtain ⟨lf, h4, hrt⟩ := bind_ok hrt
  obtain ⟨hf', h5, hrt⟩ := bind_ok hrt
  obtain ⟨fd, h6, hrt⟩ := bind_ok hrt
  obtain ⟨lv1, h7, hrt⟩ := bind_ok hrt
  obtain ⟨lv, h8, hrt⟩ := bind_ok hrt
  obtain ⟨hv1, h9, hrt⟩ := bind_ok hrt
  obtain ⟨hv, h10, hrt⟩ := bind_ok hrt
  obtain ⟨vd, h11, hrt⟩ := bind_ok hrt
  simp only [pure, Except.pure, Except.ok.injEq] at hrt
  refine ⟨hres, ?_, ?_, ?_⟩
  · intro n hn
    simp only
    subst hrt
    simp only [List.mem_cons, List.not_mem_nil, or_false] at hn
    rcases hn with rfl | rfl | rfl
    · rw [← hres, ← pickRT_ok h4]; rfl
    · rw [← hres, ← pickRT_ok h5]; rfl
    · rw [← hres, ← pickRT_ok h6]; rfl
  · intro n hn
    simp only
    subst hrt
    simp only [List.mem_cons, List.not_mem_nil, or_false] at hn
    rcases hn with rfl | rfl
    · exact ⟨lv1, lv, by rw [← hres, ← pickRT_ok h1, need_ok h7], rfl, h8⟩
    · exact ⟨hv1, hv, by rw [← hres, ← pickRT_ok h2, need_ok h9], rfl, h10⟩
  · refine ⟨vd, by rw [← hres, ← pickRT_ok h3, need_ok h11], ?_⟩
    subst hrt
    rfl

/-- **C67 (timer fields).** For `LVRT` and `HVRT` the instance has the levels of the designated settings, every setting present there is kept unchanged, and only a missing `t_start` or `threshold_breach` is
filled in, with `0.0` and `False`. -/
theorem C67_fill {m : Sim.Mt} {file : File} {id : String} {kw : Args} {s : Setup} {c : Cfg} (h : setupDER (template m) file id kw = .ok s) (hf : file id = some c)
    {n : String} (hn : n = "LVRT" ∨ n = "HVRT") :
    ∃ b b', designated file ((c.rt n).getD (rtTemplate n)) = some b ∧ s.rt n = some b' ∧ b'.map Prod.fst = b.map Prod.fst ∧
      ∀ lvl k, lvl ∈ b.map Prod.fst → setting b' lvl k =
        (setting b lvl k <|> if k = "t_start" then some (.float 0) else if k = "threshold_breach" then some (.bool false) else none) := by
  obtain ⟨b, b', h1, h2, h3⟩ := (C67_source h hf).2.2.1 n (by simpa using hn)
  obtain ⟨e1, e2⟩ := mapM_fill h3
  refine ⟨b, b', h1, h2, e1, ?_⟩
  intro lvl k hl
  rcases e2 lvl with ⟨d, hd, hd'⟩ | ⟨hd, _⟩
  · simp only [setting, hd, hd', fill]
    by_cases h1 : k = "t_start"
    · subst h1
      simp
      cases d "t_start" <;> simp
    · by_cases h2 : k = "threshold_breach"
      · subst h2
        simp
        cases d "threshold_breach" <;> simp
      · simp [h1, h2]
  · obtain ⟨kv, hkv, rfl⟩ := List.mem_map.1 hl
    exact absurd hd (by
      rw [List.lookup_eq_none_iff]
      intro hh
      simpa using hh kv hkv)

theorem lookup_append_single {b : Body} {k q : String} {l : Leaf} (h : k ∉ b.map Prod.fst) :
    (b ++ [(k, l)]).lookup q = if q = k then some l else b.lookup q := by
  induction b with
  | nil =>
    by_cases hq : q = k
    · simp [List.lookup, hq]
    · have : (q == k) = false := by simpa using hq
      simp [List.lookup, hq, this]
  | cons kv b ih =>
    obtain ⟨k', l'⟩ := kv
    simp only [List.map_cons, List.mem_cons, not_or] at h
    simp only [List.cons_append, List.lookup]
    rw [ih h.2]
    by_cases hq : q = k'
    · subst hq
      simp [Ne.symm h.1]
    · have : (q == k') = false := by simpa using hq
      simp [this]

theorem mem_keys_iff {b : Body} {q : String} : q ∈ b.map Prod.fst ↔ (b.lookup q).isSome := by
  induction b with
  | nil => simp
  | cons kv b ih =>
    obtain ⟨k', l'⟩ := kv
    by_cases hq : q = k'
    · simp [List.lookup, hq]
    · have : (q == k') = false := by simpa using hq
      simp [List.lookup, this, hq, ← ih]

theorem fillDelays_lookup (t : Body) : ∀ (b : Body) (q : String), (fillDelays b t).lookup q = (b.lookup q <|> t.lookup q) := by
  unfold fillDelays
  induction t with
  | nil => intro b q; cases h : b.lookup q <;> simp [h]
  | cons kv t ih =>
    intro b q
    obtain ⟨k, l⟩ := kv
    rw [List.foldl_cons, ih]
    by_cases hk : k ∈ b.map Prod.fst
    · simp only [hk, if_true]
      by_cases hq : q = k
      · subst hq
        obtain ⟨x, hx⟩ := Option.isSome_iff_exists.1 (mem_keys_iff.1 hk)
        simp [hx]
      · have : (q == k) = false := by simpa using hq
        simp [List.lookup, this]
    · simp only [hk, if_false]
      rw [lookup_append_single hk]
      by_cases hq : q = k
      · subst hq
        have : b.lookup q = none := by
          have := mt mem_keys_iff.2 hk
          cases hbl : b.lookup q with
          | none => rfl
          | some x => rw [hbl] at this; exact absurd rfl this
        simp [List.lookup, this]
      · have : (q == k) = false := by simpa using hq
        simp [List.lookup, this, hq]

/-- **C67 (delays).** In `VRT_delays` every entry of the designated settings is kept; a missing cessation delay, restoration delay or DC restoration flag is taken from the template; nothing else is added. -/
theorem C67_delays {m : Sim.Mt} {file : File} {id : String} {kw : Args} {s : Setup} {c : Cfg} (h : setupDER (template m) file id kw = .ok s) (hf : file id = some c) :
    ∃ b b', designated file ((c.rt "VRT_delays").getD (rtTemplate "VRT_delays")) = some b ∧ s.rt "VRT_delays" = some b' ∧
      ∀ k, b'.lookup k = (b.lookup k <|>
        List.lookup k [("output_cessation_delay", .val (.float (1/100))), ("output_restore_delay", .val (.float (175/100))), ("restore_Vdc", .val (.bool false))]) := by
  obtain ⟨b, h1, h2⟩ := (C67_source h hf).2.2.2
  exact ⟨b, _, h1, h2, fun k => fillDelays_lookup _ b k⟩

/-- **C67 (validation).** After a successful set-up every voltage and frequency level has all its settings. -/
theorem C67_complete {m : Sim.Mt} {file : File} {id : String} {kw : Args} {s : Setup} (h : setupDER (template m) file id kw = .ok s)
    {n : String} (hn : n ∈ ["LVRT", "HVRT", "LFRT", "HFRT"]) :
    ∃ b, s.rt n = some b ∧ ∀ kv ∈ b, ∃ d, kv.2 = .level d ∧ ∀ k ∈ levelKeys n, (d k).isSome := by
  unfold setupDER at h
  obtain ⟨⟨c', par⟩, hc, h⟩ := bind_ok h
  obtain ⟨_, _, h⟩ := bind_ok h
  obtain ⟨_, _, h⟩ := bind_ok h
  obtain ⟨d, hd, h⟩ := bind_ok h
  obtain ⟨rt, hrt, h⟩ := bind_ok h
  obtain ⟨_, hck, h⟩ := bind_ok h
  cases h
  simp only
  have key : ∀ l : List String, (l.forM fun n => (do
      let b ← need (rt n)
      if checkLevels (levelKeys n) b then pure () else Except.error Err.valueError : Except Err Unit)) = .ok () →
      ∀ n ∈ l, ∃ b, rt n = some b ∧ checkLevels (levelKeys n) b = true := by
    intro l
    induction l with
    | nil => simp
    | cons x l ih =>
      intro hl n hn
      have hl : (_ >>= fun _ => l.forM _ : Except Err Unit) = .ok () := hl
      obtain ⟨_, h1, h2⟩ := bind_ok hl
      rcases List.mem_cons.1 hn with rfl | hn
      · obtain ⟨b, hb, h1⟩ := bind_ok h1
        refine ⟨b, need_ok hb, ?_⟩
        by_contra hne
        simp [hne] at h1
      · exact ih h2 n hn
  obtain ⟨b, hb, hck⟩ := key _ hck n hn
  refine ⟨b, hb, ?_⟩
  intro kv hkv
  unfold checkLevels at hck
  rw [List.all_eq_true] at hck
  have := hck kv hkv
  obtain ⟨k, lf⟩ := kv
  cases lf with
  | val v =>
    exfalso
    simp only [List.mem_cons, List.not_mem_nil, or_false] at hn
    rcases hn with rfl | rfl | rfl | rfl <;> simp [levelKeys] at this
  | level d =>
    exact ⟨d, rfl, fun q hq => (List.all_eq_true.1 this) q hq⟩

/-- The example: the block designated by `config_id` is used, its missing timer is filled in, and the template serves the other names. -/
example : (setupDER (template .three) exFile "50" (kwOf [])).map (fun s => ((s.rt "LVRT").map fun b => (setting b "1" "V_threshold", setting b "1" "t_start", setting b "2" "V_threshold"),
      (s.rt "HVRT").map fun b => setting b "2" "V_threshold")) = .ok (some (some (.float (8/10)), some (.float 0), none), some (some (.float (112/100)))) := by
  decide +kernel

/-- **C67 (inline over shared).** An inline `config` is used whatever `config_id` says, even if no such block exists. -/
theorem C67_inline_wins (file : File) (b : Body) (ci : Option String) : pickRT file ⟨some b, ci⟩ = .ok (some b) := by
  cases ci <;> rfl

/-- **C67 (dangling reference).** Without inline `config`, a `config_id` that names no block of the file is an error, never the default. -/
theorem C67_dangling (file : File) (id : String) (h : file id = none) : pickRT file ⟨none, some id⟩ = .error .keyError := by
  simp [pickRT, h]

/-! ### The default settings -/

/-- The text of a mode as the ride-through logic distinguishes it. -/
def modeOf : PVal → RT.Mode
  | .str "mandatory_operation" => .mandatory
  | .str "momentary_cessation" => .cessation
  | _ => .other

/-- The voltage zone a level describes. -/
def zoneOf : Leaf → Option (RT.Zone ℚ)
  | .val _ => none
  | .level d => do
    pure ⟨← (← d "V_threshold") |> num, ← (← d "t_threshold") |> num, ← (← d "t_min_ridethrough") |> num, modeOf (← d "mode"), ← (← d "t_start") |> num,
      (← d "threshold_breach") == .bool true⟩

/-- The voltage zones of a settings block. -/
def zonesOf (b : Body) : Option (List (RT.Zone ℚ)) := b.mapM fun kv => zoneOf kv.2

/-- A number of a settings block. -/
def numOf (b : Body) (k : String) : Option ℚ :=
  match b.lookup k with
  | some (.val v) => num v
  | _ => none

/-- **C67 (the defaults are good).** The default settings can be read as voltage zones; these pass the tool's own settings check with the tool's limits (1.5 p.u., 100 s, 1/120 s, 0.1 s: defaults.py), no zone must trip
before its minimum ride-through time, timers are stopped and nothing is marked. -/
theorem C67_defaults_pass : ∃ bl bh bd lv hv dd rd, (rtTemplate "LVRT").config = some bl ∧ (rtTemplate "HVRT").config = some bh ∧ (rtTemplate "VRT_delays").config = some bd ∧
    zonesOf bl = some lv ∧ zonesOf bh = some hv ∧ numOf bd "output_cessation_delay" = some dd ∧ numOf bd "output_restore_delay" = some rd ∧
    RT.checkVRT RT.exLim lv hv dd rd = .ok () ∧ lv.length = 3 ∧ hv.length = 2 ∧
    ∀ z ∈ lv ++ hv, 0 < z.tMin ∧ z.tMin ≤ z.tThr ∧ z.tStart = 0 ∧ z.breach = false := by
  refine ⟨(rtTemplate "LVRT").config.getD [], (rtTemplate "HVRT").config.getD [], (rtTemplate "VRT_delays").config.getD [], (zonesOf ((rtTemplate "LVRT").config.getD [])).getD [],
    (zonesOf ((rtTemplate "HVRT").config.getD [])).getD [], 1/100, 175/100, rfl, rfl, rfl, rfl, rfl, by decide +kernel, by decide +kernel, by decide +kernel, by decide +kernel, by decide +kernel,
    by decide +kernel⟩

/-- **C67 (precedence).** Own settings before those of the parent configuration before the template. -/
theorem C67_precedence (c par : Cfg) (n : String) : resolveRT c par n = ((c.rt n <|> par.rt n)).getD (rtTemplate n) := by
  unfold resolveRT
  cases c.rt n <;> cases par.rt n <;> rfl

/-- **C67 (check of a configuration).** `check_DER_config` rejects a configuration, with `KeyError`, exactly if a component of the class is missing and it names no parent configuration (or an empty one). -/
theorem C67_check_rejects (T : Template) (c : Cfg) : checkConfig T c = .error .keyError ↔
    (∃ k ∈ T.map Prod.fst, c.entries k = none) ∧ (c.entries "parent_config" = none ∨ ∃ v, c.entries "parent_config" = some (.leaf v) ∧ truthy v = false) := by
  unfold checkConfig
  by_cases h : (T.map Prod.fst).all (fun k => (c.entries k).isSome) = true
  · rw [if_pos h]
    rw [List.all_eq_true] at h
    constructor
    · intro hc; exact absurd hc (by simp)
    · rintro ⟨⟨k, hk, hn⟩, _⟩
      have := h k hk
      rw [hn] at this
      simp at this
  · rw [if_neg h]
    have hm : ∃ k ∈ T.map Prod.fst, c.entries k = none := by
      by_contra hn
      refine h (List.all_eq_true.2 fun k hk => ?_)
      cases he : c.entries k with
      | none => exact absurd ⟨k, hk, he⟩ hn
      | some _ => rfl
    cases hp : c.entries "parent_config" with
    | none => simp only [hm, true_and, true_or]
    | some e =>
      cases e with
      | comp d => simp
      | leaf v =>
        cases ht : truthy v
        · exact ⟨fun _ => ⟨hm, Or.inr ⟨v, rfl, ht⟩⟩, fun _ => by simp [ht]⟩
        · simp [ht]

/-- … and otherwise accepts it. -/
theorem C67_check_total (T : Template) (c : Cfg) : checkConfig T c = .ok () ∨ checkConfig T c = .error .keyError := by
  unfold checkConfig
  split
  · exact Or.inl rfl
  · split
    · exact Or.inr rfl
    · exact Or.inl rfl
    · split
      · exact Or.inl rfl
      · exact Or.inr rfl

end Config
end PvDer
