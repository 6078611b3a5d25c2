import Verif.Lemmas.LogRead
import Mathlib.Logic.Encodable.Basic
import Mathlib.Logic.Equiv.List

/-!
# C122: the log can be read back, and when it cannot

`LogUtil.get_logs()` splits the file into lines and the lines at `::`.  So it returns what was written exactly if no item of a record contains a line break or `::` or ends with a
colon — and if every record of level ERROR carries JSON.  The tool itself writes records of level ERROR without JSON (an unknown DER identifier, DER_components.py 118; an
argument of the wrong type, 185): after one of them nothing at all can be read from the file.
-/

namespace PvDer
namespace LogRead

@[simp] theorem kTime_ne_kName : (kTime = kName) = False := eq_false (by decide +kernel)
@[simp] theorem kTime_ne_kFile : (kTime = kFile) = False := eq_false (by decide +kernel)
@[simp] theorem kTime_ne_kFunc : (kTime = kFunc) = False := eq_false (by decide +kernel)
@[simp] theorem kTime_ne_kLevel : (kTime = kLevel) = False := eq_false (by decide +kernel)
@[simp] theorem kTime_ne_kMsg : (kTime = kMsg) = False := eq_false (by decide +kernel)
@[simp] theorem kTime_ne_kThread : (kTime = kThread) = False := eq_false (by decide +kernel)
@[simp] theorem kTime_ne_kProc : (kTime = kProc) = False := eq_false (by decide +kernel)
@[simp] theorem kName_ne_kTime : (kName = kTime) = False := eq_false (by decide +kernel)
@[simp] theorem kName_ne_kFile : (kName = kFile) = False := eq_false (by decide +kernel)
@[simp] theorem kName_ne_kFunc : (kName = kFunc) = False := eq_false (by decide +kernel)
@[simp] theorem kName_ne_kLevel : (kName = kLevel) = False := eq_false (by decide +kernel)
@[simp] theorem kName_ne_kMsg : (kName = kMsg) = False := eq_false (by decide +kernel)
@[simp] theorem kName_ne_kThread : (kName = kThread) = False := eq_false (by decide +kernel)
@[simp] theorem kName_ne_kProc : (kName = kProc) = False := eq_false (by decide +kernel)
@[simp] theorem kFile_ne_kTime : (kFile = kTime) = False := eq_false (by decide +kernel)
@[simp] theorem kFile_ne_kName : (kFile = kName) = False := eq_false (by decide +kernel)
@[simp] theorem kFile_ne_kFunc : (kFile = kFunc) = False := eq_false (by decide +kernel)
@[simp] theorem kFile_ne_kLevel : (kFile = kLevel) = False := eq_false (by decide +kernel)
@[simp] theorem kFile_ne_kMsg : (kFile = kMsg) = False := eq_false (by decide +kernel)
@[simp] theorem kFile_ne_kThread : (kFile = kThread) = False := eq_false (by decide +kernel)
@[simp] theorem kFile_ne_kProc : (kFile = kProc) = False := eq_false (by decide +kernel)
@[simp] theorem kFunc_ne_kTime : (kFunc = kTime) = False := eq_false (by decide +kernel)
@[simp] theorem kFunc_ne_kName : (kFunc = kName) = False := eq_false (by decide +kernel)
@[simp] theorem kFunc_ne_kFile : (kFunc = kFile) = False := eq_false (by decide +kernel)
@[simp] theorem kFunc_ne_kLevel : (kFunc = kLevel) = False := eq_false (by decide +kernel)
@[simp] theorem kFunc_ne_kMsg : (kFunc = kMsg) = False := eq_false (by decide +kernel)
@[simp] theorem kFunc_ne_kThread : (kFunc = kThread) = False := eq_false (by decide +kernel)
@[simp] theorem kFunc_ne_kProc : (kFunc = kProc) = False := eq_false (by decide +kernel)
@[simp] theorem kLevel_ne_kTime : (kLevel = kTime) = False := eq_false (by decide +kernel)
@[simp] theorem kLevel_ne_kName : (kLevel = kName) = False := eq_false (by decide +kernel)
@[simp] theorem kLevel_ne_kFile : (kLevel = kFile) = False := eq_false (by decide +kernel)
@[simp] theorem kLevel_ne_kFunc : (kLevel = kFunc) = False := eq_false (by decide +kernel)
@[simp] theorem kLevel_ne_kMsg : (kLevel = kMsg) = False := eq_false (by decide +kernel)
@[simp] theorem kLevel_ne_kThread : (kLevel = kThread) = False := eq_false (by decide +kernel)
@[simp] theorem kLevel_ne_kProc : (kLevel = kProc) = False := eq_false (by decide +kernel)
@[simp] theorem kMsg_ne_kTime : (kMsg = kTime) = False := eq_false (by decide +kernel)
@[simp] theorem kMsg_ne_kName : (kMsg = kName) = False := eq_false (by decide +kernel)
@[simp] theorem kMsg_ne_kFile : (kMsg = kFile) = False := eq_false (by decide +kernel)
@[simp] theorem kMsg_ne_kFunc : (kMsg = kFunc) = False := eq_false (by decide +kernel)
@[simp] theorem kMsg_ne_kLevel : (kMsg = kLevel) = False := eq_false (by decide +kernel)
@[simp] theorem kMsg_ne_kThread : (kMsg = kThread) = False := eq_false (by decide +kernel)
@[simp] theorem kMsg_ne_kProc : (kMsg = kProc) = False := eq_false (by decide +kernel)
@[simp] theorem kThread_ne_kTime : (kThread = kTime) = False := eq_false (by decide +kernel)
@[simp] theorem kThread_ne_kName : (kThread = kName) = False := eq_false (by decide +kernel)
@[simp] theorem kThread_ne_kFile : (kThread = kFile) = False := eq_false (by decide +kernel)
@[simp] theorem kThread_ne_kFunc : (kThread = kFunc) = False := eq_false (by decide +kernel)
@[simp] theorem kThread_ne_kLevel : (kThread = kLevel) = False := eq_false (by decide +kernel)
@[simp] theorem kThread_ne_kMsg : (kThread = kMsg) = False := eq_false (by decide +kernel)
@[simp] theorem kThread_ne_kProc : (kThread = kProc) = False := eq_false (by decide +kernel)
@[simp] theorem kProc_ne_kTime : (kProc = kTime) = False := eq_false (by decide +kernel)
@[simp] theorem kProc_ne_kName : (kProc = kName) = False := eq_false (by decide +kernel)
@[simp] theorem kProc_ne_kFile : (kProc = kFile) = False := eq_false (by decide +kernel)
@[simp] theorem kProc_ne_kFunc : (kProc = kFunc) = False := eq_false (by decide +kernel)
@[simp] theorem kProc_ne_kLevel : (kProc = kLevel) = False := eq_false (by decide +kernel)
@[simp] theorem kProc_ne_kMsg : (kProc = kMsg) = False := eq_false (by decide +kernel)
@[simp] theorem kProc_ne_kThread : (kProc = kThread) = False := eq_false (by decide +kernel)

attribute [local irreducible] kTime kName kFile kFunc kLevel kMsg kThread kProc defaultFmt

/-! ## Specification -/

/-- A record every item of which survives: no line break, no `::`, no colon at the end (allowed in the last item, which has no separator behind it); the time is a date; a message of
level ERROR is JSON with the two keys. -/
structure Readable (L : Lib) (r : Rec) : Prop where
  time : Plain r.time ∧ NoBreak r.time ∧ (L.parse (strip r.time)).isSome
  name : Plain r.name ∧ NoBreak r.name
  file : Plain r.file ∧ NoBreak r.file
  func : Plain r.func ∧ NoBreak r.func
  msg : Plain r.msg ∧ NoBreak r.msg
  thread : Plain r.thread ∧ NoBreak r.thread
  proc : ¬ "::".toList <:+: r.proc ∧ NoBreak r.proc
  json : r.level = .error → ∃ j f g, L.loads (strip r.msg) = some j ∧ L.item j "filename".toList = some f ∧ L.item j "funcName".toList = some g

/-- The entry says what the record says, up to white space around the items; for level ERROR the message is decoded and place of the error is the one given there. -/
structure Says (L : Lib) (r : Rec) (e : Entry L) : Prop where
  time : ∃ d, L.parse (strip r.time) = some d ∧ e kTime = some (.date d)
  name : e kName = some (.text (strip r.name))
  level : e kLevel = some (.text r.level.name)
  thread : e kThread = some (.text (strip r.thread))
  proc : e kProc = some (.text (strip r.proc))
  plain : r.level ≠ .error → e kMsg = some (.text (strip r.msg)) ∧ e kFile = some (.text (strip r.file)) ∧ e kFunc = some (.text (strip r.func))
  error : r.level = .error → ∃ j f g, L.loads (strip r.msg) = some j ∧ L.item j "filename".toList = some f ∧ L.item j "funcName".toList = some g ∧
    e kMsg = some (.json j) ∧ e kFile = some (.text (basename f)) ∧ e kFunc = some (.text (basename g))
  only : ∀ k, k ∉ [kTime, kName, kFile, kFunc, kLevel, kMsg, kThread, kProc] → e k = none

/-! ## One line -/

/-- The entry of the eight items, as text. -/
def base (L : Lib) (a1 a2 a3 a4 a5 a6 a7 a8 : Str) : Entry L :=
  (((((((Entry.set (fun _ => none : Entry L) kTime (.text (strip a1))).set kName (.text (strip a2))).set kFile (.text (strip a3))).set kFunc (.text (strip a4))).set kLevel
        (.text (strip a5))).set kMsg (.text (strip a6))).set kThread (.text (strip a7))).set kProc (.text (strip a8))

theorem fill_eight {L : Lib} (a1 a2 a3 a4 a5 a6 a7 a8 : Str) (more : List Str) :
    fill (L := L) (split defaultSep defaultFmt) (a1 :: a2 :: a3 :: a4 :: a5 :: a6 :: a7 :: a8 :: more) (fun _ => none) = base L a1 a2 a3 a4 a5 a6 a7 a8 := by
  rw [default_header]
  have h := header_strip
  simp only [List.map_cons, List.map_nil, List.cons.injEq, and_true] at h
  obtain ⟨h1, h2, h3, h4, h5, h6, h7, h8⟩ := h
  simp only [fill, h1, h2, h3, h4, h5, h6, h7, h8, base]

/-- The parts of a rendered record whose first items are plain. -/
theorem split_render (r : Rec) (h1 : Plain r.time) (h2 : Plain r.name) (h3 : Plain r.file) (h4 : Plain r.func) :
    split defaultSep r.render = r.time :: r.name :: r.file :: r.func :: r.level.name ::
      split defaultSep (r.msg ++ (defaultSep ++ (r.thread ++ (defaultSep ++ r.proc)))) := by
  have e : r.render = r.time ++ (defaultSep ++ (r.name ++ (defaultSep ++ (r.file ++ (defaultSep ++ (r.func ++ (defaultSep ++ (r.level.name ++ (defaultSep ++
      (r.msg ++ (defaultSep ++ (r.thread ++ (defaultSep ++ r.proc))))))))))))) := by
    simp [Rec.render, Rec.items, List.intercalate, List.intersperse]
  rw [e, split_field sep_ne (plain_clean h1), split_field sep_ne (plain_clean h2), split_field sep_ne (plain_clean h3), split_field sep_ne (plain_clean h4),
    split_field sep_ne (plain_clean (level_plain _))]

theorem render_noBreak (L : Lib) {r : Rec} (h : Readable L r) : NoBreak r.render := by
  intro c hc
  have hs : ∀ c ∈ defaultSep, isBreak c = false := by decide +kernel
  simp only [Rec.render, Rec.items, List.intercalate, List.intersperse, List.flatten_cons, List.flatten_nil, List.append_nil, List.mem_append] at hc
  rcases hc with hc | hc | hc | hc | hc | hc | hc | hc | hc | hc | hc | hc | hc | hc | hc
  · exact h.time.2.1 c hc
  · exact hs c hc
  · exact h.name.2 c hc
  · exact hs c hc
  · exact h.file.2 c hc
  · exact hs c hc
  · exact h.func.2 c hc
  · exact hs c hc
  · exact level_noBreak _ c hc
  · exact hs c hc
  · exact h.msg.2 c hc
  · exact hs c hc
  · exact h.thread.2 c hc
  · exact hs c hc
  · exact h.proc.2 c hc

theorem base_spec (L : Lib) (a1 a2 a3 a4 a5 a6 a7 a8 : Str) : ∀ e, e = base L a1 a2 a3 a4 a5 a6 a7 a8 →
    e kTime = some (.text (strip a1)) ∧ e kName = some (.text (strip a2)) ∧ e kFile = some (.text (strip a3)) ∧ e kFunc = some (.text (strip a4)) ∧
    e kLevel = some (.text (strip a5)) ∧ e kMsg = some (.text (strip a6)) ∧ e kThread = some (.text (strip a7)) ∧ e kProc = some (.text (strip a8)) ∧
    ∀ k, k ∉ [kTime, kName, kFile, kFunc, kLevel, kMsg, kThread, kProc] → e k = none := by
  rintro _ rfl
  refine ⟨?_, ?_, ?_, ?_, ?_, ?_, ?_, ?_, ?_⟩
  all_goals try (simp [base, Entry.set]; done)
  intro k hk
  simp only [List.mem_cons, List.not_mem_nil, or_false, not_or] at hk
  simp [base, Entry.set, hk]

theorem withDate_text {L : Lib} {e : Entry L} {s : Str} {d : L.D} (h : e kTime = some (.text s)) (hd : L.parse s = some d) :
    withDate e = some (e.set kTime (.date d)) := by
  unfold withDate
  rw [h]
  simp only [hd, Option.map_some]

theorem withError_no {L : Lib} {e : Entry L} (h : e kLevel ≠ some (.text "ERROR".toList)) : withError e = some e := by
  unfold withError
  rw [if_neg h]

theorem withError_yes {L : Lib} {e : Entry L} {s f g : Str} {j : L.J} (h : e kLevel = some (.text "ERROR".toList)) (hm : e kMsg = some (.text s)) (hj : L.loads s = some j)
    (hf : L.item j "filename".toList = some f) (hg : L.item j "funcName".toList = some g) (h1 : e kFile ≠ none) (h2 : e kFunc ≠ none) :
    withError e = some (((e.set kMsg (.json j)).set kFile (.text (basename f))).set kFunc (.text (basename g))) := by
  unfold withError
  rw [if_pos h, hm]
  simp only [hj]
  have e1 : (e.set kMsg (.json j)) kFile = e kFile := by rw [Entry.set, if_neg (by simp)]
  rw [e1, if_neg h1, hf]
  simp only [Option.map_some]
  have e2 : ((e.set kMsg (.json j)).set kFile (.text (basename f))) kFunc = e kFunc := by
    rw [Entry.set, if_neg (by simp), Entry.set, if_neg (by simp)]
  rw [e2, if_neg h2, hg]
  simp only [Option.map_some]

theorem level_text {L : Lib} {r : Rec} (hl : r.level ≠ .error) : some (Val.text (L := L) r.level.name) ≠ some (.text "ERROR".toList) := by
  intro hc
  injection hc with hc
  injection hc with hc
  exact hl ((level_error _).1 hc)

/-- Eight (or more) parts with a proper date and not of level ERROR. -/
theorem read_eight {L : Lib} {a1 a2 a3 a4 a6 a7 a8 : Str} {r : Rec} (hl : r.level ≠ .error) {d : L.D} (hd : L.parse (strip a1) = some d) {line : Str} {more : List Str}
    (hsp : split defaultSep line = a1 :: a2 :: a3 :: a4 :: r.level.name :: a6 :: a7 :: a8 :: more) :
    readLine (L := L) defaultSep (split defaultSep defaultFmt) line = some ((base L a1 a2 a3 a4 r.level.name a6 a7 a8).set kTime (.date d)) := by
  unfold readLine
  rw [hsp, fill_eight]
  generalize hb : base L a1 a2 a3 a4 r.level.name a6 a7 a8 = b
  obtain ⟨b1, _, _, _, b5, _⟩ := base_spec L a1 a2 a3 a4 r.level.name a6 a7 a8 b hb.symm
  rw [withDate_text b1 hd, Option.bind_some, withError_no]
  rw [Entry.set, if_neg (by simp), b5, level_strip]
  exact level_text hl

theorem readLine_render {L : Lib} {r : Rec} (h : Readable L r) :
    ∃ e, readLine (L := L) defaultSep (split defaultSep defaultFmt) r.render = some e ∧ Says L r e := by
  obtain ⟨d, hd⟩ := Option.isSome_iff_exists.1 h.time.2.2
  have hsp : split defaultSep r.render = [r.time, r.name, r.file, r.func, r.level.name, r.msg, r.thread, r.proc] := by
    rw [split_render r h.time.1 h.name.1 h.file.1 h.func.1, split_field sep_ne (plain_clean h.msg.1), split_field sep_ne (plain_clean h.thread.1), split_last sep_ne h.proc.1]
  by_cases hl : r.level = .error
  · obtain ⟨j, f, g, hj, hf, hg⟩ := h.json hl
    unfold readLine
    rw [hsp, fill_eight]
    generalize hb : base L r.time r.name r.file r.func r.level.name r.msg r.thread r.proc = b
    obtain ⟨b1, b2, b3, b4, b5, b6, b7, b8, b9⟩ := base_spec L _ _ _ _ _ _ _ _ b hb.symm
    have ne1 : ∀ k, k ≠ kTime → (b.set kTime (.date d)) k = b k := fun k hk => by rw [Entry.set, if_neg hk]
    rw [withDate_text b1 hd, Option.bind_some, withError_yes (s := strip r.msg) (f := f) (g := g) (j := j) (by rw [ne1 _ (by simp), b5, level_strip, hl]; rfl)
      (by rw [ne1 _ (by simp), b6]) hj hf hg (by rw [ne1 _ (by simp), b3]; simp) (by rw [ne1 _ (by simp), b4]; simp)]
    refine ⟨_, rfl, ⟨d, hd, ?_⟩, ?_, ?_, ?_, ?_, fun hn => absurd hl hn, fun _ => ⟨j, f, g, hj, hf, hg, ?_, ?_, ?_⟩, ?_⟩
    · simp [Entry.set]
    · simp [Entry.set, b2]
    · simp [Entry.set, b5, level_strip]
    · simp [Entry.set, b7]
    · simp [Entry.set, b8]
    · simp [Entry.set]
    · simp [Entry.set]
    · simp [Entry.set]
    · intro k hk
      have hk0 := b9 k hk
      simp only [List.mem_cons, List.not_mem_nil, or_false, not_or] at hk
      simp [Entry.set, hk, hk0]
  · rw [read_eight hl hd hsp]
    generalize hb : base L r.time r.name r.file r.func r.level.name r.msg r.thread r.proc = b
    obtain ⟨b1, b2, b3, b4, b5, b6, b7, b8, b9⟩ := base_spec L _ _ _ _ _ _ _ _ b hb.symm
    refine ⟨_, rfl, ⟨d, hd, ?_⟩, ?_, ?_, ?_, ?_, fun _ => ⟨?_, ?_, ?_⟩, fun hn => absurd hn hl, ?_⟩
    · simp [Entry.set]
    · simp [Entry.set, b2]
    · simp [Entry.set, b5, level_strip]
    · simp [Entry.set, b7]
    · simp [Entry.set, b8]
    · simp [Entry.set, b6]
    · simp [Entry.set, b3]
    · simp [Entry.set, b4]
    · intro k hk
      have hk0 := b9 k hk
      simp only [List.mem_cons, List.not_mem_nil, or_false, not_or] at hk
      simp [Entry.set, hk, hk0]

/-! ## Reading back -/

theorem getLogs_eq {L : Lib} (fmt sep : Str) (f : Filter L) (file : Str) :
    getLogs fmt sep f file = Option.map (fun l => l.filter f.keeps) ((fileLines file).mapM (readLine sep (split sep fmt))) := rfl

theorem keeps_none (L : Lib) (es : List (Entry L)) : es.filter (Filter.none : Filter L).keeps = es := List.filter_eq_self.2 fun _ _ => rfl

theorem mapM_forall₂ {α β γ : Type} {f : β → Option γ} {g : α → β} {P : α → γ → Prop} : ∀ (l : List α), (∀ a ∈ l, ∃ c, f (g a) = some c ∧ P a c) →
    ∃ cs, (l.map g).mapM f = some cs ∧ List.Forall₂ P l cs
  | [], _ => ⟨[], rfl, .nil⟩
  | a :: l, h => by
    obtain ⟨c, hc, hp⟩ := h a (by simp)
    obtain ⟨cs, hcs, hps⟩ := mapM_forall₂ l fun b hb => h b (by simp [hb])
    exact ⟨c :: cs, by simp [List.mapM_cons, hc, hcs], .cons hp hps⟩

theorem mapM_none {β γ : Type} {f : β → Option γ} : ∀ {l : List β} {b : β}, b ∈ l → f b = none → l.mapM f = none
  | b :: l, _, .head _, hf => by simp [List.mapM_cons, hf]
  | a :: l, b, .tail _ hb, hf => by
    simp only [List.mapM_cons, mapM_none hb hf]
    cases f a <;> rfl

/-- C122: in a session that starts with an empty file (the default mode) and writes readable records, reading gives exactly one entry for each record of at least the log level, in
the order of writing, that says what the record says. -/
theorem C122_read_back (L : Lib) (level : Nat) (rs : List Rec) (h : ∀ r ∈ rs, level ≤ r.level.num → Readable L r) :
    ∃ es, getLogs (L := L) defaultFmt defaultSep .none (session level [] rs) = some es ∧
      List.Forall₂ (Says L) (rs.filter fun r => level ≤ r.level.num) es := by
  have hl : fileLines (session level [] rs) = (rs.filter fun r => level ≤ r.level.num).map Rec.render := by
    rw [fileLines_session level rs (Or.inl rfl)]
    have : ∀ l : List Rec, (∀ r ∈ l, Readable L r) → (l.flatMap fun r => fileLines (r.render ++ ['\n'])) = l.map Rec.render := by
      intro l
      induction l with
      | nil => intro _; rfl
      | cons r l ih =>
        intro hr
        rw [List.flatMap_cons, ih fun x hx => hr x (by simp [hx]), fileLines_line (render_noBreak L (hr r (by simp)))]
        rfl
    rw [this]
    · rfl
    · intro r hr
      simp only [List.mem_filter, decide_eq_true_eq] at hr
      exact h r hr.1 hr.2
  obtain ⟨es, he, hs⟩ := mapM_forall₂ (f := readLine (L := L) defaultSep (split defaultSep defaultFmt)) (g := Rec.render) (P := Says L)
    (rs.filter fun r => level ≤ r.level.num) (by
      intro r hr
      simp only [List.mem_filter, decide_eq_true_eq] at hr
      exact readLine_render (h r hr.1 hr.2))
  refine ⟨es, ?_, hs⟩
  rw [getLogs_eq, hl, he, Option.map_some, keeps_none]

/-- C122, filtering: a filter dictionary selects exactly the entries that have all its keys with the given values, in order, out of what is read without it; an empty dictionary and
anything that is not a dictionary select everything. -/
theorem C122_filter (L : Lib) (fmt sep : Str) (file : Str) (es : List (Entry L)) (h : getLogs fmt sep .none file = some es) :
    (∀ f : List (Str × Val L), ∃ out, getLogs fmt sep (.dict f) file = some out ∧ out.Sublist es ∧ (∀ e, e ∈ out ↔ e ∈ es ∧ ∀ k v, (k, v) ∈ f → e k = some v)) ∧
    getLogs fmt sep (.dict []) file = some es ∧ getLogs fmt sep .other file = some es := by
  unfold getLogs at h ⊢
  cases hm : (splitlines (universal file)).mapM (readLine (L := L) sep (split sep fmt)) with
  | none => rw [hm] at h; simp at h
  | some es' =>
    rw [hm] at h
    have e : es' = es := by simpa [keeps_none] using h
    subst e
    refine ⟨fun f => ⟨es'.filter (Filter.dict f).keeps, rfl, List.filter_sublist, fun e => ?_⟩, congrArg some (List.filter_eq_self.2 fun _ _ => rfl), congrArg some (List.filter_eq_self.2 fun _ _ => rfl)⟩
    rw [List.mem_filter]
    simp only [Filter.keeps, List.all_eq_true, decide_eq_true_eq, Prod.forall]

/-- C122: no filter can make an unreadable file readable. -/
theorem C122_filter_raises (L : Lib) (fmt sep : Str) (file : Str) (f : Filter L) : getLogs fmt sep f file = none ↔ getLogs (L := L) fmt sep .none file = none := by
  unfold getLogs
  simp only [Option.map_eq_none_iff]

/-- C122: the number of entries read is the number of lines of the file, whatever the file contains. -/
theorem C122_entry_per_line (L : Lib) (fmt sep : Str) (file : Str) (es : List (Entry L)) (h : getLogs fmt sep .none file = some es) :
    es.length = (splitlines (universal file)).length := by
  unfold getLogs at h
  cases hm : (splitlines (universal file)).mapM (readLine (L := L) sep (split sep fmt)) with
  | none => rw [hm] at h; simp at h
  | some es' =>
    rw [hm] at h
    have e : es' = es := by simpa [keeps_none] using h
    subst e
    have : ∀ (l : List Str) (es : List (Entry L)), l.mapM (readLine (L := L) sep (split sep fmt)) = some es → es.length = l.length := by
      intro l
      induction l with
      | nil => intro es h; simp at h; simp [← h]
      | cons a l ih =>
        intro es h
        simp only [List.mapM_cons, Option.bind_eq_bind, Option.pure_def, Option.bind_eq_some_iff, Option.some.injEq] at h
        obtain ⟨x, _, xs, hxs, rfl⟩ := h
        simp [ih xs hxs]
    exact this _ _ hm

/-! ## Records that spoil the log -/

/-- A line that cannot be read makes the whole file unreadable, whatever is written before (and ended) and afterwards. -/
theorem session_blocked (L : Lib) (level : Nat) {file : Str} (hfile : Ended file) {rs : List Rec} {r : Rec} (hr : r ∈ rs) (hl : level ≤ r.level.num)
    {line : Str} (hline : line ∈ fileLines (r.render ++ ['\n'])) (hbad : readLine (L := L) defaultSep (split defaultSep defaultFmt) line = none) (f : Filter L) :
    getLogs (L := L) defaultFmt defaultSep f (session level file rs) = none := by
  rw [getLogs_eq, fileLines_session level rs hfile, mapM_none (b := line) _ hbad]
  · rfl
  · refine List.mem_append_right _ (List.mem_flatMap.2 ⟨r, ?_, hline⟩)
    simp [hr, hl]

theorem withError_text {L : Lib} {e : Entry L} {s : Str} (h1 : e kLevel = some (.text "ERROR".toList)) (h2 : e kMsg = some (.text s)) (h3 : L.loads s = none) :
    withError e = none := by
  unfold withError
  rw [if_pos h1, h2]
  simp only [h3]

/-- What `zip` makes of at least six parts: level and message. -/
theorem fill_level_msg {L : Lib} (a1 a2 a3 a4 a5 a6 : Str) (more : List Str) :
    ∃ e : Entry L, fill (split defaultSep defaultFmt) (a1 :: a2 :: a3 :: a4 :: a5 :: a6 :: more) (fun _ => none) = e ∧
      e kTime = some (.text (strip a1)) ∧ e kLevel = some (.text (strip a5)) ∧ e kMsg = some (.text (strip a6)) := by
  rw [default_header]
  have h := header_strip
  simp only [List.map_cons, List.map_nil, List.cons.injEq, and_true] at h
  obtain ⟨h1, h2, h3, h4, h5, h6, h7, h8⟩ := h
  refine ⟨_, rfl, ?_, ?_, ?_⟩ <;>
  · match more with
    | [] => simp [fill, Entry.set, h1, h2, h3, h4, h5, h6]
    | [b] => simp [fill, Entry.set, h1, h2, h3, h4, h5, h6, h7]
    | b :: c :: m => simp [fill, Entry.set, h1, h2, h3, h4, h5, h6, h7, h8]

/-- C122, the first way to lose the log: a record of level ERROR whose message is not JSON (it begins with a character that no JSON value begins with).  From then on `get_logs` raises, with whatever
filter, whatever was written before and is written afterwards. -/
theorem C122_text_error_blocks (L : Lib) (level : Nat) (hlev : level ≤ 40) {file : Str} (hfile : Ended file) (rs : List Rec) (r : Rec) (hr : r ∈ rs) (he : r.level = .error)
    (h1 : Plain r.time ∧ NoBreak r.time) (h2 : Plain r.name ∧ NoBreak r.name) (h3 : Plain r.file ∧ NoBreak r.file) (h4 : Plain r.func ∧ NoBreak r.func)
    (c : Char) (m : Str) (hm : r.msg = c :: m) (hmb : NoBreak r.msg) (hc : c ∉ jsonStart) (hcc : c ≠ ':') (hcs : isSpace c = false)
    (h5 : NoBreak r.thread) (h6 : NoBreak r.proc) (f : Filter L) :
    getLogs (L := L) defaultFmt defaultSep f (session level file rs) = none := by
  have hnb : NoBreak r.render := by
    intro x hx
    have hs : ∀ c ∈ defaultSep, isBreak c = false := by decide +kernel
    simp only [Rec.render, Rec.items, List.intercalate, List.intersperse, List.flatten_cons, List.flatten_nil, List.append_nil, List.mem_append] at hx
    rcases hx with hx | hx | hx | hx | hx | hx | hx | hx | hx | hx | hx | hx | hx | hx | hx
    · exact h1.2 x hx
    · exact hs x hx
    · exact h2.2 x hx
    · exact hs x hx
    · exact h3.2 x hx
    · exact hs x hx
    · exact h4.2 x hx
    · exact hs x hx
    · exact level_noBreak _ x hx
    · exact hs x hx
    · exact hmb x hx
    · exact hs x hx
    · exact h5 x hx
    · exact hs x hx
    · exact h6 x hx
  refine session_blocked L level hfile hr (by rw [he]; exact hlev) (line := r.render) (by rw [fileLines_line hnb]; simp) ?_ f
  unfold readLine
  rw [split_render r h1.1 h2.1 h3.1 h4.1, hm]
  obtain ⟨x, rest, hx⟩ := split_head (sep := defaultSep) (c := c) (s := m ++ (defaultSep ++ (r.thread ++ (defaultSep ++ r.proc)))) (by
    rintro ⟨t, ht⟩
    exact hcc (by simpa [defaultSep] using (congrArg List.head? ht).symm))
  rw [List.cons_append, hx]
  obtain ⟨e, he1, he2, he3, he4⟩ := fill_level_msg (L := L) r.time r.name r.file r.func r.level.name (c :: x) rest
  rw [he1]
  unfold withDate
  rw [he2]
  simp only
  cases L.parse (strip r.time) with
  | none => rfl
  | some d =>
    simp only [Option.map_some, Option.bind_some]
    obtain ⟨t, ht⟩ := strip_head (c := c) (s := x) hcs
    refine withError_text (s := c :: t) ?_ ?_ ?_
    · rw [Entry.set, if_neg (by simp), he3, level_strip, he]; rfl
    · rw [Entry.set, if_neg (by simp), he4, ht]
    · by_contra hn
      exact hc (L.loads_start c t hn)

/-- The messages the tool writes with level ERROR and without JSON begin like this: an unknown DER identifier (DER_components.py 118), an argument of the wrong type (DER_components.py
185), missing PV module parameters (DER_components.py 414).  None of these characters begins a JSON value. -/
theorem C122_text_error_messages : ∀ c ∈ ['D', 'F', 'P'], c ∉ jsonStart ∧ c ≠ ':' ∧ isSpace c = false := by
  decide +kernel

/-- C122, the second way: a message (not of level ERROR) with `::` in it is cut there, silently; what follows is reported as the thread, the thread as the process, the process not at all. -/
theorem C122_separator_shift (L : Lib) (r : Rec) (hl : r.level ≠ .error) (h1 : Plain r.time ∧ (L.parse (strip r.time)).isSome) (h2 : Plain r.name) (h3 : Plain r.file) (h4 : Plain r.func)
    (m1 m2 : Str) (hm : r.msg = m1 ++ "::".toList ++ m2) (hm1 : Plain m1) (hm2 : Plain m2) (h5 : Plain r.thread) :
    ∃ e, readLine (L := L) defaultSep (split defaultSep defaultFmt) r.render = some e ∧
      e kMsg = some (.text (strip m1)) ∧ e kThread = some (.text (strip m2)) ∧ e kProc = some (.text (strip r.thread)) := by
  obtain ⟨d, hd⟩ := Option.isSome_iff_exists.1 h1.2
  obtain ⟨rest, hsp⟩ : ∃ rest, split defaultSep r.render = r.time :: r.name :: r.file :: r.func :: r.level.name :: m1 :: m2 :: r.thread :: rest := by
    refine ⟨split defaultSep r.proc, ?_⟩
    rw [split_render r h1.1 h2 h3 h4, hm]
    have : m1 ++ "::".toList ++ m2 ++ (defaultSep ++ (r.thread ++ (defaultSep ++ r.proc))) = m1 ++ (defaultSep ++ (m2 ++ (defaultSep ++ (r.thread ++ (defaultSep ++ r.proc))))) := by
      simp [defaultSep]
    rw [this, split_field sep_ne (plain_clean hm1), split_field sep_ne (plain_clean hm2), split_field sep_ne (plain_clean h5)]
  rw [read_eight hl hd hsp]
  generalize hb : base L r.time r.name r.file r.func r.level.name m1 m2 r.thread = b
  obtain ⟨b1, b2, b3, b4, b5, b6, b7, b8, b9⟩ := base_spec L _ _ _ _ _ _ _ _ b hb.symm
  exact ⟨_, rfl, by simp [Entry.set, b6], by simp [Entry.set, b7], by simp [Entry.set, b8]⟩

/-- C122, the third way: a message that ends with a colon loses it to the thread name. -/
theorem C122_colon_moves (L : Lib) (r : Rec) (hl : r.level ≠ .error) (h1 : Plain r.time ∧ (L.parse (strip r.time)).isSome) (h2 : Plain r.name) (h3 : Plain r.file) (h4 : Plain r.func)
    (m : Str) (hm : r.msg = m ++ [':']) (hm1 : Plain m) (h5 : Plain (':' :: r.thread)) :
    ∃ e, readLine (L := L) defaultSep (split defaultSep defaultFmt) r.render = some e ∧
      e kMsg = some (.text (strip m)) ∧ e kThread = some (.text (strip (':' :: r.thread))) := by
  obtain ⟨d, hd⟩ := Option.isSome_iff_exists.1 h1.2
  obtain ⟨x, rest, hsp⟩ : ∃ x rest, split defaultSep r.render = r.time :: r.name :: r.file :: r.func :: r.level.name :: m :: (':' :: r.thread) :: x :: rest := by
    obtain ⟨x, rest, hx⟩ := splitAux_head defaultSep r.proc [] 0
    refine ⟨x, rest, ?_⟩
    rw [split_render r h1.1 h2 h3 h4, hm]
    have : m ++ [':'] ++ (defaultSep ++ (r.thread ++ (defaultSep ++ r.proc))) = m ++ (defaultSep ++ ((':' :: r.thread) ++ (defaultSep ++ r.proc))) := by
      simp [defaultSep]
    rw [this, split_field sep_ne (plain_clean hm1), split_field sep_ne (plain_clean h5)]
    rw [split, hx]
    rfl
  rw [read_eight hl hd hsp]
  generalize hb : base L r.time r.name r.file r.func r.level.name m (':' :: r.thread) x = b
  obtain ⟨b1, b2, b3, b4, b5, b6, b7, b8, b9⟩ := base_spec L _ _ _ _ _ _ _ _ b hb.symm
  exact ⟨_, rfl, by simp [Entry.set, b6], by simp [Entry.set, b7]⟩

/-- C122, the fourth way: a line break in a message puts the rest of it on a line of its own, whose beginning is then read as a date; if it is none, nothing can be read any more. -/
theorem C122_line_break_blocks (L : Lib) (level : Nat) {file : Str} (hfile : Ended file) (rs : List Rec) (r : Rec) (hr : r ∈ rs) (hl : level ≤ r.level.num)
    (pre post : Str) (hpre : r.render = pre ++ '\n' :: post) (hpost : NoBreak post) (s : Str) (hs : (split defaultSep post).head? = some s)
    (hc : L.parse (strip s) = none) (f : Filter L) :
    getLogs (L := L) defaultFmt defaultSep f (session level file rs) = none := by
  refine session_blocked L level hfile hr hl (line := post) ?_ ?_ f
  · rw [hpre]
    have : pre ++ '\n' :: post ++ ['\n'] = (pre ++ ['\n']) ++ (post ++ '\n' :: []) := by simp
    rw [this, fileLines_append (Or.inr ⟨pre, rfl⟩), fileLines_line hpost]
    simp
  · unfold readLine
    match hsp : split defaultSep post, hs with
    | a :: more, hs =>
      simp only [List.head?_cons, Option.some.injEq] at hs
      subst hs
      rw [default_header]
      have h := header_strip
      simp only [List.map_cons, List.map_nil, List.cons.injEq, and_true] at h
      obtain ⟨h1, h2, h3, h4, h5, h6, h7, h8⟩ := h
      have key : ∀ (hd vs : List Str) (e : Entry L) (v : Val L), (∀ k ∈ hd, strip k ≠ kTime) → e kTime = some v → fill hd vs e kTime = some v := by
        intro hd
        induction hd with
        | nil => intro vs e v _ he; cases vs <;> exact he
        | cons k hd ih =>
          intro vs e v hk he
          cases vs with
          | nil => exact he
          | cons w vs =>
            refine ih vs _ v (fun k' hk' => hk k' (by simp [hk'])) ?_
            rw [Entry.set, if_neg (fun h => hk k (by simp) h.symm)]
            exact he
      have ht : fill (L := L) [kTime, kName, kFile, kFunc, kLevel, kMsg, kThread, kProc] (a :: more) (fun _ => none) kTime = some (.text (strip a)) := by
        rw [fill]
        refine key _ _ _ _ ?_ (by rw [h1]; simp [Entry.set])
        intro k hk
        simp only [List.mem_cons, List.not_mem_nil, or_false] at hk
        rcases hk with rfl | rfl | rfl | rfl | rfl | rfl | rfl <;> simp [h2, h3, h4, h5, h6, h7, h8]
      unfold withDate
      rw [ht]
      simp only [hc, Option.map_none, Option.bind_none]

/-! ## Exceptions -/

/-- C122, exceptions: however many guarded functions are active when an exception passes, the caller sees the original exception, and one record of level ERROR is written for each of them, innermost
first, with the same reason. -/
theorem C122_exceptions_logged (L : Lib) (reason : Str) (fs : List Frame) :
    (raise L reason fs).1 = reason ∧ (raise L reason fs).2 = fs.map fun f => f.record L reason := by
  have : ∀ (fs : List Frame) (out : List Rec), fs.foldl (fun x f => (x.1, x.2 ++ [f.record L x.1])) (reason, out) = (reason, out ++ fs.map fun f => f.record L reason) := by
    intro fs
    induction fs with
    | nil => intro out; simp
    | cons f fs ih => intro out; simp [ih]
  unfold raise
  rw [this]
  simp

/-- Records of exceptions are readable unless source line, reason or file name put a `::` into the JSON text. -/
theorem record_readable (L : Lib) (f : Frame) (reason : Str) (h1 : Plain f.time ∧ NoBreak f.time ∧ (L.parse (strip f.time)).isSome) (h2 : Plain f.name ∧ NoBreak f.name)
    (h3 : Plain f.thread ∧ NoBreak f.thread) (h4 : ¬ "::".toList <:+: f.proc ∧ NoBreak f.proc) (h5 : ¬ "::".toList <:+: L.dumps (f.err reason)) : Readable L (f.record L reason) := by
  obtain ⟨s, hs, hb⟩ := L.dumps_shape (f.err reason)
  obtain ⟨j, hj, hf, hg⟩ := L.loads_dumps (f.err reason)
  have hst : strip (L.dumps (f.err reason)) = L.dumps (f.err reason) := by rw [hs]; exact strip_ends (by decide +kernel) (by decide +kernel)
  refine ⟨h1, h2, ?_, ?_, ⟨⟨h5, ?_⟩, ?_⟩, h3, h4, fun _ => ⟨j, _, _, ?_, hf, hg⟩⟩
  · show Plain "exceptionutil.py".toList ∧ NoBreak "exceptionutil.py".toList
    unfold Plain NoBreak; decide +kernel
  · show Plain "exception_handler".toList ∧ NoBreak "exception_handler".toList
    unfold Plain NoBreak; decide +kernel
  · show (L.dumps (f.err reason)).getLast? ≠ some ':'
    rw [hs, List.getLast?_concat]; decide +kernel
  · show NoBreak (L.dumps (f.err reason))
    rw [hs]
    intro c hc
    simp only [List.cons_append, List.mem_cons, List.mem_append, List.not_mem_nil, or_false] at hc
    rcases hc with rfl | hc | rfl
    · decide +kernel
    · exact hb c hc
    · decide +kernel
  · show L.loads (strip (L.dumps (f.err reason))) = some j
    rw [hst, hj]

/-- C122, the place of an error: the entries read for an exception name, innermost first, the file and the function of each guarded function, not those of the handler. -/
theorem C122_exception_places (L : Lib) (level : Nat) (hlev : level ≤ 40) (reason : Str) (fs : List Frame)
    (h : ∀ f ∈ fs, (Plain f.time ∧ NoBreak f.time ∧ (L.parse (strip f.time)).isSome) ∧ (Plain f.name ∧ NoBreak f.name) ∧
      (Plain f.thread ∧ NoBreak f.thread) ∧ (¬ "::".toList <:+: f.proc ∧ NoBreak f.proc) ∧ ¬ "::".toList <:+: L.dumps (f.err reason)) :
    ∃ es, getLogs (L := L) defaultFmt defaultSep .none (session level [] (raise L reason fs).2) = some es ∧
      List.Forall₂ (fun (f : Frame) e => e kFile = some (.text (basename f.filename)) ∧ e kFunc = some (.text (basename f.funcName)) ∧ e kLevel = some (.text "ERROR".toList)) fs es := by
  rw [(C122_exceptions_logged L reason fs).2]
  obtain ⟨es, he, hs⟩ := C122_read_back L level (fs.map fun f => f.record L reason) (by
    intro r hr _
    obtain ⟨f, hf, rfl⟩ := List.mem_map.1 hr
    obtain ⟨a, b, c, d, e⟩ := h f hf
    exact record_readable L f reason a b c d e)
  refine ⟨es, he, ?_⟩
  rw [List.filter_eq_self.2 (by
    intro r hr
    obtain ⟨f, _, rfl⟩ := List.mem_map.1 hr
    exact decide_eq_true hlev), List.forall₂_map_left_iff] at hs
  refine hs.imp ?_
  intro f e hfe
  obtain ⟨j, a, b, hj, ha, hb, _, h2, h3⟩ := hfe.error rfl
  obtain ⟨s, hs, _⟩ := L.dumps_shape (f.err reason)
  have hst : strip (f.record L reason).msg = L.dumps (f.err reason) := by
    show strip (L.dumps (f.err reason)) = _
    rw [hs]; exact strip_ends (by decide +kernel) (by decide +kernel)
  obtain ⟨j', hj', ha', hb'⟩ := L.loads_dumps (f.err reason)
  rw [hst, hj'] at hj
  obtain rfl : j' = j := by simpa using hj
  rw [ha'] at ha; rw [hb'] at hb
  obtain rfl : f.filename = a := Option.some.inj ha
  obtain rfl : f.funcName = b := Option.some.inj hb
  exact ⟨h2, h3, hfe.level⟩

/-! ## Concrete cases -/

/-- A library in which everything holds (dates are texts that begin with a digit, an error dictionary is written as a number in unary). -/
def exLib : Lib where
  D := Str
  J := List Nat × List Nat
  parse s := match s with
    | [] => none
    | c :: _ => if c.isDigit then some s else none
  loads s := match s with
    | '{' :: t => Encodable.decode (α := List Nat × List Nat) (t.length - 1)
    | _ => none
  item j k := if k = "filename".toList then some (j.1.map Char.ofNat) else if k = "funcName".toList then some (j.2.map Char.ofNat) else none
  dumps e := '{' :: List.replicate (Encodable.encode (e.filename.map Char.toNat, e.funcName.map Char.toNat)) '1' ++ ['}']
  loads_dumps e := by
    have hc : ∀ s : Str, (s.map Char.toNat).map Char.ofNat = s := by
      intro s
      rw [List.map_map]
      conv_rhs => rw [← List.map_id s]
      exact List.map_congr_left fun c _ => Char.ofNat_toNat c
    refine ⟨(e.filename.map Char.toNat, e.funcName.map Char.toNat), ?_, ?_, ?_⟩
    · simp
    · rw [if_pos rfl, hc]
    · rw [if_neg (by decide +kernel), if_pos rfl, hc]
  dumps_shape e := ⟨_, rfl, by
    intro c hc
    rw [List.eq_of_mem_replicate hc]
    decide +kernel⟩
  loads_start c s h := by
    by_cases hc : c = '{'
    · subst hc; decide +kernel
    · exact absurd (by
        split
        · rename_i heq; simp at heq; exact absurd heq.1 hc
        · rfl) h

def exFrame (fn : String) : Frame :=
  ⟨12, "a/b.py".toList, fn.toList, "x = y".toList, "2026-01-01".toList, "pvder_logger".toList, "MainThread".toList, "77".toList⟩

/-- An information record, a debug record (dropped at the default level) and two records of an exception. -/
def exRecs : List Rec :=
  [⟨"2026-01-01 10:00:00,1".toList, "pvder_logger".toList, "DER_features.py".toList, "print_event".toList, .info, "DER-1:1.0:connected".toList, "MainThread".toList, "77".toList⟩,
   ⟨"2026-01-01 10:00:00,2".toList, "pvder_logger".toList, "simulation_events.py".toList, "reset".toList, .debug, "found at::".toList, "MainThread".toList, "77".toList⟩]
  ++ (raise exLib "no".toList [exFrame "f", exFrame "g"]).2

theorem exFrame_ok (fn : String) (reason : Str) : ¬ "::".toList <:+: exLib.dumps ((exFrame fn).err reason) := by
  rintro ⟨a, b, h⟩
  have hc : ':' ∈ exLib.dumps ((exFrame fn).err reason) := by rw [← h]; simp
  simp only [exLib, List.cons_append, List.mem_cons, List.mem_append, List.mem_replicate, List.not_mem_nil, or_false] at hc
  rcases hc with hc | hc | hc
  · exact absurd hc (by decide)
  · exact absurd hc.2 (by decide)
  · exact absurd hc (by decide)

/-- The hypotheses of `C122_read_back` and `C122_exception_places` are met by a session of four records of which three are written. -/
theorem C122_example : (∀ r ∈ exRecs, 20 ≤ r.level.num → Readable exLib r) ∧ (exRecs.filter fun r => 20 ≤ r.level.num).length = 3 := by
  have h0 : ∀ fn, Readable exLib ((exFrame fn).record exLib "no".toList) := by
    intro fn
    refine record_readable exLib _ _ ⟨?_, ?_, ?_⟩ ⟨?_, ?_⟩ ⟨?_, ?_⟩ ⟨?_, ?_⟩ (exFrame_ok fn _)
    · show Plain "2026-01-01".toList
      unfold Plain; decide +kernel
    · show NoBreak "2026-01-01".toList
      unfold NoBreak; decide +kernel
    · show (exLib.parse (strip "2026-01-01".toList)).isSome
      decide +kernel
    · show Plain "pvder_logger".toList
      unfold Plain; decide +kernel
    · show NoBreak "pvder_logger".toList
      unfold NoBreak; decide +kernel
    · show Plain "MainThread".toList
      unfold Plain; decide +kernel
    · show NoBreak "MainThread".toList
      unfold NoBreak; decide +kernel
    · show ¬ "::".toList <:+: "77".toList
      decide +kernel
    · show NoBreak "77".toList
      unfold NoBreak; decide +kernel
  have hr : exRecs = [⟨"2026-01-01 10:00:00,1".toList, "pvder_logger".toList, "DER_features.py".toList, "print_event".toList, .info, "DER-1:1.0:connected".toList, "MainThread".toList, "77".toList⟩,
   ⟨"2026-01-01 10:00:00,2".toList, "pvder_logger".toList, "simulation_events.py".toList, "reset".toList, .debug, "found at::".toList, "MainThread".toList, "77".toList⟩,
   (exFrame "f").record exLib "no".toList, (exFrame "g").record exLib "no".toList] := by
    unfold exRecs
    rw [(C122_exceptions_logged _ _ _).2]
    rfl
  rw [hr]
  refine ⟨?_, by simp [Frame.record, Level.num]⟩
  intro r hr hl
  simp only [List.mem_cons, List.not_mem_nil, or_false] at hr
  rcases hr with rfl | rfl | rfl | rfl
  · refine ⟨⟨?_, ?_, ?_⟩, ⟨?_, ?_⟩, ⟨?_, ?_⟩, ⟨?_, ?_⟩, ⟨?_, ?_⟩, ⟨?_, ?_⟩, ⟨?_, ?_⟩, fun h => by cases h⟩
    all_goals first
      | (unfold Plain; decide +kernel)
      | (unfold NoBreak; decide +kernel)
      | decide +kernel
  · exact absurd hl (by decide)
  · exact h0 _
  · exact h0 _

/-- The message of an unknown DER identifier (DER_components.py 118) written behind that session: nothing can be read any more. -/
theorem C122_unreadable_example (f : Filter exLib) :
    getLogs defaultFmt defaultSep f (session 20 [] (exRecs ++ [⟨"2026-01-01 10:00:00,3".toList, "pvder_logger".toList, "DER_components.py".toList, "get_config".toList, .error,
      "DER configuration with ID:51 could not be found in c.json! - Available IDs are:['50']".toList, "MainThread".toList, "77".toList⟩])) = none := by
  refine C122_text_error_blocks exLib 20 (by decide) (Or.inl rfl) _ _ (List.mem_append_right _ (List.mem_singleton.2 rfl)) rfl ⟨?_, ?_⟩ ⟨?_, ?_⟩ ⟨?_, ?_⟩ ⟨?_, ?_⟩ 'D' _ rfl ?_
    (C122_text_error_messages 'D' (by simp)).1 (C122_text_error_messages 'D' (by simp)).2.1 (C122_text_error_messages 'D' (by simp)).2.2 ?_ ?_ f
  all_goals first
    | (unfold Plain; decide +kernel)
    | (unfold NoBreak; decide +kernel)

/-- The identifier `a::b` (any text is accepted as identifier) cuts every message that begins with the name of the instance. -/
theorem C122_shift_example : ∃ e, readLine (L := exLib) defaultSep (split defaultSep defaultFmt)
      (⟨"2026".toList, "n".toList, "f".toList, "g".toList, .info, "a::b-sim_1:2.0:x".toList, "MainThread".toList, "77".toList⟩ : Rec).render = some e ∧
    e kMsg = some (.text "a".toList) ∧ e kThread = some (.text "b-sim_1:2.0:x".toList) ∧ e kProc = some (.text "MainThread".toList) := by
  obtain ⟨e, h, h1, h2, h3⟩ := C122_separator_shift exLib
    ⟨"2026".toList, "n".toList, "f".toList, "g".toList, .info, "a::b-sim_1:2.0:x".toList, "MainThread".toList, "77".toList⟩ (by simp)
    ⟨by unfold Plain; decide +kernel, by decide +kernel⟩ (by unfold Plain; decide +kernel) (by unfold Plain; decide +kernel) (by unfold Plain; decide +kernel)
    "a".toList "b-sim_1:2.0:x".toList (by decide +kernel) (by unfold Plain; decide +kernel) (by unfold Plain; decide +kernel) (by unfold Plain; decide +kernel)
  refine ⟨e, h, ?_, ?_, ?_⟩
  · rw [h1, show strip "a".toList = "a".toList by decide +kernel]
  · rw [h2, show strip "b-sim_1:2.0:x".toList = "b-sim_1:2.0:x".toList by decide +kernel]
  · rw [h3, show strip "MainThread".toList = "MainThread".toList by decide +kernel]

end LogRead
end PvDer
