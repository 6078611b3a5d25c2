import Verif.Model.LogFile
import Verif.Props.LogRead
import Mathlib.Tactic.Common

/-!
# C152: the log after models have been created

Creating a model adds a handler that empties the log file and writes from its beginning, while the earlier handlers go on writing at the places they had reached.
-/

namespace PvDer
namespace LogFile

open LogRead

/-- What a run of records at a level looks like in a file of its own. -/
def text (level : Nat) (rs : List Rec) : Str := (rs.filter fun r => level ≤ r.level.num).flatMap line

/-- The places from which the handlers write the last stretch: each behind what was logged from its creation to the last creation. -/
def places (earlier : List Str) : List Nat := earlier.tails.map fun l => l.flatten.length

/-- A text written at several places of an empty file, one after the other. -/
def paint (file s : Str) (ps : List Nat) : Str := ps.foldl (fun f p => writeAt f s p) file

theorem writeAt_nil (f : Str) (p : Nat) : writeAt f [] p = f := if_pos rfl

theorem writeAt_length {f s : Str} {p : Nat} (h : s ≠ []) : (writeAt f s p).length = max f.length (p + s.length) := by
  rw [writeAt, if_neg h]
  simp only [List.length_append, List.length_take, List.length_replicate, List.length_drop]
  omega

theorem writeAt_get {f s : Str} {p x : Nat} (h : s ≠ []) : (writeAt f s p)[x]? =
    if x < p then (if x < f.length then f[x]? else some '\x00') else if x < p + s.length then s[x - p]? else f[x]? := by
  rw [writeAt, if_neg h]
  simp only [List.append_assoc]
  by_cases h1 : x < p
  · rw [if_pos h1]
    by_cases h2 : x < f.length
    · rw [if_pos h2, List.getElem?_append_left (by simp only [List.length_take]; omega), List.getElem?_take_of_lt h1]
    · rw [if_neg h2, List.getElem?_append_right (by simp only [List.length_take]; omega),
        List.getElem?_append_left (by simp only [List.length_take, List.length_replicate]; omega), List.getElem?_replicate]
      rw [if_pos (by simp only [List.length_take]; omega)]
  · rw [if_neg h1, List.getElem?_append_right (by simp only [List.length_take]; omega),
      List.getElem?_append_right (by simp only [List.length_take, List.length_replicate]; omega)]
    have e : x - (f.take p).length - (List.replicate (p - f.length) '\x00').length = x - p := by
      simp only [List.length_take, List.length_replicate]
      omega
    rw [e]
    by_cases h2 : x < p + s.length
    · rw [if_pos h2, List.getElem?_append_left (by omega)]
    · rw [if_neg h2, List.getElem?_append_right (by omega), List.getElem?_drop]
      congr 1
      omega

/-- A text written in two parts. -/
theorem writeAt_append (f s r : Str) (p : Nat) : writeAt (writeAt f s p) r (p + s.length) = writeAt f (s ++ r) p := by
  by_cases hs : s = []
  · subst hs
    simp [writeAt_nil]
  by_cases hr : r = []
  · subst hr
    simp [writeAt_nil]
  have hsr : s ++ r ≠ [] := by simp [hs]
  apply List.ext_getElem?
  intro x
  rw [writeAt_get hr, writeAt_get hs, writeAt_get hsr, writeAt_length hs, List.length_append]
  by_cases h1 : x < p
  · simp only [h1, if_true, show x < p + s.length by omega, show x < max f.length (p + s.length) by omega]
  · by_cases h2 : x < p + s.length
    · simp only [h1, h2, if_true, if_false, show x < max f.length (p + s.length) by omega, show x < p + (s.length + r.length) by omega]
      rw [List.getElem?_append_left (by omega)]
    · by_cases h3 : x < p + (s.length + r.length)
      · simp only [h1, h2, h3, if_true, if_false, show x < p + s.length + r.length by omega]
        rw [List.getElem?_append_right (by omega)]
        congr 1
        omega
      · simp only [h1, h2, h3, if_false, show ¬ x < p + s.length + r.length by omega]

/-- Writes to disjoint places can be exchanged. -/
theorem writeAt_swap (f s r : Str) {p q : Nat} (h : q + s.length ≤ p) : writeAt (writeAt f s q) r p = writeAt (writeAt f r p) s q := by
  by_cases hs : s = []
  · subst hs
    simp [writeAt_nil]
  by_cases hr : r = []
  · subst hr
    simp [writeAt_nil]
  apply List.ext_getElem?
  intro x
  rw [writeAt_get hr, writeAt_get hs, writeAt_get hs, writeAt_get hr, writeAt_length hs, writeAt_length hr]
  have hl : 0 < s.length := List.length_pos_iff.2 hs
  have hl' : 0 < r.length := List.length_pos_iff.2 hr
  by_cases h1 : x < q
  · simp only [h1, if_true, show x < p by omega, show x < max f.length (q + s.length) by omega, show x < max f.length (p + r.length) by omega]
  · by_cases h2 : x < q + s.length
    · simp only [h1, h2, if_true, if_false, show x < p by omega, show x < max f.length (q + s.length) by omega]
    · by_cases h3 : x < p
      · simp only [h1, h2, h3, if_true, if_false]
        by_cases h4 : x < f.length
        · simp only [h4, if_true, show x < max f.length (q + s.length) by omega]
        · simp only [h4, if_false, show ¬ x < max f.length (q + s.length) by omega]
      · simp only [h1, h2, h3, if_false]

theorem writeAt_paint (s r : Str) {p : Nat} : ∀ (ps : List Nat) (f : Str), (∀ q ∈ ps, q ≤ p) → writeAt (paint f s ps) r (p + s.length) = paint (writeAt f r (p + s.length)) s ps
  | [], _, _ => rfl
  | q :: ps, f, h => by
    show writeAt (paint (writeAt f s q) s ps) r (p + s.length) = paint (writeAt (writeAt f r (p + s.length)) s q) s ps
    rw [writeAt_paint s r ps _ fun x hx => h x (by simp [hx]), writeAt_swap f s r (by have := h q (by simp); omega)]

/-- All handlers go on with a further text. -/
theorem paint_append (s r : Str) : ∀ (ps : List Nat) (f : Str), ps.Pairwise (· ≥ ·) → paint (paint f s ps) r (ps.map (· + s.length)) = paint f (s ++ r) ps
  | [], _, _ => rfl
  | p :: ps, f, h => by
    have h := List.pairwise_cons.1 h
    show paint (writeAt (paint (writeAt f s p) s ps) r (p + s.length)) r (ps.map (· + s.length)) = paint (writeAt f (s ++ r) p) (s ++ r) ps
    rw [writeAt_paint s r ps _ (fun q hq => h.1 q hq), paint_append s r ps _ h.2, writeAt_append]

theorem emitAll_eq (level : Nat) (r : Rec) (hl : level ≤ r.level.num) : ∀ (ps : List Nat) (f : Str) (done : List Handler),
    (ps.map fun p => (⟨.w, level, p⟩ : Handler)).foldl (fun x h => ((h.emit x.1 r).1, x.2 ++ [(h.emit x.1 r).2])) (f, done) =
      (paint f (line r) ps, done ++ (ps.map (· + (line r).length)).map fun p => (⟨.w, level, p⟩ : Handler))
  | [], f, done => by simp [paint]
  | p :: ps, f, done => by
    rw [List.map_cons, List.foldl_cons]
    have e : (⟨.w, level, p⟩ : Handler).emit f r = (writeAt f (line r) p, ⟨.w, level, p + (line r).length⟩) := by
      unfold Handler.emit
      rw [if_pos hl]
    dsimp only
    rw [e, emitAll_eq level r hl ps]
    simp [paint]

/-- What a logger looks like whose handlers, all of one level, started at `ps` and have written `s`. -/
def At (level : Nat) (ps : List Nat) (s : Str) (l : Logger) : Prop :=
  l.level = level ∧ l.handlers = (ps.map (· + s.length)).map (fun p => (⟨.w, level, p⟩ : Handler)) ∧ l.file = paint [] s ps

theorem paint_nil : ∀ (ps : List Nat) (f : Str), paint f [] ps = f
  | [], _ => rfl
  | p :: ps, f => by
    show paint (writeAt f [] p) [] ps = f
    rw [writeAt_nil, paint_nil]

theorem at_log {level : Nat} {ps : List Nat} {s : Str} {l : Logger} (hp : ps.Pairwise (· ≥ ·)) (h : At level ps s l) (r : Rec) :
    At level ps (s ++ text level [r]) (l.log r) := by
  obtain ⟨h1, h2, h3⟩ := h
  by_cases hl : level ≤ r.level.num
  · have e : text level [r] = line r := by simp [text, hl]
    rw [e]
    have e2 := emitAll_eq level r hl (ps.map (· + s.length)) l.file []
    unfold Logger.log
    rw [h1, if_pos hl]
    unfold emitAll
    rw [h2, e2]
    refine ⟨rfl, ?_, ?_⟩
    · simp
    · show paint l.file (line r) _ = _
      rw [h3, paint_append s (line r) ps [] hp]
  · have e : text level [r] = [] := by simp [text, hl]
    rw [e, List.append_nil]
    unfold Logger.log
    rw [h1, if_neg hl]
    exact ⟨h1, h2, h3⟩

theorem text_cons (level : Nat) (r : Rec) (rs : List Rec) : text level (r :: rs) = text level [r] ++ text level rs := by
  unfold text
  by_cases hl : level ≤ r.level.num <;> simp [hl]

theorem at_logs {level : Nat} {ps : List Nat} (hp : ps.Pairwise (· ≥ ·)) : ∀ (rs : List Rec) {s : Str} {l : Logger}, At level ps s l →
    At level ps (s ++ text level rs) (rs.foldl Logger.log l)
  | [], s, l, h => by simpa [text] using h
  | r :: rs, s, l, h => by
    rw [text_cons, ← List.append_assoc]
    exact at_logs hp rs (at_log hp h r)

theorem places_snoc : ∀ (e : List Str) (s : Str), places (e ++ [s]) = (places e).map (· + s.length) ++ [0]
  | [], s => by simp [places]
  | a :: e, s => by
    have ih := places_snoc e s
    unfold places at ih ⊢
    rw [List.cons_append, List.tails_cons, List.tails_cons, List.map_cons, List.map_cons, ih]
    simp [Nat.add_assoc]

theorem places_sorted : ∀ e : List Str, (places e).Pairwise (· ≥ ·)
  | [] => by simp [places]
  | a :: e => by
    have ih := places_sorted e
    unfold places at ih ⊢
    rw [List.tails_cons, List.map_cons]
    refine List.pairwise_cons.2 ⟨fun p hp => ?_, ih⟩
    obtain ⟨l, hl, rfl⟩ := List.mem_map.1 hp
    have : l.flatten.length ≤ e.flatten.length := by
      obtain ⟨t, rfl⟩ := (List.mem_tails _ _).1 hl
      simp
    simp only [List.flatten_cons, List.length_append]
    omega

theorem places_zero (e : List Str) : ∃ qs, places e = qs ++ [0] := by
  induction e with
  | nil => exact ⟨[], rfl⟩
  | cons a e ih =>
    obtain ⟨qs, h⟩ := ih
    refine ⟨(a :: e).flatten.length :: qs, ?_⟩
    unfold places at h ⊢
    rw [List.tails_cons, List.map_cons, h]
    rfl

theorem program_snoc (mode : Mode) (file : Str) (ss : List Stretch) (s : Stretch) : program mode file (ss ++ [s]) = stretch mode (program mode file ss) s := by
  simp [program]

/-- The state of the logger after the import and any number of creations, all of one level. -/
theorem program_at (level : Nat) (file : Str) (last : Stretch) (hlast : last.level = level) (pre : List Stretch) (h : ∀ s ∈ pre, s.level = level) :
    At level (places (pre.map fun s => text level s.recs)) (text level last.recs) (program .w file (pre ++ [last])) := by
  induction pre using List.reverseRecOn generalizing last with
  | nil =>
    rw [program_snoc]
    have := at_logs (level := level) (ps := [0]) (by simp) last.recs (s := []) (l := (program .w file []).set last.level .w)
      ⟨hlast, by rw [hlast]; rfl, rfl⟩
    exact this
  | append_singleton pre s ih =>
    have hi := ih s (h s (by simp)) fun x hx => h x (by simp [hx])
    rw [program_snoc]
    have := at_logs (level := level) (places_sorted ((pre ++ [s]).map fun s => text level s.recs)) last.recs (s := [])
      (l := (program .w file (pre ++ [s])).set last.level .w) (by
        refine ⟨hlast, ?_, (paint_nil _ _).symm⟩
        rw [List.map_append, List.map_cons, List.map_nil, places_snoc]
        show (program .w file (pre ++ [s])).handlers ++ [_] = _
        rw [hi.2.1, hlast]
        simp)
    exact this

/-- C152: what the log file holds, for any number of models created with one verbosity, whatever was logged in between: the records logged since the last creation, written once from
each place reached by a handler, the oldest handler first. -/
theorem C152_file_exact (level : Nat) (file : Str) (pre : List Stretch) (last : Stretch) (h : ∀ s ∈ pre ++ [last], s.level = level) :
    (program .w file (pre ++ [last])).file = paint [] (text level last.recs) (places (pre.map fun s => text level s.recs)) :=
  (program_at level file last (h last (by simp)) pre fun s hs => h s (by simp [hs])).2.2

theorem paint_le {s : Str} (hs : s ≠ []) : ∀ (ps : List Nat) (f : Str), f.length ≤ (paint f s ps).length
  | [], _ => le_rfl
  | p :: ps, f => by
    refine le_trans ?_ (paint_le hs ps (writeAt f s p))
    rw [writeAt_length hs]
    omega

theorem paint_last {s : Str} (f : Str) (qs : List Nat) : ∃ rest, paint f s (qs ++ [0]) = s ++ rest := by
  have e : paint f s (qs ++ [0]) = writeAt (paint f s qs) s 0 := by simp [paint]
  rw [e]
  by_cases hs : s = []
  · exact ⟨_, by rw [hs, writeAt_nil]; rfl⟩
  · exact ⟨(paint f s qs).drop s.length, by rw [writeAt, if_neg hs]; simp⟩

/-- C152, what can be relied on: with one verbosity throughout, the log file begins with the records logged since the last creation, whole, once and in order. -/
theorem C152_begins_with_last (level : Nat) (file : Str) (pre : List Stretch) (last : Stretch) (h : ∀ s ∈ pre ++ [last], s.level = level) :
    text level last.recs <+: (program .w file (pre ++ [last])).file := by
  rw [C152_file_exact level file pre last h]
  obtain ⟨qs, hq⟩ := places_zero (pre.map fun s => text level s.recs)
  rw [hq]
  obtain ⟨rest, hr⟩ := paint_last (s := text level last.recs) [] qs
  exact ⟨rest, hr.symm⟩

/-- The file is at least as long as what the oldest handler has written since the import, if anything was logged since the last creation. -/
theorem file_length (level : Nat) (file : Str) (pre : List Stretch) (last : Stretch) (h : ∀ s ∈ pre ++ [last], s.level = level) (hl : text level last.recs ≠ []) :
    (pre.flatMap fun s => text level s.recs).length + (text level last.recs).length ≤ (program .w file (pre ++ [last])).file.length := by
  rw [C152_file_exact level file pre last h]
  have e : places (pre.map fun s => text level s.recs) = (pre.flatMap fun s => text level s.recs).length ::
      (places (pre.map fun s => text level s.recs)).tail := by
    unfold places
    cases pre <;> simp [List.flatMap]
  rw [e]
  generalize (pre.flatMap fun s => text level s.recs).length = p
  generalize (places (pre.map fun s => text level s.recs)).tail = ps
  generalize text level last.recs = s at hl
  have h1 : (writeAt [] s p).length ≤ (paint [] s (p :: ps)).length := paint_le hl ps (writeAt [] s p)
  rw [writeAt_length hl] at h1
  exact le_trans (le_max_right _ _) h1

/-- C152: the file holds exactly these records and nothing else just if nothing has been logged since the last creation, or nothing had been logged before it. -/
theorem C152_clean_iff (level : Nat) (file : Str) (pre : List Stretch) (last : Stretch) (h : ∀ s ∈ pre ++ [last], s.level = level) :
    (program .w file (pre ++ [last])).file = text level last.recs ↔ text level last.recs = [] ∨ ∀ s ∈ pre, text level s.recs = [] := by
  constructor
  · intro he
    by_cases hl : text level last.recs = []
    · exact Or.inl hl
    · have := file_length level file pre last h hl
      rw [he] at this
      have h0 : (pre.flatMap fun s => text level s.recs) = [] := List.length_eq_zero_iff.1 (by omega)
      exact Or.inr fun s hs => List.flatMap_eq_nil_iff.1 h0 s hs
  · intro ho
    rw [C152_file_exact level file pre last h]
    rcases ho with ho | ho
    · rw [ho, paint_nil]
    · have hz : ∀ p ∈ places (pre.map fun s => text level s.recs), p = 0 := by
        intro p hp
        obtain ⟨l, hl, rfl⟩ := List.mem_map.1 hp
        have : l.flatten = [] := by
          refine List.flatten_eq_nil_iff.2 fun x hx => ?_
          obtain ⟨t, ht⟩ := (List.mem_tails _ _).1 hl
          obtain ⟨s, hs, rfl⟩ := List.mem_map.1 (show x ∈ pre.map (fun s => text level s.recs) by rw [← ht]; simp [hx])
          exact ho s hs
        rw [this]
        rfl
      obtain ⟨qs, hq⟩ := places_zero (pre.map fun s => text level s.recs)
      have hne : ∀ (ps : List Nat) (s : Str), (∀ p ∈ ps, p = 0) → paint s s ps = s := by
        intro ps s
        induction ps with
        | nil => intro _; rfl
        | cons p ps ih =>
          intro hp
          show paint (writeAt s s p) s ps = s
          rw [hp p (by simp), show writeAt s s 0 = s by
            unfold writeAt
            split
            · rfl
            · simp]
          exact ih fun q hq => hp q (by simp [hq])
      generalize places (pre.map fun s => text level s.recs) = ps at hz hq
      cases ps with
      | nil => simp at hq
      | cons p ps =>
        show paint (writeAt [] (text level last.recs) p) _ ps = _
        rw [hz p (by simp), show writeAt [] (text level last.recs) 0 = text level last.recs by
          unfold writeAt
          split
          · rename_i h0; exact h0.symm
          · simp]
        exact hne ps _ fun q hq => hz q (by simp [hq])

/-- C152: creating a model erases the log: at that moment the file is empty, whatever had been logged. -/
theorem C152_creation_erases (l : Logger) (level : Nat) : (l.set level .w).file = [] := rfl

/-- C152: the verbosity of the model created last holds for all models: a record below it is not written, whichever model logs it and whatever verbosity that one was created with. -/
theorem C152_last_verbosity (mode : Mode) (file : Str) (pre : List Stretch) (last : Stretch) (r : Rec) (hr : r.level.num < last.level) :
    (program mode file (pre ++ [last])).log r = program mode file (pre ++ [last]) := by
  have hk : ∀ (rs : List Rec) (l : Logger), (rs.foldl Logger.log l).level = l.level := by
    intro rs
    induction rs with
    | nil => intro _; rfl
    | cons r rs ih =>
      intro l
      rw [List.foldl_cons, ih]
      unfold Logger.log
      split <;> rfl
  have e : (program mode file (pre ++ [last])).level = last.level := by
    rw [program_snoc]
    exact hk last.recs _
  unfold Logger.log
  rw [e, if_neg (by omega)]

theorem linesAux_ne : ∀ (s acc : Str), s ≠ [] → linesAux acc s ≠ []
  | [], _, h => absurd rfl h
  | c :: cs, acc, _ => by
    rw [linesAux]
    split
    · simp
    · cases cs with
      | nil => simp [linesAux]
      | cons d ds => exact linesAux_ne (d :: ds) _ (by simp)

theorem fileLines_ne {s : Str} (h : s ≠ []) : fileLines s ≠ [] := by
  refine linesAux_ne _ _ ?_
  cases s with
  | nil => exact absurd rfl h
  | cons c cs =>
    cases cs with
    | nil => simp only [universal]; split <;> simp
    | cons d ds =>
      simp only [universal]
      split
      · split <;> simp
      · simp

theorem text_session (level : Nat) : ∀ (rs : List Rec) (file : Str), session level file rs = file ++ text level rs
  | [], file => by simp [session, text]
  | r :: rs, file => by
    show session level (write level file r) rs = _
    rw [text_session level rs, text_cons level r rs, ← List.append_assoc]
    congr 1
    unfold write text line
    by_cases hl : level ≤ r.level.num <;> simp [hl]

/-- C152, reading: when something was logged before the last creation and something since, `get_logs` raises, or returns an entry for each record since the last creation that says
what the record says, followed by at least one entry that stands for no such record. -/
theorem C152_reading (L : Lib) (level : Nat) (file : Str) (pre : List Stretch) (last : Stretch) (h : ∀ s ∈ pre ++ [last], s.level = level)
    (hr : ∀ r ∈ last.recs, level ≤ r.level.num → Readable L r) (h1 : text level last.recs ≠ []) (h2 : ∃ s ∈ pre, text level s.recs ≠ []) :
    getLogs (L := L) defaultFmt defaultSep .none (program .w file (pre ++ [last])).file = none ∨
    ∃ es more, getLogs (L := L) defaultFmt defaultSep .none (program .w file (pre ++ [last])).file = some (es ++ more) ∧ more ≠ [] ∧
      List.Forall₂ (Says L) (last.recs.filter fun r => level ≤ r.level.num) es := by
  obtain ⟨rest, hf⟩ := C152_begins_with_last level file pre last h
  have hrest : rest ≠ [] := by
    rintro rfl
    rw [List.append_nil] at hf
    rcases (C152_clean_iff level file pre last h).1 hf.symm with h0 | h0
    · exact h1 h0
    · obtain ⟨s, hs, hn⟩ := h2
      exact hn (h0 s hs)
  rw [← hf]
  have he : Ended (text level last.recs) := by
    have := session_ended level last.recs (file := []) (Or.inl rfl)
    rwa [text_session, List.nil_append] at this
  obtain ⟨es, hes, hs⟩ := C122_read_back L level last.recs hr
  rw [text_session, List.nil_append, getLogs_eq] at hes
  cases hm : (fileLines (text level last.recs)).mapM (readLine (L := L) defaultSep (split defaultSep defaultFmt)) with
  | none => rw [hm] at hes; simp at hes
  | some es' =>
    rw [hm, Option.map_some, keeps_none] at hes
    injection hes with hes
    subst hes
    rw [getLogs_eq, fileLines_append he, List.mapM_append, hm]
    cases hm2 : (fileLines rest).mapM (readLine (L := L) defaultSep (split defaultSep defaultFmt)) with
    | none => exact Or.inl (by simp)
    | some more =>
      refine Or.inr ⟨es', more, by simp [keeps_none], ?_, hs⟩
      rintro rfl
      have := fileLines_ne hrest
      cases hfl : fileLines rest with
      | nil => exact this hfl
      | cons a b =>
        rw [hfl, List.mapM_cons] at hm2
        cases h3 : readLine (L := L) defaultSep (split defaultSep defaultFmt) a with
        | none => simp [h3] at hm2
        | some v =>
          cases h4 : b.mapM (readLine (L := L) defaultSep (split defaultSep defaultFmt)) <;> simp [h3, h4] at hm2

/-! ### Appending -/

/-- The copies a file opened for appending gets: every record once for each handler there is. -/
def copies (level : Nat) : Nat → List Stretch → Str
  | _, [] => []
  | n, s :: ss => ((s.recs.filter fun r => level ≤ r.level.num).flatMap fun r => (List.replicate (n + 1) (line r)).flatten) ++ copies level (n + 1) ss

theorem append_log (level : Nat) (n : Nat) : ∀ (rs : List Rec) (l : Logger), l.level = level → l.handlers = List.replicate n ⟨.a, level, 0⟩ →
    (rs.foldl Logger.log l).level = level ∧ (rs.foldl Logger.log l).handlers = List.replicate n ⟨.a, level, 0⟩ ∧
      (rs.foldl Logger.log l).file = l.file ++ (rs.filter fun r => level ≤ r.level.num).flatMap fun r => (List.replicate n (line r)).flatten
  | [], l, h1, h2 => ⟨h1, h2, by simp⟩
  | r :: rs, l, h1, h2 => by
    have he : ∀ (m : Nat) (f : Str) (done : List Handler), level ≤ r.level.num →
        (List.replicate m (⟨.a, level, 0⟩ : Handler)).foldl (fun x h => ((h.emit x.1 r).1, x.2 ++ [(h.emit x.1 r).2])) (f, done) =
          (f ++ (List.replicate m (line r)).flatten, done ++ List.replicate m ⟨.a, level, 0⟩) := by
      intro m
      induction m with
      | zero => intro f done _; simp
      | succ m ih =>
        intro f done hl
        have e : (⟨.a, level, 0⟩ : Handler).emit f r = (f ++ line r, ⟨.a, level, 0⟩) := by
          unfold Handler.emit
          rw [if_pos hl]
        rw [List.replicate_succ, List.foldl_cons]
        dsimp only
        rw [e, ih _ _ hl, List.replicate_succ]
        simp
    rw [List.foldl_cons]
    by_cases hl : level ≤ r.level.num
    · have el : l.log r = ⟨l.file ++ (List.replicate n (line r)).flatten, level, List.replicate n ⟨.a, level, 0⟩⟩ := by
        unfold Logger.log emitAll
        rw [h1, if_pos hl, h2, he n _ _ hl]
        simp
      obtain ⟨a, b, c⟩ := append_log level n rs (l.log r) (by rw [el]) (by rw [el])
      refine ⟨a, b, ?_⟩
      rw [c, el]
      simp [hl]
    · have el : l.log r = l := by
        unfold Logger.log
        rw [h1, if_neg hl]
      rw [el]
      obtain ⟨a, b, c⟩ := append_log level n rs l h1 h2
      exact ⟨a, b, by rw [c]; simp [hl]⟩

theorem append_program (level : Nat) : ∀ (ss : List Stretch) (n : Nat) (l : Logger), (∀ s ∈ ss, s.level = level) → l.handlers = List.replicate n ⟨.a, level, 0⟩ →
    (ss.foldl (stretch .a) l).file = l.file ++ copies level n ss
  | [], _, l, _, _ => by simp [copies]
  | s :: ss, n, l, h, h2 => by
    rw [List.foldl_cons]
    obtain ⟨a, b, c⟩ := append_log level (n + 1) s.recs (l.set s.level .a) (h s (by simp)) (by
      rw [h s (by simp), List.replicate_succ']
      show l.handlers ++ [_] = _
      rw [h2])
    rw [append_program level ss (n + 1) (stretch .a l s) (fun x hx => h x (by simp [hx])) b]
    show (s.recs.foldl Logger.log (l.set s.level .a)).file ++ _ = _
    rw [c]
    show l.file ++ _ ++ _ = _
    rw [List.append_assoc]
    rfl

/-- C152, with a file opened for appending (`create_logger`'s own default): nothing is lost, and every record is in the file once for each time `set_logger` has been called. -/
theorem C152_append_copies (level : Nat) (file : Str) (ss : List Stretch) (h : ∀ s ∈ ss, s.level = level) :
    (program .a file ss).file = file ++ copies level 0 ss :=
  append_program level ss 0 (blank file) h rfl

/-! ### `log` -/

/-- C152: `log` with a level other than 0 and ERROR hands the record to the logger; with no level, 0 or ERROR it logs the exception being handled and raises it again, or, if there is
none, raises `AttributeError`. -/
theorem C152_log (handling : Option Str) (level : Option Nat) (msg : Option Str) :
    (∀ n, level = some n → n ≠ 0 → n ≠ 40 → logCall handling level msg = .logged n msg) ∧
    ((level = none ∨ level = some 0 ∨ level = some 40) →
      (handling = none → logCall handling level msg = .attributeError) ∧
      ∀ e, handling = some e → ∃ info, logCall handling level msg = .reraised e info ∧ ∀ m, msg = some m → m ≠ [] → info = some m) := by
  constructor
  · rintro n rfl h0 h40
    cases n with
    | zero => exact absurd rfl h0
    | succ n =>
      exact if_neg h40
  · intro hl
    have e : logCall handling level msg = match handling with
        | some reason => .reraised reason (match msg with | some [] => none | m => m)
        | none => .attributeError := by
      rcases hl with rfl | rfl | rfl <;> rfl
    rw [e]
    refine ⟨?_, ?_⟩
    · rintro rfl; rfl
    · rintro e rfl
      refine ⟨_, rfl, ?_⟩
      rintro m rfl hm
      cases m with
      | nil => exact absurd rfl hm
      | cons a b => rfl

/-! ### Examples -/

/-- A record with the text of the message and its level, as the logger of the package writes it. -/
def exRec (level : Level) (file func msg : String) : Rec :=
  ⟨"2024-05-06 07:08:09,101".toList, "pvder_logger".toList, file.toList, func.toList, level, msg.toList, "MainThread".toList, "7".toList⟩

/-- What the creation of the first model logs before its own handler is there (DER_components.py 116), and after (DER_check_and_initialize.py 34, shortened). -/
def exFound : Rec := exRec .info "DER_components.py" "get_DER_config" "DER configuration with ID:50 was found in config_der.json"
def exMade : Rec := exRec .info "DER_check_and_initialize.py" "creation_message" "-SolarPVDERThreePhase_1:Instance created with DER parameter ID: 50; Specifications - Srated:50.0 kVA"

/-- C152 is false of the code as first stated (a log that holds what was logged): already the creation of the first model with the default verbosity leaves a file with one whole record
and a torn one, and without the record logged first. -/
theorem C152_first_model_refuted :
    (program .w [] [⟨20, [exFound]⟩, ⟨20, [exMade]⟩]).file = line exMade ++ (line exMade).drop ((line exMade).length - (line exFound).length) ∧
    (fileLines (program .w [] [⟨20, [exFound]⟩, ⟨20, [exMade]⟩]).file).length = 2 ∧
    exFound.render ∉ fileLines (program .w [] [⟨20, [exFound]⟩, ⟨20, [exMade]⟩]).file := by
  refine ⟨?_, ?_, ?_⟩ <;> decide +kernel

/-- The conclusions of `C152_begins_with_last` need the one verbosity: a handler of a model created with verbosity ERROR writes over what has been logged since. -/
theorem C152_mixed_verbosity_refuted :
    ¬ text 20 [exFound, exRec .error "exceptionutil.py" "exception_handler" "{}"] <+:
      (program .w [] [⟨40, []⟩, ⟨20, [exFound, exRec .error "exceptionutil.py" "exception_handler" "{}"]⟩]).file := by
  decide +kernel

/-- The hypotheses of `C152_file_exact`, `C152_begins_with_last` and of the last part of `C152_reading` in a program with two models. -/
theorem C152_example :
    (∀ s ∈ ([⟨20, [exFound]⟩, ⟨20, [exMade]⟩] : List Stretch) ++ [⟨20, [exMade]⟩], s.level = 20) ∧ text 20 [exMade] ≠ [] ∧ text 20 [exFound] ≠ [] ∧
    (program .w [] ([⟨20, [exFound]⟩, ⟨20, [exMade]⟩] ++ [⟨20, [exMade]⟩])).file.length = (line exFound).length + 2 * (line exMade).length ∧
    (program .a [] [⟨20, [exFound]⟩, ⟨20, [exMade]⟩]).file = line exFound ++ line exMade ++ line exMade := by
  refine ⟨by simp, by decide +kernel, by decide +kernel, by decide +kernel, by decide +kernel⟩

end LogFile
end PvDer
