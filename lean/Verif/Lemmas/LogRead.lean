import Verif.Model.LogRead
import Mathlib.Data.List.Infix
import Mathlib.Tactic.Common

/-! # Lemmas about splitting and lines (C122) -/

namespace PvDer
namespace LogRead

/-! ## split -/

theorem splitAux_skip (sep acc : Str) : ∀ (x rest : Str), splitAux sep x.length acc (x ++ rest) = splitAux sep 0 acc rest
  | [], _ => rfl
  | _ :: x, rest => by
    show splitAux sep x.length acc (x ++ rest) = _
    exact splitAux_skip sep acc x rest

/-- A field behind which the separator is found where it was put. -/
def Clean (sep f : Str) : Prop := ∀ s, s <:+ f → s ≠ [] → ¬ sep <+: s ++ sep

theorem Clean.tail {sep : Str} {c : Char} {f : Str} (h : Clean sep (c :: f)) : Clean sep f :=
  fun s hs hn => h s (hs.trans (List.suffix_cons c f)) hn

theorem splitAux_field (sep : Str) (hsep : sep ≠ []) : ∀ (f acc rest : Str), Clean sep f →
    splitAux sep 0 acc (f ++ (sep ++ rest)) = (acc.reverse ++ f) :: splitAux sep 0 [] rest
  | [], acc, rest, _ => by
    cases sep with
    | nil => exact absurd rfl hsep
    | cons c t =>
      show splitAux (c :: t) 0 acc (c :: (t ++ rest)) = _
      rw [splitAux, if_pos (by rw [← List.cons_append]; exact List.prefix_append _ _)]
      have := splitAux_skip (c :: t) [] t rest
      simp only [List.length_cons, Nat.add_sub_cancel, List.append_nil]
      rw [this]
  | c :: f, acc, rest, h => by
    show splitAux sep 0 acc (c :: (f ++ (sep ++ rest))) = _
    rw [splitAux, if_neg, splitAux_field sep hsep f (c :: acc) rest h.tail]
    · simp
    · intro hp
      refine h (c :: f) (List.suffix_refl _) (by simp) ?_
      refine List.prefix_of_prefix_length_le (l₃ := c :: (f ++ (sep ++ rest))) hp ?_ (by simp; omega)
      exact ⟨rest, by simp⟩

theorem split_field {sep f : Str} (hsep : sep ≠ []) (h : Clean sep f) (rest : Str) : split sep (f ++ (sep ++ rest)) = f :: split sep rest := by
  simpa [split] using splitAux_field sep hsep f [] rest h

theorem splitAux_last (sep : Str) (hsep : sep ≠ []) : ∀ (f acc : Str), ¬ sep <:+: f → splitAux sep 0 acc f = [acc.reverse ++ f]
  | [], acc, _ => by simp [splitAux]
  | c :: f, acc, h => by
    rw [splitAux, if_neg (fun hp => h hp.isInfix), splitAux_last sep hsep f (c :: acc) (fun hp => h (hp.trans (List.suffix_cons c f).isInfix))]
    simp

theorem split_last {sep f : Str} (hsep : sep ≠ []) (h : ¬ sep <:+: f) : split sep f = [f] := by
  simpa [split] using splitAux_last sep hsep f [] h

theorem splitAux_head (sep : Str) : ∀ (s acc : Str) (k : Nat), ∃ x rest, splitAux sep k acc s = (acc.reverse ++ x) :: rest
  | [], acc, _ => ⟨[], [], by simp [splitAux]⟩
  | c :: s, acc, 0 => by
    rw [splitAux]
    split
    · exact ⟨[], _, by rw [List.append_nil]⟩
    · obtain ⟨x, r, h⟩ := splitAux_head sep s (c :: acc) 0
      exact ⟨c :: x, r, by rw [h]; simp⟩
  | c :: s, acc, k + 1 => splitAux_head sep s acc k

theorem split_head {sep : Str} {c : Char} {s : Str} (h : ¬ sep <+: c :: s) : ∃ x rest, split sep (c :: s) = (c :: x) :: rest := by
  obtain ⟨x, r, hx⟩ := splitAux_head sep s [c] 0
  exact ⟨x, r, by rw [split, splitAux, if_neg h, hx]; rfl⟩

/-! ## The separator `::` -/

/-- No `::` inside and no colon at the end. -/
def Plain (f : Str) : Prop := ¬ "::".toList <:+: f ∧ f.getLast? ≠ some ':'

theorem sep_ne : defaultSep ≠ [] := by decide

theorem plain_clean {f : Str} (h : Plain f) : Clean defaultSep f := by
  intro s hs hn hp
  obtain ⟨t, ht⟩ := hp
  match s, hn, hs, ht with
  | [a], _, hs, ht =>
    have : a = ':' := by
      have := congrArg List.head? ht
      simpa [defaultSep] using this.symm
    subst this
    obtain ⟨u, hu⟩ := hs
    exact h.2 (by rw [← hu]; simp)
  | a :: b :: s, _, hs, ht =>
    have e : ':' = a ∧ ':' = b := by simpa [defaultSep, List.cons_append] using And.intro (congrArg List.head? ht) (congrArg (fun l => l.tail.head?) ht)
    obtain ⟨u, hu⟩ := hs
    refine h.1 ⟨u, s, ?_⟩
    rw [← hu, ← e.1, ← e.2]
    simp

/-! ## Lines -/

def NoBreak (s : Str) : Prop := ∀ c ∈ s, isBreak c = false

theorem linesAux_line : ∀ (l acc rest : Str), NoBreak l → linesAux acc (l ++ '\n' :: rest) = (acc.reverse ++ l) :: linesAux [] rest
  | [], acc, rest, _ => by simp [linesAux, isBreak]
  | c :: l, acc, rest, h => by
    show linesAux acc (c :: (l ++ '\n' :: rest)) = _
    rw [linesAux, if_neg (by simp [h c (by simp)]), linesAux_line l (c :: acc) rest (fun d hd => h d (by simp [hd]))]
    simp

theorem splitlines_line {l : Str} (h : NoBreak l) (rest : Str) : splitlines (l ++ '\n' :: rest) = l :: splitlines rest := by
  simpa [splitlines] using linesAux_line l [] rest h

theorem splitlines_nil : splitlines [] = [] := rfl

/-- A text that is empty or ends with a newline. -/
def Ended (s : Str) : Prop := s = [] ∨ ∃ t, s = t ++ ['\n']

theorem linesAux_append : ∀ (t acc rest : Str), linesAux acc (t ++ '\n' :: rest) = linesAux acc (t ++ ['\n']) ++ linesAux [] rest
  | [], acc, rest => by simp [linesAux, isBreak]
  | c :: t, acc, rest => by
    show linesAux acc (c :: (t ++ '\n' :: rest)) = linesAux acc (c :: (t ++ ['\n'])) ++ _
    rw [linesAux, linesAux]
    split
    · rw [linesAux_append t [] rest]; rfl
    · rw [linesAux_append t (c :: acc) rest]

theorem splitlines_append {a : Str} (h : Ended a) (b : Str) : splitlines (a ++ b) = splitlines a ++ splitlines b := by
  rcases h with rfl | ⟨t, rfl⟩
  · rfl
  · simpa [splitlines] using linesAux_append t [] b

theorem universal_append (b : Str) : ∀ t : Str, universal (t ++ '\n' :: b) = universal (t ++ ['\n']) ++ universal b
  | [] => by
    cases b with
    | nil => rfl
    | cons c b => rfl
  | [c] => by
    by_cases hc : c = '\r'
    · subst hc
      simp [universal]
    · cases b with
      | nil => simp [universal, hc]
      | cons d b => simp [universal, hc]
  | c :: d :: t => by
    show universal (c :: d :: (t ++ '\n' :: b)) = universal (c :: d :: (t ++ ['\n'])) ++ _
    rw [universal, universal]
    split
    · split
      · rw [universal_append b t]; rfl
      · have := universal_append b (d :: t)
        simp only [List.cons_append] at this
        rw [this]; rfl
    · have := universal_append b (d :: t)
      simp only [List.cons_append] at this
      rw [this]; rfl

theorem universal_newline : ∀ t : Str, ∃ u, universal (t ++ ['\n']) = u ++ ['\n']
  | [] => ⟨[], rfl⟩
  | [c] => by
    by_cases hc : c = '\r'
    · subst hc; exact ⟨[], rfl⟩
    · exact ⟨[c], by simp [universal, hc]⟩
  | c :: d :: t => by
    show ∃ u, universal (c :: d :: (t ++ ['\n'])) = _
    rw [universal]
    split
    · split
      · obtain ⟨u, hu⟩ := universal_newline t
        exact ⟨'\n' :: u, by rw [hu]; rfl⟩
      · obtain ⟨u, hu⟩ := universal_newline (d :: t)
        simp only [List.cons_append] at hu
        exact ⟨'\n' :: u, by rw [hu]; rfl⟩
    · obtain ⟨u, hu⟩ := universal_newline (d :: t)
      simp only [List.cons_append] at hu
      exact ⟨c :: u, by rw [hu]; rfl⟩

theorem universal_ended {a : Str} (h : Ended a) (b : Str) : universal (a ++ b) = universal a ++ universal b ∧ Ended (universal a) := by
  rcases h with rfl | ⟨t, rfl⟩
  · exact ⟨rfl, Or.inl rfl⟩
  · exact ⟨by simpa using universal_append b t, Or.inr (universal_newline t)⟩

theorem universal_noBreak : ∀ {s : Str}, NoBreak s → ∀ rest, universal (s ++ '\n' :: rest) = s ++ '\n' :: universal rest
  | [], _, rest => by cases rest <;> rfl
  | [c], h, rest => by
    have hc : c ≠ '\r' := by rintro rfl; exact absurd (h '\r' (by simp)) (by decide)
    cases rest <;> simp [universal, hc]
  | c :: d :: s, h, rest => by
    have hc : c ≠ '\r' := by rintro rfl; exact absurd (h '\r' (by simp)) (by decide)
    have := universal_noBreak (s := d :: s) (fun x hx => h x (by simp [hx])) rest
    simp only [List.cons_append] at this ⊢
    rw [universal, if_neg hc, this]

/-! ## The file -/

theorem write_ended (level : Nat) {file : Str} (h : Ended file) (r : Rec) : Ended (write level file r) := by
  unfold write
  split
  · exact Or.inr ⟨_, rfl⟩
  · exact h

theorem session_ended (level : Nat) : ∀ (rs : List Rec) {file : Str}, Ended file → Ended (session level file rs)
  | [], _, h => h
  | r :: rs, _, h => session_ended level rs (write_ended level h r)

/-- The lines read from a file. -/
def fileLines (file : Str) : List Str := splitlines (universal file)

theorem fileLines_append {a : Str} (h : Ended a) (b : Str) : fileLines (a ++ b) = fileLines a ++ fileLines b := by
  unfold fileLines
  rw [(universal_ended h b).1, splitlines_append (universal_ended h b).2]

theorem fileLines_line {l : Str} (h : NoBreak l) (rest : Str) : fileLines (l ++ '\n' :: rest) = l :: fileLines rest := by
  unfold fileLines
  rw [universal_noBreak h, splitlines_line h]

/-- Every record is written behind what is there, as text that is read independently of it. -/
theorem fileLines_session (level : Nat) : ∀ (rs : List Rec) {file : Str}, Ended file →
    fileLines (session level file rs) = fileLines file ++ (rs.filter fun r => level ≤ r.level.num).flatMap fun r => fileLines (r.render ++ ['\n'])
  | [], file, _ => by simp [session]
  | r :: rs, file, h => by
    show fileLines (session level (write level file r) rs) = _
    rw [fileLines_session level rs (write_ended level h r)]
    by_cases hl : level ≤ r.level.num
    · simp [write, hl, fileLines_append h]
    · simp [write, hl]

/-! ## strip -/

theorem dropWhile_head {p : Char → Bool} {c : Char} {s : Str} (h : p c = false) : (c :: s).dropWhile p = c :: s := by simp [List.dropWhile, h]

theorem strip_head {c : Char} {s : Str} (h : isSpace c = false) : ∃ t, strip (c :: s) = c :: t := by
  unfold strip
  rw [dropWhile_head h, List.reverse_cons, List.dropWhile_append]
  split
  · exact ⟨[], by simp [List.dropWhile, h]⟩
  · exact ⟨(s.reverse.dropWhile isSpace).reverse, by simp⟩

theorem strip_ends {c d : Char} {s : Str} (hc : isSpace c = false) (hd : isSpace d = false) : strip (c :: s ++ [d]) = c :: s ++ [d] := by
  unfold strip
  rw [List.cons_append, dropWhile_head hc, ← List.cons_append, List.reverse_append]
  simp only [List.reverse_cons, List.reverse_nil, List.nil_append, List.cons_append]
  rw [dropWhile_head hd]
  simp

/-! ## Reading one line -/

theorem default_header : split defaultSep defaultFmt = [kTime, kName, kFile, kFunc, kLevel, kMsg, kThread, kProc] := by decide +kernel

theorem header_strip : [kTime, kName, kFile, kFunc, kLevel, kMsg, kThread, kProc].map strip = [kTime, kName, kFile, kFunc, kLevel, kMsg, kThread, kProc] := by
  decide +kernel

theorem level_strip (l : Level) : strip l.name = l.name := by cases l <;> decide +kernel

theorem level_error (l : Level) : l.name = "ERROR".toList ↔ l = .error := by cases l <;> decide +kernel

theorem level_plain (l : Level) : Plain l.name := by cases l <;> unfold Plain <;> decide +kernel

theorem level_noBreak (l : Level) : NoBreak l.name := by cases l <;> unfold NoBreak <;> decide +kernel

end LogRead
end PvDer
