import Verif.Model.Naming
import Std.Data.String.ToNat

/-!
# Property C100: instance names are unique in a process
-/

namespace PvDer
namespace Naming

/-- The part after the last occurrence of a character is determined by the string. -/
theorem split_last {x : Char} {a b a' b' : List Char} (h : a ++ x :: b = a' ++ x :: b') (hb : x ∉ b) (hb' : x ∉ b') : a = a' ∧ b = b' := by
  induction a generalizing a' with
  | nil =>
    cases a' with
    | nil => simpa using h
    | cons c a' =>
      simp only [List.nil_append, List.cons_append, List.cons.injEq] at h
      exact absurd (by rw [h.2]; simp) hb
  | cons c a ih =>
    cases a' with
    | nil =>
      simp only [List.nil_append, List.cons_append, List.cons.injEq] at h
      exact absurd (by rw [← h.2]; simp) hb'
    | cons c' a' =>
      simp only [List.cons_append, List.cons.injEq] at h
      obtain ⟨h1, h2⟩ := ih h.2
      exact ⟨by rw [h.1, h1], h2⟩

theorem repr_digit {n : Nat} {c : Char} (h : c ∈ n.repr.toList) : c.isDigit = true := by
  rw [Nat.toList_repr] at h
  exact Nat.isDigit_of_mem_toDigits (by decide) (by decide) h

theorem not_digit {n : Nat} {c : Char} (hc : c.isDigit = false) : c ∉ n.repr.toList := fun h => by rw [repr_digit h] at hc; exact absurd hc (by simp)

theorem stem_no_dash (k : Kind) : '-' ∉ k.stem.toList := by cases k <;> decide +kernel

theorem stem_inj {k k' : Kind} (h : k.stem.toList = k'.stem.toList) : k = k' := by
  cases k <;> cases k' <;> first | rfl | exact absurd h (by decide +kernel)

theorem tail_toList (k : Kind) (n : Nat) : (k.stem ++ "_" ++ n.repr).toList = k.stem.toList ++ '_' :: n.repr.toList := by
  simp [String.toList_append]

theorem tail_no_dash (k : Kind) (n : Nat) : '-' ∉ (k.stem ++ "_" ++ n.repr).toList := by
  rw [tail_toList]
  intro h
  rcases List.mem_append.1 h with h | h
  · exact stem_no_dash k h
  · rcases List.mem_cons.1 h with h | h
    · exact absurd h (by decide)
    · exact not_digit (by decide) h

theorem tail_inj {k k' : Kind} {n n' : Nat} (h : (k.stem ++ "_" ++ n.repr).toList = (k'.stem ++ "_" ++ n'.repr).toList) : k = k' ∧ n = n' := by
  rw [tail_toList, tail_toList] at h
  obtain ⟨h1, h2⟩ := split_last h (not_digit (by decide)) (not_digit (by decide))
  exact ⟨stem_inj h1, Nat.repr_injective (String.toList_injective h2)⟩

/-- C100: a name determines the class and the number, whatever identifiers users choose (even identifiers that look like other names). -/
theorem C100_name_determines_instance {k k' : Kind} {i i' : String} {n n' : Nat} (h : name k i n = name k' i' n') : k = k' ∧ n = n' := by
  have h0 := congrArg String.toList h
  unfold name at h0
  have dash : ∀ (i : String) (k : Kind) (n : Nat), (i ++ "-" ++ (k.stem ++ "_" ++ n.repr)).toList = i.toList ++ '-' :: (k.stem ++ "_" ++ n.repr).toList := by
    intro i k n; simp [String.toList_append]
  by_cases hk : k = .grid <;> by_cases hk' : k' = .grid
  · rw [if_pos hk, if_pos hk'] at h0; exact tail_inj h0
  · rw [if_pos hk, if_neg hk', dash] at h0
    exact absurd (by rw [h0]; simp) (tail_no_dash k n)
  · rw [if_neg hk, if_pos hk', dash] at h0
    exact absurd (by rw [← h0]; simp) (tail_no_dash k' n')
  · rw [if_neg hk, if_neg hk', dash, dash] at h0
    exact tail_inj (split_last h0 (tail_no_dash k n) (tail_no_dash k' n')).2

theorem later {c : Counts} (l : List Op) : ∀ s ∈ names c l, ∃ k i n, s = name k i n ∧ c k < n := by
  induction l generalizing c with
  | nil => intro s hs; simp [names] at hs
  | cons o l ih =>
    intro s hs
    have hmono : ∀ k, c k ≤ (step c o).1 k := by intro k; unfold step; dsimp only; split_ifs <;> omega
    unfold names at hs
    rcases hq : step c o with ⟨c', r⟩
    rw [hq] at hs hmono
    have hrest : ∀ s ∈ names c' l, ∃ k i n, s = name k i n ∧ c k < n := by
      intro s hs
      obtain ⟨k, i, n, h1, h2⟩ := ih s hs
      exact ⟨k, i, n, h1, lt_of_le_of_lt (hmono k) h2⟩
    cases r with
    | none => exact hrest s hs
    | some m =>
      rcases List.mem_cons.1 hs with rfl | hs
      · unfold step at hq
        dsimp only at hq
        rw [if_pos rfl] at hq
        split_ifs at hq with he
        · exact absurd (congrArg Prod.snd hq) (by simp)
        · refine ⟨o.kind, o.ident, c o.kind + 1, ?_, by omega⟩
          have := Option.some.inj (congrArg Prod.snd hq)
          exact this.symm
      · exact hrest s hs

/-- C100: in any process, along any sequence of constructor calls of any classes, with any identifiers, including calls that fail, all names given are different. -/
theorem C100_names_unique (l : List Op) : (names (fun _ => 0) l).Nodup := by
  suffices h : ∀ c, (names c l).Nodup from h _
  induction l with
  | nil => intro c; exact List.nodup_nil
  | cons o l ih =>
    intro c
    unfold names
    rcases hq : step c o with ⟨c', r⟩
    cases r with
    | none => exact ih c'
    | some m =>
      refine List.nodup_cons.2 ⟨?_, ih c'⟩
      intro hm
      obtain ⟨k, i, n, h1, h2⟩ := later l m hm
      unfold step at hq
      dsimp only at hq
      rw [if_pos rfl] at hq
      split_ifs at hq with he
      · exact absurd (congrArg Prod.snd hq) (by simp)
      · have e1 := congrArg Prod.fst hq
        have e2 := Option.some.inj (congrArg Prod.snd hq)
        simp only at e1
        rw [h1] at e2
        obtain ⟨a1, a2⟩ := C100_name_determines_instance e2
        subst a1
        rw [← e1] at h2
        dsimp only at h2
        rw [if_pos rfl] at h2
        omega

/-- C100: every constructor call that reaches the naming step gets a name that ends in the class word and the number of constructor calls of that class so far. -/
theorem C100_name_form (l : List Op) (o : Op) (h : o.early = false) :
    names (fun _ => 0) (l ++ [o]) = names (fun _ => 0) l ++ [name o.kind o.ident ((l.filter (fun p => p.kind = o.kind)).length + 1)] := by
  suffices h : ∀ c : Counts, names c (l ++ [o]) = names c l ++ [name o.kind o.ident (c o.kind + (l.filter (fun p => p.kind = o.kind)).length + 1)] by
    rw [h]; simp
  induction l with
  | nil => intro c; simp [names, step, h]
  | cons p l ih =>
    intro c
    simp only [List.cons_append, names]
    rcases hq : step c p with ⟨c', r⟩
    have hc : c' o.kind = if p.kind = o.kind then c o.kind + 1 else c o.kind := by
      have := congrFun (congrArg Prod.fst hq) o.kind
      change _ = c' o.kind at this
      rw [← this]; unfold step; simp only [eq_comm]
    have hn : c' o.kind + (l.filter (fun q => q.kind = o.kind)).length + 1 = c o.kind + ((p :: l).filter (fun q => q.kind = o.kind)).length + 1 := by
      rw [hc]; by_cases hp : p.kind = o.kind
      · simp [hp]; omega
      · simp [hp]
    cases r with
    | none => dsimp only; rw [ih c', hn]
    | some m => dsimp only; rw [ih c', hn]; rfl

/-- A history with an identifier chosen to imitate another name, a missing identifier and a failed constructor. -/
theorem C100_example : names (fun _ => 0) [⟨.sim, "None", false⟩, ⟨.three, "x", true⟩, ⟨.grid, "", false⟩, ⟨.three, "None-sim_1", false⟩, ⟨.sim, "None", false⟩] =
    ["None-sim_1", "grid_1", "None-sim_1-SolarPVDERThreePhase_2", "None-sim_2"] := by decide +kernel

end Naming
end PvDer
