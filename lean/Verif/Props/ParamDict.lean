import Verif.Model.ParamDict
/-!
C70: parameter dictionaries of different IDs do not interfere. C71: save and load.
-/
namespace PvDer
namespace Params
variable {V : Type}

/-- What a user sees: the value of parameter `k` of type `t` under `id`; outer `none`: no such entry. -/
def val (s : Store V) (t : PT) (id k : String) : Option (Option V) := (get (s t) id).bind fun d => get d k

theorem get_set {A : Type} (d : Dict A) (k k' : String) (v : A) : get (set d k v) k' = if k' = k then some v else get d k' := by
  induction d with
  | nil =>
    by_cases h : k' = k
    · subst h; simp [set, get]
    · simp [set, get, h, Ne.symm h]
  | cons e d ih =>
    unfold set
    by_cases he : e.1 = k
    · by_cases h : k' = k
      · subst h; simp [get, he]
      · simp [get, he, h, Ne.symm h]
    · by_cases h' : e.1 = k'
      · have : k' ≠ k := fun h => he (h' ▸ h)
        simp [get, he, h', this]
      · have hs : (e.1 == k) = false := by simp [he]
        have hs' : (e.1 == k') = false := by simp [h']
        simp only [hs, Bool.false_eq_true, if_false]
        unfold get at ih ⊢
        rw [List.find?_cons, List.find?_cons, hs']
        exact ih

theorem get_upd {A : Type} (d e : Dict A) (k : String) : get (upd d e) k = (get e k).or (get d k) := by
  induction e with
  | nil => rfl
  | cons p e ih =>
    change get (set (upd d e) p.1 p.2) k = _
    rw [get_set, ih]
    by_cases h : k = p.1
    · subst h; simp [get]
    · have : (p.1 == k) = false := by simp [Ne.symm h]
      simp [h, get, List.find?_cons, this]

theorem get_blank (d : Dict (Option V)) (k : String) : get (d.map fun e => (e.1, (none : Option V))) k = (get d k).map fun _ => none := by
  induction d with
  | nil => rfl
  | cons e d ih =>
    unfold get at ih ⊢
    by_cases h : e.1 = k
    · simp [h]
    · have : (e.1 == k) = false := by simp [h]
      simp only [List.map_cons, List.find?_cons, this]
      exact ih

theorem put_apply (s : Store V) (t t' : PT) (d : Dict (Dict (Option V))) : s.put t d t' = if t' = t then d else s t' := rfl

theorem seqM_inv {A : Type} {f : Store V → A → Store V × Except Err Unit} (R : Store V → Store V → Prop) (hr : ∀ s, R s s) (ht : ∀ a b c, R a b → R b c → R a c)
    (hf : ∀ s a, R s (f s a).1) (l : List A) (s : Store V) : R s (seqM f l s).1 := by
  induction l generalizing s with
  | nil => exact hr s
  | cons a l ih =>
    unfold seqM
    have := hf s a
    cases h : f s a with
    | mk s' r =>
      rw [h] at this
      cases r with
      | ok u => exact ht _ _ _ this (ih s')
      | error e => exact this

/-- The dictionaries of all IDs other than `id` are as before. -/
def Others (id : String) (s s' : Store V) : Prop := ∀ t id', id' ≠ id → get (s' t) id' = get (s t) id'

theorem Others.refl (id : String) (s : Store V) : Others id s s := fun _ _ _ => rfl
theorem Others.trans {id : String} {a b c : Store V} (h : Others id a b) (h' : Others id b c) : Others id a c :=
  fun t i hi => by rw [h' t i hi, h t i hi]

theorem put_others (s : Store V) (t : PT) (id : String) (d : Dict (Option V)) : Others id s (s.put t (set (s t) id d)) := by
  intro t' i hi
  rw [put_apply]
  split_ifs with h
  · subst h; rw [get_set, if_neg hi]
  · rfl

theorem create_others (m : Sim.Mt) (id : String) (s : Store V) : Others id s (create m (some id) s).1 := by
  unfold create
  cases defaultID m with
  | error e => exact Others.refl _ _
  | ok dflt =>
    refine seqM_inv (Others id) (Others.refl id) (fun _ _ _ => Others.trans) ?_ _ _
    intro s t
    unfold createOne
    cases get (s t) dflt with
    | none => exact Others.refl _ _
    | some d => exact put_others _ _ _ _

theorem update_others (m : Sim.Mt) (id ty : String) (pd : Dict (Option V)) (s : Store V) : Others id s (update m id ty pd s).1 := by
  unfold update
  split_ifs
  · exact Others.refl _ _
  · cases pd with
    | nil => exact Others.refl _ _
    | cons p pd =>
      simp only
      cases ptOf ty with
      | none => exact Others.refl _ _
      | some t =>
        simp only
        cases get (s t) id with
        | none => exact Others.refl _ _
        | some d => exact put_others _ _ _ _

theorem initDict_others (m : Sim.Mt) (id src : String) (s : Store V) : Others id s (initDict m (some id) src s).1 := by
  unfold initDict
  have h := create_others m id s
  cases hc : create m (some id) s with
  | mk s1 r =>
    rw [hc] at h
    cases r with
    | error e => exact h
    | ok u =>
      refine h.trans (seqM_inv (Others id) (Others.refl id) (fun _ _ _ => Others.trans) ?_ _ _)
      intro s t
      unfold copyOne
      cases get (s t) src with
      | none => exact Others.refl _ _
      | some d => exact update_others _ _ _ _ _

theorem load_others (m : Sim.Mt) (f : String) (fs : Files V) (s : Store V) : Others (baseName f) s (load m f fs s).1 := by
  unfold load
  cases fs f with
  | none => exact Others.refl _ _
  | some o =>
    cases o with
    | other => exact Others.refl _ _
    | dict pd =>
      simp only
      cases defaultID m with
      | error e => exact Others.refl _ _
      | ok dflt =>
        simp only
        have h := initDict_others m (baseName f) dflt s
        cases hi : initDict m (some (baseName f)) dflt s with
        | mk s1 r =>
          rw [hi] at h
          cases r with
          | error e => exact h
          | ok u =>
            have h2 : Others (baseName f) s1 (seqM (fun s t => update m (baseName f) (PT.name t) pd s) PT.all s1).1 :=
              seqM_inv (Others _) (Others.refl _) (fun _ _ _ => Others.trans) (fun s t => update_others _ _ _ _ _) _ _
            simp only
            cases hq : seqM (fun s t => update m (baseName f) (PT.name t) pd s) PT.all s1 with
            | mk s2 q =>
              rw [hq] at h2
              cases q with
              | error e => exact h.trans h2
              | ok u => exact h.trans h2

/-- Calls of the dictionary methods. -/
inductive Op (V : Type)
  | create (id : String) | init (id src : String) | update (id ty : String) (pd : Dict (Option V)) | load (file : String) (contents : Option (Obj V))

/-- The parameter ID a call is about. -/
def Op.target : Op V → String
  | .create id => id
  | .init id _ => id
  | .update id _ _ => id
  | .load f _ => baseName f

/-- The stores after a call, whether it returned or raised. -/
def Op.exec (m : Sim.Mt) (s : Store V) : Op V → Store V
  | .create id => (Params.create m (some id) s).1
  | .init id src => (initDict m (some id) src s).1
  | .update id ty pd => (Params.update m id ty pd s).1
  | .load f c => (Params.load m f (fun g => if g = f then c else none) s).1

/-- **C70 (other IDs).** Over every sequence of calls that create, initialise, update or load dictionaries, successful or failing, no parameter of an ID that none of the calls is about changes. -/
theorem C70_other_ids (m : Sim.Mt) (ops : List (Op V)) (s : Store V) (t : PT) (id k : String) (h : ∀ o ∈ ops, o.target ≠ id) :
    val (ops.foldl (Op.exec m) s) t id k = val s t id k := by
  induction ops generalizing s with
  | nil => rfl
  | cons o ops ih =>
    rw [List.foldl_cons, ih _ fun o ho => h o (List.mem_cons_of_mem _ ho)]
    have ho := h o List.mem_cons_self
    have : Others o.target s (Op.exec m s o) := by
      cases o with
      | create i => exact create_others m i s
      | init i src => exact initDict_others m i src s
      | update i ty pd => exact update_others m i ty pd s
      | load f c => exact load_others m f _ s
    unfold val
    rw [this t id (Ne.symm ho)]

theorem ptOf_name (t : PT) : ptOf t.name = some t := by cases t <;> decide +kernel

theorem template_name (m : Sim.Mt) (t : PT) : (Config.template m).any (fun c => c.1 == t.name) = true := by
  cases m <;> cases t <;> decide +kernel

theorem ptOf_some {ty : String} {t : PT} (h : ptOf ty = some t) : ty = t.name := by
  have := List.find?_some h
  exact (beq_iff_eq.mp this).symm

/-- **C70 (update).** On an existing ID, updating one parameter type replaces exactly the given keys of that type: given keys get the given values, the others of the same ID and type and all other types are unchanged. -/
theorem C70_update (m : Sim.Mt) (t : PT) (id : String) (pd : Dict (Option V)) (s : Store V) (hid : (get (s t) id).isSome) :
    (update m id t.name pd s).2 = .ok () ∧
    (∀ k, val (update m id t.name pd s).1 t id k = (get pd k).or (val s t id k)) ∧
    (∀ t' id' k, t' ≠ t → val (update m id t.name pd s).1 t' id' k = val s t' id' k) := by
  obtain ⟨d, hd⟩ := Option.isSome_iff_exists.mp hid
  have hpt := ptOf_name t
  unfold update
  rw [template_name]
  cases pd with
  | nil => exact ⟨rfl, fun k => rfl, fun _ _ _ _ => rfl⟩
  | cons p pd =>
    simp only [Bool.true_eq_false, if_false, hpt, hd]
    refine ⟨trivial, ?_, ?_⟩
    · intro k
      unfold val
      rw [put_apply, if_pos rfl, get_set, if_pos rfl, hd]
      exact get_upd d (p :: pd) k
    · intro t' id' k ht
      unfold val
      rw [put_apply, if_neg ht]

/-- **C70 (unknown type).** A type name that is not in the design template is rejected with `ValueError` and changes nothing; one that is in the template but is not one of the five is silently ignored. -/
theorem C70_unknown_type (m : Sim.Mt) (id ty : String) (pd : Dict (Option V)) (s : Store V) (h : ∀ t : PT, ty ≠ t.name) :
    (update m id ty pd s).1 = s ∧ ((update m id ty pd s).2 = .error .valueError ↔ ∀ c ∈ Config.template m, c.1 ≠ ty) := by
  have hpt : ptOf ty = none := by
    cases hq : ptOf ty with
    | none => rfl
    | some t => exact absurd (ptOf_some hq) (h t)
  unfold update
  by_cases ha : (Config.template m).any (fun c => c.1 == ty) = false
  · rw [if_pos ha]
    refine ⟨rfl, fun _ c hc he => ?_, fun _ => rfl⟩
    have := List.any_eq_false.mp ha c hc
    simp [he] at this
  · rw [if_neg ha]
    have hex : ¬ ∀ c ∈ Config.template m, c.1 ≠ ty := by
      intro hall
      apply ha
      rw [List.any_eq_false]
      intro c hc
      simp [hall c hc]
    cases pd with
    | nil => exact ⟨rfl, iff_of_false (by simp) hex⟩
    | cons p pd =>
      simp only [hpt]
      exact ⟨trivial, iff_of_false (by simp) hex⟩

/-- **C70 (refuted part).** Unknown parameter names are not rejected: an update with any key whatsoever succeeds and stores it. -/
theorem C70_unknown_parameter_accepted (m : Sim.Mt) (t : PT) (id k : String) (v : V) (s : Store V) (hid : (get (s t) id).isSome) (hk : val s t id k = none) :
    (update m id t.name [(k, some v)] s).2 = .ok () ∧ val (update m id t.name [(k, some v)] s).1 t id k = some (some v) := by
  obtain ⟨h1, h2, _⟩ := C70_update m t id [(k, some v)] s hid
  exact ⟨h1, by rw [h2]; simp [get]⟩

theorem seqM_cons_ok {A : Type} {f : Store V → A → Store V × Except Err Unit} {a : A} {l : List A} {s s' : Store V} (h : f s a = (s', .ok ())) :
    seqM f (a :: l) s = seqM f l s' := by
  simp [seqM, h]

/-- A pass over the five types that succeeds and changes each type's dictionary of `id` by `g`. -/
theorem seqM_each (f : Store V → PT → Store V × Except Err Unit) (id : String) (g : PT → Dict (Option V)) (s : Store V)
    (hf : ∀ (s' : Store V) (t : PT), s' t = s t → f s' t = (s'.put t (set (s t) id (g t)), .ok ())) :
    seqM f PT.all s = (fun t => set (s t) id (g t), .ok ()) := by
  have e1 := hf s .modulePars rfl
  have e2 := hf (s.put .modulePars (set (s .modulePars) id (g .modulePars))) .inverter rfl
  have e3 := hf (Store.put (s.put .modulePars (set (s .modulePars) id (g .modulePars))) .inverter (set (s .inverter) id (g .inverter))) .circuit rfl
  have e4 := hf (Store.put (Store.put (s.put .modulePars (set (s .modulePars) id (g .modulePars))) .inverter (set (s .inverter) id (g .inverter))) .circuit (set (s .circuit) id (g .circuit))) .gains rfl
  have e5 := hf (Store.put (Store.put (Store.put (s.put .modulePars (set (s .modulePars) id (g .modulePars))) .inverter (set (s .inverter) id (g .inverter))) .circuit (set (s .circuit) id (g .circuit)))
    .gains (set (s .gains) id (g .gains))) .steady rfl
  unfold PT.all
  rw [seqM_cons_ok e1, seqM_cons_ok e2, seqM_cons_ok e3, seqM_cons_ok e4, seqM_cons_ok e5]
  simp only [seqM, Prod.mk.injEq, and_true]
  funext t
  cases t <;> simp [put_apply]

theorem create_ok {m : Sim.Mt} {dflt : String} (hd : defaultID m = .ok dflt) (id : String) (s : Store V) (h : ∀ t, (get (s t) dflt).isSome) :
    create m (some id) s = (fun t => set (s t) id (((get (s t) dflt).getD []).map fun e => (e.1, none)), .ok ()) := by
  unfold create
  rw [hd]
  refine seqM_each _ id (fun t => ((get (s t) dflt).getD []).map fun e => (e.1, none)) s ?_
  intro s' t ht
  unfold createOne
  obtain ⟨d, hd'⟩ := Option.isSome_iff_exists.mp (h t)
  rw [ht, hd']
  rfl

theorem set_same {A : Type} (d : Dict A) (k : String) (v : A) (h : get d k = some v) : set d k v = d := by
  induction d with
  | nil => simp [get] at h
  | cons e d ih =>
    unfold set
    by_cases he : e.1 = k
    · simp [get, he] at h
      subst h
      subst he
      simp
    · have hs : (e.1 == k) = false := by simp [he]
      rw [hs]
      simp only [Bool.false_eq_true, if_false]
      rw [ih]
      unfold get at h ⊢
      rw [List.find?_cons, hs] at h
      exact h

theorem set_set {A : Type} (d : Dict A) (k : String) (v w : A) : set (set d k v) k w = set d k w := by
  induction d with
  | nil => simp [set]
  | cons e d ih =>
    by_cases he : e.1 = k
    · simp [set, he]
    · have hs : (e.1 == k) = false := by simp [he]
      simp [set, hs, ih]

theorem update_ok (m : Sim.Mt) (t : PT) (id : String) (pd d : Dict (Option V)) (s : Store V) (hd : get (s t) id = some d) :
    update m id t.name pd s = (s.put t (set (s t) id (upd d pd)), .ok ()) := by
  unfold update
  rw [template_name]
  cases pd with
  | nil =>
    simp only [Bool.true_eq_false, if_false, upd, List.foldr_nil, Prod.mk.injEq, and_true]
    rw [set_same _ _ _ hd]
    funext t'
    rw [put_apply]
    split_ifs with h
    · rw [h]
    · rfl
  | cons p pd => simp only [Bool.true_eq_false, if_false, ptOf_name t, hd]

/-- **C70 (initialise).** If the instance has the default dictionary of its class and a different source dictionary, `initialize_parameter_dict` succeeds and the new dictionary has exactly the keys of the two, with the
source's values and `None` for keys the source lacks. -/
theorem C70_initialize {m : Sim.Mt} {dflt : String} (hd : defaultID m = .ok dflt) (id src : String) (hne : src ≠ id) (s : Store V)
    (h1 : ∀ t, (get (s t) dflt).isSome) (h2 : ∀ t, (get (s t) src).isSome) :
    (initDict m (some id) src s).2 = .ok () ∧
    ∀ t k, val (initDict m (some id) src s).1 t id k = (val s t src k).or ((val s t dflt k).map fun _ => none) := by
  unfold initDict
  rw [create_ok hd id s h1]
  simp only
  have := seqM_each (copyOne m id src) id (fun t => upd (((get (s t) dflt).getD []).map fun e => (e.1, none)) ((get (s t) src).getD []))
    (fun t => set (s t) id (((get (s t) dflt).getD []).map fun e => (e.1, none))) (by
      intro s' t ht
      unfold copyOne
      obtain ⟨d, hd'⟩ := Option.isSome_iff_exists.mp (h2 t)
      have hsrc : get (s' t) src = some d := by rw [ht, get_set, if_neg hne, hd']
      rw [hsrc]
      simp only
      rw [update_ok m t id d (((get (s t) dflt).getD []).map fun e => (e.1, none)) s' (by rw [ht, get_set, if_pos rfl]), ht, hd']
      rfl)
  rw [this]
  refine ⟨rfl, ?_⟩
  intro t k
  unfold val
  simp only [get_set, if_true, Option.bind_some]
  rw [get_upd]
  obtain ⟨d, hd'⟩ := Option.isSome_iff_exists.mp (h2 t)
  obtain ⟨e, he⟩ := Option.isSome_iff_exists.mp (h1 t)
  rw [hd', he]
  simp only [Option.getD_some, Option.bind_some]
  rw [get_blank]

/-- **C70 (self-initialisation destroys).** Initialising an ID from itself succeeds and replaces every value by `None`. -/
theorem C70_initialize_from_self {m : Sim.Mt} {dflt : String} (hd : defaultID m = .ok dflt) (id : String) (s : Store V) (h1 : ∀ t, (get (s t) dflt).isSome) :
    (initDict m (some id) id s).2 = .ok () ∧ ∀ t k, val (initDict m (some id) id s).1 t id k = (val s t dflt k).map fun _ => none := by
  unfold initDict
  rw [create_ok hd id s h1]
  simp only
  have := seqM_each (copyOne m id id) id (fun t => upd (((get (s t) dflt).getD []).map fun e => (e.1, none)) (((get (s t) dflt).getD []).map fun e => (e.1, none)))
    (fun t => set (s t) id (((get (s t) dflt).getD []).map fun e => (e.1, none))) (by
      intro s' t ht
      unfold copyOne
      have hsrc : get (s' t) id = some (((get (s t) dflt).getD []).map fun e => (e.1, none)) := by rw [ht, get_set, if_pos rfl]
      rw [hsrc]
      simp only
      rw [update_ok m t id _ _ s' hsrc, ht])
  rw [this]
  refine ⟨rfl, ?_⟩
  intro t k
  unfold val
  simp only [get_set, if_true, Option.bind_some]
  rw [get_upd]
  obtain ⟨e, he⟩ := Option.isSome_iff_exists.mp (h1 t)
  rw [he]
  simp only [Option.getD_some, Option.bind_some]
  rw [get_blank]
  cases get e k <;> rfl

/-- **C70 (refuted part).** A new instance whose ID is not the class default (10 or 50) can never create, initialise or load a dictionary: `KeyError`, and nothing changes; the constant-Vdc and balanced classes fail with
`UnboundLocalError` whatever their ID. -/
theorem C70_create_needs_default (m : Sim.Mt) (der id src : String) (cfg : PT → Dict (Option V)) (hder : defaultID m ≠ .ok der) :
    (initDict m (some id) src (Store.new der cfg)).1 = Store.new der cfg ∧
    (initDict m (some id) src (Store.new der cfg)).2 = .error (if m = .single ∨ m = .three ∨ m = .noFilter ∨ m = .numba then .keyError else .unboundLocal) := by
  have key : ∀ dflt, defaultID m = .ok dflt → create m (some id) (Store.new der cfg) = (Store.new der cfg, .error .keyError) := by
    intro dflt hd
    have hne : dflt ≠ der := fun h => hder (h ▸ hd)
    unfold create
    rw [hd]
    have hg : get (Store.new der cfg .modulePars) dflt = none := by simp [Store.new, get, Ne.symm hne]
    simp [PT.all, seqM, createOne, hg]
  unfold initDict
  cases m with
  | single => rw [key "10" rfl]; simp
  | three => rw [key "50" rfl]; simp
  | noFilter => rw [key "50" rfl]; simp
  | numba => rw [key "50" rfl]; simp
  | constVdc1 => simp [create, defaultID]
  | balanced => simp [create, defaultID]
  | constVdc3 => simp [create, defaultID]

/-! ### C71 -/

theorem mergeAll (s : Store V) (id : String) (h : ∀ t, (get (s t) id).isSome) :
    ∃ d, PT.all.foldl (mergeOne s id) (.ok []) = .ok d ∧
      ∀ k, get d k = (val s .steady id k).or ((val s .gains id k).or ((val s .circuit id k).or ((val s .inverter id k).or (val s .modulePars id k)))) := by
  obtain ⟨a, ha⟩ := Option.isSome_iff_exists.mp (h .modulePars)
  obtain ⟨b, hb⟩ := Option.isSome_iff_exists.mp (h .inverter)
  obtain ⟨c, hc⟩ := Option.isSome_iff_exists.mp (h .circuit)
  obtain ⟨d, hd⟩ := Option.isSome_iff_exists.mp (h .gains)
  obtain ⟨e, he⟩ := Option.isSome_iff_exists.mp (h .steady)
  refine ⟨upd (upd (upd (upd (upd [] a) b) c) d) e, ?_, ?_⟩
  · simp [PT.all, mergeOne, ha, hb, hc, hd, he]
  · intro k
    simp only [get_upd, val, ha, hb, hc, hd, he, Option.bind_some]
    have : get ([] : Dict (Option V)) k = none := rfl
    rw [this, Option.or_none]

/-- **C70 (merged view).** `get_parameter_dictionary('all', id)` returns, for every key, the value of the last of the types module, inverter, circuit, gains, steady state that has it. -/
theorem C70_get_all (s : Store V) (id : String) (h : ∀ t, (get (s t) id).isSome) :
    ∃ d, getDict s "all" id = .ok d ∧
      ∀ k, get d k = (val s .steady id k).or ((val s .gains id k).or ((val s .circuit id k).or ((val s .inverter id k).or (val s .modulePars id k)))) := by
  obtain ⟨d, h1, h2⟩ := mergeAll s id h
  refine ⟨d, ?_, h2⟩
  unfold getDict
  rw [if_neg (by decide +kernel), if_neg (by simpa using Option.isSome_iff_ne_none.mp (h .modulePars))]
  exact h1

/-- **C70 (single view).** For the four types it accepts, `get_parameter_dictionary` returns exactly the dictionary of that type; the steady-state type is rejected although it has a dictionary. -/
theorem C70_get_one (s : Store V) (id : String) (t : PT) (h : ∀ t, (get (s t) id).isSome) :
    if t = .steady then getDict s t.name id = .error .valueError
    else ∃ d, getDict s t.name id = .ok d ∧ ∀ k, get d k = val s t id k := by
  have hm : ¬ (get (s .modulePars) id).isNone = true := by simpa using Option.isSome_iff_ne_none.mp (h .modulePars)
  have one : ∀ t : PT, ∃ d, [t].foldl (mergeOne s id) (.ok []) = .ok d ∧ ∀ k, get d k = val s t id k := by
    intro t
    obtain ⟨e, he⟩ := Option.isSome_iff_exists.mp (h t)
    refine ⟨upd [] e, by simp [mergeOne, he], fun k => ?_⟩
    rw [get_upd]
    have : get ([] : Dict (Option V)) k = none := rfl
    rw [this, Option.or_none]
    simp [val, he]
  split_ifs with ht
  · subst ht
    unfold getDict
    rw [if_pos (by decide +kernel)]
  · obtain ⟨d, h1, h2⟩ := one t
    refine ⟨d, ?_, h2⟩
    unfold getDict
    rw [if_neg (by cases t <;> first | (exact absurd rfl ht) | decide +kernel), if_neg hm]
    have : (PT.all.filter fun t' => t'.name == t.name || t.name == "all") = [t] := by cases t <;> decide +kernel
    rw [this]
    exact h1

theorem load_ok {m : Sim.Mt} {dflt : String} (hd : defaultID m = .ok dflt) (f : String) (fs : Files V) (pd : Dict (Option V)) (hf : fs f = some (.dict pd)) (s : Store V) (h1 : ∀ t, (get (s t) dflt).isSome) :
    (load m f fs s).2 = .ok pd ∧ (∀ t, (get ((load m f fs s).1 t) (baseName f)).isSome) ∧ ∀ t k, val (load m f fs s).1 t (baseName f) k =
      (get pd k).or (if dflt = baseName f then (val s t dflt k).map fun _ => none else val s t dflt k) := by
  have hi : ∃ s1, initDict m (some (baseName f)) dflt s = (s1, .ok ()) ∧
      (∀ t, (get (s1 t) (baseName f)).isSome) ∧
      ∀ t k, val s1 t (baseName f) k = (if dflt = baseName f then (val s t dflt k).map fun _ => none else val s t dflt k) := by
    refine ⟨(initDict m (some (baseName f)) dflt s).1, ?_, ?_, ?_⟩
    · by_cases hb : dflt = baseName f
      · rw [hb] at *
        exact Prod.ext rfl (C70_initialize_from_self hd _ s h1).1
      · exact Prod.ext rfl (C70_initialize hd _ dflt hb s h1 h1).1
    · intro t
      unfold initDict
      rw [create_ok hd _ s h1]
      simp only
      have hmono : ∀ (l : List PT) (s' : Store V), (get (s' t) (baseName f)).isSome → (get ((seqM (copyOne m (baseName f) dflt) l s').1 t) (baseName f)).isSome := by
        intro l s'
        refine seqM_inv (fun a b => (get (a t) (baseName f)).isSome → (get (b t) (baseName f)).isSome) (fun _ h => h) (fun _ _ _ h h' x => h' (h x)) ?_ l s'
        intro a t' ha
        unfold copyOne
        cases get (a t') dflt with
        | none => exact ha
        | some d =>
          simp only
          unfold update
          split_ifs
          · exact ha
          · cases d with
            | nil => exact ha
            | cons p d =>
              simp only
              rw [ptOf_name]
              simp only
              cases hq : get (a t') (baseName f) with
              | none => exact ha
              | some d' =>
                simp only
                rw [put_apply]
                split_ifs
                · rw [get_set]; simp
                · exact ha
      apply hmono
      rw [get_set]; simp
    · intro t k
      by_cases hb : dflt = baseName f
      · rw [if_pos hb]
        have := (C70_initialize_from_self hd (baseName f) s h1).2 t k
        rw [hb] at this ⊢
        exact this
      · rw [if_neg hb, (C70_initialize hd _ dflt hb s h1 h1).2 t k]
        cases val s t dflt k <;> rfl
  obtain ⟨s1, e1, e2, e3⟩ := hi
  have hs := seqM_each (fun s t => update m (baseName f) (PT.name t) pd s) (baseName f) (fun t => upd ((get (s1 t) (baseName f)).getD []) pd) s1 (by
    intro s' t ht
    obtain ⟨d, hd'⟩ := Option.isSome_iff_exists.mp (e2 t)
    rw [update_ok m t (baseName f) pd d s' (by rw [ht]; exact hd'), ht, hd']
    rfl)
  unfold load
  rw [hf]
  simp only [hd, e1]
  rw [hs]
  refine ⟨rfl, fun t => by simp [get_set], ?_⟩
  intro t k
  rw [← e3 t k]
  simp only [val, get_set, if_true, Option.bind_some]
  rw [get_upd]
  obtain ⟨d, hd'⟩ := Option.isSome_iff_exists.mp (e2 t)
  rw [hd']
  rfl

theorem baseName_pkl (id : String) (h : '.' ∉ id.toList) : baseName (id ++ ".pkl") = id := by
  unfold baseName
  have : (id ++ ".pkl").toList = id.toList ++ ['.', 'p', 'k', 'l'] := by simp
  rw [this, List.takeWhile_append_of_pos (by intro c hc; simpa using fun e : c = '.' => h (e ▸ hc))]
  simp

/-- **C71 (round trip of the merged view).** Save a dictionary whose ID contains no dot and that has all keys of the class default, then load the file (possibly after any changes to the stores, and in another instance): the call returns the
saved dictionary, and the merged view of the loaded ID gives the saved value for every key. -/
theorem C71_round_trip {m : Sim.Mt} {dflt : String} (hd : defaultID m = .ok dflt) (id : String) (hdot : '.' ∉ id.toList) (s s' : Store V) (fs : Files V)
    (h1 : ∀ t, (get (s t) id).isSome) (h2 : ∀ t, (get (s' t) dflt).isSome) (hk : ∀ t k, val s' t dflt k ≠ none → ∃ t', val s t' id k ≠ none) :
    ∃ d, getDict s "all" id = .ok d ∧ (save s id "pickle" fs).2 = .ok (id ++ ".pkl") ∧
      (load m (id ++ ".pkl") (save s id "pickle" fs).1 s').2 = .ok d ∧
      ∃ d', getDict (load m (id ++ ".pkl") (save s id "pickle" fs).1 s').1 "all" id = .ok d' ∧ ∀ k, get d' k = get d k := by
  obtain ⟨d, hg, hv⟩ := C70_get_all s id h1
  have hsave : save s id "pickle" fs = ((fun f => if f = id ++ ".pkl" then some (.dict d) else fs f), .ok (id ++ ".pkl")) := by
    unfold save
    rw [hg]
    simp
  have hb := baseName_pkl id hdot
  obtain ⟨l1, hsome, l2⟩ := load_ok hd (id ++ ".pkl") (save s id "pickle" fs).1 d (by rw [hsave]; simp) s' h2
  refine ⟨d, hg, by rw [hsave], l1, ?_⟩
  rw [hb] at l2 hsome
  set L := (load m (id ++ ".pkl") (save s id "pickle" fs).1 s').1 with hL
  have hcase : ∀ k t, val L t id k = get d k := by
    intro k t
    rw [l2]
    cases hk' : get d k with
    | some v => rfl
    | none =>
      have hnone : ∀ t', val s t' id k = none := by
        rw [hv] at hk'
        simp only [Option.or_eq_none_iff] at hk'
        obtain ⟨a, b, c, e, f⟩ := hk'
        intro t'
        cases t' <;> assumption
      have hdn : val s' t dflt k = none := by
        by_contra hx
        obtain ⟨t', ht'⟩ := hk t k hx
        exact ht' (hnone t')
      rw [hdn]
      simp
  obtain ⟨d', g1, g2⟩ := C70_get_all L id hsome
  refine ⟨d', g1, fun k => ?_⟩
  rw [g2]
  simp only [hcase]
  cases get d k <;> rfl

/-- **C71 (refuted part).** The five types are not restored separately: after loading, every type of the loaded ID holds every saved key, with the value of the merged view. So `get_parameter_dictionary('module_parameters', id)`
returns controller gains and circuit parameters too, and a key occurring in two types loses one of its values. -/
theorem C71_types_merged {m : Sim.Mt} {dflt : String} (hd : defaultID m = .ok dflt) (f : String) (fs : Files V) (pd : Dict (Option V)) (hf : fs f = some (.dict pd)) (s : Store V)
    (h : ∀ t, (get (s t) dflt).isSome) (t : PT) (k : String) (v : Option V) (hv : get pd k = some v) : val (load m f fs s).1 t (baseName f) k = some v := by
  rw [(load_ok hd f fs pd hf s h).2.2, hv]
  rfl

/-- **C71 (dots).** A file name is cut at its first dot: a dictionary saved under `a.b` is loaded under `a`, overwriting the dictionary `a` if there is one. -/
theorem C71_dotted_name (a b : String) (h : '.' ∉ a.toList) : baseName ((a ++ "." ++ b) ++ ".pkl") = a := by
  unfold baseName
  have : ((a ++ "." ++ b) ++ ".pkl").toList = a.toList ++ '.' :: (b.toList ++ ['.', 'p', 'k', 'l']) := by simp
  rw [this, List.takeWhile_append_of_pos (by intro c hc; simpa using fun e : c = '.' => h (e ▸ hc))]
  simp

/-- **C71 (failures change nothing).** Saving never changes the stores and, when it fails, no file; a missing file, a file that holds no dictionary, or a class without default leave the stores unchanged and raise. -/
theorem C71_load_failure (m : Sim.Mt) (f : String) (fs : Files V) (s : Store V) (h : fs f = none ∨ fs f = some .other) :
    (load m f fs s).1 = s ∧ ∃ e, (load m f fs s).2 = .error e := by
  unfold load
  rcases h with h | h <;> rw [h] <;> exact ⟨rfl, _, rfl⟩

/-- … saving in any format but pickle raises `UnboundLocalError` and writes nothing. -/
theorem C71_save_other_format (s : Store V) (id fmt : String) (fs : Files V) (h : fmt ≠ "pickle") : (save s id fmt fs).1 = fs ∧ ∃ e, (save s id fmt fs).2 = .error e := by
  unfold save
  cases getDict s "all" id with
  | error e => exact ⟨rfl, _, rfl⟩
  | ok d => simp [h]

/-- A small three-phase instance with ID 50. -/
def exStore : Store ℚ := Store.new "50" fun
  | .modulePars => [("Np", some 11), ("Ns", some 735)]
  | .inverter => [("Srated", some 50000)]
  | .circuit => [("Rf_actual", some (1/500))]
  | .gains => [("Kp_GCC", some 6000)]
  | .steady => [("maR0", some (89/100))]

/-- Non-vacuity: create a second ID, change a gain, save it, load it in a fresh instance; the round trip holds and the module dictionary has gained the gain. -/
example :
    let s1 := (update .three "my" "controller_gains" [("Kp_GCC", some 7000)] (initDict .three (some "my") "50" exStore).1).1
    let fs := (save s1 "my" "pickle" (fun _ => none)).1
    let s2 := (load .three "my.pkl" fs exStore).1
    val s1 .gains "my" "Kp_GCC" = some (some 7000) ∧ val s1 .gains "50" "Kp_GCC" = some (some 6000) ∧
    val s2 .gains "my" "Kp_GCC" = some (some 7000) ∧ val s2 .modulePars "my" "Kp_GCC" = some (some 7000) ∧ val s1 .modulePars "my" "Kp_GCC" = none := by
  decide +kernel

example : (∀ t, (get (exStore t) "50").isSome) ∧ defaultID .three = .ok "50" ∧ '.' ∉ "my".toList := by
  refine ⟨fun t => by cases t <;> decide +kernel, rfl, by decide +kernel⟩

/-- Non-vacuity of `C70_create_needs_default`: the shipped ID 250. -/
example : (initDict .three (some "my") "250" (Store.new "250" (fun t => get (exStore t) "50" |>.getD []))).2 = .error .keyError := by decide +kernel

end Params
end PvDer
