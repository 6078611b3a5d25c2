import Verif.Model.ParInit
import Verif.Props.Construct
import Mathlib.Tactic.FieldSimp
import Mathlib.Tactic.Linarith
/-!
C131: the configured electrical parameters are the constants of the equations.
-/
namespace PvDer
namespace Config

/-! ### Vocabulary -/

/-- A numeric keyword argument; others are dropped by the constructor. -/
def kwNumber (kw : Args) (p : String) : Option PVal :=
  match kw p with
  | some v => if (num v).isSome then some v else none
  | none => none

/-- The three ratings that can be given as keyword arguments. -/
def kwRatings : List String := ["Srated", "Vrmsrated", "Vdcrated"]

/-- Where the value of a parameter is configured: keyword argument (the three ratings only), else the DER's own entry in the file, else the default of the class. -/
def Configured (m : Sim.Mt) (c : Cfg) (kw : Args) (comp p : String) (q : ℚ) : Prop :=
  ∃ dflt v, HasParam (template m) comp p dflt ∧ ((if p ∈ kwRatings then kwNumber kw p else none) <|> entry c comp p <|> some dflt) = some v ∧ num v = some q

/-- The number `q` of the theorem below is determined by the configuration. -/
theorem wf_unique {T : Template} (h : WF T) {comp p : String} {d d' : PVal} (h1 : HasParam T comp p d) (h2 : HasParam T comp p d') : d = d' := by
  obtain ⟨ps, a1, a2⟩ := h1
  obtain ⟨qs, b1, b2⟩ := h2
  have e : ps = qs := by
    have := List.inj_on_of_nodup_map h.1 a1 b1 rfl
    exact (Prod.mk.inj this).2
  subst e
  have := List.inj_on_of_nodup_map (h.2 _ a1) a2 b2 rfl
  exact (Prod.mk.inj this).2

theorem configured_unique {m : Sim.Mt} {c : Cfg} {kw : Args} {comp p : String} {q q' : ℚ} (h : Configured m c kw comp p q) (h' : Configured m c kw comp p q') : q = q' := by
  obtain ⟨d, v, h1, h2, h3⟩ := h
  obtain ⟨d', v', h1', h2', h3'⟩ := h'
  rw [wf_unique (templates_wf m) h1' h1, h2, Option.some.injEq] at h2'
  rw [← h2', h3, Option.some.injEq] at h3'
  exact h3'

/-- The components whose parameters are all numbers. -/
def numericComps : List String := ["module_parameters", "inverter_ratings", "circuit_parameters", "controller_gains"]

/-- The parameters read by the constructor steps of this file are numbers, by declared type and by default. -/
theorem numeric_params (m : Sim.Mt) {comp p : String} {d : PVal} (h : HasParam (template m) comp p d) (hc : comp ∈ numericComps) :
    props.lookup p = some [.int, .float] ∧ (num d).isSome := by
  have : ∀ cp ∈ template m, cp.1 ∈ numericComps → ∀ pd ∈ cp.2, props.lookup pd.1 = some [.int, .float] ∧ (num pd.2).isSome := by cases m <;> decide +kernel
  obtain ⟨ps, hm, hp⟩ := h
  exact this _ hm hc _ hp

theorem isInstance_num (v : PVal) : isInstance v [.int, .float] = (num v).isSome := by
  cases v <;> rfl

/-- Names that are no argument names are never arguments. -/
theorem setup_args_none {T : Template} {file : File} {id : String} {kw : Args} {s : Setup} (h : setupDER T file id kw = .ok s) {p : String} (hp : p ∉ argSpec.map Prod.fst) :
    s.args p = none := by
  unfold setupDER at h
  obtain ⟨⟨c', par⟩, hc, h⟩ := bind_ok h
  obtain ⟨_, _, h⟩ := bind_ok h
  obtain ⟨_, _, h⟩ := bind_ok h
  obtain ⟨d, hd, h⟩ := bind_ok h
  obtain ⟨rt, _, h⟩ := bind_ok h
  obtain ⟨_, _, h⟩ := bind_ok h
  cases h
  exact args_of_not_mem hp

/-- A resolved parameter has its declared type or is the default. -/
theorem setup_types {m : Sim.Mt} {file : File} {id : String} {kw : Args} {s : Setup} (h : setupDER (template m) file id kw = .ok s) {comp p : String} {d : PVal}
    (hp : HasParam (template m) comp p d) : ∃ v, s.design.cfg comp p = some v ∧ ((∃ ts, props.lookup p = some ts ∧ isInstance v ts = true) ∨ v = d) := by
  unfold setupDER at h
  obtain ⟨⟨c', par⟩, hc, h⟩ := bind_ok h
  obtain ⟨_, _, h⟩ := bind_ok h
  obtain ⟨_, _, h⟩ := bind_ok h
  obtain ⟨d', hd, h⟩ := bind_ok h
  obtain ⟨rt, _, h⟩ := bind_ok h
  obtain ⟨_, _, h⟩ := bind_ok h
  cases h
  obtain ⟨v, ts, hv, ht, hi⟩ := C66_types (templates_wf m) hd hp
  refine ⟨v, hv, ?_⟩
  rcases hi with hi | ⟨_, _, _, hi⟩
  · exact .inl ⟨ts, ht, hi⟩
  · exact .inr hi

theorem lookup_of_mem {α : Type} {k : String} {v : α} : ∀ {l : List (String × α)}, (l.map Prod.fst).Nodup → (k, v) ∈ l → l.lookup k = some v
  | (a, b) :: l, hn, hm => by
    rw [List.map_cons, List.nodup_cons] at hn
    rw [List.lookup_cons]
    rcases List.mem_cons.1 hm with e | hm'
    · cases e; simp
    · have : k ≠ a := by
        rintro rfl
        exact hn.1 (List.mem_map.2 ⟨(k, v), hm', rfl⟩)
      simp only [beq_eq_false_iff_ne.2 this]
      exact lookup_of_mem hn.2 hm'

/-- The transformer impedance is put together from the two resolved parameters. -/
theorem setup_z1 {T : Template} {file : File} {id : String} {kw : Args} {s : Setup} (h : setupDER T file id kw = .ok s) {r x : ℚ}
    (hr : number s.design "circuit_parameters" "R1_actual" = .ok r) (hx : number s.design "circuit_parameters" "X1_actual" = .ok x) : s.design.z1 = (r, x) := by
  unfold setupDER at h
  obtain ⟨⟨c', par⟩, hc, h⟩ := bind_ok h
  obtain ⟨_, _, h⟩ := bind_ok h
  obtain ⟨_, _, h⟩ := bind_ok h
  obtain ⟨d', hd, h⟩ := bind_ok h
  obtain ⟨rt, _, h⟩ := bind_ok h
  obtain ⟨_, _, h⟩ := bind_ok h
  cases h
  obtain ⟨v, w, h1, h2, h3, h4⟩ := C66_impedance hd
  dsimp only at hr hx ⊢
  unfold number at hr hx
  rw [h1] at hr; rw [h2] at hx
  dsimp only at hr hx
  rw [h3] at hr; rw [h4] at hx
  cases hr; cases hx
  rfl

theorem lookup_mem {α : Type} {k : String} {v : α} : ∀ {l : List (String × α)}, l.lookup k = some v → (k, v) ∈ l
  | [], h => by simp at h
  | (a, b) :: l, h => by
    rw [List.lookup_cons] at h
    by_cases e : k = a
    · subst e; simp at h; subst h; simp
    · simp only [beq_eq_false_iff_ne.2 e] at h
      exact List.mem_cons_of_mem _ (lookup_mem h)

/-- The class has the parameter. -/
theorem has_of_inTemplate {T : Template} {comp p : String} (h : inTemplate T comp p = true) : ∃ d, HasParam T comp p d := by
  unfold inTemplate at h
  cases hl : T.lookup comp with
  | none => simp [hl] at h
  | some ps =>
    simp only [hl, List.contains_iff_mem, List.mem_map] at h
    obtain ⟨⟨q, d⟩, h1, rfl⟩ := h
    exact ⟨d, ps, lookup_mem hl, h1⟩

/-- The flag of the current gradient limiter is always there. -/
theorem read_limiter {m : Sim.Mt} {file : File} {id : String} {kw : Args} {s : Setup} (h : setupDER (template m) file id kw = .ok s) :
    ∃ v, s.design.cfg "basic_options" "current_gradient_limiter" = some v := by
  obtain ⟨d, hd⟩ := has_of_inTemplate (show inTemplate (template m) "basic_options" "current_gradient_limiter" = true by cases m <;> decide +kernel)
  obtain ⟨v, hv, _⟩ := setup_types h hd
  exact ⟨v, hv⟩

/-- The parts of a successful electrical initialisation. -/
theorem electrical_parts {T : Template} {b : Circuit.Base} {sa : Bool} {vpcc : ℝ} {d : Design} {e : Electrical} (h : electrical T b sa vpcc d = .ok e) :
    readModule d = .ok e.module ∧ readRatings d = .ok e.rating ∧ readCircuit T d = .ok e.circuit ∧ readGains T d = .ok e.gain := by
  unfold electrical at h
  obtain ⟨ms, _, h⟩ := bind_ok h
  obtain ⟨lim, _, h⟩ := bind_ok h
  obtain ⟨md, h1, h⟩ := bind_ok h
  obtain ⟨rt, h2, h⟩ := bind_ok h
  obtain ⟨_, _, h⟩ := bind_ok h
  obtain ⟨ct, h3, h⟩ := bind_ok h
  obtain ⟨gn, h4, h⟩ := bind_ok h
  cases h
  exact ⟨h1, h2, h3, h4⟩

theorem electrical_limiter {T : Template} {b : Circuit.Base} {sa : Bool} {vpcc : ℝ} {d : Design} {e : Electrical} (h : electrical T b sa vpcc d = .ok e) {v : PVal}
    (hv : d.cfg "basic_options" "current_gradient_limiter" = some v) : e.limiter = truthy v := by
  unfold electrical at h
  obtain ⟨ms, _, h⟩ := bind_ok h
  obtain ⟨lim, h0, h⟩ := bind_ok h
  obtain ⟨md, h1, h⟩ := bind_ok h
  obtain ⟨rt, h2, h⟩ := bind_ok h
  obtain ⟨_, _, h⟩ := bind_ok h
  obtain ⟨ct, h3, h⟩ := bind_ok h
  obtain ⟨gn, h4, h⟩ := bind_ok h
  rw [hv] at h0
  cases h0
  cases h
  rfl

/-- The parameter is resolved to the configured number. -/
theorem number_configured {m : Sim.Mt} {file : File} {id : String} {kw : Args} {s : Setup} {c : Cfg} (h : setupDER (template m) file id kw = .ok s) (hf : file id = some c)
    (hl : ∀ p ∈ kwRatings, c.entries p = none) {comp p : String} {d : PVal} (hp : HasParam (template m) comp p d)
    (hnum : ∀ v, ((∃ ts, props.lookup p = some ts ∧ isInstance v ts = true) ∨ v = d) → (num v).isSome) :
    ∃ q, number s.design comp p = .ok q ∧ Configured m c kw comp p q := by
  obtain ⟨c', hf', _, h1, _⟩ := C66_setup h
  rw [hf, Option.some.injEq] at hf'
  subst hf'
  have e1 := h1 comp p d hp
  have ha : s.args p = if p ∈ kwRatings then kwNumber kw p else none := by
    by_cases hk : p ∈ kwRatings
    · rw [if_pos hk]
      have hin : (p, [Ty.int, Ty.float], (none : Option PVal)) ∈ argSpec := by
        have : ∀ p ∈ kwRatings, (p, [Ty.int, Ty.float], (none : Option PVal)) ∈ argSpec := by decide +kernel
        exact this p hk
      obtain ⟨a1, a2, _, _, a5⟩ := C66_arguments h hf hin
      unfold kwNumber
      cases hv : kw p with
      | none => exact a5 hv (hl p hk)
      | some v =>
        dsimp only
        by_cases hi : (num v).isSome
        · rw [if_pos hi]; exact a1 v hv (by rw [isInstance_num]; exact hi)
        · rw [if_neg hi]; exact a2 v hv (by rw [isInstance_num]; simpa using hi)
    · rw [if_neg hk]
      have hnot : p ∉ argSpec.map Prod.fst := by
        intro hmem
        have := (C66_overridable m p).1 ⟨hmem, comp, d, hp⟩
        apply hk
        unfold kwRatings
        rcases this with rfl | rfl | rfl <;> simp
      exact setup_args_none h hnot
  obtain ⟨v, hv, hi⟩ := setup_types h hp
  have hn := hnum v hi
  obtain ⟨q, hq⟩ := Option.isSome_iff_exists.1 hn
  refine ⟨q, ?_, d, v, hp, ?_, hq⟩
  · unfold number; rw [hv]; dsimp only; rw [hq]
  · rw [← ha, ← e1]; exact hv


section
variable {m : Sim.Mt} {file : File} {id : String} {kw : Args} {s : Setup} {c : Cfg} (h : setupDER (template m) file id kw = .ok s) (hf : file id = some c)
  (hl : ∀ p ∈ kwRatings, c.entries p = none)
include h hf hl

/-- Reading a parameter of one of the four numeric components. -/
theorem read_number {comp p : String} (hp : inTemplate (template m) comp p = true) (hc : comp ∈ numericComps) :
    ∃ q, number s.design comp p = .ok q ∧ Configured m c kw comp p q := by
  obtain ⟨d, hd⟩ := has_of_inTemplate hp
  obtain ⟨n1, n2⟩ := numeric_params m hd hc
  refine number_configured h hf hl hd ?_
  rintro v (⟨ts, ht, hi⟩ | rfl)
  · rw [n1, Option.some.injEq] at ht
    rw [← isInstance_num, ht]; exact hi
  · exact n2

theorem read_duty : ∃ q, number s.design "basic_options" "m_steady_state" = .ok q ∧ Configured m c kw "basic_options" "m_steady_state" q := by
  obtain ⟨d, hd⟩ := has_of_inTemplate (show inTemplate (template m) "basic_options" "m_steady_state" = true by cases m <;> decide +kernel)
  have hd' : (num d).isSome := by
    have : ∀ cp ∈ template m, cp.1 = "basic_options" → ∀ pd ∈ cp.2, pd.1 = "m_steady_state" → (num pd.2).isSome := by cases m <;> decide +kernel
    obtain ⟨ps, h1, h2⟩ := hd
    exact this _ h1 rfl _ h2 rfl
  refine number_configured h hf hl hd ?_
  rintro v (⟨ts, ht, hi⟩ | rfl)
  · have e : props.lookup "m_steady_state" = some [.float] := by decide +kernel
    rw [e, Option.some.injEq] at ht
    subst ht
    cases v <;> first | rfl | simp [isInstance, hasTy] at hi
  · exact hd'

/-- Reading an optional parameter. -/
theorem read_optional {comp g p : String} (hp : inTemplate (template m) comp g = true → inTemplate (template m) comp p = true) (hc : comp ∈ numericComps) :
    ∃ o, optional (template m) s.design comp g p = .ok o ∧ (inTemplate (template m) comp g = true → ∃ q, o = some q ∧ Configured m c kw comp p q) ∧
      (inTemplate (template m) comp g = false → o = none) := by
  unfold optional
  cases hg : inTemplate (template m) comp g with
  | false => exact ⟨none, by simp [pure, Except.pure], by simp, by simp⟩
  | true =>
    obtain ⟨q, h1, h2⟩ := read_number h hf hl (hp hg) hc
    exact ⟨some q, by simp [h1, bind, Except.bind, pure, Except.pure], fun _ => ⟨q, rfl, h2⟩, by simp⟩
end

/-! ### Specification -/

/-- The constants `p` of the equations of a DER with `n` phases are the configured values, converted to per unit on 500 V, 50 kVA, 60 Hz (5 ohm, 100 A). -/
structure Constants (m : Sim.Mt) (c : Cfg) (kw : Args) (n : ℕ) (p : Ode.Par) : Prop where
  Rf : ∀ R, Configured m c kw "circuit_parameters" "Rf_actual" R → p.Rf = R / 5
  Lf : ∀ L, Configured m c kw "circuit_parameters" "Lf_actual" L → p.Lf = L * (2 * Real.pi * 60) / 5
  C : ∀ C, Configured m c kw "circuit_parameters" "C_actual" C → p.C = C * (2 * Real.pi * 60) * 5
  Kp_GCC : ∀ k, Configured m c kw "controller_gains" "Kp_GCC" k → p.Kp_GCC = k
  Ki_GCC : ∀ k, Configured m c kw "controller_gains" "Ki_GCC" k → p.Ki_GCC = k
  wp : ∀ k, Configured m c kw "controller_gains" "wp" k → p.wp = k
  Kp_DC : ∀ k, Configured m c kw "controller_gains" "Kp_DC" k → p.Kp_DC = k
  Ki_DC : ∀ k, Configured m c kw "controller_gains" "Ki_DC" k → p.Ki_DC = k
  Kp_P : ∀ k, Configured m c kw "controller_gains" "Kp_P" k → p.Kp_P = k
  Ki_P : ∀ k, Configured m c kw "controller_gains" "Ki_P" k → p.Ki_P = k
  Kp_Q : ∀ k, Configured m c kw "controller_gains" "Kp_Q" k → p.Kp_Q = k
  Ki_Q : ∀ k, Configured m c kw "controller_gains" "Ki_Q" k → p.Ki_Q = k
  Tfilter : ∀ k, Configured m c kw "controller_gains" "Tfilter_Vrms" k → p.Tfilter_Vrms = k
  /-- the current limit: overload factor times the peak of the rated phase current -/
  limit : ∀ S V o, Configured m c kw "inverter_ratings" "Srated" S → Configured m c kw "inverter_ratings" "Vrmsrated" V →
    Configured m c kw "inverter_ratings" "Ioverload" o → p.iref_limit = o * (Real.sqrt 2 * (S / (n * V))) / 100
  Np : ∀ k, Configured m c kw "module_parameters" "Np" k → p.mod.Np = k
  Ns : ∀ k, Configured m c kw "module_parameters" "Ns" k → p.mod.Ns = k
  mppMax : ∀ k, Configured m c kw "module_parameters" "Vdcmpp_max" k → p.Vdcmpp_max = k
  /-- not configurable -/
  fixed : p.Kp_PLL = 180 ∧ p.Ki_PLL = 320 ∧ p.m_limit = 1 ∧ p.wbase = 2 * Real.pi * 60 ∧ p.Vdcbase = 500 ∧
    p.mod = ⟨p.mod.Np, p.mod.Ns, 8.03, 0.0017, 298.15, 1.2e-7, 1.602e-19, 1.38e-23, 1.92, 50000⟩

section
variable {m : Sim.Mt} {file : File} {id : String} {kw : Args} {s : Setup} {c : Cfg} (h : setupDER (template m) file id kw = .ok s) (hf : file id = some c)
  (hl : ∀ p ∈ kwRatings, c.entries p = none)
include h hf hl

/-- Every parameter of the class is configured to exactly one number. -/
theorem C131_configured {comp p : String} {d : PVal} (hp : HasParam (template m) comp p d) (hc : comp ∈ numericComps) : ∃! q, Configured m c kw comp p q := by
  obtain ⟨n1, n2⟩ := numeric_params m hp hc
  obtain ⟨q, _, hq⟩ := number_configured h hf hl hp (by
    rintro v (⟨ts, ht, hi⟩ | rfl)
    · rw [n1, Option.some.injEq] at ht
      rw [← isInstance_num, ht]; exact hi
    · exact n2)
  exact ⟨q, hq, fun q' h' => configured_unique h' hq⟩

/-- What was read is what is configured. -/
theorem read_all : ∃ md rt ct gn, readModule s.design = .ok md ∧ readRatings s.design = .ok rt ∧ readCircuit (template m) s.design = .ok ct ∧
    readGains (template m) s.design = .ok gn ∧
    (Configured m c kw "module_parameters" "Np" md.Np ∧ Configured m c kw "module_parameters" "Ns" md.Ns ∧ Configured m c kw "module_parameters" "Vdcmpp0" md.mpp0 ∧
      Configured m c kw "module_parameters" "Vdcmpp_min" md.mppMin ∧ Configured m c kw "module_parameters" "Vdcmpp_max" md.mppMax) ∧
    (Configured m c kw "inverter_ratings" "Srated" rt.S ∧ Configured m c kw "inverter_ratings" "Vdcrated" rt.Vdc ∧ Configured m c kw "inverter_ratings" "Vrmsrated" rt.Vrms ∧
      Configured m c kw "inverter_ratings" "Ioverload" rt.over ∧ Configured m c kw "inverter_ratings" "Iramp_max_gradient_real" rt.gradR ∧
      Configured m c kw "inverter_ratings" "Iramp_max_gradient_imag" rt.gradI) ∧
    (Configured m c kw "circuit_parameters" "Rf_actual" ct.Rf ∧ Configured m c kw "circuit_parameters" "Lf_actual" ct.Lf ∧
      (∀ q, Configured m c kw "circuit_parameters" "C_actual" q → ct.C = some q) ∧
      Configured m c kw "circuit_parameters" "R1_actual" ct.z1.1 ∧ Configured m c kw "circuit_parameters" "X1_actual" ct.z1.2) ∧
    (Configured m c kw "controller_gains" "Kp_GCC" gn.KpGCC ∧ Configured m c kw "controller_gains" "Ki_GCC" gn.KiGCC ∧ Configured m c kw "controller_gains" "wp" gn.wp) ∧
    (∀ q, Configured m c kw "controller_gains" "Kp_DC" q → gn.KpDC = some q) ∧ (∀ q, Configured m c kw "controller_gains" "Ki_DC" q → gn.KiDC = some q) ∧
    (∀ q, Configured m c kw "controller_gains" "Kp_P" q → gn.KpP = some q) ∧ (∀ q, Configured m c kw "controller_gains" "Ki_P" q → gn.KiP = some q) ∧
    (∀ q, Configured m c kw "controller_gains" "Kp_Q" q → gn.KpQ = some q) ∧ (∀ q, Configured m c kw "controller_gains" "Ki_Q" q → gn.KiQ = some q) ∧
    (∀ q, Configured m c kw "controller_gains" "Tfilter_Vrms" q → gn.Tfilter = some q) := by
  have rd : ∀ {comp p : String}, inTemplate (template m) comp p = true → comp ∈ numericComps → ∃ q, number s.design comp p = .ok q ∧ Configured m c kw comp p q :=
    fun a b => read_number h hf hl a b
  have ro : ∀ {comp g p : String}, inTemplate (template m) comp p = inTemplate (template m) comp g → comp ∈ numericComps →
      ∃ o, optional (template m) s.design comp g p = .ok o ∧ ∀ q, Configured m c kw comp p q → o = some q := by
    intro comp g p e hc
    obtain ⟨o, h1, h2, h3⟩ := read_optional (g := g) (p := p) h hf hl (fun x => by rw [e]; exact x) hc
    refine ⟨o, h1, fun q hq => ?_⟩
    have hin : inTemplate (template m) comp p = true := by
      obtain ⟨d, _, ⟨ps, hm, hd⟩, _⟩ := hq
      have := lookup_of_mem (templates_wf m).1 hm
      unfold inTemplate
      rw [this]
      simp only [List.contains_iff_mem, List.mem_map]
      exact ⟨_, hd, rfl⟩
    obtain ⟨q', rfl, hq'⟩ := h2 (by rw [← e]; exact hin)
    rw [configured_unique hq hq']
  obtain ⟨a1, x1, y1⟩ := rd (comp := "module_parameters") (p := "Np") (by cases m <;> decide +kernel) (by decide)
  obtain ⟨a2, x2, y2⟩ := rd (comp := "module_parameters") (p := "Ns") (by cases m <;> decide +kernel) (by decide)
  obtain ⟨a3, x3, y3⟩ := rd (comp := "module_parameters") (p := "Vdcmpp0") (by cases m <;> decide +kernel) (by decide)
  obtain ⟨a4, x4, y4⟩ := rd (comp := "module_parameters") (p := "Vdcmpp_min") (by cases m <;> decide +kernel) (by decide)
  obtain ⟨a5, x5, y5⟩ := rd (comp := "module_parameters") (p := "Vdcmpp_max") (by cases m <;> decide +kernel) (by decide)
  obtain ⟨b1, u1, v1⟩ := rd (comp := "inverter_ratings") (p := "Srated") (by cases m <;> decide +kernel) (by decide)
  obtain ⟨b2, u2, v2⟩ := rd (comp := "inverter_ratings") (p := "Vdcrated") (by cases m <;> decide +kernel) (by decide)
  obtain ⟨b3, u3, v3⟩ := rd (comp := "inverter_ratings") (p := "Vrmsrated") (by cases m <;> decide +kernel) (by decide)
  obtain ⟨b4, u4, v4⟩ := rd (comp := "inverter_ratings") (p := "Ioverload") (by cases m <;> decide +kernel) (by decide)
  obtain ⟨b5, u5, v5⟩ := rd (comp := "inverter_ratings") (p := "Iramp_max_gradient_real") (by cases m <;> decide +kernel) (by decide)
  obtain ⟨b6, u6, v6⟩ := rd (comp := "inverter_ratings") (p := "Iramp_max_gradient_imag") (by cases m <;> decide +kernel) (by decide)
  obtain ⟨c1, p1, q1⟩ := rd (comp := "circuit_parameters") (p := "Rf_actual") (by cases m <;> decide +kernel) (by decide)
  obtain ⟨c2, p2, q2⟩ := rd (comp := "circuit_parameters") (p := "Lf_actual") (by cases m <;> decide +kernel) (by decide)
  obtain ⟨c3, p3, q3⟩ := ro (comp := "circuit_parameters") (g := "C_actual") (p := "C_actual") rfl (by decide)
  obtain ⟨c4, p4, q4⟩ := rd (comp := "circuit_parameters") (p := "R1_actual") (by cases m <;> decide +kernel) (by decide)
  obtain ⟨c5, p5, q5⟩ := rd (comp := "circuit_parameters") (p := "X1_actual") (by cases m <;> decide +kernel) (by decide)
  obtain ⟨g1, r1, t1⟩ := rd (comp := "controller_gains") (p := "Kp_GCC") (by cases m <;> decide +kernel) (by decide)
  obtain ⟨g2, r2, t2⟩ := rd (comp := "controller_gains") (p := "Ki_GCC") (by cases m <;> decide +kernel) (by decide)
  obtain ⟨g3, r3, t3⟩ := rd (comp := "controller_gains") (p := "wp") (by cases m <;> decide +kernel) (by decide)
  obtain ⟨g4, r4, t4⟩ := ro (comp := "controller_gains") (g := "Kp_DC") (p := "Kp_DC") rfl (by decide)
  obtain ⟨g5, r5, t5⟩ := ro (comp := "controller_gains") (g := "Kp_DC") (p := "Ki_DC") (by cases m <;> decide +kernel) (by decide)
  obtain ⟨g6, r6, t6⟩ := ro (comp := "controller_gains") (g := "Kp_P") (p := "Kp_P") rfl (by decide)
  obtain ⟨g7, r7, t7⟩ := ro (comp := "controller_gains") (g := "Ki_P") (p := "Ki_P") rfl (by decide)
  obtain ⟨g8, r8, t8⟩ := ro (comp := "controller_gains") (g := "Kp_Q") (p := "Kp_Q") rfl (by decide)
  obtain ⟨g9, r9, t9⟩ := ro (comp := "controller_gains") (g := "Ki_Q") (p := "Ki_Q") rfl (by decide)
  obtain ⟨g10, r10, t10⟩ := ro (comp := "controller_gains") (g := "Tfilter_Vrms") (p := "Tfilter_Vrms") rfl (by decide)
  have z1 : s.design.z1 = (c4, c5) := setup_z1 h p4 p5
  refine ⟨⟨a1, a2, a3, a4, a5⟩, ⟨b1, b2, b3, b4, b5, b6⟩, ⟨c1, c2, c3, s.design.z1⟩, ⟨g1, g2, g3, g4, g5, g6, g7, g8, g9, g10⟩, ?_, ?_, ?_, ?_, ⟨y1, y2, y3, y4, y5⟩,
    ⟨v1, v2, v3, v4, v5, v6⟩, ⟨q1, q2, q3, ?_, ?_⟩, ⟨t1, t2, t3⟩, t4, t5, t6, t7, t8, t9, t10⟩
  · unfold readModule; simp only [x1, x2, x3, x4, x5, bind, Except.bind, pure, Except.pure]
  · unfold readRatings; simp only [u1, u2, u3, u4, u5, u6, bind, Except.bind, pure, Except.pure]
  · unfold readCircuit; simp only [p1, p2, p3, bind, Except.bind, pure, Except.pure]
  · unfold readGains; simp only [r1, r2, r3, r4, r5, r6, r7, r8, r9, r10, bind, Except.bind, pure, Except.pure]
  · rw [z1]; exact q4
  · rw [z1]; exact q5

/-- **C131 (accepted configurations).** After a successful set-up the rest of the electrical initialisation raises exactly when the voltage ratings do not fit: it never
fails to find or to use a parameter. -/
theorem C131_accepted_iff (sa : Bool) (vpcc : ℝ) {V Vdc Vmin k : ℚ} (hV : Configured m c kw "inverter_ratings" "Vrmsrated" V)
    (hVdc : Configured m c kw "inverter_ratings" "Vdcrated" Vdc) (hmin : Configured m c kw "module_parameters" "Vdcmpp_min" Vmin)
    (hk : Configured m c kw "basic_options" "m_steady_state" k) :
    (∃ e, electrical (template m) Circuit.Base.default sa vpcc s.design = .ok e) ↔
      (sa = false → |vpcc - V * Real.sqrt 2 / 500| / (V * Real.sqrt 2 / 500) ≤ 1 / 10) ∧ V * Real.sqrt 2 ≤ k * (Vdc / 2) ∧ V * Real.sqrt 2 ≤ k * (Vmin / 2) := by
  obtain ⟨md, rt, ct, gn, r1, r2, r3, r4, ⟨_, _, _, x4, _⟩, ⟨_, y2, y3, _⟩, _⟩ := read_all h hf hl
  obtain ⟨ms, hms, cms⟩ := read_duty h hf hl
  obtain ⟨lim, hlim⟩ := read_limiter h
  cases configured_unique hV y3
  cases configured_unique hVdc y2
  cases configured_unique hmin x4
  cases configured_unique hk cms
  have key : electrical (template m) Circuit.Base.default sa vpcc s.design =
      (checkVoltage sa vpcc ((rt.Vrms : ℝ) * Real.sqrt 2 / 500) (k : ℝ) (rt.Vdc : ℝ) (md.mppMin : ℝ) ((rt.Vrms : ℝ) * Real.sqrt 2)).map
        fun _ => ⟨md, rt, ct, gn, k, truthy lim⟩ := by
    unfold electrical
    simp only [hms, hlim, r1, r2, r3, r4, bind, Except.bind, pure, Except.pure, Circuit.Base.default]
    cases checkVoltage sa vpcc ((rt.Vrms : ℝ) * Real.sqrt 2 / 500) (k : ℝ) (rt.Vdc : ℝ) (md.mppMin : ℝ) ((rt.Vrms : ℝ) * Real.sqrt 2) <;> rfl
  rw [key]
  unfold checkVoltage
  by_cases c1 : (!sa) = true ∧ |vpcc - (rt.Vrms : ℝ) * Real.sqrt 2 / 500| / ((rt.Vrms : ℝ) * Real.sqrt 2 / 500) > 1 / 10
  · rw [if_pos c1]
    refine ⟨fun ⟨_, he⟩ => by simp [Except.map] at he, fun ⟨h1, _⟩ => ?_⟩
    exact absurd (h1 (by simpa using c1.1)) (not_le.2 c1.2)
  · rw [if_neg c1]
    have c1' : sa = false → |vpcc - (rt.Vrms : ℝ) * Real.sqrt 2 / 500| / ((rt.Vrms : ℝ) * Real.sqrt 2 / 500) ≤ 1 / 10 := by
      intro hs
      by_contra hc
      exact c1 ⟨by simp [hs], not_le.1 hc⟩
    by_cases c2 : (k : ℝ) * ((rt.Vdc : ℝ) / 2) < (rt.Vrms : ℝ) * Real.sqrt 2
    · rw [if_pos c2]
      exact ⟨fun ⟨_, he⟩ => by simp [Except.map] at he, fun ⟨_, h2, _⟩ => absurd h2 (not_le.2 c2)⟩
    · rw [if_neg c2]
      by_cases c3 : (k : ℝ) * ((md.mppMin : ℝ) / 2) < (rt.Vrms : ℝ) * Real.sqrt 2
      · rw [if_pos c3]
        exact ⟨fun ⟨_, he⟩ => by simp [Except.map] at he, fun ⟨_, _, h3⟩ => absurd h3 (not_le.2 c3)⟩
      · rw [if_neg c3]
        exact ⟨fun _ => ⟨c1', not_lt.1 c2, not_lt.1 c3⟩, fun _ => ⟨_, rfl⟩⟩

/-- **C131.** For every class, file, DER and keyword arguments: if the constructor gets through its electrical initialisation, the constants of the equations are the
configured values in per unit. -/
theorem C131_constants {sa : Bool} {vpcc : ℝ} {e : Electrical} (he : electrical (template m) Circuit.Base.default sa vpcc s.design = .ok e) :
    Constants m c kw (phasesOf (template m)) (e.par (phasesOf (template m)) Circuit.Base.default) := by
  obtain ⟨md, rt, ct, gn, r1, r2, r3, r4, ⟨x1, x2, _, _, x5⟩, ⟨y1, _, y3, y4, _⟩, ⟨z1, z2, z3, _⟩, ⟨w1, w2, w3⟩, t4, t5, t6, t7, t8, t9, t10⟩ := read_all h hf hl
  obtain ⟨e1, e2, e3, e4⟩ := electrical_parts he
  rw [r1] at e1; rw [r2] at e2; rw [r3] at e3; rw [r4] at e4
  cases e1; cases e2; cases e3; cases e4
  have zb : Circuit.Base.default.Zbase = 5 := by norm_num [Circuit.Base.Zbase, Circuit.Base.default]
  have ib : Circuit.Base.default.Ibase = 100 := by norm_num [Circuit.Base.Ibase, Circuit.Base.default]
  have s2 : Real.sqrt 2 ≠ 0 := by positivity
  have pi0 : Real.pi ≠ 0 := Real.pi_ne_zero
  constructor
  · intro q hq
    cases configured_unique hq z1
    show (e.circuit.Rf : ℝ) / Circuit.Base.default.Zbase = _
    rw [zb]
  · intro q hq
    cases configured_unique hq z2
    show (e.circuit.Lf : ℝ) / (Circuit.Base.default.Zbase / Circuit.Base.default.wbase) = _
    rw [zb, div_div_eq_mul_div]; rfl
  · intro q hq
    show ((e.circuit.C.getD 0 : ℚ) : ℝ) / (1 / (Circuit.Base.default.Zbase * Circuit.Base.default.wbase)) = _
    rw [z3 q hq, zb]
    show (q : ℝ) / (1 / (5 * (2 * Real.pi * 60))) = _
    field_simp
  · intro q hq
    cases configured_unique hq w1; rfl
  · intro q hq
    cases configured_unique hq w2; rfl
  · intro q hq
    cases configured_unique hq w3; rfl
  · intro q hq
    show ((e.gain.KpDC.getD 0 : ℚ) : ℝ) = _
    rw [t4 q hq]; rfl
  · intro q hq
    show ((e.gain.KiDC.getD 0 : ℚ) : ℝ) = _
    rw [t5 q hq]; rfl
  · intro q hq
    show ((e.gain.KpP.getD 0 : ℚ) : ℝ) = _
    rw [t6 q hq]; rfl
  · intro q hq
    show ((e.gain.KiP.getD 0 : ℚ) : ℝ) = _
    rw [t7 q hq]; rfl
  · intro q hq
    show ((e.gain.KpQ.getD 0 : ℚ) : ℝ) = _
    rw [t8 q hq]; rfl
  · intro q hq
    show ((e.gain.KiQ.getD 0 : ℚ) : ℝ) = _
    rw [t9 q hq]; rfl
  · intro q hq
    show ((e.gain.Tfilter.getD 0 : ℚ) : ℝ) = _
    rw [t10 q hq]; rfl
  · intro S V o hS hV ho
    cases configured_unique hS y1
    cases configured_unique hV y3
    cases configured_unique ho y4
    show ((e.rating.S : ℝ) / (((phasesOf (template m) : ℕ) : ℝ) * ((e.rating.Vrms : ℝ) * Real.sqrt 2 / Real.sqrt 2)) * Real.sqrt 2) / Circuit.Base.default.Ibase * (e.rating.over : ℝ) = _
    rw [ib, mul_div_cancel_right₀ _ s2]
    ring
  · intro q hq
    cases configured_unique hq x1; rfl
  · intro q hq
    cases configured_unique hq x2; rfl
  · intro q hq
    cases configured_unique hq x5; rfl
  · refine ⟨rfl, rfl, rfl, rfl, rfl, ?_⟩
    simp only [Electrical.par, Electrical.pv, Circuit.Base.default]
    norm_num

/-- **C131 (the rest of a simulation).** The constants of a simulation that are not in the equations of the DER themselves: transformer impedance, rated power, filter
reactance, gradient limits and their switch, the range of DC references, the DC voltage of the constant-Vdc classes. -/
theorem C131_simulation_constants {sa : Bool} {vpcc : ℝ} {e : Electrical} (he : electrical (template m) Circuit.Base.default sa vpcc s.design = .ok e) {g : Eval.SCfg}
    (hg : Wired e (phasesOf (template m)) Circuit.Base.default g) :
    Constants m c kw (phasesOf (template m)) g.p ∧ g.nPhases = phasesOf (template m) ∧
    (∀ R X, Configured m c kw "circuit_parameters" "R1_actual" R → Configured m c kw "circuit_parameters" "X1_actual" X → g.Z1 = ⟨R / 5, X / 5⟩) ∧
    (∀ L, Configured m c kw "circuit_parameters" "Lf_actual" L → g.Xf = L * (2 * Real.pi * 60) / 5) ∧
    (∀ S, Configured m c kw "inverter_ratings" "Srated" S → g.Snom = S / 50000) ∧
    (∀ V, Configured m c kw "inverter_ratings" "Vdcrated" V → g.Vdc0 = V / 500) ∧
    (∀ S V r, Configured m c kw "inverter_ratings" "Srated" S → Configured m c kw "inverter_ratings" "Vrmsrated" V →
      (Configured m c kw "inverter_ratings" "Iramp_max_gradient_real" r → g.gR = r * (Real.sqrt 2 * (S / (phasesOf (template m) * V))) / 100) ∧
      (Configured m c kw "inverter_ratings" "Iramp_max_gradient_imag" r → g.gI = r * (Real.sqrt 2 * (S / (phasesOf (template m) * V))) / 100)) ∧
    (∀ v, Configured m c kw "module_parameters" "Vdcmpp_min" v → g.vdcCfg.vmin = v) ∧
    (∀ v, Configured m c kw "module_parameters" "Vdcmpp_max" v → g.vdcCfg.vmax = v) ∧
    (∀ d v, HasParam (template m) "basic_options" "current_gradient_limiter" d → (entry c "basic_options" "current_gradient_limiter" <|> some d) = some v →
      g.limiter = truthy v) := by
  have hc := C131_constants h hf hl he
  obtain ⟨md, rt, ct, gn, r1, r2, r3, r4, ⟨x1, x2, _, x4, x5⟩, ⟨y1, y2, y3, y4, y5, y6⟩, ⟨z1, z2, z3, z4, z5⟩, ⟨w1, w2, w3⟩, _⟩ := read_all h hf hl
  obtain ⟨e1, e2, e3, e4⟩ := electrical_parts he
  rw [r1] at e1; rw [r2] at e2; rw [r3] at e3; rw [r4] at e4
  cases e1; cases e2; cases e3; cases e4
  have zb : Circuit.Base.default.Zbase = 5 := by norm_num [Circuit.Base.Zbase, Circuit.Base.default]
  have ib : Circuit.Base.default.Ibase = 100 := by norm_num [Circuit.Base.Ibase, Circuit.Base.default]
  have s2 : Real.sqrt 2 ≠ 0 := by positivity
  refine ⟨by rw [hg.p]; exact hc, hg.nPhases, ?_, ?_, ?_, ?_, ?_, ?_, ?_, ?_⟩
  · intro R X hR hX
    cases configured_unique hR z4
    cases configured_unique hX z5
    rw [hg.Z1]
    show (⟨(e.circuit.z1.1 : ℝ), (e.circuit.z1.2 : ℝ)⟩ : ℂ) / ((Circuit.Base.default.Zbase : ℝ) : ℂ) = _
    rw [zb]
    apply Complex.ext
    · rw [Complex.div_ofReal_re]
    · rw [Complex.div_ofReal_im]
  · intro q hq
    cases configured_unique hq z2
    rw [hg.Xf]
    show ((e.circuit.Lf : ℝ) * Circuit.Base.default.wbase) / Circuit.Base.default.Zbase = _
    rw [zb]; rfl
  · intro q hq
    cases configured_unique hq y1
    rw [hg.Snom]; rfl
  · intro q hq
    cases configured_unique hq y2
    rw [hg.Vdc0]; rfl
  · intro S V r hS hV
    cases configured_unique hS y1
    cases configured_unique hV y3
    constructor
    · intro hr
      cases configured_unique hr y5
      rw [hg.gR]
      show ((e.rating.gradR : ℝ) * ((e.rating.S : ℝ) / (((phasesOf (template m) : ℕ) : ℝ) * ((e.rating.Vrms : ℝ) * Real.sqrt 2 / Real.sqrt 2)) * Real.sqrt 2)) / Circuit.Base.default.Ibase = _
      rw [ib, mul_div_cancel_right₀ _ s2]
      ring
    · intro hr
      cases configured_unique hr y6
      rw [hg.gI]
      show ((e.rating.gradI : ℝ) * ((e.rating.S : ℝ) / (((phasesOf (template m) : ℕ) : ℝ) * ((e.rating.Vrms : ℝ) * Real.sqrt 2 / Real.sqrt 2)) * Real.sqrt 2)) / Circuit.Base.default.Ibase = _
      rw [ib, mul_div_cancel_right₀ _ s2]
      ring
  · intro q hq
    cases configured_unique hq x4
    exact hg.vmin
  · intro q hq
    cases configured_unique hq x5
    exact hg.vmax
  · intro d v hd hv
    have hk : "current_gradient_limiter" ∉ argSpec.map Prod.fst := by decide +kernel
    obtain ⟨c', hf', _, h1, _⟩ := C66_setup h
    rw [hf, Option.some.injEq] at hf'
    subst hf'
    have e := h1 _ _ _ hd
    rw [setup_args_none h hk, show (none <|> (entry c "basic_options" "current_gradient_limiter" <|> some d)) = (entry c "basic_options" "current_gradient_limiter" <|> some d) from rfl, hv] at e
    rw [hg.limiter]
    exact electrical_limiter he e
end

theorem unused_single (e : Ode.Env) (a b c s1 s2 : ℝ) (J : Ode.SinglePhase.V → Ode.SinglePhase.V → ℝ) :
    Ode.SinglePhase.rhs { e with Kp_P := a, Ki_P := b, Tfilter_Vrms := c } = Ode.SinglePhase.rhs e ∧
    Ode.SinglePhase.jac s1 s2 { e with Kp_P := a, Ki_P := b, Tfilter_Vrms := c } J = Ode.SinglePhase.jac s1 s2 e J := by
  constructor
  · funext v; cases v <;> rfl
  · funext v; cases v <;> (funext w; cases w <;> rfl)

set_option maxHeartbeats 1000000 in
theorem unused_three (e : Ode.Env) (a b s1 s2 : ℝ) (J : Ode.ThreePhase.V → Ode.ThreePhase.V → ℝ) :
    Ode.ThreePhase.rhs { e with Kp_P := a, Ki_P := b } = Ode.ThreePhase.rhs e ∧
    Ode.ThreePhase.jac s1 s2 { e with Kp_P := a, Ki_P := b } J = Ode.ThreePhase.jac s1 s2 e J := by
  constructor
  · funext v; cases v <;> rfl
  · funext v; cases v <;> (funext w; cases w <;> rfl)

set_option maxHeartbeats 1000000 in
theorem unused_noFilter (e : Ode.Env) (a b c s1 s2 : ℝ) (J : Ode.ThreePhaseNoVrmsFilter.V → Ode.ThreePhaseNoVrmsFilter.V → ℝ) :
    Ode.ThreePhaseNoVrmsFilter.rhs { e with Kp_P := a, Ki_P := b, Tfilter_Vrms := c } = Ode.ThreePhaseNoVrmsFilter.rhs e ∧
    Ode.ThreePhaseNoVrmsFilter.jac s1 s2 { e with Kp_P := a, Ki_P := b, Tfilter_Vrms := c } J = Ode.ThreePhaseNoVrmsFilter.jac s1 s2 e J := by
  constructor
  · funext v; cases v <;> rfl
  · funext v; cases v <;> (funext w; cases w <;> rfl)

set_option maxHeartbeats 1000000 in
theorem unused_numba (e : Ode.Env) (a b c s1 s2 : ℝ) (J : Ode.ThreePhaseNumba.V → Ode.ThreePhaseNumba.V → ℝ) :
    Ode.ThreePhaseNumba.rhs { e with Kp_P := a, Ki_P := b, Tfilter_Vrms := c } = Ode.ThreePhaseNumba.rhs e ∧
    Ode.ThreePhaseNumba.jac s1 s2 { e with Kp_P := a, Ki_P := b, Tfilter_Vrms := c } J = Ode.ThreePhaseNumba.jac s1 s2 e J := by
  constructor
  · funext v; cases v <;> rfl
  · funext v; cases v <;> (funext w; cases w <;> rfl)

theorem unused_balanced (e : Ode.Env) (a b c s1 s2 : ℝ) (J : Ode.ThreePhaseBalanced.V → Ode.ThreePhaseBalanced.V → ℝ) :
    Ode.ThreePhaseBalanced.rhs { e with Kp_P := a, Ki_P := b, Tfilter_Vrms := c } = Ode.ThreePhaseBalanced.rhs e ∧
    Ode.ThreePhaseBalanced.jac s1 s2 { e with Kp_P := a, Ki_P := b, Tfilter_Vrms := c } J = Ode.ThreePhaseBalanced.jac s1 s2 e J := by
  constructor
  · funext v; cases v <;> rfl
  · funext v; cases v <;> (funext w; cases w <;> rfl)

theorem unused_constVdc1 (e : Ode.Env) (a b c d s1 s2 : ℝ) (J : Ode.SinglePhaseConstantVdc.V → Ode.SinglePhaseConstantVdc.V → ℝ) :
    Ode.SinglePhaseConstantVdc.rhs { e with C := d, Kp_DC := a, Ki_DC := b, Tfilter_Vrms := c } = Ode.SinglePhaseConstantVdc.rhs e ∧
    Ode.SinglePhaseConstantVdc.jac s1 s2 { e with C := d, Kp_DC := a, Ki_DC := b, Tfilter_Vrms := c } J = Ode.SinglePhaseConstantVdc.jac s1 s2 e J := by
  constructor
  · funext v; cases v <;> rfl
  · funext v; cases v <;> (funext w; cases w <;> rfl)

set_option maxHeartbeats 1000000 in
theorem unused_constVdc3 (e : Ode.Env) (a b c d s1 s2 : ℝ) (J : Ode.ThreePhaseConstantVdc.V → Ode.ThreePhaseConstantVdc.V → ℝ) :
    Ode.ThreePhaseConstantVdc.rhs { e with C := d, Kp_DC := a, Ki_DC := b, Tfilter_Vrms := c } = Ode.ThreePhaseConstantVdc.rhs e ∧
    Ode.ThreePhaseConstantVdc.jac s1 s2 { e with C := d, Kp_DC := a, Ki_DC := b, Tfilter_Vrms := c } J = Ode.ThreePhaseConstantVdc.jac s1 s2 e J := by
  constructor
  · funext v; cases v <;> rfl
  · funext v; cases v <;> (funext w; cases w <;> rfl)

/-- **C131 (constants a class lacks).** The equations and the Jacobian do not depend on the constants the class does not have, whatever value they are given. -/
theorem C131_unused_constants (p : Ode.Par) (i : Ode.Inp) (a b c d s1 s2 : ℝ) :
    (∀ y J, Ode.SinglePhase.rhs (Ode.env1 { p with Kp_P := a, Ki_P := b, Tfilter_Vrms := c } i y) = Ode.SinglePhase.rhs (Ode.env1 p i y) ∧
      Ode.SinglePhase.jac s1 s2 (Ode.env1 { p with Kp_P := a, Ki_P := b, Tfilter_Vrms := c } i y) J = Ode.SinglePhase.jac s1 s2 (Ode.env1 p i y) J) ∧
    (∀ y J, Ode.ThreePhase.rhs (Ode.envT { p with Kp_P := a, Ki_P := b } i y) = Ode.ThreePhase.rhs (Ode.envT p i y) ∧
      Ode.ThreePhase.jac s1 s2 (Ode.envT { p with Kp_P := a, Ki_P := b } i y) J = Ode.ThreePhase.jac s1 s2 (Ode.envT p i y) J) ∧
    (∀ y J, Ode.ThreePhaseNoVrmsFilter.rhs (Ode.envN { p with Kp_P := a, Ki_P := b, Tfilter_Vrms := c } i y) = Ode.ThreePhaseNoVrmsFilter.rhs (Ode.envN p i y) ∧
      Ode.ThreePhaseNoVrmsFilter.jac s1 s2 (Ode.envN { p with Kp_P := a, Ki_P := b, Tfilter_Vrms := c } i y) J = Ode.ThreePhaseNoVrmsFilter.jac s1 s2 (Ode.envN p i y) J) ∧
    (∀ y J, Ode.ThreePhaseNumba.rhs (Ode.envNumba { p with Kp_P := a, Ki_P := b, Tfilter_Vrms := c } i y) = Ode.ThreePhaseNumba.rhs (Ode.envNumba p i y) ∧
      Ode.ThreePhaseNumba.jac s1 s2 (Ode.envNumba { p with Kp_P := a, Ki_P := b, Tfilter_Vrms := c } i y) J = Ode.ThreePhaseNumba.jac s1 s2 (Ode.envNumba p i y) J) ∧
    (∀ y J, Ode.ThreePhaseBalanced.rhs (Ode.envB { p with Kp_P := a, Ki_P := b, Tfilter_Vrms := c } i y) = Ode.ThreePhaseBalanced.rhs (Ode.envB p i y) ∧
      Ode.ThreePhaseBalanced.jac s1 s2 (Ode.envB { p with Kp_P := a, Ki_P := b, Tfilter_Vrms := c } i y) J = Ode.ThreePhaseBalanced.jac s1 s2 (Ode.envB p i y) J) ∧
    (∀ y J, Ode.SinglePhaseConstantVdc.rhs (Ode.envC1 { p with C := d, Kp_DC := a, Ki_DC := b, Tfilter_Vrms := c } i y) = Ode.SinglePhaseConstantVdc.rhs (Ode.envC1 p i y) ∧
      Ode.SinglePhaseConstantVdc.jac s1 s2 (Ode.envC1 { p with C := d, Kp_DC := a, Ki_DC := b, Tfilter_Vrms := c } i y) J =
        Ode.SinglePhaseConstantVdc.jac s1 s2 (Ode.envC1 p i y) J) ∧
    (∀ y J, Ode.ThreePhaseConstantVdc.rhs (Ode.envC3 { p with C := d, Kp_DC := a, Ki_DC := b, Tfilter_Vrms := c } i y) = Ode.ThreePhaseConstantVdc.rhs (Ode.envC3 p i y) ∧
      Ode.ThreePhaseConstantVdc.jac s1 s2 (Ode.envC3 { p with C := d, Kp_DC := a, Ki_DC := b, Tfilter_Vrms := c } i y) J =
        Ode.ThreePhaseConstantVdc.jac s1 s2 (Ode.envC3 p i y) J) := by
  refine ⟨fun y J => ?_, fun y J => ?_, fun y J => ?_, fun y J => ?_, fun y J => ?_, fun y J => ?_, fun y J => ?_⟩
  · have e : Ode.env1 { p with Kp_P := a, Ki_P := b, Tfilter_Vrms := c } i y = { Ode.env1 p i y with Kp_P := a, Ki_P := b, Tfilter_Vrms := c } := rfl
    rw [e]; exact unused_single _ a b c s1 s2 J
  · have e : Ode.envT { p with Kp_P := a, Ki_P := b } i y = { Ode.envT p i y with Kp_P := a, Ki_P := b } := rfl
    rw [e]; exact unused_three _ a b s1 s2 J
  · have e : Ode.envN { p with Kp_P := a, Ki_P := b, Tfilter_Vrms := c } i y = { Ode.envN p i y with Kp_P := a, Ki_P := b, Tfilter_Vrms := c } := rfl
    rw [e]; exact unused_noFilter _ a b c s1 s2 J
  · have e : Ode.envNumba { p with Kp_P := a, Ki_P := b, Tfilter_Vrms := c } i y = { Ode.envNumba p i y with Kp_P := a, Ki_P := b, Tfilter_Vrms := c } := rfl
    rw [e]; exact unused_numba _ a b c s1 s2 J
  · have e : Ode.envB { p with Kp_P := a, Ki_P := b, Tfilter_Vrms := c } i y = { Ode.envB p i y with Kp_P := a, Ki_P := b, Tfilter_Vrms := c } := rfl
    rw [e]; exact unused_balanced _ a b c s1 s2 J
  · have e : Ode.envC1 { p with C := d, Kp_DC := a, Ki_DC := b, Tfilter_Vrms := c } i y = { Ode.envC1 p i y with C := d, Kp_DC := a, Ki_DC := b, Tfilter_Vrms := c } := rfl
    rw [e]; exact unused_constVdc1 _ a b c d s1 s2 J
  · have e : Ode.envC3 { p with C := d, Kp_DC := a, Ki_DC := b, Tfilter_Vrms := c } i y = { Ode.envC3 p i y with C := d, Kp_DC := a, Ki_DC := b, Tfilter_Vrms := c } := rfl
    rw [e]; exact unused_constVdc3 _ a b c d s1 s2 J

end Config
end PvDer
