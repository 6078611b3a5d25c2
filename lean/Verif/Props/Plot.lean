import Verif.Model.Plot
import Verif.Model.Gen.Templates
/-!
C73: plots show the quantities their type promises, correctly labelled.
-/
namespace PvDer
namespace Plot

/-- Specification: the label of each quantity (the legend texts used in the tool, and the comments beside them). -/
def label : Qty → String
  | .Vdc_t => "$V_{DC}$" | .Vtrms_t => "$v^{inv}_{rms}$" | .Vrms_t => "$v^{PCC-LV}_{rms}$" | .vdg_t => "$v^{grid}_{d}$" | .Vhvrms_t => "$v^{PCC-HV}_{rms}$" | .Vgrms_t => "$v^{grid}_{rms}$"
  | .Varms_t => "$v^{PCC-LV}_{arms}$" | .Vbrms_t => "$v^{PCC-LV}_{brms}$" | .Vcrms_t => "$v^{PCC-LV}_{crms}$" | .Irms_t => "$i^{inv}_{rms}$" | .Ppv_t => "$P^{PV}_{DC}$"
  | .S_re => "$P^{inv}_{AC}$" | .S_im => "$Q^{inv}$" | .S_PCC_re => "$P^{PCC-LV}_{AC}$" | .S_PCC_im => "$Q^{PCC-LV}$" | .S_load1_re => "$P^{load1}_{AC}$" | .S_load1_im => "$Q^{load1}$"
  | .S_G_re => "$P^{G}_{AC}$" | .S_G_im => "$Q^{G}$" | .phi_at_t => "$\\phi^{inv}_{a}$" | .phi_a_t => "$\\phi^{PCC-LV}_{a}$" | .phi_ag_t => "$\\phi^{grid}_{a}$"
  | .phi_diff => "$\\phi^{PCC-LV}_{a}-\\phi^{grid}_{a}$" | .wgrid_t => "$\\omega_{grid}$" | .we_t => "$\\omega_{PLL}$" | .ma_absolute_t => "ma" | .mb_absolute_t => "mb" | .mc_absolute_t => "mc"

/-- A label names a quantity; the PCC active power is also written with a lower-case index. -/
def Names (l : String) (q : Qty) : Prop := l = label q ∨ (q = .S_PCC_re ∧ l = "$P^{PCC-LV}_{ac}$")

instance (l : String) (q : Qty) : Decidable (Names l q) := by unfold Names; infer_instance

/-- Specification: the base quantity by which a curve is scaled in S.I. units. -/
def unitOf : Qty → Unit'
  | .Vdc_t | .Vtrms_t | .Vrms_t | .vdg_t | .Vhvrms_t | .Vgrms_t | .Varms_t | .Vbrms_t | .Vcrms_t => .V
  | .Irms_t => .I
  | .Ppv_t | .S_re | .S_im | .S_PCC_re | .S_PCC_im | .S_load1_re | .S_load1_im | .S_G_re | .S_G_im => .S
  | _ => .none

theorem cls_ne (m : Sim.Mt) : Config.className m ≠ "SolarPV_DER_ThreePhase" := by cases m <;> decide +kernel

theorem branch_cls (m : Sim.Mt) (sa : Bool) (ty : String) : branch sa (Config.className m) ty = branch sa "" ty := by
  unfold branch
  rw [if_neg (cls_ne m), if_neg (cls_ne m)]
  rfl

/-- The branch taken, if any. -/
def br (sa : Bool) (ty : String) : List Group := match branch sa "" ty with | .ok (some g) => [g] | _ => []

theorem br_mem {sa : Bool} {ty : String} {g : Group} (h : branch sa "" ty = .ok (some g)) : br sa ty = [g] := by simp [br, h]

/-- `plot` when all series have the length of the time axis. -/
theorem plot_recorded (m : Sim.Mt) (sa : Bool) (ty : String) (size : Qty → Nat) (n : Nat) (hn : 1 < n) (hs : ∀ q, size q = n) : plot sa (Config.className m) ty size n =
    (if available.contains ty = false then .error .valueError else match branch sa "" ty with
      | .error e => .error e
      | .ok none => .error .unboundLocal
      | .ok (some g) => if g.curves.any (fun c => c.1 = .vdg_t) then .error .attributeError else if g.curves.length = g.legends.length then .ok (g.curves.zip g.legends) else .error .assertionError) := by
  have hall : ∀ g : Group, g.curves.all (fun c => size c.1 = n && n > 1) = true := by
    intro g; rw [List.all_eq_true]; intro c _; simp [hn, hs]
  unfold plot group
  rw [branch_cls]
  cases available.contains ty
  · rfl
  · simp only [Bool.true_eq_false, if_false]
    cases branch sa "" ty with
    | error e => rfl
    | ok o =>
      cases o with
      | none => rfl
      | some g =>
        simp only [hall g]
        cases g.curves.any (fun c => c.1 = .vdg_t) <;> rfl

theorem group_mem {sa : Bool} {m : Sim.Mt} {ty : String} {size : Qty → Nat} {n : Nat} {g : Group} (h : group sa (Config.className m) ty size n = .ok g) :
    ty ∈ available ∧ branch sa "" ty = .ok (some g) ∧ (∀ c ∈ g.curves, c.1 ≠ .vdg_t) ∧ ∀ c ∈ g.curves, size c.1 = n ∧ 1 < n := by
  unfold group at h
  rw [branch_cls] at h
  split_ifs at h with ha
  have hty : ty ∈ available := by simpa using ha
  cases hb : branch sa "" ty with
  | error e => rw [hb] at h; cases h
  | ok o =>
    rw [hb] at h
    cases o with
    | none => cases h
    | some g' =>
      simp only at h
      split_ifs at h with h1 h2
      cases h
      refine ⟨hty, rfl, ?_, ?_⟩
      · intro c hc he
        apply h1
        exact List.any_eq_true.mpr ⟨c, hc, by simp [he]⟩
      · intro c hc
        have := List.all_eq_true.mp h2 c hc
        simpa using this

/-- **C73 (drawn curves are labelled correctly).** Whenever a plot is drawn, for any class, mode, type string and recorded data, every curve carries the label of the quantity it shows, is scaled by the base value of that quantity, and
has as many samples as the time axis. -/
theorem C73_labels {sa : Bool} {m : Sim.Mt} {ty : String} {size : Qty → Nat} {n : Nat} {l : List ((Qty × Unit') × String)} (h : plot sa (Config.className m) ty size n = .ok l) :
    ∀ e ∈ l, Names e.2 e.1.1 ∧ e.1.2 = unitOf e.1.1 ∧ size e.1.1 = n := by
  unfold plot at h
  cases hg : group sa (Config.className m) ty size n with
  | error e => rw [hg] at h; cases h
  | ok g =>
    rw [hg] at h
    simp only at h
    split_ifs at h with hl
    cases h
    obtain ⟨hm, hb, hv, hs⟩ := group_mem hg
    intro e he
    have hc : e.1 ∈ g.curves := by
      have := List.of_mem_zip (a := e.1) (b := e.2) he
      exact this.1
    refine ⟨?_, ?_, (hs _ hc).1⟩
    · have key : ∀ ty ∈ available, ∀ sa : Bool, ∀ g ∈ br sa ty, (∀ c ∈ g.curves, c.1 ≠ .vdg_t) → g.curves.length = g.legends.length →
          ∀ e ∈ g.curves.zip g.legends, Names e.2 e.1.1 := by
        decide +kernel
      exact key ty hm sa g (by rw [br_mem hb]; simp) hv hl e he
    · have key : ∀ ty ∈ available, ∀ sa : Bool, ∀ g ∈ br sa ty, ∀ c ∈ g.curves, c.2 = unitOf c.1 := by
        decide +kernel
      exact key ty hm sa g (by rw [br_mem hb]; simp) _ hc

/-- The plot types that can be drawn in each mode. -/
def works (sa : Bool) : List String :=
  ["active_power_Ppv_Pac_PCC", "active_power_Pac_PCC", "reactive_power", "reactive_power_Q_PCC", "voltage_Vdc", "voltage_LV", "voltage_Vpcclv", "current", "duty_cycle", "voltage_Vpcclv_all_phases"] ++
  (if sa then ["power", "active_power", "voltage_HV", "phase_angle", "frequency"] else [])

/-- **C73 (availability).** If all series were recorded with the length of the time axis, at least two samples, the plot types that can be drawn are exactly these, for every type string. In particular `power`, the default, and
`active_power` can only be drawn in stand-alone mode, and `voltage` and three other listed types never. -/
theorem C73_available (sa : Bool) (m : Sim.Mt) (ty : String) (size : Qty → Nat) (n : Nat) (hn : 1 < n) (hs : ∀ q, size q = n) :
    (∃ l, plot sa (Config.className m) ty size n = .ok l) ↔ ty ∈ works sa := by
  rw [plot_recorded m sa ty size n hn hs]
  have key : ∀ ty ∈ available, ∀ sa : Bool, ((∃ g ∈ br sa ty, (g.curves.any (fun c => c.1 = .vdg_t)) = false ∧ g.curves.length = g.legends.length) ↔ ty ∈ works sa) := by
    decide +kernel
  by_cases ha : ty ∈ available
  · rw [← key ty ha sa, if_neg (by simpa using ha)]
    cases hb : branch sa "" ty with
    | error e => simp [br, hb]
    | ok o =>
      cases o with
      | none => simp [br, hb]
      | some g =>
        rw [br_mem hb]
        change (∃ l, (if g.curves.any (fun c => c.1 = .vdg_t) then .error .attributeError else if g.curves.length = g.legends.length then .ok (g.curves.zip g.legends) else .error .assertionError :
          Except Err (List ((Qty × Unit') × String))) = .ok l) ↔ _
        by_cases hv : (g.curves.any fun c => c.1 = .vdg_t) = true
        · rw [if_pos hv]
          refine ⟨fun ⟨l, h⟩ => (by cases h), fun ⟨g', hg', hv', _⟩ => ?_⟩
          rw [List.mem_singleton.mp hg', hv] at hv'; cases hv'
        · rw [if_neg hv]
          by_cases hl : g.curves.length = g.legends.length
          · rw [if_pos hl]
            exact ⟨fun _ => ⟨g, by simp, Bool.eq_false_iff.mpr hv, hl⟩, fun _ => ⟨_, rfl⟩⟩
          · rw [if_neg hl]
            refine ⟨fun ⟨l, h⟩ => (by cases h), fun ⟨g', hg', _, hl'⟩ => ?_⟩
            rw [List.mem_singleton.mp hg'] at hl'; exact absurd hl' hl
  · have hw : ty ∉ works sa := by
      intro h
      apply ha
      have : ∀ sa : Bool, ∀ ty ∈ works sa, ty ∈ available := by decide +kernel
      exact this sa ty h
    have : available.contains ty = false := by simpa using ha
    rw [if_pos this]
    simp [hw]

/-- **C73 (refuted part: how the others fail).** Outside stand-alone mode `power` and `active_power` fail the legend assertion and three types raise `ValueError`; `voltage` fails with `AttributeError` and the three listed types without
branch with `UnboundLocalError`, in both modes. -/
theorem C73_failures (m : Sim.Mt) (size : Qty → Nat) (n : Nat) (hn : 1 < n) (hs : ∀ q, size q = n) :
    (∀ ty ∈ ["power", "active_power"], plot false (Config.className m) ty size n = .error .assertionError) ∧
    (∀ ty ∈ ["voltage_HV", "phase_angle", "frequency"], plot false (Config.className m) ty size n = .error .valueError) ∧
    (∀ sa, plot sa (Config.className m) "voltage" size n = .error .attributeError) ∧
    (∀ sa, ∀ ty ∈ ["reactive_power_Q_PCC_smoothed", "voltage_HV_imbalance", "voltage_Vpcclv_smoothed"], plot sa (Config.className m) ty size n = .error .unboundLocal) := by
  have run := fun sa ty => plot_recorded m sa ty size n hn hs
  refine ⟨?_, ?_, ?_, ?_⟩
  · intro ty hty; rw [run]; revert ty; decide +kernel
  · intro ty hty; rw [run]; revert ty; decide +kernel
  · intro sa; rw [run]; revert sa; decide +kernel
  · intro sa ty hty; rw [run]; revert sa ty; decide +kernel

/-- **C73 (refuted part: all phases).** The plots of all phase voltages and of the duty cycles show phase a only, for every class including the three-phase ones. -/
theorem C73_all_phases_shows_one (sa : Bool) (m : Sim.Mt) (size : Qty → Nat) (n : Nat) (hn : 1 < n) (hs : ∀ q, size q = n) :
    plot sa (Config.className m) "voltage_Vpcclv_all_phases" size n = .ok [((.Varms_t, .V), "$v^{PCC-LV}_{arms}$")] ∧
    plot sa (Config.className m) "duty_cycle" size n = .ok [((.ma_absolute_t, .none), "ma")] := by
  unfold plot group
  rw [branch_cls, branch_cls]
  have h1 : ∀ sa : Bool, branch sa "" "voltage_Vpcclv_all_phases" = .ok (some ⟨[(.Varms_t, .V)], ["$v^{PCC-LV}_{arms}$"]⟩) := by decide +kernel
  have h2 : ∀ sa : Bool, branch sa "" "duty_cycle" = .ok (some ⟨[(.ma_absolute_t, .none)], ["ma"]⟩) := by decide +kernel
  have a1 : available.contains "voltage_Vpcclv_all_phases" = true := by decide +kernel
  have a2 : available.contains "duty_cycle" = true := by decide +kernel
  rw [h1, h2, a1, a2]
  simp [hs, hn]

/-- **C73 (units).** In per-unit mode no curve is scaled; in S.I. mode voltages are scaled by the voltage base, currents by the current base and powers by the power base; angles, frequencies and duty cycles never. -/
theorem C73_units {K : Type} [One K] (base : Unit' → K) (q : Qty) :
    mult true base (unitOf q) = 1 ∧ mult false base (unitOf q) = match unitOf q with | .V => base .V | .I => base .I | .S => base .S | .none => 1 := by
  cases q <;> exact ⟨rfl, rfl⟩

example : plot true (Config.className .three) "reactive_power" (fun _ => 5) 5 =
    .ok [((.S_im, .S), "$Q^{inv}$"), ((.S_PCC_im, .S), "$Q^{PCC-LV}$"), ((.S_load1_im, .S), "$Q^{load1}$"), ((.S_G_im, .S), "$Q^{G}$")] := by
  decide +kernel

/-- C73: comparing with external results draws exactly the curves and labels of the corresponding plot followed by the external curves, each over its own time vector and
with its own label; it succeeds iff that plot does and there are as many external time vectors as external curves as external labels. -/
theorem C73_compare {τ υ : Type} (sa : Bool) (m : Sim.Mt) (ty : String) (size : Qty → Nat) (n : Nat) (extT : List τ) (extV : Option (List υ)) (extL : List String)
    (l : List (((Qty × Unit') ⊕ (τ × υ)) × String)) :
    compare sa (Config.className m) ty size n extT extV extL = .ok l ↔
      ∃ l0 vs, plot sa (Config.className m) ty size n = .ok l0 ∧ extV = some vs ∧ vs.length = extT.length ∧ vs.length = extL.length ∧
        l = l0.map (fun c => (.inl c.1, c.2)) ++ ((extT.zip vs).zip extL).map (fun c => (.inr c.1, c.2)) := by
  unfold compare plot
  cases extV with
  | none => simp
  | some vs =>
    by_cases h1 : vs.length = extL.length
    · simp only [if_pos h1]
      cases hg : group sa (Config.className m) ty size n with
      | error e => simp
      | ok g =>
        by_cases h2 : g.curves.length = g.legends.length
        · by_cases h3 : vs.length = extT.length
          · have hc : g.curves.length + vs.length = g.curves.length + extT.length ∧ g.curves.length + extT.length = g.legends.length + extL.length := by omega
            simp only [if_pos hc, if_pos h2]
            have hz : (g.curves.map (Sum.inl (β := τ × υ)) ++ (extT.zip vs).map Sum.inr).zip (g.legends ++ extL) =
                (g.curves.zip g.legends).map (fun c => (.inl c.1, c.2)) ++ ((extT.zip vs).zip extL).map (fun c => (.inr c.1, c.2)) := by
              rw [List.zip_append (by simpa using h2), List.zip_map_left, List.zip_map_left]
              rfl
            rw [hz]
            constructor
            · intro h
              cases h
              exact ⟨_, vs, rfl, rfl, h3, h1, rfl⟩
            · rintro ⟨l0, vs', e1, e2, _, _, rfl⟩
              cases e1; cases e2
              rfl
          · have hc : ¬(g.curves.length + vs.length = g.curves.length + extT.length ∧ g.curves.length + extT.length = g.legends.length + extL.length) := by omega
            simp only [if_neg hc, if_pos h2]
            constructor
            · intro h; cases h
            · rintro ⟨l0, vs', _, e2, h, _⟩
              cases e2
              exact absurd h h3
        · have hc : ¬(g.curves.length + vs.length = g.curves.length + extT.length ∧ g.curves.length + extT.length = g.legends.length + extL.length) := by omega
          simp only [if_neg hc, if_neg h2]
          constructor
          · intro h; cases h
          · rintro ⟨l0, vs', h, _⟩; cases h
    · simp only [if_neg h1]
      constructor
      · intro h; cases h
      · rintro ⟨l0, vs', _, e2, _, h, _⟩
        cases e2
        exact absurd h h1

/-- Concrete case: a comparison of the DC voltage with one external curve; a missing label is rejected. -/
theorem C73_compare_example :
    compare false (Config.className .single) "voltage_Vdc" (fun _ => 5) 5 [()] (some [true]) ["external"] =
      .ok [(.inl (.Vdc_t, .V), "$V_{DC}$"), (.inr ((), true), "external")] ∧
    compare false (Config.className .single) "voltage_Vdc" (fun _ => 5) 5 [()] (some [true]) [] = .error .assertionError := by
  constructor <;> decide +kernel

end Plot
end PvDer
