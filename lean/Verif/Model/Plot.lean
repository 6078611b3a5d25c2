import Verif.Model.Basic
/-!
Grouping of results for plotting (simulation_utilities.py 34, 84-290, 292-343).
-/
namespace PvDer
namespace Plot

/-- The recorded series used in plots, by attribute of the simulation object. -/
inductive Qty
  | Vdc_t | Vtrms_t | Vrms_t | vdg_t | Vhvrms_t | Vgrms_t | Varms_t | Vbrms_t | Vcrms_t | Irms_t | Ppv_t
  | S_re | S_im | S_PCC_re | S_PCC_im | S_load1_re | S_load1_im | S_G_re | S_G_im
  | phi_at_t | phi_a_t | phi_ag_t | phi_diff | wgrid_t | we_t | ma_absolute_t | mb_absolute_t | mc_absolute_t
deriving DecidableEq

/-- Which multiplier of `change_units` is applied (simulation_utilities.py 67-83). -/
inductive Unit' | V | I | S | none
deriving DecidableEq

/-- `SimulationResults.available_plot_types` (simulation_utilities.py 34). -/
def available : List String :=
  ["power", "active_power", "active_power_Ppv_Pac_PCC", "active_power_Pac_PCC", "reactive_power", "reactive_power_Q_PCC", "reactive_power_Q_PCC_smoothed", "voltage", "voltage_Vdc", "voltage_HV",
   "voltage_HV_imbalance", "voltage_LV", "voltage_Vpcclv", "voltage_Vpcclv_smoothed", "current", "phase_angle", "frequency", "duty_cycle", "voltage_Vpcclv_all_phases"]

/-- A curve with its scaling, and the legends. -/
structure Group where
  curves : List (Qty × Unit')
  legends : List String
deriving DecidableEq

/-- The branch table of `group_quantities_for_plotting` (simulation_utilities.py 117-276) for the object's stand-alone flag and class name; `none`: no branch taken, the variables stay unbound. -/
def branch (sa : Bool) (cls ty : String) : Except Err (Option Group) :=
  if ty = "voltage" then .ok (some ⟨[(.Vdc_t, .V), (.Vtrms_t, .V), (.Vrms_t, .V), (.vdg_t, .V)] ++ (if sa then [(.Vhvrms_t, .V), (.Vgrms_t, .V)] else []),
    ["$V_{DC}$", "$v^{inv}_{rms}$", "$v^{PCC-LV}_{rms}$", "$v^{PCC-HV}_{rms}$", "$v^{grid}_{rms}$", "$v^{grid}_{d}$"]⟩)
  else if ty = "voltage_Vdc" then .ok (some ⟨[(.Vdc_t, .V)], ["$V_{DC}$"]⟩)
  else if ty = "voltage_LV" then .ok (some ⟨[(.Vtrms_t, .V), (.Vrms_t, .V)], ["$v^{inv}_{rms}$", "$v^{PCC-LV}_{rms}$"]⟩)
  else if ty = "voltage_Vpcclv" then .ok (some ⟨[(.Vrms_t, .V)], ["$v^{PCC-LV}_{rms}$"]⟩)
  else if ty = "voltage_Vpcclv_all_phases" then
    if cls = "SolarPV_DER_ThreePhase" then .ok (some ⟨[(.Varms_t, .V), (.Vbrms_t, .V), (.Vcrms_t, .V)], ["$v^{PCC-LV}_{arms}$", "$v^{PCC-LV}_{brms}$", "$v^{PCC-LV}_{crms}$"]⟩)
    else .ok (some ⟨[(.Varms_t, .V)], ["$v^{PCC-LV}_{arms}$"]⟩)
  else if ty = "voltage_HV" then
    if sa = false then .error .valueError else .ok (some ⟨[(.Vhvrms_t, .V), (.Vgrms_t, .V)], ["$v^{PCC-HV}_{rms}$", "$v^{grid}_{rms}$"]⟩)
  else if ty = "current" then .ok (some ⟨[(.Irms_t, .I)], ["$i^{inv}_{rms}$"]⟩)
  else if ty = "power" then .ok (some ⟨[(.Ppv_t, .S), (.S_re, .S), (.S_im, .S), (.S_PCC_re, .S), (.S_PCC_im, .S)] ++ (if sa then [(.S_load1_re, .S), (.S_G_re, .S)] else []),
    ["$P^{PV}_{DC}$", "$P^{inv}_{AC}$", "$Q^{inv}$", "$P^{PCC-LV}_{AC}$", "$Q^{PCC-LV}$", "$P^{load1}_{AC}$", "$P^{G}_{AC}$"]⟩)
  else if ty = "active_power" then .ok (some ⟨[(.Ppv_t, .S), (.S_re, .S), (.S_PCC_re, .S)] ++ (if sa then [(.S_load1_re, .S), (.S_G_re, .S)] else []),
    ["$P^{PV}_{DC}$", "$P^{inv}_{AC}$", "$P^{PCC-LV}_{AC}$", "$P^{load1}_{AC}$", "$P^{G}_{AC}$"]⟩)
  else if ty = "active_power_Ppv_Pac_PCC" then .ok (some ⟨[(.Ppv_t, .S), (.S_PCC_re, .S)], ["$P^{PV}_{DC}$", "$P^{PCC-LV}_{ac}$"]⟩)
  else if ty = "active_power_Pac_PCC" then .ok (some ⟨[(.S_PCC_re, .S)], ["$P^{PCC-LV}_{ac}$"]⟩)
  else if ty = "reactive_power" then .ok (some ⟨[(.S_im, .S), (.S_PCC_im, .S)] ++ (if sa then [(.S_load1_im, .S), (.S_G_im, .S)] else []),
    ["$Q^{inv}$", "$Q^{PCC-LV}$"] ++ (if sa then ["$Q^{load1}$", "$Q^{G}$"] else [])⟩)
  else if ty = "reactive_power_Q_PCC" then .ok (some ⟨[(.S_PCC_im, .S)], ["$Q^{PCC-LV}$"]⟩)
  else if ty = "phase_angle" then
    if sa = false then .error .valueError
    else .ok (some ⟨[(.phi_at_t, .none), (.phi_a_t, .none)] ++ (if sa then [(.phi_ag_t, .none), (.phi_diff, .none)] else []),
      ["$\\phi^{inv}_{a}$", "$\\phi^{PCC-LV}_{a}$", "$\\phi^{grid}_{a}$", "$\\phi^{PCC-LV}_{a}-\\phi^{grid}_{a}$"]⟩)
  else if ty = "frequency" then
    if sa = false then .error .valueError else .ok (some ⟨[(.wgrid_t, .none), (.we_t, .none)], ["$\\omega_{grid}$", "$\\omega_{PLL}$"]⟩)
  else if ty = "duty_cycle" then
    if cls = "SolarPV_DER_ThreePhase" then .ok (some ⟨[(.ma_absolute_t, .none), (.mb_absolute_t, .none), (.mc_absolute_t, .none)], ["ma", "mb", "mc"]⟩)
    else .ok (some ⟨[(.ma_absolute_t, .none)], ["ma"]⟩)
  else .ok none

/-- `group_quantities_for_plotting` (simulation_utilities.py 84-288). `size` gives the number of samples of each recorded series, `n` that of the time vector. No code assigns the attribute `vdg_t`, so reading it is an
`AttributeError`; all other series are taken as recorded. The title and axis label are not modelled. -/
def group (sa : Bool) (cls ty : String) (size : Qty → Nat) (n : Nat) : Except Err Group :=
  if available.contains ty = false then .error .valueError
  else match branch sa cls ty with
    | .error e => .error e
    | .ok none => .error .unboundLocal
    | .ok (some g) =>
      if g.curves.any (fun c => c.1 = .vdg_t) then .error .attributeError
      else if g.curves.all (fun c => size c.1 = n && n > 1) then .ok g
      else .error .assertionError

/-- `plot_DER_simulation` (simulation_utilities.py 292-306) with the assertion of `plot_multiple` (308-311): the curves drawn with their labels. -/
def plot (sa : Bool) (cls ty : String) (size : Qty → Nat) (n : Nat) : Except Err (List ((Qty × Unit') × String)) :=
  match group sa cls ty size n with
  | .error e => .error e
  | .ok g => if g.curves.length = g.legends.length then .ok (g.curves.zip g.legends) else .error .assertionError

/-- `compare_with_external` (simulation_utilities.py 346-360) with the assertion of `plot_multiple` (308-311): the curves of the simulation, drawn over its time vector,
and the external ones, drawn over theirs, with their labels. `extV` is `none` for the argument `None`; time vectors and values of the external curves are opaque. -/
def compare {τ υ : Type} (sa : Bool) (cls ty : String) (size : Qty → Nat) (n : Nat) (extT : List τ) (extV : Option (List υ)) (extL : List String) :
    Except Err (List (((Qty × Unit') ⊕ (τ × υ)) × String)) :=
  match extV with
  | none => .error .assertionError
  | some vs =>
    if vs.length = extL.length then
      match group sa cls ty size n with
      | .error e => .error e
      | .ok g =>
        if g.curves.length + vs.length = g.curves.length + extT.length ∧ g.curves.length + extT.length = g.legends.length + extL.length then
          .ok ((g.curves.map Sum.inl ++ (extT.zip vs).map Sum.inr).zip (g.legends ++ extL))
        else .error .assertionError
    else .error .assertionError

/-- The multiplier of a curve (simulation_utilities.py 67-83): `base` are the simulation's base values. -/
def mult {K : Type} [One K] (perUnit : Bool) (base : Unit' → K) : Unit' → K
  | .none => 1
  | u => if perUnit then 1 else base u

end Plot
end PvDer
