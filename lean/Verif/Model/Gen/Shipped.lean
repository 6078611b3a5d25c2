/- Generated by tools/gen_shipped.py from /repo/config_der.json; do not edit. -/
import Verif.Props.Config
namespace PvDer
namespace Config
namespace Shipped

/-- `"50"` (config_der.json 2). -/
def c_50 : Cfg := cfgOf [("parent_config", .str ""), ("verbosity", .str "INFO")]
  [("basic_specs", [("model_type", .str "SolarPVDERThreePhase")]),
   ("basic_options", [("Sinsol", .float (100)), ("current_gradient_limiter", .bool false)]),
   ("module_parameters", [("Np", .int (11)), ("Ns", .int (735)), ("Vdcmpp0", .float (550)), ("Vdcmpp_min", .float (525)), ("Vdcmpp_max", .float (650))]),
   ("inverter_ratings", [("Srated", .float (50000)), ("Vdcrated", .float (550)), ("Ioverload", .float (13/10)), ("Vrmsrated", .float (177)), ("Iramp_max_gradient_real", .float (1)), ("Iramp_max_gradient_imag", .float (1))]),
   ("circuit_parameters", [("Rf_actual", .float (1/500)), ("Lf_actual", .float (1/40000)), ("C_actual", .float (3/10000)), ("R1_actual", .float (19/10000)), ("X1_actual", .float (561/10000))]),
   ("controller_gains", [("Kp_GCC", .float (6000)), ("Ki_GCC", .float (2000)), ("Kp_DC", .float (-(2))), ("Ki_DC", .float (-(10))), ("Kp_Q", .float (1/5)), ("Ki_Q", .float (10)), ("wp", .float (200000))]),
   ("steadystate_values", [("maR0", .float (89/100)), ("maI0", .float (0)), ("iaR0", .float (1)), ("iaI0", .float (1/1000))]),
   ("initial_states", [("iaR", .int (0)), ("iaI", .float (0)), ("xaR", .float (0)), ("xaI", .float (0)), ("uaR", .float (0)), ("uaI", .float (0)), ("xDC", .float (0)), ("xQ", .float (0)), ("xPLL", .float (0)), ("wte", .float (157/25))])]
  [("LVRT", ⟨none, some "LVRT_1547cat3"⟩), ("VRT_delays", ⟨none, some "VRT_delay_cat3"⟩)]

/-- `"50_numba"` (config_der.json 24). -/
def c_50_numba : Cfg := cfgOf [("parent_config", .str "50")]
  [("basic_specs", [("model_type", .str "SolarPVDERThreePhaseNumba")])]
  []

/-- `"50_type1"` (config_der.json 27). -/
def c_50_type1 : Cfg := cfgOf [("parent_config", .str "50")]
  [("inverter_ratings", [("Ioverload", .float (11/10))])]
  []

/-- `"LVRT_1547cat3"` (config_der.json 31). -/
def c_LVRT_1547cat3 : Cfg := blockOf
  [("1", .level (dictOf [("V_threshold", .float (22/25)), ("t_threshold", .float (5)), ("t_min_ridethrough", .int (20)), ("mode", .str "momentary_cessation"), ("t_start", .float (0)), ("threshold_breach", .bool false)])), ("2", .level (dictOf [("V_threshold", .float (7/10)), ("t_threshold", .float (7/2)), ("t_min_ridethrough", .float (5/2)), ("mode", .str "momentary_cessation"), ("t_start", .float (0)), ("threshold_breach", .bool false)])), ("3", .level (dictOf [("V_threshold", .float (1/2)), ("t_threshold", .float (1/4)), ("t_min_ridethrough", .int (1)), ("mode", .str "momentary_cessation"), ("t_start", .float (0)), ("threshold_breach", .bool false)]))]

/-- `"VRT_delay_cat3"` (config_der.json 51). -/
def c_VRT_delay_cat3 : Cfg := blockOf
  [("output_cessation_delay", .val (.float (1/100))), ("output_restore_delay", .val (.float (1/10))), ("restore_Vdc", .val (.bool false))]

/-- `"250"` (config_der.json 55). -/
def c_250 : Cfg := cfgOf [("parent_config", .str ""), ("verbosity", .str "WARNING")]
  [("basic_specs", [("model_type", .str "SolarPVDERThreePhase")]),
   ("basic_options", [("Sinsol", .float (100)), ("current_gradient_limiter", .bool true)]),
   ("module_parameters", [("Np", .int (45)), ("Ns", .int (1000)), ("Vdcmpp0", .float (750)), ("Vdcmpp_min", .float (750)), ("Vdcmpp_max", .float (1000))]),
   ("inverter_ratings", [("Srated", .float (250000)), ("Vdcrated", .float (750)), ("Ioverload", .float (13/10)), ("Vrmsrated", .float (230)), ("Iramp_max_gradient_real", .float (3/2)), ("Iramp_max_gradient_imag", .float (1))]),
   ("circuit_parameters", [("Rf_actual", .float (1/500)), ("Lf_actual", .float (3/10000)), ("C_actual", .float (3/10000)), ("R1_actual", .float (19/10000)), ("X1_actual", .float (561/10000))]),
   ("controller_gains", [("Kp_GCC", .float (6000)), ("Ki_GCC", .float (2000)), ("Kp_DC", .float (-(2))), ("Ki_DC", .float (-(10))), ("Kp_Q", .float (1/5)), ("Ki_Q", .float (10)), ("wp", .float (200000))]),
   ("steadystate_values", [("maR0", .float (89/100)), ("maI0", .float (0)), ("iaR0", .float (1)), ("iaI0", .float (1/1000))]),
   ("initial_states", [("iaR", .int (0)), ("iaI", .float (0)), ("xaR", .float (0)), ("xaI", .float (0)), ("uaR", .float (0)), ("uaI", .float (0)), ("xDC", .float (0)), ("xQ", .float (0)), ("xPLL", .float (0)), ("wte", .float (157/25))])]
  [("LVRT", ⟨none, some "LVRT_1547cat3"⟩)]

/-- `"250_numba"` (config_der.json 76). -/
def c_250_numba : Cfg := cfgOf [("parent_config", .str "250")]
  [("basic_specs", [("model_type", .str "SolarPVDERThreePhaseNumba")])]
  []

/-- `"10"` (config_der.json 80). -/
def c_10 : Cfg := cfgOf [("parent_config", .str "")]
  [("basic_specs", [("model_type", .str "SolarPVDERSinglePhase")]),
   ("basic_options", [("Sinsol", .float (100)), ("current_gradient_limiter", .bool true)]),
   ("module_parameters", [("Np", .int (2)), ("Ns", .int (1000)), ("Vdcmpp0", .float (750)), ("Vdcmpp_min", .float (650)), ("Vdcmpp_max", .float (800))]),
   ("inverter_ratings", [("Srated", .float (10000)), ("Vdcrated", .float (550)), ("Ioverload", .float (13/10)), ("Vrmsrated", .float (177)), ("Iramp_max_gradient_real", .float (1)), ("Iramp_max_gradient_imag", .float (1))]),
   ("circuit_parameters", [("Rf_actual", .float (1/500)), ("Lf_actual", .float (1/40000)), ("C_actual", .float (3/100000)), ("R1_actual", .float (19/10000)), ("X1_actual", .float (561/10000))]),
   ("controller_gains", [("Kp_GCC", .float (12000)), ("Ki_GCC", .float (4000)), ("Kp_DC", .float (-(4))), ("Ki_DC", .float (-(20))), ("Kp_Q", .float (2/5)), ("Ki_Q", .float (20)), ("wp", .float (200000))]),
   ("steadystate_values", [("maR0", .float (7/10)), ("maI0", .float (0)), ("iaR0", .float (1/2)), ("iaI0", .float (1/100))]),
   ("initial_states", [("iaR", .int (0)), ("iaI", .float (0)), ("xaR", .float (0)), ("xaI", .float (0)), ("uaR", .float (0)), ("uaI", .float (0)), ("xDC", .float (0)), ("xQ", .float (0)), ("xPLL", .float (0)), ("wte", .float (157/25))])]
  []

/-- `"50_balanced"` (config_der.json 100). -/
def c_50_balanced : Cfg := cfgOf [("parent_config", .str ""), ("verbosity", .str "INFO")]
  [("basic_specs", [("model_type", .str "SolarPVDERThreePhaseBalanced")]),
   ("basic_options", [("Sinsol", .float (100)), ("current_gradient_limiter", .bool false)]),
   ("module_parameters", [("Np", .int (11)), ("Ns", .int (735)), ("Vdcmpp0", .float (550)), ("Vdcmpp_min", .float (525)), ("Vdcmpp_max", .float (650))]),
   ("inverter_ratings", [("Srated", .float (50000)), ("Vdcrated", .float (550)), ("Ioverload", .float (13/10)), ("Vrmsrated", .float (177)), ("Iramp_max_gradient_real", .float (9/10)), ("Iramp_max_gradient_imag", .float (9/10))]),
   ("circuit_parameters", [("Rf_actual", .float (1/500)), ("Lf_actual", .float (1/40000)), ("C_actual", .float (3/10000)), ("R1_actual", .float (19/10000)), ("X1_actual", .float (561/10000))]),
   ("controller_gains", [("Kp_GCC", .float (6000)), ("Ki_GCC", .float (2000)), ("Kp_DC", .float (-(2))), ("Ki_DC", .float (-(10))), ("Kp_Q", .float (1/5)), ("Ki_Q", .float (10)), ("wp", .float (200000))]),
   ("steadystate_values", [("maR0", .float (89/100)), ("maI0", .float (0)), ("iaR0", .float (1)), ("iaI0", .float (1/1000))]),
   ("initial_states", [("iaR", .int (0)), ("iaI", .float (0)), ("xaR", .float (0)), ("xaI", .float (0)), ("uaR", .float (0)), ("uaI", .float (0)), ("xDC", .float (0)), ("xQ", .float (0)), ("xPLL", .float (0)), ("wte", .float (157/25))])]
  [("LVRT", ⟨none, some "LVRT_1547cat3"⟩)]

/-- `"10_constantVdc"` (config_der.json 121). -/
def c_10_constantVdc : Cfg := cfgOf [("parent_config", .str "")]
  [("basic_specs", [("model_type", .str "SolarPVDERSinglePhaseConstantVdc")]),
   ("basic_options", [("Sinsol", .float (100)), ("current_gradient_limiter", .bool true)]),
   ("module_parameters", [("Np", .int (2)), ("Ns", .int (1000)), ("Vdcmpp0", .float (750)), ("Vdcmpp_min", .float (650)), ("Vdcmpp_max", .float (800))]),
   ("inverter_ratings", [("Srated", .float (10000)), ("Vdcrated", .float (550)), ("Ioverload", .float (13/10)), ("Vrmsrated", .float (177)), ("Iramp_max_gradient_real", .float (1)), ("Iramp_max_gradient_imag", .float (1))]),
   ("circuit_parameters", [("Rf_actual", .float (1/500)), ("Lf_actual", .float (1/40000)), ("C_actual", .float (3/100000)), ("R1_actual", .float (19/10000)), ("X1_actual", .float (561/10000))]),
   ("controller_gains", [("Kp_GCC", .float (12000)), ("Ki_GCC", .float (4000)), ("Kp_P", .float (1/10)), ("Ki_P", .float (40)), ("Kp_Q", .float (1/25)), ("Ki_Q", .float (2)), ("wp", .float (200000))]),
   ("steadystate_values", [("maR0", .float (7/10)), ("maI0", .float (0)), ("iaR0", .float (1/2)), ("iaI0", .float (1/100))]),
   ("initial_states", [("iaR", .int (0)), ("iaI", .float (0)), ("xaR", .float (0)), ("xaI", .float (0)), ("uaR", .float (0)), ("uaI", .float (0)), ("xDC", .float (0)), ("xQ", .float (0)), ("xPLL", .float (0)), ("wte", .float (157/25))])]
  []

/-- `"50_constantVdc"` (config_der.json 140). -/
def c_50_constantVdc : Cfg := cfgOf [("parent_config", .str ""), ("verbosity", .str "INFO")]
  [("basic_specs", [("model_type", .str "SolarPVDERThreePhaseConstantVdc")]),
   ("basic_options", [("Sinsol", .float (100)), ("current_gradient_limiter", .bool false)]),
   ("module_parameters", [("Np", .int (11)), ("Ns", .int (735)), ("Vdcmpp0", .float (550)), ("Vdcmpp_min", .float (525)), ("Vdcmpp_max", .float (650))]),
   ("inverter_ratings", [("Srated", .float (50000)), ("Vdcrated", .float (550)), ("Ioverload", .float (13/10)), ("Vrmsrated", .float (177)), ("Iramp_max_gradient_real", .float (1)), ("Iramp_max_gradient_imag", .float (1))]),
   ("circuit_parameters", [("Rf_actual", .float (1/500)), ("Lf_actual", .float (1/40000)), ("R1_actual", .float (19/10000)), ("X1_actual", .float (561/10000))]),
   ("controller_gains", [("Kp_GCC", .float (6000)), ("Ki_GCC", .float (2000)), ("Kp_P", .float (1/10)), ("Ki_P", .float (2)), ("Kp_Q", .float (1/5)), ("Ki_Q", .float (10)), ("wp", .float (200000))]),
   ("steadystate_values", [("maR0", .float (89/100)), ("maI0", .float (0)), ("iaR0", .float (1)), ("iaI0", .float (1/1000))]),
   ("initial_states", [("iaR", .int (0)), ("iaI", .float (0)), ("xaR", .float (0)), ("xaI", .float (0)), ("uaR", .float (0)), ("uaI", .float (0)), ("ibR", .int (0)), ("ibI", .float (0)), ("xbR", .float (0)), ("xbI", .float (0)), ("ubR", .float (0)), ("ubI", .float (0)), ("icR", .int (0)), ("icI", .float (0)), ("xcR", .float (0)), ("xcI", .float (0)), ("ucR", .float (0)), ("ucI", .float (0)), ("xP", .float (0)), ("xQ", .float (0)), ("xPLL", .float (0)), ("wte", .float (157/25))])]
  []

/-- `"1"` (config_der.json 156). -/
def c_1 : Cfg := cfgOf [("parent_config", .str "")]
  [("basic_specs", [("model_type", .str "SolarPVDERSinglePhase")]),
   ("basic_options", [("Sinsol", .float (100))]),
   ("module_parameters", [("Np", .int (2)), ("Ns", .int (1000)), ("Vdcmpp0", .float (750)), ("Vdcmpp_min", .float (650)), ("Vdcmpp_max", .float (800))]),
   ("inverter_ratings", [("Srated", .float (10000)), ("Vdcrated", .float (550)), ("Ioverload", .float (13/10)), ("Vrmsrated", .float (177))]),
   ("circuit_parameters", [("Rf_actual", .float (1/100)), ("Lf_actual", .float (3/1000)), ("C_actual", .float (3/10000)), ("R1_actual", .float (19/10000)), ("X1_actual", .float (561/10000))]),
   ("controller_gains", [("Kp_GCC", .float (12000)), ("Ki_GCC", .float (4000)), ("Kp_DC", .float (-(4))), ("Ki_DC", .float (-(20))), ("Kp_Q", .float (2/5)), ("Ki_Q", .float (20)), ("wp", .float (200000))]),
   ("steadystate_values", [("maR0", .float (7/10)), ("maI0", .float (0)), ("iaR0", .float (1/2)), ("iaI0", .float (1/100))]),
   ("initial_states", [("iaR", .int (0)), ("iaI", .float (0)), ("xaR", .float (0)), ("xaI", .float (0)), ("uaR", .float (0)), ("uaI", .float (0)), ("xDC", .float (0)), ("xQ", .float (0)), ("xPLL", .float (0)), ("wte", .float (157/25))])]
  []

/-- The configuration file that comes with the tool. -/
def file : File
  | "50" => some c_50
  | "50_numba" => some c_50_numba
  | "50_type1" => some c_50_type1
  | "LVRT_1547cat3" => some c_LVRT_1547cat3
  | "VRT_delay_cat3" => some c_VRT_delay_cat3
  | "250" => some c_250
  | "250_numba" => some c_250_numba
  | "10" => some c_10
  | "50_balanced" => some c_50_balanced
  | "10_constantVdc" => some c_10_constantVdc
  | "50_constantVdc" => some c_50_constantVdc
  | "1" => some c_1
  | _ => none

end Shipped
end Config
end PvDer
