/- Generated by tools/gen_templates.py from /repo/pvder/templates.py, properties.py and specifications.py; do not edit. -/
import Verif.Model.PyVal
import Verif.Model.Sim
namespace PvDer
namespace Config

/-- `templates.DER_design_template["SolarPVDERSinglePhase"]` (templates.py 16-30); the entry `"parent_config": ""` is an empty string, which iterates like an empty dictionary. -/
def tmpl_single : Template :=
  [("parent_config", []),
   ("basic_specs", [("phases", .str "a"), ("n_phases", .int (1)), ("n_ODE", .int (11)), ("model_type", .str "SolarPVDERSinglePhase")]),
   ("basic_options", [("t_stable", .float (1/2)), ("m_steady_state", .float (24/25)), ("Sinsol", .float (100)), ("current_gradient_limiter", .bool false), ("Vrms_measurement_type", .str "minimum")]),
   ("module_parameters", [("Np", .int (2)), ("Ns", .int (1000)), ("Vdcmpp0", .float (750)), ("Vdcmpp_min", .float (650)), ("Vdcmpp_max", .float (800))]),
   ("inverter_ratings", [("Srated", .float (10000)), ("Vdcrated", .float (550)), ("Ioverload", .float (13/10)), ("Vrmsrated", .float (177)), ("Iramp_max_gradient_real", .float (1)), ("Iramp_max_gradient_imag", .float (1))]),
   ("circuit_parameters", [("Rf_actual", .float (1/500)), ("Lf_actual", .float (1/40000)), ("C_actual", .float (3/100000)), ("R1_actual", .float (19/10000)), ("X1_actual", .float (561/10000))]),
   ("controller_gains", [("Kp_GCC", .float (12000)), ("Ki_GCC", .float (4000)), ("Kp_DC", .float (-(4))), ("Ki_DC", .float (-(20))), ("Kp_Q", .float (2/5)), ("Ki_Q", .float (20)), ("wp", .float (200000))]),
   ("steadystate_values", [("maR0", .float (7/10)), ("maI0", .float (0)), ("iaR0", .float (1/2)), ("iaI0", .float (1/100))]),
   ("initial_states", [("iaR", .int (0)), ("iaI", .float (0)), ("xaR", .float (0)), ("xaI", .float (0)), ("uaR", .float (0)), ("uaI", .float (0)), ("Vdc", .float (550)), ("xDC", .float (0)), ("xQ", .float (0)), ("xPLL", .float (0)), ("wte", .float (157/25))])]

/-- `templates.DER_design_template["SolarPVDERSinglePhaseConstantVdc"]` (templates.py 32-44); the entry `"parent_config": ""` is an empty string, which iterates like an empty dictionary. -/
def tmpl_constVdc1 : Template :=
  [("parent_config", []),
   ("basic_specs", [("phases", .str "a"), ("n_phases", .int (1)), ("n_ODE", .int (10)), ("model_type", .str "SolarPVDERSinglePhaseConstantVdc")]),
   ("basic_options", [("t_stable", .float (1/2)), ("m_steady_state", .float (24/25)), ("Sinsol", .float (100)), ("use_Pref", .bool false), ("current_gradient_limiter", .bool false), ("Vrms_measurement_type", .str "minimum")]),
   ("module_parameters", [("Np", .int (2)), ("Ns", .int (1000)), ("Vdcmpp0", .float (750)), ("Vdcmpp_min", .float (650)), ("Vdcmpp_max", .float (800))]),
   ("inverter_ratings", [("Srated", .float (10000)), ("Vdcrated", .float (550)), ("Ioverload", .float (13/10)), ("Vrmsrated", .float (177)), ("Iramp_max_gradient_real", .float (1)), ("Iramp_max_gradient_imag", .float (1))]),
   ("circuit_parameters", [("Rf_actual", .float (1/500)), ("Lf_actual", .float (1/40000)), ("R1_actual", .float (19/10000)), ("X1_actual", .float (561/10000))]),
   ("controller_gains", [("Kp_GCC", .float (12000)), ("Ki_GCC", .float (4000)), ("Kp_P", .float (5000)), ("Ki_P", .float (500)), ("Kp_Q", .float (2/5)), ("Ki_Q", .float (20)), ("wp", .float (200000))]),
   ("steadystate_values", [("maR0", .float (7/10)), ("maI0", .float (0)), ("iaR0", .float (1/2)), ("iaI0", .float (1/100))]),
   ("initial_states", [("iaR", .int (0)), ("iaI", .float (0)), ("xaR", .float (0)), ("xaI", .float (0)), ("uaR", .float (0)), ("uaI", .float (0)), ("xP", .float (0)), ("xQ", .float (0)), ("xPLL", .float (0)), ("wte", .float (157/25))])]

/-- `templates.DER_design_template["SolarPVDERThreePhase"]` (templates.py 46-60); the entry `"parent_config": ""` is an empty string, which iterates like an empty dictionary. -/
def tmpl_three : Template :=
  [("parent_config", []),
   ("basic_specs", [("phases", .tup ["a", "b", "c"]), ("n_phases", .int (3)), ("n_ODE", .int (24)), ("unbalanced", .bool true), ("model_type", .str "SolarPVDERThreePhase")]),
   ("basic_options", [("t_stable", .float (1/2)), ("m_steady_state", .float (24/25)), ("Sinsol", .float (100)), ("current_gradient_limiter", .bool false), ("Vrms_measurement_type", .str "filtered")]),
   ("module_parameters", [("Np", .int (11)), ("Ns", .int (735)), ("Vdcmpp0", .float (550)), ("Vdcmpp_min", .float (525)), ("Vdcmpp_max", .float (650))]),
   ("inverter_ratings", [("Srated", .float (50000)), ("Vdcrated", .float (550)), ("Ioverload", .float (13/10)), ("Vrmsrated", .float (177)), ("Iramp_max_gradient_real", .float (1)), ("Iramp_max_gradient_imag", .float (1))]),
   ("circuit_parameters", [("Rf_actual", .float (1/500)), ("Lf_actual", .float (1/40000)), ("C_actual", .float (3/10000)), ("R1_actual", .float (19/10000)), ("X1_actual", .float (561/10000))]),
   ("controller_gains", [("Kp_GCC", .float (6000)), ("Ki_GCC", .float (2000)), ("Kp_DC", .float (-(2))), ("Ki_DC", .float (-(10))), ("Kp_Q", .float (1/5)), ("Ki_Q", .float (10)), ("wp", .float (200000)), ("Tfilter_Vrms", .float (1/10))]),
   ("steadystate_values", [("maR0", .float (89/100)), ("maI0", .float (0)), ("iaR0", .float (1)), ("iaI0", .float (1/1000))]),
   ("initial_states", [("iaR", .int (0)), ("iaI", .float (0)), ("xaR", .float (0)), ("xaI", .float (0)), ("uaR", .float (0)), ("uaI", .float (0)), ("ibR", .int (0)), ("ibI", .float (0)), ("xbR", .float (0)), ("xbI", .float (0)), ("ubR", .float (0)), ("ubI", .float (0)), ("icR", .int (0)), ("icI", .float (0)), ("xcR", .float (0)), ("xcI", .float (0)), ("ucR", .float (0)), ("ucI", .float (0)), ("Vdc", .float (550)), ("xDC", .float (0)), ("xQ", .float (0)), ("xPLL", .float (0)), ("wte", .float (157/25))])]

/-- `templates.DER_design_template["SolarPVDERThreePhaseNoVrmsFilter"]` (templates.py 62-75); the entry `"parent_config": ""` is an empty string, which iterates like an empty dictionary. -/
def tmpl_noFilter : Template :=
  [("parent_config", []),
   ("basic_specs", [("phases", .tup ["a", "b", "c"]), ("n_phases", .int (3)), ("n_ODE", .int (23)), ("unbalanced", .bool true), ("model_type", .str "SolarPVDERThreePhaseNoVrmsFilter")]),
   ("basic_options", [("t_stable", .float (1/2)), ("m_steady_state", .float (24/25)), ("Sinsol", .float (100)), ("current_gradient_limiter", .bool false), ("Vrms_measurement_type", .str "minimum")]),
   ("module_parameters", [("Np", .int (11)), ("Ns", .int (735)), ("Vdcmpp0", .float (550)), ("Vdcmpp_min", .float (525)), ("Vdcmpp_max", .float (650))]),
   ("inverter_ratings", [("Srated", .float (50000)), ("Vdcrated", .float (550)), ("Ioverload", .float (13/10)), ("Vrmsrated", .float (177)), ("Iramp_max_gradient_real", .float (1)), ("Iramp_max_gradient_imag", .float (1))]),
   ("circuit_parameters", [("Rf_actual", .float (1/500)), ("Lf_actual", .float (1/40000)), ("C_actual", .float (3/10000)), ("R1_actual", .float (19/10000)), ("X1_actual", .float (561/10000))]),
   ("controller_gains", [("Kp_GCC", .float (6000)), ("Ki_GCC", .float (2000)), ("Kp_DC", .float (-(2))), ("Ki_DC", .float (-(10))), ("Kp_Q", .float (1/5)), ("Ki_Q", .float (10)), ("wp", .float (200000))]),
   ("steadystate_values", [("maR0", .float (89/100)), ("maI0", .float (0)), ("iaR0", .float (1)), ("iaI0", .float (1/1000))]),
   ("initial_states", [("iaR", .int (0)), ("iaI", .float (0)), ("xaR", .float (0)), ("xaI", .float (0)), ("uaR", .float (0)), ("uaI", .float (0)), ("ibR", .int (0)), ("ibI", .float (0)), ("xbR", .float (0)), ("xbI", .float (0)), ("ubR", .float (0)), ("ubI", .float (0)), ("icR", .int (0)), ("icI", .float (0)), ("xcR", .float (0)), ("xcI", .float (0)), ("ucR", .float (0)), ("ucI", .float (0)), ("Vdc", .float (550)), ("xDC", .float (0)), ("xQ", .float (0)), ("xPLL", .float (0)), ("wte", .float (157/25))])]

/-- `templates.DER_design_template["SolarPVDERThreePhaseNumba"]` (templates.py 77-91); the entry `"parent_config": ""` is an empty string, which iterates like an empty dictionary. -/
def tmpl_numba : Template :=
  [("parent_config", []),
   ("basic_specs", [("phases", .tup ["a", "b", "c"]), ("n_phases", .int (3)), ("n_ODE", .int (23)), ("unbalanced", .bool true), ("model_type", .str "SolarPVDERThreePhaseNumba")]),
   ("basic_options", [("t_stable", .float (1/2)), ("m_steady_state", .float (24/25)), ("Sinsol", .float (100)), ("current_gradient_limiter", .bool false), ("Vrms_measurement_type", .str "minimum")]),
   ("module_parameters", [("Np", .int (11)), ("Ns", .int (735)), ("Vdcmpp0", .float (550)), ("Vdcmpp_min", .float (525)), ("Vdcmpp_max", .float (650))]),
   ("inverter_ratings", [("Srated", .float (50000)), ("Vdcrated", .float (550)), ("Ioverload", .float (13/10)), ("Vrmsrated", .float (177)), ("Iramp_max_gradient_real", .float (1)), ("Iramp_max_gradient_imag", .float (1))]),
   ("circuit_parameters", [("Rf_actual", .float (1/500)), ("Lf_actual", .float (1/40000)), ("C_actual", .float (3/10000)), ("R1_actual", .float (19/10000)), ("X1_actual", .float (561/10000))]),
   ("controller_gains", [("Kp_GCC", .float (6000)), ("Ki_GCC", .float (2000)), ("Kp_DC", .float (-(2))), ("Ki_DC", .float (-(10))), ("Kp_Q", .float (1/5)), ("Ki_Q", .float (10)), ("wp", .float (200000))]),
   ("steadystate_values", [("maR0", .float (89/100)), ("maI0", .float (0)), ("iaR0", .float (1)), ("iaI0", .float (1/1000))]),
   ("initial_states", [("iaR", .int (0)), ("iaI", .float (0)), ("xaR", .float (0)), ("xaI", .float (0)), ("uaR", .float (0)), ("uaI", .float (0)), ("ibR", .int (0)), ("ibI", .float (0)), ("xbR", .float (0)), ("xbI", .float (0)), ("ubR", .float (0)), ("ubI", .float (0)), ("icR", .int (0)), ("icI", .float (0)), ("xcR", .float (0)), ("xcI", .float (0)), ("ucR", .float (0)), ("ucI", .float (0)), ("Vdc", .float (550)), ("xDC", .float (0)), ("xQ", .float (0)), ("xPLL", .float (0)), ("wte", .float (157/25))])]

/-- `templates.DER_design_template["SolarPVDERThreePhaseBalanced"]` (templates.py 94-107); the entry `"parent_config": ""` is an empty string, which iterates like an empty dictionary. -/
def tmpl_balanced : Template :=
  [("parent_config", []),
   ("basic_specs", [("phases", .tup ["a", "b", "c"]), ("n_phases", .int (3)), ("n_ODE", .int (11)), ("unbalanced", .bool false), ("model_type", .str "SolarPVDERThreePhaseBalanced")]),
   ("basic_options", [("t_stable", .float (1/2)), ("m_steady_state", .float (24/25)), ("Sinsol", .float (100)), ("current_gradient_limiter", .bool false), ("Vrms_measurement_type", .str "minimum")]),
   ("module_parameters", [("Np", .int (11)), ("Ns", .int (735)), ("Vdcmpp0", .float (550)), ("Vdcmpp_min", .float (525)), ("Vdcmpp_max", .float (650))]),
   ("inverter_ratings", [("Srated", .float (50000)), ("Vdcrated", .float (550)), ("Ioverload", .float (13/10)), ("Vrmsrated", .float (177)), ("Iramp_max_gradient_real", .float (1)), ("Iramp_max_gradient_imag", .float (1))]),
   ("circuit_parameters", [("Rf_actual", .float (1/500)), ("Lf_actual", .float (1/40000)), ("C_actual", .float (3/10000)), ("R1_actual", .float (19/10000)), ("X1_actual", .float (561/10000))]),
   ("controller_gains", [("Kp_GCC", .float (6000)), ("Ki_GCC", .float (2000)), ("Kp_DC", .float (-(2))), ("Ki_DC", .float (-(10))), ("Kp_Q", .float (1/5)), ("Ki_Q", .float (10)), ("wp", .float (200000))]),
   ("steadystate_values", [("maR0", .float (89/100)), ("maI0", .float (0)), ("iaR0", .float (1)), ("iaI0", .float (1/1000))]),
   ("initial_states", [("iaR", .int (0)), ("iaI", .float (0)), ("xaR", .float (0)), ("xaI", .float (0)), ("uaR", .float (0)), ("uaI", .float (0)), ("Vdc", .float (550)), ("xDC", .float (0)), ("xQ", .float (0)), ("xPLL", .float (0)), ("wte", .float (157/25))])]

/-- `templates.DER_design_template["SolarPVDERThreePhaseConstantVdc"]` (templates.py 109-123); the entry `"parent_config": ""` is an empty string, which iterates like an empty dictionary. -/
def tmpl_constVdc3 : Template :=
  [("parent_config", []),
   ("basic_specs", [("phases", .tup ["a", "b", "c"]), ("n_phases", .int (3)), ("n_ODE", .int (22)), ("unbalanced", .bool true), ("model_type", .str "SolarPVDERThreePhaseConstantVdc")]),
   ("basic_options", [("t_stable", .float (1/2)), ("m_steady_state", .float (24/25)), ("Sinsol", .float (100)), ("current_gradient_limiter", .bool false), ("Vrms_measurement_type", .str "minimum")]),
   ("module_parameters", [("Np", .int (11)), ("Ns", .int (735)), ("Vdcmpp0", .float (550)), ("Vdcmpp_min", .float (525)), ("Vdcmpp_max", .float (650))]),
   ("inverter_ratings", [("Srated", .float (50000)), ("Vdcrated", .float (550)), ("Ioverload", .float (13/10)), ("Vrmsrated", .float (177)), ("Iramp_max_gradient_real", .float (1)), ("Iramp_max_gradient_imag", .float (1))]),
   ("circuit_parameters", [("Rf_actual", .float (1/500)), ("Lf_actual", .float (1/40000)), ("R1_actual", .float (19/10000)), ("X1_actual", .float (561/10000))]),
   ("controller_gains", [("Kp_GCC", .float (6000)), ("Ki_GCC", .float (2000)), ("Kp_P", .float (500)), ("Ki_P", .float (50)), ("Kp_Q", .float (1/5)), ("Ki_Q", .float (10)), ("wp", .float (200000))]),
   ("steadystate_values", [("maR0", .float (89/100)), ("maI0", .float (0)), ("iaR0", .float (1)), ("iaI0", .float (1/1000))]),
   ("initial_states", [("iaR", .int (0)), ("iaI", .float (0)), ("xaR", .float (0)), ("xaI", .float (0)), ("uaR", .float (0)), ("uaI", .float (0)), ("ibR", .int (0)), ("ibI", .float (0)), ("xbR", .float (0)), ("xbI", .float (0)), ("ubR", .float (0)), ("ubI", .float (0)), ("icR", .int (0)), ("icI", .float (0)), ("xcR", .float (0)), ("xcI", .float (0)), ("ucR", .float (0)), ("ucI", .float (0)), ("xP", .float (0)), ("xQ", .float (0)), ("xPLL", .float (0)), ("wte", .float (157/25))])]

/-- `templates.DER_design_template` (templates.py 16-125). -/
def template : Sim.Mt → Template
  | .single => tmpl_single
  | .constVdc1 => tmpl_constVdc1
  | .three => tmpl_three
  | .noFilter => tmpl_noFilter
  | .numba => tmpl_numba
  | .balanced => tmpl_balanced
  | .constVdc3 => tmpl_constVdc3

/-- Class names, the keys of `templates.DER_design_template`. -/
def className : Sim.Mt → String
  | .single => "SolarPVDERSinglePhase"
  | .constVdc1 => "SolarPVDERSinglePhaseConstantVdc"
  | .three => "SolarPVDERThreePhase"
  | .noFilter => "SolarPVDERThreePhaseNoVrmsFilter"
  | .numba => "SolarPVDERThreePhaseNumba"
  | .balanced => "SolarPVDERThreePhaseBalanced"
  | .constVdc3 => "SolarPVDERThreePhaseConstantVdc"

/-- `properties.parameter_properties[...]["type"]` (properties.py 15-98). -/
def props : List (String × List Ty) :=
  [("Rf", [.int, .float]),
   ("Lf", [.int, .float]),
   ("C", [.int, .float]),
   ("R1", [.int, .float]),
   ("X1", [.int, .float]),
   ("Zf", [.complex]),
   ("Rf_actual", [.int, .float]),
   ("Lf_actual", [.int, .float]),
   ("C_actual", [.int, .float]),
   ("R1_actual", [.int, .float]),
   ("X1_actual", [.int, .float]),
   ("Np", [.int, .float]),
   ("Ns", [.int, .float]),
   ("Vdcmpp0", [.int, .float]),
   ("Vdcmpp_min", [.int, .float]),
   ("Vdcmpp_max", [.int, .float]),
   ("Srated", [.int, .float]),
   ("Vdcrated", [.int, .float]),
   ("Ioverload", [.int, .float]),
   ("Vrmsrated", [.int, .float]),
   ("Iramp_max_gradient_real", [.int, .float]),
   ("Iramp_max_gradient_imag", [.int, .float]),
   ("Kp_GCC", [.int, .float]),
   ("Ki_GCC", [.int, .float]),
   ("Kp_DC", [.int, .float]),
   ("Ki_DC", [.int, .float]),
   ("Kp_P", [.int, .float]),
   ("Ki_P", [.int, .float]),
   ("Kp_Q", [.int, .float]),
   ("Ki_Q", [.int, .float]),
   ("wp", [.int, .float]),
   ("Tfilter_Vrms", [.int, .float]),
   ("maR0", [.int, .float]),
   ("maI0", [.int, .float]),
   ("iaR0", [.int, .float]),
   ("iaI0", [.int, .float]),
   ("iaR", [.int, .float]),
   ("iaI", [.int, .float]),
   ("ibR", [.int, .float]),
   ("ibI", [.int, .float]),
   ("icR", [.int, .float]),
   ("icI", [.int, .float]),
   ("xaR", [.int, .float]),
   ("xaI", [.int, .float]),
   ("xbR", [.int, .float]),
   ("xbI", [.int, .float]),
   ("xcR", [.int, .float]),
   ("xcI", [.int, .float]),
   ("uaR", [.int, .float]),
   ("uaI", [.int, .float]),
   ("ubR", [.int, .float]),
   ("ubI", [.int, .float]),
   ("ucR", [.int, .float]),
   ("ucI", [.int, .float]),
   ("Vdc", [.int, .float]),
   ("xDC", [.int, .float]),
   ("xP", [.int, .float]),
   ("xQ", [.int, .float]),
   ("xPLL", [.int, .float]),
   ("wte", [.int, .float]),
   ("n_phases", [.int]),
   ("n_ODE", [.int]),
   ("model_type", [.str]),
   ("phases", [.tuple]),
   ("unbalanced", [.bool]),
   ("t_stable", [.int, .float]),
   ("m_steady_state", [.float]),
   ("Sinsol", [.int, .float]),
   ("use_Pref", [.bool]),
   ("current_gradient_limiter", [.bool]),
   ("Vrms_measurement_type", [.str])]

/-- `specifications.DER_argument_spec` (specifications.py 19-41): name, accepted types, default (`none` when it is `None`). -/
def argSpec : List (String × List Ty × Option PVal) :=
  [("derId", [.str], none),
   ("Srated", [.int, .float], none),
   ("powerRating", [.int, .float], none),
   ("Vrmsrated", [.int, .float], none),
   ("VrmsRating", [.int, .float], none),
   ("Vdcrated", [.int, .float], none),
   ("gridModel", [.grid], none),
   ("verbosity", [.str, .int], some (.str "INFO")),
   ("identifier", [.str], some (.str "")),
   ("derConfig", [.dict], some (.dict)),
   ("gridVoltagePhaseA", [.complex], none),
   ("gridVoltagePhaseB", [.complex], none),
   ("gridVoltagePhaseC", [.complex], none),
   ("gridFrequency", [.int, .float], none),
   ("standAlone", [.bool], some (.bool true)),
   ("steadyStateInitialization", [.bool], some (.bool true)),
   ("allowUnbalancedM", [.bool], some (.bool false)),
   ("ia0", [.complex], none),
   ("xa0", [.complex], none),
   ("ua0", [.complex], none),
   ("xDC0", [.float], none),
   ("xP0", [.float], none),
   ("xQ0", [.float], none)]

end Config
end PvDer
