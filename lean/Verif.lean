import Verif.Model.Basic
import Verif.Model.Events
import Verif.Spec.Timed
import Verif.Lemmas.Timed
import Verif.Lemmas.Playback
import Verif.Lemmas.PlaySeq
import Verif.Lemmas.Events
import Verif.Lemmas.GridPlay
import Verif.Model.EventTools
import Verif.Props.Events
import Verif.Props.EventTools
import Verif.Model.RideThrough
import Verif.Spec.RideThrough
import Verif.Lemmas.Zone
import Verif.Lemmas.RTRun
import Verif.Lemmas.Conn
import Verif.Props.RTTrip
import Verif.Props.RTQuiet
import Verif.Props.RTCess
import Verif.Props.RTCessExact
import Verif.Model.SteadyState
import Verif.Props.SteadyState
import Verif.Props.SteadyExact
import Verif.Props.RTSettings
import Verif.Props.Connection
import Verif.Props.Reconnection
import Verif.Props.Frequency
import Verif.Model.VoltVar
import Verif.Props.VoltVar
import Verif.Model.Ramp
import Verif.Props.Ramp
import Verif.Model.VdcRef
import Verif.Props.VdcRef
import Verif.Model.Phasor
import Verif.Props.Phasor
import Verif.Model.Circuit
import Verif.Props.Circuit
import Verif.Model.Grid
import Verif.Props.Grid
import Verif.Model.OdeEnv
import Verif.Model.Ode
import Verif.Lemmas.Grad
import Verif.Lemmas.OdeGrad
import Verif.Lemmas.OdeEx
import Verif.Props.JacSingle
import Verif.Props.JacThree
import Verif.Props.JacThreeMain
import Verif.Props.AntiWindup
import Verif.Props.OdeProps
import Verif.Props.Equilibrium
import Verif.Props.EnergyMore
import Verif.Model.Sim
import Verif.Props.Sim
import Verif.Props.Series
import Verif.Props.Balanced
import Verif.Props.JacBalanced
import Verif.Props.JacConstVdc
import Verif.Props.JacConstVdc3
import Verif.Model.PyVal
import Verif.Model.Gen.Templates
import Verif.Model.Config
import Verif.Spec.Config
import Verif.Lemmas.Config
import Verif.Props.Config
import Verif.Props.ConfigRT
import Verif.Props.Construct
import Verif.Props.Constructible
import Verif.Model.Multi
import Verif.Props.Multi
import Verif.Model.ParamDict
import Verif.Model.SetupMsg
import Verif.Props.ParamDict
import Verif.Model.Plot
import Verif.Props.Plot
import Verif.Model.FreqEst
import Verif.Props.FreqEst
import Verif.Model.Ratings
import Verif.Props.Ratings
import Verif.Model.Eval
import Verif.Lemmas.Eval
import Verif.Props.EvalRun
import Verif.Lemmas.EvalEvents
import Verif.Props.EvalSched
import Verif.Props.EvalRide
import Verif.Props.EvalPure
import Verif.Props.EvalRefs
import Verif.Model.Naming
import Verif.Props.Naming
import Verif.Props.SetupMsg
import Verif.Props.OnlyRead
import Verif.Model.SimInit
import Verif.Props.SimInit
import Verif.Model.Session
import Verif.Model.Fleet
import Verif.Model.Loop
import Verif.Model.Wiring
import Verif.Model.RTSwitch
import Verif.Spec.RTSwitch
import Verif.Spec.Edits
import Verif.Model.SeriesTools
import Verif.Lemmas.Session
import Verif.Props.Session
import Verif.Props.SessionRuns
import Verif.Props.SessionLimits
import Verif.Props.SessionSeries
import Verif.Props.SessionTotal
import Verif.Props.Fleet
import Verif.Props.GridRun
import Verif.Props.Loop
import Verif.Props.AfterFailure
import Verif.Props.Wiring
import Verif.Props.RTSwitch
import Verif.Props.Waveform
import Verif.Props.Edits
import Verif.Props.Removal
import Verif.Props.CoEdits
import Verif.Props.SessionReport
import Verif.Props.SessionPure
import Verif.Lemmas.Pll
import Verif.Lemmas.PhaseDefect
import Verif.Props.Pll
import Verif.Props.RmsFilter
import Verif.Props.StaysBalanced
import Verif.Props.SteadyRotate
import Verif.Props.Windup
import Verif.Lemmas.Decay
import Verif.Props.DiesOut
import Verif.Props.Bounds
import Verif.Props.OpenCircuit
import Verif.Lemmas.LocLip
import Verif.Props.WellPosed
import Verif.Props.SteadyStays
import Verif.Lemmas.Settle
import Verif.Props.Settles
import Verif.Lemmas.Track
import Verif.Props.Tracks
import Verif.Props.Measures
import Verif.Props.SeriesTools
import Verif.Model.RTLog
import Verif.Spec.RTLog
import Verif.Lemmas.RTLog
import Verif.Props.RTLog
import Verif.Props.StepBack
import Verif.Props.TimeOrigin
import Verif.Model.LogRead
import Verif.Model.LogFile
import Verif.Lemmas.LogRead
import Verif.Props.LogRead
import Verif.Props.LogFile
import Verif.Model.Numba
import Verif.Model.Measured
import Verif.Props.Numba
import Verif.Props.Measured
import Verif.Lemmas.LocStab
import Verif.Lemmas.CurrentLoop
import Verif.Lemmas.ClosedLoop
import Verif.Lemmas.Remainder
import Verif.Lemmas.DcLoop
import Verif.Lemmas.ThreeLoop
import Verif.Props.ClosedLoop
import Verif.Props.ClosedLoopUnits
import Verif.Props.ClosedLoopDc
import Verif.Props.ClosedLoopDcUnits
import Verif.Props.ClosedLoop3
import Verif.Props.ClosedLoop3Units
import Verif.Props.ClosedLoop3ConstVdc
import Verif.Props.ClosedLoop3ConstVdcUnits
import Verif.Model.JacCheck
import Verif.Props.JacCheck
import Verif.Props.JacCheckConst
import Verif.Props.JacCheckThree
import Verif.Props.JacCheckBal
import Verif.Props.JacCheckConst3
import Verif.Model.Recorded
import Verif.Props.Recorded
import Verif.Props.Restore
import Verif.Props.RestoreMore
import Verif.Props.VoltVarRun
import Verif.Props.SecondRun
import Verif.Model.RTInit
import Verif.Props.ConfigRun
import Verif.Model.ParInit
import Verif.Model.Gen.Shipped
import Verif.Props.ParRun
import Verif.Props.Shipped
import Verif.Props.ShippedUse
import Verif.Props.PhysicalUnits
import Verif.Props.MinRide
import Verif.Props.Timing
import Verif.Props.RecoverTiming
import Verif.Props.CessTiming
import Verif.Props.GridEdits
import Verif.Props.GridRemoval
import Verif.Props.SharedRefs
import Verif.Props.RefEdits
import Verif.Props.RefRuns
import Verif.Model.Display
import Verif.Model.PvModule
import Verif.Props.Display
import Verif.Props.DisplayRT
import Verif.Props.DisplaySched
import Verif.Props.EndToEnd
import Verif.Props.PvModule
import Verif.Props.Examples
