import Verif.Props.Running
import Verif.Props.StratFactor
import Verif.Props.Curves
import Verif.Props.LoadShift
import Verif.Props.LoadShiftTank
import Verif.Props.Climate
import Verif.Props.Clock
import Verif.Props.Robust
import Verif.Props.RobustShift
import Verif.Props.Shared
import Verif.Props.SharedLoop
import Verif.Props.SharedShift
import Verif.Props.Building
import Verif.Props.Heater
import Verif.Props.PerfMap
import Verif.Props.PerfBounds
import Verif.Props.Efficiency
import Verif.Props.Engine
import Verif.Props.Utility
import Verif.Props.SimRun
import Verif.Props.StratTank
import Verif.Props.EnergyTank
import Verif.Props.MixedTank
import Verif.Props.SlugHeat
import Verif.Props.MixingValve
import Verif.Props.ParallelLoop
import Verif.Props.SwingSize
import Verif.Props.SwingErCurve
import Verif.Props.Rtp
import Verif.Props.Simulate
import Verif.Props.MultiPass
import Verif.Props.MultiPassSim
import Verif.Model.MultiPassCurve
import Verif.Props.MultiPassCurve
import Verif.Model.Report
import Verif.Props.Report
import Verif.Props.EngineReport
import Verif.Props.Repeat
import Verif.Props.Traces
import Verif.Props.Built
import Verif.Props.Message
import Verif.Props.RunHeat
import Verif.Props.Equipment
import Verif.Props.LoopChecks
import Verif.Props.SwingShift
import Verif.Props.Turnover
import Verif.Props.ErCoverage
import Verif.Props.ErWitness
import Verif.Model.Build
import Verif.Spec.Built
import Verif.Props.SwingRun
import Verif.Props.RecircBuilt
import Verif.Props.StrongElement
import Verif.Props.ErTradeoff
import Verif.Model.Slider
import Verif.Spec.Slider
import Verif.Props.Slider
import Verif.Model.Session
import Verif.Spec.Session
import Verif.Props.Session
import Verif.Spec.Larger
import Verif.Props.Larger
import Verif.Model.BuildingArgs
import Verif.Spec.BuildingArgs
import Verif.Props.BuildingArgs
import Verif.Spec.Restart
import Verif.Props.RepeatLoop
import Verif.Props.LoopHeat
import Verif.Props.LoopWeather
import Verif.Spec.Scale
import Verif.Props.Scale
import Verif.Props.Harder
import Verif.Props.HarderShift
import Verif.Props.Unit
import Verif.Props.DegreesCurve
import Verif.Props.AnyScale
import Verif.Props.SharedSwing
import Verif.Props.SensorShift
import Verif.Props.LoopResults
import Verif.Props.ErRun
import Verif.Props.ScaleSim
import Verif.Props.Unused
import Verif.Props.Staged
import Verif.Props.Components
import Verif.Props.Bills
import Verif.Props.Order
import Verif.Props.Catalogue
import Verif.Props.Cut
import Verif.Props.DesignDay
import Verif.Props.Shapes
import Verif.Props.DegreesSim
import Verif.Props.DegreesMp
