import Verif.Py
import Verif.Grid.Model
import Verif.Grid.Spec
import Verif.Grid.Props
import Verif.Geom.Model
import Verif.Geom.Spec
import Verif.Geom.Props
import Verif.Trans.Model
import Verif.Trans.Spec
import Verif.Trans.Props
import Verif.Cache.Model
import Verif.Cache.Props
import Verif.Cache.Stale
import Verif.Cache.Shared
import Verif.Cache.Flags
import Verif.Units.Model
import Verif.Units.Props
import Verif.Units.Dimension
import Verif.Well.Model
import Verif.Well.Props
import Verif.Helpers.Model
import Verif.Helpers.Props
import Verif.Registry.Model
import Verif.Registry.Props
import Verif.Scaler.Model
import Verif.Scaler.Props
import Verif.Analytic.Model
import Verif.Analytic.Props
import Verif.Table.Model
import Verif.Table.Props
import Verif.Fdm.Model
import Verif.Fdm.Linear
import Verif.Fdm.Spec
import Verif.Fdm.Assemble
import Verif.Fdm.Assemble2
import Verif.Fdm.FromGrid
import Verif.Fdm.Balance
import Verif.Fdm.Symb
import Verif.Fdm.FromGrid2
import Verif.Fdm.Wells
import Verif.Fdm.History
import Verif.Fdm.Calm
import Verif.Fdm.Recorded
import Verif.Fdm.SetupOK
import Verif.Fdm.Examples
import Verif.Fdm.Ready
import Verif.Fdm.Compare
import Verif.Fdm.PropsMatrix
import Verif.Fdm.PropsPressure
import Verif.Fdm.PropsMB
import Verif.Fdm.Fail
import Verif.Fdm.PropsHistory
import Verif.Fdm.PropsWells
import Verif.Fdm.PropsRepeat
import Verif.Fdm.Alike
import Verif.Fdm.PropsSetup
import Verif.Fdm.Examples2
import Verif.Fdm.PropsAsm
import Verif.Fdm.Session
import Verif.Fdm.PropsSession
import Verif.Fdm.Threads
import Verif.Fdm.PropsThreads
import Verif.Fdm.PropsObj
import Verif.Fdm.PropsMulti
import Verif.Fdm.PropsEq
import Verif.Fdm.PropsProgress
import Verif.Fdm.PropsStable
import Verif.Fdm.Look
import Verif.Fdm.PropsLook
import Verif.Fdm.PropsPrint
import Verif.Fdm.PropsHead
import Verif.Table.Scaled
import Verif.Table.PropsScaled
import Verif.Fdm.PropsScaledTable
import Verif.Fdm.PropsLinear
import Verif.Fdm.PropsSolver
import Verif.Fdm.PropsChoice
import Verif.Cache.Attrs
import Verif.Fdm.PropsData
import Verif.Fdm.Bar
import Verif.Analytic.Modes
import Verif.Analytic.Converge
import Verif.Analytic.Exact
import Verif.Fdm.PropsConverge
import Verif.Fdm.Similar
import Verif.Fdm.SimGrid
import Verif.Fdm.PropsSimilar
import Verif.Fdm.PropsReciprocal
import Verif.Fdm.Fold
import Verif.Fdm.FoldGrid
import Verif.Fdm.PropsFold
import Verif.Fdm.Limits
import Verif.Fdm.FoldLimits
import Verif.Fdm.PropsOrder
import Verif.Fdm.Gradients
import Verif.Fdm.GradientExamples
import Verif.Geom.PropsSides
import Verif.Table.Labels
import Verif.Plot.Model
import Verif.Plot.Props
import Verif.Fdm.FoldGradients
import Verif.Objects.Model
import Verif.Objects.Fluid
import Verif.Objects.Wells
import Verif.Fdm.Heap
import Verif.Fdm.PropsHeap
import Verif.Fdm.PropsHeap2
import Verif.Fdm.PropsHeap3
import Verif.Fdm.PropsRows
import Verif.Fdm.PropsTrend
import Verif.Fdm.PropsPseudo
import Verif.Fdm.PropsDarcy
import Verif.Analytic.Euler
import Verif.Fdm.PropsEuler
import Verif.Cache.Alias
import Verif.Cache.PropsAlias
import Verif.Fdm.Crash
import Verif.Fdm.CrashLemmas
import Verif.Fdm.PropsCrash
import Verif.Fdm.PropsUnits
import Verif.Fdm.Coeff
import Verif.Fdm.Barrier
import Verif.Fdm.PropsCoeff
import Verif.Fdm.CoeffJump
import Verif.Fdm.Energy
import Verif.Fdm.PropsBetter
import Verif.Fdm.BetterExamples
import Verif.Fdm.Spread
import Verif.Fdm.PropsSpread
import Verif.Fdm.SpreadExamples
import Verif.Plot.Measure
import Verif.Fdm.PropsIdle
import Verif.Fdm.PropsNet
import Verif.Fdm.PropsStrict
import Verif.Fdm.PropsShare
import Verif.Fdm.PropsUnitsClose
import Verif.Fdm.PropsLevel
import Verif.Fdm.PropsInclined
import Verif.Fdm.PropsHeads
import Verif.Fdm.PropsSlopes
import Verif.Fdm.PropsTilt
import Verif.Fdm.PropsTiltOrder
import Verif.Fdm.PropsTiltStrict
import Verif.Fdm.PropsTiltShare
import Verif.Fdm.PropsTiltForget
import Verif.Fdm.PropsTiltScript
import Verif.Fdm.PropsTiltIdle
import Verif.Fdm.PropsTiltControl
import Verif.Fdm.PropsTiltFlow
import Verif.Fdm.PropsTiltFlowLevel
import Verif.Fdm.PropsTiltSpread
import Verif.Fdm.PropsTiltSolver
import Verif.Fdm.PropsTiltFold
import Verif.Fdm.PropsTiltSimilar
