import Verif.Bridge
import Verif.Cmp
import Verif.Fl
import Verif.IEEE
import Verif.MatMul
import Verif.Model.Datafits
import Verif.Model.Datasets
import Verif.Model.Estimators
import Verif.Model.Examples
import Verif.Model.Mat
import Verif.Model.Penalties
import Verif.Model.PyObject
import Verif.Model.PySim
import Verif.Model.Python
import Verif.Model.SolverBCD
import Verif.Model.SolverCD
import Verif.Model.TestHelpers
import Verif.Model.Utils
import Verif.Proofs.Accel
import Verif.Proofs.AccelPanic
import Verif.Proofs.Approx
import Verif.Proofs.Arrays
import Verif.Proofs.BSem
import Verif.Proofs.BlockProx
import Verif.Proofs.Cert
import Verif.Proofs.CmpXR
import Verif.Proofs.ConstraintBound
import Verif.Proofs.ConstraintEx
import Verif.Proofs.ConstraintSim
import Verif.Proofs.Converge
import Verif.Proofs.Custom
import Verif.Proofs.CustomHuber
import Verif.Proofs.CustomLib
import Verif.Proofs.CustomMT
import Verif.Proofs.CustomMTLib
import Verif.Proofs.Cyclic
import Verif.Proofs.Descent
import Verif.Proofs.Duplicates
import Verif.Proofs.Empty
import Verif.Proofs.FewFeatures
import Verif.Proofs.Fits
import Verif.Proofs.Fl
import Verif.Proofs.FlChop
import Verif.Proofs.FloatAccel
import Verif.Proofs.FloatArr
import Verif.Proofs.FloatCall
import Verif.Proofs.FloatCheck
import Verif.Proofs.FloatEnd
import Verif.Proofs.FloatFit
import Verif.Proofs.FloatLog
import Verif.Proofs.FloatLogCall
import Verif.Proofs.FloatLogCheck
import Verif.Proofs.FloatLogValue
import Verif.Proofs.FloatLoss
import Verif.Proofs.FloatMCPPen
import Verif.Proofs.FloatMCPRun
import Verif.Proofs.FloatMTAccel
import Verif.Proofs.FloatMTCheck
import Verif.Proofs.FloatMTEnd
import Verif.Proofs.FloatMTFit
import Verif.Proofs.FloatMTPen
import Verif.Proofs.FloatMTProx
import Verif.Proofs.FloatMTRun
import Verif.Proofs.FloatMTScore
import Verif.Proofs.FloatMTVal
import Verif.Proofs.FloatPen
import Verif.Proofs.FloatRecheck
import Verif.Proofs.FloatRun
import Verif.Proofs.FloatVal
import Verif.Proofs.FloatWeak
import Verif.Proofs.Gap
import Verif.Proofs.GapLogistic
import Verif.Proofs.Gram
import Verif.Proofs.Guard
import Verif.Proofs.IEEE
import Verif.Proofs.IEEELaws
import Verif.Proofs.IEEEMT
import Verif.Proofs.IEEENorm
import Verif.Proofs.IterBound
import Verif.Proofs.IterCount
import Verif.Proofs.Keep
import Verif.Proofs.Length
import Verif.Proofs.LinSys
import Verif.Proofs.Linear
import Verif.Proofs.Losses
import Verif.Proofs.MapRun
import Verif.Proofs.MatN
import Verif.Proofs.Missing
import Verif.Proofs.MissingMT
import Verif.Proofs.MissingRow
import Verif.Proofs.MissingSparse
import Verif.Proofs.NaN
import Verif.Proofs.Null
import Verif.Proofs.NullFloat
import Verif.Proofs.PSem
import Verif.Proofs.PertRun
import Verif.Proofs.PertWeak
import Verif.Proofs.Perturbed
import Verif.Proofs.Probabilities
import Verif.Proofs.Problem
import Verif.Proofs.Prox
import Verif.Proofs.ProxL05
import Verif.Proofs.PySim
import Verif.Proofs.Python
import Verif.Proofs.Quality
import Verif.Proofs.Quiet
import Verif.Proofs.RealRun
import Verif.Proofs.RelRun
import Verif.Proofs.RowSpace
import Verif.Proofs.RunPanic
import Verif.Proofs.Runs
import Verif.Proofs.Safe
import Verif.Proofs.SafeInst
import Verif.Proofs.SafeMT
import Verif.Proofs.Scale
import Verif.Proofs.ScoreDist
import Verif.Proofs.ScoreDoc
import Verif.Proofs.Sem
import Verif.Proofs.Settings
import Verif.Proofs.Shapes
import Verif.Proofs.Sign
import Verif.Proofs.SimBCD
import Verif.Proofs.SimCD
import Verif.Proofs.SimJoint
import Verif.Proofs.SingleEntry
import Verif.Proofs.SingleRun
import Verif.Proofs.SkelBCD
import Verif.Proofs.SkelCD
import Verif.Proofs.Skeleton
import Verif.Proofs.SmallRun
import Verif.Proofs.Stability
import Verif.Proofs.StepDoc
import Verif.Proofs.Storage
import Verif.Proofs.StoredRows
import Verif.Proofs.Strong
import Verif.Proofs.Subdiff
import Verif.Proofs.Symmetry
import Verif.Proofs.Triple
import Verif.Proofs.WeakGap
import Verif.Proofs.WorkingSet
import Verif.Proofs.XRBasic
import Verif.Proofs.ZeroCol
import Verif.Props.Accuracy
import Verif.Props.Api
import Verif.Props.BlockStop
import Verif.Props.Bounds
import Verif.Props.Calibration
import Verif.Props.Certificate
import Verif.Props.Concave
import Verif.Props.Constraint
import Verif.Props.Converge
import Verif.Props.Custom
import Verif.Props.CustomMT
import Verif.Props.Datafits
import Verif.Props.Descent
import Verif.Props.Duplicates
import Verif.Props.Empty
import Verif.Props.Equiv
import Verif.Props.Examples
import Verif.Props.Extrapolation
import Verif.Props.Features
import Verif.Props.FewFeatures
import Verif.Props.FloatCheck
import Verif.Props.FloatLogCheck
import Verif.Props.FloatMCP
import Verif.Props.FloatMT
import Verif.Props.FloatMTCheck
import Verif.Props.Gap
import Verif.Props.GapLogistic
import Verif.Props.Guard
import Verif.Props.IEEE
import Verif.Props.IEEETable
import Verif.Props.InFloatMT
import Verif.Props.Iterates
import Verif.Props.Iterations
import Verif.Props.Labels
import Verif.Props.LinSys
import Verif.Props.Linear
import Verif.Props.LocalMin
import Verif.Props.LogisticValue
import Verif.Props.Misc
import Verif.Props.Missing
import Verif.Props.MissingSparse
import Verif.Props.MissingTargets
import Verif.Props.NeverPanics
import Verif.Props.NoPenalty
import Verif.Props.NullFloat
import Verif.Props.NullModel
import Verif.Props.Oracle
import Verif.Props.Orthogonal
import Verif.Props.Path
import Verif.Props.PathMT
import Verif.Props.Predictions
import Verif.Props.Probabilities
import Verif.Props.Prox
import Verif.Props.PyObject
import Verif.Props.PySim
import Verif.Props.Python
import Verif.Props.PythonUtils
import Verif.Props.Refit
import Verif.Props.Robust
import Verif.Props.Rounding
import Verif.Props.Run
import Verif.Props.Safe
import Verif.Props.Samples
import Verif.Props.ScoreDoc
import Verif.Props.Scores
import Verif.Props.Selected
import Verif.Props.Selection
import Verif.Props.Settings
import Verif.Props.Stability
import Verif.Props.Statistics
import Verif.Props.StepDoc
import Verif.Props.Storage
import Verif.Props.StoredRows
import Verif.Props.Symmetry
import Verif.Props.Sync
import Verif.Props.Tasks
import Verif.Props.TestHelpers
import Verif.Props.TrainingErrors
import Verif.Props.TrainingErrorsEnet
import Verif.Props.Weights
import Verif.Props.WorkingSet
import Verif.Scalar
import Verif.Spec.Api
import Verif.Spec.Bounds
import Verif.Spec.Calibration
import Verif.Spec.Check
import Verif.Spec.ClosedForm
import Verif.Spec.Constraint
import Verif.Spec.Custom
import Verif.Spec.CustomMT
import Verif.Spec.Data
import Verif.Spec.Datafit
import Verif.Spec.Duplicates
import Verif.Spec.Examples
import Verif.Spec.Extrapolation
import Verif.Spec.Features
import Verif.Spec.Fits
import Verif.Spec.FloatMCP
import Verif.Spec.FloatProblem
import Verif.Spec.Gap
import Verif.Spec.GapLogistic
import Verif.Spec.Guard
import Verif.Spec.IEEETable
import Verif.Spec.Labels
import Verif.Spec.LogCheck
import Verif.Spec.Loss
import Verif.Spec.MTCheck
import Verif.Spec.MTFloat
import Verif.Spec.Missing
import Verif.Spec.MissingSparse
import Verif.Spec.MonoRounding
import Verif.Spec.NoPenalty
import Verif.Spec.NullModel
import Verif.Spec.Probabilities
import Verif.Spec.Problem
import Verif.Spec.Prox
import Verif.Spec.Python
import Verif.Spec.Quality
import Verif.Spec.Robust
import Verif.Spec.Rounding
import Verif.Spec.Run
import Verif.Spec.Selected
import Verif.Spec.Settings
import Verif.Spec.Shapes
import Verif.Spec.Stability
import Verif.Spec.Statistics
import Verif.Spec.Storage
import Verif.Spec.StoredRows
import Verif.Spec.Symmetry
import Verif.Spec.TrainingErrors
import Verif.Spec.Weights
import Verif.Spec.WorkingSet
import Verif.Summation
import Verif.Tests.IntScalar
import Verif.Tests.RepoTests
import Verif.XR
