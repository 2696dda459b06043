import Verif.Props.Reader
import Verif.Props.ReaderUnc
import Verif.Props.WFile
import Verif.Props.Paths
import Verif.Props.SensorData
import Verif.Props.Summary
import Verif.Props.Sample
import Verif.Props.Transform
import Verif.Props.Measurand
import Verif.Props.GN
import Verif.Props.Jacobian
import Verif.Props.JacobianCase
import Verif.Props.GNRun
import Verif.Props.GNRunCase
import Verif.Props.GNTotal
import Verif.Props.GNKrylovCase
import Verif.Props.PC
import Verif.Props.PCCov
import Verif.Spec.PC
import Verif.Lemmas.PCJac
import Verif.Props.PCJac
import Verif.Props.PCRun
import Verif.Props.PCCase
import Verif.Props.Minres
import Verif.Props.MinresSol
import Verif.Props.MinresCase
import Verif.Props.LsmrCase
import Verif.Props.Result
import Verif.Props.ResultNames
import Verif.Props.ResultRes
import Verif.Props.ResultRound
import Verif.Props.Simulate
import Verif.Props.Stats
import Verif.Props.TimeAverage
import Verif.Props.Op
import Verif.Props.OpCov
import Verif.Props.SensorModels
import Verif.Props.SensorModelsT
import Verif.Props.SensorModelsMW
import Verif.Props.ReaderTotal
import Verif.Props.Sound
import Verif.Props.Checker
import Verif.Props.WGen
import Verif.Props.MWTool
import Verif.Props.Cli
import Verif.Model.Writer
import Verif.Spec.Writer
import Verif.Props.Writer
import Verif.Lemmas.CR
import Verif.Props.CovMinres
import Verif.Model.Switches
import Verif.Model.TrueK
import Verif.Model.Radiance
import Verif.Props.Switches
import Verif.Props.TrueK
import Verif.Props.Radiance
import Verif.Model.AvhrrTool
import Verif.Spec.Avhrr
import Verif.Lemmas.Avhrr
import Verif.Lemmas.AvhrrFile
import Verif.Props.AvhrrTool
import Verif.Props.AvhrrRun
import Verif.Model.Pmh
import Verif.Spec.Pmh
import Verif.Props.Pmh
import Verif.Model.MeasurandUnc
import Verif.Spec.MeasurandUnc
import Verif.Props.MeasurandUnc
import Verif.Model.SampleRandom
import Verif.Props.SampleRandom
import Verif.Props.WriterDims
import Verif.Model.HirsCoefs
import Verif.Model.Registry
import Verif.Props.Registry
import Verif.Model.Vis
import Verif.Lemmas.Vis
import Verif.Lemmas.VisInv
import Verif.Lemmas.VisStep
import Verif.Lemmas.VisFiles
import Verif.Props.Vis
import Verif.Model.Binned
import Verif.Lemmas.Binned
import Verif.Lemmas.BinnedFiles
import Verif.Props.Binned
import Verif.Lemmas.TransformConv
import Verif.Props.TransformExact
import Verif.Model.Harmonise
import Verif.Props.Harmonise
import Verif.Props.HarmoniseRun
import Verif.Props.HarmonisePC
import Verif.Props.HarmoniseSave
import Verif.Props.HarmoniseCase
import Verif.Model.Staged
import Verif.Props.Staged
import Verif.Props.StagedCase
import Verif.Model.Compare
import Verif.Lemmas.Compare
import Verif.Props.Compare
import Verif.Props.CompareCase
import Verif.Spec.Objective
import Verif.Lemmas.Objective
import Verif.Lemmas.Blind
import Verif.Props.Objective
import Verif.Props.ObjectiveRun
import Verif.Props.ObjectiveCase
import Verif.Spec.Order
import Verif.Lemmas.OrderFiles
import Verif.Lemmas.Order
import Verif.Lemmas.OrderK
import Verif.Props.Order
import Verif.Props.OrderCase
import Verif.Spec.Descent
import Verif.Lemmas.Descent
import Verif.Props.Descent
import Verif.Props.DescentCase
import Verif.Spec.Propagation
import Verif.Lemmas.Propagation
import Verif.Props.Propagation
import Verif.Props.PropagationCase
import Verif.Spec.NormalEquations
import Verif.Props.NormalEquations
import Verif.Props.NormalEquationsCase
import Verif.Spec.Profile
import Verif.Props.Profile
import Verif.Props.ProfileCase
import Verif.Model.Numeric
import Verif.Props.Numeric
import Verif.Model.Training
import Verif.Props.Training
import Verif.Spec.OrderCov
import Verif.Lemmas.OrderCov
import Verif.Props.OrderCov
import Verif.Props.OrderCovCase
import Verif.Spec.MoreData
import Verif.Lemmas.MoreData
import Verif.Props.MoreData
import Verif.Props.MoreDataCase
import Verif.Props.MoreDataCost
import Verif.Props.MoreDataCostCase
import Verif.Lemmas.KrylovMono
import Verif.Props.MoreIterations
import Verif.Props.MoreIterationsCase
import Verif.Model.Additional
import Verif.Props.Additional
import Verif.Props.CovMinresFiles
import Verif.Props.CovMinresFilesCase
import Verif.Spec.Rotation
import Verif.Props.Rotation
import Verif.Props.RotationCase
import Verif.Props.CovRenumber
import Verif.Props.CovRenumberCase
import Verif.Lemmas.MinresCommon
import Verif.Lemmas.SpanK
import Verif.Props.CovMinresEqual
import Verif.Props.CovMinresEqualCase
