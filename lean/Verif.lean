import Verif.CDouble
import Verif.F64.Round
import Verif.F64.Basic
import Verif.F64.Order
import Verif.F64.Arith
import Verif.F64.Exact
import Verif.XR.Basic
import Verif.XR.Simp
import Verif.Laws
import Verif.Model.Text
import Verif.Model.History
import Verif.Spec.Ring
import Verif.Spec.Init
import Verif.Spec.Stats
import Verif.Proofs.Stats
import Verif.Proofs.Two
import Verif.Proofs.InitF64
import Verif.Props.Init
import Verif.Props.Memory
import Verif.Props.Tail
import Verif.F64.Mirror
import Verif.Spec.Step
import Verif.Proofs.Step
import Verif.Proofs.StepF64
import Verif.Props.Step
import Verif.Props.Fit
import Verif.Spec.Gpd
import Verif.Spec.Brent
import Verif.XR.Math
import Verif.Proofs.Gpd
import Verif.Proofs.Grimshaw
import Verif.Proofs.Brent
import Verif.Props.Gpd
import Verif.Props.Estim
import Verif.Props.Brent
import Verif.Spec.P2
import Verif.Proofs.P2
import Verif.Proofs.P2F64
import Verif.Proofs.P2XR
import Verif.Props.P2
import Verif.Spec.Text
import Verif.Proofs.Text
import Verif.Props.Text
import Verif.F64.Bits
import Verif.F64.Error
import Verif.Spec.Float
import Verif.Proofs.Frexp
import Verif.Proofs.LogCF
import Verif.Proofs.ExpCF
import Verif.Proofs.XmathXR
import Verif.Proofs.LogF64
import Verif.Proofs.XlogF64
import Verif.Proofs.ExpF64
import Verif.Props.Xmath
import Verif.Props.Xlog
import Verif.Proofs.XexpF64
import Verif.Props.Xexp
import Verif.Model.Python
import Verif.Proofs.Python
import Verif.Props.Python
import Verif.Model.Wasm
import Verif.Proofs.Wasm
import Verif.Props.Wasm
import Verif.F64.Zeros
import Verif.Spec.Mirror
import Verif.Proofs.MirrorRun
import Verif.Props.Mirror
import Verif.F64.Pair
import Verif.Proofs.LogMono
import Verif.Proofs.ExpMono
import Verif.Proofs.ExpBoundary
import Verif.Proofs.ExpStep
import Verif.Props.Mono
import Verif.F64.Calc
import Verif.Proofs.Side
import Verif.Props.Side
import Verif.Props.Query
import Verif.Props.TrainNaN
import Verif.Props.P2Count
import Verif.Spec.P2Count
import Verif.Props.Prefix
import Verif.Props.Defined
import Verif.XR.Scale
import Verif.Proofs.Units
import Verif.Props.Units
import Verif.Proofs.Drift
import Verif.Proofs.BrentF64
import Verif.Proofs.SigmaPos
import Verif.Props.Drift
import Verif.Props.BrentF64
import Verif.Props.Scale
import Verif.Proofs.Regular
import Verif.Props.Regular
import Verif.Proofs.Accuracy
import Verif.Props.Accuracy
import Verif.Props.Refit
import Verif.Spec.P2Paper
import Verif.Proofs.P2Paper
import Verif.Props.P2Paper
import Verif.Proofs.GrimshawF64
import Verif.Props.GrimshawF64
import Verif.Props.Threshold
import Verif.F64.Nearest
import Verif.Model.PyObject
import Verif.Props.PyObject
import Verif.Model.Wasm32
import Verif.Props.Wasm32
import Verif.Proofs.LogLik
import Verif.Props.LogLik
import Verif.Proofs.Infinite
import Verif.Props.Infinite
import Verif.Props.Recovery
import Verif.Props.Rate
import Verif.Props.RoundTrip
import Verif.Model.PyRefs
import Verif.Props.PyRefs
import Verif.Props.Variance
import Verif.Model.PyReentry
import Verif.Props.PyReentry
import Verif.Model.PyModule
import Verif.Props.PyModule
import Verif.Proofs.BrentBudget
import Verif.Props.BrentBudget
import Verif.Props.ZeroExcess
import Verif.Proofs.Twin
import Verif.Props.Alarm
import Verif.Props.Xpow
import Verif.Model.Example
import Verif.Model.Figure
import Verif.Props.Example
import Verif.Props.Consistent
import Verif.Props.Window
import Verif.Spec.Fraction
import Verif.Proofs.LogFraction
import Verif.Proofs.ExpFraction
import Verif.Model.Benchmark
import Verif.Props.Benchmark
import Verif.Props.Capacity
import Verif.Props.Level
import Verif.Props.NoExcess
import Verif.Props.Order
import Verif.Proofs.Equal
import Verif.Proofs.Support
import Verif.Props.Equal
import Verif.Props.Support
import Verif.Props.EndPoint
import Verif.Model.BenchMath
import Verif.Props.BenchMath
import Verif.Props.Quiet
import Verif.Proofs.Repeat
import Verif.Props.Repeat
import Verif.Props.Trace
import Verif.Spec.Cost
import Verif.Proofs.Cost
import Verif.Props.Cost
import Verif.Props.Answers
import Verif.Props.Alarms
import Verif.Props.Figure
import Verif.Props.ExcessProb
import Verif.Model.WasmAlloc
import Verif.Props.WasmAlloc
import Verif.Props.BenchExp
import Verif.Props.BenchLog
import Verif.Props.BenchPow
import Verif.Props.BenchPowbis
import Verif.Tests.Common
import Verif.Tests.Xmath
import Verif.Tests.Containers
import Verif.Tests.Tail
