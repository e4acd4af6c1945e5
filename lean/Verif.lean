import Verif.Basic.B32
import Verif.Basic.CInt
import Verif.Basic.Flt
import Verif.Basic.NanFlt
import Verif.Basic.RatFlt
import Verif.Basic.RealFlt
import Verif.Basic.Rel
import Verif.Basic.Res
import Verif.Basic.Round32
import Verif.Demo.Demo
import Verif.Demo.DemoSave
import Verif.Model.Activation
import Verif.Model.Async
import Verif.Model.Bitmap
import Verif.Model.Copy
import Verif.Model.Counters
import Verif.Model.Crash
import Verif.Model.Data
import Verif.Model.Equal
import Verif.Model.Examples
import Verif.Model.Factory
import Verif.Model.Heap
import Verif.Model.Label
import Verif.Model.Layer
import Verif.Model.LayerOpt
import Verif.Model.Log
import Verif.Model.Network
import Verif.Model.Neuron
import Verif.Model.Overflow
import Verif.Model.Race
import Verif.Model.RaceCalls
import Verif.Model.Serialize
import Verif.Model.Shuffle
import Verif.Model.Stat
import Verif.Model.Summary
import Verif.Model.Tools
import Verif.Model.Training
import Verif.Model.TwoNets
import Verif.Model.Visual
import Verif.Model.Wait
import Verif.Proofs.AccessProofs
import Verif.Proofs.ActivationProofs
import Verif.Proofs.AlikeProofs
import Verif.Proofs.AsyncLive
import Verif.Proofs.AsyncProofs
import Verif.Proofs.AsyncSolo
import Verif.Proofs.BitmapProofs
import Verif.Proofs.BoundedNet
import Verif.Proofs.BoundedNeuron
import Verif.Proofs.BoundedProofs
import Verif.Proofs.BoundedRun
import Verif.Proofs.BuildLayers
import Verif.Proofs.BuildOk
import Verif.Proofs.BuildProofs
import Verif.Proofs.BuildWF
import Verif.Proofs.CallInduct
import Verif.Proofs.ChanceProofs
import Verif.Proofs.ConvLined
import Verif.Proofs.ConvRound
import Verif.Proofs.ConvergeProofs
import Verif.Proofs.CountProofs
import Verif.Proofs.CrashProofs
import Verif.Proofs.DataBatchProofs
import Verif.Proofs.DataProofs
import Verif.Proofs.DataReadProofs
import Verif.Proofs.DeadlineProofs
import Verif.Proofs.EqualProofs
import Verif.Proofs.ExampleProofs
import Verif.Proofs.FadeProofs
import Verif.Proofs.FairProofs
import Verif.Proofs.Feedforward
import Verif.Proofs.FilterProofs
import Verif.Proofs.Float
import Verif.Proofs.FrameProofs
import Verif.Proofs.FreezeProofs
import Verif.Proofs.GLayer
import Verif.Proofs.GSim
import Verif.Proofs.GoalProofs
import Verif.Proofs.GradArch
import Verif.Proofs.GradBody
import Verif.Proofs.GradCore
import Verif.Proofs.GradLayer
import Verif.Proofs.GradLc
import Verif.Proofs.GradNet
import Verif.Proofs.GradPool
import Verif.Proofs.GruFrozen
import Verif.Proofs.HeapProofs
import Verif.Proofs.HiddenBack
import Verif.Proofs.HiddenNet
import Verif.Proofs.HiddenPerm
import Verif.Proofs.HiddenSim
import Verif.Proofs.HiddenStart
import Verif.Proofs.Kaczmarz
import Verif.Proofs.KeptBody
import Verif.Proofs.LayerKin
import Verif.Proofs.LayerProofs
import Verif.Proofs.LayerWF
import Verif.Proofs.LeakLayers
import Verif.Proofs.LeakProofs
import Verif.Proofs.LearnProofs
import Verif.Proofs.LinearProofs
import Verif.Proofs.LogProofs
import Verif.Proofs.MapSimProofs
import Verif.Proofs.MaskProofs
import Verif.Proofs.MomentumProofs
import Verif.Proofs.MultProofs
import Verif.Proofs.MultSim
import Verif.Proofs.NetBuild
import Verif.Proofs.NetRun
import Verif.Proofs.NetValid
import Verif.Proofs.NeuronProofs
import Verif.Proofs.ObsProofs
import Verif.Proofs.OnlineProofs
import Verif.Proofs.OrderProofs
import Verif.Proofs.OutNet
import Verif.Proofs.OutSim
import Verif.Proofs.OverflowProofs
import Verif.Proofs.PaceProofs
import Verif.Proofs.PerfectProofs
import Verif.Proofs.PoolProofs
import Verif.Proofs.PrecisionProofs
import Verif.Proofs.ProgressProofs
import Verif.Proofs.RaceProofs
import Verif.Proofs.RangeProofs
import Verif.Proofs.ReachProofs
import Verif.Proofs.ReorderProofs
import Verif.Proofs.ReorderStart
import Verif.Proofs.RobustProofs
import Verif.Proofs.SafeProofs
import Verif.Proofs.SameProofs
import Verif.Proofs.SerializeProofs
import Verif.Proofs.SharedProofs
import Verif.Proofs.ShuffleProofs
import Verif.Proofs.SilentProofs
import Verif.Proofs.SimProofs
import Verif.Proofs.SmallProofs
import Verif.Proofs.SmallStep
import Verif.Proofs.SoftProofs
import Verif.Proofs.SplitProofs
import Verif.Proofs.StatProofs
import Verif.Proofs.StrictProofs
import Verif.Proofs.StructProofs
import Verif.Proofs.ThresholdProofs
import Verif.Proofs.TrainProofs
import Verif.Proofs.UnusedProofs
import Verif.Proofs.ValidProofs
import Verif.Proofs.VisualProofs
import Verif.Proofs.WaitProofs
import Verif.Props.AccessProps
import Verif.Props.AccuracyProps
import Verif.Props.ActivationProps
import Verif.Props.AlikeProps
import Verif.Props.ArchProps
import Verif.Props.AsyncProps
import Verif.Props.AutoSaveProps
import Verif.Props.BackProps
import Verif.Props.BitmapProps
import Verif.Props.BoundedProps
import Verif.Props.ChanceProps
import Verif.Props.ConvProps
import Verif.Props.ConvergeProps
import Verif.Props.CopyProps
import Verif.Props.CountProps
import Verif.Props.CounterProps
import Verif.Props.CountersProps
import Verif.Props.CrashProps
import Verif.Props.DataProps
import Verif.Props.DeadlineProps
import Verif.Props.ElmanProps
import Verif.Props.EqualProps
import Verif.Props.EvalProps
import Verif.Props.ExampleProps
import Verif.Props.FadeProps
import Verif.Props.FairProps
import Verif.Props.FaultProps
import Verif.Props.FilterProps
import Verif.Props.FloatActivation
import Verif.Props.FloatNormalize
import Verif.Props.FloatProps
import Verif.Props.FloatSoftmax
import Verif.Props.FreezeProps
import Verif.Props.FullBatchProps
import Verif.Props.FullKernelProps
import Verif.Props.GoalProps
import Verif.Props.GradProps
import Verif.Props.GruLayerProps
import Verif.Props.GruProps
import Verif.Props.GruTrainProps
import Verif.Props.HeapProps
import Verif.Props.HiddenProps
import Verif.Props.HistoryProps
import Verif.Props.InferenceProps
import Verif.Props.InitProps
import Verif.Props.LabelProps
import Verif.Props.LayerOptProps
import Verif.Props.LayerOutputsProps
import Verif.Props.LeakProps
import Verif.Props.LinearProps
import Verif.Props.LocalBackProps
import Verif.Props.LocalProps
import Verif.Props.LogProps
import Verif.Props.MomentumProps
import Verif.Props.MultProps
import Verif.Props.NeuronProps
import Verif.Props.NeutralProps
import Verif.Props.NewNetProps
import Verif.Props.OnlineProps
import Verif.Props.OrderProps
import Verif.Props.OutOrderProps
import Verif.Props.OverflowProps
import Verif.Props.PartsProps
import Verif.Props.PerfectProps
import Verif.Props.PoolProps
import Verif.Props.PrecisionProps
import Verif.Props.RaceCallsProps
import Verif.Props.RaceProps
import Verif.Props.RangeProps
import Verif.Props.RatesProps
import Verif.Props.RecurrentProps
import Verif.Props.ReorderProps
import Verif.Props.RobustProps
import Verif.Props.SafeProps
import Verif.Props.SaveProps
import Verif.Props.SharedProps
import Verif.Props.SharpFadeProps
import Verif.Props.SilentProps
import Verif.Props.SmallProps
import Verif.Props.SoftProps
import Verif.Props.SplitProps
import Verif.Props.StatProps
import Verif.Props.StructProps
import Verif.Props.SummaryProps
import Verif.Props.ThresholdProps
import Verif.Props.ToolsProps
import Verif.Props.TrainProps
import Verif.Props.TwoNetsProps
import Verif.Props.UnitsProps
import Verif.Props.UnusedProps
import Verif.Props.ValidProps
import Verif.Props.VisualProps
import Verif.Props.WaitProps
import Verif.Props.XorProps
import Verif.Spec.AccessSpec
import Verif.Spec.AccuracySpec
import Verif.Spec.ArchSpec
import Verif.Spec.AsyncSpec
import Verif.Spec.BackSpec
import Verif.Spec.BehaviourSpec
import Verif.Spec.BitmapSpec
import Verif.Spec.BoundedSpec
import Verif.Spec.ChanceSpec
import Verif.Spec.ConvSpec
import Verif.Spec.ConvergeSpec
import Verif.Spec.CountSpec
import Verif.Spec.DataSpec
import Verif.Spec.DeadlineSpec
import Verif.Spec.ElmanSpec
import Verif.Spec.ExampleSpec
import Verif.Spec.FadeSpec
import Verif.Spec.FairSpec
import Verif.Spec.FreezeSpec
import Verif.Spec.FullKernelSpec
import Verif.Spec.GoalSpec
import Verif.Spec.GradSpec
import Verif.Spec.GruGradSpec
import Verif.Spec.HeapSpec
import Verif.Spec.HiddenSpec
import Verif.Spec.InitSpec
import Verif.Spec.LabelSpec
import Verif.Spec.LayerOptSpec
import Verif.Spec.LayerSpec
import Verif.Spec.LeakSpec
import Verif.Spec.LearnSpec
import Verif.Spec.LinearSpec
import Verif.Spec.LogSpec
import Verif.Spec.MapSimSpec
import Verif.Spec.MultSpec
import Verif.Spec.NetworkSpec
import Verif.Spec.NeuronSpec
import Verif.Spec.NeutralSpec
import Verif.Spec.ObsSpec
import Verif.Spec.OnlineSpec
import Verif.Spec.OutOrderSpec
import Verif.Spec.PartsSpec
import Verif.Spec.PerfectSpec
import Verif.Spec.PrecisionSpec
import Verif.Spec.RaceSpec
import Verif.Spec.RangeSpec
import Verif.Spec.RatesSpec
import Verif.Spec.ReachSpec
import Verif.Spec.ReorderSpec
import Verif.Spec.RobustSpec
import Verif.Spec.SafeSpec
import Verif.Spec.SaveSpec
import Verif.Spec.SharedSpec
import Verif.Spec.SilentSpec
import Verif.Spec.SmallSpec
import Verif.Spec.SoftSpec
import Verif.Spec.SplitSpec
import Verif.Spec.StatSpec
import Verif.Spec.StructSpec
import Verif.Spec.SummarySpec
import Verif.Spec.TrainSpec
import Verif.Spec.UnitsSpec
import Verif.Spec.UnusedSpec
import Verif.Spec.ValidSpec
import Verif.Spec.VisualSpec
import Verif.Spec.WaitSpec
