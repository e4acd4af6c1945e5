import Verif.Props.HistoryProps
import Verif.Model.Serialize
import Verif.Model.Copy

/-!
# Specification: the networks a program can hold

A network is made by the constructor, used by any of the public calls, copied, saved and loaded, in any order, by one thread.
-/

namespace Snn.Spec

open HistoryProps (Call)

section
variable {F : Type} [Flt F] [FTrans F] [Add F] [Sub F] [Mul F] [Div F] [Neg F] [FText F]

/-- `Reach arch s`: a program that starts from the architecture `arch` can hold the network `s`. -/
inductive Reach (arch : List (LayerModel F)) : Snn F → Prop
  /-- the constructor returned -/
  | make {o : Sgd F} {d d' : Draws F} {s : Snn F} : Snn.make arch o d = .ok (s, d') → Reach arch s
  /-- a public call returned -/
  | call {c : Call F} {r r' : Run F} : Reach arch r.snn → c.run r = .ok r' → Reach arch r'.snn
  /-- `stopTrainingAsync` while no training runs (StraightforwardNeuralNetwork.cpp:184-193) -/
  | stop {s : Snn F} : Reach arch s → Reach arch { s with wantToStopTraining := true }
  /-- the copy constructor -/
  | copy {s t : Snn F} : Reach arch s → s.copy = .ok t → Reach arch t
  /-- `loadFrom` of a file written by `saveAs` or by an auto-save -/
  | load {s t : Snn F} {path : String} {files : Files F} : Reach arch s → files path = some (Snn.codec.save s) →
      loadFrom files path = .ok t → Reach arch t

end

end Snn.Spec
