import Verif.Model.Heap

/-!
# Specification: programs that use several networks

A program makes networks, copies them, calls them and destroys them. In the intended meaning the networks are independent values: a
copy is a new value, and a call changes one value.
-/

namespace Snn.Spec

open HistoryProps (Call)

section
variable {F : Type} [Flt F] [FTrans F] [Add F] [Sub F] [Mul F] [Div F] [Neg F]

/-- An operation of the program. -/
inductive Op (F : Type) where
  /-- constructs a network, it becomes the last one -/
  | make (arch : List (LayerModel F)) (optimizer : Sgd F) (draws : Draws F)
  /-- copies the `i`th network, the copy becomes the last one -/
  | copy (i : Nat)
  /-- calls the `i`th network -/
  | call (i : Nat) (c : Call F) (data : Data F) (draws : Draws F) (ticks : Nat)
  /-- destroys the `i`th network -/
  | destroy (i : Nat)

/-- The intended meaning: networks are independent values. -/
inductive ValueStep : List (Snn F) → Op F → List (Snn F) → Prop
  | make {vs : List (Snn F)} {arch : List (LayerModel F)} {o : Sgd F} {d d' : Draws F} {s : Snn F} :
      Snn.make arch o d = .ok (s, d') → ValueStep vs (.make arch o d) (vs ++ [s])
  | copy {vs : List (Snn F)} {i : Nat} {s t : Snn F} : vs[i]? = some s → s.copy = .ok t → ValueStep vs (.copy i) (vs ++ [t])
  | call {vs : List (Snn F)} {i : Nat} {s : Snn F} {c : Call F} {data : Data F} {draws : Draws F} {ticks : Nat} {r' : Run F} :
      vs[i]? = some s → c.run ⟨s, data, draws, ticks, []⟩ = .ok r' → ValueStep vs (.call i c data draws ticks) (vs.set i r'.snn)
  | destroy {vs : List (Snn F)} {i : Nat} : i < vs.length → ValueStep vs (.destroy i) (vs.eraseIdx i)

/-- The objects reached from a layer pointer have the value `l`, every neuron points to the optimizer object at `opt` (of value `o`),
every layer optimizer points back to the layer. -/
def HoldsLayer (h : Heap F) (opt : Addr) (o : Sgd F) (a : Addr) (l : Layer F) : Prop :=
  ∃ hl, h.cell a = some (.layer hl) ∧ hl.numberOfInputs = l.numberOfInputs ∧ hl.body.clone o = l.body ∧
    (∀ x ∈ hl.neuronOptimizers, x = opt) ∧
    List.Forall₂ (fun b v => h.cell b = some (.layerOpt ⟨v, a⟩)) hl.optimizers l.optimizers

/-- The objects reached from a network object have the value `s`. -/
def Holds (h : Heap F) (p : HSnn F) (s : Snn F) : Prop :=
  h.cell p.optimizer = some (.sgd s.net.optimizer) ∧
  List.Forall₂ (HoldsLayer h p.optimizer s.net.optimizer) p.layers s.net.layers ∧
  s = { p.own with net := { p.own.net with optimizer := s.net.optimizer, layers := s.net.layers } }

/-- The state of the program: the heap and the network objects. -/
structure World (F : Type) where
  heap : Heap F
  nets : List (HSnn F)

/-- What the operations do to the objects. -/
inductive HeapStep : World F → Op F → World F → Prop
  | make {w : World F} {arch : List (LayerModel F)} {o : Sgd F} {d d' : Draws F} {s : Snn F} : Snn.make arch o d = .ok (s, d') →
      HeapStep w (.make arch o d) ⟨(w.heap.make s).2, w.nets ++ [(w.heap.make s).1]⟩
  | copy {w : World F} {i : Nat} {p q : HSnn F} {h : Heap F} : w.nets[i]? = some p → w.heap.copy p = .ok (q, h) →
      HeapStep w (.copy i) ⟨h, w.nets ++ [q]⟩
  | call {w : World F} {i : Nat} {p : HSnn F} {s : Snn F} {c : Call F} {data : Data F} {draws : Draws F} {ticks : Nat} {r' : Run F} :
      w.nets[i]? = some p → Holds w.heap p s → c.run ⟨s, data, draws, ticks, []⟩ = .ok r' →
      HeapStep w (.call i c data draws ticks) ⟨w.heap.setMany (w.heap.writes p r'.snn), w.nets.set i { p with own := r'.snn }⟩
  | destroy {w : World F} {i : Nat} {p : HSnn F} : w.nets[i]? = some p →
      HeapStep w (.destroy i) ⟨w.heap.free p, w.nets.eraseIdx i⟩

/-- Executions of programs. -/
inductive Exec {W : Type} (step : W → Op F → W → Prop) : W → List (Op F) → W → Prop
  | nil {w : W} : Exec step w [] w
  | cons {w w' w'' : W} {op : Op F} {ops : List (Op F)} : step w op w' → Exec step w' ops w'' → Exec step w (op :: ops) w''

/-- The heap at the start of the program. -/
def World.empty : World F := ⟨⟨0, fun _ => none⟩, []⟩

end

end Snn.Spec
