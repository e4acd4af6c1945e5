import Verif.Spec.ObsSpec

/-!
# Specification: networks that behave alike

Two networks, possibly of different architectures, that answer every sequence of calls in the same way, show the same values and
always have the same weights.
-/

namespace Snn.Spec

open HistoryProps (Call)

/-- What a client sees of a network: the values of the getters, the optimizer, and the weights of every neuron of every layer. The
kinds and the optimizers of the layers are left out. -/
structure Seen (F : Type) where
  values : Visible F
  weights : List (List (List F))

/-- What a client sees now. -/
def shown {F : Type} (s : Snn F) : Seen F where
  values := { visible s with parameters := (s.net.optimizer, []) }
  weights := s.net.layers.map fun l => l.body.weights

section
variable {F : Type} [Flt F] [FTrans F] [Add F] [Sub F] [Mul F] [Div F] [Neg F]

/-- The answers of a sequence of calls: for each what it returned and what is seen afterwards; it ends with the first call that does
not return. -/
def behaviour : List (Call F) → Run F → List (Res (Returned F × Seen F))
  | [], _ => []
  | c :: cs, r =>
    match ask r c with
    | .ok (a, r') => .ok (a.returned, shown r'.snn) :: behaviour cs r'
    | .throw m => [.throw m]
    | .ub m => [.ub m]

/-- The inputs and the data of a call satisfy these conditions. -/
def Call.fine (good : List F → Prop) (goodData : Data F → Prop) : Call F → Prop
  | .computeOutput x _ => good x
  | .computeCluster x _ => good x
  | .evaluate _ data => goodData data
  | .train _ data .. => goodData data
  | _ => True

/-- `SameBehaviour good goodData a b`: on calls with inputs that are `good` and data that are `goodData`, the two networks cannot be
told apart: with the same data, clock and random numbers they give the same answers, show the same values and have the same weights
after each call. -/
def SameBehaviour (good : List F → Prop) (goodData : Data F → Prop) (a b : Snn F) : Prop :=
  shown a = shown b ∧
  ∀ (calls : List (Call F)) (data : Data F) (draws : Draws F) (ticks : Nat), (∀ c ∈ calls, Call.fine good goodData c) →
    behaviour calls ⟨a, data, draws, ticks, []⟩ = behaviour calls ⟨b, data, draws, ticks, []⟩

end

end Snn.Spec
