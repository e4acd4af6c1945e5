import Verif.Model.Factory

/-! Specification: layer optimizers that should change nothing, and architectures that differ only by them. -/

namespace Snn.Spec

/-- Two lists that differ only by elements that satisfy `N`, added anywhere in the one or in the other. -/
inductive SameBut {α : Type} (N : α → Prop) : List α → List α → Prop
  | nil : SameBut N [] []
  | cons {a : α} {as bs : List α} : SameBut N as bs → SameBut N (a :: as) (a :: bs)
  | left {a : α} {as bs : List α} : N a → SameBut N as bs → SameBut N (a :: as) bs
  | right {b : α} {as bs : List α} : N b → SameBut N as bs → SameBut N as (b :: bs)

/-- Regularizations with a coefficient of 0 and a multiplication of the errors by 1. -/
inductive Neutral {F : Type} [Zero F] [One F] : LayerOptModel F → Prop
  | l1 : Neutral (.l1 0)
  | l2 : Neutral (.l2 0)
  | errorMultiplier : Neutral (.errorMultiplier 1)

/-- Two layers of an architecture that differ only by optimizers that should change nothing. -/
inductive SameButNeutral {F : Type} [Zero F] [One F] : LayerModel F → LayerModel F → Prop
  | input (shape : List Int) : SameButNeutral (.input shape) (.input shape)
  | fullyConnected (n : Int) (act : Act) {o o' : List (LayerOptModel F)} : SameBut Neutral o o' →
      SameButNeutral (.fullyConnected n act o) (.fullyConnected n act o')
  | recurrence (n : Int) (act : Act) {o o' : List (LayerOptModel F)} : SameBut Neutral o o' →
      SameButNeutral (.recurrence n act o) (.recurrence n act o')
  | gru (n : Int) {o o' : List (LayerOptModel F)} : SameBut Neutral o o' → SameButNeutral (.gru n o) (.gru n o')
  | maxPooling (k : Int) : SameButNeutral (.maxPooling k) (.maxPooling k)
  | locallyConnected (f k : Int) (act : Act) {o o' : List (LayerOptModel F)} : SameBut Neutral o o' →
      SameButNeutral (.locallyConnected f k act o) (.locallyConnected f k act o')
  | convolution (f k : Int) (act : Act) {o o' : List (LayerOptModel F)} : SameBut Neutral o o' →
      SameButNeutral (.convolution f k act o) (.convolution f k act o')

end Snn.Spec
