import Verif.Spec.ArchSpec

/-! Specification: architectures in which a convolution whose kernel covers its whole input is replaced by a locally connected layer. -/

namespace Snn.Spec

section
variable {F : Type}

/-- `Covering s ms ms'`: the layers `ms'` on inputs of shape `s` are the layers `ms` in which some convolutions, of which the kernel has
the size of their input, are replaced by locally connected layers with the same number of filters, kernel, activation and optimizers. -/
inductive Covering : List Nat → List (LayerModel F) → List (LayerModel F) → Prop
  | nil {s : List Nat} : Covering s [] []
  | same {m : LayerModel F} {ms ms' : List (LayerModel F)} {s s' : List Nat} (hm : Fits m s s') (hs : GoodShape s') (h : Covering s' ms ms') :
      Covering s (m :: ms) (m :: ms')
  | swap1 {f k : Nat} {act : Act} {opts : List (LayerOptModel F)} {ms ms' : List (LayerModel F)} (hs : GoodShape [f, 1])
      (h : Covering [f, 1] ms ms') : Covering [k] (.convolution f k act opts :: ms) (.locallyConnected f k act opts :: ms')
  | swap1D {f k c : Nat} {act : Act} {opts : List (LayerOptModel F)} {ms ms' : List (LayerModel F)} (hs : GoodShape [f, 1])
      (h : Covering [f, 1] ms ms') : Covering [c, k] (.convolution f k act opts :: ms) (.locallyConnected f k act opts :: ms')
  | swap2D {f k c : Nat} {act : Act} {opts : List (LayerOptModel F)} {ms ms' : List (LayerModel F)} (hs : GoodShape [f, 1, 1])
      (h : Covering [f, 1, 1] ms ms') : Covering [c, k, k] (.convolution f k act opts :: ms) (.locallyConnected f k act opts :: ms')

end

end Snn.Spec
