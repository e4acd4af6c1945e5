import Verif.Spec.StructSpec

/-!
# Specification: the text of `summary()`

The text a network of an architecture should print: the name, the numbers of parameters, epochs and training steps, then every layer with the
facts of the architecture, then the optimizer. The text of a `float` is `fl`.
-/

namespace Snn.Spec

section
variable {F : Type}

/-- `[2, 3, 4]`. -/
def shapeText (s : List Nat) : String := "[" ++ ", ".intercalate (s.map fun v => toString v) ++ "]"

/-- A line of a block. The labels are indented and padded to the same width. -/
def line (label value : String) : String := label ++ value ++ "\n"

/-- The name of an activation function. -/
def actText : Act → String
  | .sigmoid => "sigmoid"
  | .iSigmoid => "iSigmoid"
  | .tanh => "tanh"
  | .relu => "ReLU"
  | .gelu => "GELU"
  | .gaussian => "gaussian"
  | .identity => "identity"

/-- A layer optimizer with its setting; all but Softmax are followed by an empty line. -/
def optText (fl : F → String) : LayerOptModel F → String
  | .dropout v => "Dropout(" ++ fl v ++ ")\n"
  | .l1 v => "L1Regularization(" ++ fl v ++ ")\n"
  | .l2 v => "L2Regularization(" ++ fl v ++ ")\n"
  | .errorMultiplier v => "ErrorMultiplier(" ++ fl v ++ ")\n"
  | .softmax => "Softmax"

/-- The optimizers of a layer, one per line, the first one with the label. -/
def optsText (fl : F → String) : List (LayerOptModel F) → String
  | [] => ""
  | o :: os => line "                Optimizers:   " (optText fl o) ++ String.join (os.map fun o => line "                              " (optText fl o))

/-- The name of a layer m on inputs of shape s. -/
def titleText (m : LayerModel F) (s : List Nat) : String :=
  match m with
  | .input _ => ""
  | .fullyConnected .. => "FullyConnected"
  | .recurrence .. => "Recurrence"
  | .gru .. => "GruLayer"
  | .convolution .. => if s.length = 3 then "Convolution2D" else "Convolution1D"
  | .locallyConnected .. => if s.length = 3 then "LocallyConnected2D" else "LocallyConnected1D"
  | .maxPooling _ => if s.length = 3 then "MaxPooling2D" else "MaxPooling1D"

/-- The input shape: a layer without kernels sees a row of values. -/
def inputText (m : LayerModel F) (s : List Nat) : String :=
  line "                Input shape:  " (match m with
    | .convolution .. | .locallyConnected .. | .maxPooling _ => shapeText (withChannel s)
    | _ => shapeText [s.prod])

/-- The number of neurons, or the filters and the kernel. -/
def sizeText (m : LayerModel F) (s : List Nat) : String :=
  let kernel := fun k : Int => line "                Kernel size:  " (if s.length = 3 then toString k ++ "x" ++ toString k else toString k)
  match m with
  | .input _ => ""
  | .fullyConnected n _ _ | .recurrence n _ _ | .gru n _ => line "                Neurons:      " (toString n)
  | .convolution f k _ _ | .locallyConnected f k _ _ => line "                Filters:      " (toString f) ++ kernel k
  | .maxPooling k => kernel k

/-- The number of parameters, except for a pooling. -/
def parametersText (m : LayerModel F) (s : List Nat) : String :=
  match m with
  | .maxPooling _ => ""
  | _ => line "                Parameters:   " (toString (neuronsOf m s * weightsOf m s))

/-- The activation function, if the layer has a single one. -/
def activationText (m : LayerModel F) : String :=
  match m with
  | .fullyConnected _ act _ | .recurrence _ act _ | .convolution _ _ act _ | .locallyConnected _ _ act _ =>
    line "                Activation:   " (actText act)
  | _ => ""

/-- The layer optimizers. -/
def optsOf (m : LayerModel F) : List (LayerOptModel F) :=
  match m with
  | .fullyConnected _ _ opts | .recurrence _ _ opts | .gru _ opts | .convolution _ _ _ opts | .locallyConnected _ _ _ opts => opts
  | _ => []

/-- The text of a layer m on inputs of shape s with outputs of shape s'. -/
def layerText (fl : F → String) (m : LayerModel F) (s s' : List Nat) : String :=
  "------------------------------------------------------------\n" ++ line " " (titleText m s) ++ inputText m s ++ sizeText m s ++
    parametersText m s ++ activationText m ++ line "                Output shape: " (shapeText s') ++ optsText fl (optsOf m)

/-- `LayersText fl ms s t`: t is the text of the layers `ms`, the first on inputs of shape s. -/
inductive LayersText (fl : F → String) : List (LayerModel F) → List Nat → String → Prop
  | nil {s : List Nat} : LayersText fl [] s ""
  | cons {m : LayerModel F} {ms : List (LayerModel F)} {s s' : List Nat} {t : String} (hm : Fits m s s') (hs : LayersText fl ms s' t) :
      LayersText fl (m :: ms) s (layerText fl m s s' ++ t)

/-- The whole text. -/
def summaryText (fl : F → String) (name : String) (parameters : Nat) (epochs trainings : Int) (layers : String) (opt : Sgd F) : String :=
  let bar := "============================================================\n"
  bar ++ "| SNN Model Summary                                        |\n" ++ bar ++
  " Name:       " ++ name ++ "\n" ++
  " Parameters: " ++ toString parameters ++ "\n" ++
  " Epochs:     " ++ toString epochs ++ "\n" ++
  " Trainnig:   " ++ toString trainings ++ "\n" ++
  bar ++ "| Layers                                                   |\n" ++ bar ++ layers ++
  bar ++ "|  Optimizer                                               |\n" ++ bar ++
  " StochasticGradientDescent\n" ++ line "                Learning rate: " (fl opt.learningRate) ++ line "                Momentum:      " (fl opt.momentum) ++ bar

/-- The layers whose text is right: no locally connected layer (its title has no line break and its labels are not padded), and no
recurrent layer unless it has as many neurons as inputs (the two shapes are swapped). -/
def Printed : List (LayerModel F) → List Nat → Prop
  | [], _ => True
  | m :: ms, s => (match m with
      | .recurrence n _ _ => (s.prod : Int) = n
      | .gru n _ => (s.prod : Int) = n
      | .locallyConnected .. => False
      | _ => True) ∧ ∀ s', Fits m s s' → Printed ms s'

end

end Snn.Spec
