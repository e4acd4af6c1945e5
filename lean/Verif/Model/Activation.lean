import Verif.Basic.Res
import Verif.Basic.Flt

/-!
# Model of `include/snn/neural_network/layer/neuron/activation_function/*.hpp`

`powf(x, 2)` is modelled as `x * x`; `tanh`/`exp` on double operands (GELU.hpp calls the overloads of
`<cmath>`) are the same abstract functions.
-/

namespace Snn

/-- ActivationFunction.hpp:8-17 `enum class activation`. -/
inductive Act where
  | sigmoid | iSigmoid | tanh | relu | gelu | gaussian | identity
  deriving DecidableEq, Repr

/-- The concrete subclasses of `ActivationFunction` (one class each in
`activation_function/{Sigmoid,ImprovedSigmoid,Tanh,ReLU,GELU,Gaussian,Identity}.hpp`). -/
inductive ActObj where
  | Sigmoid | ImprovedSigmoid | Tanh | RectifiedLinearUnit | GaussianErrorLinearUnit | Gaussian | Identity
  deriving DecidableEq, Repr

/-- ActivationFunction.cpp:17-30 `initialize`: the static table of activation objects. -/
def activationFunctions : List ActObj :=
  [.Sigmoid, .ImprovedSigmoid, .Tanh, .RectifiedLinearUnit, .GaussianErrorLinearUnit, .Gaussian, .Identity]

/-- ActivationFunction.cpp:37-58 `get`: an index in the static table per enumerator. -/
def Act.get (a : Act) : Res ActObj :=
  match a with
  | .sigmoid => rd activationFunctions 0
  | .iSigmoid => rd activationFunctions 1
  | .tanh => rd activationFunctions 2
  | .relu => rd activationFunctions 3
  | .gelu => rd activationFunctions 4
  | .gaussian => rd activationFunctions 5
  | .identity => rd activationFunctions 6

/-- `getType` of each class: Sigmoid.hpp:12, ImprovedSigmoid.hpp:12, Tanh.hpp:12, ReLU.hpp:12, GELU.hpp:12,
Gaussian.hpp:12, Identity.hpp:12. -/
def ActObj.getType : ActObj → Act
  | .Sigmoid => .sigmoid
  | .ImprovedSigmoid => .iSigmoid
  | .Tanh => .tanh
  | .RectifiedLinearUnit => .relu
  | .GaussianErrorLinearUnit => .gelu
  | .Gaussian => .gaussian
  | .Identity => .identity

/-- A bound passed to the `ActivationFunction(min, max)` constructor: a number or an infinity
(`none`). -/
def ActObj.range : ActObj → Option Rat × Option Rat
  -- Sigmoid.hpp:18
  | .Sigmoid => (some 0, some 1)
  -- ImprovedSigmoid.hpp:18
  | .ImprovedSigmoid => (none, none)
  -- Tanh.hpp:18
  | .Tanh => (some (-1), some 1)
  -- ReLU.hpp:18
  | .RectifiedLinearUnit => (some 0, none)
  -- GELU.hpp:18
  | .GaussianErrorLinearUnit => (some 0, none)
  -- Gaussian.hpp:18
  | .Gaussian => (some 0, some 1)
  -- Identity.hpp:18
  | .Identity => (none, none)

section
variable {F : Type} [Flt F] [FTrans F] [Add F] [Sub F] [Mul F] [Div F] [Neg F]

/-- `powf(x, 2)`. -/
def sq (x : F) : F := x * x

/-- `function`: Sigmoid.hpp:22-25, ImprovedSigmoid.hpp:22-25, Tanh.hpp:22-25, ReLU.hpp:22-25, GELU.hpp:22-25,
Gaussian.hpp:22-25, Identity.hpp:22-25. -/
def ActObj.function (a : ActObj) (x : F) : F :=
  match a with
  | .Sigmoid => (ftanh (x / lit 2) + lit 1) / lit 2
  | .ImprovedSigmoid => lit 1 / (lit 1 + fexp (-x)) + x * lit (1/20)
  | .Tanh => ftanh x
  | .RectifiedLinearUnit => if flt (lit 0) x then x else lit 0
  | .GaussianErrorLinearUnit => x * (ftanh (lit (851/500) * x / lit 2) + lit 1) / lit 2
  | .Gaussian => fexp (-(sq x))
  | .Identity => x

/-- `derivative`: Sigmoid.hpp:27-30, ImprovedSigmoid.hpp:27-30, Tanh.hpp:27-30, ReLU.hpp:27-30, GELU.hpp:27-31,
Gaussian.hpp:27-30, Identity.hpp:27-30. -/
def ActObj.derivative (a : ActObj) (x : F) : F :=
  match a with
  | .Sigmoid => (lit 1 - sq (ftanh (x / lit 2))) / lit 4
  | .ImprovedSigmoid => fexp x / sq (fexp x + lit 1)
  | .Tanh => lit 1 - sq (ftanh x)
  | .RectifiedLinearUnit => if flt (lit 0) x then lit 1 else lit 0
  | .GaussianErrorLinearUnit =>
    lit (851/500) * x * (lit 1 - sq (ftanh (lit (851/500) * x / lit 2))) / lit 4
      + (ftanh (lit (851/500) * x / lit 2) + lit 1) / lit 2
  | .Gaussian => lit (-2) * x * fexp (-(sq x))
  | .Identity => lit 1

end

end Snn
