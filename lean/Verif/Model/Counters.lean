import Verif.Model.Training

/-!
# Model of the accessors of `StraightforwardNeuralNetwork.hpp`
-/

namespace Snn

variable {F : Type}

/-- StraightforwardNeuralNetwork.hpp:80 `getCurrentIndex`. -/
def Snn.getCurrentIndex (s : Snn F) : Int := s.index

/-- StraightforwardNeuralNetwork.hpp:81 `getCurrentEpoch`. -/
def Snn.getCurrentEpoch (s : Snn F) : Int := s.epoch

/-- StraightforwardNeuralNetwork.hpp:82 `getNumberOfTrainingsBetweenTwoEvaluations`. -/
def Snn.getNumberOfTrainingsBetweenTwoEvaluations (s : Snn F) : Int := s.numberOfTrainingsBetweenTwoEvaluations

/-- StraightforwardNeuralNetwork.hpp:84-87 `setNumberOfTrainingsBetweenTwoEvaluations`. -/
def Snn.setNumberOfTrainingsBetweenTwoEvaluations (s : Snn F) (value : Int) : Snn F := { s with numberOfTrainingsBetweenTwoEvaluations := value }

end Snn
