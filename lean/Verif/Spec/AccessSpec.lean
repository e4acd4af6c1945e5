import Verif.Model.Race

/-!
# Specification: what a list of memory accesses of an action has to contain

An action *writes* only what is listed as written when every other location holds the same before and after it. It *reads* only what is
listed when from two states that agree on the listed locations it does the same.
-/

namespace Snn.Access

open Snn Snn.Async

variable {F : Type}

/-- The location holds the same in two states. (The generators of the shuffles are streams of the environment: nothing of them is in the
state.) -/
def Same (r r' : Run F) : Loc → Prop
  | .want => r'.snn.wantToStopTraining = r.snn.wantToStopTraining
  | .idle => r'.snn.isIdle = r.snn.isIdle
  | .index => r'.snn.index = r.snn.index
  | .epoch => r'.snn.epoch = r.snn.epoch
  | .perEpoch => r'.snn.numberOfTrainingsBetweenTwoEvaluations = r.snn.numberOfTrainingsBetweenTwoEvaluations
  | .nan => r'.snn.net.outputNan = r.snn.net.outputNan
  | .stats => r'.snn.net.stats = r.snn.net.stats
  | .layers => r'.snn.net.layers = r.snn.net.layers ∧ r'.snn.net.numberOfTraining = r.snn.net.numberOfTraining
  | .data => r'.data = r.data
  | .rng (some _) => True
  | .rng none => r'.draws = r.draws

/-- The members that are set at the construction or by the user, and the clock, agree. -/
structure Fixed (r r' : Run F) : Prop where
  optimizer : r'.snn.net.optimizer = r.snn.net.optimizer
  when : r'.snn.autoSaveWhenBetter = r.snn.autoSaveWhenBetter
  path : r'.snn.autoSaveFilePath = r.snn.autoSaveFilePath
  ticks : r'.ticks = r.ticks

/-- Two events are the same; the NaN flag of a network is not in its file. -/
def SameEvent : Event F → Event F → Prop
  | .saved p s, .saved p' s' => p' = p ∧ { s' with net := { s'.net with outputNan := false } } = { s with net := { s.net with outputNan := false } }
  | e, e' => e' = e

/-- The two actions added the same events. -/
def SameNews (r r' : Run F) (a a' : Run F) : Prop :=
  ∃ e e', a.trace = e ++ r.trace ∧ a'.trace = e' ++ r'.trace ∧ List.Forall₂ SameEvent e e'

end Snn.Access
