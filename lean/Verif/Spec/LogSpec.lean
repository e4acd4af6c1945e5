import Verif.Model.Log

/-! Vocabulary for the statements about the log. -/

namespace Snn.LogSpec

variable {F : Type}

/-- What the evaluations of a trace (newest first) are worth reporting: epoch, accuracy, mean absolute error, and whether the network was
saved; in chronological order. -/
def reports : List (Event F) → List (Int × F × F × Bool)
  | [] => []
  | .saved _ _ :: .evaluated e st :: t => reports t ++ [(e, st.globalRate, st.mae, true)]
  | .evaluated e st :: t => reports t ++ [(e, st.globalRate, st.mae, false)]
  | _ :: t => reports t

/-- The accuracy lines of a log (newest first), in chronological order. -/
def accuracyLines : List (Line F) → List (Int × F × F × Bool)
  | [] => []
  | .accuracy e a m _ s :: t => accuracyLines t ++ [(e, a, m, s)]
  | _ :: t => accuracyLines t

/-- A line of the log of a training with these numbers of examples: if it shows a progress, it is that of the training on the training set or
of the evaluation on the testing set, at a position of that set (so the percentage shown is from 0 to less than 100). -/
def RightLine (training testing : Nat) : Line F → Prop
  | .progress _ name index size _ => 0 ≤ index ∧ index < size ∧ ((name = "Training  " ∧ size = training) ∨ (name = "Evaluation" ∧ size = testing))
  | _ => True

/-- The epoch shown by a line. -/
def lineEpoch : Line F → Option Int
  | .message _ => none
  | .accuracy e _ _ _ _ => some e
  | .progress e _ _ _ _ => some e

/-- The times (milliseconds) that the lines show, from the oldest to the newest, when at most `T` milliseconds pass between two readings of the clock and the
last line that shows a time showed `last`: a progress line comes at least 100 milliseconds after the last line that shows a time and soon after that; an
accuracy line shows the time since the previous accuracy line (or the start), and the time starts again from 0. -/
def Paced (T : Int) : Int → List (Line F) → Prop
  | _, [] => True
  | last, .message _ :: ls => Paced T last ls
  | last, .accuracy _ _ _ d _ :: ls => last ≤ d ∧ d < last + 100 + T ∧ Paced T 0 ls
  | last, .progress _ _ _ _ d :: ls => last + 100 ≤ d ∧ d < last + 100 + 2 * T ∧ Paced T d ls

/-- The times shown by the accuracy lines. -/
def accuracyTimes : List (Line F) → List Int
  | [] => []
  | .accuracy _ _ _ d _ :: t => d :: accuracyTimes t
  | _ :: t => accuracyTimes t

end Snn.LogSpec
