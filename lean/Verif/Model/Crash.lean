import Verif.Model.Serialize

/-!
# Model of a crash while files are written

StraightforwardNeuralNetwork.cpp:286-292 `saveSync` opens the file itself (`ofstream ofs(filePath)`, which empties it) and writes the
archive to it, value after value; there is no temporary file and no renaming. A crash (of the process or of the machine, or a full
disk) during a save leaves the beginning of the text.
-/

namespace Snn

section
variable {F : Type} [FText F] [Flt F]

/-- What a crash during the writing of an archive leaves in the file (StraightforwardNeuralNetwork.cpp:289-291): the values written
so far, and possibly a value whose text was cut, which can then be any other value. -/
inductive Cut (a : Archive F) : Archive F → Prop
  | between (n : Nat) (h : n < a.length) : Cut a (a.take n)
  | inside (n : Nat) (t : Tok F) (h : n < a.length) : Cut a (a.take n ++ [t])

/-- The files after a crash during a run: between two events, or during a save (StraightforwardNeuralNetwork.cpp:286-292). The trace
is the one of the uninterrupted run, newest first; the events in front did not happen. -/
inductive AfterCrash (trace : List (Event F)) (files : Files F) : Files F → Prop
  | between (newer older : List (Event F)) (h : trace = newer ++ older) : AfterCrash trace files (filesAfter older files)
  | during (newer older : List (Event F)) (path : String) (s : Snn F) (b : Archive F) (h : trace = newer ++ .saved path s :: older)
      (hb : Cut (Snn.codec.save s) b) : AfterCrash trace files (fun p => if p = path then some b else filesAfter older files p)

end

end Snn
