import Verif.Spec.ArchSpec
import Verif.Model.Training

/-! Specification: the data objects a program can have, when the vectors it gave have consistent sizes. -/

namespace Snn.Spec

/-- All the rows have the same width. -/
def Rows {F : Type} (w : Nat) (rows : List (List F)) : Prop := ∀ r ∈ rows, r.length = w

section
variable {F : Type} [Flt F] [Add F] [Sub F] [Mul F] [Div F]

/-- The criterion is over from epoch `E` on, whatever the clock and the metrics. -/
def OverFrom (wait : Wait F) (E : Int) : Prop := ∀ t e a m, E ≤ e → wait.isOver t e a m = true

/-- The examples of a set: as many inputs as labels, inputs of size `ni`, labels of size `no`. -/
structure Examples (ni no : Nat) (inputs labels : List (List F)) : Prop where
  count : inputs.length = labels.length
  inputs : Rows ni inputs
  labels : Rows no labels

/-- For classification, every testing label has a class: one of its components is 1. -/
def HasClasses (p : Problem) (labels : List (List F)) : Prop :=
  p = .classification → ∀ l ∈ labels, ∃ v ∈ l, feq v (lit 1 : F) = true

/-- `Fitted ni no d`: `d` is a data object for networks of `ni` inputs and `no` outputs, that is to say it was made by one of the
constructors from examples of these sizes (a time series being at least as long as one window) and then any of the public methods
was called on it, in any order, or it was used for training (which leaves something in its two buffers). -/
inductive Fitted (ni no : Nat) : Data F → Prop
  | make2 {p : Problem} {ti tl si sl : List (List F)} {nat : Nature} {rec : Int} {d : Data F}
      (h : Data.make2 p ti tl si sl nat rec = .ok d) (ht : Examples ni no ti tl) (hs : Examples ni no si sl)
      (hc : HasClasses p sl) (hl : nat = .timeSeries → rec < (tl.length : Int)) : Fitted ni no d
  | make1 {p : Problem} {ti tl : List (List F)} {nat : Nature} {rec : Int} {d : Data F}
      (h : Data.make1 p ti tl nat rec = .ok d) (ht : Examples ni no ti tl)
      (hc : HasClasses p tl) (hl : nat = .timeSeries → rec < (tl.length : Int)) : Fitted ni no d
  | make2seq {p : Problem} {ti si : List (List (List F))} {tl sl : List (List F)} {nat : Nature} {rec : Int} {d : Data F}
      (h : Data.make2seq p ti tl si sl nat rec = .ok d) (ht : ∀ q ∈ ti, Rows ni q) (hs : ∀ q ∈ si, Rows ni q)
      (htl : Rows no tl) (hsl : Rows no sl) (hc : HasClasses p sl) : Fitted ni no d
  | make1seq {p : Problem} {ti : List (List (List F))} {tl : List (List F)} {nat : Nature} {rec : Int} {d : Data F}
      (h : Data.make1seq p ti tl nat rec = .ok d) (ht : ∀ q ∈ ti, Rows ni q)
      (htl : Rows no tl) (hc : HasClasses p tl) : Fitted ni no d
  | shuffle {d d' : Data F} {r : Rng} (hd : Fitted ni no d) (h : d.shuffle r = .ok d') : Fitted ni no d'
  | unshuffle {d d' : Data F} (hd : Fitted ni no d) (h : d.unshuffle = .ok d') : Fitted ni no d'
  | setPrecision {d d' : Data F} {v : F} (hd : Fitted ni no d) (h : d.setPrecision v = .ok d') : Fitted ni no d'
  | setSeparator {d d' : Data F} {v : F} (hd : Fitted ni no d) (h : d.setSeparator v = .ok d') : Fitted ni no d'
  | normalize {d d' : Data F} {lo hi : F} (hd : Fitted ni no d) (h : d.normalize lo hi = .ok d') : Fitted ni no d'
  | used {d : Data F} {a b : List F} (hd : Fitted ni no d) : Fitted ni no { d with batchedData := a, batchedLabels := b }

end

end Snn.Spec
