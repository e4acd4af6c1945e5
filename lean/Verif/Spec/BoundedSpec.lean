import Verif.Spec.PrecisionSpec
import Verif.Spec.InitSpec
import Verif.Basic.Round32
import Verif.Props.HistoryProps

/-!
# Specification: training in single precision without overflow

The magnitudes are powers of two. A network is described by the ranges of its inputs and labels, its width, its momentum and its
learning rate; the bounds of the errors and of the weights follow, from the last layer to the first one.
-/

namespace Snn.Spec

open B32 HistoryProps

/-- A finite binary32 value of magnitude at most b. -/
def Within (b : ℚ) (v : B32) : Prop := ∃ q, v = num q ∧ Rep q ∧ |q| ≤ b

/-- Inputs up to 2^input, labels up to 2^label, less than 2^width inputs and neurons by layer, a learning rate up to 2^-rate. A momentum up to
1 - 2^-damping; damping 24 stands for every momentum up to 1. -/
structure Ranges where
  input : Nat
  label : Nat
  width : Nat
  rate : Nat
  damping : Nat

/-- The errors that reach a layer with i layers behind it are at most 2^errorExp i: 2 (label - output) at the last layer; then every neuron
adds its error times one of its weights. -/
def Ranges.errorExp (p : Ranges) : Nat → ℤ
  | 0 => p.label + 2
  | i + 1 => p.errorExp i + (p.errorExp i + p.input - p.rate + p.damping + 24) + p.width

/-- The weights of a layer with i layers behind it are at most 2^weightExp i. In exact arithmetic a sum of increments of at most
2^(errorExp + input - rate + damping) has no bound; in single precision an increment 2^24 times smaller than a weight does not make
it greater. -/
def Ranges.weightExp (p : Ranges) (i : Nat) : ℤ := p.errorExp i + p.input - p.rate + p.damping + 24

/-- The network is in these ranges, and its largest sum is below 2^127. -/
structure InRanges (p : Ranges) (opt : Sgd B32) (inputs : Nat) (acts : List (Act × Nat)) : Prop where
  rate : Within (2 ^ (-p.rate : ℤ)) opt.learningRate
  momentum : Within 1 opt.momentum
  damped : p.damping = 24 ∨ p.damping < 24 ∧ Within (1 - 2 ^ (-p.damping : ℤ)) opt.momentum
  inputs : inputs < 2 ^ p.width
  neurons : ∀ a ∈ acts, a.2 < 2 ^ p.width
  slow : p.rate ≤ 22
  wide : p.width ≤ 24
  room : p.weightExp (acts.length - 1) + p.input + p.width ≤ 127

/-- The vectors given to a call are in the ranges; a batch has at most 2^24 examples, and the sum of its labels does not overflow. -/
def CallInRanges (p : Ranges) : Call B32 → Prop
  | .computeOutput x _ => ∀ v ∈ x, Within (2 ^ p.input) v
  | .computeCluster x _ => ∀ v ∈ x, Within (2 ^ p.input) v
  | .evaluate _ d => ∀ r ∈ d.testing.inputs, ∀ v ∈ r, Within (2 ^ p.input) v
  | .train _ d _ b _ _ => b ≤ 2 ^ 24 ∧ (b : ℚ) * 2 ^ p.label < 2 ^ 128 ∧ (∀ r ∈ d.testing.inputs, ∀ v ∈ r, Within (2 ^ p.input) v) ∧
      (∀ r ∈ d.training.inputs, ∀ v ∈ r, Within (2 ^ p.input) v) ∧ ∀ r ∈ d.training.labels, ∀ v ∈ r, Within (2 ^ p.label) v
  | .saveAs _ => True
  | .autoSave _ _ => True

/-- What is assumed of `sqrt`: the root of a value that is at least 1 is a value that is at least 1. -/
def SqrtLaw [FTrans B32] : Prop := ∀ q : ℚ, Rep q → 1 ≤ q → ∃ t : ℚ, (fsqrt (num q) : B32) = num t ∧ Rep t ∧ 1 ≤ t

/-- The draws of `uniform_real_distribution`: binary32 values in [0, 1]. -/
def UnitDraws32 (d : Draws B32) : Prop := ∀ i, ∃ u : ℚ, d i = num u ∧ Rep u ∧ 0 ≤ u ∧ u ≤ 1

end Snn.Spec
