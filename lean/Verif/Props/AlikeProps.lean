import Verif.Proofs.AlikeProofs
import Verif.Props.EqualProps

/-!
# C61: networks that compare equal compute the same outputs

Full statement: if `a == b` then `a` and `b` give the same outputs for every sequence of inputs. It fails between different
architectures (`==` compares only the first optimizers of the layers); it holds between networks made from one architecture, whatever
was done with them before.
-/

set_option linter.all false

namespace Snn.AlikeProps

open Snn.Spec

section
variable {F : Type} [Flt F] [FTrans F] [Add F] [Sub F] [Mul F] [Div F] [Neg F]

/-- What `computeOutput` answers to a sequence of inputs (each with its temporal reset flag); it ends with the first call that does
not return. -/
def outputsOf : Snn F → List (List F × Bool) → List (Res (List F))
  | _, [] => []
  | s, (x, reset) :: xs =>
    match s.computeOutput x reset with
    | .ok (o, s') => .ok o :: outputsOf s' xs
    | .throw m => [.throw m]
    | .ub m => [.ub m]

theorem outputsOf_alike : ∀ (xs : List (List F × Bool)) {a b : Snn F}, List.Forall₂ Layer.Alike a.net.layers b.net.layers →
    outputsOf a xs = outputsOf b xs
  | [], _, _, _ => rfl
  | (x, t) :: xs, a, b, h => by
    have hr := Net.output_alike h x t
    simp only [outputsOf, Snn.computeOutput]
    cases h1 : a.net.output x t <;> cases h2 : b.net.output x t <;> rw [h1, h2] at hr <;> simp only [Res.Rel] at hr
    · obtain ⟨e, hr⟩ := hr
      rename_i p q
      obtain ⟨o, n⟩ := p
      obtain ⟨o', n'⟩ := q
      simp only at e hr
      subst e
      simp only [Res.ok_bind, Res.pure_eq]
      exact congrArg _ (outputsOf_alike xs hr)
    · subst hr; rfl
    · subst hr; rfl

variable [FText F]

/-- C61, for two networks made from the same architecture, each trained, evaluated, copied, saved and loaded in any way: if they
compare equal then they answer the same outputs (or fail in the same way) to every sequence of inputs.
Equality of floats is identity here: signed zeros, which compare equal, are not modelled. -/
theorem C61_equal_outputs_partial (hf : ∀ x y : F, feq x y = true → x = y) (arch : List (LayerModel F)) (a b : Snn F)
    (ha : Reach arch a) (hb : Reach arch b) (h : a.eq b = .ok true) (xs : List (List F × Bool)) : outputsOf a xs = outputsOf b xs :=
  outputsOf_alike xs (Snn.eq_alike hf ha.poolBuilt hb.poolBuilt (ha.set.opts.trans hb.set.opts.symm) h)

end

theorem feq_rat : ∀ x y : ℚ, feq x y = true → x = y := fun x y h => by simpa [feq] using h
theorem feq_real : ∀ x y : ℝ, feq x y = true → x = y := fun x y h => by simpa [feq] using h
theorem feq_nan : ∀ x y : NF, feq x y = true → x = y := fun x y h => by cases x <;> cases y <;> simp_all [feq, NF.cmp]

/-! ### Witness -/

/-- A recurrent network and its copy: two networks of one architecture that compare equal; they answer two outputs. -/
example : Reach Demo.recurrentArch Demo.recurrent ∧ Reach Demo.recurrentArch Demo.copied ∧ Demo.recurrent.eq Demo.copied = .ok true ∧
    (outputsOf Demo.copied [([1], true), ([2], false)]).all Res.isOk = true := by
  have h : Reach Demo.recurrentArch Demo.recurrent := .make (o := Demo.sgd) (d := Demo.draws) (Res.eq_get _ (by decide +kernel))
  exact ⟨h, .copy h (Res.eq_get _ _), by decide +kernel, by decide +kernel⟩

/-! ### Finding -/

/-- A network with a Softmax and the same one without compare equal and answer differently. -/
theorem C61_equal_outputs_refuted : ∃ a b : Snn ℚ,
    (∃ arch, Reach arch a) ∧ (∃ arch, Reach arch b) ∧ a.eq b = .ok true ∧ ∃ xs, outputsOf a xs ≠ outputsOf b xs := by
  refine ⟨Demo.plain, Demo.withSoftmax, ⟨Demo.plainArch, ?_⟩, ⟨Demo.softmaxArch, ?_⟩, by decide +kernel, [([1], false)], by decide +kernel⟩
  · exact .make (o := Demo.sgd) (d := Demo.draws) (Res.eq_get _ (by decide +kernel))
  · exact .make (o := Demo.sgd) (d := Demo.draws) (Res.eq_get _ (by decide +kernel))

end Snn.AlikeProps
