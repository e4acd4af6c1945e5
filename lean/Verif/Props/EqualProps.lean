import Verif.Proofs.EqualProofs
import Verif.Proofs.ReachProofs
import Verif.Demo.DemoSave
import Verif.Basic.RealFlt
import Verif.Basic.RatFlt

/-!
# C33: `operator==` of networks

Full statement: `==` is an equivalence and can be called on any two networks. It fails when a float is NaN (not reflexive) and
when two layers have different numbers of optimizers (not symmetric, and out of bounds). It is an equivalence between the networks
made from one architecture, and transitive always.
-/

set_option linter.all false

namespace Snn.EqualProps

open Snn.Spec

section
variable {F : Type} [Flt F] [FText F]

/-- C33, reflexivity: a network without NaN among the floats of its layers and of its optimizer (those a file would contain) is
equal to itself. -/
theorem C33_reflexive_partial (s : Snn F) (h : ∀ v, Tok.float v ∈ Sgd.codec.save s.net.optimizer → feq v v = true)
    (h' : ∀ l ∈ s.net.layers, ∀ v, Tok.float v ∈ Layer.codec.save l → feq v v = true) : s.eq s = .ok true := by
  refine Snn.eq_refl h ?_
  intro v hv
  simp only [Codec.vec, List.mem_cons, List.mem_flatMap, reduceCtorEq, false_or] at hv
  obtain ⟨l, hl, hv⟩ := hv
  exact h' l hl v hv

/-- C33, reflexivity, when no float is NaN. -/
theorem C33_reflexive (hx : ∀ x : F, feq x x = true) (s : Snn F) : s.eq s = .ok true ∧ s.ne s = .ok false := by
  have := C33_reflexive_partial s (fun v _ => hx v) (fun _ _ v _ => hx v)
  exact ⟨this, by simp only [Snn.ne, this]; rfl⟩

/-- C33, transitivity, for any three networks; NaN allowed. -/
theorem C33_transitive (L : FeqLaws F) (a b c : Snn F) (h1 : a.eq b = .ok true) (h2 : b.eq c = .ok true) : a.eq c = .ok true :=
  Snn.eq_trans L h1 h2

/-- `!=` is the negation of `==`. -/
theorem C33_ne (a b : Snn F) (e : Bool) : a.ne b = .ok e ↔ a.eq b = .ok (!e) := by
  unfold Snn.ne
  cases h : a.eq b with
  | ok v => cases v <;> cases e <;> simp
  | throw m => constructor <;> intro h <;> cases h
  | ub m => constructor <;> intro h <;> cases h

end

theorem zip_lengths {F : Type} : ∀ {as bs : List (Layer F)},
    as.map (fun l => l.optimizers.length) = bs.map (fun l => l.optimizers.length) → ∀ p ∈ as.zip bs, p.1.optimizers.length = p.2.optimizers.length
  | [], _, _, p, hp => by simp at hp
  | _ :: _, [], _, p, hp => by simp at hp
  | a :: as, b :: bs, h, p, hp => by
    simp only [List.map_cons, List.cons.injEq] at h
    rcases List.mem_cons.1 (by simpa using hp) with rfl | hp
    · exact h.1
    · exact zip_lengths h.2 p hp

section
variable {F : Type} [Flt F] [FTrans F] [Add F] [Sub F] [Mul F] [Div F] [Neg F] [FText F]

/-- C33, symmetry: two networks that come from the same architecture (trained, copied, loaded, in any way) can be compared in both
orders, with the same answer. -/
theorem C33_symmetric_partial (L : FeqLaws F) (arch : List (LayerModel F)) (a b : Snn F) (ha : Reach arch a) (hb : Reach arch b) :
    (∃ e, a.eq b = .ok e) ∧ a.eq b = b.eq a := by
  have ho := zip_lengths ((ha.set.opts).trans (hb.set.opts).symm)
  exact ⟨Snn.eq_total fun p hp => (ho p hp).le, Snn.eq_comm L ho⟩

end

/-- The laws hold for exact numbers. -/
theorem feqLaws_rat : FeqLaws ℚ := ⟨fun x y => by simp [feq, eq_comm], fun x y z h1 h2 => by simp_all [feq]⟩

/-- The laws hold for real numbers. -/
theorem feqLaws_real : FeqLaws ℝ := ⟨fun x y => by simp [feq, eq_comm], fun x y z h1 h2 => by simp_all [feq]⟩

/-- The laws hold with NaN. -/
theorem feqLaws_nan : FeqLaws NF := by
  refine ⟨fun x y => ?_, fun x y z h1 h2 => ?_⟩
  · cases x <;> cases y <;> simp [feq, NF.cmp, eq_comm]
  · cases x <;> cases y <;> cases z <;> simp_all [feq, NF.cmp]

/-! ### Witnesses -/

/-- The network before and after training are two different networks of one architecture. -/
example : Demo.recurrent.eq Demo.trained.snn = .ok false ∧ Reach Demo.recurrentArch Demo.recurrent ∧
    Reach Demo.recurrentArch Demo.trained.snn := by
  have h : Reach Demo.recurrentArch Demo.recurrent := .make (o := Demo.sgd) (d := Demo.draws) (Res.eq_get _ (by decide +kernel))
  refine ⟨by decide +kernel, h, ?_⟩
  exact .call (c := .train Demo.env Demo.series (litEp 1) 1 1 50) (r := Demo.run Demo.recurrent Demo.series) h
    (Res.eq_get _ (by decide +kernel))

/-! ### Findings -/

/-- A network whose last sum is NaN is not equal to itself. -/
theorem C33_reflexive_refuted : ∃ s : Snn NF, Reach Demo.nanArch s ∧ s.eq s = .ok false ∧ s.ne s = .ok true := by
  refine ⟨(((HistoryProps.Call.computeOutput [.nan] false).run (Demo.nanRun Demo.nanNet)).get (by decide +kernel)).snn, ?_,
    by decide +kernel, by decide +kernel⟩
  have h : Reach Demo.nanArch Demo.nanNet := .make (o := Demo.nanSgd) (d := fun _ => .num (1/2)) (Res.eq_get _ (by decide +kernel))
  exact .call (c := .computeOutput [.nan] false) (r := Demo.nanRun Demo.nanNet) h (Res.eq_get _ _)

/-- A network with a Softmax and the same one without: equal in one order, out of bounds in the other. -/
theorem C33_symmetric_refuted : ∃ a b : Snn ℚ,
    (∃ arch, Reach arch a) ∧ (∃ arch, Reach arch b) ∧ a.eq b = .ok true ∧ (b.eq a).isUb = true := by
  refine ⟨Demo.plain, Demo.withSoftmax, ⟨Demo.plainArch, ?_⟩, ⟨Demo.softmaxArch, ?_⟩, by decide +kernel, by decide +kernel⟩
  · exact .make (o := Demo.sgd) (d := Demo.draws) (Res.eq_get _ (by decide +kernel))
  · exact .make (o := Demo.sgd) (d := Demo.draws) (Res.eq_get _ (by decide +kernel))

end Snn.EqualProps
