import Verif.Proofs.SameProofs
import Verif.Proofs.StatProofs
import Verif.Model.Training
import Verif.Basic.NanFlt
import Verif.Basic.RealFlt
import Mathlib.Tactic.NormNum
import Mathlib.Tactic.Linarith
import Verif.Demo.Demo

/-!
# C26, C27, C50: inference
-/

set_option linter.all false

namespace Snn.InferenceProps

open Snn.Spec Snn.StatSpec

section
variable {F : Type} [Flt F] [FTrans F] [Add F] [Sub F] [Mul F] [Div F] [Neg F]

/-- The calls of C26 and C27. -/
inductive Infer (F : Type) where
  | computeOutput (inputs : List F) (temporalReset : Bool)
  | computeCluster (inputs : List F) (temporalReset : Bool)
  | evaluate (env : Env F) (data : Data F)

/-- The state after a call that returned. -/
def Infer.run (s : Snn F) : Infer F → Res (Snn F)
  | .computeOutput x t => Prod.snd <$> s.computeOutput x t
  | .computeCluster x t => Prod.snd <$> s.computeCluster x t
  | .evaluate env data =>
    (fun r : Run F => r.snn) <$> Run.evaluate env { snn := s, data := data, draws := fun _ => env.nan, ticks := 0, trace := [] }

/-- What is kept. -/
structure Keeps (s s' : Snn F) : Prop where
  layers : List.Forall₂ Layer.Same s.net.layers s'.net.layers
  optimizer : s'.net.optimizer = s.net.optimizer
  training : s'.net.numberOfTraining = s.net.numberOfTraining

theorem Keeps.refl (s : Snn F) : Keeps s s := ⟨forall₂_refl Layer.Same.refl _, rfl, rfl⟩
theorem Keeps.trans {a b c : Snn F} (h : Keeps a b) (k : Keeps b c) : Keeps a c :=
  ⟨forall₂_trans (R := Layer.Same) (fun _ _ _ x y => x.trans y) h.1 k.1, k.2.trans h.2, k.3.trans h.3⟩

theorem evaluateOnce_keeps {s s' : Snn F} {data : Data F} (h : s.evaluateOnce data = .ok s') : Keeps s s' := by
  unfold Snn.evaluateOnce at h
  obtain ⟨x, _, h⟩ := Res.bind_eq_ok.1 h
  obtain ⟨first, _, h⟩ := Res.bind_eq_ok.1 h
  split at h
  all_goals
    obtain ⟨_, _, h⟩ := Res.bind_eq_ok.1 h
    obtain ⟨_, _, h⟩ := Res.bind_eq_ok.1 h
    obtain ⟨⟨out, net⟩, h1, h⟩ := Res.bind_eq_ok.1 h
    obtain ⟨st, _, h⟩ := Res.bind_eq_ok.1 h
    cases h
    obtain ⟨k1, k2, k3, _⟩ := Net.output_same h1
    exact ⟨k1, k2, k3⟩

theorem evaluateLoop_keeps {nan : F} {data : Data F} : ∀ {k : Nat} {s s' : Snn F} {b : Bool},
    evaluateLoop nan data k s = .ok (b, s') → Keeps s s'
  | 0, s, s', b, h => by cases h; exact Keeps.refl s
  | k + 1, s, s', b, h => by
    unfold evaluateLoop at h
    split at h
    · cases h
      exact ⟨forall₂_refl Layer.Same.refl _, rfl, rfl⟩
    · obtain ⟨need, _, h⟩ := Res.bind_eq_ok.1 h
      obtain ⟨s1, h1, h⟩ := Res.bind_eq_ok.1 h
      have k1 : Keeps s s1 := by
        split at h1
        · exact evaluateOnce_keeps h1
        · obtain ⟨_, _, h1⟩ := Res.bind_eq_ok.1 h1
          obtain ⟨_, _, h1⟩ := Res.bind_eq_ok.1 h1
          obtain ⟨⟨out, net⟩, h2, h1⟩ := Res.bind_eq_ok.1 h1
          cases h1
          obtain ⟨a, b, c, _⟩ := Net.output_same h2
          exact ⟨a, b, c⟩
      have k2 : Keeps { s1 with index := s1.index + 1 } s' := evaluateLoop_keeps h
      exact k1.trans ⟨k2.1, k2.2, k2.3⟩

theorem evaluate_keeps {env : Env F} {r r' : Run F} (h : r.evaluate env = .ok r') : Keeps r.snn r'.snn ∧ r'.data = r.data := by
  unfold Run.evaluate at h
  obtain ⟨⟨b, s⟩, h1, h⟩ := Res.bind_eq_ok.1 h
  have k := evaluateLoop_keeps h1
  have k' : Keeps r.snn s := ⟨k.1, k.2, k.3⟩
  simp only [] at h
  split at h
  · cases h; exact ⟨k', rfl⟩
  · split at h
    · cases h; exact ⟨⟨k'.1, k'.2, k'.3⟩, rfl⟩
    · cases h; exact ⟨⟨k'.1, k'.2, k'.3⟩, rfl⟩

theorem infer_keeps {s s' : Snn F} {op : Infer F} (h : op.run s = .ok s') : Keeps s s' := by
  cases op with
  | computeOutput x t =>
    simp only [Infer.run, Snn.computeOutput] at h
    cases ho : s.net.output x t with
    | ok p =>
      rw [ho] at h
      obtain ⟨out, net⟩ := p
      cases h
      obtain ⟨a, b, c, _⟩ := Net.output_same ho
      exact ⟨a, b, c⟩
    | throw m => rw [ho] at h; cases h
    | ub m => rw [ho] at h; cases h
  | computeCluster x t =>
    simp only [Infer.run, Snn.computeCluster] at h
    cases ho : s.net.output x t with
    | ok p =>
      rw [ho] at h
      obtain ⟨out, net⟩ := p
      cases h
      obtain ⟨a, b, c, _⟩ := Net.output_same ho
      exact ⟨a, b, c⟩
    | throw m => rw [ho] at h; cases h
    | ub m => rw [ho] at h; cases h
  | evaluate env data =>
    simp only [Infer.run] at h
    cases ho : Run.evaluate env { snn := s, data := data, draws := fun _ => env.nan, ticks := 0, trace := [] } with
    | ok r =>
      rw [ho] at h
      cases h
      exact (evaluate_keeps ho).1
    | throw m => rw [ho] at h; cases h
    | ub m => rw [ho] at h; cases h

theorem infers_keeps : ∀ {ops : List (Infer F)} {s s' : Snn F}, ops.foldlM Infer.run s = .ok s' → Keeps s s'
  | [], s, s', h => by cases h; exact Keeps.refl s
  | op :: ops, s, s', h => by
    rw [List.foldlM_cons] at h
    obtain ⟨s1, h1, h2⟩ := Res.bind_eq_ok.1 h
    exact (infer_keeps h1).trans (infers_keeps h2)

/-- **C26**, for every carrier, network and data: no sequence of `computeOutput`, `computeCluster` and `evaluate` changes a
weight, a bias, a momentum memory, the structure of a layer, an optimizer or the number of training steps. -/
theorem C26_inference_keeps_parameters (s s' : Snn F) (ops : List (Infer F)) (h : ops.foldlM Infer.run s = .ok s') :
    netParams s'.net = netParams s.net ∧ s'.net.numberOfTraining = s.net.numberOfTraining := by
  have k := infers_keeps h
  exact ⟨by unfold netParams; rw [k.optimizer, layersSame_params k.layers], k.training⟩

/-- **C26** for the data: an evaluation leaves the data alone. -/
theorem C26_evaluate_keeps_data (env : Env F) (r r' : Run F) (h : r.evaluate env = .ok r') : r'.data = r.data :=
  (evaluate_keeps h).2

/-- **C27**, for every carrier: without recurrent layers, `computeOutput(x)` returns the same value (or fails in the same
way) before and after any sequence of inferences and evaluations, with or without the temporal reset. -/
theorem C27_output_is_a_function (s s' : Snn F) (ops : List (Infer F)) (h : ops.foldlM Infer.run s = .ok s')
    (hn : ∀ l ∈ s.net.layers, NonRecurrent l) (x : List F) (t t' : Bool) :
    Prod.fst <$> s'.computeOutput x t' = Prod.fst <$> s.computeOutput x t := by
  have k := Net.output_rel (infers_keeps h).layers hn x t t'
  unfold Snn.computeOutput
  cases h1 : s.net.output x t <;> cases h2 : s'.net.output x t' <;> rw [h1, h2] at k <;> simp at k ⊢
  · exact k.symm
  · exact k.symm
  · exact k.symm

/-- **C27** for the predicted class. -/
theorem C27_cluster_is_a_function (s s' : Snn F) (ops : List (Infer F)) (h : ops.foldlM Infer.run s = .ok s')
    (hn : ∀ l ∈ s.net.layers, NonRecurrent l) (x : List F) (t t' : Bool) :
    Prod.fst <$> s'.computeCluster x t' = Prod.fst <$> s.computeCluster x t := by
  have k := Net.output_rel (infers_keeps h).layers hn x t t'
  unfold Snn.computeCluster
  cases h1 : s.net.output x t <;> cases h2 : s'.net.output x t' <;> rw [h1, h2] at k <;> simp at k ⊢
  · rw [k]
  · exact k.symm
  · exact k.symm

end

/-! ### C50 -/

/-- **C50** (exact arithmetic), for every network state: when some output is greater than -2, `computeCluster` returns the
first index of the largest value returned by `computeOutput` on the same input. Missing: outputs that are all below -2, see
`C50_floor_refuted`. -/
theorem C50_cluster_partial {F : Type} [Field F] [LinearOrder F] [IsStrictOrderedRing F] [FTrans F] (s s' : Snn F)
    (x out : List F) (t : Bool) (h : s.computeOutput x t = .ok (out, s')) (hfl : ∃ v ∈ out, -2 < v) :
    ∃ k : Nat, s.computeCluster x t = .ok ((k : Int), s') ∧ IsFirstArgmax out k := by
  unfold Snn.computeOutput at h
  unfold Snn.computeCluster
  obtain ⟨⟨o, net⟩, h1, h2⟩ := Res.bind_eq_ok.1 h
  cases h2
  obtain ⟨k, h3, h4⟩ := argmaxLoop_spec hfl
  exact ⟨k, by rw [h1]; simp [h3], h4⟩

/-- **C50 is false of outputs below -2**, for every network state: when no output exceeds -2, `computeCluster` returns -1,
which is not an index. -/
theorem C50_floor_refuted {F : Type} [Field F] [LinearOrder F] [IsStrictOrderedRing F] [FTrans F] (s s' : Snn F)
    (x out : List F) (t : Bool) (h : s.computeOutput x t = .ok (out, s')) (hfl : ∀ v ∈ out, v ≤ -2) :
    s.computeCluster x t = .ok (-1, s') := by
  unfold Snn.computeOutput at h
  unfold Snn.computeCluster
  obtain ⟨⟨o, net⟩, h1, h2⟩ := Res.bind_eq_ok.1 h
  cases h2
  rw [h1]
  simp [argmaxLoop_floor (o := out) (by rintro ⟨v, h1, h2⟩; exact absurd (hfl v h1) (not_le.2 h2))]

/-- A network with one fully connected layer of one neuron with the identity, built from the draws 1, 1, …: on the input
-1000 the predicted class is -1, on the input 1 it is 0 (computed with the carrier `NF`). -/
theorem C50_witness_refuted :
    let net : Res (Snn NF) := Prod.fst <$> Snn.make [.input [1], .fullyConnected 1 .identity []]
      { learningRate := lit (1/10), momentum := lit 0 } (fun _ => lit 1)
    (do let s ← net
        let (c, _) ← s.computeCluster [lit (-1000)] true
        return c) = .ok (-1) ∧
    (do let s ← net
        let (c, _) ← s.computeCluster [lit 1] true
        return c) = .ok 0 := by
  decide +kernel

/-! ### The hypotheses are met -/

/-- A sequence of inferences and evaluations of a convolutional network that returns. -/
def someInferences : List (Infer ℚ) :=
  [.computeOutput [1, 2, 3, 4, 5, 6, 7, 8, 9, 10, 11, 12, 13, 14, 15, 16] true, .computeCluster [0, 1, 0, 1, 0, 1, 0, 1, 0, 1, 0, 1, 2, 1, 2, 1] false]

example : ∃ s', someInferences.foldlM Infer.run Demo.conv = .ok s' ∧ (∀ l ∈ Demo.conv.net.layers, NonRecurrent l) ∧
    netParams s'.net = netParams Demo.conv.net := by
  have h := Res.eq_get (someInferences.foldlM Infer.run Demo.conv) (by decide +kernel)
  refine ⟨_, h, ?_, (C26_inference_keeps_parameters _ _ _ h).1⟩
  have : Demo.conv.net.layers.all (fun l => match l.body with | .recurrence _ => false | .gru _ => false | _ => true) = true := by decide +kernel
  intro l hl
  have := List.all_eq_true.1 this l hl
  unfold NonRecurrent
  split at this <;> simp_all

/-- An evaluation of the recurrent network returns (C26 holds of recurrent networks too). -/
example : ([Infer.evaluate Demo.env Demo.series].foldlM Infer.run Demo.recurrent).isOk = true := by decide +kernel

end Snn.InferenceProps
