import Verif.Proofs.ReorderStart
import Verif.Basic.RatFlt
import Verif.Basic.B32
import Verif.Demo.Demo

/-!
# C114: the order of the features of the inputs does not matter
-/

set_option linter.all false

namespace Snn.ReorderProps

open Snn.Spec Snn.HistoryProps Snn.MapSim Snn.Reorder

section
variable {F : Type} [Field F] [LinearOrder F] [IsStrictOrderedRing F] [FTrans F]

/-- **C114** (exact arithmetic). Let p be any order of the features. A network whose first layer is fully connected, recurrent or gated, and the
same network with the input weights of the first layer in the order p: give the first any history of calls, and the second the same
calls on the same data with the features of every input in the order p. Either both histories fail in the same way, or: the statistics reported by all the evaluations are the
same, the two objects have the same scores, flags and counters, they give the same answers to x and to x in the order p for every x, and
the learned weights of the second are those of the first in the order p. -/
theorem C114_feature_order {s s' : List Nat} {m : LayerModel F} {rest : List (LayerModel F)} (hc : Chain (m :: rest) s s') (hcount : rest.length ≤ 998)
    (hm : (∃ n act opts, m = .fullyConnected n act opts) ∨ (∃ n act opts, m = .recurrence n act opts) ∨ (∃ n opts, m = .gru n opts))
    {opt : Sgd F} {d d' : Draws F} {snn : Snn F} (hmk : Snn.make (.input (s.map (fun v : Nat => (v : Int))) :: m :: rest) opt d = .ok (snn, d'))
    {p : List Nat} (hp : p.Perm (List.range s.prod)) {calls : List (Call F)} (hcalls : ∀ c ∈ calls, CallRect s.prod c) (data : Data F) (draws : Draws F) (ticks : Nat)
    (trace : List (Event F)) :
    Res.Rel (fun a b => reports b = reports a ∧ b.draws = a.draws ∧ b.snn = { a.snn with net := b.snn.net } ∧ b.snn.net.stats = a.snn.net.stats ∧
        b.snn.net.outputNan = a.snn.net.outputNan ∧
        (∀ x t, x.length = s.prod → Res.Rel (fun u v => v.1 = u.1) (a.snn.computeOutput x t) (b.snn.computeOutput (inOrder p x) t)) ∧
        b.snn.net.layers.map (fun l => l.body.weights) = (reorderFeatures p a.snn.net).layers.map (fun l => l.body.weights))
      (calls.foldlM Call.run ⟨snn, data, draws, ticks, trace⟩)
      ((calls.map (mapCall (inOrder p))).foldlM Call.run ⟨{ snn with net := reorderFeatures p snn.net }, data, draws, ticks, trace⟩) := by
  have h0 := net_start hp hc hm hcount hmk
  have h := history_sim (netSim_re hp) (batchy_re hp) hcalls (a := ⟨snn, data, draws, ticks, trace⟩)
    (b := ⟨{ snn with net := reorderFeatures p snn.net }, data, draws, ticks, trace⟩) ⟨_, rfl, h0⟩ rfl rfl rfl
  revert h
  generalize (calls.foldlM Call.run (⟨snn, data, draws, ticks, trace⟩ : Run F)) = A
  generalize ((calls.map (mapCall (inOrder p))).foldlM Call.run (⟨{ snn with net := reorderFeatures p snn.net }, data, draws, ticks, trace⟩ : Run F)) = B
  cases A <;> cases B <;> simp only [Res.Rel] <;> try exact id
  rename_i a b
  rintro ⟨⟨n, hb, hn⟩, h1, h2, h3⟩
  refine ⟨h3, h1, by rw [hb], by rw [hb]; exact (netSim_re hp).stats _ _ hn, by rw [hb]; exact (netSim_re hp).nan _ _ hn, ?_, ?_⟩
  · intro x t hx
    rw [hb]
    unfold Snn.computeOutput
    refine Res.Rel.bind (out_re hp hn hx t) ?_
    rintro ⟨y, u⟩ ⟨y', v⟩ ⟨hy, _⟩
    exact hy
  · rw [hb]
    dsimp only
    obtain ⟨l, ls, hl, hf, rfl⟩ := hn
    unfold reorderFeatures
    rw [hl]
    obtain ⟨ni, os, bd⟩ := l
    cases bd <;> simp [reorderLayer, reorderBody, Body.weights, Neuron.getWeights, Gru.getWeights, reorder, reorderRec, reorderGru, Function.comp_def]

end

/-! ### The hypotheses are met -/

/-- The example network of 2 inputs learns a regression for an epoch, is evaluated and answers; the features are swapped. -/
def calls : List (Call ℚ) := [.train Demo.env Demo.regression (litEp 1) 1 1 50, .evaluate Demo.env Demo.regression, .computeOutput [1, 2] true]

example : ∃ a b : Run ℚ, calls.foldlM Call.run (Demo.run Demo.dense Demo.regression) = .ok a ∧
    (calls.map (mapCall (inOrder [1, 0]))).foldlM Call.run { Demo.run Demo.dense Demo.regression with
      snn := { Demo.dense with net := reorderFeatures [1, 0] Demo.dense.net } } = .ok b ∧ reports b = reports a ∧ reports a ≠ [] ∧
    a.snn.net.layers.map (fun l => l.body.weights) ≠ b.snn.net.layers.map (fun l => l.body.weights) ∧
    a.snn.net.layers.map (fun l => l.body.weights) ≠ Demo.dense.net.layers.map (fun l => l.body.weights) ∧
    inOrder [1, 0] [1, 2] = ([2, 1] : List ℚ) := by
  have hc : Chain (F := ℚ) [.fullyConnected 3 .relu [.dropout (1/2)], .fullyConnected 2 .identity []] [2] [2] :=
    .cons ⟨by simp, by simp, by simp⟩ (Fits.fullyConnected (n := 3) (by omega)) (.cons ⟨by simp, by simp, by simp⟩ (Fits.fullyConnected (n := 2) (by omega))
      (.nil ⟨by simp, by simp, by simp⟩))
  obtain ⟨d', hmk⟩ : ∃ d', Snn.make Demo.denseArch Demo.sgd Demo.draws = .ok (Demo.dense, d') :=
    ⟨((Snn.make Demo.denseArch Demo.sgd Demo.draws).get (by decide +kernel)).2, Res.eq_get _ (by decide +kernel)⟩
  have h := C114_feature_order (F := ℚ) hc (by simp) (Or.inl ⟨_, _, _, rfl⟩) hmk (p := [1, 0]) (by decide) (calls := calls)
    (by
      intro c hc
      simp only [calls, List.mem_cons, List.not_mem_nil, or_false] at hc
      rcases hc with rfl | rfl | rfl
      · exact ⟨by decide +kernel, by decide +kernel, by decide +kernel⟩
      · exact ⟨by decide +kernel, by decide +kernel, by decide +kernel⟩
      · rfl) Demo.regression Demo.draws 0 []
  have h1 := Res.eq_get (calls.foldlM Call.run (Demo.run Demo.dense Demo.regression)) (by decide +kernel)
  have h1' := h1
  unfold Demo.run at h1'
  rw [h1'] at h
  obtain ⟨b, hb, k1, _, _, _, _, _, k2⟩ := h.ok_left
  refine ⟨_, b, h1, hb, k1, by decide +kernel, ?_, by decide +kernel, by decide +kernel⟩
  rw [k2]
  decide +kernel

section Rounded

/-- Transcendental functions for the witness, which uses none. -/
local instance : FTrans B32 := ⟨id, id, id⟩

/-- One neuron of three inputs on binary32, every weight 3/4. -/
def roundedNet : Snn B32 × Draws B32 := Res.get (Snn.make [.input [3], .fullyConnected 1 .identity []] ⟨lit (1/100), lit 0⟩ (fun _ => lit (3/4))) (by decide +kernel)
/-- The same neuron with the last two features swapped. -/
def roundedSwapped : Snn B32 := { roundedNet.1 with net := reorderFeatures [0, 2, 1] roundedNet.1.net }
/-- Its answers to the same three values, in the two orders. -/
def answer1 : List B32 × Snn B32 := Res.get (roundedNet.1.computeOutput [lit 16777216, lit 1, lit (-16777216)] true) (by decide +kernel)
def answer2 : List B32 × Snn B32 := Res.get (roundedSwapped.computeOutput [lit 16777216, lit (-16777216), lit 1] true) (by decide +kernel)

/-- With 32-bit floats the sums are rounded, and the order of the features matters: the same neuron answers differently to the three values in another order. -/
theorem C114_rounded : ∃ (snn : Snn B32) (d' : Draws B32) (x y z : List B32) (a b : Snn B32),
    Snn.make [.input [3], .fullyConnected 1 .identity []] ⟨lit (1/100), lit 0⟩ (fun _ => lit (3/4)) = .ok (snn, d') ∧
    snn.computeOutput x true = .ok (y, a) ∧
    Snn.computeOutput { snn with net := reorderFeatures [0, 2, 1] snn.net } (inOrder [0, 2, 1] x) true = .ok (z, b) ∧ y ≠ z :=
  ⟨roundedNet.1, roundedNet.2, [lit 16777216, lit 1, lit (-16777216)], answer1.1, answer2.1, answer1.2, answer2.2,
    Res.eq_get _ _, Res.eq_get _ _, Res.eq_get _ _, by decide +kernel⟩

end Rounded

end Snn.ReorderProps
