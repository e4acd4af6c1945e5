import Verif.Proofs.HiddenStart
import Verif.Basic.RatFlt
import Verif.Demo.Demo

/-!
# C115: the order of the neurons of a hidden layer does not matter
-/

set_option linter.all false

namespace Snn.HiddenProps

open Snn.Spec Snn.HistoryProps Snn.MapSim Snn.Reorder

section
variable {F : Type} [Field F] [LinearOrder F] [IsStrictOrderedRing F] [FTrans F]

theorem mapCall_id (c : Call F) : mapCall id c = c := by
  cases c <;> simp [mapCall, mapData]

/-- **C115** (exact arithmetic). Let a layer of m neurons (fully connected, recurrent or gated; L1, L2 and error multiplier allowed) be followed
by another such layer, anywhere in a well formed architecture, and let p be any order of the m neurons. Take the network, and the same network with the neurons of that layer in the order p and the
input weights of the layer after it in the same order. Give both any history of the same calls. Either both
histories fail in the same way, or: the evaluations report the same statistics, the two objects have the same scores, flags and counters, they
give the same answer to every input, and the learned weights of the second are those of the first in the order p. -/
theorem C115_hidden_order {pre : List (LayerModel F)} {a b : LayerModel F} {post : List (LayerModel F)} {s s' : List Nat} {m : Nat}
    (hc : Chain (pre ++ a :: b :: post) s s') (hcount : (pre ++ a :: b :: post).length ≤ 999) (ha : LayerOf m a)
    (hb : (∃ n act opts, b = .fullyConnected n act opts) ∨ (∃ n act opts, b = .recurrence n act opts) ∨ (∃ n opts, b = .gru n opts))
    {opt : Sgd F} {d d' : Draws F} {snn : Snn F} (hmk : Snn.make (.input (s.map (fun v : Nat => (v : Int))) :: (pre ++ a :: b :: post)) opt d = .ok (snn, d'))
    {p : List Nat} (hp : p.Perm (List.range m)) {calls : List (Call F)} (hcalls : ∀ c ∈ calls, CallRect s.prod c) (data : Data F) (draws : Draws F) (ticks : Nat)
    (trace : List (Event F)) :
    Res.Rel (fun u v => reports v = reports u ∧ v.draws = u.draws ∧ v.snn = { u.snn with net := v.snn.net } ∧ v.snn.net.stats = u.snn.net.stats ∧
        v.snn.net.outputNan = u.snn.net.outputNan ∧
        (∀ x t, x.length = s.prod → Res.Rel (fun y z => z.1 = y.1) (u.snn.computeOutput x t) (v.snn.computeOutput x t)) ∧
        v.snn.net.layers.map (fun l => l.body.weights) = (reorderHidden p pre.length u.snn.net.layers).map (fun l => l.body.weights))
      (calls.foldlM Call.run ⟨snn, data, draws, ticks, trace⟩)
      (calls.foldlM Call.run ⟨{ snn with net := { snn.net with layers := reorderHidden p pre.length snn.net.layers } }, data, draws, ticks, trace⟩) := by
  have h0 := hid_start hp ha hb hc hcount hmk
  have h := history_sim (netSim_hid hp pre.length s.prod) (batchy_id s.prod) hcalls (a := ⟨snn, data, draws, ticks, trace⟩)
    (b := ⟨{ snn with net := { snn.net with layers := reorderHidden p pre.length snn.net.layers } }, data, draws, ticks, trace⟩) ⟨_, rfl, h0⟩ rfl rfl rfl
  rw [show calls.map (mapCall id) = calls from by rw [List.map_congr_left (fun c _ => mapCall_id c)]; exact List.map_id' _] at h
  revert h
  generalize (calls.foldlM Call.run (⟨snn, data, draws, ticks, trace⟩ : Run F)) = A
  generalize (calls.foldlM Call.run (⟨{ snn with net := { snn.net with layers := reorderHidden p pre.length snn.net.layers } }, data, draws, ticks, trace⟩ : Run F)) = B
  cases A <;> cases B <;> simp only [Res.Rel] <;> try exact id
  rename_i u v
  rintro ⟨⟨n, hv, hn⟩, h1, h2, h3⟩
  refine ⟨h3, h1, by rw [hv], by rw [hv]; exact (netSim_hid hp _ _).stats _ _ hn, by rw [hv]; exact (netSim_hid hp _ _).nan _ _ hn, ?_, ?_⟩
  · intro x t hx
    rw [hv]
    unfold Snn.computeOutput
    refine Res.Rel.bind ((netSim_hid hp _ _).out _ _ _ t hn hx) ?_
    rintro ⟨y, q⟩ ⟨y', q'⟩ ⟨hy, _⟩
    exact hy
  · rw [hv]
    obtain ⟨ls', hl, rfl⟩ := hn
    exact weights_hid hl

end

/-! ### The hypotheses are met -/

/-- A hidden layer of 3 recurrent neurons with L1 regularization, a hidden layer of 2 neurons, and an output. -/
def arch : List (LayerModel ℚ) := [.input [2], .fullyConnected 2 .identity [], .recurrence 3 .identity [.l1 (1/100)], .fullyConnected 1 .relu []]
/-- A regression with 2 training examples. -/
def data : Data ℚ := (Data.make1 .regression [[1, 0], [2, 1]] [[1], [0]] .nonTemporal 0).get (by decide +kernel)
/-- The network; its neurons have different weights. -/
def net : Snn ℚ × Draws ℚ := (Snn.make arch Demo.sgd Demo.draws).get (by decide +kernel)
/-- A training, an evaluation and a prediction. -/
def calls : List (Call ℚ) := [.train Demo.env data (litEp 1) 1 1 50, .evaluate Demo.env data, .computeOutput [1, 2] true]

example : ∃ u v : Run ℚ, calls.foldlM Call.run (Demo.run net.1 data) = .ok u ∧
    calls.foldlM Call.run (Demo.run { net.1 with net := { net.1.net with layers := reorderHidden [2, 0, 1] 1 net.1.net.layers } } data) = .ok v ∧
    reports v = reports u ∧ reports u ≠ [] ∧
    u.snn.net.layers.map (fun l => l.body.weights) ≠ v.snn.net.layers.map (fun l => l.body.weights) ∧
    u.snn.net.layers.map (fun l => l.body.weights) ≠ net.1.net.layers.map (fun l => l.body.weights) := by
  have g1 : GoodShape [1] := ⟨by simp, by simp, by simp⟩
  have g2 : GoodShape [2] := ⟨by simp, by simp, by simp⟩
  have g3 : GoodShape [3] := ⟨by simp, by simp, by simp⟩
  have hc : Chain (F := ℚ) ([.fullyConnected 2 .identity []] ++ .recurrence 3 .identity [.l1 (1/100)] :: .fullyConnected 1 .relu [] :: []) [2] [1] :=
    .cons g2 (Fits.fullyConnected (n := 2) (by omega)) (.cons g2 (Fits.recurrence (n := 3) (by omega)) (.cons g3 (Fits.fullyConnected (n := 1) (by omega)) (.nil g1)))
  have hmk : Snn.make arch Demo.sgd Demo.draws = .ok (net.1, net.2) := Res.eq_get _ _
  have h := C115_hidden_order (F := ℚ) (m := 3) hc (by simp) ⟨[.l1 (1/100)], by simp [SameForAll], Or.inr (Or.inl ⟨_, rfl⟩)⟩ (Or.inl ⟨_, _, _, rfl⟩) hmk (p := [2, 0, 1]) (by decide)
    (calls := calls)
    (by
      intro c hc
      simp only [calls, List.mem_cons, List.not_mem_nil, or_false] at hc
      rcases hc with rfl | rfl | rfl
      · exact ⟨by decide +kernel, by decide +kernel, by decide +kernel⟩
      · exact ⟨by decide +kernel, by decide +kernel, by decide +kernel⟩
      · rfl) data Demo.draws 0 []
  have h1 := Res.eq_get (calls.foldlM Call.run (Demo.run net.1 data)) (by decide +kernel)
  have h1' := h1
  unfold Demo.run at h1'
  rw [h1'] at h
  obtain ⟨v, hv, k1, _, _, _, _, _, k2⟩ := h.ok_left
  refine ⟨_, v, h1, hv, k1, by decide +kernel, ?_, by decide +kernel⟩
  rw [k2]
  decide +kernel

end Snn.HiddenProps
