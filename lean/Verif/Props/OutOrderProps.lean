import Verif.Proofs.OutNet
import Verif.Proofs.StatProofs
import Verif.Basic.RatFlt
import Verif.Demo.Demo

/-!
# C116: the order of the outputs does not matter
-/

set_option linter.all false

namespace Snn.OutOrderProps

open Snn.Spec Snn.HistoryProps Snn.OutSim Snn.Reorder

section
variable {F : Type} [Field F] [LinearOrder F] [IsStrictOrderedRing F] [FTrans F]

/-- **C116** (exact arithmetic). Let the architecture be well formed and end with m neurons (fully connected, recurrent or gated; L1, L2 and error multiplier allowed),
and let p be any order of the m outputs. Take the network, and the same network with the neurons of the last layer in the order p. Give the first any history
of calls on data for regression or multiple classification, and the second the same calls on the same data with the expected outputs in the order p. Either both histories fail in the same way, or: the evaluations
report the same rates, errors and flags (and the counters of the outputs in the order p), the two objects have the same scores, flags and draws, the answers of the second to every input are those of the first in the order p,
and so are the learned neurons. -/
theorem C116_output_order {pre : List (LayerModel F)} {a : LayerModel F} {s s' : List Nat} {m : Nat} (hc : Chain (pre ++ [a]) s s')
    (hcount : (pre ++ [a]).length ≤ 999) (ha : LayerOf m a) {opt : Sgd F} {d d' : Draws F} {snn : Snn F}
    (hmk : Snn.make (.input (s.map (fun v : Nat => (v : Int))) :: (pre ++ [a])) opt d = .ok (snn, d')) {p : List Nat} (hp : p.Perm (List.range m))
    {calls : List (Call F)} (hcalls : ∀ c ∈ calls, OutCall s.prod m c) (data : Data F) (draws : Draws F) (ticks : Nat) :
    Res.Rel (fun u v => reports v = (reports u).map (fun r => (r.1, statsInOrder p r.2)) ∧ v.draws = u.draws ∧ v.snn = { u.snn with net := v.snn.net } ∧
        v.snn.net.stats = statsInOrder p u.snn.net.stats ∧ v.snn.net.outputNan = u.snn.net.outputNan ∧
        (∀ x t, x.length = s.prod → Res.Rel (fun y z => z.1 = inOrder p y.1 ∧ y.1.length = m) (u.snn.computeOutput x t) (v.snn.computeOutput x t)) ∧
        v.snn.net.layers = lastInOrder p u.snn.net.layers)
      (calls.foldlM Call.run ⟨snn, data, draws, ticks, []⟩)
      ((calls.map (callInOrder p)).foldlM Call.run ⟨{ snn with net := { snn.net with layers := lastInOrder p snn.net.layers } }, data, draws, ticks, []⟩) := by
  have h0 := out_start hp ha hc hcount hmk
  have hs := netSim_out (F := F) hp s.prod
  have h := history_sim hs hcalls (a := ⟨snn, data, draws, ticks, []⟩)
    (b := ⟨{ snn with net := { snn.net with layers := lastInOrder p snn.net.layers } }, data, draws, ticks, []⟩) ⟨_, rfl, h0⟩ rfl rfl rfl
  revert h
  generalize (calls.foldlM Call.run (⟨snn, data, draws, ticks, []⟩ : Run F)) = A
  generalize ((calls.map (callInOrder p)).foldlM Call.run (⟨{ snn with net := { snn.net with layers := lastInOrder p snn.net.layers } }, data, draws, ticks, []⟩ : Run F)) = B
  cases A <;> cases B <;> simp only [Res.Rel] <;> try exact id
  rename_i u v
  rintro ⟨⟨n, hv, hn⟩, h1, h2, h3⟩
  refine ⟨h3, h1, by rw [hv], by rw [hv]; exact (hs.stats _ _ hn).1, by rw [hv]; exact hs.nan _ _ hn, ?_, ?_⟩
  · intro x t hx
    rw [hv]
    unfold Snn.computeOutput
    refine Res.Rel.bind (hs.out _ _ _ t hn hx) ?_
    rintro ⟨y, q⟩ ⟨y', q'⟩ ⟨hy, hl, _⟩
    exact ⟨hy, hl⟩
  · rw [hv]
    obtain ⟨ls', st', hl, _, rfl⟩ := hn
    exact layers_out hl

/-- The largest of the values is at one position only. -/
def Untied (y : List F) : Prop := ∀ i j, i < y.length → j < y.length → (∀ z ∈ y, z ≤ y.getD i 0) → (∀ z ∈ y, z ≤ y.getD j 0) → i = j

/-- The classes of the answers in the order p. -/
theorem argmax_inOrder {p : List Nat} {m : Nat} (hp : p.Perm (List.range m)) {y : List F} (hy : y.length = m) (hu : Untied y) :
    (argmaxLoop y = -1 ∧ argmaxLoop (inOrder p y) = -1) ∨ ∃ i k : Nat, argmaxLoop y = k ∧ argmaxLoop (inOrder p y) = i ∧ p[i]? = some k := by
  have hperm : (inOrder p y).Perm y := inOrder_eq hp hy
  by_cases h : ∃ x ∈ y, -2 < x
  · right
    have h' : ∃ x ∈ inOrder p y, -2 < x := by
      obtain ⟨x, hx, hx'⟩ := h
      exact ⟨x, hperm.mem_iff.2 hx, hx'⟩
    obtain ⟨k, hk, v, hv, hv2, _⟩ := StatSpec.argmaxLoop_spec h
    obtain ⟨i, hi, w, hw, hw2, _⟩ := StatSpec.argmaxLoop_spec h'
    refine ⟨i, k, hk, hi, ?_⟩
    have hil : i < p.length := by
      have := (List.getElem?_eq_some_iff.1 hw).1
      rwa [inOrder_length] at this
    have hpi : p[i]? = some p[i] := List.getElem?_eq_getElem hil
    rw [hpi]
    have hlt : p[i] < m := by
      have := hp.mem_iff.1 (List.getElem_mem hil)
      simpa using this
    have e1 : w = y.getD p[i] 0 := by
      unfold inOrder at hw
      rw [List.getElem?_map, hpi] at hw
      simpa using hw.symm
    have e2 : v = y.getD k 0 := by
      rw [List.getD_eq_getElem?_getD, hv]; rfl
    congr 1
    refine hu _ _ (by omega) (List.getElem?_eq_some_iff.1 hv).1 ?_ ?_
    · intro z hz
      rw [← e1]
      exact hw2 z (hperm.mem_iff.2 hz)
    · intro z hz
      rw [← e2]
      exact hv2 z hz
  · left
    refine ⟨StatSpec.argmaxLoop_floor h, StatSpec.argmaxLoop_floor ?_⟩
    rintro ⟨x, hx, hx'⟩
    exact h ⟨x, hperm.mem_iff.1 hx, hx'⟩

/-- **C116**, the classes: after the histories of `C116_output_order`, when the largest answer of the first network is reached by one output only, the class that the
second network predicts is the position in the order p of the class that the first predicts (−1, when no answer is above −2, is the same for both). -/
theorem C116_class {pre : List (LayerModel F)} {a : LayerModel F} {s s' : List Nat} {m : Nat} (hc : Chain (pre ++ [a]) s s')
    (hcount : (pre ++ [a]).length ≤ 999) (ha : LayerOf m a) {opt : Sgd F} {d d' : Draws F} {snn : Snn F}
    (hmk : Snn.make (.input (s.map (fun v : Nat => (v : Int))) :: (pre ++ [a])) opt d = .ok (snn, d')) {p : List Nat} (hp : p.Perm (List.range m))
    {calls : List (Call F)} (hcalls : ∀ c ∈ calls, OutCall s.prod m c) (data : Data F) (draws : Draws F) (ticks : Nat) {u : Run F}
    (hrun : calls.foldlM Call.run ⟨snn, data, draws, ticks, []⟩ = .ok u) :
    ∃ v, (calls.map (callInOrder p)).foldlM Call.run ⟨{ snn with net := { snn.net with layers := lastInOrder p snn.net.layers } }, data, draws, ticks, []⟩ = .ok v ∧
      ∀ {x : List F} {t : Bool} {y : List F} {u1 u2 : Snn F} {k : Int}, x.length = s.prod → u.snn.computeOutput x t = .ok (y, u1) →
        u.snn.computeCluster x t = .ok (k, u2) → Untied y →
        ∃ (k' : Int) (v2 : Snn F), v.snn.computeCluster x t = .ok (k', v2) ∧
          ((k = -1 ∧ k' = -1) ∨ ∃ i j : Nat, k = j ∧ k' = i ∧ p[i]? = some j) := by
  have h := C116_output_order hc hcount ha hmk hp hcalls data draws ticks
  rw [hrun] at h
  obtain ⟨v, hv, _, _, _, _, _, hout, _⟩ := h.ok_left
  refine ⟨v, hv, ?_⟩
  intro x t y u1 u2 k hx h1 h2 hu
  have h3 := hout x t hx
  rw [h1] at h3
  obtain ⟨⟨z, v1⟩, hz, hzy, hy⟩ := h3.ok_left
  dsimp only at hzy hy
  subst hzy
  unfold Snn.computeOutput at h1 hz
  obtain ⟨⟨o, n1⟩, g1, h1⟩ := Res.bind_eq_ok.1 h1
  obtain ⟨⟨o', n2⟩, g2, hz⟩ := Res.bind_eq_ok.1 hz
  cases h1
  cases hz
  unfold Snn.computeCluster at h2 ⊢
  rw [g1, Res.ok_bind] at h2
  rw [g2, Res.ok_bind]
  cases h2
  refine ⟨_, _, rfl, ?_⟩
  rcases argmax_inOrder hp hy hu with h | ⟨i, j, a1, a2, a3⟩
  · exact Or.inl h
  · exact Or.inr ⟨i, j, a1, a2, a3⟩

end

/-! ### The hypotheses are met -/

/-- A hidden layer of 3 neurons with dropout, and 2 outputs with L2 regularization. -/
def arch : List (LayerModel ℚ) := [.input [2], .fullyConnected 3 .relu [.dropout (1/2)], .fullyConnected 2 .identity [.l2 (1/100)]]
/-- The network. -/
def net : Snn ℚ × Draws ℚ := (Snn.make arch Demo.sgd Demo.draws).get (by decide +kernel)
/-- A training of an epoch in batches of 2, an evaluation and a prediction. -/
def calls : List (Call ℚ) := [.train Demo.env Demo.regression (litEp 1) 2 1 50, .evaluate Demo.env Demo.regression, .computeOutput [1, 2] true]

example : ∃ u v : Run ℚ, calls.foldlM Call.run (Demo.run net.1 Demo.regression) = .ok u ∧
    (calls.map (callInOrder [1, 0])).foldlM Call.run
      (Demo.run { net.1 with net := { net.1.net with layers := lastInOrder [1, 0] net.1.net.layers } } Demo.regression) = .ok v ∧
    reports v = (reports u).map (fun r => (r.1, statsInOrder [1, 0] r.2)) ∧ reports u ≠ [] ∧ reports v ≠ reports u ∧
    v.snn.net.layers = lastInOrder [1, 0] u.snn.net.layers ∧ u.snn.net.layers ≠ v.snn.net.layers ∧
    u.snn.net.layers.map (fun l => l.body.weights) ≠ net.1.net.layers.map (fun l => l.body.weights) := by
  have g2 : GoodShape [2] := ⟨by simp, by simp, by simp⟩
  have g3 : GoodShape [3] := ⟨by simp, by simp, by simp⟩
  have hc : Chain (F := ℚ) ([.fullyConnected 3 .relu [.dropout (1/2)]] ++ [.fullyConnected 2 .identity [.l2 (1/100)]]) [2] [2] :=
    .cons g2 (Fits.fullyConnected (n := 3) (by omega)) (.cons g3 (Fits.fullyConnected (n := 2) (by omega)) (.nil g2))
  have hmk : Snn.make arch Demo.sgd Demo.draws = .ok (net.1, net.2) := Res.eq_get _ _
  have hd : OutData 2 2 Demo.regression :=
    ⟨by decide +kernel, by decide +kernel, by decide +kernel, by decide +kernel, by decide +kernel, by decide +kernel, by decide +kernel⟩
  have h := C116_output_order (F := ℚ) (m := 2) hc (by simp) ⟨[.l2 (1/100)], by simp [SameForAll], Or.inl ⟨_, rfl⟩⟩ hmk (p := [1, 0]) (by decide)
    (calls := calls)
    (by
      intro c hc
      simp only [calls, List.mem_cons, List.not_mem_nil, or_false] at hc
      rcases hc with rfl | rfl | rfl
      · exact hd
      · exact hd
      · rfl) Demo.regression Demo.draws 0
  have h1 := Res.eq_get (calls.foldlM Call.run (Demo.run net.1 Demo.regression)) (by decide +kernel)
  have h1' := h1
  unfold Demo.run at h1'
  rw [h1'] at h
  obtain ⟨v, hv, k1, _, _, _, _, _, k2⟩ := h.ok_left
  refine ⟨_, v, h1, hv, k1, by decide +kernel, ?_, k2, ?_, by decide +kernel⟩
  · rw [k1]
    decide +kernel
  · rw [k2]
    decide +kernel

theorem demo_chain : Chain (F := ℚ) ([.fullyConnected 3 .relu [.dropout (1/2)]] ++ [.fullyConnected 2 .identity [.l2 (1/100)]]) [2] [2] :=
  .cons ⟨by simp, by simp, by simp⟩ (Fits.fullyConnected (n := 3) (by omega)) (.cons ⟨by simp, by simp, by simp⟩ (Fits.fullyConnected (n := 2) (by omega))
    (.nil ⟨by simp, by simp, by simp⟩))

/-- The class of an answer of the trained network becomes the other one. -/
example : ∃ (u v : Run ℚ) (y : List ℚ) (u1 u2 v2 : Snn ℚ) (k k' : Int),
    calls.foldlM Call.run (Demo.run net.1 Demo.regression) = .ok u ∧ u.snn.computeOutput [1, 2] true = .ok (y, u1) ∧ Untied y ∧
    (calls.map (callInOrder [1, 0])).foldlM Call.run
      (Demo.run { net.1 with net := { net.1.net with layers := lastInOrder [1, 0] net.1.net.layers } } Demo.regression) = .ok v ∧
    u.snn.computeCluster [1, 2] true = .ok (k, u2) ∧ v.snn.computeCluster [1, 2] true = .ok (k', v2) ∧ 0 ≤ k ∧ k' = 1 - k := by
  have hd : OutData 2 2 Demo.regression :=
    ⟨by decide +kernel, by decide +kernel, by decide +kernel, by decide +kernel, by decide +kernel, by decide +kernel, by decide +kernel⟩
  have h1 := Res.eq_get (calls.foldlM Call.run (Demo.run net.1 Demo.regression)) (by decide +kernel)
  obtain ⟨v, hv, h⟩ := C116_class (F := ℚ) (m := 2) demo_chain (by simp) ⟨[.l2 (1/100)], by simp [SameForAll], Or.inl ⟨_, rfl⟩⟩
    (Res.eq_get (Snn.make arch Demo.sgd Demo.draws) (by decide +kernel)) (p := [1, 0]) (by decide) (calls := calls)
    (by
      intro c hc
      simp only [calls, List.mem_cons, List.not_mem_nil, or_false] at hc
      rcases hc with rfl | rfl | rfl
      · exact hd
      · exact hd
      · rfl) Demo.regression Demo.draws 0 h1
  have ha := Res.eq_get (((calls.foldlM Call.run (Demo.run net.1 Demo.regression)).get (by decide +kernel)).snn.computeOutput [1, 2] true) (by decide +kernel)
  have hb := Res.eq_get (((calls.foldlM Call.run (Demo.run net.1 Demo.regression)).get (by decide +kernel)).snn.computeCluster [1, 2] true) (by decide +kernel)
  have hu : Untied ((((calls.foldlM Call.run (Demo.run net.1 Demo.regression)).get (by decide +kernel)).snn.computeOutput [1, 2] true).get (by decide +kernel)).1 := by
    have hl : ((((calls.foldlM Call.run (Demo.run net.1 Demo.regression)).get (by decide +kernel)).snn.computeOutput [1, 2] true).get (by decide +kernel)).1.length = 2 := by
      decide +kernel
    have key : ∀ i < 2, ∀ j < 2,
        (∀ z ∈ ((((calls.foldlM Call.run (Demo.run net.1 Demo.regression)).get (by decide +kernel)).snn.computeOutput [1, 2] true).get (by decide +kernel)).1,
          z ≤ ((((calls.foldlM Call.run (Demo.run net.1 Demo.regression)).get (by decide +kernel)).snn.computeOutput [1, 2] true).get (by decide +kernel)).1.getD i 0) →
        (∀ z ∈ ((((calls.foldlM Call.run (Demo.run net.1 Demo.regression)).get (by decide +kernel)).snn.computeOutput [1, 2] true).get (by decide +kernel)).1,
          z ≤ ((((calls.foldlM Call.run (Demo.run net.1 Demo.regression)).get (by decide +kernel)).snn.computeOutput [1, 2] true).get (by decide +kernel)).1.getD j 0) →
        i = j := by decide +kernel
    intro i j hi hj
    rw [hl] at hi hj
    exact key i hi j hj
  obtain ⟨k', v2, hk, hcase⟩ := h (x := [1, 2]) rfl ha hb hu
  have hk0 : (0 : Int) ≤ ((((calls.foldlM Call.run (Demo.run net.1 Demo.regression)).get (by decide +kernel)).snn.computeCluster [1, 2] true).get (by decide +kernel)).1 := by
    decide +kernel
  refine ⟨_, v, _, _, _, v2, _, k', h1, ha, hu, hv, hb, hk, hk0, ?_⟩
  rcases hcase with ⟨a1, _⟩ | ⟨i, j, a1, a2, a3⟩
  · exact absurd (hk0.trans_eq a1) (by decide)
  · rw [a1, a2]
    match i, a3 with
    | 0, a3 => simp at a3; omega
    | 1, a3 => simp at a3; omega
    | i + 2, a3 => simp at a3

/-- Two outputs that are always equal. -/
def equalNet : Snn ℚ × Draws ℚ := (Snn.make [.input [1], .fullyConnected 2 .identity []] Demo.sgd (fun _ => 1/2)).get (by decide +kernel)

/-- The class is the exception: between equal outputs `computeCluster` takes the first, so that after the outputs 0 and 1 are exchanged the predicted class is
still 0, and not 1. -/
theorem C116_ties : ∃ (snn : Snn ℚ) (d' : Draws ℚ) (x : List ℚ) (a b : Snn ℚ),
    Snn.make [.input [1], .fullyConnected 2 .identity []] Demo.sgd (fun _ => 1/2) = .ok (snn, d') ∧
    snn.computeCluster x true = .ok (0, a) ∧
    Snn.computeCluster { snn with net := { snn.net with layers := lastInOrder [1, 0] snn.net.layers } } x true = .ok (0, b) := by
  have h1 : ∃ a, equalNet.1.computeCluster [1] true = .ok (0, a) :=
    ⟨((equalNet.1.computeCluster [1] true).get (by decide +kernel)).2, by decide +kernel⟩
  have h2 : ∃ b, Snn.computeCluster { equalNet.1 with net := { equalNet.1.net with layers := lastInOrder [1, 0] equalNet.1.net.layers } } [1] true = .ok (0, b) :=
    ⟨((Snn.computeCluster { equalNet.1 with net := { equalNet.1.net with layers := lastInOrder [1, 0] equalNet.1.net.layers } } [1] true).get (by decide +kernel)).2,
      by decide +kernel⟩
  obtain ⟨a, ha⟩ := h1
  obtain ⟨b, hb⟩ := h2
  exact ⟨equalNet.1, equalNet.2, [1], a, b, Res.eq_get _ _, ha, hb⟩

end Snn.OutOrderProps
