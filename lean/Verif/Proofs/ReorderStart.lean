import Verif.Proofs.ReorderProofs
import Verif.Props.SafeProps

/-! # A new network and the same with its input weights in another order -/

set_option linter.all false

namespace Snn.Reorder

open Snn.Spec

section
variable {F : Type} [Flt F] [FTrans F] [Add F] [Sub F] [Mul F] [Div F] [Neg F]

theorem front_replicate {p : List Nat} {k : Nat} (hp : p.Perm (List.range k)) {m : Nat} (hm : k ≤ m) :
    frontInOrder p (List.replicate m (lit 0 : F)) = List.replicate m (lit 0) := by
  unfold frontInOrder
  rw [inOrder_replicate hp, len_of_perm hp, List.drop_replicate, List.replicate_append_replicate]
  congr 1; omega

theorem make_start {p : List Nat} {k : Nat} (hp : p.Perm (List.range k)) {m : NeuronModel F} {o : Sgd F} {d : Nat → F} {n : Neuron F} (h : Neuron.make m o d = .ok n)
    (h1 : m.numberOfInputs = k) (h2 : k ≤ m.numberOfWeights.toNat) (hb : m.batchSize = 1) :
    n.WF k m.numberOfWeights.toNat 1 ∧ reorder p n = { n with weights := frontInOrder p n.weights } := by
  have hw := (Neuron.make_wf h (by omega)).1
  rw [h1, hb] at hw
  refine ⟨by simpa using hw, ?_⟩
  unfold Neuron.make at h
  split at h
  · cases h
  split at h
  · cases h
  rename_i g1 g2
  obtain ⟨last, hl, h⟩ := Res.bind_eq_ok.1 h
  have i1 : Circ.init (F := F) m.batchSize m.numberOfInputs = .ok { queue := List.replicate 1 (List.replicate k (lit 0)), indexPush := 0, indexGet := 0 } := by
    rw [hb, h1]; exact Circ.init_ok 1 k
  have i2 : Circ.init (F := F) m.batchSize m.numberOfWeights
      = .ok { queue := List.replicate 1 (List.replicate m.numberOfWeights.toNat (lit 0)), indexPush := 0, indexGet := 0 } := by
    have := Circ.init_ok (F := F) 1 m.numberOfWeights.toNat
    rw [hb]
    rwa [Int.toNat_of_nonneg (by omega)] at this
  rw [i1, i2] at h
  simp only [Res.ok_bind, Res.pure_eq, Res.ok.injEq] at h
  subst h
  unfold reorder mapq
  simp only [List.map_replicate, inOrder_replicate (F := F) hp, front_replicate (F := F) hp h2, h1, Int.toNat_natCast]

theorem recMake_start {p : List Nat} {k : Nat} (hp : p.Perm (List.range k)) {m : NeuronModel F} {o : Sgd F} {d : Nat → F} {n : RecNeuron F} (h : RecNeuron.make m o d = .ok n)
    (h1 : m.numberOfInputs = k) (h2 : m.numberOfWeights = k + 2) (hb : m.batchSize = 1) :
    n.WF k 1 ∧ reorderRec p n = { n with base := { n.base with weights := frontInOrder p n.base.weights } } := by
  obtain ⟨b, hb', h⟩ := Res.bind_eq_ok.1 h
  cases h
  obtain ⟨g1, g2⟩ := make_start hp hb' h1 (by omega) hb
  have hk : m.numberOfWeights.toNat = k + 2 := by omega
  rw [hk] at g1
  refine ⟨g1, ?_⟩
  unfold reorderRec
  dsimp only
  rw [g2]

theorem gruMake_start {p : List Nat} {k : Nat} (hp : p.Perm (List.range k)) (hk : 0 < k) {m : NeuronModel F} {o : Sgd F} {d : Nat → F} {n : Gru F} (h : Gru.make m o d = .ok n)
    (h1 : m.numberOfInputs = k) (h2 : m.numberOfWeights = k + 2) (hb : m.batchSize = 1) :
    n.WF k 1 ∧ n.previousOutput = lit 0 ∧ n.errors = [] ∧
      reorderRec p n.resetGate = { n.resetGate with base := { n.resetGate.base with weights := frontInOrder p n.resetGate.base.weights } } ∧
      reorderRec p n.updateGate = { n.updateGate with base := { n.updateGate.base with weights := frontInOrder p n.updateGate.base.weights } } ∧
      reorderRec p n.outputGate = { n.outputGate with base := { n.outputGate.base with weights := frontInOrder p n.outputGate.base.weights } } := by
  obtain ⟨r, hr, h⟩ := Res.bind_eq_ok.1 h
  obtain ⟨u, hu, h⟩ := Res.bind_eq_ok.1 h
  obtain ⟨o', ho, h⟩ := Res.bind_eq_ok.1 h
  cases h
  obtain ⟨a1, a2⟩ := recMake_start hp hr h1 h2 hb
  obtain ⟨b1, b2⟩ := recMake_start hp hu h1 h2 hb
  obtain ⟨c1, c2⟩ := recMake_start hp ho h1 h2 hb
  exact ⟨⟨h1, a1, b1, c1⟩, rfl, rfl, a2, b2, c2⟩

end

section
variable {F : Type} [Field F] [LinearOrder F] [IsStrictOrderedRing F] [FTrans F]

/-- The first layer of neurons, and the same with its input weights in the order p. -/
def LayerStart (p : List Nat) (k : Nat) (l : Layer F) : Prop := FirstOK k l ∧
  ∀ (n : Net F) ls, n.layers = l :: ls → reorderFeatures p n = { n with layers := reorderLayer p l :: ls }

theorem simple_inv {N : Type} {mk : NeuronModel F → Draws F → Res N} {g : Nat} {wrap : List N → Body F} {k : Nat} {e nn : Int} {act : Act}
    {opts : List (LayerOptModel F)} {d d' : Draws F} {l : Layer F} (h : buildSimple mk g wrap (k : Int) e nn act opts d = .ok (l, d')) {P : N → Prop}
    (hP : ∀ (m : NeuronModel F) d n, m.numberOfInputs = k → m.numberOfWeights = k + e → m.batchSize = 1 → mk m d = .ok n → P n) :
    ∃ os ns, l = ⟨k, os, wrap ns⟩ ∧ ∀ n ∈ ns, P n := by
  unfold buildSimple at h
  obtain ⟨nw, h1, h⟩ := Res.bind_eq_ok.1 h
  obtain ⟨⟨ns, d1⟩, h2, h⟩ := Res.bind_eq_ok.1 h
  cases h
  have hnw : nw = k + e := by
    unfold addI ckInt at h1
    split at h1
    · cases h1; rfl
    · cases h1
  exact ⟨_, ns, rfl, (makeAllNeurons_inv (fun d n hn => hP _ d n rfl hnw rfl hn) h2).2⟩

theorem full_start {p : List Nat} {k : Nat} (hp : p.Perm (List.range k)) {opt : Sgd F} {nn : Int} {act : Act} {opts : List (LayerOptModel F)} {d d' : Draws F} {l : Layer F}
    (h : buildSimple (fun m d => Neuron.make m opt d) 1 .fullyConnected (k : Int) 1 nn act opts d = .ok (l, d')) : LayerStart p k l := by
  obtain ⟨os, ns, rfl, hn⟩ := simple_inv (P := fun n : Neuron F => n.WF k (k + 1) 1 ∧ reorder p n = { n with weights := frontInOrder p n.weights }) h
    (fun m d n h1 h2 h3 hm => by
      obtain ⟨a, b⟩ := make_start hp hm h1 (by omega) h3
      have : m.numberOfWeights.toNat = k + 1 := by omega
      rw [this] at a
      exact ⟨a, b⟩)
  refine ⟨fun n hn' => (hn n hn').1, ?_⟩
  intro n ls hl
  unfold reorderFeatures
  rw [hl]
  unfold reorderLayer reorderBody
  dsimp only
  have : ns.map (reorder p) = ns.map fun n => { n with weights := frontInOrder p n.weights } := List.map_congr_left fun n hn' => (hn n hn').2
  rw [this]

theorem rec_start {p : List Nat} {k : Nat} (hp : p.Perm (List.range k)) {opt : Sgd F} {nn : Int} {act : Act} {opts : List (LayerOptModel F)} {d d' : Draws F} {l : Layer F}
    (h : buildSimple (fun m d => RecNeuron.make m opt d) 1 .recurrence (k : Int) 2 nn act opts d = .ok (l, d')) : LayerStart p k l := by
  obtain ⟨os, ns, rfl, hn⟩ := simple_inv (P := fun n : RecNeuron F => n.WF k 1 ∧ reorderRec p n = { n with base := { n.base with weights := frontInOrder p n.base.weights } }) h
    (fun m d n h1 h2 h3 hm => recMake_start hp hm h1 h2 h3)
  refine ⟨fun n hn' => (hn n hn').1, ?_⟩
  intro n ls hl
  unfold reorderFeatures
  rw [hl]
  unfold reorderLayer reorderBody
  dsimp only
  have : ns.map (reorderRec p) = ns.map fun n => { n with base := { n.base with weights := frontInOrder p n.base.weights } } := List.map_congr_left fun n hn' => (hn n hn').2
  rw [this]

theorem gru_start {p : List Nat} {k : Nat} (hp : p.Perm (List.range k)) (hk : 0 < k) {opt : Sgd F} {nn : Int} {act : Act} {opts : List (LayerOptModel F)} {d d' : Draws F}
    {l : Layer F} (h : buildSimple (fun m d => Gru.make m opt d) 3 .gru (k : Int) 2 nn act opts d = .ok (l, d')) : LayerStart p k l := by
  obtain ⟨os, ns, rfl, hn⟩ := simple_inv (P := fun n : Gru F => n.WF k 1 ∧ n.previousOutput = lit 0 ∧ n.errors = [] ∧
      reorderRec p n.resetGate = { n.resetGate with base := { n.resetGate.base with weights := frontInOrder p n.resetGate.base.weights } } ∧
      reorderRec p n.updateGate = { n.updateGate with base := { n.updateGate.base with weights := frontInOrder p n.updateGate.base.weights } } ∧
      reorderRec p n.outputGate = { n.outputGate with base := { n.outputGate.base with weights := frontInOrder p n.outputGate.base.weights } }) h
    (fun m d n h1 h2 h3 hm => gruMake_start hp hk hm h1 h2 h3)
  refine ⟨fun n hn' => ⟨(hn n hn').1, (hn n hn').2.1, hk⟩, ?_⟩
  intro n ls hl
  unfold reorderFeatures
  rw [hl]
  unfold reorderLayer reorderBody
  dsimp only
  have : ns.map (reorderGru p) = ns.map fun n => { n with
      resetGate := { n.resetGate with base := { n.resetGate.base with weights := frontInOrder p n.resetGate.base.weights } }
      updateGate := { n.updateGate with base := { n.updateGate.base with weights := frontInOrder p n.updateGate.base.weights } }
      outputGate := { n.outputGate with base := { n.outputGate.base with weights := frontInOrder p n.outputGate.base.weights } } } := by
    refine List.map_congr_left fun n hn' => ?_
    obtain ⟨_, _, a0, a1, a2, a3⟩ := hn n hn'
    obtain ⟨er, ni, po, re, ug, og, r, u, o⟩ := n
    dsimp only at a0 a1 a2 a3
    subst a0
    unfold reorderGru
    dsimp only
    rw [a1, a2, a3]
    rfl
  rw [this]

/-- The first layer of a new network, when it is made of neurons. -/
theorem net_start {p : List Nat} {s s' : List Nat} {m : LayerModel F} {rest : List (LayerModel F)} (hp : p.Perm (List.range s.prod)) (hc : Chain (m :: rest) s s')
    (hm : (∃ n act opts, m = .fullyConnected n act opts) ∨ (∃ n act opts, m = .recurrence n act opts) ∨ (∃ n opts, m = .gru n opts))
    (hcount : rest.length ≤ 998) {opt : Sgd F} {d d' : Draws F} {snn : Snn F}
    (h : Snn.make (.input (s.map (fun v : Nat => (v : Int))) :: m :: rest) opt d = .ok (snn, d')) :
    NetRe p s.prod snn.net (reorderFeatures p snn.net) := by
  obtain ⟨⟨net, d1⟩, h1, hmk⟩ := Res.bind_eq_ok.1 h
  obtain ⟨err, h2, hmk⟩ := Res.bind_eq_ok.1 hmk
  split at hmk
  · cases hmk
  cases hmk
  obtain ⟨⟨ls, d2⟩, h3, h1⟩ := Res.bind_eq_ok.1 h1
  obtain ⟨last, h4, h1⟩ := Res.bind_eq_ok.1 h1
  cases h1
  unfold LayerFactory.build at h3
  rw [if_neg (by simp; omega)] at h3
  simp only at h3
  rw [if_neg (by simp), computeNumberOfInputs_ok (chain_good hc)] at h3
  simp only [Res.ok_bind] at h3
  rw [if_neg (by have := (chain_good hc).small; omega)] at h3
  unfold buildLayers at h3
  obtain ⟨⟨l, d3⟩, k1, h3⟩ := Res.bind_eq_ok.1 h3
  obtain ⟨⟨ls1, d4⟩, k2, h3⟩ := Res.bind_eq_ok.1 h3
  cases h3
  have hg := chain_good hc
  have hpos : 0 < s.prod := List.prod_pos hg.pos
  rw [buildLayer_start hg] at k1
  have hl : LayerStart p s.prod l := by
    rcases hm with ⟨n, act, opts, rfl⟩ | ⟨n, act, opts, rfl⟩ | ⟨n, opts, rfl⟩
    · exact full_start hp k1
    · exact rec_start hp k1
    · exact gru_start hp hpos k1
  exact ⟨l, ls1, rfl, hl.1, hl.2 _ _ rfl⟩

end

end Snn.Reorder
