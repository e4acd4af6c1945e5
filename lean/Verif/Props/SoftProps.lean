import Verif.Proofs.SoftProofs
import Verif.Props.GradProps

/-!
# C86: a network that ends with Softmax descends the cross-entropy
-/

set_option linter.all false

namespace Snn.SoftProps

open Finset Snn.Spec Snn.Grad Snn.HistoryProps Snn.SafeProps
open Snn.GradProps (kp_input kp_bias)

/-- What holds of the networks of these theorems. -/
structure Reached (o : Sgd ℝ) (ni no : Nat) (n : Net ℝ) : Prop where
  wf : n.WF ni no
  pos : 0 < no
  soft : SoftLs true n.layers
  opt : ∀ l ∈ n.layers, l.body.HasOpt o
  nan : n.outputNan = false

theorem chain_pos {ms : List (LayerModel ℝ)} {s s' : List Nat} (h : Chain ms s s') : 0 < s'.prod := by
  induction h with
  | nil h => exact List.prod_pos h.pos
  | cons _ _ _ ih => exact ih

theorem make_reached {arch : List (LayerModel ℝ)} {s s' : List Nat} (h : SoftArch arch s s') {opt : Sgd ℝ} {d d' : Draws ℝ} {snn : Snn ℝ}
    (hm : Snn.make arch opt d = .ok (snn, d')) : Reached opt s.prod s'.prod snn.net ∧ ∀ l ∈ snn.net.layers, Fresh l := by
  obtain ⟨hn, hi⟩ := make_safe h.wellFormed h.ends hm
  obtain ⟨⟨net, d1⟩, h1, hm⟩ := Res.bind_eq_ok.1 hm
  obtain ⟨err, h2, hm⟩ := Res.bind_eq_ok.1 hm
  split at hm
  · cases hm
  cases hm
  have hset := Net.make_set h1
  obtain ⟨⟨ls, d2⟩, h3, h1⟩ := Res.bind_eq_ok.1 h1
  obtain ⟨last, h4, h1⟩ := Res.bind_eq_ok.1 h1
  cases h1
  have hp := h.soft
  obtain ⟨m, rest, rfl, hc⟩ := h.wellFormed.layers
  have hcount := h.wellFormed.count
  unfold LayerFactory.build at h3
  rw [if_neg (by simp at hcount ⊢; omega)] at h3
  simp only at h3
  rw [if_neg (by simp), computeNumberOfInputs_ok (chain_good hc)] at h3
  simp only [Res.ok_bind] at h3
  rw [if_neg (by have := (chain_good hc).small; omega)] at h3
  have hh := buildLayers_soft hc hp h3
  exact ⟨⟨hn.wf, chain_pos hc, hh.1, hset.2.1, rfl⟩, hh.2⟩

theorem history_reached {arch : List (LayerModel ℝ)} {s s' : List Nat} (h : SoftArch arch s s') {opt : Sgd ℝ} {d d' : Draws ℝ} {snn : Snn ℝ}
    (hm : Snn.make arch opt d = .ok (snn, d')) {calls : List (Call ℝ)} (hc : ∀ c ∈ calls, CallFits s.prod s'.prod c) {r r' : Run ℝ} (hr : r.snn = snn)
    (hrun : calls.foldlM Call.run r = .ok r') (hnan : r'.snn.net.outputNan = false) : Reached opt s.prod s'.prod r'.snn.net := by
  have h0 := (make_reached h hm).1
  obtain ⟨hn, hi⟩ := make_safe h.wellFormed h.ends hm
  have hk := history_kin hrun
  rw [hr] at hk
  refine ⟨?_, h0.pos, h0.soft.of_kin hk.layers, forall₂_forall hk.layers h0.opt fun a b hk ha => hk.body.hasOpt ha, hnan⟩
  rw [← hr] at hn hi
  clear hm hr hk h0
  induction calls generalizing r with
  | nil => cases hrun; exact hn.wf
  | cons c cs ih =>
    obtain ⟨r1, h1, h2, h3⟩ := call_safe (hc c (by simp)) hn hi
    rw [List.foldlM_cons, h1] at hrun
    exact ih (fun c' hc' => hc c' (by simp [hc'])) hrun h2 h3

theorem step {o : Sgd ℝ} {ni no : Nat} {n : Net ℝ} (h : Reached o ni no n) {x des : List ℝ} (hx : x.length = ni) (hd : des.length = no)
    (hsum : des.sum = 1) (hk : NoKinks n.layers x) (t : Bool) (d : Draws ℝ) :
    ∃ n', n.trainOnce x des t d = .ok (n', d) ∧ n'.outputNan = false ∧ ∀ j k i, HasW n.layers j k i →
      (∃ g, HasDerivAt (fun v => 2 * crossLoss (Net.withWeight n j k i v) x des) g (Net.weight n j k i) ∧
        Net.weight n' j k i = kp n.layers j k i - o.learningRate * g + o.momentum * mm n.layers j k i) ∧
      mm n'.layers j k i = Net.weight n' j k i - kp n.layers j k i := by
  refine trainOnce_cross h.wf h.pos h.nan h.soft.ends ?_ hx hd hsum t d
  exact smooth_of_plain h.soft.plain (bareLast_wf h.wf.layers) (bareLast_mem (fun l hl => hl) h.opt) hx (bareLast_noKinks h.wf.layers hx hk)

/-- **C86**: for every architecture of fully connected, locally connected and max pooling layers that ends with a fully connected layer
with Softmax, of any depth and widths, after every history of calls, one training step without momentum, on expected outputs whose sum
is 1, changes every weight of every neuron, but the one of its bias, by minus the learning rate times the partial derivative at this
weight of twice the cross-entropy of the outputs. Left out: the weights of the biases, for which it is false (`C86_bias_refuted`); the
layers that `PlainLayer` leaves out; points where the loss has no derivative. Real arithmetic instead of floating-point. -/
theorem C86_cross_entropy_partial {arch : List (LayerModel ℝ)} {s s' : List Nat} (h : SoftArch arch s s') {opt : Sgd ℝ} (hmom : opt.momentum = 0)
    {d d' : Draws ℝ} {snn : Snn ℝ} (hm : Snn.make arch opt d = .ok (snn, d')) {calls : List (Call ℝ)} (hc : ∀ c ∈ calls, CallFits s.prod s'.prod c)
    {r r' : Run ℝ} (hr : r.snn = snn) (hrun : calls.foldlM Call.run r = .ok r') (hnan : r'.snn.net.outputNan = false)
    {x des : List ℝ} (hx : x.length = s.prod) (hd : des.length = s'.prod) (hsum : des.sum = 1) (hk : NoKinks r'.snn.net.layers x) (t : Bool) (dr : Draws ℝ) :
    ∃ n' dr', r'.snn.net.trainOnce x des t dr = .ok (n', dr') ∧ ∀ j k i, HasInputWeight r'.snn.net j k i →
      ∃ g, HasDerivAt (fun v => 2 * crossLoss (Net.withWeight r'.snn.net j k i v) x des) g (Net.weight r'.snn.net j k i) ∧
        Net.weight n' j k i = Net.weight r'.snn.net j k i - opt.learningRate * g := by
  have hreach := history_reached h hm hc hr hrun hnan
  obtain ⟨n', ht, _, hh⟩ := step hreach hx hd hsum hk t dr
  refine ⟨n', dr, ht, ?_⟩
  intro j k i hi
  obtain ⟨e1, e2⟩ := kp_input hi
  obtain ⟨⟨g, a, b⟩, _⟩ := hh j k i e1
  exact ⟨g, a, by rw [b, e2, hmom]; ring⟩

/-- **C86 is false of the weights of the biases**: they are replaced by minus the learning rate times the partial derivative. -/
theorem C86_bias_refuted {arch : List (LayerModel ℝ)} {s s' : List Nat} (h : SoftArch arch s s') {opt : Sgd ℝ} (hmom : opt.momentum = 0)
    {d d' : Draws ℝ} {snn : Snn ℝ} (hm : Snn.make arch opt d = .ok (snn, d')) {calls : List (Call ℝ)} (hc : ∀ c ∈ calls, CallFits s.prod s'.prod c)
    {r r' : Run ℝ} (hr : r.snn = snn) (hrun : calls.foldlM Call.run r = .ok r') (hnan : r'.snn.net.outputNan = false)
    {x des : List ℝ} (hx : x.length = s.prod) (hd : des.length = s'.prod) (hsum : des.sum = 1) (hk : NoKinks r'.snn.net.layers x) (t : Bool) (dr : Draws ℝ) :
    ∃ n' dr', r'.snn.net.trainOnce x des t dr = .ok (n', dr') ∧ ∀ j k i, IsBiasWeight r'.snn.net j k i →
      ∃ g, HasDerivAt (fun v => 2 * crossLoss (Net.withWeight r'.snn.net j k i v) x des) g (Net.weight r'.snn.net j k i) ∧
        Net.weight n' j k i = - opt.learningRate * g ∧
        (Net.weight n' j k i = Net.weight r'.snn.net j k i - opt.learningRate * g ↔ Net.weight r'.snn.net j k i = 0) := by
  have hreach := history_reached h hm hc hr hrun hnan
  obtain ⟨n', ht, _, hh⟩ := step hreach hx hd hsum hk t dr
  refine ⟨n', dr, ht, ?_⟩
  intro j k i hi
  obtain ⟨e1, e2⟩ := kp_bias hi
  obtain ⟨⟨g, a, b⟩, _⟩ := hh j k i e1
  rw [e2, hmom] at b
  refine ⟨g, a, by rw [b]; ring, ?_⟩
  rw [b]
  constructor
  · intro hh; linarith
  · intro hh; rw [hh]; ring

/-! ### Non-vacuity -/

/-- A classifier: 2 inputs, 3 hidden sigmoid neurons, 2 classes. -/
noncomputable def demoArch : List (LayerModel ℝ) := [.input [2], .fullyConnected 3 .sigmoid [], .fullyConnected 2 .identity [.softmax]]

theorem demo_soft : SoftArch demoArch [2] [2] := by
  have g2 : GoodShape [2] := ⟨by simp, by simp, by simp⟩
  have g3 : GoodShape [3] := ⟨by simp, by simp, by simp⟩
  have f1 : Fits (.fullyConnected 3 .sigmoid [] : LayerModel ℝ) [2] [3] := Fits.fullyConnected (n := 3) (by omega)
  have f2 : Fits (.fullyConnected 2 .identity [.softmax] : LayerModel ℝ) [3] [2] := Fits.fullyConnected (n := 2) (by omega)
  refine ⟨⟨⟨_, _, rfl, .cons g2 f1 (.cons g3 f2 (.nil g2))⟩, by simp [demoArch]⟩, by simp [EndsWithNeurons, demoArch], ?_⟩
  exact .cons (.fullyConnected (by simp)) f1 (.last (by simp))

theorem build_smooth {o : Sgd ℝ} {n : Int} {act : Act} {opts : List (LayerOptModel ℝ)} (ha : act ≠ .relu) {shape : List Int} {d d' : Draws ℝ} {l : Layer ℝ}
    (h : buildLayer o (.fullyConnected n act opts) shape d = .ok (l, d')) : GradProps.SmoothL l ∧ l.body.weights.length = n.toNat := by
  unfold buildLayer at h
  obtain ⟨_, _, h⟩ := Res.bind_eq_ok.1 h
  split at h
  · cases h
  split at h
  · cases h
  simp only at h
  split at h
  · cases h
  unfold buildSimple at h
  obtain ⟨nw, _, h⟩ := Res.bind_eq_ok.1 h
  simp only at h
  obtain ⟨⟨ns, d1⟩, h1, h⟩ := Res.bind_eq_ok.1 h
  cases h
  obtain ⟨hl, this⟩ := makeAllNeurons_inv (fun _ _ h => make_mem h) h1
  exact ⟨⟨ns, rfl, fun n hn => by rw [(this n hn).1]; exact ha⟩, by simp only [Body.weights, List.length_map]; omega⟩

/-- The hypotheses of the theorems above are met: this network is built, for every input there is no kink, and it has an input weight
and a bias weight in its second layer. -/
example : ∃ snn d', Snn.make demoArch { learningRate := 1 / 10, momentum := 0 } (fun _ => 1 / 2) = .ok (snn, d') ∧ snn.net.outputNan = false ∧
    (∀ x : List ℝ, x.length = 2 → NoKinks snn.net.layers x) ∧ HasInputWeight snn.net 1 1 2 ∧ IsBiasWeight snn.net 1 1 3 := by
  obtain ⟨snn, d', hm⟩ := ArchProps.C49_accepted_if demo_soft.wellFormed (opt := { learningRate := 1 / 10, momentum := 0 }) (by norm_num) (by norm_num)
    (by norm_num) (by norm_num) (d := fun _ => 1 / 2) (fun i => by norm_num)
  obtain ⟨hreach, _⟩ := make_reached demo_soft hm
  refine ⟨snn, d', hm, hreach.nan, ?_, ?_⟩
  all_goals
    obtain ⟨⟨net, d1⟩, h1, hm⟩ := Res.bind_eq_ok.1 hm
    obtain ⟨err, h2, hm⟩ := Res.bind_eq_ok.1 hm
    split at hm
    · cases hm
    cases hm
    obtain ⟨⟨ls, d2⟩, h3, h1⟩ := Res.bind_eq_ok.1 h1
    obtain ⟨last, h4, h1⟩ := Res.bind_eq_ok.1 h1
    cases h1
    unfold demoArch LayerFactory.build at h3
    rw [if_neg (by simp)] at h3
    simp only at h3
    split at h3
    · cases h3
    obtain ⟨_, _, h3⟩ := Res.bind_eq_ok.1 h3
    split at h3
    · cases h3
    unfold buildLayers at h3
    obtain ⟨⟨l1, d3⟩, k1, h3⟩ := Res.bind_eq_ok.1 h3
    obtain ⟨⟨ls1, d4⟩, k2, h3⟩ := Res.bind_eq_ok.1 h3
    cases h3
    unfold buildLayers at k2
    obtain ⟨⟨l2, d5⟩, k3, k2⟩ := Res.bind_eq_ok.1 k2
    obtain ⟨⟨ls3, d6⟩, k4, k2⟩ := Res.bind_eq_ok.1 k2
    cases k2
    cases k4
    obtain ⟨s1, q1⟩ := build_smooth (by simp) k1
    obtain ⟨s2, q2⟩ := build_smooth (by simp) k3
  · intro x hx
    refine GradProps.noKinks_of hreach.wf.layers (by simpa using hx) ?_
    intro l hl
    simp only [List.mem_cons, List.not_mem_nil, or_false] at hl
    rcases hl with rfl | rfl
    · exact s1
    · exact s2
  · have hw := hreach.wf.layers
    cases hw with
    | @cons _ _ _ k _ w1 hw =>
      cases hw with
      | @cons _ _ _ k' _ w2 hw =>
        cases hw
        obtain ⟨ns, e, _⟩ := s2
        obtain ⟨ns1, e1, _⟩ := s1
        have b2 := w2.body
        rw [e] at b2
        have b1 := w1.body
        rw [e1] at b1
        obtain ⟨c1, c2⟩ := b2
        simp only [List.prod_cons, List.prod_nil, mul_one] at c2
        have hk : k = 3 := by rw [← b1.2]; rw [e1] at q1; simpa [Body.weights] using q1
        subst hk
        have hlen : (neuronWeights l2 1).length = 4 := by
          match ns, c1, c2, e with
          | [n, n2], c1, _, e => simp [neuronWeights, e, Body.weights, Neuron.getWeights, (c1 n2 (by simp)).wlen]
        have hk0 : 1 < l2.body.weights.length := by rw [e]; simp [Body.weights, c2]
        exact ⟨⟨l2, rfl, hk0, by omega⟩, ⟨l2, rfl, hk0, by omega⟩⟩

end Snn.SoftProps
