import Verif.Proofs.GradArch
import Verif.Proofs.SameProofs
import Verif.Props.SafeProps

/-!
# C40: training is gradient descent
-/

set_option linter.all false

namespace Snn.GradProps

open Finset Snn.Spec Snn.Grad Snn.HistoryProps Snn.SafeProps

/-- What holds of the networks of these theorems. -/
structure Reached (o : Sgd ℝ) (ni no : Nat) (n : Net ℝ) : Prop where
  wf : n.WF ni no
  plain : PlainLs true n.layers
  opt : ∀ l ∈ n.layers, l.body.HasOpt o
  nan : n.outputNan = false

theorem make_reached {arch : List (LayerModel ℝ)} {s s' : List Nat} (h : PlainArch arch s s') {opt : Sgd ℝ} {d d' : Draws ℝ} {snn : Snn ℝ}
    (hm : Snn.make arch opt d = .ok (snn, d')) : Reached opt s.prod s'.prod snn.net ∧ ∀ l ∈ snn.net.layers, Fresh l := by
  obtain ⟨hn, hi⟩ := make_safe h.wellFormed h.ends hm
  obtain ⟨⟨net, d1⟩, h1, hm⟩ := Res.bind_eq_ok.1 hm
  obtain ⟨err, h2, hm⟩ := Res.bind_eq_ok.1 hm
  split at hm
  · cases hm
  cases hm
  have hset := Net.make_set h1
  obtain ⟨⟨ls, d2⟩, h3, h1⟩ := Res.bind_eq_ok.1 h1
  obtain ⟨last, h4, h1⟩ := Res.bind_eq_ok.1 h1
  cases h1
  have hp := h.plain
  obtain ⟨m, rest, rfl, hc⟩ := h.wellFormed.layers
  have hcount := h.wellFormed.count
  unfold LayerFactory.build at h3
  rw [if_neg (by simp at hcount ⊢; omega)] at h3
  simp only at h3
  rw [if_neg (by simp), computeNumberOfInputs_ok (chain_good hc)] at h3
  simp only [Res.ok_bind] at h3
  rw [if_neg (by have := (chain_good hc).small; omega)] at h3
  have hh := buildLayers_plain hc hp h3
  exact ⟨⟨hn.wf, hh.1, hset.2.1, rfl⟩, hh.2⟩

theorem history_reached {arch : List (LayerModel ℝ)} {s s' : List Nat} (h : PlainArch arch s s') {opt : Sgd ℝ} {d d' : Draws ℝ} {snn : Snn ℝ}
    (hm : Snn.make arch opt d = .ok (snn, d')) {calls : List (Call ℝ)} (hc : ∀ c ∈ calls, CallFits s.prod s'.prod c) {r r' : Run ℝ} (hr : r.snn = snn)
    (hrun : calls.foldlM Call.run r = .ok r') (hnan : r'.snn.net.outputNan = false) : Reached opt s.prod s'.prod r'.snn.net := by
  have h0 := (make_reached h hm).1
  obtain ⟨hn, hi⟩ := make_safe h.wellFormed h.ends hm
  have hk := history_kin hrun
  rw [hr] at hk
  refine ⟨?_, h0.plain.of_kin hk.layers, forall₂_forall hk.layers h0.opt fun a b hk ha => hk.body.hasOpt ha, hnan⟩
  rw [← hr] at hn hi
  clear hm hr hk h0
  induction calls generalizing r with
  | nil => cases hrun; exact hn.wf
  | cons c cs ih =>
    obtain ⟨r1, h1, h2, h3⟩ := call_safe (hc c (by simp)) hn hi
    rw [List.foldlM_cons, h1] at hrun
    exact ih (fun c' hc' => hc c' (by simp [hc'])) hrun h2 h3

theorem kp_input {n : Net ℝ} {j k i : Nat} (h : HasInputWeight n j k i) : HasW n.layers j k i ∧ kp n.layers j k i = Net.weight n j k i := by
  obtain ⟨l, h1, h2, h3⟩ := h
  refine ⟨⟨l, h1, h2, by omega⟩, ?_⟩
  simp only [kp, Net.weight, h1, Grad.keep, if_pos h3]

theorem kp_bias {n : Net ℝ} {j k i : Nat} (h : IsBiasWeight n j k i) : HasW n.layers j k i ∧ kp n.layers j k i = 0 := by
  obtain ⟨l, h1, h2, h3⟩ := h
  refine ⟨⟨l, h1, h2, by omega⟩, ?_⟩
  simp only [kp, h1, Grad.keep]
  rw [if_neg (by omega)]

theorem step {o : Sgd ℝ} {ni no : Nat} {n n' : Net ℝ} (h : Reached o ni no n) {x des : List ℝ} (hx : x.length = ni) (hd : des.length = no)
    (hk : NoKinks n.layers x) {t : Bool} {d d' : Draws ℝ} (ht : n.trainOnce x des t d = .ok (n', d')) :
    (∀ j k i, HasW n.layers j k i → (∃ g, HasDerivAt (fun v => loss (Net.withWeight n j k i v) x des) g (Net.weight n j k i) ∧
        Net.weight n' j k i = kp n.layers j k i - o.learningRate * g + o.momentum * mm n.layers j k i) ∧
      mm n'.layers j k i = Net.weight n' j k i - kp n.layers j k i) ∧ Reached o ni no n' := by
  obtain ⟨n2, e1, e2, e3, e4⟩ := trainOnce_descends h.wf h.nan (smooth_of_plain h.plain h.wf.layers h.opt hx hk) hx hd t d
  rw [ht] at e1
  cases e1
  have hkin := Net.trainOnce_toKin ht
  exact ⟨e4, e2, h.plain.of_kin hkin.layers, forall₂_forall hkin.layers h.opt fun a b hk ha => hk.body.hasOpt ha, e3⟩

theorem mem_eq {ns ns' : List (Neuron ℝ)} (h : ns'.map mem = ns.map mem) (k i : Nat) :
    (match ns'[k]? with | some n => (mem n).getD i 0 | none => 0) = (match ns[k]? with | some n => (mem n).getD i 0 | none => 0) := by
  have e := congrArg (fun q : List (List ℝ) => q[k]?) h
  simp only [List.getElem?_map] at e
  generalize ns[k]? = a at e ⊢
  generalize ns'[k]? = b at e ⊢
  cases a <;> cases b <;> simp_all

theorem memory_same {l l' : Layer ℝ} (h : l.Same l') : l'.body.weights = l.body.weights ∧ ∀ k i, memory l' k i = memory l k i := by
  have hb := h.body
  unfold memory neurons
  cases hl : l.body <;> cases hl' : l'.body <;> rw [hl, hl'] at hb <;> simp only [Body.Same] at hb
  · rename_i ns ns'
    refine ⟨?_, fun k i => ?_⟩
    · simp only [Body.weights]
      exact forall₂_map_eq (f := fun n : Neuron ℝ => n.getWeights) (fun a b hk => hk.weights) hb
    · have := forall₂_map_eq (f := mem) (fun a b (hk : a.Same b) => by unfold mem; rw [hk.momentum]) hb
      exact mem_eq this k i
  · refine ⟨?_, fun k i => rfl⟩
    simp only [Body.weights]
    exact forall₂_map_eq (R := RecNeuron.Same) (f := fun n : RecNeuron ℝ => n.base.getWeights) (fun a b hk => Neuron.Same.weights hk) hb
  · refine ⟨?_, fun k i => rfl⟩
    simp only [Body.weights]
    refine forall₂_map_eq (R := Gru.Same) (f := Gru.getWeights) (fun a b hk => ?_) hb
    unfold Gru.getWeights
    rw [Neuron.Same.weights hk.r, Neuron.Same.weights hk.u, Neuron.Same.weights hk.o]
  · rename_i kd ns info kd' ns' info'
    refine ⟨?_, fun k i => ?_⟩
    · simp only [Body.weights]
      exact forall₂_map_eq (f := fun n : Neuron ℝ => n.getWeights) (fun a b hk => hk.weights) hb.2.1
    · have := forall₂_map_eq (f := mem) (fun a b (hk : a.Same b) => by unfold mem; rw [hk.momentum]) hb.2.1
      exact mem_eq this k i
  · exact ⟨rfl, fun k i => rfl⟩

theorem inferred_same {n n' : Net ℝ} (h : Inferred n n') : List.Forall₂ Layer.Same n.layers n'.layers ∧ n'.outputNan = n.outputNan := by
  induction h with
  | refl => exact ⟨forall₂_refl Layer.Same.refl _, rfl⟩
  | step h hx ho ih =>
    obtain ⟨h1, _, _, _, h2⟩ := Net.output_same ho
    exact ⟨forall₂_trans (R := Layer.Same) (fun _ _ _ a b => a.trans b) ih.1 h1, by rw [h2, ih.2, hasBadValue_real, Bool.or_false]⟩

theorem inferred_wf {n n' : Net ℝ} (h : Inferred n n') {ni no : Nat} (hw : n.WF ni no) : n'.WF ni no := by
  induction h with
  | refl => exact hw
  | step h hx ho ih =>
    rw [ih.numberOfInputs] at hx
    obtain ⟨y, n2, e1, _, e2, _⟩ := Net.output_ok ih _ (by injection hx with hx; exact_mod_cast hx.symm) _
    rw [ho] at e1
    cases e1
    exact e2

theorem inferred_reached {o : Sgd ℝ} {ni no : Nat} {n n' : Net ℝ} (h : Inferred n n') (hr : Reached o ni no n) :
    Reached o ni no n' ∧ ∀ j k i, Net.weight n' j k i = Net.weight n j k i ∧ mm n'.layers j k i = mm n.layers j k i ∧
      (HasInputWeight n' j k i → HasInputWeight n j k i) ∧ (HasInputWeight n j k i → HasInputWeight n' j k i) := by
  obtain ⟨h1, h2⟩ := inferred_same h
  have hkin : List.Forall₂ Layer.Kin n.layers n'.layers := h1.imp fun a b hab => hab.toKin
  refine ⟨⟨inferred_wf h hr.wf, hr.plain.of_kin hkin, forall₂_forall hkin hr.opt fun a b hk ha => hk.body.hasOpt ha, by rw [h2]; exact hr.nan⟩, ?_⟩
  intro j k i
  cases hj : n.layers[j]? with
  | none =>
    have hj' : n'.layers[j]? = none := by
      rw [List.getElem?_eq_none_iff] at hj ⊢
      rw [← h1.length_eq]; exact hj
    simp [Net.weight, mm, HasInputWeight, hj, hj']
  | some l =>
    obtain ⟨l', hj', hs⟩ := forall₂_get h1 hj
    obtain ⟨a, b⟩ := memory_same hs
    simp [Net.weight, mm, HasInputWeight, hj, hj', neuronWeights, a, b]

theorem layersWF_get {ls : List (Layer ℝ)} {ni no : Nat} (h : LayersWF ls ni no) : ∀ {j : Nat} {l : Layer ℝ}, ls[j]? = some l → ∃ a b, l.WF a b := by
  induction h with
  | nil => intro j l hj; simp at hj
  | cons h hs ih =>
    intro j l hj
    cases j with
    | zero => simp only [List.getElem?_cons_zero, Option.some.injEq] at hj; subst hj; exact ⟨_, _, h⟩
    | succ j => exact ih (by simpa using hj)

theorem plainLs_mem {first : Bool} {ls : List (Layer ℝ)} (h : PlainLs first ls) : ∀ l ∈ ls, ∃ f, PlainL f l := by
  induction h with
  | nil => simp
  | cons h hs ih =>
    intro l hl
    rcases List.mem_cons.1 hl with rfl | hl
    · exact ⟨_, h⟩
    · exact ih l hl

theorem weights_lengths {f : Bool} {l l' : Layer ℝ} {a b a' b' : Nat} (hp : PlainL f l) (hw : l.WF a b) (hw' : l'.WF a' b') (hk : l.Kin l') :
    l'.body.weights.map List.length = l.body.weights.map List.length := by
  have ha : a' = a := by
    have h1 := hw.inputs
    have h2 := hw'.inputs
    rw [hk.inputs, h1] at h2
    exact_mod_cast h2.symm
  subst ha
  have hb := hk.body
  have h1 := hw.body
  have h2 := hw'.body
  have h3 := hp.2
  have key : ∀ {size : Nat} {ns ns' : List (Neuron ℝ)}, (∀ n ∈ ns, n.WF size (size + 1) 1) → (∀ n ∈ ns', n.WF size (size + 1) 1) →
      ns.length = ns'.length → (ns'.map Neuron.getWeights).map List.length = (ns.map Neuron.getWeights).map List.length := by
    intro size ns ns' h h' hl
    have e : ∀ {ms : List (Neuron ℝ)}, (∀ n ∈ ms, n.WF size (size + 1) 1) →
        (ms.map Neuron.getWeights).map List.length = List.replicate ms.length (size + 1) := by
      intro ms hms
      rw [List.eq_replicate_iff]
      refine ⟨by simp, ?_⟩
      intro q hq
      simp only [List.map_map, List.mem_map, Function.comp_apply] at hq
      obtain ⟨n, hn, rfl⟩ := hq
      exact (hms n hn).wlen
    rw [e h, e h', hl]
  cases hl : l.body <;> cases hl' : l'.body <;> rw [hl, hl'] at hb <;> rw [hl] at h1 h3 <;> rw [hl'] at h2 <;> simp only [Body.Kin] at hb <;>
    simp only at h3
  · exact key h1.1 h2.1 hb.length_eq
  · obtain ⟨rfl, hb, rfl⟩ := hb
    rcases h3.1 with rfl | rfl
    · exact key h1.neurons h2.neurons hb.length_eq
    · exact key h1.neurons h2.neurons hb.length_eq
  · rfl

theorem hasInput_step {n n' : Net ℝ} {x des : List ℝ} {t : Bool} {d d' : Draws ℝ} {o : Sgd ℝ} {ni no : Nat} (hw : Reached o ni no n)
    (hw' : Reached o ni no n') (ht : n.trainOnce x des t d = .ok (n', d')) {j k i : Nat} (h : HasInputWeight n j k i) : HasInputWeight n' j k i := by
  have hkin := (Net.trainOnce_toKin ht).layers
  obtain ⟨l, h1, h2, h3⟩ := h
  obtain ⟨l', h1', hk⟩ := forall₂_get hkin h1
  obtain ⟨a, b, hl⟩ := layersWF_get hw.wf.layers h1
  obtain ⟨a', b', hl'⟩ := layersWF_get hw'.wf.layers h1'
  obtain ⟨f, hp⟩ := plainLs_mem hw.plain l (List.mem_of_getElem? h1)
  have e := weights_lengths hp hl hl' hk
  have e1 : l'.body.weights.length = l.body.weights.length := by simpa using congrArg List.length e
  have e2 : (neuronWeights l' k).length = (neuronWeights l k).length := by
    have := congrArg (fun q : List Nat => q[k]?) e
    simp only [List.getElem?_map] at this
    unfold neuronWeights
    simp only [List.getD_eq_getElem?_getD]
    generalize l.body.weights[k]? = u at this ⊢
    generalize l'.body.weights[k]? = w at this ⊢
    cases u <;> cases w <;> simp_all
  exact ⟨l', h1', by omega, by omega⟩

/-- **C40**, without momentum: for every architecture of fully connected, locally connected and max pooling layers (see `PlainLayer`
for the ones left out), of any depth and widths, after every history of calls, one training step changes every weight of every neuron,
but the one of its bias, by minus the learning rate times the partial derivative of the squared error at this weight. Left out: the
weights of the biases, for which it is false (`C40_bias_refuted`); the layers that `PlainLayer` leaves out; points where the loss has
no derivative. Real arithmetic instead of floating-point. -/
theorem C40_gradient_partial {arch : List (LayerModel ℝ)} {s s' : List Nat} (h : PlainArch arch s s') {opt : Sgd ℝ} (hmom : opt.momentum = 0)
    {d d' : Draws ℝ} {snn : Snn ℝ} (hm : Snn.make arch opt d = .ok (snn, d')) {calls : List (Call ℝ)} (hc : ∀ c ∈ calls, CallFits s.prod s'.prod c)
    {r r' : Run ℝ} (hr : r.snn = snn) (hrun : calls.foldlM Call.run r = .ok r') (hnan : r'.snn.net.outputNan = false)
    {x des : List ℝ} (hx : x.length = s.prod) (hd : des.length = s'.prod) (hk : NoKinks r'.snn.net.layers x) (t : Bool) (dr : Draws ℝ) :
    ∃ n' dr', r'.snn.net.trainOnce x des t dr = .ok (n', dr') ∧ ∀ j k i, HasInputWeight r'.snn.net j k i →
      ∃ g, HasDerivAt (fun v => loss (Net.withWeight r'.snn.net j k i v) x des) g (Net.weight r'.snn.net j k i) ∧
        Net.weight n' j k i = Net.weight r'.snn.net j k i - opt.learningRate * g := by
  have hreach := history_reached h hm hc hr hrun hnan
  obtain ⟨n', dr', ht, _⟩ := Net.trainOnce_ok hreach.wf x des hx hd t dr
  refine ⟨n', dr', ht, ?_⟩
  intro j k i hi
  obtain ⟨e1, e2⟩ := kp_input hi
  obtain ⟨⟨g, a, b⟩, _⟩ := (step hreach hx hd hk ht).1 j k i e1
  exact ⟨g, a, by rw [b, e2, hmom]; ring⟩

/-- **C40**, the first training step of a network that was only used for inference, whatever the momentum. -/
theorem C40_first_step_partial {arch : List (LayerModel ℝ)} {s s' : List Nat} (h : PlainArch arch s s') {opt : Sgd ℝ}
    {d d' : Draws ℝ} {snn : Snn ℝ} (hm : Snn.make arch opt d = .ok (snn, d')) {n : Net ℝ} (hn : Inferred snn.net n)
    {x des : List ℝ} (hx : x.length = s.prod) (hd : des.length = s'.prod) (hk : NoKinks n.layers x) (t : Bool) (dr : Draws ℝ) :
    ∃ n' dr', n.trainOnce x des t dr = .ok (n', dr') ∧ ∀ j k i, HasInputWeight n j k i →
      ∃ g, HasDerivAt (fun v => loss (Net.withWeight n j k i v) x des) g (Net.weight n j k i) ∧
        Net.weight n' j k i = Net.weight n j k i - opt.learningRate * g := by
  obtain ⟨h0, hf⟩ := make_reached h hm
  obtain ⟨hreach, hsame⟩ := inferred_reached hn h0
  obtain ⟨n', dr', ht, _⟩ := Net.trainOnce_ok hreach.wf x des hx hd t dr
  refine ⟨n', dr', ht, ?_⟩
  intro j k i hi
  obtain ⟨e1, e2⟩ := kp_input hi
  obtain ⟨⟨g, a, b⟩, _⟩ := (step hreach hx hd hk ht).1 j k i e1
  have hz : mm n.layers j k i = 0 := by
    rw [(hsame j k i).2.1]
    unfold mm
    cases hj : snn.net.layers[j]? with
    | none => rfl
    | some l => exact hf l (List.mem_of_getElem? hj) k i
  exact ⟨g, a, by rw [b, e2, hz]; ring⟩

/-- **C40**, with momentum: after every history, a training step, any number of inferences, and another training step: the second
change of every weight, but the ones of the biases, is minus the learning rate times the partial derivative plus the momentum times
the first change. -/
theorem C40_momentum_partial {arch : List (LayerModel ℝ)} {s s' : List Nat} (h : PlainArch arch s s') {opt : Sgd ℝ}
    {d d' : Draws ℝ} {snn : Snn ℝ} (hm : Snn.make arch opt d = .ok (snn, d')) {calls : List (Call ℝ)} (hc : ∀ c ∈ calls, CallFits s.prod s'.prod c)
    {r r' : Run ℝ} (hr : r.snn = snn) (hrun : calls.foldlM Call.run r = .ok r') (hnan : r'.snn.net.outputNan = false)
    {x1 des1 x2 des2 : List ℝ} (hx1 : x1.length = s.prod) (hd1 : des1.length = s'.prod) (hk1 : NoKinks r'.snn.net.layers x1)
    {t1 t2 : Bool} {dr dr1 dr2 : Draws ℝ} {n1 n1' : Net ℝ} (ht1 : r'.snn.net.trainOnce x1 des1 t1 dr = .ok (n1, dr1)) (hi : Inferred n1 n1')
    (hx2 : x2.length = s.prod) (hd2 : des2.length = s'.prod) (hk2 : NoKinks n1'.layers x2) :
    ∃ n2 dr3, n1'.trainOnce x2 des2 t2 dr2 = .ok (n2, dr3) ∧ ∀ j k i, HasInputWeight r'.snn.net j k i →
      ∃ g, HasDerivAt (fun v => loss (Net.withWeight n1' j k i v) x2 des2) g (Net.weight n1' j k i) ∧
        Net.weight n2 j k i = Net.weight n1 j k i - opt.learningRate * g + opt.momentum * (Net.weight n1 j k i - Net.weight r'.snn.net j k i) := by
  have hreach := history_reached h hm hc hr hrun hnan
  obtain ⟨s1, hreach1⟩ := step hreach hx1 hd1 hk1 ht1
  obtain ⟨hreach2, hsame⟩ := inferred_reached hi hreach1
  obtain ⟨n2, dr3, ht2, _⟩ := Net.trainOnce_ok hreach2.wf x2 des2 hx2 hd2 t2 dr2
  refine ⟨n2, dr3, ht2, ?_⟩
  intro j k i hiw
  obtain ⟨e1, e2⟩ := kp_input hiw
  obtain ⟨_, b1⟩ := s1 j k i e1
  obtain ⟨hw1, hm1, _, hh⟩ := hsame j k i
  obtain ⟨f1, f2⟩ := kp_input (hh (hasInput_step hreach hreach1 ht1 hiw))
  obtain ⟨⟨g, a, b⟩, _⟩ := (step hreach2 hx2 hd2 hk2 ht2).1 j k i f1
  exact ⟨g, a, by rw [b, f2, hw1, hm1, b1, e2]⟩

/-- **C40 is false of the weights of the biases**: in every such network, after every history, without momentum, a training step
replaces the weight of a bias by minus the learning rate times the partial derivative, instead of adding it; this is gradient descent
only for a weight that is 0. (StochasticGradientDescent.cpp:37 has `=` where line 34 has `+=`.) -/
theorem C40_bias_refuted {arch : List (LayerModel ℝ)} {s s' : List Nat} (h : PlainArch arch s s') {opt : Sgd ℝ} (hmom : opt.momentum = 0)
    {d d' : Draws ℝ} {snn : Snn ℝ} (hm : Snn.make arch opt d = .ok (snn, d')) {calls : List (Call ℝ)} (hc : ∀ c ∈ calls, CallFits s.prod s'.prod c)
    {r r' : Run ℝ} (hr : r.snn = snn) (hrun : calls.foldlM Call.run r = .ok r') (hnan : r'.snn.net.outputNan = false)
    {x des : List ℝ} (hx : x.length = s.prod) (hd : des.length = s'.prod) (hk : NoKinks r'.snn.net.layers x) (t : Bool) (dr : Draws ℝ) :
    ∃ n' dr', r'.snn.net.trainOnce x des t dr = .ok (n', dr') ∧ ∀ j k i, IsBiasWeight r'.snn.net j k i →
      ∃ g, HasDerivAt (fun v => loss (Net.withWeight r'.snn.net j k i v) x des) g (Net.weight r'.snn.net j k i) ∧
        Net.weight n' j k i = - opt.learningRate * g ∧
        (Net.weight n' j k i = Net.weight r'.snn.net j k i - opt.learningRate * g ↔ Net.weight r'.snn.net j k i = 0) := by
  have hreach := history_reached h hm hc hr hrun hnan
  obtain ⟨n', dr', ht, _⟩ := Net.trainOnce_ok hreach.wf x des hx hd t dr
  refine ⟨n', dr', ht, ?_⟩
  intro j k i hi
  obtain ⟨e1, e2⟩ := kp_bias hi
  obtain ⟨⟨g, a, b⟩, _⟩ := (step hreach hx hd hk ht).1 j k i e1
  rw [e2, hmom] at b
  refine ⟨g, a, by rw [b]; ring, ?_⟩
  rw [b]
  constructor
  · intro hh; linarith
  · intro hh; rw [hh]; ring

/-! ### Non-vacuity -/

/-- A network of sigmoid and tanh neurons: 2 inputs, 3 hidden neurons, 1 output. -/
noncomputable def demoArch : List (LayerModel ℝ) := [.input [2], .fullyConnected 3 .sigmoid [], .fullyConnected 1 .tanh []]

theorem demo_plain : PlainArch demoArch [2] [1] := by
  have g2 : GoodShape [2] := ⟨by simp, by simp, by simp⟩
  have g3 : GoodShape [3] := ⟨by simp, by simp, by simp⟩
  have g1 : GoodShape [1] := ⟨by simp, by simp, by simp⟩
  have f1 : Fits (.fullyConnected 3 .sigmoid [] : LayerModel ℝ) [2] [3] := Fits.fullyConnected (n := 3) (by omega)
  have f2 : Fits (.fullyConnected 1 .tanh [] : LayerModel ℝ) [3] [1] := Fits.fullyConnected (n := 1) (by omega)
  refine ⟨⟨⟨_, _, rfl, .cons g2 f1 (.cons g3 f2 (.nil g1))⟩, by simp [demoArch]⟩, by simp [EndsWithNeurons, demoArch], ?_⟩
  exact .cons (.fullyConnected (by simp)) f1 (.cons (.fullyConnected (by simp)) f2 .nil)

/-- Layers without rectified linear units nor poolings. -/
def SmoothL (l : Layer ℝ) : Prop := ∃ ns, l.body = .fullyConnected ns ∧ ∀ n ∈ ns, n.activationFunction ≠ .relu

theorem noKinks_of {ls : List (Layer ℝ)} {ni no : Nat} (hw : LayersWF ls ni no) : ∀ {x : List ℝ}, x.length = ni → (∀ l ∈ ls, SmoothL l) → NoKinks ls x := by
  induction hw with
  | nil => intro x _ _; exact .nil
  | cons hl hs ih =>
    intro x hx h
    obtain ⟨y, l', h1, h2, _⟩ := Layer.output_ok hl x hx false
    refine .cons ?_ h1 (ih h2 fun l hl => h l (by simp [hl]))
    obtain ⟨ns, e, hns⟩ := h _ (List.mem_cons_self ..)
    unfold NoKink
    rw [e]
    exact fun n hn hr => absurd hr (hns n hn)

theorem build_smoothL {o : Sgd ℝ} {n : Int} {act : Act} (ha : act ≠ .relu) {shape : List Int} {d d' : Draws ℝ} {l : Layer ℝ}
    (h : buildLayer o (.fullyConnected n act []) shape d = .ok (l, d')) : SmoothL l ∧ l.body.weights.length = n.toNat := by
  unfold buildLayer at h
  obtain ⟨_, _, h⟩ := Res.bind_eq_ok.1 h
  split at h
  · cases h
  split at h
  · cases h
  simp only at h
  split at h
  · cases h
  unfold buildSimple at h
  obtain ⟨nw, _, h⟩ := Res.bind_eq_ok.1 h
  simp only at h
  obtain ⟨⟨ns, d1⟩, h1, h⟩ := Res.bind_eq_ok.1 h
  cases h
  obtain ⟨hl, this⟩ := makeAllNeurons_inv (fun _ _ h => make_mem h) h1
  exact ⟨⟨ns, rfl, fun n hn => by rw [(this n hn).1]; exact ha⟩, by simp only [Body.weights, List.length_map]; omega⟩

/-- The hypotheses of the theorems above are met: this network is built, for every input there is no kink, and it has an input weight
and a bias weight in its second layer. -/
example : ∃ snn d', Snn.make demoArch { learningRate := 1 / 10, momentum := 0 } (fun _ => 1 / 2) = .ok (snn, d') ∧ snn.net.outputNan = false ∧
    (∀ x : List ℝ, x.length = 2 → NoKinks snn.net.layers x) ∧ HasInputWeight snn.net 1 0 2 ∧ IsBiasWeight snn.net 1 0 3 := by
  obtain ⟨snn, d', hm⟩ := ArchProps.C49_accepted_if demo_plain.wellFormed (opt := { learningRate := 1 / 10, momentum := 0 }) (by norm_num) (by norm_num)
    (by norm_num) (by norm_num) (d := fun _ => 1 / 2) (fun i => by norm_num)
  obtain ⟨hreach, _⟩ := make_reached demo_plain hm
  refine ⟨snn, d', hm, hreach.nan, ?_, ?_⟩
  all_goals
    obtain ⟨⟨net, d1⟩, h1, hm⟩ := Res.bind_eq_ok.1 hm
    obtain ⟨err, h2, hm⟩ := Res.bind_eq_ok.1 hm
    split at hm
    · cases hm
    cases hm
    obtain ⟨⟨ls, d2⟩, h3, h1⟩ := Res.bind_eq_ok.1 h1
    obtain ⟨last, h4, h1⟩ := Res.bind_eq_ok.1 h1
    cases h1
    unfold demoArch LayerFactory.build at h3
    rw [if_neg (by simp)] at h3
    simp only at h3
    split at h3
    · cases h3
    obtain ⟨_, _, h3⟩ := Res.bind_eq_ok.1 h3
    split at h3
    · cases h3
    unfold buildLayers at h3
    obtain ⟨⟨l1, d3⟩, k1, h3⟩ := Res.bind_eq_ok.1 h3
    obtain ⟨⟨ls1, d4⟩, k2, h3⟩ := Res.bind_eq_ok.1 h3
    cases h3
    unfold buildLayers at k2
    obtain ⟨⟨l2, d5⟩, k3, k2⟩ := Res.bind_eq_ok.1 k2
    obtain ⟨⟨ls3, d6⟩, k4, k2⟩ := Res.bind_eq_ok.1 k2
    cases k2
    cases k4
    obtain ⟨s1, q1⟩ := build_smoothL (by simp) k1
    obtain ⟨s2, q2⟩ := build_smoothL (by simp) k3
  · intro x hx
    refine noKinks_of hreach.wf.layers (by simpa using hx) ?_
    intro l hl
    simp only [List.mem_cons, List.not_mem_nil, or_false] at hl
    rcases hl with rfl | rfl
    · exact s1
    · exact s2
  · have hw := hreach.wf.layers
    cases hw with
    | @cons _ _ _ k _ w1 hw =>
      cases hw with
      | @cons _ _ _ k' _ w2 hw =>
        cases hw
        obtain ⟨ns, e, _⟩ := s2
        obtain ⟨ns1, e1, _⟩ := s1
        have b2 := w2.body
        rw [e] at b2
        have b1 := w1.body
        rw [e1] at b1
        obtain ⟨c1, c2⟩ := b2
        simp only [List.prod_cons, List.prod_nil, mul_one] at c2
        have hk : k = 3 := by rw [← b1.2]; rw [e1] at q1; simpa [Body.weights] using q1
        subst hk
        have hlen : (neuronWeights l2 0).length = 4 := by
          match ns, c1, c2, e with
          | [n], c1, _, e => simp [neuronWeights, e, Body.weights, Neuron.getWeights, (c1 n (by simp)).wlen]
        have hk0 : 0 < l2.body.weights.length := by rw [e]; simp [Body.weights, c2]
        exact ⟨⟨l2, rfl, hk0, by omega⟩, ⟨l2, rfl, hk0, by omega⟩⟩

end Snn.GradProps
