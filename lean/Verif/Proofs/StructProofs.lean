import Verif.Spec.StructSpec
import Verif.Proofs.ReachProofs
import Verif.Proofs.NetBuild

/-! The factory builds the structure of the architecture and no call changes it. -/

set_option linter.all false

namespace Snn

open Spec HistoryProps

section
variable {F : Type} [Flt F] [FTrans F] [Add F] [Sub F] [Mul F] [Div F] [Neg F]

theorem settingOf_noMask (o : LayerOpt F) : settingOf (noMask o) = settingOf o := by cases o <;> rfl

theorem Layer.Kin.settings {l l' : Layer F} (h : l.Kin l') : l'.optimizers.map settingOf = l.optimizers.map settingOf := by
  have := congrArg (List.map settingOf) h.opts
  simpa [Function.comp_def, settingOf_noMask] using this

theorem Spec.NeuronIs.kin {act : Act} {bias : F} {opt : Sgd F} {w : Nat} {n n' : Neuron F} (h : NeuronIs act bias opt w n) (k : n.Kin n') :
    NeuronIs act bias opt w n' :=
  ⟨k.activation.trans h.activation, k.bias.trans h.bias, k.optimizer.trans h.optimizer, k.weights.trans h.weights⟩

theorem Spec.LayerIs.kin {opt : Sgd F} {m : LayerModel F} {s : List Nat} {l l' : Layer F} (h : LayerIs opt m s l) (k : l.Kin l') :
    LayerIs opt m s l' := by
  obtain ⟨h0, h⟩ := h
  refine ⟨k.inputs.trans h0, ?_⟩
  have hk := k.body
  cases m with
  | input => exact h
  | fullyConnected n act opts =>
    obtain ⟨h1, ns, h2, h3, h4⟩ := h
    refine ⟨k.settings.trans h1, ?_⟩
    rw [h2] at hk
    cases hb : l'.body <;> rw [hb] at hk <;> simp only [Body.Kin] at hk
    exact ⟨_, rfl, by rw [← forall₂_length_eq hk]; exact h3, forall₂_forall hk h4 fun a b k h => h.kin k⟩
  | recurrence n act opts =>
    obtain ⟨h1, ns, h2, h3, h4⟩ := h
    refine ⟨k.settings.trans h1, ?_⟩
    rw [h2] at hk
    cases hb : l'.body <;> rw [hb] at hk <;> simp only [Body.Kin] at hk
    exact ⟨_, rfl, by rw [← forall₂_length_eq hk]; exact h3, forall₂_forall hk h4 fun a b k h => h.kin k⟩
  | gru n opts =>
    obtain ⟨h1, ns, h2, h3, h4⟩ := h
    refine ⟨k.settings.trans h1, ?_⟩
    rw [h2] at hk
    cases hb : l'.body <;> rw [hb] at hk <;> simp only [Body.Kin] at hk
    exact ⟨_, rfl, by rw [← forall₂_length_eq hk]; exact h3, forall₂_forall hk h4 fun a b k h => ⟨h.1.kin k.r, h.2.1.kin k.u, h.2.2.kin k.o⟩⟩
  | convolution f ks act opts =>
    obtain ⟨h1, kind, ns, info, h2, h3, h4, h5, h8, h6, h7⟩ := h
    refine ⟨k.settings.trans h1, ?_⟩
    rw [h2] at hk
    cases hb : l'.body <;> rw [hb] at hk <;> simp only [Body.Kin] at hk
    obtain ⟨rfl, hk, rfl⟩ := hk
    exact ⟨_, _, _, rfl, h3, h4, h5, h8, by rw [← forall₂_length_eq hk]; exact h6, forall₂_forall hk h7 fun a b k h => h.kin k⟩
  | locallyConnected f ks act opts =>
    obtain ⟨h1, kind, ns, info, h2, h3, h4, h5, h8, h6, h7⟩ := h
    refine ⟨k.settings.trans h1, ?_⟩
    rw [h2] at hk
    cases hb : l'.body <;> rw [hb] at hk <;> simp only [Body.Kin] at hk
    obtain ⟨rfl, hk, rfl⟩ := hk
    exact ⟨_, _, _, rfl, h3, h4, h5, h8, by rw [← forall₂_length_eq hk]; exact h6, forall₂_forall hk h7 fun a b k h => h.kin k⟩
  | maxPooling ks =>
    obtain ⟨h1, twoD, info, o, mvi, h2, h3, h4⟩ := h
    refine ⟨?_, ?_⟩
    · have := k.opts
      rw [h1] at this
      simpa using this
    rw [h2] at hk
    cases hb : l'.body <;> rw [hb] at hk <;> simp only [Body.Kin] at hk
    obtain ⟨rfl, rfl, rfl, _⟩ := hk
    exact ⟨_, _, _, _, rfl, h3, h4⟩

theorem Layer.Kin.shapeOut {l l' : Layer F} (k : l.Kin l') : l'.getShapeOfOutput = l.getShapeOfOutput := by
  have hk := k.body
  unfold Layer.getShapeOfOutput Layer.getNumberOfNeurons
  cases hb : l.body <;> cases hb' : l'.body <;> rw [hb, hb'] at hk <;> simp only [Body.Kin] at hk
  · simp [Body.numberOfNeurons, Body.weights, forall₂_length_eq hk]
  · simp [Body.numberOfNeurons, Body.weights, forall₂_length_eq hk]
  · simp [Body.numberOfNeurons, Body.weights, forall₂_length_eq hk]
  · simp [hk.2.2]
  · simp [hk.2.1]

theorem Spec.NetIs.kin {opt : Sgd F} {ms : List (LayerModel F)} {s : List Nat} {ls ls' : List (Layer F)} (h : NetIs opt ms s ls)
    (k : List.Forall₂ Layer.Kin ls ls') : NetIs opt ms s ls' := by
  induction h generalizing ls' with
  | nil => cases k; exact .nil
  | cons hm hl ho hs ih =>
    cases k with
    | cons k1 k2 => exact .cons hm (Spec.LayerIs.kin hl k1) (k1.shapeOut.trans ho) (ih k2)

theorem buildAll_settings (k : Nat) : ∀ (opts : List (LayerOptModel F)) (d : Draws F), (LayerOpt.buildAll k opts d).1.map settingOf = opts
  | [], d => rfl
  | o :: os, d => by
    unfold LayerOpt.buildAll
    simp only [List.map_cons, buildAll_settings k os]
    cases o <;> rfl

theorem makeSimple_is {opt : Sgd F} {ni : Nat} {nw : Nat} {b : Int} {bias : F} {act : Act} {d : Draws F} {n : Neuron F} {w : Int} (hw : w = nw)
    (h : Neuron.make ⟨(ni : Int), b, w, bias, act⟩ opt d = .ok n) : NeuronIs act bias opt nw n := by
  subst hw
  unfold Neuron.make at h
  simp only at h
  rw [if_neg (by omega), if_neg (by omega)] at h
  obtain ⟨last, h1, h⟩ := Res.bind_eq_ok.1 h
  obtain ⟨_, _, h⟩ := Res.bind_eq_ok.1 h
  obtain ⟨_, _, h⟩ := Res.bind_eq_ok.1 h
  cases h
  refine ⟨rfl, rfl, rfl, ?_⟩
  have : 0 < nw := by
    rcases Nat.eq_zero_or_pos nw with h | h
    · subst h; simp [backOf] at h1
    · exact h
  simp; omega

theorem makeRec_is {opt : Sgd F} {ni : Nat} {nw : Nat} {b : Int} {bias : F} {act : Act} {d : Draws F} {n : RecNeuron F} {w : Int} (hw : w = nw)
    (h : RecNeuron.make ⟨(ni : Int), b, w, bias, act⟩ opt d = .ok n) : NeuronIs act bias opt nw n.base := by
  unfold RecNeuron.make at h
  obtain ⟨b, h1, h⟩ := Res.bind_eq_ok.1 h
  cases h
  exact makeSimple_is hw h1

theorem FilterBuilt.is {l : Layer F} {kind : FKind} {opt : Sgd F} {ni : Int} {rows : List (List Int)} {size N nn b K : Nat} {act : Act}
    {shapeIn shapeOut : List Int} {opts : List (LayerOptModel F)} {ns : List (Neuron F)} {info : FilterInfo}
    (h : FilterBuilt l kind opt ni rows size N nn b K act shapeIn shapeOut opts ns info) :
    l.numberOfInputs = ni ∧ l.optimizers.map settingOf = opts ∧ l.body = .filter kind ns info ∧ info.numberOfFilters = N ∧ info.kernelSize = K ∧
      info.shapeOfInput = shapeIn ∧ ns.length = nn ∧ ∀ x ∈ ns, NeuronIs act (lit (1/1000)) opt (size + 1) x := by
  obtain ⟨d, ho⟩ := h.optimizers
  refine ⟨h.inputs, by rw [ho, buildAll_settings], h.body, h.filters, h.kernelSize, h.shapeIn, h.length, fun x hx => ?_⟩
  have := h.fresh x hx
  exact ⟨this.activation, this.bias, this.optimizer, this.wf.wlen⟩

theorem buildLayer_is {opt : Sgd F} {m : LayerModel F} {s s' : List Nat} (hf : Fits m s s') (hs : GoodShape s) {d d' : Draws F} {l : Layer F}
    (h : buildLayer opt m (s.map (fun v : Nat => (v : Int))) d = .ok (l, d')) : LayerIs opt m s l := by
  rw [buildLayer_start hs] at h
  cases hf with
  | @fullyConnected n act opts _ hn =>
    obtain ⟨hi, ns, hb, hl, hw, d1, ho⟩ := buildSimple_inv (P := fun n : Neuron F => NeuronIs act (lit 1) opt (s.prod + 1) n) (by
      intro d n hn
      exact makeSimple_is (by simp) hn) h
    exact ⟨hi, by rw [ho, buildAll_settings], ns, hb, hl, hw⟩
  | @recurrence n act opts _ hn =>
    obtain ⟨hi, ns, hb, hl, hw, d1, ho⟩ := buildSimple_inv (P := fun n : RecNeuron F => NeuronIs act (lit 1) opt (s.prod + 2) n.base) (by
      intro d n hn
      exact makeRec_is (by simp) hn) h
    exact ⟨hi, by rw [ho, buildAll_settings], ns, hb, hl, hw⟩
  | @gru n opts _ hn =>
    obtain ⟨hi, ns, hb, hl, hw, d1, ho⟩ := buildSimple_inv (P := fun x : Gru F => NeuronIs .sigmoid (lit 1) opt (s.prod + 2) x.resetGate.base ∧
        NeuronIs .sigmoid (lit 1) opt (s.prod + 2) x.updateGate.base ∧ NeuronIs .tanh (lit 1) opt (s.prod + 2) x.outputGate.base) (by
      intro d n hn
      unfold Gru.make at hn
      obtain ⟨r, h1, hn⟩ := Res.bind_eq_ok.1 hn
      obtain ⟨u, h2, hn⟩ := Res.bind_eq_ok.1 hn
      obtain ⟨o, h3, hn⟩ := Res.bind_eq_ok.1 hn
      cases hn
      exact ⟨makeRec_is (by simp) h1, makeRec_is (by simp) h2, makeRec_is (by simp) h3⟩) h
    exact ⟨hi, by rw [ho, buildAll_settings], ns, hb, hl, hw⟩
  | @convolution1 f k x act opts hf hk hx =>
    obtain ⟨_, ns, info, hb⟩ := buildConvolution1D_inv (shape := [(x : Int)]) (C := 1) rfl hf h
    obtain ⟨a, b, c, e, g, si, i, j⟩ := hb.is
    exact ⟨a, b, _, _, _, c, by simp, e, g, si, by simp [i], by simpa [weightsOf] using j⟩
  | @convolution1D f k c x act opts hf hk hx =>
    obtain ⟨_, ns, info, hb⟩ := buildConvolution1D_inv (shape := [(c : Int), (x : Int)]) rfl hf h
    obtain ⟨a, b, c, e, g, si, i, j⟩ := hb.is
    exact ⟨a, b, _, _, _, c, by simp, e, g, si, by simp [i], by simpa [weightsOf] using j⟩
  | @convolution2D f k c x y act opts hf hk hx hy =>
    obtain ⟨_, _, ns, info, hb⟩ := buildConvolution2D_inv hf h
    obtain ⟨a, b, c, e, g, si, i, j⟩ := hb.is
    exact ⟨a, b, _, _, _, c, by simp, e, g, si, by simp [i], by simpa [weightsOf] using j⟩
  | @locally1 f k x act opts hf hk hx =>
    have e1 : ((([x] : List Nat).prod : Nat) : Int) = ((1 * x : Nat) : Int) := by simp
    rw [e1] at h
    obtain ⟨_, _, ns, info, hb⟩ := buildLocally1D_inv (shape := [(x : Int)]) (C := 1) rfl hf h
    obtain ⟨a, b, c, e, g, si, i, j⟩ := hb.is
    exact ⟨a.trans e1.symm, b, _, _, _, c, by simp, e, g, si, by simp only [i, neuronsOf, Int.toNat_natCast]; ring, by simpa [weightsOf] using j⟩
  | @locally1D f k c x act opts hf hk hx =>
    obtain ⟨_, _, ns, info, hb⟩ := buildLocally1D_inv (shape := [(c : Int), (x : Int)]) rfl hf h
    obtain ⟨a, b, c, e, g, si, i, j⟩ := hb.is
    exact ⟨a, b, _, _, _, c, by simp, e, g, si, by simp only [i, neuronsOf, Int.toNat_natCast]; ring, by simpa [weightsOf] using j⟩
  | @locally2D f k c x y act opts hf hk hx hy hxy =>
    obtain ⟨_, _, _, ns, info, hb⟩ := buildLocally2D_inv hf h
    obtain ⟨a, b, c, e, g, si, i, j⟩ := hb.is
    exact ⟨a, b, _, _, _, c, by simp, e, g, si, by simp only [i, neuronsOf, Int.toNat_natCast]; ring, by simpa [weightsOf] using j⟩
  | @pool1 k x hk hx =>
    obtain ⟨l', h1, h⟩ := Res.bind_eq_ok.1 h
    cases h
    obtain ⟨_, _, info, hb⟩ := buildPool1D_inv (shape := [(x : Int)]) (C := 1) rfl h1
    obtain ⟨o, mv, b, _⟩ := hb.body
    exact ⟨hb.inputs, hb.optimizers, _, _, _, _, b, by simp, hb.kernelSize, hb.shapeIn⟩
  | @pool1D k x hk hx =>
    obtain ⟨l', h1, h⟩ := Res.bind_eq_ok.1 h
    cases h
    obtain ⟨_, _, info, hb⟩ := buildPool1D_inv (shape := [((1 : Nat) : Int), (x : Int)]) rfl h1
    obtain ⟨o, mv, b, _⟩ := hb.body
    exact ⟨hb.inputs, hb.optimizers, _, _, _, _, b, by simp, hb.kernelSize, hb.shapeIn⟩
  | @pool2D k c x y hk hx hy hxy =>
    obtain ⟨l', h1, h⟩ := Res.bind_eq_ok.1 h
    cases h
    obtain ⟨_, _, _, info, hb⟩ := buildPool2D_inv h1
    obtain ⟨o, mv, b, _⟩ := hb.body
    exact ⟨hb.inputs, hb.optimizers, _, _, _, _, b, by simp, hb.kernelSize, hb.shapeIn⟩

theorem buildLayers_is {opt : Sgd F} {ms : List (LayerModel F)} {s s' : List Nat} (h : Chain ms s s') : ∀ {d d' : Draws F} {ls : List (Layer F)},
    buildLayers opt ms (s.map (fun v : Nat => (v : Int))) d = .ok (ls, d') → NetIs opt ms s ls := by
  induction h with
  | nil hs => intro d d' ls h; cases h; exact .nil
  | @cons m ms s s1 s2 hs hm hc ih =>
    intro d d' ls h
    have hs1 : GoodShape s1 := by cases hc <;> assumption
    obtain ⟨l, d1, h1, hb⟩ := buildLayer_ok opt hm hs hs1 d
    unfold buildLayers at h
    rw [h1] at h
    simp only [Res.ok_bind] at h
    rw [hb.shape] at h
    obtain ⟨⟨ls', d2⟩, h2, h⟩ := Res.bind_eq_ok.1 h
    cases h
    exact .cons hm (buildLayer_is hm hs h1) hb.shape (ih h2)

theorem Net.make_is {arch : List (LayerModel F)} {s s' : List Nat} (h : WellFormed arch s s') {opt : Sgd F} {d d' : Draws F} {n : Net F}
    (hm : Net.make arch opt d = .ok (n, d')) : n.optimizer = opt ∧ NetIs n.optimizer arch.tail s n.layers := by
  obtain ⟨m, rest, rfl, hc⟩ := h.layers
  have hcount := h.count
  have hg := chain_good hc
  have hsm := hg.small
  unfold Net.make at hm
  obtain ⟨⟨ls, d1⟩, h1, hm⟩ := Res.bind_eq_ok.1 hm
  unfold LayerFactory.build at h1
  rw [if_neg (by simp at hcount ⊢; omega)] at h1
  simp only at h1
  rw [if_neg (by simp), computeNumberOfInputs_ok hg] at h1
  simp only [Res.ok_bind] at h1
  rw [if_neg (by omega)] at h1
  obtain ⟨_, _, hm⟩ := Res.bind_eq_ok.1 hm
  cases hm
  exact ⟨rfl, buildLayers_is hc h1⟩

end

end Snn
