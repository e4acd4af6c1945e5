import Verif.Model.Serialize
import Verif.Proofs.SerializeProofs

/-! `operator==`: reflexive without NaN, transitive; symmetric when the layers have as many optimizers. -/

set_option linter.all false

namespace Snn

open Codec

section
variable {F : Type} [Flt F] [FText F]

theorem vecEq_refl {α : Type} {eq : α → α → Bool} : ∀ {l : List α}, (∀ x ∈ l, eq x x = true) → vecEq eq l l = true
  | [], _ => rfl
  | a :: as, h => by
    simp only [vecEq, Bool.and_eq_true]
    exact ⟨h a (by simp), vecEq_refl fun x hx => h x (List.mem_cons_of_mem _ hx)⟩

theorem vecEq_map {α : Type} {eq : α → α → Bool} {f : α → α} : ∀ {l : List α}, (∀ x ∈ l, eq x (f x) = true) →
    vecEq eq l (l.map f) = true
  | [], _ => rfl
  | a :: as, h => by
    simp only [vecEq, List.map_cons, Bool.and_eq_true]
    exact ⟨h a (by simp), vecEq_map fun x hx => h x (List.mem_cons_of_mem _ hx)⟩

/-- No NaN among the floats a template writes. -/
def Codec.NoNan {α : Type} (c : Codec F α) (x : α) : Prop := ∀ v, Tok.float v ∈ c.save x → feq v v = true

variable {α β : Type}

theorem nn_float {x : F} (h : (float : Codec F F).NoNan x) : feq x x = true := h x (by simp [float])
theorem nn_pair {c : Codec F α} {d : Codec F β} {x : α} {y : β} (h : (pair c d).NoNan (x, y)) : c.NoNan x ∧ d.NoNan y :=
  ⟨fun v hv => h v (by simp [pair, hv]), fun v hv => h v (by simp [pair, hv])⟩
theorem nn_obj {f : α → β} {g : β → α} {c : Codec F β} {x : α} (h : (obj f g c).NoNan x) : c.NoNan (f x) := h
theorem nn_vec {c : Codec F α} {xs : List α} (h : (vec c).NoNan xs) : ∀ x ∈ xs, c.NoNan x := fun x hx v hv =>
  h v (by simp only [vec]; exact List.mem_cons_of_mem _ (List.mem_flatMap.2 ⟨x, hx, hv⟩))

theorem vecEq_feq {l : List F} (h : (vec (float : Codec F F)).NoNan l) : vecEq feq l l = true :=
  vecEq_refl fun x hx => nn_float (nn_vec h x hx)

theorem Circ.eq_refl {c : Circ F} (h : Circ.codec.NoNan c) : c.eq c = true := by
  have h := nn_obj h
  obtain ⟨h1, h2⟩ := nn_pair h
  have h3 := nn_vec h1
  simp only [Circ.eq, beq_self_eq_true, Bool.and_true]
  exact vecEq_refl fun x hx => vecEq_feq (h3 x hx)

theorem Sgd.eq_refl {c : Sgd F} (h : Sgd.codec.NoNan c) : c.eq c = true := by
  have h := nn_obj h
  obtain ⟨h1, h2⟩ := nn_pair h
  simp only [Sgd.eq, nn_float h1, nn_float h2, Bool.and_true]

theorem Neuron.eq_refl {c : Neuron F} (h : Neuron.codec.NoNan c) : c.eq c = true := by
  have h := nn_obj h
  obtain ⟨h1, h⟩ := nn_pair h
  obtain ⟨h2, h⟩ := nn_pair h
  obtain ⟨h3, h⟩ := nn_pair h
  obtain ⟨h4, h⟩ := nn_pair h
  obtain ⟨h5, h⟩ := nn_pair h
  obtain ⟨h6, h⟩ := nn_pair h
  obtain ⟨h7, h⟩ := nn_pair h
  obtain ⟨h8, h⟩ := nn_pair h
  obtain ⟨h9, h⟩ := nn_pair h
  simp only [Neuron.eq, beq_self_eq_true, Bool.true_and, Bool.and_true, vecEq_feq h4, nn_float h5, Circ.eq_refl h6, Circ.eq_refl h7,
    vecEq_feq h8, nn_float h9, Sgd.eq_refl h1]

theorem RecNeuron.eq_refl {c : RecNeuron F} (h : RecNeuron.codec.NoNan c) : c.eq c = true := by
  have h := nn_obj h
  obtain ⟨h1, h⟩ := nn_pair h
  obtain ⟨h2, h⟩ := nn_pair h
  obtain ⟨h3, h⟩ := nn_pair h
  obtain ⟨h4, h5⟩ := nn_pair h
  simp only [RecNeuron.eq, Neuron.eq_refl h1, nn_float h2, nn_float h3, nn_float h4, nn_float h5, Bool.and_true]

theorem Gru.eq_refl {c : Gru F} (h : Gru.codec.NoNan c) : c.eq c.forget = true := by
  have h := nn_obj h
  obtain ⟨h1, h⟩ := nn_pair h
  obtain ⟨h2, h⟩ := nn_pair h
  obtain ⟨h3, h⟩ := nn_pair h
  obtain ⟨h4, h⟩ := nn_pair h
  obtain ⟨h5, h⟩ := nn_pair h
  obtain ⟨h6, h⟩ := nn_pair h
  obtain ⟨h7, h8⟩ := nn_pair h
  simp only [Gru.eq, Gru.forget, beq_self_eq_true, nn_float h2, nn_float h3, nn_float h4, nn_float h5, RecNeuron.eq_refl h6,
    RecNeuron.eq_refl h7, RecNeuron.eq_refl h8, Bool.and_true]

theorem nn_float_cons {x : F} {i : Int} (h : ∀ v, Tok.float v ∈ Tok.int i :: (float : Codec F F).save x → feq v v = true) :
    feq x x = true := h x (by simp [float])

theorem LayerOpt.eq_refl {c : LayerOpt F} (h : LayerOpt.codec.NoNan c) : c.eq c = true := by
  cases c with
  | dropout v rv p =>
    simp only [LayerOpt.eq, Bool.and_eq_true]
    exact ⟨h v (by simp [LayerOpt.codec, pair, float]), h rv (by simp [LayerOpt.codec, pair, float])⟩
  | l1 v => exact h v (by simp [LayerOpt.codec, float])
  | l2 v => exact h v (by simp [LayerOpt.codec, float])
  | errorMultiplier v => exact h v (by simp [LayerOpt.codec, float])
  | softmax => rfl

theorem optsEq_refl : ∀ {os : List (LayerOpt F)}, (∀ o ∈ os, LayerOpt.codec.NoNan o) → optsEq os os = .ok true
  | [], _ => rfl
  | o :: os, h => by
    simp only [optsEq, LayerOpt.eq_refl (h o (by simp)), if_true]
    exact optsEq_refl fun x hx => h x (List.mem_cons_of_mem _ hx)

theorem nn_cons {α : Type} {c : Codec F α} {x : α} {t : Tok F} (h : ∀ v, Tok.float v ∈ t :: c.save x → feq v v = true) : c.NoNan x :=
  fun v hv => h v (List.mem_cons_of_mem _ hv)

theorem Layer.eq_forget {l : Layer F} (h : Layer.codec.NoNan l) : l.eq l.forget = .ok true := by
  obtain ⟨i, os, b⟩ := l
  unfold Codec.NoNan at h
  cases b with
  | fullyConnected ns =>
    simp only [Layer.codec] at h
    obtain ⟨h1, h⟩ := nn_pair (nn_cons h)
    obtain ⟨h2, h3⟩ := nn_pair h
    simp only [Layer.eq, Layer.forget, Layer.baseEq, beq_self_eq_true, Bool.true_and, vecEq_refl fun x hx => Neuron.eq_refl (nn_vec h2 x hx),
      if_true, optsEq_refl (nn_vec h3)]
  | recurrence ns =>
    simp only [Layer.codec] at h
    obtain ⟨h1, h⟩ := nn_pair (nn_cons h)
    obtain ⟨h2, h3⟩ := nn_pair h
    simp only [Layer.eq, Layer.forget, Layer.baseEq, beq_self_eq_true, Bool.true_and,
      vecEq_refl fun x hx => RecNeuron.eq_refl (nn_vec h2 x hx), if_true, optsEq_refl (nn_vec h3)]
  | gru ns =>
    simp only [Layer.codec] at h
    obtain ⟨h1, h⟩ := nn_pair (nn_cons h)
    obtain ⟨h2, h3⟩ := nn_pair h
    simp only [Layer.eq, Layer.forget, Layer.baseEq, beq_self_eq_true, Bool.true_and,
      vecEq_map fun x hx => Gru.eq_refl (nn_vec h2 x hx), if_true, optsEq_refl (nn_vec h3)]
  | filter k ns info =>
    have h' : (pair (Layer.baseCodec Neuron.codec) FilterInfo.codec).NoNan ((i, ns, os), info) := by
      cases k <;> exact nn_cons h
    obtain ⟨h', h4⟩ := nn_pair h'
    obtain ⟨h1, h⟩ := nn_pair h'
    obtain ⟨h2, h3⟩ := nn_pair h
    simp only [Layer.eq, Layer.forget, Layer.baseEq, beq_self_eq_true, Bool.true_and, Bool.and_true,
      vecEq_refl fun x hx => Neuron.eq_refl (nn_vec h2 x hx), if_true, optsEq_refl (nn_vec h3), Res.ok_bind, Res.pure_eq]
  | pool t info k m => simp [Layer.eq, Layer.forget]

theorem layersEq_forget : ∀ {ls : List (Layer F)}, (∀ l ∈ ls, Layer.codec.NoNan l) → layersEq ls (ls.map Layer.forget) = .ok true
  | [], _ => rfl
  | l :: ls, h => by
    simp only [List.map_cons, layersEq, Layer.eq_forget (h l (by simp)), Res.ok_bind, if_true]
    exact layersEq_forget fun x hx => h x (List.mem_cons_of_mem _ hx)

theorem Snn.eq_forget {s : Snn F} (h1 : Sgd.codec.NoNan s.net.optimizer) (h2 : (vec Layer.codec).NoNan s.net.layers) :
    s.eq s.forget = .ok true := by
  simp only [Snn.eq, Snn.forget, Net.eq, Net.forget, Sgd.eq_refl h1, List.length_map, beq_self_eq_true, Bool.and_self, if_true,
    layersEq_forget (nn_vec h2), Res.ok_bind, Res.pure_eq]

/-! ### Reflexivity: comparing with `forget` is comparing with itself -/

theorem vecEq_congr {α : Type} {eq : α → α → Bool} {f : α → α} (hf : ∀ x y, eq x (f y) = eq x y) : ∀ (l m : List α),
    vecEq eq l (m.map f) = vecEq eq l m
  | [], [] => rfl
  | [], b :: bs => rfl
  | a :: as, [] => rfl
  | a :: as, b :: bs => by simp only [List.map_cons, vecEq, hf, vecEq_congr hf]

theorem Layer.eq_forget_right (l m : Layer F) : l.eq m.forget = l.eq m := by
  obtain ⟨i, o, b⟩ := l
  obtain ⟨i', o', b'⟩ := m
  cases b' with
  | gru ms =>
    cases b with
    | gru ns =>
      simp only [Layer.eq, Layer.forget, Layer.baseEq]
      rw [vecEq_congr (eq := Gru.eq) (f := Gru.forget) (fun _ _ => rfl) ns ms]
      rfl
    | _ => rfl
  | _ => rfl

theorem layersEq_forget_right : ∀ (ls ms : List (Layer F)), layersEq ls (ms.map Layer.forget) = layersEq ls ms
  | [], [] => rfl
  | [], b :: bs => rfl
  | a :: as, [] => rfl
  | a :: as, b :: bs => by
    simp only [List.map_cons, layersEq, Layer.eq_forget_right, layersEq_forget_right as bs]

theorem Snn.eq_refl {s : Snn F} (h1 : Sgd.codec.NoNan s.net.optimizer) (h2 : (vec Layer.codec).NoNan s.net.layers) :
    s.eq s = .ok true := by
  rw [← Snn.eq_forget h1 h2]
  simp only [Snn.eq, Snn.forget, Net.eq, Net.forget, List.length_map, layersEq_forget_right]

/-! ### Symmetry and transitivity -/

end

/-- The laws of `==` on floats (NaN included): symmetric and transitive. -/
structure FeqLaws (F : Type) [Flt F] : Prop where
  symm : ∀ x y : F, feq x y = feq y x
  trans : ∀ x y z : F, feq x y = true → feq y z = true → feq x z = true

section
variable {F : Type} [Flt F]

theorem vecEq_comm {α : Type} {eq : α → α → Bool} (h : ∀ x y, eq x y = eq y x) : ∀ l m : List α, vecEq eq l m = vecEq eq m l
  | [], [] => rfl
  | [], b :: bs => rfl
  | a :: as, [] => rfl
  | a :: as, b :: bs => by simp only [vecEq, h a b, vecEq_comm h as bs]

theorem vecEq_trans {α : Type} {eq : α → α → Bool} (h : ∀ x y z, eq x y = true → eq y z = true → eq x z = true) :
    ∀ l m n : List α, vecEq eq l m = true → vecEq eq m n = true → vecEq eq l n = true
  | [], [], n, _, h2 => h2
  | [], b :: bs, n, h1, _ => by cases h1
  | a :: as, [], n, h1, _ => by cases h1
  | a :: as, b :: bs, [], _, h2 => by cases h2
  | a :: as, b :: bs, c :: cs, h1, h2 => by
    simp only [vecEq, Bool.and_eq_true] at h1 h2 ⊢
    exact ⟨h _ _ _ h1.1 h2.1, vecEq_trans h as bs cs h1.2 h2.2⟩

theorem bcomm {α : Type} [BEq α] [LawfulBEq α] (x y : α) : (x == y) = (y == x) := by
  rw [Bool.eq_iff_iff]; simp only [beq_iff_eq]; exact eq_comm

variable (L : FeqLaws F)
include L

theorem Circ.eq_comm (a b : Circ F) : a.eq b = b.eq a := by
  simp only [Circ.eq, bcomm a.indexGet, bcomm a.indexPush, vecEq_comm (vecEq_comm L.symm) a.queue]

theorem Circ.eq_trans (a b c : Circ F) (h1 : a.eq b = true) (h2 : b.eq c = true) : a.eq c = true := by
  simp only [Circ.eq, Bool.and_eq_true, beq_iff_eq] at h1 h2 ⊢
  exact ⟨⟨vecEq_trans (vecEq_trans L.trans) _ _ _ h1.1.1 h2.1.1, h1.1.2.trans h2.1.2⟩, h1.2.trans h2.2⟩

theorem Sgd.eq_comm (a b : Sgd F) : a.eq b = b.eq a := by simp only [Sgd.eq, L.symm a.learningRate, L.symm a.momentum]

theorem Sgd.eq_trans (a b c : Sgd F) (h1 : a.eq b = true) (h2 : b.eq c = true) : a.eq c = true := by
  simp only [Sgd.eq, Bool.and_eq_true] at h1 h2 ⊢
  exact ⟨L.trans _ _ _ h1.1 h2.1, L.trans _ _ _ h1.2 h2.2⟩

theorem Neuron.eq_comm (a b : Neuron F) : a.eq b = b.eq a := by
  simp only [Neuron.eq, bcomm a.numberOfInputs, vecEq_comm L.symm a.weights, L.symm a.bias, Circ.eq_comm L a.previousDeltaWeights,
    Circ.eq_comm L a.lastInputs, vecEq_comm L.symm a.errors, L.symm a.sum, bcomm a.activationFunction, Sgd.eq_comm L a.optimizer]

theorem Neuron.eq_trans (a b c : Neuron F) (h1 : a.eq b = true) (h2 : b.eq c = true) : a.eq c = true := by
  simp only [Neuron.eq, Bool.and_eq_true, beq_iff_eq] at h1 h2 ⊢
  obtain ⟨⟨⟨⟨⟨⟨⟨⟨a1, a2⟩, a3⟩, a4⟩, a5⟩, a6⟩, a7⟩, a8⟩, a9⟩ := h1
  obtain ⟨⟨⟨⟨⟨⟨⟨⟨b1, b2⟩, b3⟩, b4⟩, b5⟩, b6⟩, b7⟩, b8⟩, b9⟩ := h2
  exact ⟨⟨⟨⟨⟨⟨⟨⟨a1.trans b1, vecEq_trans L.trans _ _ _ a2 b2⟩, L.trans _ _ _ a3 b3⟩, Circ.eq_trans L _ _ _ a4 b4⟩,
    Circ.eq_trans L _ _ _ a5 b5⟩, vecEq_trans L.trans _ _ _ a6 b6⟩, L.trans _ _ _ a7 b7⟩, a8.trans b8⟩, Sgd.eq_trans L _ _ _ a9 b9⟩

theorem RecNeuron.eq_comm (a b : RecNeuron F) : a.eq b = b.eq a := by
  simp only [RecNeuron.eq, Neuron.eq_comm L a.base, L.symm a.lastOutput, L.symm a.previousOutput, L.symm a.recurrentError, L.symm a.previousSum]

theorem RecNeuron.eq_trans (a b c : RecNeuron F) (h1 : a.eq b = true) (h2 : b.eq c = true) : a.eq c = true := by
  simp only [RecNeuron.eq, Bool.and_eq_true] at h1 h2 ⊢
  obtain ⟨⟨⟨⟨a1, a2⟩, a3⟩, a4⟩, a5⟩ := h1
  obtain ⟨⟨⟨⟨b1, b2⟩, b3⟩, b4⟩, b5⟩ := h2
  exact ⟨⟨⟨⟨Neuron.eq_trans L _ _ _ a1 b1, L.trans _ _ _ a2 b2⟩, L.trans _ _ _ a3 b3⟩, L.trans _ _ _ a4 b4⟩, L.trans _ _ _ a5 b5⟩

theorem Gru.eq_comm (a b : Gru F) : a.eq b = b.eq a := by
  simp only [Gru.eq, bcomm a.numberOfInputs, L.symm a.previousOutput, L.symm a.recurrentError, L.symm a.updateGateOutput,
    L.symm a.outputGateOutput, RecNeuron.eq_comm L a.resetGate, RecNeuron.eq_comm L a.updateGate, RecNeuron.eq_comm L a.outputGate]

theorem Gru.eq_trans (a b c : Gru F) (h1 : a.eq b = true) (h2 : b.eq c = true) : a.eq c = true := by
  simp only [Gru.eq, Bool.and_eq_true, beq_iff_eq] at h1 h2 ⊢
  obtain ⟨⟨⟨⟨⟨⟨⟨a1, a2⟩, a3⟩, a4⟩, a5⟩, a6⟩, a7⟩, a8⟩ := h1
  obtain ⟨⟨⟨⟨⟨⟨⟨b1, b2⟩, b3⟩, b4⟩, b5⟩, b6⟩, b7⟩, b8⟩ := h2
  exact ⟨⟨⟨⟨⟨⟨⟨a1.trans b1, L.trans _ _ _ a2 b2⟩, L.trans _ _ _ a3 b3⟩, L.trans _ _ _ a4 b4⟩, L.trans _ _ _ a5 b5⟩,
    RecNeuron.eq_trans L _ _ _ a6 b6⟩, RecNeuron.eq_trans L _ _ _ a7 b7⟩, RecNeuron.eq_trans L _ _ _ a8 b8⟩

theorem LayerOpt.eq_comm (a b : LayerOpt F) : a.eq b = b.eq a := by
  cases a <;> cases b <;> simp only [LayerOpt.eq] <;> first | rfl | exact L.symm _ _ | rw [L.symm, L.symm (_ : F) (_ : F)] | skip
  all_goals rename_i v rv _ w rw _; rw [L.symm v, L.symm rv]

theorem LayerOpt.eq_trans (a b c : LayerOpt F) (h1 : a.eq b = true) (h2 : b.eq c = true) : a.eq c = true := by
  cases a <;> cases b <;> simp only [LayerOpt.eq, Bool.false_eq_true] at h1 <;> cases c <;>
    simp only [LayerOpt.eq, Bool.false_eq_true, Bool.and_eq_true] at h1 h2 ⊢
  · exact ⟨L.trans _ _ _ h1.1 h2.1, L.trans _ _ _ h1.2 h2.2⟩
  all_goals exact L.trans _ _ _ h1 h2

theorem optsEq_trans : ∀ (os ps qs : List (LayerOpt F)), optsEq os ps = .ok true → optsEq ps qs = .ok true → optsEq os qs = .ok true
  | [], _, _, _, _ => rfl
  | o :: os, [], _, h, _ => by cases h
  | o :: os, p :: ps, [], _, h => by cases h
  | o :: os, p :: ps, q :: qs, h1, h2 => by
    simp only [optsEq] at h1 h2 ⊢
    split at h1
    · rename_i e1
      split at h2
      · rename_i e2
        rw [if_pos (LayerOpt.eq_trans L _ _ _ e1 e2)]
        exact optsEq_trans os ps qs h1 h2
      · cases h2
    · cases h1

theorem optsEq_comm : ∀ (os ps : List (LayerOpt F)), os.length = ps.length → optsEq os ps = optsEq ps os
  | [], [], _ => rfl
  | [], p :: ps, h => by cases h
  | o :: os, [], h => by cases h
  | o :: os, p :: ps, h => by
    simp only [optsEq, LayerOpt.eq_comm L o p]
    rw [optsEq_comm os ps (by simpa using h)]

theorem Layer.baseEq_trans {a b c : Layer F} {n1 n2 n3 : Bool} (hn : n1 = true → n2 = true → n3 = true)
    (h1 : a.baseEq b n1 = .ok true) (h2 : b.baseEq c n2 = .ok true) : a.baseEq c n3 = .ok true := by
  unfold Layer.baseEq at h1 h2 ⊢
  split at h1
  · rename_i e1
    split at h2
    · rename_i e2
      simp only [Bool.and_eq_true, beq_iff_eq] at e1 e2
      rw [if_pos (by simp [e1.1.trans e2.1, hn e1.2 e2.2])]
      exact optsEq_trans L _ _ _ h1 h2
    · cases h2
  · cases h1

theorem Layer.baseEq_comm {a b : Layer F} {n1 n2 : Bool} (hn : n1 = n2) (ho : a.optimizers.length = b.optimizers.length) :
    a.baseEq b n1 = b.baseEq a n2 := by
  unfold Layer.baseEq
  rw [hn, bcomm a.numberOfInputs, optsEq_comm L _ _ ho]

theorem Layer.eq_comm {a b : Layer F} (ho : a.optimizers.length = b.optimizers.length) : a.eq b = b.eq a := by
  obtain ⟨i, o, ba⟩ := a
  obtain ⟨i', o', bb⟩ := b
  cases ba <;> cases bb <;> simp only [Layer.eq]
  · exact Layer.baseEq_comm L (vecEq_comm (Neuron.eq_comm L) _ _) ho
  · exact Layer.baseEq_comm L (vecEq_comm (RecNeuron.eq_comm L) _ _) ho
  · exact Layer.baseEq_comm L (vecEq_comm (Gru.eq_comm L) _ _) ho
  · rename_i k ns inf k' ms jnf
    rw [bcomm k, bcomm inf, Layer.baseEq_comm L (vecEq_comm (Neuron.eq_comm L) _ _) ho]
  · rename_i t inf _ _ t' jnf _ _
    rw [bcomm t, bcomm inf.kernelSize, bcomm inf.shapeOfInput]

theorem Layer.eq_trans {a b c : Layer F} (h1 : a.eq b = .ok true) (h2 : b.eq c = .ok true) : a.eq c = .ok true := by
  obtain ⟨i, o, ba⟩ := a
  obtain ⟨i', o', bb⟩ := b
  obtain ⟨i'', o'', bc⟩ := c
  cases ba <;> cases bb <;> simp only [Layer.eq, Res.ok.injEq, Bool.false_eq_true] at h1 <;> cases bc <;>
    simp only [Layer.eq, Res.ok.injEq, Bool.false_eq_true] at h1 h2 ⊢
  · exact Layer.baseEq_trans L (vecEq_trans (Neuron.eq_trans L) _ _ _) h1 h2
  · exact Layer.baseEq_trans L (vecEq_trans (RecNeuron.eq_trans L) _ _ _) h1 h2
  · exact Layer.baseEq_trans L (vecEq_trans (Gru.eq_trans L) _ _ _) h1 h2
  · rename_i k ns i1 k' ms i2 k'' os i3
    split at h1
    · rename_i e1
      split at h2
      · rename_i e2
        obtain ⟨c1, d1, h1⟩ := Res.bind_eq_ok.1 h1
        obtain ⟨c2, d2, h2⟩ := Res.bind_eq_ok.1 h2
        simp only [Res.pure_eq, Res.ok.injEq, Bool.and_eq_true, beq_iff_eq] at h1 h2 e1 e2
        obtain ⟨rfl, rfl⟩ := h1
        obtain ⟨rfl, rfl⟩ := h2
        subst e1 e2
        rw [if_pos (by simp), Layer.baseEq_trans L (vecEq_trans (Neuron.eq_trans L) _ _ _) d1 d2]
        simp
      · cases h2
    · cases h1
  · simp only [Bool.and_eq_true, beq_iff_eq] at h1 h2 ⊢
    exact ⟨⟨h1.1.1.trans h2.1.1, h1.1.2.trans h2.1.2⟩, h1.2.trans h2.2⟩

theorem layersEq_trans : ∀ (as bs cs : List (Layer F)), layersEq as bs = .ok true → layersEq bs cs = .ok true → layersEq as cs = .ok true
  | [], _, _, _, _ => rfl
  | a :: as, [], _, h, _ => by cases h
  | a :: as, b :: bs, [], _, h => by cases h
  | a :: as, b :: bs, c :: cs, h1, h2 => by
    simp only [layersEq] at h1 h2 ⊢
    obtain ⟨c1, d1, h1⟩ := Res.bind_eq_ok.1 h1
    obtain ⟨c2, d2, h2⟩ := Res.bind_eq_ok.1 h2
    cases c1 <;> simp only [Bool.false_eq_true, if_false, if_true] at h1
    · cases h1
    cases c2 <;> simp only [Bool.false_eq_true, if_false, if_true] at h2
    · cases h2
    rw [Layer.eq_trans L d1 d2]
    exact layersEq_trans as bs cs h1 h2

theorem layersEq_comm : ∀ (as bs : List (Layer F)), as.length = bs.length →
    (∀ p ∈ as.zip bs, p.1.optimizers.length = p.2.optimizers.length) → layersEq as bs = layersEq bs as
  | [], [], _, _ => rfl
  | [], p :: ps, h, _ => by cases h
  | o :: os, [], h, _ => by cases h
  | a :: as, b :: bs, h, ho => by
    simp only [layersEq]
    rw [Layer.eq_comm L (ho (a, b) (by simp)), layersEq_comm as bs (by simpa using h) fun p hp => ho p (by simp [hp])]

theorem Snn.eq_trans {a b c : Snn F} (h1 : a.eq b = .ok true) (h2 : b.eq c = .ok true) : a.eq c = .ok true := by
  unfold Snn.eq at h1 h2 ⊢
  obtain ⟨c1, d1, h1⟩ := Res.bind_eq_ok.1 h1
  obtain ⟨c2, d2, h2⟩ := Res.bind_eq_ok.1 h2
  simp only [Res.pure_eq, Res.ok.injEq, Bool.and_eq_true, beq_iff_eq] at h1 h2
  obtain ⟨⟨⟨⟨⟨⟨⟨rfl, a2⟩, a3⟩, a4⟩, a5⟩, a6⟩, a7⟩, a8⟩ := h1
  obtain ⟨⟨⟨⟨⟨⟨⟨rfl, b2⟩, b3⟩, b4⟩, b5⟩, b6⟩, b7⟩, b8⟩ := h2
  have : a.net.eq c.net = .ok true := by
    unfold Net.eq at d1 d2 ⊢
    split at d1
    · rename_i e1
      split at d2
      · rename_i e2
        simp only [Bool.and_eq_true, beq_iff_eq] at e1 e2
        rw [if_pos (by simp [Sgd.eq_trans L _ _ _ e1.1 e2.1, e1.2.trans e2.2])]
        exact layersEq_trans L _ _ _ d1 d2
      · cases d2
    · cases d1
  rw [this]
  simp [a2, a3, a4, a5, a6, a7, a8, b2, b3, b4, b5, b6, b7, b8]

theorem Snn.eq_comm {a b : Snn F} (ho : ∀ p ∈ a.net.layers.zip b.net.layers, p.1.optimizers.length = p.2.optimizers.length) :
    a.eq b = b.eq a := by
  have : a.net.eq b.net = b.net.eq a.net := by
    unfold Net.eq
    rw [Sgd.eq_comm L a.net.optimizer, bcomm a.net.layers.length]
    split
    · rename_i e
      simp only [Bool.and_eq_true, beq_iff_eq] at e
      exact layersEq_comm L _ _ e.2.symm ho
    · rfl
  unfold Snn.eq
  rw [this, bcomm a.autoSaveFilePath, bcomm a.autoSaveWhenBetter, bcomm a.wantToStopTraining, bcomm a.index, bcomm a.isIdle,
    bcomm a.epoch, bcomm a.numberOfTrainingsBetweenTwoEvaluations]

omit L in
theorem optsEq_total : ∀ (os ps : List (LayerOpt F)), os.length ≤ ps.length → ∃ b, optsEq os ps = .ok b
  | [], _, _ => ⟨true, rfl⟩
  | o :: os, [], h => by simp at h
  | o :: os, p :: ps, h => by
    simp only [optsEq]
    split
    · exact optsEq_total os ps (by simpa using h)
    · exact ⟨_, rfl⟩

omit L in
theorem Layer.eq_total {a b : Layer F} (ho : a.optimizers.length ≤ b.optimizers.length) : ∃ e, a.eq b = .ok e := by
  have hb : ∀ n, ∃ e, a.baseEq b n = .ok e := by
    intro n
    unfold Layer.baseEq
    split
    · exact optsEq_total _ _ ho
    · exact ⟨_, rfl⟩
  have hb' : ∀ n x, ∃ e, (a.baseEq b n >>= fun e => pure (e && x)) = .ok e := by
    intro n x
    obtain ⟨e, he⟩ := hb n
    rw [he]
    exact ⟨_, rfl⟩
  unfold Layer.eq
  split
  · exact hb _
  · exact hb _
  · exact hb _
  · split
    · exact hb' _ _
    · exact ⟨_, rfl⟩
  · exact ⟨_, rfl⟩
  · exact ⟨_, rfl⟩

omit L in
theorem Snn.eq_total {a b : Snn F} (ho : ∀ p ∈ a.net.layers.zip b.net.layers, p.1.optimizers.length ≤ p.2.optimizers.length) :
    ∃ e, a.eq b = .ok e := by
  have hl : ∀ (as bs : List (Layer F)), as.length = bs.length →
      (∀ p ∈ as.zip bs, p.1.optimizers.length ≤ p.2.optimizers.length) → ∃ e, layersEq as bs = .ok e := by
    intro as
    induction as with
    | nil => exact fun _ _ _ => ⟨_, rfl⟩
    | cons a as ih =>
      intro bs hlen h
      cases bs with
      | nil => cases hlen
      | cons b bs =>
        obtain ⟨e, he⟩ := Layer.eq_total (h (a, b) (by simp))
        simp only [layersEq, he, Res.ok_bind]
        split
        · exact ih bs (by simpa using hlen) fun p hp => h p (by simp [hp])
        · exact ⟨_, rfl⟩
  have : ∃ e, a.net.eq b.net = .ok e := by
    unfold Net.eq
    split
    · rename_i e
      simp only [Bool.and_eq_true, beq_iff_eq] at e
      exact hl _ _ e.2 ho
    · exact ⟨_, rfl⟩
  obtain ⟨e, he⟩ := this
  unfold Snn.eq
  rw [he]
  exact ⟨_, rfl⟩

end

end Snn
