import Verif.Proofs.LayerWF
import Verif.Spec.LayerSpec

/-! What no operation of a layer changes: its structure, and the bias, activation and optimizer of its neurons. -/

set_option linter.all false

namespace Snn

open Snn.Spec

section
variable {F : Type}

/-- What training keeps of a recurrent neuron. -/
def RecNeuron.Kin (n n' : RecNeuron F) : Prop := n.base.Kin n'.base

/-- What training keeps of a gated recurrent unit. -/
structure Gru.Kin (g g' : Gru F) : Prop where
  inputs : g'.numberOfInputs = g.numberOfInputs
  r : g.resetGate.Kin g'.resetGate
  u : g.updateGate.Kin g'.updateGate
  o : g.outputGate.Kin g'.outputGate

variable [Flt F] [FTrans F] [Add F] [Sub F] [Mul F] [Div F] [Neg F]

theorem Gru.Kin.refl (g : Gru F) : g.Kin g := ⟨rfl, Neuron.Kin.refl _, Neuron.Kin.refl _, Neuron.Kin.refl _⟩
theorem Gru.Kin.trans {a b c : Gru F} (h : a.Kin b) (k : b.Kin c) : a.Kin c :=
  ⟨k.1.trans h.1, Neuron.Kin.trans h.2 k.2, Neuron.Kin.trans h.3 k.3, Neuron.Kin.trans h.4 k.4⟩

/-- What training keeps of a layer body. -/
def Body.Kin (b b' : Body F) : Prop :=
  match b, b' with
  | .fullyConnected ns, .fullyConnected ns' => List.Forall₂ Neuron.Kin ns ns'
  | .recurrence ns, .recurrence ns' => List.Forall₂ RecNeuron.Kin ns ns'
  | .gru ns, .gru ns' => List.Forall₂ Gru.Kin ns ns'
  | .filter k ns info, .filter k' ns' info' => k' = k ∧ List.Forall₂ Neuron.Kin ns ns' ∧ info' = info
  | .pool d info o m, .pool d' info' o' m' => d' = d ∧ info' = info ∧ o' = o ∧ m'.length = m.length
  | _, _ => False

theorem Body.Kin.refl (b : Body F) : b.Kin b := by
  cases b <;> simp only [Body.Kin]
  · exact forall₂_refl Neuron.Kin.refl _
  · exact forall₂_refl (fun n => Neuron.Kin.refl n.base) _
  · exact forall₂_refl Gru.Kin.refl _
  · exact ⟨trivial, forall₂_refl Neuron.Kin.refl _, trivial⟩
  · simp

theorem Body.Kin.trans {a b c : Body F} (h : a.Kin b) (k : b.Kin c) : a.Kin c := by
  cases a <;> cases b <;> simp only [Body.Kin] at h <;> cases c <;> simp only [Body.Kin] at k ⊢
  · exact forall₂_trans (R := Neuron.Kin) (fun _ _ _ a b => a.trans b) h k
  · exact forall₂_trans (R := RecNeuron.Kin) (fun _ _ _ a b => Neuron.Kin.trans a b) h k
  · exact forall₂_trans (R := Gru.Kin) (fun _ _ _ a b => a.trans b) h k
  · exact ⟨k.1.trans h.1, forall₂_trans (R := Neuron.Kin) (fun _ _ _ a b => a.trans b) h.2.1 k.2.1, k.2.2.trans h.2.2⟩
  · exact ⟨k.1.trans h.1, k.2.1.trans h.2.1, k.2.2.1.trans h.2.2.1, k.2.2.2.trans h.2.2.2⟩

theorem Body.Same.kin {b b' : Body F} (h : b.Same b') : b.Kin b' := by
  cases b <;> cases b' <;> simp only [Body.Same] at h <;> simp only [Body.Kin]
  · exact h.imp fun _ _ h => h.kin
  · exact h.imp fun _ _ h => Neuron.Same.kin h
  · exact h.imp fun _ _ h => ⟨h.1, Neuron.Same.kin h.3, Neuron.Same.kin h.4, Neuron.Same.kin h.5⟩
  · exact ⟨h.1, h.2.1.imp fun _ _ h => h.kin, h.2.2⟩
  · exact h

theorem Sgd.updateRec_kin {o : Sgd F} {n n' : RecNeuron F} {e : F} (h : o.updateRec n e = .ok n') : n.Kin n' := by
  unfold Sgd.updateRec at h
  obtain ⟨⟨_, li⟩, _, h⟩ := Res.bind_eq_ok.1 h
  obtain ⟨⟨_, pd⟩, _, h⟩ := Res.bind_eq_ok.1 h
  obtain ⟨⟨_, ws⟩, hw, h⟩ := Res.bind_eq_ok.1 h
  obtain ⟨_, _, h⟩ := Res.bind_eq_ok.1 h
  obtain ⟨_, hr, h⟩ := Res.bind_eq_ok.1 h
  obtain ⟨_, _, h⟩ := Res.bind_eq_ok.1 h
  obtain ⟨_, _, h⟩ := Res.bind_eq_ok.1 h
  cases h
  have h1 := sgdLoop_length hw
  have h2 := rd_lt hr
  exact ⟨rfl, rfl, rfl, rfl, rfl, by simp; omega⟩

theorem RecNeuron.train_kin {n n' : RecNeuron F} {e : F} (h : n.train e = .ok n') : n.Kin n' := by
  unfold RecNeuron.train at h
  obtain ⟨_, _, h⟩ := Res.bind_eq_ok.1 h
  exact Sgd.updateRec_kin h

theorem RecNeuron.backOutput_kin {n n' : RecNeuron F} {e : F} {es : List F} (h : n.backOutput e = .ok (es, n')) : n.Kin n' := by
  unfold RecNeuron.backOutput at h
  obtain ⟨_, _, h⟩ := Res.bind_eq_ok.1 h
  obtain ⟨_, _, h⟩ := Res.bind_eq_ok.1 h
  obtain ⟨n1, h1, h⟩ := Res.bind_eq_ok.1 h
  cases h
  have := Sgd.updateRec_kin h1
  exact ⟨this.1, this.2, this.3, this.4, this.5, this.6⟩

theorem Gru.backOutput_kin {g g' : Gru F} {e : F} {es : List F} (h : g.backOutput e = .ok (es, g')) : g.Kin g' := by
  unfold Gru.backOutput at h
  obtain ⟨⟨_, og⟩, h1, h⟩ := Res.bind_eq_ok.1 h
  obtain ⟨⟨_, ug⟩, h2, h⟩ := Res.bind_eq_ok.1 h
  obtain ⟨_, _, h⟩ := Res.bind_eq_ok.1 h
  obtain ⟨⟨_, rg⟩, h3, h⟩ := Res.bind_eq_ok.1 h
  cases h
  exact ⟨rfl, RecNeuron.backOutput_kin h3, RecNeuron.backOutput_kin h2, RecNeuron.backOutput_kin h1⟩

theorem Gru.train_kin {g g' : Gru F} {e : F} (h : g.train e = .ok g') : g.Kin g' := by
  unfold Gru.train at h
  obtain ⟨⟨_, og⟩, h1, h⟩ := Res.bind_eq_ok.1 h
  obtain ⟨⟨_, ug⟩, h2, h⟩ := Res.bind_eq_ok.1 h
  obtain ⟨_, _, h⟩ := Res.bind_eq_ok.1 h
  obtain ⟨⟨_, rg⟩, h3, h⟩ := Res.bind_eq_ok.1 h
  cases h
  exact ⟨rfl, RecNeuron.backOutput_kin h3, RecNeuron.backOutput_kin h2, RecNeuron.backOutput_kin h1⟩

theorem backNeurons_inv {N : Type} {f : N → F → Res (List F × N)} {P : N → N → Prop} (hP : ∀ n e y n', f n e = .ok (y, n') → P n n') :
    ∀ {ns ns' : List N} {es acc r : List F}, backNeurons f ns es acc = .ok (r, ns') → List.Forall₂ P ns ns'
  | [], ns', es, acc, r, h => by cases es <;> (cases h; exact .nil)
  | n :: ns, ns', [], acc, r, h => by cases h
  | n :: ns, ns', e :: es, acc, r, h => by
    unfold backNeurons at h
    obtain ⟨⟨_, n'⟩, h1, h⟩ := Res.bind_eq_ok.1 h
    obtain ⟨_, _, h⟩ := Res.bind_eq_ok.1 h
    obtain ⟨⟨_, ns1⟩, h2, h⟩ := Res.bind_eq_ok.1 h
    cases h
    exact .cons (hP _ _ _ _ h1) (backNeurons_inv hP h2)

theorem trainNeurons_inv {N : Type} {f : N → F → Res N} {P : N → N → Prop} (hP : ∀ n e n', f n e = .ok n' → P n n') :
    ∀ {ns ns' : List N} {es : List F}, trainNeurons f ns es = .ok ns' → List.Forall₂ P ns ns'
  | [], ns', es, h => by cases es <;> (cases h; exact .nil)
  | n :: ns, ns', [], h => by cases h
  | n :: ns, ns', e :: es, h => by
    unfold trainNeurons at h
    obtain ⟨n', h1, h⟩ := Res.bind_eq_ok.1 h
    obtain ⟨ns1, h2, h⟩ := Res.bind_eq_ok.1 h
    cases h
    exact .cons (hP _ _ _ h1) (trainNeurons_inv hP h2)

theorem convBackRow_kin {row : List Int} : ∀ {ns ns' : List (Neuron F)} {es acc r : List F},
    convBackRow row ns es acc = .ok (r, ns') → List.Forall₂ Neuron.Kin ns ns'
  | [], ns', es, acc, r, h => by cases es <;> (cases h; exact .nil)
  | n :: ns, ns', [], acc, r, h => by cases h
  | n :: ns, ns', e :: es, acc, r, h => by
    unfold convBackRow at h
    obtain ⟨⟨_, n'⟩, h1, h⟩ := Res.bind_eq_ok.1 h
    obtain ⟨_, _, h⟩ := Res.bind_eq_ok.1 h
    obtain ⟨⟨_, ns1⟩, h2, h⟩ := Res.bind_eq_ok.1 h
    cases h
    exact .cons (Neuron.backOutput_kin h1) (convBackRow_kin h2)

theorem convBack_kin : ∀ {rows : List (List Int)} {ns ns' : List (Neuron F)} {es acc r : List F},
    convBack rows ns es acc = .ok (r, ns') → List.Forall₂ Neuron.Kin ns ns'
  | [], ns, ns', es, acc, r, h => by cases h; exact forall₂_refl Neuron.Kin.refl _
  | row :: rows, ns, ns', es, acc, r, h => by
    unfold convBack at h
    obtain ⟨⟨_, ns1⟩, h1, h⟩ := Res.bind_eq_ok.1 h
    exact forall₂_trans (R := Neuron.Kin) (fun _ _ _ a b => a.trans b) (convBackRow_kin h1) (convBack_kin h)

theorem lcBack_kin {rowOf : Nat → Res (List Int)} : ∀ {i : Nat} {ns ns' : List (Neuron F)} {es acc r : List F},
    lcBack rowOf i ns es acc = .ok (r, ns') → List.Forall₂ Neuron.Kin ns ns'
  | i, [], ns', es, acc, r, h => by cases es <;> (cases h; exact .nil)
  | i, n :: ns, ns', [], acc, r, h => by cases h
  | i, n :: ns, ns', e :: es, acc, r, h => by
    unfold lcBack at h
    obtain ⟨⟨_, n'⟩, h1, h⟩ := Res.bind_eq_ok.1 h
    obtain ⟨_, _, h⟩ := Res.bind_eq_ok.1 h
    obtain ⟨_, _, h⟩ := Res.bind_eq_ok.1 h
    obtain ⟨⟨_, ns1⟩, h2, h⟩ := Res.bind_eq_ok.1 h
    cases h
    exact .cons (Neuron.backOutput_kin h1) (lcBack_kin h2)

theorem Body.computeBackOutput_kin {b b' : Body F} {ni : Int} {es r : List F} (h : b.computeBackOutput ni es = .ok (r, b')) :
    b.Kin b' := by
  unfold Body.computeBackOutput at h
  obtain ⟨_, _, h⟩ := Res.bind_eq_ok.1 h
  cases b with
  | fullyConnected ns =>
    obtain ⟨⟨_, ns'⟩, h1, h⟩ := Res.bind_eq_ok.1 h
    cases h
    exact backNeurons_inv (P := Neuron.Kin) (fun _ _ _ _ h => Neuron.backOutput_kin h) h1
  | recurrence ns =>
    obtain ⟨⟨_, ns'⟩, h1, h⟩ := Res.bind_eq_ok.1 h
    cases h
    exact backNeurons_inv (P := RecNeuron.Kin) (fun _ _ _ _ h => RecNeuron.backOutput_kin h) h1
  | gru ns =>
    obtain ⟨⟨_, ns'⟩, h1, h⟩ := Res.bind_eq_ok.1 h
    cases h
    exact backNeurons_inv (P := Gru.Kin) (fun _ _ _ _ h => Gru.backOutput_kin h) h1
  | filter kind ns info =>
    obtain ⟨⟨_, ns'⟩, h1, h⟩ := Res.bind_eq_ok.1 h
    cases h
    refine ⟨rfl, ?_, rfl⟩
    cases kind <;> first | exact convBack_kin h1 | exact lcBack_kin h1
  | pool twoD info o mvi =>
    obtain ⟨_, _, h⟩ := Res.bind_eq_ok.1 h
    cases h
    exact ⟨rfl, rfl, rfl, rfl⟩

theorem Body.computeTrain_kin {b b' : Body F} {es : List F} (h : b.computeTrain es = .ok b') : b.Kin b' := by
  unfold Body.computeTrain at h
  cases b with
  | fullyConnected ns =>
    obtain ⟨ns', h1, h⟩ := Res.bind_eq_ok.1 h
    cases h
    exact trainNeurons_inv (P := Neuron.Kin) (fun _ _ _ h => Neuron.train_kin h) h1
  | recurrence ns =>
    obtain ⟨ns', h1, h⟩ := Res.bind_eq_ok.1 h
    cases h
    exact trainNeurons_inv (P := RecNeuron.Kin) (fun _ _ _ h => RecNeuron.train_kin h) h1
  | gru ns =>
    obtain ⟨ns', h1, h⟩ := Res.bind_eq_ok.1 h
    cases h
    exact trainNeurons_inv (P := Gru.Kin) (fun _ _ _ h => Gru.train_kin h) h1
  | filter kind ns info =>
    obtain ⟨ns', h1, h⟩ := Res.bind_eq_ok.1 h
    cases h
    exact ⟨rfl, trainNeurons_inv (P := Neuron.Kin) (fun _ _ _ h => Neuron.train_kin h) h1, rfl⟩
  | pool twoD info o mvi =>
    cases h
    exact ⟨rfl, rfl, rfl, rfl⟩

theorem Layer.backOutput_kin {l l' : Layer F} {e y : List F} (h : l.backOutput e = .ok (y, l')) :
    l'.numberOfInputs = l.numberOfInputs ∧ l'.optimizers = l.optimizers ∧ l.body.Kin l'.body := by
  unfold Layer.backOutput at h
  obtain ⟨⟨_, b⟩, h1, h⟩ := Res.bind_eq_ok.1 h
  cases h
  exact ⟨rfl, rfl, Body.computeBackOutput_kin h1⟩

theorem Layer.train_kin {l l' : Layer F} {e : List F} (h : l.train e = .ok l') :
    l'.numberOfInputs = l.numberOfInputs ∧ l'.optimizers = l.optimizers ∧ l.body.Kin l'.body := by
  unfold Layer.train at h
  obtain ⟨b, h1, h⟩ := Res.bind_eq_ok.1 h
  cases h
  exact ⟨rfl, rfl, Body.computeTrain_kin h1⟩

theorem Layer.outputForTraining_kin {l l' : Layer F} {x y : List F} {t : Bool} {d d' : Draws F}
    (h : l.outputForTraining x t d = .ok (y, l', d')) : l'.numberOfInputs = l.numberOfInputs ∧ l.body.Kin l'.body := by
  unfold Layer.outputForTraining at h
  obtain ⟨⟨_, b⟩, h1, h⟩ := Res.bind_eq_ok.1 h
  obtain ⟨⟨_, _, _⟩, _, h⟩ := Res.bind_eq_ok.1 h
  cases h
  exact ⟨rfl, (Body.computeOutput_same h1).kin⟩

/-- A used layer is well formed, and has the structure of the new layer. -/
theorem used_wf {ni no : Nat} {l0 l : Layer F} (h : Used ni no l0 l) (hw : l0.WF ni no) : l.WF ni no ∧ l0.body.Kin l.body := by
  induction h with
  | new => exact ⟨hw, Body.Kin.refl _⟩
  | output h hx ho ih =>
    obtain ⟨_, _, h1, _, h2⟩ := Layer.output_ok ih.1 _ hx _
    rw [ho] at h1; cases h1
    exact ⟨h2, ih.2.trans (Layer.output_same ho).body.kin⟩
  | outputForTraining h hx ho ih =>
    obtain ⟨_, _, _, h1, _, h2⟩ := Layer.outputForTraining_ok ih.1 _ hx _ _
    rw [ho] at h1; cases h1
    exact ⟨h2, ih.2.trans (Layer.outputForTraining_kin ho).2⟩
  | backOutput h he ho ih =>
    obtain ⟨_, _, h1, _, h2⟩ := Layer.backOutput_ok ih.1 _ he
    rw [ho] at h1; cases h1
    exact ⟨h2, ih.2.trans (Layer.backOutput_kin ho).2.2⟩
  | train h he ho ih =>
    obtain ⟨_, h1, h2⟩ := Layer.train_ok ih.1 _ he
    rw [ho] at h1; cases h1
    exact ⟨h2, ih.2.trans (Layer.train_kin ho).2.2⟩

end

end Snn
