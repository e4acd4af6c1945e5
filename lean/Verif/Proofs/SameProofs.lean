import Verif.Proofs.LayerWF
import Verif.Basic.Rel
import Verif.Spec.NetworkSpec

/-! States with the same parameters compute the same outputs (no recurrent layer). -/

set_option linter.all false

namespace Snn

open Spec

section
variable {F : Type}

theorem Neuron.Same.params {n n' : Neuron F} (h : n.Same n') : neuronParams n' = neuronParams n := by
  simp [neuronParams, h.1, h.2, h.3, h.4, h.5, h.7, h.8]

theorem forall₂_map_eq {α β : Type} {R : α → α → Prop} {f : α → β} (hf : ∀ a b, R a b → f b = f a) :
    ∀ {l m : List α}, List.Forall₂ R l m → m.map f = l.map f
  | _, _, .nil => rfl
  | _, _, .cons h1 h2 => by simp [hf _ _ h1, forall₂_map_eq hf h2]

theorem forall₂_flatMap_eq {α β : Type} {R : α → α → Prop} {f : α → List β} (hf : ∀ a b, R a b → f b = f a) :
    ∀ {l m : List α}, List.Forall₂ R l m → m.flatMap f = l.flatMap f
  | _, _, .nil => rfl
  | _, _, .cons h1 h2 => by simp [hf _ _ h1, forall₂_flatMap_eq hf h2]

theorem Layer.Same.params {l l' : Layer F} (h : l.Same l') : layerParams l' = layerParams l := by
  obtain ⟨h1, h2, h3⟩ := h
  unfold layerParams
  cases hb : l.body <;> cases hb' : l'.body <;> rw [hb, hb'] at h3 <;> simp only [Body.Same] at h3
  · simp only [h1, h2, forall₂_map_eq (fun _ _ h => Neuron.Same.params h) h3]
  · have := forall₂_map_eq (f := fun n : RecNeuron F => neuronParams n.base) (fun _ _ h => Neuron.Same.params h) h3
    simp only [h1, h2, this]
  · have := forall₂_flatMap_eq (f := fun g : Gru F =>
      [neuronParams g.resetGate.base, neuronParams g.updateGate.base, neuronParams g.outputGate.base])
      (fun a b h => by simp only [Neuron.Same.params h.r, Neuron.Same.params h.u, Neuron.Same.params h.o]) h3
    simp only [h1, h2, this]
  · obtain ⟨rfl, h4, rfl⟩ := h3
    simp only [h1, h2, forall₂_map_eq (fun _ _ h => Neuron.Same.params h) h4]
  · obtain ⟨rfl, rfl, _⟩ := h3
    simp only [h1, h2]

theorem layersSame_params {ls ls' : List (Layer F)} (h : List.Forall₂ Layer.Same ls ls') :
    ls'.map layerParams = ls.map layerParams := forall₂_map_eq (fun _ _ h => h.params) h

theorem Body.Same.nonRecurrent {l l' : Layer F} (h : l.Same l') (hn : NonRecurrent l) : NonRecurrent l' := by
  obtain ⟨_, _, h3⟩ := h
  unfold NonRecurrent at *
  cases hb : l.body <;> cases hb' : l'.body <;> rw [hb, hb'] at h3 <;> simp only [Body.Same] at h3 <;> simp_all

theorem Body.Same.weights {b b' : Body F} [Flt F] [FTrans F] [Add F] [Sub F] [Mul F] [Div F] [Neg F]
    (h : b.Same b') : b'.weights = b.weights := by
  cases b <;> cases b' <;> simp only [Body.Same] at h <;> simp only [Body.weights]
  · exact forall₂_map_eq (fun _ _ h => h.weights) h
  · exact forall₂_map_eq (R := RecNeuron.Same) (fun a b h => Neuron.Same.weights h) h
  · exact forall₂_map_eq (fun _ _ h => by simp only [Gru.getWeights, Neuron.Same.weights h.r, Neuron.Same.weights h.u, Neuron.Same.weights h.o]) h
  · exact forall₂_map_eq (fun _ _ h => h.weights) h.2.1

variable [Flt F] [FTrans F] [Add F] [Sub F] [Mul F] [Div F] [Neg F]

/-- Same value, related states. -/
def OutRel {A : Type} (R : A → A → Prop) (p q : List F × A) : Prop := q.1 = p.1 ∧ R p.2 q.2

theorem Circ.pushBack_rel {c c' : Circ F} (h : c'.queue.length = c.queue.length)
    {x : List F} (hc : 0 < c.queue.length) : ∃ d d', c.pushBack x = .ok d ∧ c'.pushBack x = .ok d' ∧
      d'.queue.length = d.queue.length ∧ d.queue.length = c.queue.length := by
  have e1 : (if c.indexPush ≥ c.queue.length then 0 else c.indexPush) < c.queue.length := by split <;> omega
  have e2 : (if c'.indexPush ≥ c'.queue.length then 0 else c'.indexPush) < c'.queue.length := by split <;> omega
  refine ⟨_, _, by unfold Circ.pushBack; simp only []; rw [wr_nat _ _ _ e1]; rfl,
    by unfold Circ.pushBack; simp only []; rw [wr_nat _ _ _ e2]; rfl, by simp [h], by simp⟩

theorem Neuron.output_rel {n m : Neuron F} (h : n.Same m) (x : List F) :
    Res.Rel (fun p q => q.1 = p.1 ∧ Neuron.Same p.2 q.2) (n.output x) (m.output x) := by
  unfold Neuron.output
  rw [h.weights, h.bias, h.activation]
  by_cases hc : 0 < n.lastInputs.queue.length
  · obtain ⟨d, d', h1, h2, h3, h4⟩ := Circ.pushBack_rel h.buffer (x := x) hc
    rw [h1, h2]
    simp only [Res.ok_bind]
    refine Res.Rel.bind (Res.Rel.eq (β := F)) ?_
    rintro t _ rfl
    refine Res.Rel.bind (Res.Rel.eq (β := F)) ?_
    rintro wb _ rfl
    refine Res.Rel.bind (Res.Rel.eq (β := F)) ?_
    rintro o _ rfl
    refine ⟨rfl, ⟨h.1, h.2, rfl, rfl, h.5, h.6, rfl, h.8, h3⟩⟩
  · have e1 : n.lastInputs.pushBack x = .ub "vector index out of range" := by
      unfold Circ.pushBack wr; simp only []; rw [if_neg (by simp; omega)]; rfl
    have e2 : m.lastInputs.pushBack x = .ub "vector index out of range" := by
      unfold Circ.pushBack wr; simp only []; rw [if_neg (by simp [h.buffer]; omega)]; rfl
    rw [e1, e2]
    rfl

theorem runNeurons_rel {N : Type} {f g : N → Res (F × N)} {R : N → N → Prop}
    (hfg : ∀ n m, R n m → Res.Rel (fun p q => q.1 = p.1 ∧ R p.2 q.2) (f n) (g m)) :
    ∀ {ns ms : List N}, List.Forall₂ R ns ms → Res.Rel (OutRel (List.Forall₂ R)) (runNeurons f ns) (runNeurons g ms)
  | _, _, .nil => ⟨rfl, .nil⟩
  | _, _, .cons h1 h2 => by
    unfold runNeurons
    refine Res.Rel.bind (hfg _ _ h1) ?_
    rintro ⟨a, n⟩ ⟨_, m⟩ ⟨rfl, hr⟩
    refine Res.Rel.bind (runNeurons_rel hfg h2) ?_
    rintro ⟨as, ns⟩ ⟨_, ms⟩ ⟨rfl, hr'⟩
    exact ⟨rfl, .cons hr hr'⟩

theorem convOutputs_rel (x : List F) (size : Nat) : ∀ (rows : List (List Int)) {ns ms : List (Neuron F)},
    List.Forall₂ Neuron.Same ns ms → Res.Rel (OutRel (List.Forall₂ Neuron.Same)) (convOutputs x size rows ns) (convOutputs x size rows ms)
  | [], ns, ms, h => ⟨rfl, h⟩
  | row :: rows, ns, ms, h => by
    unfold convOutputs
    refine Res.Rel.bind (Res.Rel.eq (β := List F)) ?_
    rintro v _ rfl
    refine Res.Rel.bind (runNeurons_rel (fun n m h => Neuron.output_rel h _) h) ?_
    rintro ⟨a, n⟩ ⟨_, m⟩ ⟨rfl, hr⟩
    refine Res.Rel.bind (convOutputs_rel x size rows hr) ?_
    rintro ⟨as, ns⟩ ⟨_, ms⟩ ⟨rfl, hr'⟩
    exact ⟨rfl, hr'⟩

theorem lcOutputs_rel (x : List F) (size filters : Nat) : ∀ (rows : List (List Int)) {ns ms : List (Neuron F)},
    List.Forall₂ Neuron.Same ns ms → Res.Rel (OutRel (List.Forall₂ Neuron.Same)) (lcOutputs x size filters rows ns) (lcOutputs x size filters rows ms)
  | [], ns, ms, h => ⟨rfl, h⟩
  | row :: rows, ns, ms, h => by
    unfold lcOutputs
    refine Res.Rel.bind (Res.Rel.eq (β := List F)) ?_
    rintro v _ rfl
    rw [← h.length_eq]
    split
    · rfl
    · refine Res.Rel.bind (runNeurons_rel (fun n m h => Neuron.output_rel h _) (List.forall₂_take filters h)) ?_
      rintro ⟨a, n⟩ ⟨_, m⟩ ⟨rfl, hr⟩
      refine Res.Rel.bind (lcOutputs_rel x size filters rows (List.forall₂_drop filters h)) ?_
      rintro ⟨as, ns⟩ ⟨_, ms⟩ ⟨rfl, hr'⟩
      exact ⟨rfl, forall₂_append hr hr'⟩

theorem Layer.output_rel {l m : Layer F} (h : l.Same m) (hn : NonRecurrent l) (x : List F) (t t' : Bool) :
    Res.Rel (OutRel Layer.Same) (l.output x t) (m.output x t') := by
  obtain ⟨h1, h2, h3⟩ := h
  unfold Layer.output
  refine Res.Rel.bind (R := OutRel Body.Same) ?_ ?_
  · unfold NonRecurrent at hn
    cases hb : l.body <;> cases hb' : m.body <;> rw [hb, hb'] at h3 <;> simp only [Body.Same] at h3 <;> rw [hb] at hn <;>
      simp only [] at hn
    · refine Res.Rel.bind (runNeurons_rel (fun n m h => Neuron.output_rel h _) h3) ?_
      rintro ⟨a, n⟩ ⟨_, m⟩ ⟨rfl, hr⟩
      exact ⟨rfl, hr⟩
    · rename_i k1 n1 i1 k2 n2 i2
      obtain ⟨hk, h4, rfl⟩ := h3
      subst hk
      refine Res.Rel.bind (R := OutRel (List.Forall₂ Neuron.Same)) ?_ ?_
      · cases k2
        · exact convOutputs_rel _ _ _ h4
        · exact convOutputs_rel _ _ _ h4
        · exact lcOutputs_rel _ _ _ _ h4
        · exact lcOutputs_rel _ _ _ _ h4
      · rintro ⟨a, n⟩ ⟨_, m⟩ ⟨rfl, hr⟩
        refine Res.Rel.bind (Res.Rel.eq (β := List F)) ?_
        rintro v _ rfl
        exact ⟨rfl, rfl, hr, rfl⟩
    · obtain ⟨rfl, rfl, rfl, h4⟩ := h3
      refine Res.Rel.bind (Res.Rel.eq (β := List F × List Int)) ?_
      rintro ⟨a, n⟩ _ rfl
      refine Res.Rel.bind (Res.Rel.eq (β := List F)) ?_
      rintro v _ rfl
      simp only [h4]
      split
      · rfl
      · exact ⟨rfl, rfl, rfl, rfl, by simp [h4]⟩
  · rintro ⟨a, b⟩ ⟨_, b'⟩ ⟨rfl, hr⟩
    rw [h2]
    refine Res.Rel.bind (Res.Rel.eq (β := List F)) ?_
    rintro v _ rfl
    exact ⟨rfl, h1, rfl, hr⟩

theorem outputLoop_rel (t t' : Bool) : ∀ {ls ms : List (Layer F)} (x : List F), List.Forall₂ Layer.Same ls ms →
    (∀ l ∈ ls, NonRecurrent l) → Res.Rel (OutRel (List.Forall₂ Layer.Same)) (outputLoop t ls x) (outputLoop t' ms x)
  | _, _, x, .nil, _ => ⟨rfl, .nil⟩
  | _, _, x, .cons h1 h2, hn => by
    unfold outputLoop
    refine Res.Rel.bind (Layer.output_rel h1 (hn _ (by simp)) x t t') ?_
    rintro ⟨a, n⟩ ⟨a', m⟩ ⟨ha, hr⟩
    simp only at ha
    subst ha
    refine Res.Rel.bind (outputLoop_rel t t' _ h2 (fun l hl => hn l (by simp [hl]))) ?_
    rintro ⟨as, ns⟩ ⟨_, ms⟩ ⟨rfl, hr'⟩
    exact ⟨rfl, .cons hr hr'⟩

theorem outputLoop_same (t : Bool) : ∀ {ls ls' : List (Layer F)} {x out : List F}, outputLoop t ls x = .ok (out, ls') →
    List.Forall₂ Layer.Same ls ls'
  | [], ls', x, out, h => by cases h; exact .nil
  | l :: ls, ls', x, out, h => by
    obtain ⟨⟨y, l'⟩, h1, h⟩ := Res.bind_eq_ok.1 h
    obtain ⟨⟨z, ls2⟩, h2, h⟩ := Res.bind_eq_ok.1 h
    cases h
    exact .cons (Layer.output_same h1) (outputLoop_same t h2)

/-- What `output` keeps of a network. -/
theorem Net.output_same {n n' : Net F} {x out : List F} {t : Bool} (h : n.output x t = .ok (out, n')) :
    List.Forall₂ Layer.Same n.layers n'.layers ∧ n'.optimizer = n.optimizer ∧ n'.numberOfTraining = n.numberOfTraining ∧
      n'.stats = n.stats ∧ n'.outputNan = (n.outputNan || hasBadValue out) := by
  unfold Net.output at h
  split at h
  · cases h
  obtain ⟨⟨y, ls⟩, h1, h⟩ := Res.bind_eq_ok.1 h
  cases h
  exact ⟨outputLoop_same t h1, rfl, rfl, rfl, rfl⟩

theorem Net.output_rel {n m : Net F} (h : List.Forall₂ Layer.Same n.layers m.layers) (hn : ∀ l ∈ n.layers, NonRecurrent l)
    (x : List F) (t t' : Bool) : Prod.fst <$> n.output x t = Prod.fst <$> m.output x t' := by
  have hl := h.length_eq
  unfold Net.output
  have e : m.layers.isEmpty = n.layers.isEmpty := by
    rw [Bool.eq_iff_iff]; simp [List.isEmpty_iff, ← List.length_eq_zero_iff, hl]
  rw [e]
  split
  · rfl
  · refine Res.Rel.map_eq (R := fun p q => q.1 = p.1) ?_ (fun a b h => h.symm)
    refine Res.Rel.bind (outputLoop_rel t t' x h hn) ?_
    rintro ⟨as, ns⟩ ⟨_, ms⟩ ⟨rfl, hr'⟩
    exact rfl

end

end Snn
