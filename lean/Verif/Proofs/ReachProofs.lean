import Verif.Spec.ReachSpec
import Verif.Proofs.FrameProofs
import Verif.Proofs.StrictProofs
import Verif.Proofs.SimProofs

/-! Invariants of every network a program can hold. -/

set_option linter.all false

namespace Snn

open Spec HistoryProps

section
variable {F : Type} [Flt F] [FTrans F] [Add F] [Sub F] [Mul F] [Div F] [Neg F]

/-- What holds of every network made from an architecture. -/
structure Net.Set (arch : List (LayerModel F)) (n : Net F) : Prop where
  opts : n.layers.map (fun l => l.optimizers.length) = arch.tail.map LayerModel.optCount
  hasOpt : ∀ l ∈ n.layers, l.body.HasOpt n.optimizer
  clusters : ∃ l, backOf n.layers = .ok l ∧ n.stats.clusters.length = l.getNumberOfNeurons

theorem Layer.Kin.optLength {l l' : Layer F} (h : l.Kin l') : l'.optimizers.length = l.optimizers.length := by
  have := congrArg List.length h.opts
  simpa using this

theorem forall₂_length_eq {α β : Type} {R : α → β → Prop} {as : List α} {bs : List β} (h : List.Forall₂ R as bs) :
    as.length = bs.length := by
  induction h with
  | nil => rfl
  | cons _ _ ih => simp [ih]

theorem Body.Kin.neurons {b b' : Body F} (h : b.Kin b') : b'.numberOfNeurons = b.numberOfNeurons := by
  cases b <;> cases b' <;> simp only [Body.Kin] at h <;> simp only [Body.numberOfNeurons, Body.weights, List.length_map]
  · exact (forall₂_length_eq h).symm
  · exact (forall₂_length_eq h).symm
  · exact (forall₂_length_eq h).symm
  · exact (forall₂_length_eq h.2.1).symm

theorem backOf_kin {ls ms : List (Layer F)} (h : List.Forall₂ Layer.Kin ls ms) {l : Layer F} (hl : backOf ls = .ok l) :
    ∃ m, backOf ms = .ok m ∧ l.Kin m := by
  induction h with
  | nil => simp [backOf] at hl
  | @cons a b as bs h1 h2 ih =>
    cases as with
    | nil =>
      cases h2
      simp only [backOf, List.getLast?_singleton] at hl ⊢
      cases hl
      exact ⟨b, rfl, h1⟩
    | cons a2 as =>
      cases bs with
      | nil => cases h2
      | cons b2 bs =>
        simp only [backOf, List.getLast?_cons_cons] at hl ih ⊢
        exact ih hl

theorem Net.Set.kin {arch : List (LayerModel F)} {n n' : Net F} (h : n.Set arch) (k : n.Kin n') : n'.Set arch := by
  refine ⟨?_, ?_, ?_⟩
  · rw [← h.opts]
    have := k.layers
    generalize n.layers = ls, n'.layers = ms at this
    induction this with
    | nil => rfl
    | cons h1 _ ih => simp [ih, h1.optLength]
  · rw [k.opt]
    exact forall₂_forall k.layers h.hasOpt fun a b hk ha => hk.body.hasOpt ha
  · obtain ⟨l, h1, h2⟩ := h.clusters
    obtain ⟨m, h3, h4⟩ := backOf_kin k.layers h1
    exact ⟨m, h3, by rw [k.clusters, h2]; exact (h4.body.neurons).symm⟩

theorem map_self {α : Type} {f : α → α} {l : List α} (h : ∀ a ∈ l, f a = a) : l.map f = l := by
  induction l with
  | nil => rfl
  | cons a l ih => rw [List.map_cons, h a (by simp), ih fun x hx => h x (List.mem_cons_of_mem _ hx)]

theorem LayerOpt.clone_eq (o : LayerOpt F) : o.clone = o := by cases o <;> rfl

theorem map_setOpt {ns : List (Neuron F)} {o : Sgd F} (h : ∀ n ∈ ns, n.optimizer = o) : ns.map (fun n => n.setOptimizer o) = ns := by
  refine map_self ?_
  intro n hn
  obtain ⟨⟩ := h n hn
  rfl

theorem Body.clone_eq {b : Body F} {o : Sgd F} (h : b.HasOpt o) : b.clone o = b := by
  cases b with
  | fullyConnected ns => simp only [Body.clone, map_setOpt h]
  | recurrence ns =>
    simp only [Body.clone]
    congr 1
    refine map_self ?_
    intro n hn
    obtain ⟨⟩ := h n hn
    rfl
  | gru ns =>
    simp only [Body.clone]
    congr 1
    refine map_self ?_
    intro n hn
    obtain ⟨h1, h2, h3⟩ := h n hn
    obtain ⟨_, _, _, _, _, _, ⟨⟨_, _, _, _, _, _, _, _, _, _⟩, _, _, _, _⟩, ⟨⟨_, _, _, _, _, _, _, _, _, _⟩, _, _, _, _⟩, ⟨⟨_, _, _, _, _, _, _, _, _, _⟩, _, _, _, _⟩⟩ := n
    simp only at h1 h2 h3
    subst h1 h2 h3
    rfl
  | filter k ns info => simp only [Body.clone, map_setOpt h]
  | pool => rfl

theorem Layer.clone_eq {l : Layer F} {o : Sgd F} (h : l.body.HasOpt o) : l.clone o = l := by
  have : (LayerOpt.clone : LayerOpt F → LayerOpt F) = id := funext LayerOpt.clone_eq
  obtain ⟨i, os, b⟩ := l
  simp only [Layer.clone, Body.clone_eq h, this, List.map_id]

/-- The copy of a network is the network, with counters of the last evaluation reset, idle and without a request to stop. -/
theorem Snn.copy_eq {arch : List (LayerModel F)} {s : Snn F} (h : s.net.Set arch) : s.copy = .ok
    { s with net := { s.net with stats := s.net.stats.startTesting }, wantToStopTraining := false, isIdle := true } := by
  have hl : (s.net.layers.map fun l => l.clone s.net.optimizer.clone) = s.net.layers := by
    refine map_self ?_
    exact fun l hl => Layer.clone_eq (h.hasOpt l hl)
  obtain ⟨l, h1, h2⟩ := h.clusters
  simp only [Snn.copy, Net.copy, hl, h1, Res.ok_bind, Res.pure_eq, Bool.not_true, Bool.false_eq_true, if_false]
  simp only [Stats.initialize, ← h2, List.take_length, Nat.sub_self, List.replicate_zero, List.append_nil]
  rfl

end

section
variable {F : Type} [Flt F] [FTrans F] [Add F] [Sub F] [Mul F] [Div F] [Neg F] [FText F]

theorem Layer.forget_opts (l : Layer F) : l.forget.optimizers = l.optimizers := by
  unfold Layer.forget; split <;> rfl

theorem Layer.forget_hasOpt {l : Layer F} {o : Sgd F} (h : l.body.HasOpt o) : l.forget.body.HasOpt o := by
  unfold Layer.forget
  split
  · rename_i ns e
    rw [e] at h
    intro n hn
    obtain ⟨m, hm, rfl⟩ := List.mem_map.1 hn
    exact h m hm
  · exact h

theorem Layer.forget_neurons (l : Layer F) : l.forget.getNumberOfNeurons = l.getNumberOfNeurons := by
  unfold Layer.forget
  split
  · rename_i ns e
    simp [Layer.getNumberOfNeurons, Body.numberOfNeurons, e, Body.weights]
  · rfl

theorem backOf_map {α β : Type} {f : α → β} {l : List α} {a : α} (h : backOf l = .ok a) : backOf (l.map f) = .ok (f a) := by
  unfold backOf at h ⊢
  rw [List.getLast?_map]
  cases hl : l.getLast? with
  | none => rw [hl] at h; cases h
  | some b => rw [hl] at h; cases h; rfl

theorem Net.Set.forget {arch : List (LayerModel F)} {n : Net F} (h : n.Set arch) : n.forget.Set arch := by
  refine ⟨?_, ?_, ?_⟩
  · rw [← h.opts]
    simp [Net.forget, Function.comp_def, Layer.forget_opts]
  · intro l hl
    simp only [Net.forget, List.mem_map] at hl
    obtain ⟨m, hm, rfl⟩ := hl
    exact Layer.forget_hasOpt (h.hasOpt m hm)
  · obtain ⟨l, h1, h2⟩ := h.clusters
    exact ⟨l.forget, backOf_map h1, by simp [Net.forget, Stats.forget, h2, Layer.forget_neurons]⟩

/-- Every network a program can hold has what the constructor set. -/
theorem Spec.Reach.set {arch : List (LayerModel F)} {s : Snn F} (h : Reach arch s) : s.net.Set arch := by
  induction h with
  | make h =>
    unfold Snn.make at h
    obtain ⟨⟨net, d1⟩, h1, h⟩ := Res.bind_eq_ok.1 h
    obtain ⟨err, _, h⟩ := Res.bind_eq_ok.1 h
    split at h
    · cases h
    · cases h
      obtain ⟨a, b, c, e⟩ := Net.make_set h1
      exact ⟨a, by rw [c]; exact b, e⟩
  | call _ h ih => exact ih.kin (Call.run_kin h)
  | stop _ ih => exact ih
  | copy _ h ih =>
    rw [Snn.copy_eq ih] at h
    cases h
    obtain ⟨l, h1, h2⟩ := ih.clusters
    exact ⟨ih.opts, ih.hasOpt, l, h1, by simpa [Stats.startTesting] using h2⟩
  | load _ hf h ih =>
    rename_i s t path files _
    simp only [loadFrom, hf] at h
    obtain ⟨⟨t', a⟩, h1, h⟩ := Res.bind_eq_ok.1 h
    cases h
    rcases load_saved_or s with ⟨_, a', h2⟩ | ⟨_, m, h2⟩
    · rw [h2] at h1
      cases h1
      exact ih.forget
    · rw [h2] at h1; cases h1

end

end Snn
