import Verif.Proofs.GSim

/-!
Simulation for relations between layers: if two layers are related, and their methods keep them so and give the same answers, then
the networks made of related layers behave alike.
-/

set_option linter.all false

namespace Snn.G

open Snn.Spec

/-- What a relation between two layers must satisfy. -/
structure LayerSim {F : Type} [Flt F] [FTrans F] [Add F] [Sub F] [Mul F] [Div F] [Neg F] (S : Layer F → Layer F → Prop) : Prop where
  inputs : ∀ {l m}, S l m → m.numberOfInputs = l.numberOfInputs
  weights : ∀ {l m}, S l m → m.body.weights = l.body.weights
  valid : ∀ {l m}, S l m → m.isValid = l.isValid
  output : ∀ {l m} (x : List F) (t : Bool), S l m → Res.Rel (fun p q => q.1 = p.1 ∧ S p.2 q.2) (l.output x t) (m.output x t)
  training : ∀ {l m} (x : List F) (t : Bool) (d : Draws F), S l m →
    Res.Rel (fun p q => q.1 = p.1 ∧ S p.2.1 q.2.1 ∧ q.2.2 = p.2.2) (l.outputForTraining x t d) (m.outputForTraining x t d)
  back : ∀ {l m} (es : List F), S l m → Res.Rel (fun p q => q.1 = p.1 ∧ S p.2 q.2) (l.backOutput es) (m.backOutput es)
  train : ∀ {l m} (es : List F), S l m → Res.Rel S (l.train es) (m.train es)

section
variable {F : Type} [Flt F] [FTrans F] [Add F] [Sub F] [Mul F] [Div F] [Neg F] {S : Layer F → Layer F → Prop}

theorem outputLoop_same (hS : LayerSim S) (t : Bool) : ∀ {ls ms : List (Layer F)} (x : List F), List.Forall₂ S ls ms →
    Res.Rel (fun p q => q.1 = p.1 ∧ List.Forall₂ S p.2 q.2) (outputLoop t ls x) (outputLoop t ms x)
  | _, _, x, .nil => ⟨rfl, .nil⟩
  | _, _, x, .cons h1 h2 => by
    unfold outputLoop
    refine Res.Rel.bind (hS.output x t h1) ?_
    rintro ⟨a, n⟩ ⟨_, m⟩ ⟨rfl, hr⟩
    refine Res.Rel.bind (outputLoop_same hS t _ h2) ?_
    rintro ⟨as, ns⟩ ⟨_, ms⟩ ⟨rfl, hr'⟩
    exact ⟨rfl, .cons hr hr'⟩

theorem trainingLoop_same (hS : LayerSim S) (t : Bool) : ∀ {ls ms : List (Layer F)} (x : List F) (d : Draws F), List.Forall₂ S ls ms →
    Res.Rel (fun p q => q.1 = p.1 ∧ List.Forall₂ S p.2.1 q.2.1 ∧ q.2.2 = p.2.2) (trainingLoop t ls x d) (trainingLoop t ms x d)
  | _, _, x, d, .nil => ⟨rfl, .nil, rfl⟩
  | _, _, x, d, .cons h1 h2 => by
    unfold trainingLoop
    refine Res.Rel.bind (hS.training x t d h1) ?_
    rintro ⟨a, n, d1⟩ ⟨_, m, _⟩ ⟨rfl, hr, rfl⟩
    refine Res.Rel.bind (trainingLoop_same hS t _ _ h2) ?_
    rintro ⟨as, ns, d2⟩ ⟨_, ms, _⟩ ⟨rfl, hr', rfl⟩
    exact ⟨rfl, .cons hr hr', rfl⟩

theorem backLoop_same (hS : LayerSim S) : ∀ {ls ms : List (Layer F)} (es : List F), List.Forall₂ S ls ms →
    Res.Rel (fun p q => q.1 = p.1 ∧ List.Forall₂ S p.2 q.2) (backLoop ls es) (backLoop ms es)
  | _, _, x, .nil => ⟨rfl, .nil⟩
  | _, _, x, .cons h1 h2 => by
    unfold backLoop
    refine Res.Rel.bind (backLoop_same hS _ h2) ?_
    rintro ⟨as, ns⟩ ⟨_, ms⟩ ⟨rfl, hr'⟩
    refine Res.Rel.bind (hS.back _ h1) ?_
    rintro ⟨a, n⟩ ⟨_, m⟩ ⟨rfl, hr⟩
    exact ⟨rfl, .cons hr hr'⟩

theorem backwardPass_same (hS : LayerSim S) {ls ms : List (Layer F)} (es : List F) (h : List.Forall₂ S ls ms) :
    Res.Rel (List.Forall₂ S) (backwardPass ls es) (backwardPass ms es) := by
  cases h with
  | nil => rfl
  | cons h1 h2 =>
    unfold backwardPass
    refine Res.Rel.bind (backLoop_same hS _ h2) ?_
    rintro ⟨as, ns⟩ ⟨_, ms⟩ ⟨rfl, hr'⟩
    refine Res.Rel.bind (hS.train _ h1) ?_
    intro a b hr
    exact .cons hr hr'

theorem rel_mono {α β : Type} {R S : α → β → Prop} {x : Res α} {y : Res β} (h : Res.Rel R x y) (k : ∀ a b, R a b → S a b) : Res.Rel S x y := by
  cases x <;> cases y <;> simp only [Res.Rel] at h ⊢
  · exact k _ _ h
  · exact h
  · exact h

theorem layersSim (hS : LayerSim S) : LayersSim (List.Forall₂ S) (fun _ => True) (fun _ => True) where
  empty := fun h => by cases h <;> rfl
  inputs := fun h => by
    cases h with
    | nil => rfl
    | cons h1 h2 => show Res.ok _ = Res.ok _; rw [hS.inputs h1]
  outputs := fun h => rel_mono (backOf_sim h) fun a b hab => by unfold Layer.getNumberOfNeurons Body.numberOfNeurons; rw [hS.weights hab]
  weights := fun h => by
    induction h with
    | nil => rfl
    | cons h1 _ ih => rw [List.map_cons, List.map_cons, ih, hS.weights h1]
  output := fun t x h _ => outputLoop_same hS t x h
  training := fun t x d h _ => trainingLoop_same hS t x d h
  back := fun es h _ => backwardPass_same hS es h
  trainData := fun _ _ => ⟨trivial, trivial⟩
  trainOutputs := fun _ _ => trivial
  testData := fun _ _ => trivial
  shuffle := fun _ _ => trivial

theorem isValid_same (hS : LayerSim S) {ls ms : List (Layer F)} (h : List.Forall₂ S ls ms) : layersIsValid ms = layersIsValid ls := by
  induction h with
  | nil => rfl
  | @cons l m ls ms h1 h2 ih =>
    unfold layersIsValid
    rw [hS.valid h1, ih]

/-- Two architectures whose factories make related layers make networks that behave alike. -/
theorem make_same (hS : LayerSim S) {arch arch' : List (LayerModel F)} {opt : Sgd F} {d : Draws F}
    (h : Res.Rel (fun p q => List.Forall₂ S p.1 q.1 ∧ q.2 = p.2) (LayerFactory.build opt arch d) (LayerFactory.build opt arch' d)) :
    Res.Rel (fun p q => SameBehaviour (fun _ => True) (fun _ => True) p.1 q.1 ∧ q.2 = p.2) (Snn.make arch opt d) (Snn.make arch' opt d) := by
  unfold Snn.make
  refine Res.Rel.bind (R := fun p q => G.NetSim (List.Forall₂ S) Eq p.1 q.1 ∧ q.2 = p.2) ?_ ?_
  · unfold Net.make
    refine Res.Rel.bind (h) ?_
    rintro ⟨ls, d1⟩ ⟨ms, _⟩ ⟨hl, rfl⟩
    refine Res.Rel.bind ((layersSim hS).outputs hl) ?_
    intro l m hlm
    exact ⟨⟨by show Stats.init _ = Stats.init _; rw [hlm], rfl, rfl, rfl, hl⟩, rfl⟩
  · rintro ⟨n, d1⟩ ⟨m, _⟩ ⟨hn, rfl⟩
    have hv : m.isValid = n.isValid := by
      unfold Net.isValid
      have h1 : m.getNumberOfInputs = n.getNumberOfInputs := (layersSim hS).inputs hn.layers
      simp only at hn h1 ⊢
      rw [h1, hn.opt, hn.layers.length_eq, isValid_same hS hn.layers]
    simp only at hv hn ⊢
    rw [hv]
    refine Res.Rel.bind (Res.Rel.eq (β := Int)) ?_
    rintro err _ rfl
    split
    · rfl
    · exact ⟨G.SnnSim.same (layersSim hS) ⟨hn, rfl, rfl, rfl, rfl, rfl, rfl, rfl⟩, rfl⟩

end

end Snn.G
