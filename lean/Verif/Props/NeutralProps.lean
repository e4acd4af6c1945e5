import Verif.Proofs.GLayer
import Verif.Spec.NeutralSpec
import Verif.Basic.RatFlt
import Verif.Demo.Demo

/-!
# C77: neutral layer optimizers change nothing

Exact arithmetic: in floats `e + a * 0` is not `e` when `a` is infinite.
-/

set_option linter.all false

namespace Snn.NeutralProps

open Snn.Spec
open Snn.TrainProps

section
variable {F : Type} [Field F] [LinearOrder F] [IsStrictOrderedRing F] [FTrans F]

/-- The optimizers of a layer that change nothing. -/
def NeutralOpt (o : LayerOpt F) : Prop := o = .l1 0 ∨ o = .l2 0 ∨ o = .errorMultiplier 1

theorem testingHooks_same {os os' : List (LayerOpt F)} (h : SameBut NeutralOpt os os') : ∀ x : List F,
    testingHooks os x = testingHooks os' x := by
  induction h with
  | nil => intro x; rfl
  | cons h ih =>
    intro x
    unfold testingHooks
    exact congrArg _ (funext fun y => ih y)
  | left hn h ih =>
    intro x
    rcases hn with rfl | rfl | rfl <;> exact ih x
  | right hn h ih =>
    intro x
    rcases hn with rfl | rfl | rfl <;> exact ih x

theorem rel_left {α β γ : Type} {R : α → β → Prop} {S : γ → β → Prop} {x : Res α} {y : Res β} (h : Res.Rel R x y) {f : α → γ}
    (k : ∀ a b, R a b → S (f a) b) : Res.Rel S (x >>= fun a => pure (f a)) y := by
  cases x <;> cases y <;> simp only [Res.Rel] at h
  · exact k _ _ h
  · exact h
  · exact h

theorem rel_right {α β γ : Type} {R : α → β → Prop} {S : α → γ → Prop} {x : Res α} {y : Res β} (h : Res.Rel R x y) {f : β → γ}
    (k : ∀ a b, R a b → S a (f b)) : Res.Rel S x (y >>= fun a => pure (f a)) := by
  cases x <;> cases y <;> simp only [Res.Rel] at h
  · exact k _ _ h
  · exact h
  · exact h

theorem trainingHooks_same (t : Bool) {os os' : List (LayerOpt F)} (h : SameBut NeutralOpt os os') : ∀ (x : List F) (d : Draws F),
    Res.Rel (fun p q => q.1 = p.1 ∧ SameBut NeutralOpt p.2.1 q.2.1 ∧ q.2.2 = p.2.2) (trainingHooks t os x d) (trainingHooks t os' x d) := by
  induction h with
  | nil => intro x d; exact ⟨rfl, .nil, rfl⟩
  | cons h ih =>
    intro x d
    unfold trainingHooks
    refine Res.Rel.bind (Res.Rel.eq (β := List F × LayerOpt F × Draws F)) ?_
    rintro ⟨y, o, d1⟩ _ rfl
    refine Res.Rel.bind (ih y d1) ?_
    rintro ⟨a, n, d1⟩ ⟨_, m, _⟩ ⟨rfl, hr, rfl⟩
    exact ⟨rfl, .cons hr, rfl⟩
  | left hn h ih =>
    intro x d
    have := ih x d
    rcases hn with rfl | rfl | rfl <;>
      exact rel_left this (fun a b hab => ⟨hab.1, .left (by simp [NeutralOpt]) hab.2.1, hab.2.2⟩)
  | right hn h ih =>
    intro x d
    have := ih x d
    rcases hn with rfl | rfl | rfl <;>
      exact rel_right this (fun a b hab => ⟨hab.1, .right (by simp [NeutralOpt]) hab.2.1, hab.2.2⟩)

theorem before_neutral {o : LayerOpt F} (h : NeutralOpt o) (ws : List (List F)) (es : List F) : o.beforeBackpropagation ws es = es := by
  rcases h with rfl | rfl | rfl <;> simp [LayerOpt.beforeBackpropagation]

theorem backHooks_same (ws : List (List F)) {os os' : List (LayerOpt F)} (h : SameBut NeutralOpt os os') : ∀ es : List F,
    backHooks ws os es = backHooks ws os' es := by
  unfold backHooks
  induction h with
  | nil => intro x; rfl
  | cons h ih => intro x; exact ih _
  | left hn h ih => intro x; rw [List.foldl_cons, before_neutral hn]; exact ih x
  | right hn h ih => intro x; rw [List.foldl_cons, before_neutral hn]; exact ih x

/-- Two layers that differ only by neutral optimizers. -/
structure LSim (l m : Layer F) : Prop where
  inputs : m.numberOfInputs = l.numberOfInputs
  opts : SameBut NeutralOpt l.optimizers m.optimizers
  body : m.body = l.body

theorem layer_output {l m : Layer F} (h : LSim l m) (x : List F) (t : Bool) :
    Res.Rel (fun p q => q.1 = p.1 ∧ LSim p.2 q.2) (l.output x t) (m.output x t) := by
  unfold Layer.output
  rw [h.body]
  refine Res.Rel.bind (Res.Rel.eq (β := List F × Body F)) ?_
  rintro ⟨y, b⟩ _ rfl
  simp only
  rw [testingHooks_same h.opts]
  refine Res.Rel.bind (Res.Rel.eq (β := List F)) ?_
  rintro z _ rfl
  exact ⟨rfl, h.inputs, h.opts, rfl⟩

theorem layer_training {l m : Layer F} (h : LSim l m) (x : List F) (t : Bool) (d : Draws F) :
    Res.Rel (fun p q => q.1 = p.1 ∧ LSim p.2.1 q.2.1 ∧ q.2.2 = p.2.2) (l.outputForTraining x t d) (m.outputForTraining x t d) := by
  unfold Layer.outputForTraining
  rw [h.body]
  refine Res.Rel.bind (Res.Rel.eq (β := List F × Body F)) ?_
  rintro ⟨y, b⟩ _ rfl
  refine Res.Rel.bind (trainingHooks_same t h.opts y d) ?_
  rintro ⟨a, n, d1⟩ ⟨_, m, _⟩ ⟨rfl, hr, rfl⟩
  exact ⟨rfl, ⟨h.inputs, hr, rfl⟩, rfl⟩

theorem layer_back {l m : Layer F} (h : LSim l m) (es : List F) :
    Res.Rel (fun p q => q.1 = p.1 ∧ LSim p.2 q.2) (l.backOutput es) (m.backOutput es) := by
  unfold Layer.backOutput
  simp only
  rw [h.body, h.inputs, backHooks_same _ h.opts]
  refine Res.Rel.bind (Res.Rel.eq (β := List F × Body F)) ?_
  rintro ⟨y, b⟩ _ rfl
  exact ⟨rfl, rfl, h.opts, rfl⟩

theorem layer_train {l m : Layer F} (h : LSim l m) (es : List F) : Res.Rel LSim (l.train es) (m.train es) := by
  unfold Layer.train
  simp only
  rw [h.body, backHooks_same _ h.opts]
  refine Res.Rel.bind (Res.Rel.eq (β := Body F)) ?_
  rintro b _ rfl
  exact ⟨h.inputs, h.opts, rfl⟩

theorem layerSim : G.LayerSim (LSim (F := F)) where
  inputs := fun h => h.inputs
  weights := fun h => by rw [h.body]
  valid := fun h => by unfold Layer.isValid; rw [h.body, h.inputs]
  output := fun x t h => layer_output h x t
  training := fun x t d h => layer_training h x t d
  back := fun es h => layer_back h es
  train := fun es h => layer_train h es

/-! ### Construction -/

theorem buildAll_same (n : Nat) {ms ms' : List (LayerOptModel F)} (h : SameBut Neutral ms ms') : ∀ d : Draws F,
    SameBut NeutralOpt (LayerOpt.buildAll n ms d).1 (LayerOpt.buildAll n ms' d).1 ∧
      (LayerOpt.buildAll n ms' d).2 = (LayerOpt.buildAll n ms d).2 := by
  induction h with
  | nil => intro d; exact ⟨.nil, rfl⟩
  | cons h ih =>
    intro d
    exact ⟨.cons (ih _).1, (ih _).2⟩
  | left hn h ih =>
    intro d
    cases hn <;> exact ⟨.left (by simp [NeutralOpt]) (ih d).1, (ih d).2⟩
  | right hn h ih =>
    intro d
    cases hn <;> exact ⟨.right (by simp [NeutralOpt]) (ih d).1, (ih d).2⟩

theorem buildSimple_same {N : Type} (mk : NeuronModel F → Draws F → Res N) (gates : Nat) (wrap : List N → Body F) (ni extra n : Int)
    (act : Act) {o o' : List (LayerOptModel F)} (h : SameBut Neutral o o') (d : Draws F) :
    Res.Rel (fun p q => LSim p.1 q.1 ∧ q.2 = p.2) (buildSimple mk gates wrap ni extra n act o d)
      (buildSimple mk gates wrap ni extra n act o' d) := by
  unfold buildSimple
  refine Res.Rel.bind (Res.Rel.eq (β := Int)) ?_
  rintro nw _ rfl
  refine Res.Rel.bind (Res.Rel.eq (β := List N × Draws F)) ?_
  rintro ⟨ns, d1⟩ _ rfl
  have := buildAll_same ns.length h d1
  exact ⟨⟨rfl, this.1, rfl⟩, this.2⟩

theorem buildConvolution_same (opt : Sgd F) (ni : Int) (shape : List Int) (f k : Int) (act : Act) {o o' : List (LayerOptModel F)}
    (h : SameBut Neutral o o') (d : Draws F) :
    Res.Rel (fun p q => LSim p.1 q.1 ∧ q.2 = p.2) (buildConvolution opt ni shape f k act o d) (buildConvolution opt ni shape f k act o' d) := by
  unfold buildConvolution
  split
  · split
    · rfl
    · repeat
        refine Res.Rel.bind (Res.Rel.eq (β := Int)) ?_
        rintro _ _ rfl
      exact ⟨⟨rfl, (buildAll_same _ h _).1, rfl⟩, (buildAll_same _ h _).2⟩
  · split
    · rfl
    · repeat
        refine Res.Rel.bind (Res.Rel.eq (β := Int)) ?_
        rintro _ _ rfl
      exact ⟨⟨rfl, (buildAll_same _ h _).1, rfl⟩, (buildAll_same _ h _).2⟩
  · rfl

theorem buildLocallyConnected_same (opt : Sgd F) (ni : Int) (shape : List Int) (f k : Int) (act : Act) {o o' : List (LayerOptModel F)}
    (h : SameBut Neutral o o') (d : Draws F) :
    Res.Rel (fun p q => LSim p.1 q.1 ∧ q.2 = p.2) (buildLocallyConnected opt ni shape f k act o d)
      (buildLocallyConnected opt ni shape f k act o' d) := by
  unfold buildLocallyConnected
  split
  · split
    · rfl
    · repeat
        refine Res.Rel.bind (Res.Rel.eq (β := Int)) ?_
        rintro _ _ rfl
      exact ⟨⟨rfl, (buildAll_same _ h _).1, rfl⟩, (buildAll_same _ h _).2⟩
  · split
    · rfl
    · repeat
        refine Res.Rel.bind (Res.Rel.eq (β := Int)) ?_
        rintro _ _ rfl
      exact ⟨⟨rfl, (buildAll_same _ h _).1, rfl⟩, (buildAll_same _ h _).2⟩
  · rfl

theorem buildLayer_same (opt : Sgd F) {m m' : LayerModel F} (h : SameButNeutral m m') (shape : List Int) (d : Draws F) :
    Res.Rel (fun p q => LSim p.1 q.1 ∧ q.2 = p.2) (buildLayer opt m shape d) (buildLayer opt m' shape d) := by
  unfold buildLayer
  refine Res.Rel.bind (Res.Rel.eq (β := Int)) ?_
  rintro ni _ rfl
  split
  · rfl
  · split
    · rfl
    · cases h with
      | input => rfl
      | fullyConnected n act h =>
        simp only
        split
        · rfl
        · exact buildSimple_same _ _ _ _ _ _ _ h _
      | recurrence n act h => exact buildSimple_same _ _ _ _ _ _ _ h _
      | gru n h => exact buildSimple_same _ _ _ _ _ _ _ h _
      | maxPooling k =>
        refine Res.Rel.bind (Res.Rel.eq (β := Layer F)) ?_
        rintro l _ rfl
        refine ⟨⟨rfl, ?_, rfl⟩, rfl⟩
        induction l.optimizers with
        | nil => exact .nil
        | cons a as ih => exact .cons ih
      | locallyConnected f k act h => exact buildLocallyConnected_same _ _ _ _ _ _ h _
      | convolution f k act h => exact buildConvolution_same _ _ _ _ _ _ h _

theorem shape_same {l m : Layer F} (h : LSim l m) : m.getShapeOfOutput = l.getShapeOfOutput := by
  unfold Layer.getShapeOfOutput Layer.getNumberOfNeurons
  rw [h.body]

theorem buildLayers_same (opt : Sgd F) {ms ms' : List (LayerModel F)} (h : List.Forall₂ SameButNeutral ms ms') : ∀ (shape : List Int) (d : Draws F),
    Res.Rel (fun p q => List.Forall₂ LSim p.1 q.1 ∧ q.2 = p.2) (buildLayers opt ms shape d) (buildLayers opt ms' shape d) := by
  induction h with
  | nil => intro shape d; exact ⟨.nil, rfl⟩
  | cons h1 h2 ih =>
    intro shape d
    unfold buildLayers
    refine Res.Rel.bind (buildLayer_same opt h1 shape d) ?_
    rintro ⟨l, d1⟩ ⟨m, _⟩ ⟨hl, rfl⟩
    simp only at hl ⊢
    rw [shape_same hl]
    refine Res.Rel.bind (ih _ _) ?_
    rintro ⟨ls, d2⟩ ⟨ms, _⟩ ⟨hls, rfl⟩
    exact ⟨.cons hl hls, rfl⟩

theorem factory_same (opt : Sgd F) {ms ms' : List (LayerModel F)} (h : List.Forall₂ SameButNeutral ms ms') (d : Draws F) :
    Res.Rel (fun p q => List.Forall₂ LSim p.1 q.1 ∧ q.2 = p.2) (LayerFactory.build opt ms d) (LayerFactory.build opt ms' d) := by
  have hl := h.length_eq
  cases h with
  | nil => rfl
  | cons h1 h2 =>
    unfold LayerFactory.build
    rw [hl]
    split
    · rfl
    · cases h1 with
      | input shape =>
        simp only
        split
        · rfl
        · refine Res.Rel.bind (Res.Rel.eq (β := Int)) ?_
          rintro ni _ rfl
          split
          · rfl
          · exact buildLayers_same opt h2 shape d
      | _ => rfl

/-- **C77**. Adding or removing anywhere, in any layers, L1 and L2 regularizations of coefficient 0 and multiplications of the errors by 1
changes nothing: either both constructors fail in the same way, or the two networks (made with the same random numbers, of which they
use as many) cannot be told apart by any sequence of calls, trainings included. -/
theorem C77_neutral {arch arch' : List (LayerModel F)} (h : List.Forall₂ SameButNeutral arch arch') (opt : Sgd F) (d : Draws F) :
    Res.Rel (fun p q => SameBehaviour (fun _ => True) (fun _ => True) p.1 q.1 ∧ q.2 = p.2) (Snn.make arch opt d) (Snn.make arch' opt d) :=
  G.make_same layerSim (factory_same opt h d)

end

/-! ### The hypotheses are met -/

/-- The dense network with neutral optimizers in both layers, and the one without: both are made, and they answer and train. -/
def neutralArch : List (LayerModel ℚ) :=
  [.input [2], .fullyConnected 3 .relu [.l1 0, .dropout (1/2), .errorMultiplier 1], .fullyConnected 2 .identity [.l2 0]]

example : List.Forall₂ SameButNeutral Demo.denseArch neutralArch :=
  .cons (.input _) (.cons (.fullyConnected _ _ (.right .l1 (.cons (.right .errorMultiplier .nil))))
    (.cons (.fullyConnected _ _ (.right .l2 .nil)) .nil))

/-- The network with neutral optimizers. -/
def neutral : Snn ℚ := (Snn.make neutralArch Demo.sgd Demo.draws |>.get (by decide +kernel)).1

example : (HistoryProps.Call.run (Demo.run neutral Demo.regression)
    (.train Demo.env Demo.regression (litEp 2) 1 1 100)).isOk = true := by decide +kernel

end Snn.NeutralProps
