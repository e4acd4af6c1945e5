import Verif.Proofs.NetBuild
import Verif.Proofs.LayerKin
import Verif.Proofs.SameProofs

/-! Well formed networks: every operation on vectors of the right sizes returns and keeps the network well formed. -/

set_option linter.all false

namespace Snn

section
variable {F : Type} [Flt F] [FTrans F] [Add F] [Sub F] [Mul F] [Div F] [Neg F]

/-- The outputs of the layer are the outputs of its neurons. -/
def Body.Neuronal : Body F → Prop
  | .filter .conv1D _ _ => False
  | .filter .conv2D _ _ => False
  | .pool .. => False
  | _ => True

theorem Body.Kin.neuronal {b b' : Body F} (h : b.Kin b') (hn : b.Neuronal) : b'.Neuronal := by
  cases b <;> cases b' <;> simp only [Body.Kin] at h
  · trivial
  · trivial
  · trivial
  · obtain ⟨rfl, _, _⟩ := h
    rename_i k _ _ _ _
    cases k <;> first | exact hn | trivial
  · exact hn.elim

theorem Layer.WF.neurons {l : Layer F} {ni no : Nat} (h : l.WF ni no) (hn : l.body.Neuronal) : l.getNumberOfNeurons = no := by
  have hb := h.body
  unfold Layer.getNumberOfNeurons Body.numberOfNeurons
  cases hl : l.body with
  | fullyConnected ns => rw [hl] at hb; simpa [Body.weights] using hb.2
  | recurrence ns => rw [hl] at hb; simpa [Body.weights] using hb.2
  | gru ns => rw [hl] at hb; simpa [Body.weights] using hb.2.1
  | filter k ns info =>
    rw [hl] at hb hn
    cases k with
    | conv1D => exact hn.elim
    | conv2D => exact hn.elim
    | lc1D => simpa [Body.weights] using hb.out.symm
    | lc2D => simpa [Body.weights] using hb.out.symm
  | pool => rw [hl] at hn; exact hn.elim

/-- The layers of a network: fitting one after the other, not empty, the last one with neurons. -/
structure Net.WF (n : Net F) (ni no : Nat) : Prop where
  layers : LayersWF n.layers ni no
  ne : n.layers ≠ []
  last : ∀ l, n.layers.getLast? = some l → l.body.Neuronal

/-- Layer by layer, the same kind. -/
abbrev KinLayers (ls ls' : List (Layer F)) : Prop := List.Forall₂ (fun l l' => l.body.Kin l'.body) ls ls'

theorem KinLayers.last {ls ls' : List (Layer F)} (h : KinLayers ls ls')
    (hn : ∀ l, ls.getLast? = some l → l.body.Neuronal) : ∀ l, ls'.getLast? = some l → l.body.Neuronal := by
  induction h with
  | nil => exact hn
  | @cons a b as bs hab hrest ih =>
    intro l hl
    cases hrest with
    | nil =>
      simp only [List.getLast?_singleton, Option.some.injEq] at hl
      subst hl
      exact hab.neuronal (hn a (by simp))
    | @cons a' b' as' bs' h1 h2 =>
      rw [List.getLast?_cons_cons] at hl
      refine ih ?_ l hl
      intro l' hl'
      exact hn l' (by rw [List.getLast?_cons_cons]; exact hl')

theorem KinLayers.ne {ls ls' : List (Layer F)} (h : KinLayers ls ls') (hn : ls ≠ []) : ls' ≠ [] := by
  cases h with
  | nil => exact hn
  | cons => simp

theorem outputLoop_ok (t : Bool) {ls : List (Layer F)} {ni no : Nat} (h : LayersWF ls ni no) : ∀ (x : List F), x.length = ni →
    ∃ y ls', outputLoop t ls x = .ok (y, ls') ∧ y.length = no ∧ LayersWF ls' ni no ∧ KinLayers ls ls' := by
  induction h with
  | nil => exact fun x hx => ⟨x, [], rfl, hx, .nil, .nil⟩
  | @cons l ls n k m hl hs ih =>
    intro x hx
    obtain ⟨y, l', h1, h2, h3⟩ := Layer.output_ok hl x hx t
    obtain ⟨z, ls', h4, h5, h6, h7⟩ := ih y h2
    exact ⟨z, l' :: ls', by simp [outputLoop, h1, h4], h5, .cons h3 h6, .cons (Layer.output_same h1).body.kin h7⟩

theorem trainingLoop_ok (t : Bool) {ls : List (Layer F)} {ni no : Nat} (h : LayersWF ls ni no) : ∀ (x : List F) (d : Draws F), x.length = ni →
    ∃ y ls' d', trainingLoop t ls x d = .ok (y, ls', d') ∧ y.length = no ∧ LayersWF ls' ni no ∧ KinLayers ls ls' := by
  induction h with
  | nil => exact fun x d hx => ⟨x, [], d, rfl, hx, .nil, .nil⟩
  | @cons l ls n k m hl hs ih =>
    intro x d hx
    obtain ⟨y, l', d1, h1, h2, h3⟩ := Layer.outputForTraining_ok hl x hx t d
    obtain ⟨z, ls', d2, h4, h5, h6, h7⟩ := ih y d1 h2
    exact ⟨z, l' :: ls', d2, by simp [trainingLoop, h1, h4], h5, .cons h3 h6, .cons (Layer.outputForTraining_kin h1).2 h7⟩

theorem layerOutputsLoop_ok {ls : List (Layer F)} {ni no : Nat} (h : LayersWF ls ni no) : ∀ (x : List F), x.length = ni →
    ∃ ys ls', layerOutputsLoop ls x = .ok (ys, ls') ∧ ys.length = ls.length ∧ LayersWF ls' ni no ∧ KinLayers ls ls' := by
  induction h with
  | nil => exact fun x hx => ⟨[], [], rfl, rfl, .nil, .nil⟩
  | @cons l ls n k m hl hs ih =>
    intro x hx
    obtain ⟨y, l', h1, h2, h3⟩ := Layer.output_ok hl x hx true
    obtain ⟨z, ls', h4, h5, h6, h7⟩ := ih y h2
    exact ⟨y :: z, l' :: ls', by simp [layerOutputsLoop, h1, h4], by simp [h5], .cons h3 h6, .cons (Layer.output_same h1).body.kin h7⟩

theorem backLoop_ok {ls : List (Layer F)} {ni no : Nat} (h : LayersWF ls ni no) : ∀ (es : List F), es.length = no →
    ∃ r ls', backLoop ls es = .ok (r, ls') ∧ r.length = ni ∧ LayersWF ls' ni no ∧ KinLayers ls ls' := by
  induction h with
  | nil => exact fun es he => ⟨es, [], rfl, he, .nil, .nil⟩
  | @cons l ls n k m hl hs ih =>
    intro es he
    obtain ⟨r, ls', h1, h2, h3, h4⟩ := ih es he
    obtain ⟨r2, l', h5, h6, h7⟩ := Layer.backOutput_ok hl r h2
    exact ⟨r2, l' :: ls', by simp [backLoop, h1, h5], h6, .cons h7 h3, .cons (Layer.backOutput_kin h5).2.2 h4⟩

theorem backwardPass_ok {ls : List (Layer F)} {ni no : Nat} (h : LayersWF ls ni no) (hne : ls ≠ []) (es : List F) (he : es.length = no) :
    ∃ ls', backwardPass ls es = .ok ls' ∧ LayersWF ls' ni no ∧ KinLayers ls ls' := by
  cases h with
  | nil => exact absurd rfl hne
  | @cons l ls _ k _ hl hs =>
    obtain ⟨r, ls', h1, h2, h3, h4⟩ := backLoop_ok hs es he
    obtain ⟨l', h5, h6⟩ := Layer.train_ok hl r h2
    exact ⟨l' :: ls', by simp [backwardPass, h1, h5], .cons h6 h3, .cons (Layer.train_kin h5).2.2 h4⟩

theorem errorsLoop_ok : ∀ (k : Nat) (ds os : List F), k ≤ ds.length → k ≤ os.length →
    ∃ es, errorsLoop k ds os = .ok es ∧ es.length = k
  | 0, _, _, _, _ => ⟨[], by simp [errorsLoop], rfl⟩
  | k + 1, d :: ds, o :: os, h1, h2 => by
    obtain ⟨es, h3, h4⟩ := errorsLoop_ok k ds os (by simpa using h1) (by simpa using h2)
    exact ⟨_ :: es, by simp [errorsLoop, h3]; rfl, by simp [h4]⟩
  | k + 1, [], _, h1, _ => by simp at h1
  | k + 1, _ :: _, [], _, h2 => by simp at h2

theorem LayersWF.getLast {ls : List (Layer F)} {ni no : Nat} (h : LayersWF ls ni no) (hne : ls ≠ []) :
    ∃ l k, ls.getLast? = some l ∧ l.WF k no := by
  induction h with
  | nil => exact absurd rfl hne
  | @cons l ls n k m hl hs ih =>
    cases hs with
    | nil => exact ⟨l, n, by simp, hl⟩
    | @cons l' ls' _ k' _ h1 h2 =>
      obtain ⟨q, j, e, hq⟩ := ih (by simp)
      exact ⟨q, j, by rw [List.getLast?_cons_cons]; exact e, hq⟩

theorem backOf_eq {α : Type} {l : List α} {a : α} (h : l.getLast? = some a) : backOf l = .ok a := by
  unfold backOf
  rw [h]

theorem Net.WF.numberOfOutputs {n : Net F} {ni no : Nat} (h : n.WF ni no) : n.getNumberOfOutputs = .ok (no : Int) := by
  obtain ⟨l, k, h1, h2⟩ := h.layers.getLast h.ne
  unfold Net.getNumberOfOutputs
  rw [backOf_eq h1]
  simp [h2.neurons (h.last l h1)]

theorem Net.WF.numberOfInputs {n : Net F} {ni no : Nat} (h : n.WF ni no) : n.getNumberOfInputs = .ok (ni : Int) := by
  have hl := h.layers
  have hne := h.ne
  unfold Net.getNumberOfInputs
  cases hls : n.layers with
  | nil => exact absurd hls hne
  | cons l ls =>
    rw [hls] at hl
    cases hl with
    | cons h1 h2 => simp [rd, h1.inputs]

theorem Net.WF.of_kin {n n' : Net F} {ni no : Nat} (h : n.WF ni no) (hl : LayersWF n'.layers ni no) (hk : KinLayers n.layers n'.layers) :
    n'.WF ni no := ⟨hl, hk.ne h.ne, hk.last h.last⟩

theorem Net.output_ok {n : Net F} {ni no : Nat} (h : n.WF ni no) (x : List F) (hx : x.length = ni) (t : Bool) :
    ∃ y n', n.output x t = .ok (y, n') ∧ y.length = no ∧ n'.WF ni no ∧ n'.stats = n.stats := by
  obtain ⟨y, ls', h1, h2, h3, h4⟩ := outputLoop_ok t h.layers x hx
  have hne : n.layers.isEmpty = false := by
    have := h.ne
    cases hls : n.layers with
    | nil => exact absurd hls this
    | cons => rfl
  refine ⟨y, { n with layers := ls', outputNan := n.outputNan || hasBadValue y }, ?_, h2, h.of_kin h3 h4, rfl⟩
  unfold Net.output
  rw [hne]
  simp [h1]

theorem Net.outputForTraining_ok {n : Net F} {ni no : Nat} (h : n.WF ni no) (x : List F) (hx : x.length = ni) (t : Bool) (d : Draws F) :
    ∃ y n' d', n.outputForTraining x t d = .ok (y, n', d') ∧ y.length = no ∧ n'.WF ni no ∧ n'.stats = n.stats := by
  obtain ⟨y, ls', d', h1, h2, h3, h4⟩ := trainingLoop_ok t h.layers x d hx
  have hne : n.layers.isEmpty = false := by
    have := h.ne
    cases hls : n.layers with
    | nil => exact absurd hls this
    | cons => rfl
  refine ⟨y, { n with layers := ls', outputNan := n.outputNan || hasBadValue y }, d', ?_, h2, h.of_kin h3 h4, rfl⟩
  unfold Net.outputForTraining
  rw [hne]
  simp [h1]

theorem Net.trainOnce_ok {n : Net F} {ni no : Nat} (h : n.WF ni no) (x des : List F) (hx : x.length = ni) (hd : des.length = no)
    (t : Bool) (d : Draws F) : ∃ n' d', n.trainOnce x des t d = .ok (n', d') ∧ n'.WF ni no ∧ n'.stats = n.stats := by
  obtain ⟨y, n1, d1, h1, h2, h3, hst⟩ := Net.outputForTraining_ok h x hx t d
  unfold Net.trainOnce Net.backpropagation
  rw [h1]
  simp only [Res.ok_bind]
  by_cases hnan : n1.outputNan = true
  · rw [if_pos hnan]
    exact ⟨_, _, rfl, ⟨h3.layers, h3.ne, h3.last⟩, hst⟩
  · rw [if_neg hnan]
    obtain ⟨l, k, hl1, hl2⟩ := h3.layers.getLast h3.ne
    have hno : l.getNumberOfNeurons = no := hl2.neurons (h3.last l hl1)
    obtain ⟨es, he1, he2⟩ := errorsLoop_ok no des y (by omega) (by omega)
    obtain ⟨ls', hb1, hb2, hb3⟩ := backwardPass_ok h3.layers h3.ne es he2
    have hce : n1.calculateError y des = .ok es := by
      unfold Net.calculateError
      rw [backOf_eq hl1]
      simp only [Res.ok_bind]
      rw [hno]; exact he1
    rw [hce]
    simp only [Res.ok_bind]
    rw [hb1]
    exact ⟨_, _, rfl, ⟨hb2, hb3.ne h3.ne, hb3.last h3.last⟩, hst⟩

theorem Net.getLayerOutputs_ok {n : Net F} {ni no : Nat} (h : n.WF ni no) (x : List F) (hx : x.length = ni) :
    ∃ ys n', n.getLayerOutputs x = .ok (ys, n') ∧ ys.length = n.layers.length ∧ n'.WF ni no := by
  obtain ⟨y, ls', h1, h2, h3, h4⟩ := layerOutputsLoop_ok h.layers x hx
  have hne : n.layers.isEmpty = false := by
    have := h.ne
    cases hls : n.layers with
    | nil => exact absurd hls this
    | cons => rfl
  refine ⟨y, { n with layers := ls' }, ?_, h2, h.of_kin h3 h4⟩
  unfold Net.getLayerOutputs
  rw [hne]
  simp [h1]

end

end Snn
