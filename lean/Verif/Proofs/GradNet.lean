import Verif.Proofs.GradLc
import Verif.Proofs.NetRun

/-! A network of fully connected and locally connected layers: one call of `trainOnce`. -/

set_option linter.all false

namespace Snn.Grad

open Finset Snn.Spec Snn.NeuronSpec

/-- The outputs of a list of layers. -/
noncomputable def fnAll : List (Layer ℝ) → List ℝ → List ℝ
  | [], x => x
  | l :: ls, x => fnAll ls (fn l x)

theorem outputLoop_fnAll : ∀ {ls ls' : List (Layer ℝ)} {x y : List ℝ}, outputLoop false ls x = .ok (y, ls') → y = fnAll ls x
  | [], ls', x, y, h => by cases h; rfl
  | l :: ls, ls', x, y, h => by
    unfold outputLoop at h
    obtain ⟨⟨z, l'⟩, h1, h⟩ := Res.bind_eq_ok.1 h
    obtain ⟨⟨w, ls2⟩, h2, h⟩ := Res.bind_eq_ok.1 h
    cases h
    have e : fn l x = z := by unfold fn; rw [h1]
    rw [fnAll, e]
    exact outputLoop_fnAll h2

/-- Every layer is as backpropagation needs it, at the values it receives. -/
inductive Smooth (o : Sgd ℝ) : Bool → List (Layer ℝ) → List ℝ → Nat → Nat → Prop
  | nil {first : Bool} {x : List ℝ} {n : Nat} (hx : x.length = n) : Smooth o first [] x n n
  | cons {first : Bool} {l : Layer ℝ} {ls : List (Layer ℝ)} {x : List ℝ} {ni nm no : Nat} (h : Diff first o l x ni nm)
      (hs : Smooth o false ls (fn l x) nm no) : Smooth o first (l :: ls) x ni no

/-- Weight i of neuron k of layer j of ls, and its momentum memory. -/
noncomputable def wt (ls : List (Layer ℝ)) (j k i : Nat) : ℝ :=
  match ls[j]? with
  | some l => (neuronWeights l k).getD i 0
  | none => 0

noncomputable def mm (ls : List (Layer ℝ)) (j k i : Nat) : ℝ :=
  match ls[j]? with
  | some l => memory l k i
  | none => 0

noncomputable def kp (ls : List (Layer ℝ)) (j k i : Nat) : ℝ :=
  match ls[j]? with
  | some l => keep (neuronWeights l k) i
  | none => 0

def HasW (ls : List (Layer ℝ)) (j k i : Nat) : Prop :=
  ∃ l, ls[j]? = some l ∧ k < l.body.weights.length ∧ i < (neuronWeights l k).length

/-- `ls2` is `ls` after a descent step for the errors `es` of the outputs. -/
def DescendsAll (o : Sgd ℝ) (ls ls2 : List (Layer ℝ)) (x es : List ℝ) : Prop :=
  ∀ G, Back es (fnAll ls x) G → ∀ j k i, HasW ls j k i →
    (∃ g, HasDerivAt (fun v => G (fnAll (ls.modify j fun l => Layer.withWeight l k i v) x)) g (wt ls j k i) ∧
      wt ls2 j k i = kp ls j k i - o.learningRate * g + o.momentum * mm ls j k i) ∧
    mm ls2 j k i = wt ls2 j k i - kp ls j k i

theorem descendsAll_cons {o : Sgd ℝ} {l l2 : Layer ℝ} {ls ls2 : List (Layer ℝ)} {x es es1 : List ℝ} (h1 : Descends o l l2 x es1)
    (h2 : DescendsAll o ls ls2 (fn l x) es) (hb : ∀ G, Back es (fnAll ls (fn l x)) G → Back es1 (fn l x) (fun y => G (fnAll ls y))) :
    DescendsAll o (l :: ls) (l2 :: ls2) x es := by
  intro G hG j k i hw
  cases j with
  | zero =>
    obtain ⟨l', e, hk, hi⟩ := hw
    simp only [List.getElem?_cons_zero, Option.some.injEq] at e
    subst e
    exact h1 _ (hb G hG) k i hk hi
  | succ j =>
    obtain ⟨l', e, hk, hi⟩ := hw
    exact h2 G hG j k i ⟨l', by simpa using e, hk, hi⟩

theorem back_run {o : Sgd ℝ} {ls : List (Layer ℝ)} {x : List ℝ} {ni no : Nat} (h : Smooth o false ls x ni no) : ∀ t d,
    ∃ ls1, trainingLoop t ls x d = .ok (fnAll ls x, ls1, d) ∧ ∀ es, es.length = no →
      ∃ es' ls2, backLoop ls1 es = .ok (es', ls2) ∧ es'.length = ni ∧ (∀ G, Back es (fnAll ls x) G → Back es' x (fun y => G (fnAll ls y))) ∧
        DescendsAll o ls ls2 x es := by
  generalize hf : false = first at h
  induction h with
  | nil hx =>
    intro t d
    refine ⟨[], rfl, fun es hes => ⟨es, [], rfl, hes, fun G hG => hG, ?_⟩⟩
    rintro G hG j k i ⟨l, e, _⟩
    simp at e
  | @cons first l ls x ni nm no h hs ih =>
    subst hf
    intro t d
    obtain ⟨l1, e1, e2⟩ := h.run t d
    obtain ⟨ls1, e3, e4⟩ := ih rfl t d
    refine ⟨l1 :: ls1, ?_, ?_⟩
    · simp only [trainingLoop, e1, Res.ok_bind, e3, fnAll]
      rfl
    · intro es hes
      obtain ⟨es1, ls2, k1, k2, k3, k4⟩ := e4 es hes
      obtain ⟨es2, l2, k5, k6, k7, k8⟩ := (e2 es1 k2).1 rfl
      refine ⟨es2, l2 :: ls2, ?_, k6, ?_, ?_⟩
      · simp only [backLoop, k1, Res.ok_bind, k5]
        rfl
      · intro G hG
        exact k7 _ (k3 G hG)
      · exact descendsAll_cons k8 k4 k3

theorem pass_run {o : Sgd ℝ} {ls : List (Layer ℝ)} {x : List ℝ} {ni no : Nat} (h : Smooth o true ls x ni no) (hne : ls ≠ []) (t : Bool) (d : Draws ℝ) :
    ∃ ls1, trainingLoop t ls x d = .ok (fnAll ls x, ls1, d) ∧ ∀ es, es.length = no →
      ∃ ls2, backwardPass ls1 es = .ok ls2 ∧ DescendsAll o ls ls2 x es := by
  cases h with
  | nil => exact absurd rfl hne
  | @cons _ l ls _ _ nm _ h hs =>
    obtain ⟨l1, e1, e2⟩ := h.run t d
    obtain ⟨ls1, e3, e4⟩ := back_run hs t d
    refine ⟨l1 :: ls1, ?_, ?_⟩
    · simp only [trainingLoop, e1, Res.ok_bind, e3, fnAll]
      rfl
    · intro es hes
      obtain ⟨es1, ls2, k1, k2, k3, k4⟩ := e4 es hes
      obtain ⟨l2, k5, k6⟩ := (e2 es1 k2).2
      refine ⟨l2 :: ls2, ?_, descendsAll_cons k6 k4 k3⟩
      simp only [backwardPass, k1, Res.ok_bind, k5]
      rfl

theorem errorsLoop_value : ∀ (k : Nat) (ds os : List ℝ), ds.length = k → os.length = k →
    errorsLoop k ds os = .ok (List.zipWith (fun d o => 2 * (d - o)) ds os)
  | 0, [], _, _, _ => by simp [errorsLoop]
  | k + 1, d :: ds, o :: os, h1, h2 => by
    have := errorsLoop_value k ds os (by simpa using h1) (by simpa using h2)
    simp [errorsLoop, this, lit_eq]
  | 0, _ :: _, _, h1, _ => by simp at h1
  | k + 1, [], _, h1, _ => by simp at h1
  | k + 1, _ :: _, [], _, h2 => by simp at h2

theorem hasBadValue_real (y : List ℝ) : hasBadValue y = false := by
  simp [hasBadValue]

/-! ### The weights of a well formed network can be replaced -/

theorem modify_forall {α : Type} {P : α → Prop} {f : α → α} (hf : ∀ a, P a → P (f a)) {l : List α} (h : ∀ a ∈ l, P a) (k : Nat) :
    ∀ a ∈ l.modify k f, P a := by
  intro a ha
  obtain ⟨j, hj⟩ := List.mem_iff_getElem?.1 ha
  rw [List.getElem?_modify] at hj
  cases hn : l[j]? with
  | none => rw [hn] at hj; cases hj
  | some m =>
    rw [hn] at hj
    have hm := h m (List.mem_of_getElem? hn)
    by_cases hjk : k = j
    · simp only [hjk, if_true] at hj
      cases hj
      exact hf m hm
    · simp only [hjk, if_false] at hj
      cases hj
      exact hm

theorem modify_neurons {ns : List (Neuron ℝ)} {a b c i : Nat} {v : ℝ} (h : ∀ n ∈ ns, n.WF a b c) (k : Nat) :
    ∀ n ∈ ns.modify k (withWeight i v), n.WF a b c :=
  modify_forall (P := fun n : Neuron ℝ => n.WF a b c) (fun n hn => withWeight_wf hn) h k

theorem layer_withWeight_wf {l : Layer ℝ} {ni no k i : Nat} {v : ℝ} (h : l.WF ni no) : (Layer.withWeight l k i v).WF ni no := by
  have hb := h.body
  unfold Layer.withWeight
  cases hl : l.body with
  | fullyConnected ns =>
    rw [hl] at hb
    exact ⟨h.inputs, ⟨modify_neurons hb.1 k, by rw [List.length_modify]; exact hb.2⟩, h.pos⟩
  | recurrence ns => exact h
  | gru ns => exact h
  | filter kind ns info =>
    rw [hl] at hb
    refine ⟨h.inputs, ?_, h.pos⟩
    cases kind with
    | conv1D => exact ⟨hb.rows, modify_neurons hb.neurons k, hb.pos, hb.kernels, by rw [List.length_modify]; exact hb.out⟩
    | conv2D => exact ⟨hb.rows, modify_neurons hb.neurons k, hb.pos, hb.kernels, by rw [List.length_modify]; exact hb.out⟩
    | lc1D => exact ⟨hb.rows, modify_neurons hb.neurons k, hb.filters, hb.perFilter, hb.bound, hb.kernels,
        by rw [List.length_modify]; exact hb.count, by rw [List.length_modify]; exact hb.out⟩
    | lc2D => exact ⟨hb.rows, modify_neurons hb.neurons k, hb.filters, hb.perFilter, hb.bound, hb.kernels,
        by rw [List.length_modify]; exact hb.count, by rw [List.length_modify]; exact hb.out⟩
  | pool => exact h

theorem layers_withWeight_wf {ls : List (Layer ℝ)} {ni no : Nat} (h : LayersWF ls ni no) (k i : Nat) (v : ℝ) : ∀ j,
    LayersWF (ls.modify j fun l => Layer.withWeight l k i v) ni no := by
  induction h with
  | nil => intro j; simpa using LayersWF.nil
  | cons hl hs ih =>
    intro j
    cases j with
    | zero => exact .cons (layer_withWeight_wf hl) hs
    | succ j => exact .cons hl (ih j)

theorem loss_eq {n : Net ℝ} {ni no : Nat} (h : LayersWF n.layers ni no) (hne : n.layers ≠ []) {x : List ℝ} (hx : x.length = ni) (d : List ℝ) :
    loss n x d = squaredError d (fnAll n.layers x) := by
  obtain ⟨y, ls', h1, _⟩ := outputLoop_ok false h x hx
  have hy := outputLoop_fnAll h1
  have he : n.layers.isEmpty = false := by
    cases hls : n.layers with
    | nil => exact absurd hls hne
    | cons => rfl
  unfold loss Net.output
  rw [he]
  simp only [Bool.false_eq_true, if_false, h1, Res.ok_bind, hy]
  rfl

/-- One call of `trainOnce`. -/
theorem trainOnce_descends {n : Net ℝ} {ni no : Nat} {o : Sgd ℝ} (hw : n.WF ni no) (hnan : n.outputNan = false) {x des : List ℝ}
    (hs : Smooth o true n.layers x ni no) (hx : x.length = ni) (hd : des.length = no) (t : Bool) (d : Draws ℝ) :
    ∃ n', n.trainOnce x des t d = .ok (n', d) ∧ n'.WF ni no ∧ n'.outputNan = false ∧ ∀ j k i, HasW n.layers j k i →
      (∃ g, HasDerivAt (fun v => loss (Net.withWeight n j k i v) x des) g (Net.weight n j k i) ∧
        Net.weight n' j k i = kp n.layers j k i - o.learningRate * g + o.momentum * mm n.layers j k i) ∧
      mm n'.layers j k i = Net.weight n' j k i - kp n.layers j k i := by
  obtain ⟨ls1, h1, h2⟩ := pass_run hs hw.ne t d
  obtain ⟨y, ls1', d1, g1, g2, g3, g4⟩ := trainingLoop_ok t hw.layers x d hx
  rw [h1] at g1
  cases g1
  have hlen : (fnAll n.layers x).length = no := g2
  obtain ⟨ls2, h3, h4⟩ := h2 (List.zipWith (fun d o => 2 * (d - o)) des (fnAll n.layers x)) (by simp [hd, hlen])
  have he : n.layers.isEmpty = false := by
    have := hw.ne
    cases hls : n.layers with
    | nil => exact absurd hls this
    | cons => rfl
  obtain ⟨l, k, hl1, hl2⟩ := g3.getLast (g4.ne hw.ne)
  have hno : l.getNumberOfNeurons = no := hl2.neurons (g4.last hw.last l hl1)
  have hrun : n.trainOnce x des t d = .ok ({ n with layers := ls2, outputNan := false, numberOfTraining := n.numberOfTraining + 1 }, d) := by
    unfold Net.trainOnce Net.backpropagation Net.outputForTraining
    rw [he]
    simp only [Bool.false_eq_true, if_false, h1, Res.ok_bind, Res.pure_eq, hnan, hasBadValue_real, Bool.or_false, Net.calculateError]
    rw [backOf_eq hl1]
    simp only [Res.ok_bind]
    rw [hno, errorsLoop_value no des _ hd hlen]
    simp only [Res.ok_bind, h3]
  refine ⟨_, hrun, ?_, rfl, ?_⟩
  · obtain ⟨n', d', k1, k2, _⟩ := Net.trainOnce_ok hw x des hx hd t d
    rw [hrun] at k1
    cases k1
    exact k2
  · intro j k i hh
    have hG := back_squaredError des (fnAll n.layers x) (by omega)
    obtain ⟨⟨g, e1, e2⟩, e3⟩ := h4 (squaredError des) hG j k i hh
    refine ⟨⟨g, ?_, e2⟩, e3⟩
    have hfun : (fun v => loss (Net.withWeight n j k i v) x des)
        = fun v => squaredError des (fnAll (n.layers.modify j fun l => Layer.withWeight l k i v) x) := by
      funext v
      exact loss_eq (n := Net.withWeight n j k i v) (layers_withWeight_wf hw.layers k i v j) (by
        have := hw.ne
        intro hc
        apply this
        have := congrArg List.length hc
        simp only [Net.withWeight, List.length_modify, List.length_nil] at this
        exact List.length_eq_zero_iff.1 this) hx des
    rw [hfun]
    exact e1

end Snn.Grad
