import Verif.Proofs.SmallProofs
import Verif.Props.GradProps

/-! The first training step with a small learning rate: the weights tend to the ones of the network without biases. -/

set_option linter.all false

namespace Snn.Small

open Finset Snn.Spec Snn.Grad Snn.Robust Snn.GradProps

theorem closeN_zero {a b : Neuron ℝ} (h : CloseN 0 a b) : b.weights = a.weights := by
  apply List.ext_getElem h.len
  intro i h1 h2
  have := sub_eq_zero.1 (abs_nonpos_iff.1 (h.near i))
  simpa [List.getD_eq_getElem?_getD, h1, h2] using this.symm

theorem closeL_zero {l l' : Layer ℝ} (h : CloseL 0 l l') : l'.body.weights = l.body.weights := by
  obtain ⟨_, ns, ns', e1, e2, hf⟩ := h
  rw [e1, e2]
  simp only [Body.weights]
  clear e1 e2
  induction hf with
  | nil => rfl
  | cons h _ ih => simp only [List.map_cons, ih, Neuron.getWeights, closeN_zero h]

theorem close_get {δ : ℝ} {ls ls' : List (Layer ℝ)} (h : List.Forall₂ (CloseL δ) ls ls') (j : Nat) :
    (ls[j]? = none ∧ ls'[j]? = none) ∨ ∃ l l', ls[j]? = some l ∧ ls'[j]? = some l' ∧ CloseL δ l l' := by
  induction h generalizing j with
  | nil => left; simp
  | cons h _ ih => cases j with
    | zero => right; exact ⟨_, _, rfl, rfl, h⟩
    | succ j => simpa using ih j

theorem twin_weights {n m : Net ℝ} (h : List.Forall₂ (CloseL 0) n.layers m.layers) (j k i : Nat) :
    Net.weight m j k i = Net.weight n j k i ∧ kp m.layers j k i = kp n.layers j k i ∧ (HasW m.layers j k i ↔ HasW n.layers j k i) := by
  unfold Net.weight kp HasW neuronWeights
  rcases close_get h j with ⟨e1, e2⟩ | ⟨l, l', e1, e2, hc⟩
  · simp [e1, e2]
  · have := closeL_zero hc
    simp [e1, e2, this]

theorem close_withWeight {l l' : Layer ℝ} (h : CloseL 0 l l') (k i : Nat) (v : ℝ) : CloseL 0 (Layer.withWeight l k i v) (Layer.withWeight l' k i v) := by
  obtain ⟨ho, ns, ns', e1, e2, hf⟩ := h
  unfold Layer.withWeight
  rw [e1, e2]
  refine ⟨ho, _, _, rfl, rfl, ?_⟩
  clear e1 e2
  induction hf generalizing k with
  | nil => cases k <;> exact .nil
  | cons h hs ih => cases k with
    | zero =>
      refine .cons ⟨?_, h.bias, h.act, ?_⟩ hs
      · simp only [Spec.withWeight, List.length_set, h.len]
      · intro q
        simp only [Spec.withWeight, closeN_zero h, sub_self, abs_zero, le_refl]
    | succ k => exact .cons h (ih k)

theorem close_modify {ls ls' : List (Layer ℝ)} (h : List.Forall₂ (CloseL 0) ls ls') (k i : Nat) (v : ℝ) (j : Nat) :
    List.Forall₂ (CloseL 0) (ls.modify j fun l => Layer.withWeight l k i v) (ls'.modify j fun l => Layer.withWeight l k i v) := by
  induction h generalizing j with
  | nil => cases j <;> exact .nil
  | cons h hs ih => cases j with
    | zero => exact .cons (close_withWeight h k i v) hs
    | succ j => exact .cons h (ih j)

theorem dense_modify {ls : List (Layer ℝ)} (h : ∀ l ∈ ls, DenseL l) (k i : Nat) (v : ℝ) (j : Nat) :
    ∀ l ∈ ls.modify j fun l => Layer.withWeight l k i v, DenseL l := by
  refine modify_forall (P := DenseL) ?_ h j
  intro l hl
  obtain ⟨ho, ns, e⟩ := hl
  unfold Layer.withWeight
  rw [e]
  exact ⟨ho, _, rfl⟩

theorem twin_loss {n m : Net ℝ} {ni no : Nat} (hn : n.WF ni no) (hm : m.WF ni no) (hd : ∀ l ∈ n.layers, DenseL l)
    (h : List.Forall₂ (CloseL 0) n.layers m.layers) {x : List ℝ} (hx : x.length = ni) (des : List ℝ) (j k i : Nat) (v : ℝ) :
    loss (Net.withWeight m j k i v) x des = loss (Net.withWeight n j k i v) x des := by
  have w1 := layers_withWeight_wf hn.layers k i v j
  have w2 := layers_withWeight_wf hm.layers k i v j
  have q : ∀ (ls : List (Layer ℝ)), ls ≠ [] → ls.modify j (fun l => Layer.withWeight l k i v) ≠ [] := by
    intro ls h1 h2
    exact h1 (List.length_eq_zero_iff.1 (by simpa using congrArg List.length h2))
  rw [loss_eq (n := Net.withWeight m j k i v) w2 (q _ hm.ne) hx, loss_eq (n := Net.withWeight n j k i v) w1 (q _ hn.ne) hx]
  simp only [Net.withWeight]
  rw [fnAll_eq w1 (dense_modify hd k i v j) hx (close_modify h k i v j) w2]

theorem sum_le_of_mem {l : List Nat} {a : Nat} (h : a ∈ l) : a ≤ l.sum := List.le_sum_of_mem h

theorem bounded (ls : List (Layer ℝ)) (f : Nat → Nat → Nat → ℝ) : ∃ G, 0 ≤ G ∧ ∀ j k i, HasW ls j k i → |f j k i| ≤ G := by
  refine ⟨∑ j ∈ range ls.length, ∑ k ∈ range (ls.map fun l => l.body.weights.length).sum,
    ∑ i ∈ range (ls.map fun l => (l.body.weights.map List.length).sum).sum, |f j k i|, ?_, ?_⟩
  · exact sum_nonneg fun _ _ => sum_nonneg fun _ _ => sum_nonneg fun _ _ => abs_nonneg _
  · rintro j k i ⟨l, h1, h2, h3⟩
    have hj : j < ls.length := (List.getElem?_eq_some_iff.1 h1).1
    have hl := List.mem_of_getElem? h1
    have hk : k < (ls.map fun l => l.body.weights.length).sum := lt_of_lt_of_le h2 (sum_le_of_mem (List.mem_map_of_mem (f := fun l : Layer ℝ => l.body.weights.length) hl))
    have hi : i < (ls.map fun l => (l.body.weights.map List.length).sum).sum := by
      refine lt_of_lt_of_le ?_ (sum_le_of_mem (List.mem_map_of_mem (f := fun l : Layer ℝ => (l.body.weights.map List.length).sum) hl))
      refine lt_of_lt_of_le h3 (sum_le_of_mem ?_)
      unfold neuronWeights
      rw [List.getD_eq_getElem?_getD, List.getElem?_eq_getElem h2]
      exact List.mem_map_of_mem (List.getElem_mem h2)
    calc |f j k i| ≤ ∑ i ∈ range (ls.map fun l => (l.body.weights.map List.length).sum).sum, |f j k i| :=
          single_le_sum (f := fun i => |f j k i|) (fun _ _ => abs_nonneg _) (mem_range.2 hi)
      _ ≤ ∑ k ∈ range (ls.map fun l => l.body.weights.length).sum, ∑ i ∈ range (ls.map fun l => (l.body.weights.map List.length).sum).sum, |f j k i| :=
          single_le_sum (f := fun k => ∑ i ∈ range (ls.map fun l => (l.body.weights.map List.length).sum).sum, |f j k i|)
            (fun _ _ => sum_nonneg fun _ _ => abs_nonneg _) (mem_range.2 hk)
      _ ≤ _ := single_le_sum (f := fun j => ∑ k ∈ range (ls.map fun l => l.body.weights.length).sum,
          ∑ i ∈ range (ls.map fun l => (l.body.weights.map List.length).sum).sum, |f j k i|)
          (fun _ _ => sum_nonneg fun _ _ => sum_nonneg fun _ _ => abs_nonneg _) (mem_range.2 hj)

/-! ### The network without biases -/

theorem withoutBias_wf {n : Neuron ℝ} {a b c : Nat} (h : n.WF a b c) : (Neuron.withoutBias n).WF a b c :=
  ⟨h.inputs, h.batch, h.pos, by simpa [Neuron.withoutBias] using h.wlen, h.elen, h.last, h.prev⟩

theorem withoutBiases_layer {l : Layer ℝ} {ns : List (Neuron ℝ)} (h : l.body = .fullyConnected ns) :
    (Layer.withoutBiases l).body = .fullyConnected (ns.map Neuron.withoutBias) ∧ (Layer.withoutBiases l).optimizers = l.optimizers ∧
      (Layer.withoutBiases l).numberOfInputs = l.numberOfInputs := by
  unfold Layer.withoutBiases
  rw [h]
  exact ⟨rfl, rfl, rfl⟩

theorem withoutBiases_wf {ls : List (Layer ℝ)} {ni no : Nat} (h : LayersWF ls ni no) (hd : ∀ l ∈ ls, DenseL l) :
    LayersWF (ls.map Layer.withoutBiases) ni no := by
  induction h with
  | nil => exact .nil
  | @cons l ls n k m hl hs ih =>
    refine .cons ?_ (ih fun l hl => hd l (by simp [hl]))
    obtain ⟨_, ns, e⟩ := hd l (by simp)
    obtain ⟨e1, e2, e3⟩ := withoutBiases_layer e
    have hb := hl.body
    rw [e] at hb
    refine ⟨by rw [e3]; exact hl.inputs, ?_, hl.pos⟩
    rw [e1]
    refine ⟨?_, by rw [List.length_map]; exact hb.2⟩
    intro n hn
    obtain ⟨n0, h0, rfl⟩ := List.mem_map.1 hn
    exact withoutBias_wf (hb.1 n0 h0)

theorem withoutBiases_dense {ls : List (Layer ℝ)} (hd : ∀ l ∈ ls, DenseL l) : ∀ l ∈ ls.map Layer.withoutBiases, DenseL l := by
  intro l hl
  obtain ⟨l0, h0, rfl⟩ := List.mem_map.1 hl
  obtain ⟨ho, ns, e⟩ := hd l0 h0
  obtain ⟨e1, e2, _⟩ := withoutBiases_layer e
  exact ⟨by rw [e2, ho], _, e1⟩

theorem withoutBias_getD (w : List ℝ) (i : Nat) : (w.set (w.length - 1) 0).getD i 0 = Grad.keep w i := by
  unfold Grad.keep
  rw [List.getD_eq_getElem?_getD, List.getElem?_set, List.getD_eq_getElem?_getD]
  by_cases h1 : i + 1 < w.length
  · rw [if_neg (by omega), if_pos h1]
  · rw [if_neg h1]
    by_cases h2 : w.length - 1 = i
    · rw [if_pos h2]
      split <;> simp
    · rw [if_neg h2, List.getElem?_eq_none (by omega)]
      rfl

/-! ### The step -/

/-- The layers after the step are close to the ones without biases. -/
theorem close_after {n n' : List (Layer ℝ)} {m : List (Layer ℝ)} (h : List.Forall₂ (CloseL 0) n m) (hk : List.Forall₂ Layer.Kin m n') {δ : ℝ} (hδ : 0 ≤ δ)
    (hw : ∀ j k i, HasW n j k i → |kp n j k i - wt n' j k i| ≤ δ) : List.Forall₂ (CloseL δ) (n.map Layer.withoutBiases) n' := by
  induction h generalizing n' with
  | nil => cases hk; exact .nil
  | @cons l lm ls lms hl hls ih =>
    cases hk with
    | @cons _ l' _ ls' hkl hks =>
      refine .cons ?_ (ih hks fun j k i hh => hw (j + 1) k i hh)
      have hw0 := hw 0
      obtain ⟨ho, ns, nm, e1, e2, hf⟩ := hl
      have hkb := hkl.body
      rw [e2] at hkb
      obtain ⟨b1, b2, b3⟩ := withoutBiases_layer e1
      cases hb' : l'.body <;> rw [hb'] at hkb <;> simp only [Body.Kin] at hkb
      rename_i ns'
      refine ⟨?_, _, ns', b1, hb', ?_⟩
      · have := hkl.opts
        rw [ho] at this
        exact List.length_eq_zero_iff.1 (by simpa using congrArg List.length this)
      · have hget : ∀ (k : Nat) (a b : Neuron ℝ), ns[k]? = some a → ns'[k]? = some b → ∀ i, i < a.weights.length →
            |Grad.keep a.weights i - b.weights.getD i 0| ≤ δ := by
          intro k a b ha hb i hi
          have hkl : k < ns.length := (List.getElem?_eq_some_iff.1 ha).1
          have q1 : neuronWeights l k = a.weights := by
            unfold neuronWeights
            rw [e1]
            simp [Body.weights, ha, Neuron.getWeights]
          have q2 : neuronWeights l' k = b.weights := by
            unfold neuronWeights
            rw [hb']
            simp [Body.weights, hb, Neuron.getWeights]
          have := hw0 k i ⟨l, rfl, by rw [e1]; simpa [Body.weights] using hkl, by rw [q1]; exact hi⟩
          simpa [kp, wt, q1, q2] using this
        clear hw hw0 e1 e2 b1 b2 b3 hb' ih hks hls hkl
        induction hf generalizing ns' with
        | nil => cases hkb; exact .nil
        | @cons a am as ams ha has ih2 =>
          cases hkb with
          | @cons _ b _ bs hb hbs =>
            refine .cons ?_ (ih2 bs hbs fun k a' b' h1 h2 => hget (k + 1) a' b' h1 h2)
            have hlen : b.weights.length = a.weights.length := by rw [hb.weights, ha.len]
            refine ⟨by simp [Neuron.withoutBias, hlen], by rw [hb.bias, ha.bias]; rfl, by rw [hb.activation, ha.act]; rfl, ?_⟩
            intro i
            simp only [Neuron.withoutBias]
            rw [withoutBias_getD]
            by_cases hi : i < a.weights.length
            · exact hget 0 a b rfl rfl i hi
            · unfold Grad.keep
              rw [if_neg (by omega), List.getD_eq_default _ _ (by omega)]
              simpa using hδ

/-- All networks that differ from n by the learning rate only. -/
theorem small_core {o : Sgd ℝ} {ni no : Nat} {n : Net ℝ} (h : Reached o ni no n) (hd : ∀ l ∈ n.layers, DenseL l) {x des : List ℝ} (hx : x.length = ni)
    (hdes : des.length = no) (hk : NoKinks n.layers x) : ∃ C, 0 ≤ C ∧ ∃ r, 0 < r ∧ ∀ (η μ : ℝ), 0 ≤ η → η ≤ r →
      ∀ m, Reached { learningRate := η, momentum := μ } ni no m → (∀ l ∈ m.layers, Fresh l) → List.Forall₂ (CloseL 0) n.layers m.layers → NoKinks m.layers x →
      ∀ t d m' d', m.trainOnce x des t d = .ok (m', d') → |loss m' x des - loss (Net.withoutBiases n) x des| ≤ C * η := by
  obtain ⟨G, hG, hg⟩ := bounded n.layers fun j k i => deriv (fun v => loss (Net.withWeight n j k i v) x des) (Net.weight n j k i)
  have w0 := withoutBiases_wf h.wf.layers hd
  have d0 := withoutBiases_dense hd
  obtain ⟨K, hK, hnear⟩ := fnAll_near w0 d0 hx (le_refl (0 : ℝ))
  obtain ⟨C, hC, hsq⟩ := squaredError_near (d := des) (o := fnAll (n.layers.map Layer.withoutBiases) x) hK
  refine ⟨C * G, by positivity, 1 / (G + 1), by positivity, ?_⟩
  intro η μ h0 h1 m hm hf htw hkm t d m' d' ht
  obtain ⟨st, hreach'⟩ := step hm hx hdes hkm ht
  have hkin := Net.trainOnce_toKin ht
  have hδ : η * G ≤ 1 := by
    have : η * (G + 1) ≤ 1 := by rwa [le_div_iff₀ (by positivity)] at h1
    nlinarith
  have hclose : List.Forall₂ (CloseL (η * G)) (n.layers.map Layer.withoutBiases) m'.layers := by
    refine close_after htw hkin.layers (by positivity) ?_
    intro j k i hh
    obtain ⟨e1, e2, e3⟩ := twin_weights htw j k i
    obtain ⟨⟨g, a, b⟩, _⟩ := st j k i (e3.2 hh)
    have hz : mm m.layers j k i = 0 := by
      unfold mm
      cases hj : m.layers[j]? with
      | none => rfl
      | some l => exact hf l (List.mem_of_getElem? hj) k i
    have e4 : (fun v => loss (Net.withWeight m j k i v) x des) = fun v => loss (Net.withWeight n j k i v) x des := by
      funext v
      exact twin_loss h.wf hm.wf hd htw hx des j k i v
    rw [e4, e1] at a
    have hgd := a.deriv
    rw [e2, hz] at b
    have e5 : wt m'.layers j k i = Net.weight m' j k i := rfl
    rw [e5, b]
    have := hg j k i hh
    rw [hgd] at this
    have e6 : kp n.layers j k i - (kp n.layers j k i - η * g + μ * 0) = η * g := by ring
    rw [e6, abs_mul, abs_of_nonneg h0]
    exact mul_le_mul_of_nonneg_left this h0
  have hne : n.layers.map Layer.withoutBiases ≠ [] := by
    intro hh
    exact h.wf.ne (by simpa using hh)
  rw [loss_eq hreach'.wf.layers hreach'.wf.ne hx, loss_eq (n := Net.withoutBiases n) w0 hne hx, mul_assoc, mul_comm G]
  refine hsq (η * G) (by positivity) hδ _ ?_
  exact hnear (η * G) (by positivity) hδ _ hclose hreach'.wf.layers x (near_self (by norm_num) x)

end Snn.Small
