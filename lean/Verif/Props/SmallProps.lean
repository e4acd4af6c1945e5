import Verif.Proofs.SmallStep
import Verif.Props.ConvergeProps

/-!
# C97: a small enough training step does not make the error of its example greater
-/

set_option linter.all false

namespace Snn.SmallProps

open Finset Snn.Spec Snn.Grad Snn.Robust Snn.GradProps Snn.Small Snn.SafeProps

/-! ### Networks built from the same draws with two learning rates -/

theorem make_twin {m : NeuronModel ℝ} {o1 o2 : Sgd ℝ} {d : Draws ℝ} {a b : Neuron ℝ} (ha : Neuron.make m o1 d = .ok a) (hb : Neuron.make m o2 d = .ok b) :
    CloseN 0 a b := by
  unfold Neuron.make at ha hb
  split at ha
  · cases ha
  rename_i h1
  rw [if_neg h1] at hb
  split at ha
  · cases ha
  rename_i h2
  rw [if_neg h2] at hb
  simp only at ha hb
  obtain ⟨last, e1, ha⟩ := Res.bind_eq_ok.1 ha
  rw [e1, Res.ok_bind] at hb
  obtain ⟨li, e2, ha⟩ := Res.bind_eq_ok.1 ha
  rw [e2, Res.ok_bind] at hb
  obtain ⟨pd, e3, ha⟩ := Res.bind_eq_ok.1 ha
  rw [e3, Res.ok_bind] at hb
  have ea := Res.ok.inj ha
  have eb := Res.ok.inj hb
  subst ea
  subst eb
  exact ⟨rfl, rfl, rfl, fun i => by simp⟩

theorem makeNeurons_twin {m : NeuronModel ℝ} {o1 o2 : Sgd ℝ} {p : Nat} : ∀ {k : Nat} {d d1 d2 : Draws ℝ} {as bs : List (Neuron ℝ)},
    makeNeurons (Neuron.make m o1) p k d = .ok (as, d1) → makeNeurons (Neuron.make m o2) p k d = .ok (bs, d2) → List.Forall₂ (CloseN 0) as bs ∧ d2 = d1
  | 0, d, d1, d2, as, bs, ha, hb => by cases ha; cases hb; exact ⟨.nil, rfl⟩
  | k + 1, d, d1, d2, as, bs, ha, hb => by
    obtain ⟨a, a1, ha⟩ := Res.bind_eq_ok.1 ha
    obtain ⟨⟨as', da⟩, a2, ha⟩ := Res.bind_eq_ok.1 ha
    obtain ⟨b, b1, hb⟩ := Res.bind_eq_ok.1 hb
    obtain ⟨⟨bs', db⟩, b2, hb⟩ := Res.bind_eq_ok.1 hb
    cases ha
    cases hb
    obtain ⟨h1, h2⟩ := makeNeurons_twin a2 b2
    exact ⟨.cons (make_twin a1 b1) h1, h2⟩

theorem buildLayer_twin {o1 o2 : Sgd ℝ} {n : Int} {act : Act} {shape : List Int} {d d1 d2 : Draws ℝ} {l1 l2 : Layer ℝ}
    (h1 : buildLayer o1 (.fullyConnected n act []) shape d = .ok (l1, d1)) (h2 : buildLayer o2 (.fullyConnected n act []) shape d = .ok (l2, d2)) :
    CloseL 0 l1 l2 ∧ DenseL l1 ∧ d2 = d1 := by
  unfold buildLayer at h1 h2
  obtain ⟨ni, e, h1⟩ := Res.bind_eq_ok.1 h1
  rw [e, Res.ok_bind] at h2
  split at h1
  · cases h1
  rename_i c1
  rw [if_neg c1] at h2
  split at h1
  · cases h1
  rename_i c2
  rw [if_neg c2] at h2
  simp only at h1 h2
  split at h1
  · cases h1
  rename_i c3
  rw [if_neg c3] at h2
  unfold buildSimple at h1 h2
  obtain ⟨nw, e1, h1⟩ := Res.bind_eq_ok.1 h1
  rw [e1, Res.ok_bind] at h2
  simp only at h1 h2
  obtain ⟨⟨as, da⟩, a, h1⟩ := Res.bind_eq_ok.1 h1
  obtain ⟨⟨bs, db⟩, b, h2⟩ := Res.bind_eq_ok.1 h2
  cases h1
  cases h2
  unfold makeAllNeurons at a b
  split at a
  · cases a
  rename_i c4
  rw [if_neg c4] at b
  obtain ⟨p, q⟩ := makeNeurons_twin a b
  exact ⟨⟨rfl, _, _, rfl, rfl, p⟩, ⟨rfl, _, rfl⟩, by simpa [LayerOpt.buildAll] using q⟩

theorem shape_twin {l1 l2 : Layer ℝ} (h : CloseL 0 l1 l2) : l2.getShapeOfOutput = l1.getShapeOfOutput := by
  obtain ⟨_, ns, ns', e1, e2, hf⟩ := h
  simp [Layer.getShapeOfOutput, Layer.getNumberOfNeurons, Body.numberOfNeurons, Body.weights, e1, e2, hf.length_eq]

theorem buildLayers_twin {o1 o2 : Sgd ℝ} : ∀ {ms : List (LayerModel ℝ)}, (∀ m ∈ ms, ∃ n act, m = .fullyConnected n act [] ∧ act ≠ .iSigmoid) →
    ∀ {shape : List Int} {d d1 d2 : Draws ℝ} {ls1 ls2 : List (Layer ℝ)}, buildLayers o1 ms shape d = .ok (ls1, d1) →
    buildLayers o2 ms shape d = .ok (ls2, d2) → List.Forall₂ (CloseL 0) ls1 ls2 ∧ ∀ l ∈ ls1, DenseL l
  | [], _, shape, d, d1, d2, ls1, ls2, h1, h2 => by cases h1; cases h2; exact ⟨.nil, by simp⟩
  | m :: ms, hd, shape, d, d1, d2, ls1, ls2, h1, h2 => by
    rw [buildLayers] at h1 h2
    obtain ⟨⟨l1, da⟩, a1, h1⟩ := Res.bind_eq_ok.1 h1
    obtain ⟨⟨l2, db⟩, b1, h2⟩ := Res.bind_eq_ok.1 h2
    simp only at h1 h2
    obtain ⟨⟨as, da'⟩, a2, h1⟩ := Res.bind_eq_ok.1 h1
    obtain ⟨⟨bs, db'⟩, b2, h2⟩ := Res.bind_eq_ok.1 h2
    cases h1
    cases h2
    obtain ⟨n, act, rfl, _⟩ := hd m (by simp)
    obtain ⟨p, q, r⟩ := buildLayer_twin a1 b1
    subst r
    rw [shape_twin p] at b2
    obtain ⟨p2, q2⟩ := buildLayers_twin (fun m hm => hd m (by simp [hm])) a2 b2
    refine ⟨.cons p p2, ?_⟩
    intro l hl
    rcases List.mem_cons.1 hl with rfl | hl
    · exact q
    · exact q2 l hl

theorem make_layers {arch : List (LayerModel ℝ)} {o : Sgd ℝ} {d d' : Draws ℝ} {snn : Snn ℝ} (h : Snn.make arch o d = .ok (snn, d')) :
    ∃ shape rest d1, arch = .input shape :: rest ∧ buildLayers o rest shape d = .ok (snn.net.layers, d1) := by
  obtain ⟨⟨net, d1⟩, h1, h⟩ := Res.bind_eq_ok.1 h
  obtain ⟨err, h2, h⟩ := Res.bind_eq_ok.1 h
  split at h
  · cases h
  cases h
  obtain ⟨⟨ls, d2⟩, h3, h1⟩ := Res.bind_eq_ok.1 h1
  obtain ⟨last, h4, h1⟩ := Res.bind_eq_ok.1 h1
  cases h1
  unfold LayerFactory.build at h3
  split at h3
  · cases h3
  split at h3
  · split at h3
    · cases h3
    obtain ⟨_, _, h3⟩ := Res.bind_eq_ok.1 h3
    split at h3
    · cases h3
    exact ⟨_, _, _, rfl, h3⟩
  · cases h3

theorem snn_twin {arch : List (LayerModel ℝ)} (hd : DensePlain arch) {o1 o2 : Sgd ℝ} {d d1 d2 : Draws ℝ} {s1 s2 : Snn ℝ}
    (h1 : Snn.make arch o1 d = .ok (s1, d1)) (h2 : Snn.make arch o2 d = .ok (s2, d2)) :
    List.Forall₂ (CloseL 0) s1.net.layers s2.net.layers ∧ ∀ l ∈ s1.net.layers, DenseL l := by
  obtain ⟨shape, rest, da, rfl, a⟩ := make_layers h1
  obtain ⟨shape', rest', db, e, b⟩ := make_layers h2
  cases e
  exact buildLayers_twin hd a b

theorem noKinks_twin {ls ls' : List (Layer ℝ)} {ni no : Nat} (hw : LayersWF ls ni no) (hw' : LayersWF ls' ni no) (h : List.Forall₂ (CloseL 0) ls ls')
    (hd : ∀ l ∈ ls, DenseL l) {x : List ℝ} (hx : x.length = ni) (hk : NoKinks ls x) : NoKinks ls' x := by
  induction h generalizing ni x with
  | nil => exact .nil
  | @cons l l' ls ls' hl hls ih =>
    cases hw with
    | @cons _ _ _ k _ w ws =>
      cases hw' with
      | @cons _ _ _ k' _ w' ws' =>
        cases hk with
        | @cons _ l1 _ _ y hk ho hs =>
          obtain ⟨ho', ns, ns', e1, e2, hf⟩ := id hl
          have hb := w.body
          have hb' := w'.body
          rw [e1] at hb
          rw [e2] at hb'
          have hkk : k' = k := by rw [← hb.2, ← hb'.2, hf.length_eq]
          subst hkk
          obtain ⟨y', l1', a1, a2, _⟩ := Layer.output_ok w' x hx false
          have ey : y = fn l x := by unfold fn; rw [ho]
          have ey' : y' = fn l' x := by unfold fn; rw [a1]
          have hfn : fn l' x = fn l x := by
            rw [fn_fc (hd l (by simp)).1 e1 hb.1 hx, fn_fc ho' e2 hb'.1 hx]
            have : ∀ {as bs : List (Neuron ℝ)}, List.Forall₂ (CloseN 0) as bs → bs.map (fun n => n.value x) = as.map fun n => n.value x := by
              intro as bs hh
              induction hh with
              | nil => rfl
              | @cons a b as bs hq _ ih2 =>
                have : b.value x = a.value x := by unfold Neuron.value; rw [closeN_zero hq, hq.bias, hq.act]
                rw [List.map_cons, List.map_cons, ih2, this]
            exact this hf
          have hyy : y' = y := by rw [ey, ey', hfn]
          refine .cons ?_ (hyy ▸ a1) (ih ws ws' (fun l hl => hd l (by simp [hl])) (by rw [ey]; exact fn_length w (hd l (by simp)) hx) hs)
          unfold NoKink at hk ⊢
          rw [e1] at hk
          rw [e2]
          simp only at hk ⊢
          intro b hb2 hact
          obtain ⟨i, hi, rfl⟩ := List.mem_iff_getElem.1 hb2
          have hi' : i < ns.length := by rw [hf.length_eq]; exact hi
          have hq := (List.forall₂_iff_get.1 hf).2 i hi' hi
          simp only [List.get_eq_getElem] at hq
          rw [closeN_zero hq, hq.bias]
          exact hk _ (List.getElem_mem hi') (by rw [← hq.act]; exact hact)

theorem chain_plain {ms : List (LayerModel ℝ)} {s s' : List Nat} (hc : Chain ms s s') :
    ∀ {first : Bool}, (∀ m ∈ ms, ∃ n act, m = .fullyConnected n act [] ∧ act ≠ .iSigmoid) → PlainChain first ms s := by
  induction hc with
  | nil => intro first _; exact .nil
  | @cons m ms s s1 s2 hs hm hc ih =>
    intro first h
    obtain ⟨n, act, rfl, ha⟩ := h m (by simp)
    exact .cons (.fullyConnected ha) hm (ih fun m hm => h m (by simp [hm]))

theorem dense_plain {arch : List (LayerModel ℝ)} {s s' : List Nat} (h : WellFormed arch s s') (hd : DensePlain arch) : PlainArch arch s s' := by
  obtain ⟨m, rest, rfl, hc⟩ := id h.layers
  refine ⟨h, ?_, chain_plain hc hd⟩
  unfold EndsWithNeurons
  rw [List.getLast?_eq_some_getLast (by simp)]
  have hmem := List.getLast_mem (l := m :: rest) (by simp)
  rw [List.getLast_cons (by simp)]
  obtain ⟨n, act, e, _⟩ := hd _ hmem
  rw [e]
  trivial

/-! ### The theorems -/

/-- **C97, what a small step does.** For every well formed architecture of fully connected layers, every random initialization and
every example where the network is differentiable: the first training step on this example with the learning rate η brings the error of
the example to the error of the network *whose biases are ignored*, up to a multiple of η. (A step of gradient descent would bring it to
the error of the network itself.) -/
theorem C97_limit {arch : List (LayerModel ℝ)} {s s' : List Nat} (h : WellFormed arch s s') (hd : DensePlain arch) {opt : Sgd ℝ} {d d' : Draws ℝ}
    {snn : Snn ℝ} (hm : Snn.make arch opt d = .ok (snn, d')) {x des : List ℝ} (hx : x.length = s.prod) (hdes : des.length = s'.prod)
    (hk : NoKinks snn.net.layers x) : ∃ C, 0 ≤ C ∧ ∃ r, 0 < r ∧ ∀ (η μ : ℝ), 0 < η → η < r → ∀ snn1 d1,
      Snn.make arch { learningRate := η, momentum := μ } d = .ok (snn1, d1) → ∀ t dr n' dr', snn1.net.trainOnce x des t dr = .ok (n', dr') →
      |loss n' x des - loss (Net.withoutBiases snn.net) x des| ≤ C * η := by
  obtain ⟨hr, _⟩ := make_reached (dense_plain h hd) hm
  obtain ⟨_, hdl⟩ := snn_twin hd hm hm
  obtain ⟨C, hC, r, hr0, hh⟩ := small_core hr hdl hx hdes hk
  refine ⟨C, hC, r, hr0, ?_⟩
  intro η μ h0 h1 snn1 d1 hm1 t dr n' dr' ht
  obtain ⟨hr1, hf1⟩ := make_reached (dense_plain h hd) hm1
  obtain ⟨htw, _⟩ := snn_twin hd hm hm1
  exact hh η μ h0.le h1.le snn1.net hr1 hf1 htw (noKinks_twin hr.wf.layers hr1.wf.layers htw hdl hx hk) t dr n' dr' ht

/-- The learning rate does not change the error of a new network. -/
theorem loss_twin {arch : List (LayerModel ℝ)} {s s' : List Nat} (h : WellFormed arch s s') (hd : DensePlain arch) {o1 o2 : Sgd ℝ} {d d1 d2 : Draws ℝ}
    {s1 s2 : Snn ℝ} (h1 : Snn.make arch o1 d = .ok (s1, d1)) (h2 : Snn.make arch o2 d = .ok (s2, d2)) {x : List ℝ} (hx : x.length = s.prod) (des : List ℝ) :
    loss s2.net x des = loss s1.net x des := by
  obtain ⟨r1, _⟩ := make_reached (dense_plain h hd) h1
  obtain ⟨r2, _⟩ := make_reached (dense_plain h hd) h2
  obtain ⟨htw, hdl⟩ := snn_twin hd h1 h2
  rw [loss_eq r2.wf.layers r2.wf.ne hx, loss_eq r1.wf.layers r1.wf.ne hx, fnAll_eq r1.wf.layers hdl hx htw r2.wf.layers]

/-- **C97, refutation.** Whenever the error of the example is greater without the biases, every step with a small enough learning rate
makes the error of its example greater, by an amount that does not tend to 0. -/
theorem C97_increase_refuted {arch : List (LayerModel ℝ)} {s s' : List Nat} (h : WellFormed arch s s') (hd : DensePlain arch) {opt : Sgd ℝ}
    {d d' : Draws ℝ} {snn : Snn ℝ} (hm : Snn.make arch opt d = .ok (snn, d')) {x des : List ℝ} (hx : x.length = s.prod) (hdes : des.length = s'.prod)
    (hk : NoKinks snn.net.layers x) {a : ℝ} (hl : loss snn.net x des + a < loss (Net.withoutBiases snn.net) x des) :
    ∃ r, 0 < r ∧ ∀ (η μ : ℝ), 0 < η → η < r → ∀ snn1 d1, Snn.make arch { learningRate := η, momentum := μ } d = .ok (snn1, d1) →
      ∀ t dr n' dr', snn1.net.trainOnce x des t dr = .ok (n', dr') → loss snn1.net x des + a < loss n' x des := by
  obtain ⟨C, hC, r, hr, hh⟩ := C97_limit h hd hm hx hdes hk
  set b := loss (Net.withoutBiases snn.net) x des - (loss snn.net x des + a) with hb
  have hb0 : 0 < b := by rw [hb]; linarith
  refine ⟨min r (b / (C + 1)), lt_min hr (by positivity), ?_⟩
  intro η μ h0 h1 snn1 d1 hm1 t dr n' dr' ht
  have := hh η μ h0 (lt_of_lt_of_le h1 (min_le_left _ _)) snn1 d1 hm1 t dr n' dr' ht
  rw [loss_twin h hd hm hm1 hx]
  have h2 : η < b / (C + 1) := lt_of_lt_of_le h1 (min_le_right _ _)
  rw [lt_div_iff₀ (by positivity)] at h2
  have h3 := (abs_le.1 this).1
  nlinarith

/-- **C97, what holds.** Whenever the error of the example is smaller without the biases, every step with a small enough learning rate
makes the error of its example smaller. -/
theorem C97_decrease_partial {arch : List (LayerModel ℝ)} {s s' : List Nat} (h : WellFormed arch s s') (hd : DensePlain arch) {opt : Sgd ℝ}
    {d d' : Draws ℝ} {snn : Snn ℝ} (hm : Snn.make arch opt d = .ok (snn, d')) {x des : List ℝ} (hx : x.length = s.prod) (hdes : des.length = s'.prod)
    (hk : NoKinks snn.net.layers x) {a : ℝ} (hl : loss (Net.withoutBiases snn.net) x des < loss snn.net x des - a) :
    ∃ r, 0 < r ∧ ∀ (η μ : ℝ), 0 < η → η < r → ∀ snn1 d1, Snn.make arch { learningRate := η, momentum := μ } d = .ok (snn1, d1) →
      ∀ t dr n' dr', snn1.net.trainOnce x des t dr = .ok (n', dr') → loss n' x des < loss snn1.net x des - a := by
  obtain ⟨C, hC, r, hr, hh⟩ := C97_limit h hd hm hx hdes hk
  set b := loss snn.net x des - a - loss (Net.withoutBiases snn.net) x des with hb
  have hb0 : 0 < b := by rw [hb]; linarith
  refine ⟨min r (b / (C + 1)), lt_min hr (by positivity), ?_⟩
  intro η μ h0 h1 snn1 d1 hm1 t dr n' dr' ht
  have := hh η μ h0 (lt_of_lt_of_le h1 (min_le_left _ _)) snn1 d1 hm1 t dr n' dr' ht
  rw [loss_twin h hd hm hm1 hx]
  have h2 : η < b / (C + 1) := lt_of_lt_of_le h1 (min_le_right _ _)
  rw [lt_div_iff₀ (by positivity)] at h2
  have h3 := (abs_le.1 this).2
  nlinarith

theorem fnAll_length : ∀ {ls : List (Layer ℝ)} {ni no : Nat}, LayersWF ls ni no → (∀ l ∈ ls, DenseL l) → ∀ {x : List ℝ}, x.length = ni → (fnAll ls x).length = no
  | [], _, _, h, _, x, hx => by cases h; exact hx
  | l :: ls, ni, no, h, hd, x, hx => by
    cases h with
    | cons w ws => exact fnAll_length ws (fun m hm => hd m (by simp [hm])) (fn_length w (hd l (by simp)) hx)

/-- **C97, refutation.** Whenever the biases matter for the outputs of the new network on the input x, there are expected outputs, that
the network has not learned yet, for which every step with a small enough learning rate makes the error greater (it becomes more than
8 times the error before the step). -/
theorem C97_refuted {arch : List (LayerModel ℝ)} {s s' : List Nat} (h : WellFormed arch s s') (hd : DensePlain arch) {opt : Sgd ℝ} {d d' : Draws ℝ}
    {snn : Snn ℝ} (hm : Snn.make arch opt d = .ok (snn, d')) {x : List ℝ} (hx : x.length = s.prod) (hk : NoKinks snn.net.layers x)
    {o o0 : List ℝ} {n1 n2 : Net ℝ} (ho : snn.net.output x false = .ok (o, n1)) (ho0 : (Net.withoutBiases snn.net).output x false = .ok (o0, n2)) (hne : o ≠ o0) :
    ∃ des : List ℝ, des.length = s'.prod ∧ 0 < loss snn.net x des ∧ ∃ r, 0 < r ∧ ∀ (η μ : ℝ), 0 < η → η < r →
      ∀ snn1 d1, Snn.make arch { learningRate := η, momentum := μ } d = .ok (snn1, d1) →
      ∀ t dr n' dr', snn1.net.trainOnce x des t dr = .ok (n', dr') → 8 * loss snn1.net x des < loss n' x des := by
  obtain ⟨hr, _⟩ := make_reached (dense_plain h hd) hm
  obtain ⟨_, hdl⟩ := snn_twin hd hm hm
  have w0 := withoutBiases_wf hr.wf.layers hdl
  have d0 := withoutBiases_dense hdl
  have hne0 : (Net.withoutBiases snn.net).layers ≠ [] := by
    intro hh
    exact hr.wf.ne (by simpa [Net.withoutBiases] using hh)
  have e1 : o = fnAll snn.net.layers x := by
    unfold Net.output at ho
    split at ho
    · cases ho
    obtain ⟨⟨z, ls⟩, e2, ho⟩ := Res.bind_eq_ok.1 ho
    cases ho
    exact outputLoop_fnAll e2
  have e0 : o0 = fnAll (snn.net.layers.map Layer.withoutBiases) x := by
    unfold Net.output at ho0
    split at ho0
    · cases ho0
    obtain ⟨⟨z, ls⟩, e2, ho0⟩ := Res.bind_eq_ok.1 ho0
    cases ho0
    exact outputLoop_fnAll e2
  have l1 : o.length = s'.prod := by rw [e1]; exact fnAll_length hr.wf.layers hdl hx
  have l0 : o0.length = s'.prod := by rw [e0]; exact fnAll_length w0 d0 hx
  have hloss : ∀ des, loss snn.net x des = squaredError des o := fun des => by rw [loss_eq hr.wf.layers hr.wf.ne hx, e1]
  have hloss0 : ∀ des, loss (Net.withoutBiases snn.net) x des = squaredError des o0 := fun des => by
    rw [loss_eq (n := Net.withoutBiases snn.net) w0 hne0 hx, e0]; rfl
  obtain ⟨des, hdes⟩ : ∃ des, des = List.zipWith (fun a b : ℝ => a + (a - b) / 2) o o0 := ⟨_, rfl⟩
  have hlen : des.length = s'.prod := by rw [hdes]; simp [l1, l0]
  have hget : ∀ j < des.length, des.getD j 0 = o.getD j 0 + (o.getD j 0 - o0.getD j 0) / 2 := by
    intro j hj
    have a1 : j < o.length := by omega
    have a2 : j < o0.length := by omega
    rw [hdes]
    simp [List.getD_eq_getElem?_getD, List.getElem?_zipWith, a1, a2]
  have s1 : squaredError des o = 1 / 4 * ∑ j ∈ range des.length, (o.getD j 0 - o0.getD j 0) ^ 2 := by
    unfold squaredError
    rw [mul_sum]
    refine sum_congr rfl fun j hj => ?_
    rw [hget j (mem_range.1 hj)]
    ring
  have s0 : squaredError des o0 = 9 / 4 * ∑ j ∈ range des.length, (o.getD j 0 - o0.getD j 0) ^ 2 := by
    unfold squaredError
    rw [mul_sum]
    refine sum_congr rfl fun j hj => ?_
    rw [hget j (mem_range.1 hj)]
    ring
  have hpos : 0 < ∑ j ∈ range des.length, (o.getD j 0 - o0.getD j 0) ^ 2 := by
    by_contra hcon
    apply hne
    have hz := le_antisymm (not_lt.1 hcon) (sum_nonneg fun j _ => sq_nonneg _)
    rw [sum_eq_zero_iff_of_nonneg fun j _ => sq_nonneg _] at hz
    apply List.ext_getElem (by rw [l1, l0])
    intro j b1 b2
    have := hz j (mem_range.2 (by omega))
    have := sub_eq_zero.1 (pow_eq_zero_iff (two_ne_zero)|>.1 this)
    simpa [List.getD_eq_getElem?_getD, b1, b2] using this
  refine ⟨des, hlen, by rw [hloss, s1]; linarith, ?_⟩
  obtain ⟨r, hr0, hh⟩ := C97_increase_refuted h hd hm hx hlen hk (a := 7 * loss snn.net x des)
    (by rw [hloss, hloss0, s1, s0]; linarith)
  refine ⟨r, hr0, ?_⟩
  intro η μ h0 h1 snn1 d1 hm1 t dr n' dr' ht
  have := hh η μ h0 h1 snn1 d1 hm1 t dr n' dr' ht
  rw [loss_twin h hd hm hm1 hx] at this ⊢
  linarith

/-! ### Non-vacuity -/

theorem demo_wf : WellFormed (linearArch ([1].map fun v : Nat => (v : Int)) 1) [1] [1] := by
  have g1 : GoodShape [1] := ⟨by simp, by simp, by simp⟩
  exact ⟨⟨_, _, rfl, .cons g1 (Fits.fullyConnected (n := 1) (by omega)) (.nil g1)⟩, by simp [linearArch]⟩

theorem demo_dense : DensePlain (linearArch ([1].map fun v : Nat => (v : Int)) 1) := by
  intro m hm
  simp [linearArch] at hm
  exact ⟨1, .identity, by simpa using hm, by simp⟩

/-- The hypotheses are met: one linear neuron with one input, the greatest draws, the input 0: the output is the bias weight, and it is
0 without the bias; the training step is possible for every learning rate between 0 and 1. -/
example : ∃ snn d' o n1 n2, Snn.make (linearArch ([1].map fun v : Nat => (v : Int)) 1) { learningRate := 1 / 10, momentum := 0 } (fun _ => 1) = .ok (snn, d') ∧
    NoKinks snn.net.layers [0] ∧ snn.net.output [0] false = .ok (o, n1) ∧ (Net.withoutBiases snn.net).output [0] false = .ok ([0], n2) ∧ o ≠ [0] ∧
    ∀ η : ℝ, 0 < η → η < 1 → ∃ snn1 d1 n' dr', Snn.make (linearArch ([1].map fun v : Nat => (v : Int)) 1) { learningRate := η, momentum := 0 } (fun _ => 1) = .ok (snn1, d1) ∧
      snn1.net.trainOnce [0] [1] true (fun _ => 1) = .ok (n', dr') := by
  obtain ⟨snn, d', hm⟩ := ArchProps.C49_accepted_if demo_wf (opt := { learningRate := 1 / 10, momentum := 0 }) (by norm_num) (by norm_num)
      (by norm_num) (by norm_num) (d := fun _ => 1) (fun i => by norm_num)
  obtain ⟨hr, _⟩ := make_reached (dense_plain demo_wf demo_dense) hm
  obtain ⟨ns, hlin⟩ := ConvergeProps.make_lin demo_wf hm
  obtain ⟨q1, q2, l, q3, q4, q5, q6⟩ := hlin.neurons
  obtain ⟨sh, rest, da, e, hb⟩ := make_layers hm
  have hw1 : ∃ a, ns = [a] ∧ a.weights.getD 1 0 ≠ 0 ∧ a.activationFunction = .identity ∧ a.bias = 1 ∧ a.weights.length = 2 := by
    match ns, q2, q1, q5, hlin with
    | [a], _, q1, q5, hlin =>
      refine ⟨a, rfl, ?_, hlin.act a (by simp), hlin.bias a (by simp), (q1 a (by simp)).wlen⟩
      cases e
      rw [q3] at hb
      simp [buildLayers, buildLayer, buildSimple, makeAllNeurons, Neuron.make, computeNumberOfInputs, mulI, addI, ckInt, makeNeurons, shiftDraws,
        Circ.init, backOf, List.range_succ, randomInitializeWeight, uniform] at hb
      have := hb.1
      rw [← this] at q5
      simp at q5
      rw [← q5]
      simp
  obtain ⟨a, rfl, hw0, hact, hbias, hwl⟩ := hw1
  obtain ⟨n1, ho⟩ := Converge.output_lin hlin (x := [0]) (by simp)
  have hlin0 : Converge.Lin { learningRate := 1 / 10, momentum := 0 } [1].prod 1 (Net.withoutBiases snn.net) [Neuron.withoutBias a] := by
    obtain ⟨_, hdl⟩ := snn_twin demo_dense hm hm
    obtain ⟨b1, b2, b3⟩ := withoutBiases_layer q5
    refine ⟨⟨withoutBiases_wf (by simpa using hr.wf.layers) hdl, ?_, ?_⟩, hlin.nan, ⟨Layer.withoutBiases l, ?_, by rw [b2, q4], b1⟩, ?_, ?_, ?_⟩
    · simp [Net.withoutBiases, q3]
    · intro q hq
      simp only [Net.withoutBiases, q3, List.map_cons, List.map_nil, List.getLast?_singleton, Option.some.injEq] at hq
      rw [← hq, b1]
      trivial
    · simp [Net.withoutBiases, q3]
    · intro m hm; simp at hm; rw [hm]; exact hact
    · intro m hm; simp at hm; rw [hm]; exact hbias
    · intro m hm; simp at hm; rw [hm]; exact hlin.opt a (by simp)
  obtain ⟨n2, ho0⟩ := Converge.output_lin hlin0 (x := [0]) (by simp)
  have v1 : a.value [0] = a.weights.getD 1 0 := by
    rw [(Converge.value_lin (q1 a (by simp)) hact hbias (x := [0]) (by simp)).1]
    simp
  have v0 : (Neuron.withoutBias a).value [0] = 0 := by
    rw [(Converge.value_lin (withoutBias_wf (q1 a (by simp))) hact hbias (x := [0]) (by simp)).1]
    simp [Neuron.withoutBias, hwl, List.getD_eq_getElem?_getD, List.getElem?_set]
  refine ⟨snn, d', _, n1, n2, hm, ?_, ho, ?_, ?_, ?_⟩
  · refine noKinks_of hr.wf.layers (by simp) ?_
    rw [q3]
    intro q hq
    rw [List.mem_singleton.1 hq]
    exact ⟨_, q5, fun n hn => by rw [List.mem_singleton.1 hn, hact]; simp⟩
  · rw [ho0]; simp [v0]
  · simp only [List.map_cons, List.map_nil, v1]
    intro hh
    exact hw0 (List.cons.inj hh).1
  · intro η h0 h1
    obtain ⟨snn1, d1, hm1⟩ := ArchProps.C49_accepted_if demo_wf (opt := { learningRate := η, momentum := 0 }) h0 h1
      (by norm_num) (by norm_num) (d := fun _ => 1) (fun i => by norm_num)
    obtain ⟨hr1, _⟩ := make_reached (dense_plain demo_wf demo_dense) hm1
    obtain ⟨n', dr', ht, _⟩ := Net.trainOnce_ok hr1.wf [0] [1] (by simp) (by simp) true (fun _ => 1)
    exact ⟨snn1, d1, n', dr', hm1, ht⟩

end Snn.SmallProps
