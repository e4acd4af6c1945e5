import Verif.Proofs.GradLayer

/-! Fully connected and locally connected layers: what a training round does. -/

set_option linter.all false

namespace Snn.Grad

open Finset Snn.Spec Snn.NeuronSpec

/-- The outputs of a layer. -/
noncomputable def fn (l : Layer ℝ) (x : List ℝ) : List ℝ :=
  match l.output x false with
  | .ok (y, _) => y
  | _ => []

/-- The simple neurons of a layer. -/
def neurons (l : Layer ℝ) : List (Neuron ℝ) :=
  match l.body with
  | .fullyConnected ns => ns
  | .filter _ ns _ => ns
  | _ => []

/-- The momentum memory of weight i of neuron k. -/
noncomputable def memory (l : Layer ℝ) (k i : Nat) : ℝ :=
  match (neurons l)[k]? with
  | some n => (mem n).getD i 0
  | none => 0

/-- `l2` is `l` after a descent step for the errors `es` of its outputs. -/
def Descends (o : Sgd ℝ) (l l2 : Layer ℝ) (x es : List ℝ) : Prop :=
  ∀ G, Back es (fn l x) G → ∀ k i, k < l.body.weights.length → i < (neuronWeights l k).length →
    (∃ g, HasDerivAt (fun v => G (fn (Layer.withWeight l k i v) x)) g ((neuronWeights l k).getD i 0) ∧
      (neuronWeights l2 k).getD i 0 = keep (neuronWeights l k) i - o.learningRate * g + o.momentum * memory l k i) ∧
    memory l2 k i = (neuronWeights l2 k).getD i 0 - keep (neuronWeights l k) i

/-- What backpropagation needs to know of a layer at the input x (`first`: it is the first layer). -/
structure Diff (first : Bool) (o : Sgd ℝ) (l : Layer ℝ) (x : List ℝ) (ni no : Nat) : Prop where
  run : ∀ t d, ∃ l1, l.outputForTraining x t d = .ok (fn l x, l1, d) ∧ ∀ es, es.length = no →
    (first = false → ∃ es' l2, l1.backOutput es = .ok (es', l2) ∧ es'.length = ni ∧ (∀ G, Back es (fn l x) G → Back es' x (fun y => G (fn l y))) ∧
      Descends o l l2 x es) ∧
    ∃ l2, l1.train es = .ok l2 ∧ Descends o l l2 x es

theorem forall₂_get {α β : Type} {R : α → β → Prop} {as : List α} {bs : List β} (h : List.Forall₂ R as bs) :
    ∀ {k : Nat} {a : α}, as[k]? = some a → ∃ b, bs[k]? = some b ∧ R a b := by
  induction h with
  | nil => intro k a hk; simp at hk
  | cons h1 _ ih =>
    intro k a hk
    cases k with
    | zero =>
      simp only [List.getElem?_cons_zero, Option.some.injEq] at hk ⊢
      subst hk; exact ⟨_, rfl, h1⟩
    | succ k => simpa using ih (by simpa using hk)

/-- The neurons of `ns2` are those of `ps` after a step. -/
def AllStepped (size : Nat) (ps : List (Neuron ℝ × List Int)) (x es : List ℝ) (ns2 : List (Neuron ℝ)) : Prop :=
  List.Forall₂ (fun (q : (Neuron ℝ × List Int) × ℝ) n2 => Stepped size q.1.1 n2 (window x q.1.2) q.2) (ps.zip es) ns2

theorem descend_core {size : Nat} {ps : List (Neuron ℝ × List Int)} {x es : List ℝ} {ns2 : List (Neuron ℝ)} {o : Sgd ℝ} (hg : Good size ps x)
    (hes : es.length = ps.length) (hs : AllStepped size ps x es ns2) (ho : ∀ p ∈ ps, p.1.optimizer = o) {G : List ℝ → ℝ}
    (hG : Back es (outs ps x) G) {k i : Nat} {p : Neuron ℝ × List Int} (hk : ps[k]? = some p) (hi : i ≤ size) :
    ∃ n2, ns2[k]? = some n2 ∧ (∃ g, HasDerivAt (fun v => G (outs (ps.modify k fun p => (withWeight i v p.1, p.2)) x)) g (p.1.weights.getD i 0) ∧
      n2.weights.getD i 0 = keep p.1.weights i - o.learningRate * g + o.momentum * (mem p.1).getD i 0) ∧
      (mem n2).getD i 0 = n2.weights.getD i 0 - keep p.1.weights i := by
  have hkl : k < ps.length := by
    by_contra hc
    rw [List.getElem?_eq_none (by omega)] at hk; cases hk
  have hz : (ps.zip es)[k]? = some (p, es.getD k 0) := by
    rw [List.getElem?_zip_eq_some]
    refine ⟨hk, ?_⟩
    rw [List.getD_eq_getElem?_getD, List.getElem?_eq_getElem (by omega)]
    rfl
  obtain ⟨n2, h1, h2⟩ := forall₂_get hs hz
  refine ⟨n2, h1, ⟨_, weight_deriv hg hG hk hi, ?_⟩, h2.memory i hi⟩
  rw [h2.weight i hi, ho p (List.mem_of_getElem? hk)]
  simp only
  ring

theorem withWeight_wf {n : Neuron ℝ} {a b c i : Nat} {v : ℝ} (h : n.WF a b c) : (withWeight i v n).WF a b c :=
  ⟨h.inputs, h.batch, h.pos, by simp [withWeight, h.wlen], h.elen, h.last, h.prev⟩

/-! ### Fully connected layers -/

/-- The row of a fully connected neuron: every input. -/
def idRow (n : Nat) : List Int := (List.range n).map Int.ofNat

theorem window_id {x : List ℝ} {n : Nat} (h : x.length = n) : window x (idRow n) = x := by
  apply List.ext_getElem?
  intro j
  simp only [window, idRow, List.map_map, List.getElem?_map]
  by_cases hj : j < n
  · rw [List.getElem?_range hj]
    simp [List.getElem?_eq_getElem (show j < x.length by omega)]
  · rw [List.getElem?_eq_none (l := x) (by omega), List.getElem?_eq_none (by simpa using hj)]
    rfl

theorem backNeurons_run {size : Nat} {x : List ℝ} : ∀ {ns ns1 : List (Neuron ℝ)} {es acc : List ℝ},
    (∀ n ∈ ns, n.WF size (size + 1) 1) → List.Forall₂ (fun n n1 => Ready size n n1 x) ns ns1 → es.length = ns.length → acc.length = size →
    ∃ r ns2, backNeurons (fun n e => n.backOutput e) ns1 es acc = .ok (r, ns2) ∧ r.length = size ∧
      (∀ v : List ℝ, v.length = size → dot r v = dot acc v + dot es (ns.map fun n => slope n x * dot (n.weights.take size) v)) ∧
      List.Forall₂ (fun (q : Neuron ℝ × ℝ) n2 => Stepped size q.1 n2 x q.2) (ns.zip es) ns2
  | _, _, es, acc, _, .nil, he, ha => ⟨acc, [], by simp [backNeurons], ha, by simp [dot_nil'], by simp⟩
  | n :: ns, n1 :: ns1, [], acc, hw, .cons h1 h2, he, ha => by simp at he
  | n :: ns, n1 :: ns1, e :: es, acc, hw, .cons h1 h2, he, ha => by
    obtain ⟨⟨n2, hb, hs⟩, _⟩ := h1 e
    have hl : ((n.weights.take size).map (e * slope n x * ·)).length = size := by simp [(hw n (by simp)).wlen]
    obtain ⟨r, ns2, k1, k2, k3, k4⟩ := backNeurons_run (acc := List.zipWith (· + ·) acc ((n.weights.take size).map (e * slope n x * ·)))
      (fun m hm => hw m (by simp [hm])) h2 (by simpa using he) (by simp [ha, (hw n (by simp)).wlen])
    refine ⟨r, n2 :: ns2, ?_, k2, ?_, .cons hs k4⟩
    · simp only [backNeurons, hb, Res.ok_bind]
      rw [addErrors_ok (by omega)]
      simp only [Res.ok_bind, k1]
      rfl
    · intro v hv
      rw [k3 v hv, dot_add _ _ _ (by omega) (by omega), dot_smul, List.map_cons, dot_cons]
      ring

theorem trainNeurons_run {size : Nat} : ∀ {ps : List (Neuron ℝ × List Int)} {x : List ℝ} {ns1 : List (Neuron ℝ)} {es : List ℝ},
    List.Forall₂ (fun p n1 => Ready size p.1 n1 (window x p.2)) ps ns1 → es.length = ps.length →
    ∃ ns2, trainNeurons (fun n e => n.train e) ns1 es = .ok ns2 ∧ AllStepped size ps x es ns2
  | _, x, _, es, .nil, he => ⟨[], by simp [trainNeurons], by simp [AllStepped]⟩
  | p :: ps, x, n1 :: ns1, [], .cons h1 h2, he => by simp at he
  | p :: ps, x, n1 :: ns1, e :: es, .cons h1 h2, he => by
    obtain ⟨_, n2, hb, hs⟩ := h1 e
    obtain ⟨ns2, k1, k2⟩ := trainNeurons_run h2 (by simpa using he)
    exact ⟨n2 :: ns2, by simp [trainNeurons, hb, k1], .cons hs k2⟩

theorem forall₂_map_left {α β γ : Type} {R : γ → β → Prop} {f : α → γ} : ∀ {as : List α} {bs : List β},
    List.Forall₂ (fun a b => R (f a) b) as bs → List.Forall₂ R (as.map f) bs
  | _, _, .nil => .nil
  | _, _, .cons h1 h2 => .cons h1 (forall₂_map_left h2)

theorem fn_fc {l : Layer ℝ} {ns : List (Neuron ℝ)} {ni : Nat} (ho : l.optimizers = []) (hb : l.body = .fullyConnected ns)
    (hw : ∀ n ∈ ns, n.WF ni (ni + 1) 1) {y : List ℝ} (hy : y.length = ni) : fn l y = ns.map fun n => n.value y := by
  obtain ⟨ns1, h1, _⟩ := runNeurons_value (f := fun n : Neuron ℝ => n.output y) (g := fun n => n.value y) (P := fun n n1 => Ready ni n n1 y)
    (ns := ns) (fun n hn => neuron_run (hw n hn) hy)
  unfold fn Layer.output
  rw [hb, ho]
  simp only [Body.computeOutput, h1, Res.ok_bind, Res.pure_eq, testingHooks]

/-- A fully connected layer without layer optimizer. -/
theorem diff_fc {l : Layer ℝ} {ns : List (Neuron ℝ)} {ni no : Nat} {o : Sgd ℝ} {x : List ℝ} (ho : l.optimizers = [])
    (hb : l.body = .fullyConnected ns) (hw : l.WF ni no) (hopt : ∀ n ∈ ns, n.optimizer = o) (hx : x.length = ni)
    (hact : ∀ n ∈ ns, n.activationFunction ≠ .iSigmoid) (hk : NoKink l x) (first : Bool) : Diff first o l x ni no := by
  have hwf : (∀ n ∈ ns, n.WF ni (ni + 1) 1) ∧ ns.length = no := by have := hw.body; rw [hb] at this; exact this
  obtain ⟨hn, hlen⟩ := hwf
  have hkk : ∀ n ∈ ns, n.activationFunction = .relu → affine n.weights x n.bias ≠ 0 := by
    unfold NoKink at hk; rw [hb] at hk; exact hk
  have hgood : Good ni (ns.map fun n => (n, idRow ni)) x := by
    intro p hp
    obtain ⟨n, hn', rfl⟩ := List.mem_map.1 hp
    exact ⟨hn n hn', by simp [idRow], hact n hn', by rw [window_id hx]; exact hkk n hn'⟩
  have houts : ∀ y : List ℝ, y.length = ni → outs (ns.map fun n => (n, idRow ni)) y = ns.map fun n => n.value y := by
    intro y hy
    simp only [outs, List.map_map, Function.comp_def, window_id hy]
  have hvel : ∀ v : List ℝ, v.length = ni → vel ni (ns.map fun n => (n, idRow ni)) x v = ns.map fun n => slope n x * dot (n.weights.take ni) v := by
    intro v hv
    simp only [vel, List.map_map, Function.comp_def, window_id hv, window_id hx]
  have hfn : ∀ y : List ℝ, y.length = ni → fn l y = outs (ns.map fun n => (n, idRow ni)) y := by
    intro y hy
    rw [fn_fc ho hb hn hy, houts y hy]
  obtain ⟨ns1, h1, h2⟩ := runNeurons_value (f := fun n : Neuron ℝ => n.output x) (g := fun n => n.value x) (P := fun n n1 => Ready ni n n1 x)
    (ns := ns) (fun n hn' => neuron_run (hn n hn') hx)
  have hdesc : ∀ (es : List ℝ) (ns2 : List (Neuron ℝ)), es.length = no → AllStepped ni (ns.map fun n => (n, idRow ni)) x es ns2 →
      Descends o l { l with body := .fullyConnected ns2 } x es := by
    intro es ns2 hes hst G hG k i hkl hil
    have hkl' : k < ns.length := by rw [hb] at hkl; simpa [Body.weights] using hkl
    have hnw : neuronWeights l k = ns[k].weights := by
      simp [neuronWeights, hb, Body.weights, List.getD_eq_getElem?_getD, List.getElem?_eq_getElem hkl', Neuron.getWeights]
    have hi : i ≤ ni := by
      rw [hnw, (hn _ (List.getElem_mem hkl')).wlen] at hil; omega
    have hp : (ns.map fun n => (n, idRow ni))[k]? = some (ns[k], idRow ni) := by
      rw [List.getElem?_map, List.getElem?_eq_getElem hkl']; rfl
    rw [hfn x hx] at hG
    obtain ⟨n2, e1, ⟨g, e2, e3⟩, e4⟩ := descend_core hgood (by simp [hes, hlen]) hst
      (fun p hp => by obtain ⟨n, hn', rfl⟩ := List.mem_map.1 hp; exact hopt n hn') hG hp hi
    have hw2 : neuronWeights { l with body := .fullyConnected ns2 } k = n2.weights := by
      simp [neuronWeights, Body.weights, List.getD_eq_getElem?_getD, e1, Neuron.getWeights]
    have hm1 : memory l k i = (mem ns[k]).getD i 0 := by
      simp only [memory, neurons, hb, List.getElem?_eq_getElem hkl']
    have hm2 : memory { l with body := .fullyConnected ns2 } k i = (mem n2).getD i 0 := by
      simp only [memory, neurons, e1]
    rw [hnw, hw2, hm1, hm2]
    refine ⟨⟨g, ?_, e3⟩, e4⟩
    have hfun : (fun v => G (fn (Layer.withWeight l k i v) x)) =
        fun v => G (outs ((ns.map fun n => (n, idRow ni)).modify k fun p => (withWeight i v p.1, p.2)) x) := by
      funext v
      congr 1
      have hb' : (Layer.withWeight l k i v).body = .fullyConnected (ns.modify k (withWeight i v)) := by
        simp only [Layer.withWeight, hb]
      rw [fn_fc (ns := ns.modify k (withWeight i v)) (ni := ni) (by simp only [Layer.withWeight, hb, ho]) hb' ?_ hx]
      · unfold outs
        apply List.ext_getElem?
        intro j
        simp only [List.getElem?_map, List.getElem?_modify]
        by_cases hjk : k = j
        · cases ns[j]? <;> simp [hjk, window_id hx]
        · cases ns[j]? <;> simp [hjk, window_id hx]
      · intro n hn'
        obtain ⟨j, hj⟩ := List.mem_iff_getElem?.1 hn'
        rw [List.getElem?_modify] at hj
        cases hnj : ns[j]? with
        | none => rw [hnj] at hj; cases hj
        | some m =>
          rw [hnj] at hj
          have hm := hn m (List.mem_of_getElem? hnj)
          by_cases hjk : k = j
          · simp only [hjk, if_true] at hj
            cases hj
            exact withWeight_wf hm
          · simp only [hjk, if_false] at hj
            cases hj
            exact hm
    rw [hfun]
    exact e2
  refine ⟨fun t d => ⟨{ l with body := .fullyConnected ns1 }, ?_, ?_⟩⟩
  · rw [fn_fc ho hb hn hx]
    simp only [Layer.outputForTraining, hb, ho, Body.computeOutput, h1, Res.ok_bind, Res.pure_eq, trainingHooks]
  · intro es hes
    refine ⟨fun _ => ?_, ?_⟩
    · obtain ⟨r, ns2, k1, k2, k3, k4⟩ := backNeurons_run (es := es) (ns := ns) (acc := List.replicate ni 0) hn h2 (by omega) (by simp)
      have hst : AllStepped ni (ns.map fun n => (n, idRow ni)) x es ns2 := by
        unfold AllStepped
        rw [List.zip_map_left]
        exact forall₂_map_left (k4.imp fun a b hab => by simpa [window_id hx] using hab)
      refine ⟨r, { l with body := .fullyConnected ns2 }, ?_, k2, ?_, hdesc es ns2 hes hst⟩
      · simp only [Layer.backOutput, ho, backHooks, List.foldl_nil, Body.computeBackOutput, zeroErrors]
        rw [if_neg (by rw [hw.inputs]; omega)]
        simp only [Res.ok_bind, hw.inputs, Int.toNat_natCast, lit_eq, Rat.cast_zero]
        rw [k1]
        rfl
      · intro G hG
        rw [hfn x hx] at hG
        have := back_outs (r := r) hx hgood (fun v hv => by rw [k3 v hv, dot_replicate, hvel v hv, zero_add]) hG
        intro c v t0 hc hv hm
        have e : (fun t => G (fn l (c t))) = fun t => G (outs (ns.map fun n => (n, idRow ni)) (c t)) := by
          funext t
          rw [hfn (c t) (by rw [hm.length, hv, hx])]
        rw [e]
        exact this c v t0 hc hv hm
    · obtain ⟨ns2, k1, k2⟩ := trainNeurons_run (ps := ns.map fun n => (n, idRow ni)) (x := x) (ns1 := ns1) (es := es)
        (forall₂_map_left (h2.imp fun a b hab => by simpa [window_id hx] using hab)) (by simp; omega)
      refine ⟨{ l with body := .fullyConnected ns2 }, ?_, hdesc es ns2 hes k2⟩
      simp only [Layer.train, ho, backHooks, List.foldl_nil, Body.computeTrain, k1, Res.ok_bind, Res.pure_eq]

end Snn.Grad
