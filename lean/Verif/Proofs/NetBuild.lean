import Verif.Proofs.BuildOk
import Verif.Basic.RealFlt

/-! The factory builds every well formed architecture, and the network is valid. -/

set_option linter.all false

namespace Snn

open Snn.Spec

theorem goodShape_dim {s : List Nat} (h : GoodShape s) {v : Nat} (hv : v ∈ s) : v ≤ 999998 := by
  have h1 := h.small
  have h2 : v ∣ s.prod := List.dvd_prod hv
  have h3 := Nat.le_of_dvd (one_le_prod h.pos) h2
  omega

section
variable {F : Type} [Flt F] [FTrans F] [Add F] [Sub F] [Mul F] [Div F] [Neg F]

/-- What is known of a layer just built from shape `s` to shape `s'`. -/
structure Built (l : Layer F) (s s' : List Nat) : Prop where
  wf : l.WF s.prod s'.prod
  shape : l.getShapeOfOutput = s'.map (fun v : Nat => (v : Int))


/-- The start of `buildLayer` on a good shape. -/
theorem buildLayer_start {opt : Sgd F} {m : LayerModel F} {s : List Nat} (hs : GoodShape s) (d : Draws F) :
    buildLayer opt m (s.map (fun v : Nat => (v : Int))) d =
      (match m with
      | .fullyConnected n act opts => buildSimple (fun m d => Neuron.make m opt d) 1 .fullyConnected (s.prod : Int) 1 n act opts d
      | .recurrence n act opts => buildSimple (fun m d => RecNeuron.make m opt d) 1 .recurrence (s.prod : Int) 2 n act opts d
      | .gru n opts => buildSimple (fun m d => Gru.make m opt d) 3 .gru (s.prod : Int) 2 n .tanh opts d
      | .maxPooling k => do
        let l ← buildMaxPooling (s.prod : Int) (s.map (fun v : Nat => (v : Int))) k
        return (l, d)
      | .locallyConnected f k act opts => buildLocallyConnected opt (s.prod : Int) (s.map (fun v : Nat => (v : Int))) f k act opts d
      | .convolution f k act opts => buildConvolution opt (s.prod : Int) (s.map (fun v : Nat => (v : Int))) f k act opts d
      | .input _ => .throw "Input LayerModel should be in first position.") := by
  unfold buildLayer
  rw [computeNumberOfInputs_ok hs]
  have h1 := hs.small
  have h2 := one_le_prod hs.pos
  have h3 : (s.map (fun v : Nat => (v : Int))).isEmpty = false := by
    cases s with
    | nil => exact absurd rfl hs.ne
    | cons => rfl
  simp only [Res.ok_bind]
  rw [h3]
  rw [if_neg (by simp), if_neg (by omega)]
  cases m <;> simp only
  rw [if_neg (by omega)]

theorem buildLayer_ok (opt : Sgd F) {m : LayerModel F} {s s' : List Nat} (hf : Fits m s s') (hs : GoodShape s) (hs' : GoodShape s')
    (d : Draws F) : ∃ l d', buildLayer opt m (s.map (fun v : Nat => (v : Int))) d = .ok (l, d') ∧ Built l s s' := by
  have hprod := one_le_prod hs.pos
  have hsm := hs.small
  have hsm' := hs'.small
  have hcast : ∀ {a b : Nat}, ((a : Nat) : Int) = b → a = b := fun h => by exact_mod_cast h
  rw [buildLayer_start hs]
  cases hf with
  | @fullyConnected n act opts _ hn =>
    obtain ⟨l, d', h⟩ := buildSimple_ok (mk := fun m d => Neuron.make m opt d) (gates := 1) (wrap := .fullyConnected) (ni := s.prod)
      (extra := 1) (k := n) (act := act) (opts := opts) d (fun m d => Neuron.make_ok m opt d) (by omega) (by omega)
    obtain ⟨hi, ns, hb, hl, hw, _⟩ := buildSimple_inv (P := fun n : Neuron F => n.WF s.prod (s.prod + 1) 1) (by
      intro d n hn
      exact (Neuron.make_fresh (ni := s.prod) (b := 1) rfl (by omega) hn).wf) h
    have hl' : ns.length = n := hcast hl
    refine ⟨l, d', h, ⟨by rw [hi], ?_, by simpa using hn⟩, ?_⟩
    · rw [hb]; exact ⟨hw, by simpa using hl'⟩
    · unfold Layer.getShapeOfOutput Layer.getNumberOfNeurons
      rw [hb]
      simp [Body.numberOfNeurons, Body.weights, hl']
  | @recurrence n act opts _ hn =>
    obtain ⟨l, d', h⟩ := buildSimple_ok (mk := fun m d => RecNeuron.make m opt d) (gates := 1) (wrap := .recurrence) (ni := s.prod)
      (extra := 2) (k := n) (act := act) (opts := opts) d (fun m d => RecNeuron.make_ok m opt d) (by omega) (by omega)
    obtain ⟨hi, ns, hb, hl, hw, _⟩ := buildSimple_inv (P := fun n : RecNeuron F => n.WF s.prod 1) (by
      intro d n hn
      have := (RecNeuron.make_wf hn (by simp) rfl).1
      exact this) h
    have hl' : ns.length = n := hcast hl
    refine ⟨l, d', h, ⟨by rw [hi], ?_, by simpa using hn⟩, ?_⟩
    · rw [hb]; exact ⟨hw, by simpa using hl'⟩
    · unfold Layer.getShapeOfOutput Layer.getNumberOfNeurons
      rw [hb]
      simp [Body.numberOfNeurons, Body.weights, hl']
  | @gru n opts _ hn =>
    obtain ⟨l, d', h⟩ := buildSimple_ok (mk := fun m d => Gru.make m opt d) (gates := 3) (wrap := .gru) (ni := s.prod)
      (extra := 2) (k := n) (act := .tanh) (opts := opts) d (fun m d => Gru.make_ok m opt d) (by omega) (by omega)
    obtain ⟨hi, ns, hb, hl, hw, _⟩ := buildSimple_inv (P := fun n : Gru F => n.WF s.prod 1) (by
      intro d n hn
      have := (Gru.make_wf hn (by simp) rfl).1
      exact this) h
    have hl' : ns.length = n := hcast hl
    refine ⟨l, d', h, ⟨by rw [hi], ?_, by simpa using hn⟩, ?_⟩
    · rw [hb]; exact ⟨hw, by simpa using hl', by omega⟩
    · unfold Layer.getShapeOfOutput Layer.getNumberOfNeurons
      rw [hb]
      simp [Body.numberOfNeurons, Body.weights, hl']
  | @convolution1 f k x act opts hf hk hx =>
    have e1 : ([x] : List Nat).prod = 1 * x := by simp
    have e2 : ([f, x - k + 1] : List Nat).prod = (x - k + 1) * f := by simp [Nat.mul_comm]
    have e3 : ([f, x - k + 1] : List Nat).prod = f * (x - k + 1) := by simp
    have hX := goodShape_dim hs (v := x) (by simp)
    obtain ⟨l, d', h⟩ := buildConvolution1D_ok (opt := opt) (C := 1) (X := x) (K := k) (N := f) (act := act) (opts := opts) d
      ([x].prod : Int) (shape := [(x : Int)]) rfl hf hx (by omega) (by omega) (by omega)
    rw [e1] at h
    have hw := buildConvolution1D_wf (shape := [(x : Int)]) (C := 1) rfl hf h
    obtain ⟨_, ns, info, hb⟩ := buildConvolution1D_inv (shape := [(x : Int)]) (C := 1) rfl hf h
    refine ⟨l, d', by rw [e1]; exact h, by rw [e1, e2]; exact hw, ?_⟩
    unfold Layer.getShapeOfOutput
    rw [hb.body]
    simp only
    rw [hb.shapeOut]
    rfl
  | @convolution1D f k c x act opts hf hk hx =>
    have e1 : ([c, x] : List Nat).prod = c * x := by simp
    have e2 : ([f, x - k + 1] : List Nat).prod = (x - k + 1) * f := by simp [Nat.mul_comm]
    have e3 : ([f, x - k + 1] : List Nat).prod = f * (x - k + 1) := by simp
    have hX := goodShape_dim hs (v := x) (by simp)
    obtain ⟨l, d', h⟩ := buildConvolution1D_ok (opt := opt) (C := c) (X := x) (K := k) (N := f) (act := act) (opts := opts) d
      (((c * x : Nat)) : Int) (shape := [(c : Int), (x : Int)]) rfl hf hx (by omega) (by omega) (by omega)
    have hw := buildConvolution1D_wf (shape := [(c : Int), (x : Int)]) rfl hf h
    obtain ⟨_, ns, info, hb⟩ := buildConvolution1D_inv (shape := [(c : Int), (x : Int)]) rfl hf h
    refine ⟨l, d', by rw [e1]; exact h, by rw [e1, e2]; exact hw, ?_⟩
    unfold Layer.getShapeOfOutput
    rw [hb.body]
    simp only
    rw [hb.shapeOut]
    rfl
  | @convolution2D f k c x y act opts hf hk hx hy =>
    have e1 : ([c, x, y] : List Nat).prod = c * x * y := by simp [Nat.mul_assoc]
    have e2 : ([f, x - k + 1, y - k + 1] : List Nat).prod = (x - k + 1) * (y - k + 1) * f := by simp; ring
    have e3 : ([f, x - k + 1, y - k + 1] : List Nat).prod = f * (x - k + 1) * (y - k + 1) := by simp; ring
    have hX := goodShape_dim hs (v := x) (by simp)
    have hY := goodShape_dim hs (v := y) (by simp)
    have hC := hs.pos c (by simp)
    obtain ⟨l, d', h⟩ := buildConvolution2D_ok (opt := opt) (C := c) (X := x) (Y := y) (K := k) (N := f) (act := act) (opts := opts) d
      (((c * x * y : Nat)) : Int) hf hC hx hy (by omega) (by omega) (by omega) (by omega)
    have hw := buildConvolution2D_wf hf h
    obtain ⟨_, _, ns, info, hb⟩ := buildConvolution2D_inv hf h
    refine ⟨l, d', by rw [e1]; exact h, by rw [e1, e2]; exact hw, ?_⟩
    unfold Layer.getShapeOfOutput
    rw [hb.body]
    simp only
    rw [hb.shapeOut]
    rfl
  | @locally1 f k x act opts hf hk hx =>
    have e1 : ([x] : List Nat).prod = 1 * x := by simp
    have e2 : ([f, ceil x k] : List Nat).prod = ceil x k * f := by simp [Nat.mul_comm]
    have e3 : ([f, ceil x k] : List Nat).prod = f * ceil x k := by simp
    have hX := goodShape_dim hs (v := x) (by simp)
    obtain ⟨l, d', h⟩ := buildLocally1D_ok (opt := opt) (C := 1) (X := x) (K := k) (N := f) (act := act) (opts := opts) d
      ([x].prod) (shape := [(x : Int)]) rfl hf hk hx (by omega) (by omega) (by omega)
    have hw := buildLocally1D_wf (shape := [(x : Int)]) (C := 1) rfl hf h
    obtain ⟨_, _, ns, info, hb⟩ := buildLocally1D_inv (shape := [(x : Int)]) (C := 1) rfl hf h
    refine ⟨l, d', h, by rw [e2]; exact hw, ?_⟩
    unfold Layer.getShapeOfOutput
    rw [hb.body]
    simp only
    rw [hb.shapeOut]
    rfl
  | @locally1D f k c x act opts hf hk hx =>
    have e1 : ([c, x] : List Nat).prod = c * x := by simp
    have e2 : ([f, ceil x k] : List Nat).prod = ceil x k * f := by simp [Nat.mul_comm]
    have e3 : ([f, ceil x k] : List Nat).prod = f * ceil x k := by simp
    have hX := goodShape_dim hs (v := x) (by simp)
    obtain ⟨l, d', h⟩ := buildLocally1D_ok (opt := opt) (C := c) (X := x) (K := k) (N := f) (act := act) (opts := opts) d
      ([c, x].prod) (shape := [(c : Int), (x : Int)]) rfl hf hk hx (by omega) (by omega) (by omega)
    have hw := buildLocally1D_wf (shape := [(c : Int), (x : Int)]) rfl hf h
    obtain ⟨_, _, ns, info, hb⟩ := buildLocally1D_inv (shape := [(c : Int), (x : Int)]) rfl hf h
    refine ⟨l, d', h, by rw [e2]; exact hw, ?_⟩
    unfold Layer.getShapeOfOutput
    rw [hb.body]
    simp only
    rw [hb.shapeOut]
    rfl
  | @locally2D f k c x y act opts hf hk hx hy hxy =>
    have e1 : ([c, x, y] : List Nat).prod = c * x * y := by simp [Nat.mul_assoc]
    have e2 : ([f, ceil x k, ceil y k] : List Nat).prod = ceil x k * ceil y k * f := by simp; ring
    have e3 : ([f, ceil x k, ceil y k] : List Nat).prod = f * ceil x k * ceil y k := by simp; ring
    have hX := goodShape_dim hs (v := x) (by simp)
    have hY := goodShape_dim hs (v := y) (by simp)
    have hC := hs.pos c (by simp)
    obtain ⟨l, d', h⟩ := buildLocally2D_ok (opt := opt) (C := c) (X := x) (Y := y) (K := k) (N := f) (act := act) (opts := opts) d
      ([c, x, y].prod) hf hC hk hx hy hxy (by omega) (by omega) (by omega) (by omega)
    have hw := buildLocally2D_wf hf h
    obtain ⟨_, _, _, ns, info, hb⟩ := buildLocally2D_inv hf h
    refine ⟨l, d', h, by rw [e2]; exact hw, ?_⟩
    unfold Layer.getShapeOfOutput
    rw [hb.body]
    simp only
    rw [hb.shapeOut]
    rfl
  | @pool1 k x hk hx =>
    have e1 : ([x] : List Nat).prod = 1 * x := by simp
    have e2 : ([1, ceil x k] : List Nat).prod = ceil x k := by simp
    have hX := goodShape_dim hs (v := x) (by simp)
    obtain ⟨l, h⟩ := buildPool1D_ok (F := F) (X := x) (K := k) (1 * x) (shape := [(x : Int)]) rfl hk hx (by omega)
    have hw := buildPool1D_wf (shape := [(x : Int)]) (C := 1) rfl (by omega) h
    obtain ⟨_, _, info, hb⟩ := buildPool1D_inv (shape := [(x : Int)]) (C := 1) rfl h
    obtain ⟨o, m, hb1, _, _⟩ := hb.body
    refine ⟨l, d, by rw [e1]; simp only [List.map]; rw [h]; rfl, by rw [e1, e2]; exact hw, ?_⟩
    unfold Layer.getShapeOfOutput
    rw [hb1]
    simp only
    rw [hb.shapeOut]
    rfl
  | @pool1D k x hk hx =>
    have e1 : ([1, x] : List Nat).prod = 1 * x := by simp
    have e2 : ([1, ceil x k] : List Nat).prod = ceil x k := by simp
    have hX := goodShape_dim hs (v := x) (by simp)
    obtain ⟨l, h⟩ := buildPool1D_ok (F := F) (X := x) (K := k) (1 * x) (shape := [((1 : Nat) : Int), (x : Int)]) rfl hk hx (by omega)
    have hw := buildPool1D_wf (shape := [((1 : Nat) : Int), (x : Int)]) (C := 1) rfl (by omega) h
    obtain ⟨_, _, info, hb⟩ := buildPool1D_inv (shape := [((1 : Nat) : Int), (x : Int)]) (C := 1) rfl h
    obtain ⟨o, m, hb1, _, _⟩ := hb.body
    refine ⟨l, d, by rw [e1]; simp only [List.map]; rw [h]; rfl, by rw [e1, e2]; exact hw, ?_⟩
    unfold Layer.getShapeOfOutput
    rw [hb1]
    simp only
    rw [hb.shapeOut]
    rfl
  | @pool2D k c x y hk hx hy hxy =>
    have e1 : ([c, x, y] : List Nat).prod = c * x * y := by simp [Nat.mul_assoc]
    have e2 : ([c, ceil x k, ceil y k] : List Nat).prod = c * ceil x k * ceil y k := by simp [Nat.mul_assoc]
    have hX := goodShape_dim hs (v := x) (by simp)
    have hY := goodShape_dim hs (v := y) (by simp)
    have hC := hs.pos c (by simp)
    obtain ⟨l, h⟩ := buildPool2D_ok (F := F) (C := c) (X := x) (Y := y) (K := k) (c * x * y) hC hk hx hy hxy (by omega) (by omega) (by omega)
    have hw := buildPool2D_wf hC hxy h
    obtain ⟨_, _, _, info, hb⟩ := buildPool2D_inv h
    obtain ⟨o, m, hb1, _, _⟩ := hb.body
    refine ⟨l, d, by rw [e1]; simp only [List.map]; rw [h]; rfl, by rw [e1, e2]; exact hw, ?_⟩
    unfold Layer.getShapeOfOutput
    rw [hb1]
    simp only
    rw [hb.shapeOut]
    rfl


/-! ### Chains of layers -/

/-- The layers one after the other from `ni` to `no` values. -/
inductive LayersWF : List (Layer F) → Nat → Nat → Prop
  | nil {n : Nat} : LayersWF [] n n
  | cons {l : Layer F} {ls : List (Layer F)} {n k m : Nat} (h : l.WF n k) (hs : LayersWF ls k m) : LayersWF (l :: ls) n m

theorem buildLayers_ok (opt : Sgd F) {ms : List (LayerModel F)} {s s' : List Nat} (h : Chain ms s s') : ∀ (d : Draws F),
    ∃ ls d', buildLayers opt ms (s.map (fun v : Nat => (v : Int))) d = .ok (ls, d') ∧ LayersWF ls s.prod s'.prod ∧
      ls.length = ms.length := by
  induction h with
  | nil hs => exact fun d => ⟨[], d, rfl, .nil, rfl⟩
  | @cons m ms s s1 s2 hs hm hc ih =>
    intro d
    have hs1 : GoodShape s1 := by cases hc <;> assumption
    obtain ⟨l, d1, h1, hb⟩ := buildLayer_ok opt hm hs hs1 d
    obtain ⟨ls, d2, h2, hl, hn⟩ := ih d1
    refine ⟨l :: ls, d2, ?_, .cons hb.wf hl, by simp [hn]⟩
    unfold buildLayers
    rw [h1]
    simp only [Res.ok_bind]
    rw [hb.shape, h2]
    rfl

theorem chain_good {ms : List (LayerModel F)} {s s' : List Nat} (h : Chain ms s s') : GoodShape s := by
  cases h <;> assumption

/-- The factory builds every well formed architecture. -/
theorem factory_ok (opt : Sgd F) {arch : List (LayerModel F)} {s s' : List Nat} (h : WellFormed arch s s') (d : Draws F) :
    ∃ ls d', LayerFactory.build opt arch d = .ok (ls, d') ∧ LayersWF ls s.prod s'.prod ∧ ls.length + 1 = arch.length ∧ ls ≠ [] := by
  obtain ⟨m, rest, rfl, hc⟩ := h.layers
  have hcount := h.count
  obtain ⟨ls, d', h1, h2, h3⟩ := buildLayers_ok opt hc d
  have hg := chain_good hc
  have hsm := hg.small
  refine ⟨ls, d', ?_, h2, by simp [h3], by intro hn; rw [hn] at h3; simp at h3⟩
  unfold LayerFactory.build
  rw [if_neg (by simp at hcount ⊢; omega)]
  simp only
  rw [if_neg (by simp), computeNumberOfInputs_ok hg]
  simp only [Res.ok_bind]
  rw [if_neg (by omega)]
  exact h1

end

end Snn
