import Verif.Proofs.ConvRound
import Verif.Props.SafeProps
import Verif.Props.FilterProps
import Verif.Demo.Demo

/-! C43: the inputs of a convolution are replayed in order. C56: the errors that a convolution sends back. -/

set_option linter.all false

namespace Snn.ConvProps

open Finset Spec HistoryProps SafeProps

section
variable {F : Type} [Field F] [LinearOrder F] [IsStrictOrderedRing F] [FTrans F]

/-- What the networks of these theorems have. -/
theorem inner {arch : List (LayerModel F)} {s s' : List Nat} (h : WellFormed arch s s') (he : EndsWithNeurons arch)
    {opt : Sgd F} {d d' : Draws F} {snn : Snn F} (hm : Snn.make arch opt d = .ok (snn, d')) {calls : List (Call F)}
    (hc : ∀ c ∈ calls, CallFits s.prod s'.prod c) {r r' : Run F} (hr : r.snn = snn) (hrun : calls.foldlM Call.run r = .ok r') :
    SafeNet s.prod s'.prod r'.snn.net ∧ InnerLined r'.snn.net.layers := by
  obtain ⟨hn, hi⟩ := make_safe h he hm
  have hz : InnerLined snn.net.layers := by
    obtain ⟨⟨net, d1⟩, h1, hm⟩ := Res.bind_eq_ok.1 hm
    obtain ⟨err, h2, hm⟩ := Res.bind_eq_ok.1 hm
    split at hm
    · cases hm
    cases hm
    intro l hl
    have hl' := List.mem_of_mem_tail hl
    obtain ⟨a, b, hw⟩ := layersWF_mem hn.wf.layers l hl'
    exact (Net.make_zeroed h1 l hl').lined hw.body
  refine ⟨?_, innerLined_kept.history (by rw [hr]; exact hz) hrun⟩
  rw [← hr] at hn hi
  clear hm hr hz
  induction calls generalizing r with
  | nil => cases hrun; exact hn
  | cons c cs ih =>
    obtain ⟨r1, h1, h2, h3⟩ := call_safe (hc c (by simp)) hn hi
    rw [List.foldlM_cons, h1] at hrun
    exact ih (fun c' hc' => hc c' (by simp [hc'])) hrun h2 h3

/-- The round of an inner convolution of such a network. -/
theorem inner_round {n : Net F} {a b : Nat} (hn : SafeNet a b n) (hl : InnerLined n.layers) {j : Nat} (hj : 1 ≤ j) {l : Layer F}
    (hlj : n.layers[j]? = some l) {kind : FKind} (hkind : kind = .conv1D ∨ kind = .conv2D) {ns : List (Neuron F)} {info : FilterInfo}
    (hb : l.body = .filter kind ns info) : ∃ ni : Nat, l.numberOfInputs = ni ∧ ∀ (x e : List F) (t : Bool), x.length = ni →
      e.length = info.kernelIndexes.length * ns.length →
    ∃ y ns1 r ns2, l.body.computeOutput x t = .ok (y, .filter kind ns1 info) ∧
      (Body.filter kind ns1 info).computeBackOutput l.numberOfInputs e = .ok (r, .filter kind ns2 info) ∧
      Replays info.kernelIndexes info.sizeOfNeuronInputs.toNat ns ns2 x e y ∧
      r.length = ni ∧ ∀ i < ni, r.getD i 0 = codeErrors info.kernelIndexes info.sizeOfNeuronInputs.toNat ns x e i := by
  have hmem : l ∈ n.layers.tail := by
    obtain ⟨k, rfl⟩ : ∃ k, j = k + 1 := ⟨j - 1, by omega⟩
    cases hls : n.layers with
    | nil => rw [hls] at hlj; simp at hlj
    | cons a as => rw [hls] at hlj; simp only [List.getElem?_cons_succ] at hlj; exact List.mem_of_getElem? hlj
  obtain ⟨ni, no, hw⟩ := layersWF_mem hn.wf.layers l (List.mem_of_mem_tail hmem)
  have hlined := hl l hmem
  rw [hb] at hlined
  have hbody := hw.body
  rw [hb] at hbody
  have hconv : ConvWF ns info ni no := by rcases hkind with rfl | rfl <;> exact hbody
  refine ⟨ni, hw.inputs, ?_⟩
  intro x e t hx he
  rw [hb, hw.inputs]
  exact Conv.round hkind hconv hlined hx (by rw [he, hconv.out]) t

/-- **C43**, proved part: in every network made from a well formed architecture that ends with neurons, after every history of
fitting calls (inferences, evaluations, trainings, saves in any order and number), every convolution that is not the first layer
replays its inputs in order: in the next round, the outputs of position p are computed on the inputs of row p, and the backward pass
adds to every weight the step of each position *computed from the inputs that this position saw in this forward pass* and from the
momentum of this same position. Missing: convolutions that are the first layer (`C43_first_layer_refuted`). -/
theorem C43_replay_partial {arch : List (LayerModel F)} {s s' : List Nat} (h : WellFormed arch s s') (he : EndsWithNeurons arch)
    {opt : Sgd F} {d d' : Draws F} {snn : Snn F} (hm : Snn.make arch opt d = .ok (snn, d')) (calls : List (Call F))
    (hc : ∀ c ∈ calls, CallFits s.prod s'.prod c) (r r' : Run F) (hr : r.snn = snn) (hrun : calls.foldlM Call.run r = .ok r')
    (j : Nat) (hj : 1 ≤ j) (l : Layer F) (hlj : r'.snn.net.layers[j]? = some l) (kind : FKind) (hkind : kind = .conv1D ∨ kind = .conv2D)
    (ns : List (Neuron F)) (info : FilterInfo) (hb : l.body = .filter kind ns info) (x e : List F) (t : Bool)
    (hx : (x.length : Int) = l.numberOfInputs) (he' : e.length = info.kernelIndexes.length * ns.length) :
    ∃ y ns1 back ns2, l.body.computeOutput x t = .ok (y, .filter kind ns1 info) ∧
      (Body.filter kind ns1 info).computeBackOutput l.numberOfInputs e = .ok (back, .filter kind ns2 info) ∧
      Replays info.kernelIndexes info.sizeOfNeuronInputs.toNat ns ns2 x e y := by
  obtain ⟨hn, hl⟩ := inner h he hm hc hr hrun
  obtain ⟨ni, e1, hround⟩ := inner_round hn hl hj hlj hkind hb
  obtain ⟨y, ns1, back, ns2, a, b, c, _⟩ := hround x e t (by omega) he'
  exact ⟨y, ns1, back, ns2, a, b, c⟩

/-- **C56**, proved part: under the same conditions, the errors sent back to the inputs are `codeErrors`: the sum over every position
and kernel offset touching the input of the error of the output times a derivative times a weight, where the derivative is the one at
the last position and the weight the one after the updates of the earlier positions. Missing: the derivative of the position itself
and the weight before the updates, see the refutations. -/
theorem C56_errors_partial {arch : List (LayerModel F)} {s s' : List Nat} (h : WellFormed arch s s') (he : EndsWithNeurons arch)
    {opt : Sgd F} {d d' : Draws F} {snn : Snn F} (hm : Snn.make arch opt d = .ok (snn, d')) (calls : List (Call F))
    (hc : ∀ c ∈ calls, CallFits s.prod s'.prod c) (r r' : Run F) (hr : r.snn = snn) (hrun : calls.foldlM Call.run r = .ok r')
    (j : Nat) (hj : 1 ≤ j) (l : Layer F) (hlj : r'.snn.net.layers[j]? = some l) (kind : FKind) (hkind : kind = .conv1D ∨ kind = .conv2D)
    (ns : List (Neuron F)) (info : FilterInfo) (hb : l.body = .filter kind ns info) (x e : List F) (t : Bool)
    (hx : (x.length : Int) = l.numberOfInputs) (he' : e.length = info.kernelIndexes.length * ns.length) :
    ∃ y ns1 back ns2, l.body.computeOutput x t = .ok (y, .filter kind ns1 info) ∧
      (Body.filter kind ns1 info).computeBackOutput l.numberOfInputs e = .ok (back, .filter kind ns2 info) ∧
      (back.length : Int) = l.numberOfInputs ∧
      ∀ i < back.length, back.getD i 0 = codeErrors info.kernelIndexes info.sizeOfNeuronInputs.toNat ns x e i := by
  obtain ⟨hn, hl⟩ := inner h he hm hc hr hrun
  obtain ⟨ni, e1, hround⟩ := inner_round hn hl hj hlj hkind hb
  obtain ⟨y, ns1, back, ns2, a, b, c, f, g⟩ := hround x e t (by omega) he'
  exact ⟨y, ns1, back, ns2, a, b, by omega, fun i hi => g i (by omega)⟩

/-- **C56**, full when there is one position (the kernel covers the whole input): the errors are those of the gradient. -/
theorem C56_one_position_partial (rows : List (List Int)) (h1 : rows.length = 1) (size : Nat) (ns : List (Neuron F)) (x e : List F) (i : Nat) :
    codeErrors rows size ns x e i = trueErrors rows size ns x e i := by
  unfold codeErrors trueErrors lastSlope
  simp [h1]

/-- **C56**, full for the errors of the first position, when the activation has the same derivative at all positions: if the errors
of the other positions are zero, the errors sent back are those of the gradient. -/
theorem C56_first_position_partial (rows : List (List Int)) (size : Nat) (ns : List (Neuron F)) (x e : List F)
    (hs : ∀ n ∈ ns, n.activationFunction.obj.derivative (atRow n x (rows.getD 0 [])) = lastSlope rows n x)
    (h0 : ∀ p, 0 < p → p < rows.length → ∀ q < ns.length, errorsOf ns.length q e p = 0) (i : Nat) :
    codeErrors rows size ns x e i = trueErrors rows size ns x e i := by
  unfold codeErrors trueErrors
  apply Finset.sum_congr rfl
  intro p hp
  rw [Finset.mem_range] at hp
  congr 1
  apply List.ext_getElem?
  intro q
  rw [List.getElem?_mapIdx, List.getElem?_mapIdx]
  cases hn : ns[q]? with
  | none => rfl
  | some n =>
    have hq : q < ns.length := by
      by_contra hc
      rw [List.getElem?_eq_none (by omega)] at hn; cases hn
    simp only [Option.map_some, Option.some.injEq]
    apply Finset.sum_congr rfl
    intro j _
    split
    · by_cases hp0 : p = 0
      · subst hp0
        rw [hs n (List.mem_of_getElem? hn)]
        simp
      · rw [h0 p (by omega) hp q hq]
        simp
    · rfl

/-- C43 and C56: the row of position p of a convolution in one dimension, with C channels and kernel K: the inputs `(p + j)*C + c`
for the offsets j < K and the channels c < C. -/
theorem C43_rows1D {opt : Sgd F} {C X K N : Nat} {act : Act} {opts : List (LayerOptModel F)} {d d' : Draws F}
    {shape : List Int} {l0 : Layer F} (hs : Shape1D shape C X) (hN : 0 < N)
    (hb : buildLayer opt (.convolution (N : Int) (K : Int) act opts) shape d = .ok (l0, d')) :
    ∃ ns info, l0.body = .filter .conv1D ns info ∧ ns.length = N ∧ info.sizeOfNeuronInputs = (K * C : Nat) ∧ info.kernelIndexes =
      (List.range (X - K + 1)).map fun p => (List.range K).flatMap fun j => (List.range C).map fun c => (((p + j) * C + c : Nat) : Int) := by
  obtain ⟨hs1, hs2⟩ := LayerProps.normalize1D hs
  unfold buildLayer at hb
  obtain ⟨n, h1, hb⟩ := Res.bind_eq_ok.1 hb
  rw [computeNumberOfInputs_inv h1, hs2] at hb
  split at hb
  · cases hb
  split at hb
  · cases hb
  simp only at hb
  obtain ⟨hKX, ns, info, h⟩ := buildConvolution1D_inv hs1 hN hb
  exact ⟨ns, info, h.body, h.length, h.ksize, h.kidx⟩

/-- C43 and C56: the row of position `p = py*(X-K+1) + px` of a convolution in two dimensions: the inputs
`((py + i)*X + (px + j))*C + c`. -/
theorem C43_rows2D {opt : Sgd F} {C X Y K N : Nat} {act : Act} {opts : List (LayerOptModel F)} {d d' : Draws F}
    {l0 : Layer F} (hN : 0 < N)
    (hb : buildLayer opt (.convolution (N : Int) (K : Int) act opts) [(C : Int), (X : Int), (Y : Int)] d = .ok (l0, d')) :
    ∃ ns info, l0.body = .filter .conv2D ns info ∧ ns.length = N ∧ info.sizeOfNeuronInputs = (K * K * C : Nat) ∧ info.kernelIndexes =
      (List.range ((X - K + 1) * (Y - K + 1))).map fun p => (List.range K).flatMap fun i => (List.range K).flatMap fun j => (List.range C).map fun c =>
        ((((p / (X - K + 1) + i) * X + (p % (X - K + 1) + j)) * C + c : Nat) : Int) := by
  unfold buildLayer at hb
  obtain ⟨n, h1, hb⟩ := Res.bind_eq_ok.1 hb
  have hn : n = ((C * X * Y : Nat) : Int) := by rw [computeNumberOfInputs_inv h1]; simp; ring
  rw [hn] at hb
  split at hb
  · cases hb
  split at hb
  · cases hb
  simp only at hb
  obtain ⟨hKX, hKY, ns, info, h⟩ := buildConvolution2D_inv hN hb
  exact ⟨ns, info, h.body, h.length, h.ksize, h.kidx⟩

/-- C43 and C56: no call changes the rows of a layer. -/
theorem C43_rows_kept {calls : List (Call F)} {r r' : Run F} (hrun : calls.foldlM Call.run r = .ok r') (j : Nat) (l : Layer F)
    (hl : r.snn.net.layers[j]? = some l) (kind : FKind) (ns : List (Neuron F)) (info : FilterInfo) (hb : l.body = .filter kind ns info) :
    ∃ l' ns', r'.snn.net.layers[j]? = some l' ∧ l'.body = .filter kind ns' info ∧ ns'.length = ns.length := by
  have hk := (history_kin hrun).layers
  have hlen := hk.length_eq
  have hj : j < r.snn.net.layers.length := by
    by_contra hc
    rw [List.getElem?_eq_none (by omega)] at hl; cases hl
  have hl' : r'.snn.net.layers[j]? = some (r'.snn.net.layers[j]'(by omega)) := List.getElem?_eq_getElem _
  have := (Conv.forall₂_index hk j _ _ hl hl').body
  rw [hb] at this
  revert this
  cases hbody : (r'.snn.net.layers[j]'(by omega)).body with
  | filter k' ns' info' =>
    intro this
    obtain ⟨rfl, h2, rfl⟩ := this
    exact ⟨_, ns', hl', hbody, h2.length_eq.symm⟩
  | fullyConnected ns => intro h; exact h.elim
  | recurrence ns => intro h; exact h.elim
  | gru ns => intro h; exact h.elim
  | pool a b c d => intro h; exact h.elim

end

/-! ### Witnesses -/

/-- 3 inputs, a dense layer of 3, a convolution with 1 filter of kernel 2 (2 positions), an output. -/
def innerArch (a : Act) : List (LayerModel ℚ) := [.input [3], .fullyConnected 3 .identity [], .convolution 1 2 a [], .fullyConnected 1 .identity []]

theorem innerArch_wellFormed (a : Act) : WellFormed (innerArch a) [3] [1] where
  layers := by
    refine ⟨_, _, rfl, ?_⟩
    have g : ∀ s : List Nat, s ≠ [] → (∀ v ∈ s, 0 < v) → s.prod ≤ 999998 → GoodShape s := fun s a b c => ⟨a, b, c⟩
    refine .cons (g _ (by simp) (by simp) (by simp)) (.fullyConnected (by decide)) ?_
    refine .cons (g _ (by simp) (by simp) (by simp)) (.convolution1 (by decide) (by decide) (by decide)) ?_
    refine .cons (g _ (by simp) (by simp) (by simp)) (.fullyConnected (by decide)) ?_
    exact .nil (g _ (by simp) (by simp) (by simp))
  count := by simp [innerArch]

/-- The network with this convolution and the activation ReLU. -/
def innerRelu : Snn ℚ := ((Snn.make (innerArch .relu) Demo.sgd Demo.draws).get (by decide +kernel)).1
/-- The same with the identity. -/
def innerIdentity : Snn ℚ := ((Snn.make (innerArch .identity) Demo.sgd Demo.draws).get (by decide +kernel)).1

/-- Data with 3 inputs and one output. -/
def threeData : Data ℚ := (Data.make1 .regression [[1, 2, 3], [3, 1, 2]] [[1], [2]] .nonTemporal 0).get (by decide +kernel)

/-- The convolution in one dimension at a place in the layers: the layer, its filters and its geometry. -/
def convOf (l? : Option (Layer ℚ)) : Option (Layer ℚ × List (Neuron ℚ) × FilterInfo) :=
  match l? with
  | some l => match l.body with
    | .filter .conv1D ns info => some (l, ns, info)
    | _ => none
  | none => none

theorem convOf_some {l? : Option (Layer ℚ)} (h : (convOf l?).isSome) :
    l? = some ((convOf l?).get h).1 ∧ ((convOf l?).get h).1.body = .filter .conv1D ((convOf l?).get h).2.1 ((convOf l?).get h).2.2 := by
  obtain ⟨⟨l, ns, info⟩, e⟩ := Option.isSome_iff_exists.1 h
  simp only [e, Option.get_some]
  unfold convOf at e
  split at e
  · split at e
    · cases e; exact ⟨rfl, by assumption⟩
    · cases e
  · cases e

/-- Three calls. -/
def threeCalls : List (Call ℚ) := [.train Demo.env threeData (litEp 2) 1 1 50, .computeOutput [1, 2, 3] true, .evaluate Demo.env threeData]

theorem threeCalls_fit : ∀ c ∈ threeCalls, CallFits [3].prod [1].prod c := by
  intro c hc
  have hd : Fitted 3 1 threeData := by
    refine .make1 (p := .regression) (ti := [[1, 2, 3], [3, 1, 2]]) (tl := [[1], [2]]) (nat := .nonTemporal) (rec := 0) (Res.eq_get _ _) ⟨rfl, ?_, ?_⟩
      (by intro h; cases h) (by intro h; cases h)
    · intro r hr; simp at hr; rcases hr with rfl | rfl <;> simp
    · intro r hr; simp at hr; rcases hr with rfl | rfl <;> simp
  simp only [threeCalls, List.mem_cons, List.not_mem_nil, or_false] at hc
  rcases hc with rfl | rfl | rfl
  · exact ⟨hd, by norm_num, by decide +kernel, fun h => absurd rfl h, 3, overFrom_ep 2 (by norm_num), by norm_num, by decide +kernel⟩
  · show ([1, 2, 3] : List ℚ).length = _; simp
  · exact hd

theorem innerIdentity_conv : (convOf innerIdentity.net.layers[1]?).isSome := by decide +kernel

theorem innerRelu_conv : (convOf innerRelu.net.layers[1]?).isSome := by decide +kernel

/-- The theorems C43_replay_partial and C56_errors_partial apply to this network after a training, an inference and an evaluation; the
convolution has two positions, whose weights the round changes. -/
example : ∃ r', threeCalls.foldlM Call.run (Demo.run innerIdentity threeData) = .ok r' ∧
    ∃ (l : Layer ℚ) (ns : List (Neuron ℚ)) (info : FilterInfo), r'.snn.net.layers[1]? = some l ∧ l.body = .filter .conv1D ns info ∧
    info.kernelIndexes = [[0, 1], [1, 2]] ∧ ns.length = 1 ∧
    ∃ y ns1 back ns2, l.body.computeOutput [1, 2, 3] true = .ok (y, .filter .conv1D ns1 info) ∧
      (Body.filter .conv1D ns1 info).computeBackOutput l.numberOfInputs [1, 2] = .ok (back, .filter .conv1D ns2 info) ∧
      Replays info.kernelIndexes info.sizeOfNeuronInputs.toNat ns ns2 ([1, 2, 3] : List ℚ) [1, 2] y := by
  have hm : Snn.make (innerArch .identity) Demo.sgd Demo.draws = .ok (innerIdentity, ((Snn.make (innerArch .identity) Demo.sgd Demo.draws).get (by decide +kernel)).2) :=
    Res.eq_get _ _
  obtain ⟨r', hrun, _⟩ := C59_histories_return (innerArch_wellFormed .identity) (by simp [EndsWithNeurons, innerArch]) hm threeCalls threeCalls_fit
    (Demo.run innerIdentity threeData) rfl
  refine ⟨r', hrun, ?_⟩
  have h0 : ∃ (l : Layer ℚ) (ns : List (Neuron ℚ)) (info : FilterInfo), innerIdentity.net.layers[1]? = some l ∧ l.body = .filter .conv1D ns info ∧
      info.kernelIndexes = [[0, 1], [1, 2]] ∧ ns.length = 1 ∧ l.numberOfInputs = 3 :=
    ⟨_, _, _, (convOf_some innerIdentity_conv).1, (convOf_some innerIdentity_conv).2, by decide +kernel, by decide +kernel, by decide +kernel⟩
  obtain ⟨l, ns, info, h1, h2, h3, h4, h5⟩ := h0
  have hk := Conv.forall₂_index (history_kin hrun).layers 1 l
  obtain ⟨l', ns', k1, k2, k3⟩ := C43_rows_kept hrun 1 l h1 .conv1D ns info h2
  have hin : l'.numberOfInputs = 3 := by rw [(hk l' h1 k1).inputs, h5]
  obtain ⟨y, ns1, back, ns2, a, b, c⟩ := C43_replay_partial (innerArch_wellFormed .identity) (by simp [EndsWithNeurons, innerArch]) hm threeCalls threeCalls_fit
    (Demo.run innerIdentity threeData) r' rfl hrun 1 (by norm_num) l' k1 .conv1D (Or.inl rfl) ns' info k2 [1, 2, 3] [1, 2] true (by rw [hin]; simp)
    (by rw [h3, k3, h4]; simp)
  exact ⟨l', ns', info, k1, k2, h3, by omega, y, ns1, back, ns2, a, b, c⟩

/-- The errors that a layer sends back in one round with the inputs x and the errors e. -/
def roundBack (l : Layer ℚ) (x e : List ℚ) : Res (List ℚ) := do
  let (_, b1) ← l.body.computeOutput x true
  let (back, _) ← b1.computeBackOutput l.numberOfInputs e
  return back

/-- **C56 is false for ReLU**: with the errors [1, 0] of its two positions, whose affine forms are positive and negative, a
convolution sends back nothing, because it uses the derivative at the last position; the gradient is -4/15 for the second input. -/
theorem C56_slope_refuted : ∃ (l : Layer ℚ) (ns : List (Neuron ℚ)) (info : FilterInfo), innerRelu.net.layers[1]? = some l ∧
    l.body = .filter .conv1D ns info ∧ roundBack l [3, -2, 3] [1, 0] = .ok [0, 0, 0] ∧
    trueErrors info.kernelIndexes info.sizeOfNeuronInputs.toNat ns [3, -2, 3] [1, 0] 1 = (-4/15 : ℚ) :=
  ⟨_, _, _, (convOf_some innerRelu_conv).1, (convOf_some innerRelu_conv).2, by decide +kernel, by decide +kernel⟩

/-- **C56 is false even for the identity**: the weights change between the positions of one backward pass, so that the error of the
last input, -4/15 in the gradient, is -1/6. -/
theorem C56_weights_refuted : ∃ (l : Layer ℚ) (ns : List (Neuron ℚ)) (info : FilterInfo), innerIdentity.net.layers[1]? = some l ∧
    l.body = .filter .conv1D ns info ∧ roundBack l [1, 2, 3] [1, 1] = .ok [0, -13/60, -1/6] ∧
    trueErrors info.kernelIndexes info.sizeOfNeuronInputs.toNat ns [1, 2, 3] [1, 1] 2 = (-4/15 : ℚ) :=
  ⟨_, _, _, (convOf_some innerIdentity_conv).1, (convOf_some innerIdentity_conv).2, by decide +kernel, by decide +kernel⟩

/-- A network whose first layer is a convolution with 1 filter of kernel 2, on 3 inputs, without momentum. -/
def firstConv : Snn ℚ :=
  ((Snn.make [.input [3], .convolution 1 2 .identity [], .fullyConnected 1 .identity []] ({ learningRate := 1/10, momentum := 0 } : Sgd ℚ) Demo.draws).get
    (by decide +kernel)).1
/-- One example. -/
def oneExample : Data ℚ := (Data.make1 .regression [[1, 2, 3]] [[1]] .nonTemporal 0).get (by decide +kernel)
/-- The same after the training on one example. -/
def firstConvTrained : Run ℚ := ((Demo.run firstConv oneExample).train Demo.env (litEp 1) 1 1 50).get (by decide +kernel)

theorem firstConvTrained_conv : (convOf firstConvTrained.snn.net.layers[0]?).isSome := by decide +kernel

/-- The weight of the second input of the kernel before and after one step. -/
def stepped (l : Layer ℚ) (x e : List ℚ) : Res (List ℚ × List ℚ) := do
  let (_, b1) ← l.body.computeOutput x true
  let b2 ← b1.computeTrain e
  return (l.body.weights.map fun w => w.getD 1 0, b2.weights.map fun w => w.getD 1 0)

/-- **C43 is false when the convolution is the first layer**: after one training step, a second step whose only error, 1, is the one
of position 0, which saw only zeros, changes the weight of the second input of the kernel: the input of position 1 was used. -/
theorem C43_first_layer_refuted : ∃ (l : Layer ℚ) (ns : List (Neuron ℚ)) (info : FilterInfo), firstConvTrained.snn.net.layers[0]? = some l ∧
    l.body = .filter .conv1D ns info ∧ info.kernelIndexes = [[0, 1], [1, 2]] ∧
    ∃ w w', stepped l [0, 0, 1] [1, 0] = .ok (w, w') ∧ w ≠ w' :=
  ⟨_, _, _, (convOf_some firstConvTrained_conv).1, (convOf_some firstConvTrained_conv).2, by decide +kernel, _, _, Res.eq_get _ (by decide +kernel), by decide +kernel⟩

end Snn.ConvProps
