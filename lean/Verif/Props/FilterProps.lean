import Verif.Proofs.FilterProofs
import Verif.Basic.NanFlt
import Verif.Demo.Demo

/-!
# C35 (layer), C36, C37, C38: what the layers compute

All in exact arithmetic (any linearly ordered field with any `exp`, `tanh`). A theorem speaks of a layer `l` that was built by
the factory from a description (`buildLayer`), then used in any way (`Used`: inference and training, any number of times),
and of an input of the right size: the output is the specification of `Spec/LayerSpec.lean` at the *current* weights of the
layer (what `getWeights` returns), before the layer optimizers (C45-C47) are applied.
-/

set_option linter.all false

namespace Snn.LayerProps

open Finset Snn.Spec

section
variable {F : Type} [Field F] [LinearOrder F] [IsStrictOrderedRing F] [FTrans F]

/-- The layer returns `y` transformed by its optimizers (`y` itself when the description has none) and its weights do not
change. -/
def Outputs (l : Layer F) (x : List F) (t : Bool) (opts : List (LayerOptModel F)) (y : List F) : Prop :=
  ∃ l', l.output x t = (do let z ← testingHooks l.optimizers y; return (z, l')) ∧ l'.body.weights = l.body.weights ∧
    (opts = [] → l.output x t = .ok (y, l'))

theorem map_weights_same : ∀ {ns ns' : List (Neuron F)}, List.Forall₂ Neuron.Same ns ns' →
    ns'.map Neuron.getWeights = ns.map Neuron.getWeights
  | _, _, .nil => rfl
  | _, _, .cons h t => by simp [Neuron.getWeights, h.weights, map_weights_same t]

theorem outputs_of {l : Layer F} {x y : List F} {t : Bool} {opts : List (LayerOptModel F)} {b' : Body F}
    (h : l.body.computeOutput x t = .ok (y, b')) (hw : b'.weights = l.body.weights) (ho : opts = [] → l.optimizers = []) :
    Outputs l x t opts y := by
  refine ⟨{ l with body := b' }, ?_, hw, ?_⟩
  · simp only [Layer.output, h, Res.ok_bind]
  · intro he
    simp only [Layer.output, h, Res.ok_bind, ho he, testingHooks]
    rfl

/-! ### C35 -/

/-- **C35** (layer): a fully connected layer with N neurons computes `activation(W x + w_b)` for every number of inputs and
neurons (the bias input is 1). -/
theorem C35_layer {opt : Sgd F} {N : Nat} {act : Act} {opts : List (LayerOptModel F)} {d d' : Draws F} {shape : List Int}
    {l0 l : Layer F} {ni : Nat} (hni : shape.prod = (ni : Int)) (hN : 0 < N)
    (hb : buildLayer opt (.fullyConnected (N : Int) act opts) shape d = .ok (l0, d'))
    (hu : Used ni N l0 l) (x : List F) (hx : x.length = ni) (t : Bool) :
    Outputs l x t opts (fullyConnected act.obj.function 1 l.body.weights x N) := by
  unfold buildLayer at hb
  obtain ⟨n, h1, hb⟩ := Res.bind_eq_ok.1 hb
  rw [computeNumberOfInputs_inv h1, hni] at hb
  split at hb
  · cases hb
  split at hb
  · cases hb
  simp only at hb
  split at hb
  · cases hb
  obtain ⟨k1, ns0, k2, k3, k4, d1, k5⟩ := buildSimple_inv (P := fun n => Neuron.Fresh n opt ni 1 (lit 1) act)
    (fun d n h => Neuron.make_fresh (b := 1) rfl (by omega) h) hb
  have hl0 : ns0.length = N := by omega
  have hwf : l0.WF ni N := ⟨k1, by rw [k2]; exact ⟨fun n hn => (k4 n hn).wf, hl0⟩, hN⟩
  obtain ⟨⟨_, hw, _⟩, hk⟩ := used_wf hu hwf
  rw [k2] at hk
  cases hbody : l.body with
  | fullyConnected ns =>
    rw [hbody] at hk hw
    simp only [Body.Kin] at hk
    obtain ⟨hw1, hw2⟩ := hw
    obtain ⟨ns', a, b⟩ := runNeurons_value (f := fun n : Neuron F => n.output x) (g := fun n => n.value x)
      (P := fun n n' => n.Same n') (ns := ns) (fun n hn => by
        obtain ⟨n', k1, k2, k3⟩ := Neuron.output_value (hw1 n hn) x hx; exact ⟨n', k1, k3⟩)
    have hv : ns.map (fun n => n.value x) = fullyConnected act.obj.function 1 (ns.map Neuron.getWeights) x N := by
      have e : ns.map (fun n => n.value x) = ns.map (fun n => act.obj.function (affine n.weights x 1)) := by
        apply List.map_congr_left
        intro n hn
        obtain ⟨n0, hn0, hkin⟩ := forall₂_mem_right hk n hn
        rw [Neuron.value_eq (hw1 n hn) x hx, hkin.activation, hkin.bias, (k4 n0 hn0).activation, (k4 n0 hn0).bias]
        simp
      rw [e, map_index (fun w => act.obj.function (affine w x 1)) ns N hw2]
      rfl
    have hc : l.body.computeOutput x t = .ok (fullyConnected act.obj.function 1 (ns.map Neuron.getWeights) x N, .fullyConnected ns') := by
      rw [hbody]
      simp only [Body.computeOutput, a, Res.ok_bind, hv]
      rfl
    refine outputs_of hc ?_ ?_
    · rw [hbody]; exact map_weights_same b
    · intro he; subst he
      exact used_noOptimizers hu (by rw [k5]; rfl)
  | recurrence ns => rw [hbody] at hk; exact hk.elim
  | gru ns => rw [hbody] at hk; exact hk.elim
  | filter k ns info => rw [hbody] at hk; exact hk.elim
  | pool a b c d => rw [hbody] at hk; exact hk.elim

/-! ### Convolutions -/

theorem conv_outputs {l0 l : Layer F} {kind : FKind} {opt : Sgd F} {ni : Nat} {rows : List (List Int)} {size N b K : Nat}
    {act : Act} {si so : List Int} {opts : List (LayerOptModel F)} {ns0 : List (Neuron F)} {info : FilterInfo}
    (h : FilterBuilt l0 kind opt (ni : Int) rows size N N b K act si so opts ns0 info) (hkind : kind = .conv1D ∨ kind = .conv2D)
    (hwf : l0.WF ni (rows.length * N)) (hu : Used ni (rows.length * N) l0 l) (x : List F) (hx : x.length = ni) (t : Bool) :
    Outputs l x t opts (rows.flatMap fun row => (List.range N).map fun q =>
      act.obj.function (affine (l.body.weights.getD q []) (pick x row) (1/1000))) := by
  obtain ⟨⟨_, hw, _⟩, hk⟩ := used_wf hu hwf
  rw [h.body] at hk
  cases hbody : l.body with
  | filter k ns info' =>
    rw [hbody] at hk hw
    simp only [Body.Kin] at hk
    obtain ⟨rfl, hk, rfl⟩ := hk
    have hcw : ConvWF ns info' ni (rows.length * N) := by rcases hkind with rfl | rfl <;> exact hw
    obtain ⟨ns', a, b, c⟩ := convOutputs_ok x (rows := info'.kernelIndexes) (ns := ns) (by rw [hx]; exact hcw.rows) hcw.neurons
    have hlen : ns.length = N := by rw [← hk.length_eq]; exact h.length
    have hv : (info'.kernelIndexes.flatMap fun row => ns.map fun n => n.value (pick x row)) =
        rows.flatMap fun row => (List.range N).map fun q =>
          act.obj.function (affine ((ns.map Neuron.getWeights).getD q []) (pick x row) (1/1000)) := by
      rw [h.kidx]
      apply List.flatMap_congr
      intro row hrow
      have e : ns.map (fun n => n.value (pick x row)) = ns.map (fun n => act.obj.function (affine n.weights (pick x row) (1/1000))) := by
        apply List.map_congr_left
        intro n hn
        obtain ⟨n0, hn0, hkin⟩ := forall₂_mem_right hk n hn
        rw [Neuron.value_eq (hcw.neurons n hn) (pick x row) (by rw [pick, List.length_map]; exact (hcw.rows row (by rw [h.kidx]; exact hrow)).1),
          hkin.activation, hkin.bias, (h.fresh n0 hn0).activation, (h.fresh n0 hn0).bias]
        simp
      rw [e, map_index (fun w => act.obj.function (affine w (pick x row) (1/1000))) ns N hlen]
    have hl : (info'.kernelIndexes.flatMap fun row => ns.map fun n => n.value (pick x row)).length = rows.length * N := by
      rw [hcw.out, List.length_flatMap]; simp
    have hf : fillOutputs info'.numberOfKernels (info'.kernelIndexes.flatMap fun row => ns.map fun n => n.value (pick x row)) = .ok _ :=
      fillOutputs_ok (by rw [hcw.kernels, hl])
    have hc : l.body.computeOutput x t = .ok ((info'.kernelIndexes.flatMap fun row => ns.map fun n => n.value (pick x row)), .filter k ns' info') := by
      rw [hbody]
      rcases hkind with rfl | rfl <;> (simp only [Body.computeOutput, a, Res.ok_bind, hf]; rfl)
    rw [hv] at hc
    refine outputs_of hc ?_ ?_
    · rw [hbody]; exact map_weights_same b
    · intro he; subst he
      obtain ⟨d, ho⟩ := h.optimizers
      exact used_noOptimizers hu (by rw [ho]; rfl)
  | recurrence ns => rw [hbody] at hk; exact hk.elim
  | gru ns => rw [hbody] at hk; exact hk.elim
  | fullyConnected ns => rw [hbody] at hk; exact hk.elim
  | pool a b c d => rw [hbody] at hk; exact hk.elim

theorem normalize1D {shape : List Int} {C X : Nat} (h : Shape1D shape C X) :
    normalizeShape shape = [(C : Int), (X : Int)] ∧ shape.prod = ((C * X : Nat) : Int) := by
  cases h <;> simp [normalizeShape]

theorem pick_map (x : List F) (f : Nat → Nat → Nat) (n m : Nat) :
    pick x ((List.range n).flatMap fun j => (List.range m).map fun c => ((f j c : Nat) : Int)) =
      (List.range n).flatMap fun j => (List.range m).map fun c => x.getD (f j c) 0 := by
  unfold pick
  rw [List.map_flatMap]
  apply List.flatMap_congr
  intro j _
  rw [List.map_map]
  apply List.map_congr_left
  intro c _
  simp

theorem pick_map2 (x : List F) (f : Nat → Nat → Nat → Nat) (n m k : Nat) :
    pick x ((List.range n).flatMap fun i => (List.range m).flatMap fun j => (List.range k).map fun c => ((f i j c : Nat) : Int)) =
      (List.range n).flatMap fun i => (List.range m).flatMap fun j => (List.range k).map fun c => x.getD (f i j c) 0 := by
  conv => lhs; unfold pick
  rw [List.map_flatMap]
  apply List.flatMap_congr
  intro i _
  exact pick_map x (f i) m k

/-- **C36**: a convolution layer in one dimension computes the valid cross-correlation of its input with its kernels, for
every number of channels, positions, filters and every kernel size. -/
theorem C36_convolution1D {opt : Sgd F} {C X K N : Nat} {act : Act} {opts : List (LayerOptModel F)} {d d' : Draws F}
    {shape : List Int} {l0 l : Layer F} (hs : Shape1D shape C X) (hN : 0 < N)
    (hb : buildLayer opt (.convolution (N : Int) (K : Int) act opts) shape d = .ok (l0, d'))
    (hu : Used (C * X) ((X - K + 1) * N) l0 l) (x : List F) (hx : x.length = C * X) (t : Bool) :
    Outputs l x t opts (conv1D act.obj.function (1/1000) l.body.weights x C X K N) := by
  obtain ⟨hs1, hs2⟩ := normalize1D hs
  unfold buildLayer at hb
  obtain ⟨n, h1, hb⟩ := Res.bind_eq_ok.1 hb
  rw [computeNumberOfInputs_inv h1, hs2] at hb
  split at hb
  · cases hb
  split at hb
  · cases hb
  simp only at hb
  obtain ⟨hKX, ns, info, h⟩ := buildConvolution1D_inv hs1 hN hb
  have hwf := buildConvolution1D_wf hs1 hN hb
  have e : ((List.range (X - K + 1)).map (conv1DRow C K)).length = X - K + 1 := by simp
  have := conv_outputs h (Or.inl rfl) (by rw [e]; exact hwf) (by rw [e]; exact hu) x hx t
  convert this using 1
  unfold conv1D
  rw [List.flatMap_map]
  apply List.flatMap_congr
  intro p hp
  apply List.map_congr_left
  intro q hq
  congr 1
  rw [affine_at (n := K * C) (by rw [pick, List.length_map, conv1DRow_length])]
  unfold conv1DRow
  rw [pick_map x (fun j c => (p + j) * C + c), sum_tile1]
  rfl

/-- **C37**: the same in two dimensions, rectangular inputs included. -/
theorem C37_convolution2D {opt : Sgd F} {C X Y K N : Nat} {act : Act} {opts : List (LayerOptModel F)} {d d' : Draws F}
    {l0 l : Layer F} (hN : 0 < N)
    (hb : buildLayer opt (.convolution (N : Int) (K : Int) act opts) [(C : Int), (X : Int), (Y : Int)] d = .ok (l0, d'))
    (hu : Used (C * X * Y) ((X - K + 1) * (Y - K + 1) * N) l0 l) (x : List F) (hx : x.length = C * X * Y) (t : Bool) :
    Outputs l x t opts (conv2D act.obj.function (1/1000) l.body.weights x C X Y K N) := by
  unfold buildLayer at hb
  obtain ⟨n, h1, hb⟩ := Res.bind_eq_ok.1 hb
  have hn : n = ((C * X * Y : Nat) : Int) := by rw [computeNumberOfInputs_inv h1]; simp; ring
  rw [hn] at hb
  split at hb
  · cases hb
  split at hb
  · cases hb
  simp only at hb
  obtain ⟨hKX, hKY, ns, info, h⟩ := buildConvolution2D_inv hN hb
  have hwf := buildConvolution2D_wf hN hb
  have e : ((List.range ((X - K + 1) * (Y - K + 1))).map (conv2DRow C X K (X - K + 1))).length = (X - K + 1) * (Y - K + 1) := by simp
  have := conv_outputs h (Or.inr rfl) (by rw [e]; exact hwf) (by rw [e]; exact hu) x hx t
  convert this using 1
  unfold conv2D
  rw [List.flatMap_map, Nat.mul_comm (X - K + 1) (Y - K + 1), flatMap_range_mul]
  apply List.flatMap_congr
  intro py hpy
  apply List.flatMap_congr
  intro px hpx
  rw [List.mem_range] at hpx
  apply List.map_congr_left
  intro q hq
  congr 1
  rw [affine_at (n := K * (K * C)) (by rw [pick, List.length_map, conv2DRow_length]; ring)]
  unfold conv2DRow
  have e1 : (py * (X - K + 1) + px) / (X - K + 1) = py := by
    rw [Nat.mul_comm, Nat.mul_add_div (by omega), Nat.div_eq_of_lt hpx]; rfl
  have e2 : (py * (X - K + 1) + px) % (X - K + 1) = px := by
    rw [Nat.mul_comm, Nat.mul_add_mod, Nat.mod_eq_of_lt hpx]
  rw [e1, e2, pick_map2 x (fun i j c => ((py + i) * X + (px + j)) * C + c), sum_tile2, ← Nat.mul_assoc]
  rfl

/-! ### Locally connected layers -/

theorem lc_outputs {l0 l : Layer F} {kind : FKind} {opt : Sgd F} {ni : Nat} {rows : List (List Int)} {size N nn K : Nat}
    {act : Act} {si so : List Int} {opts : List (LayerOptModel F)} {ns0 : List (Neuron F)} {info : FilterInfo}
    (h : FilterBuilt l0 kind opt (ni : Int) rows size N nn 1 K act si so opts ns0 info) (hkind : kind = .lc1D ∨ kind = .lc2D)
    (hN : 0 < N)
    (hwf : l0.WF ni (rows.length * N)) (hu : Used ni (rows.length * N) l0 l) (x : List F) (hx : x.length = ni) (t : Bool) :
    Outputs l x t opts ((List.range rows.length).flatMap fun p => (List.range N).map fun q =>
      act.obj.function (affine (l.body.weights.getD (p * N + q) []) (pick x (rows.getD p [])) (1/1000))) := by
  obtain ⟨⟨_, hw, _⟩, hk⟩ := used_wf hu hwf
  rw [h.body] at hk
  cases hbody : l.body with
  | filter k ns info' =>
    rw [hbody] at hk hw
    simp only [Body.Kin] at hk
    obtain ⟨rfl, hk, rfl⟩ := hk
    have hcw : LcWF k ns info' ni (rows.length * N) := by rcases hkind with rfl | rfl <;> exact hw
    obtain ⟨os, ns', a, l1, l2, b, c⟩ := lcOutputs_ok x (rows := info'.kernelIndexes) (ns := ns) (by rw [hx]; exact hcw.rows)
      hcw.neurons hcw.count
    have hfil : info'.numberOfFilters.toNat = N := by rw [h.filters]; simp
    have hlen : os.length = rows.length * N := by rw [l1, ← hcw.out]
    have hv : os = (List.range rows.length).flatMap fun p => (List.range N).map fun q =>
        act.obj.function (affine ((ns.map Neuron.getWeights).getD (p * N + q) []) (pick x (rows.getD p [])) (1/1000)) := by
      apply list_eq_blocks hN hlen (fun p q => act.obj.function (affine ((ns.map Neuron.getWeights).getD (p * N + q) []) (pick x (rows.getD p [])) (1/1000)))
      intro p hp q hq
      have hi : p * N + q < ns.length := by
        rw [← hcw.out]; exact idx_lt hp hq
      have hrow : info'.kernelIndexes[p]? = some (rows[p]) := by rw [h.kidx]; exact List.getElem?_eq_getElem hp
      have hval := l2 p _ hrow q (by rw [hfil]; exact hq) (ns[p * N + q]) (by rw [hfil]; exact List.getElem?_eq_getElem hi)
      rw [hfil] at hval
      rw [hval]
      have hmem : ns[p * N + q] ∈ ns := List.getElem_mem hi
      obtain ⟨n0, hn0, hkin⟩ := forall₂_mem_right hk _ hmem
      rw [Neuron.value_eq (hcw.neurons _ hmem) (pick x rows[p]) (by
          rw [pick, List.length_map]; exact (hcw.rows _ (by rw [h.kidx]; exact List.getElem_mem hp)).1),
        hkin.activation, hkin.bias, (h.fresh n0 hn0).activation, (h.fresh n0 hn0).bias]
      simp [hp, hi, Neuron.getWeights]
    have hf : fillOutputs info'.numberOfKernels os = .ok _ := fillOutputs_ok (by rw [hcw.kernels, hlen])
    have hc : l.body.computeOutput x t = .ok (os, .filter k ns' info') := by
      rw [hbody]
      rcases hkind with rfl | rfl <;> (simp only [Body.computeOutput, a, Res.ok_bind, hf]; rfl)
    rw [hv] at hc
    refine outputs_of hc ?_ ?_
    · rw [hbody]; exact map_weights_same b
    · intro he; subst he
      obtain ⟨d, ho⟩ := h.optimizers
      exact used_noOptimizers hu (by rw [ho]; rfl)
  | recurrence ns => rw [hbody] at hk; exact hk.elim
  | gru ns => rw [hbody] at hk; exact hk.elim
  | fullyConnected ns => rw [hbody] at hk; exact hk.elim
  | pool a b c d => rw [hbody] at hk; exact hk.elim

theorem pick_pad (x : List F) (f : Nat → Nat → Nat) (P : Nat → Nat → Prop) [∀ j c, Decidable (P j c)] (n m : Nat) :
    pick x ((List.range n).flatMap fun j => (List.range m).map fun c => if P j c then ((f j c : Nat) : Int) else -1) =
      (List.range n).flatMap fun j => (List.range m).map fun c => if P j c then x.getD (f j c) 0 else 0 := by
  unfold pick
  rw [List.map_flatMap]
  apply List.flatMap_congr
  intro j _
  rw [List.map_map]
  apply List.map_congr_left
  intro c _
  by_cases h : P j c <;> simp [h]

theorem pick_pad2 (x : List F) (f : Nat → Nat → Nat → Nat) (P : Nat → Nat → Nat → Prop) [∀ i j c, Decidable (P i j c)] (n m k : Nat) :
    pick x ((List.range n).flatMap fun i => (List.range m).flatMap fun j => (List.range k).map fun c =>
        if P i j c then ((f i j c : Nat) : Int) else -1) =
      (List.range n).flatMap fun i => (List.range m).flatMap fun j => (List.range k).map fun c =>
        if P i j c then x.getD (f i j c) 0 else 0 := by
  conv => lhs; unfold pick
  rw [List.map_flatMap]
  apply List.flatMap_congr
  intro i _
  exact pick_pad x (f i) (P i) m k

theorem lt_mul_iff {a c C X : Nat} (hc : c < C) : a * C + c < X * C ↔ a < X := by
  constructor
  · intro h
    by_contra hn
    have : X * C ≤ a * C := Nat.mul_le_mul_right C (by omega)
    omega
  · intro h; exact idx_lt h hc

/-- **C38** (one dimension): the input is split in `⌈X/K⌉` tiles of K positions; every tile has its own N neurons; positions
after the end of the input count as 0. For every number of channels, positions, filters and every kernel size. -/
theorem C38_locally1D {opt : Sgd F} {C X K N : Nat} {act : Act} {opts : List (LayerOptModel F)} {d d' : Draws F}
    {shape : List Int} {l0 l : Layer F} (hs : Shape1D shape C X) (hN : 0 < N)
    (hb : buildLayer opt (.locallyConnected (N : Int) (K : Int) act opts) shape d = .ok (l0, d'))
    (hu : Used (C * X) (ceil X K * N) l0 l) (x : List F) (hx : x.length = C * X) (t : Bool) :
    Outputs l x t opts (locally1D act.obj.function (1/1000) l.body.weights x C X K N) := by
  obtain ⟨hs1, hs2⟩ := normalize1D hs
  unfold buildLayer at hb
  obtain ⟨n, h1, hb⟩ := Res.bind_eq_ok.1 hb
  rw [computeNumberOfInputs_inv h1, hs2] at hb
  split at hb
  · cases hb
  split at hb
  · cases hb
  simp only at hb
  obtain ⟨hKX, hK, ns, info, h⟩ := buildLocally1D_inv hs1 hN hb
  have hwf := buildLocally1D_wf hs1 hN hb
  have e : ((List.range (ceil X K)).map (lc1DRow C K (C * X))).length = ceil X K := by simp
  have := lc_outputs h (Or.inl rfl) hN (by rw [e]; exact hwf) (by rw [e]; exact hu) x hx t
  convert this using 1
  rw [e]
  unfold locally1D
  apply List.flatMap_congr
  intro p hp
  rw [List.mem_range] at hp
  apply List.map_congr_left
  intro q hq
  congr 1
  rw [getD_map_range _ _ _ _ hp, affine_at (n := K * C) (by rw [pick, List.length_map, lc1DRow_length])]
  unfold lc1DRow
  rw [pick_pad x (fun j c => (p * K + j) * C + c) (fun j c => (p * K + j) * C + c < C * X), sum_tile1]
  congr 1
  apply Finset.sum_congr rfl
  intro j _
  apply Finset.sum_congr rfl
  intro c hc
  congr 1
  unfold at1D
  rw [Nat.mul_comm C X]
  by_cases hlt : p * K + j < X
  · rw [if_pos hlt, if_pos ((lt_mul_iff (Finset.mem_range.1 hc)).2 hlt)]
  · rw [if_neg hlt, if_neg (fun h => hlt ((lt_mul_iff (Finset.mem_range.1 hc)).1 h))]

/-- **C38** (two dimensions), when the input has as many tiles in both directions: the tiles are those of the specification.
Missing from the full statement: inputs with `⌈X/K⌉ ≠ ⌈Y/K⌉`, for which it is false (`C38_locally2D_refuted`). -/
theorem C38_locally2D_partial {opt : Sgd F} {C X Y K N : Nat} {act : Act} {opts : List (LayerOptModel F)} {d d' : Draws F}
    {l0 l : Layer F} (hN : 0 < N) (hXY : ceil X K = ceil Y K)
    (hb : buildLayer opt (.locallyConnected (N : Int) (K : Int) act opts) [(C : Int), (X : Int), (Y : Int)] d = .ok (l0, d'))
    (hu : Used (C * X * Y) (ceil X K * ceil Y K * N) l0 l) (x : List F) (hx : x.length = C * X * Y) (t : Bool) :
    Outputs l x t opts (locally2D act.obj.function (1/1000) l.body.weights x C X Y K N) := by
  unfold buildLayer at hb
  obtain ⟨n, h1, hb⟩ := Res.bind_eq_ok.1 hb
  have hn : n = ((C * X * Y : Nat) : Int) := by rw [computeNumberOfInputs_inv h1]; simp; ring
  rw [hn] at hb
  split at hb
  · cases hb
  split at hb
  · cases hb
  simp only at hb
  obtain ⟨hKX, hKY, hK, ns, info, h⟩ := buildLocally2D_inv hN hb
  have hwf := buildLocally2D_wf hN hb
  have e : ((List.range (ceil X K * ceil Y K)).map (lc2DRow C X K (ceil X K) (ceil Y K) (C * X * Y))).length = ceil X K * ceil Y K := by simp
  have := lc_outputs h (Or.inr rfl) hN (by rw [e]; exact hwf) (by rw [e]; exact hu) x hx t
  convert this using 1
  rw [e]
  unfold locally2D
  rw [Nat.mul_comm (ceil X K) (ceil Y K), flatMap_range_mul]
  apply List.flatMap_congr
  intro py hpy
  rw [List.mem_range] at hpy
  apply List.flatMap_congr
  intro px hpx
  rw [List.mem_range] at hpx
  apply List.map_congr_left
  intro q hq
  congr 1
  rw [getD_map_range _ _ _ _ (idx_lt hpy hpx), affine_at (n := K * (K * C)) (by rw [pick, List.length_map, lc2DRow_length]; ring)]
  unfold lc2DRow
  rw [← hXY, mulAdd_div hpx, mulAdd_mod hpx,
    pick_pad2 x (fun i j c => (py * K + i) * X * C + (px * K + j) * C + c)
      (fun i j c => (px * K + j) * C + c < X * C ∧ (py * K + i) * X * C + (px * K + j) * C + c < C * X * Y), sum_tile2, ← Nat.mul_assoc]
  congr 1
  apply Finset.sum_congr rfl
  intro i _
  apply Finset.sum_congr rfl
  intro j _
  apply Finset.sum_congr rfl
  intro c hc
  congr 1
  unfold at2D
  rw [Finset.mem_range] at hc
  have e1 : (py * K + i) * X * C + (px * K + j) * C + c = ((py * K + i) * X + (px * K + j)) * C + c := by ring
  have e2 : C * X * Y = Y * X * C := by ring
  rw [e1, e2]
  by_cases h1 : px * K + j < X
  · have := lt_mul_iff (a := (py * K + i) * X + (px * K + j)) (X := Y * X) hc
    have h2 := lt_mul_iff (a := py * K + i) (X := Y) h1
    by_cases h3 : py * K + i < Y
    · rw [if_pos ⟨h1, h3⟩, if_pos ⟨(lt_mul_iff hc).2 h1, this.2 (h2.2 h3)⟩]
    · rw [if_neg (fun h => h3 h.2), if_neg (fun h => h3 (h2.1 (this.1 h.2)))]
  · rw [if_neg (fun h => h1 h.1), if_neg (fun h => h1 ((lt_mul_iff hc).1 h.1))]

/-- **C38 is false** in two dimensions for an input with more tiles in x than in y (LocallyConnected2D.cpp:36 divides by
`shapeOfOutput[Y]`): with two pixels in one row, kernel 1 and one filter, the layer never looks at its second pixel, whatever
its weights, while the specification depends on it. -/
theorem C38_locally2D_refuted {opt : Sgd F} {d d' : Draws F} {l0 l : Layer F}
    (hb : buildLayer opt (.locallyConnected 1 1 .identity []) [1, 2, 1] d = .ok (l0, d')) (hu : Used 2 2 l0 l) (a b b' : F) (t : Bool) :
    (∃ y l1 l2, l.output [a, b] t = .ok (y, l1) ∧ l.output [a, b'] t = .ok (y, l2)) ∧
    (b ≠ b' → weight l.body.weights 1 0 ≠ 0 →
      locally2D (F := F) (fun v => v) (1/1000) l.body.weights [a, b] 1 2 1 1 1 ≠
      locally2D (fun v => v) (1/1000) l.body.weights [a, b'] 1 2 1 1 1) := by
  constructor
  · unfold buildLayer at hb
    obtain ⟨n, h1, hb⟩ := Res.bind_eq_ok.1 hb
    have hn : n = ((1 * 2 * 1 : Nat) : Int) := by rw [computeNumberOfInputs_inv h1]; simp
    rw [hn] at hb
    split at hb
    · cases hb
    split at hb
    · cases hb
    simp only at hb
    have hb2 : buildLocallyConnected opt ((1 * 2 * 1 : Nat) : Int) [((1 : Nat) : Int), ((2 : Nat) : Int), ((1 : Nat) : Int)] ((1 : Nat) : Int) ((1 : Nat) : Int) .identity [] d = .ok (l0, d') := hb
    obtain ⟨hKX, hKY, hK, ns, info, h⟩ := buildLocally2D_inv (by omega) hb2
    have hwf := buildLocally2D_wf (by omega) hb2
    have key : ∀ z : F, _ := fun z => lc_outputs h (Or.inr rfl) (by omega) hwf hu [a, z] rfl t
    obtain ⟨l1, _, _, k1⟩ := key b
    obtain ⟨l2, _, _, k2⟩ := key b'
    refine ⟨_, l1, l2, k1 rfl, ?_⟩
    rw [k2 rfl]
    rfl
  · intro hne hw heq
    apply hne
    have := congrArg (fun l => l.getD 1 0) heq
    simp only [locally2D, Spec.ceil, at2D] at this
    simp [List.range_succ] at this
    rcases this with h | h
    · exact h
    · exact absurd h hw

end

/-! ### The hypotheses are met

Layers over ℚ built by the factory, then used once in training and once in inference; the conclusion of the theorems gives their outputs. -/

/-- The layer built from a description on a shape. -/
def built (m : LayerModel ℚ) (shape : List Int) (h : (buildLayer Demo.sgd m shape Demo.draws).isOk = true) : Layer ℚ :=
  ((buildLayer Demo.sgd m shape Demo.draws).get h).1

theorem built_eq (m : LayerModel ℚ) (shape : List Int) (h : (buildLayer Demo.sgd m shape Demo.draws).isOk = true) :
    ∃ d', buildLayer Demo.sgd m shape Demo.draws = .ok (built m shape h, d') := ⟨_, Res.eq_get _ h⟩

/-- A layer after a training pass: outputs, then errors sent back. -/
def passed (l : Layer ℚ) (x e : List ℚ) : Res (Layer ℚ) := do
  let (_, l1, _) ← l.outputForTraining x true Demo.draws
  let (_, l2) ← l1.backOutput e
  return l2

theorem passed_used {ni no : Nat} {l0 l l' : Layer ℚ} {x e : List ℚ} (hu : Used ni no l0 l) (hx : x.length = ni) (he : e.length = no)
    (h : passed l x e = .ok l') : Used ni no l0 l' := by
  unfold passed at h
  obtain ⟨⟨y, l1, d1⟩, h1, h⟩ := Res.bind_eq_ok.1 h
  obtain ⟨⟨y2, l2⟩, h2, h⟩ := Res.bind_eq_ok.1 h
  cases h
  exact .backOutput (.outputForTraining hu hx h1) he h2

/-- C35 on a layer of 2 neurons and 3 inputs after a training pass that changed its weights. -/
example : ∃ l, Used 3 2 (built (.fullyConnected 2 .identity []) [3] (by decide +kernel)) l ∧ l.body.weights ≠ (built (.fullyConnected 2 .identity []) [3] (by decide +kernel)).body.weights ∧
    Outputs l [1, 2, 3] true [] (fullyConnected Act.identity.obj.function 1 l.body.weights [1, 2, 3] 2) := by
  obtain ⟨d', hb⟩ := built_eq (.fullyConnected 2 .identity []) [3] (by decide +kernel)
  have hp := Res.eq_get (passed (built (.fullyConnected 2 .identity []) [3] (by decide +kernel)) [1, 2, 3] [1/2, -1]) (by decide +kernel)
  have hu := passed_used (no := 2) .new (show _ = 3 from rfl) rfl hp
  exact ⟨_, hu, by decide +kernel, C35_layer (ni := 3) (N := 2) rfl (by norm_num) hb hu [1, 2, 3] rfl true⟩

/-- C36: 2 channels, 4 positions, kernels of 3 positions, 2 filters. -/
example : ∃ l, Used 8 4 (built (.convolution 2 3 .relu []) [2, 4] (by decide +kernel)) l ∧
    Outputs l [1, 2, 3, 4, 5, 6, 7, 8] true [] (conv1D Act.relu.obj.function (1/1000) l.body.weights [1, 2, 3, 4, 5, 6, 7, 8] 2 4 3 2) := by
  obtain ⟨d', hb⟩ := built_eq (.convolution 2 3 .relu []) [2, 4] (by decide +kernel)
  have hp := Res.eq_get (passed (built (.convolution 2 3 .relu []) [2, 4] (by decide +kernel)) [1, 2, 3, 4, 5, 6, 7, 8] [1/2, -1, 1, 1]) (by decide +kernel)
  have hu := passed_used (no := 4) .new (show _ = 8 from rfl) rfl hp
  exact ⟨_, hu, C36_convolution1D (C := 2) (X := 4) (K := 3) (N := 2) (.channels 2 4) (by norm_num) hb hu _ rfl true⟩

/-- C37: 3 × 2 pixels, kernels of 2 × 2 pixels, 1 filter. -/
example : ∃ l, Used 6 2 (built (.convolution 1 2 .relu []) [1, 3, 2] (by decide +kernel)) l ∧
    Outputs l [1, 2, 3, 4, 5, 6] true [] (conv2D Act.relu.obj.function (1/1000) l.body.weights [1, 2, 3, 4, 5, 6] 1 3 2 2 1) := by
  obtain ⟨d', hb⟩ := built_eq (.convolution 1 2 .relu []) [1, 3, 2] (by decide +kernel)
  have hp := Res.eq_get (passed (built (.convolution 1 2 .relu []) [1, 3, 2] (by decide +kernel)) [1, 2, 3, 4, 5, 6] [1/2, -1]) (by decide +kernel)
  have hu := passed_used (no := 2) .new (show _ = 6 from rfl) rfl hp
  exact ⟨_, hu, C37_convolution2D (C := 1) (X := 3) (Y := 2) (K := 2) (N := 1) (by norm_num) hb hu _ rfl true⟩

/-- C38: 5 positions, kernels of 2 positions, 2 filters per tile; 3 × 3 pixels, kernels of 2 × 2. -/
example : ∃ l, Used 5 6 (built (.locallyConnected 2 2 .relu []) [5] (by decide +kernel)) l ∧
    Outputs l [1, 2, 3, 4, 5] true [] (locally1D Act.relu.obj.function (1/1000) l.body.weights [1, 2, 3, 4, 5] 1 5 2 2) := by
  obtain ⟨d', hb⟩ := built_eq (.locallyConnected 2 2 .relu []) [5] (by decide +kernel)
  have hp := Res.eq_get (passed (built (.locallyConnected 2 2 .relu []) [5] (by decide +kernel)) [1, 2, 3, 4, 5] [1/2, -1, 1, 2, 3, 4]) (by decide +kernel)
  have hu := passed_used (no := 6) .new (show _ = 5 from rfl) rfl hp
  exact ⟨_, hu, C38_locally1D (C := 1) (X := 5) (K := 2) (N := 2) (.positions 5) (by norm_num) hb hu _ rfl true⟩

example : ∃ l, Used 9 4 (built (.locallyConnected 1 2 .relu []) [1, 3, 3] (by decide +kernel)) l ∧
    Outputs l [1, 2, 3, 4, 5, 6, 7, 8, 9] true [] (locally2D Act.relu.obj.function (1/1000) l.body.weights [1, 2, 3, 4, 5, 6, 7, 8, 9] 1 3 3 2 1) := by
  obtain ⟨d', hb⟩ := built_eq (.locallyConnected 1 2 .relu []) [1, 3, 3] (by decide +kernel)
  have hp := Res.eq_get (passed (built (.locallyConnected 1 2 .relu []) [1, 3, 3] (by decide +kernel)) [1, 2, 3, 4, 5, 6, 7, 8, 9] [1/2, -1, 1, 2]) (by decide +kernel)
  have hu := passed_used (no := 4) .new (show _ = 9 from rfl) rfl hp
  exact ⟨_, hu, C38_locally2D_partial (C := 1) (X := 3) (Y := 3) (K := 2) (N := 1) (by norm_num) rfl hb hu _ rfl true⟩

/-- The refutation of C38: the layer is built. -/
example : (buildLayer Demo.sgd (.locallyConnected 1 1 .identity []) [1, 2, 1] Demo.draws).isOk = true := by decide +kernel

end Snn.LayerProps
