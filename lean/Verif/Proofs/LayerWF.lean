import Verif.Proofs.LayerProofs

/-! The shape invariant of a layer, and that every operation of a well formed layer on vectors of the right size returns,
keeps the invariant and (in inference) the parameters. -/

set_option linter.all false

namespace Snn

section
variable {F : Type}

/-- Convolution layers: `K` rows of `size` indexes of the inputs, neurons with `K` memories. -/
structure ConvWF (ns : List (Neuron F)) (info : FilterInfo) (ni no : Nat) : Prop where
  rows : ∀ row ∈ info.kernelIndexes, row.length = info.sizeOfNeuronInputs.toNat ∧ ∀ i ∈ row, 0 ≤ i ∧ i < (ni : Int)
  neurons : ∀ n ∈ ns, n.WF info.sizeOfNeuronInputs.toNat (info.sizeOfNeuronInputs.toNat + 1) info.kernelIndexes.length
  pos : 0 < info.kernelIndexes.length
  kernels : info.numberOfKernels = no
  out : no = info.kernelIndexes.length * ns.length

/-- Locally connected layers: `K` rows of `size` indexes (negative: no input), one neuron per row and filter. -/
structure LcWF (kind : FKind) (ns : List (Neuron F)) (info : FilterInfo) (ni no : Nat) : Prop where
  rows : ∀ row ∈ info.kernelIndexes, row.length = info.sizeOfNeuronInputs.toNat ∧ ∀ i ∈ row, i < (ni : Int)
  neurons : ∀ n ∈ ns, n.WF info.sizeOfNeuronInputs.toNat (info.sizeOfNeuronInputs.toNat + 1) 1
  filters : 0 < info.numberOfFilters
  perFilter : info.numberOfKernelsPerFilter = info.kernelIndexes.length
  bound : (no : Int) ≤ 2147483647
  kernels : info.numberOfKernels = no
  count : ns.length = info.kernelIndexes.length * info.numberOfFilters.toNat
  out : no = ns.length

/-- Pooling layers: rows of `size` indexes (negative: no input), each with at least one input. -/
structure PoolWF (info : FilterInfo) (numberOfOutputs : Int) (mvi : List Int) (ni no : Nat) : Prop where
  rows : ∀ row ∈ info.kernelIndexes, row.length = info.sizeOfNeuronInputs.toNat ∧ (∀ i ∈ row, i < (ni : Int)) ∧ ∃ i ∈ row, 0 ≤ i
  kernels : info.numberOfKernels = no
  out : no = info.kernelIndexes.length
  outputs : numberOfOutputs = no
  mviLen : mvi.length = no
  max : ∀ m ∈ mvi, 0 ≤ m ∧ m < (ni : Int)

/-- The shape invariant of a layer with `ni` inputs and `no` outputs. -/
def Body.WF (b : Body F) (ni no : Nat) : Prop :=
  match b with
  | .fullyConnected ns => (∀ n ∈ ns, n.WF ni (ni + 1) 1) ∧ ns.length = no
  | .recurrence ns => (∀ n ∈ ns, n.WF ni 1) ∧ ns.length = no
  | .gru ns => (∀ n ∈ ns, n.WF ni 1) ∧ ns.length = no ∧ 0 < ni
  | .filter .conv1D ns info => ConvWF ns info ni no
  | .filter .conv2D ns info => ConvWF ns info ni no
  | .filter .lc1D ns info => LcWF .lc1D ns info ni no
  | .filter .lc2D ns info => LcWF .lc2D ns info ni no
  | .pool _ info numberOfOutputs mvi => PoolWF info numberOfOutputs mvi ni no

/-- The shape invariant of a layer: it has inputs and outputs, and its body fits. -/
structure Layer.WF (l : Layer F) (ni no : Nat) : Prop where
  inputs : l.numberOfInputs = ni
  body : l.body.WF ni no
  pos : 0 < no

/-- Two states of a layer body with the same parameters and structure: all neurons have the same weights, biases and
momentum memories; for pooling only the memory of the maxima may differ. -/
def Body.Same (b b' : Body F) : Prop :=
  match b, b' with
  | .fullyConnected ns, .fullyConnected ns' => List.Forall₂ Neuron.Same ns ns'
  | .recurrence ns, .recurrence ns' => List.Forall₂ RecNeuron.Same ns ns'
  | .gru ns, .gru ns' => List.Forall₂ Gru.Same ns ns'
  | .filter k ns info, .filter k' ns' info' => k' = k ∧ List.Forall₂ Neuron.Same ns ns' ∧ info' = info
  | .pool d info o mvi, .pool d' info' o' mvi' => d' = d ∧ info' = info ∧ o' = o ∧ mvi'.length = mvi.length
  | _, _ => False

theorem Body.Same.refl (b : Body F) : b.Same b := by
  cases b <;> simp only [Body.Same]
  · exact forall₂_refl Neuron.Same.refl _
  · exact forall₂_refl (fun n => Neuron.Same.refl n.base) _
  · exact forall₂_refl Gru.Same.refl _
  · exact ⟨trivial, forall₂_refl Neuron.Same.refl _, trivial⟩
  · simp

theorem Body.Same.trans {a b c : Body F} (h : a.Same b) (k : b.Same c) : a.Same c := by
  cases a <;> cases b <;> simp only [Body.Same] at h <;> cases c <;> simp only [Body.Same] at k ⊢
  · exact forall₂_trans (R := Neuron.Same) (fun _ _ _ a b => a.trans b) h k
  · exact forall₂_trans (R := RecNeuron.Same) (fun _ _ _ a b => Neuron.Same.trans a b) h k
  · exact forall₂_trans (R := Gru.Same) (fun _ _ _ a b => a.trans b) h k
  · exact ⟨k.1.trans h.1, forall₂_trans (R := Neuron.Same) (fun _ _ _ a b => a.trans b) h.2.1 k.2.1, k.2.2.trans h.2.2⟩
  · exact ⟨k.1.trans h.1, k.2.1.trans h.2.1, k.2.2.1.trans h.2.2.1, k.2.2.2.trans h.2.2.2⟩

/-- Two states of a layer with the same parameters and structure. -/
structure Layer.Same (l l' : Layer F) : Prop where
  inputs : l'.numberOfInputs = l.numberOfInputs
  optimizers : l'.optimizers = l.optimizers
  body : l.body.Same l'.body

theorem Layer.Same.refl (l : Layer F) : l.Same l := ⟨rfl, rfl, Body.Same.refl _⟩
theorem Layer.Same.trans {a b c : Layer F} (h : a.Same b) (k : b.Same c) : a.Same c :=
  ⟨k.1.trans h.1, k.2.trans h.2, h.3.trans k.3⟩

variable [Flt F] [FTrans F] [Add F] [Sub F] [Mul F] [Div F] [Neg F]

/-! ### computeOutput -/

theorem fillOutputs_ok {k : Int} {os : List F} (h : k = os.length) : fillOutputs k os = .ok os := by
  unfold fillOutputs
  rw [if_neg (by omega), if_neg (by omega), h]
  simp

theorem Body.computeOutput_ok {b : Body F} {ni no : Nat} (h : b.WF ni no) (x : List F) (hx : x.length = ni) (t : Bool) :
    ∃ out b', b.computeOutput x t = .ok (out, b') ∧ out.length = no ∧ b'.WF ni no := by
  cases b with
  | fullyConnected ns =>
    obtain ⟨h1, h2⟩ := h
    obtain ⟨ns', a, b⟩ := runNeurons_value (f := fun n : Neuron F => n.output x) (g := fun n => n.value x)
      (P := fun n n' => n'.WF ni (ni + 1) 1) (ns := ns) (fun n hn => by
        obtain ⟨n', k1, k2, _⟩ := Neuron.output_value (h1 n hn) x hx; exact ⟨n', k1, k2⟩)
    refine ⟨_, .fullyConnected ns', by simp only [Body.computeOutput, a]; rfl, by simp [h2], ?_, ?_⟩
    · intro n hn; obtain ⟨_, _, k⟩ := forall₂_mem_right b n hn; exact k
    · rw [← b.length_eq]; exact h2
  | recurrence ns =>
    obtain ⟨h1, h2⟩ := h
    obtain ⟨ys, ns', a, l, b⟩ := runNeurons_ok (f := fun n : RecNeuron F => n.output x t)
      (P := fun n n' => n'.WF ni 1) (ns := ns) (fun n hn => by
        obtain ⟨_, _, _, _, _, _, _, _, k1, k2⟩ := RecNeuron.output_ok (h1 n hn) x hx t; exact ⟨_, _, k1, k2⟩)
    refine ⟨_, .recurrence ns', by simp only [Body.computeOutput, a]; rfl, by simp [l, h2], ?_, ?_⟩
    · intro n hn; obtain ⟨_, _, k⟩ := forall₂_mem_right b n hn; exact k
    · rw [← b.length_eq]; exact h2
  | gru ns =>
    obtain ⟨h1, h2, h3⟩ := h
    obtain ⟨ys, ns', a, l, b⟩ := runNeurons_ok (f := fun n : Gru F => n.output x t)
      (P := fun n n' => n'.WF ni 1) (ns := ns) (fun n hn => by
        obtain ⟨_, _, k1, k2⟩ := Gru.output_ok (h1 n hn) x hx t; exact ⟨_, _, k1, k2⟩)
    refine ⟨_, .gru ns', by simp only [Body.computeOutput, a]; rfl, by simp [l, h2], ?_, ?_, h3⟩
    · intro n hn; obtain ⟨_, _, k⟩ := forall₂_mem_right b n hn; exact k
    · rw [← b.length_eq]; exact h2
  | filter kind ns info =>
    have hconv : ∀ (h : ConvWF ns info ni no), ∃ os ns', convOutputs x info.sizeOfNeuronInputs.toNat info.kernelIndexes ns = .ok (os, ns')
        ∧ os.length = no ∧ fillOutputs info.numberOfKernels os = .ok os ∧ ConvWF ns' info ni no := by
      intro h
      obtain ⟨ns', a, b, c⟩ := convOutputs_ok x (rows := info.kernelIndexes) (ns := ns) (by rw [hx]; exact h.rows) h.neurons
      have hl : (info.kernelIndexes.flatMap fun row => ns.map fun n => n.value (pick x row)).length = no := by
        rw [h.out, List.length_flatMap]; simp
      exact ⟨_, ns', a, hl, fillOutputs_ok (by rw [h.kernels, hl]), ⟨h.rows, c, h.pos, h.kernels, by rw [← b.length_eq]; exact h.out⟩⟩
    have hlc : ∀ (h : LcWF kind ns info ni no), ∃ os ns', lcOutputs x info.sizeOfNeuronInputs.toNat info.numberOfFilters.toNat
          info.kernelIndexes ns = .ok (os, ns')
        ∧ os.length = no ∧ fillOutputs info.numberOfKernels os = .ok os ∧ LcWF kind ns' info ni no := by
      intro h
      obtain ⟨os, ns', a, l, _, b, c⟩ := lcOutputs_ok x (rows := info.kernelIndexes) (ns := ns) (by rw [hx]; exact h.rows)
        h.neurons h.count
      have hl : os.length = no := by rw [l, h.out]
      exact ⟨_, ns', a, hl, fillOutputs_ok (by rw [h.kernels, hl]), ⟨h.rows, c, h.filters, h.perFilter, h.bound, h.kernels,
        by rw [← b.length_eq]; exact h.count, by rw [← b.length_eq]; exact h.out⟩⟩
    cases kind <;> simp only [Body.WF] at h
    · obtain ⟨os, ns', a, l, b, c⟩ := hconv h
      exact ⟨os, .filter .conv1D ns' info, by simp [Body.computeOutput, a, b], l, c⟩
    · obtain ⟨os, ns', a, l, b, c⟩ := hconv h
      exact ⟨os, .filter .conv2D ns' info, by simp [Body.computeOutput, a, b], l, c⟩
    · obtain ⟨os, ns', a, l, b, c⟩ := hlc h
      exact ⟨os, .filter .lc1D ns' info, by simp [Body.computeOutput, a, b], l, c⟩
    · obtain ⟨os, ns', a, l, b, c⟩ := hlc h
      exact ⟨os, .filter .lc2D ns' info, by simp [Body.computeOutput, a, b], l, c⟩
  | pool twoD info o mvi =>
    have h : PoolWF info o mvi ni no := h
    obtain ⟨os, ms, a, l1, l2, b⟩ := poolOutputs_ok x (size := info.sizeOfNeuronInputs.toNat) (rows := info.kernelIndexes)
      (by rw [hx]; exact h.rows)
    have hl : os.length = no := by rw [l1, h.out]
    have hm : ms.length = mvi.length := by rw [l2, h.mviLen, h.out]
    refine ⟨os, .pool twoD info o ms, ?_, hl, ⟨h.rows, h.kernels, h.out, h.outputs, by rw [hm, h.mviLen], by rw [← hx]; exact b⟩⟩
    simp only [Body.computeOutput, a, Res.ok_bind, fillOutputs_ok (show info.numberOfKernels = os.length by rw [h.kernels, hl])]
    rw [if_neg (by omega), List.drop_eq_nil_of_le (by omega)]
    simp

theorem convOutputs_same {x : List F} {size : Nat} : ∀ {rows : List (List Int)} {ns ns' : List (Neuron F)} {os : List F},
    convOutputs x size rows ns = .ok (os, ns') → List.Forall₂ Neuron.Same ns ns'
  | [], ns, ns', os, h => by cases h; exact forall₂_refl Neuron.Same.refl _
  | row :: rows, ns, ns', os, h => by
    unfold convOutputs at h
    obtain ⟨_, _, h⟩ := Res.bind_eq_ok.1 h
    obtain ⟨⟨_, ns1⟩, h1, h⟩ := Res.bind_eq_ok.1 h
    obtain ⟨⟨_, ns2⟩, h2, h⟩ := Res.bind_eq_ok.1 h
    cases h
    exact forall₂_trans (R := Neuron.Same) (fun _ _ _ a b => a.trans b)
      (runNeurons_inv (P := Neuron.Same) (fun n y n' h => Neuron.output_same h) h1).2 (convOutputs_same h2)

theorem lcOutputs_same {x : List F} {size filters : Nat} : ∀ {rows : List (List Int)} {ns ns' : List (Neuron F)} {os : List F},
    lcOutputs x size filters rows ns = .ok (os, ns') → List.Forall₂ Neuron.Same ns ns'
  | [], ns, ns', os, h => by cases h; exact forall₂_refl Neuron.Same.refl _
  | row :: rows, ns, ns', os, h => by
    unfold lcOutputs at h
    obtain ⟨_, _, h⟩ := Res.bind_eq_ok.1 h
    split at h
    · cases h
    obtain ⟨⟨_, ns1⟩, h1, h⟩ := Res.bind_eq_ok.1 h
    obtain ⟨⟨_, ns2⟩, h2, h⟩ := Res.bind_eq_ok.1 h
    cases h
    have := forall₂_append (runNeurons_inv (P := Neuron.Same) (fun n y n' h => Neuron.output_same h) h1).2 (lcOutputs_same h2)
    rwa [List.take_append_drop] at this

/-- Inference keeps the parameters of a layer, whatever its state and its input. -/
theorem Body.computeOutput_same {b b' : Body F} {x out : List F} {t : Bool} (h : b.computeOutput x t = .ok (out, b')) :
    b.Same b' := by
  cases b with
  | fullyConnected ns =>
    obtain ⟨⟨_, ns'⟩, h1, h⟩ := Res.bind_eq_ok.1 h
    cases h
    exact (runNeurons_inv (P := Neuron.Same) (fun n y n' h => Neuron.output_same h) h1).2
  | recurrence ns =>
    obtain ⟨⟨_, ns'⟩, h1, h⟩ := Res.bind_eq_ok.1 h
    cases h
    exact (runNeurons_inv (P := RecNeuron.Same) (fun n y n' h => RecNeuron.output_same h) h1).2
  | gru ns =>
    obtain ⟨⟨_, ns'⟩, h1, h⟩ := Res.bind_eq_ok.1 h
    cases h
    exact (runNeurons_inv (P := Gru.Same) (fun n y n' h => Gru.output_same h) h1).2
  | filter kind ns info =>
    obtain ⟨⟨_, ns'⟩, h1, h⟩ := Res.bind_eq_ok.1 h
    obtain ⟨_, _, h⟩ := Res.bind_eq_ok.1 h
    cases h
    refine ⟨rfl, ?_, rfl⟩
    cases kind <;> first | exact convOutputs_same h1 | exact lcOutputs_same h1
  | pool twoD info o mvi =>
    obtain ⟨⟨_, ms⟩, h1, h⟩ := Res.bind_eq_ok.1 h
    obtain ⟨_, _, h⟩ := Res.bind_eq_ok.1 h
    split at h
    · cases h
    · cases h
      refine ⟨rfl, rfl, rfl, ?_⟩
      simp; omega

/-! ### Backpropagation -/

theorem zeroErrors_ok (ni : Nat) : zeroErrors (F := F) (ni : Int) = .ok (List.replicate ni (lit 0)) := by
  unfold zeroErrors
  rw [if_neg (by omega)]
  simp

theorem lcRow_ok {kind : FKind} (hk : kind = .lc1D ∨ kind = .lc2D) {ns : List (Neuron F)} {info : FilterInfo} {ni no : Nat}
    (h : LcWF kind ns info ni no) (j : Nat) (hj : j < ns.length) :
    ∃ row, lcRow kind info j = .ok row ∧ row.length = info.sizeOfNeuronInputs.toNat ∧ ∀ k ∈ row, k < (ni : Int) := by
  have hf := h.filters
  have hpos : 0 < info.kernelIndexes.length := by
    by_contra hc
    have : info.kernelIndexes.length = 0 := by omega
    rw [h.count, this] at hj
    simp at hj
  have hjb : (j : Int) ≤ 2147483647 := by have := h.bound; have := h.out; omega
  rcases hk with rfl | rfl
  · have hb : j % info.kernelIndexes.length < info.kernelIndexes.length := Nat.mod_lt _ hpos
    have hm : modI (j : Int) info.numberOfKernelsPerFilter = .ok ((j % info.kernelIndexes.length : Nat) : Int) := by
      rw [h.perFilter]
      unfold modI
      rw [if_neg (by omega)]
      have e : (j : Int).tmod (info.kernelIndexes.length : Int) = ((j % info.kernelIndexes.length : Nat) : Int) := rfl
      rw [e]
      have := Nat.mod_le j info.kernelIndexes.length
      apply ckInt_ok <;> omega
    have hr := h.rows _ (List.getElem_mem hb)
    refine ⟨_, ?_, hr.1, hr.2⟩
    simp only [lcRow, hm, Res.ok_bind]
    rw [rd_nat _ _ hb]
  · obtain ⟨f, hfe⟩ := Int.eq_ofNat_of_zero_le (show 0 ≤ info.numberOfFilters by omega)
    have hf0 : 0 < f := by omega
    have hb : j / f < info.kernelIndexes.length := by
      rw [Nat.div_lt_iff_lt_mul hf0]
      have := h.count
      rw [hfe] at this
      simpa using this ▸ hj
    have hm : divI (j : Int) info.numberOfFilters = .ok ((j / f : Nat) : Int) := by
      rw [hfe]
      unfold divI
      have e : (j : Int).tdiv (f : Int) = ((j / f : Nat) : Int) := rfl
      rw [if_neg (by omega), e]
      have h1 := Nat.div_le_self j f
      generalize hq : j / f = q at h1
      exact ckInt_ok (x := (q : Int)) (by omega) (by omega)
    have hr := h.rows _ (List.getElem_mem hb)
    refine ⟨_, ?_, hr.1, hr.2⟩
    simp only [lcRow, hm, Res.ok_bind]
    rw [rd_nat _ _ hb]

theorem Body.computeBackOutput_ok {b : Body F} {ni no : Nat} (h : b.WF ni no) (es : List F) (hes : es.length = no) :
    ∃ r b', b.computeBackOutput (ni : Int) es = .ok (r, b') ∧ r.length = ni ∧ b'.WF ni no := by
  unfold Body.computeBackOutput
  simp only [zeroErrors_ok, Res.ok_bind]
  have hz : (List.replicate ni (lit 0 : F)).length = ni := by simp
  generalize List.replicate ni (lit 0 : F) = acc at hz
  cases b with
  | fullyConnected ns =>
    obtain ⟨h1, h2⟩ := h
    obtain ⟨ys, ns', a, l, b⟩ := backNeurons_ok (f := fun (n : Neuron F) e => n.backOutput e)
      (P := fun n n' => n'.WF ni (ni + 1) 1) (ni := ni) (ns := ns) (es := es) (acc := acc) (fun n hn e => by
        obtain ⟨y, n', k1, k2, k3, _⟩ := Neuron.backOutput_len (h1 n hn) e; exact ⟨y, n', k1, k2, k3⟩) (by omega) hz
    refine ⟨ys, .fullyConnected ns', by simp [a], l, ?_, ?_⟩
    · intro n hn; obtain ⟨_, _, k⟩ := forall₂_mem_right b n hn; exact k
    · rw [← b.length_eq]; exact h2
  | recurrence ns =>
    obtain ⟨h1, h2⟩ := h
    obtain ⟨ys, ns', a, l, b⟩ := backNeurons_ok (f := fun (n : RecNeuron F) e => n.backOutput e)
      (P := fun n n' => n'.WF ni 1) (ni := ni) (ns := ns) (es := es) (acc := acc) (fun n hn e => by
        obtain ⟨y, n', k1, k2, _, k3, _⟩ := RecNeuron.backOutput_ok (h1 n hn) e; exact ⟨y, n', k1, k3, k2⟩) (by omega) hz
    refine ⟨ys, .recurrence ns', by simp [a], l, ?_, ?_⟩
    · intro n hn; obtain ⟨_, _, k⟩ := forall₂_mem_right b n hn; exact k
    · rw [← b.length_eq]; exact h2
  | gru ns =>
    obtain ⟨h1, h2, h3⟩ := h
    obtain ⟨ys, ns', a, l, b⟩ := backNeurons_ok (f := fun (n : Gru F) e => n.backOutput e)
      (P := fun n n' => n'.WF ni 1) (ni := ni) (ns := ns) (es := es) (acc := acc) (fun n hn e => by
        obtain ⟨y, n', k1, k2, k3⟩ := Gru.backOutput_ok (h1 n hn) h3 e; exact ⟨y, n', k1, k3, k2⟩) (by omega) hz
    refine ⟨ys, .gru ns', by simp [a], l, ?_, ?_, h3⟩
    · intro n hn; obtain ⟨_, _, k⟩ := forall₂_mem_right b n hn; exact k
    · rw [← b.length_eq]; exact h2
  | filter kind ns info =>
    have hconv : ∀ (h : ConvWF ns info ni no), ∃ r ns', convBack info.kernelIndexes ns es acc = .ok (r, ns')
        ∧ r.length = ni ∧ ConvWF ns' info ni no := by
      intro h
      obtain ⟨r, ns', a, l, b⟩ := convBack_ok (rows := info.kernelIndexes) (ns := ns) (es := es) (acc := acc) h.rows
        (by rw [hes, h.out]) hz h.neurons
      exact ⟨r, ns', a, l, ⟨h.rows, fun n hn => by obtain ⟨_, _, k, _⟩ := forall₂_mem_right b n hn; exact k, h.pos, h.kernels,
        by rw [← b.length_eq]; exact h.out⟩⟩
    have hlc : ∀ (hk : kind = .lc1D ∨ kind = .lc2D) (h : LcWF kind ns info ni no), ∃ r ns', lcBack (lcRow kind info) 0 ns es acc = .ok (r, ns')
        ∧ r.length = ni ∧ LcWF kind ns' info ni no := by
      intro hk h
      obtain ⟨r, ns', a, l, b⟩ := lcBack_ok (rowOf := lcRow kind info) (ns := ns) (i := 0) (es := es) (acc := acc)
        (fun j _ hj => lcRow_ok hk h j (by omega)) (by rw [hes, h.out]) hz h.neurons
      exact ⟨r, ns', a, l, ⟨h.rows, fun n hn => by obtain ⟨_, _, k, _⟩ := forall₂_mem_right b n hn; exact k, h.filters,
        h.perFilter, h.bound, h.kernels, by rw [← b.length_eq]; exact h.count, by rw [← b.length_eq]; exact h.out⟩⟩
    cases kind <;> simp only [Body.WF] at h
    · obtain ⟨r, ns', a, l, c⟩ := hconv h
      exact ⟨r, .filter .conv1D ns' info, by simp [a], l, c⟩
    · obtain ⟨r, ns', a, l, c⟩ := hconv h
      exact ⟨r, .filter .conv2D ns' info, by simp [a], l, c⟩
    · obtain ⟨r, ns', a, l, c⟩ := hlc (Or.inl rfl) h
      exact ⟨r, .filter .lc1D ns' info, by simp [a], l, c⟩
    · obtain ⟨r, ns', a, l, c⟩ := hlc (Or.inr rfl) h
      exact ⟨r, .filter .lc2D ns' info, by simp [a], l, c⟩
  | pool twoD info o mvi =>
    have h : PoolWF info o mvi ni no := h
    obtain ⟨r, a, l⟩ := poolBack_ok (ms := mvi) (es := es) (acc := acc) (by rw [hes, h.mviLen]) (by rw [hz]; exact h.max)
    exact ⟨r, .pool twoD info o mvi, by simp [a], by omega, h⟩

theorem Body.computeTrain_ok {b : Body F} {ni no : Nat} (h : b.WF ni no) (es : List F) (hes : es.length = no) :
    ∃ b', b.computeTrain es = .ok b' ∧ b'.WF ni no := by
  unfold Body.computeTrain
  cases b with
  | fullyConnected ns =>
    obtain ⟨h1, h2⟩ := h
    obtain ⟨ns', a, b⟩ := trainNeurons_ok (f := fun (n : Neuron F) e => n.train e)
      (P := fun n n' => n'.WF ni (ni + 1) 1) (ns := ns) (es := es) (fun n hn e => by
        obtain ⟨n', k1, k2, _⟩ := Neuron.train_ok (h1 n hn) e; exact ⟨n', k1, k2⟩) (by omega)
    refine ⟨.fullyConnected ns', by simp [a], ?_, ?_⟩
    · intro n hn; obtain ⟨_, _, k⟩ := forall₂_mem_right b n hn; exact k
    · rw [← b.length_eq]; exact h2
  | recurrence ns =>
    obtain ⟨h1, h2⟩ := h
    obtain ⟨ns', a, b⟩ := trainNeurons_ok (f := fun (n : RecNeuron F) e => n.train e)
      (P := fun n n' => n'.WF ni 1) (ns := ns) (es := es) (fun n hn e => by
        obtain ⟨n', k1, k2, _⟩ := RecNeuron.train_ok (h1 n hn) e; exact ⟨n', k1, k2⟩) (by omega)
    refine ⟨.recurrence ns', by simp [a], ?_, ?_⟩
    · intro n hn; obtain ⟨_, _, k⟩ := forall₂_mem_right b n hn; exact k
    · rw [← b.length_eq]; exact h2
  | gru ns =>
    obtain ⟨h1, h2, h3⟩ := h
    obtain ⟨ns', a, b⟩ := trainNeurons_ok (f := fun (n : Gru F) e => n.train e)
      (P := fun n n' => n'.WF ni 1) (ns := ns) (es := es) (fun n hn e => by
        obtain ⟨n', k1, k2⟩ := Gru.train_ok (h1 n hn) h3 e; exact ⟨n', k1, k2⟩) (by omega)
    refine ⟨.gru ns', by simp [a], ?_, ?_, h3⟩
    · intro n hn; obtain ⟨_, _, k⟩ := forall₂_mem_right b n hn; exact k
    · rw [← b.length_eq]; exact h2
  | filter kind ns info =>
    have key : ∀ (size K : Nat), (∀ n ∈ ns, n.WF size (size + 1) K) → ns.length ≤ es.length →
        ∃ ns', trainNeurons (fun (n : Neuron F) e => n.train e) ns es = .ok ns' ∧ ns'.length = ns.length ∧
          ∀ n ∈ ns', n.WF size (size + 1) K := by
      intro size K hn hl
      obtain ⟨ns', a, b⟩ := trainNeurons_ok (f := fun (n : Neuron F) e => n.train e)
        (P := fun n n' => n'.WF size (size + 1) K) (ns := ns) (es := es) (fun n hn' e => by
          obtain ⟨n', k1, k2, _⟩ := Neuron.train_ok (hn n hn') e; exact ⟨n', k1, k2⟩) hl
      exact ⟨ns', a, b.length_eq.symm, fun n hn' => by obtain ⟨_, _, k⟩ := forall₂_mem_right b n hn'; exact k⟩
    have hconv : ∀ (h : ConvWF ns info ni no), ∃ ns', trainNeurons (fun (n : Neuron F) e => n.train e) ns es = .ok ns'
        ∧ ConvWF ns' info ni no := by
      intro h
      obtain ⟨ns', a, l, b⟩ := key _ _ h.neurons (by rw [hes, h.out]; exact Nat.le_mul_of_pos_left _ h.pos)
      exact ⟨ns', a, ⟨h.rows, b, h.pos, h.kernels, by rw [l]; exact h.out⟩⟩
    have hlc : ∀ (h : LcWF kind ns info ni no), ∃ ns', trainNeurons (fun (n : Neuron F) e => n.train e) ns es = .ok ns'
        ∧ LcWF kind ns' info ni no := by
      intro h
      obtain ⟨ns', a, l, b⟩ := key _ _ h.neurons (by rw [hes, h.out])
      exact ⟨ns', a, ⟨h.rows, b, h.filters, h.perFilter, h.bound, h.kernels, by rw [l]; exact h.count, by rw [l]; exact h.out⟩⟩
    cases kind <;> simp only [Body.WF] at h
    · obtain ⟨ns', a, c⟩ := hconv h
      exact ⟨.filter .conv1D ns' info, by simp [a], c⟩
    · obtain ⟨ns', a, c⟩ := hconv h
      exact ⟨.filter .conv2D ns' info, by simp [a], c⟩
    · obtain ⟨ns', a, c⟩ := hlc h
      exact ⟨.filter .lc1D ns' info, by simp [a], c⟩
    · obtain ⟨ns', a, c⟩ := hlc h
      exact ⟨.filter .lc2D ns' info, by simp [a], c⟩
  | pool twoD info o mvi => exact ⟨_, rfl, h⟩

/-! ### Hooks -/

theorem afterOutputForTesting_ok (o : LayerOpt F) {x : List F} (hx : 0 < x.length) :
    ∃ y, o.afterOutputForTesting x = .ok y ∧ y.length = x.length := by
  cases o with
  | softmax =>
    cases x with
    | nil => simp at hx
    | cons a l => exact ⟨_, rfl, by simp⟩
  | dropout => exact ⟨_, rfl, by simp⟩
  | _ => exact ⟨_, rfl, rfl⟩

theorem testingHooks_ok : ∀ (os : List (LayerOpt F)) {x : List F}, 0 < x.length →
    ∃ y, testingHooks os x = .ok y ∧ y.length = x.length
  | [], x, _ => ⟨x, rfl, rfl⟩
  | o :: os, x, hx => by
    obtain ⟨y, h1, h2⟩ := afterOutputForTesting_ok o hx
    obtain ⟨z, h3, h4⟩ := testingHooks_ok os (x := y) (by omega)
    exact ⟨z, by simp [testingHooks, h1, h3], by omega⟩

theorem applyMask_len : ∀ (xs : List F) (m : List Bool), (applyMask xs m).length = xs.length
  | [], m => by cases m <;> rfl
  | x :: xs, [] => rfl
  | x :: xs, b :: m => by simp [applyMask, applyMask_len xs m]

theorem afterOutputForTraining_ok (o : LayerOpt F) {x : List F} (hx : 0 < x.length) (t : Bool) (d : Draws F) :
    ∃ y o' d', o.afterOutputForTraining x t d = .ok (y, o', d') ∧ y.length = x.length := by
  cases o with
  | softmax =>
    cases x with
    | nil => simp at hx
    | cons a l => exact ⟨_, _, _, rfl, by simp⟩
  | dropout => exact ⟨_, _, _, rfl, by simp [applyMask_len]⟩
  | _ => exact ⟨_, _, _, rfl, rfl⟩

theorem trainingHooks_ok (t : Bool) : ∀ (os : List (LayerOpt F)) {x : List F} (d : Draws F), 0 < x.length →
    ∃ y os' d', trainingHooks t os x d = .ok (y, os', d') ∧ y.length = x.length
  | [], x, d, _ => ⟨x, [], d, rfl, rfl⟩
  | o :: os, x, d, hx => by
    obtain ⟨y, o', d1, h1, h2⟩ := afterOutputForTraining_ok o hx t d
    obtain ⟨z, os', d2, h3, h4⟩ := trainingHooks_ok t os (x := y) d1 (by omega)
    exact ⟨z, o' :: os', d2, by simp [trainingHooks, h1, h3], by omega⟩

theorem backHooks_length (ws : List (List F)) : ∀ (os : List (LayerOpt F)) (es : List F),
    (backHooks ws os es).length = es.length
  | [], es => rfl
  | o :: os, es => by
    have := backHooks_length ws os (o.beforeBackpropagation ws es)
    unfold backHooks at this ⊢
    rw [List.foldl_cons, this]
    cases o <;> simp [LayerOpt.beforeBackpropagation, applyMask_len]

/-! ### Layers -/

theorem Layer.output_ok {l : Layer F} {ni no : Nat} (h : l.WF ni no) (x : List F) (hx : x.length = ni) (t : Bool) :
    ∃ out l', l.output x t = .ok (out, l') ∧ out.length = no ∧ l'.WF ni no := by
  obtain ⟨o, b', h1, h2, h3⟩ := Body.computeOutput_ok h.body x hx t
  obtain ⟨y, h4, h5⟩ := testingHooks_ok l.optimizers (x := o) (by rw [h2]; exact h.pos)
  exact ⟨y, { l with body := b' }, by simp [Layer.output, h1, h4], by omega, ⟨h.inputs, h3, h.pos⟩⟩

theorem Layer.output_same {l l' : Layer F} {x out : List F} {t : Bool} (h : l.output x t = .ok (out, l')) : l.Same l' := by
  obtain ⟨⟨_, b⟩, h1, h⟩ := Res.bind_eq_ok.1 h
  obtain ⟨_, _, h⟩ := Res.bind_eq_ok.1 h
  cases h
  exact ⟨rfl, rfl, Body.computeOutput_same h1⟩

theorem Layer.outputForTraining_ok {l : Layer F} {ni no : Nat} (h : l.WF ni no) (x : List F) (hx : x.length = ni) (t : Bool)
    (d : Draws F) : ∃ out l' d', l.outputForTraining x t d = .ok (out, l', d') ∧ out.length = no ∧ l'.WF ni no := by
  obtain ⟨o, b', h1, h2, h3⟩ := Body.computeOutput_ok h.body x hx t
  obtain ⟨y, os, d', h4, h5⟩ := trainingHooks_ok t l.optimizers (x := o) d (by rw [h2]; exact h.pos)
  exact ⟨y, { l with body := b', optimizers := os }, d', by simp [Layer.outputForTraining, h1, h4], by omega, ⟨h.inputs, h3, h.pos⟩⟩

theorem Layer.backOutput_ok {l : Layer F} {ni no : Nat} (h : l.WF ni no) (es : List F) (hes : es.length = no) :
    ∃ r l', l.backOutput es = .ok (r, l') ∧ r.length = ni ∧ l'.WF ni no := by
  obtain ⟨r, b', h1, h2, h3⟩ := Body.computeBackOutput_ok h.body (backHooks l.body.weights l.optimizers es)
    (by rw [backHooks_length, hes])
  exact ⟨r, { l with body := b' }, by simp only [Layer.backOutput, h.inputs, h1]; rfl, h2, ⟨h.inputs, h3, h.pos⟩⟩

theorem Layer.train_ok {l : Layer F} {ni no : Nat} (h : l.WF ni no) (es : List F) (hes : es.length = no) :
    ∃ l', l.train es = .ok l' ∧ l'.WF ni no := by
  obtain ⟨b', h1, h3⟩ := Body.computeTrain_ok h.body (backHooks l.body.weights l.optimizers es)
    (by rw [backHooks_length, hes])
  exact ⟨{ l with body := b' }, by simp only [Layer.train, h1]; rfl, ⟨h.inputs, h3, h.pos⟩⟩

end

end Snn
