import Verif.Proofs.StructProofs
import Verif.Props.SafeProps
import Verif.Demo.DemoSave

/-!
# C68, C69: the structure of a network and its numbers of neurons and parameters
-/

set_option linter.all false

namespace Snn.StructProps

open Snn Snn.Spec HistoryProps

section
variable {F : Type} [Flt F] [FTrans F] [Add F] [Sub F] [Mul F] [Div F] [Neg F]

theorem sum32 : ∀ (l : List Nat) (a : Nat), a ≤ 2147483647 →
    (l.map fun v : Nat => (v : Int)).foldlM addI (a : Int) = ckInt ((a + l.sum : Nat) : Int)
  | [], a, h => by
    simp [ckInt]
    omega
  | v :: l, a, h => by
    rw [List.map_cons, List.foldlM_cons]
    by_cases hv : a + v ≤ 2147483647
    · have e : addI (a : Int) (v : Int) = .ok ((a + v : Nat) : Int) := by
        unfold addI ckInt
        rw [if_pos (by constructor <;> omega)]
        simp
      rw [e, Res.ok_bind, sum32 l (a + v) hv]
      congr 2
      simp [Nat.add_assoc]
    · have e : addI (a : Int) (v : Int) = .ub "signed integer overflow" := by
        unfold addI ckInt
        rw [if_neg (by omega)]
      rw [e]
      unfold ckInt
      rw [if_neg (by rw [List.sum_cons]; omega)]
      rfl

theorem layerIs_counts {opt : Sgd F} {m : LayerModel F} {s : List Nat} {l : Layer F} {s' : List Nat} (hf : Fits m s s') (h : LayerIs opt m s l) :
    l.body.weights.length = neuronsOf m s ∧ ∀ w ∈ l.body.weights, w.length = weightsOf m s := by
  obtain ⟨_, h⟩ := h
  cases m with
  | input => exact h.elim
  | fullyConnected n act opts =>
    obtain ⟨_, ns, h2, h3, h4⟩ := h
    rw [h2]
    refine ⟨by simp [Body.weights, neuronsOf]; omega, ?_⟩
    intro w hw
    obtain ⟨x, hx, rfl⟩ := List.mem_map.1 hw
    exact (h4 x hx).weights
  | recurrence n act opts =>
    obtain ⟨_, ns, h2, h3, h4⟩ := h
    rw [h2]
    refine ⟨by simp [Body.weights, neuronsOf]; omega, ?_⟩
    intro w hw
    obtain ⟨x, hx, rfl⟩ := List.mem_map.1 hw
    exact (h4 x hx).weights
  | gru n opts =>
    obtain ⟨_, ns, h2, h3, h4⟩ := h
    rw [h2]
    refine ⟨by simp [Body.weights, neuronsOf]; omega, ?_⟩
    intro w hw
    obtain ⟨x, hx, rfl⟩ := List.mem_map.1 hw
    obtain ⟨a, b, c⟩ := h4 x hx
    simp [Gru.getWeights, a.weights, b.weights, c.weights, weightsOf]
    omega
  | convolution f k act opts =>
    obtain ⟨_, kind, ns, info, h2, _, _, _, _, h3, h4⟩ := h
    rw [h2]
    refine ⟨by simp [Body.weights, neuronsOf]; omega, ?_⟩
    intro w hw
    obtain ⟨x, hx, rfl⟩ := List.mem_map.1 hw
    exact (h4 x hx).weights
  | locallyConnected f k act opts =>
    obtain ⟨_, kind, ns, info, h2, _, _, _, _, h3, h4⟩ := h
    rw [h2]
    refine ⟨by simp [Body.weights, h3], ?_⟩
    intro w hw
    obtain ⟨x, hx, rfl⟩ := List.mem_map.1 hw
    exact (h4 x hx).weights
  | maxPooling k =>
    obtain ⟨_, twoD, info, o, mvi, h2, _⟩ := h
    rw [h2]
    exact ⟨rfl, by simp [Body.weights]⟩

theorem sum_const : ∀ {l : List Nat} {w : Nat}, (∀ v ∈ l, v = w) → l.sum = l.length * w
  | [], w, _ => by simp
  | v :: l, w, h => by
    rw [List.sum_cons, sum_const (fun v hv => h v (by simp [hv])), h v (by simp)]
    simp [Nat.add_mul, Nat.add_comm]

theorem body_parameters (b : Body F) : b.parameters = b.weights.map fun w => (w.length : Int) := by
  cases b <;> simp [Body.parameters, Body.weights, Neuron.getNumberOfParameters, Neuron.getWeights, Gru.getNumberOfParameters,
    Gru.getWeights, List.map_map, Function.comp_def]
  intro a _
  omega

theorem layer_parameters {opt : Sgd F} {m : LayerModel F} {s s' : List Nat} {l : Layer F} (hf : Fits m s s') (h : LayerIs opt m s l) :
    l.getNumberOfNeurons = neuronsOf m s ∧ l.getNumberOfParameters = ckInt ((neuronsOf m s * weightsOf m s : Nat) : Int) := by
  obtain ⟨h1, h2⟩ := layerIs_counts hf h
  refine ⟨h1, ?_⟩
  have := sum32 (l.body.weights.map List.length) 0 (by omega)
  rw [List.map_map] at this
  unfold Layer.getNumberOfParameters
  rw [body_parameters]
  rw [show ((0 : Nat) : Int) = 0 from rfl] at this
  refine Eq.trans this ?_
  congr 2
  rw [Nat.zero_add, sum_const (w := weightsOf m s) (by
    intro v hv
    obtain ⟨w, hw, rfl⟩ := List.mem_map.1 hv
    exact h2 w hw)]
  simp [h1]

theorem fits_fun {m : LayerModel F} {s a b : List Nat} (h : Fits m s a) (h' : Fits m s b) : a = b := by
  cases h <;> cases h' <;> simp_all <;> omega

theorem net_parameters {opt : Sgd F} {ms : List (LayerModel F)} {s : List Nat} {ls : List (Layer F)} (h : NetIs opt ms s ls) :
    ∀ {n p : Nat} (hc : Counts ms s n p) (a : Nat), a ≤ 2147483647 →
    ls.foldlM (fun (sum : Int) (l : Layer F) => do
      let p ← l.getNumberOfParameters
      addI sum p) (a : Int) = ckInt ((a + p : Nat) : Int) := by
  induction h with
  | nil =>
    intro n p hc a ha
    cases hc
    simp [ckInt]
    omega
  | @cons m ms s s1 l ls hm hl ho hs ih =>
    intro n p hc a ha
    cases hc with
    | @cons _ _ _ s2 n p hm' hc =>
      cases fits_fun hm hm'
      rw [List.foldlM_cons, (layer_parameters hm hl).2]
      generalize neuronsOf m s * weightsOf m s = q
      by_cases hq : q ≤ 2147483647
      · have e : ckInt (q : Int) = .ok (q : Int) := by unfold ckInt; rw [if_pos (by omega)]
        rw [e, Res.ok_bind]
        by_cases hv : a + q ≤ 2147483647
        · have e : addI (a : Int) (q : Int) = .ok ((a + q : Nat) : Int) := by
            unfold addI ckInt
            rw [if_pos (by constructor <;> omega)]
            simp
          rw [e, Res.ok_bind, ih hc (a + q) hv]
          congr 2
          omega
        · have e : addI (a : Int) (q : Int) = .ub "signed integer overflow" := by
            unfold addI ckInt
            rw [if_neg (by omega)]
          rw [e]
          unfold ckInt
          rw [if_neg (by omega)]
          rfl
      · have e : ckInt (q : Int) = .ub "signed integer overflow" := by unfold ckInt; rw [if_neg (by omega)]
        rw [e]
        unfold ckInt
        rw [if_neg (by omega)]
        rfl

theorem net_neurons {opt : Sgd F} {ms : List (LayerModel F)} {s : List Nat} {ls : List (Layer F)} (h : NetIs opt ms s ls) :
    ∀ {n p : Nat} (hc : Counts ms s n p) (a : Nat), a + n ≤ 2147483647 →
    ls.foldlM (fun (sum : Int) (l : Layer F) => addI sum l.getNumberOfNeurons) (a : Int) = .ok ((a + n : Nat) : Int) := by
  induction h with
  | nil =>
    intro n p hc a ha
    cases hc
    rfl
  | @cons m ms s s1 l ls hm hl ho hs ih =>
    intro n p hc a ha
    cases hc with
    | @cons _ _ _ s2 n p hm' hc =>
      cases fits_fun hm hm'
      have e : addI (a : Int) (neuronsOf m s : Int) = .ok ((a + neuronsOf m s : Nat) : Int) := by
        unfold addI ckInt
        rw [if_pos (by constructor <;> omega)]
        simp
      rw [List.foldlM_cons, (layer_parameters hm hl).1, e, Res.ok_bind, ih hc _ (by omega)]
      congr 2
      omega

/-- A layer has at most as many neurons as outputs. -/
theorem neurons_le {m : LayerModel F} {s s' : List Nat} (h : Fits m s s') : neuronsOf m s ≤ s'.prod := by
  cases h <;> simp [neuronsOf]
  · exact Nat.le_mul_of_pos_right _ (by omega)
  · exact Nat.le_mul_of_pos_right _ (by omega)
  · exact Nat.le_mul_of_pos_right _ (Nat.mul_pos (by omega) (by omega))

theorem chain_counts {ms : List (LayerModel F)} {s s' : List Nat} (h : Chain ms s s') :
    ∃ n p, Counts ms s n p ∧ n ≤ ms.length * 999998 := by
  induction h with
  | nil hs => exact ⟨0, 0, .nil, by simp⟩
  | @cons m ms s s1 s2 hs hm hc ih =>
    obtain ⟨n, p, h1, h2⟩ := ih
    have hs1 : GoodShape s1 := by cases hc <;> assumption
    refine ⟨_, _, .cons hm h1, ?_⟩
    have := neurons_le hm
    have := hs1.small
    simp only [List.length_cons]
    omega

theorem counts_fun {ms : List (LayerModel F)} {s : List Nat} {n p n' p' : Nat} (h : Counts ms s n p) (h' : Counts ms s n' p') : n = n' ∧ p = p' := by
  induction h generalizing n' p' with
  | nil => cases h'; exact ⟨rfl, rfl⟩
  | cons hm hs ih =>
    cases h' with
    | cons hm' hs' =>
      cases fits_fun hm hm'
      obtain ⟨rfl, rfl⟩ := ih hs'
      exact ⟨rfl, rfl⟩

/-! ### Every network a program can hold -/

variable [FText F]

theorem Gru.forget_kin (g : Gru F) : g.Kin g.forget := ⟨rfl, Neuron.Kin.refl _, Neuron.Kin.refl _, Neuron.Kin.refl _⟩

theorem Layer.forget_kin (l : Layer F) : l.Kin l.forget := by
  unfold Layer.forget
  split
  · rename_i ns e
    refine ⟨rfl, rfl, ?_⟩
    rw [e]
    show List.Forall₂ Gru.Kin ns (ns.map Gru.forget)
    induction ns with
    | nil => exact .nil
    | cons g gs ih => exact .cons (Gru.forget_kin g) (by
        clear ih e
        induction gs with
        | nil => exact .nil
        | cons g gs ih => exact .cons (Gru.forget_kin g) ih)
  · exact Layer.Kin.refl l

/-- **C68**: every network a program can hold, made by the constructor from a well formed architecture and then used by any calls, copied,
saved and loaded, is made of the layers of the architecture: their kinds, sizes, kernels, layer optimizers, activations, biases and
numbers of weights, all with the optimizer of the network. -/
theorem C68_structure {arch : List (LayerModel F)} {sh sh' : List Nat} (hw : WellFormed arch sh sh') {s : Snn F} (h : Reach arch s) :
    NetIs s.net.optimizer arch.tail sh s.net.layers := by
  induction h with
  | make h =>
    unfold Snn.make at h
    obtain ⟨⟨net, d1⟩, h1, h⟩ := Res.bind_eq_ok.1 h
    obtain ⟨err, _, h⟩ := Res.bind_eq_ok.1 h
    split at h
    · cases h
    · cases h
      exact (Net.make_is hw h1).2
  | call _ h ih =>
    have k := Call.run_kin h
    rw [k.opt]
    exact ih.kin k.layers
  | stop _ ih => exact ih
  | copy hr h ih =>
    rw [Snn.copy_eq hr.set] at h
    cases h
    exact ih
  | load _ hf h ih =>
    rename_i s t path files _
    simp only [loadFrom, hf] at h
    obtain ⟨⟨t', a⟩, h1, h⟩ := Res.bind_eq_ok.1 h
    cases h
    rcases load_saved_or s with ⟨_, a', h2⟩ | ⟨_, m, h2⟩
    · rw [h2] at h1
      cases h1
      refine NetIs.kin ih ?_
      show List.Forall₂ Layer.Kin s.net.layers (s.net.layers.map Layer.forget)
      generalize s.net.layers = ls
      induction ls with
      | nil => exact .nil
      | cons l ls ih => exact .cons (Layer.forget_kin l) ih
    · rw [h2] at h1; cases h1

omit [FText F] in
/-- **C68**: no call changes the learning rate and the momentum the network was made with. -/
theorem C68_optimizer {arch : List (LayerModel F)} {opt : Sgd F} {d d' : Draws F} {s : Snn F} (hm : Snn.make arch opt d = .ok (s, d'))
    {calls : List (Call F)} {r r' : Run F} (hr : r.snn = s) (hrun : calls.foldlM Call.run r = .ok r') : r'.snn.net.optimizer = opt := by
  rw [(history_kin hrun).opt, hr]
  unfold Snn.make at hm
  obtain ⟨⟨net, d1⟩, h1, h⟩ := Res.bind_eq_ok.1 hm
  obtain ⟨err, _, h⟩ := Res.bind_eq_ok.1 h
  split at h
  · cases h
  · cases h
    unfold Net.make at h1
    obtain ⟨_, _, h1⟩ := Res.bind_eq_ok.1 h1
    obtain ⟨_, _, h1⟩ := Res.bind_eq_ok.1 h1
    cases h1
    rfl

/-- **C69**: every network a program can hold, of a well formed architecture, reports the number of layers after the input, the number of
inputs and the number of neurons of the architecture. -/
theorem C69_neurons {arch : List (LayerModel F)} {sh sh' : List Nat} (hw : WellFormed arch sh sh') {s : Snn F} (h : Reach arch s) {n p : Nat}
    (hc : Counts arch.tail sh n p) : s.net.getNumberOfLayers = (arch.length : Int) - 1 ∧ s.net.getNumberOfInputs = .ok (sh.prod : Int) ∧
      s.net.getNumberOfNeurons = .ok (n : Int) := by
  have hs := C68_structure hw h
  obtain ⟨m, rest, rfl, hch⟩ := hw.layers
  obtain ⟨n', p', hc', hle⟩ := chain_counts hch
  obtain ⟨rfl, rfl⟩ := counts_fun hc hc'
  have hcount := hw.count
  refine ⟨?_, ?_, ?_⟩
  · have : ∀ {ms : List (LayerModel F)} {s : List Nat} {ls : List (Layer F)} {o : Sgd F}, NetIs o ms s ls → ls.length = ms.length := by
      intro ms s ls o h
      induction h with
      | nil => rfl
      | cons _ _ _ _ ih => simp [ih]
    have := this hs
    unfold Net.getNumberOfLayers
    rw [this]
    simp
  · unfold Net.getNumberOfInputs
    generalize s.net.layers = ls at hs
    cases hs with
    | cons _ hl _ _ =>
      have := hl.1
      simp [rd, this]
  · have := net_neurons hs hc 0 (by simp at hcount hle; omega)
    unfold Net.getNumberOfNeurons
    simpa using this

/-- **C69, partial**: and the number of parameters of the architecture, while it fits in an `int`; beyond, the sum overflows. -/
theorem C69_parameters_partial {arch : List (LayerModel F)} {sh sh' : List Nat} (hw : WellFormed arch sh sh') {s : Snn F} (h : Reach arch s)
    {n p : Nat} (hc : Counts arch.tail sh n p) :
    s.net.getNumberOfParameters = if p ≤ 2147483647 then .ok (p : Int) else .ub "signed integer overflow" := by
  have := net_parameters (C68_structure hw h) hc 0 (by omega)
  unfold Net.getNumberOfParameters
  rw [show ((0 : Nat) : Int) = 0 from rfl] at this
  rw [this]
  unfold ckInt
  by_cases hp : p ≤ 2147483647
  · rw [if_pos hp, if_pos (by omega), Nat.zero_add]
  · rw [if_neg hp, if_neg (by omega)]

omit [FText F] in
/-- The numbers exist for every well formed architecture, and there is only one answer. -/
theorem C69_counts_exist {arch : List (LayerModel F)} {sh sh' : List Nat} (hw : WellFormed arch sh sh') :
    ∃! np : Nat × Nat, Counts arch.tail sh np.1 np.2 := by
  obtain ⟨m, rest, rfl, hch⟩ := hw.layers
  obtain ⟨n, p, hc, _⟩ := chain_counts hch
  refine ⟨(n, p), hc, ?_⟩
  rintro ⟨a, b⟩ h
  obtain ⟨rfl, rfl⟩ := counts_fun h hc
  rfl

end

/-! ### Non-vacuity and refutation -/

/-- 50000 inputs and a dense layer of 50000 neurons. -/
def wide (F : Type) : List (LayerModel F) := [.input [50000], .fullyConnected 50000 .sigmoid []]

theorem wide_wellFormed (F : Type) : WellFormed (wide F) [50000] [50000] where
  layers := by
    refine ⟨_, _, rfl, ?_⟩
    refine .cons ⟨by simp, by simp, by simp⟩ (.fullyConnected (n := 50000) (by norm_num)) ?_
    exact .nil ⟨by simp, by simp, by simp⟩
  count := by simp [wide]

/-- **C69 is false of large networks**: the constructor accepts 50000 inputs and a dense layer of 50000 neurons, whose number of parameters
does not fit in an `int`: `getNumberOfParameters` overflows. -/
theorem C69_parameters_refuted : ∃ (s : Snn ℝ) (d' : Draws ℝ), Snn.make (wide ℝ) { learningRate := 0.1, momentum := 0.5 } (fun _ => 0.5) = .ok (s, d') ∧
    s.net.getNumberOfParameters = .ub "signed integer overflow" := by
  obtain ⟨s, d', hm⟩ := ArchProps.C49_accepted_if (wide_wellFormed ℝ) (opt := { learningRate := 0.1, momentum := 0.5 })
    (by norm_num) (by norm_num) (by norm_num) (by norm_num) (d := fun _ => 0.5) (by intro i; norm_num)
  refine ⟨s, d', hm, ?_⟩
  have hc : Counts (wide ℝ).tail [50000] (50000 + 0) (50000 * 50001 + 0) := by
    have := Counts.cons (F := ℝ) (m := .fullyConnected 50000 .sigmoid []) (s := [50000]) (s' := [50000]) (.fullyConnected (n := 50000) (by norm_num)) .nil
    simpa [neuronsOf, weightsOf, wide] using this
  unfold Snn.make at hm
  obtain ⟨⟨net, d1⟩, h1, h⟩ := Res.bind_eq_ok.1 hm
  obtain ⟨err, _, h⟩ := Res.bind_eq_ok.1 h
  split at h
  · cases h
  · cases h
    have := net_parameters (Net.make_is (wide_wellFormed ℝ) h1).2 hc 0 (by omega)
    unfold Net.getNumberOfParameters
    refine Eq.trans this ?_
    decide

/-- The sample architecture of C59 (one layer of each kind) has 13 neurons and 76 parameters. -/
theorem sample_counts (F : Type) (half : F) : Counts (SafeProps.sample F half).tail [1, 5, 5] 13 76 := by
  have h := Counts.cons (F := F) (m := .convolution 2 2 .tanh []) (.convolution2D (f := 2) (k := 2) (c := 1) (x := 5) (y := 5) (by decide) (by decide) (by decide) (by decide)) <|
    .cons (m := .maxPooling 2) (.pool2D (k := 2) (c := 2) (x := 4) (y := 4) (by decide) (by decide) (by decide) (by decide)) <|
    .cons (m := .locallyConnected 1 1 .sigmoid [.dropout half]) (.locally2D (f := 1) (k := 1) (c := 2) (x := 2) (y := 2) (by decide) (by decide) (by decide) (by decide) (by decide)) <|
    .cons (m := .recurrence 3 .tanh []) (.recurrence (n := 3) (s := [1, 2, 2]) (by decide)) <|
    .cons (m := .gru 2 [.softmax]) (.gru (n := 2) (s := [3]) (by decide)) <|
    .cons (m := .fullyConnected 2 .sigmoid []) (.fullyConnected (n := 2) (s := [2]) (by decide)) .nil
  exact h

/-- The theorems apply to the recurrent network of the demo (3 neurons, 2 · 3 + 1 · 3 = 9 weights), also once trained. -/
example : ∃ n p, WellFormed Demo.recurrentArch [1] [1] ∧ Reach Demo.recurrentArch Demo.recurrent ∧ Reach Demo.recurrentArch Demo.trained.snn ∧
    Counts Demo.recurrentArch.tail [1] n p ∧ n = 3 ∧ p = 9 := by
  have h : Reach Demo.recurrentArch Demo.recurrent := .make (o := Demo.sgd) (d := Demo.draws) (Res.eq_get _ (by decide +kernel))
  refine ⟨_, _, ⟨⟨_, _, rfl, ?_⟩, by decide⟩, h, ?_, .cons (.recurrence (n := 2) (by decide)) (.cons (.fullyConnected (n := 1) (by decide)) .nil), rfl, rfl⟩
  · refine .cons ⟨by simp, by simp, by simp⟩ (.recurrence (n := 2) (by decide)) ?_
    refine .cons ⟨by simp, by simp, by simp⟩ (.fullyConnected (n := 1) (by decide)) ?_
    exact .nil ⟨by simp, by simp, by simp⟩
  · exact .call (c := .train Demo.env Demo.series (litEp 1) 1 1 50) (r := Demo.run Demo.recurrent Demo.series) h
      (Res.eq_get _ (by decide +kernel))

end Snn.StructProps
