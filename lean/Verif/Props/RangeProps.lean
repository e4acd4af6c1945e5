import Verif.Proofs.RangeProofs
import Verif.Props.InferenceProps

/-!
# C72: the values a network returns
-/

set_option linter.all false

namespace Snn.RangeProps

open Snn Snn.Spec Snn.StatSpec HistoryProps

variable [FText ℝ]

theorem layer_promised {opt : Sgd ℝ} {m : LayerModel ℝ} {sh : List Nat} {l : Layer ℝ} {a : Act} {opts : List (LayerOptModel ℝ)}
    (hl : LayerIs opt m sh l) (hs : settings m = some (a, opts)) (hz : l.body.GruAll fun g => g.previousOutput = lit 0) {t : Bool} {x y : List ℝ} {b' : Body ℝ}
    (h : l.body.computeOutput x t = .ok (y, b')) : l.optimizers.map settingOf = opts ∧ ∀ v ∈ y, Promised a v := by
  obtain ⟨_, hl⟩ := hl
  cases m <;> simp only [settings] at hs <;> cases hs
  · obtain ⟨ho, ns, hb, _, hn⟩ := hl
    refine ⟨ho, ?_⟩
    rw [hb] at h
    simp only [Body.computeOutput] at h
    obtain ⟨⟨os, ns'⟩, h1, h⟩ := Res.bind_eq_ok.1 h
    cases h
    intro v hv
    obtain ⟨n, hm, n', h2⟩ := (runNeurons_out h1).2 v hv
    obtain ⟨⟨s, rfl⟩, _⟩ := Neuron.output_val h2
    rw [(hn n hm).activation]
    exact promised_function _ _
  · obtain ⟨ho, ns, hb, _, hn⟩ := hl
    refine ⟨ho, ?_⟩
    rw [hb] at h
    simp only [Body.computeOutput] at h
    obtain ⟨⟨os, ns'⟩, h1, h⟩ := Res.bind_eq_ok.1 h
    cases h
    intro v hv
    obtain ⟨n, hm, n', h2⟩ := (runNeurons_out h1).2 v hv
    obtain ⟨s, rfl⟩ := RecNeuron.output_val h2
    rw [(hn n hm).activation]
    exact promised_function _ _
  · obtain ⟨ho, ns, hb, _, hn⟩ := hl
    refine ⟨ho, ?_⟩
    rw [hb] at h hz
    simp only [Body.computeOutput] at h
    obtain ⟨⟨os, ns'⟩, h1, h⟩ := Res.bind_eq_ok.1 h
    cases h
    intro v hv
    obtain ⟨g, hm, g', h2⟩ := (runNeurons_out h1).2 v hv
    have hp : g.previousOutput = lit 0 := hz g hm
    obtain ⟨hr, hu, hg⟩ := hn g hm
    unfold Gru.output at h2
    obtain ⟨⟨o1, r1⟩, h3, h2⟩ := Res.bind_eq_ok.1 h2
    obtain ⟨⟨o2, r2⟩, h4, h2⟩ := Res.bind_eq_ok.1 h2
    obtain ⟨⟨o3, r3⟩, h5, h2⟩ := Res.bind_eq_ok.1 h2
    have e1 : (if t then g.reset else g).updateGate = g.updateGate := by cases t <;> rfl
    have e2 : (if t then g.reset else g).outputGate = g.outputGate := by cases t <;> rfl
    have e3 : (if t then g.reset else g).previousOutput = lit 0 := by cases t; exact hp; rfl
    simp only [e1, e2] at h4 h5
    obtain ⟨s2, rfl⟩ := RecNeuron.output_val h4
    obtain ⟨s3, rfl⟩ := RecNeuron.output_val h5
    rw [hu.activation] at h2
    simp only [hg.activation] at h2
    simp only [e3] at h2
    have p2 := promised_function .sigmoid s2
    have p3 := promised_function .tanh s3
    injection h2 with h2
    injection h2 with h2 _
    rw [← h2]
    simp only [lit_eq]
    push_cast
    rw [mul_zero, zero_add, mul_comm]
    exact promised_scale p3 p2.1 p2.2
  all_goals
    obtain ⟨ho, kind, ns, info, hb, hk, _, _, _, _, hn⟩ := hl
    refine ⟨ho, ?_⟩
    rw [hb] at h
    simp only [Body.computeOutput] at h
    obtain ⟨⟨os, ns'⟩, h1, h⟩ := Res.bind_eq_ok.1 h
    obtain ⟨r, h2, h⟩ := Res.bind_eq_ok.1 h
    cases h
    refine fillOutputs_all h2 (by simpa using promised_zero a) ?_
    have hn' : ∀ n ∈ ns, n.activationFunction = a := fun n hm => (hn n hm).activation
    cases kind <;> simp only at h1
    · exact convOutputs_all (promised_function a) h1 hn'
    · exact convOutputs_all (promised_function a) h1 hn'
    · exact lcOutputs_all (promised_function a) h1 hn'
    · exact lcOutputs_all (promised_function a) h1 hn'

theorem outputLoop_append {F : Type} [Flt F] [FTrans F] [Add F] [Sub F] [Mul F] [Div F] [Neg F] {t : Bool} : ∀ {ls ms ks : List (Layer F)} {x y : List F},
    outputLoop t (ls ++ ms) x = .ok (y, ks) → ∃ z ks1 ks2, outputLoop t ls x = .ok (z, ks1) ∧ outputLoop t ms z = .ok (y, ks2)
  | [], ms, ks, x, y, h => ⟨x, [], ks, rfl, h⟩
  | l :: ls, ms, ks, x, y, h => by
    rw [List.cons_append] at h
    unfold outputLoop at h
    obtain ⟨⟨y1, l1⟩, h1, h⟩ := Res.bind_eq_ok.1 h
    obtain ⟨⟨y2, ls1⟩, h2, h⟩ := Res.bind_eq_ok.1 h
    cases h
    obtain ⟨z, k1, k2, h3, h4⟩ := outputLoop_append h2
    exact ⟨z, l1 :: k1, k2, by unfold outputLoop; rw [h1]; simp [h3], h4⟩

theorem netIs_append {F : Type} [Flt F] {opt : Sgd F} : ∀ {pre : List (LayerModel F)} {m : LayerModel F} {sh : List Nat} {ls : List (Layer F)},
    NetIs opt (pre ++ [m]) sh ls → ∃ ls1 l sh1 sh2, ls = ls1 ++ [l] ∧ NetIs opt pre sh ls1 ∧ LayerIs opt m sh1 l ∧ Fits m sh1 sh2
  | [], m, sh, ls, h => by
    cases h with
    | cons hm hl ho hs => cases hs; exact ⟨[], _, sh, _, rfl, .nil, hl, hm⟩
  | p :: pre, m, sh, ls, h => by
    rw [List.cons_append] at h
    cases h with
    | cons hm hl ho hs =>
      obtain ⟨ls1, l, sh1, sh2, rfl, h1, h2, h3⟩ := netIs_append hs
      exact ⟨_ :: ls1, l, sh1, sh2, rfl, .cons hm hl ho h1, h2, h3⟩

theorem one_layer {F : Type} [Flt F] [FTrans F] [Add F] [Sub F] [Mul F] [Div F] [Neg F] {t : Bool} {l : Layer F} {ks : List (Layer F)} {x y : List F}
    (h : outputLoop t [l] x = .ok (y, ks)) : ∃ raw b', l.body.computeOutput x t = .ok (raw, b') ∧ testingHooks l.optimizers raw = .ok y := by
  unfold outputLoop at h
  obtain ⟨⟨y1, l1⟩, h1, h⟩ := Res.bind_eq_ok.1 h
  unfold outputLoop at h
  cases h
  unfold Layer.output at h1
  obtain ⟨⟨raw, b'⟩, h2, h1⟩ := Res.bind_eq_ok.1 h1
  obtain ⟨out, h3, h1⟩ := Res.bind_eq_ok.1 h1
  cases h1
  exact ⟨raw, b', h2, h3⟩

theorem loop_promised {opt : Sgd ℝ} {a : Act} {opts : List (LayerOptModel ℝ)} (ht : ∀ o ∈ opts, Tame o) {ms : List (LayerModel ℝ)}
    (he : EndsIn a opts ms) : ∀ {sh : List Nat} {ls ls' : List (Layer ℝ)} {t : Bool} {x y : List ℝ}, NetIs opt ms sh ls →
    (∀ l ∈ ls, l.body.GruAll fun g => g.previousOutput = lit 0) → (∀ l ∈ ls, ∀ o ∈ l.optimizers, Dropped o) →
    outputLoop t ls x = .ok (y, ls') → ∀ v ∈ y, Promised a v := by
  induction he with
  | @last pre m hs =>
    intro sh ls ls' t x y hi hz hd h
    obtain ⟨ls1, l, sh1, sh2, rfl, _, hl, _⟩ := netIs_append hi
    obtain ⟨z, k1, k2, _, h2⟩ := outputLoop_append h
    obtain ⟨raw, b', h3, h4⟩ := one_layer h2
    obtain ⟨ho, hp⟩ := layer_promised hl hs (hz l (by simp)) h3
    refine testingHooks_promised h4 ?_ (hd l (by simp)) hp
    intro o hm
    exact ht _ (ho ▸ List.mem_map.2 ⟨o, hm, rfl⟩)
  | @pool pre k he ih =>
    intro sh ls ls' t x y hi hz hd h
    obtain ⟨ls1, l, sh1, sh2, rfl, hpre, hl, _⟩ := netIs_append hi
    obtain ⟨z, k1, k2, h1, h2⟩ := outputLoop_append h
    have hzv := ih hpre (fun l hl => hz l (by simp [hl])) (fun l hl => hd l (by simp [hl])) h1
    obtain ⟨raw, b', h3, h4⟩ := one_layer h2
    obtain ⟨_, ho, twoD, info, o, mvi, hb, _⟩ := hl
    rw [ho] at h4
    cases h4
    rw [hb] at h3
    simp only [Body.computeOutput] at h3
    obtain ⟨⟨os, ms'⟩, h5, h3⟩ := Res.bind_eq_ok.1 h3
    obtain ⟨r, h6, h3⟩ := Res.bind_eq_ok.1 h3
    split at h3
    · cases h3
    · cases h3
      exact fillOutputs_all h6 (by simpa using promised_zero a) (fun v hv => hzv v (poolOutputs_mem h5 v hv))

theorem endsIn_tail {a : Act} {opts : List (LayerOptModel ℝ)} {s : List Int} {arch : List (LayerModel ℝ)} (he : EndsIn a opts (.input s :: arch)) :
    EndsIn a opts arch := by
  generalize hx : (LayerModel.input s :: arch) = ms at he
  induction he generalizing arch with
  | @last pre m hs =>
    cases pre with
    | nil => cases hx; cases hs
    | cons p pre => cases hx; exact .last hs
  | @pool pre k he ih =>
    cases pre with
    | nil => cases hx
    | cons p pre => cases hx; exact .pool (ih rfl)

/-- **C72** (exact real arithmetic): every value returned by `computeOutput`, on every input and after every history, by a network whose
last layer (poolings aside) has the activation sigmoid or Gaussian is in [0, 1], tanh (or a gated recurrent layer) in [-1, 1], ReLU not
negative; with any layer optimizers but Softmax, and dropout rates in [0, 1]. -/
theorem C72_range {arch : List (LayerModel ℝ)} {sh sh' : List Nat} (hw : WellFormed arch sh sh') {s : Snn ℝ} (h : Reach arch s)
    {a : Act} {opts : List (LayerOptModel ℝ)} (he : EndsIn a opts arch) (ht : ∀ o ∈ opts, Tame o) {x y : List ℝ} {t : Bool} {s' : Snn ℝ}
    (hc : s.computeOutput x t = .ok (y, s')) : ∀ v ∈ y, Promised a v := by
  have hi := StructProps.C68_structure hw h
  have hz := h.gruZero hw
  have hd := h.dropped hw
  obtain ⟨m, rest, rfl, _⟩ := hw.layers
  unfold Snn.computeOutput at hc
  obtain ⟨⟨o, n⟩, h1, hc⟩ := Res.bind_eq_ok.1 hc
  cases hc
  unfold Net.output at h1
  split at h1
  · cases h1
  obtain ⟨⟨o, n⟩, h2, h1⟩ := Res.bind_eq_ok.1 h1
  cases h1
  exact loop_promised ht (endsIn_tail he) hi hz hd h2

/-- **C72**, Softmax: when the last optimizer of the last layer is Softmax, the values returned by `computeOutput`, on every input and
after every history, are a probability distribution. -/
theorem C72_softmax {arch pre : List (LayerModel ℝ)} {sh sh' : List Nat} (hw : WellFormed arch sh sh') {s : Snn ℝ} (h : Reach arch s)
    {m : LayerModel ℝ} (harch : arch = pre ++ [m]) {a : Act} {opts : List (LayerOptModel ℝ)} (hm : settings m = some (a, opts ++ [.softmax]))
    {x y : List ℝ} {t : Bool} {s' : Snn ℝ} (hc : s.computeOutput x t = .ok (y, s')) : (∀ v ∈ y, 0 < v ∧ v ≤ 1) ∧ y.sum = 1 := by
  have hi := StructProps.C68_structure hw h
  have hz := h.gruZero hw
  obtain ⟨m0, rest, e0, _⟩ := hw.layers
  obtain ⟨pre', e1⟩ : ∃ pre', arch.tail = pre' ++ [m] := by
    rw [harch] at e0
    cases pre with
    | nil => cases e0
    | cons p pre => exact ⟨pre, by rw [harch]; rfl⟩
  rw [e1] at hi
  obtain ⟨ls1, l, sh1, sh2, e2, _, hl, _⟩ := netIs_append hi
  unfold Snn.computeOutput at hc
  obtain ⟨⟨o, n⟩, h1, hc⟩ := Res.bind_eq_ok.1 hc
  cases hc
  unfold Net.output at h1
  split at h1
  · cases h1
  obtain ⟨⟨o, n⟩, h2, h1⟩ := Res.bind_eq_ok.1 h1
  cases h1
  rw [e2] at h2
  obtain ⟨z, k1, k2, _, h2⟩ := outputLoop_append h2
  obtain ⟨raw, b', h3, h4⟩ := one_layer h2
  obtain ⟨ho, _⟩ := layer_promised hl hm (hz l (by rw [e2]; simp)) h3
  have split : ∃ os, l.optimizers = os ++ [.softmax] := by
    obtain ⟨l1, l2, e3, _, e5⟩ := List.map_eq_append_iff.1 ho
    refine ⟨l1, ?_⟩
    rw [e3]
    cases l2 with
    | nil => cases e5
    | cons o l2 =>
      cases l2 with
      | nil => cases o <;> simp_all [settingOf]
      | cons _ _ => simp at e5
  obtain ⟨os, e3⟩ := split
  have last : ∀ {os : List (LayerOpt ℝ)} {x : List ℝ}, testingHooks (os ++ [.softmax]) x = .ok y → ∃ r, computeSoftmax r = .ok y := by
    intro os
    induction os with
    | nil =>
      intro x h
      simp only [List.nil_append, testingHooks, LayerOpt.afterOutputForTesting] at h
      obtain ⟨r, h5, h⟩ := Res.bind_eq_ok.1 h
      cases h
      exact ⟨x, h5⟩
    | cons o os ih =>
      intro x h
      rw [List.cons_append] at h
      unfold testingHooks at h
      obtain ⟨r, _, h⟩ := Res.bind_eq_ok.1 h
      exact ih h
  rw [e3] at h4
  obtain ⟨r, h5⟩ := last h4
  have hne : r ≠ [] := by rintro rfl; cases h5
  obtain ⟨y', h6, _, h7, h8, _⟩ := LayerOptProps.C45_distribution hne
  rw [h6] at h5
  cases h5
  exact ⟨h7, h8⟩

/-- A class, for outputs above the initial value -2 of the search of the largest one. -/
theorem cluster_of {s s' : Snn ℝ} {x y : List ℝ} {t : Bool} (hc : s.computeOutput x t = .ok (y, s')) (hne : y ≠ []) (hv : ∀ v ∈ y, -2 < v) :
    ∃ k : Nat, s.computeCluster x t = .ok ((k : Int), s') ∧ k < y.length ∧ IsFirstArgmax y k := by
  obtain ⟨v, hm⟩ := List.exists_mem_of_ne_nil y hne
  obtain ⟨k, h1, h2⟩ := InferenceProps.C50_cluster_partial s s' x y t hc ⟨v, hm, hv v hm⟩
  refine ⟨k, h1, ?_, h2⟩
  obtain ⟨w, hw, _⟩ := h2
  exact (List.getElem?_eq_some_iff.1 hw).1

/-- **C72**, the class: a network whose last layer is made of neurons with one of these activations, or whose last layer ends with
Softmax, always answers `computeCluster` with a class, the first of the largest outputs (the code starts its search from -2). -/
theorem C72_cluster {arch pre : List (LayerModel ℝ)} {sh sh' : List Nat} (hw : WellFormed arch sh sh') {s : Snn ℝ} (h : Reach arch s)
    {m : LayerModel ℝ} (harch : arch = pre ++ [m]) {a : Act} {opts : List (LayerOptModel ℝ)} (hm : settings m = some (a, opts))
    (hk : (IsNeurons m ∧ a ∈ [Act.sigmoid, .gaussian, .tanh, .relu] ∧ ∀ o ∈ opts, Tame o) ∨ opts.getLast? = some .softmax)
    {x y : List ℝ} {t : Bool} {s' : Snn ℝ} (hc : s.computeOutput x t = .ok (y, s')) :
    ∃ k : Nat, s.computeCluster x t = .ok ((k : Int), s') ∧ k < y.length ∧ IsFirstArgmax y k := by
  rcases hk with ⟨hn, ha, ht⟩ | hs
  · have hp := C72_range hw h (harch ▸ EndsIn.last hm) ht hc
    refine cluster_of hc ?_ ?_
    · have hi := StructProps.C68_structure hw h
      obtain ⟨m0, rest, e0, _⟩ := hw.layers
      obtain ⟨pre', e1⟩ : ∃ pre', arch.tail = pre' ++ [m] := by
        rw [harch] at e0
        cases pre with
        | nil => cases e0
        | cons p pre => exact ⟨pre, by rw [harch]; rfl⟩
      rw [e1] at hi
      obtain ⟨ls1, l, sh1, sh2, e2, _, hl, hf⟩ := netIs_append hi
      unfold Snn.computeOutput at hc
      obtain ⟨⟨o, n⟩, h1, hc⟩ := Res.bind_eq_ok.1 hc
      cases hc
      unfold Net.output at h1
      split at h1
      · cases h1
      obtain ⟨⟨o, n⟩, h2, h1⟩ := Res.bind_eq_ok.1 h1
      cases h1
      rw [e2] at h2
      obtain ⟨z, k1, k2, _, h2⟩ := outputLoop_append h2
      obtain ⟨raw, b', h3, h4⟩ := one_layer h2
      have hraw : 0 < raw.length := by
        obtain ⟨_, hl⟩ := hl
        cases hf <;> simp only [IsNeurons] at hn
        all_goals
          obtain ⟨ho, ns, hb, hlen, _⟩ := hl
          rw [hb] at h3
          simp only [Body.computeOutput] at h3
          obtain ⟨⟨os, ns'⟩, h5, h3⟩ := Res.bind_eq_ok.1 h3
          cases h3
          have := (runNeurons_out h5).1
          show 0 < os.length
          omega
      obtain ⟨y', h6, h7⟩ := testingHooks_ok l.optimizers hraw
      rw [h6] at h4
      cases h4
      intro e
      rw [e] at h7
      simp at h7
      omega
    · intro v hv
      have := hp v hv
      simp only [List.mem_cons, List.not_mem_nil, or_false] at ha
      rcases ha with rfl | rfl | rfl | rfl <;> simp only [Promised] at this <;> first | linarith | linarith [this.1]
  · obtain ⟨opts', rfl⟩ : ∃ o, opts = o ++ [.softmax] := ⟨_, (List.dropLast_append_getLast? _ hs).symm⟩
    obtain ⟨h1, h2⟩ := C72_softmax hw h harch hm hc
    refine cluster_of hc ?_ (fun v hv => by linarith [(h1 v hv).1])
    rintro rfl
    simp at h2

/-! ### The hypotheses are met -/

/-- A network with a gated recurrent layer, a sigmoid and a dropout. -/
noncomputable def soft : List (LayerModel ℝ) := [.input [2], .gru 3 [], .fullyConnected 2 .sigmoid [.dropout (1/2), .l2 (1/10)]]

theorem soft_wf : WellFormed soft [2] [2] :=
  ⟨⟨_, _, rfl, .cons ⟨by simp, by simp, by simp⟩ (.gru (n := 3) (by omega)) (.cons ⟨by simp, by simp, by simp⟩ (.fullyConnected (n := 2) (by omega))
    (.nil ⟨by simp, by simp, by simp⟩))⟩, by simp [soft]⟩

/-- Made, used, and asked for an output: the hypotheses of `C72_range` and `C72_cluster` hold of such a network. -/
theorem soft_witness : ∃ (s s' : Snn ℝ) (y : List ℝ), Reach soft s ∧ s.computeOutput [3, -5] false = .ok (y, s') ∧ y.length = 2 ∧
    EndsIn .sigmoid [.dropout (1/2), .l2 (1/10)] soft ∧ (∀ o ∈ [LayerOptModel.dropout (1/2 : ℝ), .l2 (1/10)], Tame o) := by
  obtain ⟨s, d', h⟩ := ArchProps.C49_accepted_if soft_wf (opt := { learningRate := 1/10, momentum := 1/2 }) (by norm_num) (by norm_num) (by norm_num)
    (by norm_num) (d := fun _ => 1/3) (by intro i; norm_num)
  obtain ⟨hn, hi⟩ := SafeProps.make_safe soft_wf (by simp [EndsWithNeurons, soft]) h
  obtain ⟨y, net, h1, h2, h3, h4⟩ := Net.output_ok hn.wf [3, -5] rfl false
  refine ⟨s, _, y, .make h, by simp [Snn.computeOutput, h1]; rfl, by simpa using h2, ?_, ?_⟩
  · exact .last (pre := [.input [2], .gru 3 []]) rfl
  · intro o ho
    simp only [List.mem_cons, List.not_mem_nil, or_false] at ho
    rcases ho with rfl | rfl
    · constructor <;> norm_num
    · trivial

end Snn.RangeProps
