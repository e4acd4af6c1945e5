import Verif.Proofs.SafeProofs
import Verif.Props.ArchProps

/-!
# C34 and C59: no call on a well formed network goes wrong
-/

set_option linter.all false

namespace Snn.SafeProps

open Snn.Spec Snn.HistoryProps

section
variable {F : Type} [Flt F] [FTrans F] [Add F] [Sub F] [Mul F] [Div F] [Neg F]

/-- The call fits a network of `ni` inputs and `no` outputs: vectors of the right size, fitted data, an acceptable batch size, and
for `train` a criterion that is over from some epoch on (with enough `fuel` for the loops of the model to reach it). -/
def CallFits (ni no : Nat) : Call F → Prop
  | .computeOutput x _ => x.length = ni
  | .computeCluster x _ => x.length = ni
  | .evaluate _ data => Fitted ni no data
  | .train _ data wait b _ fuel => Fitted ni no data ∧ 1 ≤ b ∧ b ≤ data.training.size ∧ (b ≠ 1 → data.typeOfTemporal = .nonTemporal) ∧
      ∃ E, OverFrom wait E ∧ E ≤ fuel ∧ data.training.size + 2 ≤ fuel
  | .saveAs _ => True
  | .autoSave _ _ => True

theorem make_safe {arch : List (LayerModel F)} {s s' : List Nat} (h : WellFormed arch s s') (he : EndsWithNeurons arch) {opt : Sgd F}
    {d d' : Draws F} {snn : Snn F} (hm : Snn.make arch opt d = .ok (snn, d')) : SafeNet s.prod s'.prod snn.net ∧ snn.isIdle = true := by
  obtain ⟨⟨net, d1⟩, h1, hm⟩ := Res.bind_eq_ok.1 hm
  obtain ⟨err, h2, hm⟩ := Res.bind_eq_ok.1 hm
  split at hm
  · cases hm
  cases hm
  obtain ⟨⟨ls, d2⟩, h3, h1⟩ := Res.bind_eq_ok.1 h1
  obtain ⟨last, h4, h1⟩ := Res.bind_eq_ok.1 h1
  cases h1
  obtain ⟨ls2, d3, hb, hw, hlen, hne⟩ := factory_ok opt h d
  rw [h3] at hb
  cases hb
  have hlast : ∀ l, ls.getLast? = some l → l.body.Neuronal := by
    obtain ⟨m, rest, rfl, hc⟩ := h.layers
    have hcount := h.count
    unfold LayerFactory.build at h3
    rw [if_neg (by simp at hcount ⊢; omega)] at h3
    simp only at h3
    rw [if_neg (by simp), computeNumberOfInputs_ok (chain_good hc)] at h3
    simp only [Res.ok_bind] at h3
    rw [if_neg (by have := (chain_good hc).small; omega)] at h3
    refine buildLayers_last h3 ?_
    intro m' hm'
    unfold EndsWithNeurons at he
    rw [List.getLast?_cons_cons, hm'] at he
    constructor
    · rintro f k a o rfl; exact he
    · rintro k rfl; exact he
  obtain ⟨l, k, hl1, hl2⟩ := hw.getLast hne
  have hbo := backOf_eq hl1
  rw [hbo] at h4
  cases h4
  exact ⟨⟨⟨hw, hne, hlast⟩, by simp [Stats.init, hl2.neurons (hlast _ hl1)]⟩, rfl⟩

/-- What every call keeps. -/
theorem call_safe {ni no : Nat} {c : Call F} (hc : CallFits ni no c) {r : Run F} (hn : SafeNet ni no r.snn.net) (hi : r.snn.isIdle = true) :
    ∃ r', c.run r = .ok r' ∧ SafeNet ni no r'.snn.net ∧ r'.snn.isIdle = true := by
  cases c with
  | computeOutput x t =>
    obtain ⟨y, net, h1, h2, h3, h4⟩ := Net.output_ok hn.wf x hc t
    refine ⟨{ r with snn := { r.snn with net := net } }, ?_, ⟨h3, by simp only [h4]; exact hn.clusters⟩, hi⟩
    simp [Call.run, Snn.computeOutput, h1]
  | computeCluster x t =>
    obtain ⟨y, net, h1, h2, h3, h4⟩ := Net.output_ok hn.wf x hc t
    refine ⟨{ r with snn := { r.snn with net := net } }, ?_, ⟨h3, by simp only [h4]; exact hn.clusters⟩, hi⟩
    simp [Call.run, Snn.computeCluster, h1]
  | evaluate env data =>
    obtain ⟨r', h1, h2, h3⟩ := evaluate_safe (r := { r with data := data }) env hn hc.safe
    refine ⟨r', h1, h2, ?_⟩
    rcases h3.flags with h | h
    · rw [h.2]; exact hi
    · exact h.2.2
  | train env data wait b ef fuel =>
    obtain ⟨hd, b1, b2, b3, E, hE, f1, f2⟩ := hc
    rcases train_safe (r := { r with data := data }) (env := env) (wait := wait) (ef := ef) (fuel := fuel) hn hd.safe b1 b2 b3 hi with ⟨r', h1, h2, _, h3⟩ | ⟨h1, _⟩
    · exact ⟨r', h1, h2, h3⟩
    · exfalso
      rcases h1 with h1 | h1
      · simp only at h1; omega
      · rcases h1 E hE with h | h <;> omega
  | saveAs path =>
    refine ⟨r.saveSync path, ?_, hn, hi⟩
    simp [Call.run, Run.saveAs, hi]
  | autoSave w path => exact ⟨_, rfl, hn, hi⟩

/-- **C59**, every arithmetic (NaN included): on a network made from a well formed architecture that ends with neurons, every
history of fitting calls — inferences, evaluations, trainings whatever the data, batch size, criterion, clock and draws, saves —
returns: no exception, no access out of bounds, no division of integers by zero, and the network is idle at the end. -/
theorem C59_histories_return {arch : List (LayerModel F)} {s s' : List Nat} (h : WellFormed arch s s') (he : EndsWithNeurons arch)
    {opt : Sgd F} {d d' : Draws F} {snn : Snn F} (hm : Snn.make arch opt d = .ok (snn, d')) (calls : List (Call F))
    (hc : ∀ c ∈ calls, CallFits s.prod s'.prod c) (r : Run F) (hr : r.snn = snn) :
    ∃ r', calls.foldlM Call.run r = .ok r' ∧ r'.snn.isIdle = true := by
  obtain ⟨hn, hi⟩ := make_safe h he hm
  rw [← hr] at hn hi
  clear hm hr
  induction calls generalizing r with
  | nil => exact ⟨r, rfl, hi⟩
  | cons c cs ih =>
    obtain ⟨r1, h1, h2, h3⟩ := call_safe (hc c (by simp)) hn hi
    obtain ⟨r2, h4, h5⟩ := ih (fun c' hc' => hc c' (by simp [hc'])) r1 h2 h3
    exact ⟨r2, by rw [List.foldlM_cons, h1]; exact h4, h5⟩

/-- **C59**, without a criterion that ends: whatever the criterion and the number of iterations, training a well formed network on
fitted data either returns or is still running; it never throws and never goes wrong. -/
theorem C59_training_is_safe {arch : List (LayerModel F)} {s s' : List Nat} (h : WellFormed arch s s') (he : EndsWithNeurons arch)
    {opt : Sgd F} {d d' : Draws F} {snn : Snn F} (hm : Snn.make arch opt d = .ok (snn, d')) (env : Env F) (wait : Wait F) (b ef : Int)
    (fuel : Nat) (r : Run F) (hr : r.snn = snn) (hd : Fitted s.prod s'.prod r.data) (hb : 1 ≤ b) (hb2 : b ≤ r.data.training.size)
    (hb3 : b ≠ 1 → r.data.typeOfTemporal = .nonTemporal) :
    (∃ r', r.train env wait b ef fuel = .ok r') ∨ r.train env wait b ef fuel = .ub "out of fuel" := by
  obtain ⟨hn, hi⟩ := make_safe h he hm
  rw [← hr] at hn hi
  rcases train_safe (env := env) (wait := wait) (ef := ef) (fuel := fuel) hn hd.safe hb hb2 hb3 hi with ⟨r', h1, _⟩ | ⟨_, h1⟩
  · exact Or.inl ⟨r', h1⟩
  · exact Or.inr h1

/-- **C34**, proved part: for every well formed architecture whose last layer is not a convolution nor a pooling, after every
history of fitting calls, `computeOutput` on an input of the declared size returns exactly `getNumberOfOutputs()` values, and this
number is the product of the shape of the last layer. Missing: last layers that are convolutions or poolings, for which it is
false (`C34_convolution_refuted`, `C34_pooling_refuted`). -/
theorem C34_outputs_partial {arch : List (LayerModel F)} {s s' : List Nat} (h : WellFormed arch s s') (he : EndsWithNeurons arch)
    {opt : Sgd F} {d d' : Draws F} {snn : Snn F} (hm : Snn.make arch opt d = .ok (snn, d')) (calls : List (Call F))
    (hc : ∀ c ∈ calls, CallFits s.prod s'.prod c) (r r' : Run F) (hr : r.snn = snn) (hrun : calls.foldlM Call.run r = .ok r')
    (x : List F) (t : Bool) (hx : r'.snn.net.getNumberOfInputs = .ok (x.length : Int)) :
    ∃ y snn', r'.snn.computeOutput x t = .ok (y, snn') ∧ r'.snn.net.getNumberOfOutputs = .ok (y.length : Int) ∧ y.length = s'.prod := by
  obtain ⟨hn, hi⟩ := make_safe h he hm
  rw [← hr] at hn hi
  clear hm hr
  induction calls generalizing r with
  | nil =>
    cases hrun
    rw [hn.wf.numberOfInputs] at hx
    have hx' : x.length = s.prod := by
      injection hx with hx
      exact_mod_cast hx.symm
    obtain ⟨y, net, h1, h2, h3, h4⟩ := Net.output_ok hn.wf x hx' t
    exact ⟨y, _, by simp [Snn.computeOutput, h1]; rfl, by rw [hn.wf.numberOfOutputs, h2], h2⟩
  | cons c cs ih =>
    obtain ⟨r1, h1, h2, h3⟩ := call_safe (hc c (by simp)) hn hi
    rw [List.foldlM_cons, h1] at hrun
    exact ih (fun c' hc' => hc c' (by simp [hc'])) r1 hrun h2 h3

end

/-! ### Non-vacuity and refutations -/

/-- A literal `n_ep` is over from the epoch n + 1 on. -/
theorem overFrom_ep {F : Type} [Flt F] (n : Nat) (hn : n < 2 ^ 31) : OverFrom (litEp n : Wait F) (n + 1) := by
  have e : toInt32 n = (n : Int) := by unfold toInt32; rw [Int.bmod_eq_of_le] <;> omega
  intro t ep a m h
  have h1 : decide (ep > (n : Int)) = true := by simp; omega
  have h2 : decide (ep > 0) = true := by simp; omega
  unfold Wait.isOver litEp Wait.default
  simp [e]
  omega

/-- A well formed architecture with one layer of each kind: 5 × 5 inputs, a convolution with 2 filters, a pooling, a locally
connected layer with Dropout, a recurrent, a gated recurrent and a dense layer. -/
def sample (F : Type) (half : F) : List (LayerModel F) :=
  [.input [1, 5, 5], .convolution 2 2 .tanh [], .maxPooling 2, .locallyConnected 1 1 .sigmoid [.dropout half], .recurrence 3 .tanh [],
    .gru 2 [.softmax], .fullyConnected 2 .sigmoid []]

theorem sample_wellFormed (F : Type) (half : F) : WellFormed (sample F half) [1, 5, 5] [2] where
  layers := by
    refine ⟨_, _, rfl, ?_⟩
    have g : ∀ s : List Nat, s ≠ [] → (∀ v ∈ s, 0 < v) → s.prod ≤ 999998 → GoodShape s := fun s a b c => ⟨a, b, c⟩
    refine .cons (g _ (by simp) (by simp) (by simp)) (.convolution2D (by decide) (by decide) (by decide) (by decide)) ?_
    refine .cons (g _ (by simp) (by simp) (by simp)) (.pool2D (by decide) (by decide) (by decide) (by decide)) ?_
    refine .cons (g _ (by simp) (by decide) (by decide)) (.locally2D (by decide) (by decide) (by decide) (by decide) (by decide)) ?_
    refine .cons (g _ (by simp) (by decide) (by decide)) (.recurrence (by decide)) ?_
    refine .cons (g _ (by simp) (by simp) (by simp)) (.gru (by decide)) ?_
    refine .cons (g _ (by simp) (by simp) (by simp)) (.fullyConnected (by decide)) ?_
    exact .nil (g _ (by simp) (by simp) (by simp))
  count := by simp [sample]

/-- The hypotheses of C59 and C34 are met: the sample architecture is accepted and a call of `train` for 3 epochs, with batches of
2, on three examples of a regression, returns. -/
example : ∃ (snn : Snn ℝ) (d' : Draws ℝ), Snn.make (sample ℝ (1/2)) { learningRate := 0.1, momentum := 0.5 } (fun _ => 0.5) = .ok (snn, d') ∧
    ∃ data : Data ℝ, Data.make1 .regression [List.replicate 25 1, List.replicate 25 2, List.replicate 25 3] [[0, 1], [1, 0], [1, 1]] .nonTemporal 0 = .ok data ∧
    ∀ (env : Env ℝ) (r : Run ℝ), r.snn = snn → ∃ r', [Call.train env data (litEp 3) 2 1 10, .computeOutput (List.replicate 25 1) true].foldlM Call.run r = .ok r' := by
  obtain ⟨snn, d', hm⟩ := ArchProps.C49_accepted_if (sample_wellFormed ℝ (1/2)) (opt := { learningRate := 0.1, momentum := 0.5 })
    (by norm_num) (by norm_num) (by norm_num) (by norm_num) (d := fun _ => 0.5) (by intro i; norm_num)
  refine ⟨snn, d', hm, _, rfl, ?_⟩
  intro env r hr
  obtain ⟨r', h1, _⟩ := C59_histories_return (sample_wellFormed ℝ (1/2)) (by simp [EndsWithNeurons, sample]) hm
    [Call.train env _ (litEp 3) 2 1 10, .computeOutput (List.replicate 25 1) true] (by
      intro c hc
      rcases List.mem_cons.1 hc with rfl | hc
      · refine ⟨.make1 (p := .regression) (ti := [List.replicate 25 1, List.replicate 25 2, List.replicate 25 3]) (tl := [[0, 1], [1, 0], [1, 1]])
          (nat := .nonTemporal) (rec := 0) rfl ⟨rfl, ?_, ?_⟩ (by intro h; cases h) (by intro h; cases h), by norm_num, by decide, fun _ => rfl, 4,
          overFrom_ep 3 (by norm_num), by norm_num, by decide⟩
        · intro r hr; simp at hr; rcases hr with rfl | rfl | rfl <;> simp
        · intro r hr; simp at hr; rcases hr with rfl | rfl | rfl <;> simp
      · simp at hc; subst hc
        show (List.replicate 25 (1 : ℝ)).length = _
        simp) r hr
  exact ⟨r', h1⟩

/-- **C34 is false when the last layer is a convolution**: on 3 inputs, a convolution with 1 filter of kernel 2 gives 2 values, but
`getNumberOfOutputs()` is the number of filters, 1. -/
theorem C34_convolution_refuted :
    (do
      let (s, _) ← Snn.make [.input [3], .convolution 1 2 .identity []] { learningRate := lit (1/10), momentum := lit 0 } (fun _ => lit 1 : Draws NF)
      let (y, _) ← s.computeOutput [lit 1, lit 2, lit 3] true
      let n ← s.net.getNumberOfOutputs
      return (y.length, n)) = .ok (2, 1) := by
  decide +kernel

/-- **C34 is false when the last layer is a pooling**: it gives 2 values but `getNumberOfOutputs()` is 0. -/
theorem C34_pooling_refuted :
    (do
      let (s, _) ← Snn.make [.input [4], .fullyConnected 4 .identity [], .maxPooling 2] { learningRate := lit (1/10), momentum := lit 0 } (fun _ => lit 1 : Draws NF)
      let (y, _) ← s.computeOutput [lit 1, lit 2, lit 3, lit 4] true
      let n ← s.net.getNumberOfOutputs
      return (y.length, n)) = .ok (2, 0) := by
  decide +kernel

/-- **C59 is false when the last of several layers is a convolution**: one training step of such a network reads the errors out of
bounds. -/
theorem C59_last_convolution_refuted :
    (do
      let (s, d) ← Snn.make [.input [3], .fullyConnected 3 .identity [], .convolution 1 2 .identity []]
        { learningRate := lit (1/10), momentum := lit 0 } (fun _ => lit 1 : Draws NF)
      let (n, _) ← s.net.trainOnce [lit 1, lit 2, lit 3] [lit 1] true d
      return n.numberOfTraining).isUb = true := by
  decide +kernel

/-- **C49 is false for negative sizes**: `Input(-2, -3)` is accepted, with 6 inputs. -/
theorem C49_negative_shape_refuted :
    (do
      let (s, _) ← Snn.make [.input [-2, -3], .fullyConnected 1 .identity []] { learningRate := lit (1/10), momentum := lit 0 } (fun _ => lit 1 : Draws NF)
      s.net.getNumberOfInputs) = .ok 6 := by
  decide +kernel

/-- **C49 is false for a kernel of size 0**: the constructor divides by zero instead of throwing. -/
theorem C49_kernel_zero_refuted :
    (Snn.make [.input [4], .maxPooling 0, .fullyConnected 1 .identity []] { learningRate := lit (1/10), momentum := lit 0 } (fun _ => lit 1 : Draws NF)).isUb = true ∧
    (Snn.make [.input [4], .locallyConnected 1 0 .identity []] { learningRate := lit (1/10), momentum := lit 0 } (fun _ => lit 1 : Draws NF)).isUb = true := by
  decide +kernel

/-- **C49 is false for zero filters**: a convolution with no filter divides by zero while it is built. -/
theorem C49_no_filter_refuted :
    (Snn.make [.input [4], .convolution 0 2 .identity []] { learningRate := lit (1/10), momentum := lit 0 } (fun _ => lit 1 : Draws NF)).isOk = false := by
  decide +kernel

end Snn.SafeProps
