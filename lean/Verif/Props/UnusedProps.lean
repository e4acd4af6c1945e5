import Verif.Proofs.UnusedProofs
import Verif.Props.SafeProps
import Verif.Props.AccuracyProps
import Verif.Demo.DemoSave

/-! C118: a feature that is always zero in the training data is never learned. -/

set_option linter.all false

namespace Snn.UnusedProps

open Snn.Spec HistoryProps SafeProps AccuracyProps Unused

section
variable {F : Type} [Field F] [LinearOrder F] [IsStrictOrderedRing F] [FTrans F] [FText F]
variable {q : List Int} {first : LayerModel F} {rest : List (LayerModel F)} {s s' : List Nat} {opt : Sgd F} {d d' : Draws F} {snn : Snn F}
  {calls : List (Call F)} {r r' : Run F} {k f : Nat} {w : List F}

/-- **C118.** Take any network whose first hidden layer is fully connected or recurrent (any activation, any layer optimizers, any learning
rate and momentum, any other layers), and any history of its calls, in exact arithmetic. If the feature f is 0 in every training input used,
then the weight of this feature in every neuron of that layer is at the end the random one of the constructor: no training,
dropout or regularization of the library moves it. -/
theorem C118_unused (h : WellFormed (.input q :: first :: rest) s s') (hfi : FirstNeurons first) (hf : f < s.prod)
    (hm : Snn.make (.input q :: first :: rest) opt d = .ok (snn, d')) (hw : firstWeights snn.net k = some w)
    (hc : ∀ c ∈ calls, CallFits s.prod s'.prod c) (hz : ∀ env data wait b ef fuel, Call.train env data wait b ef fuel ∈ calls → ZeroFeature f data)
    (hr : r.snn = snn) (hrun : calls.foldlM Call.run r = .ok r') :
    ∃ w' v, firstWeights r'.snn.net k = some w' ∧ w[f]? = some v ∧ w'[f]? = some v := by
  obtain ⟨c, h1, h2⟩ := start h hfi hf hm hw
  rw [← hr] at h2
  obtain ⟨l, ls, e, hb⟩ := blind_calls hf hc hz h2 hrun
  unfold firstWeights
  rw [e]
  cases hbo : l.body with
  | fullyConnected ns =>
    rw [hbo] at hb
    obtain ⟨n, ⟨hk, _⟩, hn, _⟩ := hb
    exact ⟨n.weights, c, by simp [hbo, Body.weights, hk, Neuron.getWeights], h1, hn.weight⟩
  | recurrence ns =>
    rw [hbo] at hb
    obtain ⟨n, ⟨hk, _⟩, hn, _⟩ := hb
    exact ⟨n.base.weights, c, by simp [hbo, Body.weights, hk, Neuron.getWeights], h1, hn.weight⟩
  | gru ns =>
    rw [hbo] at hb
    obtain ⟨n, ⟨_, h3⟩, _⟩ := hb
    omega
  | _ => rw [hbo] at hb; exact absurd hb (by simp [At])

/-- **C118**, gated networks. The same for a network whose first hidden layer is a layer of gated recurrent units: if the feature f is 0 in every training
input used, then its weight in each of the three gates of every unit is at the end the random one of the constructor. -/
theorem C118_gru {num : Int} {opts : List (LayerOptModel F)} {g : Nat} (h : WellFormed (.input q :: .gru num opts :: rest) s s') (hf : f < s.prod) (hg : g < 3)
    (hm : Snn.make (.input q :: .gru num opts :: rest) opt d = .ok (snn, d')) (hw : firstGateWeights snn.net k g = some w)
    (hc : ∀ c ∈ calls, CallFits s.prod s'.prod c) (hz : ∀ env data wait b ef fuel, Call.train env data wait b ef fuel ∈ calls → ZeroFeature f data)
    (hr : r.snn = snn) (hrun : calls.foldlM Call.run r = .ok r') :
    ∃ w' v, firstGateWeights r'.snn.net k g = some w' ∧ w[f]? = some v ∧ w'[f]? = some v := by
  obtain ⟨c, h1, h2⟩ := start_gru h hf hg hm hw
  rw [← hr] at h2
  obtain ⟨l, ls, e, hb⟩ := blind_calls hf hc hz h2 hrun
  unfold firstGateWeights
  rw [e]
  cases hbo : l.body with
  | fullyConnected ns =>
    rw [hbo] at hb
    obtain ⟨n, ⟨_, h3⟩, _⟩ := hb
    omega
  | recurrence ns =>
    rw [hbo] at hb
    obtain ⟨n, ⟨_, h3⟩, _⟩ := hb
    omega
  | gru ns =>
    rw [hbo] at hb
    obtain ⟨n, ⟨hk, _⟩, hn, _⟩ := hb
    refine ⟨(gateOf g n).base.weights, c, ?_, h1, hn.weight⟩
    simp only [hbo, hk, Option.map_some, Option.some.injEq]
    match g with
    | 0 => rfl
    | 1 => rfl
    | g + 2 => rfl
  | _ => rw [hbo] at hb; exact absurd hb (by simp [At])

end

/-! ### Non-vacuity -/

/-- The second feature is always 0. -/
def data : Data ℚ := (Data.make1 .regression [[1, 0], [2, 0]] [[5, 1], [7, 2]] .nonTemporal 0).get (by decide +kernel)

def train : Call ℚ := .train Demo.env data (litEp 2) 2 1 50

theorem data_inputs : data.training.inputs = [[1, 0], [2, 0]] := by decide +kernel

theorem data_zero : ZeroFeature 1 data := by
  unfold ZeroFeature
  rw [data_inputs]
  intro x hx
  simp only [List.mem_cons, List.not_mem_nil, or_false] at hx
  rcases hx with rfl | rfl <;> rfl

theorem data_fitted : Fitted 2 2 data := by
  refine .make1 (p := .regression) (ti := [[1, 0], [2, 0]]) (tl := [[5, 1], [7, 2]]) (nat := .nonTemporal) (rec := 0) (Res.eq_get _ _) ⟨rfl, ?_, ?_⟩ (by intro h; cases h) (by intro h; cases h)
  · intro r hr; simp at hr; rcases hr with rfl | rfl <;> rfl
  · intro r hr; simp at hr; rcases hr with rfl | rfl <;> rfl

theorem train_fits : CallFits 2 2 train :=
  ⟨data_fitted, by decide, by decide +kernel, fun _ => by decide +kernel, 3, overFrom_ep 2 (by decide), by decide, by decide +kernel⟩

theorem arch_wf : WellFormed Demo.denseArch [2] [2] := by
  have g1 : GoodShape [2] := ⟨by simp, by simp, by simp⟩
  have g2 : GoodShape [3] := ⟨by simp, by simp, by simp⟩
  exact ⟨⟨_, _, rfl, .cons g1 (Fits.fullyConnected (n := 3) (by omega)) (.cons g2 (Fits.fullyConnected (n := 2) (by omega)) (.nil g1))⟩, by simp [Demo.denseArch]⟩

theorem arch_ends : EndsWithNeurons Demo.denseArch := by simp [EndsWithNeurons, Demo.denseArch]

theorem dense_make : Snn.make Demo.denseArch Demo.sgd Demo.draws = .ok ((Snn.make Demo.denseArch Demo.sgd Demo.draws).get (by decide +kernel)) := Res.eq_get _ _

/-- The hypotheses are met by a training with dropout and momentum, in batches of 2. -/
example : ∃ w r' w' v, firstWeights Demo.dense.net 2 = some w ∧ [train].foldlM Call.run (Demo.run Demo.dense data) = .ok r' ∧
    firstWeights r'.snn.net 2 = some w' ∧ w[1]? = some v ∧ w'[1]? = some v := by
  have hfit : ∀ c ∈ [train], CallFits [2].prod [2].prod c := by
    intro c hc; rw [List.mem_singleton] at hc; subst hc; exact train_fits
  obtain ⟨r', h1, _⟩ := C59_histories_return arch_wf arch_ends dense_make [train] hfit (Demo.run Demo.dense data) rfl
  have hex : (firstWeights Demo.dense.net 2).isSome := by decide +kernel
  obtain ⟨w, hw⟩ := Option.isSome_iff_exists.1 hex
  obtain ⟨w', v, a, b, c⟩ := C118_unused arch_wf (.fullyConnected _ _ _) (k := 2) (f := 1) (by decide) dense_make hw hfit (by
    intro env data' wait b ef fuel hc
    rw [List.mem_singleton] at hc
    injection hc with _ e
    subst e
    exact data_zero) (r := Demo.run Demo.dense data) rfl h1
  exact ⟨w, r', w', v, hw, h1, a, b, c⟩

/-- A gated network: 2 inputs, 2 gated units, 2 outputs. -/
def gatedArch : List (LayerModel ℚ) := [.input [2], .gru 2 [], .fullyConnected 2 .identity []]
def gated : Snn ℚ × Draws ℚ := (Snn.make gatedArch Demo.sgd Demo.draws).get (by decide +kernel)

theorem gated_wf : WellFormed gatedArch [2] [2] := by
  have g1 : GoodShape [2] := ⟨by simp, by simp, by simp⟩
  exact ⟨⟨_, _, rfl, .cons g1 (Fits.gru (n := 2) (by omega)) (.cons g1 (Fits.fullyConnected (n := 2) (by omega)) (.nil g1))⟩, by simp [gatedArch]⟩

theorem gated_make : Snn.make gatedArch Demo.sgd Demo.draws = .ok gated := Res.eq_get _ _

/-- The hypotheses are met by a training of a gated network: the weight of the silent feature in the update gate of the first unit stays. -/
example : ∃ w r' w' v, firstGateWeights gated.1.net 0 1 = some w ∧ [train].foldlM Call.run (Demo.run gated.1 data) = .ok r' ∧
    firstGateWeights r'.snn.net 0 1 = some w' ∧ w[1]? = some v ∧ w'[1]? = some v := by
  have hfit : ∀ c ∈ [train], CallFits [2].prod [2].prod c := by
    intro c hc; rw [List.mem_singleton] at hc; subst hc; exact train_fits
  have hm : Snn.make gatedArch Demo.sgd Demo.draws = .ok (gated.1, gated.2) := gated_make
  obtain ⟨r', h1, _⟩ := C59_histories_return gated_wf (by simp [EndsWithNeurons, gatedArch]) hm [train] hfit (Demo.run gated.1 data) rfl
  have hex : (firstGateWeights gated.1.net 0 1).isSome := by decide +kernel
  obtain ⟨w, hw⟩ := Option.isSome_iff_exists.1 hex
  obtain ⟨w', v, a, b, c⟩ := C118_gru gated_wf (k := 0) (f := 1) (by decide) (g := 1) (by decide) hm hw hfit (by
    intro env data' wait b ef fuel hc
    rw [List.mem_singleton] at hc
    injection hc with _ e
    subst e
    exact data_zero) (r := Demo.run gated.1 data) rfl h1
  exact ⟨w, r', w', v, hw, h1, a, b, c⟩

end Snn.UnusedProps
