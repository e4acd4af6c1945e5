import Verif.Proofs.FreezeProofs
import Verif.Props.PerfectProps

/-! C120: an error multiplier of 0 freezes a layer and the ones before it. -/

set_option linter.all false

namespace Snn.FreezeProps

open Snn Spec Perfect HistoryProps Frz
open SafeProps PerfectProps

section
variable {F : Type} [Field F] [LinearOrder F] [IsStrictOrderedRing F] [FTrans F]

theorem cold_of {opt : Sgd F} {m : LayerModel F} {s : List Nat} {l : Layer F} (h : LayerIs opt m s l) (hr : NotRegularized [m])
    (hw : ∃ a b, l.WF a b) (hz : NoMem l.body) : ColdLayer (weightsButBias l.body) l := by
  obtain ⟨a, b, w⟩ := hw
  refine ⟨cold_body w.body w.pos hz, ?_, rfl⟩
  · intro o ho
    have hq := hr m (by simp) (settingOf o) (by rw [← settings_of h]; exact List.mem_map.2 ⟨o, ho, rfl⟩)
    cases o with
    | l1 v => exact hq.1 v rfl
    | l2 v => exact hq.2 v rfl
    | _ => trivial

theorem mult_of {opt : Sgd F} {m : LayerModel F} {s : List Nat} {l : Layer F} (h : LayerIs opt m s l) (hm : .errorMultiplier 0 ∈ optimizersOf m) :
    .errorMultiplier 0 ∈ l.optimizers := by
  rw [← settings_of h] at hm
  obtain ⟨o, ho, e⟩ := List.mem_map.1 hm
  cases o <;> simp [settingOf] at e
  subst e
  exact ho

theorem fz_start {opt : Sgd F} {m0 : LayerModel F} {post : List (LayerModel F)} (hk : .errorMultiplier 0 ∈ optimizersOf m0) :
    ∀ {pre : List (LayerModel F)} {s : List Nat} {ls : List (Layer F)}, NetIs opt (pre ++ m0 :: post) s ls → NotRegularized (pre ++ [m0]) →
      (∀ l ∈ ls, ∃ a b, l.WF a b) → (∀ l ∈ ls, NoMem l.body) → ∃ ws, ws.length = pre.length + 1 ∧ Fz ws ls
  | [], s, ls, h, hr, hw, hz => by
    cases h with
    | cons hm hl ho hs => exact ⟨_, rfl, .last (cold_of hl hr (hw _ (by simp)) (hz _ (by simp))) (mult_of hl hk)⟩
  | m :: pre, s, ls, h, hr, hw, hz => by
    cases h with
    | cons hm hl ho hs =>
      obtain ⟨ws, e, k⟩ := fz_start hk hs (fun m h => hr m (by simp at h ⊢; tauto)) (fun l h => hw l (by simp [h])) (fun l h => hz l (by simp [h]))
      exact ⟨_ :: ws, by simp [e], .cons (cold_of hl (fun m h => hr m (by simp at h ⊢; tauto)) (hw _ (by simp)) (hz _ (by simp))) k⟩

/-- **C120, proved part.** Make a network from a well formed architecture of which the layer m0 has an error multiplier of 0, and neither it nor the ones
before it have L1 or L2; they may be recurrent. After any calls (trainings on any data, with any momentum, answers, evaluations) all the weights of the layer m0 and
of the ones before it are the initial ones, except the weight of the bias of every neuron that is not recurrent. Missing: the weight of the bias,
see `C120_bias_refuted`. -/
theorem C120_frozen_partial {q : List Int} {pre post : List (LayerModel F)} {m0 : LayerModel F} {s s' : List Nat}
    (h : WellFormed (.input q :: (pre ++ m0 :: post)) s s') (he : EndsWithNeurons (.input q :: (pre ++ m0 :: post)))
    (hk : .errorMultiplier 0 ∈ optimizersOf m0) (hreg : NotRegularized (pre ++ [m0])) {opt : Sgd F}
    {d d' : Draws F} {snn : Snn F} (hm : Snn.make (.input q :: (pre ++ m0 :: post)) opt d = .ok (snn, d'))
    (calls : List (Call F)) (r r' : Run F) (hr : r.snn = snn) (hrun : calls.foldlM Call.run r = .ok r') :
    (r'.snn.net.layers.take (pre.length + 1)).map (fun l => weightsButBias l.body) =
      (snn.net.layers.take (pre.length + 1)).map (fun l => weightsButBias l.body) := by
  obtain ⟨hn, _⟩ := make_safe h he hm
  have hmk : ∃ net, Net.make (.input q :: (pre ++ m0 :: post)) opt d = .ok (net, d') ∧ snn.net = net := by
    unfold Snn.make at hm
    obtain ⟨⟨net, d1⟩, h1, hm⟩ := Res.bind_eq_ok.1 hm
    obtain ⟨err, _, hm⟩ := Res.bind_eq_ok.1 hm
    split at hm
    · cases hm
    · cases hm; exact ⟨_, h1, rfl⟩
  obtain ⟨net, hmk, e⟩ := hmk
  have hz := make_noMem hmk
  have hi := (Net.make_is h hmk).2
  rw [← e] at hz hi
  obtain ⟨ws, el, k⟩ := fz_start hk hi hreg (layers_wf hn.wf.layers) hz
  rw [← hr] at k ⊢
  have k' := (fz_kept ws).history k hrun
  have a := fz_weights k
  have b := fz_weights k'
  rw [el] at a b
  exact b.trans a.symm

end

/-! ### The hypotheses are met -/

/-- A hidden layer of one linear neuron with an error multiplier of 0, and a linear neuron. -/
def still : List (LayerModel ℚ) := [.input [1], .fullyConnected 1 .identity [.errorMultiplier 0], .fullyConnected 1 .identity []]

/-- A learning rate and a momentum. -/
def quick : Sgd ℚ := { learningRate := 1/10, momentum := 1/2 }

/-- The draws of the network. -/
def stillDraws : Draws ℚ := fun i => if i = 0 then 3/4 else 7/8

/-- The network. -/
def stillNet : Snn ℚ := (Snn.make still quick stillDraws |>.get (by decide +kernel)).1

/-- **C120, refutation.** A network whose hidden layer has an error multiplier of 0: after one training step the weight of the bias of this layer is
another one, 0, and the other weight is the same. -/
theorem C120_bias_refuted : ∃ (n' : Net ℚ) (d' : Draws ℚ), stillNet.net.trainOnce [1] [1] true Demo.draws = .ok (n', d') ∧
    (stillNet.net.layers[0]?.map fun l => l.body.weights) = some [[3/5, 9/10]] ∧ (n'.layers[0]?.map fun l => l.body.weights) = some [[3/5, 0]] :=
  ⟨_, _, Res.eq_get _ (by decide +kernel), by decide +kernel, by decide +kernel⟩

theorem still_wellFormed : WellFormed still [1] [1] where
  layers := by
    refine ⟨_, _, rfl, ?_⟩
    refine .cons ⟨by simp, by simp, by simp⟩ (.fullyConnected (n := 1) (by norm_num)) ?_
    refine .cons ⟨by simp, by simp, by simp⟩ (.fullyConnected (n := 1) (by norm_num)) ?_
    exact .nil ⟨by simp, by simp, by simp⟩
  count := by simp [still]

theorem still_make : Snn.make still quick stillDraws = .ok (stillNet, (Snn.make still quick stillDraws |>.get (by decide +kernel)).2) :=
  Res.eq_get _ (by decide +kernel)

/-- C120 of this network, after any calls. -/
example (calls : List (Call ℚ)) (r r' : Run ℚ) (hr : r.snn = stillNet) (hrun : calls.foldlM Call.run r = .ok r') :
    (r'.snn.net.layers.take 1).map (fun l => weightsButBias l.body) = [[[3/5]]] := by
  have := C120_frozen_partial (q := [1]) (pre := []) (post := [.fullyConnected 1 .identity []]) (m0 := .fullyConnected 1 .identity [.errorMultiplier 0])
    still_wellFormed trivial (by simp [optimizersOf]) (by intro m hm o ho; simp at hm; subst hm; simp [optimizersOf] at ho; subst ho; simp)
    still_make calls r r' hr hrun
  simp only [List.length_nil, Nat.zero_add] at this
  rw [this]
  decide +kernel

/-- The layer after it learns: one training step changes its weights. -/
example : ∃ (n' : Net ℚ) (d' : Draws ℚ), stillNet.net.trainOnce [1] [1] true Demo.draws = .ok (n', d') ∧
    (n'.layers[1]?.map fun l => l.body.weights.map List.dropLast) ≠ (stillNet.net.layers[1]?.map fun l => l.body.weights.map List.dropLast) :=
  ⟨_, _, Res.eq_get _ (by decide +kernel), by decide +kernel⟩

/-- A recurrent layer, a recurrent layer with an error multiplier of 0, and a linear neuron. -/
def stillRec : List (LayerModel ℚ) := [.input [1], .gru 1 [], .recurrence 1 .identity [.errorMultiplier 0], .fullyConnected 1 .identity []]

theorem stillRec_wellFormed : WellFormed stillRec [1] [1] where
  layers := by
    refine ⟨_, _, rfl, ?_⟩
    refine .cons ⟨by simp, by simp, by simp⟩ (.gru (n := 1) (by norm_num)) ?_
    refine .cons ⟨by simp, by simp, by simp⟩ (.recurrence (n := 1) (by norm_num)) ?_
    refine .cons ⟨by simp, by simp, by simp⟩ (.fullyConnected (n := 1) (by norm_num)) ?_
    exact .nil ⟨by simp, by simp, by simp⟩
  count := by simp [stillRec]

/-- The network. -/
def stillRecNet : Snn ℚ := (Snn.make stillRec quick stillDraws |>.get (by decide +kernel)).1

/-- C120 of this network, after any calls: the 9 weights of the gated unit and the 3 of the recurrent neuron. -/
example (calls : List (Call ℚ)) (r r' : Run ℚ) (hr : r.snn = stillRecNet) (hrun : calls.foldlM Call.run r = .ok r') :
    (r'.snn.net.layers.take 2).map (fun l => weightsButBias l.body) = (stillRecNet.net.layers.take 2).map (fun l => weightsButBias l.body) :=
  C120_frozen_partial (q := [1]) (pre := [.gru 1 []]) (post := [.fullyConnected 1 .identity []]) (m0 := .recurrence 1 .identity [.errorMultiplier 0])
    stillRec_wellFormed trivial (by simp [optimizersOf])
    (by intro m hm o ho; simp at hm; rcases hm with rfl | rfl <;> simp [optimizersOf] at ho; subst ho; simp)
    (Res.eq_get (Snn.make stillRec quick stillDraws) (by decide +kernel)) calls r r' hr hrun

example : (stillRecNet.net.layers.take 2).map (fun l => (weightsButBias l.body).map List.length) = [[9], [3]] := by decide +kernel

end Snn.FreezeProps
