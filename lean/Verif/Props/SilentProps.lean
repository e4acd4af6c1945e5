import Verif.Proofs.SilentProofs
import Verif.Props.StructProps
import Verif.Props.InitProps
import Verif.Demo.DemoSave

/-! C106: a silent ReLU neuron of the first hidden layer is dead. -/

set_option linter.all false

namespace Snn.SilentProps

open Snn.Spec HistoryProps SafeProps AccuracyProps Silent

section
variable {F : Type} [Field F] [LinearOrder F] [IsStrictOrderedRing F] [FTrans F] [FText F]

theorem reach_calls {arch : List (LayerModel F)} : ∀ {calls : List (Call F)} {r r' : Run F}, Reach arch r.snn → calls.foldlM Call.run r = .ok r' → Reach arch r'.snn
  | [], r, r', h, e => by cases e; exact h
  | c :: cs, r, r', h, e => by
    rw [List.foldlM_cons] at e
    obtain ⟨r1, h1, e⟩ := Res.bind_eq_ok.1 e
    exact reach_calls (.call h h1) e

variable {q : List Int} {m : Int} {opts : List (LayerOptModel F)} {rest : List (LayerModel F)} {s s' : List Nat} {opt : Sgd F} {d d' : Draws F} {snn : Snn F}
  {calls : List (Call F)} {r r' : Run F} {k : Nat} {w : List F}

/-- After any history the neuron k with the weights w is frozen at w. -/
theorem frozen_start (h : WellFormed (.input q :: .fullyConnected m .relu opts :: rest) s s') (he : EndsWithNeurons (.input q :: .fullyConnected m .relu opts :: rest))
    (hmom : opt.momentum = 0) (hm : Snn.make (.input q :: .fullyConnected m .relu opts :: rest) opt d = .ok (snn, d')) (hc : ∀ c ∈ calls, CallFits s.prod s'.prod c)
    (hr : r.snn = snn) (hrun : calls.foldlM Call.run r = .ok r') (hw : firstWeights r'.snn.net k = some w) :
    FirstFrozen s.prod w k (fun _ => True) r'.snn.net.layers := by
  have hre : Reach _ r'.snn := reach_calls (by rw [hr]; exact .make hm) hrun
  have hopt := StructProps.C68_optimizer hm hr hrun
  have hs := StructProps.C68_structure h hre
  obtain ⟨hn, hi⟩ := make_safe h he hm
  rw [← hr] at hn hi
  obtain ⟨hn, _⟩ := history_safe hc hn hi hrun
  have hwf := hn.wf.layers
  simp only [List.tail_cons] at hs
  generalize r'.snn.net.optimizer = o at hs hopt
  unfold firstWeights at hw
  generalize r'.snn.net.layers = ls at hs hw hwf ⊢
  cases hs with
  | cons hf hl ho hs =>
    rename_i l ls'
    obtain ⟨_, _, ns, hb, hlen, hns⟩ := hl
    cases hwf with
    | cons hlw _ =>
      simp only [List.head?_cons, Option.map_some, Option.bind_some, hb, Body.weights, List.getElem?_map, Option.map_eq_some_iff] at hw
      obtain ⟨n, hk, rfl⟩ := hw
      have hmem := List.mem_of_getElem? hk
      have hni := hns n hmem
      have hbw := hlw.body
      rw [hb] at hbw
      have hnw := hbw.1 n hmem
      refine ⟨l, ls', ns, n, rfl, hb, hk, ⟨hni.activation, ?_, ?_, hnw.inputs, ?_, .inl rfl⟩, trivial⟩
      · rw [hni.bias, lit_eq]; norm_num
      · rw [hni.optimizer, hopt, hmom]
      · exact hni.weights

/-- **C106, the part that holds.** Take any network whose first hidden layer has ReLU neurons, without momentum, after any history; let `w` be
the weights of neuron k of that layer. Whatever calls follow, if the neuron is silent on every training input they use, with its bias and without it,
then the neuron is dead: at the end its weights are still `w`, or `w` with the weight of the bias set to 0. -/
theorem C106_silent_partial (h : WellFormed (.input q :: .fullyConnected m .relu opts :: rest) s s') (he : EndsWithNeurons (.input q :: .fullyConnected m .relu opts :: rest))
    (hmom : opt.momentum = 0) (hm : Snn.make (.input q :: .fullyConnected m .relu opts :: rest) opt d = .ok (snn, d')) (hc : ∀ c ∈ calls, CallFits s.prod s'.prod c)
    (hr : r.snn = snn) (hrun : calls.foldlM Call.run r = .ok r') (hw : firstWeights r'.snn.net k = some w)
    {more : List (Call F)} (hmore : ∀ c ∈ more, CallFits s.prod s'.prod c ∧ SilentCall w c) {r2 : Run F} (hrun2 : more.foldlM Call.run r' = .ok r2) :
    firstWeights r2.snn.net k = some w ∨ firstWeights r2.snn.net k = some (withoutBias w) := by
  obtain ⟨l, ls, ns, n, e, hb, hk, hf, _⟩ := frozen_calls hmore (frozen_start h he hmom hm hc hr hrun hw) hrun2
  have : firstWeights r2.snn.net k = some n.weights := by
    simp [firstWeights, e, hb, Body.weights, hk, Neuron.getWeights]
  rw [this]
  rcases hf.weights with e | e <;> rw [e]
  · exact .inl rfl
  · exact .inr rfl

theorem run_value {N : Type} {f : N → Res (F × N)} : ∀ {ns ns' : List N} {os : List F} {k : Nat} {n : N}, runNeurons f ns = .ok (os, ns') → ns[k]? = some n →
    ∃ o n', f n = .ok (o, n') ∧ os[k]? = some o
  | [], ns', os, k, n, h, hk => by simp at hk
  | m :: ns, ns', os, k, n, h, hk => by
    unfold runNeurons at h
    obtain ⟨⟨o, n1⟩, h1, h⟩ := Res.bind_eq_ok.1 h
    obtain ⟨⟨os1, ns1⟩, h2, h⟩ := Res.bind_eq_ok.1 h
    cases h
    cases k with
    | zero => simp only [List.getElem?_cons_zero, Option.some.injEq] at hk; subst hk; exact ⟨o, n1, h1, rfl⟩
    | succ k => simp only [List.getElem?_cons_succ] at hk ⊢; exact run_value h2 hk

theorem withoutBias_silent {w x : List F} (hl : w.length = x.length + 1) (hb : ∀ v, w.getLast? = some v → 0 ≤ v) (h : affine w x 1 ≤ 0) : affine (withoutBias w) x 1 ≤ 0 := by
  obtain ⟨u, v, rfl⟩ : ∃ u v, w = u ++ [v] := ⟨w.dropLast, w.getLast (by intro e; rw [e] at hl; simp at hl), (List.dropLast_append_getLast _).symm⟩
  have hu : u.length = x.length := by simpa using hl
  have hv := hb v (by simp)
  have e : withoutBias (u ++ [v]) = u ++ [0] := by simp [withoutBias]
  rw [e]
  unfold affine at h ⊢
  have e1 : ∀ z : F, (u ++ [z]).getD x.length 0 = z := by
    intro z
    rw [← hu]
    simp [List.getD_eq_getElem?_getD]
  have e2 : ∀ z : F, ∑ i ∈ Finset.range x.length, (u ++ [z]).getD i 0 * x.getD i 0 = ∑ i ∈ Finset.range x.length, u.getD i 0 * x.getD i 0 := by
    intro z
    apply Finset.sum_congr rfl
    intro i hi
    have hi := Finset.mem_range.1 hi
    rw [List.getD_append _ _ _ _ (by omega)]
  rw [e1, e2] at h ⊢
  linarith

/-- The weight of the bias of a neuron of a new network is not negative. -/
theorem fresh_bias {arch : List (LayerModel F)} (hm : Snn.make arch opt d = .ok (snn, d')) : ∀ ws ∈ snn.net.layers.flatMap units, ∀ v, ws.getLast? = some v → 0 ≤ v := by
  obtain ⟨used, k0, h1, h2⟩ := InitProps.C81_draws _ _ _ _ _ hm
  clear h2
  intro ws hws v hv
  obtain ⟨is, e⟩ : ∃ is : List Nat, ws = is.mapIdx fun j i => initialWeight is.length j (d i) := by
    unfold Drawn at h1
    clear hm
    generalize snn.net.layers.flatMap units = us at h1 hws
    induction h1 with
    | nil => cases hws
    | cons a _ ih =>
      rcases List.mem_cons.1 hws with rfl | h
      · exact ⟨_, a⟩
      · exact ih h
  subst e
  rw [List.getLast?_eq_getElem?, List.getElem?_mapIdx, Option.map_eq_some_iff] at hv
  obtain ⟨a, ha, rfl⟩ := hv
  have : is.length ≠ 0 := by
    intro e
    have := List.length_eq_zero_iff.1 e
    subst this
    simp at ha
  unfold initialWeight
  simp only [List.length_mapIdx]
  rw [if_pos (by omega), fabs_eq]
  exact abs_nonneg _

/-- **C106, from the start**: in a network that was just constructed, a ReLU neuron of the first hidden layer that is silent on every training
input used afterwards is dead for ever: whatever the calls, its weights are the initial ones, or these with the weight of the bias set to 0. -/
theorem C106_fresh (h : WellFormed (.input q :: .fullyConnected m .relu opts :: rest) s s') (he : EndsWithNeurons (.input q :: .fullyConnected m .relu opts :: rest))
    (hmom : opt.momentum = 0) (hm : Snn.make (.input q :: .fullyConnected m .relu opts :: rest) opt d = .ok (snn, d')) (hw : firstWeights snn.net k = some w)
    (hc : ∀ c ∈ calls, CallFits s.prod s'.prod c) (hsil : ∀ env data wait b ef fuel, Call.train env data wait b ef fuel ∈ calls → SilentOn w data.training.inputs)
    (hr : r.snn = snn) (hrun : calls.foldlM Call.run r = .ok r') :
    firstWeights r'.snn.net k = some w ∨ firstWeights r'.snn.net k = some (withoutBias w) := by
  have hw' : firstWeights r.snn.net k = some w := by rw [hr]; exact hw
  obtain ⟨l, ls, ns, n, e, hb, hk, hf, _⟩ := frozen_start (calls := []) h he hmom hm (by simp) hr rfl hw'
  have hnb : ∀ v, w.getLast? = some v → 0 ≤ v := by
    refine fresh_bias hm w ?_
    rw [← hr, e]
    have hwn : n.weights = w := by
      have := hw'
      simp only [firstWeights, e, hb, Body.weights, List.head?_cons, Option.map_some, Option.bind_some, List.getElem?_map, hk, Neuron.getWeights] at this
      exact Option.some.inj this
    rw [List.flatMap_cons]
    apply List.mem_append_left
    unfold units
    rw [hb]
    exact List.mem_map.2 ⟨n, List.mem_of_getElem? hk, hwn⟩
  refine C106_silent_partial (calls := []) h he hmom hm (by simp) hr rfl hw' (fun c hcm => ⟨hc c hcm, ?_⟩) hrun
  cases c with
  | train env data wait b ef fuel =>
    have s1 := hsil _ _ _ _ _ _ hcm
    refine ⟨s1, fun x hx => ?_⟩
    have hfit : Fitted s.prod s'.prod data := (hc _ hcm).1
    have hrow := (Spec.Fitted.safe hfit).train.inputs x hx
    exact withoutBias_silent (by rw [hf.len, hrow]) hnb (s1 x hx)
  | _ => trivial

/-- **C106, the activity**: after those calls the neuron still answers 0 to every input on which it was silent (here the layer has no optimizer). -/
theorem C106_zero (h : WellFormed (.input q :: .fullyConnected m .relu [] :: rest) s s') (he : EndsWithNeurons (.input q :: .fullyConnected m .relu [] :: rest))
    (hmom : opt.momentum = 0) (hm : Snn.make (.input q :: .fullyConnected m .relu [] :: rest) opt d = .ok (snn, d')) (hc : ∀ c ∈ calls, CallFits s.prod s'.prod c)
    (hr : r.snn = snn) (hrun : calls.foldlM Call.run r = .ok r') (hw : firstWeights r'.snn.net k = some w)
    {more : List (Call F)} (hmore : ∀ c ∈ more, CallFits s.prod s'.prod c ∧ SilentCall w c) {r2 : Run F} (hrun2 : more.foldlM Call.run r' = .ok r2)
    (x : List F) (hx : x.length = s.prod) (h1 : affine w x 1 ≤ 0) (h2 : affine (withoutBias w) x 1 ≤ 0) :
    ∃ y ys n, r2.snn.net.getLayerOutputs x = .ok (y :: ys, n) ∧ y[k]? = some 0 := by
  have hre : Reach _ r2.snn := reach_calls (reach_calls (by rw [hr]; exact .make hm) hrun) hrun2
  have hs := StructProps.C68_structure h hre
  obtain ⟨hn, hi⟩ := make_safe h he hm
  rw [← hr] at hn hi
  obtain ⟨hn, hi⟩ := history_safe hc hn hi hrun
  obtain ⟨hn2, _⟩ := history_safe (fun c hc => (hmore c hc).1) hn hi hrun2
  obtain ⟨l, ls, ns, n, e, hb, hk, hf, _⟩ := frozen_calls hmore (frozen_start h he hmom hm hc hr hrun hw) hrun2
  have hwf := hn2.wf.layers
  obtain ⟨ys, ls', ho, hlen, _⟩ := layerOutputsLoop_ok hwf x hx
  rw [e] at ho hlen
  simp only [List.tail_cons] at hs
  rw [e] at hs
  unfold layerOutputsLoop at ho
  obtain ⟨⟨y, l'⟩, k1, ho⟩ := Res.bind_eq_ok.1 ho
  obtain ⟨⟨ys', ls''⟩, k2, ho⟩ := Res.bind_eq_ok.1 ho
  cases ho
  refine ⟨y, ys', { r2.snn.net with layers := l' :: ls'' }, ?_, ?_⟩
  · unfold Net.getLayerOutputs
    rw [e]
    simp only [List.isEmpty_cons, Bool.false_eq_true, if_false, layerOutputsLoop, k1, k2, Res.ok_bind, Res.pure_eq]
  · cases hs with
    | cons _ hl _ _ =>
      have hopt : l.optimizers = [] := by
        have := hl.2.1
        simpa using this
      unfold Layer.output at k1
      obtain ⟨⟨raw, b'⟩, k3, k1⟩ := Res.bind_eq_ok.1 k1
      rw [hopt] at k1
      simp only [testingHooks, Res.ok_bind] at k1
      cases k1
      rw [hb] at k3
      simp only [Body.computeOutput] at k3
      obtain ⟨⟨os, ns'⟩, k4, k3⟩ := Res.bind_eq_ok.1 k3
      cases k3
      obtain ⟨o, n', e1, e2⟩ := run_value k4 hk
      rw [e2, (hf.sum hx h1 h2 e1).2]

end

/-! ### The full statement is false -/

/-- One ReLU neuron and one linear neuron. -/
def tiny : List (LayerModel ℚ) := [.input [1], .fullyConnected 1 .relu [], .fullyConnected 1 .identity []]

def tinySgd : Sgd ℚ := { learningRate := 1/10, momentum := 0 }

/-- The first two draws; the weights of the hidden neuron are 6/5 (2 v - 1) and |6/5 (2 u - 1)|. -/
def tinyDraws (v u : ℚ) : Draws ℚ := fun i => if i = 0 then v else if i = 1 then u else 3/4

def fresh : Snn ℚ := ((Snn.make tiny tinySgd (tinyDraws 1 (1/2))).get (by decide +kernel)).1

def dataA : Data ℚ := (Data.make1 .regression [[1]] [[-1]] .nonTemporal 0).get (by decide +kernel)

def dataB : Data ℚ := (Data.make1 .regression [[1/10]] [[5]] .nonTemporal 0).get (by decide +kernel)

def runA : Run ℚ := ((Call.train Demo.env dataA (litEp 1) 1 1 50).run (Demo.run fresh dataA)).get (by decide +kernel)

def runB : Run ℚ := ((Call.train Demo.env dataB (litEp 2) 1 1 50).run runA).get (by decide +kernel)

theorem one_affine {a b x : ℚ} : affine [a, b] [x] 1 = a * x + b := by
  simp [affine, Finset.sum_range_succ]

/-- **C106 is false of the code without the second condition**: after a training, a ReLU neuron is silent on the only input of a second training
set; its derivative is 0 there, and yet the training on this set revives it: the first step sets the weight of its bias to 0, the second moves its other weight. -/
theorem C106_bias_refuted : Snn.make tiny tinySgd (tinyDraws 1 (1/2)) = .ok (fresh, ((Snn.make tiny tinySgd (tinyDraws 1 (1/2))).get (by decide +kernel)).2) ∧
    (Call.train Demo.env dataA (litEp 1) 1 1 50).run (Demo.run fresh dataA) = .ok runA ∧
    (Call.train Demo.env dataB (litEp 2) 1 1 50).run runA = .ok runB ∧
    ∃ w v, firstWeights runA.snn.net 0 = some w ∧ SilentOn w dataB.training.inputs ∧
      firstWeights runB.snn.net 0 = some v ∧ v ≠ w ∧ v ≠ withoutBias w ∧ ¬ SilentOn v dataB.training.inputs := by
  have hB : dataB.training.inputs = [[1/10]] := by decide +kernel
  refine ⟨Res.eq_get _ _, Res.eq_get _ _, Res.eq_get _ _, [576 / 625, -174 / 625], [28227916899 / 30517578125, 205833798 / 6103515625], by decide +kernel, ?_, by decide +kernel,
    by decide +kernel, by decide +kernel, ?_⟩
  · rw [hB]
    intro x hx
    rw [List.mem_singleton] at hx
    subst hx
    rw [one_affine]
    norm_num
  · rw [hB]
    intro h
    have := h [1/10] (by simp)
    rw [one_affine] at this
    norm_num at this

/-! ### Non-vacuity -/

theorem tiny_wf : WellFormed tiny [1] [1] := by
  have g1 : GoodShape [1] := ⟨by simp, by simp, by simp⟩
  exact ⟨⟨_, _, rfl, .cons g1 (Fits.fullyConnected (n := 1) (by omega)) (.cons g1 (Fits.fullyConnected (n := 1) (by omega)) (.nil g1))⟩, by simp [tiny]⟩

theorem tiny_ends : EndsWithNeurons tiny := by simp [EndsWithNeurons, tiny]

theorem silent_make : Snn.make tiny tinySgd (tinyDraws 0 (3/4)) = .ok ((Snn.make tiny tinySgd (tinyDraws 0 (3/4))).get (by decide +kernel)) := Res.eq_get _ _

/-- A network whose neuron is silent: its weights are -6/5 and 3/5. -/
def silent : Snn ℚ := ((Snn.make tiny tinySgd (tinyDraws 0 (3/4))).get (by decide +kernel)).1

def dataC : Data ℚ := (Data.make1 .regression [[1], [2]] [[5], [7]] .nonTemporal 0).get (by decide +kernel)

def trainC : Call ℚ := .train Demo.env dataC (litEp 2) 2 1 50

theorem dataC_fitted : Fitted 1 1 dataC := by
  refine .make1 (p := .regression) (ti := [[1], [2]]) (tl := [[5], [7]]) (nat := .nonTemporal) (rec := 0) (Res.eq_get _ _) ⟨rfl, ?_, ?_⟩ (by intro h; cases h) (by intro h; cases h)
  · intro r hr; simp at hr; rcases hr with rfl | rfl <;> rfl
  · intro r hr; simp at hr; rcases hr with rfl | rfl <;> rfl

theorem dataC_inputs : dataC.training.inputs = [[1], [2]] := by decide +kernel

theorem dataC_silent : SilentOn [-6/5, 3/5] dataC.training.inputs := by
  rw [dataC_inputs]
  intro x hx
  simp only [List.mem_cons, List.not_mem_nil, or_false] at hx
  rcases hx with rfl | rfl <;> rw [one_affine] <;> norm_num

theorem trainC_fits : CallFits 1 1 trainC :=
  ⟨dataC_fitted, by decide, by decide +kernel, fun _ => by decide +kernel, 3, overFrom_ep 2 (by decide), by decide, by decide +kernel⟩

/-- The hypotheses of `C106_fresh` are met by a training in batches of 2, and the neuron is dead after it. -/
example : ∃ r', [trainC].foldlM Call.run (Demo.run silent dataC) = .ok r' ∧
    (firstWeights r'.snn.net 0 = some [-6/5, 3/5] ∨ firstWeights r'.snn.net 0 = some (withoutBias [-6/5, 3/5])) := by
  obtain ⟨r', h1, _⟩ := C59_histories_return tiny_wf tiny_ends silent_make [trainC]
    (by intro c hc; rw [List.mem_singleton] at hc; subst hc; exact trainC_fits) (Demo.run silent dataC) rfl
  refine ⟨r', h1, C106_fresh tiny_wf tiny_ends rfl silent_make (k := 0) ?_ ?_ ?_ (r := Demo.run silent dataC) rfl h1⟩
  · show firstWeights silent.net 0 = _
    decide +kernel
  · intro c hc; rw [List.mem_singleton] at hc; subst hc; exact trainC_fits
  · intro env data wait b ef fuel hc
    rw [List.mem_singleton] at hc
    injection hc with _ e
    subst e
    exact dataC_silent

end Snn.SilentProps
