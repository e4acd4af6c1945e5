import Verif.Proofs.RobustProofs
import Verif.Proofs.Feedforward
import Verif.Props.SafeProps
import Verif.Props.ArchProps
import Verif.Props.InferenceProps

/-!
# C90: small changes of the inputs change the answers little
-/

set_option linter.all false

namespace Snn.RobustProps

open Snn.Spec Snn.Robust Snn.HistoryProps Snn.SafeProps

theorem history_safeNet {F : Type} [Flt F] [FTrans F] [Add F] [Sub F] [Mul F] [Div F] [Neg F] {ni no : Nat} {calls : List (Call F)}
    (hc : ∀ c ∈ calls, CallFits ni no c) {r r' : Run F} (hn : SafeNet ni no r.snn.net)
    (hi : r.snn.isIdle = true) (h : calls.foldlM Call.run r = .ok r') : SafeNet ni no r'.snn.net := by
  induction calls generalizing r with
  | nil => cases h; exact hn
  | cons c cs ih =>
    obtain ⟨r1, h1, h2, h3⟩ := call_safe (hc c (by simp)) hn hi
    rw [List.foldlM_cons, h1] at h
    exact ih (fun c' hc' => hc c' (by simp [hc'])) h2 h3 h

/-- **C90** (real arithmetic): for every well-formed architecture without recurrent layers, of any depth and any layer optimizers, after
every history of calls, on two inputs that differ by at most ε in every component `computeOutput` returns outputs that differ by at most
the gain of the network times ε. -/
theorem C90_robust {arch : List (LayerModel ℝ)} {s s' : List Nat} (h : WellFormed arch s s') (he : EndsWithNeurons arch) (hf : Feedforward arch)
    {opt : Sgd ℝ} {d d' : Draws ℝ} {snn : Snn ℝ} (hm : Snn.make arch opt d = .ok (snn, d'))
    {calls : List (Call ℝ)} (hc : ∀ c ∈ calls, CallFits s.prod s'.prod c) {r r' : Run ℝ} (hr : r.snn = snn) (hrun : calls.foldlM Call.run r = .ok r')
    {x x' : List ℝ} (hx : x.length = s.prod) {ε : ℝ} (hε : 0 ≤ ε) (hn : Near ε x x') (t t' : Bool) :
    ∃ y y' s1 s2, r'.snn.computeOutput x t = .ok (y, s1) ∧ r'.snn.computeOutput x' t' = .ok (y', s2) ∧ y.length = s'.prod ∧
      Near (netGain r'.snn.net * ε) y y' := by
  obtain ⟨hs, hi⟩ := make_safe h he hm
  obtain ⟨hp, _⟩ := make_plainNet h hf hm
  have hk := history_kin hrun
  rw [hr] at hk
  have hp' := kin_plain hk.layers hp.2
  have hs' := history_safeNet hc (hr ▸ hs) (hr ▸ hi) hrun
  obtain ⟨y, ls, e1, l1, _⟩ := outputLoop_ok t hs'.wf.layers x hx
  obtain ⟨y', ls', e2, l2, _⟩ := outputLoop_ok t' hs'.wf.layers x' (by rw [← hn.length_eq, hx])
  have hne : r'.snn.net.layers.isEmpty = false := by simpa using hs'.wf.ne
  refine ⟨y, y', { r'.snn with net := { r'.snn.net with layers := ls, outputNan := r'.snn.net.outputNan || hasBadValue y } },
    { r'.snn with net := { r'.snn.net with layers := ls', outputNan := r'.snn.net.outputNan || hasBadValue y' } }, ?_, ?_, l1, loop_near hs'.wf.layers hp' hε hx hn e1 e2⟩
  · simp [Snn.computeOutput, Net.output, hne, e1]
  · simp [Snn.computeOutput, Net.output, hne, e2]

theorem gain_nonneg (n : Net ℝ) : 0 ≤ netGain n :=
  List.prod_nonneg (by simp only [List.mem_map, forall_exists_index, and_imp, forall_apply_eq_imp_iff₂]; intro l _; exact layerGain_nonneg _)

/-- **C90**, the consequence for a classifier: if the output c exceeds all the others by more than twice the gain times ε (and the gain
times ε above the floor -2 of C50), `computeCluster` answers c on every input that differs by at most ε in every component. -/
theorem C90_class {arch : List (LayerModel ℝ)} {s s' : List Nat} (h : WellFormed arch s s') (he : EndsWithNeurons arch) (hf : Feedforward arch)
    {opt : Sgd ℝ} {d d' : Draws ℝ} {snn : Snn ℝ} (hm : Snn.make arch opt d = .ok (snn, d'))
    {calls : List (Call ℝ)} (hc : ∀ c ∈ calls, CallFits s.prod s'.prod c) {r r' : Run ℝ} (hr : r.snn = snn) (hrun : calls.foldlM Call.run r = .ok r')
    {x y : List ℝ} (hx : x.length = s.prod) {t : Bool} {s1 : Snn ℝ} (hy : r'.snn.computeOutput x t = .ok (y, s1)) {ε : ℝ} (hε : 0 ≤ ε)
    {c : Nat} (hcl : c < y.length) (hmargin : ∀ j < y.length, j ≠ c → 2 * (netGain r'.snn.net * ε) < y.getD c 0 - y.getD j 0)
    (hfloor : -2 + netGain r'.snn.net * ε < y.getD c 0) {x' : List ℝ} (hn : Near ε x x') (t' : Bool) :
    ∃ s2, r'.snn.computeCluster x' t' = .ok ((c : Int), s2) := by
  obtain ⟨y0, y', s1', s2, e1, e2, _, hnear⟩ := C90_robust h he hf hm hc hr hrun hx hε hn t t'
  rw [hy] at e1
  cases e1
  have hL := mul_nonneg (gain_nonneg r'.snn.net) hε
  have hl := hnear.length_eq
  have hcl' : c < y'.length := by rw [← hl]; exact hcl
  have near := fun i => near_get hL hnear i
  have hc1 := near c
  rw [abs_le] at hc1
  have hbest : ∀ j < y'.length, j ≠ c → y'.getD j 0 < y'.getD c 0 := by
    intro j hj hne
    have h1 := hmargin j (by rw [hl]; exact hj) hne
    have h2 := near j
    rw [abs_le] at h2
    linarith [h2.1, h2.2, hc1.1, hc1.2]
  obtain ⟨k, hk, v, hv, hmax, hfirst⟩ := InferenceProps.C50_cluster_partial r'.snn s2 x' y' t' e2
    ⟨y'.getD c 0, by rw [List.getD_eq_getElem _ _ hcl']; exact List.getElem_mem _, by linarith [hc1.1, hc1.2]⟩
  have hkl : k < y'.length := (List.getElem?_eq_some_iff.1 hv).1
  have hvk : y'.getD k 0 = v := by rw [List.getD_eq_getElem?_getD, hv]; rfl
  have : k = c := by
    by_contra hne
    have h1 := hbest k hkl hne
    have h2 := hmax (y'.getD c 0) (by rw [List.getD_eq_getElem _ _ hcl']; exact List.getElem_mem _)
    linarith
  subst this
  exact ⟨s2, hk⟩

/-- **C90**: as near as wanted: the answers of the network are continuous functions of the input. -/
theorem C90_continuous {arch : List (LayerModel ℝ)} {s s' : List Nat} (h : WellFormed arch s s') (he : EndsWithNeurons arch) (hf : Feedforward arch)
    {opt : Sgd ℝ} {d d' : Draws ℝ} {snn : Snn ℝ} (hm : Snn.make arch opt d = .ok (snn, d'))
    {calls : List (Call ℝ)} (hc : ∀ c ∈ calls, CallFits s.prod s'.prod c) {r r' : Run ℝ} (hr : r.snn = snn) (hrun : calls.foldlM Call.run r = .ok r')
    {η : ℝ} (hη : 0 < η) : ∃ δ > 0, ∀ x x' : List ℝ, x.length = s.prod → Near δ x x' → ∀ t t' : Bool,
      ∃ y y' s1 s2, r'.snn.computeOutput x t = .ok (y, s1) ∧ r'.snn.computeOutput x' t' = .ok (y', s2) ∧ Near η y y' := by
  have hL := gain_nonneg r'.snn.net
  have hp : 0 < netGain r'.snn.net + 1 := by linarith
  refine ⟨η / (netGain r'.snn.net + 1), by positivity, fun x x' hx hn t t' => ?_⟩
  obtain ⟨y, y', s1, s2, e1, e2, _, k⟩ := C90_robust h he hf hm hc hr hrun hx (by positivity) hn t t'
  refine ⟨y, y', s1, s2, e1, e2, near_mono ?_ k⟩
  rw [mul_div_assoc', div_le_iff₀ hp]
  nlinarith

/-! ### A case that meets the hypotheses -/

def demoArch : List (LayerModel ℝ) := [.input [1], .fullyConnected 2 .identity []]
noncomputable def demoDraws : Draws ℝ := fun i => if i = 0 then 1 else if i = 2 then 0 else 1 / 2
noncomputable def demoSgd : Sgd ℝ := { learningRate := 1 / 10, momentum := 0 }

theorem demo_wf : WellFormed demoArch [1] [2] := by
  have g1 : GoodShape [1] := ⟨by simp, by simp, by simp⟩
  have g2 : GoodShape [2] := ⟨by simp, by simp, by simp⟩
  exact ⟨⟨_, _, rfl, .cons g1 (Fits.fullyConnected (n := 2) (by omega)) (.nil g2)⟩, by simp [demoArch]⟩

theorem demo_make : ∃ snn d' w, 0 < w ∧ Snn.make demoArch demoSgd demoDraws = .ok (snn, d') ∧
    ∃ s1, snn.computeOutput [1] true = .ok ([w, -w], s1) ∧ netGain snn.net = w := by
  obtain ⟨snn, d', hm⟩ := ArchProps.C49_accepted_if demo_wf (opt := demoSgd) (by norm_num [demoSgd]) (by norm_num [demoSgd])
      (by norm_num [demoSgd]) (by norm_num [demoSgd]) (d := demoDraws) (fun i => by unfold demoDraws; split <;> [norm_num; (split <;> norm_num)])
  refine ⟨snn, d', 12 / 5 / Real.sqrt 2, by positivity, hm, ?_⟩
  obtain ⟨⟨net, d1⟩, h1, hm⟩ := Res.bind_eq_ok.1 hm
  obtain ⟨err, h2, hm⟩ := Res.bind_eq_ok.1 hm
  split at hm
  · cases hm
  cases hm
  obtain ⟨⟨ls, d2⟩, h3, h1⟩ := Res.bind_eq_ok.1 h1
  obtain ⟨last, h4, h1⟩ := Res.bind_eq_ok.1 h1
  cases h1
  simp [LayerFactory.build, demoArch, buildLayers, buildLayer, buildSimple, makeAllNeurons, Neuron.make, computeNumberOfInputs, mulI, addI, ckInt, makeNeurons, shiftDraws,
    Circ.init, backOf, List.range_succ, demoDraws, randomInitializeWeight, uniform] at h3
  have e0 : |2⁻¹ * (12 / 5 / √2 + 12 / 5 / √2) + -(12 / 5 / √2)| = (0 : ℝ) := by rw [abs_eq_zero]; ring
  rw [e0] at h3
  have hw : (0 : ℝ) ≤ 12 / 5 / √2 := by positivity
  have ei : ∀ z : ℝ, Act.identity.obj.function z = z := fun z => (ActivationSpec.C44_functions z).2.2.2.2.2.2
  clear hm h2 h4
  have hgain : netGain { stats := Stats.init last.getNumberOfNeurons, outputNan := false, numberOfTraining := 0, optimizer := demoSgd, layers := ls } = 12 / 5 / √2 := by
    rw [← h3.1]
    simp [netGain, layerGain, bodyGain, layerParams, neuronParams, neuronGain, actGain, LayerOpt.buildAll, abs_of_nonneg hw]
    exact hw
  have hout : ∃ ls', outputLoop true ls [1] = .ok ([12 / 5 / √2, -(12 / 5 / √2)], ls') := by
    rw [← h3.1]
    simp [outputLoop, Layer.output, Body.computeOutput, runNeurons, Neuron.output, dotLoop, rd, Circ.pushBack, wr, LayerOpt.buildAll, testingHooks,
        Act.apply, Act.get, activationFunctions, ActObj.function]
  obtain ⟨ls', hout⟩ := hout
  have hne : ls.isEmpty = false := by rw [← h3.1]; rfl
  have key : ∀ s : Snn ℝ, s.net.layers = ls → ∃ s1, s.computeOutput [1] true = .ok ([12 / 5 / √2, -(12 / 5 / √2)], s1) := by
    intro s hs
    exact ⟨{ s with net := { s.net with layers := ls', outputNan := s.net.outputNan || hasBadValue [12 / 5 / √2, -(12 / 5 / √2)] } },
      by simp [Snn.computeOutput, Net.output, hs, hne, hout]⟩
  refine (key _ ?_).imp fun s1 hs1 => ⟨hs1, hgain⟩
  rfl

/-- The hypotheses of `C90_class` hold for a network of two classes, at the input 1, with a margin of 1/2: the weights are w and -w, the
gain is w, the outputs are w and -w. -/
example : ∃ snn d' y s1, WellFormed demoArch [1] [2] ∧ EndsWithNeurons demoArch ∧ Feedforward demoArch ∧ Snn.make demoArch demoSgd demoDraws = .ok (snn, d') ∧
    snn.computeOutput [1] true = .ok (y, s1) ∧ 0 < y.length ∧ (∀ j < y.length, j ≠ 0 → 2 * (netGain snn.net * (1 / 2)) < y.getD 0 0 - y.getD j 0) ∧
    -2 + netGain snn.net * (1 / 2) < y.getD 0 0 ∧ 0 < netGain snn.net ∧ Near (1 / 2) [1] [3 / 4] := by
  obtain ⟨snn, d', w, hw, hm, s1, ho, hg⟩ := demo_make
  refine ⟨snn, d', _, s1, demo_wf, by simp [EndsWithNeurons, demoArch], ?_, hm, ho, by simp, ?_, ?_, by rw [hg]; exact hw, ?_⟩
  · intro m hm
    simp only [demoArch, List.mem_cons, List.not_mem_nil, or_false] at hm
    rcases hm with rfl | rfl <;> trivial
  · intro j hj hne
    have : j = 1 := by simp at hj; omega
    subst this
    rw [hg]
    simp
    linarith
  · rw [hg]; simp; linarith
  · exact .cons (by norm_num [abs_le]) .nil

end Snn.RobustProps
