import Verif.Props.RecurrentProps

/-!
# C48, C28 (GRU): gated recurrent units
-/

set_option linter.all false

namespace Snn.NeuronSpec

open Finset Snn.Spec

section
variable {F : Type} [Flt F] [FTrans F] [Add F] [Sub F] [Mul F] [Div F] [Neg F]

/-- The calls a GRU receives. -/
inductive GruOp (F : Type) where
  | output (x : List F) (temporalReset : Bool)
  | train (error : F)
  | back (error : F)

/-- The state after one call. -/
def GruOp.run (g : Gru F) : GruOp F → Res (Gru F)
  | .output x t => do let (_, g') ← g.output x t; return g'
  | .train e => g.train e
  | .back e => do let (_, g') ← g.backOutput e; return g'

/-- The inputs given have the size the unit was built for. -/
def GruOp.Fits (ni : Nat) : GruOp F → Prop
  | .output x _ => x.length = ni
  | _ => True

/-- The activations of the three gates. -/
structure GruActs (g : Gru F) : Prop where
  r : g.resetGate.base.activationFunction = .sigmoid
  u : g.updateGate.base.activationFunction = .sigmoid
  o : g.outputGate.base.activationFunction = .tanh

theorem rec_output_frame {n : RecNeuron F} {ni b : Nat} (h : n.WF ni b) (xs : List F) (hx : xs.length = ni) (t : Bool) :
    ∃ s wr wb n', n.base.weights[ni]? = some wr ∧ n.base.weights[ni + 1]? = some wb ∧
      s = dotFrom (lit 0) xs n.base.weights + n.lastOutput * wr + n.base.bias * wb ∧
      n.output xs t = .ok (n.base.activationFunction.obj.function s, n') ∧ n'.WF ni b ∧
      n'.base.activationFunction = n.base.activationFunction ∧ n'.base.weights = n.base.weights := by
  obtain ⟨s1, wr, wb, li1, a1, a2, a3, a4, e1, w1⟩ := RecNeuron.output_ok h xs hx t
  exact ⟨s1, wr, wb, _, a1, a2, a3, e1, w1, rfl, rfl⟩

/-- What a GRU computes: the gates are recurrent neurons fed with the same inputs; the reset gate scales what the candidate
sees as previous output; the result blends `previousOutput` and the candidate. -/
theorem gru_output_eq {g : Gru F} {ni b : Nat} (h : g.WF ni b) (ha : GruActs g) (x : List F) (hx : x.length = ni) (t : Bool) :
    ∃ rs zs cs wr wb vr vb ur ub g',
      g.resetGate.base.weights[ni]? = some wr ∧ g.resetGate.base.weights[ni + 1]? = some wb ∧
      rs = dotFrom (lit 0) x g.resetGate.base.weights + g.resetGate.lastOutput * wr + g.resetGate.base.bias * wb ∧
      g.updateGate.base.weights[ni]? = some vr ∧ g.updateGate.base.weights[ni + 1]? = some vb ∧
      zs = dotFrom (lit 0) x g.updateGate.base.weights + g.updateGate.lastOutput * vr + g.updateGate.base.bias * vb ∧
      g.outputGate.base.weights[ni]? = some ur ∧ g.outputGate.base.weights[ni + 1]? = some ub ∧
      cs = dotFrom (lit 0) x g.outputGate.base.weights + g.outputGate.lastOutput * ActObj.Sigmoid.function rs * ur
        + g.outputGate.base.bias * ub ∧
      g.output x t = .ok ((lit 1 - ActObj.Sigmoid.function zs) * (if t then lit 0 else g.previousOutput)
          + ActObj.Sigmoid.function zs * ActObj.Tanh.function cs, g') ∧
      g'.WF ni b ∧ GruActs g' ∧ g'.previousOutput = (if t then lit 0 else g.previousOutput) ∧
      g'.resetGate.base.weights = g.resetGate.base.weights ∧ g'.updateGate.base.weights = g.updateGate.base.weights ∧
      g'.outputGate.base.weights = g.outputGate.base.weights ∧
      g'.resetGate.lastOutput = (lit 1 - ActObj.Sigmoid.function zs) * (if t then lit 0 else g.previousOutput)
          + ActObj.Sigmoid.function zs * ActObj.Tanh.function cs ∧
      g'.updateGate.lastOutput = g'.resetGate.lastOutput ∧ g'.outputGate.lastOutput = g'.resetGate.lastOutput := by
  have hp : Gru.WF (if t then g.reset else g) ni b := by split; exacts [Gru.reset_wf h, h]
  have hprev : (if t then g.reset else g).previousOutput = if t then lit 0 else g.previousOutput := by cases t <;> rfl
  have hr : (if t then g.reset else g).resetGate = g.resetGate := by cases t <;> rfl
  have hu : (if t then g.reset else g).updateGate = g.updateGate := by cases t <;> rfl
  have ho : (if t then g.reset else g).outputGate = g.outputGate := by cases t <;> rfl
  obtain ⟨s1, wr, wb, rg, a1, a2, a3, e1, w1, f1, k1⟩ := rec_output_frame h.r x hx t
  obtain ⟨s2, vr, vb, ug, b1, b2, b3, e2, w2, f2, k2⟩ := rec_output_frame h.u x hx t
  have hog : RecNeuron.WF { g.outputGate with lastOutput := g.outputGate.lastOutput * ActObj.Sigmoid.function s1 } ni b := h.o
  obtain ⟨s3, ur, ub, og, c1, c2, c3, e3, w3, f3, k3⟩ := rec_output_frame hog x hx t
  rw [ha.r] at e1
  rw [ha.u] at e2
  simp only [ha.o] at e3
  simp only [Act.obj] at e1 e2 e3
  have key : ∃ y g', y = (lit 1 - ActObj.Sigmoid.function s2) * (if t then lit 0 else g.previousOutput)
          + ActObj.Sigmoid.function s2 * ActObj.Tanh.function s3 ∧
      g' = { (if t then g.reset else g) with
        updateGateOutput := ActObj.Sigmoid.function s2, outputGateOutput := ActObj.Tanh.function s3
        resetGate := { rg with lastOutput := y }
        updateGate := { ug with lastOutput := y }
        outputGate := { og with lastOutput := y } } ∧
      g.output x t = .ok (y, g') := by
    refine ⟨_, _, rfl, rfl, ?_⟩
    unfold Gru.output
    simp only [hr, hu, ho, hprev, e1, e2, e3, Res.ok_bind]
    rfl
  obtain ⟨y, g', hy, hg', hout⟩ := key
  refine ⟨s1, s2, s3, wr, wb, vr, vb, ur, ub, g', a1, a2, a3, b1, b2, b3, c1, c2, c3, by rw [hout, hy], ?_, ?_, ?_, ?_, ?_, ?_, ?_, ?_, ?_⟩
  · rw [hg']; exact ⟨hp.inputs, w1, w2, w3⟩
  · rw [hg']; exact ⟨f1.trans ha.r, f2.trans ha.u, f3.trans ha.o⟩
  · rw [hg']; exact hprev
  · rw [hg']; exact k1
  · rw [hg']; exact k2
  · rw [hg']; exact k3
  · rw [hg']; exact hy
  · rw [hg']
  · rw [hg']

theorem recNeuron_backOutput_frame {r r' : RecNeuron F} {ni b : Nat} (h : r.WF ni b) {e : F} {es : List F}
    (hb : r.backOutput e = .ok (es, r')) :
    r'.WF ni b ∧ r'.base.activationFunction = r.base.activationFunction := by
  obtain ⟨es', r'', h1, h2, _⟩ := RecNeuron.backOutput_ok h e
  have : (es', r'') = (es, r') := Res.ok.inj (h1.symm.trans hb)
  cases this
  obtain ⟨n', h3, _, _, _, h4, _⟩ := recOp_ok h (.back e) trivial
  simp only [RecOp.run, hb] at h3
  have : r' = n' := Res.ok.inj h3
  rw [this]
  exact ⟨this ▸ h2, h4⟩

theorem gruOp_ok {g : Gru F} {ni b : Nat} (h : g.WF ni b) (hni : 0 < ni) (ha : GruActs g) (op : GruOp F) (hf : op.Fits ni) :
    ∃ g', op.run g = .ok g' ∧ g'.WF ni b ∧ GruActs g' ∧ (g.previousOutput = lit 0 → g'.previousOutput = lit 0) := by
  have core : ∀ e, ∃ e1 e2 e3 r1 r2 r3 d13, g.outputGate.backOutput (e * g.updateGateOutput) = .ok (e1, r1) ∧
      g.updateGate.backOutput (e * g.outputGateOutput + e * g.updateGateOutput) = .ok (e2, r2) ∧
      backOf e1 = .ok d13 ∧ g.resetGate.backOutput (d13 * g.previousOutput) = .ok (e3, r3) := by
    intro e
    obtain ⟨e1, r1, h1, w1, _, l1, _⟩ := RecNeuron.backOutput_ok h.o (e * g.updateGateOutput)
    obtain ⟨e2, r2, h2, w2, _, l2, _⟩ := RecNeuron.backOutput_ok h.u (e * g.outputGateOutput + e * g.updateGateOutput)
    have hne : e1 ≠ [] := by rintro rfl; simp at l1; omega
    obtain ⟨e3, r3, h3, w3, _, l3, _⟩ := RecNeuron.backOutput_ok h.r (e1.getLast hne * g.previousOutput)
    exact ⟨e1, e2, e3, r1, r2, r3, _, h1, h2, backOf_ok hne, h3⟩
  cases op with
  | output x t =>
    obtain ⟨rs, zs, cs, wr, wb, vr, vb, ur, ub, g', _, _, _, _, _, _, _, _, _, ho, hw, hac, hpo, _⟩ :=
      gru_output_eq h ha x hf t
    refine ⟨g', by simp only [GruOp.run, ho]; rfl, hw, hac, fun hz => ?_⟩
    rw [hpo, hz]; split <;> rfl
  | train e =>
    obtain ⟨e1, e2, e3, r1, r2, r3, d13, h1, h2, hd, h3⟩ := core e
    have f1 := recNeuron_backOutput_frame h.o h1
    have f2 := recNeuron_backOutput_frame h.u h2
    have f3 := recNeuron_backOutput_frame h.r h3
    refine ⟨{ g with errors := e1, outputGate := r1, updateGate := r2, resetGate := r3 }, by simp only [GruOp.run, Gru.train, h1, h2, hd, h3, Res.ok_bind]; rfl, ⟨h.inputs, f3.1, f2.1, f1.1⟩,
      ⟨f3.2.trans ha.r, f2.2.trans ha.u, f1.2.trans ha.o⟩, fun hz => hz⟩
  | back e =>
    obtain ⟨e1, e2, e3, r1, r2, r3, d13, h1, h2, hd, h3⟩ := core e
    have f1 := recNeuron_backOutput_frame h.o h1
    have f2 := recNeuron_backOutput_frame h.u h2
    have f3 := recNeuron_backOutput_frame h.r h3
    refine ⟨{ g with errors := plusVec (plusVec e1 e2) e3, outputGate := r1, updateGate := r2, resetGate := r3 },
      by simp only [GruOp.run, Gru.backOutput, h1, h2, hd, h3, Res.ok_bind]; rfl, ⟨h.inputs, f3.1, f2.1, f1.1⟩,
      ⟨f3.2.trans ha.r, f2.2.trans ha.u, f1.2.trans ha.o⟩, fun hz => hz⟩

theorem gruOps_ok : ∀ (ops : List (GruOp F)) {g : Gru F} {ni b : Nat}, g.WF ni b → 0 < ni → GruActs g →
    (∀ op ∈ ops, op.Fits ni) → g.previousOutput = lit 0 →
    ∃ g', ops.foldlM GruOp.run g = .ok g' ∧ g'.WF ni b ∧ GruActs g' ∧ g'.previousOutput = lit 0
  | [], g, ni, b, h, _, ha, _, hz => ⟨g, rfl, h, ha, hz⟩
  | op :: ops, g, ni, b, h, hni, ha, hf, hz => by
    obtain ⟨g1, h1, h2, h3, h4⟩ := gruOp_ok h hni ha op (hf op (by simp))
    obtain ⟨g', k1, k2⟩ := gruOps_ok ops h2 hni h3 (fun o ho => hf o (by simp [ho])) (h4 hz)
    exact ⟨g', by rw [List.foldlM_cons, h1]; exact k1, k2⟩

/-- A GRU reached from its constructor by any sequence of calls on inputs of the right size. -/
def GruReach (ni : Nat) (g : Gru F) : Prop :=
  ∃ (m : NeuronModel F) (o : Sgd F) (d : Nat → F) (g0 : Gru F) (ops : List (GruOp F)),
    m.numberOfInputs = ni ∧ m.numberOfWeights = m.numberOfInputs + 2 ∧ m.batchSize = 1 ∧ Gru.make m o d = .ok g0 ∧
    (∀ op ∈ ops, op.Fits ni) ∧ ops.foldlM GruOp.run g0 = .ok g

theorem gruReach_inv {ni : Nat} (hni : 0 < ni) {g : Gru F} (h : GruReach ni g) :
    g.WF ni 1 ∧ GruActs g ∧ g.previousOutput = lit 0 := by
  obtain ⟨m, o, d, g0, ops, h1, h2, h3, h4, h5, h6⟩ := h
  obtain ⟨w, _, a1, a2, a3, a4⟩ := Gru.make_wf h4 (by omega) h2
  have e1 : m.numberOfInputs.toNat = ni := by omega
  have e2 : m.batchSize.toNat = 1 := by omega
  rw [e1, e2] at w
  obtain ⟨g', k1, k2, k3, k4⟩ := gruOps_ok ops w hni ⟨a1, a2, a3⟩ h5 a4
  rw [h6] at k1
  cases k1
  exact ⟨k2, k3, k4⟩

/-- **C48 is false of the previous output**, for every carrier: in every reachable state `previousOutput` is 0, so the
output is `(1 - z) * 0 + z * candidate`: whatever the unit returned before, it is never blended in. -/
theorem C48_previous_output_refuted {ni : Nat} (hni : 0 < ni) {g : Gru F} (h : GruReach ni g) (x : List F)
    (hx : x.length = ni) (t : Bool) :
    ∃ z c g', g.output x t = .ok ((lit 1 - z) * lit 0 + z * c, g') ∧
      (∃ zs, z = ActObj.Sigmoid.function zs) ∧ (∃ cs, c = ActObj.Tanh.function cs) := by
  obtain ⟨hw, ha, hz⟩ := gruReach_inv hni h
  obtain ⟨rs, zs, cs, wr, wb, vr, vb, ur, ub, g', _, _, _, _, _, _, _, _, _, ho, _⟩ := gru_output_eq hw ha x hx t
  rw [hz] at ho
  refine ⟨_, _, g', ?_, ⟨zs, rfl⟩, ⟨cs, rfl⟩⟩
  rw [ho]; cases t <;> rfl

/-- **C28 is false of GRUs**, for every carrier: the temporal reset does not change the output of a reachable unit. -/
theorem C28_gru_reset_refuted {ni : Nat} (hni : 0 < ni) {g : Gru F} (h : GruReach ni g) (x : List F) (hx : x.length = ni) :
    ∃ y g1 g2, g.output x true = .ok (y, g1) ∧ g.output x false = .ok (y, g2) := by
  obtain ⟨hw, ha, hz⟩ := gruReach_inv hni h
  obtain ⟨rs, zs, cs, wr, wb, vr, vb, ur, ub, g1, a1, a2, a3, a4, a5, a6, a7, a8, a9, ho, _⟩ := gru_output_eq hw ha x hx true
  obtain ⟨rs', zs', cs', wr', wb', vr', vb', ur', ub', g2, b1, b2, b3, b4, b5, b6, b7, b8, b9, ho', _⟩ :=
    gru_output_eq hw ha x hx false
  have e1 : wr = wr' := by rw [a1] at b1; exact Option.some.inj b1
  have e2 : wb = wb' := by rw [a2] at b2; exact Option.some.inj b2
  have e3 : vr = vr' := by rw [a4] at b4; exact Option.some.inj b4
  have e4 : vb = vb' := by rw [a5] at b5; exact Option.some.inj b5
  have e5 : ur = ur' := by rw [a7] at b7; exact Option.some.inj b7
  have e6 : ub = ub' := by rw [a8] at b8; exact Option.some.inj b8
  subst e1 e2 e3 e4 e5 e6
  have f1 : rs = rs' := by rw [a3, b3]
  have f2 : zs = zs' := by rw [a6, b6]
  subst f1 f2
  have f3 : cs = cs' := by rw [a9, b9]
  subst f3
  rw [hz] at ho'
  exact ⟨_, g1, g2, ho, ho'⟩

end

theorem sigmoid_bounds (s : ℝ) : 0 < ActObj.Sigmoid.function s ∧ ActObj.Sigmoid.function s < 1 := by
  have h := (ActivationSpec.C44_functions s).1
  rw [h]
  have := Real.exp_pos (-s)
  constructor
  · positivity
  · rw [div_lt_one (by positivity)]; linarith

theorem tanh_bounds (s : ℝ) : -1 < ActObj.Tanh.function s ∧ ActObj.Tanh.function s < 1 := by
  exact abs_tanh_lt s

/-- **C48**, the bound (exact real arithmetic): every output of a GRU, after any sequence of calls, is a convex combination
`(1 - z) * previous + z * candidate` with `z` in (0, 1), and lies strictly between -1 and 1. What is missing with respect to
C48: the `previous` of the blend is always 0 (`C48_previous_output_refuted`). -/
theorem C48_bounded_partial {ni : Nat} (hni : 0 < ni) {g : Gru ℝ} (h : GruReach ni g) (x : List ℝ) (hx : x.length = ni) (t : Bool) :
    ∃ y z c g', g.output x t = .ok (y, g') ∧ y = (1 - z) * g.previousOutput + z * c ∧ 0 < z ∧ z < 1 ∧ -1 < c ∧ c < 1 ∧
      -1 < y ∧ y < 1 := by
  obtain ⟨hw, ha, hz⟩ := gruReach_inv hni h
  obtain ⟨rs, zs, cs, wr, wb, vr, vb, ur, ub, g', _, _, _, _, _, _, _, _, _, ho, _⟩ := gru_output_eq hw ha x hx t
  have hp : (if t then (lit 0 : ℝ) else g.previousOutput) = g.previousOutput := by rw [hz]; cases t <;> rfl
  rw [hp] at ho
  have hz0 : g.previousOutput = 0 := by rw [hz]; simp
  obtain ⟨z1, z2⟩ := sigmoid_bounds zs
  obtain ⟨c1, c2⟩ := tanh_bounds cs
  refine ⟨_, ActObj.Sigmoid.function zs, ActObj.Tanh.function cs, g', ho, by simp, z1, z2, c1, c2, ?_, ?_⟩
  · rw [hz0]; nlinarith
  · rw [hz0]; nlinarith

/-- The hypothesis `GruReach` is met, and the outputs are not trivially 0: a GRU with one input, whose draws make every
weight but the biases' equal to 0, returns `σ(w) tanh(w)` with a positive `w`, on every input. So its first output is not 0,
and the second is not blended with it: the two are equal. -/
theorem C48_witness_refuted : ∃ g : Gru ℝ, GruReach 1 g ∧ ∃ y g1, g.output [7] false = .ok (y, g1) ∧ y ≠ 0 := by
  let m : NeuronModel ℝ := { numberOfInputs := 1, batchSize := 1, numberOfWeights := 3, bias := 1, activationFunction := .tanh }
  let o : Sgd ℝ := { learningRate := 1/10, momentum := 0 }
  let d : Nat → ℝ := fun i => if i % 3 = 2 then 1 else 1/2
  have hr : ∃ g, Gru.make m o d = .ok g := by
    unfold Gru.make RecNeuron.make
    obtain ⟨n1, h1⟩ := Neuron.make_ok { m with activationFunction := .sigmoid } o d (by simp [m]) (by simp [m]) (by simp [m])
    obtain ⟨n2, h2⟩ := Neuron.make_ok { m with activationFunction := .sigmoid } o (shiftDraws 3 d) (by simp [m]) (by simp [m]) (by simp [m])
    obtain ⟨n3, h3⟩ := Neuron.make_ok { m with activationFunction := .tanh } o (shiftDraws 6 d) (by simp [m]) (by simp [m]) (by simp [m])
    have e3 : m.numberOfWeights.toNat = 3 := rfl
    simp only [h1, e3, h2, h3, Res.ok_bind]
    exact ⟨_, rfl⟩
  obtain ⟨g, hg⟩ := hr
  have hreach : GruReach 1 g := ⟨m, o, d, g, [], rfl, rfl, rfl, hg, by simp, rfl⟩
  obtain ⟨hw, ha, hz⟩ := gruReach_inv (by norm_num) hreach
  refine ⟨g, hreach, ?_⟩
  obtain ⟨rs, zs, cs, wr, wb, vr, vb, ur, ub, g', _, _, _, _, _, _, hur, hub, hcs, ho, _⟩ := gru_output_eq hw ha [7] rfl false
  refine ⟨_, g', ho, ?_⟩
  -- the weights of the candidate gate
  obtain ⟨r, hr, hg2⟩ := Res.bind_eq_ok.1 hg
  obtain ⟨u, hu, hg2⟩ := Res.bind_eq_ok.1 hg2
  obtain ⟨og, hog, hg2⟩ := Res.bind_eq_ok.1 hg2
  have hgo : g.outputGate = og := by cases hg2; rfl
  obtain ⟨base, hb, hog2⟩ := Res.bind_eq_ok.1 hog
  have hogb : og.base = base ∧ og.lastOutput = 0 := by cases hog2; exact ⟨rfl, by simp⟩
  have hwts : base.weights = [0, 0, 12/5 / Real.sqrt 3] ∧ base.bias = 1 := by
    unfold Neuron.make at hb
    simp only [m] at hb
    rw [if_neg (by norm_num), if_neg (by norm_num)] at hb
    obtain ⟨last, hl, hb⟩ := Res.bind_eq_ok.1 hb
    obtain ⟨_, _, hb⟩ := Res.bind_eq_ok.1 hb
    obtain ⟨_, _, hb⟩ := Res.bind_eq_ok.1 hb
    cases hb
    have hpos : (0:ℝ) ≤ 12/5 / Real.sqrt 3 := by positivity
    simp [backOf, List.range, List.range.loop, randomInitializeWeight, uniform, shiftDraws, d] at hl ⊢
    rw [← hl]
    exact ⟨by ring, abs_of_nonneg hpos⟩
  have hcs' : cs = 12/5 / Real.sqrt 3 := by
    rw [hgo, hogb.1, hwts.1] at hur hub hcs
    simp at hur hub
    rw [hcs, ← hur, ← hub, hogb.2, hwts.2]
    simp [dotFrom]
  have hpos : (0:ℝ) < cs := by rw [hcs']; positivity
  have hz0 : g.previousOutput = 0 := by rw [hz]; simp
  have ht : 0 < ActObj.Tanh.function cs := by
    simp only [ActObj.function, ftanh_real]
    rw [Real.tanh_eq_sinh_div_cosh]
    exact div_pos (Real.sinh_pos_iff.2 hpos) (Real.cosh_pos _)
  obtain ⟨z1, z2⟩ := sigmoid_bounds zs
  simp only [hz0]
  have := mul_pos z1 ht
  simp
  constructor
  · exact ne_of_gt z1
  · exact ne_of_gt ht

end Snn.NeuronSpec
