import Verif.Spec.FadeSpec
import Verif.Proofs.RobustProofs
import Verif.Proofs.LeakProofs
import Verif.Props.GruProps
import Verif.Proofs.RangeProofs

/-! Two copies of a network that differ by the memories of their recurrent layers come closer at every answer. -/

set_option linter.all false

namespace Snn.Fade

open Finset Snn.Spec Snn.Robust Snn.NeuronSpec

theorem same_symm {l m : Layer ℝ} (h : l.Same m) : m.Same l := ⟨h.inputs.symm, h.optimizers.symm, h.body.symm⟩

/-! ### One neuron -/

/-- The sum of the absolute values of all the weights. -/
noncomputable def absSum (w : List ℝ) : ℝ := ∑ i ∈ range w.length, |w.getD i 0|

theorem absSum_nonneg (w : List ℝ) : 0 ≤ absSum w := sum_nonneg fun _ _ => abs_nonneg _

theorem dot_near {w x x' : List ℝ} (h : x.length ≤ w.length) {ε : ℝ} (hε : 0 ≤ ε) (hn : Near ε x x') :
    |dotFrom (lit 0) x w - dotFrom (lit 0) x' w| ≤ absSum w * ε := by
  have hx := hn.length_eq
  rw [dotFrom_eq _ _ _ h, dotFrom_eq _ _ _ (by omega), ← hx, add_sub_add_left_eq_sub, ← sum_sub_distrib]
  refine le_trans (abs_sum_le_sum_abs _ _) ?_
  unfold absSum
  rw [sum_mul]
  refine le_trans (sum_le_sum (g := fun i => |w.getD i 0| * ε) fun i _ => ?_) (sum_le_sum_of_subset_of_nonneg (range_mono h) fun i _ _ => by positivity)
  rw [← mul_sub, abs_mul]
  exact mul_le_mul_of_nonneg_left (near_get hε hn i) (abs_nonneg _)

/-- Two states of one recurrent neuron whose memories are within K κ. -/
structure RecTied (ρ E K κ : ℝ) (n n' : RecNeuron ℝ) : Prop where
  same : n.base.Same n'.base
  memory : |n.lastOutput - n'.lastOutput| ≤ K * κ
  shrink : neuronFeedback (neuronParams n.base) * K + actGain n.base.activationFunction * absSum n.base.weights * E ≤ K * ρ

theorem feedback_weight {p : NeuronParams ℝ} {ni : Nat} {wr : ℝ} (hl : p.weights.length = ni + 2) (h : p.weights[ni]? = some wr) : recurrentWeight p = wr := by
  unfold recurrentWeight
  rw [hl, show ni + 2 - 2 = ni by omega, List.getD_eq_getElem?_getD, h]
  rfl

theorem rec_step {n n' : RecNeuron ℝ} {ni : Nat} (hw : n.WF ni 1) (hw' : n'.WF ni 1) {ρ E K κ : ℝ} (hE : 0 ≤ E) (hκ : 0 ≤ κ) (h : RecTied ρ E K κ n n')
    {x x' : List ℝ} (hx : x.length = ni) (hn : Near (E * κ) x x') (t : Bool) :
    ∃ y m y' m', n.output x t = .ok (y, m) ∧ n'.output x' t = .ok (y', m') ∧ |y - y'| ≤ K * ρ * κ ∧ RecTied ρ E K (κ * ρ) m m' := by
  obtain ⟨s, wr, wb, li, h1, h2, h3, h4, h5, _⟩ := RecNeuron.output_ok hw x hx t
  obtain ⟨s', wr', wb', li', h1', h2', h3', h4', h5', _⟩ := RecNeuron.output_ok hw' x' (by rw [← hn.length_eq, hx]) t
  rw [h.same.weights] at h1' h2' h3'
  rw [h.same.bias] at h3'
  rw [h1] at h1'
  cases h1'
  rw [h2] at h2'
  cases h2'
  have hl : n.base.weights.length = ni + 2 := hw.wlen
  have hs : |s - s'| ≤ absSum n.base.weights * (E * κ) + |wr| * (K * κ) := by
    rw [h3, h3']
    rw [show ∀ a b c d e : ℝ, a + b * wr + e - (c + d * wr + e) = (a - c) + (b - d) * wr by intros; ring]
    refine le_trans (abs_add_le _ _) (add_le_add (dot_near (by omega) (by positivity) hn) ?_)
    rw [abs_mul, mul_comm]
    exact mul_le_mul_of_nonneg_left h.memory (abs_nonneg _)
  have hr : recurrentWeight (neuronParams n.base) = wr := feedback_weight (p := neuronParams n.base) hl h1
  have hg := actGain_pos n.base.activationFunction
  have key : |n.base.activationFunction.obj.function s - n.base.activationFunction.obj.function s'| ≤ K * ρ * κ := by
    refine le_trans (act_lip _ _ _) ?_
    refine le_trans (mul_le_mul_of_nonneg_left hs hg) ?_
    have := mul_le_mul_of_nonneg_right h.shrink hκ
    unfold neuronFeedback at this
    rw [hr] at this
    have e : (neuronParams n.base).activation = n.base.activationFunction := rfl
    rw [e] at this
    nlinarith
  refine ⟨_, _, _, _, h5, h5', by rw [h.same.activation]; exact key, ⟨?_, ?_, h.shrink⟩⟩
  · refine ⟨h.same.1, h.same.2, h.same.3, h.same.4, h.same.5, h.same.6, h.same.7, h.same.8, ?_⟩
    have a := Neuron.Same.buffer h.same
    unfold Circ.pushBack at h4 h4'
    obtain ⟨q, q1, q2⟩ := Res.bind_eq_ok.1 h4
    obtain ⟨q', q1', q2'⟩ := Res.bind_eq_ok.1 h4'
    cases q2; cases q2'
    have b := (wr_eq_ok.1 q1).2
    have b' := (wr_eq_ok.1 q1').2
    simp [← b, ← b', a]
  · simp only
    rw [h.same.activation]
    rw [mul_comm κ ρ, ← mul_assoc]
    exact key

/-! ### One gated recurrent unit -/

theorem sigma_lip (x y : ℝ) : |ActObj.Sigmoid.function x - ActObj.Sigmoid.function y| ≤ 1 / 4 * |x - y| := act_lip .sigmoid x y
theorem tanh_lip (x y : ℝ) : |ActObj.Tanh.function x - ActObj.Tanh.function y| ≤ |x - y| := by
  have h := act_lip .tanh x y
  simp only [actGain, one_mul] at h
  exact h

theorem sigma_mem (x : ℝ) : 0 ≤ ActObj.Sigmoid.function x ∧ ActObj.Sigmoid.function x ≤ 1 := by
  have h := abs_tanh_lt (x / 2)
  simp [ActObj.function]
  constructor <;> linarith [h.1, h.2]

theorem tanh_mem (x : ℝ) : |ActObj.Tanh.function x| ≤ 1 := by
  have h := abs_tanh_lt x
  simp only [ActObj.function, ftanh_real, abs_le]
  constructor <;> linarith [h.1, h.2]

theorem prod_lip {a a' b b' : ℝ} (ha : |a| ≤ 1) (hb : |b'| ≤ 1) : |a * b - a' * b'| ≤ |a - a'| + |b - b'| := by
  rw [show a * b - a' * b' = a * (b - b') + (a - a') * b' by ring]
  refine le_trans (abs_add_le _ _) ?_
  rw [abs_mul, abs_mul]
  have h1 := abs_nonneg (b - b')
  have h2 := abs_nonneg (a - a')
  nlinarith

/-- The three gates remember the same output, between -1 and 1. -/
structure Level (g : Gru ℝ) : Prop where
  u : g.updateGate.lastOutput = g.resetGate.lastOutput
  o : g.outputGate.lastOutput = g.resetGate.lastOutput
  bound : |g.resetGate.lastOutput| ≤ 1

noncomputable def unitFeedback (g : Gru ℝ) : ℝ := gruFeedback (neuronParams g.resetGate.base) (neuronParams g.updateGate.base) (neuronParams g.outputGate.base)

/-- How much a unit amplifies a change of its inputs. -/
noncomputable def unitGain (g : Gru ℝ) : ℝ :=
  absSum g.updateGate.base.weights / 4 + absSum g.outputGate.base.weights + |recurrentWeight (neuronParams g.outputGate.base)| * (absSum g.resetGate.base.weights / 4)

theorem unitGain_nonneg (g : Gru ℝ) : 0 ≤ unitGain g := by
  unfold unitGain
  have h1 := absSum_nonneg g.updateGate.base.weights
  have h2 := absSum_nonneg g.outputGate.base.weights
  have h3 := absSum_nonneg g.resetGate.base.weights
  positivity

theorem unitFeedback_nonneg (g : Gru ℝ) : 0 ≤ unitFeedback g := by unfold unitFeedback gruFeedback; positivity

/-- Two states of one unit whose memories are within K κ, or that have not answered yet. -/
structure GruTied (ρ E K κ : ℝ) (g g' : Gru ℝ) : Prop where
  same : g.Same g'
  acts : GruActs g
  zero : g.previousOutput = 0
  zero' : g'.previousOutput = 0
  memory : 2 ≤ K * ρ * κ ∨ (Level g ∧ Level g' ∧ |g.resetGate.lastOutput - g'.resetGate.lastOutput| ≤ K * κ)
  shrink : unitFeedback g * K + unitGain g * E ≤ K * ρ

theorem gru_out {g : Gru ℝ} {ni : Nat} (hw : g.WF ni 1) (ha : GruActs g) (hz : g.previousOutput = 0) {x : List ℝ} (hx : x.length = ni) (t : Bool) :
    ∃ rs zs cs wb vb ub g',
      rs = dotFrom (lit 0) x g.resetGate.base.weights + g.resetGate.lastOutput * recurrentWeight (neuronParams g.resetGate.base) + g.resetGate.base.bias * wb ∧
      zs = dotFrom (lit 0) x g.updateGate.base.weights + g.updateGate.lastOutput * recurrentWeight (neuronParams g.updateGate.base) + g.updateGate.base.bias * vb ∧
      cs = dotFrom (lit 0) x g.outputGate.base.weights + g.outputGate.lastOutput * ActObj.Sigmoid.function rs * recurrentWeight (neuronParams g.outputGate.base)
        + g.outputGate.base.bias * ub ∧
      g.resetGate.base.weights[ni + 1]? = some wb ∧ g.updateGate.base.weights[ni + 1]? = some vb ∧ g.outputGate.base.weights[ni + 1]? = some ub ∧
      g.output x t = .ok (ActObj.Sigmoid.function zs * ActObj.Tanh.function cs, g') ∧ GruActs g' ∧ g'.previousOutput = 0 ∧ Level g' ∧
      g'.resetGate.lastOutput = ActObj.Sigmoid.function zs * ActObj.Tanh.function cs ∧ g.Same g' := by
  obtain ⟨rs, zs, cs, wr, wb, vr, vb, ur, ub, g', a1, a2, a3, b1, b2, b3, c1, c2, c3, ho, _, k1, k2, _, _, _, k6, k7, k8⟩ := gru_output_eq hw ha x hx t
  have hz' : (if t = true then (lit 0 : ℝ) else g.previousOutput) = 0 := by split <;> simp [hz]
  rw [hz'] at ho k2 k6
  rw [mul_zero, zero_add] at ho k6
  have hs := Gru.output_same ho
  rw [← feedback_weight (p := neuronParams g.resetGate.base) hw.r.wlen a1] at a3
  rw [← feedback_weight (p := neuronParams g.updateGate.base) hw.u.wlen b1] at b3
  rw [← feedback_weight (p := neuronParams g.outputGate.base) hw.o.wlen c1] at c3
  refine ⟨rs, zs, cs, wb, vb, ub, g', a3, b3, c3, a2, b2, c2, ho, k1, k2, ⟨k7, k8, ?_⟩, k6, hs⟩
  rw [k6, abs_mul]
  have h1 := sigma_mem zs
  have h2 := tanh_mem cs
  rw [abs_of_nonneg h1.1]
  nlinarith [abs_nonneg (ActObj.Tanh.function cs : ℝ)]

theorem gate_near {x x' w : List ℝ} {ε D a a' r b : ℝ} (h : x.length ≤ w.length) (hε : 0 ≤ ε) (hn : Near ε x x') (ha : |a - a'| ≤ D) :
    |dotFrom (lit 0) x w + a * r + b - (dotFrom (lit 0) x' w + a' * r + b)| ≤ absSum w * ε + D * |r| := by
  rw [show ∀ p p' : ℝ, p + a * r + b - (p' + a' * r + b) = (p - p') + (a - a') * r by intros; ring]
  refine le_trans (abs_add_le _ _) (add_le_add (dot_near h hε hn) ?_)
  rw [abs_mul]
  exact mul_le_mul_of_nonneg_right ha (abs_nonneg _)

theorem same_recurrentWeight {n n' : Neuron ℝ} (h : n.Same n') : recurrentWeight (neuronParams n') = recurrentWeight (neuronParams n) := by
  rw [Neuron.Same.params h]

theorem gru_step {g g' : Gru ℝ} {ni : Nat} (hw : g.WF ni 1) (hw' : g'.WF ni 1) {ρ E K κ : ℝ} (hE : 0 ≤ E) (hκ : 0 ≤ κ) (h : GruTied ρ E K κ g g')
    {x x' : List ℝ} (hx : x.length = ni) (hn : Near (E * κ) x x') (t : Bool) :
    ∃ y m y' m', g.output x t = .ok (y, m) ∧ g'.output x' t = .ok (y', m') ∧ |y - y'| ≤ K * ρ * κ ∧ GruTied ρ E K (κ * ρ) m m' := by
  have ha' : GruActs g' := ⟨h.same.r.activation.trans h.acts.r, h.same.u.activation.trans h.acts.u, h.same.o.activation.trans h.acts.o⟩
  obtain ⟨rs, zs, cs, wb, vb, ub, m, e1, e2, e3, b1, b2, b3, ho, k1, k2, k3, k4, k5⟩ := gru_out hw h.acts h.zero hx t
  obtain ⟨rs', zs', cs', wb', vb', ub', m', e1', e2', e3', b1', b2', b3', ho', k1', k2', k3', k4', k5'⟩ := gru_out hw' ha' h.zero' (by rw [← hn.length_eq, hx]) t
  rw [h.same.r.weights, b1] at b1'
  rw [h.same.u.weights, b2] at b2'
  rw [h.same.o.weights, b3] at b3'
  cases b1'; cases b2'; cases b3'
  rw [h.same.r.weights, h.same.r.bias, same_recurrentWeight h.same.r] at e1'
  rw [h.same.u.weights, h.same.u.bias, same_recurrentWeight h.same.u] at e2'
  rw [h.same.o.weights, h.same.o.bias, same_recurrentWeight h.same.o] at e3'
  have s1 := sigma_mem zs
  have s2 := sigma_mem zs'
  have q1 := tanh_mem cs
  have q2 := tanh_mem cs'
  have key : |ActObj.Sigmoid.function zs * ActObj.Tanh.function cs - ActObj.Sigmoid.function zs' * ActObj.Tanh.function cs'| ≤ K * ρ * κ := by
    rcases h.memory with h2 | ⟨l, l', hd⟩
    · refine le_trans ?_ h2
      have := k3.bound
      have := k3'.bound
      rw [k4] at *
      rw [k4'] at *
      refine le_trans (abs_sub _ _) ?_
      linarith
    · refine le_trans (prod_lip (by rw [abs_of_nonneg s1.1]; exact s1.2) q2) ?_
      have hε : 0 ≤ E * κ := mul_nonneg hE hκ
      have w1 : x.length ≤ g.resetGate.base.weights.length := by have : g.resetGate.base.weights.length = ni + 2 := hw.r.wlen; omega
      have w2 : x.length ≤ g.updateGate.base.weights.length := by have : g.updateGate.base.weights.length = ni + 2 := hw.u.wlen; omega
      have w3 : x.length ≤ g.outputGate.base.weights.length := by have : g.outputGate.base.weights.length = ni + 2 := hw.o.wlen; omega
      have hr : |rs - rs'| ≤ absSum g.resetGate.base.weights * (E * κ) + K * κ * |recurrentWeight (neuronParams g.resetGate.base)| := by
        rw [e1, e1']
        exact gate_near w1 hε hn hd
      have hz : |zs - zs'| ≤ absSum g.updateGate.base.weights * (E * κ) + K * κ * |recurrentWeight (neuronParams g.updateGate.base)| := by
        rw [e2, e2']
        exact gate_near w2 hε hn (by rw [l.u, l'.u]; exact hd)
      have hs := sigma_lip rs rs'
      have hm : |g.outputGate.lastOutput * ActObj.Sigmoid.function rs - g'.outputGate.lastOutput * ActObj.Sigmoid.function rs'| ≤
          K * κ + 1 / 4 * (absSum g.resetGate.base.weights * (E * κ) + K * κ * |recurrentWeight (neuronParams g.resetGate.base)|) := by
        have s3 := sigma_mem rs'
        refine le_trans (prod_lip (by rw [l.o]; exact l.bound) (by rw [abs_of_nonneg s3.1]; exact s3.2)) (add_le_add (by rw [l.o, l'.o]; exact hd) ?_)
        refine le_trans hs ?_
        linarith
      have hc : |cs - cs'| ≤ absSum g.outputGate.base.weights * (E * κ) +
          (K * κ + 1 / 4 * (absSum g.resetGate.base.weights * (E * κ) + K * κ * |recurrentWeight (neuronParams g.resetGate.base)|)) * |recurrentWeight (neuronParams g.outputGate.base)| := by
        rw [e3, e3']
        exact gate_near w3 hε hn hm
      have t1 := sigma_lip zs zs'
      have t2 := tanh_lip cs cs'
      have := mul_le_mul_of_nonneg_right h.shrink hκ
      unfold unitFeedback gruFeedback unitGain at this
      nlinarith
  refine ⟨_, m, _, m', ho, ho', key, ?_⟩
  have hsame : m.Same m' := by
    have r : ∀ {a b : Gru ℝ}, a.Same b → b.Same a := fun k => ⟨k.1.symm, k.2.symm, Neuron.Same.symm k.3, Neuron.Same.symm k.4, Neuron.Same.symm k.5⟩
    exact ((r k5).trans h.same).trans k5'
  refine ⟨hsame, k1, k2, k2', .inr ⟨k3, k3', ?_⟩, ?_⟩
  · rw [k4, k4', mul_comm κ ρ, ← mul_assoc]
    exact key
  · have f : unitFeedback m = unitFeedback g := by
      unfold unitFeedback
      rw [Neuron.Same.params k5.r, Neuron.Same.params k5.u, Neuron.Same.params k5.o]
    have f' : unitGain m = unitGain g := by
      unfold unitGain
      rw [Neuron.Same.params k5.o, k5.r.weights, k5.u.weights, k5.o.weights]
    rw [f, f']
    exact h.shrink

/-! ### The layers -/

theorem runNeurons_pair {N : Type} {f f' : N → Res (ℝ × N)} {R S : N → N → Prop} {ε : ℝ} {ns ns' : List N} (h : List.Forall₂ R ns ns')
    (hs : ∀ n ∈ ns, ∀ n' ∈ ns', R n n' → ∃ y m y' m', f n = .ok (y, m) ∧ f' n' = .ok (y', m') ∧ |y - y'| ≤ ε ∧ S m m') :
    ∃ ys ms ys' ms', runNeurons f ns = .ok (ys, ms) ∧ runNeurons f' ns' = .ok (ys', ms') ∧ Near ε ys ys' ∧ List.Forall₂ S ms ms' := by
  induction h with
  | nil => exact ⟨_, _, _, _, rfl, rfl, .nil, .nil⟩
  | @cons a b l l' h1 _ ih =>
    obtain ⟨y, m, y', m', a1, a2, a3, a4⟩ := hs a (by simp) b (by simp) h1
    obtain ⟨ys, ms, ys', ms', b1, b2, b3, b4⟩ := ih fun n hn n' hn' => hs n (by simp [hn]) n' (by simp [hn'])
    exact ⟨y :: ys, m :: ms, y' :: ys', m' :: ms', by simp [runNeurons, a1, b1], by simp [runNeurons, a2, b2], .cons a3 b3, .cons a4 b4⟩

/-- Two states of a recurrent layer. -/
def BodyTied (ρ E K κ : ℝ) : Body ℝ → Body ℝ → Prop
  | .recurrence ns, .recurrence ns' => List.Forall₂ (RecTied ρ E K κ) ns ns'
  | .gru gs, .gru gs' => List.Forall₂ (GruTied ρ E K κ) gs gs'
  | _, _ => False

theorem body_step {b b' : Body ℝ} {ni no : Nat} (hw : b.WF ni no) (hw' : b'.WF ni no) {ρ E K κ : ℝ} (hE : 0 ≤ E) (hκ : 0 ≤ κ) (h : BodyTied ρ E K κ b b')
    {x x' : List ℝ} (hx : x.length = ni) (hn : Near (E * κ) x x') (t : Bool) :
    ∃ y m y' m', b.computeOutput x t = .ok (y, m) ∧ b'.computeOutput x' t = .ok (y', m') ∧ Near (K * ρ * κ) y y' ∧ BodyTied ρ E K (κ * ρ) m m' := by
  cases b <;> cases b' <;> simp only [BodyTied] at h
  · obtain ⟨ys, ms, ys', ms', e, e', k, r⟩ := runNeurons_pair (f := fun n : RecNeuron ℝ => n.output x t) (f' := fun n : RecNeuron ℝ => n.output x' t) h
      fun n hn1 n' hn2 hr => rec_step (hw.1 n hn1) (hw'.1 n' hn2) hE hκ hr hx hn t
    exact ⟨ys, .recurrence ms, ys', .recurrence ms', by simp [Body.computeOutput, e], by simp [Body.computeOutput, e'], k, r⟩
  · obtain ⟨ys, ms, ys', ms', e, e', k, r⟩ := runNeurons_pair (f := fun n : Gru ℝ => n.output x t) (f' := fun n : Gru ℝ => n.output x' t) h
      fun n hn1 n' hn2 hr => gru_step (hw.1 n hn1) (hw'.1 n' hn2) hE hκ hr hx hn t
    exact ⟨ys, .gru ms, ys', .gru ms', by simp [Body.computeOutput, e], by simp [Body.computeOutput, e'], k, r⟩

/-- Two states of the layers of one network: if the inputs are within E κ then the outputs are within E' κ. -/
inductive Tied (ρ κ : ℝ) : ℝ → List (Layer ℝ) → List (Layer ℝ) → ℝ → Prop
  | nil {E : ℝ} : Tied ρ κ E [] [] E
  | plain {E E' : ℝ} {l l' : Layer ℝ} {ls ls' : List (Layer ℝ)} : l.Same l' → NonRecurrent l →
      Tied ρ κ (layerGain (layerParams l) * E) ls ls' E' → Tied ρ κ E (l :: ls) (l' :: ls') E'
  | state {E E' K : ℝ} {l l' : Layer ℝ} {ls ls' : List (Layer ℝ)} : l.Same l' → 0 ≤ K → BodyTied ρ E K κ l.body l'.body →
      Tied ρ κ ((l.optimizers.map optGain).prod * (K * ρ)) ls ls' E' → Tied ρ κ E (l :: ls) (l' :: ls') E'

theorem hooks_gain_nonneg (os : List (LayerOpt ℝ)) : 0 ≤ (os.map optGain).prod := List.prod_nonneg (by simp; intro o _; exact optGain_nonneg o)

theorem tied_step {ρ : ℝ} (hρ : 0 ≤ ρ) : ∀ {ls ls' : List (Layer ℝ)} {κ E E' : ℝ}, Tied ρ κ E ls ls' E' → ∀ {ni no : Nat}, LayersWF ls ni no → LayersWF ls' ni no →
    0 ≤ E → 0 ≤ κ → ∀ {x x' : List ℝ}, x.length = ni → Near (E * κ) x x' → ∀ (t : Bool),
    ∃ y m y' m', outputLoop t ls x = .ok (y, m) ∧ outputLoop t ls' x' = .ok (y', m') ∧ Near (E' * κ) y y' ∧ Tied ρ (κ * ρ) E m m' E' := by
  intro ls ls' κ E E' h
  induction h with
  | nil => intro ni no _ _ hE hκ x x' hx hn t; exact ⟨x, [], x', [], rfl, rfl, hn, .nil⟩
  | @plain E E' l l' ls ls' hs hp _ ih =>
    intro ni no hw hw' hE hκ x x' hx hn t
    cases hw with
    | @cons _ _ _ k _ hl hls =>
    cases hw' with
    | @cons _ _ _ k' _ hl' hls' =>
    have hx' : x'.length = ni := by rw [← hn.length_eq, hx]
    obtain ⟨y, m, e, ly, _⟩ := Layer.output_ok hl x hx t
    obtain ⟨y', m', e', ly', _⟩ := Layer.output_ok hl' x' hx' t
    obtain ⟨z, mz, ez, lz, _⟩ := Layer.output_ok hl x' hx' t
    have hr := Layer.output_rel hs hp x' t t
    rw [ez, e'] at hr
    obtain ⟨hy, _⟩ : y' = z ∧ _ := hr
    subst hy
    have kk : k' = k := by rw [← ly', lz]
    subst kk
    have hnear := layer_near hl hp (mul_nonneg hE hκ) hx hn e ez
    rw [← mul_assoc] at hnear
    obtain ⟨o, q, o', q', f, f', g, r⟩ := ih hls hls' (mul_nonneg (layerGain_nonneg _) hE) hκ ly hnear t
    refine ⟨o, m :: q, o', m' :: q', by simp [outputLoop, e, f], by simp [outputLoop, e', f'], g, ?_⟩
    have s1 := Layer.output_same e
    have s2 := Layer.output_same e'
    refine .plain (((same_symm s1).trans hs).trans s2) (Body.Same.nonRecurrent s1 hp) ?_
    rw [Layer.Same.params s1]
    exact r
  | @state E E' K l l' ls ls' hs hK hb _ ih =>
    intro ni no hw hw' hE hκ x x' hx hn t
    cases hw with
    | @cons _ _ _ k _ hl hls =>
    cases hw' with
    | @cons _ _ _ k' _ hl' hls' =>
    have hx' : x'.length = ni := by rw [← hn.length_eq, hx]
    obtain ⟨y, m, y', m', e, e', hnear, hb'⟩ := body_step (no := k) hl.body (by
      have : k' = k := by
        have h1 := hl.body
        have h2 := hl'.body
        cases hbb : l.body <;> cases hbb' : l'.body <;> rw [hbb, hbb'] at hb <;> simp only [BodyTied] at hb <;> rw [hbb] at h1 <;> rw [hbb'] at h2
        · rw [← h1.2, ← h2.2, hb.length_eq]
        · rw [← h1.2.1, ← h2.2.1, hb.length_eq]
      rw [← this]
      exact hl'.body) hE hκ hb hx hn t
    obtain ⟨_, _, ec, hc, _⟩ := Body.computeOutput_ok hl.body x hx t
    rw [e] at ec
    cases ec
    obtain ⟨_, _, ec', hc', _⟩ := Body.computeOutput_ok hl'.body x' hx' t
    rw [e'] at ec'
    cases ec'
    have hlen : k' = k := by rw [← hc, ← hc', hnear.length_eq]
    subst hlen
    obtain ⟨z, hz, lz⟩ := testingHooks_ok l.optimizers (x := y) (by rw [hc]; exact hl.pos)
    obtain ⟨z', hz', lz'⟩ := testingHooks_ok l.optimizers (x := y') (by rw [hc']; exact hl.pos)
    have hg := opts_near hnear (by rw [hc]; exact hl.pos) hz hz'
    rw [← mul_assoc] at hg
    obtain ⟨o, q, o', q', f, f', g, r⟩ := ih hls hls' (mul_nonneg (hooks_gain_nonneg _) (mul_nonneg hK hρ)) hκ (by rw [lz, hc]) hg t
    have eo : l.output x t = .ok (z, { l with body := m }) := by simp [Layer.output, e, hz]
    have eo' : l'.output x' t = .ok (z', { l' with body := m' }) := by simp [Layer.output, e', hs.optimizers, hz']
    refine ⟨o, _ :: q, o', _ :: q', by simp [outputLoop, eo, f]; rfl, by simp [outputLoop, eo', f']; rfl, g, ?_⟩
    have s1 := Layer.output_same eo
    have s2 := Layer.output_same eo'
    exact .state (K := K) (((same_symm s1).trans hs).trans s2) hK hb' r

/-! ### The start -/

theorem forall₂_large {α : Type} {R : α → α → Prop} {S : ℝ → α → α → Prop} (h : ∀ a b, R a b → ∃ K0, ∀ K ≥ K0, S K a b) {l l' : List α}
    (hl : List.Forall₂ R l l') : ∃ K0, ∀ K ≥ K0, List.Forall₂ (S K) l l' := by
  induction hl with
  | nil => exact ⟨0, fun _ _ => .nil⟩
  | cons h1 _ ih =>
    obtain ⟨K1, k1⟩ := h _ _ h1
    obtain ⟨K2, k2⟩ := ih
    exact ⟨max K1 K2, fun K hK => .cons (k1 K (le_trans (le_max_left _ _) hK)) (k2 K (le_trans (le_max_right _ _) hK))⟩

/-- What the start needs of a pair of units. -/
structure UnitsOk (q : ℝ) (g g' : Gru ℝ) : Prop where
  same : g.Same g'
  acts : GruActs g
  zero : g.previousOutput = 0
  zero' : g'.previousOutput = 0
  below : unitFeedback g ≤ q

theorem shrink_large {q ρ f G E : ℝ} (hqρ : q < ρ) (hf : f ≤ q) (hG : 0 ≤ G) (hE : 0 ≤ E) {K : ℝ} (h0 : 0 ≤ K) (hK : G * E / (ρ - q) ≤ K) : f * K + G * E ≤ K * ρ := by
  rw [div_le_iff₀ (by linarith)] at hK
  have := mul_le_mul_of_nonneg_right hf h0
  linarith

theorem body_start {q ρ : ℝ} (hq : 0 ≤ q) (hqρ : q < ρ) {E : ℝ} (hE : 0 ≤ E) {l l' : Layer ℝ} (hs : l.Same l') (hp : ¬ NonRecurrent l) (hf : FeedbackBelow q (layerParams l))
    (ha : l.body.GruAll fun g => GruActs g) (hz : l.body.GruAll fun g => g.previousOutput = 0) (hz' : l'.body.GruAll fun g => g.previousOutput = 0) :
    ∃ K, 0 ≤ K ∧ BodyTied ρ E K 1 l.body l'.body := by
  have hb := hs.body
  have hρ : 0 < ρ := by linarith
  cases e : l.body <;> cases e' : l'.body <;> rw [e, e'] at hb <;> simp only [Body.Same] at hb <;> try (refine absurd ?_ hp; simp [NonRecurrent, e]; done)
  · rename_i ns ns'
    have hb' : List.Forall₂ (fun n n' : RecNeuron ℝ => n.base.Same n'.base ∧ neuronFeedback (neuronParams n.base) ≤ q) ns ns' := by
      have hall : ∀ n ∈ ns, neuronFeedback (neuronParams n.base) ≤ q := by
        simp only [FeedbackBelow, layerParams, e] at hf
        intro n hn
        exact hf _ (List.mem_map.2 ⟨n, hn, rfl⟩)
      clear hf hp hs e e'
      induction hb with
      | nil => exact .nil
      | cons h1 _ ih => exact .cons ⟨h1, hall _ (by simp)⟩ (ih fun n hn => hall n (by simp [hn]))
    obtain ⟨K0, hK⟩ := forall₂_large (S := fun K => RecTied ρ E (max K 0) 1) (fun a b hab => by
      refine ⟨max |a.lastOutput - b.lastOutput| (actGain a.base.activationFunction * absSum a.base.weights * E / (ρ - q)), fun K hK => ⟨hab.1, ?_, ?_⟩⟩
      · rw [mul_one]
        exact le_trans (le_trans (le_max_left _ _) hK) (le_max_left _ _)
      · exact shrink_large hqρ hab.2 (mul_nonneg (actGain_pos _) (absSum_nonneg _)) hE (le_max_right _ _) (le_trans (le_trans (le_max_right _ _) hK) (le_max_left _ _))) hb'
    exact ⟨max K0 0, le_max_right _ _, hK K0 le_rfl⟩
  · rename_i ns ns'
    have hb' : List.Forall₂ (UnitsOk q) ns ns' := by
      simp only [FeedbackBelow, layerParams, e] at hf
      rw [e] at ha hz
      rw [e'] at hz'
      simp only [Body.GruAll] at ha hz hz'
      clear hp hs e e'
      induction hb with
      | nil => exact .nil
      | cons h1 _ ih =>
        simp only [List.flatMap_cons, List.cons_append, List.nil_append, GruBelow] at hf
        exact .cons ⟨h1, ha _ (by simp), hz _ (by simp), hz' _ (by simp), hf.1⟩
          (ih (fun n hn => hz n (by simp [hn])) (fun n hn => ha n (by simp [hn])) (fun n hn => hz' n (by simp [hn])) hf.2)
    obtain ⟨K0, hK⟩ := forall₂_large (S := fun K => GruTied ρ E (max K 0) 1) (fun a b hab => by
      refine ⟨max (2 / ρ) (unitGain a * E / (ρ - q)), fun K hK => ⟨hab.same, hab.acts, hab.zero, hab.zero', .inl ?_, ?_⟩⟩
      · rw [mul_one]
        have : 2 / ρ ≤ max K 0 := le_trans (le_trans (le_max_left _ _) hK) (le_max_left _ _)
        rwa [div_le_iff₀ hρ] at this
      · exact shrink_large hqρ hab.below (unitGain_nonneg _) hE (le_max_right _ _) (le_trans (le_trans (le_max_right _ _) hK) (le_max_left _ _))) hb'
    exact ⟨max K0 0, le_max_right _ _, hK K0 le_rfl⟩

theorem tied_start {q ρ : ℝ} (hq : 0 ≤ q) (hqρ : q < ρ) : ∀ {ls ls' : List (Layer ℝ)}, List.Forall₂ Layer.Same ls ls' → (∀ l ∈ ls, FeedbackBelow q (layerParams l)) →
    (∀ l ∈ ls, l.body.GruAll fun g => GruActs g) → (∀ l ∈ ls, l.body.GruAll fun g => g.previousOutput = 0) →
    (∀ l ∈ ls', l.body.GruAll fun g => g.previousOutput = 0) → ∀ {E : ℝ}, 0 ≤ E → ∃ E', 0 ≤ E' ∧ Tied ρ 1 E ls ls' E' := by
  intro ls ls' h
  induction h with
  | nil => intro _ _ _ _ E hE; exact ⟨E, hE, .nil⟩
  | @cons l l' ls ls' hs _ ih =>
    intro hf ha hz hz' E hE
    by_cases hp : NonRecurrent l
    · obtain ⟨E', h0, h1⟩ := ih (fun l hl => hf l (by simp [hl])) (fun l hl => ha l (by simp [hl])) (fun l hl => hz l (by simp [hl])) (fun l hl => hz' l (by simp [hl]))
        (mul_nonneg (layerGain_nonneg (layerParams l)) hE)
      exact ⟨E', h0, .plain hs hp h1⟩
    · obtain ⟨K, hK, hb⟩ := body_start hq hqρ hE hs hp (hf l (by simp)) (ha l (by simp)) (hz l (by simp)) (hz' l' (by simp))
      obtain ⟨E', h0, h1⟩ := ih (fun l hl => hf l (by simp [hl])) (fun l hl => ha l (by simp [hl])) (fun l hl => hz l (by simp [hl])) (fun l hl => hz' l (by simp [hl]))
        (mul_nonneg (hooks_gain_nonneg l.optimizers) (mul_nonneg hK (le_trans hq hqρ.le)))
      exact ⟨E', h0, .state hs hK hb h1⟩

end Snn.Fade
