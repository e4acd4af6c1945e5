import Verif.Spec.ConvergeSpec
import Verif.Proofs.GradArch

/-! One layer of linear neurons, trained again and again on one example. -/

set_option linter.all false

namespace Snn.Converge

open Finset Snn.Spec Snn.Grad Snn.NeuronSpec

/-- The layer of linear neurons. -/
structure Lin (o : Sgd ℝ) (ni no : Nat) (n : Net ℝ) (ns : List (Neuron ℝ)) : Prop where
  wf : n.WF ni no
  nan : n.outputNan = false
  layers : ∃ l, n.layers = [l] ∧ l.optimizers = [] ∧ l.body = .fullyConnected ns
  act : ∀ m ∈ ns, m.activationFunction = .identity
  bias : ∀ m ∈ ns, m.bias = 1
  opt : ∀ m ∈ ns, m.optimizer = o

theorem Lin.neurons {o : Sgd ℝ} {ni no : Nat} {n : Net ℝ} {ns : List (Neuron ℝ)} (h : Lin o ni no n ns) :
    (∀ m ∈ ns, m.WF ni (ni + 1) 1) ∧ ns.length = no ∧ ∃ l, n.layers = [l] ∧ l.optimizers = [] ∧ l.body = .fullyConnected ns ∧ l.WF ni no := by
  obtain ⟨l, h1, h2, h3⟩ := h.layers
  have hw := h.wf.layers
  rw [h1] at hw
  cases hw with
  | cons hl hs =>
    cases hs
    have := hl.body
    rw [h3] at this
    exact ⟨this.1, this.2, l, h1, h2, h3, hl⟩

theorem value_lin {m : Neuron ℝ} {ni : Nat} (hw : m.WF ni (ni + 1) 1) (ha : m.activationFunction = .identity) (hb : m.bias = 1) {x : List ℝ} (hx : x.length = ni) :
    m.value x = (∑ i ∈ range ni, m.weights.getD i 0 * x.getD i 0) + m.weights.getD ni 0 ∧ Grad.slope m x = 1 := by
  rw [value_eq hw hx]
  unfold Grad.slope
  rw [ha, hb]
  unfold affine
  rw [hx]
  constructor
  · simp [Act.obj, ActObj.function]
  · simp [Act.obj, ActObj.derivative]

/-- The error of neuron k and its bias weight. -/
noncomputable def err (ns : List (Neuron ℝ)) (x des : List ℝ) (k : Nat) : ℝ := des.getD k 0 - (ns.map fun m => m.value x).getD k 0
noncomputable def bw (ns : List (Neuron ℝ)) (ni k : Nat) : ℝ := match ns[k]? with | some m => m.weights.getD ni 0 | none => 0

theorem output_lin {o : Sgd ℝ} {ni no : Nat} {n : Net ℝ} {ns : List (Neuron ℝ)} (h : Lin o ni no n ns) {x : List ℝ} (hx : x.length = ni) :
    ∃ n', n.output x false = .ok (ns.map fun m => m.value x, n') := by
  obtain ⟨h1, h2, l, h3, h4, h5, h6⟩ := h.neurons
  obtain ⟨y, n', e1, _⟩ := Net.output_ok h.wf x hx false
  refine ⟨n', ?_⟩
  rw [e1]
  unfold Net.output at e1
  split at e1
  · cases e1
  obtain ⟨⟨z, ls⟩, e2, e1⟩ := Res.bind_eq_ok.1 e1
  cases e1
  have := outputLoop_fnAll e2
  rw [h3] at this
  rw [this, fnAll, fnAll, fn_fc h4 h5 h1 hx]

theorem step_lin {o : Sgd ℝ} {ni no : Nat} {n : Net ℝ} {ns : List (Neuron ℝ)} (h : Lin o ni no n ns) (hmom : o.momentum = 0) {x des : List ℝ}
    (hx : x.length = ni) (hd : des.length = no) (t : Bool) (d : Draws ℝ) :
    ∃ n' ns', n.trainOnce x des t d = .ok (n', d) ∧ Lin o ni no n' ns' ∧ ∀ k < no,
      err ns' x des k = (1 - 2 * o.learningRate * (energy x + 1)) * err ns x des k + bw ns ni k ∧ bw ns' ni k = 2 * o.learningRate * err ns x des k := by
  obtain ⟨h1, h2, l, h3, h4, h5, h6⟩ := h.neurons
  obtain ⟨ns1, q1, q2⟩ := runNeurons_value (f := fun m : Neuron ℝ => m.output x) (g := fun m => m.value x) (P := fun m n1 => Ready ni m n1 x)
    (ns := ns) (fun m hm => neuron_run (h1 m hm) hx)
  have hes : (List.zipWith (fun d o => 2 * (d - o)) des (ns.map fun m => m.value x)).length = ns.length := by simp [hd, h2]
  obtain ⟨ns2, k1, k2⟩ := trainNeurons_run (ps := ns.map fun m => (m, idRow ni)) (x := x) (ns1 := ns1)
    (es := List.zipWith (fun d o => 2 * (d - o)) des (ns.map fun m => m.value x))
    (forall₂_map_left (q2.imp fun a b hab => by simpa [window_id hx] using hab)) (by simpa using hes)
  have hkin0 : ns1.length = ns.length := q2.length_eq.symm
  have hrun : n.trainOnce x des t d = .ok ({ n with layers := [{ l with body := .fullyConnected ns2 }], outputNan := false, numberOfTraining := n.numberOfTraining + 1 }, d) := by
    have e1 : trainingLoop t n.layers x d = .ok (ns.map fun m => m.value x, [{ l with body := .fullyConnected ns1 }], d) := by
      rw [h3]
      simp only [trainingLoop, Layer.outputForTraining, h5, h4, Body.computeOutput, q1, Res.ok_bind, Res.pure_eq, trainingHooks]
    have e2 : backwardPass [{ l with body := .fullyConnected ns1 }] (List.zipWith (fun d o => 2 * (d - o)) des (ns.map fun m => m.value x))
        = .ok [{ l with body := .fullyConnected ns2 }] := by
      simp only [backwardPass, backLoop, Layer.train, h4, backHooks, List.foldl_nil, Body.computeTrain, k1, Res.ok_bind, Res.pure_eq]
    have hemp : n.layers.isEmpty = false := by rw [h3]; rfl
    unfold Net.trainOnce Net.backpropagation Net.outputForTraining
    rw [hemp]
    simp only [Bool.false_eq_true, if_false, e1, Res.ok_bind, Res.pure_eq, h.nan, hasBadValue_real, Bool.or_false, Net.calculateError]
    rw [backOf_eq (show List.getLast? [({ l with body := .fullyConnected ns1 } : Layer ℝ)] = some { l with body := .fullyConnected ns1 } from rfl)]
    simp only [Res.ok_bind]
    have hno : Layer.getNumberOfNeurons { l with body := .fullyConnected ns1 } = no := by
      simp [Layer.getNumberOfNeurons, Body.numberOfNeurons, Body.weights]; omega
    rw [hno, errorsLoop_value no des _ hd (by simp [h2])]
    simp only [Res.ok_bind, e2]
  have hkin := (Net.trainOnce_toKin hrun).layers
  rw [h3] at hkin
  have hb : l.body.Kin (.fullyConnected ns2) := by cases hkin with | cons a b => exact a.body
  rw [h5] at hb
  have hb' : List.Forall₂ Neuron.Kin ns ns2 := hb
  have hact2 : ∀ m ∈ ns2, m.activationFunction = .identity := forall₂_forall hb' h.act fun a b hk ha => by rw [hk.activation]; exact ha
  have hbias2 : ∀ m ∈ ns2, m.bias = 1 := forall₂_forall hb' h.bias fun a b hk ha => by rw [hk.bias]; exact ha
  refine ⟨_, ns2, hrun, ⟨?_, rfl, ⟨_, rfl, h4, rfl⟩, hact2, hbias2, forall₂_forall hb' h.opt fun a b hk ha => by rw [hk.optimizer]; exact ha⟩, ?_⟩
  · obtain ⟨n', d', e1, e2, _⟩ := Net.trainOnce_ok h.wf x des hx hd t d
    rw [hrun] at e1
    cases e1
    exact e2
  · intro k hk
    have hk' : k < ns.length := by omega
    have hkd : k < des.length := by omega
    have hp : (ns.map fun m => (m, idRow ni))[k]? = some (ns[k], idRow ni) := by
      rw [List.getElem?_map, List.getElem?_eq_getElem hk']; rfl
    have hv : (ns.map fun m => m.value x).getD k 0 = ns[k].value x := by
      simp [List.getD_eq_getElem?_getD, List.getElem?_eq_getElem hk']
    have hz : ((ns.map fun m => (m, idRow ni)).zip (List.zipWith (fun d o => 2 * (d - o)) des (ns.map fun m => m.value x)))[k]?
        = some ((ns[k], idRow ni), 2 * err ns x des k) := by
      rw [List.getElem?_zip_eq_some]
      refine ⟨hp, ?_⟩
      simp [List.getElem?_zipWith, hk', hkd, err, List.getD_eq_getElem?_getD]
    obtain ⟨m2, g1, g2⟩ := forall₂_get k2 hz
    have hm2 : m2 ∈ ns2 := List.mem_of_getElem? g1
    have hm := List.getElem_mem hk'
    simp only [window_id hx] at g2
    obtain ⟨v1, s1⟩ := value_lin (h1 _ hm) (h.act _ hm) (h.bias _ hm) hx
    obtain ⟨v2, _⟩ := value_lin g2.wf (hact2 _ hm2) (hbias2 _ hm2) hx
    have hwt : ∀ i < ni, m2.weights.getD i 0 = ns[k].weights.getD i 0 + o.learningRate * (2 * err ns x des k) * x.getD i 0 := by
      intro i hi
      rw [g2.weight i (by omega), s1, h.opt _ hm, hmom, Grad.keep, if_pos (by rw [(h1 _ hm).wlen]; omega), List.getD_append _ _ _ _ (by omega)]
      ring
    have hwb : m2.weights.getD ni 0 = 2 * o.learningRate * err ns x des k := by
      rw [g2.weight ni (le_refl _), s1, h.opt _ hm, hmom, Grad.keep, if_neg (by rw [(h1 _ hm).wlen]; omega), List.getD_append_right _ _ _ _ (by omega), h.bias _ hm, hx]
      simp
      ring
    have hbw : bw ns ni k = ns[k].weights.getD ni 0 := by simp only [bw, List.getElem?_eq_getElem hk']
    refine ⟨?_, by simp only [bw, g1]; exact hwb⟩
    have hv2 : (ns2.map fun m => m.value x).getD k 0 = m2.value x := by
      simp [List.getD_eq_getElem?_getD, g1]
    have e1 : err ns2 x des k = des.getD k 0 - m2.value x := by rw [err, hv2]
    have e2 : err ns x des k = des.getD k 0 - ns[k].value x := by rw [err, hv]
    rw [e1, v2, hwb]
    have hsum : (∑ i ∈ range ni, m2.weights.getD i 0 * x.getD i 0)
        = (∑ i ∈ range ni, ns[k].weights.getD i 0 * x.getD i 0) + o.learningRate * (2 * err ns x des k) * energy x := by
      unfold energy
      rw [hx, Finset.mul_sum, ← Finset.sum_add_distrib]
      apply Finset.sum_congr rfl
      intro i hi
      rw [hwt i (by simpa using hi)]
      ring
    rw [hsum, hbw]
    have : des.getD k 0 = err ns x des k + ((∑ i ∈ range ni, ns[k].weights.getD i 0 * x.getD i 0) + ns[k].weights.getD ni 0) := by
      rw [e2, v1]; ring
    rw [this]
    ring

/-- The errors of the network after N steps. -/
theorem times_lin {o : Sgd ℝ} {ni no : Nat} (hmom : o.momentum = 0) {x des : List ℝ} (hx : x.length = ni) (hd : des.length = no) (t : Bool) (d : Draws ℝ) :
    ∀ (N : Nat) {n : Net ℝ} {ns : List (Neuron ℝ)}, Lin o ni no n ns → ∃ n' ns', trainTimes x des t N n d = .ok (n', d) ∧ Lin o ni no n' ns'
  | 0, n, ns, h => ⟨n, ns, rfl, h⟩
  | N + 1, n, ns, h => by
    obtain ⟨n1, ns1, h1, h2, _⟩ := step_lin h hmom hx hd t d
    obtain ⟨n2, ns2, h3, h4⟩ := times_lin hmom hx hd t d N h2
    exact ⟨n2, ns2, by simp [trainTimes, h1, h3], h4⟩

/-- The sequences of the error and of the bias weight. -/
noncomputable def seqE (a b e w : ℝ) : Nat → ℝ × ℝ
  | 0 => (e, w)
  | N + 1 => (a * (seqE a b e w N).1 + (seqE a b e w N).2, b * (seqE a b e w N).1)

theorem seqE_shift (a b e w : ℝ) : ∀ N, seqE a b (a * e + w) (b * e) N = seqE a b e w (N + 1)
  | 0 => rfl
  | N + 1 => by rw [seqE, seqE_shift a b e w N]; rfl

theorem times_seq {o : Sgd ℝ} {ni no : Nat} (hmom : o.momentum = 0) {x des : List ℝ} (hx : x.length = ni) (hd : des.length = no) (t : Bool) (d : Draws ℝ) :
    ∀ (N : Nat) {n : Net ℝ} {ns : List (Neuron ℝ)}, Lin o ni no n ns → ∃ n' ns', trainTimes x des t N n d = .ok (n', d) ∧ Lin o ni no n' ns' ∧
      ∀ k < no, (err ns' x des k, bw ns' ni k)
        = seqE (1 - 2 * o.learningRate * (energy x + 1)) (2 * o.learningRate) (err ns x des k) (bw ns ni k) N
  | 0, n, ns, h => ⟨n, ns, rfl, h, fun k hk => rfl⟩
  | N + 1, n, ns, h => by
    obtain ⟨n1, ns1, h1, h2, h5⟩ := step_lin h hmom hx hd t d
    obtain ⟨n2, ns2, h3, h4, h6⟩ := times_seq hmom hx hd t d N h2
    refine ⟨n2, ns2, by simp [trainTimes, h1, h3], h4, ?_⟩
    intro k hk
    rw [h6 k hk, (h5 k hk).1, (h5 k hk).2, seqE_shift]

/-- The network answers with the errors of the sequence. -/
theorem after_seq {o : Sgd ℝ} {ni no : Nat} (hmom : o.momentum = 0) {x des : List ℝ} (hx : x.length = ni) (hd : des.length = no) (t : Bool) (d : Draws ℝ)
    (N : Nat) {n : Net ℝ} {ns : List (Neuron ℝ)} (h : Lin o ni no n ns) {P : List ℝ → Prop}
    (hP : ∀ y : List ℝ, (∀ k < no, des.getD k 0 - y.getD k 0
      = (seqE (1 - 2 * o.learningRate * (energy x + 1)) (2 * o.learningRate) (err ns x des k) (bw ns ni k) N).1) → P y) : AfterTraining n d x des t N P := by
  obtain ⟨n', ns', h1, h2, h3⟩ := times_seq hmom hx hd t d N h
  obtain ⟨n'', h4⟩ := output_lin h2 hx
  refine ⟨n', d, _, n'', h1, h4, by simp [h2.neurons.2.1, hd], hP _ ?_⟩
  intro k hk
  have := congrArg Prod.fst (h3 k hk)
  exact this

/-- The bound of the sequence. -/
theorem seqE_bound {a b e w ρ M : ℝ} (hb : 0 ≤ b) (hρ : |a| + b ≤ ρ) (h1 : ρ ≤ 1) (h0 : |e| ≤ M) (h2 : |a * e + w| ≤ M) :
    ∀ N, |(seqE a b e w N).1| ≤ ρ ^ (N / 2) * M
  | 0 => by simpa [seqE] using h0
  | 1 => by simpa [seqE] using h2
  | N + 2 => by
    have i1 := seqE_bound hb hρ h1 h0 h2 (N + 1)
    have i0 := seqE_bound hb hρ h1 h0 h2 N
    have hρ0 : 0 ≤ ρ := le_trans (add_nonneg (abs_nonneg a) hb) hρ
    have hM : 0 ≤ M := le_trans (abs_nonneg _) h0
    have e2 : (seqE a b e w (N + 2)).1 = a * (seqE a b e w (N + 1)).1 + b * (seqE a b e w N).1 := rfl
    rw [e2]
    have hdiv : (N + 2) / 2 = N / 2 + 1 := by omega
    have hmono : ρ ^ ((N + 1) / 2) ≤ ρ ^ (N / 2) := pow_le_pow_of_le_one hρ0 h1 (by omega)
    have i1' : |(seqE a b e w (N + 1)).1| ≤ ρ ^ (N / 2) * M := le_trans i1 (mul_le_mul_of_nonneg_right hmono hM)
    calc |a * (seqE a b e w (N + 1)).1 + b * (seqE a b e w N).1|
        ≤ |a| * |(seqE a b e w (N + 1)).1| + b * |(seqE a b e w N).1| := by
          refine (abs_add_le _ _).trans ?_
          rw [abs_mul, abs_mul, abs_of_nonneg hb]
      _ ≤ |a| * (ρ ^ (N / 2) * M) + b * (ρ ^ (N / 2) * M) :=
          add_le_add (mul_le_mul_of_nonneg_left i1' (abs_nonneg a)) (mul_le_mul_of_nonneg_left i0 hb)
      _ = (|a| + b) * (ρ ^ (N / 2) * M) := by ring
      _ ≤ ρ * (ρ ^ (N / 2) * M) := mul_le_mul_of_nonneg_right hρ (mul_nonneg (pow_nonneg hρ0 _) hM)
      _ = ρ ^ ((N + 2) / 2) * M := by rw [hdiv, pow_succ]; ring

/-- Errors of alternating signs that do not decrease. -/
theorem seqE_grows {a b e w : ℝ} (hb : 0 ≤ b) (ha : 1 + a ≤ b) (hneg : a ≤ 0) (h0 : 1 ≤ e) (h1 : a * e + w ≤ -1) :
    ∀ N, 1 ≤ (-1) ^ N * (seqE a b e w N).1
  | 0 => by simpa [seqE] using h0
  | 1 => by simp only [seqE, pow_one]; linarith
  | N + 2 => by
    have i1 := seqE_grows hb ha hneg h0 h1 (N + 1)
    have i0 := seqE_grows hb ha hneg h0 h1 N
    have e2 : (-1) ^ (N + 2) * (seqE a b e w (N + 2)).1
        = (-a) * ((-1) ^ (N + 1) * (seqE a b e w (N + 1)).1) + b * ((-1) ^ N * (seqE a b e w N).1) := by
      have : (seqE a b e w (N + 2)).1 = a * (seqE a b e w (N + 1)).1 + b * (seqE a b e w N).1 := rfl
      rw [this, pow_succ, pow_succ]; ring
    rw [e2]
    have j1 : -a ≤ (-a) * ((-1) ^ (N + 1) * (seqE a b e w (N + 1)).1) := le_mul_of_one_le_right (by linarith) i1
    have j0 : b ≤ b * ((-1) ^ N * (seqE a b e w N).1) := le_mul_of_one_le_right hb i0
    nlinarith

end Snn.Converge
