import Verif.Proofs.ConvergeProofs

/-! One layer of linear neurons, trained again and again on one example, with momentum. -/

set_option linter.all false

namespace Snn.Converge

open Finset Snn.Spec Snn.Grad Snn.NeuronSpec

/-- The error of neuron k, the last increments of its weights against the input, the last increment of its bias weight, its bias weight. -/
noncomputable def state (ns : List (Neuron ℝ)) (x des : List ℝ) (ni k : Nat) : ℝ × ℝ × ℝ × ℝ := match ns[k]? with
  | some m => (err ns x des k, ∑ i ∈ range ni, (mem m).getD i 0 * x.getD i 0, (mem m).getD ni 0, m.weights.getD ni 0)
  | none => (err ns x des k, 0, 0, 0)

/-- What a training step does to it. -/
noncomputable def next (a c m : ℝ) (s : ℝ × ℝ × ℝ × ℝ) : ℝ × ℝ × ℝ × ℝ :=
  (s.1 - (a * s.1 + m * s.2.1) - (c * s.1 + m * s.2.2.1) + s.2.2.2, a * s.1 + m * s.2.1, c * s.1 + m * s.2.2.1, c * s.1 + m * s.2.2.1)

theorem step_momentum {o : Sgd ℝ} {ni no : Nat} {n : Net ℝ} {ns : List (Neuron ℝ)} (h : Lin o ni no n ns) {x des : List ℝ}
    (hx : x.length = ni) (hd : des.length = no) (t : Bool) (d : Draws ℝ) :
    ∃ n' ns', n.trainOnce x des t d = .ok (n', d) ∧ Lin o ni no n' ns' ∧ ∀ k < no,
      state ns' x des ni k = next (2 * o.learningRate * energy x) (2 * o.learningRate) o.momentum (state ns x des ni k) := by
  obtain ⟨h1, h2, l, h3, h4, h5, h6⟩ := h.neurons
  obtain ⟨ns1, q1, q2⟩ := runNeurons_value (f := fun m : Neuron ℝ => m.output x) (g := fun m => m.value x) (P := fun m n1 => Ready ni m n1 x)
    (ns := ns) (fun m hm => neuron_run (h1 m hm) hx)
  have hes : (List.zipWith (fun d o => 2 * (d - o)) des (ns.map fun m => m.value x)).length = ns.length := by simp [hd, h2]
  obtain ⟨ns2, k1, k2⟩ := trainNeurons_run (ps := ns.map fun m => (m, idRow ni)) (x := x) (ns1 := ns1)
    (es := List.zipWith (fun d o => 2 * (d - o)) des (ns.map fun m => m.value x))
    (forall₂_map_left (q2.imp fun a b hab => by simpa [window_id hx] using hab)) (by simpa using hes)
  have hkin0 : ns1.length = ns.length := q2.length_eq.symm
  have hrun : n.trainOnce x des t d = .ok ({ n with layers := [{ l with body := .fullyConnected ns2 }], outputNan := false, numberOfTraining := n.numberOfTraining + 1 }, d) := by
    have e1 : trainingLoop t n.layers x d = .ok (ns.map fun m => m.value x, [{ l with body := .fullyConnected ns1 }], d) := by
      rw [h3]
      simp only [trainingLoop, Layer.outputForTraining, h5, h4, Body.computeOutput, q1, Res.ok_bind, Res.pure_eq, trainingHooks]
    have e2 : backwardPass [{ l with body := .fullyConnected ns1 }] (List.zipWith (fun d o => 2 * (d - o)) des (ns.map fun m => m.value x))
        = .ok [{ l with body := .fullyConnected ns2 }] := by
      simp only [backwardPass, backLoop, Layer.train, h4, backHooks, List.foldl_nil, Body.computeTrain, k1, Res.ok_bind, Res.pure_eq]
    have hemp : n.layers.isEmpty = false := by rw [h3]; rfl
    unfold Net.trainOnce Net.backpropagation Net.outputForTraining
    rw [hemp]
    simp only [Bool.false_eq_true, if_false, e1, Res.ok_bind, Res.pure_eq, h.nan, hasBadValue_real, Bool.or_false, Net.calculateError]
    rw [backOf_eq (show List.getLast? [({ l with body := .fullyConnected ns1 } : Layer ℝ)] = some { l with body := .fullyConnected ns1 } from rfl)]
    simp only [Res.ok_bind]
    have hno : Layer.getNumberOfNeurons { l with body := .fullyConnected ns1 } = no := by
      simp [Layer.getNumberOfNeurons, Body.numberOfNeurons, Body.weights]; omega
    rw [hno, errorsLoop_value no des _ hd (by simp [h2])]
    simp only [Res.ok_bind, e2]
  have hkin := (Net.trainOnce_toKin hrun).layers
  rw [h3] at hkin
  have hb : l.body.Kin (.fullyConnected ns2) := by cases hkin with | cons a b => exact a.body
  rw [h5] at hb
  have hb' : List.Forall₂ Neuron.Kin ns ns2 := hb
  have hact2 : ∀ m ∈ ns2, m.activationFunction = .identity := forall₂_forall hb' h.act fun a b hk ha => by rw [hk.activation]; exact ha
  have hbias2 : ∀ m ∈ ns2, m.bias = 1 := forall₂_forall hb' h.bias fun a b hk ha => by rw [hk.bias]; exact ha
  refine ⟨_, ns2, hrun, ⟨?_, rfl, ⟨_, rfl, h4, rfl⟩, hact2, hbias2, forall₂_forall hb' h.opt fun a b hk ha => by rw [hk.optimizer]; exact ha⟩, ?_⟩
  · obtain ⟨n', d', e1, e2, _⟩ := Net.trainOnce_ok h.wf x des hx hd t d
    rw [hrun] at e1
    cases e1
    exact e2
  · intro k hk
    have hk' : k < ns.length := by omega
    have hkd : k < des.length := by omega
    have hp : (ns.map fun m => (m, idRow ni))[k]? = some (ns[k], idRow ni) := by
      rw [List.getElem?_map, List.getElem?_eq_getElem hk']; rfl
    have hv : (ns.map fun m => m.value x).getD k 0 = ns[k].value x := by
      simp [List.getD_eq_getElem?_getD, List.getElem?_eq_getElem hk']
    have hz : ((ns.map fun m => (m, idRow ni)).zip (List.zipWith (fun d o => 2 * (d - o)) des (ns.map fun m => m.value x)))[k]?
        = some ((ns[k], idRow ni), 2 * err ns x des k) := by
      rw [List.getElem?_zip_eq_some]
      refine ⟨hp, ?_⟩
      simp [List.getElem?_zipWith, hk', hkd, err, List.getD_eq_getElem?_getD]
    obtain ⟨m2, g1, g2⟩ := forall₂_get k2 hz
    have hm2 : m2 ∈ ns2 := List.mem_of_getElem? g1
    have hm := List.getElem_mem hk'
    simp only [window_id hx] at g2
    obtain ⟨v1, s1⟩ := value_lin (h1 _ hm) (h.act _ hm) (h.bias _ hm) hx
    obtain ⟨v2, _⟩ := value_lin g2.wf (hact2 _ hm2) (hbias2 _ hm2) hx
    have hmi : ∀ i ≤ ni, (mem m2).getD i 0 = m2.weights.getD i 0 - Grad.keep ns[k].weights i := fun i hi => g2.memory i hi
    have hwt : ∀ i < ni, m2.weights.getD i 0 = ns[k].weights.getD i 0 + (o.learningRate * (2 * err ns x des k) * x.getD i 0 + o.momentum * (mem ns[k]).getD i 0) := by
      intro i hi
      rw [g2.weight i (by omega), s1, h.opt _ hm, Grad.keep, if_pos (by rw [(h1 _ hm).wlen]; omega), List.getD_append _ _ _ _ (by omega)]
      ring
    have hmt : ∀ i < ni, (mem m2).getD i 0 = o.learningRate * (2 * err ns x des k) * x.getD i 0 + o.momentum * (mem ns[k]).getD i 0 := by
      intro i hi
      rw [hmi i (by omega), hwt i hi, Grad.keep, if_pos (by rw [(h1 _ hm).wlen]; omega)]
      ring
    have hwb : m2.weights.getD ni 0 = 2 * o.learningRate * err ns x des k + o.momentum * (mem ns[k]).getD ni 0 := by
      rw [g2.weight ni (le_refl _), s1, h.opt _ hm, Grad.keep, if_neg (by rw [(h1 _ hm).wlen]; omega), List.getD_append_right _ _ _ _ (by omega), h.bias _ hm, hx]
      simp
      ring
    have hmb : (mem m2).getD ni 0 = m2.weights.getD ni 0 := by
      rw [hmi ni (le_refl _), Grad.keep, if_neg (by rw [(h1 _ hm).wlen]; omega), sub_zero]
    have hv2 : (ns2.map fun m => m.value x).getD k 0 = m2.value x := by
      simp [List.getD_eq_getElem?_getD, g1]
    have e1 : err ns2 x des k = des.getD k 0 - m2.value x := by rw [err, hv2]
    have e2 : err ns x des k = des.getD k 0 - ns[k].value x := by rw [err, hv]
    have hP : (∑ i ∈ range ni, (mem m2).getD i 0 * x.getD i 0)
        = 2 * o.learningRate * energy x * err ns x des k + o.momentum * ∑ i ∈ range ni, (mem ns[k]).getD i 0 * x.getD i 0 := by
      unfold energy
      rw [hx, Finset.mul_sum, Finset.mul_sum, Finset.sum_mul, ← Finset.sum_add_distrib]
      apply Finset.sum_congr rfl
      intro i hi
      rw [hmt i (by simpa using hi)]
      ring
    have hsum : (∑ i ∈ range ni, m2.weights.getD i 0 * x.getD i 0)
        = (∑ i ∈ range ni, ns[k].weights.getD i 0 * x.getD i 0) + ∑ i ∈ range ni, (mem m2).getD i 0 * x.getD i 0 := by
      rw [← Finset.sum_add_distrib]
      apply Finset.sum_congr rfl
      intro i hi
      rw [hwt i (by simpa using hi), hmt i (by simpa using hi)]
      ring
    have f1 : state ns2 x des ni k = (err ns2 x des k, ∑ i ∈ range ni, (mem m2).getD i 0 * x.getD i 0, (mem m2).getD ni 0, m2.weights.getD ni 0) := by
      simp only [state, g1]
    have f0 : state ns x des ni k = (err ns x des k, ∑ i ∈ range ni, (mem ns[k]).getD i 0 * x.getD i 0, (mem ns[k]).getD ni 0, ns[k].weights.getD ni 0) := by
      simp only [state, List.getElem?_eq_getElem hk']
    rw [f1, f0]
    unfold next
    refine Prod.ext ?_ (Prod.ext ?_ (Prod.ext ?_ ?_))
    · dsimp only
      rw [e1, v2, hwb, hsum, hP]
      have : des.getD k 0 = err ns x des k + ((∑ i ∈ range ni, ns[k].weights.getD i 0 * x.getD i 0) + ns[k].weights.getD ni 0) := by
        rw [e2, v1]; ring
      rw [this]
      ring
    · exact hP
    · rw [hmb]; exact hwb
    · exact hwb


theorem times_momentum {o : Sgd ℝ} {ni no : Nat} {x des : List ℝ} (hx : x.length = ni) (hd : des.length = no) (t : Bool) (d : Draws ℝ) :
    ∀ (N : Nat) {n : Net ℝ} {ns : List (Neuron ℝ)}, Lin o ni no n ns → ∃ n' ns', trainTimes x des t N n d = .ok (n', d) ∧ Lin o ni no n' ns' ∧
      ∀ k < no, state ns' x des ni k = (next (2 * o.learningRate * energy x) (2 * o.learningRate) o.momentum)^[N] (state ns x des ni k)
  | 0, n, ns, h => ⟨n, ns, rfl, h, fun k hk => rfl⟩
  | N + 1, n, ns, h => by
    obtain ⟨n1, ns1, h1, h2, h5⟩ := step_momentum h hx hd t d
    obtain ⟨n2, ns2, h3, h4, h6⟩ := times_momentum hx hd t d N h2
    refine ⟨n2, ns2, by simp [trainTimes, h1, h3], h4, ?_⟩
    intro k hk
    rw [h6 k hk, h5 k hk, Function.iterate_succ_apply]

theorem state_err {ns : List (Neuron ℝ)} {x des : List ℝ} {ni k : Nat} : (state ns x des ni k).1 = err ns x des k := by
  unfold state
  split <;> rfl

theorem after_momentum {o : Sgd ℝ} {ni no : Nat} {x des : List ℝ} (hx : x.length = ni) (hd : des.length = no) (t : Bool) (d : Draws ℝ)
    (N : Nat) {n : Net ℝ} {ns : List (Neuron ℝ)} (h : Lin o ni no n ns) {P : List ℝ → Prop}
    (hP : ∀ y : List ℝ, (∀ k < no, des.getD k 0 - y.getD k 0
      = ((next (2 * o.learningRate * energy x) (2 * o.learningRate) o.momentum)^[N] (state ns x des ni k)).1) → P y) : AfterTraining n d x des t N P := by
  obtain ⟨n', ns', h1, h2, h3⟩ := times_momentum hx hd t d N h
  obtain ⟨n'', h4⟩ := output_lin h2 hx
  refine ⟨n', d, _, n'', h1, h4, by simp [h2.neurons.2.1, hd], hP _ ?_⟩
  intro k hk
  rw [← h3 k hk, state_err]
  rfl

/-- After one step the last increment of the bias weight is the bias weight, and the errors follow a linear recurrence of order two. -/
theorem next_order2 (a c m : ℝ) (s : ℝ × ℝ × ℝ × ℝ) (N : Nat) :
    ((next a c m)^[N + 3] s).1 = (1 + m - a - c) * ((next a c m)^[N + 2] s).1 - (m - c) * ((next a c m)^[N + 1] s).1 := by
  have hb : ((next a c m)^[N + 1] s).2.2.1 = ((next a c m)^[N + 1] s).2.2.2 := by
    rw [Function.iterate_succ_apply']
    rfl
  rw [Function.iterate_succ_apply', Function.iterate_succ_apply' (n := N + 1)]
  generalize (next a c m)^[N + 1] s = z at hb
  obtain ⟨e, P, B, b⟩ := z
  simp only at hb
  subst hb
  simp only [next]
  ring

/-- A linear recurrence of order two whose characteristic roots are in the unit disc. -/
theorem order2_zero {p q : ℝ} (hq : |q| < 1) (hp : |p| < 1 + q) {u : ℕ → ℝ} (hu : ∀ n, u (n + 2) = p * u (n + 1) - q * u n) :
    Filter.Tendsto u Filter.atTop (nhds 0) := by
  obtain ⟨q1, q2⟩ := abs_lt.1 hq
  obtain ⟨p1, p2⟩ := abs_lt.1 hp
  let V : ℕ → ℝ := fun n => (1 + q) * (u (n + 1) ^ 2 + u n ^ 2) - 2 * p * u (n + 1) * u n
  have hV : ∀ n, V n - V (n + 1) = (1 - q) * (u (n + 2) - u n) ^ 2 := by
    intro n
    show ((1 + q) * (u (n + 1) ^ 2 + u n ^ 2) - 2 * p * u (n + 1) * u n) - ((1 + q) * (u (n + 2) ^ 2 + u (n + 1) ^ 2) - 2 * p * u (n + 2) * u (n + 1)) = _
    rw [hu n]
    ring
  have h0 : ∀ n, 0 ≤ V n := by
    intro n
    show 0 ≤ (1 + q) * (u (n + 1) ^ 2 + u n ^ 2) - 2 * p * u (n + 1) * u n
    nlinarith [mul_nonneg (show 0 ≤ 1 + q - p by linarith) (sq_nonneg (u (n + 1) + u n)), mul_nonneg (show 0 ≤ 1 + q + p by linarith) (sq_nonneg (u (n + 1) - u n))]
  have hanti : Antitone V := antitone_nat_of_succ_le fun n => by
    have := hV n
    have : 0 ≤ (1 - q) * (u (n + 2) - u n) ^ 2 := mul_nonneg (by linarith) (sq_nonneg _)
    linarith
  have hconv : Filter.Tendsto V Filter.atTop (nhds (⨅ n, V n)) := tendsto_atTop_ciInf hanti ⟨0, by rintro _ ⟨n, rfl⟩; exact h0 n⟩
  have hdiff : Filter.Tendsto (fun n => V n - V (n + 1)) Filter.atTop (nhds 0) := by
    have := hconv.sub ((Filter.tendsto_add_atTop_iff_nat 1).2 hconv)
    simpa using this
  have hsq : Filter.Tendsto (fun n => (u (n + 2) - u n) ^ 2) Filter.atTop (nhds 0) := by
    have := hdiff.const_mul (1 - q)⁻¹
    rw [mul_zero] at this
    refine this.congr fun n => ?_
    rw [hV n, ← mul_assoc, inv_mul_cancel₀ (by linarith), one_mul]
  have hδ : Filter.Tendsto (fun n => u (n + 2) - u n) Filter.atTop (nhds 0) := by
    have := (Real.continuous_sqrt.tendsto 0).comp hsq
    rw [Real.sqrt_zero] at this
    rw [tendsto_zero_iff_abs_tendsto_zero]
    refine this.congr fun n => ?_
    simp [Real.sqrt_sq_eq_abs]
  have hδ1 : Filter.Tendsto (fun n => u (n + 1 + 2) - u (n + 1)) Filter.atTop (nhds 0) := (Filter.tendsto_add_atTop_iff_nat (f := fun n => u (n + 2) - u n) 1).2 hδ
  have hdet : (1 + q) ^ 2 - p ^ 2 ≠ 0 := by nlinarith
  have := ((hδ.const_mul (p ^ 2 - (1 + q))).sub (hδ1.const_mul p)).const_mul ((1 + q) ^ 2 - p ^ 2)⁻¹
  simp only [mul_zero, sub_zero] at this
  refine this.congr fun n => ?_
  have e : (p ^ 2 - (1 + q)) * (u (n + 2) - u n) - p * (u (n + 1 + 2) - u (n + 1)) = ((1 + q) ^ 2 - p ^ 2) * u n := by
    rw [hu (n + 1), hu n]
    ring
  rw [e, ← mul_assoc, inv_mul_cancel₀ hdet, one_mul]

end Snn.Converge
