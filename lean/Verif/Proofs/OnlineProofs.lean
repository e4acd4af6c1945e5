import Verif.Spec.OnlineSpec
import Verif.Proofs.ConvergeProofs
import Verif.Proofs.Kaczmarz
import Mathlib.Algebra.BigOperators.Field

/-! The layer of linear neurons follows the recurrence of `Kaczmarz.lean`. -/

set_option linter.all false

namespace Snn.Converge

open Finset Snn.Spec Snn.Grad Snn.NeuronSpec Snn.Online

/-- A vector as a function. -/
def vec (x : List ℝ) : Nat → ℝ := fun i => x.getD i 0

/-- The weights and the weight of the bias of neuron k. -/
noncomputable def stOf (ns : List (Neuron ℝ)) (ni k : Nat) : St :=
  (fun i => if i < ni then match ns[k]? with | some m => m.weights.getD i 0 | none => 0 else 0, bw ns ni k)

/-- What neuron k sees of an example. -/
def seen (k : Nat) (p : Example) : (Nat → ℝ) × ℝ := (vec p.1, p.2.getD k 0)

theorem err_er {o : Sgd ℝ} {ni no : Nat} {n : Net ℝ} {ns : List (Neuron ℝ)} (h : Lin o ni no n ns) {x des : List ℝ} (hx : x.length = ni) {k : Nat}
    (hk : k < no) : err ns x des k = er ni (stOf ns ni k) (seen k (x, des)) := by
  obtain ⟨h1, h2, l, h3, h4, h5, h6⟩ := h.neurons
  have hk' : k < ns.length := by omega
  have hm := List.getElem_mem hk'
  obtain ⟨v1, _⟩ := value_lin (h1 _ hm) (h.act _ hm) (h.bias _ hm) hx
  have hv : (ns.map fun m => m.value x).getD k 0 = ns[k].value x := by
    simp [List.getD_eq_getElem?_getD, List.getElem?_eq_getElem hk']
  rw [err, hv, v1, er]
  have e1 : Online.dot ni (stOf ns ni k).1 (vec x) = ∑ i ∈ range ni, ns[k].weights.getD i 0 * x.getD i 0 := by
    unfold Online.dot
    apply Finset.sum_congr rfl
    intro i hi
    have hi' : i < ni := by simpa using hi
    simp only [stOf, if_pos hi', List.getElem?_eq_getElem hk', vec]
  have e2 : (stOf ns ni k).2 = ns[k].weights.getD ni 0 := by simp only [stOf, bw, List.getElem?_eq_getElem hk']
  simp only [seen, e1, e2]

theorem step_weights {o : Sgd ℝ} {ni no : Nat} {n : Net ℝ} {ns : List (Neuron ℝ)} (h : Lin o ni no n ns) (hmom : o.momentum = 0) {x des : List ℝ}
    (hx : x.length = ni) (hd : des.length = no) (t : Bool) (d : Draws ℝ) :
    ∃ n' ns', n.trainOnce x des t d = .ok (n', d) ∧ Lin o ni no n' ns' ∧ ∀ k < no,
      stOf ns' ni k = st (2 * o.learningRate) ni (stOf ns ni k) (seen k (x, des)) := by
  obtain ⟨h1, h2, l, h3, h4, h5, h6⟩ := h.neurons
  obtain ⟨ns1, q1, q2⟩ := runNeurons_value (f := fun m : Neuron ℝ => m.output x) (g := fun m => m.value x) (P := fun m n1 => Ready ni m n1 x)
    (ns := ns) (fun m hm => neuron_run (h1 m hm) hx)
  have hes : (List.zipWith (fun d o => 2 * (d - o)) des (ns.map fun m => m.value x)).length = ns.length := by simp [hd, h2]
  obtain ⟨ns2, k1, k2⟩ := trainNeurons_run (ps := ns.map fun m => (m, idRow ni)) (x := x) (ns1 := ns1)
    (es := List.zipWith (fun d o => 2 * (d - o)) des (ns.map fun m => m.value x))
    (forall₂_map_left (q2.imp fun a b hab => by simpa [window_id hx] using hab)) (by simpa using hes)
  have hrun : n.trainOnce x des t d = .ok ({ n with layers := [{ l with body := .fullyConnected ns2 }], outputNan := false, numberOfTraining := n.numberOfTraining + 1 }, d) := by
    have e1 : trainingLoop t n.layers x d = .ok (ns.map fun m => m.value x, [{ l with body := .fullyConnected ns1 }], d) := by
      rw [h3]
      simp only [trainingLoop, Layer.outputForTraining, h5, h4, Body.computeOutput, q1, Res.ok_bind, Res.pure_eq, trainingHooks]
    have e2 : backwardPass [{ l with body := .fullyConnected ns1 }] (List.zipWith (fun d o => 2 * (d - o)) des (ns.map fun m => m.value x))
        = .ok [{ l with body := .fullyConnected ns2 }] := by
      simp only [backwardPass, backLoop, Layer.train, h4, backHooks, List.foldl_nil, Body.computeTrain, k1, Res.ok_bind, Res.pure_eq]
    have hemp : n.layers.isEmpty = false := by rw [h3]; rfl
    unfold Net.trainOnce Net.backpropagation Net.outputForTraining
    rw [hemp]
    simp only [Bool.false_eq_true, if_false, e1, Res.ok_bind, Res.pure_eq, h.nan, hasBadValue_real, Bool.or_false, Net.calculateError]
    rw [backOf_eq (show List.getLast? [({ l with body := .fullyConnected ns1 } : Layer ℝ)] = some { l with body := .fullyConnected ns1 } from rfl)]
    simp only [Res.ok_bind]
    have hno : Layer.getNumberOfNeurons { l with body := .fullyConnected ns1 } = no := by
      have := q2.length_eq
      simp [Layer.getNumberOfNeurons, Body.numberOfNeurons, Body.weights]; omega
    rw [hno, errorsLoop_value no des _ hd (by simp [h2])]
    simp only [Res.ok_bind, e2]
  obtain ⟨n', ns', hr', hl', -⟩ := step_lin h hmom hx hd t d
  obtain ⟨l', hl1, hl2, hl3⟩ := hl'.layers
  have hns : ns' = ns2 := by
    rw [hrun] at hr'
    cases hr'
    simp only [List.cons.injEq, and_true] at hl1
    rw [← hl1] at hl3
    simpa using hl3.symm
  subst hns
  refine ⟨n', ns', hr', hl', ?_⟩
  intro k hk
  rw [st, ← err_er h hx hk]
  have hk' : k < ns.length := by omega
  have hkd : k < des.length := by omega
  have hp : (ns.map fun m => (m, idRow ni))[k]? = some (ns[k], idRow ni) := by
    rw [List.getElem?_map, List.getElem?_eq_getElem hk']; rfl
  have hz : ((ns.map fun m => (m, idRow ni)).zip (List.zipWith (fun d o => 2 * (d - o)) des (ns.map fun m => m.value x)))[k]?
      = some ((ns[k], idRow ni), 2 * err ns x des k) := by
    rw [List.getElem?_zip_eq_some]
    refine ⟨hp, ?_⟩
    simp [List.getElem?_zipWith, hk', hkd, err, List.getD_eq_getElem?_getD]
  obtain ⟨m2, g1, g2⟩ := forall₂_get k2 hz
  have hm := List.getElem_mem hk'
  simp only [window_id hx] at g2
  obtain ⟨v1, s1⟩ := value_lin (h1 _ hm) (h.act _ hm) (h.bias _ hm) hx
  have hwt : ∀ i < ni, m2.weights.getD i 0 = ns[k].weights.getD i 0 + o.learningRate * (2 * err ns x des k) * x.getD i 0 := by
    intro i hi
    rw [g2.weight i (by omega), s1, h.opt _ hm, hmom, Grad.keep, if_pos (by rw [(h1 _ hm).wlen]; omega), List.getD_append _ _ _ _ (by omega)]
    ring
  have hwb : m2.weights.getD ni 0 = 2 * o.learningRate * err ns x des k := by
    rw [g2.weight ni (le_refl _), s1, h.opt _ hm, hmom, Grad.keep, if_neg (by rw [(h1 _ hm).wlen]; omega), List.getD_append_right _ _ _ _ (by omega), h.bias _ hm, hx]
    simp
    ring
  have e2 : (stOf ns' ni k).2 = 2 * o.learningRate * err ns x des k := by simp only [stOf, bw, g1]; exact hwb
  refine Prod.ext ?_ e2
  funext i
  simp only [stOf, g1, List.getElem?_eq_getElem hk', seen, vec]
  split
  · rename_i hi
    rw [hwt i hi]
    ring
  · rename_i hi
    rw [List.getD_eq_default _ _ (by omega)]
    ring

/-- The network answers each example, then learns it ; the sum of the squared errors. -/
noncomputable def onlineError : List Example → Net ℝ → Draws ℝ → Res ℝ
  | [], _, _ => .ok 0
  | p :: ps, n, d => do
    let (y, _) ← n.output p.1 false
    let (n1, d1) ← n.trainOnce p.1 p.2 false d
    let rest ← onlineError ps n1 d1
    return squaredError p.2 y + rest

theorem online_answers : ∀ (ps : List Example) {n : Net ℝ} {d : Draws ℝ} {tot : ℝ}, onlineError ps n d = .ok tot →
    ∃ ys, onlineAnswers ps n d = .ok ys ∧ ys.length = ps.length ∧ (squaredErrors ps ys).sum = tot
  | [], n, d, tot, h => by
    have : (0 : ℝ) = tot := Res.ok.inj h
    exact ⟨[], rfl, rfl, this⟩
  | p :: ps, n, d, tot, h => by
    unfold onlineError at h
    obtain ⟨⟨y, n0⟩, h1, h⟩ := Res.bind_eq_ok.1 h
    obtain ⟨⟨n1, d1⟩, h2, h⟩ := Res.bind_eq_ok.1 h
    obtain ⟨rest, h3, h⟩ := Res.bind_eq_ok.1 h
    have h : squaredError p.2 y + rest = tot := Res.ok.inj h
    obtain ⟨ys, k1, k2, k3⟩ := online_answers ps h3
    refine ⟨y :: ys, ?_, by simp [k2], ?_⟩
    · unfold onlineAnswers
      simp only [h1, Res.ok_bind, h2, k1, Res.pure_eq]
    · rw [← h, ← k3]; rfl

theorem squaredError_sum {no : Nat} {des y : List ℝ} (hd : des.length = no) : squaredError des y = ∑ k ∈ range no, (des.getD k 0 - y.getD k 0) ^ 2 := by
  rw [squaredError, hd]

/-- The errors of a sequence of examples are those of the recurrences of the neurons. -/
theorem online_run {o : Sgd ℝ} {ni no : Nat} (hmom : o.momentum = 0) : ∀ (ps : List Example) {n : Net ℝ} {ns : List (Neuron ℝ)} (d : Draws ℝ), Lin o ni no n ns →
    (∀ p ∈ ps, p.1.length = ni ∧ p.2.length = no) →
    onlineError ps n d = .ok (∑ k ∈ range no, total (2 * o.learningRate) ni (stOf ns ni k) (ps.map (seen k)))
  | [], n, ns, d, h, hs => by simp [onlineError, total]
  | p :: ps, n, ns, d, h, hs => by
    obtain ⟨hx, hd⟩ := hs p (by simp)
    obtain ⟨n1, e1⟩ := output_lin h hx
    obtain ⟨n', ns', e2, e3, e4⟩ := step_weights h hmom hx hd false d
    have ih := online_run hmom ps d e3 fun q hq => hs q (by simp [hq])
    rw [onlineError, e1]
    simp only [Res.ok_bind, e2, ih, Res.pure_eq]
    congr 1
    rw [squaredError_sum hd, ← Finset.sum_add_distrib]
    apply Finset.sum_congr rfl
    intro k hk
    have hk' : k < no := by simpa using hk
    simp only [List.map_cons, total]
    rw [← err_er h hx hk', ← e4 k hk']
    rfl

/-- The rows of weights of the network. -/
theorem rows_lin {o : Sgd ℝ} {ni no : Nat} {n : Net ℝ} {ns : List (Neuron ℝ)} (h : Lin o ni no n ns) : Net.rows n = ns.map (·.weights) := by
  obtain ⟨l, h1, h2, h3⟩ := h.layers
  simp [Net.rows, h1, h3, Body.weights, Neuron.getWeights]

theorem gap_rows {o : Sgd ℝ} {ni no : Nat} {n : Net ℝ} {ns : List (Neuron ℝ)} (h : Lin o ni no n ns) (η : ℝ) {W : List (List ℝ)} (hW : W.length = no) :
    ruleDistance η ni W (Net.rows n) = ∑ k ∈ range no, gap (2 * η) ni (vec (W.getD k [])) (stOf ns ni k) := by
  unfold ruleDistance
  rw [hW, rows_lin h]
  apply Finset.sum_congr rfl
  intro k hk
  have hk' : k < ns.length := by have := h.neurons.2.1; have : k < no := by simpa using hk
                                 omega
  have e1 : (ns.map (·.weights)).getD k [] = ns[k].weights := by simp [List.getD_eq_getElem?_getD, List.getElem?_eq_getElem hk']
  rw [e1, gap]
  have e2 : (stOf ns ni k).2 = ns[k].weights.getD ni 0 := by simp only [stOf, bw, List.getElem?_eq_getElem hk']
  rw [e2]
  congr 1
  · unfold Online.dot
    apply Finset.sum_congr rfl
    intro i hi
    have hi' : i < ni := by simpa using hi
    simp only [stOf, if_pos hi', List.getElem?_eq_getElem hk', vec]
    ring
  · ring

theorem energy_dot {x : List ℝ} {ni : Nat} (hx : x.length = ni) : Online.dot ni (vec x) (vec x) = energy x := by
  unfold Online.dot energy
  rw [hx]
  exact Finset.sum_congr rfl fun i _ => by simp only [vec]; ring

theorem rule_getD {W : List (List ℝ)} {x : List ℝ} {ni k : Nat} (hx : x.length = ni) (hk : k < W.length) :
    (rule W x).getD k 0 = Online.dot ni (vec (W.getD k [])) (vec x) := by
  unfold rule Online.dot
  rw [List.getD_eq_getElem?_getD, List.getElem?_map, List.getElem?_eq_getElem hk]
  simp only [Option.map_some, Option.getD_some, hx, vec]
  simp [List.getD_eq_getElem?_getD, List.getElem?_eq_getElem hk]

theorem hindsight_sum {W : List (List ℝ)} {ni no : Nat} (hW : W.length = no) : ∀ (ps : List Example), (∀ p ∈ ps, p.1.length = ni ∧ p.2.length = no) →
    hindsightError (rule W) ps = ∑ k ∈ range no, ((ps.map (seen k)).map fun p => (p.2 - Online.dot ni (vec (W.getD k [])) p.1) ^ 2).sum
  | [], _ => by simp [hindsightError]
  | p :: ps, hs => by
    have ih := hindsight_sum hW ps fun q hq => hs q (by simp [hq])
    unfold hindsightError at ih ⊢
    simp only [List.map_cons, List.sum_cons]
    rw [ih, Finset.sum_add_distrib, squaredError_sum (hs p (by simp)).2]
    congr 1
    apply Finset.sum_congr rfl
    intro k hk
    rw [rule_getD (hs p (by simp)).1 (by rw [hW]; simpa using hk)]
    rfl

/-- The sum of the errors of a network of linear neurons, compared with those of any linear rule. -/
theorem online_le {o : Sgd ℝ} {ni no : Nat} (hmom : o.momentum = 0) (hlr : 0 < o.learningRate) (ps : List Example) {n : Net ℝ} {ns : List (Neuron ℝ)} (d : Draws ℝ)
    (h : Lin o ni no n ns) (hs : ∀ p ∈ ps, p.1.length = ni ∧ p.2.length = no) (hstep : ∀ p ∈ ps, 4 * o.learningRate * (energy p.1 + 4 * o.learningRate) ≤ 1)
    {W : List (List ℝ)} (hW : W.length = no) : ∃ tot, onlineError ps n d = .ok tot ∧
      tot ≤ ruleDistance o.learningRate ni W (Net.rows n) / o.learningRate + 4 * hindsightError (rule W) ps := by
  refine ⟨_, online_run hmom ps d h hs, ?_⟩
  rw [gap_rows h _ hW, hindsight_sum hW ps hs, Finset.sum_div, Finset.mul_sum, ← Finset.sum_add_distrib]
  apply Finset.sum_le_sum
  intro k hk
  have hε : 0 < 2 * o.learningRate := by positivity
  have key := total_le hε (n := ni) (vec (W.getD k [])) (ps.map (seen k)) (stOf ns ni k) (by
    intro q hq
    obtain ⟨p, hp, rfl⟩ := List.mem_map.1 hq
    show 2 * o.learningRate * (Online.dot ni (vec p.1) (vec p.1) + 2 * (2 * o.learningRate)) ≤ 1 / 2
    rw [energy_dot (hs p hp).1]
    have := hstep p hp
    linarith)
  have g0 := gap_nonneg hε.le ni (vec (W.getD k [])) (run (2 * o.learningRate) ni (stOf ns ni k) (ps.map (seen k)))
  rw [← sub_le_iff_le_add, le_div_iff₀ hlr]
  nlinarith

theorem squaredError_nonneg (a b : List ℝ) : 0 ≤ squaredError a b := Finset.sum_nonneg fun i _ => sq_nonneg _

theorem squaredErrors_nonneg (ps : List Example) (ys : List (List ℝ)) : ∀ v ∈ squaredErrors ps ys, 0 ≤ v := by
  induction ps generalizing ys with
  | nil => simp [squaredErrors]
  | cons p ps ih =>
    cases ys with
    | nil => simp [squaredErrors]
    | cons y ys =>
      intro v hv
      rcases List.mem_cons.1 (show v ∈ squaredError p.2 y :: squaredErrors ps ys from hv) with rfl | hv
      · exact squaredError_nonneg _ _
      · exact ih ys v hv

/-- Few numbers of a list of small sum are great. -/
theorem count_le {l : List ℝ} (h : ∀ v ∈ l, 0 ≤ v) {δ : ℝ} (hδ : 0 < δ) : (l.countP fun v => decide (δ ≤ v)) * δ ≤ l.sum := by
  induction l with
  | nil => simp
  | cons v l ih =>
    have ih := ih fun w hw => h w (by simp [hw])
    have h0 := h v (by simp)
    rw [List.countP_cons, List.sum_cons]
    by_cases hv : δ ≤ v
    · simp only [hv, decide_true, if_true]; push_cast; linarith
    · simp only [hv, decide_false, Bool.false_eq_true, if_false]; push_cast; linarith

/-- The input 0 is never learned by the weight of the bias. -/
theorem zero_pair {ε y : ℝ} {n : Nat} {s : St} {p : (Nat → ℝ) × ℝ} (hx : ∀ i, p.1 i = 0) : p.2 = er n (st ε n s p) p + ε * er n s p := by
  have hd : ∀ u, Online.dot n u p.1 = 0 := fun u => by unfold Online.dot; simp [hx]
  simp only [er, hd, st]
  ring

theorem total_nonneg (ε : ℝ) (n : Nat) : ∀ (ps : List ((Nat → ℝ) × ℝ)) (s : St), 0 ≤ total ε n s ps
  | [], s => le_refl _
  | p :: ps, s => by simp only [total]; have := total_nonneg ε n ps (st ε n s p); positivity

theorem zero_total {ε : ℝ} {n : Nat} {p : (Nat → ℝ) × ℝ} (hx : ∀ i, p.1 i = 0) : ∀ (K : Nat) (s : St),
    K * (p.2 ^ 2 / (1 + ε ^ 2)) ≤ total ε n s (List.replicate (2 * K) p)
  | 0, s => by simp [total]
  | K + 1, s => by
    rw [show 2 * (K + 1) = (2 * K + 1) + 1 by ring, List.replicate_succ, List.replicate_succ]
    simp only [total]
    have ih := zero_total (ε := ε) (n := n) hx K (st ε n (st ε n s p) p)
    have hp : p.2 = er n (st ε n s p) p + ε * er n s p := zero_pair (y := 0) hx
    have : p.2 ^ 2 / (1 + ε ^ 2) ≤ er n s p ^ 2 + er n (st ε n s p) p ^ 2 := by
      rw [div_le_iff₀ (by positivity), hp]
      nlinarith [sq_nonneg (er n s p - ε * er n (st ε n s p) p)]
    push_cast
    linarith

end Snn.Converge
