import Verif.Proofs.ConvLined
import Verif.Spec.ConvSpec
import Verif.Props.NeuronProps

/-! One round of a convolution: the forward pass fills the buffers of the neurons, the backward pass reads them in the same order. -/

set_option linter.all false

namespace Snn.Conv

open Finset Spec

section
variable {F : Type} [Field F] [LinearOrder F] [IsStrictOrderedRing F] [FTrans F]

/-! ### Forward -/

/-- After the forward pass of the first k positions. -/
structure Fwd (size b kg : Nat) (xs : Nat → List F) (n0 : Neuron F) (k : Nat) (n : Neuron F) : Prop where
  wf : n.WF size (size + 1) b
  stage : n.Stage b k kg
  same : n0.Same n
  stored : ∀ p < k, n.lastInputs.queue[p]? = some (xs p)
  sum : ∀ p, k = p + 1 → n.sum = affine n0.weights (xs p) n0.bias

theorem Fwd.step {size b kg k : Nat} {xs : Nat → List F} {n0 n n' : Neuron F} {y : F} (h : Fwd size b kg xs n0 k n) (hk : k < b) (hx : (xs k).length = size)
    (ho : n.output (xs k) = .ok (y, n')) : Fwd size b kg xs n0 (k + 1) n' ∧ y = n0.activationFunction.obj.function (affine n0.weights (xs k) n0.bias) := by
  obtain ⟨s, wb, li, hwb, hs, hpush, ho', hw⟩ := Neuron.output_ok h.wf (xs k) hx
  have hs' : s = affine n0.weights (xs k) n0.bias := by
    rw [hs, ← h.same.weights, ← h.same.bias]
    exact NeuronSpec.affine_eq (by rw [h.wf.wlen]; omega) (by rw [hx]; exact hwb)
  obtain ⟨st, hq, _⟩ := Neuron.output_stage ho h.stage hk
  have hsame := h.same.trans (Neuron.output_same ho)
  rw [ho'] at ho
  cases ho
  refine ⟨⟨hw, st, hsame, ?_, ?_⟩, by rw [hs', h.same.activation]⟩
  · intro p hp
    rw [hq, List.getElem?_set]
    split
    · next e => subst e; rw [if_pos (by rw [h.stage.lenL]; exact hk)]
    · exact h.stored p (by omega)
  · intro p hp
    obtain rfl : k = p := by omega
    exact hs'

theorem runNeurons_fwd {size b kg k : Nat} {xs : Nat → List F} (hk : k < b) (hx : (xs k).length = size) :
    ∀ {n0s ns ns' : List (Neuron F)} {os : List F}, List.Forall₂ (fun n0 n => Fwd size b kg xs n0 k n) n0s ns →
    runNeurons (fun n => n.output (xs k)) ns = .ok (os, ns') →
    List.Forall₂ (fun n0 n => Fwd size b kg xs n0 (k + 1) n) n0s ns' ∧
      os = n0s.map fun n0 => n0.activationFunction.obj.function (affine n0.weights (xs k) n0.bias)
  | [], _, ns', os, .nil, h => by cases h; exact ⟨.nil, rfl⟩
  | n0 :: n0s, _, ns', os, .cons (b := n) (l₂ := ns) h1 h2, h => by
    unfold runNeurons at h
    obtain ⟨⟨o, n1⟩, h3, h⟩ := Res.bind_eq_ok.1 h
    obtain ⟨⟨os1, ns1⟩, h4, h⟩ := Res.bind_eq_ok.1 h
    cases h
    obtain ⟨a, e⟩ := h1.step hk hx h3
    obtain ⟨c, e2⟩ := runNeurons_fwd hk hx h2 h4
    exact ⟨.cons a c, by simp [e, e2]⟩

theorem convOutputs_fwd {inputs : List F} {size b kg : Nat} {xs : Nat → List F} : ∀ {rows : List (List Int)} {n0s ns ns' : List (Neuron F)} {os : List F}
    {k : Nat}, convOutputs inputs size rows ns = .ok (os, ns') → k + rows.length ≤ b →
    (∀ j row, rows[j]? = some row → gather inputs size row = .ok (xs (k + j)) ∧ (xs (k + j)).length = size) →
    List.Forall₂ (fun n0 n => Fwd size b kg xs n0 k n) n0s ns →
    List.Forall₂ (fun n0 n => Fwd size b kg xs n0 (k + rows.length) n) n0s ns' ∧
      os = (List.range rows.length).flatMap fun j => n0s.map fun n0 => n0.activationFunction.obj.function (affine n0.weights (xs (k + j)) n0.bias)
  | [], n0s, ns, ns', os, k, h, hb, hr, hf => by cases h; exact ⟨hf, rfl⟩
  | row :: rows, n0s, ns, ns', os, k, h, hb, hr, hf => by
    unfold convOutputs at h
    obtain ⟨x, h0, h⟩ := Res.bind_eq_ok.1 h
    obtain ⟨⟨o, ns1⟩, h1, h⟩ := Res.bind_eq_ok.1 h
    obtain ⟨⟨os1, ns2⟩, h2, h⟩ := Res.bind_eq_ok.1 h
    cases h
    simp only [List.length_cons] at hb
    obtain ⟨g1, g2⟩ := hr 0 row rfl
    rw [h0] at g1
    cases g1
    obtain ⟨a, e⟩ := runNeurons_fwd (by omega) g2 hf h1
    obtain ⟨c, e2⟩ := convOutputs_fwd (k := k + 1) h2 (by omega) (fun j row hj => by
      have := hr (j + 1) row (by simpa using hj)
      rwa [show k + 1 + j = k + (j + 1) by omega]) a
    refine ⟨by simpa [Nat.add_assoc, Nat.add_comm 1] using c, ?_⟩
    rw [e, e2, List.length_cons, List.range_succ_eq_map, List.flatMap_cons, List.flatMap_map]
    simp only [Nat.add_zero, Nat.succ_eq_add_one]
    congr 2
    funext j
    rw [show k + 1 + j = k + (j + 1) by omega]

/-! ### Backward -/

/-- What position p adds to weight i, from the state n1 of the neuron between the two passes; `e p` is the error of its output. -/
def incr (b : Nat) (n1 : Neuron F) (e : Nat → F) (p i : Nat) : F :=
  increment (n1.optimizer.learningRate / b) n1.optimizer.momentum (e p * n1.activationFunction.obj.derivative n1.sum) n1.bias
    (n1.lastInputs.queue.getD p []) (n1.previousDeltaWeights.queue.getD p []) i

/-- After the backward pass of the first k positions. -/
structure Bwd (size b kp : Nat) (e : Nat → F) (n1 : Neuron F) (k : Nat) (n : Neuron F) : Prop where
  wf : n.WF size (size + 1) b
  stage : n.Stage b kp k
  kin : n1.Kin n
  sum : n.sum = n1.sum
  inputs : n.lastInputs.queue = n1.lastInputs.queue
  weights : ∀ i < size, n.weights.getD i 0 = n1.weights.getD i 0 + ∑ p ∈ range k, incr b n1 e p i
  bias : ∀ p, k = p + 1 → n.weights.getD size 0 = incr b n1 e p size
  memory : ∀ p < b, ∀ i ≤ size, (n.previousDeltaWeights.queue.getD p []).getD i 0 =
    if p < k then incr b n1 e p i else (n1.previousDeltaWeights.queue.getD p []).getD i 0

theorem getD_zip {a b : List F} {i : Nat} (f : F → F → F) (ha : i < a.length) (hb : i < b.length) :
    (List.zipWith f a b).getD i 0 = f (a.getD i 0) (b.getD i 0) := by
  simp [List.getD_eq_getElem?_getD, List.getElem?_eq_getElem ha, List.getElem?_eq_getElem hb, List.getElem?_zipWith]

theorem Bwd.step {size b kp k : Nat} {e : Nat → F} {n1 n n' : Neuron F} {es : List F} (h : Bwd size b kp e n1 k n) (hk : k < b)
    (ho : n.backOutput (e k) = .ok (es, n')) : Bwd size b kp e n1 (k + 1) n' ∧ es.length = size ∧
      ∀ j < size, es.getD j 0 = e k * n1.activationFunction.obj.derivative n1.sum * (n1.weights.getD j 0 + ∑ p ∈ range k, incr b n1 e p j) := by
  obtain ⟨es', n2, hb, hwf, hes, hu⟩ := Neuron.backOutput_ok h.wf (e k)
  have hst := Neuron.backOutput_stage ho h.stage hk
  have hkin := Neuron.backOutput_kin ho
  rw [hb] at ho
  cases ho
  have hlen : es.length = size := by rw [hes]; simp [h.wf.wlen]
  have hwf' : Neuron.WF { n with errors := es } size (size + 1) b := ⟨h.wf.inputs, h.wf.batch, h.wf.pos, h.wf.wlen, hlen, h.wf.last, h.wf.prev⟩
  obtain ⟨x, li, p, pd, pd', wl, dl, hgx, hx, hgp, hp, hwl, hdl, hpush, hu', _⟩ :=
    n.optimizer.updateSimple_ok hwf' (e k * n.activationFunction.obj.derivative n.sum)
  rw [hu] at hu'
  cases hu'
  obtain ⟨hx1, hx2⟩ := Circ.getBack_at (b := b) (k := k) hgx h.stage.lenL h.stage.get hk
  obtain ⟨hp1, hp2⟩ := Circ.getBack_at (b := b) (k := k) hgp h.stage.lenP h.stage.pget hk
  subst hx2 hp2
  have hpush' := Circ.pushBack_at (b := b) (k := k) hpush h.stage.lenP h.stage.ppush hk
  subst hpush'
  simp only at hx1 hp1 hdl hwl ⊢
  have hxq : n1.lastInputs.queue.getD k [] = x := by
    rw [← h.inputs]; simp only [List.getD_eq_getElem?_getD, hx1]; rfl
  have hd : ∀ i ≤ size, (sgdDeltas (n.optimizer.learningRate / lit (b : Rat) * (e k * n.activationFunction.obj.derivative n.sum)) n.optimizer.momentum
      (x ++ [n.bias]) p).getD i 0 = incr b n1 e k i := by
    intro i hi
    unfold sgdDeltas
    rw [getD_zip _ (by simp [hx]; omega) (by omega)]
    have hm := h.memory k hk i hi
    rw [if_neg (by omega)] at hm
    have hpk : n.previousDeltaWeights.queue.getD k [] = p := by simp only [List.getD_eq_getElem?_getD, hp1]; rfl
    rw [hpk] at hm
    unfold incr increment
    rw [hxq, ← hm, h.kin.optimizer, h.kin.activation, h.kin.bias, h.sum]
    simp
  have hdlen : (sgdDeltas (n.optimizer.learningRate / lit (b : Rat) * (e k * n.activationFunction.obj.derivative n.sum)) n.optimizer.momentum
      (x ++ [n.bias]) p).length = size + 1 := by simp [sgdDeltas, hx, hp]
  have htl : (n.weights.take size).length = size := by simp [h.wf.wlen]
  have hsl : (sgdDeltas (n.optimizer.learningRate / lit (b : Rat) * (e k * n.activationFunction.obj.derivative n.sum)) n.optimizer.momentum
      x (p.take size)).length = size := by simp [sgdDeltas, hx, hp]
  refine ⟨⟨hwf, hst, h.kin.trans hkin, h.sum, h.inputs, ?_, ?_, ?_⟩, hlen, ?_⟩
  · intro i hi
    rw [Finset.sum_range_succ, ← add_assoc, ← h.weights i hi, ← hd i (by omega), hdl]
    rw [List.getD_append _ _ _ _ (by rw [List.length_zipWith]; omega), List.getD_append _ _ _ _ (by omega)]
    rw [getD_zip _ (by omega) (by omega)]
    congr 1
    simp only [List.getD_eq_getElem?_getD, List.getElem?_take, if_pos hi]
  · intro q hq
    obtain rfl : k = q := by omega
    rw [← hd size (le_refl _), hdl]
    rw [List.getD_append_right _ _ _ _ (by rw [List.length_zipWith]; omega), List.getD_append_right _ _ _ _ (by omega), List.length_zipWith, hsl, htl,
      Nat.min_self]
  · intro q hq i hi
    have hql : k < n.previousDeltaWeights.queue.length := by rw [h.stage.lenP]; exact hk
    by_cases e1 : q = k
    · subst e1
      rw [if_pos (by omega)]
      have : (n.previousDeltaWeights.queue.set q (sgdDeltas (n.optimizer.learningRate / lit (b : Rat) * (e q * n.activationFunction.obj.derivative n.sum)) n.optimizer.momentum
        (x ++ [n.bias]) p)).getD q [] = sgdDeltas (n.optimizer.learningRate / lit (b : Rat) * (e q * n.activationFunction.obj.derivative n.sum)) n.optimizer.momentum
        (x ++ [n.bias]) p := by
        simp only [List.getD_eq_getElem?_getD, List.getElem?_set_self hql]; rfl
      rw [this]
      exact hd i hi
    · have : (n.previousDeltaWeights.queue.set k (sgdDeltas (n.optimizer.learningRate / lit (b : Rat) * (e k * n.activationFunction.obj.derivative n.sum)) n.optimizer.momentum
        (x ++ [n.bias]) p)).getD q [] = n.previousDeltaWeights.queue.getD q [] := by
        simp only [List.getD_eq_getElem?_getD, List.getElem?_set_ne (Ne.symm e1)]
      rw [this, h.memory q hq i hi]
      by_cases e2 : q < k
      · rw [if_pos e2, if_pos (by omega)]
      · rw [if_neg e2, if_neg (by omega)]
  · intro j hj
    rw [hes, ← h.weights j hj, ← h.sum, ← h.kin.activation]
    simp [List.getD_eq_getElem?_getD, List.getElem?_take, hj, List.getElem?_eq_getElem (show j < n.weights.length by rw [h.wf.wlen]; omega)]

/-- The error that position k of the neuron sends back through its weight j. -/
def sent (b : Nat) (pr : Neuron F × (Nat → F)) (k j : Nat) : F :=
  pr.2 k * pr.1.activationFunction.obj.derivative pr.1.sum * (pr.1.weights.getD j 0 + ∑ p ∈ range k, incr b pr.1 pr.2 p j)

theorem scatter_run : ∀ {row : List Int} {es acc : List F}, es.length = row.length → (∀ i ∈ row, 0 ≤ i ∧ i < (acc.length : Int)) →
    ∃ r, scatter row es acc = .ok r ∧ r.length = acc.length ∧ ∀ i : Nat, r.getD i 0 = acc.getD i 0 + ∑ j ∈ range row.length, if row.getD j 0 = (i : Int) then es.getD j 0 else 0
  | [], [], acc, _, _ => ⟨acc, rfl, rfl, by intro i; simp⟩
  | [], e :: es, acc, h, _ => by simp at h
  | i :: row, [], acc, h, _ => by simp at h
  | i :: row, e :: es, acc, h, hi => by
    obtain ⟨h0, h1⟩ := hi i (by simp)
    obtain ⟨k, rfl⟩ := Int.eq_ofNat_of_zero_le h0
    have hk : k < acc.length := by omega
    obtain ⟨r, g1, g2, g3⟩ := scatter_run (row := row) (es := es) (acc := acc.set k (acc[k] + e)) (by simpa using h)
      (fun j hj => by simpa using hi j (by simp [hj]))
    refine ⟨r, ?_, by simpa using g2, ?_⟩
    · simp only [scatter]
      rw [rd_nat _ _ hk]
      simp only [Res.ok_bind]
      rw [wr_nat _ _ _ hk]
      exact g1
    · intro i
      rw [g3 i, List.length_cons, Finset.sum_range_succ']
      simp only [List.getD_cons_succ, List.getD_cons_zero]
      by_cases e1 : k = i
      · subst e1
        rw [if_pos rfl]
        simp only [List.getD_eq_getElem?_getD, List.getElem?_set_self hk, List.getElem?_eq_getElem hk, Option.getD_some]
        ring
      · rw [if_neg (by omega)]
        simp only [List.getD_eq_getElem?_getD, List.getElem?_set_ne e1]
        ring

theorem convBackRow_run {size b kp k ni : Nat} {row : List Int} (hrow : row.length = size) (hi : ∀ i ∈ row, 0 ≤ i ∧ i < (ni : Int)) (hk : k < b) :
    ∀ {ps : List (Neuron F × (Nat → F))} {ns ns' : List (Neuron F)} {es acc r : List F},
    List.Forall₂ (fun pr n => Bwd size b kp pr.2 pr.1 k n) ps ns → (∀ (q : Nat) pr, ps[q]? = some pr → es[q]? = some (pr.2 k)) → acc.length = ni →
    convBackRow row ns es acc = .ok (r, ns') →
    List.Forall₂ (fun pr n => Bwd size b kp pr.2 pr.1 (k + 1) n) ps ns' ∧ r.length = ni ∧
      ∀ i : Nat, r.getD i 0 = acc.getD i 0 + (ps.map fun pr => ∑ j ∈ range size, if row.getD j 0 = (i : Int) then sent b pr k j else 0).sum
  | [], _, ns', es, acc, r, .nil, he, ha, h => by cases h; exact ⟨.nil, ha, by intro i; simp⟩
  | pr :: ps, _, ns', [], acc, r, .cons (b := n) (l₂ := ns) h1 h2, he, ha, h => by have := he 0 pr rfl; simp at this
  | pr :: ps, _, ns', e :: es, acc, r, .cons (b := n) (l₂ := ns) h1 h2, he, ha, h => by
    unfold convBackRow at h
    obtain ⟨⟨er, n'⟩, g1, h⟩ := Res.bind_eq_ok.1 h
    obtain ⟨acc', g2, h⟩ := Res.bind_eq_ok.1 h
    obtain ⟨⟨r', ns2⟩, g3, h⟩ := Res.bind_eq_ok.1 h
    cases h
    have e0 := he 0 pr rfl
    simp only [List.getElem?_cons_zero, Option.some.injEq] at e0
    subst e0
    obtain ⟨a, hl, hs⟩ := h1.step hk g1
    obtain ⟨acc'', s1, s2, s3⟩ := scatter_run (row := row) (es := er) (acc := acc) (by omega) (by rw [ha]; exact hi)
    rw [g2] at s1
    cases s1
    obtain ⟨c, c2, c3⟩ := convBackRow_run hrow hi hk h2 (fun q p hq => by have := he (q + 1) p (by simpa using hq); simpa using this) (by omega) g3
    refine ⟨.cons a c, c2, ?_⟩
    intro i
    rw [c3 i, s3 i, hrow, List.map_cons, List.sum_cons, add_assoc]
    congr 2
    apply Finset.sum_congr rfl
    intro j hj
    rw [Finset.mem_range] at hj
    rw [hs j hj]
    rfl

theorem convBack_run {size b kp ni : Nat} : ∀ {rows : List (List Int)} {ps : List (Neuron F × (Nat → F))} {ns ns' : List (Neuron F)} {es acc r : List F} {k : Nat},
    (∀ row ∈ rows, row.length = size ∧ ∀ i ∈ row, 0 ≤ i ∧ i < (ni : Int)) → k + rows.length ≤ b →
    List.Forall₂ (fun pr n => Bwd size b kp pr.2 pr.1 k n) ps ns →
    (∀ p < rows.length, ∀ (q : Nat) pr, ps[q]? = some pr → es[p * ps.length + q]? = some (pr.2 (k + p))) → acc.length = ni →
    convBack rows ns es acc = .ok (r, ns') →
    List.Forall₂ (fun pr n => Bwd size b kp pr.2 pr.1 (k + rows.length) n) ps ns' ∧ r.length = ni ∧
      ∀ i : Nat, r.getD i 0 = acc.getD i 0 + ∑ p ∈ range rows.length,
        (ps.map fun pr => ∑ j ∈ range size, if (rows.getD p []).getD j 0 = (i : Int) then sent b pr (k + p) j else 0).sum
  | [], ps, ns, ns', es, acc, r, k, hr, hb, hf, he, ha, h => by cases h; exact ⟨hf, ha, by intro i; simp⟩
  | row :: rows, ps, ns, ns', es, acc, r, k, hr, hb, hf, he, ha, h => by
    unfold convBack at h
    obtain ⟨⟨acc1, ns1⟩, h1, h⟩ := Res.bind_eq_ok.1 h
    simp only [List.length_cons] at hb he
    obtain ⟨r1, r2⟩ := hr row (by simp)
    obtain ⟨a, a2, a3⟩ := convBackRow_run r1 r2 (by omega) hf (fun q pr hq => by
      have := he 0 (by omega) q pr hq
      simpa using this) ha h1
    have hlen : ns.length = ps.length := hf.length_eq.symm
    obtain ⟨c, c2, c3⟩ := convBack_run (k := k + 1) (es := es.drop ns.length) (fun row hrow => hr row (by simp [hrow])) (by omega) a (fun p hp q pr hq => by
      have := he (p + 1) (by omega) q pr hq
      rw [List.getElem?_drop, hlen]
      rw [show k + 1 + p = k + (p + 1) by omega, ← this]
      congr 1
      rw [Nat.succ_mul]; omega) a2 h
    refine ⟨by simpa [Nat.add_assoc, Nat.add_comm 1] using c, c2, ?_⟩
    intro i
    rw [c3 i, a3 i, List.length_cons, Finset.sum_range_succ', add_assoc]
    congr 1
    rw [add_comm]
    congr 1
    apply Finset.sum_congr rfl
    intro p _
    rw [show k + 1 + p = k + (p + 1) by omega]
    rfl

/-! ### One round -/

theorem pick_seen {x : List F} {row : List Int} (h : ∀ i ∈ row, 0 ≤ i ∧ i < (x.length : Int)) : pick x row = seen x row := by
  unfold pick seen
  apply List.map_congr_left
  intro i hi
  rw [if_pos (h i hi).1]
  simp

theorem flatMap_getD {α : Type} (f : Nat → α → F) (l : List α) : ∀ (P p q : Nat) (a : α), p < P → l[q]? = some a →
    ((List.range P).flatMap fun j => l.map (f j)).getD (p * l.length + q) 0 = f p a := by
  intro P
  induction P generalizing f with
  | zero => intro p q a hp; omega
  | succ P ih =>
    intro p q a hp hq
    have hq1 : q < l.length := by
      by_contra hc
      rw [List.getElem?_eq_none (by omega)] at hq; cases hq
    rw [List.range_succ_eq_map, List.flatMap_cons, List.flatMap_map]
    cases p with
    | zero =>
      rw [List.getD_append _ _ _ _ (by simpa using hq1)]
      simp [List.getD_eq_getElem?_getD, hq]
    | succ p =>
      rw [List.getD_append_right _ _ _ _ (by simp [Nat.succ_mul]; omega)]
      have e : (p + 1) * l.length + q - (l.map (f 0)).length = p * l.length + q := by simp [Nat.succ_mul]; omega
      rw [e]
      exact ih (fun j => f (j + 1)) p q a (by omega) hq

theorem forall₂_index {α β : Type} {R : α → β → Prop} {as : List α} {bs : List β} (h : List.Forall₂ R as bs) :
    ∀ (i : Nat) a b, as[i]? = some a → bs[i]? = some b → R a b := by
  induction h with
  | nil => intro i a b ha; simp at ha
  | cons h _ ih =>
    intro i a b ha hb
    cases i with
    | zero => simp at ha hb; subst ha hb; exact h
    | succ i => exact ih i a b (by simpa using ha) (by simpa using hb)

theorem forall₂_of_index {α β : Type} {R : α → β → Prop} : ∀ {as : List α} {bs : List β}, as.length = bs.length →
    (∀ (i : Nat) a b, as[i]? = some a → bs[i]? = some b → R a b) → List.Forall₂ R as bs
  | [], [], _, _ => .nil
  | [], b :: bs, h, _ => by simp at h
  | a :: as, [], h, _ => by simp at h
  | a :: as, b :: bs, h, hr => .cons (hr 0 a b rfl rfl) (forall₂_of_index (by simpa using h) fun i a b ha hb => hr (i + 1) a b (by simpa using ha) (by simpa using hb))

/-- One round of a convolution. -/
theorem round {kind : FKind} (hkind : kind = .conv1D ∨ kind = .conv2D) {ns : List (Neuron F)} {info : FilterInfo} {ni no : Nat} (h : ConvWF ns info ni no)
    (hl : (Body.filter kind ns info).Lined) {x e : List F} (hx : x.length = ni) (he : e.length = no) (t : Bool) :
    ∃ y ns1 r ns2, (Body.filter kind ns info).computeOutput x t = .ok (y, .filter kind ns1 info) ∧
      (Body.filter kind ns1 info).computeBackOutput ni e = .ok (r, .filter kind ns2 info) ∧
      Replays info.kernelIndexes info.sizeOfNeuronInputs.toNat ns ns2 x e y ∧
      r.length = ni ∧ ∀ i < ni, r.getD i 0 = codeErrors info.kernelIndexes info.sizeOfNeuronInputs.toNat ns x e i := by
  generalize hsize : info.sizeOfNeuronInputs.toNat = size at *
  generalize hrows : info.kernelIndexes = rows at *
  have hst : ∀ n ∈ ns, n.Stage rows.length 0 0 := by
    rcases hkind with rfl | rfl
    · rw [← hrows]; exact hl
    · rw [← hrows]; exact hl
  have hrow := h.rows
  have hneu := h.neurons
  have hpos := h.pos
  have hout := h.out
  rw [hsize, hrows] at hrow hneu
  rw [hrows] at hpos hout
  obtain ⟨ns1, c1, c2, c3⟩ := convOutputs_ok x (rows := rows) (ns := ns) (fun row hr => ⟨(hrow row hr).1, by rw [hx]; exact (hrow row hr).2⟩) hneu
  obtain ⟨r, ns2, d1, d2, d3⟩ := convBack_ok (rows := rows) (ns := ns1) (es := e) (acc := List.replicate ni (lit 0)) hrow
    (by rw [← c2.length_eq, he, hout]) (by simp) c3
  have hrowp : ∀ p < rows.length, rows[p]? = some (rows.getD p []) := by
    intro p hp
    rw [List.getElem?_eq_getElem hp]
    simp [List.getD_eq_getElem?_getD, List.getElem?_eq_getElem hp]
  have hmemp : ∀ p < rows.length, rows.getD p [] ∈ rows := fun p hp => List.mem_of_getElem? (hrowp p hp)
  obtain ⟨f1, f2⟩ := convOutputs_fwd (b := rows.length) (kg := 0) (xs := fun p => seen x (rows.getD p [])) (n0s := ns) (k := 0) c1 (by omega) (by
    intro j row hj
    have hm := List.mem_of_getElem? hj
    have hjl : j < rows.length := by
      by_contra hc
      rw [List.getElem?_eq_none (by omega)] at hj; cases hj
    have e1 : rows.getD j [] = row := by
      have := hrowp j hjl
      rw [hj] at this
      simpa using this.symm
    have hin : ∀ i ∈ row, 0 ≤ i ∧ i < (x.length : Int) := by rw [hx]; exact (hrow row hm).2
    simp only [Nat.zero_add]
    rw [e1, ← pick_seen hin]
    refine ⟨?_, by simp [pick, (hrow row hm).1]⟩
    have := gather_ok x hin
    rwa [(hrow row hm).1] at this) (by
    apply forall₂_of_index rfl
    intro i a b ha hb
    rw [ha] at hb; cases hb
    have hm := List.mem_of_getElem? ha
    exact ⟨hneu a hm, hst a hm, Neuron.Same.refl a, by intro p hp; omega, by intro p hp; omega⟩)
  rw [Nat.zero_add] at f1
  simp only [Nat.zero_add] at f2
  have hN : ns1.length = ns.length := c2.length_eq.symm
  -- backward
  obtain ⟨b1, b2, b3⟩ := convBack_run (size := size) (b := rows.length) (kp := 0) (ni := ni) (k := 0)
    (ps := ns1.mapIdx fun q n => (n, errorsOf ns.length q e)) hrow (by omega) (by
      apply forall₂_of_index (by simp)
      intro i a b ha hb
      rw [List.getElem?_mapIdx, hb] at ha
      simp only [Option.map_some, Option.some.injEq] at ha
      subst ha
      have hm := List.mem_of_getElem? hb
      have hs := forall₂_index f1 i (ns[i]'(by
        have : i < ns1.length := by
          by_contra hc
          rw [List.getElem?_eq_none (by omega)] at hb; cases hb
        omega)) b (List.getElem?_eq_getElem _) hb
      exact ⟨c3 b hm, hs.stage.wrapPush, Neuron.Kin.refl b, rfl, rfl, by intro i hi; simp, by intro p hp; omega, by intro p hp i hi; rw [if_neg (by omega)]⟩)
    (by
      intro p hp q pr hq
      rw [List.getElem?_mapIdx] at hq
      obtain ⟨n, hn, rfl⟩ := Option.map_eq_some_iff.1 hq
      have hql : q < ns1.length := by
        by_contra hc
        rw [List.getElem?_eq_none (by omega)] at hn; cases hn
      simp only [List.length_mapIdx, errorsOf, Nat.zero_add, hN]
      have hb : p * ns.length + q < e.length := by
        rw [he, hout]
        have : (p + 1) * ns.length ≤ rows.length * ns.length := Nat.mul_le_mul_right _ (by omega)
        rw [Nat.succ_mul] at this
        omega
      simp [List.getD_eq_getElem?_getD, List.getElem?_eq_getElem hb]) (by simp) d1
  rw [Nat.zero_add] at b1
  -- the state between the two passes
  have mid : ∀ (q : Nat) n n1, ns[q]? = some n → ns1[q]? = some n1 → ∀ ee p, p < rows.length → ∀ i, incr rows.length n1 ee p i = positionStep rows n x ee p i := by
    intro q n n1 hn hn1 ee p hp i
    have hf := forall₂_index f1 q n n1 hn hn1
    have hsum : n1.sum = atRow n x (rows.getD (rows.length - 1) []) := hf.sum (rows.length - 1) (by omega)
    have hin : n1.lastInputs.queue.getD p [] = seen x (rows.getD p []) := by
      simp only [List.getD_eq_getElem?_getD, hf.stored p hp]; rfl
    unfold incr positionStep lastSlope
    rw [hf.same.optimizer, hf.same.activation, hf.same.bias, hf.same.momentum, hsum, hin]
  have hget : ∀ (q : Nat) n, ns[q]? = some n → ∃ n1, ns1[q]? = some n1 := by
    intro q n hn
    have hql : q < ns.length := by
      by_contra hc
      rw [List.getElem?_eq_none (by omega)] at hn; cases hn
    exact ⟨ns1[q]'(by omega), List.getElem?_eq_getElem _⟩
  have bw : ∀ (q : Nat) n n2, ns[q]? = some n → ns2[q]? = some n2 → ∃ n1, ns1[q]? = some n1 ∧ n.Same n1 ∧ Bwd size rows.length 0 (errorsOf ns.length q e) n1 rows.length n2 := by
    intro q n n2 hn hn2
    obtain ⟨n1, hn1⟩ := hget q n hn
    have := forall₂_index b1 q (n1, errorsOf ns.length q e) n2 (by rw [List.getElem?_mapIdx, hn1]; rfl) hn2
    exact ⟨n1, hn1, forall₂_index c2 q n n1 hn hn1, this⟩
  have hlen2 : ns2.length = ns.length := by rw [← d3.length_eq, hN]
  have hy : (rows.flatMap fun row => ns.map fun n => n.value (pick x row)).length = no := by
    rw [f2]; simp [List.length_flatMap, hout]
  refine ⟨rows.flatMap fun row => ns.map fun n => n.value (pick x row), ns1, r, ns2, ?_, ?_, ⟨hlen2, ?_, ?_, ?_, ?_⟩, d2, ?_⟩
  · unfold Body.computeOutput
    have hfill : fillOutputs info.numberOfKernels (rows.flatMap fun row => ns.map fun n => n.value (pick x row)) =
        .ok (rows.flatMap fun row => ns.map fun n => n.value (pick x row)) := by
      unfold fillOutputs
      rw [h.kernels, if_neg (by omega), if_neg (by rw [hy]; simp), hy]
      simp
    rcases hkind with rfl | rfl <;> simp only [hsize, hrows, c1, Res.ok_bind, hfill] <;> rfl
  · unfold Body.computeBackOutput
    have hz : zeroErrors (F := F) (ni : Int) = .ok (List.replicate ni (lit 0)) := by
      unfold zeroErrors
      rw [if_neg (by omega)]; simp
    rcases hkind with rfl | rfl <;> simp only [hrows, hz, d1, Res.ok_bind] <;> rfl
  · refine ⟨by rw [hy, hout], ?_⟩
    intro p hp q n hn
    rw [f2]
    exact flatMap_getD (fun j (n0 : Neuron F) => n0.activationFunction.obj.function (affine n0.weights (seen x (rows.getD j [])) n0.bias)) ns rows.length p q n hp hn
  · intro q n n2 hn hn2 i hi
    obtain ⟨n1, hn1, hs, hb⟩ := bw q n n2 hn hn2
    rw [hb.weights i hi, hs.weights]
    congr 1
    apply Finset.sum_congr rfl
    intro p hp
    exact mid q n n1 hn hn1 _ p (Finset.mem_range.1 hp) i
  · intro q n n2 hn hn2
    obtain ⟨n1, hn1, hs, hb⟩ := bw q n n2 hn hn2
    rw [hb.bias (rows.length - 1) (by omega)]
    exact mid q n n1 hn hn1 _ _ (by omega) _
  · intro q n n2 hn hn2 p hp i hi
    obtain ⟨n1, hn1, hs, hb⟩ := bw q n n2 hn hn2
    rw [hb.memory p hp i hi, if_pos hp]
    exact mid q n n1 hn hn1 _ p hp i
  · intro i hi
    rw [b3 i]
    have e0 : (List.replicate ni (lit 0 : F)).getD i 0 = 0 := by simp [List.getD_eq_getElem?_getD, List.getElem?_replicate]; split <;> rfl
    rw [e0, zero_add]
    unfold codeErrors
    apply Finset.sum_congr rfl
    intro p hp
    rw [Finset.mem_range] at hp
    congr 1
    apply List.ext_getElem?
    intro q
    rw [List.getElem?_map, List.getElem?_mapIdx, List.getElem?_mapIdx]
    cases hn : ns[q]? with
    | none =>
      rw [List.getElem?_eq_none_iff] at hn
      rw [List.getElem?_eq_none (by omega)]
      rfl
    | some n =>
      obtain ⟨n1, hn1⟩ := hget q n hn
      rw [hn1]
      simp only [Option.map_some, Option.some.injEq, Function.comp]
      apply Finset.sum_congr rfl
      intro j hj
      split
      · have hf := forall₂_index f1 q n n1 hn hn1
        have hsum : n1.sum = atRow n x (rows.getD (rows.length - 1) []) := hf.sum (rows.length - 1) (by omega)
        unfold sent
        simp only [Nat.zero_add]
        rw [hf.same.activation, hf.same.weights, hsum]
        unfold lastSlope
        congr 2
        apply Finset.sum_congr rfl
        intro p' hp'
        rw [Finset.mem_range] at hp'
        exact mid q n n1 hn hn1 _ p' (by omega) j
      · rfl

end

end Snn.Conv
