import Verif.Spec.SilentSpec
import Verif.Proofs.BoundedRun
import Verif.Props.NeuronProps
import Verif.Props.SafeProps
import Verif.Props.AccuracyProps
import Mathlib.Algebra.BigOperators.Field

/-! A silent ReLU neuron of the first hidden layer keeps its weights. -/

set_option linter.all false

namespace Snn.Silent

open Spec Finset HistoryProps TrainProofs

section
variable {F : Type} [Field F] [LinearOrder F] [IsStrictOrderedRing F] [FTrans F]

/-- The linear part. -/
def lin (ni : Nat) (w : List F) (x : List F) : F := ∑ i ∈ range ni, w.getD i 0 * x.getD i 0

/-- The inputs of size ni below c. -/
def Below (ni : Nat) (w : List F) (c : F) (x : List F) : Prop := x.length = ni ∧ lin ni w x ≤ c

theorem lin_zip {ni : Nat} {w a b : List F} (ha : a.length = ni) (hb : b.length = ni) : lin ni w (List.zipWith (· + ·) a b) = lin ni w a + lin ni w b := by
  unfold lin
  rw [← sum_add_distrib]
  apply sum_congr rfl
  intro i hi
  have hi := mem_range.1 hi
  have e : (List.zipWith (· + ·) a b).getD i 0 = a.getD i 0 + b.getD i 0 := by
    simp [List.getD_eq_getElem?_getD, List.getElem?_zipWith, List.getElem?_eq_getElem (show i < a.length by omega), List.getElem?_eq_getElem (show i < b.length by omega)]
  rw [e, mul_add]

theorem plus_below {ni : Nat} {w a b out r : List F} {c e : F} (ha : Below ni w c a) (hb : Below ni w e b) (ho : out.length = ni)
    (h : transformPlus a b out = .ok r) : Below ni w (c + e) r := by
  unfold transformPlus at h
  simp only at h
  split at h
  · cases h
    have e : out.drop (List.zipWith (· + ·) a b).length = [] := by
      apply List.drop_eq_nil_of_le
      simp [ha.1, hb.1, ho]
    rw [e, List.append_nil]
    exact ⟨by simp [ha.1, hb.1], by rw [lin_zip ha.1 hb.1]; exact add_le_add ha.2 hb.2⟩
  · cases h

theorem loop_below {ni : Nat} {w : List F} {c : F} {order : List Nat} {rows : List (List F)} (hr : ∀ r ∈ rows, Below ni w c r) :
    ∀ {js : List Int} {acc r : List F} {e : F}, Below ni w e acc → batchLoop order rows js acc = .ok r → Below ni w (e + js.length * c) r
  | [], acc, r, e, ha, h => by cases h; simpa using ha
  | k :: js, acc, r, e, ha, h => by
    unfold batchLoop at h
    obtain ⟨i, _, h⟩ := Res.bind_eq_ok.1 h
    obtain ⟨row, h1, h⟩ := Res.bind_eq_ok.1 h
    obtain ⟨acc', h2, h⟩ := Res.bind_eq_ok.1 h
    have := loop_below hr (plus_below ha (hr row (rd_mem h1)) ha.1 h2) h
    have e' : e + c + (js.length : F) * c = e + ((k :: js).length : F) * c := by push_cast [List.length_cons]; ring
    rwa [e'] at this

theorem batched_below {ni : Nat} {w : List F} {c : F} {order : List Nat} {rows : List (List F)} (hr : ∀ r ∈ rows, Below ni w c r) {buf buf' x : List F}
    {index b : Int} (h : getBatched order rows ni buf index b = .ok (x, buf')) : Below ni w c x := by
  unfold getBatched at h
  obtain ⟨i, _, h⟩ := Res.bind_eq_ok.1 h
  split at h
  · obtain ⟨row, h1, h⟩ := Res.bind_eq_ok.1 h
    cases h
    exact hr _ (rd_mem h1)
  · rename_i hb1
    obtain ⟨d0, h1, h⟩ := Res.bind_eq_ok.1 h
    obtain ⟨i1, _, h⟩ := Res.bind_eq_ok.1 h
    obtain ⟨d1, h2, h⟩ := Res.bind_eq_ok.1 h
    obtain ⟨s, h3, h⟩ := Res.bind_eq_ok.1 h
    obtain ⟨t, h4, h⟩ := Res.bind_eq_ok.1 h
    cases h
    obtain ⟨n, hn⟩ := Int.eq_ofNat_of_zero_le (by omega : 0 ≤ b - 2)
    have hbn : b = ((n + 2 : ℕ) : Int) := by push_cast; omega
    subst hbn
    have e : (((n + 2 : ℕ) : Int) - 2).toNat = n := by omega
    rw [e] at h4
    have q1 := plus_below (hr _ (rd_mem h1)) (hr _ (rd_mem h2)) (by simp; omega) h3
    have q2 := loop_below hr q1 h4
    refine ⟨by simpa using q2.1, ?_⟩
    have hpos : (0 : F) < ((n + 2 : ℕ) : F) := by exact_mod_cast Nat.succ_pos _
    have hl : lin ni w (t.map (· / lit (((n + 2 : ℕ) : Int) : ℚ))) = lin ni w t / ((n + 2 : ℕ) : F) := by
      unfold lin
      rw [Finset.sum_div]
      apply sum_congr rfl
      intro i hi
      have hi := mem_range.1 hi
      have hlt : i < t.length := by rw [q2.1]; exact hi
      have e3 : (lit (((n + 2 : ℕ) : Int) : ℚ) : F) = ((n + 2 : ℕ) : F) := by rw [lit_eq]; push_cast; rfl
      rw [e3]
      simp [List.getD_eq_getElem?_getD, List.getElem?_eq_getElem hlt]
      ring
    rw [hl, div_le_iff₀ hpos]
    refine le_trans q2.2 (le_of_eq ?_)
    simp
    ring

/-! ### The neuron -/

/-- Neuron k of a layer of ReLU neurons: its weights are w, or w without bias. -/
structure Frozen (ni : Nat) (w : List F) (n : Neuron F) : Prop where
  act : n.activationFunction = .relu
  bias : n.bias = 1
  momentum : n.optimizer.momentum = 0
  inputs : n.numberOfInputs = (ni : Int)
  len : w.length = ni + 1
  weights : n.weights = w ∨ n.weights = withoutBias w

theorem withoutBias_length {w : List F} {ni : Nat} (h : w.length = ni + 1) : (withoutBias w).length = ni + 1 := by simp [withoutBias, h]

theorem Frozen.wlen {ni : Nat} {w : List F} {n : Neuron F} (h : Frozen ni w n) : n.weights.length = ni + 1 := by
  rcases h.weights with e | e <;> rw [e]
  · exact h.len
  · exact withoutBias_length h.len

theorem Frozen.output {ni : Nat} {w : List F} {n n' : Neuron F} {x : List F} {o : F} (h : Frozen ni w n) (he : n.output x = .ok (o, n')) : Frozen ni w n' := by
  unfold Neuron.output at he
  obtain ⟨_, _, he⟩ := Res.bind_eq_ok.1 he
  obtain ⟨_, _, he⟩ := Res.bind_eq_ok.1 he
  obtain ⟨_, _, he⟩ := Res.bind_eq_ok.1 he
  simp only [Act.apply_ok, Res.ok_bind] at he
  cases he
  exact ⟨h.act, h.bias, h.momentum, h.inputs, h.len, h.weights⟩

theorem Frozen.sum {ni : Nat} {w : List F} {n n' : Neuron F} {x : List F} {o : F} (h : Frozen ni w n) (hx : x.length = ni)
    (h1 : affine w x 1 ≤ 0) (h2 : affine (withoutBias w) x 1 ≤ 0) (he : n.output x = .ok (o, n')) : n'.sum ≤ 0 ∧ o = 0 := by
  have hl := h.wlen
  unfold Neuron.output at he
  obtain ⟨_, _, he⟩ := Res.bind_eq_ok.1 he
  obtain ⟨t, e1, he⟩ := Res.bind_eq_ok.1 he
  obtain ⟨wb, e2, he⟩ := Res.bind_eq_ok.1 he
  simp only [Act.apply_ok, Res.ok_bind] at he
  cases he
  rw [dotLoop_ok _ _ _ (by omega)] at e1
  cases e1
  have hw : n.weights[x.length]? = some wb := by
    have := rd_eq_ok.1 e2
    simpa using this
  have hs : dotFrom (lit 0) x n.weights + wb * n.bias ≤ 0 := by
    rw [NeuronSpec.affine_eq (by omega) hw, h.bias]
    rcases h.weights with e | e <;> rw [e] <;> assumption
  refine ⟨hs, ?_⟩
  rw [h.act]
  simp only [Act.obj, ActObj.function, flt, Flt.flt, lit_eq]
  rw [if_neg]
  · norm_num
  · have := not_lt.2 hs
    simpa using this

theorem sgd_zero : ∀ {k : Nat} {xs ps ws ds vs : List F}, sgdLoop (0 : F) 0 k xs ps ws = .ok (ds, vs) → vs = ws.take k
  | 0, xs, ps, ws, ds, vs, h => by cases h; simp
  | k + 1, [], ps, ws, ds, vs, h => by cases h
  | k + 1, x :: xs, [], ws, ds, vs, h => by cases h
  | k + 1, x :: xs, p :: ps, [], ds, vs, h => by cases h
  | k + 1, x :: xs, p :: ps, w :: ws, ds, vs, h => by
    unfold sgdLoop at h
    obtain ⟨⟨a, b⟩, h1, h⟩ := Res.bind_eq_ok.1 h
    cases h
    simp [sgd_zero h1]

theorem Frozen.train {ni : Nat} {w : List F} {n n' : Neuron F} {e : F} (h : Frozen ni w n) (hs : n.sum ≤ 0) (he : n.train e = .ok n') : Frozen ni w n' := by
  have hl := h.wlen
  unfold Neuron.train at he
  obtain ⟨d, h1, he⟩ := Res.bind_eq_ok.1 he
  have hd : d = 0 := by
    rw [Act.deriv_ok] at h1
    cases h1
    rw [h.act]
    simp only [Act.obj, ActObj.derivative, flt, Flt.flt, lit_eq]
    rw [if_neg]
    · norm_num
    · have := not_lt.2 hs
      simpa using this
  subst hd
  unfold Sgd.updateSimple at he
  simp only [mul_zero, h.momentum] at he
  obtain ⟨⟨xs, li⟩, h2, he⟩ := Res.bind_eq_ok.1 he
  obtain ⟨⟨prev, pd⟩, h3, he⟩ := Res.bind_eq_ok.1 he
  obtain ⟨⟨ds, vs⟩, h4, he⟩ := Res.bind_eq_ok.1 he
  obtain ⟨p, h5, he⟩ := Res.bind_eq_ok.1 he
  obtain ⟨_, h6, he⟩ := Res.bind_eq_ok.1 he
  obtain ⟨pd', h7, he⟩ := Res.bind_eq_ok.1 he
  cases he
  refine ⟨h.act, h.bias, h.momentum, h.inputs, h.len, .inr ?_⟩
  have hk : n.numberOfInputs.toNat = ni := by rw [h.inputs]; simp
  rw [hk] at h4
  show vs ++ _ :: n.weights.drop (n.numberOfInputs.toNat + 1) = _
  rw [hk, sgd_zero h4, List.drop_eq_nil_of_le (by omega), zero_mul, zero_mul, add_zero]
  have hdl : n.weights.take ni = n.weights.dropLast := by rw [List.dropLast_eq_take, hl]; rfl
  rw [hdl]
  rcases h.weights with e | e <;> rw [e] <;> simp [withoutBias]

/-! ### The network -/

/-- Neuron k of the first layer is frozen, with a property Q. -/
def FirstFrozen (ni : Nat) (w : List F) (k : Nat) (Q : Neuron F → Prop) (ls : List (Layer F)) : Prop :=
  ∃ l rest ns n, ls = l :: rest ∧ l.body = .fullyConnected ns ∧ ns[k]? = some n ∧ Frozen ni w n ∧ Q n

theorem run_at {N : Type} {f : N → Res (F × N)} : ∀ {ns ns' : List N} {os : List F} {k : Nat} {n : N}, runNeurons f ns = .ok (os, ns') → ns[k]? = some n →
    ∃ o n', f n = .ok (o, n') ∧ ns'[k]? = some n'
  | [], ns', os, k, n, h, hk => by simp at hk
  | m :: ns, ns', os, k, n, h, hk => by
    unfold runNeurons at h
    obtain ⟨⟨o, n1⟩, h1, h⟩ := Res.bind_eq_ok.1 h
    obtain ⟨⟨os1, ns1⟩, h2, h⟩ := Res.bind_eq_ok.1 h
    cases h
    cases k with
    | zero => simp only [List.getElem?_cons_zero, Option.some.injEq] at hk; subst hk; exact ⟨o, n1, h1, rfl⟩
    | succ k => simp only [List.getElem?_cons_succ] at hk ⊢; exact run_at h2 hk

theorem train_at {N : Type} {f : N → F → Res N} : ∀ {ns ns' : List N} {es : List F} {k : Nat} {n : N}, trainNeurons f ns es = .ok ns' → ns[k]? = some n →
    ∃ e n', f n e = .ok n' ∧ ns'[k]? = some n'
  | [], ns', es, k, n, h, hk => by simp at hk
  | m :: ns, ns', [], k, n, h, hk => by cases h
  | m :: ns, ns', e :: es, k, n, h, hk => by
    unfold trainNeurons at h
    obtain ⟨n1, h1, h⟩ := Res.bind_eq_ok.1 h
    obtain ⟨ns1, h2, h⟩ := Res.bind_eq_ok.1 h
    cases h
    cases k with
    | zero => simp only [List.getElem?_cons_zero, Option.some.injEq] at hk; subst hk; exact ⟨e, n1, h1, rfl⟩
    | succ k => simp only [List.getElem?_cons_succ] at hk ⊢; exact train_at h2 hk

variable {ni : Nat} {w : List F} {k : Nat} {Q : Neuron F → Prop}

theorem frozen_out {t : Bool} {ls ls' : List (Layer F)} {x y : List F} (hp : FirstFrozen ni w k Q ls) (h : outputLoop t ls x = .ok (y, ls')) :
    FirstFrozen ni w k (fun _ => True) ls' := by
  obtain ⟨l, rest, ns, n, rfl, hb, hk, hf, _⟩ := hp
  unfold outputLoop at h
  obtain ⟨⟨y1, l1⟩, h1, h⟩ := Res.bind_eq_ok.1 h
  obtain ⟨⟨y2, ls1⟩, h2, h⟩ := Res.bind_eq_ok.1 h
  cases h
  unfold Layer.output at h1
  obtain ⟨⟨raw, b'⟩, h3, h1⟩ := Res.bind_eq_ok.1 h1
  obtain ⟨_, _, h1⟩ := Res.bind_eq_ok.1 h1
  cases h1
  rw [hb] at h3
  simp only [Body.computeOutput] at h3
  obtain ⟨⟨os, ns'⟩, h4, h3⟩ := Res.bind_eq_ok.1 h3
  cases h3
  obtain ⟨o, n', e1, e2⟩ := run_at h4 hk
  exact ⟨_, _, ns', n', rfl, rfl, e2, hf.output e1, trivial⟩

theorem frozen_training {t : Bool} {ls ls' : List (Layer F)} {x y : List F} {d d' : Draws F} (hp : FirstFrozen ni w k Q ls) (hx : x.length = ni)
    (h1 : affine w x 1 ≤ 0) (h2 : affine (withoutBias w) x 1 ≤ 0) (h : trainingLoop t ls x d = .ok (y, ls', d')) :
    FirstFrozen ni w k (fun n => n.sum ≤ 0) ls' := by
  obtain ⟨l, rest, ns, n, rfl, hb, hk, hf, _⟩ := hp
  unfold trainingLoop at h
  obtain ⟨⟨y1, l1, d1⟩, h3, h⟩ := Res.bind_eq_ok.1 h
  obtain ⟨⟨y2, ls1, d2⟩, h4, h⟩ := Res.bind_eq_ok.1 h
  cases h
  unfold Layer.outputForTraining at h3
  obtain ⟨⟨raw, b'⟩, h5, h3⟩ := Res.bind_eq_ok.1 h3
  obtain ⟨⟨_, _, _⟩, _, h3⟩ := Res.bind_eq_ok.1 h3
  cases h3
  rw [hb] at h5
  simp only [Body.computeOutput] at h5
  obtain ⟨⟨os, ns'⟩, h6, h5⟩ := Res.bind_eq_ok.1 h5
  cases h5
  obtain ⟨o, n', e1, e2⟩ := run_at h6 hk
  exact ⟨_, _, ns', n', rfl, rfl, e2, hf.output e1, (hf.sum hx h1 h2 e1).1⟩

theorem frozen_back {ls ls' : List (Layer F)} {es : List F} (hp : FirstFrozen ni w k (fun n => n.sum ≤ 0) ls) (h : backwardPass ls es = .ok ls') :
    FirstFrozen ni w k (fun _ => True) ls' := by
  obtain ⟨l, rest, ns, n, rfl, hb, hk, hf, hs⟩ := hp
  unfold backwardPass at h
  obtain ⟨⟨es1, rest'⟩, h1, h⟩ := Res.bind_eq_ok.1 h
  obtain ⟨l', h2, h⟩ := Res.bind_eq_ok.1 h
  cases h
  unfold Layer.train at h2
  obtain ⟨b', h3, h2⟩ := Res.bind_eq_ok.1 h2
  cases h2
  rw [hb] at h3
  simp only [Body.computeTrain] at h3
  obtain ⟨ns', h4, h3⟩ := Res.bind_eq_ok.1 h3
  cases h3
  obtain ⟨e, n', e1, e2⟩ := train_at h4 hk
  exact ⟨_, _, ns', n', rfl, rfl, e2, hf.train hs e1, trivial⟩

theorem frozen_weaken {ls : List (Layer F)} (h : FirstFrozen ni w k Q ls) : FirstFrozen ni w k (fun _ => True) ls := by
  obtain ⟨l, rest, ns, n, a, b, c, d, _⟩ := h
  exact ⟨l, rest, ns, n, a, b, c, d, trivial⟩

theorem frozen_once {n n' : Net F} {x y : List F} {t : Bool} {d d' : Draws F} (hp : FirstFrozen ni w k (fun _ => True) n.layers) (hx : x.length = ni)
    (h1 : affine w x 1 ≤ 0) (h2 : affine (withoutBias w) x 1 ≤ 0) (h : n.trainOnce x y t d = .ok (n', d')) : FirstFrozen ni w k (fun _ => True) n'.layers := by
  unfold Net.trainOnce at h
  obtain ⟨⟨m, d1⟩, h3, h⟩ := Res.bind_eq_ok.1 h
  cases h
  unfold Net.backpropagation at h3
  obtain ⟨⟨o, m1, d2⟩, h4, h3⟩ := Res.bind_eq_ok.1 h3
  unfold Net.outputForTraining at h4
  split at h4
  · cases h4
  obtain ⟨⟨o, ls, d3⟩, h5, h4⟩ := Res.bind_eq_ok.1 h4
  cases h4
  have q := frozen_training hp hx h1 h2 h5
  simp only at h3
  split at h3
  · cases h3; exact frozen_weaken q
  · obtain ⟨es, _, h3⟩ := Res.bind_eq_ok.1 h3
    obtain ⟨ls2, h6, h3⟩ := Res.bind_eq_ok.1 h3
    cases h3
    exact frozen_back q h6

theorem frozen_step {inputs : List (List F)} (hr : Rows ni inputs) (h1 : SilentOn w inputs) (h2 : SilentOn (withoutBias w) inputs) {env : Env F} {b : Int} {r r' : Run F} {ret : Bool}
    (hp : FirstFrozen ni w k (fun _ => True) r.snn.net.layers) (hd : r.data.training.inputs = inputs ∧ r.data.sizeOfData = ni)
    (h : r.trainStep env b = .ok (ret, r')) : FirstFrozen ni w k (fun _ => True) r'.snn.net.layers ∧ r'.data.training.inputs = inputs ∧ r'.data.sizeOfData = ni := by
  unfold Run.trainStep at h
  simp only at h
  split at h
  · cases h; exact ⟨hp, hd⟩
  obtain ⟨need, _, h⟩ := Res.bind_eq_ok.1 h
  obtain ⟨⟨x, d1⟩, e1, h⟩ := Res.bind_eq_ok.1 h
  obtain ⟨first, _, h⟩ := Res.bind_eq_ok.1 h
  have f1 := (getTrainingData_same e1).frame
  have hd1 : d1.training.inputs = inputs ∧ d1.sizeOfData = ni := ⟨by rw [f1.inputs]; exact hd.1, by rw [f1.sizeOfData]; exact hd.2⟩
  have hb : ∀ {v : List F}, SilentOn v inputs → x.length = ni ∧ affine v x 1 ≤ 0 := by
    intro v hv
    unfold Data.getTrainingData at e1
    obtain ⟨⟨x', b1⟩, e2, e1⟩ := Res.bind_eq_ok.1 e1
    cases e1
    rw [hd.2, hd.1] at e2
    have q := batched_below (w := v) (c := - v.getD ni 0) (fun row hrow => by
      refine ⟨hr row hrow, ?_⟩
      have := hv row hrow
      unfold affine at this
      rw [hr row hrow] at this
      unfold lin
      linarith) e2
    refine ⟨q.1, ?_⟩
    have := q.2
    unfold lin at this
    unfold affine
    rw [q.1]
    linarith
  obtain ⟨hx, q1⟩ := hb h1
  obtain ⟨_, q2⟩ := hb h2
  split at h
  · obtain ⟨⟨y, d2⟩, e2, h⟩ := Res.bind_eq_ok.1 h
    obtain ⟨⟨net, dr⟩, e3, h⟩ := Res.bind_eq_ok.1 h
    cases h
    have f2 := (getTrainingOutputs_same e2).frame
    exact ⟨frozen_once hp hx q1 q2 e3, by show d2.training.inputs = _; rw [f2.inputs]; exact hd1.1, by show d2.sizeOfData = _; rw [f2.sizeOfData]; exact hd1.2⟩
  · obtain ⟨⟨o, net, dr⟩, e3, h⟩ := Res.bind_eq_ok.1 h
    cases h
    refine ⟨?_, hd1⟩
    unfold Net.outputForTraining at e3
    split at e3
    · cases e3
    obtain ⟨⟨o1, ls, d3⟩, h4, e3⟩ := Res.bind_eq_ok.1 e3
    cases e3
    exact frozen_weaken (frozen_training hp hx q1 q2 h4)

theorem frozen_netOutput {n n' : Net F} {x y : List F} {t : Bool} (hp : FirstFrozen ni w k (fun _ => True) n.layers) (h : n.output x t = .ok (y, n')) :
    FirstFrozen ni w k (fun _ => True) n'.layers := by
  unfold Net.output at h
  split at h
  · cases h
  · obtain ⟨⟨o, ls⟩, h1, h⟩ := Res.bind_eq_ok.1 h
    cases h
    exact frozen_out hp h1

theorem frozen_evaluateLoop {nan : F} {data : Data F} : ∀ {m : Nat} {s s' : Snn F} {b : Bool},
    FirstFrozen ni w k (fun _ => True) s.net.layers → evaluateLoop nan data m s = .ok (b, s') → FirstFrozen ni w k (fun _ => True) s'.net.layers
  | 0, s, s', b, hp, h => by cases h; exact hp
  | m + 1, s, s', b, hp, h => by
    unfold evaluateLoop at h
    split at h
    · cases h; exact hp
    obtain ⟨need, _, h⟩ := Res.bind_eq_ok.1 h
    obtain ⟨s1, h1, h⟩ := Res.bind_eq_ok.1 h
    refine frozen_evaluateLoop (s := { s1 with index := s1.index + 1 }) ?_ h
    split at h1
    · unfold Snn.evaluateOnce at h1
      obtain ⟨x, _, h1⟩ := Res.bind_eq_ok.1 h1
      obtain ⟨first, _, h1⟩ := Res.bind_eq_ok.1 h1
      split at h1
      all_goals
        obtain ⟨_, _, h1⟩ := Res.bind_eq_ok.1 h1
        obtain ⟨_, _, h1⟩ := Res.bind_eq_ok.1 h1
        obtain ⟨⟨out, net⟩, h2, h1⟩ := Res.bind_eq_ok.1 h1
        obtain ⟨st, _, h1⟩ := Res.bind_eq_ok.1 h1
        cases h1
        have q := frozen_netOutput hp h2
        exact q
    · obtain ⟨x, _, h1⟩ := Res.bind_eq_ok.1 h1
      obtain ⟨_, _, h1⟩ := Res.bind_eq_ok.1 h1
      obtain ⟨⟨out, net⟩, h2, h1⟩ := Res.bind_eq_ok.1 h1
      cases h1
      exact frozen_netOutput hp h2

theorem frozen_evaluate {env : Env F} {r r' : Run F} (hp : FirstFrozen ni w k (fun _ => True) r.snn.net.layers) (h : r.evaluate env = .ok r') :
    FirstFrozen ni w k (fun _ => True) r'.snn.net.layers ∧ r'.data = r.data := by
  unfold Run.evaluate at h
  obtain ⟨⟨b, s⟩, h1, h⟩ := Res.bind_eq_ok.1 h
  have q := frozen_evaluateLoop (s := { r.snn with net := { r.snn.net with stats := r.snn.net.stats.startTesting }, index := 0 }) hp h1
  simp only [] at h
  split at h
  · cases h; exact ⟨q, rfl⟩
  · split at h
    · cases h; exact ⟨q, rfl⟩
    · cases h; exact ⟨q, rfl⟩

theorem frozen_call {no : Nat} {c : Call F} (hc : SafeProps.CallFits ni no c) (hs : SilentCall w c) {r r' : Run F}
    (hp : FirstFrozen ni w k (fun _ => True) r.snn.net.layers) (h : c.run r = .ok r') : FirstFrozen ni w k (fun _ => True) r'.snn.net.layers := by
  cases c with
  | computeOutput x t =>
    simp only [Call.run] at h
    cases hx : r.snn.computeOutput x t with
    | ok q =>
      rw [hx] at h
      cases h
      unfold Snn.computeOutput at hx
      obtain ⟨⟨y1, n1⟩, h2, hx⟩ := Res.bind_eq_ok.1 hx
      cases hx
      exact frozen_netOutput hp h2
    | throw m => rw [hx] at h; cases h
    | ub m => rw [hx] at h; cases h
  | computeCluster x t =>
    simp only [Call.run] at h
    cases hx : r.snn.computeCluster x t with
    | ok q =>
      rw [hx] at h
      cases h
      unfold Snn.computeCluster at hx
      obtain ⟨⟨y1, n1⟩, h2, hx⟩ := Res.bind_eq_ok.1 hx
      cases hx
      exact frozen_netOutput hp h2
    | throw m => rw [hx] at h; cases h
    | ub m => rw [hx] at h; cases h
  | evaluate env data => exact (frozen_evaluate (r := { r with data := data }) hp h).1
  | train env data wait b ef fuel =>
    obtain ⟨hf, hc⟩ := hc
    have hsafe := Spec.Fitted.safe hf
    obtain ⟨s1, s2⟩ := hs
    have := Bounded.train_induct_data (r := { r with data := data })
      (P := fun n d => FirstFrozen ni w k (fun _ => True) n.layers ∧ d.training.inputs = data.training.inputs ∧ d.sizeOfData = ni)
      (fun n d d' g h1 h2 => ⟨h1.1, by rw [(shuffle_frame h2).inputs]; exact h1.2.1, by rw [(shuffle_frame h2).sizeOfData]; exact h1.2.2⟩)
      (fun r r' ret h1 h2 => frozen_step hsafe.train.inputs s1 s2 h1.1 h1.2 h2)
      (fun r r' h1 h2 => by
        obtain ⟨q1, q2⟩ := frozen_evaluate h1.1 h2
        exact ⟨q1, by rw [q2]; exact h1.2⟩)
      ⟨hp, rfl, hsafe.sizeOfData⟩ h
    exact this.1
  | saveAs path =>
    simp only [Call.run, Run.saveAs] at h
    split at h
    · cases h
    · cases h; exact hp
  | autoSave w path => cases h; exact hp

theorem frozen_calls {no : Nat} : ∀ {calls : List (Call F)}, (∀ c ∈ calls, SafeProps.CallFits ni no c ∧ SilentCall w c) → ∀ {r r' : Run F},
    FirstFrozen ni w k (fun _ => True) r.snn.net.layers → calls.foldlM Call.run r = .ok r' → FirstFrozen ni w k (fun _ => True) r'.snn.net.layers
  | [], _, r, r', hl, h => by cases h; exact hl
  | c :: cs, hc, r, r', hl, h => by
    rw [List.foldlM_cons] at h
    obtain ⟨r1, h1, h⟩ := Res.bind_eq_ok.1 h
    exact frozen_calls (fun c' hc' => hc c' (by simp [hc'])) (frozen_call (hc c (by simp)).1 (hc c (by simp)).2 hl h1) h

end

end Snn.Silent
