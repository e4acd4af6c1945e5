import Verif.Model.Layer
import Verif.Spec.LayerOptSpec
import Verif.Basic.RealFlt
import Verif.Basic.NanFlt
import Mathlib.Data.List.GetD
import Mathlib.Tactic.Ring
import Mathlib.Tactic.Linarith
import Mathlib.Tactic.NormNum
import Mathlib.Tactic.Positivity
import Mathlib.Algebra.Order.BigOperators.Group.List

/-!
# C45, C46, C47: the layer optimizers
-/

set_option linter.all false

namespace Snn.LayerOptProps

open Snn.Spec

/-! ### C45 — Softmax -/

theorem foldl_add_sum (f : ℝ → ℝ) : ∀ (l : List ℝ) (s : ℝ), l.foldl (fun s v => s + f v) s = s + (l.map f).sum
  | [], s => by simp
  | x :: l, s => by simp [foldl_add_sum f l, add_assoc]

theorem sum_map_div (l : List ℝ) (c : ℝ) (f : ℝ → ℝ) : (l.map fun v => f v / c).sum = (l.map f).sum / c := by
  induction l with
  | nil => simp
  | cons a l ih => simp [ih, add_div]

theorem sum_exp_pos {x : List ℝ} (h : x ≠ []) : 0 < (x.map Real.exp).sum := by
  cases x with
  | nil => exact absurd rfl h
  | cons a l =>
    have : 0 ≤ (l.map Real.exp).sum := List.sum_nonneg (by simp; intro a _; positivity)
    simp
    have := Real.exp_pos a
    linarith

/-- The shift by a constant does not change the softmax. -/
theorem softmax_shift (x : List ℝ) (c : ℝ) : softmax (x.map fun v => v + c) = softmax x := by
  unfold softmax
  rw [List.map_map, List.map_map]
  have : (x.map (Real.exp ∘ fun v => v + c)).sum = (x.map Real.exp).sum * Real.exp c := by
    induction x with
    | nil => simp
    | cons a l ih =>
      simp only [List.map_cons, List.sum_cons, Function.comp, Real.exp_add] at ih ⊢
      rw [ih]; ring
  rw [this]
  apply List.map_congr_left
  intro v _
  simp only [Function.comp, Real.exp_add]
  rw [mul_div_mul_right _ _ (Real.exp_ne_zero c)]

/-- **C45**, the values: on at least one output the model of `computeSoftmax` is the softmax function. -/
theorem C45_softmax_value {x : List ℝ} (h : x ≠ []) : computeSoftmax x = .ok (softmax x) := by
  obtain ⟨m, hm⟩ : ∃ m, rangesMax x = .ok m := by
    cases x with
    | nil => exact absurd rfl h
    | cons a l => exact ⟨_, rfl⟩
  unfold computeSoftmax
  simp only [hm, Res.ok_bind, fexp_real, isNormalOrZero_field, foldl_add_sum]
  have hs := softmax_shift x (-m)
  simp only [← sub_eq_add_neg] at hs
  rw [← hs]
  simp [softmax]

/-- **C45**, the distribution: values in (0, 1], sum 1, same order as the raw outputs, invariant under a constant shift. -/
theorem C45_distribution {x : List ℝ} (h : x ≠ []) :
    ∃ y, computeSoftmax x = .ok y ∧ y.length = x.length ∧
      (∀ v ∈ y, 0 < v ∧ v ≤ 1) ∧ y.sum = 1 ∧
      (∀ (i j : Nat) (a b : ℝ), x[i]? = some a → x[j]? = some b → ∃ c d, y[i]? = some c ∧ y[j]? = some d ∧ (a < b ↔ c < d)) ∧
      ∀ c : ℝ, computeSoftmax (x.map fun v => v + c) = .ok y := by
  have hp := sum_exp_pos h
  refine ⟨softmax x, C45_softmax_value h, by simp [softmax], ?_, ?_, ?_, ?_⟩
  · intro v hv
    simp only [softmax, List.mem_map] at hv
    obtain ⟨a, ha, rfl⟩ := hv
    refine ⟨by have := Real.exp_pos a; positivity, ?_⟩
    rw [div_le_one hp]
    exact List.single_le_sum (by simp; intro a _; positivity) _ (List.mem_map_of_mem ha)
  · simp only [softmax]
    rw [sum_map_div, div_self hp.ne']
  · intro i j a b ha hb
    refine ⟨_, _, by simp only [softmax, List.getElem?_map, ha]; rfl, by simp only [softmax, List.getElem?_map, hb]; rfl, ?_⟩
    rw [div_lt_div_iff_of_pos_right hp, Real.exp_lt_exp]
  · intro c
    rw [C45_softmax_value (by simpa using h), softmax_shift]

/-- **C45** in a layer: when the last optimizer of a layer is Softmax, every output of the layer, in inference and in
training, is the softmax of what the layer computed before it. -/
theorem C45_layer (opts : List (LayerOpt ℝ)) (out raw : List ℝ) (hraw : testingHooks opts out = .ok raw) (h : raw ≠ []) :
    testingHooks (opts ++ [.softmax]) out = .ok (softmax raw) := by
  induction opts generalizing out with
  | nil =>
    simp only [testingHooks, Res.ok.injEq] at hraw
    subst hraw
    simp [testingHooks, LayerOpt.afterOutputForTesting, C45_softmax_value h]
  | cons o os ih =>
    simp only [testingHooks, List.cons_append] at hraw ⊢
    obtain ⟨o1, h1, h2⟩ := Res.bind_eq_ok.1 hraw
    simp only [h1, Res.ok_bind]
    exact ih o1 h2

/-- **C45** in training: the same for the training hooks. -/
theorem C45_layer_training (opts : List (LayerOpt ℝ)) (t : Bool) (out raw : List ℝ) (d d' : Draws ℝ) (os : List (LayerOpt ℝ))
    (hraw : trainingHooks t opts out d = .ok (raw, os, d')) (h : raw ≠ []) :
    trainingHooks t (opts ++ [.softmax]) out d = .ok (softmax raw, os ++ [.softmax], d') := by
  induction opts generalizing out d os with
  | nil =>
    simp only [trainingHooks, Res.ok.injEq, Prod.mk.injEq] at hraw
    obtain ⟨rfl, rfl, rfl⟩ := hraw
    simp [trainingHooks, LayerOpt.afterOutputForTraining, C45_softmax_value h]
  | cons o os' ih =>
    simp only [trainingHooks, List.cons_append] at hraw ⊢
    obtain ⟨⟨o1, o', d1⟩, h1, h2⟩ := Res.bind_eq_ok.1 hraw
    obtain ⟨⟨o2, os2, d2⟩, h3, h4⟩ := Res.bind_eq_ok.1 h2
    simp only [Res.pure_eq, Res.ok.injEq, Prod.mk.injEq] at h4
    obtain ⟨rfl, rfl, rfl⟩ := h4
    simp only [h1, Res.ok_bind, ih o1 d1 os2 h3]
    rfl

/-- A case that meets the hypotheses, not trivially: dropout before softmax in inference. -/
example : testingHooks ([.dropout (1/2) (1/2) [true, true]] ++ [.softmax]) [(2 : ℝ), 4] = .ok (softmax [1, 2]) := by
  apply C45_layer
  · norm_num [testingHooks, LayerOpt.afterOutputForTesting]
  · simp

/-- **C45 is false when an output is not a number**: Softmax turns every output into 0 (the NaN is hidden from the later
test of the outputs), so the outputs do not sum to 1. -/
theorem C45_nan_refuted : computeSoftmax [NF.nan, NF.num 1] = .ok [NF.num 0, NF.num 0] ∧
    computeSoftmax [NF.num 1, NF.nan] = .ok [NF.num 0, NF.num 0] := by decide +kernel

/-! ### C46 — Dropout -/

section
variable {F : Type} [Flt F] [FTrans F] [Add F] [Sub F] [Mul F] [Div F] [Neg F]

/-- The Dropout of a layer with `n` neurons built from the rate `p`, whatever happened since. -/
inductive DropoutReach (n : Nat) (p : F) : LayerOpt F → Prop
  | build (d : Draws F) : DropoutReach n p (LayerOpt.build n (.dropout p) d).1
  | train {o : LayerOpt F} (h : DropoutReach n p o) (xs : List F) (t : Bool) (d : Draws F) {ys : List F} {o' : LayerOpt F}
      {d' : Draws F} (ho : o.afterOutputForTraining xs t d = .ok (ys, o', d')) : DropoutReach n p o'

theorem dropoutReach_inv {n : Nat} {p : F} {o : LayerOpt F} (h : DropoutReach n p o) :
    ∃ mask : List Bool, mask.length = n ∧ o = .dropout p (lit 1 - p) mask := by
  induction h with
  | build d => exact ⟨_, by simp [generateMask], rfl⟩
  | train h xs t d ho ih =>
    obtain ⟨mask, h1, rfl⟩ := ih
    cases t with
    | false =>
      simp only [LayerOpt.afterOutputForTraining, Bool.false_eq_true, if_false, Res.ok.injEq, Prod.mk.injEq] at ho
      exact ⟨mask, h1, ho.2.1.symm⟩
    | true =>
      simp only [LayerOpt.afterOutputForTraining, if_true, Res.ok.injEq, Prod.mk.injEq] at ho
      exact ⟨_, by simp [generateMask, h1], ho.2.1.symm⟩

theorem applyMask_length : ∀ (xs : List F) (m : List Bool), (applyMask xs m).length = xs.length
  | [], m => by cases m <;> rfl
  | x :: xs, [] => rfl
  | x :: xs, b :: m => by simp [applyMask, applyMask_length xs m]

theorem applyMask_get : ∀ (xs : List F) (m : List Bool) (i : Nat) (v : F), xs[i]? = some v →
    (applyMask xs m)[i]? = some (match m[i]? with | some true => v * lit 1 | some false => v * lit 0 | none => v)
  | [], m, i, v, h => by simp at h
  | x :: xs, [], i, v, h => by simpa [applyMask] using h
  | x :: xs, b :: m, 0, v, h => by
    simp only [List.getElem?_cons_zero, Option.some.injEq] at h
    subst h
    cases b <;> rfl
  | x :: xs, b :: m, i + 1, v, h => by
    simp only [List.getElem?_cons_succ] at h
    simpa [applyMask] using applyMask_get xs m i v h

end

/-- **C46** (exact arithmetic): for every history of the optimizer, a training output replaces by 0 the positions of a set
and leaves the others unchanged; the errors of the matching backpropagation lose exactly the same positions; inference
multiplies every output by `1 - p`; nothing else of the optimizer changes (same rate, same size of mask). What is missing
with respect to C46: positions from the number of neurons on are never dropped, see `C46_convolution_refuted`. -/
theorem C46_dropout_partial {n : Nat} {p : ℝ} {o : LayerOpt ℝ} (h : DropoutReach n p o) (xs : List ℝ) (t : Bool) (d : Draws ℝ) :
    ∃ (drop : Nat → Prop) (ys : List ℝ) (o' : LayerOpt ℝ) (d' : Draws ℝ),
      o.afterOutputForTraining xs t d = .ok (ys, o', d') ∧ DropsExactly drop xs ys ∧
      (∀ ws es, DropsExactly drop es (o'.beforeBackpropagation ws es)) ∧
      (∀ out, o'.afterOutputForTesting out = .ok (out.map fun v => v * (1 - p))) ∧
      (∀ i, drop i → i < n) ∧ (t = true → ∀ i < n, (drop i ↔ d i < p)) := by
  obtain ⟨mask, hm, rfl⟩ := dropoutReach_inv h
  have key : ∀ (m : List Bool) (zs : List ℝ), DropsExactly (fun i => m[i]? = some false) zs (applyMask zs m) := by
    intro m zs
    refine ⟨applyMask_length zs m, fun i v hv => ?_⟩
    have := applyMask_get zs m i v hv
    rw [this]
    refine ⟨fun hd => by rw [hd]; simp, fun hd => ?_⟩
    cases hmi : m[i]? with
    | none => rfl
    | some b =>
      cases b with
      | false => exact absurd hmi hd
      | true => simp
  cases t with
  | false =>
    refine ⟨fun i => mask[i]? = some false, applyMask xs mask, .dropout p (lit 1 - p) mask, d, rfl, key mask xs,
      fun ws es => key mask es, fun out => by simp [LayerOpt.afterOutputForTesting], ?_, by simp⟩
    intro i hi
    obtain ⟨h1, _⟩ := List.getElem?_eq_some_iff.1 hi
    omega
  | true =>
    refine ⟨fun i => (generateMask p mask.length d)[i]? = some false, applyMask xs (generateMask p mask.length d),
      .dropout p (lit 1 - p) (generateMask p mask.length d), shiftDraws mask.length d, rfl, key _ xs,
      fun ws es => key _ es, fun out => by simp [LayerOpt.afterOutputForTesting], ?_, ?_⟩
    · intro i hi
      obtain ⟨h1, _⟩ := List.getElem?_eq_some_iff.1 hi
      simp [generateMask] at h1
      omega
    · intro _ i hi
      simp [generateMask, List.getElem?_range, hm, hi]

/-- The hypothesis is met and the dropping is not trivial: rate 1/2, two neurons, draws 0 then 1. -/
example : DropoutReach 2 (1/2 : ℝ) (.dropout (1/2) (lit 1 - 1/2) (generateMask (1/2 : ℝ) 2 (fun _ => (0 : ℝ)))) ∧
    Prod.fst <$> (LayerOpt.dropout (1/2 : ℝ) (lit 1 - 1/2) (generateMask (1/2 : ℝ) 2 (fun _ => (0 : ℝ)))).afterOutputForTraining [5, 7] true
      (fun i => if i = 0 then (0 : ℝ) else 1) = .ok [0, 7] := by
  refine ⟨.build (fun _ => (0 : ℝ)), ?_⟩
  norm_num [LayerOpt.afterOutputForTraining, generateMask, List.range, List.range.loop, applyMask, fle]

/-- **C46 is false of convolution layers**, for every carrier and history: a layer of `F` filters has `F` neurons and more
outputs than neurons; an output at a position from `F` on is never dropped in training, whatever the rate and the draws,
while inference scales it by `1 - p` like the others. -/
theorem C46_convolution_refuted {F : Type} [Flt F] [FTrans F] [Add F] [Sub F] [Mul F] [Div F] [Neg F] {n : Nat} {p : F}
    {o : LayerOpt F} (h : DropoutReach n p o) (xs : List F) (t : Bool) (d : Draws F) :
    ∃ ys o' d', o.afterOutputForTraining xs t d = .ok (ys, o', d') ∧ (∀ i, n ≤ i → ys[i]? = xs[i]?) ∧
      o'.afterOutputForTesting xs = .ok (xs.map fun v => v * (lit 1 - p)) := by
  obtain ⟨mask, hm, rfl⟩ := dropoutReach_inv h
  have key : ∀ (m : List Bool), m.length = n → ∀ i, n ≤ i → (applyMask xs m)[i]? = xs[i]? := by
    intro m h1 i hi
    cases hx : xs[i]? with
    | none =>
      rw [List.getElem?_eq_none_iff] at hx ⊢
      rw [applyMask_length]; exact hx
    | some v =>
      rw [applyMask_get xs m i v hx, List.getElem?_eq_none_iff.2 (by omega)]
  cases t with
  | false => exact ⟨_, _, _, rfl, key mask hm, rfl⟩
  | true => exact ⟨_, _, _, rfl, key _ (by simp [generateMask, hm]), rfl⟩

/-! ### C47 — error optimizers -/

theorem foldl_weights (f : ℝ → ℝ) : ∀ (ws : List (List ℝ)) (s : ℝ),
    ws.foldl (fun s n => n.foldl (fun s w => s + f w) s) s = s + (ws.flatten.map f).sum
  | [], s => by simp
  | n :: ws, s => by
    rw [List.foldl_cons, foldl_weights f ws, foldl_add_sum, List.flatten_cons, List.map_append, List.sum_append]
    ring

/-- **C47** (exact arithmetic): before backpropagation ErrorMultiplier multiplies every error by its factor; L1 and L2 add to
every error their factor times the sum of the absolute or squared weights divided by the number of neurons; in training
and in inference none of the three changes an output or its own state. What is missing with respect to C47: the quantity
added is not the average over the weights, see `C47_average_refuted`. -/
theorem C47_errors_partial (v : ℝ) (ws : List (List ℝ)) (es : List ℝ) :
    (LayerOpt.errorMultiplier v).beforeBackpropagation ws es = es.map (fun e => e * v) ∧
    (LayerOpt.l1 v).beforeBackpropagation ws es = es.map (fun e => e + v * sumPerNeuron (fun w => |w|) ws) ∧
    (LayerOpt.l2 v).beforeBackpropagation ws es = es.map (fun e => e + v * sumPerNeuron (fun w => w ^ 2) ws) ∧
    ∀ o ∈ [LayerOpt.errorMultiplier v, .l1 v, .l2 v], ∀ (out : List ℝ) (t : Bool) (d : Draws ℝ),
      o.afterOutputForTraining out t d = .ok (out, o, d) ∧ o.afterOutputForTesting out = .ok out := by
  refine ⟨rfl, ?_, ?_, ?_⟩
  · simp only [LayerOpt.beforeBackpropagation, averageAbs, sumPerNeuron, foldl_weights, fabs_eq]
    apply List.map_congr_left; intro e _
    simp
    ring
  · have : ∀ ws : List (List ℝ), averageSquare ws = sumPerNeuron (fun w => w ^ 2) ws := by
      intro ws
      unfold averageSquare sumPerNeuron
      have := foldl_weights (fun w => w ^ 2) ws (lit 0)
      simp only [pow_two] at this ⊢
      rw [this]; simp
    simp only [LayerOpt.beforeBackpropagation, this]
    apply List.map_congr_left; intro e _
    ring
  · intro o ho out t d
    simp at ho
    rcases ho with rfl | rfl | rfl <;> exact ⟨rfl, rfl⟩

/-- **C47 is false of the average**: the code divides the sum over all the weights by the number of neurons, not of
weights. For one neuron with weights 1 and 1 the average absolute weight is 1, the amount added is 2 times the factor. -/
theorem C47_average_refuted (v e : ℝ) (hv : v ≠ 0) :
    averageWeight (fun w => |w|) [[1, 1]] = 1 ∧ (LayerOpt.l1 v).beforeBackpropagation [[1, 1]] [e] = [e + v * 2] ∧
    averageWeight (fun w => w ^ 2) [[1, 1]] = 1 ∧ (LayerOpt.l2 v).beforeBackpropagation [[1, 1]] [e] = [e + v * 2] ∧
    e + v * 2 ≠ e + v * 1 := by
  refine ⟨by norm_num [averageWeight], ?_, by norm_num [averageWeight], ?_, ?_⟩
  · rw [(C47_errors_partial v [[1, 1]] [e]).2.1]; norm_num [sumPerNeuron]
  · rw [(C47_errors_partial v [[1, 1]] [e]).2.2.1]; norm_num [sumPerNeuron]
  · intro h; apply hv; linarith

end Snn.LayerOptProps
