import Verif.Spec.RobustSpec
import Verif.Props.ActivationProps
import Verif.Props.LayerOptProps
import Verif.Proofs.FilterProofs
import Verif.Proofs.PoolProofs
import Verif.Proofs.NetRun
import Mathlib.Analysis.Calculus.MeanValue
import Mathlib.Analysis.SpecialFunctions.Log.Basic

/-! How much the activation functions, the neurons, the layer optimizers and the layers amplify a change of their inputs. -/

set_option linter.all false

namespace Snn.Robust

open Finset Snn.Spec

/-! ### Activation functions -/

theorem lip_of_deriv {f f' : ℝ → ℝ} {c : ℝ} (h : ∀ x, HasDerivAt f (f' x) x) (hb : ∀ x, |f' x| ≤ c) (x y : ℝ) : |f x - f y| ≤ c * |x - y| := by
  have := Convex.norm_image_sub_le_of_norm_hasDerivWithin_le (f := f) (f' := f') (s := Set.univ) (x := y) (y := x) (C := c)
    (fun z _ => (h z).hasDerivWithinAt) (fun z _ => by simpa using hb z) convex_univ (Set.mem_univ _) (Set.mem_univ _)
  simpa using this

theorem logistic_slope (x : ℝ) : |Real.exp x / (Real.exp x + 1) ^ 2| ≤ 1 / 4 := by
  have p := Real.exp_pos x
  rw [abs_of_pos (by positivity), div_le_div_iff₀ (by positivity) (by norm_num)]
  nlinarith [sq_nonneg (Real.exp x - 1)]

theorem tanh_sq (x : ℝ) : 0 ≤ 1 - Real.tanh x ^ 2 ∧ 1 - Real.tanh x ^ 2 ≤ 1 := by
  have h := abs_tanh_lt x
  constructor <;> nlinarith [h.1, h.2, sq_nonneg (Real.tanh x)]

/-- `1 - tanh² (u/2) = 4 e^u / (e^u + 1)²`, at most `4 / (4 + u²)`. -/
theorem sech_le (u : ℝ) : (1 - Real.tanh (u / 2) ^ 2) * (4 + u ^ 2) ≤ 4 := by
  have hc := Real.cosh_pos (u / 2)
  have e : (1 - Real.tanh (u / 2) ^ 2) = 1 / Real.cosh (u / 2) ^ 2 := by
    rw [Real.tanh_eq_sinh_div_cosh, div_pow, eq_div_iff (by positivity), sub_mul, div_mul_cancel₀ _ (by positivity)]
    linarith [Real.cosh_sq (u / 2)]
  have h2 : 1 + (u / 2) ^ 2 ≤ Real.cosh (u / 2) ^ 2 := by
    have h1 : (u / 2) ^ 2 ≤ Real.sinh (u / 2) ^ 2 := by
      rw [sq_le_sq]
      rcases le_total 0 (u / 2) with h | h
      · rw [abs_of_nonneg h, abs_of_nonneg (Real.sinh_nonneg_iff.2 h)]; exact Real.self_le_sinh_iff.2 h
      · rw [abs_of_nonpos h, abs_of_nonpos (Real.sinh_nonpos_iff.2 h)]; linarith [Real.sinh_le_self_iff.2 h]
    linarith [Real.cosh_sq (u / 2)]
  rw [e, div_mul_eq_mul_div, div_le_iff₀ (by positivity)]
  linarith

theorem gelu_slope (x : ℝ) : |ActObj.GaussianErrorLinearUnit.derivative x| ≤ 5 / 4 := by
  have h := sech_le (851/500 * x)
  have h1 := tanh_sq (851/500 * x / 2)
  have h2 := abs_tanh_lt (851/500 * x / 2)
  simp only [ActObj.derivative, Snn.sq, lit_eq, ftanh_real]
  push_cast
  generalize hu : (851/500 * x : ℝ) = u at *
  generalize Real.tanh (u / 2) = t at *
  have key : |u * (1 - t ^ 2)| ≤ 1 := by
    have a : |u| * (4 * (1 - t ^ 2)) ≤ 4 := by
      refine le_trans ?_ h
      rw [mul_comm, mul_comm 4, mul_assoc]
      apply mul_le_mul_of_nonneg_left _ h1.1
      nlinarith [sq_nonneg (|u| - 2), sq_abs u]
    rw [abs_mul, abs_of_nonneg h1.1]
    linarith
  rw [abs_le] at key ⊢
  have e : u * (1 - t * t) / 4 = u * (1 - t ^ 2) / 4 := by ring
  rw [e]
  constructor <;> linarith [key.1, key.2, h2.1, h2.2]

theorem gaussian_slope (x : ℝ) : |ActObj.Gaussian.derivative x| ≤ 1 := by
  simp only [ActObj.derivative, Snn.sq, lit_eq, fexp_real]
  push_cast
  have p := Real.exp_pos (-(x * x))
  have h : (1 + x * x) * Real.exp (-(x * x)) ≤ 1 := by
    have := Real.add_one_le_exp (x * x)
    have e : Real.exp (x * x) * Real.exp (-(x * x)) = 1 := by rw [← Real.exp_add]; simp
    nlinarith
  rw [abs_mul, abs_of_pos p]
  refine le_trans (mul_le_mul_of_nonneg_right ?_ p.le) h
  rw [abs_mul, abs_of_neg (by norm_num : (-2 : ℝ) < 0)]
  nlinarith [sq_nonneg (|x| - 1), sq_abs x]

/-- No activation function amplifies a change by more than its gain. -/
theorem act_lip (a : Act) (x y : ℝ) : |a.obj.function x - a.obj.function y| ≤ actGain a * |x - y| := by
  cases a with
  | sigmoid =>
    refine lip_of_deriv (f' := ActObj.Sigmoid.derivative) (fun x => ActivationSpec.C44_derivative_partial .Sigmoid (by simp) x (by simp)) (fun x => ?_) x y
    have := tanh_sq (x / 2)
    simp only [ActObj.derivative, Snn.sq, lit_eq, ftanh_real]
    push_cast
    rw [abs_le]
    simp only [actGain]
    constructor <;> nlinarith [this.1, this.2]
  | iSigmoid =>
    refine lip_of_deriv (f' := fun x => ActObj.ImprovedSigmoid.derivative x + 1 / 20) (fun x => (ActivationSpec.C44_iSigmoid_refuted x).1) (fun x => ?_) x y
    have := logistic_slope x
    simp only [ActObj.derivative, Snn.sq, lit_eq, fexp_real]
    push_cast
    rw [← pow_two, abs_le]
    rw [abs_le] at this
    simp only [actGain]
    constructor <;> linarith [this.1, this.2]
  | tanh =>
    refine lip_of_deriv (f' := ActObj.Tanh.derivative) (fun x => ActivationSpec.C44_derivative_partial .Tanh (by simp) x (by simp)) (fun x => ?_) x y
    have := tanh_sq x
    simp only [ActObj.derivative, Snn.sq, lit_eq, ftanh_real]
    push_cast
    rw [abs_le]
    simp only [actGain]
    constructor <;> nlinarith [this.1, this.2]
  | relu =>
    have e : ∀ z : ℝ, Act.relu.obj.function z = max z 0 := fun z => (ActivationSpec.C44_functions z).2.2.2.1
    rw [e, e]
    simp only [actGain, one_mul]
    simpa using abs_max_sub_max_le_abs x y 0
  | gelu => exact lip_of_deriv (f' := ActObj.GaussianErrorLinearUnit.derivative) (fun x => ActivationSpec.C44_derivative_partial .GaussianErrorLinearUnit (by simp) x (by simp)) gelu_slope x y
  | gaussian =>
    exact lip_of_deriv (f' := ActObj.Gaussian.derivative) (fun x => ActivationSpec.C44_derivative_partial .Gaussian (by simp) x (by simp)) gaussian_slope x y
  | identity =>
    have e : ∀ z : ℝ, Act.identity.obj.function z = z := fun z => (ActivationSpec.C44_functions z).2.2.2.2.2.2
    rw [e, e]
    simp [actGain]

theorem actGain_pos (a : Act) : 0 ≤ actGain a := by cases a <;> simp only [actGain] <;> norm_num

/-! ### Neurons -/

theorem near_get {ε : ℝ} (hε : 0 ≤ ε) {x x' : List ℝ} (h : Near ε x x') (i : Nat) : |x.getD i 0 - x'.getD i 0| ≤ ε := by
  induction h generalizing i with
  | nil => simpa using hε
  | cons h _ ih => cases i with
    | zero => simpa using h
    | succ i => simpa using ih i

theorem sum_dropLast {w : List ℝ} {n : Nat} (h : w.length = n + 1) : (w.dropLast.map fun v => |v|).sum = ∑ i ∈ range n, |w.getD i 0| := by
  have hl : w.dropLast.length = n := by simp [h]
  rw [← Fin.sum_univ_eq_sum_range (fun i => |w.getD i 0|), ← List.sum_ofFn]
  congr 1
  apply List.ext_getElem
  · simp; omega
  · intro i h1 h2
    have : i < w.length := by simp at h2; omega
    simp [this]

theorem neuron_near {n : Neuron ℝ} {size b : Nat} (h : n.WF size (size + 1) b) {ε : ℝ} (hε : 0 ≤ ε) {x x' : List ℝ} (hx : x.length = size)
    (hn : Near ε x x') : |n.value x - n.value x'| ≤ neuronGain (neuronParams n) * ε := by
  have hx' : x'.length = size := by rw [← hn.length_eq, hx]
  rw [Neuron.value_eq h x hx, Neuron.value_eq h x' hx', affine_at hx, affine_at hx']
  refine le_trans (act_lip _ _ _) ?_
  unfold neuronGain
  rw [mul_assoc]
  refine mul_le_mul_of_nonneg_left ?_ (actGain_pos _)
  have e : (neuronParams n).weights = n.weights := rfl
  rw [e, sum_dropLast h.wlen, sum_mul, add_sub_add_right_eq_sub, ← sum_sub_distrib]
  refine le_trans (abs_sum_le_sum_abs _ _) (sum_le_sum fun i _ => ?_)
  rw [← mul_sub, abs_mul]
  exact mul_le_mul_of_nonneg_left (near_get hε hn i) (abs_nonneg _)

theorem gain_le_max {N : Type} (f : N → ℝ) : ∀ {ns : List N} {n : N}, n ∈ ns → f n ≤ (ns.map f).foldr max 0
  | m :: ns, n, h => by
    rcases List.mem_cons.1 h with rfl | h
    · exact le_max_left _ _
    · exact le_trans (gain_le_max f h) (le_max_right _ _)

theorem max_nonneg (l : List ℝ) : 0 ≤ l.foldr max 0 := by
  induction l with
  | nil => simp
  | cons a l ih => exact le_trans ih (le_max_right _ _)

theorem near_mono {ε δ : ℝ} (h : ε ≤ δ) {x x' : List ℝ} (hn : Near ε x x') : Near δ x x' := List.Forall₂.imp (fun _ _ k => le_trans k h) hn

theorem near_append {ε : ℝ} {a a' b b' : List ℝ} (h : Near ε a a') (k : Near ε b b') : Near ε (a ++ b) (a' ++ b') := forall₂_append h k

theorem near_map {N : Type} {ε : ℝ} {f g : N → ℝ} {ns : List N} (h : ∀ n ∈ ns, |f n - g n| ≤ ε) : Near ε (ns.map f) (ns.map g) := by
  unfold Near
  rw [List.forall₂_map_left_iff, List.forall₂_map_right_iff, List.forall₂_same]
  exact h

/-- Every neuron has at most the gain c. -/
theorem neurons_near {ns : List (Neuron ℝ)} {size b : Nat} (h : ∀ n ∈ ns, n.WF size (size + 1) b) {ε : ℝ} (hε : 0 ≤ ε) {c : ℝ}
    (hc : ∀ n ∈ ns, neuronGain (neuronParams n) ≤ c) {x x' : List ℝ} (hx : x.length = size) (hn : Near ε x x') :
    Near (c * ε) (ns.map fun n => n.value x) (ns.map fun n => n.value x') :=
  near_map fun n hm => le_trans (neuron_near (h n hm) hε hx hn) (mul_le_mul_of_nonneg_right (hc n hm) hε)

theorem pick_near {ε : ℝ} (hε : 0 ≤ ε) {x x' : List ℝ} (hn : Near ε x x') (row : List Int) : Near ε (pick x row) (pick x' row) := by
  unfold pick
  refine near_map fun i _ => ?_
  split
  · simpa using near_get hε hn i.toNat
  · simpa using hε

/-! ### Softmax -/

theorem sumexp_near {ε : ℝ} {x x' : List ℝ} (h : Near ε x x') : (x'.map Real.exp).sum ≤ Real.exp ε * (x.map Real.exp).sum := by
  induction h with
  | nil => simp
  | @cons a b l l' h _ ih =>
    simp only [List.map_cons, List.sum_cons, mul_add]
    refine add_le_add ?_ ih
    rw [← Real.exp_add, Real.exp_le_exp]
    rw [abs_le] at h
    linarith [h.1]

theorem near_symm {ε : ℝ} {x x' : List ℝ} (h : Near ε x x') : Near ε x' x := by
  induction h with
  | nil => exact .nil
  | cons h _ ih => exact .cons (by rw [abs_sub_comm]; exact h) ih

theorem share_near {a a' R R' ε : ℝ} (ha : |a - a'| ≤ ε) (hR : 0 ≤ R) (hR' : 0 ≤ R') (h : R' ≤ Real.exp ε * R) (h' : R ≤ Real.exp ε * R') :
    |Real.exp a / (Real.exp a + R) - Real.exp a' / (Real.exp a' + R')| ≤ 1 / 2 * ε := by
  have hε : 0 ≤ ε := le_trans (abs_nonneg _) ha
  rcases hR.eq_or_lt with e | hp
  · subst e
    have : R' = 0 := le_antisymm (by simpa using h) hR'
    subst this
    rw [add_zero, add_zero, div_self (Real.exp_ne_zero _), div_self (Real.exp_ne_zero _)]
    simpa using hε
  have hp' : 0 < R' := by
    rcases hR'.eq_or_lt with e | hp'
    · subst e; simp at h'; linarith
    · exact hp'
  have key : ∀ b r : ℝ, 0 < r → Real.exp b / (Real.exp b + r) = Act.sigmoid.obj.function (b - Real.log r) := by
    intro b r hr
    have e := (ActivationSpec.C44_functions (b - Real.log r)).1
    have : Act.sigmoid.obj = ActObj.Sigmoid := rfl
    rw [this, e, neg_sub, Real.exp_sub, Real.exp_log hr, div_eq_div_iff (by positivity) (by positivity)]
    have := Real.exp_ne_zero b
    field_simp
  rw [key a R hp, key a' R' hp']
  refine le_trans (act_lip _ _ _) ?_
  have l1 : Real.log R' ≤ ε + Real.log R := by
    have := Real.log_le_log hp' h
    rwa [Real.log_mul (Real.exp_ne_zero _) hp.ne', Real.log_exp] at this
  have l2 : Real.log R ≤ ε + Real.log R' := by
    have := Real.log_le_log hp h'
    rwa [Real.log_mul (Real.exp_ne_zero _) hp'.ne', Real.log_exp] at this
  simp only [actGain]
  have : |a - Real.log R - (a' - Real.log R')| ≤ 2 * ε := by
    rw [abs_le] at ha ⊢
    constructor <;> linarith [ha.1, ha.2]
  linarith

theorem sumexp_nonneg (l : List ℝ) : 0 ≤ (l.map Real.exp).sum := List.sum_nonneg (by simp; intro a _; positivity)

theorem shares_near {ε : ℝ} {x x' : List ℝ} (h : Near ε x x') : ∀ {P P' : ℝ}, 0 ≤ P → 0 ≤ P' → P' ≤ Real.exp ε * P → P ≤ Real.exp ε * P' →
    Near (1 / 2 * ε) (x.map fun v => Real.exp v / (P + (x.map Real.exp).sum)) (x'.map fun v => Real.exp v / (P' + (x'.map Real.exp).sum)) := by
  induction h with
  | nil => intros; exact .nil
  | @cons a b l l' h hl ih =>
    intro P P' hP hP' k k'
    have s1 := sumexp_near hl
    have s2 := sumexp_near (near_symm hl)
    have n1 := sumexp_nonneg l
    have n2 := sumexp_nonneg l'
    have h1 : Near ε [a] [b] := .cons h .nil
    have t1 := sumexp_near h1
    have t2 := sumexp_near (near_symm h1)
    simp only [List.map_cons, List.map_nil, List.sum_cons, List.sum_nil, add_zero] at t1 t2 ⊢
    have p1 := Real.exp_pos a
    have p2 := Real.exp_pos b
    refine .cons ?_ ?_
    · have := share_near h (add_nonneg hP n1) (add_nonneg hP' n2) (by linarith) (by linarith)
      rw [show P + (Real.exp a + (l.map Real.exp).sum) = Real.exp a + (P + (l.map Real.exp).sum) by ring,
        show P' + (Real.exp b + (l'.map Real.exp).sum) = Real.exp b + (P' + (l'.map Real.exp).sum) by ring]
      exact this
    · have := ih (P := P + Real.exp a) (P' := P' + Real.exp b) (by linarith) (by linarith) (by linarith) (by linarith)
      simp only [add_assoc] at this
      exact this

/-- The softmax function halves the changes. -/
theorem softmax_near {ε : ℝ} {x x' : List ℝ} (h : Near ε x x') : Near (1 / 2 * ε) (softmax x) (softmax x') := by
  have := shares_near h (P := 0) (P' := 0) le_rfl le_rfl (by simp) (by simp)
  simpa [softmax] using this

/-! ### Layer optimizers -/

theorem opt_near {o : LayerOpt ℝ} {ε : ℝ} {x x' y y' : List ℝ} (hn : Near ε x x') (hx : 0 < x.length)
    (h : o.afterOutputForTesting x = .ok y) (h' : o.afterOutputForTesting x' = .ok y') : Near (optGain o * ε) y y' := by
  have hx' : 0 < x'.length := by rw [← hn.length_eq]; exact hx
  cases o with
  | dropout v rv m =>
    cases h; cases h'
    unfold Near
    rw [List.forall₂_map_left_iff, List.forall₂_map_right_iff]
    refine List.Forall₂.imp (fun a b k => ?_) hn
    rw [← sub_mul, abs_mul, mul_comm]
    exact mul_le_mul_of_nonneg_left k (abs_nonneg _)
  | softmax =>
    simp only [LayerOpt.afterOutputForTesting] at h h'
    rw [LayerOptProps.C45_softmax_value (List.length_pos_iff.1 hx)] at h
    rw [LayerOptProps.C45_softmax_value (List.length_pos_iff.1 hx')] at h'
    cases h; cases h'
    exact softmax_near hn
  | l1 => cases h; cases h'; simpa [optGain] using hn
  | l2 => cases h; cases h'; simpa [optGain] using hn
  | errorMultiplier => cases h; cases h'; simpa [optGain] using hn

theorem opts_near : ∀ {os : List (LayerOpt ℝ)} {ε : ℝ} {x x' y y' : List ℝ}, Near ε x x' → 0 < x.length →
    testingHooks os x = .ok y → testingHooks os x' = .ok y' → Near ((os.map optGain).prod * ε) y y'
  | [], ε, x, x', y, y', hn, _, h, h' => by cases h; cases h'; simpa using hn
  | o :: os, ε, x, x', y, y', hn, hx, h, h' => by
    obtain ⟨z, h1, h2⟩ := Res.bind_eq_ok.1 h
    obtain ⟨z', h1', h2'⟩ := Res.bind_eq_ok.1 h'
    have hz := opt_near hn hx h1 h1'
    obtain ⟨w, e, hl⟩ := afterOutputForTesting_ok o hx
    rw [h1] at e
    cases e
    have := opts_near hz (by rw [hl]; exact hx) h2 h2'
    rw [List.map_cons, List.prod_cons]
    rwa [show optGain o * (os.map optGain).prod * ε = (os.map optGain).prod * (optGain o * ε) by ring]

/-! ### The layers -/

theorem conv_near {ε : ℝ} (hε : 0 ≤ ε) {x x' : List ℝ} (hn : Near ε x x') {size b : Nat} {ns : List (Neuron ℝ)} (h : ∀ n ∈ ns, n.WF size (size + 1) b)
    {c : ℝ} (hc : ∀ n ∈ ns, neuronGain (neuronParams n) ≤ c) : ∀ {rows : List (List Int)}, (∀ row ∈ rows, row.length = size) →
    Near (c * ε) (rows.flatMap fun row => ns.map fun n => n.value (pick x row)) (rows.flatMap fun row => ns.map fun n => n.value (pick x' row))
  | [], _ => .nil
  | row :: rows, hr => by
    simp only [List.flatMap_cons]
    exact near_append (neurons_near h hε hc (by simp [pick, hr row (by simp)]) (pick_near hε hn row)) (conv_near hε hn h hc fun r k => hr r (by simp [k]))

theorem lc_near {ε : ℝ} (hε : 0 ≤ ε) {x x' : List ℝ} (hn : Near ε x x') {size filters : Nat} {c : ℝ} : ∀ {rows : List (List Int)} {ns : List (Neuron ℝ)},
    (∀ row ∈ rows, row.length = size ∧ ∀ i ∈ row, i < x.length) → (∀ n ∈ ns, n.WF size (size + 1) 1) → (∀ n ∈ ns, neuronGain (neuronParams n) ≤ c) →
    ∀ {os os' : List ℝ} {m m' : List (Neuron ℝ)}, lcOutputs x size filters rows ns = .ok (os, m) → lcOutputs x' size filters rows ns = .ok (os', m') →
      Near (c * ε) os os'
  | [], ns, _, _, _, os, os', m, m', h, h' => by cases h; cases h'; exact .nil
  | row :: rows, ns, hr, hw, hc, os, os', m, m', h, h' => by
    obtain ⟨hl, hi⟩ := hr row (by simp)
    have hi' : ∀ i ∈ row, i < (x'.length : Int) := by rw [← hn.length_eq]; exact hi
    have g := gatherPad_ok x hi
    have g' := gatherPad_ok x' hi'
    rw [hl] at g g'
    have run : ∀ z : List ℝ, z.length = size → ∃ k, runNeurons (fun n : Neuron ℝ => n.output z) (ns.take filters) = .ok ((ns.take filters).map fun n => n.value z, k) := by
      intro z hz
      obtain ⟨k, e, _⟩ := runNeurons_value (f := fun n : Neuron ℝ => n.output z) (g := fun n => n.value z) (P := fun _ _ => True) (ns := ns.take filters) (by
        intro n hn'
        obtain ⟨n', a, _⟩ := Neuron.output_value (hw n (List.mem_of_mem_take hn')) z hz
        exact ⟨n', a, trivial⟩)
      exact ⟨k, e⟩
    rw [lcOutputs, g] at h
    rw [lcOutputs, g'] at h'
    simp only [Res.ok_bind] at h h'
    split at h
    · cases h
    rename_i hf
    rw [if_neg hf] at h'
    obtain ⟨k, e⟩ := run (pick x row) (by simp [pick, hl])
    obtain ⟨k', e'⟩ := run (pick x' row) (by simp [pick, hl])
    rw [e] at h
    rw [e'] at h'
    simp only [Res.ok_bind] at h h'
    obtain ⟨⟨o, q⟩, h1, h⟩ := Res.bind_eq_ok.1 h
    obtain ⟨⟨o', q'⟩, h1', h'⟩ := Res.bind_eq_ok.1 h'
    cases h; cases h'
    refine near_append (neurons_near (fun n k => hw n (List.mem_of_mem_take k)) hε (fun n k => hc n (List.mem_of_mem_take k)) (by simp [pick, hl]) (pick_near hε hn row)) ?_
    exact lc_near hε hn (fun r k => hr r (by simp [k])) (fun n k => hw n (List.mem_of_mem_drop k)) (fun n k => hc n (List.mem_of_mem_drop k)) h1 h1'

theorem pool_near {ε : ℝ} (hε : 0 ≤ ε) {x x' : List ℝ} (hn : Near ε x x') {size : Nat} {rows : List (List Int)}
    (hr : ∀ row ∈ rows, row.length = size ∧ (∀ i ∈ row, i < x.length) ∧ ∃ i ∈ row, 0 ≤ i) {os os' : List ℝ} {ms ms' : List Int}
    (h : poolOutputs x size rows = .ok (os, ms)) (h' : poolOutputs x' size rows = .ok (os', ms')) : Near ε os os' := by
  obtain ⟨o, m, e, l, _, k⟩ := poolOutputs_max x hr
  obtain ⟨o', m', e', l', _, k'⟩ := poolOutputs_max x' (by rw [← hn.length_eq]; exact hr)
  rw [h] at e
  rw [h'] at e'
  cases e; cases e'
  refine List.forall₂_iff_get.2 ⟨by rw [l, l'], fun i h1 h2 => ?_⟩
  obtain ⟨a, _, _, a3, a4, a5⟩ := k i (by rw [← l]; exact h1)
  obtain ⟨b, _, _, b3, b4, b5⟩ := k' i (by rw [← l']; exact h2)
  rw [List.getD_eq_getElem _ _ h1] at a4
  rw [List.getD_eq_getElem _ _ h2] at b4
  simp only [List.get_eq_getElem]
  rw [a4, b4, abs_le]
  have c1 := a5 b b3
  have c2 := b5 a a3
  have c3 := near_get hε hn a
  have c4 := near_get hε hn b
  rw [abs_le] at c3 c4
  constructor <;> linarith [c3.1, c3.2, c4.1, c4.2]

theorem body_near {l : Layer ℝ} {ni no : Nat} (h : l.body.WF ni no) (hp : NonRecurrent l) {ε : ℝ} (hε : 0 ≤ ε) {x x' y y' : List ℝ} (hx : x.length = ni)
    (hn : Near ε x x') {t t' : Bool} {b b' : Body ℝ} (ho : l.body.computeOutput x t = .ok (y, b)) (ho' : l.body.computeOutput x' t' = .ok (y', b')) :
    Near (bodyGain (layerParams l) * ε) y y' := by
  obtain ⟨nin, opts, body⟩ := l
  have hx' : x'.length = ni := by rw [← hn.length_eq, hx]
  cases body with
  | recurrence => exact absurd hp (by simp [NonRecurrent])
  | gru => exact absurd hp (by simp [NonRecurrent])
  | fullyConnected ns =>
    obtain ⟨h1, h2⟩ := h
    have run : ∀ z : List ℝ, z.length = ni → ∃ k, runNeurons (fun n : Neuron ℝ => n.output z) ns = .ok (ns.map fun n => n.value z, k) := by
      intro z hz
      obtain ⟨k, e, _⟩ := runNeurons_value (f := fun n : Neuron ℝ => n.output z) (g := fun n => n.value z) (P := fun _ _ => True) (ns := ns) (by
        intro n hn'
        obtain ⟨n', a, _⟩ := Neuron.output_value (h1 n hn') z hz
        exact ⟨n', a, trivial⟩)
      exact ⟨k, e⟩
    obtain ⟨k, e⟩ := run x hx
    obtain ⟨k', e'⟩ := run x' hx'
    simp only [Body.computeOutput, e] at ho
    simp only [Body.computeOutput, e'] at ho'
    cases ho; cases ho'
    simp only [bodyGain, layerParams]
    rw [List.map_map]
    exact neurons_near h1 hε (fun n k => gain_le_max (neuronGain ∘ neuronParams) k) hx hn
  | filter kind ns info =>
    have hg : bodyGain (layerParams ⟨nin, opts, Body.filter kind ns info⟩) = (ns.map (neuronGain ∘ neuronParams)).foldr max 0 := by
      simp only [bodyGain, layerParams, List.map_map]
    rw [hg]
    have hgn : ∀ n ∈ ns, neuronGain (neuronParams n) ≤ (ns.map (neuronGain ∘ neuronParams)).foldr max 0 := fun n k => gain_le_max (neuronGain ∘ neuronParams) k
    have conv : ∀ (h : ConvWF ns info ni no) {os os' : List ℝ} {m m' : List (Neuron ℝ)},
        convOutputs x info.sizeOfNeuronInputs.toNat info.kernelIndexes ns = .ok (os, m) →
        convOutputs x' info.sizeOfNeuronInputs.toNat info.kernelIndexes ns = .ok (os', m') →
        fillOutputs info.numberOfKernels os = .ok y → fillOutputs info.numberOfKernels os' = .ok y' →
        Near ((ns.map (neuronGain ∘ neuronParams)).foldr max 0 * ε) y y' := by
      intro h os os' m m' a a' f f'
      obtain ⟨_, e, _⟩ := convOutputs_ok x (rows := info.kernelIndexes) (ns := ns) (by rw [hx]; exact h.rows) h.neurons
      obtain ⟨_, e', _⟩ := convOutputs_ok x' (rows := info.kernelIndexes) (ns := ns) (by rw [hx']; exact h.rows) h.neurons
      rw [a] at e
      rw [a'] at e'
      cases e; cases e'
      rw [fillOutputs_ok (by rw [h.kernels, h.out, List.length_flatMap]; simp)] at f f'
      cases f; cases f'
      exact conv_near hε hn h.neurons hgn fun row k => (h.rows row k).1
    have lc : ∀ (h : LcWF kind ns info ni no) {os os' : List ℝ} {m m' : List (Neuron ℝ)},
        lcOutputs x info.sizeOfNeuronInputs.toNat info.numberOfFilters.toNat info.kernelIndexes ns = .ok (os, m) →
        lcOutputs x' info.sizeOfNeuronInputs.toNat info.numberOfFilters.toNat info.kernelIndexes ns = .ok (os', m') →
        fillOutputs info.numberOfKernels os = .ok y → fillOutputs info.numberOfKernels os' = .ok y' →
        Near ((ns.map (neuronGain ∘ neuronParams)).foldr max 0 * ε) y y' := by
      intro h os os' m m' a a' f f'
      have hr : ∀ row ∈ info.kernelIndexes, row.length = info.sizeOfNeuronInputs.toNat ∧ ∀ i ∈ row, i < (x.length : Int) := by rw [hx]; exact h.rows
      obtain ⟨_, _, e, l, _⟩ := lcOutputs_ok x (rows := info.kernelIndexes) (ns := ns) (by rw [hx]; exact h.rows) h.neurons h.count
      obtain ⟨_, _, e', l', _⟩ := lcOutputs_ok x' (rows := info.kernelIndexes) (ns := ns) (by rw [hx']; exact h.rows) h.neurons h.count
      rw [a] at e
      rw [a'] at e'
      cases e; cases e'
      rw [fillOutputs_ok (by rw [h.kernels, l, h.out])] at f
      rw [fillOutputs_ok (by rw [h.kernels, l', h.out])] at f'
      cases f; cases f'
      exact lc_near hε hn hr h.neurons hgn a a'
    simp only [Body.computeOutput] at ho ho'
    obtain ⟨⟨os, m⟩, a, ho⟩ := Res.bind_eq_ok.1 ho
    obtain ⟨⟨os', m'⟩, a', ho'⟩ := Res.bind_eq_ok.1 ho'
    obtain ⟨f, hf, ho⟩ := Res.bind_eq_ok.1 ho
    obtain ⟨f', hf', ho'⟩ := Res.bind_eq_ok.1 ho'
    cases ho; cases ho'
    cases kind
    · exact conv h a a' hf hf'
    · exact conv h a a' hf hf'
    · exact lc h a a' hf hf'
    · exact lc h a a' hf hf'
  | pool twoD info o mvi =>
    have h : PoolWF info o mvi ni no := h
    have hr : ∀ row ∈ info.kernelIndexes, row.length = info.sizeOfNeuronInputs.toNat ∧ (∀ i ∈ row, i < (x.length : Int)) ∧ ∃ i ∈ row, 0 ≤ i := by rw [hx]; exact h.rows
    simp only [Body.computeOutput] at ho ho'
    obtain ⟨⟨os, m⟩, a, ho⟩ := Res.bind_eq_ok.1 ho
    obtain ⟨⟨os', m'⟩, a', ho'⟩ := Res.bind_eq_ok.1 ho'
    obtain ⟨f, hf, ho⟩ := Res.bind_eq_ok.1 ho
    obtain ⟨f', hf', ho'⟩ := Res.bind_eq_ok.1 ho'
    simp only at ho ho'
    split at ho
    · cases ho
    split at ho'
    · cases ho'
    cases ho; cases ho'
    obtain ⟨_, _, e, l, _⟩ := poolOutputs_ok x hr
    obtain ⟨_, _, e', l', _⟩ := poolOutputs_ok x' (by rw [← hn.length_eq]; exact hr)
    rw [a] at e
    rw [a'] at e'
    cases e; cases e'
    rw [fillOutputs_ok (by rw [h.kernels, l, h.out])] at hf
    rw [fillOutputs_ok (by rw [h.kernels, l', h.out])] at hf'
    cases hf; cases hf'
    simp only [bodyGain, layerParams, one_mul]
    exact pool_near hε hn hr a a'

theorem bodyGain_nonneg (p : LayerParams ℝ) : 0 ≤ bodyGain p := by
  unfold bodyGain
  split
  · norm_num
  · exact max_nonneg _

theorem layer_near {l : Layer ℝ} {ni no : Nat} (h : l.WF ni no) (hp : NonRecurrent l) {ε : ℝ} (hε : 0 ≤ ε) {x x' y y' : List ℝ} (hx : x.length = ni)
    (hn : Near ε x x') {t t' : Bool} {m m' : Layer ℝ} (ho : l.output x t = .ok (y, m)) (ho' : l.output x' t' = .ok (y', m')) :
    Near (layerGain (layerParams l) * ε) y y' := by
  obtain ⟨⟨o, b⟩, h1, h2⟩ := Res.bind_eq_ok.1 ho
  obtain ⟨⟨o', b'⟩, h1', h2'⟩ := Res.bind_eq_ok.1 ho'
  obtain ⟨z, h3, h2⟩ := Res.bind_eq_ok.1 h2
  obtain ⟨z', h3', h2'⟩ := Res.bind_eq_ok.1 h2'
  cases h2; cases h2'
  obtain ⟨_, _, e, hl, _⟩ := Body.computeOutput_ok h.body x hx t
  rw [h1] at e
  cases e
  have := opts_near (body_near h.body hp hε hx hn h1 h1') (by rw [hl]; exact h.pos) h3 h3'
  have eo : (layerParams l).optimizers = l.optimizers := by unfold layerParams; split <;> rfl
  unfold layerGain
  rw [eo, mul_assoc]
  exact this

theorem optGain_nonneg (o : LayerOpt ℝ) : 0 ≤ optGain o := by cases o <;> simp [optGain]

theorem layerGain_nonneg (p : LayerParams ℝ) : 0 ≤ layerGain p :=
  mul_nonneg (List.prod_nonneg (by simp; intro o _; exact optGain_nonneg o)) (bodyGain_nonneg p)

theorem loop_near : ∀ {ls : List (Layer ℝ)} {ni no : Nat}, LayersWF ls ni no → (∀ l ∈ ls, NonRecurrent l) → ∀ {ε : ℝ}, 0 ≤ ε →
    ∀ {x x' y y' : List ℝ}, x.length = ni → Near ε x x' → ∀ {t t' : Bool} {m m' : List (Layer ℝ)}, outputLoop t ls x = .ok (y, m) → outputLoop t' ls x' = .ok (y', m') →
      Near ((ls.map fun l => layerGain (layerParams l)).prod * ε) y y'
  | [], ni, no, hw, hp, ε, hε, x, x', y, y', hx, hn, t, t', m, m', h, h' => by cases h; cases h'; simpa using hn
  | l :: ls, ni, no, hw, hp, ε, hε, x, x', y, y', hx, hn, t, t', m, m', h, h' => by
    cases hw with
    | cons hw1 hw2 =>
      obtain ⟨⟨o, b⟩, h1, h⟩ := Res.bind_eq_ok.1 h
      obtain ⟨⟨o', b'⟩, h1', h'⟩ := Res.bind_eq_ok.1 h'
      obtain ⟨⟨z, q⟩, h2, h⟩ := Res.bind_eq_ok.1 h
      obtain ⟨⟨z', q'⟩, h2', h'⟩ := Res.bind_eq_ok.1 h'
      cases h; cases h'
      have k := layer_near hw1 (hp l (by simp)) hε hx hn h1 h1'
      obtain ⟨_, _, e, hl, _⟩ := Layer.output_ok hw1 x hx t
      rw [h1] at e
      cases e
      have := loop_near hw2 (fun l' k => hp l' (by simp [k])) (mul_nonneg (layerGain_nonneg (layerParams l)) hε) hl k h2 h2'
      rw [List.map_cons, List.prod_cons]
      rwa [show ∀ a b c : ℝ, a * b * c = b * (a * c) by intros; ring]

end Snn.Robust
