import Verif.Spec.SmallSpec
import Verif.Proofs.RobustProofs
import Verif.Proofs.GradArch
import Verif.Proofs.FrameProofs

/-! A network of fully connected layers depends continuously on its weights. -/

set_option linter.all false

namespace Snn.Small

open Finset Snn.Spec Snn.Grad Snn.Robust

/-- The same neuron, but for weights that differ by at most δ. -/
structure CloseN (δ : ℝ) (a b : Neuron ℝ) : Prop where
  len : b.weights.length = a.weights.length
  bias : b.bias = a.bias
  act : b.activationFunction = a.activationFunction
  near : ∀ i, |a.weights.getD i 0 - b.weights.getD i 0| ≤ δ

/-- A fully connected layer without layer optimizer. -/
def DenseL (l : Layer ℝ) : Prop := l.optimizers = [] ∧ ∃ ns, l.body = .fullyConnected ns

/-- Two such layers with neurons that are close. -/
def CloseL (δ : ℝ) (l l' : Layer ℝ) : Prop :=
  l'.optimizers = [] ∧ ∃ ns ns', l.body = .fullyConnected ns ∧ l'.body = .fullyConnected ns' ∧ List.Forall₂ (CloseN δ) ns ns'

theorem neuron_close {a : Neuron ℝ} {size : Nat} (ha : a.WF size (size + 1) 1) {x : List ℝ} (hx : x.length = size) {c : ℝ} (hc : 0 ≤ c) :
    ∃ K, 0 ≤ K ∧ ∀ δ, 0 ≤ δ → δ ≤ 1 → ∀ b : Neuron ℝ, b.WF size (size + 1) 1 → CloseN δ a b → ∀ x', Near (c * δ) x x' →
      |a.value x - b.value x'| ≤ K * δ := by
  refine ⟨actGain a.activationFunction * ((∑ i ∈ range size, (|a.weights.getD i 0| * c + (|x.getD i 0| + c))) + |a.bias|), ?_, ?_⟩
  · exact mul_nonneg (actGain_pos _) (add_nonneg (sum_nonneg fun i _ => by positivity) (abs_nonneg _))
  · intro δ h0 h1 b hb hab x' hn
    have hx' : x'.length = size := by rw [← hn.length_eq, hx]
    rw [Neuron.value_eq ha x hx, Neuron.value_eq hb x' hx', affine_at hx, affine_at hx', hab.act, hab.bias]
    refine le_trans (act_lip _ _ _) ?_
    rw [mul_assoc]
    refine mul_le_mul_of_nonneg_left ?_ (actGain_pos _)
    have e : ∀ p q r s : ℝ, p + q - (r + s) = (p - r) + (q - s) := by intros; ring
    rw [e, ← sum_sub_distrib, add_mul]
    refine le_trans (abs_add_le _ _) (add_le_add ?_ ?_)
    · rw [sum_mul]
      refine le_trans (abs_sum_le_sum_abs _ _) (sum_le_sum fun i _ => ?_)
      have h2 := near_get (by positivity) hn i
      have h3 := hab.near i
      have h4 : |x'.getD i 0| ≤ |x.getD i 0| + c := by
        have : |x'.getD i 0| ≤ |x.getD i 0| + |x.getD i 0 - x'.getD i 0| := by
          have := abs_sub_abs_le_abs_sub (x'.getD i 0) (x.getD i 0)
          rw [abs_sub_comm] at this
          linarith
        nlinarith
      have e2 : a.weights.getD i 0 * x.getD i 0 - b.weights.getD i 0 * x'.getD i 0
          = a.weights.getD i 0 * (x.getD i 0 - x'.getD i 0) + (a.weights.getD i 0 - b.weights.getD i 0) * x'.getD i 0 := by ring
      rw [e2]
      refine le_trans (abs_add_le _ _) ?_
      rw [abs_mul, abs_mul]
      have h5 : |a.weights.getD i 0| * |x.getD i 0 - x'.getD i 0| ≤ |a.weights.getD i 0| * (c * δ) := mul_le_mul_of_nonneg_left h2 (abs_nonneg _)
      have h6 : |a.weights.getD i 0 - b.weights.getD i 0| * |x'.getD i 0| ≤ δ * (|x.getD i 0| + c) := mul_le_mul h3 h4 (abs_nonneg _) h0
      nlinarith
    · rw [← sub_mul, abs_mul, mul_comm]
      exact mul_le_mul_of_nonneg_left (hab.near size) (abs_nonneg _)

theorem neurons_close {size : Nat} {x : List ℝ} (hx : x.length = size) {c : ℝ} (hc : 0 ≤ c) : ∀ {ns : List (Neuron ℝ)},
    (∀ n ∈ ns, n.WF size (size + 1) 1) → ∃ K, 0 ≤ K ∧ ∀ δ, 0 ≤ δ → δ ≤ 1 → ∀ ns' : List (Neuron ℝ), (∀ n ∈ ns', n.WF size (size + 1) 1) →
      List.Forall₂ (CloseN δ) ns ns' → ∀ x', Near (c * δ) x x' → Near (K * δ) (ns.map fun n => n.value x) (ns'.map fun n => n.value x')
  | [], _ => by
    refine ⟨0, le_rfl, ?_⟩
    intro δ h0 h1 ns' hw h x' hn
    cases h
    exact .nil
  | n :: ns, h => by
    obtain ⟨K1, k1, hh1⟩ := neuron_close (h n (by simp)) hx hc
    obtain ⟨K2, k2, hh2⟩ := neurons_close hx hc (ns := ns) fun m hm => h m (by simp [hm])
    refine ⟨K1 + K2, by positivity, ?_⟩
    intro δ h0 h1 ns' hw hf x' hn
    cases hf with
    | @cons _ b _ bs hb hbs =>
      have p1 := hh1 δ h0 h1 b (hw b (by simp)) hb x' hn
      have p2 := hh2 δ h0 h1 bs (fun m hm => hw m (by simp [hm])) hbs x' hn
      refine .cons (le_trans p1 ?_) (near_mono ?_ p2)
      · nlinarith
      · nlinarith

theorem fn_near {l : Layer ℝ} {ni no : Nat} (hw : l.WF ni no) (hl : DenseL l) {x : List ℝ} (hx : x.length = ni) {c : ℝ} (hc : 0 ≤ c) :
    ∃ K, 0 ≤ K ∧ ∀ δ, 0 ≤ δ → δ ≤ 1 → ∀ l' : Layer ℝ, l'.WF ni no → CloseL δ l l' → ∀ x', Near (c * δ) x x' →
      Near (K * δ) (fn l x) (fn l' x') := by
  obtain ⟨ho, ns, hb⟩ := hl
  have hwb := hw.body
  rw [hb] at hwb
  obtain ⟨K, k0, hh⟩ := neurons_close hx hc hwb.1
  refine ⟨K, k0, ?_⟩
  intro δ h0 h1 l' hw' hcl x' hn
  obtain ⟨ho', ns1, ns', e1, e2, hf⟩ := hcl
  rw [hb] at e1
  cases e1
  have hwb' := hw'.body
  rw [e2] at hwb'
  rw [fn_fc ho hb hwb.1 hx, fn_fc ho' e2 hwb'.1 (by rw [← hn.length_eq, hx])]
  exact hh δ h0 h1 ns' hwb'.1 hf x' hn

theorem fn_length {l : Layer ℝ} {ni no : Nat} (hw : l.WF ni no) (hl : DenseL l) {x : List ℝ} (hx : x.length = ni) : (fn l x).length = no := by
  obtain ⟨ho, ns, hb⟩ := hl
  have hwb := hw.body
  rw [hb] at hwb
  rw [fn_fc ho hb hwb.1 hx, List.length_map]
  exact hwb.2

theorem fnAll_near : ∀ {ls : List (Layer ℝ)} {ni no : Nat}, LayersWF ls ni no → (∀ l ∈ ls, DenseL l) → ∀ {x : List ℝ}, x.length = ni →
    ∀ {c : ℝ}, 0 ≤ c → ∃ K, 0 ≤ K ∧ ∀ δ, 0 ≤ δ → δ ≤ 1 → ∀ ls' : List (Layer ℝ), List.Forall₂ (CloseL δ) ls ls' → LayersWF ls' ni no →
      ∀ x', Near (c * δ) x x' → Near (K * δ) (fnAll ls x) (fnAll ls' x')
  | [], _, _, _, _, x, _, c, hc => by
    refine ⟨c, hc, ?_⟩
    intro δ h0 h1 ls' hf hw x' hn
    cases hf
    exact hn
  | l :: ls, ni, no, hw, hd, x, hx, c, hc => by
    cases hw with
    | @cons _ _ _ k _ hw hws =>
      obtain ⟨K1, k1, hh1⟩ := fn_near hw (hd l (by simp)) hx hc
      obtain ⟨K2, k2, hh2⟩ := fnAll_near hws (fun m hm => hd m (by simp [hm])) (fn_length hw (hd l (by simp)) hx) k1
      refine ⟨K2, k2, ?_⟩
      intro δ h0 h1 ls' hf hw' x' hn
      cases hf with
      | @cons _ b _ bs hb hbs =>
        cases hw' with
        | @cons _ _ _ k' _ hwb hwbs =>
          have hk : k' = k := by
            obtain ⟨_, ns, ns', e1, e2, hf⟩ := hb
            have a1 := hw.body
            have a2 := hwb.body
            rw [e1] at a1
            rw [e2] at a2
            rw [← a1.2, ← a2.2, hf.length_eq]
          subst hk
          exact hh2 δ h0 h1 bs hbs hwbs _ (hh1 δ h0 h1 b hwb hb x' hn)

theorem near_self {ε : ℝ} (h : 0 ≤ ε) (x : List ℝ) : Near ε x x := by
  induction x with
  | nil => exact .nil
  | cons a x ih => exact .cons (by simpa using h) ih

theorem near_zero {x y : List ℝ} (h : Near 0 x y) : x = y := by
  induction h with
  | nil => rfl
  | cons h _ ih => rw [ih, sub_eq_zero.1 (abs_nonpos_iff.1 h)]

theorem fnAll_eq {ls ls' : List (Layer ℝ)} {ni no : Nat} (hw : LayersWF ls ni no) (hd : ∀ l ∈ ls, DenseL l) {x : List ℝ} (hx : x.length = ni)
    (hc : List.Forall₂ (CloseL 0) ls ls') (hw' : LayersWF ls' ni no) : fnAll ls x = fnAll ls' x := by
  obtain ⟨K, _, h⟩ := fnAll_near hw hd hx (le_refl (0 : ℝ))
  have := h 0 le_rfl zero_le_one ls' hc hw' x (near_self (by norm_num) x)
  rw [mul_zero] at this
  exact near_zero this

/-- The squared errors of outputs that are near. -/
theorem squaredError_near {d o : List ℝ} {K : ℝ} (hK : 0 ≤ K) : ∃ C, 0 ≤ C ∧ ∀ δ, 0 ≤ δ → δ ≤ 1 → ∀ o', Near (K * δ) o o' →
    |squaredError d o' - squaredError d o| ≤ C * δ := by
  refine ⟨∑ j ∈ range d.length, K * (2 * |d.getD j 0 - o.getD j 0| + K), sum_nonneg fun j _ => by positivity, ?_⟩
  intro δ h0 h1 o' hn
  unfold squaredError
  rw [← sum_sub_distrib, sum_mul]
  refine le_trans (abs_sum_le_sum_abs _ _) (sum_le_sum fun j _ => ?_)
  have h := near_get (by positivity) hn j
  set a := d.getD j 0
  set b := o.getD j 0
  set b' := o'.getD j 0
  have e : (a - b') ^ 2 - (a - b) ^ 2 = (b - b') * (2 * (a - b) + (b - b')) := by ring
  rw [e, abs_mul]
  have h2 : |2 * (a - b) + (b - b')| ≤ 2 * |a - b| + K := by
    refine le_trans (abs_add_le _ _) ?_
    rw [abs_mul, abs_two]
    have : K * δ ≤ K := by nlinarith
    linarith
  calc |b - b'| * |2 * (a - b) + (b - b')| ≤ (K * δ) * (2 * |a - b| + K) := mul_le_mul h h2 (abs_nonneg _) (by positivity)
    _ = _ := by ring

end Snn.Small
