import Verif.Proofs.ConvergeProofs
import Verif.Props.GradProps
import Mathlib.Analysis.SpecificLimits.Basic

/-!
# C87: learning one example by heart
-/

set_option linter.all false

namespace Snn.ConvergeProps

open Finset Snn.Spec Snn.Grad Snn.Converge Snn.HistoryProps Snn.SafeProps

theorem lin_plain {s : List Nat} {m : Nat} (h : WellFormed (linearArch (s.map fun v : Nat => (v : Int)) m) s [m]) :
    PlainArch (linearArch (s.map fun v : Nat => (v : Int)) m) s [m] := by
  refine ⟨h, by simp [EndsWithNeurons, linearArch], ?_⟩
  obtain ⟨q, rest, e, hc⟩ := h.layers
  cases e
  cases hc with
  | cons hs hf hc =>
    cases hc
    exact .cons (.fullyConnected (by simp)) hf .nil

theorem make_bias {m : NeuronModel ℝ} {o : Sgd ℝ} {d : Nat → ℝ} {n : Neuron ℝ} (h : Neuron.make m o d = .ok n) :
    n.activationFunction = m.activationFunction ∧ n.bias = m.bias ∧ n.optimizer = o := by
  unfold Neuron.make at h
  split at h
  · cases h
  split at h
  · cases h
  obtain ⟨_, _, h⟩ := Res.bind_eq_ok.1 h
  obtain ⟨_, _, h⟩ := Res.bind_eq_ok.1 h
  obtain ⟨c, hc, h⟩ := Res.bind_eq_ok.1 h
  cases h
  exact ⟨rfl, rfl, rfl⟩

theorem make_lin {s : List Nat} {m : Nat} (h : WellFormed (linearArch (s.map fun v : Nat => (v : Int)) m) s [m]) {opt : Sgd ℝ} {d d' : Draws ℝ} {snn : Snn ℝ}
    (hm : Snn.make (linearArch (s.map fun v : Nat => (v : Int)) m) opt d = .ok (snn, d')) : ∃ ns, Lin opt s.prod m snn.net ns := by
  have hp := lin_plain h
  obtain ⟨hn, hi⟩ := make_safe hp.wellFormed hp.ends hm
  have hwf := hn.wf
  obtain ⟨⟨net, d1⟩, h1, hm⟩ := Res.bind_eq_ok.1 hm
  obtain ⟨err, h2, hm⟩ := Res.bind_eq_ok.1 hm
  split at hm
  · cases hm
  cases hm
  obtain ⟨⟨ls, d2⟩, h3, h1⟩ := Res.bind_eq_ok.1 h1
  obtain ⟨last, h4, h1⟩ := Res.bind_eq_ok.1 h1
  cases h1
  obtain ⟨q, rest, e, hc⟩ := h.layers
  cases e
  have hg := chain_good hc
  unfold linearArch LayerFactory.build at h3
  rw [if_neg (by simp)] at h3
  simp only at h3
  rw [if_neg (by simp), computeNumberOfInputs_ok hg] at h3
  simp only [Res.ok_bind] at h3
  rw [if_neg (by have := hg.small; omega)] at h3
  unfold buildLayers at h3
  obtain ⟨⟨l1, d3⟩, k1, h3⟩ := Res.bind_eq_ok.1 h3
  obtain ⟨⟨ls1, d4⟩, k2, h3⟩ := Res.bind_eq_ok.1 h3
  cases h3
  cases k2
  rw [buildLayer_start hg] at k1
  simp only at k1
  unfold buildSimple at k1
  obtain ⟨nw, _, k1⟩ := Res.bind_eq_ok.1 k1
  simp only at k1
  obtain ⟨⟨ns, d5⟩, k3, k1⟩ := Res.bind_eq_ok.1 k1
  cases k1
  have := (makeAllNeurons_inv (fun _ _ h => make_bias h) k3).2
  refine ⟨ns, by simpa using hwf, rfl, ⟨_, rfl, rfl, rfl⟩, fun n hn => (this n hn).1, fun n hn => ?_, fun n hn => (this n hn).2.2⟩
  rw [(this n hn).2.1]
  simp [lit_eq]

theorem lin_of_kin {o : Sgd ℝ} {ni no : Nat} {n n' : Net ℝ} {ns : List (Neuron ℝ)} (h : Lin o ni no n ns) (hk : List.Forall₂ Layer.Kin n.layers n'.layers)
    (hw : n'.WF ni no) (hnan : n'.outputNan = false) : ∃ ns', Lin o ni no n' ns' := by
  obtain ⟨l, h1, h2, h3⟩ := h.layers
  rw [h1] at hk
  generalize hls : n'.layers = ls at hk
  cases hk with
  | @cons _ l' _ _ k1 k2 =>
    cases k2
    have hb := k1.body
    rw [h3] at hb
    cases hl' : l'.body <;> rw [hl'] at hb <;> simp only [Body.Kin] at hb
    rename_i ns'
    refine ⟨ns', hw, hnan, ⟨l', hls, ?_, hl'⟩, forall₂_forall hb h.act fun a b hk ha => by rw [hk.activation]; exact ha,
      forall₂_forall hb h.bias fun a b hk ha => by rw [hk.bias]; exact ha, forall₂_forall hb h.opt fun a b hk ha => by rw [hk.optimizer]; exact ha⟩
    have := k1.opts
    rw [h2] at this
    exact List.length_eq_zero_iff.1 (by simpa using this)

theorem history_lin {s : List Nat} {m : Nat} (h : WellFormed (linearArch (s.map fun v : Nat => (v : Int)) m) s [m]) {opt : Sgd ℝ} {d d' : Draws ℝ} {snn : Snn ℝ}
    (hm : Snn.make (linearArch (s.map fun v : Nat => (v : Int)) m) opt d = .ok (snn, d')) {calls : List (Call ℝ)} (hc : ∀ c ∈ calls, CallFits s.prod m c)
    {r r' : Run ℝ} (hr : r.snn = snn) (hrun : calls.foldlM Call.run r = .ok r') (hnan : r'.snn.net.outputNan = false) :
    ∃ ns, Lin opt s.prod m r'.snn.net ns := by
  obtain ⟨ns, hl⟩ := make_lin h hm
  have hreach := GradProps.history_reached (lin_plain h) hm (by simpa using hc) hr hrun hnan
  have hk := history_kin hrun
  rw [hr] at hk
  exact lin_of_kin hl hk.layers (by simpa using hreach.wf) hnan

theorem energy_pos {x : List ℝ} (h : ∃ v ∈ x, v ≠ 0) : 0 < energy x := by
  obtain ⟨v, hv, hv0⟩ := h
  obtain ⟨i, hi, rfl⟩ := List.mem_iff_getElem.1 hv
  unfold energy
  apply Finset.sum_pos'
  · intro j _; positivity
  · refine ⟨i, by simpa using hi, ?_⟩
    have : x.getD i 0 = x[i] := by simp [List.getD_eq_getElem?_getD, hi]
    rw [this]; positivity

theorem energy_nonneg (x : List ℝ) : 0 ≤ energy x := Finset.sum_nonneg fun i _ => sq_nonneg _

theorem energy_zero {x : List ℝ} (h : ∀ v ∈ x, v = 0) : energy x = 0 := by
  unfold energy
  apply Finset.sum_eq_zero
  intro i hi
  have hi' : i < x.length := by simpa using hi
  have : x.getD i 0 = x[i] := by simp [List.getD_eq_getElem?_getD, hi']
  rw [this, h _ (List.getElem_mem hi')]; norm_num

theorem rho_lt {lr E : ℝ} (h0 : 0 < lr) (hE : 0 < E) (h : lr * (E + 2) < 1) : |1 - 2 * lr * (E + 1)| + 2 * lr < 1 := by
  have hp := mul_pos h0 hE
  have : |1 - 2 * lr * (E + 1)| < 1 - 2 * lr := by
    rw [abs_lt]
    constructor <;> nlinarith
  linarith

/-- **C87**, the speed: for one layer of any number of linear neurons on any number of inputs, after every history of calls, without
momentum (with momentum: `C87_momentum_partial`), if the input is not 0 and the learning rate is less than `1 / (|x|² + 2)`, the errors of all the outputs decrease
geometrically with the number of training steps on this example. Left out: hidden layers and other activation functions.
Real arithmetic instead of floating-point. -/
theorem C87_speed_partial {s : List Nat} {m : Nat} (h : WellFormed (linearArch (s.map fun v : Nat => (v : Int)) m) s [m]) {opt : Sgd ℝ} (hmom : opt.momentum = 0)
    (hlr : 0 < opt.learningRate) {d d' : Draws ℝ} {snn : Snn ℝ} (hm : Snn.make (linearArch (s.map fun v : Nat => (v : Int)) m) opt d = .ok (snn, d'))
    {calls : List (Call ℝ)} (hc : ∀ c ∈ calls, CallFits s.prod m c) {r r' : Run ℝ} (hr : r.snn = snn) (hrun : calls.foldlM Call.run r = .ok r')
    (hnan : r'.snn.net.outputNan = false) {x des : List ℝ} (hx : x.length = s.prod) (hd : des.length = m) (hx0 : ∃ v ∈ x, v ≠ 0)
    (hstep : opt.learningRate * (energy x + 2) < 1) (t : Bool) (dr : Draws ℝ) :
    ∃ ρ M, 0 ≤ ρ ∧ ρ < 1 ∧ ∀ N, AfterTraining r'.snn.net dr x des t N fun y => ∀ k < m, |des.getD k 0 - y.getD k 0| ≤ ρ ^ (N / 2) * M := by
  obtain ⟨ns, hl⟩ := history_lin h hm hc hr hrun hnan
  refine ⟨|1 - 2 * opt.learningRate * (energy x + 1)| + 2 * opt.learningRate,
    ∑ k ∈ range m, (|err ns x des k| + |(1 - 2 * opt.learningRate * (energy x + 1)) * err ns x des k + bw ns s.prod k|), by positivity,
    rho_lt hlr (energy_pos hx0) hstep, ?_⟩
  intro N
  refine after_seq hmom hx hd t dr N hl ?_
  intro y hy k hk
  rw [hy k hk]
  have hle := Finset.single_le_sum (f := fun k => |err ns x des k| + |(1 - 2 * opt.learningRate * (energy x + 1)) * err ns x des k + bw ns s.prod k|)
    (fun i _ => by positivity) (Finset.mem_range.2 hk)
  refine seqE_bound (by positivity) (le_refl _) (rho_lt hlr (energy_pos hx0) hstep).le ?_ ?_ N
  · exact le_trans (le_add_of_nonneg_right (abs_nonneg _)) hle
  · exact le_trans (le_add_of_nonneg_left (abs_nonneg _)) hle

/-- **C87**: the network learns the example: training again and again on it, all the outputs get as near as wanted to the expected
ones, and stay there. -/
theorem C87_learned_partial {s : List Nat} {m : Nat} (h : WellFormed (linearArch (s.map fun v : Nat => (v : Int)) m) s [m]) {opt : Sgd ℝ} (hmom : opt.momentum = 0)
    (hlr : 0 < opt.learningRate) {d d' : Draws ℝ} {snn : Snn ℝ} (hm : Snn.make (linearArch (s.map fun v : Nat => (v : Int)) m) opt d = .ok (snn, d'))
    {calls : List (Call ℝ)} (hc : ∀ c ∈ calls, CallFits s.prod m c) {r r' : Run ℝ} (hr : r.snn = snn) (hrun : calls.foldlM Call.run r = .ok r')
    (hnan : r'.snn.net.outputNan = false) {x des : List ℝ} (hx : x.length = s.prod) (hd : des.length = m) (hx0 : ∃ v ∈ x, v ≠ 0)
    (hstep : opt.learningRate * (energy x + 2) < 1) (t : Bool) (dr : Draws ℝ) {ε : ℝ} (hε : 0 < ε) :
    ∃ N0, ∀ N ≥ N0, AfterTraining r'.snn.net dr x des t N fun y => ∀ k < m, |des.getD k 0 - y.getD k 0| < ε := by
  obtain ⟨ρ, M, h0, h1, hh⟩ := C87_speed_partial h hmom hlr hm hc hr hrun hnan hx hd hx0 hstep t dr
  have ht : Filter.Tendsto (fun q : Nat => ρ ^ q * M) Filter.atTop (nhds (0 * M)) := (tendsto_pow_atTop_nhds_zero_of_lt_one h0 h1).mul_const M
  rw [zero_mul] at ht
  obtain ⟨q, hq⟩ := (ht.eventually (gt_mem_nhds hε)).exists_forall_of_atTop
  refine ⟨2 * q, ?_⟩
  intro N hN
  obtain ⟨n', d2, y, n'', a, b, c, e⟩ := hh N
  exact ⟨n', d2, y, n'', a, b, c, fun k hk => lt_of_le_of_lt (e k hk) (hq (N / 2) (by omega))⟩

/-- **C87 is false of the input 0**, that only the weights of the biases can learn: whatever the learning rate, the network and its
history, if the expected output is not 0, of two answers in a row one has an error of at least `|d| / (1 + 2 η)`; because the weight of
the bias is replaced by its increment instead of being added to it. -/
theorem C87_zero_refuted {s : List Nat} {m : Nat} (h : WellFormed (linearArch (s.map fun v : Nat => (v : Int)) m) s [m]) {opt : Sgd ℝ} (hmom : opt.momentum = 0)
    (hlr : 0 < opt.learningRate) {d d' : Draws ℝ} {snn : Snn ℝ} (hm : Snn.make (linearArch (s.map fun v : Nat => (v : Int)) m) opt d = .ok (snn, d'))
    {calls : List (Call ℝ)} (hc : ∀ c ∈ calls, CallFits s.prod m c) {r r' : Run ℝ} (hr : r.snn = snn) (hrun : calls.foldlM Call.run r = .ok r')
    (hnan : r'.snn.net.outputNan = false) {x des : List ℝ} (hx : x.length = s.prod) (hd : des.length = m) (hx0 : ∀ v ∈ x, v = 0) (t : Bool) (dr : Draws ℝ)
    {k : Nat} (hk : k < m) : ∀ N, ∃ N' ∈ [N, N + 1],
      AfterTraining r'.snn.net dr x des t N' fun y => |des.getD k 0| / (1 + 2 * opt.learningRate) ≤ |des.getD k 0 - y.getD k 0| := by
  obtain ⟨ns, hl⟩ := history_lin h hm hc hr hrun hnan
  have hE := energy_zero hx0
  have hdk : err ns x des k = des.getD k 0 - bw ns s.prod k := by
    obtain ⟨h1, h2, _⟩ := hl.neurons
    have hk' : k < ns.length := by omega
    have hmm := List.getElem_mem hk'
    obtain ⟨v1, _⟩ := value_lin (h1 _ hmm) (hl.act _ hmm) (hl.bias _ hmm) hx
    have hv : (ns.map fun m => m.value x).getD k 0 = ns[k].value x := by simp [List.getD_eq_getElem?_getD, List.getElem?_eq_getElem hk']
    rw [err, hv, v1, Finset.sum_eq_zero]
    · simp [bw, List.getElem?_eq_getElem hk']
    · intro i hi
      have hi' : i < x.length := by rw [hx]; simpa using hi
      have : x.getD i 0 = x[i] := by simp [List.getD_eq_getElem?_getD, hi']
      rw [this, hx0 _ (List.getElem_mem hi'), mul_zero]
  have hinv : ∀ N, (seqE (1 - 2 * opt.learningRate * (energy x + 1)) (2 * opt.learningRate) (err ns x des k) (bw ns s.prod k) N).1
      = des.getD k 0 - (seqE (1 - 2 * opt.learningRate * (energy x + 1)) (2 * opt.learningRate) (err ns x des k) (bw ns s.prod k) N).2 := by
    intro N
    induction N with
    | zero => exact hdk
    | succ N ih => simp only [seqE, hE] at ih ⊢; linarith
  intro N
  have hsum : (seqE (1 - 2 * opt.learningRate * (energy x + 1)) (2 * opt.learningRate) (err ns x des k) (bw ns s.prod k) (N + 1)).1
      + 2 * opt.learningRate * (seqE (1 - 2 * opt.learningRate * (energy x + 1)) (2 * opt.learningRate) (err ns x des k) (bw ns s.prod k) N).1
      = des.getD k 0 := by
    rw [hinv (N + 1)]
    simp only [seqE]
    ring
  by_cases hcase : |des.getD k 0| / (1 + 2 * opt.learningRate)
      ≤ |(seqE (1 - 2 * opt.learningRate * (energy x + 1)) (2 * opt.learningRate) (err ns x des k) (bw ns s.prod k) N).1|
  · refine ⟨N, by simp, after_seq hmom hx hd t dr N hl fun y hy => ?_⟩
    rw [hy k hk]; exact hcase
  · refine ⟨N + 1, by simp, after_seq hmom hx hd t dr (N + 1) hl fun y hy => ?_⟩
    rw [hy k hk]
    by_contra hc2
    rw [not_le] at hcase hc2
    have hp : 0 < 1 + 2 * opt.learningRate := by positivity
    have h3 : |des.getD k 0| ≤ |(seqE (1 - 2 * opt.learningRate * (energy x + 1)) (2 * opt.learningRate) (err ns x des k) (bw ns s.prod k) (N + 1)).1|
        + 2 * opt.learningRate * |(seqE (1 - 2 * opt.learningRate * (energy x + 1)) (2 * opt.learningRate) (err ns x des k) (bw ns s.prod k) N).1| := by
      rw [← hsum]
      refine (abs_add_le _ _).trans ?_
      rw [abs_mul, abs_of_pos (show 0 < 2 * opt.learningRate by positivity)]
    have h4 : |des.getD k 0| / (1 + 2 * opt.learningRate) * (1 + 2 * opt.learningRate) = |des.getD k 0| := div_mul_cancel₀ _ hp.ne'
    nlinarith

/-- **C87 is false of great inputs**: if the learning rate is at least `1 / (|x|² + 2)` there are expected outputs that are never
learned: the error of the first output is at least 1 after any number of training steps. -/
theorem C87_great_refuted {s : List Nat} {m : Nat} (h : WellFormed (linearArch (s.map fun v : Nat => (v : Int)) m) s [m]) {opt : Sgd ℝ} (hmom : opt.momentum = 0)
    (hlr : 0 < opt.learningRate) (hlr2 : opt.learningRate < 1 / 2) {d d' : Draws ℝ} {snn : Snn ℝ}
    (hm : Snn.make (linearArch (s.map fun v : Nat => (v : Int)) m) opt d = .ok (snn, d'))
    {calls : List (Call ℝ)} (hc : ∀ c ∈ calls, CallFits s.prod m c) {r r' : Run ℝ} (hr : r.snn = snn) (hrun : calls.foldlM Call.run r = .ok r')
    (hnan : r'.snn.net.outputNan = false) {x : List ℝ} (hx : x.length = s.prod) (hstep : 1 ≤ opt.learningRate * (energy x + 2)) (t : Bool) (dr : Draws ℝ) :
    ∃ des : List ℝ, des.length = m ∧ ∀ N, AfterTraining r'.snn.net dr x des t N fun y => 1 ≤ |des.getD 0 0 - y.getD 0 0| := by
  obtain ⟨ns, hl⟩ := history_lin h hm hc hr hrun hnan
  obtain ⟨h1, h2, _⟩ := hl.neurons
  have hm0 : 0 < m := by
    obtain ⟨q, rest, e, hc⟩ := h.layers
    cases e
    cases hc with
    | cons hs hf hc => cases hc with | nil hg => exact hg.pos m (by simp)
  have hk' : 0 < ns.length := by omega
  obtain ⟨a, ha⟩ : ∃ a, a = 1 - 2 * opt.learningRate * (energy x + 1) := ⟨_, rfl⟩
  have han : a < 0 := by rw [ha]; nlinarith
  obtain ⟨e, he⟩ : ∃ e, e = 1 + (1 + |bw ns s.prod 0|) / (-a) := ⟨_, rfl⟩
  have he1 : 1 ≤ e := by rw [he]; have : 0 ≤ (1 + |bw ns s.prod 0|) / (-a) := by apply div_nonneg; positivity; linarith
                         linarith
  have he2 : a * e + bw ns s.prod 0 ≤ -1 := by
    have h5 : (1 + |bw ns s.prod 0|) / (-a) * (-a) = 1 + |bw ns s.prod 0| := div_mul_cancel₀ _ (by linarith)
    have h6 := le_abs_self (bw ns s.prod 0)
    rw [he]
    nlinarith
  refine ⟨(ns.map fun m => m.value x).set 0 ((ns.map fun m => m.value x).getD 0 0 + e), by simp [h2], ?_⟩
  intro N
  have herr : err ns x ((ns.map fun m => m.value x).set 0 ((ns.map fun m => m.value x).getD 0 0 + e)) 0 = e := by
    unfold err
    have : (((ns.map fun m => m.value x).set 0 ((ns.map fun m => m.value x).getD 0 0 + e))).getD 0 0 = (ns.map fun m => m.value x).getD 0 0 + e := by
      simp [List.getD_eq_getElem?_getD, List.getElem?_set, hk']
    rw [this]; ring
  refine after_seq hmom hx (by simp [h2]) t dr N hl fun y hy => ?_
  rw [hy 0 hm0, herr, ← ha]
  have := seqE_grows (a := a) (b := 2 * opt.learningRate) (e := e) (w := bw ns s.prod 0) (by positivity) (by rw [ha]; nlinarith) han.le he1 he2 N
  refine this.trans ((le_abs_self _).trans ?_)
  rw [abs_mul, abs_pow, abs_neg, abs_one, one_pow, one_mul]

/-! ### Non-vacuity -/

theorem demo_wf : WellFormed (linearArch ([2].map fun v : Nat => (v : Int)) 3) [2] [3] := by
  have g2 : GoodShape [2] := ⟨by simp, by simp, by simp⟩
  have g3 : GoodShape [3] := ⟨by simp, by simp, by simp⟩
  exact ⟨⟨_, _, rfl, .cons g2 (Fits.fullyConnected (n := 3) (by omega)) (.nil g3)⟩, by simp [linearArch]⟩

/-- The hypotheses are met: the network of 3 linear neurons is built; with the learning rate 1/10 the example `[1, 2]` is learned, and
the input `[10, 0]` is too great. -/
example : (∃ snn d', Snn.make (linearArch ([2].map fun v : Nat => (v : Int)) 3) { learningRate := 1 / 10, momentum := 0 } (fun _ => 1 / 2) = .ok (snn, d') ∧
    snn.net.outputNan = false) ∧ (1 / 10 : ℝ) * (energy [1, 2] + 2) < 1 ∧ 1 ≤ (1 / 10 : ℝ) * (energy [10, 0] + 2) := by
  refine ⟨?_, ?_, ?_⟩
  · obtain ⟨snn, d', hm⟩ := ArchProps.C49_accepted_if demo_wf (opt := { learningRate := 1 / 10, momentum := 0 }) (by norm_num) (by norm_num)
      (by norm_num) (by norm_num) (d := fun _ => 1 / 2) (fun i => by norm_num)
    exact ⟨snn, d', hm, (make_lin demo_wf hm).choose_spec.nan⟩
  · norm_num [energy, Finset.sum_range_succ]
  · norm_num [energy, Finset.sum_range_succ]

end Snn.ConvergeProps
