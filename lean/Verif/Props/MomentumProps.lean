import Verif.Proofs.MomentumProofs
import Verif.Props.ConvergeProps

/-! # C87 with momentum -/

set_option linter.all false

namespace Snn.Converge

open Finset Snn.Spec Snn.Grad Snn.NeuronSpec Snn.HistoryProps Snn.SafeProps Snn.ConvergeProps Filter Topology

/-- **C87 with momentum**: one layer of any number of linear neurons on any number of inputs, after every history of calls, with any momentum `m` from 0 to 1: if
the input is not 0 and the learning rate is less than `(1 + m) / (|x|² + 2)`, training again and again on the example brings all the outputs as near as wanted to
the expected ones, and they stay there. Left out: hidden layers, other activation functions. Real arithmetic instead of floating-point. -/
theorem C87_momentum_partial {s : List Nat} {m : Nat} (h : WellFormed (linearArch (s.map fun v : Nat => (v : Int)) m) s [m]) {opt : Sgd ℝ}
    (hmom : 0 ≤ opt.momentum) (hmom1 : opt.momentum ≤ 1)
    (hlr : 0 < opt.learningRate) {d d' : Draws ℝ} {snn : Snn ℝ} (hm : Snn.make (linearArch (s.map fun v : Nat => (v : Int)) m) opt d = .ok (snn, d'))
    {calls : List (Call ℝ)} (hc : ∀ c ∈ calls, CallFits s.prod m c) {r r' : Run ℝ} (hr : r.snn = snn) (hrun : calls.foldlM Call.run r = .ok r')
    (hnan : r'.snn.net.outputNan = false) {x des : List ℝ} (hx : x.length = s.prod) (hd : des.length = m) (hx0 : ∃ v ∈ x, v ≠ 0)
    (hstep : opt.learningRate * (energy x + 2) < 1 + opt.momentum) (t : Bool) (dr : Draws ℝ) {ε : ℝ} (hε : 0 < ε) :
    ∃ N0, ∀ N ≥ N0, AfterTraining r'.snn.net dr x des t N fun y => ∀ k < m, |des.getD k 0 - y.getD k 0| < ε := by
  obtain ⟨ns, hl⟩ := history_lin h hm hc hr hrun hnan
  have hE := energy_pos hx0
  have key : ∀ k, Tendsto (fun N => ((next (2 * opt.learningRate * energy x) (2 * opt.learningRate) opt.momentum)^[N] (state ns x des s.prod k)).1) atTop (𝓝 0) := by
    intro k
    rw [← tendsto_add_atTop_iff_nat 1]
    refine order2_zero (p := 1 + opt.momentum - 2 * opt.learningRate * energy x - 2 * opt.learningRate) (q := opt.momentum - 2 * opt.learningRate) ?_ ?_
      (fun N => next_order2 _ _ _ _ N)
    · have : 0 < opt.learningRate * energy x := mul_pos hlr hE
      rw [abs_lt]
      constructor <;> nlinarith
    · have : 0 < opt.learningRate * energy x := mul_pos hlr hE
      rw [abs_lt]
      constructor <;> nlinarith
  have hev : ∀ᶠ N in atTop, ∀ k ∈ range m, |((next (2 * opt.learningRate * energy x) (2 * opt.learningRate) opt.momentum)^[N] (state ns x des s.prod k)).1| < ε := by
    rw [eventually_all_finset]
    intro k _
    have := (key k).abs
    rw [abs_zero] at this
    exact this.eventually (gt_mem_nhds hε)
  obtain ⟨N0, hN⟩ := eventually_atTop.1 hev
  refine ⟨N0, fun N hN' => after_momentum hx hd t dr N hl ?_⟩
  intro y hy k hk
  rw [hy k hk]
  exact hN N hN' k (mem_range.2 hk)

/-- One coordinate of the errors grows by a factor of at least 1 at every step. -/
theorem next_grows {a c m l u : ℝ} (h1 : l + u = 1 + m - a - c) (h2 : l * u = m - c) (s : ℝ × ℝ × ℝ × ℝ) (N : Nat) :
    ((next a c m)^[N + 2] s).1 - u * ((next a c m)^[N + 1] s).1 = l ^ N * (((next a c m)^[2] s).1 - u * ((next a c m)^[1] s).1) := by
  induction N with
  | zero => simp
  | succ N ih =>
    have h := next_order2 a c m s N
    rw [show N + 1 + 2 = N + 3 by omega, show N + 1 + 1 = N + 2 by omega, h, pow_succ]
    have : (1 + m - a - c) * ((next a c m)^[N + 2] s).1 - (m - c) * ((next a c m)^[N + 1] s).1 - u * ((next a c m)^[N + 2] s).1
        = l * (((next a c m)^[N + 2] s).1 - u * ((next a c m)^[N + 1] s).1) := by rw [← h1, ← h2]; ring
    rw [this, ih]
    ring

/-- **The bound is sharp**: from the learning rate `(1 + m) / (|x|² + 2)` on, there are expected outputs that are never learned: of two answers in a row, one has
an error of at least a constant. -/
theorem C87_momentum_refuted {s : List Nat} {m : Nat} (h : WellFormed (linearArch (s.map fun v : Nat => (v : Int)) m) s [m]) {opt : Sgd ℝ}
    (hmom : 0 ≤ opt.momentum) {d d' : Draws ℝ} {snn : Snn ℝ} (hm : Snn.make (linearArch (s.map fun v : Nat => (v : Int)) m) opt d = .ok (snn, d'))
    {calls : List (Call ℝ)} (hc : ∀ c ∈ calls, CallFits s.prod m c) {r r' : Run ℝ} (hr : r.snn = snn) (hrun : calls.foldlM Call.run r = .ok r')
    (hnan : r'.snn.net.outputNan = false) {x : List ℝ} (hx : x.length = s.prod) (hstep : 1 + opt.momentum ≤ opt.learningRate * (energy x + 2)) (t : Bool)
    (dr : Draws ℝ) : ∃ des : List ℝ, des.length = m ∧ ∃ δ > 0, ∀ N, ∃ N' ∈ [N + 1, N + 2],
      AfterTraining r'.snn.net dr x des t N' fun y => δ ≤ |des.getD 0 0 - y.getD 0 0| := by
  obtain ⟨ns, hl⟩ := history_lin h hm hc hr hrun hnan
  obtain ⟨h1, h2, _⟩ := hl.neurons
  have hm0 : 0 < m := by
    obtain ⟨q, rest, e, hc⟩ := h.layers
    cases e
    cases hc with
    | cons hs hf hc => cases hc with | nil hg => exact hg.pos m (by simp)
  have hk' : 0 < ns.length := by omega
  obtain ⟨a, ha⟩ : ∃ a, a = 2 * opt.learningRate * energy x := ⟨_, rfl⟩
  obtain ⟨c, hcc⟩ : ∃ c, c = 2 * opt.learningRate := ⟨_, rfl⟩
  obtain ⟨p, hp⟩ : ∃ p, p = 1 + opt.momentum - a - c := ⟨_, rfl⟩
  obtain ⟨q, hq⟩ : ∃ q, q = opt.momentum - c := ⟨_, rfl⟩
  have hpq : 1 + p + q ≤ 0 := by rw [hp, hq, ha, hcc]; nlinarith
  have hdisc : (p + 2) ^ 2 ≤ p ^ 2 - 4 * q := by nlinarith
  have hdisc0 : 0 ≤ p ^ 2 - 4 * q := (sq_nonneg _).trans hdisc
  obtain ⟨w, hw⟩ : ∃ w, w = Real.sqrt (p ^ 2 - 4 * q) := ⟨_, rfl⟩
  have hw2 : w * w = p ^ 2 - 4 * q := by rw [hw]; exact Real.mul_self_sqrt hdisc0
  have hwp : p + 2 ≤ w := by rw [hw]; exact Real.le_sqrt_of_sq_le hdisc
  obtain ⟨l, hlam⟩ : ∃ l, l = (p - w) / 2 := ⟨_, rfl⟩
  obtain ⟨u, hu⟩ : ∃ u, u = (p + w) / 2 := ⟨_, rfl⟩
  have hl1 : l ≤ -1 := by rw [hlam]; linarith
  have hs1 : l + u = 1 + opt.momentum - a - c := by rw [hlam, hu, ← hp]; ring
  have hs2 : l * u = opt.momentum - c := by rw [hlam, hu, ← hq]; nlinarith
  obtain ⟨k0, hk0⟩ : ∃ k0 : ℝ, ∀ e P B b, (e, P, B, b).2 = (state ns x (ns.map fun m => m.value x) s.prod 0).2 →
      ((next a c opt.momentum)^[2] (e, P, B, b)).1 - u * ((next a c opt.momentum)^[1] (e, P, B, b)).1 = l * (l - opt.momentum) * e + k0 := by
    generalize state ns x (ns.map fun m => m.value x) s.prod 0 = z
    obtain ⟨e0, P0, B0, b0⟩ := z
    refine ⟨((next a c opt.momentum)^[2] (0, P0, B0, b0)).1 - u * ((next a c opt.momentum)^[1] (0, P0, B0, b0)).1, ?_⟩
    intro e P B b heq
    cases heq
    have hc1 : c = opt.momentum - l * u := by linarith
    have ha1 : a = 1 + opt.momentum - c - l - u := by linarith
    simp only [Function.iterate_succ_apply, Function.iterate_zero_apply, next]
    rw [ha1, hc1]
    ring
  obtain ⟨e, he⟩ : ∃ e, l * (l - opt.momentum) * e + k0 = 1 := by
    have : l * (l - opt.momentum) ≠ 0 := by
      have : 0 < l * (l - opt.momentum) := by nlinarith
      exact this.ne'
    exact ⟨(1 - k0) / (l * (l - opt.momentum)), by rw [mul_comm, div_mul_cancel₀ _ this]; ring⟩
  obtain ⟨des, hdes⟩ : ∃ des, des = (ns.map fun m => m.value x).set 0 ((ns.map fun m => m.value x).getD 0 0 + e) := ⟨_, rfl⟩
  have hdl : des.length = m := by rw [hdes]; simp [h2]
  have herr : err ns x des 0 = e := by
    unfold err
    have : des.getD 0 0 = (ns.map fun m => m.value x).getD 0 0 + e := by
      rw [hdes]
      simp [List.getD_eq_getElem?_getD, List.getElem?_set, hk']
    rw [this]; ring
  have hst : ((state ns x des s.prod 0).2) = (state ns x (ns.map fun m => m.value x) s.prod 0).2 := by
    simp only [state, List.getElem?_eq_getElem hk']
  have h0 : ((next a c opt.momentum)^[2] (state ns x des s.prod 0)).1 - u * ((next a c opt.momentum)^[1] (state ns x des s.prod 0)).1 = 1 := by
    have := hk0 (state ns x des s.prod 0).1 (state ns x des s.prod 0).2.1 (state ns x des s.prod 0).2.2.1 (state ns x des s.prod 0).2.2.2 hst
    rw [this, state_err, herr, he]
  refine ⟨des, hdl, 1 / (1 + |u|), by positivity, ?_⟩
  intro N
  have hg := next_grows hs1 hs2 (state ns x des s.prod 0) N
  rw [h0, mul_one] at hg
  have hb : 1 ≤ |((next a c opt.momentum)^[N + 2] (state ns x des s.prod 0)).1| + |u| * |((next a c opt.momentum)^[N + 1] (state ns x des s.prod 0)).1| := by
    have h3 : 1 ≤ |l ^ N| := by
      rw [abs_pow]
      exact one_le_pow₀ (by rw [abs_of_neg (by linarith)]; linarith)
    rw [← hg] at h3
    refine h3.trans ?_
    rw [← abs_mul]
    exact abs_sub _ _
  have hpos : 0 < 1 + |u| := by positivity
  have h4 : 1 / (1 + |u|) * (1 + |u|) = 1 := div_mul_cancel₀ _ hpos.ne'
  have hu0 := abs_nonneg u
  rw [ha, hcc] at hb
  by_cases hcase : 1 / (1 + |u|) ≤ |((next (2 * opt.learningRate * energy x) (2 * opt.learningRate) opt.momentum)^[N + 1] (state ns x des s.prod 0)).1|
  · refine ⟨N + 1, by simp, after_momentum hx hdl t dr (N + 1) hl fun y hy => ?_⟩
    rw [hy 0 hm0]; exact hcase
  · refine ⟨N + 2, by simp, after_momentum hx hdl t dr (N + 2) hl fun y hy => ?_⟩
    rw [hy 0 hm0]
    by_contra hc2
    rw [not_le] at hcase hc2
    nlinarith

/-! ### Non-vacuity -/

/-- The hypotheses are met: the network of 3 linear neurons is built with the learning rate 1/5 and the momentum 1/2; the example `[1, 2]`, too great for this
learning rate without momentum, is learned; the input `[2, 2]` is too great. -/
example : (∃ snn d', Snn.make (linearArch ([2].map fun v : Nat => (v : Int)) 3) { learningRate := 1 / 5, momentum := 1 / 2 } (fun _ => 1 / 2) = .ok (snn, d') ∧
    snn.net.outputNan = false) ∧ (1 / 5 : ℝ) * (energy [1, 2] + 2) < 1 + 1 / 2 ∧ 1 ≤ (1 / 5 : ℝ) * (energy [1, 2] + 2) ∧ 1 + 1 / 2 ≤ (1 / 5 : ℝ) * (energy [2, 2] + 2) := by
  refine ⟨?_, ?_, ?_, ?_⟩
  · obtain ⟨snn, d', hm⟩ := ArchProps.C49_accepted_if demo_wf (opt := { learningRate := 1 / 5, momentum := 1 / 2 }) (by norm_num) (by norm_num)
      (by norm_num) (by norm_num) (d := fun _ => 1 / 2) (fun i => by norm_num)
    exact ⟨snn, d', hm, (make_lin demo_wf hm).choose_spec.nan⟩
  · norm_num [energy, Finset.sum_range_succ]
  · norm_num [energy, Finset.sum_range_succ]
  · norm_num [energy, Finset.sum_range_succ]

end Snn.Converge
