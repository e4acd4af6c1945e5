import Verif.Proofs.LearnProofs
import Verif.Props.ArchProps

/-!
# C98, C99: what a layer of linear neurons learns from many examples
-/

set_option linter.all false

namespace Snn.OnlineProps

open Finset Snn.Spec Snn.Grad Snn.NeuronSpec Snn.TrainSpec Snn.Converge Snn.ConvergeProps
open Snn.HistoryProps Snn.SafeProps

variable {s : List Nat} {m : Nat} {opt : Sgd ℝ} {d d' : Draws ℝ} {snn : Snn ℝ} {calls : List (Call ℝ)} {r r' : Run ℝ}

/-- **C98**, the regret: for one layer of any number of linear neurons on any number of inputs, after every history of calls, without
momentum, whatever sequence of examples comes (even chosen by an adversary), if `4 η (|x|² + 4 η) ≤ 1`, the sum of the squared errors
of the answers that the network gives just before it learns each example is at most 4 times the one of any linear rule chosen
afterwards, plus a constant: the distance of the first weights to the rule, divided by the learning rate. Left out: rules with a constant
term; hidden layers and other activation functions; momentum. Real arithmetic instead of floating-point. -/
theorem C98_regret_partial (h : WellFormed (linearArch (s.map fun v : Nat => (v : Int)) m) s [m]) (hmom : opt.momentum = 0) (hlr : 0 < opt.learningRate)
    (hm : Snn.make (linearArch (s.map fun v : Nat => (v : Int)) m) opt d = .ok (snn, d')) (hc : ∀ c ∈ calls, CallFits s.prod m c)
    (hr : r.snn = snn) (hrun : calls.foldlM Call.run r = .ok r') (hnan : r'.snn.net.outputNan = false)
    (ps : List Example) (hs : ∀ p ∈ ps, p.1.length = s.prod ∧ p.2.length = m)
    (hstep : ∀ p ∈ ps, 4 * opt.learningRate * (energy p.1 + 4 * opt.learningRate) ≤ 1) (dr : Draws ℝ) :
    ∃ ys, onlineAnswers ps r'.snn.net dr = .ok ys ∧ ys.length = ps.length ∧ ∀ W : List (List ℝ), W.length = m →
      (squaredErrors ps ys).sum ≤ ruleDistance opt.learningRate s.prod W (Net.rows r'.snn.net) / opt.learningRate + 4 * hindsightError (rule W) ps := by
  obtain ⟨ns, hl⟩ := history_lin h hm hc hr hrun hnan
  obtain ⟨tot, h1, -⟩ := online_le hmom hlr ps dr hl hs hstep (W := List.replicate m []) (by simp)
  obtain ⟨ys, k1, k2, k3⟩ := online_answers ps h1
  refine ⟨ys, k1, k2, fun W hW => ?_⟩
  obtain ⟨tot', h1', h2⟩ := online_le hmom hlr ps dr hl hs hstep hW
  rw [h1] at h1'
  rw [k3, Res.ok.inj h1']
  exact h2

/-- **C98**, the number of mistakes: if a linear rule gives all the expected outputs, however long the sequence of examples is, at most
`D / (η δ)` of the answers have a squared error of δ or more, where D is the distance of the first weights to the rule. -/
theorem C98_mistakes_partial (h : WellFormed (linearArch (s.map fun v : Nat => (v : Int)) m) s [m]) (hmom : opt.momentum = 0) (hlr : 0 < opt.learningRate)
    (hm : Snn.make (linearArch (s.map fun v : Nat => (v : Int)) m) opt d = .ok (snn, d')) (hc : ∀ c ∈ calls, CallFits s.prod m c)
    (hr : r.snn = snn) (hrun : calls.foldlM Call.run r = .ok r') (hnan : r'.snn.net.outputNan = false)
    (ps : List Example) (hs : ∀ p ∈ ps, p.1.length = s.prod)
    (hstep : ∀ p ∈ ps, 4 * opt.learningRate * (energy p.1 + 4 * opt.learningRate) ≤ 1) (dr : Draws ℝ)
    {W : List (List ℝ)} (hW : W.length = m) (hex : Explains (rule W) ps) {δ : ℝ} (hδ : 0 < δ) :
    ∃ ys, onlineAnswers ps r'.snn.net dr = .ok ys ∧ ys.length = ps.length ∧
      (((squaredErrors ps ys).countP fun v => decide (δ ≤ v) : Nat) : ℝ) ≤ ruleDistance opt.learningRate s.prod W (Net.rows r'.snn.net) / (opt.learningRate * δ) := by
  have hlen : ∀ p ∈ ps, p.1.length = s.prod ∧ p.2.length = m := fun p hp => ⟨hs p hp, by rw [← hex p hp]; simp [rule, hW]⟩
  obtain ⟨ys, h1, h2, h3⟩ := C98_regret_partial h hmom hlr hm hc hr hrun hnan ps hlen hstep dr
  refine ⟨ys, h1, h2, ?_⟩
  have h4 := h3 W hW
  have h5 : hindsightError (rule W) ps = 0 := by
    unfold hindsightError
    apply List.sum_eq_zero
    intro v hv
    obtain ⟨p, hp, rfl⟩ := List.mem_map.1 hv
    rw [hex p hp]
    simp [squaredError]
  rw [h5, mul_zero, add_zero] at h4
  have h6 := count_le (squaredErrors_nonneg ps ys) hδ
  rw [div_mul_eq_div_div, le_div_iff₀ hδ]
  exact h6.trans h4

/-- **C98 is false of rules with a constant term**: for every network of linear neurons, whatever the learning rate and the history,
the sum of the squared errors on the one example "input 0, expected outputs 1", presented again and again, exceeds every number,
although the rule "1" has no error on it; because the weight of the bias is replaced by its increment. -/
theorem C98_constant_refuted (h : WellFormed (linearArch (s.map fun v : Nat => (v : Int)) m) s [m]) (hmom : opt.momentum = 0)
    (hm : Snn.make (linearArch (s.map fun v : Nat => (v : Int)) m) opt d = .ok (snn, d')) (hc : ∀ c ∈ calls, CallFits s.prod m c)
    (hr : r.snn = snn) (hrun : calls.foldlM Call.run r = .ok r') (hnan : r'.snn.net.outputNan = false) (dr : Draws ℝ) (C : ℝ) :
    ∃ (ps : List Example) (ys : List (List ℝ)), (∀ p ∈ ps, p = (List.replicate s.prod 0, List.replicate m 1)) ∧
      hindsightError (affineRule (List.replicate m ([], 1))) ps = 0 ∧ onlineAnswers ps r'.snn.net dr = .ok ys ∧ C < (squaredErrors ps ys).sum := by
  obtain ⟨ns, hl⟩ := history_lin h hm hc hr hrun hnan
  have hm0 : 0 < m := by
    obtain ⟨q, rest, e, hc⟩ := h.layers
    cases e
    cases hc with
    | cons hs hf hc => cases hc with | nil hg => exact hg.pos m (by simp)
  obtain ⟨K, hK⟩ := exists_nat_gt (C * (1 + (2 * opt.learningRate) ^ 2))
  have hlen : ∀ p ∈ List.replicate (2 * K) ((List.replicate s.prod 0, List.replicate m 1) : Example), p.1.length = s.prod ∧ p.2.length = m := by
    intro p hp
    rw [List.eq_of_mem_replicate hp]; simp
  have h1 := online_run hmom _ dr hl hlen
  obtain ⟨ys, k1, k2, k3⟩ := online_answers _ h1
  refine ⟨_, ys, fun p hp => List.eq_of_mem_replicate hp, ?_, k1, ?_⟩
  · unfold hindsightError
    apply List.sum_eq_zero
    intro v hv
    obtain ⟨p, hp, rfl⟩ := List.mem_map.1 hv
    rw [List.eq_of_mem_replicate hp]
    simp [squaredError, affineRule]
  · rw [k3]
    refine lt_of_lt_of_le ?_ (Finset.single_le_sum (f := fun k => Online.total (2 * opt.learningRate) s.prod (stOf ns s.prod k)
      ((List.replicate (2 * K) ((List.replicate s.prod 0, List.replicate m 1) : Example)).map (seen k))) (fun k _ => total_nonneg _ _ _ _) (Finset.mem_range.2 hm0))
    rw [List.map_replicate]
    refine lt_of_lt_of_le ?_ (zero_total (p := seen 0 (List.replicate s.prod 0, List.replicate m 1)) ?_ K _)
    · have : (seen 0 (List.replicate s.prod 0, List.replicate m 1)).2 = 1 := by
        simp [seen, List.getD_eq_getElem?_getD, hm0]
      rw [this, one_pow, mul_one_div, lt_div_iff₀ (by positivity)]
      exact hK
    · intro i
      simp [seen, vec, List.getD_eq_getElem?_getD, List.getElem?_replicate]
      split <;> rfl

theorem history_idle (h : WellFormed (linearArch (s.map fun v : Nat => (v : Int)) m) s [m])
    (hm : Snn.make (linearArch (s.map fun v : Nat => (v : Int)) m) opt d = .ok (snn, d')) (hc : ∀ c ∈ calls, CallFits s.prod m c)
    (hr : r.snn = snn) (hrun : calls.foldlM Call.run r = .ok r') : SafeNet s.prod m r'.snn.net ∧ r'.snn.isIdle = true := by
  obtain ⟨q0, q2⟩ := make_safe h (lin_plain h).ends hm
  rw [← hr] at q0 q2
  have q1 : SafeNet s.prod m r.snn.net := by simpa using q0
  clear hm hr q0
  induction calls generalizing r with
  | nil => cases hrun; exact ⟨q1, q2⟩
  | cons c cs ih =>
    obtain ⟨r1, w1, w2, w3⟩ := call_safe (hc c (by simp)) q1 q2
    rw [List.foldlM_cons, w1] at hrun
    exact ih (fun c' hc' => hc c' (by simp [hc'])) hrun w3 w2

/-- **C99**, the speed: for every list of inputs and every learning rate η with `4 η (|x|² + 4 η) ≤ 1` there is a factor ρ < 1 such that,
for every number of outputs and every linear rule, every network of linear neurons without momentum after every history of calls, every
sequence of calls whose trainings are `train(data, N_ep, 1)` on the examples of this rule, whatever the shuffles, the clock, the frequency of
the evaluations, and the inferences, evaluations and saves between the trainings, the squared error on every example is at most a constant times
ρ^(number of epochs). Left out: rules with a constant term; batches; hidden layers and other activation functions; momentum. Real
arithmetic instead of floating-point. -/
theorem C99_speed_partial (I : List (List ℝ)) (ni : Nat) (hI : I ≠ []) {η R : ℝ} (hη : 0 < η) (hx : ∀ x ∈ I, x.length = ni ∧ energy x ≤ R)
    (hstep : 4 * η * (R + 4 * η) ≤ 1) :
    ∃ ρ, 0 ≤ ρ ∧ ρ < 1 ∧ ∀ {s : List Nat} {m : Nat} {opt : Sgd ℝ} {d d' : Draws ℝ} {snn : Snn ℝ} {calls : List (Call ℝ)} {r r' : Run ℝ},
      WellFormed (linearArch (s.map fun v : Nat => (v : Int)) m) s [m] → s.prod = ni → opt.momentum = 0 → opt.learningRate = η →
      Snn.make (linearArch (s.map fun v : Nat => (v : Int)) m) opt d = .ok (snn, d') → (∀ c ∈ calls, CallFits s.prod m c) →
      r.snn = snn → calls.foldlM Call.run r = .ok r' → r'.snn.net.outputNan = false →
      ∀ (X : List Example) (W : List (List ℝ)), X.map (·.1) = I → W.length = m → Explains (rule W) X →
      ∀ studies : List (Call ℝ), (∀ c ∈ studies, CallFits s.prod m c ∧ Studies X c) →
      ∃ r'', studies.foldlM Call.run r' = .ok r'' ∧ ∀ p ∈ X, ∃ y net, r''.snn.net.output p.1 false = .ok (y, net) ∧
        squaredError p.2 y ≤ (2 * R + 1 / (2 * η)) * (ρ ^ epochs studies * ruleDistance η s.prod W (Net.rows r'.snn.net)) := by
  have hR : 0 ≤ R := by
    obtain ⟨x, hxI⟩ := List.exists_mem_of_ne_nil _ hI
    exact (energy_nonneg x).trans (hx x hxI).2
  have hε : 0 < 2 * η := by positivity
  obtain ⟨ρ, h0, h1, hpass⟩ := Online.pass hε hR ni I.length (I.map vec) (by
    intro v hv
    obtain ⟨x, hxI, rfl⟩ := List.mem_map.1 hv
    rw [energy_dot (hx x hxI).1]
    exact (hx x hxI).2) (by linarith) (by simpa using hI)
  refine ⟨ρ, h0, h1, ?_⟩
  intro s m opt d d' snn calls r r' hwf hni hmom hlr hm hc hr hrun hnan X W hXI hW hex studies hst
  subst hlr hni
  obtain ⟨ns, hl⟩ := history_lin hwf hm hc hr hrun hnan
  obtain ⟨hn, hi⟩ := history_idle hwf hm hc hr hrun
  obtain ⟨r'', P, ns', g1, g2, g3, -⟩ := calls_replay hmom studies hst hn hi hl
  refine ⟨r'', g1, ?_⟩
  intro p hp
  have hpx := hx p.1 (by rw [← hXI]; exact List.mem_map_of_mem hp)
  obtain ⟨net, e1⟩ := output_lin g3.lin hpx.1
  refine ⟨_, net, e1, ?_⟩
  have hp2 : p.2.length = m := by rw [← hex p hp]; simp [rule, hW]
  rw [squaredError_sum hp2, gap_rows hl _ hW, Finset.mul_sum, Finset.mul_sum]
  apply Finset.sum_le_sum
  intro k hk
  have hk' : k < m := by simpa using hk
  have hXk : (X.map (seen k)).map (·.1) = I.map vec := by rw [← hXI]; simp [seen, Function.comp_def]
  have hnear : Online.Near (2 * opt.learningRate) s.prod (X.map (seen k)) (Online.gap (2 * opt.learningRate) s.prod (vec (W.getD k [])) (stOf ns s.prod k)) (stOf ns s.prod k) := by
    refine ⟨_, ?_, le_refl _⟩
    intro q hq
    obtain ⟨p', hp', rfl⟩ := List.mem_map.1 hq
    have hlen := (hx p'.1 (by rw [← hXI]; exact List.mem_map_of_mem hp')).1
    show _ = p'.2.getD k 0
    rw [← hex p' hp', rule_getD hlen (by omega)]
    rfl
  have hn2 := near_passes (k := k) (fun c s' ps hps hlen => hpass (X.map (seen k)) hXk c s' ps hps (by rw [← hXI]; simpa using hlen)) P g3.perm _ _ hnear
  rw [← g3.follow k hk', g2] at hn2
  have := Online.near_error hε (R := R) (by
    intro q hq
    obtain ⟨p', hp', rfl⟩ := List.mem_map.1 hq
    have hlen := hx p'.1 (by rw [← hXI]; exact List.mem_map_of_mem hp')
    show Online.dot s.prod (vec p'.1) (vec p'.1) ≤ R
    rw [energy_dot hlen.1]; exact hlen.2) hn2 (List.mem_map_of_mem (f := seen k) hp)
  rw [← err_er g3.lin hpx.1 hk'] at this
  exact this

/-- **C99**: the network learns the training set: if a linear rule explains all the examples, after enough epochs all the answers are as
near as wanted to the expected ones, and they stay there. -/
theorem C99_learned_partial (h : WellFormed (linearArch (s.map fun v : Nat => (v : Int)) m) s [m]) (hmom : opt.momentum = 0) (hlr : 0 < opt.learningRate)
    (hm : Snn.make (linearArch (s.map fun v : Nat => (v : Int)) m) opt d = .ok (snn, d')) (hc : ∀ c ∈ calls, CallFits s.prod m c)
    (hr : r.snn = snn) (hrun : calls.foldlM Call.run r = .ok r') (hnan : r'.snn.net.outputNan = false)
    (X : List Example) (hx : ∀ p ∈ X, p.1.length = s.prod ∧ 4 * opt.learningRate * (energy p.1 + 4 * opt.learningRate) ≤ 1)
    {W : List (List ℝ)} (hW : W.length = m) (hex : Explains (rule W) X) {ε : ℝ} (hε : 0 < ε) :
    ∃ N0, ∀ studies : List (Call ℝ), (∀ c ∈ studies, CallFits s.prod m c ∧ Studies X c) → N0 ≤ epochs studies →
      ∃ r'', studies.foldlM Call.run r' = .ok r'' ∧ ∀ p ∈ X, ∃ y net, r''.snn.net.output p.1 false = .ok (y, net) ∧ y.length = m ∧
        ∀ k < m, |p.2.getD k 0 - y.getD k 0| < ε := by
  by_cases hX : X = []
  · subst hX
    obtain ⟨ns, hl⟩ := history_lin h hm hc hr hrun hnan
    obtain ⟨hn, hi⟩ := history_idle h hm hc hr hrun
    refine ⟨0, fun studies hst _ => ?_⟩
    obtain ⟨r'', P, ns', g1, g2, g3, -⟩ := calls_replay hmom studies hst hn hi hl
    exact ⟨r'', g1, by simp⟩
  have hη : 4 * opt.learningRate * ((1 / (4 * opt.learningRate) - 4 * opt.learningRate) + 4 * opt.learningRate) ≤ 1 := by
    rw [sub_add_cancel, mul_one_div, div_self (by positivity)]
  obtain ⟨ρ, h0, h1, main⟩ := C99_speed_partial (X.map (·.1)) s.prod (by simpa using hX) hlr (R := 1 / (4 * opt.learningRate) - 4 * opt.learningRate) (by
    intro x hxI
    obtain ⟨p, hp, rfl⟩ := List.mem_map.1 hxI
    refine ⟨(hx p hp).1, ?_⟩
    rw [le_sub_iff_add_le, le_div_iff₀ (by positivity)]
    have := (hx p hp).2
    linarith) hη
  obtain ⟨A, hA⟩ : ∃ A, A = 2 * (1 / (4 * opt.learningRate) - 4 * opt.learningRate) + 1 / (2 * opt.learningRate) := ⟨_, rfl⟩
  obtain ⟨B, hB⟩ : ∃ B, B = ruleDistance opt.learningRate s.prod W (Net.rows r'.snn.net) := ⟨_, rfl⟩
  have ht : Filter.Tendsto (fun q : Nat => A * (ρ ^ q * B)) Filter.atTop (nhds (A * (0 * B))) :=
    ((tendsto_pow_atTop_nhds_zero_of_lt_one h0 h1).mul_const B).const_mul A
  rw [zero_mul, mul_zero] at ht
  obtain ⟨q, hq⟩ := (ht.eventually (gt_mem_nhds (show 0 < ε ^ 2 by positivity))).exists_forall_of_atTop
  refine ⟨q, fun studies hst hN => ?_⟩
  obtain ⟨r'', g1, g2⟩ := main h rfl hmom rfl hm hc hr hrun hnan X W rfl hW hex studies hst
  refine ⟨r'', g1, fun p hp => ?_⟩
  obtain ⟨y, net, e1, e2⟩ := g2 p hp
  have hp2 : p.2.length = m := by rw [← hex p hp]; simp [rule, hW]
  have hy : y.length = m := by
    obtain ⟨ns, hl⟩ := history_lin h hm hc hr hrun hnan
    obtain ⟨hn, hi⟩ := history_idle h hm hc hr hrun
    obtain ⟨r2, P, ns', k1, k2, k3, k4⟩ := calls_replay hmom studies hst hn hi hl
    rw [g1] at k1
    cases k1
    obtain ⟨net', e3⟩ := output_lin k3.lin (hx p hp).1
    rw [e1] at e3
    have := (Prod.mk.inj (Res.ok.inj e3)).1
    rw [this]; simp [k3.lin.neurons.2.1]
  refine ⟨y, net, e1, hy, fun k hk => ?_⟩
  rw [squaredError_sum hp2, ← hA, ← hB] at e2
  have h3 := lt_of_le_of_lt e2 (hq _ hN)
  have h4 := Finset.single_le_sum (f := fun k => (p.2.getD k 0 - y.getD k 0) ^ 2) (fun i _ => sq_nonneg _) (Finset.mem_range.2 hk)
  exact abs_lt_of_sq_lt_sq (lt_of_le_of_lt h4 h3) hε.le

/-- **C99 is false of rules with a constant term**: for every network of linear neurons, whatever the history and the learning rate, if the
training set is the one example "input 0, expected outputs `des`" (which the constant rule `des` explains), then however many epochs were made, the
answer or the one after one more epoch has an error of at least `|des| / (1 + 2 η)`. -/
theorem C99_constant_refuted (h : WellFormed (linearArch (s.map fun v : Nat => (v : Int)) m) s [m]) (hmom : opt.momentum = 0) (hlr : 0 ≤ opt.learningRate)
    (hm : Snn.make (linearArch (s.map fun v : Nat => (v : Int)) m) opt d = .ok (snn, d')) (hc : ∀ c ∈ calls, CallFits s.prod m c)
    (hr : r.snn = snn) (hrun : calls.foldlM Call.run r = .ok r') (hnan : r'.snn.net.outputNan = false) (des : List ℝ) (hd : des.length = m) :
    Explains (affineRule (des.map fun v => ([], v))) [(List.replicate s.prod 0, des)] ∧
    ∀ (studies : List (Call ℝ)) (last : Call ℝ), (∀ c ∈ studies ++ [last], CallFits s.prod m c ∧ Studies [(List.replicate s.prod 0, des)] c) → epochsOf last = 1 →
      ∃ r1 r2 y1 y2 n1 n2, studies.foldlM Call.run r' = .ok r1 ∧ last.run r1 = .ok r2 ∧ r1.snn.net.output (List.replicate s.prod 0) false = .ok (y1, n1) ∧
        r2.snn.net.output (List.replicate s.prod 0) false = .ok (y2, n2) ∧ ∀ k < m,
        |des.getD k 0| / (1 + 2 * opt.learningRate) ≤ |des.getD k 0 - y1.getD k 0| ∨ |des.getD k 0| / (1 + 2 * opt.learningRate) ≤ |des.getD k 0 - y2.getD k 0| := by
  refine ⟨?_, ?_⟩
  · intro p hp
    rw [List.mem_singleton.1 hp]
    simp [affineRule, Function.comp_def]
  intro studies last hst hlast
  obtain ⟨ns, hl⟩ := history_lin h hm hc hr hrun hnan
  obtain ⟨hn, hi⟩ := history_idle h hm hc hr hrun
  obtain ⟨r1, P1, ns1, a1, a2, a3, a4, a5⟩ := calls_replay hmom studies (fun c hc => hst c (by simp [hc])) hn hi hl
  obtain ⟨r2, P2, ns2, b1, b2, b3, b4, b5⟩ := calls_replay hmom [last] (fun c hc => hst c (by simp at hc; simp [hc])) a4 a5 a3.lin
  have hx : (List.replicate s.prod (0 : ℝ)).length = s.prod := by simp
  obtain ⟨n1, e1⟩ := output_lin a3.lin hx
  obtain ⟨n2, e2⟩ := output_lin b3.lin hx
  have b1' : last.run r1 = .ok r2 := by
    rw [List.foldlM_cons] at b1
    obtain ⟨q, c1, c2⟩ := Res.bind_eq_ok.1 b1
    cases c2
    exact c1
  refine ⟨r1, r2, _, _, n1, n2, a1, b1', e1, e2, fun k hk => ?_⟩
  have hP : ∃ L, P2 = [L] := List.length_eq_one_iff.1 (by rw [b2]; simp [epochs, hlast])
  obtain ⟨L, rfl⟩ := hP
  have hL := List.perm_singleton.1 (b3.perm L (by simp))
  subst hL
  have hf := b3.follow k hk
  simp only [List.flatten_cons, List.flatten_nil, List.append_nil, List.map_cons, List.map_nil, Online.run] at hf
  have hz := zero_pair (ε := 2 * opt.learningRate) (y := 0) (n := s.prod) (s := stOf ns1 s.prod k) (p := seen k (List.replicate s.prod 0, des)) (by
    intro i
    simp [seen, vec, List.getD_eq_getElem?_getD, List.getElem?_replicate]
    split <;> rfl)
  rw [← hf, ← err_er b3.lin hx hk, ← err_er a3.lin hx hk] at hz
  have hz : des.getD k 0 = err ns2 (List.replicate s.prod 0) des k + 2 * opt.learningRate * err ns1 (List.replicate s.prod 0) des k := hz
  show _ ≤ |err ns1 (List.replicate s.prod 0) des k| ∨ _ ≤ |err ns2 (List.replicate s.prod 0) des k|
  by_contra hcon
  push Not at hcon
  obtain ⟨c1, c2⟩ := hcon
  have hp : 0 < 1 + 2 * opt.learningRate := by positivity
  have h3 : |des.getD k 0| ≤ |err ns2 (List.replicate s.prod 0) des k| + 2 * opt.learningRate * |err ns1 (List.replicate s.prod 0) des k| := by
    conv_lhs => rw [hz]
    refine (abs_add_le _ _).trans ?_
    rw [abs_mul, abs_of_nonneg (show 0 ≤ 2 * opt.learningRate by positivity)]
  have h4 : |des.getD k 0| / (1 + 2 * opt.learningRate) * (1 + 2 * opt.learningRate) = |des.getD k 0| := div_mul_cancel₀ _ hp.ne'
  nlinarith

/-! ### Non-vacuity -/

/-- Two examples with three expected outputs. -/
def twoExamples : List Example := [([1, 0], [1, 2, 3]), ([1, 1], [3, 1, 2])]

/-- The rule that explains them. -/
def twoRule : List (List ℝ) := [[1, 2], [2, -1], [3, -1]]

theorem two_explained : Explains (rule twoRule) twoExamples := by
  intro p hp
  simp only [twoExamples, List.mem_cons, List.not_mem_nil, or_false] at hp
  rcases hp with rfl | rfl <;> norm_num [rule, twoRule, Finset.sum_range_succ]

theorem two_data : ∃ data : Data ℝ, Fitted 2 3 data ∧ examplesOf data = twoExamples ∧ data.typeOfTemporal = .nonTemporal ∧ data.training.size = 2 := by
  have h : ∃ data : Data ℝ, Data.make1 .regression [[1, 0], [1, 1]] [[1, 2, 3], [3, 1, 2]] .nonTemporal 0 = .ok data ∧ examplesOf data = twoExamples ∧
    data.typeOfTemporal = .nonTemporal ∧ data.training.size = 2 := ⟨_, rfl, rfl, rfl, rfl⟩
  obtain ⟨data, h1, h2, h3, h4⟩ := h
  refine ⟨data, .make1 h1 ⟨rfl, ?_, ?_⟩ (by intro h; cases h) (by intro h; cases h), h2, h3, h4⟩
  · intro r hr; simp at hr; rcases hr with rfl | rfl <;> simp
  · intro r hr; simp at hr; rcases hr with rfl | rfl <;> simp

theorem two_small : ∀ p ∈ twoExamples, p.1.length = [2].prod ∧ 4 * (1 / 10 : ℝ) * (energy p.1 + 4 * (1 / 10)) ≤ 1 := by
  intro p hp
  simp only [twoExamples, List.mem_cons, List.not_mem_nil, or_false] at hp
  rcases hp with rfl | rfl <;> norm_num [energy, Finset.sum_range_succ]

/-- The hypotheses are met: a network of 3 linear neurons is built; it learns the two examples up to 1/100 if it is trained long enough,
and there are calls that train it as long as wanted (each call makes less than 2^31 epochs). -/
example : ∃ snn d', Snn.make (linearArch ([2].map fun v : Nat => (v : Int)) 3) { learningRate := 1 / 10, momentum := 0 } (fun _ => 1 / 2) = .ok (snn, d') ∧
    ∀ r : Run ℝ, r.snn = snn → ∃ studies : List (Call ℝ), (∀ c ∈ studies, CallFits 2 3 c ∧ Studies twoExamples c) ∧ ∃ r'', studies.foldlM Call.run r = .ok r'' ∧
      ∀ p ∈ twoExamples, ∃ y net, r''.snn.net.output p.1 false = .ok (y, net) ∧ y.length = 3 ∧ ∀ k < 3, |p.2.getD k 0 - y.getD k 0| < 1 / 100 := by
  obtain ⟨snn, d', hm⟩ := ArchProps.C49_accepted_if demo_wf (opt := { learningRate := 1 / 10, momentum := 0 }) (by norm_num) (by norm_num)
    (by norm_num) (by norm_num) (d := fun _ => 1 / 2) (fun i => by norm_num)
  refine ⟨snn, d', hm, fun r hr => ?_⟩
  have hnan : r.snn.net.outputNan = false := by rw [hr]; exact (make_lin demo_wf hm).choose_spec.nan
  obtain ⟨N0, hN⟩ := C99_learned_partial demo_wf rfl (by norm_num) hm (calls := []) (by simp) hr rfl hnan twoExamples two_small (W := twoRule) rfl two_explained
    (ε := 1 / 100) (by norm_num)
  obtain ⟨data, h1, h2, h3, h4⟩ := two_data
  have hc : ∀ c ∈ List.replicate N0 (Call.train ⟨fun _ => 0, fun _ _ => 0, 0⟩ data (litEp 1) 1 1 10), CallFits 2 3 c ∧ Studies twoExamples c := by
    intro c hc
    rw [List.eq_of_mem_replicate hc]
    exact ⟨⟨h1, le_refl _, by rw [h4]; norm_num, fun h => absurd rfl h, 2, overFrom_ep 1 (by norm_num), by norm_num, by rw [h4]; norm_num⟩, h2, by rw [h3]; decide, rfl, 1, by norm_num, rfl⟩
  refine ⟨_, hc, hN _ hc ?_⟩
  have : epochsOf (Call.train ⟨fun _ => 0, fun _ _ => 0, 0⟩ data (litEp 1) 1 1 10) = 1 := litEp_epochs (N := 1) (by norm_num)
  simp [epochs, this]

end Snn.OnlineProps
