import Verif.Props.FadeProps
import Verif.Props.ElmanProps

/-! # C96: the condition on the feedback is sharp -/

set_option linter.all false

namespace Snn.SharpFade

open Finset Snn.Spec Snn.NeuronSpec Snn.HistoryProps Snn.SafeProps Snn.FadeProps Snn.ElmanProps Snn.RobustProps

/-- One layer of N recurrent neurons with the identity. -/
def linearRec (s : List Nat) (N : Nat) : List (LayerModel ℝ) := [.input (s.map fun v : Nat => (v : Int)), .recurrence (N : Int) .identity []]

theorem make_rec {s : List Nat} {N : Nat} (h : WellFormed (linearRec s N) s [N]) {opt : Sgd ℝ} {d d' : Draws ℝ} {snn : Snn ℝ}
    (hm : Snn.make (linearRec s N) opt d = .ok (snn, d')) :
    0 < N ∧ ∃ l ns, snn.net.layers = [l] ∧ RecLayer l s.prod N .identity ns ∧ l.optimizers = [] := by
  obtain ⟨⟨net, d1⟩, h1, hm⟩ := Res.bind_eq_ok.1 hm
  obtain ⟨err, h2, hm⟩ := Res.bind_eq_ok.1 hm
  split at hm
  · cases hm
  cases hm
  obtain ⟨⟨ls, d2⟩, h3, h1⟩ := Res.bind_eq_ok.1 h1
  obtain ⟨last, h4, h1⟩ := Res.bind_eq_ok.1 h1
  cases h1
  obtain ⟨q, rest, e, hc⟩ := h.layers
  cases e
  have hg := chain_good hc
  have hN : 0 < N := by
    cases hc with
    | cons hs hf hc => cases hc with | nil hg => exact hg.pos N (by simp)
  unfold linearRec LayerFactory.build at h3
  rw [if_neg (by simp)] at h3
  simp only at h3
  rw [if_neg (by simp), computeNumberOfInputs_ok hg] at h3
  simp only [Res.ok_bind] at h3
  rw [if_neg (by have := hg.small; omega)] at h3
  unfold buildLayers at h3
  obtain ⟨⟨l1, d3⟩, k1, h3⟩ := Res.bind_eq_ok.1 h3
  obtain ⟨⟨ls1, d4⟩, k2, h3⟩ := Res.bind_eq_ok.1 h3
  cases h3
  cases k2
  obtain ⟨_, ⟨ns, g1, _⟩, g2⟩ := recLayer_built (ni := s.prod) (by simp) hN k1
  exact ⟨hN, l1, ns, rfl, g1, g2 rfl⟩

theorem history_rec {s : List Nat} {N : Nat} (h : WellFormed (linearRec s N) s [N]) {opt : Sgd ℝ} {d d' : Draws ℝ} {snn : Snn ℝ}
    (hm : Snn.make (linearRec s N) opt d = .ok (snn, d')) {calls : List (Call ℝ)} (hc : ∀ c ∈ calls, CallFits s.prod N c)
    {r r' : Run ℝ} (hr : r.snn = snn) (hrun : calls.foldlM Call.run r = .ok r') :
    ∃ l ns, r'.snn.net.layers = [l] ∧ RecLayer l s.prod N .identity ns ∧ l.optimizers = [] := by
  obtain ⟨hN, l0, ns0, h1, h2, h3⟩ := make_rec h hm
  obtain ⟨hs, hi⟩ := make_safe h (by simp [EndsWithNeurons, linearRec]) hm
  have hs' := history_safeNet (by simpa using hc) (hr ▸ hs) (hr ▸ hi) hrun
  have hk := (history_kin hrun).layers
  have hw := hs'.wf.layers
  rw [hr, h1] at hk
  generalize r'.snn.net.layers = ls at hk hw
  cases hk with
  | @cons _ l _ _ k1 k2 =>
    cases k2
    have hb := k1.body
    rw [h2.body] at hb
    have hlw : l.WF s.prod N := by
      cases hw with
      | cons a b =>
        cases b
        simpa using a
    obtain ⟨_, hw1, _⟩ := hlw
    refine ⟨l, ?_⟩
    cases hbody : l.body with
    | recurrence ns =>
      rw [hbody] at hb hw1
      simp only [Body.Kin] at hb
      obtain ⟨w1, w2⟩ := hw1
      refine ⟨ns, rfl, ⟨hbody, w1, w2, ?_, ?_⟩, List.length_eq_zero_iff.1 (by have := k1.opts; simpa [h3] using this)⟩
      · intro n hn
        obtain ⟨n0, hn0, hkin⟩ := forall₂_mem_right hb n hn
        rw [hkin.activation]; exact h2.act n0 hn0
      · intro n hn
        obtain ⟨n0, hn0, hkin⟩ := forall₂_mem_right hb n hn
        rw [hkin.bias]; exact h2.bias n0 hn0
    | fullyConnected ns => rw [hbody] at hb; exact hb.elim
    | gru ns => rw [hbody] at hb; exact hb.elim
    | filter k ns info => rw [hbody] at hb; exact hb.elim
    | pool a b c d => rw [hbody] at hb; exact hb.elim

/-- The answers of the network are those of the recurrence. -/
theorem replies_rec : ∀ (xs : List (List ℝ × Bool)) {s : Snn ℝ} {l : Layer ℝ} {ni N : Nat} {ns : List (RecNeuron ℝ)}, s.net.layers = [l] →
    RecLayer l ni N .identity ns → l.optimizers = [] → (∀ x ∈ xs, x.1.length = ni) →
    ∃ s', replies s xs = .ok (recurrentRun Act.identity.obj.function l.body.weights N (ns.map (·.lastOutput)) (xs.map (·.1)), s')
  | [], s, l, ni, N, ns, _, _, _, _ => ⟨s, rfl⟩
  | (x, t) :: xs, s, l, ni, N, ns, hl, h, ho, hx => by
    obtain ⟨ns', h1, h2, h3, h4⟩ := recLayer_step h x (hx (x, t) (by simp)) t
    have e : l.output x t = .ok (recurrentStep Act.identity.obj.function l.body.weights N (ns.map (·.lastOutput)) x, { l with body := .recurrence ns' }) := by
      simp only [Layer.output, h1, Res.ok_bind, ho, testingHooks]
      rfl
    obtain ⟨s1, e1, e2⟩ := computeOutput_eq (s := s) (x := x) (t := t) (by rw [hl]; simp) (by rw [hl]; simp only [outputLoop, e, Res.ok_bind, Res.pure_eq]; rfl)
    obtain ⟨s', h5⟩ := replies_rec xs e2 h2 ho (fun y hy => hx y (by simp [hy]))
    refine ⟨s', ?_⟩
    simp only [replies, e1, h5, Res.ok_bind, List.map_cons, recurrentRun, h3, h4]
    rfl

theorem identity_apply (v : ℝ) : Act.identity.obj.function v = v := rfl

theorem step_getD {w : List (List ℝ)} {N k : Nat} (hk : k < N) (h x : List ℝ) : (recurrentStep Act.identity.obj.function w N h x).getD k 0
    = (∑ i ∈ range x.length, weight w k i * x.getD i 0) + weight w k x.length * h.getD k 0 + weight w k (x.length + 1) := by
  simp [recurrentStep, List.getD_eq_getElem?_getD, hk, identity_apply]

theorem run_diff {w : List (List ℝ)} {N k ni : Nat} (hk : k < N) : ∀ (xs : List (List ℝ)), (∀ x ∈ xs, x.length = ni) → ∀ (h h' : List ℝ) (j : Nat), j < xs.length →
    ((recurrentRun Act.identity.obj.function w N h xs).getD j []).getD k 0 - ((recurrentRun Act.identity.obj.function w N h' xs).getD j []).getD k 0
      = weight w k ni ^ (j + 1) * (h.getD k 0 - h'.getD k 0)
  | [], _, _, _, j, hj => by simp at hj
  | x :: xs, hx, h, h', 0, _ => by
    have := hx x (by simp)
    simp only [recurrentRun, List.getD_cons_zero, step_getD hk, this]
    ring
  | x :: xs, hx, h, h', j + 1, hj => by
    have e := hx x (by simp)
    simp only [recurrentRun, List.getD_cons_succ]
    rw [run_diff hk xs (fun y hy => hx y (by simp [hy])) _ _ j (by simpa using hj), step_getD hk, step_getD hk, e]
    ring

theorem run_length {w : List (List ℝ)} {N : Nat} : ∀ (xs : List (List ℝ)) (h : List ℝ), (recurrentRun Act.identity.obj.function w N h xs).length = xs.length
  | [], _ => rfl
  | x :: xs, h => by simp [recurrentRun, run_length xs]

/-- **C96, sharpness**: a layer of recurrent linear neurons, after every history of calls: two inputs x and x' are answered, and then one common sequence of inputs of any
length, with any flags of temporal reset. The answers of neuron k differ, at the answer j of the common sequence, by exactly `u^(j+1)` times what the two inputs made
of difference, where u is the recurrent weight of the neuron: below 1 the past is forgotten at exactly this speed. -/
theorem C96_sharp {s : List Nat} {N : Nat} (h : WellFormed (linearRec s N) s [N]) {opt : Sgd ℝ} {d d' : Draws ℝ} {snn : Snn ℝ}
    (hm : Snn.make (linearRec s N) opt d = .ok (snn, d')) {calls : List (Call ℝ)} (hc : ∀ c ∈ calls, CallFits s.prod N c)
    {r r' : Run ℝ} (hr : r.snn = snn) (hrun : calls.foldlM Call.run r = .ok r') {x x' : List ℝ} (hx : x.length = s.prod) (hx' : x'.length = s.prod) (t t' : Bool)
    {xs : List (List ℝ × Bool)} (hxs : ∀ x ∈ xs, x.1.length = s.prod) {k : Nat} (hk : k < N) :
    ∃ l ys ys' a a', r'.snn.net.layers = [l] ∧ replies r'.snn ((x, t) :: xs) = .ok (ys, a) ∧ replies r'.snn ((x', t') :: xs) = .ok (ys', a') ∧
      ys.length = xs.length + 1 ∧ ys'.length = xs.length + 1 ∧ ∀ j ≤ xs.length, (ys.getD j []).getD k 0 - (ys'.getD j []).getD k 0
        = weight l.body.weights k s.prod ^ j * ∑ i ∈ range s.prod, weight l.body.weights k i * (x.getD i 0 - x'.getD i 0) := by
  obtain ⟨l, ns, h1, h2, h3⟩ := history_rec h hm hc hr hrun
  obtain ⟨a, ha⟩ := replies_rec ((x, t) :: xs) h1 h2 h3 (by intro y hy; rcases List.mem_cons.1 hy with rfl | hy <;> [exact hx; exact hxs y hy])
  obtain ⟨a', ha'⟩ := replies_rec ((x', t') :: xs) h1 h2 h3 (by intro y hy; rcases List.mem_cons.1 hy with rfl | hy <;> [exact hx'; exact hxs y hy])
  refine ⟨l, _, _, a, a', h1, ha, ha', by simp [run_length], by simp [run_length], ?_⟩
  have h0 : (recurrentStep Act.identity.obj.function l.body.weights N (ns.map (·.lastOutput)) x).getD k 0
      - (recurrentStep Act.identity.obj.function l.body.weights N (ns.map (·.lastOutput)) x').getD k 0
      = ∑ i ∈ range s.prod, weight l.body.weights k i * (x.getD i 0 - x'.getD i 0) := by
    rw [step_getD hk, step_getD hk, hx, hx', add_sub_add_right_eq_sub, add_sub_add_right_eq_sub, ← Finset.sum_sub_distrib]
    exact Finset.sum_congr rfl fun i _ => by ring
  intro j hj
  cases j with
  | zero => simpa [recurrentRun] using h0
  | succ j =>
    simp only [List.map_cons, recurrentRun, List.getD_cons_succ]
    rw [run_diff (ni := s.prod) hk _ (by intro y hy; obtain ⟨z, hz, rfl⟩ := List.mem_map.1 hy; exact hxs z hz) _ _ j (by simpa using hj), h0]

/-! ### A case that meets the hypotheses -/

theorem demo_wf : WellFormed (linearRec [2] 3) [2] [3] := by
  have g2 : GoodShape [2] := ⟨by simp, by simp, by simp⟩
  have g3 : GoodShape [3] := ⟨by simp, by simp, by simp⟩
  exact ⟨⟨_, _, rfl, .cons g2 (Fits.recurrence (n := 3) (by omega)) (.nil g3)⟩, by simp [linearRec]⟩

example : ∃ snn d', Snn.make (linearRec [2] 3) { learningRate := 1 / 10, momentum := 0 } (fun _ => 1 / 2) = .ok (snn, d') ∧ [(1 : ℝ), 2].length = [2].prod ∧
    (∀ x ∈ [([(1 : ℝ), 1], false), ([0, 3], true)], x.1.length = [2].prod) := by
  obtain ⟨snn, d', hm⟩ := ArchProps.C49_accepted_if demo_wf (opt := { learningRate := 1 / 10, momentum := 0 }) (by norm_num) (by norm_num)
      (by norm_num) (by norm_num) (d := fun _ => 1 / 2) (fun i => by norm_num)
  exact ⟨snn, d', hm, rfl, by simp⟩

end Snn.SharpFade
