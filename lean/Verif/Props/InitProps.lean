import Verif.Spec.InitSpec
import Verif.Proofs.BuildProofs
import Verif.Basic.RealFlt
import Verif.Props.ArchProps
import Verif.Demo.Demo

/-!
# C81: the initial weights are independent draws of the documented distribution
-/

set_option linter.all false

namespace Snn.InitProps

open Spec

section
variable {F : Type} [Flt F] [FTrans F] [Add F] [Sub F] [Mul F] [Div F] [Neg F]

/-- The weights `us` come from the draws between the streams `d` and `d'`. -/
def Seg (d d' : Draws F) (us : List (List F)) : Prop :=
  ∃ k used, d' = shiftDraws k d ∧ Drawn d us used ∧ used.flatten.Pairwise (· < ·) ∧ ∀ i ∈ used.flatten, i < k

theorem shift_shift (a b : Nat) (d : Draws F) : shiftDraws b (shiftDraws a d) = shiftDraws (a + b) d := by
  funext i; simp [shiftDraws, Nat.add_assoc]

theorem Seg.none (d : Draws F) (k : Nat) : Seg d (shiftDraws k d) [] := ⟨k, [], rfl, .nil, by simp, by simp⟩

theorem Seg.refl (d : Draws F) : Seg d d [] := ⟨0, [], by funext i; simp [shiftDraws], .nil, by simp, by simp⟩

theorem Seg.append {d d1 d2 : Draws F} {us vs : List (List F)} (h : Seg d d1 us) (g : Seg d1 d2 vs) : Seg d d2 (us ++ vs) := by
  obtain ⟨k, a, rfl, h2, h3, h4⟩ := h
  obtain ⟨m, b, rfl, g2, g3, g4⟩ := g
  have hf : (b.map fun is => is.map fun i => k + i).flatten = b.flatten.map fun i => k + i := by
    rw [List.map_flatten]
  refine ⟨k + m, a ++ b.map (fun is => is.map fun i => k + i), shift_shift _ _ _, ?_, ?_, ?_⟩
  · refine List.rel_append h2 ?_
    rw [List.forall₂_map_right_iff]
    refine List.Forall₂.imp ?_ g2
    intro ws is e
    rw [e]
    simp [shiftDraws, List.mapIdx_eq_zipIdx_map, List.zipIdx_map]
  · rw [List.flatten_append, hf, List.pairwise_append]
    refine ⟨h3, ?_, ?_⟩
    · rw [List.pairwise_map]
      exact g3.imp (by intros; omega)
    · intro x hx y hy
      obtain ⟨z, _, rfl⟩ := List.mem_map.1 hy
      have := h4 x hx
      omega
  · intro i hi
    rw [List.flatten_append, hf, List.mem_append] at hi
    rcases hi with hi | hi
    · have := h4 i hi; omega
    · obtain ⟨z, hz, rfl⟩ := List.mem_map.1 hi
      have := g4 z hz
      omega

theorem neuron_seg {m : NeuronModel F} {opt : Sgd F} {d : Draws F} {n : Neuron F} (h : Neuron.make m opt d = .ok n) :
    Seg d (shiftDraws m.numberOfWeights.toNat d) [n.weights] := by
  unfold Neuron.make at h
  split at h
  · cases h
  split at h
  · cases h
  obtain ⟨last, h1, h⟩ := Res.bind_eq_ok.1 h
  obtain ⟨li, h2, h⟩ := Res.bind_eq_ok.1 h
  obtain ⟨pd, h3, h⟩ := Res.bind_eq_ok.1 h
  cases h
  generalize hk : m.numberOfWeights.toNat = k at *
  have hk' : m.numberOfWeights = (k : Int) := by omega
  have hpos : 0 < k := by
    rcases Nat.eq_zero_or_pos k with rfl | h
    · simp [backOf] at h1
    · exact h
  obtain ⟨j, rfl⟩ : ∃ j, k = j + 1 := ⟨k - 1, by omega⟩
  refine ⟨j + 1, [List.range (j + 1)], rfl, ?_, by simpa using List.pairwise_lt_range, by simp⟩
  refine .cons ?_ .nil
  simp only [List.range_succ, List.map_append, List.map_cons, List.map_nil, backOf, List.getLast?_append, List.getLast?_singleton,
    Option.some_or, Res.ok.injEq] at h1
  subst h1
  apply List.ext_getElem
  · simp
  · intro i a b
    simp only [List.length_mapIdx, List.length_range] at b
    simp only [List.getElem_mapIdx, List.length_range, List.getElem_range, initialWeight, List.range_succ, List.map_append,
      List.map_cons, List.map_nil, List.dropLast_concat]
    rcases Nat.lt_or_ge i j with hi | hi
    · rw [List.getElem_append_left (by simpa using hi), if_neg (by simp; omega), List.getElem_append_left (by simpa using hi)]
      simp [randomInitializeWeight, uniform, hk']
    · obtain rfl : i = j := by omega
      rw [List.getElem_append_right (by simp), if_pos (by simp)]
      simp [randomInitializeWeight, uniform, hk']

theorem rec_seg {m : NeuronModel F} {opt : Sgd F} {d : Draws F} {n : RecNeuron F} (h : RecNeuron.make m opt d = .ok n) :
    Seg d (shiftDraws m.numberOfWeights.toNat d) [n.base.weights] := by
  unfold RecNeuron.make at h
  obtain ⟨b, h1, h⟩ := Res.bind_eq_ok.1 h
  cases h
  exact neuron_seg h1

theorem gru_seg {m : NeuronModel F} {opt : Sgd F} {d : Draws F} {g : Gru F} (h : Gru.make m opt d = .ok g) :
    Seg d (shiftDraws (3 * m.numberOfWeights.toNat) d) [g.resetGate.base.weights, g.updateGate.base.weights, g.outputGate.base.weights] := by
  unfold Gru.make at h
  obtain ⟨r, h1, h⟩ := Res.bind_eq_ok.1 h
  obtain ⟨u, h2, h⟩ := Res.bind_eq_ok.1 h
  obtain ⟨o, h3, h⟩ := Res.bind_eq_ok.1 h
  cases h
  have e1 := rec_seg h1
  have e2 := rec_seg h2
  have e3 := rec_seg h3
  simp only [shift_shift] at e1 e2 e3
  have := (e1.append e2).append e3
  rw [show 3 * m.numberOfWeights.toNat = m.numberOfWeights.toNat + m.numberOfWeights.toNat + m.numberOfWeights.toNat by omega]
  exact this

theorem neurons_seg {N : Type} {mk : Draws F → Res N} {per : Nat} {f : N → List (List F)}
    (hf : ∀ d n, mk d = .ok n → Seg d (shiftDraws per d) (f n)) :
    ∀ {k : Nat} {d d' : Draws F} {ns : List N}, makeNeurons mk per k d = .ok (ns, d') → Seg d d' (ns.flatMap f)
  | 0, d, d', ns, h => by cases h; exact Seg.refl d
  | k + 1, d, d', ns, h => by
    unfold makeNeurons at h
    obtain ⟨n, h1, h⟩ := Res.bind_eq_ok.1 h
    obtain ⟨⟨ns', d1⟩, h2, h⟩ := Res.bind_eq_ok.1 h
    cases h
    exact (hf _ _ h1).append (neurons_seg hf h2)

theorem all_seg {N : Type} {mk : Draws F → Res N} {per : Nat} {f : N → List (List F)}
    (hf : ∀ d n, mk d = .ok n → Seg d (shiftDraws per d) (f n)) {k : Int} {d d' : Draws F} {ns : List N}
    (h : makeAllNeurons mk per k d = .ok (ns, d')) : Seg d d' (ns.flatMap f) := by
  unfold makeAllNeurons at h
  split at h
  · cases h
  · exact neurons_seg hf h

theorem opts_seg (n : Nat) : ∀ (ms : List (LayerOptModel F)) (d : Draws F), Seg d (LayerOpt.buildAll n ms d).2 []
  | [], d => Seg.refl d
  | m :: ms, d => by
    have h1 : Seg d (LayerOpt.build n m d).2 [] := by
      cases m <;> first | exact Seg.refl d | exact Seg.none d n
    have := h1.append (opts_seg n ms (LayerOpt.build n m d).2)
    simpa [LayerOpt.buildAll] using this

theorem flatMap_single {α β : Type} (f : α → β) (l : List α) : (l.flatMap fun a => [f a]) = l.map f := by
  induction l with
  | nil => rfl
  | cons a l ih => simp [ih]

theorem layer_seg {opt : Sgd F} {m : LayerModel F} {shape : List Int} {d d' : Draws F} {l : Layer F}
    (h : buildLayer opt m shape d = .ok (l, d')) : Seg d d' (units l) := by
  unfold buildLayer at h
  obtain ⟨ni, h0, h⟩ := Res.bind_eq_ok.1 h
  split at h
  · cases h
  split at h
  · cases h
  have fin : ∀ {d1 : Draws F} {us : List (List F)} (n : Nat) (ms : List (LayerOptModel F)), Seg d d1 us →
      Seg d (LayerOpt.buildAll n ms d1).2 us := fun n ms hs => by simpa using hs.append (opts_seg n ms _)
  have hneuron : ∀ (m : NeuronModel F) (nw : Int), m.numberOfWeights = nw → ∀ d n, Neuron.make m opt d = .ok n →
      Seg d (shiftDraws nw.toNat d) [n.weights] := by
    intro m nw e d n hn
    subst e
    exact neuron_seg hn
  cases m with
  | fullyConnected n act opts =>
    simp only at h
    split at h
    · cases h
    unfold buildSimple at h
    obtain ⟨nw, h1, h⟩ := Res.bind_eq_ok.1 h
    obtain ⟨⟨ns, d1⟩, h2, h⟩ := Res.bind_eq_ok.1 h
    cases h
    have := fin ns.length opts (all_seg (f := fun n => [n.weights]) (fun d n hn => by simpa using neuron_seg hn) h2)
    rw [flatMap_single] at this
    exact this
  | recurrence n act opts =>
    simp only at h
    unfold buildSimple at h
    obtain ⟨nw, h1, h⟩ := Res.bind_eq_ok.1 h
    obtain ⟨⟨ns, d1⟩, h2, h⟩ := Res.bind_eq_ok.1 h
    cases h
    have := fin ns.length opts (all_seg (f := fun n => [n.base.weights]) (fun d n hn => by simpa using rec_seg hn) h2)
    rw [flatMap_single] at this
    exact this
  | gru n opts =>
    simp only at h
    unfold buildSimple at h
    obtain ⟨nw, h1, h⟩ := Res.bind_eq_ok.1 h
    obtain ⟨⟨ns, d1⟩, h2, h⟩ := Res.bind_eq_ok.1 h
    cases h
    exact fin ns.length opts (all_seg (fun d n hn => gru_seg hn) h2)
  | maxPooling k =>
    simp only at h
    obtain ⟨l', h1, h⟩ := Res.bind_eq_ok.1 h
    cases h
    have : units l = [] := by
      unfold buildMaxPooling at h1
      split at h1
      · split at h1
        · cases h1
        obtain ⟨_, _, h1⟩ := Res.bind_eq_ok.1 h1
        simp only at h1
        split at h1
        · cases h1
        obtain ⟨_, _, h1⟩ := Res.bind_eq_ok.1 h1
        obtain ⟨_, _, h1⟩ := Res.bind_eq_ok.1 h1
        cases h1; rfl
      · split at h1
        · cases h1
        obtain ⟨_, _, h1⟩ := Res.bind_eq_ok.1 h1
        obtain ⟨_, _, h1⟩ := Res.bind_eq_ok.1 h1
        obtain ⟨_, _, h1⟩ := Res.bind_eq_ok.1 h1
        obtain ⟨_, _, h1⟩ := Res.bind_eq_ok.1 h1
        obtain ⟨_, _, h1⟩ := Res.bind_eq_ok.1 h1
        split at h1
        · cases h1
        obtain ⟨_, _, h1⟩ := Res.bind_eq_ok.1 h1
        cases h1; rfl
      · cases h1
    rw [this]
    exact Seg.refl d
  | locallyConnected f k act opts =>
    simp only at h
    unfold buildLocallyConnected at h
    split at h
    · split at h
      · cases h
      obtain ⟨_, _, h⟩ := Res.bind_eq_ok.1 h
      obtain ⟨_, _, h⟩ := Res.bind_eq_ok.1 h
      obtain ⟨_, _, h⟩ := Res.bind_eq_ok.1 h
      obtain ⟨_, _, h⟩ := Res.bind_eq_ok.1 h
      obtain ⟨nw, _, h⟩ := Res.bind_eq_ok.1 h
      obtain ⟨⟨ns, d1⟩, h2, h⟩ := Res.bind_eq_ok.1 h
      obtain ⟨rows, _, h⟩ := Res.bind_eq_ok.1 h
      cases h
      have := fin ns.length opts (all_seg (f := fun n => [n.weights]) (hneuron _ nw rfl) h2)
      rw [flatMap_single] at this
      exact this
    · split at h
      · cases h
      obtain ⟨_, _, h⟩ := Res.bind_eq_ok.1 h
      obtain ⟨_, _, h⟩ := Res.bind_eq_ok.1 h
      obtain ⟨_, _, h⟩ := Res.bind_eq_ok.1 h
      obtain ⟨_, _, h⟩ := Res.bind_eq_ok.1 h
      obtain ⟨_, _, h⟩ := Res.bind_eq_ok.1 h
      obtain ⟨_, _, h⟩ := Res.bind_eq_ok.1 h
      obtain ⟨_, _, h⟩ := Res.bind_eq_ok.1 h
      obtain ⟨nw, _, h⟩ := Res.bind_eq_ok.1 h
      obtain ⟨⟨ns, d1⟩, h2, h⟩ := Res.bind_eq_ok.1 h
      obtain ⟨rows, _, h⟩ := Res.bind_eq_ok.1 h
      cases h
      have := fin ns.length opts (all_seg (f := fun n => [n.weights]) (hneuron _ nw rfl) h2)
      rw [flatMap_single] at this
      exact this
    · cases h
  | convolution f k act opts =>
    simp only at h
    unfold buildConvolution at h
    split at h
    · split at h
      · cases h
      obtain ⟨_, _, h⟩ := Res.bind_eq_ok.1 h
      obtain ⟨_, _, h⟩ := Res.bind_eq_ok.1 h
      obtain ⟨_, _, h⟩ := Res.bind_eq_ok.1 h
      obtain ⟨_, _, h⟩ := Res.bind_eq_ok.1 h
      obtain ⟨nw, _, h⟩ := Res.bind_eq_ok.1 h
      obtain ⟨⟨ns, d1⟩, h2, h⟩ := Res.bind_eq_ok.1 h
      obtain ⟨rows, _, h⟩ := Res.bind_eq_ok.1 h
      cases h
      have := fin ns.length opts (all_seg (f := fun n => [n.weights]) (hneuron _ nw rfl) h2)
      rw [flatMap_single] at this
      exact this
    · split at h
      · cases h
      obtain ⟨_, _, h⟩ := Res.bind_eq_ok.1 h
      obtain ⟨_, _, h⟩ := Res.bind_eq_ok.1 h
      obtain ⟨_, _, h⟩ := Res.bind_eq_ok.1 h
      obtain ⟨_, _, h⟩ := Res.bind_eq_ok.1 h
      obtain ⟨_, _, h⟩ := Res.bind_eq_ok.1 h
      obtain ⟨_, _, h⟩ := Res.bind_eq_ok.1 h
      obtain ⟨_, _, h⟩ := Res.bind_eq_ok.1 h
      obtain ⟨nw, _, h⟩ := Res.bind_eq_ok.1 h
      obtain ⟨⟨ns, d1⟩, h2, h⟩ := Res.bind_eq_ok.1 h
      obtain ⟨rows, _, h⟩ := Res.bind_eq_ok.1 h
      cases h
      have := fin ns.length opts (all_seg (f := fun n => [n.weights]) (hneuron _ nw rfl) h2)
      rw [flatMap_single] at this
      exact this
    · cases h
  | input s => cases h

theorem layers_seg {opt : Sgd F} : ∀ {ms : List (LayerModel F)} {shape : List Int} {d d' : Draws F} {ls : List (Layer F)},
    buildLayers opt ms shape d = .ok (ls, d') → Seg d d' (ls.flatMap units)
  | [], _, d, d', ls, h => by cases h; exact Seg.refl d
  | m :: ms, shape, d, d', ls, h => by
    unfold buildLayers at h
    obtain ⟨⟨l, d1⟩, h1, h⟩ := Res.bind_eq_ok.1 h
    obtain ⟨⟨ls', d2⟩, h2, h⟩ := Res.bind_eq_ok.1 h
    cases h
    exact (layer_seg h1).append (layers_seg h2)

theorem make_seg {arch : List (LayerModel F)} {opt : Sgd F} {d d' : Draws F} {s : Snn F} (h : Snn.make arch opt d = .ok (s, d')) :
    Seg d d' (s.net.layers.flatMap units) := by
  unfold Snn.make at h
  obtain ⟨⟨net, d1⟩, h1, h⟩ := Res.bind_eq_ok.1 h
  obtain ⟨err, _, h⟩ := Res.bind_eq_ok.1 h
  split at h
  · cases h
  cases h
  unfold Net.make at h1
  obtain ⟨⟨ls, d2⟩, h2, h1⟩ := Res.bind_eq_ok.1 h1
  obtain ⟨last, _, h1⟩ := Res.bind_eq_ok.1 h1
  cases h1
  unfold LayerFactory.build at h2
  split at h2
  · cases h2
  split at h2
  · split at h2
    · cases h2
    obtain ⟨_, _, h2⟩ := Res.bind_eq_ok.1 h2
    split at h2
    · cases h2
    exact layers_seg h2
  · cases h2

/-- **C81.** In a network that was just constructed, every weight of every neuron is the documented function of one random draw, and no
two weights of the network share a draw: the positions used are strictly increasing over the whole network (layers, neurons and weights in
order). The draws left for later are those after all of these. For every arithmetic. -/
theorem C81_draws (arch : List (LayerModel F)) (opt : Sgd F) (d d' : Draws F) (s : Snn F) (h : Snn.make arch opt d = .ok (s, d')) :
    ∃ used k, Drawn d (s.net.layers.flatMap units) used ∧ used.flatten.Pairwise (· < ·) ∧ (∀ i ∈ used.flatten, i < k) ∧
      ∀ i, d' i = d (k + i) := by
  obtain ⟨k, used, h1, h2, h3, h4⟩ := make_seg h
  exact ⟨used, k, h2, h3, h4, fun i => by rw [h1]; rfl⟩

end

theorem initial_bound {n j : Nat} (hn : 0 < n) {u : ℝ} (h0 : 0 ≤ u) (h1 : u ≤ 1) :
    |initialWeight n j u| ≤ 12 / 5 / Real.sqrt n ∧ (j + 1 = n → 0 ≤ initialWeight n j u) := by
  have hm : (0 : ℝ) ≤ 12 / 5 / Real.sqrt n := by positivity
  have e : (lit (12/5) / fsqrt (lit ((n : Int) : Rat)) : ℝ) = 12 / 5 / Real.sqrt n := by simp
  unfold initialWeight
  simp only [e]
  generalize 12 / 5 / Real.sqrt n = m at hm
  have hb : |u * (m - -m) + -m| ≤ m := by
    rw [abs_le]
    constructor <;> nlinarith
  split
  · exact ⟨by rw [fabs_eq, abs_abs]; exact hb, fun _ => by rw [fabs_eq]; exact abs_nonneg _⟩
  · exact ⟨hb, fun h => absurd h ‹_›⟩

/-- **C81, bounds.** With draws in [0, 1], every weight of a neuron with `n` weights is in `[-2.4/√n, 2.4/√n]`, and the last one (the
weight of the bias) is not negative. -/
theorem C81_bounds (arch : List (LayerModel ℝ)) (opt : Sgd ℝ) (d d' : Draws ℝ) (s : Snn ℝ) (h : Snn.make arch opt d = .ok (s, d'))
    (hd : ∀ i, 0 ≤ d i ∧ d i ≤ 1) : ∀ ws ∈ s.net.layers.flatMap units,
      (∀ w ∈ ws, |w| ≤ 12 / 5 / Real.sqrt ws.length) ∧ ∀ w, ws.getLast? = some w → 0 ≤ w := by
  obtain ⟨used, k, h1, h2⟩ := C81_draws arch opt d d' s h
  clear h2
  intro ws hws
  obtain ⟨is, e⟩ : ∃ is : List Nat, ws = is.mapIdx fun j i => initialWeight is.length j (d i) := by
    unfold Drawn at h1
    clear h
    generalize s.net.layers.flatMap units = us at h1 hws
    induction h1 with
    | nil => cases hws
    | cons a _ ih =>
      rcases List.mem_cons.1 hws with rfl | hm
      · exact ⟨_, a⟩
      · exact ih hm
  subst e
  constructor
  · intro w hw
    obtain ⟨j, hj, rfl⟩ := List.mem_iff_getElem.1 hw
    simp only [List.length_mapIdx] at hj
    simp only [List.getElem_mapIdx, List.length_mapIdx]
    exact (initial_bound (by omega) (hd _).1 (hd _).2).1
  · intro w hw
    rw [List.getLast?_eq_getElem?] at hw
    obtain ⟨hj, rfl⟩ := List.getElem?_eq_some_iff.1 hw
    simp only [List.length_mapIdx] at hj
    simp only [List.getElem_mapIdx, List.length_mapIdx]
    exact (initial_bound (by omega) (hd _).1 (hd _).2).2 (by omega)

/-! ### The hypotheses are met -/

/-- Five kinds of layers over ℚ: a convolution, pooling, a GRU, a recurrence and a dense layer with dropout. -/
def arch : List (LayerModel ℚ) :=
  [.input [1, 4, 4], .convolution 2 2 .relu [], .maxPooling 2, .gru 1 [], .recurrence 2 .tanh [], .fullyConnected 2 .identity [.dropout (1/2)],
    .fullyConnected 1 .identity []]

/-- C81 on it: the constructor accepts the architecture. -/
example : ∃ s d', Snn.make arch Demo.sgd Demo.draws = .ok (s, d') ∧
    ∃ used k, Drawn Demo.draws (s.net.layers.flatMap units) used ∧ used.flatten.Pairwise (· < ·) ∧ (∀ i ∈ used.flatten, i < k) ∧
      ∀ i, d' i = Demo.draws (k + i) :=
  ⟨_, _, Res.eq_get _ (by decide +kernel), C81_draws arch Demo.sgd Demo.draws _ _ (Res.eq_get _ (by decide +kernel))⟩

example : (Snn.make arch Demo.sgd Demo.draws |>.get (by decide +kernel)).1.net.layers.map (fun l => (units l).map List.length)
    = [[5, 5], [], [10, 10, 10], [3, 3], [3, 3], [3]] := by decide +kernel

/-- A GRU, then a dense layer, over ℝ. -/
noncomputable def soft : List (LayerModel ℝ) := [.input [2], .gru 3 [], .fullyConnected 2 .sigmoid [.dropout (1/2), .l2 (1/10)]]

theorem soft_wf : WellFormed soft [2] [2] :=
  ⟨⟨_, _, rfl, .cons ⟨by simp, by simp, by simp⟩ (.gru (n := 3) (by omega)) (.cons ⟨by simp, by simp, by simp⟩ (.fullyConnected (n := 2) (by omega))
    (.nil ⟨by simp, by simp, by simp⟩))⟩, by simp [soft]⟩

/-- C81 over ℝ: the constructor accepts such a network (a GRU, then a dense layer), whose bounds are those of the theorem. -/
example : ∃ s d', Snn.make soft ({ learningRate := 1/10, momentum := 1/2 } : Sgd ℝ) (fun _ => 1/3) = .ok (s, d') ∧
    ∀ ws ∈ s.net.layers.flatMap units, ∀ w ∈ ws, |w| ≤ 12 / 5 / Real.sqrt ws.length := by
  obtain ⟨s, d', h⟩ := ArchProps.C49_accepted_if soft_wf (opt := { learningRate := 1/10, momentum := 1/2 }) (by norm_num)
    (by norm_num) (by norm_num) (by norm_num) (d := fun _ => 1/3) (by intro i; norm_num)
  exact ⟨s, d', h, fun ws hws => (C81_bounds _ _ _ _ _ h (fun _ => ⟨by norm_num, by norm_num⟩) ws hws).1⟩

end Snn.InitProps
