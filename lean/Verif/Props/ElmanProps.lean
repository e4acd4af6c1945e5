import Verif.Spec.ElmanSpec
import Verif.Props.FilterProps
import Verif.Props.RecurrentProps

/-!
# C75: a recurrent layer computes its recurrence

In exact arithmetic. The layer was built by the factory from its description and used in any way (`Used`).
-/

set_option linter.all false

namespace Snn.ElmanProps

open Finset Snn.Spec Snn.LayerProps Snn.NeuronSpec

section
variable {F : Type} [Field F] [LinearOrder F] [IsStrictOrderedRing F] [FTrans F]

/-- The neurons of a recurrent layer: their activation and bias. -/
structure RecLayer (l : Layer F) (ni N : Nat) (act : Act) (ns : List (RecNeuron F)) : Prop where
  body : l.body = .recurrence ns
  wf : ∀ n ∈ ns, n.WF ni 1
  length : ns.length = N
  act : ∀ n ∈ ns, n.base.activationFunction = act
  bias : ∀ n ∈ ns, n.base.bias = 1

theorem recLayer_step {l : Layer F} {ni N : Nat} {act : Act} {ns : List (RecNeuron F)} (h : RecLayer l ni N act ns) (x : List F) (hx : x.length = ni)
    (t : Bool) : ∃ ns', l.body.computeOutput x t = .ok (recurrentStep act.obj.function l.body.weights N (ns.map (·.lastOutput)) x, .recurrence ns') ∧
      RecLayer { l with body := .recurrence ns' } ni N act ns' ∧
      ns'.map (·.lastOutput) = recurrentStep act.obj.function l.body.weights N (ns.map (·.lastOutput)) x ∧
      (Body.recurrence ns').weights = l.body.weights := by
  obtain ⟨ns', a, b⟩ := runNeurons_value (f := fun n : RecNeuron F => n.output x t)
    (g := fun n => act.obj.function (affineRec n.base.weights x n.lastOutput 1))
    (P := fun n n' => n'.WF ni 1 ∧ n'.lastOutput = act.obj.function (affineRec n.base.weights x n.lastOutput 1) ∧ n'.base.weights = n.base.weights ∧
      n'.base.activationFunction = n.base.activationFunction ∧ n'.base.bias = n.base.bias) (ns := ns) (fun n hn => by
      obtain ⟨s, wr, wb, li, h1, h2, h3, h4, h5, h6⟩ := RecNeuron.output_ok (h.wf n hn) x hx t
      have hl : n.base.weights.length = ni + 2 := (h.wf n hn).wlen
      rw [affineRec_eq (by omega) (by rw [hx]; exact h1) (by rw [hx]; exact h2), h.bias n hn] at h3
      rw [h.act n hn, h3] at h5 h6
      exact ⟨_, h5, h6, rfl, rfl, rfl, rfl⟩)
  have hv : ns.map (fun n => act.obj.function (affineRec n.base.weights x n.lastOutput 1)) =
      recurrentStep act.obj.function l.body.weights N (ns.map (·.lastOutput)) x := by
    rw [h.body]
    unfold recurrentStep
    apply List.ext_getElem
    · simp [h.length]
    · intro i h1 h2
      simp only [List.length_map] at h1
      simp [affineRec, weight, Body.weights, Neuron.getWeights, h1]
  have hm : ∀ (as bs : List (RecNeuron F)), List.Forall₂ (fun n n' => n'.WF ni 1 ∧ n'.lastOutput = act.obj.function (affineRec n.base.weights x n.lastOutput 1) ∧ n'.base.weights = n.base.weights ∧
      n'.base.activationFunction = n.base.activationFunction ∧ n'.base.bias = n.base.bias) as bs →
      bs.map (·.lastOutput) = as.map (fun n => act.obj.function (affineRec n.base.weights x n.lastOutput 1)) ∧
      (bs.map fun n => n.base.getWeights) = as.map fun n => n.base.getWeights := by
    intro as bs hab
    induction hab with
    | nil => exact ⟨rfl, rfl⟩
    | cons h1 _ ih =>
      obtain ⟨i1, i2⟩ := ih
      refine ⟨by simp only [List.map_cons, h1.2.1, i1], ?_⟩
      rw [List.map_cons, List.map_cons, i2]
      congr 1
      exact h1.2.2.1
  obtain ⟨m1, m2⟩ := hm _ _ b
  refine ⟨ns', ?_, ⟨rfl, ?_, ?_, ?_, ?_⟩, by rw [m1, hv], ?_⟩
  · rw [← hv, h.body]
    simp only [Body.computeOutput, a, Res.ok_bind]
    rfl
  · intro n hn
    obtain ⟨n0, hn0, hk⟩ := forall₂_mem_right b n hn
    exact hk.1
  · rw [← b.length_eq]; exact h.length
  · intro n hn
    obtain ⟨n0, hn0, hk⟩ := forall₂_mem_right b n hn
    rw [hk.2.2.2.1]; exact h.act n0 hn0
  · intro n hn
    obtain ⟨n0, hn0, hk⟩ := forall₂_mem_right b n hn
    rw [hk.2.2.2.2]; exact h.bias n0 hn0
  · rw [h.body]; exact m2

theorem recLayer_run : ∀ (xs : List (List F × Bool)) {l : Layer F} {ni N : Nat} {act : Act} {ns : List (RecNeuron F)}, RecLayer l ni N act ns →
    (∀ x ∈ xs, x.1.length = ni) → l.optimizers = [] →
    ∃ l', outputs l xs = .ok (recurrentRun act.obj.function l.body.weights N (ns.map (·.lastOutput)) (xs.map (·.1)), l')
  | [], l, ni, N, act, ns, _, _, _ => ⟨l, rfl⟩
  | (x, t) :: xs, l, ni, N, act, ns, h, hx, ho => by
    obtain ⟨ns', h1, h2, h3, h4⟩ := recLayer_step h x (hx (x, t) (by simp)) t
    obtain ⟨l', h5⟩ := recLayer_run xs h2 (fun y hy => hx y (by simp [hy])) ho
    have e : l.output x t = .ok (recurrentStep act.obj.function l.body.weights N (ns.map (·.lastOutput)) x, { l with body := .recurrence ns' }) := by
      simp only [Layer.output, h1, Res.ok_bind, ho, testingHooks]
      rfl
    refine ⟨l', ?_⟩
    simp only [outputs, e, h5, Res.ok_bind, List.map_cons, recurrentRun, h3, h4]
    rfl

theorem recLayer_built {opt : Sgd F} {N : Nat} {act : Act} {opts : List (LayerOptModel F)} {d d' : Draws F} {shape : List Int}
    {l0 : Layer F} {ni : Nat} (hni : shape.prod = (ni : Int)) (hN : 0 < N)
    (hb : buildLayer opt (.recurrence (N : Int) act opts) shape d = .ok (l0, d')) :
    l0.WF ni N ∧ (∃ ns, RecLayer l0 ni N act ns ∧ ns.map (·.lastOutput) = List.replicate N 0) ∧ (opts = [] → l0.optimizers = []) := by
  unfold buildLayer at hb
  obtain ⟨n, h1, hb⟩ := Res.bind_eq_ok.1 hb
  rw [computeNumberOfInputs_inv h1, hni] at hb
  split at hb
  · cases hb
  split at hb
  · cases hb
  simp only at hb
  obtain ⟨k1, ns0, k2, k3, k4, d1, k5⟩ := buildSimple_inv (P := fun n : RecNeuron F => n.WF ni 1 ∧ n.base.bias = lit 1 ∧ n.base.activationFunction = act ∧ n.lastOutput = lit 0)
    (fun d n h => by
      obtain ⟨a1, _, a2, a3, _, a4, _⟩ := RecNeuron.make_wf h (by simp) rfl
      exact ⟨a1, a2, a3, a4⟩) hb
  have hl0 : ns0.length = N := by omega
  refine ⟨⟨k1, by rw [k2]; exact ⟨fun n hn => (k4 n hn).1, hl0⟩, hN⟩, ⟨ns0, ⟨k2, fun n hn => (k4 n hn).1, hl0, fun n hn => (k4 n hn).2.2.1, ?_⟩, ?_⟩, ?_⟩
  · intro n hn
    rw [(k4 n hn).2.1]; simp
  · rw [← hl0, List.eq_replicate_iff]
    refine ⟨by simp, ?_⟩
    intro y hy
    obtain ⟨n, hn, rfl⟩ := List.mem_map.1 hy
    rw [(k4 n hn).2.2.2]; simp
  · intro he; subst he; rw [k5]; rfl

theorem recLayer_used {l0 l : Layer F} {ni N : Nat} {act : Act} {ns0 : List (RecNeuron F)} (hwf : l0.WF ni N) (h0 : RecLayer l0 ni N act ns0)
    (hu : Used ni N l0 l) : ∃ ns, RecLayer l ni N act ns := by
  obtain ⟨⟨_, hw, _⟩, hk⟩ := used_wf hu hwf
  rw [h0.body] at hk
  cases hbody : l.body with
  | recurrence ns =>
    rw [hbody] at hk hw
    simp only [Body.Kin] at hk
    obtain ⟨hw1, hw2⟩ := hw
    refine ⟨ns, hbody, hw1, hw2, ?_, ?_⟩
    · intro n hn
      obtain ⟨n0, hn0, hkin⟩ := forall₂_mem_right hk n hn
      rw [hkin.activation]; exact h0.act n0 hn0
    · intro n hn
      obtain ⟨n0, hn0, hkin⟩ := forall₂_mem_right hk n hn
      rw [hkin.bias]; exact h0.bias n0 hn0
  | fullyConnected ns => rw [hbody] at hk; exact hk.elim
  | gru ns => rw [hbody] at hk; exact hk.elim
  | filter k ns info => rw [hbody] at hk; exact hk.elim
  | pool a b c d => rw [hbody] at hk; exact hk.elim

/-- **C75**, a new recurrent layer: on every sequence of inputs, of any length, its outputs are those of the recurrence started from 0,
with the weights of the layer. (Whatever the flags of temporal reset: see C28.) -/
theorem C75_new {opt : Sgd F} {N : Nat} {act : Act} {d d' : Draws F} {shape : List Int} {l0 : Layer F} {ni : Nat}
    (hni : shape.prod = (ni : Int)) (hN : 0 < N) (hb : buildLayer opt (.recurrence (N : Int) act []) shape d = .ok (l0, d'))
    (xs : List (List F × Bool)) (hx : ∀ x ∈ xs, x.1.length = ni) :
    ∃ l', outputs l0 xs = .ok (recurrentRun act.obj.function l0.body.weights N (List.replicate N 0) (xs.map (·.1)), l') := by
  obtain ⟨hwf, ⟨ns, h1, h2⟩, h3⟩ := recLayer_built hni hN hb
  obtain ⟨l', h⟩ := recLayer_run xs h1 hx (h3 rfl)
  exact ⟨l', by rw [h, h2]⟩

/-- **C75**, a recurrent layer that was used in any way, trained included: once it has answered `y`, its outputs on every further
sequence are those of the recurrence started from `y`, with its current weights. -/
theorem C75_continued {opt : Sgd F} {N : Nat} {act : Act} {d d' : Draws F} {shape : List Int} {l0 l l1 : Layer F} {ni : Nat}
    (hni : shape.prod = (ni : Int)) (hN : 0 < N) (hb : buildLayer opt (.recurrence (N : Int) act []) shape d = .ok (l0, d'))
    (hu : Used ni N l0 l) (x y : List F) (t : Bool) (hx : x.length = ni) (ho : l.output x t = .ok (y, l1))
    (xs : List (List F × Bool)) (hxs : ∀ x ∈ xs, x.1.length = ni) :
    l1.body.weights = l.body.weights ∧
    ∃ l', outputs l1 xs = .ok (recurrentRun act.obj.function l.body.weights N y (xs.map (·.1)), l') := by
  obtain ⟨hwf, ⟨ns0, h1, h2⟩, h3⟩ := recLayer_built hni hN hb
  have hopt : l.optimizers = [] := used_noOptimizers hu (h3 rfl)
  obtain ⟨ns, hr⟩ := recLayer_used hwf h1 hu
  obtain ⟨ns', g1, g2, g3, g4⟩ := recLayer_step hr x hx t
  have e : l.output x t = .ok (recurrentStep act.obj.function l.body.weights N (ns.map (·.lastOutput)) x, { l with body := .recurrence ns' }) := by
    simp only [Layer.output, g1, Res.ok_bind, hopt, testingHooks]
    rfl
  rw [e] at ho
  have ho' := Res.ok.inj ho
  rw [Prod.mk.injEq] at ho'
  obtain ⟨e1, e2⟩ := ho'
  obtain ⟨l', h⟩ := recLayer_run xs g2 hxs hopt
  rw [g3, e1] at h
  rw [← e2]
  refine ⟨g4, l', ?_⟩
  rw [h]
  simp only [g4]

end

/-! ### The hypotheses are met -/

/-- A recurrent layer with two neurons on three inputs. -/
def someLayer : Layer ℚ × Draws ℚ :=
  Res.get (buildLayer Demo.sgd (.recurrence 2 .identity []) [3] Demo.draws) (by decide +kernel)

theorem someLayer_eq : buildLayer Demo.sgd (.recurrence ((2 : Nat) : Int) .identity []) [3] Demo.draws = .ok (someLayer.1, someLayer.2) :=
  Res.eq_get _ (by decide +kernel)

example : ∃ l', outputs someLayer.1 [([1, 2, 3], true), ([1, 0, 1], false)] = .ok
    (recurrentRun Act.identity.obj.function someLayer.1.body.weights 2 [0, 0] [[1, 2, 3], [1, 0, 1]], l') :=
  C75_new (ni := 3) (by decide) (by decide) someLayer_eq [([1, 2, 3], true), ([1, 0, 1], false)] (by decide)

example : ∃ y l1, someLayer.1.output [1, 2, 3] true = .ok (y, l1) ∧ y ≠ [0, 0] ∧ ∃ l', outputs l1 [([1, 0, 1], false), ([0, 0, 1], true)] = .ok
      (recurrentRun Act.identity.obj.function someLayer.1.body.weights 2 y [[1, 0, 1], [0, 0, 1]], l') := by
  have h := Res.eq_get (someLayer.1.output [1, 2, 3] true) (by decide +kernel)
  exact ⟨_, _, h, by decide +kernel, (C75_continued (ni := 3) (by decide) (by decide) someLayer_eq .new _ _ _ rfl h [([1, 0, 1], false), ([0, 0, 1], true)] (by decide)).2⟩

end Snn.ElmanProps
