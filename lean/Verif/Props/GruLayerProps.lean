import Verif.Props.ElmanProps
import Verif.Props.GruProps
import Verif.Proofs.KeptBody

/-!
# C48 (layer): what a gated recurrent layer computes
-/

set_option linter.all false

namespace Snn.GruLayerProps

open Finset Snn.Spec Snn.LayerProps Snn.NeuronSpec

section
variable {F : Type} [Flt F] [FTrans F] [Add F] [Sub F] [Mul F] [Div F] [Neg F]

/-- The three gates see the same previous output. -/
def SameLast (g : Gru F) : Prop := g.updateGate.lastOutput = g.resetGate.lastOutput ∧ g.outputGate.lastOutput = g.resetGate.lastOutput

theorem updateRec_last {o : Sgd F} {n n' : RecNeuron F} {e : F} (h : o.updateRec n e = .ok n') : n'.lastOutput = n.lastOutput := by
  unfold Sgd.updateRec at h
  obtain ⟨⟨_, _⟩, _, h⟩ := Res.bind_eq_ok.1 h
  obtain ⟨⟨_, _⟩, _, h⟩ := Res.bind_eq_ok.1 h
  obtain ⟨⟨_, _⟩, _, h⟩ := Res.bind_eq_ok.1 h
  obtain ⟨_, _, h⟩ := Res.bind_eq_ok.1 h
  obtain ⟨_, _, h⟩ := Res.bind_eq_ok.1 h
  obtain ⟨_, _, h⟩ := Res.bind_eq_ok.1 h
  obtain ⟨_, _, h⟩ := Res.bind_eq_ok.1 h
  cases h
  rfl

theorem backOutput_last {n n' : RecNeuron F} {e : F} {es : List F} (h : n.backOutput e = .ok (es, n')) : n'.lastOutput = n.lastOutput := by
  unfold RecNeuron.backOutput at h
  obtain ⟨_, _, h⟩ := Res.bind_eq_ok.1 h
  obtain ⟨_, _, h⟩ := Res.bind_eq_ok.1 h
  obtain ⟨n1, h1, h⟩ := Res.bind_eq_ok.1 h
  cases h
  have := updateRec_last h1
  exact this

theorem sameLast_kept : KeptBody (F := F) (Body.GruAll SameLast) := by
  refine gruAll_keptBody ?_ ?_ ?_
  · intro g g' x t o hg h
    unfold Gru.output at h
    obtain ⟨⟨_, _⟩, _, h⟩ := Res.bind_eq_ok.1 h
    obtain ⟨⟨_, _⟩, _, h⟩ := Res.bind_eq_ok.1 h
    obtain ⟨⟨_, _⟩, _, h⟩ := Res.bind_eq_ok.1 h
    cases h
    exact ⟨rfl, rfl⟩
  · intro g g' e r hg h
    unfold Gru.backOutput at h
    obtain ⟨⟨_, _⟩, h1, h⟩ := Res.bind_eq_ok.1 h
    obtain ⟨⟨_, _⟩, h2, h⟩ := Res.bind_eq_ok.1 h
    obtain ⟨_, _, h⟩ := Res.bind_eq_ok.1 h
    obtain ⟨⟨_, _⟩, h3, h⟩ := Res.bind_eq_ok.1 h
    cases h
    exact ⟨(backOutput_last h2).trans (hg.1.trans (backOutput_last h3).symm), (backOutput_last h1).trans (hg.2.trans (backOutput_last h3).symm)⟩
  · intro g g' e hg h
    unfold Gru.train at h
    obtain ⟨⟨_, _⟩, h1, h⟩ := Res.bind_eq_ok.1 h
    obtain ⟨⟨_, _⟩, h2, h⟩ := Res.bind_eq_ok.1 h
    obtain ⟨_, _, h⟩ := Res.bind_eq_ok.1 h
    obtain ⟨⟨_, _⟩, h3, h⟩ := Res.bind_eq_ok.1 h
    cases h
    exact ⟨(backOutput_last h2).trans (hg.1.trans (backOutput_last h3).symm), (backOutput_last h1).trans (hg.2.trans (backOutput_last h3).symm)⟩

theorem used_kept {P : Body F → Prop} (k : KeptBody P) {ni no : Nat} {l0 l : Layer F} (h : Used ni no l0 l) (h0 : P l0.body) : P l.body := by
  induction h with
  | new => exact h0
  | output h hx ho ih =>
    unfold Layer.output at ho
    obtain ⟨⟨_, _⟩, h3, h1⟩ := Res.bind_eq_ok.1 ho
    obtain ⟨_, _, h1⟩ := Res.bind_eq_ok.1 h1
    cases h1
    exact k.out ih h3
  | outputForTraining h hx ho ih =>
    unfold Layer.outputForTraining at ho
    obtain ⟨⟨_, _⟩, h3, h1⟩ := Res.bind_eq_ok.1 ho
    obtain ⟨⟨_, _, _⟩, _, h1⟩ := Res.bind_eq_ok.1 h1
    cases h1
    exact k.out ih h3
  | backOutput h he ho ih =>
    unfold Layer.backOutput at ho
    obtain ⟨⟨_, _⟩, h3, h1⟩ := Res.bind_eq_ok.1 ho
    cases h1
    exact k.back ih h3
  | train h he ho ih =>
    unfold Layer.train at ho
    obtain ⟨_, h3, h1⟩ := Res.bind_eq_ok.1 ho
    cases h1
    exact k.train ih h3

end

section
variable {F : Type} [Field F] [LinearOrder F] [IsStrictOrderedRing F] [FTrans F]

/-- The units of a gated recurrent layer. -/
structure GruLayer (l : Layer F) (ni N : Nat) (ns : List (Gru F)) : Prop where
  body : l.body = .gru ns
  wf : ∀ g ∈ ns, g.WF ni 1
  length : ns.length = N
  acts : ∀ g ∈ ns, GruActs g
  biasR : ∀ g ∈ ns, g.resetGate.base.bias = 1
  biasU : ∀ g ∈ ns, g.updateGate.base.bias = 1
  biasO : ∀ g ∈ ns, g.outputGate.base.bias = 1
  zero : ∀ g ∈ ns, g.previousOutput = 0
  last : ∀ g ∈ ns, SameLast g

/-- What one unit computes. -/
def unitValue (g : Gru F) (x : List F) : F :=
  ActObj.Sigmoid.function (affineRec g.updateGate.base.weights x g.resetGate.lastOutput 1) *
    ActObj.Tanh.function (affineRec g.outputGate.base.weights x
      (g.resetGate.lastOutput * ActObj.Sigmoid.function (affineRec g.resetGate.base.weights x g.resetGate.lastOutput 1)) 1)

theorem affineRec_gate0 {w0 w1 w2 x : List F} {h : F} (l0 : w0.length = x.length + 2) :
    gate (w0 ++ w1 ++ w2) 0 x h = affineRec w0 x h 1 := by
  unfold gate affineRec
  have e : ∀ i, i < x.length + 2 → (w0 ++ w1 ++ w2).getD i 0 = w0.getD i 0 := by
    intro i hi
    rw [List.append_assoc, List.getD_append _ _ _ _ (by omega)]
  simp only [Nat.zero_mul, Nat.zero_add, mul_one]
  rw [e _ (by omega), e _ (by omega)]
  congr 2
  exact Finset.sum_congr rfl fun i hi => by rw [e i (by have := mem_range.1 hi; omega)]

theorem affineRec_gate1 {w0 w1 w2 x : List F} {h : F} (l0 : w0.length = x.length + 2) (l1 : w1.length = x.length + 2) :
    gate (w0 ++ w1 ++ w2) 1 x h = affineRec w1 x h 1 := by
  unfold gate affineRec
  have e : ∀ i, i < x.length + 2 → (w0 ++ w1 ++ w2).getD (1 * (x.length + 2) + i) 0 = w1.getD i 0 := by
    intro i hi
    rw [List.append_assoc, List.getD_append_right _ _ _ _ (by omega), List.getD_append _ _ _ _ (by omega)]
    congr 1; omega
  simp only [mul_one]
  rw [e _ (by omega), Nat.add_assoc (1 * (x.length + 2)), e _ (by omega)]
  congr 2
  exact Finset.sum_congr rfl fun i hi => by rw [e i (by have := mem_range.1 hi; omega)]

theorem affineRec_gate2 {w0 w1 w2 x : List F} {h : F} (l0 : w0.length = x.length + 2) (l1 : w1.length = x.length + 2) :
    gate (w0 ++ w1 ++ w2) 2 x h = affineRec w2 x h 1 := by
  unfold gate affineRec
  have e : ∀ i, (w0 ++ w1 ++ w2).getD (2 * (x.length + 2) + i) 0 = w2.getD i 0 := by
    intro i
    rw [List.getD_append_right _ _ _ _ (by simp; omega)]
    congr 1; simp; omega
  simp only [mul_one]
  rw [e _, Nat.add_assoc (2 * (x.length + 2)), e _]
  congr 2
  exact Finset.sum_congr rfl fun i hi => by rw [e i]

theorem gruLayer_step {l : Layer F} {ni N : Nat} {ns : List (Gru F)} (h : GruLayer l ni N ns) (x : List F) (hx : x.length = ni) (t : Bool) :
    ∃ ns', l.body.computeOutput x t = .ok (gatedStep ActObj.Sigmoid.function ActObj.Tanh.function (fun _ => 0) l.body.weights N
        (ns.map (·.resetGate.lastOutput)) x, .gru ns') ∧
      GruLayer { l with body := .gru ns' } ni N ns' ∧
      ns'.map (·.resetGate.lastOutput) = gatedStep ActObj.Sigmoid.function ActObj.Tanh.function (fun _ => 0) l.body.weights N
        (ns.map (·.resetGate.lastOutput)) x ∧
      (Body.gru ns').weights = l.body.weights := by
  let P : Gru F → Gru F → Prop := fun g g' => g'.WF ni 1 ∧ GruActs g' ∧ g'.previousOutput = 0 ∧ SameLast g' ∧ g'.resetGate.lastOutput = unitValue g x ∧
    g'.getWeights = g.getWeights ∧ g.Kin g'
  obtain ⟨ns', a, b⟩ := runNeurons_value (f := fun g : Gru F => g.output x t) (g := fun g => unitValue g x) (P := P) (ns := ns) (fun g hg => by
    obtain ⟨rs, zs, cs, wr, wb, vr, vb, ur, ub, g', a1, a2, a3, b1, b2, b3, c1, c2, c3, ho, w, ha, hp, k1, k2, k3, m1, m2, m3⟩ :=
      gru_output_eq (h.wf g hg) (h.acts g hg) x hx t
    have l1 : g.resetGate.base.weights.length = ni + 2 := (h.wf g hg).r.wlen
    have l2 : g.updateGate.base.weights.length = ni + 2 := (h.wf g hg).u.wlen
    have l3 : g.outputGate.base.weights.length = ni + 2 := (h.wf g hg).o.wlen
    rw [affineRec_eq (by omega) (by rw [hx]; exact a1) (by rw [hx]; exact a2), h.biasR g hg] at a3
    rw [affineRec_eq (by omega) (by rw [hx]; exact b1) (by rw [hx]; exact b2), h.biasU g hg, (h.last g hg).1] at b3
    rw [affineRec_eq (by omega) (by rw [hx]; exact c1) (by rw [hx]; exact c2), h.biasO g hg, (h.last g hg).2, a3] at c3
    have hz : (if t then (lit 0 : F) else g.previousOutput) = 0 := by rw [h.zero g hg]; cases t <;> simp
    rw [hz, b3, c3, mul_zero, zero_add] at ho m1
    rw [hz] at hp
    refine ⟨g', ho, w, ha, hp, ⟨m2, m3⟩, m1, ?_, by
      have hs := Gru.output_same ho
      exact ⟨hs.1, Neuron.Same.kin hs.3, Neuron.Same.kin hs.4, Neuron.Same.kin hs.5⟩⟩
    simp only [Gru.getWeights, k1, k2, k3])
  have hv : ns.map (fun g => unitValue g x) = gatedStep ActObj.Sigmoid.function ActObj.Tanh.function (fun _ => 0) l.body.weights N
        (ns.map (·.resetGate.lastOutput)) x := by
    rw [h.body]
    unfold gatedStep
    apply List.ext_getElem
    · simp [h.length]
    · intro i h1 h2
      simp only [List.length_map] at h1
      have hg : ns[i] ∈ ns := List.getElem_mem h1
      have l1 : ns[i].resetGate.base.weights.length = x.length + 2 := by rw [hx]; exact (h.wf _ hg).r.wlen
      have l2 : ns[i].updateGate.base.weights.length = x.length + 2 := by rw [hx]; exact (h.wf _ hg).u.wlen
      have ew : ((Body.gru ns).weights.getD i []) = ns[i].resetGate.base.weights ++ ns[i].updateGate.base.weights ++ ns[i].outputGate.base.weights := by
        simp [Body.weights, h1, Gru.getWeights]
      have el : (ns.map (·.resetGate.lastOutput)).getD i 0 = ns[i].resetGate.lastOutput := by simp [h1]
      simp only [List.getElem_map, List.getElem_range, ew, el]
      rw [affineRec_gate0 l1, affineRec_gate1 l1 l2, affineRec_gate2 l1 l2]
      simp [unitValue]
  have hm : ∀ (as bs : List (Gru F)), List.Forall₂ P as bs →
      bs.map (·.resetGate.lastOutput) = as.map (fun g => unitValue g x) ∧ (bs.map fun n => n.getWeights) = as.map fun n => n.getWeights := by
    intro as bs hab
    induction hab with
    | nil => exact ⟨rfl, rfl⟩
    | cons h1 _ ih =>
      obtain ⟨i1, i2⟩ := ih
      refine ⟨?_, ?_⟩
      · rw [List.map_cons, List.map_cons, i1]
        congr 1
        exact h1.2.2.2.2.1
      · rw [List.map_cons, List.map_cons, i2]
        congr 1
        exact h1.2.2.2.2.2.1
  obtain ⟨m1, m2⟩ := hm _ _ b
  refine ⟨ns', ?_, ⟨rfl, ?_, ?_, ?_, ?_, ?_, ?_, ?_, ?_⟩, by rw [m1, hv], ?_⟩
  · rw [← hv, h.body]
    simp only [Body.computeOutput, a, Res.ok_bind]
    rfl
  · intro n hn
    obtain ⟨n0, hn0, hk⟩ := forall₂_mem_right b n hn
    exact hk.1
  · rw [← b.length_eq]; exact h.length
  · intro n hn
    obtain ⟨n0, hn0, hk⟩ := forall₂_mem_right b n hn
    exact hk.2.1
  · intro n hn
    obtain ⟨n0, hn0, hk⟩ := forall₂_mem_right b n hn
    rw [hk.2.2.2.2.2.2.r.bias]; exact h.biasR n0 hn0
  · intro n hn
    obtain ⟨n0, hn0, hk⟩ := forall₂_mem_right b n hn
    rw [hk.2.2.2.2.2.2.u.bias]; exact h.biasU n0 hn0
  · intro n hn
    obtain ⟨n0, hn0, hk⟩ := forall₂_mem_right b n hn
    rw [hk.2.2.2.2.2.2.o.bias]; exact h.biasO n0 hn0
  · intro n hn
    obtain ⟨n0, hn0, hk⟩ := forall₂_mem_right b n hn
    exact hk.2.2.1
  · intro n hn
    obtain ⟨n0, hn0, hk⟩ := forall₂_mem_right b n hn
    exact hk.2.2.2.1
  · rw [h.body]; exact m2

theorem gruLayer_run : ∀ (xs : List (List F × Bool)) {l : Layer F} {ni N : Nat} {ns : List (Gru F)}, GruLayer l ni N ns →
    (∀ x ∈ xs, x.1.length = ni) → l.optimizers = [] →
    ∃ l', outputs l xs = .ok (gatedRun ActObj.Sigmoid.function ActObj.Tanh.function (fun _ => 0) l.body.weights N
      (ns.map (·.resetGate.lastOutput)) (xs.map (·.1)), l')
  | [], l, ni, N, ns, _, _, _ => ⟨l, rfl⟩
  | (x, t) :: xs, l, ni, N, ns, h, hx, ho => by
    obtain ⟨ns', h1, h2, h3, h4⟩ := gruLayer_step h x (hx (x, t) (by simp)) t
    obtain ⟨l', h5⟩ := gruLayer_run xs h2 (fun y hy => hx y (by simp [hy])) ho
    have e : l.output x t = .ok (gatedStep ActObj.Sigmoid.function ActObj.Tanh.function (fun _ => 0) l.body.weights N
        (ns.map (·.resetGate.lastOutput)) x, { l with body := .gru ns' }) := by
      simp only [Layer.output, h1, Res.ok_bind, ho, testingHooks]
      rfl
    refine ⟨l', ?_⟩
    simp only [outputs, e, h5, Res.ok_bind, List.map_cons, gatedRun, h3, h4]
    rfl

theorem gruLayer_built {opt : Sgd F} {N : Nat} {opts : List (LayerOptModel F)} {d d' : Draws F} {shape : List Int}
    {l0 : Layer F} {ni : Nat} (hni : shape.prod = (ni : Int)) (hp : 0 < ni) (hN : 0 < N)
    (hb : buildLayer opt (.gru (N : Int) opts) shape d = .ok (l0, d')) :
    l0.WF ni N ∧ (∃ ns, GruLayer l0 ni N ns ∧ ns.map (·.resetGate.lastOutput) = List.replicate N 0) ∧ (opts = [] → l0.optimizers = []) := by
  unfold buildLayer at hb
  obtain ⟨n, h1, hb⟩ := Res.bind_eq_ok.1 hb
  rw [computeNumberOfInputs_inv h1, hni] at hb
  split at hb
  · cases hb
  split at hb
  · cases hb
  simp only at hb
  obtain ⟨k1, ns0, k2, k3, k4, d1, k5⟩ := buildSimple_inv (P := fun g : Gru F => g.WF ni 1 ∧ GruActs g ∧ g.resetGate.base.bias = lit 1 ∧
      g.updateGate.base.bias = lit 1 ∧ g.outputGate.base.bias = lit 1 ∧ g.previousOutput = lit 0 ∧ g.resetGate.lastOutput = lit 0 ∧
      g.updateGate.lastOutput = lit 0 ∧ g.outputGate.lastOutput = lit 0)
    (fun d n h => by
      obtain ⟨a1, _, a2, a3, a4, a5⟩ := Gru.make_wf h (by simp) rfl
      obtain ⟨r, hr, h⟩ := Res.bind_eq_ok.1 h
      obtain ⟨u, hu, h⟩ := Res.bind_eq_ok.1 h
      obtain ⟨o', ho, h⟩ := Res.bind_eq_ok.1 h
      cases h
      obtain ⟨_, _, b2, _, _, b4, _⟩ := RecNeuron.make_wf hr (by simp) rfl
      obtain ⟨_, _, c2, _, _, c4, _⟩ := RecNeuron.make_wf hu (by simp) rfl
      obtain ⟨_, _, e2, _, _, e4, _⟩ := RecNeuron.make_wf ho (by simp) rfl
      exact ⟨a1, ⟨a2, a3, a4⟩, b2, c2, e2, a5, b4, c4, e4⟩) hb
  have hl0 : ns0.length = N := by omega
  refine ⟨⟨k1, by rw [k2]; exact ⟨fun n hn => (k4 n hn).1, hl0, hp⟩, hN⟩, ⟨ns0, ⟨k2, fun n hn => (k4 n hn).1, hl0, fun n hn => (k4 n hn).2.1, ?_, ?_, ?_, ?_, ?_⟩, ?_⟩, ?_⟩
  · intro n hn
    rw [(k4 n hn).2.2.1]; simp
  · intro n hn
    rw [(k4 n hn).2.2.2.1]; simp
  · intro n hn
    rw [(k4 n hn).2.2.2.2.1]; simp
  · intro n hn
    rw [(k4 n hn).2.2.2.2.2.1]; simp
  · intro n hn
    obtain ⟨e1, e2, e3⟩ := (k4 n hn).2.2.2.2.2.2
    exact ⟨e2.trans e1.symm, e3.trans e1.symm⟩
  · rw [← hl0, List.eq_replicate_iff]
    refine ⟨by simp, ?_⟩
    intro y hy
    obtain ⟨n, hn, rfl⟩ := List.mem_map.1 hy
    rw [(k4 n hn).2.2.2.2.2.2.1]; simp
  · intro he; subst he; rw [k5]; rfl

theorem gruLayer_used {l0 l : Layer F} {ni N : Nat} {ns0 : List (Gru F)} (hwf : l0.WF ni N) (h0 : GruLayer l0 ni N ns0)
    (hu : Used ni N l0 l) : ∃ ns, GruLayer l ni N ns := by
  obtain ⟨⟨_, hw, _⟩, hk⟩ := used_wf hu hwf
  have hz := used_kept (gruZero_kept (F := F)) hu (by rw [h0.body]; exact fun g hg => (h0.zero g hg).trans (by simp))
  have hs := used_kept (sameLast_kept (F := F)) hu (by rw [h0.body]; exact h0.last)
  rw [h0.body] at hk
  cases hbody : l.body with
  | gru ns =>
    rw [hbody] at hk hw hz hs
    simp only [Body.Kin] at hk
    obtain ⟨hw1, hw2, _⟩ := hw
    refine ⟨ns, hbody, hw1, hw2, ?_, ?_, ?_, ?_, fun g hg => (hz g hg).trans (by simp), hs⟩
    · intro n hn
      obtain ⟨n0, hn0, hkin⟩ := forall₂_mem_right hk n hn
      have := h0.acts n0 hn0
      exact ⟨hkin.r.activation.trans this.r, hkin.u.activation.trans this.u, hkin.o.activation.trans this.o⟩
    · intro n hn
      obtain ⟨n0, hn0, hkin⟩ := forall₂_mem_right hk n hn
      rw [hkin.r.bias]; exact h0.biasR n0 hn0
    · intro n hn
      obtain ⟨n0, hn0, hkin⟩ := forall₂_mem_right hk n hn
      rw [hkin.u.bias]; exact h0.biasU n0 hn0
    · intro n hn
      obtain ⟨n0, hn0, hkin⟩ := forall₂_mem_right hk n hn
      rw [hkin.o.bias]; exact h0.biasO n0 hn0
  | fullyConnected ns => rw [hbody] at hk; exact hk.elim
  | recurrence ns => rw [hbody] at hk; exact hk.elim
  | filter k ns info => rw [hbody] at hk; exact hk.elim
  | pool a b c d => rw [hbody] at hk; exact hk.elim

/-- **C48** (layer): a new gated layer computes, on every sequence of inputs, the gated recurrence of its weights started from 0, except
that the blend keeps nothing (`keep = 0`) of the previous output. Missing: `keep(h) = h`. -/
theorem C48_layer_new_partial {opt : Sgd F} {N : Nat} {d d' : Draws F} {shape : List Int} {l0 : Layer F} {ni : Nat}
    (hni : shape.prod = (ni : Int)) (hp : 0 < ni) (hN : 0 < N) (hb : buildLayer opt (.gru (N : Int) []) shape d = .ok (l0, d'))
    (xs : List (List F × Bool)) (hx : ∀ x ∈ xs, x.1.length = ni) :
    ∃ l', outputs l0 xs = .ok (gatedRun ActObj.Sigmoid.function ActObj.Tanh.function (fun _ => 0) l0.body.weights N (List.replicate N 0)
      (xs.map (·.1)), l') := by
  obtain ⟨hwf, ⟨ns, h1, h2⟩, h3⟩ := gruLayer_built hni hp hN hb
  obtain ⟨l', h⟩ := gruLayer_run xs h1 hx (h3 rfl)
  exact ⟨l', by rw [h, h2]⟩

/-- **C48** (layer): a gated layer that was used in any way, trained included: once it has answered `y`, its outputs on every further
sequence are those of the recurrence started from `y`, with its current weights. Missing: `keep(h) = h`. -/
theorem C48_layer_continued_partial {opt : Sgd F} {N : Nat} {d d' : Draws F} {shape : List Int} {l0 l l1 : Layer F} {ni : Nat}
    (hni : shape.prod = (ni : Int)) (hp : 0 < ni) (hN : 0 < N) (hb : buildLayer opt (.gru (N : Int) []) shape d = .ok (l0, d'))
    (hu : Used ni N l0 l) (x y : List F) (t : Bool) (hx : x.length = ni) (ho : l.output x t = .ok (y, l1))
    (xs : List (List F × Bool)) (hxs : ∀ x ∈ xs, x.1.length = ni) :
    l1.body.weights = l.body.weights ∧
    ∃ l', outputs l1 xs = .ok (gatedRun ActObj.Sigmoid.function ActObj.Tanh.function (fun _ => 0) l.body.weights N y (xs.map (·.1)), l') := by
  obtain ⟨hwf, ⟨ns0, h1, h2⟩, h3⟩ := gruLayer_built hni hp hN hb
  have hopt : l.optimizers = [] := used_noOptimizers hu (h3 rfl)
  obtain ⟨ns, hr⟩ := gruLayer_used hwf h1 hu
  obtain ⟨ns', g1, g2, g3, g4⟩ := gruLayer_step hr x hx t
  have e : l.output x t = .ok (gatedStep ActObj.Sigmoid.function ActObj.Tanh.function (fun _ => 0) l.body.weights N
      (ns.map (·.resetGate.lastOutput)) x, { l with body := .gru ns' }) := by
    simp only [Layer.output, g1, Res.ok_bind, hopt, testingHooks]
    rfl
  rw [e] at ho
  have ho' := Res.ok.inj ho
  rw [Prod.mk.injEq] at ho'
  obtain ⟨e1, e2⟩ := ho'
  obtain ⟨l', h⟩ := gruLayer_run xs g2 hxs hopt
  rw [g3, e1] at h
  rw [← e2]
  refine ⟨g4, l', ?_⟩
  rw [h]
  simp only [g4]

end

/-! ### The hypotheses are met -/

def someGru : Layer ℚ × Draws ℚ :=
  Res.get (buildLayer Demo.sgd (.gru 2 []) [3] Demo.draws) (by decide +kernel)

theorem someGru_eq : buildLayer Demo.sgd (.gru ((2 : Nat) : Int) []) [3] Demo.draws = .ok (someGru.1, someGru.2) :=
  Res.eq_get _ (by decide +kernel)

example : ∃ y l1, someGru.1.output [1, 2, 3] true = .ok (y, l1) ∧ y ≠ [0, 0] ∧ ∃ l', outputs l1 [([1, 0, 1], false), ([0, 0, 1], true)] = .ok
      (gatedRun ActObj.Sigmoid.function ActObj.Tanh.function (fun _ => 0) someGru.1.body.weights 2 y [[1, 0, 1], [0, 0, 1]], l') := by
  have h := Res.eq_get (someGru.1.output [1, 2, 3] true) (by decide +kernel)
  exact ⟨_, _, h, by decide +kernel, (C48_layer_continued_partial (ni := 3) (by decide) (by decide) (by decide) someGru_eq .new _ _ _ rfl h
    [([1, 0, 1], false), ([0, 0, 1], true)] (by decide)).2⟩

end Snn.GruLayerProps
