import Verif.Proofs.KeptBody
import Verif.Proofs.NeuronProofs
import Mathlib.Algebra.Order.Field.Basic
import Mathlib.Tactic.Ring

/-! The reset gate of a gated recurrent unit never learns. -/

set_option linter.all false

namespace Snn

section
variable {F : Type} [Flt F] [FTrans F] [Add F] [Sub F] [Mul F] [Div F] [Neg F]

/-- An invariant of the layers that depends on their position. -/
theorem keptFamily {C : Type} {P : C → Body F → Prop} (k : ∀ c, KeptBody (P c)) (cs : List C) :
    Kept (F := F) (fun ls => List.Forall₂ (fun c l => P c l.body) cs ls) where
  out := by
    intro t ls ls' x y hp h
    induction hp generalizing ls' x y with
    | nil => cases h; exact .nil
    | @cons c l cs ls hl hls ih =>
      unfold Snn.outputLoop at h
      obtain ⟨⟨y1, l1⟩, h1, h⟩ := Res.bind_eq_ok.1 h
      obtain ⟨⟨y2, ls1⟩, h2, h⟩ := Res.bind_eq_ok.1 h
      cases h
      refine .cons ?_ (ih h2)
      unfold Layer.output at h1
      obtain ⟨⟨_, _⟩, h3, h1⟩ := Res.bind_eq_ok.1 h1
      obtain ⟨_, _, h1⟩ := Res.bind_eq_ok.1 h1
      cases h1
      exact (k c).out hl h3
  training := by
    intro t ls ls' x y d d' hp h
    induction hp generalizing ls' x y d d' with
    | nil => cases h; exact .nil
    | @cons c l cs ls hl hls ih =>
      unfold Snn.trainingLoop at h
      obtain ⟨⟨y1, l1, d1⟩, h1, h⟩ := Res.bind_eq_ok.1 h
      obtain ⟨⟨y2, ls1, d2⟩, h2, h⟩ := Res.bind_eq_ok.1 h
      cases h
      refine .cons ?_ (ih h2)
      unfold Layer.outputForTraining at h1
      obtain ⟨⟨_, _⟩, h3, h1⟩ := Res.bind_eq_ok.1 h1
      obtain ⟨⟨_, _, _⟩, _, h1⟩ := Res.bind_eq_ok.1 h1
      cases h1
      exact (k c).out hl h3
  back := by
    have loop : ∀ {cs : List C} {ls ls' : List (Layer F)} {es r : List F}, List.Forall₂ (fun c l => P c l.body) cs ls → Snn.backLoop ls es = .ok (r, ls') →
        List.Forall₂ (fun c l => P c l.body) cs ls' := by
      intro cs ls ls' es r hp
      induction hp generalizing ls' es r with
      | nil => intro h; cases h; exact .nil
      | @cons c l cs ls hl hls ih =>
        intro h
        unfold Snn.backLoop at h
        obtain ⟨⟨es1, ls1⟩, h1, h⟩ := Res.bind_eq_ok.1 h
        obtain ⟨⟨es2, l1⟩, h2, h⟩ := Res.bind_eq_ok.1 h
        cases h
        refine .cons ?_ (ih h1)
        unfold Layer.backOutput at h2
        obtain ⟨⟨_, _⟩, h3, h2⟩ := Res.bind_eq_ok.1 h2
        cases h2
        exact (k c).back hl h3
    intro ls ls' es hp h
    cases hp with
    | nil => cases h
    | @cons c l cs ls hl hls =>
      unfold backwardPass at h
      obtain ⟨⟨es1, ls1⟩, h1, h⟩ := Res.bind_eq_ok.1 h
      obtain ⟨l1, h2, h⟩ := Res.bind_eq_ok.1 h
      cases h
      refine .cons ?_ (loop hls h1)
      unfold Layer.train at h2
      obtain ⟨_, h3, h2⟩ := Res.bind_eq_ok.1 h2
      cases h2
      exact (k c).train hl h3

theorem runNeurons_keep₂ {C N : Type} {f : N → Res (F × N)} {Q : C → N → Prop} (hf : ∀ {c n o n'}, Q c n → f n = .ok (o, n') → Q c n') :
    ∀ {cs : List C} {ns ns' : List N} {os : List F}, runNeurons f ns = .ok (os, ns') → List.Forall₂ Q cs ns → List.Forall₂ Q cs ns' := by
  intro cs ns ns' os h hq
  induction hq generalizing ns' os with
  | nil => cases h; exact .nil
  | @cons c n cs ns hl hls ih =>
    unfold runNeurons at h
    obtain ⟨⟨o, n1⟩, h1, h⟩ := Res.bind_eq_ok.1 h
    obtain ⟨⟨os1, ns1⟩, h2, h⟩ := Res.bind_eq_ok.1 h
    cases h
    exact .cons (hf hl h1) (ih h2)

theorem backNeurons_keep₂ {C N : Type} {f : N → F → Res (List F × N)} {Q : C → N → Prop} (hf : ∀ {c n e r n'}, Q c n → f n e = .ok (r, n') → Q c n') :
    ∀ {cs : List C} {ns ns' : List N} {es errs r : List F}, backNeurons f ns es errs = .ok (r, ns') → List.Forall₂ Q cs ns → List.Forall₂ Q cs ns' := by
  intro cs ns ns' es errs r h hq
  induction hq generalizing ns' es errs r with
  | nil => cases h; exact .nil
  | @cons c n cs ns hl hls ih =>
    cases es with
    | nil => cases h
    | cons e es =>
      unfold backNeurons at h
      obtain ⟨⟨e1, n1⟩, h1, h⟩ := Res.bind_eq_ok.1 h
      obtain ⟨errs1, _, h⟩ := Res.bind_eq_ok.1 h
      obtain ⟨⟨r1, ns1⟩, h2, h⟩ := Res.bind_eq_ok.1 h
      cases h
      exact .cons (hf hl h1) (ih h2)

theorem trainNeurons_keep₂ {C N : Type} {f : N → F → Res N} {Q : C → N → Prop} (hf : ∀ {c n e n'}, Q c n → f n e = .ok n' → Q c n') :
    ∀ {cs : List C} {ns ns' : List N} {es : List F}, trainNeurons f ns es = .ok ns' → List.Forall₂ Q cs ns → List.Forall₂ Q cs ns' := by
  intro cs ns ns' es h hq
  induction hq generalizing ns' es with
  | nil => cases h; exact .nil
  | @cons c n cs ns hl hls ih =>
    cases es with
    | nil => cases h
    | cons e es =>
      unfold trainNeurons at h
      obtain ⟨n1, h1, h⟩ := Res.bind_eq_ok.1 h
      obtain ⟨ns1, h2, h⟩ := Res.bind_eq_ok.1 h
      cases h
      exact .cons (hf hl h1) (ih h2)

/-- A gated recurrent layer whose units satisfy Q, each one with its own constant. -/
def Body.GruEach {C : Type} (Q : C → Gru F → Prop) (cs : List C) : Body F → Prop
  | .gru ns => List.Forall₂ Q cs ns
  | _ => False

theorem gruEach_keptBody {C : Type} {Q : C → Gru F → Prop} (ho : ∀ {c : C} {g g' : Gru F} {x : List F} {t : Bool} {o : F}, Q c g → g.output x t = .ok (o, g') → Q c g')
    (hb : ∀ {c : C} {g g' : Gru F} {e : F} {r : List F}, Q c g → g.backOutput e = .ok (r, g') → Q c g')
    (ht : ∀ {c : C} {g g' : Gru F} {e : F}, Q c g → g.train e = .ok g' → Q c g') (cs : List C) : KeptBody (Body.GruEach Q cs) where
  out := by
    intro t b b' x y hp h
    cases b <;> simp only [Body.computeOutput] at h
    · obtain ⟨⟨_, _⟩, _, h⟩ := Res.bind_eq_ok.1 h
      cases h; exact hp
    · obtain ⟨⟨_, _⟩, _, h⟩ := Res.bind_eq_ok.1 h
      cases h; exact hp
    · obtain ⟨⟨_, _⟩, h1, h⟩ := Res.bind_eq_ok.1 h
      cases h
      exact runNeurons_keep₂ ho h1 hp
    · obtain ⟨⟨_, _⟩, _, h⟩ := Res.bind_eq_ok.1 h
      obtain ⟨_, _, h⟩ := Res.bind_eq_ok.1 h
      cases h; exact hp
    · obtain ⟨⟨_, _⟩, _, h⟩ := Res.bind_eq_ok.1 h
      obtain ⟨_, _, h⟩ := Res.bind_eq_ok.1 h
      split at h
      · cases h
      · cases h; exact hp
  back := by
    intro ni b b' es r hp h
    unfold Body.computeBackOutput at h
    obtain ⟨errs, _, h⟩ := Res.bind_eq_ok.1 h
    cases b <;> simp only at h
    · obtain ⟨⟨_, _⟩, _, h⟩ := Res.bind_eq_ok.1 h
      cases h; exact hp
    · obtain ⟨⟨_, _⟩, _, h⟩ := Res.bind_eq_ok.1 h
      cases h; exact hp
    · obtain ⟨⟨_, _⟩, h1, h⟩ := Res.bind_eq_ok.1 h
      cases h
      exact backNeurons_keep₂ hb h1 hp
    · obtain ⟨⟨_, _⟩, _, h⟩ := Res.bind_eq_ok.1 h
      cases h; exact hp
    · obtain ⟨_, _, h⟩ := Res.bind_eq_ok.1 h
      cases h; exact hp
  train := by
    intro b b' es hp h
    cases b <;> simp only [Body.computeTrain] at h
    · obtain ⟨_, _, h⟩ := Res.bind_eq_ok.1 h
      cases h; exact hp
    · obtain ⟨_, _, h⟩ := Res.bind_eq_ok.1 h
      cases h; exact hp
    · obtain ⟨_, h1, h⟩ := Res.bind_eq_ok.1 h
      cases h
      exact trainNeurons_keep₂ ht h1 hp
    · obtain ⟨_, _, h⟩ := Res.bind_eq_ok.1 h
      cases h; exact hp
    · cases h; exact hp

end

section
variable {F : Type} [Field F] [LinearOrder F] [IsStrictOrderedRing F] [FTrans F]

/-- A recurrent neuron without memory of past updates, with the weights w. -/
structure Still (w : List F) (n : RecNeuron F) : Prop where
  weights : n.base.weights = w
  error : n.recurrentError = 0
  deltas : ∀ v ∈ n.base.previousDeltaWeights.queue, ∀ y ∈ v, y = 0

theorem sgdLoop_zero {m : F} : ∀ {k : Nat} {xs ps ws ds ws' : List F}, sgdLoop 0 m k xs ps ws = .ok (ds, ws') → (∀ y ∈ ps, y = 0) →
    ws' = ws.take k ∧ ∀ y ∈ ds, y = 0
  | 0, xs, ps, ws, ds, ws', h, _ => by cases h; simp
  | k + 1, [], ps, ws, ds, ws', h, _ => by cases h
  | k + 1, x :: xs, [], ws, ds, ws', h, _ => by cases h
  | k + 1, x :: xs, p :: ps, [], ds, ws', h, _ => by cases h
  | k + 1, x :: xs, p :: ps, w :: ws, ds, ws', h, hp => by
    unfold sgdLoop at h
    obtain ⟨⟨r1, r2⟩, h1, h⟩ := Res.bind_eq_ok.1 h
    cases h
    obtain ⟨k1, k2⟩ := sgdLoop_zero h1 (fun y hy => hp y (by simp [hy]))
    have hp0 := hp p (by simp)
    refine ⟨by simp [k1, hp0], ?_⟩
    intro y hy
    rcases List.mem_cons.1 hy with rfl | hy
    · simp [hp0]
    · exact k2 y hy

theorem still_update {o : Sgd F} {w : List F} {n n' : RecNeuron F} (hs : Still w n) (h : o.updateRec n 0 = .ok n') : Still w n' := by
  unfold Sgd.updateRec at h
  obtain ⟨⟨xs, li⟩, _, h⟩ := Res.bind_eq_ok.1 h
  obtain ⟨⟨ps, pd⟩, hp, h⟩ := Res.bind_eq_ok.1 h
  obtain ⟨⟨ds, ws⟩, hl, h⟩ := Res.bind_eq_ok.1 h
  obtain ⟨p, hpk, h⟩ := Res.bind_eq_ok.1 h
  obtain ⟨w0, hw0, h⟩ := Res.bind_eq_ok.1 h
  obtain ⟨der, _, h⟩ := Res.bind_eq_ok.1 h
  obtain ⟨pd', hpd, h⟩ := Res.bind_eq_ok.1 h
  cases h
  have hps : (∀ y ∈ ps, y = 0) ∧ pd.queue = n.base.previousDeltaWeights.queue := by
    unfold Circ.getBack at hp
    obtain ⟨v, hv, hp⟩ := Res.bind_eq_ok.1 hp
    cases hp
    exact ⟨hs.deltas _ (List.mem_of_getElem? (rd_eq_ok.1 hv).2), rfl⟩
  have hp0 : p = 0 := by
    exact hps.1 _ (List.mem_of_getElem? (rd_eq_ok.1 hpk).2)
  rw [mul_zero] at hl
  obtain ⟨hws, hds⟩ := sgdLoop_zero hl hps.1
  have hw0' : n.base.weights[n.base.numberOfInputs.toNat]? = some w0 := by
    have := (rd_eq_ok.1 hw0).2
    rwa [Int.toNat_natCast] at this
  refine ⟨?_, ?_, ?_⟩
  · simp only [hws, hp0, hs.error, mul_zero, zero_mul, zero_add, add_zero, lit_eq, Rat.cast_zero]
    rw [← hs.weights]
    obtain ⟨hlt, hget⟩ := List.getElem?_eq_some_iff.1 hw0'
    rw [← hget]
    conv_rhs => rw [← List.take_append_drop n.base.numberOfInputs.toNat n.base.weights, List.drop_eq_getElem_cons hlt]
  · simp [hs.error]
  · intro v hv y hy
    unfold Circ.pushBack at hpd
    obtain ⟨q, hq, hpd⟩ := Res.bind_eq_ok.1 hpd
    cases hpd
    have : v ∈ pd.queue ∨ v = ds ++ (o.learningRate / lit (n.base.batchSize : Rat) * (0 + n.recurrentError * der * (w0 + (o.learningRate / lit (n.base.batchSize : Rat) * 0 * n.base.bias + o.momentum * p))) * n.previousOutput + o.momentum * p) ::
        List.replicate (n.base.weights.length - (n.base.numberOfInputs.toNat + 1)) (lit 0) := by
      rw [← (wr_eq_ok.1 hq).2] at hv
      exact List.mem_or_eq_of_mem_set hv
    rcases this with h | h
    · rw [hps.2] at h
      exact hs.deltas v h y hy
    · rw [h] at hy
      rcases List.mem_append.1 hy with h | h
      · exact hds y h
      · rcases List.mem_cons.1 h with h | h
        · rw [h, hp0, hs.error]; simp
        · rw [(List.mem_replicate.1 h).2]; simp

theorem still_back {w : List F} {n n' : RecNeuron F} {es : List F} (hs : Still w n) (h : n.backOutput 0 = .ok (es, n')) : Still w n' := by
  unfold RecNeuron.backOutput at h
  obtain ⟨d, _, h⟩ := Res.bind_eq_ok.1 h
  obtain ⟨errs, _, h⟩ := Res.bind_eq_ok.1 h
  obtain ⟨n1, h1, h⟩ := Res.bind_eq_ok.1 h
  cases h
  rw [zero_mul] at h1
  exact still_update (n := { n with base := { n.base with errors := errs } }) ⟨hs.weights, hs.error, hs.deltas⟩ h1

theorem still_output {w : List F} {n n' : RecNeuron F} {x : List F} {t : Bool} {y : F} (hs : Still w n) (h : n.output x t = .ok (y, n')) : Still w n' := by
  unfold RecNeuron.output at h
  obtain ⟨_, _, h⟩ := Res.bind_eq_ok.1 h
  obtain ⟨_, _, h⟩ := Res.bind_eq_ok.1 h
  obtain ⟨_, _, h⟩ := Res.bind_eq_ok.1 h
  obtain ⟨_, _, h⟩ := Res.bind_eq_ok.1 h
  obtain ⟨_, _, h⟩ := Res.bind_eq_ok.1 h
  cases h
  cases t
  · exact ⟨hs.weights, hs.error, hs.deltas⟩
  · exact ⟨hs.weights, by simp [RecNeuron.reset], hs.deltas⟩

/-- A gated recurrent unit whose reset gate has the weights w and never learned. -/
def Frozen (w : List F) (g : Gru F) : Prop := g.previousOutput = 0 ∧ Still w g.resetGate

theorem frozen_output {w : List F} {g g' : Gru F} {x : List F} {t : Bool} {o : F} (hg : Frozen w g) (h : g.output x t = .ok (o, g')) : Frozen w g' := by
  unfold Gru.output at h
  obtain ⟨⟨_, rg⟩, h1, h⟩ := Res.bind_eq_ok.1 h
  obtain ⟨⟨_, _⟩, _, h⟩ := Res.bind_eq_ok.1 h
  obtain ⟨⟨_, _⟩, _, h⟩ := Res.bind_eq_ok.1 h
  cases h
  cases t
  · have := still_output hg.2 h1
    exact ⟨hg.1, ⟨this.weights, this.error, this.deltas⟩⟩
  · have := still_output (n := g.resetGate) hg.2 h1
    exact ⟨by simp [Gru.reset], ⟨this.weights, this.error, this.deltas⟩⟩

theorem frozen_back {w : List F} {g g' : Gru F} {e : F} {r : List F} (hg : Frozen w g) (h : g.backOutput e = .ok (r, g')) : Frozen w g' := by
  unfold Gru.backOutput at h
  obtain ⟨⟨_, _⟩, h1, h⟩ := Res.bind_eq_ok.1 h
  obtain ⟨⟨_, _⟩, h2, h⟩ := Res.bind_eq_ok.1 h
  obtain ⟨_, _, h⟩ := Res.bind_eq_ok.1 h
  obtain ⟨⟨_, _⟩, h3, h⟩ := Res.bind_eq_ok.1 h
  cases h
  rw [hg.1, mul_zero] at h3
  exact ⟨hg.1, still_back hg.2 h3⟩

theorem frozen_train {w : List F} {g g' : Gru F} {e : F} (hg : Frozen w g) (h : g.train e = .ok g') : Frozen w g' := by
  unfold Gru.train at h
  obtain ⟨⟨_, _⟩, h1, h⟩ := Res.bind_eq_ok.1 h
  obtain ⟨⟨_, _⟩, h2, h⟩ := Res.bind_eq_ok.1 h
  obtain ⟨_, _, h⟩ := Res.bind_eq_ok.1 h
  obtain ⟨⟨_, _⟩, h3, h⟩ := Res.bind_eq_ok.1 h
  cases h
  rw [hg.1, mul_zero] at h3
  exact ⟨hg.1, still_back hg.2 h3⟩

theorem frozen_kept (ws : List (List F)) : KeptBody (F := F) (Body.GruEach Frozen ws) := by
  refine gruEach_keptBody ?_ ?_ ?_ ws
  · intro w g g' x t o hg h
    exact frozen_output hg h
  · intro w g g' e r hg h
    exact frozen_back hg h
  · intro w g g' e hg h
    exact frozen_train hg h

theorem Circ.init_zeros {q w : Int} {c : Circ F} (h : Circ.init q w = .ok c) : ∀ v ∈ c.queue, ∀ y ∈ v, y = 0 := by
  unfold Circ.init at h
  split at h
  · cases h
  split at h
  · cases h
  cases h
  intro v hv y hy
  rw [(List.mem_replicate.1 hv).2] at hy
  rw [(List.mem_replicate.1 hy).2]
  simp

theorem Neuron.make_zeros {m : NeuronModel F} {o : Sgd F} {d : Nat → F} {n : Neuron F} (h : Neuron.make m o d = .ok n) :
    ∀ v ∈ n.previousDeltaWeights.queue, ∀ y ∈ v, y = 0 := by
  unfold Neuron.make at h
  split at h
  · cases h
  split at h
  · cases h
  simp only at h
  obtain ⟨_, _, h⟩ := Res.bind_eq_ok.1 h
  obtain ⟨c1, h1, h⟩ := Res.bind_eq_ok.1 h
  obtain ⟨c2, h2, h⟩ := Res.bind_eq_ok.1 h
  cases h
  exact Circ.init_zeros h2

theorem RecNeuron.make_still {m : NeuronModel F} {o : Sgd F} {d : Nat → F} {n : RecNeuron F} (h : RecNeuron.make m o d = .ok n) :
    Still n.base.weights n := by
  unfold RecNeuron.make at h
  obtain ⟨b, hb, h⟩ := Res.bind_eq_ok.1 h
  have hz := Neuron.make_zeros hb
  cases h
  exact ⟨rfl, by simp, hz⟩

/-- A new unit did not learn. -/
theorem Gru.make_frozen {m : NeuronModel F} {o : Sgd F} {d : Nat → F} {g : Gru F} (h : Gru.make m o d = .ok g) :
    Frozen g.resetGate.base.weights g := by
  obtain ⟨r, hr, h⟩ := Res.bind_eq_ok.1 h
  obtain ⟨u, hu, h⟩ := Res.bind_eq_ok.1 h
  obtain ⟨o', ho, h⟩ := Res.bind_eq_ok.1 h
  cases h
  exact ⟨by simp, RecNeuron.make_still hr⟩

end

end Snn
