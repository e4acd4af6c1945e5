import Verif.Proofs.CallInduct
import Verif.Proofs.SafeProofs

/-! The buffers of the neurons of an inner convolution are at their start between two passes. -/

set_option linter.all false

namespace Snn

open Spec HistoryProps

/-- The index `i` of a buffer of `b` entries is at the entry `k` (`b` stands for 0 too). -/
def AtIdx (b k i : Nat) : Prop := i = k ∨ (k = 0 ∧ i = b)

theorem AtIdx.eff {b k i : Nat} (h : AtIdx b k i) (hk : k < b) : (if i ≥ b then 0 else i) = k := by
  rcases h with rfl | ⟨rfl, rfl⟩
  · rw [if_neg (by omega)]
  · simp

theorem AtIdx.wrap {b i : Nat} (h : AtIdx b b i) : AtIdx b 0 i := by
  rcases h with rfl | ⟨h0, rfl⟩
  · exact Or.inr ⟨rfl, rfl⟩
  · exact Or.inr ⟨rfl, rfl⟩

section
variable {F : Type}

theorem Circ.pushBack_at {c c' : Circ F} {b k : Nat} {v : List F} (h : c.pushBack v = .ok c') (hl : c.queue.length = b)
    (hi : AtIdx b k c.indexPush) (hk : k < b) : c' = { c with queue := c.queue.set k v, indexPush := k + 1 } := by
  unfold Circ.pushBack at h
  simp only [hl, hi.eff hk] at h
  rw [wr_nat _ _ _ (by omega)] at h
  cases h
  rfl

theorem Circ.getBack_at {c c' : Circ F} {b k : Nat} {v : List F} (h : c.getBack = .ok (v, c')) (hl : c.queue.length = b)
    (hi : AtIdx b k c.indexGet) (hk : k < b) : c.queue[k]? = some v ∧ c' = { c with indexGet := k + 1 } := by
  unfold Circ.getBack at h
  simp only [hl, hi.eff hk] at h
  rw [rd_nat _ _ (by omega)] at h
  cases h
  exact ⟨List.getElem?_eq_getElem (by omega), rfl⟩

/-- A neuron that has pushed the inputs of `kp` positions and has been trained on `kg` positions. -/
structure Neuron.Stage (n : Neuron F) (b kp kg : Nat) : Prop where
  lenL : n.lastInputs.queue.length = b
  lenP : n.previousDeltaWeights.queue.length = b
  push : AtIdx b kp n.lastInputs.indexPush
  get : AtIdx b kg n.lastInputs.indexGet
  ppush : AtIdx b kg n.previousDeltaWeights.indexPush
  pget : AtIdx b kg n.previousDeltaWeights.indexGet

theorem Neuron.Stage.wrapPush {n : Neuron F} {b kg : Nat} (h : n.Stage b b kg) : n.Stage b 0 kg :=
  ⟨h.lenL, h.lenP, h.push.wrap, h.get, h.ppush, h.pget⟩
theorem Neuron.Stage.wrapGet {n : Neuron F} {b kp : Nat} (h : n.Stage b kp b) : n.Stage b kp 0 :=
  ⟨h.lenL, h.lenP, h.push, h.get.wrap, h.ppush.wrap, h.pget.wrap⟩

variable [Flt F] [FTrans F] [Add F] [Sub F] [Mul F] [Div F] [Neg F]

theorem Neuron.output_stage {n n' : Neuron F} {b kp kg : Nat} {x : List F} {y : F} (h : n.output x = .ok (y, n')) (hs : n.Stage b kp kg)
    (hk : kp < b) : n'.Stage b (kp + 1) kg ∧ n'.lastInputs.queue = n.lastInputs.queue.set kp x ∧ n'.previousDeltaWeights = n.previousDeltaWeights := by
  unfold Neuron.output at h
  obtain ⟨li, h1, h⟩ := Res.bind_eq_ok.1 h
  obtain ⟨_, _, h⟩ := Res.bind_eq_ok.1 h
  obtain ⟨_, _, h⟩ := Res.bind_eq_ok.1 h
  obtain ⟨_, _, h⟩ := Res.bind_eq_ok.1 h
  cases h
  have := Circ.pushBack_at h1 hs.lenL hs.push hk
  subst this
  exact ⟨⟨by simpa using hs.lenL, hs.lenP, Or.inl rfl, hs.get, hs.ppush, hs.pget⟩, rfl, rfl⟩

theorem Sgd.updateSimple_stage {o : Sgd F} {n n' : Neuron F} {e : F} {b kp kg : Nat} (h : o.updateSimple n e = .ok n') (hs : n.Stage b kp kg)
    (hk : kg < b) : n'.Stage b kp (kg + 1) := by
  unfold Sgd.updateSimple at h
  obtain ⟨⟨x, li⟩, h1, h⟩ := Res.bind_eq_ok.1 h
  obtain ⟨⟨p, pd⟩, h2, h⟩ := Res.bind_eq_ok.1 h
  obtain ⟨_, e1⟩ := Circ.getBack_at h1 hs.lenL hs.get hk
  obtain ⟨_, e2⟩ := Circ.getBack_at h2 hs.lenP hs.pget hk
  subst e1 e2
  simp only at h
  obtain ⟨⟨_, _⟩, _, h⟩ := Res.bind_eq_ok.1 h
  obtain ⟨_, _, h⟩ := Res.bind_eq_ok.1 h
  obtain ⟨_, _, h⟩ := Res.bind_eq_ok.1 h
  obtain ⟨pd', h3, h⟩ := Res.bind_eq_ok.1 h
  cases h
  have := Circ.pushBack_at h3 (b := b) hs.lenP hs.ppush hk
  subst this
  exact ⟨hs.lenL, by simpa using hs.lenP, hs.push, Or.inl rfl, Or.inl rfl, Or.inl rfl⟩

theorem Neuron.backOutput_stage {n n' : Neuron F} {e : F} {es : List F} {b kp kg : Nat} (h : n.backOutput e = .ok (es, n')) (hs : n.Stage b kp kg)
    (hk : kg < b) : n'.Stage b kp (kg + 1) := by
  unfold Neuron.backOutput at h
  obtain ⟨_, _, h⟩ := Res.bind_eq_ok.1 h
  obtain ⟨es1, _, h⟩ := Res.bind_eq_ok.1 h
  obtain ⟨n1, h1, h⟩ := Res.bind_eq_ok.1 h
  cases h
  exact Sgd.updateSimple_stage h1 ⟨hs.lenL, hs.lenP, hs.push, hs.get, hs.ppush, hs.pget⟩ hk

theorem runNeurons_all {N : Type} {f : N → Res (F × N)} {P Q : N → Prop} (hP : ∀ n y n', P n → f n = .ok (y, n') → Q n') :
    ∀ {ns ns' : List N} {os : List F}, (∀ n ∈ ns, P n) → runNeurons f ns = .ok (os, ns') → ∀ n ∈ ns', Q n
  | [], ns', os, _, h => by cases h; simp
  | n :: ns, ns', os, hp, h => by
    unfold runNeurons at h
    obtain ⟨⟨o, n1⟩, h1, h⟩ := Res.bind_eq_ok.1 h
    obtain ⟨⟨os1, ns1⟩, h2, h⟩ := Res.bind_eq_ok.1 h
    cases h
    intro m hm
    rcases List.mem_cons.1 hm with rfl | hm
    · exact hP _ _ _ (hp n (by simp)) h1
    · exact runNeurons_all hP (fun n hn => hp n (by simp [hn])) h2 m hm

theorem convOutputs_stage {inputs : List F} {size b kg : Nat} : ∀ {rows : List (List Int)} {ns ns' : List (Neuron F)} {os : List F} {k : Nat},
    convOutputs inputs size rows ns = .ok (os, ns') → (∀ n ∈ ns, n.Stage b k kg) → k + rows.length ≤ b → ∀ n ∈ ns', n.Stage b (k + rows.length) kg
  | [], ns, ns', os, k, h, hs, _ => by cases h; exact hs
  | row :: rows, ns, ns', os, k, h, hs, hk => by
    unfold convOutputs at h
    obtain ⟨x, _, h⟩ := Res.bind_eq_ok.1 h
    obtain ⟨⟨o, ns1⟩, h1, h⟩ := Res.bind_eq_ok.1 h
    obtain ⟨⟨os1, ns2⟩, h2, h⟩ := Res.bind_eq_ok.1 h
    cases h
    simp only [List.length_cons] at hk
    have hs1 := runNeurons_all (P := fun n => n.Stage b k kg) (Q := fun n => n.Stage b (k + 1) kg)
      (fun n y n' hp h => (Neuron.output_stage h hp (by omega)).1) hs h1
    have := convOutputs_stage h2 hs1 (by omega)
    simpa [Nat.add_assoc, Nat.add_comm 1] using this

theorem convBackRow_all {row : List Int} {P Q : Neuron F → Prop} (hP : ∀ n e es n', P n → n.backOutput e = .ok (es, n') → Q n') :
    ∀ {ns ns' : List (Neuron F)} {es acc r : List F}, (∀ n ∈ ns, P n) → convBackRow row ns es acc = .ok (r, ns') → ns'.length = ns.length ∧ ∀ n ∈ ns', Q n
  | [], ns', es, acc, r, _, h => by cases h; simp
  | n :: ns, ns', [], acc, r, hp, h => by cases h
  | n :: ns, ns', e :: es, acc, r, hp, h => by
    unfold convBackRow at h
    obtain ⟨⟨er, n1⟩, h1, h⟩ := Res.bind_eq_ok.1 h
    obtain ⟨acc1, _, h⟩ := Res.bind_eq_ok.1 h
    obtain ⟨⟨r1, ns1⟩, h2, h⟩ := Res.bind_eq_ok.1 h
    cases h
    obtain ⟨a, b⟩ := convBackRow_all hP (fun n hn => hp n (by simp [hn])) h2
    refine ⟨by simp [a], ?_⟩
    intro m hm
    rcases List.mem_cons.1 hm with rfl | hm
    · exact hP _ _ _ _ (hp n (by simp)) h1
    · exact b m hm

theorem convBack_stage {b kp : Nat} : ∀ {rows : List (List Int)} {ns ns' : List (Neuron F)} {es acc r : List F} {k : Nat},
    convBack rows ns es acc = .ok (r, ns') → (∀ n ∈ ns, n.Stage b kp k) → k + rows.length ≤ b → ∀ n ∈ ns', n.Stage b kp (k + rows.length)
  | [], ns, ns', es, acc, r, k, h, hs, _ => by cases h; exact hs
  | row :: rows, ns, ns', es, acc, r, k, h, hs, hk => by
    unfold convBack at h
    obtain ⟨⟨acc1, ns1⟩, h1, h⟩ := Res.bind_eq_ok.1 h
    simp only [List.length_cons] at hk
    have hs1 := (convBackRow_all (P := fun n => n.Stage b kp k) (Q := fun n => n.Stage b kp (k + 1))
      (fun n e es n' hp h => Neuron.backOutput_stage h hp (by omega)) hs h1).2
    have := convBack_stage h hs1 (by omega)
    simpa [Nat.add_assoc, Nat.add_comm 1] using this

/-- The neurons of a convolution are at the start of their buffers, which have one entry per position. -/
def Body.Lined : Body F → Prop
  | .filter .conv1D ns info => ∀ n ∈ ns, n.Stage info.kernelIndexes.length 0 0
  | .filter .conv2D ns info => ∀ n ∈ ns, n.Stage info.kernelIndexes.length 0 0
  | _ => True

theorem Body.Lined.output {b b' : Body F} {x y : List F} {t : Bool} (h : b.computeOutput x t = .ok (y, b')) (hl : b.Lined) : b'.Lined := by
  cases b with
  | fullyConnected ns => obtain ⟨⟨_, _⟩, _, h⟩ := Res.bind_eq_ok.1 h; cases h; trivial
  | recurrence ns => obtain ⟨⟨_, _⟩, _, h⟩ := Res.bind_eq_ok.1 h; cases h; trivial
  | gru ns => obtain ⟨⟨_, _⟩, _, h⟩ := Res.bind_eq_ok.1 h; cases h; trivial
  | filter kind ns info =>
    obtain ⟨⟨os, ns1⟩, h1, h⟩ := Res.bind_eq_ok.1 h
    obtain ⟨_, _, h⟩ := Res.bind_eq_ok.1 h
    cases h
    cases kind with
    | conv1D => intro n hn; have := convOutputs_stage h1 hl (by omega) n hn; rw [Nat.zero_add] at this; exact this.wrapPush
    | conv2D => intro n hn; have := convOutputs_stage h1 hl (by omega) n hn; rw [Nat.zero_add] at this; exact this.wrapPush
    | lc1D => trivial
    | lc2D => trivial
  | pool td info n mvi =>
    obtain ⟨⟨_, _⟩, _, h⟩ := Res.bind_eq_ok.1 h
    obtain ⟨_, _, h⟩ := Res.bind_eq_ok.1 h
    split at h
    · cases h
    · cases h; trivial

theorem Body.Lined.back {b b' : Body F} {ni : Int} {es r : List F} (h : b.computeBackOutput ni es = .ok (r, b')) (hl : b.Lined) : b'.Lined := by
  unfold Body.computeBackOutput at h
  obtain ⟨acc, _, h⟩ := Res.bind_eq_ok.1 h
  cases b with
  | fullyConnected ns => obtain ⟨⟨_, _⟩, _, h⟩ := Res.bind_eq_ok.1 h; cases h; trivial
  | recurrence ns => obtain ⟨⟨_, _⟩, _, h⟩ := Res.bind_eq_ok.1 h; cases h; trivial
  | gru ns => obtain ⟨⟨_, _⟩, _, h⟩ := Res.bind_eq_ok.1 h; cases h; trivial
  | filter kind ns info =>
    obtain ⟨⟨os, ns1⟩, h1, h⟩ := Res.bind_eq_ok.1 h
    cases h
    cases kind with
    | conv1D => intro n hn; have := convBack_stage h1 hl (by omega) n hn; rw [Nat.zero_add] at this; exact this.wrapGet
    | conv2D => intro n hn; have := convBack_stage h1 hl (by omega) n hn; rw [Nat.zero_add] at this; exact this.wrapGet
    | lc1D => trivial
    | lc2D => trivial
  | pool td info n mvi =>
    obtain ⟨_, _, h⟩ := Res.bind_eq_ok.1 h
    cases h; trivial

theorem Layer.Lined.output {l l' : Layer F} {x y : List F} {t : Bool} (h : l.output x t = .ok (y, l')) (hl : l.body.Lined) : l'.body.Lined := by
  unfold Layer.output at h
  obtain ⟨⟨_, _⟩, h1, h⟩ := Res.bind_eq_ok.1 h
  obtain ⟨_, _, h⟩ := Res.bind_eq_ok.1 h
  cases h
  exact Body.Lined.output h1 hl

theorem Layer.Lined.training {l l' : Layer F} {x y : List F} {t : Bool} {d d' : Draws F} (h : l.outputForTraining x t d = .ok (y, l', d'))
    (hl : l.body.Lined) : l'.body.Lined := by
  unfold Layer.outputForTraining at h
  obtain ⟨⟨_, _⟩, h1, h⟩ := Res.bind_eq_ok.1 h
  obtain ⟨⟨_, _, _⟩, _, h⟩ := Res.bind_eq_ok.1 h
  cases h
  exact Body.Lined.output h1 hl

theorem Layer.Lined.back {l l' : Layer F} {es r : List F} (h : l.backOutput es = .ok (r, l')) (hl : l.body.Lined) : l'.body.Lined := by
  unfold Layer.backOutput at h
  obtain ⟨⟨_, _⟩, h1, h⟩ := Res.bind_eq_ok.1 h
  cases h
  exact Body.Lined.back h1 hl

theorem outputLoop_lined {t : Bool} : ∀ {ls ls' : List (Layer F)} {x y : List F}, outputLoop t ls x = .ok (y, ls') →
    (∀ l ∈ ls, l.body.Lined) → ∀ l ∈ ls', l.body.Lined
  | [], ls', x, y, h, _ => by cases h; simp
  | l :: ls, ls', x, y, h, hl => by
    unfold outputLoop at h
    obtain ⟨⟨y1, l1⟩, h1, h⟩ := Res.bind_eq_ok.1 h
    obtain ⟨⟨y2, ls1⟩, h2, h⟩ := Res.bind_eq_ok.1 h
    cases h
    intro m hm
    rcases List.mem_cons.1 hm with rfl | hm
    · exact Layer.Lined.output h1 (hl l (by simp))
    · exact outputLoop_lined h2 (fun l hl' => hl l (by simp [hl'])) m hm

theorem trainingLoop_lined {t : Bool} : ∀ {ls ls' : List (Layer F)} {x y : List F} {d d' : Draws F}, trainingLoop t ls x d = .ok (y, ls', d') →
    (∀ l ∈ ls, l.body.Lined) → ∀ l ∈ ls', l.body.Lined
  | [], ls', x, y, d, d', h, _ => by cases h; simp
  | l :: ls, ls', x, y, d, d', h, hl => by
    unfold trainingLoop at h
    obtain ⟨⟨y1, l1, d1⟩, h1, h⟩ := Res.bind_eq_ok.1 h
    obtain ⟨⟨y2, ls1, d2⟩, h2, h⟩ := Res.bind_eq_ok.1 h
    cases h
    intro m hm
    rcases List.mem_cons.1 hm with rfl | hm
    · exact Layer.Lined.training h1 (hl l (by simp))
    · exact trainingLoop_lined h2 (fun l hl' => hl l (by simp [hl'])) m hm

theorem backLoop_lined : ∀ {ls ls' : List (Layer F)} {es r : List F}, backLoop ls es = .ok (r, ls') →
    (∀ l ∈ ls, l.body.Lined) → ∀ l ∈ ls', l.body.Lined
  | [], ls', es, r, h, _ => by cases h; simp
  | l :: ls, ls', es, r, h, hl => by
    unfold backLoop at h
    obtain ⟨⟨es1, ls1⟩, h1, h⟩ := Res.bind_eq_ok.1 h
    obtain ⟨⟨es2, l1⟩, h2, h⟩ := Res.bind_eq_ok.1 h
    cases h
    intro m hm
    rcases List.mem_cons.1 hm with rfl | hm
    · exact Layer.Lined.back h2 (hl l (by simp))
    · exact backLoop_lined h1 (fun l hl' => hl l (by simp [hl'])) m hm

/-- The inner convolutions. -/
def InnerLined (ls : List (Layer F)) : Prop := ∀ l ∈ ls.tail, l.body.Lined

theorem innerLined_kept : Kept (F := F) InnerLined where
  out := by
    intro t ls ls' x y hp h
    cases ls with
    | nil => cases h; exact hp
    | cons l ls =>
      unfold outputLoop at h
      obtain ⟨⟨y1, l1⟩, h1, h⟩ := Res.bind_eq_ok.1 h
      obtain ⟨⟨y2, ls1⟩, h2, h⟩ := Res.bind_eq_ok.1 h
      cases h
      exact outputLoop_lined h2 hp
  training := by
    intro t ls ls' x y d d' hp h
    cases ls with
    | nil => cases h; exact hp
    | cons l ls =>
      unfold trainingLoop at h
      obtain ⟨⟨y1, l1, d1⟩, h1, h⟩ := Res.bind_eq_ok.1 h
      obtain ⟨⟨y2, ls1, d2⟩, h2, h⟩ := Res.bind_eq_ok.1 h
      cases h
      exact trainingLoop_lined h2 hp
  back := by
    intro ls ls' es hp h
    cases ls with
    | nil => cases h
    | cons l ls =>
      unfold backwardPass at h
      obtain ⟨⟨es1, ls1⟩, h1, h⟩ := Res.bind_eq_ok.1 h
      obtain ⟨l1, h2, h⟩ := Res.bind_eq_ok.1 h
      cases h
      exact backLoop_lined h1 hp

/-! ### The constructor -/

/-- All the buffer indexes are 0. -/
def Neuron.Zeroed (n : Neuron F) : Prop :=
  n.lastInputs.indexPush = 0 ∧ n.lastInputs.indexGet = 0 ∧ n.previousDeltaWeights.indexPush = 0 ∧ n.previousDeltaWeights.indexGet = 0

theorem Circ.init_zero {q w : Int} {c : Circ F} (h : Circ.init q w = .ok c) : c.indexPush = 0 ∧ c.indexGet = 0 := by
  unfold Circ.init at h
  split at h
  · cases h
  split at h
  · cases h
  cases h
  exact ⟨rfl, rfl⟩

theorem Neuron.make_zeroed {m : NeuronModel F} {o : Sgd F} {d : Nat → F} {n : Neuron F} (h : Neuron.make m o d = .ok n) : n.Zeroed := by
  unfold Neuron.make at h
  split at h
  · cases h
  split at h
  · cases h
  simp only at h
  obtain ⟨_, _, h⟩ := Res.bind_eq_ok.1 h
  obtain ⟨c1, h1, h⟩ := Res.bind_eq_ok.1 h
  obtain ⟨c2, h2, h⟩ := Res.bind_eq_ok.1 h
  cases h
  exact ⟨(Circ.init_zero h1).1, (Circ.init_zero h1).2, (Circ.init_zero h2).1, (Circ.init_zero h2).2⟩

/-- All the buffers of a convolution are at 0. -/
def Body.Zeroed : Body F → Prop
  | .filter .conv1D ns _ => ∀ n ∈ ns, n.Zeroed
  | .filter .conv2D ns _ => ∀ n ∈ ns, n.Zeroed
  | _ => True

theorem buildConvolution_zeroed {o : Sgd F} {ni f k : Int} {shape : List Int} {act : Act} {opts : List (LayerOptModel F)} {d d' : Draws F}
    {l : Layer F} (h : buildConvolution o ni shape f k act opts d = .ok (l, d')) : l.body.Zeroed := by
  unfold buildConvolution at h
  split at h
  · split at h
    · cases h
    · iterate 5 obtain ⟨_, _, h⟩ := Res.bind_eq_ok.1 h
      simp only at h
      obtain ⟨⟨ns, d1⟩, h1, h⟩ := Res.bind_eq_ok.1 h
      simp only at h
      obtain ⟨_, _, h⟩ := Res.bind_eq_ok.1 h
      cases h
      exact (makeAllNeurons_inv (fun _ _ h => Neuron.make_zeroed h) h1).2
  · split at h
    · cases h
    · iterate 8 obtain ⟨_, _, h⟩ := Res.bind_eq_ok.1 h
      simp only at h
      obtain ⟨⟨ns, d1⟩, h1, h⟩ := Res.bind_eq_ok.1 h
      simp only at h
      obtain ⟨_, _, h⟩ := Res.bind_eq_ok.1 h
      cases h
      exact (makeAllNeurons_inv (fun _ _ h => Neuron.make_zeroed h) h1).2
  · cases h

theorem buildLocallyConnected_zeroed {o : Sgd F} {ni f k : Int} {shape : List Int} {act : Act} {opts : List (LayerOptModel F)} {d d' : Draws F}
    {l : Layer F} (h : buildLocallyConnected o ni shape f k act opts d = .ok (l, d')) : l.body.Zeroed := by
  unfold buildLocallyConnected at h
  split at h
  · split at h
    · cases h
    · iterate 5 obtain ⟨_, _, h⟩ := Res.bind_eq_ok.1 h
      simp only at h
      obtain ⟨⟨ns, d1⟩, h1, h⟩ := Res.bind_eq_ok.1 h
      simp only at h
      obtain ⟨_, _, h⟩ := Res.bind_eq_ok.1 h
      cases h
      trivial
  · split at h
    · cases h
    · iterate 8 obtain ⟨_, _, h⟩ := Res.bind_eq_ok.1 h
      simp only at h
      obtain ⟨⟨ns, d1⟩, h1, h⟩ := Res.bind_eq_ok.1 h
      simp only at h
      obtain ⟨_, _, h⟩ := Res.bind_eq_ok.1 h
      cases h
      trivial
  · cases h

theorem buildMaxPooling_zeroed {ni k : Int} {shape : List Int} {l : Layer F} (h : buildMaxPooling ni shape k = .ok l) : l.body.Zeroed := by
  unfold buildMaxPooling at h
  split at h
  · split at h
    · cases h
    · obtain ⟨_, _, h⟩ := Res.bind_eq_ok.1 h
      simp only at h
      split at h
      · cases h
      · iterate 2 obtain ⟨_, _, h⟩ := Res.bind_eq_ok.1 h
        cases h
        trivial
  · split at h
    · cases h
    · iterate 5 obtain ⟨_, _, h⟩ := Res.bind_eq_ok.1 h
      split at h
      · cases h
      · obtain ⟨_, _, h⟩ := Res.bind_eq_ok.1 h
        cases h
        trivial
  · cases h

theorem buildLayer_zeroed {o : Sgd F} {m : LayerModel F} {shape : List Int} {d d' : Draws F} {l : Layer F}
    (h : buildLayer o m shape d = .ok (l, d')) : l.body.Zeroed := by
  unfold buildLayer at h
  obtain ⟨_, _, h⟩ := Res.bind_eq_ok.1 h
  split at h
  · cases h
  split at h
  · cases h
  cases m with
  | fullyConnected n act opts =>
    simp only at h
    split at h
    · cases h
    · obtain ⟨h1, ns, h2, h3⟩ := buildSimple_set (P := fun _ => True) (fun _ _ _ h => trivial) h
      rw [h2]; trivial
  | recurrence n act opts =>
    obtain ⟨h1, ns, h2, h3⟩ := buildSimple_set (P := fun _ => True) (fun _ _ _ h => trivial) h
    rw [h2]; trivial
  | gru n opts =>
    obtain ⟨h1, ns, h2, h3⟩ := buildSimple_set (P := fun _ => True) (fun _ _ _ h => trivial) h
    rw [h2]; trivial
  | maxPooling k =>
    simp only at h
    obtain ⟨l1, h1, h⟩ := Res.bind_eq_ok.1 h
    cases h
    exact buildMaxPooling_zeroed h1
  | locallyConnected f k act opts => exact buildLocallyConnected_zeroed h
  | convolution f k act opts => exact buildConvolution_zeroed h
  | input s => cases h

theorem buildLayers_zeroed {o : Sgd F} : ∀ {ms : List (LayerModel F)} {shape : List Int} {d d' : Draws F} {ls : List (Layer F)},
    buildLayers o ms shape d = .ok (ls, d') → ∀ l ∈ ls, l.body.Zeroed
  | [], shape, d, d', ls, h => by cases h; simp
  | m :: ms, shape, d, d', ls, h => by
    unfold buildLayers at h
    obtain ⟨⟨l, d1⟩, h1, h⟩ := Res.bind_eq_ok.1 h
    obtain ⟨⟨ls', d2⟩, h2, h⟩ := Res.bind_eq_ok.1 h
    cases h
    intro x hx
    rcases List.mem_cons.1 hx with rfl | hx
    · exact buildLayer_zeroed h1
    · exact buildLayers_zeroed h2 x hx

theorem Net.make_zeroed {arch : List (LayerModel F)} {o : Sgd F} {d d' : Draws F} {n : Net F} (h : Net.make arch o d = .ok (n, d')) :
    ∀ l ∈ n.layers, l.body.Zeroed := by
  unfold Net.make at h
  obtain ⟨⟨ls, d1⟩, h1, h⟩ := Res.bind_eq_ok.1 h
  obtain ⟨last, h2, h⟩ := Res.bind_eq_ok.1 h
  cases h
  unfold LayerFactory.build at h1
  split at h1
  · cases h1
  · split at h1
    · split at h1
      · cases h1
      · obtain ⟨_, _, h1⟩ := Res.bind_eq_ok.1 h1
        split at h1
        · cases h1
        · exact buildLayers_zeroed h1
    · cases h1

/-- A new convolution is at the start of its buffers. -/
theorem Body.Zeroed.lined {b : Body F} {ni no : Nat} (h : b.Zeroed) (hw : b.WF ni no) : b.Lined := by
  have key : ∀ (ns : List (Neuron F)) (info : FilterInfo), ConvWF ns info ni no → (∀ n ∈ ns, n.Zeroed) →
      ∀ n ∈ ns, n.Stage info.kernelIndexes.length 0 0 := by
    intro ns info hw hz n hn
    obtain ⟨a, b, c, e⟩ := hz n hn
    exact ⟨(hw.neurons n hn).last.len, (hw.neurons n hn).prev.len, Or.inl a, Or.inl b, Or.inl c, Or.inl e⟩
  cases b with
  | fullyConnected ns => trivial
  | recurrence ns => trivial
  | gru ns => trivial
  | pool td info n mvi => trivial
  | filter k ns info =>
    cases k with
    | conv1D => exact key ns info hw h
    | conv2D => exact key ns info hw h
    | lc1D => trivial
    | lc2D => trivial

theorem layersWF_mem {ls : List (Layer F)} {ni no : Nat} (h : LayersWF ls ni no) : ∀ l ∈ ls, ∃ a b, l.WF a b := by
  induction h with
  | nil => simp
  | @cons l ls n k m hl hs ih =>
    intro x hx
    rcases List.mem_cons.1 hx with rfl | hx
    · exact ⟨_, _, hl⟩
    · exact ih x hx

end

end Snn
