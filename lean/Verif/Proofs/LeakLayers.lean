import Verif.Proofs.ConvLined
import Verif.Proofs.SameProofs

/-! Two states of a network that differ only by the inputs they last saw become equal after one forward pass. -/

set_option linter.all false

namespace Snn

open Spec HistoryProps

/-- The entry of a buffer of `b` entries that the index `i` designates. -/
def eff (b i : Nat) : Nat := if i ≥ b then 0 else i

section
variable {F : Type}

/-- The next inputs are stored at the first entry. -/
structure Neuron.Ready (b : Nat) (n : Neuron F) : Prop where
  pos : 0 < b
  len : n.lastInputs.queue.length = b
  start : eff b n.lastInputs.indexPush = 0

theorem Neuron.Ready.one {n : Neuron F} (h : n.lastInputs.queue.length = 1) : n.Ready 1 :=
  ⟨by omega, h, by unfold eff; split <;> omega⟩

/-- The layer is between two passes: the next inputs are stored at the start of the buffers. -/
def Body.Ready : Body F → Prop
  | .fullyConnected ns => ∀ n ∈ ns, n.Ready 1
  | .filter .conv1D ns info => ∀ n ∈ ns, n.Ready info.kernelIndexes.length
  | .filter .conv2D ns info => ∀ n ∈ ns, n.Ready info.kernelIndexes.length
  | .filter _ ns info => ns.length = info.kernelIndexes.length * info.numberOfFilters.toNat ∧ ∀ n ∈ ns, n.Ready 1
  | .pool _ info _ mvi => mvi.length = info.kernelIndexes.length
  | _ => True

/-- Where the next inputs are read. -/
def Body.gets : Body F → List Nat
  | .fullyConnected ns => ns.map fun n => n.lastInputs.indexGet
  | .filter _ ns _ => ns.map fun n => n.lastInputs.indexGet
  | _ => []

/-- The two neurons have stored the same inputs at the first `k` entries of their buffers. -/
structure Neuron.Twin (b k : Nat) (n m : Neuron F) : Prop where
  same : n.Same m
  get : m.lastInputs.indexGet = n.lastInputs.indexGet
  len : n.lastInputs.queue.length = b
  start : k = 0 → eff b n.lastInputs.indexPush = 0 ∧ eff b m.lastInputs.indexPush = 0
  push : 0 < k → n.lastInputs.indexPush = k ∧ m.lastInputs.indexPush = k
  pre : m.lastInputs.queue.take k = n.lastInputs.queue.take k
  sum : 0 < k → m.sum = n.sum

theorem Neuron.Twin.eff {b k : Nat} {n m : Neuron F} (h : n.Twin b k m) (hk : k < b) :
    (if n.lastInputs.indexPush ≥ b then 0 else n.lastInputs.indexPush) = k ∧
      (if m.lastInputs.indexPush ≥ b then 0 else m.lastInputs.indexPush) = k := by
  rcases Nat.eq_zero_or_pos k with rfl | hp
  · exact h.start rfl
  · obtain ⟨a, c⟩ := h.push hp
    rw [a, c]
    constructor <;> rw [if_neg (by omega)]

theorem Neuron.Twin.eq {b : Nat} {n m : Neuron F} (h : n.Twin b b m) (hb : 0 < b) : m = n := by
  obtain ⟨⟨h1, h2, h3, h4, h5, h6, h7, h8, h9⟩, hg, hl, _, hp, hq, hs⟩ := h
  obtain ⟨p1, p2⟩ := hp hb
  have hq' : m.lastInputs.queue = n.lastInputs.queue := by
    rw [List.take_of_length_le (by omega), List.take_of_length_le (by omega)] at hq
    exact hq
  have hs' := hs hb
  have hli : m.lastInputs = n.lastInputs := by
    have key : ∀ a c : Circ F, a.queue = c.queue → a.indexPush = c.indexPush → a.indexGet = c.indexGet → a = c := by
      rintro ⟨_, _, _⟩ ⟨_, _, _⟩ h1 h2 h3
      simp only at h1 h2 h3
      subst h1 h2 h3; rfl
    exact key _ _ hq' (by omega) hg
  cases n; cases m
  simp only at *
  subst h1 h2 h3 h4 h5 h6 h7 h8 hs' hli
  rfl

theorem Neuron.Ready.twin {b : Nat} {n m : Neuron F} (hs : n.Same m) (hg : m.lastInputs.indexGet = n.lastInputs.indexGet)
    (hn : n.Ready b) (hm : m.Ready b) : n.Twin b 0 m :=
  ⟨hs, hg, hn.len, fun _ => ⟨hn.start, hm.start⟩, fun h => by omega, by simp, fun h => by omega⟩

variable [Flt F] [FTrans F] [Add F] [Sub F] [Mul F] [Div F] [Neg F]

theorem Neuron.Twin.output {b k : Nat} {n m : Neuron F} (h : n.Twin b k m) (hk : k < b) (x : List F) :
    Res.Rel (fun p q => q.1 = p.1 ∧ Neuron.Twin b (k + 1) p.2 q.2) (n.output x) (m.output x) := by
  obtain ⟨e1, e2⟩ := h.eff hk
  have hl' : m.lastInputs.queue.length = b := by rw [h.same.buffer, h.len]
  have h1 : n.lastInputs.pushBack x = .ok { n.lastInputs with queue := n.lastInputs.queue.set k x, indexPush := k + 1 } := by
    unfold Circ.pushBack
    simp only [h.len, e1]
    rw [wr_nat _ _ _ (by rw [h.len]; exact hk)]
    rfl
  have h2 : m.lastInputs.pushBack x = .ok { m.lastInputs with queue := m.lastInputs.queue.set k x, indexPush := k + 1 } := by
    unfold Circ.pushBack
    simp only [hl', e2]
    rw [wr_nat _ _ _ (by rw [hl']; exact hk)]
    rfl
  unfold Neuron.output
  rw [h.same.weights, h.same.bias, h.same.activation, h1, h2]
  simp only [Res.ok_bind]
  refine Res.Rel.bind (Res.Rel.eq (β := F)) ?_
  rintro t _ rfl
  refine Res.Rel.bind (Res.Rel.eq (β := F)) ?_
  rintro wb _ rfl
  refine Res.Rel.bind (Res.Rel.eq (β := F)) ?_
  rintro o _ rfl
  obtain ⟨⟨g1, g2, g3, g4, g5, g6, g7, g8, g9⟩, hg, hl, _, hp, hq, hs⟩ := h
  refine ⟨rfl, ⟨⟨g1, g2, rfl, rfl, g5, g6, rfl, g8, by simp [hl, hl']⟩, hg, by simp [hl], fun h => by omega, fun _ => ⟨rfl, rfl⟩, ?_, fun _ => rfl⟩⟩
  simp only
  have t : ∀ l : List (List F), k < l.length → (l.set k x).take (k + 1) = l.take k ++ [x] := by
    intro l hl
    rw [List.take_add_one, List.getElem?_set_self hl, List.take_set_of_le (Nat.le_refl k)]
    rfl
  rw [t _ (by rw [hl']; exact hk), t _ (by rw [hl]; exact hk), hq]

theorem runNeurons_twin {N : Type} {f : N → Res (F × N)} {R S : N → N → Prop}
    (hf : ∀ n m, R n m → Res.Rel (fun p q => q.1 = p.1 ∧ S p.2 q.2) (f n) (f m)) :
    ∀ {ns ms : List N}, List.Forall₂ R ns ms → Res.Rel (OutRel (List.Forall₂ S)) (runNeurons f ns) (runNeurons f ms)
  | _, _, .nil => ⟨rfl, .nil⟩
  | _, _, .cons h1 h2 => by
    unfold runNeurons
    refine Res.Rel.bind (hf _ _ h1) ?_
    rintro ⟨a, n⟩ ⟨_, m⟩ ⟨rfl, hr⟩
    refine Res.Rel.bind (runNeurons_twin hf h2) ?_
    rintro ⟨as, ns⟩ ⟨_, ms⟩ ⟨rfl, hr'⟩
    exact ⟨rfl, .cons hr hr'⟩

theorem convOutputs_twin (x : List F) (size b : Nat) : ∀ (rows : List (List Int)) {k : Nat} {ns ms : List (Neuron F)},
    k + rows.length ≤ b → List.Forall₂ (Neuron.Twin b k) ns ms →
      Res.Rel (OutRel (List.Forall₂ (Neuron.Twin b (k + rows.length)))) (convOutputs x size rows ns) (convOutputs x size rows ms)
  | [], k, ns, ms, _, h => ⟨rfl, h⟩
  | row :: rows, k, ns, ms, hk, h => by
    simp only [List.length_cons] at hk
    unfold convOutputs
    refine Res.Rel.bind (Res.Rel.eq (β := List F)) ?_
    rintro v _ rfl
    refine Res.Rel.bind (runNeurons_twin (fun n m h => Neuron.Twin.output h (by omega) _) h) ?_
    rintro ⟨a, n⟩ ⟨_, m⟩ ⟨rfl, hr⟩
    refine Res.Rel.bind (convOutputs_twin x size b rows (k := k + 1) (by omega) hr) ?_
    rintro ⟨as, ns⟩ ⟨_, ms⟩ ⟨rfl, hr'⟩
    rw [show k + 1 + rows.length = k + (row :: rows).length by simp; omega] at hr'
    exact ⟨rfl, hr'⟩

theorem lcOutputs_twin (x : List F) (size filters : Nat) : ∀ (rows : List (List Int)) {ns ms : List (Neuron F)},
    ns.length = rows.length * filters → List.Forall₂ (Neuron.Twin 1 0) ns ms →
      Res.Rel (OutRel (List.Forall₂ (Neuron.Twin 1 1))) (lcOutputs x size filters rows ns) (lcOutputs x size filters rows ms)
  | [], ns, ms, hl, h => by
    have : ns = [] := List.length_eq_zero_iff.1 (by simpa using hl)
    subst this
    cases h
    exact ⟨rfl, .nil⟩
  | row :: rows, ns, ms, hl, h => by
    have hm : (rows.length + 1) * filters = rows.length * filters + filters := Nat.succ_mul _ _
    simp only [List.length_cons, hm] at hl
    unfold lcOutputs
    refine Res.Rel.bind (Res.Rel.eq (β := List F)) ?_
    rintro v _ rfl
    rw [← h.length_eq]
    split
    · rfl
    · refine Res.Rel.bind (runNeurons_twin (fun n m h => Neuron.Twin.output h (by omega) _) (List.forall₂_take filters h)) ?_
      rintro ⟨a, n⟩ ⟨_, m⟩ ⟨rfl, hr⟩
      refine Res.Rel.bind (lcOutputs_twin x size filters rows (by simp; omega) (List.forall₂_drop filters h)) ?_
      rintro ⟨as, ns⟩ ⟨_, ms⟩ ⟨rfl, hr'⟩
      exact ⟨rfl, forall₂_append hr hr'⟩

theorem twins_eq {b : Nat} (hb : 0 < b) : ∀ {ns ms : List (Neuron F)}, List.Forall₂ (Neuron.Twin b b) ns ms → ms = ns
  | _, _, .nil => rfl
  | _, _, .cons h1 h2 => by rw [h1.eq hb, twins_eq hb h2]

theorem rel_eq {A : Type} {x y : Res A} (h : Res.Rel (fun p q => q = p) x y) : y = x := by
  cases x <;> cases y <;> simp only [Res.Rel] at h <;> rw [h]

theorem poolOutputs_length {x : List F} {size : Nat} : ∀ {rows : List (List Int)} {os : List F} {ms : List Int},
    poolOutputs x size rows = .ok (os, ms) → ms.length = rows.length
  | [], os, ms, h => by cases h; rfl
  | row :: rows, os, ms, h => by
    unfold poolOutputs at h
    obtain ⟨_, _, h⟩ := Res.bind_eq_ok.1 h
    obtain ⟨_, _, h⟩ := Res.bind_eq_ok.1 h
    obtain ⟨⟨_, _⟩, h1, h⟩ := Res.bind_eq_ok.1 h
    cases h
    simp [poolOutputs_length h1]

/-- Two states of a layer that differ only by the inputs they last saw. -/
structure Layer.Twin (l m : Layer F) : Prop where
  same : l.Same m
  plain : NonRecurrent l
  gets : m.body.gets = l.body.gets
  ready : l.body.Ready
  ready' : m.body.Ready

theorem readies_twin {b : Nat} : ∀ {ns ms : List (Neuron F)}, List.Forall₂ Neuron.Same ns ms →
    (ms.map fun n => n.lastInputs.indexGet) = (ns.map fun n => n.lastInputs.indexGet) → (∀ n ∈ ns, n.Ready b) → (∀ n ∈ ms, n.Ready b) →
      List.Forall₂ (Neuron.Twin b 0) ns ms
  | _, _, .nil, _, _, _ => .nil
  | _, _, .cons h1 h2, hg, hn, hm => by
    simp only [List.map_cons, List.cons.injEq] at hg
    exact .cons (Neuron.Ready.twin h1 hg.1 (hn _ (by simp)) (hm _ (by simp)))
      (readies_twin h2 hg.2 (fun n h => hn n (by simp [h])) (fun n h => hm n (by simp [h])))

/-- After one forward pass the two layers are equal. -/
theorem Layer.Twin.body {l m : Layer F} (h : l.Twin m) (x : List F) (t : Bool) : m.body.computeOutput x t = l.body.computeOutput x t := by
  obtain ⟨⟨_, _, hs⟩, hn, hg, hr, hr'⟩ := h
  unfold NonRecurrent at hn
  apply rel_eq
  cases hb : l.body <;> cases hb' : m.body <;> rw [hb, hb'] at hs <;> simp only [Body.Same] at hs <;> rw [hb] at hn <;>
    simp only [] at hn <;> rw [hb] at hr hg <;> rw [hb'] at hr' hg
  · have ht := readies_twin hs hg hr hr'
    refine Res.Rel.bind (runNeurons_twin (fun n m h => Neuron.Twin.output h (by omega) _) ht) ?_
    rintro ⟨a, n⟩ ⟨_, m⟩ ⟨rfl, hr⟩
    have := twins_eq (by omega) hr
    subst this
    rfl
  · rename_i k1 n1 i1 k2 n2 i2
    obtain ⟨rfl, h4, rfl⟩ := hs
    have hconv : (∀ n ∈ n1, n.Ready i2.kernelIndexes.length) → (∀ n ∈ n2, n.Ready i2.kernelIndexes.length) →
        convOutputs x i2.sizeOfNeuronInputs.toNat i2.kernelIndexes n2 = convOutputs x i2.sizeOfNeuronInputs.toNat i2.kernelIndexes n1 := by
      intro a c
      rcases n1 with _ | ⟨n, n1⟩
      · cases h4; rfl
      · have hb0 := (a n (by simp)).pos
        have ht := readies_twin h4 hg a c
        have hc := convOutputs_twin x i2.sizeOfNeuronInputs.toNat i2.kernelIndexes.length i2.kernelIndexes (k := 0) (by omega) ht
        rw [Nat.zero_add] at hc
        apply rel_eq
        revert hc
        cases convOutputs x i2.sizeOfNeuronInputs.toNat i2.kernelIndexes (n :: n1) <;>
          cases convOutputs x i2.sizeOfNeuronInputs.toNat i2.kernelIndexes n2 <;> simp only [Res.Rel, OutRel] <;> try exact fun h => h
        rintro ⟨e1, e2⟩
        have := twins_eq hb0 e2
        exact Prod.ext e1 this
    have hlc : n1.length = i2.kernelIndexes.length * i2.numberOfFilters.toNat → (∀ n ∈ n1, n.Ready 1) → (∀ n ∈ n2, n.Ready 1) →
        lcOutputs x i2.sizeOfNeuronInputs.toNat i2.numberOfFilters.toNat i2.kernelIndexes n2 =
          lcOutputs x i2.sizeOfNeuronInputs.toNat i2.numberOfFilters.toNat i2.kernelIndexes n1 := by
      intro hl a c
      have ht := readies_twin h4 hg a c
      have hc := lcOutputs_twin x i2.sizeOfNeuronInputs.toNat i2.numberOfFilters.toNat i2.kernelIndexes hl ht
      apply rel_eq
      revert hc
      cases lcOutputs x i2.sizeOfNeuronInputs.toNat i2.numberOfFilters.toNat i2.kernelIndexes n1 <;>
        cases lcOutputs x i2.sizeOfNeuronInputs.toNat i2.numberOfFilters.toNat i2.kernelIndexes n2 <;> simp only [Res.Rel, OutRel] <;> try exact fun h => h
      rintro ⟨e1, e2⟩
      have := twins_eq (by omega) e2
      exact Prod.ext e1 this
    have : Body.computeOutput (.filter k2 n2 i2) x t = Body.computeOutput (.filter k2 n1 i2) x t := by
      unfold Body.computeOutput
      cases k2
      · simp only [hconv hr hr']
      · simp only [hconv hr hr']
      · simp only [hlc hr.1 hr.2 hr'.2]
      · simp only [hlc hr.1 hr.2 hr'.2]
    rw [this]
    cases Body.computeOutput (.filter k2 n1 i2) x t <;> simp [Res.Rel]
  · obtain ⟨rfl, rfl, rfl, h4⟩ := hs
    simp only [Body.Ready] at hr hr'
    unfold Body.computeOutput
    simp only
    cases hp : poolOutputs x _ _ with
    | ok p =>
      obtain ⟨os, ms⟩ := p
      simp only [Res.ok_bind]
      refine Res.Rel.bind (Res.Rel.eq (β := List F)) ?_
      rintro v _ rfl
      have hml := poolOutputs_length hp
      simp only [hr, hr', hml]
      rw [if_neg (by omega), if_neg (by omega), List.drop_of_length_le (by omega), List.drop_of_length_le (by omega)]
      rfl
    | throw m => rfl
    | ub m => rfl


theorem Layer.Twin.training {l m : Layer F} (h : l.Twin m) (x : List F) (t : Bool) (d : Draws F) :
    m.outputForTraining x t d = l.outputForTraining x t d := by
  unfold Layer.outputForTraining
  rw [h.body x t, h.same.optimizers]
  have : ∀ (b : Body F) (o : List (LayerOpt F)), ({ m with body := b, optimizers := o } : Layer F) = { l with body := b, optimizers := o } := by
    intro b o; rw [h.same.inputs]
  simp only [this]

theorem trainingLoop_twin (t : Bool) : ∀ {ls ms : List (Layer F)} (x : List F) (d : Draws F), List.Forall₂ Layer.Twin ls ms →
    trainingLoop t ms x d = trainingLoop t ls x d
  | _, _, x, d, .nil => rfl
  | _, _, x, d, .cons h1 h2 => by
    unfold trainingLoop
    rw [h1.training x t d]
    congr 1
    funext p
    obtain ⟨y, l', d1⟩ := p
    simp only [trainingLoop_twin t y d1 h2]

/-! ### What the passes keep -/

/-- Where a neuron stores its next inputs has not changed. -/
structure Neuron.Hold (n n' : Neuron F) : Prop where
  len : n'.lastInputs.queue.length = n.lastInputs.queue.length
  push : n'.lastInputs.indexPush = n.lastInputs.indexPush

theorem Neuron.Hold.refl (n : Neuron F) : n.Hold n := ⟨rfl, rfl⟩
theorem Neuron.Hold.trans {a b c : Neuron F} (h : a.Hold b) (k : b.Hold c) : a.Hold c := ⟨k.1.trans h.1, k.2.trans h.2⟩

theorem Neuron.Hold.ready {b : Nat} {n n' : Neuron F} (h : n.Hold n') (hr : n.Ready b) : n'.Ready b :=
  ⟨hr.pos, h.len.trans hr.len, by rw [h.push]; exact hr.start⟩

theorem Sgd.updateSimple_hold {o : Sgd F} {n n' : Neuron F} {e : F} (h : o.updateSimple n e = .ok n') : n.Hold n' := by
  unfold Sgd.updateSimple at h
  obtain ⟨⟨x, li⟩, h1, h⟩ := Res.bind_eq_ok.1 h
  obtain ⟨⟨p, pd⟩, h2, h⟩ := Res.bind_eq_ok.1 h
  simp only at h
  obtain ⟨⟨_, _⟩, _, h⟩ := Res.bind_eq_ok.1 h
  obtain ⟨_, _, h⟩ := Res.bind_eq_ok.1 h
  obtain ⟨_, _, h⟩ := Res.bind_eq_ok.1 h
  obtain ⟨pd', h3, h⟩ := Res.bind_eq_ok.1 h
  cases h
  unfold Circ.getBack at h1
  obtain ⟨_, _, h1⟩ := Res.bind_eq_ok.1 h1
  cases h1
  exact ⟨rfl, rfl⟩

theorem Neuron.backOutput_hold {n n' : Neuron F} {e : F} {es : List F} (h : n.backOutput e = .ok (es, n')) : n.Hold n' := by
  unfold Neuron.backOutput at h
  obtain ⟨_, _, h⟩ := Res.bind_eq_ok.1 h
  obtain ⟨es1, _, h⟩ := Res.bind_eq_ok.1 h
  obtain ⟨n1, h1, h⟩ := Res.bind_eq_ok.1 h
  cases h
  have := Sgd.updateSimple_hold h1
  exact ⟨this.1, this.2⟩

theorem Neuron.train_hold {n n' : Neuron F} {e : F} (h : n.train e = .ok n') : n.Hold n' := by
  unfold Neuron.train at h
  obtain ⟨_, _, h⟩ := Res.bind_eq_ok.1 h
  exact Sgd.updateSimple_hold h

theorem convBackRow_hold {row : List Int} : ∀ {ns ns' : List (Neuron F)} {es acc r : List F},
    convBackRow row ns es acc = .ok (r, ns') → List.Forall₂ Neuron.Hold ns ns'
  | [], ns', es, acc, r, h => by cases es <;> (cases h; exact .nil)
  | n :: ns, ns', [], acc, r, h => by cases h
  | n :: ns, ns', e :: es, acc, r, h => by
    unfold convBackRow at h
    obtain ⟨⟨er, n1⟩, h1, h⟩ := Res.bind_eq_ok.1 h
    obtain ⟨acc1, _, h⟩ := Res.bind_eq_ok.1 h
    obtain ⟨⟨r1, ns1⟩, h2, h⟩ := Res.bind_eq_ok.1 h
    cases h
    exact .cons (Neuron.backOutput_hold h1) (convBackRow_hold h2)

theorem convBack_hold : ∀ {rows : List (List Int)} {ns ns' : List (Neuron F)} {es acc r : List F},
    convBack rows ns es acc = .ok (r, ns') → List.Forall₂ Neuron.Hold ns ns'
  | [], ns, ns', es, acc, r, h => by cases h; exact forall₂_refl Neuron.Hold.refl _
  | row :: rows, ns, ns', es, acc, r, h => by
    unfold convBack at h
    obtain ⟨⟨acc1, ns1⟩, h1, h⟩ := Res.bind_eq_ok.1 h
    exact forall₂_trans (R := Neuron.Hold) (fun _ _ _ a b => a.trans b) (convBackRow_hold h1) (convBack_hold h)

theorem lcBack_hold {rowOf : Nat → Res (List Int)} : ∀ {i : Nat} {ns ns' : List (Neuron F)} {es acc r : List F},
    lcBack rowOf i ns es acc = .ok (r, ns') → List.Forall₂ Neuron.Hold ns ns'
  | i, [], ns', es, acc, r, h => by cases es <;> (cases h; exact .nil)
  | i, n :: ns, ns', [], acc, r, h => by cases h
  | i, n :: ns, ns', e :: es, acc, r, h => by
    unfold lcBack at h
    obtain ⟨⟨er, n1⟩, h1, h⟩ := Res.bind_eq_ok.1 h
    obtain ⟨_, _, h⟩ := Res.bind_eq_ok.1 h
    obtain ⟨acc1, _, h⟩ := Res.bind_eq_ok.1 h
    obtain ⟨⟨r1, ns1⟩, h2, h⟩ := Res.bind_eq_ok.1 h
    cases h
    exact .cons (Neuron.backOutput_hold h1) (lcBack_hold h2)

theorem holds_ready {b : Nat} {ns ns' : List (Neuron F)} (h : List.Forall₂ Neuron.Hold ns ns') (hr : ∀ n ∈ ns, n.Ready b) :
    ∀ n ∈ ns', n.Ready b := by
  intro n hn
  obtain ⟨m, hm, k⟩ := forall₂_mem_right h n hn
  exact k.ready (hr m hm)

theorem filter_ready {k : FKind} {ns ns' : List (Neuron F)} {info : FilterInfo} (h : List.Forall₂ Neuron.Hold ns ns')
    (hr : (Body.filter k ns info).Ready) : (Body.filter k ns' info).Ready := by
  cases k
  · exact holds_ready h hr
  · exact holds_ready h hr
  · exact ⟨h.length_eq.symm.trans hr.1, holds_ready h hr.2⟩
  · exact ⟨h.length_eq.symm.trans hr.1, holds_ready h hr.2⟩

theorem Body.Ready.back {b b' : Body F} {ni : Int} {es r : List F} (h : b.computeBackOutput ni es = .ok (r, b')) (hl : b.Ready) : b'.Ready := by
  unfold Body.computeBackOutput at h
  obtain ⟨acc, _, h⟩ := Res.bind_eq_ok.1 h
  cases b with
  | fullyConnected ns =>
    obtain ⟨⟨_, _⟩, h1, h⟩ := Res.bind_eq_ok.1 h; cases h
    exact holds_ready (backNeurons_inv (P := Neuron.Hold) (fun _ _ _ _ h => Neuron.backOutput_hold h) h1) hl
  | recurrence ns => obtain ⟨⟨_, _⟩, _, h⟩ := Res.bind_eq_ok.1 h; cases h; trivial
  | gru ns => obtain ⟨⟨_, _⟩, _, h⟩ := Res.bind_eq_ok.1 h; cases h; trivial
  | filter kind ns info =>
    obtain ⟨⟨os, ns1⟩, h1, h⟩ := Res.bind_eq_ok.1 h
    cases h
    refine filter_ready ?_ hl
    cases kind with
    | conv1D => exact convBack_hold h1
    | conv2D => exact convBack_hold h1
    | lc1D => exact lcBack_hold h1
    | lc2D => exact lcBack_hold h1
  | pool td info n mvi =>
    obtain ⟨_, _, h⟩ := Res.bind_eq_ok.1 h
    cases h; exact hl

theorem Body.Ready.train {b b' : Body F} {es : List F} (h : b.computeTrain es = .ok b') (hl : b.Ready) : b'.Ready := by
  cases b with
  | fullyConnected ns =>
    obtain ⟨_, h1, h⟩ := Res.bind_eq_ok.1 h; cases h
    exact holds_ready (trainNeurons_inv (P := Neuron.Hold) (fun _ _ _ h => Neuron.train_hold h) h1) hl
  | recurrence ns => obtain ⟨_, _, h⟩ := Res.bind_eq_ok.1 h; cases h; trivial
  | gru ns => obtain ⟨_, _, h⟩ := Res.bind_eq_ok.1 h; cases h; trivial
  | filter kind ns info =>
    obtain ⟨ns1, h1, h⟩ := Res.bind_eq_ok.1 h
    cases h
    exact filter_ready (trainNeurons_inv (P := Neuron.Hold) (fun _ _ _ h => Neuron.train_hold h) h1) hl
  | pool td info n mvi => cases h; exact hl

/-! ### Forward passes -/

/-- A neuron that has stored `k` inputs. -/
structure Neuron.Push (b k : Nat) (n : Neuron F) : Prop where
  len : n.lastInputs.queue.length = b
  start : k = 0 → eff b n.lastInputs.indexPush = 0
  push : 0 < k → n.lastInputs.indexPush = k

theorem Neuron.output_get {n n' : Neuron F} {x : List F} {y : F} (h : n.output x = .ok (y, n')) :
    n'.lastInputs.indexGet = n.lastInputs.indexGet ∧ n'.lastInputs.queue.length = n.lastInputs.queue.length ∧
      n'.lastInputs.indexPush = eff n.lastInputs.queue.length n.lastInputs.indexPush + 1 := by
  unfold Neuron.output at h
  obtain ⟨li, h1, h⟩ := Res.bind_eq_ok.1 h
  obtain ⟨_, _, h⟩ := Res.bind_eq_ok.1 h
  obtain ⟨_, _, h⟩ := Res.bind_eq_ok.1 h
  obtain ⟨_, _, h⟩ := Res.bind_eq_ok.1 h
  cases h
  unfold Circ.pushBack at h1
  obtain ⟨q, hq, h1⟩ := Res.bind_eq_ok.1 h1
  cases h1
  obtain ⟨_, rfl⟩ := wr_eq_ok.1 hq
  simp [eff]

theorem Neuron.Push.output {n n' : Neuron F} {b k : Nat} {x : List F} {y : F} (h : n.output x = .ok (y, n')) (hp : n.Push b k) (hk : k < b) :
    n'.Push b (k + 1) := by
  obtain ⟨_, a, c⟩ := Neuron.output_get h
  refine ⟨a.trans hp.len, fun h => by omega, fun _ => ?_⟩
  rw [c, hp.len]
  rcases Nat.eq_zero_or_pos k with rfl | h0
  · rw [hp.start rfl]
  · rw [hp.push h0, eff, if_neg (by omega)]

theorem convOutputs_push {inputs : List F} {size b : Nat} : ∀ {rows : List (List Int)} {ns ns' : List (Neuron F)} {os : List F} {k : Nat},
    convOutputs inputs size rows ns = .ok (os, ns') → (∀ n ∈ ns, n.Push b k) → k + rows.length ≤ b → ∀ n ∈ ns', n.Push b (k + rows.length)
  | [], ns, ns', os, k, h, hs, _ => by cases h; exact hs
  | row :: rows, ns, ns', os, k, h, hs, hk => by
    unfold convOutputs at h
    obtain ⟨x, _, h⟩ := Res.bind_eq_ok.1 h
    obtain ⟨⟨o, ns1⟩, h1, h⟩ := Res.bind_eq_ok.1 h
    obtain ⟨⟨os1, ns2⟩, h2, h⟩ := Res.bind_eq_ok.1 h
    cases h
    simp only [List.length_cons] at hk
    have hs1 := runNeurons_all (P := fun n => n.Push b k) (Q := fun n => n.Push b (k + 1))
      (fun n y n' hp h => Neuron.Push.output h hp (by omega)) hs h1
    have := convOutputs_push h2 hs1 (by omega)
    simpa [Nat.add_assoc, Nat.add_comm 1] using this

theorem runNeurons_rel2 {N : Type} {f : N → Res (F × N)} {P : N → N → Prop} (hP : ∀ n y n', f n = .ok (y, n') → P n n') :
    ∀ {ns ns' : List N} {os : List F}, runNeurons f ns = .ok (os, ns') → List.Forall₂ P ns ns'
  | [], ns', os, h => by cases h; exact .nil
  | n :: ns, ns', os, h => by
    unfold runNeurons at h
    obtain ⟨⟨o, n1⟩, h1, h⟩ := Res.bind_eq_ok.1 h
    obtain ⟨⟨os1, ns1⟩, h2, h⟩ := Res.bind_eq_ok.1 h
    cases h
    exact .cons (hP _ _ _ h1) (runNeurons_rel2 hP h2)

/-- What a forward pass keeps of the buffer of a neuron. -/
def Neuron.Fwd (n n' : Neuron F) : Prop :=
  n'.lastInputs.indexGet = n.lastInputs.indexGet ∧ n'.lastInputs.queue.length = n.lastInputs.queue.length

theorem Neuron.output_fwd {x : List F} (n : Neuron F) (y : F) (n' : Neuron F) (h : n.output x = .ok (y, n')) : n.Fwd n' :=
  ⟨(Neuron.output_get h).1, (Neuron.output_get h).2.1⟩

theorem convOutputs_fwd {inputs : List F} {size : Nat} : ∀ {rows : List (List Int)} {ns ns' : List (Neuron F)} {os : List F},
    convOutputs inputs size rows ns = .ok (os, ns') → List.Forall₂ Neuron.Fwd ns ns'
  | [], ns, ns', os, h => by cases h; exact forall₂_refl (fun _ => ⟨rfl, rfl⟩) _
  | row :: rows, ns, ns', os, h => by
    unfold convOutputs at h
    obtain ⟨x, _, h⟩ := Res.bind_eq_ok.1 h
    obtain ⟨⟨o, ns1⟩, h1, h⟩ := Res.bind_eq_ok.1 h
    obtain ⟨⟨os1, ns2⟩, h2, h⟩ := Res.bind_eq_ok.1 h
    cases h
    exact forall₂_trans (R := Neuron.Fwd) (fun _ _ _ a b => ⟨b.1.trans a.1, b.2.trans a.2⟩) (runNeurons_rel2 Neuron.output_fwd h1) (convOutputs_fwd h2)

theorem lcOutputs_fwd {inputs : List F} {size filters : Nat} : ∀ {rows : List (List Int)} {ns ns' : List (Neuron F)} {os : List F},
    lcOutputs inputs size filters rows ns = .ok (os, ns') → List.Forall₂ Neuron.Fwd ns ns'
  | [], ns, ns', os, h => by cases h; exact forall₂_refl (fun _ => ⟨rfl, rfl⟩) _
  | row :: rows, ns, ns', os, h => by
    unfold lcOutputs at h
    obtain ⟨x, _, h⟩ := Res.bind_eq_ok.1 h
    split at h
    · cases h
    obtain ⟨⟨o, ns1⟩, h1, h⟩ := Res.bind_eq_ok.1 h
    obtain ⟨⟨os1, ns2⟩, h2, h⟩ := Res.bind_eq_ok.1 h
    cases h
    have := forall₂_append (runNeurons_rel2 Neuron.output_fwd h1) (lcOutputs_fwd h2)
    rwa [List.take_append_drop] at this

theorem fwds_gets {ns ns' : List (Neuron F)} (h : List.Forall₂ Neuron.Fwd ns ns') :
    (ns'.map fun n => n.lastInputs.indexGet) = ns.map fun n => n.lastInputs.indexGet :=
  forall₂_map_eq (fun _ _ h => h.1) h

theorem Body.gets_output {b b' : Body F} {x y : List F} {t : Bool} (h : b.computeOutput x t = .ok (y, b')) : b'.gets = b.gets := by
  cases b with
  | fullyConnected ns => obtain ⟨⟨_, _⟩, h1, h⟩ := Res.bind_eq_ok.1 h; cases h; exact fwds_gets (runNeurons_rel2 Neuron.output_fwd h1)
  | recurrence ns => obtain ⟨⟨_, _⟩, _, h⟩ := Res.bind_eq_ok.1 h; cases h; rfl
  | gru ns => obtain ⟨⟨_, _⟩, _, h⟩ := Res.bind_eq_ok.1 h; cases h; rfl
  | filter kind ns info =>
    obtain ⟨⟨os, ns1⟩, h1, h⟩ := Res.bind_eq_ok.1 h
    obtain ⟨_, _, h⟩ := Res.bind_eq_ok.1 h
    cases h
    refine fwds_gets (ns := ns) ?_
    cases kind with
    | conv1D => exact convOutputs_fwd h1
    | conv2D => exact convOutputs_fwd h1
    | lc1D => exact lcOutputs_fwd h1
    | lc2D => exact lcOutputs_fwd h1
  | pool td info n mvi =>
    obtain ⟨⟨_, _⟩, _, h⟩ := Res.bind_eq_ok.1 h
    obtain ⟨_, _, h⟩ := Res.bind_eq_ok.1 h
    split at h
    · cases h
    · cases h; rfl

theorem fwds_ready {ns ns' : List (Neuron F)} (h : List.Forall₂ Neuron.Fwd ns ns') (hr : ∀ n ∈ ns, n.Ready 1) : ∀ n ∈ ns', n.Ready 1 := by
  intro n hn
  obtain ⟨m, hm, k⟩ := forall₂_mem_right h n hn
  exact Neuron.Ready.one (k.2.trans (hr m hm).len)

theorem conv_ready {inputs : List F} {size : Nat} {rows : List (List Int)} {ns ns' : List (Neuron F)} {os : List F}
    (h : convOutputs inputs size rows ns = .ok (os, ns')) (hr : ∀ n ∈ ns, n.Ready rows.length) : ∀ n ∈ ns', n.Ready rows.length := by
  intro n hn
  obtain ⟨m, hm, k⟩ := forall₂_mem_right (convOutputs_fwd h) n hn
  have hb := (hr m hm).pos
  have := convOutputs_push (b := rows.length) (k := 0) h (fun n hn => ⟨(hr n hn).len, fun _ => (hr n hn).start, fun h => by omega⟩) (by omega) n hn
  rw [Nat.zero_add] at this
  exact ⟨hb, this.len, by rw [this.push hb, eff, if_pos (by omega)]⟩

theorem Body.Ready.output {b b' : Body F} {x y : List F} {t : Bool} (h : b.computeOutput x t = .ok (y, b')) (hl : b.Ready) : b'.Ready := by
  cases b with
  | fullyConnected ns => obtain ⟨⟨_, _⟩, h1, h⟩ := Res.bind_eq_ok.1 h; cases h; exact fwds_ready (runNeurons_rel2 Neuron.output_fwd h1) hl
  | recurrence ns => obtain ⟨⟨_, _⟩, _, h⟩ := Res.bind_eq_ok.1 h; cases h; trivial
  | gru ns => obtain ⟨⟨_, _⟩, _, h⟩ := Res.bind_eq_ok.1 h; cases h; trivial
  | filter kind ns info =>
    obtain ⟨⟨os, ns1⟩, h1, h⟩ := Res.bind_eq_ok.1 h
    obtain ⟨_, _, h⟩ := Res.bind_eq_ok.1 h
    cases h
    cases kind with
    | conv1D => exact conv_ready h1 hl
    | conv2D => exact conv_ready h1 hl
    | lc1D => exact ⟨(lcOutputs_fwd h1).length_eq.symm.trans hl.1, fwds_ready (lcOutputs_fwd h1) hl.2⟩
    | lc2D => exact ⟨(lcOutputs_fwd h1).length_eq.symm.trans hl.1, fwds_ready (lcOutputs_fwd h1) hl.2⟩
  | pool td info n mvi =>
    obtain ⟨⟨_, ms⟩, h1, h⟩ := Res.bind_eq_ok.1 h
    obtain ⟨_, _, h⟩ := Res.bind_eq_ok.1 h
    split at h
    · cases h
    · cases h
      simp only [Body.Ready] at hl ⊢
      simp; omega

/-! ### Networks -/

/-- Every layer is between two passes. -/
def ReadyLayers (ls : List (Layer F)) : Prop := ∀ l ∈ ls, l.body.Ready

theorem Layer.output_ready {l l' : Layer F} {x y : List F} {t : Bool} (h : l.output x t = .ok (y, l')) (hl : l.body.Ready) : l'.body.Ready := by
  unfold Layer.output at h
  obtain ⟨⟨_, _⟩, h1, h⟩ := Res.bind_eq_ok.1 h
  obtain ⟨_, _, h⟩ := Res.bind_eq_ok.1 h
  cases h
  exact Body.Ready.output h1 hl

theorem Layer.Twin.left {l l' m : Layer F} {x y : List F} {t : Bool} (h : l.output x t = .ok (y, l')) (ht : m.Twin l) : m.Twin l' := by
  have hs := Layer.output_same h
  have hr := Layer.output_ready h ht.ready'
  unfold Layer.output at h
  obtain ⟨⟨_, _⟩, h1, h⟩ := Res.bind_eq_ok.1 h
  obtain ⟨_, _, h⟩ := Res.bind_eq_ok.1 h
  cases h
  exact ⟨ht.same.trans hs, ht.plain, (Body.gets_output h1).trans ht.gets, ht.ready, hr⟩

theorem outputLoop_twin {t : Bool} : ∀ {ms ls ls' : List (Layer F)} {x y : List F}, outputLoop t ls x = .ok (y, ls') →
    List.Forall₂ Layer.Twin ms ls → List.Forall₂ Layer.Twin ms ls'
  | _, _, ls', x, y, h, .nil => by cases h; exact .nil
  | _, _, ls', x, y, h, .cons h1 h2 => by
    unfold outputLoop at h
    obtain ⟨⟨y1, l1⟩, k1, h⟩ := Res.bind_eq_ok.1 h
    obtain ⟨⟨y2, ls1⟩, k2, h⟩ := Res.bind_eq_ok.1 h
    cases h
    exact .cons (Layer.Twin.left k1 h1) (outputLoop_twin k2 h2)

theorem Layer.training_ready {l l' : Layer F} {x y : List F} {t : Bool} {d d' : Draws F} (h : l.outputForTraining x t d = .ok (y, l', d'))
    (hl : l.body.Ready) : l'.body.Ready := by
  unfold Layer.outputForTraining at h
  obtain ⟨⟨_, _⟩, h1, h⟩ := Res.bind_eq_ok.1 h
  obtain ⟨⟨_, _, _⟩, _, h⟩ := Res.bind_eq_ok.1 h
  cases h
  exact Body.Ready.output h1 hl

theorem outputLoop_ready {t : Bool} : ∀ {ls ls' : List (Layer F)} {x y : List F}, outputLoop t ls x = .ok (y, ls') →
    ReadyLayers ls → ReadyLayers ls'
  | [], ls', x, y, h, _ => by cases h; simp [ReadyLayers]
  | l :: ls, ls', x, y, h, hl => by
    unfold outputLoop at h
    obtain ⟨⟨y1, l1⟩, h1, h⟩ := Res.bind_eq_ok.1 h
    obtain ⟨⟨y2, ls1⟩, h2, h⟩ := Res.bind_eq_ok.1 h
    cases h
    intro m hm
    rcases List.mem_cons.1 hm with rfl | hm
    · exact Layer.output_ready h1 (hl l (by simp))
    · exact outputLoop_ready h2 (fun l hl' => hl l (by simp [hl'])) m hm

theorem trainingLoop_ready {t : Bool} : ∀ {ls ls' : List (Layer F)} {x y : List F} {d d' : Draws F}, trainingLoop t ls x d = .ok (y, ls', d') →
    ReadyLayers ls → ReadyLayers ls'
  | [], ls', x, y, d, d', h, _ => by cases h; simp [ReadyLayers]
  | l :: ls, ls', x, y, d, d', h, hl => by
    unfold trainingLoop at h
    obtain ⟨⟨y1, l1, d1⟩, h1, h⟩ := Res.bind_eq_ok.1 h
    obtain ⟨⟨y2, ls1, d2⟩, h2, h⟩ := Res.bind_eq_ok.1 h
    cases h
    intro m hm
    rcases List.mem_cons.1 hm with rfl | hm
    · exact Layer.training_ready h1 (hl l (by simp))
    · exact trainingLoop_ready h2 (fun l hl' => hl l (by simp [hl'])) m hm

theorem backLoop_ready : ∀ {ls ls' : List (Layer F)} {es r : List F}, backLoop ls es = .ok (r, ls') → ReadyLayers ls → ReadyLayers ls'
  | [], ls', es, r, h, _ => by cases h; simp [ReadyLayers]
  | l :: ls, ls', es, r, h, hl => by
    unfold backLoop at h
    obtain ⟨⟨es1, ls1⟩, h1, h⟩ := Res.bind_eq_ok.1 h
    obtain ⟨⟨es2, l1⟩, h2, h⟩ := Res.bind_eq_ok.1 h
    cases h
    intro m hm
    rcases List.mem_cons.1 hm with rfl | hm
    · unfold Layer.backOutput at h2
      obtain ⟨⟨_, _⟩, h3, h2⟩ := Res.bind_eq_ok.1 h2
      cases h2
      exact Body.Ready.back h3 (hl l (by simp))
    · exact backLoop_ready h1 (fun l hl' => hl l (by simp [hl'])) m hm

theorem readyLayers_kept : Kept (F := F) ReadyLayers where
  out := fun hp h => outputLoop_ready h hp
  training := fun hp h => trainingLoop_ready h hp
  back := by
    intro ls ls' es hp h
    cases ls with
    | nil => cases h
    | cons l ls =>
      unfold backwardPass at h
      obtain ⟨⟨es1, ls1⟩, h1, h⟩ := Res.bind_eq_ok.1 h
      obtain ⟨l1, h2, h⟩ := Res.bind_eq_ok.1 h
      cases h
      intro m hm
      rcases List.mem_cons.1 hm with rfl | hm
      · unfold Layer.train at h2
        obtain ⟨_, h3, h2⟩ := Res.bind_eq_ok.1 h2
        cases h2
        exact Body.Ready.train h3 (hp l (by simp))
      · exact backLoop_ready h1 (fun l hl' => hp l (by simp [hl'])) m hm

theorem Layer.Twin.refl {l : Layer F} (hr : l.body.Ready) (hn : NonRecurrent l) : l.Twin l := ⟨Layer.Same.refl l, hn, rfl, hr, hr⟩

/-- A new layer is between two passes. -/
theorem Body.Zeroed.ready {b : Body F} {ni no : Nat} (h : b.Zeroed) (hw : b.WF ni no) : b.Ready := by
  have key : ∀ (ns : List (Neuron F)) (info : FilterInfo), ConvWF ns info ni no → (∀ n ∈ ns, n.Zeroed) →
      ∀ n ∈ ns, n.Ready info.kernelIndexes.length := by
    intro ns info hw hz n hn
    obtain ⟨a, b, c, e⟩ := hz n hn
    exact ⟨hw.pos, (hw.neurons n hn).last.len, by rw [a, eff]; split <;> rfl⟩
  cases b with
  | fullyConnected ns => exact fun n hn => Neuron.Ready.one (hw.1 n hn).last.len
  | recurrence ns => trivial
  | gru ns => trivial
  | pool td info n mvi => exact hw.mviLen.trans hw.out
  | filter k ns info =>
    cases k with
    | conv1D => exact key ns info hw h
    | conv2D => exact key ns info hw h
    | lc1D => exact ⟨hw.count, fun n hn => Neuron.Ready.one (hw.neurons n hn).last.len⟩
    | lc2D => exact ⟨hw.count, fun n hn => Neuron.Ready.one (hw.neurons n hn).last.len⟩

end

end Snn
