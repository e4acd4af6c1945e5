import Verif.Proofs.ReachProofs
import Verif.Proofs.SameProofs
import Verif.Model.Equal

/-! Networks that `operator==` cannot tell apart compute the same outputs. -/

set_option linter.all false

namespace Snn

open Spec HistoryProps

section
variable {F : Type} [Flt F] [FTrans F] [Add F] [Sub F] [Mul F] [Div F] [Neg F]

/-! ### States that differ only by what `==` ignores and `output` does not read -/

def Neuron.Alike (a b : Neuron F) : Prop := ∃ k, b = { a with batchSize := k }
def RecNeuron.Alike (a b : RecNeuron F) : Prop := ∃ k, b = { a with base := { a.base with batchSize := k } }
def Gru.Alike (a b : Gru F) : Prop := ∃ e r u o, b = { a with errors := e, resetGate := r, updateGate := u, outputGate := o } ∧
  a.resetGate.Alike r ∧ a.updateGate.Alike u ∧ a.outputGate.Alike o
def LayerOpt.Alike (a b : LayerOpt F) : Prop := noMask a = noMask b
def Body.Alike (a b : Body F) : Prop :=
  match a, b with
  | .fullyConnected ns, .fullyConnected ms => List.Forall₂ Neuron.Alike ns ms
  | .recurrence ns, .recurrence ms => List.Forall₂ RecNeuron.Alike ns ms
  | .gru ns, .gru ms => List.Forall₂ Gru.Alike ns ms
  | .filter k ns i, .filter k' ms j => k' = k ∧ List.Forall₂ Neuron.Alike ns ms ∧ j = i
  | .pool t i n m, .pool t' j n' m' => t' = t ∧ j = i ∧ n' = n ∧ m'.length = m.length
  | _, _ => False
structure Layer.Alike (a b : Layer F) : Prop where
  opts : List.Forall₂ LayerOpt.Alike a.optimizers b.optimizers
  body : a.body.Alike b.body

theorem Neuron.output_alike {n m : Neuron F} (h : n.Alike m) (x : List F) :
    Res.Rel (fun p q => q.1 = p.1 ∧ Neuron.Alike p.2 q.2) (n.output x) (m.output x) := by
  obtain ⟨k, rfl⟩ := h
  unfold Neuron.output
  simp only
  refine Res.Rel.bind (Res.Rel.eq (β := Circ F)) ?_
  rintro li _ rfl
  refine Res.Rel.bind (Res.Rel.eq (β := F)) ?_
  rintro t _ rfl
  refine Res.Rel.bind (Res.Rel.eq (β := F)) ?_
  rintro wb _ rfl
  refine Res.Rel.bind (Res.Rel.eq (β := F)) ?_
  rintro o _ rfl
  exact ⟨rfl, k, rfl⟩

theorem RecNeuron.output_alike {n m : RecNeuron F} (h : n.Alike m) (x : List F) (t : Bool) :
    Res.Rel (fun p q => q.1 = p.1 ∧ RecNeuron.Alike p.2 q.2) (n.output x t) (m.output x t) := by
  obtain ⟨k, rfl⟩ := h
  unfold RecNeuron.output
  cases t
  all_goals
    simp only [RecNeuron.reset, Bool.false_eq_true, if_false, if_true]
    refine Res.Rel.bind (Res.Rel.eq (β := Circ F)) ?_
    rintro li _ rfl
    refine Res.Rel.bind (Res.Rel.eq (β := F)) ?_
    rintro t _ rfl
    refine Res.Rel.bind (Res.Rel.eq (β := F)) ?_
    rintro w1 _ rfl
    refine Res.Rel.bind (Res.Rel.eq (β := F)) ?_
    rintro w2 _ rfl
    refine Res.Rel.bind (Res.Rel.eq (β := F)) ?_
    rintro o _ rfl
    exact ⟨rfl, k, rfl⟩

theorem Gru.output_alike {n m : Gru F} (h : n.Alike m) (x : List F) (t : Bool) :
    Res.Rel (fun p q => q.1 = p.1 ∧ Gru.Alike p.2 q.2) (n.output x t) (m.output x t) := by
  obtain ⟨e, r, u, o, rfl, h1, h2, ⟨k, rfl⟩⟩ := h
  unfold Gru.output
  cases t
  all_goals
    simp only [Gru.reset, Bool.false_eq_true, if_false, if_true]
    refine Res.Rel.bind (RecNeuron.output_alike h1 _ _) ?_
    rintro ⟨ro, r1⟩ ⟨ro', r2⟩ ⟨e1, k1, e2⟩
    simp only at e1 e2
    subst e1 e2
    refine Res.Rel.bind (RecNeuron.output_alike h2 _ _) ?_
    rintro ⟨uo, u1⟩ ⟨uo', u2⟩ ⟨e1, k2, e2⟩
    simp only at e1 e2
    subst e1 e2
    refine Res.Rel.bind (RecNeuron.output_alike (m := { n.outputGate with base := { n.outputGate.base with batchSize := k }, lastOutput := n.outputGate.lastOutput * ro' })
      ⟨k, rfl⟩ _ _) ?_
    rintro ⟨oo, o1⟩ ⟨oo', o2⟩ ⟨e1, k3, e2⟩
    simp only at e1 e2
    subst e1 e2
    exact ⟨rfl, e, _, _, _, rfl, ⟨k1, rfl⟩, ⟨k2, rfl⟩, ⟨k3, rfl⟩⟩

theorem convOutputs_alike (x : List F) (size : Nat) : ∀ (rows : List (List Int)) {ns ms : List (Neuron F)},
    List.Forall₂ Neuron.Alike ns ms → Res.Rel (OutRel (List.Forall₂ Neuron.Alike)) (convOutputs x size rows ns) (convOutputs x size rows ms)
  | [], ns, ms, h => ⟨rfl, h⟩
  | row :: rows, ns, ms, h => by
    unfold convOutputs
    refine Res.Rel.bind (Res.Rel.eq (β := List F)) ?_
    rintro v _ rfl
    refine Res.Rel.bind (runNeurons_rel (fun n m h => Neuron.output_alike h _) h) ?_
    rintro ⟨a, n⟩ ⟨_, m⟩ ⟨rfl, hr⟩
    refine Res.Rel.bind (convOutputs_alike x size rows hr) ?_
    rintro ⟨as, ns⟩ ⟨_, ms⟩ ⟨rfl, hr'⟩
    exact ⟨rfl, hr'⟩

theorem lcOutputs_alike (x : List F) (size filters : Nat) : ∀ (rows : List (List Int)) {ns ms : List (Neuron F)},
    List.Forall₂ Neuron.Alike ns ms → Res.Rel (OutRel (List.Forall₂ Neuron.Alike)) (lcOutputs x size filters rows ns) (lcOutputs x size filters rows ms)
  | [], ns, ms, h => ⟨rfl, h⟩
  | row :: rows, ns, ms, h => by
    unfold lcOutputs
    refine Res.Rel.bind (Res.Rel.eq (β := List F)) ?_
    rintro v _ rfl
    rw [← h.length_eq]
    split
    · rfl
    · refine Res.Rel.bind (runNeurons_rel (fun n m h => Neuron.output_alike h _) (List.forall₂_take filters h)) ?_
      rintro ⟨a, n⟩ ⟨_, m⟩ ⟨rfl, hr⟩
      refine Res.Rel.bind (lcOutputs_alike x size filters rows (List.forall₂_drop filters h)) ?_
      rintro ⟨as, ns⟩ ⟨_, ms⟩ ⟨rfl, hr'⟩
      exact ⟨rfl, forall₂_append hr hr'⟩

theorem testingHooks_alike : ∀ {os ps : List (LayerOpt F)} (x : List F), List.Forall₂ LayerOpt.Alike os ps →
    testingHooks ps x = testingHooks os x
  | _, _, x, .nil => rfl
  | _, _, x, .cons (a := o) (b := p) h1 h2 => by
    have : p.afterOutputForTesting x = o.afterOutputForTesting x := by
      cases o <;> cases p <;> simp_all [LayerOpt.Alike, noMask, LayerOpt.afterOutputForTesting]
    simp only [testingHooks, this]
    congr 1
    funext y
    exact testingHooks_alike y h2

theorem Layer.output_alike {l m : Layer F} (h : l.Alike m) (x : List F) (t : Bool) :
    Res.Rel (OutRel Layer.Alike) (l.output x t) (m.output x t) := by
  obtain ⟨h2, h3⟩ := h
  unfold Layer.output
  refine Res.Rel.bind (R := OutRel Body.Alike) ?_ ?_
  · cases hb : l.body <;> cases hb' : m.body <;> rw [hb, hb'] at h3 <;> simp only [Body.Alike] at h3
    · refine Res.Rel.bind (runNeurons_rel (fun n m h => Neuron.output_alike h _) h3) ?_
      rintro ⟨a, n⟩ ⟨_, m⟩ ⟨rfl, hr⟩
      exact ⟨rfl, hr⟩
    · refine Res.Rel.bind (runNeurons_rel (fun n m h => RecNeuron.output_alike h _ _) h3) ?_
      rintro ⟨a, n⟩ ⟨_, m⟩ ⟨rfl, hr⟩
      exact ⟨rfl, hr⟩
    · refine Res.Rel.bind (runNeurons_rel (fun n m h => Gru.output_alike h _ _) h3) ?_
      rintro ⟨a, n⟩ ⟨_, m⟩ ⟨rfl, hr⟩
      exact ⟨rfl, hr⟩
    · rename_i k1 n1 i1 k2 n2 i2
      obtain ⟨hk, h4, rfl⟩ := h3
      subst hk
      refine Res.Rel.bind (R := OutRel (List.Forall₂ Neuron.Alike)) ?_ ?_
      · cases k2
        · exact convOutputs_alike _ _ _ h4
        · exact convOutputs_alike _ _ _ h4
        · exact lcOutputs_alike _ _ _ _ h4
        · exact lcOutputs_alike _ _ _ _ h4
      · rintro ⟨a, n⟩ ⟨_, m⟩ ⟨rfl, hr⟩
        refine Res.Rel.bind (Res.Rel.eq (β := List F)) ?_
        rintro v _ rfl
        exact ⟨rfl, rfl, hr, rfl⟩
    · obtain ⟨rfl, rfl, rfl, h4⟩ := h3
      refine Res.Rel.bind (Res.Rel.eq (β := List F × List Int)) ?_
      rintro ⟨a, n⟩ _ rfl
      refine Res.Rel.bind (Res.Rel.eq (β := List F)) ?_
      rintro v _ rfl
      simp only [h4]
      split
      · rfl
      · exact ⟨rfl, rfl, rfl, rfl, by simp [h4]⟩
  · rintro ⟨a, b⟩ ⟨a', b'⟩ ⟨e, hr⟩
    simp only at e
    subst e
    simp only [testingHooks_alike a' h2]
    refine Res.Rel.bind (Res.Rel.eq (β := List F)) ?_
    rintro v _ rfl
    exact ⟨rfl, h2, hr⟩

theorem outputLoop_alike (t : Bool) : ∀ {ls ms : List (Layer F)} (x : List F), List.Forall₂ Layer.Alike ls ms →
    Res.Rel (OutRel (List.Forall₂ Layer.Alike)) (outputLoop t ls x) (outputLoop t ms x)
  | _, _, x, .nil => ⟨rfl, .nil⟩
  | _, _, x, .cons h1 h2 => by
    unfold outputLoop
    refine Res.Rel.bind (Layer.output_alike h1 x t) ?_
    rintro ⟨a, n⟩ ⟨a', m⟩ ⟨ha, hr⟩
    simp only at ha
    subst ha
    refine Res.Rel.bind (outputLoop_alike t _ h2) ?_
    rintro ⟨as, ns⟩ ⟨_, ms⟩ ⟨rfl, hr'⟩
    exact ⟨rfl, .cons hr hr'⟩

theorem Net.output_alike {a b : Net F} (h : List.Forall₂ Layer.Alike a.layers b.layers) (x : List F) (t : Bool) :
    Res.Rel (OutRel fun p q : Net F => List.Forall₂ Layer.Alike p.layers q.layers) (a.output x t) (b.output x t) := by
  unfold Net.output
  have : b.layers.isEmpty = a.layers.isEmpty := by
    have := h.length_eq
    cases ha : a.layers <;> cases hb : b.layers <;> rw [ha, hb] at this <;> simp_all
  rw [this]
  split
  · rfl
  · refine Res.Rel.bind (outputLoop_alike t x h) ?_
    rintro ⟨a, n⟩ ⟨_, m⟩ ⟨rfl, hr⟩
    exact ⟨rfl, hr⟩

/-! ### From `==` -/

theorem vecEq_forall₂ {α : Type} {eq : α → α → Bool} {R : α → α → Prop} (hR : ∀ a b, eq a b = true → R a b) :
    ∀ {as bs : List α}, vecEq eq as bs = true → List.Forall₂ R as bs
  | [], [], _ => .nil
  | a :: as, b :: bs, h => by
    simp only [vecEq, Bool.and_eq_true] at h
    exact .cons (hR _ _ h.1) (vecEq_forall₂ hR h.2)
  | [], _ :: _, h => by simp [vecEq] at h
  | _ :: _, [], h => by simp [vecEq] at h

theorem vecEq_eq {α : Type} {eq : α → α → Bool} (hR : ∀ a b, eq a b = true → a = b) {as bs : List α} (h : vecEq eq as bs = true) :
    as = bs := by
  have := vecEq_forall₂ hR h
  induction this with
  | nil => rfl
  | cons h1 _ ih => 
    simp only [vecEq, Bool.and_eq_true] at h
    rw [h1, ih h.2]

section
variable (hf : ∀ x y : F, feq x y = true → x = y)
include hf

theorem Circ.eq_eq {a b : Circ F} (h : a.eq b = true) : a = b := by
  simp only [Circ.eq, Bool.and_eq_true, beq_iff_eq] at h
  obtain ⟨⟨h1, h2⟩, h3⟩ := h
  have := vecEq_eq (fun _ _ h => vecEq_eq hf h) h1
  cases a; cases b; simp_all

theorem Sgd.eq_eq {a b : Sgd F} (h : a.eq b = true) : a = b := by
  simp only [Sgd.eq, Bool.and_eq_true] at h
  have h1 := hf _ _ h.1
  have h2 := hf _ _ h.2
  cases a; cases b; simp_all

theorem Neuron.eq_alike {a b : Neuron F} (h : a.eq b = true) : a.Alike b := by
  simp only [Neuron.eq, Bool.and_eq_true, beq_iff_eq] at h
  obtain ⟨⟨⟨⟨⟨⟨⟨⟨h1, h2⟩, h3⟩, h4⟩, h5⟩, h6⟩, h7⟩, h8⟩, h9⟩ := h
  have h2 := vecEq_eq hf h2
  have h3 := hf _ _ h3
  have h4 := Circ.eq_eq hf h4
  have h5 := Circ.eq_eq hf h5
  have h6 := vecEq_eq hf h6
  have h7 := hf _ _ h7
  have h9 := Sgd.eq_eq hf h9
  refine ⟨b.batchSize, ?_⟩
  cases a; cases b; simp_all

theorem RecNeuron.eq_alike {a b : RecNeuron F} (h : a.eq b = true) : a.Alike b := by
  simp only [RecNeuron.eq, Bool.and_eq_true] at h
  obtain ⟨⟨⟨⟨h1, h2⟩, h3⟩, h4⟩, h5⟩ := h
  obtain ⟨k, h1⟩ := Neuron.eq_alike hf h1
  have h2 := hf _ _ h2
  have h3 := hf _ _ h3
  have h4 := hf _ _ h4
  have h5 := hf _ _ h5
  refine ⟨k, ?_⟩
  cases a; cases b; simp_all

theorem Gru.eq_alike {a b : Gru F} (h : a.eq b = true) : a.Alike b := by
  simp only [Gru.eq, Bool.and_eq_true, beq_iff_eq] at h
  obtain ⟨⟨⟨⟨⟨⟨⟨h1, h2⟩, h3⟩, h4⟩, h5⟩, h6⟩, h7⟩, h8⟩ := h
  have h2 := hf _ _ h2
  have h3 := hf _ _ h3
  have h4 := hf _ _ h4
  have h5 := hf _ _ h5
  refine ⟨b.errors, b.resetGate, b.updateGate, b.outputGate, ?_, RecNeuron.eq_alike hf h6, RecNeuron.eq_alike hf h7,
    RecNeuron.eq_alike hf h8⟩
  cases a; cases b; simp_all

theorem optsEq_alike : ∀ {as bs : List (LayerOpt F)}, as.length = bs.length → optsEq as bs = .ok true →
    List.Forall₂ LayerOpt.Alike as bs
  | [], [], _, _ => .nil
  | a :: as, b :: bs, hl, h => by
    unfold optsEq at h
    split at h
    · rename_i he
      refine .cons ?_ (optsEq_alike (by simpa using hl) h)
      cases a <;> cases b <;> simp [LayerOpt.eq] at he <;> simp [LayerOpt.Alike, noMask]
      · exact ⟨hf _ _ he.1, hf _ _ he.2⟩
      · exact hf _ _ he
      · exact hf _ _ he
      · exact hf _ _ he
    · cases h
  | [], _ :: _, h, _ => by simp at h
  | _ :: _, [], h, _ => by simp at h

end

/-! ### The tables of a pooling layer are determined by its shape and kernel -/

/-- A pooling layer has the tables its constructor computes. -/
def Layer.PoolBuilt (l : Layer F) : Prop :=
  match l.body with
  | .pool t i n m => l.optimizers = [] ∧ ∃ (ni : Int) (shape : List Int) (l0 : Layer F) (m0 : List Int), computeNumberOfInputs shape = .ok ni ∧
      buildMaxPooling ni shape i.kernelSize = .ok l0 ∧ l0.body = .pool t i n m0 ∧ m.length = m0.length
  | _ => True

theorem Layer.PoolBuilt.kin {l l' : Layer F} (h : l.PoolBuilt) (k : l.Kin l') : l'.PoolBuilt := by
  have ko := k.opts
  have k := k.body
  unfold Layer.PoolBuilt at *
  cases hb : l.body <;> cases hb' : l'.body <;> rw [hb, hb'] at k <;> simp only [Body.Kin] at k <;> rw [hb] at h <;>
    simp only at h ⊢
  obtain ⟨rfl, rfl, rfl, e⟩ := k
  obtain ⟨ho, ni, shape, l0, m0, h1, h2, h3, h4⟩ := h
  exact ⟨by simpa [ho] using ko, ni, shape, l0, m0, h1, h2, h3, e.trans h4⟩

theorem Layer.PoolBuilt.forget {l : Layer F} (h : l.PoolBuilt) : l.forget.PoolBuilt := by
  unfold Layer.forget
  split
  · trivial
  · exact h

theorem mulI_ok {a b c : Int} (h : mulI a b = .ok c) : c = a * b := by
  unfold mulI ckInt at h
  split at h
  · cases h; rfl
  · cases h

theorem numberOfInputs_normalize {s t : List Int} {a b : Int} (h : computeNumberOfInputs s = .ok a)
    (k : computeNumberOfInputs t = .ok b) (e : normalizeShape s = normalizeShape t) : a = b := by
  have key : ∀ (s : List Int) (i a : Int), s.foldlM mulI i = (.ok a : Res Int) → a = i * s.prod := by
    intro s
    induction s with
    | nil => intro i a h; cases h; simp
    | cons x s ih =>
      intro i a h
      rw [List.foldlM_cons] at h
      obtain ⟨c, h1, h2⟩ := Res.bind_eq_ok.1 h
      rw [ih _ _ h2, mulI_ok h1, List.prod_cons, mul_assoc]
  have hp : ∀ s : List Int, (normalizeShape s).prod = s.prod := by
    intro s
    unfold normalizeShape
    split <;> simp
  rw [key _ _ _ h, key _ _ _ k, ← hp s, ← hp t, e]

theorem buildMaxPooling_form {ni k : Int} {shape : List Int} {l : Layer F} (h : buildMaxPooling ni shape k = .ok l) :
    ∃ t i n m, l.body = .pool t i n m ∧ i.kernelSize = k ∧ i.shapeOfInput = normalizeShape shape := by
  unfold buildMaxPooling at h
  split at h
  · rename_i e
    split at h
    · cases h
    · obtain ⟨_, _, h⟩ := Res.bind_eq_ok.1 h
      simp only at h
      split at h
      · cases h
      · obtain ⟨_, _, h⟩ := Res.bind_eq_ok.1 h
        obtain ⟨_, _, h⟩ := Res.bind_eq_ok.1 h
        cases h
        exact ⟨_, _, _, _, rfl, rfl, e.symm⟩
  · rename_i e
    split at h
    · cases h
    · obtain ⟨_, _, h⟩ := Res.bind_eq_ok.1 h
      obtain ⟨_, _, h⟩ := Res.bind_eq_ok.1 h
      obtain ⟨_, _, h⟩ := Res.bind_eq_ok.1 h
      obtain ⟨_, _, h⟩ := Res.bind_eq_ok.1 h
      obtain ⟨_, _, h⟩ := Res.bind_eq_ok.1 h
      split at h
      · cases h
      · obtain ⟨_, _, h⟩ := Res.bind_eq_ok.1 h
        cases h
        exact ⟨_, _, _, _, rfl, rfl, e.symm⟩
  · cases h

theorem buildMaxPooling_congr {ni k : Int} {s t : List Int} (e : normalizeShape s = normalizeShape t) :
    (buildMaxPooling ni s k : Res (Layer F)) = buildMaxPooling ni t k := by
  unfold buildMaxPooling
  rw [e]

/-- Two pooling layers with the same kernel and input shape have the same tables. -/
theorem poolBuilt_same {a b : Layer F} (ha : a.PoolBuilt) (hb : b.PoolBuilt) {t t' : Bool} {i j : FilterInfo} {n n' : Int} {m m' : List Int}
    (ea : a.body = .pool t i n m) (eb : b.body = .pool t' j n' m') (hk : i.kernelSize = j.kernelSize)
    (hs : i.shapeOfInput = j.shapeOfInput) : t' = t ∧ j = i ∧ n' = n ∧ m'.length = m.length := by
  unfold Layer.PoolBuilt at ha hb
  rw [ea] at ha
  rw [eb] at hb
  obtain ⟨_, ni, s, l0, m0, h1, h2, h3, h4⟩ := ha
  obtain ⟨_, ni', s', l0', m0', k1, k2, k3, k4⟩ := hb
  obtain ⟨_, _, _, _, f1, f2, f3⟩ := buildMaxPooling_form h2
  obtain ⟨_, _, _, _, g1, g2, g3⟩ := buildMaxPooling_form k2
  rw [h3] at f1
  rw [k3] at g1
  cases f1
  cases g1
  have e : normalizeShape s = normalizeShape s' := by rw [← f3, ← g3, hs]
  have en := numberOfInputs_normalize h1 k1 e
  subst en
  rw [← hk, ← buildMaxPooling_congr e, h2] at k2
  cases k2
  rw [h3] at k3
  cases k3
  exact ⟨rfl, rfl, rfl, k4.trans h4.symm⟩

theorem buildSimple_wrap {N : Type} {mk : NeuronModel F → Draws F → Res N} {g : Nat} {wrap : List N → Body F} {ni e n : Int} {act : Act}
    {opts : List (LayerOptModel F)} {d d' : Draws F} {l : Layer F} (h : buildSimple mk g wrap ni e n act opts d = .ok (l, d')) :
    ∃ ns, l.body = wrap ns := by
  unfold buildSimple at h
  obtain ⟨_, _, h⟩ := Res.bind_eq_ok.1 h
  obtain ⟨⟨ns, _⟩, _, h⟩ := Res.bind_eq_ok.1 h
  cases h
  exact ⟨ns, rfl⟩

theorem buildConvolution_filter {o : Sgd F} {ni f k : Int} {shape : List Int} {act : Act} {opts : List (LayerOptModel F)} {d d' : Draws F}
    {l : Layer F} (h : buildConvolution o ni shape f k act opts d = .ok (l, d')) : ∃ kd ns i, l.body = .filter kd ns i := by
  unfold buildConvolution at h
  split at h
  · split at h
    · cases h
    · obtain ⟨_, _, h⟩ := Res.bind_eq_ok.1 h
      obtain ⟨_, _, h⟩ := Res.bind_eq_ok.1 h
      obtain ⟨_, _, h⟩ := Res.bind_eq_ok.1 h
      obtain ⟨_, _, h⟩ := Res.bind_eq_ok.1 h
      obtain ⟨_, _, h⟩ := Res.bind_eq_ok.1 h
      simp only at h
      obtain ⟨⟨ns, d1⟩, h1, h⟩ := Res.bind_eq_ok.1 h
      simp only at h
      obtain ⟨_, _, h⟩ := Res.bind_eq_ok.1 h
      cases h
      exact ⟨_, _, _, rfl⟩
  · split at h
    · cases h
    · obtain ⟨_, _, h⟩ := Res.bind_eq_ok.1 h
      obtain ⟨_, _, h⟩ := Res.bind_eq_ok.1 h
      obtain ⟨_, _, h⟩ := Res.bind_eq_ok.1 h
      obtain ⟨_, _, h⟩ := Res.bind_eq_ok.1 h
      obtain ⟨_, _, h⟩ := Res.bind_eq_ok.1 h
      obtain ⟨_, _, h⟩ := Res.bind_eq_ok.1 h
      obtain ⟨_, _, h⟩ := Res.bind_eq_ok.1 h
      obtain ⟨_, _, h⟩ := Res.bind_eq_ok.1 h
      simp only at h
      obtain ⟨⟨ns, d1⟩, h1, h⟩ := Res.bind_eq_ok.1 h
      simp only at h
      obtain ⟨_, _, h⟩ := Res.bind_eq_ok.1 h
      cases h
      exact ⟨_, _, _, rfl⟩
  · cases h

theorem buildLocallyConnected_filter {o : Sgd F} {ni f k : Int} {shape : List Int} {act : Act} {opts : List (LayerOptModel F)} {d d' : Draws F}
    {l : Layer F} (h : buildLocallyConnected o ni shape f k act opts d = .ok (l, d')) : ∃ kd ns i, l.body = .filter kd ns i := by
  unfold buildLocallyConnected at h
  split at h
  · split at h
    · cases h
    · obtain ⟨_, _, h⟩ := Res.bind_eq_ok.1 h
      obtain ⟨_, _, h⟩ := Res.bind_eq_ok.1 h
      obtain ⟨_, _, h⟩ := Res.bind_eq_ok.1 h
      obtain ⟨_, _, h⟩ := Res.bind_eq_ok.1 h
      obtain ⟨_, _, h⟩ := Res.bind_eq_ok.1 h
      simp only at h
      obtain ⟨⟨ns, d1⟩, h1, h⟩ := Res.bind_eq_ok.1 h
      simp only at h
      obtain ⟨_, _, h⟩ := Res.bind_eq_ok.1 h
      cases h
      exact ⟨_, _, _, rfl⟩
  · split at h
    · cases h
    · obtain ⟨_, _, h⟩ := Res.bind_eq_ok.1 h
      obtain ⟨_, _, h⟩ := Res.bind_eq_ok.1 h
      obtain ⟨_, _, h⟩ := Res.bind_eq_ok.1 h
      obtain ⟨_, _, h⟩ := Res.bind_eq_ok.1 h
      obtain ⟨_, _, h⟩ := Res.bind_eq_ok.1 h
      obtain ⟨_, _, h⟩ := Res.bind_eq_ok.1 h
      obtain ⟨_, _, h⟩ := Res.bind_eq_ok.1 h
      obtain ⟨_, _, h⟩ := Res.bind_eq_ok.1 h
      simp only at h
      obtain ⟨⟨ns, d1⟩, h1, h⟩ := Res.bind_eq_ok.1 h
      simp only at h
      obtain ⟨_, _, h⟩ := Res.bind_eq_ok.1 h
      cases h
      exact ⟨_, _, _, rfl⟩
  · cases h

theorem buildLayer_poolBuilt {o : Sgd F} {m : LayerModel F} {shape : List Int} {d d' : Draws F} {l : Layer F}
    (h : buildLayer o m shape d = .ok (l, d')) : l.PoolBuilt := by
  unfold buildLayer at h
  obtain ⟨ni, hni, h⟩ := Res.bind_eq_ok.1 h
  split at h
  · cases h
  split at h
  · cases h
  unfold Layer.PoolBuilt
  cases m with
  | fullyConnected n act opts =>
    simp only at h
    split at h
    · cases h
    · obtain ⟨ns, e⟩ := buildSimple_wrap h
      rw [e]; trivial
  | recurrence n act opts =>
    obtain ⟨ns, e⟩ := buildSimple_wrap h
    rw [e]; trivial
  | gru n opts =>
    obtain ⟨ns, e⟩ := buildSimple_wrap h
    rw [e]; trivial
  | maxPooling k =>
    simp only at h
    obtain ⟨l1, h1, h⟩ := Res.bind_eq_ok.1 h
    cases h
    obtain ⟨t, i, n, m, e, e2, e3⟩ := buildMaxPooling_form h1
    rw [e]
    exact ⟨List.length_eq_zero_iff.1 (buildMaxPooling_set (o := o) h1).1, ni, shape, l, m, hni, by rw [e2]; exact h1, e, rfl⟩
  | locallyConnected f k act opts =>
    obtain ⟨_, _, _, e⟩ := buildLocallyConnected_filter h
    rw [e]; trivial
  | convolution f k act opts =>
    obtain ⟨_, _, _, e⟩ := buildConvolution_filter h
    rw [e]; trivial
  | input s => cases h

theorem buildLayers_poolBuilt {o : Sgd F} : ∀ {ms : List (LayerModel F)} {shape : List Int} {d d' : Draws F} {ls : List (Layer F)},
    buildLayers o ms shape d = .ok (ls, d') → ∀ l ∈ ls, l.PoolBuilt
  | [], shape, d, d', ls, h => by cases h; simp
  | m :: ms, shape, d, d', ls, h => by
    unfold buildLayers at h
    obtain ⟨⟨l, d1⟩, h1, h⟩ := Res.bind_eq_ok.1 h
    obtain ⟨⟨ls', d2⟩, h2, h⟩ := Res.bind_eq_ok.1 h
    cases h
    intro x hx
    rcases List.mem_cons.1 hx with rfl | hx
    · exact buildLayer_poolBuilt h1
    · exact buildLayers_poolBuilt h2 x hx

theorem Net.make_poolBuilt {arch : List (LayerModel F)} {o : Sgd F} {d d' : Draws F} {n : Net F} (h : Net.make arch o d = .ok (n, d')) :
    ∀ l ∈ n.layers, l.PoolBuilt := by
  unfold Net.make at h
  obtain ⟨⟨ls, d1⟩, h1, h⟩ := Res.bind_eq_ok.1 h
  obtain ⟨last, h2, h⟩ := Res.bind_eq_ok.1 h
  cases h
  unfold LayerFactory.build at h1
  split at h1
  · cases h1
  · split at h1
    · split at h1
      · cases h1
      · obtain ⟨_, _, h1⟩ := Res.bind_eq_ok.1 h1
        split at h1
        · cases h1
        · exact buildLayers_poolBuilt h1
    · cases h1

theorem Spec.Reach.poolBuilt [FText F] {arch : List (LayerModel F)} {s : Snn F} (h : Reach arch s) : ∀ l ∈ s.net.layers, l.PoolBuilt := by
  induction h with
  | make h =>
    unfold Snn.make at h
    obtain ⟨⟨net, d1⟩, h1, h⟩ := Res.bind_eq_ok.1 h
    obtain ⟨err, _, h⟩ := Res.bind_eq_ok.1 h
    split at h
    · cases h
    · cases h
      exact Net.make_poolBuilt h1
  | call _ h ih =>
    exact forall₂_forall (Call.run_kin h).layers ih fun a b hk ha => ha.kin hk
  | stop _ ih => exact ih
  | copy hr h ih =>
    rw [Snn.copy_eq hr.set] at h
    cases h
    exact ih
  | load _ hf h ih =>
    rename_i s t path files _
    simp only [loadFrom, hf] at h
    obtain ⟨⟨t', a⟩, h1, h⟩ := Res.bind_eq_ok.1 h
    cases h
    rcases load_saved_or s with ⟨_, a', h2⟩ | ⟨_, m, h2⟩
    · rw [h2] at h1
      cases h1
      intro l hl
      simp only [Snn.forget, Net.forget, List.mem_map] at hl
      obtain ⟨m, hm, rfl⟩ := hl
      exact (ih m hm).forget
    · rw [h2] at h1; cases h1

section
variable (hf : ∀ x y : F, feq x y = true → x = y)
include hf

theorem Layer.baseEq_opts {a b : Layer F} {e : Bool} (hl : a.optimizers.length = b.optimizers.length) (h : a.baseEq b e = .ok true) :
    e = true ∧ List.Forall₂ LayerOpt.Alike a.optimizers b.optimizers := by
  unfold Layer.baseEq at h
  split at h
  · rename_i he
    simp only [Bool.and_eq_true] at he
    exact ⟨he.2, optsEq_alike hf hl h⟩
  · cases h

theorem Layer.eq_alike {a b : Layer F} (ha : a.PoolBuilt) (hb : b.PoolBuilt) (hl : a.optimizers.length = b.optimizers.length)
    (h : a.eq b = .ok true) : a.Alike b := by
  unfold Layer.eq at h
  cases ea : a.body <;> cases eb : b.body <;> rw [ea, eb] at h <;> simp only at h <;> try (cases h; done)
  · obtain ⟨h1, h2⟩ := Layer.baseEq_opts hf hl h
    exact ⟨h2, by rw [ea, eb]; exact vecEq_forall₂ (fun _ _ h => Neuron.eq_alike hf h) h1⟩
  · obtain ⟨h1, h2⟩ := Layer.baseEq_opts hf hl h
    exact ⟨h2, by rw [ea, eb]; exact vecEq_forall₂ (fun _ _ h => RecNeuron.eq_alike hf h) h1⟩
  · obtain ⟨h1, h2⟩ := Layer.baseEq_opts hf hl h
    exact ⟨h2, by rw [ea, eb]; exact vecEq_forall₂ (fun _ _ h => Gru.eq_alike hf h) h1⟩
  · split at h
    · rename_i hk
      obtain ⟨e, h0, h⟩ := Res.bind_eq_ok.1 h
      simp only [Res.pure_eq, Res.ok.injEq, Bool.and_eq_true, beq_iff_eq] at h
      obtain ⟨rfl, rfl⟩ := h
      obtain ⟨h1, h2⟩ := Layer.baseEq_opts hf hl h0
      simp only [beq_iff_eq] at hk
      exact ⟨h2, by rw [ea, eb]; exact ⟨hk.symm, vecEq_forall₂ (fun _ _ h => Neuron.eq_alike hf h) h1, rfl⟩⟩
    · cases h
  · simp only [Res.ok.injEq, Bool.and_eq_true, beq_iff_eq] at h
    obtain ⟨⟨rfl, h2⟩, h3⟩ := h
    have ho : a.optimizers = [] := by unfold Layer.PoolBuilt at ha; rw [ea] at ha; exact ha.1
    have ho' : b.optimizers = [] := by rw [ho] at hl; exact List.length_eq_zero_iff.1 hl.symm
    refine ⟨by rw [ho, ho']; exact .nil, ?_⟩
    rw [ea, eb]
    exact poolBuilt_same ha hb ea eb h2 h3

theorem layersEq_alike : ∀ {as bs : List (Layer F)}, as.length = bs.length → (∀ l ∈ as, l.PoolBuilt) → (∀ l ∈ bs, l.PoolBuilt) →
    as.map (fun l => l.optimizers.length) = bs.map (fun l => l.optimizers.length) → layersEq as bs = .ok true →
    List.Forall₂ Layer.Alike as bs
  | [], [], _, _, _, _, _ => .nil
  | a :: as, b :: bs, hl, ha, hb, ho, h => by
    unfold layersEq at h
    obtain ⟨e, h1, h⟩ := Res.bind_eq_ok.1 h
    cases e
    · cases h
    · simp only [if_true] at h
      simp only [List.map_cons, List.cons.injEq] at ho
      exact .cons (Layer.eq_alike hf (ha a (by simp)) (hb b (by simp)) ho.1 h1)
        (layersEq_alike (by simpa using hl) (fun l hl => ha l (by simp [hl])) (fun l hl => hb l (by simp [hl])) ho.2 h)
  | [], _ :: _, hl, _, _, _, _ => by simp at hl
  | _ :: _, [], hl, _, _, _, _ => by simp at hl

theorem Snn.eq_alike {a b : Snn F} (ha : ∀ l ∈ a.net.layers, l.PoolBuilt) (hb : ∀ l ∈ b.net.layers, l.PoolBuilt)
    (ho : a.net.layers.map (fun l => l.optimizers.length) = b.net.layers.map (fun l => l.optimizers.length))
    (h : a.eq b = .ok true) : List.Forall₂ Layer.Alike a.net.layers b.net.layers := by
  unfold Snn.eq at h
  obtain ⟨e, h1, h⟩ := Res.bind_eq_ok.1 h
  simp only [Res.pure_eq, Res.ok.injEq, Bool.and_eq_true] at h
  obtain ⟨⟨⟨⟨⟨⟨⟨rfl, _⟩, _⟩, _⟩, _⟩, _⟩, _⟩, _⟩ := h
  unfold Net.eq at h1
  split at h1
  · rename_i he
    simp only [Bool.and_eq_true, beq_iff_eq] at he
    exact layersEq_alike hf he.2 ha hb ho h1
  · cases h1

end

end

end Snn
