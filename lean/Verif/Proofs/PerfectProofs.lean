import Verif.Proofs.SafeProofs
import Verif.Proofs.FrameProofs
import Verif.Proofs.LayerKin
import Verif.Proofs.Feedforward
import Verif.Spec.StructSpec
import Verif.Basic.RealFlt

/-! Errors that are all 0: no weight moves, except those of the biases that become 0. -/

set_option linter.all false

namespace Snn.Perfect

open Snn Spec

section
variable {F : Type} [Field F] [LinearOrder F] [IsStrictOrderedRing F] [FTrans F]

/-- All the errors are 0. -/
def Zeros (es : List F) : Prop := ∀ e ∈ es, e = 0

/-- A neuron with one weight for its bias and no momentum. -/
def Idle (n : Neuron F) : Prop := n.weights.length = n.numberOfInputs.toNat + 1 ∧ n.optimizer.momentum = 0

/-- The neuron lost the weight of its bias. -/
def Off (n n' : Neuron F) : Prop := n'.weights = n.weights.dropLast ++ [0]

theorem Off.trans {a b c : Neuron F} (h : Off a b) (k : Off b c) : Off a c := by
  unfold Off at *
  rw [k, h]; simp

theorem Idle.kin {n n' : Neuron F} (h : Idle n) (k : n.Kin n') : Idle n' := by
  refine ⟨?_, ?_⟩
  · rw [k.weights, k.numberOfInputs]; exact h.1
  · rw [k.optimizer]; exact h.2

theorem sgdLoop_zero : ∀ {k : Nat} {x p w ds ws : List F}, sgdLoop (0 : F) 0 k x p w = .ok (ds, ws) → ws = w.take k
  | 0, x, p, w, ds, ws, h => by cases h; rfl
  | k + 1, x :: xs, p :: ps, w :: ws0, ds, ws, h => by
    unfold sgdLoop at h
    obtain ⟨⟨a, b⟩, h1, h⟩ := Res.bind_eq_ok.1 h
    cases h
    have := sgdLoop_zero h1
    simp [this]
  | k + 1, [], p, w, ds, ws, h => by simp [sgdLoop] at h
  | k + 1, x :: xs, [], w, ds, ws, h => by simp [sgdLoop] at h
  | k + 1, x :: xs, p :: ps, [], ds, ws, h => by simp [sgdLoop] at h

theorem update_zero {n n' : Neuron F} (hi : Idle n) (h : n.optimizer.updateSimple n 0 = .ok n') : Off n n' := by
  unfold Sgd.updateSimple at h
  obtain ⟨⟨li, l1⟩, _, h⟩ := Res.bind_eq_ok.1 h
  obtain ⟨⟨pv, p1⟩, _, h⟩ := Res.bind_eq_ok.1 h
  obtain ⟨⟨ds, ws⟩, h1, h⟩ := Res.bind_eq_ok.1 h
  obtain ⟨p, _, h⟩ := Res.bind_eq_ok.1 h
  obtain ⟨_, _, h⟩ := Res.bind_eq_ok.1 h
  obtain ⟨pd, _, h⟩ := Res.bind_eq_ok.1 h
  cases h
  rw [hi.2, mul_zero] at h1
  have e := sgdLoop_zero h1
  unfold Off
  simp only [hi.2, mul_zero, zero_mul, add_zero]
  rw [e, List.dropLast_eq_take, hi.1]
  have : n.weights.drop (n.numberOfInputs.toNat + 1) = [] := by
    apply List.drop_eq_nil_of_le; rw [hi.1]
  rw [this]; simp

theorem errorLoop_zero : ∀ {k : Nat} {es ws r : List F}, errorLoop (0 : F) k es ws = .ok r → k = es.length → Zeros r
  | 0, es, ws, r, h, hk => by
    cases h
    intro e he
    rw [List.length_eq_zero_iff.1 hk.symm] at he; simp at he
  | k + 1, e :: es, w :: ws, r, h, hk => by
    unfold errorLoop at h
    obtain ⟨r1, h1, h⟩ := Res.bind_eq_ok.1 h
    cases h
    have := errorLoop_zero h1 (by simpa using hk)
    intro e he
    rcases List.mem_cons.1 he with rfl | he
    · simp
    · exact this e he
  | k + 1, [], ws, r, h, hk => by simp [errorLoop] at h
  | k + 1, e :: es, [], r, h, hk => by simp [errorLoop] at h

theorem neuron_train {n n' : Neuron F} (hi : Idle n) (h : n.train 0 = .ok n') : Off n n' ∧ Idle n' := by
  refine ⟨?_, hi.kin (Neuron.train_kin h)⟩
  unfold Neuron.train at h
  obtain ⟨d, _, h⟩ := Res.bind_eq_ok.1 h
  rw [zero_mul] at h
  exact update_zero hi h

theorem neuron_back {n n' : Neuron F} {r : List F} (hi : Idle n) (h : n.backOutput 0 = .ok (r, n')) : Zeros r ∧ Off n n' ∧ Idle n' := by
  have hk := hi.kin (Neuron.backOutput_kin h)
  unfold Neuron.backOutput at h
  obtain ⟨d, _, h⟩ := Res.bind_eq_ok.1 h
  simp only [zero_mul] at h
  obtain ⟨es, h1, h⟩ := Res.bind_eq_ok.1 h
  obtain ⟨n1, h2, h⟩ := Res.bind_eq_ok.1 h
  have he : n1.errors = es := by
    unfold Sgd.updateSimple at h2
    obtain ⟨⟨li, l1⟩, _, h⟩ := Res.bind_eq_ok.1 h2
    obtain ⟨⟨pv, p1⟩, _, h⟩ := Res.bind_eq_ok.1 h
    obtain ⟨⟨ds, ws⟩, h1, h⟩ := Res.bind_eq_ok.1 h
    obtain ⟨p, _, h⟩ := Res.bind_eq_ok.1 h
    obtain ⟨_, _, h⟩ := Res.bind_eq_ok.1 h
    obtain ⟨pd, _, h⟩ := Res.bind_eq_ok.1 h
    cases h
    rfl
  cases h
  rw [he]
  exact ⟨errorLoop_zero h1 rfl, update_zero (n := { n with errors := es }) hi h2, hk⟩

theorem addErrors_zero : ∀ {a b r : List F}, addErrors a b = .ok r → Zeros a → Zeros b → Zeros r
  | [], b, r, h, _, _ => by cases h; simp [Zeros]
  | a :: as, b :: bs, r, h, ha, hb => by
    unfold addErrors at h
    obtain ⟨r1, h1, h⟩ := Res.bind_eq_ok.1 h
    cases h
    have := addErrors_zero h1 (fun e he => ha e (by simp [he])) (fun e he => hb e (by simp [he]))
    intro e he
    rcases List.mem_cons.1 he with rfl | he
    · rw [ha a (by simp), hb b (by simp), add_zero]
    · exact this e he
  | a :: as, [], r, h, _, _ => by simp [addErrors] at h

theorem wr_zero {l l' : List F} {i : Int} {v : F} (h : wr l i v = .ok l') (hl : Zeros l) (hv : v = 0) : Zeros l' := by
  unfold wr at h
  split at h
  · cases h
    intro e he
    rcases List.mem_or_eq_of_mem_set he with h | h
    · exact hl e h
    · rw [h, hv]
  · cases h

theorem rd_zero {l : List F} {i : Int} {v : F} (h : rd l i = .ok v) (hl : Zeros l) : v = 0 := by
  unfold rd at h
  split at h
  · split at h
    · rename_i a e; cases h; exact hl _ (List.mem_of_getElem? e)
    · cases h
  · cases h

theorem scatter_zero : ∀ {row : List Int} {es acc r : List F}, scatter row es acc = .ok r → Zeros es → Zeros acc → Zeros r
  | row, [], acc, r, h, _, ha => by unfold scatter at h; cases h; exact ha
  | i :: is, e :: es, acc, r, h, he, ha => by
    unfold scatter at h
    obtain ⟨v, h1, h⟩ := Res.bind_eq_ok.1 h
    obtain ⟨acc', h2, h⟩ := Res.bind_eq_ok.1 h
    exact scatter_zero h (fun e h => he e (by simp [h])) (wr_zero h2 ha (by rw [rd_zero h1 ha, he e (by simp), add_zero]))
  | [], e :: es, acc, r, h, _, _ => by unfold scatter at h; cases h

theorem scatterPad_zero : ∀ {row : List Int} {es acc r : List F}, scatterPad row es acc = .ok r → Zeros es → Zeros acc → Zeros r
  | row, [], acc, r, h, _, ha => by unfold scatterPad at h; cases h; exact ha
  | i :: is, e :: es, acc, r, h, he, ha => by
    unfold scatterPad at h
    split at h
    · obtain ⟨v, h1, h⟩ := Res.bind_eq_ok.1 h
      obtain ⟨acc', h2, h⟩ := Res.bind_eq_ok.1 h
      exact scatterPad_zero h (fun e h => he e (by simp [h])) (wr_zero h2 ha (by rw [rd_zero h1 ha, he e (by simp), add_zero]))
    · exact scatterPad_zero h (fun e h => he e (by simp [h])) ha
  | [], e :: es, acc, r, h, _, _ => by unfold scatterPad at h; cases h

theorem poolBack_zero : ∀ {ms : List Int} {es acc r : List F}, poolBack ms es acc = .ok r → Zeros es → Zeros acc → Zeros r
  | ms, [], acc, r, h, _, ha => by unfold poolBack at h; cases h; exact ha
  | m :: ms, e :: es, acc, r, h, he, ha => by
    unfold poolBack at h
    obtain ⟨acc', h2, h⟩ := Res.bind_eq_ok.1 h
    exact poolBack_zero h (fun e h => he e (by simp [h])) (wr_zero h2 ha (he e (by simp)))
  | [], e :: es, acc, r, h, _, _ => by unfold poolBack at h; cases h

theorem Zeros.tail {e : F} {es : List F} (h : Zeros (e :: es)) : Zeros es := fun x hx => h x (by simp [hx])
theorem Zeros.head {e : F} {es : List F} (h : Zeros (e :: es)) : e = 0 := h e (by simp)
theorem Zeros.drop {es : List F} (h : Zeros es) (k : Nat) : Zeros (es.drop k) := fun x hx => h x (List.mem_of_mem_drop hx)

theorem backNeurons_zero : ∀ {ns ns' : List (Neuron F)} {es acc r : List F}, backNeurons (fun n e => n.backOutput e) ns es acc = .ok (r, ns') →
    (∀ n ∈ ns, Idle n) → Zeros es → Zeros acc → Zeros r ∧ List.Forall₂ Off ns ns'
  | [], ns', es, acc, r, h, _, _, ha => by cases h; exact ⟨ha, .nil⟩
  | n :: ns, ns', [], acc, r, h, _, _, _ => by cases h
  | n :: ns, ns', e :: es, acc, r, h, hn, he, ha => by
    unfold backNeurons at h
    obtain ⟨⟨e1, n1⟩, h1, h⟩ := Res.bind_eq_ok.1 h
    obtain ⟨acc', h2, h⟩ := Res.bind_eq_ok.1 h
    obtain ⟨⟨r1, ns1⟩, h3, h⟩ := Res.bind_eq_ok.1 h
    cases h
    rw [he.head] at h1
    obtain ⟨k1, k2, _⟩ := neuron_back (hn n (by simp)) h1
    obtain ⟨k3, k4⟩ := backNeurons_zero h3 (fun n h => hn n (by simp [h])) he.tail (addErrors_zero h2 ha k1)
    exact ⟨k3, .cons k2 k4⟩

theorem trainNeurons_zero : ∀ {ns ns' : List (Neuron F)} {es : List F}, trainNeurons (fun n e => n.train e) ns es = .ok ns' →
    (∀ n ∈ ns, Idle n) → Zeros es → List.Forall₂ Off ns ns'
  | [], ns', es, h, _, _ => by cases h; exact .nil
  | n :: ns, ns', [], h, _, _ => by cases h
  | n :: ns, ns', e :: es, h, hn, he => by
    unfold trainNeurons at h
    obtain ⟨n1, h1, h⟩ := Res.bind_eq_ok.1 h
    obtain ⟨ns1, h3, h⟩ := Res.bind_eq_ok.1 h
    cases h
    rw [he.head] at h1
    exact .cons (neuron_train (hn n (by simp)) h1).1 (trainNeurons_zero h3 (fun n h => hn n (by simp [h])) he.tail)

theorem convBackRow_zero {row : List Int} : ∀ {ns ns' : List (Neuron F)} {es acc r : List F}, convBackRow row ns es acc = .ok (r, ns') →
    (∀ n ∈ ns, Idle n) → Zeros es → Zeros acc → Zeros r ∧ List.Forall₂ Off ns ns' ∧ ∀ n ∈ ns', Idle n
  | [], ns', es, acc, r, h, _, _, ha => by cases h; exact ⟨ha, .nil, by simp⟩
  | n :: ns, ns', [], acc, r, h, _, _, _ => by cases h
  | n :: ns, ns', e :: es, acc, r, h, hn, he, ha => by
    unfold convBackRow at h
    obtain ⟨⟨e1, n1⟩, h1, h⟩ := Res.bind_eq_ok.1 h
    obtain ⟨acc', h2, h⟩ := Res.bind_eq_ok.1 h
    obtain ⟨⟨r1, ns1⟩, h3, h⟩ := Res.bind_eq_ok.1 h
    cases h
    rw [he.head] at h1
    obtain ⟨k1, k2, k0⟩ := neuron_back (hn n (by simp)) h1
    obtain ⟨k3, k4, k5⟩ := convBackRow_zero h3 (fun n h => hn n (by simp [h])) he.tail (scatter_zero h2 k1 ha)
    refine ⟨k3, .cons k2 k4, ?_⟩
    intro m hm
    rcases List.mem_cons.1 hm with rfl | hm
    · exact k0
    · exact k5 m hm

theorem convBack_zero : ∀ {rows : List (List Int)} {ns ns' : List (Neuron F)} {es acc r : List F}, convBack rows ns es acc = .ok (r, ns') →
    (∀ n ∈ ns, Idle n) → Zeros es → Zeros acc → Zeros r ∧ (rows ≠ [] → List.Forall₂ Off ns ns')
  | [], ns, ns', es, acc, r, h, _, _, ha => by cases h; exact ⟨ha, fun h => absurd rfl h⟩
  | row :: rows, ns, ns', es, acc, r, h, hn, he, ha => by
    unfold convBack at h
    obtain ⟨⟨acc', ns1⟩, h1, h⟩ := Res.bind_eq_ok.1 h
    obtain ⟨k1, k2, k3⟩ := convBackRow_zero h1 hn he ha
    obtain ⟨k4, k5⟩ := convBack_zero h k3 (he.drop _) k1
    refine ⟨k4, fun _ => ?_⟩
    by_cases hr : rows = []
    · subst hr
      cases h
      exact k2
    · exact forall₂_trans (R := Off) (fun _ _ _ a b => a.trans b) k2 (k5 hr)

theorem lcBack_zero {rowOf : Nat → Res (List Int)} : ∀ {i : Nat} {ns ns' : List (Neuron F)} {es acc r : List F}, lcBack rowOf i ns es acc = .ok (r, ns') →
    (∀ n ∈ ns, Idle n) → Zeros es → Zeros acc → Zeros r ∧ List.Forall₂ Off ns ns'
  | i, [], ns', es, acc, r, h, _, _, ha => by cases h; exact ⟨ha, .nil⟩
  | i, n :: ns, ns', [], acc, r, h, _, _, _ => by cases h
  | i, n :: ns, ns', e :: es, acc, r, h, hn, he, ha => by
    unfold lcBack at h
    obtain ⟨⟨e1, n1⟩, h1, h⟩ := Res.bind_eq_ok.1 h
    obtain ⟨row, _, h⟩ := Res.bind_eq_ok.1 h
    obtain ⟨acc', h2, h⟩ := Res.bind_eq_ok.1 h
    obtain ⟨⟨r1, ns1⟩, h3, h⟩ := Res.bind_eq_ok.1 h
    cases h
    rw [he.head] at h1
    obtain ⟨k1, k2, _⟩ := neuron_back (hn n (by simp)) h1
    obtain ⟨k3, k4⟩ := lcBack_zero h3 (fun n h => hn n (by simp [h])) he.tail (scatterPad_zero h2 k1 ha)
    exact ⟨k3, .cons k2 k4⟩

/-- A layer body without recurrence whose neurons are idle. -/
def IdleBody : Body F → Prop
  | .fullyConnected ns => ∀ n ∈ ns, Idle n
  | .recurrence _ => False
  | .gru _ => False
  | .filter _ ns info => (∀ n ∈ ns, Idle n) ∧ info.kernelIndexes ≠ []
  | .pool .. => True

/-- Every neuron of the layer lost the weight of its bias. -/
def OffWeights (ws ws' : List (List F)) : Prop := List.Forall₂ (fun w w' => w' = w.dropLast ++ [0]) ws ws'

theorem off_map {ns ns' : List (Neuron F)} (h : List.Forall₂ Off ns ns') : OffWeights (ns.map Neuron.getWeights) (ns'.map Neuron.getWeights) := by
  induction h with
  | nil => exact .nil
  | cons h1 _ ih => exact .cons h1 ih

theorem body_back {ni : Int} {b b' : Body F} {es r : List F} (hb : IdleBody b) (he : Zeros es) (h : b.computeBackOutput ni es = .ok (r, b')) :
    Zeros r ∧ OffWeights b.weights b'.weights := by
  unfold Body.computeBackOutput at h
  obtain ⟨acc, h0, h⟩ := Res.bind_eq_ok.1 h
  have ha : Zeros acc := by
    unfold zeroErrors at h0
    split at h0
    · cases h0
    · cases h0
      intro e he
      rw [List.eq_of_mem_replicate he]; simp
  cases b with
  | fullyConnected ns =>
    obtain ⟨⟨_, _⟩, h1, h⟩ := Res.bind_eq_ok.1 h
    cases h
    obtain ⟨k1, k2⟩ := backNeurons_zero h1 hb he ha
    exact ⟨k1, off_map k2⟩
  | recurrence ns => exact hb.elim
  | gru ns => exact hb.elim
  | filter kind ns info =>
    obtain ⟨⟨_, _⟩, h1, h⟩ := Res.bind_eq_ok.1 h
    cases h
    cases kind with
    | conv1D => obtain ⟨k1, k2⟩ := convBack_zero h1 hb.1 he ha; exact ⟨k1, off_map (k2 hb.2)⟩
    | conv2D => obtain ⟨k1, k2⟩ := convBack_zero h1 hb.1 he ha; exact ⟨k1, off_map (k2 hb.2)⟩
    | lc1D => obtain ⟨k1, k2⟩ := lcBack_zero h1 hb.1 he ha; exact ⟨k1, off_map k2⟩
    | lc2D => obtain ⟨k1, k2⟩ := lcBack_zero h1 hb.1 he ha; exact ⟨k1, off_map k2⟩
  | pool twoD info o mvi =>
    obtain ⟨_, h1, h⟩ := Res.bind_eq_ok.1 h
    cases h
    exact ⟨poolBack_zero h1 he ha, .nil⟩

theorem body_train {b b' : Body F} {es : List F} (hb : IdleBody b) (he : Zeros es) (h : b.computeTrain es = .ok b') :
    OffWeights b.weights b'.weights := by
  cases b with
  | fullyConnected ns =>
    obtain ⟨_, h1, h⟩ := Res.bind_eq_ok.1 h
    cases h
    exact off_map (trainNeurons_zero h1 hb he)
  | recurrence ns => exact hb.elim
  | gru ns => exact hb.elim
  | filter kind ns info =>
    obtain ⟨_, h1, h⟩ := Res.bind_eq_ok.1 h
    cases h
    exact off_map (trainNeurons_zero h1 hb.1 he)
  | pool twoD info o mvi => cases h; exact .nil

/-- A layer optimizer that is not a regularization. -/
def Unregular (o : LayerOpt F) : Prop := match o with | .l1 _ => False | .l2 _ => False | _ => True

theorem applyMask_zero : ∀ (xs : List F) (m : List Bool), Zeros xs → Zeros (applyMask xs m)
  | [], m, h => by simpa [applyMask] using h
  | x :: xs, [], h => by simpa [applyMask] using h
  | x :: xs, b :: bs, h => by
    intro e he
    rcases List.mem_cons.1 he with rfl | he
    · rw [h.head, zero_mul]
    · exact applyMask_zero xs bs h.tail e he

theorem backHooks_zero (ws : List (List F)) : ∀ {os : List (LayerOpt F)} {es : List F}, (∀ o ∈ os, Unregular o) → Zeros es → Zeros (backHooks ws os es)
  | [], es, _, h => h
  | o :: os, es, ho, h => by
    refine backHooks_zero ws (os := os) (fun o h => ho o (by simp [h])) ?_
    have := ho o (by simp)
    cases o with
    | dropout v rv m => exact applyMask_zero es m h
    | l1 v => exact this.elim
    | l2 v => exact this.elim
    | errorMultiplier f =>
      intro e he
      obtain ⟨a, ha, rfl⟩ := List.mem_map.1 he
      simp only [h a ha, zero_mul]
    | softmax => exact h

/-- A layer without recurrence and regularization whose neurons are idle. -/
def IdleLayer (l : Layer F) : Prop := IdleBody l.body ∧ ∀ o ∈ l.optimizers, Unregular o

theorem backLoop_zero : ∀ {ls ls' : List (Layer F)} {es r : List F}, backLoop ls es = .ok (r, ls') → (∀ l ∈ ls, IdleLayer l) → Zeros es →
    Zeros r ∧ List.Forall₂ (fun l l' => OffWeights l.body.weights l'.body.weights) ls ls'
  | [], ls', es, r, h, _, he => by cases h; exact ⟨he, .nil⟩
  | l :: ls, ls', es, r, h, hl, he => by
    unfold backLoop at h
    obtain ⟨⟨es1, ls1⟩, h1, h⟩ := Res.bind_eq_ok.1 h
    obtain ⟨⟨es2, l1⟩, h2, h⟩ := Res.bind_eq_ok.1 h
    cases h
    obtain ⟨k1, k2⟩ := backLoop_zero h1 (fun l h => hl l (by simp [h])) he
    have hi := hl l (by simp)
    unfold Layer.backOutput at h2
    obtain ⟨⟨r1, b1⟩, h3, h2⟩ := Res.bind_eq_ok.1 h2
    cases h2
    obtain ⟨k3, k4⟩ := body_back hi.1 (backHooks_zero _ hi.2 k1) h3
    exact ⟨k3, .cons k4 k2⟩

theorem backwardPass_zero {ls ls' : List (Layer F)} {es : List F} (h : backwardPass ls es = .ok ls') (hl : ∀ l ∈ ls, IdleLayer l) (he : Zeros es) :
    List.Forall₂ (fun l l' => OffWeights l.body.weights l'.body.weights) ls ls' := by
  cases ls with
  | nil => cases h
  | cons l ls =>
    unfold backwardPass at h
    obtain ⟨⟨es1, ls1⟩, h1, h⟩ := Res.bind_eq_ok.1 h
    obtain ⟨l1, h2, h⟩ := Res.bind_eq_ok.1 h
    cases h
    obtain ⟨k1, k2⟩ := backLoop_zero h1 (fun l h => hl l (by simp [h])) he
    have hi := hl l (by simp)
    unfold Layer.train at h2
    obtain ⟨b1, h3, h2⟩ := Res.bind_eq_ok.1 h2
    cases h2
    exact .cons (body_train hi.1 (backHooks_zero _ hi.2 k1) h3) k2

theorem errorsLoop_same : ∀ {k : Nat} {y r : List F}, errorsLoop k y y = .ok r → Zeros r
  | 0, y, r, h => by unfold errorsLoop at h; cases h; simp [Zeros]
  | k + 1, [], r, h => by simp [errorsLoop] at h
  | k + 1, a :: y, r, h => by
    unfold errorsLoop at h
    obtain ⟨r1, h1, h⟩ := Res.bind_eq_ok.1 h
    cases h
    intro e he
    rcases List.mem_cons.1 he with rfl | he
    · simp
    · exact errorsLoop_same h1 e he

theorem weights_same {b b' : Body F} (h : b.Same b') : b'.weights = b.weights := by
  cases b <;> cases b' <;> simp only [Body.Same] at h <;> simp only [Body.weights]
  · induction h with
    | nil => rfl
    | cons h1 _ ih => simp only [List.map_cons, ih, Neuron.getWeights, h1.weights]
  · induction h with
    | nil => rfl
    | cons h1 _ ih => rw [List.map_cons, List.map_cons, ih]; simp only [Neuron.getWeights]; rw [Neuron.Same.weights h1]
  · induction h with
    | nil => rfl
    | cons h1 _ ih => rw [List.map_cons, List.map_cons, ih]; simp only [Gru.getWeights]; rw [Neuron.Same.weights h1.r, Neuron.Same.weights h1.u, Neuron.Same.weights h1.o]
  · obtain ⟨_, h, _⟩ := h
    induction h with
    | nil => rfl
    | cons h1 _ ih => simp only [List.map_cons, ih, Neuron.getWeights, h1.weights]

theorem trainingLoop_weights {t : Bool} : ∀ {ls ls' : List (Layer F)} {x y : List F} {d d' : Draws F}, trainingLoop t ls x d = .ok (y, ls', d') →
    ls'.map (fun l => l.body.weights) = ls.map (fun l => l.body.weights)
  | [], ls', x, y, d, d', h => by cases h; rfl
  | l :: ls, ls', x, y, d, d', h => by
    unfold trainingLoop at h
    obtain ⟨⟨y1, l1, d1⟩, h1, h⟩ := Res.bind_eq_ok.1 h
    obtain ⟨⟨y2, ls1, d2⟩, h2, h⟩ := Res.bind_eq_ok.1 h
    cases h
    have e := trainingLoop_weights h2
    unfold Layer.outputForTraining at h1
    obtain ⟨⟨_, _⟩, h3, h1⟩ := Res.bind_eq_ok.1 h1
    obtain ⟨⟨_, _, _⟩, _, h1⟩ := Res.bind_eq_ok.1 h1
    cases h1
    rw [List.map_cons, List.map_cons, e, weights_same (Body.computeOutput_same h3)]

end

end Snn.Perfect
