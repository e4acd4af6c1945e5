import Verif.Spec.UnusedSpec
import Verif.Proofs.SilentProofs
import Verif.Proofs.GruFrozen
import Verif.Proofs.NetBuild

/-! A feature that is always 0 in the training data is never learned. -/

set_option linter.all false

namespace Snn.Unused

open Spec Finset HistoryProps TrainProofs

section
variable {F : Type} [Field F] [LinearOrder F] [IsStrictOrderedRing F] [FTrans F]

/-- An input of size ni with 0 at f. -/
def Zero (ni f : Nat) (x : List F) : Prop := x.length = ni ∧ x.getD f 0 = 0

def unit (ni f : Nat) (c : F) : List F := (List.range ni).map fun i => if i = f then c else 0

theorem lin_unit {ni f : Nat} (hf : f < ni) (c : F) (x : List F) : Silent.lin ni (unit ni f c) x = c * x.getD f 0 := by
  unfold Silent.lin
  rw [Finset.sum_eq_single f]
  · simp [unit, List.getD_eq_getElem?_getD, hf]
  · intro i hi hif
    have := mem_range.1 hi
    simp [unit, List.getD_eq_getElem?_getD, this, hif]
  · intro h; exact absurd (mem_range.2 hf) h

theorem batched_zero {ni f : Nat} (hf : f < ni) {order : List Nat} {rows : List (List F)} (hr : ∀ r ∈ rows, Zero ni f r) {buf buf' x : List F}
    {index b : Int} (h : getBatched order rows ni buf index b = .ok (x, buf')) : Zero ni f x := by
  have q : ∀ c : F, x.length = ni ∧ c * x.getD f 0 ≤ 0 := by
    intro c
    have := Silent.batched_below (w := unit ni f c) (c := 0) (fun r hrr => ⟨(hr r hrr).1, by rw [lin_unit hf, (hr r hrr).2, mul_zero]⟩) h
    exact ⟨this.1, by rw [← lin_unit hf]; exact this.2⟩
  refine ⟨(q 1).1, le_antisymm ?_ ?_⟩
  · have := (q 1).2; linarith
  · have := (q (-1)).2; linarith

/-! ### The neuron -/

/-- The weight f of the neuron is c, and its last increments of this weight are 0. -/
structure Blind (ni f : Nat) (c : F) (n : Neuron F) : Prop where
  lt : f < ni
  inputs : n.numberOfInputs = (ni : Int)
  weight : n.weights[f]? = some c
  len : ni < n.weights.length
  last : n.lastInputs.queue.length = 1
  prev : ∀ v ∈ n.previousDeltaWeights.queue, v.getD f 0 = 0

/-- The stored inputs have 0 at f. -/
def Seen (f : Nat) (n : Neuron F) : Prop := ∀ v ∈ n.lastInputs.queue, v.getD f 0 = 0

theorem push_one {c c' : Circ F} {x : List F} (hl : c.queue.length = 1) (h : c.pushBack x = .ok c') : c'.queue = [x] := by
  obtain ⟨qu, ip, ig⟩ := c
  obtain ⟨v, rfl⟩ := List.length_eq_one_iff.1 hl
  unfold Circ.pushBack at h
  simp only at h
  obtain ⟨q', h1, h⟩ := Res.bind_eq_ok.1 h
  cases h
  have e : (if ip ≥ [v].length then 0 else ip) = 0 := by
    simp only [List.length_singleton]
    split <;> omega
  rw [e] at h1
  simp [wr] at h1
  exact h1.symm

theorem mem_push {c c' : Circ F} {x : List F} (h : c.pushBack x = .ok c') : ∀ v ∈ c'.queue, v ∈ c.queue ∨ v = x := by
  unfold Circ.pushBack at h
  simp only at h
  obtain ⟨q', h1, h⟩ := Res.bind_eq_ok.1 h
  cases h
  intro v hv
  obtain ⟨_, rfl⟩ := wr_eq_ok.1 h1
  exact List.mem_or_eq_of_mem_set hv

theorem mem_get {c c' : Circ F} {x : List F} (h : c.getBack = .ok (x, c')) : x ∈ c.queue ∧ c'.queue = c.queue := by
  unfold Circ.getBack at h
  simp only at h
  obtain ⟨v, h1, h⟩ := Res.bind_eq_ok.1 h
  cases h
  exact ⟨rd_mem h1, rfl⟩

/-- The loop of the update leaves the weight f, and its increment is 0. -/
theorem sgd_at {l m : F} : ∀ {k : Nat} {xs ps ws ds vs : List F} {f : Nat} {c : F}, sgdLoop l m k xs ps ws = .ok (ds, vs) → f < k →
    xs.getD f 0 = 0 → ps.getD f 0 = 0 → ws[f]? = some c → ds[f]? = some 0 ∧ vs[f]? = some c
  | 0, xs, ps, ws, ds, vs, f, c, h, hf, _, _, _ => by omega
  | k + 1, [], ps, ws, ds, vs, f, c, h, _, _, _, _ => by cases h
  | k + 1, x :: xs, [], ws, ds, vs, f, c, h, _, _, _, _ => by cases h
  | k + 1, x :: xs, p :: ps, [], ds, vs, f, c, h, _, _, _, _ => by cases h
  | k + 1, x :: xs, p :: ps, w :: ws, ds, vs, f, c, h, hf, hx, hp, hw => by
    unfold sgdLoop at h
    obtain ⟨⟨a, b⟩, h1, h⟩ := Res.bind_eq_ok.1 h
    cases h
    cases f with
    | zero =>
      simp only [List.getD_cons_zero] at hx hp
      simp only [List.getElem?_cons_zero, Option.some.injEq] at hw
      subst hx hp hw
      simp
    | succ f =>
      simp only [List.getD_cons_succ] at hx hp
      simp only [List.getElem?_cons_succ] at hw ⊢
      exact sgd_at h1 (by omega) hx hp hw

theorem sgd_len {l m : F} : ∀ {k : Nat} {xs ps ws ds vs : List F}, sgdLoop l m k xs ps ws = .ok (ds, vs) → ds.length = k ∧ vs.length = k
  | 0, xs, ps, ws, ds, vs, h => by cases h; simp
  | k + 1, [], ps, ws, ds, vs, h => by cases h
  | k + 1, x :: xs, [], ws, ds, vs, h => by cases h
  | k + 1, x :: xs, p :: ps, [], ds, vs, h => by cases h
  | k + 1, x :: xs, p :: ps, w :: ws, ds, vs, h => by
    unfold sgdLoop at h
    obtain ⟨⟨a, b⟩, h1, h⟩ := Res.bind_eq_ok.1 h
    cases h
    simp [sgd_len h1]

variable {ni f : Nat} {c : F}

theorem Blind.output {n n' : Neuron F} {x : List F} {o : F} (h : Blind ni f c n) (he : n.output x = .ok (o, n')) :
    Blind ni f c n' ∧ (x.getD f 0 = 0 → Seen f n') := by
  unfold Neuron.output at he
  obtain ⟨li, e1, he⟩ := Res.bind_eq_ok.1 he
  obtain ⟨_, _, he⟩ := Res.bind_eq_ok.1 he
  obtain ⟨_, _, he⟩ := Res.bind_eq_ok.1 he
  simp only [Act.apply_ok, Res.ok_bind] at he
  cases he
  have hq := push_one h.last e1
  refine ⟨⟨h.lt, h.inputs, h.weight, h.len, by simp [hq], h.prev⟩, fun hx v hv => ?_⟩
  simp only [hq, List.mem_singleton] at hv
  rw [hv]; exact hx

theorem Blind.recOutput {n n' : RecNeuron F} {x : List F} {o : F} {t : Bool} (h : Blind ni f c n.base) (he : n.output x t = .ok (o, n')) :
    Blind ni f c n'.base ∧ (x.getD f 0 = 0 → Seen f n'.base) := by
  unfold RecNeuron.output at he
  have hb : (if t = true then n.reset else n).base = n.base := by split <;> rfl
  simp only [hb] at he
  obtain ⟨li, e1, he⟩ := Res.bind_eq_ok.1 he
  obtain ⟨_, _, he⟩ := Res.bind_eq_ok.1 he
  obtain ⟨_, _, he⟩ := Res.bind_eq_ok.1 he
  obtain ⟨_, _, he⟩ := Res.bind_eq_ok.1 he
  simp only [Act.apply_ok, Res.ok_bind] at he
  cases he
  have hq := push_one h.last e1
  refine ⟨⟨h.lt, h.inputs, h.weight, h.len, by simp [hq], h.prev⟩, fun hx v hv => ?_⟩
  simp only [hq, List.mem_singleton] at hv
  rw [hv]; exact hx

/-- What both updates do to the weights and to the increments. -/
theorem updated {ws ds vs : List F} {rest tl : List F} {d : F} {li pd pd' : Circ F} (hf : f < ni) (hl : ds.length = ni ∧ vs.length = ni) (hd : ds[f]? = some 0 ∧ vs[f]? = some c)
    (hpd : ∀ v ∈ pd.queue, v.getD f 0 = 0) (hp : pd.pushBack (ds ++ d :: tl) = .ok pd') :
    (∀ v ∈ pd'.queue, v.getD f 0 = 0) ∧ (vs ++ rest)[f]? = some c := by
  constructor
  · intro v hv
    rcases mem_push hp v hv with h | rfl
    · exact hpd v h
    · rw [List.getD_eq_getElem?_getD, List.getElem?_append_left (by omega), hd.1]; rfl
  · rw [List.getElem?_append_left (by omega), hd.2]

theorem Blind.train {n n' : Neuron F} {e : F} (h : Blind ni f c n) (hs : Seen f n) (he : n.train e = .ok n') : Blind ni f c n' := by
  unfold Neuron.train at he
  obtain ⟨d, _, he⟩ := Res.bind_eq_ok.1 he
  unfold Sgd.updateSimple at he
  obtain ⟨⟨xs, li⟩, h2, he⟩ := Res.bind_eq_ok.1 he
  obtain ⟨⟨prev, pd⟩, h3, he⟩ := Res.bind_eq_ok.1 he
  obtain ⟨⟨ds, vs⟩, h4, he⟩ := Res.bind_eq_ok.1 he
  obtain ⟨p, h5, he⟩ := Res.bind_eq_ok.1 he
  obtain ⟨_, h6, he⟩ := Res.bind_eq_ok.1 he
  obtain ⟨pd', h7, he⟩ := Res.bind_eq_ok.1 he
  cases he
  have hk : n.numberOfInputs.toNat = ni := by rw [h.inputs]; simp
  have g1 := mem_get h2
  have g2 := mem_get h3
  rw [hk] at h4 h7
  have hl := sgd_len h4
  have ha := sgd_at h4 h.lt (hs _ g1.1) (h.prev _ g2.1) h.weight
  have hu := updated (ws := n.weights) (rest := (d * e * n.bias) :: n.weights.drop (ni + 1)) (li := li) h.lt hl ha (by rw [g2.2]; exact h.prev) h7
  refine ⟨h.lt, h.inputs, ?_, ?_, by rw [g1.2]; exact h.last, hu.1⟩
  · show (vs ++ _)[f]? = _
    rw [List.getElem?_append_left (by have := h.lt; omega), ha.2]
  · show ni < (vs ++ _ :: _).length
    simp [hl.2]

theorem Blind.updateRec {n n' : RecNeuron F} {o : Sgd F} {e : F} (h : Blind ni f c n.base) (hs : Seen f n.base) (he : o.updateRec n e = .ok n') : Blind ni f c n'.base := by
  unfold Sgd.updateRec at he
  simp only at he
  obtain ⟨⟨xs, li⟩, h2, he⟩ := Res.bind_eq_ok.1 he
  obtain ⟨⟨prev, pd⟩, h3, he⟩ := Res.bind_eq_ok.1 he
  obtain ⟨⟨ds, vs⟩, h4, he⟩ := Res.bind_eq_ok.1 he
  obtain ⟨p, h5, he⟩ := Res.bind_eq_ok.1 he
  obtain ⟨_, h6, he⟩ := Res.bind_eq_ok.1 he
  obtain ⟨_, h8, he⟩ := Res.bind_eq_ok.1 he
  obtain ⟨pd', h7, he⟩ := Res.bind_eq_ok.1 he
  cases he
  have hk : n.base.numberOfInputs.toNat = ni := by rw [h.inputs]; simp
  have g1 := mem_get h2
  have g2 := mem_get h3
  rw [hk] at h4 h7
  have hl := sgd_len h4
  have ha := sgd_at h4 h.lt (hs _ g1.1) (h.prev _ g2.1) h.weight
  have hu := updated (ws := n.base.weights) (rest := e :: n.base.weights.drop (ni + 1)) (li := li) h.lt hl ha (by rw [g2.2]; exact h.prev) h7
  refine ⟨h.lt, h.inputs, ?_, ?_, by rw [g1.2]; exact h.last, hu.1⟩
  · show (vs ++ _)[f]? = _
    rw [List.getElem?_append_left (by have := h.lt; omega), ha.2]
  · show ni < (vs ++ _ :: _).length
    simp [hl.2]

theorem Blind.recTrain {n n' : RecNeuron F} {e : F} (h : Blind ni f c n.base) (hs : Seen f n.base) (he : n.train e = .ok n') : Blind ni f c n'.base := by
  unfold RecNeuron.train at he
  obtain ⟨d, _, he⟩ := Res.bind_eq_ok.1 he
  exact h.updateRec hs he

theorem Blind.recBack {n n' : RecNeuron F} {e : F} {a : List F} (h : Blind ni f c n.base) (hs : Seen f n.base) (he : n.backOutput e = .ok (a, n')) : Blind ni f c n'.base := by
  unfold RecNeuron.backOutput at he
  obtain ⟨d, _, he⟩ := Res.bind_eq_ok.1 he
  obtain ⟨es, _, he⟩ := Res.bind_eq_ok.1 he
  obtain ⟨r', h1, he⟩ := Res.bind_eq_ok.1 he
  cases he
  exact Blind.updateRec (n := { n with base := { n.base with errors := es } }) ⟨h.lt, h.inputs, h.weight, h.len, h.last, h.prev⟩ hs h1

/-- A new neuron. -/
theorem make_blind {opt : Sgd F} {m : NeuronModel F} {d : Draws F} {n : Neuron F} {nw : Nat} (h : Neuron.make m opt d = .ok n) (hw : n.WF ni nw 1) (hnw : ni < nw) (hf : f < ni) :
    ∃ c, Blind ni f c n := by
  have hz := Neuron.make_zeros h
  have hl := hw.wlen
  refine ⟨n.weights[f]'(by omega), hf, hw.inputs, by simp, by omega, hw.last.len, ?_⟩
  intro v hv
  rw [List.getD_eq_getElem?_getD]
  cases hq : v[f]? with
  | none => rfl
  | some y => exact hz v hv y (List.mem_of_getElem? hq)

/-! ### The network -/

/-- A gate of a gated neuron. -/
def gateOf (g : Nat) (n : Gru F) : RecNeuron F :=
  match g with
  | 0 => n.resetGate
  | 1 => n.updateGate
  | _ => n.outputGate

theorem Blind.gruOutput {g : Nat} {n n' : Gru F} {x : List F} {o : F} {t : Bool} (h : Blind ni f c (gateOf g n).base) (he : n.output x t = .ok (o, n')) :
    Blind ni f c (gateOf g n').base ∧ (x.getD f 0 = 0 → Seen f (gateOf g n').base) := by
  unfold Gru.output at he
  have e0 : (if t = true then n.reset else n).resetGate = n.resetGate := by split <;> rfl
  have e1 : (if t = true then n.reset else n).updateGate = n.updateGate := by split <;> rfl
  have e2 : (if t = true then n.reset else n).outputGate = n.outputGate := by split <;> rfl
  simp only [e0, e1, e2] at he
  obtain ⟨⟨a, r1⟩, h1, he⟩ := Res.bind_eq_ok.1 he
  obtain ⟨⟨b, u1⟩, h2, he⟩ := Res.bind_eq_ok.1 he
  obtain ⟨⟨w, o1⟩, h3, he⟩ := Res.bind_eq_ok.1 he
  cases he
  match g, h with
  | 0, h =>
    have q := Blind.recOutput (n := n.resetGate) h h1
    exact q
  | 1, h =>
    have q := Blind.recOutput (n := n.updateGate) h h2
    exact q
  | g + 2, h =>
    have q := Blind.recOutput (n := { n.outputGate with lastOutput := n.outputGate.lastOutput * a }) h h3
    exact q

theorem Blind.gruTrain {g : Nat} {n n' : Gru F} {e : F} (h : Blind ni f c (gateOf g n).base) (hs : Seen f (gateOf g n).base) (he : n.train e = .ok n') :
    Blind ni f c (gateOf g n').base := by
  unfold Gru.train at he
  dsimp only at he
  obtain ⟨⟨a, o1⟩, h1, he⟩ := Res.bind_eq_ok.1 he
  obtain ⟨⟨b, u1⟩, h2, he⟩ := Res.bind_eq_ok.1 he
  obtain ⟨_, _, he⟩ := Res.bind_eq_ok.1 he
  obtain ⟨⟨w, r1⟩, h3, he⟩ := Res.bind_eq_ok.1 he
  cases he
  match g, h, hs with
  | 0, h, hs => exact h.recBack hs h3
  | 1, h, hs => exact h.recBack hs h2
  | g + 2, h, hs => exact h.recBack hs h1

/-- Neuron k of a body, or its gate g, with a property Q: g is 3 for a neuron without gates. -/
def At (g k : Nat) (Q : Neuron F → Prop) : Body F → Prop
  | .fullyConnected ns => ∃ n, (ns[k]? = some n ∧ g = 3) ∧ Q n
  | .recurrence ns => ∃ n, (ns[k]? = some n ∧ g = 3) ∧ Q n.base
  | .gru ns => ∃ n, (ns[k]? = some n ∧ g < 3) ∧ Q (gateOf g n).base
  | _ => False

def FirstBlind (ni f : Nat) (c : F) (g k : Nat) (Q : Neuron F → Prop) (ls : List (Layer F)) : Prop :=
  ∃ l rest, ls = l :: rest ∧ At g k (fun n => Blind ni f c n ∧ Q n) l.body

variable {g k : Nat} {Q : Neuron F → Prop}

theorem at_mono {P R : Neuron F → Prop} (hpr : ∀ n, P n → R n) {b : Body F} (h : At g k P b) : At g k R b := by
  cases b with
  | fullyConnected ns => obtain ⟨n, a, b⟩ := h; exact ⟨n, a, hpr n b⟩
  | recurrence ns => obtain ⟨n, a, b⟩ := h; exact ⟨n, a, hpr _ b⟩
  | gru ns => obtain ⟨n, a, b⟩ := h; exact ⟨n, a, hpr _ b⟩
  | _ => exact h

theorem at_compute {b b' : Body F} {x y : List F} {t : Bool} (hp : At g k (Blind ni f c) b) (h : b.computeOutput x t = .ok (y, b')) :
    At g k (fun n => Blind ni f c n ∧ (x.getD f 0 = 0 → Seen f n)) b' := by
  cases b with
  | fullyConnected ns =>
    obtain ⟨n, hk, hb⟩ := hp
    simp only [Body.computeOutput] at h
    obtain ⟨⟨os, ns'⟩, h1, h⟩ := Res.bind_eq_ok.1 h
    cases h
    obtain ⟨o, n', e1, e2⟩ := Silent.run_at h1 hk.1
    exact ⟨n', ⟨e2, hk.2⟩, hb.output e1⟩
  | recurrence ns =>
    obtain ⟨n, hk, hb⟩ := hp
    simp only [Body.computeOutput] at h
    obtain ⟨⟨os, ns'⟩, h1, h⟩ := Res.bind_eq_ok.1 h
    cases h
    obtain ⟨o, n', e1, e2⟩ := Silent.run_at h1 hk.1
    exact ⟨n', ⟨e2, hk.2⟩, hb.recOutput e1⟩
  | gru ns =>
    obtain ⟨n, hk, hb⟩ := hp
    simp only [Body.computeOutput] at h
    obtain ⟨⟨os, ns'⟩, h1, h⟩ := Res.bind_eq_ok.1 h
    cases h
    obtain ⟨o, n', e1, e2⟩ := Silent.run_at h1 hk.1
    exact ⟨n', ⟨e2, hk.2⟩, hb.gruOutput e1⟩
  | _ => exact absurd hp (by simp [At])

theorem at_train {b b' : Body F} {es : List F} (hp : At g k (fun n => Blind ni f c n ∧ Seen f n) b) (h : b.computeTrain es = .ok b') :
    At g k (Blind ni f c) b' := by
  cases b with
  | fullyConnected ns =>
    obtain ⟨n, hk, hb⟩ := hp
    simp only [Body.computeTrain] at h
    obtain ⟨ns', h1, h⟩ := Res.bind_eq_ok.1 h
    cases h
    obtain ⟨e, n', e1, e2⟩ := Silent.train_at h1 hk.1
    exact ⟨n', ⟨e2, hk.2⟩, hb.1.train hb.2 e1⟩
  | recurrence ns =>
    obtain ⟨n, hk, hb⟩ := hp
    simp only [Body.computeTrain] at h
    obtain ⟨ns', h1, h⟩ := Res.bind_eq_ok.1 h
    cases h
    obtain ⟨e, n', e1, e2⟩ := Silent.train_at h1 hk.1
    exact ⟨n', ⟨e2, hk.2⟩, hb.1.recTrain hb.2 e1⟩
  | gru ns =>
    obtain ⟨n, hk, hb⟩ := hp
    simp only [Body.computeTrain] at h
    obtain ⟨ns', h1, h⟩ := Res.bind_eq_ok.1 h
    cases h
    obtain ⟨e, n', e1, e2⟩ := Silent.train_at h1 hk.1
    exact ⟨n', ⟨e2, hk.2⟩, hb.1.gruTrain hb.2 e1⟩
  | _ => exact absurd hp (by simp [At])

theorem blind_out {t : Bool} {ls ls' : List (Layer F)} {x y : List F} (hp : FirstBlind ni f c g k (fun _ => True) ls) (h : outputLoop t ls x = .ok (y, ls')) :
    FirstBlind ni f c g k (fun _ => True) ls' := by
  obtain ⟨l, rest, rfl, hb⟩ := hp
  unfold outputLoop at h
  obtain ⟨⟨y1, l1⟩, h1, h⟩ := Res.bind_eq_ok.1 h
  obtain ⟨⟨y2, ls1⟩, h2, h⟩ := Res.bind_eq_ok.1 h
  cases h
  unfold Layer.output at h1
  obtain ⟨⟨raw, b'⟩, h3, h1⟩ := Res.bind_eq_ok.1 h1
  obtain ⟨_, _, h1⟩ := Res.bind_eq_ok.1 h1
  cases h1
  exact ⟨_, _, rfl, at_mono (fun n h => ⟨h.1, trivial⟩) (at_compute (at_mono (fun n h => h.1) hb) h3)⟩

theorem blind_training {t : Bool} {ls ls' : List (Layer F)} {x y : List F} {d d' : Draws F} (hp : FirstBlind ni f c g k (fun _ => True) ls) (hx : Zero ni f x)
    (h : trainingLoop t ls x d = .ok (y, ls', d')) : FirstBlind ni f c g k (Seen f) ls' := by
  obtain ⟨l, rest, rfl, hb⟩ := hp
  unfold trainingLoop at h
  obtain ⟨⟨y1, l1, d1⟩, h3, h⟩ := Res.bind_eq_ok.1 h
  obtain ⟨⟨y2, ls1, d2⟩, h4, h⟩ := Res.bind_eq_ok.1 h
  cases h
  unfold Layer.outputForTraining at h3
  obtain ⟨⟨raw, b'⟩, h5, h3⟩ := Res.bind_eq_ok.1 h3
  obtain ⟨⟨_, _, _⟩, _, h3⟩ := Res.bind_eq_ok.1 h3
  cases h3
  exact ⟨_, _, rfl, at_mono (fun n h => ⟨h.1, h.2 hx.2⟩) (at_compute (at_mono (fun n h => h.1) hb) h5)⟩

theorem blind_back {ls ls' : List (Layer F)} {es : List F} (hp : FirstBlind ni f c g k (Seen f) ls) (h : backwardPass ls es = .ok ls') :
    FirstBlind ni f c g k (fun _ => True) ls' := by
  obtain ⟨l, rest, rfl, hb⟩ := hp
  unfold backwardPass at h
  obtain ⟨⟨es1, rest'⟩, h1, h⟩ := Res.bind_eq_ok.1 h
  obtain ⟨l', h2, h⟩ := Res.bind_eq_ok.1 h
  cases h
  unfold Layer.train at h2
  obtain ⟨b', h3, h2⟩ := Res.bind_eq_ok.1 h2
  cases h2
  exact ⟨_, _, rfl, at_mono (fun n h => ⟨h, trivial⟩) (at_train hb h3)⟩

theorem blind_weaken {ls : List (Layer F)} (h : FirstBlind ni f c g k Q ls) : FirstBlind ni f c g k (fun _ => True) ls := by
  obtain ⟨l, rest, a, b⟩ := h
  exact ⟨l, rest, a, at_mono (fun n h => ⟨h.1, trivial⟩) b⟩

theorem blind_once {n n' : Net F} {x y : List F} {t : Bool} {d d' : Draws F} (hp : FirstBlind ni f c g k (fun _ => True) n.layers) (hx : Zero ni f x)
    (h : n.trainOnce x y t d = .ok (n', d')) : FirstBlind ni f c g k (fun _ => True) n'.layers := by
  unfold Net.trainOnce at h
  obtain ⟨⟨m, d1⟩, h3, h⟩ := Res.bind_eq_ok.1 h
  cases h
  unfold Net.backpropagation at h3
  obtain ⟨⟨o, m1, d2⟩, h4, h3⟩ := Res.bind_eq_ok.1 h3
  unfold Net.outputForTraining at h4
  split at h4
  · cases h4
  obtain ⟨⟨o, ls, d3⟩, h5, h4⟩ := Res.bind_eq_ok.1 h4
  cases h4
  have q := blind_training hp hx h5
  simp only at h3
  split at h3
  · cases h3; exact blind_weaken q
  · obtain ⟨es, _, h3⟩ := Res.bind_eq_ok.1 h3
    obtain ⟨ls2, h6, h3⟩ := Res.bind_eq_ok.1 h3
    cases h3
    exact blind_back q h6

theorem blind_step (hf : f < ni) {inputs : List (List F)} (hr : ∀ x ∈ inputs, Zero ni f x) {env : Env F} {b : Int} {r r' : Run F} {ret : Bool}
    (hp : FirstBlind ni f c g k (fun _ => True) r.snn.net.layers) (hd : r.data.training.inputs = inputs ∧ r.data.sizeOfData = ni)
    (h : r.trainStep env b = .ok (ret, r')) : FirstBlind ni f c g k (fun _ => True) r'.snn.net.layers ∧ r'.data.training.inputs = inputs ∧ r'.data.sizeOfData = ni := by
  unfold Run.trainStep at h
  simp only at h
  split at h
  · cases h; exact ⟨hp, hd⟩
  obtain ⟨need, _, h⟩ := Res.bind_eq_ok.1 h
  obtain ⟨⟨x, d1⟩, e1, h⟩ := Res.bind_eq_ok.1 h
  obtain ⟨first, _, h⟩ := Res.bind_eq_ok.1 h
  have f1 := (getTrainingData_same e1).frame
  have hd1 : d1.training.inputs = inputs ∧ d1.sizeOfData = ni := ⟨by rw [f1.inputs]; exact hd.1, by rw [f1.sizeOfData]; exact hd.2⟩
  have hx : Zero ni f x := by
    unfold Data.getTrainingData at e1
    obtain ⟨⟨x', b1⟩, e2, e1⟩ := Res.bind_eq_ok.1 e1
    cases e1
    rw [hd.2, hd.1] at e2
    exact batched_zero hf hr e2
  split at h
  · obtain ⟨⟨y, d2⟩, e2, h⟩ := Res.bind_eq_ok.1 h
    obtain ⟨⟨net, dr⟩, e3, h⟩ := Res.bind_eq_ok.1 h
    cases h
    have f2 := (getTrainingOutputs_same e2).frame
    exact ⟨blind_once hp hx e3, by show d2.training.inputs = _; rw [f2.inputs]; exact hd1.1, by show d2.sizeOfData = _; rw [f2.sizeOfData]; exact hd1.2⟩
  · obtain ⟨⟨o, net, dr⟩, e3, h⟩ := Res.bind_eq_ok.1 h
    cases h
    refine ⟨?_, hd1⟩
    unfold Net.outputForTraining at e3
    split at e3
    · cases e3
    obtain ⟨⟨o1, ls, d3⟩, h4, e3⟩ := Res.bind_eq_ok.1 e3
    cases e3
    exact blind_weaken (blind_training hp hx h4)

theorem blind_netOutput {n n' : Net F} {x y : List F} {t : Bool} (hp : FirstBlind ni f c g k (fun _ => True) n.layers) (h : n.output x t = .ok (y, n')) :
    FirstBlind ni f c g k (fun _ => True) n'.layers := by
  unfold Net.output at h
  split at h
  · cases h
  · obtain ⟨⟨o, ls⟩, h1, h⟩ := Res.bind_eq_ok.1 h
    cases h
    exact blind_out hp h1

theorem blind_evaluateLoop {nan : F} {data : Data F} : ∀ {m : Nat} {s s' : Snn F} {b : Bool},
    FirstBlind ni f c g k (fun _ => True) s.net.layers → evaluateLoop nan data m s = .ok (b, s') → FirstBlind ni f c g k (fun _ => True) s'.net.layers
  | 0, s, s', b, hp, h => by cases h; exact hp
  | m + 1, s, s', b, hp, h => by
    unfold evaluateLoop at h
    split at h
    · cases h; exact hp
    obtain ⟨need, _, h⟩ := Res.bind_eq_ok.1 h
    obtain ⟨s1, h1, h⟩ := Res.bind_eq_ok.1 h
    refine blind_evaluateLoop (s := { s1 with index := s1.index + 1 }) ?_ h
    split at h1
    · unfold Snn.evaluateOnce at h1
      obtain ⟨x, _, h1⟩ := Res.bind_eq_ok.1 h1
      obtain ⟨first, _, h1⟩ := Res.bind_eq_ok.1 h1
      split at h1
      all_goals
        obtain ⟨_, _, h1⟩ := Res.bind_eq_ok.1 h1
        obtain ⟨_, _, h1⟩ := Res.bind_eq_ok.1 h1
        obtain ⟨⟨out, net⟩, h2, h1⟩ := Res.bind_eq_ok.1 h1
        obtain ⟨st, _, h1⟩ := Res.bind_eq_ok.1 h1
        cases h1
        have q := blind_netOutput hp h2
        exact q
    · obtain ⟨x, _, h1⟩ := Res.bind_eq_ok.1 h1
      obtain ⟨_, _, h1⟩ := Res.bind_eq_ok.1 h1
      obtain ⟨⟨out, net⟩, h2, h1⟩ := Res.bind_eq_ok.1 h1
      cases h1
      exact blind_netOutput hp h2

theorem blind_evaluate {env : Env F} {r r' : Run F} (hp : FirstBlind ni f c g k (fun _ => True) r.snn.net.layers) (h : r.evaluate env = .ok r') :
    FirstBlind ni f c g k (fun _ => True) r'.snn.net.layers ∧ r'.data = r.data := by
  unfold Run.evaluate at h
  obtain ⟨⟨b, s⟩, h1, h⟩ := Res.bind_eq_ok.1 h
  have q := blind_evaluateLoop (s := { r.snn with net := { r.snn.net with stats := r.snn.net.stats.startTesting }, index := 0 }) hp h1
  simp only [] at h
  split at h
  · cases h; exact ⟨q, rfl⟩
  · split at h
    · cases h; exact ⟨q, rfl⟩
    · cases h; exact ⟨q, rfl⟩

theorem blind_call (hf : f < ni) {no : Nat} {cl : Call F} (hc : SafeProps.CallFits ni no cl)
    (hs : ∀ env data wait b ef fuel, cl = .train env data wait b ef fuel → ZeroFeature f data) {r r' : Run F}
    (hp : FirstBlind ni f c g k (fun _ => True) r.snn.net.layers) (h : cl.run r = .ok r') : FirstBlind ni f c g k (fun _ => True) r'.snn.net.layers := by
  cases cl with
  | computeOutput x t =>
    simp only [Call.run] at h
    cases hx : r.snn.computeOutput x t with
    | ok q =>
      rw [hx] at h
      cases h
      unfold Snn.computeOutput at hx
      obtain ⟨⟨y1, n1⟩, h2, hx⟩ := Res.bind_eq_ok.1 hx
      cases hx
      exact blind_netOutput hp h2
    | throw m => rw [hx] at h; cases h
    | ub m => rw [hx] at h; cases h
  | computeCluster x t =>
    simp only [Call.run] at h
    cases hx : r.snn.computeCluster x t with
    | ok q =>
      rw [hx] at h
      cases h
      unfold Snn.computeCluster at hx
      obtain ⟨⟨y1, n1⟩, h2, hx⟩ := Res.bind_eq_ok.1 hx
      cases hx
      exact blind_netOutput hp h2
    | throw m => rw [hx] at h; cases h
    | ub m => rw [hx] at h; cases h
  | evaluate env data => exact (blind_evaluate (r := { r with data := data }) hp h).1
  | train env data wait b ef fuel =>
    obtain ⟨hfit, hc⟩ := hc
    have hsafe := Spec.Fitted.safe hfit
    have s1 := hs _ _ _ _ _ _ rfl
    have := Bounded.train_induct_data (r := { r with data := data })
      (P := fun n d => FirstBlind ni f c g k (fun _ => True) n.layers ∧ d.training.inputs = data.training.inputs ∧ d.sizeOfData = ni)
      (fun n d d' g h1 h2 => ⟨h1.1, by rw [(shuffle_frame h2).inputs]; exact h1.2.1, by rw [(shuffle_frame h2).sizeOfData]; exact h1.2.2⟩)
      (fun r r' ret h1 h2 => blind_step hf (fun x hx => ⟨hsafe.train.inputs x hx, by rw [List.getD_eq_getElem?_getD, s1 x hx]; rfl⟩) h1.1 h1.2 h2)
      (fun r r' h1 h2 => by
        obtain ⟨q1, q2⟩ := blind_evaluate h1.1 h2
        exact ⟨q1, by rw [q2]; exact h1.2⟩)
      ⟨hp, rfl, hsafe.sizeOfData⟩ h
    exact this.1
  | saveAs path =>
    simp only [Call.run, Run.saveAs] at h
    split at h
    · cases h
    · cases h; exact hp
  | autoSave w path => cases h; exact hp

theorem blind_calls (hf : f < ni) {no : Nat} : ∀ {calls : List (Call F)}, (∀ c ∈ calls, SafeProps.CallFits ni no c) →
    (∀ env data wait b ef fuel, Call.train env data wait b ef fuel ∈ calls → ZeroFeature f data) → ∀ {r r' : Run F},
    FirstBlind ni f c g k (fun _ => True) r.snn.net.layers → calls.foldlM Call.run r = .ok r' → FirstBlind ni f c g k (fun _ => True) r'.snn.net.layers
  | [], _, _, r, r', hl, h => by cases h; exact hl
  | cl :: cs, hc, hz, r, r', hl, h => by
    rw [List.foldlM_cons] at h
    obtain ⟨r1, h1, h⟩ := Res.bind_eq_ok.1 h
    exact blind_calls hf (fun c' hc' => hc c' (by simp [hc'])) (fun env data wait b ef fuel h => hz env data wait b ef fuel (by simp [h]))
      (blind_call hf (hc cl (by simp)) (fun env data wait b ef fuel h => hz env data wait b ef fuel (by simp [h])) hl h1) h

/-- Every neuron of the first layer of a new network is blind. -/
theorem start {opt : Sgd F} {q : List Int} {first : LayerModel F} {rest : List (LayerModel F)} {s s' : List Nat} {d d' : Draws F} {snn : Snn F} [FText F]
    (h : WellFormed (.input q :: first :: rest) s s') (hfi : FirstNeurons first) (hf : f < s.prod)
    (hm : Snn.make (.input q :: first :: rest) opt d = .ok (snn, d')) {w : List F} (hw : firstWeights snn.net k = some w) :
    ∃ c, w[f]? = some c ∧ FirstBlind s.prod f c 3 k (fun _ => True) snn.net.layers := by
  obtain ⟨r0, r', e0, hc⟩ := h.layers
  have hcount := h.count
  injection e0 with e1 e2
  injection e1 with e1
  subst e1
  injection e2 with e2 e3
  subst e2 e3
  have hg := chain_good hc
  obtain ⟨⟨net, d1⟩, h1, hmk⟩ := Res.bind_eq_ok.1 hm
  obtain ⟨err, h2, hmk⟩ := Res.bind_eq_ok.1 hmk
  split at hmk
  · cases hmk
  cases hmk
  obtain ⟨⟨ls, d2⟩, h3, h1⟩ := Res.bind_eq_ok.1 h1
  obtain ⟨last, h4, h1⟩ := Res.bind_eq_ok.1 h1
  cases h1
  unfold LayerFactory.build at h3
  rw [if_neg (by simp at hcount ⊢; omega)] at h3
  simp only at h3
  rw [if_neg (by simp), computeNumberOfInputs_ok hg] at h3
  simp only [Res.ok_bind] at h3
  rw [if_neg (by have := hg.small; omega)] at h3
  unfold buildLayers at h3
  obtain ⟨⟨l, d3⟩, k1, h3⟩ := Res.bind_eq_ok.1 h3
  obtain ⟨⟨ls1, d4⟩, k2, h3⟩ := Res.bind_eq_ok.1 h3
  cases h3
  rw [buildLayer_start hg] at k1
  cases hfi with
  | fullyConnected m act opts =>
    obtain ⟨_, ns, hb, _, hns, _⟩ := buildSimple_inv (P := fun n : Neuron F => ∃ c, Blind s.prod f c n) (by
      intro d n hn
      exact make_blind hn (Neuron.make_fresh (ni := s.prod) (b := 1) rfl (by omega) hn).wf (by omega) hf) k1
    simp only [firstWeights, List.head?_cons, Option.map_some, Option.bind_some, hb, Body.weights, List.getElem?_map, Option.map_eq_some_iff] at hw
    obtain ⟨n, hk, rfl⟩ := hw
    obtain ⟨c, hbl⟩ := hns n (List.mem_of_getElem? hk)
    refine ⟨c, hbl.weight, l, ls1, rfl, ?_⟩
    rw [hb]
    exact ⟨n, ⟨hk, rfl⟩, hbl, trivial⟩
  | recurrence m act opts =>
    obtain ⟨_, ns, hb, _, hns, _⟩ := buildSimple_inv (P := fun n : RecNeuron F => ∃ c, Blind s.prod f c n.base) (by
      intro d n hn
      have hw := (RecNeuron.make_wf hn (by simp) rfl).1
      obtain ⟨b, hbb, hn⟩ := Res.bind_eq_ok.1 hn
      cases hn
      exact make_blind (ni := s.prod) (nw := s.prod + 2) hbb hw (by omega) hf) k1
    simp only [firstWeights, List.head?_cons, Option.map_some, Option.bind_some, hb, Body.weights, List.getElem?_map, Option.map_eq_some_iff] at hw
    obtain ⟨n, hk, rfl⟩ := hw
    obtain ⟨c, hbl⟩ := hns n (List.mem_of_getElem? hk)
    refine ⟨c, hbl.weight, l, ls1, rfl, ?_⟩
    rw [hb]
    exact ⟨n, ⟨hk, rfl⟩, hbl, trivial⟩

/-- Every gate of the first layer of a new network is blind. -/
theorem start_gru {num : Int} {opts : List (LayerOptModel F)} {opt : Sgd F} {q : List Int} {rest : List (LayerModel F)} {s s' : List Nat} {d d' : Draws F} {snn : Snn F} [FText F]
    (h : WellFormed (.input q :: .gru num opts :: rest) s s') (hf : f < s.prod) (hg3 : g < 3)
    (hm : Snn.make (.input q :: .gru num opts :: rest) opt d = .ok (snn, d')) {w : List F} (hw : firstGateWeights snn.net k g = some w) :
    ∃ c, w[f]? = some c ∧ FirstBlind s.prod f c g k (fun _ => True) snn.net.layers := by
  obtain ⟨r0, r', e0, hc⟩ := h.layers
  have hcount := h.count
  injection e0 with e1 e2
  injection e1 with e1
  subst e1
  injection e2 with e2 e3
  subst e2
  subst e3
  have hg := chain_good hc
  obtain ⟨⟨net, d1⟩, h1, hmk⟩ := Res.bind_eq_ok.1 hm
  obtain ⟨err, h2, hmk⟩ := Res.bind_eq_ok.1 hmk
  split at hmk
  · cases hmk
  cases hmk
  obtain ⟨⟨ls, d2⟩, h3, h1⟩ := Res.bind_eq_ok.1 h1
  obtain ⟨last, h4, h1⟩ := Res.bind_eq_ok.1 h1
  cases h1
  unfold LayerFactory.build at h3
  rw [if_neg (by simp at hcount ⊢; omega)] at h3
  simp only at h3
  rw [if_neg (by simp), computeNumberOfInputs_ok hg] at h3
  simp only [Res.ok_bind] at h3
  rw [if_neg (by have := hg.small; omega)] at h3
  unfold buildLayers at h3
  obtain ⟨⟨l, d3⟩, k1, h3⟩ := Res.bind_eq_ok.1 h3
  obtain ⟨⟨ls1, d4⟩, k2, h3⟩ := Res.bind_eq_ok.1 h3
  cases h3
  rw [buildLayer_start hg] at k1
  obtain ⟨_, ns, hb, _, hns, _⟩ := buildSimple_inv (P := fun n : Gru F => ∃ c, Blind s.prod f c (gateOf g n).base) (by
    intro d n hn
    obtain ⟨r, h1, hn⟩ := Res.bind_eq_ok.1 hn
    obtain ⟨u, h2, hn⟩ := Res.bind_eq_ok.1 hn
    obtain ⟨o, h3, hn⟩ := Res.bind_eq_ok.1 hn
    cases hn
    have one : ∀ {m : NeuronModel F} {d : Draws F} {n : RecNeuron F}, RecNeuron.make m opt d = .ok n → m.batchSize = 1 → m.numberOfInputs = (s.prod : Int) →
        m.numberOfWeights = m.numberOfInputs + 2 → ∃ c, Blind s.prod f c n.base := by
      intro m d n hn hb hi hw
      have hwf := (RecNeuron.make_wf hn (by omega) hw).1
      obtain ⟨b, hbb, hn⟩ := Res.bind_eq_ok.1 hn
      cases hn
      rw [hi, hb] at hwf
      exact make_blind (ni := s.prod) (nw := s.prod + 2) hbb hwf (by omega) hf
    match g with
    | 0 => exact one h1 rfl rfl rfl
    | 1 => exact one h2 rfl rfl rfl
    | g + 2 => exact one h3 rfl rfl rfl) k1
  simp only [firstGateWeights, hb, Option.map_eq_some_iff] at hw
  obtain ⟨n, hk, hw⟩ := hw
  obtain ⟨c, hbl⟩ := hns n (List.mem_of_getElem? hk)
  have hw' : w = (gateOf g n).base.weights := by
    rw [← hw]
    match g with
    | 0 => rfl
    | 1 => rfl
    | g + 2 => rfl
  refine ⟨c, by rw [hw']; exact hbl.weight, l, ls1, rfl, ?_⟩
  rw [hb]
  exact ⟨n, ⟨hk, hg3⟩, hbl, trivial⟩

end

end Snn.Unused
