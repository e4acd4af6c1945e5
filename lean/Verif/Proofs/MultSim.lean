import Verif.Spec.MultSpec
import Verif.Proofs.MapSimProofs
import Verif.Proofs.NeuronProofs
import Mathlib.Tactic.Ring

/-! An error multiplier on the last layer is a factor of the learning rate. -/

set_option linter.all false

namespace Snn.Mult

open Snn.Spec Snn.MapSim

section
variable {F : Type} [Field F] [LinearOrder F] [IsStrictOrderedRing F] [FTrans F] {c l0 : F}

/-- The errors times c. -/
def sc (c : F) (v : List F) : List F := v.map (· * c)

/-- The neuron with the errors times c and the learning rate l0. -/
def scN (c l0 : F) (n : Neuron F) : Neuron F := { n with errors := sc c n.errors, optimizer := { n.optimizer with learningRate := l0 } }

/-- n has the learning rate l0 * c, and m is the same with the errors times c and the learning rate l0. -/
def RN (c l0 : F) (n m : Neuron F) : Prop := m = scN c l0 n ∧ n.optimizer.learningRate = l0 * c

def RR (c l0 : F) (n m : RecNeuron F) : Prop := m = { n with base := scN c l0 n.base, recurrentError := n.recurrentError * c } ∧ n.base.optimizer.learningRate = l0 * c

def RG (c l0 : F) (n m : Gru F) : Prop := ∃ r u o, m = { n with errors := sc c n.errors, resetGate := r, updateGate := u, outputGate := o } ∧
  RR c l0 n.resetGate r ∧ RR c l0 n.updateGate u ∧ RR c l0 n.outputGate o

/-! ### The neurons -/

theorem RN.output {n m : Neuron F} (h : RN c l0 n m) (x : List F) : Res.Rel (fun p q => q.1 = p.1 ∧ RN c l0 p.2 q.2) (n.output x) (m.output x) := by
  obtain ⟨rfl, h⟩ := h
  unfold Neuron.output scN
  dsimp only
  refine Res.Rel.bind (R := fun a b => a = b) (Res.Rel.eq (β := Circ F)) ?_
  rintro li _ rfl
  refine Res.Rel.bind (R := fun a b => a = b) (Res.Rel.eq (β := F)) ?_
  rintro tmp _ rfl
  refine Res.Rel.bind (R := fun a b => a = b) (Res.Rel.eq (β := F)) ?_
  rintro wb _ rfl
  refine Res.Rel.bind (R := fun a b => a = b) (Res.Rel.eq (β := F)) ?_
  rintro o _ rfl
  exact ⟨rfl, rfl, h⟩

theorem updateSimple_sim {n m : Neuron F} (h : RN c l0 n m) (e : F) :
    Res.Rel (RN c l0) (n.optimizer.updateSimple n e) (m.optimizer.updateSimple m (e * c)) := by
  obtain ⟨rfl, h⟩ := h
  unfold Sgd.updateSimple scN
  dsimp only
  have e1 : l0 / lit (n.batchSize : ℚ) * (e * c) = n.optimizer.learningRate / lit (n.batchSize : ℚ) * e := by rw [h]; ring
  simp only [e1]
  refine Res.Rel.bind (R := fun a b => a = b) (Res.Rel.eq (β := List F × Circ F)) ?_
  rintro ⟨xs, li⟩ _ rfl
  refine Res.Rel.bind (R := fun a b => a = b) (Res.Rel.eq (β := List F × Circ F)) ?_
  rintro ⟨ps, pd⟩ _ rfl
  refine Res.Rel.bind (R := fun a b => a = b) (Res.Rel.eq (β := List F × List F)) ?_
  rintro ⟨ds, ws⟩ _ rfl
  refine Res.Rel.bind (R := fun a b => a = b) (Res.Rel.eq (β := F)) ?_
  rintro p _ rfl
  refine Res.Rel.bind (R := fun a b => a = b) (Res.Rel.eq (β := F)) ?_
  rintro _ _ rfl
  refine Res.Rel.bind (R := fun a b => a = b) (Res.Rel.eq (β := Circ F)) ?_
  rintro pd' _ rfl
  exact ⟨rfl, h⟩

theorem errorLoop_sim {e : F} : ∀ (k : Nat) (es ws : List F), Res.Rel (fun p q => q = sc c p) (errorLoop e k es ws) (errorLoop (e * c) k (sc c es) ws)
  | 0, es, ws => rfl
  | k + 1, [], ws => rfl
  | k + 1, _ :: _, [] => rfl
  | k + 1, a :: es, w :: ws => by
    simp only [sc, List.map_cons]
    unfold errorLoop
    refine Res.Rel.bind (errorLoop_sim k es ws) ?_
    rintro r _ rfl
    simp only [Res.Rel, sc, List.map_cons, Res.pure_eq]
    congr 1
    ring

theorem RN.backOutput {n m : Neuron F} (h : RN c l0 n m) (e : F) :
    Res.Rel (fun p q => q.1 = sc c p.1 ∧ RN c l0 p.2 q.2) (n.backOutput e) (m.backOutput (e * c)) := by
  obtain ⟨rfl, h⟩ := h
  unfold Neuron.backOutput
  refine Res.Rel.bind (R := fun a b => a = b) (Res.Rel.eq (β := F)) ?_
  rintro d _ rfl
  have e1 : e * c * d = e * d * c := by ring
  have e2 : (scN c l0 n).errors.length = n.errors.length := by simp [scN, sc]
  dsimp only
  rw [e1, e2]
  refine Res.Rel.bind (errorLoop_sim _ _ _) ?_
  rintro es _ rfl
  refine Res.Rel.bind (updateSimple_sim (n := { n with errors := es }) (m := { scN c l0 n with errors := sc c es }) ⟨rfl, h⟩ (e * d)) ?_
  rintro a b ⟨rfl, hab⟩
  exact ⟨rfl, rfl, hab⟩

theorem RN.train {n m : Neuron F} (h : RN c l0 n m) (e : F) : Res.Rel (RN c l0) (n.train e) (m.train (e * c)) := by
  have h0 := h
  obtain ⟨rfl, h⟩ := h
  unfold Neuron.train
  refine Res.Rel.bind (R := fun a b => a = b) (Res.Rel.eq (β := F)) ?_
  rintro d _ rfl
  have e1 : e * c * d = e * d * c := by ring
  rw [e1]
  exact updateSimple_sim h0 _

theorem RR.output {n m : RecNeuron F} (h : RR c l0 n m) (x : List F) (t : Bool) :
    Res.Rel (fun p q => q.1 = p.1 ∧ RR c l0 p.2 q.2) (n.output x t) (m.output x t) := by
  obtain ⟨rfl, h⟩ := h
  obtain ⟨b, lo, po, re, ps⟩ := n
  unfold RecNeuron.output scN
  have hz : (lit 0 : F) * c = lit 0 := by rw [lit_eq]; norm_num
  cases t
  all_goals
    simp only [Bool.false_eq_true, if_false, if_true, RecNeuron.reset]
    refine Res.Rel.bind (R := fun a b => a = b) (Res.Rel.eq (β := Circ F)) ?_
    rintro li _ rfl
    refine Res.Rel.bind (R := fun a b => a = b) (Res.Rel.eq (β := F)) ?_
    rintro tmp _ rfl
    refine Res.Rel.bind (R := fun a b => a = b) (Res.Rel.eq (β := F)) ?_
    rintro wr _ rfl
    refine Res.Rel.bind (R := fun a b => a = b) (Res.Rel.eq (β := F)) ?_
    rintro wb _ rfl
    refine Res.Rel.bind (R := fun a b => a = b) (Res.Rel.eq (β := F)) ?_
    rintro o _ rfl
  · exact ⟨rfl, rfl, h⟩
  · refine ⟨rfl, ?_, h⟩
    simp only [Res.pure_eq, hz]
    rfl

theorem updateRec_sim {n m : RecNeuron F} (h : RR c l0 n m) (e : F) :
    Res.Rel (RR c l0) (n.base.optimizer.updateRec n e) (m.base.optimizer.updateRec m (e * c)) := by
  obtain ⟨rfl, h⟩ := h
  obtain ⟨b, lo, po, re, ps⟩ := n
  unfold Sgd.updateRec scN
  dsimp only at h ⊢
  have e1 : l0 / lit (b.batchSize : ℚ) * (e * c) = b.optimizer.learningRate / lit (b.batchSize : ℚ) * e := by rw [h]; ring
  simp only [e1]
  refine Res.Rel.bind (R := fun a b => a = b) (Res.Rel.eq (β := List F × Circ F)) ?_
  rintro ⟨xs, li⟩ _ rfl
  refine Res.Rel.bind (R := fun a b => a = b) (Res.Rel.eq (β := List F × Circ F)) ?_
  rintro ⟨prev, pd⟩ _ rfl
  refine Res.Rel.bind (R := fun a b => a = b) (Res.Rel.eq (β := List F × List F)) ?_
  rintro ⟨ds, ws⟩ _ rfl
  refine Res.Rel.bind (R := fun a b => a = b) (Res.Rel.eq (β := F)) ?_
  rintro p _ rfl
  refine Res.Rel.bind (R := fun a b => a = b) (Res.Rel.eq (β := F)) ?_
  rintro w0 _ rfl
  refine Res.Rel.bind (R := fun a b => a = b) (Res.Rel.eq (β := F)) ?_
  rintro der _ rfl
  dsimp only
  generalize w0 + (b.optimizer.learningRate / lit (b.batchSize : ℚ) * e * b.bias + b.optimizer.momentum * p) = w1
  have e2 : e * c + re * c * der * w1 = (e + re * der * w1) * c := by ring
  have e3 : l0 / lit (b.batchSize : ℚ) * ((e + re * der * w1) * c) = b.optimizer.learningRate / lit (b.batchSize : ℚ) * (e + re * der * w1) := by rw [h]; ring
  rw [e2, e3]
  refine Res.Rel.bind (R := fun a b => a = b) (Res.Rel.eq (β := Circ F)) ?_
  rintro pd' _ rfl
  exact ⟨rfl, h⟩

theorem RR.backOutput {n m : RecNeuron F} (h : RR c l0 n m) (e : F) :
    Res.Rel (fun p q => q.1 = sc c p.1 ∧ RR c l0 p.2 q.2) (n.backOutput e) (m.backOutput (e * c)) := by
  obtain ⟨rfl, h⟩ := h
  obtain ⟨b, lo, po, re, ps⟩ := n
  unfold RecNeuron.backOutput
  refine Res.Rel.bind (R := fun a b => a = b) (Res.Rel.eq (β := F)) ?_
  rintro d _ rfl
  have e1 : e * c * d = e * d * c := by ring
  dsimp only
  rw [e1]
  refine Res.Rel.bind (errorLoop_sim _ _ _) ?_
  rintro es _ rfl
  refine Res.Rel.bind (updateRec_sim (n := ⟨{ b with errors := es }, lo, po, re, ps⟩) (m := ⟨{ scN c l0 b with errors := sc c es }, lo, po, re * c, ps⟩) ⟨rfl, h⟩ (e * d)) ?_
  rintro a b ⟨rfl, hab⟩
  exact ⟨rfl, rfl, hab⟩

theorem RR.train {n m : RecNeuron F} (h : RR c l0 n m) (e : F) : Res.Rel (RR c l0) (n.train e) (m.train (e * c)) := by
  have h0 := h
  obtain ⟨rfl, h⟩ := h
  unfold RecNeuron.train
  refine Res.Rel.bind (R := fun a b => a = b) (Res.Rel.eq (β := F)) ?_
  rintro d _ rfl
  have e1 : e * c * d = e * d * c := by ring
  rw [e1]
  exact updateRec_sim h0 _

theorem RR.last {n m : RecNeuron F} (h : RR c l0 n m) (v : F) : RR c l0 { n with lastOutput := v } { m with lastOutput := v } := by
  obtain ⟨rfl, h⟩ := h
  exact ⟨rfl, h⟩

theorem RR.lastOutput {n m : RecNeuron F} (h : RR c l0 n m) : m.lastOutput = n.lastOutput := by rw [h.1]

theorem RG.output {n m : Gru F} (h : RG c l0 n m) (x : List F) (t : Bool) :
    Res.Rel (fun p q => q.1 = p.1 ∧ RG c l0 p.2 q.2) (n.output x t) (m.output x t) := by
  obtain ⟨r, u, o, rfl, hr, hu, ho⟩ := h
  obtain ⟨er, ni, po, re, ug, og, nr, nu, no⟩ := n
  dsimp only at hr hu ho
  unfold Gru.output
  cases t
  all_goals
    simp only [Bool.false_eq_true, if_false, if_true, Gru.reset]
    refine Res.Rel.bind (hr.output x _) ?_
    rintro ⟨a, r1⟩ ⟨_, r2⟩ ⟨rfl, hr1⟩
    refine Res.Rel.bind (hu.output x _) ?_
    rintro ⟨b, u1⟩ ⟨_, u2⟩ ⟨rfl, hu1⟩
    dsimp only
    rw [ho.lastOutput]
    refine Res.Rel.bind ((ho.last _).output x _) ?_
    rintro ⟨d, o1⟩ ⟨_, o2⟩ ⟨rfl, ho1⟩
    exact ⟨rfl, _, _, _, rfl, hr1.last _, hu1.last _, ho1.last _⟩

theorem backOf_sc (v : List F) : Res.Rel (fun p q => q = p * c) (backOf v) (backOf (sc c v)) := by
  unfold backOf sc
  rw [List.getLast?_map]
  cases v.getLast? <;> rfl

theorem plusVec_sc : ∀ a b : List F, plusVec (sc c a) (sc c b) = sc c (plusVec a b)
  | [], b => by simp [plusVec, sc]
  | a :: as, [] => by simp [plusVec, sc]
  | a :: as, b :: bs => by
    have := plusVec_sc as bs
    simp only [sc, List.map_cons, plusVec] at this ⊢
    rw [this]
    congr 1
    ring

theorem RG.backOutput {n m : Gru F} (h : RG c l0 n m) (e : F) :
    Res.Rel (fun p q => q.1 = sc c p.1 ∧ RG c l0 p.2 q.2) (n.backOutput e) (m.backOutput (e * c)) := by
  obtain ⟨r, u, o, rfl, hr, hu, ho⟩ := h
  obtain ⟨er, ni, po, re, ug, og, nr, nu, no⟩ := n
  dsimp only at hr hu ho
  unfold Gru.backOutput
  dsimp only
  have e1 : e * c * ug = e * ug * c := by ring
  have e2 : e * c * og + e * ug * c = (e * og + e * ug) * c := by ring
  rw [e1, e2]
  refine Res.Rel.bind (ho.backOutput _) ?_
  rintro ⟨a, o1⟩ ⟨_, o2⟩ ⟨rfl, ho1⟩
  refine Res.Rel.bind (hu.backOutput _) ?_
  rintro ⟨b, u1⟩ ⟨_, u2⟩ ⟨rfl, hu1⟩
  dsimp only
  refine Res.Rel.bind (backOf_sc a) ?_
  rintro d _ rfl
  have e3 : d * c * po = d * po * c := by ring
  rw [e3]
  refine Res.Rel.bind (hr.backOutput _) ?_
  rintro ⟨b', r1⟩ ⟨_, r2⟩ ⟨rfl, hr1⟩
  dsimp only
  rw [plusVec_sc, plusVec_sc]
  exact ⟨rfl, _, _, _, rfl, hr1, hu1, ho1⟩

theorem RG.train {n m : Gru F} (h : RG c l0 n m) (e : F) : Res.Rel (RG c l0) (n.train e) (m.train (e * c)) := by
  obtain ⟨r, u, o, rfl, hr, hu, ho⟩ := h
  obtain ⟨er, ni, po, re, ug, og, nr, nu, no⟩ := n
  dsimp only at hr hu ho
  unfold Gru.train
  dsimp only
  have e1 : e * c * ug = e * ug * c := by ring
  have e2 : e * c * og + e * ug * c = (e * og + e * ug) * c := by ring
  rw [e1, e2]
  refine Res.Rel.bind (ho.backOutput _) ?_
  rintro ⟨a, o1⟩ ⟨_, o2⟩ ⟨rfl, ho1⟩
  refine Res.Rel.bind (hu.backOutput _) ?_
  rintro ⟨b, u1⟩ ⟨_, u2⟩ ⟨rfl, hu1⟩
  dsimp only
  refine Res.Rel.bind (backOf_sc a) ?_
  rintro d _ rfl
  have e3 : d * c * po = d * po * c := by ring
  rw [e3]
  refine Res.Rel.bind (hr.backOutput _) ?_
  rintro ⟨b', r1⟩ ⟨_, r2⟩ ⟨rfl, hr1⟩
  exact ⟨_, _, _, rfl, hr1, hu1, ho1⟩

/-! ### Lists of neurons -/

section
variable {N : Type} {P : N → N → Prop}

theorem run_sim {f : N → Res (F × N)} (hf : ∀ n m, P n m → Res.Rel (fun p q => q.1 = p.1 ∧ P p.2 q.2) (f n) (f m)) :
    ∀ {ns ms : List N}, List.Forall₂ P ns ms → Res.Rel (fun p q => q.1 = p.1 ∧ List.Forall₂ P p.2 q.2) (runNeurons f ns) (runNeurons f ms)
  | _, _, .nil => ⟨rfl, .nil⟩
  | _, _, .cons h hs => by
    unfold runNeurons
    refine Res.Rel.bind (hf _ _ h) ?_
    rintro ⟨o, n⟩ ⟨_, m⟩ ⟨rfl, h1⟩
    refine Res.Rel.bind (run_sim hf hs) ?_
    rintro ⟨os, ns'⟩ ⟨_, ms'⟩ ⟨rfl, h2⟩
    exact ⟨rfl, .cons h1 h2⟩

theorem train_sim' {f : N → F → Res N} (hf : ∀ n m e, P n m → Res.Rel P (f n e) (f m (e * c))) :
    ∀ {ns ms : List N} (es : List F), List.Forall₂ P ns ms → Res.Rel (List.Forall₂ P) (trainNeurons f ns es) (trainNeurons f ms (sc c es))
  | _, _, es, .nil => .nil
  | _, _, [], .cons h hs => rfl
  | _, _, e :: es, .cons h hs => by
    simp only [sc, List.map_cons]
    unfold trainNeurons
    refine Res.Rel.bind (hf _ _ e h) ?_
    intro n m h1
    refine Res.Rel.bind (train_sim' hf es hs) ?_
    intro ns' ms' h2
    exact .cons h1 h2

theorem addErrors_sc : ∀ a b : List F, Res.Rel (fun p q => q = sc c p) (addErrors a b) (addErrors (sc c a) (sc c b))
  | [], b => rfl
  | _ :: _, [] => rfl
  | a :: as, b :: bs => by
    simp only [sc, List.map_cons]
    unfold addErrors
    refine Res.Rel.bind (addErrors_sc as bs) ?_
    rintro r _ rfl
    simp only [Res.Rel, sc, List.map_cons, Res.pure_eq]
    congr 1
    ring

theorem backNeurons_sim {f : N → F → Res (List F × N)} (hf : ∀ n m e, P n m → Res.Rel (fun p q => q.1 = sc c p.1 ∧ P p.2 q.2) (f n e) (f m (e * c))) :
    ∀ {ns ms : List N} (es errors : List F), List.Forall₂ P ns ms →
      Res.Rel (fun p q => q.1 = sc c p.1 ∧ List.Forall₂ P p.2 q.2) (backNeurons f ns es errors) (backNeurons f ms (sc c es) (sc c errors))
  | _, _, es, errors, .nil => ⟨rfl, .nil⟩
  | _, _, [], errors, .cons h hs => rfl
  | _, _, e :: es, errors, .cons h hs => by
    simp only [sc, List.map_cons]
    unfold backNeurons
    refine Res.Rel.bind (hf _ _ e h) ?_
    rintro ⟨a, n⟩ ⟨_, m⟩ ⟨rfl, h1⟩
    refine Res.Rel.bind (addErrors_sc errors a) ?_
    rintro errors' _ rfl
    refine Res.Rel.bind (backNeurons_sim hf es errors' hs) ?_
    rintro ⟨r, ns'⟩ ⟨_, ms'⟩ ⟨rfl, h2⟩
    exact ⟨rfl, .cons h1 h2⟩

end

/-! ### Filters -/

theorem convOutputs_sim (x : List F) (size : Nat) : ∀ (rows : List (List Int)) {ns ms : List (Neuron F)}, List.Forall₂ (RN c l0) ns ms →
    Res.Rel (fun p q => q.1 = p.1 ∧ List.Forall₂ (RN c l0) p.2 q.2) (convOutputs x size rows ns) (convOutputs x size rows ms)
  | [], ns, ms, h => ⟨rfl, h⟩
  | row :: rows, ns, ms, h => by
    unfold convOutputs
    refine Res.Rel.bind (R := fun a b => a = b) (Res.Rel.eq (β := List F)) ?_
    rintro v _ rfl
    refine Res.Rel.bind (run_sim (P := RN c l0) (fun n m h => h.output v) h) ?_
    rintro ⟨o, n1⟩ ⟨_, m1⟩ ⟨rfl, h1⟩
    refine Res.Rel.bind (convOutputs_sim x size rows h1) ?_
    rintro ⟨os, n2⟩ ⟨_, m2⟩ ⟨rfl, h2⟩
    exact ⟨rfl, h2⟩

theorem lcOutputs_sim (x : List F) (size filters : Nat) : ∀ (rows : List (List Int)) {ns ms : List (Neuron F)}, List.Forall₂ (RN c l0) ns ms →
    Res.Rel (fun p q => q.1 = p.1 ∧ List.Forall₂ (RN c l0) p.2 q.2) (lcOutputs x size filters rows ns) (lcOutputs x size filters rows ms)
  | [], ns, ms, h => ⟨rfl, h⟩
  | row :: rows, ns, ms, h => by
    unfold lcOutputs
    refine Res.Rel.bind (R := fun a b => a = b) (Res.Rel.eq (β := List F)) ?_
    rintro v _ rfl
    rw [h.length_eq]
    split
    · rfl
    · refine Res.Rel.bind (run_sim (P := RN c l0) (fun n m h => h.output v) (List.forall₂_take filters h)) ?_
      rintro ⟨o, n1⟩ ⟨_, m1⟩ ⟨rfl, h1⟩
      refine Res.Rel.bind (lcOutputs_sim x size filters rows (List.forall₂_drop filters h)) ?_
      rintro ⟨os, n2⟩ ⟨_, m2⟩ ⟨rfl, h2⟩
      exact ⟨rfl, List.rel_append h1 h2⟩

theorem wr_sc (l : List F) (i : Int) (a : F) : Res.Rel (fun p q => q = sc c p) (wr l i a) (wr (sc c l) i (a * c)) := by
  unfold wr sc
  simp only [List.length_map]
  split
  · simp only [Res.Rel, List.map_set]
  · rfl

theorem rd_sc (l : List F) (i : Int) : Res.Rel (fun p q => q = p * c) (rd l i) (rd (sc c l) i) := by
  have := rd_map (· * c) l i
  revert this
  unfold sc
  cases rd l i <;> cases rd (l.map (· * c)) i <;> simp only [Res.Rel] <;> try exact id
  exact fun h => h.1

theorem scatter_sc : ∀ (is : List Int) (es errors : List F), Res.Rel (fun p q => q = sc c p) (scatter is es errors) (scatter is (sc c es) (sc c errors))
  | is, [], errors => by cases is <;> rfl
  | [], _ :: _, errors => rfl
  | i :: is, e :: es, errors => by
    simp only [sc, List.map_cons]
    unfold scatter
    refine Res.Rel.bind (rd_sc errors i) ?_
    rintro v _ rfl
    have e1 : v * c + e * c = (v + e) * c := by ring
    rw [e1]
    refine Res.Rel.bind (wr_sc errors i (v + e)) ?_
    rintro errors' _ rfl
    exact scatter_sc is es errors'

theorem scatterPad_sc : ∀ (is : List Int) (es errors : List F), Res.Rel (fun p q => q = sc c p) (scatterPad is es errors) (scatterPad is (sc c es) (sc c errors))
  | is, [], errors => by cases is <;> rfl
  | [], _ :: _, errors => rfl
  | i :: is, e :: es, errors => by
    simp only [sc, List.map_cons]
    unfold scatterPad
    split
    · refine Res.Rel.bind (rd_sc errors i) ?_
      rintro v _ rfl
      have e1 : v * c + e * c = (v + e) * c := by ring
      rw [e1]
      refine Res.Rel.bind (wr_sc errors i (v + e)) ?_
      rintro errors' _ rfl
      exact scatterPad_sc is es errors'
    · exact scatterPad_sc is es errors

theorem convBackRow_sim (row : List Int) : ∀ {ns ms : List (Neuron F)} (es errors : List F), List.Forall₂ (RN c l0) ns ms →
    Res.Rel (fun p q => q.1 = sc c p.1 ∧ List.Forall₂ (RN c l0) p.2 q.2) (convBackRow row ns es errors) (convBackRow row ms (sc c es) (sc c errors))
  | _, _, es, errors, .nil => ⟨rfl, .nil⟩
  | _, _, [], errors, .cons h hs => rfl
  | _, _, e :: es, errors, .cons h hs => by
    simp only [sc, List.map_cons]
    unfold convBackRow
    refine Res.Rel.bind (h.backOutput e) ?_
    rintro ⟨a, n⟩ ⟨_, m⟩ ⟨rfl, h1⟩
    refine Res.Rel.bind (scatter_sc row a errors) ?_
    rintro errors' _ rfl
    refine Res.Rel.bind (convBackRow_sim row es errors' hs) ?_
    rintro ⟨r, ns'⟩ ⟨_, ms'⟩ ⟨rfl, h2⟩
    exact ⟨rfl, .cons h1 h2⟩

theorem convBack_sim : ∀ (rows : List (List Int)) {ns ms : List (Neuron F)} (es errors : List F), List.Forall₂ (RN c l0) ns ms →
    Res.Rel (fun p q => q.1 = sc c p.1 ∧ List.Forall₂ (RN c l0) p.2 q.2) (convBack rows ns es errors) (convBack rows ms (sc c es) (sc c errors))
  | [], ns, ms, es, errors, h => ⟨rfl, h⟩
  | row :: rows, ns, ms, es, errors, h => by
    unfold convBack
    refine Res.Rel.bind (convBackRow_sim row es errors h) ?_
    rintro ⟨r, ns'⟩ ⟨_, ms'⟩ ⟨rfl, h2⟩
    have e1 : (sc c es).drop ms.length = sc c (es.drop ns.length) := by simp [sc, List.map_drop, h.length_eq]
    dsimp only
    rw [e1]
    exact convBack_sim rows _ _ h2

theorem lcBack_sim (rowOf : Nat → Res (List Int)) : ∀ (i : Nat) {ns ms : List (Neuron F)} (es errors : List F), List.Forall₂ (RN c l0) ns ms →
    Res.Rel (fun p q => q.1 = sc c p.1 ∧ List.Forall₂ (RN c l0) p.2 q.2) (lcBack rowOf i ns es errors) (lcBack rowOf i ms (sc c es) (sc c errors))
  | i, _, _, es, errors, .nil => ⟨rfl, .nil⟩
  | i, _, _, [], errors, .cons h hs => rfl
  | i, _, _, e :: es, errors, .cons h hs => by
    simp only [sc, List.map_cons]
    unfold lcBack
    refine Res.Rel.bind (h.backOutput e) ?_
    rintro ⟨a, n⟩ ⟨_, m⟩ ⟨rfl, h1⟩
    refine Res.Rel.bind (R := fun a b => a = b) (Res.Rel.eq (β := List Int)) ?_
    rintro row _ rfl
    refine Res.Rel.bind (scatterPad_sc row a errors) ?_
    rintro errors' _ rfl
    refine Res.Rel.bind (lcBack_sim rowOf (i + 1) es errors' hs) ?_
    rintro ⟨r, ns'⟩ ⟨_, ms'⟩ ⟨rfl, h2⟩
    exact ⟨rfl, .cons h1 h2⟩

theorem poolBack_sc : ∀ (ms : List Int) (es errors : List F), Res.Rel (fun p q => q = sc c p) (poolBack ms es errors) (poolBack ms (sc c es) (sc c errors))
  | ms, [], errors => by cases ms <;> rfl
  | [], _ :: _, errors => rfl
  | m :: ms, e :: es, errors => by
    simp only [sc, List.map_cons]
    unfold poolBack
    refine Res.Rel.bind (wr_sc errors m e) ?_
    rintro errors' _ rfl
    exact poolBack_sc ms es errors'

/-! ### Bodies -/

inductive RB (c l0 : F) : Body F → Body F → Prop
  | full {ns ms : List (Neuron F)} (h : List.Forall₂ (RN c l0) ns ms) : RB c l0 (.fullyConnected ns) (.fullyConnected ms)
  | recu {ns ms : List (RecNeuron F)} (h : List.Forall₂ (RR c l0) ns ms) : RB c l0 (.recurrence ns) (.recurrence ms)
  | gru {ns ms : List (Gru F)} (h : List.Forall₂ (RG c l0) ns ms) : RB c l0 (.gru ns) (.gru ms)
  | filter {kind : FKind} {info : FilterInfo} {ns ms : List (Neuron F)} (h : List.Forall₂ (RN c l0) ns ms) : RB c l0 (.filter kind ns info) (.filter kind ms info)
  | pool {b : Bool} {info : FilterInfo} {n : Int} {mvi : List Int} : RB c l0 (.pool b info n mvi) (.pool b info n mvi)

theorem zeroErrors_sc (n : Int) : Res.Rel (fun p q => p = q ∧ q = sc c p) (zeroErrors n : Res (List F)) (zeroErrors n) := by
  unfold zeroErrors
  split
  · rfl
  · refine ⟨rfl, ?_⟩
    simp [sc, lit_eq]

theorem map_eq {N : Type} {P : N → N → Prop} {f : N → List F} (hf : ∀ n m, P n m → f m = f n) : ∀ {ns ms : List N}, List.Forall₂ P ns ms → ms.map f = ns.map f
  | _, _, .nil => rfl
  | _, _, .cons h hs => by rw [List.map_cons, List.map_cons, hf _ _ h, map_eq hf hs]

theorem RG.weights {n m : Gru F} (h : RG c l0 n m) : m.getWeights = n.getWeights := by
  obtain ⟨r, u, o, rfl, hr, hu, ho⟩ := h
  unfold Gru.getWeights
  dsimp only
  rw [hr.1, hu.1, ho.1]
  rfl

theorem RB.weights {a b : Body F} (h : RB c l0 a b) : b.weights = a.weights := by
  cases h with
  | full h => exact map_eq (P := RN c l0) (fun n m h => by rw [h.1]; rfl) h
  | recu h => exact map_eq (P := RR c l0) (f := fun n => n.base.getWeights) (fun n m h => by rw [h.1]; rfl) h
  | gru h => exact map_eq (P := RG c l0) (fun n m h => h.weights) h
  | filter h => exact map_eq (P := RN c l0) (fun n m h => by rw [h.1]; rfl) h
  | pool => rfl

theorem RB.output {a b : Body F} (h : RB c l0 a b) (x : List F) (t : Bool) :
    Res.Rel (fun p q => q.1 = p.1 ∧ RB c l0 p.2 q.2) (a.computeOutput x t) (b.computeOutput x t) := by
  cases h with
  | full h =>
    refine Res.Rel.bind (run_sim (P := RN c l0) (fun n m h => h.output x) h) ?_
    rintro ⟨o, n1⟩ ⟨_, m1⟩ ⟨rfl, h1⟩
    exact ⟨rfl, .full h1⟩
  | recu h =>
    refine Res.Rel.bind (run_sim (P := RR c l0) (fun n m h => h.output x t) h) ?_
    rintro ⟨o, n1⟩ ⟨_, m1⟩ ⟨rfl, h1⟩
    exact ⟨rfl, .recu h1⟩
  | gru h =>
    refine Res.Rel.bind (run_sim (P := RG c l0) (fun n m h => h.output x t) h) ?_
    rintro ⟨o, n1⟩ ⟨_, m1⟩ ⟨rfl, h1⟩
    exact ⟨rfl, .gru h1⟩
  | @filter kind info ns ms h =>
    unfold Body.computeOutput
    refine Res.Rel.bind (R := fun p q => q.1 = p.1 ∧ List.Forall₂ (RN c l0) p.2 q.2) ?_ ?_
    · cases kind
      · exact convOutputs_sim _ _ _ h
      · exact convOutputs_sim _ _ _ h
      · exact lcOutputs_sim _ _ _ _ h
      · exact lcOutputs_sim _ _ _ _ h
    · rintro ⟨o, n1⟩ ⟨_, m1⟩ ⟨rfl, h1⟩
      refine Res.Rel.bind (R := fun a b => a = b) (Res.Rel.eq (β := List F)) ?_
      rintro v _ rfl
      exact ⟨rfl, .filter h1⟩
  | pool =>
    unfold Body.computeOutput
    refine Res.Rel.bind (R := fun a b => a = b) (Res.Rel.eq (β := List F × List Int)) ?_
    rintro ⟨os, ms⟩ _ rfl
    refine Res.Rel.bind (R := fun a b => a = b) (Res.Rel.eq (β := List F)) ?_
    rintro v _ rfl
    split
    · rfl
    · exact ⟨rfl, .pool⟩

theorem RB.back {a b : Body F} (h : RB c l0 a b) (ni : Int) (es : List F) :
    Res.Rel (fun p q => q.1 = sc c p.1 ∧ RB c l0 p.2 q.2) (a.computeBackOutput ni es) (b.computeBackOutput ni (sc c es)) := by
  unfold Body.computeBackOutput
  refine Res.Rel.bind (zeroErrors_sc (c := c) ni) ?_
  rintro z _ ⟨rfl, hz⟩
  cases h with
  | full h =>
    dsimp only
    have := backNeurons_sim (P := RN c l0) (f := fun n e => n.backOutput e) (fun n m e h => h.backOutput e) es z h
    rw [← hz] at this
    refine Res.Rel.bind this ?_
    rintro ⟨o, n1⟩ ⟨_, m1⟩ ⟨rfl, h1⟩
    exact ⟨rfl, .full h1⟩
  | recu h =>
    dsimp only
    have := backNeurons_sim (P := RR c l0) (f := fun n e => n.backOutput e) (fun n m e h => h.backOutput e) es z h
    rw [← hz] at this
    refine Res.Rel.bind this ?_
    rintro ⟨o, n1⟩ ⟨_, m1⟩ ⟨rfl, h1⟩
    exact ⟨rfl, .recu h1⟩
  | gru h =>
    dsimp only
    have := backNeurons_sim (P := RG c l0) (f := fun n e => n.backOutput e) (fun n m e h => h.backOutput e) es z h
    rw [← hz] at this
    refine Res.Rel.bind this ?_
    rintro ⟨o, n1⟩ ⟨_, m1⟩ ⟨rfl, h1⟩
    exact ⟨rfl, .gru h1⟩
  | @filter kind info ns ms h =>
    dsimp only
    refine Res.Rel.bind (R := fun p q => q.1 = sc c p.1 ∧ List.Forall₂ (RN c l0) p.2 q.2) ?_ ?_
    · have k1 := convBack_sim info.kernelIndexes es z h
      have k2 := lcBack_sim (lcRow kind info) 0 es z h
      rw [← hz] at k1 k2
      cases kind
      · exact k1
      · exact k1
      · exact k2
      · exact k2
    · rintro ⟨o, n1⟩ ⟨_, m1⟩ ⟨rfl, h1⟩
      exact ⟨rfl, .filter h1⟩
  | @pool b info n mvi =>
    dsimp only
    have := poolBack_sc (c := c) mvi es z
    rw [← hz] at this
    refine Res.Rel.bind this ?_
    rintro r _ rfl
    exact ⟨rfl, .pool⟩

theorem RB.train {a b : Body F} (h : RB c l0 a b) (es : List F) : Res.Rel (RB c l0) (a.computeTrain es) (b.computeTrain (sc c es)) := by
  cases h with
  | full h =>
    refine Res.Rel.bind (train_sim' (P := RN c l0) (fun n m e h => h.train e) es h) ?_
    exact fun _ _ h => .full h
  | recu h =>
    refine Res.Rel.bind (train_sim' (P := RR c l0) (fun n m e h => h.train e) es h) ?_
    exact fun _ _ h => .recu h
  | gru h =>
    refine Res.Rel.bind (train_sim' (P := RG c l0) (fun n m e h => h.train e) es h) ?_
    exact fun _ _ h => .gru h
  | filter h =>
    refine Res.Rel.bind (train_sim' (P := RN c l0) (fun n m e h => h.train e) es h) ?_
    exact fun _ _ h => .filter h
  | pool => exact .pool

end

end Snn.Mult
