import Verif.Proofs.PerfectProofs
import Verif.Proofs.GruFrozen
import Verif.Proofs.ConvLined
import Verif.Spec.FreezeSpec

/-! An error multiplier of 0: the layer and the ones before it keep all their weights but those of the biases, with any momentum. -/

set_option linter.all false

namespace Snn.Frz

open Snn Spec Perfect

section
variable {F : Type} [Field F] [LinearOrder F] [IsStrictOrderedRing F] [FTrans F]

/-- A neuron with one weight for its bias and no memory of a past update. -/
def Cold (n : Neuron F) : Prop := n.weights.length = n.numberOfInputs.toNat + 1 ∧ ∀ v ∈ n.previousDeltaWeights.queue, ∀ y ∈ v, y = 0

/-- The neuron kept its weights, except the one of the bias, and is still without memory. -/
def Keep (n n' : Neuron F) : Prop := n'.weights.dropLast = n.weights.dropLast ∧ Cold n'

theorem Keep.trans {a b c : Neuron F} (h : Keep a b) (k : Keep b c) : Keep a c := ⟨k.1.trans h.1, k.2⟩

theorem cold_same {n n' : Neuron F} (hc : Cold n) (h : n.Same n') : Cold n' := by
  refine ⟨?_, ?_⟩
  · rw [h.weights, h.numberOfInputs]; exact hc.1
  · rw [h.momentum]; exact hc.2

theorem cold_update {o : Sgd F} {n n' : Neuron F} (hi : Cold n) (h : o.updateSimple n 0 = .ok n') : Keep n n' := by
  unfold Sgd.updateSimple at h
  obtain ⟨⟨li, l1⟩, _, h⟩ := Res.bind_eq_ok.1 h
  obtain ⟨⟨ps, pd⟩, hp, h⟩ := Res.bind_eq_ok.1 h
  obtain ⟨⟨ds, ws⟩, h1, h⟩ := Res.bind_eq_ok.1 h
  obtain ⟨p, hpk, h⟩ := Res.bind_eq_ok.1 h
  obtain ⟨_, _, h⟩ := Res.bind_eq_ok.1 h
  obtain ⟨pd', hpd, h⟩ := Res.bind_eq_ok.1 h
  cases h
  have hps : (∀ y ∈ ps, y = 0) ∧ pd.queue = n.previousDeltaWeights.queue := by
    unfold Circ.getBack at hp
    obtain ⟨v, hv, hp⟩ := Res.bind_eq_ok.1 hp
    cases hp
    exact ⟨hi.2 _ (List.mem_of_getElem? (rd_eq_ok.1 hv).2), rfl⟩
  have hp0 : p = 0 := hps.1 _ (List.mem_of_getElem? (rd_eq_ok.1 hpk).2)
  subst hp0
  rw [mul_zero] at h1
  obtain ⟨e, hds⟩ := Snn.sgdLoop_zero h1 hps.1
  have hdrop : n.weights.drop (n.numberOfInputs.toNat + 1) = [] := by
    apply List.drop_eq_nil_of_le; rw [hi.1]
  refine ⟨?_, ?_, ?_⟩
  · simp only [hdrop]
    rw [List.dropLast_concat, e, List.dropLast_eq_take, hi.1]
    rfl
  · simp only [hdrop, e]
    simp [hi.1]
  · intro v hv y hy
    unfold Circ.pushBack at hpd
    obtain ⟨q, hq, hpd⟩ := Res.bind_eq_ok.1 hpd
    cases hpd
    simp only at hv
    rw [← (wr_eq_ok.1 hq).2] at hv
    rcases List.mem_or_eq_of_mem_set hv with h | h
    · rw [hps.2] at h
      exact hi.2 v h y hy
    · rw [h] at hy
      rcases List.mem_append.1 hy with h | h
      · exact hds y h
      · rcases List.mem_cons.1 h with h | h
        · rw [h]; simp
        · rw [(List.mem_replicate.1 h).2]; simp

theorem cold_train {n n' : Neuron F} (hi : Cold n) (h : n.train 0 = .ok n') : Keep n n' ∧ Cold n' := by
  unfold Neuron.train at h
  obtain ⟨d, _, h⟩ := Res.bind_eq_ok.1 h
  rw [zero_mul] at h
  exact ⟨cold_update hi h, (cold_update hi h).2⟩

theorem cold_back {n n' : Neuron F} {r : List F} (hi : Cold n) (h : n.backOutput 0 = .ok (r, n')) : Zeros r ∧ Keep n n' ∧ Cold n' := by
  unfold Neuron.backOutput at h
  obtain ⟨d, _, h⟩ := Res.bind_eq_ok.1 h
  simp only [zero_mul] at h
  obtain ⟨es, h1, h⟩ := Res.bind_eq_ok.1 h
  obtain ⟨n1, h2, h⟩ := Res.bind_eq_ok.1 h
  have he : n1.errors = es := by
    unfold Sgd.updateSimple at h2
    obtain ⟨⟨li, l1⟩, _, h⟩ := Res.bind_eq_ok.1 h2
    obtain ⟨⟨pv, p1⟩, _, h⟩ := Res.bind_eq_ok.1 h
    obtain ⟨⟨ds, ws⟩, h1, h⟩ := Res.bind_eq_ok.1 h
    obtain ⟨p, _, h⟩ := Res.bind_eq_ok.1 h
    obtain ⟨_, _, h⟩ := Res.bind_eq_ok.1 h
    obtain ⟨pd, _, h⟩ := Res.bind_eq_ok.1 h
    cases h
    rfl
  cases h
  rw [he]
  have k := cold_update (n := { n with errors := es }) hi h2
  exact ⟨errorLoop_zero h1 rfl, k, k.2⟩

theorem backNeurons_cold : ∀ {ns ns' : List (Neuron F)} {es acc r : List F}, backNeurons (fun n e => n.backOutput e) ns es acc = .ok (r, ns') →
    (∀ n ∈ ns, Cold n) → Zeros es → Zeros acc → Zeros r ∧ List.Forall₂ Keep ns ns'
  | [], ns', es, acc, r, h, _, _, ha => by cases h; exact ⟨ha, .nil⟩
  | n :: ns, ns', [], acc, r, h, _, _, _ => by cases h
  | n :: ns, ns', e :: es, acc, r, h, hn, he, ha => by
    unfold backNeurons at h
    obtain ⟨⟨e1, n1⟩, h1, h⟩ := Res.bind_eq_ok.1 h
    obtain ⟨acc', h2, h⟩ := Res.bind_eq_ok.1 h
    obtain ⟨⟨r1, ns1⟩, h3, h⟩ := Res.bind_eq_ok.1 h
    cases h
    rw [he.head] at h1
    obtain ⟨k1, k2, _⟩ := cold_back (hn n (by simp)) h1
    obtain ⟨k3, k4⟩ := backNeurons_cold h3 (fun n h => hn n (by simp [h])) he.tail (addErrors_zero h2 ha k1)
    exact ⟨k3, .cons k2 k4⟩

theorem trainNeurons_cold : ∀ {ns ns' : List (Neuron F)} {es : List F}, trainNeurons (fun n e => n.train e) ns es = .ok ns' →
    (∀ n ∈ ns, Cold n) → Zeros es → List.Forall₂ Keep ns ns'
  | [], ns', es, h, _, _ => by cases h; exact .nil
  | n :: ns, ns', [], h, _, _ => by cases h
  | n :: ns, ns', e :: es, h, hn, he => by
    unfold trainNeurons at h
    obtain ⟨n1, h1, h⟩ := Res.bind_eq_ok.1 h
    obtain ⟨ns1, h3, h⟩ := Res.bind_eq_ok.1 h
    cases h
    rw [he.head] at h1
    exact .cons (cold_train (hn n (by simp)) h1).1 (trainNeurons_cold h3 (fun n h => hn n (by simp [h])) he.tail)

theorem convBackRow_cold {row : List Int} : ∀ {ns ns' : List (Neuron F)} {es acc r : List F}, convBackRow row ns es acc = .ok (r, ns') →
    (∀ n ∈ ns, Cold n) → Zeros es → Zeros acc → Zeros r ∧ List.Forall₂ Keep ns ns' ∧ ∀ n ∈ ns', Cold n
  | [], ns', es, acc, r, h, _, _, ha => by cases h; exact ⟨ha, .nil, by simp⟩
  | n :: ns, ns', [], acc, r, h, _, _, _ => by cases h
  | n :: ns, ns', e :: es, acc, r, h, hn, he, ha => by
    unfold convBackRow at h
    obtain ⟨⟨e1, n1⟩, h1, h⟩ := Res.bind_eq_ok.1 h
    obtain ⟨acc', h2, h⟩ := Res.bind_eq_ok.1 h
    obtain ⟨⟨r1, ns1⟩, h3, h⟩ := Res.bind_eq_ok.1 h
    cases h
    rw [he.head] at h1
    obtain ⟨k1, k2, k0⟩ := cold_back (hn n (by simp)) h1
    obtain ⟨k3, k4, k5⟩ := convBackRow_cold h3 (fun n h => hn n (by simp [h])) he.tail (scatter_zero h2 k1 ha)
    refine ⟨k3, .cons k2 k4, ?_⟩
    intro m hm
    rcases List.mem_cons.1 hm with rfl | hm
    · exact k0
    · exact k5 m hm

theorem convBack_cold : ∀ {rows : List (List Int)} {ns ns' : List (Neuron F)} {es acc r : List F}, convBack rows ns es acc = .ok (r, ns') →
    (∀ n ∈ ns, Cold n) → Zeros es → Zeros acc → Zeros r ∧ (rows ≠ [] → List.Forall₂ Keep ns ns')
  | [], ns, ns', es, acc, r, h, _, _, ha => by cases h; exact ⟨ha, fun h => absurd rfl h⟩
  | row :: rows, ns, ns', es, acc, r, h, hn, he, ha => by
    unfold convBack at h
    obtain ⟨⟨acc', ns1⟩, h1, h⟩ := Res.bind_eq_ok.1 h
    obtain ⟨k1, k2, k3⟩ := convBackRow_cold h1 hn he ha
    obtain ⟨k4, k5⟩ := convBack_cold h k3 (he.drop _) k1
    refine ⟨k4, fun _ => ?_⟩
    by_cases hr : rows = []
    · subst hr
      cases h
      exact k2
    · exact forall₂_trans (R := Keep) (fun _ _ _ a b => a.trans b) k2 (k5 hr)

theorem lcBack_cold {rowOf : Nat → Res (List Int)} : ∀ {i : Nat} {ns ns' : List (Neuron F)} {es acc r : List F}, lcBack rowOf i ns es acc = .ok (r, ns') →
    (∀ n ∈ ns, Cold n) → Zeros es → Zeros acc → Zeros r ∧ List.Forall₂ Keep ns ns'
  | i, [], ns', es, acc, r, h, _, _, ha => by cases h; exact ⟨ha, .nil⟩
  | i, n :: ns, ns', [], acc, r, h, _, _, _ => by cases h
  | i, n :: ns, ns', e :: es, acc, r, h, hn, he, ha => by
    unfold lcBack at h
    obtain ⟨⟨e1, n1⟩, h1, h⟩ := Res.bind_eq_ok.1 h
    obtain ⟨row, _, h⟩ := Res.bind_eq_ok.1 h
    obtain ⟨acc', h2, h⟩ := Res.bind_eq_ok.1 h
    obtain ⟨⟨r1, ns1⟩, h3, h⟩ := Res.bind_eq_ok.1 h
    cases h
    rw [he.head] at h1
    obtain ⟨k1, k2, _⟩ := cold_back (hn n (by simp)) h1
    obtain ⟨k3, k4⟩ := lcBack_cold h3 (fun n h => hn n (by simp [h])) he.tail (scatterPad_zero h2 k1 ha)
    exact ⟨k3, .cons k2 k4⟩

/-- A recurrent neuron without memory of a past update and of a past error. -/
def ColdR (n : RecNeuron F) : Prop := Still n.base.weights n ∧ n.base.errors.length = n.base.numberOfInputs.toNat

/-- The neuron kept its weights and is still without memory. -/
def KeepR (n n' : RecNeuron F) : Prop := n'.base.weights = n.base.weights ∧ ColdR n'

theorem keepR_of {n n' : RecNeuron F} (h : Still n.base.weights n') (he : n'.base.errors.length = n.base.errors.length)
    (hn : n'.base.numberOfInputs = n.base.numberOfInputs) (hc : ColdR n) : KeepR n n' :=
  ⟨h.weights, ⟨rfl, h.error, h.deltas⟩, by rw [he, hn]; exact hc.2⟩

theorem updateRec_frame {o : Sgd F} {n n' : RecNeuron F} {e : F} (h : o.updateRec n e = .ok n') :
    n'.base.errors = n.base.errors ∧ n'.base.numberOfInputs = n.base.numberOfInputs := by
  unfold Sgd.updateRec at h
  obtain ⟨⟨xs, li⟩, _, h⟩ := Res.bind_eq_ok.1 h
  obtain ⟨⟨ps, pd⟩, hp, h⟩ := Res.bind_eq_ok.1 h
  obtain ⟨⟨ds, ws⟩, hl, h⟩ := Res.bind_eq_ok.1 h
  obtain ⟨p, hpk, h⟩ := Res.bind_eq_ok.1 h
  obtain ⟨w0, hw0, h⟩ := Res.bind_eq_ok.1 h
  obtain ⟨der, _, h⟩ := Res.bind_eq_ok.1 h
  obtain ⟨pd', hpd, h⟩ := Res.bind_eq_ok.1 h
  cases h
  exact ⟨rfl, rfl⟩

theorem errorLoop_length {e : F} : ∀ {k : Nat} {es ws r : List F}, errorLoop e k es ws = .ok r → r.length = es.length
  | 0, es, ws, r, h => by cases h; rfl
  | k + 1, x :: es, w :: ws, r, h => by
    unfold errorLoop at h
    obtain ⟨r1, h1, h⟩ := Res.bind_eq_ok.1 h
    cases h
    simp [errorLoop_length h1]
  | k + 1, [], ws, r, h => by simp [errorLoop] at h
  | k + 1, x :: es, [], r, h => by simp [errorLoop] at h

theorem rec_train {n n' : RecNeuron F} (hc : ColdR n) (h : n.train 0 = .ok n') : KeepR n n' := by
  unfold RecNeuron.train at h
  obtain ⟨d, _, h⟩ := Res.bind_eq_ok.1 h
  rw [zero_mul] at h
  obtain ⟨k1, k2⟩ := updateRec_frame h
  exact keepR_of (still_update hc.1 h) (by rw [k1]) k2 hc

theorem rec_back {n n' : RecNeuron F} {r : List F} (hc : ColdR n) (h : n.backOutput 0 = .ok (r, n')) : Zeros r ∧ KeepR n n' := by
  have hs := still_back hc.1 h
  unfold RecNeuron.backOutput at h
  obtain ⟨d, _, h⟩ := Res.bind_eq_ok.1 h
  simp only [zero_mul] at h
  obtain ⟨es, h1, h⟩ := Res.bind_eq_ok.1 h
  obtain ⟨n1, h2, h⟩ := Res.bind_eq_ok.1 h
  cases h
  obtain ⟨k1, k2⟩ := updateRec_frame h2
  simp only at k1 k2
  refine ⟨?_, keepR_of hs (by rw [k1]; exact errorLoop_length h1) k2 hc⟩
  rw [k1]
  exact errorLoop_zero h1 hc.2.symm

theorem rec_output {n n' : RecNeuron F} {x : List F} {t : Bool} {y : F} (hc : ColdR n) (h : n.output x t = .ok (y, n')) : KeepR n n' := by
  have hs := still_output hc.1 h
  have hk := RecNeuron.output_same h
  exact keepR_of hs (by rw [Neuron.Same.errors hk]) (Neuron.Same.numberOfInputs hk) hc

/-- A gated recurrent unit without memory of a past update and of a past error. -/
structure ColdG (g : Gru F) : Prop where
  r : ColdR g.resetGate
  u : ColdR g.updateGate
  o : ColdR g.outputGate

/-- The unit kept its weights and is still without memory. -/
def KeepG (g g' : Gru F) : Prop := g'.getWeights = g.getWeights ∧ ColdG g'

theorem keepG_of {g g' : Gru F} (r : KeepR g.resetGate g'.resetGate) (u : KeepR g.updateGate g'.updateGate) (o : KeepR g.outputGate g'.outputGate) : KeepG g g' := by
  refine ⟨?_, r.2, u.2, o.2⟩
  unfold Gru.getWeights
  rw [r.1, u.1, o.1]

theorem backOf_zero {es : List F} {v : F} (h : backOf es = .ok v) (hz : Zeros es) : v = 0 := by
  unfold backOf at h
  split at h
  · rename_i e he; cases h; exact hz _ (List.mem_of_getLast? he)
  · cases h

theorem plusVec_zero : ∀ {a b : List F}, Zeros a → Zeros b → Zeros (plusVec a b)
  | [], b, ha, _ => by unfold plusVec; simpa using ha
  | a :: as, [], ha, _ => by unfold plusVec; exact ha
  | a :: as, b :: bs, ha, hb => by
    intro e he
    unfold plusVec at he
    rcases List.mem_cons.1 he with rfl | he
    · rw [ha.head, hb.head, add_zero]
    · exact plusVec_zero ha.tail hb.tail e he

theorem gru_back {g g' : Gru F} {r : List F} (hc : ColdG g) (h : g.backOutput 0 = .ok (r, g')) : Zeros r ∧ KeepG g g' := by
  unfold Gru.backOutput at h
  simp only [zero_mul, add_zero] at h
  obtain ⟨⟨e1, og⟩, h1, h⟩ := Res.bind_eq_ok.1 h
  obtain ⟨⟨e2, ug⟩, h2, h⟩ := Res.bind_eq_ok.1 h
  obtain ⟨d, hd, h⟩ := Res.bind_eq_ok.1 h
  obtain ⟨⟨e3, rg⟩, h3, h⟩ := Res.bind_eq_ok.1 h
  cases h
  obtain ⟨a1, b1⟩ := rec_back hc.o h1
  obtain ⟨a2, b2⟩ := rec_back hc.u h2
  simp only at hd h3
  rw [backOf_zero hd a1, zero_mul] at h3
  obtain ⟨a3, b3⟩ := rec_back hc.r h3
  exact ⟨plusVec_zero (plusVec_zero a1 a2) a3, keepG_of b3 b2 b1⟩

theorem gru_train {g g' : Gru F} (hc : ColdG g) (h : g.train 0 = .ok g') : KeepG g g' := by
  unfold Gru.train at h
  simp only [zero_mul, add_zero] at h
  obtain ⟨⟨e1, og⟩, h1, h⟩ := Res.bind_eq_ok.1 h
  obtain ⟨⟨e2, ug⟩, h2, h⟩ := Res.bind_eq_ok.1 h
  obtain ⟨d, hd, h⟩ := Res.bind_eq_ok.1 h
  obtain ⟨⟨e3, rg⟩, h3, h⟩ := Res.bind_eq_ok.1 h
  cases h
  obtain ⟨a1, b1⟩ := rec_back hc.o h1
  obtain ⟨a2, b2⟩ := rec_back hc.u h2
  simp only at hd h3
  rw [backOf_zero hd a1, zero_mul] at h3
  obtain ⟨a3, b3⟩ := rec_back hc.r h3
  exact keepG_of b3 b2 b1

theorem keepR_last {n n' : RecNeuron F} {v : F} (h : KeepR n n') : KeepR n { n' with lastOutput := v } :=
  ⟨h.1, ⟨h.2.1.weights, h.2.1.error, h.2.1.deltas⟩, h.2.2⟩

theorem gru_output {g g' : Gru F} {x : List F} {t : Bool} {y : F} (hc : ColdG g) (h : g.output x t = .ok (y, g')) : KeepG g g' := by
  unfold Gru.output at h
  obtain ⟨⟨_, rg⟩, h1, h⟩ := Res.bind_eq_ok.1 h
  obtain ⟨⟨rv, ug⟩, h2, h⟩ := Res.bind_eq_ok.1 h
  obtain ⟨⟨_, og⟩, h3, h⟩ := Res.bind_eq_ok.1 h
  cases h
  have key : ∀ g1 : Gru F, ColdG g1 → ∀ v, ColdR { g1.outputGate with lastOutput := v } := fun g1 hc v =>
    ⟨⟨hc.o.1.weights, hc.o.1.error, hc.o.1.deltas⟩, hc.o.2⟩
  cases t
  · exact keepG_of (keepR_last (rec_output hc.r h1)) (keepR_last (rec_output hc.u h2))
      (keepR_last ⟨(rec_output (key g hc _) h3).1, (rec_output (key g hc _) h3).2⟩)
  · exact keepG_of (keepR_last (rec_output (n := g.resetGate) hc.r h1)) (keepR_last (rec_output (n := g.updateGate) hc.u h2))
      (keepR_last ⟨(rec_output (key g hc _) h3).1, (rec_output (key g hc _) h3).2⟩)

theorem backNeurons_keepz {N : Type} {f : N → F → Res (List F × N)} {C : N → Prop} {K : N → N → Prop}
    (hf : ∀ {n r n'}, C n → f n 0 = .ok (r, n') → Zeros r ∧ K n n') : ∀ {ns ns' : List N} {es acc r : List F}, backNeurons f ns es acc = .ok (r, ns') →
    (∀ n ∈ ns, C n) → Zeros es → Zeros acc → Zeros r ∧ List.Forall₂ K ns ns'
  | [], ns', es, acc, r, h, _, _, ha => by cases h; exact ⟨ha, .nil⟩
  | n :: ns, ns', [], acc, r, h, _, _, _ => by cases h
  | n :: ns, ns', e :: es, acc, r, h, hn, he, ha => by
    unfold backNeurons at h
    obtain ⟨⟨e1, n1⟩, h1, h⟩ := Res.bind_eq_ok.1 h
    obtain ⟨acc', h2, h⟩ := Res.bind_eq_ok.1 h
    obtain ⟨⟨r1, ns1⟩, h3, h⟩ := Res.bind_eq_ok.1 h
    cases h
    rw [he.head] at h1
    obtain ⟨k1, k2⟩ := hf (hn n (by simp)) h1
    obtain ⟨k3, k4⟩ := backNeurons_keepz hf h3 (fun n h => hn n (by simp [h])) he.tail (addErrors_zero h2 ha k1)
    exact ⟨k3, .cons k2 k4⟩

theorem trainNeurons_keepz {N : Type} {f : N → F → Res N} {C : N → Prop} {K : N → N → Prop}
    (hf : ∀ {n n'}, C n → f n 0 = .ok n' → K n n') : ∀ {ns ns' : List N} {es : List F}, trainNeurons f ns es = .ok ns' →
    (∀ n ∈ ns, C n) → Zeros es → List.Forall₂ K ns ns'
  | [], ns', es, h, _, _ => by cases h; exact .nil
  | n :: ns, ns', [], h, _, _ => by cases h
  | n :: ns, ns', e :: es, h, hn, he => by
    unfold trainNeurons at h
    obtain ⟨n1, h1, h⟩ := Res.bind_eq_ok.1 h
    obtain ⟨ns1, h3, h⟩ := Res.bind_eq_ok.1 h
    cases h
    rw [he.head] at h1
    exact .cons (hf (hn n (by simp)) h1) (trainNeurons_keepz hf h3 (fun n h => hn n (by simp [h])) he.tail)

theorem runNeurons_keepz {N : Type} {f : N → Res (F × N)} {C : N → Prop} {K : N → N → Prop}
    (hf : ∀ {n y n'}, C n → f n = .ok (y, n') → K n n') : ∀ {ns ns' : List N} {ys : List F}, runNeurons f ns = .ok (ys, ns') →
    (∀ n ∈ ns, C n) → List.Forall₂ K ns ns'
  | [], ns', ys, h, _ => by cases h; exact .nil
  | n :: ns, ns', ys, h, hn => by
    unfold runNeurons at h
    obtain ⟨⟨o, n1⟩, h1, h⟩ := Res.bind_eq_ok.1 h
    obtain ⟨⟨os1, ns1⟩, h2, h⟩ := Res.bind_eq_ok.1 h
    cases h
    exact .cons (hf (hn n (by simp)) h1) (runNeurons_keepz hf h2 (fun n h => hn n (by simp [h])))

theorem keep_list {N : Type} {C : N → Prop} {K : N → N → Prop} {w : N → List F} (hK : ∀ {n n'}, K n n' → w n' = w n ∧ C n') {ns ns' : List N}
    (h : List.Forall₂ K ns ns') : (∀ n ∈ ns', C n) ∧ ns'.map w = ns.map w := by
  induction h with
  | nil => exact ⟨by simp, rfl⟩
  | cons h1 _ ih =>
    refine ⟨?_, ?_⟩
    · intro n hn
      rcases List.mem_cons.1 hn with rfl | hn
      · exact (hK h1).2
      · exact ih.1 n hn
    · rw [List.map_cons, List.map_cons, ih.2, (hK h1).1]

/-- A layer body whose neurons are without memory of a past update and of a past error. -/
def ColdBody : Body F → Prop
  | .fullyConnected ns => ∀ n ∈ ns, Cold n
  | .recurrence ns => ∀ n ∈ ns, ColdR n
  | .gru ns => ∀ n ∈ ns, ColdG n
  | .filter _ ns info => (∀ n ∈ ns, Cold n) ∧ info.kernelIndexes ≠ []
  | .pool .. => True

theorem keep_map {ns ns' : List (Neuron F)} (h : List.Forall₂ Keep ns ns') :
    (∀ n ∈ ns', Cold n) ∧ (ns'.map fun n => n.weights.dropLast) = ns.map fun n => n.weights.dropLast := by
  induction h with
  | nil => exact ⟨by simp, rfl⟩
  | cons h1 _ ih =>
    refine ⟨?_, ?_⟩
    · intro n hn
      rcases List.mem_cons.1 hn with rfl | hn
      · exact h1.2
      · exact ih.1 n hn
    · rw [List.map_cons, List.map_cons, ih.2, h1.1]

theorem body_back {ni : Int} {b b' : Body F} {es r : List F} (hb : ColdBody b) (he : Zeros es) (h : b.computeBackOutput ni es = .ok (r, b')) :
    Zeros r ∧ ColdBody b' ∧ weightsButBias b' = weightsButBias b := by
  unfold Body.computeBackOutput at h
  obtain ⟨acc, h0, h⟩ := Res.bind_eq_ok.1 h
  have ha : Zeros acc := by
    unfold zeroErrors at h0
    split at h0
    · cases h0
    · cases h0
      intro e he
      rw [List.eq_of_mem_replicate he]; simp
  cases b with
  | fullyConnected ns =>
    obtain ⟨⟨_, _⟩, h1, h⟩ := Res.bind_eq_ok.1 h
    cases h
    obtain ⟨k1, k2⟩ := backNeurons_cold h1 hb he ha
    exact ⟨k1, (keep_map k2).1, (keep_map k2).2⟩
  | recurrence ns =>
    obtain ⟨⟨_, _⟩, h1, h⟩ := Res.bind_eq_ok.1 h
    cases h
    obtain ⟨k1, k2⟩ := backNeurons_keepz rec_back h1 hb he ha
    have k := keep_list (C := ColdR) (w := fun n : RecNeuron F => n.base.weights) (fun h => h) k2
    exact ⟨k1, k.1, k.2⟩
  | gru ns =>
    obtain ⟨⟨_, _⟩, h1, h⟩ := Res.bind_eq_ok.1 h
    cases h
    obtain ⟨k1, k2⟩ := backNeurons_keepz gru_back h1 hb he ha
    have k := keep_list (C := ColdG) (w := Gru.getWeights) (fun h => h) k2
    exact ⟨k1, k.1, k.2⟩
  | filter kind ns info =>
    obtain ⟨⟨_, _⟩, h1, h⟩ := Res.bind_eq_ok.1 h
    cases h
    cases kind with
    | conv1D => obtain ⟨k1, k2⟩ := convBack_cold h1 hb.1 he ha; exact ⟨k1, ⟨(keep_map (k2 hb.2)).1, hb.2⟩, (keep_map (k2 hb.2)).2⟩
    | conv2D => obtain ⟨k1, k2⟩ := convBack_cold h1 hb.1 he ha; exact ⟨k1, ⟨(keep_map (k2 hb.2)).1, hb.2⟩, (keep_map (k2 hb.2)).2⟩
    | lc1D => obtain ⟨k1, k2⟩ := lcBack_cold h1 hb.1 he ha; exact ⟨k1, ⟨(keep_map k2).1, hb.2⟩, (keep_map k2).2⟩
    | lc2D => obtain ⟨k1, k2⟩ := lcBack_cold h1 hb.1 he ha; exact ⟨k1, ⟨(keep_map k2).1, hb.2⟩, (keep_map k2).2⟩
  | pool twoD info o mvi =>
    obtain ⟨_, h1, h⟩ := Res.bind_eq_ok.1 h
    cases h
    exact ⟨poolBack_zero h1 he ha, trivial, rfl⟩

theorem body_train {b b' : Body F} {es : List F} (hb : ColdBody b) (he : Zeros es) (h : b.computeTrain es = .ok b') :
    ColdBody b' ∧ weightsButBias b' = weightsButBias b := by
  cases b with
  | fullyConnected ns =>
    obtain ⟨_, h1, h⟩ := Res.bind_eq_ok.1 h
    cases h
    exact keep_map (trainNeurons_cold h1 hb he)
  | recurrence ns =>
    obtain ⟨_, h1, h⟩ := Res.bind_eq_ok.1 h
    cases h
    exact keep_list (C := ColdR) (w := fun n : RecNeuron F => n.base.weights) (fun h => h) (trainNeurons_keepz rec_train h1 hb he)
  | gru ns =>
    obtain ⟨_, h1, h⟩ := Res.bind_eq_ok.1 h
    cases h
    exact keep_list (C := ColdG) (w := Gru.getWeights) (fun h => h) (trainNeurons_keepz gru_train h1 hb he)
  | filter kind ns info =>
    obtain ⟨_, h1, h⟩ := Res.bind_eq_ok.1 h
    cases h
    have k := keep_map (trainNeurons_cold h1 hb.1 he)
    exact ⟨⟨k.1, hb.2⟩, k.2⟩
  | pool twoD info o mvi => cases h; exact ⟨trivial, rfl⟩

theorem cold_same_list {ns ns' : List (Neuron F)} (h : List.Forall₂ Neuron.Same ns ns') (hc : ∀ n ∈ ns, Cold n) : ∀ n ∈ ns', Cold n := by
  induction h with
  | nil => simp
  | cons h1 _ ih =>
    intro n hn
    rcases List.mem_cons.1 hn with rfl | hn
    · exact cold_same (hc _ (by simp)) h1
    · exact ih (fun n h => hc n (by simp [h])) n hn

theorem body_output {b b' : Body F} {x out : List F} {t : Bool} (hb : ColdBody b) (h : b.computeOutput x t = .ok (out, b')) :
    ColdBody b' ∧ weightsButBias b' = weightsButBias b := by
  have hs := Body.computeOutput_same h
  have hw : ∀ {ns ns' : List (Neuron F)}, List.Forall₂ Neuron.Same ns ns' → (ns'.map fun n => n.weights.dropLast) = ns.map fun n => n.weights.dropLast := by
    intro ns ns' h
    induction h with
    | nil => rfl
    | cons h1 _ ih => rw [List.map_cons, List.map_cons, ih, h1.weights]
  cases b with
  | recurrence ns =>
    obtain ⟨⟨_, ns'⟩, h1, h⟩ := Res.bind_eq_ok.1 h
    cases h
    exact (keep_list (C := ColdR) (w := fun n : RecNeuron F => n.base.weights) (fun h => h) (runNeurons_keepz rec_output h1 hb))
  | gru ns =>
    obtain ⟨⟨_, ns'⟩, h1, h⟩ := Res.bind_eq_ok.1 h
    cases h
    exact (keep_list (C := ColdG) (w := Gru.getWeights) (fun h => h) (runNeurons_keepz gru_output h1 hb))
  | fullyConnected ns =>
    cases b' <;> simp only [Body.Same] at hs
    exact ⟨cold_same_list hs hb, hw hs⟩
  | filter kind ns info =>
    cases b' <;> simp only [Body.Same] at hs
    obtain ⟨_, hs, e⟩ := hs
    subst e
    exact ⟨⟨cold_same_list hs hb.1, hb.2⟩, hw hs⟩
  | pool twoD info o mvi =>
    cases b' <;> simp only [Body.Same] at hs
    exact ⟨trivial, rfl⟩

/-- A layer without regularization, whose neurons are without memory and have the inner weights w. -/
structure ColdLayer (w : List (List F)) (l : Layer F) : Prop where
  body : ColdBody l.body
  opts : ∀ o ∈ l.optimizers, Unregular o
  weights : weightsButBias l.body = w

/-- Cold layers, of which the last one has an error multiplier of 0, and any layers after them. -/
inductive Fz : List (List (List F)) → List (Layer F) → Prop
  | last {w l rest} : ColdLayer w l → .errorMultiplier 0 ∈ l.optimizers → Fz [w] (l :: rest)
  | cons {w ws l ls} : ColdLayer w l → Fz ws ls → Fz (w :: ws) (l :: ls)

theorem backHooks_killed (ws : List (List F)) : ∀ {os : List (LayerOpt F)} {es : List F}, (∀ o ∈ os, Unregular o) → .errorMultiplier 0 ∈ os → Zeros (backHooks ws os es)
  | o :: os, es, ho, h => by
    rcases List.mem_cons.1 h with h | h
    · subst h
      refine backHooks_zero ws (os := os) (fun o h => ho o (by simp [h])) ?_
      intro e he
      obtain ⟨a, ha, rfl⟩ := List.mem_map.1 he
      simp
    · exact backHooks_killed ws (os := os) (fun o h => ho o (by simp [h])) h

theorem layer_back {w : List (List F)} {l l' : Layer F} {es r : List F} (hl : ColdLayer w l) (he : Zeros (backHooks l.body.weights l.optimizers es))
    (h : l.backOutput es = .ok (r, l')) : Zeros r ∧ ColdLayer w l' ∧ l'.optimizers = l.optimizers := by
  unfold Layer.backOutput at h
  obtain ⟨⟨r1, b1⟩, h3, h2⟩ := Res.bind_eq_ok.1 h
  cases h2
  obtain ⟨k1, k2, k3⟩ := body_back hl.body he h3
  exact ⟨k1, ⟨k2, hl.opts, k3.trans hl.weights⟩, rfl⟩

theorem layer_train {w : List (List F)} {l l' : Layer F} {es : List F} (hl : ColdLayer w l) (he : Zeros (backHooks l.body.weights l.optimizers es))
    (h : l.train es = .ok l') : ColdLayer w l' ∧ l'.optimizers = l.optimizers := by
  unfold Layer.train at h
  obtain ⟨b1, h3, h2⟩ := Res.bind_eq_ok.1 h
  cases h2
  obtain ⟨k2, k3⟩ := body_train hl.body he h3
  exact ⟨⟨k2, hl.opts, k3.trans hl.weights⟩, rfl⟩

theorem fz_backLoop {ws : List (List (List F))} {ls : List (Layer F)} (hf : Fz ws ls) : ∀ {ls' : List (Layer F)} {es r : List F},
    backLoop ls es = .ok (r, ls') → Zeros r ∧ Fz ws ls' := by
  induction hf with
  | last hl hk =>
    intro ls' es r h
    unfold backLoop at h
    obtain ⟨⟨es1, ls1⟩, h1, h⟩ := Res.bind_eq_ok.1 h
    obtain ⟨⟨es2, l1⟩, h2, h⟩ := Res.bind_eq_ok.1 h
    cases h
    obtain ⟨k1, k2, k3⟩ := layer_back hl (backHooks_killed _ hl.opts hk) h2
    exact ⟨k1, .last k2 (by rw [k3]; exact hk)⟩
  | cons hl _ ih =>
    intro ls' es r h
    unfold backLoop at h
    obtain ⟨⟨es1, ls1⟩, h1, h⟩ := Res.bind_eq_ok.1 h
    obtain ⟨⟨es2, l1⟩, h2, h⟩ := Res.bind_eq_ok.1 h
    cases h
    obtain ⟨k0, k⟩ := ih h1
    obtain ⟨k1, k2, k3⟩ := layer_back hl (backHooks_zero _ hl.opts k0) h2
    exact ⟨k1, .cons k2 k⟩

theorem fz_back {ws : List (List (List F))} {ls ls' : List (Layer F)} {es : List F} (hf : Fz ws ls) (h : backwardPass ls es = .ok ls') : Fz ws ls' := by
  cases hf with
  | last hl hk =>
    unfold backwardPass at h
    obtain ⟨⟨es1, ls1⟩, h1, h⟩ := Res.bind_eq_ok.1 h
    obtain ⟨l1, h2, h⟩ := Res.bind_eq_ok.1 h
    cases h
    obtain ⟨k2, k3⟩ := layer_train hl (backHooks_killed _ hl.opts hk) h2
    exact .last k2 (by rw [k3]; exact hk)
  | cons hl hr =>
    unfold backwardPass at h
    obtain ⟨⟨es1, ls1⟩, h1, h⟩ := Res.bind_eq_ok.1 h
    obtain ⟨l1, h2, h⟩ := Res.bind_eq_ok.1 h
    cases h
    obtain ⟨k0, k⟩ := fz_backLoop hr h1
    obtain ⟨k2, k3⟩ := layer_train hl (backHooks_zero _ hl.opts k0) h2
    exact .cons k2 k

theorem layer_output {w : List (List F)} {l l' : Layer F} {x y : List F} {t : Bool} (hl : ColdLayer w l) (h : l.output x t = .ok (y, l')) :
    ColdLayer w l' ∧ l'.optimizers = l.optimizers := by
  unfold Layer.output at h
  obtain ⟨⟨_, _⟩, h3, h⟩ := Res.bind_eq_ok.1 h
  obtain ⟨_, _, h⟩ := Res.bind_eq_ok.1 h
  cases h
  obtain ⟨k1, k2⟩ := body_output hl.body h3
  exact ⟨⟨k1, hl.opts, k2.trans hl.weights⟩, rfl⟩

theorem hooks_mask {t : Bool} : ∀ {os os' : List (LayerOpt F)} {x y : List F} {d d' : Draws F}, trainingHooks t os x d = .ok (y, os', d') →
    (∀ o ∈ os, Unregular o) → (∀ o ∈ os', Unregular o) ∧ (LayerOpt.errorMultiplier 0 ∈ os → LayerOpt.errorMultiplier 0 ∈ os')
  | [], os', x, y, d, d', h, _ => by cases h; simp
  | o :: os, os', x, y, d, d', h, ho => by
    unfold trainingHooks at h
    obtain ⟨⟨y1, o1, d1⟩, h1, h⟩ := Res.bind_eq_ok.1 h
    obtain ⟨⟨y2, os1, d2⟩, h2, h⟩ := Res.bind_eq_ok.1 h
    cases h
    obtain ⟨k1, k2⟩ := hooks_mask h2 (fun o h => ho o (by simp [h]))
    have h0 := ho o (by simp)
    have key : Unregular o1 ∧ (o = .errorMultiplier 0 → o1 = .errorMultiplier 0) := by
      cases o with
      | dropout v rv m =>
        simp only [LayerOpt.afterOutputForTraining] at h1
        split at h1 <;> cases h1 <;> exact ⟨trivial, fun e => by cases e⟩
      | l1 v => exact h0.elim
      | l2 v => exact h0.elim
      | errorMultiplier f => cases h1; exact ⟨trivial, fun e => e⟩
      | softmax =>
        simp only [LayerOpt.afterOutputForTraining] at h1
        obtain ⟨_, _, h1⟩ := Res.bind_eq_ok.1 h1
        cases h1; exact ⟨trivial, fun e => e⟩
    refine ⟨?_, ?_⟩
    · intro p hp
      rcases List.mem_cons.1 hp with rfl | hp
      · exact key.1
      · exact k1 p hp
    · intro hm
      rcases List.mem_cons.1 hm with hm | hm
      · rw [key.2 hm.symm]; simp
      · exact List.mem_cons_of_mem _ (k2 hm)

theorem layer_training {w : List (List F)} {l l' : Layer F} {x y : List F} {t : Bool} {d d' : Draws F} (hl : ColdLayer w l)
    (h : l.outputForTraining x t d = .ok (y, l', d')) :
    ColdLayer w l' ∧ (LayerOpt.errorMultiplier 0 ∈ l.optimizers → LayerOpt.errorMultiplier 0 ∈ l'.optimizers) := by
  unfold Layer.outputForTraining at h
  obtain ⟨⟨_, _⟩, h3, h⟩ := Res.bind_eq_ok.1 h
  obtain ⟨⟨_, _, _⟩, h4, h⟩ := Res.bind_eq_ok.1 h
  cases h
  obtain ⟨k1, k2⟩ := body_output hl.body h3
  obtain ⟨k3, k4⟩ := hooks_mask h4 hl.opts
  exact ⟨⟨k1, k3, k2.trans hl.weights⟩, k4⟩

theorem fz_kept (ws : List (List (List F))) : Kept (F := F) (Fz ws) where
  out := by
    intro t ls ls' x y hf h
    induction hf generalizing ls' x y with
    | last hl hk =>
      unfold outputLoop at h
      obtain ⟨⟨y1, l1⟩, h1, h⟩ := Res.bind_eq_ok.1 h
      obtain ⟨⟨y2, ls1⟩, h2, h⟩ := Res.bind_eq_ok.1 h
      cases h
      obtain ⟨k1, k2⟩ := layer_output hl h1
      exact .last k1 (by rw [k2]; exact hk)
    | cons hl _ ih =>
      unfold outputLoop at h
      obtain ⟨⟨y1, l1⟩, h1, h⟩ := Res.bind_eq_ok.1 h
      obtain ⟨⟨y2, ls1⟩, h2, h⟩ := Res.bind_eq_ok.1 h
      cases h
      exact .cons (layer_output hl h1).1 (ih h2)
  training := by
    intro t ls ls' x y d d' hf h
    induction hf generalizing ls' x y d d' with
    | last hl hk =>
      unfold trainingLoop at h
      obtain ⟨⟨y1, l1, d1⟩, h1, h⟩ := Res.bind_eq_ok.1 h
      obtain ⟨⟨y2, ls1, d2⟩, h2, h⟩ := Res.bind_eq_ok.1 h
      cases h
      obtain ⟨k1, k2⟩ := layer_training hl h1
      exact .last k1 (k2 hk)
    | cons hl _ ih =>
      unfold trainingLoop at h
      obtain ⟨⟨y1, l1, d1⟩, h1, h⟩ := Res.bind_eq_ok.1 h
      obtain ⟨⟨y2, ls1, d2⟩, h2, h⟩ := Res.bind_eq_ok.1 h
      cases h
      exact .cons (layer_training hl h1).1 (ih h2)
  back := fun hf h => fz_back hf h

/-- Cold layers keep their inner weights. -/
theorem fz_weights {ws : List (List (List F))} {ls : List (Layer F)} (hf : Fz ws ls) : (ls.take ws.length).map (fun l => weightsButBias l.body) = ws := by
  induction hf with
  | last hl _ => simp [hl.weights]
  | cons hl _ ih => simp [hl.weights, ih]

/-- A neuron without memory of a past update. -/
def Forgetful (n : Neuron F) : Prop := ∀ v ∈ n.previousDeltaWeights.queue, ∀ y ∈ v, y = 0

/-- The neurons of a layer have no memory of a past update. -/
def NoMem : Body F → Prop
  | .fullyConnected ns => ∀ n ∈ ns, Forgetful n
  | .recurrence ns => ∀ n ∈ ns, Still n.base.weights n
  | .gru ns => ∀ n ∈ ns, Still n.resetGate.base.weights n.resetGate ∧ Still n.updateGate.base.weights n.updateGate ∧ Still n.outputGate.base.weights n.outputGate
  | .filter _ ns _ => ∀ n ∈ ns, Forgetful n
  | _ => True

theorem buildConvolution_noMem {o : Sgd F} {ni f k : Int} {shape : List Int} {act : Act} {opts : List (LayerOptModel F)} {d d' : Draws F}
    {l : Layer F} (h : buildConvolution o ni shape f k act opts d = .ok (l, d')) : NoMem l.body := by
  unfold buildConvolution at h
  split at h
  · split at h
    · cases h
    · iterate 5 obtain ⟨_, _, h⟩ := Res.bind_eq_ok.1 h
      simp only at h
      obtain ⟨⟨ns, d1⟩, h1, h⟩ := Res.bind_eq_ok.1 h
      simp only at h
      obtain ⟨_, _, h⟩ := Res.bind_eq_ok.1 h
      cases h
      exact (makeAllNeurons_inv (fun _ _ h => Neuron.make_zeros h) h1).2
  · split at h
    · cases h
    · iterate 8 obtain ⟨_, _, h⟩ := Res.bind_eq_ok.1 h
      simp only at h
      obtain ⟨⟨ns, d1⟩, h1, h⟩ := Res.bind_eq_ok.1 h
      simp only at h
      obtain ⟨_, _, h⟩ := Res.bind_eq_ok.1 h
      cases h
      exact (makeAllNeurons_inv (fun _ _ h => Neuron.make_zeros h) h1).2
  · cases h

theorem buildLocallyConnected_noMem {o : Sgd F} {ni f k : Int} {shape : List Int} {act : Act} {opts : List (LayerOptModel F)} {d d' : Draws F}
    {l : Layer F} (h : buildLocallyConnected o ni shape f k act opts d = .ok (l, d')) : NoMem l.body := by
  unfold buildLocallyConnected at h
  split at h
  · split at h
    · cases h
    · iterate 5 obtain ⟨_, _, h⟩ := Res.bind_eq_ok.1 h
      simp only at h
      obtain ⟨⟨ns, d1⟩, h1, h⟩ := Res.bind_eq_ok.1 h
      simp only at h
      obtain ⟨_, _, h⟩ := Res.bind_eq_ok.1 h
      cases h
      exact (makeAllNeurons_inv (fun _ _ h => Neuron.make_zeros h) h1).2
  · split at h
    · cases h
    · iterate 8 obtain ⟨_, _, h⟩ := Res.bind_eq_ok.1 h
      simp only at h
      obtain ⟨⟨ns, d1⟩, h1, h⟩ := Res.bind_eq_ok.1 h
      simp only at h
      obtain ⟨_, _, h⟩ := Res.bind_eq_ok.1 h
      cases h
      exact (makeAllNeurons_inv (fun _ _ h => Neuron.make_zeros h) h1).2
  · cases h

theorem buildMaxPooling_noMem {ni k : Int} {shape : List Int} {l : Layer F} (h : buildMaxPooling ni shape k = .ok l) : NoMem l.body := by
  unfold buildMaxPooling at h
  split at h
  · split at h
    · cases h
    · obtain ⟨_, _, h⟩ := Res.bind_eq_ok.1 h
      simp only at h
      split at h
      · cases h
      · iterate 2 obtain ⟨_, _, h⟩ := Res.bind_eq_ok.1 h
        cases h
        trivial
  · split at h
    · cases h
    · iterate 5 obtain ⟨_, _, h⟩ := Res.bind_eq_ok.1 h
      split at h
      · cases h
      · obtain ⟨_, _, h⟩ := Res.bind_eq_ok.1 h
        cases h
        trivial
  · cases h

theorem make_still3 {m : NeuronModel F} {o : Sgd F} {d : Nat → F} {g : Gru F} (h : Gru.make m o d = .ok g) :
    Still g.resetGate.base.weights g.resetGate ∧ Still g.updateGate.base.weights g.updateGate ∧ Still g.outputGate.base.weights g.outputGate := by
  obtain ⟨r, hr, h⟩ := Res.bind_eq_ok.1 h
  obtain ⟨u, hu, h⟩ := Res.bind_eq_ok.1 h
  obtain ⟨o', ho, h⟩ := Res.bind_eq_ok.1 h
  cases h
  exact ⟨RecNeuron.make_still hr, RecNeuron.make_still hu, RecNeuron.make_still ho⟩

theorem buildLayer_noMem {o : Sgd F} {m : LayerModel F} {shape : List Int} {d d' : Draws F} {l : Layer F}
    (h : buildLayer o m shape d = .ok (l, d')) : NoMem l.body := by
  unfold buildLayer at h
  obtain ⟨_, _, h⟩ := Res.bind_eq_ok.1 h
  split at h
  · cases h
  split at h
  · cases h
  cases m with
  | fullyConnected n act opts =>
    simp only at h
    split at h
    · cases h
    · obtain ⟨h1, ns, h2, h3⟩ := buildSimple_set (P := Forgetful) (fun _ _ _ h => Neuron.make_zeros h) h
      rw [h2]; exact h3
  | recurrence n act opts =>
    obtain ⟨h1, ns, h2, h3⟩ := buildSimple_set (P := fun n : RecNeuron F => Still n.base.weights n) (fun _ _ _ h => RecNeuron.make_still h) h
    rw [h2]; exact h3
  | gru n opts =>
    obtain ⟨h1, ns, h2, h3⟩ := buildSimple_set (P := fun n : Gru F => Still n.resetGate.base.weights n.resetGate ∧ Still n.updateGate.base.weights n.updateGate ∧ Still n.outputGate.base.weights n.outputGate) (fun _ _ _ h => make_still3 h) h
    rw [h2]; exact h3
  | maxPooling k =>
    simp only at h
    obtain ⟨l1, h1, h⟩ := Res.bind_eq_ok.1 h
    cases h
    exact buildMaxPooling_noMem h1
  | locallyConnected f k act opts => exact buildLocallyConnected_noMem h
  | convolution f k act opts => exact buildConvolution_noMem h
  | input s => cases h

theorem buildLayers_noMem {o : Sgd F} : ∀ {ms : List (LayerModel F)} {shape : List Int} {d d' : Draws F} {ls : List (Layer F)},
    buildLayers o ms shape d = .ok (ls, d') → ∀ l ∈ ls, NoMem l.body
  | [], shape, d, d', ls, h => by cases h; simp
  | m :: ms, shape, d, d', ls, h => by
    unfold buildLayers at h
    obtain ⟨⟨l, d1⟩, h1, h⟩ := Res.bind_eq_ok.1 h
    obtain ⟨⟨ls', d2⟩, h2, h⟩ := Res.bind_eq_ok.1 h
    cases h
    intro x hx
    rcases List.mem_cons.1 hx with rfl | hx
    · exact buildLayer_noMem h1
    · exact buildLayers_noMem h2 x hx

theorem make_noMem {arch : List (LayerModel F)} {o : Sgd F} {d d' : Draws F} {n : Net F} (h : Net.make arch o d = .ok (n, d')) :
    ∀ l ∈ n.layers, NoMem l.body := by
  unfold Net.make at h
  obtain ⟨⟨ls, d1⟩, h1, h⟩ := Res.bind_eq_ok.1 h
  obtain ⟨last, h2, h⟩ := Res.bind_eq_ok.1 h
  cases h
  unfold LayerFactory.build at h1
  split at h1
  · cases h1
  · split at h1
    · split at h1
      · cases h1
      · obtain ⟨_, _, h1⟩ := Res.bind_eq_ok.1 h1
        split at h1
        · cases h1
        · exact buildLayers_noMem h1
    · cases h1

theorem cold_body {b : Body F} {ni no : Nat} (h : b.WF ni no) (hp : 0 < no) (hz : NoMem b) : ColdBody b := by
  have key : ∀ {n : Neuron F} {ni k : Nat}, n.WF ni (ni + 1) k → Forgetful n → Cold n := by
    intro n ni k hn ho
    exact ⟨by rw [hn.wlen, hn.inputs]; simp, ho⟩
  have keyR : ∀ {n : RecNeuron F} {ni k : Nat}, n.WF ni k → Still n.base.weights n → ColdR n := by
    intro n ni k hn ho
    exact ⟨ho, by rw [Neuron.WF.elen hn, Neuron.WF.inputs hn]; simp⟩
  cases b with
  | fullyConnected ns => exact fun n hn => key (h.1 n hn) (hz n hn)
  | recurrence ns => exact fun n hn => keyR (h.1 n hn) (hz n hn)
  | gru ns => exact fun n hn => ⟨keyR (h.1 n hn).r (hz n hn).1, keyR (h.1 n hn).u (hz n hn).2.1, keyR (h.1 n hn).o (hz n hn).2.2⟩
  | filter kind ns info =>
    cases kind with
    | conv1D => exact ⟨fun n hn => key (ConvWF.neurons h n hn) (hz n hn), List.length_pos_iff.1 (ConvWF.pos h)⟩
    | conv2D => exact ⟨fun n hn => key (ConvWF.neurons h n hn) (hz n hn), List.length_pos_iff.1 (ConvWF.pos h)⟩
    | lc1D =>
      refine ⟨fun n hn => key (LcWF.neurons h n hn) (hz n hn), ?_⟩
      intro e
      have h1 := LcWF.count h
      have h2 := LcWF.out h
      rw [e] at h1
      simp at h1
      rw [h1] at h2
      simp at h2
      omega
    | lc2D =>
      refine ⟨fun n hn => key (LcWF.neurons h n hn) (hz n hn), ?_⟩
      intro e
      have h1 := LcWF.count h
      have h2 := LcWF.out h
      rw [e] at h1
      simp at h1
      rw [h1] at h2
      simp at h2
      omega
  | pool => trivial

end

end Snn.Frz
