import Verif.Spec.OutOrderSpec
import Verif.Proofs.HiddenSim

/-! # Two networks that answer and learn alike, the second with its outputs in another order, do so in every history of calls -/

set_option linter.all false

namespace Snn.OutSim

open Snn.Spec Snn.HistoryProps Snn.Shared Snn.Reorder
open Snn.MapSim (SnnSim rd_map getBatched_map Batchy reports_same)

section
variable {F : Type} [Field F] [LinearOrder F] [IsStrictOrderedRing F] [FTrans F]

/-- Same statistics, with the counters of the outputs in the order p. -/
def StatsSim (p : List Nat) (m : Nat) (s t : Stats F) : Prop := t = statsInOrder p s ∧ s.clusters.length = m

theorem fold_picked {α : Type} {p : List Nat} {cs : List α} (hp : p.Perm (List.range cs.length)) (f : F → α → F) (hf : ∀ a b c, f (f a b) c = f (f a c) b) (z : F) :
    (picked p cs).foldl f z = cs.foldl f z := (picked_perm hp).foldl_eq (rcomm := ⟨hf⟩) z

theorem stats_start {p : List Nat} {m : Nat} {s t : Stats F} (h : StatsSim p m s t) : StatsSim p m s.startTesting t.startTesting := by
  obtain ⟨rfl, hl⟩ := h
  refine ⟨?_, by simp [Stats.startTesting, hl]⟩
  simp only [Stats.startTesting, statsInOrder, picked_map]

theorem stats_nan {p : List Nat} {m : Nat} {s t : Stats F} (h : StatsSim p m s t) (nan : F) : StatsSim p m (s.setResultsAsNan nan) (t.setResultsAsNan nan) := by
  obtain ⟨rfl, hl⟩ := h
  refine ⟨?_, by simp [Stats.setResultsAsNan, hl]⟩
  simp only [Stats.setResultsAsNan, statsInOrder, picked_map]

theorem stats_loop {p : List Nat} {m : Nat} (hp : p.Perm (List.range m)) {s : Stats F} (hs : s.clusters.length = m) {o d : List F} (ho : o.length = m) (hd : d.length = m)
    (f : Cluster F → F × F → Cluster F × Bool) :
    let rs := List.zipWith f s.clusters (List.zip o d)
    let rs' := List.zipWith f (picked p s.clusters) (List.zip (inOrder p o) (inOrder p d))
    rs'.map Prod.fst = picked p (rs.map Prod.fst) ∧ rs'.all Prod.snd = rs.all Prod.snd ∧ (rs.map Prod.fst).length = m := by
  intro rs rs'
  have hlt := lt_of_perm hp
  have hr : rs.length = m := by simp [rs, hs, ho, hd]
  have e : rs' = picked p rs := by
    show List.zipWith f (picked p s.clusters) (List.zip (inOrder p o) (inOrder p d)) = picked p (List.zipWith f s.clusters (List.zip o d))
    rw [inOrder_picked (by rw [ho]; exact hlt), inOrder_picked (by rw [hd]; exact hlt), picked_zipWith f (by rw [hs]; exact hlt) (by simp [hs, ho, hd])]
    congr 1
    unfold List.zip
    rw [picked_zipWith _ (by rw [ho]; exact hlt) (by omega)]
  refine ⟨by rw [e, picked_map], ?_, by simp [hr]⟩
  rw [e]
  exact (picked_perm (by rw [hr]; exact hp)).all_eq

theorem stats_count {p : List Nat} {m : Nat} {s t : Stats F} (h : StatsSim p m s t) (w : Bool) : StatsSim p m (s.count w) (t.count w) := by
  obtain ⟨rfl, hl⟩ := h
  cases w <;> exact ⟨rfl, hl⟩

theorem stats_regression {p : List Nat} {m : Nat} (hp : p.Perm (List.range m)) {s t : Stats F} (h : StatsSim p m s t) {o d : List F} (ho : o.length = m) (hd : d.length = m) (q : F) :
    Res.Rel (StatsSim p m) (s.evaluateOnce (.regression o d q)) (t.evaluateOnce (.regression (inOrder p o) (inOrder p d) q)) := by
  obtain ⟨rfl, hl⟩ := h
  have hlt := lt_of_perm hp
  have hpl := len_of_perm hp
  have hc : (statsInOrder p s).clusters.length = m := by unfold statsInOrder; dsimp only; rw [picked_length (by rw [hl]; exact hlt), hpl]
  unfold Stats.evaluateOnce
  dsimp only
  rw [if_neg (by omega), if_neg (by rw [inOrder_length, inOrder_length, hc]; omega)]
  obtain ⟨h1, h2, h3⟩ := stats_loop hp hl ho hd (fun c od => regressionCluster c od.1 od.2 q)
  dsimp only [Res.Rel]
  have h2' := h2
  unfold statsInOrder
  dsimp only
  rw [h2']
  exact stats_count ⟨by unfold statsInOrder; dsimp only; rw [h1], h3⟩ _

theorem stats_multiple {p : List Nat} {m : Nat} (hp : p.Perm (List.range m)) {s t : Stats F} (h : StatsSim p m s t) {o d : List F} (ho : o.length = m) (hd : d.length = m) (q : F) :
    Res.Rel (StatsSim p m) (s.evaluateOnce (.multiple o d q)) (t.evaluateOnce (.multiple (inOrder p o) (inOrder p d) q)) := by
  obtain ⟨rfl, hl⟩ := h
  have hlt := lt_of_perm hp
  have hpl := len_of_perm hp
  have hc : (statsInOrder p s).clusters.length = m := by unfold statsInOrder; dsimp only; rw [picked_length (by rw [hl]; exact hlt), hpl]
  unfold Stats.evaluateOnce
  dsimp only
  rw [if_neg (by omega), if_neg (by rw [inOrder_length, inOrder_length, hc]; omega)]
  obtain ⟨h1, h2, h3⟩ := stats_loop hp hl ho hd (fun c od => multipleCluster c od.1 od.2 q)
  dsimp only [Res.Rel]
  have h2' := h2
  unfold statsInOrder
  dsimp only
  rw [h2']
  exact stats_count ⟨by unfold statsInOrder; dsimp only; rw [h1], h3⟩ _

theorem stats_stop {p : List Nat} {m : Nat} (hp : p.Perm (List.range m)) {s t : Stats F} (h : StatsSim p m s t) : StatsSim p m s.stopTesting t.stopTesting := by
  obtain ⟨rfl, hl⟩ := h
  have hp' : p.Perm (List.range s.clusters.length) := by rw [hl]; exact hp
  have hc : (picked p s.clusters).length = s.clusters.length := by rw [picked_length (lt_of_perm hp'), len_of_perm hp']
  have e1 : (statsInOrder p s).computeGlobalRate = s.computeGlobalRate := rfl
  have e2 : (statsInOrder p s).computeWeightedRate = s.computeWeightedRate := by
    unfold Stats.computeWeightedRate statsInOrder
    dsimp only
    rw [hc, fold_picked hp']
    intro a b c
    split <;> split <;> ring
  have e3 : (statsInOrder p s).computeF1Score = s.computeF1Score := by
    unfold Stats.computeF1Score statsInOrder
    dsimp only
    rw [hc, fold_picked hp']
    intro a b c
    split <;> split <;> ring
  have e4 : (statsInOrder p s).computeMae = s.computeMae := by
    unfold Stats.computeMae statsInOrder
    dsimp only
    rw [fold_picked hp']
    intro a b c
    ring
  have e5 : (statsInOrder p s).computeRmse = s.computeRmse := by
    unfold Stats.computeRmse statsInOrder
    dsimp only
    rw [fold_picked hp']
    intro a b c
    ring
  refine ⟨?_, hl⟩
  unfold Stats.stopTesting
  rw [e1, e2, e3, e4, e5]
  rfl

/-- Networks related by R answer and learn alike, the second with its outputs in the order p. -/
structure NetSim (w m : Nat) (p : List Nat) (R : Net F → Net F → Prop) : Prop where
  perm : p.Perm (List.range m)
  out : ∀ n n' x t, R n n' → x.length = w → Res.Rel (fun a b => b.1 = inOrder p a.1 ∧ a.1.length = m ∧ R a.2 b.2) (n.output x t) (n'.output x t)
  outT : ∀ n n' x t d, R n n' → x.length = w → Res.Rel (fun a b => R a.2.1 b.2.1 ∧ b.2.2 = a.2.2) (n.outputForTraining x t d) (n'.outputForTraining x t d)
  train : ∀ n n' x y t d, R n n' → x.length = w → y.length = m → Res.Rel (fun a b => R a.1 b.1 ∧ b.2 = a.2) (n.trainOnce x y t d) (n'.trainOnce x (inOrder p y) t d)
  stats : ∀ n n', R n n' → StatsSim p m n.stats n'.stats
  nan : ∀ n n', R n n' → n'.outputNan = n.outputNan
  set : ∀ n n' s t, R n n' → StatsSim p m s t → R { n with stats := s } { n' with stats := t }
  inputs : ∀ n n', R n n' → n'.getNumberOfInputs = n.getNumberOfInputs
  outputs : ∀ n n', R n n' → n'.getNumberOfOutputs = n.getNumberOfOutputs

/-- Same data with the expected outputs in the order p. -/
def DataSim (w m : Nat) (p : List Nat) (d e : Data F) : Prop := (∃ b, e = { labelsInOrder p d with batchedLabels := b }) ∧ OutData w m d

/-- The reports with the counters in the order p. -/
def relab (p : List Nat) (l : List (Int × Stats F)) : List (Int × Stats F) := l.map fun r => (r.1, statsInOrder p r.2)

structure RunSim (w m : Nat) (p : List Nat) (R : Net F → Net F → Prop) (a b : Run F) : Prop where
  snn : SnnSim R a.snn b.snn
  data : DataSim w m p a.data b.data
  draws : b.draws = a.draws
  ticks : b.ticks = a.ticks
  trace : reports b = relab p (reports a)

variable {w mo : Nat} {pm : List Nat} {R : Net F → Net F → Prop}

theorem trainingData_sim {d e : Data F} (h : DataSim w mo pm d e) (i b : Int) :
    Res.Rel (fun u v => v.1 = u.1 ∧ u.1.length = w ∧ DataSim w mo pm u.2 v.2) (d.getTrainingData i b) (e.getTrainingData i b) := by
  obtain ⟨⟨b0, rfl⟩, h0, h1, h2, h3, h4, h5, h6⟩ := h
  have := getBatched_map (batchy_id w) (order := d.training.shuffledIndexes) h3 d.batchedData d.batchedData i b
  rw [List.map_id] at this
  subst h1
  unfold Data.getTrainingData labelsInOrder
  dsimp only
  refine Res.Rel.bind (R := fun u v => u = v ∧ u.1.length = d.sizeOfData) ?_ ?_
  · revert this
    cases getBatched d.training.shuffledIndexes d.training.inputs d.sizeOfData d.batchedData i b <;> simp only [Res.Rel] <;> intro this <;>
      first | exact ⟨trivial, this.2⟩ | trivial
  · rintro ⟨x, u⟩ _ ⟨rfl, k2⟩
    exact ⟨rfl, k2, ⟨b0, rfl⟩, h0, rfl, h2, h3, h4, h5, h6⟩

theorem trainingOutputs_sim (hp : pm.Perm (List.range mo)) {d e : Data F} (h : DataSim w mo pm d e) (i b : Int) :
    Res.Rel (fun u v => v.1 = inOrder pm u.1 ∧ u.1.length = mo ∧ DataSim w mo pm u.2 v.2) (d.getTrainingOutputs i b) (e.getTrainingOutputs i b) := by
  obtain ⟨⟨b0, rfl⟩, h0, h1, h2, h3, h4, h5, h6⟩ := h
  subst h2
  unfold Data.getTrainingOutputs labelsInOrder
  dsimp only
  refine Res.Rel.bind (getBatched_map (batchy_re hp) h5 d.batchedLabels b0 i b) ?_
  rintro ⟨x, u⟩ ⟨y, v⟩ ⟨k1, k2⟩
  exact ⟨k1, k2, ⟨v, rfl⟩, h0, h1, rfl, h3, h4, h5, h6⟩

theorem testingOutputs_sim {d e : Data F} (h : DataSim w mo pm d e) (i : Int) :
    Res.Rel (fun u v => v = inOrder pm u ∧ u.length = mo) (d.getTestingOutputs i) (e.getTestingOutputs i) := by
  obtain ⟨⟨b0, rfl⟩, h0, h1, h2, h3, h4, h5, h6⟩ := h
  have hq := rd_map (inOrder pm) d.testing.labels i
  unfold Data.getTestingOutputs labelsInOrder
  dsimp only
  cases hty : d.typeOfProblem with
  | classification => exact absurd hty h0
  | _ =>
    dsimp only
    revert hq
    cases hh : rd d.testing.labels i <;> cases hk : rd (d.testing.labels.map (inOrder pm)) i <;> simp only [Res.Rel] <;> intro hq <;>
      first | exact ⟨hq.1, h6 _ hq.2⟩ | exact hq

theorem shuffle_sim {d e : Data F} (h : DataSim w mo pm d e) (r : Rng) : Res.Rel (DataSim w mo pm) (d.shuffle r) (e.shuffle r) := by
  obtain ⟨⟨b0, rfl⟩, h⟩ := h
  unfold Data.shuffle labelsInOrder
  dsimp only
  cases d.typeOfTemporal with
  | nonTemporal => exact ⟨⟨b0, rfl⟩, h⟩
  | sequential =>
    dsimp only
    refine Res.Rel.bind (R := fun a b => a = b) (Res.Rel.eq (β := List Nat)) ?_
    rintro x _ rfl
    exact ⟨⟨b0, rfl⟩, h⟩
  | timeSeries =>
    dsimp only
    refine Res.Rel.bind (R := fun a b => a = b) (Res.Rel.eq (β := List Bool)) ?_
    rintro x _ rfl
    refine Res.Rel.bind (R := fun a b => a = b) (Res.Rel.eq (β := TsState)) ?_
    rintro x _ rfl
    refine Res.Rel.bind (R := fun a b => a = b) (Res.Rel.eq (β := List Bool)) ?_
    rintro x _ rfl
    refine Res.Rel.bind (R := fun a b => a = b) (Res.Rel.eq (β := TsState)) ?_
    rintro x _ rfl
    exact ⟨⟨b0, rfl⟩, h⟩

theorem testingData_sim {d e : Data F} (h : DataSim w mo pm d e) (i : Int) :
    Res.Rel (fun x y => y = x ∧ x.length = w) (d.getTestingData i) (e.getTestingData i) := by
  obtain ⟨⟨b0, rfl⟩, h0, h1, h2, h3, h4, h5, h6⟩ := h
  have hq := rd_map id d.testing.inputs i
  rw [List.map_id] at hq
  unfold Data.getTestingData labelsInOrder
  dsimp only
  revert hq
  cases hh : rd d.testing.inputs i <;> simp only [Res.Rel] <;> intro hq <;> first | exact ⟨trivial, h4 _ hq.2⟩ | trivial

theorem DataSim.same {d e : Data F} (h : DataSim w mo pm d e) : (∀ i, e.isFirstTesting i = d.isFirstTesting i) ∧
    e.getSeparator = d.getSeparator ∧ e.getPrecision = d.getPrecision ∧ e.typeOfProblem = d.typeOfProblem ∧ d.typeOfProblem ≠ .classification := by
  obtain ⟨⟨b0, rfl⟩, h, _⟩ := h
  exact ⟨fun _ => rfl, rfl, rfl, rfl, h⟩

theorem evaluateOnce_sim (hs : NetSim w mo pm R) {d e : Data F} (hd : DataSim w mo pm d e) {s t : Snn F} (h : SnnSim R s t) :
    Res.Rel (SnnSim R) (s.evaluateOnce d) (t.evaluateOnce e) := by
  obtain ⟨m, rfl, hR⟩ := h
  have ht := testingData_sim hd s.index
  have ho := testingOutputs_sim hd s.index
  obtain ⟨e1, e3, e5, e6, hty⟩ := hd.same
  clear hd
  unfold Snn.evaluateOnce
  refine Res.Rel.bind ht ?_
  rintro x _ ⟨rfl, hx⟩
  dsimp only
  rw [e1, e3, e5, e6]
  refine Res.Rel.bind (R := fun x y => x = y) (Res.Rel.eq (β := Bool)) ?_
  rintro first _ rfl
  cases hc : d.typeOfProblem with
  | classification => exact absurd hc hty
  | multipleClassification =>
    dsimp only
    refine Res.Rel.bind ho ?_
    rintro k _ ⟨rfl, hk⟩
    refine Res.Rel.bind (R := fun x y => x = y) (Res.Rel.eq (β := F)) ?_
    rintro sep _ rfl
    refine Res.Rel.bind (hs.out _ _ _ first hR hx) ?_
    rintro ⟨o, n1⟩ ⟨_, m1⟩ ⟨rfl, hl, hR1⟩
    dsimp only at hl hR1 ⊢
    refine Res.Rel.bind (stats_multiple hs.perm (hs.stats _ _ hR1) hl hk sep) ?_
    rintro st st' hst
    exact ⟨_, rfl, hs.set _ _ _ _ hR1 hst⟩
  | regression =>
    dsimp only
    refine Res.Rel.bind ho ?_
    rintro k _ ⟨rfl, hk⟩
    refine Res.Rel.bind (R := fun x y => x = y) (Res.Rel.eq (β := F)) ?_
    rintro sep _ rfl
    refine Res.Rel.bind (hs.out _ _ _ first hR hx) ?_
    rintro ⟨o, n1⟩ ⟨_, m1⟩ ⟨rfl, hl, hR1⟩
    dsimp only at hl hR1 ⊢
    refine Res.Rel.bind (stats_regression hs.perm (hs.stats _ _ hR1) hl hk sep) ?_
    rintro st st' hst
    exact ⟨_, rfl, hs.set _ _ _ _ hR1 hst⟩

theorem evaluateLoop_sim (hs : NetSim w mo pm R) {d e : Data F} (hd : DataSim w mo pm d e) (nan : F) : ∀ (k : Nat) {s t : Snn F}, SnnSim R s t →
    Res.Rel (fun p q => q.1 = p.1 ∧ SnnSim R p.2 q.2) (evaluateLoop nan d k s) (evaluateLoop nan e k t)
  | 0, s, t, h => ⟨rfl, h⟩
  | k + 1, s, t, h => by
    have h0 := h
    obtain ⟨m, rfl, hR⟩ := h
    unfold evaluateLoop
    dsimp only
    rw [hs.nan _ _ hR]
    split
    · refine ⟨rfl, _, rfl, ?_⟩
      have h9 := hs.set _ _ _ _ hR (stats_nan (hs.stats _ _ hR) nan)
      rw [hs.nan _ _ hR] at h9
      exact h9
    · have e1 : ∀ i, e.needToEvaluate i = d.needToEvaluate i := by obtain ⟨⟨b0, rfl⟩, _⟩ := hd; exact fun _ => rfl
      have e2 : ∀ i, e.isFirstTesting i = d.isFirstTesting i := by obtain ⟨⟨b0, rfl⟩, _⟩ := hd; exact fun _ => rfl
      rw [e1]
      refine Res.Rel.bind (R := fun x y => x = y) (Res.Rel.eq (β := Bool)) ?_
      rintro need _ rfl
      refine Res.Rel.bind (R := SnnSim R) ?_ ?_
      · cases need
        · simp only [Bool.false_eq_true, if_false]
          refine Res.Rel.bind (testingData_sim hd _) ?_
          rintro x _ ⟨rfl, hx⟩
          rw [e2]
          refine Res.Rel.bind (R := fun x y => x = y) (Res.Rel.eq (β := Bool)) ?_
          rintro first _ rfl
          refine Res.Rel.bind (hs.out _ _ _ first hR hx) ?_
          rintro ⟨o, n1⟩ ⟨_, m1⟩ ⟨rfl, _, hR1⟩
          exact ⟨_, rfl, hR1⟩
        · exact evaluateOnce_sim hs hd h0
      · rintro x y ⟨m1, rfl, h1⟩
        exact evaluateLoop_sim hs hd nan k ⟨m1, rfl, h1⟩

theorem RunSim.mk' {a b : Run F} (h : RunSim w mo pm R a b) : ∃ s m d e dr k ta tb, a = ⟨s, d, dr, k, ta⟩ ∧ b = ⟨{ s with net := m }, e, dr, k, tb⟩ ∧ R s.net m ∧
    DataSim w mo pm d e ∧ reports b = relab pm (reports a) := by
  obtain ⟨⟨m, h1, h2⟩, h3, h4, h5, h6⟩ := h
  obtain ⟨sa, da, xa, ka, ta⟩ := a
  obtain ⟨sb, db, xb, kb, tb⟩ := b
  dsimp only at h1 h2 h3 h4 h5
  subst h1 h4 h5
  exact ⟨_, m, _, _, _, _, _, _, rfl, rfl, h2, h3, h6⟩

theorem reports_cons {s t : Snn F} {d e : Data F} {x y : Draws F} {k l : Nat} {ta tb : List (Event F)} (h : reports (⟨t, e, y, l, tb⟩ : Run F) = relab pm (reports ⟨s, d, x, k, ta⟩))
    {s' t' : Snn F} {d' e' : Data F} {x' y' : Draws F} {k' l' : Nat} {v v' : Event F}
    (hv : (match v' with | .evaluated epoch stats => some (epoch, stats) | _ => none) =
      (match v with | .evaluated epoch stats => some (epoch, statsInOrder pm stats) | _ => none : Option (Int × Stats F))) :
    reports (⟨t', e', y', l', v' :: tb⟩ : Run F) = relab pm (reports ⟨s', d', x', k', v :: ta⟩) := by
  unfold reports relab at h ⊢
  dsimp only at h ⊢
  rw [List.filterMap_cons, List.filterMap_cons, h]
  cases v <;> cases v' <;> simp at hv ⊢
  exact hv

theorem evaluate_sim (hs : NetSim w mo pm R) {env : Env F} {a b : Run F} (h : RunSim w mo pm R a b) : Res.Rel (RunSim w mo pm R) (a.evaluate env) (b.evaluate env) := by
  obtain ⟨s, m, d, e, dr, k, ta, tb, rfl, rfl, hR, hd, ht⟩ := h.mk'
  unfold Run.evaluate
  dsimp only
  have hsz : e.testing.size = d.testing.size := by obtain ⟨⟨b0, rfl⟩, _⟩ := hd; rfl
  rw [hsz]
  refine Res.Rel.bind (evaluateLoop_sim hs hd env.nan d.testing.size ⟨_, rfl, hs.set _ _ _ _ hR (stats_start (hs.stats _ _ hR))⟩) ?_
  rintro ⟨x, s1⟩ ⟨x', t1⟩ ⟨hx, m1, ht1, hR1⟩
  dsimp only at hx ht1 hR1
  subst hx ht1
  dsimp only
  have he := hs.stats _ _ hR1
  split
  · exact ⟨⟨m1, rfl, hR1⟩, hd, rfl, rfl, reports_cons ht (by dsimp only; rw [he.1])⟩
  · have he2 := stats_stop hs.perm he
    have hg : m1.stats.stopTesting.globalBetter = s1.net.stats.stopTesting.globalBetter := by rw [he2.1]; rfl
    rw [hg]
    have htr : reports (⟨{ s1 with net := { m1 with stats := m1.stats.stopTesting } }, e, dr, k, .evaluated s1.epoch m1.stats.stopTesting :: tb⟩ : Run F) =
        relab pm (reports ⟨{ s1 with net := { s1.net with stats := s1.net.stats.stopTesting } }, d, dr, k, .evaluated s1.epoch s1.net.stats.stopTesting :: ta⟩) :=
      reports_cons ht (by dsimp only; rw [he2.1])
    split
    · exact ⟨⟨_, rfl, hs.set _ _ _ _ hR1 he2⟩, hd, rfl, rfl, reports_cons htr rfl⟩
    · exact ⟨⟨_, rfl, hs.set _ _ _ _ hR1 he2⟩, hd, rfl, rfl, htr⟩

theorem trainStep_sim (hs : NetSim w mo pm R) {env : Env F} {b0 : Int} {a b : Run F} (h : RunSim w mo pm R a b) :
    Res.Rel (fun p q => q.1 = p.1 ∧ RunSim w mo pm R p.2 q.2) (a.trainStep env b0) (b.trainStep env b0) := by
  obtain ⟨s, m, d, e, dr, k, ta, tb, rfl, rfl, hR, hd, ht⟩ := h.mk'
  unfold Run.trainStep
  dsimp only
  rw [hs.nan _ _ hR]
  split
  · have h9 := hs.set _ _ _ _ hR (stats_nan (hs.stats _ _ hR) env.nan)
    rw [hs.nan _ _ hR] at h9
    exact ⟨rfl, ⟨_, rfl, h9⟩, hd, rfl, rfl, ht⟩
  · have e1 : ∀ i, e.needToLearn i = d.needToLearn i := by obtain ⟨⟨b0, rfl⟩, _⟩ := hd; exact fun _ => rfl
    rw [e1]
    refine Res.Rel.bind (R := fun x y => x = y) (Res.Rel.eq (β := Bool)) ?_
    rintro need _ rfl
    refine Res.Rel.bind (trainingData_sim hd _ _) ?_
    rintro ⟨x, d1⟩ ⟨x', e1⟩ ⟨hx0, hx, hd1⟩
    dsimp only at hx0 hx hd1
    subst hx0
    dsimp only
    have e2 : ∀ i, e1.isFirstTraining i = d1.isFirstTraining i := by obtain ⟨⟨b0, rfl⟩, _⟩ := hd1; exact fun _ => rfl
    rw [e2]
    refine Res.Rel.bind (R := fun x y => x = y) (Res.Rel.eq (β := Bool)) ?_
    rintro first _ rfl
    split
    · refine Res.Rel.bind (trainingOutputs_sim hs.perm hd1 _ _) ?_
      rintro ⟨y, d2⟩ ⟨_, e3⟩ ⟨rfl, hy, hd2⟩
      dsimp only at hy hd2 ⊢
      refine Res.Rel.bind (hs.train _ _ _ y first dr hR hx hy) ?_
      rintro ⟨n1, dr1⟩ ⟨m1, _⟩ ⟨hR1, rfl⟩
      exact ⟨rfl, ⟨m1, rfl, hR1⟩, hd2, rfl, rfl, reports_cons ht rfl⟩
    · refine Res.Rel.bind (hs.outT _ _ _ first dr hR hx) ?_
      rintro ⟨o, n1, dr1⟩ ⟨o', m1, _⟩ ⟨hR1, rfl⟩
      exact ⟨rfl, ⟨m1, rfl, hR1⟩, hd1, rfl, rfl, reports_cons ht rfl⟩

theorem continue_sim (hs : NetSim w mo pm R) {env : Env F} {wait : Wait F} {a b : Run F} (h : RunSim w mo pm R a b) :
    (b.continueTraining env wait).1 = (a.continueTraining env wait).1 ∧ RunSim w mo pm R (a.continueTraining env wait).2 (b.continueTraining env wait).2 := by
  obtain ⟨s, m, d, e, dr, k, ta, tb, rfl, rfl, hR, hd, ht⟩ := h.mk'
  unfold Run.continueTraining
  dsimp only
  rw [hs.nan _ _ hR, (hs.stats _ _ hR).1]
  exact ⟨rfl, ⟨m, rfl, hR⟩, hd, rfl, rfl, ht⟩

theorem stepLoop_sim (hs : NetSim w mo pm R) {env : Env F} {wait : Wait F} {b0 : Int} : ∀ (fuel : Nat) {a b : Run F}, RunSim w mo pm R a b →
    Res.Rel (fun p q => q.1 = p.1 ∧ RunSim w mo pm R p.2 q.2) (stepLoop env wait b0 fuel a) (stepLoop env wait b0 fuel b)
  | 0, a, b, h => rfl
  | fuel + 1, a, b, h => by
    have hc := continue_sim hs (env := env) (wait := wait) h
    have h0 := h
    obtain ⟨s, m, d, e, dr, k, ta, tb, rfl, rfl, hR, hd, ht⟩ := h.mk'
    unfold stepLoop
    dsimp only at hc ⊢
    split
    · revert hc
      generalize Run.continueTraining env wait ⟨s, d, dr, k, ta⟩ = ca
      generalize Run.continueTraining env wait ⟨{ s with net := m }, e, dr, k, tb⟩ = cb
      obtain ⟨c1, r1⟩ := ca
      obtain ⟨c2, r2⟩ := cb
      rintro ⟨hc1, hc2⟩
      dsimp only at hc1 hc2 ⊢
      subst hc1
      split
      · refine Res.Rel.bind (trainStep_sim hs hc2) ?_
        rintro ⟨x, p⟩ ⟨_, q⟩ ⟨rfl, hpq⟩
        dsimp only
        split
        · exact ⟨rfl, hpq⟩
        · refine stepLoop_sim hs fuel ?_
          obtain ⟨s, m, d, e, dr, k, ta, tb, rfl, rfl, hR, hd, ht⟩ := hpq.mk'
          exact ⟨⟨m, rfl, hR⟩, hd, rfl, rfl, ht⟩
      · exact ⟨rfl, hc2⟩
    · exact ⟨rfl, h0⟩

theorem epochBody_sim (hs : NetSim w mo pm R) {env : Env F} {wait : Wait F} {b0 ef : Int} {fuel : Nat} {a b : Run F} (h : RunSim w mo pm R a b) :
    Res.Rel (fun p q => q.1 = p.1 ∧ RunSim w mo pm R p.2 q.2) (a.epochBody env wait b0 ef fuel) (b.epochBody env wait b0 ef fuel) := by
  obtain ⟨s, m, d, e, dr, k, ta, tb, rfl, rfl, hR, hd, ht⟩ := h.mk'
  unfold Run.epochBody
  dsimp only
  refine Res.Rel.bind (shuffle_sim hd _) ?_
  intro d1 e1 hd1
  refine Res.Rel.bind (stepLoop_sim hs fuel ⟨⟨m, rfl, hR⟩, hd1, rfl, rfl, reports_cons ht rfl⟩) ?_
  rintro ⟨x, p⟩ ⟨_, q⟩ ⟨rfl, hpq⟩
  dsimp only
  have hep : q.snn.epoch = p.snn.epoch := by obtain ⟨m1, h1, _⟩ := hpq.snn; rw [h1]
  rw [hep]
  split
  · exact ⟨rfl, hpq⟩
  · split
    · refine Res.Rel.bind (evaluate_sim hs hpq) ?_
      intro p1 q1 h1
      exact ⟨rfl, h1⟩
    · exact ⟨rfl, hpq⟩

theorem epochLoop_sim (hs : NetSim w mo pm R) {env : Env F} {wait : Wait F} {b0 ef : Int} {inner : Nat} : ∀ (fuel : Nat) {a b : Run F}, RunSim w mo pm R a b →
    Res.Rel (fun p q => q.1 = p.1 ∧ RunSim w mo pm R p.2 q.2) (epochLoop env wait b0 ef inner fuel a) (epochLoop env wait b0 ef inner fuel b)
  | 0, a, b, h => rfl
  | fuel + 1, a, b, h => by
    have hc := continue_sim hs (env := env) (wait := wait) h
    unfold epochLoop
    revert hc
    generalize Run.continueTraining env wait a = ca
    generalize Run.continueTraining env wait b = cb
    obtain ⟨c1, r1⟩ := ca
    obtain ⟨c2, r2⟩ := cb
    rintro ⟨hc1, hc2⟩
    dsimp only at hc1 hc2 ⊢
    subst hc1
    split
    · refine Res.Rel.bind (epochBody_sim hs hc2) ?_
      rintro ⟨x, p⟩ ⟨_, q⟩ ⟨rfl, hpq⟩
      dsimp only
      split
      · exact ⟨rfl, hpq⟩
      · refine epochLoop_sim hs fuel ?_
        obtain ⟨s, m, d, e, dr, k, ta, tb, rfl, rfl, hR, hd, ht⟩ := hpq.mk'
        exact ⟨⟨m, rfl, hR⟩, hd, rfl, rfl, ht⟩
    · exact ⟨rfl, hc2⟩

theorem train_sim (hs : NetSim w mo pm R) {env : Env F} {wait : Wait F} {b0 ef : Int} {fuel : Nat} {a b : Run F} (h : RunSim w mo pm R a b) :
    Res.Rel (RunSim w mo pm R) (a.train env wait b0 ef fuel) (b.train env wait b0 ef fuel) := by
  obtain ⟨s, m, d, e, dr, k, ta, tb, rfl, rfl, hR, hd, ht⟩ := h.mk'
  unfold Run.train
  have ev : Snn.validData { s with net := m } e b0 = s.validData d b0 := by
    obtain ⟨⟨b1, rfl⟩, _⟩ := hd
    unfold Snn.validData labelsInOrder
    dsimp only
    rw [hs.inputs _ _ hR, hs.outputs _ _ hR]
  dsimp only
  rw [ev]
  refine Res.Rel.bind (R := fun x y => x = y) (Res.Rel.eq (β := Unit)) ?_
  rintro u _ rfl
  split
  · exact rfl
  · unfold Run.trainSync
    have hb : RunSim w mo pm R (Run.begin ⟨{ s with wantToStopTraining := true }, d, dr, k, ta⟩)
        (Run.begin ⟨{ s with net := m, wantToStopTraining := true }, e, dr, k, tb⟩) := by
      have hsz : e.training.size = d.training.size := by obtain ⟨⟨b1, rfl⟩, _⟩ := hd; rfl
      unfold Run.begin
      dsimp only
      rw [hsz]
      exact ⟨⟨m, rfl, hR⟩, hd, rfl, rfl, ht⟩
    refine Res.Rel.bind (R := RunSim w mo pm R) ?_ ?_
    · split
      · exact evaluate_sim hs hb
      · exact hb
    · intro p q hpq
      have h1 : RunSim w mo pm R { p with snn := { p.snn with epoch := 1 } } { q with snn := { q.snn with epoch := 1 } } := by
        obtain ⟨s, m, d, e, dr, k, ta, tb, rfl, rfl, hR, hd, ht⟩ := hpq.mk'
        exact ⟨⟨m, rfl, hR⟩, hd, rfl, rfl, ht⟩
      refine Res.Rel.bind (epochLoop_sim hs fuel h1) ?_
      rintro ⟨x, p1⟩ ⟨_, q1⟩ ⟨rfl, hpq1⟩
      dsimp only
      split
      · exact hpq1
      · obtain ⟨s, m, d, e, dr, k, ta, tb, rfl, rfl, hR, hd, ht⟩ := hpq1.mk'
        exact ⟨⟨m, rfl, hR⟩, hd, rfl, rfl, ht⟩

/-- Every call. The data of the run play no role: each call brings its own. -/
theorem call_sim (hs : NetSim w mo pm R) {c : Call F} (hc : OutCall w mo c) {a b : Run F} (h1 : SnnSim R a.snn b.snn) (h2 : b.draws = a.draws)
    (h3 : b.ticks = a.ticks) (h4 : reports b = relab pm (reports a)) :
    Res.Rel (fun p q => SnnSim R p.snn q.snn ∧ q.draws = p.draws ∧ q.ticks = p.ticks ∧ reports q = relab pm (reports p)) (c.run a) ((callInOrder pm c).run b) := by
  obtain ⟨sa, da, xa, ka, ta⟩ := a
  obtain ⟨sb, db, xb, kb, tb⟩ := b
  obtain ⟨m, rfl, hR⟩ := h1
  dsimp only at h2 h3
  subst h2 h3
  cases c with
  | computeOutput x t =>
    unfold Call.run callInOrder Snn.computeOutput
    dsimp only
    refine Res.Rel.bind (R := fun p q : List F × Snn F => SnnSim R p.2 q.2) ?_ ?_
    · refine Res.Rel.bind (hs.out _ _ x t hR hc) ?_
      rintro ⟨o, n1⟩ ⟨_, m1⟩ ⟨rfl, _, hR1⟩
      exact ⟨m1, rfl, hR1⟩
    · rintro ⟨o, n1⟩ ⟨o', m1⟩ hR1
      exact ⟨hR1, rfl, rfl, h4⟩
  | computeCluster x t =>
    unfold Call.run callInOrder Snn.computeCluster
    dsimp only
    refine Res.Rel.bind (R := fun p q : Int × Snn F => SnnSim R p.2 q.2) ?_ ?_
    · refine Res.Rel.bind (hs.out _ _ x t hR hc) ?_
      rintro ⟨o, n1⟩ ⟨_, m1⟩ ⟨rfl, _, hR1⟩
      exact ⟨m1, rfl, hR1⟩
    · rintro ⟨o, n1⟩ ⟨o', m1⟩ hR1
      exact ⟨hR1, rfl, rfl, h4⟩
  | evaluate env d =>
    have h : RunSim w mo pm R ⟨sa, d, xb, kb, ta⟩ ⟨{ sa with net := m }, labelsInOrder pm d, xb, kb, tb⟩ := ⟨⟨m, rfl, hR⟩, ⟨⟨_, rfl⟩, hc⟩, rfl, rfl, h4⟩
    have := evaluate_sim hs (env := env) h
    unfold Call.run callInOrder
    dsimp only
    revert this
    cases Run.evaluate env ⟨sa, d, xb, kb, ta⟩ <;> cases Run.evaluate env ⟨{ sa with net := m }, labelsInOrder pm d, xb, kb, tb⟩ <;> simp only [Res.Rel] <;> try exact id
    exact fun h => ⟨h.snn, h.draws, h.ticks, h.trace⟩
  | train env d wait b0 ef fuel =>
    have h : RunSim w mo pm R ⟨sa, d, xb, kb, ta⟩ ⟨{ sa with net := m }, labelsInOrder pm d, xb, kb, tb⟩ := ⟨⟨m, rfl, hR⟩, ⟨⟨_, rfl⟩, hc⟩, rfl, rfl, h4⟩
    have := train_sim hs (env := env) (wait := wait) (b0 := b0) (ef := ef) (fuel := fuel) h
    unfold Call.run callInOrder
    dsimp only
    revert this
    cases Run.train env wait b0 ef fuel ⟨sa, d, xb, kb, ta⟩ <;> cases Run.train env wait b0 ef fuel ⟨{ sa with net := m }, labelsInOrder pm d, xb, kb, tb⟩ <;>
      simp only [Res.Rel] <;> try exact id
    exact fun h => ⟨h.snn, h.draws, h.ticks, h.trace⟩
  | saveAs path =>
    unfold Call.run callInOrder Run.saveAs
    dsimp only
    split
    · exact rfl
    · exact ⟨⟨m, rfl, hR⟩, rfl, rfl, reports_cons h4 rfl⟩
  | autoSave wb path => exact ⟨⟨m, rfl, hR⟩, rfl, rfl, h4⟩

theorem history_sim (hs : NetSim w mo pm R) : ∀ {calls : List (Call F)}, (∀ c ∈ calls, OutCall w mo c) → ∀ {a b : Run F}, SnnSim R a.snn b.snn →
    b.draws = a.draws → b.ticks = a.ticks → reports b = relab pm (reports a) →
    Res.Rel (fun p q => SnnSim R p.snn q.snn ∧ q.draws = p.draws ∧ q.ticks = p.ticks ∧ reports q = relab pm (reports p)) (calls.foldlM Call.run a)
      ((calls.map (callInOrder pm)).foldlM Call.run b)
  | [], _, a, b, h1, h2, h3, h4 => ⟨h1, h2, h3, h4⟩
  | c :: cs, hc, a, b, h1, h2, h3, h4 => by
    rw [List.map_cons, List.foldlM_cons, List.foldlM_cons]
    refine Res.Rel.bind (call_sim hs (hc c (by simp)) h1 h2 h3 h4) ?_
    rintro p q ⟨k1, k2, k3, k4⟩
    exact history_sim hs (fun c' hc' => hc c' (by simp [hc'])) k1 k2 k3 k4

end

end Snn.OutSim
