import Verif.Spec.MapSimSpec
import Verif.Proofs.SharedProofs

/-! # Two networks that answer and learn alike on transformed inputs do so in every history of calls -/

set_option linter.all false

namespace Snn.MapSim

open Snn.Spec Snn.HistoryProps Snn.Shared

section
variable {F : Type} [Flt F] [FTrans F] [Add F] [Sub F] [Mul F] [Div F] [Neg F]

/-- φ keeps the length of the inputs of w values, and the mean of a batch of transformed inputs is the transformed mean. -/
structure Batchy (w : Nat) (φ : List F → List F) : Prop where
  len : ∀ x : List F, x.length = w → (φ x).length = w
  add : ∀ x y : List F, x.length = w → y.length = w → φ (List.zipWith (· + ·) x y) = List.zipWith (· + ·) (φ x) (φ y)
  div : ∀ (x : List F) (c : F), x.length = w → φ (x.map (· / c)) = (φ x).map (· / c)

/-- Networks related by R answer and learn alike, the second on the transformed inputs. -/
structure NetSim (w : Nat) (φ : List F → List F) (R : Net F → Net F → Prop) : Prop where
  out : ∀ n m x t, R n m → x.length = w → Res.Rel (fun p q => q.1 = p.1 ∧ R p.2 q.2) (n.output x t) (m.output (φ x) t)
  outT : ∀ n m x t d, R n m → x.length = w → Res.Rel (fun p q => R p.2.1 q.2.1 ∧ q.2.2 = p.2.2) (n.outputForTraining x t d) (m.outputForTraining (φ x) t d)
  train : ∀ n m x y t d, R n m → x.length = w → Res.Rel (fun p q => R p.1 q.1 ∧ q.2 = p.2) (n.trainOnce x y t d) (m.trainOnce (φ x) y t d)
  stats : ∀ n m, R n m → m.stats = n.stats
  nan : ∀ n m, R n m → m.outputNan = n.outputNan
  set : ∀ n m s, R n m → R { n with stats := s } { m with stats := s }
  inputs : ∀ n m, R n m → m.getNumberOfInputs = n.getNumberOfInputs
  outputs : ∀ n m, R n m → m.getNumberOfOutputs = n.getNumberOfOutputs

/-- Same data with transformed inputs. -/
def DataSim (w : Nat) (φ : List F → List F) (d e : Data F) : Prop :=
  (∃ b, e = { mapData φ d with batchedData := b }) ∧ d.sizeOfData = w ∧ (∀ x ∈ d.training.inputs, x.length = w) ∧ (∀ x ∈ d.testing.inputs, x.length = w)

def SnnSim (R : Net F → Net F → Prop) (s t : Snn F) : Prop := ∃ m, t = { s with net := m } ∧ R s.net m

structure RunSim (w : Nat) (φ : List F → List F) (R : Net F → Net F → Prop) (a b : Run F) : Prop where
  snn : SnnSim R a.snn b.snn
  data : DataSim w φ a.data b.data
  draws : b.draws = a.draws
  ticks : b.ticks = a.ticks
  trace : reports b = reports a

variable {w : Nat} {φ : List F → List F} {R : Net F → Net F → Prop}

theorem rd_map {α β : Type} (f : α → β) (l : List α) (i : Int) : Res.Rel (fun a b => b = f a ∧ a ∈ l) (rd l i) (rd (l.map f) i) := by
  unfold rd
  split
  · rw [List.getElem?_map]
    cases h : l[i.toNat]? with
    | none => exact rfl
    | some v => exact ⟨rfl, List.mem_of_getElem? h⟩
  · exact rfl

theorem transformPlus_map (hφ : Batchy w φ) {a b o o' : List F} (ha : a.length = w) (hb : b.length = w) (ho : o.length = w) (ho' : o'.length = w) :
    Res.Rel (fun p q => q = φ p ∧ p.length = w) (transformPlus a b o) (transformPlus (φ a) (φ b) o') := by
  unfold transformPlus
  have l1 : (List.zipWith (· + ·) a b).length = w := by simp [ha, hb]
  have l2 : (List.zipWith (· + ·) (φ a) (φ b)).length = w := by simp [hφ.len a ha, hφ.len b hb]
  dsimp only
  rw [if_pos (by omega), if_pos (by omega), List.drop_eq_nil_of_le (by omega), List.drop_eq_nil_of_le (by omega), List.append_nil, List.append_nil]
  exact ⟨(hφ.add a b ha hb).symm, l1⟩

theorem batchLoop_map (hφ : Batchy w φ) {order : List Nat} {rows : List (List F)} (hr : ∀ x ∈ rows, x.length = w) : ∀ (js : List Int) {p q : List F},
    q = φ p → p.length = w → Res.Rel (fun p q => q = φ p ∧ p.length = w) (batchLoop order rows js p) (batchLoop order (rows.map φ) js q)
  | [], p, q, h, hp => ⟨h, hp⟩
  | j :: js, p, q, h, hp => by
    subst h
    unfold batchLoop
    refine Res.Rel.bind (R := fun a b => a = b) (Res.Rel.eq (β := Nat)) ?_
    rintro k _ rfl
    refine Res.Rel.bind (rd_map φ rows (k : Int)) ?_
    rintro row _ ⟨rfl, hm⟩
    refine Res.Rel.bind (transformPlus_map hφ hp (hr _ hm) hp (hφ.len _ hp)) ?_
    rintro p1 _ ⟨rfl, hp1⟩
    exact batchLoop_map hφ hr js rfl hp1

theorem getBatched_map (hφ : Batchy w φ) {order : List Nat} {rows : List (List F)} (hr : ∀ x ∈ rows, x.length = w) (b1 b2 : List F) (i b : Int) :
    Res.Rel (fun p q => q.1 = φ p.1 ∧ p.1.length = w) (getBatched order rows w b1 i b) (getBatched order (rows.map φ) w b2 i b) := by
  unfold getBatched
  refine Res.Rel.bind (R := fun a b => a = b) (Res.Rel.eq (β := Nat)) ?_
  rintro k _ rfl
  split
  · refine Res.Rel.bind (rd_map φ rows (k : Int)) ?_
    rintro x _ ⟨rfl, hm⟩
    exact ⟨rfl, hr _ hm⟩
  · dsimp only
    refine Res.Rel.bind (rd_map φ rows (k : Int)) ?_
    rintro x _ ⟨rfl, hm⟩
    refine Res.Rel.bind (R := fun a b => a = b) (Res.Rel.eq (β := Nat)) ?_
    rintro k1 _ rfl
    refine Res.Rel.bind (rd_map φ rows (k1 : Int)) ?_
    rintro y _ ⟨rfl, hm1⟩
    refine Res.Rel.bind (transformPlus_map hφ (hr _ hm) (hr _ hm1) (by simp; omega) (by simp; omega)) ?_
    rintro p _ ⟨rfl, hp⟩
    refine Res.Rel.bind (batchLoop_map hφ hr _ rfl hp) ?_
    rintro p1 _ ⟨rfl, hp1⟩
    exact ⟨(hφ.div _ _ hp1).symm, by simpa using hp1⟩

theorem trainingData_sim (hφ : Batchy w φ) {d e : Data F} (h : DataSim w φ d e) (i b : Int) :
    Res.Rel (fun p q => q.1 = φ p.1 ∧ p.1.length = w ∧ DataSim w φ p.2 q.2) (d.getTrainingData i b) (e.getTrainingData i b) := by
  obtain ⟨⟨b0, rfl⟩, h1, h2, h3⟩ := h
  subst h1
  unfold Data.getTrainingData mapData
  dsimp only
  refine Res.Rel.bind (getBatched_map hφ h2 d.batchedData b0 i b) ?_
  rintro ⟨x, p⟩ ⟨y, q⟩ ⟨k1, k2⟩
  exact ⟨k1, k2, ⟨q, rfl⟩, rfl, h2, h3⟩

theorem trainingOutputs_sim {d e : Data F} (h : DataSim w φ d e) (i b : Int) :
    Res.Rel (fun p q => q.1 = p.1 ∧ DataSim w φ p.2 q.2) (d.getTrainingOutputs i b) (e.getTrainingOutputs i b) := by
  obtain ⟨⟨b0, rfl⟩, h1, h2, h3⟩ := h
  unfold Data.getTrainingOutputs mapData
  dsimp only
  refine Res.Rel.bind (R := fun a b => a = b) (Res.Rel.eq (β := List F × List F)) ?_
  rintro ⟨x, p⟩ _ rfl
  exact ⟨rfl, ⟨b0, rfl⟩, h1, h2, h3⟩

theorem shuffle_sim {d e : Data F} (h : DataSim w φ d e) (r : Rng) : Res.Rel (DataSim w φ) (d.shuffle r) (e.shuffle r) := by
  obtain ⟨⟨b0, rfl⟩, h1, h2, h3⟩ := h
  unfold Data.shuffle mapData
  dsimp only
  cases d.typeOfTemporal with
  | nonTemporal => exact ⟨⟨b0, rfl⟩, h1, h2, h3⟩
  | sequential =>
    dsimp only
    refine Res.Rel.bind (R := fun a b => a = b) (Res.Rel.eq (β := List Nat)) ?_
    rintro x _ rfl
    exact ⟨⟨b0, rfl⟩, h1, h2, h3⟩
  | timeSeries =>
    dsimp only
    refine Res.Rel.bind (R := fun a b => a = b) (Res.Rel.eq (β := List Bool)) ?_
    rintro x _ rfl
    refine Res.Rel.bind (R := fun a b => a = b) (Res.Rel.eq (β := TsState)) ?_
    rintro x _ rfl
    refine Res.Rel.bind (R := fun a b => a = b) (Res.Rel.eq (β := List Bool)) ?_
    rintro x _ rfl
    refine Res.Rel.bind (R := fun a b => a = b) (Res.Rel.eq (β := TsState)) ?_
    rintro x _ rfl
    exact ⟨⟨b0, rfl⟩, h1, h2, h3⟩

theorem testingData_sim {d e : Data F} (h : DataSim w φ d e) (i : Int) :
    Res.Rel (fun x y => y = φ x ∧ x.length = w) (d.getTestingData i) (e.getTestingData i) := by
  obtain ⟨⟨b0, rfl⟩, h1, h2, h3⟩ := h
  unfold Data.getTestingData mapData
  dsimp only
  cases hh : rd d.testing.inputs i <;> have hq := rd_map φ d.testing.inputs i <;> rw [hh] at hq <;>
    cases hk : rd (d.testing.inputs.map φ) i <;> rw [hk] at hq <;> simp only [Res.Rel] at hq ⊢
  · exact ⟨hq.1, h3 _ hq.2⟩
  · exact hq
  · exact hq

theorem DataSim.same {d e : Data F} (h : DataSim w φ d e) : (∀ i, e.isFirstTesting i = d.isFirstTesting i) ∧ (∀ i, e.getTestingLabel i = d.getTestingLabel i) ∧
    e.getSeparator = d.getSeparator ∧ (∀ i, e.getTestingOutputs i = d.getTestingOutputs i) ∧ e.getPrecision = d.getPrecision ∧ e.typeOfProblem = d.typeOfProblem := by
  obtain ⟨⟨b0, rfl⟩, _⟩ := h
  exact ⟨fun _ => rfl, fun _ => rfl, rfl, fun _ => rfl, rfl, rfl⟩

theorem evaluateOnce_sim (hs : NetSim w φ R) {d e : Data F} (hd : DataSim w φ d e) {s t : Snn F} (h : SnnSim R s t) :
    Res.Rel (SnnSim R) (s.evaluateOnce d) (t.evaluateOnce e) := by
  obtain ⟨m, rfl, hR⟩ := h
  have ht := testingData_sim hd s.index
  obtain ⟨e1, e2, e3, e4, e5, e6⟩ := hd.same
  clear hd
  unfold Snn.evaluateOnce
  refine Res.Rel.bind ht ?_
  rintro x _ ⟨rfl, hx⟩
  dsimp only
  rw [e1, e2, e3, e4, e5, e6]
  refine Res.Rel.bind (R := fun x y => x = y) (Res.Rel.eq (β := Bool)) ?_
  rintro first _ rfl
  cases d.typeOfProblem with
  | classification =>
    dsimp only
    refine Res.Rel.bind (R := fun x y => x = y) (Res.Rel.eq (β := Nat)) ?_
    rintro k _ rfl
    refine Res.Rel.bind (R := fun x y => x = y) (Res.Rel.eq (β := F)) ?_
    rintro sep _ rfl
    refine Res.Rel.bind (hs.out _ _ x first hR hx) ?_
    rintro ⟨o, n1⟩ ⟨_, m1⟩ ⟨rfl, hR1⟩
    dsimp only
    rw [hs.stats _ _ hR1]
    refine Res.Rel.bind (R := fun x y => x = y) (Res.Rel.eq (β := Stats F)) ?_
    rintro st _ rfl
    exact ⟨_, rfl, hs.set _ _ _ hR1⟩
  | multipleClassification =>
    dsimp only
    refine Res.Rel.bind (R := fun x y => x = y) (Res.Rel.eq (β := List F)) ?_
    rintro k _ rfl
    refine Res.Rel.bind (R := fun x y => x = y) (Res.Rel.eq (β := F)) ?_
    rintro sep _ rfl
    refine Res.Rel.bind (hs.out _ _ x first hR hx) ?_
    rintro ⟨o, n1⟩ ⟨_, m1⟩ ⟨rfl, hR1⟩
    dsimp only
    rw [hs.stats _ _ hR1]
    refine Res.Rel.bind (R := fun x y => x = y) (Res.Rel.eq (β := Stats F)) ?_
    rintro st _ rfl
    exact ⟨_, rfl, hs.set _ _ _ hR1⟩
  | regression =>
    dsimp only
    refine Res.Rel.bind (R := fun x y => x = y) (Res.Rel.eq (β := List F)) ?_
    rintro k _ rfl
    refine Res.Rel.bind (R := fun x y => x = y) (Res.Rel.eq (β := F)) ?_
    rintro sep _ rfl
    refine Res.Rel.bind (hs.out _ _ x first hR hx) ?_
    rintro ⟨o, n1⟩ ⟨_, m1⟩ ⟨rfl, hR1⟩
    dsimp only
    rw [hs.stats _ _ hR1]
    refine Res.Rel.bind (R := fun x y => x = y) (Res.Rel.eq (β := Stats F)) ?_
    rintro st _ rfl
    exact ⟨_, rfl, hs.set _ _ _ hR1⟩

theorem evaluateLoop_sim (hs : NetSim w φ R) {d e : Data F} (hd : DataSim w φ d e) (nan : F) : ∀ (k : Nat) {s t : Snn F}, SnnSim R s t →
    Res.Rel (fun p q => q.1 = p.1 ∧ SnnSim R p.2 q.2) (evaluateLoop nan d k s) (evaluateLoop nan e k t)
  | 0, s, t, h => ⟨rfl, h⟩
  | k + 1, s, t, h => by
    have h0 := h
    obtain ⟨m, rfl, hR⟩ := h
    unfold evaluateLoop
    dsimp only
    rw [hs.nan _ _ hR]
    split
    · refine ⟨rfl, _, rfl, ?_⟩
      rw [hs.stats _ _ hR]
      have h9 := hs.set _ _ (s.net.stats.setResultsAsNan nan) hR
      rw [hs.nan _ _ hR] at h9
      exact h9
    · have e1 : ∀ i, e.needToEvaluate i = d.needToEvaluate i := by obtain ⟨⟨b0, rfl⟩, _⟩ := hd; exact fun _ => rfl
      have e2 : ∀ i, e.isFirstTesting i = d.isFirstTesting i := by obtain ⟨⟨b0, rfl⟩, _⟩ := hd; exact fun _ => rfl
      rw [e1]
      refine Res.Rel.bind (R := fun x y => x = y) (Res.Rel.eq (β := Bool)) ?_
      rintro need _ rfl
      refine Res.Rel.bind (R := SnnSim R) ?_ ?_
      · cases need
        · simp only [Bool.false_eq_true, if_false]
          refine Res.Rel.bind (testingData_sim hd _) ?_
          rintro x _ ⟨rfl, hx⟩
          rw [e2]
          refine Res.Rel.bind (R := fun x y => x = y) (Res.Rel.eq (β := Bool)) ?_
          rintro first _ rfl
          refine Res.Rel.bind (hs.out _ _ x first hR hx) ?_
          rintro ⟨o, n1⟩ ⟨_, m1⟩ ⟨rfl, hR1⟩
          exact ⟨_, rfl, hR1⟩
        · exact evaluateOnce_sim hs hd h0
      · rintro x y ⟨m1, rfl, h1⟩
        exact evaluateLoop_sim hs hd nan k ⟨m1, rfl, h1⟩

theorem RunSim.mk' {a b : Run F} (h : RunSim w φ R a b) : ∃ s m d e dr k ta tb, a = ⟨s, d, dr, k, ta⟩ ∧ b = ⟨{ s with net := m }, e, dr, k, tb⟩ ∧ R s.net m ∧
    DataSim w φ d e ∧ reports b = reports a := by
  obtain ⟨⟨m, h1, h2⟩, h3, h4, h5, h6⟩ := h
  obtain ⟨sa, da, xa, ka, ta⟩ := a
  obtain ⟨sb, db, xb, kb, tb⟩ := b
  dsimp only at h1 h2 h3 h4 h5
  subst h1 h4 h5
  exact ⟨_, m, _, _, _, _, _, _, rfl, rfl, h2, h3, h6⟩

theorem reports_cons {s t : Snn F} {d e : Data F} {x y : Draws F} {k l : Nat} {ta tb : List (Event F)} (h : reports (⟨t, e, y, l, tb⟩ : Run F) = reports ⟨s, d, x, k, ta⟩)
    {s' t' : Snn F} {d' e' : Data F} {x' y' : Draws F} {k' l' : Nat} {v v' : Event F}
    (hv : (match v' with | .evaluated epoch stats => some (epoch, stats) | _ => none) = (match v with | .evaluated epoch stats => some (epoch, stats) | _ => none : Option (Int × Stats F))) :
    reports (⟨t', e', y', l', v' :: tb⟩ : Run F) = reports ⟨s', d', x', k', v :: ta⟩ := by
  unfold reports at h ⊢
  dsimp only at h ⊢
  rw [List.filterMap_cons, List.filterMap_cons, h]
  cases v <;> cases v' <;> simp at hv ⊢
  exact hv

theorem reports_same {s t : Snn F} {d e : Data F} {x y : Draws F} {k l : Nat} {ta tb : List (Event F)} (h : reports (⟨t, e, y, l, tb⟩ : Run F) = reports ⟨s, d, x, k, ta⟩)
    {s' t' : Snn F} {d' e' : Data F} {x' y' : Draws F} {k' l' : Nat} : reports (⟨t', e', y', l', tb⟩ : Run F) = reports ⟨s', d', x', k', ta⟩ := h

theorem evaluate_sim (hs : NetSim w φ R) {env : Env F} {a b : Run F} (h : RunSim w φ R a b) : Res.Rel (RunSim w φ R) (a.evaluate env) (b.evaluate env) := by
  obtain ⟨s, m, d, e, dr, k, ta, tb, rfl, rfl, hR, hd, ht⟩ := h.mk'
  unfold Run.evaluate
  dsimp only
  have hsz : e.testing.size = d.testing.size := by obtain ⟨⟨b0, rfl⟩, _⟩ := hd; rfl
  rw [hsz, hs.stats _ _ hR]
  refine Res.Rel.bind (evaluateLoop_sim hs hd env.nan d.testing.size ⟨_, rfl, hs.set _ _ _ hR⟩) ?_
  rintro ⟨x, s1⟩ ⟨x', t1⟩ ⟨hx, m1, ht1, hR1⟩
  dsimp only at hx ht1 hR1
  subst hx ht1
  dsimp only
  have he := hs.stats _ _ hR1
  split
  · exact ⟨⟨m1, rfl, hR1⟩, hd, rfl, rfl, reports_cons ht (by dsimp only; rw [he])⟩
  · rw [he]
    split
    · exact ⟨⟨_, rfl, hs.set _ _ _ hR1⟩, hd, rfl, rfl, reports_cons (reports_cons ht (v := .evaluated s1.epoch s1.net.stats.stopTesting)
        (v' := .evaluated s1.epoch s1.net.stats.stopTesting) (s' := s1) (t' := s1) (d' := d) (e' := d) (x' := dr) (y' := dr) (k' := 0) (l' := 0) rfl) rfl⟩
    · exact ⟨⟨_, rfl, hs.set _ _ _ hR1⟩, hd, rfl, rfl, reports_cons ht rfl⟩

theorem trainStep_sim (hs : NetSim w φ R) (hφ : Batchy w φ) {env : Env F} {b0 : Int} {a b : Run F} (h : RunSim w φ R a b) :
    Res.Rel (fun p q => q.1 = p.1 ∧ RunSim w φ R p.2 q.2) (a.trainStep env b0) (b.trainStep env b0) := by
  obtain ⟨s, m, d, e, dr, k, ta, tb, rfl, rfl, hR, hd, ht⟩ := h.mk'
  unfold Run.trainStep
  dsimp only
  rw [hs.nan _ _ hR, hs.stats _ _ hR]
  split
  · have h9 := hs.set _ _ (s.net.stats.setResultsAsNan env.nan) hR
    rw [hs.nan _ _ hR] at h9
    exact ⟨rfl, ⟨_, rfl, h9⟩, hd, rfl, rfl, ht⟩
  · have e1 : ∀ i, e.needToLearn i = d.needToLearn i := by obtain ⟨⟨b0, rfl⟩, _⟩ := hd; exact fun _ => rfl
    rw [e1]
    refine Res.Rel.bind (R := fun x y => x = y) (Res.Rel.eq (β := Bool)) ?_
    rintro need _ rfl
    refine Res.Rel.bind (trainingData_sim hφ hd _ _) ?_
    rintro ⟨x, d1⟩ ⟨_, e1⟩ ⟨rfl, hx, hd1⟩
    dsimp only
    have e2 : ∀ i, e1.isFirstTraining i = d1.isFirstTraining i := by obtain ⟨⟨b0, rfl⟩, _⟩ := hd1; exact fun _ => rfl
    rw [e2]
    refine Res.Rel.bind (R := fun x y => x = y) (Res.Rel.eq (β := Bool)) ?_
    rintro first _ rfl
    split
    · refine Res.Rel.bind (trainingOutputs_sim hd1 _ _) ?_
      rintro ⟨y', d2⟩ ⟨y, e3⟩ ⟨rfl, hd2⟩
      dsimp only
      refine Res.Rel.bind (hs.train _ _ x y first dr hR hx) ?_
      rintro ⟨n1, dr1⟩ ⟨m1, _⟩ ⟨hR1, rfl⟩
      exact ⟨rfl, ⟨m1, rfl, hR1⟩, hd2, rfl, rfl, reports_cons ht rfl⟩
    · refine Res.Rel.bind (hs.outT _ _ x first dr hR hx) ?_
      rintro ⟨o, n1, dr1⟩ ⟨o', m1, _⟩ ⟨hR1, rfl⟩
      exact ⟨rfl, ⟨m1, rfl, hR1⟩, hd1, rfl, rfl, reports_cons ht rfl⟩

theorem continue_sim (hs : NetSim w φ R) {env : Env F} {wait : Wait F} {a b : Run F} (h : RunSim w φ R a b) :
    (b.continueTraining env wait).1 = (a.continueTraining env wait).1 ∧ RunSim w φ R (a.continueTraining env wait).2 (b.continueTraining env wait).2 := by
  obtain ⟨s, m, d, e, dr, k, ta, tb, rfl, rfl, hR, hd, ht⟩ := h.mk'
  unfold Run.continueTraining
  dsimp only
  rw [hs.nan _ _ hR, hs.stats _ _ hR]
  exact ⟨rfl, ⟨m, rfl, hR⟩, hd, rfl, rfl, ht⟩

theorem stepLoop_sim (hs : NetSim w φ R) (hφ : Batchy w φ) {env : Env F} {wait : Wait F} {b0 : Int} : ∀ (fuel : Nat) {a b : Run F}, RunSim w φ R a b →
    Res.Rel (fun p q => q.1 = p.1 ∧ RunSim w φ R p.2 q.2) (stepLoop env wait b0 fuel a) (stepLoop env wait b0 fuel b)
  | 0, a, b, h => rfl
  | fuel + 1, a, b, h => by
    have hc := continue_sim hs (env := env) (wait := wait) h
    have h0 := h
    obtain ⟨s, m, d, e, dr, k, ta, tb, rfl, rfl, hR, hd, ht⟩ := h.mk'
    unfold stepLoop
    dsimp only at hc ⊢
    split
    · revert hc
      generalize Run.continueTraining env wait ⟨s, d, dr, k, ta⟩ = ca
      generalize Run.continueTraining env wait ⟨{ s with net := m }, e, dr, k, tb⟩ = cb
      obtain ⟨c1, r1⟩ := ca
      obtain ⟨c2, r2⟩ := cb
      rintro ⟨hc1, hc2⟩
      dsimp only at hc1 hc2 ⊢
      subst hc1
      split
      · refine Res.Rel.bind (trainStep_sim hs hφ hc2) ?_
        rintro ⟨x, p⟩ ⟨_, q⟩ ⟨rfl, hpq⟩
        dsimp only
        split
        · exact ⟨rfl, hpq⟩
        · refine stepLoop_sim hs hφ fuel ?_
          obtain ⟨s, m, d, e, dr, k, ta, tb, rfl, rfl, hR, hd, ht⟩ := hpq.mk'
          exact ⟨⟨m, rfl, hR⟩, hd, rfl, rfl, ht⟩
      · exact ⟨rfl, hc2⟩
    · exact ⟨rfl, h0⟩

theorem epochBody_sim (hs : NetSim w φ R) (hφ : Batchy w φ) {env : Env F} {wait : Wait F} {b0 ef : Int} {fuel : Nat} {a b : Run F} (h : RunSim w φ R a b) :
    Res.Rel (fun p q => q.1 = p.1 ∧ RunSim w φ R p.2 q.2) (a.epochBody env wait b0 ef fuel) (b.epochBody env wait b0 ef fuel) := by
  obtain ⟨s, m, d, e, dr, k, ta, tb, rfl, rfl, hR, hd, ht⟩ := h.mk'
  unfold Run.epochBody
  dsimp only
  refine Res.Rel.bind (shuffle_sim hd _) ?_
  intro d1 e1 hd1
  refine Res.Rel.bind (stepLoop_sim hs hφ fuel ⟨⟨m, rfl, hR⟩, hd1, rfl, rfl, reports_cons ht rfl⟩) ?_
  rintro ⟨x, p⟩ ⟨_, q⟩ ⟨rfl, hpq⟩
  dsimp only
  have hep : q.snn.epoch = p.snn.epoch := by obtain ⟨m1, h1, _⟩ := hpq.snn; rw [h1]
  rw [hep]
  split
  · exact ⟨rfl, hpq⟩
  · split
    · refine Res.Rel.bind (evaluate_sim hs hpq) ?_
      intro p1 q1 h1
      exact ⟨rfl, h1⟩
    · exact ⟨rfl, hpq⟩

theorem epochLoop_sim (hs : NetSim w φ R) (hφ : Batchy w φ) {env : Env F} {wait : Wait F} {b0 ef : Int} {inner : Nat} : ∀ (fuel : Nat) {a b : Run F}, RunSim w φ R a b →
    Res.Rel (fun p q => q.1 = p.1 ∧ RunSim w φ R p.2 q.2) (epochLoop env wait b0 ef inner fuel a) (epochLoop env wait b0 ef inner fuel b)
  | 0, a, b, h => rfl
  | fuel + 1, a, b, h => by
    have hc := continue_sim hs (env := env) (wait := wait) h
    unfold epochLoop
    revert hc
    generalize Run.continueTraining env wait a = ca
    generalize Run.continueTraining env wait b = cb
    obtain ⟨c1, r1⟩ := ca
    obtain ⟨c2, r2⟩ := cb
    rintro ⟨hc1, hc2⟩
    dsimp only at hc1 hc2 ⊢
    subst hc1
    split
    · refine Res.Rel.bind (epochBody_sim hs hφ hc2) ?_
      rintro ⟨x, p⟩ ⟨_, q⟩ ⟨rfl, hpq⟩
      dsimp only
      split
      · exact ⟨rfl, hpq⟩
      · refine epochLoop_sim hs hφ fuel ?_
        obtain ⟨s, m, d, e, dr, k, ta, tb, rfl, rfl, hR, hd, ht⟩ := hpq.mk'
        exact ⟨⟨m, rfl, hR⟩, hd, rfl, rfl, ht⟩
    · exact ⟨rfl, hc2⟩

theorem train_sim (hs : NetSim w φ R) (hφ : Batchy w φ) {env : Env F} {wait : Wait F} {b0 ef : Int} {fuel : Nat} {a b : Run F} (h : RunSim w φ R a b) :
    Res.Rel (RunSim w φ R) (a.train env wait b0 ef fuel) (b.train env wait b0 ef fuel) := by
  obtain ⟨s, m, d, e, dr, k, ta, tb, rfl, rfl, hR, hd, ht⟩ := h.mk'
  unfold Run.train
  have ev : Snn.validData { s with net := m } e b0 = s.validData d b0 := by
    obtain ⟨⟨b1, rfl⟩, _⟩ := hd
    unfold Snn.validData mapData
    dsimp only
    rw [hs.inputs _ _ hR, hs.outputs _ _ hR]
  dsimp only
  rw [ev]
  refine Res.Rel.bind (R := fun x y => x = y) (Res.Rel.eq (β := Unit)) ?_
  rintro u _ rfl
  split
  · exact rfl
  · unfold Run.trainSync
    have hb : RunSim w φ R (Run.begin ⟨{ s with wantToStopTraining := true }, d, dr, k, ta⟩)
        (Run.begin ⟨{ s with net := m, wantToStopTraining := true }, e, dr, k, tb⟩) := by
      have hsz : e.training.size = d.training.size := by obtain ⟨⟨b1, rfl⟩, _⟩ := hd; rfl
      unfold Run.begin
      dsimp only
      rw [hsz]
      exact ⟨⟨m, rfl, hR⟩, hd, rfl, rfl, ht⟩
    refine Res.Rel.bind (R := RunSim w φ R) ?_ ?_
    · split
      · exact evaluate_sim hs hb
      · exact hb
    · intro p q hpq
      have h1 : RunSim w φ R { p with snn := { p.snn with epoch := 1 } } { q with snn := { q.snn with epoch := 1 } } := by
        obtain ⟨s, m, d, e, dr, k, ta, tb, rfl, rfl, hR, hd, ht⟩ := hpq.mk'
        exact ⟨⟨m, rfl, hR⟩, hd, rfl, rfl, ht⟩
      refine Res.Rel.bind (epochLoop_sim hs hφ fuel h1) ?_
      rintro ⟨x, p1⟩ ⟨_, q1⟩ ⟨rfl, hpq1⟩
      dsimp only
      split
      · exact hpq1
      · obtain ⟨s, m, d, e, dr, k, ta, tb, rfl, rfl, hR, hd, ht⟩ := hpq1.mk'
        exact ⟨⟨m, rfl, hR⟩, hd, rfl, rfl, ht⟩

/-- Every call. The data of the run play no role: each call brings its own. -/
theorem call_sim (hs : NetSim w φ R) (hφ : Batchy w φ) {c : Call F} (hc : CallRect w c) {a b : Run F} (h1 : SnnSim R a.snn b.snn) (h2 : b.draws = a.draws)
    (h3 : b.ticks = a.ticks) (h4 : reports b = reports a) :
    Res.Rel (fun p q => SnnSim R p.snn q.snn ∧ q.draws = p.draws ∧ q.ticks = p.ticks ∧ reports q = reports p) (c.run a) ((mapCall φ c).run b) := by
  obtain ⟨sa, da, xa, ka, ta⟩ := a
  obtain ⟨sb, db, xb, kb, tb⟩ := b
  obtain ⟨m, rfl, hR⟩ := h1
  dsimp only at h2 h3
  subst h2 h3
  cases c with
  | computeOutput x t =>
    unfold Call.run mapCall Snn.computeOutput
    dsimp only
    refine Res.Rel.bind (R := fun p q : List F × Snn F => SnnSim R p.2 q.2) ?_ ?_
    · refine Res.Rel.bind (hs.out _ _ x t hR hc) ?_
      rintro ⟨o, n1⟩ ⟨_, m1⟩ ⟨rfl, hR1⟩
      exact ⟨m1, rfl, hR1⟩
    · rintro ⟨o, n1⟩ ⟨o', m1⟩ hR1
      exact ⟨hR1, rfl, rfl, h4⟩
  | computeCluster x t =>
    unfold Call.run mapCall Snn.computeCluster
    dsimp only
    refine Res.Rel.bind (R := fun p q : Int × Snn F => SnnSim R p.2 q.2) ?_ ?_
    · refine Res.Rel.bind (hs.out _ _ x t hR hc) ?_
      rintro ⟨o, n1⟩ ⟨_, m1⟩ ⟨rfl, hR1⟩
      exact ⟨m1, rfl, hR1⟩
    · rintro ⟨o, n1⟩ ⟨o', m1⟩ hR1
      exact ⟨hR1, rfl, rfl, h4⟩
  | evaluate env d =>
    have h : RunSim w φ R ⟨sa, d, xb, kb, ta⟩ ⟨{ sa with net := m }, mapData φ d, xb, kb, tb⟩ := ⟨⟨m, rfl, hR⟩, ⟨⟨_, rfl⟩, hc⟩, rfl, rfl, h4⟩
    have := evaluate_sim hs (env := env) h
    unfold Call.run mapCall
    dsimp only
    revert this
    cases Run.evaluate env ⟨sa, d, xb, kb, ta⟩ <;> cases Run.evaluate env ⟨{ sa with net := m }, mapData φ d, xb, kb, tb⟩ <;> simp only [Res.Rel] <;> try exact id
    exact fun h => ⟨h.snn, h.draws, h.ticks, h.trace⟩
  | train env d wait b0 ef fuel =>
    have h : RunSim w φ R ⟨sa, d, xb, kb, ta⟩ ⟨{ sa with net := m }, mapData φ d, xb, kb, tb⟩ := ⟨⟨m, rfl, hR⟩, ⟨⟨_, rfl⟩, hc⟩, rfl, rfl, h4⟩
    have := train_sim hs hφ (env := env) (wait := wait) (b0 := b0) (ef := ef) (fuel := fuel) h
    unfold Call.run mapCall
    dsimp only
    revert this
    cases Run.train env wait b0 ef fuel ⟨sa, d, xb, kb, ta⟩ <;> cases Run.train env wait b0 ef fuel ⟨{ sa with net := m }, mapData φ d, xb, kb, tb⟩ <;>
      simp only [Res.Rel] <;> try exact id
    exact fun h => ⟨h.snn, h.draws, h.ticks, h.trace⟩
  | saveAs path =>
    unfold Call.run mapCall Run.saveAs
    dsimp only
    split
    · exact rfl
    · exact ⟨⟨m, rfl, hR⟩, rfl, rfl, reports_cons h4 rfl⟩
  | autoSave wb path => exact ⟨⟨m, rfl, hR⟩, rfl, rfl, h4⟩

theorem history_sim (hs : NetSim w φ R) (hφ : Batchy w φ) : ∀ {calls : List (Call F)}, (∀ c ∈ calls, CallRect w c) → ∀ {a b : Run F}, SnnSim R a.snn b.snn →
    b.draws = a.draws → b.ticks = a.ticks → reports b = reports a →
    Res.Rel (fun p q => SnnSim R p.snn q.snn ∧ q.draws = p.draws ∧ q.ticks = p.ticks ∧ reports q = reports p) (calls.foldlM Call.run a)
      ((calls.map (mapCall φ)).foldlM Call.run b)
  | [], _, a, b, h1, h2, h3, h4 => ⟨h1, h2, h3, h4⟩
  | c :: cs, hc, a, b, h1, h2, h3, h4 => by
    rw [List.map_cons, List.foldlM_cons, List.foldlM_cons]
    refine Res.Rel.bind (call_sim hs hφ (hc c (by simp)) h1 h2 h3 h4) ?_
    rintro p q ⟨k1, k2, k3, k4⟩
    exact history_sim hs hφ (fun c' hc' => hc c' (by simp [hc'])) k1 k2 k3 k4

end

end Snn.MapSim
