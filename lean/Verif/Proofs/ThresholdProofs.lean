import Verif.Proofs.SharedProofs

/-! # Two evaluations that differ only by the threshold of the data -/

set_option linter.all false

namespace Snn.Threshold

open Snn.Spec Snn.HistoryProps Snn.TrainProofs

section
variable {F : Type} [Flt F] [FTrans F] [Add F] [Sub F] [Mul F] [Div F] [Neg F]

/-- The two objects differ only by their statistics, which are related. -/
def Alike (Q : Stats F → Stats F → Prop) (a b : Snn F) : Prop :=
  ∃ st, b = { a with net := { a.net with stats := st } } ∧ Q a.net.stats st

/-- The outcome of the loop: related statistics, or both with the results set to NaN. -/
def Ends (nan : F) (Q : Stats F → Stats F → Prop) (x y : Bool × Snn F) : Prop :=
  x.1 = y.1 ∧ if x.1 then Alike (fun s t => s.globalRate = nan ∧ t.globalRate = nan ∧ s.weightedRate = nan ∧ t.weightedRate = nan ∧ s.mae = nan ∧
    t.mae = nan ∧ s.rmse = nan ∧ t.rmse = nan) x.2 y.2 else Alike Q x.2 y.2

/-- The data objects are the same but for precision and separator. -/
def SameBut (d d' : Data F) : Prop := ∃ p s, d' = { d with precision := p, separator := s }

theorem loop_alike {Q : Stats F → Stats F → Prop} {d d' : Data F} (hd : SameBut d d')
    (ho : ∀ a b : Snn F, Alike Q a b → Res.Rel (Alike Q) (a.evaluateOnce d) (b.evaluateOnce d')) (nan : F) :
    ∀ (k : Nat) (a b : Snn F), Alike Q a b → Res.Rel (Ends nan Q) (evaluateLoop nan d k a) (evaluateLoop nan d' k b)
  | 0, a, b, h => ⟨rfl, h⟩
  | k + 1, a, b, h => by
    have h0 := h
    obtain ⟨p, s, rfl⟩ := hd
    obtain ⟨st, rfl, hq⟩ := h
    unfold evaluateLoop
    by_cases hn : a.net.outputNan = true
    · dsimp only
      rw [if_pos hn, if_pos hn]
      exact ⟨rfl, _, rfl, rfl, rfl, rfl, rfl, rfl, rfl, rfl, rfl⟩
    · dsimp only
      rw [if_neg hn, if_neg hn]
      have e1 : Data.needToEvaluate { d with precision := p, separator := s } a.index = d.needToEvaluate a.index := rfl
      simp only [e1]
      refine Res.Rel.bind (R := fun x y => x = y) (Res.Rel.eq (β := Bool)) ?_
      rintro need _ rfl
      refine Res.Rel.bind (R := Alike Q) ?_ ?_
      · cases need
        · simp only [Bool.false_eq_true, if_false]
          have e2 : Data.getTestingData { d with precision := p, separator := s } a.index = d.getTestingData a.index := rfl
          have e3 : Data.isFirstTesting { d with precision := p, separator := s } a.index = d.isFirstTesting a.index := rfl
          rw [e2, e3]
          refine Res.Rel.bind (R := fun x y => x = y) (Res.Rel.eq (β := List F)) ?_
          rintro x _ rfl
          refine Res.Rel.bind (R := fun x y => x = y) (Res.Rel.eq (β := Bool)) ?_
          rintro first _ rfl
          unfold Net.output
          dsimp only
          split
          · exact rfl
          · cases outputLoop first a.net.layers x with
            | ok o => exact ⟨st, rfl, hq⟩
            | throw m => exact rfl
            | ub m => exact rfl
        · exact ho _ _ h0
      · rintro x y ⟨st, rfl, hq⟩
        exact loop_alike ⟨p, s, rfl⟩ ho nan k _ _ ⟨st, rfl, hq⟩

/-- What the evaluations of one position do to the statistics. -/
theorem once_alike {Q : Stats F → Stats F → Prop} {d : Data F} {p p' s s' : F}
    (hq : match d.typeOfProblem with
      | .classification => ∀ (a b : Stats F) out k, Q a b → Res.Rel Q (a.evaluateOnce (.classification out k s)) (b.evaluateOnce (.classification out k s'))
      | .multipleClassification => ∀ (a b : Stats F) out y, y ∈ d.testing.labels → Q a b →
          Res.Rel Q (a.evaluateOnce (.multiple out y s)) (b.evaluateOnce (.multiple out y s'))
      | .regression => ∀ (a b : Stats F) out y, Q a b → Res.Rel Q (a.evaluateOnce (.regression out y p)) (b.evaluateOnce (.regression out y p')))
    (a b : Snn F) (h : Alike Q a b) :
    Res.Rel (Alike Q) (a.evaluateOnce { d with precision := p, separator := s }) (b.evaluateOnce { d with precision := p', separator := s' }) := by
  obtain ⟨st, rfl, hab⟩ := h
  unfold Snn.evaluateOnce Data.getSeparator Data.getPrecision Data.getTestingData Data.isFirstTesting Data.getTestingLabel Data.getTestingOutputs Net.output
  dsimp only
  refine Res.Rel.bind (R := fun x y => x = y) (Res.Rel.eq (β := List F)) ?_
  rintro x _ rfl
  refine Res.Rel.bind (R := fun x y => x = y) (Res.Rel.eq (β := Bool)) ?_
  rintro first _ rfl
  cases ht : d.typeOfProblem with
  | classification =>
    simp only [ht] at hq
    dsimp only
    refine Res.Rel.bind (R := fun x y => x = y) (Res.Rel.eq (β := Nat)) ?_
    rintro k _ rfl
    simp only [true_or, if_true, Res.ok_bind]
    split
    · exact rfl
    · cases outputLoop first a.net.layers x with
      | throw m => exact rfl
      | ub m => exact rfl
      | ok o =>
        simp only [Res.ok_bind, Res.pure_eq]
        refine Res.Rel.bind (hq _ _ o.1 k hab) ?_
        intro u v huv
        exact ⟨v, rfl, huv⟩
  | multipleClassification =>
    simp only [ht] at hq
    dsimp only
    cases hy : rd d.testing.labels a.index with
    | throw m => exact rfl
    | ub m => exact rfl
    | ok y =>
      simp only [or_true, if_true, Res.ok_bind]
      split
      · exact rfl
      · cases outputLoop first a.net.layers x with
        | throw m => exact rfl
        | ub m => exact rfl
        | ok o =>
          simp only [Res.ok_bind, Res.pure_eq]
          refine Res.Rel.bind (hq _ _ o.1 y (Shared.rd_mem' hy) hab) ?_
          intro u v huv
          exact ⟨v, rfl, huv⟩
  | regression =>
    simp only [ht] at hq
    dsimp only
    refine Res.Rel.bind (R := fun x y => x = y) (Res.Rel.eq (β := List F)) ?_
    rintro y _ rfl
    simp only [if_true, Res.ok_bind]
    split
    · exact rfl
    · cases outputLoop first a.net.layers x with
      | throw m => exact rfl
      | ub m => exact rfl
      | ok o =>
        simp only [Res.ok_bind, Res.pure_eq]
        refine Res.Rel.bind (hq _ _ o.1 y hab) ?_
        intro u v huv
        exact ⟨v, rfl, huv⟩

/-- Two evaluations of the same object. -/
theorem evaluate_alike {Q : Stats F → Stats F → Prop} {d d' : Data F} (hd : SameBut d d')
    (ho : ∀ a b : Snn F, Alike Q a b → Res.Rel (Alike Q) (a.evaluateOnce d) (b.evaluateOnce d')) (r : Run F) (env : Env F)
    (h0 : Q r.snn.net.stats.startTesting r.snn.net.stats.startTesting) {P : Stats F → Stats F → Prop} (hP : ∀ s t, Q s t → P s.stopTesting t.stopTesting)
    (hn : ∀ s t : Stats F, s.globalRate = env.nan ∧ t.globalRate = env.nan ∧ s.weightedRate = env.nan ∧ t.weightedRate = env.nan ∧ s.mae = env.nan ∧
      t.mae = env.nan ∧ s.rmse = env.nan ∧ t.rmse = env.nan → P s t) :
    Res.Rel (fun a b => a.snn.net.layers = b.snn.net.layers ∧ P a.snn.net.stats b.snn.net.stats) (Call.run r (.evaluate env d)) (Call.run r (.evaluate env d')) := by
  unfold Call.run Run.evaluate
  have hs : d'.testing = d.testing := by obtain ⟨p, s, rfl⟩ := hd; rfl
  dsimp only
  rw [hs]
  refine Res.Rel.bind (loop_alike hd ho env.nan d.testing.size _ _ ⟨_, rfl, h0⟩) ?_
  rintro ⟨st, x⟩ ⟨_, y⟩ ⟨rfl, h⟩
  dsimp only
  cases st
  · simp only [Bool.false_eq_true, if_false] at h ⊢
    obtain ⟨st, rfl, hq⟩ := h
    have := hP _ _ hq
    split <;> split <;> exact ⟨rfl, this⟩
  · simp only [if_true] at h ⊢
    obtain ⟨st, rfl, hq⟩ := h
    exact ⟨rfl, hn _ _ hq⟩

end

section
variable {F : Type} [Field F] [LinearOrder F] [IsStrictOrderedRing F] [FTrans F]

/-- Lists built from two related lists position by position. -/
theorem forall₂_zipWith {α β γ : Type} {R : α → β → Prop} {S : γ → γ → Prop} {δ : Type} {f : α → δ → γ} {g : β → δ → γ}
    (h : ∀ a b x, R a b → S (f a x) (g b x)) : ∀ {l : List α} {m : List β} (z : List δ), List.Forall₂ R l m →
      List.Forall₂ S (List.zipWith f l z) (List.zipWith g m z)
  | _, _, [], _ => by simp
  | _, _, _, .nil => by simp
  | _, _, x :: z, .cons h1 h2 => by
    simp only [List.zipWith_cons_cons]
    exact .cons (h _ _ _ h1) (forall₂_zipWith h z h2)

theorem forall₂_zipIdx {α β : Type} {R : α → β → Prop} : ∀ {l : List α} {m : List β} (i : Nat), List.Forall₂ R l m →
    List.Forall₂ (fun x y => R x.1 y.1 ∧ x.2 = y.2) (l.zipIdx i) (m.zipIdx i)
  | _, _, _, .nil => .nil
  | _, _, i, .cons h1 h2 => by
    simp only [List.zipIdx_cons]
    exact .cons ⟨h1, rfl⟩ (forall₂_zipIdx (i + 1) h2)

theorem all_of_forall₂ {α : Type} {R : α × Bool → α × Bool → Prop} (h : ∀ x y, R x y → x.2 = true → y.2 = true) :
    ∀ {l m : List (α × Bool)}, List.Forall₂ R l m → l.all Prod.snd = true → m.all Prod.snd = true
  | _, _, .nil, _ => rfl
  | _, _, .cons h1 h2, k => by
    simp only [List.all_cons, Bool.and_eq_true] at k ⊢
    exact ⟨h _ _ h1 k.1, all_of_forall₂ h h2 k.2⟩

/-! ### Regression -/

/-- More is counted as right on the right. -/
structure QReg (s t : Stats F) : Prop where
  clusters : List.Forall₂ (fun x y => x.totalError = y.totalError) s.clusters t.clusters
  well : s.wellClassified ≤ t.wellClassified
  sum : s.wellClassified + s.misclassified = t.wellClassified + t.misclassified
  nonneg : 0 ≤ s.wellClassified + s.misclassified

theorem regression_step {p p' : F} (hp : p ≤ p') {a b : Stats F} {out y : List F} (h : QReg a b) :
    Res.Rel QReg (a.evaluateOnce (.regression out y p)) (b.evaluateOnce (.regression out y p')) := by
  unfold Stats.evaluateOnce
  dsimp only
  rw [h.clusters.length_eq]
  split
  · exact rfl
  · have key : List.Forall₂ (fun x y : Cluster F × Bool => x.1.totalError = y.1.totalError ∧ (x.2 = true → y.2 = true))
        (List.zipWith (fun c od => regressionCluster c od.1 od.2 p) a.clusters (List.zip out y))
        (List.zipWith (fun c od => regressionCluster c od.1 od.2 p') b.clusters (List.zip out y)) := by
      refine forall₂_zipWith ?_ _ h.clusters
      rintro c c' ⟨o, e⟩ hc
      unfold regressionCluster
      simp only [flt_iff, fle_iff]
      refine ⟨?_, ?_⟩
      · split_ifs <;> simp_all
      · have q1 : ∀ {P : Prop}, e + p' < o → ¬ (e + p < o) → P := fun u v => absurd (by linarith) v
        have q2 : ∀ {P : Prop}, o < e - p' → ¬ (o < e - p) → P := fun u v => absurd (by linarith) v
        split_ifs <;> simp_all <;> linarith
    have hw : ∀ (w w' : Bool) (cs cs' : List (Cluster F)), List.Forall₂ (fun x y => x.totalError = y.totalError) cs cs' → (w = true → w' = true) →
        QReg (({ a with clusters := cs } : Stats F).count w) (({ b with clusters := cs' } : Stats F).count w') := by
      intro w w' cs cs' hcs hw
      obtain ⟨h1, h2, h3, h4⟩ := h
      cases w <;> cases w' <;> simp only [Stats.count, if_true, if_false, Bool.false_eq_true] at hw ⊢
      · exact ⟨hcs, h2, by simp only [lit_eq]; linarith, by simp only [lit_eq]; push_cast; linarith⟩
      · exact ⟨hcs, by simp only [lit_eq]; push_cast; linarith, by simp only [lit_eq]; push_cast; linarith, by simp only [lit_eq]; push_cast; linarith⟩
      · exact absurd (hw trivial) (by simp)
      · exact ⟨hcs, by simp only [lit_eq]; push_cast; linarith, by simp only [lit_eq]; push_cast; linarith, by simp only [lit_eq]; push_cast; linarith⟩
    refine hw _ _ _ _ ?_ (all_of_forall₂ (fun _ _ k => k.2) key)
    rw [List.forall₂_map_left_iff, List.forall₂_map_right_iff]
    exact key.imp fun _ _ k => k.1

theorem errors_eq {s t : Stats F} (h : List.Forall₂ (fun x y : Cluster F => x.totalError = y.totalError) s.clusters t.clusters)
    (k : s.wellClassified + s.misclassified = t.wellClassified + t.misclassified) : s.computeMae = t.computeMae ∧ s.computeRmse = t.computeRmse := by
  have aux : ∀ (f : F → F → F) {l m : List (Cluster F)}, List.Forall₂ (fun x y => x.totalError = y.totalError) l m → ∀ r,
      l.foldl (fun r c => f r c.totalError) r = m.foldl (fun r c => f r c.totalError) r := by
    intro f l m h
    induction h with
    | nil => intro r; rfl
    | cons h1 h2 ih => intro r; simp only [List.foldl_cons, h1, ih]
  unfold Stats.computeMae Stats.computeRmse
  exact ⟨by rw [aux (fun r e => r + e) h, k], by rw [aux (fun r e => r + e * e) h, k]⟩

/-! ### Classifications -/

/-- Fewer positives on the right. -/
structure QSep (s t : Stats F) : Prop where
  clusters : List.Forall₂ (fun x y : Cluster F => x.totalError = y.totalError ∧ y.truePositive ≤ x.truePositive ∧ 0 ≤ y.truePositive ∧
    x.truePositive + x.falseNegative = y.truePositive + y.falseNegative ∧ 0 ≤ x.falseNegative) s.clusters t.clusters
  sum : s.wellClassified + s.misclassified = t.wellClassified + t.misclassified

theorem cast_one : ((1 : ℚ) : F) = 1 := by norm_num

theorem sum_count {a b : Stats F} (h : a.wellClassified + a.misclassified = b.wellClassified + b.misclassified) (w w' : Bool) (cs cs' : List (Cluster F)) :
    (({ a with clusters := cs } : Stats F).count w).wellClassified + (({ a with clusters := cs } : Stats F).count w).misclassified
      = (({ b with clusters := cs' } : Stats F).count w').wellClassified + (({ b with clusters := cs' } : Stats F).count w').misclassified := by
  cases w <;> cases w' <;> simp only [Stats.count, if_true, if_false, Bool.false_eq_true, lit_eq] <;> linarith

theorem count_clusters (a : Stats F) (w : Bool) (cs : List (Cluster F)) : (({ a with clusters := cs } : Stats F).count w).clusters = cs := by
  cases w <;> rfl

theorem classification_step {s s' : F} (hs : s ≤ s') {a b : Stats F} {out : List F} {k : Int} (h : QSep a b ∧ a.wellClassified = b.wellClassified) :
    Res.Rel (fun a b => QSep a b ∧ a.wellClassified = b.wellClassified) (a.evaluateOnce (.classification out k s)) (b.evaluateOnce (.classification out k s')) := by
  obtain ⟨h, hw⟩ := h
  unfold Stats.evaluateOnce
  dsimp only
  rw [h.clusters.length_eq]
  split
  · exact rfl
  · refine ⟨⟨?_, sum_count h.sum _ _ _ _⟩, ?_⟩
    · rw [count_clusters, count_clusters]
      refine forall₂_zipWith ?_ _ (forall₂_zipIdx 0 h.clusters)
      rintro ⟨c, i⟩ ⟨c', j⟩ o ⟨⟨h1, h2, h3, h4, h5⟩, rfl⟩
      unfold classificationCluster
      simp only [flt_iff, lit_eq, cast_one]
      cases decide ((i : Int) = k)
      · simp only [Bool.false_eq_true, if_false]
        have h1' : c.totalError = c'.totalError := h1
        split_ifs <;> exact ⟨by simp [h1'], h2, h3, h4, h5⟩
      · simp only [if_true]
        have h1' : c.totalError = c'.totalError := h1
        dsimp only at h2 h3 h4 h5
        have q : ∀ {P : Prop}, s' < o → ¬ s < o → P := fun u v => absurd (by linarith) v
        split_ifs with c1 c2 c2
        · exact ⟨by simp [h1'], by dsimp only; linarith, by dsimp only; linarith, by dsimp only; linarith, h5⟩
        · exact ⟨by simp [h1'], by dsimp only; linarith, h3, by dsimp only; linarith, h5⟩
        · exact q c2 c1
        · exact ⟨by simp [h1'], h2, h3, by dsimp only; linarith, by dsimp only; linarith⟩
    · cases decide (argmaxLoop (out.take b.clusters.length) = k) <;> simp [Stats.count, hw]

theorem multiple_step {s s' : F} (hs : s ≤ s') {a b : Stats F} {out y : List F} (hy : ∀ x ∈ y, (s < x ↔ s' < x)) (h : QSep a b) :
    Res.Rel QSep (a.evaluateOnce (.multiple out y s)) (b.evaluateOnce (.multiple out y s')) := by
  unfold Stats.evaluateOnce
  dsimp only
  rw [h.clusters.length_eq]
  split
  · exact rfl
  · refine ⟨?_, sum_count h.sum _ _ _ _⟩
    rw [count_clusters, count_clusters, List.forall₂_map_left_iff, List.forall₂_map_right_iff]
    have hz : ∀ od ∈ List.zip out y, (s < od.2 ↔ s' < od.2) := fun od hod => hy _ (List.of_mem_zip hod).2
    have aux : ∀ (z : List (F × F)) {l m : List (Cluster F)}, (∀ od ∈ z, (s < od.2 ↔ s' < od.2)) →
        List.Forall₂ (fun x y : Cluster F => x.totalError = y.totalError ∧ y.truePositive ≤ x.truePositive ∧ 0 ≤ y.truePositive ∧
          x.truePositive + x.falseNegative = y.truePositive + y.falseNegative ∧ 0 ≤ x.falseNegative) l m →
        List.Forall₂ (fun x y : Cluster F × Bool => x.1.totalError = y.1.totalError ∧ y.1.truePositive ≤ x.1.truePositive ∧ 0 ≤ y.1.truePositive ∧
          x.1.truePositive + x.1.falseNegative = y.1.truePositive + y.1.falseNegative ∧ 0 ≤ x.1.falseNegative)
          (List.zipWith (fun c od => multipleCluster c od.1 od.2 s) l z) (List.zipWith (fun c od => multipleCluster c od.1 od.2 s') m z) := by
      intro z
      induction z with
      | nil => intro l m _ _; simp
      | cons od z ih =>
        intro l m hz h
        cases h with
        | nil => simp
        | cons h1 h2 =>
          simp only [List.zipWith_cons_cons]
          refine .cons ?_ (ih (fun od h => hz od (by simp [h])) h2)
          obtain ⟨o, e⟩ := od
          have he : s < e ↔ s' < e := hz (o, e) (by simp)
          obtain ⟨h1, h2, h3, h4, h5⟩ := h1
          unfold multipleCluster
          simp only [Bool.and_eq_true, flt_iff, fle_iff, lit_eq, cast_one]
          by_cases c1 : s < e
          · have c2 := he.1 c1
            by_cases c3 : s' < o
            · have c4 : s < o := lt_of_le_of_lt hs c3
              simp only [c1, c2, c3, c4, and_self, if_true]
              exact ⟨by simp [h1], by linarith, by linarith, by linarith, h5⟩
            · by_cases c4 : s < o
              · simp only [c1, c2, c3, c4, and_self, if_true, if_false, false_and, true_and, not_lt.2 (le_of_lt c2), not_lt.1 c3, and_false,
                  not_le.2 c2]
                exact ⟨by simp [h1], by linarith, h3, by linarith, h5⟩
              · simp only [c1, c2, c3, c4, and_self, if_true, if_false, false_and, true_and, not_lt.1 c3, not_lt.1 c4, and_false,
                  not_le.2 c2, not_le.2 c1]
                exact ⟨by simp [h1], h2, h3, by linarith, by linarith⟩
          · have c2 : ¬ s' < e := fun u => c1 (he.2 u)
            simp only [c1, c2, and_false, if_false, not_lt.1 c1, not_lt.1 c2, and_true]
            split_ifs <;> exact ⟨by simp [h1], h2, h3, h4, h5⟩
    exact aux _ hz h.clusters

theorem weighted_le {s t : Stats F} (h : QSep s t) : t.computeWeightedRate ≤ s.computeWeightedRate := by
  have aux : ∀ {l m : List (Cluster F)}, List.Forall₂ (fun x y : Cluster F => x.totalError = y.totalError ∧ y.truePositive ≤ x.truePositive ∧
      0 ≤ y.truePositive ∧ x.truePositive + x.falseNegative = y.truePositive + y.falseNegative ∧ 0 ≤ x.falseNegative) l m → ∀ r r' : F, r' ≤ r →
      m.foldl (fun r c => if flt (lit 0) c.truePositive then r + c.truePositive / (c.truePositive + c.falseNegative) else r) r' ≤
      l.foldl (fun r c => if flt (lit 0) c.truePositive then r + c.truePositive / (c.truePositive + c.falseNegative) else r) r := by
    intro l m h
    induction h with
    | nil => intro r r' hr; exact hr
    | @cons x y _ _ h1 h2 ih =>
      intro r r' hr
      simp only [List.foldl_cons]
      refine ih _ _ ?_
      obtain ⟨_, h2, h3, h4, h5⟩ := h1
      simp only [flt_iff, lit_eq, Rat.cast_zero]
      have e : y.truePositive / (y.truePositive + y.falseNegative) ≤ x.truePositive / (x.truePositive + x.falseNegative) := by
        rw [← h4]
        exact div_le_div_of_nonneg_right h2 (by linarith)
      have e' : 0 ≤ x.truePositive / (x.truePositive + x.falseNegative) := div_nonneg (by linarith) (by linarith)
      split_ifs with c1 c2 c2
      · linarith
      · linarith
      · linarith
      · exact hr
  unfold Stats.computeWeightedRate
  rw [h.clusters.length_eq]
  refine div_le_div_of_nonneg_right (aux h.clusters _ _ le_rfl) ?_
  simp only [lit_eq]
  exact_mod_cast Nat.zero_le _

end

end Snn.Threshold
