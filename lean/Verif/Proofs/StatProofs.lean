import Verif.Spec.StatSpec
import Mathlib.Tactic.Linarith
import Mathlib.Tactic.FieldSimp
import Mathlib.Tactic.Ring
import Mathlib.Tactic.Positivity

/-! Helper lemmas for `Verif/Props/StatProps.lean`. -/

set_option linter.all false

namespace Snn.StatSpec

variable {F : Type} [Field F] [LinearOrder F] [IsStrictOrderedRing F] [FTrans F]

/-- One more observation in a cell. -/
def addCell (c : Cluster F) (k : Cell) (e : F) : Cluster F :=
  { truePositive := c.truePositive + (if k = .tp then 1 else 0)
    trueNegative := c.trueNegative + (if k = .tn then 1 else 0)
    falsePositive := c.falsePositive + (if k = .fp then 1 else 0)
    falseNegative := c.falseNegative + (if k = .fn then 1 else 0)
    totalError := c.totalError + e }

theorem regressionCluster_eq (c : Cluster F) (o d p : F) (hp : 0 ≤ p) :
    (regressionCluster c o d p).1 =
      addCell c (if d + p < o then .fp else if o < d - p then .fn else .tn) |o - d| ∧
    ((regressionCluster c o d p).2 = true ↔ |o - d| ≤ p) := by
  unfold regressionCluster addCell
  simp only [flt_iff, fle_iff, lit_eq, fabs_eq, abs_sub_comm d o, Rat.cast_one]
  rw [abs_le]
  by_cases h1 : d + p < o
  · simp [h1]; intro; linarith
  · by_cases h2 : o < d - p
    · simp [h1, h2]; intro; linarith
    · by_cases h3 : d ≤ o
      · simp [h1, h2, h3]; constructor <;> linarith
      · have h4 : o ≤ d := by linarith
        simp [h1, h2, h3, h4]; constructor <;> linarith

theorem multipleCluster_eq (c : Cluster F) (o d s : F) :
    (multipleCluster c o d s).1 =
      addCell c (if s < o then (if s < d then .tp else .fp) else (if s < d then .fn else .tn)) |o - d| ∧
    ((multipleCluster c o d s).2 = true ↔ (s < o ↔ s < d)) := by
  unfold multipleCluster addCell
  simp only [flt_iff, fle_iff, lit_eq, fabs_eq, abs_sub_comm d o, Rat.cast_one, Bool.and_eq_true]
  by_cases h1 : s < o <;> by_cases h2 : s < d
  · simp [h1, h2]
  · simp [h1, h2, not_lt.1 h2, not_le.2 h1]
  · simp [h1, h2, not_lt.1 h1, not_le.2 h2]
  · simp [h1, h2, not_lt.1 h1, not_lt.1 h2]

theorem classificationCluster_eq (c : Cluster F) (b : Bool) (o s : F) :
    classificationCluster c b o s =
      addCell c (if s < o then (if b = true then .tp else .fp) else (if b = true then .fn else .tn))
        |o - (if b = true then 1 else 0)| := by
  unfold classificationCluster addCell
  simp only [flt_iff, lit_eq, fabs_eq, Rat.cast_one, Rat.cast_zero]
  cases b
  · by_cases h : s < o <;> simp [h]
  · by_cases h : s < o <;> simp [h, abs_sub_comm 1 o]

/-! ### The arg-max loop -/

theorem argmaxFrom_spec (os : List F) (i : Int) (best : F) (idx : Int) :
    (argmaxFrom os i best idx = idx ∧ ∀ x ∈ os, x ≤ best) ∨
    (∃ (k : Nat) (v : F), argmaxFrom os i best idx = i + k ∧ os[k]? = some v ∧ best < v ∧
      (∀ x ∈ os, x ≤ v) ∧ ∀ j < k, ∀ x, os[j]? = some x → x < v) := by
  induction os generalizing i best idx with
  | nil => left; simp [argmaxFrom]
  | cons o os ih =>
    unfold argmaxFrom
    by_cases h : best < o
    · rw [if_pos ((flt_iff _ _).2 h)]
      rcases ih (i + 1) o i with ⟨h1, h2⟩ | ⟨k, v, h1, h2, h3, h4, h5⟩
      · right
        refine ⟨0, o, by simpa using h1, by simp, h, ?_, by simp⟩
        intro x hx
        rcases List.mem_cons.1 hx with rfl | hx
        · exact le_rfl
        · exact h2 x hx
      · right
        refine ⟨k + 1, v, by rw [h1]; push_cast; ring, by simpa using h2, h.trans h3, ?_, ?_⟩
        · intro x hx
          rcases List.mem_cons.1 hx with rfl | hx
          · exact h3.le
          · exact h4 x hx
        · intro j hj x hx
          cases j with
          | zero => simp at hx; subst hx; exact h3
          | succ j => exact h5 j (by omega) x (by simpa using hx)
    · rw [if_neg (by simpa using h)]
      have h := not_lt.1 h
      rcases ih (i + 1) best idx with ⟨h1, h2⟩ | ⟨k, v, h1, h2, h3, h4, h5⟩
      · left
        refine ⟨h1, ?_⟩
        intro x hx
        rcases List.mem_cons.1 hx with rfl | hx
        · exact h
        · exact h2 x hx
      · right
        refine ⟨k + 1, v, by rw [h1]; push_cast; ring, by simpa using h2, h3, ?_, ?_⟩
        · intro x hx
          rcases List.mem_cons.1 hx with rfl | hx
          · exact h.trans h3.le
          · exact h4 x hx
        · intro j hj x hx
          cases j with
          | zero => simp at hx; subst hx; exact h.trans_lt h3
          | succ j => exact h5 j (by omega) x (by simpa using hx)

theorem IsFirstArgmax.unique {o : List F} {j k : Nat} (hj : IsFirstArgmax o j) (hk : IsFirstArgmax o k) :
    j = k := by
  obtain ⟨v, hv, hv2, hv3⟩ := hj
  obtain ⟨w, hw, hw2, hw3⟩ := hk
  have h1 : v ≤ w := hw2 v (List.mem_of_getElem? hv)
  have h2 : w ≤ v := hv2 w (List.mem_of_getElem? hw)
  rcases lt_trichotomy j k with h | h | h
  · exact absurd (hw3 j h v hv) (not_lt.2 h2)
  · exact h
  · exact absurd (hv3 k h w hw) (not_lt.2 h1)

theorem argmaxLoop_spec {o : List F} (h : ∃ x ∈ o, -2 < x) :
    ∃ k : Nat, argmaxLoop o = k ∧ IsFirstArgmax o k := by
  unfold argmaxLoop
  rcases argmaxFrom_spec o 0 (lit (-2)) (-1) with ⟨_, h2⟩ | ⟨k, v, h1, h2, h3, h4, h5⟩
  · obtain ⟨x, hx, hx2⟩ := h
    have := h2 x hx
    simp at this
    exact absurd this (not_le.2 hx2)
  · exact ⟨k, by simpa using h1, v, h2, h4, h5⟩

theorem argmaxLoop_floor {o : List F} (h : ¬ ∃ x ∈ o, -2 < x) : argmaxLoop o = -1 := by
  unfold argmaxLoop
  rcases argmaxFrom_spec o 0 (lit (-2)) (-1) with ⟨h1, _⟩ | ⟨k, v, h1, h2, h3, h4, h5⟩
  · exact h1
  · exact absurd ⟨v, List.mem_of_getElem? h2, by simpa using h3⟩ h

/-- One evaluation: every label's counters move by the verdict of the specification. -/
structure Step (n : Nat) (s : Stats F) (e : Ev F) (s' : Stats F) : Prop where
  len : s'.clusters.length = n
  clusters : ∀ i (h : i < n) c, s.clusters[i]? = some c →
    s'.clusters[i]? = some (addCell c (cell i e) (absError i e))
  well : (judged n e → s'.wellClassified = s.wellClassified + 1 ∧ s'.misclassified = s.misclassified) ∧
    (¬ judged n e → s'.wellClassified = s.wellClassified ∧ s'.misclassified = s.misclassified + 1)
  frame : { s' with clusters := s.clusters, wellClassified := s.wellClassified, misclassified := s.misclassified } = s

theorem count_frame (s s0 : Stats F) (b : Bool) (cl : List (Cluster F)) (hs : s = { s0 with clusters := cl }) :
    { s.count b with clusters := s0.clusters, wellClassified := s0.wellClassified, misclassified := s0.misclassified } = s0 := by
  subst hs
  cases b <;> rfl

theorem count_clusters (s : Stats F) (b : Bool) : (s.count b).clusters = s.clusters := by
  cases b <;> rfl

theorem count_well (s : Stats F) (b : Bool) (P : Prop) (h : b = true ↔ P) :
    (P → (s.count b).wellClassified = s.wellClassified + 1 ∧ (s.count b).misclassified = s.misclassified) ∧
    (¬ P → (s.count b).wellClassified = s.wellClassified ∧ (s.count b).misclassified = s.misclassified + 1) := by
  cases b
  · have : ¬ P := fun hp => absurd (h.2 hp) (by simp)
    simp [this, Stats.count]
  · have : P := h.1 rfl
    simp [this, Stats.count]

theorem step_evaluateOnce (n : Nat) (s : Stats F) (e : Ev F) (hn : s.clusters.length = n)
    (hwf : wf n e) : ∃ s', s.evaluateOnce e = .ok s' ∧ Step n s e s' := by
  cases e with
  | regression o d p =>
    obtain ⟨ho, hd, hp⟩ := hwf
    refine ⟨_, by simp only [Stats.evaluateOnce]; rw [if_neg (by omega)], ?_⟩
    constructor
    · simp [count_clusters, hn, ho, hd]
    · intro i hi c hc
      have h1 : i < o.length := by omega
      have h2 : i < d.length := by omega
      simp only [count_clusters, List.getElem?_map, List.getElem?_zipWith, hc, List.getElem?_zip_eq_some, cell, absError]
      rw [show (o.zip d)[i]? = some (o[i], d[i]) by simp [List.getElem?_eq_getElem, h1, h2]]
      simp only [Option.map_some, (regressionCluster_eq c _ _ p hp).1]
      simp [List.getD_eq_getElem?_getD, h1, h2]
    · apply count_well
      rw [List.all_eq_true]
      simp only [judged, right, aboveFloor, and_true]
      constructor
      · intro h i hi
        have h0 : i < s.clusters.length := by omega
        have h1 : i < o.length := by omega
        have h2 : i < d.length := by omega
        have := h (regressionCluster s.clusters[i] o[i] d[i] p) (List.mem_of_getElem? (i := i) (by
          simp [List.getElem?_zipWith, h0, h1, h2]))
        have := ((regressionCluster_eq s.clusters[i] o[i] d[i] p hp).2).1 this
        simpa [List.getD_eq_getElem?_getD, h1, h2] using this
      · intro h x hx
        obtain ⟨i, hi, hxi⟩ := List.getElem_of_mem hx
        simp only [List.length_zipWith, List.length_zip] at hi
        have h0 : i < s.clusters.length := by omega
        have h1 : i < o.length := by omega
        have h2 : i < d.length := by omega
        simp only [List.getElem_zipWith, List.getElem_zip] at hxi
        rw [← hxi]
        refine ((regressionCluster_eq s.clusters[i] o[i] d[i] p hp).2).2 ?_
        have := h i (by omega)
        simpa [List.getD_eq_getElem?_getD, h1, h2] using this
    · exact count_frame _ s _ _ rfl
  | multiple o d p =>
    obtain ⟨ho, hd⟩ := hwf
    refine ⟨_, by simp only [Stats.evaluateOnce]; rw [if_neg (by omega)], ?_⟩
    constructor
    · simp [count_clusters, hn, ho, hd]
    · intro i hi c hc
      have h1 : i < o.length := by omega
      have h2 : i < d.length := by omega
      simp only [count_clusters, List.getElem?_map, List.getElem?_zipWith, hc, List.getElem?_zip_eq_some, cell, absError]
      rw [show (o.zip d)[i]? = some (o[i], d[i]) by simp [List.getElem?_eq_getElem, h1, h2]]
      simp only [Option.map_some, (multipleCluster_eq c _ _ p).1]
      simp [List.getD_eq_getElem?_getD, h1, h2]
    · apply count_well
      rw [List.all_eq_true]
      simp only [judged, right, aboveFloor, and_true]
      constructor
      · intro h i hi
        have h0 : i < s.clusters.length := by omega
        have h1 : i < o.length := by omega
        have h2 : i < d.length := by omega
        have := h (multipleCluster s.clusters[i] o[i] d[i] p) (List.mem_of_getElem? (i := i) (by
          simp [List.getElem?_zipWith, h0, h1, h2]))
        have := ((multipleCluster_eq s.clusters[i] o[i] d[i] p).2).1 this
        simpa [List.getD_eq_getElem?_getD, h1, h2] using this
      · intro h x hx
        obtain ⟨i, hi, hxi⟩ := List.getElem_of_mem hx
        simp only [List.length_zipWith, List.length_zip] at hi
        have h0 : i < s.clusters.length := by omega
        have h1 : i < o.length := by omega
        have h2 : i < d.length := by omega
        simp only [List.getElem_zipWith, List.getElem_zip] at hxi
        rw [← hxi]
        refine ((multipleCluster_eq s.clusters[i] o[i] d[i] p).2).2 ?_
        have := h i (by omega)
        simpa [List.getD_eq_getElem?_getD, h1, h2] using this
    · exact count_frame _ s _ _ rfl
  | classification o k sep =>
    obtain ⟨ho, hk⟩ := hwf
    refine ⟨_, by simp only [Stats.evaluateOnce]; rw [if_neg (by omega)], ?_⟩
    constructor
    · simp [count_clusters, hn, ho]
    · intro i hi c hc
      have h1 : i < o.length := by omega
      simp only [count_clusters, List.getElem?_zipWith, List.getElem?_zipIdx, hc, cell, absError]
      simp only [Option.map_some, List.getElem?_eq_getElem h1, classificationCluster_eq]
      simp [List.getD_eq_getElem?_getD, h1]
    · apply count_well
      rw [decide_eq_true_iff, hn, ← ho, List.take_length]
      simp only [judged, right, aboveFloor, and_true]
      by_cases hfl : ∃ x ∈ o, -2 < x
      · obtain ⟨j, hj, hj2⟩ := argmaxLoop_spec hfl
        rw [hj]
        constructor
        · intro h; exact ⟨⟨j, hj2, h⟩, hfl⟩
        · rintro ⟨⟨j', hj', rfl⟩, _⟩; rw [hj2.unique hj']
      · rw [argmaxLoop_floor hfl]
        constructor
        · intro h; omega
        · rintro ⟨_, h⟩; exact absurd h hfl
    · exact count_frame _ s _ _ rfl

open Classical in
/-- The counters after a run of evaluations. -/
structure Run (n : Nat) (s : Stats F) (es : List (Ev F)) (s' : Stats F) : Prop where
  len : s'.clusters.length = n
  tp : ∀ i (h : i < n) c, s.clusters[i]? = some c → ∃ c', s'.clusters[i]? = some c' ∧
    c'.truePositive = c.truePositive + (es.countP fun e => decide (cell i e = .tp) : Nat) ∧
    c'.trueNegative = c.trueNegative + (es.countP fun e => decide (cell i e = .tn) : Nat) ∧
    c'.falsePositive = c.falsePositive + (es.countP fun e => decide (cell i e = .fp) : Nat) ∧
    c'.falseNegative = c.falseNegative + (es.countP fun e => decide (cell i e = .fn) : Nat) ∧
    c'.totalError = c.totalError + (es.map (absError i)).sum
  well : s'.wellClassified = s.wellClassified + (es.countP fun e => decide (judged n e) : Nat)
  mis : s'.misclassified = s.misclassified + (es.countP fun e => decide (¬ judged n e) : Nat)
  frame : { s' with clusters := s.clusters, wellClassified := s.wellClassified, misclassified := s.misclassified } = s

theorem run_evaluate (n : Nat) (es : List (Ev F)) (s : Stats F) (hn : s.clusters.length = n)
    (hwf : ∀ e ∈ es, wf n e) :
    ∃ s', es.foldlM Stats.evaluateOnce s = .ok s' ∧ Run n s es s' := by
  induction es generalizing s with
  | nil =>
    refine ⟨s, rfl, ⟨hn, ?_, by simp, by simp, rfl⟩⟩
    intro i h c hc
    exact ⟨c, hc, by simp⟩
  | cons e es ih =>
    obtain ⟨s1, h1, st⟩ := step_evaluateOnce n s e hn (hwf e (by simp))
    obtain ⟨s2, h2, rn⟩ := ih s1 st.len (fun e he => hwf e (by simp [he]))
    refine ⟨s2, by simp [List.foldlM_cons, h1, h2], ⟨rn.len, ?_, ?_, ?_, ?_⟩⟩
    · intro i hi c hc
      obtain ⟨c', hc', ht, htn, hfp, hfn, he⟩ := rn.tp i hi _ (st.clusters i hi c hc)
      refine ⟨c', hc', ?_, ?_, ?_, ?_, ?_⟩
      · rw [ht, List.countP_cons]; simp only [addCell]; push_cast; simp only [decide_eq_true_eq]; ring
      · rw [htn, List.countP_cons]; simp only [addCell]; push_cast; simp only [decide_eq_true_eq]; ring
      · rw [hfp, List.countP_cons]; simp only [addCell]; push_cast; simp only [decide_eq_true_eq]; ring
      · rw [hfn, List.countP_cons]; simp only [addCell]; push_cast; simp only [decide_eq_true_eq]; ring
      · rw [he]; simp [addCell]; ring
    · rw [rn.well, List.countP_cons]
      by_cases h : judged n e
      · rw [(st.well.1 h).1]; simp [h]; ring
      · rw [(st.well.2 h).1]; simp [h]
    · rw [rn.mis, List.countP_cons]
      by_cases h : judged n e
      · rw [(st.well.1 h).2]; simp [h]
      · rw [(st.well.2 h).2]; simp [h]; ring
    · have h3 := rn.frame
      have h4 := st.frame
      rw [← h3] at h4
      rw [← h4]

end Snn.StatSpec
