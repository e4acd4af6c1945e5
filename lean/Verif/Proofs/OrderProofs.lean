import Verif.Proofs.StatProofs

/-! Evaluations of examples commute (exact arithmetic). -/

set_option linter.all false

namespace Snn

variable {F : Type} [Field F] [LinearOrder F] [IsStrictOrderedRing F] [FTrans F]

/-- Sum of the counters of two clusters. -/
def Cluster.add (a b : Cluster F) : Cluster F :=
  ⟨a.truePositive + b.truePositive, a.trueNegative + b.trueNegative, a.falsePositive + b.falsePositive, a.falseNegative + b.falseNegative,
    a.totalError + b.totalError⟩

theorem Cluster.add_right_comm (a b c : Cluster F) : (a.add b).add c = (a.add c).add b := by
  simp only [Cluster.add, Cluster.mk.injEq]
  refine ⟨?_, ?_, ?_, ?_, ?_⟩ <;> ring

/-- What one evaluation adds to the cluster `i`. -/
noncomputable def Ev.delta (i : Nat) : Ev F → Cluster F
  | .regression o d p => (regressionCluster Cluster.zero (o.getD i 0) (d.getD i 0) p).1
  | .multiple o d s => (multipleCluster Cluster.zero (o.getD i 0) (d.getD i 0) s).1
  | .classification o k s => classificationCluster Cluster.zero (decide ((i : Int) = k)) (o.getD i 0) s

/-- Whether one evaluation on `n` clusters counts as well classified. -/
noncomputable def Ev.well (n : Nat) : Ev F → Bool
  | .regression o d p => (List.range n).all fun i => (regressionCluster Cluster.zero (o.getD i 0) (d.getD i 0) p).2
  | .multiple o d s => (List.range n).all fun i => (multipleCluster Cluster.zero (o.getD i 0) (d.getD i 0) s).2
  | .classification o k _ => decide (argmaxLoop (o.take n) = k)

/-- The vectors are too short for `n` clusters. -/
def Ev.short (n : Nat) : Ev F → Bool
  | .regression o d _ => decide (o.length < n ∨ d.length < n)
  | .multiple o d _ => decide (o.length < n ∨ d.length < n)
  | .classification o _ _ => decide (o.length < n)

theorem regressionCluster_add (c : Cluster F) (o d p : F) :
    regressionCluster c o d p = (c.add (regressionCluster Cluster.zero o d p).1, (regressionCluster Cluster.zero o d p).2) := by
  cases c
  unfold regressionCluster Cluster.add Cluster.zero
  dsimp only
  split_ifs <;> simp

theorem multipleCluster_add (c : Cluster F) (o d p : F) :
    multipleCluster c o d p = (c.add (multipleCluster Cluster.zero o d p).1, (multipleCluster Cluster.zero o d p).2) := by
  cases c
  unfold multipleCluster Cluster.add Cluster.zero
  dsimp only
  split_ifs <;> simp

theorem classificationCluster_add (c : Cluster F) (b : Bool) (o p : F) :
    classificationCluster c b o p = c.add (classificationCluster Cluster.zero b o p) := by
  cases c
  unfold classificationCluster Cluster.add Cluster.zero
  dsimp only
  split_ifs <;> simp

theorem evaluateOnce_eq (s : Stats F) (e : Ev F) : s.evaluateOnce e =
    if e.short s.clusters.length then .ub "outputs[i] out of range"
    else .ok (({ s with clusters := s.clusters.mapIdx fun i c => c.add (e.delta i) } : Stats F).count (e.well s.clusters.length)) := by
  cases e with
  | regression o d p =>
    simp only [Stats.evaluateOnce, Ev.short, decide_eq_true_eq]
    by_cases h : o.length < s.clusters.length ∨ d.length < s.clusters.length
    · rw [if_pos h, if_pos h]
    · rw [if_neg h, if_neg h]
      rw [not_or] at h
      refine congrArg Res.ok ?_
      refine congrArg₂ Stats.count ?_ ?_
      · congr 1
        apply List.ext_getElem
        · simp; omega
        · intro i h1 h2
          simp at h1 h2
          simp only [List.getElem_map, List.getElem_zipWith, List.getElem_zip, List.getElem_mapIdx]
          rw [regressionCluster_add]
          simp [Ev.delta, List.getD_eq_getElem?_getD, List.getElem?_eq_getElem (show i < o.length by omega),
            List.getElem?_eq_getElem (show i < d.length by omega)]
      · rw [Bool.eq_iff_iff]
        simp only [Ev.well, List.all_eq_true]
        constructor
        · intro hh i hi
          have hi' := List.mem_range.1 hi
          have := hh _ (List.getElem_mem (l := List.zipWith (fun c od => regressionCluster c od.1 od.2 p) s.clusters (o.zip d)) (n := i) (by simp; omega))
          simp only [List.getElem_zipWith, List.getElem_zip] at this
          rw [regressionCluster_add] at this
          simpa [List.getD_eq_getElem?_getD, List.getElem?_eq_getElem (show i < o.length by omega),
            List.getElem?_eq_getElem (show i < d.length by omega)] using this
        · intro hh x hx
          obtain ⟨i, hi, rfl⟩ := List.getElem_of_mem hx
          simp at hi
          have := hh i (List.mem_range.2 (by omega))
          simp only [List.getElem_zipWith, List.getElem_zip]
          rw [regressionCluster_add]
          simpa [List.getD_eq_getElem?_getD, List.getElem?_eq_getElem (show i < o.length by omega),
            List.getElem?_eq_getElem (show i < d.length by omega)] using this
  | multiple o d p =>
    simp only [Stats.evaluateOnce, Ev.short, decide_eq_true_eq]
    by_cases h : o.length < s.clusters.length ∨ d.length < s.clusters.length
    · rw [if_pos h, if_pos h]
    · rw [if_neg h, if_neg h]
      rw [not_or] at h
      refine congrArg Res.ok ?_
      refine congrArg₂ Stats.count ?_ ?_
      · congr 1
        apply List.ext_getElem
        · simp; omega
        · intro i h1 h2
          simp at h1 h2
          simp only [List.getElem_map, List.getElem_zipWith, List.getElem_zip, List.getElem_mapIdx]
          rw [multipleCluster_add]
          simp [Ev.delta, List.getD_eq_getElem?_getD, List.getElem?_eq_getElem (show i < o.length by omega),
            List.getElem?_eq_getElem (show i < d.length by omega)]
      · rw [Bool.eq_iff_iff]
        simp only [Ev.well, List.all_eq_true]
        constructor
        · intro hh i hi
          have hi' := List.mem_range.1 hi
          have := hh _ (List.getElem_mem (l := List.zipWith (fun c od => multipleCluster c od.1 od.2 p) s.clusters (o.zip d)) (n := i) (by simp; omega))
          simp only [List.getElem_zipWith, List.getElem_zip] at this
          rw [multipleCluster_add] at this
          simpa [List.getD_eq_getElem?_getD, List.getElem?_eq_getElem (show i < o.length by omega),
            List.getElem?_eq_getElem (show i < d.length by omega)] using this
        · intro hh x hx
          obtain ⟨i, hi, rfl⟩ := List.getElem_of_mem hx
          simp at hi
          have := hh i (List.mem_range.2 (by omega))
          simp only [List.getElem_zipWith, List.getElem_zip]
          rw [multipleCluster_add]
          simpa [List.getD_eq_getElem?_getD, List.getElem?_eq_getElem (show i < o.length by omega),
            List.getElem?_eq_getElem (show i < d.length by omega)] using this
  | classification o k sep =>
    simp only [Stats.evaluateOnce, Ev.short, decide_eq_true_eq]
    by_cases h : o.length < s.clusters.length
    · rw [if_pos h, if_pos h]
    · rw [if_neg h, if_neg h]
      refine congrArg Res.ok ?_
      refine congrArg₂ Stats.count ?_ rfl
      congr 1
      apply List.ext_getElem
      · simp; omega
      · intro i h1 h2
        simp at h1 h2
        simp only [List.getElem_zipWith, List.getElem_zipIdx, List.getElem_mapIdx]
        rw [classificationCluster_add]
        simp [Ev.delta, List.getD_eq_getElem?_getD, List.getElem?_eq_getElem (show i < o.length by omega)]

theorem count_clusters (s : Stats F) (b : Bool) : (s.count b).clusters = s.clusters := by
  unfold Stats.count; split <;> rfl

theorem mapIdx_clusters_comm (l : List (Cluster F)) (a b : Ev F) :
    (l.mapIdx fun i c => c.add (a.delta i)).mapIdx (fun i c => c.add (b.delta i)) =
      (l.mapIdx fun i c => c.add (b.delta i)).mapIdx (fun i c => c.add (a.delta i)) := by
  apply List.ext_getElem
  · simp
  · intro i h1 h2
    simp [Cluster.add_right_comm]

/-- Two evaluations commute. -/
theorem evaluateOnce_comm (s : Stats F) (a b : Ev F) :
    (s.evaluateOnce a >>= fun t => t.evaluateOnce b) = (s.evaluateOnce b >>= fun t => t.evaluateOnce a) := by
  rw [evaluateOnce_eq s a, evaluateOnce_eq s b]
  by_cases ha : a.short s.clusters.length <;> by_cases hb : b.short s.clusters.length
  · rw [if_pos ha, if_pos hb]; rfl
  · rw [if_pos ha, if_neg hb]
    simp only [Res.ok_bind]
    rw [evaluateOnce_eq]
    simp only [count_clusters, List.length_mapIdx]
    rw [if_pos ha]; rfl
  · rw [if_neg ha, if_pos hb]
    simp only [Res.ok_bind]
    rw [evaluateOnce_eq]
    simp only [count_clusters, List.length_mapIdx]
    rw [if_pos hb]; rfl
  · rw [if_neg ha, if_neg hb]
    simp only [Res.ok_bind]
    rw [evaluateOnce_eq, evaluateOnce_eq]
    simp only [count_clusters, List.length_mapIdx]
    rw [if_neg ha, if_neg hb]
    congr 1
    have := mapIdx_clusters_comm s.clusters a b
    unfold Stats.count
    cases a.well s.clusters.length <;> cases b.well s.clusters.length <;> simp [this]

/-- A sequence of evaluations may be reordered. -/
theorem evaluations_perm {es es' : List (Ev F)} (h : es.Perm es') : ∀ s : Stats F, es.foldlM Stats.evaluateOnce s = es'.foldlM Stats.evaluateOnce s := by
  induction h with
  | nil => intro s; rfl
  | cons e _ ih =>
    intro s
    simp only [List.foldlM_cons]
    congr 1
    funext t
    exact ih t
  | swap a b l =>
    intro s
    simp only [List.foldlM_cons]
    have := congrArg (fun x => x >>= fun t => l.foldlM Stats.evaluateOnce t) (evaluateOnce_comm s b a)
    simpa [bind_assoc] using this
  | trans _ _ ih1 ih2 => intro s; rw [ih1, ih2]

end Snn
