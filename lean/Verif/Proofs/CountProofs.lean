import Verif.Spec.CountSpec

/-! An evaluation adds one to fixed counters, whatever their values: for every float type. -/

set_option linter.all false

namespace Snn.CountProofs

open StatSpec (Cell) 
open CountSpec

section
variable {F : Type} [Add F] [Sub F] [Flt F]

/-- Add one when b. -/
def bump (b : Bool) (v : F) : F := if b then v + lit 1 else v

/-- What an evaluation does to a label: at most one cell, and an error. -/
def Moves (f : Cluster F → Cluster F) (v : Option Cell) : Prop :=
  ∀ c : Cluster F, ∀ cell, counter (f c) cell = bump (decide (v = some cell)) (counter c cell)

theorem regression_moves (o d p : F) : ∃ v b, Moves (fun c => (regressionCluster c o d p).1) v ∧ ∀ c, (regressionCluster c o d p).2 = b := by
  unfold regressionCluster Moves bump
  by_cases h1 : flt (d + p) o
  · exact ⟨some .fp, false, by intro c cell; cases cell <;> simp [h1, counter], by simp [h1]⟩
  by_cases h2 : flt o (d - p)
  · exact ⟨some .fn, false, by intro c cell; cases cell <;> simp [h1, h2, counter], by simp [h1, h2]⟩
  by_cases h3 : fle d o
  · exact ⟨some .tn, true, by intro c cell; cases cell <;> simp [h1, h2, h3, counter], by simp [h1, h2, h3]⟩
  by_cases h4 : fle o d
  · exact ⟨some .tn, true, by intro c cell; cases cell <;> simp [h1, h2, h3, h4, counter], by simp [h1, h2, h3, h4]⟩
  · exact ⟨none, true, by intro c cell; cases cell <;> simp [h1, h2, h3, h4, counter], by simp [h1, h2, h3, h4]⟩

theorem multiple_moves (o d s : F) : ∃ v b, Moves (fun c => (multipleCluster c o d s).1) v ∧ ∀ c, (multipleCluster c o d s).2 = b := by
  unfold multipleCluster Moves bump
  by_cases h1 : (flt s o && flt s d) = true
  · exact ⟨some .tp, true, by intro c cell; cases cell <;> simp only [h1, counter] <;> simp, by intro c; simp only [h1]; simp⟩
  by_cases h2 : (fle o s && fle d s) = true
  · exact ⟨some .tn, true, by intro c cell; cases cell <;> simp only [h1, h2, counter] <;> simp, by intro c; simp only [h1, h2]; simp⟩
  by_cases h3 : (flt s o && fle d s) = true
  · exact ⟨some .fp, false, by intro c cell; cases cell <;> simp only [h1, h2, h3, counter] <;> simp, by intro c; simp only [h1, h2, h3]; simp⟩
  by_cases h4 : (fle o s && flt s d) = true
  · exact ⟨some .fn, false, by intro c cell; cases cell <;> simp only [h1, h2, h3, h4, counter] <;> simp, by intro c; simp only [h1, h2, h3, h4]; simp⟩
  · exact ⟨none, true, by intro c cell; cases cell <;> simp only [h1, h2, h3, h4, counter] <;> simp, by intro c; simp only [h1, h2, h3, h4]; simp⟩

theorem classification_moves (b : Bool) (o s : F) : ∃ v, Moves (fun c => classificationCluster c b o s) v := by
  unfold classificationCluster Moves bump
  cases b
  · by_cases h : flt s o
    · exact ⟨some .fp, by intro c cell; cases cell <;> simp [h, counter]⟩
    · exact ⟨some .tn, by intro c cell; cases cell <;> simp [h, counter]⟩
  · by_cases h : flt s o
    · exact ⟨some .tp, by intro c cell; cases cell <;> simp [h, counter]⟩
    · exact ⟨some .fn, by intro c cell; cases cell <;> simp [h, counter]⟩

/-- What an evaluation does to an object with n labels: the cell of each label and the verdict do not depend on the counters. -/
structure Adds (n : Nat) (e : Ev F) (vs : Nat → Option Cell) (b : Bool) : Prop where
  step : ∀ s : Stats F, s.clusters.length = n → ∃ s', s.evaluateOnce e = .ok s' ∧ s'.clusters.length = n ∧
    (∀ (i : Nat) c c', s.clusters[i]? = some c → s'.clusters[i]? = some c' → ∀ cell,
      counter c' cell = bump (decide (vs i = some cell)) (counter c cell)) ∧
    s'.wellClassified = bump b s.wellClassified ∧ s'.misclassified = bump (!b) s.misclassified

theorem count_eq (s : Stats F) (b : Bool) : (s.count b).wellClassified = bump b s.wellClassified ∧
    (s.count b).misclassified = bump (!b) s.misclassified ∧ (s.count b).clusters = s.clusters := by
  cases b <;> simp [Stats.count, bump]

/-- A loop over the labels whose body moves each label by a fixed cell. -/
theorem loop_moves {n : Nat} {A : Type} (as : List A) (f : Cluster F → A → Cluster F × Bool) (hl : n ≤ as.length)
    (h : ∀ a, ∃ v b, Moves (fun c => (f c a).1) v ∧ ∀ c, (f c a).2 = b) :
    ∃ (vs : Nat → Option Cell) (b : Bool), ∀ cs : List (Cluster F), cs.length = n →
      ((List.zipWith f cs as).map Prod.fst).length = n ∧ (List.zipWith f cs as).all Prod.snd = b ∧
      ∀ (i : Nat) c c', cs[i]? = some c → ((List.zipWith f cs as).map Prod.fst)[i]? = some c' → ∀ cell,
        counter c' cell = bump (decide (vs i = some cell)) (counter c cell) := by
  choose v b hv hb using h
  refine ⟨fun i => match as[i]? with | some a => v a | none => none, (as.take n).all b, ?_⟩
  intro cs hcs
  refine ⟨by simp; omega, ?_, ?_⟩
  · subst hcs
    clear hl
    induction cs generalizing as with
    | nil => simp
    | cons c cs ih =>
      cases as with
      | nil => simp
      | cons a as => simp only [List.zipWith_cons_cons, List.all_cons, List.length_cons, List.take_succ_cons, hb, ih]
  · intro i c c' h1 h2 cell
    rw [List.getElem?_map, List.getElem?_zipWith, h1] at h2
    cases ha : as[i]? with
    | none => rw [ha] at h2; simp at h2
    | some a =>
      rw [ha] at h2
      simp only [Option.map_some, Option.some.injEq] at h2
      subst h2
      simp only [ha]
      exact hv a c cell

theorem adds (n : Nat) (e : Ev F) : (∃ vs b, Adds n e vs b) ∨ ∀ s : Stats F, s.clusters.length = n → ∃ m, s.evaluateOnce e = .ub m := by
  cases e with
  | regression o d p =>
    by_cases h : o.length < n ∨ d.length < n
    · right; intro s hs; exact ⟨_, by simp only [Stats.evaluateOnce, hs, if_pos h]; rfl⟩
    left
    obtain ⟨vs, b, hf⟩ := loop_moves (n := n) (List.zip o d) (fun c od => regressionCluster c od.1 od.2 p) (by simp; omega)
      (fun a => regression_moves _ _ _)
    refine ⟨vs, b, ⟨fun s hs => ⟨_, by simp only [Stats.evaluateOnce, hs, if_neg h]; rfl, ?_, ?_, ?_, ?_⟩⟩⟩
    · rw [(count_eq _ _).2.2]; exact (hf s.clusters hs).1
    · intro i c c' h1 h2; rw [(count_eq _ _).2.2] at h2; exact (hf s.clusters hs).2.2 i c c' h1 h2
    · rw [(count_eq _ _).1, (hf s.clusters hs).2.1]
    · rw [(count_eq _ _).2.1, (hf s.clusters hs).2.1]
  | multiple o d p =>
    by_cases h : o.length < n ∨ d.length < n
    · right; intro s hs; exact ⟨_, by simp only [Stats.evaluateOnce, hs, if_pos h]; rfl⟩
    left
    obtain ⟨vs, b, hf⟩ := loop_moves (n := n) (List.zip o d) (fun c od => multipleCluster c od.1 od.2 p) (by simp; omega)
      (fun a => multiple_moves _ _ _)
    refine ⟨vs, b, ⟨fun s hs => ⟨_, by simp only [Stats.evaluateOnce, hs, if_neg h]; rfl, ?_, ?_, ?_, ?_⟩⟩⟩
    · rw [(count_eq _ _).2.2]; exact (hf s.clusters hs).1
    · intro i c c' h1 h2; rw [(count_eq _ _).2.2] at h2; exact (hf s.clusters hs).2.2 i c c' h1 h2
    · rw [(count_eq _ _).1, (hf s.clusters hs).2.1]
    · rw [(count_eq _ _).2.1, (hf s.clusters hs).2.1]
  | classification o k p =>
    by_cases h : o.length < n
    · right; intro s hs; exact ⟨_, by simp only [Stats.evaluateOnce, hs, if_pos h]; rfl⟩
    left
    choose v hv using fun (b : Bool) (o : F) => classification_moves b o p
    refine ⟨fun i => match o[i]? with | some a => v (decide ((i : Int) = k)) a | none => none, decide (argmaxLoop (o.take n) = k),
      ⟨fun s hs => ⟨_, by simp only [Stats.evaluateOnce, hs, if_neg h]; rfl, ?_, ?_, ?_, ?_⟩⟩⟩
    · rw [(count_eq _ _).2.2]; simp; omega
    · intro i c c' h1 h2 cell
      rw [(count_eq _ _).2.2] at h2
      simp only [List.getElem?_zipWith, List.getElem?_zipIdx, h1, Option.map_some] at h2
      cases ha : o[i]? with
      | none => rw [ha] at h2; simp at h2
      | some a =>
        rw [ha] at h2
        simp only [Option.some.injEq] at h2
        subst h2
        have := hv (decide ((i : Int) = k)) a c cell
        simpa using this
    · rw [(count_eq _ _).1]
    · rw [(count_eq _ _).2.1]

end
end Snn.CountProofs
