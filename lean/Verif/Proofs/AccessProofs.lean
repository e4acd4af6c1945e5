import Verif.Spec.AccessSpec
import Verif.Proofs.AsyncProofs

/-! Lemmas for C91: what the actions of a training read and write. -/

set_option linter.all false

namespace Snn.Access

open Snn Snn.Async Snn.TrainProofs

variable {F : Type} [Flt F] [FTrans F] [Add F] [Sub F] [Mul F] [Div F] [Neg F]

/-! ### Writes -/

theorem getBatched_one {order : List Nat} {rows : List (List F)} {w : Nat} {buf buf' x : List F} {i b : Int} (hb : ¬ 1 < b)
    (h : getBatched order rows w buf i b = .ok (x, buf')) : buf' = buf := by
  unfold getBatched at h
  obtain ⟨k, _, h⟩ := Res.bind_eq_ok.1 h
  rw [if_pos (by omega)] at h
  obtain ⟨row, _, h⟩ := Res.bind_eq_ok.1 h
  cases h; rfl

theorem getTrainingData_one {d d' : Data F} {x : List F} {i b : Int} (hb : ¬ 1 < b) (h : d.getTrainingData i b = .ok (x, d')) : d' = d := by
  unfold Data.getTrainingData at h
  obtain ⟨⟨y, buf⟩, h1, h⟩ := Res.bind_eq_ok.1 h
  cases h
  simp only [getBatched_one hb h1]

theorem getTrainingOutputs_one {d d' : Data F} {x : List F} {i b : Int} (hb : ¬ 1 < b) (h : d.getTrainingOutputs i b = .ok (x, d')) : d' = d := by
  unfold Data.getTrainingOutputs at h
  obtain ⟨⟨y, buf⟩, h1, h⟩ := Res.bind_eq_ok.1 h
  cases h
  simp only [getBatched_one hb h1]

/-- The optimizer draws masks. -/
def isDropout : LayerOpt F → Bool
  | .dropout .. => true
  | _ => false

theorem hook_draws {o : LayerOpt F} (ho : isDropout o = false) (out : List F) (t : Bool) (d e : Draws F) :
    Res.Rel (fun a b => a.1 = b.1 ∧ a.2.1 = b.2.1 ∧ a.2.2 = d ∧ b.2.2 = e) (o.afterOutputForTraining out t d) (o.afterOutputForTraining out t e) := by
  cases o with
  | dropout _ _ _ => cases ho
  | softmax =>
    simp only [LayerOpt.afterOutputForTraining]
    cases computeSoftmax out <;> simp [Res.Rel, Bind.bind, Res.bind]
  | _ => simp [LayerOpt.afterOutputForTraining, Res.Rel]

theorem hooks_draws {t : Bool} : ∀ {os : List (LayerOpt F)} (ho : os.any isDropout = false) (out : List F) (d e : Draws F),
    Res.Rel (fun a b => a.1 = b.1 ∧ a.2.1 = b.2.1 ∧ a.2.2 = d ∧ b.2.2 = e) (trainingHooks t os out d) (trainingHooks t os out e)
  | [], _, out, d, e => by simp [trainingHooks, Res.Rel]
  | o :: os, ho, out, d, e => by
    simp only [List.any_cons, Bool.or_eq_false_iff] at ho
    simp only [trainingHooks]
    refine (hook_draws ho.1 out t d e).bind ?_
    rintro ⟨y, o1, d1⟩ ⟨y', o1', e1⟩ ⟨rfl, rfl, rfl, rfl⟩
    refine (hooks_draws ho.2 y d1 e1).bind ?_
    rintro ⟨z, o2, d2⟩ ⟨z', o2', e2⟩ ⟨rfl, rfl, rfl, rfl⟩
    exact ⟨rfl, rfl, rfl, rfl⟩

theorem layer_draws {l : Layer F} (hl : l.optimizers.any isDropout = false) (x : List F) (t : Bool) (d e : Draws F) :
    Res.Rel (fun a b => a.1 = b.1 ∧ a.2.1 = b.2.1 ∧ a.2.2 = d ∧ b.2.2 = e) (l.outputForTraining x t d) (l.outputForTraining x t e) := by
  simp only [Layer.outputForTraining]
  refine (Res.Rel.eq (β := Unit)).bind ?_
  rintro ⟨out, body⟩ _ rfl
  refine (hooks_draws hl out d e).bind ?_
  rintro ⟨z, o2, d2⟩ ⟨z', o2', e2⟩ ⟨rfl, rfl, rfl, rfl⟩
  exact ⟨rfl, rfl, rfl, rfl⟩

theorem loop_draws {t : Bool} : ∀ {ls : List (Layer F)} (hl : ls.any (fun l => l.optimizers.any isDropout) = false) (x : List F) (d e : Draws F),
    Res.Rel (fun a b => a.1 = b.1 ∧ a.2.1 = b.2.1 ∧ a.2.2 = d ∧ b.2.2 = e) (trainingLoop t ls x d) (trainingLoop t ls x e)
  | [], _, x, d, e => by simp [trainingLoop, Res.Rel]
  | l :: ls, hl, x, d, e => by
    simp only [List.any_cons, Bool.or_eq_false_iff] at hl
    simp only [trainingLoop]
    refine (layer_draws hl.1 x t d e).bind ?_
    rintro ⟨y, o1, d1⟩ ⟨y', o1', e1⟩ ⟨rfl, rfl, rfl, rfl⟩
    refine (loop_draws hl.2 y d1 e1).bind ?_
    rintro ⟨z, o2, d2⟩ ⟨z', o2', e2⟩ ⟨rfl, rfl, rfl, rfl⟩
    exact ⟨rfl, rfl, rfl, rfl⟩

theorem drawsMasks_eq (r : Run F) : drawsMasks r = r.snn.net.layers.any (fun l => l.optimizers.any isDropout) := rfl

/-- The networks agree on what a training step reads. -/
structure Alike (n m : Net F) : Prop where
  layers : m.layers = n.layers
  number : m.numberOfTraining = n.numberOfTraining
  nan : m.outputNan = n.outputNan
  optimizer : m.optimizer = n.optimizer

/-- `outputForTraining` on two networks that may differ in their statistics, with draws that may differ when no mask is drawn. -/
theorem forward_alike {n m : Net F} (h : Alike n m) (x : List F) (t : Bool) {d e : Draws F}
    (hd : e = d ∨ n.layers.any (fun l => l.optimizers.any isDropout) = false) :
    Res.Rel (fun a b => a.1 = b.1 ∧ Alike a.2.1 b.2.1 ∧ ((n.layers.any (fun l => l.optimizers.any isDropout) = false → a.2.2 = d ∧ b.2.2 = e) ∧ (e = d → a.2.2 = b.2.2)))
      (n.outputForTraining x t d) (m.outputForTraining x t e) := by
  simp only [Net.outputForTraining, h.layers]
  split
  · rfl
  · by_cases hm : n.layers.any (fun l => l.optimizers.any isDropout) = false
    · refine (loop_draws hm x d e).bind ?_
      rintro ⟨z, ls, d2⟩ ⟨z', ls', e2⟩ ⟨rfl, rfl, rfl, rfl⟩
      exact ⟨rfl, ⟨rfl, h.number, by simp [h.nan], h.optimizer⟩, fun _ => ⟨rfl, rfl⟩, fun h => h.symm⟩
    · obtain rfl : e = d := by
        rcases hd with hd | hd
        · exact hd
        · exact absurd hd hm
      refine (Res.Rel.eq (β := Unit)).bind ?_
      rintro ⟨z, ls, d2⟩ _ rfl
      exact ⟨rfl, ⟨rfl, h.number, by simp [h.nan], h.optimizer⟩, fun h => absurd h hm, fun _ => rfl⟩

theorem trainOnce_alike {n m : Net F} (h : Alike n m) (x y : List F) (t : Bool) {d e : Draws F}
    (hd : e = d ∨ n.layers.any (fun l => l.optimizers.any isDropout) = false) :
    Res.Rel (fun a b => Alike a.1 b.1 ∧ ((n.layers.any (fun l => l.optimizers.any isDropout) = false → a.2 = d ∧ b.2 = e) ∧ (e = d → a.2 = b.2)))
      (n.trainOnce x y t d) (m.trainOnce x y t e) := by
  simp only [Net.trainOnce, Net.backpropagation]
  refine Res.Rel.bind (R := fun a b => Alike a.1 b.1 ∧ ((n.layers.any (fun l => l.optimizers.any isDropout) = false → a.2 = d ∧ b.2 = e) ∧ (e = d → a.2 = b.2))) ?_ ?_
  · refine (forward_alike h x t hd).bind ?_
    rintro ⟨out, n1, d1⟩ ⟨out', m1, e1⟩ ⟨rfl, ha, hde⟩
    have ha : Alike n1 m1 := ha
    simp only [ha.nan, Net.calculateError, ha.layers]
    split
    · exact ⟨ha, hde⟩
    · refine (Res.Rel.eq (β := Unit)).bind ?_
      rintro errs _ rfl
      refine (Res.Rel.eq (β := Unit)).bind ?_
      rintro ls _ rfl
      exact ⟨⟨rfl, ha.number, rfl, ha.optimizer⟩, hde⟩
  · rintro ⟨n1, d1⟩ ⟨m1, e1⟩ ⟨ha, hde⟩
    exact ⟨⟨ha.layers, by simp only at ha; simp [ha.number], ha.nan, ha.optimizer⟩, hde⟩

theorem output_alike {n m : Net F} (h : Alike n m) (x : List F) (t : Bool) :
    Res.Rel (fun a b => a.1 = b.1 ∧ Alike a.2 b.2 ∧ a.2.stats = n.stats ∧ b.2.stats = m.stats) (n.output x t) (m.output x t) := by
  simp only [Net.output, h.layers]
  split
  · rfl
  · refine (Res.Rel.eq (β := Unit)).bind ?_
    rintro ⟨z, ls⟩ _ rfl
    exact ⟨rfl, ⟨rfl, h.number, by simp [h.nan], h.optimizer⟩, rfl, rfl⟩

end Snn.Access
