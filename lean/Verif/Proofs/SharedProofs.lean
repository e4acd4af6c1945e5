import Verif.Spec.SharedSpec
import Verif.Proofs.BoundedRun
import Verif.Proofs.SafeProofs

/-! # A data object used by several networks: the data after a call, and calls on data that differ only by their buffers -/

set_option linter.all false

namespace Snn.Shared

open Snn.Spec Snn.HistoryProps Snn.TrainProofs

variable {F : Type} [Flt F] [FTrans F] [Add F] [Sub F] [Mul F] [Div F] [Neg F]

/-! ### What a call leaves in the data -/

theorem evaluate_data {env : Env F} {r r' : Run F} (h : r.evaluate env = .ok r') : r'.data = r.data := by
  unfold Run.evaluate at h
  obtain ⟨⟨st, s⟩, _, h⟩ := Res.bind_eq_ok.1 h
  simp only at h
  split at h
  · cases h; rfl
  · split at h
    · cases h; rfl
    · cases h; rfl

theorem trainStep_data {env : Env F} {b : Int} {r r' : Run F} {ret : Bool} (h : r.trainStep env b = .ok (ret, r')) : SameButBuffers r.data r'.data := by
  unfold Run.trainStep at h
  simp only at h
  split at h
  · cases h; exact .refl _
  · obtain ⟨need, _, h⟩ := Res.bind_eq_ok.1 h
    obtain ⟨⟨x, d1⟩, h1, h⟩ := Res.bind_eq_ok.1 h
    obtain ⟨first, _, h⟩ := Res.bind_eq_ok.1 h
    have e1 := getTrainingData_same h1
    split at h
    · obtain ⟨⟨y, d2⟩, h2, h⟩ := Res.bind_eq_ok.1 h
      have e2 := getTrainingOutputs_same h2
      obtain ⟨⟨n, dr⟩, _, h⟩ := Res.bind_eq_ok.1 h
      cases h
      exact e1.trans e2
    · obtain ⟨⟨o, n, dr⟩, _, h⟩ := Res.bind_eq_ok.1 h
      cases h
      exact e1

/-- What shuffling and filling the buffers keep is kept by every use. -/
theorem uses_induct {P : Data F → Prop} (hs : ∀ (d d' : Data F) (g : Rng), P d → d.shuffle g = .ok d' → P d')
    (hb : ∀ d d' : Data F, P d → SameButBuffers d d' → P d') {d d' : Data F} (h : Uses d d') (h0 : P d) : P d' := by
  induction h with
  | none => exact h0
  | evaluate r r' env h hu ih =>
    exact ih (by rw [evaluate_data h]; exact h0)
  | train r r' env wait b ef fuel h hu ih =>
    refine ih ?_
    exact Bounded.train_induct_data (P := fun _ d => P d) (fun _ d d' g hp he => hs d d' g hp he)
      (fun q q' ret hp he => hb _ _ hp (trainStep_data he)) (fun q q' hp he => by rw [evaluate_data he]; exact hp) h0 h

theorem frame_trans {a b c : Data F} (h : Frame a b) (k : Frame b c) : Frame a c :=
  ⟨k.problem.trans h.problem, k.temporal.trans h.temporal, k.recur.trans h.recur, k.precision.trans h.precision, k.separator.trans h.separator,
    k.sizeOfData.trans h.sizeOfData, k.numberOfLabels.trans h.numberOfLabels, k.size.trans h.size, k.inputs.trans h.inputs, k.labels.trans h.labels,
    k.testing.trans h.testing⟩

theorem uses_frame {d d' : Data F} (h : Uses d d') : Frame d d' :=
  uses_induct (P := fun d' => Frame d d') (fun _ _ _ hp he => frame_trans hp (shuffle_frame he)) (fun _ _ hp hb => frame_trans hp hb.frame) h (.refl d)

/-! ### Evaluations depend only on the testing set -/

theorem evaluateOnce_frame' {d d' : Data F} (h : Frame d d') (s : Snn F) : s.evaluateOnce d' = s.evaluateOnce d := by
  unfold Snn.evaluateOnce Data.getTestingData Data.isFirstTesting Data.getTestingLabel Data.getSeparator Data.getTestingOutputs Data.getPrecision
  rw [h.problem, h.temporal, h.testing, h.separator, h.precision]

theorem evaluateLoop_frame' {d d' : Data F} (h : Frame d d') (nan : F) : ∀ (k : Nat) (s : Snn F), evaluateLoop nan d' k s = evaluateLoop nan d k s
  | 0, s => rfl
  | k + 1, s => by
    have e1 : ∀ i, d'.needToEvaluate i = d.needToEvaluate i := by
      intro i
      unfold Data.needToEvaluate
      rw [h.temporal, h.testing]
    have e2 : ∀ i, d'.getTestingData i = d.getTestingData i := by
      intro i
      unfold Data.getTestingData
      rw [h.testing]
    have e3 : ∀ i, d'.isFirstTesting i = d.isFirstTesting i := by
      intro i
      unfold Data.isFirstTesting
      rw [h.temporal, h.testing]
    unfold evaluateLoop
    simp only [e1, e2, e3, evaluateOnce_frame' h, evaluateLoop_frame' h nan k]

/-- The two runs have the same network, draws, clock and events. -/
def Like (a b : Run F) : Prop := a.snn = b.snn ∧ a.draws = b.draws ∧ a.ticks = b.ticks ∧ a.trace = b.trace

theorem evaluate_like {env : Env F} {a b : Run F} (h : Like a b) (hf : Frame b.data a.data) :
    Res.Rel (fun x y => Like x y ∧ x.data = a.data ∧ y.data = b.data) (a.evaluate env) (b.evaluate env) := by
  obtain ⟨sa, da, xa, ka, ta⟩ := a
  obtain ⟨sb, db, xb, kb, tb⟩ := b
  obtain ⟨h1, h2, h3, h4⟩ := h
  dsimp only at h1 h2 h3 h4 hf
  subst h1 h2 h3 h4
  unfold Run.evaluate
  dsimp only
  rw [evaluateLoop_frame' hf, hf.testing]
  refine Res.Rel.bind (R := fun a b => a = b) (Res.Rel.eq (β := Bool × Snn F)) ?_
  rintro ⟨st, s⟩ _ rfl
  dsimp only
  split
  · exact ⟨⟨rfl, rfl, rfl, rfl⟩, rfl, rfl⟩
  · split
    · exact ⟨⟨rfl, rfl, rfl, rfl⟩, rfl, rfl⟩
    · exact ⟨⟨rfl, rfl, rfl, rfl⟩, rfl, rfl⟩

/-! ### Trainings on data that differ only by the buffers -/

/-- The examples have the sizes of the data. -/
structure Rect (d : Data F) : Prop where
  inputs : ∀ x ∈ d.training.inputs, x.length = d.sizeOfData
  labels : ∀ x ∈ d.training.labels, x.length = d.numberOfLabels

theorem Rect.of_frame {d d' : Data F} (h : Rect d) (hf : Frame d d') : Rect d' :=
  ⟨by rw [hf.inputs, hf.sizeOfData]; exact h.inputs, by rw [hf.labels, hf.numberOfLabels]; exact h.labels⟩

theorem rd_mem' {α : Type} {l : List α} {i : Int} {x : α} (h : rd l i = .ok x) : x ∈ l := by
  obtain ⟨_, h⟩ := rd_eq_ok.1 h
  exact List.mem_of_getElem? h

theorem transformPlus_full {a b out out' : List F} (h : a.length = b.length) (h1 : out.length = a.length) (h2 : out'.length = a.length) :
    transformPlus a b out = transformPlus a b out' := by
  unfold transformPlus
  have : (List.zipWith (· + ·) a b).length = a.length := by simp [h]
  dsimp only
  rw [List.drop_eq_nil_of_le (by omega), List.drop_eq_nil_of_le (by omega), h1, h2]

theorem getBatched_buf {order : List Nat} {rows : List (List F)} {w : Nat} (hr : ∀ x ∈ rows, x.length = w) (b1 b2 : List F) (i b : Int) :
    Res.Rel (fun x y => x.1 = y.1) (getBatched order rows w b1 i b) (getBatched order rows w b2 i b) := by
  unfold getBatched
  refine Res.Rel.bind (R := fun a b => a = b) (Res.Rel.eq (β := Nat)) ?_
  rintro k _ rfl
  split
  · refine Res.Rel.bind (R := fun a b => a = b) (Res.Rel.eq (β := List F)) ?_
    rintro x _ rfl
    exact rfl
  · dsimp only
    cases h0 : rd rows (k : Int) with
    | ub m => simp [Res.Rel]
    | throw m => simp [Res.Rel]
    | ok d0 =>
      simp only [Res.ok_bind]
      refine Res.Rel.bind (R := fun a b => a = b) (Res.Rel.eq (β := Nat)) ?_
      rintro k1 _ rfl
      cases h1 : rd rows (k1 : Int) with
      | ub m => simp [Res.Rel]
      | throw m => simp [Res.Rel]
      | ok d1 =>
        simp only [Res.ok_bind]
        have l0 := hr _ (rd_mem' h0)
        have l1 := hr _ (rd_mem' h1)
        rw [transformPlus_full (out' := b2.take w ++ List.replicate (w - b2.length) (lit 0)) (by omega) (by simp; omega) (by simp; omega)]
        refine Res.Rel.bind (R := fun a b => a = b) (Res.Rel.eq (β := List F)) ?_
        rintro x _ rfl
        refine Res.Rel.bind (R := fun a b => a = b) (Res.Rel.eq (β := List F)) ?_
        rintro y _ rfl
        exact rfl

theorem getTrainingData_like {d : Data F} (hr : Rect d) (b1 b2 : List F) (i b : Int) :
    Res.Rel (fun x y => x.1 = y.1 ∧ SameButBuffers d x.2 ∧ SameButBuffers d y.2)
      (({ d with batchedData := b1, batchedLabels := b2 } : Data F).getTrainingData i b) (d.getTrainingData i b) := by
  unfold Data.getTrainingData
  refine Res.Rel.bind (getBatched_buf hr.inputs b1 d.batchedData i b) ?_
  rintro ⟨x, p⟩ ⟨y, q⟩ h
  exact ⟨h, ⟨p, b2, rfl⟩, ⟨q, d.batchedLabels, rfl⟩⟩

theorem getTrainingOutputs_like {d : Data F} (hr : Rect d) (b1 b2 : List F) (i b : Int) :
    Res.Rel (fun x y => x.1 = y.1 ∧ SameButBuffers d x.2 ∧ SameButBuffers d y.2)
      (({ d with batchedData := b1, batchedLabels := b2 } : Data F).getTrainingOutputs i b) (d.getTrainingOutputs i b) := by
  unfold Data.getTrainingOutputs
  refine Res.Rel.bind (getBatched_buf hr.labels b2 d.batchedLabels i b) ?_
  rintro ⟨x, p⟩ ⟨y, q⟩ h
  exact ⟨h, ⟨b1, p, rfl⟩, ⟨d.batchedData, q, rfl⟩⟩

/-- Two states of the same network with data that differ only by the buffers. -/
structure Pair (a b : Run F) : Prop where
  like : Like a b
  data : SameButBuffers b.data a.data
  rect : Rect b.data

theorem SameButBuffers.symm {a b : Data F} (h : SameButBuffers a b) : SameButBuffers b a := by
  obtain ⟨b1, b2, rfl⟩ := h
  exact ⟨a.batchedData, a.batchedLabels, rfl⟩

theorem Pair.cast {a b : Run F} (h : Pair a b) {s : Snn F} {dr : Draws F} {k : Nat} {t : List (Event F)} {d1 d2 : Data F} (h1 : SameButBuffers b.data d1)
    (h2 : SameButBuffers b.data d2) : Pair (⟨s, d1, dr, k, t⟩ : Run F) ⟨s, d2, dr, k, t⟩ :=
  ⟨⟨rfl, rfl, rfl, rfl⟩, (SameButBuffers.symm h2).trans h1, h.rect.of_frame h2.frame⟩

theorem Pair.mk' {a b : Run F} (h : Pair a b) : ∃ s dr k t d b1 b2, b = ⟨s, d, dr, k, t⟩ ∧ a = ⟨s, { d with batchedData := b1, batchedLabels := b2 }, dr, k, t⟩ ∧ Rect d := by
  obtain ⟨⟨h1, h2, h3, h4⟩, ⟨b1, b2, h5⟩, h6⟩ := h
  obtain ⟨sa, da, xa, ka, ta⟩ := a
  obtain ⟨sb, db, xb, kb, tb⟩ := b
  dsimp only at h1 h2 h3 h4 h5 h6
  subst h1 h2 h3 h4 h5
  exact ⟨_, _, _, _, _, b1, b2, rfl, rfl, h6⟩

theorem trainStep_pair {env : Env F} {b : Int} {r q : Run F} (h : Pair r q) :
    Res.Rel (fun x y => x.1 = y.1 ∧ Pair x.2 y.2) (r.trainStep env b) (q.trainStep env b) := by
  obtain ⟨s, dr, k, t, d, b1, b2, rfl, rfl, hr⟩ := h.mk'
  unfold Run.trainStep
  dsimp only
  split
  · exact ⟨rfl, h.cast ⟨b1, b2, rfl⟩ (.refl _)⟩
  · refine Res.Rel.bind (R := fun a b => a = b) (Res.Rel.eq (β := Bool)) ?_
    rintro need _ rfl
    refine Res.Rel.bind (getTrainingData_like hr b1 b2 s.index b) ?_
    rintro ⟨x, d1⟩ ⟨_, d2⟩ ⟨rfl, e1, e2⟩
    dsimp only at e1 e2 ⊢
    rw [isFirst_buf e1, isFirst_buf e2]
    refine Res.Rel.bind (R := fun a b => a = b) (Res.Rel.eq (β := Bool)) ?_
    rintro first _ rfl
    split
    · obtain ⟨p1, p2, e3⟩ := (SameButBuffers.symm e2).trans e1
      rw [e3]
      refine Res.Rel.bind (getTrainingOutputs_like (hr.of_frame e2.frame) p1 p2 s.index b) ?_
      rintro ⟨y, d3⟩ ⟨_, d4⟩ ⟨rfl, e4, e5⟩
      dsimp only at e4 e5 ⊢
      refine Res.Rel.bind (R := fun a b => a = b) (Res.Rel.eq (β := Net F × Draws F)) ?_
      rintro ⟨n, dr'⟩ _ rfl
      exact ⟨rfl, h.cast (e2.trans e4) (e2.trans e5)⟩
    · refine Res.Rel.bind (R := fun a b => a = b) (Res.Rel.eq (β := List F × Net F × Draws F)) ?_
      rintro ⟨o, n, dr'⟩ _ rfl
      exact ⟨rfl, h.cast e1 e2⟩

theorem continue_pair {env : Env F} {wait : Wait F} {r q : Run F} (h : Pair r q) :
    (r.continueTraining env wait).1 = (q.continueTraining env wait).1 ∧ Pair (r.continueTraining env wait).2 (q.continueTraining env wait).2 := by
  obtain ⟨s, dr, k, t, d, b1, b2, rfl, rfl, hr⟩ := h.mk'
  exact ⟨rfl, h.cast ⟨b1, b2, rfl⟩ (.refl _)⟩

/-- Changing the network of both. -/
theorem Pair.withSnn {a b : Run F} (h : Pair a b) (f : Snn F → Snn F) : Pair { a with snn := f a.snn } { b with snn := f b.snn } :=
  ⟨⟨by rw [h.like.1], h.like.2.1, h.like.2.2.1, h.like.2.2.2⟩, h.data, h.rect⟩

theorem stepLoop_pair {env : Env F} {wait : Wait F} {b : Int} : ∀ (fuel : Nat) {r q : Run F}, Pair r q →
    Res.Rel (fun x y => x.1 = y.1 ∧ Pair x.2 y.2) (stepLoop env wait b fuel r) (stepLoop env wait b fuel q)
  | 0, r, q, h => by simp [stepLoop, Res.Rel]
  | fuel + 1, r, q, h => by
    obtain ⟨c1, c2⟩ := continue_pair (env := env) (wait := wait) h
    unfold stepLoop
    rw [h.like.1]
    split
    · simp only [c1]
      split
      · refine Res.Rel.bind (trainStep_pair c2) ?_
        rintro ⟨x, r2⟩ ⟨_, q2⟩ ⟨rfl, h2⟩
        dsimp only at h2 ⊢
        split
        · exact ⟨rfl, h2⟩
        · exact stepLoop_pair fuel (h2.withSnn fun s => { s with index := s.index + b })
      · exact ⟨rfl, c2⟩
    · exact ⟨rfl, h⟩

theorem shuffle_buf (d : Data F) (b1 b2 : List F) (g : Rng) :
    Res.Rel (fun x y => SameButBuffers y x) (({ d with batchedData := b1, batchedLabels := b2 } : Data F).shuffle g) (d.shuffle g) := by
  unfold Data.shuffle
  dsimp only
  cases d.typeOfTemporal with
  | nonTemporal => exact ⟨b1, b2, rfl⟩
  | sequential =>
    dsimp only
    refine Res.Rel.bind (R := fun a b => a = b) (Res.Rel.eq (β := List Nat)) ?_
    rintro o _ rfl
    exact ⟨b1, b2, rfl⟩
  | timeSeries =>
    dsimp only
    refine Res.Rel.bind (R := fun a b => a = b) (Res.Rel.eq (β := List Bool)) ?_
    rintro o _ rfl
    refine Res.Rel.bind (R := fun a b => a = b) (Res.Rel.eq (β := TsState)) ?_
    rintro o1 _ rfl
    refine Res.Rel.bind (R := fun a b => a = b) (Res.Rel.eq (β := List Bool)) ?_
    rintro o2 _ rfl
    refine Res.Rel.bind (R := fun a b => a = b) (Res.Rel.eq (β := TsState)) ?_
    rintro o3 _ rfl
    exact ⟨b1, b2, rfl⟩

theorem evaluate_pair {env : Env F} {r q : Run F} (h : Pair r q) : Res.Rel Pair (r.evaluate env) (q.evaluate env) := by
  have := evaluate_like (env := env) h.like h.data.frame
  revert this
  cases r.evaluate env <;> cases q.evaluate env <;> simp only [Res.Rel] <;> intro k
  · obtain ⟨k1, k2, k3⟩ := k
    exact ⟨k1, by rw [k2, k3]; exact h.data, by rw [k3]; exact h.rect⟩
  all_goals exact k

theorem epochBody_pair {env : Env F} {wait : Wait F} {b ef : Int} {fuel : Nat} {r q : Run F} (h : Pair r q) :
    Res.Rel (fun x y => x.1 = y.1 ∧ Pair x.2 y.2) (r.epochBody env wait b ef fuel) (q.epochBody env wait b ef fuel) := by
  obtain ⟨s, dr, k, t, d, b1, b2, rfl, rfl, hr⟩ := h.mk'
  unfold Run.epochBody
  dsimp only
  cases hs : d.shuffle (env.rng s.epoch) with
  | ub m =>
    have := shuffle_buf d b1 b2 (env.rng s.epoch)
    rw [hs] at this
    revert this
    cases ({ d with batchedData := b1, batchedLabels := b2 } : Data F).shuffle (env.rng s.epoch) <;> simp [Res.Rel]
  | throw m =>
    have := shuffle_buf d b1 b2 (env.rng s.epoch)
    rw [hs] at this
    revert this
    cases ({ d with batchedData := b1, batchedLabels := b2 } : Data F).shuffle (env.rng s.epoch) <;> simp [Res.Rel]
  | ok d2 =>
    rw [← hs]
    refine Res.Rel.bind (R := fun x y => SameButBuffers y x ∧ y = d2) ?_ ?_
    · have := shuffle_buf d b1 b2 (env.rng s.epoch)
      rw [hs] at this ⊢
      revert this
      cases ({ d with batchedData := b1, batchedLabels := b2 } : Data F).shuffle (env.rng s.epoch) <;> simp [Res.Rel]
    · rintro d1 d2 ⟨e1, rfl⟩
      have hp : Pair (⟨{ s with index := 0 }, d1, dr, k, .shuffled :: t⟩ : Run F) ⟨{ s with index := 0 }, d2, dr, k, .shuffled :: t⟩ :=
        ⟨⟨rfl, rfl, rfl, rfl⟩, e1, hr.of_frame (shuffle_frame hs)⟩
      refine Res.Rel.bind (stepLoop_pair fuel hp) ?_
      rintro ⟨x, r2⟩ ⟨_, q2⟩ ⟨rfl, h2⟩
      dsimp only at h2 ⊢
      split
      · exact ⟨rfl, h2⟩
      · rw [h2.like.1]
        split
        · refine Res.Rel.bind (evaluate_pair h2) ?_
          intro r3 q3 h3
          exact ⟨rfl, h3⟩
        · exact ⟨rfl, h2⟩

theorem epochLoop_pair {env : Env F} {wait : Wait F} {b ef : Int} {inner : Nat} : ∀ (fuel : Nat) {r q : Run F}, Pair r q →
    Res.Rel (fun x y => x.1 = y.1 ∧ Pair x.2 y.2) (epochLoop env wait b ef inner fuel r) (epochLoop env wait b ef inner fuel q)
  | 0, r, q, h => by simp [epochLoop, Res.Rel]
  | fuel + 1, r, q, h => by
    obtain ⟨c1, c2⟩ := continue_pair (env := env) (wait := wait) h
    unfold epochLoop
    simp only [c1]
    split
    · refine Res.Rel.bind (epochBody_pair c2) ?_
      rintro ⟨x, r2⟩ ⟨_, q2⟩ ⟨rfl, h2⟩
      dsimp only at h2 ⊢
      split
      · exact ⟨rfl, h2⟩
      · exact epochLoop_pair fuel (h2.withSnn fun s => { s with epoch := s.epoch + 1 })
    · exact ⟨rfl, c2⟩

/-- A training on data that differ only by their buffers is the same. -/
theorem train_pair {env : Env F} {wait : Wait F} {b ef : Int} {fuel : Nat} {r q : Run F} (h : Pair r q) :
    Res.Rel Pair (r.train env wait b ef fuel) (q.train env wait b ef fuel) := by
  obtain ⟨s, dr, k, t, d, b1, b2, rfl, rfl, hr⟩ := h.mk'
  unfold Run.train
  refine Res.Rel.bind (R := fun a b => a = b) (Res.Rel.eq (β := Unit)) ?_
  rintro u _ rfl
  dsimp only
  split
  · exact rfl
  · unfold Run.trainSync
    have h1 : Pair (Run.begin ⟨{ s with wantToStopTraining := true }, { d with batchedData := b1, batchedLabels := b2 }, dr, k, t⟩)
        (Run.begin ⟨{ s with wantToStopTraining := true }, d, dr, k, t⟩) := h.cast ⟨b1, b2, rfl⟩ (.refl _)
    have h2 : Res.Rel Pair (if ef > 0 then (Run.begin ⟨{ s with wantToStopTraining := true }, { d with batchedData := b1, batchedLabels := b2 }, dr, k, t⟩).evaluate env
        else .ok (Run.begin ⟨{ s with wantToStopTraining := true }, { d with batchedData := b1, batchedLabels := b2 }, dr, k, t⟩))
        (if ef > 0 then (Run.begin ⟨{ s with wantToStopTraining := true }, d, dr, k, t⟩).evaluate env
        else .ok (Run.begin ⟨{ s with wantToStopTraining := true }, d, dr, k, t⟩)) := by
      split
      · exact evaluate_pair h1
      · exact h1
    refine Res.Rel.bind h2 ?_
    intro r1 q1 h3
    refine Res.Rel.bind (epochLoop_pair fuel (h3.withSnn fun s => { s with epoch := 1 })) ?_
    rintro ⟨x, r2⟩ ⟨_, q2⟩ ⟨rfl, h4⟩
    dsimp only at h4 ⊢
    split
    · exact h4
    · exact h4.withSnn fun s => s.resetTrainingValues

end Snn.Shared
