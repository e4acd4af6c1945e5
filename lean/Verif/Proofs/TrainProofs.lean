import Verif.Spec.TrainSpec
import Verif.Proofs.SameProofs
import Verif.Proofs.DataProofs
import Mathlib.Tactic.Linarith
import Mathlib.Tactic.Ring

/-! Proofs about the training loop. -/

set_option linter.all false

namespace Snn.TrainProofs

open Snn.TrainSpec

section
variable {F : Type}

@[simp] theorem steps_append (a b : List (Event F)) : steps (a ++ b) = steps b ++ steps a := by
  simp [steps]
@[simp] theorem evaluations_append (a b : List (Event F)) : evaluations (a ++ b) = evaluations b ++ evaluations a := by
  simp [evaluations]
@[simp] theorem saves_append (a b : List (Event F)) : saves (a ++ b) = saves b ++ saves a := by
  simp [saves]
@[simp] theorem trainedCount_append (a b : List (Event F)) : trainedCount (a ++ b) = trainedCount a + trainedCount b := by
  simp [trainedCount]

theorem shuffle_frame {d d' : Data F} {r : Rng} (h : d.shuffle r = .ok d') : Frame d d' := by
  unfold Data.shuffle at h
  split at h
  · cases h; constructor <;> rfl
  · obtain ⟨order, _, h⟩ := Res.bind_eq_ok.1 h
    cases h; constructor <;> rfl
  · obtain ⟨_, _, h⟩ := Res.bind_eq_ok.1 h
    obtain ⟨_, _, h⟩ := Res.bind_eq_ok.1 h
    obtain ⟨_, _, h⟩ := Res.bind_eq_ok.1 h
    obtain ⟨_, _, h⟩ := Res.bind_eq_ok.1 h
    cases h; constructor <;> rfl

variable [Flt F] [FTrans F] [Add F] [Sub F] [Mul F] [Div F] [Neg F]

/-- Two `Data` objects that differ only by the content of the two batch buffers. -/
def SameButBuffers (ds d : Data F) : Prop := ∃ b1 b2, d = { ds with batchedData := b1, batchedLabels := b2 }

theorem SameButBuffers.refl (d : Data F) : SameButBuffers d d := ⟨d.batchedData, d.batchedLabels, rfl⟩
theorem SameButBuffers.trans {a b c : Data F} (h : SameButBuffers a b) (k : SameButBuffers b c) : SameButBuffers a c := by
  obtain ⟨b1, b2, rfl⟩ := h
  obtain ⟨c1, c2, rfl⟩ := k
  exact ⟨c1, c2, rfl⟩
theorem SameButBuffers.frame {a b : Data F} (h : SameButBuffers a b) : Frame a b := by
  obtain ⟨b1, b2, rfl⟩ := h
  constructor <;> rfl

theorem getTrainingData_same {d d' : Data F} {i b : Int} {x : List F} (h : d.getTrainingData i b = .ok (x, d')) :
    SameButBuffers d d' := by
  unfold Data.getTrainingData at h
  obtain ⟨⟨x1, b1⟩, _, h⟩ := Res.bind_eq_ok.1 h
  cases h
  exact ⟨b1, d.batchedLabels, rfl⟩

theorem getTrainingOutputs_same {d d' : Data F} {i b : Int} {x : List F} (h : d.getTrainingOutputs i b = .ok (x, d')) :
    SameButBuffers d d' := by
  unfold Data.getTrainingOutputs at h
  obtain ⟨⟨x1, b1⟩, _, h⟩ := Res.bind_eq_ok.1 h
  cases h
  exact ⟨d.batchedData, b1, rfl⟩

theorem getTrainingData_buf {ds d d' : Data F} {p b : Int} {x : List F} (h : SameButBuffers ds d)
    (hx : d.getTrainingData p b = .ok (x, d')) : ∃ buf, (·.1) <$> ({ ds with batchedData := buf }).getTrainingData p b = .ok x := by
  obtain ⟨b1, b2, rfl⟩ := h
  refine ⟨b1, ?_⟩
  unfold Data.getTrainingData at hx ⊢
  obtain ⟨⟨x1, b1⟩, h1, hx⟩ := Res.bind_eq_ok.1 hx
  cases hx
  simp only at h1 ⊢
  rw [h1]; rfl

theorem getTrainingOutputs_buf {ds d d' : Data F} {p b : Int} {x : List F} (h : SameButBuffers ds d)
    (hx : d.getTrainingOutputs p b = .ok (x, d')) :
    ∃ buf, (·.1) <$> ({ ds with batchedLabels := buf }).getTrainingOutputs p b = .ok x := by
  obtain ⟨b1, b2, rfl⟩ := h
  refine ⟨b2, ?_⟩
  unfold Data.getTrainingOutputs at hx ⊢
  obtain ⟨⟨x1, b1⟩, h1, hx⟩ := Res.bind_eq_ok.1 hx
  cases hx
  simp only at h1 ⊢
  rw [h1]; rfl

theorem isFirst_buf {ds d : Data F} (h : SameButBuffers ds d) (p : Int) : d.isFirstTraining p = ds.isFirstTraining p := by
  obtain ⟨b1, b2, rfl⟩ := h; rfl
theorem needToLearn_buf {ds d : Data F} (h : SameButBuffers ds d) (p : Int) : d.needToLearn p = ds.needToLearn p := by
  obtain ⟨b1, b2, rfl⟩ := h; rfl

/-! ### Network -/

theorem outputForTraining_frame {n n' : Net F} {x out : List F} {t : Bool} {d d' : Draws F}
    (h : n.outputForTraining x t d = .ok (out, n', d')) :
    n'.stats = n.stats ∧ n'.numberOfTraining = n.numberOfTraining ∧ n'.optimizer = n.optimizer ∧
    n'.outputNan = (n.outputNan || hasBadValue out) := by
  unfold Net.outputForTraining at h
  split at h
  · cases h
  · obtain ⟨⟨o, ls, d1⟩, _, h⟩ := Res.bind_eq_ok.1 h
    cases h
    exact ⟨rfl, rfl, rfl, rfl⟩

theorem trainOnce_frame {n n' : Net F} {x y : List F} {t : Bool} {d d' : Draws F}
    (h : n.trainOnce x y t d = .ok (n', d')) :
    n'.stats = n.stats ∧ n'.numberOfTraining = n.numberOfTraining + 1 ∧ n'.optimizer = n.optimizer ∧
    (n.outputNan = true → n'.outputNan = true) := by
  unfold Net.trainOnce at h
  obtain ⟨⟨n1, d1⟩, h1, h⟩ := Res.bind_eq_ok.1 h
  cases h
  unfold Net.backpropagation at h1
  obtain ⟨⟨out, n2, d2⟩, h2, h1⟩ := Res.bind_eq_ok.1 h1
  obtain ⟨a, b, c, e⟩ := outputForTraining_frame h2
  simp only [] at h1
  split at h1
  · cases h1
    exact ⟨a, by rw [b], c, fun h => by simp [e, h]⟩
  · obtain ⟨errs, _, h1⟩ := Res.bind_eq_ok.1 h1
    obtain ⟨ls, _, h1⟩ := Res.bind_eq_ok.1 h1
    cases h1
    exact ⟨a, by simp [b], c, fun h => by simp [e, h]⟩

/-! ### One step -/

/-- What one training step does. -/
structure StepOut (b : Int) (ds : Data F) (r r' : Run F) : Prop where
  snn : ∃ net, r'.snn = { r.snn with net := net } ∧ net.stats = r.snn.net.stats ∧ net.optimizer = r.snn.net.optimizer ∧
    (r.snn.net.outputNan = true → net.outputNan = true) ∧
    ∃ ev, r'.trace = ev :: r.trace ∧ mark ev = some (some r.snn.index) ∧ Reads b ds ev ∧
      net.numberOfTraining = r.snn.net.numberOfTraining + trainedCount [ev]
  data : SameButBuffers ds r'.data
  ticks : r'.ticks = r.ticks

theorem trainStep_spec {env : Env F} {b : Int} {r r' : Run F} {ret : Bool} {ds : Data F} (hd : SameButBuffers ds r.data)
    (hn : r.snn.net.outputNan = false) (h : r.trainStep env b = .ok (ret, r')) : ret = false ∧ StepOut b ds r r' := by
  unfold Run.trainStep at h
  simp only [hn, Bool.false_eq_true, if_false] at h
  obtain ⟨need, hneed, h⟩ := Res.bind_eq_ok.1 h
  obtain ⟨⟨x, data1⟩, hx, h⟩ := Res.bind_eq_ok.1 h
  obtain ⟨first, hf, h⟩ := Res.bind_eq_ok.1 h
  have s1 := hd.trans (getTrainingData_same hx)
  simp only at hf h
  rw [needToLearn_buf hd] at hneed
  rw [isFirst_buf s1] at hf
  cases hnd : need
  case' true =>
    rw [hnd] at h hneed
    simp only [if_true] at h
    obtain ⟨⟨y, data2⟩, hy, h⟩ := Res.bind_eq_ok.1 h
    obtain ⟨⟨net, d⟩, ht, h⟩ := Res.bind_eq_ok.1 h
    cases h
    obtain ⟨a1, a2, a3, a4⟩ := trainOnce_frame ht
    refine ⟨rfl, ⟨⟨net, rfl, a1, a3, a4, _, rfl, rfl, ⟨?_, ?_, hf, hneed⟩, ?_⟩, ?_, rfl⟩⟩
    · exact getTrainingData_buf hd hx
    · exact getTrainingOutputs_buf s1 hy
    · simp [a2, trainedCount]
    · exact s1.trans (getTrainingOutputs_same hy)
  case' false =>
    rw [hnd] at h hneed
    simp only [Bool.false_eq_true, if_false] at h
    obtain ⟨⟨out, net, d⟩, ht, h⟩ := Res.bind_eq_ok.1 h
    cases h
    obtain ⟨a1, a2, a3, a4⟩ := outputForTraining_frame ht
    refine ⟨rfl, ⟨⟨net, rfl, a1, a3, fun h => by simp [a4, h], _, rfl, rfl, ?_, ?_⟩, s1, rfl⟩⟩
    · exact hneed
    · simp [a2, trainedCount]

/-! ### The inner loop -/

/-- What the inner loop does: `m` steps. -/
structure LoopOut (env : Env F) (wait : Wait F) (b : Nat) (ds : Data F) (r r' : Run F) (m : Nat) : Prop where
  snn : ∃ net, r'.snn = { r.snn with net := net, index := r.snn.index + ((m * b : Nat) : Int) } ∧
    net.stats = r.snn.net.stats ∧ net.optimizer = r.snn.net.optimizer ∧
    (r.snn.net.outputNan = true → net.outputNan = true) ∧
    ∃ evs, r'.trace = evs ++ r.trace ∧ (∀ ev ∈ evs, Reads b ds ev) ∧
      steps evs = (List.range m).map (fun k => some (r.snn.index + ((k * b : Nat) : Int))) ∧ evaluations evs = [] ∧
      saves evs = [] ∧ net.numberOfTraining = r.snn.net.numberOfTraining + trainedCount evs
  data : SameButBuffers ds r'.data
  fits : m = 0 ∨ r.snn.index + ((m * b : Nat) : Int) ≤ r.snn.numberOfTrainingsBetweenTwoEvaluations
  stop : r.snn.numberOfTrainingsBetweenTwoEvaluations < r.snn.index + ((m * b : Nat) : Int) + b ∨
    r'.snn.wantToStopTraining = true ∨ r'.snn.net.outputNan = true ∨
    ∃ t, wait.isOver (env.clock t) r.snn.epoch r.snn.net.stats.globalRate r.snn.net.stats.mae = true

theorem stepLoop_spec {env : Env F} {wait : Wait F} {b : Nat} {ds : Data F} : ∀ {fuel : Nat} {r r' : Run F} {ret : Bool},
    SameButBuffers ds r.data → stepLoop env wait b fuel r = .ok (ret, r') → ret = false ∧ ∃ m, LoopOut env wait b ds r r' m
  | 0, r, r', ret, _, h => by cases h
  | fuel + 1, r, r', ret, hd, h => by
    unfold stepLoop at h
    split at h
    · rename_i hfit
      unfold Run.continueTraining at h
      simp only at h
      split at h
      · rename_i hc
        simp only [Bool.and_eq_true, Bool.not_eq_true'] at hc
        obtain ⟨⟨c1, c2⟩, c3⟩ := hc
        obtain ⟨⟨ret1, r2⟩, h1, h⟩ := Res.bind_eq_ok.1 h
        obtain ⟨e1, so⟩ := trainStep_spec (ds := ds) (by exact hd) (by exact c3) h1
        subst e1
        simp only [Bool.false_eq_true, if_false] at h
        obtain ⟨net, q1, q2, q3, q4, ev, q5, q6, q7, q8⟩ := so.snn
        obtain ⟨e2, m, lo⟩ := stepLoop_spec (ds := ds) (by exact so.data) h
        refine ⟨e2, m + 1, ?_⟩
        obtain ⟨net2, p1, p2, p3, p4, evs, p5, p6, p7, p8, p9, p10⟩ := lo.snn
        simp only [q1] at q2 q3 q4 q5 q6 q8 p1 p2 p3 p4 p5 p7 p10
        have f1 := lo.fits
        have f2 := lo.stop
        simp only [q1] at f1 f2
        refine ⟨⟨net2, ?_, p2.trans q2, p3.trans q3, fun h => p4 (q4 h), evs ++ [ev], ?_, ?_, ?_, ?_, ?_, ?_⟩, lo.data, ?_, ?_⟩
        · rw [p1]
          congr 1
          push_cast; ring
        · rw [p5, q5]; simp
        · intro e he
          rcases List.mem_append.1 he with he | he
          · exact p6 e he
          · simp at he; subst he; exact q7
        · rw [steps_append, p7, List.range_succ_eq_map, List.map_cons, List.map_map]
          simp only [steps, List.reverse_singleton, List.filterMap_cons, q6, List.filterMap_nil, List.singleton_append]
          congr 1
          · simp
          · apply List.map_congr_left
            intro k _
            simp only [Function.comp, Option.some.injEq]
            push_cast; ring
        · rw [evaluations_append, p8]
          cases ev <;> simp_all [mark, evaluations]
        · rw [saves_append, p9]
          cases ev <;> simp_all [mark, saves]
        · rw [p10, q8, trainedCount_append]; push_cast; ring
        · right
          rcases f1 with rfl | f1
          · simp; exact hfit
          · have : ((m + 1) * b : Nat) = b + m * b := by ring
            rw [this]; push_cast; push_cast at f1; linarith
        · rcases f2 with f2 | f2 | f2 | ⟨t, f2⟩
          · left
            have : ((m + 1) * b : Nat) = b + m * b := by ring
            rw [this]; push_cast; push_cast at f2; linarith
          · exact Or.inr (Or.inl f2)
          · exact Or.inr (Or.inr (Or.inl f2))
          · refine Or.inr (Or.inr (Or.inr ⟨t, ?_⟩))
            rw [q2] at f2; exact f2
      · rename_i hc
        cases h
        refine ⟨rfl, 0, ⟨⟨r.snn.net, by simp, rfl, rfl, id, [], by simp, by simp, by simp [steps], by simp [evaluations],
          by simp [saves], by simp [trainedCount]⟩, hd, Or.inl rfl, ?_⟩⟩
        simp only [Bool.and_eq_true, Bool.not_eq_true', not_and_or, Bool.not_eq_false] at hc
        rcases hc with (hc | hc) | hc
        · exact Or.inr (Or.inl hc)
        · exact Or.inr (Or.inr (Or.inr ⟨_, hc⟩))
        · exact Or.inr (Or.inr (Or.inl hc))
    · rename_i hfit
      cases h
      refine ⟨rfl, 0, ⟨⟨r.snn.net, by simp, rfl, rfl, id, [], by simp, by simp, by simp [steps], by simp [evaluations],
        by simp [saves], by simp [trainedCount]⟩, hd, Or.inl rfl, Or.inl ?_⟩⟩
      simp; linarith

/-! ### Evaluation -/

/-- What an evaluation does to everything but the weights and the statistics. -/
structure EvalOut (r r' : Run F) : Prop where
  data : r'.data = r.data
  ticks : r'.ticks = r.ticks
  draws : r'.draws = r.draws
  epoch : r'.snn.epoch = r.snn.epoch
  between : r'.snn.numberOfTrainingsBetweenTwoEvaluations = r.snn.numberOfTrainingsBetweenTwoEvaluations
  nan : r.snn.net.outputNan = true → r'.snn.net.outputNan = true
  training : r'.snn.net.numberOfTraining = r.snn.net.numberOfTraining
  flags : (r'.snn.wantToStopTraining = r.snn.wantToStopTraining ∧ r'.snn.isIdle = r.snn.isIdle) ∨
    (r'.snn.net.outputNan = true ∧ r'.snn.wantToStopTraining = false ∧ r'.snn.isIdle = true)
  trace : r'.trace = .evaluated r'.snn.epoch r'.snn.net.stats :: r.trace ∨
    r'.trace = .saved r'.snn.autoSaveFilePath r'.snn :: .evaluated r'.snn.epoch r'.snn.net.stats :: r.trace
  path : r'.snn.autoSaveFilePath = r.snn.autoSaveFilePath
  better : r'.snn.autoSaveWhenBetter = r.snn.autoSaveWhenBetter

/-- The part of the network that an evaluation leaves alone, one position at a time. -/
structure EvalKeep (s s' : Snn F) : Prop where
  epoch : s'.epoch = s.epoch
  between : s'.numberOfTrainingsBetweenTwoEvaluations = s.numberOfTrainingsBetweenTwoEvaluations
  nan : s.net.outputNan = true → s'.net.outputNan = true
  training : s'.net.numberOfTraining = s.net.numberOfTraining
  path : s'.autoSaveFilePath = s.autoSaveFilePath
  better : s'.autoSaveWhenBetter = s.autoSaveWhenBetter

theorem EvalKeep.trans {a b c : Snn F} (h : EvalKeep a b) (k : EvalKeep b c) : EvalKeep a c :=
  ⟨k.1.trans h.1, k.2.trans h.2, fun x => k.3 (h.3 x), k.4.trans h.4, k.5.trans h.5, k.6.trans h.6⟩

theorem net_output_frame {n n' : Net F} {x out : List F} {t : Bool} (h : n.output x t = .ok (out, n')) :
    n'.stats = n.stats ∧ n'.numberOfTraining = n.numberOfTraining ∧ n'.outputNan = (n.outputNan || hasBadValue out) := by
  unfold Net.output at h
  split at h
  · cases h
  · obtain ⟨⟨o, ls⟩, _, h⟩ := Res.bind_eq_ok.1 h
    cases h
    exact ⟨rfl, rfl, rfl⟩

theorem evaluateOnce_frame {s s' : Snn F} {data : Data F} (h : s.evaluateOnce data = .ok s') :
    EvalKeep s s' ∧ s'.wantToStopTraining = s.wantToStopTraining ∧ s'.isIdle = s.isIdle ∧ s'.index = s.index := by
  unfold Snn.evaluateOnce at h
  obtain ⟨x, _, h⟩ := Res.bind_eq_ok.1 h
  obtain ⟨first, _, h⟩ := Res.bind_eq_ok.1 h
  split at h
  all_goals
    obtain ⟨_, _, h⟩ := Res.bind_eq_ok.1 h
    obtain ⟨_, _, h⟩ := Res.bind_eq_ok.1 h
    obtain ⟨⟨out, net⟩, h1, h⟩ := Res.bind_eq_ok.1 h
    obtain ⟨st, _, h⟩ := Res.bind_eq_ok.1 h
    cases h
    obtain ⟨k1, k2, k3⟩ := net_output_frame h1
    exact ⟨⟨rfl, rfl, fun h => by simp [k3, h], k2, rfl, rfl⟩, rfl, rfl, rfl⟩

/-- The step of the evaluation loop at one position. -/
theorem evaluateLoop_frame {nan : F} {data : Data F} : ∀ {k : Nat} {s s' : Snn F} {b : Bool},
    evaluateLoop nan data k s = .ok (b, s') → EvalKeep s s' ∧
      ((b = false ∧ s'.wantToStopTraining = s.wantToStopTraining ∧ s'.isIdle = s.isIdle ∧ s'.index = s.index + k) ∨
       (b = true ∧ s'.net.outputNan = true ∧ s'.wantToStopTraining = false ∧ s'.isIdle = true))
  | 0, s, s', b, h => by cases h; exact ⟨⟨rfl, rfl, id, rfl, rfl, rfl⟩, Or.inl ⟨rfl, rfl, rfl, by simp⟩⟩
  | k + 1, s, s', b, h => by
    unfold evaluateLoop at h
    split at h
    · rename_i hn
      cases h
      exact ⟨⟨rfl, rfl, id, rfl, rfl, rfl⟩, Or.inr ⟨rfl, hn, rfl, rfl⟩⟩
    · obtain ⟨need, _, h⟩ := Res.bind_eq_ok.1 h
      obtain ⟨s1, h1, h⟩ := Res.bind_eq_ok.1 h
      have k1 : EvalKeep s s1 ∧ s1.wantToStopTraining = s.wantToStopTraining ∧ s1.isIdle = s.isIdle ∧ s1.index = s.index := by
        split at h1
        · exact evaluateOnce_frame h1
        · obtain ⟨_, _, h1⟩ := Res.bind_eq_ok.1 h1
          obtain ⟨_, _, h1⟩ := Res.bind_eq_ok.1 h1
          obtain ⟨⟨out, net⟩, h2, h1⟩ := Res.bind_eq_ok.1 h1
          cases h1
          obtain ⟨k1, k2, k3⟩ := net_output_frame h2
          exact ⟨⟨rfl, rfl, fun h => by simp [k3, h], k2, rfl, rfl⟩, rfl, rfl, rfl⟩
      obtain ⟨k2, k3⟩ := evaluateLoop_frame h
      have k2' : EvalKeep s1 s' := ⟨k2.1, k2.2, k2.3, k2.4, k2.5, k2.6⟩
      refine ⟨k1.1.trans k2', ?_⟩
      rcases k3 with ⟨a, b, c, e⟩ | k3
      · refine Or.inl ⟨a, b.trans k1.2.1, c.trans k1.2.2.1, ?_⟩
        rw [e]; simp only [k1.2.2.2]; push_cast; ring
      · exact Or.inr k3

theorem evaluate_frame {env : Env F} {r r' : Run F} (h : r.evaluate env = .ok r') : EvalOut r r' := by
  unfold Run.evaluate at h
  obtain ⟨⟨b, s⟩, h1, h⟩ := Res.bind_eq_ok.1 h
  obtain ⟨k, kf⟩ := evaluateLoop_frame h1
  have k' : EvalKeep r.snn s := ⟨k.1, k.2, k.3, k.4, k.5, k.6⟩
  simp only [] at h
  split at h
  · rename_i hb
    subst hb
    cases h
    refine ⟨rfl, rfl, rfl, k'.1, k'.2, k'.3, k'.4, Or.inr ?_, Or.inl rfl, k'.5, k'.6⟩
    rcases kf with kf | kf
    · exact absurd kf.1 (by simp)
    · exact ⟨kf.2.1, kf.2.2.1, kf.2.2.2⟩
  · rename_i hb
    have hf : s.wantToStopTraining = r.snn.wantToStopTraining ∧ s.isIdle = r.snn.isIdle := by
      rcases kf with kf | kf
      · exact ⟨kf.2.1, kf.2.2.1⟩
      · exact absurd kf.1 (by simpa using hb)
    split at h
    · cases h
      exact ⟨rfl, rfl, rfl, k'.1, k'.2, k'.3, k'.4, Or.inl hf, Or.inr rfl, k'.5, k'.6⟩
    · cases h
      exact ⟨rfl, rfl, rfl, k'.1, k'.2, k'.3, k'.4, Or.inl hf, Or.inl rfl, k'.5, k'.6⟩

theorem EvalOut.steps {r r' : Run F} (h : EvalOut r r') : steps r'.trace = steps r.trace := by
  rcases h.trace with e | e <;> rw [e] <;> simp [TrainSpec.steps, mark]

theorem EvalOut.evaluations {r r' : Run F} (h : EvalOut r r') :
    evaluations r'.trace = evaluations r.trace ++ [(r'.snn.epoch, r'.snn.net.stats)] := by
  rcases h.trace with e | e <;> rw [e] <;> simp [TrainSpec.evaluations]

theorem EvalOut.trainedCount {r r' : Run F} (h : EvalOut r r') : trainedCount r'.trace = trainedCount r.trace := by
  rcases h.trace with e | e <;> rw [e] <;> simp [TrainSpec.trainedCount]

/-! ### One epoch -/

/-- What one epoch does. -/
structure EpochOut (env : Env F) (wait : Wait F) (b : Nat) (ef : Int) (r r' : Run F) (ds : Data F) (m : Nat) : Prop where
  shuffled : r.data.shuffle (env.rng r.snn.epoch) = .ok ds
  data : SameButBuffers ds r'.data
  epoch : r'.snn.epoch = r.snn.epoch
  between : r'.snn.numberOfTrainingsBetweenTwoEvaluations = r.snn.numberOfTrainingsBetweenTwoEvaluations
  nan : r.snn.net.outputNan = true → r'.snn.net.outputNan = true
  flags : r'.snn.wantToStopTraining = r.snn.wantToStopTraining ∨ r'.snn.net.outputNan = true
  trace : ∃ evs evals, r'.trace = evals ++ evs ++ .shuffled :: r.trace ∧ (∀ ev ∈ evs, Reads b ds ev) ∧
    steps evs = (List.range m).map (fun k => some ((k * b : Nat) : Int)) ∧ evaluations evs = [] ∧ steps evals = [] ∧
    trainedCount evals = 0 ∧ r'.snn.net.numberOfTraining = r.snn.net.numberOfTraining + trainedCount evs ∧
    ((0 < ef ∧ r.snn.epoch.tmod ef = 0 ∧ evaluations evals = [(r.snn.epoch, r'.snn.net.stats)]) ∨
      (¬ (0 < ef ∧ r.snn.epoch.tmod ef = 0) ∧ evals = [] ∧ r'.snn.net.stats = r.snn.net.stats))
  fits : m = 0 ∨ ((m * b : Nat) : Int) ≤ r.snn.numberOfTrainingsBetweenTwoEvaluations
  stop : r.snn.numberOfTrainingsBetweenTwoEvaluations < ((m * b : Nat) : Int) + b ∨
    r'.snn.wantToStopTraining = true ∨ r'.snn.net.outputNan = true ∨
    ∃ t, wait.isOver (env.clock t) r.snn.epoch r.snn.net.stats.globalRate r.snn.net.stats.mae = true

theorem epochBody_spec {env : Env F} {wait : Wait F} {b : Nat} {ef : Int} {fuel : Nat} {r r' : Run F} {ret : Bool}
    (h : r.epochBody env wait b ef fuel = .ok (ret, r')) : ret = false ∧ ∃ ds m, EpochOut env wait b ef r r' ds m := by
  unfold Run.epochBody at h
  obtain ⟨ds, hs, h⟩ := Res.bind_eq_ok.1 h
  obtain ⟨⟨ret1, r2⟩, h1, h⟩ := Res.bind_eq_ok.1 h
  obtain ⟨e1, m, lo⟩ := stepLoop_spec (ds := ds) (SameButBuffers.refl _) h1
  subst e1
  simp only [Bool.false_eq_true, if_false] at h
  obtain ⟨net, p1, p2, p3, p4, evs, p5, p6, p7, p8, p9, p10⟩ := lo.snn
  simp only [zero_add] at p1 p2 p3 p4 p5 p7 p10
  have lf := lo.fits
  have ls := lo.stop
  simp only [zero_add] at lf ls
  split at h
  · rename_i hef
    obtain ⟨r3, h3, h⟩ := Res.bind_eq_ok.1 h
    cases h
    have eo := evaluate_frame h3
    refine ⟨rfl, ds, m, hs, ?_, ?_, ?_, ?_, ?_, ?_, lf, ?_⟩
    · rw [eo.data]; exact lo.data
    · rw [eo.epoch, p1]
    · rw [eo.between, p1]
    · intro hn
      apply eo.nan
      rw [p1]; exact p4 hn
    · rcases eo.flags with f | f
      · left; rw [f.1, p1]
      · exact Or.inr f.1
    · have ep : r2.snn.epoch = r.snn.epoch := by rw [p1]
      have enum : r'.snn.net.numberOfTraining = r.snn.net.numberOfTraining + trainedCount evs := by
        rw [eo.training, p1]; exact p10
      rcases eo.trace with e | e
      · refine ⟨evs, [.evaluated r'.snn.epoch r'.snn.net.stats], by rw [e, p5]; simp, p6, p7, p8, by simp [steps, mark],
          by simp [trainedCount], enum, Or.inl ⟨hef.1, by rw [← ep]; exact hef.2, by simp [evaluations, eo.epoch, ep]⟩⟩
      · refine ⟨evs, [.saved r'.snn.autoSaveFilePath r'.snn, .evaluated r'.snn.epoch r'.snn.net.stats], by rw [e, p5]; simp,
          p6, p7, p8, by simp [steps, mark],
          by simp [trainedCount], enum, Or.inl ⟨hef.1, by rw [← ep]; exact hef.2, by simp [evaluations, eo.epoch, ep]⟩⟩
    · rcases ls with l | l | l | l
      · exact Or.inl l
      · rcases eo.flags with f | f
        · exact Or.inr (Or.inl (f.1.trans l))
        · exact Or.inr (Or.inr (Or.inl f.1))
      · exact Or.inr (Or.inr (Or.inl (eo.nan l)))
      · exact Or.inr (Or.inr (Or.inr l))
  · rename_i hef
    cases h
    refine ⟨rfl, ds, m, hs, lo.data, by rw [p1], by rw [p1], ?_, Or.inl (by rw [p1]), ?_, lf, ls⟩
    · intro hn
      rw [p1]; exact p4 hn
    · have ep : r'.snn.epoch = r.snn.epoch := by rw [p1]
      refine ⟨evs, [], by rw [p5]; simp, p6, p7, p8, by simp [steps], by simp [trainedCount], by rw [p1]; exact p10, Or.inr ⟨?_, rfl, ?_⟩⟩
      · rw [← ep]; exact hef
      · rw [p1]; exact p2

/-! ### All the epochs -/

/-- The evaluations of `E` epochs from the epoch `e` on. -/
def evalList (ef : Int) (e E : Nat) (st : Nat → Stats F) : List (Int × Stats F) :=
  ((List.range E).filter fun k => decide (0 < ef ∧ (((e + k : Nat) : Int)).tmod ef = 0)).map
    fun k => (((e + k : Nat) : Int), st (k + 1))

/-- What the outer loop does when it ends without a NaN: `E` complete epochs. -/
structure EpochsOut (wait : Wait F) (b : Nat) (ef : Int) (e n : Nat) (r r' : Run F) (E : Nat) (st : Nat → Stats F) : Prop where
  epoch : r'.snn.epoch = ((e + E : Nat) : Int)
  steps : steps r'.trace = steps r.trace ++ (List.replicate E (epochSteps b n)).flatten
  evals : evaluations r'.trace = evaluations r.trace ++ evalList ef e E st
  first : st 0 = r.snn.net.stats
  last : r'.snn.net.stats = st E
  same : ∀ k < E, ¬ (0 < ef ∧ (((e + k : Nat) : Int)).tmod ef = 0) → st (k + 1) = st k
  notOver : ∀ k < E, wait.isOver 0 ((e + k : Nat) : Int) (st k).globalRate (st k).mae = false
  over : wait.isOver 0 ((e + E : Nat) : Int) (st E).globalRate (st E).mae = true
  training : r.data.typeOfTemporal ≠ .timeSeries →
    r'.snn.net.numberOfTraining = r.snn.net.numberOfTraining + ((E * (n / b) : Nat) : Int)
  frame : Frame r.data r'.data

theorem replicate_succ_flatten {α : Type} (l : List α) (n : Nat) :
    (List.replicate (n + 1) l).flatten = l ++ (List.replicate n l).flatten := by
  simp [List.replicate_succ]

/-- All the steps that are read from data that are always trained are trained. -/
theorem trained_all {b : Int} {ds : Data F} (hts : ds.typeOfTemporal ≠ .timeSeries) : ∀ (evs : List (Event F)),
    (∀ ev ∈ evs, Reads b ds ev) → trainedCount evs = (steps evs).length
  | [], _ => rfl
  | ev :: evs, h => by
    have ih := trained_all hts evs fun e he => h e (List.mem_cons_of_mem _ he)
    have h0 := h ev (List.mem_cons_self ..)
    have e1 : ev :: evs = [ev] ++ evs := rfl
    rw [e1, trainedCount_append, steps_append, List.length_append, ih]
    have h1 : trainedCount [ev] = (steps [ev]).length := by
      cases ev with
      | trained p x y f => rfl
      | skipped p =>
        exfalso
        have h0 : ds.needToLearn p = .ok false := h0
        unfold Data.needToLearn at h0
        split at h0
        · rename_i q; exact hts q
        · cases h0
      | shuffled => exact h0.elim
      | evaluated _ _ => exact h0.elim
      | saved _ _ => exact h0.elim
    rw [h1]; omega

theorem epochLoop_spec {env : Env F} {wait : Wait F} {b : Nat} (hb : 1 ≤ b) {ef : Int} {inner n : Nat} (hcf : ClockFree wait) :
    ∀ {fuel : Nat} {e : Nat} {r r' : Run F} {ret : Bool}, r.snn.epoch = (e : Int) →
    r.snn.numberOfTrainingsBetweenTwoEvaluations = (n : Int) → r.snn.wantToStopTraining = false →
    epochLoop env wait b ef inner fuel r = .ok (ret, r') → r'.snn.net.outputNan = false →
    ret = false ∧ ∃ E st, EpochsOut wait b ef e n r r' E st
  | 0, e, r, r', ret, _, _, _, h, _ => by cases h
  | fuel + 1, e, r, r', ret, he, hn, hw, h, hnan => by
    unfold epochLoop at h
    unfold Run.continueTraining at h
    simp only at h
    split at h
    · rename_i hc
      simp only [Bool.and_eq_true, Bool.not_eq_true'] at hc
      obtain ⟨⟨c1, c2⟩, c3⟩ := hc
      obtain ⟨⟨ret1, r2⟩, h1, h⟩ := Res.bind_eq_ok.1 h
      obtain ⟨e1, ds, m, eo⟩ := epochBody_spec h1
      subst e1
      simp only [Bool.false_eq_true, if_false] at h
      -- no NaN after the epoch
      have hmono : r2.snn.net.outputNan = false := by
        by_contra hx
        simp only [Bool.not_eq_false] at hx
        have hx' : ∀ {fuel : Nat} {q q' : Run F} {ret : Bool}, epochLoop env wait b ef inner fuel q = .ok (ret, q') →
            q.snn.net.outputNan = true → q'.snn.net.outputNan = true := by
          intro fuel
          induction fuel with
          | zero => intro q q' ret hq; cases hq
          | succ fuel ih =>
            intro q q' ret hq hqn
            unfold epochLoop at hq
            unfold Run.continueTraining at hq
            simp only [hqn, Bool.not_true, Bool.and_false, Bool.false_eq_true, if_false] at hq
            cases hq
            exact hqn
        have := hx' h (by exact hx)
        rw [hnan] at this; cases this
      have hw2 : r2.snn.wantToStopTraining = false := by
        rcases eo.flags with f | f
        · exact f.trans hw
        · rw [hmono] at f; cases f
      have ep2 : r2.snn.epoch = (e : Int) := by rw [eo.epoch]; exact he
      have hf1 : Frame r.data ds := shuffle_frame eo.shuffled
      obtain ⟨e2, E, st, out⟩ := epochLoop_spec (e := e + 1) hb hcf (by simp [ep2])
        (by simp only; rw [eo.between]; exact hn) (by exact hw2) h hnan
      have hm : m = n / b := by
        have hfit := eo.fits
        have hstop := eo.stop
        simp only [hn] at hfit hstop
        rw [hw2, hmono] at hstop
        have hlast : (n : Int) < ((m * b : Nat) : Int) + b := by
          rcases hstop with q | q | q | ⟨t, q⟩
          · exact q
          · cases q
          · cases q
          · rw [hcf _ (env.clock r.ticks)] at q
            rw [c2] at q; cases q
        have h1 : m * b ≤ n := by
          rcases hfit with rfl | q
          · simp
          · exact_mod_cast q
        have h2 : n < (m + 1) * b := by
          have : ((n : Nat) : Int) < ((m * b + b : Nat) : Int) := by push_cast; push_cast at hlast; exact hlast
          have := Int.ofNat_lt.1 this
          linarith [Nat.succ_mul m b]
        rw [eq_comm, Nat.div_eq_iff (by omega)]
        constructor
        · linarith
        · have : (m + 1) * b = m * b + b := by ring
          omega
      obtain ⟨evs, evals, t1, t2, t3, t4, t5, t6, t7, t8⟩ := eo.trace
      simp only at t1 t8
      refine ⟨e2, E + 1, fun k => if k = 0 then r.snn.net.stats else st (k - 1), ?_⟩
      have ost : ∀ k, (fun k => if k = 0 then r.snn.net.stats else st (k - 1)) (k + 1) = st k := by intro k; simp
      have hst0 : st 0 = r2.snn.net.stats := out.first
      constructor
      · rw [out.epoch]; congr 1; omega
      · rw [out.steps, replicate_succ_flatten]
        simp only [t1]
        have e1 : (evals ++ evs ++ Event.shuffled :: r.trace) = evals ++ (evs ++ ([Event.shuffled] ++ r.trace)) := by simp
        rw [e1, steps_append, steps_append, steps_append, t5, t3, hm]
        simp [epochSteps, steps, mark]
      · rw [out.evals]
        simp only [t1]
        have e1 : (evals ++ evs ++ Event.shuffled :: r.trace) = evals ++ (evs ++ ([Event.shuffled] ++ r.trace)) := by simp
        rw [e1, evaluations_append, evaluations_append, evaluations_append, t4]
        have e3 : evaluations ([Event.shuffled] : List (Event F)) = [] := by simp [evaluations]
        rw [e3]
        simp only [List.append_nil, List.append_assoc]
        congr 1
        unfold evalList
        rw [List.range_succ_eq_map, List.filter_cons]
        have e4 : (((List.range E).map Nat.succ).filter fun k => decide (0 < ef ∧ (((e + k : Nat) : Int)).tmod ef = 0)).map
            (fun k => (((e + k : Nat) : Int), (fun k => if k = 0 then r.snn.net.stats else st (k - 1)) (k + 1))) =
            ((List.range E).filter fun k => decide (0 < ef ∧ (((e + 1 + k : Nat) : Int)).tmod ef = 0)).map
              fun k => (((e + 1 + k : Nat) : Int), st (k + 1)) := by
          rw [List.filter_map, List.map_map]
          have : ∀ k : Nat, e + Nat.succ k = e + 1 + k := by intro k; omega
          congr 1
          · funext k; simp only [Function.comp]; rw [this k]; simp
          · congr 1; funext k; simp only [Function.comp]; rw [this k]
        rcases t8 with ⟨u1, u2, u3⟩ | ⟨u1, u2, u3⟩
        · rw [he] at u2 u3
          have : decide (0 < ef ∧ (((e + 0 : Nat) : Int)).tmod ef = 0) = true := by simpa using ⟨u1, u2⟩
          rw [if_pos this, List.map_cons, e4, u3]
          simp [hst0]
        · rw [he] at u1
          have : ¬ decide (0 < ef ∧ (((e + 0 : Nat) : Int)).tmod ef = 0) = true := by simpa using u1
          rw [if_neg this, e4, u2]
          simp [evaluations]
      · rfl
      · rw [out.last]; simp
      · intro k hk hne
        cases k with
        | zero =>
          rcases t8 with ⟨u1, u2, u3⟩ | ⟨u1, u2, u3⟩
          · exact absurd ⟨u1, by rw [he] at u2; exact u2⟩ hne
          · simp [hst0, u3]
        | succ k =>
          have := out.same k (by omega) (by
            have q : e + 1 + k = e + (k + 1) := by omega
            rw [q]; exact hne)
          simpa using this
      · intro k hk
        cases k with
        | zero =>
          rw [he] at c2
          rw [hcf _ (env.clock r.ticks)]
          simpa using c2
        | succ k =>
          have := out.notOver k (by omega)
          have q : e + 1 + k = e + (k + 1) := by omega
          rw [q] at this
          simpa using this
      · have := out.over
        have q : e + 1 + E = e + (E + 1) := by omega
        rw [q] at this
        simpa using this
      · intro hts
        have h2 := out.training (by
          have := eo.data.frame.temporal
          simp only
          rw [this, hf1.temporal]; exact hts)
        simp only at h2
        rw [h2, t7, trained_all (by rw [hf1.temporal]; exact hts) evs t2, t3, hm]
        simp only [List.length_map, List.length_range]
        push_cast; ring
      · exact hf1.trans (eo.data.frame.trans out.frame)
    · rename_i hc
      cases h
      simp only at hnan
      refine ⟨rfl, 0, fun _ => r.snn.net.stats, ⟨by simpa using he, by simp, by simp [evalList], rfl, rfl, by simp, by simp, ?_,
        by simp, Frame.refl _⟩⟩
      simp only [hw, hnan, Bool.not_false, Bool.true_and, Bool.and_true, Bool.not_eq_true', Bool.not_eq_false] at hc
      rw [hcf _ (env.clock r.ticks)]
      rw [he] at hc
      simpa using hc

theorem epochLoop_frame {env : Env F} {wait : Wait F} {b : Nat} {ef : Int} {inner : Nat} :
    ∀ {fuel : Nat} {r r' : Run F} {ret : Bool}, epochLoop env wait b ef inner fuel r = .ok (ret, r') →
    ret = false ∧ (r.snn.net.outputNan = true → r'.snn.net.outputNan = true)
  | 0, r, r', ret, h => by cases h
  | fuel + 1, r, r', ret, h => by
    unfold epochLoop at h
    unfold Run.continueTraining at h
    simp only at h
    split at h
    · obtain ⟨⟨ret1, r2⟩, h1, h⟩ := Res.bind_eq_ok.1 h
      obtain ⟨e1, ds, m, eo⟩ := epochBody_spec h1
      subst e1
      simp only [Bool.false_eq_true, if_false] at h
      obtain ⟨e2, q⟩ := epochLoop_frame h
      exact ⟨e2, fun hn => q (eo.nan hn)⟩
    · cases h
      exact ⟨rfl, id⟩

end

end Snn.TrainProofs
