import Verif.Proofs.Feedforward
import Verif.Demo.DemoSave

/-! C65: only the lessons teach: nothing leaks from evaluations, testing sets and inferences into the trained network. -/

set_option linter.all false

namespace Snn.LeakProps

open Spec HistoryProps

section
variable {F : Type} [Flt F] [FTrans F] [Add F] [Sub F] [Mul F] [Div F] [Neg F]

/-- **C65**, proved part. Two programs start from the same new feedforward network, with the same random draws and clock. They give
the same lessons in the same order (same training examples, criterion, batch size, shuffles), with criteria that do not look at the
evaluations. They may differ in everything else: the testing sets, the kind of problem, the evaluation frequencies, how many
inferences, evaluations, saves are made in between, and on what. If in neither of them an output was NaN, then the two networks have
the same parameters, counted the same number of trainings, consumed the same random draws, and give the same answer to every
input. Missing: recurrent networks (`C65_recurrent_refuted`) and NaN (`C65_nan_refuted`). -/
theorem C65_no_leak_partial {arch : List (LayerModel F)} {s s' : List Nat} (hw : WellFormed arch s s') (ha : Feedforward arch) {o : Sgd F}
    {d d' : Draws F} {snn : Snn F} (hm : Snn.make arch o d = .ok (snn, d')) {r q : Run F} (hr : r.snn = snn) (hq : q.snn = snn)
    (hd : q.draws = r.draws) (ht : q.ticks = r.ticks) {cs ds : List (Call F)} (hl : cs.filterMap lesson = ds.filterMap lesson)
    (hf : ∀ l ∈ cs.filterMap lesson, MetricFree l.wait) {r' q' : Run F} (h1 : cs.foldlM Call.run r = .ok r')
    (h2 : ds.foldlM Call.run q = .ok q') (n1 : r'.snn.net.outputNan = false) (n2 : q'.snn.net.outputNan = false) :
    netParams q'.snn.net = netParams r'.snn.net ∧ q'.snn.net.numberOfTraining = r'.snn.net.numberOfTraining ∧
      q'.draws = r'.draws ∧
      ∀ x t t', Prod.fst <$> q'.snn.computeOutput x t = Prod.fst <$> r'.snn.computeOutput x t' ∧
        Prod.fst <$> q'.snn.computeCluster x t = Prod.fst <$> r'.snn.computeCluster x t' := by
  obtain ⟨hp, hn⟩ := make_plainNet hw ha hm
  have m0 : r.Mate q := ⟨⟨by rw [hr, hq]; exact twin_refl hp, by rw [hr]; exact hn, by rw [hq]; exact hn, by rw [hr, hq], by rw [hr, hq]⟩, hd, ht⟩
  have m := m0.history hl hf h1 h2 n1 n2
  have hsame : List.Forall₂ Layer.Same r'.snn.net.layers q'.snn.net.layers := m.net.layers.imp fun _ _ h => h.same
  refine ⟨?_, m.net.num, m.draws, ?_⟩
  · unfold netParams
    rw [m.net.opt, layersSame_params hsame]
  · intro x t t'
    have e := Net.output_rel hsame (twin_plain m.net.layers).2 x t' t
    unfold Snn.computeOutput Snn.computeCluster
    cases k1 : r'.snn.net.output x t' with
    | ok p =>
      rw [k1] at e
      cases k2 : q'.snn.net.output x t with
      | ok p2 => rw [k2] at e; cases e' : p with
        | mk a b => cases e2 : p2 with
          | mk a2 b2 => rw [e', e2] at e; cases e; exact ⟨rfl, rfl⟩
      | throw m => rw [k2] at e; cases e
      | ub m => rw [k2] at e; cases e
    | throw m =>
      rw [k1] at e
      cases k2 : q'.snn.net.output x t with
      | ok p2 => rw [k2] at e; cases e
      | throw m => rw [k2] at e; cases e; exact ⟨rfl, rfl⟩
      | ub m => rw [k2] at e; cases e
    | ub m =>
      rw [k1] at e
      cases k2 : q'.snn.net.output x t with
      | ok p2 => rw [k2] at e; cases e
      | throw m => rw [k2] at e; cases e
      | ub m => rw [k2] at e; cases e; exact ⟨rfl, rfl⟩

end

/-! ### The criteria without metrics -/

section
variable {F : Type} [Field F] [LinearOrder F] [IsStrictOrderedRing F]

/-- The criteria made of epochs and durations, alone or combined, look at no metric. -/
theorem metricFree_of {w : Wait F} (ha : w.accuracy = -1) (hm : w.mae = -1) : MetricFree w := by
  intro ms e a m a' m'
  unfold Wait.isOver
  have h1 : fle (lit 0 : F) w.accuracy = false := by rw [ha]; simp [fle, Flt.fle]
  have h2 : fle (lit 0 : F) w.mae = false := by rw [hm]; simp [fle, Flt.fle]
  have h3 : flt w.accuracy (lit 0 : F) = true := by rw [ha]; simp [flt, Flt.flt]
  have h4 : flt w.mae (lit 0 : F) = true := by rw [hm]; simp [flt, Flt.flt]
  rw [h1, h2, h3, h4]
  simp

theorem metricFree_ep (n : Nat) : MetricFree (litEp n : Wait F) := metricFree_of (by simp [litEp, Wait.default]) (by simp [litEp, Wait.default])
theorem metricFree_ms (n : Nat) : MetricFree (litMs n : Wait F) := metricFree_of (by simp [litMs, Wait.default]) (by simp [litMs, Wait.default])
theorem metricFree_or {w v u : Wait F} (h : w.or v = .ok u) (h1 : w.accuracy = -1) (h2 : w.mae = -1) (h3 : v.accuracy = -1) (h4 : v.mae = -1) :
    MetricFree u := by
  unfold Wait.or at h
  split at h
  · cases h
  · cases h
    exact metricFree_of (by simp [h1, h3, stdMax, flt, Flt.flt]) (by simp [h2, h4, stdMax, flt, Flt.flt])

end

/-! ### Witness -/

/-- A convolutional network: 3 × 4 inputs, 2 filters of kernel 2, pooling, locally connected, dense. -/
def convArch : List (LayerModel ℚ) :=
  [.input [1, 3, 4], .convolution 2 2 .relu [], .maxPooling 2, .locallyConnected 1 1 .identity [], .fullyConnected 2 .identity [.dropout (1/4)]]
/-- The network. -/
def convNet : Snn ℚ := ((Snn.make convArch Demo.sgd Demo.draws).get (by decide +kernel)).1

/-- Two training examples for the convolutional network, and a testing example. -/
def dataA : Data ℚ :=
  (Data.make2 .classification [[1, 0, 2, 0, 1, 1, 0, 2, 1, 0, 0, 1], [0, 1, 1, 2, 0, 1, 1, 0, 2, 1, 0, 1]] [[1, 0], [0, 1]]
    [[1, 1, 1, 0, 0, 0, 1, 1, 1, 0, 0, 0]] [[0, 1]] .nonTemporal 0).get (by decide +kernel)
/-- The same training examples, other testing examples, a regression. -/
def dataB : Data ℚ :=
  (Data.make2 .regression [[1, 0, 2, 0, 1, 1, 0, 2, 1, 0, 0, 1], [0, 1, 1, 2, 0, 1, 1, 0, 2, 1, 0, 1]] [[1, 0], [0, 1]]
    [[5, 0, 0, 0, 3, 0, 1, 0, 1, 0, 7, 0], [2, 2, 2, 2, 2, 2, 2, 2, 2, 2, 2, 2]] [[3, 1], [1, 1]] .nonTemporal 0).get (by decide +kernel)

/-- Two trainings and nothing else, without any evaluation. -/
def programA : List (Call ℚ) := [.train Demo.env dataA (litEp 1) 1 0 50, .train Demo.env dataA (litEp 1) 2 0 50]
/-- Inferences, evaluations, auto-saves, and the same two trainings, evaluated after each epoch on other data. -/
def programB : List (Call ℚ) :=
  [.computeOutput [9, 8, 7, 6, 5, 4, 3, 2, 1, 0, 1, 2] true, .evaluate Demo.env dataB, .autoSave true "b.snn",
   .train Demo.env dataB (litEp 1) 1 1 60, .computeCluster [1, 1, 2, 1, 1, 2, 1, 1, 2, 1, 1, 2] false, .saveAs "c.snn",
   .train Demo.env dataB (litEp 1) 2 1 70, .evaluate Demo.env dataA]

/-- The end of the first program. -/
def endA : Run ℚ := (programA.foldlM Call.run (Demo.run convNet dataA)).get (by decide +kernel)
/-- The end of the second program. -/
def endB : Run ℚ := (programB.foldlM Call.run (Demo.run convNet dataA)).get (by decide +kernel)

/-- The two programs give the same lessons. -/
theorem same_lessons : programA.filterMap lesson = programB.filterMap lesson := by
  have : learningPart dataA = learningPart dataB := by decide +kernel
  unfold programA programB
  simp only [List.filterMap, lesson, this]

theorem conv_wellFormed : WellFormed convArch [1, 3, 4] [2] := by
  have g : ∀ s : List Nat, s ≠ [] → (∀ v ∈ s, 0 < v) → s.prod ≤ 999998 → GoodShape s := fun s a b c => ⟨a, b, c⟩
  refine ⟨⟨_, _, rfl, ?_⟩, by decide⟩
  refine .cons (g _ (by decide) (by decide) (by decide)) (.convolution2D (by decide) (by decide) (by decide) (by decide)) ?_
  refine .cons (g _ (by decide) (by decide) (by decide)) (.pool2D (by decide) (by decide) (by decide) (by decide)) ?_
  refine .cons (g _ (by decide) (by decide) (by decide)) (.locally2D (by decide) (by decide) (by decide) (by decide) (by decide)) ?_
  refine .cons (g _ (by decide) (by decide) (by decide)) (.fullyConnected (by decide)) ?_
  exact .nil (g _ (by decide) (by decide) (by decide))

/-- All the hypotheses hold of the two programs, the training changed the network, and the statistics of the two differ. -/
example : (netParams endB.snn.net = netParams endA.snn.net ∧ ∀ x t t', Prod.fst <$> endB.snn.computeOutput x t = Prod.fst <$> endA.snn.computeOutput x t') ∧
    endA.snn.net.layers.map (·.body) ≠ convNet.net.layers.map (·.body) ∧ endA.snn.net.stats ≠ endB.snn.net.stats := by
  refine ⟨?_, by decide +kernel, by decide +kernel⟩
  obtain ⟨h1, _, _, h2⟩ := C65_no_leak_partial conv_wellFormed (by
      intro m hm
      simp only [convArch, List.mem_cons, List.not_mem_nil, or_false] at hm
      rcases hm with rfl | rfl | rfl | rfl | rfl <;> trivial) (o := Demo.sgd) (d := Demo.draws) (snn := convNet)
    (Res.eq_get (Snn.make convArch Demo.sgd Demo.draws) (by decide +kernel)) (r := Demo.run convNet dataA) (q := Demo.run convNet dataA) rfl rfl rfl rfl
    same_lessons (by
      intro l hl
      unfold programA at hl
      simp only [List.filterMap, lesson, List.mem_cons, List.not_mem_nil, or_false] at hl
      rcases hl with rfl | rfl <;> exact metricFree_ep 1)
    (r' := endA) (q' := endB) (Res.eq_get _ _) (Res.eq_get _ _) (by decide +kernel) (by decide +kernel)
  exact ⟨h1, fun x t t' => (h2 x t t').1⟩

/-! ### Findings -/

/-- The recurrent network after two epochs without evaluation. -/
def recurrentA : Run ℚ := ((Demo.run Demo.recurrent Demo.series).train Demo.env (litEp 1) 1 0 50).get (by decide +kernel)
/-- The recurrent network after an inference and then the same two epochs without evaluation. -/
def recurrentB : Run ℚ :=
  ([Call.computeOutput [7] true, .train Demo.env Demo.series (litEp 1) 1 0 50].foldlM Call.run (Demo.run Demo.recurrent Demo.series)).get (by decide +kernel)

/-- C65 is false of recurrent networks: one inference before the training changes the weights that the training finds (the first
example of a training sees the output of the last inference, whether or not a reset is asked). -/
theorem C65_recurrent_refuted : recurrentA.snn.net.outputNan = false ∧ recurrentB.snn.net.outputNan = false ∧
    recurrentA.snn.net.layers.map (fun l => (layerParams l).neurons.map (·.weights)) ≠
      recurrentB.snn.net.layers.map (fun l => (layerParams l).neurons.map (·.weights)) := by
  decide +kernel

/-- Two training examples, and one testing example with the input x. -/
def tested (x : NF) : Res (Data NF) :=
  (Data.make2 .regression [[.num 1], [.num 2]] [[.num 2], [.num 3]] [[x]] [[.num 1]] .nonTemporal 0)
/-- The environment of the example. -/
def nanEnv : Env NF := { clock := fun t => t, rng := fun e i => e.toNat + i, nan := .nan }
/-- Training for two epochs, evaluated after each. -/
def afterTest (x : NF) : Res (Run NF) := do
  let data ← tested x
  Call.run (Demo.nanRun Demo.nanNet) (.train nanEnv data (litEp 2) 1 1 50)

/-- A NaN in the testing set prevents the training (it is evaluated before the first epoch, and no example is learned): the same lesson with a testing set without NaN goes on. Where a metric of the
testing set is not part of the criterion, this is a leak too. -/
theorem C65_nan_refuted : learningPart <$> tested .nan = learningPart <$> tested (.num 1) ∧
    (fun r => r.snn.net.numberOfTraining) <$> afterTest .nan = .ok 0 ∧
    (fun r => r.snn.net.numberOfTraining) <$> afterTest (.num 1) = .ok 4 := by
  decide +kernel

end Snn.LeakProps
