import Verif.Proofs.OnlineProofs
import Verif.Spec.LearnSpec
import Verif.Props.ConvergeProps
import Verif.Props.InferenceProps
import Verif.Props.TrainProps

/-! The whole training of a layer of linear neurons. -/

set_option linter.all false

namespace Snn.Converge

open Finset Snn.Spec Snn.Grad Snn.NeuronSpec Snn.Online Snn.TrainSpec Snn.TrainProofs Snn.ConvergeProps

/-- The example of a training step. -/
def exampleOf : Event ℝ → Option Example
  | .trained _ x y _ => some (x, y)
  | _ => none

/-- The examples learned in a trace, in chronological order. -/
def exs (t : List (Event ℝ)) : List Example := t.reverse.filterMap exampleOf

theorem exs_append (a b : List (Event ℝ)) : exs (a ++ b) = exs b ++ exs a := by simp [exs]

theorem run_append (ε : ℝ) (n : Nat) : ∀ (a b : List ((Nat → ℝ) × ℝ)) (s : St), run ε n s (a ++ b) = run ε n (run ε n s a) b
  | [], b, s => rfl
  | p :: a, b, s => by simp only [List.cons_append, run]; exact run_append ε n a b _

/-- The neurons have learned the examples L, one after the other. -/
def Follow (ε : ℝ) (ni no : Nat) (ns : List (Neuron ℝ)) (L : List Example) (ns' : List (Neuron ℝ)) : Prop :=
  ∀ k < no, stOf ns' ni k = run ε ni (stOf ns ni k) (L.map (seen k))

theorem Follow.nil (ε : ℝ) (ni no : Nat) (ns : List (Neuron ℝ)) : Follow ε ni no ns [] ns := fun k hk => rfl

theorem Follow.trans {ε : ℝ} {ni no : Nat} {a b c : List (Neuron ℝ)} {L M : List Example} (h : Follow ε ni no a L b) (g : Follow ε ni no b M c) :
    Follow ε ni no a (L ++ M) c := fun k hk => by rw [g k hk, h k hk, List.map_append, run_append]

theorem need_true {d : Data ℝ} (h : d.typeOfTemporal ≠ .timeSeries) (i : Int) : d.needToLearn i = .ok true := by
  unfold Data.needToLearn
  split
  · rename_i q; exact absurd q h
  · rfl

theorem stepLoop_replay {o : Sgd ℝ} {ni no : Nat} (hmom : o.momentum = 0) {env : Env ℝ} {wait : Wait ℝ} {b : Int} : ∀ (fuel : Nat) {r r' : Run ℝ} {ret : Bool}
    {ns : List (Neuron ℝ)}, SafeRun ni no b r → r.data.typeOfTemporal ≠ .timeSeries → 0 ≤ r.snn.index → Lin o ni no r.snn.net ns →
    stepLoop env wait b fuel r = .ok (ret, r') → ∃ ns' evs, Lin o ni no r'.snn.net ns' ∧ r'.trace = evs ++ r.trace ∧
      Follow (2 * o.learningRate) ni no ns (exs evs) ns' ∧ SafeRun ni no b r'
  | 0, r, r', ret, ns, _, _, _, _, h => by cases h
  | fuel + 1, r, r', ret, ns, hs, ht, hi, hl, h => by
    unfold stepLoop at h
    split at h
    · rename_i hfit
      unfold Run.continueTraining at h
      simp only at h
      split at h
      · obtain ⟨⟨ret1, r2⟩, h1, h⟩ := Res.bind_eq_ok.1 h
        obtain ⟨r3, g1, g2, g3, g4, g5⟩ := trainStep_safe (env := env) (hs.tick (r.ticks + 1)) hi hfit hl.nan
        rw [g1] at h1
        cases h1
        simp only [Bool.false_eq_true, if_false] at h
        -- the step
        obtain ⟨x, d1, e2, e3, e4⟩ := getTrainingData_safe hs.data hi hs.batch (by rw [← hs.size]; exact hfit)
        have s1 := hs.data.buffers e4
        obtain ⟨y, d2, e6, e7, e8⟩ := getTrainingOutputs_safe s1 hi hs.batch (by rw [e4.frame.size, ← hs.size]; exact hfit)
        have key : ∃ ns1 f, Lin o ni no r2.snn.net ns1 ∧ r2.trace = .trained r.snn.index x y f :: r.trace ∧
            Follow (2 * o.learningRate) ni no ns [(x, y)] ns1 ∧ r2.data = d2 := by
          unfold Run.trainStep at g1
          simp only [hl.nan, Bool.false_eq_true, if_false, need_true ht, Res.ok_bind, e2] at g1
          obtain ⟨f, _, g1⟩ := Res.bind_eq_ok.1 g1
          simp only [if_true, e6, Res.ok_bind] at g1
          obtain ⟨n', ns', k1, k2, k3⟩ := step_weights hl hmom e3 e7 f r.draws
          rw [k1] at g1
          cases g1
          exact ⟨ns', f, k2, rfl, fun k hk => k3 k hk, rfl⟩
        obtain ⟨ns1, f, k1, k2, k3, k4⟩ := key
        have t2 : r2.data.typeOfTemporal ≠ .timeSeries := by
          rw [k4, e8.frame.temporal, e4.frame.temporal]; exact ht
        have main := fun A B C D => stepLoop_replay (o := o) (ni := ni) (no := no) hmom fuel (ns := ns1) A B C D h
        obtain ⟨ns', evs, m1, m2, m3, m4⟩ := main ⟨g2.net, g2.data, g2.size, hs.batch⟩ t2 (by
          have : r2.snn.index = r.snn.index := g3
          have := hs.batch
          show 0 ≤ r2.snn.index + b
          omega) k1
        refine ⟨ns', evs ++ [.trained r.snn.index x y f], m1, by rw [m2]; simp [k2], ?_, m4⟩
        rw [exs_append]
        exact Follow.trans k3 m3
      · cases h
        exact ⟨ns, [], hl, rfl, Follow.nil _ _ _ _, hs.tick _⟩
    · cases h
      exact ⟨ns, [], hl, rfl, Follow.nil _ _ _ _, hs⟩

/-- The example at a position of the order of the data. -/
def exampleAt (ds : Data ℝ) (p : Nat) : Example :=
  (ds.training.inputs.getD (ds.training.shuffledIndexes.getD p 0) [], ds.training.labels.getD (ds.training.shuffledIndexes.getD p 0) [])

theorem getBatched_one {order : List Nat} {rows : List (List ℝ)} {w : Nat} {buf : List ℝ} {p : Int} {x : List ℝ} {bf : List ℝ}
    (h : getBatched order rows w buf p 1 = .ok (x, bf)) : x = rows.getD (order.getD p.toNat 0) [] := by
  unfold getBatched at h
  obtain ⟨i, h1, h⟩ := Res.bind_eq_ok.1 h
  simp only [le_refl, if_true] at h
  obtain ⟨row, h2, h⟩ := Res.bind_eq_ok.1 h
  cases h
  obtain ⟨a1, a2⟩ := rd_eq_ok.1 h1
  obtain ⟨b1, b2⟩ := rd_eq_ok.1 h2
  simp only [Int.toNat_natCast] at b2
  simp [List.getD_eq_getElem?_getD, a2, b2]

theorem fst_ok {α β : Type} {e : Res (α × β)} {x : α} (h : (·.1) <$> e = .ok x) : ∃ d, e = .ok (x, d) := by
  cases e with
  | ok v => cases v; exact ⟨_, by cases h; rfl⟩
  | throw _ => cases h
  | ub _ => cases h

theorem reads_example {ds : Data ℝ} (ht : ds.typeOfTemporal ≠ .timeSeries) {ev : Event ℝ} (h : Reads 1 ds ev) :
    ∃ p : Int, mark ev = some (some p) ∧ exampleOf ev = some (exampleAt ds p.toNat) := by
  cases ev with
  | trained p x y f =>
    obtain ⟨⟨b1, h1⟩, ⟨b2, h2⟩, _, _⟩ := h
    refine ⟨p, rfl, ?_⟩
    obtain ⟨d', h1⟩ := fst_ok h1
    obtain ⟨d2', h2⟩ := fst_ok h2
    unfold Data.getTrainingData at h1
    obtain ⟨⟨x1, c1⟩, j1, q1⟩ := Res.bind_eq_ok.1 h1
    cases q1
    unfold Data.getTrainingOutputs at h2
    obtain ⟨⟨y1, c2⟩, j2, q2⟩ := Res.bind_eq_ok.1 h2
    cases q2
    rw [exampleOf, exampleAt, getBatched_one j1, getBatched_one j2]
  | skipped p =>
    have h : ds.needToLearn p = .ok false := h
    rw [need_true ht] at h
    cases h
  | shuffled => exact h.elim
  | evaluated _ _ => exact h.elim
  | saved _ _ => exact h.elim

theorem exs_reads {ds : Data ℝ} (ht : ds.typeOfTemporal ≠ .timeSeries) : ∀ (es : List (Event ℝ)), (∀ ev ∈ es, Reads 1 ds ev) →
    ∃ ps : List Int, es.filterMap mark = ps.map some ∧ es.filterMap exampleOf = ps.map fun p => exampleAt ds p.toNat
  | [], _ => ⟨[], rfl, rfl⟩
  | ev :: es, h => by
    obtain ⟨ps, h1, h2⟩ := exs_reads ht es fun e he => h e (by simp [he])
    obtain ⟨p, h3, h4⟩ := reads_example ht (h ev (by simp))
    exact ⟨p :: ps, by rw [List.filterMap_cons_some h3, h1]; rfl, by rw [List.filterMap_cons_some h4, h2]; rfl⟩

/-- The examples of the training set. -/
def trainingExamples (d : Data ℝ) : List Example :=
  (List.range d.training.size).map fun j => (d.training.inputs.getD j [], d.training.labels.getD j [])

theorem order_perm {d : Data ℝ} (hI : DInv d) (ht : d.typeOfTemporal ≠ .timeSeries) : d.training.shuffledIndexes.Perm (List.range d.training.size) := by
  cases h : d.typeOfTemporal with
  | nonTemporal => exact hI.nonTemporal h
  | sequential => rw [(hI.seq h).2]
  | timeSeries => exact absurd h ht

theorem examples_order {ds : Data ℝ} (hI : DInv ds) (ht : ds.typeOfTemporal ≠ .timeSeries) :
    ((List.range ds.training.size).map (exampleAt ds)).Perm (trainingExamples ds) := by
  have h1 : (List.range ds.training.size).map (exampleAt ds)
      = ds.training.shuffledIndexes.map fun j => (ds.training.inputs.getD j [], ds.training.labels.getD j []) := by
    rw [← hI.len]
    apply List.ext_getElem (by simp)
    intro i h1 h2
    have hi : i < ds.training.shuffledIndexes.length := by simpa using h1
    simp [exampleAt, List.getD_eq_getElem?_getD, List.getElem?_eq_getElem hi]
  rw [h1]
  exact (order_perm hI ht).map _

theorem trainingExamples_frame {d d' : Data ℝ} (h : Frame d d') : trainingExamples d' = trainingExamples d := by
  unfold trainingExamples
  rw [h.size, h.inputs, h.labels]

theorem stOf_same {ns ns' : List (Neuron ℝ)} (h : List.Forall₂ Neuron.Same ns ns') (ni k : Nat) : stOf ns' ni k = stOf ns ni k := by
  have e : ns'[k]?.map (·.weights) = ns[k]?.map (·.weights) := by
    induction h generalizing k with
    | nil => rfl
    | cons a b ih => cases k with
      | zero => simp [a.weights]
      | succ k => simpa using ih k
  have c : ∀ j, (match ns'[k]? with | some m => m.weights.getD j 0 | none => 0) = (match ns[k]? with | some m => m.weights.getD j (0 : ℝ) | none => 0) := by
    intro j
    cases h1 : ns'[k]? <;> cases h2 : ns[k]? <;> rw [h1, h2] at e <;> simp at e ⊢
    rw [e]
  refine Prod.ext (funext fun i => ?_) (c ni)
  exact if_congr Iff.rfl (c i) rfl

theorem evaluateLoop_nan {nan : ℝ} {data : Data ℝ} : ∀ {k : Nat} {s s' : Snn ℝ} {b : Bool},
    evaluateLoop nan data k s = .ok (b, s') → s.net.outputNan = false → s'.net.outputNan = false
  | 0, s, s', b, h, hn => by cases h; exact hn
  | k + 1, s, s', b, h, hn => by
    unfold evaluateLoop at h
    rw [hn] at h
    simp only [Bool.false_eq_true, if_false] at h
    obtain ⟨need, _, h⟩ := Res.bind_eq_ok.1 h
    obtain ⟨s1, h1, h⟩ := Res.bind_eq_ok.1 h
    have k1 : s1.net.outputNan = false := by
      split at h1
      · unfold Snn.evaluateOnce at h1
        obtain ⟨x, _, h1⟩ := Res.bind_eq_ok.1 h1
        obtain ⟨first, _, h1⟩ := Res.bind_eq_ok.1 h1
        split at h1
        all_goals
          obtain ⟨_, _, h1⟩ := Res.bind_eq_ok.1 h1
          obtain ⟨_, _, h1⟩ := Res.bind_eq_ok.1 h1
          obtain ⟨⟨out, net⟩, h2, h1⟩ := Res.bind_eq_ok.1 h1
          obtain ⟨st, _, h1⟩ := Res.bind_eq_ok.1 h1
          cases h1
          obtain ⟨_, _, _, _, q⟩ := Net.output_same h2
          show net.outputNan = false
          rw [q, hn, hasBadValue_real]; rfl
      · obtain ⟨_, _, h1⟩ := Res.bind_eq_ok.1 h1
        obtain ⟨_, _, h1⟩ := Res.bind_eq_ok.1 h1
        obtain ⟨⟨out, net⟩, h2, h1⟩ := Res.bind_eq_ok.1 h1
        cases h1
        obtain ⟨_, _, _, _, q⟩ := Net.output_same h2
        show net.outputNan = false
        rw [q, hn, hasBadValue_real]; rfl
    exact evaluateLoop_nan h k1

theorem evaluate_nan {env : Env ℝ} {r r' : Run ℝ} (h : r.evaluate env = .ok r') (hn : r.snn.net.outputNan = false) : r'.snn.net.outputNan = false := by
  unfold Run.evaluate at h
  obtain ⟨⟨b, s⟩, h1, h⟩ := Res.bind_eq_ok.1 h
  have k := evaluateLoop_nan h1 hn
  simp only [] at h
  split at h
  · cases h; exact k
  · split at h
    · cases h; exact k
    · cases h; exact k

/-- An evaluation changes no weight. -/
theorem evaluate_lin {o : Sgd ℝ} {ni no : Nat} {env : Env ℝ} {r r' : Run ℝ} {ns : List (Neuron ℝ)}
    (hl : Lin o ni no r.snn.net ns) (hw : SafeNet ni no r'.snn.net) (h : r.evaluate env = .ok r') :
    ∃ ns', Lin o ni no r'.snn.net ns' ∧ Follow (2 * o.learningRate) ni no ns [] ns' := by
  obtain ⟨k, -⟩ := InferenceProps.evaluate_keeps h
  have hkin : List.Forall₂ Layer.Kin r.snn.net.layers r'.snn.net.layers := k.layers.imp fun _ _ a => a.toKin
  obtain ⟨ns', hl'⟩ := lin_of_kin hl hkin hw.wf (evaluate_nan h hl.nan)
  refine ⟨ns', hl', fun k' hk' => ?_⟩
  obtain ⟨l, e1, e2, e3⟩ := hl.layers
  obtain ⟨l', f1, f2, f3⟩ := hl'.layers
  have hs := k.layers
  rw [e1, f1] at hs
  cases hs with
  | cons a b =>
    have := a.body
    rw [e3, f3] at this
    rw [stOf_same this]
    rfl

/-- One epoch with batches of one example: one pass over the training set, in some order. -/
structure Epoch1 (o : Sgd ℝ) (ni no : Nat) (ns : List (Neuron ℝ)) (r r' : Run ℝ) (L : List Example) (ns' : List (Neuron ℝ)) : Prop where
  lin : Lin o ni no r'.snn.net ns'
  follow : Follow (2 * o.learningRate) ni no ns L ns'
  perm : L.Perm (trainingExamples r.data)
  safe : SafeRun ni no 1 r'
  epoch : r'.snn.epoch = r.snn.epoch
  stop : r'.snn.wantToStopTraining = false
  temporal : r'.data.typeOfTemporal = r.data.typeOfTemporal
  examples : trainingExamples r'.data = trainingExamples r.data

theorem epochBody_replay {o : Sgd ℝ} {ni no : Nat} (hmom : o.momentum = 0) {env : Env ℝ} {wait : Wait ℝ} {ef : Int} {fuel : Nat} {r r' : Run ℝ} {ret : Bool}
    {ns : List (Neuron ℝ)} (hs : SafeRun ni no 1 r) (ht : r.data.typeOfTemporal ≠ .timeSeries) (hl : Lin o ni no r.snn.net ns)
    (hover : ∀ t a m, wait.isOver t r.snn.epoch a m = false) (hstop : r.snn.wantToStopTraining = false)
    (h : r.epochBody env wait 1 ef fuel = .ok (ret, r')) : ret = false ∧ ∃ L ns', Epoch1 o ni no ns r r' L ns' := by
  obtain ⟨d1, s1, s2, s3⟩ := shuffle_safe hs.data (env.rng r.snn.epoch)
  unfold Run.epochBody at h
  rw [s1] at h
  simp only [Res.ok_bind] at h
  obtain ⟨⟨ret1, r2⟩, h1, h⟩ := Res.bind_eq_ok.1 h
  have hs1 : SafeRun ni no 1 { r with data := d1, snn := { r.snn with index := 0 }, trace := .shuffled :: r.trace } :=
    ⟨hs.net, s2, by simp only [hs.size, s3.size], hs.batch⟩
  have ht1 : d1.typeOfTemporal ≠ .timeSeries := by rw [s3.temporal]; exact ht
  have key := fun A B C D => stepLoop_replay (o := o) (ni := ni) (no := no) hmom fuel (ns := ns) A B C D h1
  obtain ⟨ns', evs, m1, m2, m3, m4⟩ := key hs1 ht1 (by simp) hl
  have key2 := fun A => stepLoop_spec (F := ℝ) (env := env) (wait := wait) (b := 1) (ds := d1) A h1
  obtain ⟨e1, m, lo⟩ := key2 (SameButBuffers.refl _)
  subst e1
  obtain ⟨net, p1, p2, p3, p4, evs', p5, p6, p7, p8, p9, p10⟩ := lo.snn
  have hev : evs' = evs := List.append_cancel_right (p5.symm.trans m2)
  subst hev
  have hst2 : r2.snn.wantToStopTraining = false := by rw [p1]; exact hstop
  have hep2 : r2.snn.epoch = r.snn.epoch := by rw [p1]
  have hm : m = d1.training.size := by
    have a1 := lo.stop
    have a2 := lo.fits
    have hz : r.snn.numberOfTrainingsBetweenTwoEvaluations = d1.training.size := by rw [s3.size]; exact hs.size
    simp only [hz, hst2, m1.nan, Bool.false_eq_true, false_or] at a1 a2
    rcases a1 with a1 | ⟨t, a1⟩
    · push_cast at a1 a2; omega
    · rw [hover] at a1; cases a1
  obtain ⟨ps, q1, q2⟩ := exs_reads ht1 evs'.reverse fun ev he => p6 ev (by simpa using he)
  have hps : ps = (List.range m).map fun k : Nat => (k : Int) := by
    have : ps.map some = ((List.range m).map fun k : Nat => (k : Int)).map some := by
      rw [← q1]
      refine (show evs'.reverse.filterMap mark = steps evs' from rfl).trans (p7.trans ?_)
      simp
    exact List.map_injective_iff.2 (Option.some_injective _) this
  have hexs : (exs evs').Perm (trainingExamples r.data) := by
    rw [exs, q2, hps, List.map_map, hm]
    have := examples_order s2.inv ht1
    rw [trainingExamples_frame s3] at this
    exact this
  have hframe := lo.data.frame
  simp only [Bool.false_eq_true, if_false] at h
  split at h
  · obtain ⟨r3, h3, h⟩ := Res.bind_eq_ok.1 h
    obtain ⟨r3', g1, g2, g3⟩ := evaluate_safe env m4.net m4.data
    rw [h3] at g1
    cases g1
    cases h
    obtain ⟨ns2, k1, k2⟩ := evaluate_lin m1 g2 h3
    refine ⟨rfl, exs evs', ns2, k1, by simpa using m3.trans k2, hexs, ⟨g2, by rw [g3.data]; exact m4.data, by rw [g3.between, g3.data]; exact m4.size, le_refl _⟩,
      g3.epoch.trans hep2, ?_, by rw [g3.data, hframe.temporal, s3.temporal], by rw [g3.data, trainingExamples_frame hframe, trainingExamples_frame s3]⟩
    rcases g3.flags with f | f
    · rw [f.1]; exact hst2
    · exact f.2.1
  · cases h
    exact ⟨rfl, exs evs', ns', m1, m3, hexs, m4, hep2, hst2, by rw [hframe.temporal, s3.temporal], by rw [trainingExamples_frame hframe, trainingExamples_frame s3]⟩

/-- The passes over the training set of a training with batches of one example. -/
structure Passes (o : Sgd ℝ) (ni no : Nat) (ns : List (Neuron ℝ)) (net' : Net ℝ) (X : List Example) (P : List (List Example)) (ns' : List (Neuron ℝ)) : Prop where
  lin : Lin o ni no net' ns'
  follow : Follow (2 * o.learningRate) ni no ns P.flatten ns'
  perm : ∀ L ∈ P, L.Perm X

theorem epochLoop_replay {o : Sgd ℝ} {ni no : Nat} (hmom : o.momentum = 0) {env : Env ℝ} {wait : Wait ℝ} {N : Nat}
    (hover : ∀ t e a m, wait.isOver t e a m = decide (e > (N : Int))) {ef : Int} {inner : Nat} : ∀ (fuel e : Nat) {r r' : Run ℝ} {ret : Bool}
    {ns : List (Neuron ℝ)}, e ≤ N → r.snn.epoch = ((N + 1 - e : Nat) : Int) → SafeRun ni no 1 r → r.data.typeOfTemporal ≠ .timeSeries → Lin o ni no r.snn.net ns →
    r.snn.wantToStopTraining = false → epochLoop env wait 1 ef inner fuel r = .ok (ret, r') →
    ret = false ∧ ∃ P ns', P.length = e ∧ Passes o ni no ns r'.snn.net (trainingExamples r.data) P ns'
  | 0, e, r, r', ret, ns, _, _, _, _, _, _, h => by cases h
  | fuel + 1, e, r, r', ret, ns, heN, he, hs, ht, hl, hstop, h => by
    unfold epochLoop at h
    unfold Run.continueTraining at h
    simp only [hstop, hl.nan, hover, he, Bool.not_false, Bool.true_and, Bool.and_true] at h
    cases e with
    | zero =>
      have : decide ((((N + 1 - 0 : Nat) : Int)) > (N : Int)) = true := by simp
      rw [this] at h
      cases h
      exact ⟨rfl, [], ns, rfl, hl, Follow.nil _ _ _ _, by simp⟩
    | succ e =>
      have hlt : (((N + 1 - (e + 1) : Nat) : Int)) ≤ (N : Int) := by omega
      have : decide ((((N + 1 - (e + 1) : Nat) : Int)) > (N : Int)) = false := by simpa using hlt
      rw [this] at h
      simp only [Bool.not_false, if_true] at h
      obtain ⟨⟨ret1, r2⟩, h1, h⟩ := Res.bind_eq_ok.1 h
      have key := fun A B C D E => epochBody_replay (o := o) (ni := ni) (no := no) hmom (ns := ns) A B C D E h1
      obtain ⟨e1, L, ns1, q⟩ := key (hs.tick _) ht hl (by intro t a m; rw [hover]; simp only [he]; exact this) hstop
      subst e1
      simp only [Bool.false_eq_true, if_false] at h
      have ih := fun A B C D E => epochLoop_replay (o := o) (ni := ni) (no := no) hmom hover fuel e (ns := ns1) (by omega) A B C D E h
      obtain ⟨e2, P, ns', i1, i2⟩ := ih (by
        have := q.epoch
        show r2.snn.epoch + 1 = _
        rw [this]
        show r.snn.epoch + 1 = _
        rw [he]; omega) ⟨q.safe.net, q.safe.data, q.safe.size, le_refl _⟩ (by show r2.data.typeOfTemporal ≠ _; rw [q.temporal]; exact ht) q.lin q.stop
      refine ⟨e2, L :: P, ns', by simp [i1], i2.lin, ?_, ?_⟩
      · rw [List.flatten_cons]; exact q.follow.trans i2.follow
      · have hx : trainingExamples r2.data = trainingExamples r.data := q.examples
        intro M hM
        rcases List.mem_cons.1 hM with rfl | hM
        · exact q.perm
        · have := i2.perm M hM
          rwa [show trainingExamples r2.data = trainingExamples r.data from hx] at this

theorem litEp_over {N : Nat} (hN2 : N < 2 ^ 31) (t e : Int) (a m : ℝ) : (litEp N : Wait ℝ).isOver t e a m = decide (e > (N : Int)) := by
  have hepochs : (litEp N : Wait ℝ).epochs = (N : Int) := by
    simp only [litEp]
    exact WaitSpec.toInt32_small hN2
  have hlit : fle (lit 0 : ℝ) (lit (-1)) = false := by simp [fle, lit]
  have e1 : (litEp N : Wait ℝ).op = .noneOp := rfl
  have e2 : (litEp N : Wait ℝ).accuracy = lit (-1) := rfl
  have e3 : (litEp N : Wait ℝ).mae = lit (-1) := rfl
  have e4 : (litEp N : Wait ℝ).duration = -1 := rfl
  unfold Wait.isOver
  have hne : ¬ (WaitOp.noneOp = WaitOp.andOp) := by decide
  simp only [e1, e2, e3, e4, hepochs, hlit, if_neg hne]
  simp
  omega

theorem trainingExamples_eq {ni no : Nat} {d : Data ℝ} (h : SafeData ni no d) : trainingExamples d = examplesOf d := by
  unfold trainingExamples examplesOf
  have h1 := h.trainSize
  have h2 := h.train.count
  apply List.ext_getElem (by simp; omega)
  intro i a b
  have hi : i < d.training.size := by simpa using a
  simp [List.getD_eq_getElem?_getD, List.getElem?_eq_getElem (show i < d.training.inputs.length by omega),
    List.getElem?_eq_getElem (show i < d.training.labels.length by omega)]

theorem train_replay {o : Sgd ℝ} {ni no : Nat} (hmom : o.momentum = 0) {env : Env ℝ} {N : Nat} (hN : N < 2 ^ 31) {ef : Int} {fuel : Nat} {r r' : Run ℝ}
    {ns : List (Neuron ℝ)} (hn : SafeNet ni no r.snn.net) (hd : SafeData ni no r.data) (ht : r.data.typeOfTemporal ≠ .timeSeries) (hl : Lin o ni no r.snn.net ns)
    (h : r.train env (litEp N) 1 ef fuel = .ok r') : ∃ P ns', P.length = N ∧ Passes o ni no ns r'.snn.net (examplesOf r.data) P ns' := by
  unfold Run.train at h
  obtain ⟨_, hv, h⟩ := Res.bind_eq_ok.1 h
  split at h
  · cases h
  simp only at h
  unfold Run.trainSync at h
  obtain ⟨r1, h1, h⟩ := Res.bind_eq_ok.1 h
  have hb : SafeRun ni no 1 ({ r with snn := { r.snn with wantToStopTraining := true } } : Run ℝ).begin := ⟨hn, hd, rfl, le_refl _⟩
  have key : ∃ ns1, Lin o ni no r1.snn.net ns1 ∧ Follow (2 * o.learningRate) ni no ns [] ns1 ∧ SafeRun ni no 1 r1 ∧ r1.data = r.data ∧
      r1.snn.wantToStopTraining = false := by
    split at h1
    · obtain ⟨r3, g1, g2, g3⟩ := evaluate_safe env hb.net hb.data
      rw [h1] at g1
      cases g1
      have hl' : Lin o ni no ({ r with snn := { r.snn with wantToStopTraining := true } } : Run ℝ).begin.snn.net ns := hl
      obtain ⟨ns1, k1, k2⟩ := evaluate_lin hl' g2 h1
      refine ⟨ns1, k1, k2, ⟨g2, by rw [g3.data]; exact hd, by rw [g3.between, g3.data]; rfl, le_refl _⟩, g3.data, ?_⟩
      rcases g3.flags with f | f
      · rw [f.1]; rfl
      · exact f.2.1
    · cases h1
      exact ⟨ns, hl, Follow.nil _ _ _ _, hb, rfl, rfl⟩
  obtain ⟨ns1, k1, k2, k3, k4, k5⟩ := key
  obtain ⟨⟨ret, r2⟩, h2, h⟩ := Res.bind_eq_ok.1 h
  have main := fun A B C D E => epochLoop_replay (o := o) (ni := ni) (no := no) hmom (litEp_over hN) fuel N (ns := ns1) (le_refl _) A B C D E h2
  obtain ⟨e1, P, ns', i1, i2⟩ := main (by show (1 : Int) = _; omega) ⟨k3.net, k3.data, k3.size, le_refl _⟩ (by show r1.data.typeOfTemporal ≠ _; rw [k4]; exact ht) k1 k5
  subst e1
  cases h
  refine ⟨P, ns', i1, ⟨i2.lin.wf, i2.lin.nan, i2.lin.layers, i2.lin.act, i2.lin.bias, i2.lin.opt⟩, by simpa using k2.trans i2.follow, ?_⟩
  have := i2.perm
  simp only [k4, trainingExamples_eq hd] at this
  exact this

theorem litEp_epochs {N : Nat} (hN : N < 2 ^ 31) : (litEp N : Wait ℝ).epochs.toNat = N := by
  have : (litEp N : Wait ℝ).epochs = (N : Int) := by
    simp only [litEp]
    exact WaitSpec.toInt32_small hN
  rw [this]; rfl

theorem same_follow {o : Sgd ℝ} {ni no : Nat} {n n' : Net ℝ} {ns : List (Neuron ℝ)} (hl : Lin o ni no n ns) (hw : n'.WF ni no) (hnan : n'.outputNan = false)
    (hk : List.Forall₂ Layer.Same n.layers n'.layers) (X : List Example) : ∃ ns', Passes o ni no ns n' X [] ns' := by
  obtain ⟨ns', hl'⟩ := lin_of_kin hl (hk.imp fun _ _ a => a.toKin) hw hnan
  refine ⟨ns', hl', fun k' hk' => ?_, by simp⟩
  obtain ⟨l, e1, e2, e3⟩ := hl.layers
  obtain ⟨l', f1, f2, f3⟩ := hl'.layers
  rw [e1, f1] at hk
  cases hk with
  | cons a b =>
    have := a.body
    rw [e3, f3] at this
    rw [stOf_same this]
    rfl

open Snn.HistoryProps Snn.SafeProps in
theorem calls_replay {o : Sgd ℝ} {ni no : Nat} (hmom : o.momentum = 0) {X : List Example} : ∀ (calls : List (Call ℝ)) {r : Run ℝ} {ns : List (Neuron ℝ)},
    (∀ c ∈ calls, CallFits ni no c ∧ Studies X c) → SafeNet ni no r.snn.net → r.snn.isIdle = true → Lin o ni no r.snn.net ns →
    ∃ r' P ns', calls.foldlM Call.run r = .ok r' ∧ P.length = epochs calls ∧ Passes o ni no ns r'.snn.net X P ns' ∧
      SafeNet ni no r'.snn.net ∧ r'.snn.isIdle = true
  | [], r, ns, _, hn, hi, hl => ⟨r, [], ns, rfl, rfl, ⟨hl, Follow.nil _ _ _ _, by simp⟩, hn, hi⟩
  | c :: cs, r, ns, hc, hn, hi, hl => by
    obtain ⟨c1, c2⟩ := hc c (by simp)
    obtain ⟨r1, h1, h2, h3⟩ := call_safe c1 hn hi
    have key : ∃ P ns', P.length = epochsOf c ∧ Passes o ni no ns r1.snn.net X P ns' := by
      cases c with
      | computeOutput x t =>
        obtain ⟨y, net, q1, q2, q3, q4⟩ := Net.output_ok hn.wf x c1 t
        simp [Call.run, Snn.computeOutput, q1] at h1
        subst h1
        obtain ⟨a1, _, _, _, a5⟩ := Net.output_same q1
        obtain ⟨ns', q⟩ := same_follow hl h2.wf (by show net.outputNan = false; rw [a5, hl.nan, hasBadValue_real]; rfl) a1 X
        exact ⟨[], ns', rfl, q⟩
      | computeCluster x t =>
        obtain ⟨y, net, q1, q2, q3, q4⟩ := Net.output_ok hn.wf x c1 t
        simp [Call.run, Snn.computeCluster, q1] at h1
        subst h1
        obtain ⟨a1, _, _, _, a5⟩ := Net.output_same q1
        obtain ⟨ns', q⟩ := same_follow hl h2.wf (by show net.outputNan = false; rw [a5, hl.nan, hasBadValue_real]; rfl) a1 X
        exact ⟨[], ns', rfl, q⟩
      | evaluate env data =>
        have h1' : ({ r with data := data } : Run ℝ).evaluate env = .ok r1 := h1
        obtain ⟨ns', q⟩ := same_follow hl h2.wf (evaluate_nan h1' hl.nan) (InferenceProps.evaluate_keeps h1').1.layers X
        exact ⟨[], ns', rfl, q⟩
      | train env data wait b ef fuel =>
        obtain ⟨d1, d2, rfl, N, hN, rfl⟩ := c2
        have h1' : ({ r with data := data } : Run ℝ).train env (litEp N) 1 ef fuel = .ok r1 := h1
        have main := fun A B C D => train_replay (o := o) (ni := ni) (no := no) hmom hN (ns := ns) A B C D h1'
        obtain ⟨P, ns', q1, q2⟩ := main hn c1.1.safe d2 hl
        refine ⟨P, ns', by rw [q1]; exact (litEp_epochs hN).symm, ?_⟩
        rw [← d1]
        exact q2
      | saveAs path =>
        have : r1.snn.net = r.snn.net := by
          simp [Call.run, Run.saveAs, hi] at h1
          rw [← h1]; rfl
        refine ⟨[], ns, rfl, by rw [this]; exact hl, Follow.nil _ _ _ _, by simp⟩
      | autoSave w path =>
        cases h1
        exact ⟨[], ns, rfl, hl, Follow.nil _ _ _ _, by simp⟩
    obtain ⟨P, ns1, p1, p2⟩ := key
    obtain ⟨r', P', ns', q1, q2, q3, q4⟩ := calls_replay hmom cs (fun c' hc' => hc c' (by simp [hc'])) h2 h3 p2.lin
    refine ⟨r', P ++ P', ns', by rw [List.foldlM_cons, h1]; exact q1, by simp [p1, q2, epochs], ⟨q3.lin, ?_, ?_⟩, q4⟩
    · rw [List.flatten_append]; exact p2.follow.trans q3.follow
    · intro L hL
      rcases List.mem_append.1 hL with hL | hL
      · exact p2.perm L hL
      · exact q3.perm L hL

theorem near_passes {ε : ℝ} {ni k : Nat} {X : List Example} {ρ : ℝ}
    (hpass : ∀ (c : ℝ) (s : St) (ps : List ((Nat → ℝ) × ℝ)), (∀ p, p ∈ ps ↔ p ∈ X.map (seen k)) → ps.length ≤ X.length →
      Near ε ni (X.map (seen k)) c s → Near ε ni (X.map (seen k)) (ρ * c) (run ε ni s ps)) :
    ∀ (P : List (List Example)), (∀ L ∈ P, L.Perm X) → ∀ (c : ℝ) (s : St), Near ε ni (X.map (seen k)) c s →
      Near ε ni (X.map (seen k)) (ρ ^ P.length * c) (run ε ni s (P.flatten.map (seen k)))
  | [], _, c, s, h => by simpa [run] using h
  | L :: P, hP, c, s, h => by
    have hL := hP L (by simp)
    have h1 := hpass c s (L.map (seen k)) (fun p => (hL.map (seen k)).mem_iff) (by simp [hL.length_eq]) h
    have h2 := near_passes hpass P (fun M hM => hP M (by simp [hM])) (ρ * c) _ h1
    rw [List.flatten_cons, List.map_append, run_append, List.length_cons, pow_succ, mul_assoc]
    exact h2

end Snn.Converge
