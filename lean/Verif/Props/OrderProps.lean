import Verif.Props.StatProps
import Verif.Props.InferenceProps
import Verif.Demo.Demo
import Verif.Basic.NanFlt

/-!
# C57: the order of the testing examples

Non temporal data, no recurrent layer; exact arithmetic (any linearly ordered field) for `C57_evaluate`, every carrier before.
-/

set_option linter.all false

namespace Snn.OrderProps

open Snn.Spec Snn.StatSpec Snn.InferenceProps

section Carrier
variable {F : Type} [Flt F] [FTrans F] [Add F] [Sub F] [Mul F] [Div F] [Neg F]

/-- The evaluation of one example (input, label) by a network. -/
def Judges (data : Data F) (net : Net F) (row : List F × List F) (e : Ev F) : Prop :=
  ∃ out, Prod.fst <$> net.output row.1 false = .ok out ∧
    match data.typeOfProblem with
    | .classification => ∃ k, firstOne row.2 0 = some k ∧ e = .classification out (k : Int) data.separator
    | .multipleClassification => e = .multiple out row.2 data.separator
    | .regression => e = .regression out row.2 data.precision

/-- Every output of the network on a testing example is a normal number or zero, as its NaN test requires. -/
def Good (data : Data F) (net : Net F) : Prop :=
  ∀ x ∈ data.testing.inputs, ∀ out, Prod.fst <$> net.output x false = .ok out → hasBadValue out = false

/-- The testing examples. -/
def rows (d : Data F) : List (List F × List F) := d.testing.inputs.zip d.testing.labels

theorem map_fst_ok {α β : Type} {x : Res (α × β)} {a : α} (h : Prod.fst <$> x = .ok a) : ∃ b, x = .ok (a, b) := by
  cases x with
  | ok p => obtain ⟨a', b⟩ := p; cases h; exact ⟨b, rfl⟩
  | throw m => cases h
  | ub m => cases h

section
variable {data : Data F} {net0 : Net F} (hnt : data.typeOfTemporal = .nonTemporal)
  (hrec : ∀ l ∈ net0.layers, NonRecurrent l) (hgood : Good data net0)

include hnt hrec hgood

theorem evaluateOnce_judges {s s' : Snn F} (hs : List.Forall₂ Layer.Same net0.layers s.net.layers)
    (i : Nat) (hi : s.index = (i : Int)) (h : s.evaluateOnce data = .ok s')
    (h1 : i < data.testing.inputs.length) (h2 : i < data.testing.labels.length) :
    ∃ e, Judges data net0 (data.testing.inputs[i], data.testing.labels[i]) e ∧ s.net.stats.evaluateOnce e = .ok s'.net.stats ∧
      s'.net.outputNan = s.net.outputNan ∧ s'.index = s.index := by
  unfold Snn.evaluateOnce at h
  rw [hi] at h
  obtain ⟨x, hx, h⟩ := Res.bind_eq_ok.1 h
  obtain ⟨first, hf, h⟩ := Res.bind_eq_ok.1 h
  have hx' : x = data.testing.inputs[i] := by
    unfold Data.getTestingData at hx
    rw [rd_nat _ _ h1] at hx
    cases hx; rfl
  unfold Judges
  split at h
  · rename_i hp
    obtain ⟨k, hk, h⟩ := Res.bind_eq_ok.1 h
    obtain ⟨sep, hsep, h⟩ := Res.bind_eq_ok.1 h
    obtain ⟨⟨out, net⟩, ho, h⟩ := Res.bind_eq_ok.1 h
    obtain ⟨st, hst, h⟩ := Res.bind_eq_ok.1 h
    cases h
    have hrel := Net.output_rel hs hrec x false first
    rw [ho] at hrel
    obtain ⟨k1, k2, k3, k4, k5⟩ := Net.output_same ho
    refine ⟨.classification out (k : Int) data.separator, ⟨out, by rw [← hx']; exact hrel, ?_⟩, ?_, by simp [k5, hgood x (by rw [hx']; exact List.getElem_mem _) out hrel], hi.symm ▸ rfl⟩
    · rw [hp]
      refine ⟨k, ?_, rfl⟩
      unfold Data.getTestingLabel at hk
      rw [hp] at hk
      simp only at hk
      rw [rd_nat _ _ h2] at hk
      simp only [Res.ok_bind] at hk
      cases hq : firstOne data.testing.labels[i] 0 with
      | none => rw [hq] at hk; cases hk
      | some v => rw [hq] at hk; cases hk; rfl
    · have : sep = data.separator := by
        unfold Data.getSeparator at hsep
        rw [if_pos (by simp [hp])] at hsep
        cases hsep; rfl
      rw [← this, ← k4]; exact hst
  · rename_i hp
    obtain ⟨k, hk, h⟩ := Res.bind_eq_ok.1 h
    obtain ⟨sep, hsep, h⟩ := Res.bind_eq_ok.1 h
    obtain ⟨⟨out, net⟩, ho, h⟩ := Res.bind_eq_ok.1 h
    obtain ⟨st, hst, h⟩ := Res.bind_eq_ok.1 h
    cases h
    have hrel := Net.output_rel hs hrec x false first
    rw [ho] at hrel
    obtain ⟨k1, k2, k3, k4, k5⟩ := Net.output_same ho
    refine ⟨.multiple out k data.separator, ⟨out, by rw [← hx']; exact hrel, ?_⟩, ?_, by simp [k5, hgood x (by rw [hx']; exact List.getElem_mem _) out hrel], hi.symm ▸ rfl⟩
    · rw [hp]
      unfold Data.getTestingOutputs at hk
      rw [hp] at hk
      simp only at hk
      rw [rd_nat _ _ h2] at hk
      cases hk; rfl
    · have : sep = data.separator := by
        unfold Data.getSeparator at hsep
        rw [if_pos (by simp [hp])] at hsep
        cases hsep; rfl
      rw [← this, ← k4]; exact hst
  · rename_i hp
    obtain ⟨k, hk, h⟩ := Res.bind_eq_ok.1 h
    obtain ⟨sep, hsep, h⟩ := Res.bind_eq_ok.1 h
    obtain ⟨⟨out, net⟩, ho, h⟩ := Res.bind_eq_ok.1 h
    obtain ⟨st, hst, h⟩ := Res.bind_eq_ok.1 h
    cases h
    have hrel := Net.output_rel hs hrec x false first
    rw [ho] at hrel
    obtain ⟨k1, k2, k3, k4, k5⟩ := Net.output_same ho
    refine ⟨.regression out k data.precision, ⟨out, by rw [← hx']; exact hrel, ?_⟩, ?_, by simp [k5, hgood x (by rw [hx']; exact List.getElem_mem _) out hrel], hi.symm ▸ rfl⟩
    · rw [hp]
      unfold Data.getTestingOutputs at hk
      rw [hp] at hk
      simp only at hk
      rw [rd_nat _ _ h2] at hk
      cases hk; rfl
    · have : sep = data.precision := by
        unfold Data.getPrecision at hsep
        rw [if_pos hp] at hsep
        cases hsep; rfl
      rw [← this, ← k4]; exact hst

theorem judges_evaluateOnce {s : Snn F} {st : Stats F} {e : Ev F} (hs : List.Forall₂ Layer.Same net0.layers s.net.layers)
    (i : Nat) (hi : s.index = (i : Int)) (h1 : i < data.testing.inputs.length) (h2 : i < data.testing.labels.length)
    (he : Judges data net0 (data.testing.inputs[i], data.testing.labels[i]) e) (hst : s.net.stats.evaluateOnce e = .ok st) :
    ∃ s', s.evaluateOnce data = .ok s' ∧ s'.net.stats = st := by
  obtain ⟨out, ho, he⟩ := he
  have hrel := Net.output_rel hs hrec data.testing.inputs[i] false false
  rw [ho] at hrel
  obtain ⟨net, hnet⟩ := map_fst_ok hrel.symm
  obtain ⟨k1, k2, k3, k4, k5⟩ := Net.output_same hnet
  have hx : data.getTestingData s.index = .ok data.testing.inputs[i] := by
    rw [hi]; exact rd_nat _ _ h1
  have hf : data.isFirstTesting s.index = .ok false := by
    unfold Data.isFirstTesting; rw [hnt]
  rw [← k4] at hst
  unfold Snn.evaluateOnce
  rw [hx, hf]
  simp only [Res.ok_bind]
  cases hp : data.typeOfProblem with
  | classification =>
    rw [hp] at he
    obtain ⟨k, hk, rfl⟩ := he
    have hl : data.getTestingLabel s.index = .ok k := by
      unfold Data.getTestingLabel
      rw [hp, hi]
      simp only
      rw [rd_nat _ _ h2]
      simp only [Res.ok_bind, hk]
      rfl
    have hsep : data.getSeparator = .ok data.separator := by unfold Data.getSeparator; rw [if_pos (by simp [hp])]
    simp only [hl, hsep, hnet, Res.ok_bind, hst]
    exact ⟨_, rfl, rfl⟩
  | multipleClassification =>
    rw [hp] at he
    subst he
    have hl : data.getTestingOutputs s.index = .ok data.testing.labels[i] := by
      unfold Data.getTestingOutputs
      rw [hp, hi]
      exact rd_nat _ _ h2
    have hsep : data.getSeparator = .ok data.separator := by unfold Data.getSeparator; rw [if_pos (by simp [hp])]
    simp only [hl, hsep, hnet, Res.ok_bind, hst]
    exact ⟨_, rfl, rfl⟩
  | regression =>
    rw [hp] at he
    subst he
    have hl : data.getTestingOutputs s.index = .ok data.testing.labels[i] := by
      unfold Data.getTestingOutputs
      rw [hp, hi]
      exact rd_nat _ _ h2
    have hsep : data.getPrecision = .ok data.precision := by unfold Data.getPrecision; rw [if_pos hp]
    simp only [hl, hsep, hnet, Res.ok_bind, hst]
    exact ⟨_, rfl, rfl⟩

theorem rows_drop {i : Nat} (h1 : i < data.testing.inputs.length) (h2 : i < data.testing.labels.length) :
    (rows data).drop i = (data.testing.inputs[i], data.testing.labels[i]) :: (rows data).drop (i + 1) := by
  have : i < (rows data).length := by simp [rows]; omega
  rw [List.drop_eq_getElem_cons this]
  simp [rows]

theorem loop_judges {nan : F} (hl1 : data.testing.inputs.length = data.testing.size) (hl2 : data.testing.labels.length = data.testing.size) :
    ∀ (k i : Nat) {s s' : Snn F} {b : Bool}, i + k = data.testing.size → s.index = (i : Int) → s.net.outputNan = false →
    List.Forall₂ Layer.Same net0.layers s.net.layers → evaluateLoop nan data k s = .ok (b, s') →
    b = false ∧ ∃ es, List.Forall₂ (Judges data net0) ((rows data).drop i) es ∧ es.foldlM Stats.evaluateOnce s.net.stats = .ok s'.net.stats
  | 0, i, s, s', b, hk, hi, hn, hs, h => by
    cases h
    refine ⟨rfl, [], ?_, rfl⟩
    rw [List.drop_eq_nil_of_le (by simp [rows]; omega)]
    exact .nil
  | k + 1, i, s, s', b, hk, hi, hn, hs, h => by
    unfold evaluateLoop at h
    rw [if_neg (by simp [hn])] at h
    obtain ⟨need, hneed, h⟩ := Res.bind_eq_ok.1 h
    have : need = true := by unfold Data.needToEvaluate at hneed; rw [hnt] at hneed; cases hneed; rfl
    subst this
    obtain ⟨s1, e1, h⟩ := Res.bind_eq_ok.1 h
    rw [if_pos rfl] at e1
    have b1 : i < data.testing.inputs.length := by omega
    have b2 : i < data.testing.labels.length := by omega
    obtain ⟨e, he, hst, hnan, hidx⟩ := evaluateOnce_judges hnt hrec hgood hs i hi e1 b1 b2
    obtain ⟨hb, es, hes, hfold⟩ := loop_judges hl1 hl2 k (i + 1) (by omega) (by simp [hidx, hi]) (by simp only; rw [hnan, hn])
      (by simp only; exact forall₂_trans (R := Layer.Same) (fun _ _ _ x y => x.trans y) hs (evaluateOnce_keeps e1).layers) h
    refine ⟨hb, e :: es, ?_, ?_⟩
    · rw [rows_drop hnt hrec hgood b1 b2]
      exact .cons he hes
    · rw [List.foldlM_cons, hst]; exact hfold

theorem judges_loop {nan : F} (hl1 : data.testing.inputs.length = data.testing.size) (hl2 : data.testing.labels.length = data.testing.size) :
    ∀ (k i : Nat) {s : Snn F} {st : Stats F} {es : List (Ev F)}, i + k = data.testing.size → s.index = (i : Int) → s.net.outputNan = false →
    List.Forall₂ Layer.Same net0.layers s.net.layers → List.Forall₂ (Judges data net0) ((rows data).drop i) es →
    es.foldlM Stats.evaluateOnce s.net.stats = .ok st →
    ∃ s', evaluateLoop nan data k s = .ok (false, s') ∧ s'.net.stats = st
  | 0, i, s, st, es, hk, hi, hn, hs, hes, h => by
    rw [List.drop_eq_nil_of_le (by simp [rows]; omega)] at hes
    cases hes
    cases h
    exact ⟨s, rfl, rfl⟩
  | k + 1, i, s, st, es, hk, hi, hn, hs, hes, h => by
    have b1 : i < data.testing.inputs.length := by omega
    have b2 : i < data.testing.labels.length := by omega
    rw [rows_drop hnt hrec hgood b1 b2] at hes
    cases hes with
    | cons he hes =>
    rw [List.foldlM_cons] at h
    obtain ⟨st1, hst1, h⟩ := Res.bind_eq_ok.1 h
    obtain ⟨s1, e1, e2⟩ := judges_evaluateOnce hnt hrec hgood hs i hi b1 b2 he hst1
    obtain ⟨_, _, _, hnan, hidx⟩ := evaluateOnce_judges hnt hrec hgood hs i hi e1 b1 b2
    subst e2
    obtain ⟨s', e3, e4⟩ := judges_loop (nan := nan) hl1 hl2 k (i + 1) (s := { s1 with index := s1.index + 1 }) (by omega) (by simp [hidx, hi])
      (by simp only; rw [hnan, hn])
      (by simp only; exact forall₂_trans (R := Layer.Same) (fun _ _ _ x y => x.trans y) hs (evaluateOnce_keeps e1).layers) hes h
    refine ⟨s', ?_, e4⟩
    unfold evaluateLoop
    rw [if_neg (by simp [hn])]
    have : data.needToEvaluate s.index = .ok true := by unfold Data.needToEvaluate; rw [hnt]
    rw [this]
    simp only [Res.ok_bind, if_true, e1]
    exact e3

end

/-- The statistics after an evaluation that was not stopped are those of the testing phase. -/
theorem evaluate_stats {env : Env F} {r : Run F} {s : Snn F}
    (h : evaluateLoop env.nan r.data r.data.testing.size
      { r.snn with net := { r.snn.net with stats := r.snn.net.stats.startTesting }, index := 0 } = .ok (false, s)) :
    ∃ r', r.evaluate env = .ok r' ∧ r'.snn.net.stats = s.net.stats.stopTesting := by
  unfold Run.evaluate
  simp only [h, Res.ok_bind, Bool.false_eq_true, if_false]
  split
  · exact ⟨_, rfl, rfl⟩
  · exact ⟨_, rfl, rfl⟩

/-- The evaluations made by `evaluate` on `d'` and on `d`, when `d'` is `d` with its testing examples in another order: the same,
in another order. -/
theorem evaluate_reordered (env : Env F) (r r1 : Run F) (d' : Data F)
    (hnt : r.data.typeOfTemporal = .nonTemporal)
    (hrec : ∀ l ∈ r.snn.net.layers, NonRecurrent l) (hnan : r.snn.net.outputNan = false) (hgood : Good r.data r.snn.net)
    (hsize : r.data.testing.inputs.length = r.data.testing.size ∧ r.data.testing.labels.length = r.data.testing.size)
    (hsize' : d'.testing.inputs.length = d'.testing.size ∧ d'.testing.labels.length = d'.testing.size)
    (hd : d' = { r.data with testing := d'.testing })
    (hperm : (d'.testing.inputs.zip d'.testing.labels).Perm (r.data.testing.inputs.zip r.data.testing.labels))
    (h : r.evaluate env = .ok r1) :
    ∃ (es es' : List (Ev F)) (st : Stats F), es'.Perm es ∧ es.foldlM Stats.evaluateOnce r.snn.net.stats.startTesting = .ok st ∧ r1.snn.net.stats = st.stopTesting ∧
      ∀ st', es'.foldlM Stats.evaluateOnce r.snn.net.stats.startTesting = .ok st' →
        ∃ r2, ({ r with data := d' } : Run F).evaluate env = .ok r2 ∧ r2.snn.net.stats = st'.stopTesting := by
  have h0 := h
  unfold Run.evaluate at h
  obtain ⟨⟨b, s⟩, hl, h⟩ := Res.bind_eq_ok.1 h
  obtain ⟨rfl, es, hes, hfold⟩ := loop_judges (net0 := r.snn.net) hnt hrec hgood hsize.1 hsize.2 r.data.testing.size 0 (by omega) (by rfl)
    (by exact hnan) (by exact forall₂_refl Layer.Same.refl _) hl
  obtain ⟨r1', e1, e2⟩ := evaluate_stats hl
  rw [h0] at e1
  cases e1
  simp only [List.drop_zero] at hes
  have hj : Judges d' r.snn.net = Judges r.data r.snn.net := by rw [hd]; rfl
  obtain ⟨es', hes', hp'⟩ := List.perm_comp_forall₂ hperm hes
  refine ⟨es, es', s.net.stats, hp', hfold, e2, ?_⟩
  intro st' hfold'
  have hnt' : d'.typeOfTemporal = .nonTemporal := by rw [hd]; exact hnt
  have hgood' : Good d' r.snn.net := by
    intro x hx out ho
    have : ∃ y, (x, y) ∈ d'.testing.inputs.zip d'.testing.labels := by
      obtain ⟨i, hi, rfl⟩ := List.mem_iff_getElem.1 hx
      exact ⟨d'.testing.labels[i]'(by omega), List.mem_iff_getElem.2 ⟨i, by simp; omega, by simp⟩⟩
    obtain ⟨y, hy⟩ := this
    exact hgood x (List.of_mem_zip (hperm.mem_iff.1 hy)).1 out ho
  obtain ⟨s', e3, e4⟩ := judges_loop (net0 := r.snn.net) (nan := env.nan) (data := d') hnt' hrec hgood' hsize'.1 hsize'.2 d'.testing.size 0
    (s := { r.snn with net := { r.snn.net with stats := r.snn.net.stats.startTesting }, index := 0 }) (by omega) (by rfl)
    (by exact hnan) (by exact forall₂_refl Layer.Same.refl _) (by rw [hj, List.drop_zero]; exact hes') (by exact hfold')
  obtain ⟨r2, e5, e6⟩ := evaluate_stats (r := { r with data := d' }) (by exact e3)
  exact ⟨r2, e5, by rw [e6, e4]⟩

end Carrier

variable {F : Type} [Field F] [LinearOrder F] [IsStrictOrderedRing F] [FTrans F]

/-- **C57.** Let `d'` be the data `d` with its testing examples (input with its label) in another order. For a network without
recurrent layer, in any state it can be in, if `evaluate` on `d` returns then `evaluate` on `d'` returns too and every statistic is
the same: all the confusion counts, the number of well classified examples, every rate, score, error and best value. -/
theorem C57_evaluate (env : Env F) (r r1 : Run F) (d' : Data F)
    (hnt : r.data.typeOfTemporal = .nonTemporal)
    (hrec : ∀ l ∈ r.snn.net.layers, NonRecurrent l) (hnan : r.snn.net.outputNan = false)
    (hsize : r.data.testing.inputs.length = r.data.testing.size ∧ r.data.testing.labels.length = r.data.testing.size)
    (hsize' : d'.testing.inputs.length = d'.testing.size ∧ d'.testing.labels.length = d'.testing.size)
    (hd : d' = { r.data with testing := d'.testing })
    (hperm : (d'.testing.inputs.zip d'.testing.labels).Perm (r.data.testing.inputs.zip r.data.testing.labels))
    (h : r.evaluate env = .ok r1) :
    ∃ r2, ({ r with data := d' } : Run F).evaluate env = .ok r2 ∧ r2.snn.net.stats = r1.snn.net.stats := by
  obtain ⟨es, es', st, hp, hf, e1, hr⟩ := evaluate_reordered env r r1 d' hnt hrec hnan (by intro x _ out _; simp [hasBadValue]) hsize hsize' hd
    hperm h
  obtain ⟨r2, h1, h2⟩ := hr st (by rw [evaluations_perm hp]; exact hf)
  exact ⟨r2, h1, by rw [h2, e1]⟩

/-- The classification of `Demo` with its two testing examples swapped. -/
def swapped : Data ℚ := { Demo.classification with testing := { Demo.classification.testing with inputs := [[2, 1], [1, 2]], labels := [[1, 0], [0, 1]] } }

/-- The hypotheses of C57 are met by a dense network, a classification and the same data with the testing examples swapped; one of
the two examples is well classified and the other is not. -/
example : Demo.classification.typeOfTemporal = .nonTemporal ∧ (∀ l ∈ Demo.dense.net.layers, NonRecurrent l) ∧
    Demo.dense.net.outputNan = false ∧ swapped ≠ Demo.classification ∧
    (swapped.testing.inputs.zip swapped.testing.labels).Perm (Demo.classification.testing.inputs.zip Demo.classification.testing.labels) ∧
    ∃ r1 r2, (Demo.run Demo.dense Demo.classification).evaluate Demo.env = .ok r1 ∧
      (Demo.run Demo.dense swapped).evaluate Demo.env = .ok r2 ∧ r2.snn.net.stats = r1.snn.net.stats ∧
      r1.snn.net.stats.wellClassified = 1 ∧ r1.snn.net.stats.misclassified = 1 := by
  have hl : Demo.dense.net.layers.all (fun l => match l.body with | .fullyConnected _ => true | _ => false) = true := by decide +kernel
  have hrec : ∀ l ∈ Demo.dense.net.layers, NonRecurrent l := by
    intro l h
    have := List.all_eq_true.1 hl l h
    unfold NonRecurrent
    cases hb : l.body <;> rw [hb] at this <;> simp_all
  have hp : (swapped.testing.inputs.zip swapped.testing.labels).Perm (Demo.classification.testing.inputs.zip Demo.classification.testing.labels) := by
    have e1 : swapped.testing.inputs.zip swapped.testing.labels = [([2, 1], [1, 0]), ([1, 2], [0, 1])] := by decide +kernel
    have e2 : Demo.classification.testing.inputs.zip Demo.classification.testing.labels = [([1, 2], [0, 1]), ([2, 1], [1, 0])] := by decide +kernel
    rw [e1, e2]
    exact List.Perm.swap _ _ _
  obtain ⟨r2, h2, h3⟩ := C57_evaluate Demo.env (Demo.run Demo.dense Demo.classification) _ swapped (by decide +kernel) hrec (by decide +kernel)
    (by decide +kernel) (by decide +kernel) (by decide +kernel) hp
    (Res.eq_get (Run.evaluate Demo.env (Demo.run Demo.dense Demo.classification)) (by decide +kernel))
  refine ⟨by decide +kernel, hrec, by decide +kernel, by decide +kernel, hp, _, r2, Res.eq_get _ (by decide +kernel), h2, h3, by decide +kernel, by decide +kernel⟩

/-- A regression with the training example 1 ↦ 1 and these testing inputs, expected 1. -/
def nanTested (xs : List NF) : Res (Data NF) :=
  Data.make2 .regression [[.num 1]] [[.num 1]] (xs.map fun x => [x]) (xs.map fun _ => [.num 1]) .nonTemporal 0

/-- A new network with one input and one output evaluated on these testing inputs. -/
def nanRun (xs : List NF) : Res (Stats NF) := do
  let (s, d) ← Snn.make [.input [1], .fullyConnected 1 .identity []] { learningRate := .num (1/10), momentum := .num 0 } fun _ => .num 1
  let data ← nanTested xs
  let r ← Run.evaluate { clock := fun t => t, rng := fun e i => e.toNat + i, nan := .nan } { snn := s, data := data, draws := d, ticks := 0, trace := [] }
  return r.snn.net.stats

/-- **C57 needs outputs that are numbers**: the testing inputs NaN and 1 in this order make every count of `evaluate` NaN, in the other
order (the NaN is only noticed before the next example) the counts are those of an evaluation. -/
theorem C57_nan_refuted : ∃ a b, nanRun [.nan, .num 1] = .ok a ∧ nanRun [.num 1, .nan] = .ok b ∧
    a.wellClassified = .nan ∧ a.misclassified = .nan ∧ b.wellClassified = .num 1 ∧ b.misclassified = .num 1 :=
  ⟨_, _, Res.eq_get _ (by decide +kernel), Res.eq_get _ (by decide +kernel), by decide +kernel, by decide +kernel, by decide +kernel,
    by decide +kernel⟩

end Snn.OrderProps
