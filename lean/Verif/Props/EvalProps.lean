import Verif.Props.HistoryProps
import Verif.Spec.SaveSpec
import Verif.Demo.Demo

/-!
# C25 and C57: evaluation; refutations of C22 and C23
-/

set_option linter.all false

namespace Snn.EvalProps

open Snn.Spec Snn.StatSpec Snn.TrainSpec Snn.TrainProofs Snn.TrainProps Snn.HistoryProps

section
variable {F : Type} [Field F] [LinearOrder F] [IsStrictOrderedRing F] [FTrans F]

/-! ### What an evaluation does to the statistics -/

/-- The counters grow and the best values stay during the testing phase. -/
structure Counting (a b : Stats F) : Prop where
  well : a.wellClassified ≤ b.wellClassified
  mis : a.misclassified ≤ b.misclassified
  best : b.globalRateMax = a.globalRateMax

theorem Counting.trans {a b c : Stats F} (h : Counting a b) (k : Counting b c) : Counting a c :=
  ⟨h.1.trans k.1, h.2.trans k.2, k.3.trans h.3⟩

theorem count_counting (s : Stats F) (cl : List (Cluster F)) (w : Bool) : Counting s (({ s with clusters := cl } : Stats F).count w) := by
  unfold Stats.count
  split
  · exact ⟨by simp, by simp, rfl⟩
  · exact ⟨by simp, by simp, rfl⟩

theorem statsEvaluateOnce_counting {s s' : Stats F} {e : Ev F} (h : s.evaluateOnce e = .ok s') : Counting s s' := by
  cases e <;> simp only [Stats.evaluateOnce] at h <;> split at h <;> cases h <;> exact count_counting _ _ _

theorem evaluateOnce_counting {s s' : Snn F} {data : Data F} (h : s.evaluateOnce data = .ok s') :
    Counting s.net.stats s'.net.stats ∧ s'.net.outputNan = s.net.outputNan := by
  unfold Snn.evaluateOnce at h
  obtain ⟨x, _, h⟩ := Res.bind_eq_ok.1 h
  obtain ⟨first, _, h⟩ := Res.bind_eq_ok.1 h
  split at h
  all_goals
    obtain ⟨_, _, h⟩ := Res.bind_eq_ok.1 h
    obtain ⟨_, _, h⟩ := Res.bind_eq_ok.1 h
    obtain ⟨⟨out, net⟩, h1, h⟩ := Res.bind_eq_ok.1 h
    obtain ⟨st, hst, h⟩ := Res.bind_eq_ok.1 h
    cases h
    obtain ⟨k1, k2, k3⟩ := net_output_frame h1
    rw [k1] at hst
    exact ⟨statsEvaluateOnce_counting hst, by simp [k3, hasBadValue]⟩

theorem evaluateLoop_counting {nan : F} {data : Data F} : ∀ {k : Nat} {s s' : Snn F} {b : Bool}, s.net.outputNan = false →
    evaluateLoop nan data k s = .ok (b, s') → b = false ∧ s'.net.outputNan = false ∧ Counting s.net.stats s'.net.stats
  | 0, s, s', b, hn, h => by cases h; exact ⟨rfl, hn, ⟨le_refl _, le_refl _, rfl⟩⟩
  | k + 1, s, s', b, hn, h => by
    unfold evaluateLoop at h
    rw [if_neg (by simp [hn])] at h
    obtain ⟨need, _, h⟩ := Res.bind_eq_ok.1 h
    obtain ⟨s1, h1, h⟩ := Res.bind_eq_ok.1 h
    have k1 : Counting s.net.stats s1.net.stats ∧ s1.net.outputNan = s.net.outputNan := by
      split at h1
      · exact evaluateOnce_counting h1
      · obtain ⟨_, _, h1⟩ := Res.bind_eq_ok.1 h1
        obtain ⟨_, _, h1⟩ := Res.bind_eq_ok.1 h1
        obtain ⟨⟨out, net⟩, h2, h1⟩ := Res.bind_eq_ok.1 h1
        cases h1
        obtain ⟨k1, k2, k3⟩ := net_output_frame h2
        exact ⟨by rw [k1]; exact ⟨le_refl _, le_refl _, rfl⟩, by simp [k3, hasBadValue]⟩
    obtain ⟨a, b, c⟩ := evaluateLoop_counting (by simp only; rw [k1.2, hn]) h
    exact ⟨a, b, k1.1.trans c⟩

/-- An evaluation (exact arithmetic, no NaN before): the new best value, the flag and what is written. -/
theorem evaluate_save {env : Env F} {r r' : Run F} (hn : r.snn.net.outputNan = false) (h : r.evaluate env = .ok r') :
    r'.snn.net.outputNan = false ∧ 0 ≤ r'.snn.net.stats.globalRate ∧
    r'.snn.net.stats.globalRateMax = max r.snn.net.stats.globalRateMax r'.snn.net.stats.globalRate ∧
    saves r'.trace = saves r.trace ++
      (if r.snn.autoSaveWhenBetter = true ∧ r.snn.net.stats.globalRateMax < r'.snn.net.stats.globalRate then
        [(r.snn.autoSaveFilePath, r'.snn)] else []) := by
  have eo := evaluate_frame h
  unfold Run.evaluate at h
  obtain ⟨⟨b, s⟩, h1, h⟩ := Res.bind_eq_ok.1 h
  obtain ⟨e1, e2, cnt⟩ := evaluateLoop_counting (by exact hn) h1
  obtain ⟨ek, _⟩ := evaluateLoop_frame h1
  have kb : s.autoSaveWhenBetter = r.snn.autoSaveWhenBetter := ek.better
  have kp : s.autoSaveFilePath = r.snn.autoSaveFilePath := ek.path
  subst e1
  simp only [Bool.false_eq_true, if_false] at h
  have c1 : (0 : F) ≤ s.net.stats.wellClassified := by have := cnt.well; simpa [Stats.startTesting] using this
  have c2 : (0 : F) ≤ s.net.stats.misclassified := by have := cnt.mis; simpa [Stats.startTesting] using this
  have c3 : s.net.stats.globalRateMax = r.snn.net.stats.globalRateMax := cnt.best
  have g0 : 0 ≤ s.net.stats.computeGlobalRate := div_nonneg c1 (add_nonneg c1 c2)
  have hmax : s.net.stats.stopTesting.globalRateMax = max r.snn.net.stats.globalRateMax s.net.stats.stopTesting.globalRate := by
    simp only [Stats.stopTesting, c3]
    by_cases hlt : r.snn.net.stats.globalRateMax < s.net.stats.computeGlobalRate
    · rw [if_pos (by simpa using hlt), max_eq_right hlt.le]
    · rw [if_neg (by simpa using hlt), max_eq_left (not_lt.1 hlt)]
  have hbet : s.net.stats.stopTesting.globalBetter = decide (r.snn.net.stats.globalRateMax < s.net.stats.stopTesting.globalRate) := by
    simp only [Stats.stopTesting, c3]
    rw [Bool.eq_iff_iff]; simp
  rw [kb, hbet] at h
  split at h
  · rename_i hc
    simp only [Bool.and_eq_true, decide_eq_true_eq] at hc
    cases h
    refine ⟨e2, g0, hmax, ?_⟩
    refine Eq.trans ?_ (congrArg _ (if_pos (by exact hc)).symm)
    simp [saves, Run.saveSync, kp]
  · rename_i hc
    simp only [Bool.and_eq_true, decide_eq_true_eq] at hc
    cases h
    refine ⟨e2, g0, hmax, ?_⟩
    refine Eq.trans ?_ (congrArg _ (if_neg (by exact hc)).symm)
    simp [saves]

/-! ### C25 -/

/-- The best accuracy is that of the best evaluation so far. -/
structure BestInv (n : Net F) (trace : List (Event F)) : Prop where
  nan : n.outputNan = false
  upper : ∀ p ∈ evaluations trace, p.2.globalRate ≤ n.stats.globalRateMax
  attained : (evaluations trace = [] ∧ n.stats.globalRateMax = -1) ∨ ∃ p ∈ evaluations trace, p.2.globalRate = n.stats.globalRateMax

theorem BestInv.improving {n : Net F} {t : List (Event F)} (h : BestInv n t) (st : Stats F) (h0 : 0 ≤ st.globalRate) :
    improving (evaluations t) st = true ↔ n.stats.globalRateMax < st.globalRate := by
  simp only [TrainSpec.improving, List.all_eq_true, decide_eq_true_eq]
  constructor
  · intro hall
    rcases h.attained with ⟨_, e⟩ | ⟨p, hp, e⟩
    · rw [e]; linarith
    · rw [← e]; exact hall p hp
  · intro hlt p hp
    exact lt_of_le_of_lt (h.upper p hp) hlt

theorem BestInv.evaluate {env : Env F} {r r' : Run F} (hI : BestInv r.snn.net r.trace) (h : r.evaluate env = .ok r') :
    BestInv r'.snn.net r'.trace := by
  obtain ⟨a, b, c, _⟩ := evaluate_save hI.nan h
  have ev := (evaluate_frame h).evaluations
  refine ⟨a, ?_, ?_⟩
  · intro p hp
    rw [ev] at hp
    rcases List.mem_append.1 hp with hp | hp
    · rw [c]; exact le_max_of_le_left (hI.upper p hp)
    · simp at hp; subst hp; rw [c]; exact le_max_right _ _
  · right
    rw [ev]
    rcases le_total r.snn.net.stats.globalRateMax r'.snn.net.stats.globalRate with hle | hle
    · exact ⟨_, List.mem_append_right _ (List.mem_singleton.2 rfl), by rw [c, max_eq_right hle]⟩
    · rcases hI.attained with ⟨_, e⟩ | ⟨p, hp, e⟩
      · rw [e] at hle; linarith
      · exact ⟨p, List.mem_append_left _ hp, by rw [c, max_eq_left hle, e]⟩

theorem step_facts {env : Env F} {r r' : Run F} {b : Int} {ret : Bool} (hn : r.snn.net.outputNan = false)
    (h : r.trainStep env b = .ok (ret, r')) :
    r'.snn.net.outputNan = false ∧ r'.snn.net.stats = r.snn.net.stats ∧ evaluations r'.trace = evaluations r.trace ∧
    saves r'.trace = saves r.trace ∧ autoSaveOf r' = autoSaveOf r := by
  obtain ⟨_, so⟩ := trainStep_spec (SameButBuffers.refl _) hn h
  obtain ⟨net, q1, q2, q3, q4, ev, q5, q6, q7, q8⟩ := so.snn
  have e1 : evaluations r'.trace = evaluations r.trace ∧ saves r'.trace = saves r.trace := by
    rw [q5]
    cases ev <;> simp_all [mark, evaluations, saves]
  refine ⟨?_, by rw [q1]; exact q2, e1.1, e1.2, by unfold autoSaveOf; rw [q1]⟩
  -- exact arithmetic never produces a NaN
  unfold Run.trainStep at h
  simp only [hn, Bool.false_eq_true, if_false] at h
  obtain ⟨need, hneed, h⟩ := Res.bind_eq_ok.1 h
  obtain ⟨⟨x, data1⟩, hx, h⟩ := Res.bind_eq_ok.1 h
  obtain ⟨first, hf, h⟩ := Res.bind_eq_ok.1 h
  cases hnd : need
  case' true =>
    rw [hnd] at h
    simp only [if_true] at h
    obtain ⟨⟨y, data2⟩, hy, h⟩ := Res.bind_eq_ok.1 h
    obtain ⟨⟨net2, d⟩, ht, h⟩ := Res.bind_eq_ok.1 h
    cases h
    unfold Net.trainOnce at ht
    obtain ⟨⟨n1, d1⟩, h1, ht⟩ := Res.bind_eq_ok.1 ht
    cases ht
    unfold Net.backpropagation at h1
    obtain ⟨⟨out, n2, d2⟩, h2, h1⟩ := Res.bind_eq_ok.1 h1
    have hq : n2.outputNan = false := by rw [(outputForTraining_frame h2).2.2.2]; simp [hn, hasBadValue]
    simp only [hq, Bool.false_eq_true, if_false] at h1
    obtain ⟨errs, _, h1⟩ := Res.bind_eq_ok.1 h1
    obtain ⟨ls, _, h1⟩ := Res.bind_eq_ok.1 h1
    cases h1
    first | rfl | exact hq
  case' false =>
    rw [hnd] at h
    simp only [Bool.false_eq_true, if_false] at h
    obtain ⟨⟨out, net2, d⟩, ht, h⟩ := Res.bind_eq_ok.1 h
    cases h
    have hq := (outputForTraining_frame ht).2.2.2
    show net2.outputNan = false
    rw [hq]; simp [hn, hasBadValue]

theorem call_best {c : Call F} {r r' : Run F} (h : c.run r = .ok r') (hI : BestInv r.snn.net r.trace) :
    BestInv r'.snn.net r'.trace := by
  cases c with
  | computeOutput x t =>
    simp only [Call.run, Snn.computeOutput] at h
    cases ho : r.snn.net.output x t with
    | ok p =>
      obtain ⟨out, net⟩ := p
      rw [ho] at h
      cases h
      obtain ⟨a, _, b⟩ := net_output_frame ho
      exact ⟨by simp [b, hI.nan, hasBadValue], by simp only [a]; exact hI.upper, by simp only [a]; exact hI.attained⟩
    | throw m => rw [ho] at h; cases h
    | ub m => rw [ho] at h; cases h
  | computeCluster x t =>
    simp only [Call.run, Snn.computeCluster] at h
    cases ho : r.snn.net.output x t with
    | ok p =>
      obtain ⟨out, net⟩ := p
      rw [ho] at h
      cases h
      obtain ⟨a, _, b⟩ := net_output_frame ho
      exact ⟨by simp [b, hI.nan, hasBadValue], by simp only [a]; exact hI.upper, by simp only [a]; exact hI.attained⟩
    | throw m => rw [ho] at h; cases h
    | ub m => rw [ho] at h; cases h
  | evaluate env data => exact BestInv.evaluate (r := { r with data := data }) (by exact hI) h
  | train env data wait b ef fuel =>
    exact train_induct (r := { r with data := data }) (P := fun n _ t => BestInv n t)
      (fun n a t h => ⟨h.nan, by simpa [evaluations] using h.upper, by simpa [evaluations] using h.attained⟩)
      (fun r r' b ret hp hf hs => by
        obtain ⟨a1, a2, a3, _, _⟩ := step_facts hf hs
        exact ⟨a1, by rw [a2, a3]; exact hp.upper, by rw [a2, a3]; exact hp.attained⟩)
      (fun r r' hp he => hp.evaluate he) (by exact hI) h
  | saveAs path =>
    simp only [Call.run, Run.saveAs] at h
    split at h
    · cases h
    · cases h
      exact ⟨hI.nan, by simpa [evaluations, Run.saveSync] using hI.upper, by simpa [evaluations, Run.saveSync] using hI.attained⟩
  | autoSave w path => cases h; exact hI

theorem calls_best {cs : List (Call F)} {r r' : Run F} (h : cs.foldlM Call.run r = .ok r') (hI : BestInv r.snn.net r.trace) :
    BestInv r'.snn.net r'.trace := by
  induction cs generalizing r with
  | nil => cases h; exact hI
  | cons c cs ih =>
    rw [List.foldlM_cons] at h
    obtain ⟨r1, h1, h2⟩ := Res.bind_eq_ok.1 h
    exact ih h2 (call_best h1 hI)

theorem make_best {arch : List (LayerModel F)} {opt : Sgd F} {d d' : Draws F} {s : Snn F} (h : Snn.make arch opt d = .ok (s, d')) :
    BestInv s.net [] := by
  unfold Snn.make at h
  obtain ⟨⟨net, d1⟩, h1, h⟩ := Res.bind_eq_ok.1 h
  obtain ⟨err, _, h⟩ := Res.bind_eq_ok.1 h
  split at h
  · cases h
  cases h
  unfold Net.make at h1
  obtain ⟨⟨ls, d2⟩, _, h1⟩ := Res.bind_eq_ok.1 h1
  obtain ⟨last, _, h1⟩ := Res.bind_eq_ok.1 h1
  cases h1
  refine ⟨rfl, by simp [evaluations], Or.inl ⟨by simp [evaluations], by simp [Stats.init]⟩⟩

/-- **C25** (exact arithmetic), for every network and every history of calls: the next evaluation saves the network — to the
configured file, with the state after the evaluation — iff auto-save is on and its accuracy is strictly greater than that of every
earlier evaluation; otherwise it writes nothing. -/
theorem C25_autosave (arch : List (LayerModel F)) (opt : Sgd F) (d d' : Draws F) (s : Snn F) (hmake : Snn.make arch opt d = .ok (s, d'))
    (data0 : Data F) (cs : List (Call F)) (r r' : Run F)
    (hcs : cs.foldlM Call.run { snn := s, data := data0, draws := d', ticks := 0, trace := [] } = .ok r)
    (env : Env F) (h : r.evaluate env = .ok r') :
    saves r'.trace = saves r.trace ++
      (if r.snn.autoSaveWhenBetter = true ∧ ∀ p ∈ evaluations r.trace, p.2.globalRate < r'.snn.net.stats.globalRate then
        [(r.snn.autoSaveFilePath, r'.snn)] else []) := by
  have hI := calls_best hcs (by exact make_best hmake)
  obtain ⟨a, b, c, e⟩ := evaluate_save hI.nan h
  have key := hI.improving r'.snn.net.stats b
  simp only [TrainSpec.improving, List.all_eq_true, decide_eq_true_eq] at key
  rw [e]
  congr 1
  simp only [key]

/-- Appending one evaluation. -/
theorem records_append (a b : List (Int × Stats F)) (p : Int × Stats F) :
    records a (b ++ [p]) = records a b ++ (if TrainSpec.improving (a ++ b) p.2 then [p.2] else []) := by
  induction b generalizing a with
  | nil => simp [records]
  | cons q b ih => simp only [List.cons_append, records, ih, List.append_assoc, List.nil_append]

/-- **C25** for a whole training (exact arithmetic), after every history of calls: with auto-save on, `train` saves exactly at the
evaluations that beat all the earlier ones; with auto-save off it never writes. -/
theorem C25_train (arch : List (LayerModel F)) (opt : Sgd F) (d d' : Draws F) (s : Snn F) (hmake : Snn.make arch opt d = .ok (s, d'))
    (data0 : Data F) (cs : List (Call F)) (r r' : Run F)
    (hcs : cs.foldlM Call.run { snn := s, data := data0, draws := d', ticks := 0, trace := [] } = .ok r)
    (env : Env F) (wait : Wait F) (b ef : Int) (fuel : Nat) (h : r.train env wait b ef fuel = .ok r') :
    ∃ new, evaluations r'.trace = evaluations r.trace ++ new ∧
      (saves r'.trace).map (fun p => (p.1, p.2.net.stats)) = (saves r.trace).map (fun p => (p.1, p.2.net.stats)) ++
        (if r.snn.autoSaveWhenBetter then (records (evaluations r.trace) new).map (fun st => (r.snn.autoSaveFilePath, st)) else []) := by
  have hI := calls_best hcs (by exact make_best hmake)
  have := train_induct (r := r) (P := fun n a t => BestInv n t ∧ a = autoSaveOf r ∧ ∃ new,
      evaluations t = evaluations r.trace ++ new ∧
      (saves t).map (fun p => (p.1, p.2.net.stats)) = (saves r.trace).map (fun p => (p.1, p.2.net.stats)) ++
        (if r.snn.autoSaveWhenBetter then (records (evaluations r.trace) new).map (fun st => (r.snn.autoSaveFilePath, st)) else []))
    (fun n a t h => ⟨⟨h.1.nan, by simpa [evaluations] using h.1.upper, by simpa [evaluations] using h.1.attained⟩, h.2.1, by
      obtain ⟨new, h1, h2⟩ := h.2.2
      exact ⟨new, by rw [← h1]; simp [evaluations], by rw [← h2]; simp [saves]⟩⟩)
    (fun q q' b ret hp hf hs => by
      obtain ⟨a1, a2, a3, a4, a5⟩ := step_facts hf hs
      obtain ⟨p1, p2, new, h1, h2⟩ := hp
      exact ⟨⟨a1, by rw [a2, a3]; exact p1.upper, by rw [a2, a3]; exact p1.attained⟩, a5.trans p2, new, by rw [a3, h1],
        by rw [a4, h2]⟩)
    (fun q q' hp he => by
      obtain ⟨p1, p2, new, h1, h2⟩ := hp
      obtain ⟨_, b1, b2, b3⟩ := evaluate_save p1.nan he
      have eo := evaluate_frame he
      have q1 : q.snn.autoSaveWhenBetter = r.snn.autoSaveWhenBetter := congrArg Prod.fst p2
      have q2 : q.snn.autoSaveFilePath = r.snn.autoSaveFilePath := congrArg Prod.snd p2
      refine ⟨p1.evaluate he, ?_, new ++ [(q'.snn.epoch, q'.snn.net.stats)], ?_, ?_⟩
      · rw [← p2]; unfold autoSaveOf; rw [eo.better, eo.path]
      · rw [eo.evaluations, h1, List.append_assoc]
      · rw [b3, List.map_append, h2, List.append_assoc]
        congr 1
        rw [records_append, ← h1, q1, q2]
        have key := p1.improving q'.snn.net.stats b1
        by_cases hb : r.snn.autoSaveWhenBetter = true
        · by_cases hl : q.snn.net.stats.globalRateMax < q'.snn.net.stats.globalRate
          · simp [hb, hl, key.2 hl]
          · have hk : improving (evaluations q.trace) q'.snn.net.stats = false := by
              rw [Bool.eq_false_iff]; exact fun x => hl (key.1 x)
            simp [hb, hl, hk]
        · simp [hb])
    ⟨hI, rfl, [], by simp, by simp [records]⟩ h
  exact this.2.2

end

/-! ### The hypotheses are met -/

/-- The dense network before. -/
def saved0 : Run ℚ :=
  { snn := Demo.dense, data := Demo.classification, draws := (Snn.make Demo.denseArch Demo.sgd Demo.draws |>.get (by decide +kernel)).2, ticks := 0, trace := [] }

/-- A network with auto-save on, trained for two epochs: the hypotheses of C25 hold, and something was saved. -/
def savedRun : Run ℚ :=
  ([Call.autoSave true "best.snn", .train Demo.env Demo.classification (litEp 2) 1 1 100].foldlM Call.run saved0).get (by decide +kernel)

theorem savedRun_eq : [Call.autoSave true "best.snn", .train Demo.env Demo.classification (litEp 2) 1 1 100].foldlM Call.run saved0 = .ok savedRun :=
  Res.eq_get _ _

theorem saved0_eq : Snn.make Demo.denseArch Demo.sgd Demo.draws = .ok (Demo.dense, saved0.draws) := Res.eq_get _ _

example : savedRun.snn.autoSaveWhenBetter = true ∧ (evaluations savedRun.trace).length = 3 ∧ 1 ≤ (saves savedRun.trace).length ∧
    (savedRun.evaluate Demo.env).isOk = true ∧ (savedRun.train Demo.env (litEp 1) 1 1 100).isOk = true := by decide +kernel

example (r' : Run ℚ) (h : savedRun.evaluate Demo.env = .ok r') : saves r'.trace = saves savedRun.trace ++
      (if savedRun.snn.autoSaveWhenBetter = true ∧ ∀ p ∈ evaluations savedRun.trace, p.2.globalRate < r'.snn.net.stats.globalRate then
        [(savedRun.snn.autoSaveFilePath, r'.snn)] else []) :=
  C25_autosave Demo.denseArch Demo.sgd Demo.draws _ Demo.dense saved0_eq Demo.classification _ savedRun r' savedRun_eq Demo.env h

example (r' : Run ℚ) (h : savedRun.train Demo.env (litEp 1) 1 1 100 = .ok r') : ∃ new, evaluations r'.trace = evaluations savedRun.trace ++ new :=
  let ⟨new, h1, _⟩ := C25_train Demo.denseArch Demo.sgd Demo.draws _ Demo.dense saved0_eq Demo.classification _ savedRun r' savedRun_eq Demo.env _ _ _ _ h
  ⟨new, h1⟩

end Snn.EvalProps
