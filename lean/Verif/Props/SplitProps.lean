import Verif.Proofs.SplitProofs
import Verif.Proofs.Feedforward
import Verif.Props.SaveProps
import Verif.Props.LeakProps

/-! C85: a training can be cut in two, and resumed from a file. -/

set_option linter.all false

namespace Snn.SplitProps

open Spec HistoryProps LeakProps

section
variable {F : Type} [Flt F] [FTrans F] [Add F] [Sub F] [Mul F] [Div F] [Neg F]

theorem twin_learner : Learner (F := F) Net.Twin where
  symm := fun h => h.symm
  nan := fun h => h.nan
  out := fun h h1 h2 n1 n2 => by
    obtain ⟨_, a1, _, a3, a4, a5⟩ := h.outputForTraining h1 h2
    exact ⟨⟨by rw [a1]; exact twin_refl (plain_kept.outputForTraining (twin_plain h.layers) h1), n1, n2, a3, a4⟩, a5⟩
  once := fun h h1 h2 n1 n2 => by
    obtain ⟨a1, _, a3, a4, a5⟩ := h.trainOnce h1 h2
    exact ⟨⟨by rw [a1]; exact twin_refl (plain_kept.trainOnce (twin_plain h.layers) h1), n1, n2, a3, a4⟩, a5⟩

theorem twin_blind : Blind (F := F) Net.Twin := by
  intro env n q q' h he hn
  have fr := TrainProofs.evaluate_frame he
  obtain ⟨kp, _⟩ := InferenceProps.evaluate_keeps he
  exact ⟨evaluate_side h.layers he, h.nan, hn, fr.training.trans h.num, kp.optimizer.trans h.opt⟩

/-- Two networks that differ only by buffers and statistics. -/
def Clone (n m : Net F) : Prop := n.Sim (fun _ _ => True) m ∧ n.outputNan = false

theorem sim_symm {n m : Net F} (h : n.Sim (fun _ _ => True) m) : m.Sim (fun _ _ => True) n :=
  ⟨trivial, h.nan.symm, h.count.symm, h.opt.symm, forall₂_symm (fun _ _ h => Eq.symm h) h.layers⟩

theorem clone_learner : Learner (F := F) Clone where
  symm := fun h => ⟨sim_symm h.1, h.1.nan.trans h.2⟩
  nan := fun h => h.2
  out := fun {n m n' m' x y z t d d1 d2} h h1 h2 n1 n2 => by
    have := Net.outputForTraining_sim h.1 x t d
    rw [h1, h2] at this
    exact ⟨⟨this.2.1, n1⟩, this.2.2⟩
  once := fun {n m n' m' x y t d d1 d2} h h1 h2 n1 n2 => by
    have := Net.trainOnce_sim h.1 x y t d
    rw [h1, h2] at this
    exact ⟨⟨this.1, n1⟩, this.2⟩

theorem answers_of {n m : Snn F} (h : ∀ x t, Prod.fst <$> m.net.output x t = Prod.fst <$> n.net.output x t) (x : List F) (t : Bool) :
    Prod.fst <$> m.computeOutput x t = Prod.fst <$> n.computeOutput x t ∧ Prod.fst <$> m.computeCluster x t = Prod.fst <$> n.computeCluster x t := by
  have e := h x t
  unfold Snn.computeOutput Snn.computeCluster
  cases k1 : n.net.output x t with
  | ok p => cases k2 : m.net.output x t with
    | ok p2 =>
      rw [k1, k2] at e
      obtain ⟨a, b⟩ := p
      obtain ⟨a2, b2⟩ := p2
      cases e
      exact ⟨rfl, rfl⟩
    | throw m => rw [k1, k2] at e; cases e
    | ub m => rw [k1, k2] at e; cases e
  | throw w => cases k2 : m.net.output x t <;> rw [k1, k2] at e <;> cases e; exact ⟨rfl, rfl⟩
  | ub w => cases k2 : m.net.output x t <;> rw [k1, k2] at e <;> cases e; exact ⟨rfl, rfl⟩

theorem twin_learned {r q : Run F} (h : r.After Net.Twin q) : SameLearned r q := by
  have hsame : List.Forall₂ Layer.Same r.snn.net.layers q.snn.net.layers := h.net.layers.imp fun _ _ h => h.same
  have a := answers_of (n := r.snn) (m := q.snn) fun x t => (Net.output_rel hsame (twin_plain h.net.layers).2 x t t).symm
  refine ⟨?_, h.net.num, h.draws, fun x t => (a x t).1, fun x t => (a x t).2⟩
  unfold netParams
  rw [h.net.opt, layersSame_params hsame]

theorem sim_params {l m : Layer F} (h : l.Sim m) : layerParams m = layerParams l := by
  rcases h.cases with rfl | ⟨ns, ms, e1, e2, h3⟩
  · rfl
  · clear h
    subst e2
    unfold layerParams
    rw [e1]
    simp only [LayerParams.mk.injEq, true_and]
    clear e1
    induction h3 with
    | nil => rfl
    | cons h _ ih =>
      obtain ⟨e, rfl⟩ := Gru.forget_eq_iff.1 h
      simp only [List.flatMap_cons, ih]

theorem clone_learned {r q : Run F} (h : r.After Clone q) : SameLearned r q := by
  have a := answers_of (n := r.snn) (m := q.snn) fun x t => by
    have e := Net.output_sim h.net.1 x t
    cases k1 : r.snn.net.output x t <;> cases k2 : q.snn.net.output x t <;> rw [k1, k2] at e
    · exact congrArg Res.ok e.1
    all_goals first | cases e; rfl | cases e
  refine ⟨?_, h.net.1.count, h.draws, fun x t => (a x t).1, fun x t => (a x t).2⟩
  unfold netParams
  rw [h.net.1.opt]
  congr 1
  have := h.net.1.layers
  generalize r.snn.net.layers = ls, q.snn.net.layers = ms at this
  induction this with
  | nil => rfl
  | cons h _ ih => rw [List.map_cons, List.map_cons, sim_params h, ih]

/-- The state in which a program stops before a training is a twin of itself. -/
theorem start_twin {arch : List (LayerModel F)} {s s' : List Nat} (hw : WellFormed arch s s') (ha : Feedforward arch) {o : Sgd F}
    {d d' : Draws F} {snn : Snn F} (hm : Snn.make arch o d = .ok (snn, d')) {calls : List (Call F)} {r0 r : Run F} (h0 : r0.snn = snn)
    (hr : calls.foldlM Call.run r0 = .ok r) (hn : r.snn.net.outputNan = false) : r.snn.net.Twin r.snn.net := by
  obtain ⟨hp, _⟩ := make_plainNet hw ha hm
  rw [← h0] at hp
  exact ⟨twin_refl (plain_kept.history hp hr), hn, hn, rfl, rfl⟩

theorem train_nan {env : Env F} {data : Data F} {w : Wait F} {b ef : Int} {f : Nat} {r r' : Run F}
    (h : Call.run r (.train env data w b ef f) = .ok r') (hn : r'.snn.net.outputNan = false) : r.snn.net.outputNan = false := by
  refine history_nan (cs := [.train env data w b ef f]) (r' := r') ?_ hn
  rw [List.foldlM_cons, h]; rfl

/-- **C85, proved part.** A program makes a feedforward network and uses it in any way. Then it trains it for `N + M` epochs; or it
trains it for `N` epochs, does anything else with it but train it, and then trains it for `M` epochs on the data as the first training left
them, while the random generators go on. If no output was NaN, both ways the network learned the same: it has the same parameters, the
same count of trainings, and answers every input the same; the frequencies of the evaluations do not matter.
Missing: recurrent networks with an evaluation or an inference in between (`C85_recurrent_refuted`). -/
theorem C85_split_partial {arch : List (LayerModel F)} {s s' : List Nat} (hw : WellFormed arch s s') (ha : Feedforward arch) {o : Sgd F}
    {d d' : Draws F} {snn : Snn F} (hm : Snn.make arch o d = .ok (snn, d')) {calls : List (Call F)} {r0 r : Run F} (h0 : r0.snn = snn)
    (hr : calls.foldlM Call.run r0 = .ok r) {N M : Nat} {whole part1 part2 : Wait F} (w0 : Lasts whole (N + M)) (w1 : Lasts part1 N) (w2 : Lasts part2 M)
    {env env' : Env F} (he : GoesOn env env' N) {data data2 : Data F} {b ef eg eh : Int} {f g i : Nat} {a c1 c2 c3 : Run F}
    (h1 : Call.run r (.train env data whole b ef f) = .ok a) (h2 : Call.run r (.train env data part1 b eg g) = .ok c1)
    {pause : List (Call F)} (hp : ∀ c ∈ pause, lesson c = none) (h3 : pause.foldlM Call.run c1 = .ok c2) (hd : learningPart data2 = learningPart c1.data)
    (h4 : Call.run c2 (.train env' data2 part2 b eh i) = .ok c3) (n1 : a.snn.net.outputNan = false) (n2 : c3.snn.net.outputNan = false) :
    SameLearned a c3 := by
  have t0 := start_twin hw ha hm h0 hr (train_nan h1 n1)
  have m2 := train_nan h4 n2
  have m1 := history_nan h3 m2
  refine twin_learned (Run.After.split twin_learner w0 w1 w2 (.inl twin_blind) (.inl twin_blind) (.inl twin_blind) he
    (r := { r with data := data }) (q := { r with data := data }) (p := { c2 with data := data2 }) ⟨t0, rfl, rfl⟩ h1 h2 ?_ h4 n1 m1 n2)
  intro rm hrm
  have k : ({ rm with ticks := c1.ticks } : Run F).Mate c1 := ⟨hrm.net, hrm.draws, rfl⟩
  have hl : pause.filterMap lesson = [] := by
    rw [List.filterMap_eq_nil_iff]; exact hp
  have k2 := k.history (cs := []) (ds := pause) (by rw [hl]; rfl) (by simp) rfl h3 hrm.net.nan m2
  exact ⟨k2.net, k2.draws, hd.trans hrm.data⟩

/-- **C85 for every network**, recurrent or not, in every state, when nothing is evaluated or inferred: training for `N + M` epochs is
training for `N` epochs and then for `M` epochs. -/
theorem C85_any_partial {N M : Nat} {whole part1 part2 : Wait F} (w0 : Lasts whole (N + M)) (w1 : Lasts part1 N) (w2 : Lasts part2 M)
    {env env' : Env F} (he : GoesOn env env' N) {b ef eg eh : Int} (hf : ef ≤ 0) (hg : eg ≤ 0) (hh : eh ≤ 0) {f g i : Nat} {r a c1 c3 : Run F}
    (h1 : r.train env whole b ef f = .ok a) (h2 : r.train env part1 b eg g = .ok c1)
    (h4 : c1.train env' part2 b eh i = .ok c3) (n1 : a.snn.net.outputNan = false) (n2 : c3.snn.net.outputNan = false) :
    SameLearned a c3 := by
  have m1 := train_nan (data := c1.data) (r := c1) (by exact h4) n2
  have m0 := train_nan (data := r.data) (r := r) (by exact h1) n1
  refine clone_learned (Run.After.split clone_learner w0 w1 w2 (.inr hf) (.inr hg) (.inr hh) he (r := r) (q := r) (p := c1) ⟨⟨⟨trivial, rfl, rfl, rfl, ?_⟩, m0⟩, rfl, rfl⟩ h1 h2
    (fun _ h => h) h4 n1 m1 n2)
  generalize r.snn.net.layers = ls
  induction ls with
  | nil => exact .nil
  | cons l ls ih => exact .cons rfl ih

end

section
variable {F : Type} [Flt F] [FTrans F] [Add F] [Sub F] [Mul F] [Div F] [Neg F] [FText F]

theorem loaded_forget {r r' : Run F} {path : String} {files : Files F} {s : Snn F} (h : r.saveAs path = .ok r')
    (hl : loadFrom (filesAfter r'.trace files) path = .ok s) : s = r'.snn.forget ∧ r'.snn.net = r.snn.net := by
  unfold Run.saveAs at h
  split at h
  · cases h
  · cases h
    rcases load_saved_or (r.saveSync path).snn with ⟨h1, a, h2⟩ | ⟨h1, m, h2⟩
    · simp only [Run.saveSync] at h2
      simp only [loadFrom, Run.saveSync, filesAfter, Event.apply, if_true, h2, Res.ok_bind, Res.pure_eq] at hl
      cases hl
      exact ⟨rfl, rfl⟩
    · simp only [Run.saveSync] at h2
      simp only [loadFrom, Run.saveSync, filesAfter, Event.apply, if_true, h2] at hl
      cases hl

/-- **C85, resuming from a file.** As `C85_any_partial`, but after the first `N` epochs the network is saved, and later loaded, possibly by another process,
which has the data as the first training left them and whose random generators go on. -/
theorem C85_resume_partial {N M : Nat} {whole part1 part2 : Wait F} (w0 : Lasts whole (N + M)) (w1 : Lasts part1 N) (w2 : Lasts part2 M)
    {env env' : Env F} (he : GoesOn env env' N) {b ef eg eh : Int} (hf : ef ≤ 0) (hg : eg ≤ 0) (hh : eh ≤ 0) {f g i : Nat} {r a c1 c2 c3 p : Run F}
    (h1 : r.train env whole b ef f = .ok a) (h2 : r.train env part1 b eg g = .ok c1) {path : String} {files : Files F} (h3 : c1.saveAs path = .ok c2)
    (hl : loadFrom (filesAfter c2.trace files) path = .ok p.snn) (hd : learningPart p.data = learningPart c1.data) (hdr : p.draws = c1.draws)
    (h4 : p.train env' part2 b eh i = .ok c3) (n1 : a.snn.net.outputNan = false) (n2 : c1.snn.net.outputNan = false) (n3 : c3.snn.net.outputNan = false) :
    SameLearned a c3 := by
  have m0 := train_nan (data := r.data) (r := r) (by exact h1) n1
  obtain ⟨e1, e2⟩ := loaded_forget h3 hl
  have hs : c1.snn.net.Sim (fun _ _ => True) p.snn.net := by
    have := (SaveProps.forget_sim c2.snn (by rw [e2]; exact n2)).net
    rw [← e1, e2] at this
    exact ⟨trivial, this.nan, this.count, this.opt, this.layers⟩
  refine clone_learned (Run.After.split clone_learner w0 w1 w2 (.inr hf) (.inr hg) (.inr hh) he (r := r) (q := r) (p := p) ⟨⟨⟨trivial, rfl, rfl, rfl, ?_⟩, m0⟩, rfl, rfl⟩ h1 h2
    (fun rm h => ⟨⟨⟨trivial, hs.nan.trans h.net.1.nan, hs.count.trans h.net.1.count, hs.opt.trans h.net.1.opt, ?_⟩, h.net.2⟩, hdr.trans h.draws, hd.trans h.data⟩) h4 n1 n2 n3)
  · generalize r.snn.net.layers = ls
    induction ls with
    | nil => exact .nil
    | cons l ls ih => exact .cons rfl ih
  · have t1 := h.net.1.layers
    have t2 := hs.layers
    generalize rm.snn.net.layers = xs, c1.snn.net.layers = ys, p.snn.net.layers = zs at t1 t2
    induction t1 generalizing zs with
    | nil => cases t2; exact .nil
    | cons k1 _ ih => cases t2 with
      | cons k2 t2 => exact .cons (Eq.trans k1 k2) (ih _ t2)

/-- **C85, resuming a feedforward network from a file**, with any evaluations. -/
theorem C85_resume_evaluated_partial {arch : List (LayerModel F)} {s s' : List Nat} (hw : WellFormed arch s s') (ha : Feedforward arch) {o : Sgd F}
    {d d' : Draws F} {snn : Snn F} (hm : Snn.make arch o d = .ok (snn, d')) {calls : List (Call F)} {r0 r : Run F} (h0 : r0.snn = snn)
    (hr : calls.foldlM Call.run r0 = .ok r) {N M : Nat} {whole part1 part2 : Wait F} (w0 : Lasts whole (N + M)) (w1 : Lasts part1 N) (w2 : Lasts part2 M)
    {env env' : Env F} (he : GoesOn env env' N) {data : Data F} {b ef eg eh : Int} {f g i : Nat} {a c1 c2 c3 p : Run F}
    (h1 : Call.run r (.train env data whole b ef f) = .ok a) (h2 : Call.run r (.train env data part1 b eg g) = .ok c1)
    {path : String} {files : Files F} (h3 : c1.saveAs path = .ok c2)
    (hl : loadFrom (filesAfter c2.trace files) path = .ok p.snn) (hd : learningPart p.data = learningPart c1.data) (hdr : p.draws = c1.draws)
    (h4 : p.train env' part2 b eh i = .ok c3) (n1 : a.snn.net.outputNan = false) (n2 : c1.snn.net.outputNan = false) (n3 : c3.snn.net.outputNan = false) :
    SameLearned a c3 := by
  have t0 := start_twin hw ha hm h0 hr (train_nan h1 n1)
  obtain ⟨e1, e2⟩ := loaded_forget h3 hl
  refine twin_learned (Run.After.split twin_learner w0 w1 w2 (.inl twin_blind) (.inl twin_blind) (.inl twin_blind) he
    (r := { r with data := data }) (q := { r with data := data }) (p := p) ⟨t0, rfl, rfl⟩ h1 h2 ?_ h4 n1 n2 n3)
  intro rm h
  have hfl : p.snn.net.layers = c1.snn.net.layers := by
    rw [e1]
    simp only [Snn.forget, Net.forget, e2]
    have hp := (twin_plain h.net.symm.layers).2
    clear h2 h3 hl hd hdr h4 n2 e1 e2 h
    generalize c1.snn.net.layers = ls at hp
    induction ls with
    | nil => rfl
    | cons l ls ih =>
      rw [List.map_cons, ih (fun l hl => hp l (by simp [hl]))]
      have := hp l (by simp)
      unfold NonRecurrent at this
      unfold Layer.forget
      cases hb : l.body <;> rw [hb] at this <;> simp_all
  refine ⟨⟨by rw [hfl]; exact h.net.layers, h.net.nan, ?_, ?_, ?_⟩, hdr.trans h.draws, hd.trans h.data⟩
  · rw [e1]; rfl
  · rw [e1]; simp only [Snn.forget, Net.forget, e2]; exact h.net.num
  · rw [e1]; simp only [Snn.forget, Net.forget, e2]; exact h.net.opt

end

/-! ### The criterion `N_ep` -/

section
variable {F : Type} [Field F] [LinearOrder F] [IsStrictOrderedRing F]

/-- `N_ep` lasts N epochs. -/
theorem lasts_ep (n : Nat) (h : n < 2 ^ 31) : Lasts (litEp n : Wait F) n := by
  intro ms e a m he
  have h1 : toInt32 n = n := by unfold toInt32; rw [Int.bmod_eq_of_le] <;> norm_num <;> omega
  have h2 : fle (lit 0 : F) (lit (-1)) = false := by simp [fle, Flt.fle]
  simp only [litEp, Wait.default, Wait.isOver, h1, h2]
  simp
  omega

end

/-! ### The hypotheses are met -/

/-- The process in which one more epoch of shuffles was made. -/
def later : Env ℚ := { Demo.env with rng := fun e => Demo.env.rng (e + 1) }

theorem later_goesOn : GoesOn Demo.env later 1 := fun _ _ => rfl

/-- The convolutional network after one training of two epochs, without evaluation. -/
def wholeRun : Run ℚ := (Call.run (Demo.run convNet dataA) (.train Demo.env dataA (litEp 2) 1 0 50)).get (by decide +kernel)
/-- After one epoch, with evaluations. -/
def half : Run ℚ := (Call.run (Demo.run convNet dataA) (.train Demo.env dataA (litEp 1) 1 1 50)).get (by decide +kernel)
/-- What is done in between. -/
def pauseCalls : List (Call ℚ) := [.computeOutput [9, 8, 7, 6, 5, 4, 3, 2, 1, 0, 1, 2] true, .evaluate Demo.env dataB, .saveAs "x"]
/-- After the pause. -/
def paused : Run ℚ := (pauseCalls.foldlM Call.run half).get (by decide +kernel)
/-- After the second epoch. -/
def secondRun : Run ℚ := (Call.run paused (.train later half.data (litEp 1) 1 0 50)).get (by decide +kernel)

/-- The convolutional network with dropout: two epochs, or one epoch, a pause with an evaluation on other data, and one epoch. -/
example : SameLearned wholeRun secondRun ∧ secondRun.snn.net.layers.map (·.body) ≠ half.snn.net.layers.map (·.body) ∧ secondRun.snn.net.stats ≠ wholeRun.snn.net.stats := by
  refine ⟨?_, by decide +kernel, by decide +kernel⟩
  exact C85_split_partial conv_wellFormed (by
      intro m hm
      simp only [convArch, List.mem_cons, List.not_mem_nil, or_false] at hm
      rcases hm with rfl | rfl | rfl | rfl | rfl <;> trivial) (o := Demo.sgd) (d := Demo.draws) (snn := convNet)
    (Res.eq_get (Snn.make convArch Demo.sgd Demo.draws) (by decide +kernel)) (calls := []) (r0 := Demo.run convNet dataA) rfl rfl
    (N := 1) (M := 1) (lasts_ep 2 (by norm_num)) (lasts_ep 1 (by norm_num)) (lasts_ep 1 (by norm_num)) later_goesOn
    (a := wholeRun) (c1 := half) (c2 := paused) (c3 := secondRun) (pause := pauseCalls) (data2 := half.data)
    (Res.eq_get _ (by decide +kernel)) (Res.eq_get _ (by decide +kernel))
    (by unfold pauseCalls; simp [lesson]) (Res.eq_get _ (by decide +kernel)) rfl (Res.eq_get _ (by decide +kernel)) (by decide +kernel) (by decide +kernel)

/-- The recurrent network after two epochs, without evaluation. -/
def recWhole : Run ℚ := ((Demo.run Demo.recurrent Demo.series).train Demo.env (litEp 2) 1 0 50).get (by decide +kernel)
/-- After one epoch. -/
def recHalf : Run ℚ := ((Demo.run Demo.recurrent Demo.series).train Demo.env (litEp 1) 1 0 50).get (by decide +kernel)
/-- Saved. -/
def recSaved : Run ℚ := (recHalf.saveAs "half").get (by decide +kernel)
/-- Loaded by another process. -/
def recLoaded : Run ℚ :=
  { snn := (loadFrom (filesAfter recSaved.trace Demo.noFiles) "half").get (by decide +kernel), data := recHalf.data, draws := recHalf.draws, ticks := 0, trace := [] }
/-- After the second epoch. -/
def recSecond : Run ℚ := (recLoaded.train later (litEp 1) 1 0 50).get (by decide +kernel)

/-- A recurrent network, saved after one epoch and resumed by another process. -/
example : SameLearned recWhole recSecond ∧ recSecond.snn.net.layers.map (·.body) ≠ recHalf.snn.net.layers.map (·.body) := by
  refine ⟨?_, by decide +kernel⟩
  exact C85_resume_partial (N := 1) (M := 1) (lasts_ep 2 (by norm_num)) (lasts_ep 1 (by norm_num)) (lasts_ep 1 (by norm_num)) later_goesOn
    le_rfl le_rfl le_rfl (r := Demo.run Demo.recurrent Demo.series) (a := recWhole) (c1 := recHalf) (c2 := recSaved) (c3 := recSecond) (p := recLoaded)
    (path := "half") (files := Demo.noFiles)
    (Res.eq_get _ (by decide +kernel)) (Res.eq_get _ (by decide +kernel)) (Res.eq_get _ (by decide +kernel)) (Res.eq_get _ (by decide +kernel)) rfl rfl
    (Res.eq_get _ (by decide +kernel)) (by decide +kernel) (by decide +kernel) (by decide +kernel)

/-- The convolutional network is saved after its first epoch and resumed, with evaluations. -/
def convSaved : Run ℚ := (half.saveAs "half").get (by decide +kernel)
/-- Loaded by another process. -/
def convLoaded : Run ℚ :=
  { snn := (loadFrom (filesAfter convSaved.trace Demo.noFiles) "half").get (by decide +kernel), data := half.data, draws := half.draws, ticks := 0, trace := [] }
/-- After the second epoch. -/
def convSecond : Run ℚ := (convLoaded.train later (litEp 1) 1 1 50).get (by decide +kernel)

example : SameLearned wholeRun convSecond :=
  C85_resume_evaluated_partial conv_wellFormed (by
      intro m hm
      simp only [convArch, List.mem_cons, List.not_mem_nil, or_false] at hm
      rcases hm with rfl | rfl | rfl | rfl | rfl <;> trivial) (o := Demo.sgd) (d := Demo.draws) (snn := convNet)
    (Res.eq_get (Snn.make convArch Demo.sgd Demo.draws) (by decide +kernel)) (calls := []) (r0 := Demo.run convNet dataA) rfl rfl
    (N := 1) (M := 1) (lasts_ep 2 (by norm_num)) (lasts_ep 1 (by norm_num)) (lasts_ep 1 (by norm_num)) later_goesOn
    (a := wholeRun) (c1 := half) (c2 := convSaved) (c3 := convSecond) (p := convLoaded) (path := "half") (files := Demo.noFiles)
    (Res.eq_get _ (by decide +kernel)) (Res.eq_get _ (by decide +kernel)) (Res.eq_get _ (by decide +kernel)) (Res.eq_get _ (by decide +kernel)) rfl rfl
    (Res.eq_get _ (by decide +kernel)) (by decide +kernel) (by decide +kernel) (by decide +kernel)

/-! ### Findings -/

/-- After one epoch that is evaluated. -/
def recHalfE : Run ℚ := ((Demo.run Demo.recurrent Demo.series).train Demo.env (litEp 1) 1 1 50).get (by decide +kernel)
/-- After two epochs evaluated after each. -/
def recWholeE : Run ℚ := ((Demo.run Demo.recurrent Demo.series).train Demo.env (litEp 2) 1 1 50).get (by decide +kernel)
/-- After the second epoch. -/
def recSecondE : Run ℚ := ((({ recHalfE with trace := [] } : Run ℚ)).train later (litEp 1) 1 1 50).get (by decide +kernel)

/-- **C85, refutation.** A recurrent network evaluated after each epoch learns other weights when its training is cut in two: the second `train`
begins with one more evaluation, which changes the memory of the network. -/
theorem C85_recurrent_refuted : recWholeE.snn.net.outputNan = false ∧ recSecondE.snn.net.outputNan = false ∧
    recWholeE.snn.net.layers.map (fun l => (layerParams l).neurons.map (·.weights)) ≠
      recSecondE.snn.net.layers.map (fun l => (layerParams l).neurons.map (·.weights)) := by
  decide +kernel

/-- After a second epoch on the data as they were before the first training. -/
def freshRun : Run ℚ := (Call.run half (.train later dataA (litEp 1) 1 0 50)).get (by decide +kernel)

/-- **C85, refutation.** The data carry a part of the state: `shuffle` goes on from the order the last epoch left. A program that loads the network
but makes the data anew does not continue the training it interrupted. -/
theorem C85_fresh_data_refuted : learningPart half.data ≠ learningPart dataA ∧
    wholeRun.snn.net.layers.map (fun l => (layerParams l).neurons.map (·.weights)) ≠
      freshRun.snn.net.layers.map (fun l => (layerParams l).neurons.map (·.weights)) := by
  decide +kernel

end Snn.SplitProps
