import Verif.Spec.ObsSpec
import Verif.Proofs.SimProofs

/-! Networks that differ only by buffers that are written before they are read cannot be told apart. -/

set_option linter.all false

namespace Snn

open Spec HistoryProps

section
variable {F : Type} [Flt F] [FTrans F] [Add F] [Sub F] [Mul F] [Div F] [Neg F]
variable {R : Stats F → Stats F → Prop}

theorem Layer.Sim.params {l m : Layer F} (h : l.Sim m) : layerParams m = layerParams l := by
  rcases h.cases with rfl | ⟨ns, ms, hb, rfl, hr⟩
  · rfl
  · unfold layerParams
    rw [hb]
    simp only [LayerParams.mk.injEq, true_and]
    clear hb h
    induction hr with
    | nil => rfl
    | cons h1 _ ih =>
      obtain ⟨e, rfl⟩ := Gru.forget_eq_iff.1 h1
      rw [List.flatMap_cons, List.flatMap_cons, ih]

theorem Snn.Sim.visible {a b : Snn F} (h : a.Sim Stats.Sim b) : visible b = visible a := by
  have hp : netParams b.net = netParams a.net := by
    unfold netParams
    rw [h.net.opt]
    congr 1
    have := h.net.layers
    generalize a.net.layers = l at this
    generalize b.net.layers = m at this
    clear h
    induction this with
    | nil => rfl
    | cons h1 _ ih => rw [List.map_cons, List.map_cons, ih, h1.params]
  have hs := h.net.stats
  unfold Stats.Sim at hs
  have e1 := congrArg Stats.globalRate hs
  have e2 := congrArg Stats.weightedRate hs
  have e3 := congrArg Stats.f1Score hs
  have e4 := congrArg Stats.mae hs
  have e5 := congrArg Stats.rmse hs
  have e6 := congrArg Stats.globalRateMax hs
  have e7 := congrArg Stats.weightedRateMax hs
  have e8 := congrArg Stats.f1ScoreMax hs
  have e9 := congrArg Stats.maeMin hs
  have e10 := congrArg Stats.rmseMin hs
  have e11 := congrArg Stats.globalBetter hs
  have e12 := congrArg Stats.weightedBetter hs
  have e13 := congrArg Stats.f1Better hs
  have e14 := congrArg Stats.maeBetter hs
  have e15 := congrArg Stats.rmseBetter hs
  simp only [Stats.startTesting] at e1 e2 e3 e4 e5 e6 e7 e8 e9 e10 e11 e12 e13 e14 e15
  simp only [Spec.visible, hp, h.net.count, h.net.nan, h.idle, h.index, h.epoch, h.between, h.better, h.path, e1, e2, e3, e4, e5, e6, e7,
    e8, e9, e10, e11, e12, e13, e14, e15]

theorem ask_sim {a b : Run F} (h : a.Sim Stats.Sim b) (c : Call F) :
    Res.Rel (fun p q => q.1 = p.1 ∧ Run.Sim Stats.Sim p.2 q.2) (ask a c) (ask b c) := by
  have hrun : ∀ {x y : Res (Run F)}, Res.Rel (Run.Sim Stats.Sim) x y →
      Res.Rel (fun p q => q.1 = p.1 ∧ Run.Sim Stats.Sim p.2 q.2)
        (x >>= fun r' => pure ((⟨.nothing, visible r'.snn⟩ : Answer F), r'))
        (y >>= fun r' => pure ((⟨.nothing, visible r'.snn⟩ : Answer F), r')) := by
    intro x y hxy
    refine Res.Rel.bind hxy ?_
    intro r r' hr
    exact ⟨by rw [hr.snn.visible], hr⟩
  cases c with
  | computeOutput x t =>
    unfold ask Snn.computeOutput
    simp only
    refine Res.Rel.bind (R := fun p q => q.1 = p.1 ∧ Snn.Sim Stats.Sim p.2 q.2) ?_ ?_
    · refine Res.Rel.bind (Net.output_sim h.snn.net x t) ?_
      rintro ⟨o, n⟩ ⟨_, m⟩ ⟨rfl, hr⟩
      exact ⟨rfl, h.snn.withNet hr⟩
    · rintro ⟨o, n⟩ ⟨_, m⟩ ⟨rfl, hr⟩
      exact ⟨by simp only at hr ⊢; rw [hr.visible], h.setSnn hr⟩
  | computeCluster x t =>
    unfold ask Snn.computeCluster
    simp only
    refine Res.Rel.bind (R := fun p q => q.1 = p.1 ∧ Snn.Sim Stats.Sim p.2 q.2) ?_ ?_
    · refine Res.Rel.bind (Net.output_sim h.snn.net x t) ?_
      rintro ⟨o, n⟩ ⟨_, m⟩ ⟨rfl, hr⟩
      exact ⟨rfl, h.snn.withNet hr⟩
    · rintro ⟨o, n⟩ ⟨_, m⟩ ⟨rfl, hr⟩
      exact ⟨by simp only at hr ⊢; rw [hr.visible], h.setSnn hr⟩
  | evaluate env data =>
    refine hrun ?_
    have := Run.evaluate_sim env (a := { a with data := data }) (b := { b with data := data })
      ⟨h.snn, rfl, h.draws, h.ticks, h.trace⟩
    simp only [Call.run]
    generalize Run.evaluate env { a with data := data } = x at this ⊢
    generalize Run.evaluate env { b with data := data } = y at this ⊢
    cases x <;> cases y <;> simp only [Res.Rel] at this ⊢
    · exact this.weaken
    · exact this
    · exact this
  | train env data wait bs ef fuel =>
    exact hrun (Run.train_sim env wait bs ef fuel (a := { a with data := data }) (b := { b with data := data })
      ⟨h.snn, rfl, h.draws, h.ticks, h.trace⟩)
  | saveAs path =>
    refine hrun ?_
    simp only [Call.run, Run.saveAs, h.snn.idle]
    split
    · rfl
    · have hs : Snn.Sim Stats.Sim { a.snn with autoSaveFilePath := path } { b.snn with autoSaveFilePath := path } :=
        ⟨h.snn.net, h.snn.stop, h.snn.idle, h.snn.index, h.snn.epoch, h.snn.between, h.snn.better, rfl⟩
      exact ⟨hs, h.data, h.draws, h.ticks, .cons (.saved _ hs) h.trace⟩
  | autoSave w path =>
    refine hrun ?_
    simp only [Call.run]
    exact ⟨⟨h.snn.net, h.snn.stop, h.snn.idle, h.snn.index, h.snn.epoch, h.snn.between, rfl, rfl⟩, h.data, h.draws, h.ticks, h.trace⟩

theorem answers_sim : ∀ (calls : List (Call F)) {a b : Run F}, a.Sim Stats.Sim b → answers calls b = answers calls a
  | [], a, b, h => rfl
  | c :: cs, a, b, h => by
    unfold answers
    have := ask_sim h c
    generalize ask a c = x at this ⊢
    generalize ask b c = y at this ⊢
    cases x <;> cases y <;> simp only [Res.Rel] at this
    · rename_i p q
      obtain ⟨p1, p2⟩ := p
      obtain ⟨q1, q2⟩ := q
      obtain ⟨e, hr⟩ := this
      simp only at e hr ⊢
      rw [e, answers_sim cs hr]
    · rw [this]
    · rw [this]

theorem Snn.Sim.sameForClients {a b : Snn F} (h : a.Sim Stats.Sim b) : SameForClients a b :=
  ⟨h.visible.symm, fun calls data draws ticks => (answers_sim (a := ⟨a, data, draws, ticks, []⟩) (b := ⟨b, data, draws, ticks, []⟩) calls ⟨h, rfl, rfl, rfl, .nil⟩).symm⟩

end

end Snn
