import Verif.Model.RaceCalls
import Verif.Props.AccessProps
import Verif.Props.SafeProps

/-!
# C103 — the other calls while a network trains asynchronously

The full statement ("the calls that the library does not refuse are safe while a training thread runs") is false: the calls are not
synchronised with the thread, and the test of `isIdle` does not protect `saveAs`. Proved: a client that makes only the calls of the flags
and results while a thread has not been joined has no race on the weights.
-/

set_option linter.all false

namespace Snn.RaceCallsProps

open Snn Snn.Async Snn.Race Snn.RaceProps Snn.Access
open Snn.Spec (WellFormed EndsWithNeurons)

variable {F : Type} [Flt F] [FTrans F] [Add F] [Sub F] [Mul F] [Div F] [Neg F]

/-! ### The accesses of the calls are all listed -/

theorem output_kept {n n' : Net F} {x out : List F} {t : Bool} (h : n.output x t = .ok (out, n')) :
    n'.stats = n.stats ∧ n'.numberOfTraining = n.numberOfTraining ∧ n'.optimizer = n.optimizer := by
  unfold Net.output at h
  split at h
  · cases h
  · obtain ⟨⟨o, ls⟩, _, h⟩ := Res.bind_eq_ok.1 h
    cases h
    exact ⟨rfl, rfl, rfl⟩

theorem evaluate_kept {env : Env F} {r r' : Run F} (h : Run.evaluate env r = .ok r') : Same r r' .epoch ∧ Same r r' .perEpoch ∧ r'.draws = r.draws := by
  have key : ∀ (k : Nat) (s : Snn F) {b : Bool} {s' : Snn F}, evaluateLoop env.nan r.data k s = .ok (b, s') →
      s'.epoch = s.epoch ∧ s'.numberOfTrainingsBetweenTwoEvaluations = s.numberOfTrainingsBetweenTwoEvaluations := by
    intro k
    induction k with
    | zero => intro s b s' h; cases h; exact ⟨rfl, rfl⟩
    | succ k ih =>
      intro s b s' h
      simp only [evaluateLoop] at h
      split at h
      · cases h; exact ⟨rfl, rfl⟩
      · obtain ⟨need, _, h⟩ := Res.bind_eq_ok.1 h
        obtain ⟨s1, h1, h⟩ := Res.bind_eq_ok.1 h
        obtain ⟨a, b⟩ := ih _ h
        have e : s1.epoch = s.epoch ∧ s1.numberOfTrainingsBetweenTwoEvaluations = s.numberOfTrainingsBetweenTwoEvaluations := by
          split at h1
          · unfold Snn.evaluateOnce at h1
            obtain ⟨x, _, h1⟩ := Res.bind_eq_ok.1 h1
            obtain ⟨f, _, h1⟩ := Res.bind_eq_ok.1 h1
            split at h1 <;>
            · obtain ⟨_, _, h1⟩ := Res.bind_eq_ok.1 h1
              obtain ⟨_, _, h1⟩ := Res.bind_eq_ok.1 h1
              obtain ⟨⟨_, _⟩, _, h1⟩ := Res.bind_eq_ok.1 h1
              obtain ⟨_, _, h1⟩ := Res.bind_eq_ok.1 h1
              cases h1; exact ⟨rfl, rfl⟩
          · obtain ⟨x, _, h1⟩ := Res.bind_eq_ok.1 h1
            obtain ⟨f, _, h1⟩ := Res.bind_eq_ok.1 h1
            obtain ⟨⟨_, _⟩, _, h1⟩ := Res.bind_eq_ok.1 h1
            cases h1; exact ⟨rfl, rfl⟩
        exact ⟨a.trans e.1, b.trans e.2⟩
  unfold Run.evaluate at h
  obtain ⟨⟨b, s⟩, h1, h⟩ := Res.bind_eq_ok.1 h
  obtain ⟨k1, k2⟩ := key _ _ h1
  simp only at h
  split at h
  · cases h; exact ⟨k1, k2, rfl⟩
  · split at h <;> cases h <;> exact ⟨k1, k2, rfl⟩

theorem writes_perform {u : Use F} {r r' : Run F} {a : Answer F} (h : u.perform r = .ok (a, r')) : ∀ l, (l, true) ∉ u.accesses r → Same r r' l := by
  intro l hl
  cases u with
  | setNumberOfTrainingsBetweenTwoEvaluations v =>
    cases h
    cases l with
    | rng k => cases k <;> simp [Same, Snn.setNumberOfTrainingsBetweenTwoEvaluations]
    | perEpoch => simp [Use.accesses] at hl
    | _ => simp [Same, Snn.setNumberOfTrainingsBetweenTwoEvaluations]
  | computeOutput x t =>
    obtain ⟨⟨out, s⟩, h1, h⟩ := Res.bind_eq_ok.1 h
    unfold Snn.computeOutput at h1
    obtain ⟨⟨out', n⟩, h2, h1⟩ := Res.bind_eq_ok.1 h1
    obtain ⟨k1, k2, k3⟩ := output_kept h2
    cases h1
    cases h
    cases l with
    | rng k => cases k <;> simp [Same]
    | _ => first | simp [Same, k1, k2, k3]; done | (simp [Use.accesses] at hl; done)
  | computeCluster x t =>
    obtain ⟨⟨out, s⟩, h1, h⟩ := Res.bind_eq_ok.1 h
    unfold Snn.computeCluster at h1
    obtain ⟨⟨out', n⟩, h2, h1⟩ := Res.bind_eq_ok.1 h1
    obtain ⟨k1, k2, k3⟩ := output_kept h2
    cases h1
    cases h
    cases l with
    | rng k => cases k <;> simp [Same]
    | _ => first | simp [Same, k1, k2, k3]; done | (simp [Use.accesses] at hl; done)
  | trainOnce x y t =>
    obtain ⟨⟨n, d⟩, h1, h⟩ := Res.bind_eq_ok.1 h
    obtain ⟨k1, _, _, _⟩ := TrainProofs.trainOnce_frame h1
    have hr : drawsMasks r = false → d = r.draws := by
      intro hm
      have := trainOnce_alike (n := r.snn.net) (m := r.snn.net) ⟨rfl, rfl, rfl, rfl⟩ x y t (d := r.draws) (e := r.draws) (.inl rfl)
      rw [h1] at this
      exact (this.2.1 hm).1
    cases h
    cases l with
    | rng k =>
      cases k with
      | some _ => trivial
      | none =>
        refine hr ?_
        by_contra hm
        simp only [Bool.not_eq_false] at hm
        simp [Use.accesses, hm] at hl
    | _ => first | simp [Same, k1]; done | (simp [Use.accesses] at hl; done)
  | evaluate env data =>
    obtain ⟨r1, h1, h⟩ := Res.bind_eq_ok.1 h
    obtain ⟨k1, k2, k3⟩ := evaluate_kept h1
    cases h
    cases l with
    | rng k => cases k <;> simp [Same, k3]
    | epoch => exact k1
    | perEpoch => exact k2
    | _ => first | simp [Same]; done | (simp [Use.accesses] at hl; done)
  | saveAs path =>
    obtain ⟨r1, h1, h⟩ := Res.bind_eq_ok.1 h
    unfold Run.saveAs at h1
    split at h1
    · cases h1
    · cases h1
      cases h
      cases l with
      | rng k => cases k <;> simp [Same, Run.saveSync]
      | _ => simp [Same, Run.saveSync]
  | saveFilterLayersAsBitmap path data i =>
    obtain ⟨⟨fs, s⟩, h1, h⟩ := Res.bind_eq_ok.1 h
    unfold Snn.saveFilterLayersAsBitmap at h1
    split at h1
    · cases h1
    · obtain ⟨x, _, h1⟩ := Res.bind_eq_ok.1 h1
      obtain ⟨⟨ys, n⟩, h2, h1⟩ := Res.bind_eq_ok.1 h1
      obtain ⟨f2, _, h1⟩ := Res.bind_eq_ok.1 h1
      unfold Net.getLayerOutputs at h2
      split at h2
      · cases h2
      · obtain ⟨⟨o, ls⟩, _, h2⟩ := Res.bind_eq_ok.1 h2
        cases h2
        cases h1
        cases h
        cases l with
        | rng k => cases k <;> simp [Same]
        | _ => first | simp [Same]; done | (simp [Use.accesses] at hl; done)
  | isValid | summary _ | equal _ | saveFeatureMapsAsBitmap _ | copy =>
    obtain ⟨x, _, h⟩ := Res.bind_eq_ok.1 h
    cases h
    exact AccessProps.same_refl _ _
  | _ => cases h; exact AccessProps.same_refl _ _

/-- **C103**, the accesses: a call changes only the locations that are listed as written. -/
theorem C103_writes {u : Use F} {r r' : Run F} (h : u.effect r = .ok r') : ∀ l, (l, true) ∉ u.accesses r → Same r r' l := by
  obtain ⟨⟨a, r1⟩, h1, h⟩ := Res.bind_eq_ok.1 h
  cases h
  exact writes_perform h1

/-- **C103**, the accesses: a call reads only the locations that are listed. From two states that agree on them (and on the optimizer and the settings
of the automatic save) it gives the same answer, throws the same exception, writes the same file, and leaves the same in those locations. -/
theorem C103_reads {u : Use F} {r r' : Run F} (hs : ∀ l w, (l, w) ∈ u.accesses r → Same r r' l) (hf : Fixed r r') :
    Res.Rel (fun a b => b.1 = a.1 ∧ Fixed a.2 b.2 ∧ SameNews r r' a.2 b.2 ∧ ∀ l w, (l, w) ∈ u.accesses r → Same a.2 b.2 l) (u.perform r) (u.perform r') := by
  obtain ⟨⟨⟨st, nan, nt, o, ls⟩, want, idle, index, epoch, per, asw, asp⟩, data, draws, ticks, tr⟩ := r
  obtain ⟨⟨⟨st', nan', nt', o', ls'⟩, want', idle', index', epoch', per', asw', asp'⟩, data', draws', ticks', tr'⟩ := r'
  obtain ⟨hf1, hf2, hf3, hf4⟩ := hf
  simp only at hf1 hf2 hf3 hf4
  subst hf1 hf2 hf3 hf4
  cases u with
  | isTraining =>
    obtain rfl : idle' = idle := hs .idle false (by simp [Use.accesses])
    exact ⟨rfl, ⟨rfl, rfl, rfl, rfl⟩, AccessProps.no_news _ _ _ _ rfl rfl, hs⟩
  | hasNan =>
    obtain rfl : nan' = nan := hs .nan false (by simp [Use.accesses])
    exact ⟨rfl, ⟨rfl, rfl, rfl, rfl⟩, AccessProps.no_news _ _ _ _ rfl rfl, hs⟩
  | getResults =>
    obtain rfl : st' = st := hs .stats false (by simp [Use.accesses])
    exact ⟨rfl, ⟨rfl, rfl, rfl, rfl⟩, AccessProps.no_news _ _ _ _ rfl rfl, hs⟩
  | getCurrentEpoch =>
    obtain rfl : epoch' = epoch := hs .epoch false (by simp [Use.accesses])
    exact ⟨rfl, ⟨rfl, rfl, rfl, rfl⟩, AccessProps.no_news _ _ _ _ rfl rfl, hs⟩
  | getCurrentIndex =>
    obtain rfl : index' = index := hs .index false (by simp [Use.accesses])
    exact ⟨rfl, ⟨rfl, rfl, rfl, rfl⟩, AccessProps.no_news _ _ _ _ rfl rfl, hs⟩
  | getNumberOfTrainingsBetweenTwoEvaluations =>
    obtain rfl : per' = per := hs .perEpoch false (by simp [Use.accesses])
    exact ⟨rfl, ⟨rfl, rfl, rfl, rfl⟩, AccessProps.no_news _ _ _ _ rfl rfl, hs⟩
  | setNumberOfTrainingsBetweenTwoEvaluations v =>
    refine ⟨rfl, ⟨rfl, rfl, rfl, rfl⟩, AccessProps.no_news _ _ _ _ rfl rfl, ?_⟩
    intro l w hl
    simp only [Use.accesses, List.mem_cons, Prod.mk.injEq, List.not_mem_nil, or_false] at hl
    obtain ⟨rfl, _⟩ := hl
    rfl
  | getNumberOfTraining =>
    obtain ⟨rfl, rfl⟩ : ls' = ls ∧ nt' = nt := hs .layers false (by simp [Use.accesses])
    exact ⟨rfl, ⟨rfl, rfl, rfl, rfl⟩, AccessProps.no_news _ _ _ _ rfl rfl, hs⟩
  | isValid =>
    obtain ⟨rfl, rfl⟩ : ls' = ls ∧ nt' = nt := hs .layers false (by simp [Use.accesses])
    refine Res.Rel.bind (R := Eq) (Res.Rel.eq (β := Unit)) ?_
    rintro e _ rfl
    exact ⟨rfl, ⟨rfl, rfl, rfl, rfl⟩, AccessProps.no_news _ _ _ _ rfl rfl, hs⟩
  | summary fl =>
    obtain ⟨rfl, rfl⟩ : ls' = ls ∧ nt' = nt := hs .layers false (by simp [Use.accesses])
    obtain rfl : epoch' = epoch := hs .epoch false (by simp [Use.accesses])
    refine Res.Rel.bind (R := Eq) (Res.Rel.eq (β := Unit)) ?_
    rintro e _ rfl
    exact ⟨rfl, ⟨rfl, rfl, rfl, rfl⟩, AccessProps.no_news _ _ _ _ rfl rfl, hs⟩
  | equal other =>
    obtain ⟨rfl, rfl⟩ : ls' = ls ∧ nt' = nt := hs .layers false (by simp [Use.accesses])
    obtain rfl : epoch' = epoch := hs .epoch false (by simp [Use.accesses])
    obtain rfl : want' = want := hs .want false (by simp [Use.accesses])
    obtain rfl : index' = index := hs .index false (by simp [Use.accesses])
    obtain rfl : idle' = idle := hs .idle false (by simp [Use.accesses])
    obtain rfl : per' = per := hs .perEpoch false (by simp [Use.accesses])
    refine Res.Rel.bind (R := Eq) (Res.Rel.eq (β := Unit)) ?_
    rintro e _ rfl
    exact ⟨rfl, ⟨rfl, rfl, rfl, rfl⟩, AccessProps.no_news _ _ _ _ rfl rfl, hs⟩
  | copy =>
    obtain ⟨rfl, rfl⟩ : ls' = ls ∧ nt' = nt := hs .layers false (by simp [Use.accesses])
    obtain rfl : epoch' = epoch := hs .epoch false (by simp [Use.accesses])
    obtain rfl : index' = index := hs .index false (by simp [Use.accesses])
    obtain rfl : nan' = nan := hs .nan false (by simp [Use.accesses])
    obtain rfl : st' = st := hs .stats false (by simp [Use.accesses])
    obtain rfl : per' = per := hs .perEpoch false (by simp [Use.accesses])
    refine Res.Rel.bind (R := Eq) (Res.Rel.eq (β := Unit)) ?_
    rintro e _ rfl
    exact ⟨rfl, ⟨rfl, rfl, rfl, rfl⟩, AccessProps.no_news _ _ _ _ rfl rfl, hs⟩
  | computeOutput x t =>
    obtain ⟨rfl, rfl⟩ : ls' = ls ∧ nt' = nt := hs .layers true (by simp [Use.accesses])
    obtain rfl : nan' = nan := hs .nan true (by simp [Use.accesses])
    simp only [Use.perform, Snn.computeOutput]
    refine Res.Rel.bind (R := fun a b => a.1 = b.1 ∧ Alike a.2.net b.2.net ∧ a.2 = { (⟨⟨st, nan', nt', o', ls'⟩, want, idle, index, epoch, per, asw', asp'⟩ : Snn F) with net := a.2.net } ∧
      b.2 = { (⟨⟨st', nan', nt', o', ls'⟩, want', idle', index', epoch', per', asw', asp'⟩ : Snn F) with net := b.2.net }) ?_ ?_
    · refine (output_alike (n := ⟨st, nan', nt', o', ls'⟩) (m := ⟨st', nan', nt', o', ls'⟩) ⟨rfl, rfl, rfl, rfl⟩ x t).bind ?_
      rintro ⟨y, n⟩ ⟨y', m⟩ ⟨h1, h2, _⟩
      exact ⟨h1, h2, rfl, rfl⟩
    · rintro ⟨y, s1⟩ ⟨y', s2⟩ ⟨h1, h2, h3, h4⟩
      simp only at h1 h2 h3 h4
      subst h1
      rw [h3, h4]
      refine ⟨rfl, ⟨h2.optimizer, rfl, rfl, rfl⟩, AccessProps.no_news _ _ _ _ rfl rfl, ?_⟩
      intro l w hl
      simp only [Use.accesses, List.mem_cons, Prod.mk.injEq, List.not_mem_nil, or_false] at hl
      rcases hl with ⟨rfl, _⟩ | ⟨rfl, _⟩
      · exact ⟨h2.layers, h2.number⟩
      · exact h2.nan
  | computeCluster x t =>
    obtain ⟨rfl, rfl⟩ : ls' = ls ∧ nt' = nt := hs .layers true (by simp [Use.accesses])
    obtain rfl : nan' = nan := hs .nan true (by simp [Use.accesses])
    simp only [Use.perform, Snn.computeCluster]
    refine Res.Rel.bind (R := fun a b => a.1 = b.1 ∧ Alike a.2.net b.2.net ∧ a.2 = { (⟨⟨st, nan', nt', o', ls'⟩, want, idle, index, epoch, per, asw', asp'⟩ : Snn F) with net := a.2.net } ∧
      b.2 = { (⟨⟨st', nan', nt', o', ls'⟩, want', idle', index', epoch', per', asw', asp'⟩ : Snn F) with net := b.2.net }) ?_ ?_
    · refine (output_alike (n := ⟨st, nan', nt', o', ls'⟩) (m := ⟨st', nan', nt', o', ls'⟩) ⟨rfl, rfl, rfl, rfl⟩ x t).bind ?_
      rintro ⟨y, n⟩ ⟨y', m⟩ ⟨h1, h2, _⟩
      simp only at h1
      subst h1
      exact ⟨rfl, h2, rfl, rfl⟩
    · rintro ⟨y, s1⟩ ⟨y', s2⟩ ⟨h1, h2, h3, h4⟩
      simp only at h1 h2 h3 h4
      subst h1
      rw [h3, h4]
      refine ⟨rfl, ⟨h2.optimizer, rfl, rfl, rfl⟩, AccessProps.no_news _ _ _ _ rfl rfl, ?_⟩
      intro l w hl
      simp only [Use.accesses, List.mem_cons, Prod.mk.injEq, List.not_mem_nil, or_false] at hl
      rcases hl with ⟨rfl, _⟩ | ⟨rfl, _⟩
      · exact ⟨h2.layers, h2.number⟩
      · exact h2.nan
  | trainOnce x y t =>
    obtain ⟨rfl, rfl⟩ : ls' = ls ∧ nt' = nt := hs .layers true (by simp [Use.accesses])
    obtain rfl : nan' = nan := hs .nan true (by simp [Use.accesses])
    have hd : draws' = draws ∨ ls'.any (fun l => l.optimizers.any isDropout) = false := by
      cases hm : drawsMasks (⟨⟨⟨st, nan', nt', o', ls'⟩, want, idle, index, epoch, per, asw', asp'⟩, data, draws, ticks', tr⟩ : Run F) with
      | true => exact .inl (hs (.rng none) true (by simp [Use.accesses, hm]))
      | false => exact .inr hm
    refine (trainOnce_alike (n := ⟨st, nan', nt', o', ls'⟩) (m := ⟨st', nan', nt', o', ls'⟩) ⟨rfl, rfl, rfl, rfl⟩ x y t hd).bind ?_
    rintro ⟨n1, e1⟩ ⟨n2, e2⟩ ⟨h2, hb, hc⟩
    refine ⟨rfl, ⟨h2.optimizer, rfl, rfl, rfl⟩, AccessProps.no_news _ _ _ _ rfl rfl, ?_⟩
    intro l w hl
    simp only [Use.accesses] at hl
    rcases List.mem_append.1 hl with hl | hl
    · simp only [List.mem_cons, Prod.mk.injEq, List.not_mem_nil, or_false] at hl
      rcases hl with ⟨rfl, _⟩ | ⟨rfl, _⟩
      · exact ⟨h2.layers, h2.number⟩
      · exact h2.nan
    · split at hl
      · rename_i hm
        simp only [List.mem_cons, Prod.mk.injEq, List.not_mem_nil, or_false] at hl
        obtain ⟨rfl, _⟩ := hl
        exact (hc (hs (.rng none) true (by simp [Use.accesses, hm]))).symm
      · cases hl
  | evaluate env d =>
    obtain ⟨rfl, rfl⟩ : ls' = ls ∧ nt' = nt := hs .layers true (by simp [Use.accesses])
    obtain rfl : epoch' = epoch := hs .epoch false (by simp [Use.accesses])
    obtain rfl : want' = want := hs .want true (by simp [Use.accesses])
    obtain rfl : index' = index := hs .index true (by simp [Use.accesses])
    obtain rfl : idle' = idle := hs .idle true (by simp [Use.accesses])
    obtain rfl : per' = per := hs .perEpoch false (by simp [Use.accesses])
    obtain rfl : nan' = nan := hs .nan true (by simp [Use.accesses])
    obtain rfl : st' = st := hs .stats true (by simp [Use.accesses])
    simp only [Use.perform, Run.evaluate]
    refine Res.Rel.bind (R := fun a b => b.snn = a.snn ∧ b.ticks = a.ticks ∧ a.draws = draws ∧ b.draws = draws' ∧ ∃ e, a.trace = e ++ tr ∧ b.trace = e ++ tr') ?_ ?_
    · refine Res.Rel.bind (R := Eq) (Res.Rel.eq (β := Unit)) ?_
      rintro ⟨stop, s⟩ _ rfl
      simp only
      split
      · exact ⟨rfl, rfl, rfl, rfl, [_], rfl, rfl⟩
      · split
        · exact ⟨rfl, rfl, rfl, rfl, [_, _], rfl, rfl⟩
        · exact ⟨rfl, rfl, rfl, rfl, [_], rfl, rfl⟩
    · rintro ⟨s1, da, d1, t1, tr1⟩ ⟨s2, db, d2, t2, tr2⟩ ⟨h1, h2, h3, h4, e, h5, h6⟩
      simp only at h1 h2 h3 h4 h5 h6
      subst h1 h2 h3 h4 h5 h6
      refine ⟨rfl, ⟨rfl, rfl, rfl, rfl⟩, ⟨e, e, rfl, rfl, List.forall₂_same.2 fun x _ => AccessProps.event_refl x⟩, ?_⟩
      intro l w hl
      simp only [Use.accesses, List.mem_cons, Prod.mk.injEq, List.not_mem_nil, or_false] at hl
      rcases hl with ⟨rfl, _⟩ | ⟨rfl, _⟩ | ⟨rfl, _⟩ | ⟨rfl, _⟩ | ⟨rfl, _⟩ | ⟨rfl, _⟩ | ⟨rfl, _⟩ | ⟨rfl, _⟩ <;> simp [Same]
  | saveAs path =>
    obtain ⟨rfl, rfl⟩ : ls' = ls ∧ nt' = nt := hs .layers false (by simp [Use.accesses])
    obtain rfl : epoch' = epoch := hs .epoch false (by simp [Use.accesses])
    obtain rfl : want' = want := hs .want false (by simp [Use.accesses])
    obtain rfl : index' = index := hs .index false (by simp [Use.accesses])
    obtain rfl : idle' = idle := hs .idle false (by simp [Use.accesses])
    obtain rfl : per' = per := hs .perEpoch false (by simp [Use.accesses])
    obtain rfl : st' = st := hs .stats false (by simp [Use.accesses])
    simp only [Use.perform, Run.saveAs]
    cases idle' with
    | false => exact rfl
    | true =>
      refine ⟨rfl, ⟨rfl, rfl, rfl, rfl⟩, AccessProps.one_news rfl rfl ⟨rfl, rfl⟩, ?_⟩
      intro l w hl
      simp only [Use.accesses, List.mem_cons, Prod.mk.injEq, List.not_mem_nil, or_false] at hl
      rcases hl with ⟨rfl, _⟩ | ⟨rfl, _⟩ | ⟨rfl, _⟩ | ⟨rfl, _⟩ | ⟨rfl, _⟩ | ⟨rfl, _⟩ | ⟨rfl, _⟩ <;> simp [Same, Run.saveSync]
  | saveFeatureMapsAsBitmap path =>
    obtain ⟨rfl, rfl⟩ : ls' = ls ∧ nt' = nt := hs .layers false (by simp [Use.accesses])
    obtain rfl : idle' = idle := hs .idle false (by simp [Use.accesses])
    refine Res.Rel.bind (R := Eq) (Res.Rel.eq (β := Unit)) ?_
    rintro e _ rfl
    exact ⟨rfl, ⟨rfl, rfl, rfl, rfl⟩, AccessProps.no_news _ _ _ _ rfl rfl, hs⟩
  | saveFilterLayersAsBitmap path d i =>
    obtain ⟨rfl, rfl⟩ : ls' = ls ∧ nt' = nt := hs .layers true (by simp [Use.accesses])
    obtain rfl : idle' = idle := hs .idle false (by simp [Use.accesses])
    simp only [Use.perform, Snn.saveFilterLayersAsBitmap, Net.getLayerOutputs]
    cases idle' with
    | false => exact rfl
    | true =>
      simp only [Bool.not_true, Bool.false_eq_true, if_false]
      refine Res.Rel.bind (R := fun a b => a.1 = b.1 ∧ ∃ l, a.2 = ⟨⟨st, nan, nt', o', l⟩, want, true, index, epoch, per, asw', asp'⟩ ∧
        b.2 = ⟨⟨st', nan', nt', o', l⟩, want', true, index', epoch', per', asw', asp'⟩) ?_ ?_
      · refine Res.Rel.bind (R := Eq) (Res.Rel.eq (β := Unit)) ?_
        rintro x _ rfl
        by_cases he : ls'.isEmpty = true
        · simp only [he, if_true]; exact rfl
        · simp only [he, if_false, Bool.false_eq_true]
          cases hl : layerOutputsLoop ls' x with
          | throw m => exact rfl
          | ub m => exact rfl
          | ok p =>
            obtain ⟨ys, l⟩ := p
            simp only [Res.ok_bind, Res.pure_eq]
            refine Res.Rel.bind (R := Eq) (Res.Rel.eq (β := Unit)) ?_
            rintro fs _ rfl
            exact ⟨rfl, l, rfl, rfl⟩
      · rintro ⟨y, s1⟩ ⟨y', s2⟩ ⟨h1, k, h3, h4⟩
        simp only at h1 h3 h4
        subst h1 h3 h4
        refine ⟨rfl, ⟨rfl, rfl, rfl, rfl⟩, AccessProps.no_news _ _ _ _ rfl rfl, ?_⟩
        intro l w hl
        simp only [Use.accesses, List.mem_cons, Prod.mk.injEq, List.not_mem_nil, or_false] at hl
        rcases hl with ⟨rfl, _⟩ | ⟨rfl, _⟩ <;> simp [Same]

/-! ### The discipline -/

theorem calls_shape {c : Caller F} {r0 : Run F} {tr : List (MemEvent Nat Loc)} {σ : Sys F} (h : ExecCalls c r0 tr σ) : Shape σ := by
  induction h with
  | start => exact ⟨by intro i j pc h; simp [Sys.start] at h, trivial⟩
  | client _ hs ih => exact shape_client ih hs
  | thread _ hs ih => exact shape_thread ih hs
  | @call tr σ u r' h hr hc hu ih => exact ⟨ih.1, ih.2⟩

/-- The calls that read only flags and results: `isTraining`, `hasNan`, the results and the epoch number. -/
def Watches : Use F → Prop
  | .isTraining => True
  | .hasNan => True
  | .getResults => True
  | .getCurrentEpoch => True
  | _ => False

theorem calls_inv {c : Caller F} (hq : ∀ σ u, c.calls σ u → Watches u ∨ σ.handle = none) {r0 : Run F} {tr : List (MemEvent Nat Loc)} {σ : Sys F}
    (h : ExecCalls c r0 tr σ) : TraceInv tr σ := by
  induction h with
  | start => exact ⟨by simp, by simp, fun _ a e k h => (by simp at h), fun i h => (by cases h), fun a b e f l w v _ h => by simp at h⟩
  | client h hs ih => exact ih.client (calls_shape h) hs
  | thread h hs ih => exact ih.thread (calls_shape h) hs
  | @call tr σ u r' h hr hc hu ih =>
    refine ih.main toEvents_who rfl rfl (fun k hk => ?_) ?_
    · rw [show σ.client = _ from hk] at hr; cases hr
    · rcases hq σ u hc with hw | hn
      · right
        cases u <;> first | exact hw.elim | simp [toEvents, Use.accesses, Shared]
      · exact .inl hn

/-- **C103**, the proved part: a client that, while a training thread has not been joined (by `stopTrainingAsync`, the next training or the
destructor), makes only the calls `isTraining`, `hasNan`, the getters of the results and of the epoch number, has no data race on the
weights and memories of the layers, the data, the positions of the loops and the generators, whatever it calls at the other times.
Missing: every other call during a training (`C103_call_refuted`, `C103_save_refuted`). -/
theorem C103_weights_partial {c : Caller F} (hq : ∀ σ u, c.calls σ u → Watches u ∨ σ.handle = none) {r0 : Run F} {tr : List (MemEvent Nat Loc)} {σ : Sys F}
    (h : ExecCalls c r0 tr σ) : ¬ RaceOn tr .layers ∧ ¬ RaceOn tr .data ∧ ¬ RaceOn tr .index ∧ ¬ RaceOn tr .perEpoch ∧ ∀ k, ¬ RaceOn tr (.rng k) := by
  have key : ∀ l, RaceOn tr l → Shared l := fun l hl => (calls_inv hq h).ordered.free hl
  refine ⟨fun h => ?_, fun h => ?_, fun h => ?_, fun h => ?_, fun k h => ?_⟩ <;>
    rcases key _ h with h | h | h | h | h <;> cases h

/-! ### The races -/

/-- What is known of the trace whatever the client calls. -/
structure Forked (tr : List (MemEvent Nat Loc)) (σ : Sys F) : Prop where
  actor : ∀ e ∈ tr, ∀ u, (e.act = .fork u → e.who = none) ∧ (e.act = .join u → e.who = none)
  bound : ∀ e ∈ tr, ∀ u, (e.act = .fork u ∨ e.act = .join u) → u < σ.threads.length
  running : ∀ i, σ.handle = some i → ∃ pre post, tr = pre ++ ⟨none, .fork i⟩ :: post ∧ (∀ e ∈ pre ++ post, e.act ≠ .fork i) ∧ (∀ e ∈ pre ++ post, e.act ≠ .join i)

theorem Forked.accesses {tr ext : List (MemEvent Nat Loc)} {σ τ : Sys F} (h : Forked tr σ) {who : Option Nat} (hext : ∀ e ∈ ext, e.who = who ∧ ∃ l w, e.act = .access l w)
    (ht : τ.threads.length = σ.threads.length) (hh : τ.handle = σ.handle) : Forked (tr ++ ext) τ := by
  refine ⟨?_, ?_, ?_⟩
  · intro e he u
    rcases List.mem_append.1 he with k | k
    · exact h.actor e k u
    · obtain ⟨_, l, w, hl⟩ := hext e k
      rw [hl]
      exact ⟨fun h => (by cases h), fun h => by cases h⟩
  · intro e he u
    rw [ht]
    rcases List.mem_append.1 he with k | k
    · exact h.bound e k u
    · obtain ⟨_, l, w, hl⟩ := hext e k
      rw [hl]
      rintro (h | h) <;> cases h
  · intro i hi
    rw [hh] at hi
    obtain ⟨pre, post, e, h1, h2⟩ := h.running i hi
    refine ⟨pre, post ++ ext, by rw [e]; simp, ?_, ?_⟩ <;> intro e' he' <;> rw [← List.append_assoc] at he' <;> rcases List.mem_append.1 he' with k | k
    · exact h1 e' k
    · obtain ⟨_, l, w, hl⟩ := hext e' k
      rw [hl]; intro h; cases h
    · exact h2 e' k
    · obtain ⟨_, l, w, hl⟩ := hext e' k
      rw [hl]; intro h; cases h

theorem Forked.client {p : Program F} {tr : List (MemEvent Nat Loc)} {σ τ : Sys F} (hsh : Shape σ) (h : Forked tr σ) (hs : ClientStep p σ τ) :
    Forked (tr ++ clientEvents σ τ) τ := by
  cases hs with
  | callStart j hp hr hw hv => exact h.accesses (who := none) (by simp [clientEvents, hr]) rfl rfl
  | callTrain j hp hr hv hi => exact h.accesses (who := none) (by simp only [clientEvents, hr]; exact toEvents_who) rfl rfl
  | callThrows hr =>
    have : clientEvents σ σ = [] := by simp [clientEvents, hr]
    rw [this]
    exact h.accesses (who := none) (by simp) rfl rfl
  | callStop hr => exact h.accesses (who := none) (by simp [clientEvents, hr]) rfl rfl
  | callDestructor hr => exact h.accesses (who := none) (by simp [clientEvents, hr]) rfl rfl
  | setWant k hc => exact h.accesses (who := none) (by simp only [clientEvents, hc]; exact toEvents_who) rfl rfl
  | notJoinable k hc hh => exact h.accesses (who := none) (by simp [clientEvents, hc, hh]) rfl rfl
  | join k i j hc hh hd =>
    have hev : clientEvents σ { σ with handle := none, client := .stopped k } = [⟨none, .join i⟩] := by simp [clientEvents, hc, hh]
    rw [hev]
    have hi : i < σ.threads.length := (List.getElem?_eq_some_iff.1 hd).1
    refine ⟨?_, ?_, fun _ h => by cases h⟩
    · intro e he u
      rcases List.mem_append.1 he with m | m
      · exact h.actor e m u
      · rw [List.mem_singleton.1 m]; simp
    · intro e he u
      rcases List.mem_append.1 he with m | m
      · exact h.bound e m u
      · rw [List.mem_singleton.1 m]
        rintro (h | h) <;> cases h
        exact hi
  | returnStop hc => exact h.accesses (who := none) (by simp [clientEvents, hc]) rfl rfl
  | endDestructor hc => exact h.accesses (who := none) (by simp [clientEvents, hc]) rfl rfl
  | spawn j hc hh =>
    have hev : clientEvents σ { σ with threads := σ.threads ++ [(j, .enter)], handle := some σ.threads.length, client := .ready } = [⟨none, .fork σ.threads.length⟩] := by
      simp [clientEvents, hc]
    rw [hev]
    refine ⟨?_, ?_, ?_⟩
    · intro e he u
      rcases List.mem_append.1 he with m | m
      · exact h.actor e m u
      · rw [List.mem_singleton.1 m]; simp
    · intro e he u hu
      simp only [List.length_append, List.length_singleton]
      rcases List.mem_append.1 he with m | m
      · have := h.bound e m u hu; omega
      · rw [List.mem_singleton.1 m] at hu
        rcases hu with h | h <;> cases h
        omega
    · intro i hi
      cases hi
      refine ⟨tr, [], rfl, ?_, ?_⟩ <;> intro e he hu <;> rw [List.append_nil] at he
      · exact absurd (h.bound e he _ (.inl hu)) (by omega)
      · exact absurd (h.bound e he _ (.inr hu)) (by omega)
  | spawnTerminates j hc hh =>
    have := hsh.free
    rw [hc] at this
    exact absurd this hh
  | enterTrain j hc => exact h.accesses (who := none) (by simp [clientEvents, hc]) rfl rfl
  | trainAction j pc pc' r' hc hne hn => exact h.accesses (who := none) (by simp only [clientEvents, hc]; exact toEvents_who) rfl rfl
  | trainReturns j hc => exact h.accesses (who := none) (by simp only [clientEvents, hc]; exact toEvents_who) rfl rfl
  | callWait w hr => exact h.accesses (who := none) (by simp [clientEvents, hr]) rfl rfl
  | poll w t hc => exact h.accesses (who := none) (by simp only [clientEvents, hc]; exact toEvents_who) rfl rfl
  | use r' hr hu =>
    have : clientEvents σ { σ with run := r' } = [] := by simp [clientEvents, hr]
    rw [this]
    exact h.accesses (who := none) (by simp) rfl rfl

theorem calls_forked {c : Caller F} {r0 : Run F} {tr : List (MemEvent Nat Loc)} {σ : Sys F} (h : ExecCalls c r0 tr σ) : Forked tr σ := by
  induction h with
  | start => exact ⟨by simp, by simp, fun i h => by cases h⟩
  | client h hs ih => exact ih.client (calls_shape h) hs
  | @thread tr σ τ i h hs ih =>
    cases hs with
    | action j pc pc' r' ht hne hn =>
      refine ih.accesses (who := some i) ?_ (by simp) rfl
      simp only [threadEvents, ht]
      exact toEvents_who
  | @call tr σ u r' h hr hc hu ih => exact ih.accesses (who := none) toEvents_who rfl rfl

/-- **C103** refuted, the general form: whatever location the client and the training thread have both accessed since the thread was
started, one of them writing it, is raced as long as the thread is not joined — and for ever (`race_mono`). -/
theorem C103_overlap_refuted {c : Caller F} {r0 : Run F} {tr pre post : List (MemEvent Nat Loc)} {σ : Sys F} (h : ExecCalls c r0 tr σ) {i : Nat} (hh : σ.handle = some i)
    (hs : tr = pre ++ ⟨none, .fork i⟩ :: post) {l : Loc} {w v : Bool} (hm : ⟨none, .access l v⟩ ∈ post) (ht : ⟨some i, .access l w⟩ ∈ tr) (hw : w = true ∨ v = true) :
    RaceOn tr l := by
  have hf := calls_forked h
  obtain ⟨pre', post', e, h1, h2⟩ := hf.running i hh
  have key : pre' = pre ∧ post' = post := by
    rw [hs] at e
    have hlen : pre'.length = pre.length := by
      have g1 : (pre ++ ⟨none, .fork i⟩ :: post)[pre.length]? = some ⟨none, .fork i⟩ := by simp
      rcases lt_trichotomy pre.length pre'.length with h | h | h
      · rw [e, List.getElem?_append_left h] at g1
        exact absurd rfl (h1 _ (List.mem_append_left _ (List.mem_of_getElem? g1)))
      · exact h.symm
      · rw [e, List.getElem?_append_right (by omega), show pre.length - pre'.length = (pre.length - pre'.length - 1) + 1 by omega, List.getElem?_cons_succ] at g1
        exact absurd rfl (h1 _ (List.mem_append_right _ (List.mem_of_getElem? g1)))
    obtain ⟨a, b⟩ := List.append_inj e.symm hlen
    exact ⟨a, (List.cons.inj b).2⟩
  obtain ⟨rfl, rfl⟩ := key
  exact race_of_split e hf.actor h1 h2 ht hm hw

/-- The calls that touch the weights. -/
def Touches : Use F → Prop
  | .isTraining => False
  | .hasNan => False
  | .getResults => False
  | .getCurrentEpoch => False
  | .getCurrentIndex => False
  | .getNumberOfTrainingsBetweenTwoEvaluations => False
  | .setNumberOfTrainingsBetweenTwoEvaluations _ => False
  | _ => True

/-- **C103** refuted: every call of `computeOutput`, `computeCluster`, `trainOnce`, `evaluate`, `isValid`, `summary`, `getNumberOfTraining`, `operator==`, of the copy
constructor, of `saveAs`, `saveFeatureMapsAsBitmap` and `saveFilterLayersAsBitmap` that is not refused while a thread that has begun to learn is not joined races on the
weights. -/
theorem C103_call_refuted {c : Caller F} {r0 : Run F} {tr : List (MemEvent Nat Loc)} {σ : Sys F} (h : ExecCalls c r0 tr σ) (hr : σ.client = .ready)
    {i : Nat} (hh : σ.handle = some i) (ht : ⟨some i, .access .layers true⟩ ∈ tr) {u : Use F} (hu : Touches u) (hc : c.calls σ u) {r' : Run F}
    (he : u.effect σ.run = .ok r') : RaceOn (tr ++ toEvents none (u.accesses σ.run)) .layers := by
  obtain ⟨pre, post, e, h1, h2⟩ := (calls_forked h).running i hh
  have h' := h.call hr hc he
  have hv : ∃ v, (Loc.layers, v) ∈ u.accesses σ.run := by
    cases u <;> first | exact hu.elim | (refine ⟨true, ?_⟩; simp [Use.accesses]; done) | (refine ⟨false, ?_⟩; simp [Use.accesses]; done)
  obtain ⟨v, hv⟩ := hv
  refine C103_overlap_refuted h' (i := i) hh (pre := pre) (post := post ++ toEvents none (u.accesses σ.run)) (by rw [e]; simp) (v := v) ?_ (List.mem_append_left _ ht) (.inl rfl)
  exact List.mem_append_right _ (List.mem_map.2 ⟨_, hv, rfl⟩)

/-- A step of the only thread, with the trace split at its start. -/
theorem one_step {c : Caller F} {r0 r r' : Run F} {pre post : List (MemEvent Nat Loc)} {j : Job F} {pc pc' : Pc} {cl : Client F}
    (h : ExecCalls c r0 (pre ++ ⟨none, .fork 0⟩ :: post) (AsyncProps.one j r pc cl)) (hne : pc ≠ .done) (hn : next j pc r = .ok (pc', r')) :
    ExecCalls c r0 (pre ++ ⟨none, .fork 0⟩ :: (post ++ toEvents (some 0) (accesses j pc r))) (AsyncProps.one j r' pc' cl) := by
  have := h.thread (i := 0) (.action (σ := AsyncProps.one j r pc cl) j pc pc' r' rfl hne hn)
  rw [List.append_assoc] at this
  exact this

theorem save_races {ni no : Nat} {c : Caller F} {r0 : Run F} {j : Job F} (hp : c.submits j) (path : String) (hcall : ∀ σ, c.calls σ (.saveAs path))
    (hw : j.wait = Wait.default) (hef : 0 < j.evaluationFrequency) (hv : r0.snn.validData j.data j.batchSize = .ok ())
    (hn : r0.snn.net.outputNan = false) (hi : r0.snn.isIdle = true) (hs : SafeNet ni no r0.snn.net) (hd : SafeData ni no j.data) (ht : 0 < j.data.testing.size) :
    ∃ tr σ, ExecCalls c r0 tr σ ∧ σ.client = .ready ∧ σ.handle = some 0 ∧ ⟨some 0, .access .layers true⟩ ∈ tr ∧ σ.threads.length = 1 ∧ Event.saved path { r0.snn with wantToStopTraining := true, autoSaveFilePath := path } ∈ σ.run.trace ∧
      RaceOn tr .layers := by
  have r1 := ExecCalls.start (c := c) (r0 := r0) |>.client (.callStart j hp rfl hw hv)
  have r2 := r1.client (.setWant (.spawn j) rfl)
  have r3 := r2.client (.notJoinable (.spawn j) rfl rfl)
  have r4 := r3.client (.spawn j rfl rfl)
  obtain ⟨pre, h4⟩ : ∃ pre : List (MemEvent Nat Loc), ExecCalls c r0 (pre ++ [⟨none, .fork 0⟩])
      (AsyncProps.one j { r0 with snn := { r0.snn with wantToStopTraining := true } } .enter .ready) := ⟨_, r4⟩
  have r5 := h4.call (u := .saveAs path) rfl (hcall _) (r' := ({ r0 with snn := { r0.snn with wantToStopTraining := true } } : Run F).saveSync path)
    (by simp [Use.effect, Use.perform, Run.saveAs, AsyncProps.one, hi])
  rw [List.append_assoc] at r5
  obtain ⟨post, ra, ha, hm, n1, s1, t1⟩ : ∃ (post : List (MemEvent Nat Loc)) (ra : Run F), ExecCalls c r0 (pre ++ ⟨none, .fork 0⟩ :: post) (AsyncProps.one j ra .enter .ready) ∧
      ⟨none, .access .layers false⟩ ∈ post ∧ ra.snn.net.outputNan = false ∧ SafeNet ni no ra.snn.net ∧
      Event.saved path { r0.snn with wantToStopTraining := true, autoSaveFilePath := path } ∈ ra.trace :=
    ⟨_, _, r5, by simp [toEvents, Use.accesses], hn, hs, by simp [Run.saveSync]⟩
  have r6 := one_step ha (by simp) rfl
  have r7 := one_step r6 (by simp) rfl
  obtain ⟨k, hk⟩ : ∃ k, j.data.testing.size = k + 1 := ⟨j.data.testing.size - 1, by omega⟩
  have hnext : ∀ r : Run F, r.data.testing.size = k + 1 → next j (.evalTest .before) r = .ok (.evaluating .before (k + 1), { r with snn := { r.snn with
      net := { r.snn.net with stats := r.snn.net.stats.startTesting }
      index := 0 } }) := by
    intro r hr
    simp only [next]
    rw [if_pos (by simpa using hef), hr]
  have r8 := one_step r7 (by simp) (hnext _ hk)
  obtain ⟨post2, rb, hb, hm2, n2, s2, t2, d2, i2⟩ : ∃ (post : List (MemEvent Nat Loc)) (rb : Run F), ExecCalls c r0 (pre ++ ⟨none, .fork 0⟩ :: post) (AsyncProps.one j rb (.evaluating .before (k + 1)) .ready) ∧
      ⟨none, .access .layers false⟩ ∈ post ∧ rb.snn.net.outputNan = false ∧ SafeNet ni no rb.snn.net ∧
      Event.saved path { r0.snn with wantToStopTraining := true, autoSaveFilePath := path } ∈ rb.trace ∧ rb.data = j.data ∧ rb.snn.index = 0 :=
    ⟨_, _, r8, List.mem_append_left _ (List.mem_append_left _ (List.mem_append_left _ hm)), n1,
      ⟨⟨s1.wf.layers, s1.wf.ne, s1.wf.last⟩, by simpa [Stats.startTesting] using s1.clusters⟩, t1, rfl, rfl⟩
  obtain ⟨rc, hrc, _⟩ := evaluatePosition_safe s2 (by rw [d2]; exact hd) (by rw [i2]) (by rw [i2, d2]; exact_mod_cast ht)
  have r9 := one_step (pc' := .evaluating .before k) (r' := rc) hb (by simp) (by simp only [next]; rw [if_neg (by simp [n2]), hrc]; rfl)
  have hacc : (⟨some 0, .access .layers true⟩ : MemEvent Nat Loc) ∈ pre ++ ⟨none, .fork 0⟩ :: (post2 ++ toEvents (some 0) (accesses j (.evaluating .before (k + 1)) rb)) := by
    refine List.mem_append_right _ (List.mem_cons_of_mem _ (List.mem_append_right _ ?_))
    simp [toEvents, accesses, n2]
  refine ⟨_, _, r9, rfl, rfl, hacc, rfl, ?_, ?_⟩
  · have : rc.trace = rb.trace := by
      unfold evaluatePosition at hrc
      obtain ⟨need, _, h⟩ := Res.bind_eq_ok.1 hrc
      obtain ⟨s1, h1, h⟩ := Res.bind_eq_ok.1 h
      cases h; rfl
    simp only [AsyncProps.one, this]
    exact t2
  · refine C103_overlap_refuted r9 (i := 0) rfl rfl (v := false) (w := true) (List.mem_append_left _ hm2) hacc (.inl rfl)

/-- **C103** refuted: the test of `isIdle` does not protect `saveAs`. For every network that was just made and all data that fit it, with at
least one example to test, `saveAs` called right after `startTrainingAsync` can be accepted, because the thread has not yet set the flag: it
writes the file of the initial state while the thread begins to use the network, a data race on the weights. -/
theorem C103_save_refuted {arch : List (LayerModel F)} {s s' : List Nat} (h : WellFormed arch s s') (he : EndsWithNeurons arch) {opt : Sgd F}
    {d d' : Draws F} {snn : Snn F} (hm : Snn.make arch opt d = .ok (snn, d')) {r0 : Run F} (h0 : r0.snn = snn) {j : Job F} (hd : Spec.Fitted s.prod s'.prod j.data)
    (hw : j.wait = Wait.default) (hef : 0 < j.evaluationFrequency) (hv : snn.validData j.data j.batchSize = .ok ()) (ht : 0 < j.data.testing.size)
    {c : Caller F} (hp : c.submits j) (path : String) (hcall : ∀ σ, c.calls σ (.saveAs path)) :
    ∃ tr σ, ExecCalls c r0 tr σ ∧ σ.client = .ready ∧ σ.threads.length = 1 ∧ Event.saved path { snn with wantToStopTraining := true, autoSaveFilePath := path } ∈ σ.run.trace ∧
      RaceOn tr .layers := by
  obtain ⟨hs, hi⟩ := SafeProps.make_safe h he hm
  have hn : snn.net.outputNan = false := by
    obtain ⟨⟨net, d1⟩, h1, hm⟩ := Res.bind_eq_ok.1 hm
    obtain ⟨err, h2, hm⟩ := Res.bind_eq_ok.1 hm
    split at hm
    · cases hm
    cases hm
    unfold Net.make at h1
    obtain ⟨⟨ls, d2⟩, _, h1⟩ := Res.bind_eq_ok.1 h1
    obtain ⟨l, _, h1⟩ := Res.bind_eq_ok.1 h1
    cases h1; rfl
  subst h0
  obtain ⟨tr, σ, h1, h2, _, _, h3, h4, h5⟩ := save_races hp path hcall hw hef hv hn hi hs hd.safe ht
  exact ⟨tr, σ, h1, h2, h3, h4, h5⟩

/-! ### Non-vacuity -/

/-- The hypotheses of `C103_reads` hold for `computeOutput` in two states that differ in everything else. -/
example (x : List F) (t : Bool) (r : Run F) (st : Stats F) (e i p : Int) (d : Draws F) (data : Data F) :
    let n' : Snn F := { r.snn with
      net := { r.snn.net with stats := st }
      wantToStopTraining := !r.snn.wantToStopTraining
      isIdle := !r.snn.isIdle
      index := i
      epoch := e
      numberOfTrainingsBetweenTwoEvaluations := p }
    let r' : Run F := { r with snn := n', data := data, draws := d, trace := [] }
    (∀ l w, (l, w) ∈ (Use.computeOutput x t).accesses r → Same r r' l) ∧ Fixed r r' := by
  refine ⟨?_, ⟨rfl, rfl, rfl, rfl⟩⟩
  intro l w hl
  simp only [Use.accesses, List.mem_cons, Prod.mk.injEq, List.not_mem_nil, or_false] at hl
  rcases hl with ⟨rfl, _⟩ | ⟨rfl, _⟩ <;> simp [Same]

/-- A small network, and two examples. -/
def smallArch : List (LayerModel ℚ) := [.input [2], .fullyConnected 1 .identity []]

def small : Snn ℚ := (Res.get (Snn.make smallArch Demo.sgd Demo.draws) (by decide +kernel)).1

def smallData : Data ℚ := Res.get (Data.make1 .regression [[1, 2], [3, 4]] [[1], [0]] .nonTemporal 0) (by decide +kernel)

def smallJob : Job ℚ := { env := Demo.env, data := smallData, wait := Wait.default, batchSize := 1, evaluationFrequency := 1 }

def smallRun : Run ℚ := { snn := small, data := smallData, draws := Demo.draws, ticks := 0, trace := [] }

theorem small_fitted : Spec.Fitted 2 1 smallData := by
  refine .make1 (p := .regression) (ti := [[1, 2], [3, 4]]) (tl := [[1], [0]]) (nat := .nonTemporal) (rec := 0) (Res.eq_get _ _) ⟨rfl, ?_, ?_⟩ (by intro h; cases h) (by intro h; cases h)
  · intro r hr; simp at hr; rcases hr with rfl | rfl <;> simp
  · intro r hr; simp at hr; rcases hr with rfl | rfl <;> simp

/-- A concrete network for which `saveAs` is accepted during the training, with a data race on its weights; and `getNumberOfTraining` then races, too. -/
example : ∃ tr σ, ExecCalls { submits := fun _ => True, calls := fun _ _ => True } smallRun tr σ ∧ σ.client = .ready ∧ RaceOn tr .layers ∧
    RaceOn (tr ++ toEvents none (Use.getNumberOfTraining.accesses σ.run)) .layers := by
  have g2 : Spec.GoodShape [2] := ⟨by simp, by simp, by simp⟩
  have g1 : Spec.GoodShape [1] := ⟨by simp, by simp, by simp⟩
  have hm : Snn.make smallArch Demo.sgd Demo.draws = .ok (small, (Res.get (Snn.make smallArch Demo.sgd Demo.draws) (by decide +kernel)).2) := Res.eq_get _ _
  obtain ⟨hs, hi⟩ := SafeProps.make_safe (F := ℚ) (arch := smallArch) (s := [2]) (s' := [1])
    ⟨⟨_, _, rfl, .cons g2 (Spec.Fits.fullyConnected (n := 1) (by omega)) (.nil g1)⟩, by simp [smallArch]⟩ (by simp [EndsWithNeurons, smallArch]) hm
  obtain ⟨tr, σ, h1, h2, h3, h4, _, _, h5⟩ := save_races (F := ℚ) (c := { submits := fun _ => True, calls := fun _ _ => True }) (r0 := smallRun) (j := smallJob) trivial "a" (fun _ => trivial) rfl
    (by decide) (by decide +kernel) (by decide +kernel) hi hs small_fitted.safe (by decide +kernel)
  exact ⟨tr, σ, h1, h2, h5, C103_call_refuted h1 h2 h3 h4 (u := .getNumberOfTraining) trivial trivial (r' := σ.run) rfl⟩

/-- A disciplined client exists that trains, watches the training and computes outputs when no thread runs. -/
example : ∃ c : Caller ℚ, (∀ σ u, c.calls σ u → Watches u ∨ σ.handle = none) ∧ ∃ tr σ, ExecCalls c smallRun tr σ ∧ σ.threads.length = 1 ∧ tr.length = 4 := by
  have r0 := ExecCalls.start (c := { submits := fun _ => True, calls := fun σ u => Watches u ∨ σ.handle = none }) (r0 := smallRun)
  have r0' := r0.call (u := .getCurrentIndex) rfl (.inr rfl) rfl
  have r1 := r0'.client (.callStart smallJob trivial rfl rfl (by decide +kernel))
  have r2 := r1.client (.setWant (.spawn smallJob) rfl)
  have r3 := r2.client (.notJoinable (.spawn smallJob) rfl rfl)
  have r4 := r3.client (.spawn smallJob rfl rfl)
  have r5 := r4.call (u := .isTraining) rfl (.inl trivial) rfl
  exact ⟨_, fun σ u h => h, _, _, r5, rfl, rfl⟩

end Snn.RaceCallsProps
