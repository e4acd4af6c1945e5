import Verif.Proofs.AccessProofs
import Verif.Props.RaceProps

/-!
# C91 — the memory accesses are all listed

The theorems of C91 rest on the list of the accesses of every action. Here the lists are checked against what the actions do: what is not
listed as written does not change, and what is not listed has no effect.
-/

set_option linter.all false

namespace Snn.AccessProps

open Snn Snn.Async Snn.Access Snn.TrainProofs

variable {F : Type} [Flt F] [FTrans F] [Add F] [Sub F] [Mul F] [Div F] [Neg F]

theorem afterEvaluate_writes (s : Site) (r : Run F) : ∀ l, l ≠ .epoch → Same r (afterEvaluate s r).2 l := by
  intro l hl
  cases s <;> cases l <;> first | exact absurd rfl hl | (rename_i k; cases k <;> simp [Same, afterEvaluate]) | simp [Same, afterEvaluate]

theorem same_refl (r : Run F) (l : Loc) : Same r r l := by
  cases l <;> first | (rename_i k; cases k <;> simp [Same]) | simp [Same]

theorem same_trans {a b c : Run F} {l : Loc} (h : Same a b l) (k : Same b c l) : Same a c l := by
  cases l <;> first
    | (rename_i o; cases o <;> simp only [Same] at * <;> simp_all)
    | (simp only [Same] at *; simp_all)

theorem evaluateEnd_writes (r : Run F) : ∀ l, l ≠ .stats → Same r (evaluateEnd r) l := by
  intro l hl
  unfold evaluateEnd
  simp only
  split <;> cases l <;> first | exact absurd rfl hl | (rename_i k; cases k <;> simp [Same, Run.saveSync]) | simp [Same, Run.saveSync]

theorem evaluatePosition_writes {r r' : Run F} (h : evaluatePosition r = .ok r') : ∀ l, l ≠ .nan → l ≠ .layers → l ≠ .stats → l ≠ .index → Same r r' l := by
  have key : r'.draws = r.draws := by
    unfold evaluatePosition at h
    obtain ⟨need, _, h⟩ := Res.bind_eq_ok.1 h
    obtain ⟨s1, h1, h⟩ := Res.bind_eq_ok.1 h
    cases h; rfl
  obtain ⟨_, h1, _, h3, h4, h5, h6⟩ := evaluatePosition_frame h
  intro l a b c d
  cases l with
  | rng k => cases k <;> simp [Same, key]
  | nan => exact absurd rfl a
  | layers => exact absurd rfl b
  | stats => exact absurd rfl c
  | index => exact absurd rfl d
  | _ => simp [Same, *]

theorem trainStep_writes {env : Env F} {b : Int} {r r' : Run F} {ret : Bool} (hn : r.snn.net.outputNan = false) (h : r.trainStep env b = .ok (ret, r')) :
    ∀ l, l ≠ .nan → l ≠ .layers → (l = .data → ¬ 1 < b) → (l = .rng none → drawsMasks r = false) → Same r r' l := by
  obtain ⟨_, h1⟩ := trainStep_spec (SameButBuffers.refl r.data) hn h
  obtain ⟨net, e, e2, e3, _⟩ := h1.snn
  have hd : ¬ 1 < b → r'.data = r.data := by
    intro hb
    unfold Run.trainStep at h
    simp only [hn, Bool.false_eq_true, if_false] at h
    obtain ⟨need, _, h⟩ := Res.bind_eq_ok.1 h
    obtain ⟨⟨x, d1⟩, g1, h⟩ := Res.bind_eq_ok.1 h
    obtain ⟨first, _, h⟩ := Res.bind_eq_ok.1 h
    obtain rfl := getTrainingData_one hb g1
    split at h
    · obtain ⟨⟨y, d2⟩, g2, h⟩ := Res.bind_eq_ok.1 h
      obtain ⟨⟨n1, dr⟩, _, h⟩ := Res.bind_eq_ok.1 h
      cases h
      exact getTrainingOutputs_one hb g2
    · obtain ⟨⟨y, n1, dr⟩, _, h⟩ := Res.bind_eq_ok.1 h
      cases h; rfl
  have hr : drawsMasks r = false → r'.draws = r.draws := by
    intro hm
    rw [drawsMasks_eq] at hm
    unfold Run.trainStep at h
    simp only [hn, Bool.false_eq_true, if_false] at h
    obtain ⟨need, _, h⟩ := Res.bind_eq_ok.1 h
    obtain ⟨⟨x, d1⟩, g1, h⟩ := Res.bind_eq_ok.1 h
    obtain ⟨first, _, h⟩ := Res.bind_eq_ok.1 h
    have al : Alike r.snn.net r.snn.net := ⟨rfl, rfl, rfl, rfl⟩
    split at h
    · obtain ⟨⟨y, d2⟩, g2, h⟩ := Res.bind_eq_ok.1 h
      obtain ⟨⟨n1, dr⟩, g3, h⟩ := Res.bind_eq_ok.1 h
      cases h
      have := trainOnce_alike al x y first (d := r.draws) (e := r.draws) (.inl rfl)
      rw [g3] at this
      exact (this.2.1 hm).1
    · obtain ⟨⟨y, n1, dr⟩, g3, h⟩ := Res.bind_eq_ok.1 h
      cases h
      have := forward_alike al x first (d := r.draws) (e := r.draws) (.inl rfl)
      rw [g3] at this
      exact (this.2.2.1 hm).1
  intro l a b' c d
  cases l with
  | nan => exact absurd rfl a
  | layers => exact absurd rfl b'
  | data => exact hd (c rfl)
  | rng k =>
    cases k with
    | none => exact hr (d rfl)
    | some _ => trivial
  | _ => simp [Same, e, e2]

/-- **C91**, the accesses: an action of a training changes only the locations that are listed as written. (The first action sets which
data object is used.) -/
theorem C91_writes {j : Job F} {pc pc' : Pc} {r r' : Run F} (h : next j pc r = .ok (pc', r')) :
    ∀ l, (l, true) ∉ accesses j pc r → (pc = .enter → l ≠ .data) → Same r r' l := by
  intro l hl he
  cases pc with
  | enter =>
    cases h
    have he := he rfl
    cases l with
    | rng k => cases k <;> simp [Same]
    | _ => first | simp [Same]; done | (simp [accesses] at hl; done) | exact absurd rfl he
  | busy =>
    cases h
    cases l with
    | rng k => cases k <;> simp [Same]
    | _ => first | simp [Same]; done | (simp [accesses] at hl; done)
  | evalTest s =>
    have hq : ∀ (c : Bool), (c = true → (.stats, true) ∈ accesses j (.evalTest s) r ∧ (.index, true) ∈ accesses j (.evalTest s) r) → (c = false → (.epoch, true) ∈ accesses j (.evalTest s) r) →
        (if c = true then Res.ok (Pc.evaluating s r.data.testing.size, { r with snn := { r.snn with net := { r.snn.net with stats := r.snn.net.stats.startTesting }, index := 0 } }) else .ok (afterEvaluate s r)) = .ok (pc', r') →
        Same r r' l := by
      intro c h1 h2 h3
      cases c with
      | true =>
        rw [if_pos rfl] at h3
        cases h3
        cases l with
        | rng k => cases k <;> simp [Same]
        | stats => exact absurd (h1 rfl).1 hl
        | index => exact absurd (h1 rfl).2 hl
        | _ => simp [Same]
      | false =>
        rw [if_neg (by simp)] at h3
        have := afterEvaluate_writes s r l (fun hle => by subst hle; exact hl (h2 rfl))
        rw [Res.ok.inj h3] at this
        exact this
    cases s with
    | before =>
      refine hq (decide (j.evaluationFrequency > 0)) (fun hc => ?_) (fun hc => ?_) h
      · simp only [decide_eq_true_eq] at hc
        simp [accesses, hc]
      · simp only [decide_eq_false_iff_not] at hc
        simp [accesses, hc]
    | inLoop =>
      refine hq (decide (j.evaluationFrequency > 0 ∧ r.snn.epoch.tmod j.evaluationFrequency = 0)) (fun hc => ?_) (fun hc => ?_) h
      · simp only [decide_eq_true_eq] at hc
        simp only [accesses, if_pos hc]
        simp
      · simp only [decide_eq_false_iff_not] at hc
        simp only [accesses, if_neg hc]
        simp
  | evaluating s k =>
    cases k with
    | zero =>
      have h1 : l ≠ .stats := by rintro rfl; simp [accesses] at hl
      have h2 : l ≠ .epoch := by rintro rfl; simp [accesses] at hl
      have := same_trans (evaluateEnd_writes r l h1) (afterEvaluate_writes s _ l h2)
      simp only [next] at h
      rw [Res.ok.inj h] at this
      exact this
    | succ k =>
      simp only [next] at h
      simp only [accesses] at hl
      split at h
      · rename_i hn
        rw [if_pos hn] at hl
        cases h
        cases l with
        | rng k => cases k <;> simp [Same, nanResults]
        | stats => simp at hl
        | _ => simp [Same, nanResults]
      · rename_i hn
        rw [if_neg hn] at hl
        obtain ⟨r1, h1, h⟩ := Res.bind_eq_ok.1 h
        cases h
        refine evaluatePosition_writes h1 l ?_ ?_ ?_ ?_ <;> rintro rfl <;> simp at hl
  | evalReset s =>
    cases h
    cases l with
    | rng k => cases k <;> simp [Same]
    | _ => first | simp [Same]; done | (simp [accesses] at hl; done)
  | evalIdle s =>
    have h2 : l ≠ .epoch := by rintro rfl; simp [accesses] at hl
    have h3 : l ≠ .idle := by rintro rfl; simp [accesses] at hl
    simp only [next] at h
    have := afterEvaluate_writes s { r with snn := { r.snn with isIdle := true }, trace := .evaluated r.snn.epoch r.snn.net.stats :: r.trace } l h2
    rw [Res.ok.inj h] at this
    refine same_trans ?_ this
    cases l with
    | rng k => cases k <;> simp [Same]
    | idle => exact absurd rfl h3
    | _ => simp [Same]
  | epochTest =>
    cases h
    cases l with
    | rng k => cases k <;> simp [Same, Run.continueTraining]
    | _ => simp [Same, Run.continueTraining]
  | shuffling =>
    simp only [next] at h
    obtain ⟨d, h1, h⟩ := Res.bind_eq_ok.1 h
    cases h
    cases l with
    | rng k => cases k <;> simp [Same]
    | _ => first | simp [Same]; done | (simp [accesses] at hl; done)
  | stepTest =>
    simp only [next] at h
    split at h
    · cases h
      cases l with
      | rng k => cases k <;> simp [Same, Run.continueTraining]
      | _ => simp [Same, Run.continueTraining]
    · cases h
      exact same_refl _ _
  | stepBody =>
    simp only [next] at h
    simp only [accesses] at hl
    split at h
    · rename_i hn
      rw [if_pos hn] at hl
      cases h
      cases l with
      | rng k => cases k <;> simp [Same, nanResults]
      | stats => simp at hl
      | _ => simp [Same, nanResults]
    · rename_i hn
      rw [if_neg hn] at hl
      obtain ⟨⟨ret, r1⟩, h1, h⟩ := Res.bind_eq_ok.1 h
      cases h
      have hi : l ≠ .index := by rintro rfl; simp at hl
      refine same_trans (trainStep_writes (by simpa using hn) h1 l ?_ ?_ ?_ ?_) ?_
      · rintro rfl; simp at hl
      · rintro rfl; simp at hl
      · rintro rfl hb; simp [hb] at hl
      · rintro rfl
        by_contra hm
        simp only [Bool.not_eq_false] at hm
        simp [hm] at hl
      · cases l with
        | rng k => cases k <;> simp [Same]
        | index => exact absurd rfl hi
        | _ => simp [Same]
  | reset =>
    cases h
    cases l with
    | rng k => cases k <;> simp [Same]
    | _ => first | simp [Same]; done | (simp [accesses] at hl; done)
  | idle =>
    cases h
    cases l with
    | rng k => cases k <;> simp [Same]
    | _ => first | simp [Same]; done | (simp [accesses] at hl; done)
  | done => cases h; exact same_refl _ _

/-! ### Reads -/

theorem event_refl (e : Event F) : SameEvent e e := by
  cases e <;> simp [SameEvent]

theorem no_news (r r' a a' : Run F) (h : a.trace = r.trace) (h' : a'.trace = r'.trace) : SameNews r r' a a' := ⟨[], [], h, h', .nil⟩

theorem one_news {r r' a a' : Run F} {e e' : Event F} (h : a.trace = e :: r.trace) (h' : a'.trace = e' :: r'.trace) (he : SameEvent e e') : SameNews r r' a a' :=
  ⟨[e], [e'], h, h', .cons he .nil⟩

/-- The outcome of one action in two states that agree on the accesses. -/
abbrev Alike2 (j : Job F) (pc : Pc) (r r' : Run F) (a b : Pc × Run F) : Prop :=
  a.1 = b.1 ∧ Fixed a.2 b.2 ∧ SameNews r r' a.2 b.2 ∧ ∀ l w, (l, w) ∈ accesses j pc r → Same a.2 b.2 l

theorem reads_position {r r' : Run F} (hf : Fixed r r') (h1 : Same r r' .index) (h2 : Same r r' .data) (h3 : Same r r' .nan) (h4 : Same r r' .layers)
    (h5 : Same r r' .stats) :
    Res.Rel (fun a b => Fixed a b ∧ SameNews r r' a b ∧ Same a b .index ∧ Same a b .data ∧ Same a b .nan ∧ Same a b .layers ∧ Same a b .stats)
      (evaluatePosition r) (evaluatePosition r') := by
  obtain ⟨⟨⟨st, nan, nt, o, ls⟩, want, idle, index, epoch, per, asw, asp⟩, data, draws, ticks, tr⟩ := r
  obtain ⟨⟨⟨st', nan', nt', o', ls'⟩, want', idle', index', epoch', per', asw', asp'⟩, data', draws', ticks', tr'⟩ := r'
  obtain ⟨hf1, hf2, hf3, hf4⟩ := hf
  simp only [Same] at *
  obtain ⟨h4, h4'⟩ := h4
  subst h1 h2 h3 h4 h4' h5 hf1 hf2 hf3 hf4
  simp only [evaluatePosition]
  refine (Res.Rel.eq (β := Unit)).bind ?_
  rintro need _ rfl
  refine Res.Rel.bind (R := fun (s s' : Snn F) => s'.net = s.net ∧ s'.index = s.index ∧ s'.autoSaveWhenBetter = s.autoSaveWhenBetter ∧ s'.autoSaveFilePath = s.autoSaveFilePath) ?_ ?_
  · split
    · simp only [Snn.evaluateOnce]
      refine (Res.Rel.eq (β := Unit)).bind ?_
      rintro x _ rfl
      refine (Res.Rel.eq (β := Unit)).bind ?_
      rintro first _ rfl
      split
      all_goals
        refine (Res.Rel.eq (β := Unit)).bind ?_
        rintro lab _ rfl
        refine (Res.Rel.eq (β := Unit)).bind ?_
        rintro sep _ rfl
        refine (Res.Rel.eq (β := Unit)).bind ?_
        rintro ⟨out, net⟩ _ rfl
        refine (Res.Rel.eq (β := Unit)).bind ?_
        rintro st _ rfl
        exact ⟨rfl, rfl, rfl, rfl⟩
    · refine (Res.Rel.eq (β := Unit)).bind ?_
      rintro x _ rfl
      refine (Res.Rel.eq (β := Unit)).bind ?_
      rintro first _ rfl
      refine (Res.Rel.eq (β := Unit)).bind ?_
      rintro ⟨out, net⟩ _ rfl
      exact ⟨rfl, rfl, rfl, rfl⟩
  · rintro s s' ⟨e1, e2, e3, e4⟩
    refine ⟨⟨by simp [e1], e3, e4, rfl⟩, no_news _ _ _ _ rfl rfl, by simp [e2], rfl, by simp [e1], by simp [e1], by simp [e1]⟩

theorem reads_step {env : Env F} {b : Int} {r r' : Run F} (hf : Fixed r r') (h1 : Same r r' .index) (h2 : Same r r' .data) (h3 : Same r r' .nan) (h4 : Same r r' .layers)
    (h5 : drawsMasks r = true → Same r r' (.rng none)) (hn : r.snn.net.outputNan = false) :
    Res.Rel (fun a b => a.1 = b.1 ∧ Fixed a.2 b.2 ∧ SameNews r r' a.2 b.2 ∧ Same a.2 b.2 .index ∧ Same a.2 b.2 .data ∧ Same a.2 b.2 .nan ∧ Same a.2 b.2 .layers ∧
      (drawsMasks r = true → Same a.2 b.2 (.rng none))) (r.trainStep env b) (r'.trainStep env b) := by
  obtain ⟨⟨⟨st, nan, nt, o, ls⟩, want, idle, index, epoch, per, asw, asp⟩, data, draws, ticks, tr⟩ := r
  obtain ⟨⟨⟨st', nan', nt', o', ls'⟩, want', idle', index', epoch', per', asw', asp'⟩, data', draws', ticks', tr'⟩ := r'
  obtain ⟨hf1, hf2, hf3, hf4⟩ := hf
  simp only [Same] at h1 h2 h3 h4 h5 hf1 hf2 hf3 hf4 hn
  obtain ⟨h4, h4'⟩ := h4
  subst h1 h2 h3 h4 h4' hf1 hf2 hf3 hf4 hn
  rw [drawsMasks_eq] at *
  simp only at h5
  have hd : draws' = draws ∨ ls'.any (fun l => l.optimizers.any isDropout) = false := by
    cases hm : ls'.any (fun l => l.optimizers.any isDropout) with
    | true => exact .inl (h5 hm)
    | false => exact .inr rfl
  have al : Alike (F := F) ⟨st, false, nt', o', ls'⟩ ⟨st', false, nt', o', ls'⟩ := ⟨rfl, rfl, rfl, rfl⟩
  simp only [Run.trainStep, Bool.false_eq_true, if_false]
  refine (Res.Rel.eq (β := Unit)).bind ?_
  rintro need _ rfl
  refine (Res.Rel.eq (β := Unit)).bind ?_
  rintro ⟨x, d1⟩ _ rfl
  refine (Res.Rel.eq (β := Unit)).bind ?_
  rintro first _ rfl
  simp only
  split
  · refine (Res.Rel.eq (β := Unit)).bind ?_
    rintro ⟨y, d2⟩ _ rfl
    refine (trainOnce_alike al x y first hd).bind ?_
    rintro ⟨n1, e1⟩ ⟨n2, e2⟩ ⟨ha, hb, hc⟩
    have ha : Alike n1 n2 := ha
    refine ⟨rfl, ⟨ha.optimizer, rfl, rfl, rfl⟩, one_news rfl rfl (event_refl _), rfl, rfl, ha.nan, ⟨ha.layers, ha.number⟩, fun hm => ?_⟩
    exact (hc (h5 hm)).symm
  · refine (forward_alike al x first hd).bind ?_
    rintro ⟨y, n1, e1⟩ ⟨y', n2, e2⟩ ⟨rfl, ha, hb, hc⟩
    have ha : Alike n1 n2 := ha
    refine ⟨rfl, ⟨ha.optimizer, rfl, rfl, rfl⟩, one_news rfl rfl (event_refl _), rfl, rfl, ha.nan, ⟨ha.layers, ha.number⟩, fun hm => ?_⟩
    exact (hc (h5 hm)).symm

/-- **C91**, the accesses: what an action of a training does depends only on the locations that are listed: from two states that agree on
them (and on the options, the clock and, for a shuffle, the position of the generator), it ends in the same way, at the same place, with the
same events and the same content in all the listed locations. -/
theorem C91_reads {j : Job F} {pc : Pc} {r r' : Run F} (hs : ∀ l w, (l, w) ∈ accesses j pc r → Same r r' l) (hf : Fixed r r')
    (hg : pc = .shuffling → r'.snn.epoch = r.snn.epoch) :
    Res.Rel (fun a b => a.1 = b.1 ∧ Fixed a.2 b.2 ∧ SameNews r r' a.2 b.2 ∧ ∀ l w, (l, w) ∈ accesses j pc r → Same a.2 b.2 l) (next j pc r) (next j pc r') := by
  have hf' := hf
  obtain ⟨hf1, hf2, hf3, hf4⟩ := hf
  cases pc with
  | enter =>
    refine ⟨rfl, ⟨hf1, hf2, hf3, hf4⟩, no_news _ _ _ _ rfl rfl, ?_⟩
    intro l w hl
    simp only [accesses, List.mem_cons, Prod.mk.injEq, List.not_mem_nil, or_false] at hl
    rcases hl with ⟨rfl, _⟩ | ⟨rfl, _⟩ | ⟨rfl, _⟩ | ⟨rfl, _⟩ <;> simp [Same]
  | busy =>
    refine ⟨rfl, ⟨hf1, hf2, hf3, hf4⟩, no_news _ _ _ _ rfl rfl, ?_⟩
    intro l w hl
    simp only [accesses, List.mem_cons, Prod.mk.injEq, List.not_mem_nil, or_false] at hl
    rcases hl with ⟨rfl, _⟩
    simp [Same]
  | evalTest s =>
    cases s with
    | before =>
      by_cases hc : j.evaluationFrequency > 0
      · have h1 := hs .stats true (by simp [accesses, hc])
        have h2 := hs .data false (by simp [accesses, hc])
        simp only [Same] at h1 h2
        simp only [next, hc, decide_true, if_true]
        refine ⟨by simp [h2], ⟨hf1, hf2, hf3, hf4⟩, no_news _ _ _ _ rfl rfl, ?_⟩
        intro l w hl
        simp only [accesses, hc, if_true, List.mem_cons, Prod.mk.injEq, List.not_mem_nil, or_false] at hl
        rcases hl with ⟨rfl, _⟩ | ⟨rfl, _⟩ | ⟨rfl, _⟩ <;> simp [Same, h1, h2]
      · have h1 := hs .epoch true (by simp [accesses, hc])
        simp only [Same] at h1
        simp only [next, hc, decide_false, Bool.false_eq_true, if_false]
        refine ⟨rfl, ⟨hf1, hf2, hf3, hf4⟩, no_news _ _ _ _ rfl rfl, ?_⟩
        intro l w hl
        simp only [accesses, hc, if_false, List.mem_cons, Prod.mk.injEq, List.not_mem_nil, or_false] at hl
        rcases hl with ⟨rfl, _⟩
        simp [Same, afterEvaluate]
    | inLoop =>
      have h0 := hs .epoch (decide (¬ (j.evaluationFrequency > 0 ∧ r.snn.epoch.tmod j.evaluationFrequency = 0))) (by
        simp only [accesses]
        split
        · rename_i h; simp [h]
        · rename_i h; simp only [h]; simp)
      simp only [Same] at h0
      by_cases hc : j.evaluationFrequency > 0 ∧ r.snn.epoch.tmod j.evaluationFrequency = 0
      · have h1 := hs .stats true (by simp [accesses, hc])
        have h2 := hs .data false (by simp [accesses, hc])
        simp only [Same] at h1 h2
        simp only [next, h0, hc, and_self, decide_true, if_true]
        refine ⟨by simp [h2], ⟨hf1, hf2, hf3, hf4⟩, no_news _ _ _ _ rfl rfl, ?_⟩
        intro l w hl
        simp only [accesses, if_pos hc, List.mem_cons, Prod.mk.injEq, List.not_mem_nil, or_false] at hl
        rcases hl with ⟨rfl, _⟩ | ⟨rfl, _⟩ | ⟨rfl, _⟩ | ⟨rfl, _⟩ <;> simp [Same, h0, h1, h2]
      · simp only [next, h0, hc, decide_false, Bool.false_eq_true, if_false]
        refine ⟨rfl, ⟨hf1, hf2, hf3, hf4⟩, no_news _ _ _ _ rfl rfl, ?_⟩
        intro l w hl
        simp only [accesses, if_neg hc, List.mem_cons, Prod.mk.injEq, List.not_mem_nil, or_false] at hl
        rcases hl with ⟨rfl, _⟩
        simp [Same, afterEvaluate, h0]
  | evaluating s k =>
    cases k with
    | zero =>
      have h1 := hs .index false (by simp [accesses])
      have h2 := hs .data false (by simp [accesses])
      have h3 := hs .stats true (by simp [accesses])
      have h4 := hs .layers false (by simp [accesses])
      have h5 := hs .epoch true (by simp [accesses])
      have h6 : (r.snn.autoSaveWhenBetter && r.snn.net.stats.stopTesting.globalBetter) = true → Same r r' .want ∧ Same r r' .idle ∧ Same r r' .perEpoch := by
        intro h
        refine ⟨hs .want false ?_, hs .idle false ?_, hs .perEpoch false ?_⟩ <;> simp only [accesses, h] <;> simp
      clear hs
      obtain ⟨⟨⟨st, nan, nt, o, ls⟩, want, idle, index, epoch, per, asw, asp⟩, data, draws, ticks, tr⟩ := r
      obtain ⟨⟨⟨st', nan', nt', o', ls'⟩, want', idle', index', epoch', per', asw', asp'⟩, data', draws', ticks', tr'⟩ := r'
      simp only [Same] at h1 h2 h3 h4 h5 h6 hf1 hf2 hf3 hf4
      obtain ⟨h4, h4'⟩ := h4
      subst h1 h2 h3 h4 h4' h5 hf1 hf2 hf3 hf4
      simp only [next, evaluateEnd, accesses]
      cases hb : (asw' && st'.stopTesting.globalBetter) with
      | false =>
        simp only [hb, Bool.false_eq_true, if_false, List.append_nil]
        refine ⟨by cases s <;> rfl, by cases s <;> exact ⟨rfl, rfl, rfl, rfl⟩, by cases s <;> exact one_news rfl rfl (event_refl _), ?_⟩
        intro l w hl
        simp only [List.mem_cons, Prod.mk.injEq, List.not_mem_nil, or_false] at hl
        rcases hl with ⟨rfl, _⟩ | ⟨rfl, _⟩ | ⟨rfl, _⟩ | ⟨rfl, _⟩ | ⟨rfl, _⟩ <;> cases s <;> simp [Same, afterEvaluate]
      | true =>
        obtain ⟨rfl, rfl, rfl⟩ := h6 hb
        simp only [hb, if_true, Run.saveSync]
        refine ⟨by cases s <;> rfl, by cases s <;> exact ⟨rfl, rfl, rfl, rfl⟩, ?_, ?_⟩
        · cases s <;> exact ⟨[_, _], [_, _], rfl, rfl, .cons (by simp [SameEvent]) (.cons (event_refl _) .nil)⟩
        · intro l w hl
          simp only [List.cons_append, List.nil_append, List.mem_cons, Prod.mk.injEq, List.not_mem_nil, or_false] at hl
          rcases hl with ⟨rfl, _⟩ | ⟨rfl, _⟩ | ⟨rfl, _⟩ | ⟨rfl, _⟩ | ⟨rfl, _⟩ | ⟨rfl, _⟩ | ⟨rfl, _⟩ | ⟨rfl, _⟩ <;> cases s <;> simp [Same, afterEvaluate]
    | succ k =>
      have h3 : Same r r' .nan := by
        by_cases hn : r.snn.net.outputNan = true
        · exact hs .nan false (by simp [accesses, hn])
        · exact hs .nan true (by simp [accesses, hn])
      have h3' := h3
      simp only [Same] at h3'
      by_cases hn : r.snn.net.outputNan = true
      · have h1 := hs .index false (by simp [accesses, hn])
        have h2 := hs .data false (by simp [accesses, hn])
        have h5 := hs .stats true (by simp [accesses, hn])
        simp only [Same] at h1 h2 h5
        simp only [next, h3', hn, if_true]
        refine ⟨rfl, ⟨hf1, hf2, hf3, hf4⟩, no_news _ _ _ _ rfl rfl, ?_⟩
        intro l w hl
        simp only [accesses, hn, if_true, List.mem_cons, Prod.mk.injEq, List.not_mem_nil, or_false] at hl
        rcases hl with ⟨rfl, _⟩ | ⟨rfl, _⟩ | ⟨rfl, _⟩ | ⟨rfl, _⟩ <;> simp [Same, nanResults, h1, h2, h3', h5]
      · have h1 := hs .index false (by simp [accesses, hn])
        have h2 := hs .data false (by simp [accesses, hn])
        have h4 := hs .layers true (by simp [accesses, hn])
        have h5 := hs .stats true (by simp [accesses, hn])
        simp only [next, h3', hn, if_false]
        refine (reads_position hf' h1 h2 h3 h4 h5).bind ?_
        rintro a b ⟨k1, k2, k3, k4, k5, k6, k7⟩
        refine ⟨rfl, k1, k2, ?_⟩
        intro l w hl
        simp only [accesses, if_neg hn, List.mem_cons, Prod.mk.injEq, List.not_mem_nil, or_false] at hl
        rcases hl with ⟨rfl, _⟩ | ⟨rfl, _⟩ | ⟨rfl, _⟩ | ⟨rfl, _⟩ | ⟨rfl, _⟩ | ⟨rfl, _⟩ <;> assumption
  | evalReset s =>
    refine ⟨rfl, ⟨hf1, hf2, hf3, hf4⟩, no_news _ _ _ _ rfl rfl, ?_⟩
    intro l w hl
    simp only [accesses, List.mem_cons, Prod.mk.injEq, List.not_mem_nil, or_false] at hl
    rcases hl with ⟨rfl, _⟩ | ⟨rfl, _⟩ <;> simp [Same]
  | evalIdle s =>
    have h1 := hs .stats false (by simp [accesses])
    have h2 := hs .epoch true (by simp [accesses])
    simp only [Same] at h1 h2
    cases s <;> refine ⟨rfl, ⟨hf1, hf2, hf3, hf4⟩, one_news rfl rfl (by simp [SameEvent, h1, h2]), ?_⟩ <;> intro l w hl <;>
      simp only [accesses, List.mem_cons, Prod.mk.injEq, List.not_mem_nil, or_false] at hl <;>
      rcases hl with ⟨rfl, _⟩ | ⟨rfl, _⟩ | ⟨rfl, _⟩ <;> simp [Same, afterEvaluate, h1, h2]
  | epochTest =>
    have h1 := hs .epoch false (by simp [accesses, continueAccesses])
    have h2 := hs .stats false (by simp [accesses, continueAccesses])
    have h3 := hs .nan false (by simp [accesses, continueAccesses])
    have h4 := hs .want false (by simp [accesses, continueAccesses])
    simp only [Same] at h1 h2 h3 h4
    refine ⟨by simp [Run.continueTraining, h1, h2, h3, h4, hf4], ⟨hf1, hf2, hf3, by simp [Run.continueTraining, hf4]⟩, no_news _ _ _ _ rfl rfl, ?_⟩
    intro l w hl
    simp only [accesses, continueAccesses, List.mem_cons, Prod.mk.injEq, List.not_mem_nil, or_false] at hl
    rcases hl with ⟨rfl, _⟩ | ⟨rfl, _⟩ | ⟨rfl, _⟩ | ⟨rfl, _⟩ <;> assumption
  | shuffling =>
    have h1 := hs .data true (by simp [accesses])
    simp only [Same] at h1
    simp only [next, h1, hg rfl]
    refine (Res.Rel.eq (β := Unit)).bind ?_
    rintro d _ rfl
    refine ⟨rfl, ⟨hf1, hf2, hf3, hf4⟩, one_news rfl rfl (event_refl _), ?_⟩
    intro l w hl
    simp only [accesses, List.mem_cons, Prod.mk.injEq, List.not_mem_nil, or_false] at hl
    rcases hl with ⟨rfl, _⟩ | ⟨rfl, _⟩ | ⟨rfl, _⟩ <;> simp [Same]
  | stepTest =>
    have h1 := hs .index false (by simp only [accesses]; split <;> simp)
    have h2 := hs .perEpoch false (by simp only [accesses]; split <;> simp)
    have h1' := h1
    have h2' := h2
    simp only [Same] at h1' h2'
    by_cases hc : r.snn.index + j.batchSize ≤ r.snn.numberOfTrainingsBetweenTwoEvaluations
    · have h3 := hs .epoch false (by simp [accesses, hc, continueAccesses])
      have h4 := hs .stats false (by simp [accesses, hc, continueAccesses])
      have h5 := hs .nan false (by simp [accesses, hc, continueAccesses])
      have h6 := hs .want false (by simp [accesses, hc, continueAccesses])
      simp only [Same] at h3 h4 h5 h6
      simp only [next, h1', h2', hc, if_true]
      refine ⟨by simp [Run.continueTraining, h3, h4, h5, h6, hf4], ⟨hf1, hf2, hf3, by simp [Run.continueTraining, hf4]⟩, no_news _ _ _ _ rfl rfl, ?_⟩
      intro l w hl
      simp only [accesses, hc, if_true, continueAccesses, List.cons_append, List.nil_append, List.mem_cons, Prod.mk.injEq, List.not_mem_nil, or_false] at hl
      rcases hl with ⟨rfl, _⟩ | ⟨rfl, _⟩ | ⟨rfl, _⟩ | ⟨rfl, _⟩ | ⟨rfl, _⟩ | ⟨rfl, _⟩ <;> assumption
    · simp only [next, h1', h2', hc, if_false]
      exact ⟨rfl, hf', no_news _ _ _ _ rfl rfl, hs⟩
  | stepBody =>
    have h3 : Same r r' .nan := by
      by_cases hn : r.snn.net.outputNan = true
      · exact hs .nan false (by simp [accesses, hn])
      · exact hs .nan true (by simp [accesses, hn])
    have h3' := h3
    simp only [Same] at h3'
    by_cases hn : r.snn.net.outputNan = true
    · have h5 := hs .stats true (by simp [accesses, hn])
      simp only [Same] at h5
      simp only [next, h3', hn, if_true]
      refine ⟨rfl, ⟨hf1, hf2, hf3, hf4⟩, no_news _ _ _ _ rfl rfl, ?_⟩
      intro l w hl
      simp only [accesses, hn, if_true, List.mem_cons, Prod.mk.injEq, List.not_mem_nil, or_false] at hl
      rcases hl with ⟨rfl, _⟩ | ⟨rfl, _⟩ <;> simp [Same, nanResults, h3', h5]
    · have h1 := hs .index true (by simp [accesses, hn])
      have h2 := hs .data (decide (1 < j.batchSize)) (by simp [accesses, hn])
      have h4 := hs .layers true (by simp [accesses, hn])
      have h5 : drawsMasks r = true → Same r r' (.rng none) := fun hm => hs _ true (by simp [accesses, hn, hm])
      simp only [next, h3', hn, if_false]
      refine (reads_step hf' h1 h2 h3 h4 h5 (by simpa using hn)).bind ?_
      rintro ⟨c, a⟩ ⟨c', b⟩ ⟨rfl, k1, k2, k3, k4, k5, k6, k7⟩
      simp only [Same] at k3
      refine ⟨rfl, ⟨k1.1, k1.2, k1.3, k1.4⟩, k2, ?_⟩
      intro l w hl
      simp only [accesses, hn, if_false] at hl
      rcases List.mem_append.1 hl with hl | hl
      · simp only [List.mem_cons, Prod.mk.injEq, List.not_mem_nil, or_false] at hl
        rcases hl with ⟨rfl, _⟩ | ⟨rfl, _⟩ | ⟨rfl, _⟩ | ⟨rfl, _⟩
        · exact k5
        · exact k4
        · exact k6
        · simp [Same, k3]
      · split at hl
        · rename_i hm
          simp only [List.mem_cons, Prod.mk.injEq, List.not_mem_nil, or_false] at hl
          obtain ⟨rfl, _⟩ := hl
          exact k7 hm
        · cases hl
  | reset =>
    refine ⟨rfl, ⟨hf1, hf2, hf3, hf4⟩, no_news _ _ _ _ rfl rfl, ?_⟩
    intro l w hl
    simp only [accesses, List.mem_cons, Prod.mk.injEq, List.not_mem_nil, or_false] at hl
    rcases hl with ⟨rfl, _⟩ | ⟨rfl, _⟩ <;> simp [Same]
  | idle =>
    refine ⟨rfl, ⟨hf1, hf2, hf3, hf4⟩, no_news _ _ _ _ rfl rfl, ?_⟩
    intro l w hl
    simp only [accesses, List.mem_cons, Prod.mk.injEq, List.not_mem_nil, or_false] at hl
    rcases hl with ⟨rfl, _⟩
    simp [Same]
  | done => exact ⟨rfl, hf', no_news _ _ _ _ rfl rfl, hs⟩

/-! ### Non-vacuity -/

/-- The hypotheses of `C91_reads` hold for two states that differ in everything that a training step without masks does not access. -/
example (j : Job F) (r : Run F) (hn : r.snn.net.outputNan = false) (hm : drawsMasks r = false) (st : Stats F) (e p : Int) (d : Draws F) :
    let n' : Snn F := { r.snn with
      net := { r.snn.net with stats := st }
      wantToStopTraining := !r.snn.wantToStopTraining
      isIdle := !r.snn.isIdle
      epoch := e
      numberOfTrainingsBetweenTwoEvaluations := p }
    let r' : Run F := { r with snn := n', draws := d, trace := [] }
    (∀ l w, (l, w) ∈ accesses j .stepBody r → Same r r' l) ∧ Fixed r r' := by
  refine ⟨?_, ⟨rfl, rfl, rfl, rfl⟩⟩
  intro l w hl
  simp only [accesses, hn, hm, Bool.false_eq_true, if_false, List.append_nil, List.mem_cons, Prod.mk.injEq, List.not_mem_nil, or_false] at hl
  rcases hl with ⟨rfl, _⟩ | ⟨rfl, _⟩ | ⟨rfl, _⟩ | ⟨rfl, _⟩ <;> simp [Same]

/-- **C91** a declared write of a flag is a write: it does not depend on the value that the flag had. `wantToStopTraining` is only
ever cleared by a training; `isIdle` is cleared when it begins and set when it ends. -/
theorem C91_flags {j : Job F} {pc pc' : Pc} {r r' : Run F} (h : next j pc r = .ok (pc', r')) :
    ((.want, true) ∈ accesses j pc r → r'.snn.wantToStopTraining = false) ∧
      ((.idle, true) ∈ accesses j pc r → r'.snn.isIdle = !decide (pc = .busy)) := by
  have hm : ∀ {l : Loc} {c : Prop} [Decidable c] {a b : List (Loc × Bool)}, (l, true) ∉ a → (l, true) ∉ b → (l, true) ∉ (if c then a else b) := by
    intro l c _ a b ha hb; split <;> assumption
  cases pc with
  | enter => cases h; exact ⟨fun _ => rfl, fun hi => absurd hi (by simp [accesses])⟩
  | busy => cases h; exact ⟨fun hi => absurd hi (by simp [accesses]), fun _ => rfl⟩
  | evalReset s => cases h; exact ⟨fun _ => rfl, fun hi => absurd hi (by simp [accesses])⟩
  | evalIdle s => cases s <;> (cases h; exact ⟨fun hi => absurd hi (by simp [accesses]), fun _ => rfl⟩)
  | reset => cases h; exact ⟨fun _ => rfl, fun hi => absurd hi (by simp [accesses])⟩
  | idle => cases h; exact ⟨fun hi => absurd hi (by simp [accesses]), fun _ => rfl⟩
  | done => exact ⟨fun hi => absurd hi (by simp [accesses]), fun hi => absurd hi (by simp [accesses])⟩
  | epochTest => exact ⟨fun hi => absurd hi (by simp [accesses, continueAccesses]), fun hi => absurd hi (by simp [accesses, continueAccesses])⟩
  | shuffling => exact ⟨fun hi => absurd hi (by simp [accesses]), fun hi => absurd hi (by simp [accesses])⟩
  | stepTest => exact ⟨fun hi => absurd hi (hm (by simp [continueAccesses]) (by simp)), fun hi => absurd hi (hm (by simp [continueAccesses]) (by simp))⟩
  | evalTest s => cases s <;> exact ⟨fun hi => absurd hi (hm (by simp) (by simp)), fun hi => absurd hi (hm (by simp) (by simp))⟩
  | evaluating s k =>
    cases k with
    | zero =>
      refine ⟨fun hi => absurd hi ?_, fun hi => absurd hi ?_⟩ <;> (simp only [accesses]; split <;> simp)
    | succ k => exact ⟨fun hi => absurd hi (hm (by simp) (by simp)), fun hi => absurd hi (hm (by simp) (by simp))⟩
  | stepBody =>
    refine ⟨fun hi => absurd hi (hm (by simp) ?_), fun hi => absurd hi (hm (by simp) ?_)⟩ <;> (split <;> simp)


end Snn.AccessProps
