import Verif.Proofs.LeakProofs
import Verif.Spec.SplitSpec

/-! A training can be cut in two. -/

set_option linter.all false

namespace Snn

open Spec HistoryProps TrainProofs TrainProps TrainSpec

section
variable {F : Type} [Flt F] [FTrans F] [Add F] [Sub F] [Mul F] [Div F] [Neg F]

/-- A relation between networks that training steps preserve. -/
structure Learner (R : Net F → Net F → Prop) : Prop where
  symm : ∀ {n m}, R n m → R m n
  nan : ∀ {n m}, R n m → n.outputNan = false
  out : ∀ {n m n' m' : Net F} {x y z : List F} {t : Bool} {d d1 d2 : Draws F}, R n m → n.outputForTraining x t d = .ok (y, n', d1) →
    m.outputForTraining x t d = .ok (z, m', d2) → n'.outputNan = false → m'.outputNan = false → R n' m' ∧ d2 = d1
  once : ∀ {n m n' m' : Net F} {x y : List F} {t : Bool} {d d1 d2 : Draws F}, R n m → n.trainOnce x y t d = .ok (n', d1) →
    m.trainOnce x y t d = .ok (m', d2) → n'.outputNan = false → m'.outputNan = false → R n' m' ∧ d2 = d1

/-- The relation is preserved by an evaluation of one of the two networks. -/
def Blind (R : Net F → Net F → Prop) : Prop :=
  ∀ {env : Env F} {n : Net F} {q q' : Run F}, R n q.snn.net → q.evaluate env = .ok q' → q'.snn.net.outputNan = false → R n q'.snn.net

/-- Two runs at corresponding epochs, `k` apart. -/
structure Run.Shift (R : Net F → Net F → Prop) (k : Int) (r q : Run F) : Prop where
  net : R r.snn.net q.snn.net
  draws : q.draws = r.draws
  data : learningPart q.data = learningPart r.data
  epoch : r.snn.epoch = q.snn.epoch + k
  between : q.snn.numberOfTrainingsBetweenTwoEvaluations = r.snn.numberOfTrainingsBetweenTwoEvaluations
  stop : r.snn.wantToStopTraining = false
  stop' : q.snn.wantToStopTraining = false
  size : r.snn.numberOfTrainingsBetweenTwoEvaluations = r.data.training.size

variable {R : Net F → Net F → Prop}

theorem Run.Shift.symm (hR : Learner R) {k : Int} {r q : Run F} (h : r.Shift R k q) : q.Shift R (-k) r :=
  ⟨hR.symm h.net, h.draws.symm, h.data.symm, by have := h.epoch; omega, h.between.symm, h.stop', h.stop, by rw [h.between, h.size, size_part h.data]⟩

theorem Run.Shift.trainStep (hR : Learner R) {k : Int} {env env' : Env F} {b : Int} {r q r' q' : Run F} {u v : Bool} (h : r.Shift R k q) (hi : q.snn.index = r.snn.index)
    (h1 : r.trainStep env b = .ok (u, r')) (h2 : q.trainStep env' b = .ok (v, q')) (n1 : r'.snn.net.outputNan = false)
    (n2 : q'.snn.net.outputNan = false) : u = false ∧ v = false ∧ r'.Shift R k q' ∧ q'.snn.index = r'.snn.index := by
  unfold Run.trainStep at h1 h2
  simp only [hR.nan h.net, hR.nan (hR.symm h.net), Bool.false_eq_true, if_false] at h1 h2
  rw [hi] at h2
  obtain ⟨need, i1, h1⟩ := Res.bind_eq_ok.1 h1
  obtain ⟨need', i2, h2⟩ := Res.bind_eq_ok.1 h2
  rw [need_part _ h.data, i1] at i2
  cases i2
  obtain ⟨⟨x, d1⟩, j1, h1⟩ := Res.bind_eq_ok.1 h1
  obtain ⟨⟨x', d2⟩, j2, h2⟩ := Res.bind_eq_ok.1 h2
  obtain ⟨e1, hd⟩ := data_part h.data j2 j1
  subst e1
  obtain ⟨first, k1, h1⟩ := Res.bind_eq_ok.1 h1
  obtain ⟨first', k2, h2⟩ := Res.bind_eq_ok.1 h2
  simp only at k1 k2
  rw [first_part _ hd, k1] at k2
  cases k2
  rw [h.draws] at h2
  cases need
  · simp only [Bool.false_eq_true, if_false] at h1 h2
    obtain ⟨⟨o, n, c1⟩, l1, h1⟩ := Res.bind_eq_ok.1 h1
    obtain ⟨⟨o', m, c2⟩, l2, h2⟩ := Res.bind_eq_ok.1 h2
    cases h1; cases h2
    obtain ⟨a0, a5⟩ := hR.out h.net l1 l2 n1 n2
    exact ⟨rfl, rfl, ⟨a0, a5, hd, h.epoch, h.between, h.stop, h.stop', h.size.trans (by rw [(getTrainingData_same j1).frame.size])⟩, rfl⟩
  · simp only [if_true] at h1 h2
    obtain ⟨⟨y, d3⟩, m1, h1⟩ := Res.bind_eq_ok.1 h1
    obtain ⟨⟨y', d4⟩, m2, h2⟩ := Res.bind_eq_ok.1 h2
    obtain ⟨e2, hd'⟩ := outputs_part hd m2 m1
    subst e2
    obtain ⟨⟨n, c1⟩, l1, h1⟩ := Res.bind_eq_ok.1 h1
    obtain ⟨⟨m, c2⟩, l2, h2⟩ := Res.bind_eq_ok.1 h2
    cases h1; cases h2
    obtain ⟨a0, a5⟩ := hR.once h.net l1 l2 n1 n2
    exact ⟨rfl, rfl, ⟨a0, a5, hd', h.epoch, h.between, h.stop, h.stop', h.size.trans (by
      rw [(getTrainingOutputs_same m1).frame.size, (getTrainingData_same j1).frame.size])⟩, rfl⟩

/-- The inner loop of an epoch in which neither criterion is met. -/
theorem Run.Shift.stepLoop (hR : Learner R) {k : Int} {env env' : Env F} {w v : Wait F} {N M : Nat} (hw : Lasts w N) (hv : Lasts v M) {b : Nat} :
    ∀ {f g : Nat} {r q r' q' : Run F} {x y : Bool}, r.Shift R k q → q.snn.index = r.snn.index → 0 < r.snn.epoch → r.snn.epoch ≤ N → 0 < q.snn.epoch →
      q.snn.epoch ≤ M → Snn.stepLoop env w b f r = .ok (x, r') → Snn.stepLoop env' v b g q = .ok (y, q') → r'.snn.net.outputNan = false →
      q'.snn.net.outputNan = false → r'.Shift R k q' ∧ r'.snn.epoch = r.snn.epoch
  | 0, g, r, q, r', q', x, y, h, hi, _, _, _, _, h1, h2, n1, n2 => by cases h1
  | f + 1, 0, r, q, r', q', x, y, h, hi, _, _, _, _, h1, h2, n1, n2 => by cases h2
  | f + 1, g + 1, r, q, r', q', x, y, h, hi, p1, p2, p3, p4, h1, h2, n1, n2 => by
    unfold Snn.stepLoop at h1 h2
    rw [hi, h.between] at h2
    split at h1
    · rename_i hfit
      rw [if_pos hfit] at h2
      unfold Run.continueTraining at h1 h2
      have o1 : decide ((N : Int) < r.snn.epoch) = false := by simp; omega
      have o2 : decide ((M : Int) < q.snn.epoch) = false := by simp; omega
      simp only [hR.nan h.net, hR.nan (hR.symm h.net), h.stop, h.stop', hw _ _ _ _ p1, hv _ _ _ _ p3, o1, o2, Bool.not_false, Bool.and_true, if_true] at h1 h2
      obtain ⟨⟨u1, r2⟩, i1, h1⟩ := Res.bind_eq_ok.1 h1
      obtain ⟨⟨v1, q2⟩, i2, h2⟩ := Res.bind_eq_ok.1 h2
      simp only at h1 h2
      have s1 : ({ r with ticks := r.ticks + 1 } : Run F).Shift R k { q with ticks := q.ticks + 1 } :=
        ⟨h.net, h.draws, h.data, h.epoch, h.between, h.stop, h.stop', h.size⟩
      have t1 := trainStep_spec (SameButBuffers.refl _) (by exact hR.nan h.net) i1
      have x1 := t1.1
      have x2 := (trainStep_spec (SameButBuffers.refl _) (by exact hR.nan (hR.symm h.net)) i2).1
      subst x1 x2
      simp only [Bool.false_eq_true, if_false] at h1 h2
      have y1 := stepLoop_nan h1 n1
      have y2 := stepLoop_nan h2 n2
      obtain ⟨_, _, s2, hi2⟩ := s1.trainStep hR (by exact hi) i1 i2 (by exact y1) (by exact y2)
      have e1 : r2.snn.epoch = r.snn.epoch := by
        obtain ⟨_, lo⟩ := t1
        obtain ⟨net, e, _⟩ := lo.snn
        rw [e]
      have e2 : q2.snn.epoch = q.snn.epoch := by
        have a := s2.epoch
        have b := h.epoch
        omega
      have s3 : ({ r2 with snn := { r2.snn with index := r2.snn.index + b } } : Run F).Shift R k { q2 with snn := { q2.snn with index := q2.snn.index + b } } :=
        ⟨s2.net, s2.draws, s2.data, s2.epoch, s2.between, s2.stop, s2.stop', s2.size⟩
      obtain ⟨z1, z2⟩ := Run.Shift.stepLoop hR hw hv s3 (by simp only [hi2]) (by simp only [e1]; exact p1) (by simp only [e1]; exact p2)
        (by simp only [e2]; exact p3) (by simp only [e2]; exact p4) h1 h2 n1 n2
      exact ⟨z1, by rw [z2]; exact e1⟩
    · rename_i hfit
      rw [if_neg hfit] at h2
      cases h1; cases h2
      exact ⟨h, rfl⟩

theorem Run.Shift.maybe {k : Int} (hE : Blind R) {env : Env F} {r q q' : Run F} (h : r.Shift R k q) {c : Prop} [Decidable c]
    (he : (if c then q.evaluate env else .ok q) = .ok q') (hn : q'.snn.net.outputNan = false) : r.Shift R k q' ∧ q'.snn.epoch = q.snn.epoch := by
  split at he
  · have fr := evaluate_frame he
    refine ⟨⟨hE h.net he hn, fr.draws.trans h.draws, by rw [fr.data]; exact h.data, by rw [fr.epoch]; exact h.epoch, fr.between.trans h.between, h.stop, ?_, h.size⟩, fr.epoch⟩
    rcases fr.flags with k | k
    · exact k.1.trans h.stop'
    · rw [hn] at k; cases k.1
  · cases he; exact ⟨h, rfl⟩

/-- Evaluations are allowed for a relation they do not disturb, and else they are turned off. -/
def Quiet (R : Net F → Net F → Prop) (ef : Int) : Prop := Blind R ∨ ef ≤ 0

theorem Run.Shift.quiet {k : Int} {ef : Int} (hE : Quiet R ef) {env : Env F} {r q q' : Run F} (h : r.Shift R k q) {c : Prop} [Decidable c] (hc : c → ef > 0)
    (he : (if c then q.evaluate env else .ok q) = .ok q') (hn : q'.snn.net.outputNan = false) : r.Shift R k q' ∧ q'.snn.epoch = q.snn.epoch := by
  rcases hE with hE | hE
  · exact h.maybe hE he hn
  · rw [if_neg (fun x => by have := hc x; omega)] at he
    cases he; exact ⟨h, rfl⟩

theorem Run.Shift.epochBody (hR : Learner R) {k : Int} {env env' : Env F} {w v : Wait F} {N M : Nat} (hw : Lasts w N) (hv : Lasts v M) {b : Nat}
    {ef eg : Int} (hf : Quiet R ef) (hg : Quiet R eg) {f g : Nat} {r q r' q' : Run F} {x y : Bool} (h : r.Shift R k q) (hrng : env'.rng q.snn.epoch = env.rng r.snn.epoch)
    (p1 : 0 < r.snn.epoch) (p2 : r.snn.epoch ≤ N) (p3 : 0 < q.snn.epoch) (p4 : q.snn.epoch ≤ M)
    (h1 : r.epochBody env w b ef f = .ok (x, r')) (h2 : q.epochBody env' v b eg g = .ok (y, q')) (n1 : r'.snn.net.outputNan = false)
    (n2 : q'.snn.net.outputNan = false) : r'.Shift R k q' ∧ r'.snn.epoch = r.snn.epoch := by
  obtain ⟨_, d1, r2, i1, j1, k1⟩ := epochBody_pieces h1
  obtain ⟨_, d2, q2, i2, j2, k2⟩ := epochBody_pieces h2
  have m1 := maybe_nan k1 n1
  have m2 := maybe_nan k2 n2
  rw [hrng] at i2
  have s1 : ({ r with data := d1, snn := { r.snn with index := 0 }, trace := .shuffled :: r.trace } : Run F).Shift R k
      { q with data := d2, snn := { q.snn with index := 0 }, trace := .shuffled :: q.trace } :=
    ⟨h.net, h.draws, shuffle_part h.data i2 i1, h.epoch, h.between, h.stop, h.stop', h.size.trans (by simp only [(shuffle_frame i1).size])⟩
  obtain ⟨s2, e2⟩ := Run.Shift.stepLoop hR hw hv s1 rfl p1 p2 p3 p4 j1 j2 m1 m2
  obtain ⟨s3, _⟩ := s2.quiet hg (fun x => x.1) k2 n2
  obtain ⟨s4, e4⟩ := (s3.symm hR).quiet hf (fun x => x.1) k1 n1
  have s5 := s4.symm hR
  rw [neg_neg] at s5
  exact ⟨s5, e4.trans e2⟩

/-- Two loops side by side until the second one ends: the first one then stands before the next epoch. -/
theorem Run.Shift.first (hR : Learner R) {k : Int} {env env' : Env F} {w v : Wait F} {N M : Nat} (hw : Lasts w N) (hv : Lasts v M) {b : Nat}
    {ef eg : Int} (hf : Quiet R ef) (hg : Quiet R eg) (hrng : ∀ e, 0 < e → env'.rng e = env.rng (e + k)) (hk : 0 ≤ k) (hkM : (M : Int) + k ≤ N) {fi gi : Nat} :
    ∀ {g f : Nat} {r q r' q' : Run F} {x y : Bool}, r.Shift R k q → 0 < q.snn.epoch → q.snn.epoch ≤ (M : Int) + 1 →
      Snn.epochLoop env w b ef fi f r = .ok (x, r') → Snn.epochLoop env' v b eg gi g q = .ok (y, q') → r'.snn.net.outputNan = false →
      q'.snn.net.outputNan = false → ∃ f' rm, Snn.epochLoop env w b ef fi f' rm = .ok (x, r') ∧ rm.Shift R k q' ∧ q'.snn.epoch = (M : Int) + 1
  | 0, f, r, q, r', q', x, y, h, p, p', h1, h2, n1, n2 => by cases h2
  | g + 1, 0, r, q, r', q', x, y, h, p, p', h1, h2, n1, n2 => by cases h1
  | g + 1, f + 1, r, q, r', q', x, y, h, p, p', h1, h2, n1, n2 => by
    have hep := h.epoch
    by_cases hc : q.snn.epoch ≤ M
    · unfold Snn.epochLoop at h1 h2
      unfold Run.continueTraining at h1 h2
      have o1 : decide ((N : Int) < r.snn.epoch) = false := by simp; omega
      have o2 : decide ((M : Int) < q.snn.epoch) = false := by simp; omega
      simp only [hR.nan h.net, hR.nan (hR.symm h.net), h.stop, h.stop', hw _ _ _ _ (show 0 < r.snn.epoch by omega), hv _ _ _ _ p, o1, o2, Bool.not_false, Bool.and_true, if_true] at h1 h2
      obtain ⟨⟨u1, r2⟩, i1, h1⟩ := Res.bind_eq_ok.1 h1
      obtain ⟨⟨v1, q2⟩, i2, h2⟩ := Res.bind_eq_ok.1 h2
      simp only at h1 h2
      have s1 : ({ r with ticks := r.ticks + 1 } : Run F).Shift R k { q with ticks := q.ticks + 1 } :=
        ⟨h.net, h.draws, h.data, h.epoch, h.between, h.stop, h.stop', h.size⟩
      have x1 := (epochBody_pieces i1).1
      have x2 := (epochBody_pieces i2).1
      subst x1 x2
      simp only [Bool.false_eq_true, if_false] at h1 h2
      have y1 := epochLoop_nan h1 n1
      have y2 := epochLoop_nan h2 n2
      obtain ⟨s2, e2⟩ := Run.Shift.epochBody hR hw hv hf hg s1 (by simp only [hrng _ p, h.epoch]) (by simp only; omega) (by simp only; omega)
        (by simp only; omega) (by simp only; omega) i1 i2 (by exact y1) (by exact y2)
      have s3 : ({ r2 with snn := { r2.snn with epoch := r2.snn.epoch + 1 } } : Run F).Shift R k { q2 with snn := { q2.snn with epoch := q2.snn.epoch + 1 } } :=
        ⟨s2.net, s2.draws, s2.data, by have := s2.epoch; simp only; omega, s2.between, s2.stop, s2.stop', s2.size⟩
      have e3 := s2.epoch
      simp only at e2
      exact Run.Shift.first hR hw hv hf hg hrng hk hkM s3 (by simp only; omega) (by simp only; omega) h1 h2 n1 n2
    · refine ⟨f + 1, r, h1, ?_⟩
      unfold Snn.epochLoop at h2
      unfold Run.continueTraining at h2
      have o2 : decide ((M : Int) < q.snn.epoch) = true := by simp; omega
      simp only [hv _ _ _ _ p, o2, Bool.not_true, Bool.and_false, Bool.false_and, Bool.false_eq_true, if_false] at h2
      cases h2
      exact ⟨⟨h.net, h.draws, h.data, h.epoch, h.between, h.stop, h.stop', h.size⟩, by simp only; omega⟩

/-- The rest of the first loop, when both end together. -/
theorem Run.Shift.second (hR : Learner R) {k : Int} {env env' : Env F} {w v : Wait F} {N M : Nat} (hw : Lasts w N) (hv : Lasts v M) {b : Nat}
    {ef eg : Int} (hf : Quiet R ef) (hg : Quiet R eg) (hrng : ∀ e, 0 < e → env'.rng e = env.rng (e + k)) (hk : 0 ≤ k) (hkM : (M : Int) + k = N) {fi gi g f : Nat}
    {r q r' q' : Run F} {x y : Bool} (h : r.Shift R k q) (p : 0 < q.snn.epoch) (p' : q.snn.epoch ≤ (M : Int) + 1)
    (h1 : Snn.epochLoop env w b ef fi f r = .ok (x, r')) (h2 : Snn.epochLoop env' v b eg gi g q = .ok (y, q')) (n1 : r'.snn.net.outputNan = false)
    (n2 : q'.snn.net.outputNan = false) : r'.Shift R k q' := by
  obtain ⟨f', rm, h3, s, e⟩ := Run.Shift.first hR hw hv hf hg hrng hk (by omega) h p p' h1 h2 n1 n2
  cases f' with
  | zero => cases h3
  | succ f' =>
    have e' := s.epoch
    unfold Snn.epochLoop at h3
    unfold Run.continueTraining at h3
    have o1 : decide ((N : Int) < rm.snn.epoch) = true := by simp; omega
    simp only [hw _ _ _ _ (show 0 < rm.snn.epoch by omega), o1, Bool.not_true, Bool.and_false, Bool.false_and, Bool.false_eq_true, if_false] at h3
    cases h3
    exact ⟨s.net, s.draws, s.data, s.epoch, s.between, s.stop, s.stop', s.size⟩

/-- Two runs after the same lessons on the same data. -/
structure Run.After (R : Net F → Net F → Prop) (r q : Run F) : Prop where
  net : R r.snn.net q.snn.net
  draws : q.draws = r.draws
  data : learningPart q.data = learningPart r.data

theorem Run.After.begin {r q : Run F} (h : r.After R q) : ({ r with snn := { r.snn with wantToStopTraining := true } } : Run F).begin.Shift R 0
      ({ q with snn := { q.snn with wantToStopTraining := true } } : Run F).begin := by
  refine ⟨h.net, h.draws, h.data, by simp [Run.begin], ?_, rfl, rfl, rfl⟩
  simp only [Run.begin]
  rw [size_part h.data]

theorem shift_one {k : Int} {r q : Run F} {e e' : Int} (h : r.Shift R k q) (k' : Int) (he : e = e' + k') :
    ({ r with snn := { r.snn with epoch := e } } : Run F).Shift R k' { q with snn := { q.snn with epoch := e' } } :=
  ⟨h.net, h.draws, h.data, he, h.between, h.stop, h.stop', h.size⟩

/-- One training of `N + M` epochs and two trainings of `N` and of `M` epochs. -/
theorem Run.After.split (hR : Learner R) {env env' : Env F} {w v u : Wait F} {N M : Nat} (hw : Lasts w (N + M)) (hv : Lasts v N) (hu : Lasts u M) {b ef eg eh : Int}
    (hf : Quiet R ef) (hg : Quiet R eg) (hh : Quiet R eh) (hrng : GoesOn env env' N) {f g i : Nat} {r q r' q' p p' : Run F}
    (h : r.After R q) (h1 : r.train env w b ef f = .ok r') (h2 : q.train env v b eg g = .ok q') (hp : ∀ rm : Run F, rm.After R q' → rm.After R p)
    (h3 : p.train env' u b eh i = .ok p') (n1 : r'.snn.net.outputNan = false) (n2 : q'.snn.net.outputNan = false) (n3 : p'.snn.net.outputNan = false) :
    r'.After R p' := by
  obtain ⟨hb, _, r1, r2, i1, j1, e1⟩ := train_pieces h1
  obtain ⟨_, _, q1, q2, i2, j2, e2⟩ := train_pieces h2
  obtain ⟨_, _, p1, p2, i3, j3, e3⟩ := train_pieces h3
  obtain ⟨b, rfl⟩ : ∃ k : Nat, b = k := ⟨b.toNat, by omega⟩
  subst e1 e2 e3
  have m1 := epochLoop_nan j1 (by exact n1)
  have m2 := epochLoop_nan j2 (by exact n2)
  have m3 := epochLoop_nan j3 (by exact n3)
  obtain ⟨s1, _⟩ := h.begin.quiet hg (by exact fun x => x) i2 (by exact m2)
  obtain ⟨s2, _⟩ := (s1.symm hR).quiet hf (by exact fun x => x) i1 (by exact m1)
  have s3 := shift_one (e := 1) (e' := 1) (s2.symm hR) 0 (by simp)
  obtain ⟨f', rm, j4, s4, e4⟩ := Run.Shift.first hR hw hv hf hg (by intro e _; simp) le_rfl (by omega) s3 (by simp) (by simp only; omega) j1 j2 (by exact n1) (by exact n2)
  have a4 := hp rm ⟨s4.net, s4.draws, s4.data⟩
  have b1 : ({ rm with snn := { rm.snn with epoch := (N : Int) + 1 } } : Run F) = rm := by
    have := s4.epoch
    rw [e4, add_zero] at this
    rw [← this]
  have s5 : rm.Shift R (N + 1) ({ p with snn := { p.snn with wantToStopTraining := true } } : Run F).begin := by
    refine ⟨a4.net, a4.draws, a4.data, ?_, ?_, s4.stop, rfl, s4.size⟩
    · rw [s4.epoch, e4]; simp [Run.begin]
    · simp only [Run.begin]
      rw [size_part a4.data]
      rw [s4.size]
  obtain ⟨s6, _⟩ := s5.quiet hh (by exact fun x => x) i3 (by exact m3)
  have s7 := shift_one (e := (N : Int) + 1) (e' := 1) s6 N (by omega)
  rw [b1] at s7
  have s8 := Run.Shift.second hR hw hu hf hh hrng (by omega) (by push_cast; omega) s7 (by simp) (by simp only; omega) j4 j3 (by exact n1) (by exact n3)
  exact ⟨s8.net, s8.draws, s8.data⟩

end

end Snn
