import Verif.Props.RatesProps
import Verif.Spec.PartsSpec

/-!
# C117: a testing set can be evaluated in parts, and repeating it changes nothing
-/

set_option linter.all false

namespace Snn.PartsProps

open Snn.Spec Snn.HistoryProps Snn.SafeProps Snn.RatesProps Snn.AccuracyProps

section
variable {F : Type} [Field F] [LinearOrder F] [IsStrictOrderedRing F] [FTrans F]

theorem correct_same {s : Snn F} {d e : Data F} (h : SameTask d e) (x : List F × List F) : Correct s e x ↔ Correct s d x := by
  unfold Correct
  rw [h.1, h.2.1, h.2.2]

theorem predicts_same {s : Snn F} {d e : Data F} (h : SameTask d e) (x : List F × List F) (k : Nat) : Predicts s e x k ↔ Predicts s d x k := by
  unfold Predicts
  rw [h.2.1]

theorem hasLabel_same {d e : Data F} (h : SameTask d e) (x : List F × List F) (k : Nat) : HasLabel e x k ↔ HasLabel d x k := by
  unfold HasLabel
  rw [h.1, h.2.1]

open Classical in
theorem target_same {d e : Data F} (h : SameTask d e) (x : List F × List F) (k : Nat) : target e x k = target d x k := by
  unfold target
  rw [h.1]

/-- The distance between the answer to an example and its expected output. -/
noncomputable def distance (s : Snn F) (d : Data F) (m : Nat) (x : List F × List F) : F :=
  ((List.range m).map fun k => |(answer s x.1).getD k 0 - target d x k|).sum

theorem distance_same {s : Snn F} {d e : Data F} (h : SameTask d e) (m : Nat) : distance s e m = distance s d m := by
  funext x
  unfold distance
  congr 2
  funext k
  rw [target_same h]

theorem share_mul {α : Type} (l : List α) (p : α → Bool) : ((l.countP p : Nat) : F) / (l.length : Nat) * (l.length : Nat) = (l.countP p : Nat) := by
  by_cases h : l.length = 0
  · rw [List.length_eq_zero_iff.1 h]; simp
  · rw [div_mul_cancel₀]
    exact_mod_cast h

theorem mean_mul {α : Type} (l : List α) (f : α → F) : (l.map f).sum / (l.length : Nat) * (l.length : Nat) = (l.map f).sum := by
  by_cases h : l.length = 0
  · rw [List.length_eq_zero_iff.1 h]; simp
  · rw [div_mul_cancel₀]
    exact_mod_cast h

theorem sum_flatMap {α β : Type} (f : β → F) (g : α → List β) : ∀ l : List α, ((l.flatMap g).map f).sum = (l.map fun a => ((g a).map f).sum).sum
  | [] => by simp
  | a :: l => by simp [sum_flatMap f g l]

theorem count_repeat {α : Type} (p : α → Bool) (l : List α) : ∀ k, ((List.replicate k l).flatten).countP p = k * l.countP p
  | 0 => by simp
  | k + 1 => by
    rw [List.replicate_succ, List.flatten_cons, List.countP_append, count_repeat p l k]
    ring

theorem sum_repeat {α : Type} (f : α → F) (l : List α) : ∀ k : Nat, (((List.replicate k l).flatten).map f).sum = (k : F) * (l.map f).sum
  | 0 => by simp
  | k + 1 => by
    rw [List.replicate_succ, List.flatten_cons, List.map_append, List.sum_append, sum_repeat f l k]
    push_cast
    ring

theorem length_repeat {α : Type} (l : List α) (k : Nat) : ((List.replicate k l).flatten).length = k * l.length := by simp

theorem cancel (k : Nat) (hk : 0 < k) (a b : F) : (k : F) * a / ((k : F) * b) = a / b := by
  have : (k : F) ≠ 0 := by exact_mod_cast hk.ne'
  exact mul_div_mul_left a b this

/-- **C117** (exact arithmetic). Make a network from any well formed feedforward architecture that ends with neurons and use it in any way. Let non temporal data be
given whose testing examples are, in any order, those of a list of parts with the same task. Then every evaluation returns, and the accuracy and the mean absolute error
on the whole are the means of those on the parts, weighted by their numbers of examples. -/
theorem C117_parts {arch : List (LayerModel F)} {s s' : List Nat} (h : WellFormed arch s s') (he : EndsWithNeurons arch) (hf : Feedforward arch)
    {opt : Sgd F} {d d' : Draws F} {snn : Snn F} (hm : Snn.make arch opt d = .ok (snn, d')) (calls : List (Call F))
    (hc : ∀ c ∈ calls, CallFits s.prod s'.prod c) (r r' : Run F) (hr : r.snn = snn) (hrun : calls.foldlM Call.run r = .ok r')
    (env : Env F) (data : Data F) (hd : Fitted s.prod s'.prod data) (hnt : data.typeOfTemporal = .nonTemporal)
    (hp : data.typeOfProblem = .regression → 0 ≤ data.precision)
    (parts : List (Data F)) (hparts : ∀ e ∈ parts, Fitted s.prod s'.prod e ∧ e.typeOfTemporal = .nonTemporal ∧ SameTask data e) (hsplit : SplitInto data parts) :
    ∃ (whole : Run F) (each : List (Run F)), ({ r' with data := data } : Run F).evaluate env = .ok whole ∧
      List.Forall₂ (fun (e : Data F) (q : Run F) => ({ r' with data := e } : Run F).evaluate env = .ok q) parts each ∧
      whole.snn.net.stats.globalRate * ((testingExamples data).length : Nat) =
        (List.zipWith (fun (e : Data F) (q : Run F) => q.snn.net.stats.globalRate * (((testingExamples e).length : Nat) : F)) parts each).sum ∧
      whole.snn.net.stats.mae * ((testingExamples data).length : Nat) =
        (List.zipWith (fun (e : Data F) (q : Run F) => q.snn.net.stats.mae * (((testingExamples e).length : Nat) : F)) parts each).sum := by
  classical
  have main : ∀ e : Data F, Fitted s.prod s'.prod e → e.typeOfTemporal = .nonTemporal → SameTask data e → ∃ q, ({ r' with data := e } : Run F).evaluate env = .ok q ∧
      q.snn.net.stats.globalRate * (((testingExamples e).length : Nat) : F) = ((testingExamples e).countP fun x => decide (Correct r'.snn data x) : Nat) ∧
      q.snn.net.stats.mae * (((testingExamples e).length : Nat) : F) = ((testingExamples e).map (distance r'.snn data s'.prod)).sum := by
    intro e h1 h2 h3
    have h4 : e.typeOfProblem = .regression → 0 ≤ e.precision := by
      intro hx
      rw [h3.2.2]
      exact hp (h3.1.symm.trans hx)
    obtain ⟨q, q1, q2⟩ := C66_accuracy h he hf hm calls hc r r' hr hrun env e h1 h2 h4
    obtain ⟨q', q3, _, _, q4⟩ := C82_rates_partial h he hf hm calls hc r r' hr hrun env e h1 h2 h4
    rw [q1] at q3
    cases q3
    refine ⟨q, q1, ?_, ?_⟩
    · rw [q2, share_mul]
      congr 2
      funext x
      exact decide_eq_decide.2 (correct_same h3 x)
    · rw [q4, mean_mul, ← distance_same h3]
      rfl
  have all : ∀ ps : List (Data F), (∀ e ∈ ps, Fitted s.prod s'.prod e ∧ e.typeOfTemporal = .nonTemporal ∧ SameTask data e) →
      ∃ each : List (Run F), List.Forall₂ (fun (e : Data F) (q : Run F) => ({ r' with data := e } : Run F).evaluate env = .ok q) ps each ∧
        (List.zipWith (fun (e : Data F) (q : Run F) => q.snn.net.stats.globalRate * (((testingExamples e).length : Nat) : F)) ps each).sum =
          ((ps.flatMap testingExamples).countP fun x => decide (Correct r'.snn data x) : Nat) ∧
        (List.zipWith (fun (e : Data F) (q : Run F) => q.snn.net.stats.mae * (((testingExamples e).length : Nat) : F)) ps each).sum =
          ((ps.flatMap testingExamples).map (distance r'.snn data s'.prod)).sum := by
    intro ps
    induction ps with
    | nil => intro _; exact ⟨[], .nil, by simp, by simp⟩
    | cons e ps ih =>
      intro hps
      obtain ⟨each, i1, i2, i3⟩ := ih fun e he => hps e (List.mem_cons_of_mem _ he)
      obtain ⟨h1, h2, h3⟩ := hps e List.mem_cons_self
      obtain ⟨q, q1, q2, q3⟩ := main e h1 h2 h3
      refine ⟨q :: each, .cons q1 i1, ?_, ?_⟩
      · rw [List.zipWith_cons_cons, List.sum_cons, i2, q2, List.flatMap_cons, List.countP_append]
        push_cast
        rfl
      · rw [List.zipWith_cons_cons, List.sum_cons, i3, q3, List.flatMap_cons, List.map_append, List.sum_append]
  obtain ⟨whole, w1, w2, w3⟩ := main data hd hnt ⟨rfl, rfl, rfl⟩
  obtain ⟨each, e1, e2, e3⟩ := all parts hparts
  refine ⟨whole, each, w1, e1, ?_, ?_⟩
  · rw [w2, e2, hsplit.countP_eq]
  · rw [w3, e3]
    exact (hsplit.map _).sum_eq

/-- **C117** repeating every testing example the same number of times (in any order) changes neither the accuracy nor the weighted rate, the F1 score and the mean
absolute error. -/
theorem C117_repeated {arch : List (LayerModel F)} {s s' : List Nat} (h : WellFormed arch s s') (he : EndsWithNeurons arch) (hf : Feedforward arch)
    {opt : Sgd F} {d d' : Draws F} {snn : Snn F} (hm : Snn.make arch opt d = .ok (snn, d')) (calls : List (Call F))
    (hc : ∀ c ∈ calls, CallFits s.prod s'.prod c) (r r' : Run F) (hr : r.snn = snn) (hrun : calls.foldlM Call.run r = .ok r')
    (env : Env F) (data more : Data F) (hd : Fitted s.prod s'.prod data) (hd' : Fitted s.prod s'.prod more)
    (hnt : data.typeOfTemporal = .nonTemporal) (hnt' : more.typeOfTemporal = .nonTemporal) (hp : data.typeOfProblem = .regression → 0 ≤ data.precision)
    (htask : SameTask data more) {k : Nat} (hk : 0 < k) (hrep : Repeats k data more) :
    ∃ a b : Run F, ({ r' with data := data } : Run F).evaluate env = .ok a ∧ ({ r' with data := more } : Run F).evaluate env = .ok b ∧
      b.snn.net.stats.globalRate = a.snn.net.stats.globalRate ∧ b.snn.net.stats.weightedRate = a.snn.net.stats.weightedRate ∧
      b.snn.net.stats.f1Score = a.snn.net.stats.f1Score ∧ b.snn.net.stats.mae = a.snn.net.stats.mae := by
  classical
  have hp' : more.typeOfProblem = .regression → 0 ≤ more.precision := by
    intro hx
    rw [htask.2.2]
    exact hp (htask.1.symm.trans hx)
  obtain ⟨a, a1, a2⟩ := C66_accuracy h he hf hm calls hc r r' hr hrun env data hd hnt hp
  obtain ⟨a', a3, a4, a5, a6⟩ := C82_rates_partial h he hf hm calls hc r r' hr hrun env data hd hnt hp
  obtain ⟨b, b1, b2⟩ := C66_accuracy h he hf hm calls hc r r' hr hrun env more hd' hnt' hp'
  obtain ⟨b', b3, b4, b5, b6⟩ := C82_rates_partial h he hf hm calls hc r r' hr hrun env more hd' hnt' hp'
  rw [a1] at a3
  cases a3
  rw [b1] at b3
  cases b3
  have count : ∀ p q : List F × List F → Bool, (∀ x, p x = q x) → (testingExamples more).countP p = k * (testingExamples data).countP q := by
    intro p q hpq
    rw [hrep.countP_eq, count_repeat, funext hpq]
  have hlen : (testingExamples more).length = k * (testingExamples data).length := by rw [hrep.length_eq, length_repeat]
  have hhits : ∀ i, hits r'.snn more i = k * hits r'.snn data i := fun i =>
    count _ _ fun x => decide_eq_decide.2 (and_congr (predicts_same htask x i) (hasLabel_same htask x i))
  have hpred : ∀ i, predicted r'.snn more i = k * predicted r'.snn data i := fun i => count _ _ fun x => decide_eq_decide.2 (predicts_same htask x i)
  have hsupp : ∀ i, support more i = k * support data i := fun i => count _ _ fun x => decide_eq_decide.2 (hasLabel_same htask x i)
  refine ⟨a, b, a1, b1, ?_, ?_, ?_, ?_⟩
  · rw [b2, a2, hlen, count _ _ fun x => decide_eq_decide.2 (correct_same htask x)]
    push_cast
    exact cancel k hk _ _
  · rw [b4, a4]
    congr 3
    funext i
    unfold recall
    rw [hhits, hsupp]
    push_cast
    exact cancel k hk _ _
  · rw [b5, a5]
    congr 3
    funext i
    unfold f1
    rw [hhits, hpred, hsupp]
    push_cast
    rw [← mul_add, mul_left_comm]
    exact cancel k hk _ _
  · rw [b6, a6, hlen]
    have e1 : ((testingExamples more).map (distance r'.snn more s'.prod)).sum = (k : F) * ((testingExamples data).map (distance r'.snn data s'.prod)).sum := by
      rw [distance_same htask, (hrep.map _).sum_eq, sum_repeat]
    unfold distance at e1
    rw [e1]
    push_cast
    exact cancel k hk _ _

end

/-! ### The hypotheses are met -/

open LeakProps

/-- Other testing examples. -/
def other : Data ℚ :=
  (Data.make2 .classification [[1, 0, 2, 0, 1, 1, 0, 2, 1, 0, 0, 1], [0, 1, 1, 2, 0, 1, 1, 0, 2, 1, 0, 1]] [[1, 0], [0, 1]]
    [[0, 1, 0, 1, 2, 0, 1, 0, 2, 0, 1, 1], [1, 1, 1, 0, 0, 0, 1, 1, 1, 0, 0, 0]] [[1, 0], [1, 0]] .nonTemporal 0).get (by decide +kernel)

theorem other_fitted : Fitted [1, 3, 4].prod [2].prod other :=
  .make2 (p := .classification) (ti := [[1, 0, 2, 0, 1, 1, 0, 2, 1, 0, 0, 1], [0, 1, 1, 2, 0, 1, 1, 0, 2, 1, 0, 1]]) (tl := [[1, 0], [0, 1]])
    (si := [[0, 1, 0, 1, 2, 0, 1, 0, 2, 0, 1, 1], [1, 1, 1, 0, 0, 0, 1, 1, 1, 0, 0, 0]]) (sl := [[1, 0], [1, 0]]) (nat := .nonTemporal) (rec := 0) (Res.eq_get _ _)
    ⟨rfl, by unfold Rows; decide, by unfold Rows; decide⟩
    ⟨rfl, by unfold Rows; decide, by unfold Rows; decide⟩
    (by
      intro _ l hl
      simp only [List.mem_cons, List.not_mem_nil, or_false, or_self] at hl
      have h0 : (lit (1 : ℚ) : ℚ) = 1 := by decide +kernel
      rcases hl with rfl | rfl | rfl <;> first | exact ⟨0, by simp, by decide +kernel⟩ | exact ⟨1, by simp, by decide +kernel⟩) (by intro h; cases h)

/-- The testing examples of `dataA` and of `other`, mixed. -/
def union : Data ℚ :=
  (Data.make2 .classification [[1, 0, 2, 0, 1, 1, 0, 2, 1, 0, 0, 1], [0, 1, 1, 2, 0, 1, 1, 0, 2, 1, 0, 1]] [[1, 0], [0, 1]]
    [[1, 1, 1, 0, 0, 0, 1, 1, 1, 0, 0, 0], [1, 1, 1, 0, 0, 0, 1, 1, 1, 0, 0, 0], [0, 1, 0, 1, 2, 0, 1, 0, 2, 0, 1, 1]] [[1, 0], [0, 1], [1, 0]] .nonTemporal 0).get (by decide +kernel)

theorem union_fitted : Fitted [1, 3, 4].prod [2].prod union :=
  .make2 (p := .classification) (ti := [[1, 0, 2, 0, 1, 1, 0, 2, 1, 0, 0, 1], [0, 1, 1, 2, 0, 1, 1, 0, 2, 1, 0, 1]]) (tl := [[1, 0], [0, 1]])
    (si := [[1, 1, 1, 0, 0, 0, 1, 1, 1, 0, 0, 0], [1, 1, 1, 0, 0, 0, 1, 1, 1, 0, 0, 0], [0, 1, 0, 1, 2, 0, 1, 0, 2, 0, 1, 1]]) (sl := [[1, 0], [0, 1], [1, 0]]) (nat := .nonTemporal) (rec := 0) (Res.eq_get _ _)
    ⟨rfl, by unfold Rows; decide, by unfold Rows; decide⟩
    ⟨rfl, by unfold Rows; decide, by unfold Rows; decide⟩
    (by
      intro _ l hl
      simp only [List.mem_cons, List.not_mem_nil, or_false, or_self] at hl
      have h0 : (lit (1 : ℚ) : ℚ) = 1 := by decide +kernel
      rcases hl with rfl | rfl | rfl <;> first | exact ⟨0, by simp, by decide +kernel⟩ | exact ⟨1, by simp, by decide +kernel⟩) (by intro h; cases h)

/-- The testing example of `dataA`, three times. -/
def thrice : Data ℚ :=
  (Data.make2 .classification [[1, 0, 2, 0, 1, 1, 0, 2, 1, 0, 0, 1], [0, 1, 1, 2, 0, 1, 1, 0, 2, 1, 0, 1]] [[1, 0], [0, 1]]
    [[1, 1, 1, 0, 0, 0, 1, 1, 1, 0, 0, 0], [1, 1, 1, 0, 0, 0, 1, 1, 1, 0, 0, 0], [1, 1, 1, 0, 0, 0, 1, 1, 1, 0, 0, 0]] [[0, 1], [0, 1], [0, 1]] .nonTemporal 0).get (by decide +kernel)

theorem thrice_fitted : Fitted [1, 3, 4].prod [2].prod thrice :=
  .make2 (p := .classification) (ti := [[1, 0, 2, 0, 1, 1, 0, 2, 1, 0, 0, 1], [0, 1, 1, 2, 0, 1, 1, 0, 2, 1, 0, 1]]) (tl := [[1, 0], [0, 1]])
    (si := [[1, 1, 1, 0, 0, 0, 1, 1, 1, 0, 0, 0], [1, 1, 1, 0, 0, 0, 1, 1, 1, 0, 0, 0], [1, 1, 1, 0, 0, 0, 1, 1, 1, 0, 0, 0]]) (sl := [[0, 1], [0, 1], [0, 1]]) (nat := .nonTemporal) (rec := 0) (Res.eq_get _ _)
    ⟨rfl, by unfold Rows; decide, by unfold Rows; decide⟩
    ⟨rfl, by unfold Rows; decide, by unfold Rows; decide⟩
    (by
      intro _ l hl
      simp only [List.mem_cons, List.not_mem_nil, or_false, or_self] at hl
      have h0 : (lit (1 : ℚ) : ℚ) = 1 := by decide +kernel
      rcases hl with rfl | rfl | rfl <;> first | exact ⟨0, by simp, by decide +kernel⟩ | exact ⟨1, by simp, by decide +kernel⟩) (by intro h; cases h)


/-- A trained convolutional network is evaluated on a testing set and on its two parts. -/
example : ∃ (whole q1 q2 : Run ℚ), ({ convTrained with data := union } : Run ℚ).evaluate Demo.env = .ok whole ∧
    ({ convTrained with data := dataA } : Run ℚ).evaluate Demo.env = .ok q1 ∧ ({ convTrained with data := other } : Run ℚ).evaluate Demo.env = .ok q2 ∧
    whole.snn.net.stats.globalRate * 3 = q1.snn.net.stats.globalRate * 1 + q2.snn.net.stats.globalRate * 2 := by
  obtain ⟨whole, each, h1, h2, h3, _⟩ := C117_parts LeakProps.conv_wellFormed trivial convFeedforward convMade _ training_fits (Demo.run LeakProps.convNet LeakProps.dataA)
    convTrained rfl convRun Demo.env union union_fitted (by decide +kernel) (by intro h; exact absurd h (by decide +kernel)) [dataA, other]
    (by
      intro e he
      simp only [List.mem_cons, List.not_mem_nil, or_false] at he
      rcases he with rfl | rfl
      · exact ⟨dataA_fitted, by decide +kernel, by decide +kernel, by decide +kernel, by decide +kernel⟩
      · exact ⟨other_fitted, by decide +kernel, by decide +kernel, by decide +kernel, by decide +kernel⟩)
    (by unfold SplitInto; decide +kernel)
  cases h2 with
  | cons a1 h2 => cases h2 with
    | cons a2 h2 =>
      cases h2
      refine ⟨whole, _, _, h1, a1, a2, ?_⟩
      have e1 : (testingExamples union).length = 3 := by decide +kernel
      have e2 : (testingExamples dataA).length = 1 := by decide +kernel
      have e3 : (testingExamples other).length = 2 := by decide +kernel
      simpa [e1, e2, e3] using h3

/-- It is evaluated on its testing set repeated three times. -/
example : ∃ (a b : Run ℚ), ({ convTrained with data := dataA } : Run ℚ).evaluate Demo.env = .ok a ∧
    ({ convTrained with data := thrice } : Run ℚ).evaluate Demo.env = .ok b ∧ b.snn.net.stats.mae = a.snn.net.stats.mae := by
  obtain ⟨a, b, h1, h2, _, _, _, h3⟩ := C117_repeated LeakProps.conv_wellFormed trivial convFeedforward convMade _ training_fits (Demo.run LeakProps.convNet LeakProps.dataA)
    convTrained rfl convRun Demo.env dataA thrice dataA_fitted thrice_fitted (by decide +kernel) (by decide +kernel) (by intro h; exact absurd h (by decide +kernel))
    ⟨by decide +kernel, by decide +kernel, by decide +kernel⟩ (k := 3) (by omega) (by unfold Repeats; decide +kernel)
  exact ⟨a, b, h1, h2, h3⟩

end Snn.PartsProps
