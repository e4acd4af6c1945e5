import Verif.Proofs.LinearProofs
import Mathlib.Analysis.SpecialFunctions.Artanh

/-! C105: a network without hidden nonlinearity only separates what a plane separates. -/

set_option linter.all false

namespace Snn.LinearProps

open Snn.Spec Finset HistoryProps SafeProps AccuracyProps InferenceProps

theorem tanh_strict : StrictMono Real.tanh := by
  intro x y h
  have hd : ∀ z : ℝ, Real.tanh z = 1 - 2 / (Real.exp (2 * z) + 1) := by
    intro z
    rw [Real.tanh_eq_sinh_div_cosh, Real.sinh_eq, Real.cosh_eq, Real.exp_neg]
    have h2 : Real.exp (2 * z) = Real.exp z * Real.exp z := by rw [← Real.exp_add]; ring_nf
    rw [h2]
    have := Real.exp_pos z
    have h3 : Real.exp z * Real.exp z + 1 ≠ 0 := by positivity
    field_simp
    ring
  rw [hd, hd]
  have h1 : Real.exp (2 * x) < Real.exp (2 * y) := Real.exp_lt_exp.2 (by linarith)
  have h2 := Real.exp_pos (2 * x)
  have : 2 / (Real.exp (2 * y) + 1) < 2 / (Real.exp (2 * x) + 1) := by
    apply div_lt_div_of_pos_left <;> linarith
  linarith

theorem act_strict {a : Act} (h : StrictlyIncreasing a) : StrictMono (a.obj.function (F := ℝ)) := by
  intro x y hxy
  cases a <;> simp only [StrictlyIncreasing] at h <;> simp only [Act.obj, ActObj.function, lit_eq]
  · have := tanh_strict (show x / 2 < y / 2 by linarith)
    simp only [ftanh_real]
    push_cast
    linarith
  · simp only [fexp_real]
    push_cast
    have h1 : Real.exp (-y) < Real.exp (-x) := Real.exp_lt_exp.2 (by linarith)
    have h2 := Real.exp_pos (-y)
    have : 1 / (1 + Real.exp (-x)) < 1 / (1 + Real.exp (-y)) := by
      apply div_lt_div_of_pos_left <;> linarith
    linarith
  · exact tanh_strict hxy
  · exact hxy

theorem act_mono {a : Act} (h : Increasing a) : Monotone (a.obj.function (F := ℝ)) := by
  by_cases hs : StrictlyIncreasing a
  · exact (act_strict hs).monotone
  · cases a <;> simp only [StrictlyIncreasing, Increasing, not_true_eq_false] at h hs
    intro x y hxy
    simp only [Act.obj, ActObj.function, flt, Flt.flt, lit_eq, decide_eq_true_eq]
    push_cast
    split <;> split <;> linarith

variable [FText ℝ]

/-- **C105**: a network of linear hidden layers, whatever their number and sizes, is after every history one layer: there are weights and
a bias for each output such that the answer to every input is the activation of the affine forms of the input. -/
theorem C105_one_layer {act : Act} {arch : List (LayerModel ℝ)} (hp : Perceptron act arch) {sh sh' : List Nat} (hw : WellFormed arch sh sh')
    {s : Snn ℝ} (h : Reach arch s) : ∃ (w : Nat → Nat → ℝ) (c : Nat → ℝ), ∀ (x y : List ℝ) (t : Bool) (s' : Snn ℝ), x.length = sh.prod →
      s.computeOutput x t = .ok (y, s') → y = (List.range sh'.prod).map fun j => act.obj.function (form (w j) (c j) x) := by
  obtain ⟨gs, h1, h2, h3⟩ := perceptron_forms hp hw h
  have : ∀ j, ∃ w c, j < gs.length → ∀ x : List ℝ, x.length = sh.prod → (gs.getD j fun _ => 0) x = form w c x := by
    intro j
    by_cases hj : j < gs.length
    · obtain ⟨w, c, hwc⟩ := h2 _ (List.getElem_mem hj)
      refine ⟨w, c, fun _ x hx => ?_⟩
      rw [List.getD_eq_getElem?_getD, List.getElem?_eq_getElem hj]
      exact hwc x hx
    · exact ⟨fun _ => 0, 0, fun h => absurd h hj⟩
  choose w c hwc using this
  refine ⟨w, c, ?_⟩
  intro x y t s' hx hc
  rw [h3 hx hc]
  apply List.ext_getElem
  · simp [h1]
  · intro j j1 j2
    have hj : j < gs.length := by simpa using j1
    have := hwc j hj x hx
    rw [List.getD_eq_getElem?_getD, List.getElem?_eq_getElem hj] at this
    simp only [List.getElem_map, List.getElem_range]
    rw [← this]
    rfl

open Classical in
theorem all_correct {l : List (List ℝ × List ℝ)} {p : List ℝ × List ℝ → Prop} (hne : l ≠ [])
    (h : ((l.countP fun x => decide (p x) : Nat) : ℝ) / (l.length : Nat) = 1) : ∀ x ∈ l, p x := by
  have hl : (0 : ℝ) < (l.length : Nat) := by exact_mod_cast List.length_pos_iff.2 hne
  rw [div_eq_one_iff_eq hl.ne'] at h
  have := List.countP_eq_length.1 (by exact_mod_cast h)
  intro x hx
  simpa using this x hx

omit [FText ℝ] in
theorem perceptron_ends {act : Act} {arch : List (LayerModel ℝ)} (hp : Perceptron act arch) : EndsWithNeurons arch ∧ Feedforward arch := by
  obtain ⟨s, hidden, n, opts, rfl, hh, _⟩ := hp
  refine ⟨?_, ?_⟩
  · unfold EndsWithNeurons
    rw [← List.cons_append, List.getLast?_append]
    simp
  · intro m hm
    rcases List.mem_cons.1 hm with rfl | hm
    · trivial
    rcases List.mem_append.1 hm with hm | hm
    · obtain ⟨_⟩ := hh m hm
      trivial
    · rw [List.mem_singleton] at hm
      subst hm
      trivial

omit [FText ℝ] in
theorem row_sizes {ni no : Nat} {data : Data ℝ} (hd : Fitted ni no data) {row : List ℝ × List ℝ} (h : row ∈ testingExamples data) :
    row.1.length = ni ∧ row.2.length = no := by
  have := hd.safe.test
  obtain ⟨h1, h2⟩ := List.of_mem_zip (a := row.1) (b := row.2) h
  exact ⟨this.inputs _ h1, this.labels _ h2⟩

/-- A network that is right on every example of a multiple classification. -/
theorem separates_multiple {act : Act} (ha : Increasing act) {arch : List (LayerModel ℝ)} (hp : Perceptron act arch) {sh sh' : List Nat} (h : WellFormed arch sh sh')
    {s : Snn ℝ} (hre : Reach arch s) {data : Data ℝ} (hd : Fitted sh.prod sh'.prod data)
    (hpb : data.typeOfProblem = .multipleClassification) (hall : ∀ row ∈ testingExamples data, Correct s data row) :
    ∀ j < sh'.prod, Separable (testingExamples data) fun row => data.separator < row.2.getD j 0 := by
  obtain ⟨w, c, hwc⟩ := C105_one_layer hp h hre
  intro j hj
  obtain ⟨θ, hθ⟩ := threshold (U := fun a => data.separator < act.obj.function a) (fun a b hab hu => lt_of_lt_of_le hu (act_mono ha hab))
    ((testingExamples data).map fun row => form (w j) (c j) row.1)
  refine ⟨w j, c j - θ, ?_⟩
  intro row hrow
  obtain ⟨hx, hlen⟩ := row_sizes hd hrow
  have h1 := hall row hrow
  unfold Correct at h1
  rw [hpb] at h1
  obtain ⟨out, s', ho, hout⟩ := h1
  have hy := hwc _ _ _ _ hx ho
  have h2 := hθ _ (List.mem_map.2 ⟨row, hrow, rfl⟩)
  rw [List.forall₂_iff_get] at hout
  have h3 := hout.2 j (by rw [hy]; simpa using hj) (by omega)
  simp only [List.get_eq_getElem, hy, List.getElem_map, List.getElem_range] at h3
  have h4 : row.2.getD j 0 = row.2[j]'(by omega) := by
    rw [List.getD_eq_getElem?_getD, List.getElem?_eq_getElem (by omega)]; rfl
  show data.separator < row.2.getD j 0 ↔ _
  rw [h4, ← h3, h2]
  unfold form
  constructor <;> intro h <;> linarith

/-- A network that is right on every example of a classification. -/
theorem separates_classes {act : Act} (ha : StrictlyIncreasing act) {arch : List (LayerModel ℝ)} (hp : Perceptron act arch) {sh sh' : List Nat} (h : WellFormed arch sh sh')
    {s : Snn ℝ} (hre : Reach arch s) {data : Data ℝ} (hd : Fitted sh.prod sh'.prod data)
    (hpb : data.typeOfProblem = .classification) (hall : ∀ row ∈ testingExamples data, Correct s data row)
    {i j : Nat} (hij : i < j) (hjs : j < sh'.prod) {rows : List (List ℝ × List ℝ)} (hsub : ∀ row ∈ rows, row ∈ testingExamples data ∧ (IsClass row.2 i ∨ IsClass row.2 j)) :
    Separable rows fun row => IsClass row.2 j := by
  obtain ⟨w, c, hwc⟩ := C105_one_layer hp h hre
  refine ⟨fun k => w j k - w i k, c j - c i, ?_⟩
  intro row hrow
  obtain ⟨hrow, hcl⟩ := hsub row hrow
  obtain ⟨hx, hlen⟩ := row_sizes hd hrow
  have h1 := hall row hrow
  unfold Correct at h1
  rw [hpb] at h1
  obtain ⟨k, s', ho, hk⟩ := h1
  unfold Snn.computeCluster at ho
  obtain ⟨⟨out, net⟩, ho1, ho⟩ := Res.bind_eq_ok.1 ho
  simp only [Res.pure_eq] at ho
  have ho := Res.ok.inj ho
  have hcl' : argmaxLoop out = (k : Int) := congrArg Prod.fst ho
  have hy := hwc row.1 out false _ hx (by unfold Snn.computeOutput; rw [ho1]; rfl)
  have hfl : ∃ x ∈ out, -2 < x := by
    by_contra hn
    rw [StatSpec.argmaxLoop_floor hn] at hcl'
    omega
  obtain ⟨k', e1, e2⟩ := StatSpec.argmaxLoop_spec hfl
  have : k' = k := by omega
  subst this
  have hform : form (fun m => w j m - w i m) (c j - c i) row.1 = form (w j) (c j) row.1 - form (w i) (c i) row.1 := by
    unfold form
    simp only [sub_mul, sum_sub_distrib]
    ring
  rw [hform, sub_pos, ← (act_strict ha).lt_iff_lt]
  have hat : ∀ m < sh'.prod, out[m]? = some (act.obj.function (form (w m) (c m) row.1)) := by
    intro m hm
    rw [hy, List.getElem?_map, List.getElem?_range hm]; rfl
  have hsz : ∀ {m}, IsClass row.2 m → m < sh'.prod := by
    intro m hm
    have := List.getElem?_eq_some_iff.1 hm.1
    obtain ⟨h1, _⟩ := this
    omega
  obtain ⟨v, v1, v2, v3⟩ := e2
  constructor
  · intro hj
    have : j = k' := isClass_unique hk hj
    subst this
    have h1 := hat j (hsz hj)
    rw [v1] at h1
    cases h1
    exact v3 i hij _ (hat i (lt_trans hij (hsz hj)))
  · intro hlt
    rcases hcl with hi | hj
    · have : i = k' := isClass_unique hk hi
      subst this
      have h1 := hat i (hsz hi)
      rw [v1] at h1
      cases h1
      have := v2 _ (List.mem_of_getElem? (hat j hjs))
      linarith
    · exact hj

/-- **C105**, multiple classification: if after any history of calls an evaluation reports the accuracy 1, then for each output a plane
separates the testing examples that have it from the others. -/
theorem C105_multiple {act : Act} (ha : Increasing act) {arch : List (LayerModel ℝ)} (hp : Perceptron act arch) {sh sh' : List Nat} (h : WellFormed arch sh sh')
    {opt : Sgd ℝ} {d d' : Draws ℝ} {snn : Snn ℝ} (hm : Snn.make arch opt d = .ok (snn, d')) (calls : List (Call ℝ))
    (hc : ∀ c ∈ calls, CallFits sh.prod sh'.prod c) (r r' r2 : Run ℝ) (hr : r.snn = snn) (hrun : calls.foldlM Call.run r = .ok r')
    (env : Env ℝ) (data : Data ℝ) (hd : Fitted sh.prod sh'.prod data) (hnt : data.typeOfTemporal = .nonTemporal)
    (hpb : data.typeOfProblem = .multipleClassification) (hne : testingExamples data ≠ [])
    (hev : ({ r' with data := data } : Run ℝ).evaluate env = .ok r2) (hacc : r2.snn.net.stats.globalRate = 1) :
    ∀ j < sh'.prod, Separable (testingExamples data) fun row => data.separator < row.2.getD j 0 := by
  obtain ⟨he, hf⟩ := perceptron_ends hp
  obtain ⟨r3, e1, e2⟩ := C66_accuracy h he hf hm calls hc r r' hr hrun env data hd hnt (by rw [hpb]; simp)
  rw [hev] at e1
  cases e1
  rw [e2] at hacc
  exact separates_multiple ha hp h (FadeProps.history_reach (by rw [hr]; exact .make hm) hrun) hd hpb (all_correct hne hacc)

/-- **C105**, classification: if after any history of calls an evaluation reports the accuracy 1, then a plane separates the testing
examples of any two classes. -/
theorem C105_classes {act : Act} (ha : StrictlyIncreasing act) {arch : List (LayerModel ℝ)} (hp : Perceptron act arch) {sh sh' : List Nat} (h : WellFormed arch sh sh')
    {opt : Sgd ℝ} {d d' : Draws ℝ} {snn : Snn ℝ} (hm : Snn.make arch opt d = .ok (snn, d')) (calls : List (Call ℝ))
    (hc : ∀ c ∈ calls, CallFits sh.prod sh'.prod c) (r r' r2 : Run ℝ) (hr : r.snn = snn) (hrun : calls.foldlM Call.run r = .ok r')
    (env : Env ℝ) (data : Data ℝ) (hd : Fitted sh.prod sh'.prod data) (hnt : data.typeOfTemporal = .nonTemporal)
    (hpb : data.typeOfProblem = .classification) (hne : testingExamples data ≠ [])
    (hev : ({ r' with data := data } : Run ℝ).evaluate env = .ok r2) (hacc : r2.snn.net.stats.globalRate = 1)
    (i j : Nat) (hij : i < j) (hj : j < sh'.prod) (rows : List (List ℝ × List ℝ))
    (hrows : ∀ row, row ∈ rows ↔ row ∈ testingExamples data ∧ (IsClass row.2 i ∨ IsClass row.2 j)) :
    Separable rows fun row => IsClass row.2 j := by
  obtain ⟨he, hf⟩ := perceptron_ends hp
  obtain ⟨r3, e1, e2⟩ := C66_accuracy h he hf hm calls hc r r' hr hrun env data hd hnt (by rw [hpb]; simp)
  rw [hev] at e1
  cases e1
  rw [e2] at hacc
  exact separates_classes ha hp h (FadeProps.history_reach (by rw [hr]; exact .make hm) hrun) hd hpb (all_correct hne hacc) hij hj (fun row hr => (hrows row).1 hr)

/-! ### The exclusive or -/

omit [FText ℝ] in
theorem xor_form {w : Nat → ℝ} {c : ℝ} : form w c [0, 0] + form w c [1, 1] = form w c [0, 1] + form w c [1, 0] := by
  simp [form, sum_range_succ]
  ring

open Classical in
omit [FText ℝ] in
theorem three_of_four {l : List (List ℝ × List ℝ)} (hl : l.length = 4) {p : List ℝ × List ℝ → Prop} (h : ¬ ∀ x ∈ l, p x) :
    ((l.countP fun x => decide (p x) : Nat) : ℝ) / (l.length : Nat) ≤ 3 / 4 := by
  have h1 : (l.countP fun x => decide (p x)) < 4 := by
    rw [← hl]
    refine lt_of_le_of_ne List.countP_le_length ?_
    intro he
    apply h
    intro x hx
    simpa using List.countP_eq_length.1 he x hx
  rw [hl]
  have h2 : ((l.countP fun x => decide (p x) : Nat) : ℝ) ≤ 3 := by exact_mod_cast Nat.lt_succ_iff.1 h1
  push_cast
  linarith

/-- **C105**: the exclusive or of two inputs is never learnt. Whatever the number of linear hidden layers, the optimizer, the initial weights and the history of
calls, an evaluation on the four examples of the exclusive or (one output, compared with a separator in [0, 1)) reports an accuracy of at most 3/4. -/
theorem C105_xor {act : Act} (ha : Increasing act) {arch : List (LayerModel ℝ)} (hp : Perceptron act arch) (h : WellFormed arch [2] [1])
    {opt : Sgd ℝ} {d d' : Draws ℝ} {snn : Snn ℝ} (hm : Snn.make arch opt d = .ok (snn, d')) (calls : List (Call ℝ))
    (hc : ∀ c ∈ calls, CallFits 2 1 c) (r r' : Run ℝ) (hr : r.snn = snn) (hrun : calls.foldlM Call.run r = .ok r')
    (env : Env ℝ) (data : Data ℝ) (hd : Fitted 2 1 data) (hnt : data.typeOfTemporal = .nonTemporal)
    (hpb : data.typeOfProblem = .multipleClassification) (h0 : 0 ≤ data.separator) (h1 : data.separator < 1)
    (hx : testingExamples data = [([0, 0], [0]), ([0, 1], [1]), ([1, 0], [1]), ([1, 1], [0])]) :
    ∃ r2, ({ r' with data := data } : Run ℝ).evaluate env = .ok r2 ∧ r2.snn.net.stats.globalRate ≤ 3 / 4 := by
  obtain ⟨he, hf⟩ := perceptron_ends hp
  obtain ⟨r2, e1, e2⟩ := C66_accuracy h he hf hm calls hc r r' hr hrun env data hd hnt (by rw [hpb]; simp)
  refine ⟨r2, e1, ?_⟩
  rw [e2]
  refine three_of_four (by rw [hx]; rfl) ?_
  intro hall
  obtain ⟨w, c, hs⟩ := separates_multiple ha hp h (FadeProps.history_reach (by rw [hr]; exact .make hm) hrun) hd hpb hall 0 (by simp)
  rw [hx] at hs
  have a := hs ([0, 0], [0]) (by simp)
  have b := hs ([0, 1], [1]) (by simp)
  have c' := hs ([1, 0], [1]) (by simp)
  have d := hs ([1, 1], [0]) (by simp)
  simp only [List.getD_cons_zero] at a b c' d
  have a' := not_lt.1 (fun h => absurd (a.2 h) (not_lt.2 h0))
  have d' := not_lt.1 (fun h => absurd (d.2 h) (not_lt.2 h0))
  have := xor_form (w := w) (c := c)
  linarith [b.1 h1, c'.1 h1]

/-- **C105**: the same for the exclusive or as a classification in two classes, with a strictly increasing activation. -/
theorem C105_xor_classes {act : Act} (ha : StrictlyIncreasing act) {arch : List (LayerModel ℝ)} (hp : Perceptron act arch) (h : WellFormed arch [2] [2])
    {opt : Sgd ℝ} {d d' : Draws ℝ} {snn : Snn ℝ} (hm : Snn.make arch opt d = .ok (snn, d')) (calls : List (Call ℝ))
    (hc : ∀ c ∈ calls, CallFits 2 2 c) (r r' : Run ℝ) (hr : r.snn = snn) (hrun : calls.foldlM Call.run r = .ok r')
    (env : Env ℝ) (data : Data ℝ) (hd : Fitted 2 2 data) (hnt : data.typeOfTemporal = .nonTemporal)
    (hpb : data.typeOfProblem = .classification)
    (hx : testingExamples data = [([0, 0], [1, 0]), ([0, 1], [0, 1]), ([1, 0], [0, 1]), ([1, 1], [1, 0])]) :
    ∃ r2, ({ r' with data := data } : Run ℝ).evaluate env = .ok r2 ∧ r2.snn.net.stats.globalRate ≤ 3 / 4 := by
  obtain ⟨he, hf⟩ := perceptron_ends hp
  obtain ⟨r2, e1, e2⟩ := C66_accuracy h he hf hm calls hc r r' hr hrun env data hd hnt (by rw [hpb]; simp)
  refine ⟨r2, e1, ?_⟩
  rw [e2]
  refine three_of_four (by rw [hx]; rfl) ?_
  intro hall
  have c0 : IsClass ([1, 0] : List ℝ) 0 := ⟨rfl, by simp⟩
  have c1 : IsClass ([0, 1] : List ℝ) 1 := by
    refine ⟨rfl, ?_⟩
    intro j hj
    have : j = 0 := by omega
    subst this
    simp
  have n1 : ¬ IsClass ([1, 0] : List ℝ) 1 := fun hn => absurd (isClass_unique c0 hn) (by simp)
  obtain ⟨w, c, hs⟩ := separates_classes ha hp h (FadeProps.history_reach (by rw [hr]; exact .make hm) hrun) hd hpb hall (i := 0) (j := 1) (by simp) (by simp)
    (rows := testingExamples data) (by
      intro row hrow
      refine ⟨hrow, ?_⟩
      rw [hx] at hrow
      simp only [List.mem_cons, List.not_mem_nil, or_false] at hrow
      rcases hrow with rfl | rfl | rfl | rfl
      · exact .inl c0
      · exact .inr c1
      · exact .inr c1
      · exact .inl c0)
  rw [hx] at hs
  have a := hs ([0, 0], [1, 0]) (by simp)
  have b := hs ([0, 1], [0, 1]) (by simp)
  have c' := hs ([1, 0], [0, 1]) (by simp)
  have d := hs ([1, 1], [1, 0]) (by simp)
  have a' := not_lt.1 (fun h => n1 (a.2 h))
  have d' := not_lt.1 (fun h => n1 (d.2 h))
  have := xor_form (w := w) (c := c)
  linarith [b.1 c1, c'.1 c1]

/-! ### Non-vacuity -/

omit [FText ℝ] in
theorem xor_data : ∃ data : Data ℝ, Fitted 2 1 data ∧ data.typeOfTemporal = .nonTemporal ∧ data.typeOfProblem = .multipleClassification ∧
    0 ≤ data.separator ∧ data.separator < 1 ∧ testingExamples data = [([0, 0], [0]), ([0, 1], [1]), ([1, 0], [1]), ([1, 1], [0])] := by
  have h : ∃ data : Data ℝ, Data.make1 .multipleClassification [[0, 0], [0, 1], [1, 0], [1, 1]] [[0], [1], [1], [0]] .nonTemporal 0 = .ok data ∧
    data.typeOfTemporal = .nonTemporal ∧ data.typeOfProblem = .multipleClassification ∧ data.separator = lit (1/2) ∧
    testingExamples data = [([0, 0], [0]), ([0, 1], [1]), ([1, 0], [1]), ([1, 1], [0])] := ⟨_, rfl, rfl, rfl, rfl, rfl⟩
  obtain ⟨data, h1, h2, h3, h4, h5⟩ := h
  refine ⟨data, .make1 h1 ⟨rfl, ?_, ?_⟩ (by intro h; cases h) (by intro h; cases h), h2, h3, by rw [h4]; simp, by rw [h4]; norm_num, h5⟩
  · intro r hr; simp at hr; rcases hr with rfl | rfl | rfl | rfl <;> simp
  · intro r hr; simp at hr; rcases hr with rfl | rfl | rfl | rfl <;> simp

omit [FText ℝ] in
theorem xor_classes_data : ∃ data : Data ℝ, Fitted 2 2 data ∧ data.typeOfTemporal = .nonTemporal ∧ data.typeOfProblem = .classification ∧
    testingExamples data = [([0, 0], [1, 0]), ([0, 1], [0, 1]), ([1, 0], [0, 1]), ([1, 1], [1, 0])] := by
  have h : ∃ data : Data ℝ, Data.make1 .classification [[0, 0], [0, 1], [1, 0], [1, 1]] [[1, 0], [0, 1], [0, 1], [1, 0]] .nonTemporal 0 = .ok data ∧
    data.typeOfTemporal = .nonTemporal ∧ data.typeOfProblem = .classification ∧
    testingExamples data = [([0, 0], [1, 0]), ([0, 1], [0, 1]), ([1, 0], [0, 1]), ([1, 1], [1, 0])] := ⟨_, rfl, rfl, rfl, rfl⟩
  obtain ⟨data, h1, h2, h3, h5⟩ := h
  refine ⟨data, .make1 h1 ⟨rfl, ?_, ?_⟩ ?_ (by intro h; cases h), h2, h3, h5⟩
  · intro r hr; simp at hr; rcases hr with rfl | rfl | rfl | rfl <;> simp
  · intro r hr; simp at hr; rcases hr with rfl | rfl | rfl | rfl <;> simp
  · intro _ r hr; simp at hr; rcases hr with rfl | rfl | rfl | rfl <;> simp [feq, Flt.feq]

/-- A perceptron with two linear hidden layers, the first with dropout. -/
noncomputable def deep (k : Int) (a : Act) : List (LayerModel ℝ) :=
  [.input [2], .fullyConnected 3 .identity [.dropout (1/2)], .fullyConnected 2 .identity [.l2 (1/10)], .fullyConnected k a [.l1 (1/10)]]

omit [FText ℝ] in
theorem deep_perceptron (k : Int) (a : Act) : Perceptron a (deep k a) := by
  refine ⟨[2], [.fullyConnected 3 .identity [.dropout (1/2)], .fullyConnected 2 .identity [.l2 (1/10)]], k, [.l1 (1/10)], rfl, ?_, ?_⟩
  · intro m hm
    simp only [List.mem_cons, List.not_mem_nil, or_false] at hm
    rcases hm with rfl | rfl <;> exact .fullyConnected (by simp)
  · intro o ho
    rw [List.mem_singleton] at ho
    subst ho
    trivial

omit [FText ℝ] in
theorem deep_wf (k : Nat) (hk : 0 < k) (hk' : k ≤ 2) (a : Act) : WellFormed (deep k a) [2] [k] := by
  have g2 : GoodShape [2] := ⟨by simp, by simp, by simp⟩
  have g3 : GoodShape [3] := ⟨by simp, by simp, by simp⟩
  have gk : GoodShape [k] := ⟨by simp, by simp; omega, by simp; omega⟩
  exact ⟨⟨_, _, rfl, .cons g2 (Fits.fullyConnected (n := 3) (by omega)) (.cons g3 (Fits.fullyConnected (n := 2) (by omega)) (.cons g2 (Fits.fullyConnected (n := k) hk) (.nil gk)))⟩, by simp [deep]⟩

/-- The hypotheses of the theorems on the exclusive or are met. -/
example : (∃ (data : Data ℝ) (snn : Snn ℝ) (d' : Draws ℝ), Snn.make (deep 1 .relu) { learningRate := 1 / 10, momentum := 1 / 2 } (fun _ => 1 / 2) = .ok (snn, d') ∧
      ∀ r : Run ℝ, r.snn = snn → ∃ r2, ({ r with data := data } : Run ℝ).evaluate ⟨fun _ => 0, fun _ _ => 0, 0⟩ = .ok r2 ∧ r2.snn.net.stats.globalRate ≤ 3 / 4) ∧
    (∃ (data : Data ℝ) (snn : Snn ℝ) (d' : Draws ℝ), Snn.make (deep 2 .sigmoid) { learningRate := 1 / 10, momentum := 1 / 2 } (fun _ => 1 / 2) = .ok (snn, d') ∧
      ∀ r : Run ℝ, r.snn = snn → ∃ r2, ({ r with data := data } : Run ℝ).evaluate ⟨fun _ => 0, fun _ _ => 0, 0⟩ = .ok r2 ∧ r2.snn.net.stats.globalRate ≤ 3 / 4) := by
  constructor
  · obtain ⟨data, h1, h2, h3, h4, h5, h6⟩ := xor_data
    obtain ⟨snn, d', hm⟩ := ArchProps.C49_accepted_if (deep_wf 1 (by omega) (by omega) .relu) (opt := { learningRate := 1 / 10, momentum := 1 / 2 }) (by norm_num) (by norm_num)
      (by norm_num) (by norm_num) (d := fun _ => 1 / 2) (fun i => by norm_num)
    exact ⟨data, snn, d', hm, fun r hr => C105_xor (act := .relu) trivial (deep_perceptron 1 .relu) (deep_wf 1 (by omega) (by omega) .relu) hm [] (by simp) r r hr rfl _ data h1 h2 h3 h4 h5 h6⟩
  · obtain ⟨data, h1, h2, h3, h6⟩ := xor_classes_data
    obtain ⟨snn, d', hm⟩ := ArchProps.C49_accepted_if (deep_wf 2 (by omega) (by omega) .sigmoid) (opt := { learningRate := 1 / 10, momentum := 1 / 2 }) (by norm_num) (by norm_num)
      (by norm_num) (by norm_num) (d := fun _ => 1 / 2) (fun i => by norm_num)
    exact ⟨data, snn, d', hm, fun r hr => C105_xor_classes (act := .sigmoid) trivial (deep_perceptron 2 .sigmoid) (deep_wf 2 (by omega) (by omega) .sigmoid) hm [] (by simp) r r hr rfl _ data h1 h2 h3 h6⟩

end Snn.LinearProps
