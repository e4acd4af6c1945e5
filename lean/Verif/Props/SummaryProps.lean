import Verif.Model.Summary
import Verif.Spec.SummarySpec
import Verif.Props.StructProps

/-!
# C70: the text of `summary()`
-/

set_option linter.all false

namespace Snn.SummaryProps

open Snn Snn.Spec HistoryProps StructProps

section
variable {F : Type} [Flt F] [FTrans F] [Add F] [Sub F] [Mul F] [Div F] [Neg F]

theorem opt_text (fl : F → String) (o : LayerOpt F) : o.summary fl = optText fl (settingOf o) := by cases o <;> rfl

theorem others_text (fl : F → String) : ∀ (os : List (LayerOpt F)),
    summaryOthers fl os = String.join ((os.map settingOf).map fun o => line "                              " (optText fl o))
  | [] => rfl
  | o :: os => by
    unfold summaryOthers
    rw [others_text fl os, opt_text]
    simp [line, String.join_cons, String.append_assoc]

theorem opts_text (fl : F → String) (os : List (LayerOpt F)) : summaryOptimizers fl os = optsText fl (os.map settingOf) := by
  cases os with
  | nil => rfl
  | cons o os =>
    show "                Optimizers:   " ++ o.summary fl ++ "\n" ++ summaryOthers fl os = _
    rw [others_text, opt_text]
    simp [line, optsText, String.append_assoc]

theorem name_text (act : Act) : ∃ a, act.get = .ok a ∧ a.getName = actText act := by
  cases act <;> exact ⟨_, rfl, rfl⟩

theorem first_text {ns : List (Neuron F)} {act : Act} (h0 : 0 < ns.length) (h : ∀ x ∈ ns, x.activationFunction = act) :
    firstName ns = .ok (actText act) := by
  cases ns with
  | nil => cases h0
  | cons x ns =>
    obtain ⟨a, h1, h2⟩ := name_text act
    unfold firstName
    simp [rd, h x (by simp), h1, h2]

theorem toString_cast (n : Nat) : toString (n : Int) = toString n := rfl

theorem repr_cast (n : Nat) : (n : Int).repr = n.repr := rfl

theorem shape1_text (a : Nat) : shapeText [a] = "[" ++ toString a ++ "]" := by simp [shapeText]
theorem shape2_text (a b : Nat) : shape2 [(a : Int), (b : Int)] = .ok (shapeText [a, b]) := by
  simp [shape2, rd, shapeText, String.append_assoc, toString_cast, repr_cast]
theorem shape3_text (a b c : Nat) : shape3 [(a : Int), (b : Int), (c : Int)] = .ok (shapeText [a, b, c]) := by
  simp [shape3, rd, shapeText, String.append_assoc, toString_cast, repr_cast]

theorem layer_text (fl : F → String) {opt : Sgd F} {m : LayerModel F} {s s' : List Nat} (hf : Fits m s s') {l : Layer F} (h : LayerIs opt m s l)
    (ho : l.getShapeOfOutput = s'.map (fun v : Nat => (v : Int))) (hp : neuronsOf m s * weightsOf m s ≤ 2147483647) (hpr : Printed [m] s) :
    l.summary fl = .ok (layerText fl m s s') := by
  have hpar : l.getNumberOfParameters = .ok ((neuronsOf m s * weightsOf m s : Nat) : Int) := by
    rw [(layer_parameters hf h).2]
    unfold ckInt
    rw [if_pos (by omega)]
  have hn := (layer_parameters hf h).1
  obtain ⟨hi, h⟩ := h
  cases hf with
  | @fullyConnected n act opts _ hn0 =>
    obtain ⟨h1, ns, h2, h3, h4⟩ := h
    unfold Layer.summary
    rw [h2]
    simp only
    rw [hpar, first_text (by omega) (fun x hx => (h4 x hx).activation), hi, opts_text, h1, hn]
    unfold layerText titleText inputText sizeText parametersText activationText optsOf
    simp only [Res.ok_bind, line, shape1_text, shape1, toString_cast, neuronsOf, rule, String.append_assoc, Int.toNat_natCast]
    rfl
  | @recurrence n act opts _ hn0 =>
    obtain ⟨h1, ns, h2, h3, h4⟩ := h
    have hsn : (s.prod : Int) = n := hpr.1
    unfold Layer.summary
    rw [h2]
    simp only
    rw [hpar, first_text (act := act) (by simp; omega) (by intro x hx; obtain ⟨y, hy, rfl⟩ := List.mem_map.1 hx; exact (h4 y hy).activation), hi, opts_text, h1, hn]
    have hsn' : s.prod = n := by omega
    unfold layerText titleText inputText sizeText parametersText activationText optsOf
    simp only [Res.ok_bind, line, shape1_text, shape1, toString_cast, neuronsOf, rule, String.append_assoc, Int.toNat_natCast, hsn']
    rfl
  | @gru n opts _ hn0 =>
    obtain ⟨h1, ns, h2, h3, h4⟩ := h
    have hsn : (s.prod : Int) = n := hpr.1
    unfold Layer.summary
    rw [h2]
    simp only
    rw [hpar, hi, opts_text, h1, hn]
    have hsn' : s.prod = n := by omega
    unfold layerText titleText inputText sizeText parametersText activationText optsOf
    simp only [Res.ok_bind, line, shape1_text, shape1, toString_cast, neuronsOf, rule, String.append_assoc, Int.toNat_natCast, hsn']
    simp only [String.empty_append]
    rfl
  | @convolution1 f k x act opts hf hk hx =>
    obtain ⟨h1, kind, ns, info, h2, h3, h4, h5, h8, h6, h7⟩ := h
    rw [if_neg (by simp)] at h3
    subst h3
    unfold Layer.getShapeOfOutput at ho
    rw [h2] at ho
    have ho' := ho
    simp only at ho'
    unfold Layer.summary
    rw [h2]
    simp only
    rw [hpar, first_text (by omega) (fun x hx => (h7 x hx).activation), opts_text, h1, h4, h5, h8, ho']
    simp only [withChannel, List.map_cons, List.map_nil]
    have := shape2_text 1 x
    rw [this, shape2_text]
    unfold layerText titleText inputText sizeText parametersText activationText optsOf
    simp only [Res.ok_bind, line, shape1_text, shape1, toString_cast, neuronsOf, rule, String.append_assoc, Int.toNat_natCast]
    rw [if_neg (by simp), if_neg (by simp)]
    simp only [String.append_assoc, withChannel]
    rfl
  | @convolution1D f k c x act opts hf hk hx =>
    obtain ⟨h1, kind, ns, info, h2, h3, h4, h5, h8, h6, h7⟩ := h
    rw [if_neg (by simp)] at h3
    subst h3
    unfold Layer.getShapeOfOutput at ho
    rw [h2] at ho
    have ho' := ho
    simp only at ho'
    unfold Layer.summary
    rw [h2]
    simp only
    rw [hpar, first_text (by omega) (fun x hx => (h7 x hx).activation), opts_text, h1, h4, h5, h8, ho']
    simp only [withChannel, List.map_cons, List.map_nil]
    have := shape2_text c x
    rw [this, shape2_text]
    unfold layerText titleText inputText sizeText parametersText activationText optsOf
    simp only [Res.ok_bind, line, shape1_text, shape1, toString_cast, neuronsOf, rule, String.append_assoc, Int.toNat_natCast]
    rw [if_neg (by simp), if_neg (by simp)]
    simp only [String.append_assoc, withChannel]
    rfl
  | @convolution2D f k c x y act opts hf hk hx hy =>
    obtain ⟨h1, kind, ns, info, h2, h3, h4, h5, h8, h6, h7⟩ := h
    rw [if_pos (by simp)] at h3
    subst h3
    unfold Layer.getShapeOfOutput at ho
    rw [h2] at ho
    have ho' := ho
    simp only at ho'
    unfold Layer.summary
    rw [h2]
    simp only
    rw [hpar, first_text (by omega) (fun x hx => (h7 x hx).activation), opts_text, h1, h4, h5, h8, ho']
    simp only [withChannel, List.map_cons, List.map_nil]
    have := shape3_text c x y
    rw [this, shape3_text]
    unfold layerText titleText inputText sizeText parametersText activationText optsOf
    simp only [Res.ok_bind, line, shape1_text, shape1, toString_cast, neuronsOf, rule, String.append_assoc, Int.toNat_natCast]
    rw [if_pos (by simp), if_pos (by simp)]
    simp only [String.append_assoc, withChannel]
    rfl
  | @locally1 f k x act opts hf hk hx => exact hpr.1.elim
  | @locally1D f k c x act opts hf hk hx => exact hpr.1.elim
  | @locally2D f k c x y act opts hf hk hx hy hxy => exact hpr.1.elim
  | @pool1 k x hk hx =>
    obtain ⟨h1, twoD, info, o, mvi, h2, h3, h4, h8⟩ := h
    simp at h3
    subst h3
    unfold Layer.getShapeOfOutput at ho
    rw [h2] at ho
    have ho' := ho
    simp only at ho'
    unfold Layer.summary
    rw [h2]
    simp only
    rw [opts_text, h1, h4, h8, ho']
    simp only [withChannel, List.map_cons, List.map_nil]
    have := shape2_text 1 x
    rw [this, shape2_text]
    unfold layerText titleText inputText sizeText parametersText activationText optsOf
    simp only [Res.ok_bind, line, shape1_text, shape1, toString_cast, neuronsOf, rule, String.append_assoc, Int.toNat_natCast]
    rw [if_neg (by simp), if_neg (by simp)]
    simp only [String.append_assoc, withChannel, String.empty_append]
    rfl
  | @pool1D k x hk hx =>
    obtain ⟨h1, twoD, info, o, mvi, h2, h3, h4, h8⟩ := h
    simp at h3
    subst h3
    unfold Layer.getShapeOfOutput at ho
    rw [h2] at ho
    have ho' := ho
    simp only at ho'
    unfold Layer.summary
    rw [h2]
    simp only
    rw [opts_text, h1, h4, h8, ho']
    simp only [withChannel, List.map_cons, List.map_nil]
    have := shape2_text 1 x
    rw [this, shape2_text]
    unfold layerText titleText inputText sizeText parametersText activationText optsOf
    simp only [Res.ok_bind, line, shape1_text, shape1, toString_cast, neuronsOf, rule, String.append_assoc, Int.toNat_natCast]
    rw [if_neg (by simp), if_neg (by simp)]
    simp only [String.append_assoc, withChannel, String.empty_append]
    rfl
  | @pool2D k c x y hk hx hy hxy =>
    obtain ⟨h1, twoD, info, o, mvi, h2, h3, h4, h8⟩ := h
    simp at h3
    subst h3
    unfold Layer.getShapeOfOutput at ho
    rw [h2] at ho
    have ho' := ho
    simp only at ho'
    unfold Layer.summary
    rw [h2]
    simp only
    rw [opts_text, h1, h4, h8, ho']
    simp only [withChannel, List.map_cons, List.map_nil]
    have := shape3_text c x y
    rw [this, shape3_text]
    unfold layerText titleText inputText sizeText parametersText activationText optsOf
    simp only [Res.ok_bind, line, shape1_text, shape1, toString_cast, neuronsOf, rule, String.append_assoc, Int.toNat_natCast]
    rw [if_pos (by simp), if_pos (by simp)]
    simp only [String.append_assoc, withChannel, String.empty_append]
    rfl

theorem layers_text (fl : F → String) {opt : Sgd F} {ms : List (LayerModel F)} {s : List Nat} {ls : List (Layer F)} (h : NetIs opt ms s ls) :
    ∀ {n p : Nat} {t : String}, Counts ms s n p → p ≤ 2147483647 → LayersText fl ms s t → Printed ms s → summaryLayers fl ls = .ok t := by
  induction h with
  | nil =>
    intro n p t hc hp ht hpr
    cases ht
    rfl
  | @cons m ms s s1 l ls hm hl ho hs ih =>
    intro n p t hc hp ht hpr
    cases hc with
    | @cons _ _ _ s2 n p hm' hc =>
      cases ht with
      | @cons _ _ _ s3 t hm3 ht =>
        cases fits_fun hm hm'
        cases fits_fun hm hm3
        unfold summaryLayers
        rw [layer_text fl hm hl ho (by omega) ⟨hpr.1, fun _ _ => trivial⟩, Res.ok_bind, ih hc (by omega) ht (hpr.2 _ hm)]
        rfl

variable [FText F]

/-- **C70, partial**: the summary of every network a program can hold, of a well formed architecture of dense, convolution and pooling
layers and of recurrent layers with as many neurons as inputs, is the text of the architecture, with the numbers of parameters (while it
fits in an `int`), epochs and training steps and the optimizer. -/
theorem C70_summary_partial (fl : F → String) {arch : List (LayerModel F)} {sh sh' : List Nat} (hw : WellFormed arch sh sh') {s : Snn F}
    (h : Reach arch s) {n p : Nat} (hc : Counts arch.tail sh n p) (hp : p ≤ 2147483647) {t : String} (ht : LayersText fl arch.tail sh t)
    (hpr : Printed arch.tail sh) :
    s.summary fl = .ok (summaryText fl s.autoSaveFilePath p s.epoch s.net.numberOfTraining t s.net.optimizer) := by
  have h1 := C69_parameters_partial hw h hc
  rw [if_pos hp] at h1
  unfold Snn.summary
  rw [h1, layers_text fl (C68_structure hw h) hc hp ht hpr]
  simp only [Res.ok_bind]
  unfold summaryText doubleRule Sgd.summary line
  simp only [String.append_assoc, toString_cast]
  rfl

omit [FText F] in
/-- The text of the layers exists for every well formed architecture, and there is only one. -/
theorem C70_text_exists (fl : F → String) {arch : List (LayerModel F)} {sh sh' : List Nat} (hw : WellFormed arch sh sh') :
    ∃! t : String, LayersText fl arch.tail sh t := by
  obtain ⟨m, rest, rfl, hch⟩ := hw.layers
  have ex : ∀ {ms : List (LayerModel F)} {s s' : List Nat}, Chain ms s s' → ∃ t, LayersText fl ms s t := by
    intro ms s s' h
    induction h with
    | nil => exact ⟨_, .nil⟩
    | cons _ hm _ ih =>
      obtain ⟨t, ht⟩ := ih
      exact ⟨_, .cons hm ht⟩
  have un : ∀ {ms : List (LayerModel F)} {s : List Nat} {t t' : String}, LayersText fl ms s t → LayersText fl ms s t' → t = t' := by
    intro ms s t t' h
    induction h generalizing t' with
    | nil => intro h'; cases h'; rfl
    | cons hm _ ih =>
      intro h'
      cases h' with
      | cons hm' h' =>
        cases fits_fun hm hm'
        rw [ih h']
  obtain ⟨t, ht⟩ := ex hch
  exact ⟨t, ht, fun t' h' => un h' ht⟩

end

/-! ### Non-vacuity and refutations -/

/-- A recurrent layer of two neurons on one input. -/
theorem recurrent_wellFormed : WellFormed Demo.recurrentArch [1] [1] :=
  ⟨⟨_, _, rfl, .cons ⟨by simp, by simp, by simp⟩ (.recurrence (n := 2) (by decide)) <|
    .cons ⟨by simp, by simp, by simp⟩ (.fullyConnected (n := 1) (by decide)) <| .nil ⟨by simp, by simp, by simp⟩⟩, by decide⟩

/-- **C70 is false of recurrent layers**: the recurrent network of the demo, with one input and two recurrent neurons, prints
two inputs and one output for that layer. -/
theorem C70_recurrent_refuted : ∃ (s : Snn ℚ) (t x : String), Reach Demo.recurrentArch s ∧ LayersText (fun _ => "") Demo.recurrentArch.tail [1] t ∧
    s.summary (fun _ => "") = .ok x ∧ x ≠ summaryText (fun _ => "") s.autoSaveFilePath 9 s.epoch s.net.numberOfTraining t s.net.optimizer := by
  refine ⟨Demo.recurrent, _, (Demo.recurrent.summary (fun _ => "")).get (by decide +kernel),
    .make (o := Demo.sgd) (d := Demo.draws) (Res.eq_get _ (by decide +kernel)),
    .cons (.recurrence (n := 2) (by decide)) (.cons (.fullyConnected (n := 1) (by decide)) .nil), Res.eq_get _ (by decide +kernel), ?_⟩
  decide +kernel

/-- The text of that layer. -/
example : (Demo.recurrent.net.layers.head?.map fun l => l.summary (fun _ => "")) = some (.ok (
"------------------------------------------------------------
 Recurrence
                Input shape:  [2]
                Neurons:      2
                Parameters:   6
                Activation:   identity
                Output shape: [1]
")) := by decide +kernel

/-- A locally connected layer of two filters on four inputs. -/
def localArch : List (LayerModel ℚ) := [.input [4], .locallyConnected 2 2 .identity []]

/-- **C70 is false of locally connected layers**: the title and the input shape are on the same line and the labels are not aligned. -/
theorem C70_locally_refuted : ∃ (s : Snn ℚ) (t x : String), Reach localArch s ∧ LayersText (fun _ => "") localArch.tail [4] t ∧
    s.summary (fun _ => "") = .ok x ∧ x ≠ summaryText (fun _ => "") s.autoSaveFilePath 12 s.epoch s.net.numberOfTraining t s.net.optimizer ∧
    s.net.getNumberOfParameters = .ok 12 := by
  refine ⟨((Snn.make localArch Demo.sgd Demo.draws).get (by decide +kernel)).1, _,
    (((Snn.make localArch Demo.sgd Demo.draws).get (by decide +kernel)).1.summary (fun _ => "")).get (by decide +kernel),
    .make (o := Demo.sgd) (d := Demo.draws) (Res.eq_get _ (by decide +kernel)),
    .cons (.locally1 (f := 2) (k := 2) (x := 4) (by decide) (by decide) (by decide)) .nil, Res.eq_get _ (by decide +kernel), ?_, by decide +kernel⟩
  decide +kernel

/-- A convolution, a pooling and a dense layer with dropout. -/
def printArch : List (LayerModel ℚ) :=
  [.input [1, 3, 4], .convolution 2 2 .relu [], .maxPooling 2, .fullyConnected 2 .tanh [.dropout (1/4), .softmax]]

theorem print_wellFormed : WellFormed printArch [1, 3, 4] [2] := by
  have g : ∀ s : List Nat, s ≠ [] → (∀ v ∈ s, 0 < v) → s.prod ≤ 999998 → GoodShape s := fun s a b c => ⟨a, b, c⟩
  refine ⟨⟨_, _, rfl, ?_⟩, by decide⟩
  refine .cons (g _ (by decide) (by decide) (by decide)) (.convolution2D (by decide) (by decide) (by decide) (by decide)) ?_
  refine .cons (g _ (by decide) (by decide) (by decide)) (.pool2D (by decide) (by decide) (by decide) (by decide)) ?_
  refine .cons (g _ (by decide) (by decide) (by decide)) (.fullyConnected (by decide)) ?_
  exact .nil (g _ (by decide) (by decide) (by decide))

/-- The theorem applies to it. -/
example : ∃ (s : Snn ℚ) (n p : Nat) (t : String), Reach printArch s ∧ Counts printArch.tail [1, 3, 4] n p ∧ p ≤ 2147483647 ∧
    LayersText (fun _ => "?") printArch.tail [1, 3, 4] t ∧ Printed printArch.tail [1, 3, 4] ∧ t =
"------------------------------------------------------------
 Convolution2D
                Input shape:  [1, 3, 4]
                Filters:      2
                Kernel size:  2x2
                Parameters:   10
                Activation:   ReLU
                Output shape: [2, 2, 3]
------------------------------------------------------------
 MaxPooling2D
                Input shape:  [2, 2, 3]
                Kernel size:  2x2
                Output shape: [2, 1, 2]
------------------------------------------------------------
 FullyConnected
                Input shape:  [4]
                Neurons:      2
                Parameters:   10
                Activation:   tanh
                Output shape: [2]
                Optimizers:   Dropout(?)

                              Softmax
" := by
  obtain ⟨np, hc, _⟩ := C69_counts_exist print_wellFormed
  refine ⟨((Snn.make printArch Demo.sgd Demo.draws).get (by decide +kernel)).1, 4, 20, _,
    .make (o := Demo.sgd) (d := Demo.draws) (Res.eq_get _ (by decide +kernel)), ?_, by decide,
    .cons (.convolution2D (f := 2) (k := 2) (c := 1) (x := 3) (y := 4) (by decide) (by decide) (by decide) (by decide)) <|
      .cons (.pool2D (k := 2) (c := 2) (x := 2) (y := 3) (by decide) (by decide) (by decide) (by decide)) <|
      .cons (.fullyConnected (n := 2) (by decide)) .nil, ⟨trivial, fun _ _ => ⟨trivial, fun _ _ => ⟨trivial, fun _ _ => trivial⟩⟩⟩, by decide +kernel⟩
  exact .cons (m := .convolution 2 2 .relu []) (.convolution2D (f := 2) (k := 2) (c := 1) (x := 3) (y := 4) (by decide) (by decide) (by decide) (by decide)) <|
      .cons (m := .maxPooling 2) (.pool2D (k := 2) (c := 2) (x := 2) (y := 3) (by decide) (by decide) (by decide) (by decide)) <|
      .cons (m := .fullyConnected 2 .tanh [.dropout (1/4), .softmax]) (s := [2, 1, 2]) (.fullyConnected (n := 2) (by decide)) .nil

end Snn.SummaryProps
