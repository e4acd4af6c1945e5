import Verif.Proofs.RangeProofs

/-! The presence masks of the dropouts keep the number of neurons of their layer. -/

set_option linter.all false

namespace Snn

open Spec HistoryProps

section
variable {F : Type} [Flt F] [FTrans F] [Add F] [Sub F] [Mul F] [Div F] [Neg F]

/-- The masks of the optimizers have k elements. -/
def Masks (k : Nat) (os : List (LayerOpt F)) : Prop := ∀ v rv m, LayerOpt.dropout v rv m ∈ os → m.length = k

/-- The masks of a layer have one element for each neuron. -/
def Layer.Masked (l : Layer F) : Prop := Masks l.body.weights.length l.optimizers

theorem buildAll_masks (k : Nat) : ∀ (opts : List (LayerOptModel F)) (d : Draws F), Masks k (LayerOpt.buildAll k opts d).1
  | [], d => by simp [LayerOpt.buildAll, Masks]
  | m :: ms, d => by
    intro v rv mk ho
    unfold LayerOpt.buildAll at ho
    rcases List.mem_cons.1 ho with h | ho
    · cases m <;> simp [LayerOpt.build] at h
      rw [h.2.2]
      simp [generateMask]
    · exact buildAll_masks k ms _ v rv mk ho

theorem trainingHooks_masks {t : Bool} {k : Nat} : ∀ {os os' : List (LayerOpt F)} {x y : List F} {d d' : Draws F},
    trainingHooks t os x d = .ok (y, os', d') → Masks k os → Masks k os'
  | [], os', x, y, d, d', h, _ => by cases h; simp [Masks]
  | o :: os, os', x, y, d, d', h, hk => by
    unfold trainingHooks at h
    obtain ⟨⟨y1, o1, d1⟩, h1, h⟩ := Res.bind_eq_ok.1 h
    obtain ⟨⟨y2, os2, d2⟩, h2, h⟩ := Res.bind_eq_ok.1 h
    cases h
    have ih := trainingHooks_masks h2 (fun v rv m hm => hk v rv m (by simp [hm]))
    intro v rv m hm
    rcases List.mem_cons.1 hm with h | hm
    · subst h
      cases o with
      | dropout a b c =>
        have hc := hk a b c (by simp)
        cases t with
        | false =>
          simp only [LayerOpt.afterOutputForTraining, Bool.false_eq_true, if_false, Res.ok.injEq, Prod.mk.injEq, LayerOpt.dropout.injEq] at h1
          rw [← h1.2.1.2.2]; exact hc
        | true =>
          simp only [LayerOpt.afterOutputForTraining, if_true, Res.ok.injEq, Prod.mk.injEq, LayerOpt.dropout.injEq] at h1
          rw [← h1.2.1.2.2]; simpa [generateMask] using hc
      | softmax =>
        simp only [LayerOpt.afterOutputForTraining] at h1
        obtain ⟨_, _, h1⟩ := Res.bind_eq_ok.1 h1
        cases h1
      | l1 v => cases h1
      | l2 v => cases h1
      | errorMultiplier v => cases h1
    · exact ih v rv m hm

theorem Body.Kin.weights_length {b b' : Body F} (k : b.Kin b') : b'.weights.length = b.weights.length := by
  cases b <;> cases b' <;> simp only [Body.Kin] at k
  · simpa [Body.weights] using k.length_eq.symm
  · simpa [Body.weights] using k.length_eq.symm
  · simpa [Body.weights] using k.length_eq.symm
  · simpa [Body.weights] using k.2.1.length_eq.symm
  · rfl

theorem buildLayer_masked {opt : Sgd F} {m : LayerModel F} {s s' : List Nat} (hf : Fits m s s') (hs : GoodShape s) {d d' : Draws F} {l : Layer F}
    (h : buildLayer opt m (s.map (fun v : Nat => (v : Int))) d = .ok (l, d')) : l.Masked := by
  unfold Layer.Masked
  rw [buildLayer_start hs] at h
  cases hf with
  | @fullyConnected n act opts _ hn =>
    obtain ⟨hi, ns, hb, hl, hw, d1, ho⟩ := buildSimple_inv (P := fun n : Neuron F => True) (by simp) h
    rw [ho, hb]; simpa [Body.weights] using buildAll_masks _ _ _
  | @recurrence n act opts _ hn =>
    obtain ⟨hi, ns, hb, hl, hw, d1, ho⟩ := buildSimple_inv (P := fun n : RecNeuron F => True) (by simp) h
    rw [ho, hb]; simpa [Body.weights] using buildAll_masks _ _ _
  | @gru n opts _ hn =>
    obtain ⟨hi, ns, hb, hl, hw, d1, ho⟩ := buildSimple_inv (P := fun n : Gru F => True) (by simp) h
    rw [ho, hb]; simpa [Body.weights] using buildAll_masks _ _ _
  | @convolution1 f k x act opts hf hk hx =>
    obtain ⟨_, ns, info, hb⟩ := buildConvolution1D_inv (shape := [(x : Int)]) (C := 1) rfl hf h
    obtain ⟨d1, ho⟩ := hb.optimizers
    rw [ho, hb.body]; simpa [Body.weights, hb.length] using buildAll_masks _ _ _
  | @convolution1D f k c x act opts hf hk hx =>
    obtain ⟨_, ns, info, hb⟩ := buildConvolution1D_inv (shape := [(c : Int), (x : Int)]) rfl hf h
    obtain ⟨d1, ho⟩ := hb.optimizers
    rw [ho, hb.body]; simpa [Body.weights, hb.length] using buildAll_masks _ _ _
  | @convolution2D f k c x y act opts hf hk hx hy =>
    obtain ⟨_, _, ns, info, hb⟩ := buildConvolution2D_inv hf h
    obtain ⟨d1, ho⟩ := hb.optimizers
    rw [ho, hb.body]; simpa [Body.weights, hb.length] using buildAll_masks _ _ _
  | @locally1 f k x act opts hf hk hx =>
    have e1 : ((([x] : List Nat).prod : Nat) : Int) = ((1 * x : Nat) : Int) := by simp
    rw [e1] at h
    obtain ⟨_, _, ns, info, hb⟩ := buildLocally1D_inv (shape := [(x : Int)]) (C := 1) rfl hf h
    obtain ⟨d1, ho⟩ := hb.optimizers
    rw [ho, hb.body]; simpa [Body.weights, hb.length] using buildAll_masks _ _ _
  | @locally1D f k c x act opts hf hk hx =>
    obtain ⟨_, _, ns, info, hb⟩ := buildLocally1D_inv (shape := [(c : Int), (x : Int)]) rfl hf h
    obtain ⟨d1, ho⟩ := hb.optimizers
    rw [ho, hb.body]; simpa [Body.weights, hb.length] using buildAll_masks _ _ _
  | @locally2D f k c x y act opts hf hk hx hy hxy =>
    obtain ⟨_, _, _, ns, info, hb⟩ := buildLocally2D_inv hf h
    obtain ⟨d1, ho⟩ := hb.optimizers
    rw [ho, hb.body]; simpa [Body.weights, hb.length] using buildAll_masks _ _ _
  | @pool1 k x hk hx =>
    obtain ⟨l', h1, h⟩ := Res.bind_eq_ok.1 h
    cases h
    obtain ⟨_, _, info, hb⟩ := buildPool1D_inv (shape := [(x : Int)]) (C := 1) rfl h1
    rw [hb.optimizers]; simp [Masks]
  | @pool1D k x hk hx =>
    obtain ⟨l', h1, h⟩ := Res.bind_eq_ok.1 h
    cases h
    obtain ⟨_, _, info, hb⟩ := buildPool1D_inv (shape := [((1 : Nat) : Int), (x : Int)]) rfl h1
    rw [hb.optimizers]; simp [Masks]
  | @pool2D k c x y hk hx hy hxy =>
    obtain ⟨l', h1, h⟩ := Res.bind_eq_ok.1 h
    cases h
    obtain ⟨_, _, _, info, hb⟩ := buildPool2D_inv h1
    rw [hb.optimizers]; simp [Masks]

/-- The passes keep the masks. -/
theorem masked_kept : Kept (F := F) (fun ls => ∀ l ∈ ls, l.Masked) where
  out := by
    intro t ls
    induction ls with
    | nil => intro ls' x y _ h; cases h; simp
    | cons l ls ih =>
      intro ls' x y hp h
      unfold Snn.outputLoop at h
      obtain ⟨⟨y1, l1⟩, h1, h⟩ := Res.bind_eq_ok.1 h
      obtain ⟨⟨y2, ls1⟩, h2, h⟩ := Res.bind_eq_ok.1 h
      cases h
      intro m hm
      rcases List.mem_cons.1 hm with rfl | hm
      · have hs := Layer.output_same h1
        have := hp l (by simp)
        unfold Layer.Masked at this ⊢
        rw [hs.body.kin.weights_length]
        unfold Layer.output at h1
        obtain ⟨⟨_, _⟩, _, h1⟩ := Res.bind_eq_ok.1 h1
        obtain ⟨_, _, h1⟩ := Res.bind_eq_ok.1 h1
        cases h1
        exact this
      · exact ih (fun l hl => hp l (by simp [hl])) h2 m hm
  training := by
    intro t ls
    induction ls with
    | nil => intro ls' x y d d' _ h; cases h; simp
    | cons l ls ih =>
      intro ls' x y d d' hp h
      unfold Snn.trainingLoop at h
      obtain ⟨⟨y1, l1, d1⟩, h1, h⟩ := Res.bind_eq_ok.1 h
      obtain ⟨⟨y2, ls1, d2⟩, h2, h⟩ := Res.bind_eq_ok.1 h
      cases h
      intro m hm
      rcases List.mem_cons.1 hm with rfl | hm
      · have hs := (Layer.outputForTraining_kin h1).2
        have := hp l (by simp)
        unfold Layer.Masked at this ⊢
        rw [hs.weights_length]
        unfold Layer.outputForTraining at h1
        obtain ⟨⟨_, _⟩, _, h1⟩ := Res.bind_eq_ok.1 h1
        obtain ⟨⟨_, _, _⟩, h3, h1⟩ := Res.bind_eq_ok.1 h1
        cases h1
        exact trainingHooks_masks h3 this
      · exact ih (fun l hl => hp l (by simp [hl])) h2 m hm
  back := by
    have loop : ∀ {ls ls' : List (Layer F)} {es r : List F}, (∀ l ∈ ls, l.Masked) → Snn.backLoop ls es = .ok (r, ls') → ∀ l ∈ ls', l.Masked := by
      intro ls
      induction ls with
      | nil => intro ls' es r _ h; cases h; simp
      | cons l ls ih =>
        intro ls' es r hp h
        unfold Snn.backLoop at h
        obtain ⟨⟨es1, ls1⟩, h1, h⟩ := Res.bind_eq_ok.1 h
        obtain ⟨⟨es2, l1⟩, h2, h⟩ := Res.bind_eq_ok.1 h
        cases h
        intro m hm
        rcases List.mem_cons.1 hm with rfl | hm
        · have hs := Layer.backOutput_kin h2
          have := hp l (by simp)
          unfold Layer.Masked at this ⊢
          rw [hs.2.2.weights_length]
          unfold Layer.backOutput at h2
          obtain ⟨⟨_, _⟩, _, h2⟩ := Res.bind_eq_ok.1 h2
          cases h2
          exact this
        · exact ih (fun l hl => hp l (by simp [hl])) h1 m hm
    intro ls ls' es hp h
    cases ls with
    | nil => cases h
    | cons l ls =>
      unfold backwardPass at h
      obtain ⟨⟨es1, ls1⟩, h1, h⟩ := Res.bind_eq_ok.1 h
      obtain ⟨l1, h2, h⟩ := Res.bind_eq_ok.1 h
      cases h
      intro m hm
      rcases List.mem_cons.1 hm with rfl | hm
      · have hs := Layer.train_kin h2
        have := hp l (by simp)
        unfold Layer.Masked at this ⊢
        rw [hs.2.2.weights_length]
        unfold Layer.train at h2
        obtain ⟨_, _, h2⟩ := Res.bind_eq_ok.1 h2
        cases h2
        exact this
      · exact loop (fun l hl => hp l (by simp [hl])) h1 m hm

/-- The masks of every network a program can hold. -/
theorem Spec.Reach.masked [FText F] {arch : List (LayerModel F)} {sh sh' : List Nat} (hw : WellFormed arch sh sh')
    {s : Snn F} (h : Reach arch s) : ∀ l ∈ s.net.layers, l.Masked := by
  induction h with
  | make h =>
    unfold Snn.make at h
    obtain ⟨⟨net, d1⟩, h1, h⟩ := Res.bind_eq_ok.1 h
    obtain ⟨err, _, h⟩ := Res.bind_eq_ok.1 h
    split at h
    · cases h
    · cases h
      exact Net.make_layers (P := Layer.Masked) (fun hf hs h => buildLayer_masked (F := F) hf hs h) hw h1
  | call _ h ih => exact masked_kept.call ih h
  | stop _ ih => exact ih
  | copy hr h ih =>
    rw [Snn.copy_eq hr.set] at h
    cases h
    exact ih
  | load _ hf' h ih =>
    rename_i s t path files _
    simp only [loadFrom, hf'] at h
    obtain ⟨⟨t', a⟩, h1, h⟩ := Res.bind_eq_ok.1 h
    cases h
    rcases load_saved_or s with ⟨_, a', h2⟩ | ⟨_, m, h2⟩
    · rw [h2] at h1
      cases h1
      intro l hl
      obtain ⟨m, hm, rfl⟩ := List.mem_map.1 (show l ∈ s.net.layers.map Layer.forget from hl)
      unfold Layer.Masked
      rw [Layer.forget_opts]
      have := ih m hm
      unfold Layer.Masked at this
      rw [(StructProps.Layer.forget_kin m).body.weights_length]
      exact this
    · rw [h2] at h1; cases h1

end

end Snn
