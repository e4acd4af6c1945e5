import Verif.Proofs.KeptBody
import Verif.Props.StructProps
import Verif.Props.ActivationProps
import Verif.Props.LayerOptProps
import Verif.Spec.RangeSpec

/-! The values a layer can return. -/

set_option linter.all false

namespace Snn

open Spec HistoryProps

section
variable {F : Type} [Flt F] [FTrans F] [Add F] [Sub F] [Mul F] [Div F] [Neg F]

theorem buildLayers_all {P : Layer F → Prop} (hP : ∀ {opt : Sgd F} {m : LayerModel F} {s s' : List Nat} {d d' : Draws F} {l : Layer F}, Fits m s s' → GoodShape s →
    buildLayer opt m (s.map (fun v : Nat => (v : Int))) d = .ok (l, d') → P l) {opt : Sgd F} {ms : List (LayerModel F)} {s s' : List Nat}
    (h : Chain ms s s') : ∀ {d d' : Draws F} {ls : List (Layer F)},
    buildLayers opt ms (s.map (fun v : Nat => (v : Int))) d = .ok (ls, d') → ∀ l ∈ ls, P l := by
  induction h with
  | nil hs => intro d d' ls h; cases h; simp
  | @cons m ms s s1 s2 hs hm hc ih =>
    intro d d' ls h
    have hs1 : GoodShape s1 := by cases hc <;> assumption
    obtain ⟨l, d1, h1, hb⟩ := buildLayer_ok opt hm hs hs1 d
    unfold buildLayers at h
    rw [h1] at h
    simp only [Res.ok_bind] at h
    rw [hb.shape] at h
    obtain ⟨⟨ls', d2⟩, h2, h⟩ := Res.bind_eq_ok.1 h
    cases h
    intro x hx
    rcases List.mem_cons.1 hx with rfl | hx
    · exact hP hm hs h1
    · exact ih h2 x hx

theorem Net.make_layers {P : Layer F → Prop} (hP : ∀ {opt : Sgd F} {m : LayerModel F} {s s' : List Nat} {d d' : Draws F} {l : Layer F}, Fits m s s' → GoodShape s →
    buildLayer opt m (s.map (fun v : Nat => (v : Int))) d = .ok (l, d') → P l) {arch : List (LayerModel F)} {s s' : List Nat}
    (h : WellFormed arch s s') {opt : Sgd F} {d d' : Draws F} {n : Net F} (hm : Net.make arch opt d = .ok (n, d')) : ∀ l ∈ n.layers, P l := by
  obtain ⟨m, rest, rfl, hc⟩ := h.layers
  have hcount := h.count
  have hg := chain_good hc
  have hsm := hg.small
  unfold Net.make at hm
  obtain ⟨⟨ls, d1⟩, h1, hm⟩ := Res.bind_eq_ok.1 hm
  unfold LayerFactory.build at h1
  rw [if_neg (by simp at hcount ⊢; omega)] at h1
  simp only at h1
  rw [if_neg (by simp), computeNumberOfInputs_ok hg] at h1
  simp only [Res.ok_bind] at h1
  rw [if_neg (by omega)] at h1
  obtain ⟨_, _, hm⟩ := Res.bind_eq_ok.1 hm
  cases hm
  exact buildLayers_all hP hc h1

/-- What the constructor sets, the passes keep and saving keeps holds of every layer of every network a program can hold. -/
theorem Spec.Reach.all [FText F] {P : Body F → Prop} (k : KeptBody P) (hP : ∀ {opt : Sgd F} {m : LayerModel F} {s s' : List Nat} {d d' : Draws F} {l : Layer F},
    Fits m s s' → GoodShape s → buildLayer opt m (s.map (fun v : Nat => (v : Int))) d = .ok (l, d') → P l.body)
    (hf : ∀ l : Layer F, P l.body → P l.forget.body) {arch : List (LayerModel F)} {sh sh' : List Nat} (hw : WellFormed arch sh sh')
    {s : Snn F} (h : Reach arch s) : ∀ l ∈ s.net.layers, P l.body := by
  induction h with
  | make h =>
    unfold Snn.make at h
    obtain ⟨⟨net, d1⟩, h1, h⟩ := Res.bind_eq_ok.1 h
    obtain ⟨err, _, h⟩ := Res.bind_eq_ok.1 h
    split at h
    · cases h
    · cases h
      exact Net.make_layers (P := fun l => P l.body) hP hw h1
  | call _ h ih => exact k.kept.call ih h
  | stop _ ih => exact ih
  | copy hr h ih =>
    rw [Snn.copy_eq hr.set] at h
    cases h
    exact ih
  | load _ hf' h ih =>
    rename_i s t path files _
    simp only [loadFrom, hf'] at h
    obtain ⟨⟨t', a⟩, h1, h⟩ := Res.bind_eq_ok.1 h
    cases h
    rcases load_saved_or s with ⟨_, a', h2⟩ | ⟨_, m, h2⟩
    · rw [h2] at h1
      cases h1
      intro l hl
      obtain ⟨m, hm, rfl⟩ := List.mem_map.1 (show l ∈ s.net.layers.map Layer.forget from hl)
      exact hf m (ih m hm)
    · rw [h2] at h1; cases h1

/-- The previous output of every gated recurrent unit is 0. -/
theorem Spec.Reach.gruZero [FText F] {arch : List (LayerModel F)} {sh sh' : List Nat} (hw : WellFormed arch sh sh')
    {s : Snn F} (h : Reach arch s) : ∀ l ∈ s.net.layers, l.body.GruAll fun g => g.previousOutput = lit 0 := by
  refine h.all gruZero_kept ?_ ?_ hw
  · intro opt m s s' d d' l hf hs h
    have hi := buildLayer_is hf hs h
    cases hf with
    | @gru n opts _ hn =>
      rw [buildLayer_start hs] at h
      obtain ⟨hi, ns, hb, hl, hw, d1, ho⟩ := buildSimple_inv (P := fun x : Gru F => x.previousOutput = lit 0) (by
        intro d n hn
        unfold Gru.make at hn
        obtain ⟨r, h1, hn⟩ := Res.bind_eq_ok.1 hn
        obtain ⟨u, h2, hn⟩ := Res.bind_eq_ok.1 hn
        obtain ⟨o, h3, hn⟩ := Res.bind_eq_ok.1 hn
        cases hn
        rfl) h
      rw [hb]
      exact hw
    | fullyConnected => obtain ⟨_, _, ns, hb, _⟩ := hi; rw [hb]; trivial
    | recurrence => obtain ⟨_, _, ns, hb, _⟩ := hi; rw [hb]; trivial
    | convolution1 => obtain ⟨_, _, _, _, _, hb, _⟩ := hi; rw [hb]; trivial
    | convolution1D => obtain ⟨_, _, _, _, _, hb, _⟩ := hi; rw [hb]; trivial
    | convolution2D => obtain ⟨_, _, _, _, _, hb, _⟩ := hi; rw [hb]; trivial
    | locally1 => obtain ⟨_, _, _, _, _, hb, _⟩ := hi; rw [hb]; trivial
    | locally1D => obtain ⟨_, _, _, _, _, hb, _⟩ := hi; rw [hb]; trivial
    | locally2D => obtain ⟨_, _, _, _, _, hb, _⟩ := hi; rw [hb]; trivial
    | pool1 => obtain ⟨_, _, _, _, _, _, hb, _⟩ := hi; rw [hb]; trivial
    | pool1D => obtain ⟨_, _, _, _, _, _, hb, _⟩ := hi; rw [hb]; trivial
    | pool2D => obtain ⟨_, _, _, _, _, _, hb, _⟩ := hi; rw [hb]; trivial
  · intro l hl
    unfold Layer.forget
    split
    · rename_i ns e
      rw [e] at hl
      intro g hg
      obtain ⟨g0, hg0, rfl⟩ := List.mem_map.1 hg
      exact hl g0 hg0
    · exact hl

/-! ### Dropout -/

/-- A dropout keeps one minus its rate. -/
def Dropped (o : LayerOpt F) : Prop := match o with | .dropout v rv _ => rv = lit 1 - v | _ => True

theorem dropped_noMask {o : LayerOpt F} : Dropped (noMask o) ↔ Dropped o := by cases o <;> rfl

theorem Layer.Kin.dropped {l l' : Layer F} (k : l.Kin l') (h : ∀ o ∈ l.optimizers, Dropped o) : ∀ o ∈ l'.optimizers, Dropped o := by
  intro o ho
  have : noMask o ∈ l'.optimizers.map noMask := List.mem_map.2 ⟨o, ho, rfl⟩
  rw [k.opts] at this
  obtain ⟨o', h1, h2⟩ := List.mem_map.1 this
  exact dropped_noMask.1 (h2 ▸ dropped_noMask.2 (h o' h1))

theorem buildAll_dropped (k : Nat) : ∀ (opts : List (LayerOptModel F)) (d : Draws F), ∀ o ∈ (LayerOpt.buildAll k opts d).1, Dropped o
  | [], d => by simp [LayerOpt.buildAll]
  | m :: ms, d => by
    intro o ho
    unfold LayerOpt.buildAll at ho
    rcases List.mem_cons.1 ho with rfl | ho
    · cases m <;> simp [LayerOpt.build, Dropped]
    · exact buildAll_dropped k ms _ o ho

theorem buildLayer_dropped {opt : Sgd F} {m : LayerModel F} {s s' : List Nat} (hf : Fits m s s') (hs : GoodShape s) {d d' : Draws F} {l : Layer F}
    (h : buildLayer opt m (s.map (fun v : Nat => (v : Int))) d = .ok (l, d')) : ∀ o ∈ l.optimizers, Dropped o := by
  rw [buildLayer_start hs] at h
  cases hf with
  | @fullyConnected n act opts _ hn =>
    obtain ⟨hi, ns, hb, hl, hw, d1, ho⟩ := buildSimple_inv (P := fun n : Neuron F => True) (by simp) h
    rw [ho]; exact buildAll_dropped _ _ _
  | @recurrence n act opts _ hn =>
    obtain ⟨hi, ns, hb, hl, hw, d1, ho⟩ := buildSimple_inv (P := fun n : RecNeuron F => True) (by simp) h
    rw [ho]; exact buildAll_dropped _ _ _
  | @gru n opts _ hn =>
    obtain ⟨hi, ns, hb, hl, hw, d1, ho⟩ := buildSimple_inv (P := fun n : Gru F => True) (by simp) h
    rw [ho]; exact buildAll_dropped _ _ _
  | @convolution1 f k x act opts hf hk hx =>
    obtain ⟨_, ns, info, hb⟩ := buildConvolution1D_inv (shape := [(x : Int)]) (C := 1) rfl hf h
    obtain ⟨d1, ho⟩ := hb.optimizers
    rw [ho]; exact buildAll_dropped _ _ _
  | @convolution1D f k c x act opts hf hk hx =>
    obtain ⟨_, ns, info, hb⟩ := buildConvolution1D_inv (shape := [(c : Int), (x : Int)]) rfl hf h
    obtain ⟨d1, ho⟩ := hb.optimizers
    rw [ho]; exact buildAll_dropped _ _ _
  | @convolution2D f k c x y act opts hf hk hx hy =>
    obtain ⟨_, _, ns, info, hb⟩ := buildConvolution2D_inv hf h
    obtain ⟨d1, ho⟩ := hb.optimizers
    rw [ho]; exact buildAll_dropped _ _ _
  | @locally1 f k x act opts hf hk hx =>
    have e1 : ((([x] : List Nat).prod : Nat) : Int) = ((1 * x : Nat) : Int) := by simp
    rw [e1] at h
    obtain ⟨_, _, ns, info, hb⟩ := buildLocally1D_inv (shape := [(x : Int)]) (C := 1) rfl hf h
    obtain ⟨d1, ho⟩ := hb.optimizers
    rw [ho]; exact buildAll_dropped _ _ _
  | @locally1D f k c x act opts hf hk hx =>
    obtain ⟨_, _, ns, info, hb⟩ := buildLocally1D_inv (shape := [(c : Int), (x : Int)]) rfl hf h
    obtain ⟨d1, ho⟩ := hb.optimizers
    rw [ho]; exact buildAll_dropped _ _ _
  | @locally2D f k c x y act opts hf hk hx hy hxy =>
    obtain ⟨_, _, _, ns, info, hb⟩ := buildLocally2D_inv hf h
    obtain ⟨d1, ho⟩ := hb.optimizers
    rw [ho]; exact buildAll_dropped _ _ _
  | @pool1 k x hk hx =>
    obtain ⟨l', h1, h⟩ := Res.bind_eq_ok.1 h
    cases h
    obtain ⟨_, _, info, hb⟩ := buildPool1D_inv (shape := [(x : Int)]) (C := 1) rfl h1
    rw [hb.optimizers]; simp
  | @pool1D k x hk hx =>
    obtain ⟨l', h1, h⟩ := Res.bind_eq_ok.1 h
    cases h
    obtain ⟨_, _, info, hb⟩ := buildPool1D_inv (shape := [((1 : Nat) : Int), (x : Int)]) rfl h1
    rw [hb.optimizers]; simp
  | @pool2D k c x y hk hx hy hxy =>
    obtain ⟨l', h1, h⟩ := Res.bind_eq_ok.1 h
    cases h
    obtain ⟨_, _, _, info, hb⟩ := buildPool2D_inv h1
    rw [hb.optimizers]; simp

theorem kin_all_dropped {ls ls' : List (Layer F)} (k : List.Forall₂ Layer.Kin ls ls') (h : ∀ l ∈ ls, ∀ o ∈ l.optimizers, Dropped o) :
    ∀ l ∈ ls', ∀ o ∈ l.optimizers, Dropped o := by
  induction k with
  | nil => simp
  | cons h1 h2 ih =>
    intro l hl
    rcases List.mem_cons.1 hl with rfl | hl
    · exact h1.dropped (h _ (by simp))
    · exact ih (fun l hl => h l (by simp [hl])) l hl

/-- The dropouts of every network a program can hold. -/
theorem Spec.Reach.dropped [FText F] {arch : List (LayerModel F)} {sh sh' : List Nat} (hw : WellFormed arch sh sh')
    {s : Snn F} (h : Reach arch s) : ∀ l ∈ s.net.layers, ∀ o ∈ l.optimizers, Dropped o := by
  induction h with
  | make h =>
    unfold Snn.make at h
    obtain ⟨⟨net, d1⟩, h1, h⟩ := Res.bind_eq_ok.1 h
    obtain ⟨err, _, h⟩ := Res.bind_eq_ok.1 h
    split at h
    · cases h
    · cases h
      exact Net.make_layers (P := fun l => ∀ o ∈ l.optimizers, Dropped o) (fun hf hs h => buildLayer_dropped (F := F) hf hs h) hw h1
  | call _ h ih => exact kin_all_dropped (Call.run_kin h).layers ih
  | stop _ ih => exact ih
  | copy hr h ih =>
    rw [Snn.copy_eq hr.set] at h
    cases h
    exact ih
  | load _ hf' h ih =>
    rename_i s t path files _
    simp only [loadFrom, hf'] at h
    obtain ⟨⟨t', a⟩, h1, h⟩ := Res.bind_eq_ok.1 h
    cases h
    rcases load_saved_or s with ⟨_, a', h2⟩ | ⟨_, m, h2⟩
    · rw [h2] at h1
      cases h1
      intro l hl
      obtain ⟨m, hm, rfl⟩ := List.mem_map.1 (show l ∈ s.net.layers.map Layer.forget from hl)
      rw [Layer.forget_opts]
      exact ih m hm
    · rw [h2] at h1; cases h1

/-! ### Values -/

theorem Neuron.output_val {n n' : Neuron F} {x : List F} {o : F} (h : n.output x = .ok (o, n')) :
    (∃ s, o = n.activationFunction.obj.function s) ∧ n'.activationFunction = n.activationFunction := by
  unfold Neuron.output at h
  obtain ⟨_, _, h⟩ := Res.bind_eq_ok.1 h
  obtain ⟨_, _, h⟩ := Res.bind_eq_ok.1 h
  obtain ⟨_, _, h⟩ := Res.bind_eq_ok.1 h
  simp only [Act.apply_ok, Res.ok_bind] at h
  cases h
  exact ⟨⟨_, rfl⟩, rfl⟩

theorem RecNeuron.output_val {n n' : RecNeuron F} {x : List F} {t : Bool} {o : F} (h : n.output x t = .ok (o, n')) :
    ∃ s, o = n.base.activationFunction.obj.function s := by
  unfold RecNeuron.output at h
  have e : (if t then n.reset else n).base = n.base := by cases t <;> rfl
  simp only [e] at h
  obtain ⟨_, _, h⟩ := Res.bind_eq_ok.1 h
  obtain ⟨_, _, h⟩ := Res.bind_eq_ok.1 h
  obtain ⟨_, _, h⟩ := Res.bind_eq_ok.1 h
  obtain ⟨_, _, h⟩ := Res.bind_eq_ok.1 h
  simp only [Act.apply_ok, Res.ok_bind] at h
  cases h
  exact ⟨_, rfl⟩

theorem convOutputs_all {x : List F} {size : Nat} {act : Act} {Q : F → Prop} (hQ : ∀ s, Q (act.obj.function s)) : ∀ {rows : List (List Int)}
    {ns ns' : List (Neuron F)} {os : List F}, convOutputs x size rows ns = .ok (os, ns') → (∀ n ∈ ns, n.activationFunction = act) → ∀ o ∈ os, Q o
  | [], ns, ns', os, h, _ => by cases h; simp
  | row :: rows, ns, ns', os, h, hn => by
    unfold convOutputs at h
    obtain ⟨y, _, h⟩ := Res.bind_eq_ok.1 h
    obtain ⟨⟨o1, ns1⟩, h1, h⟩ := Res.bind_eq_ok.1 h
    obtain ⟨⟨o2, ns2⟩, h2, h⟩ := Res.bind_eq_ok.1 h
    cases h
    have hn1 := runNeurons_keep (Q := fun n : Neuron F => n.activationFunction = act)
      (fun hq hf => (Neuron.output_val hf).2.trans hq) h1 hn
    intro o ho
    rcases List.mem_append.1 ho with ho | ho
    · obtain ⟨n, hm, n', h3⟩ := (runNeurons_out h1).2 o ho
      obtain ⟨⟨s, rfl⟩, _⟩ := Neuron.output_val h3
      rw [hn n hm]
      exact hQ s
    · exact convOutputs_all hQ h2 hn1 o ho

theorem lcOutputs_all {x : List F} {size f : Nat} {act : Act} {Q : F → Prop} (hQ : ∀ s, Q (act.obj.function s)) : ∀ {rows : List (List Int)}
    {ns ns' : List (Neuron F)} {os : List F}, lcOutputs x size f rows ns = .ok (os, ns') → (∀ n ∈ ns, n.activationFunction = act) → ∀ o ∈ os, Q o
  | [], ns, ns', os, h, _ => by cases h; simp
  | row :: rows, ns, ns', os, h, hn => by
    unfold lcOutputs at h
    obtain ⟨y, _, h⟩ := Res.bind_eq_ok.1 h
    split at h
    · cases h
    obtain ⟨⟨o1, ns1⟩, h1, h⟩ := Res.bind_eq_ok.1 h
    obtain ⟨⟨o2, ns2⟩, h2, h⟩ := Res.bind_eq_ok.1 h
    cases h
    intro o ho
    rcases List.mem_append.1 ho with ho | ho
    · obtain ⟨n, hm, n', h3⟩ := (runNeurons_out h1).2 o ho
      obtain ⟨⟨s, rfl⟩, _⟩ := Neuron.output_val h3
      rw [hn n (List.mem_of_mem_take hm)]
      exact hQ s
    · exact lcOutputs_all hQ h2 (fun n hn' => hn n (List.mem_of_mem_drop hn')) o ho

theorem fillOutputs_all {k : Int} {os r : List F} {Q : F → Prop} (h : fillOutputs k os = .ok r) (h0 : Q (lit 0)) (hq : ∀ o ∈ os, Q o) : ∀ o ∈ r, Q o := by
  unfold fillOutputs at h
  split at h
  · cases h
  split at h
  · cases h
  cases h
  intro o ho
  rcases List.mem_append.1 ho with ho | ho
  · exact hq o ho
  · rw [List.eq_of_mem_replicate ho]; exact h0

theorem rd_mem {α : Type} {l : List α} {i : Int} {v : α} (h : rd l i = .ok v) : v ∈ l := by
  unfold rd at h
  split at h
  · split at h
    · cases h
      rename_i e
      exact List.mem_of_getElem? e
    · cases h
  · cases h

theorem poolOutputs_mem {x : List F} {size : Nat} : ∀ {rows : List (List Int)} {os : List F} {ms : List Int}, poolOutputs x size rows = .ok (os, ms) →
    ∀ o ∈ os, o ∈ x
  | [], os, ms, h => by cases h; simp
  | row :: rows, os, ms, h => by
    unfold poolOutputs at h
    obtain ⟨m, _, h⟩ := Res.bind_eq_ok.1 h
    obtain ⟨o, h1, h⟩ := Res.bind_eq_ok.1 h
    obtain ⟨⟨o2, m2⟩, h2, h⟩ := Res.bind_eq_ok.1 h
    cases h
    intro v hv
    rcases List.mem_cons.1 hv with rfl | hv
    · exact rd_mem h1
    · exact poolOutputs_mem h2 v hv

end

/-! ### Ranges -/

theorem promised_zero (a : Act) : Promised a 0 := by cases a <;> simp [Promised]

theorem promised_function (a : Act) (s : ℝ) : Promised a (a.obj.function s) := by
  by_cases hg : a = .gelu
  · subst hg; trivial
  have h := ActivationSpec.C44_range_partial a.obj (by cases a <;> simp_all [Act.obj]) s
  cases a <;> first | trivial | (simp only [ActivationSpec.InRange, Act.obj, ActObj.range, Promised] at h ⊢; simpa using h)

theorem promised_scale {a : Act} {v c : ℝ} (h : Promised a v) (h0 : 0 ≤ c) (h1 : c ≤ 1) : Promised a (v * c) := by
  cases a <;> simp only [Promised] at h ⊢
  · exact ⟨by nlinarith, by nlinarith⟩
  · exact ⟨by nlinarith, by nlinarith⟩
  · nlinarith
  · exact ⟨by nlinarith, by nlinarith⟩

theorem testingHooks_promised {a : Act} : ∀ {opts : List (LayerOpt ℝ)} {x y : List ℝ}, testingHooks opts x = .ok y →
    (∀ o ∈ opts, Tame (settingOf o)) → (∀ o ∈ opts, Dropped o) → (∀ v ∈ x, Promised a v) → ∀ v ∈ y, Promised a v
  | [], x, y, h, _, _, hx => by cases h; exact hx
  | o :: os, x, y, h, ht, hd, hx => by
    unfold testingHooks at h
    obtain ⟨z, h1, h⟩ := Res.bind_eq_ok.1 h
    refine testingHooks_promised h (fun o ho => ht o (by simp [ho])) (fun o ho => hd o (by simp [ho])) ?_
    have h0 := ht o (by simp)
    have h2 := hd o (by simp)
    cases o <;> simp only [LayerOpt.afterOutputForTesting, settingOf, Tame, Dropped] at h1 h0 h2
    · cases h1
      intro v hv
      obtain ⟨w, hw, rfl⟩ := List.mem_map.1 hv
      subst h2
      simp only [lit_eq] at *
      push_cast
      exact promised_scale (hx w hw) (by linarith) (by linarith)
    all_goals (cases h1; exact hx)

end Snn
