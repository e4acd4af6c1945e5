import Verif.Proofs.PerfectProofs
import Verif.Spec.PerfectSpec
import Verif.Props.AccuracyProps
import Verif.Props.StructProps

/-! C84: a training step on an example the network answers perfectly. -/

set_option linter.all false

namespace Snn.PerfectProps

open Snn Spec Perfect HistoryProps
open SafeProps AccuracyProps

section
variable {F : Type} [Field F] [LinearOrder F] [IsStrictOrderedRing F] [FTrans F]

theorem settings_of {opt : Sgd F} {m : LayerModel F} {s : List Nat} {l : Layer F} (h : LayerIs opt m s l) : l.optimizers.map settingOf = optimizersOf m := by
  obtain ⟨_, h⟩ := h
  cases m with
  | input => exact h.elim
  | maxPooling k => obtain ⟨h, _⟩ := h; rw [h]; rfl
  | fullyConnected => exact h.1
  | recurrence => exact h.1
  | gru => exact h.1
  | locallyConnected => exact h.1
  | convolution => exact h.1

theorem opts_all {P : LayerOpt F → Prop} {Q : LayerOptModel F → Prop} (hPQ : ∀ o, Q (settingOf o) → P o) {opt : Sgd F} {ms : List (LayerModel F)} {s : List Nat} {ls : List (Layer F)}
    (h : NetIs opt ms s ls) : (∀ m ∈ ms, ∀ o ∈ optimizersOf m, Q o) → ∀ l ∈ ls, ∀ o ∈ l.optimizers, P o := by
  induction h with
  | nil => simp
  | @cons m ms s s' l ls hm hl hsh hs ih =>
    intro hq l' hl' o ho
    rcases List.mem_cons.1 hl' with rfl | hl'
    · refine hPQ o (hq m (by simp) _ ?_)
      rw [← settings_of hl]
      exact List.mem_map.2 ⟨o, ho, rfl⟩
    · exact ih (fun m h => hq m (by simp [h])) l' hl' o ho

theorem unregular_all {opt : Sgd F} {arch : List (LayerModel F)} {s : List Nat} {ls : List (Layer F)}
    (h : NetIs opt arch.tail s ls) (hr : NotRegularized arch) : ∀ l ∈ ls, ∀ o ∈ l.optimizers, Unregular o := by
  refine opts_all (Q := fun o => (∀ v, o ≠ .l1 v) ∧ ∀ v, o ≠ .l2 v) ?_ h (fun m hm => hr m (List.mem_of_mem_tail hm))
  intro o ho
  cases o with
  | l1 v => exact ho.1 v rfl
  | l2 v => exact ho.2 v rfl
  | _ => trivial

theorem idle_body {b : Body F} {ni no : Nat} (h : b.WF ni no) (hp : 0 < no) {o : Sgd F} (ho : b.HasOpt o) (hm : o.momentum = 0)
    (hn : ∀ l : Layer F, l.body = b → NonRecurrent l) : IdleBody b := by
  have key : ∀ {n : Neuron F} {ni k : Nat}, n.WF ni (ni + 1) k → n.optimizer = o → Idle n := by
    intro n ni k hn ho
    exact ⟨by rw [hn.wlen, hn.inputs]; simp, by rw [ho, hm]⟩
  cases b with
  | fullyConnected ns => exact fun n hn => key (h.1 n hn) (ho n hn)
  | recurrence ns => exact (hn ⟨0, [], .recurrence ns⟩ rfl).elim
  | gru ns => exact (hn ⟨0, [], .gru ns⟩ rfl).elim
  | filter kind ns info =>
    cases kind with
    | conv1D => exact ⟨fun n hn => key (ConvWF.neurons h n hn) (ho n hn), List.length_pos_iff.1 (ConvWF.pos h)⟩
    | conv2D => exact ⟨fun n hn => key (ConvWF.neurons h n hn) (ho n hn), List.length_pos_iff.1 (ConvWF.pos h)⟩
    | lc1D =>
      refine ⟨fun n hn => key (LcWF.neurons h n hn) (ho n hn), ?_⟩
      intro e
      have h1 := LcWF.count h
      have h2 := LcWF.out h
      rw [e] at h1
      simp at h1
      rw [h1] at h2
      simp at h2
      omega
    | lc2D =>
      refine ⟨fun n hn => key (LcWF.neurons h n hn) (ho n hn), ?_⟩
      intro e
      have h1 := LcWF.count h
      have h2 := LcWF.out h
      rw [e] at h1
      simp at h1
      rw [h1] at h2
      simp at h2
      omega
  | pool => trivial

theorem layers_wf {ls : List (Layer F)} {ni no : Nat} (h : LayersWF ls ni no) : ∀ l ∈ ls, ∃ a b, l.WF a b := by
  induction h with
  | nil => simp
  | cons hl _ ih =>
    intro l h
    rcases List.mem_cons.1 h with rfl | h
    · exact ⟨_, _, hl⟩
    · exact ih l h

theorem kin_idle {l l' : Layer F} (k : l.Kin l') (hn : NonRecurrent l) : NonRecurrent l' := by
  have := k.body
  unfold NonRecurrent at *
  revert this hn
  cases l.body <;> cases l'.body <;> simp [Body.Kin]

theorem unregular_noMask {o : LayerOpt F} : Unregular (noMask o) ↔ Unregular o := by cases o <;> rfl

theorem kin_unregular {l l' : Layer F} (k : l.Kin l') (h : ∀ o ∈ l.optimizers, Unregular o) : ∀ o ∈ l'.optimizers, Unregular o := by
  intro o ho
  have e := k.opts
  have : noMask o ∈ l'.optimizers.map noMask := List.mem_map.2 ⟨o, ho, rfl⟩
  rw [e] at this
  obtain ⟨p, hp, e2⟩ := List.mem_map.1 this
  rw [← unregular_noMask, ← e2, unregular_noMask]
  exact h p hp

theorem off_len {ls ls' ms : List (Layer F)} (h : ls'.map (fun l => l.body.weights) = ms.map (fun l => l.body.weights))
    (k : List.Forall₂ (fun l l' => OffWeights l.body.weights l'.body.weights) ls' ls) :
    List.Forall₂ (fun l l' => OffWeights l.body.weights l'.body.weights) ms ls := by
  induction k generalizing ms with
  | nil => cases ms with
    | nil => exact .nil
    | cons => simp at h
  | cons h1 _ ih => cases ms with
    | nil => simp at h
    | cons m ms =>
      simp only [List.map_cons, List.cons.injEq] at h
      exact .cons (by rw [← h.1]; exact h1) (ih h.2)

/-- The step of a well formed net of idle layers. -/
theorem step_off {n : Net F} {ni no : Nat} (hn : n.WF ni no) (hnan : n.outputNan = false) {o : Sgd F} (hm : o.momentum = 0)
    (ho : ∀ l ∈ n.layers, l.body.HasOpt o) (hr : ∀ l ∈ n.layers, NonRecurrent l) (hu : ∀ l ∈ n.layers, ∀ p ∈ l.optimizers, Unregular p)
    (x : List F) (hx : x.length = ni) (t : Bool) (d : Draws F) : ∃ y n1 d1 n', n.outputForTraining x t d = .ok (y, n1, d1) ∧ n.trainOnce x y t d = .ok (n', d1) ∧
      List.Forall₂ (fun l l' => OffWeights l.body.weights l'.body.weights) n.layers n'.layers := by
  obtain ⟨y, n1, d1, h1, h2, h3, _⟩ := Net.outputForTraining_ok hn x hx t d
  obtain ⟨n', d2, h4, _⟩ := Net.trainOnce_ok hn x y hx h2 t d
  have k1 := Net.outputForTraining_toKin h1
  have h5 := h4
  unfold Net.trainOnce Net.backpropagation at h5
  rw [h1] at h5
  simp only [Res.ok_bind] at h5
  have hf : n1.outputNan = false := by
    unfold Net.outputForTraining at h1
    split at h1
    · cases h1
    · obtain ⟨⟨_, _, _⟩, _, h1⟩ := Res.bind_eq_ok.1 h1
      cases h1
      simp [hnan, hasBadValue, isNormalOrZero]
  rw [hf] at h5
  simp only [Bool.false_eq_true, if_false] at h5
  obtain ⟨⟨n2, d3⟩, h5, h6⟩ := Res.bind_eq_ok.1 h5
  obtain ⟨es, h7, h5⟩ := Res.bind_eq_ok.1 h5
  obtain ⟨ls, h8, h5⟩ := Res.bind_eq_ok.1 h5
  cases h5
  cases h6
  refine ⟨y, n1, d1, _, h1, h4, ?_⟩
  have hz : Zeros es := by
    unfold Net.calculateError at h7
    obtain ⟨l, _, h7⟩ := Res.bind_eq_ok.1 h7
    exact errorsLoop_same h7
  have hw := layers_wf h3.layers
  have a1 : ∀ l ∈ n1.layers, l.body.HasOpt o := forall₂_forall k1.layers ho fun a b hk ha => hk.body.hasOpt ha
  have a2 : ∀ l ∈ n1.layers, NonRecurrent l := forall₂_forall k1.layers hr fun a b hk ha => kin_idle hk ha
  have a3 : ∀ l ∈ n1.layers, ∀ p ∈ l.optimizers, Unregular p := forall₂_forall k1.layers hu fun a b hk ha => kin_unregular hk ha
  have hidle : ∀ l ∈ n1.layers, IdleLayer l := by
    intro l hl
    obtain ⟨a, b, w⟩ := hw l hl
    refine ⟨idle_body w.body w.pos (a1 l hl) hm (fun l' e => ?_), a3 l hl⟩
    have := a2 l hl
    unfold NonRecurrent at this ⊢
    rw [e]; exact this
  refine off_len ?_ (backwardPass_zero h8 hidle hz)
  unfold Net.outputForTraining at h1
  split at h1
  · cases h1
  · obtain ⟨⟨_, _, _⟩, h9, h1⟩ := Res.bind_eq_ok.1 h1
    cases h1
    exact trainingLoop_weights h9

/-- Without dropout the answers are the same in training and in testing. -/
theorem trainingHooks_plain (t : Bool) : ∀ {os : List (LayerOpt F)} {x : List F} (d : Draws F), (∀ o ∈ os, ∀ a b c, o ≠ .dropout a b c) → ∀ {y}, testingHooks os x = .ok y →
    trainingHooks t os x d = .ok (y, os, d)
  | [], x, d, _, y, h => by cases h; rfl
  | o :: os, x, d, ho, y, h => by
    unfold testingHooks at h
    obtain ⟨y1, h1, h⟩ := Res.bind_eq_ok.1 h
    have ih := trainingHooks_plain t (os := os) (x := y1) d (fun o h => ho o (by simp [h])) h
    unfold trainingHooks
    cases o with
    | dropout a b c => exact absurd rfl (ho _ (by simp) a b c)
    | softmax =>
      simp only [LayerOpt.afterOutputForTesting] at h1
      simp only [LayerOpt.afterOutputForTraining, h1, Res.ok_bind]
      rw [show (pure (y1, LayerOpt.softmax, d) : Res _) = .ok (y1, .softmax, d) from rfl, Res.ok_bind]
      simp only [ih, Res.ok_bind]
      rfl
    | l1 v => cases h1; simp only [LayerOpt.afterOutputForTraining, Res.ok_bind, ih]; rfl
    | l2 v => cases h1; simp only [LayerOpt.afterOutputForTraining, Res.ok_bind, ih]; rfl
    | errorMultiplier v => cases h1; simp only [LayerOpt.afterOutputForTraining, Res.ok_bind, ih]; rfl

theorem trainingLoop_plain (t : Bool) : ∀ {ls ls' : List (Layer F)} {x y : List F} (d : Draws F), (∀ l ∈ ls, ∀ o ∈ l.optimizers, ∀ a b c, o ≠ .dropout a b c) →
    outputLoop t ls x = .ok (y, ls') → trainingLoop t ls x d = .ok (y, ls', d)
  | [], ls', x, y, d, _, h => by cases h; rfl
  | l :: ls, ls', x, y, d, hl, h => by
    unfold outputLoop at h
    obtain ⟨⟨y1, l1⟩, h1, h⟩ := Res.bind_eq_ok.1 h
    obtain ⟨⟨y2, ls1⟩, h2, h⟩ := Res.bind_eq_ok.1 h
    cases h
    unfold Layer.output at h1
    obtain ⟨⟨a, b⟩, h3, h1⟩ := Res.bind_eq_ok.1 h1
    obtain ⟨a', h4, h1⟩ := Res.bind_eq_ok.1 h1
    cases h1
    unfold trainingLoop Layer.outputForTraining
    simp only [h3, Res.ok_bind, trainingHooks_plain t d (hl l (by simp)) h4]
    rw [show (pure (y1, ({ l with body := b, optimizers := l.optimizers } : Layer F), d) : Res _) = .ok (y1, { l with body := b }, d) from rfl, Res.ok_bind]
    simp only [trainingLoop_plain t d (fun l h => hl l (by simp [h])) h2, Res.ok_bind]
    rfl

theorem training_plain {n n' : Net F} {x y : List F} {t : Bool} (d : Draws F) (hl : ∀ l ∈ n.layers, ∀ o ∈ l.optimizers, ∀ a b c, o ≠ .dropout a b c)
    (h : n.output x t = .ok (y, n')) : n.outputForTraining x t d = .ok (y, n', d) := by
  unfold Net.output at h
  unfold Net.outputForTraining
  split at h
  · cases h
  · rename_i he
    obtain ⟨⟨a, b⟩, h1, h⟩ := Res.bind_eq_ok.1 h
    cases h
    rw [if_neg he]
    simp only [trainingLoop_plain t d hl h1, Res.ok_bind]
    rfl

/-- All facts of C84 for the network after any history. -/
theorem history_off {arch : List (LayerModel F)} {s s' : List Nat} (h : WellFormed arch s s') (he : EndsWithNeurons arch) (hf : Feedforward arch)
    (hreg : NotRegularized arch) {opt : Sgd F} (hm0 : opt.momentum = 0) {d d' : Draws F} {snn : Snn F} (hm : Snn.make arch opt d = .ok (snn, d'))
    (calls : List (Call F)) (hc : ∀ c ∈ calls, CallFits s.prod s'.prod c) (r r' : Run F) (hr : r.snn = snn) (hrun : calls.foldlM Call.run r = .ok r')
    (x : List F) (hx : x.length = s.prod) (t : Bool) (d0 : Draws F) : ∃ y n1 d1 n', r'.snn.net.outputForTraining x t d0 = .ok (y, n1, d1) ∧
      r'.snn.net.trainOnce x y t d0 = .ok (n', d1) ∧
      List.Forall₂ (fun l l' => OffWeights l.body.weights l'.body.weights) r'.snn.net.layers n'.layers := by
  obtain ⟨hn, hi⟩ := make_safe h he hm
  obtain ⟨hpl, _⟩ := make_plainNet h hf hm
  rw [← hr] at hn hi hpl
  have hnan : r'.snn.net.outputNan = false := history_finite hm hr hrun
  obtain ⟨hn', _⟩ := history_safe hc hn hi hrun
  have hpl' := plain_kept.history hpl hrun
  have hk := history_kin hrun
  have hmk : ∃ net, Net.make arch opt d = .ok (net, d') ∧ snn.net = net := by
    unfold Snn.make at hm
    obtain ⟨⟨net, d1⟩, h1, hm⟩ := Res.bind_eq_ok.1 hm
    obtain ⟨err, _, hm⟩ := Res.bind_eq_ok.1 hm
    split at hm
    · cases hm
    · cases hm; exact ⟨_, h1, rfl⟩
  obtain ⟨net, hmk, e⟩ := hmk
  have h1 := (Net.make_set hmk).2.1
  have h2 := (Net.make_is h hmk).2
  rw [← e, ← hr] at h1 h2
  have h3 := unregular_all h2 hreg
  exact step_off hn'.wf hnan hm0 (forall₂_forall hk.layers h1 fun a b hk ha => hk.body.hasOpt ha) hpl'.2
    (forall₂_forall hk.layers h3 fun a b hk ha => kin_unregular hk ha) x hx t d0

/-- **C84, proved part.** Make a network from any well formed feedforward architecture that ends with neurons, without L1, L2 and momentum, and use it
in any way. Then a training step on an example whose expected outputs are exactly the outputs the step computes returns, and leaves every weight of
every neuron as it was, except the weight of the bias. Missing: the weight of the bias, see `C84_bias_refuted`. -/
theorem C84_perfect_partial {arch : List (LayerModel F)} {s s' : List Nat} (h : WellFormed arch s s') (he : EndsWithNeurons arch) (hf : Feedforward arch)
    (hreg : NotRegularized arch) {opt : Sgd F} (hm0 : opt.momentum = 0) {d d' : Draws F} {snn : Snn F} (hm : Snn.make arch opt d = .ok (snn, d'))
    (calls : List (Call F)) (hc : ∀ c ∈ calls, CallFits s.prod s'.prod c) (r r' : Run F) (hr : r.snn = snn) (hrun : calls.foldlM Call.run r = .ok r')
    (x : List F) (hx : x.length = s.prod) (t : Bool) (d0 : Draws F) : ∃ y n1 d1 n', r'.snn.net.outputForTraining x t d0 = .ok (y, n1, d1) ∧
      r'.snn.net.trainOnce x y t d0 = .ok (n', d1) ∧
      List.Forall₂ (fun l l' => List.Forall₂ (fun w w' => w'.length = w.length ∧ w'.dropLast = w.dropLast) l.body.weights l'.body.weights)
        r'.snn.net.layers n'.layers := by
  obtain ⟨y, n1, d1, n', h1, h2, h3⟩ := history_off h he hf hreg hm0 hm calls hc r r' hr hrun x hx t d0
  refine ⟨y, n1, d1, n', h1, h2, ?_⟩
  have k := Net.trainOnce_toKin h2
  have hb : List.Forall₂ (fun l l' : Layer F => l.body.Kin l'.body) r'.snn.net.layers n'.layers := k.layers.imp fun a b h => h.body
  have hlen : ∀ {b b' : Body F}, b.Kin b' → OffWeights b.weights b'.weights → b'.weights.map List.length = b.weights.map List.length := by
    intro b b' hk ho
    cases b <;> cases b' <;> simp only [Body.Kin] at hk <;> simp only [Body.weights]
    · clear ho; induction hk with
      | nil => rfl
      | cons h1 _ ih => simp only [List.map_cons, Neuron.getWeights, h1.weights] at ih ⊢; rw [ih]
    · clear ho; induction hk with
      | nil => rfl
      | cons h1 _ ih =>
        simp only [List.map_cons, Neuron.getWeights] at ih ⊢; rw [ih, Neuron.Kin.weights h1]
    · clear ho; induction hk with
      | nil => rfl
      | cons h1 _ ih =>
        simp only [List.map_cons, Gru.getWeights, List.length_append] at ih ⊢
        rw [ih, Neuron.Kin.weights h1.r, Neuron.Kin.weights h1.u, Neuron.Kin.weights h1.o]
    · clear ho
      obtain ⟨_, hk, _⟩ := hk
      induction hk with
      | nil => rfl
      | cons h1 _ ih => simp only [List.map_cons, Neuron.getWeights, h1.weights] at ih ⊢; rw [ih]
  have fin : ∀ {ws ws' : List (List F)}, OffWeights ws ws' → ws'.map List.length = ws.map List.length →
      List.Forall₂ (fun w w' => w'.length = w.length ∧ w'.dropLast = w.dropLast) ws ws' := by
    intro ws ws' ho
    induction ho with
    | nil => intro _; exact .nil
    | cons h1 _ ih =>
      intro e
      simp only [List.map_cons, List.cons.injEq] at e
      exact .cons ⟨e.1, by rw [h1]; simp⟩ (ih e.2)
  clear h1 h2 k
  generalize r'.snn.net.layers = ls, n'.layers = ls' at h3 hb
  induction h3 with
  | nil => exact .nil
  | cons h1 _ ih =>
    cases hb with
    | cons hb1 hb2 => exact .cons (fin h1 (hlen hb1 h1)) (ih hb2)

/-- **C84 for the answers of the network**: without dropout the outputs the step computes are the answer of the network. -/
theorem C84_answer_partial {arch : List (LayerModel F)} {s s' : List Nat} (h : WellFormed arch s s') (he : EndsWithNeurons arch) (hf : Feedforward arch)
    (hreg : NotRegularized arch) (hdrop : NoDropout arch) {opt : Sgd F} (hm0 : opt.momentum = 0) {d d' : Draws F} {snn : Snn F} (hm : Snn.make arch opt d = .ok (snn, d'))
    (calls : List (Call F)) (hc : ∀ c ∈ calls, CallFits s.prod s'.prod c) (r r' : Run F) (hr : r.snn = snn) (hrun : calls.foldlM Call.run r = .ok r')
    (x : List F) (hx : x.length = s.prod) (t : Bool) (d0 : Draws F) : ∃ y n1 n', r'.snn.net.output x t = .ok (y, n1) ∧
      r'.snn.net.trainOnce x y t d0 = .ok (n', d0) ∧
      List.Forall₂ (fun l l' => List.Forall₂ (fun w w' => w'.length = w.length ∧ w'.dropLast = w.dropLast) l.body.weights l'.body.weights)
        r'.snn.net.layers n'.layers := by
  obtain ⟨y, n1, d1, n', h1, h2, h3⟩ := C84_perfect_partial h he hf hreg hm0 hm calls hc r r' hr hrun x hx t d0
  obtain ⟨hn, hi⟩ := make_safe h he hm
  rw [← hr] at hn hi
  obtain ⟨hn', _⟩ := history_safe hc hn hi hrun
  obtain ⟨y', n2, h4, _⟩ := Net.output_ok hn'.wf x hx t
  have hmk : ∃ net, Net.make arch opt d = .ok (net, d') ∧ snn.net = net := by
    unfold Snn.make at hm
    obtain ⟨⟨net, d1⟩, h1, hm⟩ := Res.bind_eq_ok.1 hm
    obtain ⟨err, _, hm⟩ := Res.bind_eq_ok.1 hm
    split at hm
    · cases hm
    · cases hm; exact ⟨_, h1, rfl⟩
  obtain ⟨net, hmk, e⟩ := hmk
  have h5 := (Net.make_is h hmk).2
  rw [← e, ← hr] at h5
  have h6 := h5.kin (history_kin hrun).layers
  have h7 : ∀ l ∈ r'.snn.net.layers, ∀ o ∈ l.optimizers, ∀ a b c, o ≠ .dropout a b c := by
    refine opts_all (Q := fun o => ∀ v, o ≠ .dropout v) ?_ h6 (fun m hm => hdrop m (List.mem_of_mem_tail hm))
    intro o ho a b c e
    rw [e] at ho
    exact ho a rfl
  have h8 := training_plain d0 h7 h4
  rw [h8] at h1
  cases h1
  exact ⟨y, _, n', h4, h2, h3⟩

/-- **C84, refutation, every case.** Under the same conditions the step sets the weight of the bias of every neuron to 0. -/
theorem C84_bias_refuted {arch : List (LayerModel F)} {s s' : List Nat} (h : WellFormed arch s s') (he : EndsWithNeurons arch) (hf : Feedforward arch)
    (hreg : NotRegularized arch) {opt : Sgd F} (hm0 : opt.momentum = 0) {d d' : Draws F} {snn : Snn F} (hm : Snn.make arch opt d = .ok (snn, d'))
    (calls : List (Call F)) (hc : ∀ c ∈ calls, CallFits s.prod s'.prod c) (r r' : Run F) (hr : r.snn = snn) (hrun : calls.foldlM Call.run r = .ok r')
    (x : List F) (hx : x.length = s.prod) (t : Bool) (d0 : Draws F) : ∃ y n1 d1 n', r'.snn.net.outputForTraining x t d0 = .ok (y, n1, d1) ∧
      r'.snn.net.trainOnce x y t d0 = .ok (n', d1) ∧ ∀ l ∈ n'.layers, ∀ w ∈ l.body.weights, w.getLast? = some 0 := by
  obtain ⟨y, n1, d1, n', h1, h2, h3⟩ := history_off h he hf hreg hm0 hm calls hc r r' hr hrun x hx t d0
  refine ⟨y, n1, d1, n', h1, h2, ?_⟩
  intro l hl w hw
  obtain ⟨l0, _, ho⟩ := forall₂_mem_right h3 l hl
  obtain ⟨w0, _, e⟩ := forall₂_mem_right ho w hw
  rw [e]; simp

end

/-! ### The hypotheses are met -/

/-- One linear neuron with one input. -/
def line : List (LayerModel ℚ) := [.input [1], .fullyConnected 1 .identity []]

/-- No momentum. -/
def plainSgd : Sgd ℚ := { learningRate := 1/10, momentum := 0 }

/-- The network. -/
def lineNet : Snn ℚ := (Snn.make line plainSgd (fun i => if i = 0 then 3/4 else 7/8) |>.get (by decide +kernel)).1

/-- **C84, refutation.** A network, an input and its answer: after a training step on exactly this input and answer the network
gives another answer. -/
theorem C84_unlearn_refuted : ∃ (y : List ℚ) (n1 n' n2 : Net ℚ) (d' : Draws ℚ) (y' : List ℚ), lineNet.net.output [1] true = .ok (y, n1) ∧
    lineNet.net.trainOnce [1] y true Demo.draws = .ok (n', d') ∧ n'.output [1] true = .ok (y', n2) ∧ y' ≠ y :=
  ⟨_, _, _, _, _, _, Res.eq_get _ (by decide +kernel), Res.eq_get _ (by decide +kernel), Res.eq_get _ (by decide +kernel), by decide +kernel⟩

theorem line_wellFormed : WellFormed line [1] [1] where
  layers := by
    refine ⟨_, _, rfl, ?_⟩
    refine .cons ⟨by simp, by simp, by simp⟩ (.fullyConnected (n := 1) (by norm_num)) ?_
    exact .nil ⟨by simp, by simp, by simp⟩
  count := by simp [line]

theorem line_plain : NotRegularized line ∧ NoDropout line ∧ Feedforward line := by
  refine ⟨?_, ?_, ?_⟩ <;> intro m hm <;> simp [line] at hm <;> rcases hm with rfl | rfl <;> simp [optimizersOf]

theorem line_make : Snn.make line plainSgd (fun i => if i = 0 then 3/4 else 7/8) =
    .ok (lineNet, (Snn.make line plainSgd (fun i => if i = 0 then 3/4 else 7/8) |>.get (by decide +kernel)).2) :=
  Res.eq_get _ (by decide +kernel)

/-- C84 of the network of one neuron: its two weights, of which the second is the one of the bias. -/
example (r : Run ℚ) (hr : r.snn = lineNet) (t : Bool) (d0 : Draws ℚ) : ∃ y n1 n', lineNet.net.output [1] t = .ok (y, n1) ∧
    lineNet.net.trainOnce [1] y t d0 = .ok (n', d0) ∧
    List.Forall₂ (fun l l' => List.Forall₂ (fun w w' => w'.length = w.length ∧ w'.dropLast = w.dropLast) l.body.weights l'.body.weights)
      lineNet.net.layers n'.layers := by
  have := C84_answer_partial line_wellFormed trivial line_plain.2.2 line_plain.1 line_plain.2.1 (opt := plainSgd) rfl line_make [] (by simp) r r hr rfl [1] (by rfl) t d0
  rw [hr] at this
  exact this

example : lineNet.net.layers.map (fun l => l.body.weights.map List.length) = [[2]] := by decide +kernel

end Snn.PerfectProps
