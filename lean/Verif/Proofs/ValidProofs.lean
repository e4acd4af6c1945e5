import Verif.Spec.ValidSpec
import Verif.Proofs.ReachProofs

/-! `isValid` reports the rules. -/

set_option linter.all false

namespace Snn.Valid

open Spec

theorem reports_nil : Reports [] 0 := Or.inl ⟨rfl, by simp⟩

theorem reports_cons {r : Rule} {rs : List Rule} {c : Int} (h : r.holds) (k : Reports rs c) : Reports (r :: rs) c := by
  rcases k with ⟨h0, k⟩ | ⟨b, q, a, rfl, h1, h2, h3⟩
  · exact Or.inl ⟨h0, by simpa [h] using k⟩
  · exact Or.inr ⟨r :: b, q, a, rfl, by simpa [h] using h1, h2, h3⟩

theorem reports_head {r : Rule} {rs : List Rule} (h : ¬ r.holds) : Reports (r :: rs) r.code :=
  Or.inr ⟨[], r, rs, rfl, by simp, h, rfl⟩

theorem reports_append {as bs : List Rule} {c : Int} (h : ∀ r ∈ as, r.holds) (k : Reports bs c) : Reports (as ++ bs) c := by
  induction as with
  | nil => exact k
  | cons a as ih => exact reports_cons (h a (by simp)) (ih fun r hr => h r (by simp [hr]))

theorem reports_left {as bs : List Rule} {c : Int} (h : Reports as c) (hc : c ≠ 0) : Reports (as ++ bs) c := by
  rcases h with ⟨h0, _⟩ | ⟨b, q, a, rfl, h1, h2, h3⟩
  · exact absurd h0 hc
  · exact Or.inr ⟨b, q, a ++ bs, by simp, h1, h2, h3⟩

/-- No rule has the code 0. -/
def Coded (rules : List Rule) : Prop := ∀ r ∈ rules, r.code ≠ 0

theorem reports_zero {rs : List Rule} (hc : Coded rs) (h : Reports rs 0) : ∀ r ∈ rs, r.holds := by
  rcases h with ⟨_, k⟩ | ⟨b, q, a, rfl, h1, h2, h3⟩
  · exact k
  · exact absurd h3.symm (hc q (by simp))

theorem Coded.append {as bs : List Rule} (h : Coded as) (k : Coded bs) : Coded (as ++ bs) := by
  intro r hr
  rcases List.mem_append.1 hr with hr | hr
  · exact h r hr
  · exact k r hr

theorem Coded.flatMap {α : Type} {f : α → List Rule} {l : List α} (h : ∀ a ∈ l, Coded (f a)) : Coded (l.flatMap f) := by
  intro r hr
  obtain ⟨a, ha, hr⟩ := List.mem_flatMap.1 hr
  exact h a ha r hr

/-- A sequence of two checks. -/
theorem reports_then {as bs : List Rule} {c d : Int} (hc : Coded as) (h : Reports as c) (k : c = 0 → Reports bs d) :
    Reports (as ++ bs) (if c ≠ 0 then c else d) := by
  by_cases e : c = 0
  · rw [if_neg (by simpa using e)]
    subst e
    exact reports_append (reports_zero hc h) (k rfl)
  · rw [if_pos e]
    exact reports_left h e

theorem reports_ite {p : Prop} [Decidable p] {r : Rule} {rs : List Rule} {c : Int} (hp : p ↔ ¬ r.holds) (k : Reports rs c) :
    Reports (r :: rs) (if p then r.code else c) := by
  by_cases e : p
  · rw [if_pos e]; exact reports_head (hp.1 e)
  · rw [if_neg e]; exact reports_cons (by by_contra h; exact e (hp.2 h)) k

section
variable {F : Type} [Field F] [LinearOrder F] [IsStrictOrderedRing F] [FTrans F]

theorem coded_neuron (n : Neuron F) : Coded (neuronRules n) := by
  intro r hr; simp only [neuronRules, List.mem_cons, List.not_mem_nil, or_false] at hr
  rcases hr with rfl | rfl | rfl <;> norm_num

theorem coded_rec (n : RecNeuron F) : Coded (recurrentRules n) := by
  intro r hr
  rcases List.mem_cons.1 hr with rfl | hr
  · norm_num
  · exact coded_neuron _ r hr

theorem coded_gru (n : Gru F) : Coded (gruRules n) := ((coded_rec _).append (coded_rec _)).append (coded_rec _)

theorem neuron_reports (n : Neuron F) : Reports (neuronRules n) n.isValid := by
  unfold Neuron.isValid neuronRules
  refine reports_ite (r := ⟨_, 301⟩) ?_ (reports_ite (r := ⟨_, 302⟩) ?_ (reports_ite (r := ⟨_, 303⟩) ?_ reports_nil))
  · simp [lit]
    constructor
    · rintro (h | h) h2
      · exact absurd h2 (not_le.2 h)
      · exact h
    · intro h
      by_cases h2 : -100000 ≤ n.bias
      · exact Or.inr (h h2)
      · exact Or.inl (not_le.1 h2)
  · simp only [Bool.or_eq_true, List.isEmpty_iff, decide_eq_true_eq, not_and_or, not_le]
    cases n.weights with
    | nil => simp
    | cons a l => simp
  · simp [lit]
    constructor
    · rintro ⟨w, hw, h | h⟩
      · exact ⟨w, hw, fun h2 => absurd h2 (not_le.2 h)⟩
      · exact ⟨w, hw, fun _ => h⟩
    · rintro ⟨w, hw, h⟩
      by_cases h2 : -100000 ≤ w
      · exact ⟨w, hw, Or.inr (h h2)⟩
      · exact ⟨w, hw, Or.inl (not_le.1 h2)⟩

theorem rec_reports (n : RecNeuron F) : Reports (recurrentRules n) n.isValid := by
  unfold RecNeuron.isValid recurrentRules
  exact reports_ite (r := ⟨_, 304⟩) Iff.rfl (neuron_reports _)

theorem gru_reports (g : Gru F) : Reports (gruRules g) g.isValid := by
  unfold Gru.isValid gruRules
  rw [List.append_assoc]
  refine reports_then (coded_rec _) (rec_reports _) fun _ => ?_
  exact reports_then (coded_rec _) (rec_reports _) fun _ => rec_reports _

theorem firstError_reports {N : Type} {rules : N → List Rule} {code : N → Int} (hc : ∀ n, Coded (rules n)) (h : ∀ n, Reports (rules n) (code n)) :
    ∀ ns : List N, Reports (ns.flatMap rules) (firstError (ns.map code))
  | [] => reports_nil
  | n :: ns => by
    rw [List.flatMap_cons]
    exact reports_then (hc n) (h n) fun _ => firstError_reports hc h ns

theorem layer_reports {N : Type} {rules : N → List Rule} {code : N → Int} (hc : ∀ n, Coded (rules n)) (h : ∀ n, Reports (rules n) (code n))
    (ns : List N) : Reports (⟨1 ≤ ns.length ∧ ns.length ≤ 1000000, 201⟩ :: ns.flatMap rules) (layerIsValid (ns.map code)) := by
  unfold layerIsValid
  refine reports_ite (r := ⟨_, 201⟩) ?_ (firstError_reports hc h ns)
  simp only [List.length_map]
  omega

theorem simple_reports {N : Type} {rules : N → List Rule} {code inputs : N → Int} (hc : ∀ n, Coded (rules n))
    (h : ∀ n, Reports (rules n) (code n)) (ni : Int) (ns : List N) :
    Reports (neuronsRules (fun n => inputs n = ni) rules ns []) (simpleIsValid ni (ns.map inputs) (ns.map code)) := by
  unfold simpleIsValid neuronsRules
  refine reports_ite (r := ⟨_, 203⟩) ?_ (layer_reports hc h ns)
  simp

theorem prod_ok : ∀ (s : List Int) (a n : Int), s.foldlM mulI a = .ok n → n = a * s.prod
  | [], a, n, h => by cases h; simp
  | x :: s, a, n, h => by
    rw [List.foldlM_cons] at h
    obtain ⟨b, h1, h⟩ := Res.bind_eq_ok.1 h
    have := prod_ok s b n h
    unfold mulI ckInt at h1
    split at h1
    · cases h1; rw [this, List.prod_cons, mul_assoc]
    · cases h1

/-- The recorded positions of a pooling layer fit. -/
def PoolFits (l : Layer F) : Prop := match l.body with
  | .pool _ _ outputs positions => (positions.length : Int) = outputs
  | _ => True

theorem coded_neurons {N : Type} {p : N → Prop} {rules : N → List Rule} (hc : ∀ n, Coded (rules n)) (ns : List N) {more : List Rule}
    (hm : Coded more) : Coded (neuronsRules p rules ns more) := by
  unfold neuronsRules
  intro r hr
  rcases List.mem_cons.1 hr with rfl | hr
  · norm_num
  · rcases List.mem_append.1 hr with hr | hr
    · exact hm r hr
    · rcases List.mem_cons.1 hr with rfl | hr
      · norm_num
      · exact Coded.flatMap (fun a _ => hc a) r hr

theorem coded_layer (l : Layer F) : Coded (layerRules l) := by
  unfold layerRules
  split
  · exact coded_neurons coded_neuron _ (by intro r hr; simp at hr)
  · exact coded_neurons coded_rec _ (by intro r hr; simp at hr)
  · exact coded_neurons coded_gru _ (by intro r hr; simp at hr)
  · exact coded_neurons coded_neuron _ (by intro r hr; simp only [List.mem_singleton] at hr; subst hr; norm_num)
  · intro r hr; simp only [List.mem_singleton] at hr; subst hr; norm_num

theorem rd_head {l : List Int} {c : Int} (h : rd l 0 = .ok c) : l.headD 0 = c := by
  cases l with
  | nil => simp [rd] at h
  | cons a l => simp [rd] at h; simpa using h

theorem mulI_eq {a b c : Int} (h : mulI a b = .ok c) : c = a * b := by
  unfold mulI ckInt at h
  split at h
  · cases h; rfl
  · cases h

theorem layerValid_reports {l : Layer F} (hp : PoolFits l) {c : Int} (h : l.isValid = .ok c) : Reports (layerRules l) c := by
  obtain ⟨ni, os, b⟩ := l
  cases b with
  | fullyConnected ns => cases h; exact simple_reports coded_neuron neuron_reports _ _
  | recurrence ns => cases h; exact simple_reports coded_rec rec_reports _ _
  | gru ns => cases h; exact simple_reports coded_gru gru_reports _ _
  | filter kind ns info =>
    simp only [Layer.isValid] at h
    obtain ⟨e, h1, h⟩ := Res.bind_eq_ok.1 h
    have he : e = kernelInputs kind info := by
      cases kind <;> simp only [kernelInputs] at h1 ⊢
      · obtain ⟨x, h2, h3⟩ := Res.bind_eq_ok.1 h1
        rw [rd_head h2, mulI_eq h3]
      · cases h1; rfl
      · obtain ⟨x, h2, h3⟩ := Res.bind_eq_ok.1 h1
        rw [rd_head h2, mulI_eq h3]
      · cases h1; rfl
    subst he
    simp only [layerRules, neuronsRules]
    split at h
    · rename_i hb
      cases h
      refine reports_head (r := ⟨_, 203⟩) ?_
      simpa using hb
    · rename_i hb
      unfold filterIsValid at h
      obtain ⟨n, h2, h⟩ := Res.bind_eq_ok.1 h
      have hn := prod_ok _ _ _ h2
      rw [one_mul] at hn
      cases h
      refine reports_cons (by simpa using hb) ?_
      refine reports_ite (r := ⟨_, 202⟩) ?_ (layer_reports coded_neuron neuron_reports _)
      rw [hn]
  | pool td info n mvi =>
    simp only [Layer.isValid] at h
    cases h
    simp only [PoolFits] at hp
    rw [if_neg (by simp [hp])]
    exact Or.inl ⟨rfl, by simp [layerRules, hp]⟩

theorem layersValid_reports : ∀ {ls : List (Layer F)} (hp : ∀ l ∈ ls, PoolFits l) {c : Int}, layersIsValid ls = .ok c →
    Reports (ls.flatMap layerRules) c
  | [], _, c, h => by cases h; exact reports_nil
  | l :: ls, hp, c, h => by
    unfold layersIsValid at h
    obtain ⟨e, h1, h⟩ := Res.bind_eq_ok.1 h
    have r := layerValid_reports (hp l (by simp)) h1
    rw [List.flatMap_cons]
    split at h
    · cases h; exact reports_left r ‹_›
    · rename_i h0
      simp only [ne_eq, not_not] at h0
      subst h0
      exact reports_append (reports_zero (coded_layer l) r) (layersValid_reports (fun l hl => hp l (by simp [hl])) h)

theorem netValid_reports {n : Net F} (hp : ∀ l ∈ n.layers, PoolFits l) {c : Int} (h : n.isValid = .ok c) : Reports (networkRules n) c := by
  unfold Net.isValid at h
  obtain ⟨ni, h1, h⟩ := Res.bind_eq_ok.1 h
  unfold networkRules
  have hni : ∃ l, n.layers.head? = some l ∧ l.numberOfInputs = ni := by
    unfold Net.getNumberOfInputs at h1
    cases hl : n.layers with
    | nil => rw [hl] at h1; obtain ⟨_, h2, _⟩ := Res.bind_eq_ok.1 h1; simp [rd] at h2
    | cons l ls =>
      rw [hl] at h1
      obtain ⟨m, h2, h3⟩ := Res.bind_eq_ok.1 h1
      simp [rd] at h2; subst h2; cases h3; exact ⟨_, rfl, rfl⟩
  obtain ⟨l, hl, hl2⟩ := hni
  simp only [List.cons_append, List.nil_append]
  by_cases e1 : ni < 1 ∨ ni > 2073600
  · rw [if_pos e1] at h; cases h
    refine reports_head (r := ⟨_, 101⟩) ?_
    rintro ⟨m, hm, a, b⟩
    rw [hl] at hm; cases hm; omega
  rw [if_neg e1] at h
  refine reports_cons ⟨l, hl, by omega, by omega⟩ ?_
  by_cases e2 : n.layers.length < 1 ∨ n.layers.length > 1000
  · rw [if_pos e2] at h; cases h
    refine reports_head (r := ⟨_, 102⟩) ?_
    simp only; omega
  rw [if_neg e2] at h
  refine reports_cons (by simp only; omega) ?_
  unfold Sgd.isValid at h
  by_cases e3 : (fle n.optimizer.learningRate (lit 0) || fle (lit 1) n.optimizer.learningRate) = true
  · simp only [e3, if_true] at h
    rw [if_pos (by decide)] at h
    cases h
    refine reports_head (r := ⟨_, 103⟩) ?_
    simp [lit] at e3
    rintro ⟨a, b⟩
    rcases e3 with e3 | e3
    · exact absurd a (not_lt.2 e3)
    · exact absurd b (not_lt.2 e3)
  rw [if_neg (c := _ = true) e3] at h
  refine reports_cons (by simpa [lit] using e3) ?_
  by_cases e4 : (flt n.optimizer.momentum (lit 0) || flt (lit 1) n.optimizer.momentum) = true
  · simp only [e4, if_true] at h
    rw [if_pos (by decide)] at h
    cases h
    refine reports_head (r := ⟨_, 104⟩) ?_
    simp [lit] at e4
    rintro ⟨a, b⟩
    rcases e4 with e4 | e4
    · exact absurd a (not_le.2 e4)
    · exact absurd b (not_le.2 e4)
  rw [if_neg (c := _ = true) e4, if_neg (by simp)] at h
  refine reports_cons (by simpa [lit] using e4) ?_
  exact layersValid_reports hp h

end

section
variable {F : Type} [Flt F] [FTrans F] [Add F] [Sub F] [Mul F] [Div F] [Neg F]

theorem buildConvolution_fits {o : Sgd F} {ni f k : Int} {shape : List Int} {act : Act} {opts : List (LayerOptModel F)} {d d' : Draws F}
    {l : Layer F} (h : buildConvolution o ni shape f k act opts d = .ok (l, d')) : PoolFits l := by
  unfold buildConvolution at h
  split at h
  · split at h
    · cases h
    · iterate 5 obtain ⟨_, _, h⟩ := Res.bind_eq_ok.1 h
      simp only at h
      obtain ⟨⟨ns, d1⟩, h1, h⟩ := Res.bind_eq_ok.1 h
      simp only at h
      obtain ⟨_, _, h⟩ := Res.bind_eq_ok.1 h
      cases h
      trivial
  · split at h
    · cases h
    · iterate 8 obtain ⟨_, _, h⟩ := Res.bind_eq_ok.1 h
      simp only at h
      obtain ⟨⟨ns, d1⟩, h1, h⟩ := Res.bind_eq_ok.1 h
      simp only at h
      obtain ⟨_, _, h⟩ := Res.bind_eq_ok.1 h
      cases h
      trivial
  · cases h

theorem buildLocallyConnected_fits {o : Sgd F} {ni f k : Int} {shape : List Int} {act : Act} {opts : List (LayerOptModel F)} {d d' : Draws F}
    {l : Layer F} (h : buildLocallyConnected o ni shape f k act opts d = .ok (l, d')) : PoolFits l := by
  unfold buildLocallyConnected at h
  split at h
  · split at h
    · cases h
    · iterate 5 obtain ⟨_, _, h⟩ := Res.bind_eq_ok.1 h
      simp only at h
      obtain ⟨⟨ns, d1⟩, h1, h⟩ := Res.bind_eq_ok.1 h
      simp only at h
      obtain ⟨_, _, h⟩ := Res.bind_eq_ok.1 h
      cases h
      trivial
  · split at h
    · cases h
    · iterate 8 obtain ⟨_, _, h⟩ := Res.bind_eq_ok.1 h
      simp only at h
      obtain ⟨⟨ns, d1⟩, h1, h⟩ := Res.bind_eq_ok.1 h
      simp only at h
      obtain ⟨_, _, h⟩ := Res.bind_eq_ok.1 h
      cases h
      trivial
  · cases h

theorem buildMaxPooling_fits {ni k : Int} {shape : List Int} {l : Layer F} (h : buildMaxPooling ni shape k = .ok l) : PoolFits l := by
  unfold buildMaxPooling at h
  split at h
  · split at h
    · cases h
    · obtain ⟨_, _, h⟩ := Res.bind_eq_ok.1 h
      simp only at h
      split at h
      · cases h
      · iterate 2 obtain ⟨_, _, h⟩ := Res.bind_eq_ok.1 h
        cases h
        simp only [PoolFits, List.length_replicate]
        omega
  · split at h
    · cases h
    · iterate 5 obtain ⟨_, _, h⟩ := Res.bind_eq_ok.1 h
      split at h
      · cases h
      · obtain ⟨_, _, h⟩ := Res.bind_eq_ok.1 h
        cases h
        simp only [PoolFits, List.length_replicate]
        omega
  · cases h

theorem buildLayer_fits {o : Sgd F} {m : LayerModel F} {shape : List Int} {d d' : Draws F} {l : Layer F}
    (h : buildLayer o m shape d = .ok (l, d')) : PoolFits l := by
  unfold buildLayer at h
  obtain ⟨_, _, h⟩ := Res.bind_eq_ok.1 h
  split at h
  · cases h
  split at h
  · cases h
  cases m with
  | fullyConnected n act opts =>
    simp only at h
    split at h
    · cases h
    · obtain ⟨h1, ns, h2, h3⟩ := buildSimple_set (P := fun _ => True) (fun _ _ _ h => trivial) h
      simp only [PoolFits, h2]
  | recurrence n act opts =>
    obtain ⟨h1, ns, h2, h3⟩ := buildSimple_set (P := fun _ => True) (fun _ _ _ h => trivial) h
    simp only [PoolFits, h2]
  | gru n opts =>
    obtain ⟨h1, ns, h2, h3⟩ := buildSimple_set (P := fun _ => True) (fun _ _ _ h => trivial) h
    simp only [PoolFits, h2]
  | maxPooling k =>
    simp only at h
    obtain ⟨l1, h1, h⟩ := Res.bind_eq_ok.1 h
    cases h
    exact buildMaxPooling_fits h1
  | locallyConnected f k act opts => exact buildLocallyConnected_fits h
  | convolution f k act opts => exact buildConvolution_fits h
  | input s => cases h

theorem buildLayers_fits {o : Sgd F} : ∀ {ms : List (LayerModel F)} {shape : List Int} {d d' : Draws F} {ls : List (Layer F)},
    buildLayers o ms shape d = .ok (ls, d') → ∀ l ∈ ls, PoolFits l
  | [], shape, d, d', ls, h => by cases h; simp
  | m :: ms, shape, d, d', ls, h => by
    unfold buildLayers at h
    obtain ⟨⟨l, d1⟩, h1, h⟩ := Res.bind_eq_ok.1 h
    obtain ⟨⟨ls', d2⟩, h2, h⟩ := Res.bind_eq_ok.1 h
    cases h
    intro x hx
    rcases List.mem_cons.1 hx with rfl | hx
    · exact buildLayer_fits h1
    · exact buildLayers_fits h2 x hx

theorem make_fits {arch : List (LayerModel F)} {o : Sgd F} {d d' : Draws F} {n : Net F} (h : Net.make arch o d = .ok (n, d')) :
    ∀ l ∈ n.layers, PoolFits l := by
  unfold Net.make at h
  obtain ⟨⟨ls, d1⟩, h1, h⟩ := Res.bind_eq_ok.1 h
  obtain ⟨last, h2, h⟩ := Res.bind_eq_ok.1 h
  cases h
  unfold LayerFactory.build at h1
  split at h1
  · cases h1
  · split at h1
    · split at h1
      · cases h1
      · obtain ⟨_, _, h1⟩ := Res.bind_eq_ok.1 h1
        split at h1
        · cases h1
        · exact buildLayers_fits h1
    · cases h1

theorem kin_fits {l l' : Layer F} (h : l.Kin l') (k : PoolFits l) : PoolFits l' := by
  obtain ⟨ni, os, b⟩ := l
  obtain ⟨ni', os', b'⟩ := l'
  have hb := h.body
  cases b <;> cases b' <;> simp only [Body.Kin] at hb <;> simp only [PoolFits] at k ⊢
  obtain ⟨_, _, h1, h2⟩ := hb
  rw [h1, h2]; exact k

theorem forget_fits {l : Layer F} (k : PoolFits l) : PoolFits l.forget := by
  obtain ⟨ni, os, b⟩ := l
  cases b <;> first | exact k | trivial

variable [FText F]

theorem reach_fits {arch : List (LayerModel F)} {s : Snn F} (h : Reach arch s) : ∀ l ∈ s.net.layers, PoolFits l := by
  induction h with
  | make h =>
    unfold Snn.make at h
    obtain ⟨⟨net, d1⟩, h1, h⟩ := Res.bind_eq_ok.1 h
    obtain ⟨err, _, h⟩ := Res.bind_eq_ok.1 h
    split at h
    · cases h
    · cases h; exact make_fits h1
  | call _ h ih => exact forall₂_forall (Call.run_kin h).layers ih fun _ _ a b => kin_fits a b
  | stop _ ih => exact ih
  | copy hr h ih =>
    rw [Snn.copy_eq hr.set] at h
    cases h
    exact ih
  | load _ hf h ih =>
    rename_i s t path files _
    simp only [loadFrom, hf] at h
    obtain ⟨⟨t', a⟩, h1, h⟩ := Res.bind_eq_ok.1 h
    cases h
    rcases load_saved_or s with ⟨_, a', h2⟩ | ⟨_, m, h2⟩
    · rw [h2] at h1
      cases h1
      intro l hl
      simp only [Snn.forget, Net.forget, List.mem_map] at hl
      obtain ⟨m, hm, rfl⟩ := hl
      exact forget_fits (ih m hm)
    · rw [h2] at h1; cases h1

end

end Snn.Valid

namespace Snn.Valid

open Spec HistoryProps

section
variable {F : Type} [Flt F] [FTrans F] [Add F] [Sub F] [Mul F] [Div F] [Neg F]

/-- `isValid` of the layer returns. -/
def Returns (l : Layer F) : Prop := ∃ c, l.isValid = .ok c

theorem filter_returns {ni ni' : Int} {os os' : List (LayerOpt F)} {kind : FKind} {info : FilterInfo} {ns ns' : List (Neuron F)}
    (hn : List.Forall₂ Neuron.Kin ns ns') (h : Returns (F := F) ⟨ni, os, .filter kind ns info⟩) :
    Returns (F := F) ⟨ni', os', .filter kind ns' info⟩ := by
  obtain ⟨c, h⟩ := h
  simp only [Layer.isValid] at h
  obtain ⟨e, h1, h⟩ := Res.bind_eq_ok.1 h
  have hsame : (ns'.any fun n => decide (n.numberOfInputs ≠ e)) = ns.any fun n => decide (n.numberOfInputs ≠ e) := by
    clear * - hn
    induction hn with
    | nil => rfl
    | @cons a b as bs h1 _ ih => simp only [List.any_cons, ih, h1.numberOfInputs]
  unfold Returns
  simp only [Layer.isValid, h1, Res.ok_bind, hsame]
  split at h
  · rename_i hb; rw [if_pos hb]; exact ⟨_, rfl⟩
  · rename_i hb
    rw [if_neg hb]
    unfold filterIsValid at h ⊢
    obtain ⟨n, h2, h⟩ := Res.bind_eq_ok.1 h
    rw [h2]
    exact ⟨_, rfl⟩

theorem kin_returns {l l' : Layer F} (h : l.Kin l') (k : Returns l) : Returns l' := by
  obtain ⟨ni, os, b⟩ := l
  obtain ⟨ni', os', b'⟩ := l'
  have hb := h.body
  cases b <;> cases b' <;> simp only [Body.Kin] at hb
  · exact ⟨_, rfl⟩
  · exact ⟨_, rfl⟩
  · exact ⟨_, rfl⟩
  · obtain ⟨rfl, h1, rfl⟩ := hb
    exact filter_returns h1 k
  · exact ⟨_, rfl⟩

theorem forget_returns {l : Layer F} (k : Returns l) : Returns l.forget := by
  obtain ⟨ni, os, b⟩ := l
  cases b <;> first | exact k | exact ⟨_, rfl⟩

theorem layers_return : ∀ {ls : List (Layer F)}, (∀ l ∈ ls, Returns l) → ∃ c, layersIsValid ls = .ok c
  | [], _ => ⟨0, rfl⟩
  | l :: ls, h => by
    obtain ⟨c, hc⟩ := h l (by simp)
    obtain ⟨d, hd⟩ := layers_return (ls := ls) fun m hm => h m (by simp [hm])
    unfold layersIsValid
    rw [hc, Res.ok_bind, hd]
    split
    · exact ⟨_, rfl⟩
    · exact ⟨_, rfl⟩

theorem layers_valid : ∀ {ls : List (Layer F)}, layersIsValid ls = .ok 0 → ∀ l ∈ ls, Returns l
  | [], _ => by simp
  | l :: ls, h => by
    unfold layersIsValid at h
    obtain ⟨e, h1, h⟩ := Res.bind_eq_ok.1 h
    split at h
    · rename_i h0; cases h; exact absurd rfl h0
    · intro m hm
      rcases List.mem_cons.1 hm with rfl | hm
      · exact ⟨_, h1⟩
      · exact layers_valid h m hm

theorem net_returns {n : Net F} (h0 : n.layers ≠ []) (h : ∀ l ∈ n.layers, Returns l) : ∃ c, n.isValid = .ok c := by
  obtain ⟨c, hc⟩ := layers_return h
  unfold Net.isValid Net.getNumberOfInputs
  cases hl : n.layers with
  | nil => exact absurd hl h0
  | cons l ls =>
    rw [hl] at hc
    simp only [rd]
    simp
    rw [hc]
    split
    · exact ⟨_, rfl⟩
    · split
      · exact ⟨_, rfl⟩
      · split <;> exact ⟨_, rfl⟩

variable [FText F]

theorem reach_returns {arch : List (LayerModel F)} {s : Snn F} (h : Reach arch s) : s.net.layers ≠ [] ∧ ∀ l ∈ s.net.layers, Returns l := by
  induction h with
  | make h =>
    unfold Snn.make at h
    obtain ⟨⟨net, d1⟩, h1, h⟩ := Res.bind_eq_ok.1 h
    obtain ⟨err, h2, h⟩ := Res.bind_eq_ok.1 h
    split at h
    · cases h
    · rename_i h0
      simp only [ne_eq, not_not] at h0
      subst h0
      cases h
      unfold Net.isValid at h2
      obtain ⟨ni, h3, h2⟩ := Res.bind_eq_ok.1 h2
      split at h2
      · cases h2
      · split at h2
        · cases h2
        · rename_i h4
          split at h2
          · rename_i h5; simp only [Res.pure_eq, Res.ok.injEq] at h2; exact absurd h2 h5
          · refine ⟨?_, layers_valid h2⟩
            intro e; simp only at e; rw [e] at h4; simp at h4
  | call _ h ih =>
    have hk := (Call.run_kin h).layers
    refine ⟨?_, forall₂_forall hk ih.2 fun _ _ a b => kin_returns a b⟩
    intro e
    have := forall₂_length_eq hk
    rw [e] at this
    exact ih.1 (List.length_eq_zero_iff.1 this)
  | stop _ ih => exact ih
  | copy hr h ih =>
    rw [Snn.copy_eq hr.set] at h
    cases h
    exact ih
  | load _ hf h ih =>
    rename_i s t path files _
    simp only [loadFrom, hf] at h
    obtain ⟨⟨t', a⟩, h1, h⟩ := Res.bind_eq_ok.1 h
    cases h
    rcases load_saved_or s with ⟨_, a', h2⟩ | ⟨_, m, h2⟩
    · rw [h2] at h1
      cases h1
      refine ⟨by simpa [Snn.forget, Net.forget] using ih.1, ?_⟩
      intro l hl
      simp only [Snn.forget, Net.forget, List.mem_map] at hl
      obtain ⟨m, hm, rfl⟩ := hl
      exact forget_returns (ih.2 m hm)
    · rw [h2] at h1; cases h1

end

end Snn.Valid
