import Verif.Proofs.NetRun

/-! A network just built is valid (real numbers, draws of the generator in [0, 1]). -/

set_option linter.all false

namespace Snn

open Snn.Spec

section
variable {F : Type} [Flt F] [FTrans F] [Add F] [Sub F] [Mul F] [Div F] [Neg F]

theorem buildLayer_neuronal {opt : Sgd F} {m : LayerModel F} {shape : List Int} {d d' : Draws F} {l : Layer F}
    (h : buildLayer opt m shape d = .ok (l, d')) (h1 : ∀ f k a o, m ≠ .convolution f k a o) (h2 : ∀ k, m ≠ .maxPooling k) :
    l.body.Neuronal := by
  unfold buildLayer at h
  obtain ⟨ni, _, h⟩ := Res.bind_eq_ok.1 h
  split at h
  · cases h
  split at h
  · cases h
  cases m with
  | input => cases h
  | maxPooling k => exact absurd rfl (h2 k)
  | convolution f k a o => exact absurd rfl (h1 f k a o)
  | fullyConnected n act opts =>
    simp only at h
    split at h
    · cases h
    · obtain ⟨_, ns, hb, _⟩ := buildSimple_inv (P := fun _ => True) (fun _ _ _ => trivial) h
      rw [hb]; trivial
  | recurrence n act opts =>
    obtain ⟨_, ns, hb, _⟩ := buildSimple_inv (P := fun _ => True) (fun _ _ _ => trivial) h
    rw [hb]; trivial
  | gru n opts =>
    obtain ⟨_, ns, hb, _⟩ := buildSimple_inv (P := fun _ => True) (fun _ _ _ => trivial) h
    rw [hb]; trivial
  | locallyConnected f k act opts =>
    simp only at h
    unfold buildLocallyConnected at h
    split at h
    · split at h
      · cases h
      · iterate 5 obtain ⟨_, _, h⟩ := Res.bind_eq_ok.1 h
        obtain ⟨⟨ns, d1⟩, _, h⟩ := Res.bind_eq_ok.1 h
        obtain ⟨_, _, h⟩ := Res.bind_eq_ok.1 h
        cases h; trivial
    · split at h
      · cases h
      · iterate 8 obtain ⟨_, _, h⟩ := Res.bind_eq_ok.1 h
        obtain ⟨⟨ns, d1⟩, _, h⟩ := Res.bind_eq_ok.1 h
        obtain ⟨_, _, h⟩ := Res.bind_eq_ok.1 h
        cases h; trivial
    · cases h

theorem buildLayers_last {opt : Sgd F} : ∀ {ms : List (LayerModel F)} {shape : List Int} {d d' : Draws F} {ls : List (Layer F)},
    buildLayers opt ms shape d = .ok (ls, d') →
    (∀ m, ms.getLast? = some m → (∀ f k a o, m ≠ .convolution f k a o) ∧ (∀ k, m ≠ .maxPooling k)) →
    ∀ l, ls.getLast? = some l → l.body.Neuronal
  | [], _, _, _, _, h, _, l, hl => by cases h; simp at hl
  | m :: ms, shape, d, d', ls, h, hm, l, hl => by
    unfold buildLayers at h
    obtain ⟨⟨l1, d1⟩, h1, h⟩ := Res.bind_eq_ok.1 h
    obtain ⟨⟨ls1, d2⟩, h2, h⟩ := Res.bind_eq_ok.1 h
    cases h
    cases ms with
    | nil =>
      cases h2
      simp only [List.getLast?_singleton, Option.some.injEq] at hl
      subst hl
      obtain ⟨a, b⟩ := hm m (by simp)
      exact buildLayer_neuronal h1 a b
    | cons m2 ms =>
      cases ls1 with
      | nil =>
        exfalso
        unfold buildLayers at h2
        obtain ⟨⟨_, _⟩, _, h2⟩ := Res.bind_eq_ok.1 h2
        obtain ⟨⟨_, _⟩, _, h2⟩ := Res.bind_eq_ok.1 h2
        cases h2
      | cons l2 ls2 =>
        rw [List.getLast?_cons_cons] at hl
        exact buildLayers_last h2 (fun m' hm' => hm m' (by rw [List.getLast?_cons_cons]; exact hm')) l hl

end

/-! ### Initial weights -/

/-- Draws of `uniform_real_distribution` in [0, 1]. -/
def UnitDraws (d : Draws ℝ) : Prop := ∀ i, 0 ≤ d i ∧ d i ≤ 1

theorem UnitDraws.shift {d : Draws ℝ} (h : UnitDraws d) (k : Nat) : UnitDraws (shiftDraws k d) := fun i => h (k + i)

theorem randomInitializeWeight_small {nw : Int} (h : 1 ≤ nw) {u : ℝ} (h0 : 0 ≤ u) (h1 : u ≤ 1) :
    |randomInitializeWeight nw u| ≤ 12/5 := by
  unfold randomInitializeWeight uniform
  simp only [lit_eq, fsqrt_real]
  have hs : (1 : ℝ) ≤ Real.sqrt ((nw : Rat) : ℝ) := by
    rw [show (1 : ℝ) = Real.sqrt 1 by simp]
    apply Real.sqrt_le_sqrt
    have : (1 : ℝ) ≤ (nw : ℝ) := by exact_mod_cast h
    simpa using this
  set s := Real.sqrt ((nw : Rat) : ℝ)
  have hv : ((12/5 : Rat) : ℝ) / s ≤ 12/5 := by
    rw [div_le_iff₀ (by linarith)]
    push_cast
    nlinarith
  have hp : 0 ≤ ((12/5 : Rat) : ℝ) / s := by
    apply div_nonneg
    · push_cast; norm_num
    · linarith
  generalize ((12/5 : Rat) : ℝ) / s = v at hv hp
  rw [abs_le]
  constructor <;> nlinarith

/-- Weights of at most 2.4. -/
def Neuron.Small (n : Neuron ℝ) : Prop := ∀ w ∈ n.weights, |w| ≤ 12/5

theorem Neuron.make_small {m : NeuronModel ℝ} {o : Sgd ℝ} {d : Draws ℝ} {n : Neuron ℝ} (hd : UnitDraws d)
    (h : Neuron.make m o d = .ok n) : n.Small := by
  unfold Neuron.make at h
  split at h
  · cases h
  split at h
  · cases h
  obtain ⟨last, h1, h⟩ := Res.bind_eq_ok.1 h
  obtain ⟨_, _, h⟩ := Res.bind_eq_ok.1 h
  obtain ⟨_, _, h⟩ := Res.bind_eq_ok.1 h
  cases h
  have hpos : 1 ≤ m.numberOfWeights := by
    by_contra hc
    have : m.numberOfWeights.toNat = 0 := by omega
    rw [this] at h1
    cases h1
  have hall : ∀ w ∈ (List.range m.numberOfWeights.toNat).map fun w => randomInitializeWeight m.numberOfWeights (d w), |w| ≤ 12/5 := by
    intro w hw
    simp only [List.mem_map] at hw
    obtain ⟨i, _, rfl⟩ := hw
    exact randomInitializeWeight_small hpos (hd i).1 (hd i).2
  have hlast : last ∈ (List.range m.numberOfWeights.toNat).map fun w => randomInitializeWeight m.numberOfWeights (d w) := by
    unfold backOf at h1
    split at h1
    · rename_i a ha
      cases h1
      exact List.mem_of_getLast? ha
    · cases h1
  intro w hw
  simp only [List.mem_append, List.mem_singleton] at hw
  rcases hw with hw | rfl
  · exact hall w (List.mem_of_mem_dropLast hw)
  · rw [fabs_eq, abs_abs]; exact hall _ hlast

theorem makeNeurons_unit {N : Type} {mk : Draws ℝ → Res N} {per : Nat} {P : N → Prop} (hP : ∀ d n, UnitDraws d → mk d = .ok n → P n) :
    ∀ {k : Nat} {d d' : Draws ℝ} {ns : List N}, UnitDraws d → makeNeurons mk per k d = .ok (ns, d') → (∀ n ∈ ns, P n) ∧ UnitDraws d'
  | 0, d, d', ns, hd, h => by cases h; exact ⟨by simp, hd⟩
  | k + 1, d, d', ns, hd, h => by
    unfold makeNeurons at h
    obtain ⟨n, h1, h⟩ := Res.bind_eq_ok.1 h
    obtain ⟨⟨ns', d1⟩, h2, h⟩ := Res.bind_eq_ok.1 h
    cases h
    obtain ⟨b, c⟩ := makeNeurons_unit hP (hd.shift per) h2
    refine ⟨?_, c⟩
    intro m hm
    rcases List.mem_cons.1 hm with rfl | hm
    · exact hP _ _ hd h1
    · exact b m hm

theorem makeAllNeurons_unit {N : Type} {mk : Draws ℝ → Res N} {per : Nat} {P : N → Prop} (hP : ∀ d n, UnitDraws d → mk d = .ok n → P n)
    {k : Int} {d d' : Draws ℝ} {ns : List N} (hd : UnitDraws d) (h : makeAllNeurons mk per k d = .ok (ns, d')) :
    (∀ n ∈ ns, P n) ∧ UnitDraws d' := by
  unfold makeAllNeurons at h
  split at h
  · cases h
  · exact makeNeurons_unit hP hd h

theorem buildAll_unit (n : Nat) : ∀ (opts : List (LayerOptModel ℝ)) (d : Draws ℝ), UnitDraws d → UnitDraws (LayerOpt.buildAll n opts d).2
  | [], d, h => h
  | m :: ms, d, h => by
    unfold LayerOpt.buildAll
    exact buildAll_unit n ms _ (by cases m <;> first | exact h | exact h.shift n)

/-- All the neurons of a layer have small weights. -/
def Body.Small : Body ℝ → Prop
  | .fullyConnected ns => ∀ n ∈ ns, n.Small
  | .recurrence ns => ∀ n ∈ ns, n.base.Small
  | .gru ns => ∀ n ∈ ns, n.resetGate.base.Small ∧ n.updateGate.base.Small ∧ n.outputGate.base.Small
  | .filter _ ns _ => ∀ n ∈ ns, n.Small
  | .pool .. => True

theorem RecNeuron.make_small {m : NeuronModel ℝ} {o : Sgd ℝ} {d : Draws ℝ} {n : RecNeuron ℝ} (hd : UnitDraws d)
    (h : RecNeuron.make m o d = .ok n) : n.base.Small := by
  obtain ⟨b, h1, h⟩ := Res.bind_eq_ok.1 h
  cases h
  exact Neuron.make_small hd h1

theorem Gru.make_small {m : NeuronModel ℝ} {o : Sgd ℝ} {d : Draws ℝ} {n : Gru ℝ} (hd : UnitDraws d)
    (h : Gru.make m o d = .ok n) : n.resetGate.base.Small ∧ n.updateGate.base.Small ∧ n.outputGate.base.Small := by
  obtain ⟨a, h1, h⟩ := Res.bind_eq_ok.1 h
  obtain ⟨b, h2, h⟩ := Res.bind_eq_ok.1 h
  obtain ⟨c, h3, h⟩ := Res.bind_eq_ok.1 h
  cases h
  exact ⟨RecNeuron.make_small hd h1, RecNeuron.make_small (hd.shift _) h2, RecNeuron.make_small (hd.shift _) h3⟩

theorem buildSimple_unit {N : Type} {mk : NeuronModel ℝ → Draws ℝ → Res N} {gates : Nat} {wrap : List N → Body ℝ} {ni : Int} {extra : Int}
    {k : Int} {act : Act} {opts : List (LayerOptModel ℝ)} {d d' : Draws ℝ} {l : Layer ℝ} {P : N → Prop} (hd : UnitDraws d)
    (hP : ∀ m d n, UnitDraws d → mk m d = .ok n → P n)
    (h : buildSimple mk gates wrap ni extra k act opts d = .ok (l, d')) : (∃ ns, l.body = wrap ns ∧ ∀ n ∈ ns, P n) ∧ UnitDraws d' := by
  unfold buildSimple at h
  obtain ⟨nw, h1, h⟩ := Res.bind_eq_ok.1 h
  obtain ⟨⟨ns, d1⟩, h2, h⟩ := Res.bind_eq_ok.1 h
  obtain ⟨a, b⟩ := makeAllNeurons_unit (fun d n => hP _ d n) hd h2
  cases h
  exact ⟨⟨ns, rfl, a⟩, buildAll_unit _ _ _ b⟩

theorem buildLayer_unit {opt : Sgd ℝ} {m : LayerModel ℝ} {shape : List Int} {d d' : Draws ℝ} {l : Layer ℝ} (hd : UnitDraws d)
    (h : buildLayer opt m shape d = .ok (l, d')) : l.body.Small ∧ UnitDraws d' := by
  unfold buildLayer at h
  obtain ⟨ni, _, h⟩ := Res.bind_eq_ok.1 h
  split at h
  · cases h
  split at h
  · cases h
  cases m with
  | input => cases h
  | maxPooling k =>
    simp only at h
    obtain ⟨l1, h1, h⟩ := Res.bind_eq_ok.1 h
    cases h
    refine ⟨?_, hd⟩
    unfold buildMaxPooling at h1
    split at h1
    · split at h1
      · cases h1
      · obtain ⟨_, _, h1⟩ := Res.bind_eq_ok.1 h1
        simp only at h1
        split at h1
        · cases h1
        · obtain ⟨_, _, h1⟩ := Res.bind_eq_ok.1 h1
          obtain ⟨_, _, h1⟩ := Res.bind_eq_ok.1 h1
          cases h1; trivial
    · split at h1
      · cases h1
      · iterate 5 obtain ⟨_, _, h1⟩ := Res.bind_eq_ok.1 h1
        split at h1
        · cases h1
        · obtain ⟨_, _, h1⟩ := Res.bind_eq_ok.1 h1
          cases h1; trivial
    · cases h1
  | convolution f k act opts =>
    simp only at h
    unfold buildConvolution at h
    split at h
    · split at h
      · cases h
      · iterate 5 obtain ⟨_, _, h⟩ := Res.bind_eq_ok.1 h
        obtain ⟨⟨ns, d1⟩, h2, h⟩ := Res.bind_eq_ok.1 h
        obtain ⟨_, _, h⟩ := Res.bind_eq_ok.1 h
        obtain ⟨a, b⟩ := makeAllNeurons_unit (P := Neuron.Small) (fun d n hd hn => Neuron.make_small hd hn) hd h2
        cases h; exact ⟨a, buildAll_unit _ _ _ b⟩
    · split at h
      · cases h
      · iterate 8 obtain ⟨_, _, h⟩ := Res.bind_eq_ok.1 h
        obtain ⟨⟨ns, d1⟩, h2, h⟩ := Res.bind_eq_ok.1 h
        obtain ⟨_, _, h⟩ := Res.bind_eq_ok.1 h
        obtain ⟨a, b⟩ := makeAllNeurons_unit (P := Neuron.Small) (fun d n hd hn => Neuron.make_small hd hn) hd h2
        cases h; exact ⟨a, buildAll_unit _ _ _ b⟩
    · cases h
  | fullyConnected n act opts =>
    simp only at h
    split at h
    · cases h
    · obtain ⟨⟨ns, e, a⟩, b⟩ := buildSimple_unit (P := Neuron.Small) hd (fun m d n hd hn => Neuron.make_small hd hn) h
      rw [e]; exact ⟨a, b⟩
  | recurrence n act opts =>
    obtain ⟨⟨ns, e, a⟩, b⟩ := buildSimple_unit (P := fun n : RecNeuron ℝ => n.base.Small) hd (fun m d n hd hn => RecNeuron.make_small hd hn) h
    rw [e]; exact ⟨a, b⟩
  | gru n opts =>
    obtain ⟨⟨ns, e, a⟩, b⟩ := buildSimple_unit (P := fun n : Gru ℝ => n.resetGate.base.Small ∧ n.updateGate.base.Small ∧ n.outputGate.base.Small)
      hd (fun m d n hd hn => Gru.make_small hd hn) h
    rw [e]; exact ⟨a, b⟩
  | locallyConnected f k act opts =>
    simp only at h
    unfold buildLocallyConnected at h
    split at h
    · split at h
      · cases h
      · iterate 5 obtain ⟨_, _, h⟩ := Res.bind_eq_ok.1 h
        obtain ⟨⟨ns, d1⟩, h2, h⟩ := Res.bind_eq_ok.1 h
        obtain ⟨_, _, h⟩ := Res.bind_eq_ok.1 h
        obtain ⟨a, b⟩ := makeAllNeurons_unit (P := Neuron.Small) (fun d n hd hn => Neuron.make_small hd hn) hd h2
        cases h; exact ⟨a, buildAll_unit _ _ _ b⟩
    · split at h
      · cases h
      · iterate 8 obtain ⟨_, _, h⟩ := Res.bind_eq_ok.1 h
        obtain ⟨⟨ns, d1⟩, h2, h⟩ := Res.bind_eq_ok.1 h
        obtain ⟨_, _, h⟩ := Res.bind_eq_ok.1 h
        obtain ⟨a, b⟩ := makeAllNeurons_unit (P := Neuron.Small) (fun d n hd hn => Neuron.make_small hd hn) hd h2
        cases h; exact ⟨a, buildAll_unit _ _ _ b⟩
    · cases h


/-! ### Validity -/

theorem Neuron.isValid_zero {n : Neuron ℝ} (h1 : 0 ≤ n.bias) (h2 : n.bias ≤ 1) (h3 : 0 < n.weights.length) (h4 : n.weights.length ≤ 1000000)
    (hs : n.Small) : n.isValid = 0 := by
  unfold Neuron.isValid
  have e1 : flt n.bias (lit (-100000) : ℝ) = false := by
    rw [flt_false_iff]; simp only [lit_eq]; push_cast; linarith
  have e2 : flt (lit 10000 : ℝ) n.bias = false := by
    rw [flt_false_iff]; simp only [lit_eq]; push_cast; linarith
  have e3 : n.weights.isEmpty = false := by
    cases hw : n.weights with
    | nil => rw [hw] at h3; simp at h3
    | cons => rfl
  have e4 : (n.weights.any fun w => flt w (lit (-100000) : ℝ) || flt (lit 10000 : ℝ) w) = false := by
    rw [List.any_eq_false]
    intro w hw
    have := abs_le.1 (hs w hw)
    have f1 : flt w (lit (-100000) : ℝ) = false := by
      rw [flt_false_iff]; simp only [lit_eq]; push_cast; linarith
    have f2 : flt (lit 10000 : ℝ) w = false := by
      rw [flt_false_iff]; simp only [lit_eq]; push_cast; linarith
    rw [f1, f2]; simp
  rw [e1, e2, e3, e4]
  simp; omega

theorem firstError_zero : ∀ {l : List Int}, (∀ e ∈ l, e = 0) → firstError l = 0
  | [], _ => rfl
  | e :: es, h => by
    have h0 := h e (by simp)
    unfold firstError
    rw [if_neg (by simp [h0])]
    exact firstError_zero (fun e' he => h e' (by simp [he]))

theorem layerIsValid_zero {l : List Int} (h1 : 0 < l.length) (h2 : l.length ≤ 1000000) (h : ∀ e ∈ l, e = 0) : layerIsValid l = 0 := by
  unfold layerIsValid
  rw [if_neg (by omega)]
  exact firstError_zero h

theorem simpleIsValid_zero {ni : Int} {is codes : List Int} (hi : ∀ i ∈ is, i = ni) (h1 : 0 < codes.length) (h2 : codes.length ≤ 1000000)
    (h : ∀ e ∈ codes, e = 0) : simpleIsValid ni is codes = 0 := by
  unfold simpleIsValid
  have : (is.any fun i => decide (i ≠ ni)) = false := by
    rw [List.any_eq_false]
    intro i h; simp [hi i h]
  rw [this]
  exact layerIsValid_zero h1 h2 h

theorem filter_valid {l : Layer ℝ} {kind : FKind} {opt : Sgd ℝ} {ni : Int} {rows : List (List Int)} {size N nn b K : Nat} {act : Act}
    {si : List Int} {s' : List Nat} {opts : List (LayerOptModel ℝ)} {ns : List (Neuron ℝ)} {info : FilterInfo}
    (h : FilterBuilt l kind opt ni rows size N nn b K act si (s'.map (fun v : Nat => (v : Int))) opts ns info) (hs : l.body.Small)
    (hg : GoodShape s') (hp : s'.prod = N * rows.length) (hsize : size ≤ 999998) (hnn : 0 < nn) (hnn2 : nn ≤ 1000000)
    (hexp : kind = .conv1D ∨ kind = .lc1D → ∃ c rest, si = (c : Int) :: rest ∧ mulI (K : Int) c = .ok (size : Int)) : l.isValid = .ok 0 := by
  unfold Layer.isValid
  rw [h.body] at hs ⊢
  simp only
  refine Res.bind_eq_ok.2 ⟨(size : Int), ?_, ?_⟩
  · cases kind with
    | conv2D => exact congrArg Res.ok h.ksize
    | lc2D => exact congrArg Res.ok h.ksize
    | conv1D =>
      obtain ⟨c, rest, e, hm⟩ := hexp (Or.inl rfl)
      simp only [h.shapeIn, e, h.kernelSize]
      exact hm
    | lc1D =>
      obtain ⟨c, rest, e, hm⟩ := hexp (Or.inr rfl)
      simp only [h.shapeIn, e, h.kernelSize]
      exact hm
  have hany : (ns.any fun n => decide (n.numberOfInputs ≠ (size : Int))) = false := by
    rw [List.any_eq_false]
    intro n hn
    simp [(h.fresh n hn).wf.inputs]
  rw [hany]
  unfold filterIsValid
  have hprod : info.shapeOfOutput.foldlM mulI 1 = .ok ((s'.prod : Nat) : Int) := by
    rw [h.shapeOut]
    exact computeNumberOfInputs_ok hg
  rw [hprod]
  simp only [Bool.false_eq_true, if_false, Res.ok_bind]
  rw [if_neg (by rw [h.kernels, hp]; simp)]
  have hz : layerIsValid (ns.map Neuron.isValid) = 0 := by
    refine layerIsValid_zero (by rw [List.length_map, h.length]; exact hnn) (by rw [List.length_map, h.length]; exact hnn2) ?_
    intro e he
    simp only [List.mem_map] at he
    obtain ⟨n, hn, rfl⟩ := he
    have hf := h.fresh n hn
    refine Neuron.isValid_zero ?_ ?_ (by rw [hf.wf.wlen]; omega) (by rw [hf.wf.wlen]; omega) (hs n hn)
    · rw [hf.bias]; simp only [lit_eq]; push_cast; norm_num
    · rw [hf.bias]; simp only [lit_eq]; push_cast; norm_num
  rw [hz]; rfl

theorem buildLayer_valid {opt : Sgd ℝ} {m : LayerModel ℝ} {s s' : List Nat} (hf : Fits m s s') (hs : GoodShape s) (hs' : GoodShape s')
    {d d' : Draws ℝ} {l : Layer ℝ} (hd : UnitDraws d) (h : buildLayer opt m (s.map (fun v : Nat => (v : Int))) d = .ok (l, d')) :
    l.isValid = .ok 0 := by
  have hsm0 := (buildLayer_unit hd h).1
  have hprod := one_le_prod hs.pos
  have hprod' := one_le_prod hs'.pos
  have hsm := hs.small
  have hsm' := hs'.small
  have hcast : ∀ {a b : Nat}, ((a : Nat) : Int) = b → a = b := fun h => by exact_mod_cast h
  rw [buildLayer_start hs] at h
  cases hf with
  | @fullyConnected n act opts _ hn =>
    obtain ⟨hi, ns, hb, hl, hw, _⟩ := buildSimple_inv (P := fun n : Neuron ℝ => n.Fresh opt s.prod 1 (lit 1) act) (by
      intro d n hn
      exact (Neuron.make_fresh (ni := s.prod) (b := 1) rfl (by omega) hn)) h
    have hl' : ns.length = n := hcast hl
    have hn2 : n ≤ 999998 := goodShape_dim hs' (by simp)
    unfold Layer.isValid
    rw [hb] at hsm0 ⊢
    simp only
    rw [simpleIsValid_zero]
    · intro i hi'
      simp only [List.mem_map] at hi'
      obtain ⟨n, hn, rfl⟩ := hi'
      rw [hi]; exact (hw n hn).wf.inputs
    · rw [List.length_map]; omega
    · rw [List.length_map]; omega
    · intro e he
      simp only [List.mem_map] at he
      obtain ⟨n, hn, rfl⟩ := he
      have hf := hw n hn
      refine Neuron.isValid_zero ?_ ?_ (by rw [hf.wf.wlen]; omega) (by rw [hf.wf.wlen]; omega) (hsm0 n hn)
      · rw [hf.bias]; simp only [lit_eq]; push_cast; norm_num
      · rw [hf.bias]; simp only [lit_eq]; push_cast; norm_num
  | @recurrence n act opts _ hn =>
    obtain ⟨hi, ns, hb, hl, hw, _⟩ := buildSimple_inv (P := fun n : RecNeuron ℝ => n.WF s.prod 1 ∧ n.base.bias = lit 1) (by
      intro d n hn
      have := (RecNeuron.make_wf hn (by simp) rfl)
      exact ⟨this.1, this.2.2.1⟩) h
    have hl' : ns.length = n := hcast hl
    have hn2 : n ≤ 999998 := goodShape_dim hs' (by simp)
    unfold Layer.isValid
    rw [hb] at hsm0 ⊢
    simp only
    rw [simpleIsValid_zero]
    · intro i hi'
      simp only [List.mem_map] at hi'
      obtain ⟨n, hn, rfl⟩ := hi'
      rw [hi]; exact (hw n hn).1.inputs
    · rw [List.length_map]; omega
    · rw [List.length_map]; omega
    · intro e he
      simp only [List.mem_map] at he
      obtain ⟨n, hn, rfl⟩ := he
      obtain ⟨hf, hbias⟩ := hw n hn
      unfold RecNeuron.isValid
      rw [if_neg (by rw [hf.wlen, hf.inputs]; push_cast; omega)]
      refine Neuron.isValid_zero ?_ ?_ (by rw [hf.wlen]; omega) (by rw [hf.wlen]; omega) (hsm0 n hn)
      · rw [hbias]; simp only [lit_eq]; push_cast; norm_num
      · rw [hbias]; simp only [lit_eq]; push_cast; norm_num
  | @gru n opts _ hn =>
    obtain ⟨hi, ns, hb, hl, hw, _⟩ := buildSimple_inv (P := fun n : Gru ℝ => n.WF s.prod 1 ∧ n.resetGate.base.bias = lit 1 ∧
        n.updateGate.base.bias = lit 1 ∧ n.outputGate.base.bias = lit 1) (by
      intro d n hn
      have h0 := (Gru.make_wf hn (by simp) rfl).1
      obtain ⟨a, h1, hn⟩ := Res.bind_eq_ok.1 hn
      obtain ⟨b, h2, hn⟩ := Res.bind_eq_ok.1 hn
      obtain ⟨c, h3, hn⟩ := Res.bind_eq_ok.1 hn
      cases hn
      exact ⟨h0, (RecNeuron.make_wf h1 (by simp) rfl).2.2.1, (RecNeuron.make_wf h2 (by simp) rfl).2.2.1, (RecNeuron.make_wf h3 (by simp) rfl).2.2.1⟩) h
    have hl' : ns.length = n := hcast hl
    have hn2 : n ≤ 999998 := goodShape_dim hs' (by simp)
    have hgate : ∀ r : RecNeuron ℝ, r.WF s.prod 1 → r.base.bias = lit 1 → r.base.Small → r.isValid = 0 := by
      intro r hf hbias hsml
      unfold RecNeuron.isValid
      rw [if_neg (by rw [hf.wlen, hf.inputs]; push_cast; omega)]
      refine Neuron.isValid_zero ?_ ?_ (by rw [hf.wlen]; omega) (by rw [hf.wlen]; omega) hsml
      · rw [hbias]; simp only [lit_eq]; push_cast; norm_num
      · rw [hbias]; simp only [lit_eq]; push_cast; norm_num
    unfold Layer.isValid
    rw [hb] at hsm0 ⊢
    simp only
    rw [simpleIsValid_zero]
    · intro i hi'
      simp only [List.mem_map] at hi'
      obtain ⟨n, hn, rfl⟩ := hi'
      rw [hi]; exact (hw n hn).1.inputs
    · rw [List.length_map]; omega
    · rw [List.length_map]; omega
    · intro e he
      simp only [List.mem_map] at he
      obtain ⟨n, hn, rfl⟩ := he
      obtain ⟨hf, b1, b2, b3⟩ := hw n hn
      obtain ⟨s1, s2, s3⟩ := hsm0 n hn
      unfold Gru.isValid
      rw [hgate _ hf.r b1 s1, hgate _ hf.u b2 s2, hgate _ hf.o b3 s3]
      rfl
  | @convolution1 f k x act opts hf hk hx =>
    have e1 : ([x] : List Nat).prod = 1 * x := by simp
    have e3 : ([f, x - k + 1] : List Nat).prod = f * (x - k + 1) := by simp
    rw [e1] at h
    obtain ⟨_, ns, info, hb⟩ := buildConvolution1D_inv (shape := [(x : Int)]) (C := 1) rfl hf h
    have hf2 : f ≤ 999998 := goodShape_dim hs' (by simp)
    have hk1 : k * 1 ≤ 999998 := by have := goodShape_dim hs (v := x) (by simp); omega
    refine filter_valid (s' := [f, x - k + 1]) hb hsm0 hs' (by rw [e3]; simp) hk1 hf (by omega) (fun _ => ⟨((1 : Nat) : Int), _, rfl, mulI_ok' (by omega)⟩)
  | @convolution1D f k c x act opts hf hk hx =>
    have e1 : ([c, x] : List Nat).prod = c * x := by simp
    have e3 : ([f, x - k + 1] : List Nat).prod = f * (x - k + 1) := by simp
    rw [e1] at h hsm
    obtain ⟨_, ns, info, hb⟩ := buildConvolution1D_inv (shape := [(c : Int), (x : Int)]) rfl hf h
    have hf2 : f ≤ 999998 := goodShape_dim hs' (by simp)
    have hk1 : k * c ≤ 999998 := by
      have := Nat.mul_le_mul_right c hx
      rw [Nat.mul_comm x c] at this; omega
    refine filter_valid (s' := [f, x - k + 1]) hb hsm0 hs' (by rw [e3]; simp) hk1 hf (by omega) (fun _ => ⟨(c : Int), _, rfl, mulI_ok' (by omega)⟩)
  | @convolution2D f k c x y act opts hf hk hx hy =>
    have e1 : ([c, x, y] : List Nat).prod = c * x * y := by simp [Nat.mul_assoc]
    have e3 : ([f, x - k + 1, y - k + 1] : List Nat).prod = f * ((x - k + 1) * (y - k + 1)) := by simp
    rw [e1] at h hsm
    obtain ⟨_, _, ns, info, hb⟩ := buildConvolution2D_inv hf h
    have hf2 : f ≤ 999998 := goodShape_dim hs' (by simp)
    exact filter_valid (s' := [f, x - k + 1, y - k + 1]) hb hsm0 hs' (by rw [e3]; simp) (sq_mul_le hx hy hsm) hf (by omega) (fun hc => by simp at hc)
  | @locally1 f k x act opts hf hk hx =>
    have e3 : ([f, ceil x k] : List Nat).prod = f * ceil x k := by simp
    obtain ⟨_, _, ns, info, hb⟩ := buildLocally1D_inv (shape := [(x : Int)]) (C := 1) rfl hf h
    have hk1 : k * 1 ≤ 999998 := by have := goodShape_dim hs (v := x) (by simp); omega
    have hp : 0 < ceil x k * f := Nat.mul_pos (ceil_pos hk (by omega)) hf
    rw [e3, Nat.mul_comm] at hsm'
    refine filter_valid (s' := [f, ceil x k]) hb hsm0 hs' (by rw [e3]; simp) hk1 hp (by omega) (fun _ => ⟨((1 : Nat) : Int), _, rfl, mulI_ok' (by omega)⟩)
  | @locally1D f k c x act opts hf hk hx =>
    have e1 : ([c, x] : List Nat).prod = c * x := by simp
    have e3 : ([f, ceil x k] : List Nat).prod = f * ceil x k := by simp
    obtain ⟨_, _, ns, info, hb⟩ := buildLocally1D_inv (shape := [(c : Int), (x : Int)]) rfl hf h
    have hk1 : k * c ≤ 999998 := by
      have := Nat.mul_le_mul_right c hx
      rw [Nat.mul_comm x c] at this; omega
    have hp : 0 < ceil x k * f := Nat.mul_pos (ceil_pos hk (by omega)) hf
    rw [e3, Nat.mul_comm] at hsm'
    refine filter_valid (s' := [f, ceil x k]) hb hsm0 hs' (by rw [e3]; simp) hk1 hp (by omega) (fun _ => ⟨(c : Int), _, rfl, mulI_ok' (by omega)⟩)
  | @locally2D f k c x y act opts hf hk hx hy hxy =>
    have e1 : ([c, x, y] : List Nat).prod = c * x * y := by simp [Nat.mul_assoc]
    have e3 : ([f, ceil x k, ceil y k] : List Nat).prod = f * (ceil x k * ceil y k) := by simp
    obtain ⟨_, _, _, ns, info, hb⟩ := buildLocally2D_inv hf h
    have hp : 0 < ceil x k * ceil y k * f := Nat.mul_pos (Nat.mul_pos (ceil_pos hk (by omega)) (ceil_pos hk (by omega))) hf
    rw [e3, Nat.mul_comm] at hsm'
    rw [e1] at hsm
    exact filter_valid (s' := [f, ceil x k, ceil y k]) hb hsm0 hs' (by rw [e3]; simp) (sq_mul_le hx hy hsm) hp (by omega) (fun hc => by simp at hc)
  | @pool1 k x hk hx =>
    simp only at h
    obtain ⟨l1, h1, h⟩ := Res.bind_eq_ok.1 h
    cases h
    obtain ⟨_, _, info, hb⟩ := buildPool1D_inv (shape := [(x : Int)]) (C := 1) rfl h1
    obtain ⟨o, mv, hb1, ho, hm⟩ := hb.body
    unfold Layer.isValid
    rw [hb1]
    simp [ho, hm]
  | @pool1D k x hk hx =>
    simp only at h
    obtain ⟨l1, h1, h⟩ := Res.bind_eq_ok.1 h
    cases h
    obtain ⟨_, _, info, hb⟩ := buildPool1D_inv (shape := [((1 : Nat) : Int), (x : Int)]) (C := 1) rfl h1
    obtain ⟨o, mv, hb1, ho, hm⟩ := hb.body
    unfold Layer.isValid
    rw [hb1]
    simp [ho, hm]
  | @pool2D k c x y hk hx hy hxy =>
    simp only at h
    obtain ⟨l1, h1, h⟩ := Res.bind_eq_ok.1 h
    cases h
    obtain ⟨_, _, _, info, hb⟩ := buildPool2D_inv h1
    obtain ⟨o, mv, hb1, ho, hm⟩ := hb.body
    unfold Layer.isValid
    rw [hb1]
    simp [ho, hm]

theorem buildLayers_valid {opt : Sgd ℝ} {ms : List (LayerModel ℝ)} {s s' : List Nat} (h : Chain ms s s') :
    ∀ {d d' : Draws ℝ} {ls : List (Layer ℝ)}, UnitDraws d → buildLayers opt ms (s.map (fun v : Nat => (v : Int))) d = .ok (ls, d') →
    layersIsValid ls = .ok 0 := by
  induction h with
  | nil hs => intro d d' ls _ hb; cases hb; rfl
  | @cons m ms s s1 s2 hs hm hc ih =>
    intro d d' ls hd hb
    have hs1 : GoodShape s1 := by cases hc <;> assumption
    obtain ⟨l0, d0, h0, hb0⟩ := buildLayer_ok opt hm hs hs1 d
    unfold buildLayers at hb
    obtain ⟨⟨l, d1⟩, h1, hb⟩ := Res.bind_eq_ok.1 hb
    obtain ⟨⟨ls1, d2⟩, h2, hb⟩ := Res.bind_eq_ok.1 hb
    cases hb
    rw [h0] at h1
    cases h1
    simp only [hb0.shape] at h2
    unfold layersIsValid
    rw [buildLayer_valid hm hs hs1 hd h0]
    simp only [Res.ok_bind]
    rw [if_neg (by simp)]
    exact ih (buildLayer_unit hd h0).2 h2

end Snn
