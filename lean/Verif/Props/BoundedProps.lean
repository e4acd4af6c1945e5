import Verif.Proofs.BoundedRun
import Verif.Props.PrecisionProps

/-!
# C102: training with bounded activations never reaches infinity or NaN in single precision
-/

set_option linter.all false

namespace Snn.BoundedProps

open B32 Spec FloatProps HistoryProps SafeProps Bounded PrecisionProps

section
variable [FTrans B32]

/-! ### The constructor -/

theorem weight_within (hS : SqrtLaw) {nw : Int} (h : 1 ≤ nw) (h' : nw ≤ 2 ^ 24) {u : ℚ} (hr : Rep u) (h0 : 0 ≤ u) (h1 : u ≤ 1) :
    Within 16 (randomInitializeWeight nw (num u : B32)) := by
  have r4 : Rep 4 := by have := rep_nat (k := 4) (by norm_num); simpa using this
  have r8 : Rep 8 := by have := rep_nat (k := 8) (by norm_num); simpa using this
  have r16 : Rep 16 := by have := rep_nat (k := 16) (by norm_num); simpa using this
  obtain ⟨n, rfl⟩ := Int.eq_ofNat_of_zero_le (by omega : 0 ≤ nw)
  have hn : n ≤ 2 ^ 24 := by exact_mod_cast h'
  have el : (lit (((n : Int) : ℚ)) : B32) = num (n : ℚ) := by have := ofRat_nat (k := n) hn; exact_mod_cast this
  obtain ⟨t, e, hrt, ht⟩ := hS n (rep_nat hn) (by exact_mod_cast h)
  have h12 : Within 4 (lit (12/5) : B32) := within_ofRat (by norm_num [abs_le]) r4 (by norm_num)
  have hm : Within 4 (lit (12/5) / fsqrt (lit (((n : Int) : ℚ))) : B32) := by
    rw [el, e]
    exact within_div ht h12 (div_le_self (by norm_num) ht) r4 (by norm_num)
  unfold randomInitializeWeight uniform
  simp only
  have hd := hm.sub hm.neg (by norm_num) r8 (by norm_num)
  have hu : Within 1 (num u : B32) := ⟨u, rfl, hr, by rw [abs_of_nonneg h0]; exact h1⟩
  have hp := hu.mul hd (by norm_num) r8 (by norm_num)
  exact hp.add hm.neg (by norm_num) r16 (by norm_num)

theorem abs_within {b : ℚ} {v : B32} (h : Within b v) : Within b (fabs v) := by
  obtain ⟨q, rfl, hr, hq⟩ := h
  refine ⟨|q|, rfl, ?_, by rwa [abs_abs]⟩
  rcases abs_choice q with e | e <;> rw [e]
  · exact hr
  · exact hr.neg

variable {p : Ranges} {opt : Sgd B32}

theorem weightExp_four (hs : p.rate ≤ 22) {i : Nat} (h2 : 2 ≤ p.errorExp i) : 4 ≤ p.weightExp i := by
  have : p.weightExp i = p.errorExp i + p.input - p.rate + p.damping + 24 := rfl
  omega

theorem neuron_made (hS : SqrtLaw) {i : Nat} (hw : 4 ≤ p.weightExp i) {m : NeuronModel B32} (hb : m.batchSize = 1) (hbias : m.bias = lit 1)
    (hn : m.numberOfWeights ≤ 2 ^ 24) {d : Draws B32} (hd : UnitDraws32 d) {n : Neuron B32} (h : Neuron.make m opt d = .ok n) :
    TN p opt i m.activationFunction n := by
  unfold Neuron.make at h
  split at h
  · cases h
  split at h
  · cases h
  obtain ⟨last, h1, h⟩ := Res.bind_eq_ok.1 h
  obtain ⟨li, h2, h⟩ := Res.bind_eq_ok.1 h
  obtain ⟨pd, h3, h⟩ := Res.bind_eq_ok.1 h
  cases h
  have circ : ∀ {k : Int} {c : Circ B32} {b : ℚ}, 0 ≤ b → Circ.init 1 k = .ok c → ∀ r ∈ c.queue, AllWithin b r := by
    intro k c b hb hc r hr
    unfold Circ.init at hc
    split at hc
    · cases hc
    split at hc
    · cases hc
    cases hc
    obtain ⟨_, rfl⟩ := List.mem_replicate.1 hr
    exact allWithin_replicate hb _
  have hpos : 1 ≤ m.numberOfWeights := by
    by_contra hc
    have : m.numberOfWeights.toNat = 0 := by omega
    rw [this] at h1
    cases h1
  have hall : ∀ w ∈ (List.range m.numberOfWeights.toNat).map fun w => randomInitializeWeight m.numberOfWeights (d w), Within (2 ^ p.weightExp i) w := by
    intro w hw'
    simp only [List.mem_map] at hw'
    obtain ⟨j, _, rfl⟩ := hw'
    obtain ⟨u, e, u1, u2, u3⟩ := hd j
    rw [e]
    refine (weight_within hS hpos hn u1 u2 u3).mono ?_
    have : (16 : ℚ) = 2 ^ (4 : ℤ) := by norm_num
    rw [this]
    exact pow_le hw
  have hlast : last ∈ (List.range m.numberOfWeights.toNat).map fun w => randomInitializeWeight m.numberOfWeights (d w) := by
    unfold backOf at h1
    split at h1
    · rename_i a ha
      cases h1
      exact List.mem_of_getLast? ha
    · cases h1
  rw [hb] at h2 h3
  refine ⟨rfl, hbias.trans lit_one, hb, rfl, ?_, circ (pow_pos' _).le h3, circ (pow_pos' _).le h2, by show (lit 0 : B32) ≠ nan; decide +kernel⟩
  intro w hw'
  simp only [List.mem_append, List.mem_singleton] at hw'
  rcases hw' with hw' | rfl
  · exact hall w (List.mem_of_mem_dropLast hw')
  · exact abs_within (hall _ hlast)

theorem neurons_made {N : Type} {mk : Draws B32 → Res N} {per : Nat} {P : N → Prop} (hP : ∀ d n, UnitDraws32 d → mk d = .ok n → P n) :
    ∀ {k : Nat} {d d' : Draws B32} {ns : List N}, UnitDraws32 d → makeNeurons mk per k d = .ok (ns, d') → (∀ n ∈ ns, P n) ∧ UnitDraws32 d'
  | 0, d, d', ns, hd, h => by cases h; exact ⟨fun v (hv : v ∈ []) => absurd hv (by simp), hd⟩
  | k + 1, d, d', ns, hd, h => by
    unfold makeNeurons at h
    obtain ⟨n, h1, h⟩ := Res.bind_eq_ok.1 h
    obtain ⟨⟨ns', d1⟩, h2, h⟩ := Res.bind_eq_ok.1 h
    cases h
    obtain ⟨b, c⟩ := neurons_made hP (d := shiftDraws per d) (fun i => hd (per + i)) h2
    refine ⟨?_, c⟩
    intro m hm
    rcases List.mem_cons.1 hm with rfl | hm
    · exact hP _ _ hd h1
    · exact b m hm

theorem build_bounded (hS : SqrtLaw) (hs : p.rate ≤ 22) (hw : p.width ≤ 24) : ∀ {acts : List (Act × Nat)} {s s' : List Nat},
    (∀ a ∈ acts, a.1 = .sigmoid ∨ a.1 = .tanh) → (∀ a ∈ acts, a.2 < 2 ^ p.width) → (∀ i < acts.length, 2 ≤ p.errorExp i) →
    Chain (acts.map fun a => LayerModel.fullyConnected (F := B32) (a.2 : Int) a.1 []) s s' → s.prod < 2 ^ p.width → ∀ {d d' : Draws B32} {ls : List (Layer B32)}, UnitDraws32 d →
    buildLayers opt (acts.map fun a => LayerModel.fullyConnected (F := B32) (a.2 : Int) a.1 []) (s.map fun v : Nat => (v : Int)) d = .ok (ls, d') →
      TLs p opt (acts.map (·.1)) ls
  | [], s, s', _, _, _, _, _, d, d', ls, _, h => by cases h; exact .nil
  | a :: acts, s, s', ha, hn, he, hc, hp, d, d', ls, hd, h => by
    simp only [List.map_cons] at hc h ⊢
    cases hc with
    | @cons _ _ _ s1 _ hs0 hm hc =>
      have hs1 : GoodShape s1 := chain_good hc
      rw [buildLayers] at h
      obtain ⟨⟨l, d1⟩, h1, h⟩ := Res.bind_eq_ok.1 h
      simp only at h
      obtain ⟨l', d1', e, hb⟩ := buildLayer_ok opt hm hs0 hs1 d
      rw [h1] at e
      cases e
      obtain ⟨⟨ls', d2⟩, h2, h⟩ := Res.bind_eq_ok.1 h
      cases h
      rw [hb.shape] at h2
      rw [buildLayer_start hs0] at h1
      simp only at h1
      unfold buildSimple at h1
      obtain ⟨nw, hnw, h1⟩ := Res.bind_eq_ok.1 h1
      simp only at h1
      obtain ⟨⟨ns, d3⟩, h3, h1⟩ := Res.bind_eq_ok.1 h1
      cases h1
      have hp24 : (2 : ℕ) ^ p.width ≤ 2 ^ 24 := Nat.pow_le_pow_right (by norm_num) hw
      have hnw' : nw ≤ 2 ^ 24 := by
        unfold addI ckInt at hnw
        split at hnw
        · cases hnw; omega
        · cases hnw
      unfold makeAllNeurons at h3
      split at h3
      · cases h3
      have hlen := (makeNeurons_inv (P := fun _ => True) (fun _ _ _ => trivial) h3).1
      obtain ⟨q1, q2⟩ := neurons_made (P := TN p opt acts.length a.1)
        (fun d n hd h => neuron_made hS (weightExp_four hs (he _ (by simp))) (m := ⟨(s.prod : Int), 1, nw, lit 1, a.1⟩) rfl rfl hnw' hd h) hd h3
      have hs2 : s1.prod < 2 ^ p.width := by
        cases hm with
        | fullyConnected hk => simpa using hn a (by simp)
      refine .cons ⟨rfl, ha a (by simp), ns, rfl, ?_, by simpa using q1⟩
        (build_bounded hS hs hw (fun b hb => ha b (by simp [hb])) (fun b hb => hn b (by simp [hb])) (fun i hi => he i (by simp; omega)) hc hs2 q2 h2)
      rw [hlen]
      simpa using hn a (by simp)

theorem make_bounded (hS : SqrtLaw) {s s' : List Nat} {acts : List (Act × Nat)} (ha : ∀ a ∈ acts, a.1 = .sigmoid ∨ a.1 = .tanh)
    (h : WellFormed (DenseArch s acts) s s') (hp : InRanges p opt s.prod acts) (he : ∀ i < acts.length, 2 ≤ p.errorExp i)
    {d d' : Draws B32} (hd : UnitDraws32 d) {snn : Snn B32} (hm : Snn.make (DenseArch s acts) opt d = .ok (snn, d')) :
    TNet p opt (acts.map (·.1)) snn.net := by
  obtain ⟨⟨net, d1⟩, h1, hm⟩ := Res.bind_eq_ok.1 hm
  obtain ⟨err, h2, hm⟩ := Res.bind_eq_ok.1 hm
  split at hm
  · cases hm
  cases hm
  obtain ⟨⟨ls, d2⟩, h3, h1⟩ := Res.bind_eq_ok.1 h1
  obtain ⟨last, h4, h1⟩ := Res.bind_eq_ok.1 h1
  cases h1
  obtain ⟨m, rest, e, hc⟩ := h.layers
  have hcount := h.count
  have e' : (acts.map fun a => LayerModel.fullyConnected (F := B32) (a.2 : Int) a.1 []) = m :: rest := by
    unfold DenseArch at e
    exact (List.cons.inj e).2
  unfold DenseArch at h3 hcount
  rw [e'] at h3 hcount
  unfold LayerFactory.build at h3
  rw [if_neg (by simp at hcount ⊢; omega)] at h3
  simp only at h3
  rw [if_neg (by simp), computeNumberOfInputs_ok (chain_good hc)] at h3
  simp only [Res.ok_bind] at h3
  rw [if_neg (by have := (chain_good hc).small; omega)] at h3
  rw [← e'] at h3 hc
  exact ⟨build_bounded hS hp.slow hp.wide ha hp.neurons he hc hp.inputs hd h3, fun _ => rfl⟩

/-! ### The ranges -/

theorem errorExp_two (hs : p.rate ≤ 22) : ∀ i, 2 ≤ p.errorExp i
  | 0 => by show (2 : ℤ) ≤ p.label + 2; omega
  | i + 1 => by
    have := errorExp_two hs i
    show (2 : ℤ) ≤ p.errorExp i + (p.errorExp i + p.input - p.rate + p.damping + 24) + p.width
    omega

theorem weightExp_step (hs : p.rate ≤ 22) (i : Nat) : p.weightExp i ≤ p.weightExp (i + 1) := by
  have := errorExp_two hs i
  have e1 : p.errorExp (i + 1) = p.errorExp i + p.weightExp i + p.width := rfl
  have e2 : p.weightExp (i + 1) = p.errorExp (i + 1) + p.input - p.rate + p.damping + 24 := rfl
  have e3 : p.weightExp i = p.errorExp i + p.input - p.rate + p.damping + 24 := rfl
  omega

theorem weightExp_mono (hs : p.rate ≤ 22) {i j : Nat} (h : i ≤ j) : p.weightExp i ≤ p.weightExp j := by
  induction h with
  | refl => exact le_rfl
  | step _ ih => exact ih.trans (weightExp_step hs _)

theorem room_of {n : Nat} {acts : List (Act × Nat)} (h : InRanges p opt n acts) : ∀ i < acts.length, Room p opt i := by
  intro i hi
  have := weightExp_mono h.slow (show i ≤ acts.length - 1 by omega)
  have := h.room
  exact ⟨h.rate, h.momentum, h.damped, h.slow, by omega, errorExp_two h.slow i, h.wide⟩

theorem TLs.get {as : List Act} {ls : List (Layer B32)} (h : TLs p opt as ls) : ∀ {i : Nat} {l : Layer B32}, ls[i]? = some l →
    ∃ a, TL p opt (as.length - 1 - i) a l := by
  induction h with
  | nil => intro i l h; simp at h
  | @cons a as l ls h hs ih =>
    intro i l' he
    cases i with
    | zero => simp at he; subst he; exact ⟨a, by simpa using h⟩
    | succ i =>
      simp only [List.getElem?_cons_succ] at he
      obtain ⟨b, hb⟩ := ih he
      exact ⟨b, by rw [show (a :: as).length - 1 - (i + 1) = as.length - 1 - i by simp; omega]; exact hb⟩

/-- **C102.** A network of fully connected layers with logistic or hyperbolic tangent activations, of any depth and widths, with any
momentum up to 1, on data in the declared ranges: after every history of calls, any number of training steps with any batches, every
weight of every layer is a finite binary32 value of at most the magnitude declared for its layer, `computeOutput` gives finite values
between -1 and 1, and if the last layer is logistic `isNan()` is false. -/
theorem C102_finite (hT : TanhLaw) (hS : SqrtLaw) {s s' : List Nat} {acts : List (Act × Nat)} (ha : ∀ a ∈ acts, a.1 = .sigmoid ∨ a.1 = .tanh)
    (h : WellFormed (DenseArch s acts) s s') {p : Ranges} {opt : Sgd B32} (hp : InRanges p opt s.prod acts) {d d' : Draws B32} (hd : UnitDraws32 d)
    {snn : Snn B32} (hm : Snn.make (DenseArch s acts) opt d = .ok (snn, d'))
    {calls : List (Call B32)} (hc : ∀ c ∈ calls, CallFits s.prod s'.prod c ∧ CallInRanges p c) {r r' : Run B32} (hr : r.snn = snn)
    (hrun : calls.foldlM Call.run r = .ok r') :
    (∀ i l, r'.snn.net.layers[i]? = some l → ∀ n ∈ (layerParams l).neurons, ∀ w ∈ n.weights, Within (2 ^ p.weightExp (acts.length - 1 - i)) w) ∧
    (∀ x t, x.length = s.prod → (∀ v ∈ x, Within (2 ^ p.input) v) →
      ∃ y snn', r'.snn.computeOutput x t = .ok (y, snn') ∧ y.length = s'.prod ∧ ∀ v ∈ y, Within 1 v) ∧
    ((acts.map (·.1)).getLast? = some .sigmoid → r'.snn.net.outputNan = false) := by
  have hroom := room_of hp
  have hmb := make_bounded hS ha h hp (fun i _ => errorExp_two hp.slow i) hd hm
  have hne : acts.map (·.1) ≠ [] := by
    intro he
    have : acts = [] := by simpa using he
    subst this
    obtain ⟨m, rest, e, _⟩ := h.layers
    simp [DenseArch] at e
  obtain ⟨hn, hi⟩ := make_safe h dense_ends hm
  have hk := calls_within hT hne (by simpa using hroom) hp.inputs hc (r := r) (hr ▸ hmb) hrun
  have hsafe := history_wf (fun c h => (hc c h).1) (hr ▸ hn) (hr ▸ hi) hrun
  refine ⟨?_, ?_, hk.flag⟩
  · intro i l hl n hn' w hw
    obtain ⟨a, t⟩ := TLs.get hk.layers hl
    obtain ⟨ns, e, _, h2⟩ := t.neurons
    simp only [layerParams, e, List.mem_map] at hn'
    obtain ⟨m, hm', rfl⟩ := hn'
    have := (h2 m hm').weights w hw
    simpa using this
  · intro x t hx hx'
    obtain ⟨y, net, h1, h2, h3, h4⟩ := Net.output_ok hsafe.wf x hx t
    refine ⟨y, { r'.snn with net := net }, by simp [Snn.computeOutput, h1], h2, ?_⟩
    exact (netOutput_within hT hne (by simpa using hroom) hp.inputs hk ⟨hx, fun v hv => by rw [zpow_natCast]; exact hx' v hv⟩ h1).2

end

/-! ### Cases that meet the hypotheses -/

section Examples

/-- Functions with the assumed laws: a clamp for tanh, the identity for the root. -/
@[instance_reducible] def clamp : FTrans B32 :=
  ⟨id, id, fun v => match v with | .num q => num (rnd (max (-1) (min 1 q))) | .inf true => num (-1) | .inf false => num 1 | .nan => nan⟩

attribute [local instance] clamp

theorem clamp_tanh : TanhLaw := by
  intro v hv
  have m1 : Rep (-1) := rep_one.neg
  cases v with
  | nan => exact absurd rfl hv
  | inf s => cases s
             · exact ⟨1, rfl, rep_one, by norm_num, by norm_num⟩
             · exact ⟨-1, rfl, m1, by norm_num, by norm_num⟩
  | num q => exact ⟨_, rfl, rep_rnd _, le_rnd (le_max_left _ _) m1, rnd_le (max_le (by norm_num) (min_le_left _ _)) rep_one⟩

theorem clamp_sqrt : SqrtLaw := fun q hr h => ⟨q, rfl, hr, h⟩

theorem ratio {k : ℤ} {z : ℤ} {q b : ℚ} (hk : |k| ≤ 2 ^ 24) (hz : -149 ≤ z) (e : q = k * 2 ^ z) (h : |q| ≤ b) : Within b (num q) := ⟨q, rfl, ⟨k, z, hk, hz, e⟩, h⟩

/-- A hyperbolic tangent layer and a logistic one, momentum 1/2, learning rate 1/8, inputs up to 4, labels up to 1. -/
def acts : List (Act × Nat) := [(.tanh, 3), (.sigmoid, 1)]
def sgd : Sgd B32 := ⟨num (1/8), num (1/2)⟩
def ranges : Ranges := ⟨2, 0, 2, 3, 1⟩
def draws : Draws B32 := fun i => num (if i % 2 = 0 then 1/4 else 1)
def inputs : List (List B32) := [[num 1, num (-4)], [num 3, num (1/2)]]
def labels : List (List B32) := [[num 1], [num 0]]
def data : Data B32 := Res.get (Data.make1 .regression inputs labels .nonTemporal 0) (by decide +kernel)
def env : Env B32 := ⟨fun _ => 0, fun _ => 0, nan⟩
def built : Snn B32 × Draws B32 := Res.get (Snn.make (DenseArch [2] acts) sgd draws) (by decide +kernel)
def calls : List (Call B32) := [.train env data (litEp 2) 2 1 10, .train env data (litEp 2) 1 1 10, .computeOutput [num 4, num 4] true]

theorem g1 : GoodShape [1] := ⟨by simp, by simp, by simp⟩
theorem g2 : GoodShape [2] := ⟨by simp, by simp, by simp⟩
theorem g3 : GoodShape [3] := ⟨by simp, by simp, by simp⟩

theorem acts_wf : WellFormed (DenseArch [2] acts) [2] [1] :=
  ⟨⟨_, _, rfl, .cons g2 (Fits.fullyConnected (n := 3) (by omega)) (.cons g3 (Fits.fullyConnected (n := 1) (by omega)) (.nil g1))⟩, by simp [DenseArch, acts]⟩

theorem acts_in : InRanges ranges sgd 2 acts where
  rate := ratio (k := 1) (z := -3) (by norm_num) (by norm_num) (by norm_num [zpow_neg]) (by norm_num [ranges, zpow_neg, abs_le])
  momentum := ratio (k := 1) (z := -1) (by norm_num) (by norm_num) (by norm_num [zpow_neg]) (by norm_num [abs_le])
  damped := .inr ⟨by decide, ratio (k := 1) (z := -1) (by norm_num) (by norm_num) (by norm_num [zpow_neg]) (by norm_num [ranges, abs_le])⟩
  inputs := by decide
  neurons := by decide
  slow := by decide
  wide := by decide
  room := by decide

theorem draws_unit : UnitDraws32 draws := by
  intro i
  unfold draws
  split
  · exact ⟨1/4, rfl, ⟨1, -2, by norm_num, by norm_num, by norm_num [zpow_neg]⟩, by norm_num, by norm_num⟩
  · exact ⟨1, rfl, rep_one, by norm_num, by norm_num⟩

theorem data_fits : Fitted 2 1 data :=
  .make1 (p := .regression) (ti := inputs) (tl := labels) (nat := .nonTemporal) (rec := 0) (Res.eq_get _ _) ⟨rfl, by simp [Rows, inputs], by simp [Rows, labels]⟩
    (by intro h; cases h) (by intro h; cases h)

theorem four_in {q : ℚ} (k z : ℤ) (hk : |k| ≤ 2 ^ 24) (hz : -149 ≤ z) (e : q = k * 2 ^ z) (h : |q| ≤ 4) : Within (2 ^ ranges.input) (num q) :=
  ratio hk hz e (by simpa [ranges] using h.trans (by norm_num : (4 : ℚ) ≤ 2 ^ 2))

theorem train_fits (b : Int) (hb : b = 1 ∨ b = 2) : CallFits 2 1 (.train env data (litEp 2) b 1 10 : Call B32) ∧ CallInRanges ranges (.train env data (litEp 2) b 1 10) := by
  have hrows : ∀ r ∈ inputs, ∀ v ∈ r, Within (2 ^ ranges.input) v := by
    simp only [inputs, List.mem_cons, List.not_mem_nil, or_false, forall_eq_or_imp, forall_eq]
    refine ⟨⟨?_, ?_⟩, ?_, ?_⟩
    · exact four_in 1 0 (by norm_num) (by norm_num) (by norm_num) (by norm_num [abs_le])
    · exact four_in (-4) 0 (by norm_num) (by norm_num) (by norm_num) (by norm_num [abs_le])
    · exact four_in 3 0 (by norm_num) (by norm_num) (by norm_num) (by norm_num [abs_le])
    · exact four_in 1 (-1) (by norm_num) (by norm_num) (by norm_num [zpow_neg]) (by norm_num [abs_le])
  have hlab : ∀ r ∈ labels, ∀ v ∈ r, Within (2 ^ ranges.label) v := by
    simp only [labels, List.mem_cons, List.not_mem_nil, or_false, forall_eq_or_imp, forall_eq]
    exact ⟨ratio (k := 1) (z := 0) (by norm_num) (by norm_num) (by norm_num) (by norm_num [ranges]),
      ratio (k := 0) (z := 0) (by norm_num) (by norm_num) (by norm_num) (by norm_num [ranges])⟩
  have e1 : data.training.inputs = inputs := by decide +kernel
  have e2 : data.testing.inputs = inputs := by decide +kernel
  have e3 : data.training.labels = labels := by decide +kernel
  have e4 : data.training.size = 2 := by decide +kernel
  have e5 : data.typeOfTemporal = .nonTemporal := by decide +kernel
  refine ⟨⟨data_fits, by omega, by rw [e4]; omega, fun _ => e5, 3, overFrom_ep 2 (by norm_num), by norm_num, by rw [e4]; norm_num⟩, by omega, ?_, ?_, ?_, ?_⟩
  · rcases hb with rfl | rfl <;> norm_num [ranges]
  · rw [e2]; exact hrows
  · rw [e1]; exact hrows
  · rw [e3]; exact hlab

/-- The hypotheses of C102 hold, and its conclusion for the network after two trainings is not about an untouched network: the flag is
false and the weights were changed. -/
example : ∃ r', calls.foldlM Call.run ⟨built.1, data, draws, 0, []⟩ = .ok r' ∧ r'.snn.net.outputNan = false ∧
    r'.snn.net.layers.map (fun l => (layerParams l).neurons.map (·.weights)) ≠ built.1.net.layers.map (fun l => (layerParams l).neurons.map (·.weights)) ∧
    ∀ l, r'.snn.net.layers[0]? = some l → ∀ n ∈ (layerParams l).neurons, ∀ w ∈ n.weights, Within (2 ^ (54 : ℤ)) w := by
  have hrun : calls.foldlM Call.run ⟨built.1, data, draws, 0, []⟩ = .ok (Res.get (calls.foldlM Call.run ⟨built.1, data, draws, 0, []⟩) (by decide +kernel)) := Res.eq_get _ _
  have hmk : Snn.make (DenseArch [2] acts) sgd draws = .ok (built.1, built.2) := Res.eq_get _ (by decide +kernel)
  obtain ⟨c1, _, c3⟩ := C102_finite clamp_tanh clamp_sqrt (s := [2]) (s' := [1]) (by decide) acts_wf acts_in draws_unit hmk (by
    intro c hc
    simp only [calls, List.mem_cons, List.not_mem_nil, or_false] at hc
    rcases hc with rfl | rfl | rfl
    · exact train_fits 2 (.inr rfl)
    · exact train_fits 1 (.inl rfl)
    · refine ⟨rfl, ?_⟩
      intro v hv
      simp at hv
      subst hv
      exact four_in 4 0 (by norm_num) (by norm_num) (by norm_num) (by norm_num [abs_le])) rfl hrun
  refine ⟨_, hrun, c3 rfl, by decide +kernel, fun l hl => c1 0 l hl⟩

/-! ### What is false without the bound on the activations -/

def line : Sgd B32 := ⟨num (1/2), num 0⟩
def wide : Ranges := ⟨20, 0, 1, 1, 0⟩
def half : Draws B32 := fun _ => num (3/4)
def big : Data B32 := Res.get (Data.make1 .regression [[num (2 ^ 20)]] [[num 1]] .nonTemporal 0) (by decide +kernel)
def linear : Snn B32 × Draws B32 := Res.get (Snn.make (DenseArch [1] [(.identity, 1)]) line half) (by decide +kernel)

theorem big_fits : Fitted 1 1 big :=
  .make1 (p := .regression) (ti := [[num (2 ^ 20)]]) (tl := [[num 1]]) (nat := .nonTemporal) (rec := 0) (Res.eq_get _ _) ⟨rfl, by simp [Rows], by simp [Rows]⟩
    (by intro h; cases h) (by intro h; cases h)

/-- With the identity as activation all the other hypotheses of C102 do not prevent the overflow: on one example in the ranges, a few
steps make the prediction overflow, `isNan()` is true, and `computeOutput` gives infinity or NaN. -/
theorem C102_linear_overflows : ∃ (p : Ranges) (opt : Sgd B32) (d d' : Draws B32) (snn : Snn B32) (c : Call B32) (r' : Run B32),
    WellFormed (DenseArch [1] [(.identity, 1)]) [1] [1] ∧ InRanges p opt 1 [(.identity, 1)] ∧ UnitDraws32 d ∧
    Snn.make (DenseArch [1] [(.identity, 1)]) opt d = .ok (snn, d') ∧ CallFits 1 1 c ∧ CallInRanges p c ∧
    Call.run ⟨snn, big, d, 0, []⟩ c = .ok r' ∧ r'.snn.net.outputNan = true ∧
    ∃ (x v : B32) (snn' : Snn B32), Within (2 ^ p.input) x ∧ r'.snn.computeOutput [x] true = .ok ([v], snn') ∧ ∀ q, v ≠ num q := by
  have hx : Within (2 ^ wide.input) (num (2 ^ 20)) := ratio (k := 1) (z := 20) (by norm_num) (by norm_num) (by norm_num) (by norm_num [wide])
  refine ⟨wide, line, half, linear.2, linear.1, .train env big (litEp 8) 1 1 20,
    Res.get (Call.run ⟨linear.1, big, half, 0, []⟩ (.train env big (litEp 8) 1 1 20)) (by decide +kernel),
    ⟨⟨_, _, rfl, .cons g1 (Fits.fullyConnected (n := 1) (by omega)) (.nil g1)⟩, by simp [DenseArch]⟩, ?_, ?_, Res.eq_get _ (by decide +kernel), ?_, ?_, Res.eq_get _ _, by decide +kernel, ?_⟩
  · exact ⟨ratio (k := 1) (z := -1) (by norm_num) (by norm_num) (by norm_num [zpow_neg]) (by norm_num [wide, abs_le]),
      ratio (k := 0) (z := 0) (by norm_num) (by norm_num) (by norm_num) (by norm_num),
      .inr ⟨by decide, ratio (k := 0) (z := 0) (by norm_num) (by norm_num) (by norm_num) (by norm_num [wide])⟩, by decide, by decide, by decide, by decide, by decide⟩
  · exact fun i => ⟨3/4, rfl, ⟨3, -2, by norm_num, by norm_num, by norm_num [zpow_neg]⟩, by norm_num, by norm_num⟩
  · have e4 : big.training.size = 1 := by decide +kernel
    have e5 : big.typeOfTemporal = .nonTemporal := by decide +kernel
    exact ⟨big_fits, by norm_num, by rw [e4]; norm_num, fun _ => e5, 9, overFrom_ep 8 (by norm_num), by norm_num, by rw [e4]; norm_num⟩
  · have e1 : big.training.inputs = [[num (2 ^ 20)]] := by decide +kernel
    have e2 : big.testing.inputs = [[num (2 ^ 20)]] := by decide +kernel
    have e3 : big.training.labels = [[num 1]] := by decide +kernel
    refine ⟨by norm_num, by norm_num [wide], ?_, ?_, ?_⟩
    · rw [e2]; simpa using hx
    · rw [e1]; simpa using hx
    · rw [e3]
      simp only [List.mem_singleton, forall_eq]
      exact ratio (k := 1) (z := 0) (by norm_num) (by norm_num) (by norm_num) (by norm_num [wide])
  · have : ∃ v, (v = nan ∨ v = inf true ∨ v = inf false) ∧ (Res.get ((Res.get (Call.run ⟨linear.1, big, half, 0, []⟩ (.train env big (litEp 8) 1 1 20))
        (by decide +kernel)).snn.computeOutput [num (2 ^ 20)] true) (by decide +kernel)).1 = [v] := ⟨inf true, by simp, by decide +kernel⟩
    obtain ⟨v, h, e⟩ := this
    refine ⟨_, v, _, hx, (Res.eq_get _ (by decide +kernel)).trans (by rw [← e]), ?_⟩
    intro q
    rcases h with rfl | rfl | rfl <;> simp

/-! ### Subnormal outputs -/

def tiny : Data B32 := Res.get (Data.make1 .regression [[num 0]] [[num (2 ^ (-130 : ℤ))]] .nonTemporal 0) (by decide +kernel)
def zero : Snn B32 × Draws B32 := Res.get (Snn.make (DenseArch [1] [(.tanh, 1)]) line (fun _ => num (1/2))) (by decide +kernel)
def small : Ranges := ⟨0, 0, 1, 1, 0⟩

theorem tiny_fits : Fitted 1 1 tiny :=
  .make1 (p := .regression) (ti := [[num 0]]) (tl := [[num (2 ^ (-130 : ℤ))]]) (nat := .nonTemporal) (rec := 0) (Res.eq_get _ _) ⟨rfl, by simp [Rows], by simp [Rows]⟩
    (by intro h; cases h) (by intro h; cases h)

/-- `isNan()` may be true although every value is finite: under the hypotheses of C102, a last layer with a hyperbolic tangent gives a
subnormal value, and `isNan()` becomes true. -/
theorem C102_subnormal_flag : ∃ (p : Ranges) (opt : Sgd B32) (d d' : Draws B32) (snn : Snn B32) (c : Call B32) (r' : Run B32),
    WellFormed (DenseArch [1] [(.tanh, 1)]) [1] [1] ∧ InRanges p opt 1 [(.tanh, 1)] ∧ UnitDraws32 d ∧
    Snn.make (DenseArch [1] [(.tanh, 1)]) opt d = .ok (snn, d') ∧ CallFits 1 1 c ∧ CallInRanges p c ∧
    Call.run ⟨snn, tiny, d, 0, []⟩ c = .ok r' ∧ r'.snn.net.outputNan = true ∧
    ∀ l ∈ r'.snn.net.layers, ∀ n ∈ (layerParams l).neurons, ∀ w ∈ n.weights, Within (2 ^ (-130 : ℤ)) w := by
  have hrun : Call.run ⟨zero.1, tiny, fun _ => num (1/2), 0, []⟩ (.train env tiny (litEp 2) 1 1 20) =
    .ok (Res.get (Call.run ⟨zero.1, tiny, fun _ => num (1/2), 0, []⟩ (.train env tiny (litEp 2) 1 1 20)) (by decide +kernel)) := Res.eq_get _ _
  refine ⟨small, line, _, zero.2, zero.1, .train env tiny (litEp 2) 1 1 20, _,
    ⟨⟨_, _, rfl, .cons g1 (Fits.fullyConnected (n := 1) (by omega)) (.nil g1)⟩, by simp [DenseArch]⟩, ?_, ?_, Res.eq_get _ (by decide +kernel), ?_, ?_, hrun, by decide +kernel, ?_⟩
  · exact ⟨ratio (k := 1) (z := -1) (by norm_num) (by norm_num) (by norm_num [zpow_neg]) (by norm_num [small, abs_le]),
      ratio (k := 0) (z := 0) (by norm_num) (by norm_num) (by norm_num) (by norm_num),
      .inr ⟨by decide, ratio (k := 0) (z := 0) (by norm_num) (by norm_num) (by norm_num) (by norm_num [small])⟩, by decide, by decide, by decide, by decide, by decide⟩
  · exact fun i => ⟨1/2, rfl, ⟨1, -1, by norm_num, by norm_num, by norm_num [zpow_neg]⟩, by norm_num, by norm_num⟩
  · have e4 : tiny.training.size = 1 := by decide +kernel
    have e5 : tiny.typeOfTemporal = .nonTemporal := by decide +kernel
    exact ⟨tiny_fits, by norm_num, by rw [e4]; norm_num, fun _ => e5, 3, overFrom_ep 2 (by norm_num), by norm_num, by rw [e4]; norm_num⟩
  · have e1 : tiny.training.inputs = [[num 0]] := by decide +kernel
    have e2 : tiny.testing.inputs = [[num 0]] := by decide +kernel
    have e3 : tiny.training.labels = [[num (2 ^ (-130 : ℤ))]] := by decide +kernel
    have hx : Within (2 ^ small.input) (num 0) := ratio (k := 0) (z := 0) (by norm_num) (by norm_num) (by norm_num) (by norm_num [small])
    refine ⟨by norm_num, by norm_num [small], ?_, ?_, ?_⟩
    · rw [e2]; simpa using hx
    · rw [e1]; simpa using hx
    · rw [e3]
      simp only [List.mem_singleton, forall_eq]
      refine ratio (k := 1) (z := -130) (by norm_num) (by norm_num) (by norm_num) ?_
      rw [abs_of_pos (pow_pos' _)]
      simp only [small, pow_zero]
      exact zpow_le_one_of_nonpos₀ (by norm_num) (by norm_num)
  · have : ∀ l ∈ (Res.get (Call.run ⟨zero.1, tiny, fun _ => num (1/2), 0, []⟩ (.train env tiny (litEp 2) 1 1 20)) (by decide +kernel)).snn.net.layers,
        ∀ n ∈ (layerParams l).neurons, ∀ w ∈ n.weights, w = num 0 ∨ w = num (2 ^ (-130 : ℤ)) := by decide +kernel
    intro l hl n hn w hw
    rcases this l hl n hn w hw with rfl | rfl
    · exact ratio (k := 0) (z := 0) (by norm_num) (by norm_num) (by norm_num) (by rw [abs_zero]; exact (pow_pos' _).le)
    · exact ratio (k := 1) (z := -130) (by norm_num) (by norm_num) (by norm_num) (by rw [abs_of_pos (pow_pos' _)])

end Examples

end Snn.BoundedProps
