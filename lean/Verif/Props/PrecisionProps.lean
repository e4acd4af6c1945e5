import Verif.Proofs.PrecisionProofs
import Verif.Props.SafeProps
import Verif.Props.ArchProps
import Verif.Proofs.StatProofs

/-!
# C88: accuracy of the computations in single precision
-/

set_option linter.all false

namespace Snn.PrecisionProps

open Finset Snn.Spec Snn.B32 Snn.Precision Snn.HistoryProps Snn.SafeProps

section
variable {F : Type} [Flt F] [FTrans F] [Add F] [Sub F] [Mul F] [Div F] [Neg F]

theorem make_params {m : NeuronModel F} {o : Sgd F} {d : Nat → F} {n : Neuron F} (h : Neuron.make m o d = .ok n) :
    n.activationFunction = m.activationFunction ∧ n.bias = m.bias := by
  unfold Neuron.make at h
  split at h
  · cases h
  split at h
  · cases h
  obtain ⟨_, _, h⟩ := Res.bind_eq_ok.1 h
  obtain ⟨_, _, h⟩ := Res.bind_eq_ok.1 h
  obtain ⟨c, hc, h⟩ := Res.bind_eq_ok.1 h
  cases h
  exact ⟨rfl, rfl⟩

end

section
variable [FTrans B32]

theorem build_dense {o : Sgd B32} : ∀ {acts : List (Act × Nat)} {s s' : List Nat}, (∀ a ∈ acts, a.1 = .relu ∨ a.1 = .identity) →
    Chain (acts.map fun a => LayerModel.fullyConnected (F := B32) (a.2 : Int) a.1 []) s s' → ∀ {d d' : Draws B32} {ls : List (Layer B32)},
    buildLayers o (acts.map fun a => LayerModel.fullyConnected (F := B32) (a.2 : Int) a.1 []) (s.map fun v : Nat => (v : Int)) d = .ok (ls, d') →
      List.Forall₂ Dense (acts.map (·.1)) ls
  | [], s, s', _, _, d, d', ls, h => by cases h; exact .nil
  | a :: acts, s, s', ha, hc, d, d', ls, h => by
    simp only [List.map_cons] at hc h ⊢
    cases hc with
    | @cons _ _ _ s1 _ hs hm hc =>
      have hs1 : GoodShape s1 := chain_good hc
      rw [buildLayers] at h
      obtain ⟨⟨l, d1⟩, h1, h⟩ := Res.bind_eq_ok.1 h
      simp only at h
      obtain ⟨l', d1', e, hb⟩ := buildLayer_ok o hm hs hs1 d
      rw [h1] at e
      cases e
      obtain ⟨⟨ls', d2⟩, h2, h⟩ := Res.bind_eq_ok.1 h
      cases h
      rw [hb.shape] at h2
      refine .cons ?_ (build_dense (fun b hb => ha b (by simp [hb])) hc h2)
      rw [buildLayer_start hs] at h1
      simp only at h1
      unfold buildSimple at h1
      obtain ⟨nw, _, h1⟩ := Res.bind_eq_ok.1 h1
      simp only at h1
      obtain ⟨⟨ns, d3⟩, h3, h1⟩ := Res.bind_eq_ok.1 h1
      cases h1
      have := (makeAllNeurons_inv (fun _ _ h => make_params h) h3).2
      refine ⟨ha a (by simp), rfl, ns, rfl, fun n hn => ⟨(this n hn).1, ?_⟩⟩
      rw [(this n hn).2]
      exact lit_one

theorem make_dense {s s' : List Nat} {acts : List (Act × Nat)} (ha : ∀ a ∈ acts, a.1 = .relu ∨ a.1 = .identity) (h : WellFormed (DenseArch s acts) s s')
    {opt : Sgd B32} {d d' : Draws B32} {snn : Snn B32} (hm : Snn.make (DenseArch s acts) opt d = .ok (snn, d')) :
    List.Forall₂ Dense (acts.map (·.1)) snn.net.layers := by
  obtain ⟨⟨net, d1⟩, h1, hm⟩ := Res.bind_eq_ok.1 hm
  obtain ⟨err, h2, hm⟩ := Res.bind_eq_ok.1 hm
  split at hm
  · cases hm
  cases hm
  obtain ⟨⟨ls, d2⟩, h3, h1⟩ := Res.bind_eq_ok.1 h1
  obtain ⟨last, h4, h1⟩ := Res.bind_eq_ok.1 h1
  cases h1
  obtain ⟨m, rest, e, hc⟩ := h.layers
  have hcount := h.count
  have e' : (acts.map fun a => LayerModel.fullyConnected (F := B32) (a.2 : Int) a.1 []) = m :: rest := by
    unfold DenseArch at e
    exact (List.cons.inj e).2
  unfold DenseArch at h3 hcount
  rw [e'] at h3 hcount
  unfold LayerFactory.build at h3
  rw [if_neg (by simp at hcount ⊢; omega)] at h3
  simp only at h3
  rw [if_neg (by simp), computeNumberOfInputs_ok (chain_good hc)] at h3
  simp only [Res.ok_bind] at h3
  rw [if_neg (by have := (chain_good hc).small; omega)] at h3
  rw [← e'] at h3 hc
  exact build_dense ha hc h3

theorem dense_ends {s : List Nat} {acts : List (Act × Nat)} : EndsWithNeurons (DenseArch s acts) := by
  unfold EndsWithNeurons DenseArch
  rcases List.eq_nil_or_concat acts with rfl | ⟨as, a, rfl⟩
  · simp
  · rw [List.concat_eq_append, List.map_append, ← List.cons_append, List.map_singleton, List.getLast?_concat]
    trivial

theorem history_wf {ni no : Nat} {calls : List (Call B32)} (hc : ∀ c ∈ calls, CallFits ni no c) {r r' : Run B32} (hn : SafeNet ni no r.snn.net)
    (hi : r.snn.isIdle = true) (h : calls.foldlM Call.run r = .ok r') : SafeNet ni no r'.snn.net := by
  induction calls generalizing r with
  | nil => cases h; exact hn
  | cons c cs ih =>
    obtain ⟨r1, h1, h2, h3⟩ := call_safe (hc c (by simp)) hn hi
    rw [List.foldlM_cons, h1] at h
    exact ih (fun c' hc' => hc c' (by simp [hc'])) h2 h3 h

/-- The inputs are exact. -/
theorem close_refl (x : List ℚ) : Close x x (x.map fun _ => 0) := by
  refine ⟨rfl, by simp, ?_⟩
  intro i
  rw [sub_self, abs_zero, List.getD_eq_getElem?_getD, List.getElem?_map]
  cases x[i]? <;> simp

/-- **C88**: for every architecture of fully connected layers with identity or rectified linear activations, of any depth and widths,
after every history of calls, if no weight is infinite or NaN and no sum can overflow, `computeOutput` in single precision (binary32,
every operation rounded to the nearest) gives finite outputs, and each of them differs from the output of the ideal network with the same
weights and exact arithmetic by at most the bound computed from the weights and the ideal values. -/
theorem C88_accuracy {s s' : List Nat} {acts : List (Act × Nat)} (ha : ∀ a ∈ acts, a.1 = .relu ∨ a.1 = .identity) (h : WellFormed (DenseArch s acts) s s')
    {opt : Sgd B32} {d d' : Draws B32} {snn : Snn B32} (hm : Snn.make (DenseArch s acts) opt d = .ok (snn, d'))
    {calls : List (Call B32)} (hc : ∀ c ∈ calls, CallFits s.prod s'.prod c) {r r' : Run B32} (hr : r.snn = snn) (hrun : calls.foldlM Call.run r = .ok r')
    {Ws : List (List (List ℚ))} (hW : r'.snn.net.layers.map (fun l => (layerParams l).neurons.map (·.weights)) = Ws.map (·.map (·.map num)))
    {x : List ℚ} (hx : x.length = s.prod) (hmod : Moderate ((acts.map (·.1)).zip Ws) x (x.map fun _ => 0)) (t : Bool) :
    ∃ (y : List ℚ) (snn' : Snn B32), r'.snn.computeOutput (x.map num) t = .ok (y.map num, snn') ∧ y.length = s'.prod ∧
      ∀ k < s'.prod, |y.getD k 0 - (ideal ((acts.map (·.1)).zip Ws) x).getD k 0| ≤ (errorBound ((acts.map (·.1)).zip Ws) x (x.map fun _ => 0)).getD k 0 := by
  obtain ⟨hn, hi⟩ := make_safe h dense_ends hm
  have hd := make_dense ha h hm
  have hk := history_kin hrun
  rw [hr] at hk
  have hd' := dense_of_kin hd hk.layers
  have hs := history_wf hc (hr ▸ hn) (hr ▸ hi) hrun
  obtain ⟨y, ls', e1, e2, e3⟩ := loop_error hd' hs.wf.layers hW hx (close_refl x) hmod t
  have hne : r'.snn.net.layers.isEmpty = false := by simpa using hs.wf.ne
  refine ⟨y, { r'.snn with net := { r'.snn.net with layers := ls', outputNan := r'.snn.net.outputNan || hasBadValue (y.map num) } }, ?_, e3, fun k _ => e2.2.2 k⟩
  simp [Snn.computeOutput, Net.output, hne, e1]

theorem argmax_num (y : List ℚ) : ∀ (i : Int) (b : ℚ) (k : Int), argmaxFrom (y.map num) i (num b) k = argmaxFrom y i b k := by
  induction y with
  | nil => intro i b k; rfl
  | cons v y ih =>
    intro i b k
    simp only [List.map_cons, argmaxFrom]
    have e : flt (num b) (num v) = flt b v := rfl
    rw [e]
    split
    · exact ih _ _ _
    · exact ih _ _ _

theorem lit_minus_two : (lit (-2) : B32) = num (-2) := by decide +kernel

/-- **C88**, the consequence for a classifier: if the ideal output c exceeds every other one by more than the two bounds of error (and
the floor -2 of C50 by more than its bound), then `computeCluster` in single precision answers c, the class of the ideal network. -/
theorem C88_class {s s' : List Nat} {acts : List (Act × Nat)} (ha : ∀ a ∈ acts, a.1 = .relu ∨ a.1 = .identity) (h : WellFormed (DenseArch s acts) s s')
    {opt : Sgd B32} {d d' : Draws B32} {snn : Snn B32} (hm : Snn.make (DenseArch s acts) opt d = .ok (snn, d'))
    {calls : List (Call B32)} (hc : ∀ c ∈ calls, CallFits s.prod s'.prod c) {r r' : Run B32} (hr : r.snn = snn) (hrun : calls.foldlM Call.run r = .ok r')
    {Ws : List (List (List ℚ))} (hW : r'.snn.net.layers.map (fun l => (layerParams l).neurons.map (·.weights)) = Ws.map (·.map (·.map num)))
    {x : List ℚ} (hx : x.length = s.prod) (hmod : Moderate ((acts.map (·.1)).zip Ws) x (x.map fun _ => 0)) (t : Bool)
    {v e : Nat → ℚ} (hv : v = fun k => (ideal ((acts.map (·.1)).zip Ws) x).getD k 0)
    (he : e = fun k => (errorBound ((acts.map (·.1)).zip Ws) x (x.map fun _ => 0)).getD k 0)
    {c : Nat} (hcl : c < s'.prod) (hmargin : ∀ j < s'.prod, j ≠ c → v j + e j < v c - e c) (hfloor : -2 < v c - e c) :
    ∃ snn', r'.snn.computeCluster (x.map num) t = .ok ((c : Int), snn') := by
  obtain ⟨y, snn', h1, h2, h3⟩ := C88_accuracy ha h hm hc hr hrun hW hx hmod t
  refine ⟨snn', ?_⟩
  have near : ∀ k < s'.prod, v k - e k ≤ y.getD k 0 ∧ y.getD k 0 ≤ v k + e k := by
    intro k hk
    have := h3 k hk
    rw [abs_le] at this
    rw [hv, he]
    constructor <;> linarith [this.1, this.2]
  have hcy : c < y.length := by rw [h2]; exact hcl
  have hcm : y.getD c 0 ∈ y := by rw [List.getD_eq_getElem _ _ hcy]; exact List.getElem_mem _
  obtain ⟨k, hk, w, hw, hmax, hfirst⟩ := Snn.StatSpec.argmaxLoop_spec (o := y) ⟨_, hcm, lt_of_lt_of_le hfloor (near c hcl).1⟩
  have hkl : k < y.length := (List.getElem?_eq_some_iff.1 hw).1
  have hwk : y.getD k 0 = w := by rw [List.getD_eq_getElem?_getD, hw]; rfl
  have hkc : k = c := by
    by_contra hne
    have m1 := hmargin k (by rw [← h2]; exact hkl) hne
    have m2 := (near k (by rw [← h2]; exact hkl)).2
    have m3 := (near c hcl).1
    have m4 := hmax _ hcm
    linarith
  unfold Snn.computeOutput at h1
  unfold Snn.computeCluster
  obtain ⟨⟨o, net⟩, q1, q2⟩ := Res.bind_eq_ok.1 h1
  have e1 : argmaxLoop (y.map num) = (c : Int) := by
    unfold argmaxLoop at hk ⊢
    rw [lit_minus_two, argmax_num, ← hkc, ← hk]
    congr 1
  cases q2
  rw [q1, Res.ok_bind]
  simp only [Res.pure_eq]
  rw [e1]

end

/-! ### A case that meets the hypotheses -/

section Example

/-- The architecture of the example uses neither exponentials nor hyperbolic tangents nor roots. -/
@[instance_reducible] def noTrans : FTrans B32 := ⟨id, id, id⟩

attribute [local instance] noTrans

def sgd : Sgd B32 := ⟨num (1/8), num 0⟩
def acts : List (Act × Nat) := [(.relu, 2), (.identity, 1)]
def draws : Draws B32 := fun i => num ((i : ℚ) / 4 - 1 / 2)
def built : Snn B32 × Draws B32 := Res.get (Snn.make (DenseArch [2] acts) sgd draws) (by decide +kernel)
def weightsOf (s : Snn B32) : List (List (List B32)) := s.net.layers.map fun l => (layerParams l).neurons.map (·.weights)
def toQ : B32 → ℚ
  | num q => q
  | _ => 0
def qs : List (List (List ℚ)) := (weightsOf built.1).map (·.map (·.map toQ))

theorem g1 : GoodShape [1] := ⟨by simp, by simp, by simp⟩
theorem g2 : GoodShape [2] := ⟨by simp, by simp, by simp⟩

theorem acts_wf : WellFormed (DenseArch [2] acts) [2] [1] :=
  ⟨⟨_, _, rfl, .cons g2 (Fits.fullyConnected (n := 2) (by omega)) (.cons g2 (Fits.fullyConnected (n := 1) (by omega)) (.nil g1))⟩, by simp [DenseArch, acts]⟩

/-- The hypotheses hold for a network of two layers whose weights are not all 0, and the bound is less than 10^-5. -/
example : (∀ a ∈ acts, a.1 = .relu ∨ a.1 = .identity) ∧ WellFormed (DenseArch [2] acts) [2] [1] ∧ Snn.make (DenseArch [2] acts) sgd draws = .ok built ∧
    weightsOf built.1 = qs.map (·.map (·.map num)) ∧ qs.map (·.map (·.length)) = [[3, 3], [3]] ∧
    Moderate ((acts.map (·.1)).zip qs) [1/3, -5] ([1/3, -5].map fun _ => 0) ∧ 0 < (ideal ((acts.map (·.1)).zip qs) [1/3, -5]).getD 0 0 ∧
    (errorBound ((acts.map (·.1)).zip qs) [1/3, -5] ([1/3, -5].map fun _ => 0)).getD 0 0 < 1 / 100000 := by
  refine ⟨by decide, acts_wf, Res.eq_get _ (by decide +kernel), by decide +kernel, by decide +kernel, ?_, by decide +kernel, by decide +kernel⟩
  have e : (acts.map (·.1)).zip qs = [(.relu, qs.getD 0 []), (.identity, qs.getD 1 [])] := by decide +kernel
  rw [e]
  refine ⟨by decide, by decide +kernel, by decide +kernel, by decide +kernel, trivial⟩

def acts2 : List (Act × Nat) := [(.relu, 2), (.identity, 2)]
def built2 : Snn B32 × Draws B32 := Res.get (Snn.make (DenseArch [2] acts2) sgd draws) (by decide +kernel)
def qs2 : List (List (List ℚ)) := (weightsOf built2.1).map (·.map (·.map toQ))

theorem acts2_wf : WellFormed (DenseArch [2] acts2) [2] [2] :=
  ⟨⟨_, _, rfl, .cons g2 (Fits.fullyConnected (n := 2) (by omega)) (.cons g2 (Fits.fullyConnected (n := 2) (by omega)) (.nil g2))⟩, by simp [DenseArch, acts2]⟩

/-- The class of a network with two outputs is the one of the ideal network. -/
example : ∃ (c : Nat) (snn' : Snn B32), built2.1.computeCluster ([1/3, -5].map num) true = .ok ((c : Int), snn') ∧
    ∀ j < 2, j ≠ c → (ideal ((acts2.map (·.1)).zip qs2) [1/3, -5]).getD j 0 < (ideal ((acts2.map (·.1)).zip qs2) [1/3, -5]).getD c 0 := by
  have e : (acts2.map (·.1)).zip qs2 = [(.relu, qs2.getD 0 []), (.identity, qs2.getD 1 [])] := by decide +kernel
  have hmod : Moderate ((acts2.map (·.1)).zip qs2) [1/3, -5] ([1/3, -5].map fun _ => 0) := by
    rw [e]
    refine ⟨by decide, by decide +kernel, by decide +kernel, by decide +kernel, trivial⟩
  have hW : weightsOf built2.1 = qs2.map (·.map (·.map num)) := by decide +kernel
  have hmk : Snn.make (DenseArch [2] acts2) sgd draws = .ok (built2.1, built2.2) := Res.eq_get _ (by decide +kernel)
  obtain ⟨snn', h⟩ := C88_class (s := [2]) (s' := [2]) (acts := acts2) (by decide) acts2_wf hmk (calls := []) (by simp)
    (r := ⟨built2.1, (Data.blank .regression .nonTemporal 0), draws, 0, []⟩) (r' := ⟨built2.1, (Data.blank .regression .nonTemporal 0), draws, 0, []⟩) rfl rfl
    (Ws := qs2) hW (x := [1/3, -5]) (by simp) hmod true rfl rfl (c := 1) (by simp) (by decide +kernel) (by decide +kernel)
  exact ⟨1, snn', h, by decide +kernel⟩

end Example

end Snn.PrecisionProps
