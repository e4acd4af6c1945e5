import Verif.Proofs.GradNet
import Verif.Proofs.GradPool
import Verif.Proofs.FrameProofs
import Verif.Proofs.NetBuild
import Verif.Props.PoolProps

/-! The architectures for which every layer is as backpropagation needs it. -/

set_option linter.all false

namespace Snn.Grad

open Finset Snn.Spec Snn.NeuronSpec

/-- A layer built from a plain layer of an architecture. -/
def PlainL (first : Bool) (l : Layer ℝ) : Prop :=
  l.optimizers = [] ∧ match l.body with
    | .fullyConnected ns => ∀ n ∈ ns, n.activationFunction ≠ .iSigmoid
    | .filter kind ns info => (kind = .lc1D ∨ kind = .lc2D) ∧ (∀ n ∈ ns, n.activationFunction ≠ .iSigmoid) ∧ (first = false → TrueRows kind info)
    | .pool _ info _ _ => DisjointRows info
    | _ => False

/-- All of them. -/
inductive PlainLs : Bool → List (Layer ℝ) → Prop
  | nil {first : Bool} : PlainLs first []
  | cons {first : Bool} {l : Layer ℝ} {ls : List (Layer ℝ)} (h : PlainL first l) (hs : PlainLs false ls) : PlainLs first (l :: ls)

theorem PlainL.of_kin {first : Bool} {l l' : Layer ℝ} (h : PlainL first l) (hk : l.Kin l') : PlainL first l' := by
  obtain ⟨h1, h2⟩ := h
  refine ⟨?_, ?_⟩
  · have := hk.2
    rw [h1] at this
    exact List.length_eq_zero_iff.1 (by simpa using this)
  · have hb := hk.3
    cases hl : l.body <;> cases hl' : l'.body <;> rw [hl, hl'] at hb <;> rw [hl] at h2 <;> simp only [Body.Kin] at hb <;> simp only at h2 ⊢
    · exact forall₂_forall hb h2 fun a b hk ha => by rw [hk.activation]; exact ha
    · obtain ⟨rfl, h3, rfl⟩ := hb
      exact ⟨h2.1, forall₂_forall h3 h2.2.1 fun a b hk ha => by rw [hk.activation]; exact ha, h2.2.2⟩
    · obtain ⟨rfl, rfl, rfl, _⟩ := hb
      exact h2

theorem PlainLs.of_kin {first : Bool} {ls ls' : List (Layer ℝ)} (h : PlainLs first ls) (hk : List.Forall₂ Layer.Kin ls ls') : PlainLs first ls' := by
  induction h generalizing ls' with
  | nil => cases hk; exact .nil
  | cons h hs ih =>
    cases hk with
    | cons k1 k2 => exact .cons (h.of_kin k1) (ih k2)

theorem fn_eq {l l' : Layer ℝ} {x y : List ℝ} (h : l.output x false = .ok (y, l')) : fn l x = y := by
  unfold fn; rw [h]

theorem diff_of_plain {first : Bool} {l : Layer ℝ} {x : List ℝ} {ni no : Nat} {o : Sgd ℝ} (hp : PlainL first l) (hw : l.WF ni no)
    (ho : l.body.HasOpt o) (hx : x.length = ni) (hk : NoKink l x) : Diff first o l x ni no := by
  obtain ⟨h1, h2⟩ := hp
  cases hb : l.body with
  | fullyConnected ns => rw [hb] at h2 ho; exact diff_fc h1 hb hw ho hx h2 hk first
  | filter kind ns info => rw [hb] at h2 ho; exact diff_lc h1 hb h2.1 hw ho hx h2.2.1 hk first h2.2.2
  | pool td info n mvi => rw [hb] at h2; exact diff_pool h1 hb hw hx hk h2 first
  | recurrence ns => rw [hb] at h2; exact h2.elim
  | gru ns => rw [hb] at h2; exact h2.elim

theorem smooth_of_plain {o : Sgd ℝ} {first : Bool} {ls : List (Layer ℝ)} {x : List ℝ} {ni no : Nat} (hp : PlainLs first ls) (hw : LayersWF ls ni no)
    (ho : ∀ l ∈ ls, l.body.HasOpt o) (hx : x.length = ni) (hk : NoKinks ls x) : Smooth o first ls x ni no := by
  induction hw generalizing first x with
  | nil => exact .nil hx
  | @cons l ls n k m hl hs ih =>
    cases hp with
    | cons p1 p2 =>
      cases hk with
      | @cons _ l' _ _ y hk1 hout hk2 =>
        obtain ⟨y', l'', e1, e2, _⟩ := Layer.output_ok hl x hx false
        rw [hout] at e1
        cases e1
        have e := fn_eq hout
        subst e
        exact .cons (diff_of_plain p1 hl (ho l (by simp)) hx hk1) (ih p2 (fun l' hl' => ho l' (by simp [hl'])) e2 hk2)

/-! ### The constructor -/

theorem make_mem {m : NeuronModel ℝ} {o : Sgd ℝ} {d : Nat → ℝ} {n : Neuron ℝ} (h : Neuron.make m o d = .ok n) :
    n.activationFunction = m.activationFunction ∧ ∀ i, (mem n).getD i 0 = 0 := by
  unfold Neuron.make at h
  split at h
  · cases h
  split at h
  · cases h
  obtain ⟨_, _, h⟩ := Res.bind_eq_ok.1 h
  obtain ⟨_, _, h⟩ := Res.bind_eq_ok.1 h
  obtain ⟨c, hc, h⟩ := Res.bind_eq_ok.1 h
  cases h
  refine ⟨rfl, ?_⟩
  intro i
  unfold Circ.init at hc
  split at hc
  · cases hc
  split at hc
  · cases hc
  cases hc
  simp only [mem]
  cases m.batchSize.toNat with
  | zero => simp
  | succ k =>
    simp only [List.replicate_succ, List.headD_cons, List.getD_eq_getElem?_getD, List.getElem?_replicate, lit_eq, Rat.cast_zero]
    split <;> rfl

/-- No neuron of the layer has been trained. -/
def Fresh (l : Layer ℝ) : Prop := ∀ k i, memory l k i = 0

theorem fresh_of {l : Layer ℝ} (h : ∀ n ∈ neurons l, ∀ i, (mem n).getD i 0 = 0) : Fresh l := by
  intro k i
  unfold memory
  cases hk : (neurons l)[k]? with
  | none => rfl
  | some n => exact h n (List.mem_of_getElem? hk) i

theorem buildLocallyConnected_plain {o : Sgd ℝ} {ni f k : Int} {shape : List Int} {act : Act} {d d' : Draws ℝ} {l : Layer ℝ}
    (h : buildLocallyConnected o ni shape f k act [] d = .ok (l, d')) :
    l.optimizers = [] ∧ ∃ kind ns info, l.body = .filter kind ns info ∧ (kind = .lc1D ∨ kind = .lc2D) ∧ (shape.length = 3 → kind = .lc2D) ∧
      info.numberOfFilters = f ∧ ∀ n ∈ ns, n.activationFunction = act ∧ ∀ i, (mem n).getD i 0 = 0 := by
  unfold buildLocallyConnected at h
  split at h
  · rename_i hn
    split at h
    · cases h
    · obtain ⟨_, _, h⟩ := Res.bind_eq_ok.1 h
      obtain ⟨_, _, h⟩ := Res.bind_eq_ok.1 h
      obtain ⟨_, _, h⟩ := Res.bind_eq_ok.1 h
      obtain ⟨_, _, h⟩ := Res.bind_eq_ok.1 h
      obtain ⟨_, _, h⟩ := Res.bind_eq_ok.1 h
      simp only at h
      obtain ⟨⟨ns, d1⟩, h1, h⟩ := Res.bind_eq_ok.1 h
      simp only at h
      obtain ⟨_, _, h⟩ := Res.bind_eq_ok.1 h
      cases h
      refine ⟨rfl, _, ns, _, rfl, Or.inl rfl, ?_, rfl, ?_⟩
      · intro h3
        match shape, h3 with
        | [a, b, c], _ => simp [normalizeShape] at hn
      · have := (makeAllNeurons_inv (fun _ _ h => make_mem h) h1).2
        exact this
  · split at h
    · cases h
    · obtain ⟨_, _, h⟩ := Res.bind_eq_ok.1 h
      obtain ⟨_, _, h⟩ := Res.bind_eq_ok.1 h
      obtain ⟨_, _, h⟩ := Res.bind_eq_ok.1 h
      obtain ⟨_, _, h⟩ := Res.bind_eq_ok.1 h
      obtain ⟨_, _, h⟩ := Res.bind_eq_ok.1 h
      obtain ⟨_, _, h⟩ := Res.bind_eq_ok.1 h
      obtain ⟨_, _, h⟩ := Res.bind_eq_ok.1 h
      obtain ⟨_, _, h⟩ := Res.bind_eq_ok.1 h
      simp only at h
      obtain ⟨⟨ns, d1⟩, h1, h⟩ := Res.bind_eq_ok.1 h
      simp only at h
      obtain ⟨_, _, h⟩ := Res.bind_eq_ok.1 h
      cases h
      refine ⟨rfl, _, ns, _, rfl, Or.inr rfl, fun _ => rfl, rfl, ?_⟩
      have := (makeAllNeurons_inv (fun _ _ h => make_mem h) h1).2
      exact this
  · cases h

theorem disjoint_of_owner {info : FilterInfo} {rows : List (List Int)} (h : info.kernelIndexes = rows) (owner : Nat → Nat)
    (hown : ∀ k < rows.length, ∀ i : Nat, (i : Int) ∈ rows.getD k [] → owner i = k) : DisjointRows info := by
  intro k k' row row' i h1 h2 h0 hi hi'
  rw [h] at h1 h2
  obtain ⟨q, rfl⟩ := Int.eq_ofNat_of_zero_le h0
  have hlt : ∀ {j : Nat} {r : List Int}, rows[j]? = some r → j < rows.length := by
    intro j r hj
    by_contra hc
    rw [List.getElem?_eq_none (by omega)] at hj; cases hj
  have a := hown k (hlt h1) q (by rw [List.getD_eq_getElem?_getD, h1]; exact hi)
  have b := hown k' (hlt h2) q (by rw [List.getD_eq_getElem?_getD, h2]; exact hi')
  omega

theorem pool1D_disjoint {X K : Nat} {info : FilterInfo} (h : info.kernelIndexes = (List.range (ceil X K)).map (pool1DRow 1 K (1 * X))) :
    DisjointRows info := by
  refine disjoint_of_owner h (fun i => i / K) ?_
  intro k hk i hi
  simp only [List.length_map, List.length_range] at hk
  rw [getD_map_range _ _ _ _ hk] at hi
  have := (LayerProps.pool1D_mem (C := 1) (X := X) (K := K) (p := k) (c := 0) (by omega) i).1 (by simpa using hi)
  obtain ⟨j, hj, _, rfl⟩ := this
  simp only [Nat.mul_one, Nat.add_zero]
  exact mulAdd_div hj

theorem pool2D_disjoint {C X Y K : Nat} (hC : 0 < C) (hout : 0 < ceil X K) (hXY : ceil X K = ceil Y K) {info : FilterInfo}
    (h : info.kernelIndexes = (List.range (C * ceil X K * ceil Y K)).map (pool2DRow C X K (ceil X K) (ceil Y K) (C * X * Y))) :
    DisjointRows info := by
  refine disjoint_of_owner h (fun i => ((i / C / X / K) * ceil X K + (i / C % X) / K) * C + i % C) ?_
  have hdec : ∀ k, ((k / C / ceil X K) * ceil X K + k / C % ceil X K) * C + k % C = k := by
    intro k
    rw [Nat.div_add_mod', Nat.div_add_mod']
  intro k hk i hi
  simp only [List.length_map, List.length_range] at hk
  rw [getD_map_range _ _ _ _ hk, ← hXY] at hi
  have := LayerProps.pool2D_mem (C := C) (X := X) (Y := Y) (K := K) (px := k / C % ceil X K) (py := k / C / ceil X K) (c := k % C) (out := ceil X K)
    (Nat.mod_lt _ hC) (Nat.mod_lt _ hout) i
  rw [hdec] at this
  obtain ⟨a, ha, b, hb, h1, h2, rfl⟩ := this.1 hi
  rw [mulAdd_div (Nat.mod_lt _ hC), mulAdd_mod (Nat.mod_lt _ hC), mulAdd_div h1, mulAdd_mod h1,
    mulAdd_div ha, mulAdd_div hb]
  exact hdec k

theorem fits_pool {k : Int} {s s' : List Nat} (h : Fits (.maxPooling k : LayerModel ℝ) s s') : ∃ K : Nat, k = K ∧ 0 < K := by
  cases h with
  | @pool1 K x hk => exact ⟨K, rfl, hk⟩
  | @pool1D K x hk => exact ⟨K, rfl, hk⟩
  | @pool2D K c x y hk => exact ⟨K, rfl, hk⟩

theorem buildLayer_plain {o : Sgd ℝ} {first : Bool} {m : LayerModel ℝ} {s s' : List Nat} (hs : GoodShape s) (hf : Fits m s s')
    (hp : PlainLayer first m s) {d d' : Draws ℝ} {l : Layer ℝ} (h : buildLayer o m (s.map fun v : Nat => (v : Int)) d = .ok (l, d')) :
    PlainL first l ∧ Fresh l := by
  have hlen := (buildLayer_set h).1
  rw [buildLayer_start hs] at h
  cases hp with
  | @fullyConnected n act _ ha =>
    simp only at h
    unfold buildSimple at h
    obtain ⟨nw, _, h⟩ := Res.bind_eq_ok.1 h
    simp only at h
    obtain ⟨⟨ns, d1⟩, h1, h⟩ := Res.bind_eq_ok.1 h
    cases h
    have := (makeAllNeurons_inv (fun _ _ h => make_mem h) h1).2
    exact ⟨⟨rfl, fun n hn => by rw [(this n hn).1]; exact ha⟩, fresh_of fun n hn => (this n hn).2⟩
  | @locally1D f k act _ ha hf' =>
    simp only at h
    obtain ⟨h1, kind, ns, info, h2, h3, h4, h5, h6⟩ := buildLocallyConnected_plain h
    refine ⟨⟨h1, ?_⟩, fresh_of fun n hn => ?_⟩
    · rw [h2]
      refine ⟨h3, fun n hn => by rw [(h6 n hn).1]; exact ha, fun hff => ?_⟩
      rcases hf' with hf' | rfl
      · rw [hff] at hf'; cases hf'
      · rcases h3 with rfl | rfl
        · exact Or.inr ⟨rfl, Or.inl h5⟩
        · exact Or.inl rfl
    · rw [neurons, h2] at hn
      exact (h6 n hn).2
  | @locally2D f k act c x y ha =>
    simp only at h
    obtain ⟨h1, kind, ns, info, h2, h3, h4, h5, h6⟩ := buildLocallyConnected_plain h
    refine ⟨⟨h1, ?_⟩, fresh_of fun n hn => ?_⟩
    · rw [h2]
      exact ⟨h3, fun n hn => by rw [(h6 n hn).1]; exact ha, fun _ => Or.inl (h4 (by simp))⟩
    · rw [neurons, h2] at hn
      exact (h6 n hn).2
  | @pool1 k x =>
    obtain ⟨K, rfl, hK⟩ := fits_pool hf
    simp only at h
    obtain ⟨l1, h1, h⟩ := Res.bind_eq_ok.1 h
    cases h
    have e : ([x].prod : Nat) = 1 * x := by simp
    rw [e] at h1
    obtain ⟨_, _, info, hb⟩ := buildPool1D_inv (C := 1) (X := x) (shape := [x].map fun v : Nat => (v : Int)) rfl h1
    obtain ⟨q, mv, hbb, _⟩ := hb.body
    refine ⟨⟨hb.optimizers, ?_⟩, fresh_of fun n hn => ?_⟩
    · rw [hbb]; exact pool1D_disjoint hb.kidx
    · rw [neurons, hbb] at hn; simp at hn
  | @pool1D k x =>
    obtain ⟨K, rfl, hK⟩ := fits_pool hf
    simp only at h
    obtain ⟨l1, h1, h⟩ := Res.bind_eq_ok.1 h
    cases h
    have e : ([1, x].prod : Nat) = 1 * x := by simp
    rw [e] at h1
    obtain ⟨_, _, info, hb⟩ := buildPool1D_inv (C := 1) (X := x) (shape := [1, x].map fun v : Nat => (v : Int)) rfl h1
    obtain ⟨q, mv, hbb, _⟩ := hb.body
    refine ⟨⟨hb.optimizers, ?_⟩, fresh_of fun n hn => ?_⟩
    · rw [hbb]; exact pool1D_disjoint hb.kidx
    · rw [neurons, hbb] at hn; simp at hn
  | @pool2D K c x y hxy =>
    have hC : 0 < c := hs.pos c (by simp)
    simp only at h
    obtain ⟨l1, h1, h⟩ := Res.bind_eq_ok.1 h
    cases h
    have e : ([c, x, y].prod : Nat) = c * x * y := by simp [Nat.mul_assoc]
    rw [e] at h1
    obtain ⟨hKX, _, hK, info, hb⟩ := buildPool2D_inv (C := c) (X := x) (Y := y) h1
    obtain ⟨q, mv, hbb, _⟩ := hb.body
    refine ⟨⟨hb.optimizers, ?_⟩, fresh_of fun n hn => ?_⟩
    · rw [hbb]; exact pool2D_disjoint hC (ceil_pos hK (by omega)) hxy hb.kidx
    · rw [neurons, hbb] at hn; simp at hn

theorem fits_fun {m : LayerModel ℝ} {s a b : List Nat} (h : Fits m s a) (h' : Fits m s b) : a = b := by
  cases h <;> cases h' <;> simp_all <;> omega

theorem buildLayers_plain {o : Sgd ℝ} {ms : List (LayerModel ℝ)} {s s' : List Nat} (hc : Chain ms s s') : ∀ {first : Bool} (hp : PlainChain first ms s)
    {d d' : Draws ℝ} {ls : List (Layer ℝ)}, buildLayers o ms (s.map fun v : Nat => (v : Int)) d = .ok (ls, d') → PlainLs first ls ∧ ∀ l ∈ ls, Fresh l := by
  induction hc with
  | nil =>
    intro first hp d d' ls h
    cases h
    exact ⟨.nil, by simp⟩
  | @cons m ms s s1 s2 hs hm hc ih =>
    intro first hp d d' ls h
    have hs1 : GoodShape s1 := by cases hc <;> assumption
    cases hp with
    | @cons _ _ _ _ s1' hp hf' hps =>
      have hss : s1' = s1 := by
        obtain ⟨l, d1, e, hb⟩ := buildLayer_ok o hm hs hs1 d
        have := fits_fun hf' hm
        exact this
      subst hss
      rw [buildLayers] at h
      obtain ⟨⟨l, d1⟩, h1, h⟩ := Res.bind_eq_ok.1 h
      simp only at h
      obtain ⟨l', d1', e, hb⟩ := buildLayer_ok o hm hs hs1 d
      rw [h1] at e
      cases e
      obtain ⟨⟨ls', d2⟩, h2, h⟩ := Res.bind_eq_ok.1 h
      cases h
      rw [hb.shape] at h2
      have a := buildLayer_plain hs hm hp h1
      have b := ih hps h2
      refine ⟨.cons a.1 b.1, ?_⟩
      intro q hq
      rcases List.mem_cons.1 hq with rfl | hq
      · exact a.2
      · exact b.2 q hq

end Snn.Grad
