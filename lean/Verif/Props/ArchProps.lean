import Verif.Proofs.NetValid
import Verif.Props.EvalProps
import Verif.Demo.Demo

/-!
# C49: architectures accepted and rejected
-/

set_option linter.all false

namespace Snn.ArchProps

open Snn.Spec

section
variable {F : Type} [Flt F] [FTrans F] [Add F] [Sub F] [Mul F] [Div F] [Neg F]

theorem prod_eq_of_compute {shape : List Int} {n : Int} (h : computeNumberOfInputs shape = .ok n) : n = shape.prod :=
  computeNumberOfInputs_inv h

theorem normalize_fits2 {k c x : Int} {shape : List Int} (h : normalizeShape shape = [c, x]) (hk : ¬ k > x) : KernelFits k shape := by
  unfold normalizeShape at h
  split at h
  · cases h
    show k ≤ x
    omega
  · rw [h]
    show k ≤ x
    omega

theorem normalize_fits3 {k c x y : Int} {shape : List Int} (h : normalizeShape shape = [c, x, y]) (hk : ¬ (k > x ∨ k > y)) :
    KernelFits k shape := by
  unfold normalizeShape at h
  split at h
  · cases h
  · rw [h]
    show k ≤ x ∧ k ≤ y
    omega

theorem buildLayer_acceptable {opt : Sgd F} {m : LayerModel F} {shape : List Int} {d d' : Draws F} {l : Layer F}
    (h : buildLayer opt m shape d = .ok (l, d')) : Acceptable m shape ∧ l.numberOfInputs = shape.prod := by
  unfold buildLayer at h
  obtain ⟨ni, h0, h⟩ := Res.bind_eq_ok.1 h
  have hni := prod_eq_of_compute h0
  split at h
  · cases h
  rename_i hemp
  split at h
  · cases h
  rename_i hbig
  have hne : shape ≠ [] := by intro hc; rw [hc] at hemp; exact hemp rfl
  have hle : shape.prod ≤ 1000000 := by omega
  cases m with
  | input => cases h
  | maxPooling k =>
    simp only at h
    obtain ⟨l1, h1, h⟩ := Res.bind_eq_ok.1 h
    cases h
    unfold buildMaxPooling at h1
    split at h1
    · rename_i hshape
      split at h1
      · cases h1
      · rename_i hk
        obtain ⟨_, _, h1⟩ := Res.bind_eq_ok.1 h1
        simp only at h1
        split at h1
        · cases h1
        · obtain ⟨_, _, h1⟩ := Res.bind_eq_ok.1 h1
          obtain ⟨_, _, h1⟩ := Res.bind_eq_ok.1 h1
          cases h1
          exact ⟨⟨hne, hle, normalize_fits2 hshape hk⟩, hni⟩
    · rename_i hshape
      split at h1
      · cases h1
      · rename_i hk
        iterate 5 obtain ⟨_, _, h1⟩ := Res.bind_eq_ok.1 h1
        split at h1
        · cases h1
        · obtain ⟨_, _, h1⟩ := Res.bind_eq_ok.1 h1
          cases h1
          exact ⟨⟨hne, hle, normalize_fits3 hshape hk⟩, hni⟩
    · cases h1
  | convolution f k act opts =>
    simp only at h
    unfold buildConvolution at h
    split at h
    · rename_i hshape
      split at h
      · cases h
      · rename_i hk
        iterate 5 obtain ⟨_, _, h⟩ := Res.bind_eq_ok.1 h
        obtain ⟨⟨ns, d1⟩, h2, h⟩ := Res.bind_eq_ok.1 h
        obtain ⟨_, _, h⟩ := Res.bind_eq_ok.1 h
        cases h; exact ⟨⟨hne, hle, normalize_fits2 hshape hk⟩, hni⟩
    · rename_i hshape
      split at h
      · cases h
      · rename_i hk
        iterate 8 obtain ⟨_, _, h⟩ := Res.bind_eq_ok.1 h
        obtain ⟨⟨ns, d1⟩, h2, h⟩ := Res.bind_eq_ok.1 h
        obtain ⟨_, _, h⟩ := Res.bind_eq_ok.1 h
        cases h; exact ⟨⟨hne, hle, normalize_fits3 hshape hk⟩, hni⟩
    · cases h
  | fullyConnected n act opts =>
    simp only at h
    split at h
    · cases h
    · rename_i hpos
      obtain ⟨e, _⟩ := buildSimple_inv (P := fun _ => True) (fun _ _ _ => trivial) h
      exact ⟨⟨hne, hle, by show 0 < shape.prod; omega⟩, e.trans hni⟩
  | recurrence n act opts =>
    obtain ⟨e, _⟩ := buildSimple_inv (P := fun _ => True) (fun _ _ _ => trivial) h
    exact ⟨⟨hne, hle, trivial⟩, e.trans hni⟩
  | gru n opts =>
    obtain ⟨e, _⟩ := buildSimple_inv (P := fun _ => True) (fun _ _ _ => trivial) h
    exact ⟨⟨hne, hle, trivial⟩, e.trans hni⟩
  | locallyConnected f k act opts =>
    simp only at h
    unfold buildLocallyConnected at h
    split at h
    · rename_i hshape
      split at h
      · cases h
      · rename_i hk
        iterate 5 obtain ⟨_, _, h⟩ := Res.bind_eq_ok.1 h
        obtain ⟨⟨ns, d1⟩, h2, h⟩ := Res.bind_eq_ok.1 h
        obtain ⟨_, _, h⟩ := Res.bind_eq_ok.1 h
        cases h; exact ⟨⟨hne, hle, normalize_fits2 hshape hk⟩, hni⟩
    · rename_i hshape
      split at h
      · cases h
      · rename_i hk
        iterate 8 obtain ⟨_, _, h⟩ := Res.bind_eq_ok.1 h
        obtain ⟨⟨ns, d1⟩, h2, h⟩ := Res.bind_eq_ok.1 h
        obtain ⟨_, _, h⟩ := Res.bind_eq_ok.1 h
        cases h; exact ⟨⟨hne, hle, normalize_fits3 hshape hk⟩, hni⟩
    · cases h

theorem buildLayers_linked {opt : Sgd F} : ∀ {ms : List (LayerModel F)} {shape : List Int} {d d' : Draws F} {ls : List (Layer F)},
    buildLayers opt ms shape d = .ok (ls, d') → Linked ms shape ls
  | [], _, _, _, _, h => by cases h; exact .nil
  | m :: ms, shape, d, d', ls, h => by
    unfold buildLayers at h
    obtain ⟨⟨l, d1⟩, h1, h⟩ := Res.bind_eq_ok.1 h
    obtain ⟨⟨ls1, d2⟩, h2, h⟩ := Res.bind_eq_ok.1 h
    cases h
    obtain ⟨a, b⟩ := buildLayer_acceptable h1
    exact .cons a b (buildLayers_linked h2)

/-- **C49** (what an accepted architecture is, for every architecture, optimizer, random draws and arithmetic): when the constructor
returns, the architecture starts with an Input, has from 1 to 999 layers after it, none of which is an Input; the shape of the
inputs is not empty and has from 1 to 1000000 values; every layer accepts the output shape of the previous one (kernels not larger
than it, at most 1000000 values) and has exactly as many inputs; the optimizer and every layer report no error. -/
theorem C49_accepted_only_if {arch : List (LayerModel F)} {opt : Sgd F} {d d' : Draws F} {s : Snn F}
    (h : Snn.make arch opt d = .ok (s, d')) :
    ∃ shape rest, arch = .input shape :: rest ∧ 1 ≤ rest.length ∧ rest.length ≤ 999 ∧ shape ≠ [] ∧ 1 ≤ shape.prod ∧
      shape.prod ≤ 1000000 ∧ Linked rest shape s.net.layers ∧ opt.isValid = 0 ∧ (∀ l ∈ s.net.layers, l.isValid = .ok 0) ∧
      s.net.optimizer = opt := by
  obtain ⟨⟨net, d1⟩, h1, h⟩ := Res.bind_eq_ok.1 h
  obtain ⟨err, h2, h⟩ := Res.bind_eq_ok.1 h
  split at h
  · cases h
  rename_i herr
  cases h
  obtain ⟨⟨ls, d2⟩, h3, h1⟩ := Res.bind_eq_ok.1 h1
  obtain ⟨last, h4, h1⟩ := Res.bind_eq_ok.1 h1
  cases h1
  unfold LayerFactory.build at h3
  split at h3
  · cases h3
  rename_i hlen
  split at h3
  · rename_i shape rest
    split at h3
    · cases h3
    rename_i hlen2
    obtain ⟨n, h5, h3⟩ := Res.bind_eq_ok.1 h3
    split at h3
    · cases h3
    have hlink := buildLayers_linked h3
    simp only [List.length_cons] at hlen hlen2
    obtain ⟨ni, h6, h2⟩ := Res.bind_eq_ok.1 h2
    have hv : ¬ (ni < 1 ∨ ni > 2073600) ∧ opt.isValid = 0 ∧ layersIsValid ls = .ok 0 := by
      split at h2
      · injection h2 with h2; omega
      · rename_i hni
        split at h2
        · injection h2 with h2; omega
        · split at h2
          · rename_i ho
            injection h2 with h2
            exact absurd (h2.trans (by omega)) ho
          · rename_i ho
            refine ⟨hni, by simpa using ho, ?_⟩
            rw [h2]; simp at herr; rw [herr]
    obtain ⟨hni, hopt, hvl⟩ := hv
    have hall : ∀ {ls : List (Layer F)}, layersIsValid ls = .ok 0 → ∀ l ∈ ls, l.isValid = .ok 0 := by
      intro ls
      induction ls with
      | nil => simp
      | cons a ls ih =>
        intro hl l hm
        unfold layersIsValid at hl
        obtain ⟨e, he, hl⟩ := Res.bind_eq_ok.1 hl
        split at hl
        · rename_i hne
          injection hl with hl
          exact absurd hl hne
        · rename_i hz
          have hz' : e = 0 := by omega
          rcases List.mem_cons.1 hm with rfl | hm
          · rw [he, hz']
          · exact ih hl l hm
    cases hlink with
    | nil => simp at hlen2
    | @cons m ms _ l ls' hm hl hs =>
      have e1 : ni = shape.prod := by
        unfold Net.getNumberOfInputs at h6
        simp [rd] at h6
        rw [← h6, hl]
      refine ⟨shape, m :: ms, rfl, by simp, by simp at hlen ⊢; omega, hm.1, by omega, hm.2.1, .cons hm hl hs, hopt, hall hvl, rfl⟩
  · cases h3

theorem normalize_two {s : List Nat} {k : Int} (h : ¬ KernelFits k (s.map fun v : Nat => (v : Int))) :
    (∃ c x, normalizeShape (s.map fun v : Nat => (v : Int)) = [c, x] ∧ k > x) ∨
    (∃ c x y, normalizeShape (s.map fun v : Nat => (v : Int)) = [c, x, y] ∧ (k > x ∨ k > y)) ∨
    ((∀ c x, normalizeShape (s.map fun v : Nat => (v : Int)) ≠ [c, x]) ∧ (∀ c x y, normalizeShape (s.map fun v : Nat => (v : Int)) ≠ [c, x, y])) := by
  match s, h with
  | [], _ => right; right; simp [normalizeShape]
  | [x], h => left; exact ⟨1, x, rfl, by simpa [KernelFits] using h⟩
  | [c, x], h => left; exact ⟨c, x, rfl, by simpa [KernelFits] using h⟩
  | [c, x, y], h =>
    right; left
    refine ⟨c, x, y, rfl, ?_⟩
    simp only [KernelFits, List.map] at h
    omega
  | a :: b :: c :: d :: e, _ => right; right; simp [normalizeShape]

theorem buildLayer_bad (opt : Sgd F) {m : LayerModel F} {s : List Nat} (hs : GoodShape s) (hm : BadLayer m s) (d : Draws F) :
    ∃ msg, buildLayer opt m (s.map fun v : Nat => (v : Int)) d = .throw msg := by
  rw [buildLayer_start hs]
  cases m with
  | input => exact ⟨_, rfl⟩
  | fullyConnected => exact hm.elim
  | recurrence => exact hm.elim
  | gru => exact hm.elim
  | maxPooling k =>
    simp only
    unfold buildMaxPooling
    rcases normalize_two hm with ⟨c, x, h1, h2⟩ | ⟨c, x, y, h1, h2⟩ | ⟨h1, h2⟩
    · rw [h1]; simp only; rw [if_pos h2]; exact ⟨_, rfl⟩
    · rw [h1]; simp only; rw [if_pos h2]; exact ⟨_, rfl⟩
    · split
      · exact absurd (by assumption) (h1 _ _)
      · exact absurd (by assumption) (h2 _ _ _)
      · exact ⟨_, rfl⟩
  | locallyConnected f k act opts =>
    simp only
    unfold buildLocallyConnected
    rcases normalize_two hm with ⟨c, x, h1, h2⟩ | ⟨c, x, y, h1, h2⟩ | ⟨h1, h2⟩
    · rw [h1]; simp only; rw [if_pos h2]; exact ⟨_, rfl⟩
    · rw [h1]; simp only; rw [if_pos h2]; exact ⟨_, rfl⟩
    · split
      · exact absurd (by assumption) (h1 _ _)
      · exact absurd (by assumption) (h2 _ _ _)
      · exact ⟨_, rfl⟩
  | convolution f k act opts =>
    simp only
    unfold buildConvolution
    rcases normalize_two hm with ⟨c, x, h1, h2⟩ | ⟨c, x, y, h1, h2⟩ | ⟨h1, h2⟩
    · rw [h1]; simp only; rw [if_pos h2]; exact ⟨_, rfl⟩
    · rw [h1]; simp only; rw [if_pos h2]; exact ⟨_, rfl⟩
    · split
      · exact absurd (by assumption) (h1 _ _)
      · exact absurd (by assumption) (h2 _ _ _)
      · exact ⟨_, rfl⟩

theorem buildLayers_bad (opt : Sgd F) {pre : List (LayerModel F)} {s s' : List Nat} (hc : Chain pre s s') {m : LayerModel F} (hm : BadLayer m s')
    (post : List (LayerModel F)) : ∀ d : Draws F, ∃ msg, buildLayers opt (pre ++ m :: post) (s.map fun v : Nat => (v : Int)) d = .throw msg := by
  induction hc with
  | nil hs =>
    intro d
    obtain ⟨msg, h⟩ := buildLayer_bad opt hs hm d
    exact ⟨msg, by simp [buildLayers, h]⟩
  | @cons m1 ms s s1 s2 hs hm1 hc ih =>
    intro d
    obtain ⟨l, d1, h1, hb⟩ := buildLayer_ok opt hm1 hs (chain_good hc) d
    obtain ⟨msg, h⟩ := ih hm d1
    refine ⟨msg, ?_⟩
    rw [List.cons_append]
    unfold buildLayers
    rw [h1]
    simp only [Res.ok_bind]
    rw [hb.shape, h]
    rfl

/-- **C49** (malformed architectures are rejected): for every malformed architecture, optimizer and draws, the constructor throws —
it does not return and does not go wrong. -/
theorem C49_rejected {arch : List (LayerModel F)} (h : Malformed arch) (opt : Sgd F) (d : Draws F) :
    ∃ msg, Snn.make arch opt d = .throw msg := by
  have key : ∃ msg, LayerFactory.build opt arch d = .throw msg := by
    unfold LayerFactory.build
    by_cases hmany : arch.length > 1000
    · rw [if_pos hmany]; exact ⟨_, rfl⟩
    rw [if_neg hmany]
    cases h with
    | empty => exact ⟨_, rfl⟩
    | @noInput m ms h =>
      cases m with
      | input s => exact absurd rfl (h s)
      | _ => exact ⟨_, rfl⟩
    | alone => exact ⟨_, rfl⟩
    | tooMany h => exact absurd h hmany
    | @noDimension m ms =>
      simp only
      rw [if_neg (by simp)]
      exact ⟨_, rfl⟩
    | @tooLarge s m ms hp h h2 =>
      simp only
      rw [if_neg (by simp)]
      have e : computeNumberOfInputs (s.map fun v : Nat => (v : Int)) = .ok (s.prod : Int) := by
        have := foldlM_mulI_ok s 1 hp (by omega)
        simpa [computeNumberOfInputs] using this
      rw [e]
      simp only [Res.ok_bind]
      split
      · exact ⟨_, rfl⟩
      · have hne : (s.map fun v : Nat => (v : Int)).isEmpty = false := by
          cases s with
          | nil => simp at h
          | cons => rfl
        unfold buildLayers buildLayer
        rw [e]
        simp only [Res.ok_bind]
        rw [hne, if_neg (by simp), if_pos (by omega)]
        exact ⟨_, rfl⟩
    | @badLayer s s' pre post m hc hm =>
      simp only
      rw [if_neg (by simp), computeNumberOfInputs_ok (chain_good hc)]
      simp only [Res.ok_bind]
      rw [if_neg (by have := (chain_good hc).small; omega)]
      exact buildLayers_bad opt hc hm post d
  obtain ⟨msg, h1⟩ := key
  exact ⟨msg, by unfold Snn.make Net.make; rw [h1]; rfl⟩

end

/-- **C49** (well formed architectures are accepted; exact arithmetic): for every architecture whose layers fit each other, at most
1000 layers, every optimizer with 0 < learningRate < 1 and 0 ≤ momentum ≤ 1, and all draws of the generator in [0, 1], the
constructor returns. -/
theorem C49_accepted_if {arch : List (LayerModel ℝ)} {s s' : List Nat} (h : WellFormed arch s s') {opt : Sgd ℝ}
    (h1 : 0 < opt.learningRate) (h2 : opt.learningRate < 1) (h3 : 0 ≤ opt.momentum) (h4 : opt.momentum ≤ 1)
    {d : Draws ℝ} (hd : ∀ i, 0 ≤ d i ∧ d i ≤ 1) : ∃ snn d', Snn.make arch opt d = .ok (snn, d') := by
  obtain ⟨ls, d', hb, hw, hlen, hne⟩ := factory_ok opt h d
  obtain ⟨l, k, hl1, hl2⟩ := hw.getLast hne
  have hcount := h.count
  have hvl : layersIsValid ls = .ok 0 := by
    obtain ⟨m, rest, rfl, hc⟩ := h.layers
    unfold LayerFactory.build at hb
    rw [if_neg (by simp at hcount ⊢; omega)] at hb
    simp only at hb
    rw [if_neg (by simp), computeNumberOfInputs_ok (chain_good hc)] at hb
    simp only [Res.ok_bind] at hb
    rw [if_neg (by have := (chain_good hc).small; omega)] at hb
    exact buildLayers_valid hc hd hb
  have hopt : opt.isValid = 0 := by
    unfold Sgd.isValid
    have e1 : fle opt.learningRate (lit 0 : ℝ) = false := by rw [fle_false_iff]; simpa using h1
    have e2 : fle (lit 1 : ℝ) opt.learningRate = false := by rw [fle_false_iff]; simpa using h2
    have e3 : flt opt.momentum (lit 0 : ℝ) = false := by rw [flt_false_iff]; simpa using h3
    have e4 : flt (lit 1 : ℝ) opt.momentum = false := by rw [flt_false_iff]; simpa using h4
    rw [e1, e2, e3, e4]; rfl
  have hsp : 1 ≤ s.prod ∧ s.prod ≤ 999998 := by
    obtain ⟨m, rest, _, hc⟩ := h.layers
    exact ⟨one_le_prod (chain_good hc).pos, (chain_good hc).small⟩
  have hni : ∃ l0 rest0, ls = l0 :: rest0 ∧ l0.numberOfInputs = (s.prod : Int) := by
    generalize s.prod = a at hw
    generalize s'.prod = b at hw
    cases hw with
    | nil => exact absurd rfl hne
    | cons a b => exact ⟨_, _, rfl, a.inputs⟩
  obtain ⟨l0, rest0, hls, hn0⟩ := hni
  unfold Snn.make Net.make
  rw [hb]
  simp only [Res.ok_bind]
  rw [backOf_eq hl1]
  simp only [Res.ok_bind, Res.pure_eq]
  have hvalid : Net.isValid { stats := Stats.init l.getNumberOfNeurons, outputNan := false, numberOfTraining := 0, optimizer := opt, layers := ls } = .ok 0 := by
    unfold Net.isValid Net.getNumberOfInputs
    have e : rd ls 0 = .ok l0 := by rw [hls]; rfl
    simp only [e, Res.ok_bind, Res.pure_eq, hn0]
    have hpos : 0 < ls.length := List.length_pos_iff.2 hne
    rw [if_neg (by omega), if_neg (by show ¬ (ls.length < 1 ∨ ls.length > 1000); omega), if_neg (by simp [hopt])]
    exact hvl
  rw [hvalid]
  exact ⟨_, _, rfl⟩

/-- A product of positive sizes beyond the largest `int` overflows. -/
theorem foldlM_mulI_ub : ∀ (s : List Nat) (a : Nat), 0 < a → a < 2 ^ 31 → (∀ v ∈ s, 0 < v) → 2 ^ 31 ≤ a * s.prod →
    (s.map fun v : Nat => (v : Int)).foldlM mulI (a : Int) = .ub "signed integer overflow"
  | [], a, h0, h1, _, h => by simp at h; omega
  | b :: s, a, h0, h1, hp, h => by
    have hb := hp b (by simp)
    rw [List.map_cons, List.foldlM_cons]
    by_cases hab : a * b < 2 ^ 31
    · have e : mulI (a : Int) (b : Int) = .ok ((a * b : Nat) : Int) := by
        unfold mulI ckInt
        rw [if_pos (by push_cast at *; constructor <;> nlinarith)]
        push_cast; rfl
      rw [e, Res.ok_bind]
      exact foldlM_mulI_ub s (a * b) (Nat.mul_pos h0 hb) hab (fun v hv => hp v (by simp [hv])) (by rw [List.prod_cons] at h; rwa [Nat.mul_assoc])
    · have e : mulI (a : Int) (b : Int) = .ub "signed integer overflow" := by
        unfold mulI ckInt
        rw [if_neg]
        intro h'
        have h2 : ((a * b : Nat) : Int) ≤ 2147483647 := by push_cast; exact h'.2
        omega
      rw [e]; rfl

/-- **C49** refuted for too large inputs: a shape with more values than the largest `int` is not rejected, the product that is compared with
the limit overflows first. -/
theorem C49_overflow_refuted {F : Type} [Flt F] [FTrans F] [Add F] [Sub F] [Mul F] [Div F] [Neg F] {s : List Nat} (hp : ∀ v ∈ s, 0 < v) (h : 2 ^ 31 ≤ s.prod) {m : LayerModel F} {ms : List (LayerModel F)} (hc : ms.length ≤ 998)
    (opt : Sgd F) (d : Draws F) :
    Snn.make (.input (s.map fun v : Nat => (v : Int)) :: m :: ms) opt d = .ub "signed integer overflow" := by
  have e := foldlM_mulI_ub s 1 (by norm_num) (by norm_num) hp (by omega)
  unfold Snn.make Net.make LayerFactory.build
  rw [if_neg (by simp; omega)]
  simp only
  rw [if_neg (by simp)]
  unfold computeNumberOfInputs
  rw [show (1 : Int) = ((1 : Nat) : Int) from rfl, e]
  rfl

/-- Such a shape: a picture of 65537 x 65537 pixels. -/
example : (∀ v ∈ [65537, 65537], 0 < v) ∧ 2 ^ 31 ≤ [65537, 65537].prod ∧ ∀ v ∈ [65537, 65537], v < 2 ^ 31 := by norm_num

/-! ### The hypotheses are met -/

/-- A well formed architecture of four layers, and its construction. -/
example : ∃ s d', Snn.make [.input [1, 6, 6], .convolution 2 3 .tanh [.dropout (1/4)], .maxPooling 2, .gru 3 [], .fullyConnected 2 .sigmoid [.softmax]]
    ({ learningRate := 1/10, momentum := 1/2 } : Sgd ℝ) (fun _ => 1/3) = .ok (s, d') := by
  refine C49_accepted_if (s := [1, 6, 6]) (s' := [2]) ⟨⟨_, _, rfl, ?_⟩, by simp⟩ (by norm_num) (by norm_num) (by norm_num) (by norm_num) (by intro i; norm_num)
  exact .cons ⟨by simp, by simp, by simp⟩ (.convolution2D (f := 2) (k := 3) (by omega) (by omega) (by omega) (by omega))
    (.cons ⟨by simp, by simp, by simp⟩ (.pool2D (k := 2) (by omega) (by omega) (by omega) (by simp [ceil])) (.cons ⟨by simp, by simp [ceil], by simp [ceil]⟩
      (.gru (n := 3) (by omega)) (.cons ⟨by simp, by simp, by simp⟩ (.fullyConnected (n := 2) (by omega)) (.nil ⟨by simp, by simp, by simp⟩))))

/-- Malformed architectures. -/
example : Malformed ([.fullyConnected 2 .relu []] : List (LayerModel ℚ)) := .noInput (by simp)
example : Malformed ([.input [2], .convolution 1 5 .relu [], .fullyConnected 2 .relu []] : List (LayerModel ℚ)) :=
  .badLayer (s := [2]) (pre := []) (.nil ⟨by simp, by simp, by simp⟩) (by simp [BadLayer, KernelFits])

/-- An accepted architecture (C49_accepted_only_if). -/
example : (Snn.make Demo.convArch Demo.sgd Demo.draws).isOk = true := by decide +kernel

end Snn.ArchProps
