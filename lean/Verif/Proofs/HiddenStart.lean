import Verif.Proofs.HiddenSim
import Verif.Proofs.ReorderStart

/-! # A new network and the same with the neurons of a hidden layer in another order -/

set_option linter.all false

namespace Snn.Reorder

open Snn.Spec

section
variable {F : Type} [Flt F] [FTrans F] [Add F] [Sub F] [Mul F] [Div F] [Neg F]

theorem buildAll_plain (k : Nat) : ∀ {os : List (LayerOptModel F)} {d : Draws F}, (∀ o ∈ os, SameForAll o) → ∀ o ∈ (LayerOpt.buildAll k os d).1, Plain o
  | [], d, _ => by simp [LayerOpt.buildAll]
  | o :: os, d, h => by
    have h0 := h o (by simp)
    unfold LayerOpt.buildAll
    intro q hq
    rcases List.mem_cons.1 hq with rfl | hq
    · cases o <;> first | exact h0.elim | trivial
    · exact buildAll_plain k (fun o ho => h o (List.mem_cons_of_mem _ ho)) q hq

theorem simple_body {N : Type} {mk : NeuronModel F → Draws F → Res N} {g : Nat} {wrap : List N → Body F} {k : Int} {e nn : Int} {act : Act}
    {opts : List (LayerOptModel F)} {d d' : Draws F} {l : Layer F} (h : buildSimple mk g wrap k e nn act opts d = .ok (l, d')) (ho : ∀ o ∈ opts, SameForAll o) :
    (∃ ns, l.body = wrap ns) ∧ ∀ o ∈ l.optimizers, Plain o := by
  unfold buildSimple at h
  obtain ⟨nw, h1, h⟩ := Res.bind_eq_ok.1 h
  obtain ⟨⟨ns, d1⟩, h2, h⟩ := Res.bind_eq_ok.1 h
  cases h
  exact ⟨⟨ns, rfl⟩, buildAll_plain _ ho⟩

end

section
variable {F : Type} [Field F] [LinearOrder F] [IsStrictOrderedRing F] [FTrans F]

theorem hid_build {p : List Nat} {m : Nat} (hp : p.Perm (List.range m)) {opt : Sgd F} {a b : LayerModel F} {post : List (LayerModel F)} (ha : LayerOf m a)
    (hb : (∃ n act opts, b = .fullyConnected n act opts) ∨ (∃ n act opts, b = .recurrence n act opts) ∨ (∃ n opts, b = .gru n opts)) {s' : List Nat} (n0 : Net F) :
    ∀ {pre : List (LayerModel F)} {s : List Nat} {d d' : Draws F} {ls : List (Layer F)}, Chain (pre ++ a :: b :: post) s s' →
      buildLayers opt (pre ++ a :: b :: post) (s.map (fun v : Nat => (v : Int))) d = .ok (ls, d') → LRe p m pre.length s.prod ls (reorderHidden p pre.length ls)
  | [], s, d, d', ls, hc, h => by
    cases hc with
    | @cons _ _ _ s1 _ hs hm hc =>
    have hs1 := chain_good hc
    rw [List.nil_append] at h
    unfold buildLayers at h
    obtain ⟨⟨l, d1⟩, h1, h⟩ := Res.bind_eq_ok.1 h
    obtain ⟨⟨ls1, d2⟩, h2, h⟩ := Res.bind_eq_ok.1 h
    cases h
    obtain ⟨l0, d0, k1, k2⟩ := buildLayer_ok opt hm hs hs1 d
    rw [h1] at k1
    obtain ⟨rfl, rfl⟩ := Prod.mk.inj (Res.ok.inj k1)
    rw [k2.shape] at h2
    have hwf := k2.wf
    have hs1m : s1 = [m] := by
      obtain ⟨opts, _, ⟨act, rfl⟩ | ⟨act, rfl⟩ | rfl⟩ := ha
      all_goals
        cases hm
        rfl
    subst hs1m
    rw [List.prod_singleton] at hwf
    have hA : AOK s.prod m l := by
      rw [buildLayer_start hs] at h1
      obtain ⟨opts, ho, ⟨act, rfl⟩ | ⟨act, rfl⟩ | rfl⟩ := ha
      all_goals
        obtain ⟨⟨ns, hb⟩, hpl⟩ := simple_body h1 ho
        exact ⟨hwf, by rw [hb]; trivial, hpl⟩
    cases hc with
    | @cons _ _ _ s2 _ _ hm2 hc2 =>
    unfold buildLayers at h2
    obtain ⟨⟨l2, d3⟩, h3, h2⟩ := Res.bind_eq_ok.1 h2
    obtain ⟨⟨ls2, d4⟩, h4, h2⟩ := Res.bind_eq_ok.1 h2
    cases h2
    obtain ⟨l0, d0, q1, q2⟩ := buildLayer_ok opt hm2 hs1 (chain_good hc2) d1
    rw [h3] at q1
    obtain ⟨rfl, rfl⟩ := Prod.mk.inj (Res.ok.inj q1)
    have hin : l2.numberOfInputs = (m : Int) := by have := q2.wf.inputs; rwa [List.prod_singleton] at this
    have hpos : 0 < m := by have := List.prod_pos hs1.pos; rwa [List.prod_singleton] at this
    rw [buildLayer_start hs1] at h3
    have hl : LayerStart p m l2 := by
      rcases hb with ⟨n, act, opts, rfl⟩ | ⟨n, act, opts, rfl⟩ | ⟨n, opts, rfl⟩
      · simp only [List.prod_singleton] at h3; exact full_start hp h3
      · simp only [List.prod_singleton] at h3; exact rec_start hp h3
      · simp only [List.prod_singleton] at h3; exact gru_start hp hpos h3
    have he : reorderHidden p 0 (l :: l2 :: ls2) = neuronsInOrder p l :: reorderLayer p l2 :: ls2 := by
      have := congrArg Net.layers (hl.2 { n0 with layers := l2 :: ls2 } ls2 rfl)
      unfold reorderHidden
      congr 1
    show LRe p m 0 s.prod (l :: l2 :: ls2) (reorderHidden p 0 (l :: l2 :: ls2))
    rw [he]
    exact .here hA hl.1 hin
  | x :: pre, s, d, d', ls, hc, h => by
    cases hc with
    | @cons _ _ _ s1 _ hs hm hc =>
    rw [List.cons_append] at h
    unfold buildLayers at h
    obtain ⟨⟨l, d1⟩, h1, h⟩ := Res.bind_eq_ok.1 h
    obtain ⟨⟨ls1, d2⟩, h2, h⟩ := Res.bind_eq_ok.1 h
    cases h
    obtain ⟨l0, d0, k1, k2⟩ := buildLayer_ok opt hm hs (chain_good hc) d
    rw [h1] at k1
    obtain ⟨rfl, rfl⟩ := Prod.mk.inj (Res.ok.inj k1)
    rw [k2.shape] at h2
    exact .next k2.wf (hid_build hp ha hb n0 hc h2)

theorem hid_start {p : List Nat} {m : Nat} (hp : p.Perm (List.range m)) {pre : List (LayerModel F)} {a b : LayerModel F} {post : List (LayerModel F)} (ha : LayerOf m a)
    (hb : (∃ n act opts, b = .fullyConnected n act opts) ∨ (∃ n act opts, b = .recurrence n act opts) ∨ (∃ n opts, b = .gru n opts)) {s s' : List Nat}
    (hc : Chain (pre ++ a :: b :: post) s s') (hcount : (pre ++ a :: b :: post).length ≤ 999) {opt : Sgd F} {d d' : Draws F} {snn : Snn F}
    (h : Snn.make (.input (s.map (fun v : Nat => (v : Int))) :: (pre ++ a :: b :: post)) opt d = .ok (snn, d')) :
    NetHid p m pre.length s.prod snn.net { snn.net with layers := reorderHidden p pre.length snn.net.layers } := by
  obtain ⟨⟨net, d1⟩, h1, hmk⟩ := Res.bind_eq_ok.1 h
  have n0 : Net F := net
  obtain ⟨err, h2, hmk⟩ := Res.bind_eq_ok.1 hmk
  split at hmk
  · cases hmk
  cases hmk
  obtain ⟨⟨ls, d2⟩, h3, h1⟩ := Res.bind_eq_ok.1 h1
  obtain ⟨last, h4, h1⟩ := Res.bind_eq_ok.1 h1
  cases h1
  unfold LayerFactory.build at h3
  rw [if_neg (by rw [List.length_cons]; omega)] at h3
  simp only at h3
  rw [if_neg (by simp), computeNumberOfInputs_ok (chain_good hc)] at h3
  simp only [Res.ok_bind] at h3
  rw [if_neg (by have := (chain_good hc).small; omega)] at h3
  exact ⟨_, hid_build hp ha hb n0 hc h3, rfl⟩

end

end Snn.Reorder
