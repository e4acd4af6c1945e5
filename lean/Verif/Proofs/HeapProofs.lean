import Verif.Spec.HeapSpec
import Verif.Proofs.ReachProofs

/-! The objects of a network are its own: the program with objects does what the program with values does. -/

set_option linter.all false

namespace Snn

open Spec HistoryProps

section
variable {F : Type} [Flt F] [FTrans F] [Add F] [Sub F] [Mul F] [Div F] [Neg F]

/-! ### Frame -/

/-- The heap grew. -/
structure Grow (h h' : Heap F) : Prop where
  next : h.next ≤ h'.next
  cell : ∀ a < h.next, h'.cell a = h.cell a

theorem Grow.refl (h : Heap F) : Grow h h := ⟨le_refl _, fun _ _ => rfl⟩
theorem Grow.trans {a b c : Heap F} (h : Grow a b) (k : Grow b c) : Grow a c :=
  ⟨h.next.trans k.next, fun x hx => (k.cell x (lt_of_lt_of_le hx h.next)).trans (h.cell x hx)⟩

theorem layerAddrs_frame {h h' : Heap F} {a : Addr} (hh : h'.cell a = h.cell a) : h'.layerAddrs a = h.layerAddrs a := by
  unfold Heap.layerAddrs; rw [hh]

theorem mem_layerAddrs_self (h : Heap F) (a : Addr) : a ∈ h.layerAddrs a := by
  unfold Heap.layerAddrs; split <;> simp

theorem forall₂_imp_mem {α β : Type} {R S : α → β → Prop} {as : List α} {bs : List β} (h : List.Forall₂ R as bs)
    (hi : ∀ a ∈ as, ∀ b, R a b → S a b) : List.Forall₂ S as bs := by
  induction h with
  | nil => exact .nil
  | @cons a b as bs h1 _ ih => exact .cons (hi a (by simp) b h1) (ih fun x hx => hi x (List.mem_cons_of_mem _ hx))

theorem HoldsLayer.frame {h h' : Heap F} {opt a : Addr} {o : Sgd F} {l : Layer F} (hl : HoldsLayer h opt o a l)
    (hh : ∀ x ∈ h.layerAddrs a, h'.cell x = h.cell x) : HoldsLayer h' opt o a l := by
  obtain ⟨c, h1, h2, h3, h4, h5⟩ := hl
  refine ⟨c, by rw [hh a (mem_layerAddrs_self _ _), h1], h2, h3, h4, forall₂_imp_mem h5 ?_⟩
  intro b hb v hv
  rw [hh b (by unfold Heap.layerAddrs; rw [h1]; simp [hb]), hv]

theorem owned_frame {h h' : Heap F} {p : HSnn F} (hh : ∀ x ∈ h.owned p, h'.cell x = h.cell x) : h'.owned p = h.owned p := by
  unfold Heap.owned at hh ⊢
  congr 1
  have : ∀ a ∈ p.layers, h'.layerAddrs a = h.layerAddrs a := fun a ha =>
    layerAddrs_frame (hh a (List.mem_cons_of_mem _ (List.mem_flatMap.2 ⟨a, ha, mem_layerAddrs_self h a⟩)))
  clear hh
  generalize p.layers = ls at this
  induction ls with
  | nil => rfl
  | cons a as ih =>
    rw [List.flatMap_cons, List.flatMap_cons, this a (by simp), ih fun x hx => this x (List.mem_cons_of_mem _ hx)]

theorem Holds.frame {h h' : Heap F} {p : HSnn F} {s : Snn F} (hs : Holds h p s) (hh : ∀ x ∈ h.owned p, h'.cell x = h.cell x) :
    Holds h' p s := by
  obtain ⟨h1, h2, h3⟩ := hs
  refine ⟨by rw [hh _ (by simp [Heap.owned]), h1], forall₂_imp_mem h2 ?_, h3⟩
  intro a ha l hl
  refine HoldsLayer.frame hl fun x hx => hh x ?_
  unfold Heap.owned
  exact List.mem_cons_of_mem _ (List.mem_flatMap.2 ⟨a, ha, hx⟩)

/-! ### Allocation -/

theorem alloc_spec (h : Heap F) (c : Cell F) : Grow h (h.alloc c).2 ∧ (h.alloc c).1 = h.next ∧ (h.alloc c).2.next = h.next + 1 ∧
    (h.alloc c).2.cell h.next = some c := by
  refine ⟨⟨Nat.le_succ _, fun a ha => ?_⟩, rfl, rfl, by simp [Heap.alloc]⟩
  simp only [Heap.alloc]
  rw [if_neg (Nat.ne_of_lt ha)]

theorem allocOpts_spec (layer : Addr) : ∀ (vs : List (LayerOpt F)) (h : Heap F),
    Grow h (h.allocOpts layer vs).2 ∧ (h.allocOpts layer vs).2.next = h.next + vs.length ∧
    (h.allocOpts layer vs).1 = List.range' h.next vs.length ∧
    List.Forall₂ (fun b v => (h.allocOpts layer vs).2.cell b = some (.layerOpt ⟨v, layer⟩)) (h.allocOpts layer vs).1 vs
  | [], h => ⟨.refl _, rfl, rfl, .nil⟩
  | v :: vs, h => by
    obtain ⟨g1, e1, n1, c1⟩ := alloc_spec h (.layerOpt ⟨v, layer⟩)
    obtain ⟨g2, n2, r2, f2⟩ := allocOpts_spec layer vs (h.alloc (.layerOpt ⟨v, layer⟩)).2
    simp only [Heap.allocOpts]
    refine ⟨g1.trans g2, ?_, ?_, ?_⟩
    · rw [n2, n1, List.length_cons]; omega
    · rw [r2, n1, e1, List.length_cons, List.range'_succ]
    · refine .cons ?_ f2
      rw [e1, g2.cell _ (by rw [n1]; omega), c1]

theorem allocLayer_spec (h : Heap F) (ni : Int) (body : Body F) (ptrs : List Addr) (vs : List (LayerOpt F)) {opt : Addr} {o : Sgd F}
    {b' : Body F} (hp : ∀ x ∈ ptrs, x = opt) (hb : body.clone o = b') :
    Grow h (h.allocLayer ni body ptrs vs).2 ∧ HoldsLayer (h.allocLayer ni body ptrs vs).2 opt o (h.allocLayer ni body ptrs vs).1 ⟨ni, vs, b'⟩ ∧
    (h.allocLayer ni body ptrs vs).2.layerAddrs (h.allocLayer ni body ptrs vs).1 = List.range' h.next (1 + vs.length) ∧
    (h.allocLayer ni body ptrs vs).2.next = h.next + (1 + vs.length) := by
  obtain ⟨g1, e1, n1, c1⟩ := alloc_spec h (.layer ⟨ni, body, ptrs, []⟩)
  obtain ⟨g2, n2, r2, f2⟩ := allocOpts_spec h.next vs (h.alloc (.layer ⟨ni, body, ptrs, []⟩)).2
  simp only [Heap.allocLayer, e1]
  refine ⟨⟨?_, ?_⟩, ⟨⟨ni, body, ptrs, _⟩, by simp only [Heap.set, if_true], rfl, hb, hp, forall₂_imp_mem f2 ?_⟩, ?_, ?_⟩
  · simp only [Heap.set]; exact (g1.trans g2).next
  · intro a ha
    simp only [Heap.set]
    rw [if_neg (Nat.ne_of_lt ha)]
    exact (g1.trans g2).cell a ha
  · intro b hb v hv
    simp only [Heap.set]
    have hb : b ∈ ((h.alloc (.layer ⟨ni, body, ptrs, []⟩)).2.allocOpts h.next vs).1 := hb
    rw [r2, n1, List.mem_range'_1] at hb
    rw [if_neg (by omega), hv]
  · simp only [Heap.layerAddrs, Heap.set, if_true]
    rw [r2, n1, Nat.add_comm 1 vs.length, List.range'_succ]
  · simp only [Heap.set]; rw [n2, n1]; omega

theorem makeLayers_spec (opt : Addr) (o : Sgd F) : ∀ (ls : List (Layer F)) (h : Heap F), (∀ l ∈ ls, l.body.clone o = l.body) →
    Grow h (h.makeLayers opt ls).2 ∧ List.Forall₂ (HoldsLayer (h.makeLayers opt ls).2 opt o) (h.makeLayers opt ls).1 ls ∧
    (h.makeLayers opt ls).1.flatMap (h.makeLayers opt ls).2.layerAddrs =
      List.range' h.next ((h.makeLayers opt ls).2.next - h.next)
  | [], h, _ => ⟨.refl _, .nil, by simp [Heap.makeLayers]⟩
  | l :: ls, h, hc => by
    obtain ⟨g1, l1, a1, n1⟩ := allocLayer_spec h l.numberOfInputs l.body (List.replicate l.getNumberOfNeurons opt) l.optimizers
      (opt := opt) (o := o) (b' := l.body) (fun x hx => (List.mem_replicate.1 hx).2) (hc l (by simp))
    obtain ⟨g2, l2, a2⟩ := makeLayers_spec opt o ls (h.makeLayer opt l).2 fun x hx => hc x (List.mem_cons_of_mem _ hx)
    simp only [Heap.makeLayers]
    have hfr : ∀ x ∈ (h.makeLayer opt l).2.layerAddrs (h.makeLayer opt l).1,
        ((h.makeLayer opt l).2.makeLayers opt ls).2.cell x = (h.makeLayer opt l).2.cell x := by
      intro x hx
      refine g2.cell x ?_
      unfold Heap.makeLayer at hx ⊢
      rw [a1, List.mem_range'_1] at hx
      rw [n1]; omega
    refine ⟨g1.trans g2, .cons (HoldsLayer.frame l1 hfr) l2, ?_⟩
    rw [List.flatMap_cons, a2, layerAddrs_frame (hfr _ (mem_layerAddrs_self _ _))]
    have := g2.next
    unfold Heap.makeLayer at this ⊢
    rw [a1, n1]
    rw [n1] at this
    rw [List.range'_append_1]
    congr 1; omega

theorem Heap.make_spec (h : Heap F) (s : Snn F) (hc : ∀ l ∈ s.net.layers, l.body.clone s.net.optimizer = l.body) :
    Grow h (h.make s).2 ∧ Holds (h.make s).2 (h.make s).1 s ∧ (h.make s).2.owned (h.make s).1 = List.range' h.next ((h.make s).2.next - h.next) := by
  obtain ⟨g1, e1, n1, c1⟩ := alloc_spec h (.sgd s.net.optimizer)
  obtain ⟨g2, l2, a2⟩ := makeLayers_spec (h.alloc (.sgd s.net.optimizer)).1 s.net.optimizer s.net.layers (h.alloc (.sgd s.net.optimizer)).2 hc
  simp only [Heap.make]
  refine ⟨g1.trans g2, ⟨?_, l2, rfl⟩, ?_⟩
  · rw [e1] at g2 ⊢
    simp only
    rw [g2.cell _ (by rw [n1]; omega), c1]
  · simp only [Heap.owned]
    rw [a2, n1]
    have := g2.next
    rw [n1] at this
    rw [show ((h.alloc (.sgd s.net.optimizer)).2.makeLayers (h.alloc (.sgd s.net.optimizer)).1 s.net.layers).2.next - h.next =
      (((h.alloc (.sgd s.net.optimizer)).2.makeLayers (h.alloc (.sgd s.net.optimizer)).1 s.net.layers).2.next - (h.next + 1)) + 1 by omega,
      List.range'_succ, e1]

/-! ### Copy -/

theorem Body.clone_clone (b : Body F) (o o' : Sgd F) : (b.clone o).clone o' = b.clone o' := by
  cases b <;> simp only [Body.clone, List.map_map] <;> rfl

theorem readOpts_spec {h : Heap F} {a : Addr} : ∀ {bs : List Addr} {vs : List (LayerOpt F)},
    List.Forall₂ (fun b v => h.cell b = some (.layerOpt ⟨v, a⟩)) bs vs → h.readOpts bs = .ok vs
  | _, _, .nil => rfl
  | _, _, .cons h1 h2 => by
    simp only [Heap.readOpts, h1, readOpts_spec h2]
    rfl

theorem cloneLayers_spec (opt p : Addr) (o o' : Sgd F) : ∀ (as : List Addr) (ls : List (Layer F)) (h : Heap F),
    List.Forall₂ (HoldsLayer h p o) as ls → (∀ a ∈ as, ∀ x ∈ h.layerAddrs a, x < h.next) →
    ∃ bs h', h.cloneLayers opt as = .ok (bs, h') ∧ Grow h h' ∧ List.Forall₂ (HoldsLayer h' opt o') bs (ls.map fun l => l.clone o') ∧
      bs.flatMap h'.layerAddrs = List.range' h.next (h'.next - h.next)
  | [], ls, h, hl, _ => by
    cases hl
    exact ⟨[], h, rfl, .refl _, .nil, by simp⟩
  | a :: as, ls, h, hl, hb => by
    cases hl with
    | @cons _ l _ ls h1 h2 =>
      have h1' := h1
      obtain ⟨c, e1, e2, e3, e4, e5⟩ := h1
      have hr := readOpts_spec e5
      have hcl : h.cloneLayer opt a =
          .ok (h.allocLayer c.numberOfInputs c.body (c.neuronOptimizers.map fun _ => opt) (l.optimizers.map LayerOpt.clone)) := by
        simp only [Heap.cloneLayer, e1, hr]; rfl
      obtain ⟨g1, l1, a1, n1⟩ := allocLayer_spec h c.numberOfInputs c.body (c.neuronOptimizers.map fun _ => opt)
        (l.optimizers.map LayerOpt.clone) (opt := opt) (o := o') (b' := c.body.clone o')
        (fun x hx => by obtain ⟨_, _, rfl⟩ := List.mem_map.1 hx; rfl) rfl
      generalize h.allocLayer c.numberOfInputs c.body (c.neuronOptimizers.map fun _ => opt) (l.optimizers.map LayerOpt.clone) = r at *
      obtain ⟨b, h1⟩ := r
      simp only at g1 l1 a1 n1
      have hold : List.Forall₂ (HoldsLayer h1 p o) as ls := forall₂_imp_mem h2 fun x hx l hl =>
        HoldsLayer.frame hl fun y hy => g1.cell y (hb x (List.mem_cons_of_mem _ hx) y hy)
      have hb' : ∀ x ∈ as, ∀ y ∈ h1.layerAddrs x, y < h1.next := by
        intro x hx y hy
        have hbx := hb x (List.mem_cons_of_mem _ hx)
        rw [layerAddrs_frame (g1.cell x (hbx x (mem_layerAddrs_self _ _)))] at hy
        exact lt_of_lt_of_le (hbx y hy) g1.next
      obtain ⟨bs, h3, c2, g2, l2, a2⟩ := cloneLayers_spec opt p o o' as ls h1 hold hb'
      have hfr : ∀ x ∈ h1.layerAddrs b, h3.cell x = h1.cell x := by
        intro x hx
        rw [a1, List.mem_range'_1] at hx
        exact g2.cell x (by rw [n1]; omega)
      refine ⟨b :: bs, h3, ?_, g1.trans g2, .cons ?_ l2, ?_⟩
      · simp only [Heap.cloneLayers, hcl, Res.ok_bind, c2]; rfl
      · have : Layer.clone l o' = ⟨c.numberOfInputs, l.optimizers.map LayerOpt.clone, c.body.clone o'⟩ := by
          simp only [Layer.clone, e2, ← e3, Body.clone_clone]
        show HoldsLayer h3 opt o' b (l.clone o')
        rw [this]
        exact HoldsLayer.frame l1 hfr
      · rw [List.flatMap_cons, a2, layerAddrs_frame (hfr _ (mem_layerAddrs_self _ _)), a1, n1, List.range'_append_1]
        have := g2.next
        rw [n1] at this
        congr 1; omega

theorem lastNeurons_spec {h : Heap F} {opt : Addr} {o : Sgd F} : ∀ {bs : List Addr} {ls : List (Layer F)} {l : Layer F},
    List.Forall₂ (HoldsLayer h opt o) bs ls → backOf ls = .ok l → h.lastNeurons bs = .ok l.getNumberOfNeurons := by
  intro bs ls l hf hl
  have : ∃ b, backOf bs = .ok b ∧ HoldsLayer h opt o b l := by
    induction hf with
    | nil => simp [backOf] at hl
    | @cons a b as bs h1 h2 ih =>
      cases as with
      | nil =>
        cases h2
        simp only [backOf, List.getLast?_singleton] at hl ⊢
        cases hl
        exact ⟨a, rfl, h1⟩
      | cons a2 as =>
        cases bs with
        | nil => cases h2
        | cons b2 bs =>
          simp only [backOf, List.getLast?_cons_cons] at hl ih ⊢
          exact ih hl
  obtain ⟨b, h1, c, h2, _, h4, _, _⟩ := this
  simp only [Heap.lastNeurons, h1, Res.ok_bind, h2, Layer.getNumberOfNeurons, ← h4]
  congr 1
  cases c.body <;> simp [Body.numberOfNeurons, Body.weights, Body.clone]

theorem Sgd.clone_eq (o : Sgd F) : o.clone = o := rfl

theorem Heap.copy_spec {h : Heap F} {p : HSnn F} {s t : Snn F} (hs : Holds h p s) (ho : ∀ x ∈ h.owned p, x < h.next)
    (hc : s.copy = .ok t) : ∃ q h', h.copy p = .ok (q, h') ∧ Grow h h' ∧ Holds h' q t ∧ h'.owned q = List.range' h.next (h'.next - h.next) := by
  obtain ⟨h1, h2, h3⟩ := hs
  unfold Snn.copy Net.copy at hc
  obtain ⟨net, hn, hc⟩ := Res.bind_eq_ok.1 hc
  obtain ⟨last, hl, hn⟩ := Res.bind_eq_ok.1 hn
  cases hn
  simp only [Bool.not_true, Bool.false_eq_true, if_false] at hc
  cases hc
  obtain ⟨g1, e1, n1, c1⟩ := alloc_spec h (.sgd s.net.optimizer.clone)
  have hold : List.Forall₂ (HoldsLayer (h.alloc (.sgd s.net.optimizer.clone)).2 p.optimizer s.net.optimizer) p.layers s.net.layers :=
    forall₂_imp_mem h2 fun x hx l hl => HoldsLayer.frame hl fun y hy =>
      g1.cell y (ho y (List.mem_cons_of_mem _ (List.mem_flatMap.2 ⟨x, hx, hy⟩)))
  have hb : ∀ a ∈ p.layers, ∀ x ∈ (h.alloc (.sgd s.net.optimizer.clone)).2.layerAddrs a, x < (h.alloc (.sgd s.net.optimizer.clone)).2.next := by
    intro a ha x hx
    have : ∀ y ∈ h.layerAddrs a, y < h.next := fun y hy => ho y (List.mem_cons_of_mem _ (List.mem_flatMap.2 ⟨a, ha, hy⟩))
    rw [layerAddrs_frame (g1.cell a (this a (mem_layerAddrs_self _ _)))] at hx
    exact lt_of_lt_of_le (this x hx) g1.next
  obtain ⟨bs, h', c2, g2, l2, a2⟩ := cloneLayers_spec h.next p.optimizer s.net.optimizer s.net.optimizer.clone _ _ _ hold hb
  refine ⟨_, h', by simp only [Heap.copy, h1, e1, c2, Res.ok_bind, lastNeurons_spec l2 hl]; rfl, g1.trans g2, ⟨?_, l2, ?_⟩, ?_⟩
  · simp only
    rw [g2.cell _ (by rw [n1]; omega), c1]
  · rw [h3]
  · simp only [Heap.owned]
    rw [a2, n1]
    have := g2.next
    rw [n1] at this
    rw [show h'.next - h.next = (h'.next - (h.next + 1)) + 1 by omega, List.range'_succ]

/-! ### Calls -/

theorem setMany_mem {h : Heap F} : ∀ {cs : List (Addr × Cell F)} {a : Addr} {c : Cell F}, (cs.map Prod.fst).Nodup → (a, c) ∈ cs →
    (h.setMany cs).cell a = some c := by
  intro cs a c hn hm
  have : cs.lookup a = some c := by
    induction cs with
    | nil => cases hm
    | cons x cs ih =>
      obtain ⟨b, d⟩ := x
      simp only [List.map_cons, List.nodup_cons] at hn
      rcases List.mem_cons.1 hm with e | hm
      · cases e
        simp [List.lookup]
      · have hne : a ≠ b := fun e => hn.1 (e ▸ List.mem_map.2 ⟨(a, c), hm, rfl⟩)
        rw [List.lookup_cons]
        have : (a == b) = false := by simp [hne]
        rw [this]
        exact ih hn.2 hm
  simp only [Heap.setMany, this]

theorem setMany_not_mem {h : Heap F} {cs : List (Addr × Cell F)} {a : Addr} (ha : a ∉ cs.map Prod.fst) :
    (h.setMany cs).cell a = h.cell a := by
  have : cs.lookup a = none := by
    induction cs with
    | nil => rfl
    | cons x cs ih =>
      obtain ⟨b, d⟩ := x
      simp only [List.map_cons, List.mem_cons, not_or] at ha
      rw [List.lookup_cons]
      have e : (a == b) = false := by simp [ha.1]
      rw [e]
      exact ih ha.2
  simp only [Heap.setMany, this]

theorem zipWith_fst {α β γ : Type} (f : α → β → γ) : ∀ (as : List α) (bs : List β), as.length = bs.length →
    (List.zipWith (fun a b => (a, f a b)) as bs).map Prod.fst = as
  | [], [], _ => rfl
  | [], _ :: _, h => by cases h
  | _ :: _, [], h => by cases h
  | a :: as, b :: bs, h => by
    simp only [List.zipWith_cons_cons, List.map_cons]
    rw [zipWith_fst f as bs (by simpa using h)]

theorem layerWrites_fst {h : Heap F} {opt a : Addr} {o : Sgd F} {l l' : Layer F} (hl : HoldsLayer h opt o a l)
    (hk : l'.optimizers.length = l.optimizers.length) : (h.layerWrites a l').map Prod.fst = h.layerAddrs a := by
  obtain ⟨c, e1, e2, e3, e4, e5⟩ := hl
  simp only [Heap.layerWrites, Heap.layerAddrs, e1, List.map_cons]
  rw [zipWith_fst (fun b o => Cell.layerOpt ⟨o, a⟩)]
  rw [forall₂_length_eq e5, hk]

theorem writes_fst {h : Heap F} {p : HSnn F} {s s' : Snn F} (hs : Holds h p s) (hk : s.net.Kin s'.net) :
    (h.writes p s').map Prod.fst = h.owned p := by
  obtain ⟨h1, h2, h3⟩ := hs
  simp only [Heap.writes, Heap.owned, List.map_cons]
  congr 1
  have hk := hk.layers
  generalize s'.net.layers = ls', s.net.layers = ls, p.layers = as at *
  clear h3 h1
  induction h2 generalizing ls' with
  | nil => cases hk; rfl
  | @cons a l as ls h1 h2 ih =>
    cases hk with
    | @cons _ l' _ ls' k1 k2 =>
      simp only [List.zipWith_cons_cons, List.flatten_cons, List.map_append, List.flatMap_cons]
      rw [layerWrites_fst h1 k1.optLength, ih _ k2]

theorem Body.HasOpt.of_clone (b : Body F) (o : Sgd F) : (b.clone o).HasOpt o := by
  cases b <;> simp only [Body.clone, Body.HasOpt]
  · intro n hn; obtain ⟨m, _, rfl⟩ := List.mem_map.1 hn; rfl
  · intro n hn; obtain ⟨m, _, rfl⟩ := List.mem_map.1 hn; rfl
  · intro n hn; obtain ⟨m, _, rfl⟩ := List.mem_map.1 hn; exact ⟨rfl, rfl, rfl⟩
  · intro n hn; obtain ⟨m, _, rfl⟩ := List.mem_map.1 hn; rfl

/-- After the writes of a call the objects have the new value. -/
theorem writes_holds {h : Heap F} {p : HSnn F} {s s' : Snn F} (hs : Holds h p s) (hk : s.net.Kin s'.net) (hn : (h.owned p).Nodup) :
    Holds (h.setMany (h.writes p s')) { p with own := s' } s' ∧
      (h.setMany (h.writes p s')).owned { p with own := s' } = h.owned p := by
  have hf := writes_fst hs hk
  have hset : ∀ a c, (a, c) ∈ h.writes p s' → (h.setMany (h.writes p s')).cell a = some c :=
    fun a c hm => setMany_mem (by rw [hf]; exact hn) hm
  generalize hg : h.setMany (h.writes p s') = h' at *
  obtain ⟨h1, h2, h3⟩ := hs
  have hl : ∀ (as : List Addr) (ls ls' : List (Layer F)), List.Forall₂ (HoldsLayer h p.optimizer s.net.optimizer) as ls →
      List.Forall₂ Layer.Kin ls ls' →
      (∀ x ∈ (List.zipWith h.layerWrites as ls').flatten, x ∈ h.writes p s') →
      List.Forall₂ (HoldsLayer h' p.optimizer s'.net.optimizer) as ls' ∧ as.flatMap h'.layerAddrs = as.flatMap h.layerAddrs := by
    intro as ls ls' hh hk'
    induction hh generalizing ls' with
    | nil => cases hk'; exact fun _ => ⟨.nil, rfl⟩
    | @cons a l as ls g1 g2 ih =>
      cases hk' with
      | @cons _ l' _ ls' k1 k2 =>
        intro hw
        simp only [List.zipWith_cons_cons, List.flatten_cons, List.mem_append] at hw
        obtain ⟨i1, i2⟩ := ih ls' k2 fun x hx => hw x (.inr hx)
        obtain ⟨c, e1, e2, e3, e4, e5⟩ := g1
        have hw' : ∀ x ∈ h.layerWrites a l', x ∈ h.writes p s' := fun x hx => hw x (.inl hx)
        simp only [Heap.layerWrites, e1, List.mem_cons] at hw'
        have hcell := hset a _ (hw' _ (.inl rfl))
        refine ⟨.cons ⟨_, hcell, rfl, ?_, e4, ?_⟩ i1, ?_⟩
        · refine Body.clone_eq ?_
          rw [hk.opt]
          exact k1.body.hasOpt (by rw [← e3]; exact Body.HasOpt.of_clone _ _)
        · simp only
          have hlen : c.optimizers.length = l'.optimizers.length := by rw [forall₂_length_eq e5, k1.optLength]
          have hw2 : ∀ x ∈ List.zipWith (fun b o => (b, Cell.layerOpt ⟨o, a⟩)) c.optimizers l'.optimizers, h'.cell x.1 = some x.2 :=
            fun x hx => hset _ _ (hw' x (.inr hx))
          generalize c.optimizers = bs, l'.optimizers = os at hlen hw2
          clear * - hlen hw2
          induction bs generalizing os with
          | nil =>
            cases os with
            | nil => exact .nil
            | cons => cases hlen
          | cons b bs ih =>
            cases os with
            | nil => cases hlen
            | cons o os =>
              refine .cons (hw2 (b, _) (by simp)) (ih os (by simpa using hlen) fun x hx => hw2 x ?_)
              simp only [List.zipWith_cons_cons, List.mem_cons]
              exact .inr hx
        · rw [List.flatMap_cons, List.flatMap_cons, i2]
          congr 1
          simp only [Heap.layerAddrs, hcell, e1]
  obtain ⟨l1, l2⟩ := hl _ _ _ h2 hk.layers (fun x hx => by simp only [Heap.writes, List.mem_cons]; exact .inr hx)
  refine ⟨⟨hset _ _ (by simp [Heap.writes]), l1, rfl⟩, ?_⟩
  simp only [Heap.owned, l2]

/-! ### Programs -/

/-- The networks of the program have the values `vs`, and own disjoint objects. -/
structure Rep (w : World F) (vs : List (Snn F)) : Prop where
  holds : List.Forall₂ (Holds w.heap) w.nets vs
  nodup : (w.nets.flatMap w.heap.owned).Nodup
  bound : ∀ a ∈ w.nets.flatMap w.heap.owned, a < w.heap.next

theorem forall₂_getElem? {α β : Type} {R : α → β → Prop} {as : List α} {bs : List β} (h : List.Forall₂ R as bs) (i : Nat) {a : α}
    (ha : as[i]? = some a) : ∃ b, bs[i]? = some b ∧ R a b := by
  induction h generalizing i with
  | nil => simp at ha
  | @cons x y as bs h1 h2 ih =>
    cases i with
    | zero => simp only [List.getElem?_cons_zero, Option.some.injEq] at ha ⊢; subst ha; exact ⟨y, rfl, h1⟩
    | succ i => simp only [List.getElem?_cons_succ] at ha ⊢; exact ih i ha

theorem forall₂_getElem?' {α β : Type} {R : α → β → Prop} {as : List α} {bs : List β} (h : List.Forall₂ R as bs) (i : Nat) {b : β}
    (hb : bs[i]? = some b) : ∃ a, as[i]? = some a ∧ R a b := by
  induction h generalizing i with
  | nil => simp at hb
  | @cons x y as bs h1 h2 ih =>
    cases i with
    | zero => simp only [List.getElem?_cons_zero, Option.some.injEq] at hb ⊢; subst hb; exact ⟨x, rfl, h1⟩
    | succ i => simp only [List.getElem?_cons_succ] at hb ⊢; exact ih i hb

theorem mem_owned {w : World F} {p : HSnn F} (hp : p ∈ w.nets) {a : Addr} (ha : a ∈ w.heap.owned p) : a ∈ w.nets.flatMap w.heap.owned :=
  List.mem_flatMap.2 ⟨p, hp, ha⟩

theorem flatMap_congr' {α β : Type} {f g : α → List β} : ∀ {l : List α}, (∀ a ∈ l, f a = g a) → l.flatMap f = l.flatMap g
  | [], _ => rfl
  | a :: l, h => by
    rw [List.flatMap_cons, List.flatMap_cons, h a (by simp), flatMap_congr' fun x hx => h x (List.mem_cons_of_mem _ hx)]

/-- A new network. -/
theorem Rep.push {w : World F} {vs : List (Snn F)} (h : Rep w vs) {h' : Heap F} {q : HSnn F} {t : Snn F} (g : Grow w.heap h')
    (hq : Holds h' q t) (ho : h'.owned q = List.range' w.heap.next (h'.next - w.heap.next)) : Rep ⟨h', w.nets ++ [q]⟩ (vs ++ [t]) := by
  have hfr : ∀ p ∈ w.nets, ∀ x ∈ w.heap.owned p, h'.cell x = w.heap.cell x := fun p hp x hx => g.cell x (h.bound x (mem_owned hp hx))
  have hown : w.nets.flatMap h'.owned = w.nets.flatMap w.heap.owned := flatMap_congr' fun p hp => owned_frame (hfr p hp)
  refine ⟨?_, ?_, ?_⟩
  · refine List.rel_append (forall₂_imp_mem h.holds fun p hp s hs => Holds.frame hs (hfr p hp)) (.cons hq .nil)
  · simp only [List.flatMap_append, hown, List.flatMap_cons, List.flatMap_nil, List.append_nil, ho]
    refine List.Nodup.append h.nodup (List.nodup_range' ..) ?_
    intro a ha hb
    have := h.bound a ha
    rw [List.mem_range'_1] at hb
    omega
  · intro a ha
    simp only [List.flatMap_append, hown, List.flatMap_cons, List.flatMap_nil, List.append_nil, ho, List.mem_append] at ha
    rcases ha with ha | ha
    · exact lt_of_lt_of_le (h.bound a ha) g.next
    · rw [List.mem_range'_1] at ha
      have := g.next
      show a < h'.next
      omega

theorem forall₂_split {α β : Type} {R : α → β → Prop} {as : List α} {bs : List β} (h : List.Forall₂ R as bs) (i : Nat) {a : α}
    (ha : as[i]? = some a) : ∃ l1 l2 m1 m2 b, as = l1 ++ a :: l2 ∧ bs = m1 ++ b :: m2 ∧ l1.length = i ∧ m1.length = i ∧
      List.Forall₂ R l1 m1 ∧ R a b ∧ List.Forall₂ R l2 m2 := by
  induction h generalizing i with
  | nil => simp at ha
  | @cons x y as bs h1 h2 ih =>
    cases i with
    | zero =>
      simp only [List.getElem?_cons_zero, Option.some.injEq] at ha
      subst ha
      exact ⟨[], as, [], bs, y, rfl, rfl, rfl, rfl, .nil, h1, h2⟩
    | succ i =>
      simp only [List.getElem?_cons_succ] at ha
      obtain ⟨l1, l2, m1, m2, b, e1, e2, e3, e4, r1, r2, r3⟩ := ih i ha
      exact ⟨x :: l1, l2, y :: m1, m2, b, by rw [e1]; rfl, by rw [e2]; rfl, by simp [e3], by simp [e4], .cons h1 r1, r2, r3⟩

theorem holds_value {h : Heap F} {p : HSnn F} {s t : Snn F} (hs : Holds h p s) (ht : Holds h p t) : s = t := by
  obtain ⟨h1, h2, h3⟩ := hs
  obtain ⟨k1, k2, k3⟩ := ht
  have ho : s.net.optimizer = t.net.optimizer := by
    rw [h1] at k1; injection k1 with k1; injection k1
  rw [ho] at h2
  have hl : s.net.layers = t.net.layers := by
    generalize s.net.layers = ls, t.net.layers = ms, p.layers = as at h2 k2
    induction h2 generalizing ms with
    | nil => cases k2; rfl
    | @cons a l as ls a1 _ ih =>
      cases k2 with
      | @cons _ m _ ms b1 b2 =>
        rw [ih ms b2]
        congr 1
        obtain ⟨c, e1, e2, e3, _, e5⟩ := a1
        obtain ⟨d, f1, f2, f3, _, f5⟩ := b1
        rw [e1] at f1
        cases f1
        obtain ⟨i, os, b⟩ := l
        obtain ⟨i', os', b'⟩ := m
        simp only at e2 e3 e5 f2 f3 f5
        subst e2 e3 f2 f3
        congr 1
        generalize c.optimizers = bs at e5 f5
        clear * - e5 f5
        induction e5 generalizing os' with
        | nil => cases f5; rfl
        | cons x _ ih =>
          cases f5 with
          | cons y ys =>
            rw [x] at y
            cases y
            rw [ih _ ys]
  rw [h3, k3, ho, hl]

theorem Snn.make_clone {arch : List (LayerModel F)} {o : Sgd F} {d d' : Draws F} {s : Snn F} (h : Snn.make arch o d = .ok (s, d')) :
    ∀ l ∈ s.net.layers, l.body.clone s.net.optimizer = l.body := by
  unfold Snn.make at h
  obtain ⟨⟨net, d1⟩, h1, h⟩ := Res.bind_eq_ok.1 h
  obtain ⟨err, _, h⟩ := Res.bind_eq_ok.1 h
  split at h
  · cases h
  · cases h
    obtain ⟨a, b, c, e⟩ := Net.make_set h1
    intro l hl
    exact Body.clone_eq (by rw [c]; exact b l hl)

/-- The state after a call on the network in the middle. -/
theorem Rep.call {h : Heap F} {l1 l2 : List (HSnn F)} {m1 m2 : List (Snn F)} {p : HSnn F} {s s' : Snn F}
    (hr : Rep ⟨h, l1 ++ p :: l2⟩ (m1 ++ s :: m2)) (r1 : List.Forall₂ (Holds h) l1 m1) (r2 : Holds h p s)
    (r3 : List.Forall₂ (Holds h) l2 m2) (hk : s.net.Kin s'.net) :
    Rep ⟨h.setMany (h.writes p s'), l1 ++ { p with own := s' } :: l2⟩ (m1 ++ s' :: m2) := by
  have hn := hr.nodup
  have hb := hr.bound
  simp only [List.flatMap_append, List.flatMap_cons] at hn hb
  obtain ⟨n1, n2, n3⟩ := List.nodup_append.1 hn
  obtain ⟨n4, n5, n6⟩ := List.nodup_append.1 n2
  obtain ⟨w1, w2⟩ := writes_holds r2 hk n4
  have hf := writes_fst r2 hk
  have f1 : ∀ q ∈ l1, ∀ x ∈ h.owned q, (h.setMany (h.writes p s')).cell x = h.cell x := by
    intro q hq x hx
    refine setMany_not_mem ?_
    rw [hf]
    intro hxp
    exact n3 x (List.mem_flatMap.2 ⟨q, hq, hx⟩) x (List.mem_append_left _ hxp) rfl
  have f2 : ∀ q ∈ l2, ∀ x ∈ h.owned q, (h.setMany (h.writes p s')).cell x = h.cell x := by
    intro q hq x hx
    refine setMany_not_mem ?_
    rw [hf]
    intro hxp
    exact n6 x hxp x (List.mem_flatMap.2 ⟨q, hq, hx⟩) rfl
  have ho : (l1 ++ { p with own := s' } :: l2).flatMap (h.setMany (h.writes p s')).owned =
      l1.flatMap h.owned ++ (h.owned p ++ l2.flatMap h.owned) := by
    rw [List.flatMap_append, List.flatMap_cons, w2, flatMap_congr' fun q hq => owned_frame (f1 q hq),
      flatMap_congr' fun q hq => owned_frame (f2 q hq)]
  refine ⟨?_, by simp only [ho]; exact hn, by simp only [ho]; exact hb⟩
  refine List.rel_append (forall₂_imp_mem r1 fun q hq v hv => Holds.frame hv (f1 q hq)) (.cons w1 ?_)
  exact forall₂_imp_mem r3 fun q hq v hv => Holds.frame hv (f2 q hq)

/-- The state after the destruction of the network in the middle. -/
theorem Rep.destroy {h : Heap F} {l1 l2 : List (HSnn F)} {m1 m2 : List (Snn F)} {p : HSnn F} {s : Snn F}
    (hr : Rep ⟨h, l1 ++ p :: l2⟩ (m1 ++ s :: m2)) (r1 : List.Forall₂ (Holds h) l1 m1) (r3 : List.Forall₂ (Holds h) l2 m2) :
    Rep ⟨h.free p, l1 ++ l2⟩ (m1 ++ m2) := by
  have hn := hr.nodup
  have hb := hr.bound
  simp only [List.flatMap_append, List.flatMap_cons] at hn hb
  obtain ⟨n1, n2, n3⟩ := List.nodup_append.1 hn
  obtain ⟨n4, n5, n6⟩ := List.nodup_append.1 n2
  have f : ∀ x, x ∉ h.owned p → (h.free p).cell x = h.cell x := fun x hx => by simp only [Heap.free, if_neg hx]
  have f1 : ∀ q ∈ l1, ∀ x ∈ h.owned q, (h.free p).cell x = h.cell x := by
    intro q hq x hx
    exact f x fun hxp => n3 x (List.mem_flatMap.2 ⟨q, hq, hx⟩) x (List.mem_append_left _ hxp) rfl
  have f2 : ∀ q ∈ l2, ∀ x ∈ h.owned q, (h.free p).cell x = h.cell x := by
    intro q hq x hx
    exact f x fun hxp => n6 x hxp x (List.mem_flatMap.2 ⟨q, hq, hx⟩) rfl
  have ho : (l1 ++ l2).flatMap (h.free p).owned = l1.flatMap h.owned ++ l2.flatMap h.owned := by
    rw [List.flatMap_append, flatMap_congr' fun q hq => owned_frame (f1 q hq), flatMap_congr' fun q hq => owned_frame (f2 q hq)]
  refine ⟨?_, ?_, ?_⟩
  · refine List.rel_append (forall₂_imp_mem r1 fun q hq v hv => Holds.frame hv (f1 q hq)) ?_
    exact forall₂_imp_mem r3 fun q hq v hv => Holds.frame hv (f2 q hq)
  · simp only [ho]
    exact List.nodup_append.2 ⟨n1, n5, fun a ha b hb => n3 a ha b (List.mem_append_right _ hb)⟩
  · intro a ha
    simp only [ho] at ha
    refine hb a ?_
    rcases List.mem_append.1 ha with ha | ha
    · exact List.mem_append_left _ ha
    · exact List.mem_append_right _ (List.mem_append_right _ ha)

/-- Every step of the objects is the step of the values. -/
theorem HeapStep.value {w w' : World F} {vs : List (Snn F)} {op : Op F} (hr : Rep w vs) (hs : HeapStep w op w')
    (hc : ∀ s ∈ vs, ∃ t, s.copy = .ok t) : ∃ vs', ValueStep vs op vs' ∧ Rep w' vs' := by
  cases hs with
  | make h =>
    obtain ⟨g, a, b⟩ := Heap.make_spec w.heap _ (Snn.make_clone h)
    exact ⟨_, .make h, hr.push g a b⟩
  | @copy i p q h' hi h =>
    obtain ⟨s, h1, h2⟩ := forall₂_getElem? hr.holds i hi
    obtain ⟨t, ht⟩ := hc s (List.mem_of_getElem? h1)
    obtain ⟨q', h'', e, g, a, b⟩ := Heap.copy_spec h2 (fun x hx => hr.bound x (mem_owned (List.mem_of_getElem? hi) hx)) ht
    rw [h] at e
    cases e
    exact ⟨_, .copy h1 ht, hr.push g a b⟩
  | @call i p s c data draws ticks r' hi hh h =>
    obtain ⟨heap, nets⟩ := w
    obtain ⟨l1, l2, m1, m2, s0, e1, e2, e3, e4, r1, r2, r3⟩ := forall₂_split hr.holds i hi
    simp only at e1 e2
    subst e1 e2
    cases holds_value hh r2
    refine ⟨_, .call (s := s) (by rw [← e4]; simp) h, ?_⟩
    have := hr.call r1 r2 r3 (Call.run_kin h)
    have a1 : (l1 ++ p :: l2).set i { p with own := r'.snn } = l1 ++ { p with own := r'.snn } :: l2 := by
      rw [← e3]; simp
    have a2 : (m1 ++ s :: m2).set i r'.snn = m1 ++ r'.snn :: m2 := by
      rw [← e4]; simp
    simp only [a1, a2]
    exact this
  | @destroy i p hi =>
    obtain ⟨heap, nets⟩ := w
    obtain ⟨l1, l2, m1, m2, s0, e1, e2, e3, e4, r1, r2, r3⟩ := forall₂_split hr.holds i hi
    simp only at e1 e2
    subst e1 e2
    refine ⟨_, .destroy (by rw [← e4]; simp), ?_⟩
    have := hr.destroy r1 r3
    have a1 : (l1 ++ p :: l2).eraseIdx i = l1 ++ l2 := by
      rw [← e3, List.eraseIdx_append_of_length_le (le_refl _)]; simp
    have a2 : (m1 ++ s0 :: m2).eraseIdx i = m1 ++ m2 := by
      rw [← e4, List.eraseIdx_append_of_length_le (le_refl _)]; simp
    simp only [a1, a2]
    exact this

/-- Every step of the values is a step of the objects. -/
theorem ValueStep.heap {w : World F} {vs vs' : List (Snn F)} {op : Op F} (hr : Rep w vs) (hs : ValueStep vs op vs') :
    ∃ w', HeapStep w op w' ∧ Rep w' vs' := by
  cases hs with
  | make h =>
    obtain ⟨g, a, b⟩ := Heap.make_spec w.heap _ (Snn.make_clone h)
    exact ⟨_, .make h, hr.push g a b⟩
  | @copy i s t h1 ht =>
    obtain ⟨p, hi, h2⟩ := forall₂_getElem?' hr.holds i h1
    obtain ⟨q', h'', e, g, a, b⟩ := Heap.copy_spec h2 (fun x hx => hr.bound x (mem_owned (List.mem_of_getElem? hi) hx)) ht
    exact ⟨_, .copy hi e, hr.push g a b⟩
  | @call i s c data draws ticks r' h1 h =>
    obtain ⟨heap, nets⟩ := w
    obtain ⟨p, hi, hh⟩ := forall₂_getElem?' hr.holds i h1
    obtain ⟨l1, l2, m1, m2, s0, e1, e2, e3, e4, r1, r2, r3⟩ := forall₂_split hr.holds i hi
    simp only at e1 e2
    subst e1 e2
    cases holds_value hh r2
    refine ⟨_, .call hi hh h, ?_⟩
    have := hr.call r1 r2 r3 (Call.run_kin h)
    have a1 : (l1 ++ p :: l2).set i { p with own := r'.snn } = l1 ++ { p with own := r'.snn } :: l2 := by
      rw [← e3]; simp
    have a2 : (m1 ++ s :: m2).set i r'.snn = m1 ++ r'.snn :: m2 := by
      rw [← e4]; simp
    simp only [a1, a2]
    exact this
  | @destroy i hi =>
    obtain ⟨heap, nets⟩ := w
    obtain ⟨p, hi', hh⟩ := forall₂_getElem?' hr.holds i (List.getElem?_eq_getElem hi)
    obtain ⟨l1, l2, m1, m2, s0, e1, e2, e3, e4, r1, r2, r3⟩ := forall₂_split hr.holds i hi'
    simp only at e1 e2
    subst e1 e2
    refine ⟨_, .destroy hi', ?_⟩
    have := hr.destroy r1 r3
    have a1 : (l1 ++ p :: l2).eraseIdx i = l1 ++ l2 := by
      rw [← e3, List.eraseIdx_append_of_length_le (le_refl _)]; simp
    have a2 : (m1 ++ s0 :: m2).eraseIdx i = m1 ++ m2 := by
      rw [← e4, List.eraseIdx_append_of_length_le (le_refl _)]; simp
    simp only [a1, a2]
    exact this

end

end Snn
