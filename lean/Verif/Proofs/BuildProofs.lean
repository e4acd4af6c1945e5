import Verif.Model.Factory
import Verif.Proofs.LayerWF

/-! What the layer factory returns when it returns. -/

set_option linter.all false

namespace Snn

theorem mapM_inv {α β : Type} {f : α → Res β} : ∀ {l : List α} {rs : List β}, l.mapM f = .ok rs →
    List.Forall₂ (fun a b => f a = .ok b) l rs
  | [], rs, h => by simp at h; subst h; exact .nil
  | a :: l, rs, h => by
    rw [List.mapM_cons] at h
    obtain ⟨b, h1, h⟩ := Res.bind_eq_ok.1 h
    obtain ⟨bs, h2, h⟩ := Res.bind_eq_ok.1 h
    cases h
    exact .cons h1 (mapM_inv h2)

theorem mapM_ok {α β : Type} {f : α → Res β} {g : α → β} : ∀ {l : List α}, (∀ a ∈ l, f a = .ok (g a)) →
    l.mapM f = .ok (l.map g)
  | [], _ => rfl
  | a :: l, h => by
    rw [List.mapM_cons, h a (by simp), mapM_ok (fun b hb => h b (by simp [hb]))]
    rfl

theorem ckInt_inv {x y : Int} (h : ckInt x = .ok y) : y = x ∧ -2147483648 ≤ x ∧ x ≤ 2147483647 := by
  unfold ckInt at h
  split at h
  · cases h; rename_i h; exact ⟨rfl, h.1, h.2⟩
  · cases h

theorem mulI_inv {a b y : Int} (h : mulI a b = .ok y) : y = a * b ∧ -2147483648 ≤ a * b ∧ a * b ≤ 2147483647 := ckInt_inv h
theorem addI_inv {a b y : Int} (h : addI a b = .ok y) : y = a + b ∧ -2147483648 ≤ a + b ∧ a + b ≤ 2147483647 := ckInt_inv h

theorem divI_inv {a b y : Int} (h : divI a b = .ok y) : b ≠ 0 ∧ y = a.tdiv b := by
  unfold divI at h
  split at h
  · cases h
  · rename_i hb; exact ⟨hb, (ckInt_inv h).1⟩

theorem modI_inv {a b y : Int} (h : modI a b = .ok y) : b ≠ 0 ∧ y = a.tmod b := by
  unfold modI at h
  split at h
  · cases h
  · rename_i hb; exact ⟨hb, (ckInt_inv h).1⟩

/-- The index stored for an entry. -/
def keep (e : Int × Bool) : Int := if e.2 then e.1 else -1

theorem storedIndex_inv {e : Int × Bool} {i : Int} (h : storedIndex e = .ok i) : i = keep e := by
  unfold storedIndex at h
  obtain ⟨j, h1, h⟩ := Res.bind_eq_ok.1 h
  cases h
  rw [(ckInt_inv h1).1]; rfl

theorem storedIndex_ok {e : Int × Bool} (h1 : -2147483648 ≤ e.1) (h2 : e.1 ≤ 2147483647) : storedIndex e = .ok (keep e) := by
  unfold storedIndex
  rw [ckInt_ok h1 h2]; rfl

theorem forall₂_eq_map {α β : Type} {g : α → β} : ∀ {l : List α} {rs : List β}, List.Forall₂ (fun a b => b = g a) l rs →
    rs = l.map g
  | [], _, .nil => rfl
  | _ :: _, _, .cons h t => by rw [h, forall₂_eq_map t]; rfl

/-- The rows of indexes, when every row has the announced size. -/
theorem buildRows_inv {rows size : Int} {entries : Nat → List (Int × Bool)} {rs : List (List Int)}
    (h : buildRows rows size entries = .ok rs) (hs : ∀ k : Nat, (k : Int) < rows → ((entries k).length : Int) = size) :
    0 ≤ rows ∧ rs = (List.range rows.toNat).map fun k => (entries k).map keep := by
  unfold buildRows at h
  split at h
  · cases h
  rename_i h0
  refine ⟨by omega, ?_⟩
  have := mapM_inv h
  apply forall₂_eq_map
  have key : List.Forall₂ (fun (k : Nat) (r : List Int) => k ∈ List.range rows.toNat ∧ r = (entries k).map keep) (List.range rows.toNat) rs := by
    have aux : ∀ (l : List Nat) (rs : List (List Int)), (∀ k ∈ l, k ∈ List.range rows.toNat) →
        List.Forall₂ (fun a b => (do let es ← (entries a).mapM storedIndex; fillRow size es) = Res.ok b) l rs →
        List.Forall₂ (fun (k : Nat) (r : List Int) => k ∈ List.range rows.toNat ∧ r = (entries k).map keep) l rs := by
      intro l rs hl hf
      induction hf with
      | nil => exact .nil
      | @cons k ks r rs' ha _ ih =>
        refine .cons ⟨hl k (by simp), ?_⟩ (ih fun j hj => hl j (by simp [hj]))
        obtain ⟨es, h1, h2⟩ := Res.bind_eq_ok.1 ha
        have e1 : es = (entries k).map keep := by
          apply forall₂_eq_map
          exact (mapM_inv h1).imp fun a b h => storedIndex_inv h
        have hk := hl k (by simp)
        rw [List.mem_range] at hk
        have hlen := hs k (by omega)
        unfold fillRow at h2
        split at h2
        · cases h2
        split at h2
        · cases h2
        cases h2
        have : size.toNat - es.length = 0 := by rw [e1, List.length_map]; omega
        rw [this, e1]; simp
    exact aux _ _ (fun k hk => hk) this
  exact key.imp fun a b h => h.2

theorem buildRows_ok {rows size : Int} {entries : Nat → List (Int × Bool)} (h0 : 0 ≤ rows) (hz : 0 ≤ size)
    (hs : ∀ k : Nat, (k : Int) < rows → ((entries k).length : Int) = size)
    (hb : ∀ k : Nat, (k : Int) < rows → ∀ e ∈ entries k, -2147483648 ≤ e.1 ∧ e.1 ≤ 2147483647) :
    buildRows rows size entries = .ok ((List.range rows.toNat).map fun k => (entries k).map keep) := by
  unfold buildRows
  rw [if_neg (by omega)]
  apply mapM_ok
  intro k hk
  rw [List.mem_range] at hk
  rw [mapM_ok (fun e he => storedIndex_ok (hb k (by omega) e he).1 (hb k (by omega) e he).2)]
  simp only [Res.ok_bind]
  have := hs k (by omega)
  unfold fillRow
  rw [if_neg (by omega), if_neg (by simp; omega)]
  have : size.toNat - ((entries k).map keep).length = 0 := by simp; omega
  rw [this]; simp

section
variable {F : Type} [Flt F] [FTrans F] [Add F] [Sub F] [Mul F] [Div F] [Neg F]

theorem makeNeurons_inv {N : Type} {mk : Draws F → Res N} {per : Nat} {P : N → Prop} (hP : ∀ d n, mk d = .ok n → P n) :
    ∀ {k : Nat} {d d' : Draws F} {ns : List N}, makeNeurons mk per k d = .ok (ns, d') → ns.length = k ∧ ∀ n ∈ ns, P n
  | 0, d, d', ns, h => by cases h; simp
  | k + 1, d, d', ns, h => by
    unfold makeNeurons at h
    obtain ⟨n, h1, h⟩ := Res.bind_eq_ok.1 h
    obtain ⟨⟨ns', d1⟩, h2, h⟩ := Res.bind_eq_ok.1 h
    cases h
    obtain ⟨a, b⟩ := makeNeurons_inv hP h2
    refine ⟨by simp [a], ?_⟩
    intro m hm
    rcases List.mem_cons.1 hm with rfl | hm
    · exact hP _ _ h1
    · exact b m hm

theorem makeNeurons_ok {N : Type} {mk : Draws F → Res N} {per : Nat} (h : ∀ d, ∃ n, mk d = .ok n) :
    ∀ (k : Nat) (d : Draws F), ∃ ns d', makeNeurons mk per k d = .ok (ns, d')
  | 0, d => ⟨[], d, rfl⟩
  | k + 1, d => by
    obtain ⟨n, hn⟩ := h d
    obtain ⟨ns, d', hr⟩ := makeNeurons_ok (per := per) h k (shiftDraws per d)
    exact ⟨n :: ns, d', by simp [makeNeurons, hn, hr]⟩

theorem makeAllNeurons_inv {N : Type} {mk : Draws F → Res N} {per : Nat} {P : N → Prop} (hP : ∀ d n, mk d = .ok n → P n)
    {k : Int} {d d' : Draws F} {ns : List N} (h : makeAllNeurons mk per k d = .ok (ns, d')) :
    (ns.length : Int) = k ∧ ∀ n ∈ ns, P n := by
  unfold makeAllNeurons at h
  split at h
  · cases h
  · obtain ⟨a, b⟩ := makeNeurons_inv hP h
    exact ⟨by omega, b⟩

theorem makeAllNeurons_ok {N : Type} {mk : Draws F → Res N} {per : Nat} (h : ∀ d, ∃ n, mk d = .ok n) {k : Int} (hk : 0 ≤ k)
    (d : Draws F) : ∃ ns d', makeAllNeurons mk per k d = .ok (ns, d') := by
  unfold makeAllNeurons
  rw [if_neg (by omega)]
  exact makeNeurons_ok h _ _

end

theorem range_mul_flatMap_length {α : Type} (n : Nat) (f : Nat → List α) (m : Nat) (h : ∀ i, i < n → (f i).length = m) :
    ((List.range n).flatMap f).length = n * m := by
  rw [List.length_flatMap]
  have : (List.range n).map (fun i => (f i).length) = (List.range n).map fun _ => m := by
    apply List.map_congr_left
    intro i hi
    exact h i (List.mem_range.1 hi)
  rw [this]; simp

end Snn
