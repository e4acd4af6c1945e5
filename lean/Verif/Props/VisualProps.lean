import Verif.Proofs.VisualProofs
import Verif.Props.FilterProps
import Verif.Props.PoolProps
import Verif.Demo.Demo

/-! C54: the bitmaps. -/

set_option linter.all false

namespace Snn.VisualProps

open Finset Spec Visual LayerProps

section
variable {F : Type} [Flt F] [FTrans F] [Add F] [Sub F] [Mul F] [Div F] [Neg F]

/-! ### Loops that fail -/

/-- The call does not throw. -/
def NoThrow {A : Type} (r : Res A) : Prop := ∀ m, r ≠ .throw m

theorem NoThrow.bind {A B : Type} {r : Res A} {f : A → Res B} (h : NoThrow r) (hf : ∀ a, r = .ok a → NoThrow (f a)) : NoThrow (r >>= f) := by
  cases r with
  | ok a => exact hf a rfl
  | throw m => exact (h m rfl).elim
  | ub m => intro m' h'; cases h'

theorem NoThrow.foldlM {S : Type} {f : S → Nat → Res S} (h : ∀ s k, NoThrow (f s k)) (ks : List Nat) (s : S) : NoThrow (ks.foldlM f s) := by
  induction ks generalizing s with
  | nil => intro m h; cases h
  | cons k ks ih => rw [List.foldlM_cons]; exact (h s k).bind fun a _ => ih a

theorem NoThrow.forI {S : Type} {n : Int} {f : Int → S → Res S} (h : ∀ k s, NoThrow (f k s)) (s : S) : NoThrow (forI n f s) :=
  NoThrow.foldlM (fun s k => h k s) _ s

theorem NoThrow.vecAt {A : Type} (v : List A) (i : Int) : NoThrow (vecAt v i) := by
  unfold Snn.vecAt
  intro m h
  split at h
  · cases h
  · split at h <;> cases h

theorem NoThrow.ok {A : Type} (a : A) : NoThrow (Res.ok a) := by intro m h; cases h
theorem NoThrow.ub {A : Type} (w : String) : NoThrow (Res.ub w : Res A) := by intro m h; cases h

theorem NoThrow.setPixel (img : Image F) (x y : Int) (v : List F) : NoThrow (img.setPixel x y v) := by
  unfold Image.setPixel; split
  · exact .ok _
  · exact .ub _

/-- A loop one of whose steps always fails. -/
theorem forI_ub {S : Type} {f : Int → S → Res S} {n k : Nat} (hk : k < n) (h : ∀ k s, NoThrow (f k s)) (hf : ∀ s, ∃ m, f k s = .ub m) (s : S) :
    ∃ m, forI n f s = .ub m := by
  have e : List.range n = List.range k ++ (k :: (List.range (n - k - 1)).map (k + 1 + ·)) := by
    have : n = k + (1 + (n - k - 1)) := by omega
    conv_lhs => rw [this]
    rw [List.range_add, List.range_add]
    simp [Nat.add_assoc]
  unfold forI
  simp only [Int.toNat_natCast, e, List.foldlM_append]
  have hn := NoThrow.foldlM (f := fun s (i : Nat) => f (i : Int) s) (fun s k => h k s) (List.range k) s
  cases hr : (List.range k).foldlM (fun s (i : Nat) => f (i : Int) s) s with
  | ok s1 =>
    obtain ⟨m, hm⟩ := hf s1
    refine ⟨m, ?_⟩
    rw [Res.ok_bind, List.foldlM_cons, hm]
    rfl
  | throw m => exact (hn m hr).elim
  | ub m => exact ⟨m, rfl⟩

theorem forI_inv {S : Type} {f : Int → S → Res S} {I : Nat → S → Prop} {n : Nat} {s s' : S}
    (h : ∀ k : Nat, k < n → ∀ s s', I k s → f k s = .ok s' → I (k + 1) s') (h0 : I 0 s) (hr : forI n f s = .ok s') : I n s' := by
  unfold forI at hr
  simp only [Int.toNat_natCast] at hr
  induction n generalizing s' with
  | zero => cases hr; exact h0
  | succ n ih =>
    rw [List.range_succ, List.foldlM_append] at hr
    obtain ⟨s1, h1, h2⟩ := Res.bind_eq_ok.1 hr
    have := ih (fun k hk => h k (by omega)) h1
    rw [List.foldlM_cons] at h2
    obtain ⟨s2, h3, h4⟩ := Res.bind_eq_ok.1 h2
    cases h4
    exact h n (by omega) s1 _ this h3

theorem picture_noThrow (ns : List (Neuron F)) (info : FilterInfo) (ni f : Int) : NoThrow (pictureOf ns info ni f) := by
  unfold pictureOf
  split
  · apply NoThrow.forI
    intro n acc
    apply (NoThrow.vecAt _ _).bind
    intro neuron _
    split
    · exact .ub _
    · apply NoThrow.forI
      intro y acc
      apply NoThrow.forI
      intro x acc
      apply (NoThrow.vecAt _ _).bind
      intro _ _
      apply (NoThrow.vecAt _ _).bind
      intro _ _
      exact .ok _
  · exact .ub _

/-- If the picture of a filter cannot be made, the bitmap cannot. -/
theorem weightsBitmap_ub {l : Layer F} {ns : List (Neuron F)} {info : FilterInfo} {N : Nat} {C X Y : Int} {rest : List Int}
    (hs : info.shapeOfInput = [C, X, Y]) (ho : info.shapeOfOutput = (N : Int) :: rest)
    (hb : (∃ k, l.body = .filter k ns info) ∨ (ns = [] ∧ ∃ t n m, l.body = .pool t info n m)) {f : Nat} (hf : f < N)
    (hp : ∃ m, pictureOf ns info l.numberOfInputs f = .ub m) : ∃ m, l.weightsBitmap = .ub m := by
  obtain ⟨a, b, ht, ha, hb', hab⟩ := tiles_spec (N := N) (by omega)
  obtain ⟨m0, hp⟩ := hp
  have noThrow1 : ∀ (x y : Int) (img : Image F), NoThrow (if y * (a : Int) + x < (N : Int) then do
            let weights ← pictureOf ns info l.numberOfInputs ((a : Int) * y + x)
            forI X (fun i img => forI Y (fun j img => do
              let w ← vecAt weights (j * X + i)
              img.setPixel (x * (X + 1) + i) (y * (Y + 1) + j) [w]) img) img
          else .ok img) := by
    intro x y img
    split
    · apply (picture_noThrow _ _ _ _).bind
      intro w _
      apply NoThrow.forI
      intro i img
      apply NoThrow.forI
      intro j img
      apply (NoThrow.vecAt _ _).bind
      intro _ _
      exact NoThrow.setPixel _ _ _ _
    · exact .ok _
  have key : ∀ img : Image F, ∃ m, forI (a : Int) (fun x img => forI (b : Int) (fun y img =>
          if y * (a : Int) + x < (N : Int) then do
            let weights ← pictureOf ns info l.numberOfInputs ((a : Int) * y + x)
            forI X (fun i img => forI Y (fun j img => do
              let w ← vecAt weights (j * X + i)
              img.setPixel (x * (X + 1) + i) (y * (Y + 1) + j) [w]) img) img
          else .ok img) img) img = .ub m := by
    intro img
    apply forI_ub (Nat.mod_lt f ha)
    · intro x img
      apply NoThrow.forI
      intro y img
      exact noThrow1 x y img
    · intro img
      apply forI_ub (div_lt_rows ha hab hf)
      · intro y img
        exact noThrow1 _ y img
      · intro img
        have e1 : ((f / a : Nat) : Int) * (a : Int) + ((f % a : Nat) : Int) = (f : Int) := by
          have := Nat.div_add_mod f a
          have h2 : a * (f / a) = f / a * a := Nat.mul_comm _ _
          exact_mod_cast (by omega : f / a * a + f % a = f)
        have e2 : (a : Int) * ((f / a : Nat) : Int) + ((f % a : Nat) : Int) = (f : Int) := by
          have := Nat.div_add_mod f a
          exact_mod_cast this
        rw [e1, e2, if_pos (by omega), hp]
        exact ⟨m0, rfl⟩
  obtain ⟨m, hm⟩ := key { width := (X + 1) * (a : Int) - 1, height := (Y + 1) * (b : Int) - 1, writes := [] }
  refine ⟨m, ?_⟩
  unfold Layer.weightsBitmap
  rcases hb with ⟨k, hb⟩ | ⟨rfl, t, n, mm, hb⟩
  · simp only [hb, hs, ho, ht, hm]; rfl
  · simp only [hb, hs, ho, ht, hm]; rfl

/-! ### Theorems -/

/-- **C64**, the bitmap of the outputs of a filter layer: for every layer with N filters of X × Y outputs and every vector of N*X*Y
outputs, each output is drawn in its own pixel, inside of the bitmap: output number `(j*X + i)*N + f` at the pixel (i, j) of picture f. -/
theorem C64_outputs_bitmap {N X Y : Nat} (hN : 0 < N) (l : Layer F) (info : FilterInfo) (hs : info.shapeOfOutput = [(N : Int), (X : Int), (Y : Int)])
    (hb : (∃ k ns, l.body = .filter k ns info) ∨ ∃ t n m, l.body = .pool t info n m) (outputs : List F) (hlen : outputs.length = N * X * Y) :
    ∃ img, l.outputsBitmap outputs = .ok (some img) ∧ Shows img N X Y fun f i j => [outputs.getD ((j * X + i) * N + f) (lit 0)] :=
  outputs_image hN hlen (fun k => outputs.getD k (lit 0)) (fun k h => by simp [h]) hs hb

end

section
variable {F : Type} [Field F] [LinearOrder F] [IsStrictOrderedRing F] [FTrans F]

/-- **C54 is false for convolutions**: whatever its filters, kernel and weights, the bitmap of the weights of a convolution in two
dimensions with more than one position reads neurons that do not exist (there is one neuron by filter, and the code reads number
`n*(f+1)` for each position n). -/
theorem C54_convolution_refuted {opt : Sgd F} {C X Y K N : Nat} {act : Act} {opts : List (LayerOptModel F)} {d d' : Draws F}
    {l0 l : Layer F} (hN : 0 < N) (hP : 1 < (X - K + 1) * (Y - K + 1))
    (hb : buildLayer opt (.convolution (N : Int) (K : Int) act opts) [(C : Int), (X : Int), (Y : Int)] d = .ok (l0, d'))
    (hu : Used (C * X * Y) ((X - K + 1) * (Y - K + 1) * N) l0 l) : ∃ m, l.weightsBitmap = .ub m := by
  unfold buildLayer at hb
  obtain ⟨n, h1, hb⟩ := Res.bind_eq_ok.1 hb
  have hn : n = ((C * X * Y : Nat) : Int) := by rw [computeNumberOfInputs_inv h1]; simp; ring
  rw [hn] at hb
  split at hb
  · cases hb
  split at hb
  · cases hb
  simp only at hb
  obtain ⟨hKX, hKY, ns, info, h⟩ := buildConvolution2D_inv hN hb
  have hwf := buildConvolution2D_wf hN hb
  obtain ⟨_, hk⟩ := used_wf hu hwf
  rw [h.body] at hk
  cases hbody : l.body with
  | filter k ns' info' =>
    rw [hbody] at hk
    obtain ⟨rfl, hk, rfl⟩ := hk
    have hlen : ns'.length = N := by rw [← hk.length_eq, h.length]
    refine weightsBitmap_ub (f := N - 1) (ns := ns') (N := N) h.shapeIn h.shapeOut (Or.inl ⟨_, hbody⟩) (by omega) ?_
    unfold pictureOf
    rw [h.shapeIn, h.shapeOut]
    simp only
    have e : ((X - K + 1 : Nat) : Int) * ((Y - K + 1 : Nat) : Int) = (((X - K + 1) * (Y - K + 1) : Nat) : Int) := by push_cast; rfl
    rw [e]
    apply forI_ub hP
    · intro n acc
      apply (NoThrow.vecAt _ _).bind
      intro neuron _
      split
      · exact .ub _
      · apply NoThrow.forI
        intro y acc
        apply NoThrow.forI
        intro x acc
        apply (NoThrow.vecAt _ _).bind
        intro _ _
        apply (NoThrow.vecAt _ _).bind
        intro _ _
        exact .ok _
    · intro acc
      obtain ⟨m, hm⟩ := vecAt_ub (v := ns') (i := ((1 : Nat) : Int) * (((N - 1 : Nat) : Int) + 1)) (by rw [hlen]; omega)
      exact ⟨m, by rw [hm]; rfl⟩
  | fullyConnected ns => rw [hbody] at hk; exact hk.elim
  | recurrence ns => rw [hbody] at hk; exact hk.elim
  | gru ns => rw [hbody] at hk; exact hk.elim
  | pool a b c d => rw [hbody] at hk; exact hk.elim

/-- **C54 is false for max poolings**: a max pooling in two dimensions has no neuron, and the bitmap of its weights reads them. -/
theorem C54_pool_refuted {opt : Sgd F} {C X Y K : Nat} {d d' : Draws F} {l : Layer F} (hC : 0 < C)
    (hb : buildLayer opt (.maxPooling (K : Int)) [(C : Int), (X : Int), (Y : Int)] d = .ok (l, d')) : ∃ m, l.weightsBitmap = .ub m := by
  unfold buildLayer at hb
  obtain ⟨n, h1, hb⟩ := Res.bind_eq_ok.1 hb
  have hn : n = ((C * X * Y : Nat) : Int) := by rw [computeNumberOfInputs_inv h1]; simp; ring
  rw [hn] at hb
  split at hb
  · cases hb
  split at hb
  · cases hb
  simp only at hb
  obtain ⟨l1, h2, hb⟩ := Res.bind_eq_ok.1 hb
  cases hb
  obtain ⟨hKX, hKY, hK, info, h⟩ := buildPool2D_inv h2
  obtain ⟨o, m, hbody, _⟩ := h.body
  have px := ceil_pos hK (show 0 < X by omega)
  have py := ceil_pos hK (show 0 < Y by omega)
  refine weightsBitmap_ub (f := 0) (ns := []) (N := C) h.shapeIn h.shapeOut (Or.inr ⟨rfl, _, _, _, hbody⟩) hC ?_
  unfold pictureOf
  rw [h.shapeIn, h.shapeOut]
  simp only
  have e : ((Spec.ceil X K : Nat) : Int) * ((Spec.ceil Y K : Nat) : Int) = ((Spec.ceil X K * Spec.ceil Y K : Nat) : Int) := by push_cast; rfl
  rw [e]
  apply forI_ub (Nat.mul_pos px py)
  · intro n acc
    exact (NoThrow.vecAt _ _).bind (by intro a h; unfold vecAt at h; split at h <;> simp at h)
  · intro acc
    obtain ⟨m, hm⟩ := vecAt_ub (v := ([] : List (Neuron F))) (i := ((0 : Nat) : Int) * (((0 : Nat) : Int) + 1)) (by simp)
    exact ⟨m, by rw [hm]; rfl⟩

/-! ### Locally connected layers -/

/-- A vector given by a function. -/
def tab (n : Nat) (g : Nat → F) : List F := (List.range n).map g

theorem tab_set {n i : Nat} {g : Nat → F} (w : F) : (tab n g).set i (g i + w) = tab n fun c => g c + if i = c then w else 0 := by
  unfold tab
  apply List.ext_getElem?
  intro c
  rw [List.getElem?_set]
  simp only [List.getElem?_map, List.length_map, List.length_range, List.getElem?_range]
  by_cases hc : c < n
  · rw [List.getElem?_range hc]
    by_cases h : i = c
    · subst h; simp [hc]
    · simp [h]
  · rw [List.getElem?_eq_none (by simp; omega)]
    by_cases h : i = c
    · subst h; simp [hc]
    · simp [h]

theorem tab_at {n i : Nat} {g : Nat → F} {k : Int} (hk : k = i) (h : i < n) : vecAt (tab n g) k = .ok (g i) := by
  rw [vecAt_ok hk (by simpa [tab] using h)]
  simp [tab]

/-- The picture of a filter of a locally connected layer. -/
theorem picture_eq {ns : List (Neuron F)} {info : FilterInfo} {C X ox oy K f ni N : Nat} {Y : Nat} {rest : List Int}
    (hi : info.shapeOfInput = (C : Int) :: (X : Int) :: rest) (ho : info.shapeOfOutput = [(N : Int), (ox : Int), (oy : Int)])
    (hk : info.kernelSize = (K : Int)) (hx : ox + K ≤ X + 1) (hy : oy + K ≤ Y + 1) (hni : X * Y ≤ ni) (hf : f < N)
    (hn : ns.length = ox * oy * N) (hw : ∀ n ∈ ns, K * K ≤ n.weights.length) (hox : 0 < ox) (hoy : 0 < oy) :
    pictureOf ns info (ni : Int) (f : Int) = .ok (tab ni fun c => ∑ n ∈ range (ox * oy), ∑ y ∈ range K, ∑ x ∈ range K,
      if (n / ox + y) * X + (n % ox + x) = c then ((ns.map Neuron.getWeights).getD (n * (f + 1)) []).getD (y * K + x) 0 else 0) := by
  unfold pictureOf
  rw [hi, ho]
  simp only [hk]
  have e : ((ox : Nat) : Int) * ((oy : Nat) : Int) = ((ox * oy : Nat) : Int) := by push_cast; rfl
  simp only [e]
  have h0 : List.replicate (Int.toNat (ni : Int)) (lit 0 : F) = tab ni fun c => ∑ n ∈ range 0, ∑ y ∈ range K, ∑ x ∈ range K,
      if (n / ox + y) * X + (n % ox + x) = c then ((ns.map Neuron.getWeights).getD (n * (f + 1)) []).getD (y * K + x) 0 else 0 := by
    unfold tab
    simp
  rw [h0]
  apply forI_steps _ (fun k => tab ni fun c => ∑ n ∈ range k, ∑ y ∈ range K, ∑ x ∈ range K,
      if (n / ox + y) * X + (n % ox + x) = c then ((ns.map Neuron.getWeights).getD (n * (f + 1)) []).getD (y * K + x) 0 else 0)
  intro n hn'
  have hidx : n * (f + 1) < ns.length := by
    rw [hn]
    calc n * (f + 1) ≤ n * N := Nat.mul_le_mul_left _ (by omega)
      _ < ox * oy * N := Nat.mul_lt_mul_of_pos_right hn' (by omega)
  rw [vecAt_ok (k := n * (f + 1)) (by push_cast; rfl) hidx]
  rw [Res.ok_bind, if_neg (by omega)]
  have hmod : Int.tmod ((n : Nat) : Int) ((ox * oy : Nat) : Int) = (n : Int) := by
    have : Int.tmod ((n : Nat) : Int) ((ox * oy : Nat) : Int) = ((n % (ox * oy) : Nat) : Int) := rfl
    rw [this, Nat.mod_eq_of_lt hn']
  have hpx : Int.tmod ((n : Nat) : Int) (ox : Int) = ((n % ox : Nat) : Int) := rfl
  have hpy : Int.tdiv ((n : Nat) : Int) (ox : Int) = ((n / ox : Nat) : Int) := rfl
  simp only [hmod, hpx, hpy]
  have hw' := hw _ (List.getElem_mem hidx)
  have hget : (ns.map Neuron.getWeights).getD (n * (f + 1)) [] = (ns[n * (f + 1)]).weights := by
    simp [Neuron.getWeights, hidx]
  have hnx : n % ox < ox := Nat.mod_lt _ hox
  have hny : n / ox < oy := (Nat.div_lt_iff_lt_mul hox).2 (by rw [Nat.mul_comm]; exact hn')
  have key := forI_steps (S := List F) (fun y acc => forI (K : Int) (fun x acc => do
        let old ← vecAt acc ((((n / ox : Nat) : Int) + y) * (X : Int) + (((n % ox : Nat) : Int) + x))
        let w ← vecAt (ns[n * (f + 1)]).weights (y * (K : Int) + x)
        return acc.set ((((n / ox : Nat) : Int) + y) * (X : Int) + (((n % ox : Nat) : Int) + x)).toNat (old + w)) acc)
    (fun k => tab ni fun c => (∑ n ∈ range n, ∑ y ∈ range K, ∑ x ∈ range K,
      if (n / ox + y) * X + (n % ox + x) = c then ((ns.map Neuron.getWeights).getD (n * (f + 1)) []).getD (y * K + x) 0 else 0) +
      ∑ y ∈ range k, ∑ x ∈ range K, if (n / ox + y) * X + (n % ox + x) = c then ((ns[n * (f + 1)]).weights).getD (y * K + x) 0 else 0) K (by
    intro y hy'
    have inner := forI_steps (S := List F) (fun x acc => do
        let old ← vecAt acc ((((n / ox : Nat) : Int) + ((y : Nat) : Int)) * (X : Int) + (((n % ox : Nat) : Int) + x))
        let w ← vecAt (ns[n * (f + 1)]).weights (((y : Nat) : Int) * (K : Int) + x)
        return acc.set ((((n / ox : Nat) : Int) + ((y : Nat) : Int)) * (X : Int) + (((n % ox : Nat) : Int) + x)).toNat (old + w))
      (fun k => tab ni fun c => ((∑ n ∈ range n, ∑ y ∈ range K, ∑ x ∈ range K,
      if (n / ox + y) * X + (n % ox + x) = c then ((ns.map Neuron.getWeights).getD (n * (f + 1)) []).getD (y * K + x) 0 else 0) +
      ∑ y ∈ range y, ∑ x ∈ range K, if (n / ox + y) * X + (n % ox + x) = c then ((ns[n * (f + 1)]).weights).getD (y * K + x) 0 else 0) +
      ∑ x ∈ range k, if (n / ox + y) * X + (n % ox + x) = c then ((ns[n * (f + 1)]).weights).getD (y * K + x) 0 else 0) K (by
      intro x hx'
      have hiN : (((n / ox : Nat) : Int) + ((y : Nat) : Int)) * (X : Int) + (((n % ox : Nat) : Int) + ((x : Nat) : Int)) =
        (((n / ox + y) * X + (n % ox + x) : Nat) : Int) := by push_cast; ring
      have hlt : (n / ox + y) * X + (n % ox + x) < ni := by
        have h1 : (n / ox + y + 1) * X ≤ Y * X := Nat.mul_le_mul_right _ (by omega)
        have h2 : (n / ox + y + 1) * X = (n / ox + y) * X + X := by ring
        have h3 : Y * X = X * Y := Nat.mul_comm _ _
        omega
      have hj : y * K + x < ((ns[n * (f + 1)]).weights).length := by
        have h1 : (y + 1) * K ≤ K * K := Nat.mul_le_mul_right _ (by omega)
        have h2 : (y + 1) * K = y * K + K := by ring
        omega
      rw [tab_at hiN hlt, Res.ok_bind, vecAt_ok (k := y * K + x) (by push_cast; rfl) hj, Res.ok_bind, hiN, Int.toNat_natCast]
      rw [Res.pure_eq, tab_set]
      rw [← List.getD_eq_getElem _ 0 hj]
      congr 2
      funext c
      rw [Finset.sum_range_succ _ x, add_assoc (G := F) _ _ (ite _ _ _)])
    simp only [Finset.sum_range_zero, add_zero] at inner
    rw [inner]
    congr 2
    funext c
    rw [Finset.sum_range_succ _ y, add_assoc (G := F)])
  simp only [Finset.sum_range_zero, add_zero] at key
  rw [key]
  congr 2
  funext c
  rw [Finset.sum_range_succ _ n, hget]

theorem ceil_room {X K : Nat} (hK : 0 < K) (h : K ≤ X) : Spec.ceil X K + K ≤ X + 1 := by
  unfold Spec.ceil
  obtain ⟨r, rfl⟩ : ∃ r, X = K + r := ⟨X - K, by omega⟩
  rw [Nat.add_div_left _ hK, Nat.add_mod_left]
  have h1 := Nat.div_add_mod r K
  have h2 : r / K ≤ K * (r / K) := Nat.le_mul_of_pos_left _ hK
  split <;> omega

/-- **C54**, proved part, for the bitmap of the weights of a locally connected layer in two dimensions, new or used: it is made, each
picture has its place and each value is drawn in its own pixel, inside of the bitmap. Missing: the value drawn is the sum `drawn` of
weights that are not those of filter f, see `C54_locally_refuted`. -/
theorem C54_locally_partial {opt : Sgd F} {C X Y K N : Nat} {act : Act} {opts : List (LayerOptModel F)} {d d' : Draws F}
    {l0 l : Layer F} (hN : 0 < N) (hC : 0 < C)
    (hb : buildLayer opt (.locallyConnected (N : Int) (K : Int) act opts) [(C : Int), (X : Int), (Y : Int)] d = .ok (l0, d'))
    (hu : Used (C * X * Y) (ceil X K * ceil Y K * N) l0 l) :
    ∃ img, l.weightsBitmap = .ok (some img) ∧
      Shows img N X Y fun f i j => [drawn l.body.weights (ceil X K) (ceil Y K) K f i j] := by
  unfold buildLayer at hb
  obtain ⟨n, h1, hb⟩ := Res.bind_eq_ok.1 hb
  have hn : n = ((C * X * Y : Nat) : Int) := by rw [computeNumberOfInputs_inv h1]; simp; ring
  rw [hn] at hb
  split at hb
  · cases hb
  split at hb
  · cases hb
  simp only at hb
  obtain ⟨hKX, hKY, hK, ns, info, h⟩ := buildLocally2D_inv hN hb
  have hwf := buildLocally2D_wf hN hb
  obtain ⟨hw, hk⟩ := used_wf hu hwf
  have hin := hw.inputs
  have hbw := hw.body
  rw [h.body] at hk
  cases hbody : l.body with
  | filter k ns' info' =>
    rw [hbody] at hk hbw
    obtain ⟨rfl, hk, rfl⟩ := hk
    have hlc : LcWF _ ns' info' _ _ := hbw
    have hlen : ns'.length = ceil X K * ceil Y K * N := by rw [← hk.length_eq, h.length]
    have hCXY : X * Y ≤ C * X * Y := by
      calc X * Y = 1 * (X * Y) := by ring
        _ ≤ C * (X * Y) := Nat.mul_le_mul_right _ hC
        _ = C * X * Y := by ring
    have hpic : ∀ f < N, _ := fun f hf => picture_eq (ns := ns') (info := info') (C := C) (X := X) (Y := Y) (K := K) (f := f) (ni := C * X * Y) (N := N)
      h.shapeIn h.shapeOut h.kernelSize (ceil_room hK hKX) (ceil_room hK hKY) hCXY hf hlen (by
        intro n hn
        have := (hlc.neurons n hn).wlen
        rw [this, h.ksize, Int.toNat_natCast]
        have : K * K ≤ K * K * C := Nat.le_mul_of_pos_right _ hC
        omega) (ceil_pos hK (by omega)) (ceil_pos hK (by omega))
    obtain ⟨img, hi1, hi2⟩ := weights_image (l := l) (N := N) hN h.shapeIn h.shapeOut hbody (fun f => _) (by rw [hin]; exact hpic) (by intro f hf; simp [tab]; exact hCXY)
      (fun f c => ∑ n ∈ range (ceil X K * ceil Y K), ∑ y ∈ range K, ∑ x ∈ range K,
      if (n / ceil X K + y) * X + (n % ceil X K + x) = c then ((ns'.map Neuron.getWeights).getD (n * (f + 1)) []).getD (y * K + x) 0 else 0)
      (by intro f i h; simp [tab])
    refine ⟨img, hi1, ?_⟩
    have e : ∀ f i j, i < X → (∑ n ∈ range (ceil X K * ceil Y K), ∑ y ∈ range K, ∑ x ∈ range K,
      if (n / ceil X K + y) * X + (n % ceil X K + x) = j * X + i then ((ns'.map Neuron.getWeights).getD (n * (f + 1)) []).getD (y * K + x) 0 else 0) =
      drawn (Body.filter FKind.lc2D ns' info').weights (ceil X K) (ceil Y K) K f i j := by
      intro f i j hi
      unfold drawn
      apply Finset.sum_congr rfl
      intro n hn
      apply Finset.sum_congr rfl
      intro y hy
      apply Finset.sum_congr rfl
      intro x hx
      rw [Finset.mem_range] at hn hx
      have hlt : n % ceil X K + x < X := by
        have := Nat.mod_lt n (ceil_pos (K := K) hK (show 0 < X by omega))
        have := ceil_room hK hKX
        omega
      have hiff : (n / ceil X K + y) * X + (n % ceil X K + x) = j * X + i ↔ n % ceil X K + x = i ∧ n / ceil X K + y = j := by
        constructor
        · intro h
          have h1 : ((n / ceil X K + y) * X + (n % ceil X K + x)) / X = n / ceil X K + y := by
            rw [Nat.mul_comm, Nat.mul_add_div (by omega), Nat.div_eq_of_lt hlt]; rfl
          have h2 : (j * X + i) / X = j := by rw [Nat.mul_comm, Nat.mul_add_div (by omega), Nat.div_eq_of_lt hi]; rfl
          have h3 : n / ceil X K + y = j := by rw [← h1, ← h2, h]
          rw [h3] at h
          exact ⟨by omega, h3⟩
        · rintro ⟨rfl, rfl⟩; rfl
      simp only [hiff]
      rfl
    obtain ⟨a, b, q1, q2, q3, q4, q5, qw, qh, q6, q7, q8, q9, q10⟩ := hi2.grid
    refine ⟨a, b, q1, q2, q3, q4, q5, qw, qh, ?_, q7, q8, q9, ?_⟩
    · intro f hf i hi j hj
      rw [q6 f hf i hi j hj, e f i j hi]
    · intro w hw
      obtain ⟨f, i, j, hf, hi, hj, h⟩ := q10 w hw
      exact ⟨f, i, j, hf, hi, hj, by rw [h, e f i j hi]⟩
  | fullyConnected ns => rw [hbody] at hk; exact hk.elim
  | recurrence ns => rw [hbody] at hk; exact hk.elim
  | gru ns => rw [hbody] at hk; exact hk.elim
  | pool a b c d => rw [hbody] at hk; exact hk.elim

/-- **C54 is false for locally connected layers**: with two filters, kernel 1 and 2 × 2 pixels, the pixel (1, 0) of the picture of
filter 0 is the weight of neuron number 1, which belongs to filter 1 (neuron `p*N + q` is the one of filter q at position p: C38), and
the weight of filter 0 at this position, the one of neuron number 2, is drawn at the pixel of another position. -/
theorem C54_locally_refuted {opt : Sgd F} {act : Act} {opts : List (LayerOptModel F)} {d d' : Draws F} {l0 l : Layer F}
    (hb : buildLayer opt (.locallyConnected 2 1 act opts) [1, 2, 2] d = .ok (l0, d')) (hu : Used 4 8 l0 l) :
    ∃ img v, l.weightsBitmap = .ok (some img) ∧ Shows img 2 2 2 v ∧ v 0 1 0 = [weight l.body.weights 1 0] ∧ v 0 0 1 = [weight l.body.weights 2 0] := by
  have hb2 : buildLayer opt (.locallyConnected ((2 : Nat) : Int) ((1 : Nat) : Int) act opts) [((1 : Nat) : Int), ((2 : Nat) : Int), ((2 : Nat) : Int)] d = .ok (l0, d') := hb
  obtain ⟨img, h1, h2⟩ := C54_locally_partial (by omega) (by omega) hb2 hu
  refine ⟨img, _, h1, h2, ?_, ?_⟩
  · simp [drawn, Spec.ceil, Finset.sum_range_succ, weight]
  · simp [drawn, Spec.ceil, Finset.sum_range_succ, weight]

/-! ### The bitmap of an input -/

/-- **C64**, the bitmap of an input with one or three channels: each pixel shows the values of its channels. -/
theorem C64_input_bitmap {C X Y : Nat} (hC : C = 1 ∨ C = 3) (inputs : List F) (hlen : inputs.length = C * X * Y) :
    ∃ img, inputBitmap inputs [(C : Int), (X : Int), (Y : Int)] = .ok (some img) ∧ img.width = X ∧ img.height = Y ∧
      (∀ i < X, ∀ j < Y, img.at ((i : Int), (j : Int)) = some ((List.range C).map fun c => inputs.getD ((j * X + i) * C + c) 0)) ∧
      ∀ w ∈ img.writes, ∃ i j : Nat, i < X ∧ j < Y ∧ w = (((i : Int), (j : Int)), (List.range C).map fun c => inputs.getD ((j * X + i) * C + c) 0) := by
  have hroom : ∀ i < X, ∀ j < Y, (j * X + i) * C + C ≤ inputs.length := by
    intro i hi j hj
    have h1 : j * X + i + 1 ≤ X * Y := by
      have : (j + 1) * X ≤ Y * X := Nat.mul_le_mul_right _ (by omega)
      have e : (j + 1) * X = j * X + X := by ring
      rw [Nat.mul_comm X Y]; omega
    have := Nat.mul_le_mul_right C h1
    have e1 : (j * X + i + 1) * C = (j * X + i) * C + C := by ring
    have e2 : X * Y * C = C * X * Y := by ring
    omega
  have key := forI_appends (F := F) (fun y s => forI (X : Int) (fun x s =>
      if (C : Int) = 1 then do
        let v ← vecAt inputs s.2
        let img ← s.1.setPixel x y [v]
        return (img, s.2 + 1)
      else do
        let r ← vecAt inputs s.2
        let g ← vecAt inputs (s.2 + 1)
        let b ← vecAt inputs (s.2 + 2)
        let img ← s.1.setPixel x y [r, g, b]
        return (img, s.2 + 3)) s) (X : Int) (Y : Int) Y (fun j => ((j * X * C : Nat) : Int))
      (fun j : Nat => (List.range X).flatMap fun i : Nat => [((((i : Nat) : Int), ((j : Nat) : Int)), (List.range C).map fun c : Nat => inputs.getD ((j * X + i) * C + c) 0)]) (by
    intro j hj
    have inner := forI_appends (F := F) (fun x s =>
      if (C : Int) = 1 then do
        let v ← vecAt inputs s.2
        let img ← s.1.setPixel x ((j : Nat) : Int) [v]
        return (img, s.2 + 1)
      else do
        let r ← vecAt inputs s.2
        let g ← vecAt inputs (s.2 + 1)
        let b ← vecAt inputs (s.2 + 2)
        let img ← s.1.setPixel x ((j : Nat) : Int) [r, g, b]
        return (img, s.2 + 3)) (X : Int) (Y : Int) X (fun i => (((j * X + i) * C : Nat) : Int))
      (fun i : Nat => [((((i : Nat) : Int), ((j : Nat) : Int)), (List.range C).map fun c : Nat => inputs.getD ((j * X + i) * C + c) 0)]) (by
      intro i hi img hw hh
      have hr := hroom i hi j hj
      rcases hC with rfl | rfl
      · simp only [Nat.cast_one, if_true]
        rw [vecAt_ok (k := (j * X + i) * 1) rfl (by omega), Res.ok_bind, setPixel_ok (by rw [hw, hh]; omega), Res.ok_bind]
        have : inputs.getD ((j * X + i) * 1 + 0) 0 = inputs[(j * X + i) * 1]'(by omega) := by
          rw [Nat.add_zero, List.getD_eq_getElem]
        simp only [List.range_one, List.map_cons, List.map_nil, this]
        rw [Res.pure_eq]
        congr 2
      · simp only [show ¬ (((3 : Nat) : Int) = 1) by norm_num, if_false]
        rw [vecAt_ok (k := (j * X + i) * 3) rfl (by omega), Res.ok_bind, vecAt_ok (k := (j * X + i) * 3 + 1) (by push_cast; rfl) (by omega), Res.ok_bind,
          vecAt_ok (k := (j * X + i) * 3 + 2) (by push_cast; rfl) (by omega), Res.ok_bind, setPixel_ok (by rw [hw, hh]; omega), Res.ok_bind]
        have e0 : inputs.getD ((j * X + i) * 3 + 0) 0 = inputs[(j * X + i) * 3]'(by omega) := by
          rw [Nat.add_zero, List.getD_eq_getElem]
        have e1 : inputs.getD ((j * X + i) * 3 + 1) 0 = inputs[(j * X + i) * 3 + 1]'(by omega) := by rw [List.getD_eq_getElem]
        have e2 : inputs.getD ((j * X + i) * 3 + 2) 0 = inputs[(j * X + i) * 3 + 2]'(by omega) := by rw [List.getD_eq_getElem]
        simp only [show List.range 3 = [0, 1, 2] from rfl, List.map_cons, List.map_nil, e0, e1, e2]
        rw [Res.pure_eq]
        congr 2
        push_cast; ring)
    simp only [Nat.add_zero] at inner
    have e : (j + 1) * X * C = (j * X + X) * C := by ring
    rw [e]
    exact inner)
  simp only [Nat.zero_mul] at key
  have hk := key { width := X, height := Y, writes := [] } rfl rfl
  refine ⟨{ width := X, height := Y, writes := ?_ }, ?_, rfl, rfl, ?_, ?_⟩
  · exact [] ++ ((List.range Y).flatMap fun j : Nat => (List.range X).flatMap fun i : Nat =>
      [((((i : Nat) : Int), ((j : Nat) : Int)), (List.range C).map fun c : Nat => inputs.getD ((j * X + i) * C + c) 0)])
  · unfold inputBitmap
    simp only
    exact Res.bind_eq_ok.2 ⟨_, hk, rfl⟩
  · intro i hi j hj
    apply at_some
    · simp only [List.nil_append, List.mem_flatMap, List.mem_range, List.mem_singleton]
      exact ⟨j, hj, i, hi, rfl⟩
    · intro w hw he
      simp only [List.nil_append, List.mem_flatMap, List.mem_range, List.mem_singleton] at hw
      obtain ⟨j', hj', i', hi', rfl⟩ := hw
      simp only [Prod.mk.injEq, Nat.cast_inj] at he
      obtain ⟨rfl, rfl⟩ := he
      rfl
  · intro w hw
    simp only [List.nil_append, List.mem_flatMap, List.mem_range, List.mem_singleton] at hw
    obtain ⟨j, hj, i, hi, h⟩ := hw
    exact ⟨i, j, hi, hj, h⟩

/-- C64, the excluded case of an input with two channels: the code reads three values by pixel, beyond the end of the input. -/
theorem C64_two_channels_refuted {X Y : Nat} (hX : 0 < X) (hY : 0 < Y) (inputs : List F) (hlen : inputs.length = 2 * X * Y) :
    ∃ m, inputBitmap inputs [2, (X : Int), (Y : Int)] = .ub m := by
  have hstep : ∀ (x y : Int) (s s' : Image F × Int), 0 ≤ s.2 → (do
        let r ← vecAt inputs s.2
        let g ← vecAt inputs (s.2 + 1)
        let b ← vecAt inputs (s.2 + 2)
        let img ← s.1.setPixel x y [r, g, b]
        return (img, s.2 + 3) : Res (Image F × Int)) = .ok s' → s'.2 = s.2 + 3 ∧ s'.2 ≤ inputs.length := by
    intro x y s s' h0 h
    obtain ⟨_, _, h⟩ := Res.bind_eq_ok.1 h
    obtain ⟨_, _, h⟩ := Res.bind_eq_ok.1 h
    obtain ⟨b, hb, h⟩ := Res.bind_eq_ok.1 h
    obtain ⟨_, _, h⟩ := Res.bind_eq_ok.1 h
    cases h
    refine ⟨rfl, ?_⟩
    by_contra hc
    obtain ⟨m, hm⟩ := vecAt_ub (v := inputs) (i := s.2 + 2) (by simp only at hc; omega)
    rw [hm] at hb; cases hb
  have hno : ∀ (x y : Int) (s : Image F × Int), NoThrow (do
        let r ← vecAt inputs s.2
        let g ← vecAt inputs (s.2 + 1)
        let b ← vecAt inputs (s.2 + 2)
        let img ← s.1.setPixel x y [r, g, b]
        return (img, s.2 + 3) : Res (Image F × Int)) := by
    intro x y s
    apply (NoThrow.vecAt _ _).bind; intro _ _
    apply (NoThrow.vecAt _ _).bind; intro _ _
    apply (NoThrow.vecAt _ _).bind; intro _ _
    apply (NoThrow.setPixel _ _ _ _).bind; intro _ _
    exact .ok _
  have hnoall : NoThrow (forI (Y : Int) (fun y s => forI (X : Int) (fun x s => (do
        let r ← vecAt inputs s.2
        let g ← vecAt inputs (s.2 + 1)
        let b ← vecAt inputs (s.2 + 2)
        let img ← s.1.setPixel x y [r, g, b]
        return (img, s.2 + 3) : Res (Image F × Int))) s) ({ width := X, height := Y, writes := [] }, (0 : Int))) :=
    NoThrow.forI (fun y s => NoThrow.forI (fun x s => hno x y s) s) _
  unfold inputBitmap
  simp only [show ¬ ((2 : Int) = 1) by norm_num, if_false]
  cases hr : forI (Y : Int) (fun y s => forI (X : Int) (fun x s => (do
        let r ← vecAt inputs s.2
        let g ← vecAt inputs (s.2 + 1)
        let b ← vecAt inputs (s.2 + 2)
        let img ← s.1.setPixel x y [r, g, b]
        return (img, s.2 + 3) : Res (Image F × Int))) s) ({ width := X, height := Y, writes := [] }, (0 : Int)) with
  | throw m => exact (hnoall m hr).elim
  | ub m => exact ⟨m, rfl⟩
  | ok s' =>
    exfalso
    have hI := forI_inv (I := fun k s => s.2 = ((3 * (k * X) : Nat) : Int) ∧ (0 < k → s.2 ≤ (inputs.length : Int))) (by
      intro k hk s s1 hs h1
      have := forI_inv (I := fun i s => s.2 = ((3 * (k * X + i) : Nat) : Int) ∧ (0 < i → s.2 ≤ (inputs.length : Int))) (by
        intro i hi s s1 hs h1
        obtain ⟨a, b⟩ := hstep _ _ s s1 (by rw [hs.1]; positivity) h1
        refine ⟨?_, fun _ => b⟩
        rw [a, hs.1]; push_cast; ring) ⟨by rw [hs.1]; push_cast; ring, fun h => absurd h (by omega)⟩ h1
      refine ⟨?_, fun _ => this.2 hX⟩
      rw [this.1]; push_cast; ring) ⟨by simp, fun h => absurd h (by omega)⟩ hr
    have h2 := hI.2 hY
    rw [hI.1, hlen] at h2
    have h3 : 0 < Y * X := Nat.mul_pos hY hX
    have h4 : 2 * X * Y = 2 * (Y * X) := by ring
    rw [h4] at h2
    omega

end

/-! ### Witnesses -/

/-- A locally connected layer with two filters on 2 × 2 pixels. -/
def lcLayer : Layer ℚ := ((buildLayer Demo.sgd (.locallyConnected 2 1 .identity []) [1, 2, 2] Demo.draws).get (by decide +kernel)).1
/-- A convolution with two filters on 3 × 3 pixels. -/
def convLayer : Layer ℚ := ((buildLayer Demo.sgd (.convolution 2 2 .identity []) [1, 3, 3] Demo.draws).get (by decide +kernel)).1
/-- A max pooling on 3 × 3 pixels. -/
def poolLayer : Layer ℚ := ((buildLayer Demo.sgd (.maxPooling 2) [1, 3, 3] Demo.draws).get (by decide +kernel)).1

/-- The bitmap of the locally connected layer is made, and the wrong weight differs from the right one. -/
example : ∃ img v, lcLayer.weightsBitmap = .ok (some img) ∧ Shows img 2 2 2 v ∧ v 0 1 0 = [weight lcLayer.body.weights 1 0] ∧
    weight lcLayer.body.weights 1 0 ≠ weight lcLayer.body.weights 2 0 := by
  obtain ⟨img, v, a, b, c, _⟩ := C54_locally_refuted (F := ℚ) (opt := Demo.sgd) (act := .identity) (opts := []) (d := Demo.draws) (l0 := lcLayer)
    (Res.eq_get _ (by decide +kernel)) .new
  exact ⟨img, v, a, b, c, by decide +kernel⟩

example : ∃ m, convLayer.weightsBitmap = .ub m :=
  C54_convolution_refuted (F := ℚ) (opt := Demo.sgd) (act := .identity) (opts := []) (d := Demo.draws) (l0 := convLayer) (N := 2) (C := 1) (X := 3) (Y := 3) (K := 2)
    (by norm_num) (by norm_num) (Res.eq_get _ (by decide +kernel)) .new

example : ∃ m, poolLayer.weightsBitmap = .ub m :=
  C54_pool_refuted (F := ℚ) (opt := Demo.sgd) (d := Demo.draws) (C := 1) (X := 3) (Y := 3) (K := 2) (by norm_num) (Res.eq_get _ (by decide +kernel))

/-- The bitmap of the 8 outputs of the convolution: picture 1 shows the outputs 1, 3, 5 and 7. -/
example : ∃ img, convLayer.outputsBitmap [1, 2, 3, 4, 5, 6, 7, 8] = .ok (some img) ∧
    Shows img 2 2 2 fun f i j => [([1, 2, 3, 4, 5, 6, 7, 8] : List ℚ).getD ((j * 2 + i) * 2 + f) (lit 0)] := by
  cases hb : convLayer.body with
  | filter k ns info =>
    have : info.shapeOfOutput = [2, 2, 2] := by
      have h : (match convLayer.body with | .filter _ _ info => info.shapeOfOutput | _ => []) = [2, 2, 2] := by decide +kernel
      rw [hb] at h; exact h
    exact C64_outputs_bitmap (F := ℚ) (N := 2) (X := 2) (Y := 2) (by norm_num) convLayer info this (Or.inl ⟨_, _, hb⟩) _ rfl
  | fullyConnected ns => exact absurd (by decide +kernel : (match convLayer.body with | .filter .. => true | _ => false) = true) (by rw [hb]; simp)
  | recurrence ns => exact absurd (by decide +kernel : (match convLayer.body with | .filter .. => true | _ => false) = true) (by rw [hb]; simp)
  | gru ns => exact absurd (by decide +kernel : (match convLayer.body with | .filter .. => true | _ => false) = true) (by rw [hb]; simp)
  | pool a b c d => exact absurd (by decide +kernel : (match convLayer.body with | .filter .. => true | _ => false) = true) (by rw [hb]; simp)

end Snn.VisualProps
