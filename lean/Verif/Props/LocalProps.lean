import Verif.Props.FilterProps

/-!
# C76: filters see only their window, and convolutions are the same filter everywhere

For every carrier, hence also for floats: no arithmetic law is used.
-/

set_option linter.all false

namespace Snn.LocalProps

open Snn.Spec
open Snn.LayerProps (normalize1D)

section
variable {F : Type} [Flt F] [FTrans F] [Add F] [Sub F] [Mul F] [Div F] [Neg F]

theorem used_noOpt {ni no : Nat} {l0 l : Layer F} (h : Used ni no l0 l) (h0 : l0.optimizers = []) : l.optimizers = [] := by
  induction h with
  | new => exact h0
  | output h hx ho ih => rw [(Layer.output_same ho).optimizers]; exact ih
  | outputForTraining h hx ho ih =>
    unfold Layer.outputForTraining at ho
    rw [ih] at ho
    obtain ⟨⟨_, b⟩, h1, ho⟩ := Res.bind_eq_ok.1 ho
    simp only [trainingHooks, Res.ok_bind] at ho
    cases ho
    rfl
  | backOutput h he ho ih => rw [(Layer.backOutput_kin ho).2.1]; exact ih
  | train h he ho ih => rw [(Layer.train_kin ho).2.1]; exact ih

theorem blocks {α β : Type} (f : α → List β) {N : Nat} : ∀ (l : List α), (∀ a ∈ l, (f a).length = N) → ∀ (p q : Nat) (hp : p < l.length), q < N →
    (l.flatMap f)[p * N + q]? = (f l[p])[q]?
  | [], _, p, q, hp, _ => by simp at hp
  | a :: l, h, 0, q, hp, hq => by
    have := h a (by simp)
    simp only [List.flatMap_cons, Nat.zero_mul, Nat.zero_add, List.getElem_cons_zero]
    rw [List.getElem?_append_left (by omega)]
  | a :: l, h, p + 1, q, hp, hq => by
    have e := h a (by simp)
    have e2 : (p + 1) * N = p * N + N := by ring
    simp only [List.flatMap_cons, List.getElem_cons_succ]
    rw [List.getElem?_append_right (by rw [e, e2]; omega), ← blocks f l (fun b hb => h b (by simp [hb])) p q (by simpa using hp) hq]
    congr 1
    rw [e, e2]; omega

/-- What a convolution computes, for every carrier: filter q applied to the window of tile p. -/
theorem conv_values {l0 l : Layer F} {kind : FKind} {opt : Sgd F} {ni : Nat} {rows : List (List Int)} {size N b K : Nat}
    {act : Act} {si so : List Int} {ns0 : List (Neuron F)} {info : FilterInfo}
    (h : FilterBuilt l0 kind opt (ni : Int) rows size N N b K act si so [] ns0 info) (hkind : kind = .conv1D ∨ kind = .conv2D)
    (hwf : l0.WF ni (rows.length * N)) (hu : Used ni (rows.length * N) l0 l) :
    ∃ v : Nat → List F → F, ∀ (x : List F), x.length = ni → ∀ t y l1, l.output x t = .ok (y, l1) →
      y.length = rows.length * N ∧ ∀ p (hp : p < rows.length), ∀ q < N, y[p * N + q]? = some (v q (pick x rows[p])) := by
  obtain ⟨⟨_, hw, _⟩, hk⟩ := used_wf hu hwf
  rw [h.body] at hk
  cases hbody : l.body with
  | filter k ns info' =>
    rw [hbody] at hk hw
    simp only [Body.Kin] at hk
    obtain ⟨rfl, hk, rfl⟩ := hk
    have hcw : ConvWF ns info' ni (rows.length * N) := by rcases hkind with rfl | rfl <;> exact hw
    have hlen : ns.length = N := by rw [← hk.length_eq]; exact h.length
    have hopt : l.optimizers = [] := by
      obtain ⟨d, ho⟩ := h.optimizers
      exact used_noOpt hu (by rw [ho]; rfl)
    refine ⟨fun q w => (ns.map fun n => n.value w).getD q (lit 0), ?_⟩
    intro x hx t y l1 hy
    obtain ⟨ns', a, b, c⟩ := convOutputs_ok x (rows := info'.kernelIndexes) (ns := ns) (by rw [hx]; exact hcw.rows) hcw.neurons
    have hl : (info'.kernelIndexes.flatMap fun row => ns.map fun n => n.value (pick x row)).length = rows.length * N := by
      rw [hcw.out, List.length_flatMap]; simp
    have hf : fillOutputs info'.numberOfKernels (info'.kernelIndexes.flatMap fun row => ns.map fun n => n.value (pick x row)) = .ok _ :=
      fillOutputs_ok (by rw [hcw.kernels, hl])
    have hc : l.body.computeOutput x t = .ok ((info'.kernelIndexes.flatMap fun row => ns.map fun n => n.value (pick x row)), .filter k ns' info') := by
      rw [hbody]
      rcases hkind with rfl | rfl <;> (simp only [Body.computeOutput, a, Res.ok_bind, hf]; rfl)
    have e : l.output x t = .ok ((info'.kernelIndexes.flatMap fun row => ns.map fun n => n.value (pick x row)), { l with body := .filter k ns' info' }) := by
      simp only [Layer.output, hc, Res.ok_bind, hopt, testingHooks]
      rfl
    rw [e] at hy
    have hy1 := congrArg Prod.fst (Res.ok.inj hy)
    simp only at hy1
    rw [← hy1]
    refine ⟨hl, ?_⟩
    intro p hp q hq
    have := blocks (fun row => ns.map fun n => n.value (pick x row)) info'.kernelIndexes (fun a _ => by simp [hlen]) p q (by rw [h.kidx]; exact hp) hq
    rw [this]
    simp only [h.kidx]
    simp [hlen, hq]
  | recurrence ns => rw [hbody] at hk; exact hk.elim
  | gru ns => rw [hbody] at hk; exact hk.elim
  | fullyConnected ns => rw [hbody] at hk; exact hk.elim
  | pool a b c d => rw [hbody] at hk; exact hk.elim

/-- What a locally connected layer computes, for every carrier: the neuron of tile p and filter q applied to the window of tile p. -/
theorem lc_values {l0 l : Layer F} {kind : FKind} {opt : Sgd F} {ni : Nat} {rows : List (List Int)} {size N nn K : Nat}
    {act : Act} {si so : List Int} {ns0 : List (Neuron F)} {info : FilterInfo}
    (h : FilterBuilt l0 kind opt (ni : Int) rows size N nn 1 K act si so [] ns0 info) (hkind : kind = .lc1D ∨ kind = .lc2D) (hN : 0 < N)
    (hwf : l0.WF ni (rows.length * N)) (hu : Used ni (rows.length * N) l0 l) :
    ∃ v : Nat → List F → F, ∀ (x : List F), x.length = ni → ∀ t y l1, l.output x t = .ok (y, l1) →
      y.length = rows.length * N ∧ ∀ p (hp : p < rows.length), ∀ q < N, y[p * N + q]? = some (v (p * N + q) (pick x rows[p])) := by
  obtain ⟨⟨_, hw, _⟩, hk⟩ := used_wf hu hwf
  rw [h.body] at hk
  cases hbody : l.body with
  | filter k ns info' =>
    rw [hbody] at hk hw
    simp only [Body.Kin] at hk
    obtain ⟨rfl, hk, rfl⟩ := hk
    have hcw : LcWF k ns info' ni (rows.length * N) := by rcases hkind with rfl | rfl <;> exact hw
    have hopt : l.optimizers = [] := by
      obtain ⟨d, ho⟩ := h.optimizers
      exact used_noOpt hu (by rw [ho]; rfl)
    refine ⟨fun q w => (ns.map fun n => n.value w).getD q (lit 0), ?_⟩
    intro x hx t y l1' hy
    obtain ⟨os, ns', a, l1, l2, b, c⟩ := lcOutputs_ok x (rows := info'.kernelIndexes) (ns := ns) (by rw [hx]; exact hcw.rows)
      hcw.neurons hcw.count
    have hfil : info'.numberOfFilters.toNat = N := by rw [h.filters]; simp
    have hlen : os.length = rows.length * N := by rw [l1, ← hcw.out]
    have hf : fillOutputs info'.numberOfKernels os = .ok _ := fillOutputs_ok (by rw [hcw.kernels, hlen])
    have hc : l.body.computeOutput x t = .ok (os, .filter k ns' info') := by
      rw [hbody]
      rcases hkind with rfl | rfl <;> (simp only [Body.computeOutput, a, Res.ok_bind, hf]; rfl)
    have e : l.output x t = .ok (os, { l with body := .filter k ns' info' }) := by
      simp only [Layer.output, hc, Res.ok_bind, hopt, testingHooks]
      rfl
    rw [e] at hy
    have hy1 := congrArg Prod.fst (Res.ok.inj hy)
    simp only at hy1
    rw [← hy1]
    refine ⟨hlen, ?_⟩
    intro p hp q hq
    have hi : p * N + q < ns.length := by
      rw [← hcw.out]; exact idx_lt hp hq
    have hrow : info'.kernelIndexes[p]? = some (rows[p]) := by rw [h.kidx]; exact List.getElem?_eq_getElem hp
    have hval := l2 p _ hrow q (by rw [hfil]; exact hq) (ns[p * N + q]) (by rw [hfil]; exact List.getElem?_eq_getElem hi)
    rw [hfil] at hval
    rw [hval]
    simp [hi]
  | recurrence ns => rw [hbody] at hk; exact hk.elim
  | gru ns => rw [hbody] at hk; exact hk.elim
  | fullyConnected ns => rw [hbody] at hk; exact hk.elim
  | pool a b c d => rw [hbody] at hk; exact hk.elim

theorem pick_same {x x' : List F} {n m : Nat} (f g : Nat → Nat → Nat) (h : ∀ j < n, ∀ c < m, x[f j c]? = x'[g j c]?) :
    pick x ((List.range n).flatMap fun j => (List.range m).map fun c => ((f j c : Nat) : Int)) =
    pick x' ((List.range n).flatMap fun j => (List.range m).map fun c => ((g j c : Nat) : Int)) := by
  unfold pick
  rw [List.map_flatMap, List.map_flatMap]
  apply List.flatMap_congr
  intro j hj
  rw [List.map_map, List.map_map]
  apply List.map_congr_left
  intro c hc
  have := h j (List.mem_range.1 hj) c (List.mem_range.1 hc)
  simp [List.getD_eq_getElem?_getD, this]

/-- **C76**, convolution in one dimension: if the window at position p of an input equals the window at position p' of another input
(or of the same), every filter gives the same output at p and at p'. In particular the outputs at p depend on the window only
(take p = p'), and a shifted input gives shifted outputs. -/
theorem C76_convolution1D {opt : Sgd F} {C X K N : Nat} {act : Act} {d d' : Draws F}
    {shape : List Int} {l0 l : Layer F} (hs : Shape1D shape C X) (hN : 0 < N)
    (hb : buildLayer opt (.convolution (N : Int) (K : Int) act []) shape d = .ok (l0, d'))
    (hu : Used (C * X) ((X - K + 1) * N) l0 l)
    (x x' y y' : List F) (hx : x.length = C * X) (hx' : x'.length = C * X) (t t' : Bool) (l1 l2 : Layer F)
    (ho : l.output x t = .ok (y, l1)) (ho' : l.output x' t' = .ok (y', l2))
    (p p' : Nat) (hp : p < X - K + 1) (hp' : p' < X - K + 1)
    (hwin : ∀ j < K, ∀ c < C, x[(p + j) * C + c]? = x'[(p' + j) * C + c]?) (q : Nat) (hq : q < N) :
    ∃ v, y[p * N + q]? = some v ∧ y'[p' * N + q]? = some v := by
  obtain ⟨hs1, hs2⟩ := normalize1D hs
  unfold buildLayer at hb
  obtain ⟨n, h1, hb⟩ := Res.bind_eq_ok.1 hb
  rw [computeNumberOfInputs_inv h1, hs2] at hb
  split at hb
  · cases hb
  split at hb
  · cases hb
  simp only at hb
  obtain ⟨hKX, ns, info, h⟩ := buildConvolution1D_inv hs1 hN hb
  have hwf := buildConvolution1D_wf hs1 hN hb
  have e : ((List.range (X - K + 1)).map (conv1DRow C K)).length = X - K + 1 := by simp
  obtain ⟨v, hv⟩ := conv_values h (Or.inl rfl) (by rw [e]; exact hwf) (by rw [e]; exact hu)
  have a1 := (hv x hx t y l1 ho).2 p (by rw [e]; exact hp) q hq
  have a2 := (hv x' hx' t' y' l2 ho').2 p' (by rw [e]; exact hp') q hq
  refine ⟨_, a1, ?_⟩
  rw [a2]
  congr 2
  simp only [List.getElem_map, List.getElem_range]
  unfold conv1DRow
  exact (pick_same _ _ hwin).symm

/-- **C76**, convolution in two dimensions: the same for the windows at (px, py) and (px', py'). -/
theorem C76_convolution2D {opt : Sgd F} {C X Y K N : Nat} {act : Act} {d d' : Draws F} {l0 l : Layer F} (hN : 0 < N)
    (hb : buildLayer opt (.convolution (N : Int) (K : Int) act []) [(C : Int), (X : Int), (Y : Int)] d = .ok (l0, d'))
    (hu : Used (C * X * Y) ((X - K + 1) * (Y - K + 1) * N) l0 l)
    (x x' y y' : List F) (hx : x.length = C * X * Y) (hx' : x'.length = C * X * Y) (t t' : Bool) (l1 l2 : Layer F)
    (ho : l.output x t = .ok (y, l1)) (ho' : l.output x' t' = .ok (y', l2))
    (px py px' py' : Nat) (hp : px < X - K + 1 ∧ py < Y - K + 1) (hp' : px' < X - K + 1 ∧ py' < Y - K + 1)
    (hwin : ∀ i < K, ∀ j < K, ∀ c < C, x[((py + i) * X + (px + j)) * C + c]? = x'[((py' + i) * X + (px' + j)) * C + c]?)
    (q : Nat) (hq : q < N) :
    ∃ v, y[(py * (X - K + 1) + px) * N + q]? = some v ∧ y'[(py' * (X - K + 1) + px') * N + q]? = some v := by
  unfold buildLayer at hb
  obtain ⟨n, h1, hb⟩ := Res.bind_eq_ok.1 hb
  have hn : n = ((C * X * Y : Nat) : Int) := by rw [computeNumberOfInputs_inv h1]; simp; ring
  rw [hn] at hb
  split at hb
  · cases hb
  split at hb
  · cases hb
  simp only at hb
  obtain ⟨hKX, hKY, ns, info, h⟩ := buildConvolution2D_inv hN hb
  have hwf := buildConvolution2D_wf hN hb
  have e : ((List.range ((X - K + 1) * (Y - K + 1))).map (conv2DRow C X K (X - K + 1))).length = (X - K + 1) * (Y - K + 1) := by simp
  obtain ⟨v, hv⟩ := conv_values h (Or.inr rfl) (by rw [e]; exact hwf) (by rw [e]; exact hu)
  have b1 : py * (X - K + 1) + px < (X - K + 1) * (Y - K + 1) := by rw [Nat.mul_comm (X - K + 1)]; exact idx_lt hp.2 hp.1
  have b2 : py' * (X - K + 1) + px' < (X - K + 1) * (Y - K + 1) := by rw [Nat.mul_comm (X - K + 1)]; exact idx_lt hp'.2 hp'.1
  have a1 := (hv x hx t y l1 ho).2 _ (by rw [e]; exact b1) q hq
  have a2 := (hv x' hx' t' y' l2 ho').2 _ (by rw [e]; exact b2) q hq
  refine ⟨_, a1, ?_⟩
  rw [a2]
  congr 2
  simp only [List.getElem_map, List.getElem_range]
  unfold conv2DRow
  rw [mulAdd_div hp.1, mulAdd_mod hp.1, mulAdd_div hp'.1, mulAdd_mod hp'.1]
  unfold pick
  rw [List.map_flatMap, List.map_flatMap]
  apply List.flatMap_congr
  intro i hi
  exact (pick_same _ _ (hwin i (List.mem_range.1 hi))).symm

/-- **C76**, locally connected layer in one dimension: the outputs of tile p depend only on the inputs of tile p. -/
theorem C76_locally1D {opt : Sgd F} {C X K N : Nat} {act : Act} {d d' : Draws F}
    {shape : List Int} {l0 l : Layer F} (hs : Shape1D shape C X) (hN : 0 < N)
    (hb : buildLayer opt (.locallyConnected (N : Int) (K : Int) act []) shape d = .ok (l0, d'))
    (hu : Used (C * X) (ceil X K * N) l0 l)
    (x x' y y' : List F) (hx : x.length = C * X) (hx' : x'.length = C * X) (t t' : Bool) (l1 l2 : Layer F)
    (ho : l.output x t = .ok (y, l1)) (ho' : l.output x' t' = .ok (y', l2)) (p : Nat) (hp : p < ceil X K)
    (hwin : ∀ j < K, p * K + j < X → ∀ c < C, x[(p * K + j) * C + c]? = x'[(p * K + j) * C + c]?) (q : Nat) (hq : q < N) :
    ∃ v, y[p * N + q]? = some v ∧ y'[p * N + q]? = some v := by
  obtain ⟨hs1, hs2⟩ := normalize1D hs
  unfold buildLayer at hb
  obtain ⟨n, h1, hb⟩ := Res.bind_eq_ok.1 hb
  rw [computeNumberOfInputs_inv h1, hs2] at hb
  split at hb
  · cases hb
  split at hb
  · cases hb
  simp only at hb
  obtain ⟨hKX, hK, ns, info, h⟩ := buildLocally1D_inv hs1 hN hb
  have hwf := buildLocally1D_wf hs1 hN hb
  have e : ((List.range (ceil X K)).map (lc1DRow C K (C * X))).length = ceil X K := by simp
  obtain ⟨v, hv⟩ := lc_values h (Or.inl rfl) hN (by rw [e]; exact hwf) (by rw [e]; exact hu)
  have a1 := (hv x hx t y l1 ho).2 p (by rw [e]; exact hp) q hq
  have a2 := (hv x' hx' t' y' l2 ho').2 p (by rw [e]; exact hp) q hq
  refine ⟨_, a1, ?_⟩
  rw [a2]
  congr 2
  simp only [List.getElem_map, List.getElem_range]
  unfold lc1DRow pick
  rw [List.map_flatMap, List.map_flatMap]
  apply List.flatMap_congr
  intro j hj
  rw [List.map_map, List.map_map]
  apply List.map_congr_left
  intro c hc
  by_cases hlt : p * K + j < X
  · have := hwin j (List.mem_range.1 hj) hlt c (List.mem_range.1 hc)
    simp only [Function.comp]
    split
    · simp only [Int.toNat_natCast, List.getD_eq_getElem?_getD, this]
    · rfl
  · have : ¬ (p * K + j) * C + c < C * X := by
      rw [Nat.mul_comm C X]
      intro hh
      have : X * C ≤ (p * K + j) * C := Nat.mul_le_mul_right C (by omega)
      omega
    simp [this]

end

/-! ### The hypotheses are met -/

open Snn.LayerProps (built built_eq passed passed_used)

/-- A convolution after a training pass. -/
def trained : Layer ℚ :=
  Res.get (passed (built (.convolution 2 2 .relu []) [4] (by decide +kernel)) [1, 2, 3, 4] [1/2, -1, 1, 1, 0, 2]) (by decide +kernel)

theorem trained_used : Used 4 6 (built (.convolution 2 2 .relu []) [4] (by decide +kernel)) trained :=
  passed_used (no := 6) .new (show _ = 4 from rfl) rfl (Res.eq_get _ (by decide +kernel))

/-- The same window at position 0 of an input and at position 1 of another. -/
example : ∃ y l1 y' l2, trained.output [7, 3, 1, 1] true = .ok (y, l1) ∧ trained.output [2, 7, 3, 5] false = .ok (y', l2) ∧
      ∃ v, y[0 * 2 + 1]? = some v ∧ y'[1 * 2 + 1]? = some v := by
  obtain ⟨d', hb⟩ := built_eq (.convolution 2 2 .relu []) [4] (by decide +kernel)
  have h1 := Res.eq_get (trained.output [7, 3, 1, 1] true) (by decide +kernel)
  have h2 := Res.eq_get (trained.output [2, 7, 3, 5] false) (by decide +kernel)
  refine ⟨_, _, _, _, h1, h2, ?_⟩
  exact C76_convolution1D (C := 1) (X := 4) (K := 2) (N := 2) (.positions 4) (by norm_num) hb trained_used _ _ _ _ rfl rfl _ _ _ _ h1 h2 0 1 (by norm_num) (by norm_num)
    (by decide +kernel) 1 (by norm_num)

end Snn.LocalProps
