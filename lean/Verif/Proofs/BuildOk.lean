import Verif.Proofs.BuildWF
import Verif.Spec.ArchSpec

/-! The factory builds every well formed layer. -/

set_option linter.all false

namespace Snn

open Snn.Spec

theorem ceil_le {x k : Nat} (hk : 0 < k) : ceil x k ≤ x := by
  unfold ceil
  have h := Nat.div_add_mod' x k
  have h2 : x / k ≤ x / k * k := Nat.le_mul_of_pos_right _ hk
  by_cases hz : x % k = 0
  · rw [if_pos hz]; omega
  · rw [if_neg hz]; omega

theorem ceil_mul_le {x k : Nat} (hk : 0 < k) : ceil x k * k < x + k := by
  unfold ceil
  have h := Nat.div_add_mod' x k
  by_cases hz : x % k = 0
  · rw [if_pos hz, Nat.add_zero]; omega
  · rw [if_neg hz, Nat.add_mul]; omega

theorem mulI_ok' {a b : Nat} (h : a * b ≤ 2147483647) : mulI (a : Int) (b : Int) = .ok ((a * b : Nat) : Int) := by
  unfold mulI
  have e : (a : Int) * b = ((a * b : Nat) : Int) := by push_cast; rfl
  rw [e]
  exact ckInt_ok (by omega) (by omega)

theorem addI_ok' {a b : Nat} (h : a + b ≤ 2147483647) : addI (a : Int) (b : Int) = .ok ((a + b : Nat) : Int) := by
  unfold addI
  have e : (a : Int) + b = ((a + b : Nat) : Int) := by push_cast; rfl
  rw [e]
  exact ckInt_ok (by omega) (by omega)

theorem Res.ex_bind {α β γ : Type} {x : Res α} {f : α → Res (β × γ)} {a : α} (h : x = .ok a) (h2 : ∃ l d', f a = .ok (l, d')) :
    ∃ l d', (x >>= f) = .ok (l, d') := by
  rw [h]; exact h2

theorem Res.ex1_bind {α β : Type} {x : Res α} {f : α → Res β} {a : α} (h : x = .ok a) (h2 : ∃ l, f a = .ok l) :
    ∃ l, (x >>= f) = .ok l := by
  rw [h]; exact h2

theorem addI_one_ok {a : Nat} (h : a ≤ 1000000) : addI (a : Int) 1 = .ok ((a + 1 : Nat) : Int) :=
  addI_ok' (a := a) (b := 1) (by omega)

theorem divI_ok' {a b : Nat} (ha : a ≤ 2147483647) (hb : 0 < b) : divI (a : Int) (b : Int) = .ok ((a / b : Nat) : Int) := by
  unfold divI
  have e : (a : Int).tdiv (b : Int) = ((a / b : Nat) : Int) := rfl
  rw [if_neg (by omega), e]
  have := Nat.div_le_self a b
  generalize a / b = q at this
  exact ckInt_ok (by omega) (by omega)

theorem modI_ok' {a b : Nat} (ha : a ≤ 2147483647) (hb : 0 < b) : modI (a : Int) (b : Int) = .ok ((a % b : Nat) : Int) := by
  unfold modI
  have e : (a : Int).tmod (b : Int) = ((a % b : Nat) : Int) := rfl
  rw [if_neg (by omega), e]
  have := Nat.mod_le a b
  generalize a % b = q at this
  exact ckInt_ok (by omega) (by omega)

theorem ceilDiv_ok {a b : Nat} (ha : a ≤ 1000000) (hb : 0 < b) : ceilDiv (a : Int) (b : Int) = .ok ((ceil a b : Nat) : Int) := by
  unfold ceilDiv
  rw [modI_ok' (by omega) hb, divI_ok' (by omega) hb]
  simp only [Res.ok_bind]
  have h1 := ceil_le (x := a) hb
  unfold ceil at h1 ⊢
  by_cases hz : a % b = 0
  · rw [if_pos (by exact_mod_cast hz), if_pos hz]
    rw [if_pos hz] at h1
    exact addI_ok' (a := a / b) (b := 0) (by omega)
  · rw [if_neg (by exact_mod_cast hz), if_neg hz]
    rw [if_neg hz] at h1
    exact addI_ok' (a := a / b) (b := 1) (by omega)

/-- `Int` products of shapes. -/
theorem prod_cast (s : List Nat) : (s.map (fun v : Nat => (v : Int))).prod = (s.prod : Int) := by
  induction s with
  | nil => rfl
  | cons a s ih => simp [ih]

theorem one_le_prod : ∀ {s : List Nat}, (∀ v ∈ s, 0 < v) → 1 ≤ s.prod
  | [], _ => by simp
  | a :: s, h => by
    have := one_le_prod (s := s) (fun v hv => h v (by simp [hv]))
    have ha := h a (by simp)
    rw [List.prod_cons]
    exact Nat.mul_le_mul ha this

theorem foldlM_mulI_ok : ∀ (s : List Nat) (a : Nat), (∀ v ∈ s, 0 < v) → a * s.prod ≤ 2147483647 →
    (s.map (fun v : Nat => (v : Int))).foldlM mulI (a : Int) = .ok ((a * s.prod : Nat) : Int)
  | [], a, _, _ => by simp
  | b :: s, a, hp, h => by
    rw [List.prod_cons, ← Nat.mul_assoc] at h
    have h1 := one_le_prod (s := s) (fun v hv => hp v (by simp [hv]))
    have h2 : a * b * 1 ≤ a * b * s.prod := Nat.mul_le_mul_left _ h1
    rw [List.map_cons, List.foldlM_cons, mulI_ok' (by omega)]
    simp only [Res.ok_bind]
    rw [foldlM_mulI_ok s (a * b) (fun v hv => hp v (by simp [hv])) h, List.prod_cons, Nat.mul_assoc]

theorem computeNumberOfInputs_ok {s : List Nat} (h : GoodShape s) :
    computeNumberOfInputs (s.map (fun v : Nat => (v : Int))) = .ok (s.prod : Int) := by
  have := foldlM_mulI_ok s 1 h.pos (by have := h.small; omega)
  simpa [computeNumberOfInputs] using this

theorem conv1D_rows_ok {C X K : Nat} (hKX : K ≤ X) (hin : C * X ≤ 1000000) :
    buildRows ((X - K + 1 : Nat) : Int) ((K * C : Nat) : Int) (conv1DEntries C K) =
      .ok ((List.range (X - K + 1)).map fun k => (conv1DEntries C K k).map keep) := by
  refine buildRows_ok (Int.natCast_nonneg _) (Int.natCast_nonneg _) (fun k _ => by rw [conv1DEntries_length]) ?_
  intro k hk e he
  have h3 := conv1DRow_bound (C := C) (X := X) (K := K) (p := k) (by omega) hKX
  have h4 : keep e ∈ conv1DRow C K k := by rw [← conv1DRow_eq]; exact List.mem_map_of_mem he
  have h5 : e.2 = true := by
    unfold conv1DEntries at he
    simp only [List.mem_flatMap, List.mem_map] at he
    obtain ⟨_, _, _, _, rfl⟩ := he; rfl
  have h6 := h3 _ h4
  unfold keep at h6
  rw [if_pos h5] at h6
  generalize C * X = n at *
  omega

theorem conv2D_rows_ok {C X Y K : Nat} (hKX : K ≤ X) (hKY : K ≤ Y) (hin : C * X * Y ≤ 1000000) :
    buildRows (((X - K + 1) * (Y - K + 1) : Nat) : Int) ((K * K * C : Nat) : Int) (conv2DEntries C X K ((X - K + 1 : Nat) : Int)) =
      .ok ((List.range ((X - K + 1) * (Y - K + 1))).map fun k => (conv2DEntries C X K ((X - K + 1 : Nat) : Int) k).map keep) := by
  refine buildRows_ok (Int.natCast_nonneg _) (Int.natCast_nonneg _) (fun k _ => by rw [conv2DEntries_length]) ?_
  intro k hk e he
  have h3 := conv2DRow_bound (C := C) (X := X) (Y := Y) (K := K) (p := k) (by exact_mod_cast hk) hKX hKY
  have h4 : keep e ∈ conv2DRow C X K (X - K + 1) k := by rw [← conv2DRow_eq]; exact List.mem_map_of_mem he
  have h5 : e.2 = true := by
    unfold conv2DEntries at he
    simp only [List.mem_flatMap, List.mem_map] at he
    obtain ⟨_, _, _, _, _, _, rfl⟩ := he; rfl
  have h6 := h3 _ h4
  unfold keep at h6
  rw [if_pos h5] at h6
  generalize C * X * Y = n at *
  omega

/-- A number below `a * b`. -/
theorem tile_lt {p t K j : Nat} (hp : p < t) (hj : j < K) : p * K + j < t * K := by
  have : (p + 1) * K ≤ t * K := Nat.mul_le_mul_right _ hp
  rw [Nat.add_mul] at this; omega

theorem ceil_mul_le2 {x k : Nat} (hk : 0 < k) (hx : k ≤ x) : ceil x k * k ≤ 2 * x := by
  have := ceil_mul_le (x := x) hk; omega

theorem lc1D_rows_ok {ni C X K : Nat} (hK : 0 < K) (hKX : K ≤ X) (hin : C * X ≤ 1000000) :
    buildRows ((ceil X K : Nat) : Int) ((K * C : Nat) : Int) (lc1DEntries C K ni) =
      .ok ((List.range (ceil X K)).map fun k => (lc1DEntries C K ni k).map keep) := by
  refine buildRows_ok (Int.natCast_nonneg _) (Int.natCast_nonneg _) (fun k _ => by rw [lc1DEntries_length]) ?_
  intro k hk e he
  unfold lc1DEntries at he
  simp only [List.mem_flatMap, List.mem_map, List.mem_range, Int.toNat_natCast] at he
  obtain ⟨j, hj, c, hc, rfl⟩ := he
  have h1 := tile_lt (p := k) (t := ceil X K) (by exact_mod_cast hk) hj
  have h2 := idx_lt h1 hc
  have h3 := Nat.mul_le_mul_right C (ceil_mul_le2 hK hKX)
  have h4 : 2 * X * C = 2 * (C * X) := by ring
  have e : ((k : Int) * K + j) * C + c = (((k * K + j) * C + c : Nat) : Int) := by push_cast; ring
  rw [h4] at h3
  simp only
  rw [e]
  generalize (k * K + j) * C + c = v at *
  generalize C * X = n at *
  constructor
  · omega
  · omega

theorem two_d_bound {p q i j c C X Y K : Nat} (hK : 0 < K) (hKX : K ≤ X) (hKY : K ≤ Y) (hin : C * X * Y ≤ 1000000)
    (hp : p < ceil X K) (hq : q < ceil Y K) (hi : i < K) (hj : j < K) (hc : c < C) :
    (q * K + i) * X * C + (p * K + j) * C + c ≤ 2147483647 := by
  have h1 := tile_lt hp hj
  have h2 := tile_lt hq hi
  have h3 := idx_lt h1 hc
  have h4 := Nat.mul_le_mul_right C (ceil_mul_le2 hK hKX)
  have h5 : (q * K + i) * (X * C) ≤ 2 * Y * (X * C) := Nat.mul_le_mul_right _ (by have := ceil_mul_le2 hK hKY; omega)
  have h6 : C * X * 1 ≤ C * X * Y := Nat.mul_le_mul_left _ (by omega)
  have e1 : 2 * Y * (X * C) = 2 * (C * X * Y) := by ring
  have e2 : 2 * X * C = 2 * (C * X) := by ring
  rw [Nat.mul_assoc]
  rw [e1] at h5
  rw [e2] at h4
  generalize (q * K + i) * (X * C) = a at *
  generalize ceil X K * K * C = t at *
  generalize C * X * Y = n at *
  generalize C * X = m at *
  omega

theorem lc2D_rows_ok {ni C X Y K : Nat} (hK : 0 < K) (hKX : K ≤ X) (hKY : K ≤ Y) (hXY : ceil X K ≤ ceil Y K) (hin : C * X * Y ≤ 1000000) :
    buildRows ((ceil X K * ceil Y K : Nat) : Int) ((K * K * C : Nat) : Int)
        (lc2DEntries C X K ((ceil X K : Nat) : Int) ((ceil Y K : Nat) : Int) ni) =
      .ok ((List.range (ceil X K * ceil Y K)).map fun k => (lc2DEntries C X K ((ceil X K : Nat) : Int) ((ceil Y K : Nat) : Int) ni k).map keep) := by
  refine buildRows_ok (Int.natCast_nonneg _) (Int.natCast_nonneg _) (fun k _ => by rw [lc2DEntries_length]) ?_
  intro k hk e he
  unfold lc2DEntries at he
  simp only [List.mem_flatMap, List.mem_map, List.mem_range, Int.toNat_natCast] at he
  obtain ⟨i, hi, j, hj, c, hc, rfl⟩ := he
  have hk' : k < ceil X K * ceil Y K := by exact_mod_cast hk
  have px := ceil_pos hK (show 0 < X by omega)
  have py := ceil_pos hK (show 0 < Y by omega)
  have hq : k / ceil Y K < ceil Y K := by
    have : k / ceil Y K < ceil X K := by rw [Nat.div_lt_iff_lt_mul py]; exact hk'
    omega
  have h1 := two_d_bound hK hKX hKY hin (Nat.mod_lt k px) hq hi hj hc
  have e1 : (k : Int).tmod ((ceil X K : Nat) : Int) = ((k % ceil X K : Nat) : Int) := rfl
  have e2 : (k : Int).tdiv ((ceil Y K : Nat) : Int) = ((k / ceil Y K : Nat) : Int) := rfl
  simp only [e1, e2]
  have e3 : (((k / ceil Y K : Nat) : Int) * K + i) * X * C + (((k % ceil X K : Nat) : Int) * K + j) * C + c =
    (((k / ceil Y K * K + i) * X * C + (k % ceil X K * K + j) * C + c : Nat) : Int) := by push_cast; ring
  rw [e3]
  generalize (k / ceil Y K * K + i) * X * C + (k % ceil X K * K + j) * C + c = v at *
  constructor
  · omega
  · omega

theorem pool1D_rows_ok {ni X K : Nat} (hK : 0 < K) (hKX : K ≤ X) (hin : X ≤ 1000000) :
    buildRows ((ceil X K : Nat) : Int) (K : Int) (pool1DEntries ((1 : Nat) : Int) K ni) =
      .ok ((List.range (ceil X K)).map fun k => (pool1DEntries ((1 : Nat) : Int) K ni k).map keep) := by
  refine buildRows_ok (Int.natCast_nonneg _) (Int.natCast_nonneg _) (fun k _ => by rw [pool1DEntries_length]) ?_
  intro k hk e he
  unfold pool1DEntries at he
  simp only [List.mem_map, List.mem_range, Int.toNat_natCast] at he
  obtain ⟨j, hj, rfl⟩ := he
  have h1 := tile_lt (p := k) (t := ceil X K) (by exact_mod_cast hk) hj
  have h3 := ceil_mul_le2 hK hKX
  have e1 : (k : Int).tmod ((1 : Nat) : Int) = 0 := by
    show ((k % 1 : Nat) : Int) = 0; rw [Nat.mod_one]; rfl
  have e2 : (k : Int).tdiv ((1 : Nat) : Int) = (k : Int) := by
    show ((k / 1 : Nat) : Int) = k; rw [Nat.div_one]
  simp only [e1, e2]
  have e3 : ((k : Int) * K + j) * ((1 : Nat) : Int) + 0 = ((k * K + j : Nat) : Int) := by push_cast; ring
  rw [e3]
  generalize k * K + j = v at *
  constructor
  · omega
  · omega

theorem pool2D_rows_ok {ni C X Y K : Nat} (hC : 0 < C) (hK : 0 < K) (hKX : K ≤ X) (hKY : K ≤ Y) (hXY : ceil X K ≤ ceil Y K)
    (hin : C * X * Y ≤ 1000000) :
    buildRows ((C * ceil X K * ceil Y K : Nat) : Int) ((K * K : Nat) : Int)
        (pool2DEntries C X K ((ceil X K : Nat) : Int) ((ceil Y K : Nat) : Int) ni) =
      .ok ((List.range (C * ceil X K * ceil Y K)).map fun k => (pool2DEntries C X K ((ceil X K : Nat) : Int) ((ceil Y K : Nat) : Int) ni k).map keep) := by
  refine buildRows_ok (Int.natCast_nonneg _) (Int.natCast_nonneg _) (fun k _ => by rw [pool2DEntries_length]) ?_
  intro k hk e he
  unfold pool2DEntries at he
  simp only [List.mem_flatMap, List.mem_map, List.mem_range, Int.toNat_natCast] at he
  obtain ⟨i, hi, j, hj, rfl⟩ := he
  have hk' : k < C * ceil X K * ceil Y K := by exact_mod_cast hk
  have px := ceil_pos hK (show 0 < X by omega)
  have py := ceil_pos hK (show 0 < Y by omega)
  have hq : k / C / ceil Y K < ceil Y K := by
    have : k / C / ceil Y K < ceil X K := by
      rw [Nat.div_lt_iff_lt_mul py, Nat.div_lt_iff_lt_mul hC]
      calc k < C * ceil X K * ceil Y K := hk'
        _ = ceil X K * ceil Y K * C := by ring
    omega
  have h1 := two_d_bound hK hKX hKY hin (Nat.mod_lt (k / C) px) hq hi hj (Nat.mod_lt k hC)
  have e0 : (k : Int).tmod (C : Int) = ((k % C : Nat) : Int) := rfl
  have e0' : (k : Int).tdiv (C : Int) = ((k / C : Nat) : Int) := rfl
  have e1 : ((k / C : Nat) : Int).tmod ((ceil X K : Nat) : Int) = ((k / C % ceil X K : Nat) : Int) := rfl
  have e2 : ((k / C : Nat) : Int).tdiv ((ceil Y K : Nat) : Int) = ((k / C / ceil Y K : Nat) : Int) := rfl
  simp only [e0, e0', e1, e2]
  have e3 : (((k / C / ceil Y K : Nat) : Int) * K + i) * X * C + (((k / C % ceil X K : Nat) : Int) * K + j) * C + ((k % C : Nat) : Int) =
    (((k / C / ceil Y K * K + i) * X * C + (k / C % ceil X K * K + j) * C + k % C : Nat) : Int) := by push_cast; ring
  rw [e3]
  generalize (k / C / ceil Y K * K + i) * X * C + (k / C % ceil X K * K + j) * C + k % C = v at *
  constructor
  · omega
  · omega

section
variable {F : Type} [Flt F] [FTrans F] [Add F] [Sub F] [Mul F] [Div F] [Neg F]

theorem RecNeuron.make_ok (m : NeuronModel F) (o : Sgd F) (d : Nat → F) (h1 : 0 ≤ m.numberOfInputs)
    (h2 : 0 < m.numberOfWeights) (h3 : 0 ≤ m.batchSize) : ∃ n, RecNeuron.make m o d = .ok n := by
  obtain ⟨n, h⟩ := Neuron.make_ok m o d h1 h2 h3
  exact ⟨_, by simp [RecNeuron.make, h]; rfl⟩

theorem Gru.make_ok (m : NeuronModel F) (o : Sgd F) (d : Nat → F) (h1 : 0 ≤ m.numberOfInputs)
    (h2 : 0 < m.numberOfWeights) (h3 : 0 ≤ m.batchSize) : ∃ n, Gru.make m o d = .ok n := by
  obtain ⟨a, ha⟩ := RecNeuron.make_ok { m with activationFunction := .sigmoid } o d h1 h2 h3
  obtain ⟨b, hb⟩ := RecNeuron.make_ok { m with activationFunction := .sigmoid } o (shiftDraws m.numberOfWeights.toNat d) h1 h2 h3
  obtain ⟨c, hc⟩ := RecNeuron.make_ok { m with activationFunction := .tanh } o
    (shiftDraws (m.numberOfWeights.toNat + m.numberOfWeights.toNat) d) h1 h2 h3
  exact ⟨_, by simp only [Gru.make, ha, hb, hc, Res.ok_bind]; rfl⟩

theorem buildSimple_ok {N : Type} {mk : NeuronModel F → Draws F → Res N} {gates : Nat} {wrap : List N → Body F} {ni extra k : Nat}
    {act : Act} {opts : List (LayerOptModel F)} (d : Draws F)
    (hmk : ∀ (m : NeuronModel F) d, 0 ≤ m.numberOfInputs → 0 < m.numberOfWeights → 0 ≤ m.batchSize → ∃ n, mk m d = .ok n)
    (he : 0 < extra) (h : ni + extra ≤ 1000000) :
    ∃ l d', buildSimple mk gates wrap (ni : Int) (extra : Int) (k : Int) act opts d = .ok (l, d') := by
  unfold buildSimple
  rw [addI_ok' (by omega)]
  simp only [Res.ok_bind]
  obtain ⟨ns, d1, h1⟩ := makeAllNeurons_ok (mk := mk { numberOfInputs := (ni : Int), batchSize := 1, numberOfWeights := ((ni + extra : Nat) : Int), bias := lit 1, activationFunction := act })
    (per := gates * ((ni + extra : Nat) : Int).toNat) (fun d => hmk _ d (Int.natCast_nonneg _) (by show (0:Int) < ((ni + extra : Nat) : Int); exact Int.natCast_pos.2 (by omega)) (by show (0:Int) ≤ 1; decide)) (k := (k : Int)) (Int.natCast_nonneg _) d
  rw [h1]
  exact ⟨_, _, rfl⟩

theorem makeFilterNeurons_ok (opt : Sgd F) (ni b : Nat) (bias : F) (act : Act) (k : Nat) (d : Draws F) :
    ∃ ns d', makeAllNeurons (Neuron.make (F := F) { numberOfInputs := ((ni : Nat) : Int), batchSize := ((b : Nat) : Int), numberOfWeights := ((ni + 1 : Nat) : Int), bias := bias, activationFunction := act } opt)
      ((ni + 1 : Nat) : Int).toNat (k : Int) d = .ok (ns, d') :=
  makeAllNeurons_ok (fun d => Neuron.make_ok _ _ d (Int.natCast_nonneg _)
    (by show (0:Int) < ((ni + 1 : Nat) : Int); exact Int.natCast_pos.2 (Nat.succ_pos _)) (Int.natCast_nonneg _)) (Int.natCast_nonneg _) d

theorem buildConvolution1D_ok {opt : Sgd F} {C X K N : Nat} {act : Act} {opts : List (LayerOptModel F)} (d : Draws F) (ni : Int)
    {shape : List Int} (hs : normalizeShape shape = [(C : Int), (X : Int)]) (hN : 0 < N) (hKX : K ≤ X)
    (hin : C * X ≤ 1000000) (hout : N * (X - K + 1) ≤ 1000000) (hX : X ≤ 1000000) :
    ∃ l d', buildConvolution opt ni shape (N : Int) (K : Int) act opts d = .ok (l, d') := by
  have hKC : K * C ≤ 1000000 := by
    have := Nat.mul_le_mul_right C hKX
    rw [Nat.mul_comm X C] at this; omega
  have e1 : ((X : Int) - ((K : Int) - 1)) = ((X - K + 1 : Nat) : Int) := by omega
  unfold buildConvolution
  rw [hs]
  simp only
  rw [if_neg (by omega), e1]
  refine Res.ex_bind (ckInt_ok (by omega) (by omega)) ?_
  refine Res.ex_bind (mulI_ok' (by omega)) ?_
  refine Res.ex_bind (divI_ok' (by omega) hN) ?_
  rw [Nat.mul_div_cancel_left _ hN]
  refine Res.ex_bind (mulI_ok' (by omega)) ?_
  refine Res.ex_bind (addI_one_ok hKC) ?_
  obtain ⟨ns, d1, h2⟩ := makeFilterNeurons_ok opt (K * C) (X - K + 1) (lit (1/1000)) act N d
  refine Res.ex_bind h2 ?_
  refine Res.ex_bind (conv1D_rows_ok hKX hin) ?_
  exact ⟨_, _, rfl⟩


theorem sq_mul_le {C X Y K n : Nat} (hKX : K ≤ X) (hKY : K ≤ Y) (hin : C * X * Y ≤ n) : K * K * C ≤ n := by
  have h : K * K * C ≤ X * Y * C := Nat.mul_le_mul_right _ (Nat.mul_le_mul hKX hKY)
  have e : X * Y * C = C * X * Y := by ring
  omega

theorem buildConvolution2D_ok {opt : Sgd F} {C X Y K N : Nat} {act : Act} {opts : List (LayerOptModel F)} (d : Draws F) (ni : Int)
    (hN : 0 < N) (hC : 0 < C) (hKX : K ≤ X) (hKY : K ≤ Y)
    (hin : C * X * Y ≤ 1000000) (hout : N * (X - K + 1) * (Y - K + 1) ≤ 1000000) (hX : X ≤ 1000000) (hY : Y ≤ 1000000) :
    ∃ l d', buildConvolution opt ni [(C : Int), (X : Int), (Y : Int)] (N : Int) (K : Int) act opts d = .ok (l, d') := by
  have hKC : K * K * C ≤ 1000000 := sq_mul_le hKX hKY hin
  have hKK : K * K * 1 ≤ K * K * C := Nat.mul_le_mul_left _ hC
  have hNX : N * (X - K + 1) * 1 ≤ N * (X - K + 1) * (Y - K + 1) := Nat.mul_le_mul_left _ (by omega)
  have e1 : ((X : Int) - ((K : Int) - 1)) = ((X - K + 1 : Nat) : Int) := by omega
  have e2 : ((Y : Int) - ((K : Int) - 1)) = ((Y - K + 1 : Nat) : Int) := by omega
  have e3 : N * (X - K + 1) * (Y - K + 1) / N = (X - K + 1) * (Y - K + 1) := by
    rw [Nat.mul_assoc, Nat.mul_div_cancel_left _ hN]
  unfold buildConvolution
  simp only [normalizeShape]
  rw [if_neg (by omega), e1, e2]
  refine Res.ex_bind (ckInt_ok (by omega) (by omega)) ?_
  refine Res.ex_bind (ckInt_ok (by omega) (by omega)) ?_
  refine Res.ex_bind (mulI_ok' (by omega)) ?_
  refine Res.ex_bind (mulI_ok' (by omega)) ?_
  refine Res.ex_bind (divI_ok' (by omega) hN) ?_
  rw [e3]
  refine Res.ex_bind (mulI_ok' (by omega)) ?_
  refine Res.ex_bind (mulI_ok' (by omega)) ?_
  refine Res.ex_bind (addI_one_ok hKC) ?_
  obtain ⟨ns, d1, h2⟩ := makeFilterNeurons_ok opt (K * K * C) ((X - K + 1) * (Y - K + 1)) (lit (1/1000)) act N d
  refine Res.ex_bind h2 ?_
  refine Res.ex_bind (conv2D_rows_ok hKX hKY hin) ?_
  exact ⟨_, _, rfl⟩

theorem buildLocally1D_ok {opt : Sgd F} {C X K N : Nat} {act : Act} {opts : List (LayerOptModel F)} (d : Draws F) (ni : Nat)
    {shape : List Int} (hs : normalizeShape shape = [(C : Int), (X : Int)]) (hN : 0 < N) (hK : 0 < K) (hKX : K ≤ X)
    (hin : C * X ≤ 1000000) (hout : N * ceil X K ≤ 1000000) (hX : X ≤ 1000000) :
    ∃ l d', buildLocallyConnected opt ni shape (N : Int) (K : Int) act opts d = .ok (l, d') := by
  have hKC : K * C ≤ 1000000 := by
    have := Nat.mul_le_mul_right C hKX
    rw [Nat.mul_comm X C] at this; omega
  unfold buildLocallyConnected
  rw [hs]
  simp only
  rw [if_neg (by omega)]
  refine Res.ex_bind (ceilDiv_ok hX hK) ?_
  refine Res.ex_bind (mulI_ok' (by omega)) ?_
  refine Res.ex_bind (divI_ok' (by omega) hN) ?_
  rw [Nat.mul_div_cancel_left _ hN]
  refine Res.ex_bind (mulI_ok' (by omega)) ?_
  refine Res.ex_bind (addI_one_ok hKC) ?_
  obtain ⟨ns, d1, h2⟩ := makeFilterNeurons_ok opt (K * C) 1 (lit (1/1000)) act (N * ceil X K) d
  refine Res.ex_bind h2 ?_
  refine Res.ex_bind (lc1D_rows_ok hK hKX hin) ?_
  exact ⟨_, _, rfl⟩

theorem buildLocally2D_ok {opt : Sgd F} {C X Y K N : Nat} {act : Act} {opts : List (LayerOptModel F)} (d : Draws F) (ni : Nat)
    (hN : 0 < N) (hC : 0 < C) (hK : 0 < K) (hKX : K ≤ X) (hKY : K ≤ Y) (hXY : ceil X K ≤ ceil Y K)
    (hin : C * X * Y ≤ 1000000) (hout : N * ceil X K * ceil Y K ≤ 1000000) (hX : X ≤ 1000000) (hY : Y ≤ 1000000) :
    ∃ l d', buildLocallyConnected opt ni [(C : Int), (X : Int), (Y : Int)] (N : Int) (K : Int) act opts d = .ok (l, d') := by
  have hKC : K * K * C ≤ 1000000 := sq_mul_le hKX hKY hin
  have hKK : K * K * 1 ≤ K * K * C := Nat.mul_le_mul_left _ hC
  have hNX : N * ceil X K * 1 ≤ N * ceil X K * ceil Y K := Nat.mul_le_mul_left _ (ceil_pos hK (by omega))
  have e3 : N * ceil X K * ceil Y K / N = ceil X K * ceil Y K := by
    rw [Nat.mul_assoc, Nat.mul_div_cancel_left _ hN]
  unfold buildLocallyConnected
  simp only [normalizeShape]
  rw [if_neg (by omega)]
  refine Res.ex_bind (ceilDiv_ok hX hK) ?_
  refine Res.ex_bind (ceilDiv_ok hY hK) ?_
  refine Res.ex_bind (mulI_ok' (by omega)) ?_
  refine Res.ex_bind (mulI_ok' (by omega)) ?_
  refine Res.ex_bind (divI_ok' (by omega) hN) ?_
  rw [e3]
  refine Res.ex_bind (mulI_ok' (by omega)) ?_
  refine Res.ex_bind (mulI_ok' (by omega)) ?_
  refine Res.ex_bind (addI_one_ok hKC) ?_
  obtain ⟨ns, d1, h2⟩ := makeFilterNeurons_ok opt (K * K * C) 1 (lit (1/1000)) act (N * ceil X K * ceil Y K) d
  refine Res.ex_bind h2 ?_
  refine Res.ex_bind (lc2D_rows_ok hK hKX hKY hXY hin) ?_
  exact ⟨_, _, rfl⟩

theorem buildPool1D_ok {X K : Nat} (ni : Nat) {shape : List Int} (hs : normalizeShape shape = [((1 : Nat) : Int), (X : Int)])
    (hK : 0 < K) (hKX : K ≤ X) (hX : X ≤ 1000000) : ∃ l : Layer F, buildMaxPooling ni shape (K : Int) = .ok l := by
  unfold buildMaxPooling
  rw [hs]
  simp only
  rw [if_neg (by omega)]
  refine Res.ex1_bind (ceilDiv_ok hX hK) ?_
  rw [if_neg (by omega), if_neg (by simp)]
  refine Res.ex1_bind rfl ?_
  refine Res.ex1_bind (pool1D_rows_ok hK hKX hX) ?_
  exact ⟨_, rfl⟩

theorem buildPool2D_ok {C X Y K : Nat} (ni : Nat) (hC : 0 < C) (hK : 0 < K) (hKX : K ≤ X) (hKY : K ≤ Y)
    (hXY : ceil X K ≤ ceil Y K) (hin : C * X * Y ≤ 1000000) (hX : X ≤ 1000000) (hY : Y ≤ 1000000) :
    ∃ l : Layer F, buildMaxPooling ni [(C : Int), (X : Int), (Y : Int)] (K : Int) = .ok l := by
  have hKC : K * K * C ≤ 1000000 := sq_mul_le hKX hKY hin
  have hKK : K * K * 1 ≤ K * K * C := Nat.mul_le_mul_left _ hC
  have h1 : C * ceil X K ≤ C * X := Nat.mul_le_mul_left _ (ceil_le hK)
  have h2 : C * ceil X K * ceil Y K ≤ C * X * Y := Nat.mul_le_mul h1 (ceil_le hK)
  have h3 : C * ceil X K * 1 ≤ C * ceil X K * ceil Y K := Nat.mul_le_mul_left _ (ceil_pos hK (by omega))
  unfold buildMaxPooling
  simp only [normalizeShape]
  rw [if_neg (by omega)]
  refine Res.ex1_bind (ceilDiv_ok hX hK) ?_
  refine Res.ex1_bind (ceilDiv_ok hY hK) ?_
  refine Res.ex1_bind (mulI_ok' (by omega)) ?_
  refine Res.ex1_bind (mulI_ok' (by omega)) ?_
  refine Res.ex1_bind (mulI_ok' (by omega)) ?_
  rw [if_neg (by omega)]
  refine Res.ex1_bind (pool2D_rows_ok hC hK hKX hKY hXY hin) ?_
  exact ⟨_, rfl⟩

end

end Snn
