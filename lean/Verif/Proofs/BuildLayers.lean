import Verif.Proofs.BuildProofs
import Verif.Spec.LayerSpec
import Mathlib.Tactic.Ring
import Mathlib.Tactic.Linarith

/-! The layers built from positive parameters: their explicit structure. -/

set_option linter.all false

namespace Snn

theorem foldlM_mulI_inv : ∀ {l : List Int} {a n : Int}, l.foldlM mulI a = .ok n → n = a * l.prod
  | [], a, n, h => by cases h; simp
  | b :: l, a, n, h => by
    rw [List.foldlM_cons] at h
    obtain ⟨c, h1, h⟩ := Res.bind_eq_ok.1 h
    rw [foldlM_mulI_inv h, (mulI_inv h1).1, List.prod_cons]; ring

theorem computeNumberOfInputs_inv {shape : List Int} {n : Int} (h : computeNumberOfInputs shape = .ok n) : n = shape.prod := by
  rw [foldlM_mulI_inv h]; simp

theorem idx_lt {a c C X : Nat} (ha : a < X) (hc : c < C) : a * C + c < X * C := by
  have : (a + 1) * C ≤ X * C := Nat.mul_le_mul_right C ha
  rw [Nat.add_mul] at this
  omega

/-- The row of position `p` of a convolution in one dimension. -/
def conv1DRow (C K p : Nat) : List Int :=
  (List.range K).flatMap fun j => (List.range C).map fun c => (((p + j) * C + c : Nat) : Int)

theorem conv1DRow_eq (C K p : Nat) : (conv1DEntries (C : Int) (K : Int) p).map keep = conv1DRow C K p := by
  unfold conv1DEntries conv1DRow
  rw [List.map_flatMap]
  simp only [Int.toNat_natCast, List.map_map]
  congr 1

theorem conv1DRow_length (C K p : Nat) : (conv1DRow C K p).length = K * C := by
  unfold conv1DRow
  exact range_mul_flatMap_length _ _ _ (by simp)

theorem conv1DEntries_length (C K p : Nat) : (conv1DEntries (C : Int) (K : Int) p).length = K * C := by
  have := congrArg List.length (conv1DRow_eq C K p)
  rw [List.length_map] at this
  rw [this, conv1DRow_length]

theorem conv1DRow_bound {C X K p : Nat} (hp : p < X - K + 1) (hK : K ≤ X) : ∀ i ∈ conv1DRow C K p, 0 ≤ i ∧ i < ((C * X : Nat) : Int) := by
  intro i hi
  unfold conv1DRow at hi
  simp only [List.mem_flatMap, List.mem_map, List.mem_range] at hi
  obtain ⟨j, hj, c, hc, rfl⟩ := hi
  have := idx_lt (a := p + j) (c := c) (C := C) (X := X) (by omega) hc
  rw [Nat.mul_comm C X]
  omega

/-- The row of the pixel `p` of a convolution in two dimensions. -/
def conv2DRow (C X K outX p : Nat) : List Int :=
  (List.range K).flatMap fun i => (List.range K).flatMap fun j => (List.range C).map fun c =>
    ((((p / outX + i) * X + (p % outX + j)) * C + c : Nat) : Int)

theorem conv2DRow_eq (C X K outX p : Nat) :
    (conv2DEntries (C : Int) (X : Int) (K : Int) (outX : Int) p).map keep = conv2DRow C X K outX p := by
  unfold conv2DEntries conv2DRow
  simp only [List.map_flatMap, Int.toNat_natCast, List.map_map]
  congr 1; funext i
  congr 1; funext j
  apply List.map_congr_left
  intro c _
  have e1 : (p : Int).tmod (outX : Int) = ((p % outX : Nat) : Int) := rfl
  have e2 : (p : Int).tdiv (outX : Int) = ((p / outX : Nat) : Int) := rfl
  simp only [Function.comp, keep, if_true, e1, e2]
  push_cast; ring

theorem conv2DRow_length (C X K outX p : Nat) : (conv2DRow C X K outX p).length = K * K * C := by
  unfold conv2DRow
  rw [range_mul_flatMap_length K _ (K * C) (fun i _ => range_mul_flatMap_length K _ C (by simp)), Nat.mul_assoc]

theorem conv2DEntries_length (C X K outX p : Nat) : (conv2DEntries (C : Int) (X : Int) (K : Int) (outX : Int) p).length = K * K * C := by
  have := congrArg List.length (conv2DRow_eq C X K outX p)
  rw [List.length_map] at this
  rw [this, conv2DRow_length]

theorem conv2DRow_bound {C X Y K p : Nat} (hp : p < (X - K + 1) * (Y - K + 1)) (hX : K ≤ X) (hY : K ≤ Y) :
    ∀ i ∈ conv2DRow C X K (X - K + 1) p, 0 ≤ i ∧ i < ((C * X * Y : Nat) : Int) := by
  intro i hi
  unfold conv2DRow at hi
  simp only [List.mem_flatMap, List.mem_map, List.mem_range] at hi
  obtain ⟨i, hi, j, hj, c, hc, rfl⟩ := hi
  have h1 : p / (X - K + 1) < Y - K + 1 := by
    rw [Nat.div_lt_iff_lt_mul (by omega), Nat.mul_comm]; exact hp
  have h2 : p % (X - K + 1) < X - K + 1 := Nat.mod_lt _ (by omega)
  have h3 := idx_lt (a := p / (X - K + 1) + i) (c := p % (X - K + 1) + j) (C := X) (X := Y) (by omega) (by omega)
  have h4 := idx_lt (c := c) (C := C) h3 hc
  have e : C * X * Y = Y * X * C := by ring
  rw [e]
  omega

/-! ### Tiles -/

theorem ceilDiv_inv {a b : Nat} {r : Int} (h : ceilDiv (a : Int) (b : Int) = .ok r) : 0 < b ∧ r = ((Spec.ceil a b : Nat) : Int) := by
  unfold ceilDiv at h
  obtain ⟨m, h1, h⟩ := Res.bind_eq_ok.1 h
  obtain ⟨q, h2, h⟩ := Res.bind_eq_ok.1 h
  obtain ⟨hb, e1⟩ := modI_inv h1
  obtain ⟨_, e2⟩ := divI_inv h2
  have e3 : m = ((a % b : Nat) : Int) := e1
  have e4 : q = ((a / b : Nat) : Int) := e2
  refine ⟨by omega, ?_⟩
  rw [(addI_inv h).1, e3, e4]
  unfold Spec.ceil
  by_cases hz : a % b = 0
  · simp [hz]
  · rw [if_neg (by exact_mod_cast hz), if_neg hz]; push_cast; rfl

/-- Row `p` of a locally connected layer of one dimension with `ni` inputs. -/
def lc1DRow (C K ni p : Nat) : List Int :=
  (List.range K).flatMap fun j => (List.range C).map fun c =>
    if (p * K + j) * C + c < ni then (((p * K + j) * C + c : Nat) : Int) else -1

theorem lc1DRow_eq (C K ni p : Nat) : (lc1DEntries (C : Int) (K : Int) (ni : Int) p).map keep = lc1DRow C K ni p := by
  unfold lc1DEntries lc1DRow
  simp only [List.map_flatMap, Int.toNat_natCast, List.map_map]
  congr 1; funext j
  apply List.map_congr_left
  intro c _
  simp only [Function.comp, keep, decide_eq_true_eq]
  push_cast
  by_cases h : ((p : Int) * K + j) * C + c < ni
  · rw [if_pos h, if_pos (by exact_mod_cast h)]
  · rw [if_neg h, if_neg (by intro hc; exact h (by exact_mod_cast hc))]

theorem lc1DRow_length (C K ni p : Nat) : (lc1DRow C K ni p).length = K * C := by
  unfold lc1DRow
  exact range_mul_flatMap_length _ _ _ (by simp)

theorem lc1DEntries_length (C K ni p : Nat) : (lc1DEntries (C : Int) (K : Int) (ni : Int) p).length = K * C := by
  have := congrArg List.length (lc1DRow_eq C K ni p)
  rw [List.length_map] at this
  rw [this, lc1DRow_length]

theorem lc1DRow_bound {C K ni p : Nat} : ∀ i ∈ lc1DRow C K ni p, i < (ni : Int) := by
  intro i hi
  unfold lc1DRow at hi
  simp only [List.mem_flatMap, List.mem_map, List.mem_range] at hi
  obtain ⟨j, hj, c, hc, rfl⟩ := hi
  split
  · rename_i h; exact_mod_cast h
  · omega

/-- Row `p` of a locally connected layer of two dimensions: `outX`, `outY` are the numbers of tiles. -/
def lc2DRow (C X K outX outY ni p : Nat) : List Int :=
  (List.range K).flatMap fun i => (List.range K).flatMap fun j => (List.range C).map fun c =>
    if (p % outX * K + j) * C + c < X * C ∧ (p / outY * K + i) * X * C + (p % outX * K + j) * C + c < ni then
      (((p / outY * K + i) * X * C + (p % outX * K + j) * C + c : Nat) : Int) else -1

theorem lc2DRow_eq (C X K outX outY ni p : Nat) :
    (lc2DEntries (C : Int) (X : Int) (K : Int) (outX : Int) (outY : Int) (ni : Int) p).map keep = lc2DRow C X K outX outY ni p := by
  unfold lc2DEntries lc2DRow
  simp only [List.map_flatMap, Int.toNat_natCast, List.map_map]
  congr 1; funext i
  congr 1; funext j
  apply List.map_congr_left
  intro c _
  have e1 : (p : Int).tmod (outX : Int) = ((p % outX : Nat) : Int) := rfl
  have e2 : (p : Int).tdiv (outY : Int) = ((p / outY : Nat) : Int) := rfl
  simp only [Function.comp, keep, decide_eq_true_eq, e1, e2]
  by_cases h : (p % outX * K + j) * C + c < X * C ∧ (p / outY * K + i) * X * C + (p % outX * K + j) * C + c < ni
  · rw [if_pos h, if_pos (by exact_mod_cast h)]; push_cast; rfl
  · rw [if_neg h, if_neg (by intro hc; exact h (by exact_mod_cast hc))]

theorem lc2DRow_length (C X K outX outY ni p : Nat) : (lc2DRow C X K outX outY ni p).length = K * K * C := by
  unfold lc2DRow
  rw [range_mul_flatMap_length K _ (K * C) (fun i _ => range_mul_flatMap_length K _ C (by simp)), Nat.mul_assoc]

theorem lc2DEntries_length (C X K outX outY ni p : Nat) :
    (lc2DEntries (C : Int) (X : Int) (K : Int) (outX : Int) (outY : Int) (ni : Int) p).length = K * K * C := by
  have := congrArg List.length (lc2DRow_eq C X K outX outY ni p)
  rw [List.length_map] at this
  rw [this, lc2DRow_length]

theorem lc2DRow_bound {C X K outX outY ni p : Nat} : ∀ i ∈ lc2DRow C X K outX outY ni p, i < (ni : Int) := by
  intro i hi
  unfold lc2DRow at hi
  simp only [List.mem_flatMap, List.mem_map, List.mem_range] at hi
  obtain ⟨i, hi, j, hj, c, hc, rfl⟩ := hi
  split
  · rename_i h; exact_mod_cast h.2
  · omega

/-- Row `p` of a pooling layer of one dimension with `C` channels. -/
def pool1DRow (C K ni p : Nat) : List Int :=
  (List.range K).map fun j => if (p / C * K + j) * C + p % C < ni then (((p / C * K + j) * C + p % C : Nat) : Int) else -1

theorem pool1DRow_eq (C K ni p : Nat) : (pool1DEntries (C : Int) (K : Int) (ni : Int) p).map keep = pool1DRow C K ni p := by
  unfold pool1DEntries pool1DRow
  simp only [Int.toNat_natCast, List.map_map]
  apply List.map_congr_left
  intro j _
  have e1 : (p : Int).tmod (C : Int) = ((p % C : Nat) : Int) := rfl
  have e2 : (p : Int).tdiv (C : Int) = ((p / C : Nat) : Int) := rfl
  simp only [Function.comp, keep, decide_eq_true_eq, e1, e2]
  by_cases h : (p / C * K + j) * C + p % C < ni
  · rw [if_pos h, if_pos (by exact_mod_cast h)]; push_cast; rfl
  · rw [if_neg h, if_neg (by intro hc; exact h (by exact_mod_cast hc))]

theorem pool1DRow_length (C K ni p : Nat) : (pool1DRow C K ni p).length = K := by simp [pool1DRow]

theorem pool1DEntries_length (C K ni p : Nat) : (pool1DEntries (C : Int) (K : Int) (ni : Int) p).length = K := by
  simp [pool1DEntries]

theorem pool1DRow_bound {C K ni p : Nat} : ∀ i ∈ pool1DRow C K ni p, i < (ni : Int) := by
  intro i hi
  unfold pool1DRow at hi
  simp only [List.mem_map, List.mem_range] at hi
  obtain ⟨j, hj, rfl⟩ := hi
  split
  · rename_i h; exact_mod_cast h
  · omega

/-- Row `p` of a pooling layer of two dimensions: `outX`, `outY` are the numbers of tiles. -/
def pool2DRow (C X K outX outY ni p : Nat) : List Int :=
  (List.range K).flatMap fun i => (List.range K).map fun j =>
    if (p / C % outX * K + j) * C + p % C < X * C ∧ (p / C / outY * K + i) * X * C + (p / C % outX * K + j) * C + p % C < ni then
      (((p / C / outY * K + i) * X * C + (p / C % outX * K + j) * C + p % C : Nat) : Int) else -1

theorem pool2DRow_eq (C X K outX outY ni p : Nat) :
    (pool2DEntries (C : Int) (X : Int) (K : Int) (outX : Int) (outY : Int) (ni : Int) p).map keep = pool2DRow C X K outX outY ni p := by
  unfold pool2DEntries pool2DRow
  simp only [List.map_flatMap, Int.toNat_natCast, List.map_map]
  congr 1; funext i
  apply List.map_congr_left
  intro j _
  have e0 : (p : Int).tmod (C : Int) = ((p % C : Nat) : Int) := rfl
  have e1 : ((p : Int).tdiv (C : Int)).tmod (outX : Int) = ((p / C % outX : Nat) : Int) := rfl
  have e2 : ((p : Int).tdiv (C : Int)).tdiv (outY : Int) = ((p / C / outY : Nat) : Int) := rfl
  simp only [Function.comp, keep, decide_eq_true_eq, e0, e1, e2]
  by_cases h : (p / C % outX * K + j) * C + p % C < X * C ∧ (p / C / outY * K + i) * X * C + (p / C % outX * K + j) * C + p % C < ni
  · rw [if_pos h, if_pos (by exact_mod_cast h)]; push_cast; rfl
  · rw [if_neg h, if_neg (by intro hc; exact h (by exact_mod_cast hc))]

theorem pool2DRow_length (C X K outX outY ni p : Nat) : (pool2DRow C X K outX outY ni p).length = K * K := by
  unfold pool2DRow
  exact range_mul_flatMap_length _ _ _ (by simp)

theorem pool2DEntries_length (C X K outX outY ni p : Nat) :
    (pool2DEntries (C : Int) (X : Int) (K : Int) (outX : Int) (outY : Int) (ni : Int) p).length = K * K := by
  have := congrArg List.length (pool2DRow_eq C X K outX outY ni p)
  rw [List.length_map] at this
  rw [this, pool2DRow_length]

theorem pool2DRow_bound {C X K outX outY ni p : Nat} : ∀ i ∈ pool2DRow C X K outX outY ni p, i < (ni : Int) := by
  intro i hi
  unfold pool2DRow at hi
  simp only [List.mem_flatMap, List.mem_map, List.mem_range] at hi
  obtain ⟨i, hi, j, hj, rfl⟩ := hi
  split
  · rename_i h; exact_mod_cast h.2
  · omega

section
variable {F : Type} [Flt F] [FTrans F] [Add F] [Sub F] [Mul F] [Div F] [Neg F]

/-- What a simple neuron of a layer is. -/
structure Neuron.Fresh (n : Neuron F) (opt : Sgd F) (ni b : Nat) (bias : F) (act : Act) : Prop where
  wf : n.WF ni (ni + 1) b
  bias : n.bias = bias
  activation : n.activationFunction = act
  optimizer : n.optimizer = opt

theorem Neuron.make_fresh {opt : Sgd F} {ni b : Nat} {bias : F} {act : Act} {d : Draws F} {n : Neuron F} {nw : Int}
    (hn : nw = (ni : Int) + 1) (hb : 0 < b)
    (h : Neuron.make ⟨(ni : Int), (b : Int), nw, bias, act⟩ opt d = .ok n) : n.Fresh opt ni b bias act := by
  obtain ⟨a, _, _, e1, e2, e3⟩ := Neuron.make_wf h (by simpa using hb)
  subst hn
  have : ((ni : Int) + 1).toNat = ni + 1 := by omega
  simp only [Int.toNat_natCast, this] at a
  exact ⟨a, e1, e2, e3⟩

theorem tdiv_self_mul {a b : Int} (h : a ≠ 0) : (a * b).tdiv a = b := Int.mul_tdiv_cancel_left b h

/-- What the factory returns for a filter layer with neurons: `rows` of `size` indexes, `N` filters, `nn` neurons with `b`
memories. -/
structure FilterBuilt (l : Layer F) (kind : FKind) (opt : Sgd F) (ni : Int) (rows : List (List Int)) (size N nn b K : Nat) (act : Act)
    (shapeIn shapeOut : List Int) (opts : List (LayerOptModel F)) (ns : List (Neuron F)) (info : FilterInfo) : Prop where
  inputs : l.numberOfInputs = ni
  body : l.body = .filter kind ns info
  length : ns.length = nn
  fresh : ∀ n ∈ ns, n.Fresh opt size b (lit (1/1000)) act
  kidx : info.kernelIndexes = rows
  ksize : info.sizeOfNeuronInputs = (size : Int)
  kernels : info.numberOfKernels = ((N * rows.length : Nat) : Int)
  small : ((N * rows.length : Nat) : Int) ≤ 2147483647
  filters : info.numberOfFilters = (N : Int)
  kernelSize : info.kernelSize = (K : Int)
  perFilter : info.numberOfKernelsPerFilter = (rows.length : Int)
  shapeIn : info.shapeOfInput = shapeIn
  shapeOut : info.shapeOfOutput = shapeOut
  optimizers : ∃ d, l.optimizers = (LayerOpt.buildAll nn opts d).1

/-- The convolution layer of one dimension built by the factory. -/
theorem buildConvolution1D_inv {opt : Sgd F} {ni : Int} {C X K N : Nat} {act : Act} {opts : List (LayerOptModel F)} {d d' : Draws F}
    {l : Layer F} {shape : List Int} (hs : normalizeShape shape = [(C : Int), (X : Int)]) (hN : 0 < N)
    (h : buildConvolution opt ni shape (N : Int) (K : Int) act opts d = .ok (l, d')) :
    K ≤ X ∧ ∃ ns info, FilterBuilt l .conv1D opt ni ((List.range (X - K + 1)).map (conv1DRow C K)) (K * C) N N (X - K + 1) K act
      [(C : Int), (X : Int)] [(N : Int), ((X - K + 1 : Nat) : Int)] opts ns info := by
  unfold buildConvolution at h
  rw [hs] at h
  simp only at h
  split at h
  · cases h
  rename_i hKX
  have hKX' : K ≤ X := by omega
  refine ⟨hKX', ?_⟩
  obtain ⟨outX, h1, h⟩ := Res.bind_eq_ok.1 h
  obtain ⟨kernels, h2, h⟩ := Res.bind_eq_ok.1 h
  obtain ⟨per, h3, h⟩ := Res.bind_eq_ok.1 h
  obtain ⟨sz, h4, h⟩ := Res.bind_eq_ok.1 h
  obtain ⟨nw, h5, h⟩ := Res.bind_eq_ok.1 h
  obtain ⟨⟨ns, d1⟩, h6, h⟩ := Res.bind_eq_ok.1 h
  obtain ⟨rows, h7, h⟩ := Res.bind_eq_ok.1 h
  cases h
  have e1 : outX = ((X - K + 1 : Nat) : Int) := by rw [(ckInt_inv h1).1]; omega
  have e2 : kernels = (N : Int) * ((X - K + 1 : Nat) : Int) := by rw [(mulI_inv h2).1, e1]
  have e3 : per = ((X - K + 1 : Nat) : Int) := by
    rw [(divI_inv h3).2, e2, tdiv_self_mul (by omega)]
  have e4 : sz = ((K * C : Nat) : Int) := by rw [(mulI_inv h4).1]; push_cast; rfl
  have e5 : nw = ((K * C : Nat) : Int) + 1 := by rw [(addI_inv h5).1, e4]
  have hb := (mulI_inv h2).2.2
  rw [e1] at hb
  rw [e3, e4] at h6 h7
  obtain ⟨l1, fresh⟩ := makeAllNeurons_inv (P := fun n => Neuron.Fresh n opt (K * C) (X - K + 1) (lit (1/1000)) act)
    (fun d n h => Neuron.make_fresh (by exact e5) (by omega) h) h6
  obtain ⟨_, r1⟩ := buildRows_inv h7 (fun k _ => by rw [conv1DEntries_length])
  have r2 : rows = (List.range (X - K + 1)).map (conv1DRow C K) := by
    rw [r1]
    simp only [Int.toNat_natCast, conv1DRow_eq]
  have l2 : ns.length = N := by omega
  refine ⟨ns, _, ⟨rfl, rfl, l2, fresh, r2, e4, ?_, ?_, rfl, rfl, ?_, rfl, ?_, ?_⟩⟩
  · simp only [e2]; simp
  · simp only [List.length_map, List.length_range]; push_cast; push_cast at hb; exact hb
  · simp only [e3]; simp
  · simp only [e1]
  · exact ⟨d1, by rw [l2]⟩

/-- The convolution layer of two dimensions built by the factory. -/
theorem buildConvolution2D_inv {opt : Sgd F} {ni : Int} {C X Y K N : Nat} {act : Act} {opts : List (LayerOptModel F)} {d d' : Draws F}
    {l : Layer F} (hN : 0 < N)
    (h : buildConvolution opt ni [(C : Int), (X : Int), (Y : Int)] (N : Int) (K : Int) act opts d = .ok (l, d')) :
    K ≤ X ∧ K ≤ Y ∧ ∃ ns info, FilterBuilt l .conv2D opt ni
      ((List.range ((X - K + 1) * (Y - K + 1))).map (conv2DRow C X K (X - K + 1))) (K * K * C) N N ((X - K + 1) * (Y - K + 1)) K act
      [(C : Int), (X : Int), (Y : Int)] [(N : Int), ((X - K + 1 : Nat) : Int), ((Y - K + 1 : Nat) : Int)] opts ns info := by
  unfold buildConvolution at h
  simp only [normalizeShape] at h
  split at h
  · cases h
  rename_i hKX
  have hKX' : K ≤ X := by omega
  have hKY' : K ≤ Y := by omega
  refine ⟨hKX', hKY', ?_⟩
  obtain ⟨outX, h1, h⟩ := Res.bind_eq_ok.1 h
  obtain ⟨outY, h1', h⟩ := Res.bind_eq_ok.1 h
  obtain ⟨k1, h2', h⟩ := Res.bind_eq_ok.1 h
  obtain ⟨kernels, h2, h⟩ := Res.bind_eq_ok.1 h
  obtain ⟨per, h3, h⟩ := Res.bind_eq_ok.1 h
  obtain ⟨k2, h4', h⟩ := Res.bind_eq_ok.1 h
  obtain ⟨sz, h4, h⟩ := Res.bind_eq_ok.1 h
  obtain ⟨nw, h5, h⟩ := Res.bind_eq_ok.1 h
  obtain ⟨⟨ns, d1⟩, h6, h⟩ := Res.bind_eq_ok.1 h
  obtain ⟨rows, h7, h⟩ := Res.bind_eq_ok.1 h
  cases h
  have e1 : outX = ((X - K + 1 : Nat) : Int) := by rw [(ckInt_inv h1).1]; omega
  have e1' : outY = ((Y - K + 1 : Nat) : Int) := by rw [(ckInt_inv h1').1]; omega
  have e2 : kernels = (N : Int) * (((X - K + 1) * (Y - K + 1) : Nat) : Int) := by
    rw [(mulI_inv h2).1, (mulI_inv h2').1, e1, e1']; push_cast; ring
  have e3 : per = (((X - K + 1) * (Y - K + 1) : Nat) : Int) := by
    rw [(divI_inv h3).2, e2, tdiv_self_mul (by omega)]
  have e4 : sz = ((K * K * C : Nat) : Int) := by rw [(mulI_inv h4).1, (mulI_inv h4').1]; push_cast; rfl
  have e5 : nw = ((K * K * C : Nat) : Int) + 1 := by rw [(addI_inv h5).1, e4]
  have hb := (mulI_inv h2).2.2
  rw [← (mulI_inv h2).1, e2] at hb
  rw [e3, e4] at h6 h7
  rw [e1] at h7
  have hpos : 0 < (X - K + 1) * (Y - K + 1) := Nat.mul_pos (by omega) (by omega)
  obtain ⟨l1, fresh⟩ := makeAllNeurons_inv (P := fun n => Neuron.Fresh n opt (K * K * C) ((X - K + 1) * (Y - K + 1)) (lit (1/1000)) act)
    (fun d n h => Neuron.make_fresh (by exact e5) hpos h) h6
  obtain ⟨_, r1⟩ := buildRows_inv h7 (fun k _ => by rw [conv2DEntries_length])
  have r2 : rows = (List.range ((X - K + 1) * (Y - K + 1))).map (conv2DRow C X K (X - K + 1)) := by
    rw [r1]
    simp only [Int.toNat_natCast, conv2DRow_eq]
  have l2 : ns.length = N := by omega
  refine ⟨ns, _, ⟨rfl, rfl, l2, fresh, r2, e4, ?_, ?_, rfl, rfl, ?_, rfl, ?_, ?_⟩⟩
  · simp only [e2]; simp
  · simp only [List.length_map, List.length_range]; push_cast; push_cast at hb; exact hb
  · simp only [e3]; simp
  · simp only [e1, e1']
  · exact ⟨d1, by rw [l2]⟩

/-- The locally connected layer of one dimension built by the factory. -/
theorem buildLocally1D_inv {opt : Sgd F} {ni : Nat} {C X K N : Nat} {act : Act} {opts : List (LayerOptModel F)} {d d' : Draws F}
    {l : Layer F} {shape : List Int} (hs : normalizeShape shape = [(C : Int), (X : Int)]) (hN : 0 < N)
    (h : buildLocallyConnected opt (ni : Int) shape (N : Int) (K : Int) act opts d = .ok (l, d')) :
    K ≤ X ∧ 0 < K ∧ ∃ ns info, FilterBuilt l .lc1D opt ni ((List.range (Spec.ceil X K)).map (lc1DRow C K ni)) (K * C) N
      (Spec.ceil X K * N) 1 K act [(C : Int), (X : Int)] [(N : Int), ((Spec.ceil X K : Nat) : Int)] opts ns info := by
  unfold buildLocallyConnected at h
  rw [hs] at h
  simp only at h
  split at h
  · cases h
  rename_i hKX
  have hKX' : K ≤ X := by omega
  obtain ⟨outX, h1, h⟩ := Res.bind_eq_ok.1 h
  obtain ⟨kernels, h2, h⟩ := Res.bind_eq_ok.1 h
  obtain ⟨per, h3, h⟩ := Res.bind_eq_ok.1 h
  obtain ⟨sz, h4, h⟩ := Res.bind_eq_ok.1 h
  obtain ⟨nw, h5, h⟩ := Res.bind_eq_ok.1 h
  obtain ⟨⟨ns, d1⟩, h6, h⟩ := Res.bind_eq_ok.1 h
  obtain ⟨rows, h7, h⟩ := Res.bind_eq_ok.1 h
  cases h
  obtain ⟨hK, e1⟩ := ceilDiv_inv h1
  refine ⟨hKX', hK, ?_⟩
  have e2 : kernels = (N : Int) * ((Spec.ceil X K : Nat) : Int) := by rw [(mulI_inv h2).1, e1]
  have e3 : per = ((Spec.ceil X K : Nat) : Int) := by
    rw [(divI_inv h3).2, e2, tdiv_self_mul (by omega)]
  have e4 : sz = ((K * C : Nat) : Int) := by rw [(mulI_inv h4).1]; push_cast; rfl
  have e5 : nw = ((K * C : Nat) : Int) + 1 := by rw [(addI_inv h5).1, e4]
  have hb := (mulI_inv h2).2.2
  rw [e1] at hb
  rw [e4] at h6 h7
  rw [e3] at h7
  obtain ⟨l1, fresh⟩ := makeAllNeurons_inv (P := fun n => Neuron.Fresh n opt (K * C) 1 (lit (1/1000)) act)
    (fun d n h => Neuron.make_fresh (by exact e5) (by omega) h) h6
  obtain ⟨_, r1⟩ := buildRows_inv h7 (fun k _ => by rw [lc1DEntries_length])
  have r2 : rows = (List.range (Spec.ceil X K)).map (lc1DRow C K ni) := by
    rw [r1]
    simp only [Int.toNat_natCast, lc1DRow_eq]
  have l2 : ns.length = Spec.ceil X K * N := by
    rw [e2] at l1
    have : (ns.length : Int) = ((Spec.ceil X K * N : Nat) : Int) := by rw [l1]; push_cast; ring
    exact_mod_cast this
  refine ⟨ns, _, ⟨rfl, rfl, l2, fresh, r2, e4, ?_, ?_, rfl, rfl, ?_, rfl, ?_, ?_⟩⟩
  · simp only [e2]; simp
  · simp only [List.length_map, List.length_range]; push_cast; push_cast at hb; exact hb
  · simp only [e3]; simp
  · simp only [e1]
  · exact ⟨d1, by rw [l2]⟩

/-- The locally connected layer of two dimensions built by the factory. -/
theorem buildLocally2D_inv {opt : Sgd F} {ni : Nat} {C X Y K N : Nat} {act : Act} {opts : List (LayerOptModel F)} {d d' : Draws F}
    {l : Layer F} (hN : 0 < N)
    (h : buildLocallyConnected opt (ni : Int) [(C : Int), (X : Int), (Y : Int)] (N : Int) (K : Int) act opts d = .ok (l, d')) :
    K ≤ X ∧ K ≤ Y ∧ 0 < K ∧ ∃ ns info, FilterBuilt l .lc2D opt ni
      ((List.range (Spec.ceil X K * Spec.ceil Y K)).map (lc2DRow C X K (Spec.ceil X K) (Spec.ceil Y K) ni)) (K * K * C) N
      (Spec.ceil X K * Spec.ceil Y K * N) 1 K act [(C : Int), (X : Int), (Y : Int)]
      [(N : Int), ((Spec.ceil X K : Nat) : Int), ((Spec.ceil Y K : Nat) : Int)] opts ns info := by
  unfold buildLocallyConnected at h
  simp only [normalizeShape] at h
  split at h
  · cases h
  rename_i hKX
  have hKX' : K ≤ X := by omega
  have hKY' : K ≤ Y := by omega
  obtain ⟨outX, h1, h⟩ := Res.bind_eq_ok.1 h
  obtain ⟨outY, h1', h⟩ := Res.bind_eq_ok.1 h
  obtain ⟨k1, h2', h⟩ := Res.bind_eq_ok.1 h
  obtain ⟨kernels, h2, h⟩ := Res.bind_eq_ok.1 h
  obtain ⟨per, h3, h⟩ := Res.bind_eq_ok.1 h
  obtain ⟨k2, h4', h⟩ := Res.bind_eq_ok.1 h
  obtain ⟨sz, h4, h⟩ := Res.bind_eq_ok.1 h
  obtain ⟨nw, h5, h⟩ := Res.bind_eq_ok.1 h
  obtain ⟨⟨ns, d1⟩, h6, h⟩ := Res.bind_eq_ok.1 h
  obtain ⟨rows, h7, h⟩ := Res.bind_eq_ok.1 h
  cases h
  obtain ⟨hK, e1⟩ := ceilDiv_inv h1
  obtain ⟨_, e1'⟩ := ceilDiv_inv h1'
  refine ⟨hKX', hKY', hK, ?_⟩
  have e2 : kernels = (N : Int) * ((Spec.ceil X K * Spec.ceil Y K : Nat) : Int) := by
    rw [(mulI_inv h2).1, (mulI_inv h2').1, e1, e1']; push_cast; ring
  have e3 : per = ((Spec.ceil X K * Spec.ceil Y K : Nat) : Int) := by
    rw [(divI_inv h3).2, e2, tdiv_self_mul (by omega)]
  have e4 : sz = ((K * K * C : Nat) : Int) := by rw [(mulI_inv h4).1, (mulI_inv h4').1]; push_cast; rfl
  have e5 : nw = ((K * K * C : Nat) : Int) + 1 := by rw [(addI_inv h5).1, e4]
  have hb := (mulI_inv h2).2.2
  rw [← (mulI_inv h2).1, e2] at hb
  rw [e4] at h6 h7
  rw [e3, e1, e1'] at h7
  obtain ⟨l1, fresh⟩ := makeAllNeurons_inv (P := fun n => Neuron.Fresh n opt (K * K * C) 1 (lit (1/1000)) act)
    (fun d n h => Neuron.make_fresh (by exact e5) (by omega) h) h6
  obtain ⟨_, r1⟩ := buildRows_inv h7 (fun k _ => by rw [lc2DEntries_length])
  have r2 : rows = (List.range (Spec.ceil X K * Spec.ceil Y K)).map (lc2DRow C X K (Spec.ceil X K) (Spec.ceil Y K) ni) := by
    rw [r1]
    simp only [Int.toNat_natCast, lc2DRow_eq]
  have l2 : ns.length = Spec.ceil X K * Spec.ceil Y K * N := by
    rw [e2] at l1
    have : (ns.length : Int) = ((Spec.ceil X K * Spec.ceil Y K * N : Nat) : Int) := by rw [l1]; push_cast; ring
    exact_mod_cast this
  refine ⟨ns, _, ⟨rfl, rfl, l2, fresh, r2, e4, ?_, ?_, rfl, rfl, ?_, rfl, ?_, ?_⟩⟩
  · simp only [e2]; simp
  · simp only [List.length_map, List.length_range]; push_cast; push_cast at hb; exact hb
  · simp only [e3]; simp
  · simp only [e1, e1']
  · exact ⟨d1, by rw [l2]⟩

/-- What the factory returns for a pooling layer: `rows` of `size` indexes. -/
structure PoolBuilt (l : Layer F) (twoD : Bool) (ni : Int) (rows : List (List Int)) (size C K : Nat)
    (shapeIn shapeOut : List Int) (info : FilterInfo) : Prop where
  inputs : l.numberOfInputs = ni
  body : ∃ o m, l.body = .pool twoD info o m ∧ o = (rows.length : Int) ∧ m = List.replicate rows.length 0
  kidx : info.kernelIndexes = rows
  ksize : info.sizeOfNeuronInputs = (size : Int)
  kernels : info.numberOfKernels = (rows.length : Int)
  filters : info.numberOfFilters = (C : Int)
  kernelSize : info.kernelSize = (K : Int)
  shapeIn : info.shapeOfInput = shapeIn
  shapeOut : info.shapeOfOutput = shapeOut
  optimizers : l.optimizers = []

/-- The pooling layer of one dimension built by the factory: the number of rows does not count the channels. -/
theorem buildPool1D_inv {ni C X K : Nat} {l : Layer F} {shape : List Int} (hs : normalizeShape shape = [(C : Int), (X : Int)])
    (h : buildMaxPooling (ni : Int) shape (K : Int) = .ok l) :
    K ≤ X ∧ 0 < K ∧ ∃ info, PoolBuilt l false ni ((List.range (Spec.ceil X K)).map (pool1DRow C K ni)) K C K
      [(C : Int), (X : Int)] [(C : Int), ((Spec.ceil X K : Nat) : Int)] info := by
  unfold buildMaxPooling at h
  rw [hs] at h
  simp only at h
  split at h
  · cases h
  rename_i hKX
  have hKX' : K ≤ X := by omega
  obtain ⟨outX, h1, h⟩ := Res.bind_eq_ok.1 h
  split at h
  · cases h
  obtain ⟨_, _, h⟩ := Res.bind_eq_ok.1 h
  obtain ⟨rows, h7, h⟩ := Res.bind_eq_ok.1 h
  cases h
  obtain ⟨hK, e1⟩ := ceilDiv_inv h1
  refine ⟨hKX', hK, ?_⟩
  rw [e1] at h7
  obtain ⟨_, r1⟩ := buildRows_inv h7 (fun k _ => by rw [pool1DEntries_length])
  have r2 : rows = (List.range (Spec.ceil X K)).map (pool1DRow C K ni) := by
    rw [r1]
    simp only [Int.toNat_natCast, pool1DRow_eq]
  refine ⟨_, ⟨rfl, ⟨_, _, rfl, ?_, ?_⟩, r2, rfl, ?_, rfl, rfl, rfl, ?_, rfl⟩⟩
  · simp only [e1]; simp
  · simp only [e1]; simp
  · simp only [e1]; simp
  · simp only [e1]

/-- The pooling layer of two dimensions built by the factory. -/
theorem buildPool2D_inv {ni C X Y K : Nat} {l : Layer F}
    (h : buildMaxPooling (ni : Int) [(C : Int), (X : Int), (Y : Int)] (K : Int) = .ok l) :
    K ≤ X ∧ K ≤ Y ∧ 0 < K ∧ ∃ info, PoolBuilt l true ni
      ((List.range (C * Spec.ceil X K * Spec.ceil Y K)).map (pool2DRow C X K (Spec.ceil X K) (Spec.ceil Y K) ni)) (K * K) C K
      [(C : Int), (X : Int), (Y : Int)] [(C : Int), ((Spec.ceil X K : Nat) : Int), ((Spec.ceil Y K : Nat) : Int)] info := by
  unfold buildMaxPooling at h
  simp only [normalizeShape] at h
  split at h
  · cases h
  rename_i hKX
  have hKX' : K ≤ X := by omega
  have hKY' : K ≤ Y := by omega
  obtain ⟨outX, h1, h⟩ := Res.bind_eq_ok.1 h
  obtain ⟨outY, h1', h⟩ := Res.bind_eq_ok.1 h
  obtain ⟨k1, h2', h⟩ := Res.bind_eq_ok.1 h
  obtain ⟨no, h2, h⟩ := Res.bind_eq_ok.1 h
  obtain ⟨sz, h4, h⟩ := Res.bind_eq_ok.1 h
  split at h
  · cases h
  obtain ⟨rows, h7, h⟩ := Res.bind_eq_ok.1 h
  cases h
  obtain ⟨hK, e1⟩ := ceilDiv_inv h1
  obtain ⟨_, e1'⟩ := ceilDiv_inv h1'
  refine ⟨hKX', hKY', hK, ?_⟩
  have e2 : no = ((C * Spec.ceil X K * Spec.ceil Y K : Nat) : Int) := by
    rw [(mulI_inv h2).1, (mulI_inv h2').1, e1, e1']; push_cast; ring
  have e4 : sz = ((K * K : Nat) : Int) := by rw [(mulI_inv h4).1]; push_cast; rfl
  rw [e2, e4, e1, e1'] at h7
  obtain ⟨_, r1⟩ := buildRows_inv h7 (fun k _ => by rw [pool2DEntries_length])
  have r2 : rows = (List.range (C * Spec.ceil X K * Spec.ceil Y K)).map (pool2DRow C X K (Spec.ceil X K) (Spec.ceil Y K) ni) := by
    rw [r1]
    simp only [Int.toNat_natCast, pool2DRow_eq]
  refine ⟨_, ⟨rfl, ⟨_, _, rfl, ?_, ?_⟩, r2, e4, ?_, rfl, rfl, rfl, ?_, rfl⟩⟩
  · simp only [e2]; simp
  · simp only [e2, Int.toNat_natCast, List.length_map, List.length_range]
  · simp only [e2]; simp
  · simp only [e1, e1']

/-- The layers of simple neurons, recurrent neurons and gated recurrent units built by the factory. -/
theorem buildSimple_inv {N : Type} {mk : NeuronModel F → Draws F → Res N} {gates : Nat} {wrap : List N → Body F} {ni : Int} {extra : Int}
    {k : Int} {act : Act} {opts : List (LayerOptModel F)} {d d' : Draws F} {l : Layer F} {P : N → Prop}
    (hP : ∀ d n, mk ⟨ni, 1, ni + extra, lit 1, act⟩ d = .ok n → P n)
    (h : buildSimple mk gates wrap ni extra k act opts d = .ok (l, d')) :
    l.numberOfInputs = ni ∧ ∃ ns, l.body = wrap ns ∧ (ns.length : Int) = k ∧ (∀ n ∈ ns, P n) ∧
      ∃ d1, l.optimizers = (LayerOpt.buildAll ns.length opts d1).1 := by
  unfold buildSimple at h
  obtain ⟨nw, h1, h⟩ := Res.bind_eq_ok.1 h
  obtain ⟨⟨ns, d1⟩, h2, h⟩ := Res.bind_eq_ok.1 h
  cases h
  rw [(addI_inv h1).1] at h2
  obtain ⟨a, b⟩ := makeAllNeurons_inv (P := P) hP h2
  exact ⟨rfl, ns, rfl, a, b, d1, rfl⟩

end

end Snn
