import Verif.Proofs.PoolProofs
import Verif.Props.FilterProps
import Verif.Demo.Demo

/-!
# C39: max pooling
-/

set_option linter.all false

namespace Snn.LayerProps

open Finset Snn.Spec

theorem pool1D_mem {C X K p c : Nat} (hc : c < C) (i : Nat) :
    (i : Int) ∈ pool1DRow C K (C * X) (p * C + c) ↔ inTile1D C X K p c i := by
  unfold pool1DRow inTile1D
  rw [mulAdd_div hc, mulAdd_mod hc]
  simp only [List.mem_map, List.mem_range]
  rw [Nat.mul_comm C X]
  constructor
  · rintro ⟨j, hj, h⟩
    by_cases hlt : (p * K + j) * C + c < X * C
    · rw [if_pos hlt] at h
      exact ⟨j, hj, (lt_mul_iff hc).1 hlt, by omega⟩
    · rw [if_neg hlt] at h; omega
  · rintro ⟨j, hj, h1, rfl⟩
    exact ⟨j, hj, by rw [if_pos ((lt_mul_iff hc).2 h1)]⟩

theorem pool2D_mem {C X Y K px py c out : Nat} (hc : c < C) (hpx : px < out) (i : Nat) :
    (i : Int) ∈ pool2DRow C X K out out (C * X * Y) ((py * out + px) * C + c) ↔ inTile2D C X Y K px py c i := by
  unfold pool2DRow inTile2D
  rw [mulAdd_div hc, mulAdd_mod hc, mulAdd_div hpx, mulAdd_mod hpx]
  simp only [List.mem_flatMap, List.mem_map, List.mem_range]
  have key : ∀ a b : Nat, ((px * K + a) * C + c < X * C ∧ (py * K + b) * X * C + (px * K + a) * C + c < C * X * Y) ↔
      (px * K + a < X ∧ py * K + b < Y) := by
    intro a b
    have e1 : (py * K + b) * X * C + (px * K + a) * C + c = ((py * K + b) * X + (px * K + a)) * C + c := by ring
    have e2 : C * X * Y = Y * X * C := by ring
    rw [e1, e2, lt_mul_iff hc, lt_mul_iff hc]
    constructor
    · rintro ⟨h1, h2⟩; exact ⟨h1, (lt_mul_iff h1).1 h2⟩
    · rintro ⟨h1, h2⟩; exact ⟨h1, (lt_mul_iff h1).2 h2⟩
  constructor
  · rintro ⟨b, hb, a, ha, h⟩
    by_cases hlt : (px * K + a) * C + c < X * C ∧ (py * K + b) * X * C + (px * K + a) * C + c < C * X * Y
    · rw [if_pos hlt] at h
      obtain ⟨h1, h2⟩ := (key a b).1 hlt
      refine ⟨a, ha, b, hb, h1, h2, ?_⟩
      have e1 : ((py * K + b) * X + (px * K + a)) * C + c = (py * K + b) * X * C + (px * K + a) * C + c := by ring
      rw [e1]; omega
    · rw [if_neg hlt] at h; omega
  · rintro ⟨a, ha, b, hb, h1, h2, rfl⟩
    refine ⟨b, hb, a, ha, ?_⟩
    rw [if_pos ((key a b).2 ⟨h1, h2⟩)]
    congr 1; ring

section
variable {F : Type} [Field F] [LinearOrder F] [IsStrictOrderedRing F] [FTrans F]

/-- **C39** (one dimension, one channel): every output is the maximum of the existing inputs of its tile, in inference and in
training, and the errors go back to the positions of these maxima only. Missing: several channels, where it is false
(`C39_pool1D_channels_refuted`). -/
theorem C39_pool1D_partial {opt : Sgd F} {X K : Nat} {shape : List Int} {d d' : Draws F} {l0 l : Layer F} (hs : Shape1D shape 1 X)
    (hb : buildLayer opt (.maxPooling (K : Int)) shape d = .ok (l0, d'))
    (hu : Used X (ceil X K) l0 l) (x : List F) (hx : x.length = X) (t : Bool) (d : Draws F) :
    ∃ y l' arg, l.output x t = .ok (y, l') ∧ l.outputForTraining x t d = .ok (y, l', d) ∧
      MaxPooled (ceil X K) (fun k => inTile1D 1 X K k 0) x y arg ∧
      ∀ e : List F, e.length = ceil X K → ∃ errs l'', l'.backOutput e = .ok (errs, l'') ∧ SentBack (ceil X K) X arg e errs := by
  obtain ⟨hs1, hs2⟩ := normalize1D hs
  unfold buildLayer at hb
  obtain ⟨n, h1, hb⟩ := Res.bind_eq_ok.1 hb
  rw [computeNumberOfInputs_inv h1, hs2] at hb
  split at hb
  · cases hb
  split at hb
  · cases hb
  simp only at hb
  obtain ⟨l1, hb', h2⟩ := Res.bind_eq_ok.1 hb
  cases h2
  obtain ⟨hKX, hK, info, h⟩ := buildPool1D_inv hs1 hb'
  have hwf := buildPool1D_wf hs1 (by omega) hb'
  have e : ((List.range (ceil X K)).map (pool1DRow 1 K (1 * X))).length = ceil X K := by simp
  have e1 : 1 * X = X := by omega
  have := pool_layer h (by rw [e]; exact hwf) (by rw [e, e1]; exact hu) (fun k => inTile1D 1 X K k 0) (fun i => i / K)
    (by
      intro k hk i
      rw [e] at hk
      rw [getD_map_range _ _ _ _ hk]
      simpa using pool1D_mem (C := 1) (X := X) (K := K) (p := k) (c := 0) (by omega) i)
    (by
      rintro k hk i ⟨j, hj, h1, rfl⟩
      simp only [Nat.mul_one, Nat.add_zero]
      exact mulAdd_div hj)
    x (by rw [e1]; exact hx) t d
  rw [e, e1] at this
  exact this

/-- The tile of output k in two dimensions. -/
def tile2D (C X Y K : Nat) (k : Nat) : Nat → Prop := inTile2D C X Y K (k / C % ceil X K) (k / C / ceil X K) (k % C)

/-- **C39** (two dimensions), when the input has as many tiles in both directions, any number of channels. Missing: inputs
with `⌈X/K⌉ ≠ ⌈Y/K⌉`, where it is false (`C39_pool2D_wide_refuted`, `C39_pool2D_high_refuted`). -/
theorem C39_pool2D_partial {opt : Sgd F} {C X Y K : Nat} {d d' : Draws F} {l0 l : Layer F} (hC : 0 < C) (hXY : ceil X K = ceil Y K)
    (hb : buildLayer opt (.maxPooling (K : Int)) [(C : Int), (X : Int), (Y : Int)] d = .ok (l0, d'))
    (hu : Used (C * X * Y) (C * ceil X K * ceil Y K) l0 l) (x : List F) (hx : x.length = C * X * Y) (t : Bool) (d : Draws F) :
    ∃ y l' arg, l.output x t = .ok (y, l') ∧ l.outputForTraining x t d = .ok (y, l', d) ∧
      MaxPooled (C * ceil X K * ceil Y K) (tile2D C X Y K) x y arg ∧
      ∀ e : List F, e.length = C * ceil X K * ceil Y K →
        ∃ errs l'', l'.backOutput e = .ok (errs, l'') ∧ SentBack (C * ceil X K * ceil Y K) (C * X * Y) arg e errs := by
  unfold buildLayer at hb
  obtain ⟨n, h1, hb⟩ := Res.bind_eq_ok.1 hb
  have hn : n = ((C * X * Y : Nat) : Int) := by rw [computeNumberOfInputs_inv h1]; simp; ring
  rw [hn] at hb
  split at hb
  · cases hb
  split at hb
  · cases hb
  simp only at hb
  obtain ⟨l1, hb', h2⟩ := Res.bind_eq_ok.1 hb
  cases h2
  obtain ⟨hKX, hKY, hK, info, h⟩ := buildPool2D_inv hb'
  have hwf := buildPool2D_wf hC (by omega) hb'
  have e : ((List.range (C * ceil X K * ceil Y K)).map (pool2DRow C X K (ceil X K) (ceil Y K) (C * X * Y))).length =
    C * ceil X K * ceil Y K := by simp
  have hout : 0 < ceil X K := ceil_pos hK (by omega)
  have hdec : ∀ k, ((k / C / ceil X K) * ceil X K + k / C % ceil X K) * C + k % C = k := by
    intro k
    rw [Nat.div_add_mod', Nat.div_add_mod']
  have := pool_layer h (by rw [e]; exact hwf) (by rw [e]; exact hu) (tile2D C X Y K)
    (fun i => ((i / C / X / K) * ceil X K + (i / C % X) / K) * C + i % C)
    (by
      intro k hk i
      rw [e] at hk
      rw [getD_map_range _ _ _ _ hk, ← hXY]
      have := pool2D_mem (C := C) (X := X) (Y := Y) (K := K) (px := k / C % ceil X K) (py := k / C / ceil X K) (c := k % C) (out := ceil X K)
        (Nat.mod_lt _ hC) (Nat.mod_lt _ hout) i
      rw [hdec] at this
      exact this)
    (by
      rintro k hk i ⟨a, ha, b, hb, h1, h2, rfl⟩
      rw [mulAdd_div (Nat.mod_lt _ hC), mulAdd_mod (Nat.mod_lt _ hC), mulAdd_div h1, mulAdd_mod h1, mulAdd_div ha, mulAdd_div hb]
      exact hdec k)
    x hx t d
  rw [e] at this
  exact this

/-- **C39 is false** in one dimension with several channels: the layer is accepted and returns `⌈X/K⌉` values instead of
`C * ⌈X/K⌉` (MaxPooling1D.cpp:17: `numberOfOutputs = shapeOfOutput[X]`). -/
theorem C39_pool1D_channels_refuted {opt : Sgd F} {C X K : Nat} {d d' : Draws F} {l0 : Layer F} (hC : 1 < C)
    (hb : buildLayer opt (.maxPooling (K : Int)) [(C : Int), (X : Int)] d = .ok (l0, d'))
    (x : List F) (hx : x.length = C * X) (t : Bool) :
    l0.getShapeOfOutput = [(C : Int), (ceil X K : Int)] ∧
    ∃ y l', l0.output x t = .ok (y, l') ∧ y.length = ceil X K ∧ y.length ≠ C * ceil X K := by
  unfold buildLayer at hb
  obtain ⟨n, h1, hb⟩ := Res.bind_eq_ok.1 hb
  have hn : n = ((C * X : Nat) : Int) := by rw [computeNumberOfInputs_inv h1]; simp
  rw [hn] at hb
  split at hb
  · cases hb
  split at hb
  · cases hb
  simp only at hb
  obtain ⟨l1, hb', h2⟩ := Res.bind_eq_ok.1 hb
  cases h2
  have hwf := buildPool1D_wf rfl (by omega) hb'
  obtain ⟨hKX, hK, info, h⟩ := buildPool1D_inv rfl hb'
  obtain ⟨y, l', k1, k2, _⟩ := Layer.output_ok hwf x hx t
  refine ⟨?_, y, l', k1, k2, ?_⟩
  · obtain ⟨o, m, hbd, _⟩ := h.body
    simp only [Layer.getShapeOfOutput, hbd, h.shapeOut]
  · rw [k2]
    have := ceil_pos hK (show 0 < X by omega)
    have : 2 * ceil X K ≤ C * ceil X K := Nat.mul_le_mul_right _ hC
    omega

/-- **C39 is false** in two dimensions when the input has fewer tiles in x than in y: whatever the input, the output of the
tile (0, 1) is the output of the tile (0, 0) again (MaxPooling2D.cpp:40 divides by `shapeOfOutput[Y]`), so it is not the
maximum of its tile as soon as these two maxima differ. -/
theorem C39_pool2D_high_refuted {opt : Sgd F} {C X Y K : Nat} {d d' : Draws F} {l0 : Layer F} (hC : 0 < C) (hXY : ceil X K < ceil Y K)
    (hb : buildLayer opt (.maxPooling (K : Int)) [(C : Int), (X : Int), (Y : Int)] d = .ok (l0, d'))
    (x : List F) (hx : x.length = C * X * Y) (t : Bool) :
    ∃ y l', l0.output x t = .ok (y, l') ∧ y.length = C * ceil X K * ceil Y K ∧
      y.getD ((1 * ceil X K + 0) * C + 0) 0 = y.getD 0 0 := by
  unfold buildLayer at hb
  obtain ⟨n, h1, hb⟩ := Res.bind_eq_ok.1 hb
  have hn : n = ((C * X * Y : Nat) : Int) := by rw [computeNumberOfInputs_inv h1]; simp; ring
  rw [hn] at hb
  split at hb
  · cases hb
  split at hb
  · cases hb
  simp only at hb
  obtain ⟨l1, hb', h2⟩ := Res.bind_eq_ok.1 hb
  cases h2
  obtain ⟨hKX, hKY, hK, info, h⟩ := buildPool2D_inv hb'
  have hwf := buildPool2D_wf hC (by omega) hb'
  obtain ⟨o, mvi, hbd, ho, hm⟩ := h.body
  have hw := hwf.body
  rw [hbd] at hw
  have hw : PoolWF info o mvi (C * X * Y) (C * ceil X K * ceil Y K) := hw
  obtain ⟨os, ms, a, l1, l2, l3⟩ := poolOutputs_max x (size := info.sizeOfNeuronInputs.toNat) (rows := info.kernelIndexes)
      (by rw [hx]; exact hw.rows)
  have hlen := hw.out
  have hc : l0.body.computeOutput x t = .ok (os, .pool true info o ms) := by
    rw [hbd]
    simp only [Body.computeOutput, a, Res.ok_bind, fillOutputs_ok (show info.numberOfKernels = os.length by rw [hw.kernels, l1, ← hlen])]
    rw [if_neg (by rw [l2, ← hlen, hw.mviLen]; omega), List.drop_eq_nil_of_le (by rw [l2, ← hlen, hw.mviLen])]
    simp
  refine ⟨os, { l0 with body := .pool true info o ms }, ?_, by rw [l1, ← hlen], ?_⟩
  · simp only [Layer.output, hc, Res.ok_bind, h.optimizers, testingHooks]; rfl
  · have px := ceil_pos hK (show 0 < X by omega)
    have hk : (1 * ceil X K + 0) * C + 0 < info.kernelIndexes.length := by
      rw [← hlen]
      have : C * ceil X K * 1 < C * ceil X K * ceil Y K := Nat.mul_lt_mul_of_pos_left (by omega) (Nat.mul_pos hC px)
      have e : (1 * ceil X K + 0) * C + 0 = C * ceil X K * 1 := by ring
      rw [e]; exact this
    have h0 : 0 < info.kernelIndexes.length := by omega
    obtain ⟨m, j1, j2, j3, j4, j5⟩ := l3 _ hk
    obtain ⟨m', i1, i2, i3, i4, i5⟩ := l3 _ h0
    have hrow : info.kernelIndexes.getD ((1 * ceil X K + 0) * C + 0) [] = info.kernelIndexes.getD 0 [] := by
      have hk' := hk
      have h0' := h0
      rw [h.kidx, List.length_map, List.length_range] at hk' h0'
      rw [h.kidx, getD_map_range _ _ _ _ hk', getD_map_range _ _ _ _ h0']
      have e : (1 * ceil X K + 0) * C + 0 = ceil X K * C := by ring
      unfold pool2DRow
      rw [e, Nat.mul_div_cancel _ hC, Nat.mul_mod_left, Nat.mod_self, Nat.div_eq_of_lt hXY]
      simp
    rw [j4, i4]
    rw [hrow] at j3 j5
    exact le_antisymm (i5 _ j3) (j5 _ i3)

end

section
variable {F : Type} [Flt F] [FTrans F] [Add F] [Sub F] [Mul F] [Div F] [Neg F]

theorem poolMax_none (x : List F) : ∀ {row : List Int} (n : Nat), n = row.length → (∀ i ∈ row, i < 0) → poolMax x n row (-1) = .ok (-1)
  | [], n, hn, _ => by subst hn; rfl
  | i :: row, n, hn, h => by
    subst hn
    simp only [List.length_cons, poolMax]
    rw [if_neg (by have := h i (by simp); omega)]
    exact poolMax_none x _ rfl (fun j hj => h j (by simp [hj]))

theorem poolOutputs_ub (x : List F) {size : Nat} : ∀ {rows : List (List Int)},
    (∀ row ∈ rows, row.length = size ∧ ∀ i ∈ row, i < x.length) → (∃ row ∈ rows, ∀ i ∈ row, i < 0) →
    (poolOutputs x size rows).isUb = true
  | [], _, h => by obtain ⟨_, h, _⟩ := h; simp at h
  | row :: rows, h, hex => by
    obtain ⟨h1, h2⟩ := h row (by simp)
    obtain ⟨r, a, b, c⟩ := poolMax_ok x (row := row) (m := -1) h2 (Or.inl rfl)
    rw [h1] at a
    simp only [poolOutputs, a, Res.ok_bind]
    rcases b with rfl | ⟨b1, b2⟩
    · rfl
    · obtain ⟨q, rfl⟩ := Int.eq_ofNat_of_zero_le b1
      have hq : q < x.length := by simpa using b2
      rw [rd_nat _ _ hq]
      simp only [Res.ok_bind]
      obtain ⟨row', hm, hneg⟩ := hex
      rcases List.mem_cons.1 hm with rfl | hm
      · have := poolMax_none x (row := row') size (by rw [h1]) hneg
        rw [a] at this
        injection this with this
        omega
      · have := poolOutputs_ub x (rows := rows) (fun r hr => h r (by simp [hr])) ⟨row', hm, hneg⟩
        cases hp : poolOutputs x size rows with
        | ok v => rw [hp] at this; cases this
        | throw m => rw [hp] at this; cases this
        | ub m => rfl

/-- **C39 is false** in two dimensions when the input has more tiles in x than in y: the layer is accepted but every
`computeOutput` reads its input at the index -1 (MaxPooling2D.cpp:40 divides by `shapeOfOutput[Y]`). For every carrier. -/
theorem C39_pool2D_wide_refuted {opt : Sgd F} {C X Y K : Nat} {d d' : Draws F} {l0 : Layer F} (hC : 0 < C) (hXY : ceil Y K < ceil X K)
    (hb : buildLayer opt (.maxPooling (K : Int)) [(C : Int), (X : Int), (Y : Int)] d = .ok (l0, d'))
    (x : List F) (hx : x.length = C * X * Y) (t : Bool) : (l0.output x t).isUb = true := by
  unfold buildLayer at hb
  obtain ⟨n, h1, hb⟩ := Res.bind_eq_ok.1 hb
  have hn : n = ((C * X * Y : Nat) : Int) := by rw [computeNumberOfInputs_inv h1]; simp; ring
  rw [hn] at hb
  split at hb
  · cases hb
  split at hb
  · cases hb
  simp only at hb
  obtain ⟨l1, hb', h2⟩ := Res.bind_eq_ok.1 hb
  cases h2
  obtain ⟨hKX, hKY, hK, info, h⟩ := buildPool2D_inv hb'
  obtain ⟨o, m, hbd, _⟩ := h.body
  have hub := poolOutputs_ub x (size := K * K) (rows := info.kernelIndexes) (by
      rw [h.kidx]
      intro row hrow
      simp only [List.mem_map, List.mem_range] at hrow
      obtain ⟨p, hp, rfl⟩ := hrow
      exact ⟨pool2DRow_length _ _ _ _ _ _ _, by rw [hx]; exact pool2DRow_bound⟩)
    (by
      have py := ceil_pos hK (show 0 < Y by omega)
      rw [h.kidx]
      refine ⟨pool2DRow C X K (ceil X K) (ceil Y K) (C * X * Y) (ceil Y K * ceil Y K * C), List.mem_map.2 ⟨_, List.mem_range.2 ?_, rfl⟩, ?_⟩
      · have e : C * ceil X K * ceil Y K = ceil X K * ceil Y K * C := by ring
        rw [e]
        apply Nat.mul_lt_mul_of_pos_right _ hC
        exact Nat.mul_lt_mul_of_pos_right hXY py
      · intro i hi
        unfold pool2DRow at hi
        simp only [List.mem_flatMap, List.mem_map, List.mem_range] at hi
        obtain ⟨b, hb, a, ha, rfl⟩ := hi
        have e1 : ceil Y K * ceil Y K * C / C / ceil Y K = ceil Y K := by
          rw [Nat.mul_div_cancel _ hC, Nat.mul_div_cancel _ py]
        have e2 : ceil Y K * ceil Y K * C % C = 0 := Nat.mul_mod_left _ _
        rw [e1, e2]
        have hle : Y ≤ ceil Y K * K := by
          unfold ceil
          have := Nat.div_add_mod' Y K
          by_cases hz : Y % K = 0
          · rw [if_pos hz]; simp only [Nat.add_zero]; omega
          · rw [if_neg hz, Nat.add_mul, Nat.one_mul]
            have := Nat.mod_lt Y hK
            omega
        rw [if_neg]
        · omega
        · rintro ⟨_, h2⟩
          have h3 : Y * X * C ≤ (ceil Y K * K + b) * X * C := Nat.mul_le_mul_right _ (Nat.mul_le_mul_right _ (by omega))
          have e3 : C * X * Y = Y * X * C := by ring
          rw [e3] at h2
          omega)
  have hc : (l0.body.computeOutput x t).isUb = true := by
    rw [hbd]
    simp only [Body.computeOutput, h.ksize, Int.toNat_natCast]
    cases hp : poolOutputs x (K * K) info.kernelIndexes with
    | ok v => rw [hp] at hub; cases hub
    | throw m => rw [hp] at hub; cases hub
    | ub m => rfl
  unfold Layer.output
  cases hp : l0.body.computeOutput x t with
  | ok v => rw [hp] at hc; cases hc
  | throw m => rw [hp] at hc; cases hc
  | ub m => rfl

end

/-! ### The hypotheses are met -/

/-- C39: a pooling of 5 positions by 2, and of 3 × 3 pixels with two channels by 2 × 2; and the layers of the refutations are built. -/
example : (buildLayer Demo.sgd (.maxPooling 2) [5] Demo.draws).isOk = true ∧ (buildLayer Demo.sgd (.maxPooling 2) [2, 3, 3] Demo.draws).isOk = true ∧
    (buildLayer Demo.sgd (.maxPooling 2) [2, 4] Demo.draws).isOk = true ∧ (buildLayer Demo.sgd (.maxPooling 2) [1, 2, 4] Demo.draws).isOk = true ∧
    (buildLayer Demo.sgd (.maxPooling 2) [1, 4, 2] Demo.draws).isOk = true := by decide +kernel

example : ∃ y l', (built (.maxPooling 2) [5] (by decide +kernel)).output [1, 7, 3, 2, 9] true = .ok (y, l') ∧ y = [7, 3, 9] :=
  ⟨_, _, Res.eq_get _ (by decide +kernel), by decide +kernel⟩

example : ∃ l, Used 5 3 (built (.maxPooling 2) [5] (by decide +kernel)) l ∧
    ∃ y l' arg, l.output [1, 7, 3, 2, 9] true = .ok (y, l') ∧ MaxPooled 3 (fun k => inTile1D 1 5 2 k 0) [1, 7, 3, 2, 9] y arg := by
  obtain ⟨d', hb⟩ := built_eq (.maxPooling 2) [5] (by decide +kernel)
  have hp := Res.eq_get (passed (built (.maxPooling 2) [5] (by decide +kernel)) [1, 2, 3, 4, 5] [1/2, -1, 1]) (by decide +kernel)
  have hu := passed_used (no := 3) .new (show _ = 5 from rfl) rfl hp
  obtain ⟨y, l', arg, h1, _, h2, _⟩ := C39_pool1D_partial (X := 5) (K := 2) (.positions 5) hb hu [1, 7, 3, 2, 9] rfl true Demo.draws
  exact ⟨_, hu, y, l', arg, h1, h2⟩

end Snn.LayerProps
