import Verif.Proofs.BuildLayers
import Verif.Proofs.LayerKin

/-! The layers built from positive parameters are well formed. -/

set_option linter.all false

namespace Snn

theorem ceil_mul_lt {p X K : Nat} (hK : 0 < K) (hp : p < Spec.ceil X K) : p * K < X := by
  unfold Spec.ceil at hp
  have hdm := Nat.div_add_mod X K
  by_cases hz : X % K = 0
  · rw [if_pos hz] at hp
    have : (p + 1) * K ≤ X / K * K := Nat.mul_le_mul_right K (by omega)
    rw [Nat.add_mul, Nat.mul_comm (X / K)] at this
    omega
  · rw [if_neg hz] at hp
    have : p * K ≤ X / K * K := Nat.mul_le_mul_right K (by omega)
    rw [Nat.mul_comm (X / K)] at this
    omega

theorem ceil_pos {X K : Nat} (hK : 0 < K) (hX : 0 < X) : 0 < Spec.ceil X K := by
  unfold Spec.ceil
  by_cases hz : X % K = 0
  · rw [if_pos hz]
    have : K ≤ X := Nat.le_of_dvd hX (Nat.dvd_of_mod_eq_zero hz)
    have := Nat.div_pos this hK
    omega
  · rw [if_neg hz]; exact Nat.succ_pos _

section
variable {F : Type} [Flt F] [FTrans F] [Add F] [Sub F] [Mul F] [Div F] [Neg F]

theorem FilterBuilt.conv_wf {l : Layer F} {kind : FKind} {opt : Sgd F} {ni : Nat} {rows : List (List Int)} {size N b K : Nat}
    {act : Act} {si so : List Int} {opts : List (LayerOptModel F)} {ns : List (Neuron F)} {info : FilterInfo}
    (h : FilterBuilt l kind opt (ni : Int) rows size N N b K act si so opts ns info) (hk : kind = .conv1D ∨ kind = .conv2D)
    (hb : b = rows.length) (hN : 0 < N) (hpos : 0 < rows.length)
    (hr : ∀ row ∈ rows, row.length = size ∧ ∀ i ∈ row, 0 ≤ i ∧ i < (ni : Int)) : l.WF ni (rows.length * N) := by
  have : ConvWF ns info ni (rows.length * N) := by
    refine ⟨?_, ?_, ?_, ?_, ?_⟩
    · rw [h.kidx, h.ksize]; simpa using hr
    · intro n hn
      have := (h.fresh n hn).wf
      rw [h.ksize, h.kidx]
      rw [hb] at this
      simpa using this
    · rw [h.kidx]; exact hpos
    · rw [h.kernels, Nat.mul_comm]
    · rw [h.kidx, h.length]
  refine ⟨h.inputs, ?_, Nat.mul_pos hpos hN⟩
  rw [h.body]
  rcases hk with rfl | rfl <;> exact this

theorem FilterBuilt.lc_wf {l : Layer F} {kind : FKind} {opt : Sgd F} {ni : Nat} {rows : List (List Int)} {size N nn K : Nat}
    {act : Act} {si so : List Int} {opts : List (LayerOptModel F)} {ns : List (Neuron F)} {info : FilterInfo}
    (h : FilterBuilt l kind opt (ni : Int) rows size N nn 1 K act si so opts ns info) (hnn : nn = rows.length * N)
    (hk : kind = .lc1D ∨ kind = .lc2D) (hN : 0 < N) (hpos : 0 < rows.length)
    (hr : ∀ row ∈ rows, row.length = size ∧ ∀ i ∈ row, i < (ni : Int)) : l.WF ni (rows.length * N) := by
  subst hnn
  have : LcWF kind ns info ni (rows.length * N) := by
    refine ⟨?_, ?_, ?_, ?_, ?_, ?_, ?_, ?_⟩
    · rw [h.kidx, h.ksize]; simpa using hr
    · intro n hn
      have := (h.fresh n hn).wf
      rw [h.ksize]
      simpa using this
    · rw [h.filters]; omega
    · rw [h.perFilter, h.kidx]
    · have := h.small; rw [Nat.mul_comm]; exact this
    · rw [h.kernels, Nat.mul_comm]
    · rw [h.kidx, h.length, h.filters]; simp
    · rw [h.length]
  refine ⟨h.inputs, ?_, Nat.mul_pos hpos hN⟩
  rw [h.body]
  rcases hk with rfl | rfl <;> exact this

theorem PoolBuilt.wf {l : Layer F} {twoD : Bool} {ni : Nat} {rows : List (List Int)} {size C K : Nat}
    {si so : List Int} {info : FilterInfo} (h : PoolBuilt l twoD (ni : Int) rows size C K si so info) (hni : 0 < ni)
    (hpos : 0 < rows.length)
    (hr : ∀ row ∈ rows, row.length = size ∧ (∀ i ∈ row, i < (ni : Int)) ∧ ∃ i ∈ row, 0 ≤ i) : l.WF ni rows.length := by
  obtain ⟨o, m, hb, ho, hm⟩ := h.body
  have : PoolWF info o m ni rows.length := by
    refine ⟨?_, h.kernels, by rw [h.kidx], ho, by rw [hm]; simp, ?_⟩
    · rw [h.kidx, h.ksize]; simpa using hr
    · intro i hi
      rw [hm] at hi
      have := List.eq_of_mem_replicate hi
      omega
  refine ⟨h.inputs, ?_, hpos⟩
  rw [hb]
  exact this

theorem buildConvolution1D_wf {opt : Sgd F} {C X K N : Nat} {act : Act} {opts : List (LayerOptModel F)} {d d' : Draws F}
    {l : Layer F} {shape : List Int} (hs : normalizeShape shape = [(C : Int), (X : Int)]) (hN : 0 < N)
    (h : buildConvolution opt ((C * X : Nat) : Int) shape (N : Int) (K : Int) act opts d = .ok (l, d')) :
    l.WF (C * X) ((X - K + 1) * N) := by
  obtain ⟨hKX, ns, info, hb⟩ := buildConvolution1D_inv hs hN h
  have := hb.conv_wf (Or.inl rfl) (by simp) hN (by simp) (by
    intro row hrow
    simp only [List.mem_map, List.mem_range] at hrow
    obtain ⟨p, hp, rfl⟩ := hrow
    exact ⟨conv1DRow_length _ _ _, conv1DRow_bound hp hKX⟩)
  simpa using this

theorem buildConvolution2D_wf {opt : Sgd F} {C X Y K N : Nat} {act : Act} {opts : List (LayerOptModel F)} {d d' : Draws F}
    {l : Layer F} (hN : 0 < N)
    (h : buildConvolution opt ((C * X * Y : Nat) : Int) [(C : Int), (X : Int), (Y : Int)] (N : Int) (K : Int) act opts d = .ok (l, d')) :
    l.WF (C * X * Y) ((X - K + 1) * (Y - K + 1) * N) := by
  obtain ⟨hKX, hKY, ns, info, hb⟩ := buildConvolution2D_inv hN h
  have := hb.conv_wf (Or.inr rfl) (by simp) hN (by simp) (by
    intro row hrow
    simp only [List.mem_map, List.mem_range] at hrow
    obtain ⟨p, hp, rfl⟩ := hrow
    exact ⟨conv2DRow_length _ _ _ _ _, conv2DRow_bound hp hKX hKY⟩)
  simpa using this

theorem buildLocally1D_wf {opt : Sgd F} {ni C X K N : Nat} {act : Act} {opts : List (LayerOptModel F)} {d d' : Draws F}
    {l : Layer F} {shape : List Int} (hs : normalizeShape shape = [(C : Int), (X : Int)]) (hN : 0 < N)
    (h : buildLocallyConnected opt (ni : Int) shape (N : Int) (K : Int) act opts d = .ok (l, d')) :
    l.WF ni (Spec.ceil X K * N) := by
  obtain ⟨hKX, hK, ns, info, hb⟩ := buildLocally1D_inv hs hN h
  have e : ((List.range (Spec.ceil X K)).map (lc1DRow C K ni)).length = Spec.ceil X K := by simp
  have := hb.lc_wf (by rw [e]) (Or.inl rfl) hN (by rw [e]; exact ceil_pos hK (by omega)) (by
    intro row hrow
    simp only [List.mem_map, List.mem_range] at hrow
    obtain ⟨p, hp, rfl⟩ := hrow
    exact ⟨lc1DRow_length _ _ _ _, lc1DRow_bound⟩)
  rwa [e] at this

theorem buildLocally2D_wf {opt : Sgd F} {ni C X Y K N : Nat} {act : Act} {opts : List (LayerOptModel F)} {d d' : Draws F}
    {l : Layer F} (hN : 0 < N)
    (h : buildLocallyConnected opt (ni : Int) [(C : Int), (X : Int), (Y : Int)] (N : Int) (K : Int) act opts d = .ok (l, d')) :
    l.WF ni (Spec.ceil X K * Spec.ceil Y K * N) := by
  obtain ⟨hKX, hKY, hK, ns, info, hb⟩ := buildLocally2D_inv hN h
  have e : ((List.range (Spec.ceil X K * Spec.ceil Y K)).map (lc2DRow C X K (Spec.ceil X K) (Spec.ceil Y K) ni)).length =
    Spec.ceil X K * Spec.ceil Y K := by simp
  have := hb.lc_wf (by rw [e]) (Or.inr rfl) hN
    (by rw [e]; exact Nat.mul_pos (ceil_pos hK (by omega)) (ceil_pos hK (by omega))) (by
    intro row hrow
    simp only [List.mem_map, List.mem_range] at hrow
    obtain ⟨p, hp, rfl⟩ := hrow
    exact ⟨lc2DRow_length _ _ _ _ _ _ _, lc2DRow_bound⟩)
  rwa [e] at this

theorem pool1DRow_pos {C X K p : Nat} (hC : 0 < C) (hK : 0 < K) (hp : p < C * Spec.ceil X K) : ∃ i ∈ pool1DRow C K (C * X) p, 0 ≤ i := by
  have h1 : p / C < Spec.ceil X K := by rw [Nat.div_lt_iff_lt_mul hC, Nat.mul_comm]; exact hp
  have h2 := ceil_mul_lt hK h1
  have h3 := idx_lt (c := p % C) h2 (Nat.mod_lt _ hC)
  refine ⟨_, List.mem_map.2 ⟨0, List.mem_range.2 hK, rfl⟩, ?_⟩
  simp only [Nat.add_zero]
  rw [if_pos (by rw [Nat.mul_comm C X]; exact h3)]
  omega

/-- A pooling layer of one dimension with C channels has `⌈X/K⌉` outputs, not `C * ⌈X/K⌉`. -/
theorem buildPool1D_wf {C X K : Nat} {l : Layer F} {shape : List Int} (hs : normalizeShape shape = [(C : Int), (X : Int)])
    (hC : 0 < C) (h : buildMaxPooling ((C * X : Nat) : Int) shape (K : Int) = .ok l) : l.WF (C * X) (Spec.ceil X K) := by
  obtain ⟨hKX, hK, info, hb⟩ := buildPool1D_inv hs h
  have e : ((List.range (Spec.ceil X K)).map (pool1DRow C K (C * X))).length = Spec.ceil X K := by simp
  have := hb.wf (Nat.mul_pos hC (by omega)) (by rw [e]; exact ceil_pos hK (by omega)) (by
    intro row hrow
    simp only [List.mem_map, List.mem_range] at hrow
    obtain ⟨p, hp, rfl⟩ := hrow
    exact ⟨pool1DRow_length _ _ _ _, pool1DRow_bound, pool1DRow_pos hC hK (by
      have : 1 * Spec.ceil X K ≤ C * Spec.ceil X K := Nat.mul_le_mul_right _ hC
      omega)⟩)
  rwa [e] at this

theorem pool2DRow_pos {C X Y K p outX outY : Nat} (hC : 0 < C) (hK : 0 < K) (hx : p / C % outX * K < X) (hy : p / C / outY * K < Y) :
    ∃ i ∈ pool2DRow C X K outX outY (C * X * Y) p, 0 ≤ i := by
  refine ⟨_, List.mem_flatMap.2 ⟨0, List.mem_range.2 hK, List.mem_map.2 ⟨0, List.mem_range.2 hK, rfl⟩⟩, ?_⟩
  have h3 := idx_lt (c := p % C) hx (Nat.mod_lt _ hC)
  have h4 := idx_lt (c := p / C % outX * K) hy hx
  have h5 := idx_lt (c := p % C) h4 (Nat.mod_lt _ hC)
  simp only [Nat.add_zero]
  rw [if_pos ⟨h3, by
    have e1 : C * X * Y = Y * X * C := by ring
    have e2 : p / C / outY * K * X * C + p / C % outX * K * C + p % C = (p / C / outY * K * X + p / C % outX * K) * C + p % C := by ring
    rw [e1, e2]; exact h5⟩]
  omega

/-- A pooling layer of two dimensions works when it has at most as many tiles in x as in y. -/
theorem buildPool2D_wf {C X Y K : Nat} {l : Layer F} (hC : 0 < C) (hXY : Spec.ceil X K ≤ Spec.ceil Y K)
    (h : buildMaxPooling ((C * X * Y : Nat) : Int) [(C : Int), (X : Int), (Y : Int)] (K : Int) = .ok l) :
    l.WF (C * X * Y) (C * Spec.ceil X K * Spec.ceil Y K) := by
  obtain ⟨hKX, hKY, hK, info, hb⟩ := buildPool2D_inv h
  have e : ((List.range (C * Spec.ceil X K * Spec.ceil Y K)).map (pool2DRow C X K (Spec.ceil X K) (Spec.ceil Y K) (C * X * Y))).length =
    C * Spec.ceil X K * Spec.ceil Y K := by simp
  have px := ceil_pos hK (show 0 < X by omega)
  have py := ceil_pos hK (show 0 < Y by omega)
  have := hb.wf (Nat.mul_pos (Nat.mul_pos hC (by omega)) (by omega)) (by rw [e]; exact Nat.mul_pos (Nat.mul_pos hC px) py) (by
    intro row hrow
    simp only [List.mem_map, List.mem_range] at hrow
    obtain ⟨p, hp, rfl⟩ := hrow
    refine ⟨pool2DRow_length _ _ _ _ _ _ _, pool2DRow_bound, pool2DRow_pos hC hK (ceil_mul_lt hK (Nat.mod_lt _ px)) (ceil_mul_lt hK ?_)⟩
    have h1 : p / C < Spec.ceil X K * Spec.ceil Y K := by
      rw [Nat.div_lt_iff_lt_mul hC]
      have e : Spec.ceil X K * Spec.ceil Y K * C = C * Spec.ceil X K * Spec.ceil Y K := by ring
      rw [e]; exact hp
    have h2 : p / C / Spec.ceil Y K < Spec.ceil X K := by
      rw [Nat.div_lt_iff_lt_mul py]; exact h1
    omega)
  rwa [e] at this

end

end Snn
