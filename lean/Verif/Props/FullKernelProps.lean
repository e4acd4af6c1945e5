import Verif.Proofs.GLayer
import Verif.Proofs.NetBuild
import Verif.Spec.FullKernelSpec
import Verif.Demo.Demo

/-!
# C78: a convolution whose kernel covers its input is a locally connected layer

For every carrier, hence also for floats: no arithmetic law is used.
-/

set_option linter.all false

namespace Snn.FullKernelProps

open Snn.Spec
open Snn.TrainProps

/-- The locally connected layer with the dimensions of a convolution. -/
def lcKind : FKind → FKind
  | .conv1D => .lc1D
  | .conv2D => .lc2D
  | k => k

/-- One row of non negative indexes. -/
structure OneRow (N : Nat) (info : FilterInfo) : Prop where
  row : ∃ r, info.kernelIndexes = [r] ∧ ∀ i ∈ r, 0 ≤ i
  filters : info.numberOfFilters = (N : Int)
  perFilter : info.numberOfKernelsPerFilter = 1
  small : N ≤ 2147483647

section
variable {F : Type} [Flt F] [FTrans F] [Add F] [Sub F] [Mul F] [Div F] [Neg F]

/-- The locally connected layer with the neurons of a convolution. -/
def toLocally (l : Layer F) : Layer F :=
  match l.body with
  | .filter k ns info => { l with body := .filter (lcKind k) ns info }
  | _ => l

/-- The same layer, or a convolution with one position and the locally connected layer. -/
def LSim (l m : Layer F) : Prop :=
  m = l ∨ ∃ k ns info, (k = .conv1D ∨ k = .conv2D) ∧ l.body = .filter k ns info ∧ m = { l with body := .filter (lcKind k) ns info } ∧
    OneRow ns.length info

theorem gather_pad (x : List F) : ∀ (k : Nat) (r : List Int), (∀ i ∈ r, 0 ≤ i) → gatherPad x k r = gather x k r
  | 0, r, _ => by unfold gatherPad gather; rfl
  | k + 1, [], _ => rfl
  | k + 1, i :: r, h => by
    unfold gatherPad gather
    rw [if_pos (h i (by simp))]
    simp only [gather_pad x k r (fun j hj => h j (by simp [hj]))]

theorem scatter_pad : ∀ (r : List Int) (es errors : List F), (∀ i ∈ r, 0 ≤ i) → scatterPad r es errors = scatter r es errors
  | r, [], errors, _ => by cases r <;> rfl
  | [], e :: es, errors, _ => rfl
  | i :: r, e :: es, errors, h => by
    unfold scatterPad scatter
    rw [if_pos (h i (by simp))]
    simp only [scatter_pad r es _ (fun j hj => h j (by simp [hj]))]

theorem run_length {N : Type} {f : N → Res (F × N)} : ∀ {ns ns' : List N} {os : List F}, runNeurons f ns = .ok (os, ns') → ns'.length = ns.length
  | [], ns', os, h => by cases h; rfl
  | n :: ns, ns', os, h => by
    unfold runNeurons at h
    obtain ⟨⟨o, n1⟩, _, h⟩ := Res.bind_eq_ok.1 h
    obtain ⟨⟨os1, ns1⟩, h1, h⟩ := Res.bind_eq_ok.1 h
    cases h
    simp [run_length h1]

theorem train_length {N : Type} {f : N → F → Res N} : ∀ {ns ns' : List N} {es : List F}, trainNeurons f ns es = .ok ns' → ns'.length = ns.length
  | [], ns', es, h => by cases h; rfl
  | n :: ns, ns', [], h => by cases h
  | n :: ns, ns', e :: es, h => by
    unfold trainNeurons at h
    obtain ⟨n1, _, h⟩ := Res.bind_eq_ok.1 h
    obtain ⟨ns1, h1, h⟩ := Res.bind_eq_ok.1 h
    cases h
    simp [train_length h1]

theorem back_length {row : List Int} : ∀ {ns ns' : List (Neuron F)} {es errors r : List F}, convBackRow row ns es errors = .ok (r, ns') →
    ns'.length = ns.length
  | [], ns', es, errors, r, h => by cases es <;> cases h <;> rfl
  | n :: ns, ns', [], errors, r, h => by cases h
  | n :: ns, ns', e :: es, errors, r, h => by
    unfold convBackRow at h
    obtain ⟨⟨e1, n1⟩, _, h⟩ := Res.bind_eq_ok.1 h
    obtain ⟨e2, _, h⟩ := Res.bind_eq_ok.1 h
    obtain ⟨⟨e3, ns1⟩, h1, h⟩ := Res.bind_eq_ok.1 h
    cases h
    simp [back_length h1]

theorem lcBack_row {rowOf : Nat → Res (List Int)} {row : List Int} {N : Nat} (hrow : ∀ i < N, rowOf i = .ok row) (hr : ∀ i ∈ row, 0 ≤ i) :
    ∀ (i : Nat) (ns : List (Neuron F)) (es errors : List F), i + ns.length ≤ N → lcBack rowOf i ns es errors = convBackRow row ns es errors
  | i, [], es, errors, _ => by cases es <;> rfl
  | i, n :: ns, [], errors, _ => rfl
  | i, n :: ns, e :: es, errors, h => by
    simp only [List.length_cons] at h
    unfold lcBack convBackRow
    refine congrArg _ (funext fun p => ?_)
    simp only
    rw [hrow i (by omega)]
    simp only [Res.ok_bind]
    rw [scatter_pad _ _ _ hr]
    refine congrArg _ (funext fun q => ?_)
    rw [lcBack_row hrow hr (i + 1) ns es q (by omega)]

theorem body_output {k : FKind} {ns : List (Neuron F)} {info : FilterInfo} (hk : k = .conv1D ∨ k = .conv2D) (h : OneRow ns.length info)
    (x : List F) (t : Bool) :
    Res.Rel (fun p q => q.1 = p.1 ∧ ∃ ns', p.2 = .filter k ns' info ∧ q.2 = .filter (lcKind k) ns' info ∧ ns'.length = ns.length)
      (Body.computeOutput (.filter k ns info) x t) (Body.computeOutput (.filter (lcKind k) ns info) x t) := by
  obtain ⟨r, hr, hpos⟩ := h.row
  have e1 : convOutputs x info.sizeOfNeuronInputs.toNat info.kernelIndexes ns
      = gather x info.sizeOfNeuronInputs.toNat r >>= fun y => runNeurons (fun n => n.output y) ns := by
    rw [hr]
    unfold convOutputs
    refine congrArg _ (funext fun y => ?_)
    cases runNeurons (fun n => Neuron.output n y) ns with
    | ok p => simp [convOutputs]
    | throw m => rfl
    | ub m => rfl
  have e2 : lcOutputs x info.sizeOfNeuronInputs.toNat info.numberOfFilters.toNat info.kernelIndexes ns
      = gather x info.sizeOfNeuronInputs.toNat r >>= fun y => runNeurons (fun n => n.output y) ns := by
    rw [hr, h.filters]
    unfold lcOutputs
    rw [gather_pad _ _ _ hpos]
    refine congrArg _ (funext fun y => ?_)
    simp only [Int.toNat_natCast, lt_irrefl, if_false, List.take_length, List.drop_length]
    cases runNeurons (fun n => Neuron.output n y) ns with
    | ok p => simp [lcOutputs]
    | throw m => rfl
    | ub m => rfl
  have key : ∀ (kk : FKind) (y : Res (List F × List (Neuron F))),
      y = (gather x info.sizeOfNeuronInputs.toNat r >>= fun y => runNeurons (fun n => n.output y) ns) →
      Res.Rel (fun p q => q.1 = p.1 ∧ ∃ ns', p.2 = .filter k ns' info ∧ q.2 = .filter kk ns' info ∧ ns'.length = ns.length)
      (y >>= fun p => fillOutputs info.numberOfKernels p.1 >>= fun o => pure (o, Body.filter k p.2 info))
      (y >>= fun p => fillOutputs info.numberOfKernels p.1 >>= fun o => pure (o, Body.filter kk p.2 info)) := by
    intro kk y hy
    refine G.relBind (Res.Rel.eq (β := List F × List (Neuron F))) ?_
    rintro ⟨os, ns'⟩ _ he rfl
    refine Res.Rel.bind (Res.Rel.eq (β := List F)) ?_
    rintro o _ rfl
    refine ⟨rfl, ns', rfl, rfl, ?_⟩
    rw [hy] at he
    obtain ⟨z, _, he⟩ := Res.bind_eq_ok.1 he
    exact run_length he
  rcases hk with rfl | rfl
  · have := key .lc1D _ rfl
    simp only [Body.computeOutput, lcKind, e1, e2]
    exact this
  · have := key .lc2D _ rfl
    simp only [Body.computeOutput, lcKind, e1, e2]
    exact this

theorem body_back {k : FKind} {ns : List (Neuron F)} {info : FilterInfo} (hk : k = .conv1D ∨ k = .conv2D) (h : OneRow ns.length info)
    (ni : Int) (es : List F) :
    Res.Rel (fun p q => q.1 = p.1 ∧ ∃ ns', p.2 = .filter k ns' info ∧ q.2 = .filter (lcKind k) ns' info ∧ ns'.length = ns.length)
      (Body.computeBackOutput (.filter k ns info) ni es) (Body.computeBackOutput (.filter (lcKind k) ns info) ni es) := by
  obtain ⟨r, hr, hpos⟩ := h.row
  have hsm := h.small
  have e1 : ∀ errors, convBack info.kernelIndexes ns es errors = convBackRow r ns es errors := by
    intro errors
    rw [hr]
    unfold convBack
    cases convBackRow r ns es errors with
    | ok p => simp [convBack]
    | throw m => rfl
    | ub m => rfl
  have hrow : ∀ i < ns.length, lcRow (lcKind k) info i = .ok r := by
    intro i hi
    rcases hk with rfl | rfl
    · simp only [lcRow, lcKind, h.perFilter, modI]
      rw [if_neg (by decide), Int.tmod_one, ckInt_ok (by omega) (by omega)]
      simp [hr, rd]
    · simp only [lcRow, lcKind, h.filters, divI]
      rw [if_neg (by omega), Int.tdiv_eq_zero_of_lt (by omega) (by omega), ckInt_ok (by omega) (by omega)]
      simp [hr, rd]
  have e2 : ∀ errors, lcBack (lcRow (lcKind k) info) 0 ns es errors = convBackRow r ns es errors :=
    fun errors => lcBack_row hrow hpos 0 ns es errors (by omega)
  have key : ∀ (kk : FKind),
      Res.Rel (fun p q => q.1 = p.1 ∧ ∃ ns', p.2 = .filter k ns' info ∧ q.2 = .filter kk ns' info ∧ ns'.length = ns.length)
      ((zeroErrors ni : Res (List F)) >>= fun errors => convBackRow r ns es errors >>= fun p => pure (p.1, Body.filter k p.2 info))
      ((zeroErrors ni : Res (List F)) >>= fun errors => convBackRow r ns es errors >>= fun p => pure (p.1, Body.filter kk p.2 info)) := by
    intro kk
    refine Res.Rel.bind (Res.Rel.eq (β := List F)) ?_
    rintro errors _ rfl
    refine G.relBind (Res.Rel.eq (β := List F × List (Neuron F))) ?_
    rintro ⟨os, ns'⟩ _ he rfl
    exact ⟨rfl, ns', rfl, rfl, back_length he⟩
  rcases hk with rfl | rfl
  · have := key .lc1D
    simp only [lcKind] at e2
    simp only [Body.computeBackOutput, lcKind, e1, e2]
    exact this
  · have := key .lc2D
    simp only [lcKind] at e2
    simp only [Body.computeBackOutput, lcKind, e1, e2]
    exact this

theorem layerSim : G.LayerSim (LSim (F := F)) where
  inputs := by
    rintro l m (rfl | ⟨k, ns, info, hk, hl, rfl, h⟩) <;> rfl
  weights := by
    rintro l m (rfl | ⟨k, ns, info, hk, hl, rfl, h⟩)
    · rfl
    · simp [hl, Body.weights]
  valid := by
    rintro l m (rfl | ⟨k, ns, info, hk, hl, rfl, h⟩)
    · rfl
    · unfold Layer.isValid
      rcases hk with rfl | rfl <;> simp only [hl, lcKind]
  output := by
    rintro l m x t (rfl | ⟨k, ns, info, hk, hl, rfl, h⟩)
    · exact Layer.rel_refl (fun p => ⟨rfl, .inl rfl⟩) _
    · unfold Layer.output
      rw [hl]
      simp only
      refine Res.Rel.bind (body_output hk h x t) ?_
      rintro ⟨y, b⟩ ⟨_, b'⟩ ⟨rfl, ns', e1, e2, hn⟩
      simp only at e1 e2 ⊢
      subst e1 e2
      refine Res.Rel.bind (Res.Rel.eq (β := List F)) ?_
      rintro z _ rfl
      exact ⟨rfl, .inr ⟨k, ns', info, hk, rfl, rfl, by rw [hn]; exact h⟩⟩
  training := by
    rintro l m x t d (rfl | ⟨k, ns, info, hk, hl, rfl, h⟩)
    · exact Layer.rel_refl (fun p => ⟨rfl, .inl rfl, rfl⟩) _
    · unfold Layer.outputForTraining
      rw [hl]
      simp only
      refine Res.Rel.bind (body_output hk h x t) ?_
      rintro ⟨y, b⟩ ⟨_, b'⟩ ⟨rfl, ns', e1, e2, hn⟩
      simp only at e1 e2 ⊢
      subst e1 e2
      refine Res.Rel.bind (Res.Rel.eq (β := List F × List (LayerOpt F) × Draws F)) ?_
      rintro z _ rfl
      exact ⟨rfl, .inr ⟨k, ns', info, hk, rfl, rfl, by rw [hn]; exact h⟩, rfl⟩
  back := by
    rintro l m es (rfl | ⟨k, ns, info, hk, hl, rfl, h⟩)
    · exact Layer.rel_refl (fun p => ⟨rfl, .inl rfl⟩) _
    · unfold Layer.backOutput
      rw [hl]
      simp only
      refine Res.Rel.bind (body_back hk h _ _) ?_
      rintro ⟨y, b⟩ ⟨_, b'⟩ ⟨rfl, ns', e1, e2, hn⟩
      simp only at e1 e2 ⊢
      subst e1 e2
      exact ⟨rfl, .inr ⟨k, ns', info, hk, rfl, rfl, by rw [hn]; exact h⟩⟩
  train := by
    rintro l m es (rfl | ⟨k, ns, info, hk, hl, rfl, h⟩)
    · exact Layer.rel_refl (fun p => .inl rfl) _
    · unfold Layer.train
      rw [hl]
      simp only [Body.computeTrain]
      refine Res.Rel.bind (R := fun b b' => ∃ ns', b = .filter k ns' info ∧ b' = .filter (lcKind k) ns' info ∧ ns'.length = ns.length) ?_ ?_
      · refine G.relBind (Res.Rel.eq (β := List (Neuron F))) ?_
        rintro ns' _ he rfl
        exact ⟨ns', rfl, rfl, train_length he⟩
      · rintro _ _ ⟨ns', rfl, rfl, hn⟩
        exact .inr ⟨k, ns', info, hk, rfl, rfl, by rw [hn]; exact h⟩

/-! ### Construction -/

theorem entries1D (c k : Nat) : lc1DEntries (c : Int) (k : Int) ((c * k : Nat) : Int) 0 = conv1DEntries (c : Int) (k : Int) 0 := by
  unfold lc1DEntries conv1DEntries
  simp only [Int.toNat_natCast]
  refine List.flatMap_congr fun x hx => List.map_congr_left fun i hi => ?_
  rw [List.mem_range] at hx hi
  have h := idx_lt hx hi
  have e : (((0 : Nat) : Int) * (k : Int) + (x : Int)) * (c : Int) + (i : Int) = ((x * c + i : Nat) : Int) := by push_cast; ring
  rw [e, Prod.mk.injEq]
  refine ⟨by push_cast; ring, ?_⟩
  rw [decide_eq_true_iff]
  rw [Nat.mul_comm k c] at h
  exact_mod_cast h

theorem entries2D (c k : Nat) : lc2DEntries (c : Int) (k : Int) (k : Int) 1 1 ((c * k * k : Nat) : Int) 0 = conv2DEntries (c : Int) (k : Int) (k : Int) 1 0 := by
  unfold lc2DEntries conv2DEntries
  simp only [Int.toNat_natCast, Int.tmod_one, Int.tdiv_one]
  refine List.flatMap_congr fun y hy => List.flatMap_congr fun x hx => List.map_congr_left fun i hi => ?_
  rw [List.mem_range] at hy hx hi
  have h := idx_lt hx hi
  have h2 := idx_lt hy h
  rw [Prod.mk.injEq]
  refine ⟨by push_cast; ring, ?_⟩
  rw [decide_eq_true_iff]
  constructor
  · have e : (0 * (k : Int) + (x : Int)) * (c : Int) + (i : Int) = ((x * c + i : Nat) : Int) := by push_cast; ring
    rw [e]
    exact_mod_cast h
  · have e : (((0 : Nat) : Int) * (k : Int) + (y : Int)) * (k : Int) * (c : Int) + (0 * (k : Int) + (x : Int)) * (c : Int) + (i : Int)
        = ((y * (k * c) + (x * c + i) : Nat) : Int) := by push_cast; ring
    have e2 : c * k * k = k * (k * c) := by ring
    rw [e, e2]
    exact_mod_cast h2

theorem ceilDiv_self {k : Nat} (hk : 0 < k) : ceilDiv (k : Int) (k : Int) = .ok 1 := by
  unfold ceilDiv modI divI
  rw [if_neg (by omega), if_neg (by omega), Int.tmod_self, Int.tdiv_self (by omega), ckInt_ok (by omega) (by omega), ckInt_ok (by omega) (by omega)]
  simp [addI, ckInt]

theorem mulI_one {f n : Int} (h : mulI f 1 = .ok n) : n = f := by
  unfold mulI ckInt at h
  split at h
  · cases h; ring
  · cases h

theorem divI_self {f n : Int} (h : divI f f = .ok n) : n = 1 := by
  unfold divI at h
  split at h
  · cases h
  · rename_i h0
    rw [Int.tdiv_self h0, ckInt_ok (by omega) (by omega)] at h
    cases h; rfl

theorem rows_pos {rows : List (List Int)} {size : Int} {entries : Nat → List (Int × Bool)} (h : buildRows 1 size entries = .ok rows)
    (hp : ∀ e ∈ entries 0, 0 ≤ e.1 ∧ e.2 = true) : ∃ r, rows = [r] ∧ ∀ i ∈ r, 0 ≤ i := by
  unfold buildRows at h
  rw [if_neg (by omega)] at h
  have hr : List.range (Int.toNat 1) = [0] := rfl
  rw [hr, List.mapM_cons, List.mapM_nil] at h
  obtain ⟨r, h1, h⟩ := Res.bind_eq_ok.1 h
  cases h
  refine ⟨r, rfl, ?_⟩
  obtain ⟨es, h2, h1⟩ := Res.bind_eq_ok.1 h1
  have hes : ∀ (l : List (Int × Bool)) (es : List Int), (∀ e ∈ l, 0 ≤ e.1 ∧ e.2 = true) → l.mapM storedIndex = .ok es → ∀ i ∈ es, 0 ≤ i := by
    intro l
    induction l with
    | nil => intro es _ h i hi; rw [List.mapM_nil] at h; cases h; simp at hi
    | cons e l ih =>
      intro es hl h i hi
      rw [List.mapM_cons] at h
      obtain ⟨a, ha, h⟩ := Res.bind_eq_ok.1 h
      obtain ⟨as, has, h⟩ := Res.bind_eq_ok.1 h
      cases h
      rcases List.mem_cons.1 hi with rfl | hi
      · unfold storedIndex at ha
        obtain ⟨v, hv, ha⟩ := Res.bind_eq_ok.1 ha
        have he := hl e (by simp)
        unfold ckInt at hv
        split at hv
        · cases hv
          cases ha
          rw [if_pos he.2]; exact he.1
        · cases hv
      · exact ih as (fun e he => hl e (by simp [he])) has i hi
  unfold fillRow at h1
  split at h1
  · cases h1
  · split at h1
    · cases h1
    · cases h1
      intro i hi
      rcases List.mem_append.1 hi with hi | hi
      · exact hes _ _ hp h2 i hi
      · rw [(List.mem_replicate.1 hi).2]

theorem entries1D_pos (c k : Nat) : ∀ e ∈ conv1DEntries (c : Int) (k : Int) 0, 0 ≤ e.1 ∧ e.2 = true := by
  intro e he
  unfold conv1DEntries at he
  simp only [List.mem_flatMap, List.mem_map] at he
  obtain ⟨x, _, i, _, rfl⟩ := he
  exact ⟨by positivity, rfl⟩

theorem entries2D_pos (c k : Nat) : ∀ e ∈ conv2DEntries (c : Int) (k : Int) (k : Int) 1 0, 0 ≤ e.1 ∧ e.2 = true := by
  intro e he
  unfold conv2DEntries at he
  simp only [List.mem_flatMap, List.mem_map, Int.tmod_one, Int.tdiv_one] at he
  obtain ⟨y, _, x, _, i, _, rfl⟩ := he
  exact ⟨by positivity, rfl⟩

theorem neurons_length {N : Type} {mk : Draws F → Res N} {per : Nat} : ∀ {k : Nat} {d d' : Draws F} {ns : List N},
    makeNeurons mk per k d = .ok (ns, d') → ns.length = k
  | 0, d, d', ns, h => by cases h; rfl
  | k + 1, d, d', ns, h => by
    unfold makeNeurons at h
    obtain ⟨n, _, h⟩ := Res.bind_eq_ok.1 h
    obtain ⟨⟨ns1, d1⟩, h1, h⟩ := Res.bind_eq_ok.1 h
    cases h
    simp [neurons_length h1]

theorem rows_congr {size : Int} {e e' : Nat → List (Int × Bool)} (h : e' 0 = e 0) : buildRows 1 size e' = buildRows 1 size e := by
  unfold buildRows
  have hr : List.range (Int.toNat 1) = [0] := rfl
  rw [hr, List.mapM_cons, List.mapM_cons, h]
  rfl

theorem swap1D_build (opt : Sgd F) {c k f : Nat} {shape : List Int} (hs : normalizeShape shape = [(c : Int), (k : Int)]) (hk : 0 < k)
    (hf : f ≤ 2147483647) (act : Act) (opts : List (LayerOptModel F)) (d : Draws F) :
    Res.Rel (fun p q => LSim p.1 q.1 ∧ p.1.getShapeOfOutput = [(f : Int), 1] ∧ q.2 = p.2)
      (buildConvolution opt ((c * k : Nat) : Int) shape f k act opts d) (buildLocallyConnected opt ((c * k : Nat) : Int) shape f k act opts d) := by
  unfold buildConvolution buildLocallyConnected
  rw [hs]
  simp only [gt_iff_lt, lt_irrefl, if_false]
  have h1 : ckInt ((k : Int) - ((k : Int) - 1)) = .ok 1 := by
    have : (k : Int) - ((k : Int) - 1) = 1 := by ring
    rw [this]; rfl
  rw [h1, ceilDiv_self hk]
  simp only [Res.ok_bind]
  refine G.relBind (Res.Rel.eq (β := Int)) ?_
  rintro n _ hn rfl
  have hn := mulI_one hn
  subst hn
  refine G.relBind (Res.Rel.eq (β := Int)) ?_
  rintro p _ hp rfl
  have hp := divI_self hp
  subst hp
  refine Res.Rel.bind (Res.Rel.eq (β := Int)) ?_
  rintro ni _ rfl
  refine Res.Rel.bind (Res.Rel.eq (β := Int)) ?_
  rintro nw _ rfl
  refine G.relBind (Res.Rel.eq (β := List (Neuron F) × Draws F)) ?_
  rintro ⟨ns, d1⟩ _ hns rfl
  have hl : ns.length = f := by
    unfold makeAllNeurons at hns
    rw [if_neg (by omega)] at hns
    simpa using neurons_length hns
  rw [rows_congr (entries1D c k)]
  refine G.relBind (Res.Rel.eq (β := List (List Int))) ?_
  rintro rows _ hrows rfl
  refine ⟨.inr ⟨.conv1D, ns, _, .inl rfl, rfl, rfl, rows_pos hrows (entries1D_pos c k), by simp [hl], rfl, by omega⟩, rfl, rfl⟩

theorem swap2D_build (opt : Sgd F) {c k f : Nat} (hk : 0 < k)
    (hf : f ≤ 2147483647) (act : Act) (opts : List (LayerOptModel F)) (d : Draws F) :
    Res.Rel (fun p q => LSim p.1 q.1 ∧ p.1.getShapeOfOutput = [(f : Int), 1, 1] ∧ q.2 = p.2)
      (buildConvolution opt ((c * k * k : Nat) : Int) [(c : Int), (k : Int), (k : Int)] f k act opts d)
      (buildLocallyConnected opt ((c * k * k : Nat) : Int) [(c : Int), (k : Int), (k : Int)] f k act opts d) := by
  unfold buildConvolution buildLocallyConnected
  have hs : normalizeShape [(c : Int), (k : Int), (k : Int)] = [(c : Int), (k : Int), (k : Int)] := rfl
  rw [hs]
  simp only [gt_iff_lt, lt_irrefl, or_self, if_false]
  have h1 : ckInt ((k : Int) - ((k : Int) - 1)) = .ok 1 := by
    have : (k : Int) - ((k : Int) - 1) = 1 := by ring
    rw [this]; rfl
  rw [h1, ceilDiv_self hk]
  simp only [Res.ok_bind]
  refine G.relBind (Res.Rel.eq (β := Int)) ?_
  rintro n _ hn rfl
  have hn := mulI_one hn
  subst hn
  refine G.relBind (Res.Rel.eq (β := Int)) ?_
  rintro n _ hn rfl
  have hn := mulI_one hn
  subst hn
  refine G.relBind (Res.Rel.eq (β := Int)) ?_
  rintro p _ hp rfl
  have hp := divI_self hp
  subst hp
  refine Res.Rel.bind (Res.Rel.eq (β := Int)) ?_
  rintro kk _ rfl
  refine Res.Rel.bind (Res.Rel.eq (β := Int)) ?_
  rintro ni _ rfl
  refine Res.Rel.bind (Res.Rel.eq (β := Int)) ?_
  rintro nw _ rfl
  refine G.relBind (Res.Rel.eq (β := List (Neuron F) × Draws F)) ?_
  rintro ⟨ns, d1⟩ _ hns rfl
  have hl : ns.length = f := by
    unfold makeAllNeurons at hns
    rw [if_neg (by omega)] at hns
    simpa using neurons_length hns
  rw [rows_congr (entries2D c k)]
  refine G.relBind (Res.Rel.eq (β := List (List Int))) ?_
  rintro rows _ hrows rfl
  refine ⟨.inr ⟨.conv2D, ns, _, .inr rfl, rfl, rfl, rows_pos hrows (entries2D_pos c k), by simp [hl], rfl, by omega⟩, rfl, rfl⟩

theorem lsim_shape {l m : Layer F} (h : LSim l m) : m.getShapeOfOutput = l.getShapeOfOutput := by
  rcases h with rfl | ⟨k, ns, info, hk, hl, rfl, h⟩
  · rfl
  · unfold Layer.getShapeOfOutput
    rw [hl]

theorem layers_built (opt : Sgd F) {s : List Nat} {ms ms' : List (LayerModel F)} (h : Covering s ms ms') : GoodShape s → ∀ d : Draws F,
    Res.Rel (fun p q => List.Forall₂ LSim p.1 q.1 ∧ q.2 = p.2) (buildLayers opt ms (s.map fun v : Nat => (v : Int)) d)
      (buildLayers opt ms' (s.map fun v : Nat => (v : Int)) d) := by
  have hstep : ∀ {m m' : LayerModel F} {ms ms' : List (LayerModel F)} {s s' : List Nat} (d : Draws F),
      Res.Rel (fun p q => LSim p.1 q.1 ∧ p.1.getShapeOfOutput = (s'.map fun v : Nat => (v : Int)) ∧ q.2 = p.2)
        (buildLayer opt m (s.map fun v : Nat => (v : Int)) d) (buildLayer opt m' (s.map fun v : Nat => (v : Int)) d) →
      (∀ d, Res.Rel (fun p q => List.Forall₂ LSim p.1 q.1 ∧ q.2 = p.2) (buildLayers opt ms (s'.map fun v : Nat => (v : Int)) d)
        (buildLayers opt ms' (s'.map fun v : Nat => (v : Int)) d)) →
      Res.Rel (fun p q => List.Forall₂ LSim p.1 q.1 ∧ q.2 = p.2) (buildLayers opt (m :: ms) (s.map fun v : Nat => (v : Int)) d)
        (buildLayers opt (m' :: ms') (s.map fun v : Nat => (v : Int)) d) := by
    intro m m' ms ms' s s' d h1 h2
    unfold buildLayers
    refine Res.Rel.bind h1 ?_
    rintro ⟨l, d1⟩ ⟨l', _⟩ ⟨hl, hsh, rfl⟩
    simp only at hl hsh ⊢
    rw [lsim_shape hl, hsh]
    refine Res.Rel.bind (h2 _) ?_
    rintro ⟨ls, d2⟩ ⟨ls', _⟩ ⟨hls, rfl⟩
    exact ⟨.cons hl hls, rfl⟩
  induction h with
  | nil => exact fun _ d => ⟨.nil, rfl⟩
  | same hm hs' h ih =>
    intro hs d
    refine hstep d ?_ (ih hs')
    obtain ⟨l, d1, h1, hb⟩ := buildLayer_ok opt hm hs hs' d
    rw [h1]
    exact ⟨.inl rfl, hb.shape, rfl⟩
  | @swap1 f k act opts ms ms' hs' h ih =>
    intro hs d
    refine hstep d ?_ (ih hs')
    rw [buildLayer_start hs, buildLayer_start hs]
    have := swap1D_build opt (c := 1) (k := k) (f := f) (shape := [(k : Int)]) rfl (hs.pos k (by simp))
      (by have := goodShape_dim hs' (v := f) (by simp); omega) act opts d
    have e : ((1 * k : Nat) : Int) = (([k].prod : Nat) : Int) := by simp
    rw [e] at this
    exact this
  | @swap1D f k c act opts ms ms' hs' h ih =>
    intro hs d
    refine hstep d ?_ (ih hs')
    rw [buildLayer_start hs, buildLayer_start hs]
    have := swap1D_build opt (c := c) (k := k) (f := f) (shape := [(c : Int), (k : Int)]) rfl (hs.pos k (by simp))
      (by have := goodShape_dim hs' (v := f) (by simp); omega) act opts d
    have e : ((c * k : Nat) : Int) = (([c, k].prod : Nat) : Int) := by simp
    rw [e] at this
    exact this
  | @swap2D f k c act opts ms ms' hs' h ih =>
    intro hs d
    refine hstep d ?_ (ih hs')
    rw [buildLayer_start hs, buildLayer_start hs]
    have := swap2D_build opt (c := c) (k := k) (f := f) (hs.pos k (by simp))
      (by have := goodShape_dim hs' (v := f) (by simp); omega) act opts d
    have e : ((c * k * k : Nat) : Int) = (([c, k, k].prod : Nat) : Int) := by simp [Nat.mul_assoc]
    rw [e] at this
    exact this

theorem covering_length {s : List Nat} {ms ms' : List (LayerModel F)} (h : Covering s ms ms') : ms'.length = ms.length := by
  induction h <;> simp [*]

/-- **C78**. Replacing, anywhere in an architecture, a convolution whose kernel has the size of its input by a locally connected layer
changes nothing: both constructors fail in the same way, or the two networks (made with the same random numbers) cannot be told apart by
any sequence of calls, trainings included, and always have the same weights. -/
theorem C78_covering (opt : Sgd F) {s : List Nat} {ms ms' : List (LayerModel F)} (h : Covering s ms ms') (hs : GoodShape s) (d : Draws F) :
    Res.Rel (fun p q => SameBehaviour (fun _ => True) (fun _ => True) p.1 q.1 ∧ q.2 = p.2)
      (Snn.make (.input (s.map fun v : Nat => (v : Int)) :: ms) opt d) (Snn.make (.input (s.map fun v : Nat => (v : Int)) :: ms') opt d) := by
  refine G.make_same layerSim ?_
  unfold LayerFactory.build
  simp only [List.length_cons, covering_length h]
  split
  · rfl
  · split
    · rfl
    · refine Res.Rel.bind (Res.Rel.eq (β := Int)) ?_
      rintro ni _ rfl
      split
      · rfl
      · exact layers_built opt h hs d

end

/-! ### The hypotheses are met -/

/-- Two convolutions of which the second covers its input. -/
def coverArch : List (LayerModel ℚ) :=
  [.input [2, 3, 3], .convolution 2 2 .relu [], .convolution 2 2 .identity [.l2 (1/10)], .fullyConnected 2 .identity []]
/-- The second convolution replaced. -/
def coverArch' : List (LayerModel ℚ) :=
  [.input [2, 3, 3], .convolution 2 2 .relu [], .locallyConnected 2 2 .identity [.l2 (1/10)], .fullyConnected 2 .identity []]

example : Covering [2, 3, 3] coverArch.tail coverArch'.tail ∧ GoodShape [2, 3, 3] := by
  refine ⟨.same (s' := [2, 2, 2]) (.convolution2D (f := 2) (k := 2) (c := 2) (x := 3) (y := 3) (by decide) (by decide) (by decide) (by decide)) ⟨by simp, by simp, by decide⟩
    (.swap2D (f := 2) (k := 2) (c := 2) ⟨by simp, by simp, by decide⟩ (.same (s' := [2]) (.fullyConnected (n := 2) (by decide)) ⟨by simp, by simp, by decide⟩ .nil)),
    ⟨by simp, by simp, by decide⟩⟩

/-- The two networks are made, answer and train. -/
def cover : Snn ℚ := (Snn.make coverArch Demo.sgd Demo.draws |>.get (by decide +kernel)).1
/-- The other one. -/
def cover' : Snn ℚ := (Snn.make coverArch' Demo.sgd Demo.draws |>.get (by decide +kernel)).1
/-- Data for them. -/
def coverData : Data ℚ :=
  (Data.make1 .regression [List.replicate 18 1, (List.range 18).map fun i => (i : ℚ) / 18] [[1, 0], [0, 1]] .nonTemporal 0).get (by decide +kernel)

example : (HistoryProps.Call.run (Demo.run cover coverData) (.train Demo.env coverData (litEp 1) 1 1 100)).isOk = true ∧
    (HistoryProps.Call.run (Demo.run cover' coverData) (.train Demo.env coverData (litEp 1) 1 1 100)).isOk = true := by
  decide +kernel

end Snn.FullKernelProps
