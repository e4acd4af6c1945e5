import Verif.Proofs.BoundedNet
import Verif.Props.SafeProps

/-! Magnitudes in single precision: data, training, evaluation and calls. -/

set_option linter.all false

namespace Snn.Bounded

open B32 Spec FloatProps HistoryProps TrainProofs

section
variable {F : Type} [Flt F] [FTrans F] [Add F] [Sub F] [Mul F] [Div F] [Neg F]

/-- An invariant of the network and the data that the steps of a training keep is kept by `train`. -/
theorem train_induct_data {env : Env F} {b : Int} (P : Net F → Data F → Prop)
    (hshuf : ∀ n d d' (g : Rng), P n d → d.shuffle g = .ok d' → P n d')
    (hstep : ∀ (r r' : Run F) ret, P r.snn.net r.data → r.trainStep env b = .ok (ret, r') → P r'.snn.net r'.data)
    (heval : ∀ (r r' : Run F), P r.snn.net r.data → r.evaluate env = .ok r' → P r'.snn.net r'.data)
    {wait : Wait F} {ef : Int} {fuel : Nat} {r r' : Run F} (h0 : P r.snn.net r.data)
    (h : r.train env wait b ef fuel = .ok r') : P r'.snn.net r'.data := by
  have hloop : ∀ {fuel : Nat} {q q' : Run F} {ret : Bool}, P q.snn.net q.data → stepLoop env wait b fuel q = .ok (ret, q') →
      P q'.snn.net q'.data := by
    intro fuel
    induction fuel with
    | zero => intro q q' ret _ hq; cases hq
    | succ fuel ih =>
      intro q q' ret hp hq
      unfold stepLoop at hq
      split at hq
      · unfold Run.continueTraining at hq
        simp only at hq
        split at hq
        · obtain ⟨⟨ret1, r2⟩, h1, hq⟩ := Res.bind_eq_ok.1 hq
          have hp2 := hstep _ _ _ (by exact hp) h1
          simp only at hq
          cases hr : ret1
          · rw [hr] at hq
            simp only [Bool.false_eq_true, if_false] at hq
            exact ih (by exact hp2) hq
          · rw [hr] at hq
            simp only [if_true] at hq
            cases hq; exact hp2
        · cases hq; exact hp
      · cases hq; exact hp
  have hepoch : ∀ {q q' : Run F} {ret : Bool}, P q.snn.net q.data → q.epochBody env wait b ef fuel = .ok (ret, q') →
      P q'.snn.net q'.data := by
    intro q q' ret hp hq
    unfold Run.epochBody at hq
    obtain ⟨ds, hds, hq⟩ := Res.bind_eq_ok.1 hq
    obtain ⟨⟨ret1, r2⟩, h1, hq⟩ := Res.bind_eq_ok.1 hq
    have hp2 := hloop (by exact hshuf _ _ _ _ hp hds) h1
    simp only at hq
    split at hq
    · cases hq; exact hp2
    · split at hq
      · obtain ⟨r3, h3, hq⟩ := Res.bind_eq_ok.1 hq
        cases hq
        exact heval _ _ hp2 h3
      · cases hq; exact hp2
  have hepochs : ∀ {k : Nat} {q q' : Run F} {ret : Bool}, P q.snn.net q.data →
      epochLoop env wait b ef fuel k q = .ok (ret, q') → P q'.snn.net q'.data := by
    intro k
    induction k with
    | zero => intro q q' ret _ hq; cases hq
    | succ k ih =>
      intro q q' ret hp hq
      unfold epochLoop at hq
      unfold Run.continueTraining at hq
      simp only at hq
      split at hq
      · obtain ⟨⟨ret1, r2⟩, h1, hq⟩ := Res.bind_eq_ok.1 hq
        have hp2 := hepoch (by exact hp) h1
        simp only at hq
        split at hq
        · cases hq; exact hp2
        · exact ih (by exact hp2) hq
      · cases hq; exact hp
  obtain ⟨hb, hi, r1, r2, h1, h2, rfl⟩ := TrainProps.train_pieces h
  have hp1 : P r1.snn.net r1.data := by
    split at h1
    · exact heval _ _ (by exact h0) h1
    · cases h1; exact h0
  have := hepochs (by exact hp1) h2
  exact this

end

/-! ### Batches -/

section
variable [FTrans B32]

/-- Rows of one width and one magnitude. -/
def RowsIn (w : Nat) (b : ℚ) (rows : List (List B32)) : Prop := ∀ r ∈ rows, r.length = w ∧ AllWithin b r

theorem zipAdd_within {j : Nat} {z : ℤ} (hz0 : -149 ≤ z) (hj : j + 1 ≤ 2 ^ 24) (hb : ((j + 1 : ℕ) : ℚ) * 2 ^ z < 2 ^ 128) {as bs : List B32}
    (ha : AllWithin ((j : ℚ) * 2 ^ z) as) (hb' : AllWithin (2 ^ z) bs) : AllWithin (((j + 1 : ℕ) : ℚ) * 2 ^ z) (List.zipWith (· + ·) as bs) := by
  intro v hv
  obtain ⟨i, hi, rfl⟩ := List.mem_iff_getElem.1 hv
  rw [List.getElem_zipWith]
  exact (ha _ (List.getElem_mem _)).add (hb' _ (List.getElem_mem _)) (by push_cast; linarith) (rep_mul_pow hj hz0) hb

theorem transformPlus_within {w j : Nat} {z : ℤ} (hz0 : -149 ≤ z) (hj : j + 1 ≤ 2 ^ 24) (hb : ((j + 1 : ℕ) : ℚ) * 2 ^ z < 2 ^ 128) {as bs out r : List B32}
    (h1 : as.length = w) (h2 : bs.length = w) (h3 : out.length = w)
    (ha : AllWithin ((j : ℚ) * 2 ^ z) as) (hb' : AllWithin (2 ^ z) bs) (h : transformPlus as bs out = .ok r) :
    r.length = w ∧ AllWithin (((j + 1 : ℕ) : ℚ) * 2 ^ z) r := by
  unfold transformPlus at h
  simp only at h
  split at h
  · cases h
    have e : out.drop (List.zipWith (· + ·) as bs).length = [] := by
      apply List.drop_eq_nil_of_le
      simp [h1, h2, h3]
    rw [e, List.append_nil]
    exact ⟨by simp [h1, h2], zipAdd_within hz0 hj hb ha hb'⟩
  · cases h

theorem batchLoop_within {w : Nat} {z : ℤ} (hz0 : -149 ≤ z) {order : List Nat} {rows : List (List B32)} (hr : RowsIn w (2 ^ z) rows) :
    ∀ {js : List Int} {acc r : List B32} {j : Nat}, j + js.length ≤ 2 ^ 24 → ((j + js.length : ℕ) : ℚ) * 2 ^ z < 2 ^ 128 → acc.length = w →
    AllWithin ((j : ℚ) * 2 ^ z) acc → batchLoop order rows js acc = .ok r → r.length = w ∧ AllWithin (((j + js.length : ℕ) : ℚ) * 2 ^ z) r
  | [], acc, r, j, _, _, hl, ha, h => by cases h; exact ⟨hl, by simpa using ha⟩
  | k :: js, acc, r, j, hj, hb, hl, ha, h => by
    unfold batchLoop at h
    obtain ⟨i, _, h⟩ := Res.bind_eq_ok.1 h
    obtain ⟨row, h1, h⟩ := Res.bind_eq_ok.1 h
    obtain ⟨acc', h2, h⟩ := Res.bind_eq_ok.1 h
    obtain ⟨q1, q2⟩ := hr row (rd_mem h1)
    simp only [List.length_cons] at hj hb ⊢
    have e : j + (js.length + 1) = (j + 1) + js.length := by omega
    rw [e] at hj hb ⊢
    have hb1 : ((j + 1 : ℕ) : ℚ) * 2 ^ z < 2 ^ 128 :=
      lt_of_le_of_lt (mul_le_mul_of_nonneg_right (by exact_mod_cast Nat.le_add_right _ _) (pow_pos' z).le) hb
    obtain ⟨r1, r2⟩ := transformPlus_within hz0 (by omega) hb1 hl q1 hl ha q2 h2
    exact batchLoop_within hz0 hr hj hb r1 r2 h

theorem getBatched_within {w : Nat} {z : ℤ} (hz0 : -149 ≤ z) {order : List Nat} {rows : List (List B32)} (hr : RowsIn w (2 ^ z) rows) {buf buf' x : List B32}
    {index b : Int} (hz : z ≤ 127) (hb : b ≤ 2 ^ 24) (hs : (b : ℚ) * 2 ^ z < 2 ^ 128) (h : getBatched order rows w buf index b = .ok (x, buf')) :
    x.length = w ∧ AllWithin (2 ^ z) x := by
  unfold getBatched at h
  obtain ⟨i, _, h⟩ := Res.bind_eq_ok.1 h
  split at h
  · obtain ⟨row, h1, h⟩ := Res.bind_eq_ok.1 h
    cases h
    exact hr _ (rd_mem h1)
  · rename_i hb1
    obtain ⟨d0, h1, h⟩ := Res.bind_eq_ok.1 h
    obtain ⟨i1, _, h⟩ := Res.bind_eq_ok.1 h
    obtain ⟨d1, h2, h⟩ := Res.bind_eq_ok.1 h
    obtain ⟨s, h3, h⟩ := Res.bind_eq_ok.1 h
    obtain ⟨t, h4, h⟩ := Res.bind_eq_ok.1 h
    cases h
    obtain ⟨n, hn⟩ := Int.eq_ofNat_of_zero_le (by omega : 0 ≤ b - 2)
    have hbn : b = ((n + 2 : ℕ) : Int) := by push_cast; omega
    subst hbn
    have e : (((n + 2 : ℕ) : Int) - 2).toNat = n := by omega
    rw [e] at h4
    have hbn : n + 2 ≤ 2 ^ 24 := by exact_mod_cast hb
    have hs' : ((n + 2 : ℕ) : ℚ) * 2 ^ z < 2 ^ 128 := by exact_mod_cast hs
    obtain ⟨p1, p2⟩ := hr _ (rd_mem h1)
    obtain ⟨q1, q2⟩ := hr _ (rd_mem h2)
    have hb2 : ((1 + 1 : ℕ) : ℚ) * 2 ^ z < 2 ^ 128 :=
      lt_of_le_of_lt (mul_le_mul_of_nonneg_right (by exact_mod_cast (by omega : 1 + 1 ≤ n + 2)) (pow_pos' z).le) hs'
    obtain ⟨r1, r2⟩ := transformPlus_within (j := 1) hz0 (by norm_num) hb2 p1 q1 (by simp; omega) (by simpa using p2) q2 h3
    have e2 : 1 + 1 + ((List.range n).map fun (t : Nat) => index + 2 + (t : Int)).length = n + 2 := by simp; omega
    obtain ⟨t1, t2⟩ := batchLoop_within (j := 1 + 1) hz0 hr (by rw [e2]; exact hbn) (by rw [e2]; exact hs') r1 r2 h4
    rw [e2] at t2
    refine ⟨by simpa using t1, ?_⟩
    intro v hv
    obtain ⟨u, hu, rfl⟩ := List.mem_map.1 hv
    have el : (lit (((n + 2 : ℕ) : Int) : ℚ) : B32) = num ((n + 2 : ℕ) : ℚ) := by
      have := ofRat_nat (k := n + 2) hbn
      push_cast at this ⊢
      exact this
    rw [el]
    refine within_div (by push_cast; linarith [(by positivity : (0 : ℚ) ≤ n)]) (t2 u hu) (le_of_eq ?_) (rep_pow hz0) (pow_lt hz)
    field_simp

/-- The data are in the ranges of a network with ni inputs and no outputs. -/
structure DataIn (p : Ranges) (ni no : Nat) (d : Data B32) : Prop where
  inputs : RowsIn ni (2 ^ (p.input : ℤ)) d.training.inputs
  labels : RowsIn no (2 ^ (p.label : ℤ)) d.training.labels
  testing : RowsIn ni (2 ^ (p.input : ℤ)) d.testing.inputs
  sizeOfData : d.sizeOfData = ni
  numberOfLabels : d.numberOfLabels = no

theorem DataIn.frame {p : Ranges} {ni no : Nat} {d d' : Data B32} (h : DataIn p ni no d) (hf : Frame d d') : DataIn p ni no d' := by
  constructor
  · rw [hf.inputs]; exact h.inputs
  · rw [hf.labels]; exact h.labels
  · rw [hf.testing]; exact h.testing
  · rw [hf.sizeOfData]; exact h.sizeOfData
  · rw [hf.numberOfLabels]; exact h.numberOfLabels

variable {p : Ranges} {opt : Sgd B32} {as : List Act} {ni no : Nat}

theorem trainStep_within (hT : TanhLaw) (hne : as ≠ []) (hr : ∀ i < as.length, Room p opt i) (hni : ni < 2 ^ p.width) {env : Env B32} {b : Int} (hb : b ≤ 2 ^ 24)
    (hs : (b : ℚ) * 2 ^ p.label < 2 ^ 128) {r r' : Run B32} {ret : Bool} (hl : TNet p opt as r.snn.net) (hd : DataIn p ni no r.data)
    (h : r.trainStep env b = .ok (ret, r')) : TNet p opt as r'.snn.net ∧ DataIn p ni no r'.data := by
  have h0 := hr 0 (List.length_pos_iff.2 hne)
  have hroom := h0.room
  have hslow := h0.slow
  have hE : p.errorExp 0 = (p.label : ℤ) + 2 := rfl
  have hW : p.weightExp 0 = p.errorExp 0 + p.input - p.rate + p.damping + 24 := rfl
  unfold Run.trainStep at h
  simp only at h
  split at h
  · cases h; exact ⟨⟨hl.layers, hl.flag⟩, hd⟩
  obtain ⟨need, _, h⟩ := Res.bind_eq_ok.1 h
  obtain ⟨⟨x, d1⟩, h1, h⟩ := Res.bind_eq_ok.1 h
  obtain ⟨first, _, h⟩ := Res.bind_eq_ok.1 h
  have f1 := (getTrainingData_same h1).frame
  have hd1 := hd.frame f1
  have hx : x.length = ni ∧ AllWithin (2 ^ (p.input : ℤ)) x := by
    unfold Data.getTrainingData at h1
    obtain ⟨⟨x', b1⟩, h2, h1⟩ := Res.bind_eq_ok.1 h1
    cases h1
    rw [hd.sizeOfData] at h2
    refine getBatched_within (by omega) hd.inputs (by omega) hb ?_ h2
    have h3 : (b : ℚ) ≤ 2 ^ (24 : ℤ) := by
      rw [show (24 : ℤ) = ((24 : ℕ) : ℤ) by norm_num, zpow_natCast]
      exact_mod_cast hb
    calc (b : ℚ) * 2 ^ (p.input : ℤ) ≤ 2 ^ (24 : ℤ) * 2 ^ (p.input : ℤ) := mul_le_mul_of_nonneg_right h3 (pow_pos' _).le
      _ = 2 ^ ((24 : ℤ) + p.input) := (zpow_add₀ (by norm_num) _ _).symm
      _ < 2 ^ 128 := pow_lt (by omega)
  split at h
  · obtain ⟨⟨y, d2⟩, h2, h⟩ := Res.bind_eq_ok.1 h
    obtain ⟨⟨net, dr⟩, h3, h⟩ := Res.bind_eq_ok.1 h
    cases h
    refine ⟨?_, hd1.frame (getTrainingOutputs_same h2).frame⟩
    have hy : y.length = no ∧ AllWithin (2 ^ (p.label : ℤ)) y := by
      unfold Data.getTrainingOutputs at h2
      obtain ⟨⟨x', b1⟩, h4, h2⟩ := Res.bind_eq_ok.1 h2
      cases h2
      rw [hd1.numberOfLabels] at h4
      exact getBatched_within (by omega) hd1.labels (by omega) hb (by rw [zpow_natCast]; exact hs) h4
    exact trainOnce_within hT hne hr hl hx.2 (by omega) hy.2 h3
  · obtain ⟨⟨o, net, dr⟩, h3, h⟩ := Res.bind_eq_ok.1 h
    cases h
    refine ⟨?_, hd1⟩
    unfold Net.outputForTraining at h3
    split at h3
    · cases h3
    obtain ⟨⟨o1, ls, d3⟩, h4, h3⟩ := Res.bind_eq_ok.1 h3
    cases h3
    obtain ⟨q1, q2⟩ := training_within hT hr hl.layers hx.2 (by omega) h4
    refine ⟨q1, fun he => ?_⟩
    show (_ || _) = false
    rw [hl.flag he, normal_of ((q2 _ he).2 rfl)]
    rfl

theorem netOutput_within (hT : TanhLaw) (hne : as ≠ []) (hr : ∀ i < as.length, Room p opt i) (hni : ni < 2 ^ p.width) {n n' : Net B32} {x y : List B32} {t : Bool}
    (hl : TNet p opt as n) (hx : x.length = ni ∧ AllWithin (2 ^ (p.input : ℤ)) x) (h : n.output x t = .ok (y, n')) :
    TNet p opt as n' ∧ AllWithin 1 y := by
  unfold Net.output at h
  split at h
  · cases h
  obtain ⟨⟨o, ls⟩, h1, h⟩ := Res.bind_eq_ok.1 h
  cases h
  obtain ⟨q1, q2⟩ := output_within hT hr hl.layers hx.2 (by omega) h1
  refine ⟨⟨q1, fun he => ?_⟩, ?_⟩
  · show (_ || _) = false
    rw [hl.flag he, normal_of ((q2 _ he).2 rfl)]
    rfl
  · cases h : as.getLast? with
    | none => exact absurd (List.getLast?_eq_none_iff.1 h) hne
    | some a => exact (q2 a h).1

theorem evaluateLoop_within (hT : TanhLaw) (hne : as ≠ []) (hr : ∀ i < as.length, Room p opt i) (hni : ni < 2 ^ p.width) {nan : B32} {d : Data B32}
    (hd : RowsIn ni (2 ^ (p.input : ℤ)) d.testing.inputs) : ∀ {k : Nat} {s s' : Snn B32} {b : Bool}, TNet p opt as s.net → evaluateLoop nan d k s = .ok (b, s') → TNet p opt as s'.net
  | 0, s, s', b, hl, h => by cases h; exact hl
  | k + 1, s, s', b, hl, h => by
    unfold evaluateLoop at h
    split at h
    · cases h; exact ⟨hl.layers, hl.flag⟩
    obtain ⟨need, _, h⟩ := Res.bind_eq_ok.1 h
    obtain ⟨s1, h1, h⟩ := Res.bind_eq_ok.1 h
    refine evaluateLoop_within hT hne hr hni hd (s := { s1 with index := s1.index + 1 }) ?_ h
    split at h1
    · unfold Snn.evaluateOnce at h1
      obtain ⟨x, hx, h1⟩ := Res.bind_eq_ok.1 h1
      obtain ⟨first, _, h1⟩ := Res.bind_eq_ok.1 h1
      split at h1
      all_goals
        obtain ⟨_, _, h1⟩ := Res.bind_eq_ok.1 h1
        obtain ⟨_, _, h1⟩ := Res.bind_eq_ok.1 h1
        obtain ⟨⟨out, net⟩, h2, h1⟩ := Res.bind_eq_ok.1 h1
        obtain ⟨st, _, h1⟩ := Res.bind_eq_ok.1 h1
        cases h1
        have q := (netOutput_within hT hne hr hni hl (hd _ (rd_mem hx)) h2).1
        exact ⟨q.layers, q.flag⟩
    · obtain ⟨x, hx, h1⟩ := Res.bind_eq_ok.1 h1
      obtain ⟨_, _, h1⟩ := Res.bind_eq_ok.1 h1
      obtain ⟨⟨out, net⟩, h2, h1⟩ := Res.bind_eq_ok.1 h1
      cases h1
      exact (netOutput_within hT hne hr hni hl (hd _ (rd_mem hx)) h2).1

theorem evaluate_within (hT : TanhLaw) (hne : as ≠ []) (hr : ∀ i < as.length, Room p opt i) (hni : ni < 2 ^ p.width) {env : Env B32} {r r' : Run B32}
    (hl : TNet p opt as r.snn.net) (hd : RowsIn ni (2 ^ (p.input : ℤ)) r.data.testing.inputs) (h : r.evaluate env = .ok r') :
    TNet p opt as r'.snn.net ∧ r'.data = r.data := by
  unfold Run.evaluate at h
  obtain ⟨⟨b, s⟩, h1, h⟩ := Res.bind_eq_ok.1 h
  have q := evaluateLoop_within hT hne hr hni hd (s := { r.snn with net := { r.snn.net with stats := r.snn.net.stats.startTesting }, index := 0 }) ⟨hl.layers, hl.flag⟩ h1
  simp only [] at h
  split at h
  · cases h; exact ⟨⟨q.layers, q.flag⟩, rfl⟩
  · split at h
    · cases h; exact ⟨⟨q.layers, q.flag⟩, rfl⟩
    · cases h; exact ⟨⟨q.layers, q.flag⟩, rfl⟩

theorem call_within (hT : TanhLaw) (hne : as ≠ []) (hr : ∀ i < as.length, Room p opt i) (hni : ni < 2 ^ p.width) {c : Call B32} (hc : SafeProps.CallFits ni no c)
    (hp : CallInRanges p c) {r r' : Run B32} (hl : TNet p opt as r.snn.net) (h : c.run r = .ok r') : TNet p opt as r'.snn.net := by
  have rows : ∀ {w e : Nat} {rows : List (List B32)}, Rows w rows → (∀ r ∈ rows, ∀ v ∈ r, Within (2 ^ e) v) → RowsIn w (2 ^ (e : ℤ)) rows := by
    intro w e rows h1 h2 r hr
    refine ⟨h1 r hr, fun v hv => ?_⟩
    rw [zpow_natCast]
    exact h2 r hr v hv
  cases c with
  | computeOutput x t =>
    simp only [Call.run] at h
    cases hx : r.snn.computeOutput x t with
    | ok q =>
      rw [hx] at h
      cases h
      unfold Snn.computeOutput at hx
      obtain ⟨⟨y1, n1⟩, h2, hx⟩ := Res.bind_eq_ok.1 hx
      cases hx
      exact (netOutput_within hT hne hr hni hl ⟨hc, fun v hv => by rw [zpow_natCast]; exact hp v hv⟩ h2).1
    | throw m => rw [hx] at h; cases h
    | ub m => rw [hx] at h; cases h
  | computeCluster x t =>
    simp only [Call.run] at h
    cases hx : r.snn.computeCluster x t with
    | ok q =>
      rw [hx] at h
      cases h
      unfold Snn.computeCluster at hx
      obtain ⟨⟨y1, n1⟩, h2, hx⟩ := Res.bind_eq_ok.1 hx
      cases hx
      exact (netOutput_within hT hne hr hni hl ⟨hc, fun v hv => by rw [zpow_natCast]; exact hp v hv⟩ h2).1
    | throw m => rw [hx] at h; cases h
    | ub m => rw [hx] at h; cases h
  | evaluate env data =>
    have hs := Spec.Fitted.safe hc
    exact (evaluate_within (r := { r with data := data }) hT hne hr hni hl (rows hs.test.inputs hp) h).1
  | train env data wait b ef fuel =>
    obtain ⟨hf, hc⟩ := hc
    have hs := Spec.Fitted.safe hf
    obtain ⟨p1, p2, p3, p4, p5⟩ := hp
    have := train_induct_data (r := { r with data := data }) (P := fun n d => TNet p opt as n ∧ DataIn p ni no d)
      (fun n d d' g h1 h2 => ⟨h1.1, h1.2.frame (shuffle_frame h2)⟩)
      (fun r r' ret h1 h2 => trainStep_within hT hne hr hni p1 p2 h1.1 h1.2 h2)
      (fun r r' h1 h2 => by
        obtain ⟨q1, q2⟩ := evaluate_within hT hne hr hni h1.1 h1.2.testing h2
        exact ⟨q1, by rw [q2]; exact h1.2⟩)
      ⟨hl, ⟨rows hs.train.inputs p4, rows hs.train.labels p5, rows hs.test.inputs p3, hs.sizeOfData, hs.numberOfLabels⟩⟩ h
    exact this.1
  | saveAs path =>
    simp only [Call.run, Run.saveAs] at h
    split at h
    · cases h
    · cases h; exact hl
  | autoSave w path => cases h; exact hl

theorem calls_within (hT : TanhLaw) (hne : as ≠ []) (hr : ∀ i < as.length, Room p opt i) (hni : ni < 2 ^ p.width) : ∀ {calls : List (Call B32)},
    (∀ c ∈ calls, SafeProps.CallFits ni no c ∧ CallInRanges p c) → ∀ {r r' : Run B32}, TNet p opt as r.snn.net → calls.foldlM Call.run r = .ok r' →
    TNet p opt as r'.snn.net
  | [], _, r, r', hl, h => by cases h; exact hl
  | c :: cs, hc, r, r', hl, h => by
    rw [List.foldlM_cons] at h
    obtain ⟨r1, h1, h⟩ := Res.bind_eq_ok.1 h
    exact calls_within hT hne hr hni (fun c' hc' => hc c' (by simp [hc'])) (call_within hT hne hr hni (hc c (by simp)).1 (hc c (by simp)).2 hl h1) h

end

end Snn.Bounded
