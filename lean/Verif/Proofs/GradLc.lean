import Verif.Proofs.GradBody

/-! Locally connected layers: what a training round does. -/

set_option linter.all false

namespace Snn.Grad

open Finset Snn.Spec Snn.NeuronSpec

/-- The row of each neuron: row k for `N` consecutive neurons. -/
def expand (rows : List (List Int)) (N : Nat) : List (List Int) := rows.flatMap (List.replicate N)

theorem expand_length (rows : List (List Int)) (N : Nat) : (expand rows N).length = rows.length * N := by
  induction rows with
  | nil => simp [expand]
  | cons r rows ih =>
    have e : expand (r :: rows) N = List.replicate N r ++ expand rows N := by simp [expand]
    rw [e, List.length_append, ih, List.length_replicate, List.length_cons, Nat.succ_mul]; omega

theorem expand_get {N : Nat} (hN : 0 < N) : ∀ (rows : List (List Int)) (k : Nat), (expand rows N)[k]? = rows[k / N]?
  | [], k => by simp [expand]
  | r :: rows, k => by
    have e : expand (r :: rows) N = List.replicate N r ++ expand rows N := by simp [expand]
    rw [e]
    by_cases hk : k < N
    · rw [List.getElem?_append_left (by simpa using hk), Nat.div_eq_of_lt hk]
      simp [hk]
    · rw [List.getElem?_append_right (by simp; omega), List.length_replicate, expand_get hN rows (k - N)]
      have : k / N = (k - N) / N + 1 := by
        rw [← Nat.add_div_right _ hN]; congr 1; omega
      rw [this, List.getElem?_cons_succ]

theorem expand_mem {rows : List (List Int)} {N : Nat} {r : List Int} (h : r ∈ expand rows N) : r ∈ rows := by
  obtain ⟨a, ha, hr⟩ := List.mem_flatMap.1 h
  rw [List.eq_of_mem_replicate hr]; exact ha

theorem pick_window (x : List ℝ) (row : List Int) : pick x row = window x row := by
  simp [pick, window, lit_eq]

theorem lcOutputs_run (x : List ℝ) {size N : Nat} : ∀ {rows : List (List Int)} {ns : List (Neuron ℝ)},
    (∀ row ∈ rows, row.length = size ∧ ∀ i ∈ row, i < x.length) → (∀ n ∈ ns, n.WF size (size + 1) 1) → ns.length = rows.length * N →
    ∃ ns1, lcOutputs x size N rows ns = .ok (outs (ns.zip (expand rows N)) x, ns1) ∧
      List.Forall₂ (fun p n1 => Ready size p.1 n1 (window x p.2)) (ns.zip (expand rows N)) ns1
  | [], ns, _, h, hl => by
    have : ns = [] := by simpa using hl
    subst this
    exact ⟨[], rfl, .nil⟩
  | row :: rows, ns, hr, hn, hl => by
    obtain ⟨hrl, hi⟩ := hr row (by simp)
    have hg := gatherPad_ok x hi
    rw [hrl, pick_window] at hg
    have hlen : N ≤ ns.length := by rw [hl, List.length_cons, Nat.succ_mul]; omega
    obtain ⟨ns1, h1, h2⟩ := runNeurons_value (f := fun n : Neuron ℝ => n.output (window x row))
      (g := fun n => n.value (window x row)) (P := fun n n1 => Ready size n n1 (window x row)) (ns := ns.take N) (by
        intro n hn'
        exact neuron_run (hn n (List.mem_of_mem_take hn')) (by rw [window_length, hrl]))
    obtain ⟨ns2, h3, h4⟩ := lcOutputs_run x (N := N) (rows := rows) (ns := ns.drop N) (fun r h => hr r (by simp [h]))
      (fun n h => hn n (List.mem_of_mem_drop h)) (by rw [List.length_drop, hl, List.length_cons, Nat.succ_mul]; omega)
    have hz : ns.zip (expand (row :: rows) N) = (ns.take N).map (fun n => (n, row)) ++ (ns.drop N).zip (expand rows N) := by
      have e : expand (row :: rows) N = List.replicate N row ++ expand rows N := by simp [expand]
      conv_lhs => rw [← List.take_append_drop N ns, e]
      rw [List.zip_append (by simp [hlen])]
      congr 1
      apply List.ext_getElem?
      intro j
      simp only [List.getElem?_map]
      by_cases hj : j < N
      · have hj' : j < (ns.take N).length := by simp; omega
        rw [List.getElem?_eq_getElem hj', List.getElem?_zip_eq_some (z := ((ns.take N)[j], row)) |>.2 ⟨List.getElem?_eq_getElem hj', by simp [hj]⟩]
        rfl
      · rw [List.getElem?_eq_none (by simp; omega), List.getElem?_eq_none (l := ns.take N) (by simp; omega)]
        rfl
    refine ⟨ns1 ++ ns2, ?_, ?_⟩
    · simp only [lcOutputs, hg, Res.ok_bind, h1, h3]
      rw [if_neg (by omega), hz]
      simp [outs, Function.comp_def]
    · rw [hz]
      exact forall₂_append (forall₂_map_left h2) h4

theorem scatterPad_run : ∀ {row : List Int} {es acc : List ℝ}, es.length ≤ row.length → (∀ i ∈ row, i < acc.length) →
    ∃ r, scatterPad row es acc = .ok r ∧ r.length = acc.length ∧ ∀ v : List ℝ, dot r v = dot acc v + dot es (window v row)
  | row, [], acc, _, _ => ⟨acc, by cases row <;> rfl, rfl, by intro v; simp [dot_nil]⟩
  | [], e :: es, acc, h, _ => by simp at h
  | i :: row, e :: es, acc, h, hi => by
    by_cases h0 : 0 ≤ i
    · have hlt := hi i (by simp)
      obtain ⟨k, rfl⟩ := Int.eq_ofNat_of_zero_le h0
      have hk : k < acc.length := by omega
      obtain ⟨r, h1, h2, h3⟩ := scatterPad_run (row := row) (es := es) (acc := acc.set k (acc[k] + e)) (by simpa using h)
        (fun j hj => by have := hi j (by simp [hj]); simpa using this)
      refine ⟨r, ?_, by simpa using h2, ?_⟩
      · simp only [scatterPad]
        rw [if_pos (by omega), rd_nat _ _ hk]
        simp only [Res.ok_bind]
        rw [wr_nat _ _ _ hk]
        exact h1
      · intro v
        have e1 : acc[k] = acc.getD k 0 := by simp [List.getD_eq_getElem?_getD, List.getElem?_eq_getElem hk]
        rw [h3 v, e1, dot_set _ _ _ _ hk]
        have e2 : window v ((k : Int) :: row) = v.getD k 0 :: window v row := by simp [window]
        rw [e2, dot_cons]; ring
    · obtain ⟨r, h1, h2, h3⟩ := scatterPad_run (row := row) (es := es) (acc := acc) (by simpa using h) (fun j hj => hi j (by simp [hj]))
      refine ⟨r, ?_, h2, ?_⟩
      · simp only [scatterPad]
        rw [if_neg (by omega)]
        exact h1
      · intro v
        have e2 : window v (i :: row) = 0 :: window v row := by simp [window, h0]
        rw [h3 v, e2, dot_cons]; ring

theorem lcBack_run {size ni : Nat} {x : List ℝ} {rowOf : Nat → Res (List Int)} : ∀ {ps : List (Neuron ℝ × List Int)} {ns1 : List (Neuron ℝ)}
    {i : Nat} {es acc : List ℝ}, (∀ p ∈ ps, p.1.WF size (size + 1) 1 ∧ p.2.length = size ∧ ∀ k ∈ p.2, k < (ni : Int)) →
    List.Forall₂ (fun p n1 => Ready size p.1 n1 (window x p.2)) ps ns1 →
    (∀ (j : Nat) p, ps[j]? = some p → rowOf (i + j) = .ok p.2) → es.length = ps.length → acc.length = ni →
    ∃ r ns2, lcBack rowOf i ns1 es acc = .ok (r, ns2) ∧ r.length = ni ∧
      (∀ v : List ℝ, dot r v = dot acc v + dot es (vel size ps x v)) ∧ AllStepped size ps x es ns2
  | _, _, i, es, acc, _, .nil, _, he, ha => ⟨acc, [], by simp [lcBack], ha, by simp [vel, dot_nil'], by simp [AllStepped]⟩
  | p :: ps, n1 :: ns1, i, [], acc, hw, .cons h1 h2, hrow, he, ha => by simp at he
  | p :: ps, n1 :: ns1, i, e :: es, acc, hw, .cons h1 h2, hrow, he, ha => by
    obtain ⟨⟨n2, hb, hs⟩, _⟩ := h1 e
    obtain ⟨w1, w2, w3⟩ := hw p (by simp)
    obtain ⟨acc', s1, s2, s3⟩ := scatterPad_run (row := p.2) (es := (p.1.weights.take size).map (e * slope p.1 (window x p.2) * ·)) (acc := acc)
      (by simp [w1.wlen, w2]) (by rw [ha]; exact w3)
    obtain ⟨r, ns2, k1, k2, k3, k4⟩ := lcBack_run (i := i + 1) (es := es) (acc := acc') (fun q hq => hw q (by simp [hq])) h2
      (fun j q hq => by
        have := hrow (j + 1) q (by simpa using hq)
        rwa [show i + 1 + j = i + (j + 1) by omega])
      (by simpa using he) (by omega)
    refine ⟨r, n2 :: ns2, ?_, k2, ?_, .cons hs k4⟩
    · have hr0 := hrow 0 p rfl
      simp only [lcBack, hb, Res.ok_bind]
      rw [show rowOf i = .ok p.2 from hr0]
      simp only [Res.ok_bind, s1, k1]
      rfl
    · intro v
      have e2 : vel size (p :: ps) x v = slope p.1 (window x p.2) * dot (p.1.weights.take size) (window v p.2) :: vel size ps x v := rfl
      rw [k3 v, s3 v, dot_smul, e2, dot_cons]
      ring

/-- The row that `computeBackOutput` uses for each neuron is the row that `computeOutput` used. -/
def TrueRows (kind : FKind) (info : FilterInfo) : Prop := kind = .lc2D ∨ kind = .lc1D ∧ (info.numberOfFilters = 1 ∨ info.kernelIndexes.length = 1)

theorem lcRow_true {kind : FKind} {ns : List (Neuron ℝ)} {info : FilterInfo} {ni no : Nat} (h : LcWF kind ns info ni no)
    (ht : TrueRows kind info) {j : Nat} {row : List Int} (hj : j < ns.length) (hr : (expand info.kernelIndexes info.numberOfFilters.toNat)[j]? = some row) :
    lcRow kind info j = .ok row := by
  have hf := h.filters
  obtain ⟨f, hfe⟩ := Int.eq_ofNat_of_zero_le (show 0 ≤ info.numberOfFilters by omega)
  have hf0 : 0 < f := by omega
  have hjb : (j : Int) ≤ 2147483647 := by have := h.bound; have := h.out; omega
  rw [hfe, Int.toNat_natCast, expand_get hf0] at hr
  have hcount := h.count
  rw [hfe, Int.toNat_natCast] at hcount
  have hb : j / f < info.kernelIndexes.length := by
    rw [Nat.div_lt_iff_lt_mul hf0]; omega
  rw [List.getElem?_eq_getElem hb] at hr
  rcases ht with rfl | ⟨rfl, ht⟩
  · have hm : divI (j : Int) info.numberOfFilters = .ok ((j / f : Nat) : Int) := by
      rw [hfe]
      clear hb hr
      unfold divI
      have e : (j : Int).tdiv (f : Int) = ((j / f : Nat) : Int) := rfl
      rw [if_neg (by omega), e]
      have h1 := Nat.div_le_self j f
      generalize hq : j / f = q at h1
      exact ckInt_ok (x := (q : Int)) (by omega) (by omega)
    simp only [lcRow, hm, Res.ok_bind]
    rw [rd_nat _ _ hb]
    simpa using hr
  · have hpos : 0 < info.kernelIndexes.length := lt_of_le_of_lt (Nat.zero_le _) hb
    have hm : modI (j : Int) info.numberOfKernelsPerFilter = .ok ((j % info.kernelIndexes.length : Nat) : Int) := by
      rw [h.perFilter]
      unfold modI
      rw [if_neg (by omega)]
      have e : (j : Int).tmod (info.kernelIndexes.length : Int) = ((j % info.kernelIndexes.length : Nat) : Int) := rfl
      rw [e]
      have := Nat.mod_le j info.kernelIndexes.length
      apply ckInt_ok <;> omega
    have hidx : j % info.kernelIndexes.length = j / f := by
      rcases ht with ht | ht
      · have : f = 1 := by omega
        subst this
        rw [Nat.div_one] at hb ⊢
        exact Nat.mod_eq_of_lt hb
      · rw [ht] at hb ⊢; rw [Nat.mod_one]; exact (Nat.lt_one_iff.1 hb).symm
    simp only [lcRow, hm, Res.ok_bind, hidx]
    rw [rd_nat _ _ hb]
    simpa using hr

theorem fn_lc {l : Layer ℝ} {ns : List (Neuron ℝ)} {kind : FKind} {info : FilterInfo} {ni no : Nat} (ho : l.optimizers = [])
    (hb : l.body = .filter kind ns info) (hk : kind = .lc1D ∨ kind = .lc2D) (hw : LcWF kind ns info ni no) {y : List ℝ} (hy : y.length = ni) :
    fn l y = outs (ns.zip (expand info.kernelIndexes info.numberOfFilters.toNat)) y ∧
    ∃ ns1, l.body.computeOutput y false = .ok (outs (ns.zip (expand info.kernelIndexes info.numberOfFilters.toNat)) y, .filter kind ns1 info) ∧
      (∀ t, l.body.computeOutput y t = l.body.computeOutput y false) ∧
      List.Forall₂ (fun p n1 => Ready info.sizeOfNeuronInputs.toNat p.1 n1 (window y p.2)) (ns.zip (expand info.kernelIndexes info.numberOfFilters.toNat)) ns1 := by
  obtain ⟨ns1, h1, h2⟩ := lcOutputs_run y (size := info.sizeOfNeuronInputs.toNat) (N := info.numberOfFilters.toNat) (rows := info.kernelIndexes) (ns := ns)
    (by rw [hy]; exact hw.rows) hw.neurons hw.count
  have hlen : (outs (ns.zip (expand info.kernelIndexes info.numberOfFilters.toNat)) y).length = no := by
    simp only [outs, List.length_map, List.length_zip, expand_length, hw.out, hw.count, Nat.min_self]
  have hc : l.body.computeOutput y false = .ok (outs (ns.zip (expand info.kernelIndexes info.numberOfFilters.toNat)) y, .filter kind ns1 info) := by
    rw [hb]
    rcases hk with rfl | rfl <;>
    · simp only [Body.computeOutput, h1, Res.ok_bind]
      rw [fillOutputs_ok (by rw [hlen, hw.kernels])]
      rfl
  refine ⟨?_, ns1, hc, ?_, h2⟩
  · unfold fn Layer.output
    rw [hc, ho]
    simp only [Res.ok_bind, testingHooks, Res.pure_eq]
  · intro t
    rw [hb]
    rfl

theorem zip_modify {α β : Type} (f : α → α) : ∀ (as : List α) (bs : List β) (k : Nat),
    (as.modify k f).zip bs = (as.zip bs).modify k fun p => (f p.1, p.2)
  | [], bs, k => by simp
  | a :: as, [], k => by simp
  | a :: as, b :: bs, 0 => by simp
  | a :: as, b :: bs, k + 1 => by simp [zip_modify f as bs k]

/-- A locally connected layer without layer optimizer. -/
theorem diff_lc {l : Layer ℝ} {ns : List (Neuron ℝ)} {kind : FKind} {info : FilterInfo} {ni no : Nat} {o : Sgd ℝ} {x : List ℝ} (ho : l.optimizers = [])
    (hb : l.body = .filter kind ns info) (hkd : kind = .lc1D ∨ kind = .lc2D) (hw : l.WF ni no) (hopt : ∀ n ∈ ns, n.optimizer = o) (hx : x.length = ni)
    (hact : ∀ n ∈ ns, n.activationFunction ≠ .iSigmoid) (hk : NoKink l x) (first : Bool) (ht : first = false → TrueRows kind info) :
    Diff first o l x ni no := by
  have hwf : LcWF kind ns info ni no := by
    have := hw.body; rw [hb] at this
    rcases hkd with rfl | rfl <;> exact this
  have hN : 0 < info.numberOfFilters.toNat := by have := hwf.filters; omega
  generalize hsize : info.sizeOfNeuronInputs.toNat = size at *
  generalize hps : ns.zip (expand info.kernelIndexes info.numberOfFilters.toNat) = ps at *
  have hlps : ps.length = ns.length := by
    rw [← hps]; simp only [List.length_zip, expand_length, hwf.count, Nat.min_self]
  have hget : ∀ (k : Nat) p, ps[k]? = some p → ns[k]? = some p.1 ∧ info.kernelIndexes[k / info.numberOfFilters.toNat]? = some p.2 ∧
      (expand info.kernelIndexes info.numberOfFilters.toNat)[k]? = some p.2 := by
    intro k p hp
    rw [← hps] at hp
    obtain ⟨h1, h2⟩ := List.getElem?_zip_eq_some.1 hp
    exact ⟨h1, by rw [← expand_get hN]; exact h2, h2⟩
  have hmem : ∀ p ∈ ps, p.1 ∈ ns ∧ p.2 ∈ info.kernelIndexes := by
    intro p hp
    obtain ⟨k, hk⟩ := List.mem_iff_getElem?.1 hp
    obtain ⟨h1, h2, _⟩ := hget k p hk
    exact ⟨List.mem_of_getElem? h1, List.mem_of_getElem? h2⟩
  have hkk : ∀ (k : Nat) n row, ns[k]? = some n → info.kernelIndexes[k / info.numberOfFilters.toNat]? = some row →
      n.activationFunction = .relu → affine n.weights (window x row) n.bias ≠ 0 := by
    unfold NoKink at hk; rw [hb] at hk; exact hk
  have hgood : Good size ps x := by
    intro p hp
    obtain ⟨k, hk'⟩ := List.mem_iff_getElem?.1 hp
    obtain ⟨h1, h2, _⟩ := hget k p hk'
    obtain ⟨m1, m2⟩ := hmem p hp
    exact ⟨by rw [← hsize]; exact hwf.neurons _ m1, by rw [← hsize]; exact (hwf.rows _ m2).1, hact _ m1, hkk k p.1 p.2 h1 h2⟩
  have hfn : ∀ y : List ℝ, y.length = ni → fn l y = outs ps y := by
    intro y hy
    rw [(fn_lc ho hb hkd hwf hy).1, hps]
  obtain ⟨_, ns1, hc, hct, h2⟩ := fn_lc ho hb hkd hwf hx
  rw [hps] at hc h2
  rw [hsize] at h2
  have hdesc : ∀ (es : List ℝ) (ns2 : List (Neuron ℝ)), es.length = no → AllStepped size ps x es ns2 →
      Descends o l { l with body := .filter kind ns2 info } x es := by
    intro es ns2 hes hst G hG k i hkl hil
    have hkl' : k < ns.length := by rw [hb] at hkl; simpa [Body.weights] using hkl
    have hnw : neuronWeights l k = ns[k].weights := by
      simp [neuronWeights, hb, Body.weights, List.getD_eq_getElem?_getD, List.getElem?_eq_getElem hkl', Neuron.getWeights]
    have hi : i ≤ size := by
      rw [hnw, (hwf.neurons _ (List.getElem_mem hkl')).wlen] at hil; omega
    have hp : ps[k]? = some ps[k] := List.getElem?_eq_getElem (by omega)
    have hp1 : ps[k].1 = ns[k] := by
      have := (hget k _ hp).1
      rw [List.getElem?_eq_getElem hkl'] at this
      exact (Option.some.inj this).symm
    rw [hfn x hx] at hG
    obtain ⟨n2, e1, ⟨g, e2, e3⟩, e4⟩ := descend_core hgood (by rw [hes, hwf.out, hlps]) hst
      (fun p hp => hopt _ (hmem p hp).1) hG hp hi
    rw [hp1] at e2 e3 e4
    have hw2 : neuronWeights { l with body := .filter kind ns2 info } k = n2.weights := by
      simp [neuronWeights, Body.weights, List.getD_eq_getElem?_getD, e1, Neuron.getWeights]
    have hm1 : memory l k i = (mem ns[k]).getD i 0 := by
      simp only [memory, neurons, hb, List.getElem?_eq_getElem hkl']
    have hm2 : memory { l with body := .filter kind ns2 info } k i = (mem n2).getD i 0 := by
      simp only [memory, neurons, e1]
    rw [hnw, hw2, hm1, hm2]
    refine ⟨⟨g, ?_, e3⟩, e4⟩
    have hfun : (fun v => G (fn (Layer.withWeight l k i v) x)) = fun v => G (outs (ps.modify k fun p => (withWeight i v p.1, p.2)) x) := by
      funext v
      congr 1
      have hb' : (Layer.withWeight l k i v).body = .filter kind (ns.modify k (withWeight i v)) info := by
        simp only [Layer.withWeight, hb]
      have hwf' : LcWF kind (ns.modify k (withWeight i v)) info ni no := by
        refine ⟨hwf.rows, ?_, hwf.filters, hwf.perFilter, hwf.bound, hwf.kernels, by rw [List.length_modify]; exact hwf.count,
          by rw [List.length_modify]; exact hwf.out⟩
        intro n hn'
        obtain ⟨j, hj⟩ := List.mem_iff_getElem?.1 hn'
        rw [List.getElem?_modify] at hj
        cases hnj : ns[j]? with
        | none => rw [hnj] at hj; cases hj
        | some m =>
          rw [hnj] at hj
          have hm := hwf.neurons m (List.mem_of_getElem? hnj)
          by_cases hjk : k = j
          · simp only [hjk, if_true] at hj
            cases hj
            exact withWeight_wf hm
          · simp only [hjk, if_false] at hj
            cases hj
            exact hm
      rw [(fn_lc (by simp only [Layer.withWeight, hb, ho]) hb' hkd hwf' hx).1, zip_modify, hps]
    rw [hfun]
    exact e2
  refine ⟨fun t d => ⟨{ l with body := .filter kind ns1 info }, ?_, ?_⟩⟩
  · rw [hfn x hx]
    simp only [Layer.outputForTraining, hct t, hc, ho, Res.ok_bind, Res.pure_eq, trainingHooks]
  · intro es hes
    have hel : es.length = ps.length := by rw [hes, hwf.out, hlps]
    refine ⟨fun hfirst => ?_, ?_⟩
    · obtain ⟨r, ns2, k1, k2, k3, k4⟩ := lcBack_run (size := size) (ni := ni) (x := x) (rowOf := lcRow kind info) (ps := ps) (ns1 := ns1) (i := 0)
        (es := es) (acc := List.replicate ni 0) (fun p hp => by
          obtain ⟨m1, m2⟩ := hmem p hp
          exact ⟨(hgood p hp).1, (hgood p hp).2.1, (hwf.rows _ m2).2⟩) h2
        (fun j p hp => by
          rw [Nat.zero_add]
          have hj : j < ns.length := by
            by_contra hc
            rw [List.getElem?_eq_none (by omega)] at hp; cases hp
          exact lcRow_true hwf (ht hfirst) hj (hget j p hp).2.2) hel (by simp)
      refine ⟨r, { l with body := .filter kind ns2 info }, ?_, k2, ?_, hdesc es ns2 hes k4⟩
      · simp only [Layer.backOutput, ho, backHooks, List.foldl_nil, Body.computeBackOutput, zeroErrors]
        rw [if_neg (by rw [hw.inputs]; omega)]
        simp only [Res.ok_bind, hw.inputs, Int.toNat_natCast, lit_eq, Rat.cast_zero]
        rcases hkd with rfl | rfl <;>
        · simp only [k1, Res.ok_bind]
          rfl
      · intro G hG
        rw [hfn x hx] at hG
        have := back_outs (r := r) hx hgood (fun v hv => by rw [k3 v, dot_replicate, zero_add]) hG
        intro c v t0 hc' hv hm
        have e : (fun t => G (fn l (c t))) = fun t => G (outs ps (c t)) := by
          funext t
          rw [hfn (c t) (by rw [hm.length, hv, hx])]
        rw [e]
        exact this c v t0 hc' hv hm
    · obtain ⟨ns2, k1, k2⟩ := trainNeurons_run (ps := ps) (x := x) (ns1 := ns1) (es := es) h2 hel
      refine ⟨{ l with body := .filter kind ns2 info }, ?_, hdesc es ns2 hes k2⟩
      simp only [Layer.train, ho, backHooks, List.foldl_nil, Body.computeTrain, k1, Res.ok_bind, Res.pure_eq]

end Snn.Grad
