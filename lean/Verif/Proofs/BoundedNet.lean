import Verif.Proofs.BoundedNeuron

/-! Magnitudes in single precision: layers and networks. -/

set_option linter.all false

namespace Snn.Bounded

open B32 Spec FloatProps

section
variable [FTrans B32]
variable {p : Ranges} {opt : Sgd B32}

/-- The state of a layer with i layers behind it. -/
structure TL (p : Ranges) (opt : Sgd B32) (i : Nat) (a : Act) (l : Layer B32) : Prop where
  opts : l.optimizers = []
  act : a = .sigmoid ∨ a = .tanh
  neurons : ∃ ns, l.body = .fullyConnected ns ∧ ns.length < 2 ^ p.width ∧ ∀ n ∈ ns, TN p opt i a n

/-- The state of the last layers of a network. -/
inductive TLs (p : Ranges) (opt : Sgd B32) : List Act → List (Layer B32) → Prop
  | nil : TLs p opt [] []
  | cons {a : Act} {as : List Act} {l : Layer B32} {ls : List (Layer B32)} (h : TL p opt as.length a l) (hs : TLs p opt as ls) : TLs p opt (a :: as) (l :: ls)

theorem TLs.length {as : List Act} {ls : List (Layer B32)} (h : TLs p opt as ls) : ls.length = as.length := by
  induction h with
  | nil => rfl
  | cons _ _ ih => simp [ih]

/-- Outputs between -1 and 1, none of them subnormal after a logistic function. -/
def Outs (a : Act) (y : List B32) : Prop := AllWithin 1 y ∧ (a = .sigmoid → ∀ v ∈ y, isNormalOrZero v = true)

theorem run_within {i : Nat} {a : Act} (hT : TanhLaw) (hr : Room p opt i) (ha : a = .sigmoid ∨ a = .tanh) {x : List B32}
    (hx : AllWithin (2 ^ (p.input : ℤ)) x) (hl : x.length < 2 ^ p.width) : ∀ {ns ns' : List (Neuron B32)} {y : List B32}, (∀ n ∈ ns, TN p opt i a n) →
    runNeurons (fun n => n.output x) ns = .ok (y, ns') → Outs a y ∧ y.length = ns.length ∧ ns'.length = ns.length ∧ ∀ n ∈ ns', TN p opt i a n
  | [], ns', y, hn, h => by
    cases h
    exact ⟨⟨fun v (hv : v ∈ []) => absurd hv (by simp), fun _ v (hv : v ∈ []) => absurd hv (by simp)⟩, rfl, rfl, fun v (hv : v ∈ []) => absurd hv (by simp)⟩
  | n :: ns, ns', y, hn, h => by
    rw [runNeurons] at h
    obtain ⟨⟨o, n1⟩, h1, h⟩ := Res.bind_eq_ok.1 h
    obtain ⟨⟨os, ns1⟩, h2, h⟩ := Res.bind_eq_ok.1 h
    cases h
    obtain ⟨q1, q2⟩ := neuron_output hT hr ha (hn n (by simp)) hx hl h1
    obtain ⟨r1, r2, r3, r4⟩ := run_within hT hr ha hx hl (fun m hm => hn m (by simp [hm])) h2
    refine ⟨⟨?_, ?_⟩, by simp [r2], by simp [r3], ?_⟩
    · intro v hv
      rcases List.mem_cons.1 hv with rfl | hv
      · exact q1.1
      · exact r1.1 v hv
    · intro he v hv
      rcases List.mem_cons.1 hv with rfl | hv
      · exact q1.2 he
      · exact r1.2 he v hv
    · intro v hv
      rcases List.mem_cons.1 hv with rfl | hv
      · exact q2
      · exact r4 v hv

theorem layer_within {i : Nat} {a : Act} (hT : TanhLaw) (hr : Room p opt i) {l : Layer B32} (hl : TL p opt i a l) {x y : List B32} {t : Bool} {b : Body B32}
    (hx : AllWithin (2 ^ (p.input : ℤ)) x) (hn : x.length < 2 ^ p.width) (h : l.body.computeOutput x t = .ok (y, b)) :
    Outs a y ∧ y.length < 2 ^ p.width ∧ TL p opt i a { l with body := b } := by
  obtain ⟨ns, e, h1, h2⟩ := hl.neurons
  rw [e] at h
  unfold Body.computeOutput at h
  obtain ⟨⟨os, ns'⟩, h3, h⟩ := Res.bind_eq_ok.1 h
  cases h
  obtain ⟨q1, q2, q3, q4⟩ := run_within hT hr hl.act hx hn h2 h3
  exact ⟨q1, by omega, ⟨hl.opts, hl.act, ns', rfl, by omega, q4⟩⟩

theorem one_le_pow (n : Nat) : (1 : ℚ) ≤ 2 ^ (n : ℤ) := by rw [zpow_natCast]; exact one_le_pow₀ (by norm_num)

theorem output_within {t : Bool} (hT : TanhLaw) : ∀ {as : List Act} {ls ls' : List (Layer B32)} {x y : List B32}, (∀ i < as.length, Room p opt i) → TLs p opt as ls →
    AllWithin (2 ^ (p.input : ℤ)) x → x.length < 2 ^ p.width → outputLoop t ls x = .ok (y, ls') → TLs p opt as ls' ∧ (∀ a, as.getLast? = some a → Outs a y)
  | [], ls, ls', x, y, hr, hl, hx, hn, h => by cases hl; cases h; exact ⟨.nil, fun a h => by cases h⟩
  | a :: as, _, ls', x, y, hr, .cons (l := l) (ls := ls) hl hls, hx, hn, h => by
    rw [outputLoop] at h
    obtain ⟨⟨y1, l1⟩, h1, h⟩ := Res.bind_eq_ok.1 h
    obtain ⟨⟨z, ls1⟩, h2, h⟩ := Res.bind_eq_ok.1 h
    cases h
    unfold Layer.output at h1
    obtain ⟨⟨o, b⟩, h3, h1⟩ := Res.bind_eq_ok.1 h1
    rw [hl.opts] at h1
    obtain ⟨o', h4, h1⟩ := Res.bind_eq_ok.1 h1
    cases h4
    cases h1
    obtain ⟨q1, q2, q3⟩ := layer_within hT (hr _ (by simp)) hl hx hn h3
    obtain ⟨r1, r2⟩ := output_within hT (fun i hi => hr i (by simp; omega)) hls (q1.1.mono (one_le_pow _)) q2 h2
    refine ⟨.cons (by first | exact q3 | (rw [hl.opts] at q3; exact q3)) r1, fun b hb => ?_⟩
    by_cases he : as = []
    · subst he; cases hls; cases h2; cases hb; exact q1
    · exact r2 b (by rwa [List.getLast?_cons_of_ne_nil he] at hb)

theorem training_within {t : Bool} (hT : TanhLaw) : ∀ {as : List Act} {ls ls' : List (Layer B32)} {x y : List B32} {d d' : Draws B32},
    (∀ i < as.length, Room p opt i) → TLs p opt as ls →
    AllWithin (2 ^ (p.input : ℤ)) x → x.length < 2 ^ p.width → trainingLoop t ls x d = .ok (y, ls', d') → TLs p opt as ls' ∧ (∀ a, as.getLast? = some a → Outs a y)
  | [], ls, ls', x, y, d, d', hr, hl, hx, hn, h => by cases hl; cases h; exact ⟨.nil, fun a h => by cases h⟩
  | a :: as, _, ls', x, y, d, d', hr, .cons (l := l) (ls := ls) hl hls, hx, hn, h => by
    rw [trainingLoop] at h
    obtain ⟨⟨y1, l1, d1⟩, h1, h⟩ := Res.bind_eq_ok.1 h
    obtain ⟨⟨z, ls1, d2⟩, h2, h⟩ := Res.bind_eq_ok.1 h
    cases h
    unfold Layer.outputForTraining at h1
    obtain ⟨⟨o, b⟩, h3, h1⟩ := Res.bind_eq_ok.1 h1
    rw [hl.opts] at h1
    obtain ⟨⟨o', opts, d3⟩, h4, h1⟩ := Res.bind_eq_ok.1 h1
    cases h4
    cases h1
    obtain ⟨q1, q2, q3⟩ := layer_within hT (hr _ (by simp)) hl hx hn h3
    obtain ⟨r1, r2⟩ := training_within hT (fun i hi => hr i (by simp; omega)) hls (q1.1.mono (one_le_pow _)) q2 h2
    refine ⟨.cons (by first | exact q3 | (rw [hl.opts] at q3; exact q3)) r1, fun b hb => ?_⟩
    by_cases he : as = []
    · subst he; cases hls; cases h2; cases hb; exact q1
    · exact r2 b (by rwa [List.getLast?_cons_of_ne_nil he] at hb)

/-! ### The backward pass -/

theorem back_within {i : Nat} {a : Act} (hT : TanhLaw) (hr : Room p opt i) (ha : a = .sigmoid ∨ a = .tanh) (hroom : p.errorExp i + p.weightExp i + p.width ≤ 127) :
    ∀ {ns ns' : List (Neuron B32)} {es acc r : List B32} {j : Nat}, (∀ n ∈ ns, TN p opt i a n) → j + ns.length < 2 ^ p.width →
    AllWithin (2 ^ p.errorExp i) es → AllWithin ((j : ℚ) * 2 ^ (p.errorExp i + p.weightExp i)) acc →
    backNeurons (fun n e => n.backOutput e) ns es acc = .ok (r, ns') →
    AllWithin (((j + ns.length : ℕ) : ℚ) * 2 ^ (p.errorExp i + p.weightExp i)) r ∧ ns'.length = ns.length ∧ ∀ n ∈ ns', TN p opt i a n
  | [], ns', es, acc, r, j, hn, hj, he, hacc, h => by
    cases h
    exact ⟨by simpa using hacc, rfl, fun v (hv : v ∈ []) => absurd hv (by simp)⟩
  | n :: ns, ns', [], acc, r, j, hn, hj, he, hacc, h => by cases h
  | n :: ns, ns', e :: es, acc, r, j, hn, hj, he, hacc, h => by
    rw [backNeurons] at h
    obtain ⟨⟨er, n1⟩, h1, h⟩ := Res.bind_eq_ok.1 h
    obtain ⟨acc', h2, h⟩ := Res.bind_eq_ok.1 h
    obtain ⟨⟨r', ns1⟩, h3, h⟩ := Res.bind_eq_ok.1 h
    cases h
    have htwo := hr.two
    have hslow := hr.slow
    have hsmall := hr.small
    have hW : p.weightExp i = p.errorExp i + p.input - p.rate + p.damping + 24 := rfl
    have hp24 : (2 : ℕ) ^ p.width ≤ 2 ^ 24 := Nat.pow_le_pow_right (by norm_num) hr.small
    simp only [List.length_cons] at hj ⊢
    obtain ⟨q1, q2⟩ := neuron_back hT hr (by omega) ha (hn n (by simp)) (he e (by simp)) h1
    have hbig : ((j + 1 : ℕ) : ℚ) * 2 ^ (p.errorExp i + p.weightExp i) < 2 ^ 128 := by
      have h5 : ((j + 1 : ℕ) : ℚ) ≤ 2 ^ (p.width : ℤ) := by rw [zpow_natCast]; exact_mod_cast (by omega : j + 1 ≤ 2 ^ p.width)
      have h6 : ((j + 1 : ℕ) : ℚ) * 2 ^ (p.errorExp i + p.weightExp i) ≤ 2 ^ (127 : ℤ) :=
        (mul_le_mul_of_nonneg_right h5 (pow_pos' _).le).trans (by rw [← zpow_add₀ (by norm_num)]; exact pow_le (by omega))
      exact lt_of_le_of_lt h6 (pow_lt le_rfl)
    have hacc' := addErrors_within (by omega) (by omega) hbig hacc q2 h2
    have e' : j + (ns.length + 1) = (j + 1) + ns.length := by omega
    rw [e'] at hj ⊢
    obtain ⟨r1, r2, r3⟩ := back_within hT hr ha hroom (fun m hm => hn m (by simp [hm])) hj (fun v hv => he v (by simp [hv])) hacc' h3
    refine ⟨r1, by simp [r2], ?_⟩
    intro v hv
    rcases List.mem_cons.1 hv with rfl | hv
    · exact q1
    · exact r3 v hv

theorem train_within {i : Nat} {a : Act} (hT : TanhLaw) (hr : Room p opt i) (ha : a = .sigmoid ∨ a = .tanh) :
    ∀ {ns ns' : List (Neuron B32)} {es : List B32}, (∀ n ∈ ns, TN p opt i a n) → AllWithin (2 ^ p.errorExp i) es →
    trainNeurons (fun n e => n.train e) ns es = .ok ns' → ns'.length = ns.length ∧ ∀ n ∈ ns', TN p opt i a n
  | [], ns', es, hn, he, h => by
    cases h
    exact ⟨rfl, fun v (hv : v ∈ []) => absurd hv (by simp)⟩
  | n :: ns, ns', [], hn, he, h => by cases h
  | n :: ns, ns', e :: es, hn, he, h => by
    rw [trainNeurons] at h
    obtain ⟨n1, h1, h⟩ := Res.bind_eq_ok.1 h
    obtain ⟨ns1, h2, h⟩ := Res.bind_eq_ok.1 h
    cases h
    have q1 := neuron_train hT hr ha (hn n (by simp)) (he e (by simp)) h1
    obtain ⟨r2, r3⟩ := train_within hT hr ha (fun m hm => hn m (by simp [hm])) (fun v hv => he v (by simp [hv])) h2
    refine ⟨by simp [r2], ?_⟩
    intro v hv
    rcases List.mem_cons.1 hv with rfl | hv
    · exact q1
    · exact r3 v hv

theorem layerBack_within {i : Nat} {a : Act} (hT : TanhLaw) (hr : Room p opt i) (hr' : Room p opt (i + 1)) {l l' : Layer B32} (hl : TL p opt i a l)
    {es r : List B32} (he : AllWithin (2 ^ p.errorExp i) es) (h : l.backOutput es = .ok (r, l')) : AllWithin (2 ^ p.errorExp (i + 1)) r ∧ TL p opt i a l' := by
  obtain ⟨ns, e, h1, h2⟩ := hl.neurons
  unfold Layer.backOutput at h
  simp only at h
  rw [hl.opts, e] at h
  obtain ⟨⟨r1, b⟩, h3, h⟩ := Res.bind_eq_ok.1 h
  cases h
  unfold Body.computeBackOutput at h3
  obtain ⟨z, h4, h3⟩ := Res.bind_eq_ok.1 h3
  simp only at h3
  obtain ⟨⟨r2, ns'⟩, h5, h3⟩ := Res.bind_eq_ok.1 h3
  cases h3
  have hz : AllWithin (((0 : ℕ) : ℚ) * 2 ^ (p.errorExp i + p.weightExp i)) z := by
    unfold zeroErrors at h4
    split at h4
    · cases h4
    · cases h4; exact allWithin_replicate (by simp) _
  have hroom := hr'.room
  have hs := hr'.slow
  have hE : p.errorExp (i + 1) = p.errorExp i + p.weightExp i + p.width := rfl
  have hW : p.weightExp (i + 1) = p.errorExp (i + 1) + p.input - p.rate + p.damping + 24 := rfl
  obtain ⟨q1, q2, q3⟩ := back_within hT hr hl.act (by omega) h2 (by omega) he hz h5
  refine ⟨q1.mono ?_, ⟨rfl, hl.act, ns', rfl, by omega, q3⟩⟩
  have h6 : ((0 + ns.length : ℕ) : ℚ) ≤ 2 ^ (p.width : ℤ) := by rw [zpow_natCast]; exact_mod_cast (by omega : 0 + ns.length ≤ 2 ^ p.width)
  refine (mul_le_mul_of_nonneg_right h6 (pow_pos' _).le).trans ?_
  rw [← zpow_add₀ (by norm_num), hE]
  exact pow_le (by omega)

theorem backLoop_within (hT : TanhLaw) : ∀ {as : List Act} {ls ls' : List (Layer B32)} {es r : List B32}, (∀ i < as.length + 1, Room p opt i) → TLs p opt as ls →
    AllWithin (2 ^ p.errorExp 0) es → backLoop ls es = .ok (r, ls') → AllWithin (2 ^ p.errorExp as.length) r ∧ TLs p opt as ls'
  | [], ls, ls', es, r, hr, hl, he, h => by cases hl; cases h; exact ⟨he, .nil⟩
  | a :: as, _, ls', es, r, hr, .cons (l := l) (ls := ls) hl hls, he, h => by
    rw [backLoop] at h
    obtain ⟨⟨es1, ls1⟩, h1, h⟩ := Res.bind_eq_ok.1 h
    obtain ⟨⟨es2, l1⟩, h2, h⟩ := Res.bind_eq_ok.1 h
    cases h
    obtain ⟨q1, q2⟩ := backLoop_within hT (fun i hi => hr i (by simp at hi ⊢; omega)) hls he h1
    obtain ⟨r1, r2⟩ := layerBack_within hT (hr _ (by simp)) (hr _ (by simp)) hl q1 h2
    exact ⟨r1, .cons r2 q2⟩

theorem backward_within (hT : TanhLaw) {as : List Act} {ls ls' : List (Layer B32)} {es : List B32} (hr : ∀ i < as.length, Room p opt i) (hl : TLs p opt as ls)
    (he : AllWithin (2 ^ p.errorExp 0) es) (h : backwardPass ls es = .ok ls') : TLs p opt as ls' := by
  cases hl with
  | nil => cases h
  | @cons a as l ls hl hls =>
    unfold backwardPass at h
    simp only at h
    obtain ⟨⟨es1, ls1⟩, h1, h⟩ := Res.bind_eq_ok.1 h
    obtain ⟨l1, h2, h⟩ := Res.bind_eq_ok.1 h
    cases h
    obtain ⟨q1, q2⟩ := backLoop_within hT (fun i hi => hr i (by simpa using hi)) hls he h1
    refine .cons ?_ q2
    obtain ⟨ns, e, h3, h4⟩ := hl.neurons
    unfold Layer.train at h2
    simp only at h2
    rw [hl.opts, e] at h2
    obtain ⟨b, h5, h2⟩ := Res.bind_eq_ok.1 h2
    cases h2
    unfold Body.computeTrain at h5
    obtain ⟨ns', h6, h5⟩ := Res.bind_eq_ok.1 h5
    cases h5
    obtain ⟨r1, r2⟩ := train_within hT (hr _ (by simp)) hl.act h4 q1 h6
    exact ⟨rfl, hl.act, ns', rfl, by omega, r2⟩

theorem errors_within {y : Nat} (hy : (y : ℤ) + 2 ≤ 127) : ∀ {k : Nat} {ds os r : List B32}, AllWithin (2 ^ (y : ℤ)) ds → AllWithin 1 os →
    errorsLoop k ds os = .ok r → AllWithin (2 ^ ((y : ℤ) + 2)) r
  | 0, ds, os, r, _, _, h => by cases h; exact fun v (hv : v ∈ []) => absurd hv (by simp)
  | k + 1, [], os, r, _, _, h => by cases h
  | k + 1, d :: ds, [], r, _, _, h => by cases h
  | k + 1, d :: ds, o :: os, r, hd, ho, h => by
    rw [errorsLoop] at h
    obtain ⟨r1, h1, h⟩ := Res.bind_eq_ok.1 h
    cases h
    have ih := errors_within hy (fun v hv => hd v (by simp [hv])) (fun v hv => ho v (by simp [hv])) h1
    have h2 : Within (2 ^ ((y : ℤ) + 1)) (d - o) := by
      refine (hd d (by simp)).sub (ho o (by simp)) ?_ (rep_pow (by omega)) (pow_lt (by omega))
      rw [zpow_add₀ (by norm_num), zpow_one]
      linarith [one_le_pow y]
    intro v hv
    rcases List.mem_cons.1 hv with rfl | hv
    · refine Within.mulPow (a := 1) (b := (y : ℤ) + 1) ⟨2, FloatProofs.lit_two, rep_two, by norm_num⟩ h2 (by omega) (by omega) (by omega)
    · exact ih v hv

theorem normal_of {y : List B32} (h : ∀ v ∈ y, isNormalOrZero v = true) : hasBadValue y = false := by
  unfold hasBadValue
  rw [List.any_eq_false]
  intro v hv
  simp [h v hv]

/-- The state of a network whose layers have the activations as: the last one is a, and a logistic function never sets the flag. -/
structure TNet (p : Ranges) (opt : Sgd B32) (as : List Act) (n : Net B32) : Prop where
  layers : TLs p opt as n.layers
  flag : as.getLast? = some .sigmoid → n.outputNan = false

theorem trainOnce_within (hT : TanhLaw) {as : List Act} (hne : as ≠ []) (hr : ∀ i < as.length, Room p opt i) {n n' : Net B32} (hl : TNet p opt as n) {x y : List B32}
    {t : Bool} {d d' : Draws B32} (hx : AllWithin (2 ^ (p.input : ℤ)) x) (hn : x.length < 2 ^ p.width) (hy : AllWithin (2 ^ (p.label : ℤ)) y)
    (h : n.trainOnce x y t d = .ok (n', d')) : TNet p opt as n' := by
  unfold Net.trainOnce at h
  obtain ⟨⟨m, d1⟩, h1, h⟩ := Res.bind_eq_ok.1 h
  cases h
  unfold Net.backpropagation at h1
  obtain ⟨⟨o, m1, d2⟩, h2, h1⟩ := Res.bind_eq_ok.1 h1
  unfold Net.outputForTraining at h2
  split at h2
  · cases h2
  obtain ⟨⟨o1, ls, d3⟩, h3, h2⟩ := Res.bind_eq_ok.1 h2
  cases h2
  obtain ⟨q1, q2⟩ := training_within hT hr hl.layers hx hn h3
  obtain ⟨a, ha⟩ : ∃ a, as.getLast? = some a := by
    cases h : as.getLast? with
    | none => exact absurd (List.getLast?_eq_none_iff.1 h) hne
    | some a => exact ⟨a, rfl⟩
  have hflag : as.getLast? = some .sigmoid → (n.outputNan || hasBadValue o) = false := by
    intro he
    rw [hl.flag he, normal_of ((q2 _ he).2 rfl)]
    rfl
  simp only at h1
  split at h1
  · cases h1; exact ⟨q1, hflag⟩
  · obtain ⟨es, h4, h1⟩ := Res.bind_eq_ok.1 h1
    obtain ⟨ls2, h5, h1⟩ := Res.bind_eq_ok.1 h1
    cases h1
    unfold Net.calculateError at h4
    obtain ⟨last, _, h4⟩ := Res.bind_eq_ok.1 h4
    have h0 := hr 0 (List.length_pos_iff.2 hne)
    have hroom := h0.room
    have hs := h0.slow
    have hE : p.errorExp 0 = (p.label : ℤ) + 2 := rfl
    have hW : p.weightExp 0 = p.errorExp 0 + p.input - p.rate + p.damping + 24 := rfl
    exact ⟨backward_within hT hr q1 (by rw [hE]; exact errors_within (by omega) hy (q2 a ha).1 h4) h5, hflag⟩

end

end Snn.Bounded
