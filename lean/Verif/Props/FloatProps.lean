import Verif.Proofs.Float
import Verif.Props.OrderProps

/-! C13 and C57 on IEEE binary32. -/

set_option linter.all false

namespace Snn.FloatProps

open B32 CountProps CountSpec FloatProofs
open StatSpec (Cell)

/-- A number (not NaN, not infinite) between 0 and 1. -/
def UnitNumber (x : B32) : Prop := ∃ q : ℚ, x = .num q ∧ 0 ≤ q ∧ q ≤ 1

section
variable [FTrans B32]

/-- **C13, on IEEE binary32**, with every rounding and with counters stuck at 2^24: after at least one evaluation, any number of them,
on at least one and at most 2^24 labels, the three rates are numbers between 0 and 1. -/
theorem C13_float_rates (s s' : Stats B32) (es : List (Ev B32)) (hne : es ≠ []) (h0 : 0 < s.clusters.length)
    (h24 : s.clusters.length ≤ 2 ^ 24) (hr : s.testingPhase es = .ok s') :
    UnitNumber s'.globalRate ∧ UnitNumber s'.weightedRate ∧ UnitNumber s'.f1Score := by
  unfold Stats.testingPhase at hr
  obtain ⟨t, ht, hs⟩ := Res.bind_eq_ok.1 hr
  cases hs
  have hc := counted_run (counted_start s) ht
  rw [List.nil_append] at hc
  have hsum := well_or_mis (n := s.clusters.length) (by simp [Stats.startTesting]) ht
  have hlen : 0 < es.length := List.length_pos_iff.2 hne
  have cell : ∀ c ∈ t.clusters, ∀ k : Cell, ∃ m : Nat, counter c k = num (m : ℚ) ∧ m ≤ 2 ^ 24 := by
    intro c hmem k
    obtain ⟨i, hi, hg⟩ := List.mem_iff_getElem.1 hmem
    have := hc.cells i c (by rw [List.getElem?_eq_getElem hi, hg]) k
    obtain ⟨m, h1, h2, _⟩ := holds_num (es.countP (inCell s.clusters.length i k))
    exact ⟨m, by rw [this, h1], h2⟩
  have hcl : t.clusters.length = s.clusters.length := hc.length
  refine ⟨?_, ?_, ?_⟩
  · show UnitNumber t.computeGlobalRate
    unfold Stats.computeGlobalRate
    rw [hc.well, hc.mis]
    obtain ⟨w, w1, w2, w3⟩ := holds_num (es.countP (well s.clusters.length))
    obtain ⟨m, m1, m2, m3⟩ := holds_num (es.countP (mis s.clusters.length))
    rw [w1, m1]
    by_cases hw : w = 0
    · subst hw
      have hm : m ≠ 0 := by intro h; have := m3.2 h; have := w3.2 rfl; omega
      have hm' : (m : ℚ) ≠ 0 := by exact_mod_cast hm
      refine ⟨0, ?_, le_refl _, zero_le_one⟩
      have e : (num ((0 : ℕ) : ℚ) + num (m : ℚ) : B32) = num m := by
        rw [num_add, Nat.cast_zero, zero_add]; exact ofRat_nat m2
      rw [e]
      show (if (m : ℚ) = 0 then _ else ofRat _) = _
      rw [if_neg hm', Nat.cast_zero, zero_div]
      simp [ofRat]
    · obtain ⟨p, p1, _, p2, p3⟩ := ratio (Nat.pos_of_ne_zero hw) w2 m2
      exact ⟨p, p1, p2.le, p3⟩
  · show UnitNumber t.computeWeightedRate
    unfold Stats.computeWeightedRate
    obtain ⟨y, e, y0, y1, _⟩ := fold_bound 1 (by norm_num) (le_refl _) (fun k hk => by rw [mul_one]; exact rep_nat hk)
      (fun r c => if flt (lit 0) c.truePositive then r + c.truePositive / (c.truePositive + c.falseNegative) else r) t.clusters
      (by
        intro c hmem x
        obtain ⟨a, a1, a2⟩ := cell c hmem .tp
        obtain ⟨b, b1, b2⟩ := cell c hmem .fn
        simp only [counter] at a1 b1
        by_cases hp : flt (lit 0) c.truePositive = true
        · right
          have ha : 0 < a := by
            rw [a1, lit_zero] at hp
            have : (0 : ℚ) < a := by simpa [flt, less] using hp
            exact_mod_cast this
          obtain ⟨p, p1, _, p2, p3⟩ := ratio ha a2 b2
          exact ⟨p, by rw [if_pos hp, a1, b1, p1], p2.le, p3⟩
        · left; rw [if_neg hp])
      0 0 (by omega) (le_refl _) (by simp) rep_zero
    rw [← lit_zero] at e
    rw [e]
    rw [Nat.zero_add, mul_one] at y1
    exact over (by omega) (by omega) y0 y1
  · show UnitNumber t.computeF1Score
    unfold Stats.computeF1Score
    obtain ⟨y, e, y0, y1, hy⟩ := fold_bound (1 / 2) (by norm_num) (by norm_num) (fun k hk => by rw [mul_one_div]; exact rep_half hk)
      (fun r c =>
        if flt (lit 0) c.truePositive then
          let precision := c.truePositive / (c.truePositive + c.falsePositive)
          let recall := c.truePositive / (c.truePositive + c.falseNegative)
          r + (precision * recall) / (precision + recall)
        else r) t.clusters
      (by
        intro c hmem x
        obtain ⟨a, a1, a2⟩ := cell c hmem .tp
        obtain ⟨b, b1, b2⟩ := cell c hmem .fn
        obtain ⟨d, d1, d2⟩ := cell c hmem .fp
        simp only [counter] at a1 b1 d1
        by_cases hp : flt (lit 0) c.truePositive = true
        · right
          have ha : 0 < a := by
            rw [a1, lit_zero] at hp
            have : (0 : ℚ) < a := by simpa [flt, less] using hp
            exact_mod_cast this
          obtain ⟨p, p1, pr, p2, p3⟩ := ratio ha a2 d2
          obtain ⟨r, r1, rr, r2, r3⟩ := ratio ha a2 b2
          obtain ⟨z, z1, z2, z3⟩ := f1_term pr rr p2 r2 p3 r3
          exact ⟨z, by rw [if_pos hp, a1, b1, d1]; simp only [p1, r1, z1], z2, z3⟩
        · left; rw [if_neg hp])
      0 0 (by omega) (le_refl _) (by simp) rep_zero
    rw [← lit_zero] at e
    rw [e, lit_two]
    rw [Nat.zero_add] at y1
    have hn : ((t.clusters.length : ℕ) : ℚ) ≤ 2 ^ 24 := by rw [hcl]; exact_mod_cast h24
    have e2 : (num 2 * num y : B32) = num (2 * y) := by
      show ofRat _ = _
      have := ofRat_num (x := 2 * y) (y := 2 * y) (by rw [abs_of_nonneg (by linarith)]) hy.double
        (lt_of_le_of_lt (by linarith : 2 * y ≤ 2 ^ 24) (by norm_num))
      rw [this, rnd_rep hy.double]
    rw [e2]
    exact over (by omega) (by omega) (by linarith) (by linarith)

/-- The vectors of an evaluation have a component per label. -/
def Fits (n : Nat) : Ev B32 → Prop
  | .regression o d _ => n ≤ o.length ∧ n ≤ d.length
  | .multiple o d _ => n ≤ o.length ∧ n ≤ d.length
  | .classification o _ _ => n ≤ o.length

omit [FTrans B32] in
theorem evaluate_fits {n : Nat} {s : Stats B32} {e : Ev B32} (hs : s.clusters.length = n) (h : Fits n e) :
    ∃ s', s.evaluateOnce e = .ok s' ∧ s'.clusters.length = n := by
  have key : ∀ (x : Stats B32) b, (x.count b).clusters = x.clusters := by intro x b; cases b <;> rfl
  cases e with
  | regression o d p =>
    obtain ⟨h1, h2⟩ := h
    refine ⟨_, by simp only [Stats.evaluateOnce]; rw [if_neg (by omega)], ?_⟩
    rw [key]
    simp only [List.length_map, List.length_zipWith, List.length_zip]
    omega
  | multiple o d p =>
    obtain ⟨h1, h2⟩ := h
    refine ⟨_, by simp only [Stats.evaluateOnce]; rw [if_neg (by omega)], ?_⟩
    rw [key]
    simp only [List.length_map, List.length_zipWith, List.length_zip]
    omega
  | classification o k p =>
    have h1 : n ≤ o.length := h
    refine ⟨_, by simp only [Stats.evaluateOnce]; rw [if_neg (by omega)], ?_⟩
    rw [key]
    simp only [List.length_zipWith, List.length_zipIdx]
    omega

/-- Evaluations with a component per label are always carried out: the hypothesis of `C13_float_rates`. -/
theorem C13_float_returns (s : Stats B32) (es : List (Ev B32)) (h : ∀ e ∈ es, Fits s.clusters.length e) :
    ∃ s', s.testingPhase es = .ok s' := by
  have : ∀ (n : Nat) (es : List (Ev B32)) (t : Stats B32), t.clusters.length = n → (∀ e ∈ es, Fits n e) →
      ∃ t', es.foldlM Stats.evaluateOnce t = .ok t' := by
    intro n es
    induction es with
    | nil => intro t _ _; exact ⟨t, rfl⟩
    | cons e es ih =>
      intro t ht h
      obtain ⟨t1, h1, h2⟩ := evaluate_fits ht (h e (by simp))
      obtain ⟨t2, h3⟩ := ih t1 h2 (fun e he => h e (by simp [he]))
      exact ⟨t2, by rw [List.foldlM_cons, h1, Res.ok_bind, h3]⟩
  obtain ⟨t, ht⟩ := this s.clusters.length es s.startTesting (by simp [Stats.startTesting]) h
  exact ⟨t.stopTesting, by unfold Stats.testingPhase; rw [ht, Res.ok_bind]; rfl⟩

/-- The hypotheses are met: two classifications of two labels. -/
example : ∃ s', (Stats.init 2 : Stats B32).testingPhase
    [.classification [.num 1, .num 0] 0 (.num (1/2)), .classification [.num 1, .nan] 1 (.num (1/2))] = .ok s' ∧
    UnitNumber s'.globalRate ∧ UnitNumber s'.weightedRate ∧ UnitNumber s'.f1Score := by
  obtain ⟨s', h⟩ := C13_float_returns (Stats.init 2)
    [.classification [.num 1, .num 0] 0 (.num (1/2)), .classification [.num 1, .nan] 1 (.num (1/2))]
    (by intro e he; simp only [List.mem_cons, List.not_mem_nil, or_false] at he; rcases he with rfl | rfl <;> simp [Fits, Stats.init])
  exact ⟨s', h, C13_float_rates _ _ _ (by simp) (by simp [Stats.init]) (by simp [Stats.init]) h⟩

/-- The confusion counts and the rates of two statistics agree: everything reported except the errors. -/
structure SameCounts (a b : Stats B32) : Prop where
  labels : a.clusters.length = b.clusters.length
  cells : ∀ (i : Nat) c c', a.clusters[i]? = some c → b.clusters[i]? = some c' →
    c.truePositive = c'.truePositive ∧ c.trueNegative = c'.trueNegative ∧ c.falsePositive = c'.falsePositive ∧ c.falseNegative = c'.falseNegative
  well : a.wellClassified = b.wellClassified
  mis : a.misclassified = b.misclassified
  global : a.globalRate = b.globalRate
  weighted : a.weightedRate = b.weightedRate
  f1 : a.f1Score = b.f1Score

theorem foldl_zip {α β : Type} (f : β → α → β) : ∀ (l l' : List α), l.length = l'.length →
    (∀ (i : Nat) a a', l[i]? = some a → l'[i]? = some a' → ∀ x, f x a = f x a') → ∀ x, l.foldl f x = l'.foldl f x
  | [], [], _, _, x => rfl
  | a :: l, a' :: l', hl, h, x => by
    rw [List.foldl_cons, List.foldl_cons, h 0 a a' rfl rfl x]
    exact foldl_zip f l l' (by simpa using hl) (fun i b b' hb hb' => h (i + 1) b b' (by simpa using hb) (by simpa using hb')) _

theorem counts_perm {s t t' : Stats B32} {es es' : List (Ev B32)} (hp : es'.Perm es)
    (h : es.foldlM Stats.evaluateOnce s.startTesting = .ok t) (h' : es'.foldlM Stats.evaluateOnce s.startTesting = .ok t') :
    SameCounts t'.stopTesting t.stopTesting := by
  have c := counted_run (counted_start s) h
  have c' := counted_run (counted_start s) h'
  rw [List.nil_append] at c c'
  have hw : t'.wellClassified = t.wellClassified := by rw [c.well, c'.well, hp.countP_eq]
  have hm : t'.misclassified = t.misclassified := by rw [c.mis, c'.mis, hp.countP_eq]
  have hl : t'.clusters.length = t.clusters.length := by rw [c.length, c'.length]
  have hcell : ∀ (i : Nat) a b, t'.clusters[i]? = some a → t.clusters[i]? = some b → ∀ k : Cell, counter a k = counter b k := by
    intro i a b ha hb k
    rw [c'.cells i a ha k, c.cells i b hb k, hp.countP_eq]
  have h4 : ∀ (i : Nat) a b, t'.clusters[i]? = some a → t.clusters[i]? = some b →
      a.truePositive = b.truePositive ∧ a.trueNegative = b.trueNegative ∧ a.falsePositive = b.falsePositive ∧ a.falseNegative = b.falseNegative :=
    fun i a b ha hb => ⟨hcell i a b ha hb .tp, hcell i a b ha hb .tn, hcell i a b ha hb .fp, hcell i a b ha hb .fn⟩
  refine ⟨hl, h4, hw, hm, ?_, ?_, ?_⟩
  · show t'.computeGlobalRate = t.computeGlobalRate
    unfold Stats.computeGlobalRate; rw [hw, hm]
  · show t'.computeWeightedRate = t.computeWeightedRate
    unfold Stats.computeWeightedRate
    rw [foldl_zip _ t'.clusters t.clusters hl, hl]
    intro i a b ha hb x
    obtain ⟨h1, h2, h3, h5⟩ := h4 i a b ha hb
    simp only [h1, h5]
  · show t'.computeF1Score = t.computeF1Score
    unfold Stats.computeF1Score
    rw [foldl_zip _ t'.clusters t.clusters hl, hl]
    intro i a b ha hb x
    obtain ⟨h1, h2, h3, h5⟩ := h4 i a b ha hb
    simp only [h1, h3, h5]

theorem fits_of_ok {n : Nat} {s s' : Stats B32} {e : Ev B32} (hs : s.clusters.length = n) (h : s.evaluateOnce e = .ok s') : Fits n e := by
  cases e with
  | regression o d p =>
    simp only [Stats.evaluateOnce] at h
    split at h
    · cases h
    · rename_i hc; push Not at hc; exact ⟨by omega, by omega⟩
  | multiple o d p =>
    simp only [Stats.evaluateOnce] at h
    split at h
    · cases h
    · rename_i hc; push Not at hc; exact ⟨by omega, by omega⟩
  | classification o k p =>
    simp only [Stats.evaluateOnce] at h
    split at h
    · cases h
    · rename_i hc; show n ≤ o.length; omega

theorem fits_of_run {n : Nat} {es : List (Ev B32)} {s s' : Stats B32} (hs : s.clusters.length = n)
    (h : es.foldlM Stats.evaluateOnce s = .ok s') : ∀ e ∈ es, Fits n e := by
  induction es generalizing s with
  | nil => simp
  | cons e es ih =>
    rw [List.foldlM_cons] at h
    obtain ⟨s1, h1, h2⟩ := Res.bind_eq_ok.1 h
    have hf := fits_of_ok hs h1
    obtain ⟨s1', k1, k2⟩ := evaluate_fits hs hf
    rw [k1] at h1; cases h1
    intro e' he
    rcases List.mem_cons.1 he with rfl | he
    · exact hf
    · exact ih k2 h2 e' he

/-- **C57, on IEEE binary32**: for a network without recurrent layer whose outputs on the testing examples are normal numbers or zero,
`evaluate` on the same testing examples in another order returns too, with the same confusion counts, the same number of well classified
examples and the same three rates, bit for bit. (The sums of the errors are rounded, so that they may depend on the order; a NaN makes
the counts depend on it, see `C57_nan_refuted`.) -/
theorem C57_float_evaluate (env : Env B32) (r r1 : Run B32) (d' : Data B32)
    (hnt : r.data.typeOfTemporal = .nonTemporal)
    (hrec : ∀ l ∈ r.snn.net.layers, Spec.NonRecurrent l) (hnan : r.snn.net.outputNan = false)
    (hgood : ∀ x ∈ r.data.testing.inputs, ∀ out, Prod.fst <$> r.snn.net.output x false = .ok out → hasBadValue out = false)
    (hsize : r.data.testing.inputs.length = r.data.testing.size ∧ r.data.testing.labels.length = r.data.testing.size)
    (hsize' : d'.testing.inputs.length = d'.testing.size ∧ d'.testing.labels.length = d'.testing.size)
    (hd : d' = { r.data with testing := d'.testing })
    (hperm : (d'.testing.inputs.zip d'.testing.labels).Perm (r.data.testing.inputs.zip r.data.testing.labels))
    (h : r.evaluate env = .ok r1) :
    ∃ r2, ({ r with data := d' } : Run B32).evaluate env = .ok r2 ∧ SameCounts r2.snn.net.stats r1.snn.net.stats := by
  obtain ⟨es, es', st, hp, hf, e1, hr⟩ := OrderProps.evaluate_reordered env r r1 d' hnt hrec hnan hgood hsize hsize' hd hperm h
  have hfits := fits_of_run (n := r.snn.net.stats.startTesting.clusters.length) rfl hf
  have hfits' : ∀ e ∈ es', Fits r.snn.net.stats.clusters.length e := by
    intro e he
    have := hfits e (hp.mem_iff.1 he)
    simpa [Stats.startTesting] using this
  obtain ⟨t, ht⟩ := C13_float_returns r.snn.net.stats es' hfits'
  unfold Stats.testingPhase at ht
  obtain ⟨st', hst', _⟩ := Res.bind_eq_ok.1 ht
  obtain ⟨r2, k1, k2⟩ := hr st' hst'
  exact ⟨r2, k1, by rw [k2, e1]; exact counts_perm hp hf hst'⟩

end

section Witness

/-- Transcendental functions for the witness, which uses none. -/
local instance : FTrans B32 := ⟨id, id, id⟩

/-- A classification on binary32. -/
def rowsOf (test : List (List B32)) (labels : List (List B32)) : Res (Data B32) :=
  Data.make2 .classification [[lit 1, lit 0]] [[lit 1, lit 0]] test labels .nonTemporal 0
/-- The data, -/
def dataAB : Data B32 := (rowsOf [[lit (1/10), lit 2], [lit 2, lit (1/3)]] [[lit 0, lit 1], [lit 1, lit 0]]).get (by decide +kernel)
/-- and the same in the other order. -/
def dataBA : Data B32 := (rowsOf [[lit 2, lit (1/3)], [lit (1/10), lit 2]] [[lit 1, lit 0], [lit 0, lit 1]]).get (by decide +kernel)
/-- A dense network with the weights rounded to binary32. -/
def netAB : Snn B32 := ((Snn.make [.input [2], .fullyConnected 3 .relu [], .fullyConnected 2 .identity []]
  { learningRate := lit (1/10), momentum := lit 0 } fun i => lit (1 / (2 + i % 5 : Nat))).get (by decide +kernel)).1
/-- A run. -/
def runAB : Run B32 := { snn := netAB, data := dataAB, draws := fun _ => lit 0, ticks := 0, trace := [] }

/-- The hypotheses of `C57_float_evaluate` are met by a dense network on binary32 and two testing examples swapped. -/
example : dataAB ≠ dataBA ∧ ∃ r1 r2, runAB.evaluate ⟨fun t => t, fun e i => e.toNat + i, .nan⟩ = .ok r1 ∧
    ({ runAB with data := dataBA } : Run B32).evaluate ⟨fun t => t, fun e i => e.toNat + i, .nan⟩ = .ok r2 ∧
    SameCounts r2.snn.net.stats r1.snn.net.stats := by
  refine ⟨by decide +kernel, ?_⟩
  obtain ⟨r2, h1, h2⟩ := C57_float_evaluate ⟨fun t => t, fun e i => e.toNat + i, .nan⟩ runAB _ dataBA (by decide +kernel)
    (by
      have hl : netAB.net.layers.all (fun l => match l.body with | .fullyConnected _ => true | _ => false) = true := by decide +kernel
      intro l h
      have := List.all_eq_true.1 hl l h
      unfold Spec.NonRecurrent
      cases hb : l.body <;> rw [hb] at this <;> simp_all)
    (by decide +kernel)
    (by
      have hl : dataAB.testing.inputs.all (fun x => match netAB.net.output x false with | .ok o => !hasBadValue o.1 | _ => true) = true := by
        decide +kernel
      intro x hx out ho
      have := List.all_eq_true.1 hl x hx
      obtain ⟨n, hn⟩ := OrderProps.map_fst_ok ho
      have hn' : netAB.net.output x false = .ok (out, n) := hn
      rw [hn'] at this
      simpa using this)
    (by decide +kernel) (by decide +kernel) (by decide +kernel)
    (by
      have e1 : dataAB.testing.inputs.zip dataAB.testing.labels =
        [([lit (1/10), lit 2], [lit 0, lit 1]), ([lit 2, lit (1/3)], [lit 1, lit 0])] := by decide +kernel
      have e2 : dataBA.testing.inputs.zip dataBA.testing.labels =
        [([lit 2, lit (1/3)], [lit 1, lit 0]), ([lit (1/10), lit 2], [lit 0, lit 1])] := by decide +kernel
      show (dataBA.testing.inputs.zip dataBA.testing.labels).Perm (dataAB.testing.inputs.zip dataAB.testing.labels)
      rw [e1, e2]
      exact List.Perm.swap _ _ _)
    (Res.eq_get (Run.evaluate ⟨fun t => t, fun e i => e.toNat + i, .nan⟩ runAB) (by decide +kernel))
  exact ⟨_, r2, Res.eq_get _ (by decide +kernel), h1, h2⟩

end Witness

end Snn.FloatProps
