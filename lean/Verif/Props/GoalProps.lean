import Verif.Proofs.GoalProofs
import Verif.Props.DeadlineProps
import Verif.Demo.Demo

/-!
# C108: you get the network that reached the accuracy you asked for
-/

set_option linter.all false

namespace Snn.GoalProps

open Snn.Spec Snn.Goal Snn.HistoryProps Snn.SafeProps Snn.WaitSpec Snn.AccuracyProps Snn.EvalProps

section
variable {F : Type} [Field F] [LinearOrder F] [IsStrictOrderedRing F] [FTrans F]
variable {env : Env F} {wait : Wait F} {b ef : Int} {fuel : Nat} {r0 r r' : Run F} {a : F}

theorem goal_facts {arch : List (LayerModel F)} {s s' : List Nat} (h : WellFormed arch s s') (he : EndsWithNeurons arch) (hf : Feedforward arch)
    {opt : Sgd F} {d d' : Draws F} {snn : Snn F} (hm : Snn.make arch opt d = .ok (snn, d')) (calls : List (Call F))
    (hc : ∀ c ∈ calls, CallFits s.prod s'.prod c) (hr0 : r0.snn = snn) (hrun : calls.foldlM Call.run r0 = .ok r)
    {data : Data F} (hd : Fitted s.prod s'.prod data) (hb : 1 ≤ b) :
    Facts s.prod s'.prod b data ({ ({ r with data := data } : Run F) with snn := { r.snn with wantToStopTraining := true } } : Run F).begin := by
  obtain ⟨hn, hi⟩ := make_safe h he hm
  obtain ⟨hpl, _⟩ := make_plainNet h hf hm
  rw [← hr0] at hn hi hpl
  have hnan : r.snn.net.outputNan = false := history_finite hm hr0 hrun
  obtain ⟨hn', _⟩ := history_safe hc hn hi hrun
  have hpl' := plain_kept.history hpl hrun
  exact ⟨⟨⟨⟨hn'.wf.layers, hn'.wf.ne, hn'.wf.last⟩, hn'.clusters⟩, hd.safe, rfl, hb⟩, hpl', hnan, Frame.refl _⟩

/-- **C108.** For every feedforward architecture, after every history of fitting calls, let `train` run on non temporal data with a
criterion that is over when the accuracy a is reached, evaluating at any positive frequency. When it returns, if the reported accuracy is
at least a, then the network it leaves is right on exactly that share of the testing examples. -/
theorem C108_goal {arch : List (LayerModel F)} {s s' : List Nat} (h : WellFormed arch s s') (he : EndsWithNeurons arch) (hf : Feedforward arch)
    {opt : Sgd F} {d d' : Draws F} {snn : Snn F} (hm : Snn.make arch opt d = .ok (snn, d')) (calls : List (Call F))
    (hc : ∀ c ∈ calls, CallFits s.prod s'.prod c) (hr0 : r0.snn = snn) (hrun : calls.foldlM Call.run r0 = .ok r)
    {data : Data F} (hd : Fitted s.prod s'.prod data) (hb : 1 ≤ b) (hnt : data.typeOfTemporal = .nonTemporal)
    (hp : data.typeOfProblem = .regression → 0 ≤ data.precision) (ha : 0 < a) (hw : Requests wait a) (hef : 0 < ef)
    (ht : Call.run r (.train env data wait b ef fuel) = .ok r') (hle : a ≤ r'.snn.net.stats.globalRate) :
    r'.snn.net.stats.globalRate = rightShare r'.snn data := by
  have ht' : ({ r with data := data } : Run F).train env wait b ef fuel = .ok r' := ht
  have hfacts := goal_facts (b := b) h he hf hm calls hc hr0 hrun hd hb
  exact (train_goal (data := data) hfacts hnt hp ha hw hef ht').1 hle

/-- **C108**, the best accuracy: if no accuracy of a or more had been reached before and the best accuracy after the call is at least
a, then the network that `train` leaves is right on exactly that best share of the testing examples. -/
theorem C108_best {arch : List (LayerModel F)} {s s' : List Nat} (h : WellFormed arch s s') (he : EndsWithNeurons arch) (hf : Feedforward arch)
    {opt : Sgd F} {d d' : Draws F} {snn : Snn F} (hm : Snn.make arch opt d = .ok (snn, d')) (calls : List (Call F))
    (hc : ∀ c ∈ calls, CallFits s.prod s'.prod c) (hr0 : r0.snn = snn) (hrun : calls.foldlM Call.run r0 = .ok r)
    {data : Data F} (hd : Fitted s.prod s'.prod data) (hb : 1 ≤ b) (hnt : data.typeOfTemporal = .nonTemporal)
    (hp : data.typeOfProblem = .regression → 0 ≤ data.precision) (ha : 0 < a) (hw : Requests wait a) (hef : 0 < ef)
    (ht : Call.run r (.train env data wait b ef fuel) = .ok r') (hold : r.snn.net.stats.globalRateMax < a)
    (hnew : a ≤ r'.snn.net.stats.globalRateMax) :
    r'.snn.net.stats.globalRateMax = rightShare r'.snn data := by
  have ht' : ({ r with data := data } : Run F).train env wait b ef fuel = .ok r' := ht
  have hfacts := goal_facts (b := b) h he hf hm calls hc hr0 hrun hd hb
  obtain ⟨t1, t2⟩ := train_goal (data := data) hfacts hnt hp ha hw hef ht'
  have e := t2 hold hnew
  rw [e] at hnew ⊢
  exact t1 hnew

/-- **C108**: the requests: every `||` expression of positive literals in which the accuracy a occurs is over when the reported
accuracy is at least a. -/
theorem C108_requests (e : Expr F) (ho : e.onlyOr) (hw : ∀ c ∈ e.crits, c.writable) (hp : ∀ c ∈ e.crits, c.positive) (ha : Crit.acc a ∈ e.crits) :
    ∃ w, e.eval = .ok w ∧ Requests w a := by
  obtain ⟨w, h1, h2⟩ := C16_or_partial e ho hw hp
  exact ⟨w, h1, fun t ep acc m hle hpos => (h2 ⟨ep, acc, m, t⟩).2 ⟨_, ha, by first | exact ⟨hle, hpos⟩ | exact hle⟩⟩

end

/-- The network of the example: one linear neuron. -/
def lineArch : List (LayerModel ℚ) := [.input [1], .fullyConnected 1 .identity []]
def lineNet : Snn ℚ := ((Snn.make lineArch Demo.sgd Demo.draws).get (by decide +kernel)).1
theorem lineMade : ∃ d, Snn.make lineArch Demo.sgd Demo.draws = .ok (lineNet, d) := ⟨_, Res.eq_get _ _⟩
theorem line_wf : WellFormed lineArch [1] [1] := by
  have g : GoodShape [1] := ⟨by simp, by simp, by simp⟩
  exact ⟨⟨_, _, rfl, .cons g (Fits.fullyConnected (n := 1) (by omega)) (.nil g)⟩, by simp [lineArch]⟩
/-- Two examples with the precision 1/2. -/
def line0 : Data ℚ := (Data.make1 .regression [[1], [2]] [[1], [3]] .nonTemporal 0).get (by decide +kernel)
def lineData : Data ℚ := (line0.setPrecision (1/2)).get (by decide +kernel)
theorem lineFitted : Fitted 1 1 lineData := by
  refine .setPrecision (d := line0) (v := 1/2) ?_ (Res.eq_get _ _)
  refine .make1 (p := .regression) (ti := [[1], [2]]) (tl := [[1], [3]]) (nat := .nonTemporal) (rec := 0) (Res.eq_get _ _) ⟨rfl, ?_, ?_⟩ (by intro h; cases h) (by intro h; cases h)
  · intro r hr; simp at hr; rcases hr with rfl | rfl <;> simp
  · intro r hr; simp at hr; rcases hr with rfl | rfl <;> simp
/-- `1.00_acc || 20_ep`. -/
def lineWait : Wait ℚ := ((Expr.or (.crit (.acc (1 : ℚ))) (.crit (.ep 20))).eval).get (by decide +kernel)
def lineTrained : Run ℚ := (Call.run (Demo.run lineNet lineData) (.train Demo.env lineData lineWait 1 1 30)).get (by decide +kernel)

/-- The hypotheses are met: the network is wrong on both examples at the start (accuracy 0), reaches the accuracy 1 after 2 epochs, and the
network that `train` leaves is right on both. -/
example : Requests lineWait 1 ∧ lineTrained.snn.net.stats.globalRate = 1 ∧ rightShare lineTrained.snn lineData = 1 := by
  have hw : Requests lineWait 1 := by
    obtain ⟨w, h1, h2⟩ := C108_requests (a := (1 : ℚ)) (.or (.crit (.acc 1)) (.crit (.ep 20))) (by simp [Expr.onlyOr])
      (by intro c hc; simp [Expr.crits] at hc; rcases hc with rfl | rfl <;> simp [Crit.writable] <;> norm_num)
      (by intro c hc; simp [Expr.crits] at hc; rcases hc with rfl | rfl <;> simp [Crit.positive] <;> norm_num) (by simp [Expr.crits])
    have : w = lineWait := Res.ok.inj (h1.symm.trans (Res.eq_get _ _))
    rwa [← this]
  have h1 : lineTrained.snn.net.stats.globalRate = 1 := by decide +kernel
  obtain ⟨d, hm⟩ := lineMade
  have := C108_goal (a := 1) line_wf (by simp [EndsWithNeurons, lineArch]) (by intro m hm; simp [lineArch] at hm; rcases hm with rfl | rfl <;> trivial) hm []
    (by simp) (r0 := Demo.run lineNet lineData) rfl rfl lineFitted (le_refl _) (by decide +kernel) (by intro _; decide +kernel) (by norm_num) hw
    (by norm_num) (r' := lineTrained) (Res.eq_get _ _) h1.ge
  exact ⟨hw, h1, by rw [← this, h1]⟩

/-- The accuracy at the start of the example, computed. -/
example : ((Call.run (Demo.run lineNet lineData) (.evaluate Demo.env lineData)).get (by decide +kernel)).snn.net.stats.globalRate = 0 := by decide +kernel

end Snn.GoalProps
