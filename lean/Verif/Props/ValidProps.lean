import Verif.Proofs.ValidProofs
import Verif.Demo.DemoSave

/-! C55: what `isValid` reports. -/

set_option linter.all false

namespace Snn.ValidProps

open Spec HistoryProps Valid

section
variable {F : Type} [Field F] [LinearOrder F] [IsStrictOrderedRing F] [FTrans F] [FText F]

/-- C55, when every parameter is a number: for every network a program can hold (made, trained, copied, saved and loaded in any
order), `isValid` returns, and it returns 0 if every rule of `networkRules` holds and otherwise the code of the first rule that does
not. Missing: NaN and the layer optimizers, see the refutations. -/
theorem C55_reports_partial (arch : List (LayerModel F)) (s : Snn F) (h : Reach arch s) :
    ∃ c, s.net.isValid = .ok c ∧ Reports (networkRules s.net) c := by
  obtain ⟨h0, h1⟩ := reach_returns h
  obtain ⟨c, hc⟩ := net_returns h0 h1
  exact ⟨c, hc, netValid_reports (reach_fits h) hc⟩

/-- C55: 0 is returned exactly for the networks that follow all the rules. -/
theorem C55_zero_partial (arch : List (LayerModel F)) (s : Snn F) (h : Reach arch s) :
    s.net.isValid = .ok 0 ↔ ∀ r ∈ networkRules s.net, r.holds := by
  obtain ⟨c, hc, hr⟩ := C55_reports_partial arch s h
  have hcoded : Coded (networkRules s.net) := by
    unfold networkRules
    refine Coded.append ?_ (Coded.flatMap fun l _ => coded_layer l)
    intro r hr
    simp only [List.mem_cons, List.not_mem_nil, or_false] at hr
    rcases hr with rfl | rfl | rfl | rfl <;> norm_num
  constructor
  · intro e
    rw [e] at hc; cases hc
    exact reports_zero hcoded hr
  · intro hall
    rcases hr with ⟨e, _⟩ | ⟨b, q, a, e, _, h2, _⟩
    · rw [hc, e]
    · exact absurd (hall q (by rw [e]; simp)) h2

omit [FText F] in
/-- C55: the constructor only returns networks that follow all the rules, and throws the code of the first violation otherwise. -/
theorem C55_constructor_partial (arch : List (LayerModel F)) (o : Sgd F) (d d1 : Draws F) (net : Net F) (h : Net.make arch o d = .ok (net, d1))
    (c : Int) (hc : net.isValid = .ok c) :
    Reports (networkRules net) c ∧
      ((∃ r, Snn.make arch o d = .ok r) ↔ c = 0) ∧
      (c ≠ 0 → Snn.make arch o d = .throw s!"Error {c}: Wrong parameter in the creation of neural networks") := by
  refine ⟨netValid_reports (make_fits h) hc, ?_, ?_⟩
  · unfold Snn.make
    rw [h, Res.ok_bind]
    simp only [hc, Res.ok_bind]
    by_cases e : c = 0
    · simp [e]
    · simp [e]
  · intro e
    unfold Snn.make
    rw [h, Res.ok_bind]
    simp only [hc, Res.ok_bind]
    rw [if_pos e]

end

/-! ### Witnesses -/

/-- Data with a huge input and label. -/
def huge : Data ℚ := (Data.make1 .regression [[1000]] [[1000000, 1000000]] .nonTemporal 0).get (by decide +kernel)
/-- A dense network after one epoch on it. -/
def exploded : Run ℚ := ((Demo.run Demo.plain huge).train Demo.env (litEp 1) 1 1 50).get (by decide +kernel)

/-- Two networks that a program can hold: a new one, which is valid, and one whose weights exploded during training, for which 303
is reported; nothing else reports it, and it can be trained further. -/
example : Reach Demo.plainArch Demo.plain ∧ Reach Demo.plainArch exploded.snn ∧ Demo.plain.net.isValid = .ok 0 ∧
    exploded.snn.net.isValid = .ok 303 ∧ (exploded.train Demo.env (litEp 1) 1 1 50).isOk = true := by
  have h : Reach Demo.plainArch Demo.plain := .make (o := Demo.sgd) (d := Demo.draws) (Res.eq_get _ (by decide +kernel))
  refine ⟨h, ?_, by decide +kernel, by decide +kernel, by decide +kernel⟩
  exact .call (c := .train Demo.env huge (litEp 1) 1 1 50) (r := Demo.run Demo.plain huge) h (Res.eq_get _ _)

/-- A network the constructor rejects with code 103 and one it accepts. -/
example : (∃ net d, Net.make Demo.plainArch { learningRate := 1, momentum := 0 } Demo.draws = .ok (net, d) ∧ net.isValid = .ok 103) ∧
    ∃ net d, Net.make Demo.plainArch Demo.sgd Demo.draws = .ok (net, d) ∧ net.isValid = .ok 0 :=
  ⟨⟨_, _, Res.eq_get _ (by decide +kernel), by decide +kernel⟩, ⟨_, _, Res.eq_get _ (by decide +kernel), by decide +kernel⟩⟩

/-! ### Findings -/

/-- NaN passes every check: a network with a NaN learning rate and momentum is accepted, and so is one whose weights are NaN (the
random draws stand for any source of weights). -/
theorem C55_nan_refuted :
    (∃ s d, Snn.make Demo.nanArch { learningRate := .nan, momentum := .nan } (fun _ => .num (1/2)) = .ok (s, d) ∧ s.net.isValid = .ok 0) ∧
      ∃ s d, Snn.make Demo.nanArch Demo.nanSgd (fun _ => .nan) = .ok (s, d) ∧
        (∀ l ∈ s.net.layers, ∀ ns, l.body = .fullyConnected ns → ∀ n ∈ ns, ∀ w ∈ n.weights, w = NF.nan) ∧ s.net.isValid = .ok 0 := by
  refine ⟨⟨_, _, Res.eq_get _ (by decide +kernel), by decide +kernel⟩, ⟨_, _, Res.eq_get _ (by decide +kernel), ?_, by decide +kernel⟩⟩
  intro l hl ns hb
  have key : ∀ l ∈ (Res.get (Snn.make Demo.nanArch Demo.nanSgd fun _ => NF.nan) (by decide +kernel)).1.net.layers,
    (match l.body with | .fullyConnected ns => ns.all fun n => n.weights.all (· = NF.nan) | _ => true) = true := by decide +kernel
  have := key l hl
  rw [hb] at this
  simpa using this

/-- The parameters of the layer optimizers are never checked: a Dropout of 2, whose scale in inference is -1, is accepted. -/
theorem C55_layer_optimizers_refuted : ∃ s d, Snn.make [.input [1], .fullyConnected 2 .identity [.dropout 2]] Demo.sgd Demo.draws = .ok (s, d) ∧
    s.net.isValid = .ok 0 ∧ ∃ l ∈ s.net.layers, ∃ m, .dropout (2 : ℚ) (-1) m ∈ l.optimizers := by
  refine ⟨_, _, Res.eq_get _ (by decide +kernel), by decide +kernel, ?_⟩
  have key : ∃ l ∈ (Res.get (Snn.make [.input [1], .fullyConnected 2 .identity [.dropout 2]] Demo.sgd Demo.draws) (by decide +kernel)).1.net.layers,
    (match l.optimizers with | [.dropout v w m] => decide (v = 2 ∧ w = -1) | _ => false) = true := by decide +kernel
  obtain ⟨l, hl, h⟩ := key
  refine ⟨l, hl, ?_⟩
  split at h
  · rename_i v w m e
    simp only [decide_eq_true_eq] at h
    rw [e, h.1, h.2]
    exact ⟨m, by simp⟩
  · cases h

/-- No check depends on the layer optimizers. -/
theorem C55_ignores_layer_optimizers {F : Type} [Flt F] [FTrans F] [Add F] [Sub F] [Mul F] [Div F] [Neg F] (l : Layer F) (os : List (LayerOpt F)) :
    Layer.isValid { l with optimizers := os } = l.isValid := rfl

end Snn.ValidProps
