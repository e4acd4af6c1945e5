import Verif.Proofs.MultProofs
import Verif.Basic.RatFlt
import Verif.Basic.B32
import Verif.Demo.Demo

/-!
# C119: an error multiplier on the last layer is a factor of the learning rate
-/

set_option linter.all false

namespace Snn.MultProps

open Snn.Spec Snn.HistoryProps Snn.MapSim Snn.Mult

theorem mapCall_id {F : Type} (k : Call F) : mapCall id k = k := by
  cases k <;> simp [mapCall, mapData]

section
variable {F : Type} [Field F] [LinearOrder F] [IsStrictOrderedRing F] [FTrans F]

/-- **C119** (exact arithmetic). Take layers without the regularizations L1 and L2, of which the last is not a max pooling, and two networks that are made
with the same random draws and momentum: the first of these layers with the learning rate ℓ·c; the second with the learning rate ℓ and an error multiplier of
factor c on the last layer. Give both any history of calls. Either both histories fail in the same way, or: they report the same statistics and use the same
random draws, the two objects have the same scores, flags and counters, they give the same answers, and they have the same weights. -/
theorem C119_error_multiplier {shape : List Int} {layers : List (LayerModel F)} (hne : layers ≠ []) (hreg : Unregularized layers)
    (hlast : ∀ m ∈ layers.getLast?, ∀ k, m ≠ .maxPooling k) {opt : Sgd F} {l c : F} {d da db : Draws F} {one two : Snn F}
    (h1 : Snn.make (.input shape :: layers) { opt with learningRate := l * c } d = .ok (one, da))
    (h2 : Snn.make (.input shape :: multiplyLast c layers) { opt with learningRate := l } d = .ok (two, db))
    {w : Nat} {calls : List (Call F)} (hcalls : ∀ k ∈ calls, CallRect w k) (data : Data F) (draws : Draws F) (ticks : Nat) (trace : List (Event F)) :
    db = da ∧
    Res.Rel (fun a b => reports b = reports a ∧ b.draws = a.draws ∧ b.snn = { a.snn with net := b.snn.net } ∧ b.snn.net.stats = a.snn.net.stats ∧
        b.snn.net.outputNan = a.snn.net.outputNan ∧
        (∀ x t, Res.Rel (fun u v => v.1 = u.1) (a.snn.computeOutput x t) (b.snn.computeOutput x t)) ∧
        b.snn.net.layers.map (fun l => l.body.weights) = a.snn.net.layers.map (fun l => l.body.weights))
      (calls.foldlM Call.run ⟨one, data, draws, ticks, trace⟩)
      (calls.foldlM Call.run ⟨two, data, draws, ticks, trace⟩) := by
  obtain ⟨hd, hs, hn⟩ := make_sim (opt := opt) (c := c) (l0 := l) hne hreg hlast h1 h2
  refine ⟨hd, ?_⟩
  have h := history_sim (netSim (c := c) (l0 := l) w) (batchy_id w) hcalls (a := ⟨one, data, draws, ticks, trace⟩)
    (b := ⟨two, data, draws, ticks, trace⟩) ⟨_, hs, hn⟩ rfl rfl rfl
  have hmap : calls.map (mapCall id) = calls := by rw [List.map_congr_left (fun k _ => mapCall_id k), List.map_id']
  rw [hmap] at h
  revert h
  generalize (calls.foldlM Call.run (⟨one, data, draws, ticks, trace⟩ : Run F)) = A
  generalize (calls.foldlM Call.run (⟨two, data, draws, ticks, trace⟩ : Run F)) = B
  cases A <;> cases B <;> simp only [Res.Rel] <;> try exact id
  rename_i a b
  rintro ⟨⟨n, hb, hn⟩, h1, h2, h3⟩
  refine ⟨h3, h1, by rw [hb], by rw [hb]; exact hn.stats, by rw [hb]; exact hn.nan, ?_, by rw [hb]; exact hn.layers.weights⟩
  intro x t
  rw [hb]
  unfold Snn.computeOutput
  refine Res.Rel.bind (net_out hn x t) ?_
  rintro ⟨y, u⟩ ⟨y', v⟩ ⟨hy, _⟩
  exact hy

end

/-! ### The hypotheses are met -/

/-- The layers of the example network: 3 neurons with a dropout, 2 outputs. -/
def layers : List (LayerModel ℚ) := [.fullyConnected 3 .relu [.dropout (1/2)], .fullyConnected 2 .identity []]
/-- The learning rate 1/10 as 1/5 · 1/2, and the learning rate 1/5 with a multiplier of 1/2. -/
def made1 : Snn ℚ × Draws ℚ := Res.get (Snn.make (.input [2] :: layers) { Demo.sgd with learningRate := 1/5 * (1/2) } Demo.draws) (by decide +kernel)
def made2 : Snn ℚ × Draws ℚ := Res.get (Snn.make (.input [2] :: multiplyLast (1/2) layers) { Demo.sgd with learningRate := 1/5 } Demo.draws) (by decide +kernel)
/-- Training for an epoch, an evaluation, an answer. -/
def calls : List (Call ℚ) := [.train Demo.env Demo.regression (litEp 1) 1 1 50, .evaluate Demo.env Demo.regression, .computeOutput [1, 2] true]

example : ∃ a b : Run ℚ, calls.foldlM Call.run ⟨made1.1, Demo.regression, Demo.draws, 0, []⟩ = .ok a ∧
    calls.foldlM Call.run ⟨made2.1, Demo.regression, Demo.draws, 0, []⟩ = .ok b ∧ reports b = reports a ∧ reports a ≠ [] ∧
    b.snn.net.layers.map (fun l => l.body.weights) = a.snn.net.layers.map (fun l => l.body.weights) ∧
    a.snn.net.layers.map (fun l => l.body.weights) ≠ made1.1.net.layers.map (fun l => l.body.weights) := by
  have h := (C119_error_multiplier (F := ℚ) (layers := layers) (by decide) (by
      intro m hm o ho v
      simp only [layers, List.mem_cons, List.not_mem_nil, or_false] at hm
      rcases hm with rfl | rfl
      · simp only [optimizersOfLayer, List.mem_cons, List.not_mem_nil, or_false] at ho
        subst ho
        simp
      · simp [optimizersOfLayer] at ho) (by
      intro m hm k
      simp only [layers, List.getLast?_cons_cons, List.getLast?_singleton, Option.mem_def, Option.some.injEq] at hm
      subst hm
      simp) (opt := Demo.sgd) (l := 1/5) (c := 1/2) (one := made1.1) (two := made2.1) (da := made1.2) (db := made2.2)
    (Res.eq_get _ (by decide +kernel)) (Res.eq_get _ (by decide +kernel)) (w := 2) (calls := calls) (by
      intro c hc
      simp only [calls, List.mem_cons, List.not_mem_nil, or_false] at hc
      rcases hc with rfl | rfl | rfl
      · exact ⟨by decide +kernel, by decide +kernel, by decide +kernel⟩
      · exact ⟨by decide +kernel, by decide +kernel, by decide +kernel⟩
      · rfl) Demo.regression Demo.draws 0 []).2
  have h1 := Res.eq_get (calls.foldlM Call.run (⟨made1.1, Demo.regression, Demo.draws, 0, []⟩ : Run ℚ)) (by decide +kernel)
  rw [h1] at h
  obtain ⟨b, hb, k1, _, _, _, _, _, k2⟩ := h.ok_left
  exact ⟨_, b, h1, hb, k1, by decide +kernel, k2, by decide +kernel⟩

end Snn.MultProps
