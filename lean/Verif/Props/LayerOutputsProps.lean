import Verif.Model.Network
import Verif.Basic.RatFlt
import Verif.Demo.Demo

/-!
# C64: the layer outputs that are drawn are those of the network
-/

set_option linter.all false

namespace Snn.LayerOutputsProps

section
variable {F : Type} [Flt F] [FTrans F] [Add F] [Sub F] [Mul F] [Div F] [Neg F]

theorem chained : ∀ {ls ls' : List (Layer F)} {x : List F} {ys : List (List F)}, layerOutputsLoop ls x = .ok (ys, ls') → ys.length = ls.length ∧
    ∀ k < ls.length, ∃ y, ys[k]? = some y ∧ outputLoop true (ls.take (k + 1)) x = .ok (y, ls'.take (k + 1))
  | [], ls', x, ys, h => by
    cases h
    exact ⟨rfl, fun k hk => absurd hk (by simp)⟩
  | l :: ls, ls', x, ys, h => by
    unfold layerOutputsLoop at h
    obtain ⟨⟨y, l'⟩, h1, h⟩ := Res.bind_eq_ok.1 h
    obtain ⟨⟨zs, ls1⟩, h2, h⟩ := Res.bind_eq_ok.1 h
    cases h
    obtain ⟨i1, i2⟩ := chained h2
    refine ⟨by simp [i1], ?_⟩
    intro k hk
    cases k with
    | zero =>
      refine ⟨y, rfl, ?_⟩
      show outputLoop true [l] x = _
      unfold outputLoop
      rw [h1, Res.ok_bind]
      rfl
    | succ k =>
      obtain ⟨z, e1, e2⟩ := i2 k (by simpa using hk)
      refine ⟨z, by simpa using e1, ?_⟩
      rw [List.take_succ_cons, List.take_succ_cons]
      unfold outputLoop
      rw [h1, Res.ok_bind]
      dsimp only
      rw [e2]
      rfl

/-- **C64** (the values that are drawn). The outputs that `getLayerOutputs` gives for the layer k (counted from 0) are the answer, with a temporal reset, of the network cut after the layer k. -/
theorem C64_cut {n n' : Net F} {x : List F} {ys : List (List F)} (h : n.getLayerOutputs x = .ok (ys, n')) :
    ys.length = n.layers.length ∧ ∀ k < n.layers.length, ∃ y m, ys[k]? = some y ∧ ({ n with layers := n.layers.take (k + 1) } : Net F).output x true = .ok (y, m) := by
  unfold Net.getLayerOutputs at h
  split at h
  · cases h
  obtain ⟨⟨zs, ls⟩, h1, h⟩ := Res.bind_eq_ok.1 h
  cases h
  obtain ⟨i1, i2⟩ := chained h1
  refine ⟨i1, fun k hk => ?_⟩
  obtain ⟨y, e1, e2⟩ := i2 k hk
  have hne : (n.layers.take (k + 1)).isEmpty = false := by
    cases hl : n.layers with
    | nil => rw [hl] at hk; simp at hk
    | cons l ls => rfl
  refine ⟨y, ?_⟩
  unfold Net.output
  dsimp only
  rw [hne, e2]
  exact ⟨_, e1, rfl⟩

/-- **C64** (the last layer). The outputs drawn for the last layer are what `computeOutput` answers with a temporal reset, and drawing leaves the layers in the same state
as that call. -/
theorem C64_last {n n' : Net F} {x : List F} {ys : List (List F)} (h : n.getLayerOutputs x = .ok (ys, n')) :
    ∃ y m, ys.getLast? = some y ∧ n.output x true = .ok (y, m) ∧ m.layers = n'.layers ∧ n'.outputNan = n.outputNan := by
  unfold Net.getLayerOutputs at h
  split at h
  · cases h
  rename_i hne
  obtain ⟨⟨zs, ls⟩, h1, h⟩ := Res.bind_eq_ok.1 h
  cases h
  obtain ⟨i1, i2⟩ := chained h1
  have hpos : 0 < n.layers.length := by
    cases hl : n.layers with
    | nil => rw [hl] at hne; simp at hne
    | cons l ls => simp
  obtain ⟨y, e1, e2⟩ := i2 (n.layers.length - 1) (by omega)
  rw [Nat.sub_add_cancel hpos, List.take_length] at e2
  have hll : ls.length = n.layers.length := by
    have : ∀ {as bs : List (Layer F)} {x : List F} {ys : List (List F)}, layerOutputsLoop as x = .ok (ys, bs) → bs.length = as.length := by
      intro as
      induction as with
      | nil => intro bs x ys h; cases h; rfl
      | cons a as ih =>
        intro bs x ys h
        unfold layerOutputsLoop at h
        obtain ⟨⟨y, l'⟩, h1, h⟩ := Res.bind_eq_ok.1 h
        obtain ⟨⟨zs, ls1⟩, h2, h⟩ := Res.bind_eq_ok.1 h
        cases h
        simp [ih h2]
    exact this h1
  rw [← hll, List.take_length] at e2
  refine ⟨y, ?_⟩
  unfold Net.output
  rw [if_neg hne, e2, List.getLast?_eq_getElem?, i1]
  exact ⟨_, e1, rfl, rfl, rfl⟩

end

/-- On the recurrent example network (2 layers). -/
example : ∃ ys n', Demo.recurrent.net.getLayerOutputs [3] = .ok (ys, n') ∧ ys.length = 2 ∧ ys[0]? ≠ ys[1]? ∧
    ∃ y m, ys.getLast? = some y ∧ Demo.recurrent.net.output [3] true = .ok (y, m) ∧ y ≠ [] := by
  have h1 := Res.eq_get (Demo.recurrent.net.getLayerOutputs [3]) (by decide +kernel)
  obtain ⟨y, m, k1, k2, _⟩ := C64_last h1
  refine ⟨_, _, h1, by decide +kernel, by decide +kernel, y, m, k1, k2, ?_⟩
  rintro rfl
  revert k1
  decide +kernel

end Snn.LayerOutputsProps
