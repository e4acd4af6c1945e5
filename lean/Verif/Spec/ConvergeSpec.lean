import Verif.Model.Network
import Verif.Spec.ArchSpec
import Verif.Basic.RealFlt

/-!
# Specification: learning one example by heart
-/

namespace Snn.Spec

open Finset

/-- N calls of `trainOnce` on the same example. -/
noncomputable def trainTimes (x des : List ℝ) (t : Bool) : Nat → Net ℝ → Draws ℝ → Res (Net ℝ × Draws ℝ)
  | 0, n, d => .ok (n, d)
  | N + 1, n, d => do
    let (n1, d1) ← n.trainOnce x des t d
    trainTimes x des t N n1 d1

/-- The sum of the squares of the inputs. -/
def energy (x : List ℝ) : ℝ := ∑ i ∈ range x.length, (x.getD i 0) ^ 2

/-- The network runs N training steps on the example `(x, des)` and then answers x by outputs y such that P. -/
def AfterTraining (n : Net ℝ) (d : Draws ℝ) (x des : List ℝ) (t : Bool) (N : Nat) (P : List ℝ → Prop) : Prop :=
  ∃ n' d' y n'', trainTimes x des t N n d = .ok (n', d') ∧ n'.output x false = .ok (y, n'') ∧ y.length = des.length ∧ P y

/-- One layer of m linear neurons on inputs of shape s. -/
def linearArch (s : List Int) (m : Nat) : List (LayerModel ℝ) := [.input s, .fullyConnected m .identity []]

end Snn.Spec
