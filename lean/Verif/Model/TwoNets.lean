import Verif.Model.Race

/-!
# Model of two networks used at the same time

Two networks, each one used by a client thread of its own and with its own training threads. They share nothing but the generators:
`static std::mt19937 rng` (Tools.hpp:41) is one object for each translation unit, used by every network of the process.
-/

namespace Snn.Async

open Snn Snn.Race

/-- The memory locations of a process with two networks: the members of the network b, and the generators. -/
inductive Place where
  | own (b : Bool) (l : Loc)
  | generator (k : Option Nature)
  deriving DecidableEq, Repr

/-- Where a location of the network b is (Tools.hpp:41 for the generators). -/
def place (b : Bool) : Loc → Place
  | .rng k => .generator k
  | l => .own b l

/-- The threads of the network b: `none` is its client, `some i` the training threads that it started
(StraightforwardNeuralNetwork.cpp:76). -/
def actor (b : Bool) (who : Option Nat) : Option (Bool × Option Nat) := some (b, who)

/-- The events of the network b as events of the process (StraightforwardNeuralNetwork.cpp:76, 190: start and end of its threads). -/
def tag (b : Bool) (e : MemEvent Nat Loc) : MemEvent (Bool × Option Nat) Place :=
  ⟨actor b e.who, match e.act with
    | .access l w => .access (place b l) w
    | .fork t => .fork (b, some t)
    | .join t => .join (b, some t)⟩

variable {F : Type} [Flt F] [FTrans F] [Add F] [Sub F] [Mul F] [Div F] [Neg F]

/-- The executions of the process: at every time one of the two networks (`true` and `false`) makes a step of its client or of one
of its threads (StraightforwardNeuralNetwork.cpp:71-123, 184-229). -/
inductive Exec2 (p : Bool → Program F) (r0 : Bool → Run F) : List (MemEvent (Bool × Option Nat) Place) → (Bool → Sys F) → Prop
  | start : Exec2 p r0 [] (fun b => Sys.start (r0 b))
  | client {tr : List (MemEvent (Bool × Option Nat) Place)} {σ : Bool → Sys F} {b : Bool} {τ : Sys F} (h : Exec2 p r0 tr σ) (hs : ClientStep (p b) (σ b) τ) :
      Exec2 p r0 (tr ++ (clientEvents (σ b) τ).map (tag b)) (Function.update σ b τ)
  | thread {tr : List (MemEvent (Bool × Option Nat) Place)} {σ : Bool → Sys F} {b : Bool} {τ : Sys F} {i : Nat} (h : Exec2 p r0 tr σ) (hs : ThreadStep i (σ b) τ) :
      Exec2 p r0 (tr ++ (threadEvents i (σ b)).map (tag b)) (Function.update σ b τ)

end Snn.Async
