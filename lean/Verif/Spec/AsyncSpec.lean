import Verif.Model.Async
import Verif.Spec.SafeSpec

/-! Specification of the asynchronous training: loops that run, executions, fairness. -/

namespace Snn.Async.Spec

open Snn Snn.Async Snn.Spec

section
variable {F : Type}

/-- The program counters of all the calls of `trainSync` made so far that did not return yet: those of the threads and the one of
the client. -/
def liveLoops (σ : Sys F) : List Pc :=
  (σ.threads.map (·.2) ++ (match σ.client with | .training _ pc => [pc] | _ => [])).filter (fun pc => pc ≠ .done)

variable [Flt F] [FTrans F] [Add F] [Sub F] [Mul F] [Div F] [Neg F]

/-- `Path p P σ τ`: the system goes from `σ` to `τ` through states that all satisfy `P`. -/
inductive Path (p : Program F) (P : Sys F → Prop) : Sys F → Sys F → Prop
  | refl {σ : Sys F} (h : P σ) : Path p P σ σ
  | tail {σ τ υ : Sys F} (h : Path p P σ τ) (hs : Step p τ υ) (hp : P υ) : Path p P σ υ

/-- An infinite execution of the system from a new network; at each time either one action takes place or nothing does. -/
structure Execution (p : Program F) (r0 : Run F) (E : Nat → Sys F) : Prop where
  start : E 0 = Sys.start r0
  step : ∀ n, Step p (E n) (E (n + 1)) ∨ E (n + 1) = E n

/-- Weak fairness: the client and every thread never stay forever able to act without acting. -/
structure Fair (p : Program F) (E : Nat → Sys F) : Prop where
  client : ∀ n, ∃ m, n ≤ m ∧ (ClientStep p (E m) (E (m + 1)) ∨ ¬ ∃ τ, ClientStep p (E m) τ)
  thread : ∀ i n, ∃ m, n ≤ m ∧ (ThreadStep i (E m) (E (m + 1)) ∨ ¬ ∃ τ, ThreadStep i (E m) τ)

/-- The member `thread` designates a thread that did not reach line 95 of `trainSync` yet, in which `wantToStopTraining` will
still be cleared (line 94). -/
def NotYetCleared (σ : Sys F) : Prop := ∃ i j, σ.handle = some i ∧ σ.threads[i]? = some (j, .enter)

/-- The trainings submitted fit a network of `ni` inputs and `no` outputs, and the other calls are inferences with inputs of the
right size and saves. -/
structure Fits (ni no : Nat) (p : Program F) : Prop where
  data : ∀ j, p.submits j → Fitted ni no j.data
  other : ∀ r r', p.other r r' → (∃ x t out net, x.length = ni ∧ r.snn.net.output x t = .ok (out, net) ∧
      r' = { r with snn := { r.snn with net := net } }) ∨ ∃ path, r.saveAs path = .ok r'

end

end Snn.Async.Spec
