/-!
# Specification: data races

The part of the C++ memory model that the library uses: program order, the creation of a thread and `join`. There are no atomic
variables and no mutexes in the library ([intro.races] of the C++ standard).
-/

namespace Snn.Race

/-- What a thread does: read or write a location, start the thread t, wait for the end of the thread t. -/
inductive Action (T L : Type) where
  | access (l : L) (write : Bool)
  | fork (t : T)
  | join (t : T)

/-- One event of an execution: who did what; `none` is the main thread. -/
structure MemEvent (T L : Type) where
  who : Option T
  act : Action T L

variable {T L : Type}

/-- Event a happens before event b: by the order of one thread, because a starts the thread of b, because b waits for the end of the
thread of a, or in several such steps. -/
inductive HappensBefore (tr : List (MemEvent T L)) : Nat → Nat → Prop
  | order {a b : Nat} {e f : MemEvent T L} (h : a < b) (ha : tr[a]? = some e) (hb : tr[b]? = some f) (hw : e.who = f.who) : HappensBefore tr a b
  | fork {a b : Nat} {e f : MemEvent T L} {t : T} (h : a < b) (ha : tr[a]? = some e) (hb : tr[b]? = some f) (he : e.act = .fork t) (hf : f.who = some t) :
      HappensBefore tr a b
  | join {a b : Nat} {e f : MemEvent T L} {t : T} (h : a < b) (ha : tr[a]? = some e) (hb : tr[b]? = some f) (he : e.who = some t) (hf : f.act = .join t) :
      HappensBefore tr a b
  | trans {a b c : Nat} (h : HappensBefore tr a b) (k : HappensBefore tr b c) : HappensBefore tr a c

/-- A data race on the location l: two threads access it, one of them writes, and neither access happens before the other. The
behaviour of a C++ program with a data race is undefined. -/
def RaceOn (tr : List (MemEvent T L)) (l : L) : Prop :=
  ∃ (a b : Nat) (e f : MemEvent T L) (w v : Bool), tr[a]? = some e ∧ tr[b]? = some f ∧ e.who ≠ f.who ∧ e.act = .access l w ∧ f.act = .access l v ∧ (w = true ∨ v = true) ∧
    ¬ HappensBefore tr a b ∧ ¬ HappensBefore tr b a

end Snn.Race
