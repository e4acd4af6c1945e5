import Verif.Proofs.FrameProofs

/-! An invariant of the layers that forward and backward passes keep is kept by every call. -/

set_option linter.all false

namespace Snn

open Spec HistoryProps

section
variable {F : Type} [Flt F] [FTrans F] [Add F] [Sub F] [Mul F] [Div F] [Neg F]

/-- What the passes of a network keep of its layers. -/
structure Kept (P : List (Layer F) → Prop) : Prop where
  out : ∀ {t : Bool} {ls ls' : List (Layer F)} {x y : List F}, P ls → outputLoop t ls x = .ok (y, ls') → P ls'
  training : ∀ {t : Bool} {ls ls' : List (Layer F)} {x y : List F} {d d' : Draws F}, P ls → trainingLoop t ls x d = .ok (y, ls', d') → P ls'
  back : ∀ {ls ls' : List (Layer F)} {es : List F}, P ls → backwardPass ls es = .ok ls' → P ls'

namespace Kept
variable {P : List (Layer F) → Prop}

theorem output (k : Kept P) {n n' : Net F} {x y : List F} {t : Bool} (hp : P n.layers) (h : n.output x t = .ok (y, n')) : P n'.layers := by
  unfold Net.output at h
  split at h
  · cases h
  · obtain ⟨⟨o, ls⟩, h1, h⟩ := Res.bind_eq_ok.1 h
    cases h
    exact k.out hp h1

theorem outputForTraining (k : Kept P) {n n' : Net F} {x y : List F} {t : Bool} {d d' : Draws F} (hp : P n.layers)
    (h : n.outputForTraining x t d = .ok (y, n', d')) : P n'.layers := by
  unfold Net.outputForTraining at h
  split at h
  · cases h
  · obtain ⟨⟨o, ls, d1⟩, h1, h⟩ := Res.bind_eq_ok.1 h
    cases h
    exact k.training hp h1

theorem trainOnce (k : Kept P) {n n' : Net F} {x y : List F} {t : Bool} {d d' : Draws F} (hp : P n.layers)
    (h : n.trainOnce x y t d = .ok (n', d')) : P n'.layers := by
  unfold Net.trainOnce at h
  obtain ⟨⟨m, d1⟩, h1, h⟩ := Res.bind_eq_ok.1 h
  cases h
  unfold Net.backpropagation at h1
  obtain ⟨⟨o, m1, d2⟩, h2, h1⟩ := Res.bind_eq_ok.1 h1
  have hk := k.outputForTraining hp h2
  simp only at h1
  split at h1
  · cases h1; exact hk
  · obtain ⟨es, _, h1⟩ := Res.bind_eq_ok.1 h1
    obtain ⟨ls, h3, h1⟩ := Res.bind_eq_ok.1 h1
    cases h1
    exact k.back hk h3

theorem evaluateOnce (k : Kept P) {s s' : Snn F} {data : Data F} (hp : P s.net.layers) (h : s.evaluateOnce data = .ok s') : P s'.net.layers := by
  unfold Snn.evaluateOnce at h
  obtain ⟨x, _, h⟩ := Res.bind_eq_ok.1 h
  obtain ⟨first, _, h⟩ := Res.bind_eq_ok.1 h
  split at h <;>
  · obtain ⟨y, _, h⟩ := Res.bind_eq_ok.1 h
    obtain ⟨sep, _, h⟩ := Res.bind_eq_ok.1 h
    obtain ⟨⟨out, net⟩, h1, h⟩ := Res.bind_eq_ok.1 h
    obtain ⟨st, h2, h⟩ := Res.bind_eq_ok.1 h
    cases h
    have := k.output hp h1
    exact this

theorem evaluateLoop (k : Kept P) {nan : F} {data : Data F} : ∀ {m : Nat} {s s' : Snn F} {b : Bool},
    P s.net.layers → evaluateLoop nan data m s = .ok (b, s') → P s'.net.layers
  | 0, s, s', b, hp, h => by cases h; exact hp
  | m + 1, s, s', b, hp, h => by
    unfold Snn.evaluateLoop at h
    split at h
    · cases h; exact hp
    · obtain ⟨need, _, h⟩ := Res.bind_eq_ok.1 h
      obtain ⟨s1, h1, h⟩ := Res.bind_eq_ok.1 h
      refine evaluateLoop k ?_ h
      split at h1
      · have := k.evaluateOnce hp h1
        exact this
      · obtain ⟨x, _, h1⟩ := Res.bind_eq_ok.1 h1
        obtain ⟨first, _, h1⟩ := Res.bind_eq_ok.1 h1
        obtain ⟨⟨_, net⟩, h2, h1⟩ := Res.bind_eq_ok.1 h1
        cases h1
        exact k.output hp h2

theorem evaluate (k : Kept P) {env : Env F} {r r' : Run F} (hp : P r.snn.net.layers) (h : r.evaluate env = .ok r') : P r'.snn.net.layers := by
  unfold Run.evaluate at h
  simp only at h
  obtain ⟨⟨b, s⟩, h1, h⟩ := Res.bind_eq_ok.1 h
  have hk := k.evaluateLoop (by exact hp) h1
  simp only at h
  split at h
  · cases h; exact hk
  · split at h
    · cases h; exact hk
    · cases h; exact hk

theorem trainStep (k : Kept P) {env : Env F} {b : Int} {r r' : Run F} {ret : Bool} (hp : P r.snn.net.layers)
    (h : r.trainStep env b = .ok (ret, r')) : P r'.snn.net.layers := by
  unfold Run.trainStep at h
  simp only at h
  split at h
  · cases h; exact hp
  · obtain ⟨need, _, h⟩ := Res.bind_eq_ok.1 h
    obtain ⟨⟨x, d1⟩, _, h⟩ := Res.bind_eq_ok.1 h
    obtain ⟨first, _, h⟩ := Res.bind_eq_ok.1 h
    cases need
    · simp only [Bool.false_eq_true, if_false] at h
      obtain ⟨⟨o, net, d⟩, h1, h⟩ := Res.bind_eq_ok.1 h
      cases h
      exact k.outputForTraining hp h1
    · simp only [if_true] at h
      obtain ⟨⟨y, d2⟩, _, h⟩ := Res.bind_eq_ok.1 h
      obtain ⟨⟨net, d⟩, h1, h⟩ := Res.bind_eq_ok.1 h
      cases h
      exact k.trainOnce hp h1

theorem call (k : Kept P) {r r' : Run F} {c : Call F} (hp : P r.snn.net.layers) (h : c.run r = .ok r') : P r'.snn.net.layers := by
  cases c with
  | computeOutput x t =>
    simp only [Call.run, Snn.computeOutput] at h
    cases h1 : r.snn.net.output x t with
    | ok p =>
      obtain ⟨o, n⟩ := p
      rw [h1] at h
      cases h
      exact k.output hp h1
    | throw m => rw [h1] at h; cases h
    | ub m => rw [h1] at h; cases h
  | computeCluster x t =>
    simp only [Call.run, Snn.computeCluster] at h
    cases h1 : r.snn.net.output x t with
    | ok p =>
      obtain ⟨o, n⟩ := p
      rw [h1] at h
      cases h
      exact k.output hp h1
    | throw m => rw [h1] at h; cases h
    | ub m => rw [h1] at h; cases h
  | evaluate env data => exact k.evaluate (r := { r with data := data }) (by exact hp) (by exact h)
  | train env data wait b ef fuel =>
    exact train_induct (env := env) (fun n _ _ => P n.layers) (fun _ _ _ h => h)
      (fun q q' b ret hq _ hs => k.trainStep hq hs) (fun q q' hq he => k.evaluate hq he)
      (by exact hp) h
  | saveAs path =>
    simp only [Call.run, Run.saveAs] at h
    split at h
    · cases h
    · cases h; exact hp
  | autoSave w path =>
    simp only [Call.run] at h
    cases h; exact hp

/-- After any history of calls that returned. -/
theorem history (k : Kept P) : ∀ {cs : List (Call F)} {r r' : Run F}, P r.snn.net.layers → cs.foldlM Call.run r = .ok r' → P r'.snn.net.layers
  | [], r, r', hp, h => by cases h; exact hp
  | c :: cs, r, r', hp, h => by
    rw [List.foldlM_cons] at h
    obtain ⟨r1, h1, h⟩ := Res.bind_eq_ok.1 h
    exact history k (k.call hp h1) h

end Kept

end

end Snn
