import Verif.Proofs.AsyncProofs
import Mathlib.Algebra.Order.Field.Basic

/-! Proofs about the asynchronous training: fair executions. -/

set_option linter.all false

namespace Snn.Async

open Snn Snn.Spec Snn.Async.Spec Snn.TrainProofs

section
variable {F : Type} [Flt F] [FTrans F] [Add F] [Sub F] [Mul F] [Div F] [Neg F]

theorem exec_inv {ni no : Nat} {p : Program F} (hp : Fits ni no p) {r0 : Run F} (h0 : SafeNet ni no r0.snn.net) {E : Nat → Sys F}
    (hE : Execution p r0 E) (n : Nat) : SysInv ni no (E n) := by
  induction n with
  | zero => rw [hE.start]; exact SysInv.start h0
  | succ n ih =>
    rcases hE.step n with h | h
    · exact ih.step hp h
    · rw [h]; exact ih

/-- Weak fairness for one process `R`: if `P` makes `R` able to act and only `R` can end `P`, then `R` acts while `P` holds. -/
theorem eventually {p : Program F} {r0 : Run F} {E : Nat → Sys F} (hE : Execution p r0 E) (R : Sys F → Sys F → Prop)
    (hfair : ∀ n, ∃ m, n ≤ m ∧ (R (E m) (E (m + 1)) ∨ ¬ ∃ τ, R (E m) τ)) (P : Sys F → Prop)
    (hen : ∀ σ, P σ → ∃ τ, R σ τ) (hst : ∀ σ τ, P σ → Step p σ τ → ¬ R σ τ → P τ) (n : Nat) (hn : P (E n)) :
    ∃ m, n ≤ m ∧ P (E m) ∧ R (E m) (E (m + 1)) := by
  classical
  obtain ⟨m, hm, hR⟩ := hfair n
  by_contra hno
  push Not at hno
  have hall : ∀ k, n ≤ k → P (E k) := by
    intro k hk
    induction k, hk using Nat.le_induction with
    | base => exact hn
    | succ k hk ih =>
      have hr := hno k hk ih
      rcases hE.step k with h | h
      · exact hst _ _ ih h hr
      · rw [h]; exact ih
  rcases hR with hR | hR
  · exact hno m hm (hall m hm) hR
  · exact hR (hen _ (hall m hm))

/-- The state in which the client waits for a loop that has been told to stop. -/
structure Waiting (ni no : Nat) (k : Then F) (σ : Sys F) : Prop where
  inv : SysInv ni no σ
  client : σ.client = .joining k
  told : ∀ i j pc, σ.handle = some i → σ.threads[i]? = some (j, pc) → Told pc σ.run
  valid : ∀ i, σ.handle = some i → ∃ j pc, σ.threads[i]? = some (j, pc)

theorem client_of_joining {p : Program F} {σ τ : Sys F} {k : Then F} (hc : σ.client = .joining k) (hs : ClientStep p σ τ) :
    τ.client = .stopped k ∧ (σ.handle = none ∨ ∃ i j, σ.handle = some i ∧ σ.threads[i]? = some (j, .done)) := by
  cases hs with
  | notJoinable k' hc' hh => rw [hc] at hc'; cases hc'; exact ⟨rfl, Or.inl hh⟩
  | join k' i j hc' hh hd => rw [hc] at hc'; cases hc'; exact ⟨rfl, Or.inr ⟨i, j, hh, hd⟩⟩
  | callThrows hr => rw [hc] at hr; cases hr
  | callStart j hp hr hw hv => rw [hc] at hr; cases hr
  | callTrain j hp hr hv hi => rw [hc] at hr; cases hr
  | callStop hr => rw [hc] at hr; cases hr
  | callDestructor hr => rw [hc] at hr; cases hr
  | setWant k' hr => rw [hc] at hr; cases hr
  | returnStop hr => rw [hc] at hr; cases hr
  | endDestructor hr => rw [hc] at hr; cases hr
  | spawn j hr hh => rw [hc] at hr; cases hr
  | spawnTerminates j hr hh => rw [hc] at hr; cases hr
  | enterTrain j hr => rw [hc] at hr; cases hr
  | trainAction j pc pc' r' hr hne hn => rw [hc] at hr; cases hr
  | trainReturns j hr => rw [hc] at hr; cases hr
  | callWait w hr => rw [hc] at hr; cases hr
  | poll w t hr => rw [hc] at hr; cases hr
  | use r' hr hu => rw [hc] at hr; cases hr

theorem client_of_stopping {p : Program F} {σ τ : Sys F} {k : Then F} (hc : σ.client = .stopping k) (hs : ClientStep p σ τ) :
    τ = { σ with run := { σ.run with snn := { σ.run.snn with wantToStopTraining := true } }, client := .joining k } := by
  cases hs with
  | setWant k' hr => rw [hc] at hr; cases hr; rfl
  | notJoinable k' hr hh => rw [hc] at hr; cases hr
  | join k' i j hr hh hd => rw [hc] at hr; cases hr
  | callThrows hr => rw [hc] at hr; cases hr
  | callStart j hp hr hw hv => rw [hc] at hr; cases hr
  | callTrain j hp hr hv hi => rw [hc] at hr; cases hr
  | callStop hr => rw [hc] at hr; cases hr
  | callDestructor hr => rw [hc] at hr; cases hr
  | returnStop hr => rw [hc] at hr; cases hr
  | endDestructor hr => rw [hc] at hr; cases hr
  | spawn j hr hh => rw [hc] at hr; cases hr
  | spawnTerminates j hr hh => rw [hc] at hr; cases hr
  | enterTrain j hr => rw [hc] at hr; cases hr
  | trainAction j pc pc' r' hr hne hn => rw [hc] at hr; cases hr
  | trainReturns j hr => rw [hc] at hr; cases hr
  | callWait w hr => rw [hc] at hr; cases hr
  | poll w t hr => rw [hc] at hr; cases hr
  | use r' hr hu => rw [hc] at hr; cases hr

theorem waiting_returns {ni no : Nat} {p : Program F} (hp : Fits ni no p) {r0 : Run F} {E : Nat → Sys F} (hE : Execution p r0 E)
    (hF : Fair p E) {k : Then F} : ∀ (R : Nat) (n : Nat), Waiting ni no k (E n) →
      (∀ i j pc, (E n).handle = some i → (E n).threads[i]? = some (j, pc) → rank pc (E n).run ≤ R) → ∃ m, n ≤ m ∧ (E m).client = .stopped k := by
  intro R
  induction R with
  | zero =>
    intro n hw hr
    have hcan : ∀ σ, σ = E n → ∃ τ, ClientStep p σ τ := by
      rintro σ rfl
      cases hh : (E n).handle with
      | none => exact ⟨_, .notJoinable k hw.client hh⟩
      | some i =>
        obtain ⟨j, pc, ht⟩ := hw.valid i hh
        have h1 := hr i j pc hh ht
        have h2 := hw.told i j pc hh ht
        have : pc = .done := by
          cases pc <;> simp [rank, Told] at h1 h2 ⊢
        subst this
        exact ⟨_, .join k i j hw.client hh ht⟩
    obtain ⟨m, hm, e, hs⟩ := eventually hE (ClientStep p) hF.client (fun σ => σ = E n) hcan (by
      rintro σ τ rfl hs hno
      rcases hs with hs | ⟨i, hs⟩
      · exact absurd hs hno
      · exfalso
        cases hs with
        | action j pc pc' r' ht hne hn =>
          have hh := hw.inv.shape.owner i j pc ht hne
          have h1 := hr i j pc hh ht
          have h2 := hw.told i j pc hh ht
          cases pc <;> simp [rank, Told] at h1 h2 hne) n rfl
    have := (client_of_joining (by rw [e]; exact hw.client) hs).1
    exact ⟨m + 1, by omega, this⟩
  | succ R ih =>
    intro n hw hr
    by_cases hdone : (E n).handle = none ∨ ∃ i j, (E n).handle = some i ∧ (E n).threads[i]? = some (j, .done)
    · have hr' : ∀ i j pc, (E n).handle = some i → (E n).threads[i]? = some (j, pc) → rank pc (E n).run ≤ R := by
        intro i j pc h1 h2
        rcases hdone with h | ⟨i', j', h, h'⟩
        · rw [h] at h1; cases h1
        · rw [h] at h1; cases h1; rw [h2] at h'; cases h'; simp [rank]
      exact ih n hw hr'
    · push Not at hdone
      obtain ⟨hne, hnd⟩ := hdone
      obtain ⟨i, hh⟩ := Option.ne_none_iff_exists'.1 hne
      obtain ⟨j, pc, ht⟩ := hw.valid i hh
      have hpc : pc ≠ .done := by rintro rfl; exact hnd i j hh ht
      have hj := hw.inv.jobs i j pc ht
      obtain ⟨pc1, r1, e1, e2, e3⟩ := next_ok hw.inv.net hj.1 hj.2 (hw.inv.loops i j pc ht)
      obtain ⟨m, hm, e, hs⟩ := eventually hE (ThreadStep i) (hF.thread i) (fun σ => σ = E n)
        (by rintro σ rfl; exact ⟨_, .action j pc pc1 r1 ht hpc e1⟩) (by
          rintro σ τ rfl hs hno
          exfalso
          rcases hs with hs | ⟨i', hs⟩
          · rcases (client_of_joining hw.client hs).2 with h | ⟨i', j', h, h'⟩
            · exact hne h
            · exact hnd i' j' h h'
          · have : i' = i := by
              cases hs with
              | action j' pc' pc'' r' ht' hne' hn' =>
                have := hw.inv.shape.owner i' j' pc' ht' hne'
                rw [hh] at this
                exact (Option.some.inj this).symm
            subst this
            exact hno hs) n rfl
      have hlt : i < (E n).threads.length := by
        by_contra hge
        rw [List.getElem?_eq_none (by omega)] at ht; cases ht
      have hinv' : SysInv ni no (E (m + 1)) := by
        have := hw.inv
        rw [← e] at this
        exact this.thread hs
      rw [e] at hs
      generalize hτ : E (m + 1) = τ at hs hinv'
      cases hs with
      | action j' pc' pc'' r' ht' hne' hn' =>
        rw [ht] at ht'
        cases ht'
        obtain ⟨t1, t2⟩ := next_told (hw.inv.loops i j pc ht) (hw.told i j pc hh ht) hpc hn'
        have hth : ∀ i1 j1 pc1, (E n).handle = some i1 → ((E n).threads.set i (j, pc''))[i1]? = some (j1, pc1) → j1 = j ∧ pc1 = pc'' := by
          intro i1 j1 pc1 g1 g2
          rw [hh] at g1; cases g1
          rw [List.getElem?_set_self hlt] at g2; cases g2
          exact ⟨rfl, rfl⟩
        have hw' : Waiting ni no k (E (m + 1)) := by
          rw [hτ]
          refine ⟨hinv', hw.client, ?_, ?_⟩
          · intro i1 j1 pc1 g1 g2
            obtain ⟨rfl, rfl⟩ := hth i1 j1 pc1 g1 g2
            exact t1
          · intro i1 g1
            have g1 : (E n).handle = some i1 := g1
            rw [hh] at g1; cases g1
            exact ⟨j, pc'', List.getElem?_set_self hlt⟩
        obtain ⟨m', g1, g2⟩ := ih (m + 1) hw' (by
          intro i1 j1 pc1 g1 g2
          rw [hτ] at g1 g2 ⊢
          obtain ⟨rfl, rfl⟩ := hth i1 j1 pc1 g1 g2
          have := hr i j1 pc hh ht
          simp only at t2 ⊢
          omega)
        exact ⟨m', by omega, g2⟩

/-- Handles are valid. -/
theorem reach_valid {p : Program F} {r0 : Run F} {E : Nat → Sys F} (hE : Execution p r0 E) (n : Nat) :
    ∀ i, (E n).handle = some i → i < (E n).threads.length := by
  induction n with
  | zero => rw [hE.start]; intro i h; cases h
  | succ n ih =>
    rcases hE.step n with (h | ⟨i', h⟩) | h
    · generalize E (n + 1) = τ at h ⊢
      cases h with
      | join k i j hc hh hd => intro i h; cases h
      | spawn j hc hh => intro i h; cases h; simp
      | spawnTerminates j hc hh => intro i h; have := ih i h; simp; omega
      | _ => exact ih
    · generalize E (n + 1) = τ at h ⊢
      cases h with
      | action j pc pc' r' ht hne hn => intro i h; simpa using ih i h
    · rw [h]; exact ih

theorem stop_returns {ni no : Nat} {p : Program F} (hp : Fits ni no p) {r0 : Run F} (h0 : SafeNet ni no r0.snn.net) {E : Nat → Sys F}
    (hE : Execution p r0 E) (hF : Fair p E) {k : Then F} (n : Nat) (hc : (E n).client = .stopping k) (hnc : ¬ NotYetCleared (E n)) :
    ∃ m, n ≤ m ∧ (E m).client = .stopped k := by
  obtain ⟨m, hm, ⟨⟨hinv, hv⟩, hc', hnc'⟩, hs⟩ := eventually hE (ClientStep p) hF.client
    (fun σ => (SysInv ni no σ ∧ ∀ i, σ.handle = some i → i < σ.threads.length) ∧ σ.client = .stopping k ∧ ¬ NotYetCleared σ)
    (fun σ h => ⟨_, .setWant k h.2.1⟩) (by
      rintro σ τ ⟨⟨h1, hv⟩, h2, h3⟩ hs hno
      rcases hs with hs | ⟨i, hs⟩
      · exact absurd hs hno
      · refine ⟨⟨h1.thread hs, ?_⟩, ?_⟩
        · cases hs with
          | action j pc pc' r' ht hne hn => intro i h; simpa using hv i h
        cases hs with
        | action j pc pc' r' ht hne hn =>
          refine ⟨h2, ?_⟩
          rintro ⟨i', j', g1, g2⟩
          have hh := h1.shape.owner i j pc ht hne
          simp only at g1 g2
          rw [hh] at g1
          cases g1
          rw [List.getElem?_set_self (hv _ hh)] at g2
          cases g2
          have hpc : pc ≠ .enter := by rintro rfl; exact h3 ⟨i, _, hh, ht⟩
          -- no action leads back to `enter`
          have hback : ∀ (pc : Pc) (r r' : Run F), next j pc r ≠ .ok (.enter, r') := by
            intro pc r r' hn
            cases pc with
            | evaluating s k =>
              cases k with
              | zero => cases s <;> simp [next, afterEvaluate] at hn
              | succ k =>
                simp only [next] at hn
                split at hn
                · cases hn
                · obtain ⟨_, _, hn⟩ := Res.bind_eq_ok.1 hn; cases hn
            | evalTest s =>
              have key : ∀ (c : Bool), (if c = true then
                (.ok (.evaluating s r.data.testing.size, { r with snn := { r.snn with
                  net := { r.snn.net with stats := r.snn.net.stats.startTesting }
                  index := 0 } }) : Res (Pc × Run F))
                else .ok (afterEvaluate s r)) ≠ .ok (.enter, r') := by
                intro c hn
                cases c <;> cases s <;> cases hn
              exact key _ hn
            | evalIdle s => cases s <;> simp [next, afterEvaluate] at hn
            | epochTest =>
              simp only [next] at hn
              injection hn with hn
              have := (Prod.mk.inj hn).1
              split at this <;> cases this
            | shuffling => obtain ⟨_, _, hn⟩ := Res.bind_eq_ok.1 hn; cases hn
            | stepTest =>
              simp only [next] at hn
              split at hn
              · injection hn with hn
                have := (Prod.mk.inj hn).1
                split at this <;> cases this
              · cases hn
            | stepBody =>
              simp only [next] at hn
              split at hn
              · cases hn
              · obtain ⟨_, _, hn⟩ := Res.bind_eq_ok.1 hn; cases hn
            | _ => cases hn
          exact hback _ _ _ hn) n ⟨⟨exec_inv hp h0 hE n, reach_valid hE n⟩, hc, hnc⟩
  have e := client_of_stopping hc' hs
  have hinv' := exec_inv hp h0 hE (m + 1)
  have hw : Waiting ni no k (E (m + 1)) := by
    refine ⟨hinv', by rw [e], ?_, ?_⟩
    · intro i j pc g1 g2
      rw [e] at g1 g2 ⊢
      simp only at g1 g2
      have hpc : pc ≠ .enter := by rintro rfl; exact hnc' ⟨i, j, g1, g2⟩
      have hl := hinv.loops i j pc g2
      rcases hl with h | h | ⟨_, h⟩
      · exact absurd h hpc
      · subst h; trivial
      · cases pc <;> simp [Told] at hpc h ⊢ <;> exact h
    · intro i g1
      rw [e] at g1 ⊢
      have := hv i g1
      exact ⟨_, _, List.getElem?_eq_getElem this⟩
  have hbound : ∃ R, ∀ i j pc, (E (m + 1)).handle = some i → (E (m + 1)).threads[i]? = some (j, pc) → rank pc (E (m + 1)).run ≤ R := by
    cases hh : (E (m + 1)).handle with
    | none => exact ⟨0, by intro i j pc h; cases h⟩
    | some i =>
      obtain ⟨j, pc, ht⟩ := hw.valid i hh
      exact ⟨rank pc (E (m + 1)).run, by intro i' j' pc' h1 h2; cases h1; rw [ht] at h2; cases h2; exact le_refl _⟩
  obtain ⟨R, hR⟩ := hbound
  obtain ⟨m', g1, g2⟩ := waiting_returns hp hE hF R (m + 1) hw hR
  exact ⟨m', by omega, g2⟩

end

end Snn.Async
