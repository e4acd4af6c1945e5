import Verif.Proofs.RaceProofs
import Verif.Props.AsyncProps

/-!
# C91 — a network that trains asynchronously has no data race

The full statement is false: the flag that stops a training is a plain `bool`. Proved: the locations on which there are races are the
two flags and the results that `waitFor` reads; the weights, the data and the counters of the loops never are.
-/

set_option linter.all false

namespace Snn.RaceProps

open Snn Snn.Async Snn.Race

variable {F : Type} [Flt F] [FTrans F] [Add F] [Sub F] [Mul F] [Div F] [Neg F]

theorem restrict {T L : Type} {tr ext : List (MemEvent T L)} {a b : Nat} (h : HappensBefore (tr ++ ext) a b) (hb : b < tr.length) : HappensBefore tr a b := by
  have key : ∀ {i : Nat} {e : MemEvent T L}, (tr ++ ext)[i]? = some e → i < tr.length → tr[i]? = some e := by
    intro i e hi hl
    rw [List.getElem?_append_left hl] at hi
    exact hi
  induction h with
  | order h ha hb' hw => exact .order h (key ha (by omega)) (key hb' hb) hw
  | fork h ha hb' he hf => exact .fork h (key ha (by omega)) (key hb' hb) he hf
  | join h ha hb' he hf => exact .join h (key ha (by omega)) (key hb' hb) he hf
  | trans h1 h2 ih1 ih2 =>
    have := h2.lt
    exact .trans (ih1 (by omega)) (ih2 hb)

/-- A race stays a race whatever happens next. -/
theorem race_mono {T L : Type} {tr : List (MemEvent T L)} {l : L} (h : RaceOn tr l) (ext : List (MemEvent T L)) : RaceOn (tr ++ ext) l := by
  obtain ⟨a, b, e, f, w, v, ha, hb, hne, he, hf, hw, h1, h2⟩ := h
  refine ⟨a, b, e, f, w, v, get_left ha, get_left hb, hne, he, hf, hw, ?_, ?_⟩
  · exact fun h => h1 (restrict h (List.getElem?_eq_some_iff.1 hb).1)
  · exact fun h => h2 (restrict h (List.getElem?_eq_some_iff.1 ha).1)

/-- **C91**, the proved part: in every execution of every client (any number of trainings, stops, waits, in any interleaving), a data
race can only be on `wantToStopTraining`, `isIdle`, the epoch number, the NaN flag and the results of the evaluations: the weights and
memories of the layers, the indexes of the data, the positions of the loops and the generators are never raced. Missing: these five
members (`C91_stop_refuted`, `C91_wait_refuted`), and the other calls during a training. -/
theorem C91_weights_partial {p : Program F} {r0 : Run F} {tr : List (MemEvent Nat Loc)} {σ : Sys F} (h : Exec p r0 tr σ) :
    ¬ RaceOn tr .layers ∧ ¬ RaceOn tr .data ∧ ¬ RaceOn tr .index ∧ ¬ RaceOn tr .perEpoch ∧ ∀ k, ¬ RaceOn tr (.rng k) := by
  have key : ∀ l, RaceOn tr l → Shared l := fun l hl => (trace_inv h).ordered.free hl
  refine ⟨fun h => ?_, fun h => ?_, fun h => ?_, fun h => ?_, fun k h => ?_⟩ <;>
    rcases key _ h with h | h | h | h | h <;> cases h

/-- While the client waits in `join` for a thread that began, the flag is raced. -/
theorem joining_races {p : Program F} {r0 : Run F} {tr : List (MemEvent Nat Loc)} {σ : Sys F} (h : Exec p r0 tr σ) {k : Then F} (hc : σ.client = .joining k)
    {i : Nat} (hh : σ.handle = some i) {j : Job F} {pc : Pc} (ht : σ.threads[i]? = some (j, pc)) (hpc : pc ≠ .enter) : RaceOn tr .want := by
  have hi := trace_inv h
  obtain ⟨pre, post, hr⟩ := hi.running i hh
  refine race_of_split hr.split hi.actor hr.one hr.live ?_ (hr.flag k hc) (Or.inl rfl)
  rw [hr.split]
  exact List.mem_append_right _ (List.mem_cons_of_mem _ (hr.begun j pc ht hpc).1)

/-- **C91** refuted: every execution in which a training thread is joined — by `stopTrainingAsync`, by the next training or by the
destructor — has a data race on `wantToStopTraining`: its behaviour is undefined in C++. -/
theorem C91_stop_refuted {p : Program F} {r0 : Run F} {tr : List (MemEvent Nat Loc)} {σ : Sys F} (h : Exec p r0 tr σ) {i : Nat}
    (hj : ⟨none, .join i⟩ ∈ tr) : RaceOn tr .want := by
  induction h with
  | start => cases hj
  | @thread tr σ τ i' h hs ih =>
    rcases List.mem_append.1 hj with m | m
    · exact race_mono (ih m) _
    · exfalso
      simp only [threadEvents] at m
      split at m
      · obtain ⟨_, l, w, hl⟩ := toEvents_who _ m
        cases hl
      · cases m
  | @client tr σ τ h hs ih =>
    rcases List.mem_append.1 hj with m | m
    · exact race_mono (ih m) _
    · refine race_mono ?_ _
      cases hc : σ.client with
      | joining k =>
        cases hs with
        | join k' i' j hc' hh hd => exact joining_races h hc' hh hd (by simp)
        | notJoinable k' hc' hh => simp [clientEvents, hc', hh] at m
        | callThrows hr => rw [hc] at hr; cases hr
        | callStart j hp hr hw hv => rw [hc] at hr; cases hr
        | callTrain j hp hr hv hi => rw [hc] at hr; cases hr
        | callStop hr => rw [hc] at hr; cases hr
        | callDestructor hr => rw [hc] at hr; cases hr
        | setWant k' hr => rw [hc] at hr; cases hr
        | returnStop hr => rw [hc] at hr; cases hr
        | endDestructor hr => rw [hc] at hr; cases hr
        | spawn j hr hh => rw [hc] at hr; cases hr
        | spawnTerminates j hr hh => rw [hc] at hr; cases hr
        | enterTrain j hr => rw [hc] at hr; cases hr
        | trainAction j pc pc' r' hr hne hn => rw [hc] at hr; cases hr
        | trainReturns j hr => rw [hc] at hr; cases hr
        | callWait w hr => rw [hc] at hr; cases hr
        | poll w t hr => rw [hc] at hr; cases hr
        | use r' hr hu => rw [hc] at hr; cases hr
      | ready =>
        exfalso
        simp only [clientEvents, hc] at m
        split at m
        · simp [toEvents] at m
        · cases m
      | stopping k => simp [clientEvents, hc, toEvents] at m
      | stopped k => exfalso; cases k <;> simp [clientEvents, hc] at m
      | training j pc =>
        exfalso
        simp only [clientEvents, hc] at m
        obtain ⟨_, l, w, hl⟩ := toEvents_who _ m
        cases hl
      | waiting w => simp [clientEvents, hc, toEvents] at m
      | destroyed => simp [clientEvents, hc] at m
      | terminated => simp [clientEvents, hc] at m

/-- A thread was started: it is the one of the member `thread`, or a join is in the trace. -/
theorem started {p : Program F} {r0 : Run F} {tr : List (MemEvent Nat Loc)} {σ : Sys F} (h : Exec p r0 tr σ) (ht : σ.threads ≠ []) :
    σ.handle ≠ none ∨ ∃ i, ⟨none, .join i⟩ ∈ tr := by
  induction h with
  | start => exact absurd rfl ht
  | @thread tr σ τ i' h hs ih =>
    cases hs with
    | action j pc pc' r' ht' hne hn =>
      have : σ.threads ≠ [] := by intro h; rw [h] at ht'; cases ht'
      rcases ih this with h1 | ⟨i, h1⟩
      · exact .inl h1
      · exact .inr ⟨i, List.mem_append_left _ h1⟩
  | @client tr σ τ h hs ih =>
    have lift : (σ.handle ≠ none ∨ ∃ i, ⟨none, .join i⟩ ∈ tr) → τ.handle = σ.handle → τ.handle ≠ none ∨ ∃ i, ⟨none, .join i⟩ ∈ tr ++ clientEvents σ τ := by
      rintro (h1 | ⟨i, h1⟩) h2
      · rw [h2]; exact .inl h1
      · exact .inr ⟨i, List.mem_append_left _ h1⟩
    cases hs with
    | join k' i' j hc' hh hd => exact .inr ⟨i', List.mem_append_right _ (by simp [clientEvents, hc', hh])⟩
    | spawn j hr hh => exact .inl (by simp)
    | spawnTerminates j hr hh => exact .inl hh
    | notJoinable k' hc' hh => exact lift (ih ht) rfl
    | callThrows hr => exact lift (ih ht) rfl
    | callStart j hp hr hw hv => exact lift (ih ht) rfl
    | callTrain j hp hr hv hi => exact lift (ih ht) rfl
    | callStop hr => exact lift (ih ht) rfl
    | callDestructor hr => exact lift (ih ht) rfl
    | setWant k' hr => exact lift (ih ht) rfl
    | returnStop hr => exact lift (ih ht) rfl
    | endDestructor hr => exact lift (ih ht) rfl
    | enterTrain j hr => exact lift (ih ht) rfl
    | trainAction j pc pc' r' hr hne hn => exact lift (ih ht) rfl
    | trainReturns j hr => exact lift (ih ht) rfl
    | callWait w hr => exact lift (ih ht) rfl
    | poll w t hr => exact lift (ih ht) rfl
    | use r' hr hu => exact lift (ih ht) rfl

/-- **C91** refuted for whole programs: there is no way to use `startTrainingAsync` without a data race — every execution that
destroys a network after having started a training thread at least once has one. -/
theorem C91_destroyed_refuted {p : Program F} {r0 : Run F} {tr : List (MemEvent Nat Loc)} {σ : Sys F} (h : Exec p r0 tr σ)
    (hc : σ.client = .destroyed) (ht : σ.threads ≠ []) : RaceOn tr .want := by
  have hf := (reach_shape (trace_reach h)).free
  rw [hc] at hf
  rcases started h ht with h1 | ⟨i, h1⟩
  · exact absurd hf h1
  · exact C91_stop_refuted h h1

/-- **C91** refuted: every turn of `waitFor` while the training thread that began is not joined races on the epoch number. -/
theorem C91_wait_refuted {p : Program F} {r0 : Run F} {tr : List (MemEvent Nat Loc)} {σ τ : Sys F} (h : Exec p r0 tr σ) {w : Wait F} (hc : σ.client = .waiting w)
    {i : Nat} (hh : σ.handle = some i) {j : Job F} {pc : Pc} (ht : σ.threads[i]? = some (j, pc)) (hpc : pc ≠ .enter) (hs : ClientStep p σ τ) :
    RaceOn (tr ++ clientEvents σ τ) .epoch := by
  have hi := trace_inv h
  obtain ⟨pre, post, hr⟩ := hi.running i hh
  have hext : clientEvents σ τ = toEvents none [(.nan, false), (.epoch, false), (.stats, false)] := by simp only [clientEvents, hc]
  rw [hext]
  refine race_of_split (pre := pre) (post := post ++ toEvents none [(.nan, false), (.epoch, false), (.stats, false)]) (t := i) (w := true) (v := false) ?_ ?_ ?_ ?_ ?_ ?_ (Or.inl rfl)
  · rw [hr.split]; simp
  · intro e he u
    rcases List.mem_append.1 he with m | m
    · exact hi.actor e m u
    · obtain ⟨h1, l, w, hl⟩ := toEvents_who e m
      exact ⟨fun _ => h1, fun _ => h1⟩
  · intro e he
    rw [← List.append_assoc] at he
    rcases List.mem_append.1 he with m | m
    · exact hr.one e m
    · obtain ⟨h1, l, w, hl⟩ := toEvents_who e m
      rw [hl]; intro h; cases h
  · intro e he
    rw [← List.append_assoc] at he
    rcases List.mem_append.1 he with m | m
    · exact hr.live e m
    · obtain ⟨h1, l, w, hl⟩ := toEvents_who e m
      rw [hl]; intro h; cases h
  · refine List.mem_append_left _ ?_
    rw [hr.split]
    exact List.mem_append_right _ (List.mem_cons_of_mem _ (hr.begun j pc ht hpc).2)
  · exact List.mem_append_right _ (by simp [toEvents])

/-! ### Non-vacuity -/

/-- Every reachable state is reached by an execution with events. -/
theorem exec_of_path {p : Program F} {P : Sys F → Prop} {r0 : Run F} {σ : Sys F} (h : Async.Spec.Path p P (Sys.start r0) σ) : ∃ tr, Exec p r0 tr σ := by
  generalize hs : Sys.start r0 = σ0 at h
  induction h with
  | refl h => subst hs; exact ⟨[], .start⟩
  | tail _ hs' _ ih =>
    obtain ⟨tr, ih⟩ := ih
    rcases hs' with h | ⟨i, h⟩
    · exact ⟨_, ih.client h⟩
    · exact ⟨_, ih.thread h⟩

/-- A concrete network that is trained asynchronously and destroyed: the execution exists, and it has a data race on the flag. -/
example : ∃ tr σ, Exec { submits := fun j => j = { AsyncProps.demoJob with evaluationFrequency := 0 }, other := fun _ _ => False }
      (Demo.run Demo.recurrent Demo.series) tr σ ∧ σ.client = .destroyed ∧ σ.threads ≠ [] ∧ RaceOn tr .want ∧ ¬ RaceOn tr .layers := by
  have hv : (Demo.run Demo.recurrent Demo.series).snn.validData AsyncProps.demoJob.data AsyncProps.demoJob.batchSize = .ok () := by decide +kernel
  obtain ⟨υ, τ, r1, r2, _, _, _, hd, ht⟩ := AsyncProps.demo_path (Demo.run Demo.recurrent Demo.series) ({ AsyncProps.demoJob with evaluationFrequency := 0 } : Job ℚ)
    { submits := fun j => j = { AsyncProps.demoJob with evaluationFrequency := 0 }, other := fun _ _ => False } rfl rfl rfl hv
  have r3 : ∀ {a b : Sys ℚ} {p : Program ℚ}, Async.Spec.Path p (fun _ => True) a υ → Async.Spec.Path p (fun _ => True) υ b → Async.Spec.Path p (fun _ => True) a b := by
    intro a b p h1 h2
    induction h2 with
    | refl _ => exact h1
    | tail _ hs hp ih => exact ih.tail hs hp
  obtain ⟨tr, h⟩ := exec_of_path (r3 r1 r2)
  have ht' : τ.threads ≠ [] := by rw [ht]; simp
  exact ⟨tr, τ, h, hd, ht', C91_destroyed_refuted h hd ht', (C91_weights_partial h).1⟩

/-- The specification is not trivial: accesses ordered by the start and the end of a thread do not race, unordered ones do. -/
example : ¬ RaceOn ([⟨none, .access .layers true⟩, ⟨none, .fork 0⟩, ⟨some 0, .access .layers true⟩, ⟨none, .join 0⟩, ⟨none, .access .layers false⟩] : List (MemEvent Nat Loc)) .layers ∧
    RaceOn ([⟨none, .fork 0⟩, ⟨some 0, .access .want false⟩, ⟨none, .access .want true⟩] : List (MemEvent Nat Loc)) .want := by
  constructor
  · rintro ⟨a, b, e, f, w, v, ha, hb, hne, he, hf, _, h1, h2⟩
    have o : ∀ {a b : Nat} {e f : MemEvent Nat Loc}, ([⟨none, .access .layers true⟩, ⟨none, .fork 0⟩, ⟨some 0, .access .layers true⟩, ⟨none, .join 0⟩, ⟨none, .access .layers false⟩] : List (MemEvent Nat Loc))[a]? = some e →
        ([⟨none, .access .layers true⟩, ⟨none, .fork 0⟩, ⟨some 0, .access .layers true⟩, ⟨none, .join 0⟩, ⟨none, .access .layers false⟩] : List (MemEvent Nat Loc))[b]? = some f → a < b → e.who ≠ f.who →
        HappensBefore ([⟨none, .access .layers true⟩, ⟨none, .fork 0⟩, ⟨some 0, .access .layers true⟩, ⟨none, .join 0⟩, ⟨none, .access .layers false⟩] : List (MemEvent Nat Loc)) a b := by
      intro a b e f ha hb hab hne
      have hb5 : b < 5 := (List.getElem?_eq_some_iff.1 hb).1
      obtain rfl | rfl | rfl | rfl | rfl : b = 0 ∨ b = 1 ∨ b = 2 ∨ b = 3 ∨ b = 4 := by omega
      · omega
      · obtain rfl : a = 0 := by omega
        cases ha; cases hb; exact absurd rfl hne
      · obtain rfl | rfl : a = 0 ∨ a = 1 := by omega
        · exact .trans (.order (b := 1) (by omega) rfl rfl rfl) (.fork (by omega) rfl rfl rfl rfl)
        · exact .fork (by omega) rfl rfl rfl rfl
      · obtain rfl | rfl | rfl : a = 0 ∨ a = 1 ∨ a = 2 := by omega
        · cases ha; cases hb; exact absurd rfl hne
        · cases ha; cases hb; exact absurd rfl hne
        · exact .join (by omega) rfl rfl rfl rfl
      · obtain rfl | rfl | rfl | rfl : a = 0 ∨ a = 1 ∨ a = 2 ∨ a = 3 := by omega
        · cases ha; cases hb; exact absurd rfl hne
        · cases ha; cases hb; exact absurd rfl hne
        · exact .trans (.join (b := 3) (by omega) rfl rfl rfl rfl) (.order (by omega) rfl rfl rfl)
        · cases ha; cases hb; exact absurd rfl hne
    rcases lt_trichotomy a b with k | k | k
    · exact h1 (o ha hb k hne)
    · subst k; rw [ha] at hb; cases hb; exact hne rfl
    · exact h2 (o hb ha k hne.symm)
  · refine race_of_split (pre := []) (post := [⟨some 0, .access .want false⟩, ⟨none, .access .want true⟩]) (t := 0) (w := false) (v := true) rfl ?_ ?_ ?_ ?_ ?_ (Or.inr rfl) <;> simp

end Snn.RaceProps
