import Verif.Proofs.HeapProofs
import Verif.Demo.DemoSave

/-!
# C32: a copy is independent of its original

Programs that make, copy, call and destroy networks, in any order: the objects behave as independent values. In particular no pointer
is dangling, and a call on a network changes no other one.
-/

set_option linter.all false

namespace Snn.HeapProps

open Snn.Spec HistoryProps

section
variable {F : Type} [Flt F] [FTrans F] [Add F] [Sub F] [Mul F] [Div F] [Neg F]

theorem valueStep_set {vs vs' : List (Snn F)} {op : Op F} (h : ∀ s ∈ vs, ∃ arch, s.net.Set arch) (hs : ValueStep vs op vs') :
    ∀ s ∈ vs', ∃ arch, s.net.Set arch := by
  cases hs with
  | @make arch o d d' s hm =>
    intro x hx
    rcases List.mem_append.1 hx with hx | hx
    · exact h x hx
    · rw [List.mem_singleton.1 hx]
      unfold Snn.make at hm
      obtain ⟨⟨net, d1⟩, h1, hm⟩ := Res.bind_eq_ok.1 hm
      obtain ⟨err, _, hm⟩ := Res.bind_eq_ok.1 hm
      split at hm
      · cases hm
      · cases hm
        obtain ⟨a, b, c, e⟩ := Net.make_set h1
        exact ⟨arch, a, by rw [c]; exact b, e⟩
  | @copy i s t hi hc =>
    intro x hx
    rcases List.mem_append.1 hx with hx | hx
    · exact h x hx
    · rw [List.mem_singleton.1 hx]
      obtain ⟨arch, hs⟩ := h s (List.mem_of_getElem? hi)
      rw [Snn.copy_eq hs] at hc
      cases hc
      obtain ⟨l, h1, h2⟩ := hs.clusters
      exact ⟨arch, hs.opts, hs.hasOpt, l, h1, by simpa [Stats.startTesting] using h2⟩
  | @call i s c data draws ticks r' hi hc =>
    intro x hx
    rcases List.mem_or_eq_of_mem_set hx with hx | hx
    · exact h x hx
    · obtain ⟨arch, hs⟩ := h s (List.mem_of_getElem? hi)
      rw [hx]
      exact ⟨arch, hs.kin (Call.run_kin hc)⟩
  | destroy hi => exact fun x hx => h x (List.mem_of_mem_eraseIdx hx)

theorem set_copies {vs : List (Snn F)} (h : ∀ s ∈ vs, ∃ arch, s.net.Set arch) : ∀ s ∈ vs, ∃ t, s.copy = .ok t := fun s hs => by
  obtain ⟨arch, ha⟩ := h s hs
  exact ⟨_, Snn.copy_eq ha⟩

theorem heapExec_rep {ops : List (Op F)} : ∀ {w w' : World F} {vs : List (Snn F)}, Rep w vs → (∀ s ∈ vs, ∃ arch, s.net.Set arch) →
    Exec HeapStep w ops w' → ∃ vs', Exec ValueStep vs ops vs' ∧ Rep w' vs' ∧ ∀ s ∈ vs', ∃ arch, s.net.Set arch := by
  intro w w' vs hr hv he
  induction he generalizing vs with
  | nil => exact ⟨vs, .nil, hr, hv⟩
  | cons hs _ ih =>
    obtain ⟨v1, s1, r1⟩ := HeapStep.value hr hs (set_copies hv)
    obtain ⟨v2, s2, r2, a2⟩ := ih r1 (valueStep_set hv s1)
    exact ⟨v2, .cons s1 s2, r2, a2⟩

theorem rep_empty : Rep (World.empty : World F) [] := ⟨.nil, List.nodup_nil, by simp [World.empty]⟩

/-- C32. Whatever a program does (make, copy, call and destroy networks), its networks have the values that the same program computes
with independent values. -/
theorem C32_programs (ops : List (Op F)) (w : World F) (h : Exec HeapStep World.empty ops w) :
    ∃ vs, Exec ValueStep [] ops vs ∧ List.Forall₂ (Holds w.heap) w.nets vs := by
  obtain ⟨vs, h1, h2, _⟩ := heapExec_rep rep_empty (by simp) h
  exact ⟨vs, h1, h2.holds⟩

/-- C32. Every program that runs with independent values runs with the objects. -/
theorem C32_programs_run (ops : List (Op F)) (vs : List (Snn F)) (h : Exec ValueStep [] ops vs) :
    ∃ w, Exec HeapStep World.empty ops w ∧ List.Forall₂ (Holds w.heap) w.nets vs := by
  have : ∀ {v0 vs : List (Snn F)} {w0 : World F} {ops : List (Op F)}, Rep w0 v0 → Exec ValueStep v0 ops vs →
      ∃ w, Exec HeapStep w0 ops w ∧ List.Forall₂ (Holds w.heap) w.nets vs := by
    intro v0 vs w0 ops hr he
    induction he generalizing w0 with
    | nil => exact ⟨w0, .nil, hr.holds⟩
    | cons hs _ ih =>
      obtain ⟨w1, s1, r1⟩ := ValueStep.heap hr hs
      obtain ⟨w2, s2, r2⟩ := ih r1
      exact ⟨w2, .cons s1 s2, r2⟩
  exact this rep_empty h

/-- C32. After any program, a call on one network, or its copy or its destruction, leaves every other network with the value it had. -/
theorem C32_independent (ops : List (Op F)) (w w' : World F) (op : Op F) (h : Exec HeapStep World.empty ops w)
    (hs : HeapStep w op w') (p : HSnn F) (s : Snn F) (j : Nat) (hp : w.nets[j]? = some p) (hv : Holds w.heap p s)
    (hop : match op with | .call i .. => i ≠ j | .destroy i => i ≠ j | _ => True) : Holds w'.heap p s := by
  obtain ⟨vs, h1, hr, ha⟩ := heapExec_rep rep_empty (by simp) h
  obtain ⟨heap, nets⟩ := w
  have hfr : ∀ {q : HSnn F} {i : Nat}, nets[i]? = some q → i ≠ j → ∀ x ∈ heap.owned p, x ∉ heap.owned q := by
    intro q i hi hij x hx hx'
    have hn := hr.nodup
    rw [List.nodup_flatMap] at hn
    simp only at hp hi
    obtain ⟨hi1, rfl⟩ := List.getElem?_eq_some_iff.1 hi
    obtain ⟨hj1, rfl⟩ := List.getElem?_eq_some_iff.1 hp
    have hpw := List.pairwise_iff_getElem.1 hn.2
    rcases Nat.lt_or_gt_of_ne hij with hlt | hgt
    · exact hpw i j hi1 hj1 hlt hx' hx
    · exact hpw j i hj1 hi1 hgt hx hx'
  have hlt : ∀ x ∈ heap.owned p, x < heap.next := fun x hx => hr.bound x (mem_owned (List.mem_of_getElem? hp) hx)
  cases hs with
  | make hm =>
    obtain ⟨g, _, _⟩ := Heap.make_spec heap _ (Snn.make_clone hm)
    exact Holds.frame hv fun x hx => g.cell x (hlt x hx)
  | @copy i p' q h' hi hc =>
    obtain ⟨s', k1, k2⟩ := forall₂_getElem? hr.holds i hi
    obtain ⟨t, ht⟩ := set_copies ha s' (List.mem_of_getElem? k1)
    obtain ⟨q', h'', e, g, _, _⟩ := Heap.copy_spec k2 (fun x hx => hr.bound x (mem_owned (List.mem_of_getElem? hi) hx)) ht
    rw [hc] at e
    cases e
    exact Holds.frame hv fun x hx => g.cell x (hlt x hx)
  | @call i p' s' c data draws ticks r' hi hh hc =>
    refine Holds.frame hv fun x hx => setMany_not_mem ?_
    rw [writes_fst hh (Call.run_kin hc)]
    exact hfr hi hop x hx
  | @destroy i p' hi =>
    refine Holds.frame hv fun x hx => ?_
    simp only [Heap.free, if_neg (hfr hi hop x hx)]

end

/-! ### Witness -/

/-- A program: make the recurrent network, copy it, train the copy, destroy the original, use the copy. -/
example : ∃ w : World ℚ, Exec HeapStep World.empty
    [.make Demo.recurrentArch Demo.sgd Demo.draws, .copy 0, .call 1 (.train Demo.env Demo.series (litEp 1) 1 1 50) Demo.series Demo.draws 0,
      .destroy 0, .call 0 (.computeOutput [1] true) Demo.series Demo.draws 0] w ∧ w.nets.length = 1 := by
  obtain ⟨w, h1, h2⟩ := C32_programs_run (F := ℚ)
    [.make Demo.recurrentArch Demo.sgd Demo.draws, .copy 0, .call 1 (.train Demo.env Demo.series (litEp 1) 1 1 50) Demo.series Demo.draws 0,
      .destroy 0, .call 0 (.computeOutput [1] true) Demo.series Demo.draws 0] [Demo.copyUsed.snn]
    (.cons (w' := [Demo.recurrent]) (.make (vs := []) (s := Demo.recurrent) (Res.eq_get _ (by decide +kernel)))
      (.cons (w' := [Demo.recurrent, Demo.copied])
        (.copy (vs := [Demo.recurrent]) (i := 0) (s := Demo.recurrent) (t := Demo.copied) rfl (Res.eq_get _ _))
        (.cons (w' := [Demo.recurrent, Demo.copyTrained.snn])
          (.call (vs := [Demo.recurrent, Demo.copied]) (i := 1) (s := Demo.copied) (r' := Demo.copyTrained) rfl (Res.eq_get _ _))
          (.cons (w' := [Demo.copyTrained.snn]) (.destroy (vs := [Demo.recurrent, Demo.copyTrained.snn]) (i := 0) (by decide))
            (.cons (w' := [Demo.copyUsed.snn])
              (.call (vs := [Demo.copyTrained.snn]) (i := 0) (s := Demo.copyTrained.snn) (r' := Demo.copyUsed) rfl (Res.eq_get _ _))
              .nil)))))
  refine ⟨w, h1, ?_⟩
  rw [forall₂_length_eq h2]
  rfl

end Snn.HeapProps
