import Verif.Model.Race
import Verif.Proofs.AsyncProofs

/-! Data races of the asynchronous training. -/

set_option linter.all false

namespace Snn.Race

variable {T L : Type}

theorem HappensBefore.lt {tr : List (MemEvent T L)} {a b : Nat} (h : HappensBefore tr a b) : a < b := by
  induction h with
  | order h => exact h
  | fork h => exact h
  | join h => exact h
  | trans _ _ h k => exact h.trans k

theorem HappensBefore.mono {tr : List (MemEvent T L)} {a b : Nat} (h : HappensBefore tr a b) (ext : List (MemEvent T L)) : HappensBefore (tr ++ ext) a b := by
  have key : ∀ {i : Nat} {e : MemEvent T L}, tr[i]? = some e → (tr ++ ext)[i]? = some e := by
    intro i e hi
    rw [List.getElem?_append_left (List.getElem?_eq_some_iff.1 hi).1]
    exact hi
  induction h with
  | order h ha hb hw => exact .order h (key ha) (key hb) hw
  | fork h ha hb he hf => exact .fork h (key ha) (key hb) he hf
  | join h ha hb he hf => exact .join h (key ha) (key hb) he hf
  | trans _ _ h k => exact .trans h k

/-- What happens after an event of a thread that nobody joined is done by this thread. -/
theorem stays_inside {tr : List (MemEvent T L)} {t : T} (hj : ∀ e ∈ tr, e.act ≠ .join t) (hf : ∀ e ∈ tr, ∀ u, e.act = .fork u → e.who = none) {a b : Nat} (h : HappensBefore tr a b) :
    ∀ {e f : MemEvent T L}, tr[a]? = some e → tr[b]? = some f → e.who = some t → f.who = some t := by
  induction h with
  | order h ha hb hw => intro e f he hf' k; rw [ha] at he; rw [hb] at hf'; cases he; cases hf'; rw [← hw, k]
  | fork h ha hb he' hf'' =>
    intro e f he hf' k
    rw [ha] at he
    cases he
    rw [hf _ (List.mem_of_getElem? ha) _ he'] at k
    cases k
  | join h ha hb he' hf'' =>
    intro e f he hf' k
    rw [ha] at he
    cases he
    rw [he'] at k
    cases k
    exact absurd hf'' (hj _ (List.mem_of_getElem? hb))
  | @trans a b c h1 h2 ih1 ih2 =>
    intro e f he hf' k
    have hb : ∃ g, tr[b]? = some g := by
      have := HappensBefore.lt h2
      have hc : c < tr.length := (List.getElem?_eq_some_iff.1 hf').1
      exact ⟨tr[b], List.getElem?_eq_getElem (by omega)⟩
    obtain ⟨g, hg⟩ := hb
    exact ih2 hg hf' (ih1 he hg k)

theorem middle {tr : List (MemEvent T L)} {a b c : Nat} (h1 : HappensBefore tr a b) (h2 : HappensBefore tr b c) {f : MemEvent T L}
    (hf : tr[c]? = some f) : ∃ g, tr[b]? = some g := by
  have := h2.lt
  have hc : c < tr.length := (List.getElem?_eq_some_iff.1 hf).1
  exact ⟨tr[b], List.getElem?_eq_getElem (by omega)⟩

/-- What happens after an event that follows the start of a thread, in another thread, is not done by this thread. -/
theorem stays_outside {tr : List (MemEvent T L)} {t : T} {p : Nat} (hj : ∀ e ∈ tr, ∀ u, e.act = .join u → e.who = none)
    (hu : ∀ q (e : MemEvent T L), tr[q]? = some e → e.act = .fork t → q = p) {a b : Nat} (h : HappensBefore tr a b) :
    ∀ {e f : MemEvent T L}, tr[a]? = some e → tr[b]? = some f → p < a → e.who ≠ some t → f.who ≠ some t := by
  induction h with
  | order h ha hb hw => intro e f he hf' _ k; rw [ha] at he; rw [hb] at hf'; cases he; cases hf'; rw [← hw]; exact k
  | @fork a b e0 f0 u h ha hb he' hf'' =>
    intro e f he hf' hp k
    rw [hb] at hf'
    cases hf'
    rw [hf'']
    intro heq
    cases heq
    have := hu a _ ha he'
    omega
  | join h ha hb he' hf'' =>
    intro e f he hf' hp k
    rw [hb] at hf'
    cases hf'
    rw [hj _ (List.mem_of_getElem? hb) _ hf'']
    intro h; cases h
  | @trans a b c h1 h2 ih1 ih2 =>
    intro e f he hf' hp k
    obtain ⟨g, hg⟩ := middle h1 h2 hf'
    have := h1.lt
    exact ih2 hg hf' (by omega) (ih1 he hg hp k)

/-- The accesses to l by a thread that is not joined and by the main thread after it started this thread race. -/
theorem race_of_split {tr pre post : List (MemEvent T L)} {t : T} {l : L} {w v : Bool} (hs : tr = pre ++ ⟨none, .fork t⟩ :: post)
    (hc : ∀ e ∈ tr, ∀ u, (e.act = .fork u → e.who = none) ∧ (e.act = .join u → e.who = none))
    (hf : ∀ e ∈ pre ++ post, e.act ≠ .fork t) (hj : ∀ e ∈ pre ++ post, e.act ≠ .join t)
    (he : ⟨some t, .access l w⟩ ∈ tr) (hm : ⟨none, .access l v⟩ ∈ post) (hw : w = true ∨ v = true) : RaceOn tr l := by
  obtain ⟨a, ha⟩ := List.mem_iff_getElem?.1 he
  obtain ⟨b, hb⟩ := List.mem_iff_getElem?.1 hm
  have hb' : tr[pre.length + 1 + b]? = some ⟨none, .access l v⟩ := by
    rw [hs, List.getElem?_append_right (by omega), show pre.length + 1 + b - pre.length = b + 1 by omega, List.getElem?_cons_succ]
    exact hb
  have hj' : ∀ e ∈ tr, e.act ≠ .join t := by
    intro e hm
    rw [hs] at hm
    rcases List.mem_append.1 hm with h | h
    · exact hj e (List.mem_append_left _ h)
    · rcases List.mem_cons.1 h with rfl | h
      · intro h; cases h
      · exact hj e (List.mem_append_right _ h)
  have hu : ∀ q (e : MemEvent T L), tr[q]? = some e → e.act = .fork t → q = pre.length := by
    intro q e hq ha
    rw [hs] at hq
    rcases lt_trichotomy q pre.length with h | h | h
    · rw [List.getElem?_append_left h] at hq
      exact absurd ha (hf e (List.mem_append_left _ (List.mem_of_getElem? hq)))
    · exact h
    · rw [List.getElem?_append_right (by omega), show q - pre.length = (q - pre.length - 1) + 1 by omega, List.getElem?_cons_succ] at hq
      exact absurd ha (hf e (List.mem_append_right _ (List.mem_of_getElem? hq)))
  refine ⟨a, _, _, _, w, v, ha, hb', by simp, rfl, rfl, hw, ?_, ?_⟩
  · intro h
    have := stays_inside hj' (fun e he u hu => (hc e he u).1 hu) h ha hb' rfl
    cases this
  · intro h
    exact stays_outside (fun e he u hu => (hc e he u).2 hu) hu h hb' ha (by omega) (by simp) rfl

/-- Accesses to locations outside R by different threads are ordered. -/
def Ordered (R : L → Prop) (tr : List (MemEvent T L)) : Prop :=
  ∀ (a b : Nat) (e f : MemEvent T L) (l : L) (w v : Bool), a < b → tr[a]? = some e → tr[b]? = some f → e.who ≠ f.who → e.act = .access l w → f.act = .access l v →
    ¬ R l → HappensBefore tr a b

theorem Ordered.free {R : L → Prop} {tr : List (MemEvent T L)} (h : Ordered R tr) {l : L} (hr : RaceOn tr l) : R l := by
  by_contra hn
  obtain ⟨a, b, e, f, w, v, ha, hb, hne, he, hf, _, h1, h2⟩ := hr
  rcases lt_trichotomy a b with k | k | k
  · exact h1 (h a b e f l w v k ha hb hne he hf hn)
  · subst k
    rw [ha] at hb
    cases hb
    exact hne rfl
  · exact h2 (h b a f e l v w k hb ha hne.symm hf he hn)

theorem Ordered.append {R : L → Prop} {tr ext : List (MemEvent T L)} (h : Ordered R tr) {who : Option T} (hw : ∀ f ∈ ext, f.who = who)
    (hk : ∀ (a b : Nat) (e f : MemEvent T L) (l : L) (w v : Bool), tr[a]? = some e → e.who ≠ who → tr.length ≤ b → (tr ++ ext)[b]? = some f → f ∈ ext → e.act = .access l w →
      f.act = .access l v → ¬ R l → HappensBefore (tr ++ ext) a b) : Ordered R (tr ++ ext) := by
  intro a b e f l w v hab ha hb hne he hf hn
  by_cases h2 : b < tr.length
  · rw [List.getElem?_append_left h2] at hb
    rw [List.getElem?_append_left (by omega)] at ha
    exact (h a b e f l w v hab ha hb hne he hf hn).mono ext
  · have hb0 := hb
    rw [List.getElem?_append_right (by omega)] at hb
    have hfm := List.mem_of_getElem? hb
    by_cases h1 : a < tr.length
    · rw [List.getElem?_append_left h1] at ha
      exact hk a b e f l w v ha (by rw [← hw f hfm]; exact hne) (by omega) hb0 hfm he hf hn
    · rw [List.getElem?_append_right (by omega)] at ha
      exact absurd ((hw e (List.mem_of_getElem? ha)).trans (hw f hfm).symm) hne

/-- Every event of a thread is followed by a join of this thread. -/
def Joined (tr : List (MemEvent T L)) : Prop :=
  ∀ (a : Nat) (e : MemEvent T L) (k : T), tr[a]? = some e → e.who = some k → ∃ c, a < c ∧ tr[c]? = some ⟨none, .join k⟩

theorem Joined.append_main {tr ext : List (MemEvent T L)} (h : Joined tr) (hw : ∀ f ∈ ext, f.who = none) : Joined (tr ++ ext) := by
  intro a e k ha hk
  by_cases h1 : a < tr.length
  · rw [List.getElem?_append_left h1] at ha
    obtain ⟨c, h2, h3⟩ := h a e k ha hk
    refine ⟨c, h2, ?_⟩
    rw [List.getElem?_append_left (List.getElem?_eq_some_iff.1 h3).1]
    exact h3
  · rw [List.getElem?_append_right (by omega)] at ha
    rw [hw e (List.mem_of_getElem? ha)] at hk
    cases hk

theorem get_left {tr ext : List (MemEvent T L)} {a : Nat} {e : MemEvent T L} (h : tr[a]? = some e) : (tr ++ ext)[a]? = some e := by
  rw [List.getElem?_append_left (List.getElem?_eq_some_iff.1 h).1]
  exact h

end Snn.Race

namespace Snn.Async

open Snn Snn.Race

variable {F : Type} [Flt F] [FTrans F] [Add F] [Sub F] [Mul F] [Div F] [Neg F]

/-- What the flags and the results are: the locations that the client reads or writes while a thread may run. -/
def Shared (l : Loc) : Prop := l = .want ∨ l = .idle ∨ l = .epoch ∨ l = .nan ∨ l = .stats

theorem trace_reach {p : Program F} {r0 : Run F} {tr : List (MemEvent Nat Loc)} {σ : Sys F} (h : Exec p r0 tr σ) : Reach p r0 σ := by
  induction h with
  | start => exact .start
  | client _ hs ih => exact ih.step (.inl hs)
  | thread _ hs ih => exact ih.step (.inr ⟨_, hs⟩)

/-- The state of the trace while the member `thread` designates the thread i. -/
structure Running (tr : List (MemEvent Nat Loc)) (σ : Sys F) (i : Nat) (pre post : List (MemEvent Nat Loc)) : Prop where
  split : tr = pre ++ ⟨none, .fork i⟩ :: post
  one : ∀ e ∈ pre ++ post, e.act ≠ .fork i
  live : ∀ e ∈ pre ++ post, e.act ≠ .join i
  bound : i < σ.threads.length
  begun : ∀ j pc, σ.threads[i]? = some (j, pc) → pc ≠ .enter → ⟨some i, .access .want true⟩ ∈ post ∧ ⟨some i, .access .epoch true⟩ ∈ post
  flag : ∀ k, σ.client = .joining k → ⟨none, .access .want true⟩ ∈ post
  main : ∀ e ∈ post, e.who = none → ∀ l w, e.act = .access l w → Shared l
  only : ∀ e ∈ post, ∀ k, e.who = some k → k = i
  joined : Joined pre

structure TraceInv (tr : List (MemEvent Nat Loc)) (σ : Sys F) : Prop where
  actor : ∀ e ∈ tr, ∀ u, (e.act = .fork u → e.who = none) ∧ (e.act = .join u → e.who = none)
  bound : ∀ e ∈ tr, ∀ u, (e.act = .fork u ∨ e.act = .join u) → u < σ.threads.length
  idle : σ.handle = none → Joined tr
  running : ∀ i, σ.handle = some i → ∃ pre post, Running tr σ i pre post
  ordered : Ordered Shared tr

theorem toEvents_who {who : Option Nat} {acc : List (Loc × Bool)} : ∀ e ∈ toEvents who acc, e.who = who ∧ ∃ l w, e.act = .access l w := by
  intro e he
  obtain ⟨a, _, rfl⟩ := List.mem_map.1 he
  exact ⟨rfl, _, _, rfl⟩

theorem Running.append {tr ext pre post : List (MemEvent Nat Loc)} {σ τ : Sys F} {i : Nat} (h : Running tr σ i pre post) {who : Option Nat}
    (hw : ∀ e ∈ ext, e.who = who ∧ ∃ l w, e.act = .access l w) (ht : σ.threads.length ≤ τ.threads.length)
    (hb : ∀ j pc, τ.threads[i]? = some (j, pc) → pc ≠ .enter → ⟨some i, .access .want true⟩ ∈ post ++ ext ∧ ⟨some i, .access .epoch true⟩ ∈ post ++ ext)
    (hf : ∀ k, τ.client = .joining k → ⟨none, .access .want true⟩ ∈ post ++ ext)
    (hm : who = none → ∀ e ∈ ext, ∀ l w, e.act = .access l w → Shared l) (ho : ∀ k, who = some k → k = i) :
    Running (tr ++ ext) τ i pre (post ++ ext) where
  split := by rw [h.split]; simp
  one := by
    intro e he
    rw [← List.append_assoc] at he
    rcases List.mem_append.1 he with k | k
    · exact h.one e k
    · obtain ⟨_, l, w, hl⟩ := hw e k
      rw [hl]; intro h; cases h
  live := by
    intro e he
    rw [← List.append_assoc] at he
    rcases List.mem_append.1 he with k | k
    · exact h.live e k
    · obtain ⟨_, l, w, hl⟩ := hw e k
      rw [hl]; intro h; cases h
  bound := lt_of_lt_of_le h.bound ht
  begun := hb
  flag := hf
  main := by
    intro e he hn
    rcases List.mem_append.1 he with k | k
    · exact h.main e k hn
    · exact hm ((hw e k).1.symm.trans hn) e k
  only := by
    intro e he k hk
    rcases List.mem_append.1 he with m | m
    · exact h.only e m k hk
    · exact ho k ((hw e m).1.symm.trans hk)
  joined := h.joined

/-- A step of the thread that runs. -/
theorem TraceInv.thread {tr : List (MemEvent Nat Loc)} {σ τ : Sys F} {i : Nat} (hsh : Shape σ) (h : TraceInv tr σ) (hs : ThreadStep i σ τ) :
    TraceInv (tr ++ threadEvents i σ) τ := by
  cases hs with
  | action j pc pc' r' ht hne hn =>
    have hh := hsh.owner i j pc ht hne
    have hev : threadEvents i σ = toEvents (some i) (accesses j pc σ.run) := by simp [threadEvents, ht]
    rw [hev]
    have hext := toEvents_who (who := some i) (acc := accesses j pc σ.run)
    obtain ⟨pre, post, hr⟩ := h.running i hh
    refine ⟨?_, ?_, ?_, ?_, ?_⟩
    · intro e he u
      rcases List.mem_append.1 he with k | k
      · exact h.actor e k u
      · obtain ⟨_, l, w, hl⟩ := hext e k
        rw [hl]
        exact ⟨fun h => (by cases h), fun h => by cases h⟩
    · intro e he u
      rcases List.mem_append.1 he with k | k
      · simpa using h.bound e k u
      · obtain ⟨_, l, w, hl⟩ := hext e k
        rw [hl]
        rintro (h | h) <;> cases h
    · intro hn'
      simp only [hh] at hn'
      cases hn'
    · intro i' hi'
      simp only [hh] at hi'
      cases hi'
      refine ⟨pre, _, hr.append hext (by simp) ?_ ?_ (fun h => by cases h) (fun k h => by cases h; rfl)⟩
      · intro j1 pc1 hj1 hne1
        by_cases he : pc = .enter
        · subst he
          constructor <;> exact List.mem_append_right _ (by simp [toEvents, accesses])
        · have := hr.begun j pc ht he
          exact ⟨List.mem_append_left _ this.1, List.mem_append_left _ this.2⟩
      · intro k hk
        exact List.mem_append_left _ (hr.flag k hk)
    · refine h.ordered.append (fun f hf => (hext f hf).1) ?_
      intro a b e f l w v ha hw hb hbf hf he hfl hn'
      have hfw := (hext f hf).1
      have hfork : (tr ++ toEvents (some i) (accesses j pc σ.run))[pre.length]? = some ⟨none, .fork i⟩ := by
        refine get_left ?_
        rw [hr.split, List.getElem?_append_right (by omega)]
        simp
      have hpl : pre.length < tr.length := by rw [hr.split]; simp
      have e1 : HappensBefore (tr ++ toEvents (some i) (accesses j pc σ.run)) pre.length b := .fork (by omega) hfork hbf rfl hfw
      have hal : a < tr.length := (List.getElem?_eq_some_iff.1 ha).1
      -- the event is before the start of the thread
      have hpre : a < pre.length := by
        rcases lt_trichotomy a pre.length with k | k | k
        · exact k
        · subst k
          rw [hr.split, List.getElem?_append_right (by omega)] at ha
          simp at ha
          rw [← ha] at he
          cases he
        · exfalso
          have hm := ha
          rw [hr.split, List.getElem?_append_right (by omega), show a - pre.length = (a - pre.length - 1) + 1 by omega, List.getElem?_cons_succ] at hm
          have hm := List.mem_of_getElem? hm
          cases hwe : e.who with
          | none => exact hn' (hr.main e hm hwe l w he)
          | some k => exact hw (by rw [hwe, hr.only e hm k hwe])
      cases hwe : e.who with
      | none => exact .trans (.order hpre (get_left ha) hfork (by rw [hwe])) e1
      | some k =>
        have ha' : pre[a]? = some e := by
          rw [hr.split, List.getElem?_append_left hpre] at ha
          exact ha
        obtain ⟨c, h1, h2⟩ := hr.joined a e k ha' hwe
        have hc : c < pre.length := (List.getElem?_eq_some_iff.1 h2).1
        have hc' : (tr ++ toEvents (some i) (accesses j pc σ.run))[c]? = some ⟨none, .join k⟩ := by
          refine get_left ?_
          rw [hr.split]
          exact get_left h2
        exact .trans (.join h1 (get_left ha) hc' hwe rfl) (.trans (.order hc hc' hfork rfl) e1)

/-- A step of the client that accesses only shared locations while a thread is not joined. -/
theorem TraceInv.main {tr ext : List (MemEvent Nat Loc)} {σ τ : Sys F} (h : TraceInv tr σ) (hext : ∀ e ∈ ext, e.who = none ∧ ∃ l w, e.act = .access l w)
    (ht : τ.threads = σ.threads) (hh : τ.handle = σ.handle)
    (hf : ∀ k, τ.client = .joining k → (∃ k, σ.client = .joining k) ∨ ⟨none, .access .want true⟩ ∈ ext)
    (hm : σ.handle = none ∨ ∀ e ∈ ext, ∀ l w, e.act = .access l w → Shared l) : TraceInv (tr ++ ext) τ := by
  refine ⟨?_, ?_, ?_, ?_, ?_⟩
  · intro e he u
    rcases List.mem_append.1 he with k | k
    · exact h.actor e k u
    · obtain ⟨_, l, w, hl⟩ := hext e k
      rw [hl]
      exact ⟨fun h => (by cases h), fun h => by cases h⟩
  · intro e he u
    rw [ht]
    rcases List.mem_append.1 he with k | k
    · exact h.bound e k u
    · obtain ⟨_, l, w, hl⟩ := hext e k
      rw [hl]
      rintro (h | h) <;> cases h
  · intro hn
    rw [hh] at hn
    exact (h.idle hn).append_main fun f hf => (hext f hf).1
  · intro i hi
    rw [hh] at hi
    obtain ⟨pre, post, hr⟩ := h.running i hi
    refine ⟨pre, _, hr.append hext (by rw [ht]) ?_ ?_ ?_ (fun k h => by cases h)⟩
    · intro j pc hj hne
      rw [ht] at hj
      have := hr.begun j pc hj hne
      exact ⟨List.mem_append_left _ this.1, List.mem_append_left _ this.2⟩
    · intro k hk
      rcases hf k hk with ⟨k', h'⟩ | h'
      · exact List.mem_append_left _ (hr.flag k' h')
      · exact List.mem_append_right _ h'
    · intro _
      rcases hm with h' | h'
      · rw [hi] at h'; cases h'
      · exact h'
  · refine h.ordered.append (fun f hf => (hext f hf).1) ?_
    intro a b e f l w v ha hw hb hbf hfm he hfl hn
    rcases hm with hm | hm
    · cases hwe : e.who with
      | none => exact absurd hwe hw
      | some k =>
        obtain ⟨c, h1, h2⟩ := h.idle hm a e k ha hwe
        have hc := (List.getElem?_eq_some_iff.1 h2).1
        exact .trans (.join h1 (get_left ha) (get_left h2) hwe rfl) (.order (by omega) (get_left h2) hbf (hext f hfm).1.symm)
    · exact absurd (hm f hfm l v hfl) hn

theorem ordered_noAccess {tr : List (MemEvent Nat Loc)} {e : MemEvent Nat Loc} (h : Ordered Shared tr) (he : ∀ l w, e.act ≠ .access l w) : Ordered Shared (tr ++ [e]) := by
  refine h.append (who := e.who) (fun f hf => by rw [List.mem_singleton.1 hf]) ?_
  intro a b e' f l w v _ _ _ _ hf _ hfl
  rw [List.mem_singleton.1 hf] at hfl
  exact absurd hfl (he l v)

theorem TraceInv.client {p : Program F} {tr : List (MemEvent Nat Loc)} {σ τ : Sys F} (hsh : Shape σ) (h : TraceInv tr σ) (hs : ClientStep p σ τ) :
    TraceInv (tr ++ clientEvents σ τ) τ := by
  have hfree := hsh.free
  cases hs with
  | callStart j hp hr hw hv => exact h.main (by simp [clientEvents, hr]) rfl rfl (fun k hk => by cases hk) (by simp [clientEvents, hr])
  | callTrain j hp hr hv hi =>
    refine h.main ?_ rfl rfl (fun k hk => by cases hk) (Or.inr ?_) <;> simp only [clientEvents, hr]
    · exact toEvents_who
    · simp [toEvents, Shared]
  | callThrows hr =>
    have : clientEvents σ σ = [] := by simp [clientEvents, hr]
    rw [this]
    exact h.main (by simp) rfl rfl (fun k hk => .inl ⟨k, hk⟩) (by simp)
  | callStop hr => exact h.main (by simp [clientEvents, hr]) rfl rfl (fun k hk => by cases hk) (by simp [clientEvents, hr])
  | callDestructor hr => exact h.main (by simp [clientEvents, hr]) rfl rfl (fun k hk => by cases hk) (by simp [clientEvents, hr])
  | setWant k hc =>
    refine h.main ?_ rfl rfl (fun k hk => .inr ?_) (Or.inr ?_) <;> simp only [clientEvents, hc]
    · exact toEvents_who
    · simp [toEvents]
    · simp [toEvents, Shared]
  | notJoinable k hc hh => exact h.main (by simp [clientEvents, hc, hh]) rfl rfl (fun k hk => by cases hk) (by simp [clientEvents, hc, hh])
  | join k i j hc hh hd =>
    have hev : clientEvents σ { σ with handle := none, client := .stopped k } = [⟨none, .join i⟩] := by simp [clientEvents, hc, hh]
    rw [hev]
    obtain ⟨pre, post, hr⟩ := h.running i hh
    refine ⟨?_, ?_, ?_, ?_, ordered_noAccess h.ordered (by simp)⟩
    · intro e he u
      rcases List.mem_append.1 he with m | m
      · exact h.actor e m u
      · rw [List.mem_singleton.1 m]; simp
    · intro e he u
      rcases List.mem_append.1 he with m | m
      · exact h.bound e m u
      · rw [List.mem_singleton.1 m]
        rintro (h | h)
        · cases h
        · cases h; exact hr.bound
    · intro _ a e t ha hw
      by_cases h1 : a < tr.length
      · rw [List.getElem?_append_left h1] at ha
        by_cases h2 : a < pre.length
        · have ha' : pre[a]? = some e := by
            rw [hr.split, List.getElem?_append_left h2] at ha
            exact ha
          obtain ⟨c, h3, h4⟩ := hr.joined a e t ha' hw
          refine ⟨c, h3, get_left ?_⟩
          rw [hr.split]
          exact get_left h4
        · have hti : t = i := by
            rw [hr.split, List.getElem?_append_right (by omega)] at ha
            rcases List.mem_cons.1 (List.mem_of_getElem? ha) with m | m
            · rw [m] at hw; cases hw
            · exact hr.only e m t hw
          refine ⟨tr.length, h1, ?_⟩
          rw [List.getElem?_append_right (by omega), hti]
          simp
      · rw [List.getElem?_append_right (by omega)] at ha
        rw [List.mem_singleton.1 (List.mem_of_getElem? ha)] at hw
        cases hw
    · intro i' hi'
      cases hi'
  | returnStop hc => exact h.main (by simp [clientEvents, hc]) rfl rfl (fun k hk => by cases hk) (by simp [clientEvents, hc])
  | endDestructor hc => exact h.main (by simp [clientEvents, hc]) rfl rfl (fun k hk => by cases hk) (by simp [clientEvents, hc])
  | spawn j hc hh =>
    have hev : clientEvents σ { σ with threads := σ.threads ++ [(j, .enter)], handle := some σ.threads.length, client := .ready } = [⟨none, .fork σ.threads.length⟩] := by
      simp [clientEvents, hc]
    rw [hev]
    refine ⟨?_, ?_, ?_, ?_, ordered_noAccess h.ordered (by simp)⟩
    · intro e he u
      rcases List.mem_append.1 he with m | m
      · exact h.actor e m u
      · rw [List.mem_singleton.1 m]; simp
    · intro e he u
      rw [List.length_append, List.length_singleton]
      rcases List.mem_append.1 he with m | m
      · intro hu
        have := h.bound e m u hu
        omega
      · rw [List.mem_singleton.1 m]
        rintro (h | h)
        · cases h; omega
        · cases h
    · intro hn; cases hn
    · intro i hi
      cases hi
      refine ⟨tr, [], rfl, ?_, ?_, by simp, ?_, fun k hk => (by cases hk), by simp, by simp, h.idle hh⟩
      · intro e he hf
        have := h.bound e (by simpa using he) _ (.inl hf)
        omega
      · intro e he hf
        have := h.bound e (by simpa using he) _ (.inr hf)
        omega
      · intro j' pc hj hne
        rw [List.getElem?_append_right (by omega)] at hj
        simp at hj
        exact absurd hj.2.symm hne
  | spawnTerminates j hc hh =>
    rw [hc] at hfree
    exact absurd hfree hh
  | enterTrain j hc => exact h.main (by simp [clientEvents, hc]) rfl rfl (fun k hk => by cases hk) (by simp [clientEvents, hc])
  | trainAction j pc pc' r' hc hne hn =>
    rw [hc] at hfree
    refine h.main ?_ rfl rfl (fun k hk => by cases hk) (Or.inl hfree)
    simp only [clientEvents, hc]
    exact toEvents_who
  | trainReturns j hc =>
    rw [hc] at hfree
    refine h.main ?_ rfl rfl (fun k hk => by cases hk) (Or.inl hfree)
    simp only [clientEvents, hc]
    exact toEvents_who
  | callWait w hr => exact h.main (by simp [clientEvents, hr]) rfl rfl (fun k hk => by cases hk) (by simp [clientEvents, hr])
  | poll w t hc =>
    refine h.main ?_ rfl rfl ?_ (Or.inr ?_)
    · simp only [clientEvents, hc]
      exact toEvents_who
    · intro k hk
      simp only at hk
      split at hk <;> cases hk
    · simp only [clientEvents, hc]
      simp [toEvents, Shared]
  | use r' hr hu =>
    have : clientEvents σ { σ with run := r' } = [] := by simp [clientEvents, hr]
    rw [this]
    exact h.main (by simp) rfl rfl (fun k hk => .inl ⟨k, hk⟩) (by simp)

theorem trace_inv {p : Program F} {r0 : Run F} {tr : List (MemEvent Nat Loc)} {σ : Sys F} (h : Exec p r0 tr σ) : TraceInv tr σ := by
  induction h with
  | start => exact ⟨by simp, by simp, fun _ a e k h => (by simp at h), fun i h => (by cases h), fun a b e f l w v _ h => by simp at h⟩
  | client h hs ih => exact ih.client (reach_shape (trace_reach h)) hs
  | thread h hs ih => exact ih.thread (reach_shape (trace_reach h)) hs

end Snn.Async
