import Verif.Model.TwoNets
import Verif.Props.RaceProps
import Verif.Proofs.AsyncSolo

/-!
# C92 — two networks can be trained at the same time by two threads

False: both use the same generators, without synchronisation. Proved: they have nothing else in common — every other race is one that
the network has when it is alone, and each network goes through states that it also reaches alone.
-/

set_option linter.all false

namespace Snn.TwoNetsProps

open Snn Snn.Async Snn.Race Snn.RaceProps

variable {F : Type} [Flt F] [FTrans F] [Add F] [Sub F] [Mul F] [Div F] [Neg F]

/-- The trace of the process contains the trace of the network b at the positions f. -/
structure Embeds (b : Bool) (one : List (MemEvent Nat Loc)) (tr : List (MemEvent (Bool × Option Nat) Place)) (f : Nat → Nat) : Prop where
  mono : ∀ a c, a < c → c < one.length → f a < f c
  get : ∀ (a : Nat) (e : MemEvent Nat Loc), one[a]? = some e → tr[f a]? = some (tag b e)
  onto : ∀ (x : Nat) (e : MemEvent (Bool × Option Nat) Place) (w : Option Nat), tr[x]? = some e → e.who = some (b, w) → ∃ a, a < one.length ∧ f a = x

theorem Embeds.same {b : Bool} {one ext : List (MemEvent Nat Loc)} {tr : List (MemEvent (Bool × Option Nat) Place)} {f : Nat → Nat} (h : Embeds b one tr f) :
    ∃ f', Embeds b (one ++ ext) (tr ++ ext.map (tag b)) f' := by
  have hlt : ∀ a, a < one.length → f a < tr.length := by
    intro a ha
    obtain ⟨e, he⟩ : ∃ e, one[a]? = some e := ⟨one[a], List.getElem?_eq_getElem ha⟩
    exact (List.getElem?_eq_some_iff.1 (h.get a e he)).1
  refine ⟨fun a => if a < one.length then f a else tr.length + (a - one.length), ?_, ?_, ?_⟩
  · intro a c hac hc
    beta_reduce
    by_cases h2 : c < one.length
    · rw [if_pos h2, if_pos (by omega)]
      exact h.mono a c hac h2
    · rw [if_neg h2]
      by_cases h1 : a < one.length
      · rw [if_pos h1]
        have := hlt a h1
        omega
      · rw [if_neg h1]; omega
  · intro a e ha
    beta_reduce
    by_cases h1 : a < one.length
    · rw [if_pos h1]
      rw [List.getElem?_append_left h1] at ha
      exact get_left (h.get a e ha)
    · rw [if_neg h1, List.getElem?_append_right (by omega), Nat.add_sub_cancel_left, List.getElem?_map]
      rw [List.getElem?_append_right (by omega)] at ha
      rw [ha]; rfl
  · intro x e w hx hw
    by_cases h1 : x < tr.length
    · rw [List.getElem?_append_left h1] at hx
      obtain ⟨a, h2, h3⟩ := h.onto x e w hx hw
      refine ⟨a, by rw [List.length_append]; omega, ?_⟩
      beta_reduce
      rw [if_pos h2]; exact h3
    · have hl := (List.getElem?_eq_some_iff.1 hx).1
      rw [List.length_append, List.length_map] at hl
      refine ⟨one.length + (x - tr.length), by rw [List.length_append]; omega, ?_⟩
      beta_reduce
      rw [if_neg (by omega)]
      omega

theorem Embeds.other {b b' : Bool} (hb : b' ≠ b) {one : List (MemEvent Nat Loc)} {ext : List (MemEvent Nat Loc)} {tr : List (MemEvent (Bool × Option Nat) Place)} {f : Nat → Nat}
    (h : Embeds b one tr f) : Embeds b one (tr ++ ext.map (tag b')) f := by
  refine ⟨h.mono, fun a e ha => get_left (h.get a e ha), ?_⟩
  intro x e w hx hw
  by_cases h1 : x < tr.length
  · rw [List.getElem?_append_left h1] at hx
    exact h.onto x e w hx hw
  · rw [List.getElem?_append_right (by omega)] at hx
    obtain ⟨e', _, rfl⟩ := List.mem_map.1 (List.mem_of_getElem? hx)
    simp only [tag, actor, Option.some.injEq, Prod.mk.injEq] at hw
    exact absurd hw.1 hb

/-- Every network of the process does what it does alone. -/
theorem project {p : Bool → Program F} {r0 : Bool → Run F} {tr : List (MemEvent (Bool × Option Nat) Place)} {σ : Bool → Sys F} (h : Exec2 p r0 tr σ) (b : Bool) :
    ∃ one f, Exec (p b) (r0 b) one (σ b) ∧ Embeds b one tr f := by
  induction h with
  | start => exact ⟨[], id, .start, ⟨fun a c h hc => by simp at hc, fun a e h => by simp at h, fun x e w h => by simp at h⟩⟩
  | @client tr σ b' τ h hs ih =>
    obtain ⟨one, f, h1, h2⟩ := ih
    by_cases e : b' = b
    · subst e
      obtain ⟨f', h3⟩ := h2.same (ext := clientEvents (σ b') τ)
      refine ⟨_, f', ?_, h3⟩
      rw [Function.update_self]
      exact h1.client hs
    · refine ⟨one, f, ?_, h2.other e⟩
      rw [Function.update_of_ne (Ne.symm e)]
      exact h1
  | @thread tr σ b' τ i h hs ih =>
    obtain ⟨one, f, h1, h2⟩ := ih
    by_cases e : b' = b
    · subst e
      obtain ⟨f', h3⟩ := h2.same (ext := threadEvents i (σ b'))
      refine ⟨_, f', ?_, h3⟩
      rw [Function.update_self]
      exact h1.thread hs
    · refine ⟨one, f, ?_, h2.other e⟩
      rw [Function.update_of_ne (Ne.symm e)]
      exact h1

/-- What is ordered in a network is ordered in the process. -/
theorem Embeds.ordered {b : Bool} {one : List (MemEvent Nat Loc)} {tr : List (MemEvent (Bool × Option Nat) Place)} {f : Nat → Nat} (h : Embeds b one tr f) {a c : Nat}
    (hb : HappensBefore one a c) : HappensBefore tr (f a) (f c) := by
  induction hb with
  | @order a c e g hac ha hc hw =>
    exact .order (h.mono a c hac (List.getElem?_eq_some_iff.1 hc).1) (h.get a e ha) (h.get c g hc) (by simp [tag, hw])
  | @fork a c e g t hac ha hc he hg =>
    exact .fork (t := (b, some t)) (h.mono a c hac (List.getElem?_eq_some_iff.1 hc).1) (h.get a e ha) (h.get c g hc) (by simp [tag, he]) (by simp [tag, actor, hg])
  | @join a c e g t hac ha hc he hg =>
    exact .join (t := (b, some t)) (h.mono a c hac (List.getElem?_eq_some_iff.1 hc).1) (h.get a e ha) (h.get c g hc) (by simp [tag, actor, he]) (by simp [tag, hg])
  | trans _ _ h1 h2 => exact .trans h1 h2

/-- The events of the process are events of one of the two networks. -/
theorem event_of {p : Bool → Program F} {r0 : Bool → Run F} {tr : List (MemEvent (Bool × Option Nat) Place)} {σ : Bool → Sys F} (h : Exec2 p r0 tr σ) :
    ∀ e ∈ tr, ∃ b e', e = tag b e' := by
  induction h with
  | start => intro e h; cases h
  | client h hs ih =>
    intro e he
    rcases List.mem_append.1 he with m | m
    · exact ih e m
    · obtain ⟨e', _, rfl⟩ := List.mem_map.1 m
      exact ⟨_, _, rfl⟩
  | thread h hs ih =>
    intro e he
    rcases List.mem_append.1 he with m | m
    · exact ih e m
    · obtain ⟨e', _, rfl⟩ := List.mem_map.1 m
      exact ⟨_, _, rfl⟩

theorem race_projects {b : Bool} {one : List (MemEvent Nat Loc)} {tr : List (MemEvent (Bool × Option Nat) Place)} {f : Nat → Nat} (h : Embeds b one tr f)
    (ho : ∀ e ∈ tr, ∃ b e', e = tag b e') {l : Loc} (hr : RaceOn tr (.own b l)) : RaceOn one l := by
  obtain ⟨x, y, e, g, w, v, hx, hy, hne, he, hg, hw, h1, h2⟩ := hr
  have key : ∀ (x : Nat) (e : MemEvent (Bool × Option Nat) Place) (w : Bool), tr[x]? = some e → e.act = .access (.own b l) w →
      ∃ a e', f a = x ∧ one[a]? = some e' ∧ e = tag b e' ∧ e'.act = .access l w := by
    intro x e w hx he
    obtain ⟨b', e', rfl⟩ := ho e (List.mem_of_getElem? hx)
    have hb : b' = b ∧ e'.act = .access l w := by
      simp only [tag] at he
      split at he
      · rename_i l' w' hl
        injection he with he hw
        rw [hl, hw]
        cases l' <;> simp [place] at he ⊢ <;> exact he
      · cases he
      · cases he
    obtain ⟨rfl, hact⟩ := hb
    obtain ⟨a, ha, hfa⟩ := h.onto x _ e'.who hx rfl
    obtain ⟨e'', he''⟩ : ∃ e'', one[a]? = some e'' := ⟨one[a], List.getElem?_eq_getElem ha⟩
    have h3 := h.get a e'' he''
    rw [hfa, hx] at h3
    have h3 := Option.some.inj h3
    refine ⟨a, e'', hfa, he'', h3, ?_⟩
    have h4 := congrArg MemEvent.act h3
    simp only [tag, hact] at h4
    split at h4
    · rename_i l' w' hl
      injection h4 with h4 hw
      rw [hl, hw]
      have : place b' l = .own b' l := by
        simp only [tag, hact] at he
        injection he with he _
      rw [this] at h4
      cases l' <;> simp [place] at h4 ⊢ <;> exact h4.symm
    · cases h4
    · cases h4
  obtain ⟨a, e', ha, hea, rfl, hact⟩ := key x e w hx he
  obtain ⟨c, g', hc, hgc, rfl, hact'⟩ := key y g v hy hg
  refine ⟨a, c, e', g', w, v, hea, hgc, ?_, hact, hact', hw, ?_, ?_⟩
  · intro h; exact hne (by simp [tag, h])
  · intro hb; rw [← ha, ← hc] at h1; exact h1 (h.ordered hb)
  · intro hb; rw [← ha, ← hc] at h2; exact h2 (h.ordered hb)

/-- **C92**, the proved part: two networks used at the same time by two threads, in every interleaving: each one only goes through
states that it can reach alone, and the races on its members are those that it has alone — never on its weights, its data, its
counters. Missing: the generators (`C92_generator_refuted`). -/
theorem C92_two_networks_partial {p : Bool → Program F} {r0 : Bool → Run F} {tr : List (MemEvent (Bool × Option Nat) Place)} {σ : Bool → Sys F} (h : Exec2 p r0 tr σ) (b : Bool) :
    Reach (p b) (r0 b) (σ b) ∧ (∀ l, RaceOn tr (.own b l) → ∃ one, Exec (p b) (r0 b) one (σ b) ∧ RaceOn one l) ∧
    ¬ RaceOn tr (.own b .layers) ∧ ¬ RaceOn tr (.own b .data) ∧ ¬ RaceOn tr (.own b .index) ∧ ¬ RaceOn tr (.own b .perEpoch) := by
  obtain ⟨one, f, h1, h2⟩ := project h b
  have hp := C91_weights_partial h1
  have key : ∀ l, RaceOn tr (.own b l) → RaceOn one l := fun l hl => race_projects h2 (event_of h) hl
  exact ⟨trace_reach h1, fun l hl => ⟨one, h1, key l hl⟩, fun h => hp.1 (key _ h), fun h => hp.2.1 (key _ h), fun h => hp.2.2.1 (key _ h), fun h => hp.2.2.2.1 (key _ h)⟩

/-- What happens after an event of a network is done by the same network. -/
theorem stays {tr : List (MemEvent (Bool × Option Nat) Place)} (ho : ∀ e ∈ tr, ∃ b e', e = tag b e') {x y : Nat} (h : HappensBefore tr x y) :
    ∀ {e g : MemEvent (Bool × Option Nat) Place} {b b' : Bool} {w w' : Option Nat}, tr[x]? = some e → tr[y]? = some g → e.who = some (b, w) → g.who = some (b', w') → b' = b := by
  have act : ∀ (e : MemEvent (Bool × Option Nat) Place), e ∈ tr → ∀ b w, e.who = some (b, w) → ∀ b' t, (e.act = .fork (b', t) ∨ e.act = .join (b', t)) → b' = b := by
    intro e he b w hw b' t ha
    obtain ⟨b1, e', rfl⟩ := ho e he
    simp only [tag, actor, Option.some.injEq, Prod.mk.injEq] at hw
    rw [← hw.1]
    simp only [tag] at ha
    split at ha
    · rcases ha with h | h <;> cases h
    · rcases ha with h | h
      · cases h; rfl
      · cases h
    · rcases ha with h | h
      · cases h
      · cases h; rfl
  induction h with
  | order h ha hc hw =>
    intro e g b b' w w' he hg h1 h2
    rw [ha] at he; rw [hc] at hg; cases he; cases hg
    rw [h1] at hw
    rw [← hw] at h2
    cases h2; rfl
  | @fork _ _ e0 g0 t h ha hc he' hg' =>
    intro e g b b' w w' he hg h1 h2
    rw [ha] at he; rw [hc] at hg; cases he; cases hg
    obtain ⟨tb, tw⟩ := t
    have := act _ (List.mem_of_getElem? ha) b w h1 tb tw (.inl he')
    rw [hg'] at h2
    cases h2
    exact this
  | @join _ _ e0 g0 t h ha hc he' hg' =>
    intro e g b b' w w' he hg h1 h2
    rw [ha] at he; rw [hc] at hg; cases he; cases hg
    obtain ⟨tb, tw⟩ := t
    have := act _ (List.mem_of_getElem? hc) b' w' h2 tb tw (.inr hg')
    rw [he'] at h1
    cases h1
    exact this.symm
  | @trans x y z h1 h2 ih1 ih2 =>
    intro e g b b' w w' he hg hw hw'
    obtain ⟨m, hm⟩ := middle h1 h2 hg
    obtain ⟨bm, m', rfl⟩ := ho m (List.mem_of_getElem? hm)
    have e1 := ih1 he hm hw rfl
    have e2 := ih2 hm hg rfl hw'
    rw [e2, e1]

/-- **C92** refuted: as soon as both networks have drawn from the same generator (a shuffle of the same kind of data, or a mask of a
dropout each), there is a data race on it, whatever the interleaving is. -/
theorem C92_generator_refuted {p : Bool → Program F} {r0 : Bool → Run F} {tr : List (MemEvent (Bool × Option Nat) Place)} {σ : Bool → Sys F} (h : Exec2 p r0 tr σ)
    {k : Option Nature} {w w' : Option Nat} (h1 : ⟨some (true, w), .access (.generator k) true⟩ ∈ tr) (h2 : ⟨some (false, w'), .access (.generator k) true⟩ ∈ tr) :
    RaceOn tr (.generator k) := by
  obtain ⟨x, hx⟩ := List.mem_iff_getElem?.1 h1
  obtain ⟨y, hy⟩ := List.mem_iff_getElem?.1 h2
  refine ⟨x, y, _, _, true, true, hx, hy, by simp, rfl, rfl, .inl rfl, ?_, ?_⟩
  · intro h'
    have := stays (event_of h) h' hx hy rfl rfl
    cases this
  · intro h'
    have := stays (event_of h) h' hy hx rfl rfl
    cases this

/-- **C92** refuted, in terms of the calls: both networks train data of the same kind in a thread; when both have begun an epoch, there
is a data race. -/
theorem C92_shuffles_refuted {p : Bool → Program F} {r0 : Bool → Run F} {tr : List (MemEvent (Bool × Option Nat) Place)} {σ : Bool → Sys F} (h : Exec2 p r0 tr σ)
    {i i' : Nat} {j j' : Job F} {τ τ' : Sys F} (h1 : (σ true).threads[i]? = some (j, .shuffling)) (h2 : (σ false).threads[i']? = some (j', .shuffling))
    (hk : (σ true).run.data.typeOfTemporal = (σ false).run.data.typeOfTemporal) (hs : ThreadStep i (σ true) τ) (hs' : ThreadStep i' (σ false) τ') :
    ∃ tr' σ', Exec2 p r0 tr' σ' ∧ σ' true = τ ∧ σ' false = τ' ∧ RaceOn tr' (.generator (some (σ true).run.data.typeOfTemporal)) := by
  have e1 := h.thread (b := true) hs
  have hs'' : ThreadStep i' (Function.update σ true τ false) τ' := by rw [Function.update_of_ne (by simp)]; exact hs'
  have e2 := e1.thread (b := false) hs''
  refine ⟨_, _, e2, by rw [Function.update_of_ne (by simp), Function.update_self], Function.update_self .., ?_⟩
  refine C92_generator_refuted e2 (w := some i) (w' := some i') ?_ ?_
  · refine List.mem_append_left _ (List.mem_append_right _ ?_)
    simp [threadEvents, h1, accesses, toEvents, tag, actor, place]
  · refine List.mem_append_right _ ?_
    have h2' : (Function.update σ true τ false).threads[i']? = some (j', .shuffling) := by rw [Function.update_of_ne (by simp)]; exact h2
    have hk' : (σ true).run.data.typeOfTemporal = (Function.update σ true τ false).run.data.typeOfTemporal := by rw [Function.update_of_ne (by simp)]; exact hk
    rw [hk']
    simp only [threadEvents, h2', accesses, toEvents, List.map_cons, List.map_nil, tag, actor, place]
    simp

/-! ### Non-vacuity -/

/-- A network alone reaches the shuffle of its first epoch. -/
theorem solo_shuffling (r0 : Run F) (j : Job F) (p : Program F) (hp : p.submits j) (hw : j.wait = Wait.default) (hef : j.evaluationFrequency = 0)
    (hv : r0.snn.validData j.data j.batchSize = .ok ()) (hn : r0.snn.net.outputNan = false)
    (hd : ∀ (t e : Int) (a m : F), (Wait.default : Wait F).isOver t e a m = false) :
    ∃ r : Run F, Async.Spec.Path p (fun _ => True) (Sys.start r0) (AsyncProps.one j r .shuffling .ready) ∧ r.data = j.data ∧ r.snn.epoch = 1 := by
  have r0' : Async.Spec.Path p (fun _ => True) (Sys.start r0) (Sys.start r0) := .refl trivial
  have r1 := r0'.tail (Or.inl (.callStart j hp rfl hw hv)) trivial
  have r2 := r1.tail (Or.inl (.setWant (.spawn j) rfl)) trivial
  have r3 := r2.tail (Or.inl (.notJoinable (.spawn j) rfl rfl)) trivial
  have r4 := r3.tail (Or.inl (.spawn j rfl rfl)) trivial
  obtain ⟨ra, hra, na⟩ : ∃ ra : Run F, Async.Spec.Path p (fun _ => True) (Sys.start r0) (AsyncProps.one j ra .enter .ready) ∧ ra.snn.net.outputNan = false := ⟨_, r4, hn⟩
  obtain ⟨rb, hrb, nb, wb, db⟩ : ∃ rb : Run F, Async.Spec.Path p (fun _ => True) (Sys.start r0) (AsyncProps.one j rb .busy .ready) ∧ rb.snn.net.outputNan = false ∧
      rb.snn.wantToStopTraining = false ∧ rb.data = j.data := ⟨_, AsyncProps.path_thread hra (by simp) rfl, na, rfl, rfl⟩
  obtain ⟨rc, hrc, nc, wc, dc⟩ : ∃ rb : Run F, Async.Spec.Path p (fun _ => True) (Sys.start r0) (AsyncProps.one j rb (.evalTest .before) .ready) ∧ rb.snn.net.outputNan = false ∧
      rb.snn.wantToStopTraining = false ∧ rb.data = j.data := ⟨_, AsyncProps.path_thread hrb (by simp) rfl, nb, wb, db⟩
  obtain ⟨rd, hrd, nd, wd, dd, ed⟩ : ∃ rb : Run F, Async.Spec.Path p (fun _ => True) (Sys.start r0) (AsyncProps.one j rb .epochTest .ready) ∧ rb.snn.net.outputNan = false ∧
      rb.snn.wantToStopTraining = false ∧ rb.data = j.data ∧ rb.snn.epoch = 1 := ⟨_, AsyncProps.path_thread hrc (by simp) (AsyncProps.next_skip hef _), nc, wc, dc, rfl⟩
  refine ⟨_, AsyncProps.path_thread hrd (by simp) (pc' := .shuffling) (r' := { rd with ticks := rd.ticks + 1 }) ?_, dd, ed⟩
  simp [next, Run.continueTraining, wd, nd, hw, hd]

/-- A path of one of the two networks while the other one does nothing. -/
theorem exec2_path {p : Bool → Program F} {r0 : Bool → Run F} {tr : List (MemEvent (Bool × Option Nat) Place)} {σ : Bool → Sys F} (h : Exec2 p r0 tr σ) (b : Bool) {P : Sys F → Prop}
    {υ τ : Sys F} (hu : σ b = υ) (hp : Async.Spec.Path (p b) P υ τ) : ∃ tr', Exec2 p r0 tr' (Function.update σ b τ) := by
  induction hp with
  | refl _ => exact ⟨tr, by rw [← hu, Function.update_eq_self]; exact h⟩
  | @tail a c _ hs _ ih =>
    obtain ⟨tr', ih⟩ := ih
    rcases hs with hs | ⟨i, hs⟩
    · have := ih.client (b := b) (τ := c) (by rw [Function.update_self]; exact hs)
      rw [Function.update_idem] at this
      exact ⟨_, this⟩
    · have := ih.thread (b := b) (τ := c) (by rw [Function.update_self]; exact hs)
      rw [Function.update_idem] at this
      exact ⟨_, this⟩

/-- The refutation is not vacuous: two copies of the demonstration network, trained at the same time on time series, both begin an
epoch and race on the generator. -/
example : ∃ tr σ, Exec2 (fun _ => { submits := fun j => j = { AsyncProps.demoJob with evaluationFrequency := 0 }, other := fun _ _ => False })
    (fun _ => Demo.run Demo.recurrent Demo.series) tr σ ∧ RaceOn tr (.generator (some .timeSeries)) := by
  have hv : (Demo.run Demo.recurrent Demo.series).snn.validData AsyncProps.demoJob.data AsyncProps.demoJob.batchSize = .ok () := by decide +kernel
  have hn : (Demo.run Demo.recurrent Demo.series).snn.net.outputNan = false := by decide +kernel
  have hk : AsyncProps.demoJob.data.typeOfTemporal = .timeSeries := by decide +kernel
  have hsh : ∃ d, AsyncProps.demoJob.data.shuffle (AsyncProps.demoJob.env.rng 1) = .ok d := ⟨Res.get _ (by decide +kernel), Res.eq_get _ _⟩
  generalize hj : ({ AsyncProps.demoJob with evaluationFrequency := 0 } : Job ℚ) = j
  have hv : (Demo.run Demo.recurrent Demo.series).snn.validData j.data j.batchSize = .ok () := by rw [← hj]; exact hv
  have hk : j.data.typeOfTemporal = .timeSeries := by rw [← hj]; exact hk
  obtain ⟨d, hsh⟩ : ∃ d, j.data.shuffle (j.env.rng 1) = .ok d := by rw [← hj]; exact hsh
  have hw : j.wait = Wait.default := by rw [← hj]; rfl
  have hef : j.evaluationFrequency = 0 := by rw [← hj]
  generalize hr : Demo.run Demo.recurrent Demo.series = r0 at hv hn
  obtain ⟨r, hp, hd, he⟩ := solo_shuffling r0 j { submits := fun j' => j' = j, other := fun _ _ => False } rfl hw hef hv hn (fun t e a m => default_never t e a m)
  obtain ⟨tr1, h1⟩ := exec2_path (p := fun _ => { submits := fun j' => j' = j, other := fun _ _ => False }) (r0 := fun _ => r0) .start true rfl hp
  obtain ⟨tr2, h2⟩ := exec2_path h1 false (by rw [Function.update_of_ne (by simp)]) hp
  have step : ThreadStep 0 (AsyncProps.one j r .shuffling .ready) _ := .action (σ := AsyncProps.one j r .shuffling .ready) j .shuffling .stepTest
    { r with data := d, snn := { r.snn with index := 0 }, trace := .shuffled :: r.trace } rfl (by simp) (by
      simp only [next, AsyncProps.one, hd, he, hsh, Res.ok_bind]
      rfl)
  have e1 : Function.update (Function.update (fun b : Bool => Sys.start r0) true (AsyncProps.one j r .shuffling .ready)) false (AsyncProps.one j r .shuffling .ready) true =
      AsyncProps.one j r .shuffling .ready := by rw [Function.update_of_ne (by simp), Function.update_self]
  have e2 : Function.update (Function.update (fun b : Bool => Sys.start r0) true (AsyncProps.one j r .shuffling .ready)) false (AsyncProps.one j r .shuffling .ready) false =
      AsyncProps.one j r .shuffling .ready := by rw [Function.update_self]
  obtain ⟨tr3, σ3, h3, _, _, h4⟩ := C92_shuffles_refuted h2 (i := 0) (i' := 0) (j := j) (j' := j) (by rw [e1]; rfl) (by rw [e2]; rfl) (by rw [e1, e2])
    (by rw [e1]; exact step) (by rw [e2]; exact step)
  rw [e1] at h4
  refine ⟨tr3, σ3, h3, ?_⟩
  have : (AsyncProps.one j r .shuffling .ready).run.data.typeOfTemporal = .timeSeries := by rw [← hk, ← hd]; rfl
  rw [← this]
  exact h4

end Snn.TwoNetsProps
