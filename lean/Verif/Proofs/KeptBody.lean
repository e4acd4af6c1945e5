import Verif.Proofs.CallInduct

/-! An invariant of the layers, each on its own, that the three passes of a layer keep is kept by every call. -/

set_option linter.all false

namespace Snn

section
variable {F : Type} [Flt F] [FTrans F] [Add F] [Sub F] [Mul F] [Div F] [Neg F]

/-- What the passes of a layer keep of its body. -/
structure KeptBody (P : Body F → Prop) : Prop where
  out : ∀ {t : Bool} {b b' : Body F} {x y : List F}, P b → b.computeOutput x t = .ok (y, b') → P b'
  back : ∀ {ni : Int} {b b' : Body F} {es r : List F}, P b → b.computeBackOutput ni es = .ok (r, b') → P b'
  train : ∀ {b b' : Body F} {es : List F}, P b → b.computeTrain es = .ok b' → P b'

namespace KeptBody
variable {P : Body F → Prop}

theorem outputLoop (k : KeptBody P) {t : Bool} : ∀ {ls ls' : List (Layer F)} {x y : List F}, Snn.outputLoop t ls x = .ok (y, ls') →
    (∀ l ∈ ls, P l.body) → ∀ l ∈ ls', P l.body
  | [], ls', x, y, h, _ => by cases h; simp
  | l :: ls, ls', x, y, h, hl => by
    unfold Snn.outputLoop at h
    obtain ⟨⟨y1, l1⟩, h1, h⟩ := Res.bind_eq_ok.1 h
    obtain ⟨⟨y2, ls1⟩, h2, h⟩ := Res.bind_eq_ok.1 h
    cases h
    intro m hm
    rcases List.mem_cons.1 hm with rfl | hm
    · unfold Layer.output at h1
      obtain ⟨⟨_, _⟩, h3, h1⟩ := Res.bind_eq_ok.1 h1
      obtain ⟨_, _, h1⟩ := Res.bind_eq_ok.1 h1
      cases h1
      exact k.out (hl l (by simp)) h3
    · exact outputLoop k h2 (fun l hl' => hl l (by simp [hl'])) m hm

theorem trainingLoop (k : KeptBody P) {t : Bool} : ∀ {ls ls' : List (Layer F)} {x y : List F} {d d' : Draws F},
    Snn.trainingLoop t ls x d = .ok (y, ls', d') → (∀ l ∈ ls, P l.body) → ∀ l ∈ ls', P l.body
  | [], ls', x, y, d, d', h, _ => by cases h; simp
  | l :: ls, ls', x, y, d, d', h, hl => by
    unfold Snn.trainingLoop at h
    obtain ⟨⟨y1, l1, d1⟩, h1, h⟩ := Res.bind_eq_ok.1 h
    obtain ⟨⟨y2, ls1, d2⟩, h2, h⟩ := Res.bind_eq_ok.1 h
    cases h
    intro m hm
    rcases List.mem_cons.1 hm with rfl | hm
    · unfold Layer.outputForTraining at h1
      obtain ⟨⟨_, _⟩, h3, h1⟩ := Res.bind_eq_ok.1 h1
      obtain ⟨⟨_, _, _⟩, _, h1⟩ := Res.bind_eq_ok.1 h1
      cases h1
      exact k.out (hl l (by simp)) h3
    · exact trainingLoop k h2 (fun l hl' => hl l (by simp [hl'])) m hm

theorem backLoop (k : KeptBody P) : ∀ {ls ls' : List (Layer F)} {es r : List F}, Snn.backLoop ls es = .ok (r, ls') →
    (∀ l ∈ ls, P l.body) → ∀ l ∈ ls', P l.body
  | [], ls', es, r, h, _ => by cases h; simp
  | l :: ls, ls', es, r, h, hl => by
    unfold Snn.backLoop at h
    obtain ⟨⟨es1, ls1⟩, h1, h⟩ := Res.bind_eq_ok.1 h
    obtain ⟨⟨es2, l1⟩, h2, h⟩ := Res.bind_eq_ok.1 h
    cases h
    intro m hm
    rcases List.mem_cons.1 hm with rfl | hm
    · unfold Layer.backOutput at h2
      obtain ⟨⟨_, _⟩, h3, h2⟩ := Res.bind_eq_ok.1 h2
      cases h2
      exact k.back (hl l (by simp)) h3
    · exact backLoop k h1 (fun l hl' => hl l (by simp [hl'])) m hm

theorem kept (k : KeptBody P) : Kept (F := F) (fun ls => ∀ l ∈ ls, P l.body) where
  out := fun hp h => k.outputLoop h hp
  training := fun hp h => k.trainingLoop h hp
  back := by
    intro ls ls' es hp h
    cases ls with
    | nil => cases h
    | cons l ls =>
      unfold backwardPass at h
      obtain ⟨⟨es1, ls1⟩, h1, h⟩ := Res.bind_eq_ok.1 h
      obtain ⟨l1, h2, h⟩ := Res.bind_eq_ok.1 h
      cases h
      intro m hm
      rcases List.mem_cons.1 hm with rfl | hm
      · unfold Layer.train at h2
        obtain ⟨_, h3, h2⟩ := Res.bind_eq_ok.1 h2
        cases h2
        exact k.train (hp l (by simp)) h3
      · exact k.backLoop h1 (fun l hl' => hp l (by simp [hl'])) m hm

end KeptBody

/-- The units of a gated recurrent layer satisfy Q. -/
def Body.GruAll (Q : Gru F → Prop) : Body F → Prop
  | .gru ns => ∀ g ∈ ns, Q g
  | _ => True

theorem runNeurons_keep {N : Type} {f : N → Res (F × N)} {Q : N → Prop} (hf : ∀ {n o n'}, Q n → f n = .ok (o, n') → Q n') :
    ∀ {ns ns' : List N} {os : List F}, runNeurons f ns = .ok (os, ns') → (∀ n ∈ ns, Q n) → ∀ n ∈ ns', Q n
  | [], ns', os, h, _ => by cases h; simp
  | n :: ns, ns', os, h, hq => by
    unfold runNeurons at h
    obtain ⟨⟨o, n1⟩, h1, h⟩ := Res.bind_eq_ok.1 h
    obtain ⟨⟨os1, ns1⟩, h2, h⟩ := Res.bind_eq_ok.1 h
    cases h
    intro m hm
    rcases List.mem_cons.1 hm with rfl | hm
    · exact hf (hq n (by simp)) h1
    · exact runNeurons_keep hf h2 (fun n hn => hq n (by simp [hn])) m hm

/-- Every output comes from a neuron of the layer. -/
theorem runNeurons_out {N : Type} {f : N → Res (F × N)} : ∀ {ns ns' : List N} {os : List F}, runNeurons f ns = .ok (os, ns') →
    os.length = ns.length ∧ ∀ o ∈ os, ∃ n ∈ ns, ∃ n', f n = .ok (o, n')
  | [], ns', os, h => by cases h; simp
  | n :: ns, ns', os, h => by
    unfold runNeurons at h
    obtain ⟨⟨o, n1⟩, h1, h⟩ := Res.bind_eq_ok.1 h
    obtain ⟨⟨os1, ns1⟩, h2, h⟩ := Res.bind_eq_ok.1 h
    cases h
    obtain ⟨k1, k2⟩ := runNeurons_out h2
    refine ⟨by simp [k1], ?_⟩
    intro o' ho
    rcases List.mem_cons.1 ho with rfl | ho
    · exact ⟨n, by simp, n1, h1⟩
    · obtain ⟨m, hm, m', h3⟩ := k2 o' ho
      exact ⟨m, by simp [hm], m', h3⟩

theorem backNeurons_keep {N : Type} {f : N → F → Res (List F × N)} {Q : N → Prop} (hf : ∀ {n e r n'}, Q n → f n e = .ok (r, n') → Q n') :
    ∀ {ns ns' : List N} {es errs r : List F}, backNeurons f ns es errs = .ok (r, ns') → (∀ n ∈ ns, Q n) → ∀ n ∈ ns', Q n
  | [], ns', es, errs, r, h, _ => by cases h; simp
  | n :: ns, ns', [], errs, r, h, hq => by cases h
  | n :: ns, ns', e :: es, errs, r, h, hq => by
    unfold backNeurons at h
    obtain ⟨⟨e1, n1⟩, h1, h⟩ := Res.bind_eq_ok.1 h
    obtain ⟨errs1, _, h⟩ := Res.bind_eq_ok.1 h
    obtain ⟨⟨r1, ns1⟩, h2, h⟩ := Res.bind_eq_ok.1 h
    cases h
    intro m hm
    rcases List.mem_cons.1 hm with rfl | hm
    · exact hf (hq n (by simp)) h1
    · exact backNeurons_keep hf h2 (fun n hn => hq n (by simp [hn])) m hm

theorem trainNeurons_keep {N : Type} {f : N → F → Res N} {Q : N → Prop} (hf : ∀ {n e n'}, Q n → f n e = .ok n' → Q n') :
    ∀ {ns ns' : List N} {es : List F}, trainNeurons f ns es = .ok ns' → (∀ n ∈ ns, Q n) → ∀ n ∈ ns', Q n
  | [], ns', es, h, _ => by cases h; simp
  | n :: ns, ns', [], h, hq => by cases h
  | n :: ns, ns', e :: es, h, hq => by
    unfold trainNeurons at h
    obtain ⟨n1, h1, h⟩ := Res.bind_eq_ok.1 h
    obtain ⟨ns1, h2, h⟩ := Res.bind_eq_ok.1 h
    cases h
    intro m hm
    rcases List.mem_cons.1 hm with rfl | hm
    · exact hf (hq n (by simp)) h1
    · exact trainNeurons_keep hf h2 (fun n hn => hq n (by simp [hn])) m hm

/-- The kind of a body is kept, so only the units of a gated recurrent layer matter. -/
theorem gruAll_keptBody {Q : Gru F → Prop} (ho : ∀ {g g' : Gru F} {x : List F} {t : Bool} {o : F}, Q g → g.output x t = .ok (o, g') → Q g')
    (hb : ∀ {g g' : Gru F} {e : F} {r : List F}, Q g → g.backOutput e = .ok (r, g') → Q g')
    (ht : ∀ {g g' : Gru F} {e : F}, Q g → g.train e = .ok g' → Q g') : KeptBody (Body.GruAll Q) where
  out := by
    intro t b b' x y hp h
    cases b <;> simp only [Body.computeOutput] at h
    · obtain ⟨⟨_, _⟩, _, h⟩ := Res.bind_eq_ok.1 h
      cases h; trivial
    · obtain ⟨⟨_, _⟩, _, h⟩ := Res.bind_eq_ok.1 h
      cases h; trivial
    · obtain ⟨⟨_, _⟩, h1, h⟩ := Res.bind_eq_ok.1 h
      cases h
      exact runNeurons_keep ho h1 hp
    · obtain ⟨⟨_, _⟩, _, h⟩ := Res.bind_eq_ok.1 h
      obtain ⟨_, _, h⟩ := Res.bind_eq_ok.1 h
      cases h; trivial
    · obtain ⟨⟨_, _⟩, _, h⟩ := Res.bind_eq_ok.1 h
      obtain ⟨_, _, h⟩ := Res.bind_eq_ok.1 h
      split at h
      · cases h
      · cases h; trivial
  back := by
    intro ni b b' es r hp h
    unfold Body.computeBackOutput at h
    obtain ⟨errs, _, h⟩ := Res.bind_eq_ok.1 h
    cases b <;> simp only at h
    · obtain ⟨⟨_, _⟩, _, h⟩ := Res.bind_eq_ok.1 h
      cases h; trivial
    · obtain ⟨⟨_, _⟩, _, h⟩ := Res.bind_eq_ok.1 h
      cases h; trivial
    · obtain ⟨⟨_, _⟩, h1, h⟩ := Res.bind_eq_ok.1 h
      cases h
      exact backNeurons_keep hb h1 hp
    · obtain ⟨⟨_, _⟩, _, h⟩ := Res.bind_eq_ok.1 h
      cases h; trivial
    · obtain ⟨_, _, h⟩ := Res.bind_eq_ok.1 h
      cases h; trivial
  train := by
    intro b b' es hp h
    cases b <;> simp only [Body.computeTrain] at h
    · obtain ⟨_, _, h⟩ := Res.bind_eq_ok.1 h
      cases h; trivial
    · obtain ⟨_, _, h⟩ := Res.bind_eq_ok.1 h
      cases h; trivial
    · obtain ⟨_, h1, h⟩ := Res.bind_eq_ok.1 h
      cases h
      exact trainNeurons_keep ht h1 hp
    · obtain ⟨_, _, h⟩ := Res.bind_eq_ok.1 h
      cases h; trivial
    · cases h; trivial

/-- No pass writes `previousOutput`, except a reset that zeroes it. -/
theorem gruZero_kept : KeptBody (F := F) (Body.GruAll fun g => g.previousOutput = lit 0) := by
  refine gruAll_keptBody ?_ ?_ ?_
  · intro g g' x t o hg h
    unfold Gru.output at h
    obtain ⟨⟨_, _⟩, _, h⟩ := Res.bind_eq_ok.1 h
    obtain ⟨⟨_, _⟩, _, h⟩ := Res.bind_eq_ok.1 h
    obtain ⟨⟨_, _⟩, _, h⟩ := Res.bind_eq_ok.1 h
    cases h
    cases t
    · exact hg
    · rfl
  · intro g g' e r hg h
    unfold Gru.backOutput at h
    obtain ⟨⟨_, _⟩, _, h⟩ := Res.bind_eq_ok.1 h
    obtain ⟨⟨_, _⟩, _, h⟩ := Res.bind_eq_ok.1 h
    obtain ⟨_, _, h⟩ := Res.bind_eq_ok.1 h
    obtain ⟨⟨_, _⟩, _, h⟩ := Res.bind_eq_ok.1 h
    cases h
    exact hg
  · intro g g' e hg h
    unfold Gru.train at h
    obtain ⟨⟨_, _⟩, _, h⟩ := Res.bind_eq_ok.1 h
    obtain ⟨⟨_, _⟩, _, h⟩ := Res.bind_eq_ok.1 h
    obtain ⟨_, _, h⟩ := Res.bind_eq_ok.1 h
    obtain ⟨⟨_, _⟩, _, h⟩ := Res.bind_eq_ok.1 h
    cases h
    exact hg

end

end Snn
