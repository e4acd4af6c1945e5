import Verif.Model.Crash
import Verif.Proofs.StrictProofs

/-! A truncated archive cannot be loaded. -/

set_option linter.all false

namespace Snn

open Codec

section
variable {F : Type} [FText F] {α β : Type}

/-- A call that throws. -/
def Res.Throws (x : Res α) : Prop := ∃ m, x = .throw m

theorem Res.Throws.bind {x : Res α} (h : x.Throws) (k : α → Res β) : (x >>= k).Throws := by
  obtain ⟨m, rfl⟩ := h
  exact ⟨m, rfl⟩

/-- Reading an archive that was cut: nothing left, cut between two values, cut inside a value. -/
structure Codec.Whole (c : Codec F α) : Prop where
  empty : (c.load []).Throws
  between : ∀ x p q, p ++ q = c.save x → q ≠ [] → (c.load p).Throws
  inside : ∀ x p q t, p ++ q = c.save x → q ≠ [] → (c.load (p ++ [t])).Throws ∨ ∃ y, c.load (p ++ [t]) = .ok (y, [])

theorem prefix_single {a : Tok F} {p q : Archive F} (h : p ++ q = [a]) (hq : q ≠ []) : p = [] := by
  cases p with
  | nil => rfl
  | cons b p =>
    simp only [List.cons_append, List.cons.injEq, List.append_eq_nil_iff] at h
    exact absurd h.2.2 hq

/-- A template that reads one value. -/
theorem whole_single {c : Codec F α} (g : α → Tok F) (hs : ∀ x, c.save x = [g x]) (h0 : (c.load []).Throws)
    (h1 : ∀ t, (c.load [t]).Throws ∨ ∃ y, c.load [t] = .ok (y, [])) : c.Whole where
  empty := h0
  between x p q h hq := by
    rw [hs] at h
    rw [prefix_single h hq]
    exact h0
  inside x p q t h hq := by
    rw [hs] at h
    rw [prefix_single h hq]
    exact h1 t

theorem wh_int : (int : Codec F Int).Whole :=
  whole_single (fun i => .int i) (fun _ => rfl) ⟨_, rfl⟩ (fun t => by
    cases t
    · exact .inr ⟨_, rfl⟩
    · exact .inl ⟨_, rfl⟩
    · exact .inl ⟨_, rfl⟩)
theorem wh_nat : (nat : Codec F Nat).Whole :=
  whole_single (fun i => .int i) (fun _ => rfl) ⟨_, rfl⟩ (fun t => by
    cases t
    · exact .inr ⟨_, rfl⟩
    · exact .inl ⟨_, rfl⟩
    · exact .inl ⟨_, rfl⟩)
theorem wh_bool : (bool : Codec F Bool).Whole :=
  whole_single (fun b => .int (if b then 1 else 0)) (fun _ => rfl) ⟨_, rfl⟩ (fun t => by
    cases t
    · exact .inr ⟨_, rfl⟩
    · exact .inl ⟨_, rfl⟩
    · exact .inl ⟨_, rfl⟩)
theorem wh_str : (str : Codec F String).Whole :=
  whole_single (fun i => .str i) (fun _ => rfl) ⟨_, rfl⟩ (fun t => by
    cases t
    · exact .inl ⟨_, rfl⟩
    · exact .inl ⟨_, rfl⟩
    · exact .inr ⟨_, rfl⟩)
theorem wh_float : (float : Codec F F).Whole :=
  whole_single (fun i => .float i) (fun _ => rfl) ⟨_, rfl⟩ (fun t => by
    cases t with
    | int i => exact .inl ⟨_, rfl⟩
    | str i => exact .inl ⟨_, rfl⟩
    | float x =>
      by_cases h : readable x = true
      · exact .inr ⟨x, by simp [float, h]⟩
      · exact .inl ⟨_, by simp [float, h, streamError]; rfl⟩)
theorem Act.whole : (Act.codec : Codec F Act).Whole :=
  whole_single (fun a => .int a.code) (fun _ => rfl) ⟨_, rfl⟩ (fun t => by
    cases t with
    | str i => exact .inl ⟨_, rfl⟩
    | float x => exact .inl ⟨_, rfl⟩
    | int i =>
      simp only [Act.codec]
      have : (Act.ofCode i).Throws ∨ ∃ a, Act.ofCode i = .ok a := by
        unfold Act.ofCode
        split_ifs <;> first | exact .inr ⟨_, rfl⟩ | exact .inl ⟨_, rfl⟩
      rcases this with h | ⟨a, h⟩
      · exact .inl (h.bind _)
      · exact .inr ⟨a, by rw [h]; rfl⟩)

/-- Where an archive of two parts was cut. -/
theorem split_two {p q a b : Archive F} (h : p ++ q = a ++ b) (hq : q ≠ []) : (∃ r, r ≠ [] ∧ p ++ r = a) ∨ ∃ r, p = a ++ r ∧ r ++ q = b := by
  rcases List.append_eq_append_iff.1 h with ⟨r, h1, h2⟩ | ⟨r, h1, h2⟩
  · by_cases hr : r = []
    · subst hr
      exact .inr ⟨[], by simpa using h1.symm, by simpa using h2⟩
    · exact .inl ⟨r, hr, h1.symm⟩
  · exact .inr ⟨r, h1, h2.symm⟩

/-- The first part was written: it is read or reading it throws. -/
theorem whole_first_part {c : Codec F α} {f : α → α} (rc : c.RoundTrip f) (sc : c.Strict) (x : α) (rest : Archive F) :
    (c.load (c.save x ++ rest)).Throws ∨ c.load (c.save x ++ rest) = .ok (f x, rest) := by
  rcases sc x rest with h | h
  · exact .inr (rc x rest h)
  · exact .inl h

theorem wh_pair {c : Codec F α} {d : Codec F β} {f : α → α} (rc : c.RoundTrip f) (sc : c.Strict) (hc : c.Whole) (hd : d.Whole) : (pair c d).Whole where
  empty := hc.empty.bind _
  between x p q h hq := by
    rcases split_two h hq with ⟨r, hr, h1⟩ | ⟨r, rfl, h2⟩
    · exact (hc.between x.1 p r h1 hr).bind _
    · rcases whole_first_part rc sc x.1 r with h3 | h3
      · exact h3.bind _
      · simp only [pair, h3, Res.ok_bind]
        exact (hd.between x.2 r q h2 hq).bind _
  inside x p q t h hq := by
    rcases split_two h hq with ⟨r, hr, h1⟩ | ⟨r, rfl, h2⟩
    · rcases hc.inside x.1 p r t h1 hr with h3 | ⟨y, h3⟩
      · exact .inl (h3.bind _)
      · refine .inl ?_
        simp only [pair, h3, Res.ok_bind]
        exact hd.empty.bind _
    · rw [List.append_assoc]
      rcases whole_first_part rc sc x.1 (r ++ [t]) with h3 | h3
      · exact .inl (h3.bind _)
      · simp only [pair, h3, Res.ok_bind]
        rcases hd.inside x.2 r q t h2 hq with h4 | ⟨y, h4⟩
        · exact .inl (h4.bind _)
        · exact .inr ⟨(f x.1, y), by rw [h4]; rfl⟩

theorem wh_obj {f : α → β} {g : β → α} {c : Codec F β} (hc : c.Whole) : (obj f g c).Whole where
  empty := hc.empty.bind _
  between x p q h hq := (hc.between (f x) p q h hq).bind _
  inside x p q t h hq := by
    rcases hc.inside (f x) p q t h hq with h3 | ⟨y, h3⟩
    · exact .inl (h3.bind _)
    · exact .inr ⟨g y, by simp only [obj, h3]; rfl⟩

theorem many_empty {c : Codec F α} (hc : c.Whole) (n : Nat) : (loadMany c n []).Throws ∨ ∃ y, loadMany c n [] = .ok (y, []) := by
  cases n with
  | zero => exact .inr ⟨[], rfl⟩
  | succ n => exact .inl (hc.empty.bind _)

theorem wh_many {c : Codec F α} {f : α → α} (rc : c.RoundTrip f) (sc : c.Strict) (hc : c.Whole) : ∀ (xs : List α) (p q : Archive F),
    p ++ q = xs.flatMap c.save → q ≠ [] → (loadMany c xs.length p).Throws ∧
      ∀ t, (loadMany c xs.length (p ++ [t])).Throws ∨ ∃ y, loadMany c xs.length (p ++ [t]) = .ok (y, [])
  | [], p, q, h, hq => by simp at h; exact absurd h.2 hq
  | x :: xs, p, q, h, hq => by
    rw [List.flatMap_cons] at h
    simp only [List.length_cons, loadMany]
    rcases split_two h hq with ⟨r, hr, h1⟩ | ⟨r, rfl, h2⟩
    · refine ⟨(hc.between x p r h1 hr).bind _, fun t => ?_⟩
      rcases hc.inside x p r t h1 hr with h3 | ⟨y, h3⟩
      · exact .inl (h3.bind _)
      · rw [h3, Res.ok_bind]
        rcases many_empty hc xs.length with h4 | ⟨z, h4⟩
        · exact .inl (h4.bind _)
        · exact .inr ⟨y :: z, by rw [h4]; rfl⟩
    · obtain ⟨h5, h6⟩ := wh_many rc sc hc xs r q h2 hq
      constructor
      · rcases whole_first_part rc sc x r with h3 | h3
        · exact h3.bind _
        · rw [h3, Res.ok_bind]
          exact h5.bind _
      · intro t
        rw [List.append_assoc]
        rcases whole_first_part rc sc x (r ++ [t]) with h3 | h3
        · exact .inl (h3.bind _)
        · rw [h3, Res.ok_bind]
          rcases h6 t with h4 | ⟨z, h4⟩
          · exact .inl (h4.bind _)
          · exact .inr ⟨f x :: z, by rw [h4]; rfl⟩

/-- The count, then the elements. -/
theorem split_cons {a : Tok F} {p q b : Archive F} (h : p ++ q = a :: b) (hq : q ≠ []) : p = [] ∨ ∃ r, p = a :: r ∧ r ++ q = b := by
  cases p with
  | nil => exact .inl rfl
  | cons c p =>
    simp only [List.cons_append, List.cons.injEq] at h
    exact .inr ⟨p, by rw [h.1], h.2⟩

theorem wh_vec {c : Codec F α} {f : α → α} (rc : c.RoundTrip f) (sc : c.Strict) (hc : c.Whole) : (vec c).Whole where
  empty := ⟨_, rfl⟩
  between x p q h hq := by
    rcases split_cons h hq with rfl | ⟨r, rfl, h2⟩
    · exact ⟨_, rfl⟩
    · exact (wh_many rc sc hc x r q h2 hq).1
  inside x p q t h hq := by
    rcases split_cons h hq with rfl | ⟨r, rfl, h2⟩
    · cases t with
      | int i => exact many_empty hc _
      | float x => exact .inl ⟨_, rfl⟩
      | str s => exact .inl ⟨_, rfl⟩
    · exact (wh_many rc sc hc x r q h2 hq).2 t

theorem wh_floats : (vec (float : Codec F F)).Whole := wh_vec rt_float st_float wh_float

theorem Circ.whole : (Circ.codec : Codec F (Circ F)).Whole :=
  wh_obj (wh_pair rt_float.vec_id.vec_id (st_vec rt_float.vec_id st_floats) (wh_vec rt_float.vec_id st_floats wh_floats) (wh_pair rt_nat st_nat wh_nat wh_nat))

theorem Sgd.whole : (Sgd.codec : Codec F (Sgd F)).Whole := wh_obj (wh_pair rt_float st_float wh_float wh_float)

theorem Neuron.whole : (Neuron.codec : Codec F (Neuron F)).Whole :=
  wh_obj (wh_pair Sgd.roundTrip Sgd.strict Sgd.whole (wh_pair rt_int st_int wh_int (wh_pair rt_int st_int wh_int (wh_pair rt_float.vec_id st_floats wh_floats
    (wh_pair rt_float st_float wh_float (wh_pair Circ.roundTrip Circ.strict Circ.whole (wh_pair Circ.roundTrip Circ.strict Circ.whole
    (wh_pair rt_float.vec_id st_floats wh_floats (wh_pair rt_float st_float wh_float Act.whole)))))))))

theorem RecNeuron.whole : (RecNeuron.codec : Codec F (RecNeuron F)).Whole :=
  wh_obj (wh_pair Neuron.roundTrip Neuron.strict Neuron.whole (wh_pair rt_float st_float wh_float (wh_pair rt_float st_float wh_float
    (wh_pair rt_float st_float wh_float wh_float))))

theorem Gru.whole : (Gru.codec : Codec F (Gru F)).Whole :=
  wh_obj (wh_pair rt_int st_int wh_int (wh_pair rt_float st_float wh_float (wh_pair rt_float st_float wh_float (wh_pair rt_float st_float wh_float
    (wh_pair rt_float st_float wh_float (wh_pair RecNeuron.roundTrip RecNeuron.strict RecNeuron.whole
    (wh_pair RecNeuron.roundTrip RecNeuron.strict RecNeuron.whole RecNeuron.whole)))))))

/-- A tagged object, cut between two values of it. -/
theorem wh_tag {c : Codec F α} (hc : c.Whole) {γ : Type} {x : α} {r q : Archive F} (h : r ++ q = c.save x) (hq : q ≠ []) {g : α → γ} :
    (c.load r >>= fun y => (pure (g y.1, y.2) : Res _)).Throws ∧ ∀ t, (c.load (r ++ [t]) >>= fun y => (pure (g y.1, y.2) : Res _)).Throws ∨
      ∃ y, (c.load (r ++ [t]) >>= fun y => (pure (g y.1, y.2) : Res _)) = .ok (y, []) := by
  refine ⟨(hc.between x r q h hq).bind _, fun t => ?_⟩
  rcases hc.inside x r q t h hq with h3 | ⟨y, h3⟩
  · exact .inl (h3.bind _)
  · exact .inr ⟨g y, by rw [h3]; rfl⟩

theorem wh_dropout : (pair float (pair float (vec bool)) : Codec F _).Whole :=
  wh_pair rt_float st_float wh_float (wh_pair rt_float st_float wh_float (wh_vec rt_bool st_bool wh_bool))

/-- Reading a layer optimizer of which only the class is left. -/
theorem LayerOpt.load_tag (t : Tok F) : ((LayerOpt.codec : Codec F (LayerOpt F)).load [t]).Throws ∨ ∃ y, (LayerOpt.codec : Codec F (LayerOpt F)).load [t] = .ok (y, []) := by
  simp only [LayerOpt.codec]
  split
  · rename_i h; cases h; exact .inl (wh_dropout.empty.bind _)
  · rename_i h; cases h; exact .inl (wh_float.empty.bind _)
  · rename_i h; cases h; exact .inl (wh_float.empty.bind _)
  · rename_i h; cases h; exact .inl (wh_float.empty.bind _)
  · rename_i h; cases h; exact .inr ⟨_, rfl⟩
  · exact .inl ⟨_, rfl⟩

theorem LayerOpt.whole : (LayerOpt.codec : Codec F (LayerOpt F)).Whole where
  empty := ⟨_, rfl⟩
  between x p q h hq := by
    cases x with
    | dropout v rv p' =>
      rcases split_cons h hq with rfl | ⟨r, rfl, h2⟩
      · exact ⟨_, rfl⟩
      · exact (wh_tag wh_dropout h2 hq (g := fun y => LayerOpt.dropout y.1 y.2.1 y.2.2)).1
    | softmax => rw [prefix_single h hq]; exact ⟨_, rfl⟩
    | l1 v =>
      rcases split_cons h hq with rfl | ⟨r, rfl, h2⟩
      · exact ⟨_, rfl⟩
      · exact (wh_tag wh_float h2 hq (g := fun y => LayerOpt.l1 y)).1
    | l2 v =>
      rcases split_cons h hq with rfl | ⟨r, rfl, h2⟩
      · exact ⟨_, rfl⟩
      · exact (wh_tag wh_float h2 hq (g := fun y => LayerOpt.l2 y)).1
    | errorMultiplier v =>
      rcases split_cons h hq with rfl | ⟨r, rfl, h2⟩
      · exact ⟨_, rfl⟩
      · exact (wh_tag wh_float h2 hq (g := fun y => LayerOpt.errorMultiplier y)).1
  inside x p q t h hq := by
    cases x with
    | dropout v rv p' =>
      rcases split_cons h hq with rfl | ⟨r, rfl, h2⟩
      · exact LayerOpt.load_tag t
      · exact (wh_tag wh_dropout h2 hq (g := fun y => LayerOpt.dropout y.1 y.2.1 y.2.2)).2 t
    | softmax => rw [prefix_single h hq]; exact LayerOpt.load_tag t
    | l1 v =>
      rcases split_cons h hq with rfl | ⟨r, rfl, h2⟩
      · exact LayerOpt.load_tag t
      · exact (wh_tag wh_float h2 hq (g := fun y => LayerOpt.l1 y)).2 t
    | l2 v =>
      rcases split_cons h hq with rfl | ⟨r, rfl, h2⟩
      · exact LayerOpt.load_tag t
      · exact (wh_tag wh_float h2 hq (g := fun y => LayerOpt.l2 y)).2 t
    | errorMultiplier v =>
      rcases split_cons h hq with rfl | ⟨r, rfl, h2⟩
      · exact LayerOpt.load_tag t
      · exact (wh_tag wh_float h2 hq (g := fun y => LayerOpt.errorMultiplier y)).2 t

theorem wh_ints : (vec (int : Codec F Int)).Whole := wh_vec rt_int st_int wh_int
theorem st_ints : (vec (int : Codec F Int)).Strict := st_vec rt_int st_int

theorem FilterInfo.whole : (FilterInfo.codec : Codec F FilterInfo).Whole :=
  wh_obj (wh_pair rt_int st_int wh_int (wh_pair rt_int st_int wh_int (wh_pair rt_int st_int wh_int (wh_pair rt_int st_int wh_int
    (wh_pair rt_int st_int wh_int (wh_pair rt_int st_int wh_int (wh_pair rt_int.vec_id st_ints wh_ints (wh_pair rt_int.vec_id st_ints wh_ints
    (wh_vec rt_int.vec_id st_ints wh_ints)))))))))

theorem Layer.baseWhole {N : Type} {c : Codec F N} {f : N → N} (h : c.RoundTrip f) (hs : c.Strict) (hw : c.Whole) : (Layer.baseCodec c).Whole :=
  wh_pair rt_int st_int wh_int (wh_pair (rt_vec h) (st_vec h hs) (wh_vec h hs hw) (wh_vec LayerOpt.roundTrip LayerOpt.strict LayerOpt.whole))

theorem wh_simple : (Layer.baseCodec Neuron.codec : Codec F _).Whole := Layer.baseWhole Neuron.roundTrip Neuron.strict Neuron.whole
theorem wh_recurrent : (Layer.baseCodec RecNeuron.codec : Codec F _).Whole := Layer.baseWhole RecNeuron.roundTrip RecNeuron.strict RecNeuron.whole
theorem wh_gru : (Layer.baseCodec Gru.codec : Codec F _).Whole := Layer.baseWhole Gru.roundTrip Gru.strict Gru.whole
theorem wh_filter : (pair (Layer.baseCodec Neuron.codec) FilterInfo.codec : Codec F _).Whole :=
  wh_pair (Layer.baseRoundTrip Neuron.roundTrip) (Layer.baseStrict Neuron.roundTrip Neuron.strict) wh_simple FilterInfo.whole
theorem wh_pool : (pair (pair (Layer.baseCodec Neuron.codec) FilterInfo.codec) (pair int (vec int)) : Codec F _).Whole :=
  wh_pair (rt_pair (Layer.baseRoundTrip Neuron.roundTrip) FilterInfo.roundTrip)
    (st_pair (Layer.baseRoundTrip Neuron.roundTrip) (Layer.baseStrict Neuron.roundTrip Neuron.strict) FilterInfo.strict) wh_filter
    (wh_pair rt_int st_int wh_int wh_ints)

/-- Reading a layer of which only the class is left. -/
theorem Layer.load_tag (t : Tok F) : ((Layer.codec : Codec F (Layer F)).load [t]).Throws := by
  simp only [Layer.codec]
  split
  · rename_i h; cases h; exact wh_simple.empty.bind _
  · rename_i h; cases h; exact wh_recurrent.empty.bind _
  · rename_i h; cases h; exact wh_gru.empty.bind _
  · rename_i h; cases h; exact wh_filter.empty.bind _
  · rename_i h; cases h; exact wh_filter.empty.bind _
  · rename_i h; cases h; exact wh_filter.empty.bind _
  · rename_i h; cases h; exact wh_filter.empty.bind _
  · rename_i h; cases h; exact wh_pool.empty.bind _
  · rename_i h; cases h; exact wh_pool.empty.bind _
  · exact ⟨_, rfl⟩

theorem Layer.whole : (Layer.codec : Codec F (Layer F)).Whole where
  empty := ⟨_, rfl⟩
  between x p q h hq := by
    obtain ⟨ni, os, b⟩ := x
    cases b with
    | fullyConnected ns =>
      rcases split_cons h hq with rfl | ⟨r, rfl, h2⟩
      · exact ⟨_, rfl⟩
      · exact (wh_tag wh_simple h2 hq (g := fun y => (⟨y.1, y.2.2, .fullyConnected y.2.1⟩ : Layer F))).1
    | recurrence ns =>
      rcases split_cons h hq with rfl | ⟨r, rfl, h2⟩
      · exact ⟨_, rfl⟩
      · exact (wh_tag wh_recurrent h2 hq (g := fun y => (⟨y.1, y.2.2, .recurrence y.2.1⟩ : Layer F))).1
    | gru ns =>
      rcases split_cons h hq with rfl | ⟨r, rfl, h2⟩
      · exact ⟨_, rfl⟩
      · exact (wh_tag wh_gru h2 hq (g := fun y => (⟨y.1, y.2.2, .gru y.2.1⟩ : Layer F))).1
    | filter k ns i =>
      cases k <;>
      · rcases split_cons h hq with rfl | ⟨r, rfl, h2⟩
        · exact ⟨_, rfl⟩
        · exact (wh_tag wh_filter h2 hq (g := fun y => (⟨y.1.1, y.1.2.2, .filter _ y.1.2.1 y.2⟩ : Layer F))).1
    | pool two i n m =>
      cases two <;>
      · rcases split_cons h hq with rfl | ⟨r, rfl, h2⟩
        · exact ⟨_, rfl⟩
        · exact (wh_tag wh_pool h2 hq (g := fun y => (⟨y.1.1.1, y.1.1.2.2, .pool _ y.1.2 y.2.1 y.2.2⟩ : Layer F))).1
  inside x p q t h hq := by
    obtain ⟨ni, os, b⟩ := x
    cases b with
    | fullyConnected ns =>
      rcases split_cons h hq with rfl | ⟨r, rfl, h2⟩
      · exact .inl (Layer.load_tag t)
      · exact (wh_tag wh_simple h2 hq (g := fun y => (⟨y.1, y.2.2, .fullyConnected y.2.1⟩ : Layer F))).2 t
    | recurrence ns =>
      rcases split_cons h hq with rfl | ⟨r, rfl, h2⟩
      · exact .inl (Layer.load_tag t)
      · exact (wh_tag wh_recurrent h2 hq (g := fun y => (⟨y.1, y.2.2, .recurrence y.2.1⟩ : Layer F))).2 t
    | gru ns =>
      rcases split_cons h hq with rfl | ⟨r, rfl, h2⟩
      · exact .inl (Layer.load_tag t)
      · exact (wh_tag wh_gru h2 hq (g := fun y => (⟨y.1, y.2.2, .gru y.2.1⟩ : Layer F))).2 t
    | filter k ns i =>
      cases k <;>
      · rcases split_cons h hq with rfl | ⟨r, rfl, h2⟩
        · exact .inl (Layer.load_tag t)
        · exact (wh_tag wh_filter h2 hq (g := fun y => (⟨y.1.1, y.1.2.2, .filter _ y.1.2.1 y.2⟩ : Layer F))).2 t
    | pool two i n m =>
      cases two <;>
      · rcases split_cons h hq with rfl | ⟨r, rfl, h2⟩
        · exact .inl (Layer.load_tag t)
        · exact (wh_tag wh_pool h2 hq (g := fun y => (⟨y.1.1.1, y.1.1.2.2, .pool _ y.1.2 y.2.1 y.2.2⟩ : Layer F))).2 t

variable [Flt F]

theorem Cluster.whole : (Cluster.codec : Codec F (Cluster F)).Whole :=
  wh_obj (wh_pair rt_float st_float wh_float (wh_pair rt_float st_float wh_float (wh_pair rt_float st_float wh_float wh_float)))

theorem Stats.whole : (Stats.codec : Codec F (Stats F)).Whole :=
  wh_obj (wh_pair (rt_vec Cluster.roundTrip) (st_vec Cluster.roundTrip Cluster.strict) (wh_vec Cluster.roundTrip Cluster.strict Cluster.whole)
    (wh_pair rt_float st_float wh_float (wh_pair rt_float st_float wh_float (wh_pair rt_float st_float wh_float (wh_pair rt_float st_float wh_float
    (wh_pair rt_float st_float wh_float (wh_pair rt_float st_float wh_float (wh_pair rt_float st_float wh_float (wh_pair rt_float st_float wh_float
    (wh_pair rt_float st_float wh_float (wh_pair rt_float st_float wh_float (wh_pair rt_float st_float wh_float (wh_pair rt_float st_float wh_float
    (wh_pair rt_bool st_bool wh_bool (wh_pair rt_bool st_bool wh_bool (wh_pair rt_bool st_bool wh_bool (wh_pair rt_bool st_bool wh_bool
    wh_bool)))))))))))))))))

theorem Net.whole : (Net.codec : Codec F (Net F)).Whole :=
  wh_obj (wh_pair Stats.roundTrip Stats.strict Stats.whole (wh_pair rt_int st_int wh_int (wh_pair (rt_vec Layer.roundTrip)
    (st_vec Layer.roundTrip Layer.strict) (wh_vec Layer.roundTrip Layer.strict Layer.whole) Sgd.whole)))

theorem Snn.whole : (Snn.codec : Codec F (Snn F)).Whole :=
  wh_obj (wh_pair Net.roundTrip Net.strict Net.whole (wh_pair rt_str st_str wh_str (wh_pair rt_bool st_bool wh_bool (wh_pair rt_bool st_bool wh_bool
    (wh_pair rt_int st_int wh_int (wh_pair rt_bool st_bool wh_bool (wh_pair rt_int st_int wh_int wh_int)))))))

/-- A pair that was cut inside a value is read only if the cut is in its second part. -/
theorem pair_inside {c : Codec F α} {d : Codec F β} {f : α → α} (rc : c.RoundTrip f) (sc : c.Strict) (hc : c.Whole) (hd : d.Whole)
    {x : α × β} {p q : Archive F} {t : Tok F} (h : p ++ q = (pair c d).save x) (hq : q ≠ []) :
    ((pair c d).load (p ++ [t])).Throws ∨ ∃ r, p = c.save x.1 ++ r ∧ r ++ q = d.save x.2 ∧
      (pair c d).load (p ++ [t]) = (do let (y, a) ← d.load (r ++ [t]); return ((f x.1, y), a)) := by
  rcases split_two h hq with ⟨r, hr, h1⟩ | ⟨r, rfl, h2⟩
  · rcases hc.inside x.1 p r t h1 hr with h3 | ⟨y, h3⟩
    · exact .inl (h3.bind _)
    · refine .inl ?_
      simp only [pair, h3, Res.ok_bind]
      exact hd.empty.bind _
  · rcases whole_first_part rc sc x.1 (r ++ [t]) with h3 | h3
    · refine .inl ?_
      rw [List.append_assoc]
      exact h3.bind _
    · refine .inr ⟨r, rfl, h2, ?_⟩
      rw [List.append_assoc]
      simp only [pair, h3, Res.ok_bind]

/-- Reading a saved network whose text was cut inside a value: it throws, unless the cut is in the last value. -/
theorem Snn.inside_last (s : Snn F) {p q : Archive F} {t : Tok F} (h : p ++ q = Snn.codec.save s) (hq : q ≠ []) :
    (Snn.codec.load (p ++ [t])).Throws ∨ ∃ j, Snn.codec.load (p ++ [t]) = .ok ({ s.forget with numberOfTrainingsBetweenTwoEvaluations := j }, []) := by
  have w7 : (pair int int : Codec F _).Whole := wh_pair rt_int st_int wh_int wh_int
  have w6 : (pair bool (pair int int) : Codec F _).Whole := wh_pair rt_bool st_bool wh_bool w7
  have w5 := wh_pair (F := F) rt_int st_int wh_int w6
  have w4 := wh_pair (F := F) rt_bool st_bool wh_bool w5
  have w3 := wh_pair (F := F) rt_bool st_bool wh_bool w4
  have w2 := wh_pair (F := F) rt_str st_str wh_str w3
  simp only [Snn.codec, obj] at h ⊢
  rcases pair_inside (t := t) Net.roundTrip Net.strict Net.whole w2 h hq with h1 | ⟨r, -, h, e1⟩
  · exact .inl (h1.bind _)
  rw [e1]
  rcases pair_inside (t := t) rt_str st_str wh_str w3 h hq with h1 | ⟨r, -, h, e2⟩
  · exact .inl ((h1.bind _).bind _)
  rw [e2]
  rcases pair_inside (t := t) rt_bool st_bool wh_bool w4 h hq with h1 | ⟨r, -, h, e3⟩
  · exact .inl (((h1.bind _).bind _).bind _)
  rw [e3]
  rcases pair_inside (t := t) rt_bool st_bool wh_bool w5 h hq with h1 | ⟨r, -, h, e4⟩
  · exact .inl ((((h1.bind _).bind _).bind _).bind _)
  rw [e4]
  rcases pair_inside (t := t) rt_int st_int wh_int w6 h hq with h1 | ⟨r, -, h, e5⟩
  · exact .inl (((((h1.bind _).bind _).bind _).bind _).bind _)
  rw [e5]
  rcases pair_inside (t := t) rt_bool st_bool wh_bool w7 h hq with h1 | ⟨r, -, h, e6⟩
  · exact .inl ((((((h1.bind _).bind _).bind _).bind _).bind _).bind _)
  rw [e6]
  rcases pair_inside (t := t) rt_int st_int wh_int wh_int h hq with h1 | ⟨r, -, h, e7⟩
  · exact .inl (((((((h1.bind _).bind _).bind _).bind _).bind _).bind _).bind _)
  rw [e7, prefix_single h hq]
  cases t with
  | int j => exact .inr ⟨j, rfl⟩
  | float x => exact .inl ⟨_, rfl⟩
  | str s => exact .inl ⟨_, rfl⟩

end

end Snn
