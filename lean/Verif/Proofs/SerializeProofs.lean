import Verif.Model.Serialize

/-! Round trip of every `serialize` template. -/

set_option linter.all false

namespace Snn

variable {F : Type}

/-- The text archive can read this value back. -/
def Tok.ok [FText F] : Tok F → Bool
  | .float x => readable x
  | _ => true

/-- What is written is read back as `norm` of it, when every written float can be read. -/
def Codec.RoundTrip {α : Type} [FText F] (c : Codec F α) (norm : α → α) : Prop :=
  ∀ x rest, (∀ t ∈ c.save x, t.ok = true) → c.load (c.save x ++ rest) = .ok (norm x, rest)

namespace Codec
variable {α β : Type} [FText F]

theorem rt_int : (int : Codec F Int).RoundTrip id := fun x rest _ => rfl
theorem rt_nat : (nat : Codec F Nat).RoundTrip id := fun x rest _ => by simp [nat]
theorem rt_bool : (bool : Codec F Bool).RoundTrip id := fun x rest _ => by cases x <;> rfl
theorem rt_str : (str : Codec F String).RoundTrip id := fun x rest _ => rfl
theorem rt_float : (float : Codec F F).RoundTrip id := fun x rest h => by
  have : readable x = true := h (.float x) (by simp [float])
  simp [float, this]

theorem rt_pair {c : Codec F α} {d : Codec F β} {f : α → α} {g : β → β} (hc : c.RoundTrip f) (hd : d.RoundTrip g) :
    (pair c d).RoundTrip (fun p => (f p.1, g p.2)) := by
  intro x rest h
  have h1 : ∀ t ∈ c.save x.1, t.ok = true := fun t ht => h t (by simp [pair, ht])
  have h2 : ∀ t ∈ d.save x.2, t.ok = true := fun t ht => h t (by simp [pair, ht])
  simp only [pair, List.append_assoc, hc x.1 _ h1, hd x.2 _ h2, Res.ok_bind, Res.pure_eq]

theorem rt_obj {fields : α → β} {make : β → α} {c : Codec F β} {g : β → β} (hc : c.RoundTrip g) :
    (obj fields make c).RoundTrip (fun x => make (g (fields x))) := by
  intro x rest h
  simp only [obj] at h ⊢
  rw [hc _ _ h]
  rfl

theorem rt_many {c : Codec F α} {f : α → α} (hc : c.RoundTrip f) : ∀ (xs : List α) (rest : Archive F),
    (∀ t ∈ xs.flatMap c.save, t.ok = true) → loadMany c xs.length (xs.flatMap c.save ++ rest) = .ok (xs.map f, rest)
  | [], rest, _ => rfl
  | x :: xs, rest, h => by
    have h1 : ∀ t ∈ c.save x, t.ok = true := fun t ht => h t (by simp [ht])
    have h2 : ∀ t ∈ xs.flatMap c.save, t.ok = true := fun t ht => h t (by
      rw [List.flatMap_cons]; exact List.mem_append_right _ ht)
    simp only [List.length_cons, loadMany, List.flatMap_cons, List.append_assoc]
    rw [hc x _ h1, Res.ok_bind, rt_many hc xs rest h2]
    rfl

theorem rt_vec {c : Codec F α} {f : α → α} (hc : c.RoundTrip f) : (vec c).RoundTrip (fun xs => xs.map f) := by
  intro xs rest h
  simp only [vec, List.cons_append]
  exact rt_many hc xs rest fun t ht => h t (by simp only [vec]; exact List.mem_cons_of_mem _ ht)

theorem RoundTrip.congr {c : Codec F α} {f g : α → α} (h : c.RoundTrip f) (e : ∀ x, f x = g x) : c.RoundTrip g := by
  intro x rest hx
  rw [h x rest hx, e]

theorem RoundTrip.vec_id {c : Codec F α} (h : c.RoundTrip id) : (vec c).RoundTrip id :=
  (rt_vec h).congr fun x => List.map_id x

theorem RoundTrip.pair_id {c : Codec F α} {d : Codec F β} (hc : c.RoundTrip id) (hd : d.RoundTrip id) :
    (pair c d).RoundTrip id := (rt_pair hc hd).congr fun _ => rfl

end Codec

open Codec
section
variable [FText F]

theorem Circ.roundTrip : (Circ.codec : Codec F (Circ F)).RoundTrip id :=
  (rt_obj (.pair_id rt_float.vec_id.vec_id (.pair_id rt_nat rt_nat))).congr fun _ => rfl

theorem Sgd.roundTrip : (Sgd.codec : Codec F (Sgd F)).RoundTrip id :=
  (rt_obj (.pair_id rt_float rt_float)).congr fun _ => rfl

theorem Act.roundTrip : (Act.codec : Codec F Act).RoundTrip id := by
  intro x rest _
  cases x <;> rfl

theorem Neuron.roundTrip : (Neuron.codec : Codec F (Neuron F)).RoundTrip id :=
  (rt_obj (.pair_id Sgd.roundTrip (.pair_id rt_int (.pair_id rt_int (.pair_id rt_float.vec_id (.pair_id rt_float
    (.pair_id Circ.roundTrip (.pair_id Circ.roundTrip (.pair_id rt_float.vec_id (.pair_id rt_float
    Act.roundTrip)))))))))).congr fun _ => rfl

theorem RecNeuron.roundTrip : (RecNeuron.codec : Codec F (RecNeuron F)).RoundTrip id :=
  (rt_obj (.pair_id Neuron.roundTrip (.pair_id rt_float (.pair_id rt_float (.pair_id rt_float rt_float))))).congr
    fun _ => rfl

/-- A gated recurrent unit without its buffer `errors`. -/
def Gru.forget (g : Gru F) : Gru F := { g with errors := [] }

theorem Gru.roundTrip : (Gru.codec : Codec F (Gru F)).RoundTrip Gru.forget :=
  (rt_obj (.pair_id rt_int (.pair_id rt_float (.pair_id rt_float (.pair_id rt_float (.pair_id rt_float
    (.pair_id RecNeuron.roundTrip (.pair_id RecNeuron.roundTrip RecNeuron.roundTrip)))))))).congr fun _ => rfl

theorem LayerOpt.roundTrip : (LayerOpt.codec : Codec F (LayerOpt F)).RoundTrip id := by
  have hd : (pair float (pair float (vec bool)) : Codec F _).RoundTrip id :=
    .pair_id rt_float (.pair_id rt_float rt_bool.vec_id)
  intro x rest h
  cases x with
  | dropout v rv p =>
    simp only [LayerOpt.codec, List.cons_append]
    rw [hd _ _ fun t ht => h t (List.mem_cons_of_mem _ ht)]
    rfl
  | softmax => rfl
  | _ v =>
    simp only [LayerOpt.codec, List.cons_append]
    rw [rt_float _ _ fun t ht => h t (List.mem_cons_of_mem _ ht)]
    rfl

theorem FilterInfo.roundTrip : (FilterInfo.codec : Codec F FilterInfo).RoundTrip id :=
  (rt_obj (.pair_id rt_int (.pair_id rt_int (.pair_id rt_int (.pair_id rt_int (.pair_id rt_int (.pair_id rt_int
    (.pair_id rt_int.vec_id (.pair_id rt_int.vec_id rt_int.vec_id.vec_id))))))))).congr fun _ => rfl

theorem Layer.baseRoundTrip {N : Type} {c : Codec F N} {f : N → N} (h : c.RoundTrip f) :
    (Layer.baseCodec c).RoundTrip (fun p => (p.1, p.2.1.map f, p.2.2)) :=
  (rt_pair rt_int (rt_pair (rt_vec h) LayerOpt.roundTrip.vec_id)).congr fun _ => rfl

/-- A layer without the buffers `errors` of its gated recurrent units. -/
def Layer.forget (l : Layer F) : Layer F :=
  match l.body with
  | .gru ns => { l with body := .gru (ns.map Gru.forget) }
  | _ => l

theorem Layer.roundTrip : (Layer.codec : Codec F (Layer F)).RoundTrip Layer.forget := by
  have hs : (Layer.baseCodec Neuron.codec : Codec F _).RoundTrip id :=
    (Layer.baseRoundTrip Neuron.roundTrip).congr fun p => by simp
  have hr : (Layer.baseCodec RecNeuron.codec : Codec F _).RoundTrip id :=
    (Layer.baseRoundTrip RecNeuron.roundTrip).congr fun p => by simp
  have hg := Layer.baseRoundTrip (Gru.roundTrip (F := F))
  have hf : (pair (Layer.baseCodec Neuron.codec) FilterInfo.codec : Codec F _).RoundTrip id :=
    .pair_id hs FilterInfo.roundTrip
  have hp : (pair (pair (Layer.baseCodec Neuron.codec) FilterInfo.codec) (pair int (vec int)) : Codec F _).RoundTrip id :=
    .pair_id hf (.pair_id rt_int rt_int.vec_id)
  rintro ⟨ni, os, b⟩ rest h
  cases b with
  | fullyConnected ns =>
    simp only [Layer.codec, List.cons_append]
    rw [hs _ _ fun t ht => h t (List.mem_cons_of_mem _ ht)]
    rfl
  | recurrence ns =>
    simp only [Layer.codec, List.cons_append]
    rw [hr _ _ fun t ht => h t (List.mem_cons_of_mem _ ht)]
    rfl
  | gru ns =>
    simp only [Layer.codec, List.cons_append]
    rw [hg _ _ fun t ht => h t (List.mem_cons_of_mem _ ht)]
    rfl
  | filter k ns i =>
    cases k <;>
    · simp only [Layer.codec, List.cons_append]
      rw [hf _ _ fun t ht => h t (List.mem_cons_of_mem _ ht)]
      rfl
  | pool t i n m =>
    cases t <;>
    · simp only [Layer.codec, List.cons_append]
      rw [hp _ _ fun t ht => h t (List.mem_cons_of_mem _ ht)]
      rfl

variable [Flt F]

/-- A counter without its `totalError`. -/
def Cluster.forget (c : Cluster F) : Cluster F := { c with totalError := lit 0 }

theorem Cluster.roundTrip : (Cluster.codec : Codec F (Cluster F)).RoundTrip Cluster.forget :=
  (rt_obj (.pair_id rt_float (.pair_id rt_float (.pair_id rt_float rt_float)))).congr fun _ => rfl

/-- The statistics without the `totalError` of the counters. -/
def Stats.forget (s : Stats F) : Stats F := { s with clusters := s.clusters.map Cluster.forget }

theorem Stats.roundTrip : (Stats.codec : Codec F (Stats F)).RoundTrip Stats.forget := by
  have hb : (bool : Codec F Bool).RoundTrip id := rt_bool
  have hf : (float : Codec F F).RoundTrip id := rt_float
  exact (rt_obj (rt_pair (rt_vec Cluster.roundTrip) (.pair_id hf (.pair_id hf (.pair_id hf (.pair_id hf (.pair_id hf
    (.pair_id hf (.pair_id hf (.pair_id hf (.pair_id hf (.pair_id hf (.pair_id hf (.pair_id hf (.pair_id hb (.pair_id hb
    (.pair_id hb (.pair_id hb hb)))))))))))))))))).congr fun _ => rfl

/-- What is read back of a network. -/
def Net.forget (n : Net F) : Net F :=
  { n with stats := n.stats.forget, outputNan := false, layers := n.layers.map Layer.forget }

theorem Net.roundTrip : (Net.codec : Codec F (Net F)).RoundTrip Net.forget :=
  (rt_obj (rt_pair Stats.roundTrip (rt_pair rt_int (rt_pair (rt_vec Layer.roundTrip) Sgd.roundTrip)))).congr fun _ => rfl

/-- What is read back of a network. -/
def Snn.forget (s : Snn F) : Snn F := { s with net := s.net.forget }

theorem Snn.roundTrip : (Snn.codec : Codec F (Snn F)).RoundTrip Snn.forget :=
  (rt_obj (rt_pair Net.roundTrip (.pair_id rt_str (.pair_id rt_bool (.pair_id rt_bool (.pair_id rt_int (.pair_id rt_bool
    (.pair_id rt_int rt_int)))))))).congr fun _ => rfl

/-- Every float of a network that a file would contain can be read back. -/
def Snn.Readable (s : Snn F) : Prop := ∀ t ∈ Snn.codec.save s, t.ok = true

theorem load_saved (s : Snn F) (h : s.Readable) : ∃ a, Snn.codec.load (Snn.codec.save s) = .ok (s.forget, a) := by
  have := Snn.roundTrip s [] h
  rw [List.append_nil] at this
  exact ⟨[], this⟩

end

end Snn
