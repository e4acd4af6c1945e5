import Verif.Proofs.SerializeProofs

/-! A file with a float that cannot be read back cannot be loaded. -/

set_option linter.all false

namespace Snn

open Codec

section
variable {F : Type} [FText F] {α β : Type}

/-- Either every float can be read back or loading throws. -/
def Codec.Strict (c : Codec F α) : Prop :=
  ∀ x rest, (∀ t ∈ c.save x, t.ok = true) ∨ ∃ m, c.load (c.save x ++ rest) = .throw m

theorem st_int : (int : Codec F Int).Strict := fun x rest => .inl (by simp [int, Tok.ok])
theorem st_nat : (nat : Codec F Nat).Strict := fun x rest => .inl (by simp [nat, Tok.ok])
theorem st_bool : (bool : Codec F Bool).Strict := fun x rest => .inl (by simp [Codec.bool, Tok.ok])
theorem st_str : (str : Codec F String).Strict := fun x rest => .inl (by simp [str, Tok.ok])
theorem st_float : (float : Codec F F).Strict := fun x rest => by
  by_cases h : readable x = true
  · exact .inl (by simp [float, Tok.ok, h])
  · exact .inr ⟨"input stream error", by simp [float, h, streamError]⟩

theorem st_pair {c : Codec F α} {d : Codec F β} {f : α → α} (rc : c.RoundTrip f) (hc : c.Strict) (hd : d.Strict) : (pair c d).Strict := by
  intro x rest
  rcases hc x.1 (d.save x.2 ++ rest) with h1 | ⟨m, h1⟩
  · rcases hd x.2 rest with h2 | ⟨m, h2⟩
    · refine .inl fun t ht => ?_
      rcases List.mem_append.1 ht with h | h
      · exact h1 t h
      · exact h2 t h
    · refine .inr ⟨m, ?_⟩
      simp only [pair, List.append_assoc, rc x.1 _ h1, Res.ok_bind, h2]
      rfl
  · refine .inr ⟨m, ?_⟩
    simp only [pair, List.append_assoc, h1]
    rfl

theorem st_obj {f : α → β} {g : β → α} {c : Codec F β} (hc : c.Strict) : (obj f g c).Strict := by
  intro x rest
  rcases hc (f x) rest with h1 | ⟨m, h1⟩
  · exact .inl h1
  · refine .inr ⟨m, ?_⟩
    simp only [obj, h1]
    rfl

theorem st_vec {c : Codec F α} {f : α → α} (rc : c.RoundTrip f) (hc : c.Strict) : (vec c).Strict := by
  have key : ∀ (xs : List α) (rest : Archive F), (∀ t ∈ xs.flatMap c.save, t.ok = true) ∨
      ∃ m, loadMany c xs.length (xs.flatMap c.save ++ rest) = .throw m := by
    intro xs
    induction xs with
    | nil => intro rest; exact .inl (by simp)
    | cons x xs ih =>
      intro rest
      rcases hc x (xs.flatMap c.save ++ rest) with h1 | ⟨m, h1⟩
      · rcases ih rest with h2 | ⟨m, h2⟩
        · refine .inl fun t ht => ?_
          rw [List.flatMap_cons] at ht
          rcases List.mem_append.1 ht with h | h
          · exact h1 t h
          · exact h2 t h
        · refine .inr ⟨m, ?_⟩
          simp only [List.length_cons, loadMany, List.flatMap_cons, List.append_assoc]
          rw [rc x _ h1, Res.ok_bind, h2]
          rfl
      · refine .inr ⟨m, ?_⟩
        simp only [List.length_cons, loadMany, List.flatMap_cons, List.append_assoc]
        rw [h1]
        rfl
  intro xs rest
  rcases key xs rest with h | ⟨m, h⟩
  · refine .inl fun t ht => ?_
    simp only [vec] at ht
    rcases List.mem_cons.1 ht with rfl | h1
    · rfl
    · exact h t h1
  · exact .inr ⟨m, h⟩

theorem st_floats : (vec (float : Codec F F)).Strict := st_vec rt_float st_float

theorem Circ.strict : (Circ.codec : Codec F (Circ F)).Strict :=
  st_obj (st_pair rt_float.vec_id.vec_id (st_vec rt_float.vec_id st_floats) (st_pair rt_nat st_nat st_nat))

theorem Sgd.strict : (Sgd.codec : Codec F (Sgd F)).Strict := st_obj (st_pair rt_float st_float st_float)

theorem Act.strict : (Act.codec : Codec F Act).Strict := fun x rest => .inl (by
  cases x <;> simp [Act.codec, Tok.ok])

theorem Neuron.strict : (Neuron.codec : Codec F (Neuron F)).Strict :=
  st_obj (st_pair Sgd.roundTrip Sgd.strict (st_pair rt_int st_int (st_pair rt_int st_int (st_pair rt_float.vec_id st_floats
    (st_pair rt_float st_float (st_pair Circ.roundTrip Circ.strict (st_pair Circ.roundTrip Circ.strict
    (st_pair rt_float.vec_id st_floats (st_pair rt_float st_float Act.strict)))))))))

theorem RecNeuron.strict : (RecNeuron.codec : Codec F (RecNeuron F)).Strict :=
  st_obj (st_pair Neuron.roundTrip Neuron.strict (st_pair rt_float st_float (st_pair rt_float st_float (st_pair rt_float st_float st_float))))

theorem Gru.strict : (Gru.codec : Codec F (Gru F)).Strict :=
  st_obj (st_pair rt_int st_int (st_pair rt_float st_float (st_pair rt_float st_float (st_pair rt_float st_float (st_pair rt_float st_float
    (st_pair RecNeuron.roundTrip RecNeuron.strict (st_pair RecNeuron.roundTrip RecNeuron.strict RecNeuron.strict)))))))

/-- Strictness of a tagged object. -/
theorem st_tag {c : Codec F α} (hc : c.Strict) {γ : Type} {x : α} {i : Int} {rest : Archive F} {k : α × Archive F → Res γ} :
    (∀ t ∈ Tok.int i :: c.save x, t.ok = true) ∨ ∃ m, (c.load (c.save x ++ rest) >>= k) = .throw m := by
  rcases hc x rest with h1 | ⟨m, h1⟩
  · refine .inl fun t ht => ?_
    rcases List.mem_cons.1 ht with rfl | h
    · rfl
    · exact h1 t h
  · exact .inr ⟨m, by rw [h1]; rfl⟩

theorem LayerOpt.strict : (LayerOpt.codec : Codec F (LayerOpt F)).Strict := by
  have hd : (pair float (pair float (vec bool)) : Codec F _).Strict :=
    st_pair rt_float st_float (st_pair rt_float st_float (st_vec rt_bool st_bool))
  intro x rest
  cases x with
  | dropout v rv p => exact st_tag hd
  | softmax => exact .inl (by simp [LayerOpt.codec, Tok.ok])
  | _ v => exact st_tag st_float

theorem FilterInfo.strict : (FilterInfo.codec : Codec F FilterInfo).Strict :=
  st_obj (st_pair rt_int st_int (st_pair rt_int st_int (st_pair rt_int st_int (st_pair rt_int st_int (st_pair rt_int st_int (st_pair rt_int st_int
    (st_pair rt_int.vec_id (st_vec rt_int st_int) (st_pair rt_int.vec_id (st_vec rt_int st_int)
    (st_vec rt_int.vec_id (st_vec rt_int st_int))))))))))

theorem Layer.baseStrict {N : Type} {c : Codec F N} {f : N → N} (h : c.RoundTrip f) (hs : c.Strict) : (Layer.baseCodec c).Strict :=
  st_pair rt_int st_int (st_pair (rt_vec h) (st_vec h hs) (st_vec LayerOpt.roundTrip LayerOpt.strict))

theorem Layer.strict : (Layer.codec : Codec F (Layer F)).Strict := by
  have rs := Layer.baseRoundTrip (Neuron.roundTrip (F := F))
  have hs := Layer.baseStrict (Neuron.roundTrip (F := F)) Neuron.strict
  have hr := Layer.baseStrict (RecNeuron.roundTrip (F := F)) RecNeuron.strict
  have hg := Layer.baseStrict (Gru.roundTrip (F := F)) Gru.strict
  have hf : (pair (Layer.baseCodec Neuron.codec) FilterInfo.codec : Codec F _).Strict := st_pair rs hs FilterInfo.strict
  have hp : (pair (pair (Layer.baseCodec Neuron.codec) FilterInfo.codec) (pair int (vec int)) : Codec F _).Strict :=
    st_pair (rt_pair rs FilterInfo.roundTrip) hf (st_pair rt_int st_int (st_vec rt_int st_int))
  rintro ⟨ni, os, b⟩ rest
  cases b with
  | fullyConnected ns => exact st_tag hs
  | recurrence ns => exact st_tag hr
  | gru ns => exact st_tag hg
  | filter k ns i => cases k <;> exact st_tag hf
  | pool t i n m => cases t <;> exact st_tag hp

variable [Flt F]

theorem Cluster.strict : (Cluster.codec : Codec F (Cluster F)).Strict :=
  st_obj (st_pair rt_float st_float (st_pair rt_float st_float (st_pair rt_float st_float st_float)))

theorem Stats.strict : (Stats.codec : Codec F (Stats F)).Strict :=
  st_obj (st_pair (rt_vec Cluster.roundTrip) (st_vec Cluster.roundTrip Cluster.strict)
    (st_pair rt_float st_float (st_pair rt_float st_float (st_pair rt_float st_float (st_pair rt_float st_float (st_pair rt_float st_float
    (st_pair rt_float st_float (st_pair rt_float st_float (st_pair rt_float st_float (st_pair rt_float st_float (st_pair rt_float st_float
    (st_pair rt_float st_float (st_pair rt_float st_float (st_pair rt_bool st_bool (st_pair rt_bool st_bool (st_pair rt_bool st_bool
    (st_pair rt_bool st_bool st_bool)))))))))))))))))

theorem Net.strict : (Net.codec : Codec F (Net F)).Strict :=
  st_obj (st_pair Stats.roundTrip Stats.strict (st_pair rt_int st_int (st_pair (rt_vec Layer.roundTrip)
    (st_vec Layer.roundTrip Layer.strict) Sgd.strict)))

theorem Snn.strict : (Snn.codec : Codec F (Snn F)).Strict :=
  st_obj (st_pair Net.roundTrip Net.strict (st_pair rt_str st_str (st_pair rt_bool st_bool (st_pair rt_bool st_bool (st_pair rt_int st_int
    (st_pair rt_bool st_bool (st_pair rt_int st_int st_int)))))))

/-- Loading what was written gives the network without its buffers, or throws. -/
theorem load_saved_or (s : Snn F) : (s.Readable ∧ ∃ a, Snn.codec.load (Snn.codec.save s) = .ok (s.forget, a)) ∨
    (¬ s.Readable ∧ ∃ m, Snn.codec.load (Snn.codec.save s) = .throw m) := by
  by_cases h : s.Readable
  · exact .inl ⟨h, load_saved s h⟩
  · refine .inr ⟨h, ?_⟩
    rcases Snn.strict s [] with h1 | ⟨m, h1⟩
    · exact absurd h1 h
    · rw [List.append_nil] at h1
      exact ⟨m, h1⟩

end

end Snn
