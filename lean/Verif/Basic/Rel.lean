import Verif.Basic.Res

/-! Relation between two outcomes: both return related values, or both fail in the same way. -/

namespace Snn

/-- Both calls return related values, or fail in the same way. -/
def Res.Rel {α β : Type} (R : α → β → Prop) : Res α → Res β → Prop
  | .ok a, .ok b => R a b
  | .throw m, .throw m' => m = m'
  | .ub m, .ub m' => m = m'
  | _, _ => False

theorem Res.Rel.bind {α β γ δ : Type} {R : α → β → Prop} {S : γ → δ → Prop} {x : Res α} {y : Res β} {f : α → Res γ}
    {g : β → Res δ} (h : Res.Rel R x y) (k : ∀ a b, R a b → Res.Rel S (f a) (g b)) : Res.Rel S (x >>= f) (y >>= g) := by
  cases x <;> cases y <;> simp only [Res.Rel] at h
  · exact k _ _ h
  · exact h
  · exact h

theorem Res.Rel.eq {α β : Type} {x : Res α} : Res.Rel (fun a b => a = b) x x := by
  cases x <;> simp [Res.Rel]

theorem Res.Rel.map_eq {α β γ : Type} {R : α → β → Prop} {x : Res α} {y : Res β} (h : Res.Rel R x y) {f : α → γ}
    {g : β → γ} (k : ∀ a b, R a b → f a = g b) : f <$> x = g <$> y := by
  cases x <;> cases y <;> simp only [Res.Rel] at h
  · simp [k _ _ h]
  · simp [h]
  · simp [h]

theorem Res.Rel.ok_left {α β : Type} {R : α → β → Prop} {a : α} {y : Res β} (h : Res.Rel R (.ok a) y) :
    ∃ b, y = .ok b ∧ R a b := by
  cases y <;> simp only [Res.Rel] at h
  exact ⟨_, rfl, h⟩

end Snn
