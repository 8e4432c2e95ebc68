import Verif.Base.Res

/-!
# Related computations
-/

namespace Verif

/-- Two computations that both panic with the same message, or have related results. -/
def Rel {α β : Type} (R : α → β → Prop) (x : Res α) (y : Res β) : Prop :=
  match x, y with
  | .ok a, .ok b => R a b
  | .error e, .error e' => e = e'
  | _, _ => False

theorem Rel.bind {α β γ δ : Type} {R : α → β → Prop} {S : γ → δ → Prop} {x : Res α} {y : Res β} {f : α → Res γ} {g : β → Res δ}
    (h : Rel R x y) (hf : ∀ a b, x = .ok a → R a b → Rel S (f a) (g b)) : Rel S (x >>= f) (y >>= g) := by
  cases x <;> cases y
  · exact h
  · exact h.elim
  · exact h.elim
  · exact hf _ _ rfl h

theorem Rel.refl {α : Type} (x : Res α) : Rel Eq x x := by cases x <;> rfl

/-- The same step on both sides. -/
theorem Rel.step {α γ δ : Type} {S : γ → δ → Prop} (x : Res α) {f : α → Res γ} {g : α → Res δ}
    (hf : ∀ a, x = .ok a → Rel S (f a) (g a)) : Rel S (x >>= f) (x >>= g) :=
  (Rel.refl x).bind fun a _ h e => by subst e; exact hf a h

/-- A value that is only translated. -/
theorem Rel.map {α β γ δ : Type} {S : γ → δ → Prop} (x : Res α) (t : α → β) {f : α → Res γ} {g : β → Res δ}
    (hf : ∀ a, x = .ok a → Rel S (f a) (g (t a))) : Rel S (x >>= f) (x.map t >>= g) := by
  cases x
  · exact rfl
  · exact hf _ rfl

theorem Rel.right {α β γ : Type} {R : α → β → Prop} {S : α → γ → Prop} {x : Res α} {y : Res β} {g : β → γ} (h : Rel R x y)
    (hf : ∀ a b, R a b → S a (g b)) : Rel S x (y >>= fun b => pure (g b)) := by
  cases x <;> cases y
  · exact h
  · exact h.elim
  · exact h.elim
  · exact hf _ _ h

theorem Rel.imp {α β : Type} {R S : α → β → Prop} {x : Res α} {y : Res β} (h : Rel R x y) (hf : ∀ a b, x = .ok a → R a b → S a b) :
    Rel S x y := by
  cases x <;> cases y
  · exact h
  · exact h.elim
  · exact h.elim
  · exact hf _ _ rfl h

theorem Rel.pure {α β : Type} {R : α → β → Prop} {a : α} {b : β} (h : R a b) : Rel R (Pure.pure a) (Pure.pure b) := h

/-- A step of the second computation that does not panic. -/
theorem Rel.ok {α β γ : Type} {R : α → β → Prop} {x : Res α} {y : Res γ} {c : γ} {g : γ → Res β} (hy : y = .ok c)
    (h : Rel R x (g c)) : Rel R x (y >>= g) := by
  subst hy; exact h

end Verif
