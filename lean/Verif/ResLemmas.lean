import Verif.Basic
/-! # Helper lemmas on `Res` -/
namespace S2

/-- `x` is `y`, or `x` panics (used with `x` the debug run and `y` the release run). -/
def Res.Le {α : Type} (x y : Res α) : Prop := x = .panic ∨ x = y

theorem Res.Le.refl {α : Type} (x : Res α) : x.Le x := Or.inr rfl

theorem Res.Le.bind {α β : Type} {x y : Res α} {f g : α → Res β} (h : x.Le y)
    (hf : ∀ a, (f a).Le (g a)) : (x >>= f).Le (y >>= g) := by
  rcases h with h | h
  · subst h; exact Or.inl rfl
  · subst h
    cases x with
    | ok a => exact hf a
    | err e => exact Or.inr rfl
    | panic => exact Or.inl rfl

theorem Res.bind_ne_panic {α β : Type} {x : Res α} {f : α → Res β} (hx : x ≠ .panic)
    (hf : ∀ a, x = .ok a → f a ≠ .panic) : (x >>= f) ≠ .panic := by
  cases x with
  | ok a => exact hf a rfl
  | err e => simp
  | panic => exact absurd rfl hx

end S2
