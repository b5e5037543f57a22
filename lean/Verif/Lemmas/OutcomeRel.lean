import Verif.Model.Outcome
import Mathlib.Data.List.Forall2

/-!
# Related outcomes
-/
namespace Libff

/-- The same kind of outcome, with related values. -/
inductive Outcome.Rel {α β : Type} (S : α → β → Prop) : Outcome α → Outcome β → Prop
  | ok {a : α} {b : β} : S a b → Outcome.Rel S (.ok a) (.ok b)
  | abort : Outcome.Rel S .abort .abort
  | ub : Outcome.Rel S .ub .ub

namespace Outcome.Rel
variable {α β γ δ : Type} {S : α → β → Prop} {U : γ → δ → Prop}

theorem bind {x : Outcome α} {y : Outcome β} {f : α → Outcome γ} {g : β → Outcome δ} (h : Outcome.Rel S x y)
    (hf : ∀ {a b}, S a b → Outcome.Rel U (f a) (g b)) : Outcome.Rel U (x.bind f) (y.bind g) := by
  cases h with
  | ok h => exact hf h
  | abort => exact .abort
  | ub => exact .ub

theorem map {x : Outcome α} {y : Outcome β} {f : α → γ} {g : β → δ} (h : Outcome.Rel S x y)
    (hf : ∀ {a b}, S a b → U (f a) (g b)) : Outcome.Rel U (x.map f) (y.map g) :=
  h.bind (fun h => .ok (hf h))

theorem ok_right {x : Outcome α} {y : Outcome β} {a : α} (h : Outcome.Rel S x y) (hx : x = .ok a) : ∃ b, y = .ok b ∧ S a b := by
  subst hx
  cases h with
  | ok h => exact ⟨_, rfl, h⟩

theorem abort_right {x : Outcome α} {y : Outcome β} (h : Outcome.Rel S x y) (hx : x = .abort) : y = .abort := by
  subst hx
  cases h
  rfl

theorem ite {p q : Prop} [Decidable p] [Decidable q] {a b : Outcome α} {c d : Outcome β} (h : p ↔ q) (h1 : Outcome.Rel S a c)
    (h2 : Outcome.Rel S b d) : Outcome.Rel S (if p then a else b) (if q then c else d) := by
  by_cases hp : p
  · rw [if_pos hp, if_pos (h.1 hp)]; exact h1
  · rw [if_neg hp, if_neg (fun hq => hp (h.2 hq))]; exact h2

theorem ok_left {x : Outcome α} {y : Outcome β} {b : β} (h : Outcome.Rel S x y) (hy : y = .ok b) :
    ∃ a, x = .ok a ∧ S a b := by
  subst hy
  cases h with
  | ok h => exact ⟨_, rfl, h⟩

end Outcome.Rel

theorem forall₂_app {α β : Type} {S : α → β → Prop} {v : List α} {w : List β} (h : List.Forall₂ S v w) {a : α} {b : β} (hab : S a b) :
    List.Forall₂ S (v ++ [a]) (w ++ [b]) := by
  induction h with
  | nil => exact .cons hab .nil
  | cons h _ ih => exact .cons h ih

end Libff
