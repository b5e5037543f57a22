import Verif.Model.Stream

/-!
# What C84 says
-/
namespace Libff

/-- `f` takes every admitted value to an admitted value that is equal to it by the class's own `==`, leaves that one exactly as it is, and gives
the same object for two values precisely when they are equal. -/
def Normalises {α : Type} (Adm : α → Prop) (eq : α → α → Bool) (f : α → Outcome α) : Prop :=
  (∀ x, Adm x → ∃ y, f x = .ok y ∧ Adm y ∧ eq x y = true ∧ f y = .ok y) ∧
  ∀ x x', Adm x → Adm x' → (f x = f x' ↔ eq x x' = true)

end Libff
