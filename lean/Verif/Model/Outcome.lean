/-!
# Outcomes of C++ code

`ok a` — the function returned `a`; `abort` — a failed `assert` or a thrown exception;
`ub` — undefined behaviour (out of bounds access, division by zero, over-wide shift, ...).
-/
namespace Libff

inductive Outcome (α : Type _) where
  | ok (a : α)
  | abort
  | ub
  deriving DecidableEq, Repr

namespace Outcome

@[inline] def bind {α β : Type _} (x : Outcome α) (f : α → Outcome β) : Outcome β :=
  match x with
  | ok a => f a
  | abort => abort
  | ub => ub

@[inline] def map {α β : Type _} (f : α → β) (x : Outcome α) : Outcome β :=
  x.bind fun a => ok (f a)

@[simp] theorem bind_ok {α β} (a : α) (f : α → Outcome β) : (ok a).bind f = f a := rfl
@[simp] theorem bind_abort {α β} (f : α → Outcome β) : (abort : Outcome α).bind f = abort := rfl
@[simp] theorem bind_ub {α β} (f : α → Outcome β) : (ub : Outcome α).bind f = ub := rfl
@[simp] theorem map_ok {α β} (f : α → β) (a : α) : (ok a).map f = ok (f a) := rfl

/-- Extract the value of an outcome known to be `ok`. -/
def get {α : Type _} : (x : Outcome α) → (h : ∃ a, x = ok a) → α
  | ok a, _ => a
  | abort, h => absurd h (by simp)
  | ub, h => absurd h (by simp)

@[simp] theorem get_ok {α} (a : α) (h) : (ok a).get h = a := rfl

theorem eq_ok_get {α} (x : Outcome α) (h) : x = ok (x.get h) := by
  obtain ⟨a, rfl⟩ := h; rfl

end Outcome

/-- `assert(b)` in C++ (with assertions enabled). -/
def assertB (b : Bool) : Outcome Unit := if b then .ok () else .abort

end Libff
