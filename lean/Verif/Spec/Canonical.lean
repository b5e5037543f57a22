import Verif.Spec.Containers

/-!
# What it means that written bytes identify an element
-/
namespace Libff

/-- Every value of `Den` can be written, and the outputs of two of them, each followed by any admitted continuation, are the same
bytes exactly when the values are the `Same` and so are the continuations. So (with nothing behind) the bytes depend on the element and
not on how it is stored, different elements have different bytes, and a sequence of outputs can be cut into elements in one way only. -/
def Identifies {α : Type} (ok : List Byte → Prop) (write : α → Outcome (List Byte)) (Den : α → Prop) (Same : α → α → Prop) : Prop :=
  (∀ p, Den p → ∃ out, write p = .ok out) ∧
  ∀ p q out out' rest rest', Den p → Den q → write p = .ok out → write q = .ok out' → ok rest → ok rest' →
    (out ++ rest = out' ++ rest' ↔ Same p q ∧ rest = rest')

end Libff
