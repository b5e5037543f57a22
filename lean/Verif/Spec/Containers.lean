import Verif.Spec.Codec
import Verif.Model.Containers

/-!
# Round trip laws for writers that may fail and readers that skip white space
-/
namespace Libff

/-- Every valid value can be written, and reading the output, possibly after white space (text builds only) and
followed by any continuation that ends a token (any continuation at all in binary builds), gives the value back
and leaves exactly the continuation. -/
def StreamLaw {α : Type} (binary : Bool) (valid : α → Prop) (write : α → Outcome (List Byte)) (read : Reader α) :
    Prop :=
  ∀ x, valid x → ∃ out, write x = .ok out ∧ ∀ pre rest, (∀ c ∈ pre, isSpace c = true) →
    (binary = true → pre = []) → ContOk binary rest → read (pre ++ (out ++ rest)) = .ok (x, rest)

/-- Round trips of the four functions; `k` is the number of words of a valid element. -/
structure FieldCodec.Lawful {α : Type} (c : FieldCodec α) (binary : Bool) (valid : α → Prop) (k : Nat) : Prop where
  stream : StreamLaw binary valid c.write c.read
  words : ∀ x old, valid x → ∃ w, c.toWords x = .ok w ∧ w.length = k ∧ c.fromWords old w = .ok (x, true)

end Libff
