import Verif.Model.Outcome

/-!
# Streams and codecs

A stream is the list of the bytes still to be read.  A reader consumes a prefix.
`RoundTrips ok write read`: reading what was written, followed by any continuation admitted by `ok`,
returns the value and leaves exactly the continuation.
-/
namespace Libff

abbrev Byte := BitVec 8
abbrev Reader (α : Type) := List Byte → Outcome (α × List Byte)

def RoundTrips {α : Type} (valid : α → Prop) (ok : List Byte → Prop) (write : α → List Byte)
    (read : Reader α) : Prop :=
  ∀ x rest, valid x → ok rest → read (write x ++ rest) = .ok (x, rest)

/-- `std::isspace` in the "C" locale. -/
def isSpace (c : Byte) : Bool := c.toNat == 32 || (9 ≤ c.toNat && c.toNat ≤ 13)

/-- A continuation that ends a token: nothing, or a white space character first. -/
def TokenEnd (rest : List Byte) : Prop := ∀ c ∈ rest.head?, isSpace c = true

instance (rest : List Byte) : Decidable (TokenEnd rest) :=
  inferInstanceAs (Decidable (∀ c ∈ rest.head?, isSpace c = true))

/-- Text mode needs a token end after the number; binary mode needs nothing. -/
def ContOk (binary : Bool) (rest : List Byte) : Prop := binary = true ∨ TokenEnd rest

end Libff
