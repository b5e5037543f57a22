import Verif.Spec.Containers

/-!
# What point serialization has to satisfy
-/
namespace Libff

/-- `x` can be written, and reading the output followed by any admitted continuation gives `y` and leaves exactly
the continuation. -/
def ReadsBack {α : Type} (ok : List Byte → Prop) (write : α → Outcome (List Byte)) (read : Reader α) (x y : α) :
    Prop :=
  ∃ out, write x = .ok out ∧ ∀ rest, ok rest → read (out ++ rest) = .ok (y, rest)

/-- A compressed point ends with one character and may be followed by anything; an uncompressed one ends with a
field element. -/
def PointCont (binary compress : Bool) (rest : List Byte) : Prop := compress = true ∨ ContOk binary rest

/-- The low bit tells `y` from `-y`. -/
def SignBit {K : Type} [Zero K] [Neg K] (lsb : K → Outcome Bool) (y : K) : Prop :=
  ∃ b, lsb y = .ok b ∧ (y = 0 ∨ lsb (-y) = .ok (!b))

/-- `sqrt` returns a root of every square. -/
def SqrtLaw {K : Type} [Mul K] (sqrt : K → Outcome K) : Prop := ∀ y : K, ∃ x, sqrt (y * y) = .ok x ∧ x * x = y * y

end Libff
