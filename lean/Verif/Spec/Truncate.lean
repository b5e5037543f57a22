import Verif.Spec.Codec

/-!
# Specification: truncated streams

A writer that is stopped (crash, full disk, broken connection) leaves a proper prefix of what it would have written.
-/
namespace Libff

/-- No proper prefix of `out` is read successfully. -/
def CutDetected {α : Type} (out : List Byte) (read : Reader α) : Prop :=
  ∀ t u, out = t ++ u → u ≠ [] → ∀ y rest, read t ≠ .ok (y, rest)

/-- The reader's behaviour is defined on every input. Then `CutDetected` means: every proper prefix puts the stream in its fail
state. -/
def ReaderDefined {α : Type} (read : Reader α) : Prop := ∀ s, read s ≠ .ub

/-- A proper prefix of `out` is not read at all or read as `x`. -/
def CutHarmless {α : Type} (out : List Byte) (read : Reader α) (x : α) : Prop :=
  ∀ t u, out = t ++ u → u ≠ [] → ∀ y rest, read t = .ok (y, rest) → y = x

/-- Every object that can be written is protected against truncation. -/
def CutSafe {α : Type} (valid : α → Prop) (write : α → Outcome (List Byte)) (read : Reader α) : Prop :=
  ∀ x, valid x → ∃ out, write x = .ok out ∧ read out = .ok (x, []) ∧ CutDetected out read

end Libff
