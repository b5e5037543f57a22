import Verif.Model.Outcome
import Mathlib.Logic.Function.Basic

/-!
# What an assigning operator has to do to memory

Memory is a collection of numbered cells. An object of `n` cells at address `p` occupies the cells `p`, …, `p + n - 1`.
-/
namespace Libff

/-- Memory with cells of type `W`. -/
abbrev Heap (W : Type) := Nat → W

/-- The contents of the `n` cells from `p` on. -/
def Heap.words {W : Type} (h : Heap W) (p n : Nat) : List W := (List.range n).map fun i => h (p + i)

/-- Two references to objects of `n` cells: to the same object, or to two objects, which then have no cell in common. -/
def SameOrApart (n p q : Nat) : Prop := p = q ∨ p + n ≤ q ∨ q + n ≤ p

/-- `h'` differs from `h` at most in the object of `n` cells at `p`. -/
def OnlyChanges {W : Type} (n p : Nat) (h h' : Heap W) : Prop := ∀ c, c < p ∨ p + n ≤ c → h' c = h c

/-- `op this other` is the assigning form of the binary operation `f` on objects of `n` cells in which `enc x` is stored for the value `x`:
also when both operands are the same object, it is defined, `*this` holds `f x y` afterwards, where `x` and `y` are the values before, and no
cell outside `*this` changes. -/
def AssignsTo {W α : Type} (n : Nat) (enc : α → List W) (f : α → α → α) (op : Nat → Nat → Heap W → Outcome (Heap W)) : Prop :=
  ∀ (this other : Nat) (h : Heap W) (x y : α), SameOrApart n this other → h.words this n = enc x → h.words other n = enc y →
    ∃ h', op this other h = .ok h' ∧ h'.words this n = enc (f x y) ∧ OnlyChanges n this h h'

/-- The same for an operation on `*this` alone. -/
def Replaces {W α : Type} (n : Nat) (enc : α → List W) (f : α → α) (op : Nat → Heap W → Outcome (Heap W)) : Prop :=
  ∀ (this : Nat) (h : Heap W) (x : α), h.words this n = enc x →
    ∃ h', op this h = .ok h' ∧ h'.words this n = enc (f x) ∧ OnlyChanges n this h h'

end Libff
