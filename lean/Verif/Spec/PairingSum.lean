import Verif.Spec.MultiexpRel
import Mathlib.Algebra.BigOperators.Group.List.Basic
import Mathlib.Algebra.Field.Defs

/-!
# Specification: pairing the result of a multi-exponentiation
-/
namespace Libff

section
variable {G₁ G₂ L : Type} [Field L] {P : FpParams} [Fact P.Valid]

/-- `∏ vᵢ ^ sᵢ`. -/
def frProd (values : List L) (scalars : List (Fp P)) : L := (List.zipWith (fun v (s : Fp P) => v ^ s.toZMod.val) values scalars).prod

/-- If `pair bᵢ q = vᵢ` for all bases, then `sum bases scalars` succeeds, and (if its result satisfies `nz`) its pairing with `q` is
`∏ vᵢ ^ sᵢ`. `ok` says which inputs `sum` accepts. -/
def PairsSum (arg₁ : G₁ → Prop) (arg₂ : G₂ → Prop) (nz : G₁ → Prop) (pair : G₁ → G₂ → Outcome L) (ok : List G₁ → Prop)
    (sum : List G₁ → List (Fp P) → Outcome G₁) : Prop :=
  ∀ (bases : List G₁) (values : List L) (scalars : List (Fp P)) (q : G₂), arg₂ q → bases.length = scalars.length → ok bases →
    List.Forall₂ (fun p v => arg₁ p ∧ pair p q = .ok v) bases values →
    ∃ g, sum bases scalars = .ok g ∧ (nz g → pair g q = .ok (frProd values scalars))

/-- `multi_exp_with_mixed_addition` with the method BDLO12, as it is called on a group class. -/
abbrev sumMixed {G : Type} [GroupOps G] (debug : Bool) (mixedAdd : G → G → Outcome G)
    (norm : List G → Outcome (List G)) (order : List Nat) (chunks : Nat) (bases : List G) (scalars : List (Fp P)) : Outcome G :=
  multiExpMixed debug mixedAdd (multiExpBdlo frLimbs mixedAdd norm) order bases scalars chunks

/-- `multi_exp` with the method BDLO12. -/
abbrev sumBdlo {G : Type} [GroupOps G] (order : List Nat) (chunks : Nat) (bases : List G)
    (scalars : List (Fp P)) : Outcome G :=
  multiExp (multiExpBdlo frLimbs plainAdd .ok) order bases scalars chunks

/-- `PairsSum` for both entry points in either argument of the pairing, for any positive number of chunks executed in any order. -/
structure PairsMultiExp (P : FpParams) [Fact P.Valid] (ops₁ : GroupOps G₁) (ops₂ : GroupOps G₂) (arg₁ : G₁ → Prop) (arg₂ : G₂ → Prop)
    (nz₁ : G₁ → Prop) (nz₂ : G₂ → Prop) (special₁ : G₁ → Prop) (special₂ : G₂ → Prop) (ma₁ : G₁ → G₁ → Outcome G₁)
    (norm₁ : List G₁ → Outcome (List G₁)) (ma₂ : G₂ → G₂ → Outcome G₂) (norm₂ : List G₂ → Outcome (List G₂))
    (pair : G₁ → G₂ → Outcome L) : Prop where
  mixed_left : ∀ (debug : Bool) (chunks : Nat) (order : List Nat), 1 ≤ chunks → order.Perm (List.range chunks) →
    PairsSum (P := P) arg₁ arg₂ nz₁ pair (fun bases => bases.length ≤ 2 ^ 42 ∧ ∀ g ∈ bases, special₁ g) (sumMixed debug ma₁ norm₁ order chunks)
  mixed_right : ∀ (debug : Bool) (chunks : Nat) (order : List Nat), 1 ≤ chunks → order.Perm (List.range chunks) →
    PairsSum (P := P) arg₂ arg₁ nz₂ (fun q p => pair p q) (fun bases => bases.length ≤ 2 ^ 42 ∧ ∀ g ∈ bases, special₂ g)
      (sumMixed debug ma₂ norm₂ order chunks)
  bdlo12_left : ∀ (chunks : Nat) (order : List Nat), 1 ≤ chunks → order.Perm (List.range chunks) →
    PairsSum (P := P) arg₁ arg₂ nz₁ pair (fun bases => bases.length ≤ 2 ^ 42) (sumBdlo order chunks)
  bdlo12_right : ∀ (chunks : Nat) (order : List Nat), 1 ≤ chunks → order.Perm (List.range chunks) →
    PairsSum (P := P) arg₂ arg₁ nz₂ (fun q p => pair p q) (fun bases => bases.length ≤ 2 ^ 42) (sumBdlo order chunks)

end
end Libff
