import Verif.Spec.PairingSum

/-!
# Specification: checking many pairing equations at once
-/
namespace Libff

section
variable {G₁ G₂ L : Type} [Field L] {P : FpParams} [Fact P.Valid]

/-- The check of the equations `pair bᵢ q = cᵢ` with the scalars `sᵢ`: the multi-exponentiation `sum` of the bases succeeds with a result
that satisfies `nz`, and the pairing of the result is `∏ cᵢ ^ sᵢ`. -/
def BatchCheck (nz : G₁ → Prop) (pair : G₁ → G₂ → Outcome L) (sum : List G₁ → List (Fp P) → Outcome G₁) (bases : List G₁) (claims : List L)
    (q : G₂) (scalars : List (Fp P)) : Prop :=
  ∃ g, sum bases scalars = .ok g ∧ nz g ∧ pair g q = .ok (frProd claims scalars)

/-- If the equation `j` is false, then, whatever the other scalars are, at most one value of the scalar `j` lets the check pass. The claimed
values must be `P.p`-th roots of unity. -/
def BatchSound (arg₁ : G₁ → Prop) (arg₂ : G₂ → Prop) (nz : G₁ → Prop) (pair : G₁ → G₂ → Outcome L) (ok : List G₁ → Prop)
    (sum : List G₁ → List (Fp P) → Outcome G₁) : Prop :=
  ∀ (bases : List G₁) (claims : List L) (scalars : List (Fp P)) (q : G₂) (j : Nat) (hb : j < bases.length) (hc : j < claims.length),
    bases.length = scalars.length → claims.length = scalars.length → ok bases → (∀ b ∈ bases, arg₁ b) → arg₂ q →
    (∀ c ∈ claims, c ^ P.p = 1) → pair bases[j] q ≠ .ok claims[j] →
    ∀ x y : Fp P, BatchCheck nz pair sum bases claims q (scalars.set j x) → BatchCheck nz pair sum bases claims q (scalars.set j y) → x = y

/-- `BatchSound` for the entry points of `PairsMultiExp`. -/
structure BatchesSound (P : FpParams) [Fact P.Valid] (ops₁ : GroupOps G₁) (ops₂ : GroupOps G₂) (arg₁ : G₁ → Prop) (arg₂ : G₂ → Prop)
    (nz₁ : G₁ → Prop) (nz₂ : G₂ → Prop) (special₁ : G₁ → Prop) (special₂ : G₂ → Prop) (ma₁ : G₁ → G₁ → Outcome G₁)
    (norm₁ : List G₁ → Outcome (List G₁)) (ma₂ : G₂ → G₂ → Outcome G₂) (norm₂ : List G₂ → Outcome (List G₂))
    (pair : G₁ → G₂ → Outcome L) : Prop where
  mixed_left : ∀ (debug : Bool) (chunks : Nat) (order : List Nat), 1 ≤ chunks → order.Perm (List.range chunks) →
    BatchSound (P := P) arg₁ arg₂ nz₁ pair (fun bases => bases.length ≤ 2 ^ 42 ∧ ∀ g ∈ bases, special₁ g) (sumMixed debug ma₁ norm₁ order chunks)
  mixed_right : ∀ (debug : Bool) (chunks : Nat) (order : List Nat), 1 ≤ chunks → order.Perm (List.range chunks) →
    BatchSound (P := P) arg₂ arg₁ nz₂ (fun q p => pair p q) (fun bases => bases.length ≤ 2 ^ 42 ∧ ∀ g ∈ bases, special₂ g)
      (sumMixed debug ma₂ norm₂ order chunks)
  bdlo12_left : ∀ (chunks : Nat) (order : List Nat), 1 ≤ chunks → order.Perm (List.range chunks) →
    BatchSound (P := P) arg₁ arg₂ nz₁ pair (fun bases => bases.length ≤ 2 ^ 42) (sumBdlo order chunks)
  bdlo12_right : ∀ (chunks : Nat) (order : List Nat), 1 ≤ chunks → order.Perm (List.range chunks) →
    BatchSound (P := P) arg₂ arg₁ nz₂ (fun q p => pair p q) (fun bases => bases.length ≤ 2 ^ 42) (sumBdlo order chunks)

end
end Libff
