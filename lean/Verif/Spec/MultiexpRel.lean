import Verif.Spec.GroupRel
import Verif.Spec.Multiexp
import Verif.Lemmas.FpType

/-!
# What the multi-exponentiation entry points have to return on a group class with scalar field `Fp P`
-/
namespace Libff

section
variable {G A : Type} [AddCommGroup A] {P : FpParams} [Fact P.Valid]

/-- The limbs of the canonical representative of a scalar: what `as_bigint` returns, see
`MultiExpCorrect.as_bigint`. -/
def frLimbs (x : Fp P) : List Limb := limbsOf P.n x.toZMod.val

/-- `∑ sᵢ · aᵢ` in the group. -/
def frSum (as : List A) (scalars : List (Fp P)) : A := (List.zipWith (fun a (s : Fp P) => s.toZMod.val • a) as scalars).sum

/-- `multi_exp` with the given method, on any objects denoting group elements and any scalars, any positive
number of chunks and any order of execution of the chunks, returns an object denoting the sum. -/
def SumsTo (ops : GroupOps G) (Rep : G → A → Prop) (Ok : List G → List (Fp P) → Prop)
    (inner : List G → List (Fp P) → Outcome G) : Prop :=
  ∀ (bases : List G) (as : List A) (scalars : List (Fp P)) (chunks : Nat) (order : List Nat),
    List.Forall₂ Rep bases as → bases.length = scalars.length → Ok bases scalars → 1 ≤ chunks →
    order.Perm (List.range chunks) →
    ∃ g, multiExp inner order bases scalars chunks = .ok g ∧ Rep g (frSum as scalars)

/-- All entry points of multiexp.hpp on a group class (`ops`, `mixedAdd`, `norm` = `batch_to_special`) whose objects
denote elements of the group `A`. -/
structure MultiExpCorrect (P : FpParams) [Fact P.Valid] (ops : GroupOps G) (Rep : G → A → Prop) (Special : G → Prop)
    (mixedAdd : G → G → Outcome G) (norm : List G → Outcome (List G)) : Prop where
  as_bigint : ∀ x : Fp P, fpAsBigint P x.repr = .ok (frLimbs x)
  naive : ∀ (debug : Bool) (table : List Nat), table.length < 30 →
    SumsTo (P := P) ops Rep (fun _ _ => True) (multiExpNaive frLimbs debug table)
  plain : ∀ debug : Bool, SumsTo (P := P) ops Rep (fun _ _ => True) (multiExpPlain frLimbs debug)
  bdlo12 : SumsTo (P := P) ops Rep (fun bases _ => bases.length ≤ 2 ^ 42) (multiExpBdlo frLimbs plainAdd .ok)
  bdlo12_mixed : SumsTo (P := P) ops Rep (fun bases _ => bases.length ≤ 2 ^ 42 ∧ ∀ g ∈ bases, Special g)
    (multiExpBdlo frLimbs mixedAdd norm)
  bos_coster : ∀ (table : List Nat) (mk : List OrderedExponent → List OrderedExponent) (rounds : Nat),
    table.length < 30 → IsMakeHeap mk →
    SumsTo (P := P) ops Rep (fun _ scalars => (scalars.map fun s => s.toZMod.val).sum < rounds)
      (fun bases scalars => (multiExpBosCoster frLimbs table P.n mk rounds bases scalars).bind fun r => r.elim .ub .ok)
  with_mixed_addition : ∀ (debug : Bool) (bases : List G) (as : List A) (scalars : List (Fp P)) (chunks : Nat)
    (order : List Nat), List.Forall₂ Rep bases as → bases.length = scalars.length → bases.length ≤ 2 ^ 42 →
    (∀ g ∈ bases, Special g) → 1 ≤ chunks → order.Perm (List.range chunks) →
    ∃ g, multiExpMixed debug mixedAdd (multiExpBdlo frLimbs mixedAdd norm) order bases scalars chunks = .ok g ∧
      Rep g (frSum as scalars)
  without_mixed_addition : ∀ (debug : Bool) (bases : List G) (as : List A) (scalars : List (Fp P)) (chunks : Nat)
    (order : List Nat), List.Forall₂ Rep bases as → bases.length = scalars.length → bases.length ≤ 2 ^ 42 →
    1 ≤ chunks → order.Perm (List.range chunks) →
    ∃ g, multiExpMixed debug plainAdd (multiExpBdlo frLimbs plainAdd .ok) order bases scalars chunks = .ok g ∧
      Rep g (frSum as scalars)
  fixed_base : ∀ (size window : Nat) (g : G) (a : A), Rep g a → 1 ≤ window → window ≤ 32 → P.p ≤ 2 ^ size →
    ∃ T, getWindowTable size window g = .ok T ∧
      (∀ x : Fp P, ∃ t, windowedExp size window T (frLimbs x) = .ok t ∧ Rep t (x.toZMod.val • a)) ∧
      ∀ (v : List (Fp P)) (order : List Nat), order.Perm (List.range v.length) →
        (∃ res, batchExp frLimbs size window T order v = .ok res ∧
          List.Forall₂ Rep res (v.map fun s => s.toZMod.val • a)) ∧
        ∀ c : Fp P, ∃ res, batchExpWithCoeff frLimbs size window T order c v = .ok res ∧
          List.Forall₂ Rep res (v.map fun s => (c * s).toZMod.val • a)

end
end Libff
