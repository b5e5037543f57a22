import Verif.Spec.PairingSum
import Verif.Model.FieldMul
import Mathlib.Algebra.BigOperators.Group.List.Basic

/-!
# Specification: committing with a key made by `batch_exp`
-/
namespace Libff

/-- `∑ vᵢ · sᵢ` in the scalar field. -/
def frDot {P : FpParams} [Fact P.Valid] (v s : List (Fp P)) : Fp P := (List.zipWith (· * ·) v s).sum

/-- The fixed-base table of `one` can be made; `batch_exp` makes of it and of any vector `v` a key; `multi_exp` of the key with any scalars `s`
is `==` to `(∑ vᵢ · sᵢ) * one`; `batch_to_special` of the key succeeds, and `multi_exp_with_mixed_addition` of its result with `s` is `==` to the
same. All orders in which the iterations of the parallel loops are executed are allowed, and any positive number of chunks. -/
def KeyCommit {G : Type} (P : FpParams) [Fact P.Valid] (ops : GroupOps G) (eq : G → G → Bool) (mixedAdd : G → G → Outcome G)
    (norm : List G → Outcome (List G)) (one : G) : Prop :=
  ∀ (size window : Nat), 1 ≤ window → window ≤ 32 → P.p ≤ 2 ^ size →
    ∃ T, getWindowTable size window one = .ok T ∧
      ∀ (v : List (Fp P)) (order : List Nat), v.length ≤ 2 ^ 42 → order.Perm (List.range v.length) →
        ∃ key special, batchExp frLimbs size window T order v = .ok key ∧ norm key = .ok special ∧
          ∀ (s : List (Fp P)) (chunks : Nat) (order : List Nat) (debug : Bool), s.length = v.length → 1 ≤ chunks →
            order.Perm (List.range chunks) →
            ∃ g g' h, sumBdlo order chunks key s = .ok g ∧ sumMixed debug mixedAdd norm order chunks special s = .ok g' ∧
              fieldMul P (frDot v s).repr one = .ok h ∧ eq g h = true ∧ eq g' h = true

end Libff
