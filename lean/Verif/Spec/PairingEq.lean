import Verif.Model.Outcome
import Mathlib.Algebra.Field.Defs

/-!
# Programs that check equations between pairings with one final exponentiation

The static methods of a class `*_pp` (public_params.hpp:15-65) as a record, and what a verifier writes with them.
-/
namespace Libff

/-- The pairing methods of a class of public parameters. -/
structure PairingFns (G₁ G₂ P₁ P₂ L : Type) where
  /-- `precompute_G1` -/
  precomputeG1 : G₁ → Outcome P₁
  /-- `precompute_G2` -/
  precomputeG2 : G₂ → Outcome P₂
  /-- `miller_loop` -/
  millerLoop : P₁ → P₂ → Outcome L
  /-- `double_miller_loop` -/
  doubleMillerLoop : P₁ → P₂ → P₁ → P₂ → Outcome L
  /-- `final_exponentiation` -/
  finalExponentiation : L → Outcome L
  /-- `Fqk::unitary_inverse` -/
  unitaryInverse : L → L
  /-- `reduced_pairing` -/
  reducedPairing : G₁ → G₂ → Outcome L

namespace PairingFns
variable {G₁ G₂ P₁ P₂ L : Type} (F : PairingFns G₁ G₂ P₁ P₂ L)

/-- `miller_loop(precompute_G1(p), precompute_G2(q))`. -/
def miller (p : G₁) (q : G₂) : Outcome L :=
  (F.precomputeG1 p).bind fun a => (F.precomputeG2 q).bind fun b => F.millerLoop a b

/-- `double_miller_loop` of the precomputations of two pairs. -/
def doubleMiller (p : G₁) (q : G₂) (p' : G₁) (q' : G₂) : Outcome L :=
  (F.precomputeG1 p).bind fun a => (F.precomputeG2 q).bind fun b =>
  (F.precomputeG1 p').bind fun a' => (F.precomputeG2 q').bind fun b' => F.doubleMillerLoop a b a' b'

/-- `final_exponentiation(miller_loop(p, q) * miller_loop(p', q').unitary_inverse())`. -/
def quotient [Mul L] (p : G₁) (q : G₂) (p' : G₁) (q' : G₂) : Outcome L :=
  (F.miller p q).bind fun f => (F.miller p' q').bind fun f' => F.finalExponentiation (f * F.unitaryInverse f')

/-- `final_exponentiation(double_miller_loop(p, q, p', q'))`. -/
def product (p : G₁) (q : G₂) (p' : G₁) (q' : G₂) : Outcome L := (F.doubleMiller p q p' q').bind F.finalExponentiation

/-- `final_exponentiation(miller_loop(p, q) * double_miller_loop(p', q', p'', q'').unitary_inverse()) == GT::one()`: the check of the
equation e(p, q) = e(p', q') e(p'', q''). -/
def checkProduct [Mul L] [One L] [DecidableEq L] (p : G₁) (q : G₂) (p' : G₁) (q' : G₂) (p'' : G₁) (q'' : G₂) : Outcome Bool :=
  (F.miller p q).bind fun f => (F.doubleMiller p' q' p'' q'').bind fun f' =>
  (F.finalExponentiation (f * F.unitaryInverse f')).map fun v => decide (v = 1)

/-- What is asked of the methods: on all arguments on which `reduced_pairing` succeeds, the programs above succeed and return the
product, the quotient, and the truth value of the equation, of the values of `reduced_pairing`. -/
structure Equations [Field L] [DecidableEq L] : Prop where
  product : ∀ {p q p' q' v v'}, F.reducedPairing p q = .ok v → F.reducedPairing p' q' = .ok v' → F.product p q p' q' = .ok (v * v')
  quotient : ∀ {p q p' q' v v'}, F.reducedPairing p q = .ok v → F.reducedPairing p' q' = .ok v' → F.quotient p q p' q' = .ok (v / v')
  checkProduct : ∀ {p q p' q' p'' q'' v v' v''}, F.reducedPairing p q = .ok v → F.reducedPairing p' q' = .ok v' →
    F.reducedPairing p'' q'' = .ok v'' → F.checkProduct p q p' q' p'' q'' = .ok (decide (v = v' * v''))

end PairingFns
end Libff
