import Verif.Model.Group

/-!
# Two classes for the same group
-/
namespace Libff

/-- Two sets of functions on the same objects (triples of coordinates): they accept the same objects as group elements, make the same
ones equal, and their operations give equal results. -/
structure SameGroup {G : Type} (ops ops' : GroupOps G) (eq eq' : G → G → Bool) (wf wf' : G → Bool) : Prop where
  wellFormed : ∀ p, wf p = wf' p
  equal : ∀ p q, wf p = true → wf q = true → eq p q = eq' p q
  zero : eq ops.zero ops'.zero = true
  add : ∀ p q, wf p = true → wf q = true → wf (ops.add p q) = true ∧ eq (ops.add p q) (ops'.add p q) = true
  sub : ∀ p q, wf p = true → wf q = true → wf (ops.sub p q) = true ∧ eq (ops.sub p q) (ops'.sub p q) = true
  dbl : ∀ p, wf p = true → wf (ops.dbl p) = true ∧ eq (ops.dbl p) (ops'.dbl p) = true
  mul : ∀ p e, wf p = true → wf (@scalarMul _ ops p e) = true ∧ eq (@scalarMul _ ops p e) (@scalarMul _ ops' p e) = true

end Libff
