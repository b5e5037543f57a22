import Verif.Spec.Group
import Mathlib.Data.List.Forall2

/-!
# Group classes whose objects may be malformed

Not every triple of coordinates is a point.  `Rep g a` says that the object `g` denotes the group element
`a`; the operations are only required to be correct on objects that denote something.
-/
namespace Libff

/-- Every operation, applied to objects that denote group elements, returns an object denoting the result. -/
structure ImplementsRel {G A : Type*} [GroupOps G] [AddCommGroup A] (Rep : G → A → Prop) : Prop where
  unique : ∀ {g a b}, Rep g a → Rep g b → a = b
  zero : Rep GroupOps.zero 0
  add : ∀ {g h a b}, Rep g a → Rep h b → Rep (GroupOps.add g h) (a + b)
  sub : ∀ {g h a b}, Rep g a → Rep h b → Rep (GroupOps.sub g h) (a - b)
  dbl : ∀ {g a}, Rep g a → Rep (GroupOps.dbl g) (a + a)

namespace ImplementsRel
variable {G A : Type*} [GroupOps G] [AddCommGroup A] {Rep : G → A → Prop}

/-- The same class, restricted to the objects that denote group elements. -/
@[reducible] def validOps (h : ImplementsRel Rep) : GroupOps {g : G // ∃ a, Rep g a} where
  zero := ⟨GroupOps.zero, 0, h.zero⟩
  add x y := ⟨GroupOps.add x.1 y.1, by
    obtain ⟨x, a, ha⟩ := x; obtain ⟨y, b, hb⟩ := y; exact ⟨a + b, h.add ha hb⟩⟩
  sub x y := ⟨GroupOps.sub x.1 y.1, by
    obtain ⟨x, a, ha⟩ := x; obtain ⟨y, b, hb⟩ := y; exact ⟨a - b, h.sub ha hb⟩⟩
  dbl x := ⟨GroupOps.dbl x.1, by
    obtain ⟨x, a, ha⟩ := x; exact ⟨a + a, h.dbl ha⟩⟩

end ImplementsRel

/-- The group element a valid object denotes. -/
noncomputable def denote {G A : Type*} {Rep : G → A → Prop} (g : {g : G // ∃ a, Rep g a}) : A := g.2.choose

/-- What is needed of the addition used by the bucket loops: right whenever the second operand is special. -/
def AddsSpecial {G A : Type} [AddCommGroup A] (Rep : G → A → Prop) (Special : G → Prop) (addB : G → G → Outcome G) : Prop :=
  ∀ {g h : G} {a b : A}, Rep g a → Rep h b → Special h → ∃ r, addB g h = .ok r ∧ Rep r (a + b)

/-- What is needed of `batch_to_special`: the points stay the same and become special. -/
def NormalisesTo {G A : Type} (Rep : G → A → Prop) (Special : G → Prop) (norm : List G → Outcome (List G)) : Prop :=
  ∀ {gs : List G} {as : List A}, List.Forall₂ Rep gs as →
    ∃ l, norm gs = .ok l ∧ List.Forall₂ Rep l as ∧ ∀ x ∈ l, Special x

end Libff
