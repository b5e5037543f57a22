import Verif.Model.InitThreads

/-!
# Which curves share static variables
-/
namespace Libff.Init

/-- The same curve, or mnt4 and mnt6, whose two fields are the same classes. -/
def Curve.SharesWith (c d : Curve) : Prop := c = d ∨ (c = .mnt4 ∧ d = .mnt6) ∨ (c = .mnt6 ∧ d = .mnt4)

instance instDecidableSharesWith (c d : Curve) : Decidable (c.SharesWith d) := inferInstanceAs (Decidable (_ ∨ _))

/-- A computation of thread `i` with parameters of curves that no thread is initialising: it reads static variables of such curves and
objects of its own, and writes objects of its own. -/
def UsesOnlyOthers {V : Type} (inits : List (List Curve)) (i : Nat) (p : Prog SLoc fun _ => V) : Prop :=
  Confined (fun l => ∃ (d : Curve) (x : Var), l = .static x ∧ x ∈ assigned d.init ∧ ∀ h ∈ inits, ∀ c ∈ h, ¬ c.SharesWith d)
    (fun l => ∃ k, l = .own i k) p

end Libff.Init
