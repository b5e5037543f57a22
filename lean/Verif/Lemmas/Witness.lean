import Verif.Lemmas.Tower
import Mathlib.Algebra.Field.ZMod
import Mathlib.Tactic.NormNum.Prime

/-!
# Small fields, used only to show that hypotheses can be met
-/
namespace Libff.Witness

/-- `x²` in `ZMod p`. -/
scoped instance instSquaredZMod (p : ℕ) : Squared (ZMod p) := ⟨fun x => x * x⟩
/-- `instSquaredZMod` is the square. -/
scoped instance instLawfulSquaredZMod (p : ℕ) : LawfulSquared (ZMod p) := ⟨fun _ => rfl⟩
/-- The inverse in `ZMod p`, aborting at zero. -/
scoped instance instInverseOZMod (p : ℕ) : InverseO (ZMod p) := ⟨fun x => if x = 0 then .abort else .ok x⁻¹⟩
/-- `instInverseOZMod` is lawful. -/
scoped instance instLawfulInverseZMod (p : ℕ) [Fact p.Prime] : LawfulInverse (ZMod p) :=
  ⟨if_pos rfl, fun _ h => if_neg h⟩
/-- 5 is prime. -/
scoped instance instPrime5 : Fact (Nat.Prime 5) := ⟨by norm_num⟩
/-- 7 is prime. -/
scoped instance instPrime7 : Fact (Nat.Prime 7) := ⟨by norm_num⟩
/-- 13 is prime. -/
scoped instance instPrime13 : Fact (Nat.Prime 13) := ⟨by norm_num⟩
/-- 17 is prime. -/
scoped instance instPrime17 : Fact (Nat.Prime 17) := ⟨by norm_num⟩

end Libff.Witness
