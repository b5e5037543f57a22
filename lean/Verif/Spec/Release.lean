import Verif.Model.Outcome

/-!
# Builds with and without assertions

`PERFORMANCE=ON` defines `NDEBUG` (CMakeLists.txt:181-182), which removes every `assert`. The specification of what a
user expects: assertions only check. As long as none fails, both builds do the same.
-/
namespace Libff

/-- `debug` is the outcome of a call in a build with assertions, `release` the outcome of the same call in a build
without: whatever value the first returns, the second returns too. -/
def AssertOnly {α : Type _} (debug release : Outcome α) : Prop := ∀ x, debug = .ok x → release = .ok x

end Libff
